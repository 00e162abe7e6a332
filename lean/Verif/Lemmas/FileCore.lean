import Mathlib.Data.List.Nodup
import Mathlib.Data.List.Perm.Subperm
import Verif.Lemmas.SaveOpen
import Verif.Lemmas.NormVisits

/-
What a save that succeeded left, and what opening it gives.
-/

namespace Avb

open Relation

/-- Different objects of the graph have different instance ids: true of the objects of one file. -/
def IidInj (h : Heap) (content : Ref) : Prop :=
  ∀ a b ea eb, Reach h content a → Reach h content b → h a = .ok ea → h b = .ok eb →
    ea.iid = eb.iid → a = b

/-- The number of an object in the final reference mapping. -/
def numOf (h : Heap) (s : SaveSt) (r : Ref) : Nat := (refMapOf h s.map r).getD 0

/-- Class ids and data of the chunks. -/
def Chunk.pair (ck : Chunk) : Bytes × Bytes := (ck.ent.obj.cls.id, ck.data)

/-- The opened form of a file with the given chunks and root index. -/
def rootedFile (bo : BO) (hd : HeaderInfo) (pre post : Bytes) (done : List Chunk) (root : Nat) : AvbFile :=
  ⟨bo, { num_objects := done.length, root_index := root, last_save := hd.last_save,
         creator_version := creatorNorm hd.creator_version },
    0 :: offsets (headerBytes bo pre post done.length root).length (done.map (·.data)),
    headerBytes bo pre post done.length root ++
      done.flatMap fun ck => chunkBytes bo ck.ent.obj.cls.id ck.data,
    (headerBytes bo pre post done.length root).length⟩

/-- The opened form of a saved file. -/
def savedFile (bo : BO) (hd : HeaderInfo) (pre post : Bytes) (done : List Chunk) : AvbFile :=
  rootedFile bo hd pre post done done.length

structure SaveCore (h : Heap) (bo : BO) (hd : HeaderInfo) (content : Ref) (bytes pre post : Bytes)
    (s : SaveSt) (done : List Chunk) : Prop where
  hpre : (writeHeaderPre bo hd).bytes = .ok pre
  hpost : (writeHeaderPost bo hd).bytes = .ok post
  inv : SaveInv h bo s done
  count : done.length < 2 ^ 32
  data : bytes = (savedFile bo hd pre post done).data
  numbered : ∀ r, Reach h content r → ∃ e k, h r = .ok e ∧ s.map e.iid = some k
  reach : ∀ ck ∈ done, Reach h content ck.ref

theorem save_core' {h : Heap} {fuel : Nat} {bo : BO} {hd : HeaderInfo} {content : Ref} {bytes : Bytes}
    (hh : HeapOK h) (hs : save h fuel bo hd content = .ok bytes) :
    ∃ pre post s done, SaveCore h bo hd content bytes pre post s done ∧
      (walkObj h fuel content).err = none ∧
      saveLoop h bo (walkObj h fuel content).out ⟨0, fun _ => none, []⟩ = (s, none) := by
  obtain ⟨pre, post, s, h1, h2, h3, h4, h5, rfl⟩ := save_ok hs
  obtain ⟨g1, g2⟩ := walkObj_good hh fuel content []
  obtain ⟨done, h6, h7, _, h8⟩ := saveLoop_inv SaveInv.init g1 (by intro r hr; cases hr) h4
  simp only [List.nil_append] at h6
  refine ⟨pre, post, s, done, ⟨h1, h2, h6, by rw [← h6.next]; exact h5, ?_, ?_, ?_⟩, h3, h4⟩
  · rw [h6.out, h6.next]; rfl
  · intro r hr
    refine h8 r (walkObj_mem ?_ h3 hr.2)
    rintro rfl
    rcases reflTransGen_iff_eq_or_transGen.1 hr.2 with h | h
    · exact hr.1 h
    · obtain ⟨_, ⟨_, _, h0, _⟩, _⟩ := TransGen.head'_iff.1 h
      exact h0 rfl
  · intro ck hck
    exact g2 _ (h7 ck hck)

theorem save_core {h : Heap} {fuel : Nat} {bo : BO} {hd : HeaderInfo} {content : Ref} {bytes : Bytes}
    (hh : HeapOK h) (hs : save h fuel bo hd content = .ok bytes) :
    ∃ pre post s done, SaveCore h bo hd content bytes pre post s done := by
  obtain ⟨pre, post, s, done, sc, _⟩ := save_core' hh hs
  exact ⟨pre, post, s, done, sc⟩

namespace SaveCore

variable {h : Heap} {bo : BO} {hd : HeaderInfo} {content : Ref} {bytes pre post : Bytes}
  {s : SaveSt} {done : List Chunk}

theorem tableAt (sc : SaveCore h bo hd content bytes pre post s done)
    (ht : TextOK .macroman hd.last_save_str) {root : Nat} (hroot : root < 2 ^ 32) :
    openTable (rootedFile bo hd pre post done root).data = .ok (rootedFile bo hd pre post done root) := by
  have := openTable_header sc.hpre sc.hpost ht (root := root) hroot (done.map Chunk.pair)
    (by simpa using sc.count) []
    (by
      intro p hp
      obtain ⟨ck, _, rfl⟩ := List.mem_map.1 hp
      exact Cls.id_length _)
    (by
      intro p hp
      obtain ⟨ck, hck, rfl⟩ := List.mem_map.1 hp
      exact sc.inv.small ck hck)
  simp only [List.length_map, List.flatMap_map, List.map_map, List.append_nil, Function.comp_def,
    Chunk.pair] at this
  exact this

theorem table (sc : SaveCore h bo hd content bytes pre post s done)
    (ht : TextOK .macroman hd.last_save_str) : openTable bytes = .ok (savedFile bo hd pre post done) := by
  rw [sc.data]
  exact sc.tableAt ht sc.count

/-- Every object of the graph has its own chunk. -/
theorem chunk (sc : SaveCore h bo hd content bytes pre post s done) (hinj : IidInj h content)
    {r : Ref} (hr : Reach h content r) :
    ∃ i, ∃ hi : i < done.length, done[i].ref = r ∧ h r = .ok done[i].ent ∧ numOf h s r = i + 1 := by
  obtain ⟨e, k, he, hk⟩ := sc.numbered r hr
  obtain ⟨i, hi, rfl, h2⟩ := sc.inv.bwd _ _ hk
  have hmem : done[i] ∈ done := List.getElem_mem hi
  have h3 := sc.inv.ent _ hmem
  have h4 := hinj _ _ _ _ (sc.reach _ hmem) hr h3 he h2
  subst h4
  exact ⟨i, hi, rfl, h3, by unfold numOf refMapOf; rw [he]; simp [hk]⟩

/-- The chunks are numbered in the order they are written. -/
theorem num (sc : SaveCore h bo hd content bytes pre post s done) {i : Nat} (hi : i < done.length) :
    numOf h s done[i].ref = i + 1 := by
  unfold numOf refMapOf
  rw [sc.inv.ent _ (List.getElem_mem hi)]
  simp [sc.inv.fwd i hi]

theorem num_lt (sc : SaveCore h bo hd content bytes pre post s done) (hinj : IidInj h content)
    {a b : Ref} (ha : Reach h content a) (hab : Edge h a b) : numOf h s b < numOf h s a := by
  obtain ⟨i, hi, rfl, h2, h3⟩ := sc.chunk hinj ha
  obtain ⟨e, he, _, hb, v, hv, rfl⟩ := hab
  rw [h2] at he; cases he
  obtain ⟨m, h4, _, h5⟩ := sc.inv.each i hi
  obtain ⟨k, hk, h6⟩ := h5 v hv hb
  unfold refMapOf at h6
  cases hv' : h v.ref with
  | error e => rw [hv'] at h6; cases h6
  | ok e =>
    rw [hv'] at h6
    have h7 := h4 _ _ h6
    have : numOf h s v.ref = k := by unfold numOf refMapOf; rw [hv']; simp [h7]
    omega

/-- The content is the last chunk. -/
theorem root (sc : SaveCore h bo hd content bytes pre post s done) (hinj : IidInj h content)
    (hc : content ≠ 0) : numOf h s content = done.length := by
  obtain ⟨i, hi, h1, _, h2⟩ := sc.chunk hinj (r := content) ⟨hc, .refl⟩
  rw [h2]
  by_contra hne
  have hl : done.length - 1 < done.length := by omega
  have hr := sc.reach _ (List.getElem_mem hl)
  have hn := sc.num hl
  rcases reflTransGen_iff_eq_or_transGen.1 hr.2 with h3 | h3
  · rw [h3, h2] at hn; omega
  · have key : ∀ a b, Reach h content a → TransGen (Edge h) a b → numOf h s b < numOf h s a := by
      intro a b ha hab
      induction hab with
      | single h4 => exact sc.num_lt hinj ha h4
      | tail h4 h5 ih =>
        obtain ⟨_, _, _, hb0, _⟩ := id h5
        obtain ⟨_, _, hb1, _⟩ := id h5
        exact Nat.lt_trans (sc.num_lt hinj ⟨hb1, ha.2.trans h4.to_reflTransGen⟩ h5) ih
    have := key content _ ⟨hc, .refl⟩ h3
    omega

/-- The context in which every reference has its final number. -/
def finalCtx (bo : BO) (num : Ref → Nat) : WCtx := ⟨bo, fun r => some (num r)⟩

/-- Chunk `i` is read back as the object written. -/
theorem readAt (sc : SaveCore h bo hd content bytes pre post s done) (hh : HeapOK h) (root : Nat)
    {i : Nat} (hi : i < done.length) (hx : done[i].ent.obj.Readable) :
    readObject (rootedFile bo hd pre post done root) (i + 1) =
      .ok (some (done[i].ent.obj.norm (finalCtx bo (numOf h s)))) := by
  obtain ⟨m, h4, hw, h5⟩ := sc.inv.each i hi
  have hd1 : (rootedFile bo hd pre post done root).ctx = ⟨bo, done.length + 1⟩ := by
    simp [AvbFile.ctx, rootedFile, offsets_length]
  have hl : Linked ⟨bo, refMapOf h m⟩ (rootedFile bo hd pre post done root).ctx := by
    rw [hd1]
    refine ⟨rfl, Nat.succ_pos _, ?_⟩
    intro r k hk
    change refMapOf h m r = some k at hk
    unfold refMapOf at hk
    cases hr : h r with
    | error e => rw [hr] at hk; cases hk
    | ok e =>
      rw [hr] at hk
      obtain ⟨j, hj, h6, _⟩ := sc.inv.bwd _ _ (h4 _ _ hk)
      simp only
      omega
  have hcongr : done[i].ent.obj.norm ⟨bo, refMapOf h m⟩ = done[i].ent.obj.norm (finalCtx bo (numOf h s)) := by
    refine Obj.norm_congr ?_
    intro v hv
    have hv := (hh _ _ (sc.inv.ent _ (List.getElem_mem hi)) v).2 hv
    unfold WCtx.tr finalCtx
    by_cases h0 : v.ref = 0
    · rw [if_pos h0, if_pos h0]
    · rw [if_neg h0, if_neg h0]
      obtain ⟨k, _, h6⟩ := h5 v hv h0
      simp only [h6, Option.getD_some]
      unfold refMapOf at h6
      cases hv' : h v.ref with
      | error e => rw [hv'] at h6; cases h6
      | ok e =>
        rw [hv'] at h6
        have h7 := h4 _ _ h6
        unfold numOf refMapOf
        rw [hv']
        simp [h7]
  rw [← hcongr]
  have hi' : i < (done.map Chunk.pair).length := by simpa using hi
  obtain ⟨pos, tail, h6, h7⟩ := offsets_drop (bo := bo) (done.map Chunk.pair)
    (headerBytes bo pre post done.length root) i
    (by
      intro p hp
      obtain ⟨ck, _, rfl⟩ := List.mem_map.1 hp
      exact Cls.id_length _) hi'
  simp only [List.map_map, Function.comp_def, Chunk.pair, List.flatMap_map, List.getElem_map] at h6 h7
  refine readObject_chunk (k := done[i].ent.obj.cls) (data := done[i].data) (tail := tail) (pos := pos)
    (Nat.succ_ne_zero i) ?_ h7 (sc.inv.small _ (List.getElem_mem hi)) (Cls.ofId_id _) ?_
  · simpa [rootedFile] using h6
  · have := Obj.rt hl hx _ hw [] trivial
    simpa using this

theorem read (sc : SaveCore h bo hd content bytes pre post s done) (hh : HeapOK h)
    {i : Nat} (hi : i < done.length) (hx : done[i].ent.obj.Readable) :
    readObject (savedFile bo hd pre post done) (i + 1) =
      .ok (some (done[i].ent.obj.norm (finalCtx bo (numOf h s)))) :=
  sc.readAt hh done.length hi hx

theorem noContent (sc : SaveCore h bo hd 0 bytes pre post s done) : done = [] := by
  cases done with
  | nil => rfl
  | cons ck l =>
    have hr := sc.reach ck List.mem_cons_self
    rcases reflTransGen_iff_eq_or_transGen.1 hr.2 with h3 | h3
    · exact absurd h3 hr.1
    · obtain ⟨_, ⟨_, _, h0, _⟩, _⟩ := TransGen.head'_iff.1 h3
      exact absurd rfl h0

end SaveCore

/-! ### saves that succeed -/

theorem Obj.write_last {c : WCtx} {x : Obj} {bs : Bytes} (h1 : x.cls ≠ .TRKG) (h2 : x.cls ≠ .DATD)
    (h : x.write c = .ok ((), bs)) : bs.getLast? = some 3 := by
  obtain ⟨p, rfl⟩ := Obj.write_ends h1 h2 bs h
  simp

theorem SaveInv.nodup {h bo s done} (inv : SaveInv h bo s done) : (done.map (·.ref)).Nodup := by
  rw [List.nodup_iff_injective_getElem]
  intro ⟨i, hi⟩ ⟨j, hj⟩ hij
  simp only [List.length_map] at hi hj
  simp only [List.getElem_map] at hij
  have h1 := inv.ent _ (List.getElem_mem hi)
  have h2 := inv.ent _ (List.getElem_mem hj)
  rw [hij, h2] at h1
  injection h1 with h1
  have h3 := inv.fwd i hi
  have h4 := inv.fwd j hj
  rw [h1] at h4
  rw [h4] at h3
  simp only [Option.some.injEq] at h3
  simp only [Fin.mk.injEq]
  omega

theorem SaveInv.count {h bo s done} (inv : SaveInv h bo s done) {L : List Ref}
    (hL : ∀ ck ∈ done, ck.ref ∈ L) : done.length ≤ L.length := by
  have := (List.subperm_of_subset (l₂ := L) inv.nodup (by
    intro r hr
    obtain ⟨ck, hck, rfl⟩ := List.mem_map.1 hr
    exact hL ck hck)).length_le
  simpa using this

/-- Objects that can each be written in some context are all written by the save loop. -/
theorem saveLoop_ok {h : Heap} (hh : HeapOK h) {bo : BO} {L : List Ref} (hLn : L.length < 2 ^ 32)
    {rs : List Ref} {s : SaveSt} {done : List Chunk}
    {seen : List Ref} (inv : SaveInv h bo s done) (hpo : PO h seen rs) (hseen : Numbered h s seen)
    (hdone : ∀ ck ∈ done, ck.ref ∈ L) (hrs : ∀ r ∈ rs, r ∈ L)
    (hw : ∀ r ∈ rs, ∀ e, h r = .ok e → e.own = true ∧ e.obj.cls ≠ .TRKG ∧ e.obj.cls ≠ .DATD ∧
      ∃ c data, e.obj.write c = .ok ((), data) ∧ data.length < 2 ^ 32) :
    ∃ s', saveLoop h bo rs s = (s', none) := by
  induction rs generalizing s done seen with
  | nil => exact ⟨s, rfl⟩
  | cons r rs ih =>
    obtain ⟨⟨e, he, hv⟩, hpo⟩ := hpo
    simp only [saveLoop, he]
    have hrs' : ∀ x ∈ rs, x ∈ L := fun x hx => hrs x (List.mem_cons_of_mem _ hx)
    have hw' := fun x hx => hw x (List.mem_cons_of_mem _ hx)
    by_cases hm : (s.map e.iid).isSome
    · rw [if_pos hm]
      obtain ⟨k, hk⟩ := Option.isSome_iff_exists.1 hm
      refine ih (seen := r :: seen) inv hpo ?_ hdone hrs' hw'
      intro x hx
      rcases List.mem_cons.1 hx with rfl | hx
      · exact ⟨e, k, he, hk⟩
      · exact hseen x hx
    · rw [if_neg hm]
      have hnew : s.map e.iid = none := by simpa using hm
      obtain ⟨hown, hc1, hc2, c0, d0, hwr, hlen⟩ := hw r List.mem_cons_self e he
      have keep : ∀ id k, s.map id = some k → mapSet s.map e.iid (s.next + 1) id = some k := by
        intro id k hk
        unfold mapSet
        rw [if_neg]
        · exact hk
        · rintro rfl; rw [hnew] at hk; cases hk
      have hcount := inv.count hdone
      have hvo : VisitsOK ⟨bo, refMapOf h (mapSet s.map e.iid (s.next + 1))⟩ e.obj.visits := by
        intro v hv1
        by_cases h0 : v.ref = 0
        · exact .inl h0
        · obtain ⟨e', k, h5, h6⟩ := hseen _ (hv v ((hh _ _ he v).2 hv1) h0)
          obtain ⟨i, hi, h7, _⟩ := inv.bwd _ _ h6
          refine .inr ⟨k, ?_, by omega⟩
          simp only [refMapOf, h5]
          exact keep _ _ h6
      obtain ⟨d1, hwr1, hl1⟩ := Obj.write_rel hvo.rel _ _ hwr
      have hwo := writeObject_of hown hwr1 (Obj.write_last hc1 hc2 hwr1) (by omega)
      rw [hwo]
      obtain ⟨data, inv'⟩ := inv.step he hnew (fun v hv1 hv2 => hseen _ (hv v hv1 hv2)) hwo
      refine ih (seen := r :: seen) inv' hpo ?_ ?_ hrs' hw'
      · intro x hx
        rcases List.mem_cons.1 hx with rfl | hx
        · exact ⟨e, s.next + 1, he, by simp [mapSet]⟩
        · obtain ⟨e', k, h1, h2⟩ := hseen x hx
          exact ⟨e', k, h1, keep _ _ h2⟩
      · intro ck hck
        rcases List.mem_append.1 hck with hck | hck
        · exact hdone ck hck
        · rw [List.mem_singleton.1 hck]; exact hrs r List.mem_cons_self

end Avb

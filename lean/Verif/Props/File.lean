import Verif.Lemmas.Crash
import Verif.Props.Examples

/-
C12-C17 and C43: saving a graph of objects and opening the file again.
-/

namespace Avb

open Relation SaveCore

/-! ### C12, C14: the graph survives -/

/-- An opened file holds the graph reachable from `content` in `h`, object `a` having number `num a`:
the objects of the graph have the numbers 1 to N, each number once; the root of the file is the content;
reading number `num a` gives the object at `a` with every reference replaced by the number of the object
it refers to (`Obj.norm` says which field values are read back). -/
structure SameGraph (h : Heap) (content : Ref) (f : AvbFile) (num : Ref → Nat) : Prop where
  inj : ∀ a b, Reach h content a → Reach h content b → num a = num b → a = b
  onto : ∀ k, (1 ≤ k ∧ k ≤ f.header.num_objects) ↔ ∃ a, Reach h content a ∧ num a = k
  root : f.header.root_index = if content = 0 then 0 else num content
  same : ∀ a e, Reach h content a → h a = .ok e →
    readObject f (num a) = .ok (some (e.obj.norm (finalCtx f.bo num)))

/-- C12: when a save succeeds, opening the bytes gives the saved graph, and the content of the opened
file is the object that was saved as content. -/
theorem C12_save_open {h : Heap} {fuel : Nat} {bo : BO} {hd : HeaderInfo} {content : Ref}
    {bytes : Bytes} (hh : HeapOK h) (hinj : IidInj h content)
    (ht : TextOK .macroman hd.last_save_str)
    (hread : ∀ a e, Reach h content a → h a = .ok e → e.obj.Readable)
    (hs : save h fuel bo hd content = .ok bytes) :
    ∃ f num, openTable bytes = .ok f ∧ f.bo = bo ∧ SameGraph h content f num ∧
      (content = 0 → openFile bytes = .ok (f, none)) ∧
      (∀ e, content ≠ 0 → h content = .ok e →
        openFile bytes = .ok (f, some (e.obj.norm (finalCtx bo num)))) := by
  obtain ⟨pre, post, s, done, sc⟩ := save_core hh hs
  have same : ∀ a e, Reach h content a → h a = .ok e →
      readObject (savedFile bo hd pre post done) (numOf h s a) =
        .ok (some (e.obj.norm (finalCtx bo (numOf h s)))) := by
    intro a e ha he
    obtain ⟨i, hi, rfl, h2, h3⟩ := sc.chunk hinj ha
    rw [h2] at he; cases he
    rw [h3]
    exact sc.read hh hi (hread _ _ ha h2)
  have hroot : content ≠ 0 → numOf h s content = done.length := sc.root hinj
  refine ⟨_, numOf h s, sc.table ht, rfl, ⟨?_, ?_, ?_, same⟩, ?_, ?_⟩
  · intro a b ha hb hab
    obtain ⟨i, hi, rfl, _, h3⟩ := sc.chunk hinj ha
    obtain ⟨j, hj, rfl, _, h4⟩ := sc.chunk hinj hb
    have : i = j := by omega
    subst this; rfl
  · intro k
    constructor
    · rintro ⟨h1, h2⟩
      have hi : k - 1 < done.length := by
        change k ≤ done.length at h2; omega
      exact ⟨_, sc.reach _ (List.getElem_mem hi), by rw [sc.num hi]; omega⟩
    · rintro ⟨a, ha, rfl⟩
      obtain ⟨i, hi, rfl, _, h3⟩ := sc.chunk hinj ha
      rw [h3]
      exact ⟨by omega, by change i + 1 ≤ done.length; omega⟩
  · by_cases hc : content = 0
    · subst hc
      rw [if_pos rfl]
      change done.length = 0
      rw [sc.noContent]; rfl
    · rw [if_neg hc, hroot hc]; rfl
  · rintro rfl
    unfold openFile
    rw [sc.table ht]
    simp only
    have : (savedFile bo hd pre post done).header.root_index = 0 := by
      change done.length = 0
      rw [sc.noContent]; rfl
    rw [this]
    unfold readObject
    rw [if_pos rfl]
  · intro e hc he
    unfold openFile
    rw [sc.table ht]
    simp only
    have : (savedFile bo hd pre post done).header.root_index = numOf h s content := (hroot hc).symm
    rw [this, same content e ⟨hc, .refl⟩ he]

/-- A sequence of a gap, a clip and the same gap again, saved and opened. -/
example (bo : BO) : ∃ bytes f num, save exHeap 10 bo exInfo 1 = .ok bytes ∧
    openTable bytes = .ok f ∧ SameGraph exHeap 1 f num := by
  obtain ⟨bytes, hs⟩ := exHeap_save bo
  obtain ⟨f, num, h1, _, h2, _⟩ := C12_save_open exHeap_ok (exHeap_inj 1) exInfo_ok
    (fun _ _ _ he => exHeap_readable he) hs
  exact ⟨bytes, f, num, hs, h1, h2⟩

/-- C12: a finite acyclic graph of loadable objects of the saved file, each of which can be written,
can be saved with a sufficient recursion limit. -/
theorem C12_save_succeeds {h : Heap} {bo : BO} {hd : HeaderInfo} {content : Ref} {pre post : Bytes}
    (hh : HeapOK h) (rank : Ref → Nat)
    (hrank : ∀ a b, Reach h content a → Edge h a b → rank b < rank a)
    (L : List Ref) (hL : ∀ a, Reach h content a → a ∈ L) (hlen : L.length < 2 ^ 32)
    (hload : ∀ a, Reach h content a → ∃ e, h a = .ok e ∧ e.own = true ∧ e.obj.cls ≠ .TRKG ∧
      e.obj.cls ≠ .DATD ∧ ∃ c data, e.obj.write c = .ok ((), data) ∧ data.length < 2 ^ 32)
    (hpre : (writeHeaderPre bo hd).bytes = .ok pre) (hpost : (writeHeaderPost bo hd).bytes = .ok post) :
    ∃ fuel₀, ∀ fuel ≥ fuel₀, ∃ bytes, save h fuel bo hd content = .ok bytes := by
  refine ⟨rank content + 2, fun fuel hfuel => ?_⟩
  have hw : (walkObj h fuel content).err = none :=
    walkObj_ok hh rank fuel content hrank
      (fun x hx => (hload x hx).imp fun e he => he.1) (by omega)
  obtain ⟨g1, g2⟩ := walkObj_good hh fuel content []
  obtain ⟨s', hs'⟩ := saveLoop_ok hh (bo := bo) hlen SaveInv.init g1 (by intro r hr; cases hr)
    (by intro ck hck; cases hck) (fun r hr => hL r (g2 r hr)) (by
      intro r hr e he
      obtain ⟨e', h1, h2⟩ := hload r (g2 r hr)
      rw [he] at h1; cases h1
      exact h2)
  obtain ⟨done, h6, h7, _, _⟩ := saveLoop_inv SaveInv.init g1 (by intro r hr; cases hr) hs'
  simp only [List.nil_append] at h6
  have hc := h6.count (L := L) (fun ck hck => hL _ (g2 _ (h7 ck hck)))
  exact ⟨_, save_of hpre hpost hw hs' (by rw [h6.next]; omega)⟩

theorem exInfo_pre (bo : BO) : ∃ pre, (writeHeaderPre bo exInfo).bytes = .ok pre := by
  cases bo <;> exact ⟨_, rfl⟩

theorem exInfo_post (bo : BO) : ∃ post, (writeHeaderPost bo exInfo).bytes = .ok post := by
  cases bo <;> exact ⟨_, rfl⟩

/-- The example graph meets the hypotheses: its edges go from 1 to 2 and 3. -/
example (bo : BO) : ∃ fuel₀, ∀ fuel ≥ fuel₀, ∃ bytes, save exHeap fuel bo exInfo 1 = .ok bytes := by
  obtain ⟨pre, hpre⟩ := exInfo_pre bo
  obtain ⟨post, hpost⟩ := exInfo_post bo
  have hedge : ∀ a b, Edge exHeap a b → a = 1 ∧ (b = 2 ∨ b = 3) := by
    rintro a b ⟨e, he, _, hb, v, hv, rfl⟩
    rcases exHeap_cases he with ⟨rfl, rfl⟩ | ⟨rfl, rfl⟩ | ⟨rfl, rfl⟩
    · have h1 : ∀ v ∈ exSeq.visits, v.ref ≠ 0 → v.ref = 2 ∨ v.ref = 3 := by decide
      exact ⟨rfl, h1 v hv hb⟩
    · have h1 : ∀ v ∈ exFill.visits, v.ref = 0 := by decide
      exact absurd (h1 v hv) hb
    · have h1 : ∀ v ∈ exClip.visits, v.ref = 0 := by decide
      exact absurd (h1 v hv) hb
  have hreach : ∀ a, Reach exHeap 1 a → a = 1 ∨ a = 2 ∨ a = 3 := by
    rintro a ⟨_, ha⟩
    induction ha with
    | refl => exact .inl rfl
    | tail _ hbc _ => exact .inr (hedge _ _ hbc).2
  refine C12_save_succeeds exHeap_ok (fun r => if r = 1 then 1 else 0) ?_ [1, 2, 3] ?_ (by decide) ?_
    hpre hpost
  · intro a b _ hab
    obtain ⟨rfl, rfl | rfl⟩ := hedge a b hab <;> decide
  · intro a ha
    rcases hreach a ha with rfl | rfl | rfl <;> decide
  · intro a ha
    rcases hreach a ha with rfl | rfl | rfl
    · exact ⟨_, rfl, rfl, by decide, by decide, ⟨.little, fun _ => some 1⟩, _, rfl, by decide⟩
    · exact ⟨_, rfl, rfl, by decide, by decide, ⟨.little, fun _ => some 1⟩, _, rfl, by decide⟩
    · exact ⟨_, rfl, rfl, by decide, by decide, ⟨.little, fun _ => some 1⟩, _, rfl, by decide⟩

/-! ### C13: references point backwards -/

/-- C13: in a saved file every reference read from chunk `k` is 0 or the number of an earlier chunk, the
root is the last chunk, and the count in the header is the number of chunks in the table. -/
theorem C13_backwards {h : Heap} {fuel : Nat} {bo : BO} {hd : HeaderInfo} {content : Ref}
    {bytes : Bytes} (hh : HeapOK h) (hinj : IidInj h content)
    (ht : TextOK .macroman hd.last_save_str)
    (hread : ∀ a e, Reach h content a → h a = .ok e → e.obj.Readable)
    (hs : save h fuel bo hd content = .ok bytes) :
    ∃ f, openTable bytes = .ok f ∧ f.header.root_index = f.header.num_objects ∧
      f.positions.length = f.header.num_objects + 1 ∧
      ∀ k, 1 ≤ k → k ≤ f.header.num_objects →
        ∃ o, readObject f k = .ok (some o) ∧ ∀ v ∈ o.visits, v.ref < k := by
  obtain ⟨pre, post, s, done, sc⟩ := save_core hh hs
  refine ⟨_, sc.table ht, rfl, by simp [savedFile, rootedFile, offsets_length], ?_⟩
  intro k h1 h2
  change k ≤ done.length at h2
  have hi : k - 1 < done.length := by omega
  have he := sc.inv.ent _ (List.getElem_mem hi)
  have hr := sc.reach _ (List.getElem_mem hi)
  have hn := sc.num hi
  have hk : k - 1 + 1 = k := by omega
  rw [hk] at hn
  have := sc.read hh hi (hread _ _ hr he)
  rw [hk] at this
  refine ⟨_, this, ?_⟩
  intro v hv
  obtain ⟨u, hu, rfl⟩ := Obj.norm_visits hv
  rw [Visit.map_ref]
  unfold WCtx.tr
  by_cases h0 : u.ref = 0
  · rw [if_pos h0]; exact h1
  · rw [if_neg h0]
    simp only [finalCtx, Option.getD_some]
    rw [← hn]
    refine sc.num_lt hinj hr ⟨_, he, ?_, h0, u, (hh _ _ he u).2 hu, rfl⟩
    exact hr.1

example (bo : BO) : ∃ bytes f, save exHeap 10 bo exInfo 1 = .ok bytes ∧ openTable bytes = .ok f ∧
    ∃ o, readObject f f.header.root_index = .ok (some o) ∧ ∀ v ∈ o.visits, v.ref < f.header.root_index := by
  obtain ⟨bytes, hs⟩ := exHeap_save bo
  obtain ⟨f, h1, h2, _, h3⟩ := C13_backwards exHeap_ok (exHeap_inj 1) exInfo_ok
    (fun _ _ _ he => exHeap_readable he) hs
  obtain ⟨f', num, h1', _, h4, _⟩ := C12_save_open exHeap_ok (exHeap_inj 1) exInfo_ok
    (fun _ _ _ he => exHeap_readable he) hs
  rw [h1] at h1'; cases h1'
  have h5 := (h4.onto (num 1)).2 ⟨1, ⟨by decide, .refl⟩, rfl⟩
  exact ⟨bytes, f, hs, h1, h3 _ (by omega) (by omega)⟩

/-! ### C14: one chunk for each reachable object -/

/-- C14: the chunks of a saved file, listed by `chunks()`, are one per reachable object: there is a
numbering of the reachable objects by the positions of the list (the first entry, the header, apart),
and the chunk at the number of an object has the class of the object. -/
theorem C14_one_chunk_each {h : Heap} {fuel : Nat} {bo : BO} {hd : HeaderInfo} {content : Ref}
    {bytes : Bytes} (hh : HeapOK h) (hinj : IidInj h content)
    (ht : TextOK .macroman hd.last_save_str)
    (hs : save h fuel bo hd content = .ok bytes) :
    ∃ (f : AvbFile) (num : Ref → Nat), openTable bytes = .ok f ∧
      (∀ a, Reach h content a → 1 ≤ num a ∧ num a < f.positions.length) ∧
      (∀ a b, Reach h content a → Reach h content b → num a = num b → a = b) ∧
      (∀ k, 1 ≤ k → k < f.positions.length → ∃ a, Reach h content a ∧ num a = k) ∧
      (∀ a e, Reach h content a → h a = .ok e →
        ∃ ck, readChunk f (num a) = .ok ck ∧ ck.class_id = e.obj.cls.id) := by
  obtain ⟨pre, post, s, done, sc⟩ := save_core hh hs
  have hlen : (savedFile bo hd pre post done).positions.length = done.length + 1 := by
    simp [savedFile, rootedFile, offsets_length]
  refine ⟨_, numOf h s, sc.table ht, ?_, ?_, ?_, ?_⟩
  · intro a ha
    obtain ⟨i, hi, rfl, _, h3⟩ := sc.chunk hinj ha
    rw [hlen, h3]; omega
  · intro a b ha hb hab
    obtain ⟨i, hi, rfl, _, h3⟩ := sc.chunk hinj ha
    obtain ⟨j, hj, rfl, _, h4⟩ := sc.chunk hinj hb
    have : i = j := by omega
    subst this; rfl
  · intro k h1 h2
    rw [hlen] at h2
    have hi : k - 1 < done.length := by omega
    exact ⟨_, sc.reach _ (List.getElem_mem hi), by rw [sc.num hi]; omega⟩
  · intro a e ha he
    obtain ⟨i, hi, rfl, h2, h3⟩ := sc.chunk hinj ha
    rw [h2] at he; cases he
    have hi' : i < (done.map Chunk.pair).length := by simpa using hi
    obtain ⟨pos, tail, h6, h7⟩ := offsets_drop (bo := bo) (done.map Chunk.pair)
      (headerBytes bo pre post done.length done.length) i
      (by
        intro p hp
        obtain ⟨ck, _, rfl⟩ := List.mem_map.1 hp
        exact Cls.id_length _) hi'
    simp only [List.map_map, Function.comp_def, Chunk.pair, List.flatMap_map, List.getElem_map] at h6 h7
    rw [h3]
    have := readChunk_chunk (f := savedFile bo hd pre post done) (index := i + 1) (pos := pos)
      (Nat.succ_ne_zero i) (by simpa [savedFile, rootedFile] using h6) h7 (sc.inv.small _ (List.getElem_mem hi))
      (Cls.id_length _)
    exact ⟨_, this, rfl⟩

example (bo : BO) : ∃ bytes f, ∃ num : Ref → Nat, save exHeap 10 bo exInfo 1 = .ok bytes ∧ openTable bytes = .ok f ∧
    num 2 ≠ num 3 ∧ ∃ ck, readChunk f (num 2) = .ok ck ∧ ck.class_id = cc 'F' 'I' 'L' 'L' := by
  obtain ⟨bytes, hs⟩ := exHeap_save bo
  obtain ⟨f, num, h1, _, h2, _, h3⟩ := C14_one_chunk_each exHeap_ok (exHeap_inj 1) exInfo_ok hs
  have r2 : Reach exHeap 1 2 := ⟨by decide, .single ⟨_, rfl, by decide, by decide, .item 2, by decide, rfl⟩⟩
  have r3 : Reach exHeap 1 3 := ⟨by decide, .single ⟨_, rfl, by decide, by decide, .item 3, by decide, rfl⟩⟩
  refine ⟨bytes, f, num, hs, h1, ?_, h3 2 _ r2 rfl⟩
  intro h
  exact absurd (h2 2 3 r2 r3 h) (by decide)

/-- C14: the header counts the reachable objects. -/
theorem C14_count {h : Heap} {fuel : Nat} {bo : BO} {hd : HeaderInfo} {content : Ref}
    {bytes : Bytes} (hh : HeapOK h) (hinj : IidInj h content)
    (ht : TextOK .macroman hd.last_save_str)
    (hs : save h fuel bo hd content = .ok bytes) (L : List Ref) (hnd : L.Nodup)
    (hL : ∀ a, a ∈ L ↔ Reach h content a) :
    ∃ f, openTable bytes = .ok f ∧ f.header.num_objects = L.length := by
  obtain ⟨pre, post, s, done, sc⟩ := save_core hh hs
  refine ⟨_, sc.table ht, ?_⟩
  change done.length = L.length
  have hp : (done.map (·.ref)).Perm L := by
    rw [List.perm_ext_iff_of_nodup sc.inv.nodup hnd]
    intro a
    rw [hL, List.mem_map]
    constructor
    · rintro ⟨ck, hck, rfl⟩; exact sc.reach ck hck
    · intro ha
      obtain ⟨i, hi, h1, _⟩ := sc.chunk hinj ha
      exact ⟨_, List.getElem_mem hi, h1⟩
  simpa using hp.length_eq

/-! ### C15: cycles -/

/-- C15: when a cycle can be reached from the content, no save completes, whatever the recursion
limit. -/
theorem C15_cycle_never_saved {h : Heap} {bo : BO} {hd : HeaderInfo} {content a : Ref}
    (hr : ReflTransGen (Edge h) content a) (ha : TransGen (Edge h) a a) (fuel : Nat) :
    ∀ bytes, save h fuel bo hd content ≠ .ok bytes := by
  intro bytes hs
  obtain ⟨_, _, _, _, _, h3, _⟩ := save_ok hs
  exact walkObj_cycle hr ha h3

/-- Two sequences holding each other. -/
def exCycle : Heap := fun r =>
  if r = 1 then .ok ⟨1, true, .SEQU { toComponent := exComp [], components := [2] }, [.item 2]⟩
  else if r = 2 then .ok ⟨2, true, .SEQU { toComponent := exComp [], components := [1] }, [.item 1]⟩
  else .error .index

example (fuel : Nat) (bo : BO) : ∀ bytes, save exCycle fuel bo exInfo 1 ≠ .ok bytes :=
  C15_cycle_never_saved .refl
    (.tail (.single ⟨_, rfl, by decide, by decide, .item 2, by decide, rfl⟩)
      ⟨_, rfl, by decide, by decide, .item 1, by decide, rfl⟩) fuel

/-- C15: and with a limit that is large enough the only graphs refused for recursion are cyclic ones:
if every reachable object loads and references strictly decrease a rank, the traversal completes. -/
theorem C15_acyclic_walk {h : Heap} {content : Ref} (hh : HeapOK h) (rank : Ref → Nat)
    (hrank : ∀ a b, Reach h content a → Edge h a b → rank b < rank a)
    (hload : ∀ a, Reach h content a → ∃ e, h a = .ok e) :
    ∀ fuel, rank content + 1 < fuel → (walkObj h fuel content).err = none :=
  fun fuel hf => walkObj_ok hh rank fuel content hrank hload hf

/-- The example graph: the sequence, then its components. -/
example : (walkObj exHeap 4 1).err = none := by
  have hedge : ∀ a b, Edge exHeap a b → a = 1 ∧ (b = 2 ∨ b = 3) := by
    rintro a b ⟨e, he, _, hb, v, hv, rfl⟩
    rcases exHeap_cases he with ⟨rfl, rfl⟩ | ⟨rfl, rfl⟩ | ⟨rfl, rfl⟩
    · exact ⟨rfl, (by decide : ∀ v ∈ exSeq.visits, v.ref ≠ 0 → v.ref = 2 ∨ v.ref = 3) v hv hb⟩
    · exact absurd hb ((by decide : ∀ v ∈ exFill.visits, ¬ v.ref ≠ 0) v hv)
    · exact absurd hb ((by decide : ∀ v ∈ exClip.visits, ¬ v.ref ≠ 0) v hv)
  have hreach : ∀ a, Reach exHeap 1 a → a = 1 ∨ a = 2 ∨ a = 3 := by
    rintro a ⟨_, h⟩
    induction h with
    | refl => exact .inl rfl
    | tail _ e _ => exact .inr (hedge _ _ e).2
  refine C15_acyclic_walk exHeap_ok (fun r => if r = 1 then 1 else 0) ?_ ?_ 4 (by decide)
  · intro a b _ h
    obtain ⟨rfl, rfl | rfl⟩ := hedge a b h <;> decide
  · intro a ha
    rcases hreach a ha with rfl | rfl | rfl <;> exact ⟨_, rfl⟩

end Avb

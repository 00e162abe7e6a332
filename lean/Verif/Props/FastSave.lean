import Verif.Lemmas.FastSave
import Verif.Props.Fast
import Verif.Props.Errors
import Verif.Props.Editing

/-
C69: saving a file that was opened with the accelerated readers.
-/

namespace Avb.Fast

open Relation

/-- An object that can be read is a chunk of the file. -/
theorem readObject_chunk {f : AvbFile} {a : Nat} {o : Obj} (h : Avb.readObject f a = .ok (some o)) :
    ∃ payload, HasChunk f a o.cls.id payload := by
  have h' := h
  unfold Avb.readObject at h'
  split at h'
  · cases h'
  · next h0 =>
    split at h'
    · cases h'
    · next pos hp =>
      split at h'
      · cases h'
      · next id size rest hr =>
        split at h'
        · cases h'
        · next hl =>
          have hc := HasChunk.of_header h0 hp hr (by simpa using hl)
          split at h'
          · cases h'
          · next k hk =>
            split at h'
            · cases h'
            · next o' left hr' =>
              split at h'
              · cases h'
                rw [readAs_cls hr', ← Cls.id_of_some hk]
                exact ⟨_, hc⟩
              · cases h'

/-- What a program gets with the accelerated readers. -/
theorem entry_cases {f : AvbFile} {index : Nat} {payload : Bytes} {o : Obj}
    (h : HasChunk f index o.cls.id payload) (ho : Avb.readObject f index = .ok (some o))
    (hc : f.bo = .little → CountsOK f.positions.length o.cls payload) :
    (fileHeap f index = .ok ⟨index, true, o, o.visits⟩ ∧
      (f.bo = .big ∨ reader o.cls = none ∧ o.cls ≠ .ATTR)) ∨
    (f.bo = .little ∧ ∃ x a, o = .ATTR x ∧ readObject f index = .ok (some (.attributes a)) ∧
      loadAttr payload = .ok a ∧ SameAttributes a x ∧
      fileHeap f index = .ok ⟨index, true, .ATTR a, a.visits⟩) ∨
    (f.bo = .little ∧ o.cls ≠ .ATTR ∧ ∃ n e, RawText n ∧ RawText e ∧ o.NamesAre n e ∧
      fileHeap f index = .ok ⟨index, true, o.unsigned.renamed n e, o.dictVisits⟩) := by
  have hr := (C47_accepted h o).1 ho
  have hread := chunk_read h
  rw [Cls.ofId_id] at hread
  dsimp only at hread
  cases hb : f.bo with
  | big =>
    refine .inl ⟨?_, .inl rfl⟩
    rw [hb] at hread
    dsimp only at hread
    rw [hr] at hread
    unfold fileHeap
    rw [hread]
    rfl
  | little =>
    rw [hb] at hread
    dsimp only at hread
    have hd : f.ctx = ⟨.little, f.positions.length⟩ := by unfold AvbFile.ctx; rw [hb]
    rw [hd] at hr hread
    unfold loadChunk at hread
    by_cases hk : o.cls = .ATTR
    · rw [if_pos hk] at hread
      obtain ⟨x, rfl⟩ : ∃ x, o = .ATTR x := by
        cases o <;> first | exact ⟨_, rfl⟩ | cases hk
      obtain ⟨y, hx, hy⟩ := as_ok (g := Obj.ATTR) hr
      cases hy
      obtain ⟨a, ha, hs⟩ := C33_attributes hx
      rw [ha] at hread
      refine .inr (.inl ⟨rfl, x, a, rfl, hread, ha, hs, ?_⟩)
      unfold fileHeap
      rw [hread]
      rfl
    · rw [if_neg hk] at hread
      cases hf : reader o.cls with
      | none =>
        rw [hf] at hread
        dsimp only at hread
        rw [hr] at hread
        refine .inl ⟨?_, .inr ⟨rfl, hk⟩⟩
        unfold fileHeap
        rw [hread]
        rfl
      | some g =>
        rw [hf] at hread
        dsimp only at hread
        obtain ⟨p, hp, hs⟩ := C33_same_fields hf hr (hc hb)
        rw [hp] at hread
        rw [Obj.unsigned_props] at hs
        obtain ⟨n, e, hn, he, h1, h2⟩ := Props.object_of (o := o.unsigned) (p := p) (f := g)
          (by rw [Obj.unsigned_cls]; exact hf) (load_named (kn_reader hf) hp)
          (by rw [Obj.unsigned_cls]; exact hs)
        rw [Obj.unsigned_cls] at h2
        refine .inr (.inr ⟨rfl, hk, n, e, hn, he, Obj.unsigned_names.1 h1, ?_⟩)
        unfold fileHeap
        rw [hread]
        show (match p.object o.cls with
          | some o' => Except.ok (Entry.mk index true o' (p.visits o.cls))
          | none => Except.error Err.attribute) = _
        rw [h2]
        dsimp only
        rw [Props.object_visits h2, Obj.renamed_dict]

/-- An entry of the table that is, for saving, the object: of its class, with its references, it can be
written wherever the object can, is not much longer, and what is read back afterwards is the same. -/
structure Alike (o : Obj) (e : Entry) : Prop where
  own : e.own = true
  cls : e.obj.cls = o.cls
  visits : ∀ v, v ∈ e.visits ↔ v ∈ o.visits
  norm : ∀ c, e.obj.norm c = o.norm c
  writes : ∀ c, Wr.Ok (o.write c) → Wr.Ok (e.obj.write c)
  readable : o.Readable → e.obj.Readable
  size : ∀ c, Grow o.slack (o.write c) (e.obj.write c)

theorem Alike.refl {o : Obj} {r : Nat} : Alike o ⟨r, true, o, o.visits⟩ :=
  ⟨rfl, rfl, fun _ => Iff.rfl, fun _ => rfl, fun _ h => h, fun h => h, fun _ => Grow.refl⟩

theorem alike_attributes {a x : Attributes} {bs : Bytes} {r : Nat} (ha : loadAttr bs = .ok a)
    (hx : x.items = a.items.map seenAttr) : Alike (.ATTR x) ⟨r, true, .ATTR a, a.visits⟩ := by
  have raw := (loadAttr_raw ha).2
  obtain ⟨items⟩ := x
  dsimp only at hx
  subst hx
  refine ⟨rfl, rfl, fun v => ?_, fun c => ?_, fun c h => ?_, fun _ => ?_, fun c => ?_⟩
  · show v ∈ a.items.flatMap _ ↔ v ∈ (a.items.map seenAttr).flatMap _
    rw [List.flatMap_map]
    have : ∀ q : Text × AttrVal, (seenAttr q).2.visits = q.2.visits := by
      rintro ⟨t, v⟩; cases v <;> rfl
    simp only [this]
  · show Obj.ATTR (a.norm c) = Obj.ATTR (Attributes.norm c ⟨a.items.map seenAttr⟩)
    have : ∀ q : Text × AttrVal, Attributes.normItem c (seenAttr q) = Attributes.normItem c q := by
      rintro ⟨t, v⟩; cases v <;> simp [Attributes.normItem, seenAttr, AttrVal.norm, stripText_idem]
    simp only [Attributes.norm, List.map_map, Function.comp_def, this]
  · have h : Wr.Ok (Attributes.write c ⟨a.items.map seenAttr⟩) := h
    show Wr.Ok (a.write c)
    unfold Attributes.write at h ⊢
    simp only [Wr.ok_bind, Wr.ok_forW, List.length_map] at h ⊢
    refine ⟨h.1, h.2.1, h.2.2.1, fun q hq => ?_, h.2.2.2.2⟩
    have h1 := h.2.2.2.1 _ (List.mem_map_of_mem hq)
    obtain ⟨hn, hv⟩ := raw q hq
    obtain ⟨t, v⟩ := q
    unfold Attributes.writeItem at h1 ⊢
    cases v with
    | str s =>
      simp only [Wr.ok_bind, seenAttr] at h1 ⊢
      exact ⟨h1.1, hn.write, (hv s rfl).write⟩
    | raw s => exact h1
    | _ =>
      simp only [Wr.ok_bind, seenAttr] at h1 ⊢
      exact ⟨h1.1, hn.write, h1.2.2⟩
  · intro p hp
    obtain ⟨q, hq, hp⟩ := List.mem_flatMap.1 hp
    obtain ⟨hn, hv⟩ := raw q hq
    rcases List.mem_cons.1 hp with rfl | hp
    · exact hn.textOK
    · obtain ⟨t, v⟩ := q
      cases v with
      | str s =>
        rw [List.mem_singleton.1 hp]
        exact (hv s rfl).textOK
      | _ => cases hp
  · show Grow (131072 * (a.items.map seenAttr).length) (Attributes.write c ⟨a.items.map seenAttr⟩) (a.write c)
    unfold Attributes.write
    rw [List.length_map]
    iterate 3 refine Grow.pre ?_
    refine Grow.swap (Grow.forW fun q hq => ?_)
    obtain ⟨hn, hv⟩ := raw q hq
    obtain ⟨t, v⟩ := q
    unfold Attributes.writeItem
    cases v with
    | str s =>
      refine Grow.pre (Grow.bind (m := 65536) (m' := 65536) (Grow.of_small fun o => hn.size) ?_)
      exact Grow.of_small fun o => (hv s rfl).size
    | raw s => exact Grow.refl
    | _ => exact Grow.pre (Grow.swap (Grow.of_small fun o h => by have := hn.size h; omega))

theorem loaded_doubles {f : AvbFile} {index : Nat} {o : Obj} (ho : Avb.readObject f index = .ok (some o)) :
    o.Doubles := by
  obtain ⟨_, _, d, bs, hr⟩ := readObject_readAs ho
  rintro x rfl
  exact ((Obj.back (c := ⟨.little, fun _ => some 1⟩) (fun _ => Wr.ok_ref (.inr ⟨1, rfl, by decide⟩)) hr).2.2
    trivial).2

/-- C69: an object that can be read without the accelerated readers, and saved, is loaded by them in a form
that can be saved as well and is then the same: if no media kind, usage code, component width or control
point value is negative, and the names of the attributes differ without outer NULs. -/
theorem C69_object {f : AvbFile} {index : Nat} {payload : Bytes} {o : Obj}
    (h : HasChunk f index o.cls.id payload) (ho : Avb.readObject f index = .ok (some o))
    (hw : ∃ c, Wr.Ok (o.write c))
    (hc : f.bo = .little → CountsOK f.positions.length o.cls payload)
    (hn : f.bo = .little → o.NonNeg)
    (hnames : ∀ x, readObject f index = .ok (some (.attributes x)) →
      (x.items.map fun q => stripText q.1).Nodup) :
    ∃ e, fileHeap f index = .ok e ∧ Alike o e := by
  rcases entry_cases h ho hc with ⟨h1, _⟩ | ⟨_, x, a, rfl, h1, h2, h3, h4⟩ | ⟨hb, hk, n, e, rn, re, h1, h2⟩
  · exact ⟨_, h1, .refl⟩
  · exact ⟨_, h4, alike_attributes h2 (h3 (hnames a h1))⟩
  · obtain ⟨c, hw⟩ := hw
    rw [Obj.unsigned_same (Obj.signed hw (loaded_doubles ho)) (hn hb)] at h2
    refine ⟨_, h2, rfl, Obj.renamed_cls n e o, dictVisits_mem o, fun c => Obj.renamed_norm h1,
      fun c => Obj.renamed_write rn re, Obj.renamed_readable rn re, fun c => ?_⟩
    · refine (Obj.renamed_grow rn re).mono ?_
      cases o <;> first | exact (hk rfl).elim | exact le_rfl

/-- C69: the order in which the references of an object are followed by a save: that of `Obj.dictVisits` in
a little endian file, so that the tracks of an effect or a composition come after its key frames or its
descriptor; without the accelerated readers they come before. -/
theorem C69_order {f : AvbFile} {index : Nat} {payload : Bytes} {o : Obj}
    (h : HasChunk f index o.cls.id payload) (ho : Avb.readObject f index = .ok (some o))
    (hc : f.bo = .little → CountsOK f.positions.length o.cls payload)
    (hnames : ∀ x, readObject f index = .ok (some (.attributes x)) →
      (x.items.map fun q => stripText q.1).Nodup) :
    ∃ e, fileHeap f index = .ok e ∧ e.visits = if f.bo = .little then o.dictVisits else o.visits := by
  rcases entry_cases h ho hc with ⟨h1, h2⟩ | ⟨hb, x, a, rfl, h1, h2, h3, h4⟩ |
    ⟨hb, hk, n, e, rn, re, h1, h2⟩
  · refine ⟨_, h1, ?_⟩
    rcases h2 with h2 | ⟨h2, _⟩
    · rw [h2]; rfl
    · split
      · cases o <;> first | rfl | cases h2
      · rfl
  · refine ⟨_, h4, ?_⟩
    rw [hb, if_pos rfl]
    show a.items.flatMap _ = x.items.flatMap _
    rw [h3 (hnames a h1), List.flatMap_map]
    have : ∀ q : Text × AttrVal, (seenAttr q).2.visits = q.2.visits := by
      rintro ⟨t, v⟩; cases v <;> rfl
    simp only [this]
  · exact ⟨_, h2, by rw [hb, if_pos rfl]⟩

/-- C69: an object with a negative value among these is loaded, but cannot be saved, whatever the byte order
of the new file and the numbers of its references. -/
theorem C69_negative {f : AvbFile} (hb : f.bo = .little) {index : Nat} {payload : Bytes} {o : Obj}
    (h : HasChunk f index o.cls.id payload) (ho : Avb.readObject f index = .ok (some o))
    (hw : ∃ c, Wr.Ok (o.write c)) (hc : CountsOK f.positions.length o.cls payload) (hn : ¬ o.NonNeg) :
    ∃ e, fileHeap f index = .ok e ∧ ∀ c, ¬ Wr.Ok (e.obj.write c) := by
  have empty : o.unsignedInts = [] → False := fun h => hn (by intro q hq; rw [h] at hq; cases hq)
  rcases entry_cases h ho fun _ => hc with ⟨h1, h2⟩ | ⟨_, x, a, rfl, h1, h2, h3, h4⟩ |
    ⟨hb, hk, n, e, rn, re, h1, h2⟩
  · exfalso
    rcases h2 with h2 | ⟨h2, _⟩
    · rw [hb] at h2; cases h2
    · refine empty ?_
      cases o <;> first | rfl | cases h2
  · exact (empty rfl).elim
  · obtain ⟨c, hw⟩ := hw
    exact ⟨_, h2, fun c' => Obj.unsigned_fails hw (loaded_doubles ho) hn n e⟩

theorem fileHeap_iid {f : AvbFile} {r : Ref} {e : Entry} (h : fileHeap f r = .ok e) : e.iid = r := by
  unfold fileHeap at h
  split at h
  · next l _ =>
    cases l with
    | portable o => injection h with h; subst h; rfl
    | attributes a => injection h with h; subst h; rfl
    | props k p =>
      unfold Loaded.entry at h
      dsimp only at h
      split at h
      · injection h with h; subst h; rfl
      · cases h
  · cases h
  · cases h

theorem fileHeap_inj (f : AvbFile) (content : Ref) : IidInj (fileHeap f) content := by
  intro a b ea eb _ _ ha hb h
  rw [← fileHeap_iid ha, ← fileHeap_iid hb, h]

/-- The objects reachable with and without the accelerated readers are the same. -/
theorem reach_same {h h' : Heap} {root : Ref}
    (he : ∀ a, Reach h root a → ∃ e e', h a = .ok e ∧ h' a = .ok e' ∧ ∀ v, v ∈ e'.visits ↔ v ∈ e.visits)
    (a : Ref) : (Reach h' root a ↔ Reach h root a) ∧
      (Reach h root a → ∀ b, Edge h' a b ↔ Edge h a b) := by
  have edge : ∀ a, Reach h root a → ∀ b, Edge h' a b ↔ Edge h a b := by
    intro a ha b
    obtain ⟨e, e', h1, h2, h3⟩ := he a ha
    constructor
    · rintro ⟨x, hx, h4, h5, v, hv, h6⟩
      rw [h2] at hx; injection hx with hx; subst hx
      exact ⟨e, h1, h4, h5, v, (h3 v).1 hv, h6⟩
    · rintro ⟨x, hx, h4, h5, v, hv, h6⟩
      rw [h1] at hx; injection hx with hx; subst hx
      exact ⟨e', h2, h4, h5, v, (h3 v).2 hv, h6⟩
  have h1 : ReflTransGen (Edge h') root a → ReflTransGen (Edge h) root a := by
    intro hr
    induction hr with
    | refl => exact .refl
    | tail _ hbc ih =>
      exact ih.tail ((edge _ ⟨(hbc.choose_spec).2.1, ih⟩ _).1 hbc)
  have h2 : ReflTransGen (Edge h) root a → ReflTransGen (Edge h') root a := by
    clear h1
    intro hr
    induction hr with
    | refl => exact .refl
    | tail h1 hbc ih =>
      exact ih.tail ((edge _ ⟨(hbc.choose_spec).2.1, h1⟩ _).2 hbc)
  exact ⟨⟨fun h => ⟨h.1, h1 h.2⟩, fun h => ⟨h.1, h2 h.2⟩⟩, edge a⟩

/-- C69: a file is opened with the accelerated readers and saved without edits.  If every object can be
read and kept without them (as `C49_resave` asks), and each meets the conditions of `C69_object`, then
saving succeeds with a sufficient recursion limit, and the saved file holds the objects that the program
would have seen without the accelerated readers. -/
theorem C69_saves {bytes : Bytes} {f : AvbFile} (ho : openTable bytes = .ok f)
    (hload : ∀ a, Reach (Avb.fileHeap f) f.header.root_index a →
      ∃ o, Avb.readObject f a = .ok (some o) ∧ o.Keeps ∧
        (∀ c out, o.write c = .ok ((), out) → out.length + o.slack < 2 ^ 32) ∧ (f.bo = .little → o.NonNeg) ∧
        ∀ payload, HasChunk f a o.cls.id payload → f.bo = .little →
          CountsOK f.positions.length o.cls payload)
    (hnames : ∀ a x, Reach (Avb.fileHeap f) f.header.root_index a →
      readObject f a = .ok (some (.attributes x)) → (x.items.map fun q => stripText q.1).Nodup)
    (rank : Ref → Nat)
    (hrank : ∀ a b, Reach (Avb.fileHeap f) f.header.root_index a → Edge (Avb.fileHeap f) a b →
      rank b < rank a)
    {bo : BO} {hd : HeaderInfo} {pre post : Bytes} (ht : TextOK .macroman hd.last_save_str)
    (hpre : (writeHeaderPre bo hd).bytes = .ok pre) (hpost : (writeHeaderPost bo hd).bytes = .ok post) :
    ∃ fuel₀, ∀ fuel ≥ fuel₀, ∃ bytes' f' num,
      save (fileHeap f) fuel bo hd f.header.root_index = .ok bytes' ∧
      openTable bytes' = .ok f' ∧ Holds f' (Avb.fileHeap f) f.header.root_index num := by
  have all : ∀ a, Reach (Avb.fileHeap f) f.header.root_index a → ∃ o e,
      Avb.fileHeap f a = .ok ⟨a, true, o, o.visits⟩ ∧ fileHeap f a = .ok e ∧ Alike o e ∧
      (⟨a, true, o, o.visits⟩ : Entry).Keeps ∧
      (∀ c out, o.write c = .ok ((), out) → out.length + o.slack < 2 ^ 32) ∧ a ∈ List.range' 1 f.header.num_objects := by
    intro a ha
    obtain ⟨o, h1, h2, hsz, h3, h4⟩ := hload a ha
    obtain ⟨payload, hp⟩ := readObject_chunk h1
    obtain ⟨h0, hlt, k, bs, hk⟩ := readObject_readAs h1
    have keeps := h2.entry (e := ⟨a, true, o, o.visits⟩) hk rfl rfl
    obtain ⟨c, out, hw, _⟩ := keeps.saves
    obtain ⟨e, h5, h6⟩ := C69_object hp h1 ⟨c, out, hw⟩ (h4 payload hp) h3 fun x => hnames a x ha
    refine ⟨o, e, by unfold Avb.fileHeap; rw [h1], h5, h6, keeps, hsz, ?_⟩
    rw [List.mem_range'_1]
    have := (openTable_length ho).le
    omega
  have same := reach_same (h := Avb.fileHeap f) (h' := fileHeap f) (root := f.header.root_index)
    fun a ha => by
      obtain ⟨o, e, h1, h2, h3, _⟩ := all a ha
      exact ⟨_, e, h1, h2, h3.visits⟩
  have hcount : f.header.num_objects < 2 ^ 32 := by
    obtain ⟨_, hdr, _, ps, _, _, hh, _, rfl⟩ := openTable_ok ho
    exact readHeader_count hh
  obtain ⟨fuel₀, hf⟩ := C12_save_succeeds (bo := bo) (content := f.header.root_index) (fileHeap_ok f) rank
    (fun a b ha hab => by
      have ha' := (same a).1.1 ha
      exact hrank a b ha' (((same a).2 ha' b).1 hab))
    (List.range' 1 f.header.num_objects)
    (fun a ha => by
      obtain ⟨_, _, _, _, _, _, _, h⟩ := all a ((same a).1.1 ha)
      exact h)
    (by simpa using hcount)
    (fun a ha => by
      have ha' := (same a).1.1 ha
      obtain ⟨o, e, h1, h2, h3, h4, h5, _⟩ := all a ha'
      obtain ⟨c, out, hw, _⟩ := h4.saves
      obtain ⟨out', hw'⟩ := h3.writes c ⟨out, hw⟩
      exact ⟨e, h2, h3.own, by rw [h3.cls]; exact h4.plain.1, by rw [h3.cls]; exact h4.plain.2, c, out', hw', by
        have := h3.size c out out' hw hw'
        have := h5 c out hw
        omega⟩) hpre hpost
  refine ⟨fuel₀, fun fuel hfuel => ?_⟩
  obtain ⟨bytes', hs⟩ := hf fuel hfuel
  obtain ⟨f', num, h1, _, h2, _⟩ := C12_save_open (fileHeap_ok f) (fileHeap_inj f _) ht
    (fun a e ha he => by
      obtain ⟨o, e', _, h2, h3, h4, _⟩ := all a ((same a).1.1 ha)
      rw [he] at h2; injection h2 with h2; subst h2
      exact h3.readable h4.readable) hs
  refine ⟨bytes', f', num, hs, h1, ?_, ?_, h2.root, ?_⟩
  · intro a b ha hb
    exact h2.inj a b ((same a).1.2 ha) ((same b).1.2 hb)
  · intro k
    rw [h2.onto k]
    exact ⟨fun ⟨a, ha, hk⟩ => ⟨a, (same a).1.1 ha, hk⟩, fun ⟨a, ha, hk⟩ => ⟨a, (same a).1.2 ha, hk⟩⟩
  · intro a e ha he
    obtain ⟨o, e', h3, h4, h5, h6, _⟩ := all a ha
    rw [he] at h3; injection h3 with h3; subst h3
    rw [h2.same a e' ((same a).1.2 ha) h4, h5.norm, Obj.norm_renumber h6.stored]
    rfl

/-- C69: a file that holds such an object cannot be saved. -/
theorem C69_negative_file {f : AvbFile} (hb : f.bo = .little) {root index : Nat}
    (hr : Reach (fileHeap f) root index) {payload : Bytes} {o : Obj}
    (h : HasChunk f index o.cls.id payload) (ho : Avb.readObject f index = .ok (some o))
    (hw : ∃ c, Wr.Ok (o.write c)) (hc : CountsOK f.positions.length o.cls payload) (hn : ¬ o.NonNeg)
    (fuel : Nat) (bo : BO) (hd : HeaderInfo) (bytes : Bytes) :
    save (fileHeap f) fuel bo hd root ≠ .ok bytes := by
  intro hs
  obtain ⟨e, h1, h2⟩ := C69_negative hb h ho hw hc hn
  obtain ⟨pre, post, s, done, sc⟩ := save_core (fileHeap_ok f) hs
  obtain ⟨i, hi, h3, h4, _⟩ := sc.chunk (fileHeap_inj f root) hr
  obtain ⟨m, _, hwr, _⟩ := sc.inv.each i hi
  subst h3
  rw [h1] at h4
  injection h4 with h4
  rw [← h4] at hwr
  exact h2 _ ⟨_, hwr⟩

/-! ### Examples -/

/-- An effect without key frames (object 0) and with one track (object 1). -/
def exEffect : Obj := .TKFX {
  toComponent := exComp ['f', 'x'], mc_mode := 0, length := 10, num_scalars := 0,
  tracks := [{
    index := some 1, attributes := none, session_attr := none, component := some 1,
    filler_proxy := none, bob_data := none, control_code := none, control_sub_code := none,
    start_pos := none, read_only := none, lock_number := some 0 }],
  left_length := 0, right_length := 0, info_version := 1, info_current := 0, info_smooth := 0,
  info_color_item := 0, info_quality := 0, info_is_reversed := 0, info_aspect_on := false,
  keyframes := 0, info_force_software := false, info_never_hardware := false, trackman := none }

/-- A parameter that is -5 from the start. -/
def exNegParam : Obj := .PRCL {
  toComponent := exComp ['p'], length := 1, interp_kind := 1, value_type := 1, extrap_kind := none,
  control_points := [{ offset_num := 0, offset_den := 1, timescale := 1, value := .int (-5), pp := [] }],
  fields := none }

/-- A file with one chunk that holds the object. -/
theorem exChunk_of {x : Obj} (hx : x.Readable) {bs : Bytes} (hw : x.write (exWrite .little 2) = .ok ((), bs))
    (hl : bs.length < 2 ^ 32) (hnorm : x.norm (exWrite .little 2) = x) :
    HasChunk (exChunkFile .little x.cls.id bs) 1 x.cls.id bs ∧
    Avb.readObject (exChunkFile .little x.cls.id bs) 1 = .ok (some x) ∧
    CountsOK (exChunkFile .little x.cls.id bs).positions.length x.cls bs := by
  have hc := exChunkFile_chunk .little (Cls.id_length x.cls) hl
  refine ⟨hc, (C47_accepted hc x).2 ?_, ?_⟩
  · have := Obj.rt (ex_linked .little (by decide)) hx bs hw [] trivial
    rw [List.append_nil, hnorm] at this
    exact this
  · have := countsOK_written (n := 2) (ex_linked .little (by decide)) hx hw []
    rw [List.append_nil] at this
    exact this

/-- Only dictionaries of attributes are loaded as such. -/
theorem not_attributes {f : AvbFile} {index : Nat} {o : Obj} (ho : Avb.readObject f index = .ok (some o))
    {payload : Bytes} (hp : HasChunk f index o.cls.id payload)
    (hc : f.bo = .little → CountsOK f.positions.length o.cls payload) (hk : o.cls ≠ .ATTR) (x : Attributes) :
    readObject f index ≠ .ok (some (.attributes x)) := by
  intro h
  have hx : fileHeap f index = .ok ⟨index, true, .ATTR x, x.visits⟩ := by
    unfold fileHeap; rw [h]; rfl
  rcases entry_cases hp ho hc with ⟨h1, _⟩ | ⟨_, y, _, rfl, _⟩ | ⟨_, _, n, e, _, _, _, h1⟩
  · rw [hx] at h1; injection h1 with h1; injection h1 with _ _ h1
    subst h1; exact hk rfl
  · exact hk rfl
  · rw [hx] at h1; injection h1 with h1; injection h1 with _ _ h1
    apply hk
    have := Obj.renamed_cls n e o.unsigned
    rw [← h1, Obj.unsigned_cls] at this
    exact this.symm

/-- The effect is loaded in a form that can be saved and is then the same, and a save follows its
references in the other order. -/
example : ∃ f e, Avb.readObject f 1 = .ok (some exEffect) ∧ fileHeap f 1 = .ok e ∧ Alike exEffect e ∧
    e.visits.map Visit.ref ≠ exEffect.visits.map Visit.ref := by
  obtain ⟨bs, hw, hl⟩ : ∃ bs, exEffect.write (exWrite .little 2) = .ok ((), bs) ∧ bs.length < 2 ^ 32 :=
    ⟨_, rfl, by decide⟩
  obtain ⟨h1, h2, h3⟩ := exChunk_of (x := exEffect)
    (show exEffect.Readable from textsOK_short (by decide)) hw hl (by decide +kernel)
  have hn := not_attributes h2 h1 (fun _ => h3) (by decide)
  obtain ⟨e, h4, h5⟩ := C69_object h1 h2 ⟨_, bs, hw⟩ (fun _ => h3) (fun _ => by
    unfold Obj.NonNeg; decide) fun x hx => absurd hx (hn x)
  obtain ⟨e', h6, h7⟩ := C69_order h1 h2 (fun _ => h3) fun x hx => absurd hx (hn x)
  rw [h4] at h6; injection h6 with h6; subst h6
  refine ⟨_, e, h2, h4, h5, ?_⟩
  rw [h7]
  show exEffect.dictVisits.map Visit.ref ≠ _
  decide

/-- The parameter is loaded, and a file that holds it cannot be saved. -/
example : ∃ f, Avb.readObject f 1 = .ok (some exNegParam) ∧ (∃ e, fileHeap f 1 = .ok e) ∧
    ∀ fuel bo hd bytes, save (fileHeap f) fuel bo hd 1 ≠ .ok bytes := by
  obtain ⟨bs, hw, hl⟩ : ∃ bs, exNegParam.write (exWrite .little 2) = .ok ((), bs) ∧ bs.length < 2 ^ 32 :=
    ⟨_, rfl, by decide⟩
  obtain ⟨h1, h2, h3⟩ := exChunk_of (x := exNegParam)
    (show exNegParam.Readable from ⟨textsOK_short (by decide), .inl rfl⟩) hw hl (by decide +kernel)
  have hn : ¬ exNegParam.NonNeg := fun h => absurd (h (4, -5) (by decide)) (by decide)
  refine ⟨_, h2, ?_, fun fuel bo hd bytes => ?_⟩
  · obtain ⟨e, he, _⟩ := C69_negative rfl h1 h2 ⟨_, bs, hw⟩ h3 hn
    exact ⟨e, he⟩
  · exact C69_negative_file rfl ⟨by decide, .refl⟩ h1 h2 ⟨_, bs, hw⟩ h3 hn fuel bo hd bytes

theorem slack_of {o : Obj} {out : Bytes} (hw : o.write ⟨.little, fun _ => some 1⟩ = .ok ((), out))
    (hl : out.length + o.slack < 2 ^ 32) (c : WCtx) (out' : Bytes) (h : o.write c = .ok ((), out')) :
    out'.length + o.slack < 2 ^ 32 := by
  obtain ⟨b, h1, h2⟩ := Obj.write_rel (c' := ⟨.little, fun _ => some 1⟩)
    (fun _ _ _ => .inr ⟨1, rfl, by decide⟩) _ _ h
  rw [hw] at h1
  cases h1
  omega

/-- The example file of `C49_resave`, opened with the accelerated readers, meets the hypotheses. -/
example (bo bo' : BO) : ∃ bytes f, openTable bytes = .ok f ∧ ∃ fuel₀, ∀ fuel ≥ fuel₀, ∃ bytes' f' num,
    save (fileHeap f) fuel bo' exInfo f.header.root_index = .ok bytes' ∧ openTable bytes' = .ok f' ∧
      Holds f' (Avb.fileHeap f) f.header.root_index num := by
  obtain ⟨bytes, f, _, hf, f1, f2, f3, hr, hn, hp⟩ := exFile_ok bo
  obtain ⟨pre, hpre⟩ := exInfo_pre bo'
  obtain ⟨post, hpost⟩ := exInfo_post bo'
  refine ⟨bytes, f, hf, ?_⟩
  have g1 : Avb.fileHeap f 1 = .ok ⟨1, true, exFill, exFill.visits⟩ := by simp [Avb.fileHeap, f1]
  have g2 : Avb.fileHeap f 2 = .ok ⟨2, true, exClip, exClip.visits⟩ := by simp [Avb.fileHeap, f2]
  have g3 : Avb.fileHeap f 3 = .ok ⟨3, true, exSeqF, exSeqF.visits⟩ := by simp [Avb.fileHeap, f3]
  have step : ∀ a b, a = 1 ∨ a = 2 ∨ a = 3 → Edge (Avb.fileHeap f) a b → a = 3 ∧ (b = 1 ∨ b = 2) := by
    rintro a b h ⟨e, he, _, hb, v, hv, rfl⟩
    rcases h with rfl | rfl | rfl
    · rw [g1] at he; cases he
      have : ∀ v ∈ exFill.visits, v.ref = 0 := by decide
      exact absurd (this v hv) hb
    · rw [g2] at he; cases he
      have : ∀ v ∈ exClip.visits, v.ref = 0 := by decide
      exact absurd (this v hv) hb
    · rw [g3] at he; cases he
      have : ∀ v ∈ exSeqF.visits, v.ref ≠ 0 → v.ref = 1 ∨ v.ref = 2 := by decide
      exact ⟨rfl, this v hv hb⟩
  have reach : ∀ a, Reach (Avb.fileHeap f) f.header.root_index a → a = 1 ∨ a = 2 ∨ a = 3 := by
    rw [hr]
    rintro a ⟨_, ha⟩
    induction ha with
    | refl => exact .inr (.inr rfl)
    | tail _ hbc ih =>
      obtain ⟨_, _, h0, _⟩ := id hbc
      rcases (step _ _ (ih h0) hbc).2 with h | h
      · exact .inl h
      · exact .inr (.inl h)
  refine C69_saves hf ?_ ?_ (fun r => if r = 3 then 1 else 0) ?_ exInfo_ok hpre hpost
  · intro a ha
    rcases reach a ha with rfl | rfl | rfl
    · exact ⟨_, f1, exFill_keeps, slack_of rfl (by decide), fun _ => by unfold Obj.NonNeg; decide,
        fun _ _ _ => trivial⟩
    · exact ⟨_, f2, exClip_keeps, slack_of rfl (by decide), fun _ => by unfold Obj.NonNeg; decide,
        fun _ _ _ => trivial⟩
    · exact ⟨_, f3, exSeqF_keeps, slack_of rfl (by decide), fun _ => by unfold Obj.NonNeg; decide,
        fun _ _ _ => trivial⟩
  · intro a x ha hx
    exfalso
    rcases reach a ha with rfl | rfl | rfl
    · exact not_attributes f1 (readObject_chunk f1).choose_spec (fun _ => trivial) (by decide) x hx
    · exact not_attributes f2 (readObject_chunk f2).choose_spec (fun _ => trivial) (by decide) x hx
    · exact not_attributes f3 (readObject_chunk f3).choose_spec (fun _ => trivial) (by decide) x hx
  · intro a b ha hab
    obtain ⟨rfl, rfl | rfl⟩ := step a b (reach a ha) hab <;> decide

end Avb.Fast

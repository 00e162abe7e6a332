import Verif.Lemmas.WithinAll
import Verif.Lemmas.CappedAll
import Verif.Props.Listing
import Verif.Props.Errors

/-!
C65: references in loaded objects lead to objects of the file.
-/

namespace Avb

/-- C65: every reference in an object that was loaded, from whatever bytes, is `None` or the number of a
chunk in the table of the file. -/
theorem C65_refs {f : AvbFile} {index : Nat} {o : Obj} (h : readObject f index = .ok (some o)) :
    ∀ r ∈ o.refs, r < f.positions.length := by
  unfold readObject at h
  split at h
  · cases h
  · split at h
    · cases h
    · split at h
      · cases h
      · split at h
        · cases h
        · split at h
          · cases h
          · split at h
            · cases h
            · rename_i hr
              split at h
              · cases h
                exact Obj.readAs_within hr
              · cases h

/-- C65: a payload of any class with which nothing is wrong but that one of its references is beyond the
table of the file raises `ValueError`. -/
theorem C65_refused {f : AvbFile} {index : Nat} {k : Cls} {payload : Bytes} (hc : HasChunk f index k.id payload)
    {n : Nat} {o : Obj} (h : Obj.readAs ⟨f.bo, n⟩ k payload = .ok (o, [])) {r : Ref} (hr : r ∈ o.refs)
    (hm : f.positions.length ≤ r) : readObject f index = .error .value :=
  C47_error hc (refs_refused h hr hm)

/-- C65: beyond that the number of objects does not matter: what is loaded in a file is loaded, as the same
object, from the same payload in files of more objects. -/
theorem C65_more {f g : AvbFile} {i j : Nat} {k : Cls} {payload : Bytes} (hf : HasChunk f i k.id payload)
    (hg : HasChunk g j k.id payload) (hb : f.bo = g.bo) (hn : f.positions.length ≤ g.positions.length) {o : Obj}
    (h : readObject f i = .ok (some o)) : readObject g j = .ok (some o) := by
  have : Fewer f.positions.length g.positions.length := ⟨hn⟩
  rw [hf.read, Cls.ofId_id] at h
  rw [hg.read, Cls.ofId_id]
  dsimp only [AvbFile.ctx] at h ⊢
  rw [hb] at h
  rcases Obj.readAs_capped (bo := g.bo) (m := f.positions.length) (n := g.positions.length) k payload with he | he
  · rw [he] at h
    exact h
  · rw [he] at h
    cases h

/-- The objects a program can get to from the content of the file by following references, each as it was
loaded. -/
inductive Reached (f : AvbFile) : Nat → Prop
  | content : Reached f f.header.root_index
  | follow {i r : Nat} {o : Obj} : Reached f i → readObject f i = .ok (some o) → r ∈ o.refs → Reached f r

theorem openFile_content {bytes : Bytes} {f : AvbFile} {content : Option Obj}
    (ho : openFile bytes = .ok (f, content)) :
    openTable bytes = .ok f ∧ readObject f f.header.root_index = .ok content := by
  unfold openFile at ho
  split at ho
  · cases ho
  · rename_i h1
    split at ho
    · cases ho
    · rename_i h2
      cases ho
      exact ⟨h1, h2⟩

theorem mapM_get {α β ε : Type} {g : α → Except ε β} : ∀ {l : List α} {ys : List β},
    l.mapM g = .ok ys → ∀ (k : Nat) (x : α), l[k]? = some x → ∃ y, ys[k]? = some y ∧ g x = .ok y
  | [], _, _ => by simp
  | x :: l, ys, h => by
    rw [List.mapM_cons] at h
    cases hx : g x with
    | error e => rw [hx] at h; cases h
    | ok y =>
      rw [hx] at h
      cases hl : l.mapM g with
      | error e => rw [hl] at h; cases h
      | ok zs =>
        rw [hl] at h
        cases h
        intro k z hz
        cases k with
        | zero => simp at hz; subst hz; exact ⟨y, by simp, hx⟩
        | succ k => simpa using mapM_get hl k z (by simpa using hz)

/-- C65: whatever bytes were opened, following references from the content never leaves the file: every
object met has a chunk in the table with its header inside the file, and loading it does not raise
`IndexError`. -/
theorem C65_follow {bytes : Bytes} {f : AvbFile} {content : Option Obj}
    (ho : openFile bytes = .ok (f, content)) {r : Nat} (h : Reached f r) :
    r ≤ f.header.num_objects ∧ readObject f r ≠ .error .index ∧
      ∃ ck, readChunk f r = .ok ck ∧ ck.pos ≤ bytes.length := by
  obtain ⟨ht, hroot⟩ := openFile_content ho
  obtain ⟨bo, hdr, rest, ps, h1, h2, h3, h4, rfl⟩ := openTable_ok ht
  have hlen : ps.length = hdr.num_objects := scanChunks_length h4
  have hr : r < ps.length + 1 := by
    cases h with
    | content =>
      apply Classical.byContradiction
      intro hn
      have := (C47_index ⟨bo, hdr, 0 :: ps, bytes, bytes.length - rest.length⟩).2 hdr.root_index
        (by simpa using hn) (by rintro h0; simp [h0] at hn)
      rw [this] at hroot
      cases hroot
    | follow _ hi hr => simpa using C65_refs hi r hr
  refine ⟨by rw [← hlen]; exact Nat.le_of_lt_succ hr, ?_, ?_⟩
  · intro hx
    rcases C64_read hx with ⟨_, h⟩ | ⟨h | h, _⟩ | ⟨h, _⟩ | ⟨k, p, _, h⟩
    · simp only [List.length_cons] at h; omega
    · cases h
    · cases h
    · cases h
    · simp [DamageOf] at h
  · obtain ⟨cks, g1, g2, g3, g4⟩ := C56_chunks ht
    have get : ∀ k, k < ps.length + 1 → ∃ ck, cks[k]? = some ck ∧
        readChunk ⟨bo, hdr, 0 :: ps, bytes, bytes.length - rest.length⟩ k = .ok ck := fun k hk =>
      mapM_get g1 k k (by rw [List.getElem?_range (by simpa using hk)])
    obtain ⟨ck, e1, e2⟩ := get r hr
    refine ⟨ck, e2, ?_⟩
    cases r with
    | zero =>
      obtain ⟨-, h5, h6⟩ := g3 ck e1
      dsimp only at h6
      omega
    | succ k =>
      obtain ⟨ck', e3, _⟩ := get k (by omega)
      exact (g4 k ck' ck e3 e1).2.2

/-- The example file: the content is a sequence, and its components are reached. -/
example : ∃ bytes f s, openFile bytes = .ok (f, some (.SEQU s)) ∧ s.components ≠ [] ∧
    ∀ r ∈ s.components, Reached f r ∧ ∃ ck, readChunk f r = .ok ck ∧ ck.pos ≤ bytes.length := by
  have key : ∀ x : Except Err Bytes,
      (match x with
        | .ok b => (match openFile b with
          | .ok (_, some (.SEQU s)) => decide (s.components ≠ [])
          | _ => false)
        | _ => false) = true →
      ∃ b f s, openFile b = .ok (f, some (.SEQU s)) ∧ s.components ≠ [] := by
    intro x hx
    split at hx
    · rename_i b
      split at hx
      · rename_i f s ho
        exact ⟨b, f, s, ho, of_decide_eq_true hx⟩
      · cases hx
    · cases hx
  obtain ⟨b, f, s, ho, h⟩ := key (save exHeap 10 .little exInfo 1) (by decide +kernel)
  refine ⟨b, f, s, ho, h, fun r hr => ?_⟩
  have hx : Reached f r := .follow .content (openFile_content ho).2 (by
    show r ∈ (Obj.visits _).map Visit.ref
    simp only [Obj.visits, Sequence.visits, List.map_append, List.mem_append, List.map_map]
    exact .inr (List.mem_map.2 ⟨r, hr, rfl⟩))
  exact ⟨hx, (C65_follow ho hx).2.2⟩

/-- A sequence with components 2 and 3, as a file of five objects has it, in a file of one. -/
example (bo : BO) : ∃ bs, exSeq.write (exWrite bo 5) = .ok ((), bs) ∧
    readObject (exChunkFile bo (Cls.id .SEQU) bs) 1 = .error .value := by
  have hw : ∃ bs, exSeq.write (exWrite bo 5) = .ok ((), bs) ∧ bs.length < 1000 := by
    cases bo
    · exact ⟨_, rfl, by decide +kernel⟩
    · exact ⟨_, rfl, by decide +kernel⟩
  obtain ⟨bs, hw, hl⟩ := hw
  have ht : exSeq.Readable := textsOK_short (by decide)
  have hr := C06_read_back (ex_linked bo (by decide)) ht hw []
  rw [List.append_nil] at hr
  refine ⟨bs, hw, C65_refused (exChunkFile_chunk bo rfl (by omega)) (n := 5) hr (r := 3) ?_ (by decide : 2 ≤ 3)⟩
  cases bo <;> decide +kernel

/-- C65_more: a filler without references that is loaded from a file with one object is loaded from one with seven, where it
is the third. -/
example (bo : BO) : ∃ bs, exFill.write (exWrite bo 2) = .ok ((), bs) ∧
    readObject { exChunkFile bo (Cls.id .FILL) bs with positions := [0, 0, 0, 3, 0, 0, 0, 0] } 3 = .ok (some exFill) := by
  have hw : ∃ bs, exFill.write (exWrite bo 2) = .ok ((), bs) ∧ bs.length < 1000 ∧
      readObject (exChunkFile bo (Cls.id .FILL) bs) 1 = .ok (some exFill) := by
    cases bo
    · exact ⟨_, rfl, by decide +kernel, by decide +kernel⟩
    · exact ⟨_, rfl, by decide +kernel, by decide +kernel⟩
  obtain ⟨bs, hw, hl, hr⟩ := hw
  refine ⟨bs, hw, C65_more (k := .FILL) (f := exChunkFile bo (Cls.id .FILL) bs) (i := 1)
    (g := { exChunkFile bo (Cls.id .FILL) bs with positions := [0, 0, 0, 3, 0, 0, 0, 0] }) (exChunkFile_chunk bo rfl (by omega)) ?_ rfl (by simp [exChunkFile]) hr⟩
  exact ⟨by decide, rfl, by omega, 3, [7], rfl, by cases bo <;> simp [exChunkFile]⟩

end Avb

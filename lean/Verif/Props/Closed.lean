import Verif.Model.Closed
import Verif.Props.Disk

/-!
C66: what is left of a file after `close()`.
-/

namespace Avb.Work

open Disk

/-- The work after `close` could have been done before it, without the lookups. -/
theorem ClosedRun.open {f : AvbFile} {s₀ s1 s2 : St} {es es2 : List Event} (h : Run f s₀ es s1)
    (h2 : ClosedRun f s1 es2 s2) : ∃ es', Run f s₀ (es ++ es') s2 ∧
      (∀ i, assigned i (es ++ es') = assigned i (es ++ es2)) ∧
      touched (es ++ es') = touched (es ++ es2) := by
  induction h2 with
  | nil => exact ⟨[], by simpa using h, by simp, by simp⟩
  | @snoc s2 s3 e es2 _ hs ih =>
    obtain ⟨es', i1, i2, i3⟩ := ih
    have more : ∀ e, Step f s2 e s3 → ∃ es', Run f s₀ (es ++ es') s3 ∧
        (∀ i, assigned i (es ++ es') = assigned i (es ++ (es2 ++ [e]))) ∧
        touched (es ++ es') = touched (es ++ (es2 ++ [e])) := by
      intro e he
      refine ⟨es' ++ [e], ?_, ?_, ?_⟩
      · rw [← List.append_assoc]; exact i1.snoc he
      · intro i; rw [← List.append_assoc, ← List.append_assoc, assigned_snoc, assigned_snoc, i2]
      · rw [← List.append_assoc, ← List.append_assoc, touched_append, i3, touched_append (b := [e])]
    cases hs with
    | look i =>
      refine ⟨es', ?_, ?_, ?_⟩
      · have : (lookClosed f s2 i).2 = s2 := by
          unfold lookClosed
          split
          · rfl
          · split
            · rfl
            · split <;> rfl
        rw [this]; exact i1
      · intro j; rw [i2, ← List.append_assoc, assigned_snoc]
      · rw [i3, ← List.append_assoc, touched_append]; simp [touched]
    | new o => exact more _ (.new s2 o)
    | edit l o hl => exact more _ (.edit s2 l o hl)
    | collect g hg => exact more _ (.collect s2 g hg)

/-- C66: after `close` and any work, an object is found if it is in memory, with the content last assigned
or, if there is none, that of the file; a number in the table of the file whose object is not in memory
raises `ValueError`, other numbers `IndexError`. -/
theorem C66_look {f : AvbFile} {o₀ : Obj} {es es2 : List Event} {s1 s2 : St}
    (h : Run f (start f o₀) es s1) (h2 : ClosedRun f s1 es2 s2) {i : Nat} (hi : i ≠ 0) :
    (∀ l, s2.cache i = some l → (lookClosed f s2 i).1 = .ok (some l) ∧
      ∃ o, s2.objs l = (i, o) ∧ current f (es ++ es2) i = .ok (some o)) ∧
    (s2.cache i = none → (lookClosed f s2 i).1 = .error (if i < f.positions.length then .value else .index)) := by
  obtain ⟨es', k1, k2, _⟩ := ClosedRun.open h h2
  have hv := Inv.run k1
  constructor
  · intro l hl
    obtain ⟨he, hi'⟩ := hv.cache i l hl
    refine ⟨by simp [lookClosed, hi, hl], (s2.objs l).2, by rw [← hi'], ?_⟩
    have := hv.content l he
    rw [hi'] at this
    unfold current at this ⊢
    rwa [k2] at this
  · intro hn
    unfold lookClosed readClosed
    rw [if_neg hi, hn, if_neg hi]
    dsimp only
    by_cases hlt : i < f.positions.length
    · rw [List.getElem?_eq_getElem hlt, if_pos hlt]
    · rw [List.getElem?_eq_none (by omega), if_neg hlt]

/-- C66: every object that was made or edited, before or after `close`, is in memory. -/
theorem C66_edited {f : AvbFile} {o₀ : Obj} {es es2 : List Event} {s1 s2 : St}
    (h : Run f (start f o₀) es s1) (h2 : ClosedRun f s1 es2 s2) {i : Nat} {o : Obj}
    (ha : assigned i (es ++ es2) = some o) :
    ∃ l, (lookClosed f s2 i).1 = .ok (some l) ∧ s2.objs l = (i, o) := by
  obtain ⟨es', k1, k2, _⟩ := ClosedRun.open h h2
  have hv := Inv.run k1
  have hm : s2.modified i ≠ none := by rw [ne_eq, hv.mark, k2, ha]; simp
  obtain ⟨l, hl⟩ := Option.ne_none_iff_exists'.1 hm
  obtain ⟨he, hi'⟩ := hv.modified i l hl
  have hc := hv.exist l he
  rw [hi'] at hc
  have hi : i ≠ 0 := by have := hv.bound l he; omega
  obtain ⟨h3, o', h4, h5⟩ := (C66_look h h2 hi).1 l hc
  refine ⟨l, h3, ?_⟩
  unfold current at h5
  rw [ha] at h5
  cases h5
  exact h4

/-- C66: what is in memory stays there as long as nothing is collected (the program refers to it). -/
theorem C66_kept {f : AvbFile} {s1 s2 : St} {es2 : List Event} (h2 : ClosedRun f s1 es2 s2)
    (hn : Event.collect ∉ es2) {i : Nat} (hi : s1.cache i ≠ none) : s2.cache i ≠ none := by
  induction h2 with
  | nil => exact hi
  | @snoc s2 s3 e es2 _ hs ih =>
    have hn' : Event.collect ∉ es2 ∧ Event.collect ≠ e := by simpa using hn
    have := ih hn'.1
    cases hs with
    | look j =>
      unfold lookClosed
      split
      · exact this
      · split
        · exact this
        · split <;> exact this
    | new o => simp only [create, alloc, put]; split <;> simp [this]
    | edit l o hl => exact this
    | collect g hg => exact absurd rfl hn'.2

theorem heapClosed_held {f : AvbFile} {o₀ : Obj} {es es2 : List Event} {s1 s2 : St}
    (h : Run f (start f o₀) es s1) (h2 : ClosedRun f s1 es2 s2) (order : Nat → Obj → List Visit) (r : Ref) :
    (s2.cache r ≠ none → heapClosed f order s2 r = wanted f order (es ++ es2) r) ∧
    (¬ s2.cache r ≠ none → ∃ e, heapClosed f order s2 r = .error e) := by
  obtain ⟨es', k1, k2, _⟩ := ClosedRun.open h h2
  constructor
  · intro hc
    have hw : wanted f order (es ++ es2) r = wanted f order (es ++ es') r := by unfold wanted; rw [k2]
    rw [hw, ← heap_eq k1]
    unfold heap heapClosed
    cases hr : s2.cache r with
    | some l => rfl
    | none => exact absurd hr hc
  · intro hc
    unfold heapClosed
    rw [not_not.1 hc]
    dsimp only
    cases readClosed f r with
    | error e => exact ⟨_, rfl⟩
    | ok x => exact ⟨_, rfl⟩

/-- C66: a save after `close` when all objects to be saved are in memory does what it would have done
without `close`. -/
theorem C66_save {f : AvbFile} {o₀ : Obj} {es es2 : List Event} {s1 s2 : St}
    (h : Run f (start f o₀) es s1) (h2 : ClosedRun f s1 es2 s2) {order : Nat → Obj → List Visit}
    (horder : ∀ i o v, v ∈ order i o ↔ v ∈ o.visits) {content : Ref}
    (hall : ∀ x, Reach (wanted f order (es ++ es2)) content x → s2.cache x ≠ none)
    (fuel : Nat) (bo : BO) (hd : HeaderInfo) :
    saveRun (heapClosed f order s2) fuel bo hd content =
      saveRun (wanted f order (es ++ es2)) fuel bo hd content := by
  refine (saveRun_held (wanted_ok horder) wanted_own (P := fun r => s2.cache r ≠ none)
    (fun r => (heapClosed_held h h2 order r).1) (fun r => (heapClosed_held h h2 order r).2)
    (fun x hx => ⟨hall x hx, ?_⟩) fuel bo hd).symm
  rw [← (heapClosed_held h h2 order x).1 (hall x hx)]
  unfold heapClosed
  cases hr : s2.cache x with
  | some l => exact ⟨_, rfl⟩
  | none => exact absurd hr (hall x hx)

/-- C66: if one of them is not in memory the save raises, and leaves a file that does not open or has no
content. -/
theorem C66_save_fails {f : AvbFile} {o₀ : Obj} {es es2 : List Event} {s1 s2 : St}
    (h : Run f (start f o₀) es s1) (h2 : ClosedRun f s1 es2 s2) {order : Nat → Obj → List Visit}
    {content x : Ref} (hx : Reach (wanted f order (es ++ es2)) content x) (hc : s2.cache x = none)
    (fuel : Nat) (bo : BO) {hd : HeaderInfo} (ht : TextOK .macroman hd.last_save_str) :
    let run := saveRun (heapClosed f order s2) fuel bo hd content
    run.err ≠ none ∧ ∀ f' o, openFile run.disk = .ok (f', o) → o = none := by
  obtain ⟨e, he⟩ := saveRun_missing (P := fun r => s2.cache r ≠ none)
    (fun r => (heapClosed_held h h2 order r).1) (fun r => (heapClosed_held h h2 order r).2) hx
    (not_not.2 hc) fuel bo hd
  exact ⟨by rw [he]; simp, fun f' o ho => C35_failed_save ht he ho⟩

/-- C66: the chunk table is still there after `close`, but not the chunks.  Chunk 0, the header, is described
as before. -/
theorem C66_chunk {f : AvbFile} (i : Nat) :
    readChunkClosed f i =
      if i = 0 then .ok ⟨"OBJD".toList.map (fun ch => UInt8.ofNat ch.toNat), 8, f.headerEnd - 8⟩
      else .error (if i < f.positions.length then .value else .index) := by
  unfold readChunkClosed
  by_cases hi : i = 0
  · rw [if_pos hi, if_pos hi]; rfl
  rw [if_neg hi, if_neg hi]
  by_cases hlt : i < f.positions.length
  · rw [List.getElem?_eq_getElem hlt, if_pos hlt]
  · rw [List.getElem?_eq_none (by omega), if_neg hlt]

/-- C66: chunk 0 is what it was before `close`. -/
theorem C66_header (f : AvbFile) : readChunkClosed f 0 = readChunk f 0 := rfl

/-! ### examples -/

/-- The sequence is looked up and the file closed; its components cannot be had and it cannot be saved, but
it can still be edited. -/
example (bo : BO) : ∃ bytes f s1 s2, openTable bytes = .ok f ∧ Run f (start f exFill) [.look 3] s1 ∧
    ClosedRun f s1 [.edit 3 exSeqW, .look 1] s2 ∧ (lookClosed f s2 1).1 = .error .value ∧
    (∃ l, (lookClosed f s2 3).1 = .ok (some l) ∧ s2.objs l = (3, exSeqW)) ∧
    ∀ fuel, (saveRun (heapClosed f (fun _ => Obj.visits) s2) fuel bo exInfo 3).err ≠ none := by
  obtain ⟨bytes, f, _, hf, f1, f2, f3, hr, hn, hp⟩ := exFile_ok bo
  have h1 : Run f (start f exFill) [.look 3] _ := (Run.nil _).snoc (.look _ 3)
  have hs : (look f (start f exFill) 3).2 =
      { alloc (start f exFill) 3 exSeqF with cache := put (start f exFill).cache 3 0 } := by
    simp [look, start, f3]
  rw [hs] at h1
  have h2 := ((ClosedRun.nil (f := f) _).snoc (.edit { alloc (start f exFill) 3 exSeqF with
    cache := put (start f exFill).cache 3 0 } 0 exSeqW (by simp [Exists, alloc, start]))).snoc (.look _ 1)
  have hid : (alloc (start f exFill) 3 exSeqF).objs 0 = (3, exSeqF) := by simp [alloc, start]
  simp only [hid, List.nil_append, List.cons_append] at h2
  have hnone : ∀ s : St, s.cache 1 = none → (lookClosed f s 1).2 = s := by
    intro s hs; simp [lookClosed, hs, readClosed, hp]
  rw [hnone _ (by simp [edit, put, start])] at h2
  have ha : assigned 3 ([.look 3] ++ [.edit 3 exSeqW, .look 1]) = some exSeqW := by simp [assigned]
  refine ⟨bytes, f, _, _, hf, h1, h2, ?_, C66_edited h1 h2 ha, fun fuel => ?_⟩
  · rw [(C66_look h1 h2 (by decide)).2 (by simp [edit, put, start]), hp]; rfl
  · refine (C66_save_fails h1 h2 (x := 1) ⟨by decide, .single ⟨⟨3, true, exSeqW, exSeqW.visits⟩, ?_, by decide,
      by decide, ?_⟩⟩ (by simp [edit, put, start]) fuel bo exInfo_ok).1
    · simp [wanted, assigned]
    · decide

/-- All objects are looked up and the file closed: it can be saved. -/
example (bo : BO) : ∃ bytes f s1, openTable bytes = .ok f ∧
    Run f (start f exFill) [.look 3, .look 1, .look 2] s1 ∧
    ∀ fuel, saveRun (heapClosed f (fun _ => Obj.visits) s1) fuel bo exInfo 3 =
      saveRun (wanted f (fun _ => Obj.visits) [.look 3, .look 1, .look 2]) fuel bo exInfo 3 := by
  obtain ⟨bytes, f, _, hf, f1, f2, f3, hr, hn, hp⟩ := exFile_ok bo
  have h1 := (((Run.nil (f := f) (start f exFill)).snoc (.look _ 3)).snoc (.look _ 1)).snoc (.look _ 2)
  refine ⟨bytes, f, _, hf, h1, fun fuel => ?_⟩
  refine C66_save h1 (.nil _) (fun _ _ _ => Iff.rfl) ?_ fuel bo exInfo
  intro x hx
  rcases (exLooks_reach f1 f2 f3 (by intro i; rfl) x).1 hx with rfl | rfl | rfl <;>
    simp [look, start, f1, f2, f3, put, alloc]

end Avb.Work

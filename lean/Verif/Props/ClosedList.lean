import Verif.Model.ClosedList
import Verif.Props.Closed
import Verif.Props.Loop

/-!
C66: listing by class id after `close()`.
-/
namespace Avb.Work

open Disk

/-- The number of a chunk that was yielded, and what is still to come. -/
theorem iterNext_yielded {f : AvbFile} {ids : List Bytes} {x : Option Nat} {is' : List Nat} {s1 : St} :
    ∀ {is : List Nat} {s : St}, iterNext f ids is s = (.yielded x is', s1) →
      ∃ pre i, is = pre ++ i :: is' ∧ look f s i = (.ok x, s1)
  | [], s, h => by cases h
  | i :: is, s, h => by
    rw [iterNext] at h
    split at h
    · cases h
    · split at h
      · split at h
        · cases h
        · next hl => cases h; exact ⟨[], i, rfl, hl⟩
      · obtain ⟨pre, j, h1, h2⟩ := iterNext_yielded h
        exact ⟨i :: pre, j, by rw [h1]; rfl, h2⟩

theorem positions_length {bytes : Bytes} {f : AvbFile} (ho : openTable bytes = .ok f) :
    f.positions.length = f.header.num_objects + 1 := by
  obtain ⟨bo, hdr, rest, ps, h1, h2, h3, h4, rfl⟩ := openTable_ok ho
  simp [scanChunks_length h4]

/-- C66: the file is closed in the middle of a loop over `iter_class_ids`, when the chunk with number `i` was yielded.
The next round raises `ValueError`, whatever is in memory and whether there is another object to come or not, unless `i`
was the last chunk of the file: then the loop ends. -/
theorem C66_next {bytes : Bytes} {f : AvbFile} (ho : openTable bytes = .ok f) {ids : List Bytes} {is is' : List Nat}
    {s s1 : St} {x : Option Nat} (his : is <:+ List.range f.positions.length)
    (hn : iterNext f ids is s = (.yielded x is', s1)) :
    is' <:+ List.range f.positions.length ∧ ∃ i, look f s i = (.ok x, s1) ∧ i ≤ f.header.num_objects ∧
      ∀ s2, iterNextClosed f ids is' s2 = (if i = f.header.num_objects then .stop else .raised .value, s2) := by
  obtain ⟨pre, i, rfl, hl⟩ := iterNext_yielded hn
  obtain ⟨pre0, hp⟩ := his
  have hlen := positions_length ho
  have hi : i = (pre0 ++ pre).length := by
    have h1 : (List.range f.positions.length)[(pre0 ++ pre).length]? = some i := by
      rw [← hp, ← List.append_assoc, List.getElem?_append_right (Nat.le_refl _), Nat.sub_self]; rfl
    have := List.getElem?_eq_some_iff.1 h1
    obtain ⟨_, h2⟩ := this
    simpa using h2.symm
  have htot : i + 1 + is'.length = f.positions.length := by
    have := congrArg List.length hp
    simp only [List.length_append, List.length_cons, List.length_range] at this hi
    omega
  refine ⟨⟨pre0 ++ pre ++ [i], by rw [← hp]; simp⟩, i, hl, by omega, fun s2 => ?_⟩
  cases is' with
  | nil =>
    rw [if_pos (by simp at htot; omega)]; rfl
  | cons j js =>
    rw [if_neg (by simp at htot; omega)]
    have hj : j = i + 1 := by
      have h1 : (List.range f.positions.length)[(pre0 ++ pre ++ [i]).length]? = some j := by
        rw [← hp, show pre0 ++ (pre ++ i :: j :: js) = (pre0 ++ pre ++ [i]) ++ j :: js by simp,
          List.getElem?_append_right (Nat.le_refl _), Nat.sub_self]; rfl
      obtain ⟨_, h2⟩ := List.getElem?_eq_some_iff.1 h1
      simp only [List.getElem_range, List.length_append, List.length_cons, List.length_nil] at h2 hi
      omega
    subst hj
    simp only [iterNextClosed]
    rw [C66_chunk, if_neg (by omega), if_pos (by simp at htot; omega)]

/-- C66: a listing that is begun after `close` gives at most `None`, for the header, and then raises `ValueError`, also if
all objects are in memory; only in a file without objects it comes to its end. -/
theorem C66_list {bytes : Bytes} {f : AvbFile} (ho : openTable bytes = .ok f) (ids : List Bytes) (s : St) :
    (cc 'O' 'B' 'J' 'D' ∈ ids → ∃ is, iterNextClosed f ids (List.range f.positions.length) s = (.yielded none is, s) ∧
      ∀ s2, iterNextClosed f ids is s2 = (if f.header.num_objects = 0 then .stop else .raised .value, s2)) ∧
    (cc 'O' 'B' 'J' 'D' ∉ ids → iterNextClosed f ids (List.range f.positions.length) s =
      (if f.header.num_objects = 0 then .stop else .raised .value, s)) := by
  have hlen := positions_length ho
  have key : ∀ s2, iterNextClosed f ids ((List.range f.header.num_objects).map Nat.succ) s2 =
      (if f.header.num_objects = 0 then .stop else .raised .value, s2) := by
    intro s2
    cases hn : f.header.num_objects with
    | zero => rfl
    | succ n =>
      rw [List.range_succ_eq_map, List.map_cons, if_neg (by omega)]
      simp only [iterNextClosed]
      rw [C66_chunk, if_neg (by omega), if_pos (by omega)]
  rw [hlen, List.range_succ_eq_map]
  have h0 : readChunkClosed f 0 = .ok ⟨cc 'O' 'B' 'J' 'D', 8, f.headerEnd - 8⟩ := rfl
  constructor
  · intro hm
    refine ⟨_, ?_, key⟩
    simp only [iterNextClosed, h0, if_pos hm]
    rfl
  · intro hm
    simp only [iterNextClosed, h0, if_neg hm]
    exact key s

/-- C66_next: the only gap of the example file is yielded, then the file is closed: the next round raises, though no other
gap is to come. -/
example (bo : BO) : ∃ bytes f s1 is', openTable bytes = .ok f ∧
    iterNext f [cc 'F' 'I' 'L' 'L'] (List.range f.positions.length) (start f exFill) = (.yielded (some 0) is', s1) ∧
    ∀ s2, iterNextClosed f [cc 'F' 'I' 'L' 'L'] is' s2 = (.raised .value, s2) := by
  obtain ⟨bytes, f, _, hf, f1, f2, f3, hr, hn, hp⟩ := exFile_ok bo
  obtain ⟨ck, c1, c2⟩ := C56_class_id f1
  have h0 : readChunk f 0 = .ok ⟨cc 'O' 'B' 'J' 'D', 8, f.headerEnd - 8⟩ := rfl
  have hl : look f (start f exFill) 1 =
      (.ok (some 0), { alloc (start f exFill) 1 exFill with cache := put (start f exFill).cache 1 0 }) := by
    simp [look, start, f1]
  have hr : List.range f.positions.length = [0, 1, 2, 3] := by rw [hp]; rfl
  have hy : iterNext f [cc 'F' 'I' 'L' 'L'] (List.range f.positions.length) (start f exFill) =
      (.yielded (some 0) [2, 3], { alloc (start f exFill) 1 exFill with cache := put (start f exFill).cache 1 0 }) := by
    rw [hr]
    simp only [iterNext, h0, c1, c2, hl]
    rfl
  refine ⟨bytes, f, _, _, hf, hy, fun s2 => ?_⟩
  obtain ⟨_, i, h1, h2, h3⟩ := C66_next hf (List.suffix_refl _) hy
  rw [h3 s2, if_neg]
  rintro rfl
  rw [hn] at h1
  simp [look, start, f3, alloc] at h1
  exact absurd (congrFun h1.1 1) (by simp [put])

/-- C66_list. -/
example (bo : BO) : ∃ bytes f, openTable bytes = .ok f ∧
    ∀ s, iterNextClosed f [cc 'S' 'E' 'Q' 'U'] (List.range f.positions.length) s = (.raised .value, s) := by
  obtain ⟨bytes, f, _, hf, f1, f2, f3, hr, hn, hp⟩ := exFile_ok bo
  refine ⟨bytes, f, hf, fun s => ?_⟩
  rw [(C66_list hf _ s).2 (by decide), hn]
  rfl

end Avb.Work

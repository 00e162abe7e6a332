import Verif.Props.Objects

/-!
C47: reading one chunk of an opened file, whatever is in it.
-/

namespace Avb

/-- In the opened file `f`, object `index` has the chunk with this class id and payload; the
chunk consists of the class id (backwards in little endian files), the payload length in 32 bits and the
payload. -/
structure HasChunk (f : AvbFile) (index : Nat) (id payload : Bytes) : Prop where
  index_ne : index ≠ 0
  id_length : id.length = 4
  small : payload.length < 2 ^ 32
  found : ∃ pos tail, f.positions[index]? = some pos ∧
    f.data.drop pos = (match f.bo with | .little => id.reverse | .big => id) ++
      packNat f.bo 4 payload.length ++ payload ++ tail

theorem HasChunk.read {f : AvbFile} {index : Nat} {id payload : Bytes} (h : HasChunk f index id payload) :
    readObject f index = match Cls.ofId id with
      | none => .error .notImplemented
      | some k =>
        match Obj.readAs f.ctx k payload with
        | .error e => .error e
        | .ok (o, left) => if left = [] then .ok (some o) else .error .assertion := by
  obtain ⟨h0, hid, hlt, pos, tail, hp, hd⟩ := h
  have hd : f.data.drop pos = chunkBytes f.bo id payload ++ tail := by
    rw [hd]; cases f.bo <;> simp [chunkBytes, fourccBytes]
  unfold readObject
  rw [if_neg h0, hp]
  simp only []
  rw [hd]
  have hf : rFourcc f.bo (chunkBytes f.bo id payload ++ tail) =
      .ok (id, packNat f.bo 4 payload.length ++ (payload ++ tail)) := by
    have := RT.fourcc (bo := f.bo) (s := id) _ (wFourcc_eq hid)
      (packNat f.bo 4 payload.length ++ (payload ++ tail)) trivial
    rw [← this]
    simp [chunkBytes]
  rw [Rd.bind_ok hf, Rd.bind_ok (rInt_u32 hlt _)]
  simp only [Rd.pure_apply, Int.toNat_natCast, List.take_left, ne_eq, not_true_eq_false, if_false]
  rfl

/-- C47: a chunk gives an object exactly when the reader of its class accepts the whole payload. -/
theorem C47_accepted {f : AvbFile} {index : Nat} {k : Cls} {payload : Bytes} (h : HasChunk f index k.id payload)
    (o : Obj) : readObject f index = .ok (some o) ↔ Obj.readAs f.ctx k payload = .ok (o, []) := by
  rw [h.read, Cls.ofId_id]
  dsimp only
  rcases Obj.readAs f.ctx k payload with e | ⟨o', left⟩
  · simp
  · by_cases hl : left = [] <;> simp [hl]

/-- C47: and it never gives `None`. -/
theorem C47_not_none {f : AvbFile} {index : Nat} {id payload : Bytes} (h : HasChunk f index id payload) :
    readObject f index ≠ .ok none := by
  rw [h.read]
  rcases Cls.ofId id with _ | k
  · simp
  · dsimp only
    rcases Obj.readAs f.ctx k payload with e | ⟨o', left⟩
    · simp
    · by_cases hl : left = [] <;> simp [hl]

/-- C47: a chunk of a class that is not known is refused, whatever its payload. -/
theorem C47_unknown_class {f : AvbFile} {index : Nat} {id payload : Bytes} (h : HasChunk f index id payload)
    (hk : ∀ k : Cls, k.id ≠ id) : readObject f index = .error .notImplemented := by
  rw [h.read]
  have : Cls.ofId id = none := by
    unfold Cls.ofId
    rw [List.find?_eq_none]
    intro k _; simpa using hk k
  rw [this]

/-- C47: an error of the reader of the class is passed on. -/
theorem C47_error {f : AvbFile} {index : Nat} {k : Cls} {payload : Bytes} (h : HasChunk f index k.id payload)
    {e : Err} (hr : Obj.readAs f.ctx k payload = .error e) : readObject f index = .error e := by
  rw [h.read, Cls.ofId_id]
  dsimp only
  rw [hr]

/-- C47: bytes after the end of the object are refused. -/
theorem C47_trailing {f : AvbFile} {index : Nat} {k : Cls} {payload more : Bytes}
    (h : HasChunk f index k.id (payload ++ more)) (hm : more ≠ []) {o : Obj}
    (hr : Obj.readAs f.ctx k payload = .ok (o, [])) : readObject f index = .error .assertion := by
  rw [h.read, Cls.ofId_id]
  simp only []
  rw [C09_longer hr more]
  simp [hm]

/-- C47: so is a payload that ends early. -/
theorem C47_truncated {f : AvbFile} {index : Nat} {k : Cls} {payload : Bytes} {n : Nat}
    (h : HasChunk f index k.id (payload.take n)) (hn : n < payload.length) {o : Obj}
    (hr : Obj.readAs f.ctx k payload = .ok (o, [])) : ∃ e, readObject f index = .error e := by
  obtain ⟨e, he⟩ := C09_cut hr n hn
  exact ⟨e, C47_error h he⟩

/-- C47: a file that ends inside the payload of a chunk. -/
theorem C47_file_ends {f : AvbFile} {index pos n : Nat} {id payload : Bytes} (h0 : index ≠ 0)
    (hp : f.positions[index]? = some pos) (hid : id.length = 4) (hn : n < 2 ^ 32)
    (hd : f.data.drop pos = (match f.bo with | .little => id.reverse | .big => id) ++ packNat f.bo 4 n ++ payload)
    (hl : payload.length < n) : readObject f index = .error .assertion := by
  unfold readObject
  rw [if_neg h0, hp]
  simp only []
  have hd : f.data.drop pos = fourccBytes f.bo id ++ (packNat f.bo 4 n ++ payload) := by
    rw [hd]; cases f.bo <;> simp [fourccBytes]
  rw [hd]
  have hf := RT.fourcc (bo := f.bo) (s := id) _ (wFourcc_eq hid) (packNat f.bo 4 n ++ payload) trivial
  rw [Rd.bind_ok hf, Rd.bind_ok (rInt_u32 hn _)]
  simp only [Rd.pure_apply, Int.toNat_natCast]
  rw [if_pos]
  rw [List.length_take]; omega

/-- C47: the null reference is `None`, and indices beyond the table are refused. -/
theorem C47_index (f : AvbFile) : readObject f 0 = .ok none ∧
    ∀ index, f.positions.length ≤ index → index ≠ 0 → readObject f index = .error .index := by
  refine ⟨by unfold readObject; rw [if_pos rfl], fun index h h0 => ?_⟩
  unfold readObject
  rw [if_neg h0, List.getElem?_eq_none h]

/-- A file with the given class id and payload as its only chunk, 3 bytes before and 1 after it. -/
def exChunkFile (bo : BO) (id payload : Bytes) : AvbFile where
  bo := bo
  header := { num_objects := 1, root_index := 1, last_save := 0, creator_version := [] }
  positions := [0, 3]
  data := [1, 2, 3] ++ (match bo with | .little => id.reverse | .big => id) ++
    packNat bo 4 payload.length ++ payload ++ [7]
  headerEnd := 3

theorem exChunkFile_chunk (bo : BO) {id payload : Bytes} (hid : id.length = 4) (h : payload.length < 2 ^ 32) :
    HasChunk (exChunkFile bo id payload) 1 id payload :=
  ⟨by decide, hid, h, 3, [7], rfl, by cases bo <;> simp [exChunkFile]⟩

/-- A filler of which the chunk is too long by three bytes, and one of an unknown class. -/
example (bo : BO) : ∃ bs, exFill.write (exWrite bo 2) = .ok ((), bs) ∧
    readObject (exChunkFile bo (Cls.id .FILL) bs) 1 ≠ .ok none ∧
    readObject (exChunkFile bo (Cls.id .FILL) (bs ++ [0, 3, 3])) 1 = .error .assertion ∧
    (∃ e, readObject (exChunkFile bo (Cls.id .FILL) (bs.take 10)) 1 = .error e) ∧
    readObject (exChunkFile bo (cc 'X' 'Y' 'Z' 'W') bs) 1 = .error .notImplemented := by
  have hw : ∃ bs, exFill.write (exWrite bo 2) = .ok ((), bs) ∧ 10 < bs.length ∧ bs.length < 1000 := by
    cases bo
    · exact ⟨_, rfl, by decide +kernel, by decide +kernel⟩
    · exact ⟨_, rfl, by decide +kernel, by decide +kernel⟩
  obtain ⟨bs, hw, hl, hl'⟩ := hw
  have ht : exFill.Readable := textsOK_short (by decide)
  have hr := C06_read_back (ex_linked bo (by decide)) ht hw []
  rw [List.append_nil] at hr
  refine ⟨bs, hw, ?_, ?_, ?_, ?_⟩
  · exact C47_not_none (exChunkFile_chunk bo rfl (by omega))
  · exact C47_trailing (exChunkFile_chunk bo rfl (by rw [List.length_append]; simp; omega)) (by decide) hr
  · exact C47_truncated (exChunkFile_chunk bo rfl (by rw [List.length_take]; omega)) hl hr
  · exact C47_unknown_class (exChunkFile_chunk bo rfl (by omega)) (fun k => by cases k <;> decide +kernel)

/-- C47_file_ends: a file that ends after two of the ten bytes announced. -/
example : readObject { exChunkFile .big [] [] with
    data := [1, 2, 3] ++ Cls.id .FILL ++ [0, 0, 0, 10, 2, 3] } 1 = .error .assertion :=
  C47_file_ends (pos := 3) (n := 10) (id := Cls.id .FILL) (payload := [2, 3]) (by decide) rfl (by decide) (by decide)
    (by decide +kernel) (by decide)

end Avb

import Mathlib.Algebra.BigOperators.Group.Finset.Basic
import Mathlib.Algebra.Order.BigOperators.Group.Finset
import Verif.Lemmas.PaysAll
import Verif.Props.FastSafe
import Verif.Props.Reach

/-!
C68: what is loaded is no larger than the file.
-/

namespace Avb

/-- What `readObject` does once the position of the chunk is known. -/
theorem readObject_chunk_ok {f : AvbFile} {index pos : Nat} {o : Obj} (hp : f.positions[index]? = some pos)
    (h : readObject f index = .ok (some o)) :
    index ≠ 0 ∧ ∃ id size rest k, (rFourcc f.bo >>= fun id => rInt f.bo .u32 >>= fun size => pure (id, size))
        (f.data.drop pos) = .ok ((id, size), rest) ∧ (rest.take size.toNat).length = size.toNat ∧
      Obj.readAs f.ctx k (rest.take size.toNat) = .ok (o, []) := by
  unfold readObject at h
  split at h
  · cases h
  · rename_i h0
    refine ⟨h0, ?_⟩
    rw [hp] at h
    dsimp only at h
    split at h
    · cases h
    · rename_i id size rest hr
      split at h
      · cases h
      · rename_i hl
        split at h
        · cases h
        · rename_i k hk
          split at h
          · cases h
          · rename_i left ho
            split at h
            · rename_i hleft
              cases h
              subst hleft
              exact ⟨id, size, rest, k, hr, by simpa using hl, ho⟩
            · cases h

/-- The header of a chunk as the scan reads it. -/
theorem scanHead_ok {bo : BO} {bs rest : Bytes} {size : Int}
    (h : (fread 4 >>= fun _ => rInt bo .u32) bs = .ok (size, rest)) :
    8 ≤ bs.length ∧ rest = bs.drop 8 := by
  obtain ⟨b, mid, h1, h2⟩ := Rd.bind_eq_ok' h
  have hm : mid = bs.drop 4 := by
    unfold fread at h1
    rw [if_neg (by omega)] at h1
    cases h1
    rfl
  unfold rInt at h2
  split at h2
  · cases h2
  · rename_i hl
    injection h2 with h2
    injection h2 with _ h2
    subst hm
    rw [List.length_drop] at hl
    have hw : IntTy.u32.width = 4 := rfl
    rw [hw] at hl h2
    rw [List.drop_drop] at h2
    exact ⟨by omega, h2.symm⟩

/-- Loading an object reads the same header as the scan. -/
theorem readHead_ok {bo : BO} {bs rest id : Bytes} {size : Int}
    (h : (rFourcc bo >>= fun id => rInt bo .u32 >>= fun size => pure (id, size)) bs = .ok ((id, size), rest)) :
    (fread 4 >>= fun _ => rInt bo .u32) bs = .ok (size, rest) := by
  obtain ⟨b, mid, h1, h2⟩ := Rd.bind_eq_ok' h
  obtain ⟨n, mid2, h3, h4⟩ := Rd.bind_eq_ok' h2
  cases h4
  unfold rFourcc at h1
  obtain ⟨c, mid3, h5, h6⟩ := Rd.bind_eq_ok' h1
  have : mid3 = mid := by
    cases bo <;> (cases h6; rfl)
  subst this
  rw [Rd.bind_ok h5]
  exact h3

/-- C68: whatever the file holds, a loaded object has no more list elements, characters and bytes together
than its chunk has bytes, and the chunk lies inside of the file. -/
theorem C68_object {f : AvbFile} {index : Nat} {o : Obj} (h : readObject f index = .ok (some o)) :
    ∃ ck, readChunk f index = .ok ck ∧ (ck.read f).length = ck.size ∧ o.size ≤ ck.size := by
  cases hp : f.positions[index]? with
  | none =>
    unfold readObject at h
    rw [hp] at h
    split at h <;> cases h
  | some pos =>
    obtain ⟨h0, id, size, rest, k, h1, h2, h3⟩ := readObject_chunk_ok hp h
    obtain ⟨h4, h5⟩ := scanHead_ok (readHead_ok h1)
    refine ⟨⟨id, pos + 8, size.toNat⟩, ?_, ?_, ?_⟩
    · unfold readChunk
      rw [if_neg h0, hp]
      dsimp only
      rw [h1]
    · subst h5
      show ((f.data.drop (pos + 8)).take size.toNat).length = size.toNat
      rw [List.drop_drop] at h2
      exact h2
    · have := Obj.readAs_pays f.ctx k _ _ _ h3
      rw [h2] at this
      simpa using this

/-- What the object with a number takes: eight bytes for the header of its chunk and what it holds. -/
def held (f : AvbFile) (index : Nat) : Nat :=
  match readObject f index with
  | .ok (some o) => 8 + o.size
  | _ => 0

theorem scan_total {f : AvbFile} : ∀ {n pos : Nat} {bs : Bytes} {ps : List Nat} {i : Nat},
    scanChunks f.bo n pos bs = .ok ps → f.data.drop pos = bs →
    (∀ j (hj : j < ps.length), f.positions[i + j]? = some ps[j]) →
    ((List.range' i ps.length).map (held f)).sum ≤ bs.length
  | 0, pos, bs, ps, i, h, hb, hp => by
    cases h
    simp
  | n + 1, pos, bs, ps, i, h, hb, hp => by
    unfold scanChunks at h
    split at h
    · cases h
    · rename_i size rest hs
      split at h
      · cases h
      · rename_i ps' h'
        cases h
        obtain ⟨h1, h2⟩ := scanHead_ok hs
        have hd : f.data.drop (pos + 8 + size.toNat) = rest.drop size.toNat := by
          rw [h2, ← hb, List.drop_drop, List.drop_drop, Nat.add_assoc]
        have ih := scan_total (i := i + 1) h' hd fun j hj => by
          have := hp (j + 1) (by simpa using hj)
          rw [show i + 1 + j = i + (j + 1) by omega, this]
          rfl
        rw [List.length_cons, List.range'_succ, List.map_cons, List.sum_cons]
        have hl : (rest.drop size.toNat).length = bs.length - 8 - size.toNat := by
          rw [h2, List.length_drop, List.length_drop]
        have hi : f.positions[i]? = some pos := hp 0 (by simp)
        have : held f i + (rest.drop size.toNat).length ≤ bs.length := by
          unfold held
          split
          · rename_i o ho
            obtain ⟨h0, id, size', rest', k, e1, e2, e3⟩ := readObject_chunk_ok hi ho
            have e1 := readHead_ok e1
            rw [hb, hs] at e1
            injection e1 with e1
            injection e1 with e1 e4
            subst e1 e4
            have := Obj.readAs_pays f.ctx k _ _ _ e3
            rw [e2] at this
            have e5 : size.toNat ≤ rest.length := by
              rw [List.length_take] at e2
              omega
            rw [h2, List.length_drop] at e5
            simp only [List.length_nil] at this
            omega
          · omega
        omega

/-- C68: whatever bytes were opened, the objects that can be loaded from them, each counted once with eight
bytes for its chunk header, hold no more list elements, characters and bytes together than the file has
bytes. -/
theorem C68_file {bytes : Bytes} {f : AvbFile} (ho : openTable bytes = .ok f) {is : List Nat} (hn : is.Nodup)
    {os : List Obj} (hr : List.Forall₂ (fun i o => readObject f i = .ok (some o)) is os) :
    (os.map fun o => 8 + o.size).sum ≤ bytes.length := by
  obtain ⟨bo, hdr, rest, ps, h1, h2, h3, h4, rfl⟩ := openTable_ok ho
  have hlen : rest.length ≤ bytes.length ∧ bytes.drop (bytes.length - rest.length) = rest := by
    obtain ⟨p, hp, -⟩ := readHeader_mono bo _ _ _ h3
    have hb : bytes = bytes.take 8 ++ p ++ rest := by
      rw [List.append_assoc, ← hp, List.take_append_drop]
    have hl := congrArg List.length hb
    rw [List.length_append] at hl
    refine ⟨by omega, ?_⟩
    have : bytes.length - rest.length = (bytes.take 8 ++ p).length := by omega
    rw [this]
    conv => lhs; arg 2; rw [hb]
    exact List.drop_left
  have htot := scan_total (f := ⟨bo, hdr, 0 :: ps, bytes, bytes.length - rest.length⟩) (i := 1) h4 hlen.2
    (fun j hj => by
      rw [Nat.add_comm]
      simp [hj])
  generalize hf : (⟨bo, hdr, 0 :: ps, bytes, bytes.length - rest.length⟩ : AvbFile) = f at hr htot
  have hpos : f.positions = 0 :: ps := by rw [← hf]
  have e1 : (os.map fun o => 8 + o.size) = is.map (held f) := by
    clear hn
    induction hr with
    | nil => rfl
    | cons h _ ih =>
      rw [List.map_cons, List.map_cons, ih]
      unfold held
      rw [h]
  have hsub : ∀ i ∈ is, i ∈ List.range' 1 ps.length := by
    intro i hi
    obtain ⟨o, -, h⟩ : ∃ o, o ∈ os ∧ readObject f i = .ok (some o) := by
      clear e1 hn
      induction hr with
      | nil => simp at hi
      | cons h _ ih =>
        rcases List.mem_cons.1 hi with rfl | hi
        · exact ⟨_, List.mem_cons_self, h⟩
        · obtain ⟨o, h1, h2⟩ := ih hi
          exact ⟨o, List.mem_cons_of_mem _ h1, h2⟩
    rw [List.mem_range'_1]
    cases hp : f.positions[i]? with
    | none =>
      unfold readObject at h
      rw [hp] at h
      split at h <;> cases h
    | some pos =>
      have h0 := (readObject_chunk_ok hp h).1
      have := (List.getElem?_eq_some_iff.1 hp).1
      rw [hpos, List.length_cons] at this
      omega
  rw [e1, ← List.sum_toFinset _ hn]
  refine Nat.le_trans (Finset.sum_le_sum_of_subset (t := (List.range' 1 ps.length).toFinset) ?_) ?_
  · intro i hi
    exact List.mem_toFinset.2 (hsub i (List.mem_toFinset.1 hi))
  · rw [List.sum_toFinset _ (List.nodup_range' 1)]
    exact Nat.le_trans htot hlen.1

/-- The example file holds a sequence and its two components, together with characters of names. -/
example : ∃ bytes f os, openTable bytes = .ok f ∧
    List.Forall₂ (fun i o => readObject f i = .ok (some o)) [1, 2, 3] os ∧
    2 ≤ (os.map Obj.size).sum ∧ (os.map fun o => 8 + o.size).sum ≤ bytes.length := by
  have key : ∀ x : Except Err Bytes,
      (match x with
        | .ok b => (match openTable b with
          | .ok f => (match readObject f 1, readObject f 2, readObject f 3 with
            | .ok (some o1), .ok (some o2), .ok (some o3) =>
              decide (2 ≤ o1.size + (o2.size + (o3.size + 0)))
            | _, _, _ => false)
          | _ => false)
        | _ => false) = true →
      ∃ b f o1 o2 o3, openTable b = .ok f ∧ readObject f 1 = .ok (some o1) ∧ readObject f 2 = .ok (some o2) ∧
        readObject f 3 = .ok (some o3) ∧ 2 ≤ o1.size + (o2.size + (o3.size + 0)) := by
    intro x hx
    split at hx
    · rename_i b
      split at hx
      · rename_i f ho
        split at hx
        · rename_i o1 o2 o3 h1 h2 h3
          exact ⟨b, f, o1, o2, o3, ho, h1, h2, h3, of_decide_eq_true hx⟩
        · cases hx
      · cases hx
    · cases hx
  obtain ⟨b, f, o1, o2, o3, ho, h1, h2, h3, h⟩ := key (save exHeap 10 .little exInfo 1) (by decide +kernel)
  have hr : List.Forall₂ (fun i o => readObject f i = .ok (some o)) [1, 2, 3] [o1, o2, o3] :=
    .cons h1 (.cons h2 (.cons h3 .nil))
  exact ⟨b, f, _, ho, hr, by simpa using h, C68_file ho (by decide) hr⟩

namespace Fast

/-- Numbers past the end of the data are zeros. -/
theorem sint_past {data : Bytes} {pos : Nat} {p : Props} (h : data.length ≤ pos) :
    sint 4 data ⟨pos, p⟩ = (.ok 0, ⟨pos, p⟩) := by
  unfold sint uint
  rw [bind_ok (a := 0) (s' := ⟨pos, p⟩)]
  · rfl
  · rw [bind_ok (bytes_past h)]
    rfl

theorem times_past {data : Bytes} {pos : Nat} {p : Props} (h : data.length ≤ pos) :
    ∀ n, times (sint 4) n data ⟨pos, p⟩ = (.ok (List.replicate n 0), ⟨pos, p⟩)
  | 0 => rfl
  | n + 1 => by
    unfold times
    rw [bind_ok (sint_past h), bind_ok (times_past h n)]
    rfl

/-- The payload of an image descriptor that ends with the size of its line map, the size being `4 * n`. -/
def exLineMap (n : Nat) : Bytes := [0, 2, 2] ++ List.replicate 50 0 ++ leBytes 4 (4 * n)

/-- C68: the accelerated readers do not have this bound: a payload of 57 bytes is accepted as an image
descriptor with a line map of any length below 2 ^ 30. -/
theorem C68_accelerated {n : Nat} (hn : n < 2 ^ 30) :
    (exLineMap n).length = 57 ∧ ∃ p, load read_did_descriptor (exLineMap n) = .ok p ∧
      p.line_map = some (List.replicate n 0) := by
  refine ⟨rfl, ?_⟩
  have hv : leVal (leBytes 4 (4 * n)) = 4 * n := by
    rw [leVal_leBytes]
    exact Nat.mod_eq_of_lt (by omega)
  have h1 : ignore read_media_file_descriptor (exLineMap n) ⟨0, {}⟩ = (.ok (), ⟨1, {}⟩) := rfl
  have h2 : tag 0x02 (exLineMap n) ⟨1, {}⟩ = (.ok (), ⟨2, {}⟩) := rfl
  have h3 : tag 0x02 (exLineMap n) ⟨2, {}⟩ = (.ok (), ⟨3, {}⟩) := rfl
  have h4 : ∀ {pos : Nat}, pos = 3 ∨ pos = 7 ∨ pos = 11 ∨ pos = 15 ∨ pos = 19 ∨ pos = 23 ∨ pos = 27 ∨
      pos = 31 ∨ pos = 35 ∨ pos = 39 ∨ pos = 45 ∨ pos = 49 →
      sint 4 (exLineMap n) ⟨pos, {}⟩ = (.ok 0, ⟨pos + 4, {}⟩) := by
    rintro pos (rfl | rfl | rfl | rfl | rfl | rfl | rfl | rfl | rfl | rfl | rfl | rfl) <;> rfl
  have h5 : sint 2 (exLineMap n) ⟨43, {}⟩ = (.ok 0, ⟨45, {}⟩) := rfl
  have h6 : uint 4 (exLineMap n) ⟨53, {}⟩ = (.ok (4 * n), ⟨57, {}⟩) := by
    unfold uint
    rw [bind_ok (a := leBytes 4 (4 * n)) (s' := ⟨57, {}⟩) rfl, hv]
    rfl
  have hd : (exLineMap n).length ≤ 57 := Nat.le_refl _
  have h7 := times_past (p := {}) hd (4 * n / 4)
  rw [show 4 * n / 4 = n by omega] at h7
  have h8 : ∀ q, iterExt didExt (exLineMap n) ⟨57, q⟩ = (.ok (), ⟨56, q⟩) := by
    intro q
    unfold iterExt
    rfl
  unfold load read_did_descriptor
  rw [bind_ok h1, bind_ok h2, bind_ok h3]
  iterate 10 rw [bind_ok (h4 (by decide))]
  rw [bind_ok h5]
  iterate 2 rw [bind_ok (h4 (by decide))]
  rw [bind_ok h6]
  simp only [show 4 * n / 4 = n by omega]
  rw [bind_ok h7, bind_ok (sint_past hd), bind_ok (a := false) (s' := ⟨57, {}⟩) rfl, bind_ok (sint_past hd),
    bind_ok (a := 0) (s' := ⟨57, {}⟩) rfl, bind_ok (bytes_past hd), bind_ok (sint_past hd),
    bind_ok (sint_past hd), bind_ok (show put _ _ _ = (.ok (), _) from rfl), h8]
  exact ⟨_, rfl, rfl⟩

/-- The file header is read as usual, and the descriptor is accepted as an object of a file of 69 bytes; the
portable reader raises an exception. -/
theorem C68_accelerated_file {n : Nat} (hn : n < 2 ^ 30) :
    (exChunkFile .little (Cls.id .DIDD) (exLineMap n)).data.length = 69 ∧
      (∃ p, readObject (exChunkFile .little (Cls.id .DIDD) (exLineMap n)) 1 = .ok (some (.props .DIDD p)) ∧
        p.line_map = some (List.replicate n 0)) ∧
      Avb.readObject (exChunkFile .little (Cls.id .DIDD) (exLineMap n)) 1 = .error .assertion := by
  have hc := exChunkFile_chunk .little (id := Cls.id .DIDD) (payload := exLineMap n) rfl (by decide : 57 < 2 ^ 32)
  refine ⟨rfl, ?_, ?_⟩
  · obtain ⟨-, p, h, hp⟩ := C68_accelerated hn
    refine ⟨p, ?_, hp⟩
    rw [chunk_read hc, Cls.ofId_id]
    show (loadChunk _ .DIDD (exLineMap n)).map some = _
    unfold loadChunk
    rw [if_neg (by decide), show reader .DIDD = some read_did_descriptor from rfl]
    dsimp only
    rw [h]
    rfl
  · refine C47_error hc ?_
    show (DIDDescriptor.read _).as _ _ = _
    rfl

end Fast

end Avb

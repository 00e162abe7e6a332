import Verif.Lemmas.Save
import Verif.Lemmas.RTTac

/-
Opening what was written: header, table of chunks, objects.
-/

namespace Avb

/-- The creator string as it is seen in a saved file: cut to 30 characters, filled with spaces, NULs
at either end removed. -/
def creatorNorm (t : Text) : Text := stripText (t.take 30 ++ List.replicate (30 - t.length) ' ')

theorem creatorBytes_length (d : Bytes) : (creatorBytes d).length = 30 := by
  simp [creatorBytes]; omega

theorem creatorBytes_decode {t : Text} {d : Bytes} (h : macEncode t = some d) :
    (stripNul (creatorBytes d)).map macDecodeByte = creatorNorm t := by
  rw [map_macDecode_strip]
  have h1 := map_decode_of_macEncode h
  have h2 := macEncode_length h
  unfold creatorNorm creatorBytes
  have h3 : macDecodeByte 0x20 = ' ' := by decide
  rw [List.map_append, List.map_take, h1, List.map_replicate, h3, List.length_take, h2]
  congr 3
  omega

/-- The header after the byte order and the magic. -/
def writeHeaderTail (bo : BO) (hd : HeaderInfo) (count root : Nat) : Wr Unit := do
  wFourcc bo (cc 'O' 'B' 'J' 'D')
  wStr bo .macroman objDoc
  wU8 0x04
  wStr bo .macroman hd.last_save_str
  wInt bo .u32 count
  wInt bo .u32 root
  writeHeaderPost bo hd

theorem RT.u32skip {bo : BO} {v : Int} {n : Int} (hn : n = 4) {w : Wr Unit} {k : Bytes → Rd α} {r : Rd α}
    {x : α} (hk : ∀ b, k b = r) (h : RT w r x) :
    RT (wInt bo .u32 v >>= fun _ => w) (fread n >>= k) x := by
  intro bs hbs rest _
  obtain ⟨_, o1, o2, e1, e2, rfl⟩ := Wr.bind_eq_ok hbs
  obtain ⟨_, _, rfl⟩ := wInt_eq_ok e1
  rw [List.append_assoc, Rd.bind_ok (fread_append (by simp [hn, IntTy.width])), hk]
  exact h o2 e2 rest trivial

theorem objDoc_ok : TextOK .macroman objDoc := by
  intro d hd
  have : payload .macroman objDoc = some [0x41, 0x4F, 0x62, 0x6A, 0x44, 0x6F, 0x63] := by decide
  rw [this] at hd
  cases hd
  decide

theorem stripText_objDoc : stripText objDoc = objDoc := by decide

/-- The header of a saved file is read back. -/
theorem readHeader_rt {bo : BO} {hd : HeaderInfo} {count root : Nat}
    (ht : TextOK .macroman hd.last_save_str) :
    RT (writeHeaderTail bo hd count root) (readHeader bo)
      { num_objects := count, root_index := root, last_save := hd.last_save,
        creator_version := creatorNorm hd.creator_version } := by
  unfold writeHeaderTail writeHeaderPost readHeader
  refine RT.bind RT.fourcc (RT.rguard rfl (RT.bind (RT.str objDoc_ok)
    (RT.rguard stripText_objDoc (RT.bind RT.int (RT.rguard rfl (RT.bind (RT.str ht)
      (RT.bind RT.int (RT.bind RT.int (RT.bind RT.int (RT.rguard ?_ (RT.bind RT.date
        (RT.u32skip rfl (fun _ => rfl) (RT.bind RT.fourcc (RT.rguard rfl (RT.bind RT.fourcc
          (RT.rguard rfl ?_))))))))))))))))
  · cases bo
    · exact .inl rfl
    · exact .inr rfl
  · cases hc : encodeText .macroman hd.creator_version with
    | none => exact RT.wfail
    | some d =>
      intro bs hbs rest _
      obtain ⟨_, o1, o2, e1, hbs2, rfl⟩ := Wr.bind_eq_ok hbs
      obtain ⟨_, o3, o4, e3, e4, rfl⟩ := Wr.bind_eq_ok hbs2
      obtain rfl := Wr.emit_eq_ok e3
      obtain rfl := Wr.emit_eq_ok e4
      have hr : rStr bo .macroman (o1 ++ (creatorBytes d ++ List.replicate 16 0) ++ rest) =
          .ok (creatorNorm hd.creator_version, List.replicate 16 0 ++ rest) := by
        unfold rStr
        rw [List.append_assoc, List.append_assoc, Rd.bind_ok (RT.int o1 e1 _ trivial), if_neg (by omega),
          Rd.bind_ok (fread_append (by rw [creatorBytes_length]; rfl))]
        simp only [decodeText, creatorBytes_decode hc]
        rfl
      rw [Rd.bind_ok hr, Rd.bind_ok (fread_append (by simp))]
      simp

/-- Where chunks start, the first one at `pos`. -/
def offsets : Nat → List Bytes → List Nat
  | _, [] => []
  | pos, d :: ds => pos :: offsets (pos + 8 + d.length) ds

theorem offsets_length (pos : Nat) (ds : List Bytes) : (offsets pos ds).length = ds.length := by
  induction ds generalizing pos with
  | nil => rfl
  | cons d ds ih => simp [offsets, ih]

theorem rInt_u32 {bo : BO} {n : Nat} (h : n < 2 ^ 32) (rest : Bytes) :
    rInt bo .u32 (packNat bo 4 n ++ rest) = .ok ((n : Int), rest) :=
  RT.int _ (wU32_eq h) _ trivial

theorem scanChunks_chunks {bo : BO} (cks : List (Bytes × Bytes)) (pos : Nat) (tail : Bytes)
    (hid : ∀ p ∈ cks, p.1.length = 4) (hlt : ∀ p ∈ cks, p.2.length < 2 ^ 32) :
    scanChunks bo cks.length pos ((cks.flatMap fun p => chunkBytes bo p.1 p.2) ++ tail) =
      .ok (offsets pos (cks.map (·.2))) := by
  induction cks generalizing pos with
  | nil => rfl
  | cons p cks ih =>
    have h1 := hid p List.mem_cons_self
    have h2 := hlt p List.mem_cons_self
    simp only [List.length_cons, List.flatMap_cons, scanChunks]
    rw [show chunkBytes bo p.1 p.2 = fourccBytes bo p.1 ++ (packNat bo 4 p.2.length ++ p.2) by
      simp [chunkBytes]]
    simp only [List.append_assoc]
    rw [Rd.bind_ok (fread_append (by rw [fourccBytes_length, h1]; rfl)), rInt_u32 h2]
    simp only [Int.toNat_natCast, List.drop_left]
    rw [ih _ (fun p hp => hid p (List.mem_cons_of_mem _ hp))
      (fun p hp => hlt p (List.mem_cons_of_mem _ hp))]
    rfl

theorem scanChunks_short {bo : BO} (cks : List (Bytes × Bytes)) (pos m : Nat)
    (hid : ∀ p ∈ cks, p.1.length = 4) (hlt : ∀ p ∈ cks, p.2.length < 2 ^ 32) :
    scanChunks bo (cks.length + (m + 1)) pos (cks.flatMap fun p => chunkBytes bo p.1 p.2) =
      .error .struct := by
  induction cks generalizing pos with
  | nil =>
    simp only [List.length_nil, scanChunks, List.flatMap_nil]
    rw [Rd.bind_ok (a := []) (rest := []) (by rfl)]
    rfl
  | cons p cks ih =>
    have h1 := hid p List.mem_cons_self
    have h2 := hlt p List.mem_cons_self
    rw [show (p :: cks).length + (m + 1) = (cks.length + (m + 1)) + 1 by simp; omega]
    generalize cks.length + (m + 1) = n at ih ⊢
    simp only [List.flatMap_cons, scanChunks]
    rw [show chunkBytes bo p.1 p.2 = fourccBytes bo p.1 ++ (packNat bo 4 p.2.length ++ p.2) by
      simp [chunkBytes]]
    simp only [List.append_assoc]
    rw [Rd.bind_ok (fread_append (by rw [fourccBytes_length, h1]; rfl)), rInt_u32 h2]
    simp only [Int.toNat_natCast, List.drop_left]
    rw [ih _ (fun p hp => hid p (List.mem_cons_of_mem _ hp))
      (fun p hp => hlt p (List.mem_cons_of_mem _ hp))]

theorem offsets_drop {bo : BO} (cks : List (Bytes × Bytes)) (pre : Bytes) (i : Nat)
    (hid : ∀ p ∈ cks, p.1.length = 4) (hi : i < cks.length) :
    ∃ pos tail, (offsets pre.length (cks.map (·.2)))[i]? = some pos ∧
      (pre ++ cks.flatMap fun p => chunkBytes bo p.1 p.2).drop pos =
        chunkBytes bo cks[i].1 cks[i].2 ++ tail := by
  induction cks generalizing pre i with
  | nil => simp at hi
  | cons p cks ih =>
    cases i with
    | zero =>
      exact ⟨pre.length, cks.flatMap fun p => chunkBytes bo p.1 p.2, rfl, by
        rw [List.drop_left]; simp⟩
    | succ i =>
      have h1 := hid p List.mem_cons_self
      obtain ⟨pos, tail, h2, h3⟩ := ih (pre ++ chunkBytes bo p.1 p.2) i
        (fun p hp => hid p (List.mem_cons_of_mem _ hp)) (by simpa using hi)
      refine ⟨pos, tail, ?_, ?_⟩
      · rw [← h2]
        simp only [List.map_cons, offsets, List.getElem?_cons_succ]
        congr 2
        simp [chunkBytes, fourccBytes_length, h1]; omega
      · simpa using h3

/-- A chunk found in the table is read by the reader of its class. -/
theorem readObject_chunk {f : AvbFile} {index pos : Nat} {k : Cls} {data tail : Bytes} {o : Obj}
    (h0 : index ≠ 0) (hp : f.positions[index]? = some pos)
    (hd : f.data.drop pos = chunkBytes f.bo k.id data ++ tail) (hlt : data.length < 2 ^ 32)
    (hk : Cls.ofId k.id = some k) (hr : Obj.readAs f.ctx k data = .ok (o, [])) :
    readObject f index = .ok (some o) := by
  unfold readObject
  rw [if_neg h0, hp]
  simp only []
  rw [hd]
  have hf : rFourcc f.bo (chunkBytes f.bo k.id data ++ tail) =
      .ok (k.id, packNat f.bo 4 data.length ++ (data ++ tail)) := by
    have := RT.fourcc (bo := f.bo) (s := k.id) _ (wFourcc_eq (Cls.id_length k))
      (packNat f.bo 4 data.length ++ (data ++ tail)) trivial
    rw [← this]
    simp [chunkBytes]
  rw [Rd.bind_ok hf, Rd.bind_ok (rInt_u32 hlt _)]
  simp only [Rd.pure_apply, Int.toNat_natCast, List.take_left, hk, hr]
  simp

/-- A chunk found in the table is described by its class id, place and length. -/
theorem readChunk_chunk {f : AvbFile} {index pos : Nat} {id data tail : Bytes}
    (h0 : index ≠ 0) (hp : f.positions[index]? = some pos)
    (hd : f.data.drop pos = chunkBytes f.bo id data ++ tail) (hlt : data.length < 2 ^ 32)
    (hid : id.length = 4) :
    readChunk f index = .ok ⟨id, pos + 8, data.length⟩ := by
  unfold readChunk
  rw [if_neg h0, hp]
  simp only []
  rw [hd]
  have hf : rFourcc f.bo (chunkBytes f.bo id data ++ tail) =
      .ok (id, packNat f.bo 4 data.length ++ (data ++ tail)) := by
    have := RT.fourcc (bo := f.bo) (s := id) _ (wFourcc_eq hid)
      (packNat f.bo 4 data.length ++ (data ++ tail)) trivial
    rw [← this]
    simp [chunkBytes]
  rw [Rd.bind_ok hf, Rd.bind_ok (rInt_u32 hlt _)]
  simp only [Rd.pure_apply, Int.toNat_natCast]

theorem Cls.ofId_id (k : Cls) : Cls.ofId k.id = some k := by cases k <;> decide +kernel

end Avb

import Verif.Props.File

/-
C16, C17: header and chunk table.  C35, C44, C45: files cut short.  C43: objects of another file.
-/

namespace Avb

open Relation SaveCore

/-! ### C16 -/

/-- What a creator string becomes: its first 30 characters, with blanks to fill up 30. -/
def paddedCreator (t : Text) : Text := t.take 30 ++ List.replicate (30 - t.length) ' '

/-- C16: the header of a saved file.  The creator string comes back cut and padded to 30 characters
(if it has no NUL at an end). -/
theorem C16_header {h : Heap} {fuel : Nat} {bo : BO} {hd : HeaderInfo} {content : Ref}
    {bytes : Bytes} (hh : HeapOK h) (ht : TextOK .macroman hd.last_save_str)
    (hs : save h fuel bo hd content = .ok bytes) :
    ∃ f, openTable bytes = .ok f ∧ f.bo = bo ∧ f.header.last_save = hd.last_save ∧
      f.header.creator_version = stripText (paddedCreator hd.creator_version) ∧
      f.header.num_objects + 1 = f.positions.length ∧
      f.header.root_index = f.header.num_objects := by
  obtain ⟨pre, post, s, done, sc⟩ := save_core hh hs
  exact ⟨_, sc.table ht, rfl, rfl, rfl, by simp [savedFile, rootedFile, offsets_length], rfl⟩

/-- C16: without NUL characters the creator string is exactly the padded one. -/
theorem C16_creator {t : Text} (h : ∀ c ∈ t, c ≠ '\x00') : stripText (paddedCreator t) = paddedCreator t := by
  apply stripText_of_no_nul
  intro c hc
  unfold paddedCreator at hc
  rcases List.mem_append.1 hc with hc | hc
  · exact h c (List.mem_of_mem_take hc)
  · rw [(List.mem_replicate.1 hc).2]; decide

example : stripText (paddedCreator "2019.6 Mac".toList) = paddedCreator "2019.6 Mac".toList :=
  C16_creator (by decide)

/-- C16: saving an opened file again keeps the creator string. -/
theorem C16_creator_stable (t : Text) : paddedCreator (paddedCreator t) = paddedCreator t := by
  have h : (paddedCreator t).length = 30 := by
    simp [paddedCreator]; omega
  generalize paddedCreator t = u at h
  unfold paddedCreator
  rw [h, List.take_of_length_le (by omega)]
  simp

example : ∃ bytes f, save exHeap 10 .big exInfo 1 = .ok bytes ∧ openTable bytes = .ok f ∧
    f.header.creator_version = "pyavb                         ".toList := by
  obtain ⟨bytes, hs⟩ := exHeap_save .big
  obtain ⟨f, h1, _, _, h2, _⟩ := C16_header exHeap_ok exInfo_ok hs
  exact ⟨bytes, f, hs, h1, by rw [h2]; decide⟩

/-! ### C17 -/

/-- C17: for a file made of a header and any list of chunks (any class ids), opening finds each chunk
under its number, with its class id, and reading it gives its data; there are no other numbers.  Bytes
after the last chunk do not matter. -/
theorem C17_chunk_table {bo : BO} {hd : HeaderInfo} {pre post : Bytes} {root : Nat}
    (h1 : (writeHeaderPre bo hd).bytes = .ok pre) (h2 : (writeHeaderPost bo hd).bytes = .ok post)
    (ht : TextOK .macroman hd.last_save_str) (hroot : root < 2 ^ 32)
    (cks : List (Bytes × Bytes)) (hn : cks.length < 2 ^ 32) (tail : Bytes)
    (hid : ∀ p ∈ cks, p.1.length = 4) (hlt : ∀ p ∈ cks, p.2.length < 2 ^ 32) :
    ∃ f, openTable (headerBytes bo pre post cks.length root ++
        ((cks.flatMap fun p => chunkBytes bo p.1 p.2) ++ tail)) = .ok f ∧
      (∀ i, (hi : i < cks.length) → ∃ ck, readChunk f (i + 1) = .ok ck ∧ ck.class_id = cks[i].1 ∧
        ck.size = cks[i].2.length ∧ ck.read f = cks[i].2) ∧
      (∀ k, cks.length < k → readChunk f k = .error .index) := by
  refine ⟨_, openTable_header h1 h2 ht hroot cks hn tail hid hlt, ?_, ?_⟩
  · intro i hi
    obtain ⟨pos, tl, h6, h7⟩ := offsets_drop (bo := bo) cks
      (headerBytes bo pre post cks.length root) i hid hi
    have hmem := List.getElem_mem hi
    have hle : pos ≤ (headerBytes bo pre post cks.length root ++
        cks.flatMap fun p => chunkBytes bo p.1 p.2).length := by
      by_contra hc
      rw [List.drop_eq_nil_of_le (by omega)] at h7
      have := congrArg List.length h7
      simp only [chunkBytes, List.length_append, List.length_nil, packNat_length] at this
      omega
    have hdrop : (headerBytes bo pre post cks.length root ++
        ((cks.flatMap fun p => chunkBytes bo p.1 p.2) ++ tail)).drop pos =
        chunkBytes bo cks[i].1 cks[i].2 ++ (tl ++ tail) := by
      rw [← List.append_assoc, List.drop_append_of_le_length hle, h7, List.append_assoc]
    refine ⟨_, readChunk_chunk (id := cks[i].1) (data := cks[i].2) (tail := tl ++ tail) (pos := pos)
      (Nat.succ_ne_zero i) (by simpa using h6) hdrop (hlt _ hmem) (hid _ hmem), rfl, rfl, ?_⟩
    unfold ChunkInfo.read
    simp only
    rw [← List.drop_drop, hdrop]
    have h8 : (fourccBytes bo cks[i].1 ++ packNat bo 4 cks[i].2.length).length = 8 := by
      simp [fourccBytes_length, hid _ hmem]
    rw [chunkBytes, List.append_assoc, ← h8, List.drop_left, List.take_left]
  · intro k hk
    unfold readChunk
    rw [if_neg (by omega)]
    have : (0 :: offsets (headerBytes bo pre post cks.length root).length
        (cks.map (·.2)))[k]? = none := by
      rw [List.getElem?_eq_none]
      simp [offsets_length]; omega
    simp only [this]

/-- C17: a file whose header promises more chunks than it has is refused. -/
theorem C17_missing_chunks {bo : BO} {hd : HeaderInfo} {pre post : Bytes} {root : Nat}
    (h1 : (writeHeaderPre bo hd).bytes = .ok pre) (h2 : (writeHeaderPost bo hd).bytes = .ok post)
    (ht : TextOK .macroman hd.last_save_str) (hroot : root < 2 ^ 32)
    (cks : List (Bytes × Bytes)) (count : Nat) (hcount : cks.length < count) (hn : count < 2 ^ 32)
    (hid : ∀ p ∈ cks, p.1.length = 4) (hlt : ∀ p ∈ cks, p.2.length < 2 ^ 32) :
    openTable (headerBytes bo pre post count root ++ cks.flatMap fun p => chunkBytes bo p.1 p.2) =
      .error .struct := by
  rw [openTable_scan h1 h2 ht hn hroot]
  obtain ⟨m, rfl⟩ : ∃ m, count = cks.length + (m + 1) := ⟨count - cks.length - 1, by omega⟩
  rw [scanChunks_short cks _ m hid hlt]

/-- Two chunks of classes nobody knows. -/
example : ∃ pre post f, (writeHeaderPre .little exInfo).bytes = .ok pre ∧
    openTable (headerBytes .little pre post 2 2 ++
      ([(cc 'x' 'x' 'x' 'x', [1, 2, 3]), (cc 'y' 'y' 'y' 'y', [])].flatMap
        fun p => chunkBytes .little p.1 p.2)) = .ok f ∧
    ∃ ck, readChunk f 1 = .ok ck ∧ ck.read f = [1, 2, 3] := by
  obtain ⟨pre, hpre⟩ : ∃ pre, (writeHeaderPre .little exInfo).bytes = .ok pre := ⟨_, rfl⟩
  obtain ⟨post, hpost⟩ : ∃ post, (writeHeaderPost .little exInfo).bytes = .ok post := ⟨_, rfl⟩
  obtain ⟨f, h1, h2, _⟩ := C17_chunk_table (root := 2) hpre hpost exInfo_ok (by decide)
    [(cc 'x' 'x' 'x' 'x', [1, 2, 3]), (cc 'y' 'y' 'y' 'y', [])] (by decide) [] (by decide) (by decide)
  obtain ⟨ck, h3, _, _, h4⟩ := h2 0 (by decide)
  rw [List.append_nil] at h1
  exact ⟨pre, post, f, hpre, h1, ck, h3, h4⟩

example : ∃ pre post, openTable (headerBytes .big pre post 2 2 ++
      ([(cc 'x' 'x' 'x' 'x', [1, 2, 3])].flatMap fun p => chunkBytes .big p.1 p.2)) = .error .struct := by
  obtain ⟨pre, hpre⟩ : ∃ pre, (writeHeaderPre .big exInfo).bytes = .ok pre := ⟨_, rfl⟩
  obtain ⟨post, hpost⟩ : ∃ post, (writeHeaderPost .big exInfo).bytes = .ok post := ⟨_, rfl⟩
  exact ⟨pre, post, C17_missing_chunks hpre hpost exInfo_ok (by decide)
    [(cc 'x' 'x' 'x' 'x', [1, 2, 3])] 2 (by decide) (by decide) (by decide) (by decide)⟩

/-! ### C35 -/

/-- C35: at every moment before the header update (that is, after any number `k` of appended bytes,
whether the save later succeeds or fails), the file on disk cannot be opened, or opens as a file that
says it has no objects and has no content. -/
theorem C35_before_update {h : Heap} {fuel : Nat} {bo : BO} {hd : HeaderInfo} {content : Ref}
    (ht : TextOK .macroman hd.last_save_str) (k : Nat)
    (hk : k ≤ (saveRun h fuel bo hd content).appended.length) {f : AvbFile} {o : Option Obj}
    (ho : openFile ((saveRun h fuel bo hd content).crash k) = .ok (f, o)) :
    o = none ∧ f.header.num_objects = 0 := by
  have hcrash : (saveRun h fuel bo hd content).crash k =
      (saveRun h fuel bo hd content).appended.take k := by
    unfold SaveRun.crash
    split
    · rfl
    · rw [if_pos hk]
  rw [hcrash] at ho
  have key : ∀ g, openTable ((saveRun h fuel bo hd content).appended.take k) = .ok g →
      g.header.num_objects = 0 ∧ g.header.root_index = 0 := by
    intro g hg
    rcases saveRun_appended (h := h) (fuel := fuel) (bo := bo) (hd := hd) (content := content) with
      h0 | ⟨pre, post, out, h1, h2, h3⟩
    · rw [h0] at hg
      have : openTable (([] : Bytes).take k) = .error .value := by simp only [List.take_nil]; rfl
      rw [this] at hg; cases hg
    · rw [h3] at hg
      have hfull := openTable_header h1 h2 ht (root := 0) (by decide) [] (by decide) out
        (by intro p hp; cases hp) (by intro p hp; cases hp)
      simp only [List.flatMap_nil, List.nil_append, List.length_nil] at hfull
      rw [← List.take_append_drop k (headerBytes bo pre post 0 0 ++ out)] at hfull
      obtain ⟨_, h4, h5⟩ := openTable_prefix hg hfull
      exact ⟨h4, h5⟩
  refine ⟨openFile_root0 ho fun g hg => (key g hg).2, ?_⟩
  unfold openFile at ho
  cases h1 : openTable ((saveRun h fuel bo hd content).appended.take k) with
  | error e => rw [h1] at ho; cases ho
  | ok g =>
    rw [h1] at ho
    simp only at ho
    split at ho
    · cases ho
    · injection ho with ho
      injection ho with ho _
      rw [← ho]
      exact (key g h1).1

/-- C35: a save that raised an exception leaves a file that cannot be opened or has no content. -/
theorem C35_failed_save {h : Heap} {fuel : Nat} {bo : BO} {hd : HeaderInfo} {content : Ref} {e : Err}
    (ht : TextOK .macroman hd.last_save_str) (he : (saveRun h fuel bo hd content).err = some e)
    {f : AvbFile} {o : Option Obj}
    (ho : openFile (saveRun h fuel bo hd content).disk = .ok (f, o)) : o = none := by
  have hp : (saveRun h fuel bo hd content).patched = none := by
    revert he
    unfold saveRun
    split
    · simp only
      split
      · intro _; rfl
      · intro _; rfl
      · split
        · intro h; cases h
        · intro _; rfl
    all_goals intro _; rfl
  have hc : (saveRun h fuel bo hd content).crash (saveRun h fuel bo hd content).appended.length =
      (saveRun h fuel bo hd content).disk := by
    unfold SaveRun.crash SaveRun.disk
    simp only [hp]
    exact List.take_length
  rw [← hc] at ho
  exact (C35_before_update ht _ (Nat.le_refl _) ho).1

/-- C35: once all bytes, those of the header update included, have reached the disk, the file is the
saved one, which opens with the full graph (C12). -/
theorem C35_after_update {h : Heap} {fuel : Nat} {bo : BO} {hd : HeaderInfo} {content : Ref}
    {bytes : Bytes} (hs : save h fuel bo hd content = .ok bytes) (k : Nat)
    (hk : (saveRun h fuel bo hd content).total ≤ k) : (saveRun h fuel bo hd content).crash k = bytes := by
  unfold save at hs
  simp only at hs
  split at hs
  · cases hs
  · injection hs with hs
    rw [← hs]
    unfold SaveRun.crash SaveRun.disk
    unfold SaveRun.total at hk
    cases hp : (saveRun h fuel bo hd content).patched with
    | none =>
      rw [hp] at hk
      simp only at hk ⊢
      exact List.take_of_length_le hk
    | some p =>
      rw [hp] at hk
      simp only at hk ⊢
      split
      · have : p.2 = [] := List.eq_nil_of_length_eq_zero (by omega)
        rw [this, List.take_of_length_le (by omega)]
        simp [patch]
      · rw [List.take_of_length_le (by omega)]

/-- Crash points of the example save: after the header, in the middle of a chunk, at the end. -/
example : (∃ f, openFile ((saveRun exHeap 10 .little exInfo 1).crash 300) = .ok (f, none)) ∧
    (∃ e, openFile ((saveRun exHeap 10 .little exInfo 1).crash 20) = .error e) ∧
    300 ≤ (saveRun exHeap 10 .little exInfo 1).appended.length := by
  have h1 : ∀ x : Except Err (AvbFile × Option Obj),
      (match x with | .ok (_, none) => true | _ => false) = true → ∃ f, x = .ok (f, none) := by
    intro x hx
    split at hx
    · exact ⟨_, rfl⟩
    · cases hx
  have h2 : ∀ x : Except Err (AvbFile × Option Obj),
      (match x with | .error _ => true | _ => false) = true → ∃ e, x = .error e := by
    intro x hx
    split at hx
    · exact ⟨_, rfl⟩
    · cases hx
  exact ⟨h1 _ (by decide +kernel), h2 _ (by decide +kernel), by decide +kernel⟩

/-! ### C44: the header update itself -/

/-- What a successful save appended and then overwrote. -/
theorem saveRun_ok {h : Heap} {fuel : Nat} {bo : BO} {hd : HeaderInfo} {content : Ref} {bytes : Bytes}
    (hs : save h fuel bo hd content = .ok bytes) :
    ∃ pre post s, (writeHeaderPre bo hd).bytes = .ok pre ∧ (writeHeaderPost bo hd).bytes = .ok post ∧
      s.next < 2 ^ 32 ∧ saveLoop h bo (walkObj h fuel content).out ⟨0, fun _ => none, []⟩ = (s, none) ∧
      bytes = headerBytes bo pre post s.next s.next ++ s.out ∧
      saveRun h fuel bo hd content = ⟨headerBytes bo pre post 0 0 ++ s.out,
        some (pre.length, packNat bo 4 s.next ++ packNat bo 4 s.next), none⟩ := by
  obtain ⟨pre, post, s, h1, h2, h3, h4, h5, h6⟩ := save_ok hs
  refine ⟨pre, post, s, h1, h2, h5, h4, h6, ?_⟩
  unfold saveRun
  rw [h1, h2, writeCounts_of (by decide) (by decide)]
  simp only [h3, h4, writeCounts_of h5 h5]
  rfl

/-- C44: if power fails when `j` of the 8 bytes of the header update are on disk, and the file has less
than 256 objects, the file has no content or is the complete saved file. -/
theorem C44_update_small {h : Heap} {fuel : Nat} {bo : BO} {hd : HeaderInfo} {content : Ref}
    {bytes : Bytes} (hh : HeapOK h) (ht : TextOK .macroman hd.last_save_str)
    (hs : save h fuel bo hd content = .ok bytes) {g : AvbFile} (hg : openTable bytes = .ok g)
    (hsmall : g.header.num_objects < 256) (j : Nat) (hj : j ≤ 8) :
    (saveRun h fuel bo hd content).crash ((saveRun h fuel bo hd content).appended.length + j) = bytes ∨
    ∃ f, openFile ((saveRun h fuel bo hd content).crash
      ((saveRun h fuel bo hd content).appended.length + j)) = .ok (f, none) := by
  obtain ⟨pre, post, s, h1, h2, h3, h4, rfl, h6⟩ := saveRun_ok hs
  obtain ⟨g1, _⟩ := walkObj_good hh fuel content []
  obtain ⟨done, h7, _, _, _⟩ := saveLoop_inv SaveInv.init g1 (by intro r hr; cases hr) h4
  simp only [List.nil_append] at h7
  have hN : s.next < 256 := by
    have hsc := openTable_scan (count := s.next) (root := s.next) h1 h2 ht h3 h3 s.out
    rw [hg] at hsc
    split at hsc
    · cases hsc
    · injection hsc with hsc
      rw [hsc] at hsmall
      exact hsmall
  have hcrash : (saveRun h fuel bo hd content).crash
      ((saveRun h fuel bo hd content).appended.length + j) =
      headerBytes bo pre post (torn bo s.next (min j 4)) (torn bo s.next (j - 4)) ++ s.out := by
    rw [h6]
    unfold SaveRun.crash
    simp only
    by_cases hj0 : j = 0
    · subst hj0
      rw [if_pos (by omega), List.take_of_length_le (by omega)]
      simp only [Nat.zero_min, Nat.zero_sub, torn_zero h3]
    · rw [if_neg (by omega), Nat.add_sub_cancel_left, patch_torn hj]
  rw [hcrash]
  have hval : ∀ i, i ≤ 4 → torn bo s.next i = 0 ∨ torn bo s.next i = s.next := by
    intro i hi
    cases bo with
    | little =>
      simp only [torn]
      cases i with
      | zero => left; rw [Nat.pow_zero, Nat.mod_one]
      | succ i =>
        right
        refine Nat.mod_eq_of_lt (Nat.lt_of_lt_of_le hN ?_)
        rw [Nat.pow_succ]
        exact Nat.le_mul_of_pos_left _ (Nat.pow_pos (by decide))
    | big =>
      simp only [torn]
      by_cases h4 : i = 4
      · subst h4; right; simp
      · left
        have : 256 ≤ 256 ^ (4 - i) := by
          obtain ⟨m, hm⟩ : ∃ m, 4 - i = m + 1 := ⟨4 - i - 1, by omega⟩
          rw [hm, Nat.pow_succ]
          exact Nat.le_mul_of_pos_left _ (Nat.pow_pos (by decide))
        rw [Nat.div_eq_of_lt (by omega), Nat.zero_mul]
  rcases hval (j - 4) (by omega) with hr | hr
  · right
    rw [hr]
    have hc : torn bo s.next (min j 4) ≤ (done.map Chunk.pair).length := by
      have := torn_le bo s.next (min j 4)
      simp only [List.length_map, ← h7.next]
      exact this
    generalize torn bo s.next (min j 4) = c at hc
    have hlen : ((done.map Chunk.pair).take c).length = c := by
      rw [List.length_take]; omega
    have hmem : ∀ p ∈ (done.map Chunk.pair).take c, ∃ ck ∈ done, ck.pair = p := by
      intro p hp
      exact List.mem_map.1 (List.mem_of_mem_take hp)
    have hout : s.out = (((done.map Chunk.pair).take c).flatMap fun p => chunkBytes bo p.1 p.2) ++
        (((done.map Chunk.pair).drop c).flatMap fun p => chunkBytes bo p.1 p.2) := by
      rw [← List.flatMap_append, List.take_append_drop, h7.out, List.flatMap_map]
      rfl
    have := openTable_header h1 h2 ht (root := 0) (by decide) ((done.map Chunk.pair).take c)
      (by rw [hlen]; have := h7.next; simp only [List.length_map] at hc; omega)
      (((done.map Chunk.pair).drop c).flatMap fun p => chunkBytes bo p.1 p.2)
      (by
        intro p hp
        obtain ⟨ck, _, rfl⟩ := hmem p hp
        exact Cls.id_length _)
      (by
        intro p hp
        obtain ⟨ck, hck, rfl⟩ := hmem p hp
        exact h7.small ck hck)
    rw [hlen, ← hout] at this
    unfold openFile
    rw [this]
    exact ⟨_, rfl⟩
  · by_cases hz : s.next = 0
    · left
      have : torn bo s.next (min j 4) = s.next := by
        have := torn_le bo s.next (min j 4); omega
      rw [this, hr]
    · left
      have h5 : 4 ≤ j := by
        by_contra hlt
        have : j - 4 = 0 := by omega
        rw [this, torn_zero h3] at hr
        exact hz hr.symm
      rw [hr, show min j 4 = 4 by omega, torn_four h3]

/-- C44 does not hold for files with 256 objects or more: a little-endian save stopped when 5 of the
8 bytes are on disk leaves a file whose content is another object, the one with number N mod 256, N
being the number of the true content. -/
theorem C44_update_torn {h : Heap} {fuel : Nat} {hd : HeaderInfo} {content : Ref}
    {bytes : Bytes} (hh : HeapOK h) (ht : TextOK .macroman hd.last_save_str)
    (hread : ∀ a e, Reach h content a → h a = .ok e → e.obj.Readable)
    (hs : save h fuel .little hd content = .ok bytes) {g : AvbFile} (hg : openTable bytes = .ok g)
    (hbig : 256 ≤ g.header.num_objects) (hmod : g.header.num_objects % 256 ≠ 0) :
    ∃ f o, openFile ((saveRun h fuel .little hd content).crash
        ((saveRun h fuel .little hd content).appended.length + 5)) = .ok (f, some o) ∧
      f.header.root_index = g.header.num_objects % 256 ∧ f.header.root_index ≠ g.header.root_index ∧
      readObject g (g.header.num_objects % 256) = .ok (some o) := by
  obtain ⟨pre, post, s, done, sc⟩ := save_core hh hs
  have hg' := sc.table ht
  rw [hg] at hg'
  injection hg' with hg'
  obtain ⟨pre', post', s', h1, h2, h3, h4, h5, h6⟩ := saveRun_ok hs
  have e1 := sc.hpre; rw [h1] at e1; injection e1 with e1; subst e1
  have e2 := sc.hpost; rw [h2] at e2; injection e2 with e2; subst e2
  have hbytes : headerBytes .little pre' post' done.length done.length ++
      (done.flatMap fun ck => chunkBytes .little ck.ent.obj.cls.id ck.data) =
      headerBytes .little pre' post' s'.next s'.next ++ s'.out := by rw [← h5]; exact sc.data.symm
  obtain ⟨e3, e4⟩ := List.append_inj hbytes (by rw [headerBytes_length, headerBytes_length])
  have hnext : s'.next = done.length := by
    unfold headerBytes at e3
    have e3 := (List.append_inj (List.append_inj_left e3 (by simp)) rfl).2
    have e3 := List.append_inj_left e3 (by simp)
    have r1 := rInt_u32 (bo := .little) sc.count []
    have r2 := rInt_u32 (bo := .little) h3 []
    rw [e3, r2] at r1
    injection r1 with r1
    injection r1 with r1 _
    omega
  have hN : g.header.num_objects = done.length := by rw [hg']; rfl
  have hgr : g.header.root_index = done.length := by rw [hg']; rfl
  rw [hN] at hbig hmod ⊢
  rw [hgr]
  have hlt : done.length % 256 < done.length := by
    have := Nat.mod_lt done.length (by decide : 256 > 0); omega
  have hcrash : (saveRun h fuel .little hd content).crash
      ((saveRun h fuel .little hd content).appended.length + 5) =
      (rootedFile .little hd pre' post' done (done.length % 256)).data := by
    rw [h6]
    unfold SaveRun.crash
    simp only
    rw [if_neg (by omega), Nat.add_sub_cancel_left, patch_torn (by decide), hnext]
    have : min 5 4 = 4 := rfl
    rw [this, torn_four sc.count, ← e4]
    simp [torn, rootedFile]
  have hi : done.length % 256 - 1 < done.length := by omega
  have hk : done.length % 256 - 1 + 1 = done.length % 256 := by omega
  have hrd := hread _ _ (sc.reach _ (List.getElem_mem hi)) (sc.inv.ent _ (List.getElem_mem hi))
  have r1 := sc.readAt hh (done.length % 256) hi hrd
  have r2 := sc.read hh hi hrd
  rw [hk] at r1 r2
  refine ⟨rootedFile .little hd pre' post' done (done.length % 256),
    done[done.length % 256 - 1].ent.obj.norm (finalCtx .little (numOf h s)), ?_, rfl, ?_, ?_⟩
  · rw [hcrash]
    unfold openFile
    rw [sc.tableAt ht (by have := sc.count; omega)]
    simp only
    have : (rootedFile .little hd pre' post' done (done.length % 256)).header.root_index =
      done.length % 256 := rfl
    rw [this, r1]
  · change done.length % 256 ≠ done.length
    omega
  · rw [hg']; exact r2

/-- A sequence of `n` gaps, at 2 to n + 1. -/
def exRow (n : Nat) : Obj := .SEQU { toComponent := exComp [], components := (List.range n).map (· + 2) }

/-- A sequence at 1 and its `n` gaps. -/
def exLong (n : Nat) : Heap := fun (r : Nat) =>
  if r = 1 then .ok ⟨1, true, exRow n, (exRow n).visits⟩
  else if 2 ≤ r ∧ r < n + 2 then .ok ⟨r, true, exFill, exFill.visits⟩
  else .error .index

theorem exLong_cases {n r : Nat} {e : Entry} (h : exLong n r = .ok e) :
    (r = 1 ∧ e = ⟨1, true, exRow n, (exRow n).visits⟩) ∨
    ((2 ≤ r ∧ r < n + 2) ∧ e = ⟨r, true, exFill, exFill.visits⟩) := by
  unfold exLong at h
  split at h
  · injection h with h; exact .inl ⟨by assumption, h.symm⟩
  · split at h
    · injection h with h; exact .inr ⟨by assumption, h.symm⟩
    · cases h

theorem exRow_visits {n : Nat} {v : Visit} (hv : v ∈ (exRow n).visits) (h0 : v.ref ≠ 0) :
    2 ≤ (v.ref : Nat) ∧ (v.ref : Nat) < n + 2 := by
  have : v ∈ Component.visits (exComp []) ++ ((List.range n).map (· + 2)).map Visit.item := hv
  rcases List.mem_append.1 this with h | h
  · have h1 : ∀ v ∈ Component.visits (exComp []), v.ref = 0 := by decide
    exact absurd (h1 v h) h0
  · simp only [List.mem_map, List.mem_range] at h
    obtain ⟨a, ⟨b, hb, rfl⟩, rfl⟩ := h
    change 2 ≤ b + 2 ∧ b + 2 < n + 2
    omega

theorem exLong_edge {n a b : Nat} (h : Edge (exLong n) a b) : a = 1 ∧ 2 ≤ b ∧ b < n + 2 := by
  obtain ⟨e, he, _, hb, v, hv, rfl⟩ := h
  rcases exLong_cases he with ⟨rfl, rfl⟩ | ⟨_, rfl⟩
  · exact ⟨rfl, exRow_visits hv hb⟩
  · have h1 : ∀ v ∈ exFill.visits, v.ref = 0 := by decide
    exact absurd (h1 v hv) hb

theorem exLong_reach {n a : Nat} : Reach (exLong n) 1 a ↔ 1 ≤ a ∧ a < n + 2 := by
  constructor
  · rintro ⟨_, ha⟩
    rcases Relation.ReflTransGen.cases_tail ha with h | ⟨b, _, hbc⟩
    · have h : a = 1 := h
      omega
    · have := exLong_edge hbc
      omega
  · rintro ⟨h1, h2⟩
    refine ⟨(by omega : a ≠ 0), ?_⟩
    by_cases h : a = 1
    · rw [h]
    · refine .single ⟨_, by unfold exLong; rw [if_pos rfl], by decide,
        (by omega : a ≠ 0), .item a, ?_, rfl⟩
      simp only [exRow, Obj.visits, Sequence.visits, List.mem_append, List.mem_map, List.mem_range]
      exact .inr ⟨a, ⟨a - 2, by omega, Nat.sub_add_cancel (by omega)⟩, rfl⟩

/-- Stopped in the middle of the header update, the save of 258 objects leaves a file whose content is
object number 2. -/
example : ∃ fuel f o, openFile ((saveRun (exLong 257) fuel .little exInfo 1).crash
    ((saveRun (exLong 257) fuel .little exInfo 1).appended.length + 5)) = .ok (f, some o) ∧
    f.header.root_index = 2 := by
  obtain ⟨pre, hpre⟩ := exInfo_pre .little
  obtain ⟨post, hpost⟩ := exInfo_post .little
  have hh : HeapOK (exLong 257) := by
    intro r e he v
    rcases exLong_cases he with ⟨_, rfl⟩ | ⟨_, rfl⟩ <;> rfl
  have hinj : IidInj (exLong 257) 1 := by
    intro a b ea eb _ _ ha hb hab
    rcases exLong_cases ha with ⟨rfl, rfl⟩ | ⟨_, rfl⟩ <;>
      rcases exLong_cases hb with ⟨rfl, rfl⟩ | ⟨_, rfl⟩ <;> exact hab
  have hread : ∀ a e, Reach (exLong 257) 1 a → exLong 257 a = .ok e → e.obj.Readable := by
    intro a e _ he
    rcases exLong_cases he with ⟨rfl, rfl⟩ | ⟨_, rfl⟩ <;> exact textsOK_short (by decide)
  have hmem : ∀ a, a ∈ List.range' 1 258 ↔ Reach (exLong 257) 1 a := by
    intro a
    rw [exLong_reach, List.mem_range'_1]
  obtain ⟨fuel, hfuel⟩ := C12_save_succeeds (bo := .little) hh (fun r => if r = 1 then 1 else 0)
    (by
      intro a b _ hab
      obtain ⟨rfl, h2, _⟩ := exLong_edge hab
      have h2 : b ≠ 1 := by rintro rfl; revert h2; decide
      rw [if_pos rfl, if_neg h2]; decide)
    (List.range' 1 258) (fun a ha => (hmem a).2 ha) (by simp) (by
      intro (a : Nat) ha
      have ha := exLong_reach.1 ha
      by_cases h1 : a = 1
      · subst h1
        have hw : ∃ data, (exRow 257).write ⟨.little, fun _ => some 1⟩ = .ok ((), data) ∧
            data.length < 2 ^ 32 := by
          have key : ∀ x : Wr Unit,
              (match x with | .ok (_, d) => decide (d.length < 2 ^ 32) | _ => false) = true →
              ∃ data, x = .ok ((), data) ∧ data.length < 2 ^ 32 := by
            intro x hx
            split at hx
            · exact ⟨_, rfl, of_decide_eq_true hx⟩
            · cases hx
          exact key _ (by decide +kernel)
        exact ⟨⟨1, true, exRow 257, (exRow 257).visits⟩, rfl, rfl, nofun, nofun, _, hw⟩
      · refine ⟨⟨a, true, exFill, exFill.visits⟩, ?_, rfl, nofun, nofun,
          ⟨.little, fun _ => some 1⟩, _, rfl, by decide⟩
        unfold exLong
        rw [if_neg h1, if_pos (by omega)]) hpre hpost
  obtain ⟨bytes, hs⟩ := hfuel fuel (Nat.le_refl _)
  obtain ⟨g, hg, hN⟩ := C14_count hh hinj exInfo_ok hs (List.range' 1 258) List.nodup_range' hmem
  rw [List.length_range'] at hN
  obtain ⟨f, o, h1, h2, _⟩ := C44_update_torn hh exInfo_ok hread hs hg (by omega) (by omega)
  exact ⟨fuel, f, o, h1, by rw [h2, hN]⟩

/-! ### C45: saved files cut short -/

/-- C45: a saved file with content that has lost bytes at its end, however many, cannot be opened. -/
theorem C45_truncated_refused {h : Heap} {fuel : Nat} {bo : BO} {hd : HeaderInfo} {content : Ref}
    {bytes : Bytes} (hh : HeapOK h) (hc : content ≠ 0) (ht : TextOK .macroman hd.last_save_str)
    (hs : save h fuel bo hd content = .ok bytes) (k : Nat) (hk : k < bytes.length) :
    ∃ e, openFile (bytes.take k) = .error e := by
  obtain ⟨pre, post, s, done, sc⟩ := save_core hh hs
  have hg := sc.table ht
  have hne : done ≠ [] := by
    obtain ⟨e, k, he, hm⟩ := sc.numbered content ⟨hc, .refl⟩
    obtain ⟨i, hi, _⟩ := sc.inv.bwd _ _ hm
    rintro rfl
    simp at hi
  have hpos : 0 < done.length := List.length_pos_of_ne_nil hne
  cases hf : openTable (bytes.take k) with
  | error e => exact ⟨e, by unfold openFile; rw [hf]⟩
  | ok f =>
    have htd := List.take_append_drop k bytes
    have hg' := hg
    rw [← htd] at hg'
    obtain ⟨p1, p2, p3⟩ := openTable_prefix hf hg'
    have p4 := openTable_positions hf hg' (by rw [p2]; exact hpos)
    have p5 := openTable_data hf
    have hroot : f.header.root_index = done.length := p3
    have hbo : f.bo = bo := p1
    have hcne : done.map Chunk.pair ≠ [] := by simpa using hne
    obtain ⟨pos, q1, q2, q3⟩ := offsets_drop_last (bo := bo) (done.map Chunk.pair)
      (headerBytes bo pre post done.length done.length)
      (by
        intro p hp
        obtain ⟨ck, _, rfl⟩ := List.mem_map.1 hp
        exact Cls.id_length _) hcne
    simp only [List.map_map, Function.comp_def, Chunk.pair, List.flatMap_map, List.length_map] at q1 q2 q3
    have hdata : headerBytes bo pre post done.length done.length ++
      (done.flatMap fun ck => chunkBytes bo ck.ent.obj.cls.id ck.data) = bytes := sc.data.symm
    rw [hdata] at q2 q3
    have hposn : f.positions[done.length]? = some pos := by
      rw [p4]
      obtain ⟨m, hm⟩ : ∃ m, done.length = m + 1 := ⟨done.length - 1, by omega⟩
      simp only [savedFile, rootedFile]
      rw [hm] at q1 ⊢
      simpa using q1
    have herr : ∃ e, readObject f done.length = .error e := by
      unfold readObject
      rw [if_neg (by omega), hposn]
      simp only
      cases hr : (rFourcc f.bo >>= fun id => rInt f.bo .u32 >>= fun size => pure (id, size))
          (f.data.drop pos) with
      | error e => exact ⟨e, rfl⟩
      | ok p =>
        obtain ⟨⟨id, size⟩, rest⟩ := p
        simp only
        have hst : Strict (rFourcc f.bo >>= fun id => rInt f.bo .u32 >>= fun size =>
            (pure (id, size) : Rd (Bytes × Int))) :=
          Strict.bind (by mono_prim) fun _ => Strict.last Strict.int
        have hlong := hst.lt hr
        have hle : pos ≤ (bytes.take k).length := by
          by_contra hcon
          rw [p5, List.drop_eq_nil_of_le (by omega)] at hlong
          simp at hlong
        have hx := hst.more hr (bytes.drop k)
        rw [p5, ← List.drop_append_of_le_length hle, htd, q3, hbo] at hx
        generalize hlast : (done.map Chunk.pair).getLast hcne = lst at hx
        have hlmem : lst ∈ done.map Chunk.pair := by rw [← hlast]; exact List.getLast_mem _
        obtain ⟨ck, hck, hckp⟩ := List.mem_map.1 hlmem
        subst hckp
        have hfull : (rFourcc bo >>= fun id => rInt bo .u32 >>= fun size =>
            (pure (id, size) : Rd (Bytes × Int))) (chunkBytes bo ck.pair.1 ck.pair.2) =
            .ok ((ck.pair.1, (ck.pair.2.length : Int)), ck.pair.2) := by
          have hf1 : rFourcc bo (chunkBytes bo ck.pair.1 ck.pair.2) =
              .ok (ck.pair.1, packNat bo 4 ck.pair.2.length ++ ck.pair.2) := by
            have := RT.fourcc (bo := bo) (s := ck.pair.1) _ (wFourcc_eq (Cls.id_length _))
              (packNat bo 4 ck.pair.2.length ++ ck.pair.2) trivial
            rw [← this]
            simp [chunkBytes]
          rw [Rd.bind_ok hf1]
          exact Rd.bind_ok (rInt_u32 (sc.inv.small ck hck) _)
        rw [hfull] at hx
        injection hx with hx
        injection hx with hx1 hx2
        injection hx1 with hx1 hx3
        have hlen := congrArg List.length hx2
        rw [List.length_append, List.length_drop] at hlen
        refine ⟨.assertion, ?_⟩
        rw [if_pos]
        rw [← hx3, Int.toNat_natCast, List.length_take]
        omega
    obtain ⟨e, he⟩ := herr
    refine ⟨e, ?_⟩
    unfold openFile
    rw [hf]
    simp only [hroot, he]

example (k : Nat) : ∃ bytes, save exHeap 10 .little exInfo 1 = .ok bytes ∧
    (k < bytes.length → ∃ e, openFile (bytes.take k) = .error e) := by
  obtain ⟨bytes, hs⟩ := exHeap_save .little
  exact ⟨bytes, hs, C45_truncated_refused exHeap_ok (by decide) exInfo_ok hs k⟩

/-! ### C43: objects of another file -/

/-- C43: a save that succeeds never stores an object of another file: every chunk comes from an object
of the file that is saved, and (with distinct instance ids) every reachable object belongs to it. -/
theorem C43_only_own_objects {h : Heap} {fuel : Nat} {bo : BO} {hd : HeaderInfo} {content : Ref}
    {bytes : Bytes} (hh : HeapOK h) (hinj : IidInj h content)
    (hs : save h fuel bo hd content = .ok bytes) :
    ∀ a, Reach h content a → ∃ e, h a = .ok e ∧ e.own = true := by
  obtain ⟨pre, post, s, done, sc⟩ := save_core hh hs
  intro a ha
  obtain ⟨i, hi, rfl, h2, _⟩ := sc.chunk hinj ha
  exact ⟨_, h2, sc.inv.own _ (List.getElem_mem hi)⟩

example : ∃ e, exHeap 3 = .ok e ∧ e.own = true := by
  obtain ⟨bytes, hs⟩ := exHeap_save .little
  exact C43_only_own_objects exHeap_ok (exHeap_inj 1) hs 3
    ⟨by decide, .single ⟨_, rfl, by decide, by decide, .item 3, by decide, rfl⟩⟩

/-- Sequence at 1 holding a gap of this file and a clip of another file; both have instance id 12. -/
def exForeign : Heap := fun r =>
  if r = 1 then .ok ⟨11, true, exSeq, exSeq.visits⟩
  else if r = 2 then .ok ⟨12, true, exFill, exFill.visits⟩
  else if r = 3 then .ok ⟨12, false, exClip, exClip.visits⟩
  else .error .index

/-- C43 does not hold when an object of another file has the instance id of an object already saved:
the save succeeds, the foreign object is left out and the reference to it leads to the other object. -/
theorem C43_foreign_replaced : ∃ bytes f s, save exForeign 10 .little exInfo 1 = .ok bytes ∧
    openFile bytes = .ok (f, some (.SEQU s)) ∧ s.components = [1, 1, 1] := by
  have key : ∀ x : Except Err Bytes,
      (match x with
        | .ok b => (match openFile b with
          | .ok (_, some (.SEQU s)) => decide (s.components = [1, 1, 1])
          | _ => false)
        | _ => false) = true →
      ∃ bytes f s, x = .ok bytes ∧ openFile bytes = .ok (f, some (.SEQU s)) ∧ s.components = [1, 1, 1] := by
    intro x hx
    split at hx
    · rename_i b
      split at hx
      · rename_i f s ho
        exact ⟨b, f, s, rfl, ho, of_decide_eq_true hx⟩
      · cases hx
    · cases hx
  exact key _ (by decide +kernel)

end Avb

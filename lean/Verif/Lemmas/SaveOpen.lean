import Verif.Lemmas.Open

/-
Opening a saved file.
-/

namespace Avb

theorem Wr.bytes_ok {w : Wr Unit} {bs : Bytes} (h : w.bytes = .ok bs) : w = .ok ((), bs) := by
  unfold Wr.bytes at h
  split at h
  · cases h; rfl
  · cases h

theorem Wr.bytes_of {w : Wr Unit} {bs : Bytes} (h : w = .ok ((), bs)) : w.bytes = .ok bs := by
  rw [h]; rfl

theorem writeCounts_ok {bo : BO} {n r : Nat} {bs : Bytes} (h : (writeCounts bo n r).bytes = .ok bs) :
    n < 2 ^ 32 ∧ r < 2 ^ 32 ∧ bs = packNat bo 4 n ++ packNat bo 4 r := by
  have h := Wr.bytes_ok h
  unfold writeCounts at h
  obtain ⟨_, o1, o2, e1, e2, rfl⟩ := Wr.bind_eq_ok h
  have h1 := wU32_lt e1
  have h2 := wU32_lt e2
  rw [wU32_eq h1] at e1
  rw [wU32_eq h2] at e2
  cases e1; cases e2
  exact ⟨h1, h2, rfl⟩

theorem writeCounts_of {bo : BO} {n r : Nat} (h1 : n < 2 ^ 32) (h2 : r < 2 ^ 32) :
    (writeCounts bo n r).bytes = .ok (packNat bo 4 n ++ packNat bo 4 r) :=
  Wr.bytes_of (Wr.bind_ok (wU32_eq h1) (wU32_eq h2))

/-- The bytes of a header. -/
def headerBytes (bo : BO) (pre post : Bytes) (count root : Nat) : Bytes :=
  pre ++ (packNat bo 4 count ++ packNat bo 4 root) ++ post

theorem headerBytes_length {bo : BO} {pre post : Bytes} {count root : Nat} :
    (headerBytes bo pre post count root).length = pre.length + 8 + post.length := by
  simp [headerBytes]; omega

theorem patch_counts {bo : BO} {pre post out : Bytes} {n r : Nat} :
    patch (headerBytes bo pre post 0 0 ++ out) pre.length (packNat bo 4 n ++ packNat bo 4 r) =
      headerBytes bo pre post n r ++ out := by
  have h1 : headerBytes bo pre post 0 0 ++ out =
      pre ++ ((packNat bo 4 0 ++ packNat bo 4 0) ++ (post ++ out)) := by simp [headerBytes]
  have h2 : headerBytes bo pre post 0 0 ++ out =
      (pre ++ (packNat bo 4 0 ++ packNat bo 4 0)) ++ (post ++ out) := by simp [headerBytes]
  have h3 : (headerBytes bo pre post 0 0 ++ out).take pre.length = pre := by rw [h1, List.take_left]
  have h4 : (headerBytes bo pre post 0 0 ++ out).drop
      (pre.length + (packNat bo 4 n ++ packNat bo 4 r).length) = post ++ out := by
    rw [h2, List.drop_left' (by simp)]
  unfold patch
  rw [h3, h4]
  simp [headerBytes]

/-- What a save that raised nothing did. -/
theorem save_ok {h : Heap} {fuel : Nat} {bo : BO} {hd : HeaderInfo} {content : Ref} {bytes : Bytes}
    (hs : save h fuel bo hd content = .ok bytes) :
    ∃ pre post s, (writeHeaderPre bo hd).bytes = .ok pre ∧ (writeHeaderPost bo hd).bytes = .ok post ∧
      (walkObj h fuel content).err = none ∧
      saveLoop h bo (walkObj h fuel content).out ⟨0, fun _ => none, []⟩ = (s, none) ∧
      s.next < 2 ^ 32 ∧ bytes = headerBytes bo pre post s.next s.next ++ s.out := by
  unfold save saveRun at hs
  cases h1 : (writeHeaderPre bo hd).bytes with
  | error e => rw [h1] at hs; simp at hs
  | ok pre =>
    cases h2 : (writeHeaderPost bo hd).bytes with
    | error e => rw [h1, h2, writeCounts_of (by decide) (by decide)] at hs; simp at hs
    | ok post =>
      rw [h1, h2, writeCounts_of (by decide) (by decide)] at hs
      simp only [] at hs
      generalize hl : saveLoop h bo (walkObj h fuel content).out ⟨0, fun _ => none, []⟩ = sl at hs
      obtain ⟨s, er⟩ := sl
      cases er with
      | some e => simp at hs
      | none =>
        cases h3 : (walkObj h fuel content).err with
        | some e => rw [h3] at hs; simp at hs
        | none =>
          rw [h3] at hs
          cases h4 : (writeCounts bo s.next s.next).bytes with
          | error e => rw [h4] at hs; simp at hs
          | ok counts =>
            rw [h4] at hs
            obtain ⟨h5, _, rfl⟩ := writeCounts_ok h4
            simp only [SaveRun.disk, Except.ok.injEq] at hs
            refine ⟨pre, post, s, rfl, rfl, rfl, rfl, h5, ?_⟩
            rw [← hs]
            exact patch_counts

theorem save_of {h : Heap} {fuel : Nat} {bo : BO} {hd : HeaderInfo} {content : Ref} {pre post : Bytes}
    {s : SaveSt} (h1 : (writeHeaderPre bo hd).bytes = .ok pre) (h2 : (writeHeaderPost bo hd).bytes = .ok post)
    (h3 : (walkObj h fuel content).err = none)
    (h4 : saveLoop h bo (walkObj h fuel content).out ⟨0, fun _ => none, []⟩ = (s, none))
    (h5 : s.next < 2 ^ 32) :
    save h fuel bo hd content = .ok (headerBytes bo pre post s.next s.next ++ s.out) := by
  unfold save saveRun
  rw [h1, h2, writeCounts_of (by decide) (by decide)]
  simp only [h3, h4, writeCounts_of h5 h5, SaveRun.disk]
  congr 1
  exact patch_counts

/-- Opening a file that begins with a written header. -/
theorem openTable_scan {bo : BO} {hd : HeaderInfo} {pre post : Bytes} {count root : Nat}
    (h1 : (writeHeaderPre bo hd).bytes = .ok pre) (h2 : (writeHeaderPost bo hd).bytes = .ok post)
    (ht : TextOK .macroman hd.last_save_str) (hcount : count < 2 ^ 32) (hroot : root < 2 ^ 32)
    (x : Bytes) :
    openTable (headerBytes bo pre post count root ++ x) =
      match scanChunks bo count (headerBytes bo pre post count root).length x with
      | .error e => .error e
      | .ok ps => .ok
        ⟨bo, { num_objects := count, root_index := root, last_save := hd.last_save,
               creator_version := creatorNorm hd.creator_version },
          0 :: ps, headerBytes bo pre post count root ++ x,
          (headerBytes bo pre post count root).length⟩ := by
  have h1 := Wr.bytes_ok h1
  have h2 := Wr.bytes_ok h2
  unfold writeHeaderPre at h1
  obtain ⟨_, o1, o2, e1, h5, rfl⟩ := Wr.bind_eq_ok h1
  obtain ⟨_, o3, o4, e3, h6, rfl⟩ := Wr.bind_eq_ok h5
  obtain rfl := Wr.emit_eq_ok e1
  obtain rfl := Wr.emit_eq_ok e3
  have hw : writeHeaderTail bo hd count root =
      .ok ((), o4 ++ (packNat bo 4 count ++ packNat bo 4 root) ++ post) := by
    unfold writeHeaderTail
    obtain ⟨_, p1, q1, f1, h3, rfl⟩ := Wr.bind_eq_ok h6
    obtain ⟨_, p2, q2, f2, h4, rfl⟩ := Wr.bind_eq_ok h3
    obtain ⟨_, p3, q3, f3, f4, rfl⟩ := Wr.bind_eq_ok h4
    rw [Wr.bind_ok f1 (Wr.bind_ok f2 (Wr.bind_ok f3 (Wr.bind_ok f4 (Wr.bind_ok (wU32_eq hcount)
      (Wr.bind_ok (wU32_eq hroot) h2)))))]
    simp
    rfl
  have hrd := readHeader_rt (count := count) (root := root) (bo := bo) ht _ hw x trivial
  have hlen : (headerBytes bo (byteOrderMark bo ++ (magic ++ o4)) post count root ++ x).length
      - x.length = (headerBytes bo (byteOrderMark bo ++ (magic ++ o4)) post count root).length := by
    rw [List.length_append]; omega
  have hdrop : (headerBytes bo (byteOrderMark bo ++ (magic ++ o4)) post count root ++ x).drop 8
      = o4 ++ (packNat bo 4 count ++ packNat bo 4 root) ++ post ++ x := by
    cases bo <;> simp [headerBytes, byteOrderMark, magic]
  have hmag : ((headerBytes bo (byteOrderMark bo ++ (magic ++ o4)) post count root ++ x).drop 2).take 6
      = magic := by
    cases bo <;> simp [headerBytes, byteOrderMark, magic]
  have hmark : (headerBytes bo (byteOrderMark bo ++ (magic ++ o4)) post count root ++ x).take 2
      = byteOrderMark bo := by
    cases bo <;> simp [headerBytes, byteOrderMark]
  unfold openTable
  simp only [hmark, hmag, hdrop]
  cases bo
  · rw [if_pos rfl]
    simp only [ne_eq, not_true_eq_false, if_false, hrd, hlen]
    cases scanChunks _ count _ x <;> rfl
  · rw [if_neg (by decide), if_pos rfl]
    simp only [ne_eq, not_true_eq_false, if_false, hrd, hlen]
    cases scanChunks _ count _ x <;> rfl

/-- Opening a file with a written header followed by chunks. -/
theorem openTable_header {bo : BO} {hd : HeaderInfo} {pre post : Bytes} {root : Nat}
    (h1 : (writeHeaderPre bo hd).bytes = .ok pre) (h2 : (writeHeaderPost bo hd).bytes = .ok post)
    (ht : TextOK .macroman hd.last_save_str) (hroot : root < 2 ^ 32)
    (cks : List (Bytes × Bytes)) (hn : cks.length < 2 ^ 32) (tail : Bytes)
    (hid : ∀ p ∈ cks, p.1.length = 4) (hlt : ∀ p ∈ cks, p.2.length < 2 ^ 32) :
    openTable (headerBytes bo pre post cks.length root ++
        ((cks.flatMap fun p => chunkBytes bo p.1 p.2) ++ tail)) =
      .ok ⟨bo, { num_objects := cks.length, root_index := root, last_save := hd.last_save,
                 creator_version := creatorNorm hd.creator_version },
        0 :: offsets (headerBytes bo pre post cks.length root).length (cks.map (·.2)),
        headerBytes bo pre post cks.length root ++
          ((cks.flatMap fun p => chunkBytes bo p.1 p.2) ++ tail),
        (headerBytes bo pre post cks.length root).length⟩ := by
  rw [openTable_scan h1 h2 ht hn hroot, scanChunks_chunks cks _ tail hid hlt]

end Avb

import Verif.Lemmas.FileCore
import Verif.Lemmas.MonoAll

/-
Files cut short while they are being saved.
-/

namespace Avb

/-- The header up to the two counts. -/
def readHead1 (bo : BO) : Rd (Int × Int) := do
  let t1 ← rFourcc bo
  Rd.guard (t1 = cc 'O' 'B' 'J' 'D') .assertion
  let doc ← rStr bo .macroman
  Rd.guard (doc = objDoc) .assertion
  let four ← rU8
  Rd.guard (four = 0x04) .assertion
  let _last_save_str ← rStr bo .macroman
  let num_objects ← rInt bo .u32
  let root_index ← rInt bo .u32
  return (num_objects, root_index)

theorem readHead1_strict (bo : BO) : Strict (readHead1 bo) := by
  unfold readHead1
  refine Strict.bind (by mono_prim) fun _ => Strict.bind Mono.guard fun _ =>
    Strict.bind (by mono_prim) fun _ => Strict.bind Mono.guard fun _ =>
    Strict.bind (by mono_prim) fun _ => Strict.bind Mono.guard fun _ =>
    Strict.bind (by mono_prim) fun _ => Strict.bind (by mono_prim) fun _ =>
    Strict.last Strict.int

theorem readHeader_head1 {bo : BO} {bs rest : Bytes} {hdr : Header}
    (h : readHeader bo bs = .ok (hdr, rest)) :
    ∃ n r rest', readHead1 bo bs = .ok ((n, r), rest') ∧ hdr.num_objects = n.toNat ∧
      hdr.root_index = r.toNat := by
  unfold readHeader at h
  obtain ⟨a1, b1, e1, h⟩ := Rd.bind_eq_ok' h
  obtain ⟨a2, b2, e2, h⟩ := Rd.bind_eq_ok' h
  obtain ⟨a3, b3, e3, h⟩ := Rd.bind_eq_ok' h
  obtain ⟨a4, b4, e4, h⟩ := Rd.bind_eq_ok' h
  obtain ⟨a5, b5, e5, h⟩ := Rd.bind_eq_ok' h
  obtain ⟨a6, b6, e6, h⟩ := Rd.bind_eq_ok' h
  obtain ⟨a7, b7, e7, h⟩ := Rd.bind_eq_ok' h
  obtain ⟨a8, b8, e8, h⟩ := Rd.bind_eq_ok' h
  obtain ⟨a9, b9, e9, h⟩ := Rd.bind_eq_ok' h
  obtain ⟨a10, b10, e10, h⟩ := Rd.bind_eq_ok' h
  obtain ⟨a11, b11, e11, h⟩ := Rd.bind_eq_ok' h
  obtain ⟨a12, b12, e12, h⟩ := Rd.bind_eq_ok' h
  obtain ⟨a13, b13, e13, h⟩ := Rd.bind_eq_ok' h
  obtain ⟨a14, b14, e14, h⟩ := Rd.bind_eq_ok' h
  obtain ⟨a15, b15, e15, h⟩ := Rd.bind_eq_ok' h
  obtain ⟨a16, b16, e16, h⟩ := Rd.bind_eq_ok' h
  obtain ⟨a17, b17, e17, h⟩ := Rd.bind_eq_ok' h
  obtain ⟨a18, b18, e18, h⟩ := Rd.bind_eq_ok' h
  obtain ⟨a19, b19, e19, h⟩ := Rd.bind_eq_ok' h
  injection h with h
  injection h with h _
  refine ⟨a8, a9, b9, ?_, by rw [← h], by rw [← h]⟩
  unfold readHead1
  rw [Rd.bind_ok e1, Rd.bind_ok e2, Rd.bind_ok e3, Rd.bind_ok e4, Rd.bind_ok e5, Rd.bind_ok e6,
    Rd.bind_ok e7, Rd.bind_ok e8, Rd.bind_ok e9]
  rfl

/-- The counts found in a file that can be opened are those at the beginning of any longer file. -/
theorem openTable_prefix {bs e : Bytes} {f g : AvbFile} (h1 : openTable bs = .ok f)
    (h2 : openTable (bs ++ e) = .ok g) :
    f.bo = g.bo ∧ f.header.num_objects = g.header.num_objects ∧
      f.header.root_index = g.header.root_index := by
  have key : ∀ bo, ∀ x y : Header × Bytes, readHeader bo (bs.drop 8) = .ok x →
      readHeader bo ((bs ++ e).drop 8) = .ok y → 8 ≤ bs.length →
      x.1.num_objects = y.1.num_objects ∧ x.1.root_index = y.1.root_index := by
    intro bo x y hx hy hl
    obtain ⟨n, r, rest, h3, h4, h5⟩ := readHeader_head1 (hdr := x.1) (rest := x.2) hx
    obtain ⟨n', r', rest', h6, h7, h8⟩ := readHeader_head1 (hdr := y.1) (rest := y.2) hy
    rw [List.drop_append_of_le_length hl, (readHead1_strict bo).more h3] at h6
    injection h6 with h6
    injection h6 with h6 _
    injection h6 with h6 h6'
    rw [h4, h5, h7, h8, h6, h6']
    exact ⟨rfl, rfl⟩
  have hlen : 8 ≤ bs.length := by
    unfold openTable at h1
    by_contra hl
    have hm : (bs.drop 2).take 6 ≠ magic := by
      intro h
      have := congrArg List.length h
      simp [magic] at this
      omega
    simp only [hm, if_true, ne_eq, not_false_eq_true] at h1
    split at h1
    · cases h1
    · split at h1 <;> cases h1
  have t2 : (bs ++ e).take 2 = bs.take 2 := List.take_append_of_le_length (by omega)
  have hm : ((bs ++ e).drop 2).take 6 = (bs.drop 2).take 6 := by
    rw [List.drop_append_of_le_length (by omega), List.take_append_of_le_length (by simp; omega)]
  unfold openTable at h1 h2
  simp only [t2, hm] at h2
  have fin : ∀ bo, ∀ (x y : Except Err AvbFile), x = .ok f → y = .ok g →
      x = (if (bs.drop 2).take 6 ≠ magic then .error .value
        else
          match readHeader bo (bs.drop 8) with
          | .error e => .error e
          | .ok (hdr, rest) =>
            match scanChunks bo hdr.num_objects (bs.length - rest.length) rest with
            | .error e => .error e
            | .ok ps => .ok ⟨bo, hdr, 0 :: ps, bs, bs.length - rest.length⟩) →
      y = (if (bs.drop 2).take 6 ≠ magic then .error .value
        else
          match readHeader bo ((bs ++ e).drop 8) with
          | .error e => .error e
          | .ok (hdr, rest) =>
            match scanChunks bo hdr.num_objects ((bs ++ e).length - rest.length) rest with
            | .error e => .error e
            | .ok ps => .ok ⟨bo, hdr, 0 :: ps, bs ++ e, (bs ++ e).length - rest.length⟩) →
      f.bo = g.bo ∧ f.header.num_objects = g.header.num_objects ∧
        f.header.root_index = g.header.root_index := by
    intro bo x y hx hy ex ey
    subst hx hy
    split at ex
    · cases ex
    · rename_i hmag
      rw [if_neg hmag] at ey
      cases hx : readHeader bo (bs.drop 8) with
      | error e => rw [hx] at ex; cases ex
      | ok x =>
        cases hy : readHeader bo ((bs ++ e).drop 8) with
        | error e => rw [hy] at ey; cases ey
        | ok y =>
          rw [hx] at ex
          rw [hy] at ey
          have := key bo x y hx hy hlen
          simp only at ex ey
          split at ex
          · cases ex
          · split at ey
            · cases ey
            · injection ex with ex
              injection ey with ey
              rw [ex, ey]
              exact ⟨rfl, this⟩
  by_cases hb : bs.take 2 = byteOrderMark .little
  · rw [if_pos hb] at h1 h2
    exact fin .little _ _ h1 h2 rfl rfl
  · rw [if_neg hb] at h1 h2
    by_cases hb' : bs.take 2 = byteOrderMark .big
    · rw [if_pos hb'] at h1 h2
      exact fin .big _ _ h1 h2 rfl rfl
    · rw [if_neg hb'] at h1
      cases h1

/-- A file whose header says root 0 opens with no content, if it opens at all. -/
theorem openFile_root0 {bs : Bytes} {f : AvbFile} {o : Option Obj} (h : openFile bs = .ok (f, o))
    (h0 : ∀ g, openTable bs = .ok g → g.header.root_index = 0) : o = none := by
  unfold openFile at h
  cases h1 : openTable bs with
  | error e => rw [h1] at h; cases h
  | ok g =>
    rw [h1] at h
    simp only [h0 g h1] at h
    have : readObject g 0 = .ok none := by unfold readObject; rw [if_pos rfl]
    rw [this] at h
    injection h with h
    injection h with _ h
    exact h.symm

/-- What is on disk when `k` bytes of a save have reached it: first the bytes appended, then the bytes
of the header update. -/
def SaveRun.crash (s : SaveRun) (k : Nat) : Bytes :=
  match s.patched with
  | none => s.appended.take k
  | some (pos, new) =>
    if k ≤ s.appended.length then s.appended.take k
    else patch s.appended pos (new.take (k - s.appended.length))

/-- The number of bytes a save writes, the header update included. -/
def SaveRun.total (s : SaveRun) : Nat :=
  s.appended.length + match s.patched with
    | none => 0
    | some (_, new) => new.length

/-- Everything appended by a save starts with a header without chunks and without root. -/
theorem saveRun_appended {h : Heap} {fuel : Nat} {bo : BO} {hd : HeaderInfo} {content : Ref} :
    (saveRun h fuel bo hd content).appended = [] ∨
    ∃ pre post out, (writeHeaderPre bo hd).bytes = .ok pre ∧ (writeHeaderPost bo hd).bytes = .ok post ∧
      (saveRun h fuel bo hd content).appended = headerBytes bo pre post 0 0 ++ out := by
  unfold saveRun
  cases h1 : (writeHeaderPre bo hd).bytes with
  | error e => exact .inl rfl
  | ok pre =>
    rw [writeCounts_of (by decide) (by decide)]
    cases h2 : (writeHeaderPost bo hd).bytes with
    | error e => exact .inl rfl
    | ok post =>
      right
      simp only []
      generalize hl : saveLoop h bo (walkObj h fuel content).out ⟨0, fun _ => none, []⟩ = sl
      obtain ⟨s, er⟩ := sl
      refine ⟨pre, post, s.out, rfl, rfl, ?_⟩
      cases er with
      | some e => rfl
      | none =>
        cases h3 : (walkObj h fuel content).err with
        | some e => rfl
        | none =>
          simp only
          cases h4 : (writeCounts bo s.next s.next).bytes <;> rfl

theorem leBytes_torn (n v j : Nat) :
    (leBytes n v).take j ++ (leBytes n 0).drop j = leBytes n (v % 256 ^ j) := by
  induction n generalizing v j with
  | zero => simp [leBytes]
  | succ n ih =>
    cases j with
    | zero => simp [Nat.mod_one]
    | succ j =>
      simp only [leBytes, List.take_succ_cons, List.drop_succ_cons, List.cons_append, Nat.zero_div]
      have h1 : v % 256 ^ (j + 1) % 256 = v % 256 := by
        rw [Nat.pow_succ, Nat.mul_comm]; exact Nat.mod_mul_right_mod v 256 (256 ^ j)
      have h2 : v % 256 ^ (j + 1) / 256 = v / 256 % 256 ^ j := by
        rw [Nat.pow_succ, Nat.mul_comm]; exact Nat.mod_mul_right_div_self v 256 (256 ^ j)
      rw [ih, h1, h2]

theorem leBytes_torn_high (n v j : Nat) :
    (leBytes n 0).take j ++ (leBytes n v).drop j = leBytes n (v / 256 ^ j * 256 ^ j) := by
  induction n generalizing v j with
  | zero => simp [leBytes]
  | succ n ih =>
    cases j with
    | zero => simp
    | succ j =>
      simp only [leBytes, List.take_succ_cons, List.drop_succ_cons, List.cons_append, Nat.zero_div]
      have h0 : v / 256 ^ (j + 1) * 256 ^ (j + 1) = (v / 256 / 256 ^ j * 256 ^ j) * 256 := by
        rw [Nat.div_div_eq_div_mul, Nat.pow_succ, Nat.mul_assoc, Nat.mul_comm 256 (256 ^ j)]
      rw [ih, h0, Nat.mul_mod_left, Nat.mul_div_cancel _ (by decide : 0 < 256)]

/-- What a 4-byte number reads as when only its first `j` bytes have replaced those of 0. -/
def torn (bo : BO) (v j : Nat) : Nat :=
  match bo with
  | .little => v % 256 ^ j
  | .big => v / 256 ^ (4 - j) * 256 ^ (4 - j)

theorem packNat_torn (bo : BO) {v j : Nat} :
    (packNat bo 4 v).take j ++ (packNat bo 4 0).drop j = packNat bo 4 (torn bo v j) := by
  cases bo with
  | little => exact leBytes_torn 4 v j
  | big =>
    simp only [packNat, torn]
    rw [← leBytes_torn_high, List.reverse_append, List.take_reverse, List.drop_reverse]
    simp

theorem torn_le (bo : BO) (v j : Nat) : torn bo v j ≤ v := by
  cases bo with
  | little => exact Nat.mod_le _ _
  | big => exact Nat.div_mul_le_self _ _

theorem torn_four {bo : BO} {v : Nat} (hv : v < 2 ^ 32) : torn bo v 4 = v := by
  cases bo with
  | little => exact Nat.mod_eq_of_lt hv
  | big => simp [torn]

theorem torn_zero {bo : BO} {v : Nat} (hv : v < 2 ^ 32) : torn bo v 0 = 0 := by
  cases bo with
  | little => simp [torn, Nat.mod_one]
  | big => simp only [torn]; rw [Nat.div_eq_of_lt hv, Nat.zero_mul]

theorem take_packNat (bo : BO) (v j : Nat) (hj : 4 ≤ j) : (packNat bo 4 v).take j = packNat bo 4 v :=
  List.take_of_length_le (by simpa using hj)

/-- The file while the two counts are being overwritten. -/
theorem patch_torn {bo : BO} {pre post out : Bytes} {n j : Nat} (hj : j ≤ 8) :
    patch (headerBytes bo pre post 0 0 ++ out) pre.length ((packNat bo 4 n ++ packNat bo 4 n).take j) =
      headerBytes bo pre post (torn bo n (min j 4)) (torn bo n (j - 4)) ++ out := by
  have key : (packNat bo 4 n ++ packNat bo 4 n).take j ++ (packNat bo 4 0 ++ packNat bo 4 0).drop j =
      packNat bo 4 (torn bo n (min j 4)) ++ packNat bo 4 (torn bo n (j - 4)) := by
    rw [← packNat_torn bo (v := n) (j := min j 4),
      ← packNat_torn bo (v := n) (j := j - 4)]
    simp only [List.take_append, List.drop_append, packNat_length]
    rcases Nat.le_total j 4 with h | h
    · have e1 : min j 4 = j := by omega
      have e2 : j - 4 = 0 := by omega
      simp [e1, e2]
    · have e1 : min j 4 = 4 := by omega
      have e2 : (packNat bo 4 0).drop j = [] := List.drop_eq_nil_of_le (by simpa using h)
      have e3 : (packNat bo 4 0).drop 4 = [] := List.drop_eq_nil_of_le (by simp)
      rw [take_packNat bo n j h, e1, take_packNat bo n 4 (by omega), e2, e3]
      simp
  have h1 : headerBytes bo pre post 0 0 ++ out =
      pre ++ ((packNat bo 4 0 ++ packNat bo 4 0) ++ (post ++ out)) := by simp [headerBytes]
  have hl : ((packNat bo 4 n ++ packNat bo 4 n).take j).length = j := by simp; omega
  unfold patch
  rw [hl, h1, List.take_left, ← List.drop_drop, List.drop_left, List.drop_append_of_le_length (by simp; omega),
    List.append_assoc, ← List.append_assoc _ _ (post ++ out), key]
  simp [headerBytes]

/-! ### saved files cut short -/

theorem readHeader_mono (bo : BO) : Mono (readHeader bo) := by
  unfold readHeader
  repeat' first
    | exact Mono.pure
    | exact Mono.guard
    | exact Mono.fread
    | mono_prim
    | refine Mono.bind ?_ fun _ => ?_

theorem scanChunks_prefix {bo : BO} {n pos : Nat} {bs e : Bytes} {ps : List Nat}
    (h : scanChunks bo (n + 1) pos bs = .ok ps) : scanChunks bo (n + 1) pos (bs ++ e) = .ok ps := by
  have hs : Strict (fread 4 >>= fun _ => rInt bo .u32) := Strict.bind Mono.fread fun _ => Strict.int
  induction n generalizing pos bs ps with
  | zero =>
    simp only [scanChunks] at h ⊢
    cases hr : (fread 4 >>= fun _ => rInt bo .u32) bs with
    | error e => rw [hr] at h; cases h
    | ok p =>
      rw [hr] at h
      rw [hs.more (v := p.1) (rest := p.2) hr e]
      exact h
  | succ n ih =>
    rw [scanChunks] at h ⊢
    cases hr : (fread 4 >>= fun _ => rInt bo .u32) bs with
    | error e => rw [hr] at h; cases h
    | ok p =>
      rw [hr] at h
      rw [hs.more (v := p.1) (rest := p.2) hr e]
      simp only [] at h ⊢
      cases hq : scanChunks bo (n + 1) (pos + 8 + p.1.toNat) (p.2.drop p.1.toNat) with
      | error e => rw [hq] at h; cases h
      | ok qs =>
        rw [hq] at h
        have hlt : p.1.toNat ≤ p.2.length := by
          by_contra hc
          rw [List.drop_eq_nil_of_le (by omega), scanChunks] at hq
          rw [show (fread 4 >>= fun _ => rInt bo .u32) [] = .error .struct by rfl] at hq
          cases hq
        rw [List.drop_append_of_le_length hlt, ih hq]
        exact h

theorem offsets_drop_last {bo : BO} (cks : List (Bytes × Bytes)) (pre : Bytes)
    (hid : ∀ p ∈ cks, p.1.length = 4) (hne : cks ≠ []) :
    ∃ pos, (offsets pre.length (cks.map (·.2)))[cks.length - 1]? = some pos ∧
      pos ≤ (pre ++ cks.flatMap fun p => chunkBytes bo p.1 p.2).length ∧
      (pre ++ cks.flatMap fun p => chunkBytes bo p.1 p.2).drop pos =
        chunkBytes bo (cks.getLast hne).1 (cks.getLast hne).2 := by
  induction cks generalizing pre with
  | nil => exact absurd rfl hne
  | cons p cks ih =>
    cases cks with
    | nil => exact ⟨pre.length, by simp [offsets], by simp, by simp⟩
    | cons q cks =>
      obtain ⟨pos, h1, h2, h3⟩ := ih (pre ++ chunkBytes bo p.1 p.2)
        (fun x hx => hid x (List.mem_cons_of_mem _ hx)) (by simp)
      refine ⟨pos, ?_, ?_, ?_⟩
      · rw [← h1]
        have h4 := hid p List.mem_cons_self
        have h5 : (pre ++ chunkBytes bo p.1 p.2).length = pre.length + 8 + p.2.length := by
          simp [chunkBytes, fourccBytes_length, h4]; omega
        rw [h5]
        simp [offsets]
      · simpa using h2
      · simpa using h3

theorem openTable_ok {bs : Bytes} {f : AvbFile} (h : openTable bs = .ok f) :
    ∃ bo hdr rest ps, bs.take 2 = byteOrderMark bo ∧ 8 ≤ bs.length ∧
      readHeader bo (bs.drop 8) = .ok (hdr, rest) ∧
      scanChunks bo hdr.num_objects (bs.length - rest.length) rest = .ok ps ∧
      f = ⟨bo, hdr, 0 :: ps, bs, bs.length - rest.length⟩ := by
  have hlen : 8 ≤ bs.length := by
    unfold openTable at h
    by_contra hl
    have hm : (bs.drop 2).take 6 ≠ magic := by
      intro h
      have := congrArg List.length h
      simp [magic] at this
      omega
    simp only [hm, if_true, ne_eq, not_false_eq_true] at h
    split at h
    · cases h
    · split at h <;> cases h
  unfold openTable at h
  have fin : ∀ bo, bs.take 2 = byteOrderMark bo →
      (if (bs.drop 2).take 6 ≠ magic then .error .value
        else
          match readHeader bo (bs.drop 8) with
          | .error e => .error e
          | .ok (hdr, rest) =>
            match scanChunks bo hdr.num_objects (bs.length - rest.length) rest with
            | .error e => .error e
            | .ok ps => .ok ⟨bo, hdr, 0 :: ps, bs, bs.length - rest.length⟩ : Except Err AvbFile) = .ok f →
      ∃ bo hdr rest ps, bs.take 2 = byteOrderMark bo ∧ 8 ≤ bs.length ∧
      readHeader bo (bs.drop 8) = .ok (hdr, rest) ∧
      scanChunks bo hdr.num_objects (bs.length - rest.length) rest = .ok ps ∧
      f = ⟨bo, hdr, 0 :: ps, bs, bs.length - rest.length⟩ := by
    intro bo hbo hx
    split at hx
    · cases hx
    · cases hr : readHeader bo (bs.drop 8) with
      | error e => rw [hr] at hx; cases hx
      | ok p =>
        rw [hr] at hx
        simp only at hx
        cases hp : scanChunks bo p.1.num_objects (bs.length - p.2.length) p.2 with
        | error e => rw [hp] at hx; cases hx
        | ok ps =>
          rw [hp] at hx
          injection hx with hx
          exact ⟨bo, p.1, p.2, ps, hbo, hlen, hr, hp, hx.symm⟩
  by_cases hb : bs.take 2 = byteOrderMark .little
  · rw [if_pos hb] at h
    exact fin .little hb h
  · rw [if_neg hb] at h
    by_cases hb' : bs.take 2 = byteOrderMark .big
    · rw [if_pos hb'] at h
      exact fin .big hb' h
    · rw [if_neg hb'] at h
      cases h

theorem openTable_data {bs : Bytes} {f : AvbFile} (h : openTable bs = .ok f) : f.data = bs := by
  obtain ⟨_, _, _, _, _, _, _, _, rfl⟩ := openTable_ok h
  rfl

theorem byteOrderMark_inj {a b : BO} (h : byteOrderMark a = byteOrderMark b) : a = b := by
  cases a <;> cases b <;> first | rfl | (revert h; decide)

/-- The chunk table of a file that can be opened is that of any longer file. -/
theorem openTable_positions {bs e : Bytes} {f g : AvbFile} (h1 : openTable bs = .ok f)
    (h2 : openTable (bs ++ e) = .ok g) (hn : 0 < f.header.num_objects) : f.positions = g.positions := by
  obtain ⟨bo, hdr, rest, ps, a1, a2, a3, a4, rfl⟩ := openTable_ok h1
  obtain ⟨bo', hdr', rest', ps', b1, b2, b3, b4, rfl⟩ := openTable_ok h2
  have hbo : bo = bo' := byteOrderMark_inj (by
    rw [← a1, ← b1, List.take_append_of_le_length (by omega)])
  subst hbo
  simp only at hn ⊢
  obtain ⟨n, hn'⟩ : ∃ n, hdr.num_objects = n + 1 := ⟨hdr.num_objects - 1, by omega⟩
  have hne : rest ≠ [] := by
    rintro rfl
    rw [hn', scanChunks] at a4
    rw [show (fread 4 >>= fun _ => rInt bo .u32) [] = .error .struct by rfl] at a4
    cases a4
  have hm2 := (readHeader_mono bo).more a3 hne e
  rw [List.drop_append_of_le_length a2, hm2] at b3
  injection b3 with b3
  injection b3 with b3 b3'
  subst b3 b3'
  rw [hn'] at a4 b4
  have hl : (bs ++ e).length - (rest ++ e).length = bs.length - rest.length := by
    simp only [List.length_append]; omega
  rw [hl, scanChunks_prefix a4] at b4
  injection b4 with b4
  rw [b4]

end Avb

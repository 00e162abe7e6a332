import Verif.Spec.Layout
import Verif.Lemmas.Reads
import Verif.Lemmas.Crash

/-
The readers and writers of the header as statements about its layout.
-/

namespace Avb.Layout

theorem digits_eq (n v : Nat) : (List.range n).map (fun i => UInt8.ofNat (v / 256 ^ i % 256)) = leBytes n v := by
  induction n generalizing v with
  | zero => rfl
  | succ n ih =>
    rw [List.range_succ_eq_map, List.map_cons, List.map_map, leBytes, ← ih]
    simp only [pow_zero, Nat.div_one, List.cons.injEq, true_and]
    refine List.map_congr_left fun i _ => ?_
    simp only [Function.comp, Nat.pow_succ', Nat.div_div_eq_div_mul]

theorem word_eq (bo : BO) (n v : Nat) : word bo n v = packNat bo n v := by
  unfold word packNat
  rw [digits_eq]
  cases bo <;> rfl

theorem word_length (bo : BO) (n v : Nat) : (word bo n v).length = n := by
  cases bo <;> simp [word]

theorem tag_eq (bo : BO) (id : Bytes) : tag bo id = fourccBytes bo id := by
  cases bo <;> rfl

theorem tag_length (bo : BO) (id : Bytes) : (tag bo id).length = id.length := by
  cases bo <;> simp [tag]

theorem tag_inj {bo : BO} {a b : Bytes} : tag bo a = tag bo b ↔ a = b := by
  cases bo <;> simp [tag]

theorem tag_tag (bo : BO) (a : Bytes) : tag bo (tag bo a) = a := by
  cases bo <;> simp [tag]

theorem order_eq (bo : BO) : order bo = word bo 4 (orderWord bo).toNat := by cases bo <;> decide

section
variable {bs rest : Bytes}

theorem bind_iff {α β : Type} {r : Rd α} {k : α → Rd β} {v : β} :
    (r >>= k) bs = .ok (v, rest) ↔ ∃ a mid, r bs = .ok (a, mid) ∧ k a mid = .ok (v, rest) :=
  ⟨Rd.bind_eq_ok', fun ⟨_, _, h1, h2⟩ => by rw [Rd.bind_ok h1, h2]⟩

theorem guard_iff {c : Prop} [Decidable c] {e : Err} {u : Unit} :
    Rd.guard c e bs = .ok (u, rest) ↔ c ∧ bs = rest := by
  unfold Rd.guard
  split
  · next h => exact ⟨fun h' => by cases h'; exact ⟨h, rfl⟩, fun h' => by rw [h'.2]⟩
  · next h => exact ⟨fun h' => (by cases h'), fun h' => (h h'.1).elim⟩

theorem u32_iff {bo : BO} {v : Int} :
    rInt bo .u32 bs = .ok (v, rest) ↔ ∃ n : Nat, n < 2 ^ 32 ∧ v = n ∧ bs = word bo 4 n ++ rest := by
  rw [rInt_num]
  constructor
  · rintro ⟨h1, h2, rfl⟩
    simp only [IntTy.lo, IntTy.hi, IntTy.signed, IntTy.width] at h1 h2 ⊢
    refine ⟨v.toNat, by simp at h1 h2; omega, by simp at h1; omega, ?_⟩
    rw [word_eq]
    congr 3
    simp at h1 h2 ⊢
    omega
  · rintro ⟨n, h, rfl, rfl⟩
    simp only [IntTy.lo, IntTy.hi, IntTy.signed, IntTy.width]
    refine ⟨by simp, by simp; omega, ?_⟩
    rw [word_eq]
    congr 2
    simp
    omega

theorem u16_iff {bo : BO} {v : Int} :
    rInt bo .u16 bs = .ok (v, rest) ↔ ∃ n : Nat, n < 2 ^ 16 ∧ v = n ∧ bs = word bo 2 n ++ rest := by
  rw [rInt_num]
  constructor
  · rintro ⟨h1, h2, rfl⟩
    simp only [IntTy.lo, IntTy.hi, IntTy.signed, IntTy.width] at h1 h2 ⊢
    refine ⟨v.toNat, by simp at h1 h2; omega, by simp at h1; omega, ?_⟩
    rw [word_eq]
    congr 3
    simp at h1 h2 ⊢
    omega
  · rintro ⟨n, h, rfl, rfl⟩
    simp only [IntTy.lo, IntTy.hi, IntTy.signed, IntTy.width]
    refine ⟨by simp, by simp; omega, ?_⟩
    rw [word_eq]
    congr 2
    simp
    omega

theorem four_iff {v : Int} : (rU8 bs = .ok (v, rest) ∧ v = 4) ↔ (bs = 4 :: rest ∧ v = 4) := by
  rw [rInt_num]
  constructor
  · rintro ⟨⟨_, _, rfl⟩, rfl⟩; exact ⟨rfl, rfl⟩
  · rintro ⟨rfl, rfl⟩; exact ⟨⟨by decide, by decide, rfl⟩, rfl⟩

theorem fread_iff {n : Nat} {b : Bytes} : fread (n : Int) bs = .ok (b, rest) ↔
    bs = b ++ rest ∧ (b.length = n ∨ b.length < n ∧ rest = []) := by
  unfold fread
  rw [if_neg (by omega), Int.toNat_natCast]
  constructor
  · intro h
    injection h with h
    injection h with h1 h2
    subst h1 h2
    refine ⟨(List.take_append_drop n bs).symm, ?_⟩
    by_cases hl : n ≤ bs.length
    · left; simp [hl]
    · right; exact ⟨by simp; omega, List.drop_eq_nil_of_le (by omega)⟩
  · rintro ⟨rfl, h | ⟨h, rfl⟩⟩
    · rw [List.take_left' h, List.drop_left' h]
    · rw [List.append_nil, List.take_of_length_le (by omega), List.drop_eq_nil_of_le (by omega)]

theorem fourcc_iff {bo : BO} {id d : Bytes} (hid : id.length = 4) :
    (rFourcc bo bs = .ok (d, rest) ∧ d = id) ↔ (bs = tag bo id ++ rest ∧ d = id) := by
  have key : rFourcc bo = fread 4 >>= fun d => (pure (tag bo d) : Rd Bytes) := by
    unfold rFourcc tag
    cases bo <;> rfl
  rw [key, bind_iff]
  constructor
  · rintro ⟨⟨a, mid, h1, h2⟩, rfl⟩
    injection h2 with h2
    injection h2 with h2 h3
    subst h2 h3
    rw [show (4 : Int) = ((4 : Nat) : Int) from rfl, fread_iff] at h1
    rw [tag_tag]
    exact ⟨h1.1, rfl⟩
  · rintro ⟨rfl, rfl⟩
    refine ⟨⟨tag bo d, rest, ?_, by rw [tag_tag]; rfl⟩, rfl⟩
    rw [show (4 : Int) = ((4 : Nat) : Int) from rfl, fread_iff]
    exact ⟨rfl, .inl (by rw [tag_length, hid])⟩

theorem str_iff {bo : BO} {t : Text} : rStr bo .macroman bs = .ok (t, rest) ↔
    (∃ p, bs = p ++ rest ∧ Field bo p t) ∨ (CutField bo bs t ∧ rest = []) := by
  unfold rStr
  rw [bind_iff]
  constructor
  · rintro ⟨a, mid, h1, h2⟩
    obtain ⟨n, hn, rfl, rfl⟩ := u16_iff.1 h1
    split at h2
    · next hl =>
      injection h2 with h2
      injection h2 with h2 h3
      subst h2 h3
      obtain rfl : n = 65535 := by omega
      exact .inl ⟨_, rfl, .inl ⟨rfl, rfl⟩⟩
    · next hl =>
      obtain ⟨b, mid', h3, h4⟩ := bind_iff.1 h2
      rw [fread_iff] at h3
      injection h4 with h4
      injection h4 with h4 h5
      subst h4 h5
      obtain ⟨rfl, rfl | ⟨h, rfl⟩⟩ := h3
      · exact .inl ⟨word bo 2 b.length ++ b, by simp, .inr ⟨b, by omega, rfl, rfl⟩⟩
      · exact .inr ⟨⟨n, b, h, by omega, by simp, rfl⟩, rfl⟩
  · rintro (⟨p, rfl, ⟨rfl, rfl⟩ | ⟨b, hb, rfl, rfl⟩⟩ | ⟨⟨n, b, h1, h2, rfl, rfl⟩, rfl⟩)
    · exact ⟨_, _, u16_iff.2 ⟨65535, by decide, rfl, rfl⟩, by rw [if_pos (by decide)]; rfl⟩
    · refine ⟨_, _, u16_iff.2 ⟨b.length, by omega, rfl, by rw [List.append_assoc]⟩, ?_⟩
      rw [if_neg (by omega), bind_iff]
      exact ⟨b, rest, fread_iff.2 ⟨rfl, .inl rfl⟩, rfl⟩
    · refine ⟨_, _, u16_iff.2 ⟨n, by omega, rfl, rfl⟩, ?_⟩
      rw [if_neg (by omega), bind_iff]
      exact ⟨b, [], fread_iff.2 ⟨by simp, .inr ⟨h1, rfl⟩⟩, rfl⟩

/-- A text field that is not at the end. -/
theorem str_more {bo : BO} {t : Text} (hne : rest ≠ []) : rStr bo .macroman bs = .ok (t, rest) ↔
    ∃ p, bs = p ++ rest ∧ Field bo p t := by
  rw [str_iff]
  exact ⟨fun h => h.resolve_right fun h => hne h.2, .inl⟩

end

/-- What the header reader accepts. -/
theorem readHeader_iff {bo : BO} {bs rest : Bytes} {hdr : Header} :
    readHeader bo bs = .ok (hdr, rest) ↔
    ∃ (doc date mark skipped last : Bytes) (dateText : Text) (time : Nat),
      bs = tag bo (ascii "OBJD") ++ doc ++ [4] ++ date ++
        word bo 4 hdr.num_objects ++ word bo 4 hdr.root_index ++ mark ++ word bo 4 time ++
        skipped ++ tag bo (ascii "ATob") ++ tag bo (ascii "ATve") ++ last ++ rest ∧
      Field bo doc ['A', 'O', 'b', 'j', 'D', 'o', 'c'] ∧ Field bo date dateText ∧
      hdr.num_objects < 2 ^ 32 ∧ hdr.root_index < 2 ^ 32 ∧ time < 2 ^ 32 ∧
      (mark = ascii "IIII" ∨ mark = ascii "MMMM") ∧ skipped.length = 4 ∧
      Tail bo last hdr.creator_version rest ∧ hdr.last_save = time := by
  have hI : ∀ bo, word bo 4 0x49494949 = ascii "IIII" := by intro bo; cases bo <;> decide
  have hM : ∀ bo, word bo 4 0x4D4D4D4D = ascii "MMMM" := by intro bo; cases bo <;> decide
  constructor
  · intro h
    unfold readHeader at h
    obtain ⟨t1, m1, e1, h1⟩ := bind_iff.1 h
    obtain ⟨_, m2, e2, h2⟩ := bind_iff.1 h1
    obtain ⟨rfl, rfl⟩ := guard_iff.1 e2
    obtain ⟨rfl, _⟩ := (fourcc_iff rfl).1 ⟨e1, rfl⟩
    obtain ⟨doc, m3, e3, h3⟩ := bind_iff.1 h2
    obtain ⟨_, m4, e4, h4⟩ := bind_iff.1 h3
    obtain ⟨rfl, rfl⟩ := guard_iff.1 e4
    obtain ⟨four, m5, e5, h5⟩ := bind_iff.1 h4
    obtain ⟨_, m6, e6, h6⟩ := bind_iff.1 h5
    obtain ⟨rfl, rfl⟩ := guard_iff.1 e6
    obtain ⟨rfl, _⟩ := four_iff.1 ⟨e5, rfl⟩
    obtain ⟨doc, rfl, hdoc⟩ := (str_more (by simp)).1 e3
    obtain ⟨dateText, m7, e7, h7⟩ := bind_iff.1 h6
    obtain ⟨num, m8, e8, h8⟩ := bind_iff.1 h7
    obtain ⟨num, hnum, rfl, rfl⟩ := u32_iff.1 e8
    obtain ⟨date, rfl, hdate⟩ := (str_more (by
      intro h0
      have := congrArg List.length h0
      simp [word_length] at this)).1 e7
    obtain ⟨root, m9, e9, h9⟩ := bind_iff.1 h8
    obtain ⟨root, hroot, rfl, rfl⟩ := u32_iff.1 e9
    obtain ⟨v, m10, e10, h10⟩ := bind_iff.1 h9
    obtain ⟨v, hv, rfl, rfl⟩ := u32_iff.1 e10
    obtain ⟨_, m11, e11, h11⟩ := bind_iff.1 h10
    obtain ⟨hv', rfl⟩ := guard_iff.1 e11
    obtain ⟨time, m12, e12, h12⟩ := bind_iff.1 h11
    obtain ⟨time, htime, rfl, rfl⟩ := u32_iff.1 e12
    obtain ⟨skipped, m13, e13, h13⟩ := bind_iff.1 h12
    obtain ⟨rfl, hsk⟩ := (fread_iff (n := 4)).1 e13
    obtain ⟨t2, m14, e14, h14⟩ := bind_iff.1 h13
    obtain ⟨_, m15, e15, h15⟩ := bind_iff.1 h14
    obtain ⟨rfl, rfl⟩ := guard_iff.1 e15
    obtain ⟨rfl, _⟩ := (fourcc_iff rfl).1 ⟨e14, rfl⟩
    obtain ⟨t3, m16, e16, h16⟩ := bind_iff.1 h15
    obtain ⟨_, m17, e17, h17⟩ := bind_iff.1 h16
    obtain ⟨rfl, rfl⟩ := guard_iff.1 e17
    obtain ⟨rfl, _⟩ := (fourcc_iff rfl).1 ⟨e16, rfl⟩
    obtain ⟨creator, m18, e18, h18⟩ := bind_iff.1 h17
    obtain ⟨reserved, m19, e19, h19⟩ := bind_iff.1 h18
    obtain ⟨rfl, hres⟩ := (fread_iff (n := 16)).1 e19
    injection h19 with h
    injection h with h h'
    subst h h'
    have hsk' : skipped.length = 4 := hsk.resolve_right fun h => by
      have := congrArg List.length h.2
      simp [tag_length, cc] at this
    have hmark : word bo 4 v = ascii "IIII" ∨ word bo 4 v = ascii "MMMM" := by
      rcases hv' with hv' | hv'
      · left; rw [show v = 0x49494949 by omega]; exact hI bo
      · right; rw [show v = 0x4D4D4D4D by omega]; exact hM bo
    rcases str_iff.1 e18 with ⟨a, rfl, ha⟩ | ⟨hcut, h0⟩
    · refine ⟨doc, date, word bo 4 v, skipped, a ++ reserved, dateText, time, ?_, hdoc, hdate, ?_, ?_, htime,
        hmark, hsk', .inl ⟨a, reserved, rfl, ha, hres⟩, rfl⟩
      · simp [List.append_assoc, tag, ascii, cc]
      · simpa using hnum
      · simpa using hroot
    · obtain ⟨rfl, rfl⟩ := List.append_eq_nil_iff.1 h0
      refine ⟨doc, date, word bo 4 v, skipped, _, dateText, time, ?_, hdoc, hdate, ?_, ?_, htime,
        hmark, hsk', .inr ⟨hcut, rfl⟩, rfl⟩
      · simp [List.append_assoc, tag, ascii, cc]
      · simpa using hnum
      · simpa using hroot
  · rintro ⟨doc, date, mark, skipped, last, dateText, time, rfl, hdoc, hdate, hnum, hroot, htime, hmark, hsk, htail,
      hsave⟩
    obtain ⟨num, root, save, creator⟩ := hdr
    dsimp only at hnum hroot hsave htail ⊢
    subst hsave
    obtain ⟨v, hv, hv', rfl⟩ : ∃ v : Nat, v < 2 ^ 32 ∧ ((v : Int) = 0x49494949 ∨ (v : Int) = 0x4D4D4D4D) ∧
        mark = word bo 4 v := by
      rcases hmark with rfl | rfl
      · exact ⟨0x49494949, by decide, .inl rfl, (hI bo).symm⟩
      · exact ⟨0x4D4D4D4D, by decide, .inr rfl, (hM bo).symm⟩
    have hlast : ∃ reserved, rStr bo .macroman (last ++ rest) = .ok (creator, reserved ++ rest) ∧
        (reserved.length = 16 ∨ reserved.length < 16 ∧ rest = []) := by
      rcases htail with ⟨a, reserved, rfl, h1, h2⟩ | ⟨h1, rfl⟩
      · exact ⟨reserved, str_iff.2 (.inl ⟨a, by simp, h1⟩), h2⟩
      · exact ⟨[], str_iff.2 (.inr ⟨by simpa using h1, rfl⟩), .inr ⟨by decide, rfl⟩⟩
    obtain ⟨reserved, hlast, hres⟩ := hlast
    unfold readHeader
    simp only [List.append_assoc, List.cons_append, List.nil_append]
    refine bind_iff.2 ⟨_, _, ((fourcc_iff rfl).2 ⟨rfl, rfl⟩).1, ?_⟩
    refine bind_iff.2 ⟨(), _, guard_iff.2 ⟨by decide, rfl⟩, ?_⟩
    refine bind_iff.2 ⟨_, _, str_iff.2 (.inl ⟨_, rfl, hdoc⟩), ?_⟩
    refine bind_iff.2 ⟨(), _, guard_iff.2 ⟨by decide, rfl⟩, ?_⟩
    refine bind_iff.2 ⟨4, _, (four_iff.2 ⟨rfl, rfl⟩).1, ?_⟩
    refine bind_iff.2 ⟨(), _, guard_iff.2 ⟨by decide, rfl⟩, ?_⟩
    refine bind_iff.2 ⟨_, _, str_iff.2 (.inl ⟨_, rfl, hdate⟩), ?_⟩
    refine bind_iff.2 ⟨_, _, u32_iff.2 ⟨num, hnum, rfl, rfl⟩, ?_⟩
    refine bind_iff.2 ⟨_, _, u32_iff.2 ⟨root, hroot, rfl, rfl⟩, ?_⟩
    refine bind_iff.2 ⟨_, _, u32_iff.2 ⟨v, hv, rfl, rfl⟩, ?_⟩
    refine bind_iff.2 ⟨(), _, guard_iff.2 ⟨hv', rfl⟩, ?_⟩
    refine bind_iff.2 ⟨_, _, u32_iff.2 ⟨time, htime, rfl, rfl⟩, ?_⟩
    refine bind_iff.2 ⟨_, _, (fread_iff (n := 4)).2 ⟨rfl, .inl hsk⟩, ?_⟩
    refine bind_iff.2 ⟨_, _, ((fourcc_iff rfl).2 ⟨rfl, rfl⟩).1, ?_⟩
    refine bind_iff.2 ⟨(), _, guard_iff.2 ⟨by decide, rfl⟩, ?_⟩
    refine bind_iff.2 ⟨_, _, ((fourcc_iff rfl).2 ⟨rfl, rfl⟩).1, ?_⟩
    refine bind_iff.2 ⟨(), _, guard_iff.2 ⟨by decide, rfl⟩, ?_⟩
    refine bind_iff.2 ⟨_, _, hlast, ?_⟩
    refine bind_iff.2 ⟨_, _, (fread_iff (n := 16)).2 ⟨rfl, hres⟩, ?_⟩
    rfl

theorem scan_iff {bo : BO} {n pos : Nat} {body : Bytes} {ps : List Nat} :
    scanChunks bo n pos body = .ok ps ↔ Chunks bo n pos body ps := by
  induction n generalizing pos body ps with
  | zero =>
    unfold scanChunks
    exact ⟨fun h => by cases h; exact .zero pos body, fun h => by cases h; rfl⟩
  | succ n ih =>
    unfold scanChunks
    constructor
    · intro h
      split at h
      · cases h
      · next size rest hr =>
        obtain ⟨id, mid, h1, h2⟩ := bind_iff.1 hr
        obtain ⟨size, hsize, rfl, rfl⟩ := u32_iff.1 h2
        obtain ⟨rfl, hid⟩ := (fread_iff (n := 4)).1 h1
        have hid : id.length = 4 := hid.resolve_right fun h0 => by
          have := congrArg List.length h0.2
          simp [word_length] at this
        rw [Int.toNat_natCast] at h
        split at h
        · cases h
        · next ps' hps =>
          cases h
          rw [← List.append_assoc]
          exact .succ hid hsize (ih.1 hps)
    · intro h
      cases h with
      | @succ _ _ size id rest ps' hid hsize hrest =>
        have : (fread 4 >>= fun _ => rInt bo .u32) (id ++ word bo 4 size ++ rest) = .ok ((size : Int), rest) := by
          rw [List.append_assoc]
          exact bind_iff.2 ⟨_, _, (fread_iff (n := 4)).2 ⟨rfl, .inl hid⟩, u32_iff.2 ⟨size, hsize, rfl, rfl⟩⟩
        rw [this]
        dsimp only
        rw [Int.toNat_natCast, ih.2 hrest]

theorem open_iff {bs : Bytes} {f : AvbFile} : openTable bs = .ok f ↔
    ∃ bo hdr head rest ps, bs = byteOrderMark bo ++ magic ++ head ∧ readHeader bo head = .ok (hdr, rest) ∧
      scanChunks bo hdr.num_objects (bs.length - rest.length) rest = .ok ps ∧
      f = ⟨bo, hdr, 0 :: ps, bs, bs.length - rest.length⟩ := by
  constructor
  · intro h
    obtain ⟨bo, hdr, rest, ps, h1, h2, h3, h4, h5⟩ := openTable_ok h
    have hm : (bs.drop 2).take 6 = magic := by
      unfold openTable at h
      by_contra hm
      simp only [if_pos hm, ne_eq] at h
      split at h
      · cases h
      · split at h <;> cases h
    refine ⟨bo, hdr, bs.drop 8, rest, ps, ?_, h3, h4, h5⟩
    rw [← h1, ← hm]
    conv_lhs => rw [← List.take_append_drop 2 bs, ← List.take_append_drop 6 (bs.drop 2), List.drop_drop]
    simp
  · rintro ⟨bo, hdr, head, rest, ps, h1, h2, h3, rfl⟩
    have t2 : bs.take 2 = byteOrderMark bo := by rw [h1]; cases bo <;> rfl
    have t6 : (bs.drop 2).take 6 = magic := by rw [h1]; cases bo <;> rfl
    have t8 : bs.drop 8 = head := by rw [h1]; cases bo <;> rfl
    unfold openTable
    rw [t2, t6, t8]
    cases bo with
    | little => simp [h2, h3]
    | big =>
      rw [if_neg (by decide)]
      simp [h2, h3]

end Avb.Layout

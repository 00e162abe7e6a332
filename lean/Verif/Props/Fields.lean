import Verif.Lemmas.RT
import Verif.Lemmas.Mono
import Verif.Props.Examples
import Mathlib.Tactic.NormNum
import Mathlib.Tactic.Ring

/-
C01-C04: the primitive fields.
-/

namespace Avb

/-! ### C01: integers -/

/-- The values a field of each kind can hold. -/
def Fits : IntTy → Int → Prop
  | .u8, v => 0 ≤ v ∧ v < 256
  | .s8, v => -128 ≤ v ∧ v < 128
  | .u16, v => 0 ≤ v ∧ v < 65536
  | .s16, v => -32768 ≤ v ∧ v < 32768
  | .u32, v => 0 ≤ v ∧ v < 4294967296
  | .s32, v => -2147483648 ≤ v ∧ v < 2147483648
  | .u64, v => 0 ≤ v ∧ v < 18446744073709551616
  | .s64, v => -9223372036854775808 ≤ v ∧ v < 9223372036854775808

instance (t : IntTy) (v : Int) : Decidable (Fits t v) := by
  cases t <;> (unfold Fits; infer_instance)

/-- The number of bytes of each kind. -/
def fieldWidth : IntTy → Nat
  | .u8 | .s8 => 1
  | .u16 | .s16 => 2
  | .u32 | .s32 => 4
  | .u64 | .s64 => 8

theorem fits_iff (t : IntTy) (v : Int) : Fits t v ↔ t.lo ≤ v ∧ v ≤ t.hi := by
  cases t <;> simp only [Fits, IntTy.lo, IntTy.hi, IntTy.signed, IntTy.width] <;> norm_num <;> omega

/-- The value of bytes read from the most significant one down. -/
def bigValue (bs : Bytes) : Nat := bs.foldl (fun n b => 256 * n + b.toNat) 0

theorem leVal_append (a b : Bytes) : leVal (a ++ b) = leVal a + 256 ^ a.length * leVal b := by
  induction a with
  | nil => simp [leVal]
  | cons x a ih =>
    simp only [List.cons_append, leVal, ih, List.length_cons, Nat.pow_succ]
    ring

theorem bigValue_aux (bs : Bytes) (n : Nat) :
    bs.foldl (fun n b => 256 * n + b.toNat) n = 256 ^ bs.length * n + leVal bs.reverse := by
  induction bs generalizing n with
  | nil => simp [leVal]
  | cons b bs ih =>
    simp only [List.foldl_cons, ih, List.reverse_cons, leVal_append, List.length_reverse, leVal,
      List.length_cons, Nat.pow_succ]
    ring

theorem bigValue_eq (bs : Bytes) : bigValue bs = leVal bs.reverse := by
  unfold bigValue
  rw [bigValue_aux]; simp

/-- C01: a value that fits is written in exactly the width of the field; the bytes, most significant
first, are the value modulo 256 ^ width; reading consumes exactly these bytes and gives the value. -/
theorem C01_fits {bo : BO} {t : IntTy} {v : Int} (h : Fits t v) :
    ∃ bs, wInt bo t v = .ok ((), bs) ∧ bs.length = fieldWidth t ∧
      (bigValue (match bo with | .little => bs.reverse | .big => bs) : Int) =
        v % (256 ^ fieldWidth t : Nat) ∧
      ∀ rest, rInt bo t (bs ++ rest) = .ok (v, rest) := by
  obtain ⟨h1, h2⟩ := (fits_iff t v).1 h
  refine ⟨_, wInt_ok h1 h2, ?_, ?_, fun rest => rInt_pack bo t v rest h1 h2⟩
  · rw [packNat_length]; cases t <;> rfl
  · have hw : fieldWidth t = t.width := by cases t <;> rfl
    have key : bigValue (match bo with
        | .little => (packNat bo t.width (v % 2 ^ (8 * t.width)).toNat).reverse
        | .big => packNat bo t.width (v % 2 ^ (8 * t.width)).toNat) =
        (v % 2 ^ (8 * t.width)).toNat % 256 ^ t.width := by
      cases bo <;> simp [bigValue_eq, packNat, leVal_leBytes]
    rw [key, hw, two_pow_width]
    have hpos : 0 < 256 ^ t.width := Nat.pow_pos (by decide)
    have h3 : 0 ≤ v % ((256 ^ t.width : Nat) : Int) := Int.emod_nonneg _ (by omega)
    have h4 : v % ((256 ^ t.width : Nat) : Int) < ((256 ^ t.width : Nat) : Int) :=
      Int.emod_lt_of_pos _ (by omega)
    rw [Nat.mod_eq_of_lt (by omega), Int.toNat_of_nonneg h3]

/-- C01: a value that does not fit is refused. -/
theorem C01_refused {bo : BO} {t : IntTy} {v : Int} (h : ¬ Fits t v) :
    wInt bo t v = .error .struct := by
  unfold wInt
  rw [if_neg (fun hc => h ((fits_iff t v).2 hc))]
  rfl

/-- C01: a read with fewer bytes than the field has raises. -/
theorem C01_short {bo : BO} {t : IntTy} {bs : Bytes} (h : bs.length < fieldWidth t) :
    rInt bo t bs = .error .struct := by
  have hw : fieldWidth t = t.width := by cases t <;> rfl
  unfold rInt
  rw [if_pos (by omega)]

/-- C01: reading never fails with enough bytes, and gives a value that fits. -/
theorem C01_read {bo : BO} {t : IntTy} {bs : Bytes} (h : fieldWidth t ≤ bs.length) :
    ∃ v, rInt bo t bs = .ok (v, bs.drop (fieldWidth t)) ∧ Fits t v := by
  have hw : fieldWidth t = t.width := by cases t <;> rfl
  unfold rInt
  rw [if_neg (by omega), hw]
  refine ⟨_, rfl, ?_⟩
  have hlt := unpackNat_lt bo (bs.take t.width)
  rw [List.length_take, Nat.min_eq_left (by omega)] at hlt
  rw [fits_iff]
  cases t <;> simp only [IntTy.lo, IntTy.hi, IntTy.signed, IntTy.width] at hlt ⊢ <;>
    norm_num at hlt ⊢ <;> (try split) <;> omega

theorem rInt_inj {bo : BO} {t : IntTy} {x y : Bytes} (hl : x.length = fieldWidth t ∧ y.length = fieldWidth t)
    (h : rInt bo t x = rInt bo t y) : x = y := by
  have hwd : fieldWidth t = t.width := by cases t <;> rfl
  rw [hwd] at hl
  unfold rInt at h
  rw [if_neg (by omega), if_neg (by omega)] at h
  injection h with h
  injection h with h _
  rw [List.take_of_length_le (by omega), List.take_of_length_le (by omega)] at h
  have l1 := unpackNat_lt bo x
  have l2 := unpackNat_lt bo y
  have p1 := packNat_unpackNat bo x
  have p2 := packNat_unpackNat bo y
  rw [hl.1] at l1 p1
  rw [hl.2] at l2 p2
  have : unpackNat bo x = unpackNat bo y := by
    cases t <;> simp only [IntTy.signed, IntTy.width] at h l1 l2 <;> norm_num at h l1 l2 <;> omega
  rw [← p1, ← p2, this]

/-- C01: whatever bytes are read are exactly the bytes that writing the value produces. -/
theorem C01_canonical {bo : BO} {t : IntTy} {bs rest : Bytes} {v : Int}
    (h : rInt bo t bs = .ok (v, rest)) : ∃ d, bs = d ++ rest ∧ wInt bo t v = .ok ((), d) := by
  by_cases hl : bs.length < fieldWidth t
  · rw [C01_short hl] at h; cases h
  · obtain ⟨w, h1, hw⟩ := C01_read (bo := bo) (t := t) (bs := bs) (by omega)
    rw [h1] at h
    injection h with h
    injection h with h2 h3
    subst h2 h3
    refine ⟨bs.take (fieldWidth t), by simp, ?_⟩
    obtain ⟨d, hd, hdl, hv, hr⟩ := C01_fits (bo := bo) hw
    rw [hd]
    congr 2
    have hx : rInt bo t (bs.take (fieldWidth t)) = .ok (w, []) := by
      have hwd : fieldWidth t = t.width := by cases t <;> rfl
      have h1' := h1
      unfold rInt at h1' ⊢
      rw [if_neg (by omega)] at h1'
      rw [if_neg (by rw [List.length_take]; omega)]
      injection h1' with h1'
      injection h1' with h1' _
      simp only [hwd, List.take_take, Nat.min_self, h1', List.drop_take, Nat.sub_self, List.take_zero]
    have hy := hr []
    rw [List.append_nil] at hy
    refine rInt_inj ?_ (hy.trans hx.symm)
    exact ⟨hdl, by rw [List.length_take]; omega⟩

/-- C01: booleans. -/
theorem C01_bool (b : Bool) :
    ∃ x, wBool b = .ok ((), [x]) ∧ ∀ rest, rBool (x :: rest) = .ok (b, rest) := by
  cases b
  · exact ⟨0, rfl, fun rest => RT.bool (b := false) [0] rfl rest trivial⟩
  · exact ⟨1, rfl, fun rest => RT.bool (b := true) [1] rfl rest trivial⟩

example : ∃ x, wBool true = .ok ((), [x]) ∧ rBool [x, 9] = .ok (true, [9]) :=
  (C01_bool true).imp fun _ h => ⟨h.1, h.2 [9]⟩

/-- C01: a boolean is true exactly when its byte is 1; no other byte counts as true, and a missing
byte raises. -/
theorem C01_bool_read (x : UInt8) (rest : Bytes) :
    rBool (x :: rest) = .ok (decide (x = 1), rest) ∧ rBool [] = .error .struct := by
  constructor
  · have h1 : rU8 (x :: rest) = .ok ((x.toNat : Int), rest) := by
      simp [rInt, IntTy.width, IntTy.signed, unpackNat, leVal]
    have h2 : rBool (x :: rest) = .ok ((x.toNat : Int) == 1, rest) := by
      unfold rBool
      rw [Rd.bind_ok h1]; rfl
    rw [h2]
    show Except.ok ((x.toNat : Int) == 1, rest) = _
    congr 2
    rw [Bool.eq_iff_iff]
    simp only [beq_iff_eq, decide_eq_true_eq, ← UInt8.toNat_inj]
    constructor
    · intro h; exact_mod_cast h
    · intro h; exact_mod_cast h
  · rfl

example : rBool [2, 7] = .ok (false, [7]) ∧ rBool [1, 7] = .ok (true, [7]) :=
  ⟨(C01_bool_read 2 [7]).1, (C01_bool_read 1 [7]).1⟩

example : Fits .s16 (-2) ∧ ¬ Fits .u8 256 ∧ wInt .big .s16 (-2) = .ok ((), [0xFF, 0xFE]) :=
  ⟨by decide, by decide, rfl⟩

/-! ### C02, C03: text -/

/-- The bytes of a text in a field: for UTF-8 two NULs come first (a mark for other readers). -/
def textBytes (e : Enc) (t : Text) : Option Bytes :=
  match e with
  | .macroman => encodeText .macroman t
  | .utf8 => (encodeText .utf8 t).map fun d => 0 :: 0 :: d

theorem textBytes_eq (e : Enc) (t : Text) : textBytes e t = payload e t := by
  cases e <;> simp [textBytes, payload]

theorem wStr_ok {bo : BO} {e : Enc} {t : Text} {d : Bytes} (ht : t ≠ []) (hd : textBytes e t = some d)
    (hl : d.length ≤ 65535) : wStr bo e t = .ok ((), packNat bo 2 d.length ++ d) := by
  rw [textBytes_eq] at hd
  unfold wStr
  rw [if_neg ht]
  simp only [payload, Option.map_eq_some_iff] at hd
  obtain ⟨b, hb, hd⟩ := hd
  rw [hb]
  simp only [hd]
  have h1 : wInt bo .u16 d.length = .ok ((), packNat bo 2 d.length) := by
    have := wInt_ok (bo := bo) (t := .u16) (v := d.length) (by simp [IntTy.lo, IntTy.signed])
      (by simp [IntTy.hi, IntTy.signed, IntTy.width]; omega)
    rw [this]
    congr 3
    simp only [IntTy.width]
    norm_num
    omega
  exact Wr.bind_ok h1 rfl

/-- C02: a text that can be encoded in less than 65535 bytes is written as a 16 bit length and the
encoded bytes; reading consumes exactly these bytes and gives the text without NULs at its ends. -/
theorem C02_text {bo : BO} {e : Enc} {t : Text} {d : Bytes} (ht : t ≠ []) (hd : textBytes e t = some d)
    (hl : d.length < 65535) :
    wStr bo e t = .ok ((), packNat bo 2 d.length ++ d) ∧
      ∀ rest, rStr bo e (packNat bo 2 d.length ++ d ++ rest) = .ok (stripText t, rest) := by
  have hw := wStr_ok (bo := bo) ht hd (by omega)
  refine ⟨hw, fun rest => ?_⟩
  refine RT.str ?_ _ hw rest trivial
  intro d' hd'
  rw [← textBytes_eq, hd] at hd'
  cases hd'
  omega

/-- C02: text without NULs at its ends comes back unchanged. -/
theorem C02_text_same {bo : BO} {e : Enc} {t : Text} {d : Bytes} (ht : t ≠ [])
    (hd : textBytes e t = some d) (hl : d.length < 65535)
    (h1 : t.head? ≠ some '\x00') (h2 : t.getLast? ≠ some '\x00') (rest : Bytes) :
    rStr bo e (packNat bo 2 d.length ++ d ++ rest) = .ok (t, rest) := by
  rw [(C02_text ht hd hl).2 rest]
  congr 2
  have key : ∀ l : Text, l.head? ≠ some '\x00' → l.dropWhile (· == '\x00') = l := by
    intro l hl
    cases l with
    | nil => rfl
    | cons a l =>
      rw [List.dropWhile_cons_of_neg]
      simpa using hl
  unfold stripText
  rw [key t h1, key _ (by rw [List.head?_reverse]; exact h2), List.reverse_reverse]

example : rStr .big .macroman [0, 4, 0x63, 0x61, 0x66, 0x8E, 7] = .ok (['c', 'a', 'f', 'é'], [7]) :=
  C02_text_same (t := ['c', 'a', 'f', 'é']) (d := [0x63, 0x61, 0x66, 0x8E]) (by decide) (by decide +kernel) (by decide)
    (by decide) (by decide) [7]

/-- C02: the empty text is a zero length. -/
theorem C02_empty (bo : BO) (e : Enc) (rest : Bytes) :
    wStr bo e [] = .ok ((), [0, 0]) ∧ rStr bo e ([0, 0] ++ rest) = .ok ([], rest) := by
  have hw : wStr bo e [] = .ok ((), [0, 0]) := by cases bo <;> rfl
  refine ⟨hw, RT.str ?_ _ hw rest trivial⟩
  intro d hd
  cases e <;> (injection hd with hd; rw [← hd]; decide)

/-- C02: characters outside the encoding are refused. -/
theorem C02_not_encodable {bo : BO} {e : Enc} {t : Text} (hd : textBytes e t = none) :
    wStr bo e t = .error .unicode := by
  rw [textBytes_eq] at hd
  unfold wStr
  rw [if_neg (by rintro rfl; cases e <;> cases hd)]
  simp only [payload, Option.map_eq_none_iff] at hd
  rw [hd]; rfl

example (bo : BO) : wStr bo .macroman ['я'] = .error .unicode := C02_not_encodable (by decide +kernel)

/-- C02: text that needs more than 65535 bytes is refused. -/
theorem C02_too_long {bo : BO} {e : Enc} {t : Text} {d : Bytes} (hd : textBytes e t = some d)
    (hl : 65535 < d.length) : wStr bo e t = .error .struct := by
  rw [textBytes_eq] at hd
  have ht : t ≠ [] := by
    rintro rfl
    cases e <;> (injection hd with hd; rw [← hd] at hl; revert hl; decide)
  unfold wStr
  rw [if_neg ht]
  simp only [payload, Option.map_eq_some_iff] at hd
  obtain ⟨b, hb, hd⟩ := hd
  rw [hb]
  simp only [hd]
  have : wInt bo .u16 d.length = .error .struct := C01_refused (by simp only [Fits]; omega)
  rw [this]; rfl

/-- 65536 letters. -/
example (bo : BO) : wStr bo .macroman (List.replicate 65536 'a') = .error .struct := by
  have key : ∀ n, macEncode (List.replicate n 'a') = some (List.replicate n 0x61) := by
    intro n
    induction n with
    | zero => rfl
    | succ n ih =>
      have h : macEncodeChar 'a' = some 0x61 := by decide
      rw [List.replicate_succ, List.replicate_succ, macEncode, h, ih]
  exact C02_too_long (key 65536) (by rw [List.length_replicate]; decide)

/-- C02: in Mac Roman every byte stands for one character, so exactly 256 characters can be written. -/
theorem C02_macroman_bytes (b : UInt8) : encodeText .macroman [macDecodeByte b] = some [b] := by
  simp only [encodeText, macEncode, macEncode_decodeByte]

/-- A Latin word in Mac Roman and Cyrillic in UTF-8 meet the hypotheses; Cyrillic in Mac Roman does not. -/
example : textBytes .macroman ['c', 'a', 'f', 'é'] = some [0x63, 0x61, 0x66, 0x8E] ∧
    textBytes .utf8 ['я'] = some [0, 0, 0xD1, 0x8F] ∧ textBytes .macroman ['я'] = none := by decide +kernel

/-- C02: the characters of the code page, in the order of their bytes from 128 on; below 128 it is ASCII. -/
theorem C02_table (b : UInt8) :
    macDecodeByte b = if b.toNat < 128 then Char.ofNat b.toNat else
      ("ÄÅÇÉÑÖÜáàâäãåçéèêëíìîïñóòôöõúùûü†°¢£§•¶ß®©™´¨≠ÆØ∞±≤≥¥µ∂∑∏π∫ªºΩæø" ++
        "¿¡¬√ƒ≈∆«»…\u00a0ÀÃÕŒœ–—“”‘’÷◊ÿŸ⁄€‹›ﬁﬂ‡·‚„‰ÂÊÁËÈÍÎÏÌÓÔ\uf8ffÒÚÛÙıˆ˜¯˘˙˚¸˝˛ˇ").toList.getD (b.toNat - 128) ' ' := by
  have key : ∀ n, n < 256 → macDecodeByte (UInt8.ofNat n) = if n < 128 then Char.ofNat n else
      ("ÄÅÇÉÑÖÜáàâäãåçéèêëíìîïñóòôöõúùûü†°¢£§•¶ß®©™´¨≠ÆØ∞±≤≥¥µ∂∑∏π∫ªºΩæø" ++
        "¿¡¬√ƒ≈∆«»…\u00a0ÀÃÕŒœ–—“”‘’÷◊ÿŸ⁄€‹›ﬁﬂ‡·‚„‰ÂÊÁËÈÍÎÏÌÓÔ\uf8ffÒÚÛÙıˆ˜¯˘˙˚¸˝˛ˇ").toList.getD (n - 128) ' ' := by
    decide +kernel
  have := key b.toNat b.toNat_lt
  rw [UInt8.ofNat_toNat] at this
  exact this

/-- C03: for every text of exactly 65535 encoded bytes the write succeeds, but reading the field gives
the empty text and leaves the 65535 bytes unread. -/
theorem C03_lost {bo : BO} {e : Enc} {t : Text} {d : Bytes} (hd : textBytes e t = some d)
    (hl : d.length = 65535) (rest : Bytes) :
    wStr bo e t = .ok ((), packNat bo 2 65535 ++ d) ∧
      rStr bo e (packNat bo 2 65535 ++ d ++ rest) = .ok ([], d ++ rest) := by
  have ht : t ≠ [] := by
    rintro rfl
    cases e <;> (injection hd with hd; rw [← hd] at hl; revert hl; decide)
  have hw := wStr_ok (bo := bo) ht hd (by omega)
  rw [hl] at hw
  refine ⟨hw, ?_⟩
  have hr : rInt bo .u16 (packNat bo 2 65535 ++ (d ++ rest)) = .ok (65535, d ++ rest) := by
    have := rInt_pack bo .u16 65535 (d ++ rest) (by decide) (by decide)
    simpa [IntTy.width] using this
  unfold rStr
  rw [List.append_assoc, Rd.bind_ok hr, if_pos (by decide)]
  rfl

/-- 65535 letters are such a text. -/
example : ∃ d, textBytes .macroman (List.replicate 65535 'a') = some d ∧ d.length = 65535 := by
  have key : ∀ n, macEncode (List.replicate n 'a') = some (List.replicate n 0x61) := by
    intro n
    induction n with
    | zero => rfl
    | succ n ih =>
      have h : macEncodeChar 'a' = some 0x61 := by decide
      rw [List.replicate_succ, List.replicate_succ, macEncode, h, ih]
  exact ⟨_, key 65535, by rw [List.length_replicate]⟩

/-! ### C04: identifiers, rectangles, colours, timestamps -/

/-- C04: UUIDs in tagged form. -/
theorem C04_uuid {bo : BO} (u : UUID) :
    ∃ bs, wUuid bo u = .ok ((), bs) ∧ bs.length = 24 ∧ ∀ rest, rUuid bo (bs ++ rest) = .ok (u, rest) := by
  have hw : ∃ bs, wUuid bo u = .ok ((), bs) ∧ bs.length = 24 := by
    have h1 := wInt_ok (bo := bo) (t := .u32) (v := u.timeLow) (by simp [IntTy.lo, IntTy.signed]) (by
      have := unpackNat_lt .big (u.bytes.take 4)
      rw [List.length_take, u.len] at this
      simp only [IntTy.hi, IntTy.signed, IntTy.width, UUID.timeLow]
      norm_num at this ⊢; omega)
    have h2 := wInt_ok (bo := bo) (t := .u16) (v := u.timeMid) (by simp [IntTy.lo, IntTy.signed]) (by
      have := unpackNat_lt .big ((u.bytes.drop 4).take 2)
      rw [List.length_take, List.length_drop, u.len] at this
      simp only [IntTy.hi, IntTy.signed, IntTy.width, UUID.timeMid]
      norm_num at this ⊢; omega)
    have h3 := wInt_ok (bo := bo) (t := .u16) (v := u.timeHi) (by simp [IntTy.lo, IntTy.signed]) (by
      have := unpackNat_lt .big ((u.bytes.drop 6).take 2)
      rw [List.length_take, List.length_drop, u.len] at this
      simp only [IntTy.hi, IntTy.signed, IntTy.width, UUID.timeHi]
      norm_num at this ⊢; omega)
    have h4 := wInt_ok (bo := bo) (t := .s32) (v := 8) (by decide) (by decide)
    have h5 : ∃ d, (match bo with
        | .little => Wr.emit (u.bytesLE.drop 8)
        | .big => Wr.emit (u.bytes.drop 8)) = .ok ((), d) ∧ d.length = 8 := by
      cases bo
      · exact ⟨_, rfl, by simp [UUID.bytesLE, swapUuid, u.len]⟩
      · exact ⟨_, rfl, by simp [u.len]⟩
    obtain ⟨d, h5, h6⟩ := h5
    have t72 : wU8 72 = .ok ((), [72]) := rfl
    have t70 : wU8 70 = .ok ((), [70]) := rfl
    have t65 : wU8 65 = .ok ((), [65]) := rfl
    refine ⟨_, Wr.bind_ok t72 (Wr.bind_ok h1 (Wr.bind_ok t70 (Wr.bind_ok h2 (Wr.bind_ok t70
      (Wr.bind_ok h3 (Wr.bind_ok t65 (Wr.bind_ok h4 h5))))))), ?_⟩
    simp [IntTy.width, h6]
  obtain ⟨bs, hw, hl⟩ := hw
  exact ⟨bs, hw, hl, fun rest => RT.uuid bs hw rest trivial⟩

/-- C04: UUIDs in plain form. -/
theorem C04_raw_uuid {bo : BO} (u : UUID) :
    ∃ bs, wRawUuid bo u = .ok ((), bs) ∧ bs.length = 16 ∧
      ∀ rest, rRawUuid bo (bs ++ rest) = .ok (u, rest) := by
  have hw : ∃ bs, wRawUuid bo u = .ok ((), bs) ∧ bs.length = 16 := by
    cases bo
    · exact ⟨_, rfl, by simp [UUID.bytesLE, swapUuid, u.len]⟩
    · exact ⟨_, rfl, by simp [u.len]⟩
  obtain ⟨bs, hw, hl⟩ := hw
  exact ⟨bs, hw, hl, fun rest => RT.rawUuid bs hw rest trivial⟩

/-- C04: mob ids. -/
theorem C04_mob_id {bo : BO} (m : MobID) :
    ∃ bs, wMobId bo m = .ok ((), bs) ∧ bs.length = 49 ∧
      ∀ rest, rMobId bo (bs ++ rest) = .ok (m, rest) := by
  have hb : ∀ b : UInt8, wU8 b.toNat = .ok ((), [b]) := by
    intro b
    have := wU8_ok (v := b.toNat) (by omega) (by have := b.toNat_lt; omega)
    rw [this, Int.toNat_natCast, UInt8.ofNat_toNat]
  have hf : ∀ l : Bytes, forW l (fun b => wU8 b.toNat) = .ok ((), l) := by
    intro l
    induction l with
    | nil => rfl
    | cons b l ih => exact Wr.bind_ok (hb b) ih
  obtain ⟨d, hu, hul, _⟩ := C04_uuid (bo := bo) m.material
  have h4 := wInt_ok (bo := bo) (t := .s32) (v := 12) (by decide) (by decide)
  have t65 : wU8 65 = .ok ((), [65]) := rfl
  have t68 : wU8 68 = .ok ((), [68]) := rfl
  have hw : wMobId bo m = .ok ((), _) :=
    Wr.bind_ok t65 (Wr.bind_ok h4 (Wr.bind_ok (hf m.label) (Wr.bind_ok t68 (Wr.bind_ok (hb _)
      (Wr.bind_ok t68 (Wr.bind_ok (hb _) (Wr.bind_ok t68 (Wr.bind_ok (hb _) (Wr.bind_ok t68
        (Wr.bind_ok (hb _) hu))))))))))
  refine ⟨_, hw, ?_, fun rest => RT.mobId _ hw rest trivial⟩
  simp [IntTy.width, MobID.label, m.len, hul]

/-- C04: rectangles with 16 bit coordinates. -/
theorem C04_rect {bo : BO} {v : Rect} (h : Fits .s16 v.a ∧ Fits .s16 v.b ∧ Fits .s16 v.c ∧ Fits .s16 v.d) :
    ∃ bs, wRect bo v = .ok ((), bs) ∧ bs.length = 10 ∧ ∀ rest, rRect bo (bs ++ rest) = .ok (v, rest) := by
  obtain ⟨b0, w0, l0, _⟩ := C01_fits (bo := bo) (t := .s16) (v := 1) (by decide)
  obtain ⟨b1, w1, l1, _⟩ := C01_fits (bo := bo) h.1
  obtain ⟨b2, w2, l2, _⟩ := C01_fits (bo := bo) h.2.1
  obtain ⟨b3, w3, l3, _⟩ := C01_fits (bo := bo) h.2.2.1
  obtain ⟨b4, w4, l4, _⟩ := C01_fits (bo := bo) h.2.2.2
  have hw : wRect bo v = .ok ((), _) := Wr.bind_ok w0 (Wr.bind_ok w1 (Wr.bind_ok w2 (Wr.bind_ok w3 w4)))
  exact ⟨_, hw, by simp [l0, l1, l2, l3, l4, fieldWidth], fun rest => RT.rect _ hw rest trivial⟩

example : ∃ bs, wRect .little ⟨-1, 2, 3, 260⟩ = .ok ((), bs) ∧ bs.length = 10 :=
  (C04_rect (by decide)).imp fun _ h => ⟨h.1, h.2.1⟩

/-- C04: colours with 16 bit components. -/
theorem C04_colour {bo : BO} {v : RGB} (h : Fits .u16 v.r ∧ Fits .u16 v.g ∧ Fits .u16 v.b) :
    ∃ bs, wRgb bo v = .ok ((), bs) ∧ bs.length = 8 ∧ ∀ rest, rRgb bo (bs ++ rest) = .ok (v, rest) := by
  obtain ⟨b0, w0, l0, _⟩ := C01_fits (bo := bo) (t := .s16) (v := 1) (by decide)
  obtain ⟨b1, w1, l1, _⟩ := C01_fits (bo := bo) h.1
  obtain ⟨b2, w2, l2, _⟩ := C01_fits (bo := bo) h.2.1
  obtain ⟨b3, w3, l3, _⟩ := C01_fits (bo := bo) h.2.2
  have hw : wRgb bo v = .ok ((), _) := Wr.bind_ok w0 (Wr.bind_ok w1 (Wr.bind_ok w2 w3))
  exact ⟨_, hw, by simp [l0, l1, l2, l3, fieldWidth], fun rest => RT.rgb _ hw rest trivial⟩

example : ∃ bs, wRgb .big ⟨65535, 256, 0⟩ = .ok ((), bs) ∧ bs.length = 8 :=
  (C04_colour (by decide)).imp fun _ h => ⟨h.1, h.2.1⟩

/-- C04: timestamps from 1970 to 2106; others are refused. -/
theorem C04_date {bo : BO} (t : Int) :
    (Fits .u32 t → ∃ bs, wDate bo t = .ok ((), bs) ∧ bs.length = 4 ∧
      ∀ rest, rDate bo (bs ++ rest) = .ok (t, rest)) ∧
    (¬ Fits .u32 t → wDate bo t = .error .struct) := by
  refine ⟨fun h => ?_, fun h => C01_refused h⟩
  obtain ⟨bs, h1, h2, _, h3⟩ := C01_fits (bo := bo) h
  exact ⟨bs, h1, h2, h3⟩

/-- The last second that fits, in 2106, and the one after it. -/
example : (∃ bs, wDate .big 4294967295 = .ok ((), bs)) ∧ wDate .big 4294967296 = .error .struct :=
  ⟨((C04_date 4294967295).1 (by decide)).imp fun _ h => h.1, (C04_date 4294967296).2 (by decide)⟩

theorem rTag_inv {t : Int} {x y : Bytes} {a : Unit} (hx : rTag t x = .ok (a, y)) :
    x = UInt8.ofNat t.toNat :: y := by
  unfold rTag at hx
  obtain ⟨v, mid, e1, e2⟩ := Rd.bind_eq_ok hx
  rw [Rd.guard_apply] at e2
  split at e2
  · rename_i hv
    injection e2 with e2
    injection e2 with _ e2
    cases x with
    | nil => cases e1
    | cons b x =>
      have h1 : rU8 (b :: x) = .ok ((b.toNat : Int), x) := by
        simp [rInt, IntTy.width, IntTy.signed, unpackNat, leVal]
      rw [h1] at e1
      injection e1 with e1
      injection e1 with e1 e1'
      rw [← e2, ← e1', ← hv, ← e1]
      simp
  · cases e2

theorem fread_inv {n : Nat} {x y a : Bytes} (hx : fread n x = .ok (a, y)) :
    x = a ++ y ∧ a.length ≤ n := by
  unfold fread at hx
  rw [if_neg (by omega)] at hx
  injection hx with hx
  injection hx with h1 h2
  subst h1 h2
  simp

/-- The length field before the last eight bytes of a UUID. -/
def uuidLen : BO → Bytes
  | .little => [8, 0, 0, 0]
  | .big => [0, 0, 0, 8]

/-- The bytes `bs` are the tagged form of a UUID made of the parts `a`, `b`, `c`, `d`. -/
structure UuidForm (bo : BO) (bs a b c d : Bytes) : Prop where
  eq : bs = 72 :: (a ++ 70 :: (b ++ 70 :: (c ++ 65 :: (uuidLen bo ++ d))))
  la : a.length = 4
  lb : b.length = 2
  lc : c.length = 2
  ld : d.length = 8

theorem rUuid_form {bo : BO} {bs rest : Bytes} {u : UUID} (h : rUuid bo bs = .ok (u, rest)) :
    ∃ bs' a b c d, bs = bs' ++ rest ∧ UuidForm bo bs' a b c d ∧
      uuidOf bo (a ++ b ++ c ++ d) = some u := by
  unfold rUuid at h
  obtain ⟨_, x1, e1, h⟩ := Rd.bind_eq_ok h
  obtain ⟨d1, x2, e2, h⟩ := Rd.bind_eq_ok h
  obtain ⟨_, x3, e3, h⟩ := Rd.bind_eq_ok h
  obtain ⟨d2, x4, e4, h⟩ := Rd.bind_eq_ok h
  obtain ⟨_, x5, e5, h⟩ := Rd.bind_eq_ok h
  obtain ⟨d3, x6, e6, h⟩ := Rd.bind_eq_ok h
  obtain ⟨_, x7, e7, h⟩ := Rd.bind_eq_ok h
  obtain ⟨n, x8, e8, h⟩ := Rd.bind_eq_ok h
  obtain ⟨_, x9, e9, h⟩ := Rd.bind_eq_ok h
  obtain ⟨d4, x10, e10, hfin⟩ := Rd.bind_eq_ok h
  have t1 := rTag_inv e1
  have t3 := rTag_inv e3
  have t5 := rTag_inv e5
  have t7 := rTag_inv e7
  obtain ⟨f1, g1⟩ := fread_inv (n := 4) e2
  obtain ⟨f2, g2⟩ := fread_inv (n := 2) e4
  obtain ⟨f3, g3⟩ := fread_inv (n := 2) e6
  obtain ⟨f4, g4⟩ := fread_inv (n := 8) e10
  obtain ⟨l, hl, hw⟩ := C01_canonical e8
  rw [Rd.guard_apply] at e9
  by_cases hn : n = 8
  · rw [if_pos hn] at e9
    injection e9 with e9
    injection e9 with _ e9
    subst e9 hn
    cases hu : uuidOf bo (d1 ++ d2 ++ d3 ++ d4) with
    | none => rw [hu] at hfin; cases hfin
    | some w =>
      rw [hu] at hfin
      injection hfin with hfin
      injection hfin with q q'
      subst q q'
      have hlen : (d1 ++ d2 ++ d3 ++ d4).length = 16 := by
        by_contra hc
        cases bo
        · simp only [uuidOf, uuidOfBytesLE, if_neg hc] at hu; cases hu
        · simp only [uuidOf, uuidOfBytes, dif_neg hc] at hu; cases hu
      simp only [List.length_append] at hlen
      have hl8 : l = uuidLen bo := by
        cases bo <;> (injection hw with hw; injection hw with _ hw; exact hw.symm)
      refine ⟨_, d1, d2, d3, d4, ?_, ⟨rfl, by omega, by omega, by omega, by omega⟩, hu⟩
      rw [t1, f1, t3, f2, t5, f3, t7, hl, hl8, f4]
      simp
  · rw [if_neg hn] at e9; cases e9

/-- C04: whatever bytes are accepted as a UUID are exactly the bytes that writing this UUID produces: no
framing byte, no length and no data byte can be different. -/
theorem C04_uuid_framing {bo : BO} {bs rest : Bytes} {u : UUID} (h : rUuid bo bs = .ok (u, rest)) :
    ∃ bs', bs = bs' ++ rest ∧ wUuid bo u = .ok ((), bs') := by
  obtain ⟨x, a, b, c, d, h1, hf, hu⟩ := rUuid_form h
  obtain ⟨y, hw, hl, hr⟩ := C04_uuid (bo := bo) u
  have hy := hr []
  rw [List.append_nil] at hy
  obtain ⟨x', a', b', c', d', h1', hf', hu'⟩ := rUuid_form hy
  have hinj : a ++ b ++ c ++ d = a' ++ b' ++ c' ++ d' := by
    have l1 : (a ++ b ++ c ++ d).length = 16 := by simp [hf.la, hf.lb, hf.lc, hf.ld]
    have l2 : (a' ++ b' ++ c' ++ d').length = 16 := by simp [hf'.la, hf'.lb, hf'.lc, hf'.ld]
    rw [← hu'] at hu
    generalize a ++ b ++ c ++ d = p at *
    generalize a' ++ b' ++ c' ++ d' = q at *
    cases bo with
    | big =>
      simp only [uuidOf, uuidOfBytes, dif_pos l1, dif_pos l2] at hu
      injection hu with hu
      injection hu with hu
    | little =>
      have e1 : (swapUuid p).length = 16 := by simp [swapUuid, l1]
      have e2 : (swapUuid q).length = 16 := by simp [swapUuid, l2]
      simp only [uuidOf, uuidOfBytesLE, uuidOfBytes, if_pos l1, if_pos l2, dif_pos e1, dif_pos e2] at hu
      injection hu with hu
      injection hu with hu
      rw [← swapUuid_swap l1, hu, swapUuid_swap l2]
  have q1 := List.append_inj hinj (by simp [hf.la, hf.lb, hf.lc, hf'.la, hf'.lb, hf'.lc])
  have q2 := List.append_inj q1.1 (by simp [hf.la, hf.lb, hf'.la, hf'.lb])
  have q3 := List.append_inj q2.1 (by simp [hf.la, hf'.la])
  refine ⟨x, h1, ?_⟩
  rw [hw]
  congr 2
  rw [List.append_nil] at h1'
  rw [h1', hf.eq, hf'.eq, q3.1, q3.2, q2.2, q1.2]

example : ∃ bs, wUuid .little ⟨[1, 2, 3, 4, 5, 6, 7, 8, 9, 10, 11, 12, 13, 14, 15, 16], rfl⟩ = .ok ((), bs) ∧
    bs = [72, 4, 3, 2, 1, 70, 6, 5, 70, 8, 7, 65, 8, 0, 0, 0, 9, 10, 11, 12, 13, 14, 15, 16] :=
  ⟨_, rfl, by decide⟩

theorem rByte_inv {bs rest : Bytes} {b : UInt8} (h : rByte bs = .ok (b, rest)) : bs = b :: rest := by
  obtain ⟨v, mid, e1, e2⟩ := Rd.bind_eq_ok h
  obtain ⟨l, rfl, hw⟩ := C01_canonical e1
  obtain ⟨_, _, rfl⟩ := wU8_out hw
  cases e2
  rfl

theorem readN_byte_inv : ∀ {n : Nat} {bs rest l : Bytes}, readN n rByte bs = .ok (l, rest) →
    bs = l ++ rest ∧ l.length = n
  | 0, _, _, _, h => by cases h; exact ⟨rfl, rfl⟩
  | n + 1, _, _, _, h => by
    obtain ⟨b, m1, e1, h⟩ := Rd.bind_eq_ok h
    obtain ⟨l, m2, e2, h⟩ := Rd.bind_eq_ok h
    cases h
    obtain ⟨rfl, hl⟩ := readN_byte_inv e2
    exact ⟨by rw [rByte_inv e1]; rfl, by simp [hl]⟩

/-- C04: the bytes accepted as a mob id are exactly those that writing it produces. -/
theorem C04_mob_id_framing {bo : BO} {bs rest : Bytes} {m : MobID} (h : rMobId bo bs = .ok (m, rest)) :
    ∃ bs', bs = bs' ++ rest ∧ wMobId bo m = .ok ((), bs') := by
  unfold rMobId at h
  obtain ⟨_, x1, e1, h⟩ := Rd.bind_eq_ok h
  obtain ⟨n, x2, e2, h⟩ := Rd.bind_eq_ok h
  obtain ⟨_, x3, e3, h⟩ := Rd.bind_eq_ok h
  obtain ⟨lab, x4, e4, h⟩ := Rd.bind_eq_ok h
  obtain ⟨_, x5, e5, h⟩ := Rd.bind_eq_ok h
  obtain ⟨b1, x6, e6, h⟩ := Rd.bind_eq_ok h
  obtain ⟨_, x7, e7, h⟩ := Rd.bind_eq_ok h
  obtain ⟨b2, x8, e8, h⟩ := Rd.bind_eq_ok h
  obtain ⟨_, x9, e9, h⟩ := Rd.bind_eq_ok h
  obtain ⟨b3, x10, e10, h⟩ := Rd.bind_eq_ok h
  obtain ⟨_, x11, e11, h⟩ := Rd.bind_eq_ok h
  obtain ⟨b4, x12, e12, h⟩ := Rd.bind_eq_ok h
  obtain ⟨u, x13, e13, hfin⟩ := Rd.bind_eq_ok h
  obtain ⟨bu, hu, hwu⟩ := C04_uuid_framing e13
  obtain ⟨l, hl, hwl⟩ := C01_canonical e2
  obtain ⟨f4, g4⟩ := readN_byte_inv e4
  rw [Rd.guard_apply] at e3
  split at e3
  case isFalse => cases e3
  rename_i hn
  cases e3
  subst hn
  by_cases hlen : (lab ++ [b1, b2, b3, b4] ++ u.bytesLE).length = 32
  case neg =>
    have hmk : MobID.mk' lab b1 b2 b3 b4 u = none := dif_neg hlen
    rw [hmk] at hfin
    cases hfin
  have hmk : MobID.mk' lab b1 b2 b3 b4 u = some ⟨lab ++ [b1, b2, b3, b4] ++ u.bytesLE, hlen⟩ := dif_pos hlen
  rw [hmk] at hfin
  cases hfin
  have hb : ∀ b : UInt8, wU8 b.toNat = .ok ((), [b]) := by
    intro b
    have := wU8_ok (v := b.toNat) (by omega) (by have := b.toNat_lt; omega)
    rw [this, Int.toNat_natCast, UInt8.ofNat_toNat]
  have hf : ∀ l : Bytes, forW l (fun b => wU8 b.toNat) = .ok ((), l) := by
    intro l
    induction l with
    | nil => rfl
    | cons b l ih => exact Wr.bind_ok (hb b) ih
  have k1 : MobID.label ⟨lab ++ [b1, b2, b3, b4] ++ u.bytesLE, hlen⟩ = lab := by
    simp [MobID.label, g4]
  have k2 : MobID.byteAt ⟨lab ++ [b1, b2, b3, b4] ++ u.bytesLE, hlen⟩ 12 = b1 := by
    simp [MobID.byteAt, g4, List.getElem?_append]
  have k3 : MobID.byteAt ⟨lab ++ [b1, b2, b3, b4] ++ u.bytesLE, hlen⟩ 13 = b2 := by
    simp [MobID.byteAt, g4, List.getElem?_append]
  have k4 : MobID.byteAt ⟨lab ++ [b1, b2, b3, b4] ++ u.bytesLE, hlen⟩ 14 = b3 := by
    simp [MobID.byteAt, g4, List.getElem?_append]
  have k5 : MobID.byteAt ⟨lab ++ [b1, b2, b3, b4] ++ u.bytesLE, hlen⟩ 15 = b4 := by
    simp [MobID.byteAt, g4, List.getElem?_append]
  have k6 : MobID.material ⟨lab ++ [b1, b2, b3, b4] ++ u.bytesLE, hlen⟩ = u := by
    have : (lab ++ [b1, b2, b3, b4] ++ u.bytesLE).drop 16 = u.bytesLE := by
      rw [List.drop_append_of_le_length (by simp [g4])]
      simp [g4]
    have e : ∀ (p q : UUID), p.bytes = q.bytes → p = q := by rintro ⟨_, _⟩ ⟨_, _⟩ rfl; rfl
    apply e
    change swapUuid ((lab ++ [b1, b2, b3, b4] ++ u.bytesLE).drop 16) = u.bytes
    rw [this]
    exact swapUuid_swap u.len
  have t65 : wU8 65 = .ok ((), [65]) := rfl
  have t68 : wU8 68 = .ok ((), [68]) := rfl
  refine ⟨[65] ++ (l ++ (lab ++ ([68] ++ ([b1] ++ ([68] ++ ([b2] ++ ([68] ++ ([b3] ++ ([68] ++ ([b4] ++
    bu)))))))))), ?_, ?_⟩
  · rw [rTag_inv e1, hl, f4, rTag_inv e5, rByte_inv e6, rTag_inv e7, rByte_inv e8, rTag_inv e9,
      rByte_inv e10, rTag_inv e11, rByte_inv e12, hu]
    simp
  · unfold wMobId
    rw [k1, k2, k3, k4, k5, k6]
    exact Wr.bind_ok t65 (Wr.bind_ok hwl (Wr.bind_ok (hf lab) (Wr.bind_ok t68 (Wr.bind_ok (hb _)
      (Wr.bind_ok t68 (Wr.bind_ok (hb _) (Wr.bind_ok t68 (Wr.bind_ok (hb _) (Wr.bind_ok t68
        (Wr.bind_ok (hb _) hwu))))))))))

example (bo : BO) : ∃ bs, rMobId bo (bs ++ [7]) = .ok (MobID.zero, [7]) ∧ ∃ bs', bs ++ [7] = bs' ++ [7] ∧
    wMobId bo MobID.zero = .ok ((), bs') := by
  obtain ⟨bs, _, _, h⟩ := C04_mob_id (bo := bo) MobID.zero
  exact ⟨bs, h [7], C04_mob_id_framing (h [7])⟩

/-- C04: the bytes accepted as a rectangle are exactly those that writing it produces. -/
theorem C04_rect_framing {bo : BO} {bs rest : Bytes} {v : Rect} (h : rRect bo bs = .ok (v, rest)) :
    ∃ bs', bs = bs' ++ rest ∧ wRect bo v = .ok ((), bs') := by
  unfold rRect at h
  obtain ⟨n, x1, e1, h⟩ := Rd.bind_eq_ok h
  obtain ⟨_, x2, e2, h⟩ := Rd.bind_eq_ok h
  obtain ⟨a, x3, e3, h⟩ := Rd.bind_eq_ok h
  obtain ⟨b, x4, e4, h⟩ := Rd.bind_eq_ok h
  obtain ⟨c, x5, e5, h⟩ := Rd.bind_eq_ok h
  obtain ⟨d, x6, e6, h⟩ := Rd.bind_eq_ok h
  cases h
  rw [Rd.guard_apply] at e2
  split at e2
  case isFalse => cases e2
  rename_i hn
  cases e2
  subst hn
  obtain ⟨p1, q1, w1⟩ := C01_canonical e1
  obtain ⟨p3, q3, w3⟩ := C01_canonical e3
  obtain ⟨p4, q4, w4⟩ := C01_canonical e4
  obtain ⟨p5, q5, w5⟩ := C01_canonical e5
  obtain ⟨p6, q6, w6⟩ := C01_canonical e6
  refine ⟨p1 ++ (p3 ++ (p4 ++ (p5 ++ p6))), by rw [q1, q3, q4, q5, q6]; simp, ?_⟩
  exact Wr.bind_ok w1 (Wr.bind_ok w3 (Wr.bind_ok w4 (Wr.bind_ok w5 w6)))

/-- C04: the bytes accepted as a colour are exactly those that writing it produces. -/
theorem C04_colour_framing {bo : BO} {bs rest : Bytes} {v : RGB} (h : rRgb bo bs = .ok (v, rest)) :
    ∃ bs', bs = bs' ++ rest ∧ wRgb bo v = .ok ((), bs') := by
  unfold rRgb at h
  obtain ⟨n, x1, e1, h⟩ := Rd.bind_eq_ok h
  obtain ⟨_, x2, e2, h⟩ := Rd.bind_eq_ok h
  obtain ⟨a, x3, e3, h⟩ := Rd.bind_eq_ok h
  obtain ⟨b, x4, e4, h⟩ := Rd.bind_eq_ok h
  obtain ⟨c, x5, e5, h⟩ := Rd.bind_eq_ok h
  cases h
  rw [Rd.guard_apply] at e2
  split at e2
  case isFalse => cases e2
  rename_i hn
  cases e2
  subst hn
  obtain ⟨p1, q1, w1⟩ := C01_canonical e1
  obtain ⟨p3, q3, w3⟩ := C01_canonical e3
  obtain ⟨p4, q4, w4⟩ := C01_canonical e4
  obtain ⟨p5, q5, w5⟩ := C01_canonical e5
  refine ⟨p1 ++ (p3 ++ (p4 ++ p5)), by rw [q1, q3, q4, q5]; simp, ?_⟩
  exact Wr.bind_ok w1 (Wr.bind_ok w3 (Wr.bind_ok w4 w5))

/-- A colour, and the same bytes with a damaged version, which cannot be accepted as anything. -/
example : rRgb .big [0, 1, 0, 2, 1, 0, 0, 4] = .ok (⟨2, 256, 4⟩, []) ∧
    rRgb .big [0, 3, 0, 2, 1, 0, 0, 4] = .error .assertion := ⟨rfl, rfl⟩

example : rRect .little [1, 0, 255, 255, 2, 0, 3, 0, 4, 1] = .ok (⟨-1, 2, 3, 260⟩, []) := rfl

end Avb

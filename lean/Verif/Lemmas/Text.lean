import Verif.Model.Text
import Verif.Lemmas.Prim

/-
Text codec lemmas.
-/

namespace Avb

/-- Text without leading and trailing NUL characters: what survives in a text field. -/
def stripText (t : Text) : Text :=
  ((t.dropWhile (· == '\x00')).reverse.dropWhile (· == '\x00')).reverse

theorem forall_uint8 (p : UInt8 → Prop) [DecidablePred p]
    (h : ∀ n : Fin 256, p (UInt8.ofNat n.val)) (b : UInt8) : p b := by
  have := h ⟨b.toNat, b.toNat_lt⟩
  simpa using this

theorem macEncode_decodeByte (b : UInt8) : macEncodeChar (macDecodeByte b) = some b := by
  revert b
  apply forall_uint8
  decide +kernel

theorem macDecodeByte_eq_nul (b : UInt8) : (macDecodeByte b == '\x00') = (b == 0) := by
  revert b
  apply forall_uint8
  decide +kernel

theorem macHigh_length : macHigh.length = 128 := by decide +kernel

theorem macDecode_encodeChar {c : Char} {b : UInt8} (h : macEncodeChar c = some b) :
    macDecodeByte b = c := by
  unfold macEncodeChar at h
  split at h
  · rename_i hc
    injection h with h
    subst h
    have h1 : (UInt8.ofNat c.toNat).toNat = c.toNat := by
      simp; omega
    simp only [macDecodeByte, h1, hc, if_true]
    exact Char.ofNat_toNat c
  · rename_i hc
    cases hi : macHigh.idxOf? c.toNat with
    | none => simp [hi] at h
    | some i =>
      simp only [hi, Option.map_some, Option.some.injEq] at h
      subst h
      rw [List.idxOf?_eq_some_iff] at hi
      obtain ⟨hlt, hget, _⟩ := hi
      rw [macHigh_length] at hlt
      have h1 : (UInt8.ofNat (i + 128)).toNat = i + 128 := by
        simp; omega
      have h2 : ¬ (i + 128 < 128) := by omega
      simp only [macDecodeByte, h1, h2, if_false, Nat.add_sub_cancel]
      rw [List.getD_eq_getElem?_getD, List.getElem?_eq_getElem (by rw [macHigh_length]; exact hlt),
        Option.getD_some, hget]
      exact Char.ofNat_toNat c

theorem map_decode_of_macEncode {t : Text} {bs : Bytes} (h : macEncode t = some bs) :
    bs.map macDecodeByte = t := by
  induction t generalizing bs with
  | nil => simp [macEncode] at h; subst h; rfl
  | cons c cs ih =>
    simp only [macEncode] at h
    split at h
    · rename_i b bs' hb hbs
      injection h with h
      subst h
      simp [macDecode_encodeChar hb, ih hbs]
    · cases h

theorem macEncode_length {t : Text} {bs : Bytes} (h : macEncode t = some bs) :
    bs.length = t.length := by
  rw [← map_decode_of_macEncode h]; simp

theorem map_macDecode_strip (bs : Bytes) :
    (stripNul bs).map macDecodeByte = stripText (bs.map macDecodeByte) := by
  have hp : ((· == '\x00') ∘ macDecodeByte) = (fun b : UInt8 => b == 0) := by
    funext b; exact macDecodeByte_eq_nul b
  simp only [stripNul, stripText, List.dropWhile_map, hp, ← List.map_reverse]

/-! ### UTF-8 -/

theorem utf8_nul : String.utf8EncodeChar '\x00' = [0] := by decide

theorem utf8_head {c : Char} (h : c ≠ '\x00') :
    ∃ b tl, String.utf8EncodeChar c = b :: tl ∧ b ≠ 0 := by
  have hv : c.val.toNat ≠ 0 := by
    intro h0
    apply h
    apply Char.ext
    exact UInt32.toNat.inj h0
  have hm : ∀ n, n % 256 ≠ 0 → UInt8.ofNat n ≠ 0 := by
    intro n hn h0
    have := congrArg UInt8.toNat h0
    simp at this
    omega
  unfold String.utf8EncodeChar
  dsimp only
  split
  · exact ⟨_, _, rfl, hm _ (by omega)⟩
  · split
    · exact ⟨_, _, rfl, hm _ (by omega)⟩
    · split
      · exact ⟨_, _, rfl, hm _ (by omega)⟩
      · exact ⟨_, _, rfl, hm _ (by omega)⟩

theorem utf8_last {c : Char} (h : c ≠ '\x00') :
    ∃ b tl, (String.utf8EncodeChar c).reverse = b :: tl ∧ b ≠ 0 := by
  have hv : c.val.toNat ≠ 0 := by
    intro h0
    apply h
    apply Char.ext
    exact UInt32.toNat.inj h0
  have hm : ∀ n, n % 256 ≠ 0 → UInt8.ofNat n ≠ 0 := by
    intro n hn h0
    have := congrArg UInt8.toNat h0
    simp at this
    omega
  unfold String.utf8EncodeChar
  dsimp only
  split
  · exact ⟨_, _, rfl, hm _ (by omega)⟩
  · split
    · exact ⟨_, _, rfl, hm _ (by omega)⟩
    · split
      · exact ⟨_, _, rfl, hm _ (by omega)⟩
      · exact ⟨_, _, rfl, hm _ (by omega)⟩

theorem dropWhile_flatMap_nul (f : Char → Bytes) (h0 : f '\x00' = [0])
    (h1 : ∀ c, c ≠ '\x00' → ∃ b tl, f c = b :: tl ∧ b ≠ 0) (t : Text) :
    (t.flatMap f).dropWhile (· == 0) = (t.dropWhile (· == '\x00')).flatMap f := by
  induction t with
  | nil => rfl
  | cons c cs ih =>
    by_cases hc : c = '\x00'
    · subst hc
      simp [List.flatMap_cons, h0, ih]
    · obtain ⟨b, tl, hb, hb0⟩ := h1 c hc
      simp only [List.flatMap_cons, List.dropWhile_cons, hb, List.cons_append]
      have e1 : (b == 0) = false := by simpa using hb0
      have e2 : (c == '\x00') = false := by simpa using hc
      simp [e2, hb, hb0]

theorem strip_flatMap_utf8 (t : Text) :
    stripNul (t.flatMap String.utf8EncodeChar) = (stripText t).flatMap String.utf8EncodeChar := by
  unfold stripNul stripText
  rw [dropWhile_flatMap_nul _ utf8_nul (fun c h => utf8_head h)]
  rw [List.reverse_flatMap, dropWhile_flatMap_nul (List.reverse ∘ String.utf8EncodeChar) (by rfl)
    (fun c h => utf8_last h)]
  rw [List.reverse_flatMap]
  congr 1
  funext c
  simp

theorem decode_utf8 (t : Text) :
    decodeText .utf8 (t.flatMap String.utf8EncodeChar) = some t := by
  have := @List.utf8Decode?_utf8Encode t
  unfold List.utf8Encode at this
  simp [decodeText, this]

/-- The payload bytes a non-empty text occupies in a field. -/
def payload (e : Enc) (t : Text) : Option Bytes :=
  (encodeText e t).map fun d => if e = .utf8 then [0, 0] ++ d else d

/-- The one restriction on texts: the encoded payload is not exactly 65535 bytes long, the length
value `read_string` takes for an empty text (src/avb/ioctx.py:155-156). -/
def TextOK (e : Enc) (t : Text) : Prop := ∀ d, payload e t = some d → d.length ≠ 65535

theorem decode_strip_payload {e : Enc} {t : Text} {d : Bytes} (h : payload e t = some d) :
    decodeText e (stripNul d) = some (stripText t) := by
  cases e with
  | macroman =>
    simp only [payload, encodeText, Option.map_eq_some_iff] at h
    obtain ⟨bs, hbs, rfl⟩ := h
    simp only [decodeText, reduceCtorEq, if_false, map_macDecode_strip,
      map_decode_of_macEncode hbs]
  | utf8 =>
    simp only [payload, encodeText, Option.map_some, if_true, Option.some.injEq] at h
    subst h
    have : stripNul ([0, 0] ++ t.flatMap String.utf8EncodeChar)
        = stripNul (t.flatMap String.utf8EncodeChar) := by
      simp [stripNul]
    rw [this, strip_flatMap_utf8, decode_utf8]

/-- Texts without NUL characters are not changed. -/
theorem stripText_of_no_nul {t : Text} (h : ∀ c ∈ t, c ≠ '\x00') : stripText t = t := by
  have key : ∀ l : Text, (∀ c ∈ l, c ≠ '\x00') → l.dropWhile (· == '\x00') = l := by
    intro l hl
    cases l with
    | nil => rfl
    | cons a l =>
      rw [List.dropWhile_cons_of_neg]
      simpa using hl a List.mem_cons_self
  unfold stripText
  rw [key t h, key _ (by intro c hc; exact h c (List.mem_reverse.1 hc)), List.reverse_reverse]

end Avb

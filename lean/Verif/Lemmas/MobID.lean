import Verif.Model.MobID
import Verif.Props.Fields
import Mathlib.Tactic.IntervalCases
import Mathlib.Tactic.Linarith

/-
Lemmas about mob ids: integers, fields, hexadecimal texts.
-/

namespace Avb

/-! ### integers -/

theorem bigValue_cons (b : UInt8) (l : Bytes) : bigValue (b :: l) = b.toNat * 256 ^ l.length + bigValue l := by
  rw [bigValue_eq, bigValue_eq, List.reverse_cons, leVal_append]
  simp [leVal, Nat.add_comm, Nat.mul_comm]

theorem bigValue_snoc (l : Bytes) (b : UInt8) : bigValue (l ++ [b]) = bigValue l * 256 + b.toNat := by
  rw [bigValue_eq, bigValue_eq, List.reverse_append]
  simp [leVal, Nat.add_comm, Nat.mul_comm]

theorem bigValue_nil : bigValue [] = 0 := by rw [bigValue_eq]; rfl

theorem bigValue_lt (l : Bytes) : bigValue l < 256 ^ l.length := by
  rw [bigValue_eq]
  have := leVal_lt l.reverse
  simpa using this

theorem bigValue_inj {a b : Bytes} (hl : a.length = b.length) (h : bigValue a = bigValue b) : a = b := by
  rw [bigValue_eq, bigValue_eq] at h
  have h1 := leBytes_leVal a.reverse
  have h2 := leBytes_leVal b.reverse
  rw [List.length_reverse] at h1 h2
  rw [h, hl, h2] at h1
  exact (List.reverse_injective h1).symm

theorem intFromBytes_eq (l : Bytes) : intFromBytes l = bigValue l := by
  have key : ∀ (l : Bytes) (n k : Nat), n = k + l.length →
      ((l.zipIdx k).map fun p => p.1.toNat <<< ((n - 1 - p.2) * 8)).sum = bigValue l := by
    intro l
    induction l with
    | nil => intro n k _; simp [bigValue_nil]
    | cons b l ih =>
      intro n k h
      simp only [List.length_cons] at h
      rw [List.zipIdx_cons, List.map_cons, List.sum_cons, ih n (k + 1) (by omega), bigValue_cons]
      have h1 : n - 1 - k = l.length := by omega
      simp only [h1, Nat.shiftLeft_eq]
      rw [Nat.mul_comm l.length 8, Nat.pow_mul]
  exact key l _ 0 (by simp)

theorem bytesFromInt_succ (num : Int) (n : Nat) :
    bytesFromInt num (n + 1) = UInt8.ofNat (num / 2 ^ (n * 8) % 256).toNat :: bytesFromInt num n := by
  unfold bytesFromInt
  rw [List.range_succ_eq_map, List.map_cons, List.map_map]
  congr 1
  apply List.map_congr_left
  intro i _
  simp only [Function.comp]
  congr 6
  omega

theorem bytesFromInt_value (num : Int) (n : Nat) :
    ((bigValue (bytesFromInt num n) : Nat) : Int) = num % 256 ^ n := by
  induction n with
  | zero => simp [bytesFromInt, bigValue_nil, Int.emod_one]
  | succ n ih =>
    rw [bytesFromInt_succ, bigValue_cons, Nat.cast_add, ih]
    have hl : (bytesFromInt num n).length = n := by simp [bytesFromInt]
    rw [hl]
    have hp : (2 : Int) ^ (n * 8) = 256 ^ n := by
      rw [Nat.mul_comm, Int.pow_mul]; rfl
    rw [hp]
    have h0 : 0 ≤ num / 256 ^ n % 256 := Int.emod_nonneg _ (by decide)
    have h1 : num / 256 ^ n % 256 < 256 := Int.emod_lt_of_pos _ (by decide)
    have hb : (UInt8.ofNat (num / 256 ^ n % 256).toNat).toNat = (num / 256 ^ n % 256).toNat := by
      rw [UInt8.toNat_ofNat']
      omega
    rw [hb]
    push_cast
    rw [Int.toNat_of_nonneg h0, Int.pow_succ]
    have hpos : (0 : Int) < 256 ^ n := by positivity
    generalize (256 : Int) ^ n = M at *
    have e1 := Int.mul_ediv_add_emod num M
    have e2 := Int.mul_ediv_add_emod (num / M) 256
    have h2 := Int.emod_nonneg num hpos.ne'
    have h3 := Int.emod_lt_of_pos num hpos
    generalize num % M = r at *
    generalize num / M = q at *
    generalize q % 256 = r' at *
    generalize q / 256 = q' at *
    subst e2
    subst e1
    have : M * (256 * q' + r') + r = (r' * M + r) + (M * 256) * q' := by ring
    rw [this, Int.add_mul_emod_self_left, Int.emod_eq_of_lt]
    · positivity
    · nlinarith

theorem MobID.ext_bytes {a b : MobID} (h : a.bytes = b.bytes) : a = b := by
  obtain ⟨a, _⟩ := a
  obtain ⟨b, _⟩ := b
  cases h
  rfl

theorem MobID.int_eq (m : MobID) : m.int = bigValue m.bytes := intFromBytes_eq _

/-! ### fields -/

theorem MobID.byteAt_eq (m : MobID) {i : Nat} (h : i < 32) : m.byteAt i = m.bytes[i]'(by rw [m.len]; exact h) := by
  unfold MobID.byteAt
  rw [List.getD_eq_getElem?_getD, List.getElem?_eq_getElem (by rw [m.len]; exact h)]
  rfl

theorem MobID.ext_byteAt {a b : MobID} (h : ∀ i, i < 32 → a.byteAt i = b.byteAt i) : a = b := by
  apply MobID.ext_bytes
  apply List.ext_getElem (by rw [a.len, b.len])
  intro i h1 h2
  rw [a.len] at h1
  have := h i h1
  rwa [MobID.byteAt_eq _ h1, MobID.byteAt_eq _ h1] at this

theorem MobID.byteAt_put (m : MobID) (off : Nat) (v : Bytes) {i : Nat} (hi : i < 32) :
    (m.put off v).byteAt i = if off ≤ i ∧ i < off + v.length then v.getD (i - off) 0 else m.byteAt i := by
  rw [MobID.byteAt_eq _ hi]
  simp [MobID.put]

/-! ### hexadecimal texts -/

/-- The two digits of a byte. -/
def hexByte (b : UInt8) : Text := [hexChar (b.toNat / 16), hexChar (b.toNat % 16)]

theorem hexVal_hexChar : ∀ n < 16, hexVal (hexChar n) = some n := by decide

theorem hexChar_lower : ∀ n < 16, (hexChar n).toLower = hexChar n := by decide

theorem hexChar_plain : ∀ n < 16, isSpaceC (hexChar n) = false ∧ hexChar n ≠ '_' ∧ hexChar n ≠ '+' ∧
    hexChar n ≠ 'x' ∧ hexChar n ≠ 'X' ∧ hexChar n ≠ '.' ∧ hexChar n ≠ '-' ∧ hexChar n ≠ 'u' := by decide

theorem hexDigits_step {q r : Nat} (hq : 0 < q) (hr : r < 16) :
    hexDigits (q * 16 + r) = hexDigits q ++ [hexChar r] := by
  conv => lhs; unfold hexDigits
  rw [if_neg (by omega), show (q * 16 + r) / 16 = q by omega, show (q * 16 + r) % 16 = r by omega]

theorem fmtHex_step {w q r : Nat} (hw : 0 < w) (hr : r < 16) :
    fmtHex (w + 1) (q * 16 + r) = fmtHex w q ++ [hexChar r] := by
  rcases Nat.eq_zero_or_pos q with rfl | hq
  · have h1 : hexDigits (0 * 16 + r) = [hexChar r] := by
      unfold hexDigits; rw [if_pos (by omega)]; simp
    have h2 : hexDigits 0 = ['0'] := by unfold hexDigits; rfl
    obtain ⟨k, rfl⟩ : ∃ k, w = k + 1 := ⟨w - 1, by omega⟩
    unfold fmtHex
    rw [h1, h2]
    simp only [List.length_singleton, Nat.add_sub_cancel]
    rw [List.replicate_succ', List.append_assoc]
  · unfold fmtHex
    rw [hexDigits_step hq hr, List.length_append, List.length_singleton, ← List.append_assoc]
    congr 3
    omega

theorem fmtHex_one {q : Nat} (hq : q < 16) : fmtHex 1 q = [hexChar q] := by
  have h1 : hexDigits q = [hexChar q] := by
    unfold hexDigits; rw [if_pos (by omega)]
  unfold fmtHex
  rw [h1]
  rfl

theorem fmtHex_byte (b : UInt8) : fmtHex 2 b.toNat = hexByte b := by
  have h := b.toNat_lt
  conv => lhs; rw [show b.toNat = b.toNat / 16 * 16 + b.toNat % 16 by omega]
  rw [fmtHex_step (by decide) (by omega), fmtHex_one (by omega)]
  rfl

theorem fmtHex_snoc {w n : Nat} (b : UInt8) (hw : 0 < w) :
    fmtHex (w + 2) (n * 256 + b.toNat) = fmtHex w n ++ hexByte b := by
  rw [show n * 256 + b.toNat = (n * 16 + b.toNat / 16) * 16 + b.toNat % 16 by omega,
    fmtHex_step (by omega) (by omega), fmtHex_step hw (by have := b.toNat_lt; omega)]
  simp [hexByte]

/-- The value of hexadecimal digits. -/
def digitsValue (ds : List Nat) : Nat := ds.foldl (fun n d => n * 16 + d) 0

theorem hexRun_digits {ds : List Nat} (h : ∀ d ∈ ds, d < 16) (n : Nat) :
    hexRun n false (ds.map hexChar) = some (ds.foldl (fun n d => n * 16 + d) n) := by
  induction ds generalizing n with
  | nil => rfl
  | cons d ds ih =>
    have hd := h d (by simp)
    rw [List.map_cons, hexRun, if_neg (hexChar_plain d hd).2.1, hexVal_hexChar d hd]
    exact ih (fun e he => h e (by simp [he])) _

theorem hexNumber_digits {ds : List Nat} (h : ∀ d ∈ ds, d < 16) (hne : ds ≠ []) :
    hexNumber (ds.map hexChar) = some (digitsValue ds) := by
  cases ds with
  | nil => exact absurd rfl hne
  | cons d ds =>
    rw [List.map_cons, hexNumber, hexVal_hexChar d (h d (by simp))]
    have := hexRun_digits (ds := ds) (fun e he => h e (by simp [he])) d
    simp only [this]
    simp [digitsValue]

theorem hexLiteral_digits {ds : List Nat} (h : ∀ d ∈ ds, d < 16) (hne : ds ≠ []) :
    hexLiteral (ds.map hexChar) = some (digitsValue ds) := by
  rw [← hexNumber_digits h hne]
  have hx : ∀ c ∈ ds.map hexChar, c ≠ 'x' ∧ c ≠ 'X' := by
    intro c hc
    obtain ⟨d, hd, rfl⟩ := List.mem_map.1 hc
    exact ⟨(hexChar_plain d (h d hd)).2.2.2.1, (hexChar_plain d (h d hd)).2.2.2.2.1⟩
  generalize ds.map hexChar = s at hx
  unfold hexLiteral
  split <;> first
    | rfl
    | (exfalso; simp at hx)

theorem dropWhile_digits {ds : List Nat} (h : ∀ d ∈ ds, d < 16) :
    (ds.map hexChar).dropWhile isSpaceC = ds.map hexChar := by
  cases ds with
  | nil => rfl
  | cons d ds =>
    rw [List.map_cons, List.dropWhile_cons_of_neg]
    simp [(hexChar_plain d (h d (by simp))).1]

theorem pyIntHex_digits {ds : List Nat} (h : ∀ d ∈ ds, d < 16) (hne : ds ≠ []) :
    pyIntHex (ds.map hexChar) = .ok (digitsValue ds) := by
  unfold pyIntHex
  rw [dropWhile_digits h, ← List.map_reverse, dropWhile_digits (by simpa using h), ← List.map_reverse,
    List.reverse_reverse]
  have hl := hexLiteral_digits h hne
  have hx : ∀ c ∈ ds.map hexChar, c ≠ '+' := by
    intro c hc
    obtain ⟨d, hd, rfl⟩ := List.mem_map.1 hc
    exact (hexChar_plain d (h d hd)).2.2.1
  generalize ds.map hexChar = s at hx hl
  dsimp only
  split
  · rename_i heq
    split at heq
    · exact absurd rfl (hx '+' (by simp))
    · rw [hl] at heq; cases heq; rfl
  · rename_i heq
    split at heq
    · exact absurd rfl (hx '+' (by simp))
    · rw [hl] at heq; cases heq

/-- The digits of bytes. -/
def nibbles (p : Bytes) : List Nat := p.flatMap fun b => [b.toNat / 16, b.toNat % 16]

theorem nibbles_lt {p : Bytes} : ∀ d ∈ nibbles p, d < 16 := by
  intro d hd
  obtain ⟨b, _, hb⟩ := List.mem_flatMap.1 hd
  have := b.toNat_lt
  simp only [List.mem_cons, List.not_mem_nil, or_false] at hb
  rcases hb with rfl | rfl <;> omega

theorem nibbles_map (p : Bytes) : (nibbles p).map hexChar = p.flatMap hexByte := by
  simp only [nibbles, List.map_flatMap]
  rfl

theorem nibbles_value (p : Bytes) : digitsValue (nibbles p) = bigValue p := by
  have : ∀ n, (nibbles p).foldl (fun n d => n * 16 + d) n = p.foldl (fun n b => 256 * n + b.toNat) n := by
    induction p with
    | nil => intro n; rfl
    | cons b p ih =>
      intro n
      rw [nibbles, List.flatMap_cons, List.foldl_append]
      change List.foldl _ _ (nibbles p) = _
      rw [ih]
      simp only [List.foldl_cons, List.foldl_nil]
      congr 1
      omega
  exact this 0

theorem pyIntHex_bytes {p : Bytes} (h : p ≠ []) : pyIntHex (p.flatMap hexByte) = .ok (bigValue p) := by
  rw [← nibbles_map, pyIntHex_digits nibbles_lt, nibbles_value]
  cases p with
  | nil => exact absurd rfl h
  | cons b p => simp [nibbles]

theorem hexByte_drop (p : Bytes) (k : Nat) : (p.flatMap hexByte).drop (2 * k) = (p.drop k).flatMap hexByte := by
  induction k generalizing p with
  | zero => rfl
  | succ k ih =>
    cases p with
    | nil => simp
    | cons b p =>
      rw [List.flatMap_cons, List.drop_succ_cons, ← ih p]
      rfl

theorem hexByte_take (p : Bytes) (k : Nat) : (p.flatMap hexByte).take (2 * k) = (p.take k).flatMap hexByte := by
  induction k generalizing p with
  | zero => simp
  | succ k ih =>
    cases p with
    | nil => simp
    | cons b p =>
      rw [List.flatMap_cons, List.take_succ_cons, List.flatMap_cons, ← ih p]
      rfl

theorem sliceT_bytes (p : Bytes) (a b : Nat) :
    sliceT (p.flatMap hexByte) (2 * a) (2 * b) = ((p.drop a).take (b - a)).flatMap hexByte := by
  unfold sliceT
  rw [hexByte_drop, ← hexByte_take, Nat.mul_sub]

theorem pyIntHex_slice {p : Bytes} {a b a' b' : Nat} (hab : a < b) (ha : a < p.length)
    (ea : a' = 2 * a) (eb : b' = 2 * b) :
    pyIntHex (sliceT (p.flatMap hexByte) a' b') = .ok (bigValue ((p.drop a).take (b - a))) := by
  subst ea eb
  rw [sliceT_bytes, pyIntHex_bytes]
  intro h
  have := congrArg List.length h
  simp only [List.length_take, List.length_drop, List.length_nil] at this
  omega

theorem hexPairs_bytes {p : Bytes} {a n : Nat} (h : a + n ≤ p.length) :
    MobID.hexPairs (p.flatMap hexByte) (2 * a) n = .ok (((p.drop a).take n).map UInt8.toNat) := by
  induction n generalizing a with
  | zero => simp [MobID.hexPairs]
  | succ n ih =>
    rw [MobID.hexPairs, pyIntHex_slice (a := a) (b := a + 1) (by omega) (by omega) rfl (by omega),
      show 2 * a + 2 = 2 * (a + 1) by omega, ih (by omega)]
    have : p.drop a = p[a]'(by omega) :: p.drop (a + 1) := List.drop_eq_getElem_cons (by omega)
    have h1 : bigValue ((p.drop a).take (a + 1 - a)) = (p[a]'(by omega)).toNat := by
      rw [this, show a + 1 - a = 1 by omega]
      show bigValue [p[a]'(by omega)] = _
      rw [bigValue_cons, bigValue_nil]
      simp
    rw [h1, this]
    rfl

/-! ### removing separators -/

theorem removeAll_single (c : Char) (s : Text) : removeAll [c] s = s.filter (· != c) := by
  induction s with
  | nil => simp [removeAll]
  | cons d s ih =>
    unfold removeAll
    by_cases h : d = c
    · subst h
      rw [if_pos (by simp)]
      simpa using ih
    · rw [if_neg (by simp [Ne.symm h]), ih]
      simp [h]

theorem removeAll_absent {pat s : Text} {c : Char} (hc : c ∈ pat) (h : c ∉ s) : removeAll pat s = s := by
  induction s with
  | nil => simp [removeAll]
  | cons d s ih =>
    unfold removeAll
    rw [if_neg, ih (fun hh => h (by simp [hh]))]
    rintro ⟨hp, _⟩
    exact h ((List.isPrefixOf_iff_prefix.1 hp).subset hc)

theorem removeAll_prefix {pat s : Text} (h : pat ≠ []) : removeAll pat (pat ++ s) = removeAll pat s := by
  cases pat with
  | nil => exact absurd rfl h
  | cons c pat =>
    rw [List.cons_append]
    conv => lhs; unfold removeAll
    rw [if_pos ⟨by rw [List.isPrefixOf_iff_prefix]; exact List.prefix_append (c :: pat) s, h⟩]
    congr 1
    rw [← List.cons_append, List.drop_left]

end Avb

import Verif.Spec.Doubles
import Mathlib.Tactic.Linarith
import Mathlib.Tactic.NormNum
import Mathlib.Tactic.Positivity
import Mathlib.Tactic.FieldSimp
import Mathlib.Algebra.Order.Field.Basic
import Mathlib.Data.Rat.Cast.Order

/-
The double nearest to an integer.
-/

namespace Avb

open F64

theorem units_eq {e m : Nat} (hm : m < 2 ^ 52) :
    units (e * 2 ^ 52 + m) = if e = 0 then m else (2 ^ 52 + m) * 2 ^ (e - 1) := by
  have h1 : (e * 2 ^ 52 + m) / 2 ^ 52 = e := by omega
  have h2 : (e * 2 ^ 52 + m) % 2 ^ 52 = m := by omega
  unfold units
  rw [h1, h2]
  split
  · next h => subst h; omega
  · rfl

/-- A significand of 53 bits, the last step included. -/
theorem units_sig {e q : Nat} (h1 : 2 ^ 52 ≤ q) (h2 : q ≤ 2 ^ 53) : units (e * 2 ^ 52 + q) = q * 2 ^ e := by
  by_cases h : q = 2 ^ 53
  · subst h
    have : e * 2 ^ 52 + 2 ^ 53 = (e + 2) * 2 ^ 52 + 0 := by omega
    rw [this, units_eq (by omega), if_neg (by omega), show e + 2 - 1 = e + 1 by omega, Nat.pow_succ]
    omega
  · have : e * 2 ^ 52 + q = (e + 1) * 2 ^ 52 + (q - 2 ^ 52) := by omega
    rw [this, units_eq (by omega), if_neg (by omega), show e + 1 - 1 = e by omega]
    rw [Nat.add_sub_of_le h1]

theorem units_lt_succ (b : Nat) : units b < units (b + 1) := by
  have hb : b = b / 2 ^ 52 * 2 ^ 52 + b % 2 ^ 52 := by omega
  have hm : b % 2 ^ 52 < 2 ^ 52 := by omega
  generalize b / 2 ^ 52 = e at hb
  generalize b % 2 ^ 52 = m at hb hm
  subst hb
  rw [units_eq hm]
  cases e with
  | zero =>
    rw [if_pos rfl]
    by_cases h : m + 1 = 2 ^ 52
    · have : 0 * 2 ^ 52 + m + 1 = 0 * 2 ^ 52 + 2 ^ 52 := by omega
      rw [this, units_sig le_rfl (by omega)]
      omega
    · rw [Nat.add_assoc, units_eq (by omega), if_pos rfl]
      omega
  | succ e =>
    rw [if_neg (by omega), show e + 1 - 1 = e by omega,
      show (e + 1) * 2 ^ 52 + m + 1 = e * 2 ^ 52 + (2 ^ 52 + m + 1) by omega,
      units_sig (by omega) (by omega)]
    exact Nat.mul_lt_mul_of_pos_right (by omega) (by positivity)

theorem units_mono : StrictMono units := strictMono_nat_of_lt_succ units_lt_succ

/-- What `roundBits` gives: the significand below the number, or the next one, by the remainder. -/
theorem roundBits_cases {n : Nat} (hn : n ≠ 0) : ∃ e q s r, 2 ^ 52 ≤ q ∧ q < 2 ^ 53 ∧
    n * 2 ^ 1074 = q * 2 ^ e + r ∧ r < 2 ^ e ∧ e * 2 ^ 52 + q = s ∧
    ((roundBits n = s ∧ 2 * r ≤ 2 ^ e ∧ (2 * r = 2 ^ e → s % 2 = 0)) ∨
     (roundBits n = s + 1 ∧ 2 ^ e ≤ 2 * r ∧ (2 * r = 2 ^ e → s % 2 = 1))) := by
  have h1 := Nat.log2_self_le hn
  have h2 := Nat.lt_log2_self (n := n)
  unfold roundBits
  rw [if_neg hn]
  generalize n.log2 = k at h1 h2
  by_cases hk : k ≤ 52
  · rw [if_pos hk]
    refine ⟨k + 1022, n * 2 ^ (52 - k), _, 0, ?_, ?_, ?_, by positivity, rfl, .inl ⟨rfl, Nat.zero_le _, fun h => ?_⟩⟩
    · calc 2 ^ 52 = 2 ^ k * 2 ^ (52 - k) := by rw [← Nat.pow_add]; congr 1; omega
        _ ≤ _ := Nat.mul_le_mul_right _ h1
    · calc n * 2 ^ (52 - k) < 2 ^ (k + 1) * 2 ^ (52 - k) := Nat.mul_lt_mul_of_pos_right h2 (by positivity)
        _ = 2 ^ 53 := by rw [← Nat.pow_add]; congr 1; omega
    · rw [Nat.mul_assoc, ← Nat.pow_add, Nat.add_zero, show 52 - k + (k + 1022) = 1074 by omega]
    · have : 0 < 2 ^ (k + 1022) := by positivity
      omega
  · rw [if_neg hk]
    obtain ⟨s, rfl⟩ : ∃ s, k = s + 52 := ⟨k - 52, by omega⟩
    simp only [Nat.add_sub_cancel]
    have hp : 0 < 2 ^ s := by positivity
    have hq1 : 2 ^ 52 ≤ n / 2 ^ s := by
      rw [Nat.le_div_iff_mul_le hp, ← Nat.pow_add, Nat.add_comm]; exact h1
    have hq2 : n / 2 ^ s < 2 ^ 53 := by
      rw [Nat.div_lt_iff_lt_mul hp, ← Nat.pow_add, show 53 + s = s + 52 + 1 by omega]; exact h2
    have hr : n % 2 ^ s < 2 ^ s := Nat.mod_lt _ hp
    have hn' : n = n / 2 ^ s * 2 ^ s + n % 2 ^ s := by rw [Nat.div_add_mod' n (2 ^ s)]
    have he : s + 52 + 1022 = s + 1074 := by omega
    have hP : 2 ^ (s + 1074) = 2 ^ s * 2 ^ 1074 := by rw [Nat.pow_add]
    have hpos : 0 < 2 ^ 1074 := by positivity
    rw [he]
    generalize hq : n / 2 ^ s = q at hq1 hq2 hn' ⊢
    generalize hrr : n % 2 ^ s = r at hr hn' ⊢
    generalize 2 ^ 1074 = u at hP hpos ⊢
    refine ⟨s + 1074, q, _, r * u, hq1, hq2, ?_, ?_, rfl, ?_⟩
    · rw [hP]; nth_rw 1 [hn']; ring
    · rw [hP]; exact Nat.mul_lt_mul_of_pos_right hr hpos
    · have c1 : 2 * (r * u) = 2 * r * u := by ring
      rw [c1, hP]
      split
      · next h =>
        refine .inr ⟨(Nat.add_assoc ..).symm, Nat.mul_le_mul_right _ (by omega), fun h3 => ?_⟩
        have := Nat.eq_of_mul_eq_mul_right hpos h3
        omega
      · next h =>
        refine .inl ⟨rfl, Nat.mul_le_mul_right _ (by omega), fun h3 => ?_⟩
        have := Nat.eq_of_mul_eq_mul_right hpos h3
        omega

/-- No magnitude is nearer, and of two equally near ones the even one is taken. -/
theorem roundBits_near (n b : Nat) :
    |((units (roundBits n) : Nat) : ℤ) - (n * 2 ^ 1074 : Nat)| ≤ |((units b : Nat) : ℤ) - (n * 2 ^ 1074 : Nat)| ∧
    (|((units (roundBits n) : Nat) : ℤ) - (n * 2 ^ 1074 : Nat)| = |((units b : Nat) : ℤ) - (n * 2 ^ 1074 : Nat)| →
      units b = units (roundBits n) ∨ roundBits n % 2 = 0) := by
  by_cases hn : n = 0
  · subst hn
    have : roundBits 0 = 0 := rfl
    rw [this, Nat.zero_mul]
    have : units 0 = 0 := rfl
    rw [this]
    refine ⟨by simp, fun _ => .inr rfl⟩
  · obtain ⟨e, q, s, r, h1, h2, h3, h4, h5, h6⟩ := roundBits_cases hn
    rw [h3]
    have hs : units s = q * 2 ^ e := by rw [← h5]; exact units_sig h1 (by omega)
    have hs1 : units (s + 1) = q * 2 ^ e + 2 ^ e := by
      rw [← h5, Nat.add_assoc, units_sig (by omega) (by omega)]; ring
    have hb : units b ≤ q * 2 ^ e ∨ q * 2 ^ e + 2 ^ e ≤ units b := by
      by_cases h : b ≤ s
      · exact .inl (hs ▸ units_mono.monotone h)
      · exact .inr (hs1 ▸ units_mono.monotone (by omega))
    generalize hL : q * 2 ^ e = L at *
    generalize hP : 2 ^ e = P at *
    generalize units b = u at *
    rcases h6 with ⟨h6, h7, h8⟩ | ⟨h6, h7, h8⟩
    · rw [h6, hs]
      clear h1 h2 h3 h5 hs hs1 h6 hL hP
      rcases abs_cases ((L : ℤ) - (L + r : Nat)) with ⟨e1, _⟩ | ⟨e1, _⟩ <;>
        rcases abs_cases ((u : ℤ) - (L + r : Nat)) with ⟨e2, _⟩ | ⟨e2, _⟩ <;> rw [e1, e2] <;>
        push_cast at * <;> constructor <;> omega
    · rw [h6, hs1]
      clear h1 h2 h3 h5 hs hs1 h6 hL hP
      rcases abs_cases (((L + P : Nat) : ℤ) - (L + r : Nat)) with ⟨e1, _⟩ | ⟨e1, _⟩ <;>
        rcases abs_cases ((u : ℤ) - (L + r : Nat)) with ⟨e2, _⟩ | ⟨e2, _⟩ <;> rw [e1, e2] <;>
        push_cast at * <;> constructor <;> omega

/-- The sign of an integer as a factor. -/
def sgn (v : ℤ) : ℚ := if v < 0 then -1 else 1

theorem sgn_mul (v : ℤ) : (v : ℚ) = sgn v * (v.natAbs : ℚ) := by
  have h1 : (v.natAbs : ℚ) = ((|v| : ℤ) : ℚ) := Nat.cast_natAbs v
  rw [h1]
  unfold sgn
  split
  · rw [abs_of_neg (by omega)]; push_cast; ring
  · rw [abs_of_nonneg (by omega)]; ring

theorem ofInt_value {v : ℤ} {d : F64} (h : F64.ofInt v = some d) :
    d.value = some (sgn v * (units (roundBits v.natAbs) : ℚ) / 2 ^ 1074) ∧
    d.bits.toNat % 2 = roundBits v.natAbs % 2 := by
  unfold F64.ofInt at h
  split at h
  · next hb =>
    injection h with h
    subst h
    generalize roundBits v.natAbs = b at hb
    have hd : (UInt64.ofNat (b + if v < 0 then 2 ^ 63 else 0)).toNat = b + if v < 0 then 2 ^ 63 else 0 := by
      rw [UInt64.toNat_ofNat']
      refine Nat.mod_eq_of_lt ?_
      split <;> omega
    unfold F64.value
    dsimp only
    rw [hd]
    have h1 : (b + if v < 0 then 2 ^ 63 else 0) % 2 ^ 63 = b := by split <;> omega
    have h2 : (b + if v < 0 then 2 ^ 63 else 0) / 2 ^ 63 = if v < 0 then 1 else 0 := by split <;> omega
    rw [h1, h2, if_neg (by omega)]
    refine ⟨?_, by split <;> omega⟩
    unfold sgn
    by_cases hv : v < 0 <;> simp [hv]
  · cases h

/-- Which integers are too large: those not nearer to the largest double than to the next power of two. -/
theorem roundBits_large (n : Nat) : 2047 * 2 ^ 52 ≤ roundBits n ↔ 2 ^ 1024 - 2 ^ 970 ≤ n := by
  have hT : (2 ^ 1024 - 2 ^ 970) * 2 ^ 1074 = (2 ^ 53 - 1) * 2 ^ 2045 + 2 ^ 2044 := by
    have e1 : 2 ^ 1024 = 2 ^ 54 * 2 ^ 970 := by rw [← Nat.pow_add]
    have e2 : 2 ^ 2044 = 2 ^ 970 * 2 ^ 1074 := by rw [← Nat.pow_add]
    have e3 : 2 ^ 2045 = 2 * (2 ^ 970 * 2 ^ 1074) := by rw [← Nat.pow_add, ← Nat.pow_succ']
    rw [e1, e2, e3, Nat.sub_mul]
    generalize 2 ^ 970 = a
    generalize 2 ^ 1074 = b
    rw [Nat.mul_assoc]
    generalize a * b = c
    omega
  have h0 : 0 < 2 ^ 1074 := by positivity
  have hiff : 2 ^ 1024 - 2 ^ 970 ≤ n ↔ (2 ^ 53 - 1) * 2 ^ 2045 + 2 ^ 2044 ≤ n * 2 ^ 1074 := by
    rw [← hT]; exact (Nat.mul_le_mul_right_iff h0).symm
  rw [hiff]
  clear hT hiff
  have h45 : 2 ^ 2045 = 2 * 2 ^ 2044 := by rw [← Nat.pow_succ']
  by_cases hn : n = 0
  · subst hn
    have : roundBits 0 = 0 := rfl
    have hp : 0 < 2 ^ 2044 := by positivity
    rw [this, Nat.zero_mul]
    generalize 2 ^ 2044 = a at *
    generalize 2 ^ 2045 = c at *
    omega
  · obtain ⟨e, q, s, r, h1, h2, h3, h4, h5, h6⟩ := roundBits_cases hn
    rw [h3]
    clear h3 h0 hn
    rcases Nat.lt_trichotomy e 2045 with he | he | he
    · have hp : 2 ^ (e + 1) ≤ 2 ^ 2045 := Nat.pow_le_pow_right (by omega) (by omega)
      rw [Nat.pow_succ] at hp
      have hq : q * 2 ^ e ≤ (2 ^ 53 - 1) * 2 ^ e := Nat.mul_le_mul_right _ (by omega)
      have hp' : 2 ^ e ≤ 2 ^ 2044 := by omega
      have : (2 ^ 53 - 1) * 2 ^ e ≤ (2 ^ 53 - 1) * 2 ^ 2045 := Nat.mul_le_mul_left _ (by omega)
      constructor
      · intro h; omega
      · intro h; omega
    · subst he
      by_cases hq : q = 2 ^ 53 - 1
      · subst hq
        rw [h45] at h4 h6 ⊢
        generalize 2 ^ 2044 = a at *
        constructor
        · intro h; omega
        · intro h; omega
      · have hq : (q + 1) * 2 ^ 2045 ≤ (2 ^ 53 - 1) * 2 ^ 2045 := Nat.mul_le_mul_right _ (by omega)
        rw [Nat.add_mul, Nat.one_mul] at hq
        generalize q * 2 ^ 2045 = b at *
        generalize 2 ^ 2045 = c at *
        generalize 2 ^ 2044 = a at *
        constructor
        · intro h; omega
        · intro h; omega
    · have hp : 2 ^ 2046 ≤ 2 ^ e := Nat.pow_le_pow_right (by omega) (by omega)
      have h46 : 2 ^ 2046 = 2 * 2 ^ 2045 := by rw [← Nat.pow_succ']
      have hq : 2 ^ 52 * 2 ^ 2046 ≤ q * 2 ^ e := Nat.mul_le_mul h1 hp
      constructor
      · intro h
        clear h6 h h4
        omega
      · intro h
        omega

end Avb

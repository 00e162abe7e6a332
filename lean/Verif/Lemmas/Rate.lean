import Verif.Lemmas.RT
import Mathlib.Data.Rat.Floor
import Mathlib.Algebra.Order.Field.Power
import Mathlib.Tactic.Linarith
import Mathlib.Tactic.NormNum
import Mathlib.Tactic.Ring
import Mathlib.Tactic.FieldSimp
import Mathlib.Tactic.Positivity

/-
Error bounds of double precision rounding and of the scaling loop.
-/

namespace Avb

theorem pow2_eq (e : Int) : pow2 e = (2 : ℚ) ^ e := by
  cases e with
  | ofNat n => simp [pow2]
  | negSucc n => simp [pow2, zpow_negSucc]

theorem ilog2_le {x : ℚ} (hx : 0 < x) : pow2 (ilog2 x) ≤ x := by
  unfold ilog2
  dsimp only
  split
  · assumption
  · rw [pow2_eq]
    have hnum : 0 < x.num := Rat.num_pos.2 hx
    have h1 : 2 ^ Nat.log2 x.num.toNat ≤ x.num.toNat := Nat.log2_self_le (by omega)
    have h2 : x.den < 2 ^ (Nat.log2 x.den + 1) := Nat.lt_log2_self
    have e1 : ((2 : ℚ) ^ (Nat.log2 x.num.toNat)) ≤ (x.num : ℚ) := by
      have : ((2 ^ Nat.log2 x.num.toNat : Nat) : ℚ) ≤ ((x.num.toNat : Nat) : ℚ) := by exact_mod_cast h1
      have h3 : ((x.num.toNat : Nat) : ℚ) = (x.num : ℚ) := by
        have : ((x.num.toNat : Nat) : Int) = x.num := Int.toNat_of_nonneg hnum.le
        exact_mod_cast this
      rw [h3] at this
      exact_mod_cast this
    have e2 : (x.den : ℚ) ≤ (2 : ℚ) ^ (Nat.log2 x.den + 1) := by exact_mod_cast h2.le
    have hd : (0 : ℚ) < x.den := by exact_mod_cast x.den_pos
    have hx2 : x * x.den = x.num := Rat.mul_den_eq_num x
    generalize Nat.log2 x.num.toNat = a at *
    generalize Nat.log2 x.den = b at *
    refine le_of_mul_le_mul_right ?_ hd
    rw [hx2]
    generalize x.num = N at *
    generalize (x.den : ℚ) = D at *
    calc (2 : ℚ) ^ ((a : ℤ) - b - 1) * D ≤ (2 : ℚ) ^ ((a : ℤ) - b - 1) * 2 ^ (b + 1) := by
          apply mul_le_mul_of_nonneg_left e2; positivity
      _ = (2 : ℚ) ^ a := by
          rw [← zpow_natCast, ← zpow_natCast, ← zpow_add₀ (by norm_num)]
          congr 1
          push_cast
          ring
      _ ≤ N := e1

theorem floor_eq (y : ℚ) : y.floor = ⌊y⌋ := rfl

theorem roundEven_abs (y : ℚ) : |(roundEven y : ℚ) - y| ≤ 1 / 2 := by
  have h1 : (y.floor : ℚ) ≤ y := Int.floor_le y
  have h2 : y < (y.floor : ℚ) + 1 := Int.lt_floor_add_one y
  unfold roundEven
  dsimp only
  generalize y.floor = f at *
  by_cases c1 : y - f < 1 / 2
  · rw [if_pos c1, abs_le]; constructor <;> linarith
  · rw [if_neg c1]
    by_cases c2 : 1 / 2 < y - f
    · rw [if_pos c2]; push_cast; rw [abs_le]; constructor <;> linarith
    · rw [if_neg c2]
      by_cases c3 : f % 2 = 0
      · rw [if_pos c3, abs_le]; constructor <;> linarith
      · rw [if_neg c3]; push_cast; rw [abs_le]; constructor <;> linarith

theorem roundEven_int (n : Int) : roundEven (n : ℚ) = n := by
  unfold roundEven
  simp [floor_eq]

/-- The size of half a unit in the last place, relative. -/
def eps : ℚ := 1 / 2 ^ 53
/-- Half the smallest double. -/
@[irreducible] def tau : ℚ := (1 / 2) ^ 1075

theorem tau_double : (2 : ℚ) ^ (-1074 : ℤ) = 2 * tau := by
  have h : ∀ n : Nat, (2 : ℚ) ^ (-(n : ℤ)) = 2 * (1 / 2) ^ (n + 1) := by
    intro n
    rw [zpow_neg, zpow_natCast, pow_succ, one_div, inv_pow]
    ring
  have := h 1074
  unfold tau
  exact this

theorem eps_pos : 0 < eps := by unfold eps; norm_num
theorem tau_pos : 0 < tau := by
  unfold tau
  exact pow_pos (by norm_num) _
theorem tau_le : tau ≤ eps / 10 ^ 100 := by
  have h : (1 / 2 : ℚ) ^ 1075 = (1 / 2) ^ 53 * ((1 / 2) ^ 622 * ((1 / 2) ^ 4) ^ 100) := by
    rw [← pow_mul, ← pow_add, ← pow_add]
  have h1 : ((1 / 2 : ℚ) ^ 4) ^ 100 ≤ (1 / 10) ^ 100 := by
    apply pow_le_pow_left₀ (by norm_num); norm_num
  have h2 : (1 / 2 : ℚ) ^ 622 ≤ 1 := pow_le_one₀ (by norm_num) (by norm_num)
  have h3 : (1 / 2 : ℚ) ^ 622 * ((1 / 2) ^ 4) ^ 100 ≤ 1 * (1 / 10) ^ 100 :=
    mul_le_mul h2 h1 (by positivity) (by norm_num)
  unfold tau
  rw [h]
  have e1 : eps / 10 ^ 100 = (1 / 2) ^ 53 * (1 * (1 / 10) ^ 100) := by
    unfold eps
    rw [one_mul, one_div_pow, one_div_pow]
    ring
  rw [e1]
  exact mul_le_mul_of_nonneg_left h3 (by positivity)

theorem rnd_pos_err {a : ℚ} (ha : 0 < a) :
    |(roundEven (a / pow2 (max (ilog2 a - 52) (-1074))) : ℚ) * pow2 (max (ilog2 a - 52) (-1074)) - a| ≤
      a * eps + tau := by
  set u := pow2 (max (ilog2 a - 52) (-1074)) with hu
  have hupos : 0 < u := by rw [hu, pow2_eq]; positivity
  have h := roundEven_abs (a / u)
  have e : (roundEven (a / u) : ℚ) * u - a = ((roundEven (a / u) : ℚ) - a / u) * u := by
    field_simp
  rw [e, abs_mul, abs_of_pos hupos]
  have hub : u ≤ a / 2 ^ 52 + 2 * tau := by
    have hl := ilog2_le ha
    rcases le_total (-1074) (ilog2 a - 52) with hc | hc
    · rw [hu, max_eq_left hc, pow2_eq, zpow_sub₀ (by norm_num)]
      rw [pow2_eq] at hl
      have : (2 : ℚ) ^ ilog2 a / 2 ^ (52 : ℤ) ≤ a / 2 ^ 52 := by
        have : (2 : ℚ) ^ (52 : ℤ) = 2 ^ 52 := by norm_cast
        rw [this]
        exact div_le_div_of_nonneg_right hl (by positivity)
      have := tau_pos
      linarith
    · rw [hu, max_eq_right hc, pow2_eq]
      rw [tau_double]
      have : 0 ≤ a / 2 ^ 52 := by positivity
      linarith
  calc |(roundEven (a / u) : ℚ) - a / u| * u ≤ 1 / 2 * u := mul_le_mul_of_nonneg_right h hupos.le
    _ ≤ a * eps + tau := by unfold eps; linarith

/-- Rounding to the nearest double changes a number by at most one part in `2 ^ 53`, or half the
smallest double. -/
theorem rnd_err (x : ℚ) : |rnd x - x| ≤ |x| * eps + tau := by
  unfold rnd
  split
  · rename_i h
    subst h
    simpa using tau_pos.le
  · rename_i h
    dsimp only
    by_cases hx : x < 0
    · rw [if_pos hx, if_pos hx, abs_of_neg hx]
      have := rnd_pos_err (a := -x) (by linarith)
      rw [← abs_neg]
      convert this using 2
      ring
    · rw [if_neg hx, if_neg hx, abs_of_nonneg (a := x) (by linarith)]
      exact rnd_pos_err (lt_of_le_of_ne (by linarith) (Ne.symm h))

theorem truncRat_int (n : Int) : truncRat (n : ℚ) = n := by
  unfold truncRat
  simp only [floor_eq]
  split
  · rw [← Int.cast_neg, Int.floor_intCast]; simp
  · simp

theorem truncRat_err (q : ℚ) : |(truncRat q : ℚ) - q| ≤ 1 := by
  unfold truncRat
  simp only [floor_eq]
  split
  · have h1 := Int.floor_le (-q)
    have h2 := Int.lt_floor_add_one (-q)
    push_cast
    rw [abs_le]; constructor <;> linarith
  · have h1 := Int.floor_le q
    have h2 := Int.lt_floor_add_one q
    rw [abs_le]; constructor <;> linarith

theorem absRat_eq (q : ℚ) : absRat q = |q| := by
  unfold absRat
  split
  · rw [abs_of_neg (by assumption)]
  · rw [abs_of_nonneg (by linarith)]

/-- What the scaling loop does: it multiplies by ten a few times, with a relative error of at most
`(2 ^ j - 1)` roundings, and stops for one of three reasons. -/
theorem rateLoop_err (n : Nat) : ∀ v : ℚ, ∃ j : Nat, j ≤ n ∧ (rateLoop v n).2 = (n : Int) - 6 - j ∧
    |(rateLoop v n).1 - v * 10 ^ j| ≤ 10 ^ j * ((2 ^ j - 1) * (eps * |v| + tau)) ∧
    (j = n ∨ (truncRat (rateLoop v n).1 : ℚ) = (rateLoop v n).1 ∨
      2147483647 ≤ |rnd ((rateLoop v n).1 * 10)|) := by
  induction n with
  | zero =>
    intro v
    exact ⟨0, le_refl _, by simp [rateLoop], by simp [rateLoop], Or.inl rfl⟩
  | succ n ih =>
    intro v
    by_cases h1 : (truncRat v : ℚ) = v
    · have e : rateLoop v (n + 1) = (v, (n : Int) - 5) := by simp only [rateLoop, if_pos h1]
      rw [e]
      exact ⟨0, by omega, by push_cast; ring, by simp, Or.inr (Or.inl h1)⟩
    · by_cases h2 : (0x7FFFFFFF : ℚ) ≤ absRat (rnd (v * 10))
      · have e : rateLoop v (n + 1) = (v, (n : Int) - 5) := by
          simp only [rateLoop, if_neg h1, if_pos h2]
        rw [e]
        refine ⟨0, by omega, by push_cast; ring, by simp, Or.inr (Or.inr ?_)⟩
        rw [absRat_eq] at h2
        norm_num at h2 ⊢
        exact h2
      · have e : rateLoop v (n + 1) = rateLoop (rnd (v * 10)) n := by
          simp only [rateLoop, if_neg h1, if_neg h2]
        rw [e]
        obtain ⟨j, hj, he, hb, hs⟩ := ih (rnd (v * 10))
        refine ⟨j + 1, by omega, by rw [he]; push_cast; ring, ?_, ?_⟩
        · have hr := rnd_err (v * 10)
          rw [abs_mul, abs_of_pos (by norm_num : (0 : ℚ) < 10)] at hr
          generalize rnd (v * 10) = v' at *
          generalize (rateLoop v' n).1 = w at *
          have hv : |v'| ≤ 10 * |v| + (10 * |v| * eps + tau) := by
            have : |v'| ≤ |v' - v * 10| + |v * 10| := by
              have := abs_add_le (v' - v * 10) (v * 10)
              simpa using this
            rw [abs_mul, abs_of_pos (by norm_num : (0 : ℚ) < 10)] at this
            linarith
          have hK : (1 : ℚ) ≤ 2 ^ j := one_le_pow₀ (by norm_num)
          have hT : (0 : ℚ) < 10 ^ j := by positivity
          have h3 : |w - v * 10 ^ (j + 1)| ≤ |w - v' * 10 ^ j| + |v' - v * 10| * 10 ^ j := by
            have := abs_add_le (w - v' * 10 ^ j) ((v' - v * 10) * 10 ^ j)
            rw [abs_mul, abs_of_pos hT] at this
            have e2 : w - v * 10 ^ (j + 1) = w - v' * 10 ^ j + (v' - v * 10) * 10 ^ j := by ring
            rw [e2]; exact this
          have h4 : |v' - v * 10| * 10 ^ j ≤ (|v| * 10 * eps + tau) * 10 ^ j :=
            mul_le_mul_of_nonneg_right hr hT.le
          have hE := eps_pos
          have hτ := tau_pos
          have hE1 : eps ≤ 1 := by unfold eps; norm_num
          have hv0 := abs_nonneg v
          have h5 : eps * |v'| + tau ≤ 20 * (eps * |v|) + 2 * tau := by
            have : eps * |v'| ≤ eps * (10 * |v| + (10 * |v| * eps + tau)) :=
              mul_le_mul_of_nonneg_left hv hE.le
            have a1 : eps * (10 * |v| * eps) ≤ 10 * (eps * |v|) := by
              have : eps * |v| * eps ≤ eps * |v| * 1 :=
                mul_le_mul_of_nonneg_left hE1 (by positivity)
              linarith
            have a2 : eps * tau ≤ 1 * tau := mul_le_mul_of_nonneg_right hE1 hτ.le
            linarith
          have h6 : 10 ^ j * ((2 ^ j - 1) * (eps * |v'| + tau)) ≤
              10 ^ j * ((2 ^ j - 1) * (20 * (eps * |v|) + 2 * tau)) := by
            apply mul_le_mul_of_nonneg_left _ hT.le
            apply mul_le_mul_of_nonneg_left h5
            linarith
          have h7 : 10 ^ j * ((2 ^ j - 1) * (20 * (eps * |v|) + 2 * tau)) +
              (|v| * 10 * eps + tau) * 10 ^ j ≤
              10 ^ (j + 1) * ((2 ^ (j + 1) - 1) * (eps * |v| + tau)) := by
            have p1 : 0 ≤ 10 ^ j * tau := mul_nonneg hT.le hτ.le
            have p2 : 0 ≤ 10 ^ j * (2 ^ j - 1) * tau := by
              apply mul_nonneg _ hτ.le
              apply mul_nonneg hT.le; linarith
            have e3 : 10 ^ (j + 1) * ((2 ^ (j + 1) - 1) * (eps * |v| + tau)) =
              10 ^ j * ((2 ^ j - 1) * (20 * (eps * |v|))) + (|v| * 10 * eps) * 10 ^ j +
              20 * (10 ^ j * (2 ^ j - 1) * tau) + 10 * (10 ^ j * tau) := by ring
            have e4 : 10 ^ j * ((2 ^ j - 1) * (20 * (eps * |v|) + 2 * tau)) =
              10 ^ j * ((2 ^ j - 1) * (20 * (eps * |v|))) + 2 * (10 ^ j * (2 ^ j - 1) * tau) := by ring
            rw [e3, e4]
            linarith
          linarith
        · rcases hs with hs | hs
          · left; omega
          · right; exact hs

theorem rnd_small_int {m : Int} (h : |m| < 2 ^ 53) : rnd (m : ℚ) = m := by
  by_cases h0 : m = 0
  · subst h0; simp [rnd]
  · have key : ∀ a : Int, 0 < a → a < 2 ^ 53 →
        (roundEven ((a : ℚ) / pow2 (max (ilog2 a - 52) (-1074))) : ℚ) *
          pow2 (max (ilog2 a - 52) (-1074)) = a := by
      intro a ha hb
      have hl : pow2 (ilog2 (a : ℚ)) ≤ a := ilog2_le (by exact_mod_cast ha)
      have h1 : ilog2 (a : ℚ) ≤ 52 := by
        by_contra hc
        have : (2 : ℚ) ^ (53 : ℤ) ≤ 2 ^ (ilog2 (a : ℚ)) := zpow_le_zpow_right₀ (by norm_num) (by omega)
        rw [pow2_eq] at hl
        have h2 : (2 : ℚ) ^ (53 : ℤ) = ((2 ^ 53 : Int) : ℚ) := by norm_cast
        have h3 : ((2 ^ 53 : Int) : ℚ) ≤ (a : ℚ) := by rw [← h2]; linarith
        have h4 : (2 ^ 53 : Int) ≤ a := by exact_mod_cast h3
        omega
      generalize hE : max (ilog2 (a : ℚ) - 52) (-1074) = E
      have hE0 : E ≤ 0 := by omega
      obtain ⟨k, rfl⟩ : ∃ k : Nat, E = -(k : Int) := ⟨(-E).toNat, by omega⟩
      have e1 : (a : ℚ) / pow2 (-(k : Int)) = ((a * 2 ^ k : Int) : ℚ) := by
        rw [pow2_eq, zpow_neg, div_inv_eq_mul]
        push_cast
        norm_cast
      rw [e1, roundEven_int, ← e1, pow2_eq]
      field_simp
    unfold rnd
    rw [if_neg (by exact_mod_cast h0)]
    dsimp only
    by_cases hm : (m : ℚ) < 0
    · rw [if_pos hm, if_pos hm]
      have hm' : m < 0 := by exact_mod_cast hm
      have := key (-m) (by omega) (by rw [abs_lt] at h; omega)
      push_cast at this
      rw [this]; ring
    · rw [if_neg hm, if_neg hm]
      have hm' : ¬ m < 0 := by exact_mod_cast hm
      exact key m (by omega) (by rw [abs_lt] at h; omega)

end Avb

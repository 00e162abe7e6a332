import Verif.Model.Keyframes

/-
The root finding of src/avb/interpolation.py in exact arithmetic: the list returned consists of exactly
the roots in the accepted range.
-/

namespace Avb.Curve

open Avb

/-- `l` lists exactly the zeros of `f` between `-epsilon` and `1 + epsilon`. -/
def RootsOf (f : ℝ → ℝ) (l : List ℝ) : Prop :=
  ∀ r, r ∈ l ↔ (-epsilon ≤ r ∧ r ≤ 1 + epsilon) ∧ f r = 0

theorem mem_keep {l : List ℝ} {x r : ℝ} :
    r ∈ keep id l x ↔ r ∈ l ∨ (r = x ∧ -epsilon ≤ r ∧ r ≤ 1 + epsilon) := by
  unfold keep
  split
  · rename_i h
    simp only [List.mem_append, List.mem_singleton]
    constructor
    · rintro (h' | rfl)
      · exact Or.inl h'
      · exact Or.inr ⟨rfl, h.1, h.2⟩
    · rintro (h' | ⟨rfl, _⟩)
      · exact Or.inl h'
      · exact Or.inr rfl
  · rename_i h
    constructor
    · exact Or.inl
    · rintro (h' | ⟨rfl, h1, h2⟩)
      · exact h'
      · exact absurd ⟨h1, h2⟩ h

theorem fdiv_id {a b : ℝ} (h : b ≠ 0) : fdiv id a b = .ok (a / b) := by simp [fdiv, h]

theorem ok_bind {α β : Type} (x : α) (f : α → Except Err β) : (Except.ok x >>= f) = f x := rfl

theorem epsilon_pos : 0 < epsilon := by unfold epsilon; positivity

theorem ne_of_abs {x : ℝ} (h : ¬ |x| < epsilon) : x ≠ 0 := by
  rintro rfl
  exact h (by simpa using epsilon_pos)

theorem cubeRoot_pow (x : ℝ) : cubeRoot id x ^ 3 = x := by
  unfold cubeRoot
  split
  · rename_i h
    simp only [id]
    have : (|x| ^ ((1 : ℝ) / 3)) ^ 3 = |x| := by
      rw [← Real.rpow_natCast, ← Real.rpow_mul (abs_nonneg x)]
      norm_num
    rw [mul_pow, this, abs_of_neg h]; ring
  · rename_i h
    simp only [id]
    rw [← Real.rpow_natCast, ← Real.rpow_mul (not_lt.1 h)]
    norm_num

theorem cube_inj {x y : ℝ} (h : x ^ 3 = y ^ 3) : x = y := by
  have : Odd 3 := by decide
  exact this.strictMono_pow.injective h

theorem linearRoots_spec {b c : ℝ} (hb : ¬ |b| < epsilon) :
    ∃ l, linearRoots id b c = .ok l ∧ RootsOf (fun r => b * r + c) l := by
  have h0 := ne_of_abs hb
  refine ⟨_, by rw [linearRoots, if_neg hb, fdiv_id h0, ok_bind]; rfl, fun r => ?_⟩
  rw [mem_keep]
  simp only [List.not_mem_nil, false_or]
  constructor
  · rintro ⟨rfl, h1⟩
    exact ⟨h1, by field_simp; ring⟩
  · rintro ⟨h1, h2⟩
    exact ⟨by field_simp; linarith, h1⟩

theorem quadraticRoots_spec {a b c : ℝ} (ha : ¬ |a| < epsilon) (hd : 0 ≤ b * b - 4 * a * c) :
    ∃ l, quadraticRoots id a b c = .ok l ∧ RootsOf (fun r => a * r ^ 2 + b * r + c) l := by
  have h0 := ne_of_abs ha
  have hs : fsqrt id (b * b - 4 * a * c) = .ok (Real.sqrt (b * b - 4 * a * c)) := by
    simp [fsqrt, not_lt.2 hd]
  refine ⟨_, by
    unfold quadraticRoots
    simp only [id] at hs ⊢
    rw [hs, ok_bind, show fdiv _ _ (2 * a) = _ from fdiv_id (by simpa using h0), ok_bind,
      show fdiv _ _ (2 * a) = _ from fdiv_id (by simpa using h0), ok_bind]; rfl, fun r => ?_⟩
  rw [mem_keep, mem_keep]
  have hq := Real.mul_self_sqrt hd
  set q := Real.sqrt (b * b - 4 * a * c)
  have hf : a * r ^ 2 + b * r + c = a * (r - (q - b) / (2 * a)) * (r - (-b - q) / (2 * a)) := by
    field_simp
    nlinarith [hq]
  simp only [List.not_mem_nil, false_or, hf, mul_eq_zero, h0, sub_eq_zero]
  tauto

/-- The cubic with the coefficients 1, a, b, c in terms of the depressed one. -/
theorem depressed (a b c r : ℝ) :
    r ^ 3 + a * r ^ 2 + b * r + c =
      (r + a / 3) ^ 3 + ((3 * b - a * a) / 3) * (r + a / 3) + (2 * a * a * a - 9 * a * b + 27 * c) / 27 := by
  ring

theorem threeRoots_spec {a p q : ℝ} (hd : (q / 2) * (q / 2) + (p / 3) * (p / 3) * (p / 3) < 0) :
    ∃ l, threeRoots id a p q = .ok l ∧ RootsOf (fun r => (r + a / 3) ^ 3 + p * (r + a / 3) + q) l := by
  have hp : p < 0 := by
    by_contra h
    have h' := not_lt.1 h
    have : 0 ≤ (p / 3) * (p / 3) * (p / 3) := by positivity
    nlinarith [mul_self_nonneg (q / 2)]
  set m := -p / 3 with hm
  have hm0 : 0 < m := by rw [hm]; linarith
  have hmmm : 0 < m * m * m := by positivity
  set r := Real.sqrt (m * m * m) with hr
  have hr0 : 0 < r := Real.sqrt_pos.2 hmmm
  have hrr : r * r = m * m * m := Real.mul_self_sqrt hmmm.le
  have hqr : q ^ 2 < (2 * r) ^ 2 := by
    have : p / 3 = -m := by rw [hm]; ring
    rw [this] at hd
    nlinarith
  have habs := abs_lt_of_sq_lt_sq hqr (by positivity)
  have ht1 : -1 ≤ -q / (2 * r) := by rw [le_div_iff₀ (by positivity)]; linarith [(abs_lt.1 habs).2]
  have ht2 : -q / (2 * r) ≤ 1 := by rw [div_le_iff₀ (by positivity)]; linarith [(abs_lt.1 habs).1]
  set t := -q / (2 * r) with ht
  have hclamp : max (-1) (min 1 t) = t := by rw [min_eq_right ht2, max_eq_right ht1]
  have hs : fsqrt id (m * m * m) = .ok r := by simp [fsqrt, not_lt.2 hmmm.le, hr]
  set k := cubeRoot id r with hk
  have hk3 : k ^ 3 = r := cubeRoot_pow r
  have hkk : k * k = m := by
    apply cube_inj
    calc (k * k) ^ 3 = (k ^ 3) * (k ^ 3) := by ring
      _ = m ^ 3 := by rw [hk3, hrr]; ring
  set θ := Real.arccos t / 3 with hθ
  have hcos3 : Real.cos (3 * θ) = t := by
    rw [hθ, show 3 * (Real.arccos t / 3) = Real.arccos t by ring, Real.cos_arccos ht1 ht2]
  refine ⟨keep id (keep id (keep id [] (2 * k * Real.cos θ - a / 3))
      (2 * k * Real.cos ((Real.arccos t + 2 * Real.pi) / 3) - a / 3))
      (2 * k * Real.cos ((Real.arccos t + 4 * Real.pi) / 3) - a / 3), ?_, fun x => ?_⟩
  · have h3 : (3 : ℝ) ≠ 0 := by norm_num
    unfold threeRoots
    simp only [fdiv_id h3, ok_bind]
    simp only [id] at hs ⊢
    rw [← hm, hs]
    simp only [ok_bind]
    rw [show fdiv _ (-q) (2 * r) = _ from fdiv_id (by positivity)]
    simp only [ok_bind]
    rw [← ht, hclamp, ← hk]
    rfl
  · have e2 : Real.cos ((Real.arccos t + 2 * Real.pi) / 3) = - (1 / 2) * Real.cos θ - Real.sqrt 3 / 2 * Real.sin θ := by
      rw [show (Real.arccos t + 2 * Real.pi) / 3 = θ + (Real.pi - Real.pi / 3) by rw [hθ]; ring, Real.cos_add,
        Real.cos_pi_sub, Real.sin_pi_sub, Real.cos_pi_div_three, Real.sin_pi_div_three]
      ring
    have e3 : Real.cos ((Real.arccos t + 4 * Real.pi) / 3) = - (1 / 2) * Real.cos θ + Real.sqrt 3 / 2 * Real.sin θ := by
      rw [show (Real.arccos t + 4 * Real.pi) / 3 = θ + (Real.pi / 3 + Real.pi) by rw [hθ]; ring, Real.cos_add,
        Real.cos_add_pi, Real.sin_add_pi, Real.cos_pi_div_three, Real.sin_pi_div_three]
      ring
    rw [mem_keep, mem_keep, mem_keep, e2, e3]
    have h33 : Real.sqrt 3 * Real.sqrt 3 = 3 := Real.mul_self_sqrt (by norm_num)
    have hsc := Real.sin_sq_add_cos_sq θ
    rw [Real.cos_three_mul] at hcos3
    set C := Real.cos θ
    set S := Real.sin θ
    set w := Real.sqrt 3
    have hpk : p = -3 * (k * k) := by rw [hkk, hm]; ring
    have hqk : q = -2 * k ^ 3 * (4 * C ^ 3 - 3 * C) := by
      rw [hcos3, ht, hk3]; field_simp
    have hf : (x + a / 3) ^ 3 + p * (x + a / 3) + q =
        (x - (2 * k * C - a / 3)) * (x - (2 * k * (- (1 / 2) * C - w / 2 * S) - a / 3)) *
          (x - (2 * k * (- (1 / 2) * C + w / 2 * S) - a / 3)) := by
      rw [hpk, hqk]
      have hS : S ^ 2 = 1 - C ^ 2 := by linarith
      have hw : w ^ 2 = 3 := by rw [sq]; exact h33
      generalize hX : x + a / 3 = X
      have hx : x = X - a / 3 := by rw [← hX]; ring
      rw [hx]
      have : (X - a / 3 - (2 * k * C - a / 3)) * (X - a / 3 - (2 * k * (-(1 / 2) * C - w / 2 * S) - a / 3)) *
          (X - a / 3 - (2 * k * (-(1 / 2) * C + w / 2 * S) - a / 3)) =
          (X - 2 * k * C) * ((X + k * C) ^ 2 - k ^ 2 * w ^ 2 * S ^ 2) := by ring
      rw [this, hw, hS]
      ring
    simp only [List.not_mem_nil, false_or, hf, mul_eq_zero, sub_eq_zero]
    tauto

theorem twoRoots_spec {a p q : ℝ} (hd : (q / 2) * (q / 2) + (p / 3) * (p / 3) * (p / 3) = 0) :
    ∃ l, twoRoots id a (q / 2) = .ok l ∧ RootsOf (fun r => (r + a / 3) ^ 3 + p * (r + a / 3) + q) l := by
  set u := if q / 2 < 0 then cubeRoot id (-(q / 2)) else -cubeRoot id (q / 2) with hu
  have hu3 : u ^ 3 = -(q / 2) := by
    rw [hu]
    split
    · exact cubeRoot_pow _
    · rw [neg_pow, cubeRoot_pow]; ring
  have hp : p = -3 * u ^ 2 := by
    have : p / 3 = -u ^ 2 := by
      apply cube_inj
      have : (-u ^ 2) ^ 3 = - (u ^ 3) ^ 2 := by ring
      rw [this, hu3]
      linarith
    linarith
  refine ⟨keep id (keep id [] (2 * u - a / 3)) (-u - a / 3), ?_, fun x => ?_⟩
  · have h3 : (3 : ℝ) ≠ 0 := by norm_num
    unfold twoRoots
    simp only [fdiv_id h3, ok_bind]
    rfl
  · rw [mem_keep, mem_keep]
    have hf : (x + a / 3) ^ 3 + p * (x + a / 3) + q = (x - (2 * u - a / 3)) * ((x - (-u - a / 3)) * (x - (-u - a / 3))) := by
      have : q = -2 * u ^ 3 := by rw [hu3]; ring
      rw [hp, this]; ring
    simp only [List.not_mem_nil, false_or, hf, mul_eq_zero, sub_eq_zero]
    tauto

theorem oneRoot_spec {a p q : ℝ} (hd : 0 < (q / 2) * (q / 2) + (p / 3) * (p / 3) * (p / 3)) :
    ∃ l, oneRoot id a (q / 2) ((q / 2) * (q / 2) + (p / 3) * (p / 3) * (p / 3)) = .ok l ∧
      RootsOf (fun r => (r + a / 3) ^ 3 + p * (r + a / 3) + q) l := by
  set D := (q / 2) * (q / 2) + (p / 3) * (p / 3) * (p / 3) with hD
  set sd := Real.sqrt D with hsd
  have hs : fsqrt id D = .ok sd := by simp [fsqrt, not_lt.2 hd.le, hsd]
  have hs2 : sd * sd = D := Real.mul_self_sqrt hd.le
  have hs0 : 0 < sd := Real.sqrt_pos.2 hd
  set u := cubeRoot id (sd - q / 2) with hu
  set v := cubeRoot id (sd + q / 2) with hv
  have hu3 : u ^ 3 = sd - q / 2 := cubeRoot_pow _
  have hv3 : v ^ 3 = sd + q / 2 := cubeRoot_pow _
  have huv : u * v = p / 3 := by
    apply cube_inj
    rw [mul_pow, hu3, hv3]
    have : (sd - q / 2) * (sd + q / 2) = sd * sd - (q / 2) * (q / 2) := by ring
    rw [this, hs2, hD]; ring
  refine ⟨keep id [] (u - v - a / 3), ?_, fun x => ?_⟩
  · have h3 : (3 : ℝ) ≠ 0 := by norm_num
    unfold oneRoot
    simp only [hs, fdiv_id h3, ok_bind]
    rfl
  · rw [mem_keep]
    have hp : p = 3 * (u * v) := by rw [huv]; ring
    have hq : q = v ^ 3 - u ^ 3 := by rw [hu3, hv3]; ring
    have hf : (x + a / 3) ^ 3 + p * (x + a / 3) + q = (x - (u - v - a / 3)) *
        ((x + a / 3 + (u - v) / 2) ^ 2 + 3 / 4 * (u + v) ^ 2) := by
      rw [hp, hq]; ring
    have huv0 : u + v ≠ 0 := by
      intro h
      have : u = -v := by linarith
      rw [this] at hu3
      have : -(v ^ 3) = sd - q / 2 := by rw [← hu3]; ring
      linarith
    have hpos : (x + a / 3 + (u - v) / 2) ^ 2 + 3 / 4 * (u + v) ^ 2 ≠ 0 := by positivity
    simp only [List.not_mem_nil, false_or, hf, mul_eq_zero, sub_eq_zero, hpos, or_false]
    tauto

theorem cubicRoots_spec (a b c : ℝ) :
    ∃ l, cubicRoots id a b c = .ok l ∧ RootsOf (fun r => r ^ 3 + a * r ^ 2 + b * r + c) l := by
  have h3 : (3 : ℝ) ≠ 0 := by norm_num
  have h27 : (27 : ℝ) ≠ 0 := by norm_num
  have h2 : (2 : ℝ) ≠ 0 := by norm_num
  have hfun : (fun r => r ^ 3 + a * r ^ 2 + b * r + c) = fun r =>
      (r + a / 3) ^ 3 + ((3 * b - a * a) / 3) * (r + a / 3) + (2 * a * a * a - 9 * a * b + 27 * c) / 27 := by
    funext r; exact depressed a b c r
  rw [hfun]
  unfold cubicRoots
  simp only [fdiv_id h3, fdiv_id h27, fdiv_id h2, ok_bind]
  simp only [id]
  set p := (3 * b - a * a) / 3
  set q := (2 * a * a * a - 9 * a * b + 27 * c) / 27
  split
  · rename_i h; exact threeRoots_spec h
  · rename_i h
    split
    · rename_i h'; exact twoRoots_spec h'
    · rename_i h'
      exact oneRoot_spec (lt_of_le_of_ne (not_lt.1 h) (Ne.symm h'))

end Avb.Curve

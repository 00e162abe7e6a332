import Verif.Props.Keyframes

/-
C26: curved interpolation, in exact arithmetic.
-/

namespace Avb.Curve

open Avb

/-- The cubic Bezier polynomial. -/
def bez (p0 p1 p2 p3 s : ℝ) : ℝ :=
  (1 - s) ^ 3 * p0 + 3 * (1 - s) ^ 2 * s * p1 + 3 * (1 - s) * s ^ 2 * p2 + s ^ 3 * p3

/-- The coefficients of the polynomial in powers are zero or not too small for the root finding, where the
next lower case is used: cubic, quadratic, linear. -/
def Regular (p0 p1 p2 p3 : ℝ) : Prop :=
  1 / 10 ^ 10 ≤ |p3 - p0 + 3 * (p1 - p2)| ∨
    (p3 - p0 + 3 * (p1 - p2) = 0 ∧ (1 / 10 ^ 10 ≤ |3 * (p0 - 2 * p1 + p2)| ∨
      (p0 - 2 * p1 + p2 = 0 ∧ 1 / 10 ^ 10 ≤ |p3 - p0|)))

/-- `q` is the handle `p` of a curve from `a` to `b`, brought between the ends: cut off along its
direction from `a` when it passes `b`, moved straight when it lies before `a`. -/
def Handle (a b p q : ℝ × ℝ) : Prop :=
  (a.1 ≤ p.1 → p.1 ≤ b.1 → q = p) ∧
  (b.1 < p.1 → q.1 = b.1 ∧ (q.2 - a.2) * (p.1 - a.1) = (p.2 - a.2) * (b.1 - a.1)) ∧
  (p.1 < a.1 → q = (a.1, p.2))

/-- The same from the other end. -/
def Handle' (a b p q : ℝ × ℝ) : Prop :=
  (a.1 ≤ p.1 → p.1 ≤ b.1 → q = p) ∧
  (p.1 < a.1 → q.1 = a.1 ∧ (q.2 - b.2) * (p.1 - b.1) = (p.2 - b.2) * (a.1 - b.1)) ∧
  (b.1 < p.1 → q = (b.1, p.2))

theorem cubicBezier_id (p0 p1 p2 p3 s : ℝ) : cubicBezier id p0 p1 p2 p3 s = bez p0 p1 p2 p3 s := by
  simp only [cubicBezier, id, bez]
  ring

theorem bez_continuous (p0 p1 p2 p3 : ℝ) : Continuous (bez p0 p1 p2 p3) := by
  unfold bez
  fun_prop

theorem bez_reaches {p0 p1 p2 p3 x : ℝ} (h0 : p0 ≤ x) (h1 : x ≤ p3) :
    ∃ s, 0 ≤ s ∧ s ≤ 1 ∧ bez p0 p1 p2 p3 s = x := by
  have := intermediate_value_Icc (f := bez p0 p1 p2 p3) (a := 0) (b := 1) zero_le_one
    (bez_continuous p0 p1 p2 p3).continuousOn
  obtain ⟨s, hs, h⟩ := this ⟨show bez p0 p1 p2 p3 0 ≤ x by simpa [bez] using h0,
    show x ≤ bez p0 p1 p2 p3 1 by simpa [bez] using h1⟩
  exact ⟨s, hs.1, hs.2, h⟩

theorem roots_spec {p0 p1 p2 p3 x : ℝ} (hr : Regular p0 p1 p2 p3) (h0 : p0 ≤ x) (h1 : x ≤ p3) :
    ∃ l, bezierCubicRoots id (p0 - x) (p1 - x) (p2 - x) (p3 - x) = .ok l ∧
      RootsOf (fun s => bez p0 p1 p2 p3 s - x) l := by
  obtain ⟨s, hs0, hs1, hs⟩ := bez_reaches (p1 := p1) (p2 := p2) h0 h1
  unfold bezierCubicRoots
  simp only [id]
  have ea : 3 * (p0 - x) - 6 * (p1 - x) + 3 * (p2 - x) = 3 * (p0 - 2 * p1 + p2) := by ring
  have eb : -3 * (p0 - x) + 3 * (p1 - x) = 3 * (p1 - p0) := by ring
  have ed : -(p0 - x) + 3 * (p1 - x) - 3 * (p2 - x) + (p3 - x) = p3 - p0 + 3 * (p1 - p2) := by ring
  rw [ea, eb, ed]
  have hpoly : ∀ s, bez p0 p1 p2 p3 s - x = (p3 - p0 + 3 * (p1 - p2)) * s ^ 3 + (3 * (p0 - 2 * p1 + p2)) * s ^ 2 +
      (3 * (p1 - p0)) * s + (p0 - x) := by intro s; unfold bez; ring
  unfold Regular at hr
  rw [← show epsilon = 1 / 10 ^ 10 from rfl] at hr
  rcases hr with h | ⟨h, h'⟩
  · rw [if_neg (not_lt.2 h)]
    have hd : p3 - p0 + 3 * (p1 - p2) ≠ 0 := ne_of_abs (not_lt.2 h)
    set d := p3 - p0 + 3 * (p1 - p2)
    have hdiv : ∀ y, fdiv id y d = .ok (y / d) := fun y => fdiv_id hd
    simp only [hdiv, ok_bind]
    obtain ⟨l, hl, hl'⟩ := cubicRoots_spec (3 * (p0 - 2 * p1 + p2) / d) (3 * (p1 - p0) / d) ((p0 - x) / d)
    refine ⟨l, hl, fun r => ?_⟩
    rw [hl' r]
    beta_reduce
    rw [hpoly r]
    have : d * r ^ 3 + 3 * (p0 - 2 * p1 + p2) * r ^ 2 + 3 * (p1 - p0) * r + (p0 - x) =
        d * (r ^ 3 + 3 * (p0 - 2 * p1 + p2) / d * r ^ 2 + 3 * (p1 - p0) / d * r + (p0 - x) / d) := by
      field_simp
    rw [this, mul_eq_zero]
    simp [hd]
  · rw [if_pos (by rw [h]; simpa using epsilon_pos)]
    rcases h' with h' | ⟨h', h''⟩
    · rw [if_neg (not_lt.2 h')]
      set a := 3 * (p0 - 2 * p1 + p2)
      have hroot := hpoly s
      rw [hs, h] at hroot
      obtain ⟨l, hl, hl'⟩ := quadraticRoots_spec (a := a) (b := 3 * (p1 - p0)) (c := p0 - x) (not_lt.2 h') (by
        have : 3 * (p1 - p0) * (3 * (p1 - p0)) - 4 * a * (p0 - x) = (2 * a * s + 3 * (p1 - p0)) ^ 2 := by
          linear_combination 4 * a * hroot
        rw [this]
        positivity)
      refine ⟨l, hl, fun r => ?_⟩
      rw [hl' r]
      beta_reduce
      rw [hpoly r, h]
      simp only [zero_mul, zero_add]
    · rw [if_pos (by rw [h']; simpa using epsilon_pos)]
      have hb : 3 * (p1 - p0) = p3 - p0 := by linarith
      obtain ⟨l, hl, hl'⟩ := linearRoots_spec (b := 3 * (p1 - p0)) (c := p0 - x) (by rw [hb]; exact not_lt.2 h'')
      refine ⟨l, hl, fun r => ?_⟩
      rw [hl' r]
      beta_reduce
      rw [hpoly r, h, h']
      simp only [zero_mul, zero_add, mul_zero]

/-- A root just before the start is close to the start, one just after the end close to the end. -/
theorem clamp_close {p0 p1 p2 p3 x r : ℝ} (h1 : p0 ≤ p1 ∧ p1 ≤ p3) (h2 : p0 ≤ p2 ∧ p2 ≤ p3) (hx0 : p0 ≤ x) (hx1 : x ≤ p3)
    (hr0 : -epsilon ≤ r) (hr1 : r ≤ 1 + epsilon) (hr : bez p0 p1 p2 p3 r = x) :
    |bez p0 p1 p2 p3 (min 1 (max 0 r)) - x| ≤ 4 * epsilon ^ 2 * (p3 - p0) := by
  have he : epsilon ≤ 1 / 100 := by unfold epsilon; norm_num
  have hpos := epsilon_pos
  rcases lt_or_ge r 0 with h | h
  · have e : min 1 (max 0 r) = 0 := by rw [max_eq_left h.le]; norm_num
    rw [e]
    have e0 : bez p0 p1 p2 p3 0 = p0 := by simp [bez]
    rw [e0, abs_sub_comm, abs_of_nonneg (by linarith)]
    set δ := -r with hδ
    have hδ0 : 0 < δ := by linarith
    have hδ1 : δ ≤ epsilon := by linarith
    have e1 : x - p0 = -3 * (1 + δ) ^ 2 * δ * (p1 - p0) + 3 * (1 + δ) * δ ^ 2 * (p2 - p0) - δ ^ 3 * (p3 - p0) := by
      rw [← hr, show r = -δ by rw [hδ]; ring]; unfold bez; ring
    rw [e1]
    have t1 : 0 ≤ 3 * (1 + δ) ^ 2 * δ * (p1 - p0) := mul_nonneg (by positivity) (by linarith)
    have t2 : 3 * (1 + δ) * δ ^ 2 * (p2 - p0) ≤ 3 * (1 + δ) * δ ^ 2 * (p3 - p0) :=
      mul_le_mul_of_nonneg_left (by linarith) (by positivity)
    have t3 : 0 ≤ δ ^ 3 * (p3 - p0) := mul_nonneg (by positivity) (by linarith)
    have t4 : 3 * (1 + δ) * δ ^ 2 ≤ 4 * epsilon ^ 2 := by nlinarith
    have t5 : 3 * (1 + δ) * δ ^ 2 * (p3 - p0) ≤ 4 * epsilon ^ 2 * (p3 - p0) :=
      mul_le_mul_of_nonneg_right t4 (by linarith)
    linarith
  · rcases le_or_gt r 1 with h' | h'
    · have e : min 1 (max 0 r) = r := by rw [max_eq_right h, min_eq_right h']
      rw [e, hr]
      simp only [sub_self, abs_zero]
      exact mul_nonneg (by positivity) (by linarith)
    · have e : min 1 (max 0 r) = 1 := by rw [max_eq_right h, min_eq_left h'.le]
      rw [e]
      have e0 : bez p0 p1 p2 p3 1 = p3 := by simp [bez]
      rw [e0, abs_of_nonneg (by linarith)]
      set δ := r - 1 with hδ
      have hδ0 : 0 < δ := by linarith
      have hδ1 : δ ≤ epsilon := by linarith
      have e1 : p3 - x = -3 * (1 + δ) ^ 2 * δ * (p3 - p2) + 3 * (1 + δ) * δ ^ 2 * (p3 - p1) - δ ^ 3 * (p3 - p0) := by
        rw [← hr, show r = 1 + δ by rw [hδ]; ring]; unfold bez; ring
      rw [e1]
      have t1 : 0 ≤ 3 * (1 + δ) ^ 2 * δ * (p3 - p2) := mul_nonneg (by positivity) (by linarith)
      have t2 : 3 * (1 + δ) * δ ^ 2 * (p3 - p1) ≤ 3 * (1 + δ) * δ ^ 2 * (p3 - p0) :=
        mul_le_mul_of_nonneg_left (by linarith) (by positivity)
      have t3 : 0 ≤ δ ^ 3 * (p3 - p0) := mul_nonneg (by positivity) (by linarith)
      have t4 : 3 * (1 + δ) * δ ^ 2 ≤ 4 * epsilon ^ 2 := by nlinarith
      have t5 : 3 * (1 + δ) * δ ^ 2 * (p3 - p0) ≤ 4 * epsilon ^ 2 * (p3 - p0) :=
        mul_le_mul_of_nonneg_right t4 (by linarith)
      linarith

theorem handle_ok {a b p : ℝ × ℝ} (hab : a.1 < b.1) :
    ∃ q, startHandle id a p b = .ok q ∧ Handle a b p q ∧ a.1 ≤ q.1 ∧ q.1 ≤ b.1 := by
  unfold startHandle
  split
  · rename_i h
    have hne : p.1 - a.1 ≠ 0 := by linarith [show p.1 > b.1 from h]
    refine ⟨(b.1, a.2 + (p.2 - a.2) * (b.1 - a.1) / (p.1 - a.1)), by
        unfold scaleHandle; simp only [id]; rw [show fdiv _ _ (p.1 - a.1) = _ from fdiv_id hne]; rfl,
      ⟨fun _ h' => absurd h (not_lt.2 h'), fun _ => ⟨rfl, ?_⟩, fun h' => ?_⟩, hab.le, le_rfl⟩
    · field_simp; ring
    · have : p.1 > b.1 := h
      linarith
  · rename_i h
    split
    · rename_i h'
      exact ⟨_, rfl, ⟨fun h'' => absurd h' (not_lt.2 h''), fun h'' => absurd h'' h, fun _ => rfl⟩, le_rfl, hab.le⟩
    · rename_i h'
      exact ⟨_, rfl, ⟨fun _ _ => rfl, fun h'' => absurd h'' h, fun h'' => absurd h'' h'⟩, not_lt.1 h', not_lt.1 h⟩

theorem handle_ok' {a b p : ℝ × ℝ} (hab : a.1 < b.1) :
    ∃ q, endHandle id a p b = .ok q ∧ Handle' a b p q ∧ a.1 ≤ q.1 ∧ q.1 ≤ b.1 := by
  unfold endHandle
  split
  · rename_i h
    have hne : p.1 - b.1 ≠ 0 := by linarith [show p.1 < a.1 from h]
    refine ⟨(a.1, b.2 + (p.2 - b.2) * (a.1 - b.1) / (p.1 - b.1)), by
        unfold scaleHandle; simp only [id]; rw [show fdiv _ _ (p.1 - b.1) = _ from fdiv_id hne]; rfl,
      ⟨fun h' _ => absurd h (not_lt.2 h'), fun _ => ⟨rfl, ?_⟩, fun h' => ?_⟩, le_rfl, hab.le⟩
    · field_simp; ring
    · have : p.1 < a.1 := h
      linarith
  · rename_i h
    split
    · rename_i h'
      exact ⟨_, rfl, ⟨fun _ h'' => absurd h' (not_lt.2 h''), fun h'' => absurd h'' h, fun _ => rfl⟩, hab.le, le_rfl⟩
    · rename_i h'
      exact ⟨_, rfl, ⟨fun _ _ => rfl, fun h'' => absurd h'' h, fun h'' => absurd h'' h'⟩, not_lt.1 h, not_lt.1 h'⟩

/-- C26: in exact arithmetic `bezier_interpolate` returns the height of a point of the curve whose
abscissa is the one asked for up to 4·10⁻²⁰ of the distance of the ends; the handles are first brought
between the ends.  At the start it returns the value of the start exactly. -/
theorem C26_bezier {p0 p1 p2 p3 : ℝ × ℝ} (h03 : p0.1 < p3.1) {x : ℝ} (hx0 : p0.1 ≤ x) (hx1 : x ≤ p3.1) :
    ∃ q1 q2, Handle p0 p3 p1 q1 ∧ Handle' p0 p3 p2 q2 ∧
      (Regular p0.1 q1.1 q2.1 p3.1 →
        ∃ s, 0 ≤ s ∧ s ≤ 1 ∧ |bez p0.1 q1.1 q2.1 p3.1 s - x| ≤ 4 * (1 / 10 ^ 10) ^ 2 * (p3.1 - p0.1) ∧
          (x = p0.1 → s = 0) ∧
          bezierInterpolate id p0 p1 p2 p3 x = .ok (bez p0.2 q1.2 q2.2 p3.2 s)) := by
  obtain ⟨q1, e1, H1, a1, b1⟩ := handle_ok (p := p1) h03
  obtain ⟨q2, e2, H2, a2, b2⟩ := handle_ok' (p := p2) h03
  refine ⟨q1, q2, H1, H2, fun hr => ?_⟩
  obtain ⟨l, hl, hl'⟩ := roots_spec hr hx0 hx1
  obtain ⟨s0, hs0, hs1, hs⟩ := bez_reaches (p1 := q1.1) (p2 := q2.1) hx0 hx1
  have hpos := epsilon_pos
  have hmem : s0 ∈ l := (hl' s0).2 ⟨⟨by linarith, by linarith⟩, by simp only [hs, sub_self]⟩
  match l, hl, hl', hmem with
  | r :: l, hl, hl', _ =>
    obtain ⟨⟨hr0, hr1⟩, hrx⟩ := (hl' r).1 (by simp)
    have hrx : bez p0.1 q1.1 q2.1 p3.1 r = x := by
      have : bez p0.1 q1.1 q2.1 p3.1 r - x = 0 := hrx
      linarith
    refine ⟨min 1 (max 0 r), le_min zero_le_one (le_max_left _ _), min_le_left _ _,
      clamp_close ⟨a1, b1⟩ ⟨a2, b2⟩ hx0 hx1 hr0 hr1 hrx, ?_, ?_⟩
    · rintro rfl
      rcases le_or_gt r 0 with h | h
      · rw [max_eq_left h]; norm_num
      · exfalso
        have he : epsilon ≤ 1 / 100 := by unfold epsilon; norm_num
        rcases le_or_gt r 1 with h' | h'
        · have : bez p0.1 q1.1 q2.1 p3.1 r - p0.1 =
            3 * (1 - r) ^ 2 * r * (q1.1 - p0.1) + 3 * (1 - r) * r ^ 2 * (q2.1 - p0.1) + r ^ 3 * (p3.1 - p0.1) := by
            unfold bez; ring
          have t1 : 0 ≤ 3 * (1 - r) ^ 2 * r * (q1.1 - p0.1) := mul_nonneg (by positivity) (by linarith)
          have t2 : 0 ≤ 3 * (1 - r) * r ^ 2 * (q2.1 - p0.1) :=
            mul_nonneg (mul_nonneg (by linarith) (by positivity)) (by linarith)
          have t3 : 0 < r ^ 3 * (p3.1 - p0.1) := mul_pos (by positivity) (by linarith)
          linarith
        · have : bez p0.1 q1.1 q2.1 p3.1 r - p0.1 = 3 * (1 - r) ^ 2 * r * (q1.1 - p0.1) +
              3 * (r - 1) * r ^ 2 * (p3.1 - q2.1) + r ^ 2 * (3 - 2 * r) * (p3.1 - p0.1) := by
            unfold bez; ring
          have t1 : 0 ≤ 3 * (1 - r) ^ 2 * r * (q1.1 - p0.1) := mul_nonneg (by positivity) (by linarith)
          have t2 : 0 ≤ 3 * (r - 1) * r ^ 2 * (p3.1 - q2.1) :=
            mul_nonneg (mul_nonneg (by linarith) (by positivity)) (by linarith)
          have t3 : 0 < r ^ 2 * (3 - 2 * r) * (p3.1 - p0.1) :=
            mul_pos (mul_pos (by positivity) (by linarith)) (by linarith)
          linarith
    · unfold bezierInterpolate
      simp only [ge_iff_le, not_le.2 h03, if_false]
      simp only [e1, e2, ok_bind]
      simp only [id]
      rw [hl]
      simp only [ok_bind, cubicBezier_id]
      rfl

/-- Ends 0 and 10 and handles at 4 and 6: the case of the "cubic" interpolation. -/
example : Regular 0 4 6 10 := by
  left
  norm_num

/-- C26: with Bezier interpolation the value lies on the curve given by the two points around the time and
their tangents; at a point it is the value of the point. -/
theorem C26_bezier_value {ps : List Point} (hT : Timed ps) (hs : Strict id ps) {i : Nat} {p q : Point}
    (hi : ps[i]? = some p) (hj : ps[i + 1]? = some q) {t v0 v3 : ℝ} (h1 : Time id p ≤ t) (h2 : t < Time id q)
    (hv0 : p.value = .num v0) (hv3 : q.value = .num v3) :
    ∃ q1 q2, Handle (Time id p, v0) (Time id q, v3) (Time id p + p.outTangent.1, v0 + p.outTangent.2) q1 ∧
      Handle' (Time id p, v0) (Time id q, v3) (Time id q + q.inTangent.1, v3 + q.inTangent.2) q2 ∧
      (Regular (Time id p) q1.1 q2.1 (Time id q) →
        ∃ s, 0 ≤ s ∧ s ≤ 1 ∧
          |bez (Time id p) q1.1 q2.1 (Time id q) s - t| ≤ 4 * (1 / 10 ^ 10) ^ 2 * (Time id q - Time id p) ∧
          (t = Time id p → s = 0) ∧ valueAt id 5 ps t = .ok (bez v0 q1.2 q2.2 v3 s)) := by
  rw [value_between hT hi hj h1 (nearest_between hT hs hi hj h1 h2)]
  have hk : interp 5 = .bezier := rfl
  rw [hk, hv0, hv3]
  exact C26_bezier (p0 := (Time id p, v0)) (p3 := (Time id q, v3)) (lt_of_le_of_lt h1 h2) h1 h2.le

/-- C26: the straight curve without tangents between 0 and 10: handles at the ends. -/
example : Regular 0 0 10 10 := by
  left
  norm_num

/-- C26: a curve whose end is not after its start raises `NameError`, as the code returns an undefined name. -/
theorem C26_bezier_reversed (fl : ℝ → ℝ) {p0 p3 : ℝ × ℝ} (p1 p2 : ℝ × ℝ) (h : p3.1 ≤ p0.1) (x : ℝ) :
    bezierInterpolate fl p0 p1 p2 p3 x = .error .name := by
  unfold bezierInterpolate
  simp only [ge_iff_le, h, if_true]
  rfl

/-- C26 needs the condition on the coefficients: for handles so that the cubic coefficient is tiny but
not zero, interpolation just before the end raises `ValueError` (the square root of a negative number),
though the curve passes there. -/
theorem C26_bezier_fails :
    bezierInterpolate id (0, 0) ((2 + 1 / 10 ^ 11) / 3, 0) (1, 1) (1, 1) (1 - 1 / 10 ^ 12) = .error .value := by
  unfold bezierInterpolate startHandle endHandle
  have h1 : ¬ ((2 + 1 / 10 ^ 11) / 3 : ℝ) > 1 := by norm_num
  have h2 : ¬ ((2 + 1 / 10 ^ 11) / 3 : ℝ) < 0 := by norm_num
  simp only [h1, h2, if_false, ge_iff_le, not_le.2 (zero_lt_one (α := ℝ)), lt_irrefl, pure_bind, id,
    not_lt.2 (zero_le_one (α := ℝ))]
  unfold bezierCubicRoots
  simp only [id]
  rw [if_pos (by unfold epsilon; norm_num [abs_of_pos]), if_neg (by unfold epsilon; norm_num [abs_of_neg, abs_of_pos])]
  unfold quadraticRoots fsqrt
  simp only [id]
  rw [if_pos (by norm_num)]
  rfl

theorem between_scale {T H : ℝ} (h : (0 ≤ T ∧ T ≤ H) ∨ (H ≤ T ∧ T ≤ 0)) : ∃ k, 0 ≤ k ∧ k ≤ 1 ∧ T = k * H := by
  by_cases h0 : H = 0
  · exact ⟨0, le_rfl, zero_le_one, by rcases h with h | h <;> nlinarith⟩
  · refine ⟨T / H, ?_, ?_, by field_simp⟩
    · rcases h with ⟨a, b⟩ | ⟨a, b⟩
      · exact div_nonneg a (by linarith)
      · exact div_nonneg_of_nonpos b (by linarith)
    · rcases h with ⟨a, b⟩ | ⟨a, b⟩
      · have : 0 < H := lt_of_le_of_ne (by linarith) (Ne.symm h0)
        rw [div_le_one this]; exact b
      · have : H < 0 := lt_of_le_of_ne (by linarith) h0
        rw [div_le_one_of_neg this]; exact a

theorem tangentHeight_spec {y py ny px x nx tanX : ℝ} (h1 : px < x) (h2 : x < nx) (ht0 : 0 ≤ tanX)
    (ht : tanX ≤ 2 / 5 * (nx - px)) :
    ∃ T, tangentHeight id y py ny ((ny - py) / (nx - px)) ((y - py) / (x - px)) ((ny - y) / (nx - x)) tanX = .ok T ∧
      ((0 ≤ T ∧ T ≤ ny - y) ∨ (ny - y ≤ T ∧ T ≤ 0)) ∧ ((0 ≤ T ∧ T ≤ y - py) ∨ (y - py ≤ T ∧ T ≤ 0)) := by
  unfold tangentHeight
  split
  · refine ⟨0, rfl, ?_, ?_⟩
    · rcases le_total 0 (ny - y) with h | h
      · exact Or.inl ⟨le_rfl, h⟩
      · exact Or.inr ⟨h, le_rfl⟩
    · rcases le_total 0 (y - py) with h | h
      · exact Or.inl ⟨le_rfl, h⟩
      · exact Or.inr ⟨h, le_rfl⟩
  · rename_i hc
    push Not at hc
    obtain ⟨hc1, hc2, hc3⟩ := hc
    have hd : 0 < nx - px := by linarith
    have hh : |ny - py| ≠ 0 := by rw [abs_ne_zero]; exact sub_ne_zero.2 hc3
    simp only [id]
    rw [show fdiv _ _ |ny - py| = _ from fdiv_id hh, ok_bind]
    refine ⟨_, rfl, ?_⟩
    have hf : ∀ u v w : ℝ, 0 < w → u = v / w → v = u * w := by
      intro u v w hw h; rw [h]; field_simp
    set m := min |ny - y| |y - py| with hm
    have hm0 : 0 ≤ m := le_min (abs_nonneg _) (abs_nonneg _)
    have hfrac : 0 ≤ tanX / (nx - px) ∧ tanX / (nx - px) ≤ 2 / 5 :=
      ⟨div_nonneg ht0 hd.le, by rw [div_le_iff₀ hd]; exact ht⟩
    set k := tanX / (nx - px) with hk
    have hTk : tanX = k * (nx - px) := hf _ _ _ hd hk
    have hpos : (0 ≤ ny - y ∧ 0 ≤ y - py ∧ 0 < ny - py) ∨ (ny - y ≤ 0 ∧ y - py ≤ 0 ∧ ny - py < 0) := by
      by_cases hs : (ny - y) / (nx - x) ≥ 0
      · have s1 : (y - py) / (x - px) ≥ 0 := by
          by_contra hn
          simp [signNoZero, hs, hn] at hc1
        have e1 : 0 ≤ ny - y := by
          rcases div_nonneg_iff.1 hs with h | h <;> linarith [h.1, h.2]
        have e2 : 0 ≤ y - py := by
          rcases div_nonneg_iff.1 s1 with h | h <;> linarith [h.1, h.2]
        have : 0 ≤ ny - py := by linarith
        exact Or.inl ⟨e1, e2, lt_of_le_of_ne this (Ne.symm (sub_ne_zero.2 hc3))⟩
      · have s1 : ¬ (y - py) / (x - px) ≥ 0 := by
          intro hn
          simp [signNoZero, hs, hn] at hc1
        have e1 : ny - y ≤ 0 := by
          by_contra hn
          exact hs (div_nonneg (by linarith) (by linarith))
        have e2 : y - py ≤ 0 := by
          by_contra hn
          exact s1 (div_nonneg (by linarith) (by linarith))
        have : ny - py ≤ 0 := by linarith
        exact Or.inr ⟨e1, e2, lt_of_le_of_ne this (sub_ne_zero.2 hc3)⟩
    rcases hpos with ⟨e1, e2, e3⟩ | ⟨e1, e2, e3⟩
    · have hT : m / |ny - py| * 2 * ((ny - py) / (nx - px)) * tanX = 2 * m * k := by
        rw [abs_of_pos e3, hTk]; field_simp
      rw [hT]
      have b1 : m ≤ ny - y := by rw [hm, abs_of_nonneg e1]; exact min_le_left _ _
      have b2 : m ≤ y - py := by rw [hm, abs_of_nonneg e2]; exact min_le_right _ _
      have b0 : 0 ≤ 2 * m * k := by have := hfrac.1; positivity
      have b3 : 2 * m * k ≤ m := by nlinarith [hfrac.2]
      exact ⟨Or.inl ⟨b0, by linarith⟩, Or.inl ⟨b0, by linarith⟩⟩
    · have hT : m / |ny - py| * 2 * ((ny - py) / (nx - px)) * tanX = -(2 * m * k) := by
        rw [abs_of_neg e3, hTk]
        have : ny - py ≠ 0 := e3.ne
        field_simp
      rw [hT]
      have b1 : m ≤ -(ny - y) := by rw [hm, abs_of_nonpos e1]; exact min_le_left _ _
      have b2 : m ≤ -(y - py) := by rw [hm, abs_of_nonpos e2]; exact min_le_right _ _
      have b0 : 0 ≤ 2 * m * k := by have := hfrac.1; positivity
      have b3 : 2 * m * k ≤ m := by nlinarith [hfrac.2]
      exact ⟨Or.inr ⟨by linarith, by linarith⟩, Or.inr ⟨by linarith, by linarith⟩⟩

theorem tangent_out {p0 p1 p2 : ℝ × ℝ} (h1 : p0.1 < p1.1) (h2 : p1.1 < p2.1) :
    ∃ k, 0 ≤ k ∧ k ≤ 1 ∧
      calculateTangent id p0 p1 p2 false = .ok (2 / 5 * (p2.1 - p1.1), k * (p2.2 - p1.2)) := by
  obtain ⟨T, hT, hb, _⟩ := tangentHeight_spec (y := p1.2) (py := p0.2) (ny := p2.2) (tanX := 2 / 5 * (p2.1 - p1.1)) h1 h2
    (by linarith) (by linarith)
  obtain ⟨k, k0, k1, rfl⟩ := between_scale hb
  refine ⟨k, k0, k1, ?_⟩
  unfold calculateTangent
  have e1 : p2.1 - p0.1 ≠ 0 := by linarith
  have e2 : p1.1 - p0.1 ≠ 0 := by linarith
  have e3 : p2.1 - p1.1 ≠ 0 := by linarith
  simp only [id, Bool.false_eq_true, if_false]
  rw [show fdiv _ _ (p2.1 - p0.1) = _ from fdiv_id e1, ok_bind, show fdiv _ _ (p1.1 - p0.1) = _ from fdiv_id e2, ok_bind,
    show fdiv _ _ (p2.1 - p1.1) = _ from fdiv_id e3, ok_bind, hT, ok_bind]
  rfl

theorem tangent_in {p0 p1 p2 : ℝ × ℝ} (h1 : p0.1 < p1.1) (h2 : p1.1 < p2.1) :
    ∃ k, 0 ≤ k ∧ k ≤ 1 ∧
      calculateTangent id p0 p1 p2 true = .ok (-(2 / 5 * (p1.1 - p0.1)), -(k * (p1.2 - p0.2))) := by
  obtain ⟨T, hT, _, hb⟩ := tangentHeight_spec (y := p1.2) (py := p0.2) (ny := p2.2) (tanX := 2 / 5 * (p1.1 - p0.1)) h1 h2
    (by linarith) (by linarith)
  obtain ⟨k, k0, k1, rfl⟩ := between_scale hb
  refine ⟨k, k0, k1, ?_⟩
  unfold calculateTangent
  have e1 : p2.1 - p0.1 ≠ 0 := by linarith
  have e2 : p1.1 - p0.1 ≠ 0 := by linarith
  have e3 : p2.1 - p1.1 ≠ 0 := by linarith
  simp only [id, if_true]
  rw [show fdiv _ _ (p2.1 - p0.1) = _ from fdiv_id e1, ok_bind, show fdiv _ _ (p1.1 - p0.1) = _ from fdiv_id e2, ok_bind,
    show fdiv _ _ (p2.1 - p1.1) = _ from fdiv_id e3, ok_bind, hT, ok_bind]
  simp only [mul_neg, mul_one]
  rfl

/-- The curve stays between the smallest and the largest of its four control values. -/
theorem bez_bounds {p0 p1 p2 p3 s lo hi : ℝ} (h0 : 0 ≤ s) (h1 : s ≤ 1) (a0 : lo ≤ p0 ∧ p0 ≤ hi) (a1 : lo ≤ p1 ∧ p1 ≤ hi)
    (a2 : lo ≤ p2 ∧ p2 ≤ hi) (a3 : lo ≤ p3 ∧ p3 ≤ hi) : lo ≤ bez p0 p1 p2 p3 s ∧ bez p0 p1 p2 p3 s ≤ hi := by
  have w0 : 0 ≤ (1 - s) ^ 3 := by have : 0 ≤ 1 - s := by linarith
                                  positivity
  have w1 : 0 ≤ 3 * (1 - s) ^ 2 * s := by positivity
  have w2 : 0 ≤ 3 * (1 - s) * s ^ 2 := mul_nonneg (by linarith) (by positivity)
  have w3 : 0 ≤ s ^ 3 := by positivity
  have hsum : (1 - s) ^ 3 + 3 * (1 - s) ^ 2 * s + 3 * (1 - s) * s ^ 2 + s ^ 3 = 1 := by ring
  unfold bez
  constructor
  · have := mul_le_mul_of_nonneg_left a0.1 w0
    have := mul_le_mul_of_nonneg_left a1.1 w1
    have := mul_le_mul_of_nonneg_left a2.1 w2
    have := mul_le_mul_of_nonneg_left a3.1 w3
    calc lo = ((1 - s) ^ 3 + 3 * (1 - s) ^ 2 * s + 3 * (1 - s) * s ^ 2 + s ^ 3) * lo := by rw [hsum, one_mul]
      _ ≤ _ := by linarith
  · have := mul_le_mul_of_nonneg_left a0.2 w0
    have := mul_le_mul_of_nonneg_left a1.2 w1
    have := mul_le_mul_of_nonneg_left a2.2 w2
    have := mul_le_mul_of_nonneg_left a3.2 w3
    calc _ ≤ ((1 - s) ^ 3 + 3 * (1 - s) ^ 2 * s + 3 * (1 - s) * s ^ 2 + s ^ 3) * hi := by linarith
      _ = hi := by rw [hsum, one_mul]

/-- C26: `cubic_interpolate` in exact arithmetic always has a value, which lies between the values of the
two points around the time, and is the value of the first point at its time. -/
theorem C26_cubic {p0 p1 p2 p3 : ℝ × ℝ} (h01 : p0.1 < p1.1) (hgap : 5 / 2 * (1 / 10 ^ 10) ≤ p2.1 - p1.1) (h23 : p2.1 < p3.1)
    {t : ℝ} (h1 : p1.1 ≤ t) (h2 : t ≤ p2.1) :
    ∃ v, cubicInterpolate id p0 p1 p2 p3 t = .ok v ∧ min p1.2 p2.2 ≤ v ∧ v ≤ max p1.2 p2.2 ∧
      (t = p1.1 → v = p1.2) := by
  have h12 : p1.1 < p2.1 := by linarith
  obtain ⟨k, k0, k1, hk⟩ := tangent_out (p0 := p0) h01 h12
  obtain ⟨l, l0, l1, hl⟩ := tangent_in (p2 := p3) h12 h23
  obtain ⟨q1, q2, H1, H2, H⟩ := C26_bezier (p0 := p1) (p3 := p2)
    (p1 := (p1.1 + 2 / 5 * (p2.1 - p1.1), p1.2 + k * (p2.2 - p1.2)))
    (p2 := (p2.1 + -(2 / 5 * (p2.1 - p1.1)), p2.2 + -(l * (p2.2 - p1.2)))) h12 h1 h2
  have e1 := H1.1 (by simp only; linarith) (by simp only; linarith)
  have e2 := H2.1 (by simp only; linarith) (by simp only; linarith)
  subst e1 e2
  obtain ⟨s, s0, s1, -, hs, hv⟩ := H (by
    left
    simp only
    rw [show p2.1 - p1.1 + 3 * (p1.1 + 2 / 5 * (p2.1 - p1.1) - (p2.1 + -(2 / 5 * (p2.1 - p1.1)))) = 2 / 5 * (p2.1 - p1.1) by
      ring, abs_of_pos (by linarith)]
    linarith)
  refine ⟨_, by
    unfold cubicInterpolate
    simp only [hk, hl, ok_bind]
    exact hv, ?_, ?_, ?_⟩
  · rcases le_total p1.2 p2.2 with h | h
    · rw [min_eq_left h]
      exact (bez_bounds (hi := p2.2) s0 s1 ⟨le_rfl, h⟩ ⟨by nlinarith, by nlinarith⟩ ⟨by nlinarith, by nlinarith⟩ ⟨h, le_rfl⟩).1
    · rw [min_eq_right h]
      exact (bez_bounds (hi := p1.2) s0 s1 ⟨h, le_rfl⟩ ⟨by nlinarith, by nlinarith⟩ ⟨by nlinarith, by nlinarith⟩ ⟨le_rfl, h⟩).1
  · rcases le_total p1.2 p2.2 with h | h
    · rw [max_eq_right h]
      exact (bez_bounds (lo := p1.2) s0 s1 ⟨le_rfl, h⟩ ⟨by nlinarith, by nlinarith⟩ ⟨by nlinarith, by nlinarith⟩ ⟨h, le_rfl⟩).2
    · rw [max_eq_left h]
      exact (bez_bounds (lo := p2.2) s0 s1 ⟨h, le_rfl⟩ ⟨by nlinarith, by nlinarith⟩ ⟨by nlinarith, by nlinarith⟩ ⟨le_rfl, h⟩).2
  · intro ht
    rw [hs ht]
    simp [bez]

/-- C26: with cubic interpolation the value at every time between two points exists and lies between the
values of the two points; at a point it is the value of the point.  The points hold numbers and the two
points are 2.5·10⁻¹⁰ apart. -/
theorem C26_cubic_value {ps : List Point} (hT : Timed ps) (hs : Strict id ps) (hnum : ∀ p ∈ ps, ∃ v, p.value = .num v)
    {i : Nat} {p q : Point} (hi : ps[i]? = some p) (hj : ps[i + 1]? = some q) {t v1 v2 : ℝ} (h1 : Time id p ≤ t)
    (h2 : t < Time id q) (hgap : 5 / 2 * (1 / 10 ^ 10) ≤ Time id q - Time id p) (hv1 : p.value = .num v1)
    (hv2 : q.value = .num v2) :
    ∃ v, valueAt id 6 ps t = .ok v ∧ min v1 v2 ≤ v ∧ v ≤ max v1 v2 ∧ (t = Time id p → v = v1) := by
  rw [value_between hT hi hj h1 (nearest_between hT hs hi hj h1 h2)]
  have hk : interp 6 = .cubic := rfl
  rw [hk, hv1, hv2]
  have hxy : ∀ p ∈ ps, ∃ v, p.xy id = .ok (Time id p, v) := by
    intro p hp
    obtain ⟨v, hv⟩ := hnum p hp
    refine ⟨v, ?_⟩
    unfold Point.xy
    rw [time_ok (hT p hp), hv]
    rfl
  have hb : ∃ q0 : ℝ × ℝ, pointBefore id ps i (Time id p, v1) (Time id q, v2) = .ok q0 ∧ q0.1 < Time id p := by
    unfold pointBefore
    by_cases h0 : i = 0
    · rw [if_pos h0]
      exact ⟨_, rfl, by simp only [id]; linarith⟩
    · rw [if_neg h0]
      have hlt : i - 1 < ps.length := by
        have := (List.getElem?_eq_some_iff.1 hi).1
        omega
      have hg := List.getElem?_eq_getElem hlt
      rw [hg]
      obtain ⟨v, hv⟩ := hxy _ (List.getElem_mem hlt)
      exact ⟨_, hv, strict_get hs hg hi (by omega)⟩
  have ha : ∃ q3 : ℝ × ℝ, pointAfter id ps i (Time id p, v1) (Time id q, v2) = .ok q3 ∧ Time id q < q3.1 := by
    unfold pointAfter
    cases hg : ps[i + 2]? with
    | none => exact ⟨_, rfl, by simp only [id]; linarith⟩
    | some r =>
      obtain ⟨v, hv⟩ := hxy _ (List.mem_of_getElem? hg)
      exact ⟨_, hv, strict_get hs hj hg (by omega)⟩
  obtain ⟨q0, e0, l0⟩ := hb
  obtain ⟨q3, e3, l3⟩ := ha
  simp only [KVal.float, ok_bind, e0, e3]
  exact C26_cubic (p1 := (Time id p, v1)) (p2 := (Time id q, v2)) l0 hgap l3 h1 h2.le

example : ∃ v, valueAt id 6 keySample 4 = .ok v ∧ 1 ≤ v ∧ v ≤ 3 := by
  have hT : Timed keySample := by
    intro p hp
    simp [keySample] at hp
    rcases hp with rfl | rfl | rfl <;> simp
  have hs : Strict id keySample := by simp [Strict, keySample, Time]; norm_num
  obtain ⟨v, h1, h2, h3, _⟩ := C26_cubic_value (i := 0) (p := ⟨(0, 1), 1, .num 1, []⟩) (q := ⟨(10, 1), 1, .num 3, []⟩)
    (t := 4) hT hs (by
      intro p hp
      simp [keySample] at hp
      rcases hp with rfl | rfl | rfl <;> exact ⟨_, rfl⟩)
    rfl rfl (by simp [Time]) (by simp [Time]; norm_num) (by simp [Time]; norm_num) rfl rfl
  refine ⟨v, h1, ?_, ?_⟩
  · norm_num at h2; exact h2
  · norm_num at h3; exact h3

/-- A segment that ends where it starts. -/
example : bezierInterpolate id (5, 1) (5, 1) (5, 2) (5, 2) 5 = .error .name := 
  C26_bezier_reversed id (p0 := (5, 1)) (p3 := (5, 2)) _ _ (le_refl _) _

end Avb.Curve

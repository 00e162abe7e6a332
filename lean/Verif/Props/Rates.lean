import Verif.Lemmas.Rate
import Verif.Props.Fields
import Mathlib.Tactic.IntervalCases

/-
C05: edit rates.  Rates are doubles, i.e. rationals here; `rnd` is rounding to the nearest double.
-/

namespace Avb

/-- C05: a rate that can be written takes six bytes, a 32 bit mantissa and a 16 bit power of ten between
-6 and 0, and reading consumes exactly these bytes. -/
theorem C05_form {bo : BO} {q : ℚ} {bs : Bytes} (h : wRate bo (.fin q) = .ok ((), bs)) :
    ∃ m e b1 b2, -6 ≤ e ∧ e ≤ 0 ∧ wInt bo .s32 m = .ok ((), b1) ∧ wInt bo .s16 e = .ok ((), b2) ∧
      bs = b1 ++ b2 ∧ bs.length = 6 ∧
      ∃ r, decodeRate m e = .ok r ∧ ∀ rest, rRate bo (bs ++ rest) = .ok (r, rest) := by
  have hexp := encodeRate_exp q
  obtain ⟨_, b1, b2, h1, h2, h3⟩ := Wr.bind_eq_ok h
  refine ⟨_, _, b1, b2, hexp.1, hexp.2, h1, h2, h3, ?_, ?_⟩
  · by_cases f1 : Fits .s32 (encodeRate q).1
    · by_cases f2 : Fits .s16 (encodeRate q).2
      · obtain ⟨x, e1, l1, _⟩ := C01_fits (bo := bo) f1
        obtain ⟨y, e2, l2, _⟩ := C01_fits (bo := bo) f2
        rw [e1] at h1
        rw [e2] at h2
        cases h1; cases h2
        rw [h3, List.length_append, l1, l2]; rfl
      · rw [C01_refused f2] at h2; cases h2
    · rw [C01_refused f1] at h1; cases h1
  · obtain ⟨r, hr⟩ := decodeRate_ok (encodeRate q).1 (encodeRate q).2 hexp.2
    refine ⟨r, hr, fun rest => ?_⟩
    have := RT.rate bs h rest trivial
    simpa only [rateNorm, hr] using this

/-- C05: infinities and NaN are refused. -/
theorem C05_not_finite (bo : BO) (neg : Bool) :
    wRate bo (.inf neg) = .error .overflow ∧ wRate bo .nan = .error .value := ⟨rfl, rfl⟩

theorem rnd_one : rnd 1 = 1 := by
  have := rnd_small_int (m := 1) (by norm_num)
  simpa using this

theorem pow2_1024 : (2 : ℚ) ^ 60 ≤ pow2 1024 := by
  rw [pow2_eq]
  have h : (2 : ℚ) ^ (60 : ℤ) ≤ 2 ^ (1024 : ℤ) := zpow_le_zpow_right₀ (by norm_num) (by norm_num)
  have e : (2 : ℚ) ^ (60 : ℤ) = 2 ^ 60 := by norm_cast
  rw [← e]; exact h

/-- C05: integers of 32 bits other than 5994 come back exactly. -/
theorem C05_integer {bo : BO} {n : Int} (h : Fits .s32 n) (h2 : n ≠ 5994) :
    ∃ bs, wRate bo (.fin n) = .ok ((), bs) ∧ ∀ rest, rRate bo (bs ++ rest) = .ok (.fin n, rest) := by
  have hn : rateLoop (n : ℚ) 6 = ((n : ℚ), 0) := by
    rw [show (6 : Nat) = 5 + 1 from rfl, rateLoop, if_pos (by rw [truncRat_int])]
    norm_num
  have he : encodeRate n = (n, 0) := by
    unfold encodeRate
    rw [hn]
    dsimp only
    rw [if_neg (by exact_mod_cast h2), truncRat_int]
  obtain ⟨b1, e1, _⟩ := C01_fits (bo := bo) h
  obtain ⟨b2, e2, _⟩ := C01_fits (bo := bo) (t := .s16) (v := 0) (by decide)
  have hw : wRate bo (.fin n) = .ok ((), b1 ++ b2) := by
    unfold wRate
    dsimp only
    rw [he]
    exact Wr.bind_ok e1 e2
  refine ⟨_, hw, fun rest => ?_⟩
  have hr := RT.rate _ hw rest trivial
  have hd : decodeRate n 0 = .ok (.fin n) := by
    simp only [Fits] at h
    have habs : |(n : ℚ)| ≤ 2 ^ 31 := by
      have : |n| ≤ 2 ^ 31 := abs_le.2 ⟨by omega, by omega⟩
      have h3 : ((|n| : Int) : ℚ) ≤ ((2 ^ 31 : Int) : ℚ) := Int.cast_le.2 this
      rw [Int.cast_abs] at h3
      exact_mod_cast h3
    have h10 := pow2_1024
    unfold decodeRate
    dsimp only
    rw [if_pos (le_refl _)]
    have e3 : rnd ((10 ^ (0 : Int).toNat : Nat) : ℚ) = 1 := by simpa using rnd_one
    rw [e3, if_neg (by norm_num at h10 ⊢; linarith), mul_one,
      rnd_small_int (by rw [abs_lt]; omega), absRat_eq, if_neg (by norm_num at h10 habs ⊢; linarith)]
  have hnorm : rateNorm (.fin n) = .fin n := by
    simp only [rateNorm, he, hd]
  rw [hnorm] at hr
  exact hr

/-- 25 frames per second, for `C05_form` and `C05_integer`. -/
example : ∃ bs, wRate .big (.fin 25) = .ok ((), bs) ∧ bs.length = 6 := by
  obtain ⟨bs, h, _⟩ := C05_integer (bo := .big) (n := 25) (by decide) (by decide)
  have h' : wRate .big (.fin 25) = .ok ((), bs) := by exact_mod_cast h
  obtain ⟨_, _, _, _, _, _, _, _, _, hl, _⟩ := C05_form h'
  exact ⟨bs, h', hl⟩

example : Fits .s32 30 ∧ (30 : Int) ≠ 5994 := by decide

/-- C05: rates beyond 32 bits are refused. -/
theorem C05_too_large {bo : BO} {q : ℚ} (h : 2 ^ 31 + 1 ≤ |q|) : wRate bo (.fin q) = .error .struct := by
  have hl : rateLoop q 6 = (q, 0) := by
    rw [show (6 : Nat) = 5 + 1 from rfl, rateLoop]
    by_cases c : (truncRat q : ℚ) = q
    · rw [if_pos c]; norm_num
    · rw [if_neg c, if_pos]
      · norm_num
      · rw [absRat_eq]
        have h1 := rnd_err (q * 10)
        rw [abs_mul, abs_of_pos (by norm_num : (0 : ℚ) < 10)] at h1
        have h2 : |q * 10| ≤ |rnd (q * 10) - q * 10| + |rnd (q * 10)| := by
          have := abs_add_le (q * 10 - rnd (q * 10)) (rnd (q * 10))
          rw [abs_sub_comm] at this
          simpa using this
        rw [abs_mul, abs_of_pos (by norm_num : (0 : ℚ) < 10)] at h2
        have h3 : |q| * 10 * eps ≤ |q| := by
          unfold eps
          have := abs_nonneg q
          linarith
        have h4 : tau ≤ 1 := by
          have := tau_le
          unfold eps at this
          norm_num at this
          linarith
        norm_num at h ⊢
        linarith
  have he : encodeRate q = (truncRat q, 0) := by
    unfold encodeRate
    rw [hl]
    dsimp only
    rw [if_neg]
    rintro rfl
    norm_num at h
  have ht := truncRat_err q
  have hf : ¬ Fits .s32 (truncRat q) := by
    intro hf
    simp only [Fits] at hf
    have h1 : (-2147483648 : ℚ) ≤ (truncRat q : ℚ) := by exact_mod_cast hf.1
    have h2 : (truncRat q : ℚ) ≤ 2147483647 := by
      have : truncRat q ≤ 2147483647 := by omega
      exact_mod_cast this
    rw [abs_le] at ht
    rcases abs_cases q with ⟨hq, _⟩ | ⟨hq, _⟩
    · rw [hq] at h; norm_num at h; linarith
    · rw [hq] at h
      norm_num at h
      by_cases hq0 : q < 0
      · have : truncRat q = -((-q).floor) := by unfold truncRat; rw [if_pos hq0]
        have h5 : (2147483649 : Int) ≤ (-q).floor := by
          have : (2147483649 : Int) ≤ ⌊-q⌋ := Int.le_floor.2 (by push_cast; linarith)
          exact this
        omega
      · linarith
  unfold wRate
  dsimp only
  rw [he, C01_refused hf]
  rfl

example : (2 : ℚ) ^ 31 + 1 ≤ |3000000000| := by norm_num

/-- C05: the error bound.  For every finite rate that can be written, and whose decimal multiples stay
clear of 5994, the rate found after saving and loading differs by at most 0.000002 plus one part in
10 ^ 8. -/
theorem C05_error {bo : BO} {q : ℚ} {bs : Bytes} (h : wRate bo (.fin q) = .ok ((), bs))
    (hq : ∀ k : Nat, k ≤ 6 → 1 / 1000000 < |q * 10 ^ k - 5994|) :
    ∃ r : ℚ, (∀ rest, rRate bo (bs ++ rest) = .ok (.fin r, rest)) ∧
      |r - q| ≤ 2 / 1000000 + |q| / 10 ^ 8 := by
  obtain ⟨j, hj, he, hb, hs⟩ := rateLoop_err 6 q
  have hE := eps_pos
  have hτ := tau_pos
  have hτE := tau_le
  have hE53 : eps = 1 / 9007199254740992 := by unfold eps; norm_num
  generalize hw : (rateLoop q 6).1 = w at *
  have hT : (0 : ℚ) < 10 ^ j := by positivity
  have hq0 := abs_nonneg q
  -- the scaled value is close to a decimal multiple
  have hK : (2 : ℚ) ^ j - 1 ≤ 63 := by
    have : (2 : ℚ) ^ j ≤ 2 ^ 6 := pow_le_pow_right₀ (by norm_num) hj
    norm_num at this ⊢; linarith
  have hs0 : 0 ≤ eps * |q| + tau := by positivity
  have hb2 : |w - q * 10 ^ j| ≤ 10 ^ j * (63 * (eps * |q| + tau)) :=
    hb.trans (mul_le_mul_of_nonneg_left (mul_le_mul_of_nonneg_right hK hs0) hT.le)
  have hw5 : w ≠ 5994 := by
    rintro rfl
    have h1 := hq j hj
    rw [abs_sub_comm] at h1
    have h2 : 10 ^ j * |q| ≤ 2 * 5994 := by
      have h3 : |q * 10 ^ j| ≤ |5994 - q * 10 ^ j| + 5994 := by
        have := abs_add_le (q * 10 ^ j - 5994) 5994
        rw [abs_sub_comm (q * 10 ^ j) 5994] at this
        simpa using this
      rw [abs_mul, abs_of_pos hT] at h3
      have h4 : 10 ^ j * (63 * (eps * |q| + tau)) ≤ 1 / 1000 * (|q| * 10 ^ j) + 1 := by
        have h5 : 63 * (eps * |q|) ≤ 1 / 1000 * |q| := by rw [hE53]; linarith
        have h6 : 10 ^ j * (63 * tau) ≤ 1 := by
          have : (10 : ℚ) ^ j ≤ 10 ^ 6 := pow_le_pow_right₀ (by norm_num) hj
          have h7 : 63 * tau ≤ 1 / 10 ^ 6 := by rw [hE53] at hτE; norm_num at hτE ⊢; linarith
          calc (10 : ℚ) ^ j * (63 * tau) ≤ 10 ^ 6 * (1 / 10 ^ 6) :=
                mul_le_mul this h7 (by positivity) (by norm_num)
            _ = 1 := by norm_num
        have h8 := mul_le_mul_of_nonneg_left h5 hT.le
        calc 10 ^ j * (63 * (eps * |q| + tau)) = 10 ^ j * (63 * (eps * |q|)) + 10 ^ j * (63 * tau) := by ring
          _ ≤ 10 ^ j * (1 / 1000 * |q|) + 1 := add_le_add h8 h6
          _ = 1 / 1000 * (|q| * 10 ^ j) + 1 := by ring
      linarith
    have h4 : 10 ^ j * (63 * (eps * |q| + tau)) ≤ 1 / 1000000 := by
      have h5 : 10 ^ j * (63 * tau) ≤ 1 / 10000000 := by
        have : (10 : ℚ) ^ j ≤ 10 ^ 6 := pow_le_pow_right₀ (by norm_num) hj
        have h7 : 63 * tau ≤ 1 / 10 ^ 13 := by rw [hE53] at hτE; norm_num at hτE ⊢; linarith
        calc (10 : ℚ) ^ j * (63 * tau) ≤ 10 ^ 6 * (1 / 10 ^ 13) :=
              mul_le_mul this h7 (by positivity) (by norm_num)
          _ = 1 / 10000000 := by norm_num
      calc 10 ^ j * (63 * (eps * |q| + tau)) = 63 * eps * (10 ^ j * |q|) + 10 ^ j * (63 * tau) := by ring
        _ ≤ 63 * eps * (2 * 5994) + 1 / 10000000 :=
            add_le_add (mul_le_mul_of_nonneg_left h2 (by positivity)) h5
        _ ≤ 1 / 1000000 := by rw [hE53]; norm_num
    linarith
  have henc : encodeRate q = (truncRat w, -(j : Int)) := by
    unfold encodeRate
    have : rateLoop q 6 = (w, -(j : Int)) := by
      rw [← hw]
      refine Prod.ext rfl ?_
      rw [he]; push_cast; ring
    rw [this]
    dsimp only
    rw [if_neg hw5]
  -- the mantissa
  set m : ℚ := (truncRat w : ℚ) with hm
  have hmw : |m - w| ≤ 1 := truncRat_err w
  set t : ℚ := 1 / 10 ^ j with ht
  have htp : 0 < t := by positivity
  have ht1 : t ≤ 1 := by
    rw [ht]
    apply div_le_one_of_le₀ _ hT.le
    exact one_le_pow₀ (by norm_num)
  have hTt : 10 ^ j * t = 1 := by rw [ht]; field_simp
  have hwt : |w * t - q| ≤ 63 * (eps * |q| + tau) := by
    have e1 : w * t - q = (w - q * 10 ^ j) * t := by
      have : q = q * (10 ^ j * t) := by rw [hTt, mul_one]
      calc w * t - q = w * t - q * (10 ^ j * t) := by rw [← this]
        _ = (w - q * 10 ^ j) * t := by ring
    rw [e1, abs_mul, abs_of_pos htp]
    calc |w - q * 10 ^ j| * t ≤ 10 ^ j * (63 * (eps * |q| + tau)) * t :=
          mul_le_mul_of_nonneg_right hb2 htp.le
      _ = (10 ^ j * t) * (63 * (eps * |q| + tau)) := by ring
      _ = 63 * (eps * |q| + tau) := by rw [hTt, one_mul]
  have hwq : |w| * t ≤ |q| + 63 * (eps * |q| + tau) := by
    have h1 : |w * t| ≤ |w * t - q| + |q| := by simpa using abs_add_le (w * t - q) q
    rw [abs_mul, abs_of_pos htp] at h1
    linarith
  -- the truncation error
  have htr : |m - w| * t ≤ 1 / 1000000 + (|q| + 63 * (eps * |q| + tau)) / (2 * 10 ^ 8) := by
    have hp : 0 ≤ (|q| + 63 * (eps * |q| + tau)) / (2 * 10 ^ 8) := by positivity
    rcases hs with hs | hs | hs
    · have : t = 1 / 1000000 := by rw [ht, hs]; norm_num
      calc |m - w| * t ≤ 1 * t := mul_le_mul_of_nonneg_right hmw htp.le
        _ = 1 / 1000000 := by rw [this, one_mul]
        _ ≤ _ := by linarith
    · have : m - w = 0 := by rw [hs, sub_self]
      rw [this, abs_zero, zero_mul]
      positivity
    · have h1 := rnd_err (w * 10)
      rw [abs_mul, abs_of_pos (by norm_num : (0 : ℚ) < 10)] at h1
      have h2 : |rnd (w * 10)| ≤ |rnd (w * 10) - w * 10| + |w * 10| := by
        simpa using abs_add_le (rnd (w * 10) - w * 10) (w * 10)
      rw [abs_mul, abs_of_pos (by norm_num : (0 : ℚ) < 10)] at h2
      have h3 : |w| * 10 * eps ≤ |w| / 1000 := by
        rw [hE53]
        have := abs_nonneg w
        linarith
      have h4 : tau ≤ 1 := by rw [hE53] at hτE; norm_num at hτE; linarith
      have h5 : 2 * 10 ^ 8 ≤ |w| := by norm_num; linarith
      have h6 : |m - w| ≤ |w| / (2 * 10 ^ 8) := by
        rw [le_div_iff₀ (by norm_num)]
        calc |m - w| * (2 * 10 ^ 8) ≤ 1 * (2 * 10 ^ 8) := mul_le_mul_of_nonneg_right hmw (by norm_num)
          _ ≤ |w| := by linarith
      calc |m - w| * t ≤ |w| / (2 * 10 ^ 8) * t := mul_le_mul_of_nonneg_right h6 htp.le
        _ = (|w| * t) / (2 * 10 ^ 8) := by ring
        _ ≤ (|q| + 63 * (eps * |q| + tau)) / (2 * 10 ^ 8) := by
            apply div_le_div_of_nonneg_right hwq; norm_num
        _ ≤ _ := by linarith
  have hmt : |m * t - q| ≤ 1 / 1000000 + (|q| + 63 * (eps * |q| + tau)) / (2 * 10 ^ 8) +
      63 * (eps * |q| + tau) := by
    have e1 : m * t - q = (m - w) * t + (w * t - q) := by ring
    have h1 := abs_add_le ((m - w) * t) (w * t - q)
    rw [abs_mul, abs_of_pos htp] at h1
    rw [e1]
    linarith
  -- reading
  set p := rnd t with hp
  have hpe : |p - t| ≤ t * eps + tau := by
    have := rnd_err t
    rwa [abs_of_pos htp] at this
  have ht6 : 1 / 1000000 ≤ t := by
    rw [ht]
    apply one_div_le_one_div_of_le hT
    have : (10 : ℚ) ^ j ≤ 10 ^ 6 := pow_le_pow_right₀ (by norm_num) hj
    norm_num at this ⊢; exact this
  have hpe2 : |p - t| ≤ 2 * eps * t := by
    have : tau ≤ eps * t := by
      calc tau ≤ eps / 10 ^ 100 := hτE
        _ ≤ eps * (1 / 1000000) := by rw [hE53]; norm_num
        _ ≤ eps * t := mul_le_mul_of_nonneg_left ht6 hE.le
    linarith
  set r := rnd (m * p) with hr
  have hre := rnd_err (m * p)
  have hm0 := abs_nonneg m
  have hpt : |p| ≤ 2 * t := by
    have h1 : |p| ≤ |p - t| + |t| := by simpa using abs_add_le (p - t) t
    rw [abs_of_pos htp] at h1
    have : 2 * eps * t ≤ t := by
      rw [hE53]; linarith
    linarith
  have hrt : |r - m * t| ≤ 4 * eps * (|m| * t) + tau := by
    have e1 : r - m * t = (r - m * p) + m * (p - t) := by ring
    have h1 := abs_add_le (r - m * p) (m * (p - t))
    rw [abs_mul m] at h1
    have h2 : |m| * |p - t| ≤ |m| * (2 * eps * t) := mul_le_mul_of_nonneg_left hpe2 hm0
    have h3 : |m * p| * eps ≤ |m| * (2 * t) * eps := by
      rw [abs_mul]
      exact mul_le_mul_of_nonneg_right (mul_le_mul_of_nonneg_left hpt hm0) hE.le
    rw [e1]
    have e2 : |m| * (2 * eps * t) + |m| * (2 * t) * eps = 4 * eps * (|m| * t) := by ring
    linarith
  have hmtq : |m| * t ≤ |m * t - q| + |q| := by
    have h1 : |m * t| ≤ |m * t - q| + |q| := by simpa using abs_add_le (m * t - q) q
    rwa [abs_mul, abs_of_pos htp] at h1
  have hτ9 : tau ≤ 1 / 10 ^ 20 := by rw [hE53] at hτE; norm_num at hτE ⊢; linarith
  have hfinal : |r - q| ≤ 2 / 1000000 + |q| / 10 ^ 8 := by
    have h1 : |r - q| ≤ |r - m * t| + |m * t - q| := by
      have := abs_add_le (r - m * t) (m * t - q)
      simpa using this
    have h2 : 4 * eps * (|m| * t) ≤ 4 * eps * (|m * t - q| + |q|) :=
      mul_le_mul_of_nonneg_left hmtq (by positivity)
    generalize |m * t - q| = D at *
    generalize |q| = Q at *
    rw [hE53] at *
    norm_num at *
    linarith
  -- the range
  have hfit : Fits .s32 (truncRat w) := by
    by_contra hc
    unfold wRate at h
    dsimp only at h
    rw [henc] at h
    dsimp only at h
    rw [C01_refused hc] at h
    cases h
  have hmb : |m| ≤ 2 ^ 31 := by
    simp only [Fits] at hfit
    have h3 : |truncRat w| ≤ 2 ^ 31 := abs_le.2 ⟨by omega, by omega⟩
    have h4 : ((|truncRat w| : Int) : ℚ) ≤ ((2 ^ 31 : Int) : ℚ) := Int.cast_le.2 h3
    rw [Int.cast_abs, ← hm] at h4
    calc |m| ≤ _ := h4
      _ = 2 ^ 31 := by norm_num
  have hrb : |r| < pow2 1024 := by
    have h10 := pow2_1024
    have h1 : |r| ≤ |r - m * t| + |m * t| := by simpa using abs_add_le (r - m * t) (m * t)
    rw [abs_mul m t, abs_of_pos htp] at h1
    have h2 : |m| * t ≤ |m| * 1 := mul_le_mul_of_nonneg_left ht1 hm0
    have h3 : 4 * eps * (|m| * t) ≤ 4 * eps * (|m| * 1) := mul_le_mul_of_nonneg_left h2 (by positivity)
    rw [hE53] at *
    norm_num at *
    linarith
  have hdec : decodeRate (truncRat w) (-(j : Int)) = .ok (.fin r) := by
    unfold decodeRate
    dsimp only
    by_cases hj0 : j = 0
    · subst hj0
      have e3 : rnd ((10 ^ (-((0 : Nat) : Int)).toNat : Nat) : ℚ) = p := by
        rw [hp, ht]; simp
      have hp1 : p = 1 := by rw [hp, ht]; simpa using rnd_one
      have h10 := pow2_1024
      rw [if_pos (by simp), e3, ← hm, ← hr, if_neg (by rw [hp1]; norm_num at h10 ⊢; linarith), absRat_eq,
        if_neg (not_le.2 hrb)]
    · have e3 : rnd (1 / ((10 ^ (- -(j : Int)).toNat : Nat) : ℚ)) = p := by
        rw [hp, ht]; simp
      rw [if_neg (by omega), e3, ← hm, ← hr, absRat_eq, if_neg (not_le.2 hrb)]
  refine ⟨r, fun rest => ?_, hfinal⟩
  have := RT.rate bs h rest trivial
  simpa only [rateNorm, henc, hdec] using this

/-- 29.97 (the double nearest to it) meets the hypotheses. -/
example : ∀ k : Nat, k ≤ 6 → 1 / 1000000 < |rnd (2997 / 100) * 10 ^ k - 5994| := by
  have e : rnd (2997 / 100) = 1054475631502295 / 35184372088832 := by decide +kernel
  rw [e]
  intro k hk
  interval_cases k <;> norm_num [abs_of_pos, abs_of_neg, lt_abs]

/-- The whole life of a rate: what is loaded after saving the double nearest to `n / d`. -/
def reloaded (q : ℚ) : Option ℚ :=
  match wRate .little (.fin q) with
  | .ok (_, bs) => match rRate .little bs with
    | .ok (.fin r, _) => some r
    | _ => none
  | .error _ => none

/-- C05 does not hold for every rate: 5994, 599.4 and 5.994 all come back as 59.94. -/
theorem C05_wrong_rates :
    reloaded 5994 = some (rnd (5994 / 100)) ∧ reloaded (rnd (5994 / 10)) = some (rnd (5994 / 100)) ∧
      reloaded (rnd (5994 / 1000)) = some (rnd (5994 / 100)) := by decide +kernel

/-- C05: the rate 24000/1001 is not stable: each of the first saves changes it again. -/
theorem C05_drift : ∃ a b c, rnd (24000 / 1001) = a ∧ reloaded a = some b ∧ reloaded b = some c ∧
    b ≠ a ∧ c ≠ b := by
  have h : (match reloaded (rnd (24000 / 1001)) with
    | some b => match reloaded b with
      | some c => decide (b ≠ rnd (24000 / 1001)) && decide (c ≠ b)
      | none => false
    | none => false) = true := by decide +kernel
  generalize ha : rnd (24000 / 1001) = a at h
  split at h
  · rename_i b hb
    split at h
    · rename_i c hc
      rw [Bool.and_eq_true, decide_eq_true_eq, decide_eq_true_eq] at h
      exact ⟨a, b, c, rfl, hb, hc, h.1, h.2⟩
    · cases h
  · cases h

/-- C05: the decimal rates in common use are stable. -/
theorem C05_common_rates : ∀ q ∈ [rnd (23976 / 1000), rnd (2397 / 100), rnd (2398 / 100), rnd (2997 / 100),
    rnd (4795 / 100), rnd (5994 / 100), rnd (119880 / 1000), rnd (125 / 10)], reloaded q = some q := by
  decide +kernel

end Avb

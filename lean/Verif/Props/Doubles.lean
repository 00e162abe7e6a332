import Verif.Lemmas.Doubles
import Verif.Props.Params

/-
C73: integers given where a double is stored.
-/

namespace Avb
namespace Doubles

open F64

/-- C73: an integer that is not too large is converted to the nearest double. -/
theorem C73_nearest {v : ℤ} {d : F64} (h : F64.ofInt v = some d) : d.NearestTo v := by
  obtain ⟨h1, h2⟩ := ofInt_value h
  refine ⟨_, h1, fun d' y hy => ?_⟩
  rw [h2]
  have hU : (0 : ℚ) < 2 ^ 1074 := by positivity
  generalize hu : (2 : ℚ) ^ 1074 = U at *
  -- distances between numbers of the same sign
  have hs : sgn v = 1 ∨ sgn v = -1 := by unfold sgn; split <;> simp
  have cast : ((v.natAbs * 2 ^ 1074 : Nat) : ℚ) = v.natAbs * U := by
    rw [Nat.cast_mul, Nat.cast_pow, Nat.cast_ofNat, hu]
  have dist : ∀ b : Nat, |sgn v * (units b : ℚ) / U - v| =
      ((|((units b : Nat) : ℤ) - (v.natAbs * 2 ^ 1074 : Nat)| : ℤ) : ℚ) / U := by
    intro b
    have : sgn v * (units b : ℚ) / U - v = sgn v * (((units b : ℚ) - v.natAbs * U) / U) := by
      rw [sgn_mul v]
      field_simp
    rw [this, abs_mul, show |sgn v| = 1 by rcases hs with h | h <;> simp [h], one_mul, abs_div, abs_of_pos hU,
      Int.cast_abs, Int.cast_sub, Int.cast_natCast, Int.cast_natCast, cast]
  rw [dist]
  unfold F64.value at hy
  dsimp only at hy
  rw [hu] at hy
  split at hy
  · cases hy
  · have hy := Option.some.inj hy
    generalize d'.bits.toNat % 2 ^ 63 = b at hy
    by_cases hsame : (if d'.bits.toNat / 2 ^ 63 = 0 then (1 : ℚ) else -1) = sgn v
    · rw [hsame] at hy
      subst hy
      rw [dist]
      obtain ⟨n1, n2⟩ := roundBits_near v.natAbs b
      refine ⟨div_le_div_of_nonneg_right (Int.cast_le.2 n1) hU.le, fun he => ?_⟩
      rw [div_left_inj' hU.ne', Int.cast_inj] at he
      rcases n2 he with h | h
      · left; rw [h]
      · exact .inr h
    · have hopp : (if d'.bits.toNat / 2 ^ 63 = 0 then (1 : ℚ) else -1) = - sgn v := by
        rcases hs with h | h <;> rw [h] at hsame ⊢ <;> split at hsame <;> simp_all
      rw [hopp] at hy
      have far : |y - v| = ((units b : ℚ) + v.natAbs * U) / U := by
        have : y - v = - sgn v * (((units b : ℚ) + v.natAbs * U) / U) := by
          rw [← hy]
          rw [sgn_mul v]
          field_simp
          ring
        rw [this, abs_mul, show |-sgn v| = 1 by rcases hs with h | h <;> simp [h], one_mul, abs_of_nonneg]
        exact div_nonneg (add_nonneg (Nat.cast_nonneg _) (mul_nonneg (Nat.cast_nonneg _) hU.le)) hU.le
      obtain ⟨n1, n2⟩ := roundBits_near v.natAbs 0
      have z : ((|((units 0 : Nat) : ℤ) - (v.natAbs * 2 ^ 1074 : Nat)| : ℤ) : ℚ) = v.natAbs * U := by
        rw [show units 0 = 0 from rfl, ← cast, Nat.cast_zero, zero_sub, abs_neg, abs_of_nonneg (Int.natCast_nonneg _),
          Int.cast_natCast]
      have n1' := (Int.cast_le (R := ℚ)).2 n1
      rw [z] at n1'
      have hb : (0 : ℚ) ≤ units b := Nat.cast_nonneg _
      rw [far]
      refine ⟨div_le_div_of_nonneg_right (by linarith) hU.le, fun he => ?_⟩
      rw [div_left_inj' hU.ne'] at he
      have hb0 : (units b : ℚ) = 0 := by linarith
      rw [hb0, zero_add, ← z, Int.cast_inj] at he
      rcases n2 he with h | h
      · left
        rw [← hy, ← h, hb0, show units 0 = 0 from rfl]
        simp
      · exact .inr h

theorem units_exact {n b : Nat} (h : units b = n * 2 ^ 1074) : roundBits n = b := by
  have h1 := (roundBits_near n b).1
  rw [h, sub_self, abs_zero] at h1
  have h2 := abs_eq_zero.1 (le_antisymm h1 (abs_nonneg _))
  have h3 : ((units (roundBits n) : Nat) : ℤ) = (n * 2 ^ 1074 : Nat) := by linarith
  rw [← h] at h3
  exact units_mono.injective (Int.ofNat.inj h3)

theorem ofInt_exact {v : ℤ} {b : Nat} (hb : b < 2047 * 2 ^ 52) (h : units b = v.natAbs * 2 ^ 1074) :
    ∃ d, F64.ofInt v = some d ∧ d.value = some (v : ℚ) := by
  have h1 := units_exact h
  have h2 : F64.ofInt v = some ⟨UInt64.ofNat (roundBits v.natAbs + if v < 0 then 2 ^ 63 else 0)⟩ := by
    unfold F64.ofInt; rw [if_pos (by omega)]
  refine ⟨_, h2, ?_⟩
  rw [(ofInt_value h2).1, h1, h, Nat.cast_mul, Nat.cast_pow, Nat.cast_ofNat, ← mul_assoc, ← sgn_mul v]
  have hU : (0 : ℚ) < 2 ^ 1074 := by positivity
  generalize (2 : ℚ) ^ 1074 = U at hU
  rw [mul_div_assoc, div_self hU.ne', mul_one]

/-- C73: an integer that is the value of some double is stored exactly. -/
theorem C73_exact {v : ℤ} {d' : F64} (h : d'.value = some (v : ℚ)) :
    ∃ d, F64.ofInt v = some d ∧ d.value = some (v : ℚ) := by
  unfold F64.value at h
  dsimp only at h
  split at h
  · cases h
  · next hb =>
    have h := Option.some.inj h
    refine ofInt_exact (b := d'.bits.toNat % 2 ^ 63) (by omega) ?_
    generalize d'.bits.toNat % 2 ^ 63 = b at h
    have hU : (0 : ℚ) < 2 ^ 1074 := by positivity
    have hn : |(v : ℚ)| = (v.natAbs : ℚ) := by rw [Nat.cast_natAbs, Int.cast_abs]
    have cast : ((v.natAbs * 2 ^ 1074 : Nat) : ℚ) = v.natAbs * 2 ^ 1074 := by
      rw [Nat.cast_mul, Nat.cast_pow, Nat.cast_ofNat]
    refine Nat.cast_injective (R := ℚ) ?_
    rw [cast, ← hn, ← h]
    generalize (2 : ℚ) ^ 1074 = U at hU
    have hb : (0 : ℚ) ≤ units b := Nat.cast_nonneg _
    rw [abs_div, abs_mul, abs_of_pos hU, abs_of_nonneg hb]
    split <;> simp <;> field_simp

/-- C73: so are all integers up to 2^53. -/
theorem C73_small {v : ℤ} (h1 : -2 ^ 53 ≤ v) (h2 : v ≤ 2 ^ 53) :
    ∃ d, F64.ofInt v = some d ∧ d.value = some (v : ℚ) := by
  have hn : v.natAbs ≤ 2 ^ 53 := by omega
  by_cases h0 : v.natAbs = 0
  · refine ofInt_exact (b := 0) (by omega) ?_
    rw [h0, Nat.zero_mul]; rfl
  by_cases h : v.natAbs = 2 ^ 53
  · refine ofInt_exact (b := 1075 * 2 ^ 52 + 2 ^ 52) (by omega) ?_
    rw [units_sig le_rfl (by omega), h, ← Nat.pow_add, ← Nat.pow_add]
  · have hk : v.natAbs.log2 ≤ 52 := by
      have := (Nat.log2_lt h0 (k := 53)).2 (by omega)
      omega
    have l1 := Nat.log2_self_le h0
    have l2 := Nat.lt_log2_self (n := v.natAbs)
    generalize v.natAbs.log2 = k at hk l1 l2
    refine ofInt_exact (b := (k + 1022) * 2 ^ 52 + v.natAbs * 2 ^ (52 - k)) ?_ ?_
    · have : v.natAbs * 2 ^ (52 - k) < 2 ^ (k + 1) * 2 ^ (52 - k) :=
        Nat.mul_lt_mul_of_pos_right l2 (by positivity)
      rw [← Nat.pow_add, show k + 1 + (52 - k) = 53 by omega] at this
      omega
    · have a1 : v.natAbs * 2 ^ (52 - k) < 2 ^ (k + 1) * 2 ^ (52 - k) :=
        Nat.mul_lt_mul_of_pos_right l2 (by positivity)
      have a2 : 2 ^ k * 2 ^ (52 - k) ≤ v.natAbs * 2 ^ (52 - k) := Nat.mul_le_mul_right _ l1
      rw [← Nat.pow_add, show k + 1 + (52 - k) = 53 by omega] at a1
      rw [← Nat.pow_add, show k + (52 - k) = 52 by omega] at a2
      rw [units_sig a2 a1.le, Nat.mul_assoc, ← Nat.pow_add, show 52 - k + (k + 1022) = 1074 by omega]

/-- C73: which integers cannot be stored as a double: those at least half a step beyond the largest double.
Writing one raises `struct.error`. -/
theorem C73_overflow (v : ℤ) :
    wDoubleInt v = .error .struct ↔ 2 ^ 1024 - 2 ^ 970 ≤ v.natAbs := by
  rw [← roundBits_large]
  unfold wDoubleInt F64.ofInt
  by_cases h : roundBits v.natAbs < 2047 * 2 ^ 52
  · rw [if_pos h]
    constructor
    · intro h1
      obtain ⟨_, h2⟩ := (Wr.ok_double (v := ⟨UInt64.ofNat (roundBits v.natAbs + if v < 0 then 2 ^ 63 else 0)⟩)).2 trivial
      dsimp only at h1
      rw [h1] at h2
      cases h2
    · intro h1; omega
  · rw [if_neg h]
    exact ⟨fun _ => by omega, fun _ => rfl⟩

/-- The places of an object where an int is stored as a double: the value of a parameter of that type, the
values of the control points of a parameter clip of that type, and the point properties of that type. -/
inductive IntAsDouble : Obj → ℤ → Prop
  | item {x : ParameterItem} {v : ℤ} : x.value_type = 2 → x.value = .int v → IntAsDouble (.PRIT x) v
  | point {x : ParamClip} {p : PCP} {v : ℤ} : x.value_type = 2 → p ∈ x.control_points → p.value = .int v →
      IntAsDouble (.PRCL x) v
  | prop {x : ParamClip} {p : PCP} {q : PCPProp} {v : ℤ} : p ∈ x.control_points → q ∈ p.pp → q.type = 2 →
      q.value = .int v → IntAsDouble (.PRCL x) v

theorem wDbl_int {v : ℤ} (h : Wr.Ok (PVal.wDbl (.int v))) : ∃ d, F64.ofInt v = some d := by
  obtain ⟨_, h⟩ := h
  unfold PVal.wDbl wDoubleInt at h
  dsimp only at h
  split at h
  · exact ⟨_, by assumption⟩
  · cases h

theorem IntAsDouble.fits {c : WCtx} {o : Obj} {v : ℤ} (h : IntAsDouble o v) (hw : Wr.Ok (o.write c)) :
    ∃ d, F64.ofInt v = some d := by
  have point : ∀ {x : ParamClip}, Wr.Ok ((Obj.PRCL x).write c) → ∀ p ∈ x.control_points, Wr.Ok (p.write c x.value_type) := by
    intro x hw p hp
    have h1 : Wr.Ok (x.write c) := hw
    unfold ParamClip.write at h1
    simp only [Wr.ok_bind, Wr.ok_forW] at h1
    exact h1.2.2.2.2.2.2.1 p hp
  cases h with
  | @item x v ht hv =>
    have h1 : Wr.Ok (x.write c) := hw
    unfold ParameterItem.write at h1
    simp only [Wr.ok_bind] at h1
    have h2 : Wr.Ok (x.writeValue c) := by
      first
      | exact h1.1
      | exact h1.2.1
      | exact h1.2.2.1
      | exact h1.2.2.2.1
      | exact h1.2.2.2.2.1
    unfold ParameterItem.writeValue at h2
    rw [if_neg (by omega), if_pos ht, hv] at h2
    exact wDbl_int h2
  | @point x p v ht hp hv =>
    have h1 := point hw p hp
    unfold PCP.write at h1
    simp only [Wr.ok_bind] at h1
    have h2 := h1.2.2.2.1
    unfold PCP.writeValue at h2
    rw [if_neg (by omega), if_pos ht, hv] at h2
    exact wDbl_int h2
  | @prop x p q v hp hq ht hv =>
    have h1 := point hw p hp
    unfold PCP.write at h1
    simp only [Wr.ok_bind, Wr.ok_forW] at h1
    have h2 := h1.2.2.2.2.2 q hq
    unfold PCPProp.write at h2
    simp only [Wr.ok_bind] at h2
    have h2 := h2.2.2
    unfold PCPProp.writeValue at h2
    rw [if_pos ht, hv] at h2
    exact wDbl_int h2

theorem saved_writes {h : Heap} {fuel : Nat} {bo : BO} {hd : HeaderInfo} {content : Ref} {bytes : Bytes}
    (hh : HeapOK h) (hinj : IidInj h content) (hs : save h fuel bo hd content = .ok bytes) {a : Ref} {e : Entry}
    (ha : Reach h content a) (he : h a = .ok e) : ∃ c, Wr.Ok (e.obj.write c) := by
  obtain ⟨pre, post, s, done, sc⟩ := save_core hh hs
  obtain ⟨i, hi, rfl, h2, _⟩ := sc.chunk hinj ha
  rw [h2] at he; cases he
  obtain ⟨m, _, hw, _⟩ := sc.inv.each i hi
  exact ⟨_, _, hw⟩

/-- C73: a graph with an integer that is too large where a double is stored cannot be saved. -/
theorem C73_refused {h : Heap} {content : Ref} (hh : HeapOK h) (hinj : IidInj h content) {a : Ref} {e : Entry}
    (ha : Reach h content a) (he : h a = .ok e) {v : ℤ} (hv : IntAsDouble e.obj v)
    (hl : 2 ^ 1024 - 2 ^ 970 ≤ v.natAbs) (fuel : Nat) (bo : BO) (hd : HeaderInfo) (bytes : Bytes) :
    save h fuel bo hd content ≠ .ok bytes := by
  intro hs
  obtain ⟨c, hw⟩ := saved_writes hh hinj hs ha he
  obtain ⟨d, hd⟩ := hv.fits hw
  have := (C73_overflow v).2 hl
  unfold wDoubleInt at this
  rw [hd] at this
  obtain ⟨_, h2⟩ := (Wr.ok_double (v := d)).2 trivial
  dsimp only at this
  rw [this] at h2
  cases h2

/-- C73: after a save, in either byte order, every integer in such a place has become the nearest double. -/
theorem C73_saved {h : Heap} {fuel : Nat} {bo : BO} {hd : HeaderInfo} {content : Ref}
    {bytes : Bytes} (hh : HeapOK h) (hinj : IidInj h content) (ht : TextOK .macroman hd.last_save_str)
    (hread : ∀ a e, Reach h content a → h a = .ok e → e.obj.Readable)
    (hs : save h fuel bo hd content = .ok bytes) :
    ∃ f num, openTable bytes = .ok f ∧ SameGraph h content f num ∧ ∀ a e, Reach h content a → h a = .ok e →
      (∀ (x : ParameterItem) (v : ℤ), e.obj = .PRIT x → x.value_type = 2 → x.value = .int v →
        ∃ y d, readObject f (num a) = .ok (some (.PRIT y)) ∧ y.value = .dbl d ∧ d.NearestTo v) ∧
      (∀ x, e.obj = .PRCL x → ∃ y, readObject f (num a) = .ok (some (.PRCL y)) ∧
        (x.value_type = 2 → ∀ (i : Nat) (p : PCP) (v : ℤ), x.control_points[i]? = some p → p.value = .int v →
          ∃ q d, y.control_points[i]? = some q ∧ q.value = .dbl d ∧ d.NearestTo v) ∧
        (∀ (i : Nat) (p : PCP) (j : Nat) (w : PCPProp) (v : ℤ), x.control_points[i]? = some p → p.pp[j]? = some w → w.type = 2 → w.value = .int v →
          ∃ q u d, y.control_points[i]? = some q ∧ q.pp[j]? = some u ∧ u.value = .dbl d ∧ d.NearestTo v)) := by
  obtain ⟨f, num, h1, _, h2, _⟩ := C12_save_open hh hinj ht hread hs
  refine ⟨f, num, h1, h2, fun a e ha he => ?_⟩
  have h3 := h2.same a e ha he
  obtain ⟨c, hw⟩ := saved_writes hh hinj hs ha he
  have fits : ∀ {v : ℤ}, IntAsDouble e.obj v → ∃ d, F64.ofInt v = some d ∧ d.NearestTo v := by
    intro v hv
    obtain ⟨d, hd⟩ := hv.fits hw
    exact ⟨d, hd, C73_nearest hd⟩
  have val : ∀ {c : WCtx} {v : ℤ} {d : F64} {w : PVal}, F64.ofInt v = some d → w = .int v →
      (w.stored 2).norm c = .dbl d := by
    rintro c v d _ hd rfl
    simp [PVal.stored, PVal.asDouble, PVal.norm, hd]
  constructor
  · intro x v hx ht hv
    rw [hx] at h3
    obtain ⟨d, hd, hn⟩ := fits (v := v) (by rw [hx]; exact .item ht hv)
    refine ⟨_, d, h3, ?_, hn⟩
    show (x.value.stored x.value_type).norm _ = _
    rw [ht]
    exact val hd hv
  · intro x hx
    rw [hx] at h3
    refine ⟨_, h3, fun ht i p v hp hv => ?_, fun i p j w v hp hq ht hv => ?_⟩
    · obtain ⟨d, hd, hn⟩ := fits (v := v) (by rw [hx]; exact .point ht (List.mem_of_getElem? hp) hv)
      refine ⟨p.norm (SaveCore.finalCtx f.bo num) x.value_type, d, ?_, ?_, hn⟩
      · show (x.control_points.map _)[i]? = _
        rw [List.getElem?_map, hp]; rfl
      · show (p.value.stored x.value_type).norm _ = _
        rw [ht]
        exact val hd hv
    · obtain ⟨d, hd, hn⟩ := fits (v := v) (by
        rw [hx]; exact .prop (List.mem_of_getElem? hp) (List.mem_of_getElem? hq) ht hv)
      refine ⟨p.norm (SaveCore.finalCtx f.bo num) x.value_type, w.norm, d, ?_, ?_, ?_, hn⟩
      · show (x.control_points.map _)[i]? = _
        rw [List.getElem?_map, hp]; rfl
      · show (p.pp.map _)[j]? = _
        rw [List.getElem?_map, hq]; rfl
      · show w.value.stored w.type = _
        rw [ht, hv]
        simp [PVal.stored, PVal.asDouble, hd]

/-! ### examples -/

/-- 2^53 + 1 lies between two doubles: the one with the even last bit is 2^53. -/
example : ∃ d, F64.ofInt (2 ^ 53 + 1) = some d ∧ d.NearestTo ((2 ^ 53 + 1 : ℤ) : ℚ) ∧
    d.bits = 0x4340000000000000 :=
  ⟨⟨0x4340000000000000⟩, by decide +kernel, C73_nearest (by decide +kernel), rfl⟩

/-- 3 · 2^1000 is a double, though it is far beyond 2^53. -/
example : ∃ d, F64.ofInt (-3 * 2 ^ 1000) = some d ∧ d.NearestTo ((-3 * 2 ^ 1000 : ℤ) : ℚ) :=
  ⟨⟨0xFE88000000000000⟩, by decide +kernel, C73_nearest (by decide +kernel)⟩

/-- It is stored exactly. -/
example : ∃ d, F64.ofInt (-3 * 2 ^ 1000) = some d ∧ d.value = some ((-3 * 2 ^ 1000 : ℤ) : ℚ) :=
  C73_exact (d' := ⟨0xFE88000000000000⟩) (by decide +kernel)

example : ∃ d, F64.ofInt (-7) = some d ∧ d.value = some ((-7 : ℤ) : ℚ) := C73_small (by norm_num) (by norm_num)

/-- The largest integer that is stored, and the next one. -/
example : wDoubleInt (2 ^ 1024 - 2 ^ 970) = .error .struct ∧ wDoubleInt (2 ^ 1024 - 2 ^ 970 - 1) ≠ .error .struct := by
  constructor
  · rw [C73_overflow]; decide +kernel
  · exact fun h => absurd ((C73_overflow _).1 h) (by decide +kernel)

/-- A parameter of type double with an integer value, referred to by another parameter. -/
def exHeap (v : ℤ) : Heap := fun r =>
  if r = 1 then .ok ⟨11, true, .PRIT (Params.exParam Params.exUuid 4 (.ref 2)), [.prop 2, .prop 0]⟩
  else if r = 2 then .ok ⟨12, true, .PRIT (Params.exParam Params.exUuid 2 (.int v)), [.prop 0]⟩
  else .error .index

theorem exHeap_cases {v : ℤ} {r : Ref} {e : Entry} (h : exHeap v r = .ok e) :
    (r = 1 ∧ e = ⟨11, true, .PRIT (Params.exParam Params.exUuid 4 (.ref 2)), [.prop 2, .prop 0]⟩) ∨
    (r = 2 ∧ e = ⟨12, true, .PRIT (Params.exParam Params.exUuid 2 (.int v)), [.prop 0]⟩) := by
  unfold exHeap at h
  split at h
  · injection h with h; exact .inl ⟨by assumption, h.symm⟩
  · split at h
    · injection h with h; exact .inr ⟨by assumption, h.symm⟩
    · cases h

theorem exHeap_ok (v : ℤ) : HeapOK (exHeap v) := by
  intro r e he
  rcases exHeap_cases he with ⟨rfl, rfl⟩ | ⟨rfl, rfl⟩ <;> intro w <;> rfl

theorem exHeap_inj (v : ℤ) : IidInj (exHeap v) 1 := by
  intro a b ea eb _ _ ha hb hab
  rcases exHeap_cases ha with ⟨rfl, rfl⟩ | ⟨rfl, rfl⟩ <;> rcases exHeap_cases hb with ⟨rfl, rfl⟩ | ⟨rfl, rfl⟩ <;>
    first | rfl | (simp at hab)

theorem exHeap_reach (v : ℤ) : Reach (exHeap v) 1 2 :=
  ⟨by decide, .single ⟨_, rfl, by decide, by decide, .prop 2, by simp, rfl⟩⟩

example (bo : BO) : ∃ (bytes : Bytes) (f : AvbFile) (num : Ref → Nat) (y : ParameterItem) (d : F64),
    save (exHeap (2 ^ 53 + 1)) 10 bo exInfo 1 = .ok bytes ∧ openTable bytes = .ok f ∧
    readObject f (num 2) = .ok (some (.PRIT y)) ∧ y.value = .dbl d ∧ d.NearestTo ((2 ^ 53 + 1 : ℤ) : ℚ) := by
  obtain ⟨bytes, hs⟩ : ∃ bytes, save (exHeap (2 ^ 53 + 1)) 10 bo exInfo 1 = .ok bytes := by
    have : ∀ x : Except Err Bytes, x.isOk = true → ∃ b, x = .ok b := by
      intro x hx; cases x with
      | ok b => exact ⟨b, rfl⟩
      | error e => cases hx
    apply this
    cases bo <;> decide +kernel
  obtain ⟨f, num, h1, h2, h3⟩ := C73_saved (exHeap_ok _) (exHeap_inj _) exInfo_ok
    (fun a e _ he => by
      rcases exHeap_cases he with ⟨rfl, rfl⟩ | ⟨rfl, rfl⟩ <;> exact textsOK_short (by decide)) hs
  obtain ⟨y, d, h4, h5, h6⟩ := (h3 2 _ (exHeap_reach _) rfl).1 _ _ rfl rfl rfl
  exact ⟨bytes, f, num, y, d, hs, h1, h4, h5, h6⟩

example (fuel : Nat) (bo : BO) (hd : HeaderInfo) (bytes : Bytes) :
    save (exHeap (-2 ^ 1024)) fuel bo hd 1 ≠ .ok bytes :=
  C73_refused (exHeap_ok _) (exHeap_inj _) (exHeap_reach _) rfl (.item rfl rfl) (by decide +kernel) fuel bo hd bytes

end Doubles
end Avb

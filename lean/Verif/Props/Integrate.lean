import Verif.Props.Bezier
import Mathlib.Algebra.BigOperators.Intervals

/-
C46: `ParamClip.integrate`, in exact arithmetic.
-/

namespace Avb.Curve

open Avb

/-- C26: constant, linear and cubic curves have a value at every time. -/
theorem C26_total {kind : Int} (hk : kind = 2 ∨ kind = 3 ∨ kind = 6) {ps : List Point} (hne : ps ≠ []) (hT : Timed ps)
    (hs : ps.Pairwise fun a b => Time id a + 5 / 2 * (1 / 10 ^ 10) ≤ Time id b) (hnum : ∀ p ∈ ps, ∃ v, p.value = .num v)
    (t : ℝ) : ∃ v, valueAt id kind ps t = .ok v := by
  have hst : Strict id ps := hs.imp fun h => by linarith
  obtain ⟨i, hi, h⟩ := C25_last (fl := id) hne hT hst t
  rcases h with ⟨p, hp, h1, h2⟩ | ⟨rfl, h⟩
  · obtain ⟨v, hv⟩ := hnum p (List.mem_of_getElem? hp)
    cases hq : ps[i + 1]? with
    | none => exact ⟨v, by rw [C26_after hT hst hp hq h1, hv]; rfl⟩
    | some q =>
      obtain ⟨w, hw⟩ := hnum q (List.mem_of_getElem? hq)
      have h3 := h2 _ q hq (Nat.lt_succ_self _)
      rcases hk with rfl | rfl | rfl
      · exact ⟨v, by rw [C26_constant hT hst hp hq h1 h3, hv]; rfl⟩
      · obtain ⟨x, hx, _⟩ := C26_linear hT hst hp hq h1 h3 hv hw
        exact ⟨x, hx⟩
      · have hgap : Time id p + 5 / 2 * (1 / 10 ^ 10) ≤ Time id q := by
          obtain ⟨a, rfl⟩ := List.getElem?_eq_some_iff.1 hp
          obtain ⟨b, rfl⟩ := List.getElem?_eq_some_iff.1 hq
          exact List.pairwise_iff_getElem.1 hs i (i + 1) a b (Nat.lt_succ_self _)
        obtain ⟨x, hx, _⟩ := C26_cubic_value hT hst hnum hp hq h1 h3 (by linarith) hv hw
        exact ⟨x, hx⟩
  · cases ps with
    | nil => exact absurd rfl hne
    | cons p ps =>
      obtain ⟨v, hv⟩ := hnum p (by simp)
      exact ⟨v, by rw [C26_before hT (hst.imp le_of_lt) (p := p) rfl (h p (by simp)), hv]; rfl⟩

/-- A cubic curve through three points. -/
example (t : ℝ) : ∃ v, valueAt id 6 [⟨(0, 1), 1, .num 2, []⟩, ⟨(4, 1), 1, .num 3, []⟩, ⟨(19, 2), 1, .num (-1), []⟩] t =
    .ok v := by
  refine C26_total (.inr (.inr rfl)) (by simp) ?_ ?_ ?_ t
  · intro p hp
    simp only [List.mem_cons, List.not_mem_nil, or_false] at hp
    rcases hp with rfl | rfl | rfl <;> exact ⟨by decide, by decide⟩
  · simp only [List.pairwise_cons, List.mem_cons, List.not_mem_nil, or_false, Time, id]
    refine ⟨?_, ?_, ?_, List.Pairwise.nil⟩
    · rintro b (rfl | rfl) <;> norm_num
    · rintro b rfl; norm_num
    · rintro b h; cases h
  · intro p hp
    simp only [List.mem_cons, List.not_mem_nil, or_false] at hp
    rcases hp with rfl | rfl | rfl <;> exact ⟨_, rfl⟩

/-- The rule used for half a frame: five trapezoids, shifted by one fifth of the interval. -/
noncomputable def halfFrame (f : ℝ → ℝ) (x : ℝ) : ℝ :=
  ∑ i ∈ Finset.range 5, (f (x - 1 / 2 + i / 10) + f (x - 1 / 2 + (i - 1) / 10)) / 2 * (1 / 10)

theorem trapezoid_spec {f : ℝ → Except Err ℝ} {g : ℝ → ℝ} (hf : ∀ x, f x = .ok (g x)) (x : ℝ) :
    trapezoid id f (x - 1 / 2) x = .ok (halfFrame g x) := by
  have hh : (x - (x - 1 / 2)) / 5 = 1 / 10 := by ring
  have h5 : (5 : ℝ) ≠ 0 := by norm_num
  unfold trapezoid
  rw [show fdiv id (id (x - (x - 1 / 2))) 5 = _ from fdiv_id h5]
  simp only [id, hh, ok_bind, hf, trapezoidFrom]
  congr 1
  unfold halfFrame
  simp only [Finset.sum_range_succ, Finset.sum_range_zero]
  push_cast
  ring_nf

theorem integrateFrom_spec {f : ℝ → Except Err ℝ} {S : ℝ → ℝ} (hS : ∀ x, trapezoid id f (x - 1 / 2) x = .ok (S x))
    (n : Nat) (i : Int) (pos : ℝ) (t : Option ℝ) (ht : n = 0 → t = some ((i : ℝ) - 1 / 2)) :
    integrateFrom id f n i pos t = .ok ((List.range (2 * n + 1)).map fun (k : Nat) =>
      ((i : ℝ) + (k : ℝ) / 2, pos + ∑ j ∈ Finset.range (k + 1), S ((i : ℝ) + (j : ℝ) / 2))) := by
  induction n generalizing i pos t with
  | zero =>
    rw [ht rfl]
    unfold integrateFrom
    simp only [id]
    have : (i : ℝ) - 1 / 2 + 1 / 2 = i := by ring
    rw [this, hS, ok_bind]
    simp
    rfl
  | succ n ih =>
    unfold integrateFrom
    simp only [id]
    rw [hS, ok_bind, hS, ok_bind, ih _ _ _ (fun _ => by congr 1; push_cast; ring), ok_bind]
    show Except.ok _ = Except.ok _
    congr 1
    have hr : List.range (2 * (n + 1) + 1) = 0 :: 1 :: (List.range (2 * n + 1)).map (fun k => k + 2) := by
      rw [show 2 * (n + 1) + 1 = (2 * n + 1) + 1 + 1 by ring, List.range_succ_eq_map, List.range_succ_eq_map,
        List.map_cons, List.map_map]
      rfl
    rw [hr, List.map_cons, List.map_cons, List.map_map]
    congr 1
    · simp
    · congr 1
      · simp [Finset.sum_range_succ]; ring
      · apply List.map_congr_left
        intro k _
        simp only [Function.comp]
        congr 1
        · push_cast; ring
        · rw [show k + 2 + 1 = k + 1 + 1 + 1 by ring, Finset.sum_range_succ' _ (k + 1 + 1), Finset.sum_range_succ' _ (k + 1)]
          have : ∀ j : Nat, S ((i : ℝ) + ((j + 1 + 1 : Nat) : ℝ) / 2) = S (((i + 1 : Int) : ℝ) + (j : ℝ) / 2) := by
            intro j; congr 1; push_cast; ring
          simp only [this]
          simp
          ring

theorem lastAt_spec {c : Int} {v : ℝ} (l : List (ℝ × ℝ)) (acc : Option ℝ) (hall : ∀ e ∈ l, e.1 = (c : ℝ) → e.2 = v)
    (h : acc = some v ∨ ∃ e ∈ l, e.1 = (c : ℝ)) (hacc : ∀ w, acc = some w → w = v) : lastAt c acc l = some v := by
  induction l generalizing acc with
  | nil =>
    rcases h with h | ⟨e, he, _⟩
    · exact h
    · simp at he
  | cons x l ih =>
    obtain ⟨t, w⟩ := x
    rw [lastAt]
    split
    · rename_i ht
      have hw : w = v := hall (t, w) (by simp) ht
      subst hw
      exact ih _ (fun e he => hall e (by simp [he])) (Or.inl rfl) (fun u hu => by cases hu; rfl)
    · rename_i ht
      refine ih _ (fun e he => hall e (by simp [he])) ?_ hacc
      rcases h with h | ⟨e, he, hc⟩
      · exact Or.inl h
      · rcases List.mem_cons.1 he with rfl | he
        · exact absurd hc ht
        · exact Or.inr ⟨e, he, hc⟩

theorem lastAt_none {c : Int} (l : List (ℝ × ℝ)) (h : ∀ e ∈ l, e.1 ≠ (c : ℝ)) : lastAt c none l = none := by
  induction l with
  | nil => rfl
  | cons x l ih =>
    obtain ⟨t, w⟩ := x
    rw [lastAt, if_neg (h (t, w) (by simp))]
    exact ih fun e he => h e (by simp [he])

theorem shifted_spec {start stop : Int} {off : ℝ} (l : List (ℝ × ℝ)) (h : ∀ e ∈ l, e.1 ≤ (stop : ℝ)) :
    shifted id start stop off l =
      (open Classical in (l.filter fun e => decide ((start : ℝ) ≤ e.1)).map fun e => (e.1, e.2 - off)) := by
  induction l with
  | nil => rfl
  | cons x l ih =>
    obtain ⟨t, w⟩ := x
    have ht : ¬ t > (stop : ℝ) := not_lt.2 (h (t, w) (by simp))
    have ih := ih fun e he => h e (by simp [he])
    rw [shifted, if_neg ht, ih]
    by_cases hs : t ≥ (start : ℝ)
    · rw [if_pos hs, List.filter_cons_of_pos (by simpa using hs)]
      rfl
    · rw [if_neg hs, List.filter_cons_of_neg (by simpa using hs)]

/-- The whole part of a number: the whole number next to it in the direction of zero. -/
def Whole (x : ℝ) (z : Int) : Prop := |(z : ℝ)| ≤ |x| ∧ |x - z| < 1 ∧ 0 ≤ x * z

theorem whole_trunc (x : ℝ) : Whole x (trunc x) := by
  unfold trunc
  split
  · rename_i h
    have h0 : (0 : Int) ≤ ⌊x⌋ := Int.floor_nonneg.2 h
    have h0' : (0 : ℝ) ≤ (⌊x⌋ : ℝ) := by exact_mod_cast h0
    have h1 := Int.floor_le x
    have h2 := Int.lt_floor_add_one x
    refine ⟨?_, ?_, mul_nonneg h h0'⟩
    · rw [abs_of_nonneg h, abs_of_nonneg h0']; exact h1
    · rw [abs_of_nonneg (by linarith)]; linarith
  · rename_i h
    have h : x < 0 := not_le.1 h
    have h1 := Int.le_ceil x
    have h2 := Int.ceil_lt_add_one x
    have h0 : ⌈x⌉ ≤ (0 : Int) := Int.ceil_le.2 (by simpa using h.le)
    have h0' : (⌈x⌉ : ℝ) ≤ 0 := by exact_mod_cast h0
    refine ⟨?_, ?_, mul_nonneg_of_nonpos_of_nonpos h.le h0'⟩
    · rw [abs_of_neg h, abs_of_nonpos h0']; linarith
    · rw [abs_of_nonpos (by linarith)]; linarith

/-- There is only one whole part. -/
theorem Whole.unique {x : ℝ} {z w : Int} (hz : Whole x z) (hw : Whole x w) : z = w := by
  obtain ⟨z1, z2, z3⟩ := hz
  obtain ⟨w1, w2, w3⟩ := hw
  rw [abs_lt] at z2 w2
  rcases lt_trichotomy x 0 with h | h | h
  · have hz0 : (z : ℝ) ≤ 0 := nonpos_of_mul_nonneg_right z3 h
    have hw0 : (w : ℝ) ≤ 0 := nonpos_of_mul_nonneg_right w3 h
    rw [abs_of_neg h, abs_of_nonpos hz0] at z1
    rw [abs_of_neg h, abs_of_nonpos hw0] at w1
    have a : (z : ℝ) < (w : ℝ) + 1 := by linarith
    have b : (w : ℝ) < (z : ℝ) + 1 := by linarith
    have a : z < w + 1 := by exact_mod_cast a
    have b : w < z + 1 := by exact_mod_cast b
    omega
  · subst h
    simp at z1 w1
    omega
  · have hz0 : (0 : ℝ) ≤ z := nonneg_of_mul_nonneg_right z3 h
    have hw0 : (0 : ℝ) ≤ w := nonneg_of_mul_nonneg_right w3 h
    rw [abs_of_pos h, abs_of_nonneg hz0] at z1
    rw [abs_of_pos h, abs_of_nonneg hw0] at w1
    have a : (z : ℝ) < (w : ℝ) + 1 := by linarith
    have b : (w : ℝ) < (z : ℝ) + 1 := by linarith
    have a : z < w + 1 := by exact_mod_cast a
    have b : w < z + 1 := by exact_mod_cast b
    omega

/-- C46: `integrate` lists every half frame from start to end once, with a running total that is the base
frame of the first key frame at the (whole) time of that key frame and grows by the integral over every
half frame. -/
theorem C46_integrate {kind : Int} {ps : List Point} {first : Point} (hps : ps.head? = some first)
    (hT : first.offset.2 ≠ 0 ∧ first.timescale ≠ 0) {g : ℝ → ℝ} (hf : ∀ x, valueAt id kind ps x = .ok (g x))
    {start stop center : Int} (hc : Whole (Time id first) center) (h1 : start ≤ stop) (h2 : center ≤ stop)
    (h3 : min start center < stop) :
    ∃ A : ℝ → ℝ, A center = firstOf 14 first.pp ∧
      (∀ k : Nat, A ((min start center : Int) + ((k : ℝ) + 1) / 2) =
        A ((min start center : Int) + (k : ℝ) / 2) + halfFrame g ((min start center : Int) + ((k : ℝ) + 1) / 2)) ∧
      integrate id kind ps start (some stop) =
        .ok ((List.range (2 * (stop - start).toNat + 1)).map fun (k : Nat) =>
          ((start : ℝ) + (k : ℝ) / 2, A ((start : ℝ) + (k : ℝ) / 2))) := by
  replace hc := hc.unique (whole_trunc _)
  rw [← baseFrame_eq]
  obtain ⟨rest, rfl⟩ : ∃ rest, ps = first :: rest := by
    cases ps with
    | nil => cases hps
    | cons a l => cases hps; exact ⟨l, rfl⟩
  set lo := min start center with hlo
  set S := halfFrame g with hS
  set V : Nat → ℝ := fun k => ∑ j ∈ Finset.range (k + 1), S ((lo : ℝ) + (j : ℝ) / 2) with hV
  set base := baseFrame first.pp
  set kc := 2 * (center - lo).toNat with hkc
  have hflo : ∀ k : Nat, ⌊2 * ((lo : ℝ) + (k : ℝ) / 2 - lo)⌋₊ = k := by
    intro k
    rw [show 2 * ((lo : ℝ) + (k : ℝ) / 2 - lo) = (k : ℝ) by ring]
    exact Nat.floor_natCast k
  have hcast : ∀ z : Int, lo ≤ z → (z : ℝ) = lo + ((2 * (z - lo).toNat : Nat) : ℝ) / 2 := by
    intro z hz
    have : ((z - lo).toNat : Int) = z - lo := Int.toNat_of_nonneg (by omega)
    have : (((z - lo).toNat : Int) : ℝ) = ((z - lo : Int) : ℝ) := by rw [this]
    push_cast at this ⊢
    rw [this]; ring
  refine ⟨fun x => V ⌊2 * (x - lo)⌋₊ - (V kc - base), ?_, ?_, ?_⟩
  · simp only
    rw [hcast center (by omega), hflo, hkc]
    ring
  · intro k
    simp only
    have e : ((lo : ℝ) + ((k : ℝ) + 1) / 2) = lo + (((k + 1 : Nat)) : ℝ) / 2 := by push_cast; ring
    rw [e, hflo, hflo, hV]
    simp only
    rw [Finset.sum_range_succ _ (k + 1)]
    ring
  · unfold integrate
    simp only
    rw [time_ok hT, ok_bind, ← hc]
    have hg : ¬ start > stop := by omega
    simp only [pure_bind, if_neg hg]
    have hmax : max center (stop + 1) = stop + 1 := by omega
    rw [← hlo, hmax]
    unfold integrateIter
    set n := (stop + 1 - 1 - lo).toNat with hn
    have hn0 : n ≠ 0 := by omega
    rw [integrateFrom_spec (S := S) (trapezoid_spec hf) n lo 0 none (fun h => absurd h hn0), ok_bind]
    simp only [zero_add]
    have hinj : ∀ k k' : Nat, (lo : ℝ) + (k : ℝ) / 2 = lo + (k' : ℝ) / 2 → k = k' := by
      intro k k' h
      have : (k : ℝ) = k' := by linarith
      exact_mod_cast this
    rw [lastAt_spec (v := V kc) _ none ?_ ?_ (by simp)]
    · show Except.ok _ = Except.ok _
      congr 1
      rw [shifted_spec]
      · have hsplit : List.range (2 * n + 1) = List.range (2 * (start - lo).toNat) ++
            (List.range (2 * (stop - start).toNat + 1)).map (fun k => 2 * (start - lo).toNat + k) := by
          rw [← List.range_add]
          congr 1
          omega
        rw [hsplit, List.map_append, List.filter_append, List.filter_eq_nil_iff.2, List.nil_append,
          List.filter_eq_self.2, List.map_map, List.map_map]
        · apply List.map_congr_left
          intro k _
          simp only [Function.comp]
          have e : (start : ℝ) + (k : ℝ) / 2 = lo + ((2 * (start - lo).toNat + k : Nat) : ℝ) / 2 := by
            rw [hcast start (by omega)]; push_cast; ring
          rw [e, hflo]
          simp only [id, hV]
          rfl
        · intro e he
          simp only [List.map_map, List.mem_map, Function.comp] at he
          obtain ⟨k, _, rfl⟩ := he
          simp only [decide_eq_true_eq]
          rw [hcast start (by omega)]
          push_cast
          have : (0 : ℝ) ≤ k := Nat.cast_nonneg k
          linarith
        · intro e he
          simp only [List.mem_map, List.mem_range] at he
          obtain ⟨k, hk, rfl⟩ := he
          simp only [decide_eq_true_eq, not_le]
          rw [hcast start (by omega)]
          have : (k : ℝ) < ((2 * (start - lo).toNat : Nat) : ℝ) := by exact_mod_cast hk
          linarith
      · intro e he
        simp only [List.mem_map, List.mem_range] at he
        obtain ⟨k, hk, rfl⟩ := he
        simp only
        rw [hcast stop (by omega)]
        have : (k : ℝ) ≤ ((2 * (stop - lo).toNat : Nat) : ℝ) := by
          have : k ≤ 2 * (stop - lo).toNat := by omega
          exact_mod_cast this
        linarith
    · intro e he hec
      simp only [List.mem_map, List.mem_range] at he
      obtain ⟨k, hk, rfl⟩ := he
      simp only at hec ⊢
      rw [hcast center (by omega)] at hec
      rw [hinj _ _ hec]
    · right
      refine ⟨((lo : ℝ) + (kc : ℝ) / 2, V kc), ?_, ?_⟩
      · simp only [List.mem_map, List.mem_range]
        exact ⟨kc, by omega, rfl⟩
      · simp only
        rw [hcast center (by omega)]

/-- C46: without an end the whole part of the time of the last point is used. -/
theorem C46_default {fl : ℝ → ℝ} {kind : Int} {ps : List Point} {last : Point} (hl : ps.getLast? = some last)
    (hT : Timed ps) (start : Int) {stop : Int} (hs : Whole (Time fl last) stop) :
    integrate fl kind ps start none = integrate fl kind ps start (some stop) := by
  obtain rfl := hs.unique (whole_trunc _)
  cases ps with
  | nil => cases hl
  | cons p ps =>
    unfold integrate
    simp only
    rw [time_ok (hT p (by simp)), ok_bind, ok_bind, timeAt_ok hT (p := last) (by rw [← List.getLast?_eq_getElem?]; exact hl)]
    rfl

/-- C46: an end before the start is refused. -/
theorem C46_reversed {fl : ℝ → ℝ} {kind : Int} {first : Point} {ps : List Point}
    (hT : first.offset.2 ≠ 0 ∧ first.timescale ≠ 0) {start stop : Int} (h : stop < start) :
    integrate fl kind (first :: ps) start (some stop) = .error .value := by
  unfold integrate
  simp only
  rw [time_ok hT, ok_bind]
  simp only [pure_bind, if_pos h]
  rfl

/-- C46: the time of the first point must not be after the end, and the interval made with it must not be
a single moment: otherwise integration raises `NameError` or `TypeError`. -/
theorem C46_too_short {kind : Int} {first : Point} {ps : List Point}
    (hT : first.offset.2 ≠ 0 ∧ first.timescale ≠ 0) {g : ℝ → ℝ} (hf : ∀ x, valueAt id kind (first :: ps) x = .ok (g x))
    {start stop center : Int} (hc : Whole (Time id first) center) (h1 : start ≤ stop)
    (h : stop < center ∨ min start center = stop) :
    integrate id kind (first :: ps) start (some stop) =
      .error (if start = stop ∧ center ≤ stop + 1 then .name else .type) := by
  replace hc := hc.unique (whole_trunc _)
  unfold integrate
  simp only
  have hg : ¬ start > stop := by omega
  rw [time_ok hT, ok_bind, ← hc]
  simp only [pure_bind, if_neg hg]
  unfold integrateIter
  split
  · rename_i h'
    rw [show (max center (stop + 1) - 1 - min start center).toNat = 0 by omega]
    rfl
  · rename_i h'
    rw [integrateFrom_spec (S := halfFrame g) (trapezoid_spec hf) _ _ 0 none (by omega), ok_bind, lastAt_none]
    · rfl
    · intro e he
      simp only [List.mem_map, List.mem_range] at he
      obtain ⟨k, hk, rfl⟩ := he
      simp only
      have hk' : (k : Int) < 2 * (center - min start center) := by omega
      have : (k : ℝ) < 2 * ((center : ℝ) - ((min start center : Int) : ℝ)) := by exact_mod_cast hk'
      intro h
      linarith

/-- C46: the integral of a clip with one key frame (a constant speed `v`) is linear: `v` times the frames
since the key frame. -/
theorem C46_constant {kind : Int} {num den scale : Int} (hd : den ≠ 0) (hs : scale ≠ 0) {v : ℝ} {pp : List Prop'}
    {start stop center : Int} (hc : Whole (Time id ⟨(num, den), scale, .num v, pp⟩) center) (h1 : start ≤ stop)
    (h2 : center ≤ stop) (h3 : min start center < stop) :
    integrate id kind [⟨(num, den), scale, .num v, pp⟩] start (some stop) =
      .ok ((List.range (2 * (stop - start).toNat + 1)).map fun (k : Nat) =>
        ((start : ℝ) + (k : ℝ) / 2, firstOf 14 pp + v * ((start : ℝ) + (k : ℝ) / 2 - center))) := by
  set p : Point := ⟨(num, den), scale, .num v, pp⟩ with hp
  have hT : Timed [p] := by intro q hq; simp at hq; subst hq; exact ⟨hd, hs⟩
  have hf : ∀ x, valueAt id kind [p] x = .ok v := by
    intro x
    rcases lt_or_ge x (Time id p) with h | h
    · rw [C26_before hT (by simp [Sorted]) (p := p) rfl h]; rfl
    · rw [C26_after (i := 0) hT (by simp [Strict]) (p := p) rfl rfl h]; rfl
  obtain ⟨A, hA, hstep, hl⟩ := C46_integrate (ps := [p]) (first := p) rfl ⟨hd, hs⟩ (g := fun _ => v) hf hc h1 h2 h3
  obtain ⟨lo, hlo⟩ : ∃ lo, lo = min start center := ⟨_, rfl⟩
  rw [← hlo] at hstep h3
  have hS : ∀ x, halfFrame (fun _ => v) x = v / 2 := by
    intro x; simp [halfFrame]; ring
  have hA' : ∀ k : Nat, A ((lo : ℝ) + (k : ℝ) / 2) = A (lo : ℝ) + v * ((k : ℝ) / 2) := by
    intro k
    induction k with
    | zero => simp
    | succ k ih =>
      push_cast
      rw [hstep, ih, hS]
      ring
  rw [hl]
  congr 1
  apply List.map_congr_left
  intro k _
  congr 1
  have hcast : ∀ z : Int, lo ≤ z → (z : ℝ) = (lo : ℝ) + ((2 * (z - lo).toNat : Nat) : ℝ) / 2 := by
    intro z hz
    have : ((z - lo).toNat : Int) = z - lo := Int.toNat_of_nonneg (by omega)
    have : (((z - lo).toNat : Int) : ℝ) = ((z - lo : Int) : ℝ) := by rw [this]
    push_cast at this ⊢
    rw [this]; ring
  have e1 : A center = A (lo : ℝ) + v * ((center : ℝ) - (lo : ℝ)) := by
    have := hcast center (by omega)
    rw [this, hA']
    ring
  have e2 : (start : ℝ) + (k : ℝ) / 2 = (lo : ℝ) + ((2 * (start - lo).toNat + k : Nat) : ℝ) / 2 := by
    have := hcast start (by omega)
    rw [this]; push_cast; ring
  rw [e2, hA', ← hA, e1]
  ring

/-- Speed 2 from frame 4 on, base frame 7: at frame 6 the offset is 11. -/
example : ∃ l, integrate id 2 [⟨(4, 1), 1, .num 2, [⟨14, 7⟩]⟩] 0 (some 6) = .ok l ∧ (6, 11) ∈ l := by
  have hc : Whole (Time id ⟨(4, 1), 1, .num 2, [⟨14, 7⟩]⟩) 4 := by
    simp [Whole, Time]
  refine ⟨_, C46_constant (by decide) (by decide) hc (by decide) (by decide) (by decide), ?_⟩
  simp only [List.mem_map, List.mem_range]
  exact ⟨12, by decide, by simp [firstOf]; norm_num⟩

/-- C46_default: without an end the last point at time 6 is the end. -/
example : integrate id 3 [⟨(4, 1), 1, .num 2, []⟩, ⟨(6, 1), 1, .num 5, []⟩] 0 none =
    integrate id 3 [⟨(4, 1), 1, .num 2, []⟩, ⟨(6, 1), 1, .num 5, []⟩] 0 (some 6) := by
  refine C46_default (last := ⟨(6, 1), 1, .num 5, []⟩) rfl ?_ 0 ?_
  · intro p hp
    simp only [List.mem_cons, List.not_mem_nil, or_false] at hp
    rcases hp with rfl | rfl <;> exact ⟨by decide, by decide⟩
  · simp [Whole, Time]

/-- C46_reversed: from 7 back to 3. -/
example : integrate id 3 [⟨(4, 1), 1, .num 2, []⟩, ⟨(6, 1), 1, .num 5, []⟩] 7 (some 3) = .error .value :=
  C46_reversed ⟨by decide, by decide⟩ (by decide)

/-- C46_too_short: a span from 0 to 2 that ends before the only point at time 4. -/
example : integrate id 2 [⟨(4, 1), 1, .num 2, []⟩] 0 (some 2) = .error .type := by
  have h := C46_too_short (kind := 2) (first := ⟨(4, 1), 1, .num 2, []⟩) (ps := []) (g := fun _ => 2) ⟨by decide, by decide⟩
    (fun x => ?_) (start := 0) (stop := 2) (center := 4) (by simp [Whole, Time]) (by decide) (.inl (by decide))
  · simpa using h
  · have hT : Timed [(⟨(4, 1), 1, .num 2, []⟩ : Point)] := by
      intro q hq
      simp only [List.mem_singleton] at hq
      subst hq
      exact ⟨by decide, by decide⟩
    rcases lt_or_ge x (Time id ⟨(4, 1), 1, .num 2, []⟩) with h | h
    · rw [C26_before hT (by simp [Sorted]) rfl h]; rfl
    · rw [C26_after (i := 0) hT (by simp [Strict]) rfl rfl h]; rfl

end Avb.Curve

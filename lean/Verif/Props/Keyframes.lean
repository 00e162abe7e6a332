import Verif.Lemmas.Bezier

/-
C25, C26: parameter curves.
-/

namespace Avb.Curve

open Avb

/-! ### C25 -/

/-- All times are defined. -/
def Timed (ps : List Point) : Prop := ∀ p ∈ ps, p.offset.2 ≠ 0 ∧ p.timescale ≠ 0

/-- The time of point `i`, for points that are timed. -/
noncomputable def Time (fl : ℝ → ℝ) (p : Point) : ℝ :=
  fl (fl ((p.offset.1 : ℝ) / (p.offset.2 : ℝ)) * (p.timescale : ℝ))

/-- Later points do not come before earlier ones. -/
def Sorted (fl : ℝ → ℝ) (ps : List Point) : Prop := ps.Pairwise fun a b => Time fl a ≤ Time fl b

theorem time_ok {fl : ℝ → ℝ} {p : Point} (h : p.offset.2 ≠ 0 ∧ p.timescale ≠ 0) :
    p.time fl = .ok (Time fl p) := by
  simp [Point.time, h.1, h.2, Time]

theorem timeAt_ok {fl : ℝ → ℝ} {ps : List Point} (h : Timed ps) {i : Nat} {p : Point} (hi : ps[i]? = some p) :
    timeAt fl ps i = .ok (Time fl p) := by
  rw [timeAt, hi]
  exact time_ok (h p (List.mem_of_getElem? hi))

/-- The search with any times: the index found is at a time equal to `t`, or neighbours what was compared. -/
theorem search_spec {time : Nat → Except Err ℝ} {T : Nat → ℝ} {n : Nat} (hT : ∀ i < n, time i = .ok (T i))
    (t : ℝ) (start stop : Int) (h0 : 0 ≤ start) (h1 : stop < n) (h2 : start ≤ stop + 1)
    (hlo : 0 < start → T (start - 1).toNat < t) (hhi : stop + 1 < n → t < T (stop + 1).toNat) (hn : 0 < n) :
    ∃ i, search time t start stop = .ok i ∧ i < n ∧
      (T i = t ∨ (T i < t ∧ (i + 1 < n → t < T (i + 1))) ∨ (i = 0 ∧ t < T 0)) := by
  induction hk : (stop + 1 - start).toNat using Nat.strongRecOn generalizing start stop with
  | _ k ih =>
    rw [search]
    split
    · rename_i hlt
      have he : stop = start - 1 := by omega
      subst he
      refine ⟨_, rfl, by omega, ?_⟩
      by_cases hs : 0 < start
      · right; left
        have e1 : (max 0 (start - 1)).toNat = (start - 1).toNat := by omega
        rw [e1]
        refine ⟨hlo hs, fun h => ?_⟩
        have := hhi (by omega)
        have e2 : (start - 1 + 1).toNat = (start - 1).toNat + 1 := by omega
        rwa [e2] at this
      · right; right
        have : start = 0 := by omega
        subst this
        exact ⟨rfl, by simpa using hhi (by omega)⟩
    · rename_i hge
      have hm : ((start + stop) / 2).toNat < n := by omega
      rw [hT _ hm]
      dsimp only
      split
      · rename_i hx
        exact ih _ (by omega) _ _ (by omega) h1 (by omega)
          (fun _ => by rw [show (start + stop) / 2 + 1 - 1 = (start + stop) / 2 by omega]; exact hx) hhi rfl
      · split
        · rename_i hx
          exact ih _ (by omega) _ _ h0 (by omega) (by omega) hlo
            (fun _ => by rw [show (start + stop) / 2 - 1 + 1 = (start + stop) / 2 by omega]; exact hx) rfl
        · rename_i hx hy
          exact ⟨_, rfl, hm, Or.inl (le_antisymm (not_lt.1 hy) (not_lt.1 hx))⟩

/-- C25: searching among no points raises `ValueError`. -/
theorem C25_empty (fl : ℝ → ℝ) (t : ℝ) : nearestIndex fl [] t = .error .value := by
  simp [nearestIndex]

/-- C25: among any points with times, in order or not, a point is found: one at the time sought, or one
before it that is the last or followed by one after it, or the first if that is after it. -/
theorem C25_neighbours {fl : ℝ → ℝ} {ps : List Point} (hne : ps ≠ []) (hT : Timed ps) (t : ℝ) :
    ∃ i p, nearestIndex fl ps t = .ok i ∧ ps[i]? = some p ∧
      (Time fl p = t ∨ (Time fl p < t ∧ ∀ q, ps[i + 1]? = some q → t < Time fl q) ∨ (i = 0 ∧ t < Time fl p)) := by
  obtain ⟨p0, hp0⟩ : ∃ p0, ps[0]? = some p0 := by
    cases ps with
    | nil => exact absurd rfl hne
    | cons a l => exact ⟨a, rfl⟩
  have hlen : 0 < ps.length := List.length_pos_of_ne_nil hne
  obtain ⟨i, h1, h2, h3⟩ := search_spec (time := timeAt fl ps) (T := fun i => Time fl (ps[i]?.getD p0))
    (n := ps.length) (fun i hi => by
      rw [timeAt_ok hT (List.getElem?_eq_getElem hi), List.getElem?_eq_getElem hi]; rfl)
    t 0 ((ps.length : Int) - 1) (by omega) (by omega) (by omega) (by omega) (by omega) hlen
  refine ⟨i, ps[i], by rw [nearestIndex, if_neg hne, h1], List.getElem?_eq_getElem h2, ?_⟩
  simp only [List.getElem?_eq_getElem h2, Option.getD_some] at h3
  rcases h3 with h | ⟨h, h'⟩ | ⟨rfl, h⟩
  · exact Or.inl h
  · refine Or.inr (Or.inl ⟨h, fun q hq => ?_⟩)
    have := h' (List.getElem?_eq_some_iff.1 hq).1
    rwa [hq] at this
  · exact Or.inr (Or.inr ⟨rfl, by simpa [List.getElem?_eq_getElem h2] using h⟩)

theorem sorted_get {fl : ℝ → ℝ} {ps : List Point} (h : Sorted fl ps) {i j : Nat} {p q : Point} (hi : ps[i]? = some p)
    (hj : ps[j]? = some q) (hij : i ≤ j) : Time fl p ≤ Time fl q := by
  rcases Nat.lt_or_ge i j with h1 | h1
  · obtain ⟨a, rfl⟩ := List.getElem?_eq_some_iff.1 hi
    obtain ⟨b, rfl⟩ := List.getElem?_eq_some_iff.1 hj
    exact List.pairwise_iff_getElem.1 h i j a b h1
  · have : i = j := by omega
    subst this
    rw [hi] at hj
    cases hj
    exact le_refl _

/-- C25: among points in order the point found is at the time sought; or it is before it and all later
points are after it; or it is the first and all points are after it. -/
theorem C25_sorted {fl : ℝ → ℝ} {ps : List Point} (hne : ps ≠ []) (hT : Timed ps) (hs : Sorted fl ps) (t : ℝ) :
    ∃ i p, nearestIndex fl ps t = .ok i ∧ ps[i]? = some p ∧
      (Time fl p = t ∨ (Time fl p < t ∧ ∀ (j : Nat) q, ps[j]? = some q → i < j → t < Time fl q) ∨
        (i = 0 ∧ ∀ (j : Nat) q, ps[j]? = some q → t < Time fl q)) := by
  obtain ⟨i, p, h1, h2, h3⟩ := C25_neighbours (fl := fl) hne hT t
  refine ⟨i, p, h1, h2, ?_⟩
  rcases h3 with h | ⟨h, h'⟩ | ⟨rfl, h⟩
  · exact Or.inl h
  · refine Or.inr (Or.inl ⟨h, fun j q hj hij => ?_⟩)
    have hlt : i + 1 < ps.length := by
      have := (List.getElem?_eq_some_iff.1 hj).1
      omega
    have hq := List.getElem?_eq_getElem hlt
    exact lt_of_lt_of_le (h' _ hq) (sorted_get hs hq hj hij)
  · exact Or.inr (Or.inr ⟨rfl, fun j q hj => lt_of_lt_of_le h (sorted_get hs h2 hj (Nat.zero_le _))⟩)

/-- C25: among points with strictly increasing times the point found is the last one not after the time
sought, or the first if all are after it. -/
theorem C25_last {fl : ℝ → ℝ} {ps : List Point} (hne : ps ≠ []) (hT : Timed ps)
    (hs : ps.Pairwise fun a b => Time fl a < Time fl b) (t : ℝ) :
    ∃ i, nearestIndex fl ps t = .ok i ∧
      ((∃ p, ps[i]? = some p ∧ Time fl p ≤ t ∧ ∀ (j : Nat) q, ps[j]? = some q → i < j → t < Time fl q) ∨
        (i = 0 ∧ ∀ q ∈ ps, t < Time fl q)) := by
  obtain ⟨i, p, h1, h2, h3⟩ := C25_sorted (fl := fl) hne hT (hs.imp le_of_lt) t
  refine ⟨i, h1, ?_⟩
  rcases h3 with h | ⟨h, h'⟩ | ⟨rfl, h⟩
  · left
    refine ⟨p, h2, le_of_eq h, fun j q hj hij => ?_⟩
    obtain ⟨a, rfl⟩ := List.getElem?_eq_some_iff.1 h2
    obtain ⟨b, rfl⟩ := List.getElem?_eq_some_iff.1 hj
    rw [← h]
    exact List.pairwise_iff_getElem.1 hs i j a b hij
  · exact Or.inl ⟨p, h2, le_of_lt h, h'⟩
  · right
    refine ⟨rfl, fun q hq => ?_⟩
    obtain ⟨j, hj⟩ := List.getElem?_of_mem hq
    exact h j q hj

/-- C25: the only other error is `ValueError`, for a point whose offset has the denominator 0 or whose
time scale is 0. -/
theorem C25_error {fl : ℝ → ℝ} {ps : List Point} {t : ℝ} {e : Err} (h : nearestIndex fl ps t = .error e) :
    e = .value ∧ (ps = [] ∨ ∃ p ∈ ps, p.offset.2 = 0 ∨ p.timescale = 0) := by
  unfold nearestIndex at h
  split at h
  · cases h; exact ⟨rfl, Or.inl ‹_›⟩
  · have key : ∀ (k : Nat) (start stop : Int), (stop + 1 - start).toNat = k → 0 ≤ start → stop < ps.length →
        search (timeAt fl ps) t start stop = .error e →
        e = .value ∧ ∃ p ∈ ps, p.offset.2 = 0 ∨ p.timescale = 0 := by
      intro k
      induction k using Nat.strongRecOn with
      | _ k ih =>
        intro start stop hk h0 h1 h
        rw [search] at h
        split at h
        · cases h
        · have hm : ((start + stop) / 2).toNat < ps.length := by omega
          have hg := List.getElem?_eq_getElem hm
          cases ht : timeAt fl ps ((start + stop) / 2).toNat with
          | error e' =>
            rw [ht] at h
            cases h
            rw [timeAt, hg] at ht
            simp only [Point.time] at ht
            split at ht
            · cases ht; exact ⟨rfl, _, List.getElem_mem hm, Or.inl ‹_›⟩
            · split at ht
              · cases ht; exact ⟨rfl, _, List.getElem_mem hm, Or.inr ‹_›⟩
              · cases ht
          | ok x =>
            rw [ht] at h
            dsimp only at h
            split at h
            · exact ih _ (by omega) _ _ rfl (by omega) h1 h
            · split at h
              · exact ih _ (by omega) _ _ rfl h0 (by omega) h
              · cases h
    obtain ⟨a, b⟩ := key _ 0 _ rfl (by omega) (by omega) h
    exact ⟨a, Or.inr b⟩

/-- C25: with one positive time scale, points whose offsets are in order have times in order, whatever
the rounding, as long as it is monotone. -/
theorem C25_offsets {fl : ℝ → ℝ} (hfl : Monotone fl) {ps : List Point} {scale : Int} (h0 : 0 < scale)
    (hsc : ∀ p ∈ ps, p.timescale = scale)
    (ho : ps.Pairwise fun a b => (a.offset.1 : ℝ) / (a.offset.2 : ℝ) ≤ (b.offset.1 : ℝ) / (b.offset.2 : ℝ)) :
    Sorted fl ps := by
  refine ho.imp_of_mem ?_
  intro a b ha hb hab
  unfold Time
  rw [hsc a ha, hsc b hb]
  exact hfl (mul_le_mul_of_nonneg_right (hfl hab) (by exact_mod_cast h0.le))

/-- Key frames at 0, 10 and 25 with the values 1, 3 and -2. -/
def keySample : List Point :=
  [⟨(0, 1), 1, .num 1, []⟩, ⟨(10, 1), 1, .num 3, []⟩, ⟨(50, 2), 1, .num (-2), []⟩]

example : keySample ≠ [] ∧ Timed keySample ∧ Sorted id keySample ∧
    keySample.Pairwise fun a b => Time id a < Time id b := by
  refine ⟨by simp [keySample], ?_, ?_, ?_⟩
  · intro p hp
    simp [keySample] at hp
    rcases hp with rfl | rfl | rfl <;> simp
  · simp [keySample, Sorted, Time]; norm_num
  · simp [keySample, Time]; norm_num

/-! ### C26 -/

/-- The times increase strictly. -/
def Strict (fl : ℝ → ℝ) (ps : List Point) : Prop := ps.Pairwise fun a b => Time fl a < Time fl b

theorem strict_get {fl : ℝ → ℝ} {ps : List Point} (h : Strict fl ps) {i j : Nat} {p q : Point} (hi : ps[i]? = some p)
    (hj : ps[j]? = some q) (hij : i < j) : Time fl p < Time fl q := by
  obtain ⟨a, rfl⟩ := List.getElem?_eq_some_iff.1 hi
  obtain ⟨b, rfl⟩ := List.getElem?_eq_some_iff.1 hj
  exact List.pairwise_iff_getElem.1 h i j a b hij

theorem nearest_between {fl : ℝ → ℝ} {ps : List Point} (hT : Timed ps) (hs : Strict fl ps) {i : Nat} {p q : Point}
    (hi : ps[i]? = some p) (hj : ps[i + 1]? = some q) {t : ℝ} (h1 : Time fl p ≤ t) (h2 : t < Time fl q) :
    nearestIndex fl ps t = .ok i := by
  have hne : ps ≠ [] := by rintro rfl; simp at hi
  obtain ⟨k, hk, h⟩ := C25_last (fl := fl) hne hT hs t
  rw [hk]
  congr 1
  rcases h with ⟨r, hr, h3, h4⟩ | ⟨rfl, h⟩
  · by_contra hne
    rcases Nat.lt_or_ge k i with h5 | h5
    · have := h4 i p hi h5
      linarith
    · have h6 : i < k := by omega
      rcases Nat.lt_or_ge (i + 1) k with h7 | h7
      · have := strict_get hs hj hr h7
        linarith
      · have : k = i + 1 := by omega
        subst this
        rw [hj] at hr
        cases hr
        linarith
  · have := h p (List.mem_of_getElem? hi)
    linarith

theorem nearest_last {fl : ℝ → ℝ} {ps : List Point} (hT : Timed ps) (hs : Strict fl ps) {i : Nat} {p : Point}
    (hi : ps[i]? = some p) (hj : ps[i + 1]? = none) {t : ℝ} (h1 : Time fl p ≤ t) :
    nearestIndex fl ps t = .ok i := by
  have hne : ps ≠ [] := by rintro rfl; simp at hi
  obtain ⟨k, hk, h⟩ := C25_last (fl := fl) hne hT hs t
  rw [hk]
  congr 1
  have hlen : ps.length ≤ i + 1 := List.getElem?_eq_none_iff.1 hj
  rcases h with ⟨r, hr, h3, h4⟩ | ⟨rfl, h⟩
  · have := (List.getElem?_eq_some_iff.1 hr).1
    by_contra hne
    have := h4 i p hi (by omega)
    linarith
  · have := h p (List.mem_of_getElem? hi)
    linarith

theorem nearest_first {fl : ℝ → ℝ} {ps : List Point} (hT : Timed ps) (hs : Sorted fl ps) {p : Point}
    (hi : ps[0]? = some p) {t : ℝ} (h1 : t < Time fl p) : nearestIndex fl ps t = .ok 0 := by
  have hne : ps ≠ [] := by rintro rfl; simp at hi
  obtain ⟨k, r, hk, hr, h⟩ := C25_sorted (fl := fl) hne hT hs t
  rw [hk]
  have := sorted_get hs hi hr (Nat.zero_le _)
  rcases h with h | ⟨h, _⟩ | ⟨rfl, h⟩
  · linarith
  · linarith
  · rfl

/-- C26: without points the value cannot be asked for. -/
theorem C26_empty (fl : ℝ → ℝ) (kind : Int) (t : ℝ) : valueAt fl kind [] t = .error .value := by
  unfold valueAt
  simp
  rfl

/-- C26: before the first point the value is that of the first point, for every interpolation kind. -/
theorem C26_before {fl : ℝ → ℝ} {kind : Int} {ps : List Point} (hT : Timed ps) (hs : Sorted fl ps) {p : Point}
    (hi : ps[0]? = some p) {t : ℝ} (h1 : t < Time fl p) : valueAt fl kind ps t = p.value.float := by
  have hne : ps ≠ [] := by rintro rfl; simp at hi
  unfold valueAt
  simp only [if_neg hne, nearest_first hT hs hi h1, ok_bind, hi,
    time_ok (hT p (List.mem_of_getElem? hi))]
  split
  · rfl
  · rw [if_pos h1]

/-- C26: from the last point on the value is that of the last point, for every interpolation kind. -/
theorem C26_after {fl : ℝ → ℝ} {kind : Int} {ps : List Point} (hT : Timed ps) (hs : Strict fl ps) {i : Nat} {p : Point}
    (hi : ps[i]? = some p) (hj : ps[i + 1]? = none) {t : ℝ} (h1 : Time fl p ≤ t) :
    valueAt fl kind ps t = p.value.float := by
  have hne : ps ≠ [] := by rintro rfl; simp at hi
  unfold valueAt
  simp only [if_neg hne, nearest_last hT hs hi hj h1, ok_bind, hi, hj,
    time_ok (hT p (List.mem_of_getElem? hi))]

theorem value_between {fl : ℝ → ℝ} {kind : Int} {ps : List Point} (hT : Timed ps) {i : Nat} {p q : Point}
    (hi : ps[i]? = some p) (hj : ps[i + 1]? = some q) {t : ℝ} (h1 : Time fl p ≤ t) (hn : nearestIndex fl ps t = .ok i) :
    valueAt fl kind ps t = match interp kind with
      | .constant => p.value.float
      | .linear => do
        let tMix ← fdiv fl (fl (t - Time fl p)) (fl (Time fl q - Time fl p))
        let v0 ← p.value.float
        let v1 ← q.value.float
        return lerp fl v0 v1 tMix
      | .bezier => do
        let v0 ← p.value.float
        let v3 ← q.value.float
        bezierInterpolate fl (Time fl p, v0) (fl (Time fl p + p.outTangent.1), fl (v0 + p.outTangent.2))
          (fl (Time fl q + q.inTangent.1), fl (v3 + q.inTangent.2)) (Time fl q, v3) t
      | .cubic => do
        let v1 ← p.value.float
        let v2 ← q.value.float
        let q0 ← pointBefore fl ps i (Time fl p, v1) (Time fl q, v2)
        let q3 ← pointAfter fl ps i (Time fl p, v1) (Time fl q, v2)
        cubicInterpolate fl q0 (Time fl p, v1) (Time fl q, v2) q3 t
      | .unknown => throw .notImplemented := by
  have hne : ps ≠ [] := by rintro rfl; simp at hi
  have hp := time_ok (fl := fl) (hT p (List.mem_of_getElem? hi))
  have hq := time_ok (fl := fl) (hT q (List.mem_of_getElem? hj))
  unfold valueAt
  simp only [if_neg hne, hn, ok_bind, hi, hj, hp, hq, if_neg (not_lt.2 h1), Point.xy]
  cases interp kind <;> try rfl
  simp only [bind_assoc, pure_bind]

/-- C26: with constant interpolation the value is that of the last point not after the time. -/
theorem C26_constant {fl : ℝ → ℝ} {ps : List Point} (hT : Timed ps) (hs : Strict fl ps) {i : Nat} {p q : Point}
    (hi : ps[i]? = some p) (hj : ps[i + 1]? = some q) {t : ℝ} (h1 : Time fl p ≤ t) (h2 : t < Time fl q) :
    valueAt fl 2 ps t = p.value.float := by
  rw [value_between hT hi hj h1 (nearest_between hT hs hi hj h1 h2)]
  rfl

/-- C26: with linear interpolation the value lies on the straight line between the two points around the
time, in exact arithmetic. -/
theorem C26_linear {ps : List Point} (hT : Timed ps) (hs : Strict id ps) {i : Nat} {p q : Point}
    (hi : ps[i]? = some p) (hj : ps[i + 1]? = some q) {t v0 v1 : ℝ} (h1 : Time id p ≤ t) (h2 : t < Time id q)
    (hv0 : p.value = .num v0) (hv1 : q.value = .num v1) :
    ∃ v, valueAt id 3 ps t = .ok v ∧
      (v - v0) * (Time id q - Time id p) = (v1 - v0) * (t - Time id p) ∧ min v0 v1 ≤ v ∧ v ≤ max v0 v1 := by
  rw [value_between hT hi hj h1 (nearest_between hT hs hi hj h1 h2)]
  have hlt : Time id p < Time id q := lt_of_le_of_lt h1 h2
  have hpos : 0 < Time id q - Time id p := by linarith
  have hk : interp 3 = .linear := rfl
  rw [hk]
  simp only [id, hv0, hv1, KVal.float, lerp]
  rw [show fdiv _ (t - Time id p) (Time id q - Time id p) = _ from fdiv_id hpos.ne']
  refine ⟨_, rfl, by field_simp; ring, ?_⟩
  have m0 : 0 ≤ (t - Time id p) / (Time id q - Time id p) := div_nonneg (by linarith) hpos.le
  have m1 : (t - Time id p) / (Time id q - Time id p) ≤ 1 := by rw [div_le_one hpos]; linarith
  set m := (t - Time id p) / (Time id q - Time id p)
  rcases le_total v0 v1 with h | h
  · rw [min_eq_left h, max_eq_right h]
    constructor <;> nlinarith
  · rw [min_eq_right h, max_eq_left h]
    constructor <;> nlinarith

/-- C26: at a point itself linear interpolation gives exactly the value of the point, whatever the
rounding, as long as it keeps 0 and the value. -/
theorem C26_linear_point {fl : ℝ → ℝ} (h0 : fl 0 = 0) {ps : List Point} (hT : Timed ps) (hs : Strict fl ps) {i : Nat}
    {p q : Point} (hi : ps[i]? = some p) (hj : ps[i + 1]? = some q) {v0 v1 : ℝ}
    (hv0 : p.value = .num v0) (hv1 : q.value = .num v1) (hr : fl v0 = v0)
    (hgap : fl (Time fl q - Time fl p) ≠ 0) :
    valueAt fl 3 ps (Time fl p) = .ok v0 := by
  rw [value_between hT hi hj le_rfl (nearest_between hT hs hi hj le_rfl (strict_get hs hi hj (Nat.lt_succ_self _)))]
  have hk : interp 3 = .linear := rfl
  rw [hk]
  simp only [sub_self, h0, fdiv, if_neg hgap, zero_div, ok_bind, hv0, hv1, KVal.float, lerp, mul_zero, add_zero, hr]
  rfl

/-- C26: with any rounding that is monotone, keeps 0 and is idempotent, linear interpolation between a
point and a higher one never gives less than the value of the first point (more than, for a lower one). -/
theorem C26_linear_bound {fl : ℝ → ℝ} (hm : Monotone fl) (h0 : fl 0 = 0) {ps : List Point} (hT : Timed ps)
    (hs : Strict fl ps) {i : Nat} {p q : Point} (hi : ps[i]? = some p) (hj : ps[i + 1]? = some q) {t v0 v1 : ℝ}
    (h1 : Time fl p ≤ t) (h2 : t < Time fl q) (hv0 : p.value = .num v0) (hv1 : q.value = .num v1) (hr : fl v0 = v0)
    (hgap : fl (Time fl q - Time fl p) ≠ 0) :
    ∃ v, valueAt fl 3 ps t = .ok v ∧ (v0 ≤ v1 → v0 ≤ v) ∧ (v1 ≤ v0 → v ≤ v0) := by
  rw [value_between hT hi hj h1 (nearest_between hT hs hi hj h1 h2)]
  have hk : interp 3 = .linear := rfl
  have hn : ∀ x, 0 ≤ x → 0 ≤ fl x := fun x hx => h0 ▸ hm hx
  have hp : ∀ x, x ≤ 0 → fl x ≤ 0 := fun x hx => h0 ▸ hm hx
  rw [hk]
  simp only [fdiv, if_neg hgap, ok_bind, hv0, hv1, KVal.float, lerp]
  refine ⟨_, rfl, ?_⟩
  have m0 : 0 ≤ fl (fl (t - Time fl p) / fl (Time fl q - Time fl p)) :=
    hn _ (div_nonneg (hn _ (by linarith)) (hn _ (by linarith)))
  constructor
  · intro h
    have : 0 ≤ fl (fl (v1 - v0) * fl (fl (t - Time fl p) / fl (Time fl q - Time fl p))) :=
      hn _ (mul_nonneg (hn _ (by linarith)) m0)
    conv => lhs; rw [← hr]
    exact hm (by linarith)
  · intro h
    have : fl (fl (v1 - v0) * fl (fl (t - Time fl p) / fl (Time fl q - Time fl p))) ≤ 0 :=
      hp _ (mul_nonpos_of_nonpos_of_nonneg (hp _ (by linarith)) m0)
    conv => rhs; rw [← hr]
    exact hm (by linarith)

example : ∃ v, valueAt id 3 keySample 4 = .ok v ∧ (v - 1) * 10 = (3 - 1) * 4 := by
  have hT : Timed keySample := by
    intro p hp
    simp [keySample] at hp
    rcases hp with rfl | rfl | rfl <;> simp
  have hs : Strict id keySample := by simp [Strict, keySample, Time]; norm_num
  obtain ⟨v, h1, h2, _⟩ := C26_linear (i := 0) (p := ⟨(0, 1), 1, .num 1, []⟩) (q := ⟨(10, 1), 1, .num 3, []⟩) (t := 4)
    hT hs rfl rfl (by simp [Time]) (by simp [Time]; norm_num) rfl rfl
  exact ⟨v, h1, by simpa [Time] using h2⟩

/-- C26: an interpolation kind that is not known raises `NotImplementedError` between two points. -/
theorem C26_unknown {fl : ℝ → ℝ} {kind : Int} (hk : kind ≠ 2 ∧ kind ≠ 3 ∧ kind ≠ 5 ∧ kind ≠ 6) {ps : List Point}
    (hT : Timed ps) (hs : Strict fl ps) {i : Nat} {p q : Point} (hi : ps[i]? = some p) (hj : ps[i + 1]? = some q) {t : ℝ}
    (h1 : Time fl p ≤ t) (h2 : t < Time fl q) : valueAt fl kind ps t = .error .notImplemented := by
  rw [value_between hT hi hj h1 (nearest_between hT hs hi hj h1 h2)]
  simp only [interp, hk.1, hk.2.1, hk.2.2.1, hk.2.2.2, if_false]
  rfl

/-- C26: points that hold references have no value: `TypeError`. -/
theorem C26_reference {fl : ℝ → ℝ} {kind : Int} {ps : List Point} (hT : Timed ps) (hs : Sorted fl ps) {p : Point}
    (hi : ps[0]? = some p) {t : ℝ} (h1 : t < Time fl p) (hv : p.value = .ref) :
    valueAt fl kind ps t = .error .type := by
  rw [C26_before hT hs hi h1, hv]
  rfl

/-- C26 does not extend to points at equal times: if two points share the first time, linear interpolation
raises `ZeroDivisionError` there and the curved kinds `NameError` or `ZeroDivisionError`. -/
theorem C26_duplicate_times :
    valueAt id 3 [⟨(0, 1), 1, .num 1, []⟩, ⟨(0, 1), 1, .num 2, []⟩] 0 = .error .zeroDivision ∧
    valueAt id 5 [⟨(0, 1), 1, .num 1, []⟩, ⟨(0, 1), 1, .num 2, []⟩] 0 = .error .name ∧
    valueAt id 6 [⟨(0, 1), 1, .num 1, []⟩, ⟨(0, 1), 1, .num 2, []⟩] 0 = .error .zeroDivision := by
  have hT : Timed [⟨(0, 1), 1, .num 1, []⟩, ⟨(0, 1), 1, .num 2, []⟩] := by
    intro p hp
    simp at hp
    rcases hp with rfl | rfl <;> simp
  have hn : nearestIndex id [⟨(0, 1), 1, .num 1, []⟩, ⟨(0, 1), 1, .num 2, []⟩] 0 = .ok 0 := by
    simp only [nearestIndex, List.cons_ne_nil, if_false]
    rw [search]
    simp [timeAt, Point.time]
  refine ⟨?_, ?_, ?_⟩ <;> rw [value_between (i := 0) hT rfl rfl (by simp [Time]) hn]
  · simp [interp, fdiv, Time]; rfl
  · simp [interp, bezierInterpolate, Time, KVal.float]; rfl
  · simp [interp, cubicInterpolate, calculateTangent, Time, fdiv, KVal.float, pointBefore, pointAfter, ok_bind]; rfl

/-- The value of the last of the properties with a code, 0 if there is none. -/
def lastOf (code : Int) (pp : List Prop') : ℝ := ((pp.filter (fun p => p.code = code)).getLast?.map (·.value)).getD 0

/-- The value of the first of the properties with a code, 0 if there is none. -/
def firstOf (code : Int) (pp : List Prop') : ℝ := ((pp.find? (fun p => p.code = code)).map (·.value)).getD 0

theorem getProp_eq {name : PPName} {code : Int} (h : ∀ c, ppName c = some name ↔ c = code) :
    ∀ (pp : List Prop') (acc : ℝ),
      getProp name acc pp = ((pp.filter (fun p => p.code = code)).getLast?.map (·.value)).getD acc := by
  intro pp
  induction pp with
  | nil => intro acc; rfl
  | cons p pp ih =>
    intro acc
    unfold getProp
    by_cases hp : p.code = code
    · rw [if_pos ((h _).2 hp), ih, List.filter_cons_of_pos (by simpa using hp), List.getLast?_cons]
      cases (List.filter (fun p => decide (p.code = code)) pp).getLast? <;> rfl
    · rw [if_neg (fun e => hp ((h _).1 e)), ih, List.filter_cons_of_neg (by simpa using hp)]

theorem baseFrame_eq (pp : List Prop') : baseFrame pp = firstOf 14 pp := by
  induction pp with
  | nil => rfl
  | cons p pp ih =>
    unfold baseFrame firstOf
    by_cases hp : p.code = 14
    · rw [if_pos (by rw [hp]; rfl), List.find?_cons_of_pos (by simpa using hp)]
      rfl
    · rw [if_neg, ih, List.find?_cons_of_neg (by simpa using hp)]
      · rfl
      · intro e
        unfold ppName at e
        repeat' split at e
        all_goals exact absurd e (by decide)

/-- C26: the tangents at a point are given by its properties: position and value of the incoming one by those
with codes 5 and 6, of the outgoing one by those with codes 7 and 8; the last one counts, 0 if there is none. -/
theorem C26_tangents (p : Point) : p.inTangent = (lastOf 5 p.pp, lastOf 6 p.pp) ∧
    p.outTangent = (lastOf 7 p.pp, lastOf 8 p.pp) := by
  unfold Point.inTangent Point.outTangent lastOf
  rw [getProp_eq (code := 5), getProp_eq (code := 6), getProp_eq (code := 7), getProp_eq (code := 8)]
  · exact ⟨rfl, rfl⟩
  all_goals
    intro c
    constructor
    · intro e
      unfold ppName at e
      repeat' split at e
      all_goals first | exact absurd e (by decide) | assumption
    · rintro rfl; rfl

example : (⟨(0, 1), 1, .num 0, [⟨7, 1⟩, ⟨6, 2⟩, ⟨8, 3⟩, ⟨7, 4⟩]⟩ : Point).inTangent = (0, 2) ∧
    (⟨(0, 1), 1, .num 0, [⟨7, 1⟩, ⟨6, 2⟩, ⟨8, 3⟩, ⟨7, 4⟩]⟩ : Point).outTangent = (4, 3) := by
  have h := C26_tangents ⟨(0, 1), 1, .num 0, [⟨7, 1⟩, ⟨6, 2⟩, ⟨8, 3⟩, ⟨7, 4⟩]⟩
  simpa [lastOf] using h

theorem keySample_timed : Timed keySample := by
  intro p hp
  simp [keySample] at hp
  rcases hp with rfl | rfl | rfl <;> simp

theorem keySample_strict : Strict id keySample := by simp [Strict, keySample, Time]; norm_num

/-- At a point linear interpolation gives its value. -/
example : valueAt id 3 keySample (Time id ⟨(10, 1), 1, .num 3, []⟩) = .ok 3 :=
  C26_linear_point (by rfl) keySample_timed keySample_strict (i := 1) (q := ⟨(50, 2), 1, .num (-2), []⟩) rfl rfl rfl rfl rfl
    (by simp [Time]; norm_num)

/-- An interpolation kind that is not known. -/
example : valueAt id 4 keySample 3 = .error .notImplemented :=
  C26_unknown (by decide) keySample_timed keySample_strict (i := 0) (p := ⟨(0, 1), 1, .num 1, []⟩)
    (q := ⟨(10, 1), 1, .num 3, []⟩) rfl rfl (by simp [Time]) (by simp [Time]; norm_num)

/-- A value that is a reference, before the first point. -/
example : valueAt id 3 [⟨(5, 1), 1, .ref, []⟩] 3 = .error .type :=
  C26_reference (p := ⟨(5, 1), 1, .ref, []⟩) (by intro p hp; simp at hp; subst hp; simp) (by simp [Sorted]) rfl
    (by simp [Time]; norm_num) rfl

/-- A point with a zero denominator. -/
example {e : Err} (h : nearestIndex id [⟨(5, 0), 1, .num 1, []⟩] 3 = .error e) : e = .value := (C25_error h).1

end Avb.Curve

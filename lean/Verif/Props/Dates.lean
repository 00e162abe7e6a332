import Verif.Model.Dates
import Verif.Props.Fields
import Verif.Props.Examples

/-
C60: dates.
-/

namespace Avb.Dates

/-- What the clock on the wall shows at a moment. -/
def Shows (z : Zone) (t clock : Int) : Prop := clock = t + z.offset t

/-- The clock shows this at one moment only. -/
def Once (z : Zone) (t : Int) : Prop := ∀ t', t' + z.offset t' = t + z.offset t → t' = t

/-- C60: a date that the clock did show comes back the same to the second; microseconds are lost. -/
theorem C60_kept (z : Zone) (bo : BO) {d : DateTime} {t : Int} (hd : Shows z t d.seconds) {bs : Bytes}
    (hw : writeDatetime z bo d = .ok ((), bs)) (rest : Bytes) :
    readDatetime z bo (bs ++ rest) = .ok (⟨d.seconds, 0⟩, rest) := by
  unfold writeDatetime at hw
  by_cases hf : Fits .u32 (datetime_to_timestamp z d)
  · obtain ⟨bs', h1, _, _, h4⟩ := C01_fits (bo := bo) hf
    rw [hw] at h1
    cases h1
    have : readDatetime z bo (bs ++ rest) = .ok (fromtimestamp z (datetime_to_timestamp z d), rest) := by
      unfold readDatetime
      show Rd.bind _ _ _ = _
      simp only [Rd.bind, h4 rest]
      rfl
    rw [this]
    unfold fromtimestamp datetime_to_timestamp
    have hz := z.mktime_shows t
    rw [← hd] at hz
    rw [hz]
  · rw [C01_refused hf] at hw; cases hw

/-- C60: on a machine in another time zone it comes back as a moment at which the first machine showed the
date, on the clock of the other. -/
theorem C60_other_zone (z z' : Zone) (bo : BO) {d : DateTime} {t : Int} (hd : Shows z t d.seconds) {bs : Bytes}
    (hw : writeDatetime z bo d = .ok ((), bs)) (rest : Bytes) :
    ∃ t', Shows z t' d.seconds ∧ readDatetime z' bo (bs ++ rest) = .ok (⟨t' + z'.offset t', 0⟩, rest) := by
  unfold writeDatetime at hw
  by_cases hf : Fits .u32 (datetime_to_timestamp z d)
  · obtain ⟨bs', h1, _, _, h4⟩ := C01_fits (bo := bo) hf
    rw [hw] at h1
    cases h1
    have hz := z.mktime_shows t
    rw [← hd] at hz
    refine ⟨datetime_to_timestamp z d, hz.symm, ?_⟩
    unfold readDatetime
    show Rd.bind _ _ _ = _
    simp only [Rd.bind, h4 rest]
    rfl
  · rw [C01_refused hf] at hw; cases hw

/-- C60: a date that the clock never showed (skipped when clocks went forward) never comes back. -/
theorem C60_skipped (z : Zone) (bo : BO) {d : DateTime} (hd : ∀ t, ¬ Shows z t d.seconds) {bs : Bytes}
    (hw : writeDatetime z bo d = .ok ((), bs)) (rest : Bytes) :
    ∃ d', readDatetime z bo (bs ++ rest) = .ok (d', rest) ∧ d'.seconds ≠ d.seconds := by
  unfold writeDatetime at hw
  by_cases hf : Fits .u32 (datetime_to_timestamp z d)
  · obtain ⟨bs', h1, _, _, h4⟩ := C01_fits (bo := bo) hf
    rw [hw] at h1
    cases h1
    refine ⟨fromtimestamp z (datetime_to_timestamp z d), ?_, fun h => hd _ h.symm⟩
    unfold readDatetime
    show Rd.bind _ _ _ = _
    simp only [Rd.bind, h4 rest]
    rfl
  · rw [C01_refused hf] at hw; cases hw

/-- C60: dates before 1970 or after the year 2106 are refused. -/
theorem C60_range (z : Zone) (bo : BO) (d : DateTime) :
    (∃ bs, writeDatetime z bo d = .ok ((), bs)) ↔ 0 ≤ z.mktime d.seconds ∧ z.mktime d.seconds < 2 ^ 32 := by
  unfold writeDatetime datetime_to_timestamp
  constructor
  · rintro ⟨bs, h⟩
    by_contra hc
    rw [C01_refused (by
      intro hf
      simp only [Fits] at hf
      omega)] at h
    cases h
  · intro h
    obtain ⟨bs, h1, _⟩ := C01_fits (bo := bo) (t := .u32) (v := z.mktime d.seconds) (by simp only [Fits]; omega)
    exact ⟨bs, h1⟩

/-- C60: a stored date that is loaded and saved again without an edit is stored the same if its local time
occurs once; the four bytes are then the same. -/
theorem C60_resaved (z : Zone) {t : Int} (h : Once z t) : resaved z t = t := by
  unfold resaved datetime_to_timestamp fromtimestamp
  exact h _ (z.mktime_shows t)

/-- C60: the bytes of a date that is loaded and saved again are the same exactly if its timestamp is. -/
theorem C60_bytes (z : Zone) (bo : BO) {t : Int} {bs rest : Bytes} (h : rInt bo .u32 (bs ++ rest) = .ok (t, rest)) :
    readDatetime z bo (bs ++ rest) = .ok (fromtimestamp z t, rest) ∧
    (writeDatetime z bo (fromtimestamp z t) = .ok ((), bs) ↔ resaved z t = t) := by
  obtain ⟨d, h1, h2⟩ := C01_canonical h
  obtain rfl : d = bs := (List.append_cancel_right h1).symm
  refine ⟨?_, ?_, ?_⟩
  · unfold readDatetime
    show Rd.bind _ _ _ = _
    simp only [Rd.bind, h]
    rfl
  · intro hw
    have hf : Fits .u32 (resaved z t) := by
      by_contra hf
      unfold writeDatetime at hw
      have := C01_refused (bo := bo) hf
      unfold resaved at this
      rw [this] at hw
      cases hw
    obtain ⟨bs', k1, _, _, k4⟩ := C01_fits (bo := bo) hf
    have k1' : wInt bo .u32 (resaved z t) = .ok ((), d) := hw
    rw [k1'] at k1
    cases k1
    have := k4 rest
    rw [h] at this
    injection this with this
    injection this with this
    exact this.symm
  · intro hr
    show wInt bo .u32 (resaved z t) = _
    rw [hr]
    exact h2

/-- C60: of two moments with the same local time, at least one is not kept by a load and save without an
edit; it moves by the difference of the offsets. -/
theorem C60_moved (z : Zone) {t t' : Int} (hne : t ≠ t') (h : t + z.offset t = t' + z.offset t') :
    resaved z t ≠ t ∨ resaved z t' ≠ t' := by
  by_contra hc
  simp only [not_or, not_not] at hc
  apply hne
  rw [← hc.1, ← hc.2]
  unfold resaved datetime_to_timestamp fromtimestamp
  rw [h]

/-- C60: how far it moves. -/
theorem C60_distance (z : Zone) (t : Int) : resaved z t - t = z.offset t - z.offset (resaved z t) := by
  have h := z.mktime_shows t
  unfold resaved datetime_to_timestamp fromtimestamp
  dsimp only
  omega

/-- C60: further saves change nothing more, and the local time shown stays the same all the time. -/
theorem C60_again (z : Zone) (t : Int) :
    resaved z (resaved z t) = resaved z t ∧ fromtimestamp z (resaved z t) = fromtimestamp z t := by
  have h : fromtimestamp z (resaved z t) = fromtimestamp z t := by
    have h := z.mktime_shows t
    unfold resaved datetime_to_timestamp fromtimestamp
    dsimp only
    rw [h]
  refine ⟨?_, h⟩
  show datetime_to_timestamp z (fromtimestamp z (resaved z t)) = _
  rw [h]
  rfl

/-- C60: objects whose dates each have a local time that occurs once are saved as the model of the other
properties says, where dates are timestamps. -/
theorem C60_objects (z : Zone) {o : Obj}
    (h : ∀ x, o = .CMPO x → Once z x.last_modified ∧ ∀ t ∈ x.creation_time, Once z t) : redated z o = o := by
  cases o with
  | CMPO x =>
    obtain ⟨h1, h2⟩ := h x rfl
    have : x.creation_time.map (resaved z) = x.creation_time := by
      cases hc : x.creation_time with
      | none => rfl
      | some t => rw [Option.map_some, C60_resaved z (h2 t (by rw [hc]; rfl))]
    simp only [redated, C60_resaved z h1, this]
  | _ => rfl

/-- Clocks are changed once, at moment `T`, from offset `a` to offset `b`. -/
def Changes (z : Zone) (T a b : Int) : Prop := ∀ t, z.offset t = if t < T then a else b

/-- C60: if clocks go back by `a - b` at `T`, exactly the local times from so much before `T` until so much
after it occur twice. -/
theorem C60_back {z : Zone} {T a b : Int} (h : Changes z T a b) (hab : b ≤ a) (t : Int) :
    Once z t ↔ ¬ (T - (a - b) ≤ t ∧ t < T + (a - b)) := by
  constructor
  · rintro ho ⟨h1, h2⟩
    by_cases ht : t < T
    · have := ho (t + (a - b)) (by rw [h, h, if_pos ht, if_neg (by omega)]; omega)
      omega
    · have := ho (t - (a - b)) (by rw [h, h, if_neg ht, if_pos (by omega)]; omega)
      omega
  · intro hn t' ht'
    rw [h, h] at ht'
    split at ht' <;> split at ht' <;> omega

/-- C60: if clocks go forward, every local time occurs at most once, and exactly the local times between are
skipped. -/
theorem C60_forward {z : Zone} {T a b : Int} (h : Changes z T a b) (hab : a ≤ b) :
    (∀ t, Once z t) ∧ ∀ clock, (∃ t, Shows z t clock) ↔ ¬ (T + a ≤ clock ∧ clock < T + b) := by
  refine ⟨fun t t' ht' => ?_, fun clock => ⟨?_, ?_⟩⟩
  · rw [h, h] at ht'
    split at ht' <;> split at ht' <;> omega
  · rintro ⟨t, ht⟩
    unfold Shows at ht
    rw [h] at ht
    split at ht <;> omega
  · intro hn
    by_cases hc : clock < T + a
    · exact ⟨clock - a, by unfold Shows; rw [h, if_pos (by omega)]; omega⟩
    · exact ⟨clock - b, by unfold Shows; rw [h, if_neg (by omega)]; omega⟩

/-! ### Cases -/

/-- Berlin in 2023: summer time until 29 October 2023, 01:00 UTC; `mktime` takes the second of two moments
(here and in the next; the other choice is as good). -/
def berlin : Zone where
  offset t := if t < 1698541200 then 7200 else 3600
  mktime c := if c < 1698541200 + 3600 then c - 7200 else c - 3600
  mktime_shows := by
    intro t
    split <;> split <;> split <;> omega

theorem berlin_changes : Changes berlin 1698541200 7200 3600 := fun _ => rfl

/-- A mob last modified at 00:30 UTC of that day is saved with 01:30; one hour earlier or one and a half
hours later nothing moves. -/
example : resaved berlin 1698539400 = 1698539400 + 3600 ∧ resaved berlin 1698535800 = 1698535800 ∧
    resaved berlin 1698544800 = 1698544800 := by
  refine ⟨by decide, ?_, ?_⟩
  · decide
  · exact C60_resaved berlin ((C60_back berlin_changes (by decide) _).2 (by decide))

/-- The two moments that show half past two. -/
example : resaved berlin 1698539400 ≠ 1698539400 ∨ resaved berlin 1698543000 ≠ 1698543000 :=
  C60_moved berlin (by decide) (by decide)

/-- Berlin in March 2024: at 01:00 UTC of the 31st clocks go from 02:00 to 03:00. -/
def march : Zone where
  offset t := if t < 1711846800 then 3600 else 7200
  mktime c := if c < 1711846800 + 3600 then c - 3600 else c - 7200
  mktime_shows := by
    intro t
    split <;> split <;> split <;> omega

/-- Half past two of that day is skipped: assigned to a mob it comes back as another time. -/
example : ∃ bs d', writeDatetime march .little ⟨1711852200, 0⟩ = .ok ((), bs) ∧
    readDatetime march .little (bs ++ []) = .ok (d', []) ∧ d'.seconds ≠ 1711852200 := by
  obtain ⟨bs, h⟩ := (C60_range march .little ⟨1711852200, 0⟩).2 (by decide)
  obtain ⟨d', h1, h2⟩ := C60_skipped march .little (d := ⟨1711852200, 0⟩) (by
    intro t ht
    have := ((C60_forward (z := march) (T := 1711846800) (a := 3600) (b := 7200) (fun _ => rfl) (by decide)).2
      1711852200).1 ⟨t, ht⟩
    exact this (by decide)) h []
  exact ⟨bs, d', h, h1, h2⟩

/-- A date with microseconds, in Berlin, read back there and in a zone at UTC. -/
example (bo : BO) : ∃ bs, writeDatetime berlin bo ⟨1700000000, 123456⟩ = .ok ((), bs) ∧
    readDatetime berlin bo (bs ++ []) = .ok (⟨1700000000, 0⟩, []) := by
  obtain ⟨bs, h⟩ := (C60_range berlin bo ⟨1700000000, 123456⟩).2 (by decide)
  exact ⟨bs, h, C60_kept berlin bo (t := 1700000000 - 3600) (by unfold Shows; decide) h []⟩

/-- A date assigned at half past two, which occurs twice, shown at UTC. -/
example (bo : BO) : ∃ bs t', writeDatetime berlin bo ⟨1698546600, 0⟩ = .ok ((), bs) ∧ Shows berlin t' 1698546600 ∧
    readDatetime ⟨fun _ => 0, fun c => c, fun _ => by omega⟩ bo (bs ++ []) = .ok (⟨t' + 0, 0⟩, []) := by
  obtain ⟨bs, h⟩ := (C60_range berlin bo ⟨1698546600, 0⟩).2 (by decide)
  obtain ⟨t', h1, h2⟩ := C60_other_zone berlin ⟨fun _ => 0, fun c => c, fun _ => by omega⟩ bo
    (t := 1698539400) (by unfold Shows; decide) h []
  exact ⟨bs, t', h, h1, h2⟩

/-- The four bytes of a stored date. -/
example : ∃ bs, rInt .little .u32 (bs ++ [7]) = .ok (1698539400, [7]) ∧
    writeDatetime berlin .little (fromtimestamp berlin 1698539400) ≠ .ok ((), bs) := by
  obtain ⟨bs, h1, _, _, h4⟩ := C01_fits (bo := .little) (t := .u32) (v := 1698539400) (by simp only [Fits]; omega)
  refine ⟨bs, h4 _, fun h => ?_⟩
  have := ((C60_bytes berlin .little (h4 [7])).2.1 h)
  exact absurd this (by decide)

/-- A mob modified in January 2024 and created in the summer before. -/
example (x : Composition) (h1 : x.last_modified = 1704103200) (h2 : x.creation_time = some 1690000000) :
    redated berlin (.CMPO x) = .CMPO x :=
  C60_objects berlin fun y hy => by
    cases hy
    rw [h1, h2]
    refine ⟨(C60_back berlin_changes (by decide) _).2 (by decide), fun t ht => ?_⟩
    cases ht
    exact (C60_back berlin_changes (by decide) _).2 (by decide)

end Avb.Dates

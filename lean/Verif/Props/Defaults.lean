import Verif.Model.Defaults

/-!
C67: default lists and dictionaries are shared by all new objects of a process.
-/

namespace Avb.Defaults

/-- How many objects have been made.  (Histories have the last event first.) -/
def made : List Event → Nat
  | [] => 0
  | .make _ :: es => made es + 1
  | .load _ :: es => made es + 1
  | .copy a :: es => if a < made es then made es + 1 else made es
  | _ :: es => made es

/-- The class of an object. -/
def clsOf : List Event → Nat → Cls
  | [], _ => .ATTR
  | .make k :: es, a => if a = made es then k else clsOf es a
  | .load k :: es, a => if a = made es then k else clsOf es a
  | .copy b :: es, a => if b < made es ∧ a = made es then clsOf es b else clsOf es a
  | _ :: es, a => clsOf es a

/-- Has the object got a value? -/
def Has : List Event → Nat → Slot → Bool
  | [], _, _ => false
  | .make k :: es, a, s => if a = made es then s.inClass k else Has es a s
  | .load _ :: es, a, s => if a = made es then false else Has es a s
  | .assign b t _ :: es, a, s => if b < made es ∧ a = b ∧ s = t then true else Has es a s
  | .edit _ _ _ :: es, a, s => Has es a s
  | .copy b :: es, a, s =>
    if b < made es ∧ a = made es then Has es b s || (!s.isColumn && s.inClass (clsOf es b)) else Has es a s

/-- Has the object still the value that the constructor put there?  (A copied bin view has the column
dictionaries of its original.) -/
def Untouched : List Event → Nat → Slot → Bool
  | [], _, _ => false
  | .make k :: es, a, s => if a = made es then s.inClass k else Untouched es a s
  | .load _ :: es, a, s => if a = made es then false else Untouched es a s
  | .assign b t _ :: es, a, s => if b < made es ∧ a = b ∧ s = t then false else Untouched es a s
  | .edit _ _ _ :: es, a, s => Untouched es a s
  | .copy b :: es, a, s =>
    if b < made es ∧ a = made es then
      if s.isColumn then Untouched es b s else !Has es b s && s.inClass (clsOf es b)
    else Untouched es a s

/-- What the last change in place through any object with an untouched value made of the default. -/
def shared : List Event → Slot → Val
  | [], s => s.literal
  | .edit a t v :: es, s => if t = s ∧ Untouched es a s then v else shared es s
  | _ :: es, s => shared es s

theorem Slot.cell_lt (s : Slot) : s.cell < 22 := by
  cases s <;> simp [Slot.cell]
  omega

theorem Slot.cell_inj {s t : Slot} (h : s.cell = t.cell) : s = t := by
  cases s <;> cases t <;> simp [Slot.cell] at h ⊢ <;> omega

theorem Slot.cell_lt_five {s : Slot} (h : s.isColumn = false) : s.cell < 5 := by
  cases s <;> simp [Slot.cell, Slot.isColumn] at h ⊢

theorem start_literal (s : Slot) : start.cells s.cell = s.literal := by
  cases s with
  | column i =>
    have h : ∀ k, k < 5 → ¬ 5 + i.1 = k := by omega
    simp [start, Slot.cell, h]
  | _ => simp [start, Slot.cell]

structure Inv (es : List Event) (m : Mem) : Prop where
  count : m.count = made es
  cls : ∀ a, m.cls a = clsOf es a
  has : ∀ a s, (m.attrs a s).isSome = Has es a s
  old : ∀ a s c, m.attrs a s = some c → a < m.count
  untouched : ∀ a s, Untouched es a s = true → m.attrs a s = some s.cell
  own : ∀ a s c, m.attrs a s = some c → Untouched es a s = false → 22 ≤ c ∧ c < m.fresh
  room : 22 ≤ m.fresh
  inj : ∀ a s b t c, m.attrs a s = some c → m.attrs b t = some c → 22 ≤ c → s = t ∧ (s.isColumn = false → a = b)
  value : ∀ s, m.cells s.cell = shared es s

theorem Inv.run (es : List Event) : Inv es (run es) := by
  induction es with
  | nil =>
    refine ⟨rfl, fun _ => rfl, fun _ _ => rfl, ?_, ?_, ?_, by decide, ?_, start_literal⟩ <;>
      intros <;> simp_all [Defaults.run, start, Untouched]
  | cons e es ih =>
    obtain ⟨i1, i2, i3, i4, i5, i6, i7, i8, i9⟩ := ih
    rw [Defaults.run]
    generalize Defaults.run es = m at *
    cases e with
    | make k =>
      simp only [step, make]
      refine ⟨by simp [made, i1], ?_, ?_, ?_, ?_, ?_, i7, ?_, i9⟩
      · intro a; simp only [clsOf, i1, i2]
      · intro a s
        simp only [Has, i1, ← i3]
        split
        · split <;> simp_all
        · rfl
      · intro a s c h
        dsimp only at h
        split at h
        · dsimp only; omega
        · have := i4 a s c h; dsimp only; omega
      · intro a s h
        simp only [Untouched, ← i1] at h
        dsimp only
        split at h
        · rw [if_pos ‹_›, if_pos h]
        · rw [if_neg ‹_›, i5 a s h]
      · intro a s c h hu
        simp only [Untouched, ← i1] at h hu
        split at h
        · rw [if_pos ‹_›] at hu
          rw [if_neg (by simp [hu])] at h
          cases h
        · rw [if_neg ‹_›] at hu
          exact i6 a s c h hu
      · intro a s b t c h1 h2 hc
        dsimp only at h1 h2
        have hx : ∀ x : Slot, (if x.inClass k then some x.cell else none) ≠ some c := by
          intro x hx
          split at hx
          · cases hx
            have := x.cell_lt
            omega
          · cases hx
        split at h1
        · exact absurd h1 (hx s)
        · split at h2
          · exact absurd h2 (hx t)
          · exact i8 a s b t c h1 h2 hc
    | load k =>
      simp only [step, load]
      refine ⟨by simp [made, i1], ?_, ?_, ?_, ?_, ?_, i7, ?_, i9⟩
      · intro a; simp only [clsOf, i1, i2]
      · intro a s
        simp only [Has, i1, ← i3]
        split <;> rfl
      · intro a s c h
        dsimp only at h
        split at h
        · cases h
        · have := i4 a s c h; dsimp only; omega
      · intro a s h
        simp only [Untouched, ← i1] at h
        dsimp only
        split at h
        · cases h
        · rw [if_neg ‹_›, i5 a s h]
      · intro a s c h hu
        simp only [Untouched, ← i1] at h hu
        split at h
        · cases h
        · rw [if_neg ‹_›] at hu
          exact i6 a s c h hu
      · intro a s b t c h1 h2 hc
        dsimp only at h1 h2
        split at h1
        · cases h1
        · split at h2
          · cases h2
          · exact i8 a s b t c h1 h2 hc
    | assign b t v =>
      by_cases hb : b < m.count
      · have hb' : b < made es := i1 ▸ hb
        simp only [step, if_pos hb, assign]
        refine ⟨by simp [made, i1], ?_, ?_, ?_, ?_, ?_, by dsimp only; omega, ?_, ?_⟩
        · intro a; simp only [clsOf, i2]
        · intro a s
          simp only [Has, ← i3, hb', true_and]
          split <;> rfl
        · intro a s c h
          dsimp only at h
          split at h
          · dsimp only; omega
          · exact i4 a s c h
        · intro a s h
          simp only [Untouched, hb', true_and] at h
          dsimp only
          split at h
          · cases h
          · rw [if_neg ‹_›, i5 a s h]
        · intro a s c h hu
          simp only [Untouched, hb', true_and] at h hu
          split at h
          · cases h; dsimp only; omega
          · rw [if_neg ‹_›] at hu
            have := i6 a s c h hu
            dsimp only; omega
        · intro a s b' t' c h1 h2 hc
          dsimp only at h1 h2
          have hx : ∀ a s, m.attrs a s ≠ some m.fresh := by
            intro a s h
            cases hu : Untouched es a s with
            | true =>
              rw [i5 a s hu] at h
              injection h with h
              have := s.cell_lt
              omega
            | false =>
              have := i6 a s _ h hu
              omega
          split at h1
          · cases h1
            split at h2
            · simp_all
            · exact absurd h2 (hx _ _)
          · split at h2
            · cases h2
              exact absurd h1 (hx _ _)
            · exact i8 a s b' t' c h1 h2 hc
        · intro s
          dsimp only
          have := s.cell_lt
          rw [if_neg (by omega), i9, shared]
          all_goals (intro _ _ _ h; cases h)
      · have hb' : ¬ b < made es := i1 ▸ hb
        simp only [step, if_neg hb]
        refine ⟨by simp [made, i1], ?_, ?_, i4, ?_, ?_, i7, i8, ?_⟩
        · intro a; simp only [clsOf, i2]
        · intro a s; simp [Has, ← i3, hb']
        · intro a s h; exact i5 a s (by simpa [Untouched, hb'] using h)
        · intro a s c h hu; exact i6 a s c h (by simpa [Untouched, hb'] using hu)
        · intro s; rw [i9, shared]; all_goals (intro _ _ _ h; cases h)
    | edit b t v =>
      have key : Inv (.edit b t v :: es) (edit m b t v) := by
        unfold edit
        cases hbt : m.attrs b t with
        | some c =>
          dsimp only
          refine ⟨by simp [made, i1], ?_, ?_, i4, ?_, ?_, i7, i8, ?_⟩
          · intro a; simp only [clsOf, i2]
          · intro a s; simp [Has, ← i3]
          · intro a s h; exact i5 a s (by simpa [Untouched] using h)
          · intro a s c h hu; exact i6 a s c h (by simpa [Untouched] using hu)
          · intro s
            dsimp only
            rw [shared]
            cases hu : Untouched es b t with
            | true =>
              rw [i5 b t hu] at hbt
              cases hbt
              by_cases hst : t = s
              · subst hst; rw [if_pos rfl, if_pos ⟨rfl, hu⟩]
              · rw [if_neg (fun h => hst (Slot.cell_inj h).symm), if_neg (fun h => hst h.1), i9]
            | false =>
              have := i6 b t c hbt hu
              have := s.cell_lt
              rw [if_neg (by omega), if_neg, i9]
              rintro ⟨rfl, h⟩
              rw [hu] at h; cases h
        | none =>
          dsimp only
          refine ⟨by simp [made, i1], ?_, ?_, i4, ?_, ?_, i7, i8, ?_⟩
          · intro a; simp only [clsOf, i2]
          · intro a s; simp [Has, ← i3]
          · intro a s h; exact i5 a s (by simpa [Untouched] using h)
          · intro a s c h hu; exact i6 a s c h (by simpa [Untouched] using hu)
          · intro s
            rw [shared, if_neg, i9]
            rintro ⟨rfl, h⟩
            rw [i5 b t h] at hbt
            cases hbt
      by_cases hb : b < m.count
      · simp only [step, if_pos hb]; exact key
      · have hn : m.attrs b t = none := by
          cases h : m.attrs b t with
          | none => rfl
          | some c => exact absurd (i4 b t c h) hb
        simp only [step, if_neg hb]
        unfold edit at key
        rw [hn] at key
        exact key
    | copy b =>
      by_cases hb : b < m.count
      · have hb' : b < made es := i1 ▸ hb
        simp only [step, if_pos hb, copy]
        refine ⟨by simp [made, i1, hb'], ?_, ?_, ?_, ?_, ?_, by dsimp only; omega, ?_, ?_⟩
        · intro a; simp only [clsOf, i1, i2, hb', true_and]
        · intro a s
          simp only [Has, i1, hb', true_and]
          split
          · rw [← i3]
            cases hbs : m.attrs b s with
            | some c => cases s.isColumn <;> simp
            | none => cases s.isColumn <;> cases hk : s.inClass (clsOf es b) <;> simp [i2, hk]
          · exact i3 a s
        · intro a s c h
          dsimp only at h
          split at h
          · dsimp only; omega
          · have := i4 a s c h; dsimp only; omega
        · intro a s h
          simp only [Untouched, ← i1, hb, true_and] at h
          dsimp only
          split at h
          · rw [if_pos ‹_›]
            split at h
            · rw [i5 b s h]
              simp [*]
            · rw [← i3] at h
              cases hbs : m.attrs b s with
              | some c => simp [hbs] at h
              | none => simp_all
          · rw [if_neg ‹_›, i5 a s h]
        · intro a s c h hu
          simp only [Untouched, ← i1, hb, true_and] at h hu
          split at h
          · rw [if_pos ‹_›] at hu
            cases hbs : m.attrs b s with
            | some c' =>
              rw [hbs] at h
              dsimp only at h
              cases hs : s.isColumn with
              | true =>
                simp only [hs, if_true] at h hu
                cases h
                have := i6 b s _ hbs hu
                dsimp only; omega
              | false =>
                simp only [hs] at h
                cases h
                have := Slot.cell_lt_five hs
                dsimp only; omega
            | none =>
              rw [hbs] at h
              rw [← i3, hbs] at hu
              cases hs : s.isColumn <;> simp_all
          · rw [if_neg ‹_›] at hu
            have := i6 a s c h hu
            dsimp only; omega
        · have hold : ∀ a s c, m.attrs a s = some c → c < m.fresh := by
            intro a s c h
            cases hu : Untouched es a s with
            | true =>
              rw [i5 a s hu] at h
              injection h with h
              have := s.cell_lt
              omega
            | false => exact (i6 a s c h hu).2
          have hnew : ∀ s c, 22 ≤ c → (match m.attrs b s with
              | some c => if s.isColumn then some c else some (m.fresh + s.cell)
              | none => if s.isColumn then none else if s.inClass (m.cls b) then some s.cell else none) = some c →
              (s.isColumn = true ∧ m.attrs b s = some c) ∨ (s.isColumn = false ∧ c = m.fresh + s.cell) := by
            intro s c hc h
            split at h
            · rename_i c' hc'
              cases hs : s.isColumn with
              | true => simp only [hs, if_true] at h; cases h; exact .inl ⟨rfl, hc'⟩
              | false => simp [hs] at h; exact .inr ⟨rfl, h.symm⟩
            · split at h
              · cases h
              · split at h
                · injection h with h
                  have := s.cell_lt
                  omega
                · cases h
          intro a s b' t c h1 h2 hc
          dsimp only at h1 h2
          split at h1
          · subst a
            rcases hnew s c hc h1 with ⟨g1, g2⟩ | ⟨g1, rfl⟩
            · split at h2
              · subst b'
                rcases hnew t c hc h2 with ⟨g3, g4⟩ | ⟨g3, rfl⟩
                · exact ⟨(i8 b s b t c g2 g4 hc).1, fun _ => rfl⟩
                · have := hold _ _ _ g2; omega
              · exact ⟨(i8 b s b' t c g2 h2 hc).1, fun h => by rw [g1] at h; cases h⟩
            · split at h2
              · subst b'
                rcases hnew t _ hc h2 with ⟨g3, g4⟩ | ⟨g3, g4⟩
                · have := hold _ _ _ g4; omega
                · exact ⟨Slot.cell_inj (by omega), fun _ => rfl⟩
              · have := hold _ _ _ h2; omega
          · split at h2
            · subst b'
              rcases hnew t c hc h2 with ⟨g3, g4⟩ | ⟨g3, rfl⟩
              · obtain ⟨k1, k2⟩ := i8 a s b t c h1 g4 hc
                subst k1
                exact ⟨rfl, fun h => by rw [g3] at h; cases h⟩
              · have := hold _ _ _ h1; omega
            · exact i8 a s b' t c h1 h2 hc
        · intro s
          dsimp only
          have := s.cell_lt
          rw [if_neg (by omega), i9, shared]
          all_goals (intro _ _ _ h; cases h)
      · have hb' : ¬ b < made es := i1 ▸ hb
        simp only [step, if_neg hb]
        refine ⟨by simp [made, i1, hb'], ?_, ?_, i4, ?_, ?_, i7, i8, ?_⟩
        · intro a; simp only [clsOf, i2, hb', false_and, if_false]
        · intro a s; simp [Has, ← i3, hb']
        · intro a s h; exact i5 a s (by simpa [Untouched, hb'] using h)
        · intro a s c h hu; exact i6 a s c h (by simpa [Untouched, hb'] using hu)
        · intro s; rw [i9, shared]; all_goals (intro _ _ _ h; cases h)

/-- C67: an object that still has the value of its constructor shows the shared default, with whatever was
made of it in place through any object. -/
theorem C67_value {es : List Event} {a : Nat} {s : Slot} (h : Untouched es a s = true) :
    val (run es) a s = some (shared es s) := by
  have hv := Inv.run es
  rw [val, hv.untouched a s h, Option.map_some, hv.value]

theorem Untouched.made {es : List Event} {a : Nat} {s : Slot} (h : Untouched es a s = true) : a < made es := by
  have hv := Inv.run es
  rw [← hv.count]
  exact hv.old a s _ (hv.untouched a s h)

/-- C67: a change in place of such a value shows at all objects that still have theirs, of all files, and
nowhere else. -/
theorem C67_edit_default {es : List Event} {a : Nat} {s : Slot} (h : Untouched es a s = true) (v : Val)
    (b : Nat) (t : Slot) :
    val (run (.edit a s v :: es)) b t =
      if t = s ∧ Untouched es b s = true then some v else val (run es) b t := by
  have hv := Inv.run es
  have hs := hv.untouched a s h
  have hl : a < (run es).count := hv.old a s _ hs
  rw [run, step, if_pos hl, edit, hs]
  simp only [val]
  split
  · rename_i hc
    obtain ⟨rfl, hu⟩ := hc
    rw [hv.untouched b t hu]
    simp
  · rename_i hc
    cases hb : (run es).attrs b t with
    | none => rfl
    | some c =>
      have : c ≠ s.cell := by
        rintro rfl
        cases hu : Untouched es b t with
        | true =>
          rw [hv.untouched b t hu] at hb
          injection hb with hb
          have := Slot.cell_inj hb
          subst this
          exact hc ⟨rfl, hu⟩
        | false =>
          have := hv.own b t _ hb hu
          have := s.cell_lt
          omega
      simp [this]

/-- C67: a change in place of a list that was assigned, loaded or copied shows at this object only. -/
theorem C67_edit_own {es : List Event} {a : Nat} {s : Slot} (hh : Has es a s = true)
    (h : Untouched es a s = false) (hs : s.isColumn = false) (v : Val) (b : Nat) (t : Slot) :
    val (run (.edit a s v :: es)) b t = if b = a ∧ t = s then some v else val (run es) b t := by
  have hv := Inv.run es
  obtain ⟨c, hc⟩ : ∃ c, (run es).attrs a s = some c := by
    rw [← hv.has] at hh
    exact Option.isSome_iff_exists.1 hh
  have hl : a < (run es).count := hv.old a s _ hc
  obtain ⟨h1, h2⟩ := hv.own a s c hc h
  rw [run, step, if_pos hl, edit, hc]
  simp only [val]
  split
  · rename_i hx
    obtain ⟨rfl, rfl⟩ := hx
    rw [hc]
    simp
  · rename_i hx
    cases hb : (run es).attrs b t with
    | none => rfl
    | some d =>
      have : d ≠ c := by
        rintro rfl
        obtain ⟨g1, g2⟩ := hv.inj a s b t d hc hb h1
        exact hx ⟨(g2 hs).symm, g1.symm⟩
      simp [this]

/-- C67: an assignment shows at its object only. -/
theorem C67_assign {es : List Event} {a : Nat} (ha : a < made es) (s : Slot) (v : Val) (b : Nat) (t : Slot) :
    val (run (.assign a s v :: es)) b t = if b = a ∧ t = s then some v else val (run es) b t := by
  have hv := Inv.run es
  rw [run, step, if_pos (by rw [hv.count]; exact ha), assign]
  simp only [val]
  split
  · simp
  · cases hb : (run es).attrs b t with
    | none => rfl
    | some d =>
      have : d ≠ (run es).fresh := by
        cases hu : Untouched es b t with
        | true =>
          rw [hv.untouched b t hu] at hb
          injection hb with hb
          have := t.cell_lt
          have := hv.room
          omega
        | false => have := (hv.own b t d hb hu).2; omega
      simp [this]

/-- C67: a copy has the values of its original, and nothing else changes. -/
theorem C67_copy {es : List Event} {a : Nat} (ha : a < made es) (b : Nat) (t : Slot) :
    (b ≠ made es → val (run (.copy a :: es)) b t = val (run es) b t) ∧
    (Has es a t = true → val (run (.copy a :: es)) (made es) t = val (run es) a t) := by
  have hv := Inv.run es
  have hold : ∀ a s c, (run es).attrs a s = some c → c < (run es).fresh := by
    intro a s c h
    cases hu : Untouched es a s with
    | true =>
      rw [hv.untouched a s hu] at h
      injection h with h
      have := s.cell_lt
      have := hv.room
      omega
    | false => exact (hv.own a s c h hu).2
  rw [run, step, if_pos (by rw [hv.count]; exact ha), copy]
  simp only [val, hv.count]
  constructor
  · intro hb
    rw [if_neg hb]
    cases h : (run es).attrs b t with
    | none => rfl
    | some c =>
      have := hold b t c h
      simp only [Option.map_some]
      rw [if_neg (by omega)]
  · intro hh
    rw [if_pos trivial]
    rw [← hv.has] at hh
    obtain ⟨c, hc⟩ := Option.isSome_iff_exists.1 hh
    rw [hc]
    have := hold a t c hc
    cases t with
    | column i =>
      simp only [Slot.isColumn, if_true, Option.map_some]
      rw [if_neg (by omega)]
    | _ => simp [Slot.isColumn, Slot.cell, hc]

/-- C67: a new object shows the literal defaults of its class, provided that no untouched value was ever
changed in place before, by anyone. -/
theorem C67_literal {es : List Event} {a : Nat} {s : Slot} (h : Untouched es a s = true)
    (hn : ∀ later b v earlier, es = later ++ .edit b s v :: earlier → Untouched earlier b s = false) :
    val (run es) a s = some s.literal := by
  rw [C67_value h]
  congr 1
  clear h
  induction es with
  | nil => rfl
  | cons e es ih =>
    have ih := ih fun later b v earlier he => hn (e :: later) b v earlier (by rw [he]; rfl)
    cases e with
    | edit b t v =>
      rw [shared, if_neg, ih]
      rintro ⟨rfl, hu⟩
      rw [hn [] b v es rfl] at hu
      cases hu
    | _ => rw [shared, ih]; all_goals (intro _ _ _ h; cases h)

/-- C67: under the same condition these are the lists of the new bin of C57. -/
theorem C67_bin {es : List Event} (hn : ∀ later b s v earlier, es = later ++ .edit b s v :: earlier →
    Untouched earlier b s = false) (uid : Int) (view attributes : Ref) :
    let x := Work.newBin uid view attributes
    let look := val (run (.make .ABIN :: es)) (made es)
    look .home_rect = some (.ints [x.home_rect.a, x.home_rect.b, x.home_rect.c, x.home_rect.d]) ∧
    look .background_color = some (.ints [x.background_color.r, x.background_color.g, x.background_color.b]) ∧
    look .forground_color = some (.ints [x.forground_color.r, x.forground_color.g, x.forground_color.b]) := by
  intro x look
  have key : ∀ s : Slot, s.inClass .ABIN = true → look s = some s.literal := by
    intro s hs
    refine C67_literal (by simp [Untouched, hs]) ?_
    intro later b v earlier he
    cases later with
    | nil => cases he
    | cons e later =>
      injection he with _ he
      exact hn later b s v earlier he
  exact ⟨key _ rfl, key _ rfl, key _ rfl⟩

theorem new_value {es : List Event} (hn : ∀ later b s v earlier, es = later ++ .edit b s v :: earlier →
    Untouched earlier b s = false) (k : Cls) (s : Slot) :
    val (run (.make k :: es)) (made es) s = if s.inClass k then some s.literal else none := by
  cases hs : s.inClass k with
  | true =>
    rw [if_pos rfl]
    refine C67_literal (by simp [Untouched, hs]) ?_
    intro later b v earlier he
    cases later with
    | nil => cases he
    | cons e later =>
      injection he with _ he
      exact hn later b s v earlier he
  | false =>
    have hv := (Inv.run (.make k :: es)).has (made es) s
    rw [show Has (.make k :: es) (made es) s = false by simp [Has, hs]] at hv
    rw [val, Option.isSome_eq_false_iff.1 hv |> Option.isNone_iff_eq_none.1]
    rfl

/-- C67: under the same condition new image descriptors of the five kinds, and nothing else, have the aspect
ratio 16:9 and the line map 42, 0. -/
theorem C67_descriptor {es : List Event} (hn : ∀ later b s v earlier, es = later ++ .edit b s v :: earlier →
    Untouched earlier b s = false) (k : Cls) :
    let look := val (run (.make k :: es)) (made es)
    if k = .DIDD ∨ k = .CDCI ∨ k = .MPGI ∨ k = .JPED ∨ k = .RGBA then
      look .aspect_ratio = some (.ints [16, 9]) ∧ look .line_map = some (.ints [42, 0])
    else look .aspect_ratio = none ∧ look .line_map = none := by
  intro look
  have h1 := new_value hn k .aspect_ratio
  have h2 := new_value hn k .line_map
  split
  · next h =>
    have hk : Slot.inClass .aspect_ratio k = true ∧ Slot.inClass .line_map k = true := by
      simpa [Slot.inClass] using h
    rw [hk.1] at h1
    rw [hk.2] at h2
    exact ⟨h1, h2⟩
  · next h =>
    have hk : Slot.inClass .aspect_ratio k = false ∧ Slot.inClass .line_map k = false := by
      simpa [Slot.inClass] using h
    rw [hk.1] at h1
    rw [hk.2] at h2
    exact ⟨h1, h2⟩

/-- C67: under the same condition new bin views, and nothing else, have the 17 columns of the class, and new
bins, and nothing else, have a rectangle and colors. -/
theorem C67_columns {es : List Event} (hn : ∀ later b s v earlier, es = later ++ .edit b s v :: earlier →
    Untouched earlier b s = false) (k : Cls) (i : Fin 17) :
    val (run (.make k :: es)) (made es) (.column i) =
      (if k = .BVst then Work.default_bin_columns[i.1]?.map .column else none) ∧
    ∀ s ∈ [Slot.home_rect, .background_color, .forground_color],
      ((val (run (.make k :: es)) (made es) s).isSome ↔ k = .ABIN) := by
  refine ⟨?_, fun s hs => ?_⟩
  · rw [new_value hn k (.column i), List.getElem?_eq_getElem (by simp [Work.default_bin_columns])]
    by_cases hk : k = .BVst <;> simp [Slot.inClass, hk, Slot.literal]
  · rw [new_value hn k s]
    simp only [List.mem_cons, List.not_mem_nil, or_false] at hs
    rcases hs with rfl | rfl | rfl <;> by_cases hk : k = .ABIN <;> simp [Slot.inClass, hk]

/-- C67: in particular a change in place of the background of one new bin is the background of every bin
made after it in the process, in whatever file. -/
theorem C67_leak (es es' : List Event) (v : Val) (hn : ∀ b s w, Event.edit b s w ∉ es') :
    val (run (.make .ABIN :: (es' ++ .edit (made es) .background_color v :: .make .ABIN :: es)))
      (made (es' ++ .edit (made es) .background_color v :: .make .ABIN :: es)) .background_color = some v := by
  rw [C67_value (by simp [Untouched, Slot.inClass])]
  congr 1
  rw [shared]
  · induction es' with
    | nil => simp [shared, Untouched, Slot.inClass]
    | cons e es' ih =>
      have ih := ih fun b s w h => hn b s w (List.mem_cons_of_mem _ h)
      cases e with
      | edit b t w => exact absurd List.mem_cons_self (hn b t w)
      | _ =>
        rw [List.cons_append, shared, ih]
        all_goals (intro _ _ _ h; cases h)
  · intro _ _ _ h; cases h

/-- Two bins, an image descriptor and its copy: the background of the first bin is changed in place, the
second bin has it too and so has the next one; the copy of the descriptor is on its own, and its original still
has the default. -/
example : let es : List Event := [.make .ABIN, .edit 3 .line_map (.ints [21, 584]), .copy 2,
      .edit 0 .background_color (.ints [1, 2, 3]), .make .CDCI, .make .ABIN, .make .ABIN]
    Untouched es 1 .background_color = true ∧ Untouched es 3 .line_map = false ∧ Has es 3 .line_map = true ∧
    val (run es) 1 .background_color = some (.ints [1, 2, 3]) ∧
    val (run es) 4 .background_color = some (.ints [1, 2, 3]) ∧
    val (run es) 3 .line_map = some (.ints [21, 584]) ∧ val (run es) 2 .line_map = some (.ints [42, 0]) := by
  decide

end Avb.Defaults

import Verif.Spec.AnyValue
import Verif.Lemmas.Prim

/-! Writers with any values in the properties: they do what the plain writers do with the converted values, or fail. -/

namespace Avb

open Unset

/-- The writer `w` succeeds exactly if the values given to the properties in `l` are taken and the plain writer `w0`
succeeds, and then with the same output. -/
def Conv {α : Type} (g : Given) (l : List (Slot × Kind)) (w w0 : Wr α) : Prop :=
  ∀ r, w = .ok r ↔ Accepts g l ∧ w0 = .ok r

theorem Py.truth_iff {v : Py} : v.truth = false ↔ v.Falsy := by
  cases v with
  | float r => cases r <;> simp [Py.truth, Py.Falsy]
  | _ => simp [Py.truth, Py.Falsy]

theorem Py.asInt_takes (v : Py) : Takes .int v ↔ ∃ a, v.asInt = .ok a := by
  cases v <;> simp [Takes, Py.IsInt, Py.asInt]

theorem Py.asBool_takes (v : Py) : Takes .bool v ↔ ∃ a, v.asBool = .ok a := by
  simp [Takes, Py.asBool]

theorem Py.asText_takes (v : Py) : Takes .text v ↔ ∃ a, v.asText = .ok a := by
  unfold Takes Py.asText
  dsimp only
  rw [← Py.truth_iff]
  cases ht : v.truth with
  | false => simp [ht]
  | true => cases v <;> simp [ht]

theorem Py.asName_takes (v : Py) : Takes .name v ↔ ∃ a, v.asName = .ok a := by
  unfold Takes Py.asName
  dsimp only
  rw [← Py.truth_iff]
  cases ht : v.truth with
  | false => simp [ht]
  | true => cases v <;> simp [ht]

theorem Py.asRef_takes (v : Py) : Takes .ref v ↔ ∃ a, v.asRef = .ok a := by
  cases v <;> simp [Takes, Py.asRef]

theorem Py.asRate_takes (v : Py) : Takes .rate v ↔ ∃ a, v.asRate = .ok a := by
  cases v <;> simp [Takes, Py.IsInt, Py.asRate]

theorem Py.ints_ok (n : Nat) (vs : List Py) : (∃ a, Py.ints n vs = .ok a) ↔
    ∃ xs ys : List Py, vs = xs ++ ys ∧ xs.length = n ∧ ∀ x ∈ xs, x.IsInt := by
  induction n generalizing vs with
  | zero => exact ⟨fun _ => ⟨[], vs, rfl, rfl, fun _ h => nomatch h⟩, fun _ => ⟨[], by unfold Py.ints; rfl⟩⟩
  | succ n ih =>
    cases vs with
    | nil =>
      constructor
      · rintro ⟨a, h⟩
        unfold Py.ints at h
        cases h
      · rintro ⟨xs, ys, h, hl, _⟩
        have := congrArg List.length h
        simp at this
        omega
    | cons v vs =>
      have e : Py.ints (n + 1) (v :: vs) =
          (match v.asInt with
            | .ok z => (match Py.ints n vs with | .ok zs => .ok (z :: zs) | .error e => .error e)
            | .error e => .error e) := by
        rw [Py.ints]
        cases v.asInt with
        | error e => rfl
        | ok z =>
          cases Py.ints n vs with
          | error e => rfl
          | ok zs => rfl
      rw [e]
      constructor
      · rintro ⟨a, h⟩
        split at h
        · next z hz =>
          split at h
          · next zs hzs =>
            obtain ⟨xs, ys, h1, h2, h3⟩ := (ih vs).1 ⟨zs, hzs⟩
            refine ⟨v :: xs, ys, by rw [h1]; rfl, by simp [h2], fun x hx => ?_⟩
            rcases List.mem_cons.1 hx with rfl | hx
            · exact (Py.asInt_takes _).2 ⟨z, hz⟩
            · exact h3 x hx
          · cases h
        · cases h
      · rintro ⟨xs, ys, h1, h2, h3⟩
        cases xs with
        | nil => simp at h2
        | cons x xs =>
          injection h1 with h1 h4
          subst h1
          obtain ⟨z, hz⟩ := (Py.asInt_takes _).1 (h3 v List.mem_cons_self)
          obtain ⟨zs, hzs⟩ := (ih vs).2 ⟨xs, ys, h4, by simpa using h2, fun y hy => h3 y (List.mem_cons_of_mem _ hy)⟩
          rw [hz, hzs]
          exact ⟨_, rfl⟩

theorem Py.ints_length {n : Nat} {vs : List Py} {a : List Int} (h : Py.ints n vs = .ok a) : a.length = n := by
  induction n generalizing vs a with
  | zero => unfold Py.ints at h; cases h; rfl
  | succ n ih =>
    cases vs with
    | nil => unfold Py.ints at h; cases h
    | cons v vs =>
      rw [Py.ints] at h
      cases hv : v.asInt with
      | error e => rw [hv] at h; cases h
      | ok z =>
        rw [hv] at h
        cases hr : Py.ints n vs with
        | error e => rw [hr] at h; cases h
        | ok zs =>
          rw [hr] at h
          cases h
          simp [ih hr]

theorem Py.asInts_takes (n : Nat) (v : Py) : v.HasInts n ↔ ∃ a, v.asInts n = .ok a := by
  unfold Py.HasInts
  cases v with
  | seq xs =>
    simp only [Py.asInts, Py.ints_ok]
    simp
  | bytes bs =>
    simp only [Py.asInts]
    by_cases h : n ≤ bs.length <;> simp [h]
  | _ => simp [Py.asInts]

theorem Py.asInts_length {n : Nat} {v : Py} {a : List Int} (h : v.asInts n = .ok a) : a.length = n := by
  cases v with
  | seq xs => exact Py.ints_length h
  | bytes bs =>
    simp only [Py.asInts] at h
    split at h
    · next hn => cases h; simp [hn]
    · cases h
  | _ => simp [Py.asInts] at h

theorem Py.asRect_takes (v : Py) : Takes .rect v ↔ ∃ a, v.asRect = .ok a := by
  show v.HasInts 4 ↔ _
  rw [Py.asInts_takes]
  unfold Py.asRect
  constructor
  · rintro ⟨a, h⟩
    have hl := Py.asInts_length h
    rw [h]
    match a, hl with
    | [a, b, c, d], _ => exact ⟨_, rfl⟩
  · rintro ⟨a, h⟩
    split at h
    · next h' => exact ⟨_, h'⟩
    · cases h
    · cases h

theorem Py.asRgb_takes (v : Py) : Takes .rgb v ↔ ∃ a, v.asRgb = .ok a := by
  show v.HasInts 3 ↔ _
  rw [Py.asInts_takes]
  unfold Py.asRgb
  constructor
  · rintro ⟨a, h⟩
    have hl := Py.asInts_length h
    rw [h]
    match a, hl with
    | [a, b, c], _ => exact ⟨_, rfl⟩
  · rintro ⟨a, h⟩
    split at h
    · next h' => exact ⟨_, h'⟩
    · cases h
    · cases h

namespace Conv

variable {α β : Type} {g : Given}

theorem accepts_append {l l' : List (Slot × Kind)} : Accepts g (l ++ l') ↔ Accepts g l ∧ Accepts g l' := by
  constructor
  · exact fun h => ⟨fun s k v hs => h s k v (List.mem_append_left _ hs),
      fun s k v hs => h s k v (List.mem_append_right _ hs)⟩
  · rintro ⟨h1, h2⟩ s k v hs
    rcases List.mem_append.1 hs with hs | hs
    · exact h1 s k v hs
    · exact h2 s k v hs

theorem accepts_nil : Accepts g [] := fun _ _ _ h => nomatch h

theorem plain (w : Wr α) : Conv g [] w w := fun _ => ⟨fun h => ⟨accepts_nil, h⟩, fun h => h.2⟩

theorem bind_ok {w : Wr α} {k : α → Wr β} {b : β} {out : Bytes} : (w >>= k) = .ok (b, out) ↔
    ∃ a o1 o2, w = .ok (a, o1) ∧ k a = .ok (b, o2) ∧ out = o1 ++ o2 := by
  constructor
  · exact Wr.bind_eq_ok
  · rintro ⟨a, o1, o2, h1, h2, rfl⟩
    have : ∀ (f : α → Wr β), Bind.bind (m := Wr) (.ok (a, o1)) f =
      (match f a with | .ok (b, bs') => .ok (b, o1 ++ bs') | .error e => .error e) := fun _ => rfl
    rw [h1, this, h2]

theorem bind {w w0 : Wr α} {k k0 : α → Wr β} {l l' : List (Slot × Kind)} (h : Conv g l w w0)
    (h' : ∀ a, Conv g l' (k a) (k0 a)) : Conv g (l ++ l') (w >>= k) (w0 >>= k0) := by
  rintro ⟨b, out⟩
  rw [accepts_append, bind_ok, bind_ok]
  constructor
  · rintro ⟨a, o1, o2, h1, h2, h3⟩
    obtain ⟨h4, h5⟩ := (h _).1 h1
    obtain ⟨h6, h7⟩ := (h' a _).1 h2
    exact ⟨⟨h4, h6⟩, a, o1, o2, h5, h7, h3⟩
  · rintro ⟨⟨h4, h6⟩, a, o1, o2, h1, h2, h3⟩
    exact ⟨a, o1, o2, (h _).2 ⟨h4, h1⟩, (h' a _).2 ⟨h6, h2⟩, h3⟩

theorem accepts_one {n : String} {k : Kind} : Accepts g [(([], n), k)] ↔ ∀ v, g ([], n) = some v → Takes k v := by
  constructor
  · exact fun h v hv => h _ _ v (List.mem_singleton_self _) hv
  · intro h s k' v hs hv
    cases List.mem_singleton.1 hs
    exact h v hv

theorem leaf {w : α → Wr Unit} {conv : Py → Except Err α} {k : Kind} (hk : ∀ v, Takes k v ↔ ∃ a, conv v = .ok a)
    (n : String) (a : α) : Conv g [(([], n), k)] (pLeaf w conv (g.val n a)) (w (g.into n conv a)) := by
  intro r
  rw [accepts_one]
  unfold Given.val Given.into
  cases hg : g ([], n) with
  | none => simp [pLeaf]
  | some v =>
    simp only [pLeaf, Option.some.injEq, forall_eq', hk]
    cases hc : conv v with
    | error e =>
      constructor
      · intro h; cases h
      · rintro ⟨⟨_, h⟩, _⟩; cases h
    | ok b => simp

theorem opt {w : α → Wr Unit} {conv : Py → Except Err α} {k : Kind} (hk : ∀ v, Takes k v ↔ ∃ a, conv v = .ok a)
    (n : String) (a : Option α) (x y z : Int) : Conv g [(([], n), k)]
      (Wr.ifHas (g.opt n a) fun v => do wU8 x; wU8 y; wU8 z; pLeaf w conv v)
      (Wr.ifHas (g.intoOpt n conv a) fun v => do wU8 x; wU8 y; wU8 z; w v) := by
  unfold Given.opt Given.intoOpt
  cases hg : g ([], n) with
  | none =>
    intro r
    rw [accepts_one, hg]
    simp only [reduceCtorEq, false_implies, implies_true, true_and]
    cases a with
    | none => exact Iff.rfl
    | some a => exact Iff.rfl
  | some v =>
    cases hc : conv v with
    | ok b =>
      intro r
      rw [accepts_one, hg]
      simp only [Option.some.injEq, forall_eq', hk, hc]
      simp only [Except.ok.injEq, exists_eq', true_and]
      show (do wU8 x; wU8 y; wU8 z; pLeaf w conv (.any v)) = _ ↔ _
      simp only [pLeaf, hc]
      exact Iff.rfl
    | error e =>
      intro r
      rw [accepts_one, hg]
      simp only [Option.some.injEq, forall_eq', hk, hc]
      constructor
      · intro h
        change (do wU8 x; wU8 y; wU8 z; pLeaf w conv (.any v)) = _ at h
        simp only [pLeaf, hc] at h
        obtain ⟨_, _, _, _, h, _⟩ := Wr.bind_eq_ok (b := r.1) (out := r.2) h
        obtain ⟨_, _, _, _, h, _⟩ := Wr.bind_eq_ok h
        obtain ⟨_, _, _, _, h, _⟩ := Wr.bind_eq_ok h
        cases h
      · rintro ⟨⟨_, h⟩, _⟩; cases h

theorem at_ {w w0 : Wr α} {l : List (Slot × Kind)} (list : String) (i : Nat) (h : Conv (g.at list i) l w w0) :
    Conv g (l.map fun s => (((list, i) :: s.1.1, s.1.2), s.2)) w w0 := by
  intro r
  have e : Accepts g (l.map fun s => (((list, i) :: s.1.1, s.1.2), s.2)) ↔ Accepts (g.at list i) l := by
    constructor
    · intro h s k v hs hv
      exact h _ k v (List.mem_map.2 ⟨(s, k), hs, rfl⟩) hv
    · intro h s k v hs hv
      obtain ⟨⟨t, k'⟩, ht, he⟩ := List.mem_map.1 hs
      injection he with h1 h2
      subst h1 h2
      exact h t k' v ht hv
  rw [e]
  exact h r

theorem forWiFrom {list : String} {w : Given → α → Wr Unit} {w0 : α → Wr Unit} {conv : Given → α → α}
    {f : α → List (Slot × Kind)} (h : ∀ g a, Conv g (f a) (w g a) (w0 (conv g a))) (xs : List α) (i : Nat) :
    Conv g ((xs.zipIdx i).flatMap fun p => (f p.1).map fun s => (((list, p.2) :: s.1.1, s.1.2), s.2))
      (Avb.forWiFrom i xs fun i e => w (g.at list i) e) (forW (convFrom list conv g i xs) w0) := by
  induction xs generalizing i with
  | nil => exact plain _
  | cons x xs ih =>
    rw [List.zipIdx_cons, List.flatMap_cons]
    exact bind (at_ list i (h _ x)) fun _ => ih (i + 1)

theorem forWi {list : String} {w : Given → α → Wr Unit} {w0 : α → Wr Unit} {conv : Given → α → α}
    {f : α → List (Slot × Kind)} (h : ∀ g a, Conv g (f a) (w g a) (w0 (conv g a))) (xs : List α) :
    Conv g (inListK list xs f) (Avb.forWi xs fun i e => w (g.at list i) e) (forW (convList list conv g xs) w0) :=
  forWiFrom h xs 0

theorem congr {w w0 : Wr α} {l l' : List (Slot × Kind)} (h : Conv g l w w0) (e : l = l') : Conv g l' w w0 := e ▸ h

theorem mem {w w0 : Wr α} {l l' : List (Slot × Kind)} (h : Conv g l w w0) (e : ∀ s, s ∈ l ↔ s ∈ l') :
    Conv g l' w w0 := by
  intro r
  have : Accepts g l' ↔ Accepts g l := by
    simp only [Accepts, e]
  rw [this]
  exact h r

theorem int (bo : BO) (t : IntTy) (n : String) (a : Int) :
    Conv g [(([], n), .int)] (pInt bo t (g.val n a)) (wInt bo t (g.into n Py.asInt a)) := leaf Py.asInt_takes n a

theorem bool (n : String) (a : Bool) :
    Conv g [(([], n), .bool)] (pBool (g.val n a)) (wBool (g.into n Py.asBool a)) := leaf Py.asBool_takes n a

theorem text (bo : BO) (e : Enc) (n : String) (a : Text) :
    Conv g [(([], n), .text)] (pStr bo e (g.val n a)) (wStr bo e (g.into n Py.asText a)) := leaf Py.asText_takes n a

theorem name (c : WCtx) (n : String) (a : Option Text) :
    Conv g [(([], n), .name)] (pName c (g.val n a)) (wName c (g.into n Py.asName a)) := leaf Py.asName_takes n a

theorem ref (c : WCtx) (n : String) (a : Ref) :
    Conv g [(([], n), .ref)] (pRef c (g.val n a)) (wRef c (g.into n Py.asRef a)) := leaf Py.asRef_takes n a

theorem rate (bo : BO) (n : String) (a : Rate) :
    Conv g [(([], n), .rate)] (pRate bo (g.val n a)) (wRate bo (g.into n Py.asRate a)) := leaf Py.asRate_takes n a

theorem rect (bo : BO) (n : String) (a : Rect) :
    Conv g [(([], n), .rect)] (pRect bo (g.val n a)) (wRect bo (g.into n Py.asRect a)) := leaf Py.asRect_takes n a

theorem rgb (bo : BO) (n : String) (a : RGB) :
    Conv g [(([], n), .rgb)] (pRgb bo (g.val n a)) (wRgb bo (g.into n Py.asRgb a)) := leaf Py.asRgb_takes n a

theorem optInt (bo : BO) (t : IntTy) (n : String) (a : Option Int) (x y z : Int) : Conv g [(([], n), .int)]
    (Wr.ifHas (g.opt n a) fun v => do wU8 x; wU8 y; wU8 z; pInt bo t v)
    (Wr.ifHas (g.intoOpt n Py.asInt a) fun v => do wU8 x; wU8 y; wU8 z; wInt bo t v) := opt Py.asInt_takes n a x y z

theorem optBool (n : String) (a : Option Bool) (x y z : Int) : Conv g [(([], n), .bool)]
    (Wr.ifHas (g.opt n a) fun v => do wU8 x; wU8 y; wU8 z; pBool v)
    (Wr.ifHas (g.intoOpt n Py.asBool a) fun v => do wU8 x; wU8 y; wU8 z; wBool v) := opt Py.asBool_takes n a x y z

theorem optText (bo : BO) (e : Enc) (n : String) (a : Option Text) (x y z : Int) : Conv g [(([], n), .text)]
    (Wr.ifHas (g.opt n a) fun v => do wU8 x; wU8 y; wU8 z; pStr bo e v)
    (Wr.ifHas (g.intoOpt n Py.asText a) fun v => do wU8 x; wU8 y; wU8 z; wStr bo e v) :=
  opt Py.asText_takes n a x y z

theorem optRef (c : WCtx) (n : String) (a : Option Ref) (x y z : Int) : Conv g [(([], n), .ref)]
    (Wr.ifHas (g.opt n a) fun v => do wU8 x; wU8 y; wU8 z; pRef c v)
    (Wr.ifHas (g.intoOpt n Py.asRef a) fun v => do wU8 x; wU8 y; wU8 z; wRef c v) := opt Py.asRef_takes n a x y z

end Conv

theorem convFrom_length {α : Type} (list : String) (f : Given → α → α) (g : Given) (xs : List α) (i : Nat) :
    (convFrom list f g i xs).length = xs.length := by
  induction xs generalizing i with
  | nil => rfl
  | cons x xs ih => simp [convFrom, ih]

theorem convList_length {α : Type} (list : String) (f : Given → α → α) (g : Given) (xs : List α) :
    (convList list f g xs).length = xs.length := convFrom_length list f g xs 0

theorem convFrom_getElem? {α : Type} (list : String) (f : Given → α → α) (g : Given) (xs : List α) (i j : Nat) :
    (convFrom list f g i xs)[j]? = xs[j]?.map (f (g.at list (i + j))) := by
  induction xs generalizing i j with
  | nil => simp [convFrom]
  | cons x xs ih =>
    cases j with
    | zero => simp [convFrom]
    | succ j =>
      simp only [convFrom, List.getElem?_cons_succ, ih]
      rw [show i + 1 + j = i + (j + 1) from by omega]

/-- One statement of a writer, then the rest. -/
macro "conv_step" : tactic => `(tactic| first
  | with_reducible exact Conv.plain _
  | with_reducible exact Conv.int _ _ _ _
  | with_reducible exact Conv.bool _ _
  | with_reducible exact Conv.text _ _ _ _
  | with_reducible exact Conv.name _ _ _
  | with_reducible exact Conv.ref _ _ _
  | with_reducible exact Conv.rate _ _ _
  | with_reducible exact Conv.rect _ _ _
  | with_reducible exact Conv.rgb _ _ _
  | with_reducible exact Conv.optInt _ _ _ _ _ _ _
  | with_reducible exact Conv.optBool _ _ _ _ _
  | with_reducible exact Conv.optText _ _ _ _ _ _ _
  | with_reducible exact Conv.optRef _ _ _ _ _ _
  | with_reducible assumption
  | with_reducible apply Conv.bind
  | with_reducible intro _
  | assumption
  | exact Conv.plain _
  | apply Conv.bind)

/-- All statements of a writer; the properties are put together. -/
macro "conv_all" : tactic => `(tactic| (
  apply Conv.congr
  case h => repeat' conv_step
  case e => simp only [ownK, List.map, List.nil_append, List.cons_append, List.append_assoc, List.append_nil,
    BinItem.kinds, SiftItem.kinds, PCPProp.kinds, PCP.kinds, CPProp.kinds, CP.kinds, EffectParam.kinds,
    ASPIPluginChunk.kinds, ASPIPlugin.kinds, EqualizerBand.kinds]))

end Avb

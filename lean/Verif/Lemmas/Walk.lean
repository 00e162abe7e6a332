import Mathlib.Logic.Relation
import Verif.Model.File

/-
Walking the object graph: order of the objects met, termination on acyclic graphs, failure on cycles.
-/

namespace Avb

open Relation

/-- Object `a` holds a reference to object `b`. -/
def Edge (h : Heap) (a b : Ref) : Prop :=
  ∃ e, h a = .ok e ∧ a ≠ 0 ∧ b ≠ 0 ∧ ∃ v ∈ e.visits, v.ref = b

/-- Object `b` can be reached from object `a`. -/
def Reach (h : Heap) (a b : Ref) : Prop := b ≠ 0 ∧ ReflTransGen (Edge h) a b

/-- The references walked are those the class defines (in any order). -/
def HeapOK (h : Heap) : Prop := ∀ r e, h r = .ok e → ∀ v, v ∈ e.visits ↔ v ∈ e.obj.visits

/-- Every object of the list comes after the objects it references (`seen` came before the list). -/
def PO (h : Heap) : List Ref → List Ref → Prop
  | _, [] => True
  | seen, r :: rs =>
    (∃ e, h r = .ok e ∧ ∀ v ∈ e.visits, v.ref ≠ 0 → v.ref ∈ seen) ∧ PO h (r :: seen) rs

theorem PO.mono {h : Heap} {s s' l : List Ref} (hs : ∀ x ∈ s, x ∈ s') (hp : PO h s l) : PO h s' l := by
  induction l generalizing s s' with
  | nil => trivial
  | cons r rs ih =>
    obtain ⟨⟨e, he, hv⟩, h2⟩ := hp
    refine ⟨⟨e, he, fun v hv1 hv2 => hs _ (hv v hv1 hv2)⟩, ih ?_ h2⟩
    intro x hx
    rcases List.mem_cons.1 hx with rfl | hx
    · exact List.mem_cons_self
    · exact List.mem_cons_of_mem _ (hs x hx)

theorem PO.append {h : Heap} {s l l' : List Ref} (h1 : PO h s l)
    (h2 : PO h (l ++ s) l') : PO h s (l ++ l') := by
  induction l generalizing s with
  | nil => exact h2
  | cons r rs ih =>
    refine ⟨h1.1, ih h1.2 (h2.mono ?_)⟩
    intro x hx
    simp only [List.mem_append, List.mem_cons] at hx ⊢
    rcases hx with (h | h) | h
    · exact .inr (.inl h)
    · exact .inl h
    · exact .inr (.inr h)

theorem Walk.andThen_ok {a b : Walk} (h : (a.andThen b).err = none) :
    a.err = none ∧ b.err = none ∧ (a.andThen b).out = a.out ++ b.out := by
  unfold Walk.andThen at h ⊢
  cases ha : a.err with
  | some e => rw [ha] at h; cases h
  | none => rw [ha] at h; exact ⟨rfl, h, rfl⟩

theorem Walk.andThen_none {a b : Walk} (ha : a.err = none) :
    a.andThen b = ⟨a.out ++ b.out, b.err⟩ := by
  unfold Walk.andThen; rw [ha]

/-- Order facts of a generator, with or without exception: what it yields comes after what it
references, and everything yielded satisfies `P`. -/
def Walk.Good (h : Heap) (P : Ref → Prop) (seen : List Ref) (w : Walk) : Prop :=
  PO h seen w.out ∧ ∀ x ∈ w.out, P x

theorem Walk.Good.nil {h P seen} : Walk.Good h P seen Walk.nil := ⟨trivial, by simp [Walk.nil]⟩

theorem Walk.Good.error {h P seen e} : Walk.Good h P seen ⟨[], some e⟩ := ⟨trivial, by simp⟩

theorem Walk.Good.andThen {h P seen} {a b : Walk} (ha : a.Good h P seen)
    (hb : a.err = none → b.Good h P (a.out ++ seen)) : (a.andThen b).Good h P seen := by
  unfold Walk.andThen
  cases he : a.err with
  | some e => exact ha
  | none =>
    have hb := hb he
    refine ⟨ha.1.append hb.1, ?_⟩
    intro x hx
    rcases List.mem_append.1 hx with hx | hx
    · exact ha.2 x hx
    · exact hb.2 x hx

theorem walkItems_good {h P seen} {f : Ref → Walk} {rs : List Ref}
    (hf : ∀ r ∈ rs, ∀ seen, (f r).Good h P seen) : (walkItems f rs).Good h P seen := by
  induction rs generalizing seen with
  | nil => exact .nil
  | cons r rs ih =>
    exact .andThen (hf r List.mem_cons_self seen)
      fun _ => ih fun r hr => hf r (List.mem_cons_of_mem _ hr)

/-- Items of a list object are references of that object. -/
theorem listItems_visits {o : Obj} {r : Ref} (h : r ∈ o.listItems) : Visit.prop r ∈ o.visits := by
  cases o <;> first | (simp [Obj.listItems] at h; done) | skip
  all_goals
    simp only [Obj.listItems] at h
    simp only [Obj.visits, ParameterList.visits, TimeCrumbList.visits]
    exact List.mem_map.2 ⟨r, h, rfl⟩

theorem walkVisits_good {h P seen} {f : Ref → Walk} {vs : List Visit}
    (hf : ∀ v ∈ vs, ∀ seen, (f v.ref).Good h P seen)
    (hi : ∀ v ∈ vs, ∀ e, v.ref ≠ 0 → h v.ref = .ok e → ∀ r ∈ e.obj.listItems, ∀ seen, (f r).Good h P seen) :
    (walkVisits h f vs).Good h P seen := by
  induction vs generalizing seen with
  | nil => exact .nil
  | cons v vs ih =>
    have ih : ∀ seen, (walkVisits h f vs).Good h P seen := fun seen =>
      ih (fun v hv => hf v (List.mem_cons_of_mem _ hv)) (fun v hv => hi v (List.mem_cons_of_mem _ hv))
    have hf0 := hf v List.mem_cons_self
    have hi0 := hi v List.mem_cons_self
    cases v with
    | item r => exact .andThen (hf0 seen) fun _ => ih _
    | prop r =>
      simp only [walkVisits]
      by_cases hr : r = 0
      · rw [if_pos hr]; exact ih _
      rw [if_neg hr]
      cases he : h r with
      | error e => exact .error
      | ok e =>
        exact .andThen (walkItems_good fun r' hr' => hi0 e hr he r' hr')
          fun _ => .andThen (hf0 _) fun _ => ih _

theorem walkVisits_mem {h : Heap} {f : Ref → Walk} {vs : List Visit}
    (hok : (walkVisits h f vs).err = none) :
    ∀ v ∈ vs, v.ref ≠ 0 → (f v.ref).err = none ∧ ∀ x ∈ (f v.ref).out, x ∈ (walkVisits h f vs).out := by
  induction vs with
  | nil => intro v hv; cases hv
  | cons v vs ih =>
    cases v with
    | item r =>
      simp only [walkVisits] at hok ⊢
      obtain ⟨h1, h2, h3⟩ := Walk.andThen_ok hok
      rw [h3]
      intro v hv hv0
      rcases List.mem_cons.1 hv with rfl | hv
      · exact ⟨h1, fun x hx => List.mem_append_left _ hx⟩
      · obtain ⟨h4, h5⟩ := ih h2 v hv hv0
        exact ⟨h4, fun x hx => List.mem_append_right _ (h5 x hx)⟩
    | prop r =>
      simp only [walkVisits] at hok ⊢
      by_cases hr : r = 0
      · rw [if_pos hr] at hok ⊢
        intro v hv hv0
        rcases List.mem_cons.1 hv with rfl | hv
        · exact absurd hr hv0
        · exact ih hok v hv hv0
      rw [if_neg hr] at hok ⊢
      cases he : h r with
      | error e => rw [he] at hok; cases hok
      | ok e =>
        rw [he] at hok
        simp only [] at hok ⊢
        obtain ⟨h1, h2, h3⟩ := Walk.andThen_ok hok
        obtain ⟨h4, h5, h6⟩ := Walk.andThen_ok h2
        rw [h3, h6]
        intro v hv hv0
        rcases List.mem_cons.1 hv with rfl | hv
        · exact ⟨h4, fun x hx => List.mem_append_right _ (List.mem_append_left _ hx)⟩
        · obtain ⟨h7, h8⟩ := ih h5 v hv hv0
          exact ⟨h7, fun x hx => List.mem_append_right _ (List.mem_append_right _ (h8 x hx))⟩

/-- A walk that succeeds yields the object it starts from last. -/
theorem walkObj_last {h : Heap} {n : Nat} {r : Ref} (hr : r ≠ 0) (hok : (walkObj h n r).err = none) :
    ∃ m e, n = m + 1 ∧ h r = .ok e ∧ (walkVisits h (walkObj h m) e.visits).err = none ∧
      (walkObj h n r).out = (walkVisits h (walkObj h m) e.visits).out ++ [r] := by
  cases n with
  | zero => simp [walkObj] at hok
  | succ m =>
    simp only [walkObj, if_neg hr] at hok ⊢
    cases he : h r with
    | error e => rw [he] at hok; cases hok
    | ok e =>
      rw [he] at hok
      simp only [] at hok ⊢
      obtain ⟨h1, _, h3⟩ := Walk.andThen_ok hok
      exact ⟨m, e, rfl, rfl, h1, h3⟩

/-- Objects met by a walk, finished or not: reachable, each after the objects it references. -/
theorem walkObj_good {h : Heap} (hh : HeapOK h) (n : Nat) (r : Ref) (seen : List Ref) :
    (walkObj h n r).Good h (fun x => Reach h r x) seen := by
  induction n generalizing r seen with
  | zero => exact .error
  | succ n ih =>
    simp only [walkObj]
    by_cases hr : r = 0
    · rw [if_pos hr]; exact .nil
    rw [if_neg hr]
    cases he : h r with
    | error e => exact .error
    | ok e =>
      have step : ∀ v ∈ e.visits, v.ref ≠ 0 → Edge h r v.ref := fun v hv h0 =>
        ⟨e, he, hr, h0, v, hv, rfl⟩
      have sub : ∀ v ∈ e.visits, ∀ seen, (walkObj h n v.ref).Good h (fun x => Reach h r x) seen := by
        intro v hv seen
        obtain ⟨g1, g2⟩ := ih v.ref seen
        refine ⟨g1, fun x hx => ?_⟩
        obtain ⟨hx0, hx1⟩ := g2 x hx
        by_cases h0 : v.ref = 0
        · cases n with
          | zero => simp [walkObj] at hx
          | succ n => simp [walkObj, h0, Walk.nil] at hx
        · exact ⟨hx0, .head (step v hv h0) hx1⟩
      refine .andThen (walkVisits_good sub ?_) ?_
      · intro v hv e' h0 he' x hx seen
        have hx' := (hh _ _ he' _).2 (listItems_visits hx)
        obtain ⟨g1, g2⟩ := ih x seen
        refine ⟨g1, fun y hy => ?_⟩
        obtain ⟨hy0, hy1⟩ := g2 y hy
        by_cases hx0 : x = 0
        · cases n with
          | zero => simp [walkObj] at hy
          | succ n => simp [walkObj, hx0, Walk.nil] at hy
        · exact ⟨hy0, .head (step v hv h0) (.head ⟨e', he', h0, hx0, _, hx', rfl⟩ hy1)⟩
      · intro hok
        refine ⟨⟨⟨e, he, fun v hv h0 => List.mem_append_left _ ?_⟩, trivial⟩, ?_⟩
        · obtain ⟨h1, h2⟩ := walkVisits_mem hok v hv h0
          obtain ⟨m, e', _, _, _, h3⟩ := walkObj_last h0 h1
          exact h2 _ (by rw [h3]; simp)
        · intro x hx
          rw [List.mem_singleton.1 hx]
          exact ⟨hr, .refl⟩

/-- A walk that succeeds yields every object reachable. -/
theorem walkObj_mem {h : Heap} {n : Nat} {r x : Ref} (hr : r ≠ 0) (hok : (walkObj h n r).err = none)
    (hx : ReflTransGen (Edge h) r x) : x ∈ (walkObj h n r).out := by
  induction hx using ReflTransGen.head_induction_on generalizing n with
  | refl =>
    obtain ⟨m, e, _, _, _, h3⟩ := walkObj_last hr hok
    rw [h3]; simp
  | head hab _ ih =>
    obtain ⟨m, e, rfl, he, h2, h3⟩ := walkObj_last hr hok
    obtain ⟨e', he', _, hb, v, hv, rfl⟩ := hab
    rw [he] at he'; cases he'
    obtain ⟨h4, h5⟩ := walkVisits_mem h2 v hv hb
    rw [h3]
    exact List.mem_append_left _ (h5 _ (ih hb h4))

theorem walkObj_edge {h : Heap} {n : Nat} {a b : Ref} (hok : (walkObj h n a).err = none)
    (hab : Edge h a b) : ∃ m < n, (walkObj h m b).err = none := by
  obtain ⟨e, he, ha, hb, v, hv, rfl⟩ := hab
  obtain ⟨m, e', rfl, he', h2, _⟩ := walkObj_last ha hok
  rw [he] at he'; cases he'
  exact ⟨m, Nat.lt_succ_self m, (walkVisits_mem h2 v hv hb).1⟩

theorem walkObj_path {h : Heap} {n : Nat} {a b : Ref} (hok : (walkObj h n a).err = none)
    (hab : TransGen (Edge h) a b) : ∃ m < n, (walkObj h m b).err = none := by
  induction hab with
  | single h1 => exact walkObj_edge hok h1
  | tail _ h2 ih =>
    obtain ⟨m, hm, h3⟩ := ih
    obtain ⟨k, hk, h4⟩ := walkObj_edge h3 h2
    exact ⟨k, Nat.lt_trans hk hm, h4⟩

/-- An object on a cycle is never walked to the end. -/
theorem walkObj_self {h : Heap} {n : Nat} {a : Ref} (ha : TransGen (Edge h) a a) :
    (walkObj h n a).err ≠ none := by
  induction n using Nat.strongRecOn with
  | _ n ih =>
    intro hok
    obtain ⟨m, hm, h1⟩ := walkObj_path hok ha
    exact ih m hm h1

theorem walkObj_cycle {h : Heap} {n : Nat} {r a : Ref} (hr : ReflTransGen (Edge h) r a)
    (ha : TransGen (Edge h) a a) : (walkObj h n r).err ≠ none := by
  intro hok
  rcases Relation.reflTransGen_iff_eq_or_transGen.1 hr with rfl | hr
  · exact walkObj_self ha hok
  · obtain ⟨m, _, h1⟩ := walkObj_path hok hr
    exact walkObj_self ha h1

theorem walkItems_ok {f : Ref → Walk} {rs : List Ref} (hf : ∀ r ∈ rs, (f r).err = none) :
    (walkItems f rs).err = none := by
  induction rs with
  | nil => rfl
  | cons r rs ih =>
    simp only [walkItems]
    rw [Walk.andThen_none (hf r List.mem_cons_self)]
    exact ih fun r hr => hf r (List.mem_cons_of_mem _ hr)

theorem walkVisits_ok {h : Heap} {f : Ref → Walk} {vs : List Visit}
    (hf : ∀ v ∈ vs, (f v.ref).err = none)
    (hi : ∀ v ∈ vs, v.ref ≠ 0 → ∃ e, h v.ref = .ok e ∧ ∀ r ∈ e.obj.listItems, (f r).err = none) :
    (walkVisits h f vs).err = none := by
  induction vs with
  | nil => rfl
  | cons v vs ih =>
    have ih := ih (fun v hv => hf v (List.mem_cons_of_mem _ hv))
      (fun v hv => hi v (List.mem_cons_of_mem _ hv))
    have hf0 := hf v List.mem_cons_self
    have hi0 := hi v List.mem_cons_self
    cases v with
    | item r =>
      simp only [walkVisits]
      rw [Walk.andThen_none (a := f r) hf0]; exact ih
    | prop r =>
      simp only [walkVisits]
      by_cases hr : r = 0
      · rw [if_pos hr]; exact ih
      rw [if_neg hr]
      obtain ⟨e, he, hi0⟩ := hi0 hr
      rw [show h r = .ok e from he]
      simp only []
      rw [Walk.andThen_none (walkItems_ok hi0), Walk.andThen_none (a := f r) hf0]
      exact ih

/-- On a graph without cycles (references go down in some ranking) the walk ends without exception
once the interpreter allows enough nested calls. -/
theorem walkObj_ok {h : Heap} (hh : HeapOK h) (rank : Ref → Nat)
    (n : Nat) (r : Ref) (hrank : ∀ a b, Reach h r a → Edge h a b → rank b < rank a)
    (hl : ∀ x, Reach h r x → ∃ e, h x = .ok e) (hn : rank r + 1 < n) :
    (walkObj h n r).err = none := by
  induction n generalizing r with
  | zero => omega
  | succ n ih =>
    simp only [walkObj]
    by_cases hr : r = 0
    · rw [if_pos hr]; rfl
    rw [if_neg hr]
    obtain ⟨e, he⟩ := hl r ⟨hr, .refl⟩
    rw [he]
    simp only []
    have zero : (walkObj h n 0).err = none := by
      cases n with
      | zero => omega
      | succ n => rfl
    have step : ∀ v ∈ e.visits, v.ref ≠ 0 → Edge h r v.ref := fun v hv h0 =>
        ⟨e, he, hr, h0, v, hv, rfl⟩
    rw [Walk.andThen_none]
    refine walkVisits_ok ?_ ?_
    · intro v hv
      by_cases h0 : v.ref = 0
      · rw [h0]; exact zero
      · have := hrank _ _ ⟨hr, .refl⟩ (step v hv h0)
        exact ih _ (fun a b ha => hrank a b ⟨ha.1, .head (step v hv h0) ha.2⟩)
          (fun x hx => hl x ⟨hx.1, .head (step v hv h0) hx.2⟩) (by omega)
    · intro v hv h0
      obtain ⟨e', he'⟩ := hl v.ref ⟨h0, .single (step v hv h0)⟩
      refine ⟨e', he', fun x hx => ?_⟩
      by_cases hx0 : x = 0
      · rw [hx0]; exact zero
      · have e1 := step v hv h0
        have e2 : Edge h v.ref x := ⟨e', he', h0, hx0, _, (hh _ _ he' _).2 (listItems_visits hx), rfl⟩
        have := hrank _ _ ⟨hr, .refl⟩ e1
        have := hrank _ _ ⟨h0, .single e1⟩ e2
        exact ih _ (fun a b ha => hrank a b ⟨ha.1, .head e1 (.head e2 ha.2)⟩) (fun y hy => hl y ⟨hy.1, .head e1 (.head e2 hy.2)⟩) (by omega)

end Avb

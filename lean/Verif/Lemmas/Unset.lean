import Verif.Spec.Unset

/-! Writers with marked properties: they do what the plain writers do, or stop at a property without value. -/

namespace Avb

open Unset

/-- A writer `w` with marked properties agrees with the plain writer `w0` as long as the properties in `l` have
values; if one of them has none, it raises `AttributeError` or what `w0` raises. -/
def Needs {α : Type} (w : Unset → Wr α) (w0 : Wr α) (l : List Slot) : Prop :=
  ∀ u, (Lacks u l → w u = .error .attribute ∨ ∃ e, w0 = .error e ∧ w u = .error e) ∧
    (¬ Lacks u l → w u = w0)

namespace Needs

variable {α β : Type}

theorem lacks_append {u : Unset} {l l' : List Slot} : Lacks u (l ++ l') ↔ Lacks u l ∨ Lacks u l' := by
  simp only [Lacks, List.mem_append, or_and_right, exists_or]

theorem plain (w : Wr α) : Needs (fun _ => w) w [] :=
  fun _ => ⟨fun ⟨_, h, _⟩ => absurd h (List.not_mem_nil), fun _ => rfl⟩

theorem failing (e : Err) (l : List Slot) : Needs (fun _ => (Wr.fail e : Wr α)) (Wr.fail e) l :=
  fun _ => ⟨fun _ => .inr ⟨e, rfl, rfl⟩, fun _ => rfl⟩

theorem need {n : String} {w : Unset → Wr α} {w0 : Wr α} {l : List Slot} (h : Needs w w0 l) :
    Needs (fun u => Avb.need u n (w u)) w0 (([], n) :: l) := by
  intro u
  by_cases hn : u ([], n) = true
  · refine ⟨fun _ => .inl ?_, fun hl => absurd ⟨_, List.mem_cons_self, hn⟩ hl⟩
    simp only [Avb.need, hn, if_true]
    rfl
  · have e : Avb.need u n (w u) = w u := by simp only [Avb.need, hn]; rfl
    have hl : Lacks u (([], n) :: l) ↔ Lacks u l := by
      constructor
      · rintro ⟨s, hs, h1⟩
        rcases List.mem_cons.1 hs with rfl | hs
        · exact absurd h1 hn
        · exact ⟨s, hs, h1⟩
      · rintro ⟨s, hs, h1⟩
        exact ⟨s, List.mem_cons_of_mem _ hs, h1⟩
    simp only [e, hl]
    exact h u

theorem bind {w : Unset → Wr α} {w0 : Wr α} {k : Unset → α → Wr β} {k0 : α → Wr β} {l l' : List Slot}
    (h : Needs w w0 l) (h' : ∀ a, Needs (fun u => k u a) (k0 a) l') :
    Needs (fun u => w u >>= k u) (w0 >>= k0) (l ++ l') := by
  intro u
  have bindOk : ∀ (a : α) (bs : Bytes) (f : α → Wr β), Bind.bind (m := Wr) (.ok (a, bs)) f =
      (match f a with | .ok (b, bs') => .ok (b, bs ++ bs') | .error e => .error e) := fun _ _ _ => rfl
  have bindErr : ∀ (e : Err) (f : α → Wr β), Bind.bind (m := Wr) (.error e) f = .error e := fun _ _ => rfl
  rw [lacks_append]
  change (Lacks u l ∨ Lacks u l' → (w u >>= k u) = .error .attribute ∨
      ∃ e, (w0 >>= k0) = .error e ∧ (w u >>= k u) = .error e) ∧
    (¬ (Lacks u l ∨ Lacks u l') → (w u >>= k u) = (w0 >>= k0))
  by_cases h1 : Lacks u l
  · refine ⟨fun _ => ?_, fun hl => absurd (.inl h1) hl⟩
    rcases (h u).1 h1 with e | ⟨e, e0, e1⟩
    · left
      rw [e]
      exact bindErr _ _
    · right
      exact ⟨e, by rw [e0]; exact bindErr _ _, by rw [e1]; exact bindErr _ _⟩
  · have e := (h u).2 h1
    rw [e]
    cases w0 with
    | error er => exact ⟨fun _ => .inr ⟨er, rfl, rfl⟩, fun _ => rfl⟩
    | ok p =>
      obtain ⟨a, bs⟩ := p
      rw [bindOk, bindOk]
      have h2 : (Lacks u l' → k u a = .error .attribute ∨ ∃ e, k0 a = .error e ∧ k u a = .error e) ∧
          (¬ Lacks u l' → k u a = k0 a) := h' a u
      refine ⟨fun hl => ?_, fun hl => ?_⟩
      · rcases h2.1 (hl.resolve_left h1) with e | ⟨e, e0, e1⟩
        · left; rw [e]
        · right; exact ⟨e, by rw [e0], by rw [e1]⟩
      · rw [h2.2 fun h => hl (.inr h)]

theorem ite {c : Prop} [Decidable c] {w v : Unset → Wr α} {w0 v0 : Wr α} {l : List Slot} (h : Needs w w0 l)
    (h' : Needs v v0 l) : Needs (fun u => if c then w u else v u) (if c then w0 else v0) l := by
  by_cases hc : c
  · simpa only [hc, if_true] using h
  · simpa only [hc, if_false] using h'

theorem at_ {w : Unset → Wr α} {w0 : Wr α} {l : List Slot} (list : String) (i : Nat) (h : Needs w w0 l) :
    Needs (fun u => w (u.at list i)) w0 (l.map fun s => ((list, i) :: s.1, s.2)) := by
  intro u
  have e : Lacks u (l.map fun s => ((list, i) :: s.1, s.2)) ↔ Lacks (u.at list i) l := by
    constructor
    · rintro ⟨s, hs, h1⟩
      obtain ⟨t, ht, rfl⟩ := List.mem_map.1 hs
      exact ⟨t, ht, h1⟩
    · rintro ⟨s, hs, h1⟩
      exact ⟨_, List.mem_map_of_mem hs, h1⟩
  rw [e]
  exact h _

theorem forWiFrom {list : String} {w : Unset → α → Wr Unit} {w0 : α → Wr Unit} {f : α → List Slot}
    (h : ∀ a, Needs (fun u => w u a) (w0 a) (f a)) (xs : List α) (i : Nat) :
    Needs (fun u => Avb.forWiFrom i xs fun i e => w (u.at list i) e) (forW xs w0)
      ((xs.zipIdx i).flatMap fun p => (f p.1).map fun s => ((list, p.2) :: s.1, s.2)) := by
  induction xs generalizing i with
  | nil => exact plain _
  | cons x xs ih =>
    rw [List.zipIdx_cons, List.flatMap_cons]
    exact bind (at_ list i (h x)) fun _ => ih (i + 1)

theorem forWi {list : String} {w : Unset → α → Wr Unit} {w0 : α → Wr Unit} {f : α → List Slot}
    (h : ∀ a, Needs (fun u => w u a) (w0 a) (f a)) (xs : List α) :
    Needs (fun u => Avb.forWi xs fun i e => w (u.at list i) e) (forW xs w0) (inList list xs f) :=
  forWiFrom h xs 0

theorem congr {w : Unset → Wr α} {w0 : Wr α} {l l' : List Slot} (h : Needs w w0 l) (e : l = l') : Needs w w0 l' :=
  e ▸ h

end Needs

/-- One statement of a writer, then the rest. -/
macro "needs_step" : tactic => `(tactic| first
  | exact Needs.plain _
  | assumption
  | apply Needs.need
  | apply Needs.bind
  | intro _)

/-- All statements of a writer; what they need is put together. -/
macro "needs_all" : tactic => `(tactic| (
  apply Needs.congr
  case h => repeat' needs_step
  case e => simp only [own, List.map, List.nil_append, List.cons_append, List.append_assoc, List.append_nil,
    binItemNames, siftNames, pointNames, pointPropNames, controlNames, controlPropNames, effectParamNames, pluginNames,
    chunkNames, bandNames]))

end Avb

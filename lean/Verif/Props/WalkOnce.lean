import Verif.Props.WalkEdit

/-!
C84, in terms of what the walk gives: an object that would not be yielded any more may be changed in any way.
-/
namespace Avb.WalkEdit

/-- The loop is over this object. -/
def Over (r : Nat) : Frame → Prop
  | .enter s => s = r
  | .dict s _ _ _ => s = r
  | .list _ _ o => o = some r

/-- What a step does that raises nothing: the loops below stay; the innermost loop gives its object or goes on. -/
theorem step_over {h : Heap} {f : Frame} {fs : List Frame} (hn : (step h (f :: fs)).2 ≠ .raised)
    (hu : (step h (f :: fs)).2 ≠ .unknown) :
    (∃ pre, (step h (f :: fs)).1 = pre ++ fs) ∧ ∀ r, Over r f →
      (step h (f :: fs)).2 = finish h r ∨
        ((step h (f :: fs)).2 = .silent ∧ ∃ g ∈ (step h (f :: fs)).1, Over r g) := by
  cases f with
  | enter s =>
    simp only [step]
    cases (h.node s).body with
    | dict o t ps => exact ⟨⟨[_], rfl⟩, fun r e => .inr ⟨rfl, _, List.mem_cons_self, e⟩⟩
    | list l => exact ⟨⟨[_], rfl⟩, fun r e => .inr ⟨rfl, _, List.mem_cons_self, congrArg some e⟩⟩
  | dict s k n t =>
    simp only [step] at hn hu ⊢
    cases hb : (h.node s).body with
    | list l => rw [hb] at hn; exact (hn rfl).elim
    | dict o u ps =>
      rw [hb] at hn hu
      dsimp only at hn hu ⊢
      by_cases e1 : o = true ∧ n ≤ k
      · rw [if_pos e1]
        exact ⟨⟨[], rfl⟩, fun r e => .inl (by cases e; rfl)⟩
      rw [if_neg e1] at hn hu ⊢
      by_cases e2 : o = true ∧ u ≠ t
      · rw [if_pos e2] at hn; exact (hn rfl).elim
      rw [if_neg e2] at hn hu ⊢
      by_cases e3 : ¬ o = true ∧ ps.length ≠ n
      · rw [if_pos e3] at hn; exact (hn rfl).elim
      rw [if_neg e3] at hn hu ⊢
      by_cases e4 : ¬ o = true ∧ u ≠ t
      · rw [if_pos e4] at hu; exact (hu rfl).elim
      rw [if_neg e4]
      cases ps[k]? with
      | none => exact ⟨⟨[], rfl⟩, fun r e => .inl (by cases e; rfl)⟩
      | some p =>
        exact ⟨⟨push h p.2 ++ [.dict s (k + 1) n t], by simp⟩, fun r e => .inr ⟨rfl, .dict s (k + 1) n t, by simp, e⟩⟩
  | list l k o =>
    simp only [step]
    cases (h.list l)[k]? with
    | none => exact ⟨⟨[], rfl⟩, fun r e => .inl (by cases e; rfl)⟩
    | some s =>
      cases o with
      | none => exact ⟨⟨[.enter s, .list l (k + 1) none], rfl⟩, nofun⟩
      | some q =>
        exact ⟨⟨push h (.obj s) ++ [.list l (k + 1) (some q)], by simp⟩,
          fun r e => .inr ⟨rfl, .list l (k + 1) (some q), by simp, e⟩⟩

/-- A walk that ends gives every object with a class id that it is in. -/
theorem over_mem {h : Heap} {r : Nat} (hy : (h.node r).yields = true) (m : Nat) {fs : List Frame} {out : List Nat}
    (hs : steps h m fs = (out, [], .fine)) (hf : ∃ f ∈ fs, Over r f) : r ∈ out := by
  induction m generalizing fs out with
  | zero =>
    cases hs
    obtain ⟨f, hf, _⟩ := hf
    cases hf
  | succ m ih =>
    cases fs with
    | nil =>
      obtain ⟨f, hf, _⟩ := hf
      cases hf
    | cons f fs =>
      rw [steps] at hs
      have hst := step_over (h := h) (f := f) (fs := fs)
      rcases hq : step h (f :: fs) with ⟨ks, o⟩
      rw [hq] at hs hst
      have key : o ≠ .raised → o ≠ .unknown → o = .yielded r ∨ ∃ g ∈ ks, Over r g := by
        intro h1 h2
        obtain ⟨⟨pre, hp⟩, h4⟩ := hst h1 h2
        obtain ⟨g, hg, hr⟩ := hf
        rcases List.mem_cons.1 hg with rfl | hg
        · rcases h4 r hr with h5 | h5
          · left; simpa [finish, hy] using h5
          · exact .inr h5.2
        · exact .inr ⟨g, by dsimp only at hp; rw [hp]; exact List.mem_append_right _ hg, hr⟩
      cases o with
      | raised => cases hs
      | unknown => cases hs
      | silent =>
        rcases key nofun nofun with h1 | h1
        · cases h1
        · exact ih hs h1
      | yielded s =>
        simp only [Prod.mk.injEq] at hs
        obtain ⟨rfl, hs⟩ := hs
        rcases key nofun nofun with h1 | h1
        · cases h1; exact List.mem_cons_self
        · exact List.mem_cons_of_mem _ (ih (Prod.ext rfl hs) h1)

theorem push_eq {h h' : Heap} {v : Val} (hv : ∀ s, v = .obj s → h'.node s = h.node s) : push h' v = push h v := by
  cases v with
  | plain x => rfl
  | items l => rfl
  | obj s => simp only [push, hv s rfl]

/-- A step that is given the same objects is the same. -/
theorem step_eq {h h' : Heap} {f : Frame} {fs : List Frame} (hl : h'.list = h.list)
    (ho : ∀ r, Over r f → h'.node r = h.node r)
    (hp : ∀ s, (∃ g ∈ (step h (f :: fs)).1, Over s g) ∨ (h.node s).yields = false → h'.node s = h.node s) :
    step h' (f :: fs) = step h (f :: fs) := by
  have push_here : ∀ {v : Val}, (∀ g ∈ push h v, g ∈ (step h (f :: fs)).1) → push h' v = push h v := by
    intro v hv
    refine push_eq fun s e => hp s ?_
    subst e
    cases hy : (h.node s).yields with
    | false => exact .inr rfl
    | true =>
      refine .inl ⟨.enter s, hv _ ?_, rfl⟩
      simp only [push, hy, if_true]
      exact List.mem_append_right _ List.mem_cons_self
  cases f with
  | enter s => simp only [step, ho s rfl]
  | dict s k n t =>
    have e := ho s rfl
    simp only [step, e, finish]
    cases hb : (h.node s).body with
    | list l => rfl
    | dict o u ps =>
      dsimp only
      split
      · rfl
      rename_i e1
      split
      · rfl
      rename_i e2
      split
      · rfl
      rename_i e3
      split
      · rfl
      rename_i e4
      cases hk : ps[k]? with
      | none => rfl
      | some p =>
        dsimp only
        rw [push_here]
        intro g hg
        simp only [step, hb, if_neg e1, if_neg e2, if_neg e3, if_neg e4, hk]
        exact List.mem_append_left _ hg
  | list l k o =>
    simp only [step, hl]
    cases hk : (h.list l)[k]? with
    | none =>
      cases o with
      | none => rfl
      | some r => simp only [finish, ho r rfl]
    | some s =>
      cases o with
      | none => rfl
      | some r =>
        dsimp only
        rw [push_here]
        intro g hg
        simp only [step, hk]
        exact List.mem_append_left _ hg

/-- C84: at any moment of a walk that, with nothing changed, would come to its end, the objects with a class id that it
would not yield any more may be changed in any way, all of them together: they may be given other properties, lose them,
refer to whatever, become another kind of object; every further step is as if nothing had been changed. -/
theorem C84_once {h h' : Heap} {m : Nat} {fs : List Frame} {out : List Nat} (hs : steps h m fs = (out, [], .fine))
    (hl : h'.list = h.list) (hn : ∀ s, s ∈ out ∨ (h.node s).yields = false → h'.node s = h.node s) (n : Nat) :
    steps h' n fs = steps h n fs := by
  induction n generalizing m fs out with
  | zero => rfl
  | succ n ih =>
    cases fs with
    | nil => rw [steps_nil, steps_nil]
    | cons f fs =>
      have hin : ∀ s, (∃ g ∈ f :: fs, Over s g) → h'.node s = h.node s := by
        intro s hg
        cases hy : (h.node s).yields with
        | false => exact hn s (.inr hy)
        | true => exact hn s (.inl (over_mem hy m hs hg))
      cases m with
      | zero => cases hs
      | succ m =>
        rw [steps] at hs
        rcases hq : step h (f :: fs) with ⟨ks, o⟩
        rw [hq] at hs
        have rest : ∃ out', steps h m ks = (out', [], .fine) ∧ ∀ s ∈ out', s ∈ out := by
          cases o with
          | raised => cases hs
          | unknown => cases hs
          | silent => exact ⟨out, hs, fun _ hm => hm⟩
          | yielded s =>
            simp only [Prod.mk.injEq] at hs
            obtain ⟨rfl, hs⟩ := hs
            exact ⟨_, Prod.ext rfl hs, fun _ hm => List.mem_cons_of_mem _ hm⟩
        obtain ⟨out', hr, hsub⟩ := rest
        have he : step h' (f :: fs) = step h (f :: fs) := by
          refine step_eq hl (fun r hr => hin r ⟨f, List.mem_cons_self, hr⟩) fun s hg => ?_
          rcases hg with hg | hy
          · rw [hq] at hg
            cases hy : (h.node s).yields with
            | false => exact hn s (.inr hy)
            | true => exact hn s (.inl (hsub s (over_mem hy m hr hg)))
          · exact hn s (.inr hy)
        have hi := ih hr (fun s hg => hn s (hg.imp_left (hsub s)))
        rw [steps, steps, he, hq]
        cases o with
        | raised => rfl
        | unknown => rfl
        | silent => exact hi
        | yielded s => dsimp only; rw [hi]

/-- The loops of the sample when the filler (4) and both times the item of the list object (7) were yielded. -/
def after7 : List Frame := [.list 2 1 (some 6), .dict 3 1 1 0, .list 1 2 none, .dict 1 2 3 0]

example : steps sample 20 [.enter 1] = ([4, 7, 7], after7, .fine) := rfl

example : steps sample 20 after7 = ([6, 5, 1], [], .fine) := rfl

/-- C84_once: the filler and the item are both changed, the item into an object that refers to the composition. -/
example (n : Nat) : steps ((sample.put 4 ⟨false, .list 1⟩).put 7 ⟨true, .dict false 3 [("up", .obj 1)]⟩) n after7 =
    steps sample n after7 := by
  have e : steps sample 20 after7 = ([6, 5, 1], [], .fine) := rfl
  refine C84_once e (by rfl) (fun s hs => ?_) n
  have h4 : s ≠ 4 := by
    rintro rfl
    rcases hs with hs | hs <;> revert hs <;> decide
  have h7 : s ≠ 7 := by
    rintro rfl
    rcases hs with hs | hs <;> revert hs <;> decide
  simp only [Heap.put, if_neg h4, if_neg h7]

end Avb.WalkEdit

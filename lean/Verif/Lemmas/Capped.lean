import Verif.Lemmas.Mono

/-
The number of objects of a file matters to readers only in that references beyond it are refused.
-/

namespace Avb

/-- The first reader does what the second one does, or raises `ValueError`. -/
def Capped {α : Type} (r r' : Rd α) : Prop := ∀ bs, r bs = r' bs ∨ r bs = .error .value

variable {α β σ : Type}

theorem Capped.refl {r : Rd α} : Capped r r := fun _ => .inl rfl

theorem Capped.bind {r r' : Rd α} {k k' : α → Rd β} (h1 : Capped r r') (h2 : ∀ a, Capped (k a) (k' a)) :
    Capped (r >>= k) (r' >>= k') := by
  intro bs
  rw [Rd.bind_apply, Rd.bind_apply]
  rcases h1 bs with h | h
  · rw [h]
    cases r' bs with
    | error e => exact .inl rfl
    | ok p => exact h2 p.1 p.2
  · rw [h]; exact .inr rfl

theorem Capped.ite {c : Prop} [Decidable c] {r1 r2 r1' r2' : Rd α} (h1 : Capped r1 r1') (h2 : Capped r2 r2') :
    Capped (if c then r1 else r2) (if c then r1' else r2') := by
  split
  · exact h1
  · exact h2

theorem Capped.readN {r r' : Rd α} (n : Nat) (h : Capped r r') : Capped (readN n r) (readN n r') := by
  induction n with
  | zero => exact Capped.refl
  | succ n ih => exact Capped.bind h fun _ => Capped.bind ih fun _ => Capped.refl

theorem Capped.opt {c : Bool} {r r' : Rd α} (h : Capped r r') : Capped (Rd.opt c r) (Rd.opt c r') := by
  unfold Rd.opt
  split
  · exact Capped.bind h fun _ => Capped.refl
  · exact Capped.refl

theorem Capped.iterExt {body body' : Int → σ → Rd σ} (h : ∀ tag s, Capped (body tag s) (body' tag s)) (s : σ) :
    Capped (iterExt body s) (iterExt body' s) := by
  intro bs
  induction hn : bs.length using Nat.strongRecOn generalizing bs s with
  | _ n ih =>
  unfold Avb.iterExt
  match bs, hn with
  | [], _ => exact .inl rfl
  | b :: bs1, hn =>
    dsimp only
    by_cases hb : b ≠ 1
    · rw [if_pos hb, if_pos hb]; exact .inl rfl
    · rw [if_neg hb, if_neg hb]
      match bs1, hn with
      | [], _ => exact .inl rfl
      | tag :: bs2, hn =>
        dsimp only
        rcases h tag.toNat s bs2 with he | he
        · rw [he]
          cases hbody : body' tag.toNat s bs2 with
          | error e => exact .inl rfl
          | ok p =>
            dsimp only
            by_cases hl : p.2.length ≤ bs2.length
            · rw [if_pos hl, if_pos hl]
              exact ih p.2.length (by simp at hn; omega) p.1 p.2 rfl
            · rw [if_neg hl, if_neg hl]; exact .inl rfl
        · rw [he]; exact .inr rfl

/-- One number of objects is not above the other. -/
class Fewer (m n : Nat) : Prop where
  out : m ≤ n

theorem Capped.ref {bo : BO} {m n : Nat} [h : Fewer m n] : Capped (rRef ⟨bo, m⟩) (rRef ⟨bo, n⟩) := by
  unfold rRef
  refine Capped.bind Capped.refl fun i => ?_
  intro bs
  rw [Rd.bind_apply, Rd.bind_apply]
  unfold Rd.guard
  dsimp only
  by_cases hm : i.toNat < m
  · rw [if_pos hm, if_pos (Nat.lt_of_lt_of_le hm h.out)]; exact .inl rfl
  · rw [if_neg hm]; exact .inr rfl

/-- Readers already treated, found by instance search. -/
class IsCapped {α : Type} (r r' : Rd α) : Prop where
  h : Capped r r'

/-- Walk through a reader. -/
macro "capped" : tactic => `(tactic| ((try dsimp only); repeat' with_reducible first
  | exact Capped.refl
  | exact Capped.ref
  | exact IsCapped.h
  | refine Capped.bind ?_ fun _ => ?_
  | refine Capped.readN _ ?_
  | refine Capped.opt ?_
  | refine Capped.iterExt (fun _ _ => ?_) _
  | refine Capped.ite ?_ ?_
  | split))

end Avb

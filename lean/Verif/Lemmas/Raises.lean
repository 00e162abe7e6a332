import Verif.Lemmas.MonoAll

/-
Which exceptions a reader raises.
-/

namespace Avb

/-- Exceptions raised by readers of field values; `x` says whether a bare `Exception` is among them. -/
def Err.OfData (x : Bool) (e : Err) : Prop :=
  e = .struct ∨ e = .assertion ∨ e = .value ∨ e = .unicode ∨ e = .overflow ∨ (x = true ∧ e = .exception)

/-- The reader raises no other exceptions than those in `E`. -/
def RaisesIn {α : Type} (E : Err → Prop) (r : Rd α) : Prop := ∀ bs e, r bs = .error e → E e

/-- The reader raises no other exceptions than those of data. -/
abbrev Raises {α : Type} (x : Bool) (r : Rd α) : Prop := RaisesIn (Err.OfData x) r

variable {α β σ : Type} {x : Bool} {E : Err → Prop}

theorem RaisesIn.pure {v : α} : RaisesIn E (pure v : Rd α) := by
  intro bs e h; cases h

theorem RaisesIn.fail {e : Err} (h : E e) : RaisesIn E (Rd.fail e : Rd α) := by
  intro bs e' he; cases he; exact h

theorem RaisesIn.guard {c : Prop} [Decidable c] {e : Err} (h : E e) : RaisesIn E (Rd.guard c e) := by
  intro bs e' he
  unfold Rd.guard at he
  split at he
  · cases he
  · cases he; exact h

theorem RaisesIn.bind {r : Rd α} {k : α → Rd β} (h1 : RaisesIn E r) (h2 : ∀ a, RaisesIn E (k a)) :
    RaisesIn E (r >>= k) := by
  intro bs e h
  rw [Rd.bind_apply] at h
  match hr : r bs with
  | .ok (a, mid) => rw [hr] at h; exact h2 a mid e h
  | .error e' => rw [hr] at h; cases h; exact h1 bs _ hr

theorem RaisesIn.int {bo : BO} {t : IntTy} (h0 : E .struct) : RaisesIn E (rInt bo t) := by
  intro bs e h
  unfold rInt at h
  split at h
  · cases h; exact h0
  · cases h

theorem RaisesIn.fread {n : Int} : RaisesIn E (fread n) := by
  intro bs e h
  unfold Avb.fread at h
  split at h <;> cases h

theorem RaisesIn.tag {t : Int} (h0 : E .struct) (h1 : E .assertion) : RaisesIn E (rTag t) :=
  RaisesIn.bind (RaisesIn.int h0) fun _ => RaisesIn.guard h1

theorem RaisesIn.readN {r : Rd α} (n : Nat) (h : RaisesIn E r) : RaisesIn E (readN n r) := by
  induction n with
  | zero => exact RaisesIn.pure
  | succ n ih => exact RaisesIn.bind h fun _ => RaisesIn.bind ih fun _ => RaisesIn.pure

theorem RaisesIn.opt {c : Bool} {r : Rd α} (h : RaisesIn E r) : RaisesIn E (Rd.opt c r) := by
  unfold Rd.opt
  split
  · exact RaisesIn.bind h fun _ => RaisesIn.pure
  · exact RaisesIn.pure

theorem RaisesIn.ofOption {o : Option α} {e : Err} (h : E e) : RaisesIn E (Rd.ofOption o e) := by
  cases o
  · exact RaisesIn.fail h
  · exact RaisesIn.pure

theorem RaisesIn.ite {c : Prop} [Decidable c] {r1 r2 : Rd α} (h1 : RaisesIn E r1) (h2 : RaisesIn E r2) :
    RaisesIn E (if c then r1 else r2) := by
  split
  · exact h1
  · exact h2

theorem RaisesIn.iterExt {body : Int → σ → Rd σ} (h0 : E .struct) (hm : ∀ tag s, Mono (body tag s))
    (h : ∀ tag s, RaisesIn E (body tag s)) (s : σ) : RaisesIn E (iterExt body s) := by
  intro bs
  induction hn : bs.length using Nat.strongRecOn generalizing bs s with
  | _ n ih =>
  intro e hr
  unfold Avb.iterExt at hr
  match bs, hn, hr with
  | [], _, hr => cases hr; exact h0
  | b :: bs1, hn, hr =>
    dsimp only at hr
    by_cases hb : b ≠ 1
    · rw [if_pos hb] at hr; cases hr
    · rw [if_neg hb] at hr
      match bs1, hn, hr with
      | [], _, hr => cases hr; exact h0
      | tag :: bs2, hn, hr =>
        dsimp only at hr
        match hbody : body tag.toNat s bs2, hr with
        | .error e', hr => cases hr; exact h _ _ _ _ hbody
        | .ok (s', rest'), hr =>
          dsimp only at hr
          have hle := (hm _ _).le hbody
          rw [if_pos hle] at hr
          exact ih rest'.length (by simp at hn; omega) s' rest' rfl e hr

/-- Readers already treated, found by instance search. -/
class IsRaises {α : Type} (x : Bool) (r : Rd α) : Prop where
  h : Raises x r

theorem Err.OfData.struct : Err.struct.OfData x := .inl rfl
theorem Err.OfData.assertion : Err.assertion.OfData x := .inr (.inl rfl)
theorem Err.OfData.value : Err.value.OfData x := .inr (.inr (.inl rfl))
theorem Err.OfData.unicode : Err.unicode.OfData x := .inr (.inr (.inr (.inl rfl)))
theorem Err.OfData.overflow : Err.overflow.OfData x := .inr (.inr (.inr (.inr (.inl rfl))))
theorem Err.OfData.exception : Err.exception.OfData true := .inr (.inr (.inr (.inr (.inr ⟨rfl, rfl⟩))))

/-- The exception is one of those allowed. -/
macro "of_data" : tactic => `(tactic| with_reducible first
  | exact Err.OfData.struct | exact Err.OfData.assertion | exact Err.OfData.value
  | exact Err.OfData.unicode | exact Err.OfData.overflow | exact Err.OfData.exception)

/-- Close goals about the readers of fields and of parts already treated. -/
macro "raises_prim" : tactic => `(tactic| with_reducible first
  | exact RaisesIn.pure
  | exact RaisesIn.int Err.OfData.struct
  | (refine RaisesIn.fail ?_; of_data; done)
  | (refine RaisesIn.guard ?_; of_data; done)
  | exact RaisesIn.fread
  | exact RaisesIn.tag Err.OfData.struct Err.OfData.assertion
  | (refine RaisesIn.ofOption ?_; of_data; done)
  | exact IsRaises.h
  | assumption)

/-- Walk through a reader. -/
macro "raises" : tactic => `(tactic| repeat' with_reducible first
  | raises_prim
  | refine RaisesIn.bind ?_ fun _ => ?_
  | refine RaisesIn.readN _ ?_
  | refine RaisesIn.opt ?_
  | refine RaisesIn.iterExt Err.OfData.struct (fun _ _ => by mono) (fun _ _ => ?_) _
  | refine RaisesIn.ite ?_ ?_
  | split)

end Avb

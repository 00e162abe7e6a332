import Verif.Lemmas.RT

/-
Readers only move forward, and do not look past the byte at which they stop.
-/

namespace Avb

/-- The reader only moves forward, and when it stops before the end of the data, what it did depends
only on the bytes it passed and the byte at which it stopped. -/
def Mono {α : Type} (r : Rd α) : Prop :=
  ∀ bs v rest, r bs = .ok (v, rest) →
    ∃ p, bs = p ++ rest ∧ (rest ≠ [] → ∀ e : Bytes, e.head? = rest.head? → r (p ++ e) = .ok (v, e))

/-- The reader consumes at least one byte, and what it did depends only on the bytes it passed. -/
def Strict {α : Type} (r : Rd α) : Prop :=
  ∀ bs v rest, r bs = .ok (v, rest) →
    ∃ p, p ≠ [] ∧ bs = p ++ rest ∧ ∀ e : Bytes, r (p ++ e) = .ok (v, e)

variable {α β σ : Type}

theorem Strict.mono {r : Rd α} (h : Strict r) : Mono r := fun bs v rest hr =>
  let ⟨p, _, h1, h2⟩ := h bs v rest hr
  ⟨p, h1, fun _ e _ => h2 e⟩

theorem Mono.le {r : Rd α} (h : Mono r) {bs rest : Bytes} {v : α} (hr : r bs = .ok (v, rest)) :
    rest.length ≤ bs.length := by
  obtain ⟨p, rfl, _⟩ := h _ _ _ hr
  simp

theorem Strict.lt {r : Rd α} (h : Strict r) {bs rest : Bytes} {v : α} (hr : r bs = .ok (v, rest)) :
    rest.length < bs.length := by
  obtain ⟨p, hp, rfl, _⟩ := h _ _ _ hr
  have := List.length_pos_iff.2 hp
  simp; omega

/-- Bytes appended to the data do not change what the reader does. -/
theorem Mono.more {r : Rd α} (h : Mono r) {bs rest : Bytes} {v : α} (hr : r bs = .ok (v, rest))
    (hne : rest ≠ []) (e : Bytes) : r (bs ++ e) = .ok (v, rest ++ e) := by
  obtain ⟨p, rfl, hp⟩ := h _ _ _ hr
  rw [List.append_assoc]
  exact hp hne _ (by cases rest <;> simp_all)

theorem Strict.more {r : Rd α} (h : Strict r) {bs rest : Bytes} {v : α} (hr : r bs = .ok (v, rest))
    (e : Bytes) : r (bs ++ e) = .ok (v, rest ++ e) := by
  obtain ⟨p, _, rfl, hp⟩ := h _ _ _ hr
  rw [List.append_assoc]
  exact hp _

theorem Mono.pure {v : α} : Mono (pure v : Rd α) := by
  intro bs v rest h
  cases h
  exact ⟨[], rfl, fun _ _ _ => rfl⟩

theorem Mono.fail {e : Err} : Mono (Rd.fail e : Rd α) := by
  intro bs v rest h; cases h

theorem Mono.guard {c : Prop} [Decidable c] {e : Err} : Mono (Rd.guard c e) := by
  intro bs v rest h
  unfold Rd.guard at h
  split at h
  · rename_i hc
    cases h
    exact ⟨[], rfl, fun _ _ _ => by simp [Rd.guard, hc]⟩
  · cases h

theorem Rd.bind_eq_ok' {r : Rd α} {k : α → Rd β} {bs : Bytes} {v : β} {rest : Bytes}
    (h : (r >>= k) bs = .ok (v, rest)) :
    ∃ a mid, r bs = .ok (a, mid) ∧ k a mid = .ok (v, rest) := by
  rw [Rd.bind_apply] at h
  match hr : r bs with
  | .ok (a, mid) => rw [hr] at h; exact ⟨a, mid, rfl, h⟩
  | .error e => rw [hr] at h; cases h

theorem head?_append_eq {p a b : Bytes} (h : a.head? = b.head?) : (p ++ a).head? = (p ++ b).head? := by
  cases p <;> simp_all

theorem Mono.bind {r : Rd α} {k : α → Rd β} (h1 : Mono r) (h2 : ∀ a, Mono (k a)) :
    Mono (r >>= k) := by
  intro bs v rest h
  obtain ⟨a, mid, e1, e2⟩ := Rd.bind_eq_ok' h
  obtain ⟨p1, rfl, m1⟩ := h1 _ _ _ e1
  obtain ⟨p2, rfl, m2⟩ := h2 _ _ _ _ e2
  refine ⟨p1 ++ p2, by simp, fun hne e he => ?_⟩
  rw [List.append_assoc, Rd.bind_ok (m1 (by simp [hne]) _ (head?_append_eq he))]
  exact m2 hne e he

theorem Strict.bind {r : Rd α} {k : α → Rd β} (h1 : Mono r) (h2 : ∀ a, Strict (k a)) :
    Strict (r >>= k) := by
  intro bs v rest h
  obtain ⟨a, mid, e1, e2⟩ := Rd.bind_eq_ok' h
  obtain ⟨p1, rfl, m1⟩ := h1 _ _ _ e1
  obtain ⟨p2, hp2, rfl, m2⟩ := h2 _ _ _ _ e2
  refine ⟨p1 ++ p2, by simp [hp2], by simp, fun e => ?_⟩
  rw [List.append_assoc, Rd.bind_ok (m1 (by simp [hp2]) _ (by cases p2 <;> simp_all))]
  exact m2 e

/-- A strict reader followed by computations that do not touch the cursor. -/
theorem Strict.last {r : Rd α} {f : α → β} (h : Strict r) :
    Strict (r >>= fun a => (Pure.pure (f a) : Rd β)) := by
  intro bs v rest hb
  obtain ⟨a, mid, e1, e2⟩ := Rd.bind_eq_ok' hb
  cases e2
  obtain ⟨p, hp, l1, m1⟩ := h _ _ _ e1
  exact ⟨p, hp, l1, fun e => by rw [Rd.bind_ok (m1 e)]; rfl⟩

theorem Strict.guard_last {r : Rd α} {c : α → Prop} [∀ a, Decidable (c a)] {e : Err} (h : Strict r) :
    Strict (r >>= fun a => Rd.guard (c a) e) := by
  intro bs v rest hb
  obtain ⟨a, mid, e1, e2⟩ := Rd.bind_eq_ok' hb
  unfold Rd.guard at e2
  split at e2
  · rename_i hc
    cases e2
    obtain ⟨p, hp, l1, m1⟩ := h _ _ _ e1
    exact ⟨p, hp, l1, fun e => by rw [Rd.bind_ok (m1 e)]; simp [Rd.guard, hc]⟩
  · cases e2

theorem IntTy.width_pos (t : IntTy) : 0 < t.width := by cases t <;> decide

theorem Strict.int {bo : BO} {t : IntTy} : Strict (rInt bo t) := by
  intro bs v rest h
  unfold rInt at h
  split at h
  · cases h
  · rename_i hl
    have hw := t.width_pos
    have htl : (bs.take t.width).length = t.width := by simp; omega
    cases h
    refine ⟨bs.take t.width, ?_, (List.take_append_drop _ _).symm, fun e => ?_⟩
    · intro h0; rw [h0] at htl; simp at htl; omega
    · unfold rInt
      rw [if_neg (by rw [List.length_append]; omega)]
      rw [List.take_append_of_le_length (by omega), List.take_of_length_le (by omega),
        List.drop_append_of_le_length (by omega), List.drop_of_length_le (by omega)]
      rfl

theorem Mono.int {bo : BO} {t : IntTy} : Mono (rInt bo t) := Strict.int.mono

theorem Mono.fread {n : Int} : Mono (fread n) := by
  intro bs v rest h
  unfold Avb.fread at h
  split at h
  · cases h; exact ⟨bs, by simp, fun h => absurd rfl h⟩
  · rename_i hn
    cases h
    refine ⟨bs.take n.toNat, (List.take_append_drop _ _).symm, fun hne e _ => ?_⟩
    have hl : n.toNat ≤ bs.length := by
      apply Nat.le_of_not_lt
      intro hlt
      exact hne (List.drop_eq_nil_of_le (Nat.le_of_lt hlt))
    have htl : (bs.take n.toNat).length = n.toNat := by simp; omega
    unfold Avb.fread
    rw [if_neg hn, List.take_append_of_le_length (by omega), List.take_of_length_le (by omega),
      List.drop_append_of_le_length (by omega), List.drop_of_length_le (by omega)]
    rfl

theorem Strict.tag {t : Int} : Strict (rTag t) := Strict.guard_last Strict.int

theorem Mono.readN {r : Rd α} (n : Nat) (h : Mono r) : Mono (readN n r) := by
  induction n with
  | zero => exact Mono.pure
  | succ n ih => exact Mono.bind h fun _ => Mono.bind ih fun _ => Mono.pure

theorem Mono.opt {c : Bool} {r : Rd α} (h : Mono r) : Mono (Rd.opt c r) := by
  unfold Rd.opt
  split
  · exact Mono.bind h fun _ => Mono.pure
  · exact Mono.pure

theorem Mono.ofOption {o : Option α} {e : Err} : Mono (Rd.ofOption o e) := by
  cases o
  · exact Mono.fail
  · exact Mono.pure

theorem Mono.ite {c : Prop} [Decidable c] {r1 r2 : Rd α} (h1 : Mono r1) (h2 : Mono r2) :
    Mono (if c then r1 else r2) := by
  split
  · exact h1
  · exact h2

theorem iterExt_step {body : Int → σ → Rd σ} {s s' : σ} {tag : UInt8} {bs rest : Bytes}
    (h : body tag.toNat s bs = .ok (s', rest)) (hl : rest.length ≤ bs.length) :
    iterExt body s (1 :: tag :: bs) = iterExt body s' rest := by
  conv => lhs; unfold Avb.iterExt
  simp [h, hl]

theorem Mono.iterExt {body : Int → σ → Rd σ} (h : ∀ tag s, Mono (body tag s)) (s : σ) :
    Mono (iterExt body s) := by
  intro bs
  induction hn : bs.length using Nat.strongRecOn generalizing bs s with
  | _ n ih =>
  intro v rest hr
  unfold Avb.iterExt at hr
  match bs, hn, hr with
  | [], _, hr => cases hr
  | b :: bs1, hn, hr =>
    dsimp only at hr
    by_cases hb : b ≠ 1
    · rw [if_pos hb] at hr
      cases hr
      refine ⟨[], rfl, fun _ e he => ?_⟩
      match e, he with
      | [], he => simp at he
      | x :: e, he =>
        simp only [List.head?_cons, Option.some.injEq] at he
        subst he
        exact iterExt_stop hb
    · rw [if_neg hb] at hr
      have hb1 : b = 1 := by simpa using hb
      subst hb1
      match bs1, hn, hr with
      | [], _, hr => cases hr
      | tag :: bs2, hn, hr =>
        dsimp only at hr
        match hbody : body tag.toNat s bs2, hr with
        | .error e, hr => cases hr
        | .ok (s', rest'), hr =>
          dsimp only at hr
          split at hr
          · rename_i hle
            obtain ⟨p1, hp1, m1⟩ := h tag.toNat s _ _ _ hbody
            have hlt : rest'.length < n := by
              simp at hn; omega
            obtain ⟨p2, hp2, m2⟩ := ih _ hlt s' rest' rfl v rest hr
            subst hp2
            refine ⟨1 :: tag :: (p1 ++ p2), by simp [hp1], fun hne e he => ?_⟩
            have hx := iterExt_step (body := body) (m1 (by simp [hne]) _ (head?_append_eq he)) (by simp)
            simp only [List.cons_append, List.append_assoc]
            rw [hx]
            exact m2 hne e he
          · cases hr

/-- Readers already treated, found by instance search. -/
class IsMono {α : Type} (r : Rd α) : Prop where
  h : Mono r

/-- Close goals about the readers of fields and of parts already treated. -/
macro "mono_prim" : tactic => `(tactic| with_reducible first
  | exact Mono.pure
  | exact Mono.int
  | exact Mono.fail
  | exact Mono.guard
  | exact Mono.fread
  | exact Strict.tag.mono
  | exact Mono.ofOption
  | exact IsMono.h
  | assumption)

/-- Walk through a reader. -/
macro "mono" : tactic => `(tactic| repeat' with_reducible first
  | mono_prim
  | refine Mono.bind ?_ fun _ => ?_
  | refine Mono.readN _ ?_
  | refine Mono.opt ?_
  | refine Mono.iterExt (fun _ _ => ?_) _
  | refine Mono.ite ?_ ?_
  | split)

/-- Walk through a reader up to its closing tag. -/
macro "strict" : tactic => `(tactic| repeat' with_reducible first
  | exact Strict.tag
  | exact Strict.last Strict.tag
  | refine Strict.bind (by mono) fun _ => ?_)

end Avb

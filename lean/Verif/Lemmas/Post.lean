import Verif.Lemmas.RelAll
import Verif.Lemmas.Firm

/-
Two predicates used to reason about readers and writers without their bytes: `Wr.Ok w`, the writer
succeeds, and `Post r P`, whatever the reader gives satisfies `P`.
-/

namespace Avb

/-- The writer succeeds. -/
def Wr.Ok (w : Wr Unit) : Prop := ∃ bs, w = .ok ((), bs)

theorem Wr.ok_bind {w1 : Wr Unit} {w2 : Wr Unit} : Wr.Ok (w1 >>= fun _ => w2) ↔ Wr.Ok w1 ∧ Wr.Ok w2 := by
  constructor
  · rintro ⟨bs, h⟩
    obtain ⟨_, o1, o2, h1, h2, rfl⟩ := Wr.bind_eq_ok h
    exact ⟨⟨o1, h1⟩, ⟨o2, h2⟩⟩
  · rintro ⟨⟨o1, h1⟩, ⟨o2, h2⟩⟩
    exact ⟨o1 ++ o2, Wr.bind_ok h1 h2⟩

theorem Wr.ok_forW {α : Type} {xs : List α} {w : α → Wr Unit} :
    Wr.Ok (forW xs w) ↔ ∀ x ∈ xs, Wr.Ok (w x) := by
  induction xs with
  | nil =>
    constructor
    · exact fun _ _ h => nomatch h
    · exact fun _ => ⟨[], rfl⟩
  | cons x xs ih => rw [forW, Wr.ok_bind, ih]; simp

theorem Wr.ok_none {α : Type} {k : α → Wr Unit} : ¬ Wr.Ok (Wr.get (none : Option α) >>= k) := by
  rintro ⟨bs, h⟩
  obtain ⟨_, _, _, h1, _⟩ := Wr.bind_eq_ok h
  cases h1

theorem Wr.ok_dep {α : Type} {w : Wr α} {k : α → Wr Unit} (h : Wr.Ok (w >>= k)) : ∃ a, Wr.Ok (k a) := by
  obtain ⟨bs, h⟩ := h
  obtain ⟨a, o1, o2, h1, h2, rfl⟩ := Wr.bind_eq_ok h
  exact ⟨a, o2, h2⟩

theorem Wr.ok_get {α : Type} {o : Option α} {k : α → Wr Unit} :
    Wr.Ok (Wr.get o >>= k) ↔ ∃ a, o = some a ∧ Wr.Ok (k a) := by
  constructor
  · rintro ⟨bs, h⟩
    obtain ⟨a, o1, o2, h1, h2, rfl⟩ := Wr.bind_eq_ok h
    cases o with
    | none => cases h1
    | some b => cases h1; exact ⟨a, rfl, ⟨o2, h2⟩⟩
  · rintro ⟨a, rfl, ⟨o, h⟩⟩
    exact ⟨[] ++ o, Wr.bind_ok (rfl : Wr.get (some a) = _) h⟩

theorem Wr.ok_int {bo : BO} {t : IntTy} {v : Int} : Wr.Ok (wInt bo t v) ↔ t.lo ≤ v ∧ v ≤ t.hi :=
  ⟨fun ⟨_, h⟩ => ⟨(wInt_eq_ok h).1, (wInt_eq_ok h).2.1⟩, fun h => ⟨_, wInt_ok h.1 h.2⟩⟩

theorem Wr.ok_ref {c : WCtx} {r : Ref} (h : RefOK c r) : Wr.Ok (wRef c r) := by
  rcases h with rfl | ⟨k, hk, hlt⟩
  · exact ⟨_, rfl⟩
  · unfold wRef
    split
    · exact ⟨_, rfl⟩
    · rw [hk]
      exact Wr.ok_int.2 ⟨by simp [IntTy.lo, IntTy.signed], by simp [IntTy.hi, IntTy.signed, IntTy.width]; omega⟩

theorem Wr.ok_bool {b : Bool} : Wr.Ok (wBool b) := by cases b <;> exact ⟨_, rfl⟩

theorem Wr.ok_flagged {α : Type} {b : Bool} {o : Option α} {w : α → Wr Unit} (hb : b = o.isSome)
    (h : ∀ a, o = some a → Wr.Ok (w a)) : Wr.Ok (wFlagged b o w) := by
  subst hb
  cases o with
  | none => exact ⟨[], rfl⟩
  | some a => obtain ⟨bs, hbs⟩ := h a rfl; exact ⟨[] ++ bs, Wr.bind_ok (rfl : Wr.get (some a) = _) hbs⟩

/-- `r` gives only results satisfying `P`. -/
def Post {α : Type} (r : Rd α) (P : α → Prop) : Prop := ∀ bs v rest, r bs = .ok (v, rest) → P v

section
variable {α β σ : Type} {P : β → Prop}

theorem Post.bind {r : Rd α} {k : α → Rd β} (h : ∀ a, Post (k a) P) : Post (r >>= k) P := by
  intro bs v rest hr
  obtain ⟨a, mid, _, h2⟩ := Rd.bind_eq_ok' hr
  exact h a _ _ _ h2

theorem Post.bindP {r : Rd α} {k : α → Rd β} {Q : α → Prop} (h1 : Post r Q)
    (h : ∀ a, Q a → Post (k a) P) : Post (r >>= k) P := by
  intro bs v rest hr
  obtain ⟨a, mid, h0, h2⟩ := Rd.bind_eq_ok' hr
  exact h a (h1 _ _ _ h0) _ _ _ h2

theorem Post.guard {c : Prop} [Decidable c] {e : Err} : Post (Rd.guard c e) fun _ => c := by
  intro bs v rest hr
  rw [Rd.guard_apply] at hr
  split at hr
  · assumption
  · cases hr

theorem Post.pure {v : β} (h : P v) : Post (pure v : Rd β) P := by
  intro bs v rest hr
  cases hr
  exact h

theorem Post.fail {e : Err} : Post (Rd.fail e : Rd β) P := by
  intro bs v rest hr; cases hr

theorem Post.readN {r : Rd α} (n : Nat) : Post (readN n r) fun l => l.length = n := by
  induction n with
  | zero => exact Post.pure rfl
  | succ n ih =>
    exact Post.bind fun _ => Post.bindP ih fun l hl => Post.pure (by simp [hl])

theorem Post.iterExt {body : Int → σ → Rd σ} {P : σ → Prop} (h : ∀ t s, P s → Post (body t s) P) {s : σ}
    (hs : P s) : Post (iterExt body s) P := by
  intro bs
  induction hn : bs.length using Nat.strongRecOn generalizing bs s with
  | _ n ih =>
  intro v rest hr
  unfold Avb.iterExt at hr
  split at hr
  · cases hr
  · split at hr
    · cases hr; exact hs
    · split at hr
      · cases hr
      · split at hr
        · cases hr
        · rename_i hb
          split at hr
          · simp only [List.length_cons] at hn
            exact ih _ (by omega) (h _ _ hs _ _ _ hb) _ rfl _ _ hr
          · cases hr

theorem Post.ite {c : Prop} [Decidable c] {r1 r2 : Rd β} (h1 : Post r1 P) (h2 : Post r2 P) :
    Post (if c then r1 else r2) P := by
  split
  · exact h1
  · exact h2

/-- What the last step gives, when all others do not matter. -/
theorem Post.mono {r : Rd β} {Q : β → Prop} (h : Post r P) (hq : ∀ v, P v → Q v) : Post r Q :=
  fun bs v rest hr => hq v (h bs v rest hr)
end

end Avb

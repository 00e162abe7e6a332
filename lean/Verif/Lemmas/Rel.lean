import Verif.Model.Obj
import Verif.Lemmas.RT

/-
The same writer run in two contexts: when it succeeds in one, it succeeds in the other with output
of the same length, provided the second context knows every reference.
-/

namespace Avb

/-- If `w` succeeds so does `w'`, with the same result and as many bytes. -/
def WRel {α : Type} (w w' : Wr α) : Prop :=
  ∀ a bs, w = .ok (a, bs) → ∃ bs', w' = .ok (a, bs') ∧ bs'.length = bs.length

/-- The context can store this reference. -/
def RefOK (c : WCtx) (r : Ref) : Prop := r = 0 ∨ ∃ k, c.refMap r = some k ∧ k < 2 ^ 32

/-- The context can store every reference met. -/
def VisitsOK (c : WCtx) (vs : List Visit) : Prop := ∀ v ∈ vs, RefOK c v.ref

/-- If the first context can store this reference, the second can. -/
def RefRel (c c' : WCtx) (r : Ref) : Prop := RefOK c r → RefOK c' r

/-- Every reference met that the first context can store the second can. -/
def VisitsRel (c c' : WCtx) (vs : List Visit) : Prop := ∀ v ∈ vs, RefRel c c' v.ref

theorem VisitsOK.rel {c c' : WCtx} {vs : List Visit} (h : VisitsOK c' vs) : VisitsRel c c' vs :=
  fun v hv _ => h v hv

/-- Parts of writers already treated, found by instance search. -/
class IsRel {α : Type} (w w' : Wr α) : Prop where
  h : WRel w w'

variable {α β : Type} {c c' : WCtx}

theorem WRel.refl {w : Wr α} : WRel w w := fun _ bs h => ⟨bs, h, rfl⟩

theorem WRel.fail {e : Err} {w : Wr α} : WRel (Wr.fail e) w := fun _ _ h => by cases h

theorem WRel.bind {w w' : Wr α} {k k' : α → Wr β} (h1 : WRel w w')
    (h2 : ∀ a, WRel (k a) (k' a)) : WRel (w >>= k) (w' >>= k') := by
  intro b bs h
  obtain ⟨a, o1, o2, e1, e2, rfl⟩ := Wr.bind_eq_ok h
  obtain ⟨p1, q1, l1⟩ := h1 _ _ e1
  obtain ⟨p2, q2, l2⟩ := h2 a _ _ e2
  exact ⟨p1 ++ p2, Wr.bind_ok q1 q2, by simp [l1, l2]⟩

theorem WRel.int {bo bo' : BO} {t : IntTy} {v : Int} : WRel (wInt bo t v) (wInt bo' t v) := by
  intro a bs h
  obtain ⟨h1, h2, rfl⟩ := wInt_eq_ok h
  exact ⟨_, wInt_ok h1 h2, by simp⟩

theorem WRel.ref {r : Ref} (h : RefRel c c' r) : WRel (wRef c r) (wRef c' r) := by
  unfold wRef
  split
  · exact WRel.int
  · rename_i h0
    split
    · exact WRel.fail
    · rename_i k hk
      intro a bs hb
      obtain ⟨h1, h2, rfl⟩ := wInt_eq_ok hb
      have hlt : k < 2 ^ 32 := by
        simp only [IntTy.hi, IntTy.signed, IntTy.width] at h2
        simp at h2
        omega
      obtain h | ⟨k', hk', hlt'⟩ := h (.inr ⟨k, hk, hlt⟩)
      · exact absurd h h0
      · rw [hk']
        refine ⟨_, wInt_ok ?_ ?_, by simp⟩
        · simp only [IntTy.lo, IntTy.signed]; simp
        · simp only [IntTy.hi, IntTy.signed, IntTy.width]; simp; omega

theorem WRel.ifHas {o : Option α} {w w' : α → Wr Unit}
    (h : ∀ a, o = some a → WRel (w a) (w' a)) : WRel (Wr.ifHas o w) (Wr.ifHas o w') := by
  cases o with
  | none => exact WRel.refl
  | some a => exact h a rfl

theorem WRel.flagged {p : Bool} {o : Option α} {w w' : α → Wr Unit}
    (h : ∀ a, o = some a → WRel (w a) (w' a)) : WRel (wFlagged p o w) (wFlagged p o w') := by
  unfold wFlagged
  cases p with
  | false => exact WRel.refl
  | true =>
    simp only [if_true]
    cases o with
    | none => intro a bs hb; cases hb
    | some a =>
      intro b bs hb
      obtain ⟨a', o1, o2, e1, e2, rfl⟩ := Wr.bind_eq_ok hb
      obtain ⟨rfl, rfl⟩ := Wr.pure_eq_ok e1
      obtain ⟨p2, q2, l2⟩ := h _ rfl _ _ e2
      exact ⟨[] ++ p2, Wr.bind_ok e1 q2, by simp [l2]⟩

theorem WRel.when {p : Prop} [Decidable p] {w w' : Wr Unit} (h : p → WRel w w') :
    WRel (Wr.when p w) (Wr.when p w') := by
  unfold Wr.when
  by_cases hp : p
  · simp only [hp, if_true]; exact h hp
  · simp only [hp, if_false]; exact WRel.refl

theorem WRel.ite {p : Prop} [Decidable p] {w1 w1' w2 w2' : Wr α} (h1 : p → WRel w1 w1')
    (h2 : ¬ p → WRel w2 w2') : WRel (if p then w1 else w2) (if p then w1' else w2') := by
  by_cases hp : p
  · simp only [hp, if_true]; exact h1 hp
  · simp only [hp, if_false]; exact h2 hp

theorem WRel.forW {xs : List α} {w w' : α → Wr Unit} (h : ∀ x ∈ xs, WRel (w x) (w' x)) :
    WRel (forW xs w) (forW xs w') := by
  induction xs with
  | nil => exact WRel.refl
  | cons x xs ih =>
    exact WRel.bind (h x List.mem_cons_self) fun _ =>
      ih fun y hy => h y (List.mem_cons_of_mem _ hy)

theorem WRel.str {bo bo' : BO} {e : Enc} {t : Text} : WRel (wStr bo e t) (wStr bo' e t) := by
  unfold wStr
  refine WRel.ite (fun _ => WRel.int) fun _ => ?_
  cases encodeText e t with
  | none => exact WRel.fail
  | some d => exact WRel.bind WRel.int fun _ => WRel.refl

theorem WRel.rate {bo bo' : BO} {r : Rate} : WRel (wRate bo r) (wRate bo' r) := by
  cases r with
  | inf _ => exact WRel.fail
  | nan => exact WRel.fail
  | fin q => exact WRel.bind WRel.int fun _ => WRel.int

theorem WRel.emit {a b : Bytes} (h : a.length = b.length) : WRel (Wr.emit a) (Wr.emit b) := by
  intro _ bs hb
  obtain rfl := Wr.emit_eq_ok hb
  exact ⟨b, rfl, h.symm⟩

theorem WRel.uuid {bo bo' : BO} {u : UUID} : WRel (wUuid bo u) (wUuid bo' u) := by
  unfold wUuid
  refine WRel.bind WRel.int fun _ => WRel.bind WRel.int fun _ => WRel.bind WRel.int fun _ =>
    WRel.bind WRel.int fun _ => WRel.bind WRel.int fun _ => WRel.bind WRel.int fun _ =>
    WRel.bind WRel.int fun _ => WRel.bind WRel.int fun _ => ?_
  have h := u.len
  cases bo <;> cases bo' <;> refine WRel.emit ?_ <;> simp [UUID.bytesLE, swapUuid_length h, h]

theorem WRel.rawUuid {bo bo' : BO} {u : UUID} : WRel (wRawUuid bo u) (wRawUuid bo' u) := by
  have h := u.len
  unfold wRawUuid
  cases bo <;> cases bo' <;> refine WRel.emit ?_ <;> simp [UUID.bytesLE, swapUuid_length h, h]

theorem WRel.fourcc {bo bo' : BO} {s : Bytes} : WRel (wFourcc bo s) (wFourcc bo' s) := by
  unfold wFourcc
  refine WRel.bind WRel.refl fun _ => ?_
  cases bo <;> cases bo' <;> exact WRel.emit (by simp)

/-- Close goals about fields and parts already treated. -/
macro "rel_prim" : tactic => `(tactic| with_reducible first
  | exact WRel.refl
  | exact WRel.int
  | exact WRel.str
  | exact WRel.rate
  | exact WRel.uuid
  | exact WRel.rawUuid
  | exact WRel.fourcc
  | exact IsRel.h
  | assumption)

/-- Walk through a writer. -/
macro "rel" : tactic => `(tactic| repeat' with_reducible first
  | rel_prim
  | refine WRel.bind ?_ fun _ => ?_
  | refine WRel.ifHas fun _ _ => ?_
  | refine WRel.flagged fun _ _ => ?_
  | refine WRel.when fun _ => ?_
  | refine WRel.forW fun _ _ => ?_
  | refine WRel.ite (fun _ => ?_) (fun _ => ?_))

theorem WRel.mobId {bo bo' : BO} {m : MobID} : WRel (wMobId bo m) (wMobId bo' m) := by
  unfold wMobId; rel

instance {bo bo' : BO} {m : MobID} : IsRel (wMobId bo m) (wMobId bo' m) := ⟨WRel.mobId⟩

theorem WRel.rect {bo bo' : BO} {v : Rect} : WRel (wRect bo v) (wRect bo' v) := by
  unfold wRect; rel

instance {bo bo' : BO} {v : Rect} : IsRel (wRect bo v) (wRect bo' v) := ⟨WRel.rect⟩

theorem WRel.rgb {bo bo' : BO} {v : RGB} : WRel (wRgb bo v) (wRgb bo' v) := by
  unfold wRgb; rel

instance {bo bo' : BO} {v : RGB} : IsRel (wRgb bo v) (wRgb bo' v) := ⟨WRel.rgb⟩

instance {bo bo' : BO} {t : Int} : IsRel (wDate bo t) (wDate bo' t) := ⟨WRel.int⟩

end Avb

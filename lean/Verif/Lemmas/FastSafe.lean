import Verif.Lemmas.Fast

/-
Where the accelerated readers read: the position stays within the payload, and box arrays that were
cut short are left behind only by a call that fails.
-/

namespace Avb.Fast

variable {α β : Type}

/-- The reader moves forward within the payload and does nothing undefined. -/
def Fwd (f : Fast α) : Prop := ∀ (d : Bytes) (s : St), s.pos ≤ d.length →
  s.pos ≤ (f d s).2.pos ∧ (f d s).2.pos ≤ d.length ∧ (f d s).1 ≠ .error .wild

/-- The reader stays within a payload that is not empty and does nothing undefined. -/
def Safe (f : Fast α) : Prop := ∀ (d : Bytes) (s : St), d ≠ [] → s.pos ≤ d.length →
  (f d s).2.pos ≤ d.length ∧ (f d s).1 ≠ .error .wild

/-- The reader adds no short box. -/
def Quiet (f : Fast α) : Prop := ∀ (d : Bytes) (s : St), (f d s).2.p.short_box = s.p.short_box

/-- If the reader succeeds, it has added no short box. -/
def Whole (f : Fast α) : Prop := ∀ (d : Bytes) (s : St) (a : α) (s' : St), f d s = (.ok a, s') →
  s'.p.short_box = s.p.short_box

theorem Fwd.safe {f : Fast α} (h : Fwd f) : Safe f := fun d s _ hp => (h d s hp).2

theorem Quiet.whole {f : Fast α} (h : Quiet f) : Whole f := by
  intro d s a s' e
  have := h d s
  rwa [e] at this

theorem Fwd.pure {a : α} : Fwd (pure a) := fun _ _ h => ⟨Nat.le_refl _, h, by intro e; cases e⟩

theorem Quiet.pure {a : α} : Quiet (pure a) := fun _ _ => rfl

theorem Fwd.bind {f : Fast α} {k : α → Fast β} (h : Fwd f) (hk : ∀ a, Fwd (k a)) :
    Fwd (f >>= k) := by
  intro d s hp
  obtain ⟨h1, h2, h3⟩ := h d s hp
  rw [bind_apply]
  match e : f d s with
  | (.ok a, s') =>
    rw [e] at h1 h2
    obtain ⟨g1, g2, g3⟩ := hk a d s' h2
    exact ⟨Nat.le_trans h1 g1, g2, g3⟩
  | (.error x, s') =>
    rw [e] at h1 h2 h3
    exact ⟨h1, h2, fun e => h3 (by injection e with e; rw [e])⟩

theorem Safe.bind {f : Fast α} {k : α → Fast β} (h : Safe f) (hk : ∀ a, Safe (k a)) :
    Safe (f >>= k) := by
  intro d s hd hp
  obtain ⟨h2, h3⟩ := h d s hd hp
  rw [bind_apply]
  match e : f d s with
  | (.ok a, s') =>
    rw [e] at h2
    exact hk a d s' hd h2
  | (.error x, s') =>
    rw [e] at h2 h3
    exact ⟨h2, fun e => h3 (by injection e with e; rw [e])⟩

theorem Quiet.bind {f : Fast α} {k : α → Fast β} (h : Quiet f) (hk : ∀ a, Quiet (k a)) :
    Quiet (f >>= k) := by
  intro d s
  have h1 := h d s
  rw [bind_apply]
  match e : f d s with
  | (.ok a, s') => rw [e] at h1; exact (hk a d s').trans h1
  | (.error x, s') => rw [e] at h1; exact h1

theorem Whole.bind {f : Fast α} {k : α → Fast β} (h : Whole f) (hk : ∀ a, Whole (k a)) :
    Whole (f >>= k) := by
  intro d s b s2 hb
  rw [bind_apply] at hb
  match e : f d s with
  | (.ok a, s') =>
    rw [e] at hb
    exact (hk a d s' b s2 hb).trans (h d s a s' e)
  | (.error x, s') => rw [e] at hb; injection hb with hb _; cases hb

theorem Fwd.stop {e : Stop} (h : e ≠ .wild) : Fwd (stop e : Fast α) :=
  fun _ _ hp => ⟨Nat.le_refl _, hp, by intro x; injection x with x; exact h x⟩

theorem Quiet.stop {e : Stop} : Quiet (Fast.stop e : Fast α) := fun _ _ => rfl

theorem Fwd.put {u : Props → Props} : Fwd (put u) :=
  fun _ _ hp => ⟨Nat.le_refl _, hp, by intro x; cases x⟩

theorem Quiet.put {u : Props → Props} (h : ∀ p, (u p).short_box = p.short_box) : Quiet (put u) :=
  fun _ s => h s.p

theorem Fwd.ignore {f : Fast Unit} (h : Fwd f) : Fwd (ignore f) := by
  intro d s hp
  obtain ⟨h1, h2, h3⟩ := h d s hp
  unfold Fast.ignore
  match e : f d s with
  | (.ok a, s') => rw [e] at h1 h2 h3; exact ⟨h1, h2, h3⟩
  | (.error .ret, s') => rw [e] at h1 h2; exact ⟨h1, h2, by intro x; cases x⟩
  | (.error .throw, s') => rw [e] at h1 h2 h3; exact ⟨h1, h2, h3⟩
  | (.error .wild, s') => rw [e] at h1 h2 h3; exact ⟨h1, h2, h3⟩

theorem Safe.ignore {f : Fast Unit} (h : Safe f) : Safe (Fast.ignore f) := by
  intro d s hd hp
  obtain ⟨h2, h3⟩ := h d s hd hp
  unfold Fast.ignore
  match e : f d s with
  | (.ok a, s') => rw [e] at h2 h3; exact ⟨h2, h3⟩
  | (.error .ret, s') => rw [e] at h2; exact ⟨h2, by intro x; cases x⟩
  | (.error .throw, s') => rw [e] at h2 h3; exact ⟨h2, h3⟩
  | (.error .wild, s') => rw [e] at h2 h3; exact ⟨h2, h3⟩

theorem Quiet.ignore {f : Fast Unit} (h : Quiet f) : Quiet (Fast.ignore f) := by
  intro d s
  have h1 := h d s
  unfold Fast.ignore
  match e : f d s with
  | (.ok a, s') => rw [e] at h1; exact h1
  | (.error .ret, s') => rw [e] at h1; exact h1
  | (.error .throw, s') => rw [e] at h1; exact h1
  | (.error .wild, s') => rw [e] at h1; exact h1

theorem Fwd.keepShort {f : Fast α} (h : Fwd f) : Fwd (keepShort f) := by
  intro d s hp
  obtain ⟨h1, h2, h3⟩ := h d s hp
  unfold Fast.keepShort
  match e : f d s with
  | (.ok a, s') => rw [e] at h1 h2 h3; exact ⟨h1, h2, h3⟩
  | (.error .ret, s') => rw [e] at h1 h2; exact ⟨h1, h2, by intro x; cases x⟩
  | (.error .throw, s') => rw [e] at h1 h2 h3; exact ⟨h1, h2, h3⟩
  | (.error .wild, s') => rw [e] at h1 h2 h3; exact ⟨h1, h2, h3⟩

theorem Whole.keepShort {f : Fast α} (h : Whole f) : Whole (Fast.keepShort f) := by
  intro d s a s' hk
  unfold Fast.keepShort at hk
  match e : f d s with
  | (.ok b, s1) => rw [e] at hk; exact h d s a s' (by rw [e]; exact hk)
  | (.error .ret, s1) => rw [e] at hk; injection hk with hk _; cases hk
  | (.error .throw, s1) => rw [e] at hk; injection hk with hk _; cases hk
  | (.error .wild, s1) => rw [e] at hk; injection hk with hk _; cases hk

theorem Fwd.u8 : Fwd u8 := by
  intro d s hp
  unfold Fast.u8
  match e : d[s.pos]? with
  | some b =>
    have : s.pos < d.length := by
      obtain ⟨h, _⟩ := List.getElem?_eq_some_iff.1 e; exact h
    exact ⟨Nat.le_succ _, this, by intro x; cases x⟩
  | none => exact ⟨Nat.le_refl _, hp, by intro x; cases x⟩

theorem Quiet.u8 : Quiet Fast.u8 := by
  intro d s
  unfold Fast.u8
  split <;> rfl

theorem Fwd.ite {c : Prop} [Decidable c] {f g : Fast α} (h1 : Fwd f) (h2 : Fwd g) :
    Fwd (if c then f else g) := by split <;> assumption

theorem Quiet.ite {c : Prop} [Decidable c] {f g : Fast α} (h1 : Quiet f) (h2 : Quiet g) :
    Quiet (if c then f else g) := by split <;> assumption

theorem Whole.ite {c : Prop} [Decidable c] {f g : Fast α} (h1 : Whole f) (h2 : Whole g) :
    Whole (if c then f else g) := by split <;> assumption

theorem Safe.ite {c : Prop} [Decidable c] {f g : Fast α} (h1 : Safe f) (h2 : Safe g) :
    Safe (if c then f else g) := by split <;> assumption

theorem Fwd.tag {t : UInt8} : Fwd (tag t) :=
  Fwd.bind Fwd.u8 fun _ => Fwd.ite Fwd.pure (Fwd.stop (by decide))

theorem Quiet.tag {t : UInt8} : Quiet (Fast.tag t) :=
  Quiet.bind Quiet.u8 fun _ => Quiet.ite Quiet.pure Quiet.stop

theorem Fwd.bytes : ∀ n, Fwd (bytes n)
  | 0 => Fwd.pure
  | n + 1 => Fwd.bind Fwd.u8 fun _ => Fwd.bind (Fwd.bytes n) fun _ => Fwd.pure

theorem Quiet.bytes : ∀ n, Quiet (Fast.bytes n)
  | 0 => Quiet.pure
  | n + 1 => Quiet.bind Quiet.u8 fun _ => Quiet.bind (Quiet.bytes n) fun _ => Quiet.pure

theorem Fwd.times {f : Fast α} (h : Fwd f) : ∀ n, Fwd (times f n)
  | 0 => Fwd.pure
  | n + 1 => Fwd.bind h fun _ => Fwd.bind (Fwd.times h n) fun _ => Fwd.pure

theorem Quiet.times {f : Fast α} (h : Quiet f) : ∀ n, Quiet (Fast.times f n)
  | 0 => Quiet.pure
  | n + 1 => Quiet.bind h fun _ => Quiet.bind (Quiet.times h n) fun _ => Quiet.pure

theorem Fwd.each {b : Nat → Fast Unit} (h : ∀ i, Fwd (b i)) : ∀ i n, Fwd (each b i n)
  | _, 0 => Fwd.pure
  | i, n + 1 => Fwd.bind (h i) fun _ => Fwd.each h (i + 1) n

theorem Quiet.each {b : Nat → Fast Unit} (h : ∀ i, Quiet (b i)) : ∀ i n, Quiet (Fast.each b i n)
  | _, 0 => Quiet.pure
  | i, n + 1 => Quiet.bind (h i) fun _ => Quiet.each h (i + 1) n

/-- The step back of `iter_ext` stays within the payload: either a byte was read, or the position is
the end of a payload that is not empty. -/
theorem more_cases {d : Bytes} {s : St} (hd : d ≠ []) (hp : s.pos ≤ d.length) :
    (more d s = (.ok true, ⟨s.pos + 1, s.p⟩) ∧ s.pos < d.length) ∨
      ∃ q, q ≤ d.length ∧ more d s = (.ok false, ⟨q, s.p⟩) := by
  unfold more
  rw [bind_apply]
  unfold Fast.u8
  match e : d[s.pos]? with
  | some b =>
    obtain ⟨hl, _⟩ := List.getElem?_eq_some_iff.1 e
    by_cases hb : b = 1
    · left
      simp only [hb, if_true]
      exact ⟨rfl, hl⟩
    · right
      refine ⟨s.pos, hp, ?_⟩
      simp only [hb, if_false]
      rw [bind_apply]
      unfold back
      simp only [Nat.add_eq_zero_iff, Nat.one_ne_zero, and_false, if_false, Nat.add_sub_cancel]
      rfl
  | none =>
    right
    have hz : s.pos ≠ 0 := by
      have := List.getElem?_eq_none_iff.1 e
      have := List.length_pos_iff.2 hd
      omega
    refine ⟨s.pos - 1, by omega, ?_⟩
    simp only [show (0 : UInt8) ≠ 1 by decide, if_false]
    rw [bind_apply]
    unfold back
    simp only [hz, if_false]
    rfl

theorem Safe.iterExt {body : UInt8 → Fast Unit} (h : ∀ t, Fwd (body t)) : Safe (iterExt body) := by
  intro d s hd hp
  fun_induction Fast.iterExt body d s with
  | case1 s s1 hm a s2 hb hg ih => exact ih hg.2
  | case2 s s1 hm a s2 hb hg =>
    exfalso
    rcases more_cases hd hp with ⟨e, hl⟩ | ⟨q, _, e⟩
    · rw [hm] at e
      injection e with _ e
      subst e
      obtain ⟨g1, g2, _⟩ := Fwd.bind Fwd.u8 h d ⟨s.pos + 1, s.p⟩ hl
      rw [hb] at g1 g2
      exact hg ⟨g1, g2⟩
    · rw [hm] at e; injection e with e _; cases e
  | case3 s s1 hm e s2 hb =>
    rcases more_cases hd hp with ⟨e, hl⟩ | ⟨q, _, e⟩
    · rw [hm] at e
      injection e with _ e
      subst e
      obtain ⟨g1, g2, g3⟩ := Fwd.bind Fwd.u8 h d ⟨s.pos + 1, s.p⟩ hl
      rw [hb] at g1 g2 g3
      exact ⟨g2, fun e => g3 (by injection e with e; rw [e])⟩
    · rw [hm] at e; injection e with e _; cases e
  | case4 s s1 hm =>
    rcases more_cases hd hp with ⟨e, hl⟩ | ⟨q, hq, e⟩
    · rw [hm] at e; injection e with e _; cases e
    · rw [hm] at e; injection e with _ e; subst e; exact ⟨hq, by intro x; cases x⟩
  | case5 s e s1 hm =>
    rcases more_cases hd hp with ⟨e, hl⟩ | ⟨q, _, e⟩ <;>
      · rw [hm] at e; injection e with e _; cases e

theorem Quiet.more : Quiet more := by
  refine Quiet.bind Quiet.u8 fun _ => Quiet.ite Quiet.pure (Quiet.bind ?_ fun _ => Quiet.pure)
  intro d s
  unfold back
  split <;> rfl

theorem Quiet.iterExt {body : UInt8 → Fast Unit} (h : ∀ t, Quiet (body t)) :
    Quiet (Fast.iterExt body) := by
  intro d s
  fun_induction Fast.iterExt body d s with
  | case1 s s1 hm a s2 hb hg ih =>
    have h1 := Quiet.more d s
    have h2 := Quiet.bind Quiet.u8 h d s1
    rw [hm] at h1; rw [hb] at h2
    exact ih.trans (h2.trans h1)
  | case2 s s1 hm a s2 hb hg =>
    have h1 := Quiet.more d s
    have h2 := Quiet.bind Quiet.u8 h d s1
    rw [hm] at h1; rw [hb] at h2
    exact h2.trans h1
  | case3 s s1 hm e s2 hb =>
    have h1 := Quiet.more d s
    have h2 := Quiet.bind Quiet.u8 h d s1
    rw [hm] at h1; rw [hb] at h2
    exact h2.trans h1
  | case4 s s1 hm => have h1 := Quiet.more d s; rwa [hm] at h1
  | case5 s e s1 hm => have h1 := Quiet.more d s; rwa [hm] at h1

theorem Whole.iterExt {body : UInt8 → Fast Unit} (h : ∀ t, Whole (body t)) :
    Whole (Fast.iterExt body) := by
  intro d s a s' hr
  fun_induction Fast.iterExt body d s with
  | case1 s s1 hm a s2 hb hg ih =>
    have h1 := Quiet.more d s
    have h2 := Whole.bind Quiet.u8.whole h d s1 _ _ hb
    rw [hm] at h1
    exact (ih hr).trans (h2.trans h1)
  | case2 s s1 hm a s2 hb hg => injection hr with hr _; cases hr
  | case3 s s1 hm e s2 hb => injection hr with hr _; cases hr
  | case4 s s1 hm =>
    have h1 := Quiet.more d s
    rw [hm] at h1
    injection hr with _ hr
    subst hr
    exact h1
  | case5 s e s1 hm => injection hr with hr _; cases hr

theorem Fwd.uint {n : Nat} : Fwd (uint n) := Fwd.bind (Fwd.bytes n) fun _ => Fwd.pure

theorem Quiet.uint {n : Nat} : Quiet (Fast.uint n) := Quiet.bind (Quiet.bytes n) fun _ => Quiet.pure

theorem Fwd.sint {n : Nat} : Fwd (sint n) := Fwd.bind Fwd.uint fun _ => Fwd.pure

theorem Quiet.sint {n : Nat} : Quiet (Fast.sint n) := Quiet.bind Quiet.uint fun _ => Quiet.pure

theorem Fwd.unat {n : Nat} : Fwd (unat n) := Fwd.bind Fwd.uint fun _ => Fwd.pure

theorem Quiet.unat {n : Nat} : Quiet (Fast.unat n) := Quiet.bind Quiet.uint fun _ => Quiet.pure

theorem Fwd.bool : Fwd bool := Fwd.bind Fwd.u8 fun _ => Fwd.pure

theorem Quiet.bool : Quiet Fast.bool := Quiet.bind Quiet.u8 fun _ => Quiet.pure

theorem Fwd.double : Fwd double := Fwd.bind Fwd.uint fun _ => Fwd.pure

theorem Quiet.double : Quiet Fast.double := Quiet.bind Quiet.uint fun _ => Quiet.pure

theorem Fwd.rate : Fwd rate := Fwd.bind Fwd.sint fun _ => Fwd.bind Fwd.sint fun _ => Fwd.pure

theorem Quiet.rate : Quiet Fast.rate :=
  Quiet.bind Quiet.sint fun _ => Quiet.bind Quiet.sint fun _ => Quiet.pure

theorem Fwd.data32 : Fwd data32 := Fwd.bind Fwd.uint fun _ => Fwd.bytes _

theorem Quiet.data32 : Quiet Fast.data32 := Quiet.bind Quiet.uint fun _ => Quiet.bytes _

theorem Fwd.data16 : Fwd data16 := Fwd.bind Fwd.uint fun _ => Fwd.ite (Fwd.bytes _) Fwd.pure

theorem Quiet.data16 : Quiet Fast.data16 :=
  Quiet.bind Quiet.uint fun _ => Quiet.ite (Quiet.bytes _) Quiet.pure

theorem Fwd.str : Fwd str := Fwd.bind Fwd.data16 fun _ => Fwd.pure

theorem Quiet.str : Quiet Fast.str := Quiet.bind Quiet.data16 fun _ => Quiet.pure

theorem Fwd.ref : Fwd ref := Fwd.uint

theorem Quiet.ref : Quiet Fast.ref := Quiet.uint

theorem Fwd.rawUuid : Fwd rawUuid := by
  refine Fwd.bind (Fwd.bytes _) fun b => ?_
  split
  · exact Fwd.pure
  · exact Fwd.stop (by decide)

theorem Quiet.rawUuid : Quiet Fast.rawUuid := by
  refine Quiet.bind (Quiet.bytes _) fun b => ?_
  split
  · exact Quiet.pure
  · exact Quiet.stop

theorem Fwd.opt {c : Bool} {f : Fast α} (h : Fwd f) : Fwd (opt c f) := by
  unfold Fast.opt
  exact Fwd.ite (Fwd.bind h fun _ => Fwd.pure) Fwd.pure

theorem Quiet.opt {c : Bool} {f : Fast α} (h : Quiet f) : Quiet (Fast.opt c f) := by
  unfold Fast.opt
  exact Quiet.ite (Quiet.bind h fun _ => Quiet.pure) Quiet.pure

theorem Fwd.dite {c : Prop} [Decidable c] {f : c → Fast α} {g : ¬c → Fast α} (h1 : ∀ h, Fwd (f h))
    (h2 : ∀ h, Fwd (g h)) : Fwd (if h : c then f h else g h) := by
  split
  · exact h1 _
  · exact h2 _

theorem Quiet.dite {c : Prop} [Decidable c] {f : c → Fast α} {g : ¬c → Fast α} (h1 : ∀ h, Quiet (f h))
    (h2 : ∀ h, Quiet (g h)) : Quiet (if h : c then f h else g h) := by
  split
  · exact h1 _
  · exact h2 _

/-- One step of the walk through the text of a reader. -/
macro "fwd1" : tactic => `(tactic| with_reducible first
  | exact Fwd.pure | exact Fwd.u8 | exact Fwd.tag | exact Fwd.bytes _ | exact Fwd.uint
  | exact Fwd.sint | exact Fwd.unat | exact Fwd.bool | exact Fwd.double | exact Fwd.rate
  | exact Fwd.data32 | exact Fwd.data16 | exact Fwd.str | exact Fwd.ref | exact Fwd.rawUuid
  | exact Fwd.put | exact Fwd.stop (by decide) | assumption
  | refine Fwd.bind ?_ (fun _ => ?_) | refine Fwd.ite ?_ ?_ | refine Fwd.ignore ?_
  | refine Fwd.keepShort ?_ | refine Fwd.times ?_ _ | refine Fwd.opt ?_
  | refine Fwd.each (fun _ => ?_) _ _ | refine Fwd.dite (fun _ => ?_) (fun _ => ?_))

/-- One step of the walk through the text of a reader. -/
macro "quiet1" : tactic => `(tactic| with_reducible first
  | exact Quiet.pure | exact Quiet.u8 | exact Quiet.tag | exact Quiet.bytes _ | exact Quiet.uint
  | exact Quiet.sint | exact Quiet.unat | exact Quiet.bool | exact Quiet.double | exact Quiet.rate
  | exact Quiet.data32 | exact Quiet.data16 | exact Quiet.str | exact Quiet.ref | exact Quiet.rawUuid
  | exact Quiet.put (fun _ => rfl) | exact Quiet.stop | assumption
  | refine Quiet.bind ?_ (fun _ => ?_) | refine Quiet.ite ?_ ?_ | refine Quiet.ignore ?_
  | refine Quiet.times ?_ _ | refine Quiet.opt ?_
  | refine Quiet.each (fun _ => ?_) _ _ | refine Quiet.dite (fun _ => ?_) (fun _ => ?_))

/-- A step forward of a reader with extension loops. -/
macro "safe1" : tactic => `(tactic| (
  with_reducible refine Safe.bind (Fwd.safe ?_) (fun _ => ?_)
  focus ((repeat fwd1); done)))

theorem Fwd.mobId : Fwd mobId := by unfold Fast.mobId; repeat fwd1

theorem Quiet.mobId : Quiet Fast.mobId := by unfold Fast.mobId; repeat quiet1

theorem fwd_compExt (t : UInt8) : Fwd (compExt t) := by unfold compExt; repeat fwd1

theorem quiet_comp : Quiet read_comp := by
  unfold read_comp
  repeat quiet1
  refine Quiet.iterExt fun t => ?_
  unfold compExt
  repeat quiet1

theorem safe_comp : Safe read_comp := by
  unfold read_comp
  repeat safe1
  exact Safe.iterExt fwd_compExt

theorem quiet_clip : Quiet read_clip := by
  unfold read_clip
  have := quiet_comp
  repeat quiet1

theorem safe_clip : Safe read_clip := by
  unfold read_clip
  refine Safe.bind (Safe.ignore safe_comp) fun _ => Fwd.safe ?_
  repeat fwd1

theorem quiet_sequence : Quiet read_sequence := by
  unfold read_sequence
  have := quiet_comp
  repeat quiet1

theorem safe_sequence : Safe read_sequence := by
  unfold read_sequence
  refine Safe.bind (Safe.ignore safe_comp) fun _ => Fwd.safe ?_
  repeat fwd1

theorem quiet_filler : Quiet read_filler := by
  unfold read_filler
  have := quiet_clip
  repeat quiet1

theorem safe_filler : Safe read_filler := by
  unfold read_filler
  refine Safe.bind (Safe.ignore safe_clip) fun _ => Fwd.safe ?_
  repeat fwd1

theorem fwd_sourceclipExt (t : UInt8) : Fwd (sourceclipExt t) := by
  unfold sourceclipExt
  have := Fwd.mobId
  repeat fwd1

theorem quiet_sourceclip : Quiet read_sourceclip := by
  unfold read_sourceclip
  have := quiet_clip
  have : Quiet (iterExt sourceclipExt) := Quiet.iterExt fun t => by
    unfold sourceclipExt
    have := Quiet.mobId
    repeat quiet1
  repeat quiet1

theorem safe_sourceclip : Safe read_sourceclip := by
  unfold read_sourceclip
  refine Safe.bind (Safe.ignore safe_clip) fun _ => ?_
  repeat safe1
  refine Safe.bind (Safe.iterExt fwd_sourceclipExt) fun _ => Fwd.safe ?_
  fwd1

theorem fwd_point (n : Nat) : Fwd (point n) := by
  unfold point pointValue pointProp propValue
  repeat fwd1

theorem quiet_point (n : Nat) : Quiet (point n) := by
  unfold point pointValue pointProp propValue
  repeat quiet1

theorem fwd_paramclipExt (t : UInt8) : Fwd (paramclipExt t) := by unfold paramclipExt; repeat fwd1

theorem quiet_paramclip : Quiet read_paramclip := by
  unfold read_paramclip
  have := quiet_clip
  have := quiet_point
  have : Quiet (iterExt paramclipExt) := Quiet.iterExt fun t => by
    unfold paramclipExt
    repeat quiet1
  repeat (first | quiet1 | exact quiet_point _)

theorem safe_paramclip : Safe read_paramclip := by
  unfold read_paramclip
  refine Safe.bind (Safe.ignore safe_clip) fun _ => ?_
  repeat safe1
  refine Safe.bind (Fwd.safe (Fwd.times (fwd_point _) _)) fun _ => ?_
  repeat safe1
  refine Safe.bind (Safe.iterExt fwd_paramclipExt) fun _ => Fwd.safe ?_
  fwd1

theorem fwd_itemValue (t : Int) : Fwd (itemValue t) := by unfold itemValue; repeat fwd1

theorem quiet_itemValue (t : Int) : Quiet (itemValue t) := by unfold itemValue; repeat quiet1

theorem fwd_paramitemExt (t : UInt8) : Fwd (paramitemExt t) := by unfold paramitemExt; repeat fwd1

theorem quiet_paramitem : Quiet read_paramitem := by
  unfold read_paramitem
  have : Quiet (iterExt paramitemExt) := Quiet.iterExt fun t => by
    unfold paramitemExt
    repeat quiet1
  repeat (first | quiet1 | exact quiet_itemValue _)

theorem safe_paramitem : Safe read_paramitem := by
  unfold read_paramitem
  repeat safe1
  refine Safe.bind (Fwd.safe (fwd_itemValue _)) fun _ => ?_
  repeat safe1
  refine Safe.bind (Safe.iterExt fwd_paramitemExt) fun _ => Fwd.safe ?_
  fwd1

theorem quiet_trackref : Quiet read_trackref := by
  unfold read_trackref
  have := quiet_clip
  repeat quiet1

theorem safe_trackref : Safe read_trackref := by
  unfold read_trackref
  refine Safe.bind (Safe.ignore safe_clip) fun _ => Fwd.safe ?_
  repeat fwd1

theorem fwd_oneTrack (i : Nat) : Fwd (oneTrack i) := by unfold oneTrack onTrack; repeat fwd1

theorem quiet_oneTrack (i : Nat) : Quiet (oneTrack i) := by unfold oneTrack onTrack; repeat quiet1

theorem fwd_trackgroupExt (n : Nat) (t : UInt8) : Fwd (trackgroupExt n t) := by
  unfold trackgroupExt
  refine Fwd.ite (Fwd.each (fun i => ?_) _ _) (Fwd.stop (by decide))
  unfold oneLock onTrack
  repeat fwd1

theorem quiet_trackgroup : Quiet read_trackgroup := by
  unfold read_trackgroup
  have := quiet_comp
  have : ∀ n, Quiet (iterExt (trackgroupExt n)) := fun n => Quiet.iterExt fun t => by
    unfold trackgroupExt
    refine Quiet.ite (Quiet.each (fun i => ?_) _ _) Quiet.stop
    unfold oneLock onTrack
    repeat quiet1
  repeat (first | quiet1 | exact quiet_oneTrack _ | exact this _)

theorem safe_trackgroup : Safe read_trackgroup := by
  unfold read_trackgroup
  refine Safe.bind (Safe.ignore safe_comp) fun _ => ?_
  repeat safe1
  refine Safe.ite (Fwd.safe (Fwd.stop (by decide))) ?_
  repeat safe1
  refine Safe.bind (Fwd.safe (Fwd.each fwd_oneTrack _ _)) fun _ => ?_
  exact Safe.iterExt (fwd_trackgroupExt _)

theorem fwd_trackeffectExt (t : UInt8) : Fwd (trackeffectExt t) := by
  unfold trackeffectExt; repeat fwd1

theorem quiet_trackeffect : Quiet read_trackeffect := by
  unfold read_trackeffect
  have := quiet_trackgroup
  have : Quiet (iterExt trackeffectExt) := Quiet.iterExt fun t => by
    unfold trackeffectExt
    repeat quiet1
  repeat quiet1

theorem safe_trackeffect : Safe read_trackeffect := by
  unfold read_trackeffect
  refine Safe.bind (Safe.ignore safe_trackgroup) fun _ => ?_
  repeat safe1
  exact Safe.iterExt fwd_trackeffectExt

theorem quiet_selector : Quiet read_selector := by
  unfold read_selector
  have := quiet_trackgroup
  repeat quiet1

theorem safe_selector : Safe read_selector := by
  unfold read_selector
  refine Safe.bind (Safe.ignore safe_trackgroup) fun _ => Fwd.safe ?_
  repeat fwd1

theorem fwd_compositionExt (t : UInt8) : Fwd (compositionExt t) := by
  unfold compositionExt
  have := Fwd.mobId
  repeat fwd1

theorem quiet_composition : Quiet read_composition := by
  unfold read_composition
  have := quiet_trackgroup
  have : Quiet (iterExt compositionExt) := Quiet.iterExt fun t => by
    unfold compositionExt
    have := Quiet.mobId
    repeat quiet1
  repeat quiet1

theorem safe_composition : Safe read_composition := by
  unfold read_composition
  refine Safe.bind (Safe.ignore safe_trackgroup) fun _ => ?_
  repeat safe1
  refine Safe.bind (Safe.iterExt fwd_compositionExt) fun _ => Fwd.safe ?_
  fwd1

theorem fwd_mediaExt (t : UInt8) : Fwd (mediaExt t) := by unfold mediaExt; repeat fwd1

theorem quiet_media : Quiet read_media_descriptor := by
  unfold read_media_descriptor
  have : Quiet (iterExt mediaExt) := Quiet.iterExt fun t => by
    unfold mediaExt
    repeat quiet1
  repeat quiet1

theorem safe_media : Safe read_media_descriptor := by
  unfold read_media_descriptor
  repeat safe1
  exact Safe.iterExt fwd_mediaExt

theorem quiet_mediafile : Quiet read_media_file_descriptor := by
  unfold read_media_file_descriptor
  have := quiet_media
  repeat quiet1

theorem safe_mediafile : Safe read_media_file_descriptor := by
  unfold read_media_file_descriptor
  refine Safe.bind safe_media fun _ => Fwd.safe ?_
  repeat fwd1

theorem fwd_didExt (t : UInt8) : Fwd (didExt t) := by
  unfold didExt box boxPoint
  repeat fwd1

theorem whole_box : Whole box := by
  unfold box boxPoint
  refine Whole.keepShort (Quiet.whole ?_)
  repeat quiet1

theorem whole_didExt (t : UInt8) : Whole (didExt t) := by
  unfold didExt
  repeat' refine Whole.ite ?_ ?_
  case refine_2.refine_2.refine_2.refine_2.refine_2.refine_2.refine_1 =>
    refine Whole.bind whole_box fun _ => Whole.bind (Quiet.whole (by quiet1)) fun _ => ?_
    refine Whole.bind whole_box fun _ => Whole.bind (Quiet.whole (by quiet1)) fun _ => ?_
    exact Whole.bind whole_box fun _ => Quiet.whole (by quiet1)
  case refine_2.refine_2.refine_2.refine_2.refine_2.refine_2.refine_2.refine_1 =>
    refine Whole.bind whole_box fun _ => Quiet.whole ?_
    repeat quiet1
  all_goals
    refine Quiet.whole ?_
    repeat quiet1

theorem safe_did : Safe read_did_descriptor := by
  unfold read_did_descriptor
  refine Safe.bind (Safe.ignore safe_mediafile) fun _ => ?_
  repeat safe1
  exact Safe.iterExt fwd_didExt

theorem whole_did : Whole read_did_descriptor := by
  unfold read_did_descriptor
  refine Whole.bind (Quiet.whole (Quiet.ignore quiet_mediafile)) fun _ => ?_
  repeat (with_reducible refine Whole.bind (Quiet.whole ?_) (fun _ => ?_); focus ((repeat quiet1); done))
  exact Whole.iterExt whole_didExt

theorem fwd_cdciExt (t : UInt8) : Fwd (cdciExt t) := by unfold cdciExt; repeat fwd1

theorem safe_cdci : Safe read_cdci_descriptor := by
  unfold read_cdci_descriptor
  refine Safe.bind (Safe.ignore safe_did) fun _ => ?_
  repeat safe1
  refine Safe.bind (Safe.iterExt fwd_cdciExt) fun _ => Fwd.safe ?_
  fwd1

theorem fwd_params : Fwd read_effectparamlist := by
  unfold read_effectparamlist effectParam
  repeat fwd1

theorem quiet_params : Quiet read_effectparamlist := by
  unfold read_effectparamlist effectParam
  repeat quiet1

theorem fwd_attributes : Fwd read_attributes := by
  unfold read_attributes attrItem attrValue
  repeat fwd1

end Avb.Fast

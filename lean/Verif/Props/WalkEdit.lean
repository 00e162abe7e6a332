import Verif.Model.WalkEdit
import Mathlib.Logic.Relation

/-!
C84: `walk_references` while the objects are changed between its steps.
-/
namespace Avb.WalkEdit

open Relation

/-! ### Specification -/

/-- A value leads to an object. -/
def Leads (h : Heap) (v : Val) (s : Nat) : Prop :=
  match v with
  | .plain _ => False
  | .obj r => s = r
  | .items l => s ∈ h.list l

/-- An object refers to another, in a property or as a list. -/
def Edge (h : Heap) (r s : Nat) : Prop :=
  match (h.node r).body with
  | .dict _ _ ps => ∃ p ∈ ps, Leads h p.2 s
  | .list l => s ∈ h.list l

/-- An object can be reached. -/
def Reaches (h : Heap) : Nat → Nat → Prop := ReflTransGen (Edge h)

/-- The lists of an object. -/
def Holds (n : Node) (l : Nat) : Prop :=
  match n.body with
  | .dict _ _ ps => ∃ p ∈ ps, p.2 = .items l
  | .list k => k = l

/-- Everything that can be reached from the object is the same in both. -/
def Same (h h' : Heap) (s : Nat) : Prop :=
  ∀ t, Reaches h s t → h.node t = h'.node t ∧ ∀ l, Holds (h.node t) l → h.list l = h'.list l

/-- The same for what a value leads to. -/
def SameVal (h h' : Heap) (v : Val) : Prop :=
  (∀ l, v = .items l → h.list l = h'.list l) ∧ ∀ s, Leads h v s → Same h h' s

/-- The same for what a loop still has before it: the properties and items from its position on, the number of properties
and the stamp; or it is a loop over an `OrderedDict` that has given all. -/
def SameFrame (h h' : Heap) : Frame → Prop
  | .enter r => Same h h' r
  | .dict r k n _ => (h.node r).yields = (h'.node r).yields ∧
      ∃ (o : Bool) (t t' : Nat) (ps ps' : List (String × Val)), (h.node r).body = .dict o t ps ∧
        (h'.node r).body = .dict o t' ps' ∧ ((o = true ∧ n ≤ k) ∨
          (t = t' ∧ ps.length = ps'.length ∧ ps.drop k = ps'.drop k ∧ ∀ p ∈ ps.drop k, SameVal h h' p.2))
  | .list l k o => (h.list l).drop k = (h'.list l).drop k ∧ (∀ s ∈ (h.list l).drop k, Same h h' s) ∧
      ∀ r, o = some r → (h.node r).yields = (h'.node r).yields

/-! ### Changes that are not seen -/

theorem Same.self {h h' : Heap} {r : Nat} (hr : Same h h' r) : h.node r = h'.node r := (hr r .refl).1

theorem Same.edge {h h' : Heap} {r s : Nat} (hr : Same h h' r) (he : Edge h r s) : Same h h' s :=
  fun t ht => hr t (ReflTransGen.head he ht)

theorem Same.val {h h' : Heap} {r : Nat} (hr : Same h h' r) {o : Bool} {t : Nat} {ps : List (String × Val)}
    (hb : (h.node r).body = .dict o t ps) {p : String × Val} (hp : p ∈ ps) : SameVal h h' p.2 := by
  refine ⟨fun l hl => (hr r .refl).2 l ?_, fun s hs => hr.edge ?_⟩
  · unfold Holds; rw [hb]; exact ⟨p, hp, hl⟩
  · unfold Edge; rw [hb]; exact ⟨p, hp, hs⟩

theorem Same.list {h h' : Heap} {r l : Nat} (hr : Same h h' r) (hb : (h.node r).body = .list l) :
    h.list l = h'.list l ∧ ∀ s ∈ h.list l, Same h h' s := by
  refine ⟨(hr r .refl).2 l ?_, fun s hs => hr.edge ?_⟩
  · unfold Holds; rw [hb]
  · unfold Edge; rw [hb]; exact hs

theorem push_same {h h' : Heap} {v : Val} (hv : SameVal h h' v) :
    push h v = push h' v ∧ ∀ f ∈ push h v, SameFrame h h' f := by
  cases v with
  | plain x => exact ⟨rfl, nofun⟩
  | obj r =>
    have hr : Same h h' r := hv.2 r rfl
    refine ⟨by simp only [push, hr.self], fun f hf => ?_⟩
    rcases List.mem_append.1 hf with hf | hf
    · cases hb : (h.node r).body with
      | dict o t ps => rw [hb] at hf; cases hf
      | list l =>
        rw [hb] at hf
        rw [List.mem_singleton.1 hf]
        exact ⟨by rw [(hr.list hb).1], (hr.list hb).2, nofun⟩
    · split at hf
      · rw [List.mem_singleton.1 hf]; exact hr
      · cases hf
  | items l =>
    refine ⟨rfl, fun f hf => ?_⟩
    rw [List.mem_singleton.1 hf]
    exact ⟨by rw [hv.1 l rfl], fun s hs => hv.2 s hs, nofun⟩

theorem step_same {h h' : Heap} {fs : List Frame} (hf : ∀ f ∈ fs, SameFrame h h' f) :
    step h fs = step h' fs ∧ ∀ f ∈ (step h fs).1, SameFrame h h' f := by
  cases fs with
  | nil => exact ⟨rfl, nofun⟩
  | cons f fs =>
    have ht : ∀ f ∈ fs, SameFrame h h' f := fun g hg => hf g (List.mem_cons_of_mem _ hg)
    have h0 := hf f List.mem_cons_self
    have cons : ∀ {g}, SameFrame h h' g → ∀ f ∈ g :: fs, SameFrame h h' f := by
      intro g hg f hf
      rcases List.mem_cons.1 hf with rfl | hf
      · exact hg
      · exact ht f hf
    cases f with
    | enter r =>
      have hr : Same h h' r := h0
      have hs := hr.self
      cases hb : (h.node r).body with
      | dict o t ps =>
        have hb' := hb
        rw [hs] at hb'
        simp only [step, hb, hb']
        exact ⟨trivial, cons ⟨by rw [hs], o, t, t, ps, ps, hb, hb', .inr ⟨rfl, rfl, rfl, fun p hp => hr.val hb hp⟩⟩⟩
      | list l =>
        have hb' := hb
        rw [hs] at hb'
        simp only [step, hb, hb']
        refine ⟨trivial, cons ⟨by rw [(hr.list hb).1], (hr.list hb).2, ?_⟩⟩
        intro r' e
        cases e
        rw [hs]
    | dict r k n t =>
      obtain ⟨hy, o, u, u', ps, ps', hb, hb', hor⟩ := h0
      simp only [step, hb, hb']
      by_cases hdone : o = true ∧ n ≤ k
      · simp only [if_pos hdone]
        exact ⟨by simp only [finish, hy], ht⟩
      · obtain ⟨rfl, hl, hd, hv⟩ := hor.resolve_left hdone
        have hg : ps[k]? = ps'[k]? := by
          have := congrArg (·[0]?) hd
          simpa [List.getElem?_drop] using this
        simp only [if_neg hdone, ← hl, ← hg]
        split
        · exact ⟨rfl, nofun⟩
        · split
          · exact ⟨rfl, nofun⟩
          · split
            · exact ⟨rfl, nofun⟩
            · cases hk : ps[k]? with
              | none => exact ⟨by simp only [finish, hy], ht⟩
              | some p =>
                have hlt := (List.getElem?_eq_some_iff.1 hk).1
                have hcons : ps.drop k = p :: ps.drop (k + 1) := by
                  rw [List.drop_eq_getElem_cons hlt, (List.getElem?_eq_some_iff.1 hk).2]
                obtain ⟨h1, h2⟩ := push_same (hv p (by rw [hcons]; exact List.mem_cons_self))
                refine ⟨by dsimp only; rw [h1], fun f hf => ?_⟩
                rcases List.mem_append.1 hf with hf | hf
                · exact h2 f hf
                · refine cons (g := .dict r (k + 1) n t) ⟨hy, o, u, u, ps, ps', hb, hb', .inr ⟨rfl, hl, ?_, fun q hq => hv q ?_⟩⟩ f hf
                  · rw [← List.drop_drop, ← List.drop_drop, hd]
                  · rw [hcons]; exact List.mem_cons_of_mem _ hq
    | list l k o =>
      obtain ⟨hd, hv, ho⟩ := h0
      have hg : (h.list l)[k]? = (h'.list l)[k]? := by
        have := congrArg (·[0]?) hd
        simpa [List.getElem?_drop] using this
      simp only [step, ← hg]
      cases hk : (h.list l)[k]? with
      | none =>
        refine ⟨?_, ht⟩
        cases o with
        | none => rfl
        | some r => simp only [finish, ho r rfl]
      | some s =>
        have hlt := (List.getElem?_eq_some_iff.1 hk).1
        have hcons : (h.list l).drop k = s :: (h.list l).drop (k + 1) := by
          rw [List.drop_eq_getElem_cons hlt, (List.getElem?_eq_some_iff.1 hk).2]
        have hs : Same h h' s := hv s (by rw [hcons]; exact List.mem_cons_self)
        obtain ⟨h1, h2⟩ := push_same (v := .obj s) ⟨nofun, fun t e => by cases e; exact hs⟩
        refine ⟨by dsimp only; rw [h1], fun f hf => ?_⟩
        rcases List.mem_append.1 hf with hf | hf
        · cases o with
          | none => rw [List.mem_singleton.1 hf]; exact hs
          | some r => exact h2 f hf
        · refine cons (g := .list l (k + 1) o) ⟨?_, fun q hq => hv q ?_, ho⟩ f hf
          · rw [← List.drop_drop, ← List.drop_drop, hd]
          · rw [hcons]; exact List.mem_cons_of_mem _ hq

/-- C84: what the walk does from a moment on depends only on what its loops still have before them: the properties not yet
passed, how many properties the objects on the way have, the items of lists not yet passed, and all that can be reached
from there.  Any other change by the caller makes no difference. -/
theorem C84_unseen {h h' : Heap} {fs : List Frame} (hf : ∀ f ∈ fs, SameFrame h h' f) (n : Nat) :
    steps h n fs = steps h' n fs := by
  induction n generalizing fs with
  | zero => rfl
  | succ n ih =>
    obtain ⟨h1, h2⟩ := step_same hf
    have := ih h2
    simp only [steps, ← h1]
    rcases hs : step h fs with ⟨gs, o⟩
    rw [hs] at this
    cases o with
    | silent => exact this
    | yielded r => dsimp only at this ⊢; rw [this]
    | raised => rfl
    | unknown => rfl

/-- The heap with another object in the place of `r`. -/
def Heap.put (h : Heap) (r : Nat) (n : Node) : Heap := { h with node := fun s => if s = r then n else h.node s }

/-- The object does not come any more in this loop: it is not the one that is walked, and cannot be reached from
what is left. -/
def Clear (h : Heap) (r : Nat) : Frame → Prop
  | .enter s => ¬ Reaches h s r
  | .dict s k _ _ => s ≠ r ∧ ∃ o t ps, (h.node s).body = .dict o t ps ∧
      ∀ p ∈ ps.drop k, ∀ t, Leads h p.2 t → ¬ Reaches h t r
  | .list l k o => o ≠ some r ∧ ∀ t ∈ (h.list l).drop k, ¬ Reaches h t r

theorem same_put {h : Heap} {r : Nat} (n : Node) {s : Nat} (hs : ¬ Reaches h s r) : Same h (h.put r n) s := by
  intro t ht
  refine ⟨?_, fun _ _ => rfl⟩
  have : t ≠ r := fun e => hs (e ▸ ht)
  simp only [Heap.put, if_neg this]

theorem same_clear {h : Heap} {r : Nat} (new : Node) {f : Frame} (this : Clear h r f) : SameFrame h (h.put r new) f := by
  cases f with
  | enter s => exact same_put _ this
  | dict s k n t =>
    obtain ⟨h1, o, u, ps, h2, h3⟩ := this
    have e : (h.put r new).node s = h.node s := by simp only [Heap.put, if_neg h1]
    exact ⟨by rw [e], o, u, u, ps, ps, h2, by rw [e]; exact h2, .inr ⟨rfl, rfl, rfl,
      fun p hp => ⟨fun _ _ => rfl, fun t ht => same_put _ (h3 p hp t ht)⟩⟩⟩
  | list l k o =>
    refine ⟨rfl, fun t ht => same_put _ (this.2 t ht), fun s hs => ?_⟩
    have : s ≠ r := fun e => this.1 (e ▸ hs)
    simp only [Heap.put, if_neg this]

/-- C84: an object that does not come any more, such as one of a tree that was yielded, may be changed in any way: new
properties, other references, properties taken away. -/
theorem C84_yielded {h : Heap} {r : Nat} {fs : List Frame} (hf : ∀ f ∈ fs, Clear h r f) (new : Node) (n : Nat) :
    steps (h.put r new) n fs = steps h n fs :=
  (C84_unseen (fun f hm => same_clear new (hf f hm)) n).symm

/-- C84: a property of an object on the way that the walk has passed may be assigned again, with whatever
references, if the object does not come a second time. -/
theorem C84_assigned {h : Heap} {r k m u t : Nat} {pre fs : List Frame} {y o : Bool} {ps : List (String × Val)}
    (hn : h.node r = ⟨y, .dict o u ps⟩) (hpre : ∀ f ∈ pre, Clear h r f) (hfs : ∀ f ∈ fs, Clear h r f)
    (hk : ∀ p ∈ ps.drop k, ∀ t, Leads h p.2 t → ¬ Reaches h t r) {j : Nat} (hj : j < k) (p : String × Val) (n : Nat) :
    steps (h.put r ⟨y, .dict o u (ps.set j p)⟩) n (pre ++ .dict r k m t :: fs) = steps h n (pre ++ .dict r k m t :: fs) := by
  refine (C84_unseen (fun f hm => ?_) n).symm
  rcases List.mem_append.1 hm with hm | hm
  · exact same_clear _ (hpre f hm)
  · rcases List.mem_cons.1 hm with rfl | hm
    · refine ⟨by simp only [Heap.put, if_true, hn], o, u, u, ps, ps.set j p, by rw [hn], by simp only [Heap.put, if_true],
        .inr ⟨rfl, by simp, ?_, fun q hq => ⟨fun _ _ => rfl, fun t ht => same_put _ (hk q hq t ht)⟩⟩⟩
      rw [List.drop_set, if_pos hj]
    · exact same_clear _ (hfs f hm)

/-- C84: while the walk is in the last property of an object with an `OrderedDict`, properties may be added to the object
or deleted; nothing is raised, and what was added is not walked. -/
theorem C84_last {h : Heap} {r k m u u' t : Nat} {pre fs : List Frame} {y : Bool} {ps ps' : List (String × Val)}
    (hn : h.node r = ⟨y, .dict true u ps⟩) (hpre : ∀ f ∈ pre, Clear h r f) (hfs : ∀ f ∈ fs, Clear h r f) (hk : m ≤ k)
    (n : Nat) :
    steps (h.put r ⟨y, .dict true u' ps'⟩) n (pre ++ .dict r k m t :: fs) = steps h n (pre ++ .dict r k m t :: fs) := by
  refine (C84_unseen (fun f hm => ?_) n).symm
  rcases List.mem_append.1 hm with hm | hm
  · exact same_clear _ (hpre f hm)
  · rcases List.mem_cons.1 hm with rfl | hm
    · exact ⟨by simp only [Heap.put, if_true, hn], true, u, u', ps, ps', by rw [hn], by simp only [Heap.put, if_true],
        .inl ⟨rfl, hk⟩⟩
    · exact same_clear _ (hfs f hm)

/-! ### Changes that raise -/

/-- The loops run to the end of `fs` and then go on with `gs`. -/
def Runs (h : Heap) (fs : List Frame) (out : List Nat) (gs : List Frame) : Prop :=
  ∃ m, ∀ j, steps h (m + j) fs = (out ++ (steps h j gs).1, (steps h j gs).2)

theorem Runs.refl {h : Heap} {fs : List Frame} : Runs h fs [] fs := ⟨0, fun j => by rw [Nat.zero_add]; rfl⟩

theorem Runs.trans {h : Heap} {fs gs ks : List Frame} {a b : List Nat} (h1 : Runs h fs a gs) (h2 : Runs h gs b ks) :
    Runs h fs (a ++ b) ks := by
  obtain ⟨m, h1⟩ := h1
  obtain ⟨m', h2⟩ := h2
  refine ⟨m + m', fun j => ?_⟩
  rw [Nat.add_assoc, h1, h2, List.append_assoc]

theorem Runs.one {h : Heap} {fs gs : List Frame} (hs : step h fs = (gs, .silent)) : Runs h fs [] gs :=
  ⟨1, fun j => by rw [Nat.add_comm, steps, hs]; rfl⟩

theorem Runs.fin {h : Heap} {fs gs : List Frame} {r : Nat} (hs : step h fs = (gs, finish h r)) :
    Runs h fs (if (h.node r).yields then [r] else []) gs := by
  refine ⟨1, fun j => ?_⟩
  rw [Nat.add_comm, steps, hs]
  cases hy : (h.node r).yields <;> simp [finish, hy]

theorem step_append {h : Heap} {f : Frame} {fs gs : List Frame} (hn : (step h (f :: fs)).2 ≠ .raised)
    (hu : (step h (f :: fs)).2 ≠ .unknown) :
    step h (f :: fs ++ gs) = ((step h (f :: fs)).1 ++ gs, (step h (f :: fs)).2) := by
  cases f with
  | enter r =>
    simp only [step, List.cons_append] at hn ⊢
    split <;> rfl
  | dict r k n t =>
    simp only [step, List.cons_append] at hn hu ⊢
    cases hb : (h.node r).body with
    | list l => rw [hb] at hn; exact (hn rfl).elim
    | dict o u ps =>
      rw [hb] at hn hu
      dsimp only at hn hu ⊢
      split
      · rfl
      · rename_i e
        rw [if_neg e] at hn hu
        split
        · rename_i e; rw [if_pos e] at hn; exact (hn rfl).elim
        · rename_i e
          rw [if_neg e] at hn hu
          split
          · rename_i e; rw [if_pos e] at hn; exact (hn rfl).elim
          · rename_i e
            rw [if_neg e] at hn hu
            split
            · rename_i e; rw [if_pos e] at hu; exact (hu rfl).elim
            · split
              · rfl
              · simp
  | list l k o =>
    simp only [step, List.cons_append]
    split
    · rfl
    · simp

theorem steps_append {h : Heap} (m : Nat) {fs : List Frame} {out : List Nat} (hs : steps h m fs = (out, [], .fine))
    (gs : List Frame) : Runs h (fs ++ gs) out gs := by
  induction m generalizing fs out with
  | zero =>
    simp only [steps, Prod.mk.injEq] at hs
    obtain ⟨rfl, rfl, _⟩ := hs
    exact .refl
  | succ m ih =>
    cases fs with
    | nil =>
      have : ∀ n, steps h n [] = ([], [], .fine) := by
        intro n
        induction n with
        | zero => rfl
        | succ n ih => exact ih
      rw [this] at hs
      cases hs
      exact .refl
    | cons f fs =>
      rw [steps] at hs
      have key := step_append (h := h) (f := f) (fs := fs) (gs := gs)
      rcases hst : step h (f :: fs) with ⟨ks, o⟩
      rw [hst] at hs key
      cases o with
      | raised => cases hs
      | unknown => cases hs
      | silent => exact (Runs.one (key nofun nofun)).trans (ih hs)
      | yielded r =>
        simp only [Prod.mk.injEq] at hs
        obtain ⟨rfl, hs2⟩ := hs
        obtain ⟨q, hq⟩ := ih (fs := ks) (out := (steps h m ks).1) (by rw [← hs2])
        refine ⟨q + 1, fun j => ?_⟩
        rw [show q + 1 + j = q + j + 1 by omega, steps, key nofun nofun]
        dsimp only
        rw [hq]
        rfl

/-- C84: if the caller adds a property to an object on the way to the present one, or deletes one, the walk goes on
inside, and raises `RuntimeError` when it is back at that object; nothing outside of it is yielded, nor the object
itself.  With a plain dictionary that is so if the number of properties is another; with an `OrderedDict` also if it is
the same, but not in the last property (`C84_last`). -/
theorem C84_raises {h : Heap} {pre fs : List Frame} {r k n t u m : Nat} {o : Bool} {out : List Nat} {ps : List (String × Val)}
    (hp : steps h m pre = (out, [], .fine)) (hb : (h.node r).body = .dict o u ps)
    (hl : if o then k < n ∧ u ≠ t else ps.length ≠ n) :
    ∃ q, ∀ j, steps h (q + j) (pre ++ .dict r k n t :: fs) = (out, [], .raised) := by
  obtain ⟨q, hq⟩ := steps_append m hp (.dict r k n t :: fs)
  refine ⟨q + 1, fun j => ?_⟩
  rw [Nat.add_assoc, hq, Nat.add_comm 1 j, steps]
  cases o with
  | true =>
    rw [if_pos rfl] at hl
    simp [step, hb, hl.2, Nat.not_le.2 hl.1]
  | false =>
    simp only [Bool.false_eq_true, if_false] at hl
    simp [step, hb, hl]

/-! ### Without changes -/

/-- What a value gives, where `g` is the walk of an object: a list is walked item by item; then the value itself, if it
has a class id. -/
def inValue (h : Heap) (g : Nat → Option (List Nat)) : Val → Option (List Nat)
  | .plain _ => some []
  | .items l => ((h.list l).mapM g).map List.flatten
  | .obj s =>
    (match (h.node s).body with
      | .list l => ((h.list l).mapM g).map List.flatten
      | .dict .. => some []).bind fun a => (if (h.node s).yields then g s else some []).map fun b => a ++ b

/-- The values of an object. -/
def values (h : Heap) (r : Nat) : List Val :=
  match (h.node r).body with
  | .dict _ _ ps => ps.map Prod.snd
  | .list l => (h.list l).map .obj

/-- The recursive walk, to a depth: what is inside, in order, and then the object itself if it has a class id. -/
def post (h : Heap) : Nat → Nat → Option (List Nat)
  | 0, _ => none
  | d + 1, r => ((values h r).mapM (inValue h (post h d))).map fun inside =>
      inside.flatten ++ if (h.node r).yields then [r] else []

theorem runs_items {h : Heap} {g : Nat → Option (List Nat)} {l : Nat}
    (ih : ∀ r out, g r = some out → ∀ fs, Runs h (.enter r :: fs) out fs) (fs : List Frame) :
    ∀ (q : List Nat) k, (h.list l).drop k = q → ∀ outs, q.mapM g = some outs →
      Runs h (.list l k none :: fs) outs.flatten fs := by
  intro q
  induction q with
  | nil =>
    intro k hk outs ho
    cases ho
    have hk : (h.list l)[k]? = none := List.getElem?_eq_none (List.drop_eq_nil_iff.1 hk)
    exact Runs.one (by simp only [step, hk])
  | cons s q ihq =>
    intro k hk outs ho
    have hlt : k < (h.list l).length := by
      refine Nat.lt_of_not_le fun hc => ?_
      rw [List.drop_eq_nil_of_le hc] at hk
      cases hk
    rw [List.drop_eq_getElem_cons hlt] at hk
    injection hk with h1 h2
    rw [List.mapM_cons] at ho
    obtain ⟨a, ha, ho⟩ := Option.bind_eq_some_iff.1 ho
    obtain ⟨b, hq, ho⟩ := Option.bind_eq_some_iff.1 ho
    cases ho
    have e : step h (.list l k none :: fs) = (.enter s :: .list l (k + 1) none :: fs, .silent) := by
      simp only [step, List.getElem?_eq_getElem hlt, h1, List.singleton_append]
    have := (Runs.one e).trans ((ih s a ha _).trans (ihq (k + 1) h2 b hq))
    simpa only [List.nil_append, List.flatten_cons] using this

theorem runs_values {h : Heap} {g : Val → Option (List Nat)} {r t : Nat} {o : Bool} {ps : List (String × Val)}
    (hb : (h.node r).body = .dict o t ps) (ih : ∀ v out, g v = some out → ∀ fs, Runs h (push h v ++ fs) out fs)
    (fs : List Frame) :
    ∀ (q : List (String × Val)) k, ps.drop k = q → ∀ outs, (q.map Prod.snd).mapM g = some outs →
      Runs h (.dict r k ps.length t :: fs) (outs.flatten ++ if (h.node r).yields then [r] else []) fs := by
  intro q
  induction q with
  | nil =>
    intro k hk outs ho
    cases ho
    have hk : ps[k]? = none := List.getElem?_eq_none (List.drop_eq_nil_iff.1 hk)
    exact Runs.fin (by simp [step, hb, hk])
  | cons p q ihq =>
    intro k hk outs ho
    have hlt : k < ps.length := by
      refine Nat.lt_of_not_le fun hc => ?_
      rw [List.drop_eq_nil_of_le hc] at hk
      cases hk
    rw [List.drop_eq_getElem_cons hlt] at hk
    injection hk with h3 h4
    rw [List.map_cons, List.mapM_cons] at ho
    obtain ⟨a, ha, ho⟩ := Option.bind_eq_some_iff.1 ho
    obtain ⟨b, hq, ho⟩ := Option.bind_eq_some_iff.1 ho
    cases ho
    have e : step h (.dict r k ps.length t :: fs) = (push h p.2 ++ .dict r (k + 1) ps.length t :: fs, .silent) := by
      simp [step, hb, h3, hlt, Nat.not_le.2 hlt]
    have := (Runs.one e).trans ((ih p.2 a ha _).trans (ihq (k + 1) h4 b hq))
    simpa only [List.nil_append, List.flatten_cons, List.append_assoc] using this

theorem runs_objects {h : Heap} {g : Val → Option (List Nat)} {r l : Nat}
    (ih : ∀ v out, g v = some out → ∀ fs, Runs h (push h v ++ fs) out fs) (fs : List Frame) :
    ∀ (q : List Nat) k, (h.list l).drop k = q → ∀ outs, (q.map Val.obj).mapM g = some outs →
      Runs h (.list l k (some r) :: fs) (outs.flatten ++ if (h.node r).yields then [r] else []) fs := by
  intro q
  induction q with
  | nil =>
    intro k hk outs ho
    cases ho
    have hk : (h.list l)[k]? = none := List.getElem?_eq_none (List.drop_eq_nil_iff.1 hk)
    exact Runs.fin (by simp [step, hk])
  | cons s q ihq =>
    intro k hk outs ho
    have hlt : k < (h.list l).length := by
      refine Nat.lt_of_not_le fun hc => ?_
      rw [List.drop_eq_nil_of_le hc] at hk
      cases hk
    rw [List.drop_eq_getElem_cons hlt] at hk
    injection hk with h3 h4
    rw [List.map_cons, List.mapM_cons] at ho
    obtain ⟨a, ha, ho⟩ := Option.bind_eq_some_iff.1 ho
    obtain ⟨b, hq, ho⟩ := Option.bind_eq_some_iff.1 ho
    cases ho
    have e : step h (.list l k (some r) :: fs) = (push h (.obj s) ++ .list l (k + 1) (some r) :: fs, .silent) := by
      simp only [step, List.getElem?_eq_getElem hlt, h3]
    have := (Runs.one e).trans ((ih (.obj s) a ha _).trans (ihq (k + 1) h4 b hq))
    simpa only [List.nil_append, List.flatten_cons, List.append_assoc] using this

theorem runs_value {h : Heap} {g : Nat → Option (List Nat)}
    (ih : ∀ r out, g r = some out → ∀ fs, Runs h (.enter r :: fs) out fs) :
    ∀ v out, inValue h g v = some out → ∀ fs, Runs h (push h v ++ fs) out fs := by
  intro v out hv fs
  cases v with
  | plain x => cases hv; exact .refl
  | items l =>
    obtain ⟨outs, h1, rfl⟩ := Option.map_eq_some_iff.1 hv
    exact runs_items ih fs _ 0 rfl outs h1
  | obj s =>
    obtain ⟨a, h1, h2⟩ := Option.bind_eq_some_iff.1 hv
    obtain ⟨b, h3, rfl⟩ := Option.map_eq_some_iff.1 h2
    simp only [push]
    rw [List.append_assoc]
    have second : Runs h ((if (h.node s).yields then [Frame.enter s] else []) ++ fs) b fs := by
      split at h3
      · rename_i hy; rw [if_pos hy]; exact ih s b h3 fs
      · rename_i hy; rw [if_neg hy]; cases h3; exact .refl
    refine Runs.trans ?_ second
    cases hb : (h.node s).body with
    | dict o t ps => rw [hb] at h1; cases h1; exact .refl
    | list l =>
      rw [hb] at h1
      obtain ⟨outs, h4, rfl⟩ := Option.map_eq_some_iff.1 h1
      exact runs_items ih _ _ 0 rfl outs h4

theorem post_runs {h : Heap} (d : Nat) : ∀ r out, post h d r = some out → ∀ fs, Runs h (.enter r :: fs) out fs := by
  induction d with
  | zero => intro r out hp; cases hp
  | succ d ih =>
    intro r out hp fs
    rw [post] at hp
    obtain ⟨outs, h2, rfl⟩ := Option.map_eq_some_iff.1 hp
    unfold values at h2
    cases hb : (h.node r).body with
    | list l =>
      rw [hb] at h2
      have e : step h (.enter r :: fs) = (.list l 0 (some r) :: fs, .silent) := by simp only [step, hb]
      exact (Runs.one e).trans (runs_objects (runs_value ih) fs _ 0 rfl outs h2)
    | dict o t ps =>
      rw [hb] at h2
      have e : step h (.enter r :: fs) = (.dict r 0 ps.length t :: fs, .silent) := by simp only [step, hb]
      exact (Runs.one e).trans (runs_values hb (runs_value ih) fs _ 0 rfl outs h2)

/-- C84: with nothing changed, the walk of an object of finite depth yields what the recursive walk gives, and ends. -/
theorem C84_walk {h : Heap} {d r : Nat} {out : List Nat} (hp : post h d r = some out) :
    ∃ m, ∀ j, steps h (m + j) [.enter r] = (out, [], .fine) := by
  have nil : ∀ n, steps h n [] = ([], [], .fine) := by
    intro n
    induction n with
    | zero => rfl
    | succ n ih => exact ih
  obtain ⟨m, hm⟩ := post_runs d r out hp []
  refine ⟨m, fun j => ?_⟩
  rw [hm, nil, List.append_nil]

/-! ### When the walk ends -/

theorem step_raised {h : Heap} {f : Frame} {fs gs : List Frame} (o : Out) (ho : o = .raised ∨ o = .unknown)
    (hn : (step h (f :: fs)).2 = o) : (step h (f :: fs ++ gs)).2 = o := by
  have fin : ∀ r, finish h r ≠ o := by
    intro r e
    unfold finish at e
    rcases ho with rfl | rfl <;> split at e <;> cases e
  have sil : Out.silent ≠ o := by rcases ho with rfl | rfl <;> nofun
  cases f with
  | enter r => simp only [step] at hn; split at hn <;> exact (sil hn).elim
  | dict r k n t =>
    simp only [step, List.cons_append] at hn ⊢
    cases hb : (h.node r).body with
    | list l => rw [hb] at hn; exact hn
    | dict o' u ps =>
      rw [hb] at hn
      dsimp only at hn ⊢
      by_cases e1 : o' = true ∧ n ≤ k
      · rw [if_pos e1] at hn; exact (fin r hn).elim
      · rw [if_neg e1] at hn ⊢
        by_cases e2 : o' = true ∧ u ≠ t
        · rw [if_pos e2] at hn ⊢; exact hn
        · rw [if_neg e2] at hn ⊢
          by_cases e3 : ¬ o' = true ∧ ps.length ≠ n
          · rw [if_pos e3] at hn ⊢; exact hn
          · rw [if_neg e3] at hn ⊢
            by_cases e4 : ¬ o' = true ∧ u ≠ t
            · rw [if_pos e4] at hn ⊢; exact hn
            · rw [if_neg e4] at hn ⊢
              cases hk : ps[k]? with
              | none => rw [hk] at hn; exact (fin r hn).elim
              | some p => rw [hk] at hn; exact (sil hn).elim
  | list l k o' =>
    simp only [step, List.cons_append] at hn ⊢
    cases hk : (h.list l)[k]? with
    | none => rw [hk] at hn; exact hn
    | some p => rw [hk] at hn; exact (sil hn).elim

/-- The loops come to their end, within a number of steps. -/
def Ends (h : Heap) (m : Nat) (fs : List Frame) : Prop := ∃ q ≤ m, ∃ out, steps h q fs = (out, [], .fine)

theorem Ends.step {h : Heap} {m : Nat} {f : Frame} {fs : List Frame} (he : Ends h m (f :: fs)) :
    ∃ q, m = q + 1 ∧ ((WalkEdit.step h (f :: fs)).2 ≠ .raised ∧ (WalkEdit.step h (f :: fs)).2 ≠ .unknown) ∧ Ends h q (WalkEdit.step h (f :: fs)).1 := by
  obtain ⟨q, hq, out, hs⟩ := he
  cases q with
  | zero => cases hs
  | succ q =>
    rw [steps] at hs
    refine ⟨m - 1, by omega, ?_⟩
    rcases hst : WalkEdit.step h (f :: fs) with ⟨ks, o⟩
    rw [hst] at hs
    cases o with
    | raised => cases hs
    | unknown => cases hs
    | silent => exact ⟨⟨nofun, nofun⟩, q, by omega, out, hs⟩
    | yielded r =>
      simp only [Prod.mk.injEq] at hs
      exact ⟨⟨nofun, nofun⟩, q, by omega, _, Prod.ext rfl hs.2⟩

theorem Ends.mono {h : Heap} {m n : Nat} {fs : List Frame} (he : Ends h m fs) (hm : m ≤ n) : Ends h n fs := by
  obtain ⟨q, hq, r⟩ := he
  exact ⟨q, Nat.le_trans hq hm, r⟩

theorem Ends.cons {h : Heap} {m : Nat} {f : Frame} {fs : List Frame} (hn : (WalkEdit.step h (f :: fs)).2 ≠ .raised)
    (hu : (WalkEdit.step h (f :: fs)).2 ≠ .unknown) (he : Ends h m (WalkEdit.step h (f :: fs)).1) : Ends h (m + 1) (f :: fs) := by
  obtain ⟨q, hq, out, hs⟩ := he
  refine ⟨q + 1, by omega, ?_⟩
  rw [steps]
  rcases hst : WalkEdit.step h (f :: fs) with ⟨ks, o⟩
  rw [hst] at hs hn hu
  dsimp only at hs
  cases o with
  | raised => exact (hn rfl).elim
  | unknown => exact (hu rfl).elim
  | silent => exact ⟨out, hs⟩
  | yielded r => exact ⟨r :: out, by dsimp only; rw [hs]⟩

theorem Ends.split {h : Heap} {gs : List Frame} (m : Nat) {fs : List Frame} (he : Ends h m (fs ++ gs)) :
    Ends h m fs ∧ Ends h m gs := by
  induction m generalizing fs with
  | zero =>
    obtain ⟨q, hq, out, hs⟩ := he
    obtain rfl : q = 0 := by omega
    simp only [steps, Prod.mk.injEq, List.append_eq_nil_iff] at hs
    obtain ⟨_, ⟨rfl, rfl⟩, _⟩ := hs
    exact ⟨⟨0, Nat.le_refl _, [], rfl⟩, ⟨0, Nat.le_refl _, [], rfl⟩⟩
  | succ m ih =>
    cases fs with
    | nil => exact ⟨⟨0, Nat.zero_le _, [], rfl⟩, he⟩
    | cons f fs =>
      obtain ⟨q, hq, h1, h2⟩ := Ends.step (fs := fs ++ gs) he
      obtain rfl : m = q := by omega
      have hn : (WalkEdit.step h (f :: fs)).2 ≠ .raised := fun e => h1.1 (step_raised _ (.inl rfl) e)
      have hu : (WalkEdit.step h (f :: fs)).2 ≠ .unknown := fun e => h1.2 (step_raised _ (.inr rfl) e)
      rw [← List.cons_append, step_append hn hu] at h2
      obtain ⟨h3, h4⟩ := ih h2
      exact ⟨h3.cons hn hu, h4.mono (by omega)⟩

theorem mapM_isSome {α β : Type} (g : α → Option β) (l : List α) : (l.mapM g).isSome ↔ ∀ x ∈ l, (g x).isSome := by
  induction l with
  | nil => exact ⟨fun _ => nofun, fun _ => rfl⟩
  | cons x l ih =>
    rw [List.mapM_cons]
    simp only [List.mem_cons, forall_eq_or_imp, ← ih]
    cases g x with
    | none => simp
    | some y =>
      cases l.mapM g with
      | none => simp
      | some ys => simp

theorem ends_items {h : Heap} {l : Nat} : ∀ m k, Ends h m [.list l k none] → ∀ s ∈ (h.list l).drop k,
    Ends h m [.enter s] := by
  intro m
  induction m with
  | zero =>
    intro k he
    obtain ⟨_, hq, _⟩ := he.step
    cases hq
  | succ m ih =>
    intro k he s hs
    obtain ⟨q, hq, _, h2⟩ := he.step
    obtain rfl : m = q := by omega
    have hlt : k < (h.list l).length := by
      refine Nat.lt_of_not_le fun hc => ?_
      rw [List.drop_eq_nil_of_le hc] at hs
      cases hs
    simp only [step, List.getElem?_eq_getElem hlt] at h2
    obtain ⟨h3, h4⟩ := h2.split
    rw [List.drop_eq_getElem_cons hlt] at hs
    rcases List.mem_cons.1 hs with rfl | hs
    · exact h3.mono (by omega)
    · exact (ih (k + 1) h4 s hs).mono (by omega)

theorem ends_values {h : Heap} {r : Nat} : ∀ m, Ends h m [.enter r] → ∃ q, m = q + 1 ∧ ∀ v ∈ values h r, Ends h q (push h v) := by
  intro m he
  obtain ⟨m, rfl, _, he⟩ := he.step
  refine ⟨m, rfl, ?_⟩
  simp only [step] at he
  unfold values
  cases hb : (h.node r).body with
  | list l =>
    rw [hb] at he
    have key : ∀ m k, Ends h m [.list l k (some r)] → ∀ s ∈ (h.list l).drop k, Ends h m (push h (.obj s)) := by
      intro m
      induction m with
      | zero =>
        intro k he
        obtain ⟨_, hq, _⟩ := he.step
        cases hq
      | succ m ih =>
        intro k he s hs
        obtain ⟨q, hq, _, h2⟩ := he.step
        obtain rfl : m = q := by omega
        have hlt : k < (h.list l).length := by
          refine Nat.lt_of_not_le fun hc => ?_
          rw [List.drop_eq_nil_of_le hc] at hs
          cases hs
        simp only [step, List.getElem?_eq_getElem hlt] at h2
        obtain ⟨h3, h4⟩ := h2.split
        rw [List.drop_eq_getElem_cons hlt] at hs
        rcases List.mem_cons.1 hs with rfl | hs
        · exact h3.mono (by omega)
        · exact (ih (k + 1) h4 s hs).mono (by omega)
    intro v hv
    obtain ⟨s, hs, rfl⟩ := List.mem_map.1 hv
    exact key m 0 he s hs
  | dict o t ps =>
    rw [hb] at he
    have key : ∀ m k, Ends h m [.dict r k ps.length t] → ∀ p ∈ ps.drop k, Ends h m (push h p.2) := by
      intro m
      induction m with
      | zero =>
        intro k he
        obtain ⟨_, hq, _⟩ := he.step
        cases hq
      | succ m ih =>
        intro k he s hs
        obtain ⟨q, hq, _, h2⟩ := he.step
        obtain rfl : m = q := by omega
        have hlt : k < ps.length := by
          refine Nat.lt_of_not_le fun hc => ?_
          rw [List.drop_eq_nil_of_le hc] at hs
          cases hs
        simp only [step, hb, ne_eq, not_true_eq_false, and_false, if_false, List.getElem?_eq_getElem hlt, Nat.not_le.2 hlt] at h2
        obtain ⟨h3, h4⟩ := h2.split
        rw [List.drop_eq_getElem_cons hlt] at hs
        rcases List.mem_cons.1 hs with rfl | hs
        · exact h3.mono (by omega)
        · exact (ih (k + 1) h4 s hs).mono (by omega)
    intro v hv
    obtain ⟨p, hp, rfl⟩ := List.mem_map.1 hv
    exact key m 0 he p hp

/-- The walk of an object comes to the walk of another. -/
def Walks (h : Heap) (r s : Nat) : Prop :=
  ∃ v ∈ values h r, match v with
    | .plain _ => False
    | .items l => s ∈ h.list l
    | .obj t => (t = s ∧ (h.node t).yields = true) ∨ ∃ l, (h.node t).body = .list l ∧ s ∈ h.list l

theorem ends_walks {h : Heap} {r s m : Nat} (he : Ends h m [.enter r]) (hw : Walks h r s) :
    ∃ q, m = q + 1 ∧ Ends h q [.enter s] := by
  obtain ⟨q, hq, hv⟩ := ends_values m he
  refine ⟨q, hq, ?_⟩
  obtain ⟨v, hm, hw⟩ := hw
  have he := hv v hm
  cases v with
  | plain x => exact hw.elim
  | items l => exact ends_items q 0 he s hw
  | obj t =>
    obtain ⟨h1, h2⟩ := Ends.split q he
    rcases hw with ⟨rfl, hy⟩ | ⟨l, hb, hs⟩
    · rw [if_pos hy] at h2; exact h2
    · rw [hb] at h1; exact ends_items q 0 h1 s hs

theorem post_isSome {h : Heap} {d r : Nat} (hw : ∀ s, Walks h r s → (post h d s).isSome) : (post h (d + 1) r).isSome := by
  rw [post, Option.isSome_map, mapM_isSome]
  intro v hv
  cases v with
  | plain x => rfl
  | items l =>
    rw [inValue, Option.isSome_map, mapM_isSome]
    exact fun s hs => hw s ⟨_, hv, hs⟩
  | obj t =>
    rw [inValue]
    have h1 : (match (h.node t).body with
      | .list l => ((h.list l).mapM (post h d)).map List.flatten
      | .dict .. => some [] : Option (List Nat)).isSome := by
      cases hb : (h.node t).body with
      | dict o t ps => rfl
      | list l =>
        dsimp only
        rw [Option.isSome_map, mapM_isSome]
        exact fun s hs => hw s ⟨_, hv, .inr ⟨l, hb, hs⟩⟩
    obtain ⟨a, ha⟩ := Option.isSome_iff_exists.1 h1
    rw [ha, Option.bind_some, Option.isSome_map]
    split
    · rename_i hy; exact hw t ⟨_, hv, .inl ⟨rfl, hy⟩⟩
    · rfl

theorem ends_post {h : Heap} (d : Nat) : ∀ r, Ends h d [.enter r] → (post h d r).isSome := by
  induction d with
  | zero =>
    intro r he
    obtain ⟨_, hq, _⟩ := he.step
    cases hq
  | succ d ih =>
    intro r he
    refine post_isSome fun s hs => ?_
    obtain ⟨q, hq, he⟩ := ends_walks he hs
    obtain rfl : d = q := by omega
    exact ih s he

theorem steps_nil (h : Heap) (n : Nat) : steps h n [] = ([], [], .fine) := by
  induction n with
  | zero => rfl
  | succ n ih => exact ih

theorem steps_more {h : Heap} (m : Nat) {fs : List Frame} {out : List Nat} (hs : steps h m fs = (out, [], .fine)) (j : Nat) :
    steps h (m + j) fs = (out, [], .fine) := by
  induction m generalizing fs out with
  | zero => cases hs; rw [steps_nil]
  | succ m ih =>
    rw [Nat.add_right_comm, steps]
    rw [steps] at hs
    rcases hst : step h fs with ⟨ks, o⟩
    rw [hst] at hs
    cases o with
    | raised => cases hs
    | unknown => cases hs
    | silent => exact ih hs
    | yielded r =>
      simp only [Prod.mk.injEq] at hs
      obtain ⟨rfl, hs⟩ := hs
      have := ih (fs := ks) (out := (steps h m ks).1) (Prod.ext rfl hs)
      dsimp only
      rw [this]

/-- C84: with nothing changed, the walk ends, with these objects, exactly if the recursive walk gives them at some depth. -/
theorem C84_ends {h : Heap} {r : Nat} {out : List Nat} :
    (∃ m, steps h m [.enter r] = (out, [], .fine)) ↔ ∃ d, post h d r = some out := by
  constructor
  · rintro ⟨m, hm⟩
    obtain ⟨out', hp⟩ := Option.isSome_iff_exists.1 (ends_post m r ⟨m, Nat.le_refl _, out, hm⟩)
    obtain ⟨q, hq⟩ := C84_walk hp
    have h1 := hq m
    have h2 := steps_more m hm q
    rw [Nat.add_comm m q, h1] at h2
    cases h2
    exact ⟨m, hp⟩
  · rintro ⟨d, hp⟩
    obtain ⟨m, hm⟩ := C84_walk hp
    exact ⟨m, hm 0⟩

/-- C84: an object that its own walk comes to again is never done: the walk goes deeper at each round (in Python until the
recursion is too deep). -/
theorem C84_cycle {h : Heap} {r : Nat} (hc : TransGen (Walks h) r r) (m : Nat) (out : List Nat) :
    steps h m [.enter r] ≠ (out, [], .fine) := by
  intro hm
  have down : ∀ {s t}, TransGen (Walks h) s t → ∀ m, Ends h m [.enter s] → ∃ q, q < m ∧ Ends h q [.enter t] := by
    intro s t ht
    induction ht with
    | single hw =>
      intro m he
      obtain ⟨q, rfl, hq⟩ := ends_walks he hw
      exact ⟨q, by omega, hq⟩
    | tail _ hw ih =>
      intro m he
      obtain ⟨q, hlt, hq⟩ := ih m he
      obtain ⟨q', rfl, hq'⟩ := ends_walks hq hw
      exact ⟨q', by omega, hq'⟩
  have never : ∀ m, ¬ Ends h m [.enter r] := by
    intro m
    induction m using Nat.strongRecOn with
    | ind m ih =>
      intro he
      obtain ⟨q, hlt, hq⟩ := down hc m he
      exact ih q hlt hq
  exact never m ⟨m, Nat.le_refl _, out, hm⟩

/-- The loops over dictionaries that have the same keys as when they began. -/
def Sized (h : Heap) : Frame → Prop
  | .dict r _ n t => ∃ o ps, (h.node r).body = .dict o t ps ∧ ps.length = n
  | _ => True

theorem push_sized {h : Heap} {v : Val} : ∀ f ∈ push h v, Sized h f := by
  intro f hf
  cases v with
  | plain x => cases hf
  | items l => rw [List.mem_singleton.1 hf]; trivial
  | obj r =>
    rcases List.mem_append.1 hf with hf | hf
    · split at hf
      · rw [List.mem_singleton.1 hf]; trivial
      · cases hf
    · split at hf
      · rw [List.mem_singleton.1 hf]; trivial
      · cases hf

/-- C84: with nothing changed no exception is raised, at any moment of any walk. -/
theorem C84_quiet {h : Heap} (m : Nat) {fs : List Frame} (hf : ∀ f ∈ fs, Sized h f) : (steps h m fs).2.2 = .fine := by
  induction m generalizing fs with
  | zero => rfl
  | succ m ih =>
    have key : ((step h fs).2 ≠ .raised ∧ (step h fs).2 ≠ .unknown) ∧ ∀ f ∈ (step h fs).1, Sized h f := by
      cases fs with
      | nil => exact ⟨⟨nofun, nofun⟩, nofun⟩
      | cons f fs =>
        have h0 := hf f List.mem_cons_self
        have ht : ∀ f ∈ fs, Sized h f := fun g hg => hf g (List.mem_cons_of_mem _ hg)
        have cons : ∀ {g}, Sized h g → ∀ f ∈ g :: fs, Sized h f := by
          intro g hg f hf
          rcases List.mem_cons.1 hf with rfl | hf
          · exact hg
          · exact ht f hf
        have fin : ∀ r, finish h r ≠ .raised ∧ finish h r ≠ .unknown := by
          intro r
          unfold finish
          split <;> exact ⟨nofun, nofun⟩
        cases f with
        | enter r =>
          simp only [step]
          split
          · rename_i o t ps hb; exact ⟨⟨nofun, nofun⟩, cons ⟨o, ps, hb, rfl⟩⟩
          · exact ⟨⟨nofun, nofun⟩, cons trivial⟩
        | dict r k n t =>
          obtain ⟨o, ps, hb, hl⟩ := h0
          simp only [step, hb, hl, ne_eq, not_true_eq_false, and_false, if_false]
          split
          · exact ⟨fin r, ht⟩
          split
          · exact ⟨fin r, ht⟩
          · refine ⟨⟨nofun, nofun⟩, fun f hf => ?_⟩
            rcases List.mem_append.1 hf with hf | hf
            · exact push_sized f hf
            · exact cons (g := .dict r (k + 1) n t) ⟨o, ps, hb, hl⟩ f hf
        | list l k o =>
          simp only [step]
          split
          · refine ⟨?_, ht⟩
            cases o with
            | none => exact ⟨nofun, nofun⟩
            | some r => exact fin r
          · refine ⟨⟨nofun, nofun⟩, fun f hf => ?_⟩
            rcases List.mem_append.1 hf with hf | hf
            · cases o with
              | none => rw [List.mem_singleton.1 hf]; trivial
              | some r => exact push_sized f hf
            · exact cons (g := .list l (k + 1) o) trivial f hf
    rw [steps]
    rcases hst : step h fs with ⟨ks, o⟩
    rw [hst] at key
    cases o with
    | raised => exact (key.1.1 rfl).elim
    | unknown => exact (key.1.2 rfl).elim
    | silent => exact ih key.2
    | yielded r => exact ih key.2

/-! ### Examples -/

/-- A composition (1) with a list of two tracks (2, 3) whose components are a filler (4) and a list object (6) with
an item (7), and with attributes (5). -/
def sample : Heap where
  node
    | 1 => ⟨true, .dict true 0 [("name", .plain 7), ("tracks", .items 1), ("attributes", .obj 5)]⟩
    | 2 => ⟨false, .dict true 0 [("component", .obj 4)]⟩
    | 3 => ⟨false, .dict true 0 [("component", .obj 6)]⟩
    | 4 => ⟨true, .dict true 0 []⟩
    | 5 => ⟨true, .dict true 0 [("x", .plain 1)]⟩
    | 6 => ⟨true, .list 2⟩
    | 7 => ⟨true, .dict true 0 []⟩
    | _ => ⟨false, .dict true 0 []⟩
  list
    | 1 => [2, 3]
    | 2 => [7]
    | _ => []

/-- C84_walk: the items of a list object come twice, once for the list and once for the object. -/
example : post sample 4 1 = some [4, 7, 7, 6, 5, 1] := rfl

example : steps sample 30 [.enter 1] = ([4, 7, 7, 6, 5, 1], [], .fine) := rfl

/-- C84_quiet: also in the middle. -/
example (m : Nat) : (steps sample m [.dict 2 1 1 0, .list 1 1 none, .dict 1 2 3 0]).2.2 = .fine :=
  C84_quiet m (by simp [Sized, sample])

/-- C84_cycle: the item of the list object refers back to it. -/
example (m : Nat) (out : List Nat) :
    steps (sample.put 7 ⟨true, .dict true 0 [("parent", .obj 6)]⟩) m [.enter 6] ≠ (out, [], .fine) :=
  C84_cycle (TransGen.tail (b := 7) (.single ⟨.obj 7, by simp [values, Heap.put, sample], .inl ⟨rfl, rfl⟩⟩)
    ⟨.obj 6, by simp [values, Heap.put], .inl ⟨rfl, rfl⟩⟩) m out

/-- C84_ends. -/
example : ∃ d, post sample d 1 = some [4, 7, 7, 6, 5, 1] := C84_ends.1 ⟨30, rfl⟩

/-- The loops when the filler was yielded. -/
def after4 : List Frame := [.dict 2 1 1 0, .list 1 1 none, .dict 1 2 3 0]

example : steps sample 8 [.enter 1] = ([4], after4, .fine) := rfl

theorem sample_closed {s r : Nat} (hs : s ∈ [3, 5, 6, 7]) (hr : r ∉ [3, 5, 6, 7]) : ¬ Reaches sample s r := by
  intro h
  apply hr; clear hr
  induction h with
  | refl => exact hs
  | tail _ he ih =>
    simp only [List.mem_cons, List.not_mem_nil, or_false] at ih
    rcases ih with rfl | rfl | rfl | rfl <;> simp [Edge, Leads, sample] at he <;> subst he <;> simp

theorem after4_clear : ∀ f ∈ after4, Clear sample 4 f := by
  simp only [after4, List.mem_cons, List.not_mem_nil, or_false, forall_eq_or_imp, forall_eq]
  refine ⟨⟨by decide, _, _, _, rfl, by simp⟩, ⟨by simp, ?_⟩, ⟨by decide, _, _, _, rfl, ?_⟩⟩
  · intro t ht
    have : t = 3 := by simpa [sample] using ht
    exact sample_closed (by simp [this]) (by decide)
  · intro p hp t ht
    have : p = ("attributes", .obj 5) := by simpa using hp
    subst this
    have : t = 5 := ht
    exact sample_closed (by simp [this]) (by decide)

/-- C84_yielded: the filler that was yielded is given a property; the walk goes on as before. -/
example : steps (sample.put 4 ⟨true, .dict true 0 [("next", .obj 1)]⟩) 40 after4 = ([7, 7, 6, 5, 1], [], .fine) :=
  (C84_yielded after4_clear _ 40).trans rfl

/-- C84_assigned: the name and the list of tracks of the composition are assigned again when its walk is past them. -/
example (v : Val) : steps (sample.put 1 ⟨true, .dict true 0
    [("name", .plain 7), ("tracks", v), ("attributes", .obj 5)]⟩) 40 [.dict 5 0 1 0, .dict 1 3 3 0] = ([5, 1], [], .fine) :=
  (C84_assigned (h := sample) (r := 1) (k := 3) (m := 3) (pre := [.dict 5 0 1 0]) (fs := []) rfl
    (by
      intro f hf
      rw [List.mem_singleton.1 hf]
      refine ⟨by decide, _, _, _, rfl, ?_⟩
      intro p hp t ht
      have : p = ("x", .plain 1) := by simpa using hp
      subst this
      exact ht.elim)
    (by simp) (by simp) (j := 1) (by decide) ("tracks", v) 40).trans rfl

/-- C84_unseen: the items of the list of tracks that were passed may be replaced. -/
example : steps { sample with list := fun l => if l = 1 then [99, 3] else sample.list l } 40 after4 =
    steps sample 40 after4 := by
  refine (C84_unseen (fun f hf => ?_) 40).symm
  have same : ∀ s ∈ [3, 5, 6, 7], Same sample { sample with list := fun l => if l = 1 then [99, 3] else sample.list l } s := by
    intro s hs t ht
    refine ⟨rfl, fun l hl => ?_⟩
    have : t ∈ [3, 5, 6, 7] := by
      by_cases h : t ∈ [3, 5, 6, 7]
      · exact h
      · exact (sample_closed hs h ht).elim
    have : l ≠ 1 := by
      simp only [List.mem_cons, List.not_mem_nil, or_false] at this
      rcases this with rfl | rfl | rfl | rfl <;> simp [Holds, sample] at hl <;> omega
    simp only [if_neg this]
  simp only [after4, List.mem_cons, List.not_mem_nil, or_false] at hf
  rcases hf with rfl | rfl | rfl
  · exact ⟨rfl, _, _, _, _, _, rfl, rfl, .inr ⟨rfl, rfl, rfl, by simp⟩⟩
  · refine ⟨rfl, fun s hs => same s ?_, nofun⟩
    have : s = 3 := by simpa [sample] using hs
    simp [this]
  · refine ⟨rfl, _, _, _, _, _, rfl, rfl, .inr ⟨rfl, rfl, rfl, fun p hp => ?_⟩⟩
    have : p = ("attributes", .obj 5) := by simpa using hp
    subst this
    refine ⟨nofun, fun s hs => same s ?_⟩
    have : s = 5 := hs
    simp [this]

/-- C84_raises: the composition gets another property while its tracks are walked; the components are still
yielded, the composition is not. -/
example : ∃ q, ∀ j, steps (sample.put 1 ⟨true, .dict true 1 [("name", .plain 7), ("tracks", .items 1),
    ("attributes", .obj 5), ("new", .plain 0)]⟩) (q + j) after4 = ([7, 7, 6], [], .raised) :=
  C84_raises (pre := [.dict 2 1 1 0, .list 1 1 none]) (fs := []) (r := 1) (k := 2) (n := 3) (t := 0) (m := 20) rfl rfl
    (by decide)

/-- C84_raises, plain dictionary: also in the last property. -/
example : ∃ q, ∀ j, steps (sample.put 1 ⟨true, .dict false 1 [("name", .plain 7), ("tracks", .items 1),
    ("attributes", .obj 5), ("new", .plain 0)]⟩) (q + j) [.dict 5 0 1 0, .dict 1 3 3 0] = ([5], [], .raised) :=
  C84_raises (pre := [.dict 5 0 1 0]) (fs := []) (r := 1) (k := 3) (n := 3) (t := 0) (m := 20) rfl rfl (by decide)

/-- C84_last: a property with another object is added to the composition while its attributes are walked; the object
does not come, and no exception. -/
example : steps (sample.put 1 ⟨true, .dict true 1 [("name", .plain 7), ("tracks", .items 1),
    ("attributes", .obj 5), ("new", .obj 4)]⟩) 40 [.dict 5 0 1 0, .dict 1 3 3 0] = ([5, 1], [], .fine) :=
  (C84_last (h := sample) (r := 1) (k := 3) (m := 3) (pre := [.dict 5 0 1 0]) (fs := []) rfl
    (by
      intro f hf
      rw [List.mem_singleton.1 hf]
      refine ⟨by decide, _, _, _, rfl, ?_⟩
      intro p hp t ht
      have : p = ("x", .plain 1) := by simpa using hp
      subst this
      exact ht.elim)
    (by simp) (by decide) 40).trans rfl

/-- A list that grows behind the position of its loop: the new item is walked too. -/
example : (steps { sample with list := fun l => if l = 1 then [2, 3, 4] else sample.list l } 40 after4).1 =
    [7, 7, 6, 4, 5, 1] := rfl

end Avb.WalkEdit

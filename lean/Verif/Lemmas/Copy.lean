import Verif.Spec.Copy
import Batteries.Data.List.Basic

/-!
Lemmas about copying.
-/
namespace Avb.Copy

variable {α β : Type} {C : Classes} {k0 : Nat} {s s0 s1 s2 s' : St}

/-! ### The monad -/

theorem bind_eq {f : M α} {k : α → M β} {r : Except Err β} :
    (f >>= k) s = (r, s') ↔
      (∃ a s1, f s = (.ok a, s1) ∧ k a s1 = (r, s')) ∨ ∃ e, f s = (.error e, s') ∧ r = .error e := by
  show M.bind f k s = _ ↔ _
  unfold M.bind
  constructor
  · intro h
    split at h
    · next a s1 hf => exact .inl ⟨a, s1, hf, h⟩
    · next e s1 hf =>
      cases h
      exact .inr ⟨e, hf, rfl⟩
  · rintro (⟨a, s1, hf, hk⟩ | ⟨e, hf, rfl⟩)
    · rw [hf]; exact hk
    · rw [hf]

theorem bind_ok {f : M α} {k : α → M β} {a : α} (h : f s = (.ok a, s1)) : (f >>= k) s = k a s1 := by
  show M.bind f k s = _
  unfold M.bind
  rw [h]

theorem pure_eq {a : α} {r : Except Err α} : (pure a : M α) s = (r, s') ↔ r = .ok a ∧ s' = s := by
  show ((Except.ok a, s) = (r, s')) ↔ _
  constructor
  · intro h; cases h; exact ⟨rfl, rfl⟩
  · rintro ⟨rfl, rfl⟩; rfl

theorem node_eq {l : Nat} : node l s = (.ok (s.nodes l), s) := rfl

/-! ### Dictionaries -/

theorem find_dictSet_self (ps : List (Text × α)) (k : Text) (v : α) : find (dictSet ps k v) k = some v := by
  induction ps with
  | nil => simp [dictSet, find]
  | cons p ps ih =>
    unfold dictSet
    split
    · simp [find]
    · next h =>
      unfold find at ih ⊢
      rw [List.find?_cons_of_neg (by simpa using h)]
      exact ih

theorem find_dictSet_ne {ps : List (Text × α)} {k k' : Text} {v : α} (h : k' ≠ k) :
    find (dictSet ps k v) k' = find ps k' := by
  induction ps with
  | nil => simp [dictSet, find, Ne.symm h]
  | cons p ps ih =>
    unfold dictSet
    split
    · next hp =>
      unfold find
      rw [List.find?_cons_of_neg (by simpa using Ne.symm h), List.find?_cons_of_neg (by simpa [hp] using Ne.symm h)]
    · unfold find at ih ⊢
      by_cases hk : p.1 = k'
      · rw [List.find?_cons_of_pos (by simpa using hk), List.find?_cons_of_pos (by simpa using hk)]
      · rw [List.find?_cons_of_neg (by simpa using hk), List.find?_cons_of_neg (by simpa using hk)]
        exact ih

theorem mem_dictSet {ps : List (Text × α)} {k : Text} {v : α} {p : Text × α} (h : p ∈ dictSet ps k v) :
    p = (k, v) ∨ p ∈ ps := by
  induction ps with
  | nil => simpa [dictSet] using h
  | cons q ps ih =>
    unfold dictSet at h
    split at h
    · rcases List.mem_cons.1 h with h | h
      · exact .inl h
      · exact .inr (List.mem_cons_of_mem _ h)
    · rcases List.mem_cons.1 h with h | h
      · exact .inr (h ▸ List.mem_cons_self)
      · rcases ih h with h | h
        · exact .inl h
        · exact .inr (List.mem_cons_of_mem _ h)

theorem keys_dictSet {ps : List (Text × α)} {k : Text} {v : α} (h : (ps.map (·.1)).Nodup) :
    ((dictSet ps k v).map (·.1)).Nodup := by
  induction ps with
  | nil => simp [dictSet]
  | cons q ps ih =>
    rw [List.map_cons, List.nodup_cons] at h
    unfold dictSet
    split
    · next hq => rw [List.map_cons, List.nodup_cons]; exact ⟨hq ▸ h.1, h.2⟩
    · next hq =>
      rw [List.map_cons, List.nodup_cons]
      refine ⟨?_, ih h.2⟩
      intro hm
      obtain ⟨p, hp, he⟩ := List.mem_map.1 hm
      rcases mem_dictSet hp with rfl | hp
      · exact hq he.symm
      · exact h.1 (List.mem_map.2 ⟨p, hp, he⟩)

theorem find_cons {p : Text × α} {ps : List (Text × α)} {k : Text} :
    find (p :: ps) k = if p.1 = k then some p.2 else find ps k := by
  unfold find
  rw [List.find?_cons]
  by_cases h : p.1 = k <;> simp [h]

theorem find_mem {ps : List (Text × α)} {k : Text} {v : α} (h : find ps k = some v) : (k, v) ∈ ps := by
  induction ps with
  | nil => simp [find] at h
  | cons p ps ih =>
    rw [find_cons] at h
    split at h
    · next hp =>
      cases h
      subst hp
      exact List.mem_cons_self
    · exact List.mem_cons_of_mem _ (ih h)

theorem find_none {ps : List (Text × α)} {k : Text} : find ps k = none ↔ k ∉ ps.map (·.1) := by
  induction ps with
  | nil => simp [find]
  | cons p ps ih =>
    rw [find_cons, List.map_cons, List.mem_cons, not_or]
    by_cases h : p.1 = k
    · simp [h]
    · rw [if_neg h, ih]
      exact ⟨fun h' => ⟨Ne.symm h, h'⟩, fun h' => h'.2⟩

/-! ### Regions -/

theorem Atom.In.mono {lo lo' hi hi' c c' : Nat} {a : Atom} (h : a.In lo hi c) (h1 : lo' ≤ lo) (h2 : hi ≤ hi')
    (h3 : c ≤ c') : a.In lo' hi' c' := by
  cases a <;> simp only [Atom.In] at h ⊢ <;> omega

theorem Ext.refl (C : Classes) (s : St) : Ext C s s where
  fresh := Nat.le_refl _
  freshCell := Nat.le_refl _
  next := Nat.le_refl _
  nodes := fun _ _ => rfl
  cells := fun _ _ => rfl
  modified := fun _ _ => rfl
  hasId := fun l h1 h2 => by omega
  ids := fun l h1 h2 => by omega

theorem Ext.trans (h1 : Ext C s s1) (h2 : Ext C s1 s2) : Ext C s s2 where
  fresh := Nat.le_trans h1.fresh h2.fresh
  freshCell := Nat.le_trans h1.freshCell h2.freshCell
  next := Nat.le_trans h1.next h2.next
  nodes := fun l hl => by rw [h2.nodes l (Nat.lt_of_lt_of_le hl h1.fresh), h1.nodes l hl]
  cells := fun l hl => by rw [h2.cells l (Nat.lt_of_lt_of_le hl h1.freshCell), h1.cells l hl]
  modified := fun i hi => by rw [h2.modified i (Nat.le_trans hi h1.next), h1.modified i hi]
  hasId := fun l hl hl' => by
    by_cases h : l < s1.fresh
    · rw [h2.nodes l h]; exact h1.hasId l hl h
    · exact h2.hasId l (Nat.le_of_not_lt h) hl'
  ids := fun l hl hl' i hi => by
    by_cases h : l < s1.fresh
    · rw [h2.nodes l h] at hi
      obtain ⟨a, b, c⟩ := h1.ids l hl h i hi
      exact ⟨a, Nat.le_trans b h2.next, by rw [h2.modified i b, c]⟩
    · obtain ⟨a, b, c⟩ := h2.ids l (Nat.le_of_not_lt h) hl' i hi
      exact ⟨Nat.lt_of_le_of_lt h1.next a, b, c⟩

/-- New things only, which refer to new things only. -/
structure Mid (C : Classes) (s s' : St) : Prop where
  ext : Ext C s s'
  wf : WF s'
  closed : Closed s.fresh s'

theorem Mid.refl (h : WF s) : Mid C s s := ⟨.refl C s, h, fun l h1 h2 => by omega⟩

theorem Mid.trans (h1 : Mid C s s1) (h2 : Mid C s1 s2) : Mid C s s2 where
  ext := h1.ext.trans h2.ext
  wf := h2.wf
  closed := fun l hl hl' a ha => by
    by_cases h : l < s1.fresh
    · rw [h2.ext.nodes l h] at ha
      exact (h1.closed l hl h a ha).mono (Nat.le_refl _) h2.ext.fresh h2.ext.freshCell
    · exact (h2.closed l (Nat.le_of_not_lt h) hl' a ha).mono h1.ext.fresh (Nat.le_refl _) (Nat.le_refl _)

/-- The state with another object at a location. -/
def St.withNode (s : St) (l : Nat) (nd : Node) : St :=
  { s with nodes := fun m => if m = l then nd else s.nodes m }

theorem setNode_eq {l : Nat} {nd : Node} : setNode l nd s = (.ok (), s.withNode l nd) := rfl

theorem withNode_self {l : Nat} {nd : Node} : (s.withNode l nd).nodes l = nd := by
  simp [St.withNode]

theorem withNode_ne {l m : Nat} {nd : Node} (h : m ≠ l) : (s.withNode l nd).nodes m = s.nodes m := by
  simp [St.withNode, h]

theorem Node.Lists.mono {nd : Node} (h : nd.Lists s) (hs : ∀ m, (s.nodes m).IsAvb → (s'.nodes m).IsAvb) :
    nd.Lists s' := by
  cases nd with
  | avb c i ps => exact fun p hp xs hx m hm => hs m (h p hp xs hx m hm)
  | refs => trivial
  | attrs => trivial

theorem ListsOK.within {ps : List (Text × Val)} {hi c : Nat} (h : ListsOK s ps)
    (hb : ∀ p ∈ ps, ∀ a ∈ p.2.atoms, a.In 0 hi c) (hs : ∀ m < hi, (s.nodes m).IsAvb → (s'.nodes m).IsAvb) :
    ListsOK s' ps := by
  intro p hp xs hx m hm
  have := hb p hp (.obj m) (by rw [hx]; exact hm)
  exact hs m this.2 (h p hp xs hx m hm)

theorem Mid.withNode {l : Nat} {nd : Node} (h : Mid C s0 s) (hl : s0.fresh ≤ l) (hl' : l < s.fresh)
    (hi : nd.iid = (s.nodes l).iid) (hh : nd.hasId C = (s.nodes l).hasId C)
    (ha : nd.IsAvb ↔ (s.nodes l).IsAvb)
    (hin : ∀ a ∈ nd.atoms, a.In s0.fresh s.fresh s.freshCell) (hn : nd.Names) (hL : nd.Lists s) :
    Mid C s0 (s.withNode l nd) := by
  have hav : ∀ m, (s.nodes m).IsAvb → ((s.withNode l nd).nodes m).IsAvb := by
    intro m hm
    by_cases e : m = l
    · subst e; rw [withNode_self]; exact ha.2 hm
    · rw [withNode_ne e]; exact hm
  refine ⟨⟨h.ext.fresh, h.ext.freshCell, h.ext.next, ?_, h.ext.cells, h.ext.modified, ?_, ?_⟩, ⟨?_, ?_, ?_⟩, ?_⟩
  · intro m hm
    rw [withNode_ne (by omega)]
    exact h.ext.nodes m hm
  · intro m h1 h2
    by_cases e : m = l
    · subst e; rw [withNode_self, hi, hh]; exact h.ext.hasId m h1 h2
    · rw [withNode_ne e]; exact h.ext.hasId m h1 h2
  · intro m h1 h2 i hm
    by_cases e : m = l
    · subst e; rw [withNode_self, hi] at hm; exact h.ext.ids m h1 h2 i hm
    · rw [withNode_ne e] at hm; exact h.ext.ids m h1 h2 i hm
  · intro m hm a hma
    by_cases e : m = l
    · subst e; rw [withNode_self] at hma
      exact (hin a hma).mono (Nat.zero_le _) (Nat.le_refl _) (Nat.le_refl _)
    · rw [withNode_ne e] at hma; exact h.wf.within m hm a hma
  · intro m hm
    by_cases e : m = l
    · subst e; rw [withNode_self]; exact hn
    · rw [withNode_ne e]; exact h.wf.names m hm
  · intro m hm
    by_cases e : m = l
    · subst e; rw [withNode_self]; exact hL.mono hav
    · rw [withNode_ne e]; exact (h.wf.lists m hm).mono hav
  · intro m h1 h2 a hma
    by_cases e : m = l
    · subst e; rw [withNode_self] at hma
      exact hin a hma
    · rw [withNode_ne e] at hma; exact h.closed m h1 h2 a hma

/-- An object with nothing in it yet. -/
structure Blank (C : Classes) (b : Bool) (nd : Option Nat → Node) : Prop where
  atoms : ∀ i, (nd i).atoms = []
  names : ∀ i, (nd i).Names
  lists : ∀ i s, (nd i).Lists s
  iid : ∀ i, (nd i).iid = i
  hasId : ∀ i, (nd i).hasId C = b

theorem alloc_mid {b : Bool} {nd : Option Nat → Node} (hb : Blank C b nd) (h : WF s) :
    ∃ s1 i, alloc b nd s = (.ok s.fresh, s1) ∧ Mid C s s1 ∧ s1.fresh = s.fresh + 1 ∧ s1.nodes s.fresh = nd i ∧
      s1.freshCell = s.freshCell ∧ s1.cells = s.cells := by
  have key : ∀ i next modified, s.next ≤ next → (∀ j ≤ s.next, modified j = s.modified j) →
      i.isSome = b → (∀ j, i = some j → s.next < j ∧ j ≤ next ∧ modified j = some s.fresh) →
      Mid C s { s with nodes := fun m => if m = s.fresh then nd i else s.nodes m, fresh := s.fresh + 1,
                       next := next, modified := modified } := by
    intro i next modified hn hm hib hi
    refine ⟨⟨Nat.le_succ _, Nat.le_refl _, hn, ?_, fun _ _ => rfl, hm, ?_, ?_⟩, ⟨?_, ?_, ?_⟩, ?_⟩
    · intro m hm
      show (if m = s.fresh then _ else _) = _
      rw [if_neg (by omega)]
    · intro m h1 h2
      have e : m = s.fresh := by have : m < s.fresh + 1 := h2; omega
      subst e
      simp only [if_true]
      rw [hb.iid, hb.hasId, hib]
    · intro m h1 h2 j hj
      have e : m = s.fresh := by have : m < s.fresh + 1 := h2; omega
      subst e
      simp only [if_true] at hj
      rw [hb.iid] at hj
      exact hi j hj
    · intro m hm a ha
      by_cases e : m = s.fresh
      · simp only [e, if_true] at ha
        rw [hb.atoms] at ha
        cases ha
      · simp only [if_neg e] at ha
        have : m < s.fresh + 1 := hm
        exact (h.within m (by omega) a ha).mono (Nat.le_refl _) (Nat.le_succ _) (Nat.le_refl _)
    · intro m hm
      by_cases e : m = s.fresh
      · simp only [e, if_true]; exact hb.names _
      · simp only [if_neg e]
        have : m < s.fresh + 1 := hm
        exact h.names m (by omega)
    · intro m hm
      by_cases e : m = s.fresh
      · simp only [e, if_true]; exact hb.lists _ _
      · simp only [if_neg e]
        have hm' : m < s.fresh + 1 := hm
        have hl := h.lists m (by omega)
        have hw := h.within m (by omega)
        cases hnd : s.nodes m with
        | refs => trivial
        | attrs => trivial
        | avb c i ps =>
          rw [hnd] at hl hw
          refine ListsOK.within (hi := s.fresh) (c := s.freshCell) hl ?_ ?_
          · intro p hp a ha
            exact hw a (List.mem_flatMap.2 ⟨p, hp, ha⟩)
          · intro x hx hav
            simp only [if_neg (by omega : ¬ x = s.fresh)]
            exact hav
    · intro m h1 h2 a ha
      have e : m = s.fresh := by have : m < s.fresh + 1 := h2; omega
      subst e
      simp only [if_true] at ha
      rw [hb.atoms] at ha
      cases ha
  unfold alloc
  split
  · next hbt =>
    refine ⟨_, some (s.next + 1), rfl, key (some (s.next + 1)) _ _ (Nat.le_succ _) ?_ (by rw [hbt]; rfl) ?_,
      rfl, by simp, rfl, rfl⟩
    · intro j hj
      show (if j = _ then _ else _) = _
      rw [if_neg (by omega)]
    · intro j hj
      cases hj
      exact ⟨Nat.lt_succ_self _, Nat.le_refl _, by simp⟩
  · next hbf =>
    refine ⟨_, none, rfl, key none s.next s.modified (Nat.le_refl _) (fun _ _ => rfl) ?_ ?_, rfl, by simp, rfl, rfl⟩
    · cases b with
      | true => exact absurd rfl hbf
      | false => rfl
    · intro j hj; cases hj

/-! ### The relation between original and copy -/

/-- A value of a list and its copy. -/
def ARel (R : Nat → Nat → Prop) (a a' : Atom) : Prop :=
  match a with
  | .obj m => ∃ m', a' = .obj m' ∧ R m m'
  | a => a' = a

/-- A value of an attribute set and its copy. -/
def ERel (k0 : Nat) (s : St) (R : Nat → Nat → Prop) (a a' : Atom) : Prop :=
  match a with
  | .obj m => ∃ m', a' = .obj m' ∧ R m m'
  | .buf m => ∃ m', a' = .buf m' ∧ k0 ≤ m' ∧ s.cells m' = s.cells m
  | a => a' = a

/-- A value of a property and its copy. -/
def VRel (R : Option Nat → Nat → Nat → Prop) (l' : Nat) (v v' : Val) : Prop :=
  match v with
  | .list xs => ∃ ys, v' = .list ys ∧ List.Forall₂ (ARel (R none)) xs ys
  | .atom (.obj m) => ∃ m', v' = .atom (.obj m') ∧ R (some l') m m'
  | .atom a => v' = .atom a

/-- Properties that the original does not have are as the constructor made them. -/
def Made (C : Classes) (c : Nat) (ps ps' : List (Text × Val)) : Prop :=
  ∃ s1 qs s2, C.init c s1 = (.ok qs, s2) ∧ ∀ k, find ps k = none → find ps' k = find qs k

/-- An object and its copy, to a depth. -/
def Rel (C : Classes) (k0 : Nat) : Nat → St → Option Nat → Nat → Nat → Prop
  | 0, _, _, _, _ => False
  | n + 1, s, o, l, l' =>
    match s.nodes l, s.nodes l' with
    | .avb c _ ps, .avb c' _ ps' =>
      c' = c ∧ (∀ k v, find ps k = some v → ∃ v', find ps' k = some v' ∧ VRel (Rel C k0 n s) l' v v') ∧
        Made C c ps ps'
    | .refs c _ q xs, .refs c' _ q' ys =>
      c' = c ∧ q' = (if q.isSome then o else none) ∧ List.Forall₂ (ARel (Rel C k0 n s none)) xs ys
    | .attrs _ ps, .attrs _ qs =>
      List.Forall₂ (fun p q => q.1 = p.1 ∧ ERel k0 s (Rel C k0 n s none) p.2 q.2) ps qs
    | _, _ => False

theorem ARel.mono {R R' : Nat → Nat → Prop} {a a' : Atom} (h : ARel R a a')
    (hR : ∀ m m', a = .obj m → a' = .obj m' → R m m' → R' m m') : ARel R' a a' := by
  cases a with
  | obj m => obtain ⟨m', e, r⟩ := h; exact ⟨m', e, hR m m' rfl e r⟩
  | _ => exact h

theorem ERel.mono {R R' : Nat → Nat → Prop} {a a' : Atom} (h : ERel k0 s R a a')
    (hR : ∀ m m', a = .obj m → a' = .obj m' → R m m' → R' m m')
    (hc : ∀ m m', a = .buf m → a' = .buf m' → s.cells m' = s.cells m → s'.cells m' = s'.cells m) :
    ERel k0 s' R' a a' := by
  cases a with
  | obj m => obtain ⟨m', e, r⟩ := h; exact ⟨m', e, hR m m' rfl e r⟩
  | buf m => obtain ⟨m', e, b, r⟩ := h; exact ⟨m', e, b, hc m m' rfl e r⟩
  | _ => exact h

theorem forall₂_mono {R R' : α → β → Prop} {xs : List α} {ys : List β} (h : List.Forall₂ R xs ys)
    (hR : ∀ x ∈ xs, ∀ y ∈ ys, R x y → R' x y) : List.Forall₂ R' xs ys := by
  induction h with
  | nil => exact .nil
  | cons h _ ih =>
    refine .cons (hR _ List.mem_cons_self _ List.mem_cons_self h) (ih ?_)
    exact fun x hx y hy => hR x (List.mem_cons_of_mem _ hx) y (List.mem_cons_of_mem _ hy)

theorem VRel.mono {R R' : Option Nat → Nat → Nat → Prop} {l' : Nat} {v v' : Val} (h : VRel R l' v v')
    (hR : ∀ o m m', Atom.obj m ∈ v.atoms → Atom.obj m' ∈ v'.atoms → R o m m' → R' o m m') :
    VRel R' l' v v' := by
  cases v with
  | list xs =>
    obtain ⟨ys, rfl, h⟩ := h
    refine ⟨ys, rfl, forall₂_mono h ?_⟩
    intro x hx y hy hxy
    refine hxy.mono ?_
    rintro m m' rfl rfl r
    exact hR _ m m' hx hy r
  | atom a =>
    cases a with
    | obj m =>
      obtain ⟨m', rfl, r⟩ := h
      exact ⟨m', rfl, hR _ m m' (List.mem_singleton.2 rfl) (List.mem_singleton.2 rfl) r⟩
    | _ => exact h

/-- The relation is about the objects within the two objects only. -/
theorem Rel.stable {a lo hi k : Nat} (hs : ∀ x < a, ∀ t ∈ (s.nodes x).atoms, t.In 0 a k)
    (hs' : ∀ x < a, s'.nodes x = s.nodes x)
    (hc : ∀ x, lo ≤ x → x < hi → ∀ t ∈ (s.nodes x).atoms, t.In lo hi k)
    (hc' : ∀ x, lo ≤ x → x < hi → s'.nodes x = s.nodes x)
    (hk : ∀ m < k, s'.cells m = s.cells m) :
    ∀ (n : Nat) (o : Option Nat) (l l' : Nat), l < a → lo ≤ l' → l' < hi → Rel C k0 n s o l l' → Rel C k0 n s' o l l' := by
  intro n
  induction n with
  | zero => exact fun _ _ _ _ _ _ h => h
  | succ n ih =>
    intro o l l' hl h1 h2 h
    have e := hs' l hl
    have e' := hc' l' h1 h2
    have w := hs l hl
    have w' := hc l' h1 h2
    unfold Rel at h ⊢
    rw [e, e']
    cases hnl : s.nodes l with
    | avb c i ps =>
      cases hnl' : s.nodes l' with
      | avb c' i' ps' =>
        rw [hnl, hnl'] at h
        rw [hnl] at w
        rw [hnl'] at w'
        refine ⟨h.1, fun j v hv => ?_, h.2.2⟩
        obtain ⟨v', hv', r⟩ := h.2.1 j v hv
        refine ⟨v', hv', r.mono ?_⟩
        intro o m m' hm hm' r
        have hm := w _ (List.mem_flatMap.2 ⟨_, find_mem hv, hm⟩)
        have hm' := w' _ (List.mem_flatMap.2 ⟨_, find_mem hv', hm'⟩)
        exact ih o m m' hm.2 hm'.1 hm'.2 r
      | _ => rw [hnl, hnl'] at h; exact h
    | refs c i q xs =>
      cases hnl' : s.nodes l' with
      | refs c' i' q' ys =>
        rw [hnl, hnl'] at h
        rw [hnl] at w
        rw [hnl'] at w'
        refine ⟨h.1, h.2.1, forall₂_mono h.2.2 ?_⟩
        intro x hx y hy r
        refine r.mono ?_
        rintro m m' rfl rfl r
        have hm := w _ hx
        have hm' := w' _ hy
        exact ih none m m' hm.2 hm'.1 hm'.2 r
      | _ => rw [hnl, hnl'] at h; exact h
    | attrs i ps =>
      cases hnl' : s.nodes l' with
      | attrs i' qs =>
        rw [hnl, hnl'] at h
        rw [hnl] at w
        rw [hnl'] at w'
        refine forall₂_mono h ?_
        intro x hx y hy r
        have hm := w _ (List.mem_map.2 ⟨x, hx, rfl⟩)
        have hm' := w' _ (List.mem_map.2 ⟨y, hy, rfl⟩)
        refine ⟨r.1, r.2.mono ?_ ?_⟩
        · intro m m' ex ey r
          rw [ex] at hm
          rw [ey] at hm'
          exact ih none m m' hm.2 hm'.1 hm'.2 r
        · intro m m' ex ey r
          rw [ex] at hm
          rw [ey] at hm'
          rw [hk m hm, hk m' hm', r]
      | _ => rw [hnl, hnl'] at h; exact h

/-- What holds of a copying function. -/
def Good (C : Classes) (k0 n : Nat) (rec : Rec) : Prop :=
  ∀ {s o l r s'}, k0 ≤ s.freshCell → WF s → l < s.fresh → rec o l s = (r, s') →
    Ext C s s' ∧ WF s' ∧ ∀ l', r = .ok l' →
      Mid C s s' ∧ s.fresh ≤ l' ∧ l' < s'.fresh ∧ Rel C k0 n s' o l l'

/-- Later additions do not matter. -/
theorem Rel.later {n m m' : Nat} {o : Option Nat} (hw : WF s0) (h0 : Ext C s0 s) (h : Mid C s s1)
    (hs : ∀ x < s0.fresh, s2.nodes x = s1.nodes x)
    (hn : ∀ x, s.fresh ≤ x → x < s1.fresh → s2.nodes x = s1.nodes x)
    (hk : ∀ c < s1.freshCell, s2.cells c = s1.cells c)
    (hm : m < s0.fresh) (h1 : s.fresh ≤ m') (h2 : m' < s1.fresh) (r : Rel C k0 n s1 o m m') : Rel C k0 n s2 o m m' := by
  refine Rel.stable (a := s0.fresh) (lo := s.fresh) (hi := s1.fresh) (k := s1.freshCell) ?_ hs ?_ hn hk
    n o m m' hm h1 h2 r
  · intro x hx t ht
    rw [(h0.trans h.ext).nodes x hx] at ht
    exact (hw.within x hx t ht).mono (Nat.le_refl _) (Nat.le_refl _) (h0.trans h.ext).freshCell
  · exact h.closed

theorem Rel.isAvb {n m m' : Nat} {o : Option Nat} (r : Rel C k0 n s o m m') (h : (s.nodes m).IsAvb) :
    (s.nodes m').IsAvb := by
  cases n with
  | zero => exact r.elim
  | succ n =>
    unfold Rel at r
    cases hm : s.nodes m with
    | avb c i ps =>
      cases hm' : s.nodes m' with
      | avb => trivial
      | _ => rw [hm, hm'] at r; exact r
    | _ => rw [hm] at h; exact h.elim

theorem Ext.wf_in (h : Ext C s s') {a : Atom} (ha : a.In 0 s.fresh s.freshCell) : a.In 0 s'.fresh s'.freshCell :=
  ha.mono (Nat.le_refl _) h.fresh h.freshCell

theorem copyList_good {n : Nat} {rec : Rec} (hr : Good C k0 n rec) : ∀ (xs : List Atom) {s r s'}, k0 ≤ s.freshCell → WF s →
    (∀ a ∈ xs, a.In 0 s.fresh s.freshCell) → (∀ m, Atom.obj m ∈ xs → (s.nodes m).IsAvb) →
    copyList rec xs s = (r, s') →
    Ext C s s' ∧ WF s' ∧ ∀ ys, r = .ok ys →
      Mid C s s' ∧ (∀ a ∈ ys, a.In s.fresh s'.fresh s'.freshCell) ∧
        (∀ m, Atom.obj m ∈ ys → (s'.nodes m).IsAvb) ∧ List.Forall₂ (ARel (Rel C k0 n s' none)) xs ys := by
  intro xs
  induction xs with
  | nil =>
    intro s r s' hk hw _ _ h
    obtain ⟨rfl, rfl⟩ := pure_eq.1 h
    refine ⟨.refl C _, hw, fun ys e => ?_⟩
    cases e
    exact ⟨.refl hw, by simp, by simp, .nil⟩
  | cons a xs ih =>
    intro s r s' hk hw hin hav h
    have hin' : ∀ a ∈ xs, a.In 0 s.fresh s.freshCell := fun a ha => hin a (List.mem_cons_of_mem _ ha)
    have hav' : ∀ m, Atom.obj m ∈ xs → (s.nodes m).IsAvb := fun m hm => hav m (List.mem_cons_of_mem _ hm)
    have plain : ∀ {a : Atom}, (∀ m, a ≠ .obj m) → a.In 0 s.fresh s.freshCell →
        (copyList rec xs >>= fun ys => pure (a :: ys)) s = (r, s') →
        Ext C s s' ∧ WF s' ∧ ∀ ys, r = .ok ys →
          Mid C s s' ∧ (∀ a ∈ ys, a.In s.fresh s'.fresh s'.freshCell) ∧
            (∀ m, Atom.obj m ∈ ys → (s'.nodes m).IsAvb) ∧
            List.Forall₂ (ARel (Rel C k0 n s' none)) (a :: xs) ys := by
      intro a ha hia h
      rcases bind_eq.1 h with ⟨ys, s1, h1, h2⟩ | ⟨e, h1, rfl⟩
      · obtain ⟨rfl, rfl⟩ := pure_eq.1 h2
        obtain ⟨he, hw', hok⟩ := ih hk hw hin' hav' h1
        refine ⟨he, hw', fun zs e => ?_⟩
        cases e
        obtain ⟨hm, hi, ha', hf⟩ := hok ys rfl
        refine ⟨hm, ?_, ?_, .cons ?_ hf⟩
        · intro b hb
          rcases List.mem_cons.1 hb with rfl | hb
          · have := he.wf_in hia
            cases b with
            | obj m => exact absurd rfl (ha m)
            | _ => exact this
          · exact hi b hb
        · intro m hm
          rcases List.mem_cons.1 hm with e | hm
          · exact absurd e.symm (ha m)
          · exact ha' m hm
        · cases a with
          | obj m => exact absurd rfl (ha m)
          | _ => rfl
      · obtain ⟨he, hw', _⟩ := ih hk hw hin' hav' h1
        exact ⟨he, hw', fun ys e => by cases e⟩
    cases a with
    | obj m =>
      have hm := hav m List.mem_cons_self
      have hmi := hin _ (List.mem_cons_self)
      unfold copyList at h
      rw [bind_ok node_eq] at h
      cases hnm : s.nodes m with
      | refs => rw [hnm] at hm; exact hm.elim
      | attrs => rw [hnm] at hm; exact hm.elim
      | avb c i ps =>
        rw [hnm] at h
        dsimp only at h
        rcases bind_eq.1 h with ⟨m', s1, h1, h2⟩ | ⟨e, h1, rfl⟩
        · obtain ⟨he1, hw1, hok1⟩ := hr hk hw hmi.2 h1
          obtain ⟨hmid, hlo, hhi, hrel⟩ := hok1 m' rfl
          have hav1 : ∀ m, Atom.obj m ∈ xs → (s1.nodes m).IsAvb := by
            intro x hx
            rw [he1.nodes x (hin' _ hx).2]
            exact hav' x hx
          rcases bind_eq.1 h2 with ⟨ys, s2, h3, h4⟩ | ⟨e, h3, rfl⟩
          · obtain ⟨rfl, rfl⟩ := pure_eq.1 h4
            obtain ⟨he2, hw2, hok2⟩ := ih (Nat.le_trans hk he1.freshCell) hw1 (fun a ha => he1.wf_in (hin' a ha)) hav1 h3
            refine ⟨he1.trans he2, hw2, fun zs e => ?_⟩
            cases e
            obtain ⟨hmid2, hi2, ha2, hf2⟩ := hok2 ys rfl
            have hrel2 : Rel C k0 n s' none m m' :=
              Rel.later hw (.refl C s) hmid (fun x hx => he2.nodes x (Nat.lt_of_lt_of_le hx he1.fresh))
                (fun x _ hx => he2.nodes x hx) he2.cells hmi.2 hlo hhi hrel
            refine ⟨hmid.trans hmid2, ?_, ?_, .cons ⟨m', rfl, hrel2⟩ hf2⟩
            · intro b hb
              rcases List.mem_cons.1 hb with rfl | hb
              · exact ⟨hlo, Nat.lt_of_lt_of_le hhi he2.fresh⟩
              · exact (hi2 b hb).mono he1.fresh (Nat.le_refl _) (Nat.le_refl _)
            · intro x hx
              rcases List.mem_cons.1 hx with e | hx
              · cases e
                refine hrel2.isAvb ?_
                rw [(he1.trans he2).nodes m hmi.2]
                exact hm
              · exact ha2 x hx
          · obtain ⟨he2, hw2, _⟩ := ih (Nat.le_trans hk he1.freshCell) hw1 (fun a ha => he1.wf_in (hin' a ha)) hav1 h3
            exact ⟨he1.trans he2, hw2, fun ys e => by cases e⟩
        · obtain ⟨he1, hw1, _⟩ := hr hk hw hmi.2 h1
          exact ⟨he1, hw1, fun ys e => by cases e⟩
    | none => exact plain (fun m e => by cases e) (hin _ List.mem_cons_self) h
    | int => exact plain (fun m e => by cases e) (hin _ List.mem_cons_self) h
    | text => exact plain (fun m e => by cases e) (hin _ List.mem_cons_self) h
    | bytes => exact plain (fun m e => by cases e) (hin _ List.mem_cons_self) h
    | buf => exact plain (fun m e => by cases e) (hin _ List.mem_cons_self) h
    | cell => exact plain (fun m e => by cases e) (hin _ List.mem_cons_self) h

theorem copyItems_good {n : Nat} {rec : Rec} (hr : Good C k0 n rec) : ∀ (xs : List Atom) {s r s'}, k0 ≤ s.freshCell → WF s →
    (∀ a ∈ xs, a.In 0 s.fresh s.freshCell) → copyItems rec xs s = (r, s') →
    Ext C s s' ∧ WF s' ∧ ∀ ys, r = .ok ys →
      Mid C s s' ∧ (∀ a ∈ ys, a.In s.fresh s'.fresh s'.freshCell) ∧
        List.Forall₂ (ARel (Rel C k0 n s' none)) xs ys := by
  intro xs
  induction xs with
  | nil =>
    intro s r s' hk hw _ h
    obtain ⟨rfl, rfl⟩ := pure_eq.1 h
    refine ⟨.refl C _, hw, fun ys e => ?_⟩
    cases e
    exact ⟨.refl hw, by simp, .nil⟩
  | cons a xs ih =>
    intro s r s' hk hw hin h
    have hin' : ∀ a ∈ xs, a.In 0 s.fresh s.freshCell := fun a ha => hin a (List.mem_cons_of_mem _ ha)
    cases a with
    | obj m =>
      have hmi := hin _ (List.mem_cons_self)
      unfold copyItems at h
      rcases bind_eq.1 h with ⟨m', s1, h1, h2⟩ | ⟨e, h1, rfl⟩
      · obtain ⟨he1, hw1, hok1⟩ := hr hk hw hmi.2 h1
        obtain ⟨hmid, hlo, hhi, hrel⟩ := hok1 m' rfl
        rcases bind_eq.1 h2 with ⟨ys, s2, h3, h4⟩ | ⟨e, h3, rfl⟩
        · obtain ⟨rfl, rfl⟩ := pure_eq.1 h4
          obtain ⟨he2, hw2, hok2⟩ := ih (Nat.le_trans hk he1.freshCell) hw1 (fun a ha => he1.wf_in (hin' a ha)) h3
          refine ⟨he1.trans he2, hw2, fun zs e => ?_⟩
          cases e
          obtain ⟨hmid2, hi2, hf2⟩ := hok2 ys rfl
          have hrel2 : Rel C k0 n s' none m m' :=
            Rel.later hw (.refl C s) hmid (fun x hx => he2.nodes x (Nat.lt_of_lt_of_le hx he1.fresh))
              (fun x _ hx => he2.nodes x hx) he2.cells hmi.2 hlo hhi hrel
          refine ⟨hmid.trans hmid2, ?_, .cons ⟨m', rfl, hrel2⟩ hf2⟩
          intro b hb
          rcases List.mem_cons.1 hb with rfl | hb
          · exact ⟨hlo, Nat.lt_of_lt_of_le hhi he2.fresh⟩
          · exact (hi2 b hb).mono he1.fresh (Nat.le_refl _) (Nat.le_refl _)
        · obtain ⟨he2, hw2, _⟩ := ih (Nat.le_trans hk he1.freshCell) hw1 (fun a ha => he1.wf_in (hin' a ha)) h3
          exact ⟨he1.trans he2, hw2, fun ys e => by cases e⟩
      · obtain ⟨he1, hw1, _⟩ := hr hk hw hmi.2 h1
        exact ⟨he1, hw1, fun ys e => by cases e⟩
    | _ =>
      unfold copyItems at h
      cases h
      exact ⟨.refl C _, hw, fun ys e => by cases e⟩

theorem dupBuf_mid {m : Nat} (hw : WF s) : Mid C s (dupBuf m s).2 := by
  refine ⟨⟨Nat.le_refl _, Nat.le_succ _, Nat.le_refl _, fun _ _ => rfl, ?_, fun _ _ => rfl, ?_, ?_⟩, ⟨?_, ?_, ?_⟩, ?_⟩
  · intro c hc
    show (if c = s.freshCell then _ else _) = _
    rw [if_neg (by omega)]
  · intro l h1 h2
    have : l < s.fresh := h2
    omega
  · intro l h1 h2
    have : l < s.fresh := h2
    omega
  · intro l hl a ha
    exact (hw.within l hl a ha).mono (Nat.le_refl _) (Nat.le_refl _) (Nat.le_succ _)
  · exact hw.names
  · intro l hl
    exact (hw.lists l hl).mono fun _ h => h
  · intro l h1 h2
    have : l < s.fresh := h2
    omega

theorem copyEntry_good {n : Nat} {rec : Rec} (hr : Good C k0 n rec) {a : Atom} {s s' : St} {r} (hk : k0 ≤ s.freshCell) (hw : WF s)
    (hin : a.In 0 s.fresh s.freshCell) (h : copyEntry rec a s = (r, s')) :
    Ext C s s' ∧ WF s' ∧ ∀ b, r = .ok b →
      Mid C s s' ∧ b.In s.fresh s'.fresh s'.freshCell ∧ ERel k0 s' (Rel C k0 n s' none) a b := by
  cases a with
  | int k =>
    obtain ⟨rfl, rfl⟩ := pure_eq.1 h
    exact ⟨.refl C _, hw, fun b e => by cases e; exact ⟨.refl hw, trivial, rfl⟩⟩
  | text k =>
    obtain ⟨rfl, rfl⟩ := pure_eq.1 h
    exact ⟨.refl C _, hw, fun b e => by cases e; exact ⟨.refl hw, trivial, rfl⟩⟩
  | buf m =>
    have hd : dupBuf m s = (.ok s.freshCell, (dupBuf m s).2) := rfl
    have hmid := dupBuf_mid (C := C) (m := m) hw
    replace h : (dupBuf m >>= fun m' => pure (.buf m')) s = (r, s') := h
    rw [bind_ok hd] at h
    obtain ⟨rfl, rfl⟩ := pure_eq.1 h
    refine ⟨hmid.ext, hmid.wf, fun b e => ?_⟩
    cases e
    refine ⟨hmid, Nat.lt_succ_self _, s.freshCell, rfl, hk, ?_⟩
    show (if s.freshCell = s.freshCell then _ else _) = (if m = s.freshCell then _ else _)
    rw [if_pos rfl, if_neg (by have : m < s.freshCell := hin; omega)]
  | obj m =>
    unfold copyEntry at h
    rcases bind_eq.1 h with ⟨m', s1, h1, h2⟩ | ⟨e, h1, rfl⟩
    · obtain ⟨rfl, rfl⟩ := pure_eq.1 h2
      obtain ⟨he, hw', hok⟩ := hr hk hw hin.2 h1
      refine ⟨he, hw', fun b e => ?_⟩
      cases e
      obtain ⟨hmid, hlo, hhi, hrel⟩ := hok m' rfl
      exact ⟨hmid, ⟨hlo, hhi⟩, m', rfl, hrel⟩
    · obtain ⟨he, hw', _⟩ := hr hk hw hin.2 h1
      exact ⟨he, hw', fun b e => by cases e⟩
  | _ =>
    unfold copyEntry at h
    cases h
    exact ⟨.refl C _, hw, fun b e => by cases e⟩

theorem copyEntries_good {n : Nat} {rec : Rec} (hr : Good C k0 n rec) : ∀ (ps : List (Text × Atom)) {s r s'}, k0 ≤ s.freshCell → WF s →
    (∀ p ∈ ps, p.2.In 0 s.fresh s.freshCell) → copyEntries rec ps s = (r, s') →
    Ext C s s' ∧ WF s' ∧ ∀ qs, r = .ok qs →
      Mid C s s' ∧ (∀ q ∈ qs, q.2.In s.fresh s'.fresh s'.freshCell) ∧
        List.Forall₂ (fun p q => q.1 = p.1 ∧ ERel k0 s' (Rel C k0 n s' none) p.2 q.2) ps qs := by
  intro ps
  induction ps with
  | nil =>
    intro s r s' hk hw _ h
    obtain ⟨rfl, rfl⟩ := pure_eq.1 h
    refine ⟨.refl C _, hw, fun ys e => ?_⟩
    cases e
    exact ⟨.refl hw, by simp, .nil⟩
  | cons p ps ih =>
    obtain ⟨k, a⟩ := p
    intro s r s' hk hw hin h
    have hin' : ∀ p ∈ ps, p.2.In 0 s.fresh s.freshCell := fun a ha => hin a (List.mem_cons_of_mem _ ha)
    have hia : a.In 0 s.fresh s.freshCell := hin _ List.mem_cons_self
    unfold copyEntries at h
    rcases bind_eq.1 h with ⟨b, s1, h1, h2⟩ | ⟨e, h1, rfl⟩
    · obtain ⟨he1, hw1, hok1⟩ := copyEntry_good hr hk hw hia h1
      obtain ⟨hmid, hib, hrel⟩ := hok1 b rfl
      rcases bind_eq.1 h2 with ⟨qs, s2, h3, h4⟩ | ⟨e, h3, rfl⟩
      · obtain ⟨rfl, rfl⟩ := pure_eq.1 h4
        obtain ⟨he2, hw2, hok2⟩ := ih (Nat.le_trans hk he1.freshCell) hw1 (fun a ha => he1.wf_in (hin' a ha)) h3
        refine ⟨he1.trans he2, hw2, fun zs e => ?_⟩
        cases e
        obtain ⟨hmid2, hi2, hf2⟩ := hok2 qs rfl
        refine ⟨hmid.trans hmid2, ?_, .cons ⟨rfl, hrel.mono ?_ ?_⟩ hf2⟩
        · intro q hq
          rcases List.mem_cons.1 hq with rfl | hq
          · exact hib.mono (Nat.le_refl _) he2.fresh he2.freshCell
          · exact (hi2 q hq).mono he1.fresh (Nat.le_refl _) (Nat.le_refl _)
        · rintro m m' rfl rfl r
          exact Rel.later hw (.refl C s) hmid (fun x hx => he2.nodes x (Nat.lt_of_lt_of_le hx he1.fresh))
              (fun x _ hx => he2.nodes x hx) he2.cells hia.2 hib.1 hib.2 r
        · rintro m m' rfl rfl r
          rw [he2.cells m (Nat.lt_of_lt_of_le hia he1.freshCell), he2.cells m' hib, r]
      · obtain ⟨he2, hw2, _⟩ := ih (Nat.le_trans hk he1.freshCell) hw1 (fun a ha => he1.wf_in (hin' a ha)) h3
        exact ⟨he1.trans he2, hw2, fun ys e => by cases e⟩
    · obtain ⟨he1, hw1, _⟩ := copyEntry_good hr hk hw hia h1
      exact ⟨he1, hw1, fun ys e => by cases e⟩

theorem copyVal_good {n : Nat} {rec : Rec} (hr : Good C k0 n rec) {l' : Nat} {v : Val} {s s' : St} {r} (hk : k0 ≤ s.freshCell) (hw : WF s)
    (hin : ∀ a ∈ v.atoms, a.In 0 s.fresh s.freshCell)
    (hav : ∀ xs, v = .list xs → ∀ m, Atom.obj m ∈ xs → (s.nodes m).IsAvb)
    (h : copyVal rec l' v s = (r, s')) :
    Ext C s s' ∧ WF s' ∧ ∀ w, r = .ok w →
      Mid C s s' ∧ (∀ a ∈ w.atoms, a.In s.fresh s'.fresh s'.freshCell) ∧
        (∀ xs, w = .list xs → ∀ m, Atom.obj m ∈ xs → (s'.nodes m).IsAvb) ∧ VRel (Rel C k0 n s') l' v w := by
  cases v with
  | list xs =>
    unfold copyVal at h
    rcases bind_eq.1 h with ⟨ys, s1, h1, h2⟩ | ⟨e, h1, rfl⟩
    · obtain ⟨rfl, rfl⟩ := pure_eq.1 h2
      obtain ⟨he, hw', hok⟩ := copyList_good hr xs hk hw hin (hav xs rfl) h1
      refine ⟨he, hw', fun w e => ?_⟩
      cases e
      obtain ⟨hm, hi, ha, hf⟩ := hok ys rfl
      exact ⟨hm, hi, fun zs e m hm => by cases e; exact ha m hm, ys, rfl, hf⟩
    · obtain ⟨he, hw', _⟩ := copyList_good hr xs hk hw hin (hav xs rfl) h1
      exact ⟨he, hw', fun w e => by cases e⟩
  | atom a =>
    have plain : ∀ {a : Atom}, (∀ m, a ≠ .obj m) → a.In 0 s.fresh s.freshCell →
        (pure (.atom a) : M Val) s = (r, s') →
        Ext C s s' ∧ WF s' ∧ ∀ w, r = .ok w →
          Mid C s s' ∧ (∀ a ∈ w.atoms, a.In s.fresh s'.fresh s'.freshCell) ∧
            (∀ xs, w = .list xs → ∀ m, Atom.obj m ∈ xs → (s'.nodes m).IsAvb) ∧
            VRel (Rel C k0 n s') l' (.atom a) w := by
      intro a ha hia h
      obtain ⟨rfl, rfl⟩ := pure_eq.1 h
      refine ⟨.refl C _, hw, fun w e => ?_⟩
      cases e
      refine ⟨.refl hw, ?_, fun xs e => (by cases e), ?_⟩
      · intro b hb
        obtain rfl := List.mem_singleton.1 hb
        cases b with
        | obj m => exact absurd rfl (ha m)
        | _ => exact hia
      · cases a with
        | obj m => exact absurd rfl (ha m)
        | _ => rfl
    cases a with
    | obj m =>
      have hmi := hin (.obj m) (List.mem_singleton.2 rfl)
      unfold copyVal at h
      rcases bind_eq.1 h with ⟨m', s1, h1, h2⟩ | ⟨e, h1, rfl⟩
      · obtain ⟨rfl, rfl⟩ := pure_eq.1 h2
        obtain ⟨he, hw', hok⟩ := hr hk hw hmi.2 h1
        refine ⟨he, hw', fun b e => ?_⟩
        cases e
        obtain ⟨hmid, hlo, hhi, hrel⟩ := hok m' rfl
        refine ⟨hmid, ?_, fun xs e => (by cases e), m', rfl, hrel⟩
        intro b hb
        obtain rfl := List.mem_singleton.1 hb
        exact ⟨hlo, hhi⟩
      · obtain ⟨he, hw', _⟩ := hr hk hw hmi.2 h1
        exact ⟨he, hw', fun b e => by cases e⟩
    | none => exact plain (fun m e => by cases e) (hin _ (List.mem_singleton.2 rfl)) h
    | int => exact plain (fun m e => by cases e) (hin _ (List.mem_singleton.2 rfl)) h
    | text => exact plain (fun m e => by cases e) (hin _ (List.mem_singleton.2 rfl)) h
    | bytes => exact plain (fun m e => by cases e) (hin _ (List.mem_singleton.2 rfl)) h
    | buf => exact plain (fun m e => by cases e) (hin _ (List.mem_singleton.2 rfl)) h
    | cell => exact plain (fun m e => by cases e) (hin _ (List.mem_singleton.2 rfl)) h

theorem setProp_eq {l c : Nat} {i : Option Nat} {ps : List (Text × Val)} {k : Text} {v : Val}
    (h : s.nodes l = .avb c i ps) :
    setProp l k v s = (.ok (), s.withNode l (.avb c i (dictSet ps k v))) := by
  unfold setProp
  rw [bind_ok node_eq, h]
  rfl

theorem Mid.setProp {l c : Nat} {i : Option Nat} {ps : List (Text × Val)} {k : Text} {v : Val}
    (hm : Mid C s0 s) (hl : s0.fresh ≤ l) (hl' : l < s.fresh) (h : s.nodes l = .avb c i ps)
    (hv : ∀ a ∈ v.atoms, a.In s0.fresh s.fresh s.freshCell)
    (hav : ∀ xs, v = .list xs → ∀ m, Atom.obj m ∈ xs → (s.nodes m).IsAvb) :
    Mid C s0 (s.withNode l (.avb c i (dictSet ps k v))) := by
  have hc := hm.closed l hl hl'
  have hn := hm.wf.names l hl'
  have hL := hm.wf.lists l hl'
  rw [h] at hc hn hL
  refine hm.withNode hl hl' (by rw [h]; rfl) (by rw [h]; rfl) (by rw [h]; exact Iff.rfl) ?_ (keys_dictSet hn) ?_
  · intro a ha
    obtain ⟨p, hp, ha⟩ := List.mem_flatMap.1 ha
    rcases mem_dictSet hp with rfl | hp
    · exact hv a ha
    · exact hc a (List.mem_flatMap.2 ⟨p, hp, ha⟩)
  · intro p hp xs hx m hmx
    rcases mem_dictSet hp with rfl | hp
    · exact hav xs hx m hmx
    · exact hL p hp xs hx m hmx

theorem copyProps_good {n : Nat} {rec : Rec} (hr : Good C k0 n rec) (hk : k0 ≤ s0.freshCell) (hw0 : WF s0) {l' c : Nat} {i : Option Nat}
    (hl : s0.fresh ≤ l') : ∀ (ps : List (Text × Val)) {s r s' qs}, Mid C s0 s → l' < s.fresh →
    s.nodes l' = .avb c i qs → (∀ p ∈ ps, ∀ a ∈ p.2.atoms, a.In 0 s0.fresh s0.freshCell) → ListsOK s0 ps →
    (ps.map (·.1)).Nodup → copyProps rec l' ps s = (r, s') →
    Ext C s0 s' ∧ WF s' ∧ ∀ u, r = .ok u →
      Mid C s0 s' ∧ s.fresh ≤ s'.fresh ∧ (∀ x < s.fresh, x ≠ l' → s'.nodes x = s.nodes x) ∧
        (∀ x < s.freshCell, s'.cells x = s.cells x) ∧
        ∃ qs', s'.nodes l' = .avb c i qs' ∧
          (∀ k v, find ps k = some v → ∃ v', find qs' k = some v' ∧ VRel (Rel C k0 n s') l' v v') ∧
          ∀ k, k ∉ ps.map (·.1) → find qs' k = find qs k := by
  intro ps
  induction ps with
  | nil =>
    intro s r s' qs hm _ hnd _ _ _ h
    obtain ⟨rfl, rfl⟩ := pure_eq.1 h
    refine ⟨hm.ext, hm.wf, fun u _ => ⟨hm, Nat.le_refl _, fun _ _ _ => rfl, fun _ _ => rfl, qs, hnd, ?_, fun _ _ => rfl⟩⟩
    intro k v hv
    simp [find] at hv
  | cons p ps ih =>
    obtain ⟨k, v⟩ := p
    intro s r s' qs hm hl' hnd hin hL hkeys h
    have hin' : ∀ p ∈ ps, ∀ a ∈ p.2.atoms, a.In 0 s0.fresh s0.freshCell :=
      fun p hp => hin p (List.mem_cons_of_mem _ hp)
    have hL' : ListsOK s0 ps := fun p hp => hL p (List.mem_cons_of_mem _ hp)
    rw [List.map_cons, List.nodup_cons] at hkeys
    have hv0 : ∀ a ∈ v.atoms, a.In 0 s0.fresh s0.freshCell := hin (k, v) List.mem_cons_self
    have hvin : ∀ a ∈ v.atoms, a.In 0 s.fresh s.freshCell := fun a ha => hm.ext.wf_in (hv0 a ha)
    have hav : ∀ xs, v = .list xs → ∀ m, Atom.obj m ∈ xs → (s.nodes m).IsAvb := by
      rintro xs rfl m hmx
      rw [hm.ext.nodes m (hv0 (.obj m) hmx).2]
      exact hL (k, .list xs) List.mem_cons_self xs rfl m hmx
    unfold copyProps at h
    rcases bind_eq.1 h with ⟨w, s1, h1, h2⟩ | ⟨e, h1, rfl⟩
    · obtain ⟨he1, hw1, hok1⟩ := copyVal_good hr (Nat.le_trans hk hm.ext.freshCell) hm.wf hvin hav h1
      obtain ⟨hm1, hi1, ha1, hv1⟩ := hok1 w rfl
      have hnd1 : s1.nodes l' = .avb c i qs := by rw [he1.nodes l' hl', hnd]
      rw [bind_ok (setProp_eq hnd1)] at h2
      have hl1 : l' < s1.fresh := Nat.lt_of_lt_of_le hl' he1.fresh
      have hm2 := (hm.trans hm1).setProp (k := k) hl hl1 hnd1
        (fun a ha => (hi1 a ha).mono hm.ext.fresh (Nat.le_refl _) (Nat.le_refl _)) ha1
      obtain ⟨he3, hw3, hok3⟩ := ih (s := s1.withNode l' (.avb c i (dictSet qs k w))) hm2 hl1 withNode_self hin' hL'
        hkeys.2 h2
      refine ⟨he3, hw3, fun u e => ?_⟩
      obtain ⟨hm3, hf3, hn3, hc3, qs', hnd3, hrel3, hold3⟩ := hok3 u e
      refine ⟨hm3, Nat.le_trans he1.fresh hf3, ?_, ?_, qs', hnd3, ?_, ?_⟩
      · intro x hx hne
        rw [hn3 x (Nat.lt_of_lt_of_le hx he1.fresh) hne, withNode_ne hne, he1.nodes x hx]
      · intro x hx
        rw [hc3 x (Nat.lt_of_lt_of_le hx he1.freshCell)]
        exact he1.cells x hx
      · intro j u hu
        rw [find_cons] at hu
        split at hu
        · next hkj =>
          simp only at hkj
          subst hkj
          cases hu
          refine ⟨w, ?_, hv1.mono ?_⟩
          · rw [hold3 k hkeys.1, find_dictSet_self]
          · intro o m m' hmv hmw r
            have b := hi1 _ hmw
            refine Rel.later (s1 := s1) hw0 hm.ext hm1 ?_ ?_ ?_ (hv0 _ hmv).2 b.1 b.2 r
            · intro x hx
              rw [he3.nodes x hx, (hm.trans hm1).ext.nodes x hx]
            · intro x h1 h2
              have : x ≠ l' := by omega
              rw [hn3 x h2 this, withNode_ne this]
            · exact fun x hx => hc3 x hx
        · exact hrel3 j u hu
      · intro j hj
        rw [List.map_cons, List.mem_cons, not_or] at hj
        rw [hold3 j hj.2, find_dictSet_ne hj.1]
    · obtain ⟨he1, hw1, _⟩ := copyVal_good hr (Nat.le_trans hk hm.ext.freshCell) hm.wf hvin hav h1
      exact ⟨hm.ext.trans he1, hw1, fun u e => by cases e⟩

theorem forall₂_keys {R : Text × α → Text × β → Prop} (hR : ∀ p q, R p q → q.1 = p.1) {ps : List (Text × α)}
    {qs : List (Text × β)} (h : List.Forall₂ R ps qs) : qs.map (·.1) = ps.map (·.1) := by
  induction h with
  | nil => rfl
  | cons h _ ih => rw [List.map_cons, List.map_cons, hR _ _ h, ih]

theorem blank_avb (c : Nat) : Blank C (C.hasId c) (fun i => .avb c i []) where
  atoms := fun _ => rfl
  names := fun _ => List.nodup_nil
  lists := fun _ _ _ h => by cases h
  iid := fun _ => rfl
  hasId := fun _ => rfl

theorem blank_refs (c : Nat) (q : Option Nat) : Blank C (C.hasId c) (fun i => .refs c i q []) where
  atoms := fun _ => rfl
  names := fun _ => trivial
  lists := fun _ _ => trivial
  iid := fun _ => rfl
  hasId := fun _ => rfl

theorem blank_attrs : Blank C true (fun i => .attrs i []) where
  atoms := fun _ => rfl
  names := fun _ => List.nodup_nil
  lists := fun _ _ => trivial
  iid := fun _ => rfl
  hasId := fun _ => rfl

theorem createAvb_good (hC : C.Behaves) {c : Nat} {r} (hw : WF s) (h : createAvb C c s = (r, s')) :
    Ext C s s' ∧ WF s' ∧ ∀ l', r = .ok l' →
      Mid C s s' ∧ l' = s.fresh ∧ l' < s'.fresh ∧ ∃ i ps s1 s2, s'.nodes l' = .avb c i ps ∧ C.init c s1 = (.ok ps, s2) := by
  obtain ⟨s1, i, ha, hm, hf, hnd, _, _⟩ := alloc_mid (C := C) (blank_avb c) hw
  unfold createAvb at h
  rw [bind_ok ha] at h
  have hm1 := hm
  rcases bind_eq.1 h with ⟨ps, s2, h1, h2⟩ | ⟨e, h1, rfl⟩
  · obtain ⟨he, hw2⟩ := hC.ext hm.wf h1
    obtain ⟨hcl, hin, hk, hL⟩ := hC.props hm.wf h1
    have hm2 : Mid C s s2 := hm.trans ⟨he, hw2, hcl⟩
    have hlt : s.fresh < s2.fresh := by have := he.fresh; omega
    have hnd2 : s2.nodes s.fresh = .avb c i [] := by rw [he.nodes s.fresh (by omega), hnd]
    have hset : setProps s.fresh ps s2 = (.ok (), s2.withNode s.fresh (.avb c i ps)) := by
      unfold setProps
      rw [bind_ok node_eq, hnd2]
      rfl
    rw [bind_ok hset] at h2
    obtain ⟨rfl, rfl⟩ := pure_eq.1 h2
    have hm3 : Mid C s (s2.withNode s.fresh (.avb c i ps)) := by
      refine hm2.withNode (Nat.le_refl _) hlt (by rw [hnd2]; rfl) (by rw [hnd2]; rfl) (by rw [hnd2]; exact Iff.rfl) ?_ hk hL
      intro a ha
      obtain ⟨p, hp, ha⟩ := List.mem_flatMap.1 ha
      exact (hin p hp a ha).mono (by omega) (Nat.le_refl _) (Nat.le_refl _)
    refine ⟨hm3.ext, hm3.wf, fun l' e => ?_⟩
    cases e
    exact ⟨hm3, rfl, hlt, i, ps, s1, s2, withNode_self, h1⟩
  · obtain ⟨he, hw2⟩ := hC.ext hm.wf h1
    exact ⟨hm.ext.trans he, hw2, fun l' e => by cases e⟩

/-- Copying does what `Good` says. -/
theorem copy_good (hC : C.Behaves) : ∀ n, Good C k0 n (copy C n) := by
  intro n
  induction n with
  | zero =>
    intro s o l r s' hk hw hl h
    cases h
    exact ⟨.refl C _, hw, fun l' e => by cases e⟩
  | succ n ih =>
    intro s o l r s' hk hw hl h
    have hin := hw.within l hl
    have hnames := hw.names l hl
    have hlists := hw.lists l hl
    unfold copy at h
    rw [bind_ok node_eq] at h
    cases hnd : s.nodes l with
    | avb c j ps =>
      rw [hnd] at h hin hnames hlists
      dsimp only at h
      rcases bind_eq.1 h with ⟨l1, s1, h1, h2⟩ | ⟨e, h1, rfl⟩
      · obtain ⟨_, _, hok⟩ := createAvb_good hC hw h1
        obtain ⟨hm1, rfl, hlt, i, qs, t1, t2, hnd1, hinit⟩ := hok l1 rfl
        have hpin : ∀ p ∈ ps, ∀ a ∈ p.2.atoms, a.In 0 s.fresh s.freshCell :=
          fun p hp a ha => hin a (List.mem_flatMap.2 ⟨p, hp, ha⟩)
        rcases bind_eq.1 h2 with ⟨u, s2, h3, h4⟩ | ⟨e, h3, rfl⟩
        · obtain ⟨rfl, rfl⟩ := pure_eq.1 h4
          obtain ⟨he2, hw2, hok2⟩ := copyProps_good ih hk hw (Nat.le_refl _) ps hm1 hlt hnd1 hpin hlists hnames h3
          refine ⟨he2, hw2, fun l' e => ?_⟩
          cases e
          obtain ⟨hm2, hf, hn, hc, qs', hnd2, hrel, hold⟩ := hok2 u rfl
          refine ⟨hm2, Nat.le_refl _, Nat.lt_of_lt_of_le hlt hf, ?_⟩
          unfold Rel
          rw [he2.nodes l hl, hnd, hnd2]
          exact ⟨rfl, hrel, t1, qs, t2, hinit, fun k hk => hold k (find_none.1 hk)⟩
        · obtain ⟨he2, hw2, _⟩ := copyProps_good ih hk hw (Nat.le_refl _) ps hm1 hlt hnd1 hpin hlists hnames h3
          exact ⟨he2, hw2, fun l' e => by cases e⟩
      · obtain ⟨he, hw', _⟩ := createAvb_good hC hw h1
        exact ⟨he, hw', fun l' e => by cases e⟩
    | refs c j q xs =>
      rw [hnd] at h hin
      dsimp only at h
      obtain ⟨s1, i, ha, hm, hf, hnd1, _, _⟩ :=
        alloc_mid (C := C) (blank_refs c (if q.isSome then o else none)) hw
      rw [bind_ok ha] at h
      rcases bind_eq.1 h with ⟨ys, s2, h3, h4⟩ | ⟨e, h3, rfl⟩
      · obtain ⟨he2, hw2, hok2⟩ := copyItems_good ih xs (Nat.le_trans hk hm.ext.freshCell) hm.wf (fun a ha => hm.ext.wf_in (hin a ha)) h3
        obtain ⟨hm2, hi2, hf2⟩ := hok2 ys rfl
        have hlt : s.fresh < s2.fresh := by have := he2.fresh; omega
        have hnd2 : s2.nodes s.fresh = .refs c i (if q.isSome then o else none) [] := by
          rw [he2.nodes s.fresh (by omega), hnd1]
        have hset : setItems s.fresh ys s2 =
            (.ok (), s2.withNode s.fresh (.refs c i (if q.isSome then o else none) ys)) := by
          unfold setItems
          rw [bind_ok node_eq, hnd2]
          rfl
        rw [bind_ok hset] at h4
        obtain ⟨rfl, rfl⟩ := pure_eq.1 h4
        have hm3 : Mid C s (s2.withNode s.fresh (.refs c i (if q.isSome then o else none) ys)) := by
          refine (hm.trans hm2).withNode (Nat.le_refl _) hlt (by rw [hnd2]; rfl) (by rw [hnd2]; rfl)
            (by rw [hnd2]; exact Iff.rfl) ?_ trivial trivial
          intro a ha
          exact (hi2 a ha).mono hm.ext.fresh (Nat.le_refl _) (Nat.le_refl _)
        refine ⟨hm3.ext, hm3.wf, fun l' e => ?_⟩
        cases e
        refine ⟨hm3, Nat.le_refl _, hlt, ?_⟩
        unfold Rel
        rw [hm3.ext.nodes l hl, hnd, withNode_self]
        refine ⟨rfl, rfl, forall₂_mono hf2 ?_⟩
        intro x hx y hy r
        refine r.mono ?_
        rintro m m' rfl rfl r
        have b := hi2 _ hy
        refine Rel.later hw hm.ext hm2 ?_ ?_ (fun _ _ => rfl) (hin _ hx).2 b.1 b.2 r
        · exact fun x hx => withNode_ne (by omega)
        · exact fun x hx _ => withNode_ne (by omega)
      · obtain ⟨he2, hw2, _⟩ := copyItems_good ih xs (Nat.le_trans hk hm.ext.freshCell) hm.wf (fun a ha => hm.ext.wf_in (hin a ha)) h3
        exact ⟨hm.ext.trans he2, hw2, fun l' e => by cases e⟩
    | attrs j ps =>
      rw [hnd] at h hin hnames
      dsimp only at h
      obtain ⟨s1, i, ha, hm, hf, hnd1, _, _⟩ := alloc_mid (C := C) blank_attrs hw
      rw [bind_ok ha] at h
      have hpin : ∀ p ∈ ps, p.2.In 0 s1.fresh s1.freshCell :=
        fun p hp => hm.ext.wf_in (hin _ (List.mem_map.2 ⟨p, hp, rfl⟩))
      rcases bind_eq.1 h with ⟨ys, s2, h3, h4⟩ | ⟨e, h3, rfl⟩
      · obtain ⟨he2, hw2, hok2⟩ := copyEntries_good ih ps (Nat.le_trans hk hm.ext.freshCell) hm.wf hpin h3
        obtain ⟨hm2, hi2, hf2⟩ := hok2 ys rfl
        have hlt : s.fresh < s2.fresh := by have := he2.fresh; omega
        have hnd2 : s2.nodes s.fresh = .attrs i [] := by
          rw [he2.nodes s.fresh (by omega), hnd1]
        have hset : setEntries s.fresh ys s2 = (.ok (), s2.withNode s.fresh (.attrs i ys)) := by
          unfold setEntries
          rw [bind_ok node_eq, hnd2]
          rfl
        rw [bind_ok hset] at h4
        obtain ⟨rfl, rfl⟩ := pure_eq.1 h4
        have hm3 : Mid C s (s2.withNode s.fresh (.attrs i ys)) := by
          refine (hm.trans hm2).withNode (Nat.le_refl _) hlt (by rw [hnd2]; rfl) (by rw [hnd2]; rfl)
            (by rw [hnd2]; exact Iff.rfl) ?_ ?_ trivial
          · intro a ha
            obtain ⟨q, hq, rfl⟩ := List.mem_map.1 ha
            exact (hi2 q hq).mono hm.ext.fresh (Nat.le_refl _) (Nat.le_refl _)
          · show (ys.map (·.1)).Nodup
            rw [forall₂_keys (fun p q h => h.1) hf2]
            exact hnames
        refine ⟨hm3.ext, hm3.wf, fun l' e => ?_⟩
        cases e
        refine ⟨hm3, Nat.le_refl _, hlt, ?_⟩
        unfold Rel
        rw [hm3.ext.nodes l hl, hnd, withNode_self]
        refine forall₂_mono hf2 ?_
        intro x hx y hy r
        have hx' := hin _ (List.mem_map.2 ⟨x, hx, rfl⟩)
        have hy' := hi2 y hy
        refine ⟨r.1, r.2.mono ?_ ?_⟩
        · intro m m' ex ey r
          rw [ex] at hx'
          rw [ey] at hy'
          refine Rel.later hw hm.ext hm2 ?_ ?_ (fun _ _ => rfl) hx'.2 hy'.1 hy'.2 r
          · exact fun x hx => withNode_ne (by omega)
          · exact fun x hx _ => withNode_ne (by omega)
        · exact fun m m' _ _ r => r
      · obtain ⟨he2, hw2, _⟩ := copyEntries_good ih ps (Nat.le_trans hk hm.ext.freshCell) hm.wf hpin h3
        exact ⟨hm.ext.trans he2, hw2, fun l' e => by cases e⟩

/-! ### Following paths -/

theorem find_dict_mem {ps : List (Text × Atom)} {k : Text} {v : Val} (h : (find ps k).map Val.atom = some v) :
    ∃ a, v = .atom a ∧ (k, a) ∈ ps := by
  cases hf : find ps k with
  | none => rw [hf] at h; cases h
  | some a =>
    rw [hf] at h
    cases h
    exact ⟨a, rfl, find_mem hf⟩

theorem item_mem {xs : List Atom} {i : Nat} {v : Val} (h : xs[i]?.map Val.atom = some v) :
    ∃ a, v = .atom a ∧ a ∈ xs := by
  cases hf : xs[i]? with
  | none => rw [hf] at h; cases h
  | some a =>
    rw [hf] at h
    cases h
    exact ⟨a, rfl, List.mem_of_getElem? hf⟩

/-- Where a part of a value is. -/
theorem part_cases {v w : Val} {st : Step} (h : part s v st = some w) :
    (∃ l, v = .atom (.obj l) ∧ ∀ a ∈ w.atoms, a ∈ (s.nodes l).atoms) ∨ ∀ a ∈ w.atoms, a ∈ v.atoms := by
  cases v with
  | list xs =>
    cases st with
    | name k => cases h
    | item i =>
      right
      obtain ⟨a, rfl, ha⟩ := item_mem h
      intro b hb
      obtain rfl := List.mem_singleton.1 hb
      exact ha
  | atom a =>
    cases a with
    | obj l =>
      left
      refine ⟨l, rfl, ?_⟩
      cases st with
      | name k =>
        dsimp only [part] at h
        cases hn : s.nodes l with
        | avb c i ps =>
          rw [hn] at h
          exact fun a ha => List.mem_flatMap.2 ⟨_, find_mem h, ha⟩
        | attrs i ps =>
          rw [hn] at h
          obtain ⟨a, rfl, ha⟩ := find_dict_mem h
          intro b hb
          obtain rfl := List.mem_singleton.1 hb
          exact List.mem_map.2 ⟨_, ha, rfl⟩
        | refs => rw [hn] at h; cases h
      | item i =>
        dsimp only [part] at h
        cases hn : s.nodes l with
        | refs c j q xs =>
          rw [hn] at h
          obtain ⟨a, rfl, ha⟩ := item_mem h
          intro b hb
          obtain rfl := List.mem_singleton.1 hb
          exact ha
        | _ => rw [hn] at h; cases h
    | _ => cases st <;> cases h

theorem part_in {lo hi k : Nat} (hc : ∀ x, lo ≤ x → x < hi → ∀ t ∈ (s.nodes x).atoms, t.In lo hi k)
    {v w : Val} {st : Step} (hv : ∀ a ∈ v.atoms, a.In lo hi k) (h : part s v st = some w) :
    ∀ a ∈ w.atoms, a.In lo hi k := by
  rcases part_cases h with ⟨l, rfl, hw⟩ | hw
  · have := hv (.obj l) (List.mem_singleton.2 rfl)
    exact fun a ha => hc l this.1 this.2 a (hw a ha)
  · exact fun a ha => hv a (hw a ha)

theorem part_congr {lo hi k : Nat} (hn : ∀ x, lo ≤ x → x < hi → s'.nodes x = s.nodes x)
    {v : Val} {st : Step} (hv : ∀ a ∈ v.atoms, a.In lo hi k) : part s' v st = part s v st := by
  cases v with
  | list xs => cases st <;> rfl
  | atom a =>
    cases a with
    | obj l =>
      have := hv (.obj l) (List.mem_singleton.2 rfl)
      have := hn l this.1 this.2
      cases st <;> dsimp only [part] <;>
      rw [this]
    | _ => cases st <;> rfl

theorem follow_in {lo hi k : Nat} (hc : ∀ x, lo ≤ x → x < hi → ∀ t ∈ (s.nodes x).atoms, t.In lo hi k) :
    ∀ (p : List Step) {v w : Val}, (∀ a ∈ v.atoms, a.In lo hi k) → follow s v p = some w →
      ∀ a ∈ w.atoms, a.In lo hi k := by
  intro p
  induction p with
  | nil => intro v w hv h; cases h; exact hv
  | cons st p ih =>
    intro v w hv h
    unfold follow at h
    split at h
    · cases h
    · next u hu => exact ih (part_in hc hv hu) h

theorem follow_congr {lo hi k : Nat} (hc : ∀ x, lo ≤ x → x < hi → ∀ t ∈ (s.nodes x).atoms, t.In lo hi k)
    (hn : ∀ x, lo ≤ x → x < hi → s'.nodes x = s.nodes x) :
    ∀ (p : List Step) {v : Val}, (∀ a ∈ v.atoms, a.In lo hi k) → follow s' v p = follow s v p := by
  intro p
  induction p with
  | nil => intro v _; rfl
  | cons st p ih =>
    intro v hv
    unfold follow
    rw [part_congr hn hv]
    cases hp : part s v st with
    | none => rfl
    | some u => exact ih (part_in hc hv hp)

theorem seen_congr {lo hi k : Nat} (hn : ∀ x, lo ≤ x → x < hi → s'.nodes x = s.nodes x)
    (hk : ∀ m < k, s'.cells m = s.cells m) {v : Val} (hv : ∀ a ∈ v.atoms, a.In lo hi k) :
    seen s' v = seen s v := by
  cases v with
  | list xs => rfl
  | atom a =>
    have ha := hv a (List.mem_singleton.2 rfl)
    cases a with
    | obj l =>
      dsimp only [seen]
      rw [hn l ha.1 ha.2]
    | buf m => dsimp only [seen]; rw [hk m ha]
    | cell m => dsimp only [seen]; rw [hk m ha]
    | _ => rfl

/-- A value and its copy. -/
def XRel (C : Classes) (k0 : Nat) (s : St) (v v' : Val) : Prop :=
  match v with
  | .list xs => ∃ ys n, v' = .list ys ∧ List.Forall₂ (ARel (Rel C k0 n s none)) xs ys
  | .atom (.obj m) => ∃ m' n o, v' = .atom (.obj m') ∧ Rel C k0 n s o m m'
  | .atom (.buf m) => ∃ m', v' = .atom (.buf m') ∧ s.cells m' = s.cells m
  | .atom a => v' = .atom a

theorem VRel.x {n l' : Nat} {v v' : Val} (h : VRel (Rel C k0 n s) l' v v') : XRel C k0 s v v' := by
  cases v with
  | list xs => obtain ⟨ys, e, hf⟩ := h; exact ⟨ys, n, e, hf⟩
  | atom a =>
    cases a with
    | obj m => obtain ⟨m', e, r⟩ := h; exact ⟨m', n, _, e, r⟩
    | buf m => exact ⟨m, h, rfl⟩
    | _ => exact h

theorem ARel.x {n : Nat} {o : Option Nat} {a a' : Atom} (h : ARel (Rel C k0 n s o) a a') :
    XRel C k0 s (.atom a) (.atom a') := by
  cases a with
  | obj m => obtain ⟨m', e, r⟩ := h; exact ⟨m', n, _, congrArg Val.atom e, r⟩
  | buf m => exact ⟨m, congrArg Val.atom h, rfl⟩
  | _ => exact congrArg Val.atom h

theorem ERel.x {n : Nat} {o : Option Nat} {a a' : Atom} (h : ERel k0 s (Rel C k0 n s o) a a') :
    XRel C k0 s (.atom a) (.atom a') := by
  cases a with
  | obj m => obtain ⟨m', e, r⟩ := h; exact ⟨m', n, _, congrArg Val.atom e, r⟩
  | buf m => obtain ⟨m', e, _, r⟩ := h; exact ⟨m', congrArg Val.atom e, r⟩
  | _ => exact congrArg Val.atom h

theorem forall₂_get {R : α → β → Prop} {xs : List α} {ys : List β} (h : List.Forall₂ R xs ys) (i : Nat) :
    (xs[i]? = none ∧ ys[i]? = none) ∨ ∃ x y, xs[i]? = some x ∧ ys[i]? = some y ∧ R x y := by
  induction h generalizing i with
  | nil => left; simp
  | cons h _ ih =>
    cases i with
    | zero => right; exact ⟨_, _, rfl, rfl, h⟩
    | succ i => simpa using ih i

theorem forall₂_length {R : α → β → Prop} {xs : List α} {ys : List β} (h : List.Forall₂ R xs ys) :
    ys.length = xs.length := by
  induction h with
  | nil => rfl
  | cons _ _ ih => simp [ih]

theorem forall₂_find {R : α → β → Prop} {ps : List (Text × α)} {qs : List (Text × β)}
    (h : List.Forall₂ (fun p q => q.1 = p.1 ∧ R p.2 q.2) ps qs) (k : Text) :
    (find ps k = none ∧ find qs k = none) ∨ ∃ x y, find ps k = some x ∧ find qs k = some y ∧ R x y := by
  induction h with
  | nil => left; exact ⟨rfl, rfl⟩
  | cons h _ ih =>
    rw [find_cons, find_cons, h.1]
    split
    · right; exact ⟨_, _, rfl, rfl, h.2⟩
    · exact ih

theorem XRel.items {n i : Nat} {xs ys : List Atom} (h : List.Forall₂ (ARel (Rel C k0 n s none)) xs ys) :
    (xs[i]?.map Val.atom = none ∧ ys[i]?.map Val.atom = none) ∨
      ∃ w w', xs[i]?.map Val.atom = some w ∧ ys[i]?.map Val.atom = some w' ∧ XRel C k0 s w w' := by
  rcases forall₂_get h i with ⟨h1, h2⟩ | ⟨x, y, h1, h2, r⟩
  · left; rw [h1, h2]; exact ⟨rfl, rfl⟩
  · right; exact ⟨.atom x, .atom y, by rw [h1]; rfl, by rw [h2]; rfl, r.x⟩

theorem XRel.entries {n : Nat} {k : Text} {ps qs : List (Text × Atom)}
    (h : List.Forall₂ (fun p q => q.1 = p.1 ∧ ERel k0 s (Rel C k0 n s none) p.2 q.2) ps qs) :
    ((find ps k).map Val.atom = none ∧ (find qs k).map Val.atom = none) ∨
      ∃ w w', (find ps k).map Val.atom = some w ∧ (find qs k).map Val.atom = some w' ∧ XRel C k0 s w w' := by
  rcases forall₂_find h k with ⟨h1, h2⟩ | ⟨x, y, h1, h2, r⟩
  · left; rw [h1, h2]; exact ⟨rfl, rfl⟩
  · right; exact ⟨.atom x, .atom y, by rw [h1]; rfl, by rw [h2]; rfl, r.x⟩

/-- The cases of the relation. -/
theorem Rel.cases {n l l' : Nat} {o : Option Nat} (h : Rel C k0 n s o l l') : ∃ n,
    (∃ c i i' ps ps', s.nodes l = .avb c i ps ∧ s.nodes l' = .avb c i' ps' ∧
      (∀ k v, find ps k = some v → ∃ v', find ps' k = some v' ∧ VRel (Rel C k0 n s) l' v v') ∧ Made C c ps ps') ∨
    (∃ c i i' q xs ys, s.nodes l = .refs c i q xs ∧
      s.nodes l' = .refs c i' (if q.isSome then o else none) ys ∧
      List.Forall₂ (ARel (Rel C k0 n s none)) xs ys) ∨
    ∃ i i' ps qs, s.nodes l = .attrs i ps ∧ s.nodes l' = .attrs i' qs ∧
      List.Forall₂ (fun p q => q.1 = p.1 ∧ ERel k0 s (Rel C k0 n s none) p.2 q.2) ps qs := by
  cases n with
  | zero => exact h.elim
  | succ n =>
    refine ⟨n, ?_⟩
    unfold Rel at h
    cases hl : s.nodes l with
    | avb c i ps =>
      cases hl' : s.nodes l' with
      | avb c' i' ps' =>
        rw [hl, hl'] at h
        obtain ⟨rfl, h1, h2⟩ := h
        exact .inl ⟨_, _, _, _, _, rfl, rfl, h1, h2⟩
      | _ => rw [hl, hl'] at h; exact h.elim
    | refs c i q xs =>
      cases hl' : s.nodes l' with
      | refs c' i' q' ys =>
        rw [hl, hl'] at h
        obtain ⟨rfl, rfl, h2⟩ := h
        exact .inr (.inl ⟨_, _, _, _, _, _, rfl, rfl, h2⟩)
      | _ => rw [hl, hl'] at h; exact h.elim
    | attrs i ps =>
      cases hl' : s.nodes l' with
      | attrs i' qs =>
        rw [hl, hl'] at h
        exact .inr (.inr ⟨_, _, _, _, rfl, rfl, h⟩)
      | _ => rw [hl, hl'] at h; exact h.elim

theorem XRel.part {v v' w : Val} {st : Step} (h : XRel C k0 s v v') (hp : part s v st = some w) :
    ∃ w', part s v' st = some w' ∧ XRel C k0 s w w' := by
  cases v with
  | list xs =>
    obtain ⟨ys, n, rfl, hf⟩ := h
    cases st with
    | name k => cases hp
    | item i =>
      replace hp : xs[i]?.map Val.atom = some w := hp
      rcases XRel.items (i := i) hf with ⟨h1, _⟩ | ⟨u, u', h1, h2, r⟩
      · rw [h1] at hp; cases hp
      · rw [h1] at hp; cases hp; exact ⟨u', h2, r⟩
  | atom a =>
    cases a with
    | obj m =>
      obtain ⟨m', n, o, rfl, r⟩ := h
      obtain ⟨n, ⟨c, i, i', ps, ps', e, e', h1, _⟩ | ⟨c, i, i', q, xs, ys, e, e', h1⟩ | ⟨i, i', ps, qs, e, e', h1⟩⟩ :=
        r.cases
      · cases st with
        | item i => dsimp only [Copy.part] at hp; rw [e] at hp; cases hp
        | name k =>
          dsimp only [Copy.part] at hp ⊢
          rw [e] at hp
          rw [e']
          obtain ⟨v', hv', r⟩ := h1 k w hp
          exact ⟨v', hv', r.x⟩
      · cases st with
        | name k => dsimp only [Copy.part] at hp; rw [e] at hp; cases hp
        | item j =>
          dsimp only [Copy.part] at hp ⊢
          rw [e] at hp
          rw [e']
          dsimp only at hp ⊢
          rcases XRel.items (i := j) h1 with ⟨h1, _⟩ | ⟨u, u', h1, h2, r⟩
          · rw [h1] at hp; cases hp
          · rw [h1] at hp; cases hp; exact ⟨u', h2, r⟩
      · cases st with
        | item i => dsimp only [Copy.part] at hp; rw [e] at hp; cases hp
        | name k =>
          dsimp only [Copy.part] at hp ⊢
          rw [e] at hp
          rw [e']
          dsimp only at hp ⊢
          rcases XRel.entries (k := k) h1 with ⟨h1, _⟩ | ⟨u, u', h1, h2, r⟩
          · rw [h1] at hp; cases hp
          · rw [h1] at hp; cases hp; exact ⟨u', h2, r⟩
    | _ => cases st <;> cases hp

theorem XRel.follow : ∀ (p : List Step) {v v' w : Val}, XRel C k0 s v v' → follow s v p = some w →
    ∃ w', follow s v' p = some w' ∧ XRel C k0 s w w' := by
  intro p
  induction p with
  | nil => intro v v' w h hp; cases hp; exact ⟨v', rfl, h⟩
  | cons st p ih =>
    intro v v' w h hp
    unfold Copy.follow at hp
    split at hp
    · cases hp
    · next u hu =>
      obtain ⟨u', hu', r⟩ := h.part hu
      obtain ⟨w', hw', r⟩ := ih r hp
      refine ⟨w', ?_, r⟩
      unfold Copy.follow
      rw [hu']
      exact hw'

theorem XRel.seen {v v' : Val} (h : XRel C k0 s v v') : seen s v' = seen s v := by
  cases v with
  | list xs =>
    obtain ⟨ys, n, rfl, hf⟩ := h
    show Seen.list _ = Seen.list _
    rw [forall₂_length hf]
  | atom a =>
    cases a with
    | obj m =>
      obtain ⟨m', n, o, rfl, r⟩ := h
      dsimp only [Copy.seen]
      obtain ⟨n, ⟨c, i, i', ps, ps', e, e', h1, _⟩ | ⟨c, i, i', q, xs, ys, e, e', h1⟩ | ⟨i, i', ps, qs, e, e', h1⟩⟩ :=
        r.cases
      · rw [e, e']
      · rw [e, e']
        show Seen.refs _ _ = Seen.refs _ _
        rw [forall₂_length h1]
      · rw [e, e']
        show Seen.attrs _ = Seen.attrs _
        rw [forall₂_keys (fun p q h => h.1) h1]
    | buf m =>
      obtain ⟨m', rfl, r⟩ := h
      show Seen.buf _ = Seen.buf _
      rw [r]
    | none => obtain rfl := h; rfl
    | int => obtain rfl := h; rfl
    | text => obtain rfl := h; rfl
    | bytes => obtain rfl := h; rfl
    | cell => obtain rfl := h; rfl

/-- The parts of the copy, if the original has all properties that constructors set. -/
theorem XRel.part_back {a : Nat} (hF : Full C a s) {v v' w' : Val} {st : Step}
    (hv : ∀ m, v = .atom (.obj m) → m < a) (h : XRel C k0 s v v')
    (hp : Copy.part s v' st = some w') : ∃ w, Copy.part s v st = some w ∧ XRel C k0 s w w' := by
  cases v with
  | list xs =>
    obtain ⟨ys, n, rfl, hf⟩ := h
    cases st with
    | name k => cases hp
    | item i =>
      replace hp : ys[i]?.map Val.atom = some w' := hp
      rcases XRel.items (i := i) hf with ⟨_, h1⟩ | ⟨u, u', h1, h2, r⟩
      · rw [h1] at hp; cases hp
      · rw [h2] at hp; cases hp; exact ⟨u, h1, r⟩
  | atom a =>
    cases a with
    | obj m =>
      obtain ⟨m', n, o, rfl, r⟩ := h
      obtain ⟨n, ⟨c, i, i', ps, ps', e, e', h1, t1, ds, t2, hi, hm⟩ | ⟨c, i, i', q, xs, ys, e, e', h1⟩ | ⟨i, i', ps, qs, e, e', h1⟩⟩ :=
        r.cases
      · cases st with
        | item i => dsimp only [Copy.part] at hp; rw [e'] at hp; cases hp
        | name k =>
          dsimp only [Copy.part] at hp ⊢
          rw [e'] at hp
          rw [e]
          dsimp only at hp ⊢
          cases hf : find ps k with
          | none =>
            rw [hm k hf] at hp
            exact absurd hf (hF m (hv m rfl) e hi k (by rw [hp]; simp))
          | some u =>
            obtain ⟨u', hu', r⟩ := h1 k u hf
            rw [hu'] at hp
            cases hp
            exact ⟨u, rfl, r.x⟩
      · cases st with
        | name k => dsimp only [Copy.part] at hp; rw [e'] at hp; cases hp
        | item j =>
          dsimp only [Copy.part] at hp ⊢
          rw [e'] at hp
          rw [e]
          dsimp only at hp ⊢
          rcases XRel.items (i := j) h1 with ⟨_, h1⟩ | ⟨u, u', h1, h2, r⟩
          · rw [h1] at hp; cases hp
          · rw [h2] at hp; cases hp; exact ⟨u, h1, r⟩
      · cases st with
        | item i => dsimp only [Copy.part] at hp; rw [e'] at hp; cases hp
        | name k =>
          dsimp only [Copy.part] at hp ⊢
          rw [e'] at hp
          rw [e]
          dsimp only at hp ⊢
          rcases XRel.entries (k := k) h1 with ⟨_, h1⟩ | ⟨u, u', h1, h2, r⟩
          · rw [h1] at hp; cases hp
          · rw [h2] at hp; cases hp; exact ⟨u, h1, r⟩
    | buf m => obtain ⟨m', rfl, _⟩ := h; cases st <;> cases hp
    | none => obtain rfl := h; cases st <;> cases hp
    | int => obtain rfl := h; cases st <;> cases hp
    | text => obtain rfl := h; cases st <;> cases hp
    | bytes => obtain rfl := h; cases st <;> cases hp
    | cell => obtain rfl := h; cases st <;> cases hp

theorem XRel.follow_back {a k : Nat} (hF : Full C a s) (hc : ∀ x < a, ∀ t ∈ (s.nodes x).atoms, t.In 0 a k) :
    ∀ (p : List Step) {v v' w' : Val}, (∀ t ∈ v.atoms, t.In 0 a k) → XRel C k0 s v v' →
      Copy.follow s v' p = some w' → ∃ w, Copy.follow s v p = some w ∧ XRel C k0 s w w' := by
  intro p
  induction p with
  | nil => intro v v' w _ h hp; cases hp; exact ⟨v, rfl, h⟩
  | cons st p ih =>
    intro v v' w hv h hp
    unfold Copy.follow at hp
    split at hp
    · cases hp
    · next u' hu' =>
      obtain ⟨u, hu, r⟩ := h.part_back hF
        (by rintro m rfl; exact (hv (.obj m) (List.mem_singleton.2 rfl)).2) hu'
      obtain ⟨w, hw, r⟩ := ih (part_in (fun x _ hx => hc x hx) hv hu) r hp
      refine ⟨w, ?_, r⟩
      unfold Copy.follow
      rw [hu]
      exact hw

/-! ### When copying succeeds -/

/-- The second function does at least what the first does. -/
def Better (rec rec' : Rec) : Prop :=
  ∀ {o l s l' s'}, rec o l s = (.ok l', s') → rec' o l s = (.ok l', s')

theorem bind_is_ok {f : M α} {k : α → M β} {b : β} (h : (f >>= k) s = (.ok b, s')) :
    ∃ a s1, f s = (.ok a, s1) ∧ k a s1 = (.ok b, s') := by
  rcases bind_eq.1 h with h | ⟨e, _, he⟩
  · exact h
  · cases he

variable {rec rec' : Rec}

theorem Better.copyList (h : Better rec rec') : ∀ (xs : List Atom) {s ys s'},
    copyList rec xs s = (.ok ys, s') → copyList rec' xs s = (.ok ys, s') := by
  intro xs
  induction xs with
  | nil => exact fun h => h
  | cons a xs ih =>
    intro s ys s' hx
    have plain : ∀ {a : Atom}, (Copy.copyList rec xs >>= fun ys => pure (a :: ys)) s = (.ok ys, s') →
        (Copy.copyList rec' xs >>= fun ys => pure (a :: ys)) s = (.ok ys, s') := by
      intro a hx
      obtain ⟨zs, s1, h1, h2⟩ := bind_is_ok hx
      rw [bind_ok (ih h1)]
      exact h2
    cases a with
    | obj m =>
      unfold Copy.copyList at hx ⊢
      rw [bind_ok node_eq] at hx ⊢
      cases hn : s.nodes m with
      | avb c i ps =>
        rw [hn] at hx
        dsimp only at hx ⊢
        obtain ⟨m', s1, h1, h2⟩ := bind_is_ok hx
        obtain ⟨zs, s2, h3, h4⟩ := bind_is_ok h2
        rw [bind_ok (h h1), bind_ok (ih h3)]
        exact h4
      | _ => rw [hn] at hx; exact plain hx
    | _ => exact plain hx

theorem Better.copyVal (h : Better rec rec') {l : Nat} {v w : Val} (hx : copyVal rec l v s = (.ok w, s')) :
    copyVal rec' l v s = (.ok w, s') := by
  cases v with
  | list xs =>
    obtain ⟨ys, s1, h1, h2⟩ := bind_is_ok hx
    show (Copy.copyList rec' xs >>= fun ys => pure (Val.list ys)) s = _
    rw [bind_ok (h.copyList xs h1)]
    exact h2
  | atom a =>
    cases a with
    | obj m =>
      obtain ⟨ys, s1, h1, h2⟩ := bind_is_ok hx
      show (rec' (some l) m >>= fun m' => pure (Val.atom (.obj m'))) s = _
      rw [bind_ok (h h1)]
      exact h2
    | _ => exact hx

theorem Better.copyProps (h : Better rec rec') {l : Nat} : ∀ (ps : List (Text × Val)) {s u s'},
    copyProps rec l ps s = (.ok u, s') → copyProps rec' l ps s = (.ok u, s') := by
  intro ps
  induction ps with
  | nil => exact fun h => h
  | cons p ps ih =>
    intro s u s' hx
    obtain ⟨v, s1, h1, h2⟩ := bind_is_ok hx
    obtain ⟨x, s2, h3, h4⟩ := bind_is_ok h2
    unfold Copy.copyProps
    rw [bind_ok (h.copyVal h1), bind_ok h3]
    exact ih h4

theorem Better.copyItems (h : Better rec rec') : ∀ (xs : List Atom) {s ys s'},
    copyItems rec xs s = (.ok ys, s') → copyItems rec' xs s = (.ok ys, s') := by
  intro xs
  induction xs with
  | nil => exact fun h => h
  | cons a xs ih =>
    intro s ys s' hx
    cases a with
    | obj m =>
      obtain ⟨m', s1, h1, h2⟩ := bind_is_ok hx
      obtain ⟨zs, s2, h3, h4⟩ := bind_is_ok h2
      unfold Copy.copyItems
      rw [bind_ok (h h1), bind_ok (ih h3)]
      exact h4
    | _ => cases hx

theorem Better.copyEntry (h : Better rec rec') {a b : Atom} (hx : copyEntry rec a s = (.ok b, s')) :
    copyEntry rec' a s = (.ok b, s') := by
  cases a with
  | obj m =>
    obtain ⟨m', s1, h1, h2⟩ := bind_is_ok hx
    show (rec' none m >>= fun m' => pure (Atom.obj m')) s = _
    rw [bind_ok (h h1)]
    exact h2
  | _ => exact hx

theorem Better.copyEntries (h : Better rec rec') : ∀ (ps : List (Text × Atom)) {s qs s'},
    copyEntries rec ps s = (.ok qs, s') → copyEntries rec' ps s = (.ok qs, s') := by
  intro ps
  induction ps with
  | nil => exact fun h => h
  | cons p ps ih =>
    intro s ys s' hx
    obtain ⟨m', s1, h1, h2⟩ := bind_is_ok hx
    obtain ⟨zs, s2, h3, h4⟩ := bind_is_ok h2
    unfold Copy.copyEntries
    rw [bind_ok (h.copyEntry h1), bind_ok (ih h3)]
    exact h4

/-- More depth does not change the result. -/
theorem copy_better : ∀ n, Better (copy C n) (copy C (n + 1)) := by
  intro n
  induction n with
  | zero => intro o l s l' s' h; cases h
  | succ n ih =>
    intro o l s l' s' h
    unfold copy at h ⊢
    rw [bind_ok node_eq] at h ⊢
    cases hn : s.nodes l with
    | avb c i ps =>
      rw [hn] at h
      dsimp only at h ⊢
      obtain ⟨l1, s1, h1, h2⟩ := bind_is_ok h
      obtain ⟨u, s2, h3, h4⟩ := bind_is_ok h2
      rw [bind_ok h1, bind_ok (ih.copyProps ps h3)]
      exact h4
    | refs c i q xs =>
      rw [hn] at h
      dsimp only at h ⊢
      obtain ⟨l1, s1, h1, h2⟩ := bind_is_ok h
      obtain ⟨u, s2, h3, h4⟩ := bind_is_ok h2
      rw [bind_ok h1, bind_ok (ih.copyItems xs h3)]
      exact h4
    | attrs i ps =>
      rw [hn] at h
      dsimp only at h ⊢
      obtain ⟨l1, s1, h1, h2⟩ := bind_is_ok h
      obtain ⟨u, s2, h3, h4⟩ := bind_is_ok h2
      rw [bind_ok h1, bind_ok (ih.copyEntries ps h3)]
      exact h4

theorem copy_more {n m : Nat} (h : n ≤ m) : Better (copy C n) (copy C m) := by
  induction m with
  | zero => obtain rfl := Nat.le_zero.1 h; exact fun h => h
  | succ m ih =>
    by_cases e : n ≤ m
    · exact fun h => copy_better m (ih e h)
    · obtain rfl : n = m + 1 := by omega
      exact fun h => h

/-- The function copies the object in every later state. -/
def Works (C : Classes) (s0 : St) (rec : Rec) (m : Nat) : Prop :=
  ∀ o s1, Mid C s0 s1 → ∃ l' s2, rec o m s1 = (.ok l', s2)

/-- The function copies the object in some later state. -/
def Worked (C : Classes) (s0 : St) (rec : Rec) (m : Nat) : Prop :=
  ∃ o s1 l' s2, Mid C s0 s1 ∧ rec o m s1 = (.ok l', s2)

theorem Works.better {m : Nat} (h : Works C s0 rec m) (hb : Better rec rec') : Works C s0 rec' m := by
  intro o s1 hm
  obtain ⟨l', s2, h⟩ := h o s1 hm
  exact ⟨l', s2, hb h⟩

theorem Mid.in_le (h : Mid C s0 s) {a : Atom} (ha : a.In 0 s0.fresh s0.freshCell) : a.In 0 s.fresh s.freshCell :=
  h.ext.wf_in ha

variable {n : Nat}

theorem copyList_works (hr : Good C 0 n rec) : ∀ (xs : List Atom) {s}, Mid C s0 s →
    (∀ a ∈ xs, a.In 0 s0.fresh s0.freshCell) → (∀ m, Atom.obj m ∈ xs → Works C s0 rec m) →
    ∃ ys s', copyList rec xs s = (.ok ys, s') := by
  intro xs
  induction xs with
  | nil => exact fun _ _ _ => ⟨_, _, rfl⟩
  | cons a xs ih =>
    intro s hm hin hx
    have hin' : ∀ a ∈ xs, a.In 0 s0.fresh s0.freshCell := fun a ha => hin a (List.mem_cons_of_mem _ ha)
    have hx' : ∀ m, Atom.obj m ∈ xs → Works C s0 rec m := fun m h => hx m (List.mem_cons_of_mem _ h)
    have plain : ∀ a : Atom, ∃ ys s', (copyList rec xs >>= fun ys => pure (a :: ys)) s = (.ok ys, s') := by
      intro a
      obtain ⟨ys, s', h⟩ := ih hm hin' hx'
      rw [bind_ok h]
      exact ⟨_, _, rfl⟩
    cases a with
    | obj m =>
      unfold copyList
      rw [bind_ok node_eq]
      cases hn : s.nodes m with
      | avb c i ps =>
        dsimp only
        obtain ⟨m', s1, h1⟩ := hx m List.mem_cons_self none s hm
        obtain ⟨_, _, hok⟩ := hr (Nat.zero_le _) hm.wf (hm.in_le (hin _ List.mem_cons_self)).2 h1
        obtain ⟨ys, s2, h2⟩ := ih (hm.trans (hok m' rfl).1) hin' hx'
        rw [bind_ok h1, bind_ok h2]
        exact ⟨_, _, rfl⟩
      | _ => exact plain _
    | _ => exact plain _

theorem copyVal_works (hr : Good C 0 n rec) {l' : Nat} {v : Val} (hm : Mid C s0 s)
    (hin : ∀ a ∈ v.atoms, a.In 0 s0.fresh s0.freshCell) (hx : ∀ m, Atom.obj m ∈ v.atoms → Works C s0 rec m) :
    ∃ w s', copyVal rec l' v s = (.ok w, s') := by
  cases v with
  | list xs =>
    obtain ⟨ys, s1, h⟩ := copyList_works hr xs hm hin hx
    show ∃ w s', (copyList rec xs >>= fun ys => pure (Val.list ys)) s = (.ok w, s')
    rw [bind_ok h]
    exact ⟨_, _, rfl⟩
  | atom a =>
    cases a with
    | obj m =>
      obtain ⟨ys, s1, h⟩ := hx m (List.mem_singleton.2 rfl) (some l') s hm
      show ∃ w s', (rec (some l') m >>= fun m' => pure (Val.atom (.obj m'))) s = (.ok w, s')
      rw [bind_ok h]
      exact ⟨_, _, rfl⟩
    | _ => exact ⟨_, _, rfl⟩

theorem lists_later {v : Val} (hm : Mid C s0 s) (hv0 : ∀ a ∈ v.atoms, a.In 0 s0.fresh s0.freshCell)
    (h : ∀ xs, v = .list xs → ∀ m, Atom.obj m ∈ xs → (s0.nodes m).IsAvb) :
    ∀ xs, v = .list xs → ∀ m, Atom.obj m ∈ xs → (s.nodes m).IsAvb := by
  rintro xs rfl m hmx
  rw [hm.ext.nodes m (hv0 (.obj m) hmx).2]
  exact h xs rfl m hmx

/-- After one more property. -/
theorem copyProps_step (hr : Good C 0 n rec) {l' c : Nat} {i : Option Nat} {qs : List (Text × Val)} {k : Text}
    {v w : Val} (hl : s0.fresh ≤ l') (hm : Mid C s0 s) (hl' : l' < s.fresh) (hnd : s.nodes l' = .avb c i qs)
    (hv0 : ∀ a ∈ v.atoms, a.In 0 s0.fresh s0.freshCell)
    (hav : ∀ xs, v = .list xs → ∀ m, Atom.obj m ∈ xs → (s0.nodes m).IsAvb)
    (h : copyVal rec l' v s = (.ok w, s1)) :
    ∃ s2, setProp l' k w s1 = (.ok (), s2) ∧ Mid C s0 s2 ∧ l' < s2.fresh ∧
      s2.nodes l' = .avb c i (dictSet qs k w) := by
  obtain ⟨he1, hw1, hok1⟩ := copyVal_good hr (Nat.zero_le _) hm.wf (fun a ha => hm.in_le (hv0 a ha))
    (lists_later hm hv0 hav) h
  obtain ⟨hm1, hi1, ha1, hv1⟩ := hok1 w rfl
  have hnd1 : s1.nodes l' = .avb c i qs := by rw [he1.nodes l' hl', hnd]
  have hl1 : l' < s1.fresh := Nat.lt_of_lt_of_le hl' he1.fresh
  exact ⟨_, setProp_eq hnd1, (hm.trans hm1).setProp (k := k) hl hl1 hnd1
    (fun a ha => (hi1 a ha).mono hm.ext.fresh (Nat.le_refl _) (Nat.le_refl _)) ha1, hl1, withNode_self⟩

theorem copyProps_works (hr : Good C 0 n rec) {l' c : Nat} {i : Option Nat} (hl : s0.fresh ≤ l') :
    ∀ (ps : List (Text × Val)) {s qs}, Mid C s0 s → l' < s.fresh → s.nodes l' = .avb c i qs →
    (∀ p ∈ ps, ∀ a ∈ p.2.atoms, a.In 0 s0.fresh s0.freshCell) → ListsOK s0 ps →
    (∀ p ∈ ps, ∀ m, Atom.obj m ∈ p.2.atoms → Works C s0 rec m) →
    ∃ u s', copyProps rec l' ps s = (.ok u, s') := by
  intro ps
  induction ps with
  | nil => exact fun _ _ _ _ _ _ => ⟨_, _, rfl⟩
  | cons p ps ih =>
    obtain ⟨k, v⟩ := p
    intro s qs hm hl' hnd hin hL hx
    have hv0 := hin (k, v) List.mem_cons_self
    obtain ⟨w, s1, h1⟩ := copyVal_works (l' := l') hr hm hv0 (hx (k, v) List.mem_cons_self)
    obtain ⟨s2, h2, hm2, hl2, hnd2⟩ := copyProps_step (k := k) hr hl hm hl' hnd hv0
      (hL (k, v) List.mem_cons_self) h1
    obtain ⟨u, s3, h3⟩ := ih hm2 hl2 hnd2 (fun p hp => hin p (List.mem_cons_of_mem _ hp))
      (fun p hp => hL p (List.mem_cons_of_mem _ hp)) (fun p hp => hx p (List.mem_cons_of_mem _ hp))
    unfold copyProps
    rw [bind_ok h1, bind_ok h2]
    exact ⟨u, s3, h3⟩

theorem copyItems_works (hr : Good C 0 n rec) : ∀ (xs : List Atom) {s}, Mid C s0 s →
    (∀ a ∈ xs, a.In 0 s0.fresh s0.freshCell) → (∀ a ∈ xs, ∃ m, a = .obj m) →
    (∀ m, Atom.obj m ∈ xs → Works C s0 rec m) →
    ∃ ys s', copyItems rec xs s = (.ok ys, s') := by
  intro xs
  induction xs with
  | nil => exact fun _ _ _ _ => ⟨_, _, rfl⟩
  | cons a xs ih =>
    intro s hm hin ho hx
    obtain ⟨m, rfl⟩ := ho a List.mem_cons_self
    obtain ⟨m', s1, h1⟩ := hx m List.mem_cons_self none s hm
    obtain ⟨_, _, hok⟩ := hr (Nat.zero_le _) hm.wf (hm.in_le (hin _ List.mem_cons_self)).2 h1
    obtain ⟨ys, s2, h2⟩ := ih (hm.trans (hok m' rfl).1) (fun a ha => hin a (List.mem_cons_of_mem _ ha))
      (fun a ha => ho a (List.mem_cons_of_mem _ ha)) (fun m h => hx m (List.mem_cons_of_mem _ h))
    unfold copyItems
    rw [bind_ok h1, bind_ok h2]
    exact ⟨_, _, rfl⟩

theorem copyEntry_works {a : Atom} (hm : Mid C s0 s) (ho : a.Entry)
    (hx : ∀ m, a = .obj m → Works C s0 rec m) : ∃ b s', copyEntry rec a s = (.ok b, s') := by
  cases a with
  | obj m =>
    obtain ⟨m', s1, h1⟩ := hx m rfl none s hm
    show ∃ w s', (rec none m >>= fun m' => pure (Atom.obj m')) s = (.ok w, s')
    rw [bind_ok h1]
    exact ⟨_, _, rfl⟩
  | int => exact ⟨_, _, rfl⟩
  | text => exact ⟨_, _, rfl⟩
  | buf m => exact ⟨_, _, rfl⟩
  | _ => exact ho.elim

theorem copyEntries_works (hr : Good C 0 n rec) : ∀ (ps : List (Text × Atom)) {s}, Mid C s0 s →
    (∀ p ∈ ps, p.2.In 0 s0.fresh s0.freshCell) → (∀ p ∈ ps, p.2.Entry) →
    (∀ p ∈ ps, ∀ m, p.2 = .obj m → Works C s0 rec m) →
    ∃ ys s', copyEntries rec ps s = (.ok ys, s') := by
  intro ps
  induction ps with
  | nil => exact fun _ _ _ _ => ⟨_, _, rfl⟩
  | cons p ps ih =>
    obtain ⟨k, a⟩ := p
    intro s hm hin ho hx
    obtain ⟨b, s1, h1⟩ := copyEntry_works hm (ho _ List.mem_cons_self) (hx _ List.mem_cons_self)
    obtain ⟨_, _, hok⟩ := copyEntry_good hr (Nat.zero_le _) hm.wf (hm.in_le (hin _ List.mem_cons_self)) h1
    obtain ⟨ys, s2, h2⟩ := ih (hm.trans (hok b rfl).1) (fun a ha => hin a (List.mem_cons_of_mem _ ha))
      (fun a ha => ho a (List.mem_cons_of_mem _ ha)) (fun m h => hx m (List.mem_cons_of_mem _ h))
    unfold copyEntries
    rw [bind_ok h1, bind_ok h2]
    exact ⟨_, _, rfl⟩

/-- Enough depth for finitely many objects. -/
theorem enough (xs : List Atom) (h : ∀ m, Atom.obj m ∈ xs → ∃ n, Works C s0 (copy C n) m) :
    ∃ n, ∀ m, Atom.obj m ∈ xs → Works C s0 (copy C n) m := by
  induction xs with
  | nil => exact ⟨0, fun m hm => by cases hm⟩
  | cons a xs ih =>
    obtain ⟨n, hn⟩ := ih fun m hm => h m (List.mem_cons_of_mem _ hm)
    cases a with
    | obj m =>
      obtain ⟨n', hn'⟩ := h m List.mem_cons_self
      refine ⟨max n n', fun x hx => ?_⟩
      rcases List.mem_cons.1 hx with e | hx
      · cases e
        exact hn'.better (copy_more (Nat.le_max_right _ _))
      · exact (hn x hx).better (copy_more (Nat.le_max_left _ _))
    | _ =>
      refine ⟨n, fun x hx => ?_⟩
      rcases List.mem_cons.1 hx with e | hx
      · cases e
      · exact hn x hx

theorem setProps_ok (l : Nat) (x : List (Text × Val)) (s : St) : ∃ s', setProps l x s = (.ok (), s') := by
  unfold setProps
  rw [bind_ok node_eq]
  cases s.nodes l <;> exact ⟨_, rfl⟩

theorem setItems_ok (l : Nat) (x : List Atom) (s : St) : ∃ s', setItems l x s = (.ok (), s') := by
  unfold setItems
  rw [bind_ok node_eq]
  cases s.nodes l <;> exact ⟨_, rfl⟩

theorem setEntries_ok (l : Nat) (x : List (Text × Atom)) (s : St) : ∃ s', setEntries l x s = (.ok (), s') := by
  unfold setEntries
  rw [bind_ok node_eq]
  cases s.nodes l <;> exact ⟨_, rfl⟩

/-- Copyable objects are copied. -/
theorem copyable_works (hC : C.Behaves) (hw : WF s0) {l : Nat} (h : Copyable C s0 l) (hl : l < s0.fresh) :
    ∃ n, Works C s0 (copy C n) l := by
  induction h with
  | @avb l c i ps hnd hinit _ ih =>
    have hin := hw.within l hl
    have hlists := hw.lists l hl
    obtain ⟨n, hn⟩ := enough _ fun m hm => ih m hm (hin _ hm).2
    refine ⟨n + 1, fun o s1 hm => ?_⟩
    rw [hnd] at hin hlists hn
    unfold copy
    rw [bind_ok node_eq, hm.ext.nodes l hl, hnd]
    dsimp only
    have hcr : ∃ l1 s2, createAvb C c s1 = (.ok l1, s2) := by
      obtain ⟨s2, i, ha, _⟩ := alloc_mid (C := C) (blank_avb c) hm.wf
      unfold createAvb
      rw [bind_ok ha]
      obtain ⟨qs, s3, hq⟩ := hinit s2
      rw [bind_ok hq]
      obtain ⟨s4, h4⟩ := setProps_ok s1.fresh qs s3
      rw [bind_ok h4]
      exact ⟨_, _, rfl⟩
    obtain ⟨l1, s2, h1⟩ := hcr
    obtain ⟨_, _, hok⟩ := createAvb_good hC hm.wf h1
    obtain ⟨hm1, rfl, hlt, i, qs, t1, t2, hnd1, _⟩ := hok l1 rfl
    obtain ⟨u, s3, h3⟩ := copyProps_works (copy_good hC n) hm.ext.fresh ps (hm.trans hm1) hlt hnd1
      (fun p hp a ha => hin a (List.mem_flatMap.2 ⟨p, hp, ha⟩)) hlists
      (fun p hp m hm => hn m (List.mem_flatMap.2 ⟨p, hp, hm⟩))
    rw [bind_ok h1, bind_ok h3]
    exact ⟨_, _, rfl⟩
  | @refs l c i q xs hnd hobj _ ih =>
    have hin := hw.within l hl
    obtain ⟨n, hn⟩ := enough _ fun m hm => ih m hm (hin _ hm).2
    refine ⟨n + 1, fun o s1 hm => ?_⟩
    rw [hnd] at hin hn
    unfold copy
    rw [bind_ok node_eq, hm.ext.nodes l hl, hnd]
    dsimp only
    obtain ⟨s2, j, ha, hm1, hf, hnd1, _, _⟩ :=
      alloc_mid (C := C) (blank_refs c (if q.isSome then o else none)) hm.wf
    obtain ⟨ys, s3, h3⟩ := copyItems_works (copy_good hC n) xs (hm.trans hm1) hin hobj hn
    rw [bind_ok ha, bind_ok h3]
    obtain ⟨s4, h4⟩ := setItems_ok s1.fresh ys s3
    rw [bind_ok h4]
    exact ⟨_, _, rfl⟩
  | @attrs l i ps hnd hent _ ih =>
    have hin := hw.within l hl
    obtain ⟨n, hn⟩ := enough _ fun m hm => ih m hm (hin _ hm).2
    refine ⟨n + 1, fun o s1 hm => ?_⟩
    rw [hnd] at hin hn
    unfold copy
    rw [bind_ok node_eq, hm.ext.nodes l hl, hnd]
    dsimp only
    obtain ⟨s2, j, ha, hm1, hf, hnd1, _, _⟩ := alloc_mid (C := C) blank_attrs hm.wf
    obtain ⟨ys, s3, h3⟩ := copyEntries_works (copy_good hC n) ps (hm.trans hm1)
      (fun p hp => hin _ (List.mem_map.2 ⟨p, hp, rfl⟩)) hent
      (fun p hp m e => hn m (List.mem_map.2 ⟨p, hp, e⟩))
    rw [bind_ok ha, bind_ok h3]
    obtain ⟨s4, h4⟩ := setEntries_ok s1.fresh ys s3
    rw [bind_ok h4]
    exact ⟨_, _, rfl⟩

theorem copyList_worked (hr : Good C 0 n rec) : ∀ (xs : List Atom) {s ys s'}, Mid C s0 s →
    (∀ a ∈ xs, a.In 0 s0.fresh s0.freshCell) → (∀ m, Atom.obj m ∈ xs → (s0.nodes m).IsAvb) →
    copyList rec xs s = (.ok ys, s') → ∀ m, Atom.obj m ∈ xs → Worked C s0 rec m := by
  intro xs
  induction xs with
  | nil => intro _ _ _ _ _ _ _ m hm; cases hm
  | cons a xs ih =>
    intro s ys s' hm hin hav h x hx
    have hin' : ∀ a ∈ xs, a.In 0 s0.fresh s0.freshCell := fun a ha => hin a (List.mem_cons_of_mem _ ha)
    have hav' : ∀ m, Atom.obj m ∈ xs → (s0.nodes m).IsAvb := fun m hm => hav m (List.mem_cons_of_mem _ hm)
    cases a with
    | obj m =>
      have hmi := hin _ (List.mem_cons_self)
      have hma := hav m List.mem_cons_self
      rw [← hm.ext.nodes m hmi.2] at hma
      unfold copyList at h
      rw [bind_ok node_eq] at h
      cases hnm : s.nodes m with
      | refs => rw [hnm] at hma; exact hma.elim
      | attrs => rw [hnm] at hma; exact hma.elim
      | avb c i ps =>
        rw [hnm] at h
        dsimp only at h
        obtain ⟨m', s1, h1, h2⟩ := bind_is_ok h
        obtain ⟨zs, s2, h3, h4⟩ := bind_is_ok h2
        obtain ⟨_, _, hok⟩ := hr (Nat.zero_le _) hm.wf (hm.in_le hmi).2 h1
        rcases List.mem_cons.1 hx with e | hx
        · cases e; exact ⟨none, s, m', s1, hm, h1⟩
        · exact ih (hm.trans (hok m' rfl).1) hin' hav' h3 x hx
    | _ =>
      obtain ⟨zs, s2, h3, h4⟩ := bind_is_ok h
      rcases List.mem_cons.1 hx with e | hx
      · cases e
      · exact ih hm hin' hav' h3 x hx

theorem copyVal_worked (hr : Good C 0 n rec) {l' : Nat} {v w : Val} (hm : Mid C s0 s)
    (hin : ∀ a ∈ v.atoms, a.In 0 s0.fresh s0.freshCell)
    (hav : ∀ xs, v = .list xs → ∀ m, Atom.obj m ∈ xs → (s0.nodes m).IsAvb)
    (h : copyVal rec l' v s = (.ok w, s')) : ∀ m, Atom.obj m ∈ v.atoms → Worked C s0 rec m := by
  cases v with
  | list xs =>
    obtain ⟨ys, s1, h1, _⟩ := bind_is_ok h
    exact copyList_worked hr xs hm hin (hav xs rfl) h1
  | atom a =>
    intro m hma
    obtain rfl := List.mem_singleton.1 hma
    obtain ⟨m', s1, h1, _⟩ := bind_is_ok h
    exact ⟨_, s, m', s1, hm, h1⟩

theorem copyProps_worked (hr : Good C 0 n rec) {l' c : Nat} {i : Option Nat} (hl : s0.fresh ≤ l') :
    ∀ (ps : List (Text × Val)) {s qs u s'}, Mid C s0 s → l' < s.fresh → s.nodes l' = .avb c i qs →
    (∀ p ∈ ps, ∀ a ∈ p.2.atoms, a.In 0 s0.fresh s0.freshCell) → ListsOK s0 ps →
    copyProps rec l' ps s = (.ok u, s') → ∀ p ∈ ps, ∀ m, Atom.obj m ∈ p.2.atoms → Worked C s0 rec m := by
  intro ps
  induction ps with
  | nil => intro _ _ _ _ _ _ _ _ _ _ p hp; cases hp
  | cons p ps ih =>
    obtain ⟨k, v⟩ := p
    intro s qs u s' hm hl' hnd hin hL h q hq
    have hv0 := hin (k, v) List.mem_cons_self
    have hvL := hL (k, v) List.mem_cons_self
    obtain ⟨w, s1, h1, h2⟩ := bind_is_ok h
    obtain ⟨s2, h3, hm2, hl2, hnd2⟩ := copyProps_step (k := k) hr hl hm hl' hnd hv0 hvL h1
    rcases List.mem_cons.1 hq with rfl | hq
    · exact copyVal_worked hr hm hv0 hvL h1
    · rw [bind_ok h3] at h2
      exact ih hm2 hl2 hnd2 (fun p hp => hin p (List.mem_cons_of_mem _ hp))
        (fun p hp => hL p (List.mem_cons_of_mem _ hp)) h2 q hq

theorem copyItems_worked (hr : Good C 0 n rec) : ∀ (xs : List Atom) {s ys s'}, Mid C s0 s →
    (∀ a ∈ xs, a.In 0 s0.fresh s0.freshCell) → copyItems rec xs s = (.ok ys, s') →
    ∀ a ∈ xs, ∃ m, a = .obj m ∧ Worked C s0 rec m := by
  intro xs
  induction xs with
  | nil => intro _ _ _ _ _ _ a ha; cases ha
  | cons a xs ih =>
    intro s ys s' hm hin h b hb
    cases a with
    | obj m =>
      obtain ⟨m', s1, h1, h2⟩ := bind_is_ok h
      obtain ⟨zs, s2, h3, h4⟩ := bind_is_ok h2
      obtain ⟨_, _, hok⟩ := hr (Nat.zero_le _) hm.wf (hm.in_le (hin _ List.mem_cons_self)).2 h1
      rcases List.mem_cons.1 hb with rfl | hb
      · exact ⟨m, rfl, none, s, m', s1, hm, h1⟩
      · exact ih (hm.trans (hok m' rfl).1) (fun a ha => hin a (List.mem_cons_of_mem _ ha)) h3 b hb
    | _ => cases h

theorem copyEntries_worked (hr : Good C 0 n rec) : ∀ (ps : List (Text × Atom)) {s ys s'}, Mid C s0 s →
    (∀ p ∈ ps, p.2.In 0 s0.fresh s0.freshCell) → copyEntries rec ps s = (.ok ys, s') →
    ∀ p ∈ ps, p.2.Entry ∧ ∀ m, p.2 = .obj m → Worked C s0 rec m := by
  intro ps
  induction ps with
  | nil => intro _ _ _ _ _ _ a ha; cases ha
  | cons p ps ih =>
    obtain ⟨k, a⟩ := p
    intro s ys s' hm hin h b hb
    obtain ⟨m', s1, h1, h2⟩ := bind_is_ok h
    obtain ⟨zs, s2, h3, h4⟩ := bind_is_ok h2
    obtain ⟨_, _, hok⟩ := copyEntry_good hr (Nat.zero_le _) hm.wf (hm.in_le (hin _ List.mem_cons_self)) h1
    rcases List.mem_cons.1 hb with rfl | hb
    · constructor
      · cases a with
        | none => cases h1
        | cell => cases h1
        | bytes => cases h1
        | _ => trivial
      · rintro m rfl
        obtain ⟨m', s2, h5, _⟩ := bind_is_ok h1
        exact ⟨none, s, m', s2, hm, h5⟩
    · exact ih (hm.trans (hok m' rfl).1) (fun a ha => hin a (List.mem_cons_of_mem _ ha)) h3 b hb

/-- What is copied is copyable. -/
theorem worked_copyable (hC : C.Behaves) (hw : WF s0) : ∀ n l, l < s0.fresh → Worked C s0 (copy C n) l →
    Copyable C s0 l := by
  intro n
  induction n with
  | zero =>
    rintro l hl ⟨o, s1, l', s2, _, h⟩
    cases h
  | succ n ih =>
    rintro l hl ⟨o, s1, l', s2, hm, h⟩
    have hin := hw.within l hl
    have hlists := hw.lists l hl
    unfold copy at h
    rw [bind_ok node_eq, hm.ext.nodes l hl] at h
    cases hnd : s0.nodes l with
    | avb c j ps =>
      rw [hnd] at h hin hlists
      dsimp only at h
      obtain ⟨l1, s3, h1, h2⟩ := bind_is_ok h
      obtain ⟨_, _, hok⟩ := createAvb_good hC hm.wf h1
      obtain ⟨hm1, rfl, hlt, i, qs, t1, t2, hnd1, hinit⟩ := hok l1 rfl
      obtain ⟨u, s4, h3, h4⟩ := bind_is_ok h2
      have hwk := copyProps_worked (copy_good hC n) hm.ext.fresh ps (hm.trans hm1) hlt hnd1
        (fun p hp a ha => hin a (List.mem_flatMap.2 ⟨p, hp, ha⟩)) hlists h3
      refine .avb hnd ?_ ?_
      · rcases hC.same c with h | h
        · exact h
        · obtain ⟨e, t3, he⟩ := h t1
          rw [he] at hinit
          cases hinit
      · intro m hmm
        rw [hnd] at hmm
        obtain ⟨p, hp, hmp⟩ := List.mem_flatMap.1 hmm
        exact ih m (hin _ hmm).2 (hwk p hp m hmp)
    | refs c j q xs =>
      rw [hnd] at h hin
      dsimp only at h
      obtain ⟨s3, i, ha, hm1, hf, hnd1, _, _⟩ :=
        alloc_mid (C := C) (blank_refs c (if q.isSome then o else none)) hm.wf
      rw [bind_ok ha] at h
      obtain ⟨u, s4, h3, h4⟩ := bind_is_ok h
      have hwk := copyItems_worked (copy_good hC n) xs (hm.trans hm1) hin h3
      refine .refs hnd (fun a ha => ?_) ?_
      · obtain ⟨m, e, _⟩ := hwk a ha
        exact ⟨m, e⟩
      · intro m hmm
        rw [hnd] at hmm
        obtain ⟨m', e, h⟩ := hwk _ hmm
        cases e
        exact ih m (hin _ hmm).2 h
    | attrs j ps =>
      rw [hnd] at h hin
      dsimp only at h
      obtain ⟨s3, i, ha, hm1, hf, hnd1, _, _⟩ := alloc_mid (C := C) blank_attrs hm.wf
      rw [bind_ok ha] at h
      obtain ⟨u, s4, h3, h4⟩ := bind_is_ok h
      have hwk := copyEntries_worked (copy_good hC n) ps (hm.trans hm1)
        (fun p hp => hin _ (List.mem_map.2 ⟨p, hp, rfl⟩)) h3
      refine .attrs hnd (fun p hp => (hwk p hp).1) ?_
      intro m hmm
      rw [hnd] at hmm
      obtain ⟨p, hp, e⟩ := List.mem_map.1 hmm
      exact ih m (hin _ hmm).2 ((hwk p hp).2 m e)

end Avb.Copy

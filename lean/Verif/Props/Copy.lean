import Verif.Lemmas.Copy

/-!
C36: copying an object with everything in it.
-/
namespace Avb.Copy

variable {C : Classes} {s s' t : St} {n l l' : Nat} {o : Option Nat}

/-- The value that is an object. -/
abbrev at_ (l : Nat) : Val := .atom (.obj l)

/-! ### A library of classes and a state to copy in -/

/-- A new cell, as for `MobID()`. -/
def newCell : M Nat := fun s =>
  (.ok s.freshCell, { s with
    cells := fun c => if c = s.freshCell then 0 else s.cells c
    freshCell := s.freshCell + 1 })

/-- Property names of the examples. -/
abbrev kAttributes : Text := ['a', 't', 't', 'r', 's']
/-- Property names of the examples. -/
abbrev kRate : Text := ['r', 'a', 't', 'e']
/-- Property names of the examples. -/
abbrev kComponents : Text := ['c', 'o', 'm', 'p']
/-- Property names of the examples. -/
abbrev kMob : Text := ['m', 'o', 'b']

/-- Class 0 is `AVBRefList`; 1 a component (src/avb/components.py:32-36), 2 `Sequence`
(src/avb/components.py:150-152), 3 `SourceClip` (src/avb/components.py:268-270), 4 a class whose
constructor raises when it is called without arguments. -/
def exClasses : Classes where
  hasId := fun c => c ≠ 0
  init := fun c =>
    match c with
    | 1 => do
      let a ← alloc true (fun i => .attrs i [])
      return [(kAttributes, .atom (.obj a)), (kRate, .atom (.int 25))]
    | 2 => do
      let a ← alloc true (fun i => .attrs i [])
      return [(kAttributes, .atom (.obj a)), (kRate, .atom (.int 25)), (kComponents, .list [])]
    | 3 => do
      let a ← alloc true (fun i => .attrs i [])
      let m ← newCell
      return [(kAttributes, .atom (.obj a)), (kRate, .atom (.int 25)), (kMob, .atom (.cell m))]
    | 4 => fail .type
    | _ => pure []

theorem newCell_mid (hw : WF s) : Mid exClasses s (newCell s).2 := by
  refine ⟨⟨Nat.le_refl _, Nat.le_succ _, Nat.le_refl _, fun _ _ => rfl, ?_, fun _ _ => rfl, ?_, ?_⟩, ⟨?_, ?_, ?_⟩, ?_⟩
  · intro c hc
    show (if c = s.freshCell then _ else _) = _
    rw [if_neg (by omega)]
  · intro l h1 h2
    have : l < s.fresh := h2
    omega
  · intro l h1 h2
    have : l < s.fresh := h2
    omega
  · intro l hl a ha
    exact (hw.within l hl a ha).mono (Nat.le_refl _) (Nat.le_refl _) (Nat.le_succ _)
  · exact hw.names
  · intro l hl
    exact (hw.lists l hl).mono fun _ h => h
  · intro l h1 h2
    have : l < s.fresh := h2
    omega

/-- What the constructors of the examples do. -/
theorem exClasses_init {c : Nat} {r} (hw : WF s) (h : exClasses.init c s = (r, s')) :
    Mid exClasses s s' ∧ ∀ ps, r = .ok ps →
      (∀ p ∈ ps, ∀ a ∈ p.2.atoms, a.In s.fresh s'.fresh s'.freshCell) ∧ (ps.map (·.1)).Nodup ∧ ListsOK s' ps := by
  obtain ⟨s1, i, ha, hm, hf, _, _, _⟩ := alloc_mid (C := exClasses) blank_attrs hw
  have hlt : s.fresh < s1.fresh := by omega
  have hd := newCell_mid hm.wf
  match c with
  | 1 =>
    replace h : (alloc true (fun i => .attrs i []) >>= fun a =>
      pure [(kAttributes, .atom (.obj a)), (kRate, .atom (.int 25))]) s = (r, s') := h
    rw [bind_ok ha] at h
    obtain ⟨rfl, rfl⟩ := pure_eq.1 h
    refine ⟨hm, fun ps e => ?_⟩
    cases e
    refine ⟨?_, by simp, ?_⟩
    · simp [Val.atoms, Atom.In, hlt]
    · intro p hp xs hx
      simp only [List.mem_cons, List.not_mem_nil, or_false] at hp
      rcases hp with rfl | rfl <;> cases hx
  | 2 =>
    replace h : (alloc true (fun i => .attrs i []) >>= fun a =>
      pure [(kAttributes, .atom (.obj a)), (kRate, .atom (.int 25)), (kComponents, .list [])]) s = (r, s') := h
    rw [bind_ok ha] at h
    obtain ⟨rfl, rfl⟩ := pure_eq.1 h
    refine ⟨hm, fun ps e => ?_⟩
    cases e
    refine ⟨?_, by simp, ?_⟩
    · simp [Val.atoms, Atom.In, hlt]
    · intro p hp xs hx
      simp only [List.mem_cons, List.not_mem_nil, or_false] at hp
      rcases hp with rfl | rfl | rfl <;> cases hx
      intro m hm
      cases hm
  | 3 =>
    replace h : (alloc true (fun i => .attrs i []) >>= fun a => newCell >>= fun m =>
      pure [(kAttributes, .atom (.obj a)), (kRate, .atom (.int 25)), (kMob, .atom (.cell m))]) s = (r, s') := h
    have hc : newCell s1 = (.ok s1.freshCell, (newCell s1).2) := rfl
    rw [bind_ok ha, bind_ok hc] at h
    obtain ⟨rfl, rfl⟩ := pure_eq.1 h
    refine ⟨hm.trans hd, fun ps e => ?_⟩
    cases e
    refine ⟨?_, by simp, ?_⟩
    · have h1 : (newCell s1).2.fresh = s1.fresh := rfl
      have h2 : (newCell s1).2.freshCell = s1.freshCell + 1 := rfl
      simp [Val.atoms, Atom.In, hlt, h1, h2]
    · intro p hp xs hx
      simp only [List.mem_cons, List.not_mem_nil, or_false] at hp
      rcases hp with rfl | rfl | rfl <;> cases hx
  | 4 =>
    cases h
    exact ⟨.refl hw, fun ps e => by cases e⟩
  | 0 =>
    obtain ⟨rfl, rfl⟩ := pure_eq.1 h
    refine ⟨.refl hw, fun ps e => ?_⟩
    cases e
    exact ⟨fun p hp => (by cases hp), List.nodup_nil, fun p hp => by cases hp⟩
  | n + 5 =>
    obtain ⟨rfl, rfl⟩ := pure_eq.1 h
    refine ⟨.refl hw, fun ps e => ?_⟩
    cases e
    exact ⟨fun p hp => (by cases hp), List.nodup_nil, fun p hp => by cases hp⟩

/-- The constructors of the examples are as assumed. -/
theorem exClasses_behaves : exClasses.Behaves where
  ext := fun hw h => let h := exClasses_init hw h; ⟨h.1.ext, h.1.wf⟩
  props := fun hw h => let h := exClasses_init hw h; ⟨h.1.closed, h.2 _ rfl⟩
  same := fun c => by
    match c with
    | 0 => exact .inl fun s => ⟨_, _, rfl⟩
    | 1 => exact .inl fun s => ⟨_, _, rfl⟩
    | 2 => exact .inl fun s => ⟨_, _, rfl⟩
    | 3 => exact .inl fun s => ⟨_, _, rfl⟩
    | 4 => exact .inr fun s => ⟨_, _, rfl⟩
    | n + 5 => exact .inl fun s => ⟨_, _, rfl⟩

/-- A sequence (1) with its list of components (0): the same component (2) twice and a source clip (3);
all with the same attributes (4), which contain a `bytearray` in cell 1.  The mob id of the clip is in cell
0. -/
def exState : St where
  nodes := fun l =>
    match l with
    | 0 => .refs 0 none (some 1) [.obj 2, .obj 2, .obj 3]
    | 1 => .avb 2 (some 1) [(kAttributes, at_ 4), (kRate, .atom (.int 24)), (kComponents, at_ 0)]
    | 2 => .avb 1 (some 2) [(kAttributes, at_ 4), (kRate, .atom (.int 24))]
    | 3 => .avb 3 (some 3) [(kAttributes, at_ 4), (kRate, .atom (.int 30)), (kMob, .atom (.cell 0))]
    | 4 => .attrs (some 4) [(['a'], .int 1), (['b'], .buf 1)]
    | _ => .attrs none []
  fresh := 5
  cells := fun m => if m = 0 then 17 else 23
  freshCell := 2
  next := 4
  modified := fun _ => none

/-- Cases of a number below five. -/
theorem below_five {p : Nat → Prop} (h0 : p 0) (h1 : p 1) (h2 : p 2) (h3 : p 3) (h4 : p 4) : ∀ l < 5, p l := by
  intro l hl
  match l, hl with
  | 0, _ => exact h0
  | 1, _ => exact h1
  | 2, _ => exact h2
  | 3, _ => exact h3
  | 4, _ => exact h4

theorem exState_wf : WF exState where
  within := by
    apply below_five <;> intro a ha <;>
      simp [exState, Node.atoms, Val.atoms] at ha <;>
      (try rcases ha with rfl | rfl | rfl) <;> (try rcases ha with rfl | rfl) <;> simp [Atom.In, exState]
  names := by apply below_five <;> simp [exState, Node.Names]
  lists := by
    apply below_five <;> try trivial
    all_goals
      intro p hp xs hx
      simp at hp
      (try rcases hp with rfl | rfl | rfl) <;> (try rcases hp with rfl | rfl) <;> cases hx

/-- The computation gave this object. -/
def gives (x : Except Err Nat × St) (l : Nat) : Bool :=
  match x.1 with
  | .ok m => m = l
  | .error _ => false

/-- The computation raised this exception. -/
def raises (x : Except Err Nat × St) (e : Err) : Bool :=
  match x.1 with
  | .ok _ => false
  | .error e' => e' = e

theorem gives_eq {x : Except Err Nat × St} (h : gives x l = true) : x = (.ok l, x.2) := by
  obtain ⟨r, s⟩ := x
  cases r with
  | ok m => simp only [gives, decide_eq_true_eq] at h; rw [h]
  | error e => cases h

theorem raises_eq {x : Except Err Nat × St} {e : Err} (h : raises x e = true) : x = (.error e, x.2) := by
  obtain ⟨r, s⟩ := x
  cases r with
  | ok m => cases h
  | error e' => simp only [raises, decide_eq_true_eq] at h; rw [h]

/-- The copy of the sequence, and the state afterwards. -/
def exCopy : Except Err Nat × St := copy exClasses 5 none 1 exState

/-- The example is copied. -/
theorem exCopy_eq : copy exClasses 5 none 1 exState = (.ok 5, exCopy.2) := gives_eq (by decide +kernel)

/-! ### The same content -/

/-- What copying does, in one statement. -/
theorem copied (hC : C.Behaves) (hw : WF s) (hl : l < s.fresh) (h : copy C n o l s = (.ok l', s')) :
    Mid C s s' ∧ s.fresh ≤ l' ∧ l' < s'.fresh ∧ Rel C s.freshCell n s' o l l' :=
  (copy_good hC n (Nat.le_refl _) hw hl h).2.2 l' rfl

theorem old_in (hl : l < s.fresh) : ∀ a ∈ (at_ l).atoms, a.In 0 s.fresh s.freshCell := by
  intro a ha
  obtain rfl := List.mem_singleton.1 ha
  exact ⟨Nat.zero_le _, hl⟩

theorem new_in {lo : Nat} (h1 : lo ≤ l') (h2 : l' < s.fresh) :
    ∀ a ∈ (at_ l').atoms, a.In lo s.fresh s.freshCell := by
  intro a ha
  obtain rfl := List.mem_singleton.1 ha
  exact ⟨h1, h2⟩

theorem follow_old (hw : WF s) (he : Ext C s s') (hl : l < s.fresh) (p : List Step) :
    follow s' (at_ l) p = follow s (at_ l) p :=
  follow_congr (k := s.freshCell) (fun x _ hx => hw.within x hx) (fun x _ hx => he.nodes x hx) p (old_in hl)

theorem follow_old_in (hw : WF s) (hl : l < s.fresh) {p : List Step} {v : Val} (h : follow s (at_ l) p = some v) :
    ∀ a ∈ v.atoms, a.In 0 s.fresh s.freshCell :=
  follow_in (fun x _ hx => hw.within x hx) p (old_in hl) h

theorem seen_old (he : Ext C s s') {v : Val} (h : ∀ a ∈ v.atoms, a.In 0 s.fresh s.freshCell) :
    seen s' v = seen s v :=
  seen_congr (fun x _ hx => he.nodes x hx) he.cells h

theorem copied_follow (hC : C.Behaves) (hw : WF s) (hl : l < s.fresh) (h : copy C n o l s = (.ok l', s'))
    {p : List Step} {v : Val} (hv : follow s (at_ l) p = some v) :
    ∃ v', follow s' (at_ l') p = some v' ∧ XRel C s.freshCell s' v v' := by
  obtain ⟨hm, _, _, hr⟩ := copied hC hw hl h
  have hx : XRel C s.freshCell s' (at_ l) (at_ l') := ⟨l', n, o, rfl, hr⟩
  rw [← follow_old hw hm.ext hl] at hv
  exact hx.follow p hv

/-- Everything that a program finds by following property names, attribute names and list positions from
the original, it finds in the same way from the copy, and it sees the same there: the same data, the same
classes, the same numbers of items, the same names. -/
theorem C36_same_content (hC : C.Behaves) (hw : WF s) (hl : l < s.fresh) (h : copy C n o l s = (.ok l', s'))
    {p : List Step} {v : Val} (hv : follow s (at_ l) p = some v) :
    ∃ v', follow s' (at_ l') p = some v' ∧ seen s' v' = seen s v := by
  obtain ⟨hm, _, _, hr⟩ := copied hC hw hl h
  obtain ⟨v', hv', hx⟩ := copied_follow hC hw hl h hv
  exact ⟨v', hv', by rw [hx.seen, seen_old hm.ext (follow_old_in hw hl hv)]⟩

example : ∃ v', follow exCopy.2 (at_ 5) [.name kComponents, .item 2, .name kRate] = some v' ∧
    seen exCopy.2 v' = .int 30 :=
  C36_same_content (v := .atom (.int 30)) exClasses_behaves exState_wf (by decide) exCopy_eq (by decide +kernel)

/-- If the original and all objects in it have all the properties that constructors set, there is nothing
more in the copy. -/
theorem C36_nothing_more (hC : C.Behaves) (hw : WF s) (hF : Full C s.fresh s) (hl : l < s.fresh)
    (h : copy C n o l s = (.ok l', s')) {p : List Step} {v' : Val} (hv : follow s' (at_ l') p = some v') :
    ∃ v, follow s (at_ l) p = some v ∧ seen s' v' = seen s v := by
  obtain ⟨hm, _, _, hr⟩ := copied hC hw hl h
  have hx : XRel C s.freshCell s' (at_ l) (at_ l') := ⟨l', n, o, rfl, hr⟩
  have hF' : Full C s.fresh s' := by
    intro x hx c i ps hn
    rw [hm.ext.nodes x hx] at hn
    exact hF x hx hn
  have hc : ∀ x < s.fresh, ∀ t ∈ (s'.nodes x).atoms, t.In 0 s.fresh s.freshCell := by
    intro x hx t ht
    rw [hm.ext.nodes x hx] at ht
    exact hw.within x hx t ht
  obtain ⟨v, hv, hx⟩ := hx.follow_back hF' hc p (old_in hl) hv
  rw [follow_old hw hm.ext hl] at hv
  exact ⟨v, hv, by rw [hx.seen, seen_old hm.ext (follow_old_in hw hl hv)]⟩

theorem exState_full : Full exClasses exState.fresh exState := by
  show ∀ l < 5, _
  apply below_five
  · intro c i ps h; cases h
  · intro c i ps h
    cases h
    intro s1 qs s2 h k hk hn
    cases h
    simp only [find_none] at hn
    exact hk (find_none.2 (by simpa using hn))
  · intro c i ps h
    cases h
    intro s1 qs s2 h k hk hn
    cases h
    simp only [find_none] at hn
    exact hk (find_none.2 (by simpa using hn))
  · intro c i ps h
    cases h
    intro s1 qs s2 h k hk hn
    cases h
    simp only [find_none] at hn
    exact hk (find_none.2 (by simpa using hn))
  · intro c i ps h; cases h

example : ∀ p v', follow exCopy.2 (at_ 5) p = some v' → ∃ v, follow exState (at_ 1) p = some v ∧
    seen exCopy.2 v' = seen exState v :=
  fun _ _ h => C36_nothing_more exClasses_behaves exState_wf exState_full (by decide) exCopy_eq h

/-- A property that an object in the original does not have is in the copy what the constructor made it. -/
theorem C36_defaults (hC : C.Behaves) (hw : WF s) (hl : l < s.fresh) (h : copy C n o l s = (.ok l', s'))
    {p : List Step} {a c : Nat} {i : Option Nat} {ps : List (Text × Val)} {k : Text}
    (hv : follow s (at_ l) p = some (at_ a)) (ha : s.nodes a = .avb c i ps) (hk : find ps k = none) :
    ∃ a', follow s' (at_ l') p = some (at_ a') ∧
      ∃ s1 qs s2, C.init c s1 = (.ok qs, s2) ∧ part s' (at_ a') (.name k) = find qs k := by
  obtain ⟨hm, _, _, hr⟩ := copied hC hw hl h
  obtain ⟨v', hv', a', n', o', rfl, r⟩ := copied_follow hC hw hl h hv
  refine ⟨a', hv', ?_⟩
  have hal := (follow_old_in hw hl hv (.obj a) (List.mem_singleton.2 rfl)).2
  obtain ⟨n', ⟨c1, i1, i', qs, qs', e, e', h1, s1, ds, s2, hi, hd⟩ | ⟨c1, i1, i', q, xs, ys, e, e', h1⟩ | ⟨i1, i', qs, qs', e, e', h1⟩⟩ :=
    r.cases
  · rw [hm.ext.nodes a hal, ha] at e
    cases e
    refine ⟨s1, ds, s2, hi, ?_⟩
    rw [← hd k hk]
    dsimp only [part]
    rw [e']
  · rw [hm.ext.nodes a hal, ha] at e; cases e
  · rw [hm.ext.nodes a hal, ha] at e; cases e

/-- A component whose edit rate was deleted. -/
def exBare : St :=
  { exState with nodes := fun l => if l = 2 then .avb 1 (some 2) [(kAttributes, at_ 4)] else exState.nodes l }

example : ∃ s', copy exClasses 3 none 2 exBare = (.ok 5, s') ∧
    follow exBare (at_ 2) [.name kRate] = none ∧ follow s' (at_ 5) [.name kRate] = some (.atom (.int 25)) :=
  ⟨(copy exClasses 3 none 2 exBare).2, gives_eq (by decide +kernel), by decide +kernel, by decide +kernel⟩

/-! ### New objects -/

/-- Every object that a program can find in the copy is new, has a new id if its class has ids, and is
registered under it with the objects that changed. -/
theorem C36_fresh (hC : C.Behaves) (hw : WF s) (hl : l < s.fresh) (h : copy C n o l s = (.ok l', s'))
    {p : List Step} {v' : Val} (hv : follow s' (at_ l') p = some v') {m : Nat} (hm : Atom.obj m ∈ v'.atoms) :
    s.fresh ≤ m ∧ m < s'.fresh ∧ (s'.nodes m).iid.isSome = (s'.nodes m).hasId C ∧
      ∀ i, (s'.nodes m).iid = some i → s.next < i ∧ i ≤ s'.next ∧ s'.modified i = some m := by
  obtain ⟨hmid, h1, h2, _⟩ := copied hC hw hl h
  have := follow_in (k := s'.freshCell) hmid.closed p (new_in h1 h2) hv _ hm
  exact ⟨this.1, this.2, hmid.ext.hasId m this.1 this.2, hmid.ext.ids m this.1 this.2⟩

example : follow exCopy.2 (at_ 5) [.name kComponents, .item 0] = some (at_ 9) ∧
    (exCopy.2.nodes 9).iid = some 8 ∧ exCopy.2.modified 8 = some 9 := by decide +kernel

/-- Different objects of the copy have different ids. -/
theorem C36_ids (hC : C.Behaves) (hw : WF s) (hl : l < s.fresh) (h : copy C n o l s = (.ok l', s'))
    {p q : List Step} {m m' i : Nat} (hp : follow s' (at_ l') p = some (at_ m))
    (hq : follow s' (at_ l') q = some (at_ m')) (hi : (s'.nodes m).iid = some i)
    (hi' : (s'.nodes m').iid = some i) : m = m' := by
  have h1 := (C36_fresh hC hw hl h hp (List.mem_singleton.2 rfl)).2.2.2 i hi
  have h2 := (C36_fresh hC hw hl h hq (List.mem_singleton.2 rfl)).2.2.2 i hi'
  have := h1.2.2.symm.trans h2.2.2
  cases this
  rfl

example : ∃ m m', m ≠ m' ∧ follow exCopy.2 (at_ 5) [.name kComponents, .item 0] = some (at_ m) ∧
    follow exCopy.2 (at_ 5) [.name kComponents, .item 1] = some (at_ m') ∧
    (exCopy.2.nodes m).iid ≠ (exCopy.2.nodes m').iid :=
  ⟨9, 12, by decide, by decide +kernel, by decide +kernel, by decide +kernel⟩

/-- Copying leaves everything that exists as it was, also when it raises; only objects with new ids are
registered as changed. -/
theorem C36_unchanged (hC : C.Behaves) (hw : WF s) (hl : l < s.fresh) {r} (h : copy C n o l s = (r, s')) :
    (∀ m < s.fresh, s'.nodes m = s.nodes m) ∧ (∀ m < s.freshCell, s'.cells m = s.cells m) ∧
      ∀ i ≤ s.next, s'.modified i = s.modified i := by
  have he := (copy_good hC n (Nat.le_refl _) hw hl h).1
  exact ⟨he.nodes, he.cells, he.modified⟩

example : ∃ s', copy exClasses 2 none 1 exState = (.error .recursion, s') ∧ s'.nodes 1 = exState.nodes 1 :=
  ⟨(copy exClasses 2 none 1 exState).2, raises_eq (by decide +kernel), by decide +kernel⟩

/-- Later changes to the original and other existing objects are not seen in the copy. -/
theorem C36_independent (hC : C.Behaves) (hw : WF s) (hl : l < s.fresh) (h : copy C n o l s = (.ok l', s'))
    (hn : ∀ m, s.fresh ≤ m → t.nodes m = s'.nodes m) (hc : t.cells = s'.cells) (p : List Step) :
    follow t (at_ l') p = follow s' (at_ l') p ∧
      ∀ v, follow s' (at_ l') p = some v → seen t v = seen s' v := by
  obtain ⟨hm, h1, h2, _⟩ := copied hC hw hl h
  refine ⟨follow_congr (k := s'.freshCell) hm.closed (fun x hx _ => hn x hx) p (new_in h1 h2), fun v hv => ?_⟩
  exact seen_congr (k := s'.freshCell) (lo := s.fresh) (hi := s'.fresh) (fun x hx _ => hn x hx)
    (fun m _ => by rw [hc]) (follow_in hm.closed p (new_in h1 h2) hv)

example : follow { exCopy.2 with nodes := fun m => if m < 5 then .attrs none [] else exCopy.2.nodes m } (at_ 5)
    [.name kComponents, .item 2, .name kRate] = some (.atom (.int 30)) := by decide +kernel

/-- Later changes to the objects of the copy are not seen in the original and other existing objects. -/
theorem C36_independent' (hC : C.Behaves) (hw : WF s) (hl : l < s.fresh) {r} (h : copy C n o l s = (r, s'))
    (hn : ∀ m < s.fresh, t.nodes m = s'.nodes m) (hc : ∀ m < s.freshCell, t.cells m = s'.cells m)
    {a : Nat} (ha : a < s.fresh) (p : List Step) :
    follow t (at_ a) p = follow s (at_ a) p ∧
      ∀ v, follow s (at_ a) p = some v → seen t v = seen s v := by
  have he := (copy_good hC n (Nat.le_refl _) hw hl h).1
  have hn' : ∀ m, 0 ≤ m → m < s.fresh → t.nodes m = s.nodes m := fun m _ hm => by rw [hn m hm, he.nodes m hm]
  refine ⟨follow_congr (k := s.freshCell) (fun x _ hx => hw.within x hx) hn' p (old_in ha), fun v hv => ?_⟩
  exact seen_congr hn' (fun m hm => by rw [hc m hm, he.cells m hm]) (follow_old_in hw ha hv)

example : follow { exCopy.2 with nodes := fun m => if 5 ≤ m then .attrs none [] else exCopy.2.nodes m } (at_ 1)
    [.name kComponents, .item 2, .name kRate] = some (.atom (.int 30)) := by decide +kernel

/-- The buffers of attribute sets are new too, with the same contents. -/
theorem C36_buffers (hC : C.Behaves) (hw : WF s) (hl : l < s.fresh) (h : copy C n o l s = (.ok l', s'))
    {p : List Step} {a m : Nat} {i : Option Nat} {ps : List (Text × Atom)} {k : Text}
    (hv : follow s (at_ l) p = some (at_ a)) (ha : s.nodes a = .attrs i ps) (hk : find ps k = some (.buf m)) :
    ∃ a' m', follow s' (at_ l') p = some (at_ a') ∧ part s' (at_ a') (.name k) = some (.atom (.buf m')) ∧
      s.freshCell ≤ m' ∧ s'.cells m' = s.cells m := by
  obtain ⟨hm, _, _, hr⟩ := copied hC hw hl h
  obtain ⟨v', hv', a', n', o', rfl, r⟩ := copied_follow hC hw hl h hv
  have hal := (follow_old_in hw hl hv (.obj a) (List.mem_singleton.2 rfl)).2
  have hmc : m < s.freshCell := by
    have := hw.within a hal
    rw [ha] at this
    exact this (.buf m) (List.mem_map.2 ⟨_, find_mem hk, rfl⟩)
  obtain ⟨n', ⟨c1, i1, i', qs, qs', e, e', h1⟩ | ⟨c1, i1, i', q, xs, ys, e, e', h1⟩ | ⟨i1, i', qs, qs', e, e', h1⟩⟩ :=
    r.cases
  · rw [hm.ext.nodes a hal, ha] at e; cases e
  · rw [hm.ext.nodes a hal, ha] at e; cases e
  · rw [hm.ext.nodes a hal, ha] at e
    cases e
    rcases forall₂_find h1 k with ⟨h2, _⟩ | ⟨x, y, h2, h3, r⟩
    · rw [h2] at hk; cases hk
    · rw [h2] at hk
      cases hk
      obtain ⟨m', rfl, hlo, hcell⟩ := r
      refine ⟨a', m', hv', ?_, hlo, by rw [hcell, hm.ext.cells m hmc]⟩
      dsimp only [part]
      rw [e']
      dsimp only
      rw [h3]
      rfl

example : ∃ m, follow exCopy.2 (at_ 5) [.name kAttributes, .name ['b']] = some (.atom (.buf m)) ∧ 2 ≤ m ∧
    exCopy.2.cells m = 23 := ⟨2, by decide +kernel, by decide, by decide +kernel⟩

/-- A reference list that is the value of a property of a copied object has the new object as its parent,
if the original list has a parent; so changes of the new list are changes of the new object. -/
theorem C36_parent (hC : C.Behaves) (hw : WF s) (hl : l < s.fresh) (h : copy C n o l s = (.ok l', s'))
    {p : List Step} {a b c : Nat} {i j : Option Nat} {ps : List (Text × Val)} {k : Text} {cb : Nat}
    {q : Option Nat} {xs : List Atom}
    (hv : follow s (at_ l) p = some (at_ a)) (ha : s.nodes a = .avb c i ps) (hk : find ps k = some (at_ b))
    (hb : s.nodes b = .refs cb j q xs) :
    ∃ a' b' j' ys, follow s' (at_ l') p = some (at_ a') ∧ part s' (at_ a') (.name k) = some (at_ b') ∧
      s'.nodes b' = .refs cb j' (if q.isSome then some a' else none) ys := by
  obtain ⟨hm, _, _, hr⟩ := copied hC hw hl h
  obtain ⟨v', hv', a', n', o', rfl, r⟩ := copied_follow hC hw hl h hv
  have hal := (follow_old_in hw hl hv (.obj a) (List.mem_singleton.2 rfl)).2
  have hbl : b < s.fresh := by
    have := hw.within a hal
    rw [ha] at this
    exact (this (.obj b) (List.mem_flatMap.2 ⟨_, find_mem hk, List.mem_singleton.2 rfl⟩)).2
  obtain ⟨n', ⟨c1, i1, i', qs, qs', e, e', h1, _⟩ | ⟨c1, i1, i', q, xs, ys, e, e', h1⟩ | ⟨i1, i', qs, qs', e, e', h1⟩⟩ :=
    r.cases
  · rw [hm.ext.nodes a hal, ha] at e
    cases e
    obtain ⟨w, hw', r⟩ := h1 k _ hk
    obtain ⟨b', rfl, r⟩ := r
    refine ⟨a', b', ?_⟩
    have hpart : part s' (at_ a') (.name k) = some (at_ b') := by
      dsimp only [part]
      rw [e']
      exact hw'
    obtain ⟨n'', ⟨c1, i1, i', qs, qs', e, e', h1, _⟩ | ⟨c1, i1, i', q, xs, ys, e, e', h1⟩ | ⟨i1, i', qs, qs', e, e', h1⟩⟩ :=
      r.cases
    · rw [hm.ext.nodes b hbl, hb] at e; cases e
    · rw [hm.ext.nodes b hbl, hb] at e
      cases e
      exact ⟨i', ys, hv', hpart, e'⟩
    · rw [hm.ext.nodes b hbl, hb] at e; cases e
  · rw [hm.ext.nodes a hal, ha] at e; cases e
  · rw [hm.ext.nodes a hal, ha] at e; cases e

example : follow exCopy.2 (at_ 5) [.name kComponents] = some (at_ 8) ∧
    exCopy.2.nodes 8 = .refs 0 none (some 5) [.obj 9, .obj 12, .obj 15] := by decide +kernel

/-! ### What is not copied -/

/-- Mutable values that are not objects of the file, such as mob ids and dictionaries, are not copied: the
copy has the very same value.  So a change of it in one is a change in the other. -/
theorem C36_shared (hC : C.Behaves) (hw : WF s) (hl : l < s.fresh) (h : copy C n o l s = (.ok l', s'))
    {p : List Step} {m : Nat} (hv : follow s (at_ l) p = some (.atom (.cell m))) :
    follow s' (at_ l') p = some (.atom (.cell m)) := by
  obtain ⟨v', hv', r⟩ := copied_follow hC hw hl h hv
  obtain rfl : v' = .atom (.cell m) := r
  exact hv'

/-- The copy of the clip has the mob id of the original, and changes with it. -/
theorem C36_shared_mob : ∃ m, follow exState (at_ 1) [.name kComponents, .item 2, .name kMob] = some (.atom (.cell m)) ∧
    follow exCopy.2 (at_ 5) [.name kComponents, .item 2, .name kMob] = some (.atom (.cell m)) :=
  ⟨0, by decide +kernel,
    C36_shared exClasses_behaves exState_wf (by decide) exCopy_eq (by decide +kernel)⟩

theorem copyItems_distinct {rec : Rec} (hr : Good C 0 n rec) : ∀ (xs : List Atom) {s ys s'}, WF s →
    (∀ a ∈ xs, a.In 0 s.fresh s.freshCell) → copyItems rec xs s = (.ok ys, s') → ys.Nodup := by
  intro xs
  induction xs with
  | nil => intro s ys s' _ _ h; obtain ⟨h, _⟩ := pure_eq.1 h; cases h; exact List.nodup_nil
  | cons a xs ih =>
    intro s ys s' hw hin h
    cases a with
    | obj m =>
      obtain ⟨m', s1, h1, h2⟩ := bind_is_ok h
      obtain ⟨zs, s2, h3, h4⟩ := bind_is_ok h2
      obtain ⟨he, hw1, hok⟩ := hr (Nat.zero_le _) hw (hin _ List.mem_cons_self).2 h1
      have hin1 : ∀ a ∈ xs, a.In 0 s1.fresh s1.freshCell := fun a ha => he.wf_in (hin a (List.mem_cons_of_mem _ ha))
      obtain ⟨_, _, hok2⟩ := copyItems_good hr xs (Nat.zero_le _) hw1 hin1 h3
      obtain ⟨e, _⟩ := pure_eq.1 h4
      cases e
      refine List.nodup_cons.2 ⟨fun hmem => ?_, ih hw1 hin1 h3⟩
      have := (hok2 zs rfl).2.1 _ hmem
      have := (hok m' rfl).2.2.1
      have := (hok2 zs rfl).2.1 _ hmem
      exact absurd this.1 (by omega)
    | _ => cases h

/-- Copies are trees: an object that is in a list twice is copied twice. -/
theorem C36_duplicates (hC : C.Behaves) (hw : WF s) (hl : l < s.fresh) (h : copy C n o l s = (.ok l', s'))
    {c : Nat} {i q : Option Nat} {xs : List Atom} (hx : s.nodes l = .refs c i q xs) :
    ∃ i' q' ys, s'.nodes l' = .refs c i' q' ys ∧ ys.length = xs.length ∧ ys.Nodup := by
  have hin := hw.within l hl
  have hk := copied hC hw hl h
  cases n with
  | zero => cases h
  | succ n =>
    unfold copy at h
    rw [bind_ok node_eq, hx] at h
    rw [hx] at hin
    dsimp only at h
    obtain ⟨s1, j, ha, hm, hf, hnd1, _, _⟩ := alloc_mid (C := C) (blank_refs c (if q.isSome then o else none)) hw
    rw [bind_ok ha] at h
    obtain ⟨ys, s2, h1, h2⟩ := bind_is_ok h
    have hin1 : ∀ a ∈ xs, a.In 0 s1.fresh s1.freshCell := fun a ha => hm.ext.wf_in (hin a ha)
    have hd := copyItems_distinct (copy_good hC n) xs hm.wf hin1 h1
    obtain ⟨he2, hw2, hok2⟩ := copyItems_good (k0 := 0) (copy_good hC n) xs (Nat.zero_le _) hm.wf hin1 h1
    have hnd2 : s2.nodes s.fresh = .refs c j (if q.isSome then o else none) [] := by
      rw [he2.nodes s.fresh (by omega), hnd1]
    have hset : setItems s.fresh ys s2 =
        (.ok (), s2.withNode s.fresh (.refs c j (if q.isSome then o else none) ys)) := by
      unfold setItems
      rw [bind_ok node_eq, hnd2]
      rfl
    rw [bind_ok hset] at h2
    obtain ⟨e, rfl⟩ := pure_eq.1 h2
    cases e
    exact ⟨_, _, ys, withNode_self, forall₂_length (hok2 ys rfl).2.2, hd⟩

/-- The copy of the list of components. -/
theorem exList_eq : copy exClasses 5 none 0 exState = (.ok 5, (copy exClasses 5 none 0 exState).2) :=
  gives_eq (by decide +kernel)

example : exState.nodes 0 = .refs 0 none (some 1) [.obj 2, .obj 2, .obj 3] ∧
    ∃ i q ys, (copy exClasses 5 none 0 exState).2.nodes 5 = .refs 0 i q ys ∧ ys.length = 3 ∧ ys.Nodup :=
  ⟨rfl, C36_duplicates exClasses_behaves exState_wf (by decide) exList_eq rfl⟩

/-! ### When an object can be copied -/

/-- An object is copied, given enough depth of calls, if and only if it and everything in it has a
constructor that needs no arguments, reference lists without null references, and attributes with values
of the right types, and it is nowhere part of itself. -/
theorem C36_ends (hC : C.Behaves) (hw : WF s) (hl : l < s.fresh) :
    (∃ n l' s', copy C n o l s = (.ok l', s')) ↔ Copyable C s l := by
  constructor
  · rintro ⟨n, l', s', h⟩
    exact worked_copyable hC hw n l hl ⟨o, s, l', s', .refl hw, h⟩
  · intro h
    obtain ⟨n, hn⟩ := copyable_works hC hw h hl
    obtain ⟨l', s', h⟩ := hn o s (.refl hw)
    exact ⟨n, l', s', h⟩

example : Copyable exClasses exState 1 :=
  (C36_ends exClasses_behaves exState_wf (by decide)).1 ⟨5, 5, _, exCopy_eq⟩

/-- The result does not depend on the depth of calls allowed. -/
theorem C36_depth {m : Nat} (hm : n ≤ m) (h : copy C n o l s = (.ok l', s')) : copy C m o l s = (.ok l', s') :=
  copy_more hm h

example : copy exClasses 100 none 1 exState = (.ok 5, exCopy.2) := C36_depth (by decide) exCopy_eq

/-- One object has the other as part. -/
inductive Within (s : St) : Nat → Nat → Prop
  | one {l m} : Atom.obj m ∈ (s.nodes l).atoms → Within s l m
  | more {l k m} : Atom.obj k ∈ (s.nodes l).atoms → Within s k m → Within s l m

theorem Within.last {a b c : Nat} (h : Within s a b) (hc : Atom.obj c ∈ (s.nodes b).atoms) : Within s a c := by
  induction h with
  | one h => exact .more h (.one hc)
  | more h _ ih => exact .more h (ih hc)

theorem copyable_no_cycle (h : Copyable C s l) : ¬ Within s l l := by
  have key : ∀ {l}, (∀ m, Atom.obj m ∈ (s.nodes l).atoms → ¬ Within s m m) → ¬ Within s l l := by
    intro l ih hl
    cases hl with
    | one h => exact ih l h (.one h)
    | more h h' => exact ih _ h (h'.last h)
  induction h with
  | avb _ _ _ ih => exact key ih
  | refs _ _ _ ih => exact key ih
  | attrs _ _ _ ih => exact key ih

/-- An object that is part of itself cannot be copied: at every depth of calls, copying it raises. -/
theorem C36_cycle (hC : C.Behaves) (hw : WF s) (hl : l < s.fresh) (h : Within s l l) :
    ∃ e s', copy C n o l s = (.error e, s') := by
  cases hc : copy C n o l s with
  | mk r s' =>
    cases r with
    | error e => exact ⟨e, s', rfl⟩
    | ok l' => exact absurd h (copyable_no_cycle ((C36_ends hC hw hl).1 ⟨n, l', s', hc⟩))

/-- A list that contains itself. -/
def exLoop : St :=
  { exState with nodes := fun l => if l = 0 then .refs 0 none none [.obj 0] else exState.nodes l }

theorem exLoop_wf : WF exLoop where
  within := by
    apply below_five <;> intro a ha <;>
      simp [exLoop, exState, Node.atoms, Val.atoms] at ha <;>
      (try rcases ha with rfl | rfl | rfl) <;> (try rcases ha with rfl | rfl) <;> (try subst ha) <;>
      simp [Atom.In, exLoop, exState]
  names := by apply below_five <;> simp [exLoop, exState, Node.Names]
  lists := by
    apply below_five <;> try trivial
    all_goals
      intro p hp xs hx
      simp at hp
      (try rcases hp with rfl | rfl | rfl) <;> (try rcases hp with rfl | rfl) <;> cases hx

example : ∃ e s', copy exClasses 1000 none 0 exLoop = (.error e, s') :=
  C36_cycle exClasses_behaves exLoop_wf (by decide) (.one (by simp [exLoop, Node.atoms]))

theorem alloc_ok (b : Bool) (nd : Option Nat → Node) (s : St) : ∃ s1, alloc b nd s = (.ok s.fresh, s1) := by
  unfold alloc
  cases b <;> exact ⟨_, rfl⟩

/-- A list with a null reference in front cannot be copied. -/
theorem C36_null_item {c : Nat} {i q : Option Nat} {xs : List Atom} (h : s.nodes l = .refs c i q (.none :: xs)) :
    ∃ s', copy C (n + 1) o l s = (.error .attribute, s') := by
  unfold copy
  rw [bind_ok node_eq, h]
  dsimp only
  obtain ⟨s1, h1⟩ := alloc_ok (C.hasId c) (fun i => .refs c i (if q.isSome then o else none) []) s
  rw [bind_ok h1]
  exact ⟨_, rfl⟩

example : ∃ s', copy exClasses 5 none 0 { exState with nodes := fun _ => .refs 0 none (some 1) [.none, .obj 2] } =
    (.error .attribute, s') := C36_null_item rfl

/-- Wherever the null reference is, the list is not copied. -/
theorem C36_null_anywhere (hC : C.Behaves) (hw : WF s) (hl : l < s.fresh) {c : Nat} {i q : Option Nat}
    {xs : List Atom} (h : s.nodes l = .refs c i q xs) (hx : Atom.none ∈ xs) :
    ∃ e s', copy C n o l s = (.error e, s') := by
  cases hc : copy C n o l s with
  | mk r s' =>
    cases r with
    | error e => exact ⟨e, s', rfl⟩
    | ok l' =>
      have := (C36_ends hC hw hl).1 ⟨n, l', s', hc⟩
      cases this with
      | avb h' => rw [h'] at h; cases h
      | attrs h' => rw [h'] at h; cases h
      | refs h' ho =>
        rw [h'] at h
        cases h
        obtain ⟨m, e⟩ := ho _ hx
        cases e

/-- The list of the example with a null reference at its end. -/
def exNull : St :=
  { exState with nodes := fun l => if l = 0 then .refs 0 none (some 1) [.obj 2, .none] else exState.nodes l }

example : ∃ s', copy exClasses 9 none 0 exNull = (.error .attribute, s') :=
  ⟨(copy exClasses 9 none 0 exNull).2, raises_eq (by decide +kernel)⟩

/-- Attributes given as `bytes` cannot be copied. -/
theorem C36_bytes {i : Option Nat} {k : Text} {b : Bytes} {ps : List (Text × Atom)}
    (h : s.nodes l = .attrs i ((k, .bytes b) :: ps)) : ∃ s', copy C (n + 1) o l s = (.error .value, s') := by
  unfold copy
  rw [bind_ok node_eq, h]
  dsimp only
  obtain ⟨s1, h1⟩ := alloc_ok true (fun i => .attrs i []) s
  rw [bind_ok h1]
  exact ⟨_, rfl⟩

example : ∃ s', copy exClasses 5 none 4 { exState with nodes := fun _ => .attrs none [(['a'], .bytes [1])] } =
    (.error .value, s') := C36_bytes rfl

/-- Objects of a class whose constructor raises without arguments cannot be copied. -/
theorem C36_constructor {c : Nat} {i : Option Nat} {ps : List (Text × Val)} {e : Err}
    (h : s.nodes l = .avb c i ps) (hc : ∀ s, ∃ s', C.init c s = (.error e, s')) :
    ∃ s', copy C (n + 1) o l s = (.error e, s') := by
  unfold copy
  rw [bind_ok node_eq, h]
  dsimp only
  have : ∃ s1, createAvb C c s = (.error e, s1) := by
    obtain ⟨s1, h1⟩ := alloc_ok (C.hasId c) (fun i => .avb c i []) s
    obtain ⟨s2, h2⟩ := hc s1
    unfold createAvb
    rw [bind_ok h1]
    exact ⟨s2, bind_eq.2 (.inr ⟨e, h2, rfl⟩)⟩
  obtain ⟨s1, h1⟩ := this
  exact ⟨s1, bind_eq.2 (.inr ⟨e, h1, rfl⟩)⟩

example : ∃ s', copy exClasses 5 none 4 { exState with nodes := fun _ => .avb 4 none [] } =
    (.error .type, s') := C36_constructor rfl fun _ => ⟨_, rfl⟩

end Avb.Copy

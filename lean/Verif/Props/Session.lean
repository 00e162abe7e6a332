import Verif.Lemmas.Session

/-!
C18-C20: identity of looked-up objects, ids of new objects, and edits against the garbage collector.

A program opens a file (`start`) and goes through any history of lookups, creations, edits, keeping
and dropping references, and garbage collections (`Run`).
-/
namespace Avb.Session

variable {F : FileView}

/-! ### What a step leaves alone -/

theorem step_fresh {s s' : St} {e : Event} (h : Step F s e s') : s.fresh ≤ s'.fresh := by
  cases h with
  | look i =>
    rcases hr : readObject F s i with ⟨r, s1⟩
    rcases r with e | (_ | l)
    · have := readObject_other hr (by simp); subst this; exact Nat.le_refl _
    · have := readObject_other hr (by simp); subst this; exact Nat.le_refl _
    · show s.fresh ≤ s1.fresh
      obtain ⟨h0, ⟨hc, rfl⟩ | ⟨t, hc, hs, ht, rfl, rfl⟩⟩ := readObject_some hr
      · exact Nat.le_refl _
      · show s.fresh ≤ s.fresh + 1 + t.n; omega
  | new t ok =>
    dsimp only
    split
    · show s.fresh ≤ s.fresh + 1 + t.n; omega
    · show s.fresh ≤ s.fresh + 1 + t.n; omega
  | newHelper t => show s.fresh ≤ s.fresh + 1 + t.n; omega
  | set l k v => rw [setAttr_rest.2.2.1]; exact Nat.le_refl _
  | edit l k vs => rw [setList_rest.2.2.1]; exact Nat.le_refl _
  | _ => exact Nat.le_refl _

/-- What a step does to an object that was there before. -/
theorem step_recs {s s' : St} {e : Event} (h : Step F s e s') {l : Nat} (hl : l < s.fresh) :
    s'.recs l = s.recs l ∨
    (∃ k v, e = .set l k v ∧ s'.recs l =
      { s.recs l with fields := fun k' => if k' = k then some v else (s.recs l).fields k' }) ∨
    (∃ k vs, e = .edit l k vs ∧ s'.recs l =
      { s.recs l with lists := fun k' => if k' = k then vs else (s.recs l).lists k' }) := by
  cases h with
  | look i =>
    left
    rcases hr : readObject F s i with ⟨r, s1⟩
    rcases r with e | (_ | l)
    · have := readObject_other hr (by simp); subst this; rfl
    · have := readObject_other hr (by simp); subst this; rfl
    · show s1.recs _ = _
      obtain ⟨h0, ⟨hc, rfl⟩ | ⟨t, hc, hs, ht, rfl, rfl⟩⟩ := readObject_some hr
      · rfl
      · exact alloc_old hl
  | new t ok =>
    left
    dsimp only
    split
    · exact alloc_old (s := { addModified { s with next := s.next + 1 } (s.next + 1) s.fresh with
        cache := _ }) hl
    · exact alloc_old (s := { addModified { s with next := s.next + 1 } (s.next + 1) s.fresh with
        cache := _ }) hl
  | newHelper t => left; exact alloc_old hl
  | set l' k v =>
    rw [setAttr_recs]; dsimp only
    by_cases e : l = l'
    · subst e; right; left; exact ⟨k, v, rfl, by rw [if_pos rfl]⟩
    · left; rw [if_neg e]
  | edit l' k vs =>
    rw [setList_recs]; dsimp only
    by_cases e : l = l'
    · subst e; right; right; exact ⟨k, vs, rfl, by rw [if_pos rfl]⟩
    · left; rw [if_neg e]
  | _ => left; rfl

theorem run_fresh {s s' : St} {es : List Event} (h : Run F s es s') : s.fresh ≤ s'.fresh := by
  induction h with
  | nil => exact Nat.le_refl _
  | cons h _ ih => exact Nat.le_trans (step_fresh h) ih

theorem run_iid {s s' : St} {es : List Event} (h : Run F s es s') {l : Nat} (hl : l < s.fresh) :
    (s'.recs l).iid = (s.recs l).iid ∧ (s'.recs l).parented = (s.recs l).parented := by
  induction h with
  | nil => exact ⟨rfl, rfl⟩
  | cons h _ ih =>
    rw [(ih (Nat.lt_of_lt_of_le hl (step_fresh h))).1, (ih (Nat.lt_of_lt_of_le hl (step_fresh h))).2]
    rcases step_recs h hl with e | ⟨k, v, _, e⟩ | ⟨k, v, _, e⟩ <;> rw [e] <;> exact ⟨rfl, rfl⟩

/-- A property keeps its value over a history that does not assign it. -/
theorem run_field {s s' : St} {es : List Event} (h : Run F s es s') {l k : Nat} (hl : l < s.fresh)
    (hne : ∀ v, Event.set l k v ∉ es) : (s'.recs l).fields k = (s.recs l).fields k := by
  induction h with
  | nil => rfl
  | cons h _ ih =>
    rw [ih (Nat.lt_of_lt_of_le hl (step_fresh h)) (fun v hv => hne v (List.mem_cons_of_mem _ hv))]
    rcases step_recs h hl with e | ⟨k', v, e', e⟩ | ⟨k', v, _, e⟩
    · rw [e]
    · rw [e]
      dsimp only
      rw [if_neg]
      intro hk
      subst hk e'
      exact hne v List.mem_cons_self
    · rw [e]

/-- A list keeps its contents over a history that does not edit it. -/
theorem run_list {s s' : St} {es : List Event} (h : Run F s es s') {l k : Nat} (hl : l < s.fresh)
    (hne : ∀ vs, Event.edit l k vs ∉ es) : (s'.recs l).lists k = (s.recs l).lists k := by
  induction h with
  | nil => rfl
  | cons h _ ih =>
    rw [ih (Nat.lt_of_lt_of_le hl (step_fresh h)) (fun v hv => hne v (List.mem_cons_of_mem _ hv))]
    rcases step_recs h hl with e | ⟨k', v, e', e⟩ | ⟨k', v, e', e⟩
    · rw [e]
    · rw [e]
    · rw [e]
      dsimp only
      rw [if_neg]
      intro hk
      subst hk e'
      exact hne v List.mem_cons_self

/-- An object in the table of modified objects stays there. -/
theorem step_modified {s s' : St} {e : Event} (hi : Inv F s) (h : Step F s e s') {i l : Nat}
    (hm : s.modified i = some l) : s'.modified i = some l := by
  have huniq : ∀ l', Live s l' → (s.recs l').iid = some i → l' = l := by
    intro l' h1 h2
    have h3 := hi.cached l' i (hi.live _ h1) h2
    have h4 := hi.cached l i (hi.live _ (.modified hm)) (hi.modId i l hm)
    rw [h3] at h4; injection h4
  cases h with
  | look j =>
    rcases hr : readObject F s j with ⟨r, s1⟩
    rcases r with e | (_ | x)
    · have := readObject_other hr (by simp); subst this; exact hm
    · have := readObject_other hr (by simp); subst this; exact hm
    · show s1.modified i = some l
      obtain ⟨h0, ⟨hc, rfl⟩ | ⟨t, hc, hs, ht, rfl, rfl⟩⟩ := readObject_some hr
      · exact hm
      · exact hm
  | new t ok =>
    have : i ≠ s.next + 1 := by
      intro e
      have := hi.bound i l (hi.cached l i (hi.live _ (.modified hm)) (hi.modId i l hm))
      omega
    dsimp only
    split <;> simp only [create, alloc, addModified, St.hold, if_neg this] <;> exact hm
  | newHelper t => exact hm
  | set l' k v hl =>
    rw [setAttr_rest.2.2.2.2.1]
    dsimp only
    split
    · rename_i e; rw [huniq l' hl e]
    · exact hm
  | edit l' k vs hl =>
    rw [setList_rest.2.2.2.2.1]
    dsimp only
    split
    · rename_i e
      rw [huniq l' ?_ e.2]
      rcases hl with hl | hl
      · exact hl
      · exact .parent hl e.1
    · exact hm
  | _ => exact hm

theorem run_modified {s s' : St} {es : List Event} (hi : Inv F s) (h : Run F s es s') {i l : Nat}
    (hm : s.modified i = some l) : s'.modified i = some l := by
  induction h with
  | nil => exact hm
  | cons h _ ih => exact ih (hi.step h) (step_modified hi h hm)

theorem Inv.lookup {s : St} (hi : Inv F s) {i l : Nat} (hl : Live s l)
    (hid : (s.recs l).iid = some i) : Session.readObject F s i = (.ok (some l), s) := by
  have := hi.cached l i (hi.live _ hl) hid
  exact readObject_hit (hi.bound _ _ this).1 this

/-! ### C18 -/

/-- C18: in every state a program can reach, looking up the id of an object that is held, was
modified, or is stored in such an object, returns this very object. -/
theorem C18_same {es : List Event} {s : St} (h : Run F (start F) es s) {i l : Nat}
    (hl : Live s l) (hid : (s.recs l).iid = some i) : readObject F s i = (.ok (some l), s) :=
  (Inv.start.run h).lookup hl hid

/-- C18: an object whose property has been assigned is the object found under its id for ever. -/
theorem C18_modified {es es' : List Event} {s s1 s2 : St} (h : Run F (start F) es s) {i l k : Nat}
    {v : Val} (hid : (s.recs l).iid = some i) (h1 : Step F s (.set l k v) s1) (h2 : Run F s1 es' s2) :
    readObject F s2 i = (.ok (some l), s2) := by
  have hi := Inv.start.run h
  have hm : s1.modified i = some l := by
    cases h1
    rw [setAttr_rest.2.2.2.2.1]; simp [hid]
  have hi1 := hi.step h1
  have hm2 := run_modified hi1 h2 hm
  exact (hi1.run h2).lookup (.modified hm2) ((hi1.run h2).modId _ _ hm2)

/-- C18: a lookup gives an object that carries the id asked for, and the next lookup gives the same. -/
theorem C18_id {es : List Event} {s s' : St} (h : Run F (start F) es s) {i l : Nat}
    (hl : readObject F s i = (.ok (some l), s')) :
    (s'.recs l).iid = some i ∧ readObject F s' i = (.ok (some l), s') := by
  have hi := Inv.start.run h
  have hi' := hi.step (.look s i)
  rw [hl] at hi'
  dsimp only at hi'
  have hc : s'.cache i = some l := by
    obtain ⟨h0, ⟨hc, rfl⟩ | ⟨t, hc, hs, ht, rfl, rfl⟩⟩ := readObject_some hl
    · exact hc
    · simp
  exact ⟨(hi'.cacheId i l hc).2, readObject_hit (hi'.bound i l hc).1 hc⟩

/-- C18: over a whole history, one object is never returned for two ids. -/
theorem C18_one_id {es : List Event} {s : St} (h : Run F (start F) es s) {i j l : Nat}
    (h1 : .look i (.ok (some l)) ∈ es) (h2 : .look j (.ok (some l)) ∈ es) : i = j := by
  have key : ∀ {s0 s : St} {es : List Event}, Inv F s0 → Run F s0 es s → ∀ {i : Nat},
      .look i (.ok (some l)) ∈ es → (s.recs l).iid = some i := by
    intro s0 s es hi hr
    induction hr with
    | nil => intro i h; cases h
    | @cons s0 s1 s2 e es hs hr ih =>
      intro i h
      rcases List.mem_cons.1 h with h | h
      · have hi1 := hi.step hs
        have : (s1.recs l).iid = some i ∧ l < s1.fresh := by
          subst h
          generalize hev : Event.look i (.ok (some l)) = ev at hs
          cases hs with
          | look i' =>
            injection hev with e1 e2
            subst e1
            rcases hro : readObject F s0 i with ⟨r, s'⟩
            rw [hro] at e2 hi1
            dsimp only at e2
            subst e2
            dsimp only at hi1 ⊢
            have hc : s'.cache i = some l := by
              obtain ⟨h0, ⟨hc, rfl⟩ | ⟨t, hc, hs, ht, rfl, rfl⟩⟩ := readObject_some hro
              · exact hc
              · simp
            exact ⟨(hi1.cacheId i l hc).2, (hi1.cacheId i l hc).1.1⟩
          | _ => cases hev
        rw [(run_iid hr this.2).1]
        exact this.1
      · exact ih (hi.step hs) h
  have a := key Inv.start h h1
  have b := key Inv.start h h2
  rw [a] at b; injection b

/-- C18: the null reference, and the first lookup of an id: the object has exactly the contents that
reading the chunk gives; if that fails, or there is no such chunk, nothing changes. -/
theorem C18_first {es : List Event} {s : St} (h : Run F (start F) es s) {i : Nat}
    (hc : s.cache i = none) :
    readObject F s 0 = (.ok none, s) ∧
    (0 < i → F.size ≤ i → readObject F s i = (.error .index, s)) ∧
    (0 < i → i < F.size → ∀ e, F.parse i = .error e → readObject F s i = (.error e, s)) ∧
    (0 < i → i < F.size → ∀ t, F.parse i = .ok t → ∃ l s', readObject F s i = (.ok (some l), s') ∧
      ¬ Live s l ∧ s'.recs l = t.main.place l (some i) ∧ s'.modified = s.modified) := by
  refine ⟨rfl, ?_, ?_, ?_⟩
  · intro h0 h1
    simp only [readObject, if_neg (Nat.ne_of_gt h0), hc, if_pos h1]
  · intro h0 h1 e he
    simp only [readObject, if_neg (Nat.ne_of_gt h0), hc, if_neg (Nat.not_le_of_lt h1), he]
  · intro h0 h1 t ht
    simp only [readObject, if_neg (Nat.ne_of_gt h0), hc, if_neg (Nat.not_le_of_lt h1), ht]
    refine ⟨_, _, rfl, ?_, alloc_main, rfl⟩
    intro hl
    exact absurd ((Inv.start.run h).live _ hl).1 (Nat.lt_irrefl _)

/-! ### C19 -/

/-- The ids given out in a history, in order. -/
def newIds : List Event → List Nat
  | [] => []
  | .new i _ :: es => i :: newIds es
  | _ :: es => newIds es

theorem step_next {s s' : St} {e : Event} (h : Step F s e s') :
    s.next ≤ s'.next ∧ (∀ i ok, e = .new i ok → i = s.next + 1 ∧ s'.next = s.next + 1) := by
  cases h with
  | look i =>
    refine ⟨?_, by simp⟩
    rcases hr : readObject F s i with ⟨r, s1⟩
    rcases r with e | (_ | l)
    · have := readObject_other hr (by simp); subst this; exact Nat.le_refl _
    · have := readObject_other hr (by simp); subst this; exact Nat.le_refl _
    · show s.next ≤ s1.next
      obtain ⟨h0, ⟨hc, rfl⟩ | ⟨t, hc, hs, ht, rfl, rfl⟩⟩ := readObject_some hr
      · exact Nat.le_refl _
      · exact Nat.le_refl _
  | new t ok =>
    dsimp only
    refine ⟨?_, ?_⟩
    · split <;> exact Nat.le_succ _
    · intro i ok' h
      injection h with h1 h2
      subst h1
      split <;> exact ⟨rfl, rfl⟩
  | newHelper t => exact ⟨Nat.le_refl _, by simp⟩
  | set l k v => rw [setAttr_rest.2.1]; exact ⟨Nat.le_refl _, by simp⟩
  | edit l k vs => rw [setList_rest.2.1]; exact ⟨Nat.le_refl _, by simp⟩
  | _ => exact ⟨Nat.le_refl _, by simp⟩

theorem run_newIds {s s' : St} {es : List Event} (h : Run F s es s') :
    (∀ i ∈ newIds es, s.next < i ∧ i ≤ s'.next) ∧ (newIds es).Pairwise (· < ·) ∧ s.next ≤ s'.next := by
  induction h with
  | nil => exact ⟨by simp [newIds], by simp [newIds], Nat.le_refl _⟩
  | @cons s s1 s2 e es hs _ ih =>
    obtain ⟨n1, n2⟩ := step_next hs
    obtain ⟨i1, i2, i3⟩ := ih
    have other : newIds (e :: es) = newIds es →
        (∀ i ∈ newIds (e :: es), s.next < i ∧ i ≤ s2.next) ∧ (newIds (e :: es)).Pairwise (· < ·) ∧
        s.next ≤ s2.next := by
      intro h
      rw [h]
      exact ⟨fun i hi => ⟨Nat.lt_of_le_of_lt n1 (i1 i hi).1, (i1 i hi).2⟩, i2, Nat.le_trans n1 i3⟩
    cases e with
    | new i ok =>
      obtain ⟨a, b⟩ := n2 i ok rfl
      simp only [newIds, List.mem_cons, List.pairwise_cons]
      refine ⟨?_, ⟨?_, i2⟩, Nat.le_trans n1 i3⟩
      · intro j hj
        rcases hj with rfl | hj
        · omega
        · have := i1 j hj; omega
      · intro j hj
        have := i1 j hj; omega
    | _ => exact other rfl

/-- C19: in every history the ids given to new objects increase, and are above every index of the
file; so each differs from every id in the file and from all ids given out before. -/
theorem C19_fresh {es : List Event} {s : St} (h : Run F (start F) es s) :
    (newIds es).Nodup ∧ (newIds es).Pairwise (· < ·) ∧ ∀ i ∈ newIds es, F.size < i := by
  obtain ⟨h1, h2, _⟩ := run_newIds h
  exact ⟨h2.imp (fun h => Nat.ne_of_lt h), h2, fun i hi => (h1 i hi).1⟩

/-- C19: no object, whether read from the file or created, that exists when a new object is made has
the id of the new object, and from then on this id finds the new object. -/
theorem C19_unused {es : List Event} {s : St} (h : Run F (start F) es s) (t : Template) :
    (∀ l, Exists s l → (s.recs l).iid ≠ some (s.next + 1)) ∧
    readObject F (create s t) (s.next + 1) = (.ok (some s.fresh), create s t) ∧
    (create s t).recs s.fresh = t.main.place s.fresh (some (s.next + 1)) := by
  have hi := Inv.start.run h
  refine ⟨?_, ?_, ?_⟩
  · intro l hl e
    have := (hi.bound _ _ (hi.cached l _ hl e)).2
    omega
  · exact readObject_hit (by omega) (by simp [create, alloc])
  · exact alloc_main (s := { addModified { s with next := s.next + 1 } (s.next + 1) s.fresh with
      cache := _ })

/-- C19: a created object is found under its id for ever, even if the program drops it, and even if
its constructor raised. -/
theorem C19_kept {es es' : List Event} {s s1 s2 : St} (h : Run F (start F) es s) {i : Nat} {ok : Bool}
    (h1 : Step F s (.new i ok) s1) (h2 : Run F s1 es' s2) :
    readObject F s2 i = (.ok (some s.fresh), s2) := by
  have hi := Inv.start.run h
  have hi1 := hi.step h1
  have hm : s1.modified i = some s.fresh := by
    cases h1
    dsimp only
    split <;> simp [create, alloc, addModified, St.hold]
  have hm2 := run_modified hi1 h2 hm
  exact (hi1.run h2).lookup (.modified hm2) ((hi1.run h2).modId _ _ hm2)

/-! ### C20 -/

/-- C20: after a property of a file object has been assigned, whatever happens (garbage collection
included), looking up its id finds the object with the assigned value, until it is assigned again. -/
theorem C20_assigned {es es' : List Event} {s s1 s2 : St} (h : Run F (start F) es s) {i l k : Nat}
    {v : Val} (hid : (s.recs l).iid = some i) (h1 : Step F s (.set l k v) s1) (h2 : Run F s1 es' s2)
    (hne : ∀ v', Event.set l k v' ∉ es') :
    readObject F s2 i = (.ok (some l), s2) ∧ (s2.recs l).fields k = some v := by
  refine ⟨C18_modified h hid h1 h2, ?_⟩
  have hl : l < s1.fresh := by
    have hlive : Live s l := by cases h1; assumption
    exact Nat.lt_of_lt_of_le ((Inv.start.run h).live _ hlive).1 (step_fresh h1)
  rw [run_field h2 hl hne]
  cases h1
  rw [setAttr_recs]; simp

/-- C20: the same for an edit of a list that knows its owner. -/
theorem C20_list {es es' : List Event} {s s1 s2 : St} (h : Run F (start F) es s) {i l k : Nat}
    {vs : List Val} (hid : (s.recs l).iid = some i) (hp : (s.recs l).parented k = true)
    (h1 : Step F s (.edit l k vs) s1) (h2 : Run F s1 es' s2) (hne : ∀ vs', Event.edit l k vs' ∉ es') :
    readObject F s2 i = (.ok (some l), s2) ∧ (s2.recs l).lists k = vs := by
  have hi := Inv.start.run h
  have hi1 := hi.step h1
  have hm : s1.modified i = some l := by
    cases h1
    rw [setList_rest.2.2.2.2.1]; simp [hid, hp]
  have hm2 := run_modified hi1 h2 hm
  refine ⟨(hi1.run h2).lookup (.modified hm2) ((hi1.run h2).modId _ _ hm2), ?_⟩
  rw [run_list h2 (hi1.live _ (.modified hm)).1 hne]
  cases h1
  rw [setList_recs]; simp

/-- Nothing held and nothing modified: the collector may take everything. -/
theorem forget {s : St} (h1 : s.held = []) (h2 : ∀ i, s.modified i = none) :
    ∃ g s', Step F s (.collect g) s' ∧ (∀ i l, Exists s l → s.cache i = some l → s'.cache i = none) ∧
      s'.fresh = s.fresh := by
  have hl : ∀ l, ¬ Live s l := by
    intro l h
    induction h with
    | held h => rw [h1] at h; cases h
    | parent h => rw [h1] at h; cases h
    | heldItem h => rw [h1] at h; cases h
    | modified h => rw [h2] at h; cases h
    | link _ _ ih => exact ih
  let g := (List.range s.fresh).filter (fun l => decide (l ∉ s.gone))
  have hg : ∀ l, l ∈ g ↔ Exists s l := by
    intro l; simp [g, Exists]
  refine ⟨g, _, .collect s g ⟨fun l h => ⟨(hg l).1 h, hl l⟩, ?_⟩, ?_, rfl⟩
  · intro l l' h3 h4; exact absurd ((hg l).2 h3) h4
  · intro i l h3 h4
    simp only [collect, h4, if_pos ((hg l).2 h3)]

/-- Reading an object of the file, changing it without marking it, and dropping it: the next lookup
reads the file again. -/
theorem lost {i : Nat} {t : Template} (h0 : 0 < i) (hs : i < F.size) (ht : F.parse i = .ok t)
    {e : Event} {s1 : St}
    (hstep : Step F { alloc (start F) t (some i) with
        cache := fun j => if j = i then some 0 else none, held := [.obj 0] } e s1)
    (hm : s1.modified = fun _ => none) (hh : s1.held = [.obj 0])
    (hc : s1.cache = fun j => if j = i then some 0 else none) :
    ∃ g l s, Run F (start F) [.look i (.ok (some 0)), e, .drop (.obj 0), .collect g,
      .look i (.ok (some l))] s ∧ l ≠ 0 ∧ s.recs l = t.main.place l (some i) := by
  have r0 : readObject F (start F) i = (.ok (some 0), { alloc (start F) t (some i) with
        cache := fun j => if j = i then some 0 else none }) := by
    simp only [readObject, if_neg (Nat.ne_of_gt h0), start, if_neg (Nat.not_le_of_lt hs), ht]
    rfl
  have st0 : Step F (start F) (.look i (.ok (some 0))) { alloc (start F) t (some i) with
        cache := fun j => if j = i then some 0 else none, held := [.obj 0] } := by
    have := Step.look (F := F) (start F) i
    rw [r0] at this
    exact this
  have hi1 := (Inv.start.step st0).step hstep
  have st2 := Step.drop (F := F) s1 (.obj 0)
  have hi2 := hi1.step st2
  obtain ⟨g, s3, st3, hg, hf⟩ := forget (F := F)
    (s := { s1 with held := s1.held.filter (fun t' => decide (t' ≠ .obj 0)) }) (by simp [hh])
    (by simp [hm])
  have hc1 : s1.cache i = some 0 := by rw [hc]; simp
  have hc3 := hg i 0 (hi2.cacheId i 0 hc1).1 hc1
  have hfr : 0 < s3.fresh := by rw [hf]; exact (hi1.cacheId i 0 hc1).1.1
  have r3 : readObject F s3 i = (.ok (some s3.fresh), { alloc s3 t (some i) with
        cache := fun j => if j = i then some s3.fresh else s3.cache j }) := by
    simp only [readObject, if_neg (Nat.ne_of_gt h0), hc3, if_neg (Nat.not_le_of_lt hs), ht]
    rfl
  have st4 := Step.look (F := F) s3 i
  rw [r3] at st4
  refine ⟨g, s3.fresh, _, .cons st0 (.cons hstep (.cons st2 (.cons st3 (.cons st4 (.nil _))))),
    Nat.ne_of_gt hfr, alloc_main⟩

/-- C20, the exception: for every object of every file and every list property of it that does not
know its owner (all lists made by the accelerated readers, and plain Python lists such as the
tracks), there is a history in which an edit of the list is lost: after the object is dropped and
collected, looking it up gives the list as it is in the file. -/
theorem C20_list_lost {i k : Nat} {t : Template} (h0 : 0 < i) (hs : i < F.size)
    (ht : F.parse i = .ok t) (hp : t.main.parented k = false) (vs : List Val)
    (hv : ∀ v ∈ vs, ∀ l, v ≠ .obj l) :
    ∃ g l s, Run F (start F) [.look i (.ok (some 0)), .edit 0 k vs, .drop (.obj 0), .collect g,
      .look i (.ok (some l))] s ∧ (s.recs l).lists k = (t.main.lists k).map (TVal.place l) := by
  obtain ⟨g, l, s, h1, h2, h3⟩ := lost (F := F) h0 hs ht (e := .edit 0 k vs)
    (.edit _ 0 k vs (.inl (.held List.mem_cons_self)) (fun v hv' l e => absurd e (hv v hv' l)))
    (by rw [setList_rest.2.2.2.2.1]; funext j; rw [if_neg]; · rfl
        intro h; have := h.1; simp [alloc, start, TRec.place, hp] at this)
    (by rw [setList_rest.2.2.2.1])
    (by rw [setList_rest.1])
  exact ⟨g, l, s, h1, by rw [h3]; rfl⟩

/-- C20, the exception: edits of helper objects (tracks and the like, which have no id) do not mark the
object they belong to, and are lost in the same way: the helper that is found afterwards is another
object, with the contents of the file. -/
theorem C20_helper_lost {i k : Nat} {t : Template} (h0 : 0 < i) (hs : i < F.size)
    (ht : F.parse i = .ok t) (o : Fin t.n) (k' : Nat)
    (ho : t.main.fields k' = some (.helper o) ∨ TVal.helper o ∈ t.main.lists k') (v : Val)
    (hv : ∀ l, v ≠ .obj l) :
    ∃ g l s, Run F (start F) [.look i (.ok (some 0)), .set (1 + o.val) k v, .drop (.obj 0), .collect g,
      .look i (.ok (some l))] s ∧ l ≠ 0 ∧ s.recs l = t.main.place l (some i) := by
  have hh : ((alloc (start F) t (some i)).recs (1 + o.val)).iid = none :=
    alloc_iid_helper (s := start F) ⟨Nat.zero_le _, by have := o.isLt; show 1 + o.val < 0 + 1 + t.n; omega⟩
      (by show 1 + o.val ≠ 0; omega)
  refine lost (F := F) h0 hs ht (e := .set (1 + o.val) k v)
    (.set _ (1 + o.val) k v (.link (.held List.mem_cons_self) ?_) (fun l e => absurd e (hv l)))
    ?_ (by rw [setAttr_rest.2.2.2.1]) (by rw [setAttr_rest.1])
  · rcases ho with ho | ho
    · left; refine ⟨k', ?_⟩
      show ((alloc (start F) t (some i)).recs (start F).fresh).fields k' = _
      rw [alloc_main]
      simp [TRec.place, ho, TVal.place, start]
    · right; refine ⟨k', ?_⟩
      show _ ∈ ((alloc (start F) t (some i)).recs (start F).fresh).lists k'
      rw [alloc_main]
      simp only [TRec.place, List.mem_map]
      exact ⟨_, ho, by simp [TVal.place, start]⟩
  · rw [setAttr_rest.2.2.2.2.1]; funext j; rw [if_neg]; · rfl
    intro h
    dsimp only at h
    rw [hh] at h; cases h

/-! ### A concrete history -/

/-- A file with two objects: the first has a reference to the second in property 0, a list of
references in property 1 and a helper object in property 2; the second has a list without owner. -/
def demo : FileView where
  size := 3
  parse := fun i =>
    if i = 1 then .ok
      { n := 1
        main := ⟨fun k => if k = 0 then some (.ref 2) else if k = 2 then some (.helper 0) else none,
          fun k => if k = 1 then [.ref 2, .ref 2] else [], fun _ => true⟩
        helpers := fun _ => ⟨fun _ => none, fun _ => [], fun _ => false⟩ }
    else .ok
      { n := 0
        main := ⟨fun _ => none, fun k => if k = 0 then [.ref 1] else [], fun _ => false⟩
        helpers := fun o => o.elim0 }

/-- The states of the history in `demo_run`: object 1 read. -/
def d1 : St := (readObject demo (start demo) 1).2.hold (.obj 0)
/-- Property 0 of object 1 assigned. -/
def d2 : St := setAttr d1 0 0 (.num 9)
/-- Its list edited, then dropped. -/
def d3 : St := (setList d2 0 1 [.ref 2]).drop (.obj 0)
/-- Object 2 read and dropped. -/
def d4 : St := ((readObject demo d3 2).2.hold (.obj 2)).drop (.obj 2)
/-- Object 2 collected and read again. -/
def d5 : St := (readObject demo (collect d4 [2]) 2).2.hold (.obj 3)

theorem d4_link0 {l : Nat} (hk : Link d4 0 l) : l = 1 := by
  rcases hk with ⟨k, hk⟩ | ⟨k, hk⟩
  · have e : (d4.recs 0).fields = fun k => if k = 0 then some (.num 9) else
        Option.map (TVal.place 0) (if k = 0 then some (TVal.ref 2 : TVal 1) else
          if k = 2 then some (.helper 0) else none) := rfl
    rw [e] at hk
    dsimp only at hk
    split at hk
    · cases hk
    · split at hk
      · cases hk; rfl
      · cases hk
  · have e : (d4.recs 0).lists = fun k => if k = 1 then [.ref 2] else
        List.map (TVal.place 0) (if k = 1 then [(TVal.ref 2 : TVal 1), .ref 2] else []) := rfl
    rw [e] at hk
    dsimp only at hk
    split at hk <;> simp_all

theorem d4_link1 {l : Nat} : ¬ Link d4 1 l := by
  rintro (⟨k, hk⟩ | ⟨k, hk⟩) <;> cases hk

theorem d4_garbage : Garbage d4 [2] := by
  have key : ∀ l, Live d4 l → l = 0 ∨ l = 1 := by
    intro l h
    induction h with
    | held h => cases h
    | parent h => cases h
    | heldItem h => cases h
    | @modified i l h =>
      have e : d4.modified = fun j => if j = 1 then some 0 else if j = 1 then some 0 else none := rfl
      rw [e] at h
      dsimp only at h
      split at h
      · cases h; exact .inl rfl
      · cases h
    | @link l l' _ hk ih =>
      rcases ih with rfl | rfl
      · exact .inr (d4_link0 hk)
      · exact (d4_link1 hk).elim
  refine ⟨?_, ?_⟩
  · intro l h
    rw [List.mem_singleton] at h
    subst h
    refine ⟨⟨by decide, by decide⟩, fun h => ?_⟩
    rcases key 2 h with h | h <;> cases h
  · intro l l' h1 h2 h3 h4
    have h5 : l < 3 := h1.1
    rw [List.mem_singleton] at h2 h4
    have : l = 0 ∨ l = 1 := by omega
    rcases this with rfl | rfl
    · rw [d4_link0 h3] at h4; cases h4
    · exact d4_link1 h3

/-- Look up object 1, assign its property 0 and edit its list, drop it, look up object 2, drop it and
let it be collected, look it up again (another Python object), create an object: the hypotheses of
the theorems above are met. -/
theorem demo_run :
    Run demo (start demo) [.look 1 (.ok (some 0))] d1 ∧ (d1.recs 0).iid = some 1 ∧
    (d1.recs 0).parented 1 = true ∧ Live d1 0 ∧
    Step demo d1 (.set 0 0 (.num 9)) d2 ∧
    ∃ s, Run demo d2 [.edit 0 1 [.ref 2], .drop (.obj 0), .look 2 (.ok (some 2)), .drop (.obj 2),
      .collect [2], .look 2 (.ok (some 3)), .new 4 true] s := by
  have l1 : Live d1 0 := .held List.mem_cons_self
  have l2 : Live d2 0 := .held List.mem_cons_self
  exact ⟨.cons (.look (start demo) 1) (.nil _), rfl, rfl, l1, .set d1 0 0 _ l1 (fun l h => by cases h),
    _, .cons (.edit d2 0 1 _ (.inl l2) (fun v hv l h => by rw [List.mem_singleton] at hv; subst hv; cases h))
      (.cons (.drop _ _) (.cons (.look d3 2) (.cons (.drop _ _) (.cons (.collect d4 [2] d4_garbage)
        (.cons (.look (collect d4 [2]) 2) (.cons (.new d5 ⟨0, ⟨fun _ => none, fun _ => [], fun _ => true⟩,
          fun o => o.elim0⟩ true) (.nil _)))))))⟩

/-- So the edits of object 1 are still there at the end. -/
example : ∃ s, readObject demo s 1 = (.ok (some 0), s) ∧ (s.recs 0).fields 0 = some (.num 9) := by
  obtain ⟨h1, h2, _, _, h3, s, h4⟩ := demo_run
  exact ⟨s, C20_assigned h1 h2 h3 h4 (by simp)⟩

/-- Object 1 looked up again, object 2 not looked up yet, an object created now. -/
example : readObject demo d1 1 = (.ok (some 0), d1) ∧
    (∃ l s, readObject demo d1 2 = (.ok (some l), s) ∧ ¬ Live d1 l) ∧
    ∀ t, readObject demo (create d1 t) (d1.next + 1) = (.ok (some d1.fresh), create d1 t) := by
  obtain ⟨h1, h2, _, l1, _⟩ := demo_run
  refine ⟨C18_same h1 l1 h2, ?_, fun t => (C19_unused h1 t).2.1⟩
  obtain ⟨l, s, h, hl, _⟩ := (C18_first h1 (i := 2) rfl).2.2.2 (by decide) (by decide) _ rfl
  exact ⟨l, s, h, hl⟩

example : ((readObject demo (start demo) 1).2.recs 0).iid = some 1 ∧ ∀ i, .look i (.ok (some 0)) ∈
    [Event.look 1 (.ok (some 0))] → i = 1 :=
  ⟨(C18_id (Run.nil (F := demo) _) (i := 1) (l := 0) (s' := (readObject demo (start demo) 1).2) rfl).1,
    fun _ h => C18_one_id demo_run.1 h List.mem_cons_self⟩

theorem run_append {F : FileView} {s s1 s2 : St} {es es' : List Event} (h : Run F s es s1) (h' : Run F s1 es' s2) :
    Run F s (es ++ es') s2 := by
  induction h with
  | nil => exact h'
  | cons st _ ih => exact .cons st (ih h')

/-- In the whole history the object created gets number 4, which is larger than all in the file. -/
example : demo.size < 4 := by
  obtain ⟨h1, _, _, _, h3, s, h4⟩ := demo_run
  exact (C19_fresh (run_append h1 (.cons h3 h4))).2.2 4 (by decide)

/-- An object created, dropped, then a look at another: it is kept. -/
example (t : Template) : ∃ s, Run demo ((create d1 t).hold (.obj d1.fresh)) [.drop (.obj d1.fresh), .look 2
      (readObject demo (((create d1 t).hold (.obj d1.fresh)).drop (.obj d1.fresh)) 2).1] s ∧
    readObject demo s (d1.next + 1) = (.ok (some d1.fresh), s) :=
  have h : Run demo ((create d1 t).hold (.obj d1.fresh)) [.drop (.obj d1.fresh), .look 2
      (readObject demo (((create d1 t).hold (.obj d1.fresh)).drop (.obj d1.fresh)) 2).1] _ :=
    .cons (.drop _ _) (.cons (.look _ 2) (.nil _))
  ⟨_, h, C19_kept demo_run.1 (.new d1 t true) h⟩

/-- The list of object 1 has an owner. -/
example : readObject demo d3 1 = (.ok (some 0), d3) ∧ (d3.recs 0).lists 1 = [.ref 2] := by
  obtain ⟨h1, h2, hp, _, h3, _⟩ := demo_run
  have hn : ∀ v ∈ [Val.ref 2], Available d2 v := fun v hv l h => by
    rw [List.mem_singleton] at hv; subst hv; cases h
  exact C20_list (run_append h1 (.cons h3 (.nil _))) h2 hp (.edit d2 0 1 _ (.inl (.held List.mem_cons_self)) hn)
    (.cons (.drop _ _) (.nil _)) (by simp)

/-- The list of object 2 has no owner: an edit of it can get lost. -/
example : ∃ g l s, Run demo (start demo) [.look 2 (.ok (some 0)), .edit 0 0 [], .drop (.obj 0),
    .collect g, .look 2 (.ok (some l))] s ∧ (s.recs l).lists 0 = [.ref 1] :=
  C20_list_lost (F := demo) (i := 2) (k := 0) (by decide) (by decide) rfl rfl [] (by simp)

end Avb.Session

import Verif.Model.BinFind

/-!
C30, C31: finding mobs by id in a bin, and listing them.
-/
namespace Avb.BinFind

/-! ### C30 -/

/-- `r` is what a search for mob id `i` should give in a list of mobs: the last one that has the id, and
nothing if none has. -/
def Answer (mobs : Nat → Composition) (items : List (Option Nat)) (i : MobID) : Option Nat → Prop
  | some m => (mobs m).mob_id = some i ∧
      ∃ before after, items = before ++ some m :: after ∧ ∀ n, some n ∈ after → (mobs n).mob_id ≠ some i
  | none => ∀ n, some n ∈ items → (mobs n).mob_id ≠ some i

/-- Every item has a mob, and that has an id. -/
def Complete (mobs : Nat → Composition) (items : List (Option Nat)) : Prop :=
  ∀ x ∈ items, ∃ m i, x = some m ∧ (mobs m).mob_id = some i

theorem get_put {k k' : MobID} {m : Nat} {d : List (MobID × Nat)} :
    get k' (put k m d) = if k = k' then some m else get k' d := by
  induction d with
  | nil => rfl
  | cons p d ih =>
    simp only [put]
    by_cases h : p.1 = k
    · rw [if_pos h]
      subst h
      simp only [get]
      by_cases hk : p.1 = k' <;> simp [hk]
    · rw [if_neg h]
      simp only [get, ih]
      by_cases hp : p.1 = k'
      · have : k ≠ k' := fun h' => h (hp.trans h'.symm)
        simp [hp, this]
      · simp [hp]

theorem put_ne {k : MobID} {m : Nat} {d : List (MobID × Nat)} : put k m d ≠ [] := by
  cases d with
  | nil => simp [put]
  | cons p d => simp only [put]; split <;> simp

theorem Answer.append {mobs : Nat → Composition} {items : List (Option Nat)} {i j : MobID} {m : Nat}
    {r : Option Nat} (h : Answer mobs items i r) (hm : (mobs m).mob_id = some j) :
    Answer mobs (items ++ [some m]) i (if j = i then some m else r) := by
  by_cases hij : j = i
  · subst hij
    rw [if_pos rfl]
    exact ⟨hm, items, [], rfl, by simp⟩
  · rw [if_neg hij]
    have hne : (mobs m).mob_id ≠ some i := by rw [hm]; simpa using hij
    cases r with
    | none =>
      intro n hn
      rcases List.mem_append.1 hn with hn | hn
      · exact h n hn
      · simp at hn; subst hn; exact hne
    | some x =>
      obtain ⟨h1, b, a, rfl, h2⟩ := h
      refine ⟨h1, b, a ++ [some m], by simp, fun n hn => ?_⟩
      rcases List.mem_append.1 hn with hn | hn
      · exact h2 n hn
      · simp at hn; subst hn; exact hne

/-- The answer is determined. -/
theorem Answer.unique {mobs : Nat → Composition} {items : List (Option Nat)} {i : MobID} {r r' : Option Nat}
    (h : Answer mobs items i r) (h' : Answer mobs items i r') : r = r' := by
  have key : ∀ (items : List (Option Nat)) (r r' : Option Nat), Answer mobs items.reverse i r →
      Answer mobs items.reverse i r' → r = r' := by
    intro items
    induction items with
    | nil =>
      intro r r' h h'
      have : ∀ r, Answer mobs [] i r → r = none := by
        intro r h
        cases r with
        | none => rfl
        | some m => obtain ⟨_, b, a, hb, _⟩ := h; simp at hb
      rw [this r h, this r' h']
    | cons x xs ih =>
      intro r r' h h'
      rw [List.reverse_cons] at h h'
      have down : ∀ r, Answer mobs (xs.reverse ++ [x]) i r → (∀ m, x = some m → (mobs m).mob_id ≠ some i) →
          Answer mobs xs.reverse i r := by
        intro r h hx
        cases r with
        | none => exact fun n hn => h n (List.mem_append_left _ hn)
        | some m =>
          obtain ⟨h1, b, a, hb, h2⟩ := h
          rcases List.eq_nil_or_concat a with rfl | ⟨a', y, rfl⟩
          · have hb : xs.reverse ++ [x] = b ++ [some m] := hb
            obtain ⟨_, he⟩ := List.append_inj' hb rfl
            simp at he
            exact absurd h1 (hx m he)
          · have hb : xs.reverse ++ [x] = (b ++ some m :: a') ++ [y] := by simpa using hb
            obtain ⟨he, _⟩ := List.append_inj' hb rfl
            exact ⟨h1, b, a', he, fun n hn => h2 n (by simp [hn])⟩
      by_cases hx : ∃ m, x = some m ∧ (mobs m).mob_id = some i
      · obtain ⟨m, rfl, hm⟩ := hx
        have top : ∀ r, Answer mobs (xs.reverse ++ [some m]) i r → r = some m := by
          intro r h
          cases r with
          | none => exact absurd hm (h m (by simp))
          | some m' =>
            obtain ⟨h1, b, a, hb, h2⟩ := h
            rcases List.eq_nil_or_concat a with rfl | ⟨a', y, rfl⟩
            · have hb : xs.reverse ++ [some m] = b ++ [some m'] := hb
              obtain ⟨_, he⟩ := List.append_inj' hb rfl
              simpa using he.symm
            · have hb : xs.reverse ++ [some m] = (b ++ some m' :: a') ++ [y] := by simpa using hb
              obtain ⟨_, he⟩ := List.append_inj' hb rfl
              simp at he
              exact absurd hm (h2 m (by simp [he]))
        rw [top r h, top r' h']
      · have hx : ∀ m, x = some m → (mobs m).mob_id ≠ some i := fun m h1 h2 => hx ⟨m, h1, h2⟩
        exact ih r r' (down r h hx) (down r' h' hx)
  have := key items.reverse r r'
  rw [List.reverse_reverse] at this
  exact this h h'

theorem fill_complete {mobs : Nat → Composition} {items done : List (Option Nat)} {d : List (MobID × Nat)}
    (hc : Complete mobs items) (hd : ∀ i, Answer mobs done i (get i d)) :
    ∃ d', fill mobs items d = (d', none) ∧ (∀ i, Answer mobs (done ++ items) i (get i d')) := by
  induction items generalizing done d with
  | nil => exact ⟨d, rfl, by simpa using hd⟩
  | cons x items ih =>
    obtain ⟨m, j, rfl, hm⟩ := hc x List.mem_cons_self
    have hd2 : ∀ i, Answer mobs (done ++ [some m]) i (get i (put j m d)) := by
      intro i; rw [get_put]; exact (hd i).append hm
    obtain ⟨d', h1, h2⟩ := ih (fun x hx => hc x (List.mem_cons_of_mem _ hx)) hd2
    refine ⟨d', ?_, by simpa using h2⟩
    simp only [fill, mobId, hm]
    exact h1

/-- Bins on which only `find_by_mob_id` and `add_mob` have been called since they were opened. -/
def Tidy (s : St) : Prop := Complete s.mobs s.items ∧ (s.dict = [] ∨ ∀ i, Answer s.mobs s.items i (get i s.dict))

theorem answer_nil {mobs : Nat → Composition} {i : MobID} : Answer mobs [] i none := by
  intro n hn; simp at hn

theorem find_tidy {s : St} (h : Tidy s) (i : MobID) :
    ∃ r s', find s i = (.ok r, s') ∧ Answer s.mobs s.items i r ∧ s'.items = s.items ∧ s'.mobs = s.mobs ∧ Tidy s' := by
  obtain ⟨hc, hd⟩ := h
  unfold find
  by_cases h0 : s.dict = []
  · obtain ⟨d', h1, h2⟩ := fill_complete (done := []) (d := []) hc (fun i => answer_nil)
    rw [if_pos h0, h1]
    exact ⟨_, _, rfl, h2 i, rfl, rfl, hc, .inr h2⟩
  · rw [if_neg h0]
    have hd := hd.resolve_left h0
    exact ⟨_, _, rfl, hd i, rfl, rfl, hc, .inr hd⟩

theorem add_tidy {s : St} (h : Tidy s) {m : Nat} {i : MobID} (hm : (s.mobs m).mob_id = some i) :
    ∃ s', addMob s (some m) = (.ok (), s') ∧ s'.items = s.items ++ [some m] ∧ s'.mobs = s.mobs ∧ Tidy s' := by
  obtain ⟨hc, hd⟩ := h
  have hc' : Complete s.mobs (s.items ++ [some m]) := by
    intro x hx
    rcases List.mem_append.1 hx with hx | hx
    · exact hc x hx
    · simp at hx; exact ⟨m, i, hx, hm⟩
  unfold addMob
  by_cases h0 : s.dict = []
  · rw [if_pos h0]
    exact ⟨_, rfl, rfl, rfl, hc', .inl h0⟩
  · rw [if_neg h0]
    simp only [mobId, hm]
    refine ⟨_, rfl, rfl, rfl, hc', .inr fun j => ?_⟩
    simp only [get_put]
    exact (hd.resolve_left h0 j).append hm

/-- The mobs added by a sequence of calls. -/
def added : List Op → List (Option Nat)
  | [] => []
  | .find _ :: ops => added ops
  | .add m :: ops => m :: added ops

/-- C30: in a bin whose items all have mobs with ids, after any sequence of lookups and additions of mobs
with ids, the items are those there were followed by those added, each as often as it was added, and a
lookup gives the last mob in the list that has the id, if any. -/
theorem C30_history {mobs : Nat → Composition} {items : List (Option Nat)} (ops : List Op)
    (hc : Complete mobs (items ++ added ops)) (i : MobID) :
    (run ⟨items, [], mobs⟩ ops).items = items ++ added ops ∧
    ∃ r, (find (run ⟨items, [], mobs⟩ ops) i).1 = .ok r ∧ Answer mobs (items ++ added ops) i r := by
  have key : ∀ (ops : List Op) (s : St), s.mobs = mobs → Tidy s → Complete mobs (added ops) →
      (run s ops).items = s.items ++ added ops ∧ (run s ops).mobs = mobs ∧ Tidy (run s ops) := by
    intro ops
    induction ops with
    | nil => intro s h1 h2 _; exact ⟨by simp [run, added], h1, h2⟩
    | cons op ops ih =>
      intro s h1 h2 h3
      cases op with
      | find j =>
        obtain ⟨r, s', e1, _, e2, e3, e4⟩ := find_tidy h2 j
        have := ih s' (e3.trans h1) e4 h3
        simp only [run, List.foldl_cons, step, e1] at this ⊢
        rw [e2] at this
        exact this
      | add m =>
        obtain ⟨n, j, rfl, hn⟩ := h3 m (by simp [added])
        obtain ⟨s', e1, e2, e3, e4⟩ := add_tidy h2 (h1 ▸ hn)
        have := ih s' (e3.trans h1) e4 (fun x hx => h3 x (by simp [added, hx]))
        simp only [run, List.foldl_cons, step, e1] at this ⊢
        rw [e2] at this
        simpa [added] using this
  obtain ⟨h1, h2, h3⟩ := key ops ⟨items, [], mobs⟩ rfl ⟨fun x hx => hc x (List.mem_append_left _ hx), .inl rfl⟩
    (fun x hx => hc x (List.mem_append_right _ hx))
  obtain ⟨r, s', e1, e2, _, _, _⟩ := find_tidy h3 i
  refine ⟨h1, r, by rw [e1], ?_⟩
  rw [h1, h2] at e2
  exact e2

/-- C30: a found mob has the id and is listed; a listed id is found. -/
theorem C30_found {mobs : Nat → Composition} {items : List (Option Nat)} {i : MobID} {r : Option Nat}
    (h : Answer mobs items i r) :
    (∀ m, r = some m → (mobs m).mob_id = some i ∧ some m ∈ items) ∧
    (r = none ↔ ∀ m, some m ∈ items → (mobs m).mob_id ≠ some i) := by
  refine ⟨?_, ?_, ?_⟩
  · rintro m rfl
    obtain ⟨h1, b, a, rfl, _⟩ := h
    exact ⟨h1, by simp⟩
  · rintro rfl; exact h
  · intro hn
    cases r with
    | none => rfl
    | some m =>
      obtain ⟨h1, b, a, rfl, _⟩ := h
      exact absurd h1 (hn m (by simp))

/-- C30: after a lookup has filled the dictionary, edits of the item list and of the mob ids have no
effect on later lookups. -/
theorem C30_stale {s : St} (h : s.dict ≠ []) (items : List (Option Nat)) (mobs : Nat → Composition) (i : MobID) :
    (find { s with items := items, mobs := mobs } i).1 = (find s i).1 := by
  simp only [find, if_neg h]

/-- C30: the dictionary is filled by the first lookup in a bin that is not empty. -/
theorem C30_filled {mobs : Nat → Composition} {items : List (Option Nat)} (hc : Complete mobs items)
    (hi : items ≠ []) (i : MobID) : (find ⟨items, [], mobs⟩ i).2.dict ≠ [] := by
  obtain ⟨x, items, rfl⟩ := List.exists_cons_of_ne_nil hi
  obtain ⟨m, j, rfl, hm⟩ := hc _ List.mem_cons_self
  have key : ∀ items d, d ≠ [] → (fill mobs items d).1 ≠ [] := by
    intro items
    induction items with
    | nil => exact fun d h => h
    | cons x items ih =>
      intro d h
      simp only [fill]
      split
      · exact h
      · exact ih _ put_ne
  have h2 := key items (put j m []) put_ne
  unfold find
  rw [if_pos rfl]
  have h3 : fill mobs (some m :: items) [] = fill mobs items (put j m []) := by
    simp only [fill, mobId, hm]
  rw [h3]
  rcases hf : fill mobs items (put j m []) with ⟨d, e⟩
  rw [hf] at h2
  cases e <;> exact h2

/-- C30: an item without mob makes the first lookup raise; later lookups do not raise but see the mobs
before that item only.  If it is the first item, every lookup raises. -/
theorem C30_null {mobs : Nat → Composition} {before after : List (Option Nat)} (hc : Complete mobs before)
    (i j : MobID) :
    (find ⟨before ++ none :: after, [], mobs⟩ i).1 = .error .attribute ∧
    (before ≠ [] → ∃ r, (find (find ⟨before ++ none :: after, [], mobs⟩ i).2 j).1 = .ok r ∧ Answer mobs before j r) ∧
    (before = [] → (find (find ⟨before ++ none :: after, [], mobs⟩ i).2 j).1 = .error .attribute) := by
  have hf : ∀ items d d', fill mobs items d = (d', none) →
      fill mobs (items ++ none :: after) d = (d', some .attribute) := by
    intro items
    induction items with
    | nil => intro d d' h; simp only [fill, Prod.mk.injEq, and_true] at h; subst h; rfl
    | cons x items ih =>
      intro d d' h
      simp only [fill, List.cons_append] at h ⊢
      rcases hm : mobId mobs x with e | ⟨k, m⟩
      · rw [hm] at h; simp at h
      · rw [hm] at h; exact ih _ _ h
  obtain ⟨d, h1, h2⟩ := fill_complete (done := []) (d := []) hc (fun i => answer_nil)
  have h3 := hf _ _ _ h1
  have h4 : find ⟨before ++ none :: after, [], mobs⟩ i =
      (.error .attribute, ⟨before ++ none :: after, d, mobs⟩) := by
    simp only [find, h3, if_pos]
  rw [h4]
  refine ⟨rfl, fun hb => ?_, fun hb => ?_⟩
  · have hd : d ≠ [] := by
      have := C30_filled hc hb i
      simp only [find, h1, if_pos] at this
      exact this
    exact ⟨get j d, by simp only [find, if_neg hd], by simpa using h2 j⟩
  · subst hb
    simp only [fill, Prod.mk.injEq, and_true] at h1
    subst h1
    simp only [find, if_pos, List.nil_append, fill, mobId]

/-! ### C31 -/

/-- C31: the type names of mobs. -/
theorem mobType_iff {m : Composition} :
    (m.mobType = .ok "CompositionMob".toList ↔ m.mob_type_id = 1) ∧
    (m.mobType = .ok "MasterMob".toList ↔ m.mob_type_id = 2) ∧
    (m.mobType = .ok "SourceMob".toList ↔ m.mob_type_id = 3) := by
  unfold Composition.mobType
  by_cases h1 : m.mob_type_id = 1
  · rw [if_pos h1]; simp [h1]
  · by_cases h2 : m.mob_type_id = 2
    · rw [if_neg h1, if_pos h2]; simp [h2]
    · by_cases h3 : m.mob_type_id = 3
      · rw [if_neg h1, if_neg h2, if_pos h3]; simp [h3]
      · rw [if_neg h1, if_neg h2, if_neg h3]; simp [h1, h2, h3]

/-- Every item has a mob, and that has a known type. -/
def Typed (s : St) : Prop := ∀ x ∈ s.items, ∃ m, x = some m ∧ (s.mobs m).mob_type_id ∈ [1, 2, 3]

/-- The mobs of the items. -/
def itemMobs (items : List (Option Nat)) : List Nat := items.filterMap id

theorem listing_typed {mobs : Nat → Composition} {p : Text → Nat → Bool} {q : Nat → Bool}
    (hq : ∀ m t, (mobs m).mobType = .ok t → p t m = q m) {items : List (Option Nat)}
    (h : ∀ x ∈ items, ∃ m, x = some m ∧ (mobs m).mob_type_id ∈ [1, 2, 3]) :
    listing mobs p items = ((itemMobs items).filter q, none) := by
  induction items with
  | nil => rfl
  | cons x items ih =>
    obtain ⟨m, rfl, hm⟩ := h x List.mem_cons_self
    have ih := ih fun x hx => h x (List.mem_cons_of_mem _ hx)
    have : ∃ t, (mobs m).mobType = .ok t := by
      simp only [List.mem_cons, List.not_mem_nil, or_false] at hm
      rcases hm with hm | hm | hm
      · exact ⟨_, mobType_iff.1.2 hm⟩
      · exact ⟨_, mobType_iff.2.1.2 hm⟩
      · exact ⟨_, mobType_iff.2.2.2 hm⟩
    obtain ⟨t, ht⟩ := this
    simp only [listing, mobType, ht, ih, hq m t ht, itemMobs, List.filterMap_cons, id_eq, List.filter_cons]
    cases q m <;> rfl

/-- C31: when every item has a mob of a known type, the listings are the mobs of the items with that
type in the order of the items (top level mobs: composition mobs with usage code 0), without error. -/
theorem C31_listings {s : St} (h : Typed s) :
    listMobs s = (itemMobs s.items).map some ∧
    compositionmobs s = ((itemMobs s.items).filter (fun m => (s.mobs m).mob_type_id = 1), none) ∧
    mastermobs s = ((itemMobs s.items).filter (fun m => (s.mobs m).mob_type_id = 2), none) ∧
    toplevel s = ((itemMobs s.items).filter
      (fun m => (s.mobs m).mob_type_id = 1 ∧ (s.mobs m).usage_code = 0), none) := by
  have hb : ∀ (a b : Text), (a == b) = decide (a = b) := fun a b => by
    by_cases h : a = b <;> simp [h]
  have hmt : ∀ {m : Nat} {t u : Text} {n : Int}, (s.mobs m).mobType = .ok t →
      ((s.mobs m).mobType = .ok u ↔ (s.mobs m).mob_type_id = n) →
      (t == u) = decide ((s.mobs m).mob_type_id = n) := by
    intro m t u n h1 h2
    rw [h1] at h2
    rw [hb]
    by_cases h3 : t = u
    · subst h3; simp [h2.1 rfl]
    · have : ¬ (s.mobs m).mob_type_id = n := fun h4 => h3 (by injection h2.2 h4)
      simp [h3, this]
  refine ⟨?_, ?_, ?_, ?_⟩
  · have : ∀ items : List (Option Nat), (∀ x ∈ items, ∃ m, x = some m ∧ (s.mobs m).mob_type_id ∈ [1, 2, 3]) →
        items = (itemMobs items).map some := by
      intro items
      induction items with
      | nil => exact fun _ => rfl
      | cons x items ih =>
        intro h
        obtain ⟨m, rfl, _⟩ := h x List.mem_cons_self
        have := ih fun x hx => h x (List.mem_cons_of_mem _ hx)
        simp only [itemMobs, List.filterMap_cons, id_eq, List.map_cons]
        congr 1
    exact this _ h
  · exact listing_typed (fun m t ht => hmt ht mobType_iff.1) h
  · exact listing_typed (fun m t ht => hmt ht mobType_iff.2.1) h
  · refine listing_typed (fun m t ht => ?_) h
    rw [hmt ht mobType_iff.1, Bool.decide_and]
    congr 1

/-- C31: every mob is in exactly one of the listings of composition mobs, master mobs and the rest, and
the rest are source mobs. -/
theorem C31_partition {s : St} (h : Typed s) {m : Nat} (hm : some m ∈ listMobs s) :
    (m ∈ (compositionmobs s).1 ∧ m ∉ (mastermobs s).1) ∨ (m ∉ (compositionmobs s).1 ∧ m ∈ (mastermobs s).1) ∨
    (m ∉ (compositionmobs s).1 ∧ m ∉ (mastermobs s).1 ∧ (s.mobs m).mobType = .ok "SourceMob".toList) := by
  obtain ⟨_, h1, h2, _⟩ := C31_listings h
  obtain ⟨_, hx, ht⟩ := h _ hm
  injection hx with hx; subst hx
  have hi : m ∈ itemMobs s.items := List.mem_filterMap.2 ⟨_, hm, rfl⟩
  rw [h1, h2, mobType_iff.2.2]
  simp only [List.mem_filter, hi, true_and, decide_eq_true_eq]
  simp only [List.mem_cons, List.not_mem_nil, or_false] at ht
  rcases ht with ht | ht | ht <;> simp [ht]

/-- C31: at an item without mob, or with a mob of an unknown type, a listing raises, after producing
what the items before it give. -/
theorem C31_raises {s : St} {before after : List (Option Nat)} {x : Option Nat} (hs : s.items = before ++ x :: after)
    (h : Typed { s with items := before }) (hx : ∀ m, x = some m → (s.mobs m).mob_type_id ∉ [1, 2, 3]) :
    (listMobs s).length = s.items.length ∧
    compositionmobs s = ((compositionmobs { s with items := before }).1, some (if x = none then .attribute else .value)) ∧
    mastermobs s = ((mastermobs { s with items := before }).1, some (if x = none then .attribute else .value)) ∧
    toplevel s = ((toplevel { s with items := before }).1, some (if x = none then .attribute else .value)) := by
  have hxe : mobType s.mobs x = .error (if x = none then .attribute else .value) := by
    cases x with
    | none => rfl
    | some m =>
      have := hx m rfl
      simp only [List.mem_cons, List.not_mem_nil, or_false, not_or] at this
      simp [mobType, Composition.mobType, this]
  have key : ∀ (p : Text → Nat → Bool) (items : List (Option Nat)),
      (∀ y ∈ items, ∃ m, y = some m ∧ (s.mobs m).mob_type_id ∈ [1, 2, 3]) →
      listing s.mobs p (items ++ x :: after) =
        ((listing s.mobs p items).1, some (if x = none then .attribute else .value)) := by
    intro p items
    induction items with
    | nil => intro _; simp only [List.nil_append, listing, hxe]
    | cons y items ih =>
      intro h
      obtain ⟨m, rfl, hm⟩ := h y List.mem_cons_self
      have ih := ih fun x hx => h x (List.mem_cons_of_mem _ hx)
      rcases ht : mobType s.mobs (some m) with e | ⟨t, n⟩
      · exfalso
        simp only [List.mem_cons, List.not_mem_nil, or_false] at hm
        rcases hm with hm | hm | hm <;> simp [mobType, Composition.mobType, hm] at ht
      · simp only [List.cons_append, listing, ht, ih]
  refine ⟨rfl, ?_, ?_, ?_⟩
  · unfold compositionmobs listMobs; rw [hs]; exact key _ _ h
  · unfold mastermobs listMobs; rw [hs]; exact key _ _ h
  · unfold toplevel listMobs; rw [hs]; exact key _ _ h

/-! ### Examples -/

/-- Mob number `n` has an id made of the remainder of `n` by 4, and the type `n % 3 + 1`. -/
def exMobs (n : Nat) : Composition where
  left_bob := 0
  right_bob := 0
  media_kind_id := 0
  edit_rate := .fin 25
  name := none
  effect_id := none
  attributes := 0
  session_attrs := 0
  precomputed := 0
  param_list := none
  mc_mode := 0
  length := 0
  num_scalars := 0
  tracks := []
  last_modified := 0
  mob_type_id := (n % 3 + 1 : Nat)
  usage_code := (n % 2 : Nat)
  descriptor := 0
  creation_time := none
  mob_id := some ⟨List.replicate 32 (UInt8.ofNat (n % 4)), rfl⟩

/-- The id of mob 2, also of 6 and 10. -/
def exId2 : MobID := ⟨List.replicate 32 2, rfl⟩

theorem exMobs_complete {items : List (Option Nat)} (h : none ∉ items) : Complete exMobs items := by
  intro x hx
  cases x with
  | none => exact absurd hx h
  | some m => exact ⟨m, _, rfl, rfl⟩

/-- Mob 2 is found first, then mob 6 after it is added, also when one is added twice. -/
example : (find ⟨[some 1, some 2, some 3], [], exMobs⟩ exId2).1 = .ok (some 2) ∧
    (find (run ⟨[some 1, some 2, some 3], [], exMobs⟩ [.find exId2, .add (some 6), .add (some 5), .add (some 6)])
      exId2).1 = .ok (some 6) ∧
    (run ⟨[some 1, some 2, some 3], [], exMobs⟩ [.find exId2, .add (some 6), .add (some 5), .add (some 6)]).items =
      [some 1, some 2, some 3, some 6, some 5, some 6] := by
  obtain ⟨h1, r, h2, h3⟩ := C30_history (mobs := exMobs) (items := [some 1, some 2, some 3])
    [.find exId2, .add (some 6), .add (some 5), .add (some 6)] (exMobs_complete (by simp [added])) exId2
  obtain ⟨_, r', h2', h3'⟩ := C30_history (mobs := exMobs) (items := [some 1, some 2, some 3]) []
    (exMobs_complete (by simp [added])) exId2
  have hr : r = some 6 := h3.unique ⟨by decide, [some 1, some 2, some 3, some 6, some 5], [], rfl, by simp⟩
  have hr' : r' = some 2 := h3'.unique ⟨by decide, [some 1], [some 3], rfl, by
    intro n hn; simp at hn; subst hn; decide⟩
  subst hr hr'
  exact ⟨h2', h2, h1⟩

/-- What is found is in the bin and has the id. -/
example : (exMobs 6).mob_id = some exId2 ∧ some 6 ∈ [some 2, some 6, some 5] :=
  (C30_found (mobs := exMobs) (items := [some 2, some 6, some 5]) (i := exId2) (r := some 6)
    ⟨by decide, [some 2], [some 5], rfl, by intro n hn; simp at hn; subst hn; decide⟩).1 6 rfl

/-- Mob 2 is still found after it has been deleted from the list. -/
example : (find { (find ⟨[some 1, some 2, some 3], [], exMobs⟩ exId2).2 with items := [some 1, some 3] } exId2).1 =
    .ok (some 2) := by
  have h := C30_filled (mobs := exMobs) (items := [some 1, some 2, some 3]) (exMobs_complete (by simp)) (by simp) exId2
  exact (C30_stale h [some 1, some 3] exMobs exId2).trans rfl

/-- With an empty item before it, mob 2 is not found, first with an error and then without. -/
example : (find ⟨[some 1, none, some 2], [], exMobs⟩ exId2).1 = .error .attribute ∧
    (find (find ⟨[some 1, none, some 2], [], exMobs⟩ exId2).2 exId2).1 = .ok none := by
  obtain ⟨h1, h2, _⟩ := C30_null (mobs := exMobs) (before := [some 1]) (after := [some 2])
    (exMobs_complete (by simp)) exId2 exId2
  obtain ⟨r, h3, h4⟩ := h2 (by simp)
  have : r = none := h4.unique (by intro n hn; simp at hn; subst hn; decide)
  subst this
  exact ⟨h1, h3⟩

/-- The listings of six mobs; numbers 0, 3 and 6 are composition mobs, of which 3 has another usage. -/
example : compositionmobs ⟨[some 0, some 1, some 2, some 3, some 4, some 6], [], exMobs⟩ = ([0, 3, 6], none) ∧
    mastermobs ⟨[some 0, some 1, some 2, some 3, some 4, some 6], [], exMobs⟩ = ([1, 4], none) ∧
    toplevel ⟨[some 0, some 1, some 2, some 3, some 4, some 6], [], exMobs⟩ = ([0, 6], none) := by
  have h : Typed ⟨[some 0, some 1, some 2, some 3, some 4, some 6], [], exMobs⟩ := by
    intro x hx
    simp at hx
    rcases hx with rfl | rfl | rfl | rfl | rfl | rfl <;> exact ⟨_, rfl, by decide⟩
  obtain ⟨_, h1, h2, h3⟩ := C31_listings h
  exact ⟨h1, h2, h3⟩

/-- A listing that stops at an empty item. -/
example : compositionmobs ⟨[some 0, some 1, none, some 3], [], exMobs⟩ = ([0], some .attribute) :=
  (C31_raises (s := ⟨[some 0, some 1, none, some 3], [], exMobs⟩) (before := [some 0, some 1]) (x := none)
    (after := [some 3]) rfl (by
      intro x hx
      simp at hx
      rcases hx with rfl | rfl <;> exact ⟨_, rfl, by decide⟩) (by simp)).2.1

/-- C31_partition: mob 4 is a master mob. -/
example : 4 ∉ (compositionmobs ⟨[some 3, some 4, some 5], [], exMobs⟩).1 ∧
    4 ∈ (mastermobs ⟨[some 3, some 4, some 5], [], exMobs⟩).1 := by
  have ht : Typed ⟨[some 3, some 4, some 5], [], exMobs⟩ := by
    intro x hx
    simp only [List.mem_cons, List.not_mem_nil, or_false] at hx
    rcases hx with rfl | rfl | rfl <;> exact ⟨_, rfl, by decide⟩
  rcases C31_partition ht (m := 4) (by simp [listMobs]) with h | h | h
  · exact absurd h.1 (by decide +kernel)
  · exact h
  · have h1 : (exMobs 4).mobType = .ok "MasterMob".toList := rfl
    have := h1.symm.trans h.2.2
    exact absurd (Except.ok.inj this) (by decide)

end Avb.BinFind

import Verif.Model.SharedIds
import Verif.Props.BinFind

/-!
C75: mob ids are objects that can be changed in place and that several mobs and clips can hold.
-/
namespace Avb.SharedIds

open BinFind (Answer Complete)

variable {H : MobID → Int}

/-! ### Who sees a change -/

/-- The action gives `m` another id object. -/
def Sets (m : Nat) : Op → Prop
  | .new x _ => x = m
  | .share x _ => x = m
  | _ => False

/-- The action gives the id object of `m` to another. -/
def Lends (m : Nat) : Op → Prop
  | .share _ n => n = m
  | _ => False

/-- Every id object is an earlier one than the next. -/
def Good (s : St) : Prop := ∀ m c, s.ids m = some c → c < s.next

theorem find_ids (s : St) (i : MobID) : (find H s i).2.ids = s.ids ∧ (find H s i).2.cells = s.cells ∧
    (find H s i).2.next = s.next := by
  unfold find
  split
  · split <;> exact ⟨rfl, rfl, rfl⟩
  · exact ⟨rfl, rfl, rfl⟩

theorem add_ids (s : St) (m : Option Nat) : (addMob H s m).2.ids = s.ids ∧
    (addMob H s m).2.cells = s.cells ∧ (addMob H s m).2.next = s.next := by
  unfold addMob
  split
  · exact ⟨rfl, rfl, rfl⟩
  · split <;> exact ⟨rfl, rfl, rfl⟩

theorem step_ids {s : St} {op : Op} {m : Nat} (h : ¬ Sets m op) : (step H s op).ids m = s.ids m := by
  cases op with
  | find i => exact congrFun (find_ids s i).1 m
  | add x => exact congrFun (add_ids s x).1 m
  | new x i => exact if_neg fun e => h e.symm
  | share x n =>
    simp only [step, share]
    split
    · rfl
    · exact if_neg fun e => h e.symm
  | change x i =>
    simp only [step, change]
    split <;> rfl

theorem run_ids {ops : List Op} {s : St} {m : Nat} (h : ∀ op ∈ ops, ¬ Sets m op) :
    (run H s ops).ids m = s.ids m := by
  induction ops generalizing s with
  | nil => rfl
  | cons op ops ih =>
    exact (ih fun o ho => h o (List.mem_cons_of_mem _ ho)).trans (step_ids (h op List.mem_cons_self))

theorem step_good {s : St} (hs : Good s) (op : Op) : Good (step H s op) := by
  intro m c hc
  cases op with
  | find i =>
    simp only [step, (find_ids s i).1, (find_ids s i).2.2] at hc ⊢
    exact hs m c hc
  | add x =>
    simp only [step, (add_ids s x).1, (add_ids s x).2.2] at hc ⊢
    exact hs m c hc
  | new x i =>
    simp only [step, assignNew] at hc ⊢
    split at hc
    · cases hc; omega
    · have := hs m c hc; omega
  | share x n =>
    simp only [step, share] at hc ⊢
    split at hc
    · rename_i hn; exact hs m c hc
    · rename_i c' hn
      dsimp only at hc ⊢
      split at hc
      · cases hc; exact hs n _ hn
      · exact hs m c hc
  | change x i =>
    simp only [step, change] at hc ⊢
    split at hc <;> exact hs m c hc

theorem run_good {ops : List Op} {s : St} (hs : Good s) : Good (run H s ops) := by
  induction ops generalizing s with
  | nil => exact hs
  | cons op ops ih => exact ih (step_good hs op)

/-- C75: an id changed in place is changed for all that hold the object, and for no other. -/
theorem C75_change {s : St} {m c : Nat} (hm : s.ids m = some c) (i : MobID) (n : Nat) :
    idOf (change s m i) n = if s.ids n = some c then some i else idOf s n := by
  simp only [idOf, change, hm]
  split
  · rename_i h; simp [h]
  · rename_i h
    cases hn : s.ids n with
    | none => rfl
    | some d =>
      have : d ≠ c := fun e => h (by rw [hn, e])
      simp [this]

/-- C75: after `m.mob_id = n.mob_id`, or when `m` is a copy of `n`, both have the same id whatever is
changed in place in either, until one of them is given another id. -/
theorem C75_shared {s : St} {m n : Nat} {i : MobID} (hn : idOf s n = some i) {ops : List Op}
    (h : ∀ op ∈ ops, ¬ Sets m op ∧ ¬ Sets n op) :
    idOf (run H (share s m n) ops) m = idOf (run H (share s m n) ops) n ∧
    ∀ j, idOf (change (run H (share s m n) ops) m j) n = some j := by
  obtain ⟨c, hc, _⟩ := Option.map_eq_some_iff.1 hn
  have h1 : (share s m n).ids m = some c := by simp [share, hc]
  have h2 : (share s m n).ids n = some c := by
    simp only [share, hc]
    split
    · rfl
    · rfl
  have e1 := (run_ids (H := H) (s := share s m n) fun op ho => (h op ho).1).trans h1
  have e2 := (run_ids (H := H) (s := share s m n) fun op ho => (h op ho).2).trans h2
  refine ⟨by simp only [idOf, e1, e2], fun j => ?_⟩
  rw [C75_change e1, if_pos e2]

/-- C75: an id that was made for `m` alone and not passed on since can be changed in place without effect
on the ids of all others. -/
theorem C75_own {s : St} (hs : Good s) {m : Nat} {i : MobID} {ops : List Op}
    (h : ∀ op ∈ ops, ¬ Sets m op ∧ ¬ Lends m op) (j : MobID) :
    idOf (change (run H (assignNew s m i) ops) m j) m = some j ∧
    ∀ n, n ≠ m → idOf (change (run H (assignNew s m i) ops) m j) n = idOf (run H (assignNew s m i) ops) n := by
  have h1 : (assignNew s m i).ids m = some s.next := by simp [assignNew]
  have key : ∀ (ops : List Op) (t : St), (∀ op ∈ ops, ¬ Sets m op ∧ ¬ Lends m op) → t.ids m = some s.next →
      Good t → (∀ n, n ≠ m → t.ids n ≠ some s.next) →
      ∀ n, n ≠ m → (run H t ops).ids n ≠ some s.next := by
    intro ops
    induction ops with
    | nil => exact fun t _ _ _ ht => ht
    | cons op ops ih =>
      intro t h h1 hg ht
      refine ih (step H t op) (fun o ho => h o (List.mem_cons_of_mem _ ho))
        ((step_ids (h op List.mem_cons_self).1).trans h1) (step_good hg op) fun n hn => ?_
      have hop := h op List.mem_cons_self
      have hlt := hg m _ h1
      cases op with
      | find i => simp only [step, (find_ids t i).1]; exact ht n hn
      | add x => simp only [step, (add_ids t x).1]; exact ht n hn
      | new x k =>
        simp only [step, assignNew]
        split
        · intro e
          have := Option.some.inj e
          omega
        · exact ht n hn
      | share x y =>
        simp only [step, share]
        split
        · exact ht n hn
        · rename_i c hc
          dsimp only
          split
          · intro e
            rw [Option.some.inj e] at hc
            exact ht y hop.2 hc
          · exact ht n hn
      | change x k =>
        simp only [step, change]
        split <;> exact ht n hn
  have h2 := key ops (assignNew s m i) h h1 (step_good (H := H) hs (.new m i)) fun n hn => by
    simp only [assignNew, if_neg hn]
    intro e
    exact absurd (hs n _ e) (Nat.lt_irrefl _)
  have e1 := (run_ids (H := H) (s := assignNew s m i) fun op ho => (h op ho).1).trans h1
  refine ⟨by rw [C75_change e1, if_pos e1], fun n hn => ?_⟩
  rw [C75_change e1, if_neg (h2 n hn)]

/-! ### Looking up -/

variable (mobs : Nat → Composition)

/-- The state as `Model/BinFind.lean` sees it: mobs with their present ids, the other properties being
those of `mobs`. -/
def view (s : St) : BinFind.St :=
  ⟨s.items, s.dict.map fun e => (s.cells e.key, e.val), fun m => { mobs m with mob_id := idOf s m }⟩

/-- Every key has the hash it was entered with. -/
def Fresh (H : MobID → Int) (s : St) (d : List Entry) : Prop := ∀ e ∈ d, e.hash = H (s.cells e.key)

/-- The entries with the present ids. -/
def plain (s : St) (d : List Entry) : List (MobID × Nat) := d.map fun e => (s.cells e.key, e.val)

theorem get_view {s : St} {i : MobID} {d : List Entry} (hf : Fresh H s d) :
    get H s.cells i d = BinFind.get i (plain s d) := by
  induction d with
  | nil => rfl
  | cons e d ih =>
    have ih := ih fun x hx => hf x (List.mem_cons_of_mem _ hx)
    have he := hf e List.mem_cons_self
    simp only [get, plain, List.map_cons, BinFind.get]
    by_cases h : s.cells e.key = i
    · rw [if_pos ⟨by rw [he, h], h⟩, if_pos h]
    · rw [if_neg fun c => h c.2, if_neg h, ih, plain]

theorem put_view {s : St} {k m : Nat} {d : List Entry} (hf : Fresh H s d) :
    Fresh H s (put H s.cells k m d) ∧
      plain s (put H s.cells k m d) = BinFind.put (s.cells k) m (plain s d) := by
  induction d with
  | nil =>
    refine ⟨?_, rfl⟩
    intro e he
    simp only [put, List.mem_singleton] at he
    subst he
    rfl
  | cons e d ih =>
    obtain ⟨i1, i2⟩ := ih fun x hx => hf x (List.mem_cons_of_mem _ hx)
    have he := hf e List.mem_cons_self
    simp only [put, plain, List.map_cons, BinFind.put]
    by_cases h : s.cells e.key = s.cells k
    · rw [if_pos ⟨by rw [he, h], h⟩, if_pos h]
      refine ⟨?_, by simp [h]⟩
      intro x hx
      rcases List.mem_cons.1 hx with rfl | hx
      · exact he
      · exact hf x (List.mem_cons_of_mem _ hx)
    · rw [if_neg fun c => h c.2, if_neg h]
      refine ⟨?_, by simpa [plain] using i2⟩
      intro x hx
      rcases List.mem_cons.1 hx with rfl | hx
      · exact he
      · exact i1 x hx

theorem idObject_view (s : St) (m : Option Nat) : BinFind.mobId (view mobs s).mobs m =
    (idObject s.ids m).map fun p => (s.cells p.1, p.2) := by
  cases m with
  | none => rfl
  | some m =>
    simp only [BinFind.mobId, idObject, view, idOf]
    cases s.ids m <;> rfl

theorem fill_view (s : St) : ∀ (items : List (Option Nat)) (d : List Entry), Fresh H s d →
    Fresh H s (fill H s.cells s.ids items d).1 ∧
    BinFind.fill (view mobs s).mobs items (plain s d) =
      (plain s (fill H s.cells s.ids items d).1, (fill H s.cells s.ids items d).2)
  | [], d, hf => ⟨hf, rfl⟩
  | m :: ms, d, hf => by
    simp only [fill, BinFind.fill, idObject_view]
    cases idObject s.ids m with
    | error e => exact ⟨hf, rfl⟩
    | ok p =>
      obtain ⟨h1, h2⟩ := put_view (k := p.1) (m := p.2) hf
      have h3 := fill_view s ms (put H s.cells p.1 p.2 d) h1
      rw [h2] at h3
      exact h3

theorem find_view {s : St} (hf : Fresh H s s.dict) (i : MobID) :
    (find H s i).1 = (BinFind.find (view mobs s) i).1 ∧
      view mobs (find H s i).2 = (BinFind.find (view mobs s) i).2 ∧
      Fresh H (find H s i).2 (find H s i).2.dict := by
  unfold find BinFind.find
  have hd : (view mobs s).dict = [] ↔ s.dict = [] := by simp [view]
  by_cases h : s.dict = []
  · rw [if_pos h, if_pos (hd.2 h)]
    obtain ⟨h1, h2⟩ := fill_view (H := H) mobs s s.items [] (by intro e he; cases he)
    have h2' : BinFind.fill (view mobs s).mobs (view mobs s).items [] = _ := h2
    rw [h2']
    rcases hfl : fill H s.cells s.ids s.items [] with ⟨d, e⟩
    rw [hfl] at h1 h2
    cases e with
    | none => exact ⟨congrArg _ (get_view h1), rfl, h1⟩
    | some e => exact ⟨rfl, rfl, h1⟩
  · rw [if_neg h, if_neg fun e => h (hd.1 e)]
    exact ⟨congrArg _ (get_view hf), rfl, hf⟩

theorem add_view {s : St} (hf : Fresh H s s.dict) (m : Option Nat) :
    (addMob H s m).1 = (BinFind.addMob (view mobs s) m).1 ∧
      view mobs (addMob H s m).2 = (BinFind.addMob (view mobs s) m).2 ∧
      Fresh H (addMob H s m).2 (addMob H s m).2.dict := by
  unfold addMob BinFind.addMob
  have hd : (view mobs s).dict = [] ↔ s.dict = [] := by simp [view]
  by_cases h : s.dict = []
  · rw [if_pos h, if_pos (hd.2 h)]
    exact ⟨rfl, rfl, hf⟩
  · rw [if_neg h, if_neg fun e => h (hd.1 e), idObject_view]
    cases idObject s.ids m with
    | error e => exact ⟨rfl, rfl, hf⟩
    | ok p =>
      obtain ⟨h1, h2⟩ := put_view (k := p.1) (m := p.2) hf
      refine ⟨rfl, ?_, h1⟩
      change BinFind.St.mk _ (plain s (put H s.cells p.1 p.2 s.dict)) _ = _
      rw [h2]
      rfl

/-- The calls of C30 as actions here. -/
def call : BinFind.Op → Op
  | .find i => .find i
  | .add m => .add m

/-- C75: while no id is changed in place or assigned, lookups and additions in a bin whose dictionary is
empty do the same as in C30, whatever id objects the mobs share and whatever the hashes are. -/
theorem C75_same {s : St} (hd : s.dict = []) (ops : List BinFind.Op) (i : MobID) :
    (find H (run H s (ops.map call)) i).1 = (BinFind.find (BinFind.run (view mobs s) ops) i).1 ∧
    (run H s (ops.map call)).items = (BinFind.run (view mobs s) ops).items := by
  have key : ∀ (ops : List BinFind.Op) (s : St), Fresh H s s.dict →
      view mobs (run H s (ops.map call)) = BinFind.run (view mobs s) ops ∧
      Fresh H (run H s (ops.map call)) (run H s (ops.map call)).dict := by
    intro ops
    induction ops with
    | nil => exact fun s hf => ⟨rfl, hf⟩
    | cons op ops ih =>
      intro s hf
      cases op with
      | find j =>
        obtain ⟨_, h2, h3⟩ := find_view mobs hf j
        obtain ⟨i1, i2⟩ := ih _ h3
        refine ⟨i1.trans ?_, i2⟩
        rw [h2]
        rfl
      | add m =>
        obtain ⟨_, h2, h3⟩ := add_view mobs hf m
        obtain ⟨i1, i2⟩ := ih _ h3
        refine ⟨i1.trans ?_, i2⟩
        rw [h2]
        rfl
  obtain ⟨h1, h2⟩ := key ops s (by rw [hd]; intro e he; cases he)
  rw [(find_view mobs h2 i).1, h1]
  exact ⟨rfl, by rw [← h1]; rfl⟩

/-- The action is a lookup. -/
def Looks : Op → Prop
  | .find _ => True
  | _ => False

/-- C75: all changes made before the first lookup count, in place or not: the lookup gives the last mob
that has the id then. -/
theorem C75_before {s : St} (hd : s.dict = []) {ops : List Op} (h : ∀ op ∈ ops, ¬ Looks op)
    (hc : Complete (view mobs (run H s ops)).mobs (run H s ops).items) (i : MobID) :
    ∃ r, (find H (run H s ops) i).1 = .ok r ∧ Answer (view mobs (run H s ops)).mobs (run H s ops).items i r := by
  have key : ∀ (ops : List Op) (s : St), s.dict = [] → (∀ op ∈ ops, ¬ Looks op) → (run H s ops).dict = [] := by
    intro ops
    induction ops with
    | nil => exact fun s hd _ => hd
    | cons op ops ih =>
      intro s hd h
      refine ih _ ?_ fun o ho => h o (List.mem_cons_of_mem _ ho)
      cases op with
      | find i => exact absurd trivial (h _ List.mem_cons_self)
      | add m => simp only [step, addMob, if_pos hd]; exact hd
      | new m i => exact hd
      | share m n => simp only [step, share]; split <;> exact hd
      | change m i => simp only [step, change]; split <;> exact hd
  have hd' := key ops s hd h
  have hf : Fresh H (run H s ops) (run H s ops).dict := by rw [hd']; intro e he; cases he
  rw [(find_view mobs hf i).1]
  obtain ⟨r, s', h1, h2, _⟩ := BinFind.find_tidy (s := view mobs (run H s ops))
    ⟨hc, .inl (by simp [view, hd'])⟩ i
  exact ⟨r, by rw [h1], h2⟩

/-! ### Changes after the first lookup -/

/-- The id objects of the mobs of the items, in order. -/
def objects (ids : Nat → Option Nat) (items : List (Option Nat)) : List Nat :=
  items.filterMap fun m => m.bind ids

/-- What the dictionary is after a first lookup among mobs with the id objects `l`. -/
structure Keys (H : MobID → Int) (cells : Nat → MobID) (l : List Nat) (d : List Entry) : Prop where
  fresh : ∀ e ∈ d, e.hash = H (cells e.key)
  first : ∀ e ∈ d, l.find? (fun c => cells c = cells e.key) = some e.key

theorem put_keys {cells : Nat → MobID} {l : List Nat} {k m : Nat} {d d0 : List Entry}
    (h0 : ∀ c ∈ l, ∃ e ∈ d0 ++ d, cells e.key = cells c) (hn : ∀ e ∈ d0, cells e.key ≠ cells k)
    (h : Keys H cells l d) : Keys H cells (l ++ [k]) (put H cells k m d) := by
  have up : ∀ e : Entry, l.find? (fun c => cells c = cells e.key) = some e.key →
      (l ++ [k]).find? (fun c => cells c = cells e.key) = some e.key := by
    intro e he
    rw [List.find?_append, he]
    rfl
  induction d generalizing d0 with
  | nil =>
    have hk : l.find? (fun c => cells c = cells k) = none := by
      rw [List.find?_eq_none]
      intro c hc hcc
      obtain ⟨e, he, h1⟩ := h0 c hc
      simp only [List.append_nil] at he
      exact hn e he (h1.trans (by simpa using hcc))
    constructor
    · intro e he
      simp only [put, List.mem_singleton] at he
      subst he
      rfl
    · intro e he
      simp only [put, List.mem_singleton] at he
      subst he
      simp [List.find?_append, hk]
  | cons x d ih =>
    have hx := h.fresh x List.mem_cons_self
    simp only [put]
    by_cases hh : cells x.key = cells k
    · rw [if_pos ⟨by rw [hx, hh], hh⟩]
      constructor
      · intro e he
        rcases List.mem_cons.1 he with rfl | he
        · exact hx
        · exact h.fresh e (List.mem_cons_of_mem _ he)
      · intro e he
        rcases List.mem_cons.1 he with rfl | he
        · exact up x (h.first x List.mem_cons_self)
        · exact up e (h.first e (List.mem_cons_of_mem _ he))
    · rw [if_neg fun c => hh c.2]
      have ih := ih (d0 := d0 ++ [x]) (by simpa using h0) (by
          intro e he
          rcases List.mem_append.1 he with he | he
          · exact hn e he
          · simp only [List.mem_singleton] at he; subst he; exact hh)
        ⟨fun e he => h.fresh e (List.mem_cons_of_mem _ he), fun e he => h.first e (List.mem_cons_of_mem _ he)⟩
      constructor
      · intro e he
        rcases List.mem_cons.1 he with rfl | he
        · exact hx
        · exact ih.fresh e he
      · intro e he
        rcases List.mem_cons.1 he with rfl | he
        · exact up _ (h.first _ List.mem_cons_self)
        · exact ih.first e he

theorem put_has {cells : Nat → MobID} {k m : Nat} {d : List Entry} :
    (∃ e ∈ put H cells k m d, cells e.key = cells k) ∧
    ∀ e ∈ d, ∃ e' ∈ put H cells k m d, cells e'.key = cells e.key := by
  induction d with
  | nil => exact ⟨⟨_, List.mem_singleton_self _, rfl⟩, by simp⟩
  | cons x d ih =>
    simp only [put]
    split
    · rename_i hx
      refine ⟨⟨_, List.mem_cons_self, hx.2⟩, fun e he => ?_⟩
      rcases List.mem_cons.1 he with rfl | he
      · exact ⟨_, List.mem_cons_self, rfl⟩
      · exact ⟨e, List.mem_cons_of_mem _ he, rfl⟩
    · obtain ⟨⟨e, he, h1⟩, h2⟩ := ih
      refine ⟨⟨e, List.mem_cons_of_mem _ he, h1⟩, fun e he => ?_⟩
      rcases List.mem_cons.1 he with rfl | he
      · exact ⟨_, List.mem_cons_self, rfl⟩
      · obtain ⟨e', he', h3⟩ := h2 e he
        exact ⟨e', List.mem_cons_of_mem _ he', h3⟩

theorem fill_keys {cells : Nat → MobID} {ids : Nat → Option Nat} :
    ∀ {items : List (Option Nat)} {l : List Nat} {d : List Entry}, (∀ x ∈ items, ∃ m c, x = some m ∧ ids m = some c) →
      (∀ c ∈ l, ∃ e ∈ d, cells e.key = cells c) → Keys H cells l d →
      ∃ d', fill H cells ids items d = (d', none) ∧ Keys H cells (l ++ objects ids items) d' ∧
        (d ≠ [] ∨ items ≠ [] → d' ≠ [])
  | [], l, d, _, _, hk => ⟨d, rfl, by simpa [objects] using hk, by simp⟩
  | x :: xs, l, d, hc, h0, hk => by
    obtain ⟨m, c, rfl, hm⟩ := hc x List.mem_cons_self
    have hk' := put_keys (k := c) (m := m) (d0 := []) (by simpa using h0) (by simp) hk
    obtain ⟨d', h1, h2, h3⟩ := fill_keys (items := xs) (l := l ++ [c]) (d := put H cells c m d)
      (fun y hy => hc y (List.mem_cons_of_mem _ hy)) (by
        intro y hy
        rcases List.mem_append.1 hy with hy | hy
        · obtain ⟨e, he, h1⟩ := h0 y hy
          obtain ⟨e', he', h2⟩ := put_has (H := H) (cells := cells) (k := c) (m := m) |>.2 e he
          exact ⟨e', he', h2.trans h1⟩
        · simp only [List.mem_singleton] at hy
          subst hy
          exact put_has.1) hk'
    refine ⟨d', by simp only [fill, idObject, hm]; exact h1, ?_, fun _ => h3 (.inl ?_)⟩
    · simpa [objects, hm] using h2
    · obtain ⟨e, he, _⟩ := (put_has (H := H) (cells := cells) (k := c) (m := m) (d := d)).1
      exact List.ne_nil_of_mem he

/-- Every item has a mob, and that has an id object. -/
def Full (s : St) : Prop := ∀ x ∈ s.items, ∃ m c, x = some m ∧ s.ids m = some c

theorem find_keys {s : St} (hd : s.dict = []) (hi : s.items ≠ []) (hc : Full s) (k : MobID) :
    ∃ d, d ≠ [] ∧ Keys H s.cells (objects s.ids s.items) d ∧ (find H s k).2 = { s with dict := d } := by
  obtain ⟨d, h1, h2, h3⟩ := fill_keys (H := H) (cells := s.cells) (ids := s.ids) (items := s.items) (l := []) (d := [])
    hc (by simp) ⟨by simp, by simp⟩
  refine ⟨d, h3 (.inr hi), by simpa using h2, ?_⟩
  simp only [find, if_pos hd, h1]

theorem find_dict {s : St} (hd : s.dict ≠ []) (k : MobID) : (find H s k).1 = .ok (get H s.cells k s.dict) := by
  simp only [find, if_neg hd]

/-- The first item whose mob has the id `i` has it in the object `c`. -/
def FirstIs (s : St) (i : MobID) (c : Nat) : Prop :=
  ∃ before m after, s.items = before ++ some m :: after ∧ s.ids m = some c ∧ s.cells c = i ∧
    ∀ n, some n ∈ before → idOf s n ≠ some i

theorem FirstIs.find {s : St} {i : MobID} {c : Nat} (h : FirstIs s i c) :
    (objects s.ids s.items).find? (fun x => s.cells x = i) = some c := by
  obtain ⟨b, m, a, h1, h2, h3, h4⟩ := h
  have hb : (objects s.ids b).find? (fun x => s.cells x = i) = none := by
    rw [List.find?_eq_none]
    intro x hx hxi
    simp only [objects, List.mem_filterMap] at hx
    obtain ⟨y, hy, hy2⟩ := hx
    cases y with
    | none => cases hy2
    | some n => exact h4 n hy (by simp only [idOf]; rw [show s.ids n = some x from hy2]; simpa using hxi)
  rw [h1]
  have : objects s.ids (b ++ some m :: a) = objects s.ids b ++ c :: objects s.ids a := by
    simp [objects, List.filterMap_append, h2]
  rw [this, List.find?_append, hb]
  simp [h3]

theorem get_changed {cells cells' : Nat → MobID} {k : MobID} {d : List Entry}
    (h : ∀ e ∈ d, (e.hash = H k ∧ cells e.key = k) ↔ (e.hash = H k ∧ cells' e.key = k)) :
    get H cells k d = get H cells' k d := by
  induction d with
  | nil => rfl
  | cons e d ih =>
    simp only [get, h e List.mem_cons_self, ih fun x hx => h x (List.mem_cons_of_mem _ hx)]

theorem get_none {cells : Nat → MobID} {k : MobID} {d : List Entry} (h : ∀ e ∈ d, cells e.key ≠ k) :
    get H cells k d = none := by
  induction d with
  | nil => rfl
  | cons e d ih =>
    simp only [get]
    rw [if_neg fun c => h e List.mem_cons_self c.2, ih fun x hx => h x (List.mem_cons_of_mem _ hx)]

/-- C75: after a lookup, an id `i` that is changed in place to `j`, in the object of the first item that has
it, makes lookups of `i` give nothing, though another item may still have that id, and leaves all other
lookups as they were, that of `j` included: the mob is found under neither id.  (The hashes of `i` and `j`
must differ.) -/
theorem C75_lost {s : St} (hd : s.dict = []) (hc : Full s) {i j : MobID} {c m : Nat} (hm : s.ids m = some c)
    (hf : FirstIs s i c) (hj : H j ≠ H i) (k0 : MobID) :
    (find H (change (find H s k0).2 m j) i).1 = .ok none ∧
    ∀ k, k ≠ i → (find H (change (find H s k0).2 m j) k).1 = (find H (find H s k0).2 k).1 := by
  have hi : s.items ≠ [] := by
    obtain ⟨b, m, a, h1, _⟩ := hf
    rw [h1]; simp
  obtain ⟨d, h1, h2, h3⟩ := find_keys (H := H) hd hi hc k0
  have hci : s.cells c = i := by obtain ⟨_, _, _, _, _, h, _⟩ := hf; exact h
  have hij : j ≠ i := fun e => hj (by rw [e])
  have hkey : ∀ e ∈ d, s.cells e.key = i → e.key = c := by
    intro e he hei
    have := h2.first e he
    rw [hei, hf.find] at this
    exact (Option.some.inj this).symm
  rw [h3]
  have hch : change { s with dict := d } m j =
      { s with dict := d, cells := fun x => if x = c then j else s.cells x } := by
    simp only [change, hm]
  rw [hch]
  refine ⟨?_, fun k hk => ?_⟩
  · rw [find_dict (by exact h1), get_none]
    intro e he
    dsimp only
    split
    · exact hij
    · rename_i hne
      exact fun hei => hne (hkey e he hei)
  · rw [find_dict (by exact h1), find_dict (by exact h1)]
    refine congrArg _ (get_changed fun e he => ?_)
    dsimp only
    split
    · rename_i hec
      have hh := h2.fresh e he
      rw [hec, hci] at hh
      constructor
      · rintro ⟨a, b⟩
        exact absurd (by rw [b, ← a, hh]) hj
      · rintro ⟨a, b⟩
        rw [hec, hci] at b
        exact absurd b.symm hk
    · exact Iff.rfl

/-- C75: after a lookup, an id `i` that is changed in place in an object that is not that of the first item
with the id leaves all lookups as they were: the mob is still found under `i` if it was. -/
theorem C75_twin {s : St} (hd : s.dict = []) (hc : Full s) {i : MobID} {c c' m : Nat} (hm : s.ids m = some c)
    (hci : s.cells c = i) (hf : FirstIs s i c') (hne : c ≠ c') (j k0 k : MobID) :
    (find H (change (find H s k0).2 m j) k).1 = (find H (find H s k0).2 k).1 := by
  have hi : s.items ≠ [] := by
    obtain ⟨b, m, a, h1, _⟩ := hf
    rw [h1]; simp
  obtain ⟨d, h1, h2, h3⟩ := find_keys (H := H) hd hi hc k0
  rw [h3]
  have hch : change { s with dict := d } m j =
      { s with dict := d, cells := fun x => if x = c then j else s.cells x } := by
    simp only [change, hm]
  rw [hch, find_dict (by exact h1), find_dict (by exact h1)]
  refine congrArg _ (get_changed fun e he => ?_)
  dsimp only
  split
  · rename_i hec
    have := h2.first e he
    rw [hec, hci, hf.find] at this
    exact absurd (Option.some.inj this).symm hne
  · exact Iff.rfl

theorem get_put_same {cells : Nat → MobID} {k m : Nat} {d : List Entry} :
    get H cells (cells k) (put H cells k m d) = some m := by
  induction d with
  | nil => simp [put, get]
  | cons e d ih =>
    simp only [put]
    split
    · rename_i h; simp [get, h]
    · rename_i h; simp only [get, if_neg h, ih]

/-- C75: a mob that is given a new id object and added is found under its new id, whatever happened to the
ids before. -/
theorem C75_assigned {s : St} (hd : s.dict ≠ []) (m : Nat) (j : MobID) :
    (addMob H (assignNew s m j) (some m)).1 = .ok () ∧
    (find H (addMob H (assignNew s m j) (some m)).2 j).1 = .ok (some m) := by
  have h1 : (assignNew s m j).ids m = some s.next := by simp [assignNew]
  have h2 : (assignNew s m j).cells s.next = j := by simp [assignNew]
  have h3 : (assignNew s m j).dict ≠ [] := hd
  simp only [addMob, if_neg h3, idObject, h1]
  refine ⟨trivial, ?_⟩
  rw [find_dict (by
    obtain ⟨e, he, _⟩ := (put_has (H := H) (cells := (assignNew s m j).cells) (k := s.next) (m := m)
      (d := (assignNew s m j).dict)).1
    exact List.ne_nil_of_mem he)]
  have := get_put_same (H := H) (cells := (assignNew s m j).cells) (k := s.next) (m := m)
    (d := (assignNew s m j).dict)
  rw [h2] at this
  exact congrArg _ this

/-! ### Cases -/

/-- An id of equal bytes. -/
def exId (b : UInt8) : MobID := ⟨List.replicate 32 b, List.length_replicate ..⟩

/-- A hash. -/
def exHash (i : MobID) : Int := (i.1.headD 0).toNat

/-- Mobs 1, 2 and 3; 1 and 2 have objects of their own with the same id; clip 7 shares that of mob 3. -/
def exSt : St :=
  share (assignNew (assignNew (assignNew ⟨fun _ => exId 0, 0, fun _ => none, [some 1, some 2, some 3], []⟩
    1 (exId 5)) 2 (exId 5)) 3 (exId 6)) 7 3

example : Good exSt := by
  have : Good ⟨fun _ => exId 0, 0, fun _ => none, [some 1, some 2, some 3], []⟩ := fun m c h => by cases h
  exact run_good (H := exHash) (ops := [.new 1 (exId 5), .new 2 (exId 5), .new 3 (exId 6), .share 7 3]) this

example : idOf (change exSt 7 (exId 9)) 3 = some (exId 9) ∧ idOf (change exSt 7 (exId 9)) 1 = some (exId 5) := by
  decide +kernel

example : Full exSt ∧ FirstIs exSt (exId 6) 2 ∧ FirstIs exSt (exId 5) 0 ∧ exSt.ids 2 = some 1 ∧
    exHash (exId 9) ≠ exHash (exId 6) := by
  refine ⟨?_, ⟨[some 1, some 2], 3, [], rfl, rfl, rfl, ?_⟩, ⟨[], 1, _, rfl, rfl, rfl, by simp⟩, rfl, by decide⟩
  · intro x hx
    change x ∈ [some 1, some 2, some 3] at hx
    rcases List.mem_cons.1 hx with rfl | hx
    · exact ⟨1, 0, rfl, rfl⟩
    rcases List.mem_cons.1 hx with rfl | hx
    · exact ⟨2, 1, rfl, rfl⟩
    rcases List.mem_cons.1 hx with rfl | hx
    · exact ⟨3, 2, rfl, rfl⟩
    · cases hx
  · intro n hn
    rcases List.mem_cons.1 hn with h | hn
    · cases h; decide +kernel
    rcases List.mem_cons.1 hn with h | hn
    · cases h; decide +kernel
    · cases hn

/-- Mob 3 is changed through the clip and found under neither id; 2 is found under 5, until 1 is changed. -/
example :
    let s := (find exHash exSt (exId 0)).2
    (find exHash s (exId 6)).1 = .ok (some 3) ∧ (find exHash s (exId 5)).1 = .ok (some 2) ∧
    (find exHash (change s 7 (exId 9)) (exId 6)).1 = .ok none ∧
    (find exHash (change s 7 (exId 9)) (exId 9)).1 = .ok none ∧
    (find exHash (change s 2 (exId 9)) (exId 5)).1 = .ok (some 2) ∧
    (find exHash (change s 1 (exId 9)) (exId 5)).1 = .ok none ∧
    (find exHash (change exSt 7 (exId 9)) (exId 9)).1 = .ok (some 3) :=
  ⟨rfl, rfl, rfl, rfl, rfl, rfl, rfl⟩

end Avb.SharedIds

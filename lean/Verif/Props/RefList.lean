import Verif.Model.RefList
import Mathlib.Data.List.InsertIdx

/-!
C21: lists of object references compared with plain Python lists of the objects.
-/
namespace Avb.RefList

/-- The object an item stands for: ids above 0 are looked up, other ids are the null reference. -/
def target (env : Env) : PV → PV
  | .none => .none
  | .obj o => .obj o
  | .int n => if n ≤ 0 then .none else match env n with | .ok o => .obj o | .error _ => .none
  | .ref n => if n ≤ 0 then .none else match env n with | .ok o => .obj o | .error _ => .none

/-- The id of the item, if any, can be looked up. -/
def Resolves (env : Env) : PV → Prop
  | .none => True
  | .obj _ => True
  | .int n => n ≤ 0 ∨ ∃ o, env n = .ok o
  | .ref n => n ≤ 0 ∨ ∃ o, env n = .ok o

/-- The items given to a call. -/
def args {α : Type} : Op α → List α
  | .append x => [x]
  | .extend xs => xs
  | .insert _ x => [x]
  | .setItem _ x => [x]
  | .remove x => [x]
  | .contains x => [x]
  | .setSlice _ _ xs => xs
  | .index x => [x]
  | .count x => [x]
  | .iadd xs => xs
  | _ => []

/-- The same call with other items. -/
def mapOp {α β : Type} (f : α → β) : Op α → Op β
  | .append x => .append (f x)
  | .extend xs => .extend (xs.map f)
  | .insert i x => .insert i (f x)
  | .setItem i x => .setItem i (f x)
  | .delItem i => .delItem i
  | .pop i => .pop i
  | .getItem i => .getItem i
  | .getSlice a b => .getSlice a b
  | .len => .len
  | .iter => .iter
  | .remove x => .remove (f x)
  | .contains x => .contains (f x)
  | .clear => .clear
  | .reverse => .reverse
  | .sort => .sort
  | .setSlice a b xs => .setSlice a b (xs.map f)
  | .delSlice a b => .delSlice a b
  | .index x => .index (f x)
  | .count x => .count (f x)
  | .reversed => .reversed
  | .iadd xs => .iadd (xs.map f)

/-- The calls for which a reference list is to behave like a list of the objects. -/
def Plain {α : Type} : Op α → Prop
  | .append _ | .extend _ | .insert _ _ | .setItem _ _ | .delItem _ | .pop _ | .getItem _ | .len | .iter
  | .setSlice _ _ _ | .delSlice _ _ | .iadd _ => True
  | _ => False

theorem deref_eq {env : Env} {v : PV} (h : Resolves env v) : deref env v = .ok (target env v) := by
  have key : ∀ n, (n ≤ 0 ∨ ∃ o, env n = .ok o) → refValue env n =
      .ok (if n ≤ 0 then .none else match env n with | .ok o => .obj o | .error _ => .none) := by
    intro n h
    unfold refValue
    by_cases e : n ≤ 0
    · simp [e]
    · obtain ⟨o, ho⟩ := h.resolve_left e
      simp only [if_neg e, ho]; rfl
  cases v with
  | none => rfl
  | obj => rfl
  | int n => exact key n h
  | ref n => exact key n h

theorem mapM_deref {env : Env} {l : List PV} (h : ∀ v ∈ l, Resolves env v) :
    l.mapM (deref env) = .ok (l.map (target env)) := by
  induction l with
  | nil => rfl
  | cons v l ih =>
    rw [List.mapM_cons, deref_eq (h v List.mem_cons_self), ih fun v hv => h v (List.mem_cons_of_mem _ hv)]
    rfl

theorem index_lt {n : Nat} {i : Int} {j : Nat} (h : index n i = .ok j) : j < n := by
  unfold index at h
  dsimp only at h
  generalize (if i < 0 then i + (n : Int) else i) = k at h
  split at h
  · rename_i hh
    injection h with h
    omega
  · cases h

/-- One call. -/
theorem step_list {env : Env} {l : List PV} {m : Bool} {op : Op PV} (hp : Plain op)
    (hl : ∀ v ∈ l, Resolves env v) (ha : ∀ v ∈ args op, Resolves env v) :
    (∀ v ∈ (step env ⟨l, m⟩ op).1.items, Resolves env v) ∧
    match (step env ⟨l, m⟩ op).2 with
    | .ok r => list (l.map (target env)) (mapOp (target env) op) =
        .ok ((step env ⟨l, m⟩ op).1.items.map (target env), r)
    | .error e => list (l.map (target env)) (mapOp (target env) op) = .error e ∧
        (step env ⟨l, m⟩ op).1.items = l := by
  cases op with
  | append x =>
    simp only [args, List.mem_singleton, forall_eq] at ha
    simp only [step, list, mapOp, List.map_append, List.map_cons, List.map_nil, List.mem_append,
      List.mem_singleton]
    exact ⟨fun v h => h.elim (hl v) (fun h => h ▸ ha), trivial⟩
  | extend xs =>
    simp only [args] at ha
    simp only [step, list, mapOp, List.map_append, List.mem_append]
    exact ⟨fun v h => h.elim (hl v) (ha v), trivial⟩
  | insert i x =>
    simp only [args, List.mem_singleton, forall_eq] at ha
    simp only [step, list, mapOp, List.length_map, List.map_insertIdx]
    exact ⟨fun v h => (List.eq_or_mem_of_mem_insertIdx h).elim (fun h => h ▸ ha) (hl v), trivial⟩
  | setItem i x =>
    simp only [args, List.mem_singleton, forall_eq] at ha
    simp only [step, list, mapOp, List.length_map]
    rcases hj : index l.length i with e | j
    · exact ⟨hl, rfl, rfl⟩
    · refine ⟨fun v h => (List.mem_or_eq_of_mem_set h).elim (hl v) (fun h => h ▸ ha), ?_⟩
      show Except.ok _ = Except.ok ((l.set j x).map _, _)
      rw [List.map_set]
  | delItem i =>
    simp only [step, list, mapOp, List.length_map]
    rcases hj : index l.length i with e | j
    · exact ⟨hl, rfl, rfl⟩
    · refine ⟨fun v h => hl v (List.mem_of_mem_eraseIdx h), ?_⟩
      show Except.ok _ = Except.ok ((l.eraseIdx j).map _, _)
      rw [List.eraseIdx_map]
  | pop i =>
    simp only [step, list, mapOp, List.length_map]
    rcases hj : index l.length i with e | j
    · exact ⟨hl, rfl, rfl⟩
    · have hlt := index_lt hj
      have hg : l[j]? = some l[j] := List.getElem?_eq_getElem hlt
      have hg' : (l.map (target env))[j]? = some (target env l[j]) := by rw [List.getElem?_map, hg]; rfl
      have hd := deref_eq (hl _ (List.getElem_mem hlt))
      simp only [bind, Except.bind, hg, hg', pure, Except.pure, hd]
      refine ⟨fun v h => hl v (List.mem_of_mem_eraseIdx h), ?_⟩
      rw [List.eraseIdx_map]
  | getItem i =>
    simp only [step, list, mapOp, List.length_map]
    rcases hj : index l.length i with e | j
    · exact ⟨hl, rfl, rfl⟩
    · have hlt := index_lt hj
      have hg : l[j]? = some l[j] := List.getElem?_eq_getElem hlt
      have hg' : (l.map (target env))[j]? = some (target env l[j]) := by rw [List.getElem?_map, hg]; rfl
      have hd := deref_eq (hl _ (List.getElem_mem hlt))
      simp only [bind, Except.bind, hg, hg', pure, Except.pure, hd, Except.map]
      exact ⟨hl, trivial⟩
  | len =>
    simp only [step, list, mapOp, List.length_map]
    exact ⟨hl, trivial⟩
  | iter =>
    simp only [step, list, mapOp, mapM_deref hl, Except.map]
    exact ⟨hl, trivial⟩
  | setSlice a b xs =>
    simp only [args] at ha
    simp only [step, list, mapOp, List.length_map, List.map_append, List.map_take, List.map_drop,
      List.mem_append]
    refine ⟨fun v h => ?_, trivial⟩
    rcases h with (h | h) | h
    · exact hl v (List.mem_of_mem_take h)
    · exact ha v h
    · exact hl v (List.mem_of_mem_drop h)
  | delSlice a b =>
    simp only [step, list, mapOp, List.length_map, List.map_append, List.map_take, List.map_drop,
      List.mem_append]
    exact ⟨fun v h => h.elim (fun h => hl v (List.mem_of_mem_take h)) fun h => hl v (List.mem_of_mem_drop h),
      trivial⟩
  | iadd xs =>
    simp only [args] at ha
    simp only [step, list, mapOp, List.map_append, List.mem_append]
    exact ⟨fun v h => h.elim (hl v) (ha v), trivial⟩
  | _ => exact hp.elim

/-- C21: any sequence of appends, extensions (also by `+=`), inserts, assignments and deletions of items
and slices, pops, indexed reads, lengths and iterations on a list of references gives call by call the same results, the same
exceptions and in the end the same contents as on a plain list of the objects. -/
theorem C21_list {env : Env} (ops : List (Op PV)) {l : List PV} {m : Bool}
    (hp : ∀ op ∈ ops, Plain op) (hl : ∀ v ∈ l, Resolves env v)
    (ha : ∀ op ∈ ops, ∀ v ∈ args op, Resolves env v) :
    listRun (l.map (target env)) (ops.map (mapOp (target env))) =
      ((run env ⟨l, m⟩ ops).1.items.map (target env), (run env ⟨l, m⟩ ops).2) := by
  induction ops generalizing l m with
  | nil => rfl
  | cons op ops ih =>
    obtain ⟨h1, h2⟩ := step_list (m := m) (hp op List.mem_cons_self) hl (ha op List.mem_cons_self)
    have h3 := ih (l := (step env ⟨l, m⟩ op).1.items) (m := (step env ⟨l, m⟩ op).1.marked)
      (fun o ho => hp o (List.mem_cons_of_mem _ ho)) h1 (fun o ho => ha o (List.mem_cons_of_mem _ ho))
    rcases hs : step env ⟨l, m⟩ op with ⟨⟨l1, m1⟩, r⟩
    rw [hs] at h2 h3
    simp only [List.map_cons, listRun, run, hs]
    rcases r with e | r
    · obtain ⟨h4, h5⟩ := h2
      dsimp only at h3 h4 h5
      rw [h4]
      subst h5
      simp only [h3]
    · dsimp only at h2 h3
      rw [h2]
      simp only [h3]

/-- C21: `clear`, `reverse` and `sort` leave the list as it is, though they report an edit. -/
theorem C21_ignored (env : Env) (s : RL) :
    step env s .clear = (⟨s.items, true⟩, .ok .done) ∧
    step env s .reverse = (⟨s.items, true⟩, .ok .done) ∧ step env s .sort = (⟨s.items, true⟩, .ok .done) :=
  ⟨rfl, rfl, rfl⟩

/-- C21: so these calls do what they do on a plain list only of an empty list, of one that is the same backwards, and of
one with at most one item. -/
theorem C21_ignored_same (env : Env) (l : List PV) (m : Bool) :
    (list l .clear = .ok ((step env ⟨l, m⟩ .clear).1.items, .done) ↔ l = []) ∧
    (list l .reverse = .ok ((step env ⟨l, m⟩ .reverse).1.items, .done) ↔ l.reverse = l) ∧
    (list l .sort = .ok ((step env ⟨l, m⟩ .sort).1.items, .done) ↔ l.length ≤ 1) := by
  refine ⟨?_, ?_, ?_⟩
  · simp [list, step, eq_comm]
  · simp [list, step]
  · simp only [list, step]
    split
    · exact ⟨fun _ => by omega, fun _ => rfl⟩
    · exact ⟨nofun, fun _ => by omega⟩

/-- Two objects: `clear` leaves them, `reverse` does not swap them, and `sort`, which fails on a list, does nothing. -/
example (env : Env) : (step env ⟨[.obj 1, .ref 2], false⟩ .clear).1.items = [.obj 1, .ref 2] ∧
    list [PV.obj 1, .ref 2] .clear = .ok ([], .done) ∧ list [PV.obj 1, .ref 2] .sort = .error .type ∧
    (step env ⟨[.obj 1, .ref 2], false⟩ .sort).2 = .ok .done := ⟨rfl, rfl, rfl, rfl⟩

theorem map_self {f : PV → PV} {l : List PV} (h : l.map f = l) : ∀ v ∈ l, f v = v := by
  have : l.map f = l.map id := by rw [List.map_id]; exact h
  exact fun v hv => (List.map_inj_left.1 this) v hv

/-- C21: a slice gives the raw items, so it is a slice of the objects exactly if all of its items are
stored directly. -/
theorem C21_slice {env : Env} {l : List PV} {m : Bool} {a b : Option Int} :
    ∃ raw, step env ⟨l, m⟩ (.getSlice a b) = (⟨l, m⟩, .ok (.vals raw)) ∧ raw.Sublist l ∧
      (list (l.map (target env)) (.getSlice a b) = .ok (l.map (target env), .vals raw) ↔
        ∀ v ∈ raw, target env v = v) := by
  refine ⟨_, rfl, (List.drop_sublist _ _).trans (List.take_sublist _ _), ?_⟩
  simp only [list, List.length_map, ← List.map_take, ← List.map_drop]
  constructor
  · intro h
    injection h with h
    injection h with _ h
    injection h with h
    exact fun v hv => map_self h v hv
  · intro h
    have e := (List.map_congr_left h).trans (List.map_id' _)
    rw [e]

/-- C21: `remove`, `in`, `index` and `count` compare the raw items: an object that the list holds by
reference is not found, though the iteration gives it out. -/
theorem C21_search {env : Env} {l : List PV} {m : Bool} {o : Nat} (hn : .obj o ∉ l) :
    step env ⟨l, m⟩ (.contains (.obj o)) = (⟨l, m⟩, .ok (.bool false)) ∧
    step env ⟨l, m⟩ (.remove (.obj o)) = (⟨l, m⟩, .error .value) ∧
    step env ⟨l, m⟩ (.index (.obj o)) = (⟨l, m⟩, .error .value) ∧
    step env ⟨l, m⟩ (.count (.obj o)) = (⟨l, m⟩, .ok (.num 0)) := by
  refine ⟨?_, ?_, ?_, ?_⟩ <;> simp [step, list, hn, List.count_eq_zero_of_not_mem]

/-- C21: `reversed` gives the raw items, the last first. -/
theorem C21_reversed (env : Env) (l : List PV) (m : Bool) :
    step env ⟨l, m⟩ .reversed = (⟨l, m⟩, .ok (.vals l.reverse)) := rfl

/-- C21: `+=` on a list held in a variable changes it without a report. -/
theorem C21_unreported (env : Env) (l : List PV) (m : Bool) (xs : List PV) :
    step env ⟨l, m⟩ (.iadd xs) = (⟨l ++ xs, m⟩, .ok .done) := rfl

/-- C21: if all items are stored directly, slices, `reversed`, `remove`, `in`, `index` and `count` are
those of the plain list. -/
theorem C21_direct {env : Env} {l : List PV} {m : Bool} (hd : ∀ v ∈ l, target env v = v) (op : Op PV)
    (hop : (∃ a b, op = .getSlice a b) ∨ (∃ x, op = .remove x) ∨ (∃ x, op = .contains x) ∨
      (∃ x, op = .index x) ∨ (∃ x, op = .count x) ∨ op = .reversed) :
    match list (l.map (target env)) op with
    | .ok (l', r) => (step env ⟨l, m⟩ op).1.items = l' ∧ (step env ⟨l, m⟩ op).2 = .ok r
    | .error e => step env ⟨l, m⟩ op = (⟨l, m⟩, .error e) := by
  have e : l.map (target env) = l := by
    rw [List.map_congr_left hd, List.map_id'']; exact fun _ => rfl
  rw [e]
  rcases hop with ⟨a, b, rfl⟩ | ⟨x, rfl⟩ | ⟨x, rfl⟩ | ⟨x, rfl⟩ | ⟨x, rfl⟩ | rfl
  · exact ⟨rfl, rfl⟩
  · by_cases h : x ∈ l
    · simp [list, step, h]
    · simp [list, step, h]
  · exact ⟨rfl, rfl⟩
  · by_cases h : x ∈ l
    · simp [list, step, h]
    · simp [list, step, h]
  · exact ⟨rfl, rfl⟩
  · exact ⟨rfl, rfl⟩

/-- C21: every call that changes the list reports the edit, except `+=` and a `pop` whose item cannot be
looked up: this one removes the item, raises and reports nothing.  Calls that raise otherwise, and calls
that only look, change and report nothing. -/
theorem C21_reported {env : Env} {l : List PV} {m : Bool} (op : Op PV) :
    let s := (step env ⟨l, m⟩ op).1
    (s.items ≠ l → s.marked = true ∨ (∃ i e, op = .pop i ∧ (step env ⟨l, m⟩ op).2 = .error e) ∨
      ∃ xs, op = .iadd xs) ∧
    (s.marked ≠ m → ∃ r, (step env ⟨l, m⟩ op).2 = .ok r) := by
  cases op with
  | pop i =>
    dsimp only [step]
    rcases h : list l (.pop i) with e | ⟨l', r⟩
    · exact ⟨fun h => absurd rfl h, fun h => absurd rfl h⟩
    · cases r with
      | val x =>
        dsimp only
        rcases hd : deref env x with e | v
        · exact ⟨fun _ => .inr (.inl ⟨i, e, rfl, rfl⟩), fun h => absurd rfl h⟩
        · exact ⟨fun _ => .inl rfl, fun _ => ⟨_, rfl⟩⟩
      | _ => exact ⟨fun _ => .inl rfl, fun _ => ⟨_, rfl⟩⟩
  | getItem i =>
    dsimp only [step]
    rcases h : list l (.getItem i) with e | ⟨l', r⟩
    · exact ⟨fun h => absurd rfl h, fun h => absurd rfl h⟩
    · cases r <;> exact ⟨fun h => absurd rfl h, fun h => absurd rfl h⟩
  | getSlice a b => exact ⟨fun h => absurd rfl h, fun h => absurd rfl h⟩
  | len => exact ⟨fun h => absurd rfl h, fun h => absurd rfl h⟩
  | iter => exact ⟨fun h => absurd rfl h, fun h => absurd rfl h⟩
  | contains x => exact ⟨fun h => absurd rfl h, fun h => absurd rfl h⟩
  | clear => exact ⟨fun h => absurd rfl h, fun _ => ⟨_, rfl⟩⟩
  | reverse => exact ⟨fun h => absurd rfl h, fun _ => ⟨_, rfl⟩⟩
  | sort => exact ⟨fun h => absurd rfl h, fun _ => ⟨_, rfl⟩⟩
  | setSlice a b xs => exact ⟨fun _ => .inl rfl, fun _ => ⟨_, rfl⟩⟩
  | delSlice a b => exact ⟨fun _ => .inl rfl, fun _ => ⟨_, rfl⟩⟩
  | index x =>
    dsimp only [step, list]
    split <;> rename_i h <;> split at h <;> cases h <;>
      exact ⟨fun h => absurd rfl h, fun h => absurd rfl h⟩
  | count x => exact ⟨fun h => absurd rfl h, fun h => absurd rfl h⟩
  | reversed => exact ⟨fun h => absurd rfl h, fun h => absurd rfl h⟩
  | iadd xs => exact ⟨fun _ => .inr (.inr ⟨xs, rfl⟩), fun h => absurd rfl h⟩
  | append x => exact ⟨fun _ => .inl rfl, fun _ => ⟨_, rfl⟩⟩
  | extend x => exact ⟨fun _ => .inl rfl, fun _ => ⟨_, rfl⟩⟩
  | insert i x => exact ⟨fun _ => .inl rfl, fun _ => ⟨_, rfl⟩⟩
  | setItem i x =>
    dsimp only [step]
    rcases h : list l (.setItem i x) with e | ⟨l', r⟩
    · exact ⟨fun h => absurd rfl h, fun h => absurd rfl h⟩
    · exact ⟨fun _ => .inl rfl, fun _ => ⟨_, rfl⟩⟩
  | delItem i =>
    dsimp only [step]
    rcases h : list l (.delItem i) with e | ⟨l', r⟩
    · exact ⟨fun h => absurd rfl h, fun h => absurd rfl h⟩
    · exact ⟨fun _ => .inl rfl, fun _ => ⟨_, rfl⟩⟩
  | remove x =>
    dsimp only [step]
    rcases h : list l (.remove x) with e | ⟨l', r⟩
    · exact ⟨fun h => absurd rfl h, fun h => absurd rfl h⟩
    · exact ⟨fun _ => .inl rfl, fun _ => ⟨_, rfl⟩⟩

/-- C21: negative indices count from the end, and an index outside raises. -/
theorem C21_index {env : Env} {l : List PV} {m : Bool} (hl : ∀ v ∈ l, Resolves env v) (i : Int) :
    step env ⟨l, m⟩ (.getItem i) = (⟨l, m⟩,
      match (if 0 ≤ i then l[i.toNat]? else if -i ≤ l.length then l[l.length - (-i).toNat]? else none) with
      | some v => .ok (.val (target env v))
      | none => .error .index) := by
  have key : ∀ j, index l.length i = .ok j → step env ⟨l, m⟩ (.getItem i) = (⟨l, m⟩,
      match l[j]? with
      | some v => .ok (.val (target env v))
      | none => .error .index) := by
    intro j hj
    have hlt := index_lt hj
    have hg : l[j]? = some l[j] := List.getElem?_eq_getElem hlt
    simp only [step, list, hj, bind, Except.bind, hg, pure, Except.pure,
      deref_eq (hl _ (List.getElem_mem hlt)), Except.map]
  have err : index l.length i = .error .index → step env ⟨l, m⟩ (.getItem i) = (⟨l, m⟩, .error .index) := by
    intro h; simp only [step, list, h, bind, Except.bind]
  by_cases h0 : 0 ≤ i
  · rw [if_pos h0]
    by_cases h1 : i < l.length
    · exact key _ (by simp only [index, if_neg (Int.not_lt.2 h0)]; rw [if_pos ⟨h0, h1⟩])
    · rw [err (by simp only [index, if_neg (Int.not_lt.2 h0)]; rw [if_neg (fun h => h1 h.2)]),
        List.getElem?_eq_none (by omega)]
  · rw [if_neg h0]
    by_cases h1 : -i ≤ l.length
    · rw [if_pos h1]
      refine key _ ?_
      simp only [index, if_pos (Int.not_le.1 h0)]
      rw [if_pos (by omega)]
      congr 1
      omega
    · rw [if_neg h1, err]
      simp only [index, if_pos (Int.not_le.1 h0)]
      rw [if_neg (by omega)]

/-- Where a Python position `i` lies in a list of `n` items, for `insert` and the ends of slices: negative ones
count from the end, and those outside are moved to the nearer end. -/
def Place (n : Nat) (i : Int) (k : Nat) : Prop :=
  (i < -n ∧ k = 0) ∨ (-n ≤ i ∧ i < 0 ∧ (k : Int) = n + i) ∨ (0 ≤ i ∧ i ≤ n ∧ (k : Int) = i) ∨ (n < i ∧ k = n)

theorem clamp_place (n : Nat) (i : Int) : Place n i (clamp n i) := by
  unfold Place clamp
  split <;> omega

theorem clamp_le (n : Nat) (i : Int) : clamp n i ≤ n := Nat.min_le_right _ _

theorem insertIdx_split {α : Type} (x : α) : ∀ (l : List α) (k : Nat), k ≤ l.length →
    l.insertIdx k x = l.take k ++ x :: l.drop k
  | l, 0, _ => by simp
  | [], k + 1, h => by simp at h
  | y :: l, k + 1, h => by
    rw [List.insertIdx_succ_cons, insertIdx_split x l k (by simpa using h)]
    rfl

/-- C21: `insert` puts the item at the place that Python gives the position, and moves no other. -/
theorem C21_insert (env : Env) (l : List PV) (m : Bool) (i : Int) (x : PV) :
    ∃ a b, l = a ++ b ∧ Place l.length i a.length ∧
      step env ⟨l, m⟩ (.insert i x) = (⟨a ++ x :: b, true⟩, .ok .done) := by
  have hk := clamp_le l.length i
  refine ⟨l.take (clamp l.length i), l.drop (clamp l.length i), (List.take_append_drop _ _).symm, ?_, ?_⟩
  · rw [List.length_take, Nat.min_eq_left hk]
    exact clamp_place _ _
  · simp only [step, list, insertIdx_split x l _ hk]

/-- C21: a slice has the items from its first to before its second end, and all from the beginning or to the
end if that end is not given. -/
theorem C21_slice_items (env : Env) (l : List PV) (m : Bool) (a b : Option Int) :
    ∃ raw s e, step env ⟨l, m⟩ (.getSlice a b) = (⟨l, m⟩, .ok (.vals raw)) ∧
      (match a with | none => s = 0 | some i => Place l.length i s) ∧
      (match b with | none => e = l.length | some i => Place l.length i e) ∧
      raw.length = e - s ∧ ∀ k, s + k < e → raw[k]? = l[s + k]? := by
  refine ⟨_, (a.map (clamp l.length)).getD 0, (b.map (clamp l.length)).getD l.length, rfl, ?_, ?_, ?_, ?_⟩
  all_goals try dsimp only [ends]
  · cases a with
    | none => rfl
    | some i => exact clamp_place _ _
  · cases b with
    | none => rfl
    | some i => exact clamp_place _ _
  · have : (b.map (clamp l.length)).getD l.length ≤ l.length := by
      cases b with
      | none => exact Nat.le_refl _
      | some i => exact clamp_le _ _
    rw [List.length_drop, List.length_take, Nat.min_eq_left this]
  · intro k hk
    rw [List.getElem?_drop, List.getElem?_take_of_lt hk]

/-- C21: assignment to a slice puts the items in the place of those of the slice (before the item at its
first end, if the second is not after it), and deletion of a slice removes them; the others stay. -/
theorem C21_slice_change (env : Env) (l : List PV) (m : Bool) (a b : Option Int) (xs : List PV) :
    ∃ s e p q r, (match a with | none => s = 0 | some i => Place l.length i s) ∧
      (match b with | none => e = l.length | some i => Place l.length i e) ∧
      l = p ++ q ++ r ∧ p.length = s ∧ q.length = e - s ∧
      step env ⟨l, m⟩ (.setSlice a b xs) = (⟨p ++ xs ++ r, true⟩, .ok .done) ∧
      step env ⟨l, m⟩ (.delSlice a b) = (⟨p ++ r, true⟩, .ok .done) := by
  have hs : (ends l.length a b).1 ≤ l.length := by
    cases a with
    | none => exact Nat.zero_le _
    | some i => exact clamp_le _ _
  have he : (ends l.length a b).2 ≤ l.length := by
    cases b with
    | none => exact Nat.le_refl _
    | some i => exact clamp_le _ _
  refine ⟨(ends l.length a b).1, (ends l.length a b).2, l.take (ends l.length a b).1,
    (l.take (max (ends l.length a b).1 (ends l.length a b).2)).drop (ends l.length a b).1,
    l.drop (max (ends l.length a b).1 (ends l.length a b).2), ?_, ?_, ?_, ?_, ?_, rfl, rfl⟩
  · cases a with
    | none => rfl
    | some i => exact clamp_place _ _
  · cases b with
    | none => rfl
    | some i => exact clamp_place _ _
  · generalize (ends l.length a b).1 = s at *
    generalize (ends l.length a b).2 = e at *
    have h1 : l.take s = (l.take (max s e)).take s := by
      rw [List.take_take, Nat.min_eq_left (Nat.le_max_left _ _)]
    rw [h1, List.take_append_drop, List.take_append_drop]
  · rw [List.length_take, Nat.min_eq_left hs]
  · rw [List.length_drop, List.length_take]
    omega

/-- The item that a Python index `i` means in a list of `n`. -/
def At (n : Nat) (i : Int) (k : Nat) : Prop := k < n ∧ ((0 ≤ i ∧ (k : Int) = i) ∨ (i < 0 ∧ (k : Int) = n + i))

theorem index_at {n : Nat} {i : Int} {k : Nat} (h : At n i k) : index n i = .ok k := by
  obtain ⟨h1, h2⟩ := h
  unfold index
  dsimp only
  rcases h2 with ⟨h2, h3⟩ | ⟨h2, h3⟩
  · have hn : ¬ i < 0 := by omega
    simp only [if_neg hn]
    rw [if_pos (by omega)]
    congr 1
    omega
  · simp only [if_pos h2]
    rw [if_pos (by omega)]
    congr 1
    omega

theorem index_not {n : Nat} {i : Int} (h : ∀ k, ¬ At n i k) : index n i = .error .index := by
  unfold index
  dsimp only
  split
  · rw [if_neg]
    intro hc
    exact h (i + n).toNat ⟨by omega, .inr ⟨by omega, by omega⟩⟩
  · rw [if_neg]
    intro hc
    exact h i.toNat ⟨by omega, .inl ⟨by omega, by omega⟩⟩

/-- C21: assignment and deletion concern the one item that the index means. -/
theorem C21_change {env : Env} {a b : List PV} {v : PV} {m : Bool} {i : Int}
    (h : At (a ++ v :: b).length i a.length) (x : PV) :
    step env ⟨a ++ v :: b, m⟩ (.setItem i x) = (⟨a ++ x :: b, true⟩, .ok .done) ∧
    step env ⟨a ++ v :: b, m⟩ (.delItem i) = (⟨a ++ b, true⟩, .ok .done) ∧
    (Resolves env v → step env ⟨a ++ v :: b, m⟩ (.pop i) = (⟨a ++ b, true⟩, .ok (.val (target env v)))) := by
  have hi := index_at h
  have hg : (a ++ v :: b)[a.length]? = some v := by simp
  have he : (a ++ v :: b).eraseIdx a.length = a ++ b := by
    rw [List.eraseIdx_append_of_length_le (Nat.le_refl _), Nat.sub_self]
    rfl
  refine ⟨?_, ?_, fun hr => ?_⟩
  · simp only [step, list, hi, bind, Except.bind, pure, Except.pure]
    rw [List.set_append_right _ _ (Nat.le_refl _), Nat.sub_self]
    rfl
  · simp only [step, list, hi, bind, Except.bind, pure, Except.pure, he]
  · simp only [step, list, hi, bind, Except.bind, pure, Except.pure, hg, he, deref_eq hr]

/-- C21: an index that means no item raises and changes nothing. -/
theorem C21_outside {env : Env} {l : List PV} {m : Bool} {i : Int} (h : ∀ k, ¬ At l.length i k) (x : PV) :
    step env ⟨l, m⟩ (.setItem i x) = (⟨l, m⟩, .error .index) ∧
    step env ⟨l, m⟩ (.delItem i) = (⟨l, m⟩, .error .index) ∧
    step env ⟨l, m⟩ (.pop i) = (⟨l, m⟩, .error .index) := by
  have hi := index_not h
  refine ⟨?_, ?_, ?_⟩ <;> simp only [step, list, hi, bind, Except.bind]

/-- C21: `append` and `extend` put the items behind, `len` and iteration take all of them. -/
theorem C21_append (env : Env) (l : List PV) (m : Bool) (x : PV) (xs : List PV) :
    step env ⟨l, m⟩ (.append x) = (⟨l ++ [x], true⟩, .ok .done) ∧
    step env ⟨l, m⟩ (.extend xs) = (⟨l ++ xs, true⟩, .ok .done) ∧
    step env ⟨l, m⟩ .len = (⟨l, m⟩, .ok (.num l.length)) ∧
    ((∀ v ∈ l, Resolves env v) → step env ⟨l, m⟩ .iter = (⟨l, m⟩, .ok (.vals (l.map (target env))))) := by
  refine ⟨rfl, rfl, rfl, fun h => ?_⟩
  simp only [step, mapM_deref h]
  rfl

/-- Ids 1 to 9 are objects 101 to 109. -/
def env9 : Env := fun i => if 0 < i ∧ i < 10 then .ok (100 + i.toNat) else .error .index

example : (∀ v ∈ [PV.int 3, .ref 4, .obj 7, .int 0], Resolves env9 v) ∧
    run env9 ⟨[.int 3, .ref 4, .obj 7, .int 0], false⟩ [.getItem (-3), .insert 1 (.obj 8), .pop (-1), .iter] =
      (⟨[.int 3, .obj 8, .ref 4, .obj 7], true⟩,
        [.ok (.val (.obj 104)), .ok .done, .ok (.val .none),
         .ok (.vals [.obj 103, .obj 8, .obj 104, .obj 7])]) := by
  refine ⟨?_, rfl⟩
  intro v hv
  simp only [List.mem_cons, List.not_mem_nil, or_false] at hv
  rcases hv with rfl | rfl | rfl | rfl
  · exact .inr ⟨103, rfl⟩
  · exact .inr ⟨104, rfl⟩
  · trivial
  · exact .inl (Int.le_refl _)

/-- The slice of a list read from a file: raw ids instead of objects. -/
example : (step env9 ⟨[.int 3, .int 4, .int 5], false⟩ (.getSlice (some 1) none)).2 =
    .ok (.vals [.int 4, .int 5]) ∧ target env9 (.int 4) = .obj 104 := ⟨rfl, rfl⟩

/-- The middle of three replaced by two, and the last two deleted. -/
example : (step env9 ⟨[.int 3, .int 4, .int 5], false⟩ (.setSlice (some 1) (some (-1)) [.obj 8, .obj 9])).1.items =
      [.int 3, .obj 8, .obj 9, .int 5] ∧
    (step env9 ⟨[.int 3, .int 4, .int 5], false⟩ (.delSlice (some (-2)) none)).1.items = [.int 3] := ⟨rfl, rfl⟩

/-- An edit that is not reported. -/
example : step env9 ⟨[.int 3], false⟩ (.iadd [.obj 8]) = (⟨[.int 3, .obj 8], false⟩, .ok .done) := rfl

/-- Object 104 is in the list but is not found. -/
example : .obj 104 ∉ [PV.int 3, .int 4] ∧
    (step env9 ⟨[.int 3, .int 4], false⟩ .iter).2 = .ok (.vals [.obj 103, .obj 104]) := ⟨by decide, rfl⟩

/-- A dangling reference is popped without a report. -/
example : step env9 ⟨[.int 3, .int 44], false⟩ (.pop (-1)) = (⟨[.int 3], false⟩, .error .index) := rfl

/-- Insertion before the last item, and before the first by a position that is outside. -/
example : (step env9 ⟨[.int 3, .int 4], false⟩ (.insert (-1) (.obj 8))).1.items = [.int 3, .obj 8, .int 4] ∧
    (step env9 ⟨[.int 3, .int 4], false⟩ (.insert (-7) (.obj 8))).1.items = [.obj 8, .int 3, .int 4] ∧
    Place 2 (-1) 1 ∧ Place 2 (-7) 0 := by
  refine ⟨rfl, rfl, ?_, ?_⟩ <;> unfold Place <;> omega

/-- The index -2 of three means the item in the middle; 3 means none. -/
example : At ([PV.int 3] ++ PV.int 4 :: [PV.int 5]).length (-2) [PV.int 3].length ∧ Resolves env9 (.int 4) ∧
    ∀ k, ¬ At 3 3 k := by
  refine ⟨⟨by decide, .inr ⟨by decide, by decide⟩⟩, .inr ⟨104, rfl⟩, fun k hk => ?_⟩
  unfold At at hk
  omega

/-- The same operations on the list of the objects themselves. -/
example : listRun ([PV.int 3, .obj 7].map (target env9)) ([Op.getItem 0, .append (.obj 8), .iter].map (mapOp (target env9))) =
    ((run env9 ⟨[.int 3, .obj 7], false⟩ [.getItem 0, .append (.obj 8), .iter]).1.items.map (target env9),
      (run env9 ⟨[.int 3, .obj 7], false⟩ [.getItem 0, .append (.obj 8), .iter]).2) := by
  refine C21_list _ ?_ ?_ ?_
  · intro op hop
    simp only [List.mem_cons, List.not_mem_nil, or_false] at hop
    rcases hop with rfl | rfl | rfl <;> trivial
  · intro v hv
    simp only [List.mem_cons, List.not_mem_nil, or_false] at hv
    rcases hv with rfl | rfl
    · exact .inr ⟨103, rfl⟩
    · trivial
  · intro op hop v hv
    simp only [List.mem_cons, List.not_mem_nil, or_false] at hop
    rcases hop with rfl | rfl | rfl
    · exact absurd hv (by simp [args])
    · simp only [args, List.mem_cons, List.not_mem_nil, or_false] at hv
      subst hv
      trivial
    · exact absurd hv (by simp [args])

/-- Object 104 is in the list as a reference, and is not removed. -/
example : step env9 ⟨[.int 3, .int 4], false⟩ (.remove (.obj 104)) = (⟨[.int 3, .int 4], false⟩, .error .value) :=
  (C21_search (by decide)).2.1

/-- In a list of objects the search is that of lists. -/
example : (step env9 ⟨[.obj 7, .obj 8], false⟩ (.remove (.obj 8))).1.items = [.obj 7] :=
  (C21_direct (env := env9) (l := [.obj 7, .obj 8]) (m := false) 
    (by intro v hv; simp only [List.mem_cons, List.not_mem_nil, or_false] at hv; rcases hv with rfl | rfl <;> rfl) (.remove (.obj 8))
    (.inr (.inl ⟨_, rfl⟩))).1

example : step env9 ⟨[.int 3, .int 4], false⟩ (.getItem (-1)) = (⟨[.int 3, .int 4], false⟩, .ok (.val (.obj 104))) :=
  C21_index (env := env9) (m := false) (l := [.int 3, .int 4])
    (by intro v hv; simp only [List.mem_cons, List.not_mem_nil, or_false] at hv
        rcases hv with rfl | rfl
        · exact .inr ⟨103, rfl⟩
        · exact .inr ⟨104, rfl⟩) (-1)

example : step env9 ⟨[.int 3] ++ .int 4 :: [.int 5], false⟩ (.delItem (-2)) = (⟨[.int 3] ++ [.int 5], true⟩, .ok .done) :=
  (C21_change (a := [.int 3]) ⟨by decide, .inr ⟨by decide, by decide⟩⟩ .none).2.1

example : step env9 ⟨[.int 3, .int 4, .int 5], false⟩ (.setItem 3 (.obj 8)) =
    (⟨[.int 3, .int 4, .int 5], false⟩, .error .index) :=
  (C21_outside (l := [.int 3, .int 4, .int 5]) (fun k hk => by unfold At at hk; simp at hk; omega) _).1

end Avb.RefList

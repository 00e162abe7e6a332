import Verif.Model.PropGet

/-!
C86: reading properties by name.
-/
namespace Avb.PropGet

open RefList

/-! ### Specification -/

/-- What a stored value stands for: a reference for its object (null for none), anything else for itself. -/
inductive Gives (env : Env) : PV → PV → Prop
  | null {i : Int} : i ≤ 0 → Gives env (.ref i) .none
  | obj {i : Int} {o : Nat} : 0 < i → env i = .ok o → Gives env (.ref i) (.obj o)
  | none : Gives env .none .none
  | int (n : Int) : Gives env (.int n) (.int n)
  | self (o : Nat) : Gives env (.obj o) (.obj o)

/-- A stored reference to an object that cannot be loaded. -/
inductive Fails (env : Env) : PV → Err → Prop
  | ref {i : Int} {e : Err} : 0 < i → env i = .error e → Fails env (.ref i) e

/-- All values can be loaded. -/
def Loads (env : Env) (d : Data) : Prop := ∀ p ∈ d, ∃ x, Gives env p.2 x

/-- The ids of the references in some values. -/
def refs (d : Data) : List Int :=
  d.filterMap fun p => match p.2 with
    | .ref i => if 0 < i then some i else none
    | _ => none

/-! ### Single values -/

theorem deref_ok {env : Env} {v x : PV} : (deref env v).2 = .ok x ↔ Gives env v x := by
  constructor
  · intro h
    cases v with
    | none => cases h; exact .none
    | int n => cases h; exact .int n
    | obj o => cases h; exact .self o
    | ref i =>
      simp only [deref] at h
      split at h
      · cases h; exact .null (by assumption)
      · cases he : env i with
        | error e => rw [he] at h; cases h
        | ok o => rw [he] at h; cases h; exact .obj (by omega) he
  · intro h
    cases h with
    | null hi => simp only [deref, if_pos hi]
    | obj hi ho => simp only [deref, if_neg (Int.not_le.2 hi), ho]; rfl
    | none => rfl
    | int n => rfl
    | self o => rfl

theorem deref_error {env : Env} {v : PV} {e : Err} : (deref env v).2 = .error e ↔ Fails env v e := by
  constructor
  · intro h
    cases v with
    | none => cases h
    | int n => cases h
    | obj o => cases h
    | ref i =>
      simp only [deref] at h
      split at h
      · cases h
      · cases he : env i with
        | error e => rw [he] at h; cases h; exact .ref (by omega) he
        | ok o => rw [he] at h; cases h
  · intro h
    cases h with
    | ref hi he => simp only [deref, if_neg (Int.not_le.2 hi), he]; rfl

theorem deref_ids (env : Env) (k : String) (v : PV) : (deref env v).1 = refs [(k, v)] := by
  cases v with
  | none => rfl
  | int n => rfl
  | obj o => rfl
  | ref i =>
    simp only [deref, refs, List.filterMap_cons, List.filterMap_nil]
    by_cases hi : i ≤ 0
    · rw [if_pos hi, if_neg (by omega)]
    · rw [if_neg hi, if_pos (by omega)]

/-! ### One property -/

theorem find_some {key : String} {d : Data} {v : PV} (h : find key d = some v) : (key, v) ∈ d := by
  induction d with
  | nil => cases h
  | cons p d ih =>
    simp only [find] at h
    split at h
    · rename_i e; cases h; rw [← e]; exact List.mem_cons_self
    · exact List.mem_cons_of_mem _ (ih h)

theorem find_eq {key : String} {d : Data} (hd : (d.map Prod.fst).Nodup) {v : PV} (h : (key, v) ∈ d) : find key d = some v := by
  induction d with
  | nil => cases h
  | cons p d ih =>
    rw [List.map_cons, List.nodup_cons] at hd
    simp only [find]
    rcases List.mem_cons.1 h with rfl | h
    · rw [if_pos rfl]
    · rw [if_neg, ih hd.2 h]
      intro e
      exact hd.1 (e ▸ List.mem_map_of_mem (f := Prod.fst) h)

theorem find_none {key : String} {d : Data} : find key d = none ↔ key ∉ d.map Prod.fst := by
  induction d with
  | nil => simp [find]
  | cons p d ih =>
    simp only [find, List.map_cons, List.mem_cons, not_or]
    split
    · rename_i e; simp [e]
    · rename_i e; rw [ih]; exact ⟨fun h => ⟨fun h' => e h'.symm, h⟩, fun h => h.2⟩

/-- C86: `obj.name`, `data[name]` and `data.get(name, …)` of a property that is there give what its own value stands for,
or raise what its own object raises, whatever the other properties are; only its own reference is looked up. -/
theorem C86_attr {env : Env} {d : Data} (hd : (d.map Prod.fst).Nodup) {name : String} {v : PV} (hv : (name, v) ∈ d)
    (default : PV) :
    getAttr env d name = getItem env d name ∧ dataGet env d name default = getItem env d name ∧
    (getItem env d name).1 = refs [(name, v)] ∧
    (∀ x, (getItem env d name).2 = .ok x ↔ Gives env v x) ∧ ∀ e, (getItem env d name).2 = .error e ↔ Fails env v e := by
  have h := find_eq hd hv
  simp only [getAttr, getItem, dataGet, h, Option.getD_some, true_and]
  exact ⟨deref_ids env name v, fun x => deref_ok, fun e => deref_error⟩

/-- C86: a property that is not there raises `AttributeError` and `KeyError`, and gives the default; nothing is looked
up, unless the default is a reference itself. -/
theorem C86_missing {env : Env} {d : Data} {name : String} (h : name ∉ d.map Prod.fst) (default : PV) :
    getAttr env d name = ([], .error .attribute) ∧ getItem env d name = ([], .error .key) ∧
    (dataGet env d name default).1 = refs [(name, default)] ∧
    ∀ x, (dataGet env d name default).2 = .ok x ↔ Gives env default x := by
  have h := find_none.2 h
  simp only [getAttr, getItem, dataGet, h, Option.getD_none, true_and]
  exact ⟨deref_ids env name default, fun x => deref_ok⟩

/-- C86: `hasattr` says no if the property is not there, and also if loading its object raises `AttributeError`; other
exceptions come through. -/
theorem C86_hasattr {env : Env} {d : Data} (hd : (d.map Prod.fst).Nodup) (name : String) :
    (hasAttr env d name = .ok true ↔ ∃ v x, (name, v) ∈ d ∧ Gives env v x) ∧
    (hasAttr env d name = .ok false ↔ name ∉ d.map Prod.fst ∨ ∃ v, (name, v) ∈ d ∧ Fails env v .attribute) ∧
    ∀ e, hasAttr env d name = .error e ↔ e ≠ .attribute ∧ ∃ v, (name, v) ∈ d ∧ Fails env v e := by
  cases hf : find name d with
  | none =>
    have hn := find_none.1 hf
    have hm : ∀ v, (name, v) ∉ d := fun v hv => hn (List.mem_map_of_mem (f := Prod.fst) hv)
    have e : hasAttr env d name = .ok false := by simp only [hasAttr, getAttr, hf]
    rw [e]
    exact ⟨⟨fun h => (by cases h), fun ⟨v, x, hv, _⟩ => (hm v hv).elim⟩, ⟨fun _ => .inl hn, fun _ => rfl⟩,
      fun e => ⟨fun h => (by cases h), fun ⟨_, v, hv, _⟩ => (hm v hv).elim⟩⟩
  | some v =>
    have hv := find_some hf
    have uniq : ∀ w, (name, w) ∈ d → w = v := by
      intro w hw
      have := find_eq hd hw
      rw [hf] at this
      cases this
      rfl
    have hin : name ∈ d.map Prod.fst := List.mem_map_of_mem (f := Prod.fst) hv
    have ha : getAttr env d name = deref env v := by simp only [getAttr, hf]
    cases hr : (deref env v).2 with
    | ok x =>
      have g := deref_ok.1 hr
      have nf : ∀ e, ¬ Fails env v e := fun e he => by rw [deref_error.2 he] at hr; cases hr
      have e : hasAttr env d name = .ok true := by simp only [hasAttr, ha, hr]
      rw [e]
      refine ⟨⟨fun _ => ⟨v, x, hv, g⟩, fun _ => rfl⟩, ⟨fun h => (by cases h), ?_⟩, fun e => ⟨fun h => (by cases h), ?_⟩⟩
      · rintro (h | ⟨w, hw, hf⟩)
        · exact (h hin).elim
        · rw [uniq w hw] at hf; exact (nf _ hf).elim
      · rintro ⟨_, w, hw, hf⟩
        rw [uniq w hw] at hf
        exact (nf _ hf).elim
    | error e =>
      have g := deref_error.1 hr
      have ng : ∀ x, ¬ Gives env v x := fun x hx => by rw [deref_ok.2 hx] at hr; cases hr
      have same : ∀ e', Fails env v e' → e' = e := fun e' he => by
        rw [deref_error.2 he] at hr; cases hr; rfl
      have yes : ∀ w x, (name, w) ∈ d → ¬ Gives env w x := fun w x hw hg => ng x (uniq w hw ▸ hg)
      by_cases hat : e = .attribute
      · subst hat
        have e : hasAttr env d name = .ok false := by simp only [hasAttr, ha, hr]
        rw [e]
        refine ⟨⟨fun h => (by cases h), fun ⟨w, x, hw, hg⟩ => (yes w x hw hg).elim⟩,
          ⟨fun _ => .inr ⟨v, hv, g⟩, fun _ => rfl⟩, fun e => ⟨fun h => (by cases h), ?_⟩⟩
        rintro ⟨hne, w, hw, hf⟩
        rw [uniq w hw] at hf
        exact (hne (same _ hf)).elim
      · have e' : hasAttr env d name = .error e := by
          simp only [hasAttr, ha, hr]
        rw [e']
        refine ⟨⟨fun h => (by cases h), fun ⟨w, x, hw, hg⟩ => (yes w x hw hg).elim⟩, ⟨fun h => (by cases h), ?_⟩,
          fun e2 => ⟨fun h => by cases h; exact ⟨hat, v, hv, g⟩, ?_⟩⟩
        · rintro (h | ⟨w, hw, hf⟩)
          · exact (h hin).elim
          · rw [uniq w hw] at hf; exact (hat (same _ hf).symm).elim
        · rintro ⟨_, w, hw, hf⟩
          rw [uniq w hw] at hf
          rw [same _ hf]

/-! ### `obj.get` -/

theorem objGet_cons_ok {env : Env} {key : String} {default x : PV} {p : String × PV} {d : Data} (h : Gives env p.2 x) :
    objGet env key default (p :: d) = if p.1 = key then (refs [p], .ok x) else
      (refs [p] ++ (objGet env key default d).1, (objGet env key default d).2) := by
  have h1 := deref_ok.2 h
  have h2 := deref_ids env p.1 p.2
  rcases hr : deref env p.2 with ⟨ids, r⟩
  rw [hr] at h1 h2
  dsimp only at h1 h2
  subst h1 h2
  simp only [objGet, hr]

theorem objGet_cons_error {env : Env} {key : String} {default : PV} {e : Err} {p : String × PV} {d : Data}
    (h : Fails env p.2 e) : objGet env key default (p :: d) = (refs [p], .error e) := by
  have h1 := deref_error.2 h
  have h2 := deref_ids env p.1 p.2
  rcases hr : deref env p.2 with ⟨ids, r⟩
  rw [hr] at h1 h2
  dsimp only at h1 h2
  subst h1 h2
  simp only [objGet, hr]

theorem refs_cons (p : String × PV) (d : Data) : refs (p :: d) = refs [p] ++ refs d := by
  rw [← List.singleton_append, refs, List.filterMap_append]
  rfl

theorem gives_or_fails (env : Env) (v : PV) : (∃ x, Gives env v x) ∨ ∃ e, Fails env v e := by
  cases h : (deref env v).2 with
  | ok x => exact .inl ⟨x, deref_ok.1 h⟩
  | error e => exact .inr ⟨e, deref_error.1 h⟩

/-- C86: `obj.get(name, …)` loads the properties in order up to the one it is asked for: if they all can be loaded it gives
what that one stands for, and has looked up the references of all of them. -/
theorem C86_get {env : Env} {pre post : Data} {name : String} {v x : PV} (default : PV) (hn : name ∉ pre.map Prod.fst)
    (hl : Loads env pre) (hx : Gives env v x) :
    objGet env name default (pre ++ (name, v) :: post) = (refs (pre ++ [(name, v)]), .ok x) := by
  induction pre with
  | nil => rw [List.nil_append, objGet_cons_ok hx, if_pos rfl]; rfl
  | cons p pre ih =>
    rw [List.map_cons, List.mem_cons, not_or] at hn
    obtain ⟨y, hy⟩ := hl p List.mem_cons_self
    rw [List.cons_append, objGet_cons_ok hy, if_neg (fun e => hn.1 e.symm), ih hn.2 (fun q hq => hl q (List.mem_cons_of_mem _ hq)),
      List.cons_append, refs_cons p (_ ++ _)]

/-- C86: a property that cannot be loaded makes `obj.get` raise for itself, for all properties that come after it and for
all names that are not there, even if a default is given. -/
theorem C86_get_raises {env : Env} {pre post : Data} {key name : String} {v : PV} {e : Err} (default : PV)
    (hn : name ∉ pre.map Prod.fst) (hl : Loads env pre) (he : Fails env v e) :
    objGet env name default (pre ++ (key, v) :: post) = (refs (pre ++ [(key, v)]), .error e) := by
  induction pre with
  | nil => rw [List.nil_append, objGet_cons_error he]; rfl
  | cons p pre ih =>
    rw [List.map_cons, List.mem_cons, not_or] at hn
    obtain ⟨y, hy⟩ := hl p List.mem_cons_self
    rw [List.cons_append, objGet_cons_ok hy, if_neg (fun e => hn.1 e.symm), ih hn.2 (fun q hq => hl q (List.mem_cons_of_mem _ hq)),
      List.cons_append, refs_cons p (_ ++ _)]

/-- C86: of a name that is not there it gives the default as it is, after all references were looked up, if all can be
loaded. -/
theorem C86_get_default {env : Env} {d : Data} {name : String} (default : PV) (hn : name ∉ d.map Prod.fst)
    (hl : Loads env d) : objGet env name default d = (refs d, .ok default) := by
  induction d with
  | nil => rfl
  | cons p d ih =>
    rw [List.map_cons, List.mem_cons, not_or] at hn
    obtain ⟨y, hy⟩ := hl p List.mem_cons_self
    rw [objGet_cons_ok hy, if_neg (fun e => hn.1 e.symm), ih hn.2 (fun q hq => hl q (List.mem_cons_of_mem _ hq)), refs_cons p d]

/-- C86: so `obj.get(name, …)` and `obj.name` agree on an object all of whose properties can be loaded, -/
theorem C86_agree {env : Env} {d : Data} (hd : (d.map Prod.fst).Nodup) (hl : Loads env d) {name : String}
    (hn : name ∈ d.map Prod.fst) (default : PV) :
    (objGet env name default d).2 = (getAttr env d name).2 := by
  obtain ⟨⟨k, v⟩, hv, rfl⟩ := List.mem_map.1 hn
  obtain ⟨x, hx⟩ := hl _ hv
  obtain ⟨pre, post, rfl⟩ := List.append_of_mem hv
  have hpre : k ∉ pre.map Prod.fst := by
    intro hk
    rw [List.map_append, List.nodup_append] at hd
    exact hd.2.2 k hk k (by simp) rfl
  rw [C86_get default hpre (fun p hp => hl p (List.mem_append_left _ hp)) hx]
  obtain ⟨h1, -, -, h4, -⟩ := C86_attr (env := env) hd hv default
  rw [h1, (h4 x).2 hx]

/-- C86: and differ if one that cannot be loaded comes before: `obj.name` gives the value, `obj.get` raises. -/
theorem C86_differ {env : Env} {pre mid post : Data} {key name : String} {v w x : PV} {e : Err} (default : PV)
    (hd : ((pre ++ (key, v) :: mid ++ (name, w) :: post).map Prod.fst).Nodup) (hl : Loads env pre) (he : Fails env v e)
    (hx : Gives env w x) :
    (getAttr env (pre ++ (key, v) :: mid ++ (name, w) :: post) name).2 = .ok x ∧
    (objGet env name default (pre ++ (key, v) :: mid ++ (name, w) :: post)).2 = .error e := by
  obtain ⟨h1, -, -, h4, -⟩ := C86_attr (env := env) hd (v := w) (name := name) (by simp) default
  refine ⟨by rw [h1, (h4 x).2 hx], ?_⟩
  rw [List.append_assoc, List.cons_append, C86_get_raises default _ hl he]
  intro hk
  rw [List.append_assoc, List.map_append, List.nodup_append] at hd
  exact hd.2.2 name hk name (by simp) rfl

/-! ### `items` -/

/-- C86: `data.items()` gives the names in order with what the values stand for, up to the first that cannot be loaded,
where it raises. -/
theorem C86_items {env : Env} {d : Data} :
    (∀ p ∈ d, ∃ x, Gives env p.2 x) ∧ (items env d).2.2 = none ∧ (items env d).1 = refs d ∧
      (items env d).2.1.map Prod.fst = d.map Prod.fst ∧
      (∀ (i : Nat) k v, d[i]? = some (k, v) → ∃ x, (items env d).2.1[i]? = some (k, x) ∧ Gives env v x) ∨
    ∃ pre key v post e, d = pre ++ (key, v) :: post ∧ Loads env pre ∧ Fails env v e ∧ (items env d).2.2 = some e ∧
      (items env d).1 = refs (pre ++ [(key, v)]) ∧ (items env d).2.1 = (items env pre).2.1 := by
  induction d with
  | nil => exact .inl ⟨nofun, rfl, rfl, rfl, fun i k v h => by simp at h⟩
  | cons p d ih =>
    have h2 := deref_ids env p.1 p.2
    rcases gives_or_fails env p.2 with ⟨x, hx⟩ | ⟨e, he⟩
    · have h1 := deref_ok.2 hx
      have step : ∀ d, items env (p :: d) = (refs [p] ++ (items env d).1, (p.1, x) :: (items env d).2.1, (items env d).2.2) := by
        intro d
        rcases hr : deref env p.2 with ⟨ids, r⟩
        rw [hr] at h1 h2
        dsimp only at h1 h2
        subst h1 h2
        simp only [items, hr]
      rw [step]
      rcases ih with ⟨h3, h4, h5, h6, h7⟩ | ⟨pre, key, v, post, e, rfl, h4, h5, h6, h7, h8⟩
      · refine .inl ⟨?_, h4, by rw [h5, refs_cons p d], by simp [h6], ?_⟩
        · intro q hq
          rcases List.mem_cons.1 hq with rfl | hq
          · exact ⟨x, hx⟩
          · exact h3 q hq
        · intro i k v hi
          cases i with
          | zero =>
            simp only [List.getElem?_cons_zero, Option.some.injEq] at hi
            subst hi
            exact ⟨x, rfl, hx⟩
          | succ i => exact h7 i k v hi
      · refine .inr ⟨p :: pre, key, v, post, e, rfl, ?_, h5, h6, ?_, ?_⟩
        · intro q hq
          rcases List.mem_cons.1 hq with rfl | hq
          · exact ⟨x, hx⟩
          · exact h4 q hq
        · rw [h7, List.cons_append, refs_cons p (_ ++ _)]
        · rw [step, h8]
    · refine .inr ⟨[], p.1, p.2, d, e, rfl, nofun, he, ?_⟩
      have h1 := deref_error.2 he
      rcases hr : deref env p.2 with ⟨ids, r⟩
      rw [hr] at h1 h2
      dsimp only at h1 h2
      subst h1 h2
      simp only [items, hr, List.nil_append]
      exact ⟨trivial, trivial, trivial⟩

/-! ### Examples -/

/-- A file in which object 7 cannot be loaded. -/
def env : Env := fun i => if i = 7 then .error .assertion else if i = 8 then .error .attribute else .ok i.toNat

/-- A clip with a name, two references and a length. -/
def clip : Data := [("name", .none), ("attributes", .ref 5), ("precomputed", .ref 7), ("null", .ref 0), ("length", .int 100)]

/-- C86_attr -/
example : (getAttr env clip "length").2 = .ok (.int 100) ∧ (getAttr env clip "length").1 = [] := by
  obtain ⟨h1, -, h3, h4, -⟩ := C86_attr (env := env) (d := clip) (by decide) (name := "length") (v := .int 100) (by simp [clip]) .none
  exact ⟨by rw [h1, h4]; exact .int 100, by rw [h1, h3]; rfl⟩

/-- C86_missing -/
example : getAttr env clip "speed" = ([], .error .attribute) := (C86_missing (by decide) .none).1

/-- C86_hasattr -/
example : hasAttr env [("attributes", .ref 8)] "attributes" = .ok false :=
  ((C86_hasattr (by decide) _).2.1).2 (.inr ⟨.ref 8, by simp, .ref (by decide) rfl⟩)

/-- C86_get -/
example : objGet env "attributes" .none clip = ([5], .ok (.obj 5)) :=
  C86_get (env := env) (pre := [("name", .none)]) .none (by decide)
    (by
      intro p hp
      rw [List.mem_singleton.1 hp]
      exact ⟨_, .none⟩) (.obj (by decide) rfl)

/-- C86_get_raises: a name that is not there, with a default. -/
example : objGet env "speed" (.int 1) clip = ([5, 7], .error .assertion) :=
  C86_get_raises (env := env) (pre := [("name", .none), ("attributes", .ref 5)]) (key := "precomputed") (.int 1) (by decide)
    (by
      intro p hp
      rcases List.mem_cons.1 hp with rfl | hp
      · exact ⟨_, .none⟩
      · rw [List.mem_singleton.1 hp]
        exact ⟨_, .obj (o := 5) (by decide) rfl⟩) (.ref (by decide) rfl)

theorem clip_loads : Loads env [("attributes", .ref 5), ("length", .int 100)] := by
  intro p hp
  rcases List.mem_cons.1 hp with rfl | hp
  · exact ⟨_, .obj (o := 5) (by decide) rfl⟩
  · rw [List.mem_singleton.1 hp]
    exact ⟨_, .int 100⟩

/-- C86_get_default -/
example : objGet env "speed" (.int 1) [("attributes", .ref 5), ("length", .int 100)] = ([5], .ok (.int 1)) :=
  C86_get_default _ (by decide) clip_loads

/-- C86_agree -/
example : (objGet env "length" .none [("attributes", .ref 5), ("length", .int 100)]).2 = .ok (.int 100) :=
  (C86_agree (by decide) clip_loads (by decide) .none).trans rfl

/-- C86_differ -/
example : (getAttr env clip "length").2 = .ok (.int 100) ∧ (objGet env "length" .none clip).2 = .error .assertion :=
  C86_differ (env := env) (pre := [("name", .none), ("attributes", .ref 5)]) (key := "precomputed") (mid := [("null", .ref 0)])
    (post := []) .none (by decide)
    (by
      intro p hp
      rcases List.mem_cons.1 hp with rfl | hp
      · exact ⟨_, .none⟩
      · rw [List.mem_singleton.1 hp]
        exact ⟨_, .obj (o := 5) (by decide) rfl⟩) (.ref (by decide) rfl) (.int 100)

/-- C86_items -/
example : items env clip = ([5, 7], [("name", .none), ("attributes", .obj 5)], some .assertion) := rfl

end Avb.PropGet

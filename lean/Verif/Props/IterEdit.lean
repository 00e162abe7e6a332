import Verif.Model.IterEdit
import Verif.Props.RefList
import Verif.Props.BinFind

/-!
C83: loops over a reference list, or over the mobs of a bin, that is changed in the body.
-/
namespace Avb.IterEdit

open RefList

/-- How often the iterator is asked. -/
def asked : List Act → Nat
  | [] => 0
  | .next :: as => asked as + 1
  | .call _ :: as => asked as

/-- The calls alone. -/
def calls : List Act → List (Op PV)
  | [] => []
  | .next :: as => calls as
  | .call op :: as => op :: calls as

/-- Every answer so far was an item. -/
def Items (os : List (Out PV)) : Prop := ∀ o ∈ os, ∃ x, o = .item x

theorem deref_not {env : Env} {v : PV} (h : ¬ Resolves env v) : ∃ e, deref env v = .error e := by
  have key : ∀ n, ¬ (n ≤ 0 ∨ ∃ o, env n = .ok o) → ∃ e, refValue env n = .error e := by
    intro n h
    rw [not_or] at h
    rcases he : env n with e | o
    · exact ⟨e, by simp only [refValue, if_neg h.1, he]; rfl⟩
    · exact (h.2 ⟨o, he⟩).elim
  cases v with
  | none => exact (h trivial).elim
  | obj => exact (h trivial).elim
  | int n => exact key n h
  | ref n => exact key n h

theorem acts_it {env : Env} (as : List Act) {s : St} {k : Nat} (hk : s.it = some k) :
    (Items (acts env s as).2 → (acts env s as).1.it = some (k + asked as)) ∧
    (¬ Items (acts env s as).2 → (acts env s as).1.it = none) := by
  have dead : ∀ (as : List Act) {s : St}, s.it = none → (acts env s as).1.it = none := by
    intro as
    induction as with
    | nil => intro s h; exact h
    | cons a as ih =>
      intro s h
      cases a with
      | call op => exact ih (s := (act env s (.call op)).1) h
      | next =>
        refine ih (s := (act env s .next).1) ?_
        simp only [act, h, next]
  induction as generalizing s k with
  | nil => exact ⟨fun _ => hk, fun h => (h nofun).elim⟩
  | cons a as ih =>
    cases a with
    | call op =>
      have := ih (s := (act env s (.call op)).1) (k := k) hk
      simpa only [acts, act, asked, Option.toList, List.nil_append] using this
    | next =>
      simp only [acts, act, asked, hk, next]
      rcases hg : s.list.items[k]? with _ | v
      · refine ⟨fun h => ?_, fun _ => dead as rfl⟩
        obtain ⟨x, hx⟩ := h .stop (by simp)
        cases hx
      · dsimp only
        rcases hd : deref env v with e | x
        · refine ⟨fun h => ?_, fun _ => dead as rfl⟩
          obtain ⟨x, hx⟩ := h (.raised e) (by simp)
          cases hx
        · have := ih (s := { s with it := some (k + 1) }) (k := k + 1) rfl
          dsimp only
          have e : Items ((some (Out.item x)).toList ++ (acts env { s with it := some (k + 1) } as).2) ↔
              Items (acts env { s with it := some (k + 1) } as).2 := by
            constructor
            · exact fun h o ho => h o (List.mem_append_right _ ho)
            · intro h o ho
              rcases List.mem_append.1 ho with ho | ho
              · exact ⟨x, by simpa using ho⟩
              · exact h o ho
          rw [e]
          refine ⟨fun h => ?_, this.2⟩
          rw [this.1 h]
          congr 1
          omega

/-- C83: after any sequence of calls and answers, the iterator that has given out `k` items gives the object of the
item that now is at position `k` of the list, whatever was there before; with no item there it ends, and an item that
cannot be looked up raises. -/
theorem C83_next (env : Env) (l : List PV) (m : Bool) (as : List Act)
    (h : Items (acts env ⟨⟨l, m⟩, some 0⟩ as).2) :
    let s := (acts env ⟨⟨l, m⟩, some 0⟩ as).1
    (asked as ≥ s.list.items.length → (act env s .next).2 = some .stop) ∧
    (∀ v, s.list.items[asked as]? = some v → Resolves env v →
      (act env s .next).2 = some (.item (target env v))) ∧
    (∀ v, s.list.items[asked as]? = some v → ¬ Resolves env v →
      ∃ e, (act env s .next).2 = some (.raised e)) := by
  have hi := (acts_it (env := env) as (s := ⟨⟨l, m⟩, some 0⟩) rfl).1 h
  rw [Nat.zero_add] at hi
  refine ⟨fun hl => ?_, fun v hv hr => ?_, fun v hv hr => ?_⟩
  · simp only [act, hi, next, List.getElem?_eq_none hl]
  · simp only [act, hi, next, hv, deref_eq hr]
  · obtain ⟨e, he⟩ := deref_not hr
    exact ⟨e, by simp only [act, hi, next, hv, he]⟩

/-- C83: once the iterator has ended or raised it gives nothing more, even if the list grows or the item is
repaired. -/
theorem C83_ended (env : Env) (l : List PV) (m : Bool) (as : List Act)
    (h : ¬ Items (acts env ⟨⟨l, m⟩, some 0⟩ as).2) :
    (act env (acts env ⟨⟨l, m⟩, some 0⟩ as).1 .next).2 = some .stop := by
  have hi := (acts_it (env := env) as (s := ⟨⟨l, m⟩, some 0⟩) rfl).2 h
  simp only [act, hi, next]

/-- C83: an iterator never changes the list: the calls leave what they would leave without it. -/
theorem C83_list (env : Env) (as : List Act) (s : St) :
    (acts env s as).1.list = (run env s.list (calls as)).1 := by
  induction as generalizing s with
  | nil => rfl
  | cons a as ih =>
    cases a with
    | call op => exact ih _
    | next => exact ih _

/-- A call that only adds at the end. -/
def Grows : Op PV → Prop
  | .append _ | .extend _ | .iadd _ => True
  | _ => False

theorem grows_prefix {env : Env} {s : RL} {op : Op PV} (h : Grows op) :
    s.items <+: (step env s op).1.items := by
  cases op with
  | append x => exact List.prefix_append _ _
  | extend x => exact List.prefix_append _ _
  | iadd x => exact List.prefix_append _ _
  | _ => exact h.elim

theorem acts_prefix {env : Env} (as : List Act) {s : St} (h : ∀ op ∈ calls as, Grows op) :
    s.list.items <+: (acts env s as).1.list.items := by
  induction as generalizing s with
  | nil => exact List.prefix_rfl
  | cons a as ih =>
    cases a with
    | call op =>
      exact (grows_prefix (h op List.mem_cons_self)).trans
        (ih (s := (act env s (.call op)).1) fun o ho => h o (List.mem_cons_of_mem _ ho))
    | next => exact ih (s := (act env s .next).1) h

theorem acts_grow {env : Env} (as : List Act) {s : St} {k : Nat} (hk : s.it = some k)
    (hg : ∀ op ∈ calls as, Grows op) (hi : Items (acts env s as).2)
    (hr : ∀ v ∈ (acts env s as).1.list.items, Resolves env v) :
    (acts env s as).2 = (((acts env s as).1.list.items.drop k).take (asked as)).map
      (fun v => .item (target env v)) ∧
    (acts env s as).2.length = asked as := by
  induction as generalizing s k with
  | nil => simp [acts, asked]
  | cons a as ih =>
    cases a with
    | call op =>
      exact ih (s := (act env s (.call op)).1) (k := k) hk (fun o ho => hg o (List.mem_cons_of_mem _ ho))
        (by simpa only [acts, act, Option.toList, List.nil_append] using hi) hr
    | next =>
      have hp := acts_prefix (env := env) as (s := (act env s .next).1) hg
      simp only [acts, act, asked, hk, next] at hi hr hp ⊢
      rcases hv : s.list.items[k]? with _ | v
      · rw [hv] at hi
        obtain ⟨x, hx⟩ := hi .stop (by simp)
        cases hx
      · rw [hv] at hi hr hp
        dsimp only at hi hr hp ⊢
        rcases hd : deref env v with e | x
        · rw [hd] at hi
          obtain ⟨x, hx⟩ := hi (.raised e) (by simp)
          cases hx
        · rw [hd] at hi hr hp
          dsimp only at hi hr hp ⊢
          have hvf : (acts env { s with it := some (k + 1) } as).1.list.items[k]? = some v := by
            obtain ⟨t, ht⟩ := hp
            rw [← ht, List.getElem?_append_left (List.getElem?_eq_some_iff.1 hv).1]
            exact hv
          have := ih (s := { s with it := some (k + 1) }) (k := k + 1) rfl hg
            (fun o ho => hi o (List.mem_append_right _ ho)) hr
          obtain ⟨hlt, hget⟩ := List.getElem?_eq_some_iff.1 hvf
          have hx : x = target env v := by
            have := hr v (List.mem_of_getElem? hvf)
            rw [deref_eq this] at hd
            exact (Except.ok.inj hd).symm
          refine ⟨?_, by simp [this.2]⟩
          rw [this.1, List.drop_eq_getElem_cons hlt, hget, List.take_succ_cons, List.map_cons, ← hx]
          rfl

/-- C83: if the list is only added to meanwhile, the iterator gives the objects of the list as it is in the end from the
first on, none left out and none twice; the added ones come as well. -/
theorem C83_added (env : Env) (l : List PV) (m : Bool) (as : List Act)
    (hg : ∀ op ∈ calls as, Grows op) (hi : Items (acts env ⟨⟨l, m⟩, some 0⟩ as).2)
    (hr : ∀ v ∈ (acts env ⟨⟨l, m⟩, some 0⟩ as).1.list.items, Resolves env v) :
    (acts env ⟨⟨l, m⟩, some 0⟩ as).2 =
      ((acts env ⟨⟨l, m⟩, some 0⟩ as).1.list.items.take (asked as)).map (fun v => .item (target env v)) ∧
    asked as ≤ (acts env ⟨⟨l, m⟩, some 0⟩ as).1.list.items.length := by
  have := acts_grow (env := env) as (s := ⟨⟨l, m⟩, some 0⟩) (k := 0) rfl hg hi hr
  rw [List.drop_zero] at this
  refine ⟨this.1, ?_⟩
  have h2 := this.2
  rw [this.1, List.length_map, List.length_take] at h2
  omega

/-- A file with objects under the ids 1 to 9; the others cannot be loaded. -/
def exEnv : Env := fun i => if i < 10 then .ok i.toNat else .error .key

/-- C83_next, C83_list: after the first item the list loses it and gains another; the second answer is what now is at
position 1, so the object 2 is left out. -/
def exActs : List Act := [.next, .call (.delItem 0), .call (.append (.obj 7)), .next]

example : Items (acts exEnv ⟨⟨[.ref 1, .ref 2, .int 3], false⟩, some 0⟩ exActs).2 := by
  intro o ho
  have : (acts exEnv ⟨⟨[.ref 1, .ref 2, .int 3], false⟩, some 0⟩ exActs).2 =
      [.item (.obj 1), .item (.obj 3)] := by decide +kernel
  rw [this] at ho
  rcases List.mem_cons.1 ho with rfl | ho
  · exact ⟨_, rfl⟩
  · exact ⟨_, List.mem_singleton.1 ho⟩

example : asked exActs = 2 ∧ (acts exEnv ⟨⟨[.ref 1, .ref 2, .int 3], false⟩, some 0⟩ exActs).1.list.items =
    [.ref 2, .int 3, .obj 7] := by decide +kernel

example : (act exEnv (acts exEnv ⟨⟨[.ref 1, .ref 2, .int 3], false⟩, some 0⟩ exActs).1 .next).2 =
    some (.item (.obj 7)) := by decide +kernel

/-- C83_next, C83_ended: an item that cannot be loaded raises and ends the iterator, also if it is replaced. -/
example : (acts exEnv ⟨⟨[.ref 10, .ref 2], false⟩, some 0⟩
    [.next, .call (.setItem 0 (.ref 1)), .next]).2 = [.raised .key, .stop] := by decide +kernel

/-- C83_ended: an iterator at the end stays there. -/
example : (acts exEnv ⟨⟨[.ref 1], false⟩, some 0⟩ [.next, .next, .call (.append (.ref 2)), .next]).2 =
    [.item (.obj 1), .stop, .stop] := by decide +kernel

/-- C83_added: what was appended comes as well. -/
example : (acts exEnv ⟨⟨[.ref 1], false⟩, some 0⟩ [.next, .call (.append (.ref 2)), .call (.iadd [.none]), .next,
    .next]).2 = [.item (.obj 1), .item (.obj 2), .item .none] := by decide +kernel

/-! ### Loops -/

theorem loop_item {env : Env} {ops : Nat → PV → List (Op PV)} {n i k : Nat} {s t : RL} {v : PV}
    (hv : s.items[k]? = some v) (hr : Resolves env v) (hb : body env s (ops i (target env v)) = (t, none)) :
    loop env ops (n + 1) i s (some k) =
      ((loop env ops n (i + 1) t (some (k + 1))).1, target env v :: (loop env ops n (i + 1) t (some (k + 1))).2.1,
        (loop env ops n (i + 1) t (some (k + 1))).2.2) := by
  simp only [loop, next, hv, deref_eq hr, hb]

theorem loop_stop {env : Env} {ops : Nat → PV → List (Op PV)} {n i k : Nat} {s : RL}
    (hv : s.items[k]? = none) : loop env ops (n + 1) i s (some k) = (s, [], .done) := by
  simp only [loop, next, hv]

/-- C83: a body that never makes the list longer: the loop ends, by itself or with an exception, after at most as many
rounds as the list had items. -/
theorem C83_terminates {env : Env} {ops : Nat → PV → List (Op PV)}
    (h : ∀ i x s, (body env s (ops i x)).1.items.length ≤ s.items.length) (s : RL) (i : Nat) :
    (loop env ops (s.items.length + 1) i s (some 0)).2.2 ≠ .running ∧
    (loop env ops (s.items.length + 1) i s (some 0)).2.1.length ≤ s.items.length := by
  have key : ∀ n i k (s : RL), s.items.length ≤ k + n →
      (loop env ops (n + 1) i s (some k)).2.2 ≠ .running ∧
      (loop env ops (n + 1) i s (some k)).2.1.length ≤ n := by
    intro n
    induction n with
    | zero =>
      intro i k s hs
      rw [loop_stop (List.getElem?_eq_none (by omega))]
      exact ⟨nofun, Nat.le_refl 0⟩
    | succ n ih =>
      intro i k s hs
      rw [loop]
      simp only [next]
      rcases s.items[k]? with _ | v
      · exact ⟨nofun, Nat.zero_le _⟩
      · dsimp only
        rcases deref env v with e | x
        · exact ⟨nofun, Nat.zero_le _⟩
        · dsimp only
          have hb := h i x s
          rcases hbb : body env s (ops i x) with ⟨t, _ | e⟩
          · rw [hbb] at hb
            have := ih (i + 1) (k + 1) t (by dsimp only at hb; omega)
            exact ⟨this.1, Nat.succ_le_succ this.2⟩
          · exact ⟨nofun, by simp⟩
  exact key _ i 0 s (by omega)

/-- C83: a body that adds at least one item at the end (and does nothing else): a loop over a list that is not
empty never ends. -/
theorem C83_endless {env : Env} {ops : Nat → PV → List (Op PV)}
    (h : ∀ i x s, ∃ t y ys, body env s (ops i x) = (t, none) ∧ t.items = s.items ++ y :: ys ∧
      ∀ v ∈ y :: ys, Resolves env v)
    {s : RL} (hne : s.items ≠ []) (hr : ∀ v ∈ s.items, Resolves env v) (n i : Nat) :
    (loop env ops n i s (some 0)).2.2 = .running ∧ (loop env ops n i s (some 0)).2.1.length = n ∧
    s.items.length + n ≤ (loop env ops n i s (some 0)).1.items.length := by
  have key : ∀ n i k (s : RL), k < s.items.length → (∀ v ∈ s.items, Resolves env v) →
      (loop env ops n i s (some k)).2.2 = .running ∧ (loop env ops n i s (some k)).2.1.length = n ∧
      s.items.length + n ≤ (loop env ops n i s (some k)).1.items.length := by
    intro n
    induction n with
    | zero => intro i k s _ _; exact ⟨rfl, rfl, Nat.le_refl _⟩
    | succ n ih =>
      intro i k s hk hr
      have hv := List.getElem?_eq_getElem hk
      obtain ⟨t, y, ys, hb, ht, hy⟩ := h i (target env s.items[k]) s
      rw [loop_item hv (hr _ (List.getElem_mem hk)) hb]
      have hl : t.items.length = s.items.length + (ys.length + 1) := by rw [ht]; simp
      have := ih (i + 1) (k + 1) t (by omega)
        (by rw [ht]; exact fun v hv => (List.mem_append.1 hv).elim (hr v) (hy v))
      exact ⟨this.1, by simp [this.2.1], by dsimp only; omega⟩
  exact key n i 0 s (List.length_pos_iff.2 hne) hr

/-- C83: with something put in front in every round, the loop gives the same first item for ever. -/
theorem C83_same {env : Env} {v : PV} {l : List PV} (hv : Resolves env v) (y : Nat → PV → PV) (m : Bool)
    (n : Nat) :
    (loop env (fun i x => [.insert 0 (y i x)]) n 0 ⟨v :: l, m⟩ (some 0)).2 =
      (List.replicate n (target env v), .running) := by
  have key : ∀ n i m (p : List PV), (loop env (fun i x => [.insert 0 (y i x)]) n i ⟨p ++ v :: l, m⟩
      (some p.length)).2 = (List.replicate n (target env v), .running) := by
    intro n
    induction n with
    | zero => intro i m p; rfl
    | succ n ih =>
      intro i m p
      rw [loop_item (t := ⟨y i (target env v) :: (p ++ v :: l), true⟩) (v := v) (by simp) hv]
      · have := ih (i + 1) true (y i (target env v) :: p)
        simp only [List.length_cons, List.cons_append] at this
        rw [this]
        rfl
      · simp [body, step, list, clamp]
  exact key n 0 m []

/-- C83: taking the first item off in every round: the loop gives every second object only, and the second half of the
list is left. -/
theorem C83_pop {env : Env} {l : List PV} (hr : ∀ v ∈ l, Resolves env v) (m : Bool) :
    ∃ seen m', loop env (fun _ _ => [.pop 0]) (l.length + 1) 0 ⟨l, m⟩ (some 0) =
      (⟨l.drop ((l.length + 1) / 2), m'⟩, seen, .done) ∧
      ∀ j, seen[j]? = (l[2 * j]?).map (target env) := by
  have key : ∀ n i k m, l.length ≤ k + n → ∃ seen m', loop env (fun _ _ => [.pop 0]) (n + 1) i ⟨l.drop k, m⟩ (some k) =
      (⟨l.drop (max k ((l.length + 1) / 2)), m'⟩, seen, .done) ∧
      ∀ j, seen[j]? = (l[2 * (k + j)]?).map (target env) := by
    intro n
    induction n with
    | zero =>
      intro i k m hk
      refine ⟨[], m, ?_, ?_⟩
      · rw [loop_stop (by rw [List.getElem?_drop]; exact List.getElem?_eq_none (by omega))]
        rw [Nat.max_eq_left (by omega)]
      · intro j
        rw [List.getElem?_eq_none (by omega : l.length ≤ 2 * (k + j))]
        rfl
    | succ n ih =>
      intro i k m hk
      by_cases h2 : 2 * k < l.length
      · have hv : (l.drop k)[k]? = some l[2 * k] := by
          rw [List.getElem?_drop, ← Nat.two_mul]; exact List.getElem?_eq_getElem h2
        have h1 : k < l.length := by omega
        obtain ⟨seen, m', he, hs⟩ := ih (i + 1) (k + 1) true (by omega)
        refine ⟨target env l[2 * k] :: seen, m', ?_, ?_⟩
        · rw [loop_item (t := ⟨l.drop (k + 1), true⟩) hv (hr _ (List.getElem_mem h2)), he]
          · rw [Nat.max_eq_right (by omega), Nat.max_eq_right (by omega)]
          · have hd := List.drop_eq_getElem_cons h1
            have hre := deref_eq (hr _ (List.getElem_mem h1))
            simp only [body, hd, step, list, index, bind, Except.bind, pure, Except.pure, List.length_cons]
            simp [List.getElem?_eq_getElem h1, hre]
        · intro j
          cases j with
          | zero => simp [h2]
          | succ j =>
            rw [List.getElem?_cons_succ, hs j]
            congr 2
            omega
      · refine ⟨[], m, ?_, ?_⟩
        · rw [loop_stop (by rw [List.getElem?_drop]; exact List.getElem?_eq_none (by omega))]
          rw [Nat.max_eq_left (by omega)]
        · intro j
          rw [List.getElem?_eq_none (by omega : l.length ≤ 2 * (k + j))]
          rfl
  obtain ⟨seen, m', he, hs⟩ := key l.length 0 0 m (by omega)
  refine ⟨seen, m', ?_, fun j => by rw [hs, Nat.zero_add]⟩
  rw [List.drop_zero, Nat.zero_max] at he
  exact he

/-- C83: removing the present item in every round, of a list that holds the objects themselves, no two alike: the items at
even positions are given and removed, those at odd positions are neither given nor removed, and no exception tells. -/
theorem C83_remove {env : Env} {l : List PV} (hd : ∀ v ∈ l, ∃ o, v = .obj o) (hn : l.Nodup) (m : Bool) :
    ∃ seen left m', loop env (fun _ x => [.remove x]) (l.length + 1) 0 ⟨l, m⟩ (some 0) =
      (⟨left, m'⟩, seen, .done) ∧
      ∀ j, seen[j]? = l[2 * j]? ∧ left[j]? = l[2 * j + 1]? := by
  have key : ∀ n i (p q : List PV) m, q.length ≤ n → (∀ v ∈ q, ∃ o, v = .obj o) → (p ++ q).Nodup →
      ∃ seen left m', loop env (fun _ x => [.remove x]) (n + 1) i ⟨p ++ q, m⟩ (some p.length) =
        (⟨p ++ left, m'⟩, seen, .done) ∧
        ∀ j, seen[j]? = q[2 * j]? ∧ left[j]? = q[2 * j + 1]? := by
    intro n
    induction n with
    | zero =>
      intro i p q m hl _ _
      have : q = [] := List.length_eq_zero_iff.1 (by omega)
      subst this
      exact ⟨[], [], m, loop_stop (by simp), fun j => by simp⟩
    | succ n ih =>
      intro i p q m hl hd hn
      cases q with
      | nil => exact ⟨[], [], m, loop_stop (by simp), fun j => by simp⟩
      | cons a q =>
        obtain ⟨o, rfl⟩ := hd a List.mem_cons_self
        have hap : PV.obj o ∉ p := by
          intro h
          exact (List.nodup_append.1 hn).2.2 _ h _ List.mem_cons_self rfl
        have hb : body env ⟨p ++ .obj o :: q, m⟩ [.remove (target env (.obj o))] = (⟨p ++ q, true⟩, none) := by
          have : (p ++ PV.obj o :: q).erase (.obj o) = p ++ q := by
            rw [List.erase_append_right _ hap, List.erase_cons_head]
          simp [body, step, list, target, this]
        rw [loop_item (v := .obj o) (by simp) trivial hb]
        cases q with
        | nil =>
          refine ⟨[.obj o], [], true, ?_, fun j => ?_⟩
          · rw [loop_stop (by simp)]; rfl
          · cases j <;> simp [Nat.mul_add]
        | cons b q =>
          obtain ⟨seen, left, m', he, hs⟩ := ih (i + 1) (p ++ [b]) q true (by simp at hl; omega)
            (fun v hv => hd v (by simp [hv])) (by
              rw [List.append_assoc]
              exact hn.sublist ((List.Sublist.refl p).append (List.sublist_cons_self _ _)))
          simp only [List.append_assoc, List.cons_append, List.nil_append, List.length_append, List.length_cons,
            List.length_nil, Nat.zero_add] at he
          refine ⟨.obj o :: seen, b :: left, m', ?_, fun j => ?_⟩
          · rw [he]; rfl
          · cases j with
            | zero => simp
            | succ j =>
              have := hs j
              simp only [Nat.mul_add, Nat.mul_one, List.getElem?_cons_succ]
              exact this
  obtain ⟨seen, left, m', he, hs⟩ := key l.length 0 [] l m (Nat.le_refl _) hd hn
  exact ⟨seen, left, m', he, hs⟩

/-- C83: of a list that holds references, as every list that was read does, removing the present item raises
`ValueError` in the first round and changes nothing. -/
theorem C83_remove_refs {env : Env} {v : PV} {l : List PV} {o : Nat} (hv : Resolves env v)
    (ho : target env v = .obj o) (hn : .obj o ∉ v :: l) (m : Bool) (n : Nat) :
    loop env (fun _ x => [.remove x]) (n + 1) 0 ⟨v :: l, m⟩ (some 0) =
      (⟨v :: l, m⟩, [.obj o], .raised .value) := by
  simp only [loop, next, List.getElem?_cons_zero, deref_eq hv, ho, body, (C21_search hn).2.1]

/-- C83: replacing the present item in every round is safe: every object is given once, in order, and the list holds
the replacements. -/
theorem C83_replace {env : Env} {l : List PV} (hr : ∀ v ∈ l, Resolves env v) (g : Nat → PV → PV) (m : Bool) :
    ∃ m', loop env (fun i x => [.setItem i (g i x)]) (l.length + 1) 0 ⟨l, m⟩ (some 0) =
      (⟨l.mapIdx fun i v => g i (target env v), m'⟩, l.map (target env), .done) := by
  have key : ∀ (q p : List PV) (m : Bool), (∀ v ∈ q, Resolves env v) →
      ∃ m', loop env (fun i x => [.setItem i (g i x)]) (q.length + 1) p.length ⟨p ++ q, m⟩ (some p.length) =
        (⟨p ++ q.mapIdx fun i v => g (p.length + i) (target env v), m'⟩, q.map (target env), .done) := by
    intro q
    induction q with
    | nil => intro p m _; exact ⟨m, loop_stop (by simp)⟩
    | cons v q ih =>
      intro p m hr
      have hb : body env ⟨p ++ v :: q, m⟩ [.setItem p.length (g p.length (target env v))] =
          (⟨p ++ g p.length (target env v) :: q, true⟩, none) := by
        rw [body, (C21_change (env := env) (a := p) (b := q) (v := v) (m := m) (i := p.length) ?_ _).1]
        · rfl
        · refine ⟨by simp, .inl ⟨by omega, rfl⟩⟩
      obtain ⟨m', he⟩ := ih (p ++ [g p.length (target env v)]) true fun u hu => hr u (List.mem_cons_of_mem _ hu)
      simp only [List.append_assoc, List.cons_append, List.nil_append, List.length_append, List.length_cons,
        List.length_nil, Nat.zero_add] at he
      refine ⟨m', ?_⟩
      rw [List.length_cons, loop_item (v := v) (by simp) (hr v List.mem_cons_self) hb, he]
      simp [List.mapIdx_cons, Nat.add_assoc, Nat.add_comm 1]
  obtain ⟨m', he⟩ := key l [] m hr
  refine ⟨m', ?_⟩
  simpa using he

/-- C83: without edits the loop over the items is the iteration of C21. -/
theorem C83_quiet {env : Env} {l : List PV} (hr : ∀ v ∈ l, Resolves env v) (m : Bool) :
    loop env (fun _ _ => []) (l.length + 1) 0 ⟨l, m⟩ (some 0) = (⟨l, m⟩, l.map (target env), .done) ∧
    (step env ⟨l, m⟩ .iter).2 = .ok (.vals (l.map (target env))) := by
  refine ⟨?_, by simp only [step, mapM_deref hr]; rfl⟩
  have key : ∀ (q p : List PV) i, (∀ v ∈ q, Resolves env v) →
      loop env (fun _ _ => []) (q.length + 1) i ⟨p ++ q, m⟩ (some p.length) =
        (⟨p ++ q, m⟩, q.map (target env), .done) := by
    intro q
    induction q with
    | nil => intro p i _; exact loop_stop (by simp)
    | cons v q ih =>
      intro p i hr
      have := ih (p ++ [v]) (i + 1) fun u hu => hr u (List.mem_cons_of_mem _ hu)
      simp only [List.append_assoc, List.cons_append, List.nil_append, List.length_append, List.length_cons,
        List.length_nil, Nat.zero_add] at this
      rw [List.length_cons, loop_item (v := v) (by simp) (hr v List.mem_cons_self) rfl, this]
      rfl
  exact key l [] 0 hr

/-- C83: an item that cannot be loaded ends the loop with the exception of the look-up, after the objects before it. -/
theorem C83_unloadable {env : Env} {p q : List PV} {i : Int} {e : Err} (hp : ∀ v ∈ p, Resolves env v) (hi : 0 < i)
    (he : env i = .error e) (m : Bool) (n : Nat) :
    loop env (fun _ _ => []) (p.length + 1 + n) 0 ⟨p ++ .ref i :: q, m⟩ (some 0) =
      (⟨p ++ .ref i :: q, m⟩, p.map (target env), .raised e) := by
  have key : ∀ (r o : List PV) k, (∀ v ∈ r, Resolves env v) →
      loop env (fun _ _ => []) (r.length + 1 + n) k ⟨o ++ (r ++ .ref i :: q), m⟩ (some o.length) =
        (⟨o ++ (r ++ .ref i :: q), m⟩, r.map (target env), .raised e) := by
    intro r
    induction r with
    | nil =>
      intro o k _
      have hd : deref env (.ref i) = .error e := by
        simp only [deref, refValue, if_neg (by omega : ¬ i ≤ 0), he]; rfl
      rw [List.length_nil, Nat.zero_add, Nat.add_comm 1 n, loop]
      simp [next, hd]
    | cons v r ih =>
      intro o k hr
      have := ih (o ++ [v]) (k + 1) fun u hu => hr u (List.mem_cons_of_mem _ hu)
      simp only [List.append_assoc, List.cons_append, List.nil_append, List.length_append, List.length_cons,
        List.length_nil, Nat.zero_add] at this
      rw [List.length_cons, show r.length + 1 + 1 + n = r.length + 1 + n + 1 by omega,
        loop_item (v := v) (by simp) (hr v List.mem_cons_self) rfl]
      rw [List.cons_append, this]
      rfl
  exact key p [] 0 hp

/-! ### The mobs of a bin -/

/-- The mob id of the mob is known. -/
def Known (mobs : Nat → Composition) (m : Option Nat) : Prop := ∃ n i, m = some n ∧ (mobs n).mob_id = some i

theorem addAll_ok (ms : List (Option Nat)) {s : BinFind.St}
    (h : s.dict = [] ∨ ∀ m ∈ ms, Known s.mobs m) :
    ∃ d, addAll s ms = (⟨s.items ++ ms, d, s.mobs⟩, none) ∧ (s.dict = [] → d = []) := by
  induction ms generalizing s with
  | nil => exact ⟨s.dict, by simp [addAll], id⟩
  | cons m ms ih =>
    by_cases hd : s.dict = []
    · obtain ⟨d, he, h0⟩ := ih (s := { s with items := s.items ++ [m] }) (.inl hd)
      refine ⟨d, ?_, fun _ => h0 hd⟩
      simp only [addAll, BinFind.addMob, if_pos hd, he]
      simp
    · have h := h.resolve_left hd
      obtain ⟨n, i, rfl, hi⟩ := h m List.mem_cons_self
      obtain ⟨d, he, h0⟩ := ih (s := { s with items := s.items ++ [some n], dict := BinFind.put i n s.dict })
        (.inr fun m hm => h m (List.mem_cons_of_mem _ hm))
      refine ⟨d, ?_, fun h => (hd h).elim⟩
      simp only [addAll, BinFind.addMob, if_neg hd, BinFind.mobId, hi, he]
      simp

/-- C83: a loop over the mobs of a bin that adds a mob in every round never ends if the bin is not empty; the items given
are those of the bin as it grows. -/
theorem C83_mobs {add : Option Nat → List (Option Nat)} (hne : ∀ m, add m ≠ []) {s : BinFind.St}
    (h : s.dict = [] ∨ ∀ m, ∀ a ∈ add m, Known s.mobs a) (hs : s.items ≠ []) (n : Nat) :
    let r := mobsLoop add n s (some 0)
    r.2.2 = .running ∧ r.2.1 = r.1.items.take n ∧ s.items.length + n ≤ r.1.items.length ∧
      s.items <+: r.1.items := by
  have key : ∀ n k (s : BinFind.St), (s.dict = [] ∨ ∀ m, ∀ a ∈ add m, Known s.mobs a) → k < s.items.length →
      let r := mobsLoop add n s (some k)
      r.2.2 = .running ∧ r.2.1 = (r.1.items.drop k).take n ∧ s.items.length + n ≤ r.1.items.length ∧
        s.items <+: r.1.items := by
    intro n
    induction n with
    | zero => intro k s _ _; exact ⟨rfl, rfl, Nat.le_refl _, List.prefix_rfl⟩
    | succ n ih =>
      intro k s h hk
      have hv := List.getElem?_eq_getElem hk
      obtain ⟨d, he, h0⟩ := addAll_ok (add s.items[k]) (s := s) (h.imp_right fun h => h _)
      simp only [mobsLoop, next, hv, he]
      have hp := List.length_pos_iff.2 (hne s.items[k])
      obtain ⟨h1, h2, h3, h4⟩ := ih (k + 1) ⟨s.items ++ add s.items[k], d, s.mobs⟩
        (h.imp h0 fun h => h) (by simp; omega)
      dsimp only at h1 h2 h3 h4
      rw [List.length_append] at h3
      have hpre := (List.prefix_append s.items (add s.items[k])).trans h4
      refine ⟨h1, ?_, by omega, hpre⟩
      obtain ⟨t, ht⟩ := hpre
      rw [h2, ← ht, List.drop_append_of_le_length (by omega), List.drop_append_of_le_length (by omega),
        List.drop_eq_getElem_cons hk, List.cons_append, List.take_succ_cons]
  exact key n 0 s h (List.length_pos_iff.2 hs)

/-- C83: in a bin that was searched, adding a mob without id raises `AttributeError` out of the loop; the mob is in the
bin nevertheless, and nothing after it was added. -/
theorem C83_mobs_raises {s : BinFind.St} (hd : s.dict ≠ []) {m : Option Nat} {l before after : List (Option Nat)}
    {bad : Option Nat} (hs : s.items = m :: l) (hb : ∀ a ∈ before, Known s.mobs a) (hx : ¬ Known s.mobs bad) (n : Nat) :
    ∃ d, mobsLoop (fun _ => before ++ bad :: after) (n + 1) s (some 0) =
      (⟨s.items ++ before ++ [bad], d, s.mobs⟩, [m], .raised .attribute) := by
  have put_ne : ∀ k j (d : List (MobID × Nat)), BinFind.put k j d ≠ [] := by
    intro k j d
    cases d with
    | nil => exact nofun
    | cons p d => unfold BinFind.put; split <;> exact nofun
  have key : ∀ (before : List (Option Nat)) (s : BinFind.St), s.dict ≠ [] → (∀ a ∈ before, Known s.mobs a) →
      ¬ Known s.mobs bad →
      ∃ d, addAll s (before ++ bad :: after) = (⟨s.items ++ before ++ [bad], d, s.mobs⟩, some .attribute) := by
    intro before
    induction before with
    | nil =>
      intro s hd _ hx
      refine ⟨s.dict, ?_⟩
      have : BinFind.mobId s.mobs bad = .error .attribute := by
        cases bad with
        | none => rfl
        | some n =>
          cases hi : (s.mobs n).mob_id with
          | none => simp only [BinFind.mobId, hi]
          | some i => exact (hx ⟨n, i, rfl, hi⟩).elim
      simp only [List.nil_append, addAll, BinFind.addMob, if_neg hd, this, List.append_nil]
    | cons a before ih =>
      intro s hd hb hx
      obtain ⟨j, i, rfl, hi⟩ := hb a List.mem_cons_self
      obtain ⟨d, he⟩ := ih { s with items := s.items ++ [some j], dict := BinFind.put i j s.dict } (put_ne _ _ _)
        (fun a ha => hb a (List.mem_cons_of_mem _ ha)) hx
      refine ⟨d, ?_⟩
      simp only [List.cons_append, addAll, BinFind.addMob, if_neg hd, BinFind.mobId, hi, he]
      simp
  obtain ⟨d, he⟩ := key before s hd hb hx
  refine ⟨d, ?_⟩
  rw [mobsLoop]
  simp only [next, hs, List.getElem?_cons_zero, he]

/-- C83: with nothing added the loop gives every mob of the bin, once, in order. -/
theorem C83_mobs_quiet (s : BinFind.St) :
    mobsLoop (fun _ => []) (s.items.length + 1) s (some 0) = (s, s.items, .done) := by
  have key : ∀ (q : List (Option Nat)) (k : Nat), s.items.drop k = q →
      mobsLoop (fun _ => []) (q.length + 1) s (some k) = (s, q, .done) := by
    intro q
    induction q with
    | nil =>
      intro k hk
      have := List.drop_eq_nil_iff.1 hk
      simp only [mobsLoop, next, List.getElem?_eq_none this]
    | cons v q ih =>
      intro k hk
      have hk1 : k < s.items.length := by
        by_contra hc
        rw [List.drop_eq_nil_of_le (by omega)] at hk
        cases hk
      rw [List.drop_eq_getElem_cons hk1] at hk
      injection hk with h1 h2
      rw [List.length_cons, mobsLoop]
      simp only [next, List.getElem?_eq_getElem hk1, addAll]
      rw [ih (k + 1) h2, h1]
  exact key s.items 0 rfl

/-! ### Cases -/

/-- C83_terminates: removing and assigning never make a list longer. -/
example (s : RL) (i : Nat) :
    (loop exEnv (fun _ _ => [.delItem 0]) (s.items.length + 1) i s (some 0)).2.2 ≠ .running := by
  refine (C83_terminates (fun _ _ s => ?_) s i).1
  simp only [body, step, list, bind, Except.bind]
  rcases index s.items.length 0 with e | j
  · exact Nat.le_refl _
  · exact List.length_eraseIdx_le _ _

/-- C83_endless: a loop that appends a reference in every round. -/
example (n : Nat) :
    (loop exEnv (fun _ _ => [.append (.ref 1)]) n 0 ⟨[.obj 1, .ref 2], false⟩ (some 0)).2.2 = .running := by
  refine (C83_endless (ops := fun _ _ => [.append (.ref 1)]) (fun i x s => ⟨⟨s.items ++ [.ref 1], true⟩, .ref 1, [], rfl, rfl,
    fun v hv => ?_⟩) (s := ⟨[.obj 1, .ref 2], false⟩) nofun ?_ n 0).1
  · exact List.mem_singleton.1 hv ▸ .inr ⟨1, rfl⟩
  · intro v hv
    rcases List.mem_cons.1 hv with rfl | hv
    · trivial
    · exact List.mem_singleton.1 hv ▸ .inr ⟨2, rfl⟩

example : (loop exEnv (fun _ x => [.append x]) 5 0 ⟨[.ref 1, .ref 2], false⟩ (some 0)).2 =
    ([.obj 1, .obj 2, .obj 1, .obj 2, .obj 1], .running) := by decide +kernel

/-- C83_same. -/
example : loop exEnv (fun _ x => [.insert 0 x]) 3 0 ⟨[.ref 1, .ref 2], false⟩ (some 0) =
    (⟨[.obj 1, .obj 1, .obj 1, .ref 1, .ref 2], true⟩, [.obj 1, .obj 1, .obj 1], .running) := by rfl

/-- C83_pop. -/
example : loop exEnv (fun _ _ => [.pop 0]) 6 0 ⟨[.ref 1, .ref 2, .int 3, .ref 4, .ref 5], false⟩ (some 0) =
    (⟨[.ref 4, .ref 5], true⟩, [.obj 1, .obj 3, .obj 5], .done) := by rfl

/-- C83_remove. -/
example : loop exEnv (fun _ x => [.remove x]) 6 0 ⟨[.obj 1, .obj 2, .obj 3, .obj 4, .obj 5], false⟩ (some 0) =
    (⟨[.obj 2, .obj 4], true⟩, [.obj 1, .obj 3, .obj 5], .done) := by rfl

example : (∀ v ∈ [PV.obj 1, .obj 2, .obj 3], ∃ o, v = .obj o) ∧ [PV.obj 1, .obj 2, .obj 3].Nodup :=
  ⟨by simp, by decide⟩

/-- C83_remove_refs. -/
example : loop exEnv (fun _ x => [.remove x]) 3 0 ⟨[.ref 1, .ref 2], false⟩ (some 0) =
    (⟨[.ref 1, .ref 2], false⟩, [.obj 1], .raised .value) :=
  C83_remove_refs (v := .ref 1) (.inr ⟨1, rfl⟩) rfl (by decide) false 2

/-- C83_replace. -/
example : loop exEnv (fun i x => [.setItem i (if x = .obj 2 then .obj 9 else x)]) 4 0
    ⟨[.ref 1, .ref 2, .int 0], false⟩ (some 0) =
    (⟨[.obj 1, .obj 9, .none], true⟩, [.obj 1, .obj 2, .none], .done) := by rfl

/-- C83_quiet: a list with references, a raw id and a null reference. -/
example : loop exEnv (fun _ _ => []) 4 0 ⟨[.ref 1, .int 2, .ref 0], false⟩ (some 0) =
    (⟨[.ref 1, .int 2, .ref 0], false⟩, [.obj 1, .obj 2, .none], .done) :=
  (C83_quiet (env := exEnv) (l := [.ref 1, .int 2, .ref 0]) (by
    intro v hv
    simp only [List.mem_cons, List.not_mem_nil, or_false] at hv
    rcases hv with rfl | rfl | rfl
    · exact .inr ⟨1, rfl⟩
    · exact .inr ⟨2, rfl⟩
    · exact .inl (by decide)) false).1

/-- C83_mobs: a bin of two mobs, looked up never before, in which the loop adds a copy of every mob. -/
example (mobs : Nat → Composition) (n : Nat) :
    (mobsLoop (fun m => [m.map (· + 10)]) n ⟨[some 1, some 2], [], mobs⟩ (some 0)).2.2 = .running :=
  (C83_mobs (add := fun m => [m.map (· + 10)]) (fun _ => nofun) (s := ⟨[some 1, some 2], [], mobs⟩) (.inl rfl) nofun
    n).1

example (mobs : Nat → Composition) :
    (mobsLoop (fun m => [m.map (· + 10)]) 3 ⟨[some 1, some 2], [], mobs⟩ (some 0)).2.1 =
      [some 1, some 2, some 11] := rfl

/-- C83_unloadable. -/
example : loop exEnv (fun _ _ => []) 3 0 ⟨[.ref 1, .ref 10, .ref 2], false⟩ (some 0) =
    (⟨[.ref 1, .ref 10, .ref 2], false⟩, [.obj 1], .raised .key) :=
  C83_unloadable (p := [.ref 1]) (by
    intro v hv
    rw [List.mem_singleton.1 hv]
    exact .inr ⟨1, rfl⟩) (by decide) rfl false 1

/-- C83_mobs_raises: a bin that knows the mob 1, into which the loop puts 2, which has an id, and then nothing. -/
example : ∃ d, mobsLoop (fun _ => [some 2, none]) 1 ⟨[some 1], [(MobID.zero, 1)], BinFind.exMobs⟩ (some 0) =
    (⟨[some 1, some 2, none], d, BinFind.exMobs⟩, [some 1], .raised .attribute) :=
  C83_mobs_raises (s := ⟨[some 1], [(MobID.zero, 1)], BinFind.exMobs⟩) (before := [some 2]) (bad := none) (after := [])
    nofun rfl (by
      intro a ha
      rw [List.mem_singleton.1 ha]
      exact ⟨2, _, rfl, rfl⟩) (by rintro ⟨_, _, h, _⟩; cases h) 0

/-- C83_mobs_quiet. -/
example (mobs : Nat → Composition) :
    mobsLoop (fun _ => []) 4 ⟨[some 1, none, some 2], [], mobs⟩ (some 0) =
      (⟨[some 1, none, some 2], [], mobs⟩, [some 1, none, some 2], .done) :=
  C83_mobs_quiet ⟨[some 1, none, some 2], [], mobs⟩

end Avb.IterEdit

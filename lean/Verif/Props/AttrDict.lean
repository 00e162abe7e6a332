import Verif.Model.AttrDict
import Verif.Lemmas.Resave

/-!
C22: attribute sets as insertion-ordered dictionaries, and over a save.
-/
namespace Avb.AttrDict

/-- An insertion-ordered dictionary: the keys in order of their first insertion, and the values. -/
structure Dict where
  order : List Text
  val : Text → Option AttrVal

/-- What the calls do to an insertion-ordered dictionary. -/
def Dict.step (d : Dict) : Op → Except Err (Dict × Res)
  | .set k v => .ok (⟨if k ∈ d.order then d.order else d.order ++ [k],
      fun k' => if k' = k then some v else d.val k'⟩, .done)
  | .del k =>
    if k ∈ d.order then .ok (⟨d.order.filter (· ≠ k), fun k' => if k' = k then none else d.val k'⟩, .done)
    else .error .key
  | .get k => match d.val k with
    | some v => .ok (d, .val v)
    | none => .error .key
  | .getD k v => .ok (d, .val ((d.val k).getD v))
  | .pop k v => match d.val k, v with
    | some v, _ => .ok (⟨d.order.filter (· ≠ k), fun k' => if k' = k then none else d.val k'⟩, .val v)
    | none, some v => .ok (d, .val v)
    | none, none => .error .key
  | .contains k => .ok (d, .bool (decide (k ∈ d.order)))
  | .len => .ok (d, .num d.order.length)
  | .keys => .ok (d, .keys d.order)
  | .items => .ok (d, .items (d.order.filterMap fun k => (d.val k).map fun v => (k, v)))
  | .clear => .ok (⟨[], fun _ => none⟩, .done)

/-- A sequence of calls. -/
def Dict.run (d : Dict) : List Op → Dict × List (Except Err Res)
  | [] => (d, [])
  | op :: ops =>
    match d.step op with
    | .ok (d1, r) => ((d1.run ops).1, .ok r :: (d1.run ops).2)
    | .error e => ((d.run ops).1, .error e :: (d.run ops).2)

/-- The dictionary a list of items stands for. -/
def toDict (l : List (Text × AttrVal)) : Dict := ⟨l.map (·.1), find l⟩

variable {l : List (Text × AttrVal)}

theorem find_isSome {k : Text} : (find l k).isSome = decide (k ∈ l.map (·.1)) := by
  induction l with
  | nil => rfl
  | cons p l ih =>
    simp only [find, List.map_cons, List.mem_cons]
    by_cases h : p.1 = k
    · simp [h]
    · rw [if_neg h, ih]; simp [Ne.symm h]

theorem find_none {k : Text} : find l k = none ↔ k ∉ l.map (·.1) := by
  have := find_isSome (l := l) (k := k)
  rw [← Option.not_isSome_iff_eq_none, this]; simp

theorem dictSet_keys {k : Text} {v : AttrVal} : (dictSet l k v).map (·.1) =
    if k ∈ l.map (·.1) then l.map (·.1) else l.map (·.1) ++ [k] := by
  induction l with
  | nil => rfl
  | cons p l ih =>
    simp only [dictSet]
    by_cases h : p.1 = k
    · simp [h]
    · rw [if_neg h, List.map_cons, ih, List.map_cons]
      simp only [List.mem_cons, Ne.symm h, false_or]
      split <;> rfl

theorem dictSet_find {k k' : Text} {v : AttrVal} :
    find (dictSet l k v) k' = if k' = k then some v else find l k' := by
  induction l with
  | nil => simp only [dictSet, find]; by_cases h : k = k' <;> simp [h, eq_comm]
  | cons p l ih =>
    simp only [dictSet]
    by_cases h : p.1 = k
    · rw [if_pos h]
      simp only [find]
      by_cases h' : k = k'
      · simp [h']
      · rw [if_neg h', if_neg (Ne.symm h'), if_neg (by rw [h]; exact h')]
    · rw [if_neg h]
      simp only [find, ih]
      by_cases h' : p.1 = k'
      · rw [if_pos h', if_pos h', if_neg (fun e => h (h'.trans e))]
      · rw [if_neg h', if_neg h']

theorem remove_keys {k : Text} (hn : (l.map (·.1)).Nodup) :
    (remove l k).map (·.1) = (l.map (·.1)).filter (· ≠ k) := by
  induction l with
  | nil => rfl
  | cons p l ih =>
    rw [List.map_cons, List.nodup_cons] at hn
    simp only [remove]
    by_cases h : p.1 = k
    · rw [if_pos h, List.map_cons, List.filter_cons_of_neg (by simpa using h)]
      rw [List.filter_eq_self.2]
      intro a ha
      simp only [ne_eq, decide_eq_true_eq]
      intro e
      subst e
      exact hn.1 (h ▸ ha)
    · rw [if_neg h, List.map_cons, List.map_cons, List.filter_cons_of_pos (by simpa using h), ih hn.2]

theorem remove_find {k k' : Text} (hn : (l.map (·.1)).Nodup) :
    find (remove l k) k' = if k' = k then none else find l k' := by
  induction l with
  | nil => simp [remove, find]
  | cons p l ih =>
    rw [List.map_cons, List.nodup_cons] at hn
    simp only [remove]
    by_cases h : p.1 = k
    · rw [if_pos h]
      by_cases h' : k' = k
      · rw [if_pos h', find_none]
        subst h'
        exact h ▸ hn.1
      · rw [if_neg h']
        simp only [find]
        rw [if_neg (by rw [h]; exact Ne.symm h')]
    · rw [if_neg h]
      simp only [find, ih hn.2]
      by_cases h' : p.1 = k'
      · rw [if_pos h', if_pos h', if_neg (fun e => h (h'.trans e))]
      · rw [if_neg h', if_neg h']

theorem items_eq (hn : (l.map (·.1)).Nodup) :
    (l.map (·.1)).filterMap (fun k => (find l k).map fun v => (k, v)) = l := by
  induction l with
  | nil => rfl
  | cons p l ih =>
    rw [List.map_cons, List.nodup_cons] at hn
    rw [List.map_cons, List.filterMap_cons]
    simp only [find, if_true, Option.map_some]
    congr 1
    conv => rhs; rw [← ih hn.2]
    have : ∀ ks : List Text, (∀ k ∈ ks, p.1 ≠ k) →
        ks.filterMap (fun k => (if p.1 = k then some p.2 else find l k).map fun v => (k, v)) =
        ks.filterMap (fun k => (find l k).map fun v => (k, v)) := by
      intro ks
      induction ks with
      | nil => intro _; rfl
      | cons k ks ih =>
        intro h
        rw [List.filterMap_cons, List.filterMap_cons, ih (fun k hk => h k (List.mem_cons_of_mem _ hk)),
          if_neg (h k List.mem_cons_self)]
    exact this _ (fun k hk e => hn.1 (e ▸ hk))

theorem dict_ext {a b : Dict} (h1 : a.order = b.order) (h2 : ∀ k, a.val k = b.val k) : a = b := by
  cases a; cases b
  simp only [Dict.mk.injEq]
  exact ⟨h1, funext h2⟩

theorem step_dict (hn : (l.map (·.1)).Nodup) (op : Op) :
    match step l op with
    | .ok (l', r) => (toDict l).step op = .ok (toDict l', r) ∧ (l'.map (·.1)).Nodup
    | .error e => (toDict l).step op = .error e := by
  have hrem : ∀ k, toDict (remove l k) = ⟨(toDict l).order.filter (· ≠ k),
      fun k' => if k' = k then none else (toDict l).val k'⟩ := fun k =>
    dict_ext (remove_keys hn) (fun k' => remove_find hn)
  have hnr : ∀ k, ((remove l k).map (·.1)).Nodup := fun k => by
    rw [remove_keys hn]; exact hn.filter _
  cases op with
  | set k v =>
    refine ⟨?_, ?_⟩
    · show Except.ok (_, _) = Except.ok (_, _)
      rw [dict_ext (a := toDict (dictSet l k v)) (b := ⟨if k ∈ (toDict l).order then (toDict l).order
        else (toDict l).order ++ [k], fun k' => if k' = k then some v else (toDict l).val k'⟩)
        dictSet_keys (fun k' => dictSet_find)]
    · rw [dictSet_keys]
      split
      · exact hn
      · rename_i h
        exact List.nodup_append.2 ⟨hn, by simp, by
          intro a ha b hb
          rw [List.mem_singleton] at hb
          subst hb
          intro e; exact h (e ▸ ha)⟩
  | del k =>
    simp only [step, Dict.step, find_isSome, decide_eq_true_eq]
    by_cases h : k ∈ l.map (·.1)
    · rw [if_pos h, if_pos (show k ∈ (toDict l).order from h)]
      exact ⟨by rw [hrem], hnr k⟩
    · rw [if_neg h, if_neg (show k ∉ (toDict l).order from h)]
  | get k =>
    simp only [step, Dict.step, toDict]
    rcases find l k with _ | v
    · rfl
    · exact ⟨rfl, hn⟩
  | getD k v => exact ⟨rfl, hn⟩
  | pop k v =>
    simp only [step, Dict.step]
    rw [show (toDict l).val k = find l k from rfl]
    rcases find l k with _ | w
    · cases v with
      | none => rfl
      | some v => exact ⟨rfl, hn⟩
    · exact ⟨by rw [hrem], hnr k⟩
  | contains k =>
    refine ⟨?_, hn⟩
    simp only [Dict.step, find_isSome]; rfl
  | len =>
    refine ⟨?_, hn⟩
    simp only [Dict.step, toDict, List.length_map]
  | keys => exact ⟨rfl, hn⟩
  | items =>
    refine ⟨?_, hn⟩
    simp only [Dict.step]
    rw [show (toDict l).order = l.map (·.1) from rfl, show (toDict l).val = find l from rfl, items_eq hn]
  | clear => exact ⟨rfl, List.nodup_nil⟩

/-- C22: any sequence of calls on an attribute set gives call by call the same results and exceptions
as on an insertion-ordered dictionary, and leaves the same keys in the same order with the same
values. -/
theorem C22_dict (ops : List Op) (hn : (l.map (·.1)).Nodup) :
    (toDict l).run ops = (toDict (run l ops).1, (run l ops).2) ∧ ((run l ops).1.map (·.1)).Nodup := by
  induction ops generalizing l with
  | nil => exact ⟨rfl, hn⟩
  | cons op ops ih =>
    have h := step_dict hn op
    simp only [run, Dict.run]
    rcases hs : step l op with e | ⟨l', r⟩
    · rw [hs] at h
      dsimp only at h
      rw [h]
      obtain ⟨h1, h2⟩ := ih hn
      exact ⟨by simp only [h1], h2⟩
    · rw [hs] at h
      obtain ⟨h0, hn'⟩ := h
      rw [h0]
      obtain ⟨h1, h2⟩ := ih hn'
      exact ⟨by simp only [h1], h2⟩

/-- C22: every set that can be made from the empty one, or read from a file, has each key once; so
`C22_dict` applies to it. -/
theorem C22_read {d : RCtx} {bs rest : Bytes} {x : Attributes} (h : Attributes.read d bs = .ok (x, rest)) :
    (x.items.map (·.1)).Nodup := by
  have key : ∀ (m l : List (Text × AttrVal)), (l.map (·.1)).Nodup →
      ((m.foldl (fun l p => dictSet l p.1 p.2) l).map (·.1)).Nodup := by
    intro m
    induction m with
    | nil => exact fun l h => h
    | cons p m ih =>
      intro l h
      exact ih _ (step_dict h (.set p.1 p.2)).2
  unfold Attributes.read at h
  obtain ⟨_, b1, _, h⟩ := Rd.bind_eq_ok h
  obtain ⟨_, b2, _, h⟩ := Rd.bind_eq_ok h
  obtain ⟨n, b3, _, h⟩ := Rd.bind_eq_ok h
  obtain ⟨items, b4, _, h⟩ := Rd.bind_eq_ok h
  obtain ⟨_, b5, _, h⟩ := Rd.bind_eq_ok h
  cases h
  exact key _ [] List.nodup_nil

/-- An attribute value in the saved file: objects are references to the chunks they were saved in. -/
def savedVal (c : WCtx) : AttrVal → AttrVal
  | .obj r => .obj (if r = 0 then 0 else (c.refMap r).getD 0)
  | v => v

/-- Neither the first nor the last character of the text is a NUL. -/
def NoOuterNul (t : Text) : Prop := t.head? ≠ some '\x00' ∧ t.getLast? ≠ some '\x00'

theorem NoOuterNul.strip {t : Text} (h : NoOuterNul t) : stripText t = t := by
  have key : ∀ l : Text, l.head? ≠ some '\x00' → l.dropWhile (· == '\x00') = l := by
    intro l hl
    cases l with
    | nil => rfl
    | cons a l =>
      rw [List.dropWhile_cons_of_neg]
      simpa using hl
  unfold stripText
  rw [key t h.1, key _ (by rw [List.head?_reverse]; exact h.2), List.reverse_reverse]

/-- C22: if saving the set succeeds, loading it gives the same keys in the same order with the same
values (objects replaced by their chunks), provided no name or text begins or ends with a NUL or
fills 65535 bytes. -/
theorem C22_saved {c : WCtx} {d : RCtx} (h : Linked c d) {x : Attributes} (hn : (x.items.map (·.1)).Nodup)
    (hl : ∀ p ∈ x.items, TextOK .macroman p.1 ∧ NoOuterNul p.1)
    (hv : ∀ p ∈ x.items, ∀ t, p.2 = .str t → TextOK .macroman t ∧ NoOuterNul t)
    {bs : Bytes} (hw : x.write c = .ok ((), bs)) (rest : Bytes) :
    Attributes.read d (bs ++ rest) = .ok (⟨x.items.map fun p => (p.1, savedVal c p.2)⟩, rest) := by
  have ht : TextsOK x.texts := by
    intro q hq
    obtain ⟨p, hp, hq⟩ := List.mem_flatMap.1 hq
    rcases List.mem_cons.1 hq with rfl | hq
    · exact (hl p hp).1
    · cases hpv : p.2 with
      | str t => rw [hpv] at hq; simp only [AttrVal.texts, List.mem_singleton] at hq; subst hq
                 exact (hv p hp t hpv).1
      | _ => rw [hpv] at hq; simp [AttrVal.texts] at hq
  have hs : Stripped x.texts := by
    intro q hq
    obtain ⟨p, hp, hq⟩ := List.mem_flatMap.1 hq
    rcases List.mem_cons.1 hq with rfl | hq
    · exact (hl p hp).2.strip
    · cases hpv : p.2 with
      | str t => rw [hpv] at hq; simp only [AttrVal.texts, List.mem_singleton] at hq; subst hq
                 exact (hv p hp t hpv).2.strip
      | _ => rw [hpv] at hq; simp [AttrVal.texts] at hq
  rw [Attributes.rt h ht bs hw rest trivial]
  have e : x.norm c = ⟨x.items.map fun p => (p.1, savedVal c p.2)⟩ := by
    have := Attributes.norm_items (c := c) hs hn
    rw [show x.norm c = ⟨(x.norm c).items⟩ from rfl, this]
    congr 1
    refine List.map_congr_left fun p hp => ?_
    unfold Attributes.normItem
    rw [(hl p hp).2.strip]
    congr 1
    cases hpv : p.2 with
    | str t => simp only [AttrVal.norm, savedVal, (hv p hp t hpv).2.strip]
    | _ => rfl
  rw [e]

/-- C22: a set with a value of an unsupported type (`bytes`) is refused on save. -/
theorem C22_refused {c : WCtx} {x : Attributes} {k : Text} {b : Bytes} (h : (k, .raw b) ∈ x.items) :
    ∃ e, x.write c = .error e := by
  have key : ∀ l : List (Text × AttrVal), (k, .raw b) ∈ l →
      ∀ o, forW l (Attributes.writeItem c) ≠ .ok o := by
    intro l
    induction l with
    | nil => intro h; cases h
    | cons p l ih =>
      intro h ⟨u, o⟩ he
      obtain ⟨_, o1, o2, e1, e2, rfl⟩ := Wr.bind_eq_ok he
      rcases List.mem_cons.1 h with rfl | h
      · cases e1
      · exact ih h _ e2
  rcases hw : x.write c with e | ⟨u, o⟩
  · exact ⟨e, rfl⟩
  · exfalso
    unfold Attributes.write at hw
    obtain ⟨_, _, _, _, h1, _⟩ := Wr.bind_eq_ok hw
    obtain ⟨_, _, _, _, h2, _⟩ := Wr.bind_eq_ok h1
    obtain ⟨_, _, _, _, h3, _⟩ := Wr.bind_eq_ok h2
    obtain ⟨_, _, _, h4, _, _⟩ := Wr.bind_eq_ok h3
    exact key _ h _ h4

/-- C22: names that differ only in outer NULs become one: the place of the first, the value of the
last. -/
theorem C22_collision : ∃ (c : WCtx) (d : RCtx) (x : Attributes) (bs : Bytes), Linked c d ∧
    (x.items.map (·.1)).Nodup ∧ x.write c = .ok ((), bs) ∧ x.items.length = 3 ∧
    Attributes.read d bs = .ok (⟨[("a".toList, .int 3), ("b".toList, .int 2)]⟩, []) := by
  refine ⟨⟨.little, fun _ => none⟩, ⟨.little, 1⟩,
    ⟨[("a".toList, .int 1), ("b".toList, .int 2), ("a\x00".toList, .int 3)]⟩, _,
    ⟨rfl, by decide, by simp⟩, by decide, rfl, rfl, ?_⟩
  have h := Attributes.rt (c := ⟨.little, fun _ => none⟩) (d := ⟨.little, 1⟩)
    (x := ⟨[("a".toList, .int 1), ("b".toList, .int 2), ("a\x00".toList, .int 3)]⟩)
    ⟨rfl, by decide, by simp⟩ ?_ _ rfl [] trivial
  · rw [List.append_nil] at h
    rw [h]
    have : Attributes.norm ⟨.little, fun _ => none⟩
        ⟨[("a".toList, .int 1), ("b".toList, .int 2), ("a\x00".toList, .int 3)]⟩ =
        ⟨[("a".toList, .int 3), ("b".toList, .int 2)]⟩ := by decide +kernel
    rw [this]
  · intro q hq d hd
    simp only [Attributes.texts, AttrVal.texts, List.flatMap_cons, List.flatMap_nil, List.append_nil,
      List.cons_append, List.nil_append, List.mem_cons, List.not_mem_nil, or_false] at hq
    rcases hq with rfl | rfl | rfl <;> (cases hd; decide)

example : run [] [.set "x".toList (.int 1), .set "y".toList (.str "t".toList), .set "x".toList (.int 2),
      .del "z".toList, .keys, .pop "x".toList none, .set "x".toList (.int 5), .keys] =
    ([("y".toList, .str "t".toList), ("x".toList, .int 5)],
      [.ok .done, .ok .done, .ok .done, .error .key, .ok (.keys ["x".toList, "y".toList]),
       .ok (.val (.int 2)), .ok .done, .ok (.keys ["y".toList, "x".toList])]) := by rfl

example : Linked ⟨.big, fun r => if r = 7 then some 1 else none⟩ ⟨.big, 2⟩ ∧
    NoOuterNul "_USER".toList ∧ ∃ bs, Attributes.write ⟨.big, fun r => if r = 7 then some 1 else none⟩
      ⟨[("_USER".toList, .obj 7), ("n".toList, .str "v".toList)]⟩ = .ok ((), bs) := by
  refine ⟨⟨rfl, by decide, ?_⟩, ⟨by decide +kernel, by decide +kernel⟩, _, rfl⟩
  intro i k h
  dsimp only at h
  split at h
  · cases h; decide
  · cases h

/-- Bytes as a value are refused, whatever the other values are. -/
example : ∃ e, Attributes.write ⟨.big, fun _ => none⟩ ⟨[("n".toList, .int 1), ("_USER".toList, .raw [1, 2])]⟩ = .error e :=
  C22_refused (k := "_USER".toList) (b := [1, 2]) (by simp)

/-- C22_saved, C22_read: a set with a reference, a number and a text, written and read; the reference gets its new number. -/
example : ∃ bs, Attributes.write ⟨.big, fun r => if r = 7 then some 1 else none⟩
      ⟨[("_USER".toList, .obj 7), ("n".toList, .str "v".toList)]⟩ = .ok ((), bs) ∧
    Attributes.read ⟨.big, 2⟩ bs = .ok (⟨[("_USER".toList, .obj 1), ("n".toList, .str "v".toList)]⟩, []) := by
  have hl : Linked ⟨.big, fun r => if r = 7 then some 1 else none⟩ ⟨.big, 2⟩ := by
    refine ⟨rfl, by decide, fun i k h => ?_⟩
    dsimp only at h
    split at h
    · cases h; decide
    · cases h
  refine ⟨_, rfl, ?_⟩
  have := C22_saved hl (x := ⟨[("_USER".toList, .obj 7), ("n".toList, .str "v".toList)]⟩) (by decide)
    (by
      intro p hp
      simp only [List.mem_cons, List.not_mem_nil, or_false] at hp
      rcases hp with rfl | rfl <;> refine ⟨fun d hd => ?_, by decide +kernel, by decide +kernel⟩ <;> cases hd <;> decide)
    (by
      intro p hp t ht
      simp only [List.mem_cons, List.not_mem_nil, or_false] at hp
      rcases hp with rfl | rfl
      · cases ht
      · cases ht
        refine ⟨fun d hd => ?_, by decide +kernel, by decide +kernel⟩
        cases hd
        decide) rfl []
  rw [List.append_nil] at this
  exact this

end Avb.AttrDict

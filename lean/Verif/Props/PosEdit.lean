import Verif.Model.PosEdit

/-!
C85: `Sequence.positions` while the sequence is edited.
-/
namespace Avb.PosEdit

/-! ### Specification -/

/-- The length of a component that has one. -/
def Seq.L (s : Seq) (c : Nat) : Int := (s.len c).getD 0

/-- What the j-th component adds to the positions after it: a transition takes off the length it has when it is given,
any other component adds the length it has when the next one is asked for. -/
def gain (trans : Nat → Bool) (st : Nat → Seq) (c : Nat → Nat) (j : Nat) : Int :=
  if trans (c j) then -(st j).L (c j) else (st (j + 1)).L (c j)

/-- How far a component begins before the end of the ones before it. -/
def overlap (trans : Nat → Bool) (len : Nat → Int) (c : Nat) : Int := if trans c then len c else 0

/-- The position of the i-th component of a sequence with these lengths: the lengths before it, those of transitions
negative, less its own if it is a transition. -/
def place (trans : Nat → Bool) (len : Nat → Int) (cs : List Nat) (i : Nat) : Int :=
  ((cs.take i).map fun c => if trans c then -len c else len c).sum -
    match cs[i]? with
    | some c => overlap trans len c
    | none => 0

/-- Up to the n-th request there were components, with the lengths that are needed. -/
structure Given (trans : Nat → Bool) (st : Nat → Seq) (c : Nat → Nat) (n : Nat) : Prop where
  items : ∀ j < n, (st j).items[j]? = some (some (c j))
  effect : ∀ j < n, trans (c j) = true → ((st j).len (c j)).isSome
  clip : ∀ j < n, trans (c j) = false → ((st (j + 1)).len (c j)).isSome

/-! ### Any history -/

theorem len_L {s : Seq} {c : Nat} (h : (s.len c).isSome) : s.len c = some (s.L c) := by
  obtain ⟨l, hl⟩ := Option.isSome_iff_exists.1 h
  simp [Seq.L, hl]

theorem after_given {trans : Nat → Bool} {st : Nat → Seq} {c : Nat → Nat} (n : Nat) (h : Given trans st c n) :
    ∃ g, after trans st n = some g ∧ g.k = n ∧
      resume (st n) g = some ((List.range n).map (gain trans st c)).sum := by
  induction n with
  | zero => exact ⟨_, rfl, rfl, rfl⟩
  | succ n ih =>
    obtain ⟨g, h1, h2, h3⟩ := ih ⟨fun j hj => h.items j (by omega), fun j hj => h.effect j (by omega),
      fun j hj => h.clip j (by omega)⟩
    have hi := h.items n (by omega)
    have hc := h.clip n (by omega)
    have ht := h.effect n (by omega)
    simp only [after, h1, next, h3, h2, hi, List.range_succ, List.map_append, List.map_cons, List.map_nil, List.sum_append,
      List.sum_cons, List.sum_nil]
    cases htr : trans (c n) with
    | true =>
      simp only [if_true, len_L (ht htr)]
      refine ⟨_, rfl, rfl, ?_⟩
      simp only [resume, gain, htr, if_true]
      congr 1; omega
    | false =>
      simp only [Bool.false_eq_true, if_false]
      refine ⟨_, rfl, rfl, ?_⟩
      simp only [resume, len_L (hc htr), gain, htr, Bool.false_eq_true, if_false, Option.map_some]
      congr 1; omega

/-- C85: whatever is done to the sequence between the steps, the n-th step gives the component that is then at index n, and
as position what the components given before add up to, each with the length it had at its moment. -/
theorem C85_positions {trans : Nat → Bool} {st : Nat → Seq} {c : Nat → Nat} {n : Nat} (h : Given trans st c n)
    (hi : (st n).items[n]? = some (some (c n))) (ht : trans (c n) = true → ((st n).len (c n)).isSome) :
    out trans st n = .at n (((List.range n).map (gain trans st c)).sum - overlap trans (st n).L (c n)) (c n) := by
  obtain ⟨g, h1, h2, h3⟩ := after_given n h
  simp only [out, h1, next, h3, h2, hi, overlap]
  cases htr : trans (c n) with
  | true => simp only [if_true, len_L (ht htr)]
  | false => simp only [Bool.false_eq_true, if_false, Int.sub_zero]

/-- C85: it ends when there is no component at the index, also if the sequence was shorter or longer before. -/
theorem C85_ends {trans : Nat → Bool} {st : Nat → Seq} {c : Nat → Nat} {n : Nat} (h : Given trans st c n)
    (hi : (st n).items.length ≤ n) : out trans st n = .stop := by
  obtain ⟨g, h1, h2, h3⟩ := after_given n h
  simp only [out, h1, next, h3, h2, List.getElem?_eq_none hi]

/-- C85: it raises if the component is null, or a transition without length, -/
theorem C85_raises {trans : Nat → Bool} {st : Nat → Seq} {c : Nat → Nat} {n : Nat} (h : Given trans st c n)
    (hi : (st n).items[n]? = some none ∨ ∃ t, (st n).items[n]? = some (some t) ∧ trans t = true ∧ (st n).len t = none) :
    out trans st n = .raised := by
  obtain ⟨g, h1, h2, h3⟩ := after_given n h
  rcases hi with hi | ⟨t, hi, ht, hl⟩
  · simp only [out, h1, next, h3, h2, hi]
  · simp only [out, h1, next, h3, h2, hi, ht, if_true, hl]

/-- C85: and if the component given before, which is no transition, has no length when the next one is asked for; it
was given nevertheless. -/
theorem C85_late {trans : Nat → Bool} {st : Nat → Seq} {c : Nat → Nat} {n : Nat} (h : Given trans st c n)
    (hi : (st n).items[n]? = some (some (c n))) (ht : trans (c n) = false) (hl : (st (n + 1)).len (c n) = none) :
    out trans st n = .at n ((List.range n).map (gain trans st c)).sum (c n) ∧ out trans st (n + 1) = .raised := by
  obtain ⟨g, h1, h2, h3⟩ := after_given n h
  refine ⟨?_, ?_⟩
  · simp only [out, h1, next, h3, h2, hi, ht, Bool.false_eq_true, if_false]
  · have e : after trans st (n + 1) = some ⟨n + 1, ((List.range n).map (gain trans st c)).sum, some (c n)⟩ := by
      simp only [after, h1, next, h3, h2, hi, ht, Bool.false_eq_true, if_false]
    simp only [out, e, next, resume, hl, Option.map_none]

/-- C85: after the end or an exception nothing more is given, even if components are added. -/
theorem C85_ended {trans : Nat → Bool} {st : Nat → Seq} {n : Nat}
    (h : out trans st n = .stop ∨ out trans st n = .raised) (m : Nat) (hm : n < m) : out trans st m = .stop := by
  have dead : after trans st (n + 1) = none := by
    rw [after]
    have key : ∀ g, (next trans (st n) g).2 = .stop ∨ (next trans (st n) g).2 = .raised → (next trans (st n) g).1 = none := by
      intro g hg
      cases g with
      | none => rfl
      | some g =>
        simp only [next] at hg ⊢
        split
        · rfl
        · rename_i l hl
          rw [hl] at hg
          dsimp only at hg
          split
          · rfl
          · rfl
          · rename_i c hc
            rw [hc] at hg
            dsimp only at hg
            split
            · rename_i ht
              rw [if_pos ht] at hg
              split
              · rfl
              · rename_i l' hl'
                rw [hl'] at hg
                rcases hg with hg | hg <;> cases hg
            · rename_i ht
              rw [if_neg ht] at hg
              rcases hg with hg | hg <;> cases hg
    exact key _ h
  have stay : ∀ k, after trans st (n + 1 + k) = none := by
    intro k
    induction k with
    | zero => exact dead
    | succ k ih => rw [← Nat.add_assoc, after, ih]; rfl
  have := stay (m - (n + 1))
  rw [show n + 1 + (m - (n + 1)) = m by omega] at this
  rw [out, this]
  rfl

/-! ### Setting lengths in the loop -/

theorem place_zero (trans : Nat → Bool) (len : Nat → Int) (c : Nat) (cs : List Nat) :
    place trans len (c :: cs) 0 = -overlap trans len c := by
  simp [place]

theorem place_succ (trans : Nat → Bool) (len : Nat → Int) (c : Nat) (cs : List Nat) (i : Nat) :
    place trans len (c :: cs) (i + 1) = (if trans c then -len c else len c) + place trans len cs i := by
  simp only [place, List.take_succ_cons, List.map_cons, List.sum_cons, List.getElem?_cons_succ]
  omega

theorem loop_from {trans : Nat → Bool} {set : Nat → Int → Nat → Option Int}
    (hset : ∀ i p c, trans c = true → set i p c = none) (suf : List Nat) :
    ∀ (pre : List Nat) (s : Seq) (g : Gen) (T : Int), s.items = (pre ++ suf).map some → suf.Nodup →
      (∀ c ∈ suf, (s.len c).isSome) → g.k = pre.length → resume s g = some T →
      ∃ s' outs, loop trans set (suf.length + 1) s (some g) = (s', outs, true) ∧ s'.items = s.items ∧
        (∀ d, d ∉ suf → s'.len d = s.len d) ∧ outs.length = suf.length ∧
        ∀ i c, suf[i]? = some c →
          outs[i]? = some (.at (pre.length + i) (T + place trans s'.L suf i) c) ∧
          s'.len c = (set (pre.length + i) (T + place trans s'.L suf i) c).or (s.len c) := by
  induction suf with
  | nil =>
    intro pre s g T hi _ _ hk hr
    refine ⟨s, [], ?_, rfl, fun _ _ => rfl, rfl, fun i c hc => by simp at hc⟩
    have : s.items[g.k]? = none := by
      rw [hi, hk]
      simp
    simp only [loop, next, hr, this]
  | cons c suf ih =>
    intro pre s g T hi hn hl hk hr
    have hc : s.items[g.k]? = some (some c) := by
      rw [hi, hk]
      simp
    have hnc := (List.nodup_cons.1 hn).1
    have hns := (List.nodup_cons.1 hn).2
    have hlc := len_L (hl c List.mem_cons_self)
    cases ht : trans c with
    | true =>
      obtain ⟨s', outs, h1, h2, h3, h4, h5⟩ := ih (pre ++ [c]) s ⟨g.k + 1, T - s.L c, none⟩ (T - s.L c) (by rw [hi]; simp) hns
        (fun d hd => hl d (List.mem_cons_of_mem _ hd)) (by simp [hk]) rfl
      have hs : s'.L c = s.L c := by simp only [Seq.L, h3 c hnc]
      refine ⟨s', .at g.k (T - s.L c) c :: outs, ?_, h2, fun d hd => h3 d fun hm => hd (List.mem_cons_of_mem _ hm),
        by simp [h4], ?_⟩
      · rw [List.length_cons, loop]
        simp only [next, hr, hc, ht, if_true, hlc, hset _ _ c ht]
        rw [h1]
      · intro i d hd
        cases i with
        | zero =>
          simp only [List.getElem?_cons_zero, Option.some.injEq] at hd
          subst hd
          rw [place_zero, overlap, if_pos ht, hs, hset _ _ _ ht, List.getElem?_cons_zero, Nat.add_zero, hk]
          exact ⟨by congr 1, by rw [h3 _ hnc]; rfl⟩
        | succ i =>
          rw [List.getElem?_cons_succ] at hd
          obtain ⟨h6, h7⟩ := h5 i d hd
          rw [place_succ, if_pos ht, hs, List.getElem?_cons_succ]
          have e1 : (pre ++ [c]).length + i = pre.length + (i + 1) := by simp; omega
          have e2 : T - s.L c + place trans s'.L suf i = T + (-s.L c + place trans s'.L suf i) := by omega
          rw [e1, e2] at h6 h7
          exact ⟨h6, h7⟩
    | false =>
      let s1 : Seq := match set g.k T c with
        | none => s
        | some l => { s with len := fun d => if d = c then some l else s.len d }
      have hs1i : s1.items = s.items := by simp only [s1]; split <;> rfl
      have hs1c : s1.len c = (set g.k T c).or (s.len c) := by
        simp only [s1]
        split
        · rename_i e; rw [e]; rfl
        · rename_i l e; rw [e]; simp
      have hs1d : ∀ d, d ≠ c → s1.len d = s.len d := by
        intro d hd
        simp only [s1]
        split
        · rfl
        · simp only [if_neg hd]
      have hs1s : (s1.len c).isSome := by
        rw [hs1c, hlc]
        cases set g.k T c <;> rfl
      obtain ⟨s', outs, h1, h2, h3, h4, h5⟩ := ih (pre ++ [c]) s1 ⟨g.k + 1, T, some c⟩ (T + s1.L c) (by rw [hs1i, hi]; simp) hns
        (fun d hd => by
          rw [hs1d d (fun e => hnc (e ▸ hd))]
          exact hl d (List.mem_cons_of_mem _ hd)) (by simp [hk]) (by simp only [resume, len_L hs1s, Option.map_some])
      have hs : s'.L c = s1.L c := by simp only [Seq.L, h3 c hnc]
      refine ⟨s', .at g.k T c :: outs, ?_, by rw [h2, hs1i], fun d hd => ?_, by simp [h4], ?_⟩
      · rw [List.length_cons, loop]
        simp only [next, hr, hc, ht, Bool.false_eq_true, if_false]
        change ((loop trans set (suf.length + 1) s1 _).1, _ :: (loop trans set (suf.length + 1) s1 _).2.1,
          (loop trans set (suf.length + 1) s1 _).2.2) = _
        rw [h1]
      · rw [h3 d fun hm => hd (List.mem_cons_of_mem _ hm), hs1d d (fun e => hd (e ▸ List.mem_cons_self))]
      · intro i d hd
        cases i with
        | zero =>
          simp only [List.getElem?_cons_zero, Option.some.injEq] at hd
          subst hd
          rw [place_zero, overlap, ht, List.getElem?_cons_zero, Nat.add_zero]
          simp only [Bool.false_eq_true, if_false, Int.neg_zero, Int.add_zero]
          rw [← hk]
          exact ⟨rfl, by rw [h3 _ hnc, hs1c]⟩
        | succ i =>
          rw [List.getElem?_cons_succ] at hd
          obtain ⟨h6, h7⟩ := h5 i d hd
          rw [place_succ, ht, hs, List.getElem?_cons_succ]
          have e1 : (pre ++ [c]).length + i = pre.length + (i + 1) := by simp; omega
          have e2 : T + s1.L c + place trans s'.L suf i = T + (s1.L c + place trans s'.L suf i) := by omega
          rw [e1, e2] at h6 h7
          simp only [Bool.false_eq_true, if_false]
          refine ⟨h6, ?_⟩
          rw [h7, hs1d d]
          intro e
          exact hnc (e ▸ List.mem_of_getElem? hd)

/-- C85: a loop that sets the length of the component it is given, as far as that is no transition, possibly from the
index and the position, gives the positions of the sequence as it is afterwards: the later ones move along.  Every
component comes once, has the length that was set for it, and no other object is changed. -/
theorem C85_ripple {trans : Nat → Bool} {set : Nat → Int → Nat → Option Int} {s : Seq} {cs : List Nat}
    (hset : ∀ i p c, trans c = true → set i p c = none) (hi : s.items = cs.map some) (hn : cs.Nodup)
    (hl : ∀ c ∈ cs, (s.len c).isSome) :
    ∃ s' outs, loop trans set (cs.length + 1) s start = (s', outs, true) ∧ s'.items = s.items ∧
      (∀ d, d ∉ cs → s'.len d = s.len d) ∧ outs.length = cs.length ∧
      ∀ i c, cs[i]? = some c →
        outs[i]? = some (.at i (place trans s'.L cs i) c) ∧
        s'.len c = (set i (place trans s'.L cs i) c).or (s.len c) := by
  obtain ⟨s', outs, h1, h2, h3, h4, h5⟩ := loop_from hset cs [] s ⟨0, 0, none⟩ 0 hi hn hl rfl rfl
  refine ⟨s', outs, h1, h2, h3, h4, fun i c hc => ?_⟩
  have := h5 i c hc
  simpa only [List.length_nil, Nat.zero_add, Int.zero_add] using this

theorem loop_complete {trans : Nat → Bool} {set : Nat → Int → Nat → Option Int} (n : Nat) :
    ∀ (s : Seq) (g : Gen) (s' : Seq) (outs : List Out), loop trans set n s (some g) = (s', outs, true) →
      s'.items = s.items ∧ s.items.length ≤ g.k + outs.length ∧ outs.length < n := by
  induction n with
  | zero => intro s g s' outs h; cases h
  | succ n ih =>
    intro s g s' outs h
    rw [loop] at h
    simp only [next] at h
    cases hr : resume s g with
    | none => rw [hr] at h; cases h
    | some len =>
      rw [hr] at h
      dsimp only at h
      cases hi : s.items[g.k]? with
      | none =>
        rw [hi] at h
        cases h
        exact ⟨rfl, by simpa using hi, by simp⟩
      | some c =>
        rw [hi] at h
        cases c with
        | none => cases h
        | some c =>
          have key : ∀ (s1 : Seq) (g1 : Gen) (o : Out), s1.items = s.items → g1.k = g.k + 1 →
              ((loop trans set n s1 (some g1)).1, o :: (loop trans set n s1 (some g1)).2.1,
                (loop trans set n s1 (some g1)).2.2) = (s', outs, true) →
              s'.items = s.items ∧ s.items.length ≤ g.k + outs.length ∧ outs.length < n + 1 := by
            intro s1 g1 o e1 e2 h
            rcases hl : loop trans set n s1 (some g1) with ⟨a, b, t⟩
            rw [hl] at h
            cases h
            obtain ⟨h1, h2, h3⟩ := ih s1 g1 _ _ hl
            rw [e1] at h1 h2
            rw [e2] at h2
            refine ⟨h1, ?_, ?_⟩ <;> simp only [List.length_cons] <;> omega
          have hs : ∀ p : Int, (match set g.k p c with
              | none => s
              | some l => ({ s with len := fun d => if d = c then some l else s.len d } : Seq)).items = s.items := by
            intro p
            split <;> rfl
          dsimp only at h
          cases ht : trans c with
          | true =>
            rw [ht] at h
            cases hl : s.len c with
            | none => rw [hl] at h; cases h
            | some l =>
              rw [hl] at h
              exact key _ ⟨g.k + 1, len - l, none⟩ _ (hs (len - l)) rfl h
          | false =>
            rw [ht] at h
            exact key _ ⟨g.k + 1, len, some c⟩ _ (hs len) rfl h

/-- C85: any such loop that ended without an exception was given all components; the list is what it was. -/
theorem C85_complete {trans : Nat → Bool} {set : Nat → Int → Nat → Option Int} {n : Nat} {s s' : Seq} {outs : List Out}
    (h : loop trans set n s start = (s', outs, true)) :
    s'.items = s.items ∧ s.items.length ≤ outs.length ∧ outs.length < n := by
  obtain ⟨h1, h2, h3⟩ := loop_complete n s ⟨0, 0, none⟩ s' outs h
  exact ⟨h1, by simpa using h2, h3⟩

/-- C85: the length of a transition set in its own round comes too late: the next component is given where it was with
the old length, and is afterwards elsewhere, unless the length is the same. -/
theorem C85_transition {trans : Nat → Bool} {a t b : Nat} {s : Seq} {la lt lb l : Int} (hi : s.items = [some a, some t, some b])
    (ha : s.len a = some la) (ht : s.len t = some lt) (hb : s.len b = some lb)
    (ta : trans a = false) (tt : trans t = true) (tb : trans b = false) :
    ∃ s', loop trans (fun _ _ c => if c = t then some l else none) 4 s start =
        (s', [.at 0 0 a, .at 1 (la - lt) t, .at 2 (la - lt) b], true) ∧
      place trans s'.L [a, t, b] 2 = la - l := by
  have hat : a ≠ t := fun e => by rw [e, tt] at ta; cases ta
  have hbt : b ≠ t := fun e => by rw [e, tt] at tb; cases tb
  refine ⟨{ s with len := fun d => if d = t then some l else s.len d }, ?_, ?_⟩
  · simp [loop, next, start, resume, hi, ha, ht, hb, ta, tt, tb, hat, hbt]
  · simp [place, overlap, ta, tt, tb, Seq.L, hat, ha]
    omega

/-! ### Examples -/

/-- A clip (1), a transition (2), a clip (3) and a filler (4). -/
def sample : Seq where
  items := [some 1, some 2, some 3, some 4]
  len c := if c = 1 then some 100 else if c = 2 then some 10 else if c = 3 then some 50 else if c = 4 then some 7 else none

/-- The same with another length of the first clip. -/
def sample2 : Seq := { sample with len := fun c => if c = 1 then some 120 else sample.len c }

/-- C85_positions: the first clip is made longer between the first two steps, and the last component is asked for after
the clip was made shorter again. -/
example : out (· == 2) (fun n => if n = 1 then sample2 else sample) 3 = .at 3 160 4 :=
  C85_positions (c := fun j => j + 1)
    ⟨by
      intro j hj
      obtain rfl | rfl | rfl : j = 0 ∨ j = 1 ∨ j = 2 := by omega
      all_goals rfl,
    by
      intro j hj _
      obtain rfl | rfl | rfl : j = 0 ∨ j = 1 ∨ j = 2 := by omega
      all_goals rfl,
    by
      intro j hj _
      obtain rfl | rfl | rfl : j = 0 ∨ j = 1 ∨ j = 2 := by omega
      all_goals rfl⟩ rfl (by simp)

/-- C85_ends: all but the first clip are taken away. -/
example : out (· == 2) (fun n => if n = 0 then sample else { sample with items := [some 1] }) 1 = .stop :=
  C85_ends (c := fun j => j + 1)
    ⟨by intro j hj; obtain rfl : j = 0 := by omega
        rfl,
     by intro j hj _; obtain rfl : j = 0 := by omega
        rfl,
     by intro j hj _; obtain rfl : j = 0 := by omega
        rfl⟩ (by simp)

/-- C85_raises: the transition is replaced by a null reference, or has no length. -/
example : out (· == 2) (fun n => if n = 0 then sample else { sample2 with items := [some 1, none] }) 1 = .raised :=
  C85_raises (c := fun j => j + 1)
    ⟨by intro j hj; obtain rfl : j = 0 := by omega
        rfl,
     by intro j hj _; obtain rfl : j = 0 := by omega
        rfl,
     by intro j hj _; obtain rfl : j = 0 := by omega
        rfl⟩ (.inl rfl)

/-- C85_late: the length of the clip 3 is deleted in its round. -/
example : out (· == 2) (fun n => if n ≤ 2 then sample else { sample with len := fun _ => none }) 2 = .at 2 90 3 ∧
    out (· == 2) (fun n => if n ≤ 2 then sample else { sample with len := fun _ => none }) 3 = .raised :=
  C85_late (n := 2) (c := fun j => j + 1)
    ⟨by
      intro j hj
      obtain rfl | rfl : j = 0 ∨ j = 1 := by omega
      all_goals rfl,
    by
      intro j hj _
      obtain rfl | rfl : j = 0 ∨ j = 1 := by omega
      all_goals rfl,
    by
      intro j hj _
      obtain rfl | rfl : j = 0 ∨ j = 1 := by omega
      all_goals rfl⟩ rfl rfl rfl

/-- C85_ended: the sequence was empty at the first step and is not afterwards. -/
example (m : Nat) (hm : 0 < m) : out (· == 2) (fun n => if n = 0 then ⟨[], sample.len⟩ else sample) m = .stop :=
  C85_ended (n := 0) (.inl rfl) m hm

/-- C85_ripple: every clip is made twice as long. -/
example : ∃ s', loop (· == 2) (fun _ _ c => if c = 2 then none else (sample.len c).map (2 * ·)) 5 sample start =
    (s', [.at 0 0 1, .at 1 190 2, .at 2 190 3, .at 3 290 4], true) ∧
    (List.range 4).map (place (· == 2) s'.L [1, 2, 3, 4]) = [0, 190, 190, 290] := ⟨_, rfl, rfl⟩

example := C85_ripple (trans := (· == 2)) (s := sample) (cs := [1, 2, 3, 4])
  (set := fun _ _ c => if c = 2 then none else (sample.len c).map (2 * ·)) (by intro i p c h; simp_all) rfl (by decide)
  (by decide)

/-- C85_complete: a loop over a sequence with a null component does not end like this. -/
example (n : Nat) (s' : Seq) : loop (· == 2) (fun _ _ _ => none) n { sample with items := [some 1, none, some 3] } start ≠
    (s', [.at 0 0 1], true) := by
  intro h
  have := (C85_complete h).2.1
  simp at this

/-- C85_transition: the transition is made longer. -/
example : ∃ s', loop (· == 2) (fun _ _ c => if c = 2 then some 30 else none) 4
    { sample with items := [some 1, some 2, some 3] } start = (s', [.at 0 0 1, .at 1 90 2, .at 2 90 3], true) ∧
    place (· == 2) s'.L [1, 2, 3] 2 = 70 :=
  C85_transition (a := 1) (t := 2) (b := 3) (la := 100) (lt := 10) (lb := 50) (l := 30) rfl rfl rfl rfl rfl rfl rfl

end Avb.PosEdit

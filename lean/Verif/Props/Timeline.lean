import Verif.Model.Timeline
import Mathlib.Tactic.Linarith
import Mathlib.Tactic.NormNum
import Mathlib.Tactic.Push
import Mathlib.Data.Rat.Cast.Order

/-
C23, C24: positions in a sequence.
-/

namespace Avb

/-! ### C23 -/

/-- The signed length of a component: transitions count negative. -/
def SeqItem.signed (c : SeqItem) : Int := if c.transition then -c.length else c.length

/-- Where component `i` begins: the signed lengths of the components before it, a transition being moved
back by its own length. -/
def startOf (cs : List SeqItem) (i : Nat) (c : SeqItem) : Int :=
  ((cs.take i).map SeqItem.signed).sum - (if c.transition then c.length else 0)

theorem seqLengthFrom_eq (n : Int) (cs : List SeqItem) :
    seqLengthFrom n cs = n + (cs.map SeqItem.signed).sum := by
  induction cs generalizing n with
  | nil => simp [seqLengthFrom]
  | cons c cs ih =>
    rw [seqLengthFrom, List.map_cons, List.sum_cons, SeqItem.signed]
    cases h : c.transition <;> simp [ih] <;> omega

/-- C23: the length of a sequence is the length of its components that are no transitions less the length
of its transitions. -/
theorem C23_length (cs : List SeqItem) :
    seqLength cs = ((cs.filter fun c => !c.transition).map SeqItem.length).sum -
      ((cs.filter fun c => c.transition).map SeqItem.length).sum := by
  rw [seqLength, seqLengthFrom_eq]
  induction cs with
  | nil => rfl
  | cons c cs ih =>
    cases h : c.transition <;> simp [SeqItem.signed, h] at ih ⊢ <;> omega

theorem seqPositionsFrom_get (k : Nat) (n : Int) (cs : List SeqItem) (i : Nat) :
    (seqPositionsFrom k n cs)[i]? =
      (cs[i]?).map fun c => ⟨k + i, n + startOf cs i c, c⟩ := by
  induction cs generalizing k n i with
  | nil => simp [seqPositionsFrom]
  | cons c cs ih =>
    cases i with
    | zero =>
      cases h : c.transition <;> simp [seqPositionsFrom, h, startOf]
      omega
    | succ i =>
      have e : ∀ d : SeqItem, startOf (c :: cs) (i + 1) d = c.signed + startOf cs i d := by
        intro d; simp [startOf]; omega
      cases h : c.transition <;> simp [seqPositionsFrom, h, ih, e, SeqItem.signed] <;>
        (congr 1; funext d; congr 1 <;> omega)

/-- C23: every component is listed once, in order, with its index and the sum of the signed lengths before
it as position. -/
theorem C23_positions (cs : List SeqItem) (i : Nat) :
    (seqPositions cs)[i]? = (cs[i]?).map fun c => ⟨i, startOf cs i c, c⟩ := by
  rw [seqPositions, seqPositionsFrom_get]
  simp

/-- C23: a component that is no transition ends where the next one begins, if that is no transition either;
a transition lies at the end of the component before it, and the next component begins with it. -/
theorem C23_next {cs : List SeqItem} {i : Nat} {a b : SeqPos} (ha : (seqPositions cs)[i]? = some a)
    (hb : (seqPositions cs)[i + 1]? = some b) :
    (if a.comp.transition then a.pos else a.pos + a.comp.length) =
      (if b.comp.transition then b.pos + b.comp.length else b.pos) := by
  rw [C23_positions] at ha hb
  obtain ⟨c, hc, rfl⟩ := Option.map_eq_some_iff.1 ha
  obtain ⟨d, hd, rfl⟩ := Option.map_eq_some_iff.1 hb
  have : (cs.take (i + 1)) = cs.take i ++ [c] := by
    rw [List.take_add_one, hc]; rfl
  simp only [startOf, this, List.map_append, List.sum_append, List.map_cons, List.map_nil, List.sum_cons,
    List.sum_nil, SeqItem.signed]
  cases c.transition <;> cases d.transition <;> simp <;> omega

/-- C23: the sequence begins at 0. -/
theorem C23_first {cs : List SeqItem} {a : SeqPos} (ha : (seqPositions cs)[0]? = some a) :
    (if a.comp.transition then a.pos + a.comp.length else a.pos) = 0 := by
  rw [C23_positions] at ha
  obtain ⟨c, hc, rfl⟩ := Option.map_eq_some_iff.1 ha
  simp only [startOf]
  cases c.transition <;> simp

theorem seqPositionsFrom_length (k : Nat) (n : Int) (cs : List SeqItem) :
    (seqPositionsFrom k n cs).length = cs.length := by
  induction cs generalizing k n with
  | nil => rfl
  | cons c cs ih => cases h : c.transition <;> simp [seqPositionsFrom, h, ih]

/-- C23: the sequence ends with its last component: last position plus last length is the reported
length (last position, if the last component is a transition). -/
theorem C23_last {cs : List SeqItem} {a : SeqPos} (ha : (seqPositions cs).getLast? = some a) :
    (if a.comp.transition then a.pos else a.pos + a.comp.length) = seqLength cs := by
  have hl : (seqPositions cs).length = cs.length := seqPositionsFrom_length 0 0 cs
  rw [List.getLast?_eq_getElem?, hl, C23_positions] at ha
  obtain ⟨c, hc, rfl⟩ := Option.map_eq_some_iff.1 ha
  have hlt : cs.length - 1 < cs.length := (List.getElem?_eq_some_iff.1 hc).1
  have : cs = cs.take (cs.length - 1) ++ [c] := by
    conv => lhs; rw [← List.take_length (l := cs), show cs.length = cs.length - 1 + 1 by omega]
    rw [List.take_add_one, hc]; rfl
  rw [seqLength, seqLengthFrom_eq]
  conv => rhs; rw [this]
  simp only [startOf, List.map_append, List.sum_append, List.map_cons, List.map_nil, List.sum_cons,
    List.sum_nil, SeqItem.signed]
  cases c.transition <;> simp
  omega

/-- A clip of 10, a transition of 4, a clip of 20, an empty filler, a clip of 5. -/
def seqSample : List SeqItem := [⟨false, 10⟩, ⟨true, 4⟩, ⟨false, 20⟩, ⟨false, 0⟩, ⟨false, 5⟩]

example : (seqPositions seqSample).map (fun e => (e.index, e.pos)) = [(0, 0), (1, 6), (2, 6), (3, 26), (4, 26)] ∧
    seqLength seqSample = 31 := by decide

/-! ### C24 -/

/-- Components that are laid out as usual, after leaving out the empty ones: transitions are not empty and
lie between two clips, a clip is longer than the transition after it and not shorter than the two
transitions around it.  `inc` is the length of the transition before the first component. -/
def Proper (inc : Int) : List SeqItem → Prop
  | [] => False
  | [c] => c.transition = false ∧ 0 < c.length ∧ inc ≤ c.length
  | c :: n :: rest =>
    c.transition = false ∧ 0 < c.length ∧ inc ≤ c.length ∧
      ((n.transition = true ∧ 0 < n.length ∧ n.length < c.length ∧ inc + n.length ≤ c.length ∧
          Proper n.length rest) ∨
        (n.transition = false ∧ Proper 0 (n :: rest)))

/-- The component at `e` occupies the time `t`, its end not counted. -/
def SeqPos.Holds (e : SeqPos) (t : Rat) : Prop := (e.pos : Rat) ≤ t ∧ t < ((e.pos + e.comp.length : Int) : Rat)

/-- Positions that follow each other from `P` on. -/
def Placed (P : Int) : List SeqPos → Prop
  | [] => True
  | e :: es =>
    if e.comp.transition then e.pos = P - e.comp.length ∧ Placed (P - e.comp.length) es
    else e.pos = P ∧ Placed (P + e.comp.length) es

theorem placed_positions (k : Nat) (P : Int) (cs : List SeqItem) :
    Placed P ((seqPositionsFrom k P cs).filter fun e => e.comp.length ≠ 0) := by
  induction cs generalizing k P with
  | nil => trivial
  | cons c cs ih =>
    rw [seqPositionsFrom]
    by_cases h : c.transition = true
    · rw [if_pos h]
      by_cases h0 : c.length = 0
      · rw [List.filter_cons_of_neg (by simp [h0])]
        have := ih (k + 1) (P - c.length)
        rw [h0] at this ⊢
        simpa using this
      · rw [List.filter_cons_of_pos (by simp [h0]), Placed, if_pos h]
        exact ⟨rfl, ih _ _⟩
    · rw [if_neg h]
      by_cases h0 : c.length = 0
      · rw [List.filter_cons_of_neg (by simp [h0])]
        have := ih (k + 1) (P + c.length)
        rw [h0] at this ⊢
        simpa using this
      · rw [List.filter_cons_of_pos (by simp [h0]), Placed, if_neg h]
        exact ⟨rfl, ih _ _⟩

theorem nearestFrom_filter (t : Rat) (last : Option SeqPos) (es : List SeqPos) :
    nearestFrom t last es = nearestFrom t last (es.filter fun e => e.comp.length ≠ 0) := by
  induction es generalizing last with
  | nil => rfl
  | cons e es ih =>
    by_cases h : e.comp.length = 0
    · rw [nearestFrom, if_pos h, List.filter_cons_of_neg (by simp [h]), ih]
    · rw [List.filter_cons_of_pos (by simp [h]), nearestFrom, nearestFrom, if_neg h, if_neg h, ih]

theorem transitions_later {inc P : Int} {es : List SeqPos} (hp : Proper inc (es.map SeqPos.comp))
    (hpl : Placed P es) : ∀ e ∈ es, e.comp.transition = true → P + inc ≤ e.pos ∧ P < e.pos := by
  induction hlen : es.length using Nat.strongRecOn generalizing es inc P with
  | _ n ih =>
    match es, hp, hpl with
    | [c], hp, hpl =>
      intro e he ht
      simp only [List.mem_singleton] at he
      subst he
      have := hp.1
      rw [this] at ht
      cases ht
    | c :: d :: rest, hp, hpl =>
      obtain ⟨h1, h2, h3, h4⟩ := hp
      rw [Placed, if_neg (by simp [h1])] at hpl
      obtain ⟨hc, hpl⟩ := hpl
      intro e he ht
      rcases List.mem_cons.1 he with rfl | he
      · rw [h1] at ht; cases ht
      rcases h4 with ⟨g1, g2, g3, g4, g5⟩ | ⟨g1, g2⟩
      · rw [Placed, if_pos g1] at hpl
        obtain ⟨hd, hpl⟩ := hpl
        rcases List.mem_cons.1 he with rfl | he
        · rw [hd]; omega
        · have := ih rest.length (by simp at hlen; omega) g5 hpl rfl e he ht
          omega
      · have := ih (d :: rest).length (by simp at hlen; simp; omega) g2 hpl rfl e he ht
        omega

theorem nearest_proper {t : Rat} {last : Option SeqPos} {inc P : Int} {es : List SeqPos}
    (hp : Proper inc (es.map SeqPos.comp)) (hpl : Placed P es) (hl : last = none ∨ (P : Rat) < t) :
    ∃ e, nearestFrom t last es = some e ∧ e ∈ es ∧
      (e.comp.transition = true → e.Holds t) ∧
      (e.comp.transition = false → ((e.pos : Rat) < t ∨ (last = none ∧ es.head? = some e)) ∧
        (t ≤ ((e.pos + e.comp.length : Int) : Rat) ∨ es.getLast? = some e)) ∧
      (∀ d ∈ es, d.comp.transition = true → d.Holds t → e = d) := by
  induction hlen : es.length using Nat.strongRecOn generalizing es inc P last with
  | _ n ih =>
    match es, hp, hpl with
    | [c], hp, hpl =>
      obtain ⟨h1, h2, h3⟩ := hp
      rw [Placed, if_neg (by simp [h1])] at hpl
      have hs : nearestFrom t last [c] = some c := by
        rw [nearestFrom, if_neg (by omega), if_neg (by simp [h1]), if_neg, nearestFrom]
        rintro ⟨h, h'⟩
        rcases hl with rfl | hl
        · simp at h
        · rw [hpl.1] at h'; linarith
      refine ⟨c, hs, by simp, by simp [h1], fun _ => ⟨?_, Or.inr rfl⟩, by simp [h1]⟩
      rcases hl with rfl | hl
      · exact Or.inr ⟨rfl, rfl⟩
      · rw [hpl.1]; exact Or.inl hl
    | c :: d :: rest, hp, hpl =>
      obtain ⟨h1, h2, h3, h4⟩ := hp
      rw [Placed, if_neg (by simp [h1])] at hpl
      obtain ⟨hc, hpl⟩ := hpl
      have hs : nearestFrom t last (c :: d :: rest) = nearestFrom t (some c) (d :: rest) := by
        rw [nearestFrom, if_neg (by omega), if_neg (by simp [h1]), if_neg]
        rintro ⟨h, h'⟩
        rcases hl with rfl | hl
        · simp at h
        · rw [hc] at h'; linarith
      have hc' : (c.pos : Rat) < t ∨ (last = none ∧ (c :: d :: rest).head? = some c) := by
        rcases hl with rfl | hl
        · exact Or.inr ⟨rfl, rfl⟩
        · rw [hc]; exact Or.inl hl
      rw [hs]
      rcases h4 with ⟨g1, g2, g3, g4, g5⟩ | ⟨g1, g2⟩
      · rw [Placed, if_pos g1] at hpl
        obtain ⟨hd, hpl⟩ := hpl
        have hlater := transitions_later g5 hpl
        have hds : nearestFrom t (some c) (d :: rest) =
            if (d.pos : Rat) ≤ t ∧ t < ((d.pos + d.comp.length : Int) : Rat) then some d
            else if t ≤ (d.pos : Rat) then some c else nearestFrom t (some d) rest := by
          rw [nearestFrom, if_neg (by omega)]
          simp only [g1, true_and, Option.isSome_some]
        rw [hds]
        by_cases hh : (d.pos : Rat) ≤ t ∧ t < ((d.pos + d.comp.length : Int) : Rat)
        · rw [if_pos hh]
          refine ⟨d, rfl, by simp, fun _ => hh, by simp [g1], ?_⟩
          intro x hx hxt hxh
          rcases List.mem_cons.1 hx with rfl | hx
          · rw [h1] at hxt; cases hxt
          rcases List.mem_cons.1 hx with rfl | hx
          · rfl
          · exfalso
            have h5 := (hlater x hx hxt).1
            have h6 : ((d.pos + d.comp.length : Int) : Rat) ≤ (x.pos : Rat) := by
              exact_mod_cast (show d.pos + d.comp.length ≤ x.pos by omega)
            have := hh.2
            have := hxh.1
            linarith
        · rw [if_neg hh]
          by_cases hle : t ≤ (d.pos : Rat)
          · rw [if_pos hle]
            refine ⟨c, rfl, by simp, by simp [h1], fun _ => ⟨hc', Or.inl ?_⟩, ?_⟩
            · have : (d.pos : Rat) ≤ ((c.pos + c.comp.length : Int) : Rat) := by
                exact_mod_cast (show d.pos ≤ c.pos + c.comp.length by omega)
              linarith
            · intro x hx hxt hxh
              rcases List.mem_cons.1 hx with rfl | hx
              · rfl
              rcases List.mem_cons.1 hx with rfl | hx
              · exact absurd hxh hh
              · exfalso
                have h5 := (hlater x hx hxt).2
                have h6 : (d.pos : Rat) < (x.pos : Rat) := by
                  exact_mod_cast (show d.pos < x.pos by omega)
                have := hxh.1
                linarith
          · rw [if_neg hle]
            have hlt : ((P + c.comp.length - d.comp.length : Int) : Rat) < t := by
              rw [← hd]; exact lt_of_not_ge hle
            obtain ⟨e, e1, e2, e3, e4, e5⟩ := ih rest.length (by simp at hlen; omega) g5 hpl (Or.inr hlt) rfl (last := some d)
            refine ⟨e, e1, by simp [e2], e3, ?_, ?_⟩
            · intro ht
              obtain ⟨f1, f2⟩ := e4 ht
              refine ⟨Or.inl ?_, ?_⟩
              · rcases f1 with f1 | f1
                · exact f1
                · exact absurd f1.1 (by simp)
              · rcases f2 with f2 | f2
                · exact Or.inl f2
                · right
                  cases rest with
                  | nil => simp at f2
                  | cons r rest => simpa using f2
            · intro x hx hxt hxh
              rcases List.mem_cons.1 hx with rfl | hx
              · rw [h1] at hxt; cases hxt
              rcases List.mem_cons.1 hx with rfl | hx
              · exact absurd hxh hh
              · exact e5 x hx hxt hxh
      · have hlater := transitions_later g2 hpl
        have hdp : d.pos = P + c.comp.length := by
          rw [Placed, if_neg (by simp [g1])] at hpl
          exact hpl.1
        have hd0 : d.comp.length ≠ 0 := by
          have : Proper 0 (d.comp :: rest.map SeqPos.comp) := g2
          cases rest with
          | nil => have := this.2.1; omega
          | cons r rest => have := this.2.1; omega
        by_cases hle : t ≤ (d.pos : Rat)
        · have hds : nearestFrom t (some c) (d :: rest) = some c := by
            rw [nearestFrom, if_neg hd0, if_neg (by simp [g1]), if_pos ⟨rfl, hle⟩]
          rw [hds]
          refine ⟨c, rfl, by simp, by simp [h1], fun _ => ⟨hc', Or.inl ?_⟩, ?_⟩
          · rw [hc, ← hdp]; exact hle
          · intro x hx hxt hxh
            rcases List.mem_cons.1 hx with rfl | hx
            · rfl
            · exfalso
              have h5 := (hlater x hx hxt).2
              have h6 : (d.pos : Rat) < (x.pos : Rat) := by
                exact_mod_cast (show d.pos < x.pos by omega)
              have := hxh.1
              linarith
        · have hlt : ((P + c.comp.length : Int) : Rat) < t := by
            rw [← hdp]; exact lt_of_not_ge hle
          obtain ⟨e, e1, e2, e3, e4, e5⟩ := ih (d :: rest).length (by simp at hlen; simp; omega) g2 hpl (Or.inr hlt) rfl (last := some c)
          refine ⟨e, e1, by simp [e2], e3, ?_, ?_⟩
          · intro ht
            obtain ⟨f1, f2⟩ := e4 ht
            refine ⟨Or.inl ?_, ?_⟩
            · rcases f1 with f1 | f1
              · exact f1
              · exact absurd f1.1 (by simp)
            · rcases f2 with f2 | f2
              · exact Or.inl f2
              · exact Or.inr (by simpa using f2)
          · intro x hx hxt hxh
            rcases List.mem_cons.1 hx with rfl | hx
            · rw [h1] at hxt; cases hxt
            · exact e5 x hx hxt hxh

theorem proper_map {cs : List SeqItem} : ((seqPositions cs).filter fun e => e.comp.length ≠ 0).map SeqPos.comp =
    cs.filter fun c => c.length ≠ 0 := by
  have : ∀ k n, ((seqPositionsFrom k n cs).filter fun e => e.comp.length ≠ 0).map SeqPos.comp =
      cs.filter fun c => c.length ≠ 0 := by
    induction cs with
    | nil => intro k n; rfl
    | cons c cs ih =>
      intro k n
      by_cases h0 : c.length = 0
      · cases h : c.transition <;> simp [seqPositionsFrom, h, h0] <;> simpa using ih _ _
      · cases h : c.transition <;> simp [seqPositionsFrom, h, h0] <;> simpa using ih _ _
  exact this 0 0

/-- C24: in a sequence that is laid out as usual the component found for a time within the sequence is
one of its components, not empty; it is a transition exactly when the time lies in a transition, and
then that one; otherwise it is a clip that begins before the time and does not end before it. -/
theorem C24_inside {cs : List SeqItem} (hp : Proper 0 (cs.filter fun c => c.length ≠ 0)) {t : Rat} (h0 : 0 < t)
    (h1 : t ≤ (seqLength cs : Rat)) :
    ∃ e ∈ seqPositions cs, nearestIndexAtTime cs t = (e.index, e.pos) ∧ e.comp.length ≠ 0 ∧
      (e.comp.transition = true → e.Holds t) ∧
      (e.comp.transition = false → (e.pos : Rat) < t ∧ t ≤ ((e.pos + e.comp.length : Int) : Rat)) ∧
      (∀ d ∈ seqPositions cs, d.comp.transition = true → d.Holds t → e = d) := by
  obtain ⟨e, e1, e2, e3, e4, e5⟩ := nearest_proper (t := t) (last := none) (proper_map ▸ hp)
    (placed_positions 0 0 cs) (Or.inl rfl)
  have e1' : nearestFrom t none (seqPositions cs) = some e := by rw [nearestFrom_filter]; exact e1
  obtain ⟨m1, m2⟩ := List.mem_filter.1 e2
  refine ⟨e, m1, ?_, by simpa using m2, e3, ?_, ?_⟩
  · unfold nearestIndexAtTime
    rw [e1']
  · intro ht
    obtain ⟨f1, f2⟩ := e4 ht
    constructor
    · rcases f1 with f1 | f1
      · exact f1
      · have hpl := placed_positions 0 0 cs
        generalize hes : (seqPositionsFrom 0 0 cs).filter (fun e => e.comp.length ≠ 0) = es at f1 hpl
        match es, f1, hpl with
        | x :: es, f1, hpl =>
          obtain ⟨_, rfl⟩ : True ∧ x = e := by simpa using f1
          rw [Placed, if_neg (by simp [ht])] at hpl
          rw [hpl.1]
          exact_mod_cast h0
    · rcases f2 with f2 | f2
      · exact f2
      · have key : ∀ (es : List SeqPos) (P : Int), Placed P es → es.getLast? = some e →
            e.pos + e.comp.length = P + ((es.map SeqPos.comp).map SeqItem.signed).sum := by
          intro es
          induction es with
          | nil => intro P _ h; simp at h
          | cons x es ih =>
            intro P hpl hlast
            cases es with
            | nil =>
              simp at hlast
              subst hlast
              rw [Placed, if_neg (by simp [ht])] at hpl
              simp [SeqItem.signed, ht, hpl.1]
            | cons y es =>
              rw [Placed] at hpl
              by_cases hx : x.comp.transition = true
              · rw [if_pos hx] at hpl
                rw [ih _ hpl.2 (by simpa using hlast)]
                rw [List.map_cons (l := y :: es), List.map_cons (l := List.map _ _), List.sum_cons]
                simp only [SeqItem.signed, hx, if_true]
                omega
              · rw [if_neg hx] at hpl
                rw [ih _ hpl.2 (by simpa using hlast)]
                rw [List.map_cons (l := y :: es), List.map_cons (l := List.map _ _), List.sum_cons]
                simp only [SeqItem.signed, hx]
                simp
                omega
        have hk := key _ 0 (placed_positions 0 0 cs) f2
        have : ((((seqPositionsFrom 0 0 cs).filter (fun e => e.comp.length ≠ 0)).map SeqPos.comp).map SeqItem.signed).sum =
            seqLength cs := by
          rw [show (seqPositionsFrom 0 0 cs) = seqPositions cs from rfl, proper_map, seqLength, seqLengthFrom_eq, Int.zero_add]
          clear h1 e1 e1' hp e2 e3 e4 e5 m1 m2 f1 f2 key hk
          induction cs with
          | nil => rfl
          | cons c cs ih =>
            by_cases hc : c.length = 0
            · rw [List.filter_cons_of_neg (by simp [hc]), ih]
              simp [SeqItem.signed, hc]
            · rw [List.filter_cons_of_pos (by simp [hc]), List.map_cons, List.sum_cons, ih]
              simp
        rw [this] at hk
        rw [hk]
        simpa using h1
  · intro d hd hdt hdh
    refine e5 d (List.mem_filter.2 ⟨hd, ?_⟩) hdt hdh
    obtain ⟨g1, g2⟩ := hdh
    have : (d.pos : Rat) < ((d.pos + d.comp.length : Int) : Rat) := lt_of_le_of_lt g1 g2
    have : d.pos < d.pos + d.comp.length := by exact_mod_cast this
    simp
    omega

example : Proper 0 (seqSample.filter fun c => c.length ≠ 0) := by
  simp [seqSample, Proper]

/-- C24: for a time at or before the start the first component that is not empty is found. -/
theorem C24_before {cs : List SeqItem} (hp : Proper 0 (cs.filter fun c => c.length ≠ 0)) {t : Rat} (h0 : t ≤ 0) :
    ∃ e, (seqPositions cs).find? (fun e => e.comp.length ≠ 0) = some e ∧
      nearestIndexAtTime cs t = (e.index, e.pos) := by
  have hm := proper_map (cs := cs)
  have hpl : Placed 0 ((seqPositions cs).filter fun e => e.comp.length ≠ 0) := placed_positions 0 0 cs
  obtain ⟨e, e1, e2, e3, e4, e5⟩ := nearest_proper (t := t) (last := none) (proper_map ▸ hp)
    hpl (Or.inl rfl)
  have e1' : nearestFrom t none (seqPositions cs) = some e := by rw [nearestFrom_filter]; exact e1
  refine ⟨e, ?_, by unfold nearestIndexAtTime; rw [e1']⟩
  have hnn : ∀ (inc P : Int) (es : List SeqPos), Proper inc (es.map SeqPos.comp) → Placed P es → ∀ x ∈ es, P ≤ x.pos := by
    intro inc P es
    induction hlen : es.length using Nat.strongRecOn generalizing es inc P with
    | _ n ih =>
      intro hp hpl x hx
      match es, hp, hpl with
      | [c], hp, hpl =>
        simp only [List.mem_singleton] at hx
        subst hx
        rw [Placed, if_neg (by simp [hp.1])] at hpl
        omega
      | c :: d :: rest, hp, hpl =>
        obtain ⟨h1, h2, h3, h4⟩ := hp
        rw [Placed, if_neg (by simp [h1])] at hpl
        obtain ⟨hc, hpl⟩ := hpl
        rcases List.mem_cons.1 hx with rfl | hx
        · omega
        rcases h4 with ⟨g1, g2, g3, g4, g5⟩ | ⟨g1, g2⟩
        · rw [Placed, if_pos g1] at hpl
          rcases List.mem_cons.1 hx with rfl | hx
          · omega
          · have := ih rest.length (by simp at hlen; omega) _ _ rest rfl g5 hpl.2 x hx
            omega
        · have := ih (d :: rest).length (by simp at hlen; simp; omega) _ _ (d :: rest) rfl g2 hpl x hx
          omega
  have hge := hnn 0 0 _ (by rw [hm]; exact hp) hpl e e2
  have hge' : (0 : Rat) ≤ (e.pos : Rat) := by exact_mod_cast hge
  have hhead : ((seqPositions cs).filter fun e => e.comp.length ≠ 0).head? = some e := by
    cases ht : e.comp.transition with
    | true =>
      have h5 := (transitions_later (by rw [hm]; exact hp) hpl e e2 ht).2
      have h6 := (e3 ht).1
      have : (0 : Rat) < (e.pos : Rat) := by exact_mod_cast h5
      linarith
    | false =>
      rcases (e4 ht).1 with h | h
      · linarith
      · exact h.2
  rw [← List.head?_filter]
  exact hhead

theorem ends_within {inc P : Int} {es : List SeqPos} (hp : Proper inc (es.map SeqPos.comp)) (hpl : Placed P es) :
    inc ≤ ((es.map SeqPos.comp).map SeqItem.signed).sum ∧
      ∀ x ∈ es, x.pos + x.comp.length ≤ P + ((es.map SeqPos.comp).map SeqItem.signed).sum := by
  induction hlen : es.length using Nat.strongRecOn generalizing es inc P with
  | _ n ih =>
    match es, hp, hpl with
    | [c], hp, hpl =>
      obtain ⟨h1, h2, h3⟩ := hp
      rw [Placed, if_neg (by simp [h1])] at hpl
      refine ⟨by simpa [SeqItem.signed, h1] using h3, ?_⟩
      intro x hx
      simp only [List.mem_singleton] at hx
      subst hx
      simp [SeqItem.signed, h1, hpl.1]
    | c :: d :: rest, hp, hpl =>
      obtain ⟨h1, h2, h3, h4⟩ := hp
      rw [Placed, if_neg (by simp [h1])] at hpl
      obtain ⟨hc, hpl⟩ := hpl
      have hsum : (((c :: d :: rest).map SeqPos.comp).map SeqItem.signed).sum =
          c.comp.length + (((d :: rest).map SeqPos.comp).map SeqItem.signed).sum := by
        rw [List.map_cons (l := d :: rest), List.map_cons (l := List.map _ _), List.sum_cons]
        simp [SeqItem.signed, h1]
      rw [hsum]
      rcases h4 with ⟨g1, g2, g3, g4, g5⟩ | ⟨g1, g2⟩
      · rw [Placed, if_pos g1] at hpl
        obtain ⟨i1, i2⟩ := ih rest.length (by simp at hlen; omega) g5 hpl.2 rfl
        have hsum' : (((d :: rest).map SeqPos.comp).map SeqItem.signed).sum =
            - d.comp.length + ((rest.map SeqPos.comp).map SeqItem.signed).sum := by
          rw [List.map_cons (l := rest), List.map_cons (l := List.map _ _), List.sum_cons]
          simp [SeqItem.signed, g1]
        rw [hsum']
        refine ⟨by omega, ?_⟩
        intro x hx
        rcases List.mem_cons.1 hx with rfl | hx
        · omega
        rcases List.mem_cons.1 hx with rfl | hx
        · omega
        · have := i2 x hx
          omega
      · obtain ⟨i1, i2⟩ := ih (d :: rest).length (by simp at hlen; simp; omega) g2 hpl rfl
        refine ⟨by omega, ?_⟩
        intro x hx
        rcases List.mem_cons.1 hx with rfl | hx
        · omega
        · have := i2 x hx
          omega

theorem sum_filter (cs : List SeqItem) :
    ((cs.filter fun c => c.length ≠ 0).map SeqItem.signed).sum = seqLength cs := by
  rw [seqLength, seqLengthFrom_eq, Int.zero_add]
  induction cs with
  | nil => rfl
  | cons c cs ih =>
    by_cases hc : c.length = 0
    · rw [List.filter_cons_of_neg (by simp [hc]), ih]
      simp [SeqItem.signed, hc]
    · rw [List.filter_cons_of_pos (by simp [hc]), List.map_cons, List.sum_cons, ih]
      simp

/-- C24: for a time past the end the last component that is not empty is found. -/
theorem C24_after {cs : List SeqItem} (hp : Proper 0 (cs.filter fun c => c.length ≠ 0)) {t : Rat}
    (h1 : (seqLength cs : Rat) < t) :
    ∃ e, (seqPositions cs).reverse.find? (fun e => e.comp.length ≠ 0) = some e ∧
      nearestIndexAtTime cs t = (e.index, e.pos) := by
  have hm := proper_map (cs := cs)
  have hpl : Placed 0 ((seqPositions cs).filter fun e => e.comp.length ≠ 0) := placed_positions 0 0 cs
  obtain ⟨e, e1, e2, e3, e4, e5⟩ := nearest_proper (t := t) (last := none) (proper_map ▸ hp)
    hpl (Or.inl rfl)
  have e1' : nearestFrom t none (seqPositions cs) = some e := by rw [nearestFrom_filter]; exact e1
  refine ⟨e, ?_, by unfold nearestIndexAtTime; rw [e1']⟩
  have hend := (ends_within (by rw [hm]; exact hp) hpl).2 e e2
  rw [hm, sum_filter, Int.zero_add] at hend
  have hend' : ((e.pos + e.comp.length : Int) : Rat) ≤ (seqLength cs : Rat) := by exact_mod_cast hend
  rw [← List.head?_filter, List.filter_reverse, List.head?_reverse]
  cases ht : e.comp.transition with
  | true =>
    have := (e3 ht).2
    linarith
  | false =>
    rcases (e4 ht).2 with h | h
    · linarith
    · exact h

example : nearestIndexAtTime seqSample (-3) = (0, 0) ∧ nearestIndexAtTime seqSample 7 = (1, 6) ∧
    nearestIndexAtTime seqSample (23/2) = (2, 6) ∧ nearestIndexAtTime seqSample 100 = (4, 26) := by decide +kernel

/-- C24: a time at which one clip ends and the next begins belongs to the clip that ends (a time at
which a transition ends belongs to the clip after it): intervals of clips are open on the left. -/
theorem C24_boundary {cs : List SeqItem} (hp : Proper 0 (cs.filter fun c => c.length ≠ 0)) {d : SeqPos}
    (hd : d ∈ seqPositions cs) (hc : d.comp.transition = false) (h0 : 0 < d.pos)
    (hl : (d.pos : Rat) ≤ (seqLength cs : Rat)) :
    nearestIndexAtTime cs d.pos ≠ (d.index, d.pos) := by
  obtain ⟨e, m, e1, e2, e3, e4, e5⟩ := C24_inside hp (t := d.pos) (by exact_mod_cast h0) hl
  intro h
  rw [e1] at h
  obtain ⟨i1, i2⟩ := Prod.mk.injEq .. ▸ h
  have hinj : ∀ (cs : List SeqItem) k P x y, x ∈ seqPositionsFrom k P cs → y ∈ seqPositionsFrom k P cs →
      x.index = y.index → x = y := by
    intro cs
    induction cs with
    | nil => intro k P x y hx; simp [seqPositionsFrom] at hx
    | cons c cs ih =>
      have hge : ∀ (cs : List SeqItem) k P x, x ∈ seqPositionsFrom k P cs → k ≤ x.index := by
        intro cs
        induction cs with
        | nil => intro k P x hx; simp [seqPositionsFrom] at hx
        | cons c cs ih =>
          intro k P x hx
          rw [seqPositionsFrom] at hx
          split at hx <;> rcases List.mem_cons.1 hx with rfl | hx
          · exact le_refl _
          · have := ih _ _ _ hx; omega
          · exact le_refl _
          · have := ih _ _ _ hx; omega
      intro k P x y hx hy hxy
      rw [seqPositionsFrom] at hx hy
      split at hx <;> rename_i hct
      · rw [if_pos hct] at hy
        rcases List.mem_cons.1 hx with rfl | hx <;> rcases List.mem_cons.1 hy with rfl | hy
        · rfl
        · have := hge _ _ _ _ hy; simp at hxy; omega
        · have := hge _ _ _ _ hx; simp at hxy; omega
        · exact ih _ _ _ _ hx hy hxy
      · rw [if_neg hct] at hy
        rcases List.mem_cons.1 hx with rfl | hx <;> rcases List.mem_cons.1 hy with rfl | hy
        · rfl
        · have := hge _ _ _ _ hy; simp at hxy; omega
        · have := hge _ _ _ _ hx; simp at hxy; omega
        · exact ih _ _ _ _ hx hy hxy
  have : e = d := hinj cs 0 0 e d m hd i1
  subst this
  have := (e4 hc).1
  exact lt_irrefl _ this

/-- In the sample the clip of 5 begins at 26; the clip of 20 that ends there is the one found. -/
example : ∃ d ∈ seqPositions seqSample, d.comp.transition = false ∧ d.pos = 26 ∧ d.index = 4 ∧
    nearestIndexAtTime seqSample 26 = (2, 6) := ⟨⟨4, 26, ⟨false, 5⟩⟩, by decide, by decide +kernel⟩

/-- C24: the index found, in any sequence, laid out as usual or not, is that of a component at the
reported position, empty only when all components are; so looking up the component fails only in a
sequence without components. -/
theorem C24_component (cs : List SeqItem) (t : Rat) :
    (cs = [] ∧ nearestComponentAtTime cs t = .error .index) ∨
      ∃ c i, cs[i]? = some c ∧ nearestComponentAtTime cs t = .ok (c, startOf cs i c) ∧
        nearestIndexAtTime cs t = (i, startOf cs i c) ∧ (c.length = 0 → ∀ d ∈ cs, d.length = 0) := by
  have key : ∀ (es : List SeqPos) (last : Option SeqPos),
      (nearestFrom t last es = none → ∀ e ∈ es, e.comp.length = 0) ∧
      ∀ e, nearestFrom t last es = some e → (e ∈ es ∧ e.comp.length ≠ 0) ∨ last = some e := by
    intro es
    induction es with
    | nil =>
      intro last
      exact ⟨by simp, fun e h => Or.inr h⟩
    | cons x es ih =>
      intro last
      rw [nearestFrom]
      split
      · rename_i h0
        refine ⟨fun h e he => ?_, fun e h => ?_⟩
        · rcases List.mem_cons.1 he with rfl | he
          · exact h0
          · exact (ih last).1 h e he
        · rcases (ih last).2 e h with h | h
          · exact Or.inl ⟨by simp [h.1], h.2⟩
          · exact Or.inr h
      · rename_i h0
        split
        · exact ⟨by simp, fun e h => by cases h; exact Or.inl ⟨by simp, h0⟩⟩
        · split
          · rename_i h1
            exact ⟨fun h => by rw [h] at h1; simp at h1, fun e h => Or.inr h⟩
          · have hsome : ∀ (es : List SeqPos) (y : SeqPos), nearestFrom t (some y) es ≠ none := by
              intro es
              induction es with
              | nil => intro y; simp [nearestFrom]
              | cons z es ih =>
                intro y
                rw [nearestFrom]
                split
                · exact ih y
                · split
                  · simp
                  · split
                    · simp
                    · exact ih z
            refine ⟨fun h => absurd h (hsome _ _), fun e h => ?_⟩
            rcases (ih (some x)).2 e h with h | h
            · exact Or.inl ⟨by simp [h.1], h.2⟩
            · cases h
              exact Or.inl ⟨by simp, h0⟩
  obtain ⟨k1, k2⟩ := key (seqPositions cs) none
  cases hn : nearestFrom t none (seqPositions cs) with
  | none =>
    cases cs with
    | nil => left; exact ⟨rfl, by simp [nearestComponentAtTime]⟩
    | cons c cs =>
      right
      have hall : ∀ d ∈ c :: cs, d.length = 0 := by
        intro d hd
        obtain ⟨i, hi⟩ := List.getElem?_of_mem hd
        have hg := C23_positions (c :: cs) i
        rw [hi] at hg
        exact k1 hn _ (List.mem_of_getElem? hg)
      have : c.length = 0 := hall c (by simp)
      exact ⟨c, 0, rfl, by simp [nearestComponentAtTime, nearestIndexAtTime, hn, startOf, this],
        by simp [nearestIndexAtTime, hn, startOf, this], fun _ => hall⟩
  | some e =>
    right
    rcases k2 e hn with ⟨m, h0⟩ | h
    · obtain ⟨i, hi⟩ := List.getElem?_of_mem m
      rw [C23_positions] at hi
      obtain ⟨c, hc, rfl⟩ := Option.map_eq_some_iff.1 hi
      exact ⟨c, i, hc, by simp [nearestComponentAtTime, nearestIndexAtTime, hn, hc],
        by simp [nearestIndexAtTime, hn], fun h => absurd h h0⟩
    · cases h

/-- The clip after the transition begins where the transition does. -/
example : (if true then (6 : Int) else 6 + 4) = (if false then (6 : Int) + 20 else 6) :=
  C23_next (cs := seqSample) (i := 1) (a := ⟨1, 6, ⟨true, 4⟩⟩) (b := ⟨2, 6, ⟨false, 20⟩⟩) (by decide) (by decide)

example : (if false then (0 : Int) + 10 else 0) = 0 :=
  C23_first (cs := seqSample) (a := ⟨0, 0, ⟨false, 10⟩⟩) (by decide)

/-- Before the start, with an empty component in front. -/
example : ∃ e, (seqPositions (⟨false, 0⟩ :: seqSample)).find? (fun e => e.comp.length ≠ 0) = some e ∧
    nearestIndexAtTime (⟨false, 0⟩ :: seqSample) (-1/2) = (e.index, e.pos) :=
  C24_before (cs := ⟨false, 0⟩ :: seqSample) (by simp [seqSample, Proper]) (by norm_num)

end Avb

import Verif.Model.Depends
import Verif.Props.Examples
import Mathlib.Logic.Relation
import Mathlib.Data.Finset.Card

/-!
C32: the mobs a mob depends on.
-/
namespace Avb.Depends

open Relation

/-- Mob `a` depends directly on mob `b`: one of its source clips has the id under which `b` is found. -/
def Direct (g : Graph) (a b : Nat) : Prop :=
  ∃ c : SourceClip, ∃ i, Obj.SCLP c ∈ g.walk a ∧ c.mob_id = some i ∧ g.find i = some b

/-- Mobs are found under their own ids, and the starting mob, if its id is found at all, is found. -/
structure Sound (g : Graph) (top : Nat) : Prop where
  own : ∀ i m, g.find i = some m → g.idOf m = i
  selfFound : ∀ m, g.find (g.idOf top) = some m → m = top

/-- The iteration ends, having produced `out`. -/
def Ends (g : Graph) (top : Nat) (out : List Nat) : Prop :=
  ∃ n v, rounds g top n (start top) = ⟨v, [], out⟩

theorem mem_pushed {g : Graph} {v : List MobID} {a b : Nat} :
    b ∈ pushed g v a ↔ Direct g a b ∧ g.idOf b ∉ v := by
  simp only [pushed, List.mem_filter, List.mem_filterMap, decide_eq_true_eq]
  refine and_congr_left fun _ => ⟨?_, ?_⟩
  · rintro ⟨o, ho, h⟩
    cases o <;> simp only [clipMob, reduceCtorEq] at h
    rename_i c
    cases hc : c.mob_id with
    | none => rw [hc] at h; simp at h
    | some i => rw [hc] at h; exact ⟨c, i, ho, hc, h⟩
  · rintro ⟨c, i, h1, h2, h3⟩
    exact ⟨_, h1, by simp only [clipMob, h2, h3]⟩

theorem rounds_add {g : Graph} {top : Nat} {s : St} {m n : Nat} :
    rounds g top (m + n) s = rounds g top n (rounds g top m s) := by
  induction m generalizing s with
  | zero => simp [rounds]
  | succ m ih => rw [Nat.succ_add]; simp only [rounds]; exact ih

theorem rounds_succ {g : Graph} {top : Nat} {s : St} {n : Nat} :
    rounds g top (n + 1) s = step g top (rounds g top n s) := by
  rw [rounds_add]; rfl

/-! ### Termination -/

/-- Reaching another state with more visited mobs. -/
def Reaches (g : Graph) (top : Nat) (s : St) (done : List Nat) (rest : List Nat) : Prop :=
  ∃ n v o, rounds g top n s = ⟨v, rest, o⟩ ∧ (∀ i ∈ s.visited, i ∈ v) ∧ ∀ m ∈ done, g.idOf m ∈ v

theorem reaches_list {g : Graph} {top : Nat} : ∀ (l : List Nat),
    (∀ m ∈ l, ∀ v rest o, Reaches g top ⟨v, m :: rest, o⟩ [m] rest) → ∀ v rest o,
    Reaches g top ⟨v, l ++ rest, o⟩ l rest := by
  intro l
  induction l with
  | nil => intro _ v rest o; exact ⟨0, v, o, rfl, fun _ h => h, by simp⟩
  | cons m l ih =>
    intro h v rest o
    obtain ⟨n1, v1, o1, e1, i1, d1⟩ := h m List.mem_cons_self v (l ++ rest) o
    obtain ⟨n2, v2, o2, e2, i2, d2⟩ := ih (fun m hm => h m (List.mem_cons_of_mem _ hm)) v1 rest o1
    refine ⟨n1 + n2, v2, o2, ?_, fun i hi => i2 i (i1 i hi), ?_⟩
    · rw [rounds_add]
      have : (m :: l) ++ rest = m :: (l ++ rest) := rfl
      rw [this, e1, e2]
    · intro x hx
      rcases List.mem_cons.1 hx with rfl | hx
      · exact i2 _ (d1 _ (by simp))
      · exact d2 x hx

theorem pop_step {g : Graph} {top m : Nat} {v : List MobID} {rest o : List Nat}
    (h : ∀ b, Direct g m b → g.idOf b ∈ v) : Reaches g top ⟨v, m :: rest, o⟩ [m] rest := by
  have hp : pushed g v m = [] := by
    rw [List.eq_nil_iff_forall_not_mem]
    intro b hb
    obtain ⟨h1, h2⟩ := mem_pushed.1 hb
    exact h2 (h b h1)
  by_cases hm : g.idOf m ∈ v
  · exact ⟨1, v, o, by simp only [rounds, step, hp, if_true, hm], fun _ h => h, by simpa using hm⟩
  · exact ⟨1, g.idOf m :: v, if m = top then o else o ++ [m],
      by simp only [rounds, step, hp, if_true, hm, if_false], fun _ h => List.mem_cons_of_mem _ h, by simp⟩

theorem reaches_of_acc {g : Graph} {top m : Nat} (h : Acc (fun b a => Direct g a b) m) :
    ∀ v rest o, Reaches g top ⟨v, m :: rest, o⟩ [m] rest := by
  induction h with
  | intro m _ ih =>
    intro v rest o
    by_cases hp : pushed g v m = []
    · refine pop_step fun b hb => ?_
      by_cases hv : g.idOf b ∈ v
      · exact hv
      · have := mem_pushed.2 ⟨hb, hv⟩
        rw [hp] at this; cases this
    · obtain ⟨n1, v1, o1, e1, i1, d1⟩ := reaches_list (g := g) (top := top) (pushed g v m).reverse (by
        intro x hx
        exact ih x (mem_pushed.1 (List.mem_reverse.1 hx)).1) v (m :: rest) o
      obtain ⟨n2, v2, o2, e2, i2, d2⟩ := pop_step (g := g) (top := top) (m := m) (v := v1) (rest := rest)
        (o := o1) (by
          intro b hb
          by_cases hv : g.idOf b ∈ v
          · exact i1 _ hv
          · exact d1 b (List.mem_reverse.2 (mem_pushed.2 ⟨hb, hv⟩)))
      refine ⟨1 + (n1 + n2), v2, o2, ?_, fun i hi => i2 i (i1 i hi), d2⟩
      rw [rounds_add, rounds_add]
      have : rounds g top 1 ⟨v, m :: rest, o⟩ = ⟨v, (pushed g v m).reverse ++ m :: rest, o⟩ := by
        simp only [rounds, step, hp, if_false]
      rw [this, e1, e2]

/-! ### Invariant -/

/-- What holds at the beginning of every round. -/
structure Inv (g : Graph) (top : Nat) (s : St) : Prop where
  stack : ∀ m ∈ s.stack, ReflTransGen (Direct g) top m
  visited : ∀ i ∈ s.visited, ∃ a, g.idOf a = i ∧ ReflTransGen (Direct g) top a ∧ (a = top ∨ a ∈ s.out) ∧
    Acc (fun b a => Direct g a b) a ∧ ∀ b, Direct g a b → g.idOf b ∈ s.visited
  out : ∀ a ∈ s.out, g.idOf a ∈ s.visited ∧ a ≠ top ∧ ReflTransGen (Direct g) top a
  nodup : s.out.Nodup
  order : ∀ pre a post, s.out = pre ++ a :: post → ∀ b, Direct g a b → b ∈ pre ∨ b = top
  selfSeen : top ∈ s.stack ∨ g.idOf top ∈ s.visited

theorem Sound.inj {g : Graph} {top a b : Nat} (hs : Sound g top) (ha : ReflTransGen (Direct g) top a)
    (hb : ReflTransGen (Direct g) top b) (h : g.idOf a = g.idOf b) : a = b := by
  have key : ∀ x, ReflTransGen (Direct g) top x → x = top ∨ g.find (g.idOf x) = some x := by
    intro x hx
    rcases ReflTransGen.cases_tail hx with rfl | ⟨y, _, c, i, _, _, hf⟩
    · exact .inl rfl
    · rw [hs.own i x hf]; exact .inr hf
  rcases key a ha with ha' | ha'
  · rcases key b hb with hb' | hb'
    · rw [ha', hb']
    · rw [← h, ha'] at hb'; rw [ha', hs.selfFound b hb']
  · rcases key b hb with hb' | hb'
    · rw [h, hb'] at ha'; rw [hb', hs.selfFound a ha']
    · rw [h, hb'] at ha'; injection ha' with ha'; exact ha'.symm

theorem inv_start {g : Graph} {top : Nat} : Inv g top (start top) where
  stack m hm := by simp [start] at hm; subst hm; exact .refl
  visited i hi := by simp [start] at hi
  out a ha := by simp [start] at ha
  nodup := List.nodup_nil
  order pre a post h := by simp [start] at h
  selfSeen := .inl (by simp [start])

theorem Inv.step {g : Graph} {top : Nat} {s : St} (hs : Sound g top) (h : Inv g top s) :
    Inv g top (step g top s) := by
  obtain ⟨v, stack, out⟩ := s
  cases stack with
  | nil => exact h
  | cons m rest =>
    have hmr := h.stack m List.mem_cons_self
    by_cases hp : pushed g v m = []
    · have hch : ∀ b, Direct g m b → g.idOf b ∈ v := by
        intro b hb
        by_cases hv : g.idOf b ∈ v
        · exact hv
        · have := mem_pushed.2 ⟨hb, hv⟩
          rw [hp] at this; cases this
      by_cases hm : g.idOf m ∈ v
      · have : Depends.step g top ⟨v, m :: rest, out⟩ = ⟨v, rest, out⟩ := by
          simp only [Depends.step, hp, if_true, hm]
        rw [this]
        refine ⟨fun x hx => h.stack x (List.mem_cons_of_mem _ hx), h.visited, h.out, h.nodup, h.order, ?_⟩
        rcases h.selfSeen with h' | h'
        · rcases List.mem_cons.1 h' with rfl | h'
          · exact .inr hm
          · exact .inl h'
        · exact .inr h'
      · have hacc : Acc (fun b a => Direct g a b) m := by
          refine ⟨_, fun b hb => ?_⟩
          obtain ⟨a, h1, h2, _, h4, _⟩ := h.visited _ (hch b hb)
          have := hs.inj h2 (hmr.tail hb) h1
          rw [← this]; exact h4
        have hmo : m ∉ out := fun hmo => hm (h.out m hmo).1
        have : Depends.step g top ⟨v, m :: rest, out⟩ =
            ⟨g.idOf m :: v, rest, if m = top then out else out ++ [m]⟩ := by
          simp only [Depends.step, hp, if_true, hm, if_false]
        rw [this]
        have hin : ∀ a, a ∈ (if m = top then out else out ++ [m]) ↔ a ∈ out ∨ (a = m ∧ m ≠ top) := by
          intro a
          by_cases hms : m = top
          · rw [if_pos hms]; simp [hms]
          · rw [if_neg hms]; simp [hms]
        refine ⟨fun x hx => h.stack x (List.mem_cons_of_mem _ hx), ?_, ?_, ?_, ?_, ?_⟩
        · intro i hi
          rcases List.mem_cons.1 hi with rfl | hi
          · refine ⟨m, rfl, hmr, ?_, hacc, fun b hb => List.mem_cons_of_mem _ (hch b hb)⟩
            by_cases hms : m = top
            · exact .inl hms
            · exact .inr ((hin m).2 (.inr ⟨rfl, hms⟩))
          · obtain ⟨a, h1, h2, h3, h4, h5⟩ := h.visited i hi
            exact ⟨a, h1, h2, h3.imp_right fun h => (hin a).2 (.inl h), h4,
              fun b hb => List.mem_cons_of_mem _ (h5 b hb)⟩
        · intro a ha
          rcases (hin a).1 ha with ha | ⟨rfl, hms⟩
          · obtain ⟨h1, h2, h3⟩ := h.out a ha
            exact ⟨List.mem_cons_of_mem _ h1, h2, h3⟩
          · exact ⟨List.mem_cons_self, hms, hmr⟩
        · show (if m = top then out else out ++ [m]).Nodup
          split
          · exact h.nodup
          · rw [List.nodup_append]
            refine ⟨h.nodup, by simp, ?_⟩
            intro a ha b hb
            simp at hb; subst hb
            rintro rfl; exact hmo ha
        · intro pre a post he b hb
          have he : (if m = top then out else out ++ [m]) = pre ++ a :: post := he
          split at he
          · exact h.order pre a post he b hb
          · rcases List.eq_nil_or_concat post with rfl | ⟨post', y, rfl⟩
            · obtain ⟨h1, h2⟩ := List.append_inj' (t₁ := [m]) (t₂ := [a]) he rfl
              simp at h2; subst h1 h2
              obtain ⟨a', h1, h2, h3, _, _⟩ := h.visited _ (hch b hb)
              have := hs.inj h2 (hmr.tail hb) h1
              subst this
              exact h3.symm
            · have he' : out ++ [m] = (pre ++ a :: post') ++ [y] := by simpa using he
              obtain ⟨h1, _⟩ := List.append_inj' he' rfl
              exact h.order pre a post' h1 b hb
        · rcases h.selfSeen with h' | h'
          · rcases List.mem_cons.1 h' with rfl | h'
            · exact .inr List.mem_cons_self
            · exact .inl h'
          · exact .inr (List.mem_cons_of_mem _ h')
    · have : Depends.step g top ⟨v, m :: rest, out⟩ = ⟨v, (pushed g v m).reverse ++ m :: rest, out⟩ := by
        simp only [Depends.step, hp, if_false]
      rw [this]
      refine ⟨?_, h.visited, h.out, h.nodup, h.order, ?_⟩
      · intro x hx
        rcases List.mem_append.1 hx with hx | hx
        · exact hmr.tail (mem_pushed.1 (List.mem_reverse.1 hx)).1
        · exact h.stack x hx
      · exact h.selfSeen.imp_left fun h => List.mem_append_right _ h

theorem inv_rounds {g : Graph} {top : Nat} (hs : Sound g top) : ∀ (n : Nat) (s : St), Inv g top s →
    Inv g top (rounds g top n s) := by
  intro n
  induction n with
  | zero => exact fun s h => h
  | succ n ih => intro s h; exact ih _ (h.step hs)

/-! ### The property -/

/-- C32: the iteration ends exactly if there is no endless chain of dependencies from the mob. -/
theorem C32_ends_iff {g : Graph} {top : Nat} (hs : Sound g top) :
    (∃ out, Ends g top out) ↔ Acc (fun b a => Direct g a b) top := by
  constructor
  · rintro ⟨out, n, v, h⟩
    have hi := inv_rounds hs n _ (inv_start (g := g) (top := top))
    rw [h] at hi
    rcases hi.selfSeen with h' | h'
    · cases h'
    · obtain ⟨a, h1, h2, _, h4, _⟩ := hi.visited _ h'
      have := hs.inj h2 .refl h1
      rwa [this] at h4
  · intro h
    obtain ⟨n, v, o, e, _, _⟩ := reaches_of_acc (top := top) h [] [] []
    exact ⟨o, n, v, e⟩

theorem acc_no_cycle {g : Graph} {a : Nat} (h : Acc (fun b a => Direct g a b) a) : ¬ TransGen (Direct g) a a := by
  induction h with
  | intro a _ ih =>
    intro hc
    obtain ⟨b, h1, h2⟩ := TransGen.head'_iff.1 hc
    exact ih b h1 (TransGen.tail'_iff.2 ⟨a, h2, h1⟩)

/-- C32: so it does not end if a mob that is the starting mob or one it depends on depends on itself. -/
theorem C32_cycle {g : Graph} {top a : Nat} (hs : Sound g top) (ha : ReflTransGen (Direct g) top a)
    (hc : TransGen (Direct g) a a) (n : Nat) : (rounds g top n (start top)).stack ≠ [] := by
  intro hn
  have hacc := (C32_ends_iff hs).1 ⟨(rounds g top n (start top)).out, n, (rounds g top n (start top)).visited, by
    rw [← hn]⟩
  have ha' : ∀ x, ReflTransGen (Direct g) top x → Acc (fun b a => Direct g a b) x := by
    intro x hx
    induction hx with
    | refl => exact hacc
    | tail _ h ih => exact ih.inv h
  exact acc_no_cycle (ha' a ha) hc

/-- C32: it does end if the mobs it depends on are finitely many and none of them depends on itself. -/
theorem C32_acyclic {g : Graph} {top : Nat} (hs : Sound g top) (all : List Nat)
    (hall : ∀ a, ReflTransGen (Direct g) top a → a ∈ all)
    (hc : ∀ a, ReflTransGen (Direct g) top a → ¬ TransGen (Direct g) a a) : ∃ out, Ends g top out := by
  classical
  rw [C32_ends_iff hs]
  have key : ∀ n a, ReflTransGen (Direct g) top a →
      (all.toFinset.filter fun x => TransGen (Direct g) a x).card ≤ n → Acc (fun b a => Direct g a b) a := by
    intro n
    induction n with
    | zero =>
      intro a ha hn
      refine ⟨_, fun b hb => ?_⟩
      have : b ∈ all.toFinset.filter fun x => TransGen (Direct g) a x :=
        Finset.mem_filter.2 ⟨List.mem_toFinset.2 (hall b (ha.tail hb)), .single hb⟩
      have := Finset.card_pos.2 ⟨b, this⟩
      omega
    | succ n ih =>
      intro a ha hn
      refine ⟨_, fun b hb => ih b (ha.tail hb) ?_⟩
      have hlt : (all.toFinset.filter fun x => TransGen (Direct g) b x).card <
          (all.toFinset.filter fun x => TransGen (Direct g) a x).card := by
        refine Finset.card_lt_card ⟨?_, ?_⟩
        · intro x hx
          obtain ⟨h1, h2⟩ := Finset.mem_filter.1 hx
          exact Finset.mem_filter.2 ⟨h1, TransGen.head hb h2⟩
        · intro hsub
          have hba := hsub (Finset.mem_filter.2 ⟨List.mem_toFinset.2 (hall b (ha.tail hb)), .single hb⟩)
          exact hc b (ha.tail hb) (Finset.mem_filter.1 hba).2
      omega
  exact key _ top .refl (Nat.le_refl _)

/-- C32: when it ends, no mob is listed twice, the mobs listed are exactly the ones the starting mob
depends on directly or indirectly, and every one comes after those it depends on itself. -/
theorem C32_result {g : Graph} {top : Nat} (hs : Sound g top) {out : List Nat} (h : Ends g top out) :
    out.Nodup ∧ (∀ a, a ∈ out ↔ TransGen (Direct g) top a) ∧
    ∀ pre a post, out = pre ++ a :: post → ∀ b, Direct g a b → b ∈ pre := by
  have hacc := (C32_ends_iff hs).1 ⟨out, h⟩
  obtain ⟨n, v, h⟩ := h
  have hi := inv_rounds hs n _ (inv_start (g := g) (top := top))
  rw [h] at hi
  have hself : g.idOf top ∈ v := by
    rcases hi.selfSeen with h' | h'
    · cases h'
    · exact h'
  have hv : ∀ a, ReflTransGen (Direct g) top a → g.idOf a ∈ v := by
    intro a ha
    induction ha with
    | refl => exact hself
    | tail h1 h2 ih =>
      obtain ⟨a, e1, e2, _, _, e5⟩ := hi.visited _ ih
      have := hs.inj e2 h1 e1
      subst this
      exact e5 _ h2
  have hout : ∀ a, a ∈ out ↔ TransGen (Direct g) top a := by
    intro a
    constructor
    · intro ha
      obtain ⟨_, h2, h3⟩ := hi.out a ha
      rcases (reflTransGen_iff_eq_or_transGen).1 h3 with h3 | h3
      · exact absurd h3 h2
      · exact h3
    · intro ha
      obtain ⟨a', e1, e2, e3, _, _⟩ := hi.visited _ (hv a ha.to_reflTransGen)
      have := hs.inj e2 ha.to_reflTransGen e1
      subst this
      rcases e3 with rfl | e3
      · exact absurd ha (acc_no_cycle hacc)
      · exact e3
  refine ⟨hi.nodup, hout, fun pre a post he b hb => ?_⟩
  rcases hi.order pre a post he b hb with h' | rfl
  · exact h'
  · have ha : a ∈ out := by rw [he]; simp
    exact absurd (((hout a).1 ha).tail hb) (acc_no_cycle hacc)

/-! ### Examples -/

/-- The id of mob `n`. -/
def exIdOf (n : Nat) : MobID := ⟨List.replicate 32 (UInt8.ofNat (n + 1)), by simp⟩

/-- A clip of mob `n`. -/
def exClipOf (n : Nat) : SourceClip :=
  { toComponent := exComp [], length := 12, track_id := 1, start_time := 5, mob_id := some (exIdOf n) }

/-- The clips of six mobs: 0 has clips of 1 and 2, 2 of 3 and 1, 1 of 3, while 4 and 5 have clips of each
other. -/
def exClips : Nat → List Nat
  | 0 => [1, 2]
  | 1 => [3]
  | 2 => [3, 1]
  | 4 => [5, 3]
  | 5 => [4]
  | _ => []

/-- These mobs in a bin; between their clips there are gaps and clips of mobs that are elsewhere. -/
def exGraph : Graph where
  walk n := exFill :: exClip :: (exClips n).map fun m => .SCLP (exClipOf m)
  idOf := exIdOf
  find i := (List.range 6).find? fun n => exIdOf n = i

theorem exGraph_sound (n : Nat) (hn : n < 6) : Sound exGraph n := by
  have h : ∀ i m, exGraph.find i = some m → m < 6 ∧ exGraph.idOf m = i := by
    intro i m h
    have h : (List.range 6).find? (fun n => decide (exIdOf n = i)) = some m := h
    have h2 := List.find?_some h
    refine ⟨?_, of_decide_eq_true h2⟩
    exact List.mem_range.1 (List.mem_of_find?_eq_some h)
  refine ⟨fun i m hm => (h i m hm).2, fun m hm => ?_⟩
  obtain ⟨h1, h2⟩ := h _ _ hm
  have inj : ∀ a < 6, ∀ b < 6, exIdOf a = exIdOf b → a = b := by decide +kernel
  exact inj m h1 n hn h2

theorem exGraph_direct {a b : Nat} (h : b ∈ exClips a) (hb : b < 6) : Direct exGraph a b := by
  refine ⟨exClipOf b, exIdOf b, ?_, rfl, ?_⟩
  · simp only [exGraph, List.mem_cons, List.mem_map]
    exact .inr (.inr ⟨b, h, rfl⟩)
  · have : ∀ b < 6, exGraph.find (exIdOf b) = some b := by decide +kernel
    exact this b hb

/-- Mob 0 depends on 3, 1 and 2, listed in this order. -/
example : Ends exGraph 0 [3, 1, 2] ∧ TransGen (Direct exGraph) 0 3 := by
  have h : Ends exGraph 0 [3, 1, 2] := by
    have hr : rounds exGraph 0 9 (start 0) = ⟨[exIdOf 0, exIdOf 2, exIdOf 1, exIdOf 3], [], [3, 1, 2]⟩ := by
      rfl
    exact ⟨_, _, hr⟩
  exact ⟨h, ((C32_result (exGraph_sound 0 (by decide)) h).2.1 3).1 (by decide)⟩

/-- Mobs 4 and 5 depend on each other; listing the mobs on which 4 depends does not end. -/
example (n : Nat) : (rounds exGraph 4 n (start 4)).stack ≠ [] :=
  C32_cycle (exGraph_sound 4 (by decide)) .refl
    (.tail (.single (exGraph_direct (b := 5) (by decide) (by decide))) (exGraph_direct (by decide) (by decide))) n

/-- C32_acyclic: no mob below mob 0 depends on itself. -/
example : ∃ out, Ends exGraph 0 out := by
  have clip : ∀ a b, a < 4 → Direct exGraph a b → b ∈ exClips a := by
    rintro a b ha ⟨x, i, hx, hi, hf⟩
    have h1 : b < 6 ∧ exIdOf b = i := by
      have hf : (List.range 6).find? (fun n => decide (exIdOf n = i)) = some b := hf
      have h2 := List.find?_some hf
      exact ⟨List.mem_range.1 (List.mem_of_find?_eq_some hf), of_decide_eq_true h2⟩
    simp only [exGraph, List.mem_cons, List.mem_map] at hx
    rcases hx with hx | hx | ⟨m, hm, hx⟩
    · cases hx
    · cases hx
      cases hi
      rw [show exGraph.find MobID.zero = none from by decide +kernel] at hf
      cases hf
    · cases hx
      cases hi
      have inj : ∀ a < 4, ∀ m ∈ exClips a, ∀ b < 6, exIdOf b = exIdOf m → b = m := by decide +kernel
      exact inj a ha m hm b h1.1 h1.2 ▸ hm
  have step : ∀ a < 4, ∀ b ∈ exClips a, b < 4 ∧ [3, 1, 2, 0].idxOf b < [3, 1, 2, 0].idxOf a := by decide +kernel
  have below : ∀ a, ReflTransGen (Direct exGraph) 0 a → a < 4 := by
    intro a h
    induction h with
    | refl => decide
    | tail _ h ih => exact (step _ ih _ (clip _ _ ih h)).1
  refine C32_acyclic (exGraph_sound 0 (by decide)) (List.range 4) (fun a h => List.mem_range.2 (below a h)) ?_
  intro a ha hc
  have : ∀ b, TransGen (Direct exGraph) a b → b < 4 ∧ [3, 1, 2, 0].idxOf b < [3, 1, 2, 0].idxOf a := by
    intro b h
    induction h with
    | single h => exact step _ (below a ha) _ (clip _ _ (below a ha) h)
    | tail _ h ih =>
      have := step _ ih.1 _ (clip _ _ ih.1 h)
      exact ⟨this.1, this.2.trans ih.2⟩
  exact absurd (this a hc).2 (Nat.lt_irrefl _)

end Avb.Depends

import Verif.Model.Nested
import Verif.Props.Timeline
import Verif.Props.Editing
import Verif.Props.Errors
import Mathlib.Logic.Relation

/-
C81: lengths and positions of sequences over the objects of a file, nested sequences included.
-/

namespace Avb.Nested

open Relation

/-! ### specification -/

/-- The components in a list of references, in order, with those of the sequences among them in their place: whether
each is a transition, and its length. -/
inductive Flat (get : Get) : List Ref → List SeqItem → Prop
  | nil : Flat get [] []
  | clip {r rs o v l} : get r = .ok (some o) → o.cls ≠ .SEQU → (Print.shown o).length = some v → Flat get rs l →
      Flat get (r :: rs) (⟨decide (o.cls = .TNFX), v⟩ :: l)
  | seq {r rs x l l'} : get r = .ok (some (.SEQU x)) → Flat get x.components l → Flat get rs l' →
      Flat get (r :: rs) (l ++ l')

/-- The first sequence is a component of the second. -/
def Inside (get : Get) (y x : Sequence) : Prop := ∃ r ∈ x.components, get r = .ok (some (.SEQU y))

/-- A component that can be loaded, is not null, and is a sequence or has a length. -/
def Good (get : Get) (r : Ref) : Prop :=
  ∃ o, get r = .ok (some o) ∧ (o.cls = .SEQU ∨ ∃ v, (Print.shown o).length = some v)

/-! ### lengths -/

theorem length_other {get : Get} {n : Nat} {o : Obj} (h : o.cls ≠ .SEQU) :
    length get (n + 1) o = match (Print.shown o).length with
      | some l => .ok l
      | none => .error .attribute := by
  cases o <;> first | rfl | exact absurd rfl h

theorem cls_seq {o : Obj} (h : o.cls = .SEQU) : ∃ x, o = .SEQU x := by
  cases o <;> first | exact ⟨_, rfl⟩ | (exact absurd h (by decide)) | cases h

theorem loop_sound {get : Get} {n : Nat}
    (ih : ∀ x v, length get n (.SEQU x) = .ok v → ∃ l, Flat get x.components l ∧ v = (l.map SeqItem.signed).sum) :
    ∀ (rs : List Ref) (a v : Int), lengthLoop get (length get n) a rs = .ok v →
      ∃ l, Flat get rs l ∧ v = a + (l.map SeqItem.signed).sum := by
  intro rs
  induction rs with
  | nil => intro a v h; cases h; exact ⟨[], .nil, by simp⟩
  | cons r rs ihr =>
    intro a v h
    unfold lengthLoop at h
    cases hg : get r with
    | error e => rw [hg] at h; cases h
    | ok oo =>
      rw [hg] at h
      cases oo with
      | none => cases h
      | some o =>
        dsimp only at h
        cases hl : length get n o with
        | error e => rw [hl] at h; cases h
        | ok w =>
          rw [hl] at h
          dsimp only at h
          by_cases hs : o.cls = .SEQU
          · obtain ⟨x, rfl⟩ := cls_seq hs
            rw [if_neg (nofun : ¬ (Obj.SEQU x).cls = .TNFX)] at h
            obtain ⟨l1, h1, rfl⟩ := ih x w hl
            obtain ⟨l2, h2, rfl⟩ := ihr _ _ h
            exact ⟨l1 ++ l2, .seq hg h1 h2, by rw [List.map_append, List.sum_append]; omega⟩
          · have hw : (Print.shown o).length = some w := by
              cases n with
              | zero => cases hl
              | succ n =>
                rw [length_other hs] at hl
                split at hl
                · rename_i h1; rw [h1]; cases hl; rfl
                · cases hl
            by_cases ht : o.cls = .TNFX
            · rw [if_pos ht] at h
              obtain ⟨l, h1, rfl⟩ := ihr _ _ h
              refine ⟨_, .clip hg hs hw h1, ?_⟩
              simp only [List.map_cons, List.sum_cons, SeqItem.signed, ht, decide_true, if_true]
              omega
            · rw [if_neg ht] at h
              obtain ⟨l, h1, rfl⟩ := ihr _ _ h
              refine ⟨_, .clip hg hs hw h1, ?_⟩
              simp only [List.map_cons, List.sum_cons, SeqItem.signed, ht, decide_false, Bool.false_eq_true, if_false]
              omega

theorem length_sound {get : Get} : ∀ (n : Nat) (x : Sequence) (v : Int), length get n (.SEQU x) = .ok v →
    ∃ l, Flat get x.components l ∧ v = (l.map SeqItem.signed).sum
  | 0, _, _, h => nomatch h
  | n + 1, x, v, h => by
    obtain ⟨l, h1, h2⟩ := loop_sound (length_sound n) x.components 0 v h
    exact ⟨l, h1, by omega⟩

theorem flat_complete {get : Get} {rs : List Ref} {l : List SeqItem} (h : Flat get rs l) :
    ∃ N, ∀ n ≥ N, ∀ a, lengthLoop get (length get n) a rs = .ok (a + (l.map SeqItem.signed).sum) := by
  induction h with
  | nil => exact ⟨0, fun n _ a => by simp [lengthLoop]⟩
  | @clip r rs o v l hg hs hv _ ih =>
    obtain ⟨N, hN⟩ := ih
    refine ⟨N + 1, fun n hn a => ?_⟩
    obtain ⟨m, rfl⟩ : ∃ m, n = m + 1 := ⟨n - 1, by omega⟩
    unfold lengthLoop
    rw [hg]
    dsimp only
    rw [length_other hs, hv]
    dsimp only
    rw [hN _ (by omega), hN _ (by omega), List.map_cons, List.sum_cons, SeqItem.signed]
    by_cases ht : o.cls = .TNFX
    · rw [if_pos ht]
      simp only [ht, decide_true, if_true]
      congr 1; omega
    · rw [if_neg ht]
      simp only [ht, decide_false, Bool.false_eq_true, if_false]
      congr 1; omega
  | @seq r rs x l l' hg _ _ ih1 ih2 =>
    obtain ⟨N1, h1⟩ := ih1
    obtain ⟨N2, h2⟩ := ih2
    refine ⟨N1 + N2 + 1, fun n hn a => ?_⟩
    obtain ⟨m, rfl⟩ : ∃ m, n = m + 1 := ⟨n - 1, by omega⟩
    unfold lengthLoop
    rw [hg]
    dsimp only
    have e : length get (m + 1) (.SEQU x) = lengthLoop get (length get m) 0 x.components := rfl
    rw [e, h1 m (by omega)]
    dsimp only
    rw [if_neg (nofun : ¬ (Obj.SEQU x).cls = .TNFX), h2 _ (by omega), List.map_append, List.sum_append]
    congr 1; omega

/-- C81: a sequence has a length, when enough nested calls are allowed, exactly if its components and those of the
sequences in it, and so on, form a finite list of objects with lengths; and then it is the sum of these, transitions
counted negative. -/
theorem C81_length {get : Get} (x : Sequence) (v : Int) :
    (∃ N, ∀ n ≥ N, length get n (.SEQU x) = .ok v) ↔
      ∃ l, Flat get x.components l ∧ v = (l.map SeqItem.signed).sum := by
  constructor
  · rintro ⟨N, h⟩
    exact length_sound N x v (h N (le_refl _))
  · rintro ⟨l, hl, rfl⟩
    obtain ⟨N, h⟩ := flat_complete hl
    refine ⟨N + 1, fun n hn => ?_⟩
    obtain ⟨m, rfl⟩ : ∃ m, n = m + 1 := ⟨n - 1, by omega⟩
    have := h m (by omega) 0
    rw [Int.zero_add] at this
    exact this

theorem flat_unique {get : Get} {rs : List Ref} {l l' : List SeqItem} (h : Flat get rs l) (h' : Flat get rs l') :
    l = l' := by
  induction h generalizing l' with
  | nil => cases h'; rfl
  | clip hg hs hv _ ih =>
    cases h' with
    | clip hg' hs' hv' h2 =>
      rw [hg] at hg'
      cases hg'
      rw [hv] at hv'
      cases hv'
      rw [ih h2]
    | seq hg' h1 h2 =>
      rw [hg] at hg'
      cases hg'
      exact absurd rfl hs
  | seq hg _ _ ih1 ih2 =>
    cases h' with
    | clip hg' hs' hv' h2 =>
      rw [hg] at hg'
      cases hg'
      exact absurd rfl hs'
    | seq hg' h1 h2 =>
      rw [hg] at hg'
      cases hg'
      rw [ih1 h1, ih2 h2]

/-- C81: a length found with some number of nested calls is found with any number above. -/
theorem C81_more {get : Get} {x : Sequence} {n : Nat} {v : Int} (h : length get n (.SEQU x) = .ok v) {m : Nat}
    (hm : n ≤ m) : length get m (.SEQU x) = .ok v := by
  induction n generalizing x v m with
  | zero => cases h
  | succ n ih =>
    obtain ⟨k, rfl⟩ : ∃ k, m = k + 1 := ⟨m - 1, by omega⟩
    have key : ∀ (rs : List Ref) (a v : Int), lengthLoop get (length get n) a rs = .ok v →
        lengthLoop get (length get k) a rs = .ok v := by
      intro rs
      induction rs with
      | nil => intro a v h; exact h
      | cons r rs ihr =>
        intro a v h
        unfold lengthLoop at h ⊢
        cases hg : get r with
        | error e => rw [hg] at h; cases h
        | ok oo =>
          rw [hg] at h
          cases oo with
          | none => cases h
          | some o =>
            dsimp only at h ⊢
            cases hl : length get n o with
            | error e => rw [hl] at h; cases h
            | ok w =>
              have hk : length get k o = .ok w := by
                by_cases hs : o.cls = .SEQU
                · obtain ⟨y, rfl⟩ := cls_seq hs
                  exact ih hl (by omega)
                · cases n with
                  | zero => cases hl
                  | succ n =>
                    obtain ⟨j, rfl⟩ : ∃ j, k = j + 1 := ⟨k - 1, by omega⟩
                    rw [length_other hs] at hl ⊢
                    exact hl
              rw [hl] at h
              rw [hk]
              dsimp only at h ⊢
              split at h
              · rename_i ht; rw [if_pos ht]; exact ihr _ _ h
              · rename_i ht; rw [if_neg ht]; exact ihr _ _ h
    exact key _ _ _ h

theorem flat_acc {get : Get} {rs : List Ref} {l : List SeqItem} (h : Flat get rs l) :
    ∀ r ∈ rs, ∀ y, get r = .ok (some (.SEQU y)) → Acc (Inside get) y := by
  induction h with
  | nil => intro r hr; cases hr
  | clip hg hs _ _ ih =>
    intro r hr y hy
    rcases List.mem_cons.1 hr with rfl | hr
    · rw [hg] at hy; cases hy; exact absurd rfl hs
    · exact ih r hr y hy
  | seq hg _ _ ih1 ih2 =>
    intro r hr y hy
    rcases List.mem_cons.1 hr with rfl | hr
    · rw [hg] at hy
      cases hy
      exact ⟨_, fun z ⟨r', hr', hz⟩ => ih1 r' hr' z hz⟩
    · exact ih2 r hr y hy

theorem flat_good {get : Get} {rs : List Ref} {l : List SeqItem} (h : Flat get rs l) :
    (∀ r ∈ rs, Good get r) ∧
      ∀ r ∈ rs, ∀ y, get r = .ok (some (.SEQU y)) → ∃ l', Flat get y.components l' := by
  induction h with
  | nil => exact ⟨fun r hr => (nomatch hr), fun r hr => (nomatch hr)⟩
  | clip hg hs hv _ ih =>
    refine ⟨fun r hr => ?_, fun r hr y hy => ?_⟩
    · rcases List.mem_cons.1 hr with rfl | hr
      · exact ⟨_, hg, .inr ⟨_, hv⟩⟩
      · exact ih.1 r hr
    · rcases List.mem_cons.1 hr with rfl | hr
      · rw [hg] at hy; cases hy; exact absurd rfl hs
      · exact ih.2 r hr y hy
  | seq hg h1 _ _ ih2 =>
    refine ⟨fun r hr => ?_, fun r hr y hy => ?_⟩
    · rcases List.mem_cons.1 hr with rfl | hr
      · exact ⟨_, hg, .inl rfl⟩
      · exact ih2.1 r hr
    · rcases List.mem_cons.1 hr with rfl | hr
      · rw [hg] at hy; cases hy; exact ⟨_, h1⟩
      · exact ih2.2 r hr y hy

theorem flat_of {get : Get} {rs : List Ref} (hg : ∀ r ∈ rs, Good get r)
    (hs : ∀ r ∈ rs, ∀ y, get r = .ok (some (.SEQU y)) → ∃ l, Flat get y.components l) : ∃ l, Flat get rs l := by
  induction rs with
  | nil => exact ⟨[], .nil⟩
  | cons r rs ih =>
    obtain ⟨l, hl⟩ := ih (fun r hr => hg r (by simp [hr])) fun r hr => hs r (by simp [hr])
    obtain ⟨o, ho, h⟩ := hg r (by simp)
    by_cases hc : o.cls = .SEQU
    · obtain ⟨y, rfl⟩ := cls_seq hc
      obtain ⟨l', hl'⟩ := hs r (by simp) y ho
      exact ⟨_, .seq ho hl' hl⟩
    · obtain ⟨v, hv⟩ := h.resolve_left hc
      exact ⟨_, .clip ho hc hv hl⟩

/-- C81: a sequence has a length, when enough nested calls are allowed, exactly if no chain of sequences in it goes on
without end, and all components of it and of the sequences in it can be loaded, are not null, and have a length. -/
theorem C81_succeeds {get : Get} (x : Sequence) :
    (∃ n v, length get n (.SEQU x) = .ok v) ↔
      Acc (Inside get) x ∧ ∀ y, ReflTransGen (Inside get) y x → ∀ r ∈ y.components, Good get r := by
  constructor
  · rintro ⟨n, v, h⟩
    obtain ⟨l, hl, _⟩ := length_sound n x v h
    refine ⟨⟨_, fun z ⟨r, hr, hz⟩ => flat_acc hl r hr z hz⟩, ?_⟩
    intro y hy
    have : ∃ l, Flat get y.components l := by
      induction hy using ReflTransGen.head_induction_on with
      | refl => exact ⟨l, hl⟩
      | head h1 _ ih =>
        obtain ⟨l', hl'⟩ := ih
        obtain ⟨r, hr, hz⟩ := h1
        exact (flat_good hl').2 r hr _ hz
    obtain ⟨l', hl'⟩ := this
    exact (flat_good hl').1
  · rintro ⟨ha, hg⟩
    have : ∃ l, Flat get x.components l := by
      induction ha with
      | intro x _ ih =>
        exact flat_of (hg x .refl) fun r hr y hy =>
          ih y ⟨r, hr, hy⟩ fun z hz => hg z (hz.tail ⟨r, hr, hy⟩)
    obtain ⟨l, hl⟩ := this
    obtain ⟨N, h⟩ := (C81_length x _).2 ⟨l, hl, rfl⟩
    exact ⟨N, _, h N (le_refl _)⟩

/-- C81: a sequence that is inside of itself has no length, however many nested calls are allowed. -/
theorem C81_cycle {get : Get} {x : Sequence} (h : TransGen (Inside get) x x) (n : Nat) (v : Int) :
    length get n (.SEQU x) ≠ .ok v := by
  intro hl
  have ha := ((C81_succeeds x).1 ⟨n, v, hl⟩).1.transGen
  have : ∀ z, Acc (TransGen (Inside get)) z → ¬ TransGen (Inside get) z z := by
    intro z hz
    induction hz with
    | intro z _ ih => exact fun hzz => ih z hzz hzz
  exact this x ha h

/-- C81: if the sequences in a sequence end, its length, or the exception, does not depend on the number of nested
calls that are allowed beyond some number, and is not `RecursionError`. -/
theorem C81_ends {get : Get} (hg : ∀ r, get r ≠ .error .recursion) {x : Sequence} (h : Acc (Inside get) x) :
    ∃ N a, a ≠ .error .recursion ∧ ∀ n ≥ N, length get n (.SEQU x) = a := by
  induction h with
  | intro x _ ih =>
    have key : ∀ rs : List Ref, (∀ r ∈ rs, r ∈ x.components) → ∃ N, ∀ a, ∃ w, w ≠ .error .recursion ∧
        ∀ n ≥ N, lengthLoop get (length get n) a rs = w := by
      intro rs
      induction rs with
      | nil => exact fun _ => ⟨0, fun a => ⟨.ok a, by simp, fun _ _ => rfl⟩⟩
      | cons r rs ihr =>
        intro hsub
        obtain ⟨N, hN⟩ := ihr fun r hr => hsub r (by simp [hr])
        cases hr : get r with
        | error e =>
          refine ⟨0, fun a => ⟨.error e, by intro hc; cases hc; exact hg r hr, fun n _ => ?_⟩⟩
          unfold lengthLoop
          rw [hr]
        | ok oo =>
          cases oo with
          | none => exact ⟨0, fun a => ⟨.error .attribute, by simp, fun n _ => by unfold lengthLoop; rw [hr]⟩⟩
          | some o =>
            have ho : ∃ M w, w ≠ .error .recursion ∧ ∀ n ≥ M, length get n o = w := by
              by_cases hs : o.cls = .SEQU
              · obtain ⟨y, rfl⟩ := cls_seq hs
                exact ih y ⟨r, hsub r (by simp), hr⟩
              · refine ⟨1, length get 1 o, ?_, fun n hn => ?_⟩
                · rw [length_other hs]
                  split <;> simp
                · obtain ⟨m, rfl⟩ : ∃ m, n = m + 1 := ⟨n - 1, by omega⟩
                  rw [length_other hs, length_other hs]
            obtain ⟨M, w, hw, hM⟩ := ho
            refine ⟨M + N, fun a => ?_⟩
            cases w with
            | error e =>
              refine ⟨.error e, hw, fun n hn => ?_⟩
              unfold lengthLoop
              rw [hr]
              dsimp only
              rw [hM n (by omega)]
            | ok v =>
              obtain ⟨b, hb, hN'⟩ := hN (if o.cls = .TNFX then a - v else a + v)
              refine ⟨b, hb, fun n hn => ?_⟩
              rw [← hN' n (by omega)]
              conv => lhs; unfold lengthLoop
              rw [hr]
              dsimp only
              rw [hM n (by omega)]
              dsimp only
              split <;> rfl
    obtain ⟨N, hN⟩ := key x.components fun _ h => h
    obtain ⟨w, hw, h⟩ := hN 0
    refine ⟨N + 1, w, hw, fun n hn => ?_⟩
    obtain ⟨m, rfl⟩ : ∃ m, n = m + 1 := ⟨n - 1, by omega⟩
    exact h m (by omega)

theorem depth_aux {get : Get} (hg : ∀ r, get r ≠ .error .recursion) : ∀ (k : Nat) (S : List Ref), S.length ≤ k →
    ∀ x : Sequence, Acc (Inside get) x →
      (∀ y, ReflTransGen (Inside get) y x → ∀ r ∈ y.components, ∀ z, get r = .ok (some (.SEQU z)) → r ∈ S) →
      ∃ a, a ≠ .error .recursion ∧ ∀ n ≥ k + 2, length get n (.SEQU x) = a := by
  intro k
  induction k with
  | zero =>
    intro S hS x _ hr
    have hnil : S = [] := List.eq_nil_of_length_eq_zero (by omega)
    subst hnil
    have key : ∀ rs : List Ref, (∀ r ∈ rs, r ∈ x.components) → ∀ a, ∃ w, w ≠ .error .recursion ∧
        ∀ n ≥ 1, lengthLoop get (length get n) a rs = w := by
      intro rs
      induction rs with
      | nil => exact fun _ a => ⟨.ok a, by simp, fun _ _ => rfl⟩
      | cons r rs ihr =>
        intro hsub a
        have ih := ihr fun r hr => hsub r (by simp [hr])
        cases hgr : get r with
        | error e =>
          exact ⟨.error e, by intro hc; cases hc; exact hg r hgr, fun n _ => by unfold lengthLoop; rw [hgr]⟩
        | ok oo =>
          cases oo with
          | none => exact ⟨.error .attribute, by simp, fun n _ => by unfold lengthLoop; rw [hgr]⟩
          | some o =>
            have hs : o.cls ≠ .SEQU := by
              intro hs
              obtain ⟨y, rfl⟩ := cls_seq hs
              exact nomatch hr x .refl r (hsub r (by simp)) y hgr
            have ho : ∀ n ≥ 1, length get n o = length get 1 o := by
              intro n hn
              obtain ⟨m, rfl⟩ : ∃ m, n = m + 1 := ⟨n - 1, by omega⟩
              rw [length_other hs, length_other hs]
            cases hl : length get 1 o with
            | error e =>
              refine ⟨.error e, ?_, fun n hn => ?_⟩
              · rw [length_other hs] at hl
                split at hl
                · cases hl
                · cases hl; simp
              · unfold lengthLoop; rw [hgr]; dsimp only; rw [ho n hn, hl]
            | ok v =>
              obtain ⟨w, hw, h⟩ := ih (if o.cls = .TNFX then a - v else a + v)
              refine ⟨w, hw, fun n hn => ?_⟩
              rw [← h n hn]
              conv => lhs; unfold lengthLoop
              rw [hgr]
              dsimp only
              rw [ho n hn, hl]
              dsimp only
              split <;> rfl
    obtain ⟨w, hw, h⟩ := key x.components (fun _ h => h) 0
    refine ⟨w, hw, fun n hn => ?_⟩
    obtain ⟨m, rfl⟩ : ∃ m, n = m + 1 := ⟨n - 1, by omega⟩
    exact h m (by omega)
  | succ k ihk =>
    intro S hS x hx hr
    have hin : ∀ r ∈ x.components, ∀ y, get r = .ok (some (.SEQU y)) →
        ∃ a, a ≠ .error .recursion ∧ ∀ n ≥ k + 2, length get n (.SEQU y) = a := by
      intro r hrx y hy
      have hyx : Inside get y x := ⟨r, hrx, hy⟩
      have hmem := hr x .refl r hrx y hy
      refine ihk (S.erase r) (by rw [List.length_erase_of_mem hmem]; omega) y (hx.inv hyx) ?_
      intro z hz r' hr' u hu
      have hne : r' ≠ r := by
        rintro rfl
        rw [hy] at hu
        cases hu
        have hcyc : TransGen (Inside get) y y := (TransGen.single ⟨r', hr', hy⟩).trans_left hz
        have : ∀ z, Acc (TransGen (Inside get)) z → ¬ TransGen (Inside get) z z := by
          intro z hz
          induction hz with
          | intro z _ ih => exact fun hzz => ih z hzz hzz
        exact this y (hx.inv hyx).transGen hcyc
      exact (List.mem_erase_of_ne hne).2 (hr z (hz.tail hyx) r' hr' u hu)
    have key : ∀ rs : List Ref, (∀ r ∈ rs, r ∈ x.components) → ∀ a, ∃ w, w ≠ .error .recursion ∧
        ∀ n ≥ k + 2, lengthLoop get (length get n) a rs = w := by
      intro rs
      induction rs with
      | nil => exact fun _ a => ⟨.ok a, by simp, fun _ _ => rfl⟩
      | cons r rs ihr =>
        intro hsub a
        have ih := ihr fun r hr => hsub r (by simp [hr])
        cases hgr : get r with
        | error e =>
          exact ⟨.error e, by intro hc; cases hc; exact hg r hgr, fun n _ => by unfold lengthLoop; rw [hgr]⟩
        | ok oo =>
          cases oo with
          | none => exact ⟨.error .attribute, by simp, fun n _ => by unfold lengthLoop; rw [hgr]⟩
          | some o =>
            have ho : ∃ w, w ≠ .error .recursion ∧ ∀ n ≥ k + 2, length get n o = w := by
              by_cases hs : o.cls = .SEQU
              · obtain ⟨y, rfl⟩ := cls_seq hs
                exact hin r (hsub r (by simp)) y hgr
              · refine ⟨length get 1 o, ?_, fun n hn => ?_⟩
                · rw [length_other hs]
                  split <;> simp
                · obtain ⟨m, rfl⟩ : ∃ m, n = m + 1 := ⟨n - 1, by omega⟩
                  rw [length_other hs, length_other hs]
            obtain ⟨b, hb, ho⟩ := ho
            cases b with
            | error e =>
              exact ⟨.error e, hb, fun n hn => by unfold lengthLoop; rw [hgr]; dsimp only; rw [ho n hn]⟩
            | ok v =>
              obtain ⟨w, hw, h⟩ := ih (if o.cls = .TNFX then a - v else a + v)
              refine ⟨w, hw, fun n hn => ?_⟩
              rw [← h n hn]
              conv => lhs; unfold lengthLoop
              rw [hgr]
              dsimp only
              rw [ho n hn]
              dsimp only
              split <;> rfl
    obtain ⟨w, hw, h⟩ := key x.components (fun _ h => h) 0
    refine ⟨w, hw, fun n hn => ?_⟩
    obtain ⟨m, rfl⟩ : ∃ m, n = m + 1 := ⟨n - 1, by omega⟩
    exact h m (by omega)

theorem file_no_recursion (f : AvbFile) (r : Nat) : readObject f r ≠ .error .recursion := by
  intro h
  rcases C64_read h with ⟨h, _⟩ | ⟨h, _⟩ | ⟨h, _⟩ | ⟨k, _, _, h⟩
  · cases h
  · rcases h with h | h <;> cases h
  · cases h
  · simp [DamageOf] at h

/-- C81: in a file, whatever its bytes, no more nested calls than two above the number of its objects are needed for
the length of a sequence, unless some chain of sequences in it has no end. -/
theorem C81_file (f : AvbFile) {x : Sequence} (h : Acc (Inside (readObject f)) x) :
    ∃ a, a ≠ .error .recursion ∧ ∀ n ≥ f.positions.length + 2, length (readObject f) n (.SEQU x) = a := by
  refine depth_aux (file_no_recursion f) f.positions.length (List.range f.positions.length) (by simp) x h ?_
  intro y _ r _ z hz
  rw [List.mem_range]
  by_contra hn
  have : f.positions[r]? = none := List.getElem?_eq_none (by omega)
  unfold readObject at hz
  simp only [this] at hz
  split at hz <;> cases hz

/-- C81: putting the components of a nested sequence in its place leaves the length as it is. -/
theorem C81_flatten {get : Get} {x x' y : Sequence} {r : Ref} {rs rs' : List Ref} (hx : x.components = rs ++ r :: rs')
    (hx' : x'.components = rs ++ y.components ++ rs') (hr : get r = .ok (some (.SEQU y))) (v : Int) :
    (∃ n, length get n (.SEQU x) = .ok v) ↔ ∃ n, length get n (.SEQU x') = .ok v := by
  have app : ∀ {as bs : List Ref} {l l' : List SeqItem}, Flat get as l → Flat get bs l' → Flat get (as ++ bs) (l ++ l') := by
    intro as bs l l' h h'
    induction h with
    | nil => exact h'
    | clip hg hs hv _ ih => exact .clip hg hs hv ih
    | seq hg h1 _ _ ih2 => rw [List.append_assoc]; exact .seq hg h1 ih2
  have spl : ∀ {as bs : List Ref} {l : List SeqItem}, Flat get (as ++ bs) l →
      ∃ l1 l2, l = l1 ++ l2 ∧ Flat get as l1 ∧ Flat get bs l2 := by
    intro as
    induction as with
    | nil => intro bs l h; exact ⟨[], l, rfl, .nil, h⟩
    | cons a as ih =>
      intro bs l h
      rw [List.cons_append] at h
      cases h with
      | clip hg hs hv h2 =>
        obtain ⟨l1, l2, rfl, h3, h4⟩ := ih h2
        exact ⟨_ :: l1, l2, rfl, .clip hg hs hv h3, h4⟩
      | seq hg h1 h2 =>
        obtain ⟨l1, l2, rfl, h3, h4⟩ := ih h2
        exact ⟨_ ++ l1, l2, by rw [List.append_assoc], .seq hg h1 h3, h4⟩
  have iff : ∀ z : Sequence, (∃ n, length get n (.SEQU z) = .ok v) ↔
      ∃ l, Flat get z.components l ∧ v = (l.map SeqItem.signed).sum := fun z =>
    ⟨fun ⟨n, h⟩ => length_sound n z v h, fun h => by
      obtain ⟨N, h⟩ := (C81_length z v).2 h
      exact ⟨N, h N (le_refl _)⟩⟩
  rw [iff, iff, hx, hx']
  constructor
  · rintro ⟨l, hl, hv⟩
    obtain ⟨l1, l2, rfl, h1, h2⟩ := spl hl
    cases h2 with
    | clip hg hs _ _ => rw [hr] at hg; cases hg; exact absurd rfl hs
    | seq hg h3 h4 =>
      rw [hr] at hg
      cases hg
      exact ⟨_, app (app h1 h3) h4, by rw [hv]; simp⟩
  · rintro ⟨l, hl, hv⟩
    obtain ⟨l12, l3, rfl, h12, h3⟩ := spl hl
    obtain ⟨l1, l2, rfl, h1, h2⟩ := spl h12
    exact ⟨_, app h1 (.seq hr h2 h3), by rw [hv]; simp⟩

/-! ### positions -/

/-- The component is there and has that length, found with `n` nested calls. -/
def Measured (get : Get) (n : Nat) (r : Ref) (i : SeqItem) : Prop :=
  ∃ o, get r = .ok (some o) ∧ length get n o = .ok i.length ∧ i.transition = decide (o.cls = .TNFX)

/-- Asking for the component, or then for its length, raises the exception. -/
def Fails (get : Get) (n : Nat) (r : Ref) (e : Err) : Prop :=
  get r = .error e ∨ (get r = .ok none ∧ e = .attribute) ∨ ∃ o, get r = .ok (some o) ∧ length get n o = .error e

/-- Index and position of what is yielded. -/
def place (a : At) : Nat × Int := (a.index, a.pos)

/-- The same of `seqPositions`. -/
def placeOf (a : SeqPos) : Nat × Int := (a.index, a.pos)

/-- Of the two the second tells index, position, length and kind of the first. -/
def Same (get : Get) (n : Nat) (a : At) (b : SeqPos) : Prop :=
  a.index = b.index ∧ a.pos = b.pos ∧ length get n a.comp = .ok b.comp.length ∧
    b.comp.transition = decide (a.comp.cls = .TNFX)

theorem positionsFrom_good {get : Get} {n : Nat} {rs : List Ref} {is : List SeqItem}
    (h : List.Forall₂ (Measured get n) rs is) (rest : List Ref) (k : Nat) (p : Int) :
    ∃ as, List.Forall₂ (Same get n) as (seqPositionsFrom k p is) ∧
      (∀ a ∈ as, ∃ i, a.index = k + i ∧ ∃ r, rs[i]? = some r ∧ get r = .ok (some a.comp)) ∧
      positionsFrom get (length get n) k p (rs ++ rest) =
        (as ++ (positionsFrom get (length get n) (k + is.length) (seqLengthFrom p is) rest).1,
          (positionsFrom get (length get n) (k + is.length) (seqLengthFrom p is) rest).2) := by
  induction h generalizing k p with
  | nil => exact ⟨[], .nil, by simp, by simp [seqLengthFrom]⟩
  | @cons r i rs is hm _ ih =>
    obtain ⟨o, hg, hl, ht⟩ := hm
    rw [List.cons_append]
    conv => enter [1, as, 2, 2, 1]; unfold positionsFrom
    rw [hg]
    dsimp only
    rw [hl]
    dsimp only
    unfold seqPositionsFrom seqLengthFrom
    by_cases hc : o.cls = .TNFX
    · have hi : i.transition = true := by rw [ht]; simpa using hc
      rw [if_pos hc, if_pos hi, if_pos hi]
      obtain ⟨as, h1, h2, h3⟩ := ih (k + 1) (p - i.length)
      refine ⟨⟨k, p - i.length, o⟩ :: as, .cons ⟨rfl, rfl, hl, ht⟩ h1, ?_, ?_⟩
      · intro a ha
        rcases List.mem_cons.1 ha with rfl | ha
        · exact ⟨0, rfl, r, rfl, hg⟩
        · obtain ⟨j, hj, r', hr'⟩ := h2 a ha
          exact ⟨j + 1, by omega, r', by simpa using hr'⟩
      · rw [h3, List.length_cons, show k + 1 + is.length = k + (is.length + 1) by omega]
        rfl
    · have hi : ¬ i.transition = true := by rw [ht]; simpa using hc
      rw [if_neg hc, if_neg hi, if_neg hi]
      obtain ⟨as, h1, h2, h3⟩ := ih (k + 1) (p + i.length)
      refine ⟨⟨k, p, o⟩ :: as, .cons ⟨rfl, rfl, hl, ht⟩ h1, ?_, ?_⟩
      · intro a ha
        rcases List.mem_cons.1 ha with rfl | ha
        · exact ⟨0, rfl, r, rfl, hg⟩
        · obtain ⟨j, hj, r', hr'⟩ := h2 a ha
          exact ⟨j + 1, by omega, r', by simpa using hr'⟩
      · rw [h3, List.length_cons, show k + 1 + is.length = k + (is.length + 1) by omega]
        rfl

theorem same_places {get : Get} {n : Nat} {as : List At} {bs : List SeqPos} (h : List.Forall₂ (Same get n) as bs) :
    as.map place = bs.map placeOf := by
  induction h with
  | nil => rfl
  | cons h _ ih => rw [List.map_cons, List.map_cons, ih, place, placeOf, h.1, h.2.1]

/-- C81: when all components are there and have lengths, `positions` yields what it does of their lengths, together
with the components themselves, and raises nothing. -/
theorem C81_positions {get : Get} {n : Nat} {x : Sequence} {is : List SeqItem}
    (h : List.Forall₂ (Measured get n) x.components is) :
    (positions get n x).1.map place = (seqPositions is).map placeOf ∧ (positions get n x).2 = none ∧
      ∀ a ∈ (positions get n x).1, ∃ r, x.components[a.index]? = some r ∧ get r = .ok (some a.comp) := by
  obtain ⟨as, h1, h2, h3⟩ := positionsFrom_good h [] 0 0
  rw [List.append_nil] at h3
  have e : positions get n x = (as, none) := by
    unfold positions
    rw [h3]
    simp [positionsFrom]
  rw [e]
  refine ⟨same_places h1, rfl, fun a ha => ?_⟩
  obtain ⟨i, hi, r, hr⟩ := h2 a ha
  rw [Nat.zero_add] at hi
  exact ⟨r, by rw [hi]; exact hr⟩

/-- C81: `positions` gets as far as the first component that cannot be measured: it yields those before, and that
component too when it is there and no transition; then the exception is raised. -/
theorem C81_prefix {get : Get} {n : Nat} {x : Sequence} {rs rs' : List Ref} {r : Ref} {is : List SeqItem} {e : Err}
    (hx : x.components = rs ++ r :: rs') (h : List.Forall₂ (Measured get n) rs is) (hr : Fails get n r e) :
    (positions get n x).2 = some e ∧
      (((∃ o, get r = .ok (some o) ∧ o.cls ≠ .TNFX) ∧
          (positions get n x).1.map place = (seqPositions is).map placeOf ++ [(is.length, seqLength is)]) ∨
        ((∀ o, get r = .ok (some o) → o.cls = .TNFX) ∧
          (positions get n x).1.map place = (seqPositions is).map placeOf)) := by
  obtain ⟨as, h1, _, h3⟩ := positionsFrom_good h (r :: rs') 0 0
  unfold positions
  rw [hx, h3]
  unfold positionsFrom
  rcases hr with hr | ⟨hr, rfl⟩ | ⟨o, hr, hl⟩
  · rw [hr]
    dsimp only
    rw [List.append_nil]
    exact ⟨rfl, .inr ⟨fun o h => (nomatch h), same_places h1⟩⟩
  · rw [hr]
    dsimp only
    rw [List.append_nil]
    exact ⟨rfl, .inr ⟨fun o h => (nomatch h), same_places h1⟩⟩
  · rw [hr]
    dsimp only
    rw [hl]
    dsimp only
    refine ⟨rfl, ?_⟩
    by_cases hc : o.cls = .TNFX
    · rw [if_pos hc, List.append_nil]
      exact .inr ⟨fun o' h => by cases h; exact hc, same_places h1⟩
    · rw [if_neg hc, List.map_append, same_places h1]
      exact .inl ⟨⟨o, rfl, hc⟩, by simp [place, seqLength]; rfl⟩

/-- C81: the length raises the exception of the first component that cannot be measured. -/
theorem C81_length_raises {get : Get} {n : Nat} {x : Sequence} {rs rs' : List Ref} {r : Ref} {is : List SeqItem}
    {e : Err} (hx : x.components = rs ++ r :: rs') (h : List.Forall₂ (Measured get n) rs is) (hr : Fails get n r e) :
    length get (n + 1) (.SEQU x) = .error e := by
  have key : ∀ a, lengthLoop get (length get n) a (rs ++ r :: rs') = .error e := by
    clear hx
    induction h with
    | nil =>
      intro a
      rw [List.nil_append]
      unfold lengthLoop
      rcases hr with hr | ⟨hr, rfl⟩ | ⟨o, hr, hl⟩
      · rw [hr]
      · rw [hr]
      · rw [hr]; dsimp only; rw [hl]
    | cons hm _ ih =>
      intro a
      obtain ⟨o, hg, hl, _⟩ := hm
      rw [List.cons_append]
      unfold lengthLoop
      rw [hg]
      dsimp only
      rw [hl]
      dsimp only
      split
      · exact ih _
      · exact ih _
  have e : length get (n + 1) (.SEQU x) = lengthLoop get (length get n) 0 x.components := rfl
  rw [e, hx]
  exact key 0

/-! ### the nearest component -/

/-- The answers of the two searches tell the same index and position, and kind and length too. -/
def SameOpt (get : Get) (n : Nat) : Option At → Option SeqPos → Prop
  | none, none => True
  | some a, some b => Same get n a b
  | _, _ => False

theorem nearest_same {get : Get} {n : Nat} {as : List At} {bs : List SeqPos} (t : Rat)
    (h : List.Forall₂ (Same get n) as bs) (last : Option At) (last' : Option SeqPos) (hl : SameOpt get n last last') :
    ∃ a, nearestFrom (length get n) t none last as = .ok a ∧ SameOpt get n a (Avb.nearestFrom t last' bs) := by
  induction h generalizing last last' with
  | nil => exact ⟨last, rfl, hl⟩
  | @cons a b as bs hs _ ih =>
    obtain ⟨h1, h2, h3, h4⟩ := hs
    have hsome : last.isSome = last'.isSome := by
      cases last <;> cases last' <;> first | rfl | exact hl.elim
    have h5 : b.comp.transition = true ↔ a.comp.cls = .TNFX := by rw [h4]; simp
    unfold nearestFrom Avb.nearestFrom
    rw [h3]
    dsimp only
    rw [hsome, h2]
    simp only [h5]
    split
    · exact ih last last' hl
    split
    · exact ⟨some a, rfl, h1, h2, h3, h4⟩
    split
    · exact ⟨last, rfl, hl⟩
    · exact ih _ _ ⟨h1, h2, h3, h4⟩

/-- C81: when all components are there and have lengths, the index nearest to a time and its position are those found
from the lengths (C24 says which). -/
theorem C81_nearest {get : Get} {n : Nat} {x : Sequence} {is : List SeqItem}
    (h : List.Forall₂ (Measured get n) x.components is) (t : Rat) :
    nearestIndex get n x t = .ok (nearestIndexAtTime is t) := by
  obtain ⟨as, h1, _, h3⟩ := positionsFrom_good h [] 0 0
  rw [List.append_nil] at h3
  have e : positions get n x = (as, none) := by
    unfold positions
    rw [h3]
    simp [positionsFrom]
  obtain ⟨a, h4, h5⟩ := nearest_same t h1 none none trivial
  unfold nearestIndex nearestIndexAtTime
  rw [e, h4, seqPositions]
  generalize Avb.nearestFrom t none (seqPositionsFrom 0 0 is) = b at h5
  cases a <;> cases b <;> first | rfl | exact h5.elim | (obtain ⟨h6, h7, _⟩ := h5; simp [h6, h7])

/-- C81: and the nearest component is the one at that index. -/
theorem C81_component {get : Get} {n : Nat} {x : Sequence} {is : List SeqItem}
    (h : List.Forall₂ (Measured get n) x.components is) (t : Rat) :
    (x.components = [] ∧ nearestComponent get n x t = .error .index) ∨
      ∃ o c, nearestComponent get n x t = .ok (some o, (nearestIndexAtTime is t).2) ∧
        nearestComponentAtTime is t = .ok (c, (nearestIndexAtTime is t).2) ∧
        length get n o = .ok c.length ∧ c.transition = decide (o.cls = .TNFX) := by
  unfold nearestComponent
  rw [C81_nearest h t]
  dsimp only
  have hf : ∀ (i : Nat), (x.components[i]? = none ∧ is[i]? = none) ∨
      ∃ r c, x.components[i]? = some r ∧ is[i]? = some c ∧ Measured get n r c := by
    intro i
    have hlen := h.length_eq
    rcases Nat.lt_or_ge i x.components.length with hi | hi
    · exact .inr ⟨_, _, List.getElem?_eq_getElem hi, List.getElem?_eq_getElem (hlen ▸ hi), h.get hi (hlen ▸ hi)⟩
    · exact .inl ⟨List.getElem?_eq_none hi, List.getElem?_eq_none (hlen ▸ hi)⟩
  rcases hf (nearestIndexAtTime is t).1 with ⟨h1, h2⟩ | ⟨r, c, h1, h2, o, h3, h4, h5⟩
  · left
    rw [h1]
    refine ⟨?_, rfl⟩
    rcases C24_component is t with ⟨rfl, _⟩ | ⟨c, i, h3, _, h5, _⟩
    · exact List.forall₂_nil_right_iff.1 h
    · rw [h5, h3] at h2
      cases h2
  · right
    rw [h1]
    dsimp only
    rw [h3]
    refine ⟨o, c, rfl, ?_, h4, h5⟩
    unfold nearestComponentAtTime
    rw [h2]

theorem nearest_stops {rec : Obj → Except Err Int} {t : Rat} (e : Option Err) (as bs : List At) (last : Option At)
    (hm : ∀ a ∈ as, ∃ l, rec a.comp = .ok l)
    (h : ∃ pre b post l, as = pre ++ b :: post ∧ rec b.comp = .ok l ∧ l ≠ 0 ∧ t ≤ (b.pos : Rat) ∧
      (last.isSome = true ∨ ∃ c ∈ pre, ∃ l', rec c.comp = .ok l' ∧ l' ≠ 0)) :
    nearestFrom rec t e last (as ++ bs) = nearestFrom rec t none last as := by
  induction as generalizing last with
  | nil => obtain ⟨pre, b, post, l, h, _⟩ := h; simp at h
  | cons a as ih =>
    obtain ⟨pre, b, post, l, heq, hb, hl, hp, hc⟩ := h
    obtain ⟨la, hla⟩ := hm a (by simp)
    rw [List.cons_append]
    unfold nearestFrom
    rw [hla]
    dsimp only
    have hm' : ∀ a ∈ as, ∃ l, rec a.comp = .ok l := fun a ha => hm a (by simp [ha])
    by_cases h0 : la = 0
    · rw [if_pos h0, if_pos h0]
      refine ih last hm' ?_
      cases pre with
      | nil => cases heq; rw [hla] at hb; cases hb; exact absurd h0 hl
      | cons p pre =>
        cases heq
        refine ⟨pre, b, post, l, rfl, hb, hl, hp, hc.imp id ?_⟩
        rintro ⟨c, hc, l', h1, h2⟩
        rcases List.mem_cons.1 hc with rfl | hc
        · rw [hla] at h1; cases h1; exact absurd h0 h2
        · exact ⟨c, hc, l', h1, h2⟩
    · rw [if_neg h0, if_neg h0]
      split
      · rfl
      split
      · rfl
      · rename_i hn
        refine ih (some a) hm' ?_
        cases pre with
        | nil =>
          cases heq
          rcases hc with hc | ⟨c, hc, _⟩
          · exact absurd ⟨hc, hp⟩ hn
          · cases hc
        | cons p pre =>
          cases heq
          exact ⟨pre, b, post, l, rfl, hb, hl, hp, .inl rfl⟩

/-- C81: a component that cannot be measured does no harm to the search for a time that lies before: if among the
components before it there is one of a length other than zero at or after the time, and another such one before that,
the answer is the one of these components. -/
theorem C81_before {get : Get} {n : Nat} {x : Sequence} {rs rs' : List Ref} {is : List SeqItem} {t : Rat}
    (hx : x.components = rs ++ rs') (h : List.Forall₂ (Measured get n) rs is) {i j : Nat} {a b : SeqPos} (hij : i < j)
    (ha : (seqPositions is)[i]? = some a) (hb : (seqPositions is)[j]? = some b) (ha0 : a.comp.length ≠ 0)
    (hb0 : b.comp.length ≠ 0) (ht : t ≤ (b.pos : Rat)) :
    nearestIndex get n x t = .ok (nearestIndexAtTime is t) := by
  obtain ⟨as, h1, _, h3⟩ := positionsFrom_good h rs' 0 0
  obtain ⟨c, h4, h5⟩ := nearest_same t h1 none none trivial
  have hlen := h1.length_eq
  have hget : ∀ {k : Nat} {b : SeqPos}, (seqPositions is)[k]? = some b →
      ∃ a, as[k]? = some a ∧ Same get n a b := by
    intro k b hk
    obtain ⟨hk1, hk2⟩ := List.getElem?_eq_some_iff.1 hk
    refine ⟨as[k]'(hlen ▸ hk1), List.getElem?_eq_getElem _, ?_⟩
    rw [← hk2]
    exact h1.get (hlen ▸ hk1) hk1
  obtain ⟨a', ha', sa⟩ := hget ha
  obtain ⟨b', hb', sb⟩ := hget hb
  obtain ⟨hj, hj'⟩ := List.getElem?_eq_some_iff.1 hb'
  have hall : ∀ a ∈ as, ∃ l, length get n a.comp = .ok l := by
    intro a ha
    obtain ⟨k, hk, rfl⟩ := List.getElem_of_mem ha
    exact ⟨_, (h1.get hk (hlen ▸ hk)).2.2.1⟩
  have hst := nearest_stops (rec := length get n) (t := t)
    (positionsFrom get (length get n) (0 + is.length) (seqLengthFrom 0 is) rs').2 as
    (positionsFrom get (length get n) (0 + is.length) (seqLengthFrom 0 is) rs').1 none hall
    ⟨as.take j, b', as.drop (j + 1), b.comp.length, by
        rw [← hj', List.getElem_cons_drop, List.take_append_drop], sb.2.2.1, hb0,
      by rw [sb.2.1]; exact ht, .inr ⟨a', by
        rw [List.mem_iff_getElem?]
        exact ⟨i, by rw [List.getElem?_take_of_lt hij]; exact ha'⟩, _, sa.2.2.1, ha0⟩⟩
  unfold nearestIndex nearestIndexAtTime
  rw [positions, hx, h3]
  dsimp only
  rw [hst, h4, seqPositions]
  generalize Avb.nearestFrom t none (seqPositionsFrom 0 0 is) = d at h5
  cases c <;> cases d <;> first | rfl | exact h5.elim | (obtain ⟨h6, h7, _⟩ := h5; simp [h6, h7])

/-! ### concrete cases -/

/-- A transition of four frames. -/
def exTrans : Obj :=
  .TNFX {
    toComponent := exComp ['d', 'i', 's'], mc_mode := 0, length := 4, num_scalars := 0, tracks := [], cutpoint := 2,
    left_length := 2, right_length := 2, info_version := 1, info_current := 0, info_smooth := 0, info_color_item := 0,
    info_quality := 0, info_is_reversed := 0, info_aspect_on := false, keyframes := 0, info_force_software := false,
    info_never_hardware := false, trackman := none }

/-- A sequence of the components. -/
def exOf (rs : List Ref) : Sequence := { toComponent := exComp ['V'], components := rs }

/-- A gap of ten frames at 1, a transition of four at 2, a clip of twelve at 3, a sequence of two gaps at 4, one of a
gap, a transition, that sequence, and the clip at 5, a sequence that has itself as component at 6, and an object that
cannot be read at 7. -/
def exGet : Get := fun r =>
  match r with
  | 0 => .ok none
  | 1 => .ok (some exFill)
  | 2 => .ok (some exTrans)
  | 3 => .ok (some exClip)
  | 4 => .ok (some (.SEQU (exOf [1, 1])))
  | 5 => .ok (some (.SEQU (exOf [1, 2, 4, 3])))
  | 6 => .ok (some (.SEQU (exOf [1, 6])))
  | _ => .error .struct

theorem exGet_flat : Flat exGet [1, 2, 4, 3] [⟨false, 10⟩, ⟨true, 4⟩, ⟨false, 10⟩, ⟨false, 10⟩, ⟨false, 12⟩] :=
  .clip (o := exFill) rfl (by decide) rfl <| .clip (o := exTrans) rfl (by decide) rfl <|
    .seq (x := exOf [1, 1]) (l := [⟨false, 10⟩, ⟨false, 10⟩]) rfl
      (.clip (o := exFill) rfl (by decide) rfl (.clip (o := exFill) rfl (by decide) rfl .nil)) <|
    .clip (o := exClip) rfl (by decide) rfl .nil

/-- `C81_length`, `C81_more`, `C81_succeeds`, `C81_ends`: 10 - 4 + 20 + 12. -/
example : (∃ N, ∀ n ≥ N, length exGet n (.SEQU (exOf [1, 2, 4, 3])) = .ok 38) ∧
    length exGet 3 (.SEQU (exOf [1, 2, 4, 3])) = .ok 38 ∧ length exGet 2 (.SEQU (exOf [1, 2, 4, 3])) = .error .recursion ∧
    Acc (Inside exGet) (exOf [1, 2, 4, 3]) :=
  have h : length exGet 3 (.SEQU (exOf [1, 2, 4, 3])) = .ok 38 := by decide +kernel
  ⟨(C81_length _ _).2 ⟨_, exGet_flat, rfl⟩, h, by decide +kernel, ((C81_succeeds _).1 ⟨3, 38, h⟩).1⟩

/-- `C81_cycle`: the sequence at 6. -/
example : TransGen (Inside exGet) (exOf [1, 6]) (exOf [1, 6]) :=
  .single ⟨6, by simp [exOf], rfl⟩

/-- `C81_flatten`: the two gaps of the sequence at 4 in its place. -/
example (v : Int) : (∃ n, length exGet n (.SEQU (exOf [1, 2, 4, 3])) = .ok v) ↔
    ∃ n, length exGet n (.SEQU (exOf [1, 2, 1, 1, 3])) = .ok v :=
  C81_flatten (x := exOf [1, 2, 4, 3]) (x' := exOf [1, 2, 1, 1, 3]) (y := exOf [1, 1]) (rs := [1, 2]) (rs' := [3]) rfl
    rfl rfl v

theorem exMeasured : List.Forall₂ (Measured exGet 3) [1, 2, 4, 3] [⟨false, 10⟩, ⟨true, 4⟩, ⟨false, 20⟩, ⟨false, 12⟩] :=
  .cons ⟨exFill, rfl, rfl, by decide⟩ <| .cons ⟨exTrans, rfl, rfl, by decide⟩ <|
    .cons ⟨.SEQU (exOf [1, 1]), rfl, rfl, by decide⟩ <| .cons ⟨exClip, rfl, rfl, by decide⟩ .nil

/-- `C81_positions`, `C81_nearest`, `C81_component`: the nested sequence, of twenty frames, starts at 6. -/
example : (positions exGet 3 (exOf [1, 2, 4, 3])).1.map place = [(0, 0), (1, 6), (2, 6), (3, 26)] ∧
    nearestIndex exGet 3 (exOf [1, 2, 4, 3]) 20 = .ok (2, 6) := by
  refine ⟨?_, ?_⟩
  · rw [(C81_positions (x := exOf [1, 2, 4, 3]) exMeasured).1]; decide +kernel
  · rw [C81_nearest (x := exOf [1, 2, 4, 3]) exMeasured 20]; decide +kernel

/-- `C81_prefix`, `C81_length_raises`: behind them an object that cannot be read, null, or a sequence without length,
which is yielded before its length is asked for. -/
example : Fails exGet 3 7 .struct ∧ Fails exGet 3 0 .attribute ∧ Fails exGet 3 6 .recursion ∧
    (positions exGet 3 (exOf [1, 2, 4, 3, 7])).1.map place = [(0, 0), (1, 6), (2, 6), (3, 26)] ∧
    (positions exGet 3 (exOf [1, 2, 4, 3, 7])).2 = some .struct ∧
    (positions exGet 3 (exOf [1, 2, 4, 3, 6])).1.map place = [(0, 0), (1, 6), (2, 6), (3, 26), (4, 38)] ∧
    (positions exGet 3 (exOf [1, 2, 4, 3, 6])).2 = some .recursion ∧
    length exGet 4 (.SEQU (exOf [1, 2, 4, 3, 7])) = .error .struct :=
  ⟨.inl rfl, .inr (.inl ⟨rfl, rfl⟩), .inr (.inr ⟨.SEQU (exOf [1, 6]), rfl, by decide +kernel⟩), by decide +kernel,
    by decide +kernel, by decide +kernel, by decide +kernel, by decide +kernel⟩

/-- `C81_before`: the object that cannot be read is only a matter for times after 26. -/
example : nearestIndex exGet 3 (exOf [1, 2, 4, 3, 7]) 20 = .ok (2, 6) ∧
    nearestIndex exGet 3 (exOf [1, 2, 4, 3, 7]) 30 = .error .struct := by
  refine ⟨?_, by decide +kernel⟩
  rw [C81_before (x := exOf [1, 2, 4, 3, 7]) (rs := [1, 2, 4, 3]) (rs' := [7]) rfl exMeasured (i := 0) (j := 3)
    (by decide) rfl rfl (by decide) (by decide) (by norm_num)]
  decide +kernel

/-- `C81_file`: the sequence of a saved file, a gap, a clip of twelve frames and the gap again. -/
example (bo : BO) : ∃ b f, save exHeap 10 bo exInfo 1 = .ok b ∧ openTable b = .ok f ∧
    Acc (Inside (readObject f)) (exOf [1, 2, 1]) ∧ length (readObject f) 6 (.SEQU (exOf [1, 2, 1])) = .ok 32 := by
  obtain ⟨b, f, hb, hf, h1, h2, -⟩ := exFile_ok bo
  have hl : length (readObject f) 6 (.SEQU (exOf [1, 2, 1])) = .ok 32 := by
    show lengthLoop _ _ _ [1, 2, 1] = _
    simp only [lengthLoop, h1, h2]
    rfl
  exact ⟨b, f, hb, hf, ((C81_succeeds _).1 ⟨6, 32, hl⟩).1, hl⟩

end Avb.Nested

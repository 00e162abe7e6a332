import Verif.Props.Listing
import Verif.Props.NewFile

/-
C56 for loops that work on the file while they list it.
-/

namespace Avb
namespace Work

/-- `for x in f.iter_class_ids(ids): work` with the chunk numbers `is` still to come, after the history
`es`, in state `s`.  The work may be different each time.  The trace has for every round the history up to
it, what was yielded, and the state in which it was; `e` is the exception that ended the loop. -/
inductive Loop (f : AvbFile) (ids : List Bytes) : List Nat → List Event → St →
    List (List Event × Option Nat × St) → Option Err → Prop
  | stop {is : List Nat} {es : List Event} {s s' : St} :
      iterNext f ids is s = (.stop, s') → Loop f ids is es s [] none
  | raised {is : List Nat} {es : List Event} {s s' : St} {e : Err} :
      iterNext f ids is s = (.raised e, s') → Loop f ids is es s [] (some e)
  | round {is is' : List Nat} {es work : List Event} {s s1 s2 : St} {x : Option Nat}
      {tr : List (List Event × Option Nat × St)} {e : Option Err} :
      iterNext f ids is s = (.yielded x is', s1) → Run f s1 work s2 →
      Loop f ids is' (es ++ work) s2 tr e → Loop f ids is es s ((es, x, s1) :: tr) e

/-- What a round gives for the chunk with number `i`: `None` for the header, otherwise the object with this
number with the content that it has at that moment. -/
def Round (f : AvbFile) (i : Nat) (r : List Event × Option Nat × St) : Prop :=
  if i = 0 then r.2.1 = none
  else ∃ l o, r.2.1 = some l ∧ r.2.2.objs l = (i, o) ∧ current f r.1 i = .ok (some o)

theorem assigned_append {i : Nat} {es es' : List Event} :
    assigned i (es ++ es') = (assigned i es' <|> assigned i es) := by
  induction es' generalizing es with
  | nil => simp [assigned]
  | cons e es' ih =>
    rw [show es ++ e :: es' = (es ++ [e]) ++ es' by simp, ih, assigned_snoc]
    cases h : assigned i es' with
    | some o =>
      have : assigned i (e :: es') = some o := by simp [assigned, h]
      rw [this]; rfl
    | none =>
      have : assigned i (e :: es') = assigned i [e] := by simp [assigned, h]
      rw [this]
      cases e <;> simp [assigned] <;> split <;> simp

theorem iterNext_cases {f : AvbFile} {ids : List Bytes} {sel : Nat → Bool} : ∀ {is : List Nat} {s : St},
    (∀ i ∈ is, ∃ ck, readChunk f i = .ok ck ∧ (sel i = true ↔ ck.class_id ∈ ids)) →
    (iterNext f ids is s = (.stop, s) ∧ is.filter sel = []) ∨
    ∃ i is' pre, is = pre ++ i :: is' ∧ pre.filter sel = [] ∧ sel i = true ∧
      iterNext f ids is s = (match look f s i with
        | (.error e, s) => (.raised e, s)
        | (.ok x, s) => (.yielded x is', s))
  | [], s, _ => .inl ⟨rfl, rfl⟩
  | i :: is, s, h => by
    obtain ⟨ck, h1, h2⟩ := h i (by simp)
    by_cases hs : sel i = true
    · exact .inr ⟨i, is, [], rfl, rfl, hs, by
        simp only [iterNext, h1]
        rw [if_pos (h2.1 hs)]
        cases look f s i with
        | mk r s1 => cases r <;> rfl⟩
    · have hn : iterNext f ids (i :: is) s = iterNext f ids is s := by
        simp only [iterNext, h1]; rw [if_neg (fun hm => hs (h2.2 hm))]
      rcases iterNext_cases (sel := sel) (is := is) (s := s) (fun j hj => h j (List.mem_cons_of_mem _ hj)) with
        ⟨k1, k2⟩ | ⟨j, is', pre, k1, k2, k3, k4⟩
      · exact .inl ⟨hn.trans k1, by rw [List.filter_cons_of_neg hs]; exact k2⟩
      · exact .inr ⟨j, is', i :: pre, by rw [k1]; rfl, by rw [List.filter_cons_of_neg hs]; exact k2, k3,
          hn.trans k4⟩

theorem loop_rounds {f : AvbFile} {o₀ : Obj} {ids : List Bytes} {sel : Nat → Bool} {is : List Nat}
    {es : List Event} {s : St} {tr : List (List Event × Option Nat × St)} {e : Option Err}
    (hl : Loop f ids is es s tr e) : ∀ {es' : List Event}, Run f (start f o₀) es' s →
    (∀ i, assigned i es' = assigned i es) →
    (∀ i ∈ is, ∃ ck, readChunk f i = .ok ck ∧ (sel i = true ↔ ck.class_id ∈ ids)) →
    match e with
    | none => List.Forall₂ (Round f) (is.filter sel) tr
    | some e => ∃ pre k post work, is = pre ++ k :: post ∧ sel k = true ∧ k ≠ 0 ∧
        List.Forall₂ (Round f) (pre.filter sel) tr ∧ current f work k = .error e ∧
        (∀ r ∈ tr.getLast?, ∃ w, work = r.1 ++ w) ∧ (tr = [] → work = es) := by
  induction hl with
  | @stop is es s s' h =>
    intro es' hr ha hck
    rcases iterNext_cases (s := s) hck with ⟨_, h2⟩ | ⟨i, is', pre, _, _, _, h4⟩
    · show List.Forall₂ _ _ _
      rw [h2]
      exact .nil
    · rw [h] at h4
      cases hlk : look f s i with
      | mk r s1 => rw [hlk] at h4; cases r <;> cases h4
  | @raised is es s s' e h =>
    intro es' hr ha hck
    rcases iterNext_cases (s := s) hck with ⟨h1, _⟩ | ⟨i, is', pre, h1, h2, h3, h4⟩
    · rw [h] at h1; cases h1
    · rw [h] at h4
      by_cases h0 : i = 0
      · simp [look, h0] at h4
      · have hlk := C51_look hr h0
        refine ⟨pre, i, is', es, h1, h3, h0, by rw [h2]; exact .nil, ?_, by simp, fun _ => rfl⟩
        have hc : current f es' i = current f es i := by unfold current; rw [ha]
        rw [hc] at hlk
        cases hk : look f s i with
        | mk r s1 =>
          rw [hk] at h4 hlk
          cases r with
          | ok x => cases h4
          | error e' =>
            cases h4
            cases hcur : current f es i with
            | error e2 => rw [hcur] at hlk; rw [show e = e2 from hlk]
            | ok x => rw [hcur] at hlk; cases x <;> exact hlk.elim
  | @round is is' es work s s1 s2 x tr e h hw hl ih =>
    intro es' hr ha hck
    rcases iterNext_cases (s := s) hck with ⟨h1, _⟩ | ⟨i, is'', pre, h1, h2, h3, h4⟩
    · rw [h] at h1; cases h1
    · rw [h] at h4
      have hsnoc := hr.snoc (.look s i)
      cases hk : look f s i with
      | mk r s1' =>
        rw [hk] at h4 hsnoc
        cases r with
        | error e => cases h4
        | ok x' =>
          cases h4
          have hround : Round f i (es, x, s1) := by
            unfold Round
            by_cases h0 : i = 0
            · rw [if_pos h0]
              subst h0
              simp only [look, if_true] at hk
              cases hk; rfl
            · rw [if_neg h0]
              have hlk := C51_look hr h0
              rw [hk] at hlk
              have hc : current f es' i = current f es i := by unfold current; rw [ha]
              rw [hc] at hlk
              cases hcur : current f es i with
              | error e2 => rw [hcur] at hlk; cases x <;> exact hlk.elim
              | ok y =>
                rw [hcur] at hlk
                cases x with
                | none => cases y <;> exact hlk.elim
                | some l =>
                  cases y with
                  | none => exact hlk.elim
                  | some o => exact ⟨l, o, rfl, hlk, rfl⟩
          have hsub : ∀ j ∈ is', j ∈ is := fun j hj => by rw [h1]; simp [hj]
          have key := ih (hsnoc.append hw) (fun j => by
            rw [assigned_append, assigned_append (es := es),
              show assigned j (es' ++ [.look i]) = assigned j es' from assigned_snoc, ha])
            (fun j hj => hck j (hsub j hj))
          cases e with
          | none =>
            show List.Forall₂ _ _ _
            rw [h1, List.filter_append, h2, List.nil_append, List.filter_cons_of_pos h3]
            exact .cons hround key
          | some e =>
            obtain ⟨pre', k, post, wk, q1, q2, q3, q4, q5, q6, q7⟩ := key
            refine ⟨pre ++ i :: pre', k, post, wk, by rw [h1, q1]; simp, q2, q3, ?_, q5, ?_, by simp⟩
            · rw [List.filter_append, h2, List.nil_append, List.filter_cons_of_pos h3]
              exact .cons hround q4
            · intro r hr
              cases tr with
              | nil =>
                simp only [List.getLast?_singleton, Option.mem_def, Option.some.injEq] at hr
                subst hr
                exact ⟨work, q7 rfl⟩
              | cons a tr => rw [List.getLast?_cons_cons] at hr; exact q6 r hr

/-- C56: a loop over `iter_class_ids` in which any work is done on the file between the rounds.  If it runs
to its end it has given every object of the file whose class id in the file is in the list, in the order of
their numbers, each once, and with the content it had at that moment, edits in earlier rounds included. -/
theorem C56_loop {bytes : Bytes} {f : AvbFile} (ho : openTable bytes = .ok f) {o₀ : Obj}
    {es : List Event} {s : St} (h : Run f (start f o₀) es s) {ids : List Bytes} {sel : Nat → Bool}
    (hsel : ∀ i id, IdAt f i id → (sel i = true ↔ id ∈ ids))
    {tr : List (List Event × Option Nat × St)}
    (hl : Loop f ids (List.range f.positions.length) es s tr none) :
    List.Forall₂ (Round f) ((List.range (f.header.num_objects + 1)).filter sel) tr := by
  obtain ⟨cks, c1, _⟩ := C56_chunks ho
  have hlen : f.positions.length = f.header.num_objects + 1 := by
    obtain ⟨bo, hdr, rest, ps, h1, h2, h3, h4, rfl⟩ := openTable_ok ho
    simp [scanChunks_length h4]
  rw [← hlen]
  exact loop_rounds hl h (fun _ => rfl) (fun i hi => by
    obtain ⟨ck, hc⟩ := mapM_each c1 i hi
    exact ⟨ck, hc, hsel i _ ⟨ck, hc, rfl⟩⟩)

/-- C56: if such a loop ends with an exception, it is the one that loading some object `k` of the list
raises at that moment, and the objects of the list with smaller numbers were given before. -/
theorem C56_loop_raises {bytes : Bytes} {f : AvbFile} (ho : openTable bytes = .ok f) {o₀ : Obj}
    {es : List Event} {s : St} (h : Run f (start f o₀) es s) {ids : List Bytes} {sel : Nat → Bool}
    (hsel : ∀ i id, IdAt f i id → (sel i = true ↔ id ∈ ids))
    {tr : List (List Event × Option Nat × St)} {e : Err}
    (hl : Loop f ids (List.range f.positions.length) es s tr (some e)) :
    ∃ k work, k ≠ 0 ∧ k ≤ f.header.num_objects ∧ sel k = true ∧ current f work k = .error e ∧
      (∀ r ∈ tr.getLast?, ∃ w, work = r.1 ++ w) ∧ (tr = [] → work = es) ∧
      List.Forall₂ (Round f) ((List.range k).filter sel) tr := by
  obtain ⟨cks, c1, _⟩ := C56_chunks ho
  have hlen : f.positions.length = f.header.num_objects + 1 := by
    obtain ⟨bo, hdr, rest, ps, h1, h2, h3, h4, rfl⟩ := openTable_ok ho
    simp [scanChunks_length h4]
  obtain ⟨pre, k, post, work, q1, q2, q3, q4, q5, q6, q7⟩ := loop_rounds (sel := sel) hl h (fun _ => rfl)
    (fun i hi => by
      obtain ⟨ck, hc⟩ := mapM_each c1 i hi
      exact ⟨ck, hc, hsel i _ ⟨ck, hc, rfl⟩⟩)
  have hpre : pre = List.range k := by
    have hk : pre.length = k := by
      have := congrArg (fun l => l[pre.length]?) q1
      simp only [List.getElem?_append_right (Nat.le_refl _), Nat.sub_self, List.getElem?_cons_zero] at this
      obtain ⟨hlt, hv⟩ := List.getElem?_eq_some_iff.1 this
      simpa using hv
    have := congrArg (List.take pre.length) q1
    rw [List.take_left, List.take_range] at this
    rw [← this, hk, Nat.min_eq_left]
    have := congrArg List.length q1
    simp at this
    omega
  have hkn : k < f.positions.length := by
    have : k ∈ List.range f.positions.length := by rw [q1]; simp
    exact List.mem_range.1 this
  refine ⟨k, work, q3, by omega, q2, q5, q6, q7, by rw [← hpre]; exact q4⟩

/-- The hypotheses of `C56_loop` can be met: the gaps of the example file are listed, and in the round of the
gap it is edited and a new object is made. -/
example (bo : BO) : ∃ bytes f tr, openTable bytes = .ok f ∧
    Loop f [cc 'F' 'I' 'L' 'L'] (List.range f.positions.length) [] (start f exFill) tr none ∧
    tr.length = 1 ∧ List.Forall₂ (Round f) [1] tr := by
  obtain ⟨bytes, f, _, hf, f1, f2, f3, hr, hn, hp⟩ := exFile_ok bo
  have id1 := C56_class_id f1
  have id2 := C56_class_id f2
  have id3 := C56_class_id f3
  have uniq : ∀ {i id id'}, IdAt f i id → IdAt f i id' → id = id' := by
    rintro i id id' ⟨ck, h1, rfl⟩ ⟨ck', h2, rfl⟩
    rw [h1] at h2; cases h2; rfl
  have hsel : ∀ i id, IdAt f i id → (decide (i = 1) = true ↔ id ∈ [cc 'F' 'I' 'L' 'L']) := by
    intro i id hid
    have hi : i < 4 := by
      by_contra hc
      obtain ⟨ck, h1, _⟩ := hid
      unfold readChunk at h1
      rw [if_neg (by omega), List.getElem?_eq_none (by omega)] at h1
      cases h1
    match i, hi with
    | 0, _ =>
      obtain ⟨ck, h1, rfl⟩ := hid
      cases h1
      show _ ↔ cc 'O' 'B' 'J' 'D' ∈ _
      decide
    | 1, _ => rw [uniq hid id1]; decide
    | 2, _ => rw [uniq hid id2]; decide
    | 3, _ => rw [uniq hid id3]; decide
  have hck : ∀ i ∈ List.range f.positions.length,
      ∃ ck, readChunk f i = .ok ck ∧ (decide (i = 1) = true ↔ ck.class_id ∈ [cc 'F' 'I' 'L' 'L']) := by
    obtain ⟨cks, c1, _⟩ := C56_chunks hf
    intro i hi
    obtain ⟨ck, hc⟩ := mapM_each c1 i hi
    exact ⟨ck, hc, hsel i _ ⟨ck, hc, rfl⟩⟩
  have hlook : look f (start f exFill) 1 = (.ok (some 0), (look f (start f exFill) 1).2) := by
    unfold look
    rw [if_neg (by decide)]
    simp only [start]
    rw [f1]
  have hloop : ∃ tr, tr.length = 1 ∧
      Loop f [cc 'F' 'I' 'L' 'L'] (List.range f.positions.length) [] (start f exFill) tr none := by
    rcases iterNext_cases (s := start f exFill) hck with ⟨_, h⟩ | ⟨i, is', pre, h1, h2, h3, h4⟩
    · have : 1 ∈ (List.range f.positions.length).filter (fun i => decide (i = 1)) := by simp [hp]
      rw [h] at this
      cases this
    · have hi : i = 1 := by simpa using h3
      subst hi
      rw [hlook] at h4
      have hex : Exists (look f (start f exFill) 1).2 0 := by
        unfold look
        rw [if_neg (by decide)]
        simp only [start]
        rw [f1]
        exact ⟨Nat.zero_lt_one, fun h => nomatch h⟩
      refine ⟨[_], rfl, .round h4 (((Run.nil _).snoc (.edit _ 0 exFillE hex)).snoc (.new _ exFill))
        (.stop (s' := ?_) ?_)⟩
      · exact create (edit (look f (start f exFill) 1).2 0 exFillE) exFill
      · rcases iterNext_cases (is := is') (s := create (edit (look f (start f exFill) 1).2 0 exFillE) exFill)
          (fun j hj => hck j (by rw [h1]; simp [hj])) with ⟨h, _⟩ | ⟨j, is'', pre', k1, _, k3, _⟩
        · exact h
        · exfalso
          have hj : j = 1 := by simpa using k3
          subst hj
          have := List.nodup_range (n := f.positions.length)
          rw [h1, k1] at this
          exact (List.nodup_cons.1 (List.nodup_append.1 this).2.1).1 (by simp)
  obtain ⟨tr, ht, hl⟩ := hloop
  refine ⟨bytes, f, tr, hf, hl, ht, ?_⟩
  have := C56_loop hf (.nil _) hsel hl
  rw [hn] at this
  exact this

end Work
end Avb

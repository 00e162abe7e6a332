import Verif.Lemmas.UnsetObj
import Verif.Lemmas.Crash

/-! Saving with unset properties, compared with saving objects that have everything. -/

namespace Avb

open Unset

theorem writeObjectU_complete {u : Unset} {e : Entry} (c : WCtx) (hu : ¬ Lacks u e.obj.slots) :
    writeObjectU u c e = writeObject c e := by
  have hw : e.obj.writeU u c = e.obj.write c := (Obj.write_needs c e.obj u).2 hu
  unfold writeObjectU writeObject
  rw [hw]

theorem writeObjectU_lacks {u : Unset} {e : Entry} (c : WCtx) (hu : Lacks u e.obj.slots) :
    ∃ er, writeObjectU u c e = .error er ∧ (∀ r, writeObject c e = .ok r → er = .attribute) ∧
      ∀ er', writeObject c e = .error er' → er = .attribute ∨ er = er' := by
  have hb : ∀ {α β : Type} (er : Err) (f : α → Wr β), Bind.bind (m := Wr) (.error er) f = .error er := fun _ _ => rfl
  have hg : Wr.guard (e.own = true) .value = .ok ((), []) ∨ Wr.guard (e.own = true) .value = .error .value := by
    unfold Wr.guard
    split
    · exact .inl rfl
    · exact .inr rfl
  unfold writeObjectU writeObject
  rcases hg with hg | hg
  · rw [hg]
    have hk : ∀ {β : Type} (f : Unit → Wr β), Bind.bind (m := Wr) (.ok ((), [])) f = f () := by
      intro β f
      change (match f () with | .ok (b, bs') => Except.ok (b, [] ++ bs') | .error e => .error e) = f ()
      cases f () with
      | error _ => rfl
      | ok p => rfl
    rw [hk, hk]
    rcases (Obj.write_needs c e.obj u).1 hu with h1 | ⟨er, h1, h2⟩
    · have h1' : e.obj.writeU u c = .error .attribute := h1
      rw [h1']
      exact ⟨.attribute, rfl, fun _ _ => rfl, fun _ _ => .inl rfl⟩
    · have h2' : e.obj.writeU u c = .error er := h2
      rw [h1, h2']
      refine ⟨er, rfl, fun r hr => ?_, fun er' hr => .inr ?_⟩
      · cases hr
      · exact Except.error.inj hr
  · rw [hg]
    refine ⟨.value, rfl, fun r hr => ?_, fun er' hr => .inr ?_⟩
    · cases hr
    · exact Except.error.inj hr

variable {h : Heap} {us : Ref → Unset} {bo : BO}

theorem saveLoopU_complete {rs : List Ref} (hu : ∀ r ∈ rs, ∀ e, h r = .ok e → ¬ Lacks (us r) e.obj.slots)
    (s : SaveSt) : saveLoopU h us bo rs s = saveLoop h bo rs s := by
  induction rs generalizing s with
  | nil => rfl
  | cons r rs ih =>
    have ih' := ih fun r' hr' => hu r' (List.mem_cons_of_mem _ hr')
    unfold saveLoopU saveLoop
    cases he : h r with
    | error er => rfl
    | ok e =>
      simp only [writeObjectU_complete _ (hu r List.mem_cons_self e he), ih']
      rfl

theorem saveLoop_grows (rs : List Ref) (s : SaveSt) : s.out <+: (saveLoop h bo rs s).1.out := by
  induction rs generalizing s with
  | nil => exact List.prefix_refl _
  | cons r rs ih =>
    unfold saveLoop
    cases h r with
    | error er => exact List.prefix_refl _
    | ok e =>
      simp only
      split
      · exact ih s
      · split
        · refine List.IsPrefix.trans ?_ (ih _)
          exact List.prefix_append _ _
        · exact List.prefix_refl _

theorem saveLoopU_prefix (rs : List Ref) (s : SaveSt) :
    (saveLoopU h us bo rs s).1.out <+: (saveLoop h bo rs s).1.out := by
  induction rs generalizing s with
  | nil => exact List.prefix_refl _
  | cons r rs ih =>
    by_cases hl : ∃ e, h r = .ok e ∧ Lacks (us r) e.obj.slots ∧ ¬ (s.map e.iid).isSome
    · obtain ⟨e, he, hl, hm⟩ := hl
      obtain ⟨er, h1, _⟩ := writeObjectU_lacks ⟨bo, refMapOf h (mapSet s.map e.iid (s.next + 1))⟩ hl
      have : saveLoopU h us bo (r :: rs) s = (⟨s.next + 1, mapSet s.map e.iid (s.next + 1), s.out⟩, some er) := by
        rw [saveLoopU, he]
        simp only [hm, h1]
        rfl
      rw [this]
      exact saveLoop_grows _ s
    · unfold saveLoopU saveLoop
      cases he : h r with
      | error er => exact List.prefix_refl _
      | ok e =>
        simp only
        split
        · exact ih s
        · rename_i hm
          have hc : ¬ Lacks (us r) e.obj.slots := fun hl' => hl ⟨e, he, hl', hm⟩
          rw [writeObjectU_complete _ hc]
          cases hw : writeObject ⟨bo, refMapOf h (mapSet s.map e.iid (s.next + 1))⟩ e with
          | ok p => exact ih _
          | error er => exact List.prefix_refl _

theorem saveLoopU_ok {rs : List Ref} {s s' : SaveSt}
    (inj : ∀ a ∈ rs, ∀ b ∈ rs, ∀ ea eb, h a = .ok ea → h b = .ok eb → ea.iid = eb.iid → a = b)
    (hs : saveLoopU h us bo rs s = (s', none)) :
    saveLoop h bo rs s = (s', none) ∧
      ∀ r ∈ rs, ∀ e, h r = .ok e → s.map e.iid = none → ¬ Lacks (us r) e.obj.slots := by
  induction rs generalizing s with
  | nil => exact ⟨hs, fun r hr => nomatch hr⟩
  | cons r rs ih =>
    have ih := fun {s : SaveSt} => ih (s := s) fun a ha b hb => inj a (List.mem_cons_of_mem _ ha) b
      (List.mem_cons_of_mem _ hb)
    unfold saveLoopU at hs
    cases he : h r with
    | error er => rw [he] at hs; cases hs
    | ok e =>
      rw [he] at hs
      simp only at hs
      split at hs
      · rename_i hm
        obtain ⟨h1, h2⟩ := ih hs
        refine ⟨?_, fun r' hr' e' he' hn => ?_⟩
        · rw [saveLoop, he]
          simp only [hm, if_true]
          exact h1
        · rcases List.mem_cons.1 hr' with rfl | hr'
          · rw [he] at he'
            cases he'
            rw [hn] at hm
            cases hm
          · exact h2 r' hr' e' he' hn
      · rename_i hm
        have hc : ¬ Lacks (us r) e.obj.slots := by
          intro hl
          obtain ⟨er, h1, _⟩ := writeObjectU_lacks ⟨bo, refMapOf h (mapSet s.map e.iid (s.next + 1))⟩ hl
          rw [h1] at hs
          cases hs
        rw [writeObjectU_complete _ hc] at hs
        split at hs
        · rename_i bs hw
          obtain ⟨h1, h2⟩ := ih hs
          refine ⟨?_, fun r' hr' e' he' hn => ?_⟩
          · rw [saveLoop, he]
            simp only [hm, hw]
            exact h1
          · rcases List.mem_cons.1 hr' with rfl | hr''
            · rw [he] at he'
              cases he'
              exact hc
            · by_cases hi : e'.iid = e.iid
              · have := inj r' hr' r List.mem_cons_self e' e he' he hi
                subst this
                rw [he] at he'
                cases he'
                exact hc
              · refine h2 r' hr'' e' he' ?_
                simp only [mapSet, hi, if_false]
                exact hn
        · cases hs

theorem saveLoopU_error {rs : List Ref} {s s' : SaveSt} (hs : saveLoop h bo rs s = (s', none)) :
    saveLoopU h us bo rs s = (s', none) ∨ (saveLoopU h us bo rs s).2 = some .attribute := by
  induction rs generalizing s with
  | nil => exact .inl hs
  | cons r rs ih =>
    unfold saveLoop at hs
    unfold saveLoopU
    cases he : h r with
    | error er => rw [he] at hs; cases hs
    | ok e =>
      rw [he] at hs
      simp only at hs ⊢
      split at hs
      · rename_i hm
        simp only [hm, if_true]
        exact ih hs
      · rename_i hm
        split at hs
        · rename_i bs hw
          simp only [hm]
          by_cases hl : Lacks (us r) e.obj.slots
          · obtain ⟨er, h1, h2, _⟩ := writeObjectU_lacks ⟨bo, refMapOf h (mapSet s.map e.iid (s.next + 1))⟩ hl
            right
            rw [h2 _ hw] at h1
            simp only [Bool.false_eq_true, if_false, h1]
          · rw [writeObjectU_complete _ hl, hw]
            exact ih hs
        · cases hs

/-- The file after the header and the loop: what `saveRun` and `saveRunU` have in common. -/
def runWith (bo : BO) (hd : HeaderInfo) (w : Walk) (p : SaveSt × Option Err) : SaveRun :=
  match (writeHeaderPre bo hd).bytes, (writeCounts bo 0 0).bytes, (writeHeaderPost bo hd).bytes with
  | .ok pre, .ok zero, .ok post =>
    match p.2, w.err with
    | some e, _ => ⟨pre ++ zero ++ post ++ p.1.out, none, some e⟩
    | none, some e => ⟨pre ++ zero ++ post ++ p.1.out, none, some e⟩
    | none, none =>
      match (writeCounts bo p.1.next p.1.next).bytes with
      | .ok counts => ⟨pre ++ zero ++ post ++ p.1.out, some (pre.length, counts), none⟩
      | .error e => ⟨pre ++ zero ++ post ++ p.1.out, none, some e⟩
  | .error e, _, _ => ⟨[], none, some e⟩
  | _, .error e, _ => ⟨[], none, some e⟩
  | _, _, .error e => ⟨[], none, some e⟩

theorem saveRun_eq (fuel : Nat) (hd : HeaderInfo) (content : Ref) : saveRun h fuel bo hd content =
    runWith bo hd (walkObj h fuel content)
      (saveLoop h bo (walkObj h fuel content).out ⟨0, fun _ => none, []⟩) := rfl

theorem saveRunU_eq (fuel : Nat) (hd : HeaderInfo) (content : Ref) : saveRunU h us fuel bo hd content =
    runWith bo hd (walkObj h fuel content)
      (saveLoopU h us bo (walkObj h fuel content).out ⟨0, fun _ => none, []⟩) := rfl

theorem runWith_prefix {hd : HeaderInfo} {w : Walk} {p q : SaveSt × Option Err} (hp : p.1.out <+: q.1.out) :
    (runWith bo hd w p).appended <+: (runWith bo hd w q).appended := by
  have key : ∀ p : SaveSt × Option Err, (runWith bo hd w p).appended =
      (match (writeHeaderPre bo hd).bytes, (writeCounts bo 0 0).bytes, (writeHeaderPost bo hd).bytes with
        | .ok pre, .ok zero, .ok post => pre ++ zero ++ post ++ p.1.out
        | .error _, _, _ => []
        | _, .error _, _ => []
        | _, _, .error _ => []) := by
    intro p
    unfold runWith
    split
    · split
      · rfl
      · rfl
      · split <;> rfl
    · rfl
    · rfl
    · rfl
  rw [key, key]
  split
  · exact (List.prefix_append_right_inj _).2 hp
  · exact List.prefix_refl _
  · exact List.prefix_refl _
  · exact List.prefix_refl _

theorem runWith_patched {hd : HeaderInfo} {w : Walk} {p : SaveSt × Option Err} {e : Err}
    (he : (runWith bo hd w p).err = some e) : (runWith bo hd w p).patched = none := by
  revert he
  unfold runWith
  split
  · split
    · intro _; rfl
    · intro _; rfl
    · split
      · intro h; cases h
      · intro _; rfl
  · intro _; rfl
  · intro _; rfl
  · intro _; rfl

theorem runWith_error {hd : HeaderInfo} {w : Walk} {p q : SaveSt × Option Err} {e : Err}
    (hq : (runWith bo hd w q).err = none) (hp : p.2 = some e) : (runWith bo hd w p).err = some e := by
  revert hq
  unfold runWith
  split
  · intro _
    rw [hp]
  · intro h; cases h
  · intro h; cases h
  · intro h; cases h

theorem runWith_ok {hd : HeaderInfo} {w : Walk} {p : SaveSt × Option Err} (hp : (runWith bo hd w p).err = none) :
    p.2 = none ∧ w.err = none := by
  revert hp
  unfold runWith
  split
  · split
    · intro h; cases h
    · intro h; cases h
    · rename_i h1 h2
      intro _
      exact ⟨h1, h2⟩
  · intro h; cases h
  · intro h; cases h
  · intro h; cases h

end Avb

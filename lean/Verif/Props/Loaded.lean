import Verif.Lemmas.LoadedAll
import Verif.Spec.Loaded
import Verif.Props.Objects

/-
C48: what was loaded can be saved again, and comes back as it was.
-/

namespace Avb

/-- C48: an object that was loaded, from whatever bytes, can be saved exactly when its rates have 32 bits,
its UTF-8 texts fit and the properties its writer insists on are there.  The context has to know the
objects it refers to. -/
theorem C48_saves {c : WCtx} {d : RCtx} {k : Cls} {bs rest : Bytes} {o : Obj}
    (h : Obj.readAs d k bs = .ok (o, rest))
    (hv : ∀ v ∈ o.visits, v.ref = 0 ∨ ∃ n, c.refMap v.ref = some n ∧ n < 2 ^ 32) :
    (∃ out, o.write c = .ok ((), out)) ↔ o.Resavable := Obj.back_visits h hv

/-- C48: an object that was loaded is in the form that saving and loading leaves alone, if its rates are
and its tracks have lock numbers. -/
theorem C48_stored {d : RCtx} {k : Cls} {bs rest : Bytes} {o : Obj}
    (h : Obj.readAs d k bs = .ok (o, rest)) (hr : ∀ r ∈ o.rates, rateNorm r = r) (hl : o.Locked) :
    o.Stored := Obj.stored_of h hr hl

/-- C48: an object that was loaded, then saved to a file where the objects it refers to have the same
numbers, and loaded again from there, is what it was: in either byte order, and whatever follows it. -/
theorem C48_same {c : WCtx} {d d' : RCtx} {k : Cls} {bs rest : Bytes} {o : Obj}
    (h : Obj.readAs d k bs = .ok (o, rest)) (hk : o.cls ≠ .TRKG)
    (hu : ∀ t, (Enc.utf8, t) ∈ o.texts → utf8Bytes t ≤ 65532)
    (hr : ∀ r ∈ o.rates, rateNorm r = r) (hl : o.Locked) (hd : Linked c d')
    (hf : ∀ v ∈ o.visits, v.ref = 0 ∨ c.refMap v.ref = some v.ref)
    {out : Bytes} (hw : o.write c = .ok ((), out)) (rest' : Bytes) :
    Obj.readAs d' o.cls (out ++ rest') = .ok (o, rest') :=
  C06_unchanged hd (Obj.readable_of h hu hk) (Obj.stored_of h hr hl) hf hw rest'

/-- C48: with new numbers for the objects it refers to, nothing else changes. -/
theorem C48_renumbered {c : WCtx} {d d' : RCtx} {k : Cls} {bs rest : Bytes} {o : Obj}
    (h : Obj.readAs d k bs = .ok (o, rest)) (hk : o.cls ≠ .TRKG)
    (hu : ∀ t, (Enc.utf8, t) ∈ o.texts → utf8Bytes t ≤ 65532)
    (hr : ∀ r ∈ o.rates, rateNorm r = r) (hl : o.Locked) (hd : Linked c d')
    {out : Bytes} (hw : o.write c = .ok ((), out)) (rest' : Bytes) :
    Obj.readAs d' o.cls (out ++ rest') =
      .ok (o.renumber fun r => if r = 0 then 0 else (c.refMap r).getD 0, rest') :=
  C06_renumbered hd (Obj.readable_of h hu hk) (Obj.stored_of h hr hl) hw rest'

/-- The clip of these bytes is loaded, saved and loaded again unchanged. -/
example (bo : BO) : ∃ bs out, Obj.readAs (exRead bo 4) .SCLP bs = .ok (exClip2, []) ∧
    exClip2.Resavable ∧ exClip2.write (exWrite bo 4) = .ok ((), out) ∧
    ∀ rest, Obj.readAs (exRead bo 4) .SCLP (out ++ rest) = .ok (exClip2, rest) := by
  obtain ⟨bs, hw⟩ := exClip2_write bo
  have hf : ∀ v ∈ exClip2.visits, v.ref = 0 ∨ (exWrite bo 4).refMap v.ref = some v.ref := by
    cases bo <;> decide
  have h := C06_unchanged (ex_linked bo (by decide)) exClip2_readable exClip2_stored hf hw []
  rw [List.append_nil] at h
  refine ⟨bs, bs, h, (C48_saves h fun v hv => ?_).1 ⟨bs, hw⟩, hw, fun rest => ?_⟩
  · rcases hf v hv with h0 | h0
    · exact .inl h0
    · refine .inr ⟨_, h0, ?_⟩
      have : ∀ v ∈ exClip2.visits, v.ref < 2 ^ 32 := by decide
      exact this v hv
  · have hu : ∀ t, (Enc.utf8, t) ∈ exClip2.texts → utf8Bytes t ≤ 65532 := by
      simp [exClip2, Obj.texts, Component.texts]
    exact C48_same h nofun hu (by decide +kernel) trivial (ex_linked bo (by decide)) hf hw rest

/-- The reader takes all the bytes, for an object with this property. -/
def readsTo {α : Type} (r : Rd α) (bs : Bytes) (p : α → Bool) : Bool :=
  match r bs with
  | .ok (a, []) => p a
  | _ => false

theorem readsTo_ok {α : Type} {r : Rd α} {bs : Bytes} {p : α → Bool} (h : readsTo r bs p = true) :
    ∃ a, r bs = .ok (a, []) ∧ p a = true := by
  unfold readsTo at h
  split at h
  · next a he => exact ⟨a, he, h⟩
  · cases h

/-- C48: a reference to a mob without mob id is loaded, but cannot be saved. -/
theorem C48_no_mob_id : ∃ o, Obj.readAs ⟨.little, 1⟩ .MCMR
      [2, 1, 0, 0, 0, 0, 0, 0, 0, 0, 7, 0, 0, 0, 3] = .ok (o, []) ∧
    ∀ c out, o.write c ≠ .ok ((), out) := by
  obtain ⟨o, h, hp⟩ := readsTo_ok (r := Obj.readAs ⟨.little, 1⟩ .MCMR)
    (bs := [2, 1, 0, 0, 0, 0, 0, 0, 0, 0, 7, 0, 0, 0, 3])
    (p := fun o => match o with | .MCMR x => x.mob_id.isNone | _ => false) (by decide +kernel)
  refine ⟨o, h, fun c out hw => ?_⟩
  cases o <;> first | cases hp | skip
  rename_i x
  have := ((C48_saves (c := c) h (fun v hv => absurd hv List.not_mem_nil)).1 ⟨out, hw⟩).2.2
  simp_all

/-- C48: a reference to a bin without the UTF-8 name is loaded, but cannot be saved. -/
theorem C48_no_utf8_name : ∃ o, Obj.readAs ⟨.little, 1⟩ .MCBR
      [2, 1, 0, 0, 0, 0, 0, 0, 0, 9, 1, 0, 98, 3] = .ok (o, []) ∧
    ∀ c out, o.write c ≠ .ok ((), out) := by
  obtain ⟨o, h, hp⟩ := readsTo_ok (r := Obj.readAs ⟨.little, 1⟩ .MCBR)
    (bs := [2, 1, 0, 0, 0, 0, 0, 0, 0, 9, 1, 0, 98, 3])
    (p := fun o => match o with | .MCBR x => x.name_utf8.isNone | _ => false) (by decide +kernel)
  refine ⟨o, h, fun c out hw => ?_⟩
  cases o <;> first | cases hp | skip
  rename_i x
  have := ((C48_saves (c := c) h (fun v hv => absurd hv List.not_mem_nil)).1 ⟨out, hw⟩).2.2
  simp_all

/-- C48: a media file whose rate is 1 with exponent 10 is loaded, but cannot be saved. -/
theorem C48_large_rate : ∃ o, Obj.readAs ⟨.little, 1⟩ .MDFL
      [2, 3, 0, 0, 0, 0, 0, 0, 0, 0, 0, 0, 2, 3, 1, 0, 0, 0, 10, 0, 0, 0, 0, 0, 0, 0, 0, 0, 0, 0, 3] =
        .ok (o, []) ∧
    ∀ c : WCtx, ∀ out, o.write c ≠ .ok ((), out) := by
  obtain ⟨o, h, hp⟩ := readsTo_ok (r := Obj.readAs ⟨.little, 1⟩ .MDFL)
    (bs := [2, 3, 0, 0, 0, 0, 0, 0, 0, 0, 0, 0, 2, 3, 1, 0, 0, 0, 10, 0, 0, 0, 0, 0, 0, 0, 0, 0, 0, 0, 3])
    (p := fun o => match o with
      | .MDFL x => decide (x.edit_rate = .fin 10000000000 ∧ x.locator = 0 ∧ x.physical_media = 0 ∧
          x.attributes = none)
      | _ => false) (by decide +kernel)
  refine ⟨o, h, fun c out hw => ?_⟩
  cases o <;> first | cases hp | skip
  rename_i x
  obtain ⟨h1, h2, h3, h4⟩ := of_decide_eq_true hp
  have hv : ∀ v ∈ (Obj.MDFL x).visits, v.ref = 0 := by
    intro v hv
    simp [Obj.visits, MediaDescriptor.visits, optProp, h2, h3, h4] at hv
    rcases hv with rfl; rfl
  obtain ⟨q, hq, _, hlt⟩ := ((C48_saves (c := c) h (fun v h => .inl (hv v h))).1 ⟨out, hw⟩).1
    x.edit_rate (by simp [Obj.rates, MediaFileDescriptor.rates])
  rw [h1] at hq
  cases hq
  exact absurd hlt (by decide +kernel)

end Avb

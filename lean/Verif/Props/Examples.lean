import Verif.Lemmas.FileCore

/-
Concrete objects and files used beside the theorems to show that their hypotheses can be met.
-/

namespace Avb

/-- Properties of a picture component at 25 frames per second. -/
def exComp (n : Text) : Component :=
  { left_bob := 0, right_bob := 0, media_kind_id := 1, edit_rate := .fin 25, name := some n,
    effect_id := none, attributes := 0, session_attrs := 0, precomputed := 0, param_list := none }

/-- A gap of ten frames. -/
def exFill : Obj := .FILL { toComponent := exComp ['g', 'a', 'p'], length := 10 }

/-- A sequence holding a gap, a clip and the same gap again. -/
def exSeq : Obj := .SEQU { toComponent := exComp ['V', '1'], components := [2, 3, 2] }

/-- A source clip. -/
def exClip : Obj :=
  .SCLP { toComponent := exComp ['c', 'l', 'i', 'p'], length := 12, track_id := 1, start_time := 5,
          mob_id := some MobID.zero }

/-- Three objects: a sequence at 1, a gap at 2, a clip at 3. -/
def exHeap : Heap := fun r =>
  if r = 1 then .ok ⟨11, true, exSeq, exSeq.visits⟩
  else if r = 2 then .ok ⟨12, true, exFill, exFill.visits⟩
  else if r = 3 then .ok ⟨13, true, exClip, exClip.visits⟩
  else .error .index

/-- Header fields of the example file. -/
def exInfo : HeaderInfo :=
  ⟨1234567890, ['2', '0', '0', '9', '/', '0', '2', '/', '1', '3'], ['p', 'y', 'a', 'v', 'b']⟩

theorem exHeap_cases {r : Ref} {e : Entry} (h : exHeap r = .ok e) :
    (r = 1 ∧ e = ⟨11, true, exSeq, exSeq.visits⟩) ∨ (r = 2 ∧ e = ⟨12, true, exFill, exFill.visits⟩) ∨
      (r = 3 ∧ e = ⟨13, true, exClip, exClip.visits⟩) := by
  unfold exHeap at h
  split at h
  · injection h with h; exact .inl ⟨by assumption, h.symm⟩
  · split at h
    · injection h with h; exact .inr (.inl ⟨by assumption, h.symm⟩)
    · split at h
      · injection h with h; exact .inr (.inr ⟨by assumption, h.symm⟩)
      · cases h

theorem exHeap_ok : HeapOK exHeap := by
  intro r e he v
  rcases exHeap_cases he with ⟨rfl, rfl⟩ | ⟨rfl, rfl⟩ | ⟨rfl, rfl⟩ <;> rfl

theorem exHeap_inj (content : Ref) : IidInj exHeap content := by
  intro a b ea eb _ _ ha hb hab
  rcases exHeap_cases ha with ⟨rfl, rfl⟩ | ⟨rfl, rfl⟩ | ⟨rfl, rfl⟩ <;>
    rcases exHeap_cases hb with ⟨rfl, rfl⟩ | ⟨rfl, rfl⟩ | ⟨rfl, rfl⟩ <;>
      first | rfl | (simp at hab)

theorem textsOK_short {l : List (Enc × Text)} (h : ∀ p ∈ l, p.1 = .macroman ∧ p.2.length < 65535) :
    TextsOK l := by
  intro p hp d hd
  obtain ⟨h1, h2⟩ := h p hp
  obtain ⟨e, t⟩ := p
  simp only at h1 h2
  subst h1
  simp only [payload, encodeText, Option.map_eq_some_iff] at hd
  obtain ⟨bs, hbs, rfl⟩ := hd
  simp only [reduceCtorEq, if_false]
  have := macEncode_length hbs
  omega

theorem exHeap_readable {r : Ref} {e : Entry} (he : exHeap r = .ok e) : e.obj.Readable := by
  rcases exHeap_cases he with ⟨rfl, rfl⟩ | ⟨rfl, rfl⟩ | ⟨rfl, rfl⟩ <;>
    exact textsOK_short (by decide)

theorem exInfo_ok : TextOK .macroman exInfo.last_save_str := by
  have := textsOK_short (l := [(.macroman, exInfo.last_save_str)]) (by decide)
  exact this _ List.mem_cons_self

theorem exHeap_save (bo : BO) : ∃ bytes, save exHeap 10 bo exInfo 1 = .ok bytes := by
  have : ∀ x : Except Err Bytes, x.isOk = true → ∃ b, x = .ok b := by
    intro x hx; cases x with
    | ok b => exact ⟨b, rfl⟩
    | error e => cases hx
  apply this
  cases bo <;> decide +kernel

end Avb

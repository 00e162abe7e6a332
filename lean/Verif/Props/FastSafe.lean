import Verif.Lemmas.FastSafe
import Verif.Props.Fast
import Verif.Props.Errors

/-!
C63: the accelerated readers and memory.
-/

namespace Avb.Fast

theorem load_of_safe {f : Fast Unit} (hs : Safe f) (hq : Whole f) {d : Bytes} (hd : d ≠ []) :
    load f d ≠ .error .undefined := by
  obtain ⟨_, h2⟩ := hs d { pos := 0, p := {} } hd (Nat.zero_le _)
  unfold load
  split
  · rename_i s h
    have := hq d _ _ _ h
    rw [this]
    simp
  · simp
  · simp
  · rename_i h
    exact absurd (congrArg Prod.fst h) h2

/-- C63: whatever bytes a payload has, an accelerated reader other than that of colour image descriptors
(`CDCI`) reads only bytes of the payload: it gives properties or raises an exception. -/
theorem C63_inside {k : Cls} {f : Fast Unit} (hf : reader k = some f) (hk : k ≠ .CDCI) (payload : Bytes) :
    load f payload ≠ .error .undefined := by
  by_cases hd : payload = []
  · subst hd
    cases k <;> first
      | exact absurd rfl hk
      | (injection hf with hf; subst hf; exact fun h => nomatch h)
      | cases hf
  · cases k with
    | CMPO => cases hf; exact load_of_safe safe_composition quiet_composition.whole hd
    | SLCT => cases hf; exact load_of_safe safe_selector quiet_selector.whole hd
    | TKFX => cases hf; exact load_of_safe safe_trackeffect quiet_trackeffect.whole hd
    | MDES => cases hf; exact load_of_safe safe_media quiet_media.whole hd
    | DIDD => cases hf; exact load_of_safe safe_did whole_did hd
    | CDCI => exact absurd rfl hk
    | SEQU => cases hf; exact load_of_safe safe_sequence quiet_sequence.whole hd
    | FILL => cases hf; exact load_of_safe safe_filler quiet_filler.whole hd
    | SCLP => cases hf; exact load_of_safe safe_sourceclip quiet_sourceclip.whole hd
    | PRCL => cases hf; exact load_of_safe safe_paramclip quiet_paramclip.whole hd
    | PRIT => cases hf; exact load_of_safe safe_paramitem quiet_paramitem.whole hd
    | TRKR => cases hf; exact load_of_safe safe_trackref quiet_trackref.whole hd
    | FXPS => cases hf; exact load_of_safe fwd_params.safe quiet_params.whole hd
    | _ => cases hf

/-- C63: the same for attribute lists. -/
theorem C63_attributes (payload : Bytes) : loadAttr payload ≠ .error .undefined := by
  obtain ⟨_, _, h⟩ := fwd_attributes payload { pos := 0, p := {} } (Nat.zero_le _)
  unfold loadAttr
  split
  · simp
  · simp
  · simp
  · rename_i e
    exact absurd (congrArg Prod.fst e) h

/-- C63: the reader of colour image descriptors too reads only bytes of the payload. -/
theorem C63_cdci (payload : Bytes) : (read_cdci_descriptor payload { pos := 0, p := {} }).1 ≠ .error .wild ∧
    (read_cdci_descriptor payload { pos := 0, p := {} }).2.pos ≤ payload.length := by
  by_cases hd : payload = []
  · subst hd
    exact ⟨(fun h => nomatch h), Nat.le_refl _⟩
  · exact (safe_cdci payload _ hd (Nat.zero_le _)).symm

/-- C63: data that the portable reader accepts do no harm. -/
theorem C63_accepted {n : Nat} {k : Cls} {f : Fast Unit} (hf : reader k = some f) {payload rest : Bytes}
    {o : Obj} (h : Obj.readAs ⟨.little, n⟩ k payload = .ok (o, rest)) (hc : CountsOK n k payload) :
    load f payload ≠ .error .undefined := by
  obtain ⟨p, hp, _⟩ := C33_same_fields hf h hc
  rw [hp]
  exact fun h => nomatch h

/-- A colour image descriptor that is damaged inside the box of its valid area: `t` should be 71. -/
def exCutBox (t : UInt8) : Bytes :=
  [0] ++ [2, 2] ++ List.replicate 79 0 ++ [1, 8, t] ++ [2, 2] ++ List.replicate 34 0 ++ [3]

/-- C63: but a colour image descriptor whose box is cut short by a wrong tag makes the accelerated reader
take eight numbers from an array with fewer, which is undefined. -/
theorem C63_cut_box : load read_cdci_descriptor (exCutBox 0) = .error .undefined := by
  apply raisesErr_iff
  decide +kernel

/-- C63: in any file, reading an object with the accelerated readers is undefined at most for chunks of
class `CDCI` in little endian files. -/
theorem C63_file {f : AvbFile} {index : Nat} (h : readObject f index = .error .undefined) :
    f.bo = .little ∧ ∃ payload, HasChunk f index (Cls.id .CDCI) payload ∧
      ∀ o, Avb.readObject f index = .ok (some o) → ¬ CountsOK f.positions.length .CDCI payload := by
  have portable : ∀ {k : Cls} {bs : Bytes},
      (match Obj.readAs f.ctx k bs with
        | .error e => .error e
        | .ok (o, left) => if left = [] then .ok (some (.portable o)) else .error .assertion :
          Except Err (Option Loaded)) ≠ .error .undefined := by
    intro k bs h
    split at h
    · rename_i h1
      cases h
      have := C64_object h1
      simp [DamageOf] at this
    · split at h <;> cases h
  have hz := h
  unfold readObject at h
  split at h
  · cases h
  · rename_i h0
    split at h
    · cases h
    · rename_i pos hp
      split at h
      · rename_i hr
        cases h
        have := (RaisesIn.bind rFourcc_raisesIn fun _ => RaisesIn.bind (RaisesIn.int rfl) fun _ =>
          RaisesIn.pure : RaisesIn (fun e => e = .struct) _) _ _ hr
        cases this
      · rename_i id size rest hr
        split at h
        · cases h
        · rename_i hl
          split at h
          · cases h
          · rename_i k hk
            have hid : id = k.id := Cls.id_of_some hk
            subst hid
            have hc := HasChunk.of_header h0 hp hr (by simpa using hl)
            split at h
            · rename_i hb
              have h' : loadChunk f.ctx k (rest.take size.toNat) = .error .undefined := by
                cases hx : loadChunk f.ctx k (rest.take size.toNat) with
                | error e => rw [hx] at h; cases h; rfl
                | ok l => rw [hx] at h; cases h
              have hcdci : k = .CDCI := by
                apply Classical.byContradiction
                intro hk
                unfold loadChunk at h'
                split at h'
                · cases hx : loadAttr (rest.take size.toNat) with
                  | error e => rw [hx] at h'; cases h'; exact C63_attributes _ hx
                  | ok l => rw [hx] at h'; cases h'
                · split at h'
                  · rename_i g hg
                    cases hx : load g (rest.take size.toNat) with
                    | error e => rw [hx] at h'; cases h'; exact C63_inside hg hk _ hx
                    | ok l => rw [hx] at h'; cases h'
                  · split at h'
                    · rename_i h1
                      cases h'
                      have := C64_object h1
                      simp [DamageOf] at this
                    · split at h' <;> cases h'
              subst hcdci
              refine ⟨hb, _, hc, fun o ho hcount => ?_⟩
              obtain ⟨l, hl, _⟩ := C33_file hc ho fun _ => hcount
              rw [hz] at hl
              cases hl
            · exact absurd h portable

/-- The damaged descriptor as chunk of a file: the portable reader raises an exception. -/
example : readObject (exChunkFile .little (Cls.id .CDCI) (exCutBox 0)) 1 = .error .undefined ∧
    Avb.readObject (exChunkFile .little (Cls.id .CDCI) (exCutBox 0)) 1 = .error .assertion :=
  ⟨raisesErr_iff (by decide +kernel), raisesErr_iff (by decide +kernel)⟩

/-- The same bytes read as another class, and a sequence that says it has 2^32 - 1 components. -/
example : load read_did_descriptor (exCutBox 0) ≠ .error .undefined ∧
    load read_sequence ([2, 3] ++ List.replicate 100 255) ≠ .error .undefined ∧
    loadAttr (exCutBox 0) ≠ .error .undefined :=
  ⟨C63_inside (k := .DIDD) rfl (by decide) _, C63_inside (k := .SEQU) rfl (by decide) _, C63_attributes _⟩

end Avb.Fast

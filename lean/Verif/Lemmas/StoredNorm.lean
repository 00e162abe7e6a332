import Verif.Lemmas.Stored

/-
What is read back is in stored form, apart from edit rates that are not stable.
-/

set_option linter.unusedSimpArgs false

namespace Avb

theorem dropWhile_idem {α : Type} {p : α → Bool} {l : List α} :
    (l.dropWhile p).dropWhile p = l.dropWhile p := by
  induction l with
  | nil => rfl
  | cons a l ih =>
    by_cases h : p a
    · simp only [List.dropWhile_cons, h, if_true, ih]
    · simp only [List.dropWhile_cons, h, if_false, Bool.false_eq_true]

theorem dropWhile_suffix_idem {α : Type} {p : α → Bool} {l t : List α}
    (h : l.dropWhile p = l) (ht : t <+: l) : t.dropWhile p = t := by
  cases t with
  | nil => rfl
  | cons a t =>
    cases l with
    | nil => exact absurd ht (by simp)
    | cons b l =>
      obtain ⟨r, hr⟩ := ht
      simp only [List.cons_append, List.cons.injEq] at hr
      obtain ⟨rfl, rfl⟩ := hr
      by_cases hp : p a
      · simp only [List.dropWhile_cons, hp, if_true] at h
        have := List.IsSuffix.length_le (List.dropWhile_suffix p (l := t ++ r))
        rw [h] at this
        simp only [List.length_append, List.length_cons] at this
        omega
      · simp only [List.dropWhile_cons, hp, if_false, Bool.false_eq_true]

theorem stripText_idem {t : Text} : stripText (stripText t) = stripText t := by
  unfold stripText
  generalize (fun c : Char => c == '\x00') = p
  generalize ha : t.dropWhile p = a
  have h1 : a.dropWhile p = a := by rw [← ha, dropWhile_idem]
  generalize hb : (a.reverse.dropWhile p).reverse = b
  have h2 : b <+: a := by
    have := List.dropWhile_suffix p (l := a.reverse)
    rw [← hb, ← List.reverse_suffix, List.reverse_reverse]; exact this
  rw [dropWhile_suffix_idem h1 h2, ← hb, List.reverse_reverse, dropWhile_idem]

section
variable {c : WCtx}

theorem normName_strip {n : Option Text} : stripText ((normName n).getD []) = (normName n).getD [] := by
  unfold normName orNone
  split
  · rfl
  · exact stripText_idem

theorem normName_ne {n : Option Text} : normName n ≠ some [] := by
  unfold normName orNone
  split
  · simp
  · simpa using ‹_›

theorem Component.norm_strip {x : Component} : Stripped (x.norm c).texts := by
  intro p hp
  simp only [Component.texts, List.mem_cons, List.not_mem_nil, or_false] at hp
  rcases hp with rfl | rfl
  · exact normName_strip
  · exact normName_strip

theorem Component.norm_stored {x : Component} : (x.norm c).Stored := ⟨normName_ne, normName_ne⟩

theorem TrackGroup.norm_stored {x : TrackGroup} : (x.norm c).Stored := by
  refine ⟨Component.norm_stored, ?_⟩
  intro t ht
  obtain ⟨t, _, rfl⟩ := List.mem_map.1 ht
  rfl

theorem Stripped.append {a b : List (Enc × Text)} (ha : Stripped a) (hb : Stripped b) :
    Stripped (a ++ b) := by
  intro p hp
  rcases List.mem_append.1 hp with h | h
  · exact ha p h
  · exact hb p h

theorem Stripped.one {e : Enc} {t : Text} : Stripped [(e, stripText t)] := by
  intro p hp
  rw [List.mem_singleton.1 hp]
  exact stripText_idem

theorem Stripped.optOne {e : Enc} {o : Option Text} : Stripped (optText e (o.map stripText)) := by
  cases o with
  | none => intro p hp; cases hp
  | some t => exact Stripped.one

theorem Stripped.nil : Stripped [] := by intro p hp; cases hp

theorem AudioSuitePluginEffect.norm_strip {x : AudioSuitePluginEffect} : Stripped (x.norm c).allTexts := by
  refine Stripped.append Component.norm_strip ?_
  intro q hq
  obtain ⟨p, hp, hq⟩ := List.mem_flatMap.1 hq
  obtain ⟨p, _, rfl⟩ := List.mem_map.1 hp
  rcases List.mem_cons.1 hq with rfl | hq
  · exact stripText_idem
  · obtain ⟨k, hk, rfl⟩ := List.mem_map.1 hq
    obtain ⟨k, _, rfl⟩ := List.mem_map.1 hk
    exact stripText_idem

theorem EqualizerMultiBand.norm_strip {x : EqualizerMultiBand} : Stripped (x.norm c).allTexts :=
  Stripped.append Component.norm_strip Stripped.one

theorem FileLocator.norm_strip {x : FileLocator} : Stripped x.norm.texts :=
  Stripped.append Stripped.one (Stripped.append Stripped.optOne (Stripped.append Stripped.optOne
    Stripped.optOne))

theorem dictSet_mem {l : List (Text × AttrVal)} {k : Text} {v : AttrVal} {q : Text × AttrVal}
    (h : q ∈ dictSet l k v) : q ∈ l ∨ q = (k, v) := by
  induction l with
  | nil => exact .inr (by simpa [dictSet] using h)
  | cons p l ih =>
    simp only [dictSet] at h
    split at h
    · rcases List.mem_cons.1 h with h | h
      · exact .inr h
      · exact .inl (List.mem_cons_of_mem _ h)
    · rcases List.mem_cons.1 h with h | h
      · exact .inl (h ▸ List.mem_cons_self)
      · exact (ih h).imp (List.mem_cons_of_mem _) id

theorem dictSet_keys {l : List (Text × AttrVal)} {k : Text} {v : AttrVal}
    (h : (l.map (·.1)).Nodup) : ((dictSet l k v).map (·.1)).Nodup := by
  induction l with
  | nil => simp [dictSet]
  | cons p l ih =>
    simp only [List.map_cons, List.nodup_cons] at h
    simp only [dictSet]
    split
    · rename_i hk
      simp only [List.map_cons, List.nodup_cons]
      exact ⟨hk ▸ h.1, h.2⟩
    · rename_i hk
      simp only [List.map_cons, List.nodup_cons]
      refine ⟨?_, ih h.2⟩
      intro hm
      obtain ⟨q, hq, hq2⟩ := List.mem_map.1 hm
      rcases dictSet_mem hq with hq | hq
      · exact h.1 (List.mem_map.2 ⟨q, hq, hq2⟩)
      · subst hq; exact hk hq2.symm

theorem dictFold_mem {l acc : List (Text × AttrVal)} {q : Text × AttrVal}
    (h : q ∈ l.foldl (fun l p => dictSet l p.1 p.2) acc) : q ∈ acc ∨ q ∈ l := by
  induction l generalizing acc with
  | nil => exact .inl h
  | cons p l ih =>
    rcases ih h with h | h
    · rcases dictSet_mem h with h | h
      · exact .inl h
      · exact .inr (h ▸ List.mem_cons_self)
    · exact .inr (List.mem_cons_of_mem _ h)

theorem dictFold_keys {l acc : List (Text × AttrVal)} (h : (acc.map (·.1)).Nodup) :
    ((l.foldl (fun l p => dictSet l p.1 p.2) acc).map (·.1)).Nodup := by
  induction l generalizing acc with
  | nil => exact h
  | cons p l ih => exact ih (dictSet_keys h)

theorem Attributes.norm_strip {x : Attributes} : Stripped (x.norm c).texts := by
  intro q hq
  obtain ⟨p, hp, hq⟩ := List.mem_flatMap.1 hq
  rcases dictFold_mem hp with hp | hp
  · cases hp
  · obtain ⟨⟨k, v⟩, _, rfl⟩ := List.mem_map.1 hp
    rcases List.mem_cons.1 hq with rfl | hq
    · exact stripText_idem
    · cases v with
      | str t =>
        rw [List.mem_singleton.1 hq]
        exact stripText_idem
      | _ => cases hq

theorem BinViewSetting.norm_strip {x : BinViewSetting} : Stripped (x.norm c).texts := by
  refine Stripped.append ?_ ?_
  · intro p hp
    simp only [Setting.texts, List.mem_cons, List.not_mem_nil, or_false] at hp
    rcases hp with rfl | rfl <;> exact stripText_idem
  · intro p hp
    obtain ⟨b, hb, rfl⟩ := List.mem_map.1 hp
    obtain ⟨b, _, rfl⟩ := List.mem_map.1 hb
    exact stripText_idem

theorem Bin.norm_strip {x : Bin} : Stripped (x.norm c).texts := by
  refine Stripped.append ?_ ?_
  · intro p hp
    obtain ⟨b, hb, hp⟩ := List.mem_flatMap.1 hp
    obtain ⟨b, _, rfl⟩ := List.mem_map.1 hb
    simp only [SiftItem.texts, List.mem_cons, List.not_mem_nil, or_false] at hp
    rcases hp with rfl | rfl <;> exact stripText_idem
  · intro p hp
    obtain ⟨b, hb, rfl⟩ := List.mem_map.1 hp
    obtain ⟨b, _, rfl⟩ := List.mem_map.1 hb
    exact stripText_idem

theorem Bin.norm_stored {x : Bin} : (x.norm c).Stored := by
  refine ⟨?_, ?_⟩
  · simp only [Bin.norm, List.length_map, List.length_take]; omega
  · intro h
    simp only [Bin.norm, List.length_map] at h ⊢
    unfold Bin.isLarge
    simp [h]

theorem DIDDescriptor.norm_stored {x : DIDDescriptor} : (x.norm c).Stored := by
  unfold DIDDescriptor.Stored
  dsimp only [DIDDescriptor.norm]
  refine ⟨?_, ?_, ?_, ?_, ?_, ?_⟩
  · cases x.client_fill_start <;> simp
  · simp
  · simp
  · simp
  · simp
  · simp only [List.mem_cons, List.not_mem_nil, or_false]
    rintro b (rfl | rfl | rfl | rfl) l hl
    all_goals
      obtain ⟨p, _, rfl⟩ := Option.map_eq_some_iff.1 hl
      simp only [List.length_take]; omega

theorem RGBADescriptor.norm_stored {x : RGBADescriptor} : (x.norm c).Stored := by
  refine ⟨DIDDescriptor.norm_stored, ?_⟩
  dsimp only [RGBADescriptor.norm]
  refine ⟨?_, ?_, ?_, ?_⟩
  · cases x.has_comp_min_ref <;> simp
  · cases x.has_comp_min_ref <;> simp
  · cases x.has_comp_min_ref <;> simp
  · cases x.alpha_min_ref <;> simp

theorem Obj.norm_strip {x : Obj} : Stripped (x.norm c).texts := by
  cases x with
  | ATTR x => exact Attributes.norm_strip
  | PRLS x => exact Stripped.nil
  | TMCS x => exact Stripped.nil
  | BVst x => exact BinViewSetting.norm_strip
  | ABIN x => exact Bin.norm_strip
  | BINF x => exact Bin.norm_strip
  | SEQU x => exact Component.norm_strip
  | SCLP x => exact Component.norm_strip
  | TCCP x => exact Component.norm_strip
  | ECCP x => exact Component.norm_strip
  | TRKR x => exact Component.norm_strip
  | PRCL x => exact Component.norm_strip
  | CTRL x => exact Component.norm_strip
  | FILL x => exact Component.norm_strip
  | TRKG x => exact Component.norm_strip
  | TKFX x => exact Component.norm_strip
  | PVOL x => exact Component.norm_strip
  | ASPI x => exact AudioSuitePluginEffect.norm_strip
  | EQMB x => exact EqualizerMultiBand.norm_strip
  | MASK x => exact Component.norm_strip
  | STRB x => exact Component.norm_strip
  | SPED x => exact Component.norm_strip
  | REPT x => exact Component.norm_strip
  | RSET x => exact Component.norm_strip
  | TNFX x => exact Component.norm_strip
  | SLCT x => exact Component.norm_strip
  | CMPO x => exact Component.norm_strip
  | FILE x => exact FileLocator.norm_strip
  | WINF x => exact FileLocator.norm_strip
  | URLL x => exact Stripped.nil
  | GRFX x => exact Stripped.nil
  | SHLP x => exact Stripped.nil
  | CCFX x => exact Stripped.nil
  | FXPS x => exact Stripped.nil
  | AVUP x => exact Stripped.nil
  | PRIT x => exact Stripped.one
  | MSML x => exact Stripped.append Stripped.one Stripped.optOne
  | APOS x => exact Stripped.nil
  | ABOB x => exact Stripped.nil
  | DIDP x => exact Stripped.nil
  | MPGP x => exact Stripped.nil
  | MCBR x => exact Stripped.append Stripped.one Stripped.optOne
  | MCMR x => exact Stripped.nil
  | TMBC x => exact Stripped.nil
  | TKMN x => exact Stripped.nil
  | TKDS x => exact Stripped.nil
  | TKPS x => exact Stripped.nil
  | TKDA x => exact Stripped.nil
  | TKPA x => exact Stripped.nil
  | MDES x => exact Stripped.nil
  | MDTP x => exact Stripped.nil
  | MDFM x => exact Stripped.nil
  | MDNG x => exact Stripped.nil
  | MDFL x => exact Stripped.nil
  | MULD x => exact Stripped.nil
  | WAVE x => exact Stripped.nil
  | AIFC x => exact Stripped.nil
  | PCMA x => exact Stripped.optOne
  | MPGA x => exact Stripped.nil
  | DIDD x => exact Stripped.nil
  | CDCI x => exact Stripped.nil
  | MPGI x => exact Stripped.nil
  | JPED x => exact Stripped.nil
  | RGBA x => exact Stripped.nil
  | DATD x => exact Stripped.nil
  | ANCD x => exact Stripped.nil

theorem PVal.stored_notInt {t : Int} {v : PVal} (h : t = 2) : ((v.stored t).norm c).NotInt := by
  rw [PVal.stored, if_pos h]
  cases v <;> exact fun i h => nomatch h

theorem ParamClip.norm_doubles {x : ParamClip} : (x.norm c).Doubles := by
  refine ⟨fun h p hp => ?_, fun p hp q hq h => ?_⟩
  · obtain ⟨p, _, rfl⟩ := List.mem_map.1 hp
    exact PVal.stored_notInt h
  · obtain ⟨p, _, rfl⟩ := List.mem_map.1 hp
    obtain ⟨q, _, rfl⟩ := List.mem_map.1 hq
    have h : q.type = 2 := h
    rw [PCPProp.norm, PVal.stored, if_pos h]
    cases q.value <;> exact fun i h => nomatch h

theorem Obj.norm_shape {x : Obj} : (x.norm c).Shape := by
  cases x with
  | ATTR x => exact dictFold_keys List.nodup_nil
  | PRLS x => trivial
  | TMCS x => trivial
  | BVst x => trivial
  | ABIN x => exact Bin.norm_stored
  | BINF x => exact Bin.norm_stored
  | SEQU x => exact Component.norm_stored
  | SCLP x => exact Component.norm_stored
  | TCCP x => exact Component.norm_stored
  | ECCP x => exact Component.norm_stored
  | TRKR x => exact Component.norm_stored
  | PRCL x => exact ⟨Component.norm_stored, ParamClip.norm_doubles⟩
  | CTRL x => exact Component.norm_stored
  | FILL x => exact Component.norm_stored
  | TRKG x => exact TrackGroup.norm_stored
  | TKFX x => exact TrackGroup.norm_stored
  | PVOL x => exact TrackGroup.norm_stored
  | ASPI x => exact TrackGroup.norm_stored
  | EQMB x => exact TrackGroup.norm_stored
  | MASK x => exact TrackGroup.norm_stored
  | STRB x => exact TrackGroup.norm_stored
  | SPED x => exact TrackGroup.norm_stored
  | REPT x => exact TrackGroup.norm_stored
  | RSET x => exact TrackGroup.norm_stored
  | TNFX x => exact TrackGroup.norm_stored
  | SLCT x => exact TrackGroup.norm_stored
  | CMPO x => exact TrackGroup.norm_stored
  | FILE x => trivial
  | WINF x => trivial
  | URLL x => trivial
  | GRFX x => trivial
  | SHLP x => trivial
  | CCFX x => trivial
  | FXPS x => 
    intro p hp
    obtain ⟨p, _, rfl⟩ := List.mem_map.1 hp
    simp only [EffectParam.norm, List.length_take]; omega
  | AVUP x => rfl
  | PRIT x => exact fun h => PVal.stored_notInt h
  | MSML x => trivial
  | APOS x => trivial
  | ABOB x => trivial
  | DIDP x => trivial
  | MPGP x => trivial
  | MCBR x => trivial
  | MCMR x => trivial
  | TMBC x => trivial
  | TKMN x => trivial
  | TKDS x => trivial
  | TKPS x => trivial
  | TKDA x => trivial
  | TKPA x => trivial
  | MDES x => trivial
  | MDTP x => trivial
  | MDFM x => trivial
  | MDNG x => trivial
  | MDFL x => trivial
  | MULD x => trivial
  | WAVE x => trivial
  | AIFC x => trivial
  | PCMA x => trivial
  | MPGA x => 
    intro v hv
    obtain ⟨w, _, rfl⟩ := Option.map_eq_some_iff.1 hv
    exact ⟨Int.emod_nonneg _ (by decide), Int.emod_lt_of_pos _ (by decide)⟩
  | DIDD x => exact DIDDescriptor.norm_stored
  | CDCI x => exact DIDDescriptor.norm_stored
  | MPGI x => exact DIDDescriptor.norm_stored
  | JPED x => exact DIDDescriptor.norm_stored
  | RGBA x => exact RGBADescriptor.norm_stored
  | DATD x => trivial
  | ANCD x => trivial

/-- What is read back is in stored form. -/
theorem Obj.norm_stored {x : Obj} (h : Stable (x.norm c).rates) : (x.norm c).Stored :=
  ⟨Obj.norm_strip, h, Obj.norm_shape⟩

end

end Avb

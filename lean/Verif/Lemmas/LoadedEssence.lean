import Verif.Lemmas.LoadedComp
import Verif.Lemmas.Essence

/-
src/avb/essence.py: what the readers give can be written again.
-/

namespace Avb

theorem Post.more {β : Type} {r : Rd β} {P : β → Prop} (h : Post r P) (bs : Bytes) (v : β) (rest : Bytes)
    (hr : r bs = .ok (v, rest)) (_ : rest ≠ []) : P v := h bs v rest hr

/-- As `Post.iterExt`, when each item is known to be followed by more. -/
theorem Post.iterExtMore {σ : Type} {body : Int → σ → Rd σ} {P : σ → Prop}
    (h : ∀ t s, P s → ∀ bs v rest, body t s bs = .ok (v, rest) → rest ≠ [] → P v) {s : σ}
    (hs : P s) : Post (Avb.iterExt body s) P := by
  intro bs
  induction hn : bs.length using Nat.strongRecOn generalizing bs s with
  | _ n ih =>
  intro v rest hr
  unfold Avb.iterExt at hr
  split at hr
  · cases hr
  · split at hr
    · cases hr; exact hs
    · split at hr
      · cases hr
      · split at hr
        · cases hr
        · rename_i hb
          split at hr
          · simp only [List.length_cons] at hn
            refine ih _ (by omega) (h _ _ hs _ _ _ hb ?_) _ rfl _ _ hr
            rintro rfl
            unfold Avb.iterExt at hr
            cases hr
          · cases hr

section
variable {c : WCtx} {d : RCtx}

theorem MediaDescriptor.good (hc : ∀ r, Wr.Ok (wRef c r)) :
    Post (MediaDescriptor.readBody d) fun x => Wr.Ok (x.writeBody c) := by
  unfold MediaDescriptor.readBody
  walk
  rename_i mob_kind _ locator _ intermediate _ physical_media _
  refine (Post.iterExtMore (P := fun s => ∃ o1 o2 o3, s =
    { mob_kind, locator, intermediate, physical_media, uuid := o1, wchar := o2, attributes := o3 } ∧
    OptIn (fun b : Bytes => InTy .s32 (b.length : Int)) o2) ?_ ⟨none, none, none, rfl, trivial⟩).mono ?_
  · rintro t _ ⟨o1, o2, o3, rfl, g⟩
    unfold MediaDescriptor.ext
    by_cases h1 : t = 1
    · rw [if_pos h1]
      refine Post.more ?_
      walk
      exact Post.pure ⟨_, _, _, rfl, g⟩
    rw [if_neg h1]
    by_cases h2 : t = 2
    · rw [if_pos h2]
      intro bs v rest hr hne
      obtain ⟨_, m1, _, hr⟩ := Rd.bind_eq_ok' hr
      obtain ⟨n, m2, hn, hr⟩ := Rd.bind_eq_ok' hr
      obtain ⟨b, m3, hb, hr⟩ := Rd.bind_eq_ok' hr
      cases hr
      refine ⟨_, _, _, rfl, ?_⟩
      have := (fread_more hb hne).2
      show InTy _ _
      rw [this]
      exact Post.int _ _ _ _ hn
    rw [if_neg h2]
    refine Post.more ?_
    refine Post.ite ?_ Post.fail
    walk
    exact Post.pure ⟨_, _, _, rfl, g⟩
  · rintro _ ⟨o1, o2, o3, rfl, g⟩
    ok [MediaDescriptor.writeBody]

theorem MediaDescriptor.back (hc : ∀ r, Wr.Ok (wRef c r)) :
    Post (MediaDescriptor.read d) fun x => (Obj.MDES x).Back c := by
  refine Post.bindP (MediaDescriptor.good hc) fun x hx => ?_
  walk
  refine Post.pure ?_
  back [MediaDescriptor.write]

theorem TapeDescriptor.back (hc : ∀ r, Wr.Ok (wRef c r)) :
    Post (TapeDescriptor.read d) fun x => (Obj.MDTP x).Back c := by
  refine Post.bindP (MediaDescriptor.good hc) fun x hx => ?_
  walk
  refine Post.pure ?_
  back [TapeDescriptor.write]

theorem FilmDescriptor.back (hc : ∀ r, Wr.Ok (wRef c r)) :
    Post (FilmDescriptor.read d) fun x => (Obj.MDFM x).Back c := by
  refine Post.bindP (MediaDescriptor.good hc) fun x hx => ?_
  walk
  refine Post.pure ?_
  back [FilmDescriptor.write]

theorem NagraDescriptor.back (hc : ∀ r, Wr.Ok (wRef c r)) :
    Post (NagraDescriptor.read d) fun x => (Obj.MDNG x).Back c := by
  refine Post.bindP (MediaDescriptor.good hc) fun x hx => ?_
  walk
  refine Post.pure ?_
  back [NagraDescriptor.write]

theorem MediaFileDescriptor.good (hc : ∀ r, Wr.Ok (wRef c r)) :
    Post (MediaFileDescriptor.readBody d) fun x => Wr.Ok (x.writeBody c) ↔ RateFits x.edit_rate := by
  refine Post.bindP (MediaDescriptor.good hc) fun x hx => ?_
  walk
  refine Post.pure ?_
  ok [MediaFileDescriptor.writeBody]

theorem MediaFileDescriptor.back (hc : ∀ r, Wr.Ok (wRef c r)) :
    Post (MediaFileDescriptor.read d) fun x => (Obj.MDFL x).Back c := by
  refine Post.bindP (MediaFileDescriptor.good hc) fun x hx => ?_
  walk
  refine Post.pure ?_
  back [MediaFileDescriptor.write, MediaFileDescriptor.rates]

theorem MultiDescriptor.back (hc : ∀ r, Wr.Ok (wRef c r)) :
    Post (MultiDescriptor.read d) fun x => (Obj.MULD x).Back c := by
  refine Post.bindP (MediaFileDescriptor.good hc) fun x hx => ?_
  walk
  refine Post.bindP (Post.list Post.all) fun l hl => ?_
  walk
  refine Post.pure ?_
  back [MultiDescriptor.write, MediaFileDescriptor.rates]

theorem WaveDescriptor.back (hc : ∀ r, Wr.Ok (wRef c r)) :
    Post (WaveDescriptor.read d) fun x => (Obj.WAVE x).Back c := by
  refine Post.bindP (MediaFileDescriptor.good hc) fun x hx => ?_
  walk
  refine Post.bind fun _ => ?_
  walk
  rename_i n hn
  refine Post.bindP (Post.fread (by have : (0 : Int) ≤ n := hn.1; exact this)) fun b hb => ?_
  walk
  refine Post.pure ?_
  back [WaveDescriptor.write, MediaFileDescriptor.rates]

theorem AIFCDescriptor.back (hc : ∀ r, Wr.Ok (wRef c r)) :
    Post (AIFCDescriptor.read d) fun x => (Obj.AIFC x).Back c := by
  refine Post.bindP (MediaFileDescriptor.good hc) fun base hx => ?_
  walk
  refine Post.bind fun _ => ?_
  walk
  rename_i n hn
  refine Post.bindP (Post.fread (by have : (0 : Int) ≤ n := hn.1; exact this)) fun summary hb => ?_
  refine Post.bindP (Post.iterExt (P := fun s => ∃ o, s =
    { toMediaFileDescriptor := base, summary, data_pos := o } ∧ OptIn (InTy .s32) o) ?_
    ⟨none, rfl, trivial⟩) ?_
  · rintro t _ ⟨o, rfl, g⟩
    unfold AIFCDescriptor.ext
    refine Post.ite ?_ Post.fail
    walk
    exact Post.pure ⟨_, rfl, by assumption⟩
  · rintro _ ⟨o, rfl, g⟩
    walk
    refine Post.pure ?_
    back [AIFCDescriptor.write, MediaFileDescriptor.rates]

theorem PCMADescriptor.back (hc : ∀ r, Wr.Ok (wRef c r)) :
    Post (PCMADescriptor.read d) fun x => (Obj.PCMA x).Back c := by
  refine Post.bindP (MediaFileDescriptor.good hc) fun base hx => ?_
  walk
  rename_i channels _ quantization_bits _ sample_rate _ locked _ audio_ref_level _
    electro_spatial_formulation _ dial_norm _ coding_format _ block_align _ sequence_offset _
    average_bps _ has_peak_envelope_data _ peak_envelope_version _ peak_envelope_format _
    points_per_peak_value _ peak_envelope_block_size _ peak_channel_count _ peak_frame_count _
    peak_of_peaks_offset _ peak_envelope_timestamp _
  refine Post.bindP (Post.iterExt (P := fun s => ∃ o1 o2, s =
    { toMediaFileDescriptor := base, channels, quantization_bits, sample_rate, locked,
      audio_ref_level, electro_spatial_formulation, dial_norm, coding_format, block_align,
      sequence_offset, average_bps, has_peak_envelope_data, peak_envelope_version,
      peak_envelope_format, points_per_peak_value, peak_envelope_block_size, peak_channel_count,
      peak_frame_count, peak_of_peaks_offset, peak_envelope_timestamp, ebu_timestamp := o1,
      timecode_framerate := o2 } ∧ OptIn (InTy .s64) o1 ∧ OptIn (TextIn .macroman) o2) ?_
    ⟨none, none, rfl, trivial, trivial⟩) ?_
  · rintro t _ ⟨o1, o2, rfl, g1, g2⟩
    unfold PCMADescriptor.ext
    refine Post.ite ?_ (Post.ite ?_ Post.fail)
    all_goals
      walk
      exact Post.pure ⟨_, _, rfl, by assumption, by assumption⟩
  · rintro _ ⟨o1, o2, rfl, g1, g2⟩
    walk
    refine Post.pure ?_
    cases o2 <;> simp only [OptIn] at g2 <;>
      back [PCMADescriptor.write, PCMADescriptor.allRates, PCMADescriptor.texts, optText]

theorem MPGADescriptor.back (hc : ∀ r, Wr.Ok (wRef c r)) :
    Post (MPGADescriptor.read d) fun x => (Obj.MPGA x).Back c := by
  refine Post.bindP (MediaFileDescriptor.good hc) fun base hx => ?_
  walk
  rename_i channels _ quantization_bits _ sample_rate _ locked _ audio_ref_level _
    electro_spatial_formulation _ dial_norm _ coding_format _ bit_rate _
  refine Post.bindP (Post.iterExt (P := fun s => ∃ o1 o2, s =
    { toMediaFileDescriptor := base, channels, quantization_bits, sample_rate, locked,
      audio_ref_level, electro_spatial_formulation, dial_norm, coding_format, bit_rate,
      sub_frame_alignment := o1, origin := o2 } ∧ OptIn (InTy .u64) o1 ∧ OptIn (InTy .u64) o2) ?_
    ⟨none, none, rfl, trivial, trivial⟩) ?_
  · rintro t _ ⟨o1, o2, rfl, g1, g2⟩
    unfold MPGADescriptor.ext
    refine Post.ite ?_ (Post.ite ?_ Post.fail)
    all_goals
      walk
      exact Post.pure ⟨_, _, rfl, by assumption, by assumption⟩
  · rintro _ ⟨o1, o2, rfl, g1, g2⟩
    walk
    have hs : OptIn (InTy .s64) o1 ↔ ∀ v, o1 = some v → v < 9223372036854775808 := by
      rw [OptIn.iff]
      refine forall_congr' fun v => imp_congr_right fun hv => ?_
      have hu : 0 ≤ v ∧ v ≤ 18446744073709551615 := OptIn.iff.1 g1 v hv
      show -9223372036854775808 ≤ v ∧ v ≤ 9223372036854775807 ↔ _
      omega
    refine Post.pure ⟨?_, fun _ h => (nomatch h), fun _ v hv => ?_⟩
    · ok [Obj.write, MPGADescriptor.write, Obj.Resavable, Obj.rates, Obj.texts,
        MPGADescriptor.allRates]
      tauto
    · have hu : 0 ≤ v ∧ v ≤ 18446744073709551615 := OptIn.iff.1 g1 v hv
      refine ⟨hu.1, ?_⟩
      show v < 18446744073709551616
      omega

theorem DataDescriptor.good (hc : ∀ r, Wr.Ok (wRef c r)) :
    Post (DataDescriptor.read d) fun x => Wr.Ok (x.write c) ↔ RateFits x.edit_rate := by
  refine Post.bindP (MediaFileDescriptor.good hc) fun x hx => ?_
  walk
  refine Post.pure ?_
  ok [DataDescriptor.write]

theorem DataDescriptor.back (hc : ∀ r, Wr.Ok (wRef c r)) :
    Post (DataDescriptor.read d) fun x => (Obj.DATD x).Back c := by
  refine (DataDescriptor.good hc).mono fun x hx => ?_
  back [MediaFileDescriptor.rates]

theorem ANCDataDescriptor.back (hc : ∀ r, Wr.Ok (wRef c r)) :
    Post (ANCDataDescriptor.read d) fun x => (Obj.ANCD x).Back c := by
  refine Post.bindP (DataDescriptor.good hc) fun x hx => ?_
  walk
  refine Post.pure ?_
  back [ANCDataDescriptor.write, MediaFileDescriptor.rates]

theorem point_good : Post (rPoint d) fun p => Wr.Ok (wPoint c p) := by
  unfold rPoint
  walk
  refine Post.pure ?_
  ok [wPoint]

theorem box_good : Post (rBox d) fun b => Wr.Ok (wBox c b) ∧ b.length ≤ 4 := by
  unfold rBox
  refine Post.bindP (point_good (c := c)) fun p0 h0 => ?_
  refine Post.bindP (point_good (c := c)) fun p1 h1 => ?_
  refine Post.bindP (point_good (c := c)) fun p2 h2 => ?_
  refine Post.bindP (point_good (c := c)) fun p3 h3 => ?_
  refine Post.pure ⟨?_, by simp⟩
  ok [wBox]

theorem fourcc_ok {b : Bytes} (h : b.length = 4) : Wr.Ok (wFourcc c.bo b) := by
  unfold wFourcc
  rw [Wr.ok_bind]
  refine ⟨Wr.ok_guard.2 h, ?_⟩
  cases c.bo <;> exact Wr.ok_emit.2 trivial

theorem Post.fourcck {β : Type} {k : Bytes → Rd β} {P : β → Prop} (hk : ∀ b x, k b [] ≠ .ok x)
    (h : ∀ b : Bytes, b.length = 4 → Post (k b) P) : Post (rFourcc d.bo >>= k) P := by
  intro bs v rest hr
  obtain ⟨b, mid, h1, h2⟩ := Rd.bind_eq_ok' hr
  have hm : mid ≠ [] := by rintro rfl; exact hk _ _ h2
  obtain ⟨b', mid', h3, h4⟩ := Rd.bind_eq_ok' h1
  have hl : b.length = b'.length ∧ mid = mid' := by
    revert h4
    cases d.bo <;> (intro h4; cases h4; simp)
  obtain ⟨hl, rfl⟩ := hl
  have := (fread_more h3 hm).2
  exact h b (by omega) _ _ _ h2

/-- What is known of the optional properties of a loaded image descriptor. -/
structure DIDDescriptor.Opts (c : WCtx) (x : DIDDescriptor) : Prop where
  a1 : OptIn (InTy .s16) x.frame_index_byte_order
  a2 : OptIn (InTy .s32) x.frame_sample_size
  a3 : OptIn (InTy .s32) x.first_frame_offset
  a4 : (x.client_fill_start = none ∧ x.client_fill_end = none) ∨ ∃ a b, x.client_fill_start = some a ∧
    x.client_fill_end = some b ∧ InTy .s32 a ∧ InTy .s32 b
  a5 : OptIn (InTy .s32) x.offset_to_rle_frame_index
  a6 : OptIn (InTy .s32) x.frame_start_offset
  a8 : (x.valid_box = none ∧ x.essence_box = none ∧ x.source_box = none) ∨
    ∃ u v w, x.valid_box = some u ∧ x.essence_box = some v ∧ x.source_box = some w ∧
      (Wr.Ok (wBox c u) ∧ u.length ≤ 4) ∧ (Wr.Ok (wBox c v) ∧ v.length ≤ 4) ∧
      Wr.Ok (wBox c w) ∧ w.length ≤ 4
  a9 : (x.framing_box = none ∧ x.reformatting_option = none) ∨ ∃ u v, x.framing_box = some u ∧
    x.reformatting_option = some v ∧ (Wr.Ok (wBox c u) ∧ u.length ≤ 4) ∧ InTy .s32 v
  a11 : (x.color_primaries = none ∧ x.coding_equations = none) ∨ ∃ u v, x.color_primaries = some u ∧
    x.coding_equations = some v
  a14 : OptIn (InTy .u8) x.essence_element_size_kind

/-- The descriptor without its optional properties. -/
def DIDDescriptor.bare (x : DIDDescriptor) : DIDDescriptor :=
  { x with
    frame_index_byte_order := none, frame_sample_size := none, first_frame_offset := none
    client_fill_start := none, client_fill_end := none, offset_to_rle_frame_index := none
    frame_start_offset := none, valid_box := none, essence_box := none, source_box := none
    framing_box := none, reformatting_option := none, transfer_characteristic := none
    color_primaries := none, coding_equations := none, essence_compression := none
    essence_element_size_kind := none, frame_checked_with_mapper := none }

theorem andHas_some {α β : Type} (a : α) (b : β) : andHas (some a) (some b) = some (a, b) := rfl

theorem DIDDescriptor.ok_bare {x : DIDDescriptor} (h : x.Opts c) :
    Wr.Ok (x.writeBody c) ↔ Wr.Ok (x.bare.writeBody c) := by
  obtain ⟨a1, a2, a3, a4, a5, a6, a8, a9, a11, a14⟩ := h
  have b4 : Wr.Ok (Wr.ifHas x.client_fill_start fun v => do
      wU8 0x01; wU8 0x04; wU8 71; wInt c.bo .s32 v; wU8 71
      let e ← Wr.get x.client_fill_end
      wInt c.bo .s32 e) := by
    rcases a4 with ⟨h, _⟩ | ⟨a, b, h1, h2, h3, h4⟩
    · rw [h]; exact ⟨[], rfl⟩
    · rw [h1, h2]
      ok []
  have b8 : Wr.Ok (Wr.ifHas (andHas (andHas x.valid_box x.essence_box) x.source_box) fun v => do
      wU8 0x01; wU8 0x08; wBox c v.1.1; wBox c v.1.2; wBox c v.2) := by
    rcases a8 with ⟨h, _⟩ | ⟨u, v, w, h1, h2, h3, ⟨h4, _⟩, ⟨h5, _⟩, h6, _⟩
    · rw [h]; exact ⟨[], rfl⟩
    · rw [h1, h2, h3]
      ok [andHas_some]
  have b9 : Wr.Ok (Wr.ifHas (andHas x.framing_box x.reformatting_option) fun v => do
      wU8 0x01; wU8 9; wBox c v.1; wU8 71; wInt c.bo .s32 v.2) := by
    rcases a9 with ⟨h, _⟩ | ⟨u, v, h1, h2, ⟨h3, _⟩, h4⟩
    · rw [h]; exact ⟨[], rfl⟩
    · rw [h1, h2]
      ok [andHas_some]
  have b11 : Wr.Ok (Wr.ifHas (andHas x.color_primaries x.coding_equations) fun v => do
      wU8 0x01; wU8 11; wU8 80; wRawUuid c.bo v.1; wU8 80; wRawUuid c.bo v.2) := by
    rw [Wr.ok_ifHas]
    ok []
  simp only [DIDDescriptor.writeBody, Wr.ok_bind, iff_true_intro b4, iff_true_intro b8,
    iff_true_intro b9, iff_true_intro b11]
  simp (decide := true) only [DIDDescriptor.bare, andHas, Wr.ok_ifHas, Wr.ok_bind, Wr.ok_int',
    Wr.ok_rawUuid, Wr.ok_bool', OptIn.true, OptIn.none, true_and, and_true, a1, a2, a3, a5, a6, a14]
  exact Iff.rfl

theorem DIDDescriptor.good_ext (t : Int) (s0 s : DIDDescriptor) (h : s.bare = s0 ∧ s.Opts c) :
    Post (DIDDescriptor.ext d t s) fun s => s.bare = s0 ∧ s.Opts c := by
  obtain ⟨rfl, h⟩ := h
  unfold DIDDescriptor.ext
  refine Post.ite ?_ ?_
  · walk; refine Post.pure ⟨rfl, { h with a1 := ?_ }⟩; assumption
  refine Post.ite ?_ ?_
  · walk; refine Post.pure ⟨rfl, { h with a2 := ?_ }⟩; assumption
  refine Post.ite ?_ ?_
  · walk; refine Post.pure ⟨rfl, { h with a3 := ?_ }⟩; assumption
  refine Post.ite ?_ ?_
  · walk
    refine Post.pure ⟨rfl, { h with a4 := .inr ⟨_, _, rfl, rfl, ?_, ?_⟩ }⟩ <;> assumption
  refine Post.ite ?_ ?_
  · walk; refine Post.pure ⟨rfl, { h with a5 := ?_ }⟩; assumption
  refine Post.ite ?_ ?_
  · walk; refine Post.pure ⟨rfl, { h with a6 := ?_ }⟩; assumption
  refine Post.ite ?_ ?_
  · refine Post.bindP (box_good (c := c)) fun u hu => ?_
    refine Post.bindP (box_good (c := c)) fun v hv => ?_
    refine Post.bindP (box_good (c := c)) fun w hw => ?_
    exact Post.pure ⟨rfl, { h with a8 := .inr ⟨_, _, _, rfl, rfl, rfl, hu, hv, hw⟩ }⟩
  refine Post.ite ?_ ?_
  · refine Post.bindP (box_good (c := c)) fun u hu => ?_
    walk
    refine Post.pure ⟨rfl, { h with a9 := .inr ⟨_, _, rfl, rfl, hu, ?_⟩ }⟩; assumption
  refine Post.ite ?_ ?_
  · walk; exact Post.pure ⟨rfl, { h with }⟩
  refine Post.ite ?_ ?_
  · walk; exact Post.pure ⟨rfl, { h with a11 := .inr ⟨_, _, rfl, rfl⟩ }⟩
  refine Post.ite ?_ ?_
  · walk; exact Post.pure ⟨rfl, { h with }⟩
  refine Post.ite ?_ ?_
  · walk; refine Post.pure ⟨rfl, { h with a14 := ?_ }⟩; assumption
  refine Post.ite ?_ Post.fail
  · walk; exact Post.pure ⟨rfl, { h with }⟩

theorem DIDDescriptor.Opts.stored {x : DIDDescriptor} (h : x.Opts c) : x.Stored := by
  obtain ⟨_, _, _, a4, _, _, a8, a9, a11, _⟩ := h
  refine ⟨?_, ?_, ?_, ?_, ?_, ?_⟩
  · rcases a4 with ⟨h1, h2⟩ | ⟨a, b, h1, h2, _⟩ <;> simp [h1, h2]
  · rcases a8 with ⟨h1, h2, h3⟩ | ⟨u, v, w, h1, h2, h3, _⟩ <;> simp [h1, h2]
  · rcases a8 with ⟨h1, h2, h3⟩ | ⟨u, v, w, h1, h2, h3, _⟩ <;> simp [h2, h3]
  · rcases a9 with ⟨h1, h2⟩ | ⟨u, v, h1, h2, _⟩ <;> simp [h1, h2]
  · rcases a11 with ⟨h1, h2⟩ | ⟨u, v, h1, h2⟩ <;> simp [h1, h2]
  · rcases a8 with ⟨h1, h2, h3⟩ | ⟨u, v, w, h1, h2, h3, ⟨_, l1⟩, ⟨_, l2⟩, _, l3⟩ <;>
    rcases a9 with ⟨h4, _⟩ | ⟨u', v', h4, _, ⟨_, l4⟩, _⟩ <;>
    simp [*]

theorem DIDDescriptor.good (hc : ∀ r, Wr.Ok (wRef c r)) : Post (DIDDescriptor.readBody d) fun x =>
    (Wr.Ok (x.writeBody c) ↔ RateFits x.edit_rate) ∧ x.Stored := by
  refine Post.bindP (MediaFileDescriptor.good hc) fun base hx => ?_
  walk
  rename_i n hn
  refine Post.bindP (Post.readN' (Post.int _) _) fun line_map hl => ?_
  have hl4 : InTy .s32 ((line_map.length : Int) * 4) := by
    have hn' : -2147483648 ≤ n ∧ n ≤ 2147483647 := hn
    show -2147483648 ≤ (line_map.length : Int) * 4 ∧ (line_map.length : Int) * 4 ≤ 2147483647
    rw [hl.1]
    omega
  replace hl := hl.2
  walk
  refine Post.fourcck (fun _ _ => rInt_nil) fun cm hcm => ?_
  have hcm' := fourcc_ok (c := c) hcm
  walk
  generalize hs0 : ({ toMediaFileDescriptor := base, .. } : DIDDescriptor) = s0
  refine (Post.iterExt (P := fun s => s.bare = s0 ∧ s.Opts c)
    (fun t s => DIDDescriptor.good_ext t s0 s) ⟨by subst hs0; rfl, ?_⟩).mono ?_
  · subst hs0
    exact ⟨trivial, trivial, trivial, .inl ⟨rfl, rfl⟩, trivial, trivial, .inl ⟨rfl, rfl, rfl⟩,
      .inl ⟨rfl, rfl⟩, .inl ⟨rfl, rfl⟩, trivial⟩
  · rintro s ⟨hb, ho⟩
    refine ⟨?_, ho.stored⟩
    rw [DIDDescriptor.ok_bare ho, hb]
    have he : s.edit_rate = base.edit_rate :=
      (congrArg (fun x => x.edit_rate) hb).trans (by subst hs0; rfl)
    subst hs0
    rw [he]
    ok [DIDDescriptor.bare, DIDDescriptor.writeBody, andHas]

theorem DIDDescriptor.back (hc : ∀ r, Wr.Ok (wRef c r)) :
    Post (DIDDescriptor.read d) fun x => (Obj.DIDD x).Back c := by
  refine Post.bindP (DIDDescriptor.good hc) fun x hx => ?_
  obtain ⟨h1, h2⟩ := hx
  walk
  refine Post.pure ?_
  back [DIDDescriptor.write, MediaFileDescriptor.rates]

theorem CDCIDescriptor.good (hc : ∀ r, Wr.Ok (wRef c r)) : Post (CDCIDescriptor.readBody d) fun x =>
    (Wr.Ok (x.writeBody c) ↔ RateFits x.edit_rate) ∧ x.toDIDDescriptor.Stored := by
  refine Post.bindP (DIDDescriptor.good hc) fun base hx => ?_
  obtain ⟨h1, h2⟩ := hx
  walk
  rename_i horizontal_subsampling _ vertical_subsampling _ component_width _
      color_sitting _ black_ref_level _ white_ref_level _ color_range _ frame_index_offset _
  refine (Post.iterExt (P := fun s => ∃ o1 o2, s =
    { toDIDDescriptor := base, horizontal_subsampling, vertical_subsampling, component_width,
      color_sitting, black_ref_level, white_ref_level, color_range, frame_index_offset,
      alpha_sampled_width := o1, ignore_bw := o2 } ∧ OptIn (InTy .u32) o1 ∧ OptIn (InTy .u32) o2) ?_
    ⟨none, none, rfl, trivial, trivial⟩).mono ?_
  · rintro t _ ⟨o1, o2, rfl, g1, g2⟩
    unfold CDCIDescriptor.ext
    refine Post.ite ?_ (Post.ite ?_ Post.fail)
    all_goals
      walk
      exact Post.pure ⟨_, _, rfl, by assumption, by assumption⟩
  · rintro _ ⟨o1, o2, rfl, g1, g2⟩
    refine ⟨?_, h2⟩
    ok [CDCIDescriptor.writeBody]

theorem CDCIDescriptor.back (hc : ∀ r, Wr.Ok (wRef c r)) :
    Post (CDCIDescriptor.read d) fun x => (Obj.CDCI x).Back c := by
  refine Post.bindP (CDCIDescriptor.good hc) fun x hx => ?_
  obtain ⟨h1, h2⟩ := hx
  walk
  refine Post.pure ?_
  back [CDCIDescriptor.write, MediaFileDescriptor.rates]

theorem MPGIDescriptor.back (hc : ∀ r, Wr.Ok (wRef c r)) :
    Post (MPGIDescriptor.read d) fun x => (Obj.MPGI x).Back c := by
  refine Post.bindP (CDCIDescriptor.good hc) fun x hx => ?_
  obtain ⟨h1, h2⟩ := hx
  walk
  refine Post.bindP (Post.fread (by assumption)) fun b hb => ?_
  walk
  refine Post.pure ?_
  back [MPGIDescriptor.write, MediaFileDescriptor.rates]

theorem JPEGDescriptor.back (hc : ∀ r, Wr.Ok (wRef c r)) :
    Post (JPEGDescriptor.read d) fun x => (Obj.JPED x).Back c := by
  refine Post.bindP (CDCIDescriptor.good hc) fun base hx => ?_
  obtain ⟨h1, h2⟩ := hx
  walk
  rename_i jpeg_table_id _ jpeg_frame_index_offset _ _ _ _ _
  refine Post.bindP (Post.fread (by assumption)) fun quantization_tables hb => ?_
  refine Post.bindP (Post.iterExt (P := fun s => ∃ o, s =
    { toCDCIDescriptor := base, jpeg_table_id, jpeg_frame_index_offset, quantization_tables,
      image_start_align := o } ∧ OptIn (InTy .s32) o) ?_ ⟨none, rfl, trivial⟩) ?_
  · rintro t _ ⟨o, rfl, g⟩
    unfold JPEGDescriptor.ext
    refine Post.ite ?_ Post.fail
    walk
    exact Post.pure ⟨_, rfl, by assumption⟩
  · rintro _ ⟨o, rfl, g⟩
    walk
    refine Post.pure ?_
    back [JPEGDescriptor.write, MediaFileDescriptor.rates]

/-- What is known of the optional properties of a loaded RGBA descriptor. -/
structure RGBADescriptor.Opts (x : RGBADescriptor) : Prop where
  a1 : OptIn (InTy .u64) x.frame_index_offset
  a2 : (x.has_comp_min_ref = none ∧ x.comp_min_ref = none ∧ x.has_comp_max_ref = none ∧
      x.comp_max_ref = none) ∨ ∃ a b e g, x.has_comp_min_ref = some a ∧ x.comp_min_ref = some b ∧
    x.has_comp_max_ref = some e ∧ x.comp_max_ref = some g ∧ InTy .u32 b ∧ InTy .u32 g
  a3 : (x.alpha_min_ref = none ∧ x.alpha_max_ref = none) ∨ ∃ a b, x.alpha_min_ref = some a ∧
    x.alpha_max_ref = some b ∧ InTy .u32 a ∧ InTy .u32 b

theorem encode_ok {l : List (Int × Int)} (h : ∀ p ∈ l, InTy .u8 p.1 ∧ InTy .u8 p.2) :
    ∃ a b, encodePixelLayout l = .ok ((a, b), []) ∧ a.length = l.length ∧ b.length = l.length := by
  obtain ⟨a, ha⟩ : Wr.Ok (forW l fun p => wU8 p.1) :=
    Wr.ok_forW.2 fun p hp => Wr.ok_int'.2 (h p hp).1
  obtain ⟨b, hb⟩ : Wr.Ok (forW l fun p => wU8 p.2) :=
    Wr.ok_forW.2 fun p hp => Wr.ok_int'.2 (h p hp).2
  refine ⟨a, b, ?_, (forW_u8_buffer ha).1, (forW_u8_buffer hb).1⟩
  unfold encodePixelLayout Wr.buffer
  rw [ha, hb]
  rfl

theorem Wr.ok_encode {l : List (Int × Int)} {k : Bytes × Bytes → Wr Unit}
    (h : ∀ p ∈ l, InTy .u8 p.1 ∧ InTy .u8 p.2) : ∃ a b : Bytes, a.length = l.length ∧
      b.length = l.length ∧ (Wr.Ok (encodePixelLayout l >>= k) ↔ Wr.Ok (k (a, b))) := by
  obtain ⟨a, b, he, h1, h2⟩ := encode_ok h
  refine ⟨a, b, h1, h2, ?_⟩
  rw [he]
  constructor
  · rintro ⟨bs, hb⟩
    obtain ⟨v, o1, o2, e1, e2, rfl⟩ := Wr.bind_eq_ok hb
    cases e1
    exact ⟨_, e2⟩
  · rintro ⟨bs, hb⟩
    refine ⟨bs, ?_⟩
    have := Wr.bind_ok (w := (.ok ((a, b), []) : Wr (Bytes × Bytes))) rfl hb
    simpa using this

theorem RGBADescriptor.ok_all {x : RGBADescriptor} (h : x.Opts)
    (hp : ∀ p ∈ x.pixel_layout, InTy .u8 p.1 ∧ InTy .u8 p.2)
    (hl : InTy .u32 (x.pixel_layout.length : Int)) :
    Wr.Ok (x.write c) ↔ Wr.Ok (x.toDIDDescriptor.writeBody c) := by
  obtain ⟨a1, a2, a3⟩ := h
  have b2 : Wr.Ok (Wr.ifHas x.has_comp_min_ref fun v => do
      wU8 0x01
      wU8 0x02
      wU8 66
      wBool v
      wU8 72
      let a ← Wr.get x.comp_min_ref
      wInt c.bo .u32 a
      wU8 66
      let b ← Wr.get x.has_comp_max_ref
      wBool b
      wU8 72
      let e ← Wr.get x.comp_max_ref
      wInt c.bo .u32 e) := by
    rcases a2 with ⟨h1, h2, h3, h4⟩ | ⟨a, b, e, g, h1, h2, h3, h4, i1, i2⟩ <;>
      rw [Wr.ok_ifHas, h1]
    · trivial
    · simp only [OptIn]
      ok []
  have b3 : Wr.Ok (Wr.ifHas x.alpha_min_ref fun v => do
      wU8 0x01
      wU8 0x03
      wU8 72
      wInt c.bo .u32 v
      wU8 72
      let a ← Wr.get x.alpha_max_ref
      wInt c.bo .u32 a) := by
    rcases a3 with ⟨h1, h2⟩ | ⟨a, b, h1, h2, i1, i2⟩ <;>
      rw [Wr.ok_ifHas, h1]
    · trivial
    · simp only [OptIn]
      ok []
  unfold RGBADescriptor.write
  simp only [Wr.ok_bind]
  obtain ⟨a, b, l1, l2, he⟩ := Wr.ok_encode hp
  rw [he]
  simp (decide := true) only [Wr.ok_bind, Wr.ok_int', Wr.ok_emit, l1, l2, hl, iff_true_intro b2,
    iff_true_intro b3, Wr.ok_ifHas, a1, true_and, and_true]

theorem RGBADescriptor.good_ext (t : Int) (s0 : DIDDescriptor) (l : List (Int × Int))
    (s : RGBADescriptor) (h : (s.toDIDDescriptor = s0 ∧ s.pixel_layout = l) ∧ s.Opts) :
    Post (RGBADescriptor.ext d t s) fun s =>
      (s.toDIDDescriptor = s0 ∧ s.pixel_layout = l) ∧ s.Opts := by
  obtain ⟨⟨rfl, rfl⟩, h⟩ := h
  unfold RGBADescriptor.ext
  refine Post.ite ?_ ?_
  · walk; refine Post.pure ⟨⟨rfl, rfl⟩, { h with a1 := ?_ }⟩; assumption
  refine Post.ite ?_ ?_
  · walk
    refine Post.pure ⟨⟨rfl, rfl⟩,
      { h with a2 := .inr ⟨_, _, _, _, rfl, rfl, rfl, rfl, ?_, ?_⟩ }⟩ <;> assumption
  refine Post.ite ?_ Post.fail
  · walk
    refine Post.pure ⟨⟨rfl, rfl⟩, { h with a3 := .inr ⟨_, _, rfl, rfl, ?_, ?_⟩ }⟩ <;> assumption

theorem RGBADescriptor.Opts.stored {x : RGBADescriptor} (h : x.Opts)
    (h' : x.toDIDDescriptor.Stored) : x.Stored := by
  obtain ⟨_, a2, a3⟩ := h
  refine ⟨h', ?_, ?_, ?_, ?_⟩
  · rcases a2 with ⟨h1, h2, h3, h4⟩ | ⟨a, b, e, g, h1, h2, h3, h4, _⟩ <;> simp [*]
  · rcases a2 with ⟨h1, h2, h3, h4⟩ | ⟨a, b, e, g, h1, h2, h3, h4, _⟩ <;> simp [*]
  · rcases a2 with ⟨h1, h2, h3, h4⟩ | ⟨a, b, e, g, h1, h2, h3, h4, _⟩ <;> simp [*]
  · rcases a3 with ⟨h1, h2⟩ | ⟨a, b, h1, h2, _⟩ <;> simp [*]

theorem RGBADescriptor.back (hc : ∀ r, Wr.Ok (wRef c r)) :
    Post (RGBADescriptor.read d) fun x => (Obj.RGBA x).Back c := by
  refine Post.bindP (DIDDescriptor.good hc) fun base hx => ?_
  obtain ⟨h1, h2⟩ := hx
  walk
  rename_i n hn
  refine Post.bindP (Post.fread hn.1) fun px hpx => ?_
  walk
  rename_i n' hn'
  refine Post.bindP (Post.fread hn'.1) fun ps hps => ?_
  walk
  have hl : InTy .u32 ((List.zipWith (fun (c s : UInt8) => ((c.toNat : Int), (s.toNat : Int)))
      px ps).length : Int) := by
    have := (hpx _ hn).2
    refine ⟨by simp [IntTy.lo, IntTy.signed], ?_⟩
    simp only [List.length_zipWith]
    omega
  have hp : ∀ p ∈ List.zipWith (fun (c s : UInt8) => ((c.toNat : Int), (s.toNat : Int))) px ps,
      InTy .u8 p.1 ∧ InTy .u8 p.2 := by
    intro p hp
    obtain ⟨i, hi, rfl⟩ := List.getElem_of_mem hp
    simp only [List.getElem_zipWith]
    exact ⟨byte_in _, byte_in _⟩
  generalize List.zipWith (fun (c s : UInt8) => ((c.toNat : Int), (s.toNat : Int))) px ps = l at *
  refine Post.bindP (Post.iterExt
    (P := fun s => (s.toDIDDescriptor = base ∧ s.pixel_layout = l) ∧ s.Opts)
    (fun t s => RGBADescriptor.good_ext t base l s) ⟨⟨rfl, rfl⟩, ?_⟩) ?_
  · exact ⟨trivial, .inl ⟨rfl, rfl, rfl, rfl⟩, .inl ⟨rfl, rfl⟩⟩
  · rintro s ⟨⟨hs, hs'⟩, ho⟩
    walk
    refine Post.pure ?_
    rw [← hs'] at hl hp
    have h3 := RGBADescriptor.ok_all (c := c) ho hp hl
    rw [hs, h1, ← hs] at h3
    have h4 := ho.stored (hs ▸ h2)
    back [MediaFileDescriptor.rates]

end

end Avb

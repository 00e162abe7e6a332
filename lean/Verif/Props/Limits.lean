import Verif.Props.Records
import Verif.Lemmas.Post

/-
C38, C39, C40, C42: track flags, bin sizes, objects that do not come back, and properties stored in
groups.
-/

namespace Avb

/-! ### C38 -/

/-- Whether the field with a given flag bit is there (bit numbers of the file format). -/
def Track.has (t : Track) : Nat → Bool
  | 0 => t.index.isSome
  | 1 => t.attributes.isSome
  | 2 => t.component.isSome
  | 3 => t.filler_proxy.isSome
  | 4 => t.bob_data.isSome
  | 5 => t.control_code.isSome
  | 6 => t.control_sub_code.isSome
  | 7 => t.start_pos.isSome
  | 8 => t.read_only.isSome
  | 9 => t.session_attr.isSome
  | _ => false

/-- The widths of the fields. -/
def trackFieldWidth : Nat → Nat
  | 0 => 2
  | 5 => 2
  | 6 => 2
  | 8 => 1
  | _ => 4

/-- The bytes taken by the fields that are there. -/
def Track.fieldBytes (t : Track) : Nat :=
  ((List.range 10).map fun i => if t.has i then trackFieldWidth i else 0).sum

/-- The 16 bit word at the beginning of some data. -/
def firstWord (bo : BO) (bs : Bytes) : Nat :=
  bigValue (match bo with | .little => (bs.take 2).reverse | .big => bs.take 2)

theorem Track.testBit_flags (t : Track) (i : Nat) : t.flags.testBit i = t.has i := by
  unfold Track.flags
  simp only [Nat.testBit_or, testBit_flagBit]
  match i with
  | 0 | 1 | 2 | 3 | 4 | 5 | 6 | 7 | 8 | 9 => simp [Track.has]
  | n + 10 => simp [Track.has]

theorem firstWord_pack (bo : BO) (n : Nat) (h : n < 2 ^ 16) (rest : Bytes) :
    firstWord bo (packNat bo 2 n ++ rest) = n := by
  have h2 : (packNat bo 2 n ++ rest).take 2 = packNat bo 2 n := by
    rw [List.take_append_of_le_length (by simp)]
    exact List.take_of_length_le (by simp)
  unfold firstWord
  rw [h2]
  cases bo <;> simp [bigValue_eq, packNat, leVal_leBytes] <;> omega

theorem rU16_word {bo : BO} {bs : Bytes} {v : Int} {rest : Bytes} (h : rInt bo .u16 bs = .ok (v, rest)) :
    v.toNat = firstWord bo bs ∧ 2 ≤ bs.length ∧ rest = bs.drop 2 := by
  unfold rInt at h
  split at h
  · cases h
  · rename_i hl
    simp only [IntTy.width] at hl h
    cases h
    refine ⟨?_, by omega, rfl⟩
    unfold firstWord
    have : IntTy.u16.signed = false := rfl
    cases bo <;> simp [bigValue_eq, unpackNat, this]

theorem wInt_length {bo : BO} {t : IntTy} {v : Int} {out : Bytes} (h : wInt bo t v = .ok ((), out)) :
    out.length = t.width := by
  rw [(wInt_eq_ok h).2.2, packNat_length]

theorem wRef_length {c : WCtx} {r : Ref} {out : Bytes} (h : wRef c r = .ok ((), out)) :
    out.length = 4 := by
  unfold wRef at h
  split at h
  · exact wInt_length h
  · split at h
    · cases h
    · exact wInt_length h

theorem wBool_length {b : Bool} {out : Bytes} (h : wBool b = .ok ((), out)) : out.length = 1 := by
  unfold wBool at h
  split at h <;> exact wInt_length h

theorem wFlagged_length {α : Type} {b : Bool} {o : Option α} {w : α → Wr Unit} {n : Nat} {out : Bytes}
    (hw : ∀ a out, w a = .ok ((), out) → out.length = n)
    (h : wFlagged b o w = .ok ((), out)) : out.length = if b then n else 0 := by
  unfold wFlagged at h
  split at h
  · obtain ⟨a, o1, o2, h1, h2, rfl⟩ := Wr.bind_eq_ok h
    unfold Wr.get at h1
    cases o with
    | none => cases h1
    | some v =>
      cases h1
      simpa [*] using hw _ _ h2
  · rename_i hb
    cases h
    simp [hb]

/-- C38: the flag word of a written track has exactly the bits of the fields that are there, and it is
followed by exactly their bytes. -/
theorem C38_written {c : WCtx} {t : Track} {bs : Bytes} (h : t.write c = .ok ((), bs)) :
    (∀ i, (firstWord c.bo bs).testBit i = t.has i) ∧ bs.length = 2 + t.fieldBytes := by
  unfold Track.write at h
  obtain ⟨_, o1, o2, e1, h0, rfl⟩ := Wr.bind_eq_ok h
  obtain ⟨_, rfl⟩ := Wr.guard_ok e1
  obtain ⟨_, w0, o2, e100, g0, rfl⟩ := Wr.bind_eq_ok h0
  obtain ⟨_, w1, o2, e101, g1, rfl⟩ := Wr.bind_eq_ok g0
  obtain ⟨_, w2, o2, e102, g2, rfl⟩ := Wr.bind_eq_ok g1
  obtain ⟨_, w3, o2, e103, g3, rfl⟩ := Wr.bind_eq_ok g2
  obtain ⟨_, w4, o2, e104, g4, rfl⟩ := Wr.bind_eq_ok g3
  obtain ⟨_, w5, o2, e105, g5, rfl⟩ := Wr.bind_eq_ok g4
  obtain ⟨_, w6, o2, e106, g6, rfl⟩ := Wr.bind_eq_ok g5
  obtain ⟨_, w7, o2, e107, g7, rfl⟩ := Wr.bind_eq_ok g6
  obtain ⟨_, w8, o2, e108, g8, rfl⟩ := Wr.bind_eq_ok g7
  obtain ⟨_, w9, o2, e109, g9, rfl⟩ := Wr.bind_eq_ok g8
  constructor
  · intro i
    rw [List.nil_append, (wInt_eq_ok e100).2.2]
    have hf : ((t.flags : Int) % (2 ^ (8 * IntTy.u16.width) : Int)).toNat = t.flags := by
      have := t.flags_lt
      simp only [IntTy.width]
      omega
    rw [hf, show IntTy.u16.width = 2 from rfl, firstWord_pack c.bo _ (by have := t.flags_lt; omega)]
    exact t.testBit_flags i
  · have l0 := wInt_length e100
    have l1 := wFlagged_length (fun _ _ => wInt_length) e101
    have l2 := wFlagged_length (fun _ _ => wRef_length) e102
    have l3 := wFlagged_length (fun _ _ => wRef_length) e103
    have l4 := wFlagged_length (fun _ _ => wRef_length) e104
    have l5 := wFlagged_length (fun _ _ => wRef_length) e105
    have l6 := wFlagged_length (fun _ _ => wRef_length) e106
    have l7 := wFlagged_length (fun _ _ => wInt_length) e107
    have l8 := wFlagged_length (fun _ _ => wInt_length) e108
    have l9 := wFlagged_length (fun _ _ => wInt_length) e109
    have l10 := wFlagged_length (fun _ _ => wBool_length) g9
    simp only [Track.testBit_flags, IntTy.width] at *
    have hr : List.range 10 = [0, 1, 2, 3, 4, 5, 6, 7, 8, 9] := by decide
    simp only [Track.fieldBytes, hr, List.map_cons, List.map_nil, List.sum_cons, List.sum_nil,
      trackFieldWidth, List.length_append, List.length_nil]
    omega

/-- C38: any combination of fields comes back. -/
theorem C38_back {c : WCtx} {d : RCtx} (hl : Linked c d) {t : Track} {bs : Bytes}
    (h : t.write c = .ok ((), bs)) (rest : Bytes) :
    ∃ u, Track.read d (bs ++ rest) = .ok (u, rest) ∧ (∀ i, u.has i = t.has i) ∧
      u.index = t.index ∧ u.control_code = t.control_code ∧ u.control_sub_code = t.control_sub_code ∧
      u.start_pos = t.start_pos ∧ u.read_only = t.read_only ∧ u.attributes = t.attributes.map c.tr ∧
      u.session_attr = t.session_attr.map c.tr ∧ u.component = t.component.map c.tr ∧
      u.filler_proxy = t.filler_proxy.map c.tr ∧ u.bob_data = t.bob_data.map c.tr := by
  refine ⟨_, Track.rt hl _ h rest trivial, fun i => ?_, rfl, rfl, rfl, rfl, rfl, rfl, rfl, rfl, rfl, rfl⟩
  match i with
  | 0 | 1 | 2 | 3 | 4 | 5 | 6 | 7 | 8 | 9 => simp [Track.has, Track.norm0, Track.norm]
  | n + 10 => rfl

/-- C38: a track that is read has exactly the fields of its flag word, and flag words with undefined
bits are never accepted. -/
theorem C38_read {d : RCtx} {bs rest : Bytes} {t : Track} (h : Track.read d bs = .ok (t, rest)) :
    (∀ i, t.has i = (firstWord d.bo bs).testBit i) ∧ firstWord d.bo bs < 2 ^ 10 := by
  unfold Track.read at h
  obtain ⟨fl, _, h0, h⟩ := Rd.bind_eq_ok h
  iterate 10 obtain ⟨_, _, _, h⟩ := Rd.bind_eq_ok h
  obtain ⟨_, _, hg1, h⟩ := Rd.bind_eq_ok h
  obtain ⟨_, _, hg2, h⟩ := Rd.bind_eq_ok h
  rw [Rd.guard_apply] at hg2
  split at hg2
  · rename_i hfl
    cases h
    rw [(rU16_word h0).1] at hfl
    constructor
    · intro i
      rw [← hfl, Track.testBit_flags]
    · rw [← hfl]
      exact Track.flags_lt _
  · cases hg2

/-- C38: a track is saved whatever fields it has, if their values fit and its references have numbers. -/
theorem C38_saved {c : WCtx} {t : Track} (h0 : ∀ v, t.index = some v → Fits .s16 v)
    (h5 : ∀ v, t.control_code = some v → Fits .s16 v)
    (h6 : ∀ v, t.control_sub_code = some v → Fits .s16 v)
    (h7 : ∀ v, t.start_pos = some v → Fits .s32 v)
    (hr : ∀ o ∈ [t.attributes, t.session_attr, t.component, t.filler_proxy, t.bob_data],
      ∀ r, o = some r → r = 0 ∨ ∃ k, c.refMap r = some k ∧ k < 2 ^ 32) :
    ∃ bs, t.write c = .ok ((), bs) := by
  simp only [List.mem_cons, List.not_mem_nil, or_false, forall_eq_or_imp, forall_eq] at hr
  have hi : ∀ {ty v}, Fits ty v → Wr.Ok (wInt c.bo ty v) := fun h => Wr.ok_int.2 ((fits_iff _ _).1 h)
  have hlt := t.flags_lt
  show Wr.Ok (t.write c)
  unfold Track.write
  simp only [Wr.ok_bind, Track.testBit_flags]
  refine ⟨?_, ?_, ?_, ?_, ?_, ?_, ?_, ?_, ?_, ?_, ?_, ?_⟩
  · exact ⟨[], by unfold Wr.guard; rw [if_pos (and_unknown_flags hlt)]; rfl⟩
  · exact Wr.ok_int.2 ⟨by simp [IntTy.lo, IntTy.signed], by
      simp only [IntTy.hi, IntTy.signed, IntTy.width]; norm_num; omega⟩
  · exact Wr.ok_flagged rfl fun a ha => hi (h0 a ha)
  · exact Wr.ok_flagged rfl fun a ha => Wr.ok_ref (hr.1 a ha)
  · exact Wr.ok_flagged rfl fun a ha => Wr.ok_ref (hr.2.1 a ha)
  · exact Wr.ok_flagged rfl fun a ha => Wr.ok_ref (hr.2.2.1 a ha)
  · exact Wr.ok_flagged rfl fun a ha => Wr.ok_ref (hr.2.2.2.1 a ha)
  · exact Wr.ok_flagged rfl fun a ha => Wr.ok_ref (hr.2.2.2.2 a ha)
  · exact Wr.ok_flagged rfl fun a ha => hi (h5 a ha)
  · exact Wr.ok_flagged rfl fun a ha => hi (h6 a ha)
  · exact Wr.ok_flagged rfl fun a ha => hi (h7 a ha)
  · exact Wr.ok_flagged rfl fun a _ => Wr.ok_bool

/-- A track with four of its ten fields, and what is stored of it. -/
def exTrack : Track :=
  { index := some 3, attributes := none, session_attr := some 2, component := some 1,
    filler_proxy := none, bob_data := none, control_code := none, control_sub_code := none,
    start_pos := some 100, read_only := none, lock_number := none }

example : ∃ bs, exTrack.write (exWrite .big 4) = .ok ((), bs) ∧ bs.length = 16 := by
  obtain ⟨bs, h⟩ := Wr.isOk_iff.1 (by decide +kernel : (exTrack.write (exWrite .big 4)).isOk = true)
  exact ⟨bs, h, (C38_written h).2⟩

/-! ### C39 -/

/-- C39: which form a bin is stored in: the large one if it is marked so or has more than 65535 items. -/
theorem C39_form {c : WCtx} {x : Bin} {bs : Bytes} (h : x.write c = .ok ((), bs)) :
    bs[1]? = some (if x.large_bin = true ∨ 65535 < x.items.length then 0x0f else 0x0e) := by
  unfold Bin.write Bin.writeBody at h
  obtain ⟨_, o1, o2, h1, _, rfl⟩ := Wr.bind_eq_ok h
  obtain ⟨_, o3, o4, h3, h4, rfl⟩ := Wr.bind_eq_ok h1
  obtain ⟨_, o5, o6, h5, _, rfl⟩ := Wr.bind_eq_ok h4
  cases h3
  by_cases hl : x.large_bin = true ∨ 65535 < x.items.length
  · have : x.isLarge = true := by simpa [Bin.isLarge] using hl
    rw [this] at h5
    cases h5
    rw [if_pos hl]
    rfl
  · have : x.isLarge = false := by
      rw [not_or] at hl
      simp only [Bin.isLarge, Bool.or_eq_false_iff, decide_eq_false_iff_not]
      exact ⟨by simpa using hl.1, hl.2⟩
    rw [this] at h5
    cases h5
    rw [if_neg hl]
    rfl

/-- C39: the items of a saved bin come back, all of them and in order. -/
theorem C39_items {c : WCtx} {d : RCtx} (hl : Linked c d) {x : Bin} (hx : TextsOK x.texts) {bs : Bytes}
    (h : x.write c = .ok ((), bs)) :
    ∃ y, Bin.read d bs = .ok (y, []) ∧
      y.items = x.items.map (fun b => { b with mob := c.tr b.mob }) ∧
      y.large_bin = (x.large_bin || decide (65535 < x.items.length)) := by
  have := Bin.rt hl hx bs h [] trivial
  rw [List.append_nil] at this
  exact ⟨_, this, rfl, rfl⟩

/-- C39: if a bin can be saved without its items and every item can be, then it can be saved with
any number of them a 32 bit count allows. -/
theorem C39_any_count {c : WCtx} {x : Bin} (h : ∃ bs, ({ x with items := [] } : Bin).write c = .ok ((), bs))
    (hi : ∀ b ∈ x.items, ∃ bs, b.write c = .ok ((), bs)) (hn : x.items.length < 2 ^ 32) :
    ∃ bs, x.write c = .ok ((), bs) := by
  change Wr.Ok _ at h
  show Wr.Ok _
  unfold Bin.write Bin.writeBody at h ⊢
  simp only [Wr.ok_bind] at h ⊢
  obtain ⟨⟨h1, h2, h3, h4, h5, h6, h7⟩, h8⟩ := h
  refine ⟨⟨h1, ?_, h3, h4, ?_, Wr.ok_forW.2 hi, h7⟩, h8⟩
  · cases x.isLarge <;> exact ⟨_, rfl⟩
  · unfold Bin.writeCount
    split
    · exact Wr.ok_int.2 ⟨by simp [IntTy.lo, IntTy.signed], by
        simp only [IntTy.hi, IntTy.signed, IntTy.width]; norm_num; omega⟩
    · rename_i hl
      have hl : ¬ 65535 < x.items.length := by
        intro h; exact hl (by simp [Bin.isLarge, h])
      exact Wr.ok_int.2 ⟨by simp [IntTy.lo, IntTy.signed], by
        simp only [IntTy.hi, IntTy.signed, IntTy.width]; norm_num; omega⟩

/-- A bin holding the same mob `n` times. -/
def exBin (n : Nat) : Bin :=
  { large_bin := false, view_setting := 1, uid := 77,
    items := List.replicate n { mob := 2, x := 0, y := 0, keyframe := 0, user_placed := false },
    display_mask := 0, display_mode := 0, sifted := false,
    sifted_settings := List.replicate 6 { method := 1, string := [], column := [] },
    sort_columns := [(0, ['N', 'a', 'm', 'e'])], mac_font := 1, mac_font_size := 10,
    mac_image_scale := 4, home_rect := ⟨0, 0, 100, 100⟩, background_color := ⟨0, 0, 0⟩,
    forground_color := ⟨65535, 65535, 65535⟩, ql_image_scale := 6, attributes := 0, was_iconic := false }

/-- Bins of every size up to the limit are saved, in one of the two forms, and come back. -/
example (bo : BO) (n : Nat) (hn : n < 2 ^ 32) : ∃ bs y, (exBin n).write (exWrite bo 4) = .ok ((), bs) ∧
    bs[1]? = some (if 65535 < n then 0x0f else 0x0e) ∧
    Bin.read (exRead bo 4) bs = .ok (y, []) ∧ y.items.length = n := by
  obtain ⟨bs, h⟩ := C39_any_count (c := exWrite bo 4) (x := exBin n)
    (show ∃ bs, (exBin 0).write (exWrite bo 4) = .ok ((), bs) from
      Wr.isOk_iff.1 (by cases bo <;> decide +kernel))
    (fun b hb => by
      rw [List.eq_of_mem_replicate hb]
      exact Wr.isOk_iff.1 (by cases bo <;> decide +kernel))
    (by simpa [exBin] using hn)
  have hx : TextsOK (exBin n).texts := textsOK_short (by
    show ∀ p ∈ (exBin 0).texts, _
    decide)
  obtain ⟨y, h1, h2, _⟩ := C39_items (ex_linked bo (by decide)) hx h
  refine ⟨bs, y, h, ?_, h1, by rw [h2]; simp [exBin]⟩
  have := C39_form h
  simpa [exBin] using this

/-! ### C40 -/

/-- What every object read has, whatever the data. -/
def Obj.Loadable : Obj → Prop
  | .ASPI x => x.plugins.length = 1
  | .SLCT x => x.selected < x.tracks.length
  | .TMBC x => x.color.length = 3
  | .PRCL x => x.value_type = 1 ∨ x.value_type = 2 ∨ x.value_type = 4
  | .BVst x => ∀ v, x.format_descriptors = some v → v.length < 32768
  | .AVUP x => x.byte_order = 0x4949
  | .ABIN x => x.sifted_settings.length = 6
  | .BINF x => x.sifted_settings.length = 6
  | _ => True

/-- The extension bodies of these classes leave alone what is asked of them. -/
macro "post_ext" : tactic => `(tactic| (
  repeat' apply Post.ite
  all_goals first
    | exact Post.fail
    | (repeat (refine Post.bind fun _ => ?_)
       exact Post.pure (by assumption))))

theorem AudioSuitePluginEffect.read_post (d : RCtx) :
    Post (AudioSuitePluginEffect.read d) fun x => x.plugins.length = 1 := by
  unfold AudioSuitePluginEffect.read
  iterate 6 refine Post.bind fun _ => ?_
  refine Post.bindP (Post.iterExt (P := fun x : AudioSuitePluginEffect => x.plugins.length = 1) ?_ rfl) ?_
  · intro t s h
    unfold AudioSuitePluginEffect.ext
    post_ext
  · exact fun a h => Post.bind fun _ => Post.pure h

theorem Selector.read_post (d : RCtx) :
    Post (Selector.read d) fun x => x.selected < x.tracks.length := by
  unfold Selector.read
  iterate 5 refine Post.bind fun _ => ?_
  refine Post.bindP Post.guard fun _ h => ?_
  exact Post.bind fun _ => Post.pure h

theorem Marker.read_post (d : RCtx) : Post (Marker.read d) fun x => x.color.length = 3 := by
  unfold Marker.read
  iterate 7 refine Post.bind fun _ => ?_
  refine Post.bindP (Post.readN 3) fun _ h => ?_
  refine Post.bindP (Post.iterExt (P := fun x : Marker => x.color.length = 3) ?_ h) ?_
  · intro t s h
    unfold Marker.ext
    post_ext
  · exact fun a h => Post.bind fun _ => Post.pure h

theorem ParamClip.read_post (d : RCtx) :
    Post (ParamClip.read d) fun x => x.value_type = 1 ∨ x.value_type = 2 ∨ x.value_type = 4 := by
  unfold ParamClip.read
  iterate 5 refine Post.bind fun _ => ?_
  refine Post.bindP Post.guard fun _ h => ?_
  iterate 3 refine Post.bind fun _ => ?_
  refine Post.bindP (Post.iterExt
    (P := fun x : ParamClip => x.value_type = 1 ∨ x.value_type = 2 ∨ x.value_type = 4) ?_ h) ?_
  · intro t s h
    unfold ParamClip.ext
    post_ext
  · exact fun a h => Post.bind fun _ => Post.pure h

theorem BinViewSetting.read_post (d : RCtx) :
    Post (BinViewSetting.read d) fun x => ∀ v, x.format_descriptors = some v → v.length < 32768 := by
  unfold BinViewSetting.read
  iterate 5 refine Post.bind fun _ => ?_
  refine Post.bindP (Post.iterExt
    (P := fun x : BinViewSetting => ∀ v, x.format_descriptors = some v → v.length < 32768) ?_ nofun) ?_
  · intro t s h
    unfold BinViewSetting.ext
    refine Post.ite ?_ Post.fail
    refine Post.bind fun _ => ?_
    refine Post.bindP (Q := fun v => v ≤ 32767) ?_ fun n hn => ?_
    · intro bs v rest h
      have hw : fieldWidth .s16 ≤ bs.length := by
        by_contra hlt
        rw [C01_short (by omega)] at h
        cases h
      obtain ⟨w, h1, h2⟩ := C01_read (bo := d.bo) hw
      rw [h1] at h
      cases h
      exact Int.le_of_lt_add_one h2.2
    · refine Post.bind fun _ => ?_
      refine Post.bindP (Post.readN _) fun l hl => Post.pure ?_
      intro v hv
      cases hv
      omega
  · exact fun a h => Post.bind fun _ => Post.pure h

theorem CFUserParam.read_post (d : RCtx) : Post (CFUserParam.read d) fun x => x.byte_order = 0x4949 := by
  unfold CFUserParam.read
  iterate 3 refine Post.bind fun _ => ?_
  refine Post.bindP Post.guard fun _ h => ?_
  iterate 6 refine Post.bind fun _ => ?_
  exact Post.pure h

theorem Bin.readBody_post (d : RCtx) : Post (Bin.readBody d) fun x => x.sifted_settings.length = 6 := by
  unfold Bin.readBody
  iterate 10 refine Post.bind fun _ => ?_
  refine Post.bindP (Post.readN 6) fun _ h => ?_
  iterate 11 refine Post.bind fun _ => ?_
  exact Post.pure h

theorem Bin.read_post (d : RCtx) : Post (Bin.read d) fun x => x.sifted_settings.length = 6 :=
  Post.bindP (Bin.readBody_post d) fun _ h => Post.bind fun _ => Post.pure h

theorem BinFirst.read_post (d : RCtx) :
    Post (BinFirst.read d) fun x => x.sifted_settings.length = 6 := by
  refine Post.bindP (Bin.readBody_post d) fun _ h => ?_
  iterate 4 refine Post.bind fun _ => ?_
  exact Post.pure h

/-- C40: whatever the data, an object that is read has these shapes.  So an object of any other shape,
if it can be saved, does not come back as it was. -/
theorem C40_loaded {d : RCtx} {k : Cls} {bs : Bytes} {o : Obj} {rest : Bytes}
    (h : Obj.readAs d k bs = .ok (o, rest)) : o.Loadable := by
  have as : ∀ {α : Type} {r : Rd α} {f : α → Obj} {P : α → Prop}, Post r P →
      (∀ a, P a → (f a).Loadable) → r.as f bs = .ok (o, rest) → o.Loadable := by
    intro α r f P hp hf h
    obtain ⟨a, mid, h1, h2⟩ := Rd.bind_eq_ok' h
    cases h2
    exact hf a (hp _ _ _ h1)
  have triv : ∀ {α : Type} {r : Rd α} {f : α → Obj}, (∀ a, (f a).Loadable) →
      r.as f bs = .ok (o, rest) → o.Loadable := fun hf h => as (P := fun _ => True)
        (fun _ _ _ _ => True.intro) (fun a _ => hf a) h
  cases k <;> first
    | (refine as (AudioSuitePluginEffect.read_post d) ?_ h; exact fun _ h => h)
    | (refine as (Selector.read_post d) ?_ h; exact fun _ h => h)
    | (refine as (Marker.read_post d) ?_ h; exact fun _ h => h)
    | (refine as (ParamClip.read_post d) ?_ h; exact fun _ h => h)
    | (refine as (BinViewSetting.read_post d) ?_ h; exact fun _ h => h)
    | (refine as (CFUserParam.read_post d) ?_ h; exact fun _ h => h)
    | (refine as (Bin.read_post d) ?_ h; exact fun _ h => h)
    | (refine as (BinFirst.read_post d) ?_ h; exact fun _ h => h)
    | (refine triv ?_ h; exact fun _ => True.intro)

/-- Whatever `w` writes, and whatever follows it, `r` fails on it with `e`. -/
def NotRead {α : Type} (w : Wr Unit) (r : Rd α) (e : Err) : Prop :=
  ∀ bs, w = .ok ((), bs) → ∀ rest, r (bs ++ rest) = .error e

section
variable {α β σ : Type} {w1 w2 : Wr Unit} {e : Err}

theorem NotRead.bind {r1 : Rd α} {k : α → Rd β} {v1 : α} (h1 : RT w1 r1 v1) (h2 : NotRead w2 (k v1) e) :
    NotRead (w1 >>= fun _ => w2) (r1 >>= k) e := by
  intro bs hbs rest
  obtain ⟨a, o1, o2, e1, e2, rfl⟩ := Wr.bind_eq_ok hbs
  rw [List.append_assoc, Rd.bind_ok (h1 o1 e1 _ trivial)]
  exact h2 o2 e2 rest

theorem NotRead.bindN {r1 : Rd α} {k : α → Rd β} {v1 : α} (h1 : RTN w1 r1 v1) (hs : Starts w2)
    (h2 : NotRead w2 (k v1) e) : NotRead (w1 >>= fun _ => w2) (r1 >>= k) e := by
  intro bs hbs rest
  obtain ⟨a, o1, o2, e1, e2, rfl⟩ := Wr.bind_eq_ok hbs
  have hf : Follow (o2 ++ rest) := by
    obtain ⟨b, tl, rfl, hb⟩ := hs o2 e2
    exact ⟨b, tl ++ rest, rfl, hb⟩
  rw [List.append_assoc, Rd.bind_ok (h1 o1 e1 _ hf)]
  exact h2 o2 e2 rest

theorem NotRead.guard {c : Prop} [Decidable c] {k : Unit → Rd β} (h : ¬ c) :
    NotRead w1 (Rd.guard c e >>= k) e := by
  intro bs hbs rest
  rw [Rd.bind_apply, Rd.guard_apply, if_neg h]

theorem NotRead.as {r : Rd α} {f : α → Obj} (h : NotRead w1 r e) : NotRead w1 (r.as f) e := by
  intro bs hbs rest
  unfold Rd.as
  rw [Rd.bind_apply, h bs hbs rest]

theorem NotRead.first {r : Rd α} (h : NotRead w1 r e) : NotRead (w1 >>= fun _ => w2) r e := by
  intro bs hbs rest
  obtain ⟨a, o1, o2, e1, e2, rfl⟩ := Wr.bind_eq_ok hbs
  rw [List.append_assoc]
  exact h o1 e1 _

theorem NotRead.then {r : Rd α} {k : α → Rd β} (h : NotRead w1 r e) : NotRead w1 (r >>= k) e := by
  intro bs hbs rest
  rw [Rd.bind_apply, h bs hbs rest]

theorem NotRead.item {body : Int → σ → Rd σ} {s : σ} {tag : Int} (h : NotRead w1 (body tag s) e) :
    NotRead (wU8 1 >>= fun _ => wU8 tag >>= fun _ => w1) (iterExt body s) e := by
  intro bs hbs rest
  obtain ⟨_, o1, o2, e1, e2, rfl⟩ := Wr.bind_eq_ok hbs
  obtain ⟨_, o3, o4, e3, e4, rfl⟩ := Wr.bind_eq_ok e2
  obtain ⟨_, _, rfl⟩ := wU8_out e1
  obtain ⟨h1, h2, rfl⟩ := wU8_out e3
  have ht : ((UInt8.ofNat tag.toNat).toNat : Int) = tag := by
    simp; omega
  have hb := h o4 e4 rest
  simp only [Int.toNat_one, List.cons_append, List.nil_append]
  unfold iterExt
  simp only [ht, hb]
  rfl

/-- Walk to the test that fails. -/
macro "nr_steps" : tactic => `(tactic| repeat (with_reducible refine NotRead.bind (by rt_prim) ?_))
end

/-- C40: a selector whose selected index is not below its number of tracks can be saved, but no reader
accepts what was saved. -/
theorem C40_selector {c : WCtx} {d : RCtx} (hl : Linked c d) {x : Selector} (ht : TextsOK x.texts)
    (hs : ¬ x.selected < x.tracks.length) {bs : Bytes} (h : (Obj.SLCT x).write c = .ok ((), bs))
    (rest : Bytes) : Obj.readAs d .SLCT (bs ++ rest) = .error .assertion := by
  refine NotRead.as (w1 := x.write c) ?_ bs h rest
  unfold Selector.write Selector.read
  refine NotRead.bindN (TrackGroup.rt hl ht) (by starts) ?_
  nr_steps
  exact NotRead.guard (by simpa [TrackGroup.norm] using hs)

/-- C40: an audio plug-in effect that does not have exactly one plug-in is not read back. -/
theorem C40_plugins {c : WCtx} {d : RCtx} (hl : Linked c d) {x : AudioSuitePluginEffect}
    (ht : TextsOK x.texts) (hs : x.plugins.length ≠ 1) {bs : Bytes}
    (h : (Obj.ASPI x).write c = .ok ((), bs)) (rest : Bytes) :
    Obj.readAs d .ASPI (bs ++ rest) = .error .assertion := by
  refine NotRead.as (w1 := x.write c) ?_ bs h rest
  unfold AudioSuitePluginEffect.write AudioSuitePluginEffect.read
  refine NotRead.bindN (TrackEffect.rt_body hl ht) (by starts) ?_
  nr_steps
  exact NotRead.guard (by omega)

/-- C40: a parameter clip with a value type other than the three known is not read back. -/
theorem C40_value_type {c : WCtx} {d : RCtx} (hl : Linked c d) {x : ParamClip}
    (ht : TextsOK x.texts) (hs : ¬ (x.value_type = 1 ∨ x.value_type = 2 ∨ x.value_type = 4)) {bs : Bytes}
    (h : (Obj.PRCL x).write c = .ok ((), bs)) (rest : Bytes) :
    Obj.readAs d .PRCL (bs ++ rest) = .error .assertion := by
  refine NotRead.as (w1 := x.write c) ?_ bs h rest
  unfold ParamClip.write ParamClip.read
  refine NotRead.bind (Clip.rt hl ht) ?_
  nr_steps
  exact NotRead.guard hs

/-- C40: such a parameter clip is saved exactly when it has no control points. -/
theorem C40_value_type_saved {c : WCtx} {x : ParamClip}
    (hs : ¬ (x.value_type = 1 ∨ x.value_type = 2 ∨ x.value_type = 4)) {bs : Bytes}
    (h : (Obj.PRCL x).write c = .ok ((), bs)) : x.control_points = [] := by
  simp only [not_or] at hs
  change x.write c = _ at h
  have h : Wr.Ok (x.write c) := ⟨bs, h⟩
  unfold ParamClip.write at h
  simp only [Wr.ok_bind, Wr.ok_forW] at h
  obtain ⟨-, -, -, -, -, -, h, -⟩ := h
  cases hc : x.control_points with
  | nil => rfl
  | cons p ps =>
    obtain ⟨o, ho⟩ := h p (by simp [hc])
    unfold PCP.write at ho
    iterate 3 obtain ⟨_, _, _, _, ho, _⟩ := Wr.bind_eq_ok ho
    obtain ⟨_, _, _, ho, _, _⟩ := Wr.bind_eq_ok ho
    unfold PCP.writeValue at ho
    rw [if_neg hs.1, if_neg hs.2.1, if_neg hs.2.2] at ho
    cases ho

/-- C40: a bin view with 32768 or more format descriptors is not read back: the count is read with
a sign it was not written with. -/
theorem C40_descriptors {c : WCtx} {d : RCtx} (hl : Linked c d) {x : BinViewSetting}
    (ht : TextsOK x.texts) {v : List FormatDescriptor} (hv : x.format_descriptors = some v)
    (hs : 32768 ≤ v.length) {bs : Bytes} (h : (Obj.BVst x).write c = .ok ((), bs)) (rest : Bytes) :
    Obj.readAs d .BVst (bs ++ rest) = .error .assertion := by
  have hlen : v.length ≤ 65535 := by
    have h : Wr.Ok (x.write c) := ⟨bs, h⟩
    unfold BinViewSetting.write at h
    rw [hv] at h
    simp only [Wr.ok_bind, Wr.ifHas] at h
    obtain ⟨-, -, -, -, -, ⟨-, -, -, h, -⟩, -⟩ := h
    have := (Wr.ok_int.1 h).2
    simp only [IntTy.hi, IntTy.signed, IntTy.width] at this
    norm_num at this
    omega
  refine NotRead.as (w1 := x.write c) ?_ bs h rest
  unfold BinViewSetting.write BinViewSetting.read
  refine NotRead.bind (Setting.rt hl ht.left) ?_
  nr_steps
  refine NotRead.bind (RT.list (by simp) fun b hb => BinColumn.rt hl ?_) ?_
  · exact ht.right (.macroman, b.title) (List.mem_map.2 ⟨b, hb, rfl⟩)
  rw [hv]
  refine NotRead.first (NotRead.then (NotRead.item ?_))
  rt_ext BinViewSetting.ext
  nr_steps
  refine NotRead.bind (v1 := (v.length : Int) - 65536) ?_ ?_
  · intro o ho rest _
    obtain ⟨h1, h2, rfl⟩ := wInt_eq_ok ho
    simp only [IntTy.hi, IntTy.signed, IntTy.width] at h2
    norm_num at h2
    have := RT.int (bo := d.bo) (t := .s16) (v := (v.length : Int) - 65536) _
      (wInt_ok (by simp [IntTy.lo, IntTy.signed, IntTy.width]; omega)
        (by simp [IntTy.hi, IntTy.signed, IntTy.width]; omega)) rest trivial
    rw [← this, hl.bo]
    simp only [IntTy.width]
    congr 4
    omega
  · exact NotRead.guard (by omega)

/-- C40: a marker is read back with three colour parts, however many it was saved with. -/
theorem C40_marker {d : RCtx} {x : Marker} {bs rest : Bytes}
    (h : Obj.readAs d .TMBC bs = .ok (.TMBC x, rest)) : x.color.length = 3 := C40_loaded h

/-- C40: the byte order of a user parameter is lost. -/
theorem C40_byte_order {c : WCtx} {d : RCtx} (hl : Linked c d) {x : CFUserParam} {bs : Bytes}
    (h : (Obj.AVUP x).write c = .ok ((), bs)) :
    Obj.readAs d .AVUP bs = .ok (.AVUP { x with byte_order := 0x4949 }, []) := by
  have := (CFUserParam.rt hl).as (f := Obj.AVUP) bs h [] trivial
  rw [List.append_nil] at this
  exact this

/-- C40: sift settings beyond the sixth are lost, and a bin with fewer is not saved. -/
theorem C40_sift {c : WCtx} {d : RCtx} (hl : Linked c d) {x : Bin} (ht : TextsOK x.texts) {bs : Bytes}
    (h : (Obj.ABIN x).write c = .ok ((), bs)) :
    6 ≤ x.sifted_settings.length ∧ ∃ y, Obj.readAs d .ABIN bs = .ok (.ABIN y, []) ∧
      y.sifted_settings = (x.sifted_settings.take 6).map
        fun s => { s with string := stripText s.string, column := stripText s.column } := by
  constructor
  · have h : Wr.Ok (x.write c) := ⟨bs, h⟩
    unfold Bin.write Bin.writeBody at h
    simp only [Wr.ok_bind, Wr.ok_forW] at h
    obtain ⟨⟨-, -, -, -, -, -, -, -, -, h, -⟩, -⟩ := h
    obtain ⟨o, ho⟩ := h 5 (by simp [List.mem_range'])
    obtain ⟨_, _, _, ho, _, _⟩ := Wr.bind_eq_ok ho
    by_contra hn
    unfold Wr.nth at ho
    rw [List.getElem?_eq_none (by omega)] at ho
    cases ho
  · have := (Bin.rt hl ht).as (f := Obj.ABIN) bs h [] trivial
    rw [List.append_nil] at this
    exact ⟨_, this, rfl⟩

/-- A track group of a picture with one track. -/
def exGroup : TrackGroup :=
  { toComponent := exComp ['g'], mc_mode := 0, length := 10, num_scalars := 0, tracks := [exTrack] }

/-- Objects that can be saved but do not come back: an effect without plug-ins, a selector of its
second track of one, a marker without colour, a parameter clip of no known type, a user parameter in
the other byte order, and a bin with eight sift settings. -/
def exLost : List Obj :=
  [.ASPI { toTrackGroup := exGroup, left_length := 0, right_length := 0, info_version := 1,
           info_current := 0, info_smooth := 0, info_color_item := 0, info_quality := 0,
           info_is_reversed := 0, info_aspect_on := false, keyframes := 0, info_force_software := false,
           info_never_hardware := false, trackman := none, plugins := [], mob_id := none,
           mark_in := none, mark_out := none, tracks_to_affect := none, rendering_mode := none,
           padding_secs := none, preset_path := none },
   .SLCT { toTrackGroup := exGroup, is_ganged := false, selected := 1 },
   .TMBC { position := 3, mob_id := some MobID.zero, comp_offset := 0, attributes := 0, color := [],
           handled_codes := none },
   .PRCL { toComponent := exComp ['p'], length := 1, interp_kind := 1, value_type := 9,
           extrap_kind := none, control_points := [], fields := none },
   .AVUP { byte_order := 0x4d4d, uuid := ⟨List.replicate 16 7, by decide⟩, data := [1, 2] },
   .ABIN { exBin 2 with
           sifted_settings := List.replicate 8 { method := 1, string := [], column := [] } }]

example (bo : BO) : ∀ o ∈ exLost, (∃ bs, o.write (exWrite bo 4) = .ok ((), bs)) ∧ ¬ o.Loadable := by
  intro o ho
  refine ⟨Wr.isOk_iff.1 ?_, ?_⟩
  · revert o
    cases bo <;> decide +kernel
  · simp only [exLost, List.mem_cons, List.not_mem_nil, or_false] at ho
    rcases ho with rfl | rfl | rfl | rfl | rfl | rfl <;> simp [Obj.Loadable, exGroup]

/-- A bin view with `n` format descriptors. -/
def exView (n : Nat) : BinViewSetting :=
  { name := [], kind := [], attr_count := 0, attr_type := 0, attributes := 0, columns := [],
    format_descriptors := some (List.replicate n ⟨1, ['a']⟩) }

theorem exView_written (bo : BO) (n : Nat) (hn : n ≤ 65535) :
    ∃ bs, (Obj.BVst (exView n)).write (exWrite bo 4) = .ok ((), bs) := by
  show Wr.Ok (BinViewSetting.write _ _)
  unfold BinViewSetting.write
  simp only [exView, Wr.ok_bind, Wr.ifHas, Wr.ok_forW]
  refine ⟨Wr.isOk_iff.1 (by cases bo <;> decide +kernel), Wr.isOk_iff.1 (by decide +kernel),
    Wr.isOk_iff.1 (by decide +kernel), Wr.isOk_iff.1 (by cases bo <;> decide +kernel), nofun,
    ⟨Wr.isOk_iff.1 (by decide +kernel), Wr.isOk_iff.1 (by decide +kernel),
      Wr.isOk_iff.1 (by decide +kernel), ?_, fun y hy => ?_⟩, Wr.isOk_iff.1 (by decide +kernel)⟩
  · rw [List.length_replicate]
    exact Wr.ok_int.2 ⟨by simp [IntTy.lo, IntTy.signed], by
      simp only [IntTy.hi, IntTy.signed, IntTy.width]; norm_num; omega⟩
  · rw [List.eq_of_mem_replicate hy]
    exact Wr.isOk_iff.1 (by cases bo <;> decide +kernel)

/-! ### C42 -/

/-- C42: the boxes of an image descriptor come back only if all three of them are there, the framing box
and the reformatting option only together, likewise the colour primaries and coding equations, and
the end of the client fill only with its start. -/
theorem C42_image {c : WCtx} {d : RCtx} (hl : Linked c d) {x : DIDDescriptor} {bs : Bytes}
    (h : (Obj.DIDD x).write c = .ok ((), bs)) :
    ∃ y, Obj.readAs d .DIDD bs = .ok (.DIDD y, []) ∧
      (∀ p q r, x.valid_box = some p → x.essence_box = some q → x.source_box = some r →
        y.valid_box = some (p.take 4) ∧ y.essence_box = some (q.take 4) ∧
          y.source_box = some (r.take 4)) ∧
      (x.valid_box = none ∨ x.essence_box = none ∨ x.source_box = none →
        y.valid_box = none ∧ y.essence_box = none ∧ y.source_box = none) ∧
      (∀ p q, x.framing_box = some p → x.reformatting_option = some q →
        y.framing_box = some (p.take 4) ∧ y.reformatting_option = some q) ∧
      (x.framing_box = none ∨ x.reformatting_option = none →
        y.framing_box = none ∧ y.reformatting_option = none) ∧
      (∀ p q, x.color_primaries = some p → x.coding_equations = some q →
        y.color_primaries = some p ∧ y.coding_equations = some q) ∧
      (x.color_primaries = none ∨ x.coding_equations = none →
        y.color_primaries = none ∧ y.coding_equations = none) ∧
      y.client_fill_start = x.client_fill_start ∧
      (x.client_fill_start = none → y.client_fill_end = none) ∧
      (x.client_fill_start ≠ none → x.client_fill_end ≠ none ∧ y.client_fill_end = x.client_fill_end) := by
  have hr := (DIDDescriptor.rt hl).as (f := Obj.DIDD) bs h [] trivial
  rw [List.append_nil] at hr
  refine ⟨_, hr, ?_, ?_, ?_, ?_, ?_, ?_, rfl, ?_, ?_⟩
  · intro p q r h1 h2 h3
    simp [DIDDescriptor.norm, andHas, h1, h2, h3]
  · rintro (h | h | h)
    · simp [DIDDescriptor.norm, andHas, h]
    · cases hv : x.valid_box <;> simp [DIDDescriptor.norm, andHas, h, hv]
    · cases hv : x.valid_box <;> cases he : x.essence_box <;> simp [DIDDescriptor.norm, andHas, h, hv, he]
  · intro p q h1 h2
    simp [DIDDescriptor.norm, andHas, h1, h2]
  · rintro (h | h)
    · simp [DIDDescriptor.norm, andHas, h]
    · cases hv : x.framing_box <;> simp [DIDDescriptor.norm, andHas, h, hv]
  · intro p q h1 h2
    simp [DIDDescriptor.norm, andHas, h1, h2]
  · rintro (h | h)
    · simp [DIDDescriptor.norm, andHas, h]
    · cases hv : x.color_primaries <;> simp [DIDDescriptor.norm, andHas, h, hv]
  · intro h
    simp [DIDDescriptor.norm, h]
  · intro hs
    obtain ⟨v, hs⟩ := Option.ne_none_iff_exists'.1 hs
    refine ⟨?_, by simp [DIDDescriptor.norm, hs]⟩
    have h : Wr.Ok (x.write c) := ⟨bs, h⟩
    unfold DIDDescriptor.write DIDDescriptor.writeBody at h
    rw [hs] at h
    intro hn
    rw [hn] at h
    simp only [Wr.ok_bind, Wr.ifHas, Wr.ok_none, and_false, false_and] at h

/-- C42: the component references of an RGBA descriptor come back only if the first of the four is
there, and then all of them must be; the second alpha reference only comes back with the first. -/
theorem C42_rgba {c : WCtx} {d : RCtx} (hl : Linked c d) {x : RGBADescriptor} {bs : Bytes}
    (h : (Obj.RGBA x).write c = .ok ((), bs)) :
    ∃ y, Obj.readAs d .RGBA bs = .ok (.RGBA y, []) ∧
      y.has_comp_min_ref = x.has_comp_min_ref ∧ y.alpha_min_ref = x.alpha_min_ref ∧
      (x.has_comp_min_ref = none →
        y.comp_min_ref = none ∧ y.has_comp_max_ref = none ∧ y.comp_max_ref = none) ∧
      (x.has_comp_min_ref ≠ none →
        (x.comp_min_ref ≠ none ∧ x.has_comp_max_ref ≠ none ∧ x.comp_max_ref ≠ none) ∧
        y.comp_min_ref = x.comp_min_ref ∧ y.has_comp_max_ref = x.has_comp_max_ref ∧
          y.comp_max_ref = x.comp_max_ref) ∧
      (x.alpha_min_ref = none → y.alpha_max_ref = none) ∧
      (x.alpha_min_ref ≠ none → x.alpha_max_ref ≠ none ∧ y.alpha_max_ref = x.alpha_max_ref) := by
  have hr := (RGBADescriptor.rt hl).as (f := Obj.RGBA) bs h [] trivial
  rw [List.append_nil] at hr
  refine ⟨_, hr, rfl, rfl, ?_, ?_, ?_, ?_⟩
  · intro h
    simp [RGBADescriptor.norm, h]
  · intro hs
    obtain ⟨v, hs⟩ := Option.ne_none_iff_exists'.1 hs
    refine ⟨?_, by simp [RGBADescriptor.norm, hs]⟩
    have h : Wr.Ok (x.write c) := ⟨bs, h⟩
    unfold RGBADescriptor.write at h
    simp only [Wr.ok_bind] at h
    obtain ⟨-, -, -, h⟩ := h
    obtain ⟨enc, h⟩ := Wr.ok_dep h
    rw [hs] at h
    simp only [Wr.ok_bind, Wr.ifHas, Wr.ok_get] at h
    obtain ⟨-, -, -, -, -, -, -, -, ⟨-, -, -, -, -, a, h1, -, -, b, h2, -, -, e, h3, -⟩, -⟩ := h
    simp [h1, h2, h3]
  · intro h
    simp [RGBADescriptor.norm, h]
  · intro hs
    obtain ⟨v, hs⟩ := Option.ne_none_iff_exists'.1 hs
    refine ⟨?_, by simp [RGBADescriptor.norm, hs]⟩
    have h : Wr.Ok (x.write c) := ⟨bs, h⟩
    unfold RGBADescriptor.write at h
    simp only [Wr.ok_bind] at h
    obtain ⟨-, -, -, h⟩ := h
    obtain ⟨enc, h⟩ := Wr.ok_dep h
    rw [hs] at h
    simp only [Wr.ok_bind, Wr.ifHas, Wr.ok_get] at h
    obtain ⟨-, -, -, -, -, -, -, -, -, ⟨-, -, -, -, -, a, h1, -⟩, -⟩ := h
    simp [h1]

/-- An image descriptor with a valid box but no essence box, and coding equations but no colour
primaries. -/
def exImage : DIDDescriptor :=
  { mob_kind := 0, locator := 0, intermediate := false, physical_media := 0, uuid := none,
    wchar := none, attributes := none, edit_rate := .fin 25, length := 100, is_omfi := 0,
    data_offset := 0,
    stored_height := 1080, stored_width := 1920, sampled_height := 1080, sampled_width := 1920,
    sampled_x_offset := 0, sampled_y_offset := 0, display_height := 1080, display_width := 1920,
    display_x_offset := 0, display_y_offset := 0, frame_layout := 0, aspect_ratio := (16, 9),
    line_map := [21, 22], alpha_transparency := 0, uniformness := false, did_image_size := 0,
    next_did_desc := 0, compress_method := [65, 86, 73, 68], resolution_id := 1,
    image_alignment_factor := 0, frame_index_byte_order := none, frame_sample_size := none,
    first_frame_offset := none, client_fill_start := none, client_fill_end := some 4,
    offset_to_rle_frame_index := none, frame_start_offset := none,
    valid_box := some [(0, 0), (0, 0), (0, 0), (1, 1)], essence_box := none, source_box := none,
    framing_box := none, reformatting_option := some 1, transfer_characteristic := none,
    color_primaries := none, coding_equations := some ⟨List.replicate 16 7, by decide⟩,
    essence_compression := none, essence_element_size_kind := none, frame_checked_with_mapper := none }

example (bo : BO) : ∃ bs, (Obj.DIDD exImage).write (exWrite bo 4) = .ok ((), bs) :=
  Wr.isOk_iff.1 (by cases bo <;> decide +kernel)

example (bo : BO) : ∃ bs, (Obj.RGBA { exImage with
      pixel_layout := [(82, 8), (71, 8)], frame_index_offset := none, has_comp_min_ref := some true,
      comp_min_ref := some 1, has_comp_max_ref := some false, comp_max_ref := some 2,
      alpha_min_ref := none, alpha_max_ref := some 3 }).write (exWrite bo 4) = .ok ((), bs) :=
  Wr.isOk_iff.1 (by cases bo <;> decide +kernel)

/-! ### The theorems on these objects -/

/-- C38_back: the track comes back with the same fields. -/
example (bo : BO) : ∃ bs u, exTrack.write (exWrite bo 4) = .ok ((), bs) ∧
    Track.read (exRead bo 4) bs = .ok (u, []) ∧ u.start_pos = some 100 := by
  obtain ⟨bs, h⟩ := Wr.isOk_iff.1 (by cases bo <;> decide +kernel : (exTrack.write (exWrite bo 4)).isOk = true)
  obtain ⟨u, h1, _, _, _, _, h2, _⟩ := C38_back (ex_linked bo (by decide)) h []
  exact ⟨bs, u, h, List.append_nil bs ▸ h1, h2⟩

/-- C38_read: what has been written is such a track, and its flag word has the bit of the start position. -/
example (bo : BO) : ∃ bs, exTrack.write (exWrite bo 4) = .ok ((), bs) ∧ firstWord bo bs < 2 ^ 10 := by
  obtain ⟨bs, h⟩ := Wr.isOk_iff.1 (by cases bo <;> decide +kernel : (exTrack.write (exWrite bo 4)).isOk = true)
  obtain ⟨u, h1, _⟩ := C38_back (ex_linked bo (by decide)) h []
  exact ⟨bs, h, (C38_read (List.append_nil bs ▸ h1)).2⟩

/-- C40_selector: the selector of the second track of one is written and refused by the reader. -/
example (bo : BO) : ∃ bs, (Obj.SLCT { toTrackGroup := exGroup, is_ganged := false, selected := 1 }).write
      (exWrite bo 4) = .ok ((), bs) ∧ Obj.readAs (exRead bo 4) .SLCT bs = .error .assertion := by
  obtain ⟨bs, h⟩ := Wr.isOk_iff.1 (by cases bo <;> decide +kernel : (Obj.write (exWrite bo 4)
    (.SLCT { toTrackGroup := exGroup, is_ganged := false, selected := 1 })).isOk = true)
  have := C40_selector (ex_linked bo (by decide)) (textsOK_short (by decide)) (by decide) h []
  exact ⟨bs, h, List.append_nil bs ▸ this⟩

/-- C40_value_type, C40_value_type_saved: a parameter clip of type 9 and without control points. -/
def exClip9 : ParamClip :=
  { toComponent := exComp ['p'], length := 1, interp_kind := 1, value_type := 9, extrap_kind := none,
    control_points := [], fields := none }

example (bo : BO) : ∃ bs, (Obj.PRCL exClip9).write (exWrite bo 4) = .ok ((), bs) ∧
    Obj.readAs (exRead bo 4) .PRCL bs = .error .assertion ∧ exClip9.control_points = [] := by
  obtain ⟨bs, h⟩ := Wr.isOk_iff.1 (by cases bo <;> decide +kernel :
    (Obj.write (exWrite bo 4) (.PRCL exClip9)).isOk = true)
  have := C40_value_type (ex_linked bo (by decide)) (textsOK_short (by decide)) (by decide) h []
  exact ⟨bs, h, List.append_nil bs ▸ this, C40_value_type_saved (by decide) h⟩

/-- C40_plugins: the effect without plug-ins. -/
def exNoPlugin : AudioSuitePluginEffect :=
  { toTrackGroup := exGroup, left_length := 0, right_length := 0, info_version := 1,
    info_current := 0, info_smooth := 0, info_color_item := 0, info_quality := 0,
    info_is_reversed := 0, info_aspect_on := false, keyframes := 0, info_force_software := false,
    info_never_hardware := false, trackman := none, plugins := [], mob_id := none,
    mark_in := none, mark_out := none, tracks_to_affect := none, rendering_mode := none,
    padding_secs := none, preset_path := none }

example (bo : BO) : ∃ bs, (Obj.ASPI exNoPlugin).write (exWrite bo 4) = .ok ((), bs) ∧
    Obj.readAs (exRead bo 4) .ASPI bs = .error .assertion := by
  obtain ⟨bs, h⟩ := Wr.isOk_iff.1 (by cases bo <;> decide +kernel :
    (Obj.write (exWrite bo 4) (.ASPI exNoPlugin)).isOk = true)
  have := C40_plugins (ex_linked bo (by decide)) (textsOK_short (by decide)) (by decide) h []
  exact ⟨bs, h, List.append_nil bs ▸ this⟩

/-- C40_byte_order: the user parameter in the other byte order comes back in this one. -/
def exOrder : CFUserParam := { byte_order := 0x4d4d, uuid := ⟨List.replicate 16 7, by decide⟩, data := [1, 2] }

example (bo : BO) : ∃ bs, (Obj.AVUP exOrder).write (exWrite bo 4) = .ok ((), bs) ∧
    Obj.readAs (exRead bo 4) .AVUP bs = .ok (.AVUP { exOrder with byte_order := 0x4949 }, []) := by
  obtain ⟨bs, h⟩ := Wr.isOk_iff.1 (by cases bo <;> decide +kernel :
    (Obj.write (exWrite bo 4) (.AVUP exOrder)).isOk = true)
  exact ⟨bs, h, C40_byte_order (ex_linked bo (by decide)) h⟩

/-- C40_marker: a marker with a colour is written and read. -/
def exMarker : Marker :=
  { position := 3, mob_id := some MobID.zero, comp_offset := 0, attributes := 0, color := [1, 2, 65535],
    handled_codes := some true }

example (bo : BO) : ∃ bs y, (Obj.TMBC exMarker).write (exWrite bo 4) = .ok ((), bs) ∧
    Obj.readAs (exRead bo 4) .TMBC bs = .ok (.TMBC y, []) ∧ y.color.length = 3 := by
  obtain ⟨bs, h⟩ := Wr.isOk_iff.1 (by cases bo <;> decide +kernel :
    (Obj.write (exWrite bo 4) (.TMBC exMarker)).isOk = true)
  have := (Marker.rt (ex_linked bo (by decide)) (by decide)).as (f := Obj.TMBC) bs h [] trivial
  rw [List.append_nil] at this
  exact ⟨bs, _, h, this, C40_marker this⟩

/-- C40_descriptors: 32768 format descriptors are too many. -/
example (bo : BO) : ∃ bs, (Obj.BVst (exView 32768)).write (exWrite bo 4) = .ok ((), bs) ∧
    Obj.readAs (exRead bo 4) .BVst bs = .error .assertion := by
  obtain ⟨bs, h⟩ := exView_written bo 32768 (by decide)
  have := C40_descriptors (ex_linked bo (by decide)) (textsOK_short (by
    show ∀ p ∈ (exView 0).texts, _
    decide)) rfl (by rw [List.length_replicate]) h []
  exact ⟨bs, h, List.append_nil bs ▸ this⟩

/-- C42_image: the descriptor with all its boxes. -/
example (bo : BO) : ∃ bs y, (Obj.DIDD exImage).write (exWrite bo 4) = .ok ((), bs) ∧
    Obj.readAs (exRead bo 4) .DIDD bs = .ok (.DIDD y, []) := by
  obtain ⟨bs, h⟩ := Wr.isOk_iff.1 (by cases bo <;> decide +kernel :
    (Obj.write (exWrite bo 4) (.DIDD exImage)).isOk = true)
  obtain ⟨y, hy, _⟩ := C42_image (ex_linked bo (by decide)) h
  exact ⟨bs, y, h, hy⟩

end Avb

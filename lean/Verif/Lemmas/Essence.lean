import Verif.Model.Essence
import Verif.Lemmas.Misc

/-
Round trips of the media descriptors (src/avb/essence.py).

`X.norm c x` is what a program sees after saving `x` with output context `c` and loading it again.
-/

namespace Avb

section
variable {F : Bytes → Prop} {α : Type} {c : WCtx} {d : RCtx}

/-- A value written as s64 and read as u64 comes back modulo 2^64. -/
theorem RT.s64u64 (h : Linked c d) {v : Int} :
    RT (wInt c.bo .s64 v) (rInt d.bo .u64) (v % 2 ^ 64) := by
  intro bs hbs rest hF
  obtain ⟨h1, h2, rfl⟩ := wInt_eq_ok hbs
  have hv : 0 ≤ v % 2 ^ 64 ∧ v % 2 ^ 64 < 2 ^ 64 := by omega
  have := RT.int (bo := d.bo) (t := .u64) (v := v % 2 ^ 64) _
    (wInt_ok (by simp [IntTy.lo, IntTy.signed]; omega)
      (by simp [IntTy.hi, IntTy.signed, IntTy.width]; omega)) rest trivial
  rw [h.bo] at *
  simpa [IntTy.width, Int.emod_emod] using this

/-- An extension loop at the end of a method. -/
theorem RT.ext_eta {σ : Type} {w : Wr Unit} {body : Int → σ → Rd σ} {s v : σ}
    (h : RTF F w (iterExt body s >>= Pure.pure) v) : RTF F w (iterExt body s) v := by
  intro bs hbs rest hF
  have := h bs hbs rest hF
  change Rd.bind (iterExt body s) Rd.pure _ = _ at this
  simp only [Rd.bind, Rd.pure] at this
  split at this
  · rename_i e; rw [e]; exact this
  · cases this

/-- The last optional extension item of a method that ends with its extension loop. -/
macro "rt_opt_end" S:term:max f:ident g:term:max n:ident : tactic => `(tactic|
  (refine RT.ext_end (RTX.has (fun (s : $S) o => { s with $f:ident := o }) $g rfl
      fun _ _ => RTX.item ?_) ?_
   · rt_ext $n
     rt_steps
     rt_last
     rfl))

/-- What is read back for a media descriptor. -/
def MediaDescriptor.norm (c : WCtx) (x : MediaDescriptor) : MediaDescriptor :=
  { x with
    locator := c.tr x.locator, physical_media := c.tr x.physical_media
    attributes := x.attributes.map c.tr }

theorem MediaDescriptor.rt_body (h : Linked c d) {x : MediaDescriptor} :
    RTN (x.writeBody c) (MediaDescriptor.readBody d) (x.norm c) := by
  unfold MediaDescriptor.writeBody MediaDescriptor.readBody
  rt_steps
  refine RT.ext_eta ?_
  rt_opt MediaDescriptor uuid id MediaDescriptor.ext
  rt_opt MediaDescriptor wchar id MediaDescriptor.ext
  rt_opt_end MediaDescriptor attributes c.tr MediaDescriptor.ext
  cases x; simp [MediaDescriptor.norm]

theorem MediaDescriptor.rt (h : Linked c d) {x : MediaDescriptor} :
    RT (x.write c) (MediaDescriptor.read d) (x.norm c) := by
  unfold MediaDescriptor.write MediaDescriptor.read
  refine RTN.bind (MediaDescriptor.rt_body h) (by starts) ?_
  rt_last
  rfl

/-- What is read back for a tape descriptor. -/
def TapeDescriptor.norm (c : WCtx) (x : TapeDescriptor) : TapeDescriptor :=
  { x with toMediaDescriptor := x.toMediaDescriptor.norm c }

theorem TapeDescriptor.rt (h : Linked c d) {x : TapeDescriptor} :
    RT (x.write c) (TapeDescriptor.read d) (x.norm c) := by
  unfold TapeDescriptor.write TapeDescriptor.read
  refine RTN.bind (MediaDescriptor.rt_body h) (by starts) ?_
  rt_steps
  rt_last
  rfl

/-- What is read back for a film descriptor. -/
def FilmDescriptor.norm (c : WCtx) (x : FilmDescriptor) : FilmDescriptor :=
  { x with toMediaDescriptor := x.toMediaDescriptor.norm c }

theorem FilmDescriptor.rt (h : Linked c d) {x : FilmDescriptor} :
    RT (x.write c) (FilmDescriptor.read d) (x.norm c) := by
  unfold FilmDescriptor.write FilmDescriptor.read
  refine RTN.bind (MediaDescriptor.rt_body h) (by starts) ?_
  rt_steps
  rt_last
  rfl

/-- What is read back for a nagra descriptor. -/
def NagraDescriptor.norm (c : WCtx) (x : NagraDescriptor) : NagraDescriptor :=
  { x with toMediaDescriptor := x.toMediaDescriptor.norm c }

theorem NagraDescriptor.rt (h : Linked c d) {x : NagraDescriptor} :
    RT (x.write c) (NagraDescriptor.read d) (x.norm c) := by
  unfold NagraDescriptor.write NagraDescriptor.read
  refine RTN.bind (MediaDescriptor.rt_body h) (by starts) ?_
  rt_steps
  rt_last
  rfl

/-- What is read back for a media file descriptor. -/
def MediaFileDescriptor.norm (c : WCtx) (x : MediaFileDescriptor) : MediaFileDescriptor :=
  { x with toMediaDescriptor := x.toMediaDescriptor.norm c, edit_rate := rateNorm x.edit_rate }

theorem MediaFileDescriptor.rt_body (h : Linked c d) {x : MediaFileDescriptor} :
    RT (x.writeBody c) (MediaFileDescriptor.readBody d) (x.norm c) := by
  unfold MediaFileDescriptor.writeBody MediaFileDescriptor.readBody
  refine RTN.bind (MediaDescriptor.rt_body h) (by starts) ?_
  rt_steps
  rt_last
  rfl

theorem MediaFileDescriptor.rt (h : Linked c d) {x : MediaFileDescriptor} :
    RT (x.write c) (MediaFileDescriptor.read d) (x.norm c) := by
  unfold MediaFileDescriptor.write MediaFileDescriptor.read
  refine RT.bind (MediaFileDescriptor.rt_body h) ?_
  rt_last
  rfl

/-- What is read back for a multi descriptor. -/
def MultiDescriptor.norm (c : WCtx) (x : MultiDescriptor) : MultiDescriptor :=
  { x with
    toMediaFileDescriptor := x.toMediaFileDescriptor.norm c
    descriptors := x.descriptors.map c.tr }

theorem MultiDescriptor.rt (h : Linked c d) {x : MultiDescriptor} :
    RT (x.write c) (MultiDescriptor.read d) (x.norm c) := by
  unfold MultiDescriptor.write MultiDescriptor.read
  refine RT.bind (MediaFileDescriptor.rt_body h) ?_
  rt_steps
  rt_last
  rfl

/-- What is read back for a wave descriptor. -/
def WaveDescriptor.norm (c : WCtx) (x : WaveDescriptor) : WaveDescriptor :=
  { x with toMediaFileDescriptor := x.toMediaFileDescriptor.norm c }

theorem WaveDescriptor.rt (h : Linked c d) {x : WaveDescriptor} :
    RT (x.write c) (WaveDescriptor.read d) (x.norm c) := by
  unfold WaveDescriptor.write WaveDescriptor.read
  refine RT.bind (MediaFileDescriptor.rt_body h) ?_
  rt_steps
  rt_last
  rfl

/-- What is read back for an AIFC descriptor. -/
def AIFCDescriptor.norm (c : WCtx) (x : AIFCDescriptor) : AIFCDescriptor :=
  { x with toMediaFileDescriptor := x.toMediaFileDescriptor.norm c }

theorem AIFCDescriptor.rt (h : Linked c d) {x : AIFCDescriptor} :
    RT (x.write c) (AIFCDescriptor.read d) (x.norm c) := by
  unfold AIFCDescriptor.write AIFCDescriptor.read
  refine RT.bind (MediaFileDescriptor.rt_body h) ?_
  rt_steps
  rt_opt AIFCDescriptor data_pos id AIFCDescriptor.ext
  refine RT.ext_done (by starts) ?_
  rt_last
  cases x; simp [AIFCDescriptor.norm]

/-- What is read back for a PCM audio descriptor. -/
def PCMADescriptor.norm (c : WCtx) (x : PCMADescriptor) : PCMADescriptor :=
  { x with
    toMediaFileDescriptor := x.toMediaFileDescriptor.norm c
    sample_rate := rateNorm x.sample_rate
    timecode_framerate := x.timecode_framerate.map stripText }

/-- The texts stored for a PCM audio descriptor. -/
def PCMADescriptor.texts (x : PCMADescriptor) : List (Enc × Text) :=
  optText .macroman x.timecode_framerate

theorem PCMADescriptor.rt (h : Linked c d) {x : PCMADescriptor} (ht : TextsOK x.texts) :
    RT (x.write c) (PCMADescriptor.read d) (x.norm c) := by
  unfold PCMADescriptor.write PCMADescriptor.read
  refine RT.bind (MediaFileDescriptor.rt_body h) ?_
  rt_steps
  rt_opt PCMADescriptor ebu_timestamp id PCMADescriptor.ext
  refine RT.ext_step (RTX.has (fun (s : PCMADescriptor) o => { s with timecode_framerate := o })
    stripText rfl fun v hv => RTX.item ?_) ?_
  · have := ht.opt hv
    rt_ext PCMADescriptor.ext
    rt_steps
    rt_last
    rfl
  refine RT.ext_done (by starts) ?_
  rt_last
  cases x; simp [PCMADescriptor.norm]

/-- What is read back for an MPEG audio descriptor. -/
def MPGADescriptor.norm (c : WCtx) (x : MPGADescriptor) : MPGADescriptor :=
  { x with
    toMediaFileDescriptor := x.toMediaFileDescriptor.norm c
    sample_rate := rateNorm x.sample_rate
    sub_frame_alignment := x.sub_frame_alignment.map (· % 2 ^ 64) }

theorem MPGADescriptor.rt (h : Linked c d) {x : MPGADescriptor} :
    RT (x.write c) (MPGADescriptor.read d) (x.norm c) := by
  unfold MPGADescriptor.write MPGADescriptor.read
  refine RT.bind (MediaFileDescriptor.rt_body h) ?_
  rt_steps
  refine RT.ext_step (RTX.has (fun (s : MPGADescriptor) o => { s with sub_frame_alignment := o })
    (· % 2 ^ 64) rfl fun v hv => RTX.item ?_) ?_
  · rt_ext MPGADescriptor.ext
    rt_steps
    refine RT.last (RT.s64u64 h) ?_
    rfl
  rt_opt MPGADescriptor origin id MPGADescriptor.ext
  refine RT.ext_done (by starts) ?_
  rt_last
  cases x; simp [MPGADescriptor.norm]

theorem RT.point (h : Linked c d) {p : Int × Int} : RT (wPoint c p) (rPoint d) p := by
  unfold wPoint rPoint
  rt_steps
  rt_last
  rfl

theorem RT.box (h : Linked c d) {b : Box} : RT (wBox c b) (rBox d) (b.take 4) := by
  unfold wBox rBox
  refine RT.wnth fun b0 e0 => ?_
  refine RT.bind (RT.point h) ?_
  refine RT.wnth fun b1 e1 => ?_
  refine RT.bind (RT.point h) ?_
  refine RT.wnth fun b2 e2 => ?_
  refine RT.bind (RT.point h) ?_
  refine RT.wnth fun b3 e3 => ?_
  refine RT.last (RT.point h) ?_
  rw [take4 e0 e1 e2 e3]

macro_rules
  | `(tactic| rt_prim) => `(tactic| with_reducible exact RT.box ‹Linked _ _›)

/-- What is read back for a digital image descriptor: properties stored in groups survive only when
the whole group is present. -/
def DIDDescriptor.norm (c : WCtx) (x : DIDDescriptor) : DIDDescriptor :=
  { x with
    toMediaFileDescriptor := x.toMediaFileDescriptor.norm c
    next_did_desc := c.tr x.next_did_desc
    client_fill_end := x.client_fill_start.bind fun _ => x.client_fill_end
    valid_box := (andHas (andHas x.valid_box x.essence_box) x.source_box).map (·.1.1.take 4)
    essence_box := (andHas (andHas x.valid_box x.essence_box) x.source_box).map (·.1.2.take 4)
    source_box := (andHas (andHas x.valid_box x.essence_box) x.source_box).map (·.2.take 4)
    framing_box := (andHas x.framing_box x.reformatting_option).map (·.1.take 4)
    reformatting_option := (andHas x.framing_box x.reformatting_option).map (·.2)
    color_primaries := (andHas x.color_primaries x.coding_equations).map (·.1)
    coding_equations := (andHas x.color_primaries x.coding_equations).map (·.2) }

theorem DIDDescriptor.rt_body (h : Linked c d) {x : DIDDescriptor} :
    RTN (x.writeBody c) (DIDDescriptor.readBody d) (x.norm c) := by
  unfold DIDDescriptor.writeBody DIDDescriptor.readBody
  refine RT.bind (MediaFileDescriptor.rt_body h) ?_
  rt_steps
  refine RT.bind (RT.list_id (by omega) fun _ _ => RT.intL h) ?_
  rt_steps
  refine RT.ext_eta ?_
  rt_opt DIDDescriptor frame_index_byte_order id DIDDescriptor.ext
  rt_opt DIDDescriptor frame_sample_size id DIDDescriptor.ext
  rt_opt DIDDescriptor first_frame_offset id DIDDescriptor.ext
  refine RT.ext_step (RTX.has (fun (s : DIDDescriptor) o =>
    { s with client_fill_start := o, client_fill_end := o.bind fun _ => x.client_fill_end })
    id rfl fun v hv => RTX.item ?_) ?_
  · rt_ext DIDDescriptor.ext
    rt_steps
    rename_i he
    rt_last
    simp [he]
  rt_opt DIDDescriptor offset_to_rle_frame_index id DIDDescriptor.ext
  rt_opt DIDDescriptor frame_start_offset id DIDDescriptor.ext
  refine RT.ext_step (RTX.has (fun (s : DIDDescriptor) (o : Option ((Box × Box) × Box)) =>
    { s with
      valid_box := o.map (·.1.1), essence_box := o.map (·.1.2), source_box := o.map (·.2) })
    (fun v => ((v.1.1.take 4, v.1.2.take 4), v.2.take 4)) rfl fun v hv => RTX.item ?_) ?_
  · rt_ext DIDDescriptor.ext
    rt_steps
    rt_last
    rfl
  refine RT.ext_step (RTX.has (fun (s : DIDDescriptor) (o : Option (Box × Int)) =>
    { s with framing_box := o.map (·.1), reformatting_option := o.map (·.2) })
    (fun v => (v.1.take 4, v.2)) rfl fun v hv => RTX.item ?_) ?_
  · rt_ext DIDDescriptor.ext
    rt_steps
    rt_last
    rfl
  rt_opt DIDDescriptor transfer_characteristic id DIDDescriptor.ext
  refine RT.ext_step (RTX.has (fun (s : DIDDescriptor) (o : Option (UUID × UUID)) =>
    { s with color_primaries := o.map (·.1), coding_equations := o.map (·.2) })
    id rfl fun v hv => RTX.item ?_) ?_
  · rt_ext DIDDescriptor.ext
    rt_steps
    rt_last
    rfl
  rt_opt DIDDescriptor essence_compression id DIDDescriptor.ext
  rt_opt DIDDescriptor essence_element_size_kind id DIDDescriptor.ext
  rt_opt_end DIDDescriptor frame_checked_with_mapper id DIDDescriptor.ext
  cases x; simp [DIDDescriptor.norm, Function.comp_def]

theorem DIDDescriptor.rt (h : Linked c d) {x : DIDDescriptor} :
    RT (x.write c) (DIDDescriptor.read d) (x.norm c) := by
  unfold DIDDescriptor.write DIDDescriptor.read
  refine RTN.bind (DIDDescriptor.rt_body h) (by starts) ?_
  rt_last
  rfl

/-- What is read back for a CDCI descriptor. -/
def CDCIDescriptor.norm (c : WCtx) (x : CDCIDescriptor) : CDCIDescriptor :=
  { x with toDIDDescriptor := x.toDIDDescriptor.norm c }

theorem CDCIDescriptor.rt_body (h : Linked c d) {x : CDCIDescriptor} :
    RTN (x.writeBody c) (CDCIDescriptor.readBody d) (x.norm c) := by
  unfold CDCIDescriptor.writeBody CDCIDescriptor.readBody
  refine RTN.bind (DIDDescriptor.rt_body h) (by starts) ?_
  rt_steps
  refine RT.ext_eta ?_
  rt_opt CDCIDescriptor alpha_sampled_width id CDCIDescriptor.ext
  rt_opt_end CDCIDescriptor ignore_bw id CDCIDescriptor.ext
  cases x; simp [CDCIDescriptor.norm]

theorem CDCIDescriptor.rt (h : Linked c d) {x : CDCIDescriptor} :
    RT (x.write c) (CDCIDescriptor.read d) (x.norm c) := by
  unfold CDCIDescriptor.write CDCIDescriptor.read
  refine RTN.bind (CDCIDescriptor.rt_body h) (by starts) ?_
  rt_last
  rfl

/-- What is read back for an MPEG image descriptor. -/
def MPGIDescriptor.norm (c : WCtx) (x : MPGIDescriptor) : MPGIDescriptor :=
  { x with toCDCIDescriptor := x.toCDCIDescriptor.norm c }

theorem MPGIDescriptor.rt (h : Linked c d) {x : MPGIDescriptor} :
    RT (x.write c) (MPGIDescriptor.read d) (x.norm c) := by
  unfold MPGIDescriptor.write MPGIDescriptor.read
  refine RTN.bind (CDCIDescriptor.rt_body h) (by starts) ?_
  rt_steps
  rt_last
  rfl

/-- What is read back for a JPEG descriptor. -/
def JPEGDescriptor.norm (c : WCtx) (x : JPEGDescriptor) : JPEGDescriptor :=
  { x with toCDCIDescriptor := x.toCDCIDescriptor.norm c }

theorem JPEGDescriptor.rt (h : Linked c d) {x : JPEGDescriptor} :
    RT (x.write c) (JPEGDescriptor.read d) (x.norm c) := by
  unfold JPEGDescriptor.write JPEGDescriptor.read
  refine RTN.bind (CDCIDescriptor.rt_body h) (by starts) ?_
  rt_steps
  rt_opt JPEGDescriptor image_start_align id JPEGDescriptor.ext
  refine RT.ext_done (by starts) ?_
  rt_last
  cases x; simp [JPEGDescriptor.norm]

/-- What is read back for an RGBA descriptor. -/
def RGBADescriptor.norm (c : WCtx) (x : RGBADescriptor) : RGBADescriptor :=
  { x with
    toDIDDescriptor := x.toDIDDescriptor.norm c
    comp_min_ref := x.has_comp_min_ref.bind fun _ => x.comp_min_ref
    has_comp_max_ref := x.has_comp_min_ref.bind fun _ => x.has_comp_max_ref
    comp_max_ref := x.has_comp_min_ref.bind fun _ => x.comp_max_ref
    alpha_max_ref := x.alpha_min_ref.bind fun _ => x.alpha_max_ref }

theorem forW_u8_buffer {α : Type} {f : α → Int} {xs : List α} {bs : Bytes}
    (h : forW xs (fun p => wU8 (f p)) = .ok ((), bs)) :
    bs.length = xs.length ∧ bs.map (fun b => (b.toNat : Int)) = xs.map f := by
  induction xs generalizing bs with
  | nil => obtain ⟨_, rfl⟩ := Wr.pure_eq_ok h; simp
  | cons x xs ih =>
    obtain ⟨_, o1, o2, e1, e2, rfl⟩ := Wr.bind_eq_ok h
    obtain ⟨h1, h2, rfl⟩ := wU8_out e1
    obtain ⟨h3, h4⟩ := ih e2
    simp only [List.cons_append, List.nil_append, List.length_cons, h3, List.map_cons, h4,
      true_and, List.cons.injEq, and_true]
    simp; omega

theorem Wr.buffer_ok {w : Wr Unit} {bs o : Bytes} (h : Wr.buffer w = .ok (bs, o)) :
    w = .ok ((), bs) ∧ o = [] := by
  unfold Wr.buffer at h
  split at h
  · cases h; exact ⟨rfl, rfl⟩
  · cases h

/-- A value computed by the writer without output. -/
theorem RT.wval {β : Type} {w : Wr β} {k : β → Wr Unit} {r : Rd α} {v : α}
    (hw : ∀ a o, w = .ok (a, o) → o = []) (h : ∀ a, w = .ok (a, []) → RTF F (k a) r v) :
    RTF F (w >>= k) r v := by
  intro bs hbs
  obtain ⟨a, o1, o2, e1, e2, rfl⟩ := Wr.bind_eq_ok hbs
  obtain rfl := hw _ _ e1
  exact h _ e1 _ e2

theorem encodePixelLayout_ok {xs : List (Int × Int)} {p : Bytes × Bytes} {o : Bytes}
    (h : encodePixelLayout xs = .ok (p, o)) :
    o = [] ∧ p.1.length = xs.length ∧ p.2.length = xs.length ∧
      List.zipWith (fun c s => ((c.toNat : Int), (s.toNat : Int))) p.1 p.2 = xs := by
  unfold encodePixelLayout at h
  obtain ⟨a, o1, o2, e1, e2, rfl⟩ := Wr.bind_eq_ok h
  obtain ⟨b, o3, o4, e3, e4, rfl⟩ := Wr.bind_eq_ok e2
  obtain ⟨rfl, rfl⟩ := Wr.pure_eq_ok e4
  obtain ⟨f1, rfl⟩ := Wr.buffer_ok e1
  obtain ⟨f3, rfl⟩ := Wr.buffer_ok e3
  obtain ⟨l1, m1⟩ := forW_u8_buffer f1
  obtain ⟨l3, m3⟩ := forW_u8_buffer f3
  refine ⟨rfl, l1, l3, ?_⟩
  rw [← List.zipWith_map (f := Prod.mk), m1, m3]
  clear m1 m3 l1 l3 f1 f3 e1 e2 e3 e4 h
  induction xs with
  | nil => rfl
  | cons x xs ih => simp

theorem RGBADescriptor.rt (h : Linked c d) {x : RGBADescriptor} :
    RT (x.write c) (RGBADescriptor.read d) (x.norm c) := by
  unfold RGBADescriptor.write RGBADescriptor.read
  refine RTN.bind (DIDDescriptor.rt_body h) (by starts) ?_
  rt_steps
  refine RT.wval (fun _ _ e => (encodePixelLayout_ok e).1) fun p e => ?_
  obtain ⟨-, l1, l2, hz⟩ := encodePixelLayout_ok e
  rt_steps
  rw [hz]
  rt_opt RGBADescriptor frame_index_offset id RGBADescriptor.ext
  refine RT.ext_step (RTX.has (fun (s : RGBADescriptor) o =>
    { s with
      has_comp_min_ref := o, comp_min_ref := o.bind fun _ => x.comp_min_ref
      has_comp_max_ref := o.bind fun _ => x.has_comp_max_ref
      comp_max_ref := o.bind fun _ => x.comp_max_ref })
    id rfl fun v hv => RTX.item ?_) ?_
  · rt_ext RGBADescriptor.ext
    rt_steps
    rename_i h1 _ h2 _ h3
    rt_last
    simp [h1, h2, h3]
  refine RT.ext_step (RTX.has (fun (s : RGBADescriptor) o =>
    { s with alpha_min_ref := o, alpha_max_ref := o.bind fun _ => x.alpha_max_ref })
    id rfl fun v hv => RTX.item ?_) ?_
  · rt_ext RGBADescriptor.ext
    rt_steps
    rename_i h1
    rt_last
    simp [h1]
  refine RT.ext_done (by starts) ?_
  rt_last
  cases x; simp [RGBADescriptor.norm]

/-- What is read back for a data descriptor. -/
def DataDescriptor.norm (c : WCtx) (x : DataDescriptor) : DataDescriptor :=
  { x with toMediaFileDescriptor := x.toMediaFileDescriptor.norm c }

theorem DataDescriptor.rt (h : Linked c d) {x : DataDescriptor} :
    RT (x.write c) (DataDescriptor.read d) (x.norm c) := by
  unfold DataDescriptor.write DataDescriptor.read
  refine RT.bind (MediaFileDescriptor.rt_body h) ?_
  rt_steps
  rt_last
  rfl

/-- What is read back for an ancillary data descriptor. -/
def ANCDataDescriptor.norm (c : WCtx) (x : ANCDataDescriptor) : ANCDataDescriptor :=
  { x with toDataDescriptor := x.toDataDescriptor.norm c }

theorem ANCDataDescriptor.rt (h : Linked c d) {x : ANCDataDescriptor} :
    RT (x.write c) (ANCDataDescriptor.read d) (x.norm c) := by
  unfold ANCDataDescriptor.write ANCDataDescriptor.read
  refine RT.bind (DataDescriptor.rt h) ?_
  rt_steps
  rt_last
  rfl

end

end Avb

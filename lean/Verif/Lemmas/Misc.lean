import Verif.Lemmas.Components
import Verif.Model.Misc

/-
Round trips of every class of src/avb/misc.py.
-/

namespace Avb

section
variable {c : WCtx} {d : RCtx} {α β : Type} {F : Bytes → Prop}

/-- Texts of optional properties. -/
def optText (e : Enc) (o : Option Text) : List (Enc × Text) := o.toList.map fun t => (e, t)

theorem TextsOK.left {a b : List (Enc × Text)} (h : TextsOK (a ++ b)) : TextsOK a :=
  fun p hp => h p (List.mem_append_left _ hp)

theorem TextsOK.right {a b : List (Enc × Text)} (h : TextsOK (a ++ b)) : TextsOK b :=
  fun p hp => h p (List.mem_append_right _ hp)

theorem TextsOK.opt {e : Enc} {o : Option Text} {t : Text} (h : TextsOK (optText e o))
    (ho : o = some t) : TextOK e t := h (e, t) (by simp [optText, ho])

theorem TextsOK.one {e : Enc} {t : Text} (h : TextsOK [(e, t)]) : TextOK e t :=
  h (e, t) (by simp)

theorem RT.wnth {xs : List β} {i : Nat} {k : β → Wr Unit} {r : Rd α} {v : α}
    (h : ∀ a, xs[i]? = some a → RTF F (k a) r v) : RTF F (Wr.nth xs i >>= k) r v := by
  unfold Wr.nth
  cases hx : xs[i]? with
  | none =>
    intro bs hbs
    obtain ⟨_, _, _, e1, _⟩ := Wr.bind_eq_ok hbs
    cases e1
  | some a =>
    intro bs hbs
    obtain ⟨a', o1, o2, e1, e2, rfl⟩ := Wr.bind_eq_ok hbs
    obtain ⟨rfl, rfl⟩ := Wr.pure_eq_ok e1
    exact h _ hx o2 e2

def FileLocator.norm (x : FileLocator) : FileLocator :=
  { path := stripText x.path, path_posix := x.path_posix.map stripText
    path_utf8 := x.path_utf8.map stripText, path2_utf8 := x.path2_utf8.map stripText }

def FileLocator.texts (x : FileLocator) : List (Enc × Text) :=
  [(.macroman, x.path)] ++ (optText .macroman x.path_posix ++
    (optText .utf8 x.path_utf8 ++ optText .utf8 x.path2_utf8))

theorem FileLocator.rt (h : Linked c d) {x : FileLocator} (ht : TextsOK x.texts) :
    RT (x.write c) (FileLocator.read d) x.norm := by
  unfold FileLocator.write FileLocator.read
  have h1 := ht.left.one
  rt_steps
  refine RT.ext_step (RTX.has (fun (s : FileLocator) o => { s with path_posix := o }) stripText rfl
      fun v hv => RTX.item ?_) ?_
  · have := ht.right.left.opt hv
    rt_ext FileLocator.ext
    rt_steps
    rt_last
    rfl
  refine RT.ext_step (RTX.has (fun (s : FileLocator) o => { s with path_utf8 := o }) stripText rfl
      fun v hv => RTX.item ?_) ?_
  · have := ht.right.right.left.opt hv
    rt_ext FileLocator.ext
    rt_steps
    rt_last
    rfl
  refine RT.ext_step (RTX.has (fun (s : FileLocator) o => { s with path2_utf8 := o }) stripText rfl
      fun v hv => RTX.item ?_) ?_
  · have := ht.right.right.right.opt hv
    rt_ext FileLocator.ext
    rt_steps
    rt_last
    rfl
  refine RT.ext_done (by starts) ?_
  rt_last
  rfl

theorem URLLocator.rt {x : URLLocator} : RT (x.write c) (URLLocator.read d) x := by
  unfold URLLocator.write URLLocator.read
  rt_last
  rfl

theorem GraphicEffect.rt (h : Linked c d) {x : GraphicEffect} :
    RT (x.write c) (GraphicEffect.read d) x := by
  unfold GraphicEffect.write GraphicEffect.read
  rt_steps
  rt_last
  rfl

theorem ShapeList.rt (h : Linked c d) {x : ShapeList} :
    RT (x.write c) (ShapeList.read d) x := by
  unfold ShapeList.write ShapeList.read
  rt_steps
  rt_last
  rfl

theorem ColorCorrectionEffect.rt (h : Linked c d) {x : ColorCorrectionEffect} :
    RT (x.write c) (ColorCorrectionEffect.read d) x := by
  unfold ColorCorrectionEffect.write ColorCorrectionEffect.read
  rt_steps
  rt_last
  rfl

/-- An effect parameter after saving and loading: only the first four box values are stored. -/
def EffectParam.norm (p : EffectParam) : EffectParam := { p with box := p.box.take 4 }

theorem take4 {α : Type} {xs : List α} {a b c d : α} (h0 : xs[0]? = some a) (h1 : xs[1]? = some b)
    (h2 : xs[2]? = some c) (h3 : xs[3]? = some d) : xs.take 4 = [a, b, c, d] := by
  match xs with
  | [] => simp at h0
  | [_] => simp at h1
  | [_, _] => simp at h2
  | [_, _, _] => simp at h3
  | _ :: _ :: _ :: _ :: _ => simp_all

theorem EffectParam.rt (h : Linked c d) {x : EffectParam} :
    RT (x.write c) (EffectParam.read d) x.norm := by
  unfold EffectParam.write EffectParam.read
  rt_steps
  refine RT.wnth fun b0 e0 => ?_
  rt_step
  refine RT.wnth fun b1 e1 => ?_
  rt_step
  refine RT.wnth fun b2 e2 => ?_
  rt_step
  refine RT.wnth fun b3 e3 => ?_
  rt_steps
  refine RT.bind (RT.list_id (by simp) fun _ _ => RT.intL h) ?_
  rt_steps
  rt_last
  rw [EffectParam.norm, take4 e0 e1 e2 e3]

def EffectParamList.norm (x : EffectParamList) : EffectParamList :=
  { x with parameters := x.parameters.map EffectParam.norm }

theorem EffectParamList.rt (h : Linked c d) {x : EffectParamList} :
    RT (x.write c) (EffectParamList.read d) x.norm := by
  unfold EffectParamList.write EffectParamList.read
  rt_steps
  refine RT.bind (RT.list (by simp) fun _ _ => EffectParam.rt h) ?_
  rt_last
  rfl

/-- The byte order property of a user parameter always comes back as `II`. -/
def CFUserParam.norm (x : CFUserParam) : CFUserParam := { x with byte_order := 0x4949 }

theorem CFUserParam.rt (h : Linked c d) {x : CFUserParam} :
    RT (x.write c) (CFUserParam.read d) x.norm := by
  unfold CFUserParam.write CFUserParam.read
  rt_steps
  rt_last
  rfl

def ParameterItem.norm (c : WCtx) (x : ParameterItem) : ParameterItem :=
  { x with
    value := (x.value.stored x.value_type).norm c, name := stripText x.name, control_track := c.tr x.control_track }

def ParameterItem.texts (x : ParameterItem) : List (Enc × Text) := [(.macroman, x.name)]

theorem ParameterItem.rt_value (h : Linked c d) {x : ParameterItem} :
    RT (x.writeValue c) (ParameterItem.readValue d x.value_type) ((x.value.stored x.value_type).norm c) := by
  unfold ParameterItem.writeValue ParameterItem.readValue
  obtain ⟨_, _, value, _⟩ := x
  dsimp only
  split
  · next ht =>
    cases value
    case int v => exact RT.last (RT.intL h) (by subst ht; rfl)
    all_goals exact RT.wfail
  · split
    · next ht =>
      cases value
      case dbl v => exact RT.last RT.double (by subst ht; rfl)
      case int v => exact RT.last RT.doubleInt (by subst ht; rfl)
      all_goals exact RT.wfail
    · split
      · next ht =>
        cases value
        case ref v => exact RT.last (RT.ref h) (by subst ht; rfl)
        all_goals exact RT.wfail
      · exact RT.wfail

theorem ParameterItem.rt (h : Linked c d) {x : ParameterItem} (ht : TextsOK x.texts) :
    RT (x.write c) (ParameterItem.read d) (x.norm c) := by
  unfold ParameterItem.write ParameterItem.read
  have h1 : TextOK .macroman ((some x.name).getD []) := ht.one
  rt_steps
  refine RT.bind (ParameterItem.rt_value h) ?_
  rt_steps
  rt_opt ParameterItem contribs_to_sig id ParameterItem.ext
  refine RT.ext_done (by starts) ?_
  rt_last
  cases x; simp [ParameterItem.norm]

def MSMLocator.norm (x : MSMLocator) : MSMLocator :=
  { x with
    last_known_volume := stripText x.last_known_volume
    last_known_volume_utf8 := x.last_known_volume_utf8.map stripText }

def MSMLocator.texts (x : MSMLocator) : List (Enc × Text) :=
  [(.macroman, x.last_known_volume)] ++ optText .utf8 x.last_known_volume_utf8

theorem MSMLocator.rt (h : Linked c d) {x : MSMLocator} (ht : TextsOK x.texts) :
    RT (x.write c) (MSMLocator.read d) x.norm := by
  unfold MSMLocator.write MSMLocator.read
  have h1 := ht.left.one
  rt_steps
  rt_opt MSMLocator domain_type id MSMLocator.ext
  rt_opt MSMLocator mob_id id MSMLocator.ext
  refine RT.ext_step (RTX.has (fun (s : MSMLocator) o => { s with last_known_volume_utf8 := o })
      stripText rfl fun v hv => RTX.item ?_) ?_
  · have := ht.right.opt hv
    rt_ext MSMLocator.ext
    rt_steps
    rt_last
    rfl
  refine RT.ext_done (by starts) ?_
  rt_last
  cases x; simp [MSMLocator.norm]

theorem Position.rt_body (h : Linked c d) {x : Position} :
    RTN (x.writeBody c) (Position.readBody d) x := by
  unfold Position.writeBody Position.readBody
  rt_steps
  refine RT.ext_end' (RTX.has (fun (s : Position) o => { s with mob_id := o }) id rfl
    fun r _ => RTX.item ?_) (by simp)
  rt_ext Position.ext
  rt_steps
  rt_last
  rfl

theorem Position.rt (h : Linked c d) {x : Position} :
    RT (x.write c) (Position.read d) x := by
  unfold Position.write Position.read
  refine RTN.bind (Position.rt_body h) (by starts) ?_
  rt_last
  rfl

theorem BOBPosition.rt_body (h : Linked c d) {x : BOBPosition} :
    RT (x.writeBody c) (BOBPosition.readBody d) x := by
  unfold BOBPosition.writeBody BOBPosition.readBody
  refine RTN.bind (Position.rt_body h) (by starts) ?_
  rt_steps
  rt_last
  rfl

theorem BOBPosition.rt (h : Linked c d) {x : BOBPosition} :
    RT (x.write c) (BOBPosition.read d) x := by
  unfold BOBPosition.write BOBPosition.read
  refine RT.bind (BOBPosition.rt_body h) ?_
  rt_last
  rfl

theorem DIDPosition.rt_body (h : Linked c d) {x : DIDPosition} :
    RT (x.writeBody c) (DIDPosition.readBody d) x := by
  unfold DIDPosition.writeBody DIDPosition.readBody
  refine RT.bind (BOBPosition.rt_body h) ?_
  rt_steps
  rt_last
  rfl

theorem DIDPosition.rt (h : Linked c d) {x : DIDPosition} :
    RT (x.write c) (DIDPosition.read d) x := by
  unfold DIDPosition.write DIDPosition.read
  refine RT.bind (DIDPosition.rt_body h) ?_
  rt_last
  rfl

theorem MPGPosition.rt_field (h : Linked c d) {p : Int × Int} :
    RT (MPGPosition.writeField c p) (MPGPosition.readField d) p := by
  unfold MPGPosition.writeField MPGPosition.readField
  rt_steps
  rt_last
  rfl

theorem MPGPosition.rt_fields (h : Linked c d) {xs : List (Int × Int)} :
    RT (MPGPosition.writeFields c xs) (MPGPosition.readFields d) xs := by
  unfold MPGPosition.writeFields MPGPosition.readFields
  rt_step
  unfold Wr.when
  by_cases hv : xs.length > 0
  · rw [if_pos hv, if_pos (by omega)]
    rt_steps
    exact RT.list_id (by simp) fun _ _ => MPGPosition.rt_field h
  · rw [if_neg hv, if_neg (by omega)]
    have : xs = [] := by simpa using hv
    subst this
    exact RT.pure rfl

theorem MPGPosition.rt (h : Linked c d) {x : MPGPosition} :
    RT (x.write c) (MPGPosition.read d) x := by
  unfold MPGPosition.write MPGPosition.read
  refine RT.bind (DIDPosition.rt_body h) ?_
  rt_steps
  refine RT.bind (MPGPosition.rt_fields h) ?_
  rt_last
  rfl

def BinRef.norm (x : BinRef) : BinRef :=
  { x with name := stripText x.name, name_utf8 := x.name_utf8.map stripText }

def BinRef.texts (x : BinRef) : List (Enc × Text) :=
  [(.macroman, x.name)] ++ optText .utf8 x.name_utf8

/-- An unconditional extension item of two fields in the middle of a longer writer. -/
theorem RT.wext {σ : Type} {w1 w1' w2 : Wr Unit} {tag : Int} {body : Int → σ → Rd σ} {s s1 : σ}
    {k : σ → Rd α} {v : α} (h1 : RT (w1 >>= fun _ => w1') (body tag s) s1)
    (h2 : RTF F w2 (iterExt body s1 >>= k) v) :
    RTF F (wU8 1 >>= fun _ => wU8 tag >>= fun _ => w1 >>= fun _ => w1' >>= fun _ => w2)
      (iterExt body s >>= k) v := by
  have := RT.ext_step (F := F) (RTX.item h1) h2
  intro bs hbs
  obtain ⟨_, o1, o2, e1, e2, rfl⟩ := Wr.bind_eq_ok hbs
  obtain ⟨_, o3, o4, e3, e4, rfl⟩ := Wr.bind_eq_ok e2
  obtain ⟨_, o5, o6, e5, e6, rfl⟩ := Wr.bind_eq_ok e4
  obtain ⟨_, o7, o8, e7, e8, rfl⟩ := Wr.bind_eq_ok e6
  have := this _ (Wr.bind_ok (Wr.bind_ok e1 (Wr.bind_ok e3 (Wr.bind_ok e5 e7))) e8)
  simpa [List.append_assoc] using this

theorem BinRef.rt (h : Linked c d) {x : BinRef} (ht : TextsOK x.texts) :
    RT (x.write c) (BinRef.read d) x.norm := by
  unfold BinRef.write BinRef.read
  have h1 := ht.left.one
  rt_step
  rt_step
  rt_step
  rt_step
  rt_step
  refine RT.wget fun t hn => ?_
  have h2 := ht.right.opt hn
  refine RT.wext (s1 := x.norm) ?_ ?_
  · rt_ext BinRef.ext
    rt_steps
    rt_last
    simp [BinRef.norm, hn]
  refine RT.ext_done (by starts) ?_
  rt_last
  rfl

theorem MobRef.rt_body (h : Linked c d) {x : MobRef} :
    RTN (x.writeBody c) (MobRef.readBody d) x := by
  unfold MobRef.writeBody MobRef.readBody
  rt_steps
  refine RT.ext_end' (RTX.has (fun (s : MobRef) o => { s with mob_id := o }) id rfl
    fun r _ => RTX.item ?_) (by simp)
  rt_ext MobRef.ext
  rt_steps
  rt_last
  rfl

theorem MobRef.rt (h : Linked c d) {x : MobRef} :
    RT (x.write c) (MobRef.read d) x := by
  unfold MobRef.write MobRef.read
  refine RTN.bind (MobRef.rt_body h) (by starts) ?_
  rt_last
  rfl

def Marker.norm (c : WCtx) (x : Marker) : Marker := { x with attributes := c.tr x.attributes }

theorem Marker.rt (h : Linked c d) {x : Marker} (hc : x.color.length = 3) :
    RT (x.write c) (Marker.read d) (x.norm c) := by
  unfold Marker.write Marker.read
  refine RTN.bind (MobRef.rt_body h) (by starts) ?_
  rt_steps
  refine RT.bind (RT.list_id hc.symm fun _ _ => RT.intL h) ?_
  rt_opt Marker handled_codes id Marker.ext
  refine RT.ext_done (by starts) ?_
  rt_last
  cases x; simp [Marker.norm]

def TrackerManager.norm (c : WCtx) (x : TrackerManager) : TrackerManager :=
  { data_slots := c.tr x.data_slots, param_slots := c.tr x.param_slots }

theorem TrackerManager.rt (h : Linked c d) {x : TrackerManager} :
    RT (x.write c) (TrackerManager.read d) (x.norm c) := by
  unfold TrackerManager.write TrackerManager.read
  rt_steps
  rt_last
  rfl

def TrackerDataSlot.norm (c : WCtx) (x : TrackerDataSlot) : TrackerDataSlot :=
  { x with tracker_data := x.tracker_data.map c.tr }

theorem TrackerDataSlot.rt (h : Linked c d) {x : TrackerDataSlot} :
    RT (x.write c) (TrackerDataSlot.read d) (x.norm c) := by
  unfold TrackerDataSlot.write TrackerDataSlot.read
  rt_steps
  rt_opt TrackerDataSlot track_fg id TrackerDataSlot.ext
  refine RT.ext_done (by starts) ?_
  rt_last
  cases x; simp [TrackerDataSlot.norm]

def TrackerParameterSlot.norm (c : WCtx) (x : TrackerParameterSlot) : TrackerParameterSlot :=
  { x with params := x.params.map c.tr }

theorem TrackerParameterSlot.rt (h : Linked c d) {x : TrackerParameterSlot} :
    RT (x.write c) (TrackerParameterSlot.read d) (x.norm c) := by
  unfold TrackerParameterSlot.write TrackerParameterSlot.read
  rt_steps
  rt_last
  rfl

def TrackerData.norm (c : WCtx) (x : TrackerData) : TrackerData :=
  { x with clips := x.clips.map c.tr, clip5 := x.clip5.map c.tr, clip6 := x.clip6.map c.tr }

theorem TrackerData.rt (h : Linked c d) {x : TrackerData} :
    RT (x.write c) (TrackerData.read d) (x.norm c) := by
  unfold TrackerData.write TrackerData.read
  rt_steps
  rt_opt TrackerData offset_tracking id TrackerData.ext
  rt_opt TrackerData smoothing id TrackerData.ext
  rt_opt TrackerData jitter_removal id TrackerData.ext
  rt_opt TrackerData filter_amount id TrackerData.ext
  rt_opt TrackerData clip5 c.tr TrackerData.ext
  rt_opt TrackerData clip6 c.tr TrackerData.ext
  refine RT.ext_done (by starts) ?_
  rt_last
  cases x; simp [TrackerData.norm]

theorem TrackerParameter.rt (h : Linked c d) {x : TrackerParameter} :
    RT (x.write c) (TrackerParameter.read d) x := by
  unfold TrackerParameter.write TrackerParameter.read
  rt_steps
  rt_last
  rfl

end

end Avb

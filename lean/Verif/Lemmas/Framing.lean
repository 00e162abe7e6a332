import Verif.Lemmas.MonoAll
import Verif.Spec.Framing

/-
Every reader insists on its block structure and its closing tag.
-/

namespace Avb

variable {α β : Type}

/-- What the reader passes over has this block structure. -/
def Framed (b : List (List UInt8)) (r : Rd α) : Prop :=
  ∀ bs v rest, r bs = .ok (v, rest) → ∃ p, bs = p ++ rest ∧ Blocks b p

/-- What the reader passes over has this block structure, with a byte 3 at the end. -/
def FramedEnd (b : List (List UInt8)) (r : Rd α) : Prop :=
  ∀ bs v rest, r bs = .ok (v, rest) → ∃ p, bs = p ++ 3 :: rest ∧ Blocks b p

/-- The same after some other bytes. -/
def SFramed (b : List (List UInt8)) (r : Rd α) : Prop :=
  ∀ bs v rest, r bs = .ok (v, rest) → ∃ seg p, bs = seg ++ p ++ rest ∧ Blocks b p

/-- The same after some other bytes. -/
def SEnd (b : List (List UInt8)) (r : Rd α) : Prop :=
  ∀ bs v rest, r bs = .ok (v, rest) → ∃ seg p, bs = seg ++ p ++ 3 :: rest ∧ Blocks b p

/-- The reader stops after a byte 3. -/
def Closed (r : Rd α) : Prop :=
  ∀ bs v rest, r bs = .ok (v, rest) → ∃ p, bs = p ++ 3 :: rest

theorem Blocks.append {a b : List (List UInt8)} {p q : Bytes} (h1 : Blocks a p) (h2 : Blocks b q) :
    Blocks (a ++ b) (p ++ q) := by
  induction a generalizing p with
  | nil => cases h1; exact h2
  | cons vs a ih =>
    obtain ⟨v, hv, seg, r, rfl, hr⟩ := h1
    exact ⟨v, hv, seg, r ++ q, by simp, ih hr⟩

theorem Blocks.more {a : List (List UInt8)} {p : Bytes} (hne : a ≠ []) (h : Blocks a p) (q : Bytes) :
    Blocks a (p ++ q) := by
  induction a generalizing p with
  | nil => exact absurd rfl hne
  | cons vs a ih =>
    obtain ⟨v, hv, seg, r, rfl, hr⟩ := h
    cases a with
    | nil =>
      cases hr
      exact ⟨v, hv, seg ++ q, [], by simp, rfl⟩
    | cons ws a => exact ⟨v, hv, seg, r ++ q, by simp, ih (by simp) hr⟩

theorem rU8_ok {v : Int} {bs rest : Bytes} (h : rU8 bs = .ok (v, rest)) :
    ∃ b : UInt8, bs = b :: rest ∧ v = (b.toNat : Int) := by
  cases bs with
  | nil => cases h
  | cons b bs =>
    have : rU8 (b :: bs) = .ok ((b.toNat : Int), bs) := by
      simp [rU8, rInt, IntTy.width, IntTy.signed, unpackNat, leVal]
    rw [this] at h
    cases h
    exact ⟨b, rfl, rfl⟩

theorem rTag_ok {t : Int} {bs rest : Bytes} {u : Unit} (h : rTag t bs = .ok (u, rest)) :
    ∃ b : UInt8, bs = b :: rest ∧ (b.toNat : Int) = t := by
  unfold rTag at h
  obtain ⟨v, mid, h1, h2⟩ := Rd.bind_eq_ok' h
  obtain ⟨b, rfl, rfl⟩ := rU8_ok h1
  unfold Rd.guard at h2
  split at h2
  · next hv => cases h2; exact ⟨b, rfl, hv⟩
  · cases h2

theorem rTag_byte {t : Int} {c : UInt8} (hc : t = (c.toNat : Int)) {bs rest : Bytes} {u : Unit}
    (h : rTag t bs = .ok (u, rest)) : bs = c :: rest := by
  obtain ⟨b, rfl, hb⟩ := rTag_ok h
  have : b = c := UInt8.toNat_inj.1 (by omega)
  rw [this]

theorem Closed.tag : Closed (rTag 3) := by
  intro bs v rest h
  exact ⟨[], rTag_byte rfl h⟩

theorem Closed.bind {r : Rd α} {k : α → Rd β} (h1 : Mono r) (h2 : ∀ a, Closed (k a)) :
    Closed (r >>= k) := by
  intro bs v rest h
  obtain ⟨a, mid, e1, e2⟩ := Rd.bind_eq_ok' h
  obtain ⟨p, rfl, _⟩ := h1 _ _ _ e1
  obtain ⟨q, rfl⟩ := h2 a _ _ _ e2
  exact ⟨p ++ q, by simp⟩

theorem Closed.last {r : Rd α} {f : α → β} (h : Closed r) :
    Closed (r >>= fun a => (Pure.pure (f a) : Rd β)) := by
  intro bs v rest hb
  obtain ⟨a, mid, e1, e2⟩ := Rd.bind_eq_ok' hb
  cases e2
  exact h _ _ _ e1

theorem SFramed.nil {r : Rd α} (h : Mono r) : SFramed [] r := by
  intro bs v rest hr
  obtain ⟨p, rfl, _⟩ := h _ _ _ hr
  exact ⟨p, [], by simp, rfl⟩

theorem SEnd.nil {r : Rd α} (h : Closed r) : SEnd [] r := by
  intro bs v rest hr
  obtain ⟨p, rfl⟩ := h _ _ _ hr
  exact ⟨p, [], by simp, rfl⟩

theorem SEnd.skip {b : List (List UInt8)} {r : Rd α} {k : α → Rd β} (h1 : Mono r)
    (h2 : ∀ a, FramedEnd b (k a)) : SEnd b (r >>= k) := by
  intro bs v rest h
  obtain ⟨a, mid, e1, e2⟩ := Rd.bind_eq_ok' h
  obtain ⟨p, rfl, _⟩ := h1 _ _ _ e1
  obtain ⟨q, rfl, hq⟩ := h2 a _ _ _ e2
  exact ⟨p, q, by simp, hq⟩

theorem Framed.start {t : Int} {v : UInt8} {b : List (List UInt8)} {k : Rd α}
    (hv : t = (v.toNat : Int)) (h : SFramed b k) :
    Framed ([v] :: b) (rTag 2 >>= fun _ => rTag t >>= fun _ => k) := by
  intro bs x rest hr
  obtain ⟨_, mid, e1, e2⟩ := Rd.bind_eq_ok' hr
  obtain ⟨_, mid', e3, e4⟩ := Rd.bind_eq_ok' e2
  cases rTag_byte (c := 2) rfl e1
  cases rTag_byte hv e3
  obtain ⟨seg, p, rfl, hp⟩ := h _ _ _ e4
  exact ⟨2 :: v :: (seg ++ p), by simp, v, by simp, seg, p, rfl, hp⟩

theorem FramedEnd.start {t : Int} {v : UInt8} {b : List (List UInt8)} {k : Rd α}
    (hv : t = (v.toNat : Int)) (h : SEnd b k) :
    FramedEnd ([v] :: b) (rTag 2 >>= fun _ => rTag t >>= fun _ => k) := by
  intro bs x rest hr
  obtain ⟨_, mid, e1, e2⟩ := Rd.bind_eq_ok' hr
  obtain ⟨_, mid', e3, e4⟩ := Rd.bind_eq_ok' e2
  cases rTag_byte (c := 2) rfl e1
  cases rTag_byte hv e3
  obtain ⟨seg, p, rfl, hp⟩ := h _ _ _ e4
  exact ⟨2 :: v :: (seg ++ p), by simp, v, by simp, seg, p, rfl, hp⟩

theorem Framed.startBin {k : Int → Rd α} {e : Err} (h : ∀ v, Mono (k v)) :
    Framed [[14, 15]] (rTag 2 >>= fun _ => rU8 >>= fun v =>
      Rd.guard (v = 14 ∨ v = 15) e >>= fun _ => k v) := by
  intro bs x rest hr
  obtain ⟨_, mid, e1, e2⟩ := Rd.bind_eq_ok' hr
  obtain ⟨v, mid', e3, e4⟩ := Rd.bind_eq_ok' e2
  obtain ⟨_, mid'', e5, e6⟩ := Rd.bind_eq_ok' e4
  cases rTag_byte (c := 2) rfl e1
  obtain ⟨c, rfl, rfl⟩ := rU8_ok e3
  unfold Rd.guard at e5
  split at e5
  · next hc =>
    cases e5
    obtain ⟨p, rfl, _⟩ := h _ _ _ _ e6
    refine ⟨2 :: c :: p, by simp, c, ?_, p, [], by simp, rfl⟩
    rcases hc with hc | hc
    · have : c = 14 := UInt8.toNat_inj.1 (by show c.toNat = 14; omega)
      simp [this]
    · have : c = 15 := UInt8.toNat_inj.1 (by show c.toNat = 15; omega)
      simp [this]
  · cases e5

theorem Framed.bind {a b : List (List UInt8)} {r : Rd α} {k : α → Rd β} (h1 : Framed a r)
    (h2 : ∀ x, Framed b (k x)) : Framed (a ++ b) (r >>= k) := by
  intro bs v rest h
  obtain ⟨x, mid, e1, e2⟩ := Rd.bind_eq_ok' h
  obtain ⟨p, rfl, hp⟩ := h1 _ _ _ e1
  obtain ⟨q, rfl, hq⟩ := h2 x _ _ _ e2
  exact ⟨p ++ q, by simp, hp.append hq⟩

theorem FramedEnd.bind {a b : List (List UInt8)} {r : Rd α} {k : α → Rd β} (h1 : Framed a r)
    (h2 : ∀ x, FramedEnd b (k x)) : FramedEnd (a ++ b) (r >>= k) := by
  intro bs v rest h
  obtain ⟨x, mid, e1, e2⟩ := Rd.bind_eq_ok' h
  obtain ⟨p, rfl, hp⟩ := h1 _ _ _ e1
  obtain ⟨q, rfl, hq⟩ := h2 x _ _ _ e2
  exact ⟨p ++ q, by simp, hp.append hq⟩

theorem FramedEnd.raw {a : List (List UInt8)} (ha : a ≠ []) {r : Rd α} {k : α → Rd β} (h1 : Framed a r)
    (h2 : ∀ x, Closed (k x)) : FramedEnd a (r >>= k) := by
  intro bs v rest h
  obtain ⟨x, mid, e1, e2⟩ := Rd.bind_eq_ok' h
  obtain ⟨p, rfl, hp⟩ := h1 _ _ _ e1
  obtain ⟨q, rfl⟩ := h2 x _ _ _ e2
  exact ⟨p ++ q, by simp, hp.more ha q⟩

theorem FramedEnd.empty {x : α} : FramedEnd [] (rTag 3 >>= fun _ => (pure x : Rd α)) := by
  intro bs v rest h
  obtain ⟨_, mid, e1, e2⟩ := Rd.bind_eq_ok' h
  cases e2
  exact ⟨[], rTag_byte rfl e1, rfl⟩

theorem Framed.as {b : List (List UInt8)} {r : Rd α} {f : α → Obj} (h : Framed b r) : Framed b (r.as f) := by
  intro bs v rest hb
  obtain ⟨a, mid, e1, e2⟩ := Rd.bind_eq_ok' hb
  cases e2
  exact h _ _ _ e1

theorem FramedEnd.as {b : List (List UInt8)} {r : Rd α} {f : α → Obj} (h : FramedEnd b r) :
    FramedEnd b (r.as f) := by
  intro bs v rest hb
  obtain ⟨a, mid, e1, e2⟩ := Rd.bind_eq_ok' hb
  cases e2
  exact h _ _ _ e1

/-- Walk through a reader up to its closing tag. -/
macro "closed" : tactic => `(tactic| repeat' with_reducible first
  | exact Closed.tag
  | exact Closed.last Closed.tag
  | refine Closed.bind (by mono) fun _ => ?_)

theorem Attributes.framed (d : RCtx) : FramedEnd [[1]] (Attributes.read d) := by
  unfold Attributes.read
  exact FramedEnd.start (v := 1) (b := []) rfl (SEnd.nil (by closed))

theorem ParameterList.framed (d : RCtx) : FramedEnd [[1]] (ParameterList.read d) := by
  unfold ParameterList.read
  exact FramedEnd.start (v := 1) (b := []) rfl (SEnd.nil (by closed))

theorem TimeCrumbList.framed (d : RCtx) : FramedEnd [[1]] (TimeCrumbList.read d) := by
  unfold TimeCrumbList.read
  exact FramedEnd.start (v := 1) (b := []) rfl (SEnd.nil (by closed))

theorem Setting.framed (d : RCtx) : Framed [[6]] (Setting.read d) := by
  unfold Setting.read
  exact Framed.start (v := 6) (b := []) rfl (SFramed.nil (by mono))

theorem BinViewSetting.framed (d : RCtx) : FramedEnd [[6], [10]] (BinViewSetting.read d) := by
  unfold BinViewSetting.read
  exact FramedEnd.bind (a := [[6]]) (b := [[10]]) (Setting.framed d) fun _ =>
    FramedEnd.start (v := 10) (b := []) rfl (SEnd.nil (by closed))

theorem Bin.framedBody (d : RCtx) : Framed [[14, 15]] (Bin.readBody d) := by
  unfold Bin.readBody
  exact Framed.startBin fun _ => by mono

theorem Bin.framed (d : RCtx) : FramedEnd [[14, 15]] (Bin.read d) := by
  unfold Bin.read
  exact FramedEnd.raw (by simp) (Bin.framedBody d) fun _ => by closed

theorem BinFirst.framed (d : RCtx) : FramedEnd [[14, 15], [1]] (BinFirst.read d) := by
  unfold BinFirst.read
  exact FramedEnd.bind (a := [[14, 15]]) (b := [[1]]) (Bin.framedBody d) fun _ =>
    FramedEnd.start (v := 1) (b := []) rfl (SEnd.nil (by closed))

theorem Component.framed (d : RCtx) : Framed [[3]] (Component.read d) := by
  unfold Component.read
  exact Framed.start (v := 3) (b := []) rfl (SFramed.nil (by mono))

theorem Sequence.framed (d : RCtx) : FramedEnd [[3], [3]] (Sequence.read d) := by
  unfold Sequence.read
  exact FramedEnd.bind (a := [[3]]) (b := [[3]]) (Component.framed d) fun _ =>
    FramedEnd.start (v := 3) (b := []) rfl (SEnd.nil (by closed))

theorem Clip.framed (d : RCtx) : Framed [[3], [1]] (Clip.read d) := by
  unfold Clip.read
  exact Framed.bind (a := [[3]]) (b := [[1]]) (Component.framed d) fun _ =>
    Framed.start (v := 1) (b := []) rfl (SFramed.nil (by mono))

theorem SourceClip.framed (d : RCtx) : FramedEnd [[3], [1], [3]] (SourceClip.read d) := by
  unfold SourceClip.read
  exact FramedEnd.bind (a := [[3], [1]]) (b := [[3]]) (Clip.framed d) fun _ =>
    FramedEnd.start (v := 3) (b := []) rfl (SEnd.nil (by closed))

theorem Timecode.framed (d : RCtx) : FramedEnd [[3], [1], [1]] (Timecode.read d) := by
  unfold Timecode.read
  exact FramedEnd.bind (a := [[3], [1]]) (b := [[1]]) (Clip.framed d) fun _ =>
    FramedEnd.start (v := 1) (b := []) rfl (SEnd.nil (by closed))

theorem Edgecode.framed (d : RCtx) : FramedEnd [[3], [1], [1]] (Edgecode.read d) := by
  unfold Edgecode.read
  exact FramedEnd.bind (a := [[3], [1]]) (b := [[1]]) (Clip.framed d) fun _ =>
    FramedEnd.start (v := 1) (b := []) rfl (SEnd.nil (by closed))

theorem TrackRef.framed (d : RCtx) : FramedEnd [[3], [1], [1]] (TrackRef.read d) := by
  unfold TrackRef.read
  exact FramedEnd.bind (a := [[3], [1]]) (b := [[1]]) (Clip.framed d) fun _ =>
    FramedEnd.start (v := 1) (b := []) rfl (SEnd.nil (by closed))

theorem ParamClip.framed (d : RCtx) : FramedEnd [[3], [1], [1]] (ParamClip.read d) := by
  unfold ParamClip.read
  exact FramedEnd.bind (a := [[3], [1]]) (b := [[1]]) (Clip.framed d) fun _ =>
    FramedEnd.start (v := 1) (b := []) rfl (SEnd.nil (by closed))

theorem ControlClip.framed (d : RCtx) : FramedEnd [[3], [1], [3]] (ControlClip.read d) := by
  unfold ControlClip.read
  exact FramedEnd.bind (a := [[3], [1]]) (b := [[3]]) (Clip.framed d) fun _ =>
    FramedEnd.start (v := 3) (b := []) rfl (SEnd.nil (by closed))

theorem Filler.framed (d : RCtx) : FramedEnd [[3], [1], [1]] (Filler.read d) := by
  unfold Filler.read
  exact FramedEnd.bind (a := [[3], [1]]) (b := [[1]]) (Clip.framed d) fun _ =>
    FramedEnd.start (v := 1) (b := []) rfl (SEnd.nil (by closed))

theorem TrackGroup.framed (d : RCtx) : Framed [[3], [8]] (TrackGroup.read d) := by
  unfold TrackGroup.read
  exact Framed.bind (a := [[3]]) (b := [[8]]) (Component.framed d) fun _ =>
    Framed.start (v := 8) (b := []) rfl (SFramed.nil (by mono))

theorem TrackEffect.framedBody (d : RCtx) : Framed [[3], [8], [6]] (TrackEffect.readBody d) := by
  unfold TrackEffect.readBody
  exact Framed.bind (a := [[3], [8]]) (b := [[6]]) (TrackGroup.framed d) fun _ =>
    Framed.start (v := 6) (b := []) rfl (SFramed.nil (by mono))

theorem TrackEffect.framed (d : RCtx) : FramedEnd [[3], [8], [6]] (TrackEffect.read d) := by
  unfold TrackEffect.read
  exact FramedEnd.raw (by simp) (TrackEffect.framedBody d) fun _ => by closed

theorem PanVolumeEffect.framed (d : RCtx) : FramedEnd [[3], [8], [6], [5]] (PanVolumeEffect.read d) := by
  unfold PanVolumeEffect.read
  exact FramedEnd.bind (a := [[3], [8], [6]]) (b := [[5]]) (TrackEffect.framedBody d) fun _ =>
    FramedEnd.start (v := 5) (b := []) rfl (SEnd.nil (by closed))

theorem AudioSuitePluginEffect.framed (d : RCtx) : FramedEnd [[3], [8], [6], [1]] (AudioSuitePluginEffect.read d) := by
  unfold AudioSuitePluginEffect.read
  exact FramedEnd.bind (a := [[3], [8], [6]]) (b := [[1]]) (TrackEffect.framedBody d) fun _ =>
    FramedEnd.start (v := 1) (b := []) rfl (SEnd.nil (by closed))

theorem EqualizerMultiBand.framed (d : RCtx) : FramedEnd [[3], [8], [6], [5]] (EqualizerMultiBand.read d) := by
  unfold EqualizerMultiBand.read
  exact FramedEnd.bind (a := [[3], [8], [6]]) (b := [[5]]) (TrackEffect.framedBody d) fun _ =>
    FramedEnd.start (v := 5) (b := []) rfl (SEnd.nil (by closed))

theorem TimeWarp.framed (d : RCtx) : Framed [[3], [8], [2]] (TimeWarp.read d) := by
  unfold TimeWarp.read
  exact Framed.bind (a := [[3], [8]]) (b := [[2]]) (TrackGroup.framed d) fun _ =>
    Framed.start (v := 2) (b := []) rfl (SFramed.nil (by mono))

theorem CaptureMask.framed (d : RCtx) : FramedEnd [[3], [8], [2], [1]] (CaptureMask.read d) := by
  unfold CaptureMask.read
  exact FramedEnd.bind (a := [[3], [8], [2]]) (b := [[1]]) (TimeWarp.framed d) fun _ =>
    FramedEnd.start (v := 1) (b := []) rfl (SEnd.nil (by closed))

theorem StrobeEffect.framed (d : RCtx) : FramedEnd [[3], [8], [2], [1]] (StrobeEffect.read d) := by
  unfold StrobeEffect.read
  exact FramedEnd.bind (a := [[3], [8], [2]]) (b := [[1]]) (TimeWarp.framed d) fun _ =>
    FramedEnd.start (v := 1) (b := []) rfl (SEnd.nil (by closed))

theorem MotionEffect.framed (d : RCtx) : FramedEnd [[3], [8], [2], [3]] (MotionEffect.read d) := by
  unfold MotionEffect.read
  exact FramedEnd.bind (a := [[3], [8], [2]]) (b := [[3]]) (TimeWarp.framed d) fun _ =>
    FramedEnd.start (v := 3) (b := []) rfl (SEnd.nil (by closed))

theorem Repeat.framed (d : RCtx) : FramedEnd [[3], [8], [2], [1]] (Repeat.read d) := by
  unfold Repeat.read
  exact FramedEnd.bind (a := [[3], [8], [2]]) (b := [[1]]) (TimeWarp.framed d) fun _ =>
    FramedEnd.start (v := 1) (b := []) rfl (SEnd.nil (by closed))

theorem EssenceGroup.framed (d : RCtx) : FramedEnd [[3], [8], [1]] (EssenceGroup.read d) := by
  unfold EssenceGroup.read
  exact FramedEnd.bind (a := [[3], [8]]) (b := [[1]]) (TrackGroup.framed d) fun _ =>
    FramedEnd.start (v := 1) (b := []) rfl (SEnd.nil (by closed))

theorem TransitionEffect.framed (d : RCtx) : FramedEnd [[3], [8], [1], [5]] (TransitionEffect.read d) := by
  unfold TransitionEffect.read
  exact FramedEnd.bind (a := [[3], [8]]) (b := [[1], [5]]) (TrackGroup.framed d) fun _ =>
    FramedEnd.start (v := 1) (b := [[5]]) rfl (SEnd.skip (by mono) fun _ =>
      (FramedEnd.start (v := 5) (b := []) rfl (SEnd.nil (by closed))))

theorem Selector.framed (d : RCtx) : FramedEnd [[3], [8], [1]] (Selector.read d) := by
  unfold Selector.read
  exact FramedEnd.bind (a := [[3], [8]]) (b := [[1]]) (TrackGroup.framed d) fun _ =>
    FramedEnd.start (v := 1) (b := []) rfl (SEnd.nil (by closed))

theorem Composition.framed (d : RCtx) : FramedEnd [[3], [8], [2]] (Composition.read d) := by
  unfold Composition.read
  exact FramedEnd.bind (a := [[3], [8]]) (b := [[2]]) (TrackGroup.framed d) fun _ =>
    FramedEnd.start (v := 2) (b := []) rfl (SEnd.nil (by closed))

theorem FileLocator.framed (d : RCtx) : FramedEnd [[2]] (FileLocator.read d) := by
  unfold FileLocator.read
  exact FramedEnd.start (v := 2) (b := []) rfl (SEnd.nil (by closed))

theorem URLLocator.framed (d : RCtx) : FramedEnd [] (URLLocator.read d) := by
  unfold URLLocator.read
  exact FramedEnd.empty

theorem GraphicEffect.framed (d : RCtx) : FramedEnd [[1]] (GraphicEffect.read d) := by
  unfold GraphicEffect.read
  exact FramedEnd.start (v := 1) (b := []) rfl (SEnd.nil (by closed))

theorem ShapeList.framed (d : RCtx) : FramedEnd [[1]] (ShapeList.read d) := by
  unfold ShapeList.read
  exact FramedEnd.start (v := 1) (b := []) rfl (SEnd.nil (by closed))

theorem ColorCorrectionEffect.framed (d : RCtx) : FramedEnd [[1]] (ColorCorrectionEffect.read d) := by
  unfold ColorCorrectionEffect.read
  exact FramedEnd.start (v := 1) (b := []) rfl (SEnd.nil (by closed))

theorem EffectParamList.framed (d : RCtx) : FramedEnd [[18]] (EffectParamList.read d) := by
  unfold EffectParamList.read
  exact FramedEnd.start (v := 18) (b := []) rfl (SEnd.nil (by closed))

theorem CFUserParam.framed (d : RCtx) : FramedEnd [[1]] (CFUserParam.read d) := by
  unfold CFUserParam.read
  exact FramedEnd.start (v := 1) (b := []) rfl (SEnd.nil (by closed))

theorem ParameterItem.framed (d : RCtx) : FramedEnd [[2]] (ParameterItem.read d) := by
  unfold ParameterItem.read
  exact FramedEnd.start (v := 2) (b := []) rfl (SEnd.nil (by closed))

theorem MSMLocator.framed (d : RCtx) : FramedEnd [[2]] (MSMLocator.read d) := by
  unfold MSMLocator.read
  exact FramedEnd.start (v := 2) (b := []) rfl (SEnd.nil (by closed))

theorem Position.framedBody (d : RCtx) : Framed [[1]] (Position.readBody d) := by
  unfold Position.readBody
  exact Framed.start (v := 1) (b := []) rfl (SFramed.nil (by mono))

theorem Position.framed (d : RCtx) : FramedEnd [[1]] (Position.read d) := by
  unfold Position.read
  exact FramedEnd.raw (by simp) (Position.framedBody d) fun _ => by closed

theorem BOBPosition.framedBody (d : RCtx) : Framed [[1], [1]] (BOBPosition.readBody d) := by
  unfold BOBPosition.readBody
  exact Framed.bind (a := [[1]]) (b := [[1]]) (Position.framedBody d) fun _ =>
    Framed.start (v := 1) (b := []) rfl (SFramed.nil (by mono))

theorem BOBPosition.framed (d : RCtx) : FramedEnd [[1], [1]] (BOBPosition.read d) := by
  unfold BOBPosition.read
  exact FramedEnd.raw (by simp) (BOBPosition.framedBody d) fun _ => by closed

theorem DIDPosition.framedBody (d : RCtx) : Framed [[1], [1], [1]] (DIDPosition.readBody d) := by
  unfold DIDPosition.readBody
  exact Framed.bind (a := [[1], [1]]) (b := [[1]]) (BOBPosition.framedBody d) fun _ =>
    Framed.start (v := 1) (b := []) rfl (SFramed.nil (by mono))

theorem DIDPosition.framed (d : RCtx) : FramedEnd [[1], [1], [1]] (DIDPosition.read d) := by
  unfold DIDPosition.read
  exact FramedEnd.raw (by simp) (DIDPosition.framedBody d) fun _ => by closed

theorem MPGPosition.framed (d : RCtx) : FramedEnd [[1], [1], [1], [1]] (MPGPosition.read d) := by
  unfold MPGPosition.read
  exact FramedEnd.bind (a := [[1], [1], [1]]) (b := [[1]]) (DIDPosition.framedBody d) fun _ =>
    FramedEnd.start (v := 1) (b := []) rfl (SEnd.nil (by closed))

theorem BinRef.framed (d : RCtx) : FramedEnd [[1]] (BinRef.read d) := by
  unfold BinRef.read
  exact FramedEnd.start (v := 1) (b := []) rfl (SEnd.nil (by closed))

theorem MobRef.framedBody (d : RCtx) : Framed [[1]] (MobRef.readBody d) := by
  unfold MobRef.readBody
  exact Framed.start (v := 1) (b := []) rfl (SFramed.nil (by mono))

theorem MobRef.framed (d : RCtx) : FramedEnd [[1]] (MobRef.read d) := by
  unfold MobRef.read
  exact FramedEnd.raw (by simp) (MobRef.framedBody d) fun _ => by closed

theorem Marker.framed (d : RCtx) : FramedEnd [[1], [3]] (Marker.read d) := by
  unfold Marker.read
  exact FramedEnd.bind (a := [[1]]) (b := [[3]]) (MobRef.framedBody d) fun _ =>
    FramedEnd.start (v := 3) (b := []) rfl (SEnd.nil (by closed))

theorem TrackerManager.framed (d : RCtx) : FramedEnd [[1]] (TrackerManager.read d) := by
  unfold TrackerManager.read
  exact FramedEnd.start (v := 1) (b := []) rfl (SEnd.nil (by closed))

theorem TrackerDataSlot.framed (d : RCtx) : FramedEnd [[1]] (TrackerDataSlot.read d) := by
  unfold TrackerDataSlot.read
  exact FramedEnd.start (v := 1) (b := []) rfl (SEnd.nil (by closed))

theorem TrackerParameterSlot.framed (d : RCtx) : FramedEnd [[1]] (TrackerParameterSlot.read d) := by
  unfold TrackerParameterSlot.read
  exact FramedEnd.start (v := 1) (b := []) rfl (SEnd.nil (by closed))

theorem TrackerData.framed (d : RCtx) : FramedEnd [[1]] (TrackerData.read d) := by
  unfold TrackerData.read
  exact FramedEnd.start (v := 1) (b := []) rfl (SEnd.nil (by closed))

theorem TrackerParameter.framed (d : RCtx) : FramedEnd [[1]] (TrackerParameter.read d) := by
  unfold TrackerParameter.read
  exact FramedEnd.start (v := 1) (b := []) rfl (SEnd.nil (by closed))

theorem MediaDescriptor.framedBody (d : RCtx) : Framed [[3]] (MediaDescriptor.readBody d) := by
  unfold MediaDescriptor.readBody
  exact Framed.start (v := 3) (b := []) rfl (SFramed.nil (by mono))

theorem MediaDescriptor.framed (d : RCtx) : FramedEnd [[3]] (MediaDescriptor.read d) := by
  unfold MediaDescriptor.read
  exact FramedEnd.raw (by simp) (MediaDescriptor.framedBody d) fun _ => by closed

theorem TapeDescriptor.framed (d : RCtx) : FramedEnd [[3], [2]] (TapeDescriptor.read d) := by
  unfold TapeDescriptor.read
  exact FramedEnd.bind (a := [[3]]) (b := [[2]]) (MediaDescriptor.framedBody d) fun _ =>
    FramedEnd.start (v := 2) (b := []) rfl (SEnd.nil (by closed))

theorem FilmDescriptor.framed (d : RCtx) : FramedEnd [[3], [1]] (FilmDescriptor.read d) := by
  unfold FilmDescriptor.read
  exact FramedEnd.bind (a := [[3]]) (b := [[1]]) (MediaDescriptor.framedBody d) fun _ =>
    FramedEnd.start (v := 1) (b := []) rfl (SEnd.nil (by closed))

theorem NagraDescriptor.framed (d : RCtx) : FramedEnd [[3], [1]] (NagraDescriptor.read d) := by
  unfold NagraDescriptor.read
  exact FramedEnd.bind (a := [[3]]) (b := [[1]]) (MediaDescriptor.framedBody d) fun _ =>
    FramedEnd.start (v := 1) (b := []) rfl (SEnd.nil (by closed))

theorem MediaFileDescriptor.framedBody (d : RCtx) : Framed [[3], [3]] (MediaFileDescriptor.readBody d) := by
  unfold MediaFileDescriptor.readBody
  exact Framed.bind (a := [[3]]) (b := [[3]]) (MediaDescriptor.framedBody d) fun _ =>
    Framed.start (v := 3) (b := []) rfl (SFramed.nil (by mono))

theorem MediaFileDescriptor.framed (d : RCtx) : FramedEnd [[3], [3]] (MediaFileDescriptor.read d) := by
  unfold MediaFileDescriptor.read
  exact FramedEnd.raw (by simp) (MediaFileDescriptor.framedBody d) fun _ => by closed

theorem MultiDescriptor.framed (d : RCtx) : FramedEnd [[3], [3], [1]] (MultiDescriptor.read d) := by
  unfold MultiDescriptor.read
  exact FramedEnd.bind (a := [[3], [3]]) (b := [[1]]) (MediaFileDescriptor.framedBody d) fun _ =>
    FramedEnd.start (v := 1) (b := []) rfl (SEnd.nil (by closed))

theorem WaveDescriptor.framed (d : RCtx) : FramedEnd [[3], [3], [1]] (WaveDescriptor.read d) := by
  unfold WaveDescriptor.read
  exact FramedEnd.bind (a := [[3], [3]]) (b := [[1]]) (MediaFileDescriptor.framedBody d) fun _ =>
    FramedEnd.start (v := 1) (b := []) rfl (SEnd.nil (by closed))

theorem AIFCDescriptor.framed (d : RCtx) : FramedEnd [[3], [3], [1]] (AIFCDescriptor.read d) := by
  unfold AIFCDescriptor.read
  exact FramedEnd.bind (a := [[3], [3]]) (b := [[1]]) (MediaFileDescriptor.framedBody d) fun _ =>
    FramedEnd.start (v := 1) (b := []) rfl (SEnd.nil (by closed))

theorem PCMADescriptor.framed (d : RCtx) : FramedEnd [[3], [3], [1]] (PCMADescriptor.read d) := by
  unfold PCMADescriptor.read
  exact FramedEnd.bind (a := [[3], [3]]) (b := [[1]]) (MediaFileDescriptor.framedBody d) fun _ =>
    FramedEnd.start (v := 1) (b := []) rfl (SEnd.nil (by closed))

theorem MPGADescriptor.framed (d : RCtx) : FramedEnd [[3], [3], [1]] (MPGADescriptor.read d) := by
  unfold MPGADescriptor.read
  exact FramedEnd.bind (a := [[3], [3]]) (b := [[1]]) (MediaFileDescriptor.framedBody d) fun _ =>
    FramedEnd.start (v := 1) (b := []) rfl (SEnd.nil (by closed))

theorem DIDDescriptor.framedBody (d : RCtx) : Framed [[3], [3], [2]] (DIDDescriptor.readBody d) := by
  unfold DIDDescriptor.readBody
  exact Framed.bind (a := [[3], [3]]) (b := [[2]]) (MediaFileDescriptor.framedBody d) fun _ =>
    Framed.start (v := 2) (b := []) rfl (SFramed.nil (by mono))

theorem DIDDescriptor.framed (d : RCtx) : FramedEnd [[3], [3], [2]] (DIDDescriptor.read d) := by
  unfold DIDDescriptor.read
  exact FramedEnd.raw (by simp) (DIDDescriptor.framedBody d) fun _ => by closed

theorem CDCIDescriptor.framedBody (d : RCtx) : Framed [[3], [3], [2], [2]] (CDCIDescriptor.readBody d) := by
  unfold CDCIDescriptor.readBody
  exact Framed.bind (a := [[3], [3], [2]]) (b := [[2]]) (DIDDescriptor.framedBody d) fun _ =>
    Framed.start (v := 2) (b := []) rfl (SFramed.nil (by mono))

theorem CDCIDescriptor.framed (d : RCtx) : FramedEnd [[3], [3], [2], [2]] (CDCIDescriptor.read d) := by
  unfold CDCIDescriptor.read
  exact FramedEnd.raw (by simp) (CDCIDescriptor.framedBody d) fun _ => by closed

theorem MPGIDescriptor.framed (d : RCtx) : FramedEnd [[3], [3], [2], [2], [1]] (MPGIDescriptor.read d) := by
  unfold MPGIDescriptor.read
  exact FramedEnd.bind (a := [[3], [3], [2], [2]]) (b := [[1]]) (CDCIDescriptor.framedBody d) fun _ =>
    FramedEnd.start (v := 1) (b := []) rfl (SEnd.nil (by closed))

theorem JPEGDescriptor.framed (d : RCtx) : FramedEnd [[3], [3], [2], [2], [1]] (JPEGDescriptor.read d) := by
  unfold JPEGDescriptor.read
  exact FramedEnd.bind (a := [[3], [3], [2], [2]]) (b := [[1]]) (CDCIDescriptor.framedBody d) fun _ =>
    FramedEnd.start (v := 1) (b := []) rfl (SEnd.nil (by closed))

theorem RGBADescriptor.framed (d : RCtx) : FramedEnd [[3], [3], [2], [1]] (RGBADescriptor.read d) := by
  unfold RGBADescriptor.read
  exact FramedEnd.bind (a := [[3], [3], [2]]) (b := [[1]]) (DIDDescriptor.framedBody d) fun _ =>
    FramedEnd.start (v := 1) (b := []) rfl (SEnd.nil (by closed))

theorem DataDescriptor.framed (d : RCtx) : Framed [[3], [3], [1]] (DataDescriptor.read d) := by
  unfold DataDescriptor.read
  exact Framed.bind (a := [[3], [3]]) (b := [[1]]) (MediaFileDescriptor.framedBody d) fun _ =>
    Framed.start (v := 1) (b := []) rfl (SFramed.nil (by mono))

theorem ANCDataDescriptor.framed (d : RCtx) : FramedEnd [[3], [3], [1], [1]] (ANCDataDescriptor.read d) := by
  unfold ANCDataDescriptor.read
  exact FramedEnd.bind (a := [[3], [3], [1]]) (b := [[1]]) (DataDescriptor.framed d) fun _ =>
    FramedEnd.start (v := 1) (b := []) rfl (SEnd.nil (by closed))

theorem Obj.readAs_framed (d : RCtx) (k : Cls) (h : k ≠ .TRKG) (h2 : k ≠ .DATD) :
    FramedEnd k.blocks (Obj.readAs d k) := by
  cases k
  case ATTR => exact FramedEnd.as (Attributes.framed d)
  case PRLS => exact FramedEnd.as (ParameterList.framed d)
  case TMCS => exact FramedEnd.as (TimeCrumbList.framed d)
  case BVst => exact FramedEnd.as (BinViewSetting.framed d)
  case ABIN => exact FramedEnd.as (Bin.framed d)
  case BINF => exact FramedEnd.as (BinFirst.framed d)
  case SEQU => exact FramedEnd.as (Sequence.framed d)
  case SCLP => exact FramedEnd.as (SourceClip.framed d)
  case TCCP => exact FramedEnd.as (Timecode.framed d)
  case ECCP => exact FramedEnd.as (Edgecode.framed d)
  case TRKR => exact FramedEnd.as (TrackRef.framed d)
  case PRCL => exact FramedEnd.as (ParamClip.framed d)
  case CTRL => exact FramedEnd.as (ControlClip.framed d)
  case FILL => exact FramedEnd.as (Filler.framed d)
  case TRKG => exact absurd rfl h
  case TKFX => exact FramedEnd.as (TrackEffect.framed d)
  case PVOL => exact FramedEnd.as (PanVolumeEffect.framed d)
  case ASPI => exact FramedEnd.as (AudioSuitePluginEffect.framed d)
  case EQMB => exact FramedEnd.as (EqualizerMultiBand.framed d)
  case MASK => exact FramedEnd.as (CaptureMask.framed d)
  case STRB => exact FramedEnd.as (StrobeEffect.framed d)
  case SPED => exact FramedEnd.as (MotionEffect.framed d)
  case REPT => exact FramedEnd.as (Repeat.framed d)
  case RSET => exact FramedEnd.as (EssenceGroup.framed d)
  case TNFX => exact FramedEnd.as (TransitionEffect.framed d)
  case SLCT => exact FramedEnd.as (Selector.framed d)
  case CMPO => exact FramedEnd.as (Composition.framed d)
  case FILE => exact FramedEnd.as (FileLocator.framed d)
  case WINF => exact FramedEnd.as (FileLocator.framed d)
  case URLL => exact FramedEnd.as (URLLocator.framed d)
  case GRFX => exact FramedEnd.as (GraphicEffect.framed d)
  case SHLP => exact FramedEnd.as (ShapeList.framed d)
  case CCFX => exact FramedEnd.as (ColorCorrectionEffect.framed d)
  case FXPS => exact FramedEnd.as (EffectParamList.framed d)
  case AVUP => exact FramedEnd.as (CFUserParam.framed d)
  case PRIT => exact FramedEnd.as (ParameterItem.framed d)
  case MSML => exact FramedEnd.as (MSMLocator.framed d)
  case APOS => exact FramedEnd.as (Position.framed d)
  case ABOB => exact FramedEnd.as (BOBPosition.framed d)
  case DIDP => exact FramedEnd.as (DIDPosition.framed d)
  case MPGP => exact FramedEnd.as (MPGPosition.framed d)
  case MCBR => exact FramedEnd.as (BinRef.framed d)
  case MCMR => exact FramedEnd.as (MobRef.framed d)
  case TMBC => exact FramedEnd.as (Marker.framed d)
  case TKMN => exact FramedEnd.as (TrackerManager.framed d)
  case TKDS => exact FramedEnd.as (TrackerDataSlot.framed d)
  case TKPS => exact FramedEnd.as (TrackerParameterSlot.framed d)
  case TKDA => exact FramedEnd.as (TrackerData.framed d)
  case TKPA => exact FramedEnd.as (TrackerParameter.framed d)
  case MDES => exact FramedEnd.as (MediaDescriptor.framed d)
  case MDTP => exact FramedEnd.as (TapeDescriptor.framed d)
  case MDFM => exact FramedEnd.as (FilmDescriptor.framed d)
  case MDNG => exact FramedEnd.as (NagraDescriptor.framed d)
  case MDFL => exact FramedEnd.as (MediaFileDescriptor.framed d)
  case MULD => exact FramedEnd.as (MultiDescriptor.framed d)
  case WAVE => exact FramedEnd.as (WaveDescriptor.framed d)
  case AIFC => exact FramedEnd.as (AIFCDescriptor.framed d)
  case PCMA => exact FramedEnd.as (PCMADescriptor.framed d)
  case MPGA => exact FramedEnd.as (MPGADescriptor.framed d)
  case DIDD => exact FramedEnd.as (DIDDescriptor.framed d)
  case CDCI => exact FramedEnd.as (CDCIDescriptor.framed d)
  case MPGI => exact FramedEnd.as (MPGIDescriptor.framed d)
  case JPED => exact FramedEnd.as (JPEGDescriptor.framed d)
  case RGBA => exact FramedEnd.as (RGBADescriptor.framed d)
  case DATD => exact absurd rfl h2
  case ANCD => exact FramedEnd.as (ANCDataDescriptor.framed d)

theorem Obj.readAs_framed' (d : RCtx) (k : Cls) (h : k ≠ .URLL) : Framed k.blocks (Obj.readAs d k) := by
  by_cases h1 : k = .TRKG
  · subst h1; exact Framed.as (TrackGroup.framed d)
  · by_cases h2 : k = .DATD
    · subst h2; exact Framed.as (DataDescriptor.framed d)
    · intro bs v rest hr
      obtain ⟨p, rfl, hp⟩ := Obj.readAs_framed d k h1 h2 _ _ _ hr
      exact ⟨p ++ [3], by simp, hp.more (by cases k <;> first | exact absurd rfl h | simp [Cls.blocks]) _⟩

end Avb

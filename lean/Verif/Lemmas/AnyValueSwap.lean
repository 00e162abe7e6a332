import Verif.Lemmas.AnyValueObj

/-! Values that are stored alike can be exchanged, class by class. -/

namespace Avb

open Unset

set_option linter.unusedVariables false
set_option linter.unusedSimpArgs false

/-- With values that are stored alike, the writers do the same. -/
def Swp {α : Type} (g g' : Given) (l : List (Slot × Kind)) (w w' : Wr α) : Prop := Exchanged g g' l → w = w'

theorem Py.number_asInt {v : Py} {z : Int} (h : v.Number z) : v.asInt = .ok z := by
  rcases h with rfl | ⟨b, rfl, rfl⟩ <;> rfl

theorem Py.entries_ints {xs ys : List Py} {zs : List Int} (h : List.Forall₂ Py.Number xs zs) :
    Py.ints zs.length (xs ++ ys) = .ok zs := by
  induction h with
  | nil => cases ys <;> rfl
  | @cons x z xs zs hx _ ih =>
    show Py.ints (zs.length + 1) (x :: (xs ++ ys)) = _
    rw [Py.ints, Py.number_asInt hx, ih]
    rfl

theorem Py.entries_asInts {v : Py} {zs : List Int} (h : v.Entries zs) : v.asInts zs.length = .ok zs := by
  rcases h with ⟨xs, ys, rfl, hf⟩ | ⟨bs, cs, rfl, rfl⟩
  · exact Py.entries_ints hf
  · simp [Py.asInts]

theorem asInt_alike {v w : Py} (h : Alike .int v w) : v.asInt = w.asInt := by
  obtain ⟨z, h1, h2⟩ := h
  rw [Py.number_asInt h1, Py.number_asInt h2]

theorem asBool_alike {v w : Py} (h : Alike .bool v w) : v.asBool = w.asBool := by
  have h : v.Falsy ↔ w.Falsy := h
  rw [← Py.truth_iff, ← Py.truth_iff] at h
  unfold Py.asBool
  congr 1
  cases hv : v.truth <;> cases hw : w.truth <;> simp_all

theorem asText_alike {v w : Py} (h : Alike .text v w) : v.asText = w.asText := by
  obtain ⟨h1, h2⟩ := h
  simp [Py.asText, Py.truth_iff.2 h1, Py.truth_iff.2 h2]

theorem asName_alike {v w : Py} (h : Alike .name v w) : v.asName = w.asName := by
  obtain ⟨h1, h2⟩ := h
  simp [Py.asName, Py.truth_iff.2 h1, Py.truth_iff.2 h2]

theorem asRef_alike {v w : Py} (h : Alike .ref v w) : v.asRef = w.asRef := by
  obtain ⟨r, b, b', rfl, rfl⟩ := h
  rfl

theorem asRate_alike {v w : Py} (h : Alike .rate v w) : v.asRate = w.asRate := by
  have key : ∀ {v : Py} {z : Int}, v.Number z ∨ v = .float (.fin z) → v.asRate = .ok (.fin z) := by
    intro v z h
    rcases h with (rfl | ⟨b, rfl, rfl⟩) | rfl
    · rfl
    · cases b <;> simp [Py.asRate]
    · rfl
  obtain ⟨z, h1, h2⟩ := h
  rw [key h1, key h2]

theorem asRect_alike {v w : Py} (h : Alike .rect v w) : v.asRect = w.asRect := by
  obtain ⟨zs, hl, h1, h2⟩ := h
  have h1 := Py.entries_asInts h1
  have h2 := Py.entries_asInts h2
  rw [hl] at h1 h2
  unfold Py.asRect
  rw [h1, h2]

theorem asRgb_alike {v w : Py} (h : Alike .rgb v w) : v.asRgb = w.asRgb := by
  obtain ⟨zs, hl, h1, h2⟩ := h
  have h1 := Py.entries_asInts h1
  have h2 := Py.entries_asInts h2
  rw [hl] at h1 h2
  unfold Py.asRgb
  rw [h1, h2]

namespace Swp

variable {α β : Type} {g g' : Given}

theorem exchanged_append {l l' : List (Slot × Kind)} :
    Exchanged g g' (l ++ l') ↔ Exchanged g g' l ∧ Exchanged g g' l' := by
  constructor
  · exact fun h => ⟨fun s k hs => h s k (List.mem_append_left _ hs), fun s k hs => h s k (List.mem_append_right _ hs)⟩
  · rintro ⟨h1, h2⟩ s k hs
    rcases List.mem_append.1 hs with hs | hs
    · exact h1 s k hs
    · exact h2 s k hs

theorem plain (w : Wr α) : Swp g g' [] w w := fun _ => rfl

theorem bind {w w' : Wr α} {k k' : α → Wr β} {l l' : List (Slot × Kind)} (h : Swp g g' l w w')
    (h' : ∀ a, Swp g g' l' (k a) (k' a)) : Swp g g' (l ++ l') (w >>= k) (w' >>= k') := by
  intro hx
  obtain ⟨h1, h2⟩ := exchanged_append.1 hx
  rw [h h1, funext fun a => h' a h2]

theorem leaf {w : α → Wr Unit} {conv : Py → Except Err α} {k : Kind}
    (hk : ∀ {v v'}, Alike k v v' → conv v = conv v') (n : String) (a : α) :
    Swp g g' [(([], n), k)] (pLeaf w conv (g.val n a)) (pLeaf w conv (g'.val n a)) := by
  intro hx
  unfold Given.val
  rcases hx ([], n) k (List.mem_singleton_self _) with h | ⟨v, v', h1, h2, h3⟩
  · rw [h]
  · rw [h1, h2]
    simp only [pLeaf, hk h3]

theorem opt {w : α → Wr Unit} {conv : Py → Except Err α} {k : Kind}
    (hk : ∀ {v v'}, Alike k v v' → conv v = conv v') (n : String) (a : Option α) (x y z : Int) :
    Swp g g' [(([], n), k)] (Wr.ifHas (g.opt n a) fun v => do wU8 x; wU8 y; wU8 z; pLeaf w conv v)
      (Wr.ifHas (g'.opt n a) fun v => do wU8 x; wU8 y; wU8 z; pLeaf w conv v) := by
  intro hx
  unfold Given.opt
  rcases hx ([], n) k (List.mem_singleton_self _) with h | ⟨v, v', h1, h2, h3⟩
  · rw [h]
  · rw [h1, h2]
    simp only [Wr.ifHas, pLeaf, hk h3]

theorem at_ {w w' : Wr α} {l : List (Slot × Kind)} (list : String) (i : Nat)
    (h : Swp (g.at list i) (g'.at list i) l w w') :
    Swp g g' (l.map fun s => (((list, i) :: s.1.1, s.1.2), s.2)) w w' := by
  intro hx
  exact h fun s k hs => hx _ k (List.mem_map.2 ⟨(s, k), hs, rfl⟩)

theorem forWiFrom {list : String} {w : Given → α → Wr Unit} {f : α → List (Slot × Kind)}
    (h : ∀ g g' a, Swp g g' (f a) (w g a) (w g' a)) (xs : List α) (i : Nat) :
    Swp g g' ((xs.zipIdx i).flatMap fun p => (f p.1).map fun s => (((list, p.2) :: s.1.1, s.1.2), s.2))
      (Avb.forWiFrom i xs fun i e => w (g.at list i) e) (Avb.forWiFrom i xs fun i e => w (g'.at list i) e) := by
  induction xs generalizing i with
  | nil => exact plain _
  | cons x xs ih =>
    rw [List.zipIdx_cons, List.flatMap_cons]
    exact bind (at_ list i (h _ _ x)) fun _ => ih (i + 1)

theorem forWi {list : String} {w : Given → α → Wr Unit} {f : α → List (Slot × Kind)}
    (h : ∀ g g' a, Swp g g' (f a) (w g a) (w g' a)) (xs : List α) :
    Swp g g' (inListK list xs f) (Avb.forWi xs fun i e => w (g.at list i) e)
      (Avb.forWi xs fun i e => w (g'.at list i) e) := forWiFrom h xs 0

theorem congr {w w' : Wr α} {l l' : List (Slot × Kind)} (h : Swp g g' l w w') (e : l = l') : Swp g g' l' w w' := e ▸ h

theorem mem {w w' : Wr α} {l l' : List (Slot × Kind)} (h : Swp g g' l w w') (e : ∀ s, s ∈ l ↔ s ∈ l') :
    Swp g g' l' w w' := fun hx => h fun s k hs => hx s k ((e _).1 hs)

theorem int (bo : BO) (t : IntTy) (n : String) (a : Int) :
    Swp g g' [(([], n), .int)] (pInt bo t (g.val n a)) (pInt bo t (g'.val n a)) := leaf asInt_alike n a

theorem bool (n : String) (a : Bool) :
    Swp g g' [(([], n), .bool)] (pBool (g.val n a)) (pBool (g'.val n a)) := leaf asBool_alike n a

theorem text (bo : BO) (e : Enc) (n : String) (a : Text) :
    Swp g g' [(([], n), .text)] (pStr bo e (g.val n a)) (pStr bo e (g'.val n a)) := leaf asText_alike n a

theorem name (c : WCtx) (n : String) (a : Option Text) :
    Swp g g' [(([], n), .name)] (pName c (g.val n a)) (pName c (g'.val n a)) := leaf asName_alike n a

theorem ref (c : WCtx) (n : String) (a : Ref) :
    Swp g g' [(([], n), .ref)] (pRef c (g.val n a)) (pRef c (g'.val n a)) := leaf asRef_alike n a

theorem rate (bo : BO) (n : String) (a : Rate) :
    Swp g g' [(([], n), .rate)] (pRate bo (g.val n a)) (pRate bo (g'.val n a)) := leaf asRate_alike n a

theorem rect (bo : BO) (n : String) (a : Rect) :
    Swp g g' [(([], n), .rect)] (pRect bo (g.val n a)) (pRect bo (g'.val n a)) := leaf asRect_alike n a

theorem rgb (bo : BO) (n : String) (a : RGB) :
    Swp g g' [(([], n), .rgb)] (pRgb bo (g.val n a)) (pRgb bo (g'.val n a)) := leaf asRgb_alike n a

theorem optInt (bo : BO) (t : IntTy) (n : String) (a : Option Int) (x y z : Int) : Swp g g' [(([], n), .int)]
    (Wr.ifHas (g.opt n a) fun v => do wU8 x; wU8 y; wU8 z; pInt bo t v)
    (Wr.ifHas (g'.opt n a) fun v => do wU8 x; wU8 y; wU8 z; pInt bo t v) := opt asInt_alike n a x y z

theorem optBool (n : String) (a : Option Bool) (x y z : Int) : Swp g g' [(([], n), .bool)]
    (Wr.ifHas (g.opt n a) fun v => do wU8 x; wU8 y; wU8 z; pBool v)
    (Wr.ifHas (g'.opt n a) fun v => do wU8 x; wU8 y; wU8 z; pBool v) := opt asBool_alike n a x y z

theorem optText (bo : BO) (e : Enc) (n : String) (a : Option Text) (x y z : Int) : Swp g g' [(([], n), .text)]
    (Wr.ifHas (g.opt n a) fun v => do wU8 x; wU8 y; wU8 z; pStr bo e v)
    (Wr.ifHas (g'.opt n a) fun v => do wU8 x; wU8 y; wU8 z; pStr bo e v) := opt asText_alike n a x y z

theorem optRef (c : WCtx) (n : String) (a : Option Ref) (x y z : Int) : Swp g g' [(([], n), .ref)]
    (Wr.ifHas (g.opt n a) fun v => do wU8 x; wU8 y; wU8 z; pRef c v)
    (Wr.ifHas (g'.opt n a) fun v => do wU8 x; wU8 y; wU8 z; pRef c v) := opt asRef_alike n a x y z

end Swp

/-- One statement of a writer. -/
macro "swap_step" : tactic => `(tactic| first
  | with_reducible exact Swp.plain _
  | with_reducible exact Swp.int _ _ _ _
  | with_reducible exact Swp.bool _ _
  | with_reducible exact Swp.text _ _ _ _
  | with_reducible exact Swp.name _ _ _
  | with_reducible exact Swp.ref _ _ _
  | with_reducible exact Swp.rate _ _ _
  | with_reducible exact Swp.rect _ _ _
  | with_reducible exact Swp.rgb _ _ _
  | with_reducible exact Swp.optInt _ _ _ _ _ _ _
  | with_reducible exact Swp.optBool _ _ _ _ _
  | with_reducible exact Swp.optText _ _ _ _ _ _ _
  | with_reducible exact Swp.optRef _ _ _ _ _ _
  | with_reducible assumption
  | with_reducible apply Swp.bind
  | with_reducible intro _
  | assumption
  | exact Swp.plain _
  | apply Swp.bind)

/-- All statements of a writer; the properties are put together. -/
macro "swap_all" : tactic => `(tactic| (
  apply Swp.congr
  case h => repeat' swap_step
  case e => simp only [ownK, List.map, List.nil_append, List.cons_append, List.append_assoc, List.append_nil,
    BinItem.kinds, SiftItem.kinds, PCPProp.kinds, PCP.kinds, CPProp.kinds, CP.kinds, EffectParam.kinds,
    ASPIPluginChunk.kinds, ASPIPlugin.kinds, EqualizerBand.kinds]))

theorem Setting.write_swap (g g' : Given) (c : WCtx) (x : Setting) :
    Swp g g' (
        ownK [("name", .text), ("kind", .text), ("attr_count", .int), ("attr_type", .int),
        ("attributes", .ref)])
      (x.writeG g c) (x.writeG g' c) := by
  unfold Setting.writeG
  swap_all

theorem BinViewSetting.write_swap (g g' : Given) (c : WCtx) (x : BinViewSetting) :
    Swp g g' (
        ownK [("name", .text), ("kind", .text), ("attr_count", .int), ("attr_type", .int),
        ("attributes", .ref)])
      (x.writeG g c) (x.writeG g' c) := by
  have hp := Setting.write_swap g g' c x.toSetting
  unfold BinViewSetting.writeG
  swap_all

theorem BinItem.write_swap (g g' : Given) (c : WCtx) (b : BinItem) :
    Swp g g' (
        ownK [("mob", .ref), ("x", .int), ("y", .int), ("keyframe", .int)])
      (b.writeG g c) (b.writeG g' c) := by
  unfold BinItem.writeG
  swap_all

theorem SiftItem.write_swap (g g' : Given) (c : WCtx) (x : SiftItem) :
    Swp g g' (
        ownK [("method", .int), ("string", .text), ("column", .text)])
      (x.writeG g c) (x.writeG g' c) := by
  unfold SiftItem.writeG
  swap_all

theorem sift_swap (g g' : Given) (c : WCtx) (l : List SiftItem) :
    Swp g g' (inListK "sifted_settings" (List.range 6) fun _ => ownK SiftItem.kinds)
      (forW (List.range' 0 6) fun i => do
        let s ← Wr.nth l i
        s.writeG (g.at "sifted_settings" i) c)
      (forW (List.range' 0 6) fun i => do
        let s ← Wr.nth l i
        s.writeG (g'.at "sifted_settings" i) c) := by
  have h : ∀ xs : List Nat, Swp g g'
      (xs.flatMap fun i => (ownK SiftItem.kinds).map fun s => ((("sifted_settings", i) :: s.1.1, s.1.2), s.2))
      (forW xs fun i => do
        let s ← Wr.nth l i
        s.writeG (g.at "sifted_settings" i) c)
      (forW xs fun i => do
        let s ← Wr.nth l i
        s.writeG (g'.at "sifted_settings" i) c) := by
    intro xs
    induction xs with
    | nil => exact Swp.plain _
    | cons i xs ih =>
      rw [List.flatMap_cons]
      refine Swp.bind ?_ fun _ => ih
      exact Swp.bind (l := []) (Swp.plain _) fun s => Swp.at_ "sifted_settings" i (SiftItem.write_swap _ _ c s)
  exact Swp.congr (h _) rfl

theorem Bin.writeBody_swap (g g' : Given) (c : WCtx) (x : Bin) :
    Swp g g' (
        ownK [("view_setting", .ref), ("uid", .int)] ++
        (inListK "items" x.items fun _ => ownK BinItem.kinds) ++
        ownK [("display_mask", .int), ("display_mode", .int), ("sifted", .bool)] ++
        (inListK "sifted_settings" (List.range 6) fun _ => ownK SiftItem.kinds) ++
        ownK [("mac_font", .int), ("mac_font_size", .int), ("mac_image_scale", .int), ("home_rect", .rect),
        ("background_color", .rgb), ("forground_color", .rgb), ("ql_image_scale", .int),
        ("attributes", .ref), ("was_iconic", .bool)])
      (x.writeBodyG g c) (x.writeBodyG g' c) := by
  have hl := Swp.forWi (g := g) (g' := g') (list := "items") (fun g g' e => BinItem.write_swap g g' c e) x.items
  have hs := sift_swap g g' c x.sifted_settings
  unfold Bin.writeBodyG
  swap_all

theorem Bin.write_swap (g g' : Given) (c : WCtx) (x : Bin) :
    Swp g g' (
        ownK [("view_setting", .ref), ("uid", .int)] ++
        (inListK "items" x.items fun _ => ownK BinItem.kinds) ++
        ownK [("display_mask", .int), ("display_mode", .int), ("sifted", .bool)] ++
        (inListK "sifted_settings" (List.range 6) fun _ => ownK SiftItem.kinds) ++
        ownK [("mac_font", .int), ("mac_font_size", .int), ("mac_image_scale", .int), ("home_rect", .rect),
        ("background_color", .rgb), ("forground_color", .rgb), ("ql_image_scale", .int),
        ("attributes", .ref), ("was_iconic", .bool)])
      (x.writeG g c) (x.writeG g' c) := by
  have hq := Bin.writeBody_swap g g' c x
  unfold Bin.writeG
  swap_all

theorem BinFirst.write_swap (g g' : Given) (c : WCtx) (x : BinFirst) :
    Swp g g' (
        ownK [("view_setting", .ref), ("uid", .int)] ++
        (inListK "items" x.toBin.items fun _ => ownK BinItem.kinds) ++
        ownK [("display_mask", .int), ("display_mode", .int), ("sifted", .bool)] ++
        (inListK "sifted_settings" (List.range 6) fun _ => ownK SiftItem.kinds) ++
        ownK [("mac_font", .int), ("mac_font_size", .int), ("mac_image_scale", .int), ("home_rect", .rect),
        ("background_color", .rgb), ("forground_color", .rgb), ("ql_image_scale", .int),
        ("attributes", .ref), ("was_iconic", .bool), ("unknown_s32", .int)])
      (x.writeG g c) (x.writeG g' c) := by
  have hp := Bin.writeBody_swap g g' c x.toBin
  unfold BinFirst.writeG
  swap_all

theorem Component.write_swap (g g' : Given) (c : WCtx) (x : Component) :
    Swp g g' (
        ownK [("left_bob", .ref), ("right_bob", .ref), ("media_kind_id", .int), ("edit_rate", .rate),
        ("name", .name), ("effect_id", .name), ("attributes", .ref), ("session_attrs", .ref),
        ("precomputed", .ref), ("param_list", .ref)])
      (x.writeG g c) (x.writeG g' c) := by
  unfold Component.writeG
  swap_all

theorem Sequence.write_swap (g g' : Given) (c : WCtx) (x : Sequence) :
    Swp g g' (
        ownK [("left_bob", .ref), ("right_bob", .ref), ("media_kind_id", .int), ("edit_rate", .rate),
        ("name", .name), ("effect_id", .name), ("attributes", .ref), ("session_attrs", .ref),
        ("precomputed", .ref), ("param_list", .ref)])
      (x.writeG g c) (x.writeG g' c) := by
  have hp := Component.write_swap g g' c x.toComponent
  unfold Sequence.writeG
  swap_all

theorem Clip.write_swap (g g' : Given) (c : WCtx) (x : Clip) :
    Swp g g' (
        ownK [("left_bob", .ref), ("right_bob", .ref), ("media_kind_id", .int), ("edit_rate", .rate),
        ("name", .name), ("effect_id", .name), ("attributes", .ref), ("session_attrs", .ref),
        ("precomputed", .ref), ("param_list", .ref), ("length", .int)])
      (x.writeG g c) (x.writeG g' c) := by
  have hp := Component.write_swap g g' c x.toComponent
  unfold Clip.writeG
  swap_all

theorem SourceClip.write_swap (g g' : Given) (c : WCtx) (x : SourceClip) :
    Swp g g' (
        ownK [("left_bob", .ref), ("right_bob", .ref), ("media_kind_id", .int), ("edit_rate", .rate),
        ("name", .name), ("effect_id", .name), ("attributes", .ref), ("session_attrs", .ref),
        ("precomputed", .ref), ("param_list", .ref), ("length", .int), ("track_id", .int),
        ("start_time", .int)])
      (x.writeG g c) (x.writeG g' c) := by
  have hp := Clip.write_swap g g' c x.toClip
  unfold SourceClip.writeG
  swap_all

theorem Timecode.write_swap (g g' : Given) (c : WCtx) (x : Timecode) :
    Swp g g' (
        ownK [("left_bob", .ref), ("right_bob", .ref), ("media_kind_id", .int), ("edit_rate", .rate),
        ("name", .name), ("effect_id", .name), ("attributes", .ref), ("session_attrs", .ref),
        ("precomputed", .ref), ("param_list", .ref), ("length", .int), ("flags", .int), ("fps", .int),
        ("start", .int)])
      (x.writeG g c) (x.writeG g' c) := by
  have hp := Clip.write_swap g g' c x.toClip
  unfold Timecode.writeG
  swap_all

theorem Edgecode.write_swap (g g' : Given) (c : WCtx) (x : Edgecode) :
    Swp g g' (
        ownK [("left_bob", .ref), ("right_bob", .ref), ("media_kind_id", .int), ("edit_rate", .rate),
        ("name", .name), ("effect_id", .name), ("attributes", .ref), ("session_attrs", .ref),
        ("precomputed", .ref), ("param_list", .ref), ("length", .int), ("film_kind", .int),
        ("code_format", .int), ("base_perf", .int), ("start_ec", .int)])
      (x.writeG g c) (x.writeG g' c) := by
  have hp := Clip.write_swap g g' c x.toClip
  unfold Edgecode.writeG
  swap_all

theorem TrackRef.write_swap (g g' : Given) (c : WCtx) (x : TrackRef) :
    Swp g g' (
        ownK [("left_bob", .ref), ("right_bob", .ref), ("media_kind_id", .int), ("edit_rate", .rate),
        ("name", .name), ("effect_id", .name), ("attributes", .ref), ("session_attrs", .ref),
        ("precomputed", .ref), ("param_list", .ref), ("length", .int), ("relative_scope", .int),
        ("relative_track", .int)])
      (x.writeG g c) (x.writeG g' c) := by
  have hp := Clip.write_swap g g' c x.toClip
  unfold TrackRef.writeG
  swap_all

theorem PCPProp.writeValue_swap (g g' : Given) (c : WCtx) (x : PCPProp) :
    Swp g g' (
        ([] : List (Slot × Kind)))
      (x.writeValueG g c) (x.writeValueG g' c) := by
  unfold PCPProp.writeValueG
  swap_all

theorem PCPProp.write_swap (g g' : Given) (c : WCtx) (x : PCPProp) :
    Swp g g' (
        ownK [("code", .int)])
      (x.writeG g c) (x.writeG g' c) := by
  have hq := PCPProp.writeValue_swap g g' c x
  unfold PCPProp.writeG
  swap_all

theorem PCP.writeValue_swap (g g' : Given) (c : WCtx) (value_type : Int) (x : PCP) :
    Swp g g' (
        ([] : List (Slot × Kind)))
      (x.writeValueG g c value_type) (x.writeValueG g' c value_type) := by
  unfold PCP.writeValueG
  swap_all

theorem PCP.write_swap (g g' : Given) (c : WCtx) (value_type : Int) (x : PCP) :
    Swp g g' (
        ownK [("timescale", .int)] ++
        (inListK "pp" x.pp fun _ => ownK PCPProp.kinds))
      (x.writeG g c value_type) (x.writeG g' c value_type) := by
  have hq := PCP.writeValue_swap g g' c value_type x
  have hl := Swp.forWi (g := g) (g' := g') (list := "pp") (fun g g' e => PCPProp.write_swap g g' c e) x.pp
  unfold PCP.writeG
  swap_all

theorem ParamClip.write_swap (g g' : Given) (c : WCtx) (x : ParamClip) :
    Swp g g' (
        ownK [("left_bob", .ref), ("right_bob", .ref), ("media_kind_id", .int), ("edit_rate", .rate),
        ("name", .name), ("effect_id", .name), ("attributes", .ref), ("session_attrs", .ref),
        ("precomputed", .ref), ("param_list", .ref), ("length", .int), ("interp_kind", .int)] ++
        (inListK "control_points" x.control_points fun p => ownK PCP.kinds ++ inListK "pp" p.pp fun _ => ownK PCPProp.kinds) ++
        ownK [("extrap_kind", .int), ("fields", .int)])
      (x.writeG g c) (x.writeG g' c) := by
  have hp := Clip.write_swap g g' c x.toClip
  have hl := Swp.forWi (g := g) (g' := g') (list := "control_points") (fun g g' e => PCP.write_swap g g' c x.value_type e) x.control_points
  unfold ParamClip.writeG
  swap_all

theorem CPProp.write_swap (g g' : Given) (c : WCtx) (x : CPProp) :
    Swp g g' (
        ownK [("code", .int)])
      (x.writeG g c) (x.writeG g' c) := by
  unfold CPProp.writeG
  swap_all

theorem CP.write_swap (g g' : Given) (c : WCtx) (x : CP) :
    Swp g g' (
        ownK [("time_scale", .int)] ++
        (inListK "pp" x.pp fun _ => ownK CPProp.kinds))
      (x.writeG g c) (x.writeG g' c) := by
  have hl := Swp.forWi (g := g) (g' := g') (list := "pp") (fun g g' e => CPProp.write_swap g g' c e) x.pp
  unfold CP.writeG
  swap_all

theorem ControlClip.write_swap (g g' : Given) (c : WCtx) (x : ControlClip) :
    Swp g g' (
        ownK [("left_bob", .ref), ("right_bob", .ref), ("media_kind_id", .int), ("edit_rate", .rate),
        ("name", .name), ("effect_id", .name), ("attributes", .ref), ("session_attrs", .ref),
        ("precomputed", .ref), ("param_list", .ref), ("length", .int), ("interp_kind", .int)] ++
        (inListK "control_points" x.control_points fun p => ownK CP.kinds ++ inListK "pp" p.pp fun _ => ownK CPProp.kinds))
      (x.writeG g c) (x.writeG g' c) := by
  have hp := Clip.write_swap g g' c x.toClip
  have hl := Swp.forWi (g := g) (g' := g') (list := "control_points") (fun g g' e => CP.write_swap g g' c e) x.control_points
  unfold ControlClip.writeG
  swap_all

theorem Filler.write_swap (g g' : Given) (c : WCtx) (x : Filler) :
    Swp g g' (
        ownK [("left_bob", .ref), ("right_bob", .ref), ("media_kind_id", .int), ("edit_rate", .rate),
        ("name", .name), ("effect_id", .name), ("attributes", .ref), ("session_attrs", .ref),
        ("precomputed", .ref), ("param_list", .ref), ("length", .int)])
      (x.writeG g c) (x.writeG g' c) := by
  have hp := Clip.write_swap g g' c x.toClip
  unfold Filler.writeG
  swap_all

theorem MediaDescriptor.writeBody_swap (g g' : Given) (c : WCtx) (x : MediaDescriptor) :
    Swp g g' (
        ownK [("mob_kind", .int), ("locator", .ref), ("intermediate", .bool), ("physical_media", .ref),
        ("attributes", .ref)])
      (x.writeBodyG g c) (x.writeBodyG g' c) := by
  unfold MediaDescriptor.writeBodyG
  swap_all

theorem MediaDescriptor.write_swap (g g' : Given) (c : WCtx) (x : MediaDescriptor) :
    Swp g g' (
        ownK [("mob_kind", .int), ("locator", .ref), ("intermediate", .bool), ("physical_media", .ref),
        ("attributes", .ref)])
      (x.writeG g c) (x.writeG g' c) := by
  have hq := MediaDescriptor.writeBody_swap g g' c x
  unfold MediaDescriptor.writeG
  swap_all

theorem TapeDescriptor.write_swap (g g' : Given) (c : WCtx) (x : TapeDescriptor) :
    Swp g g' (
        ownK [("mob_kind", .int), ("locator", .ref), ("intermediate", .bool), ("physical_media", .ref),
        ("attributes", .ref), ("cframe", .int)])
      (x.writeG g c) (x.writeG g' c) := by
  have hp := MediaDescriptor.writeBody_swap g g' c x.toMediaDescriptor
  unfold TapeDescriptor.writeG
  swap_all

theorem FilmDescriptor.write_swap (g g' : Given) (c : WCtx) (x : FilmDescriptor) :
    Swp g g' (
        ownK [("mob_kind", .int), ("locator", .ref), ("intermediate", .bool), ("physical_media", .ref),
        ("attributes", .ref)])
      (x.writeG g c) (x.writeG g' c) := by
  have hp := MediaDescriptor.writeBody_swap g g' c x.toMediaDescriptor
  unfold FilmDescriptor.writeG
  swap_all

theorem NagraDescriptor.write_swap (g g' : Given) (c : WCtx) (x : NagraDescriptor) :
    Swp g g' (
        ownK [("mob_kind", .int), ("locator", .ref), ("intermediate", .bool), ("physical_media", .ref),
        ("attributes", .ref)])
      (x.writeG g c) (x.writeG g' c) := by
  have hp := MediaDescriptor.writeBody_swap g g' c x.toMediaDescriptor
  unfold NagraDescriptor.writeG
  swap_all

theorem MediaFileDescriptor.writeBody_swap (g g' : Given) (c : WCtx) (x : MediaFileDescriptor) :
    Swp g g' (
        ownK [("mob_kind", .int), ("locator", .ref), ("intermediate", .bool), ("physical_media", .ref),
        ("attributes", .ref), ("edit_rate", .rate), ("length", .int), ("is_omfi", .int),
        ("data_offset", .int)])
      (x.writeBodyG g c) (x.writeBodyG g' c) := by
  have hp := MediaDescriptor.writeBody_swap g g' c x.toMediaDescriptor
  unfold MediaFileDescriptor.writeBodyG
  swap_all

theorem MediaFileDescriptor.write_swap (g g' : Given) (c : WCtx) (x : MediaFileDescriptor) :
    Swp g g' (
        ownK [("mob_kind", .int), ("locator", .ref), ("intermediate", .bool), ("physical_media", .ref),
        ("attributes", .ref), ("edit_rate", .rate), ("length", .int), ("is_omfi", .int),
        ("data_offset", .int)])
      (x.writeG g c) (x.writeG g' c) := by
  have hq := MediaFileDescriptor.writeBody_swap g g' c x
  unfold MediaFileDescriptor.writeG
  swap_all

theorem MultiDescriptor.write_swap (g g' : Given) (c : WCtx) (x : MultiDescriptor) :
    Swp g g' (
        ownK [("mob_kind", .int), ("locator", .ref), ("intermediate", .bool), ("physical_media", .ref),
        ("attributes", .ref), ("edit_rate", .rate), ("length", .int), ("is_omfi", .int),
        ("data_offset", .int)])
      (x.writeG g c) (x.writeG g' c) := by
  have hp := MediaFileDescriptor.writeBody_swap g g' c x.toMediaFileDescriptor
  unfold MultiDescriptor.writeG
  swap_all

theorem WaveDescriptor.write_swap (g g' : Given) (c : WCtx) (x : WaveDescriptor) :
    Swp g g' (
        ownK [("mob_kind", .int), ("locator", .ref), ("intermediate", .bool), ("physical_media", .ref),
        ("attributes", .ref), ("edit_rate", .rate), ("length", .int), ("is_omfi", .int),
        ("data_offset", .int)])
      (x.writeG g c) (x.writeG g' c) := by
  have hp := MediaFileDescriptor.writeBody_swap g g' c x.toMediaFileDescriptor
  unfold WaveDescriptor.writeG
  swap_all

theorem AIFCDescriptor.write_swap (g g' : Given) (c : WCtx) (x : AIFCDescriptor) :
    Swp g g' (
        ownK [("mob_kind", .int), ("locator", .ref), ("intermediate", .bool), ("physical_media", .ref),
        ("attributes", .ref), ("edit_rate", .rate), ("length", .int), ("is_omfi", .int),
        ("data_offset", .int), ("data_pos", .int)])
      (x.writeG g c) (x.writeG g' c) := by
  have hp := MediaFileDescriptor.writeBody_swap g g' c x.toMediaFileDescriptor
  unfold AIFCDescriptor.writeG
  swap_all

theorem PCMADescriptor.write_swap (g g' : Given) (c : WCtx) (x : PCMADescriptor) :
    Swp g g' (
        ownK [("mob_kind", .int), ("locator", .ref), ("intermediate", .bool), ("physical_media", .ref),
        ("attributes", .ref), ("edit_rate", .rate), ("length", .int), ("is_omfi", .int),
        ("data_offset", .int), ("channels", .int), ("quantization_bits", .int),
        ("sample_rate", .rate), ("locked", .bool), ("audio_ref_level", .int),
        ("electro_spatial_formulation", .int), ("dial_norm", .int), ("coding_format", .int),
        ("block_align", .int), ("sequence_offset", .int), ("average_bps", .int),
        ("has_peak_envelope_data", .bool), ("peak_envelope_version", .int),
        ("peak_envelope_format", .int), ("points_per_peak_value", .int),
        ("peak_envelope_block_size", .int), ("peak_channel_count", .int), ("peak_frame_count", .int),
        ("peak_of_peaks_offset", .int), ("peak_envelope_timestamp", .int), ("ebu_timestamp", .int),
        ("timecode_framerate", .text)])
      (x.writeG g c) (x.writeG g' c) := by
  have hp := MediaFileDescriptor.writeBody_swap g g' c x.toMediaFileDescriptor
  unfold PCMADescriptor.writeG
  swap_all

theorem MPGADescriptor.write_swap (g g' : Given) (c : WCtx) (x : MPGADescriptor) :
    Swp g g' (
        ownK [("mob_kind", .int), ("locator", .ref), ("intermediate", .bool), ("physical_media", .ref),
        ("attributes", .ref), ("edit_rate", .rate), ("length", .int), ("is_omfi", .int),
        ("data_offset", .int), ("channels", .int), ("quantization_bits", .int),
        ("sample_rate", .rate), ("locked", .bool), ("audio_ref_level", .int),
        ("electro_spatial_formulation", .int), ("dial_norm", .int), ("coding_format", .int),
        ("bit_rate", .int), ("sub_frame_alignment", .int), ("origin", .int)])
      (x.writeG g c) (x.writeG g' c) := by
  have hp := MediaFileDescriptor.writeBody_swap g g' c x.toMediaFileDescriptor
  unfold MPGADescriptor.writeG
  swap_all

theorem DIDDescriptor.writeBody_swap (g g' : Given) (c : WCtx) (x : DIDDescriptor) :
    Swp g g' (
        ownK [("mob_kind", .int), ("locator", .ref), ("intermediate", .bool), ("physical_media", .ref),
        ("attributes", .ref), ("edit_rate", .rate), ("length", .int), ("is_omfi", .int),
        ("data_offset", .int), ("stored_height", .int), ("stored_width", .int),
        ("sampled_height", .int), ("sampled_width", .int), ("sampled_x_offset", .int),
        ("sampled_y_offset", .int), ("display_height", .int), ("display_width", .int),
        ("display_x_offset", .int), ("display_y_offset", .int), ("frame_layout", .int),
        ("alpha_transparency", .int), ("uniformness", .bool), ("did_image_size", .int),
        ("next_did_desc", .ref), ("resolution_id", .int), ("image_alignment_factor", .int),
        ("frame_index_byte_order", .int), ("frame_sample_size", .int), ("first_frame_offset", .int),
        ("offset_to_rle_frame_index", .int), ("frame_start_offset", .int),
        ("essence_element_size_kind", .int), ("frame_checked_with_mapper", .bool)])
      (x.writeBodyG g c) (x.writeBodyG g' c) := by
  have hp := MediaFileDescriptor.writeBody_swap g g' c x.toMediaFileDescriptor
  unfold DIDDescriptor.writeBodyG
  swap_all

theorem DIDDescriptor.write_swap (g g' : Given) (c : WCtx) (x : DIDDescriptor) :
    Swp g g' (
        ownK [("mob_kind", .int), ("locator", .ref), ("intermediate", .bool), ("physical_media", .ref),
        ("attributes", .ref), ("edit_rate", .rate), ("length", .int), ("is_omfi", .int),
        ("data_offset", .int), ("stored_height", .int), ("stored_width", .int),
        ("sampled_height", .int), ("sampled_width", .int), ("sampled_x_offset", .int),
        ("sampled_y_offset", .int), ("display_height", .int), ("display_width", .int),
        ("display_x_offset", .int), ("display_y_offset", .int), ("frame_layout", .int),
        ("alpha_transparency", .int), ("uniformness", .bool), ("did_image_size", .int),
        ("next_did_desc", .ref), ("resolution_id", .int), ("image_alignment_factor", .int),
        ("frame_index_byte_order", .int), ("frame_sample_size", .int), ("first_frame_offset", .int),
        ("offset_to_rle_frame_index", .int), ("frame_start_offset", .int),
        ("essence_element_size_kind", .int), ("frame_checked_with_mapper", .bool)])
      (x.writeG g c) (x.writeG g' c) := by
  have hq := DIDDescriptor.writeBody_swap g g' c x
  unfold DIDDescriptor.writeG
  swap_all

theorem CDCIDescriptor.writeBody_swap (g g' : Given) (c : WCtx) (x : CDCIDescriptor) :
    Swp g g' (
        ownK [("mob_kind", .int), ("locator", .ref), ("intermediate", .bool), ("physical_media", .ref),
        ("attributes", .ref), ("edit_rate", .rate), ("length", .int), ("is_omfi", .int),
        ("data_offset", .int), ("stored_height", .int), ("stored_width", .int),
        ("sampled_height", .int), ("sampled_width", .int), ("sampled_x_offset", .int),
        ("sampled_y_offset", .int), ("display_height", .int), ("display_width", .int),
        ("display_x_offset", .int), ("display_y_offset", .int), ("frame_layout", .int),
        ("alpha_transparency", .int), ("uniformness", .bool), ("did_image_size", .int),
        ("next_did_desc", .ref), ("resolution_id", .int), ("image_alignment_factor", .int),
        ("frame_index_byte_order", .int), ("frame_sample_size", .int), ("first_frame_offset", .int),
        ("offset_to_rle_frame_index", .int), ("frame_start_offset", .int),
        ("essence_element_size_kind", .int), ("frame_checked_with_mapper", .bool),
        ("horizontal_subsampling", .int), ("vertical_subsampling", .int), ("component_width", .int),
        ("color_sitting", .int), ("black_ref_level", .int), ("white_ref_level", .int),
        ("color_range", .int), ("frame_index_offset", .int), ("alpha_sampled_width", .int),
        ("ignore_bw", .int)])
      (x.writeBodyG g c) (x.writeBodyG g' c) := by
  have hp := DIDDescriptor.writeBody_swap g g' c x.toDIDDescriptor
  unfold CDCIDescriptor.writeBodyG
  swap_all

theorem CDCIDescriptor.write_swap (g g' : Given) (c : WCtx) (x : CDCIDescriptor) :
    Swp g g' (
        ownK [("mob_kind", .int), ("locator", .ref), ("intermediate", .bool), ("physical_media", .ref),
        ("attributes", .ref), ("edit_rate", .rate), ("length", .int), ("is_omfi", .int),
        ("data_offset", .int), ("stored_height", .int), ("stored_width", .int),
        ("sampled_height", .int), ("sampled_width", .int), ("sampled_x_offset", .int),
        ("sampled_y_offset", .int), ("display_height", .int), ("display_width", .int),
        ("display_x_offset", .int), ("display_y_offset", .int), ("frame_layout", .int),
        ("alpha_transparency", .int), ("uniformness", .bool), ("did_image_size", .int),
        ("next_did_desc", .ref), ("resolution_id", .int), ("image_alignment_factor", .int),
        ("frame_index_byte_order", .int), ("frame_sample_size", .int), ("first_frame_offset", .int),
        ("offset_to_rle_frame_index", .int), ("frame_start_offset", .int),
        ("essence_element_size_kind", .int), ("frame_checked_with_mapper", .bool),
        ("horizontal_subsampling", .int), ("vertical_subsampling", .int), ("component_width", .int),
        ("color_sitting", .int), ("black_ref_level", .int), ("white_ref_level", .int),
        ("color_range", .int), ("frame_index_offset", .int), ("alpha_sampled_width", .int),
        ("ignore_bw", .int)])
      (x.writeG g c) (x.writeG g' c) := by
  have hq := CDCIDescriptor.writeBody_swap g g' c x
  unfold CDCIDescriptor.writeG
  swap_all

theorem MPGIDescriptor.write_swap (g g' : Given) (c : WCtx) (x : MPGIDescriptor) :
    Swp g g' (
        ownK [("mob_kind", .int), ("locator", .ref), ("intermediate", .bool), ("physical_media", .ref),
        ("attributes", .ref), ("edit_rate", .rate), ("length", .int), ("is_omfi", .int),
        ("data_offset", .int), ("stored_height", .int), ("stored_width", .int),
        ("sampled_height", .int), ("sampled_width", .int), ("sampled_x_offset", .int),
        ("sampled_y_offset", .int), ("display_height", .int), ("display_width", .int),
        ("display_x_offset", .int), ("display_y_offset", .int), ("frame_layout", .int),
        ("alpha_transparency", .int), ("uniformness", .bool), ("did_image_size", .int),
        ("next_did_desc", .ref), ("resolution_id", .int), ("image_alignment_factor", .int),
        ("frame_index_byte_order", .int), ("frame_sample_size", .int), ("first_frame_offset", .int),
        ("offset_to_rle_frame_index", .int), ("frame_start_offset", .int),
        ("essence_element_size_kind", .int), ("frame_checked_with_mapper", .bool),
        ("horizontal_subsampling", .int), ("vertical_subsampling", .int), ("component_width", .int),
        ("color_sitting", .int), ("black_ref_level", .int), ("white_ref_level", .int),
        ("color_range", .int), ("frame_index_offset", .int), ("alpha_sampled_width", .int),
        ("ignore_bw", .int), ("mpeg_version", .int), ("profile", .int), ("gop_structure", .int),
        ("stream_type", .int), ("random_access", .bool), ("leading_discard", .bool),
        ("trailing_discard", .bool), ("min_gop_length", .int), ("max_gop_length", .int)])
      (x.writeG g c) (x.writeG g' c) := by
  have hp := CDCIDescriptor.writeBody_swap g g' c x.toCDCIDescriptor
  unfold MPGIDescriptor.writeG
  swap_all

theorem JPEGDescriptor.write_swap (g g' : Given) (c : WCtx) (x : JPEGDescriptor) :
    Swp g g' (
        ownK [("mob_kind", .int), ("locator", .ref), ("intermediate", .bool), ("physical_media", .ref),
        ("attributes", .ref), ("edit_rate", .rate), ("length", .int), ("is_omfi", .int),
        ("data_offset", .int), ("stored_height", .int), ("stored_width", .int),
        ("sampled_height", .int), ("sampled_width", .int), ("sampled_x_offset", .int),
        ("sampled_y_offset", .int), ("display_height", .int), ("display_width", .int),
        ("display_x_offset", .int), ("display_y_offset", .int), ("frame_layout", .int),
        ("alpha_transparency", .int), ("uniformness", .bool), ("did_image_size", .int),
        ("next_did_desc", .ref), ("resolution_id", .int), ("image_alignment_factor", .int),
        ("frame_index_byte_order", .int), ("frame_sample_size", .int), ("first_frame_offset", .int),
        ("offset_to_rle_frame_index", .int), ("frame_start_offset", .int),
        ("essence_element_size_kind", .int), ("frame_checked_with_mapper", .bool),
        ("horizontal_subsampling", .int), ("vertical_subsampling", .int), ("component_width", .int),
        ("color_sitting", .int), ("black_ref_level", .int), ("white_ref_level", .int),
        ("color_range", .int), ("frame_index_offset", .int), ("alpha_sampled_width", .int),
        ("ignore_bw", .int), ("jpeg_table_id", .int), ("jpeg_frame_index_offset", .int),
        ("image_start_align", .int)])
      (x.writeG g c) (x.writeG g' c) := by
  have hp := CDCIDescriptor.writeBody_swap g g' c x.toCDCIDescriptor
  unfold JPEGDescriptor.writeG
  swap_all

theorem RGBADescriptor.write_swap (g g' : Given) (c : WCtx) (x : RGBADescriptor) :
    Swp g g' (
        ownK [("mob_kind", .int), ("locator", .ref), ("intermediate", .bool), ("physical_media", .ref),
        ("attributes", .ref), ("edit_rate", .rate), ("length", .int), ("is_omfi", .int),
        ("data_offset", .int), ("stored_height", .int), ("stored_width", .int),
        ("sampled_height", .int), ("sampled_width", .int), ("sampled_x_offset", .int),
        ("sampled_y_offset", .int), ("display_height", .int), ("display_width", .int),
        ("display_x_offset", .int), ("display_y_offset", .int), ("frame_layout", .int),
        ("alpha_transparency", .int), ("uniformness", .bool), ("did_image_size", .int),
        ("next_did_desc", .ref), ("resolution_id", .int), ("image_alignment_factor", .int),
        ("frame_index_byte_order", .int), ("frame_sample_size", .int), ("first_frame_offset", .int),
        ("offset_to_rle_frame_index", .int), ("frame_start_offset", .int),
        ("essence_element_size_kind", .int), ("frame_checked_with_mapper", .bool),
        ("frame_index_offset", .int)])
      (x.writeG g c) (x.writeG g' c) := by
  have hp := DIDDescriptor.writeBody_swap g g' c x.toDIDDescriptor
  unfold RGBADescriptor.writeG
  swap_all

theorem DataDescriptor.write_swap (g g' : Given) (c : WCtx) (x : DataDescriptor) :
    Swp g g' (
        ownK [("mob_kind", .int), ("locator", .ref), ("intermediate", .bool), ("physical_media", .ref),
        ("attributes", .ref), ("edit_rate", .rate), ("length", .int), ("is_omfi", .int),
        ("data_offset", .int), ("is_offset_to_frame_indexes_valid", .bool),
        ("offset_to_frame_indexes", .int), ("first_frame_offset", .int), ("min_sample_size", .int),
        ("max_sample_size", .int)])
      (x.writeG g c) (x.writeG g' c) := by
  have hp := MediaFileDescriptor.writeBody_swap g g' c x.toMediaFileDescriptor
  unfold DataDescriptor.writeG
  swap_all

theorem ANCDataDescriptor.write_swap (g g' : Given) (c : WCtx) (x : ANCDataDescriptor) :
    Swp g g' (
        ownK [("mob_kind", .int), ("locator", .ref), ("intermediate", .bool), ("physical_media", .ref),
        ("attributes", .ref), ("edit_rate", .rate), ("length", .int), ("is_omfi", .int),
        ("data_offset", .int), ("is_offset_to_frame_indexes_valid", .bool),
        ("offset_to_frame_indexes", .int), ("first_frame_offset", .int), ("min_sample_size", .int),
        ("max_sample_size", .int), ("manifest_element_count", .int)])
      (x.writeG g c) (x.writeG g' c) := by
  have hp := DataDescriptor.write_swap g g' c x.toDataDescriptor
  unfold ANCDataDescriptor.writeG
  swap_all

theorem FileLocator.write_swap (g g' : Given) (c : WCtx) (x : FileLocator) :
    Swp g g' (
        ownK [("path", .text), ("path_posix", .text), ("path_utf8", .text), ("path2_utf8", .text)])
      (x.writeG g c) (x.writeG g' c) := by
  unfold FileLocator.writeG
  swap_all

theorem GraphicEffect.write_swap (g g' : Given) (c : WCtx) (x : GraphicEffect) :
    Swp g g' (
        ([] : List (Slot × Kind)))
      (x.writeG g c) (x.writeG g' c) := by
  unfold GraphicEffect.writeG
  swap_all

theorem ShapeList.write_swap (g g' : Given) (c : WCtx) (x : ShapeList) :
    Swp g g' (
        ([] : List (Slot × Kind)))
      (x.writeG g c) (x.writeG g' c) := by
  unfold ShapeList.writeG
  swap_all

theorem ColorCorrectionEffect.write_swap (g g' : Given) (c : WCtx) (x : ColorCorrectionEffect) :
    Swp g g' (
        ([] : List (Slot × Kind)))
      (x.writeG g c) (x.writeG g' c) := by
  unfold ColorCorrectionEffect.writeG
  swap_all

theorem EffectParam.write_swap (g g' : Given) (c : WCtx) (p : EffectParam) :
    Swp g g' (
        ownK [("percent_time", .int), ("level", .int), ("pos_x", .int), ("floor_x", .int), ("ceil_x", .int),
        ("pos_y", .int), ("floor_y", .int), ("ceil_y", .int), ("scale_x", .int), ("scale_y", .int),
        ("crop_left", .int), ("crop_right", .int), ("crop_top", .int), ("crop_bottom", .int),
        ("box_xscale", .bool), ("box_yscale", .bool), ("box_xpos", .bool), ("box_ypos", .bool),
        ("border_width", .int), ("border_soft", .int), ("splill_gain2", .int), ("splill_gain", .int),
        ("splill_soft2", .int), ("splill_soft", .int), ("enable_key_flags", .int),
        ("selected", .bool)])
      (p.writeG g c) (p.writeG g' c) := by
  unfold EffectParam.writeG
  swap_all

theorem EffectParamList.write_swap (g g' : Given) (c : WCtx) (x : EffectParamList) :
    Swp g g' (
        ownK [("orig_length", .int), ("window_offset", .int), ("keyframe_size", .int)] ++
        (inListK "parameters" x.parameters fun _ => ownK EffectParam.kinds))
      (x.writeG g c) (x.writeG g' c) := by
  have hl := Swp.forWi (g := g) (g' := g') (list := "parameters") (fun g g' e => EffectParam.write_swap g g' c e) x.parameters
  unfold EffectParamList.writeG
  swap_all

theorem CFUserParam.write_swap (g g' : Given) (c : WCtx) (x : CFUserParam) :
    Swp g g' (
        ([] : List (Slot × Kind)))
      (x.writeG g c) (x.writeG g' c) := by
  unfold CFUserParam.writeG
  swap_all

theorem ParameterItem.writeValue_swap (g g' : Given) (c : WCtx) (x : ParameterItem) :
    Swp g g' (
        ([] : List (Slot × Kind)))
      (x.writeValueG g c) (x.writeValueG g' c) := by
  unfold ParameterItem.writeValueG
  swap_all

theorem ParameterItem.write_swap (g g' : Given) (c : WCtx) (x : ParameterItem) :
    Swp g g' (
        ownK [("enable", .bool), ("control_track", .ref), ("contribs_to_sig", .bool)])
      (x.writeG g c) (x.writeG g' c) := by
  have hq := ParameterItem.writeValue_swap g g' c x
  unfold ParameterItem.writeG
  swap_all

theorem MSMLocator.write_swap (g g' : Given) (c : WCtx) (x : MSMLocator) :
    Swp g g' (
        ownK [("last_known_volume", .text), ("domain_type", .int), ("last_known_volume_utf8", .text)])
      (x.writeG g c) (x.writeG g' c) := by
  unfold MSMLocator.writeG
  swap_all

theorem Position.writeBody_swap (g g' : Given) (c : WCtx) (x : Position) :
    Swp g g' (
        ([] : List (Slot × Kind)))
      (x.writeBodyG g c) (x.writeBodyG g' c) := by
  unfold Position.writeBodyG
  swap_all

theorem Position.write_swap (g g' : Given) (c : WCtx) (x : Position) :
    Swp g g' (
        ([] : List (Slot × Kind)))
      (x.writeG g c) (x.writeG g' c) := by
  have hq := Position.writeBody_swap g g' c x
  unfold Position.writeG
  swap_all

theorem BOBPosition.writeBody_swap (g g' : Given) (c : WCtx) (x : BOBPosition) :
    Swp g g' (
        ownK [("sample_num", .int), ("length", .int), ("track_type", .int), ("track_index", .int)])
      (x.writeBodyG g c) (x.writeBodyG g' c) := by
  have hp := Position.writeBody_swap g g' c x.toPosition
  unfold BOBPosition.writeBodyG
  swap_all

theorem BOBPosition.write_swap (g g' : Given) (c : WCtx) (x : BOBPosition) :
    Swp g g' (
        ownK [("sample_num", .int), ("length", .int), ("track_type", .int), ("track_index", .int)])
      (x.writeG g c) (x.writeG g' c) := by
  have hq := BOBPosition.writeBody_swap g g' c x
  unfold BOBPosition.writeG
  swap_all

theorem DIDPosition.writeBody_swap (g g' : Given) (c : WCtx) (x : DIDPosition) :
    Swp g g' (
        ownK [("sample_num", .int), ("length", .int), ("track_type", .int), ("track_index", .int),
        ("strip", .int), ("offset", .int), ("byte_length", .int), ("spos_invalid", .bool)])
      (x.writeBodyG g c) (x.writeBodyG g' c) := by
  have hp := BOBPosition.writeBody_swap g g' c x.toBOBPosition
  unfold DIDPosition.writeBodyG
  swap_all

theorem DIDPosition.write_swap (g g' : Given) (c : WCtx) (x : DIDPosition) :
    Swp g g' (
        ownK [("sample_num", .int), ("length", .int), ("track_type", .int), ("track_index", .int),
        ("strip", .int), ("offset", .int), ("byte_length", .int), ("spos_invalid", .bool)])
      (x.writeG g c) (x.writeG g' c) := by
  have hq := DIDPosition.writeBody_swap g g' c x
  unfold DIDPosition.writeG
  swap_all

theorem MPGPosition.write_swap (g g' : Given) (c : WCtx) (x : MPGPosition) :
    Swp g g' (
        ownK [("sample_num", .int), ("length", .int), ("track_type", .int), ("track_index", .int),
        ("strip", .int), ("offset", .int), ("byte_length", .int), ("spos_invalid", .bool),
        ("trailing_discards", .int), ("need_seq_hdr", .bool)])
      (x.writeG g c) (x.writeG g' c) := by
  have hp := DIDPosition.writeBody_swap g g' c x.toDIDPosition
  unfold MPGPosition.writeG
  swap_all

theorem BinRef.write_swap (g g' : Given) (c : WCtx) (x : BinRef) :
    Swp g g' (
        ownK [("uid_high", .int), ("uid_low", .int), ("name", .text)])
      (x.writeG g c) (x.writeG g' c) := by
  unfold BinRef.writeG
  swap_all

theorem MobRef.writeBody_swap (g g' : Given) (c : WCtx) (x : MobRef) :
    Swp g g' (
        ownK [("position", .int)])
      (x.writeBodyG g c) (x.writeBodyG g' c) := by
  unfold MobRef.writeBodyG
  swap_all

theorem MobRef.write_swap (g g' : Given) (c : WCtx) (x : MobRef) :
    Swp g g' (
        ownK [("position", .int)])
      (x.writeG g c) (x.writeG g' c) := by
  have hq := MobRef.writeBody_swap g g' c x
  unfold MobRef.writeG
  swap_all

theorem Marker.write_swap (g g' : Given) (c : WCtx) (x : Marker) :
    Swp g g' (
        ownK [("position", .int), ("comp_offset", .int), ("attributes", .ref), ("handled_codes", .bool)])
      (x.writeG g c) (x.writeG g' c) := by
  have hp := MobRef.writeBody_swap g g' c x.toMobRef
  unfold Marker.writeG
  swap_all

theorem TrackerManager.write_swap (g g' : Given) (c : WCtx) (x : TrackerManager) :
    Swp g g' (
        ownK [("data_slots", .ref), ("param_slots", .ref)])
      (x.writeG g c) (x.writeG g' c) := by
  unfold TrackerManager.writeG
  swap_all

theorem TrackerDataSlot.write_swap (g g' : Given) (c : WCtx) (x : TrackerDataSlot) :
    Swp g g' (
        ownK [("track_fg", .bool)])
      (x.writeG g c) (x.writeG g' c) := by
  unfold TrackerDataSlot.writeG
  swap_all

theorem TrackerParameterSlot.write_swap (g g' : Given) (c : WCtx) (x : TrackerParameterSlot) :
    Swp g g' (
        ([] : List (Slot × Kind)))
      (x.writeG g c) (x.writeG g' c) := by
  unfold TrackerParameterSlot.writeG
  swap_all

theorem TrackerData.write_swap (g g' : Given) (c : WCtx) (x : TrackerData) :
    Swp g g' (
        ownK [("clip_version", .int), ("offset_tracking", .int), ("smoothing", .int),
        ("jitter_removal", .int), ("clip5", .ref), ("clip6", .ref)])
      (x.writeG g c) (x.writeG g' c) := by
  unfold TrackerData.writeG
  swap_all

theorem TrackerParameter.write_swap (g g' : Given) (c : WCtx) (x : TrackerParameter) :
    Swp g g' (
        ([] : List (Slot × Kind)))
      (x.writeG g c) (x.writeG g' c) := by
  unfold TrackerParameter.writeG
  swap_all

theorem TrackGroup.write_swap (g g' : Given) (c : WCtx) (x : TrackGroup) :
    Swp g g' (
        ownK [("left_bob", .ref), ("right_bob", .ref), ("media_kind_id", .int), ("edit_rate", .rate),
        ("name", .name), ("effect_id", .name), ("attributes", .ref), ("session_attrs", .ref),
        ("precomputed", .ref), ("param_list", .ref), ("mc_mode", .int), ("length", .int),
        ("num_scalars", .int)])
      (x.writeG g c) (x.writeG g' c) := by
  have hp := Component.write_swap g g' c x.toComponent
  unfold TrackGroup.writeG
  swap_all

theorem TrackEffect.writeBody_swap (g g' : Given) (c : WCtx) (x : TrackEffect) :
    Swp g g' (
        ownK [("left_bob", .ref), ("right_bob", .ref), ("media_kind_id", .int), ("edit_rate", .rate),
        ("name", .name), ("effect_id", .name), ("attributes", .ref), ("session_attrs", .ref),
        ("precomputed", .ref), ("param_list", .ref), ("mc_mode", .int), ("length", .int),
        ("num_scalars", .int), ("left_length", .int), ("right_length", .int), ("info_version", .int),
        ("info_current", .int), ("info_smooth", .int), ("info_color_item", .int),
        ("info_quality", .int), ("info_is_reversed", .int), ("info_aspect_on", .bool),
        ("keyframes", .ref), ("info_force_software", .bool), ("info_never_hardware", .bool),
        ("trackman", .ref)])
      (x.writeBodyG g c) (x.writeBodyG g' c) := by
  have hp := TrackGroup.write_swap g g' c x.toTrackGroup
  unfold TrackEffect.writeBodyG
  swap_all

theorem TrackEffect.write_swap (g g' : Given) (c : WCtx) (x : TrackEffect) :
    Swp g g' (
        ownK [("left_bob", .ref), ("right_bob", .ref), ("media_kind_id", .int), ("edit_rate", .rate),
        ("name", .name), ("effect_id", .name), ("attributes", .ref), ("session_attrs", .ref),
        ("precomputed", .ref), ("param_list", .ref), ("mc_mode", .int), ("length", .int),
        ("num_scalars", .int), ("left_length", .int), ("right_length", .int), ("info_version", .int),
        ("info_current", .int), ("info_smooth", .int), ("info_color_item", .int),
        ("info_quality", .int), ("info_is_reversed", .int), ("info_aspect_on", .bool),
        ("keyframes", .ref), ("info_force_software", .bool), ("info_never_hardware", .bool),
        ("trackman", .ref)])
      (x.writeG g c) (x.writeG g' c) := by
  have hq := TrackEffect.writeBody_swap g g' c x
  unfold TrackEffect.writeG
  swap_all

theorem PanVolumeEffect.write_swap (g g' : Given) (c : WCtx) (x : PanVolumeEffect) :
    Swp g g' (
        ownK [("left_bob", .ref), ("right_bob", .ref), ("media_kind_id", .int), ("edit_rate", .rate),
        ("name", .name), ("effect_id", .name), ("attributes", .ref), ("session_attrs", .ref),
        ("precomputed", .ref), ("param_list", .ref), ("mc_mode", .int), ("length", .int),
        ("num_scalars", .int), ("left_length", .int), ("right_length", .int), ("info_version", .int),
        ("info_current", .int), ("info_smooth", .int), ("info_color_item", .int),
        ("info_quality", .int), ("info_is_reversed", .int), ("info_aspect_on", .bool),
        ("keyframes", .ref), ("info_force_software", .bool), ("info_never_hardware", .bool),
        ("trackman", .ref), ("level", .int), ("pan", .int), ("suppress_validation", .bool),
        ("level_set", .bool), ("pan_set", .bool), ("supports_seperate_gain", .int),
        ("is_trim_gain_effect", .int)])
      (x.writeG g c) (x.writeG g' c) := by
  have hp := TrackEffect.writeBody_swap g g' c x.toTrackEffect
  unfold PanVolumeEffect.writeG
  swap_all

theorem ASPIPluginChunk.write_swap (g g' : Given) (c : WCtx) (x : ASPIPluginChunk) :
    Swp g g' (
        ownK [("version", .int), ("manufacturer_id", .int), ("product_id", .int), ("plugin_id", .int),
        ("chunk_id", .int), ("name", .text)])
      (x.writeG g c) (x.writeG g' c) := by
  unfold ASPIPluginChunk.writeG
  swap_all

theorem ASPIPlugin.write_swap (g g' : Given) (c : WCtx) (x : ASPIPlugin) :
    Swp g g' (
        ownK [("name", .text), ("manufacturer_id", .int), ("product_id", .int), ("plugin_id", .int)] ++
        (inListK "chunks" x.chunks fun _ => ownK ASPIPluginChunk.kinds))
      (x.writeG g c) (x.writeG g' c) := by
  have hl := Swp.forWi (g := g) (g' := g') (list := "chunks") (fun g g' e => ASPIPluginChunk.write_swap g g' c e) x.chunks
  unfold ASPIPlugin.writeG
  swap_all

theorem AudioSuitePluginEffect.write_swap (g g' : Given) (c : WCtx) (x : AudioSuitePluginEffect) :
    Swp g g' (
        ownK [("left_bob", .ref), ("right_bob", .ref), ("media_kind_id", .int), ("edit_rate", .rate),
        ("name", .name), ("effect_id", .name), ("attributes", .ref), ("session_attrs", .ref),
        ("precomputed", .ref), ("param_list", .ref), ("mc_mode", .int), ("length", .int),
        ("num_scalars", .int), ("left_length", .int), ("right_length", .int), ("info_version", .int),
        ("info_current", .int), ("info_smooth", .int), ("info_color_item", .int),
        ("info_quality", .int), ("info_is_reversed", .int), ("info_aspect_on", .bool),
        ("keyframes", .ref), ("info_force_software", .bool), ("info_never_hardware", .bool),
        ("trackman", .ref)] ++
        (inListK "plugins" x.plugins fun p => ownK ASPIPlugin.kinds ++ inListK "chunks" p.chunks fun _ => ownK ASPIPluginChunk.kinds) ++
        ownK [("mark_in", .int), ("mark_out", .int), ("tracks_to_affect", .int), ("rendering_mode", .int),
        ("padding_secs", .int)])
      (x.writeG g c) (x.writeG g' c) := by
  have hp := TrackEffect.writeBody_swap g g' c x.toTrackEffect
  have hl := Swp.forWi (g := g) (g' := g') (list := "plugins") (fun g g' e => ASPIPlugin.write_swap g g' c e) x.plugins
  unfold AudioSuitePluginEffect.writeG
  swap_all

theorem EqualizerBand.write_swap (g g' : Given) (c : WCtx) (x : EqualizerBand) :
    Swp g g' (
        ownK [("type", .int), ("freq", .int), ("gain", .int), ("q", .int), ("enable", .bool)])
      (x.writeG g c) (x.writeG g' c) := by
  unfold EqualizerBand.writeG
  swap_all

theorem EqualizerMultiBand.write_swap (g g' : Given) (c : WCtx) (x : EqualizerMultiBand) :
    Swp g g' (
        ownK [("left_bob", .ref), ("right_bob", .ref), ("media_kind_id", .int), ("edit_rate", .rate),
        ("name", .name), ("effect_id", .name), ("attributes", .ref), ("session_attrs", .ref),
        ("precomputed", .ref), ("param_list", .ref), ("mc_mode", .int), ("length", .int),
        ("num_scalars", .int), ("left_length", .int), ("right_length", .int), ("info_version", .int),
        ("info_current", .int), ("info_smooth", .int), ("info_color_item", .int),
        ("info_quality", .int), ("info_is_reversed", .int), ("info_aspect_on", .bool),
        ("keyframes", .ref), ("info_force_software", .bool), ("info_never_hardware", .bool),
        ("trackman", .ref)] ++
        (inListK "bands" x.bands fun _ => ownK EqualizerBand.kinds) ++
        ownK [("effect_enable", .bool), ("filter_name", .text)])
      (x.writeG g c) (x.writeG g' c) := by
  have hp := TrackEffect.writeBody_swap g g' c x.toTrackEffect
  have hl := Swp.forWi (g := g) (g' := g') (list := "bands") (fun g g' e => EqualizerBand.write_swap g g' c e) x.bands
  unfold EqualizerMultiBand.writeG
  swap_all

theorem TimeWarp.write_swap (g g' : Given) (c : WCtx) (x : TimeWarp) :
    Swp g g' (
        ownK [("left_bob", .ref), ("right_bob", .ref), ("media_kind_id", .int), ("edit_rate", .rate),
        ("name", .name), ("effect_id", .name), ("attributes", .ref), ("session_attrs", .ref),
        ("precomputed", .ref), ("param_list", .ref), ("mc_mode", .int), ("length", .int),
        ("num_scalars", .int), ("phase_offset", .int)])
      (x.writeG g c) (x.writeG g' c) := by
  have hp := TrackGroup.write_swap g g' c x.toTrackGroup
  unfold TimeWarp.writeG
  swap_all

theorem CaptureMask.write_swap (g g' : Given) (c : WCtx) (x : CaptureMask) :
    Swp g g' (
        ownK [("left_bob", .ref), ("right_bob", .ref), ("media_kind_id", .int), ("edit_rate", .rate),
        ("name", .name), ("effect_id", .name), ("attributes", .ref), ("session_attrs", .ref),
        ("precomputed", .ref), ("param_list", .ref), ("mc_mode", .int), ("length", .int),
        ("num_scalars", .int), ("phase_offset", .int), ("is_double", .bool), ("mask_bits", .int)])
      (x.writeG g c) (x.writeG g' c) := by
  have hp := TimeWarp.write_swap g g' c x.toTimeWarp
  unfold CaptureMask.writeG
  swap_all

theorem StrobeEffect.write_swap (g g' : Given) (c : WCtx) (x : StrobeEffect) :
    Swp g g' (
        ownK [("left_bob", .ref), ("right_bob", .ref), ("media_kind_id", .int), ("edit_rate", .rate),
        ("name", .name), ("effect_id", .name), ("attributes", .ref), ("session_attrs", .ref),
        ("precomputed", .ref), ("param_list", .ref), ("mc_mode", .int), ("length", .int),
        ("num_scalars", .int), ("phase_offset", .int), ("strobe_value", .int)])
      (x.writeG g c) (x.writeG g' c) := by
  have hp := TimeWarp.write_swap g g' c x.toTimeWarp
  unfold StrobeEffect.writeG
  swap_all

theorem MotionEffect.write_swap (g g' : Given) (c : WCtx) (x : MotionEffect) :
    Swp g g' (
        ownK [("left_bob", .ref), ("right_bob", .ref), ("media_kind_id", .int), ("edit_rate", .rate),
        ("name", .name), ("effect_id", .name), ("attributes", .ref), ("session_attrs", .ref),
        ("precomputed", .ref), ("param_list", .ref), ("mc_mode", .int), ("length", .int),
        ("num_scalars", .int), ("phase_offset", .int), ("source_param_list", .ref),
        ("new_source_calculation", .bool)])
      (x.writeG g c) (x.writeG g' c) := by
  have hp := TimeWarp.write_swap g g' c x.toTimeWarp
  unfold MotionEffect.writeG
  swap_all

theorem Repeat.write_swap (g g' : Given) (c : WCtx) (x : Repeat) :
    Swp g g' (
        ownK [("left_bob", .ref), ("right_bob", .ref), ("media_kind_id", .int), ("edit_rate", .rate),
        ("name", .name), ("effect_id", .name), ("attributes", .ref), ("session_attrs", .ref),
        ("precomputed", .ref), ("param_list", .ref), ("mc_mode", .int), ("length", .int),
        ("num_scalars", .int), ("phase_offset", .int)])
      (x.writeG g c) (x.writeG g' c) := by
  have hp := TimeWarp.write_swap g g' c x.toTimeWarp
  unfold Repeat.writeG
  swap_all

theorem EssenceGroup.write_swap (g g' : Given) (c : WCtx) (x : EssenceGroup) :
    Swp g g' (
        ownK [("left_bob", .ref), ("right_bob", .ref), ("media_kind_id", .int), ("edit_rate", .rate),
        ("name", .name), ("effect_id", .name), ("attributes", .ref), ("session_attrs", .ref),
        ("precomputed", .ref), ("param_list", .ref), ("mc_mode", .int), ("length", .int),
        ("num_scalars", .int), ("rep_set_type", .int)])
      (x.writeG g c) (x.writeG g' c) := by
  have hp := TrackGroup.write_swap g g' c x.toTrackGroup
  unfold EssenceGroup.writeG
  swap_all

theorem TransitionEffect.write_swap (g g' : Given) (c : WCtx) (x : TransitionEffect) :
    Swp g g' (
        ownK [("left_bob", .ref), ("right_bob", .ref), ("media_kind_id", .int), ("edit_rate", .rate),
        ("name", .name), ("effect_id", .name), ("attributes", .ref), ("session_attrs", .ref),
        ("precomputed", .ref), ("param_list", .ref), ("mc_mode", .int), ("length", .int),
        ("num_scalars", .int), ("cutpoint", .int), ("left_length", .int), ("right_length", .int),
        ("info_version", .int), ("info_current", .int), ("info_smooth", .int),
        ("info_color_item", .int), ("info_quality", .int), ("info_is_reversed", .int),
        ("info_aspect_on", .bool), ("keyframes", .ref), ("info_force_software", .bool),
        ("info_never_hardware", .bool), ("trackman", .ref)])
      (x.writeG g c) (x.writeG g' c) := by
  have hp := TrackGroup.write_swap g g' c x.toTrackGroup
  unfold TransitionEffect.writeG
  swap_all

theorem Selector.write_swap (g g' : Given) (c : WCtx) (x : Selector) :
    Swp g g' (
        ownK [("left_bob", .ref), ("right_bob", .ref), ("media_kind_id", .int), ("edit_rate", .rate),
        ("name", .name), ("effect_id", .name), ("attributes", .ref), ("session_attrs", .ref),
        ("precomputed", .ref), ("param_list", .ref), ("mc_mode", .int), ("length", .int),
        ("num_scalars", .int), ("is_ganged", .bool), ("selected", .int)])
      (x.writeG g c) (x.writeG g' c) := by
  have hp := TrackGroup.write_swap g g' c x.toTrackGroup
  unfold Selector.writeG
  swap_all

theorem Composition.write_swap (g g' : Given) (c : WCtx) (x : Composition) :
    Swp g g' (
        ownK [("left_bob", .ref), ("right_bob", .ref), ("media_kind_id", .int), ("edit_rate", .rate),
        ("name", .name), ("effect_id", .name), ("attributes", .ref), ("session_attrs", .ref),
        ("precomputed", .ref), ("param_list", .ref), ("mc_mode", .int), ("length", .int),
        ("num_scalars", .int), ("mob_type_id", .int), ("usage_code", .int), ("descriptor", .ref)])
      (x.writeG g c) (x.writeG g' c) := by
  have hp := TrackGroup.write_swap g g' c x.toTrackGroup
  unfold Composition.writeG
  swap_all

theorem Obj.write_swap (g g' : Given) (c : WCtx) (o : Obj) : Swp g g' o.propKinds (o.writeG g c) (o.writeG g' c) := by
  cases o with
  | ATTR x => exact Swp.plain _
  | PRLS x => exact Swp.plain _
  | TMCS x => exact Swp.plain _
  | BVst x => exact Swp.congr (BinViewSetting.write_swap g g' c x) rfl
  | ABIN x => exact Swp.mem (Bin.write_swap g g' c x) fun s => memK_swap2 _ _ _ _ _ s
  | BINF x => exact Swp.mem (BinFirst.write_swap g g' c x) fun s => memK_swap2 _ _ _ _ _ s
  | SEQU x => exact Swp.congr (Sequence.write_swap g g' c x) rfl
  | SCLP x => exact Swp.congr (SourceClip.write_swap g g' c x) rfl
  | TCCP x => exact Swp.congr (Timecode.write_swap g g' c x) rfl
  | ECCP x => exact Swp.congr (Edgecode.write_swap g g' c x) rfl
  | TRKR x => exact Swp.congr (TrackRef.write_swap g g' c x) rfl
  | PRCL x => exact Swp.mem (ParamClip.write_swap g g' c x) fun s => memK_swap _ _ _ s
  | CTRL x => exact Swp.congr (ControlClip.write_swap g g' c x) rfl
  | FILL x => exact Swp.congr (Filler.write_swap g g' c x) rfl
  | TRKG x => exact Swp.congr (TrackGroup.write_swap g g' c x) rfl
  | TKFX x => exact Swp.congr (TrackEffect.write_swap g g' c x) rfl
  | PVOL x => exact Swp.congr (PanVolumeEffect.write_swap g g' c x) rfl
  | ASPI x => exact Swp.mem (AudioSuitePluginEffect.write_swap g g' c x) fun s => memK_swap _ _ _ s
  | EQMB x => exact Swp.mem (EqualizerMultiBand.write_swap g g' c x) fun s => memK_swap _ _ _ s
  | MASK x => exact Swp.congr (CaptureMask.write_swap g g' c x) rfl
  | STRB x => exact Swp.congr (StrobeEffect.write_swap g g' c x) rfl
  | SPED x => exact Swp.congr (MotionEffect.write_swap g g' c x) rfl
  | REPT x => exact Swp.congr (Repeat.write_swap g g' c x) rfl
  | RSET x => exact Swp.congr (EssenceGroup.write_swap g g' c x) rfl
  | TNFX x => exact Swp.congr (TransitionEffect.write_swap g g' c x) rfl
  | SLCT x => exact Swp.congr (Selector.write_swap g g' c x) rfl
  | CMPO x => exact Swp.congr (Composition.write_swap g g' c x) rfl
  | FILE x => exact Swp.congr (FileLocator.write_swap g g' c x) rfl
  | WINF x => exact Swp.congr (FileLocator.write_swap g g' c x) rfl
  | URLL x => exact Swp.plain _
  | GRFX x => exact Swp.congr (GraphicEffect.write_swap g g' c x) rfl
  | SHLP x => exact Swp.congr (ShapeList.write_swap g g' c x) rfl
  | CCFX x => exact Swp.congr (ColorCorrectionEffect.write_swap g g' c x) rfl
  | FXPS x => exact Swp.congr (EffectParamList.write_swap g g' c x) rfl
  | AVUP x => exact Swp.congr (CFUserParam.write_swap g g' c x) rfl
  | PRIT x => exact Swp.congr (ParameterItem.write_swap g g' c x) rfl
  | MSML x => exact Swp.congr (MSMLocator.write_swap g g' c x) rfl
  | APOS x => exact Swp.congr (Position.write_swap g g' c x) rfl
  | ABOB x => exact Swp.congr (BOBPosition.write_swap g g' c x) rfl
  | DIDP x => exact Swp.congr (DIDPosition.write_swap g g' c x) rfl
  | MPGP x => exact Swp.congr (MPGPosition.write_swap g g' c x) rfl
  | MCBR x => exact Swp.congr (BinRef.write_swap g g' c x) rfl
  | MCMR x => exact Swp.congr (MobRef.write_swap g g' c x) rfl
  | TMBC x => exact Swp.congr (Marker.write_swap g g' c x) rfl
  | TKMN x => exact Swp.congr (TrackerManager.write_swap g g' c x) rfl
  | TKDS x => exact Swp.congr (TrackerDataSlot.write_swap g g' c x) rfl
  | TKPS x => exact Swp.congr (TrackerParameterSlot.write_swap g g' c x) rfl
  | TKDA x => exact Swp.congr (TrackerData.write_swap g g' c x) rfl
  | TKPA x => exact Swp.congr (TrackerParameter.write_swap g g' c x) rfl
  | MDES x => exact Swp.congr (MediaDescriptor.write_swap g g' c x) rfl
  | MDTP x => exact Swp.congr (TapeDescriptor.write_swap g g' c x) rfl
  | MDFM x => exact Swp.congr (FilmDescriptor.write_swap g g' c x) rfl
  | MDNG x => exact Swp.congr (NagraDescriptor.write_swap g g' c x) rfl
  | MDFL x => exact Swp.congr (MediaFileDescriptor.write_swap g g' c x) rfl
  | MULD x => exact Swp.congr (MultiDescriptor.write_swap g g' c x) rfl
  | WAVE x => exact Swp.congr (WaveDescriptor.write_swap g g' c x) rfl
  | AIFC x => exact Swp.congr (AIFCDescriptor.write_swap g g' c x) rfl
  | PCMA x => exact Swp.congr (PCMADescriptor.write_swap g g' c x) rfl
  | MPGA x => exact Swp.congr (MPGADescriptor.write_swap g g' c x) rfl
  | DIDD x => exact Swp.congr (DIDDescriptor.write_swap g g' c x) rfl
  | CDCI x => exact Swp.congr (CDCIDescriptor.write_swap g g' c x) rfl
  | MPGI x => exact Swp.congr (MPGIDescriptor.write_swap g g' c x) rfl
  | JPED x => exact Swp.congr (JPEGDescriptor.write_swap g g' c x) rfl
  | RGBA x => exact Swp.congr (RGBADescriptor.write_swap g g' c x) rfl
  | DATD x => exact Swp.congr (DataDescriptor.write_swap g g' c x) rfl
  | ANCD x => exact Swp.congr (ANCDataDescriptor.write_swap g g' c x) rfl

end Avb

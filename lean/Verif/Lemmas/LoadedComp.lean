import Verif.Lemmas.Loaded

/-
Components and clips: what their readers give can be written again.
-/

namespace Avb

/-- What is known of a loaded object: when it can be written, that its texts are in order, and its form. -/
def Obj.Back (c : WCtx) (o : Obj) : Prop :=
  (Wr.Ok (o.write c) ↔ o.Resavable) ∧ (∀ p ∈ o.texts, TextIn p.1 p.2) ∧ (o.Locked → o.Shape)

/-- Step over fields, keeping what is known of their values. -/
macro "walk" : tactic => `(tactic| repeat first
  | refine Post.bindP (Post.int _) fun _ _ => ?_
  | refine Post.bindP (Post.str _) fun _ _ => ?_
  | refine Post.bindP Post.guard fun _ _ => ?_
  | refine Post.bindP (Post.all (r := rTag _)) fun _ _ => ?_
  | refine Post.bindP (Post.all (r := rRef _)) fun _ _ => ?_
  | refine Post.bindP (Post.all (r := rBool)) fun _ _ => ?_
  | refine Post.bindP (Post.all (r := rRate _)) fun _ _ => ?_
  | refine Post.bindP (Post.all (r := rMobId _)) fun _ _ => ?_
  | refine Post.bindP (Post.all (r := rRawUuid _)) fun _ _ => ?_
  | refine Post.bindP (Post.all (r := rUuid _)) fun _ _ => ?_
  | refine Post.bindP (Post.all (r := rDouble)) fun _ _ => ?_)

/-- The writer's side. -/
macro "ok" "[" ts:Lean.Parser.Tactic.simpLemma,* "]" : tactic => `(tactic|
  simp (decide := true) (contextual := true) [Wr.ok_bind, Wr.ok_int', Wr.ok_emit, Wr.ok_pure,
    Wr.ok_bool', Wr.ok_guard, Wr.ok_ifHas, Wr.ok_when, Wr.ok_nth, Wr.ok_rawUuid, Wr.ok_uuid,
    Wr.ok_mobId, MobID.lo_in, MobID.hi_in, Wr.ok_double, Wr.ok_utf8, Wr.ok_mac, Wr.ok_name,
    Wr.ok_name', Wr.ok_rate, Wr.ok_forW, Wr.ok_get, OptIn.true, byte_in, *, $ts,*])

theorem Post.ifP {β : Type} {P : β → Prop} {p : Prop} [Decidable p] {r1 r2 : Rd β} (h1 : p → Post r1 P)
    (h2 : ¬ p → Post r2 P) : Post (if p then r1 else r2) P := by
  split
  · next h => exact h1 h
  · next h => exact h2 h

theorem orNone_ne (t : Text) : orNone t ≠ some [] := by unfold orNone; split <;> simp_all

theorem orNone_getD (t : Text) : (orNone t).getD [] = t := by unfold orNone; split <;> simp_all

/-- What is known of the component part of a loaded object. -/
def Component.Good (c : WCtx) (x : Component) : Prop :=
  (Wr.Ok (x.write c) ↔ RateFits x.edit_rate) ∧ (∀ p ∈ x.texts, TextIn p.1 p.2) ∧ x.Stored

/-- What is known of the clip part of a loaded object. -/
def Clip.Good (c : WCtx) (x : Clip) : Prop := x.toComponent.Good c ∧ InTy .u32 x.length

theorem Component.texts_mac (x : Component) {t : Text} : (Enc.utf8, t) ∈ x.texts ↔ False := by
  simp [Component.texts]

/-- The three parts of `Obj.Back` for an object built on a component. -/
macro "back" "[" ts:Lean.Parser.Tactic.simpLemma,* "]" : tactic => `(tactic|
  (refine ⟨?_, ?_, ?_⟩
   · ok [Obj.write, Obj.Resavable, Obj.rates, Obj.texts, Component.rates, Component.texts_mac, $ts,*]
   · intro p hp
     simp only [Obj.texts] at hp
     first
     | exact absurd hp List.not_mem_nil
     | revert p; ok [$ts,*]
   · intro hl
     simp only [Obj.Shape]
     try simp only [Obj.Locked] at hl
     try ok [$ts,*]))

section
variable {c : WCtx} {d : RCtx}

theorem Component.good (hc : ∀ r, Wr.Ok (wRef c r)) : Post (Component.read d) (Component.Good c) := by
  unfold Component.read
  walk
  rename_i left_bob _ right_bob _ media_kind_id _ edit_rate _ name _ effect_id _ attributes _
    session_attrs _ precomputed _
  refine (Post.iterExt (P := fun s => ∃ o, s =
    { left_bob, right_bob, media_kind_id, edit_rate, name := orNone name,
      effect_id := orNone effect_id, attributes, session_attrs, precomputed, param_list := o })
    ?_ ⟨_, rfl⟩).mono ?_
  · rintro t _ ⟨o, rfl⟩
    unfold Component.ext
    split
    · walk
      exact Post.pure ⟨_, rfl⟩
    · exact Post.fail
  · rintro _ ⟨o, rfl⟩
    refine ⟨?_, ?_, ?_⟩
    · ok [Component.write]
    · ok [Component.texts, orNone_getD]
    · simp [Component.Stored, orNone_ne]

theorem Clip.good (hc : ∀ r, Wr.Ok (wRef c r)) : Post (Clip.read d) (Clip.Good c) := by
  refine Post.bindP (Component.good hc) fun base hb => ?_
  walk
  exact Post.pure ⟨hb, by assumption⟩

theorem Clip.good_ok {x : Clip} (h : x.Good c) : Wr.Ok (x.write c) ↔ RateFits x.edit_rate := by
  obtain ⟨⟨h, _⟩, _⟩ := h
  ok [Clip.write]

theorem Sequence.back (hc : ∀ r, Wr.Ok (wRef c r)) : Post (Sequence.read d) fun x => (Obj.SEQU x).Back c := by
  refine Post.bindP (Component.good hc) fun base hb => ?_
  obtain ⟨h1, h2, h3⟩ := hb
  walk
  refine Post.bindP (Post.list (Post.all)) fun l hl => ?_
  walk
  refine Post.pure ?_
  back [Sequence.write]

theorem SourceClip.back (hc : ∀ r, Wr.Ok (wRef c r)) :
    Post (SourceClip.read d) fun x => (Obj.SCLP x).Back c := by
  refine Post.bindP (Clip.good hc) fun base hb => ?_
  have hw := Clip.good_ok hb
  obtain ⟨⟨h1, h2, h3⟩, hl⟩ := hb
  walk
  rename_i track_id _ start_time _
  refine Post.bindP (Post.iterExt (P := fun s => ∃ o, s =
    { toClip := base, track_id, start_time, mob_id := o }) ?_ ⟨_, rfl⟩) ?_
  · rintro t _ ⟨o, rfl⟩
    unfold SourceClip.ext
    split
    · walk
      exact Post.pure ⟨_, rfl⟩
    · exact Post.fail
  · rintro _ ⟨o, rfl⟩
    walk
    refine Post.pure ?_
    cases o <;> back [SourceClip.write]

theorem Timecode.back (hc : ∀ r, Wr.Ok (wRef c r)) : Post (Timecode.read d) fun x => (Obj.TCCP x).Back c := by
  refine Post.bindP (Clip.good hc) fun base hb => ?_
  have hw := Clip.good_ok hb
  obtain ⟨⟨h1, h2, h3⟩, hl⟩ := hb
  walk
  refine Post.bind fun _ => ?_
  walk
  refine Post.pure ?_
  back [Timecode.write]

theorem Edgecode.back (hc : ∀ r, Wr.Ok (wRef c r)) : Post (Edgecode.read d) fun x => (Obj.ECCP x).Back c := by
  refine Post.bindP (Clip.good hc) fun base hb => ?_
  have hw := Clip.good_ok hb
  obtain ⟨⟨h1, h2, h3⟩, hl⟩ := hb
  walk
  refine Post.freadk (fun _ _ => rInt_nil) fun b hb => ?_
  have hb : b.length = 8 := by omega
  walk
  refine Post.pure ?_
  back [Edgecode.write]

theorem TrackRef.back (hc : ∀ r, Wr.Ok (wRef c r)) : Post (TrackRef.read d) fun x => (Obj.TRKR x).Back c := by
  refine Post.bindP (Clip.good hc) fun base hb => ?_
  have hw := Clip.good_ok hb
  obtain ⟨⟨h1, h2, h3⟩, hl⟩ := hb
  walk
  refine Post.pure ?_
  back [TrackRef.write]

theorem Filler.back (hc : ∀ r, Wr.Ok (wRef c r)) : Post (Filler.read d) fun x => (Obj.FILL x).Back c := by
  refine Post.bindP (Clip.good hc) fun base hb => ?_
  have hw := Clip.good_ok hb
  obtain ⟨⟨h1, h2, h3⟩, hl⟩ := hb
  walk
  refine Post.pure ?_
  back [Filler.write]

theorem PCPProp.good : Post (PCPProp.read d) fun x => Wr.Ok (x.write c) ∧ (x.type = 2 → x.value.NotInt) := by
  unfold PCPProp.read
  walk
  rename_i type _
  unfold PCPProp.readValue
  refine Post.bindP (Q := fun v => (type = 2 ∧ ∃ w, v = .dbl w) ∨ (type = 1 ∧ ∃ w, v = .int w ∧ InTy .s32 w)) ?_ ?_
  · refine Post.ifP (fun h => ?_) fun _ => Post.ifP (fun h => ?_) fun _ => Post.fail
    · walk; exact Post.pure (.inl ⟨h, _, rfl⟩)
    · walk; exact Post.pure (.inr ⟨h, _, rfl, by assumption⟩)
  · rintro v (⟨rfl, w, rfl⟩ | ⟨rfl, w, rfl, hw⟩) <;>
    · refine Post.pure ?_
      ok [PCPProp.write, PCPProp.writeValue, PVal.wDbl, PVal.wS32, PVal.NotInt]

theorem PCP.good_value (hc : ∀ r, Wr.Ok (wRef c r)) {t : Int} :
    Post (PCP.readValue d t) fun v => (∀ a b s pp, Wr.Ok (PCP.writeValue c t ⟨a, b, s, v, pp⟩)) ∧
      (t = 2 → v.NotInt) := by
  unfold PCP.readValue
  refine Post.ifP (fun h => ?_) fun h1 => Post.ifP (fun h => ?_) fun h2 => Post.ifP (fun h => ?_)
    fun _ => Post.fail
  all_goals
    walk
    subst h
    refine Post.pure ?_
    ok [PCP.writeValue, PVal.wS32, PVal.wDbl, PVal.wRef, PVal.NotInt]

theorem PCP.good (hc : ∀ r, Wr.Ok (wRef c r)) {t : Int} :
    Post (PCP.read d t) fun x => Wr.Ok (x.write c t) ∧ (t = 2 → x.value.NotInt) ∧
      ∀ q ∈ x.pp, q.type = 2 → q.value.NotInt := by
  unfold PCP.read
  walk
  refine Post.bindP (PCP.good_value hc) fun _ _ => ?_
  walk
  refine Post.bindP (Post.list (PCPProp.good (c := c))) fun l hl => ?_
  refine Post.pure ?_
  ok [PCP.write]

theorem ParamClip.back (hc : ∀ r, Wr.Ok (wRef c r)) : Post (ParamClip.read d) fun x => (Obj.PRCL x).Back c := by
  refine Post.bindP (Clip.good hc) fun base hb => ?_
  have hw := Clip.good_ok hb
  obtain ⟨⟨h1, h2, h3⟩, hl⟩ := hb
  walk
  rename_i interp_kind _ value_type _ _ _ _ _ _ _
  refine Post.bindP (Post.list (PCP.good (c := c) hc)) fun control_points hcp => ?_
  refine Post.bindP (Post.iterExt (P := fun s => ∃ o1 o2, s =
    { toClip := base, interp_kind, value_type, extrap_kind := o1, control_points, fields := o2 } ∧
    OptIn (InTy .s32) o1 ∧ OptIn (InTy .s32) o2) ?_ ⟨none, none, rfl, trivial, trivial⟩) ?_
  · rintro t _ ⟨o1, o2, rfl, g1, g2⟩
    unfold ParamClip.ext
    refine Post.ite ?_ (Post.ite ?_ Post.fail)
    all_goals
      walk
      exact Post.pure ⟨_, _, rfl, by assumption, by assumption⟩
  · rintro _ ⟨o1, o2, rfl, g1, g2⟩
    walk
    refine Post.pure ?_
    have hd : ParamClip.Doubles
        { toClip := base, interp_kind, value_type, extrap_kind := o1, control_points, fields := o2 } :=
      ⟨fun h p hp => (hcp.2 p hp).2.1 h, fun p hp => (hcp.2 p hp).2.2⟩
    back [ParamClip.write]

theorem CPProp.good : Post (CPProp.read d) fun x => Wr.Ok (x.write c) := by
  unfold CPProp.read
  walk
  refine Post.pure ?_
  ok [CPProp.write]

theorem CP.good : Post (CP.read d) fun x => Wr.Ok (x.write c) := by
  unfold CP.read
  walk
  refine Post.bindP (Post.list (CPProp.good (c := c))) fun l hl => ?_
  refine Post.pure ?_
  ok [CP.write]

theorem ControlClip.back (hc : ∀ r, Wr.Ok (wRef c r)) :
    Post (ControlClip.read d) fun x => (Obj.CTRL x).Back c := by
  refine Post.bindP (Clip.good hc) fun base hb => ?_
  have hw := Clip.good_ok hb
  obtain ⟨⟨h1, h2, h3⟩, hl⟩ := hb
  walk
  refine Post.bindP (Post.list (CP.good (c := c))) fun l hl => ?_
  walk
  refine Post.pure ?_
  back [ControlClip.write]

end

end Avb

import Verif.Lemmas.UnsetSave
import Verif.Model.Attrs
import Verif.Model.Repr
import Verif.Props.Crash

/-! C74: saving objects of which some properties were never assigned. -/

namespace Avb

open Unset

/-- C74: an object is saved exactly if it could be saved with all properties assigned and every mandatory property
has a value; then the data are the same. -/
theorem C74_object (o : Obj) (u : Unset) (c : WCtx) (r : Unit × Bytes) :
    o.writeU u c = .ok r ↔ o.write c = .ok r ∧ ∀ s ∈ o.slots, u s = false := by
  have hn : ¬ Lacks u o.slots ↔ ∀ s ∈ o.slots, u s = false := by
    simp only [Lacks, not_exists, not_and, Bool.not_eq_true]
  rw [← hn]
  constructor
  · intro h
    have hl : ¬ Lacks u o.slots := by
      intro hl
      rcases (Obj.write_needs c o u).1 hl with h1 | ⟨e, _, h1⟩
      · rw [show o.writeU u c = .error .attribute from h1] at h
        cases h
      · rw [show o.writeU u c = .error e from h1] at h
        cases h
    exact ⟨((Obj.write_needs c o u).2 hl).symm.trans h, hl⟩
  · rintro ⟨h, hl⟩
    exact ((Obj.write_needs c o u).2 hl).trans h

/-- A bin with one item whose column position was never assigned: saved if and only if it is assigned. -/
example (c : WCtx) (x : Bin) (i : BinItem) (r : Unit × Bytes) (hr : (Obj.ABIN { x with items := [i] }).write c = .ok r) :
    (Obj.ABIN { x with items := [i] }).writeU (fun s => s = ([("items", 0)], "x")) c ≠ .ok r ∧
      (Obj.ABIN { x with items := [i] }).writeU (fun s => s = ([("items", 1)], "x")) c = .ok r := by
  constructor
  · intro h
    have := ((C74_object _ _ _ _).1 h).2 ([("items", 0)], "x")
      (by simp [Obj.slots, Obj.helperSlots, inList, own, binItemNames])
    simp at this
  · refine (C74_object _ _ _ _).2 ⟨hr, fun s hs => ?_⟩
    simp only [decide_eq_false_iff_not]
    rintro rfl
    simp [Obj.slots, Obj.helperSlots, inList, own, binItemNames, List.range, List.range.loop] at hs

/-- C74: if a mandatory property has no value, `AttributeError` is raised, or what is raised before it is read;
`AttributeError` if nothing else is wrong with the object. -/
theorem C74_missing (o : Obj) {u : Unset} (c : WCtx) {s : Slot} (hs : s ∈ o.slots) (hu : u s = true) :
    (∃ e, o.writeU u c = .error e ∧ (e = .attribute ∨ o.write c = .error e)) ∧
      ∀ r, o.write c = .ok r → o.writeU u c = .error .attribute := by
  rcases (Obj.write_needs c o u).1 ⟨s, hs, hu⟩ with h | ⟨e, h0, h⟩
  · exact ⟨⟨_, h, .inl rfl⟩, fun _ _ => h⟩
  · refine ⟨⟨e, h, .inr h0⟩, fun r hr => ?_⟩
    rw [h0] at hr
    cases hr

/-- A source clip whose start was never assigned. -/
example : exClip.writeU (fun s => s = ([], "start_time")) ⟨.little, fun _ => some 1⟩ = .error .attribute := by
  have hok : (exClip.write ⟨.little, fun _ => some 1⟩).isOk = true := by decide +kernel
  cases hw : exClip.write ⟨.little, fun _ => some 1⟩ with
  | error e => rw [hw] at hok; cases hok
  | ok r =>
    exact (C74_missing exClip ⟨.little, fun _ => some 1⟩ (s := ([], "start_time"))
      (by simp [Obj.slots, Obj.helperSlots, exClip, Obj.cls, mandatory, own]) (by simp)).2 r hw

/-- C74: of a new object, the mandatory properties without value are those in the table, and none of a helper
object. -/
theorem table_toAssign : ∀ k, (mandatory k).filter (fun n => !(initial k).contains n) = toAssign k := by
  intro k
  cases k <;> decide +kernel

theorem mem_toAssign {k : Cls} {n : String} : n ∈ toAssign k ↔ n ∈ mandatory k ∧ n ∉ initial k := by
  rw [← table_toAssign]
  simp [List.mem_filter]

theorem helper_nested {o : Obj} {s : Slot} (hs : s ∈ o.helperSlots) : s.1 ≠ [] := by
  have key : ∀ {α : Type} (list : String) (xs : List α) (f : α → List Slot), s ∈ inList list xs f → s.1 ≠ [] := by
    intro α list xs f h
    obtain ⟨p, _, hp⟩ := List.mem_flatMap.1 h
    obtain ⟨t, _, rfl⟩ := List.mem_map.1 hp
    exact List.cons_ne_nil _ _
  cases o <;> first
    | exact absurd hs List.not_mem_nil
    | exact key _ _ _ hs
    | exact (List.mem_append.1 hs).elim (key _ _ _) (key _ _ _)
    | (simp only [Obj.helperSlots] at hs; exact key _ _ _ hs)

/-- C74: a new object in which some properties were assigned is saved exactly if those that have to be assigned
are among them and nothing else is wrong with it. -/
theorem C74_new (o : Obj) (names : List String) (c : WCtx) (r : Unit × Bytes) :
    o.writeU ((newUnset o.cls).assign names) c = .ok r ↔
      o.write c = .ok r ∧ ∀ n ∈ toAssign o.cls, n ∈ names := by
  rw [C74_object]
  refine and_congr_right fun _ => ⟨fun h n hn => ?_, fun h s hs => ?_⟩
  · obtain ⟨h1, h2⟩ := mem_toAssign.1 hn
    have := h ([], n) (List.mem_append_left _ (List.mem_map_of_mem h1))
    simpa [Unset.assign, newUnset, h2] using this
  · rcases List.mem_append.1 hs with hs | hs
    · obtain ⟨n, hn, rfl⟩ := List.mem_map.1 hs
      by_cases hi : n ∈ initial o.cls
      · simp [Unset.assign, newUnset, hi]
      · simp [Unset.assign, newUnset, h n (mem_toAssign.2 ⟨hn, hi⟩)]
    · have : s.1.isEmpty = false := by
        simpa using helper_nested hs
      simp [Unset.assign, newUnset, this]

/-- `create.Position()`: saved once its mob id is assigned, not before. -/
example (r : Unit × Bytes) (hr : (Obj.APOS ⟨MobID.zero⟩).write ⟨.little, fun _ => none⟩ = .ok r) :
    (Obj.APOS ⟨MobID.zero⟩).writeU ((newUnset .APOS).assign ["mob_id"]) ⟨.little, fun _ => none⟩ = .ok r ∧
      (Obj.APOS ⟨MobID.zero⟩).writeU ((newUnset .APOS).assign []) ⟨.little, fun _ => none⟩ ≠ .ok r := by
  refine ⟨(C74_new (.APOS ⟨MobID.zero⟩) _ _ _).2 ⟨hr, by simp [Obj.cls, toAssign]⟩, fun h => ?_⟩
  have := ((C74_new (.APOS ⟨MobID.zero⟩) _ _ _).1 h).2 "mob_id" (by simp [Obj.cls, toAssign])
  cases this

/-- The classes whose new objects can be saved as they are. -/
def savedAsMade : List Cls :=
  [.ATTR, .PRLS, .TMCS, .BVst, .ABIN, .BINF, .SEQU, .SCLP, .TCCP, .TRKR, .FILL, .TRKG, .RSET, .CMPO, .URLL, .MDES,
    .MDTP, .MDFM, .MDNG, .MDFL, .DIDD, .CDCI]

/-- C74: for exactly these 22 classes nothing has to be assigned. -/
theorem C74_classes (k : Cls) : toAssign k = [] ↔ k ∈ savedAsMade := by
  cases k <;> simp [toAssign, savedAsMade]

example : savedAsMade.length = 22 ∧ toAssign .CTRL = ["interp_kind", "control_points"] := ⟨rfl, rfl⟩

/-- C74: a new object of one of these classes has the data of an object with all properties assigned; one of
another class raises `AttributeError`, unless something else is raised before. -/
theorem C74_as_made (o : Obj) (c : WCtx) :
    (o.cls ∈ savedAsMade → o.writeU (newUnset o.cls) c = o.write c) ∧
      (o.cls ∉ savedAsMade → ∃ e, o.writeU (newUnset o.cls) c = .error e ∧
        (e = .attribute ∨ o.write c = .error e)) := by
  rw [← C74_classes]
  constructor
  · intro h
    refine (Obj.write_needs c o (newUnset o.cls)).2 ?_
    rintro ⟨s, hs, hu⟩
    rcases List.mem_append.1 hs with hs | hs
    · obtain ⟨n, hn, rfl⟩ := List.mem_map.1 hs
      have : n ∈ toAssign o.cls := mem_toAssign.2 ⟨hn, by simpa [newUnset] using hu⟩
      rw [h] at this
      cases this
    · have : s.1.isEmpty = false := by
        simpa using helper_nested hs
      simp [newUnset, this] at hu
  · intro h
    obtain ⟨n, hn⟩ := List.exists_mem_of_ne_nil _ h
    obtain ⟨h1, h2⟩ := mem_toAssign.1 hn
    exact (C74_missing o c (s := ([], n)) (List.mem_append_left _ (List.mem_map_of_mem h1))
      (by simp [newUnset, h2])).1

example (c : WCtx) : exFill.writeU (newUnset .FILL) c = exFill.write c := (C74_as_made exFill c).1 (by decide)

example (x : ControlClip) (c : WCtx) : ∃ e, (Obj.CTRL x).writeU (newUnset .CTRL) c = .error e ∧
    (e = .attribute ∨ (Obj.CTRL x).write c = .error e) := (C74_as_made (.CTRL x) c).2 (by simp [Obj.cls, savedAsMade])

/-- The name of a class, without its module. -/
def pyName (k : Cls) : Text := ((Print.className k).reverse.takeWhile (· ≠ '.')).reverse

set_option maxHeartbeats 2000000 in
/-- C74: the mandatory properties, and those new objects have, are properties that the class declares: they can be
assigned (C61). -/
theorem C74_declared (k : Cls) : ∀ n, n ∈ mandatory k ∨ n ∈ initial k → n.toList ∈ Attrs.propertydefs (pyName k) := by
  have : ((mandatory k ++ initial k).all fun n => (Attrs.propertydefs (pyName k)).contains n.toList) = true := by
    cases k <;> decide +kernel
  intro n hn
  have := List.all_eq_true.1 this n (List.mem_append.2 hn)
  simpa using this

example : "pan_set".toList ∈ Attrs.propertydefs "PanVolumeEffect".toList :=
  C74_declared .PVOL "pan_set" (.inl (by simp [mandatory]))

variable {h : Heap} {us : Ref → Unset} {fuel : Nat} {bo : BO} {hd : HeaderInfo} {content : Ref}

theorem out_reach (hh : HeapOK h) {r : Ref} (hr : r ∈ (walkObj h fuel content).out) : Reach h content r :=
  (walkObj_good hh fuel content []).2 r hr

theorem reach_ne (hr : ∃ r, Reach h content r) : content ≠ 0 := by
  rintro rfl
  obtain ⟨r, h1, h2⟩ := hr
  rcases Relation.reflTransGen_iff_eq_or_transGen.1 h2 with h | h
  · exact h1 h
  · obtain ⟨_, ⟨_, _, h0, _⟩, _⟩ := Relation.TransGen.head'_iff.1 h
    exact h0 rfl

/-- C74: a file is saved exactly if it could be saved with all properties assigned and every mandatory property of
every object reachable from the content has a value; then it is the same file. -/
theorem C74_save (hh : HeapOK h) (inj : IidInj h content) (bytes : Bytes) :
    saveU h us fuel bo hd content = .ok bytes ↔ save h fuel bo hd content = .ok bytes ∧
      ∀ r e, Reach h content r → h r = .ok e → ∀ s ∈ e.obj.slots, us r s = false := by
  have hn : ∀ u l, ¬ Lacks u l ↔ ∀ s ∈ l, u s = false := by
    intro u l
    simp only [Lacks, not_exists, not_and, Bool.not_eq_true]
  have inj' : ∀ a ∈ (walkObj h fuel content).out, ∀ b ∈ (walkObj h fuel content).out, ∀ ea eb, h a = .ok ea →
      h b = .ok eb → ea.iid = eb.iid → a = b :=
    fun a ha b hb ea eb h1 h2 h3 => inj a b ea eb (out_reach hh ha) (out_reach hh hb) h1 h2 h3
  constructor
  · intro hs
    have he : (saveRunU h us fuel bo hd content).err = none := by
      unfold saveU at hs
      simp only at hs
      split at hs
      · cases hs
      · assumption
    rw [saveRunU_eq] at he
    obtain ⟨h1, h2⟩ := runWith_ok he
    obtain ⟨h3, h4⟩ := saveLoopU_ok inj' (s' := (saveLoopU h us bo (walkObj h fuel content).out ⟨0, fun _ => none, []⟩).1)
      (by rw [← h1])
    refine ⟨?_, fun r e hr he' => (hn _ _).1 (h4 r ?_ e he' rfl)⟩
    · have e2 : saveRun h fuel bo hd content = saveRunU h us fuel bo hd content := by
        rw [saveRun_eq, saveRunU_eq, h3]
        rw [← h1]
      unfold save
      rw [e2]
      exact hs
    · exact walkObj_mem (reach_ne ⟨r, hr⟩) h2 hr.2
  · rintro ⟨hs, hu⟩
    have e2 : saveRunU h us fuel bo hd content = saveRun h fuel bo hd content := by
      rw [saveRun_eq, saveRunU_eq, saveLoopU_complete fun r hr e he => (hn _ _).2 (hu r e (out_reach hh hr) he)]
    unfold saveU
    rw [e2]
    exact hs

/-- The example file with everything assigned. -/
example (bo : BO) : ∃ bytes, saveU exHeap (fun _ _ => false) 10 bo exInfo 1 = .ok bytes := by
  obtain ⟨bytes, hs⟩ := exHeap_save bo
  exact ⟨bytes, (C74_save exHeap_ok (exHeap_inj 1) bytes).2 ⟨hs, fun _ _ _ _ _ _ => rfl⟩⟩

/-- C74: a file that could be saved with all properties assigned, of which a reachable object lacks a mandatory one:
`AttributeError` is raised. -/
theorem C74_save_raises (hh : HeapOK h) (inj : IidInj h content) {bytes : Bytes}
    (hs : save h fuel bo hd content = .ok bytes) {r : Ref} {e : Entry} (hr : Reach h content r) (he : h r = .ok e)
    {s : Slot} (hm : s ∈ e.obj.slots) (hu : us r s = true) :
    saveU h us fuel bo hd content = .error .attribute := by
  obtain ⟨_, _, st, _, _, _, hloop, _⟩ := save_ok hs
  have hq : (saveRun h fuel bo hd content).err = none := by
    unfold save at hs
    simp only at hs
    split at hs
    · cases hs
    · assumption
  rcases saveLoopU_error (us := us) hloop with h1 | h1
  · have e2 : saveRunU h us fuel bo hd content = saveRun h fuel bo hd content := by
      rw [saveRun_eq, saveRunU_eq, h1, hloop]
    have : saveU h us fuel bo hd content = .ok bytes := by
      unfold saveU
      rw [e2]
      exact hs
    have := ((C74_save hh inj bytes).1 this).2 r e hr he s hm
    rw [hu] at this
    cases this
  · rw [saveRun_eq] at hq
    have := runWith_error hq h1
    rw [← saveRunU_eq] at this
    unfold saveU
    simp only [this]

/-- The start of the clip, the second object that the sequence refers to, was never assigned. -/
theorem exUnset_raises (bo : BO) :
    saveU exHeap (fun r s => r = 3 ∧ s = ([], "start_time")) 10 bo exInfo 1 = .error .attribute := by
  obtain ⟨bytes, hs⟩ := exHeap_save bo
  refine C74_save_raises exHeap_ok (exHeap_inj 1) hs (r := 3) (e := ⟨13, true, exClip, exClip.visits⟩)
    ⟨by decide, .single ?_⟩ rfl (s := ([], "start_time"))
    (by simp [Obj.slots, Obj.helperSlots, exClip, Obj.cls, mandatory, own]) (by simp)
  exact ⟨⟨11, true, exSeq, exSeq.visits⟩, rfl, by decide, by decide, .item 3, by decide, rfl⟩

/-- C74: the file that such a save leaves, at any moment, cannot be opened, or opens as a file without objects and
without content. -/
theorem C74_left (ht : TextOK .macroman hd.last_save_str) {e : Err}
    (he : (saveRunU h us fuel bo hd content).err = some e) (k : Nat) {f : AvbFile} {o : Option Obj}
    (ho : openFile ((saveRunU h us fuel bo hd content).crash k) = .ok (f, o)) :
    o = none ∧ f.header.num_objects = 0 := by
  have hp : (saveRunU h us fuel bo hd content).patched = none := by
    rw [saveRunU_eq] at he ⊢
    exact runWith_patched he
  have hpre : (saveRunU h us fuel bo hd content).appended <+: (saveRun h fuel bo hd content).appended := by
    rw [saveRun_eq, saveRunU_eq]
    exact runWith_prefix (saveLoopU_prefix _ _)
  have hc : (saveRunU h us fuel bo hd content).crash k =
      (saveRun h fuel bo hd content).crash (min k (saveRunU h us fuel bo hd content).appended.length) := by
    have hle := hpre.length_le
    unfold SaveRun.crash
    rw [hp]
    simp only
    obtain ⟨t, ht'⟩ := hpre
    have : (saveRunU h us fuel bo hd content).appended.take k = (saveRun h fuel bo hd content).appended.take
        (min k (saveRunU h us fuel bo hd content).appended.length) := by
      rw [← ht', List.take_append_of_le_length (Nat.min_le_right _ _), ← List.take_take, List.take_length]
    rw [this]
    split
    · rfl
    · rw [if_pos (by omega)]
  rw [hc] at ho
  have hle := hpre.length_le
  exact C35_before_update ht _ (by omega) ho

example (bo : BO) (f : AvbFile) (o : Option Obj)
    (ho : openFile ((saveRunU exHeap (fun r s => r = 3 ∧ s = ([], "start_time")) 10 bo exInfo 1).crash 1000) =
      .ok (f, o)) : o = none := by
  have he : ∃ e, (saveRunU exHeap (fun r s => r = 3 ∧ s = ([], "start_time")) 10 bo exInfo 1).err = some e := by
    have := exUnset_raises bo
    unfold saveU at this
    simp only at this
    split at this
    · exact ⟨_, by assumption⟩
    · cases this
  obtain ⟨e, he⟩ := he
  exact (C74_left exInfo_ok he 1000 ho).1

end Avb

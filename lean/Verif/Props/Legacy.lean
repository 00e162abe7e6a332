import Verif.Lemmas.Formats
import Verif.Props.Format

/-!
C54: the two 32 bit words that old programs read instead of the mob id belong to the mob id of the
object, and stand where the format puts them.
-/

namespace Avb

/-- The first word: bytes 16 to 19 of the mob id, in the byte order of the file. -/
def legacyFirst (bo : BO) (m : MobID) : Bytes :=
  match bo with
  | .little => (m.bytes.drop 16).take 4
  | .big => ((m.bytes.drop 16).take 4).reverse

/-- The second word: bytes 20 to 23 of the mob id, in the byte order of the file. -/
def legacySecond (bo : BO) (m : MobID) : Bytes :=
  match bo with
  | .little => (m.bytes.drop 20).take 4
  | .big => ((m.bytes.drop 20).take 4).reverse

/-- The classes whose data have the two words at a fixed place: the format of what is before them
(src/avb/components.py:292-300, src/avb/trackgroups.py:1084-1094,
src/avb/misc.py:572-580, 631-640, 860-869), and the mob id of the object. -/
def Obj.legacy (d : RCtx) : Obj → Option (Fmt × Option MobID)
  | .SCLP x => some (Fmt.seq [Fmt.clip d, Fmt.byte 2, Fmt.byte 3], x.mob_id)
  | .CMPO x => some (Fmt.trackGroup d fun _ => Fmt.seq [Fmt.byte 2, Fmt.byte 2], x.mob_id)
  | .MSML x => some (Fmt.lit [2, 2], x.mob_id)
  | .APOS x => some (Fmt.lit [2, 1], x.mob_id)
  | .ABOB x => some (Fmt.lit [2, 1], x.mob_id)
  | .DIDP x => some (Fmt.lit [2, 1], x.mob_id)
  | .MPGP x => some (Fmt.lit [2, 1], x.mob_id)
  | .MCMR x => some (Fmt.lit [2, 1], x.mob_id)
  | .TMBC x => some (Fmt.lit [2, 1], x.mob_id)
  | _ => none

theorem leVal_two (a b : Bytes) (ha : a.length = 2) :
    leVal (a ++ b) = leVal a + leVal b * 65536 := by
  match a, ha with
  | [x, y], _ =>
    simp only [List.cons_append, List.nil_append, leVal]
    omega

theorem MobID.timeLow_eq (m : MobID) : m.material.timeLow = leVal ((m.bytes.drop 16).take 4) := by
  have := m.len
  unfold UUID.timeLow MobID.material swapUuid unpackNat
  simp [this]

theorem MobID.timeMidHi_eq (m : MobID) :
    m.material.timeMid + m.material.timeHi * 65536 = leVal ((m.bytes.drop 20).take 4) := by
  have hm := m.len
  have e : (m.bytes.drop 20).take 4 = (m.bytes.drop 20).take 2 ++ (m.bytes.drop 22).take 2 := by
    rw [show (4 : Nat) = 2 + 2 from rfl, List.take_add, List.drop_drop]
  rw [e, leVal_two _ _ (by simp [hm])]
  unfold UUID.timeMid UUID.timeHi MobID.material swapUuid unpackNat
  have z : List.drop 6 (List.take 4 (List.drop 16 m.bytes)).reverse = [] :=
    List.drop_of_length_le (by simp [hm])
  simp [List.drop_append, hm, z]

theorem legacy_pack (bo : BO) (b : Bytes) (h : b.length = 4) :
    packNat bo 4 (leVal b) = match (generalizing := false) bo with
      | .little => b
      | .big => b.reverse := by
  have := leBytes_leVal b
  rw [h] at this
  cases bo <;> simp [packNat, this]

theorem wInt_legacy {bo : BO} {t : IntTy} (ht : t.width = 4) {n : Nat} {b out : Bytes}
    (hb : b.length = 4) (hn : n = leVal b) (h : wInt bo t (n : Int) = .ok ((), out)) :
    out = match (generalizing := false) bo with
      | .little => b
      | .big => b.reverse := by
  unfold wInt at h
  split at h
  · injection h with h
    injection h with _ h
    rw [← h, ← legacy_pack bo b hb, ht, hn]
    have h2 : leVal b < 2 ^ 32 := by
      have := leVal_lt b
      rw [hb] at this
      simpa using this
    congr 1
    omega
  · cases h

theorem wInt_first {bo : BO} {t : IntTy} (ht : t.width = 4) {m : MobID} {out : Bytes}
    (h : wInt bo t m.lo = .ok ((), out)) : out = legacyFirst bo m :=
  wInt_legacy ht (by simp [m.len]) m.timeLow_eq h

theorem wInt_second {bo : BO} {t : IntTy} (ht : t.width = 4) {m : MobID} {out : Bytes}
    (h : wInt bo t m.hi = .ok ((), out)) : out = legacySecond bo m := by
  refine wInt_legacy (n := m.material.timeMid + m.material.timeHi * 65536) ht (by simp [m.len])
    m.timeMidHi_eq ?_
  rw [← h]
  unfold MobID.hi
  push_cast
  rfl

/-- What the writers of the two words have in common. -/
theorem legacy_words {c : WCtx} {o : Option MobID} {k : MobID → Wr Unit} {bs : Bytes}
    (h : (do
      let mob_id ← Wr.get o
      wInt c.bo .u32 mob_id.lo
      wInt c.bo .u32 mob_id.hi
      k mob_id) = .ok ((), bs)) :
    ∃ m post, o = some m ∧ bs = legacyFirst c.bo m ++ legacySecond c.bo m ++ post := by
  obtain ⟨m, o1, o2, h1, t1, rfl⟩ := Wr.bind_eq_ok h
  obtain ⟨⟨⟩, o3, o4, h2, t2, rfl⟩ := Wr.bind_eq_ok t1
  obtain ⟨⟨⟩, o5, o6, h3, t3, rfl⟩ := Wr.bind_eq_ok t2
  cases o with
  | none => cases h1
  | some x =>
    cases h1
    exact ⟨m, o6, rfl, by rw [wInt_first rfl h2, wInt_second rfl h3]; simp⟩

theorem legacy_tags {c : WCtx} {o : Option MobID} {k : MobID → Wr Unit} {bs : Bytes} {u v : Int}
    (h : (do
      wU8 u
      wU8 v
      let mob_id ← Wr.get o
      wInt c.bo .u32 mob_id.lo
      wInt c.bo .u32 mob_id.hi
      k mob_id) = .ok ((), bs)) :
    ∃ m post, o = some m ∧ bs = [UInt8.ofNat u.toNat, UInt8.ofNat v.toNat] ++
      legacyFirst c.bo m ++ legacySecond c.bo m ++ post := by
  obtain ⟨⟨⟩, o1, o2, h1, t1, rfl⟩ := Wr.bind_eq_ok h
  obtain ⟨⟨⟩, o3, o4, h2, t2, rfl⟩ := Wr.bind_eq_ok t1
  obtain ⟨m, post, e, rfl⟩ := legacy_words t2
  refine ⟨m, post, e, ?_⟩
  rw [(wU8_out h1).2.2, (wU8_out h2).2.2]
  simp

/-- Where the words are, and whose they are. -/
def LegacyIn (F : Fmt) (bo : BO) (o : Option MobID) (bs : Bytes) : Prop :=
  ∃ m pre post, o = some m ∧ F pre ∧ bs = pre ++ legacyFirst bo m ++ legacySecond bo m ++ post

theorem LegacyIn.more {F : Fmt} {bo : BO} {o : Option MobID} {bs q : Bytes}
    (h : LegacyIn F bo o bs) : LegacyIn F bo o (bs ++ q) := by
  obtain ⟨m, pre, post, h1, h2, rfl⟩ := h
  exact ⟨m, pre, post ++ q, h1, h2, by simp⟩

theorem LegacyIn.bind {F : Fmt} {bo : BO} {o : Option MobID} {bs : Bytes} {w : Wr Unit}
    {k : Unit → Wr Unit} (h : ∀ b, w = .ok ((), b) → LegacyIn F bo o b)
    (hw : (w >>= k) = .ok ((), bs)) : LegacyIn F bo o bs := by
  obtain ⟨⟨⟩, o1, o2, h1, h2, rfl⟩ := Wr.bind_eq_ok hw
  exact (h _ h1).more

theorem MSMLocator.legacy {c : WCtx} {x : MSMLocator} {bs : Bytes}
    (h : x.write c = .ok ((), bs)) : LegacyIn (Fmt.lit [2, 2]) c.bo x.mob_id bs := by
  obtain ⟨m, post, e, rfl⟩ := legacy_tags h
  exact ⟨m, _, post, e, rfl, rfl⟩

theorem Position.legacy {c : WCtx} {x : Position} {bs : Bytes}
    (h : x.writeBody c = .ok ((), bs)) : LegacyIn (Fmt.lit [2, 1]) c.bo x.mob_id bs := by
  obtain ⟨m, post, e, rfl⟩ := legacy_tags h
  exact ⟨m, _, post, e, rfl, rfl⟩

theorem MobRef.legacy {c : WCtx} {x : MobRef} {bs : Bytes}
    (h : x.writeBody c = .ok ((), bs)) : LegacyIn (Fmt.lit [2, 1]) c.bo x.mob_id bs := by
  obtain ⟨m, post, e, rfl⟩ := legacy_tags h
  exact ⟨m, _, post, e, rfl, rfl⟩

theorem BOBPosition.legacy {c : WCtx} {x : BOBPosition} {bs : Bytes}
    (h : x.writeBody c = .ok ((), bs)) : LegacyIn (Fmt.lit [2, 1]) c.bo x.mob_id bs :=
  LegacyIn.bind (fun _ => Position.legacy) h

theorem DIDPosition.legacy {c : WCtx} {x : DIDPosition} {bs : Bytes}
    (h : x.writeBody c = .ok ((), bs)) : LegacyIn (Fmt.lit [2, 1]) c.bo x.mob_id bs :=
  LegacyIn.bind (fun _ => BOBPosition.legacy) h

theorem SourceClip.legacy {c : WCtx} {d : RCtx} (hl : Linked c d) {x : SourceClip}
    (ht : TextsOK x.texts) {bs : Bytes} (h : x.write c = .ok ((), bs)) :
    LegacyIn (Fmt.seq [Fmt.clip d, Fmt.byte 2, Fmt.byte 3]) c.bo x.mob_id bs := by
  obtain ⟨⟨⟩, o1, o2, h1, t1, rfl⟩ := Wr.bind_eq_ok h
  obtain ⟨m, post, e, rfl⟩ := legacy_tags t1
  obtain ⟨p, e1, hp⟩ := (IsReads.h (r := Clip.read d)).fwd (Clip.rt hl ht _ h1 [0] trivial) (by simp)
  cases List.append_cancel_right e1
  exact ⟨m, o1 ++ [2, 3], post, e, ⟨o1, _, rfl, hp, [2], _, rfl, rfl, [3], [], rfl, rfl, rfl⟩, by simp⟩

theorem Composition.legacy {c : WCtx} {d : RCtx} (hl : Linked c d) {x : Composition}
    (ht : TextsOK x.texts) {bs : Bytes} (h : x.write c = .ok ((), bs)) :
    LegacyIn (Fmt.trackGroup d fun _ => Fmt.seq [Fmt.byte 2, Fmt.byte 2]) c.bo x.mob_id bs := by
  have hr : Reads true (Fmt.trackGroup d fun _ => Fmt.seq [Fmt.byte 2, Fmt.byte 2])
      (TrackGroup.read d >>= fun _ => rTag 2 >>= fun _ => rTag 2) := by
    refine Reads.trackGroup (fun _ => by mono) fun _ _ _ => ?_
    reads_step
    simp only [Fmt.seq, Fmt.cat_nil]
    exact Reads.tag rfl
  obtain ⟨⟨⟩, o1, o2, h1, t1, rfl⟩ := Wr.bind_eq_ok h
  obtain ⟨m, post, e, rfl⟩ := legacy_tags t1
  have hrd := TrackGroup.rt hl ht _ h1 [2, 2, 0] (by simp [Follow])
  have : (TrackGroup.read d >>= fun _ => rTag 2 >>= fun _ => rTag 2) ((o1 ++ [2, 2]) ++ [0]) =
      .ok ((), [0]) := by
    rw [Rd.bind_apply, List.append_assoc]
    simp only [List.cons_append, List.nil_append]
    rw [hrd]
    rfl
  obtain ⟨p, e1, hp⟩ := hr.fwd this (by simp)
  cases List.append_cancel_right e1
  exact ⟨m, o1 ++ [2, 2], post, e, hp, by simp⟩

/-- C54: in what is written for an object with legacy words, the two words are those of its mob id
and stand right after the part the format puts before them; without a mob id nothing is written. -/
theorem C54_legacy {c : WCtx} {d : RCtx} (hl : Linked c d) {x : Obj} (hx : x.Readable) {F : Fmt}
    {o : Option MobID} (hf : x.legacy d = some (F, o)) {bs : Bytes}
    (h : x.write c = .ok ((), bs)) :
    ∃ m pre post, o = some m ∧ F pre ∧
      bs = pre ++ legacyFirst c.bo m ++ legacySecond c.bo m ++ post := by
  cases x <;> simp only [Obj.legacy, reduceCtorEq, Option.some.injEq, Prod.mk.injEq] at hf <;>
    obtain ⟨rfl, rfl⟩ := hf
  case SCLP x => exact SourceClip.legacy hl hx h
  case CMPO x => exact Composition.legacy hl hx h
  case MSML x => exact MSMLocator.legacy h
  case APOS x => exact LegacyIn.bind (fun _ => Position.legacy) h
  case ABOB x => exact LegacyIn.bind (fun _ => BOBPosition.legacy) h
  case DIDP x => exact LegacyIn.bind (fun _ => DIDPosition.legacy) h
  case MPGP x => exact LegacyIn.bind (fun _ => DIDPosition.legacy) h
  case MCMR x => exact LegacyIn.bind (fun _ => MobRef.legacy) h
  case TMBC x => exact LegacyIn.bind (fun _ => MobRef.legacy) h

/-- C54: an audio suite effect with a mob id stores the same two words, each after a byte 71, in an
optional field right after its plugin. -/
theorem C54_plugin {c : WCtx} {d : RCtx} (hl : Linked c d) {x : AudioSuitePluginEffect}
    (hx : (Obj.ASPI x).Readable) {m : MobID} (hm : x.mob_id = some m) {bs : Bytes}
    (h : (Obj.ASPI x).write c = .ok ((), bs)) :
    ∃ pre post, Fmt.seq [Fmt.trackEffect d, Fmt.byte 2, Fmt.byte 1, Fmt.const d.bo .s32 1,
        Fmt.plugin d] pre ∧
      bs = pre ++ [1, 1, 71] ++ legacyFirst c.bo m ++ [71] ++ legacySecond c.bo m ++ post := by
  obtain ⟨ht, hp⟩ := hx
  obtain ⟨q, hq⟩ : ∃ q, x.plugins = [q] := by
    match hx : x.plugins, hp with
    | [q], _ => exact ⟨q, rfl⟩
  have ht1 : TextsOK x.texts := fun p hp => ht p (by simp [AudioSuitePluginEffect.allTexts, hp])
  have ht2 : TextsOK q.texts := fun p hp => ht p (by
    simp only [AudioSuitePluginEffect.allTexts, List.mem_append, List.mem_flatMap]
    exact Or.inr ⟨q, by simp [hq], hp⟩)
  obtain ⟨⟨⟩, o1, b1, h1, t1, rfl⟩ := Wr.bind_eq_ok h
  obtain ⟨⟨⟩, o2, b2, h2, t2, rfl⟩ := Wr.bind_eq_ok t1
  obtain ⟨⟨⟩, o3, b3, h3, t3, rfl⟩ := Wr.bind_eq_ok t2
  obtain ⟨⟨⟩, o4, b4, h4, t4, rfl⟩ := Wr.bind_eq_ok t3
  obtain ⟨⟨⟩, o5, b5, h5, t5, rfl⟩ := Wr.bind_eq_ok t4
  obtain ⟨⟨⟩, o6, b6, h6, t6, rfl⟩ := Wr.bind_eq_ok t5
  have hpre : Fmt.seq [Fmt.trackEffect d, Fmt.byte 2, Fmt.byte 1, Fmt.const d.bo .s32 1,
        Fmt.plugin d] (o1 ++ (o2 ++ (o3 ++ (o4 ++ o5)))) := by
    have hw : (do
        x.toTrackEffect.writeBody c
        wU8 0x02
        wU8 0x01
        wInt c.bo .s32 x.plugins.length
        q.write c) = .ok ((), o1 ++ (o2 ++ (o3 ++ (o4 ++ o5)))) := by
      refine Wr.bind_ok h1 (Wr.bind_ok h2 (Wr.bind_ok h3 (Wr.bind_ok h4 ?_)))
      rw [hq] at h5
      obtain ⟨⟨⟩, p1, p2, g1, g2, rfl⟩ := Wr.bind_eq_ok h5
      cases g2
      rw [g1, List.append_nil]
    have hrt : RT (do
        x.toTrackEffect.writeBody c
        wU8 0x02
        wU8 0x01
        wInt c.bo .s32 x.plugins.length
        q.write c) (do
        let _ ← TrackEffect.readBody d
        rTag 0x02
        rTag 0x01
        let n ← rInt d.bo .s32
        Rd.guard (n = 1) .assertion
        ASPIPlugin.read d) q.norm := by
      refine RTN.bind (TrackEffect.rt_body hl ht1) (by starts) ?_
      rt_steps
      exact ASPIPlugin.rt hl ht2
    have hr : Reads true (Fmt.seq [Fmt.trackEffect d, Fmt.byte 2, Fmt.byte 1, Fmt.const d.bo .s32 1,
        Fmt.plugin d]) (do
        let _ ← TrackEffect.readBody d
        rTag 0x02
        rTag 0x01
        let n ← rInt d.bo .s32
        Rd.guard (n = 1) .assertion
        ASPIPlugin.read d) := by
      reads [Fmt.plugin, Fmt.pluginChunk, ASPIPlugin.read, ASPIPluginChunk.read]
    obtain ⟨p, e1, hp⟩ := hr.fwd (hrt _ hw [0] trivial) (by simp)
    cases List.append_cancel_right e1
    exact hp
  rw [hm] at h6
  obtain ⟨⟨⟩, a1, c1, i1, j1, rfl⟩ := Wr.bind_eq_ok h6
  obtain ⟨⟨⟩, a2, c2, i2, j2, rfl⟩ := Wr.bind_eq_ok j1
  obtain ⟨⟨⟩, a3, c3, i3, j3, rfl⟩ := Wr.bind_eq_ok j2
  obtain ⟨⟨⟩, a4, c4, i4, j4, rfl⟩ := Wr.bind_eq_ok j3
  obtain ⟨⟨⟩, a5, a6, i5, i6, rfl⟩ := Wr.bind_eq_ok j4
  refine ⟨_, b6, hpre, ?_⟩
  rw [(wU8_out i1).2.2, (wU8_out i2).2.2, (wU8_out i3).2.2, wInt_first rfl i4, (wU8_out i5).2.2,
    wInt_second rfl i6]
  simp

/-- A position of a mob id whose 32 bytes are 0 to 31: the words of a little endian file are its bytes
16 to 23 in order, those of a big endian file are reversed; a changed mob id changes the words. -/
example :
    let m : MobID := ⟨(List.range 32).map UInt8.ofNat, rfl⟩
    let c : BO → WCtx := fun bo => { bo, refMap := fun _ => none }
    (∃ post, (Obj.APOS { mob_id := some m }).write (c .little) =
      .ok ((), [2, 1] ++ [16, 17, 18, 19] ++ [20, 21, 22, 23] ++ post)) ∧
    (∃ post, (Obj.APOS { mob_id := some m }).write (c .big) =
      .ok ((), [2, 1] ++ [19, 18, 17, 16] ++ [23, 22, 21, 20] ++ post)) ∧
    ∀ post, (Obj.APOS { mob_id := some MobID.zero }).write (c .big) ≠
      .ok ((), [2, 1] ++ [19, 18, 17, 16] ++ [23, 22, 21, 20] ++ post) := by
  intro m c
  have hl : ∀ bo, Linked (c bo) { bo := bo, nobj := 1 } := fun bo =>
    ⟨rfl, Nat.one_pos, fun _ _ h => by cases h⟩
  have hw : ∀ bo, ∃ bs, (Obj.APOS { mob_id := some m }).write (c bo) = .ok ((), bs) := by
    intro bo
    have h1 : ((Obj.APOS { mob_id := some m }).write (c bo)).toBool = true := by
      cases bo <;> decide +kernel
    cases h2 : (Obj.APOS { mob_id := some m }).write (c bo) with
    | error e => rw [h2] at h1; cases h1
    | ok v => exact ⟨v.2, rfl⟩
  refine ⟨?_, ?_, ?_⟩
  · obtain ⟨bs, hb⟩ := hw .little
    obtain ⟨m', pre, post, e, rfl, rfl⟩ := C54_legacy (x := .APOS _) (hl _) trivial rfl hb
    cases e
    exact ⟨post, hb⟩
  · obtain ⟨bs, hb⟩ := hw .big
    obtain ⟨m', pre, post, e, rfl, rfl⟩ := C54_legacy (x := .APOS _) (hl _) trivial rfl hb
    cases e
    exact ⟨post, hb⟩
  · intro post hb
    obtain ⟨m', pre, post', e, rfl, e2⟩ := C54_legacy (x := .APOS _) (hl _) trivial rfl hb
    cases e
    have := congrArg (fun l => l.take 6) e2
    simp [legacyFirst, legacySecond, MobID.zero, c] at this

end Avb

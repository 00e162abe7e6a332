import Verif.Model.RawID
import Verif.Props.MobIDs

/-
C80: assignments to the fields of a mob id that are refused, and mob ids of another size than 32 bytes.
-/

namespace Avb.Raw

/-! ### assignments that are refused -/

theorem overwrite_length {s v : Bytes} {off : Nat} (h : off + v.length ≤ s.length) :
    (overwrite s off v).length = s.length := by
  simp only [overwrite, List.length_append, List.length_take, List.length_drop]
  omega

theorem overwrite_put (m : MobID) {off : Nat} {v : Bytes} (h : off + v.length ≤ 32) :
    overwrite m.bytes off v = (m.put off v).bytes := by
  apply List.ext_getElem?
  intro i
  have hm := m.len
  by_cases hi : i < 32
  · have e1 : (m.put off v).bytes[i]? = some ((m.put off v).byteAt i) := by
      rw [MobID.byteAt_eq _ hi, List.getElem?_eq_getElem]
    rw [e1, MobID.byteAt_put _ _ _ hi]
    simp only [overwrite]
    by_cases h1 : i < off
    · rw [if_neg (by omega), List.append_assoc, List.getElem?_append_left (by simp; omega),
        List.getElem?_take_of_lt h1, MobID.byteAt_eq _ hi, List.getElem?_eq_getElem]
    · by_cases h2 : i < off + v.length
      · rw [if_pos ⟨by omega, h2⟩, List.append_assoc, List.getElem?_append_right (by simp; omega),
          List.getElem?_append_left (by simp; omega), List.length_take, Nat.min_eq_left (by omega),
          List.getD_eq_getElem?_getD, List.getElem?_eq_getElem (by omega)]
        rfl
      · rw [if_neg (by omega), List.getElem?_append_right (by simp; omega), List.getElem?_drop,
          MobID.byteAt_eq _ hi, List.getElem?_eq_getElem (by simp; omega)]
        congr 2
        simp only [List.length_append, List.length_take]
        omega
  · rw [List.getElem?_eq_none (by rw [overwrite_length (by omega)]; omega),
      List.getElem?_eq_none (by rw [(m.put off v).len]; omega)]

theorem set_put (m : MobID) {i : Nat} (b : UInt8) (h : i < 32) : m.bytes.set i b = (m.put i [b]).bytes := by
  rw [← overwrite_put m (by simp; omega), overwrite]
  rw [List.set_eq_take_append_cons_drop, if_pos (by rw [m.len]; exact h)]
  simp

/-- What an assignment does to an id of 32 bytes, compared with the one of Model/MobID.lean. -/
structure Agrees (raw : Mut Unit) (m : MobID) (x : Except Err MobID) : Prop where
  ok : ∀ m', x = .ok m' → raw m.bytes = .ok () m'.bytes
  error : ∀ e, x = .error e → ∃ m' : MobID, raw m.bytes = .error e m'.bytes

theorem setByte_agrees (m : MobID) {i : Nat} (hi : i < 32) (v : Int) : Agrees (setByte i v) m (m.setByte i v) := by
  constructor
  · intro m' h
    unfold MobID.setByte at h
    unfold setByte
    split at h
    · rename_i hv
      cases h
      rw [if_pos hv, if_pos (by rw [m.len]; exact hi), set_put m _ hi]
    · cases h
  · intro e h
    unfold MobID.setByte at h
    unfold setByte
    split at h
    · cases h
    · rename_i hv
      cases h
      rw [if_neg hv]
      exact ⟨m, rfl⟩

theorem takeWhile_all {p : Int → Bool} {l : List Int} : (l.takeWhile p).length = l.length ↔ ∀ x ∈ l, p x = true := by
  induction l with
  | nil => simp
  | cons a l ih =>
    rw [List.takeWhile_cons]
    split
    · rename_i h
      simp [ih, h]
    · rename_i h
      simp [h]

theorem packBytes_agrees (m : MobID) {off n : Nat} (hn : off + n ≤ 32) (v : List Int) :
    Agrees (packBytes off n v) m (m.packBytes off n v) := by
  constructor
  · intro m' h
    unfold MobID.packBytes at h
    unfold packBytes
    split at h
    · rename_i hv
      cases h
      have hg : v.takeWhile (fun v => decide (0 ≤ v ∧ v < 256)) = v := by
        refine (List.takeWhile_prefix _).eq_of_length (takeWhile_all.2 ?_)
        intro x hx
        simpa using hv.2 x hx
      rw [if_neg (by simpa using hv.1), if_neg (by rw [m.len]; omega)]
      dsimp only
      rw [hg, if_pos hv.1, hv.1, Nat.sub_self, List.replicate_zero, List.append_nil, overwrite_put m]
      rw [List.length_map, hv.1]
      exact hn
    · cases h
  · intro e h
    unfold MobID.packBytes at h
    unfold packBytes
    split at h
    · cases h
    · rename_i hv
      cases h
      by_cases h1 : v.length ≠ n
      · rw [if_pos h1]; exact ⟨m, rfl⟩
      · rw [if_neg h1, if_neg (by rw [m.len]; omega)]
        dsimp only
        have h2 := List.takeWhile_sublist (l := v) (fun v => decide (0 ≤ v ∧ v < 256)) |>.length_le
        rw [overwrite_put m (by simp only [List.length_append, List.length_map, List.length_replicate]; omega)]
        rw [if_neg]
        · exact ⟨_, rfl⟩
        · intro hl
          apply hv
          have h3 : v.length = n := by simpa using h1
          refine ⟨h3, ?_⟩
          have := takeWhile_all.1 (hl.trans h3.symm)
          intro x hx
          simpa using this x hx

theorem packWord_agrees (m : MobID) {off n : Nat} (hn : off + n ≤ 32) (v : Int) {x : Except Err MobID}
    (hx : x = if 0 ≤ v ∧ v < 256 ^ n then .ok (m.put off (leBytes n v.toNat)) else .error .struct) :
    Agrees (packWord off n v) m x := by
  subst hx
  constructor
  · intro m' h
    unfold packWord
    split at h
    · rename_i hv
      cases h
      rw [if_neg (by rw [m.len]; omega), if_pos hv, overwrite_put m (by simpa using hn)]
    · cases h
  · intro e h
    unfold packWord
    split at h
    · cases h
    · rename_i hv
      cases h
      rw [if_neg (by rw [m.len]; omega), if_neg hv, overwrite_put m (by simpa using hn)]
      exact ⟨_, rfl⟩

/-- C80: on ids of 32 bytes the assignments to the fields are those of C29, exceptions included. -/
theorem C80_agrees (m : MobID) (v : Int) (l : List Int) (u : UUID) :
    Agrees (setLabel l) m (m.setLabel l) ∧ Agrees (setLength v) m (m.setLength v) ∧
    Agrees (setInstanceHigh v) m (m.setInstanceHigh v) ∧ Agrees (setInstanceMid v) m (m.setInstanceMid v) ∧
    Agrees (setInstanceLow v) m (m.setInstanceLow v) ∧ Agrees (setData1 v) m (m.setData1 v) ∧
    Agrees (setData2 v) m (m.setData2 v) ∧ Agrees (setData3 v) m (m.setData3 v) ∧
    Agrees (setData4 l) m (m.setData4 l) ∧ setMaterial u m.bytes = .ok () (m.setMaterial u).bytes ∧
    setInt v m.bytes = .ok () (MobID.ofInt v).bytes := by
  refine ⟨packBytes_agrees m (by decide) l, setByte_agrees m (by decide) v, setByte_agrees m (by decide) v,
    setByte_agrees m (by decide) v, setByte_agrees m (by decide) v, packWord_agrees m (by decide) v ?_,
    packWord_agrees m (by decide) v ?_, packWord_agrees m (by decide) v ?_, packBytes_agrees m (by decide) l, ?_, ?_⟩
  · unfold MobID.setData1; norm_num
  · unfold MobID.setData2; norm_num
  · unfold MobID.setData3; norm_num
  · have hu : u.bytesLE.length = 16 := by simp [UUID.bytesLE, swapUuid, u.len]
    unfold setMaterial MobID.setMaterial
    rw [← overwrite_put m (by omega), overwrite, hu, List.drop_eq_nil_of_le (by rw [m.len]), List.append_nil]
  · rfl

/-- C80: a number that does not fit is refused for `Data1`, but the field is zero after that; the other fields
are as before. -/
theorem C80_data1_refused (m : MobID) {v : Int} (h : ¬ (0 ≤ v ∧ v < 2 ^ 32)) :
    ∃ m' : MobID, setData1 v m.bytes = .error .struct m'.bytes ∧ m'.fields = { m.fields with data1 := 0 } := by
  refine ⟨m.put 16 [0, 0, 0, 0], ?_, ?_⟩
  · unfold setData1 packWord
    rw [if_neg (by rw [m.len]; decide), if_neg (by norm_num at h ⊢; exact h), overwrite_put m (by decide)]
    rfl
  · simp only [MobID.fields, MobID.data1_eq, MobID.data2_eq, MobID.data3_eq]
    induction m using MobID.cases32
    rfl

/-- C80: the same for `Data2`. -/
theorem C80_data2_refused (m : MobID) {v : Int} (h : ¬ (0 ≤ v ∧ v < 2 ^ 16)) :
    ∃ m' : MobID, setData2 v m.bytes = .error .struct m'.bytes ∧ m'.fields = { m.fields with data2 := 0 } := by
  refine ⟨m.put 20 [0, 0], ?_, ?_⟩
  · unfold setData2 packWord
    rw [if_neg (by rw [m.len]; decide), if_neg (by norm_num at h ⊢; exact h), overwrite_put m (by decide)]
    rfl
  · simp only [MobID.fields, MobID.data1_eq, MobID.data2_eq, MobID.data3_eq]
    induction m using MobID.cases32
    rfl

/-- C80: the same for `Data3`. -/
theorem C80_data3_refused (m : MobID) {v : Int} (h : ¬ (0 ≤ v ∧ v < 2 ^ 16)) :
    ∃ m' : MobID, setData3 v m.bytes = .error .struct m'.bytes ∧ m'.fields = { m.fields with data3 := 0 } := by
  refine ⟨m.put 22 [0, 0], ?_, ?_⟩
  · unfold setData3 packWord
    rw [if_neg (by rw [m.len]; decide), if_neg (by norm_num at h ⊢; exact h), overwrite_put m (by decide)]
    rfl
  · simp only [MobID.fields, MobID.data1_eq, MobID.data2_eq, MobID.data3_eq]
    induction m using MobID.cases32
    rfl

/-- C80: a value of `length` or an instance byte that is no byte is refused and the id stays as it was. -/
theorem C80_byte_refused (m : MobID) {v : Int} (h : ¬ (0 ≤ v ∧ v < 256)) :
    setLength v m.bytes = .error .value m.bytes ∧ setInstanceHigh v m.bytes = .error .value m.bytes ∧
    setInstanceMid v m.bytes = .error .value m.bytes ∧ setInstanceLow v m.bytes = .error .value m.bytes := by
  unfold setLength setInstanceHigh setInstanceMid setInstanceLow setByte
  simp only [if_neg h, and_self]

/-- C80: a label or last part of the material with a wrong number of values is refused and the id stays as it
was. -/
theorem C80_count_refused (m : MobID) (v : List Int) :
    (v.length ≠ 12 → setLabel v m.bytes = .error .struct m.bytes) ∧
    (v.length ≠ 8 → setData4 v m.bytes = .error .struct m.bytes) := by
  unfold setLabel setData4 packBytes
  exact ⟨fun h => by rw [if_pos h], fun h => by rw [if_pos h]⟩

theorem put_label (m : MobID) {b : Bytes} (h : b.length = 12) :
    (m.put 0 b).fields = { m.fields with label := b } := by
  match b, h with
  | [c0, c1, c2, c3, c4, c5, c6, c7, c8, c9, c10, c11], _ =>
    induction m using MobID.cases32
    rfl

theorem put_data4 (m : MobID) {b : Bytes} (h : b.length = 8) :
    (m.put 24 b).fields = { m.fields with data4 := b } := by
  match b, h with
  | [c0, c1, c2, c3, c4, c5, c6, c7], _ =>
    induction m using MobID.cases32
    rfl

/-- C80: with the right number of values, of which one is no byte, the assignment is refused, but the values
before the first such one are stored and the rest of the field is zero. -/
theorem C80_values_refused (m : MobID) {good rest : List Int} {bad : Int} (hg : ∀ x ∈ good, 0 ≤ x ∧ x < 256)
    (hb : ¬ (0 ≤ bad ∧ bad < 256)) :
    (good.length + 1 + rest.length = 12 → ∃ m' : MobID,
      setLabel (good ++ bad :: rest) m.bytes = .error .struct m'.bytes ∧
      m'.fields = { m.fields with
        label := good.map (fun x => UInt8.ofNat x.toNat) ++ List.replicate (12 - good.length) 0 }) ∧
    (good.length + 1 + rest.length = 8 → ∃ m' : MobID,
      setData4 (good ++ bad :: rest) m.bytes = .error .struct m'.bytes ∧
      m'.fields = { m.fields with
        data4 := good.map (fun x => UInt8.ofNat x.toNat) ++ List.replicate (8 - good.length) 0 }) := by
  have ht : (good ++ bad :: rest).takeWhile (fun v => decide (0 ≤ v ∧ v < 256)) = good := by
    rw [List.takeWhile_append_of_pos (by intro x hx; simpa using hg x hx), List.takeWhile_cons_of_neg (by simpa using hb),
      List.append_nil]
  constructor
  · intro hl
    refine ⟨m.put 0 (good.map (fun x => UInt8.ofNat x.toNat) ++ List.replicate (12 - good.length) 0), ?_,
      put_label m (by simp; omega)⟩
    unfold setLabel packBytes
    rw [if_neg (by simp; omega), if_neg (by rw [m.len]; decide)]
    dsimp only
    rw [ht, overwrite_put m (by simp; omega), if_neg (by omega)]
  · intro hl
    refine ⟨m.put 24 (good.map (fun x => UInt8.ofNat x.toNat) ++ List.replicate (8 - good.length) 0), ?_,
      put_data4 m (by simp; omega)⟩
    unfold setData4 packBytes
    rw [if_neg (by simp; omega), if_neg (by rw [m.len]; decide)]
    dsimp only
    rw [ht, overwrite_put m (by simp; omega), if_neg (by omega)]

/-- A label with a wrong third value. -/
example : ∃ m' : MobID, setLabel [1, 2, 300, 4, 5, 6, 7, 8, 9, 10, 11, 12] mobSample.bytes = .error .struct m'.bytes ∧
    m'.fields = { mobSample.fields with label := [1, 2, 0, 0, 0, 0, 0, 0, 0, 0, 0, 0] } :=
  (C80_values_refused mobSample (good := [1, 2]) (bad := 300) (by decide) (by decide)).1 (by decide)

/-- A mob id whose `Data1` was refused is another id. -/
example : ∃ m' : MobID, setData1 (-1) mobSample.bytes = .error .struct m'.bytes ∧ m' ≠ mobSample := by
  obtain ⟨m', h1, h2⟩ := C80_data1_refused mobSample (v := -1) (by decide)
  refine ⟨m', h1, ?_⟩
  rintro rfl
  have := congrArg MobFields.data1 h2
  revert this
  decide

example : setLength 256 mobSample.bytes = .error .value mobSample.bytes := (C80_byte_refused _ (by decide)).1

example : setData4 [1, 2, 3] mobSample.bytes = .error .struct mobSample.bytes :=
  (C80_count_refused mobSample [1, 2, 3]).2 (by decide)

/-- A sequence of assignments, some of which may raise. -/
theorem Agrees.bind {a : Mut Unit} {f : MobID → Except Err MobID} {b : Mut Unit} {g : MobID.Mut Unit}
    (h1 : ∀ m, Agrees a m (f m))
    (h2 : ∀ m : MobID, (∀ m', g m = .ok () m' → b m.bytes = .ok () m'.bytes) ∧
      ∀ e m', g m = .error e m' → ∃ m'' : MobID, b m.bytes = .error e m''.bytes) (m : MobID) :
    (∀ m', (MobID.assign f >>= fun _ => g) m = .ok () m' → (a >>= fun _ => b) m.bytes = .ok () m'.bytes) ∧
      ∀ e m', (MobID.assign f >>= fun _ => g) m = .error e m' →
        ∃ m'' : MobID, (a >>= fun _ => b) m.bytes = .error e m''.bytes := by
  have hl : (MobID.assign f >>= fun _ => g) m =
      match f m with
      | .ok m1 => g m1
      | .error e => .error e m := by
    change EStateM.bind _ _ _ = _
    unfold EStateM.bind MobID.assign
    cases f m <;> rfl
  have hr : ∀ s, (a >>= fun _ => b) s =
      match a s with
      | .ok _ s' => b s'
      | .error e s' => .error e s' := by
    intro s
    change EStateM.bind _ _ _ = _
    unfold EStateM.bind
    cases a s <;> rfl
  rw [hl]
  cases hf : f m with
  | ok m1 =>
    dsimp only
    rw [hr, (h1 m).ok m1 hf]
    exact h2 m1
  | error e =>
    obtain ⟨m2, h3⟩ := (h1 m).error e hf
    dsimp only
    rw [hr, h3]
    exact ⟨fun _ h => (nomatch h), fun e' m' h => by cases h; exact ⟨m2, rfl⟩⟩

theorem Agrees.last {a : Mut Unit} {f : MobID → Except Err MobID} (h1 : ∀ m, Agrees a m (f m)) (m : MobID) :
    (∀ m', MobID.assign f m = .ok () m' → a m.bytes = .ok () m'.bytes) ∧
      ∀ e m', MobID.assign f m = .error e m' → ∃ m'' : MobID, a m.bytes = .error e m''.bytes := by
  unfold MobID.assign
  cases hf : f m with
  | ok m1 => exact ⟨fun _ h => by cases h; exact (h1 m).ok _ hf, fun _ _ h => (nomatch h)⟩
  | error e => exact ⟨fun _ h => (nomatch h), fun _ _ h => by cases h; exact (h1 m).error _ hf⟩

/-- C80: `from_dict` on ids of 32 bytes is that of C29 where it succeeds, and raises the same where it does not;
the id still has 32 bytes then. -/
theorem C80_from_dict (d : MobDict) (m : MobID) :
    (∀ m', MobID.fromDict d m = .ok () m' → fromDict d m.bytes = .ok () m'.bytes) ∧
      ∀ e m', MobID.fromDict d m = .error e m' → ∃ m'' : MobID, fromDict d m.bytes = .error e m''.bytes := by
  unfold MobID.fromDict fromDict
  refine Agrees.bind (fun m => (C80_agrees m _ [] m.material).2.1) (fun m => ?_) m
  refine Agrees.bind (fun m => (C80_agrees m _ [] m.material).2.2.1) (fun m => ?_) m
  refine Agrees.bind (fun m => (C80_agrees m _ [] m.material).2.2.2.1) (fun m => ?_) m
  refine Agrees.bind (fun m => (C80_agrees m _ [] m.material).2.2.2.2.1) (fun m => ?_) m
  refine Agrees.bind (fun m => (C80_agrees m _ [] m.material).2.2.2.2.2.1) (fun m => ?_) m
  refine Agrees.bind (fun m => (C80_agrees m _ [] m.material).2.2.2.2.2.2.1) (fun m => ?_) m
  refine Agrees.bind (fun m => (C80_agrees m _ [] m.material).2.2.2.2.2.2.2.1) (fun m => ?_) m
  refine Agrees.bind (fun m => (C80_agrees m 0 _ m.material).2.2.2.2.2.2.2.2.1) (fun m => ?_) m
  exact Agrees.last (fun m => (C80_agrees m 0 _ m.material).1) m

/-! ### ids of any size -/

theorem byteAt_ok {s : Bytes} {i : Nat} (h : i < s.length) : byteAt s i = .ok (s.getD i 0).toNat := by
  unfold byteAt
  rw [List.getD_eq_getElem?_getD, List.getElem?_eq_getElem h]
  rfl

theorem byteAt_error {s : Bytes} {i : Nat} (h : s.length ≤ i) : byteAt s i = .error .index := by
  unfold byteAt
  rw [List.getElem?_eq_none h]

theorem wU8_byte (n : Nat) (h : n < 256) : wU8 (n : Int) = .ok ((), [UInt8.ofNat n]) := by
  have h1 : ((n : Int) % 256).toNat = n := by omega
  unfold wU8 wInt
  rw [if_pos]
  · show Except.ok ((), leBytes 1 (((n : Int) % 256).toNat)) = _
    rw [h1]
    simp only [leBytes, Nat.mod_eq_of_lt h]
  · simp [IntTy.lo, IntTy.hi, IntTy.signed, IntTy.width]
    omega

theorem forW_bytes (l : Bytes) : forW l (fun b => wU8 b.toNat) = .ok ((), l) := by
  induction l with
  | nil => rfl
  | cons b l ih =>
    rw [forW, ih, wU8_byte _ b.toNat_lt]
    simp [bind, Wr.bind]
    rfl

theorem get_bind {α β : Type} (a : α) (f : α → Wr β) : (get (.ok a) >>= f) = f a := by
  show Wr.bind _ _ = _
  unfold get Wr.bind
  dsimp only
  cases f a <;> rfl

theorem get_error {α β : Type} (e : Err) (f : α → Wr β) : (get (.error e) >>= f) = .error e := rfl

theorem ok_error {α : Type} {w : Wr Unit} {o : Bytes} {f : Unit → Wr α} {e : Err} (hw : w = .ok ((), o))
    (hf : f () = .error e) : (w >>= f) = .error e := by
  subst hw
  show Wr.bind _ _ = _
  unfold Wr.bind
  dsimp only
  rw [hf]

/-- C80: an id of 32 bytes is written as in C04; one of fewer than sixteen raises `IndexError`, any other one
`ValueError`. -/
theorem C80_written (bo : BO) (s : Bytes) : write bo s =
    if h : s.length = 32 then wMobId bo ⟨s, h⟩
    else Wr.fail (if s.length < 16 then .index else .value) := by
  have w65 : wU8 65 = .ok ((), [65]) := rfl
  have w68 : wU8 68 = .ok ((), [68]) := rfl
  have h12 : wInt bo .s32 12 = .ok ((), packNat bo 4 12) := rfl
  have b : ∀ i, i < s.length → get (byteAt s i) = get (.ok (s.getD i 0).toNat) := fun i h => by rw [byteAt_ok h]
  split
  · rename_i h
    unfold write wMobId
    have hm : material s = .ok (MobID.material ⟨s, h⟩) := by
      unfold material uuidOfBytesLE uuidOfBytes
      rw [if_pos (by simp [h]), dif_pos (by simp [swapUuid, h])]
      rfl
    rw [b 12 (by omega), b 13 (by omega), b 14 (by omega), b 15 (by omega), hm]
    simp only [get_bind]
    rfl
  · rename_i h
    unfold write Wr.fail
    refine ok_error w65 ?_
    refine ok_error h12 ?_
    refine ok_error (forW_bytes _) ?_
    refine ok_error w68 ?_
    by_cases h0 : s.length ≤ 12
    · rw [byteAt_error h0, if_pos (by omega)]; rfl
    rw [b 12 (by omega), get_bind]
    refine ok_error (wU8_byte _ (UInt8.toNat_lt _)) ?_
    refine ok_error w68 ?_
    by_cases h1 : s.length ≤ 13
    · rw [byteAt_error h1, if_pos (by omega)]; rfl
    rw [b 13 (by omega), get_bind]
    refine ok_error (wU8_byte _ (UInt8.toNat_lt _)) ?_
    refine ok_error w68 ?_
    by_cases h2 : s.length ≤ 14
    · rw [byteAt_error h2, if_pos (by omega)]; rfl
    rw [b 14 (by omega), get_bind]
    refine ok_error (wU8_byte _ (UInt8.toNat_lt _)) ?_
    refine ok_error w68 ?_
    by_cases h3 : s.length ≤ 15
    · rw [byteAt_error h3, if_pos (by omega)]; rfl
    rw [b 15 (by omega), get_bind, if_neg (by omega)]
    refine ok_error (wU8_byte _ (UInt8.toNat_lt _)) ?_
    unfold material uuidOfBytesLE
    rw [if_neg (by rw [List.length_drop]; omega)]
    rfl

example : write .little (List.replicate 12 1) = .error .index := by rw [C80_written]; rfl
example : write .big (List.replicate 33 1) = .error .value := by rw [C80_written]; rfl
example : write .big mobSample.bytes = wMobId .big mobSample := by rw [C80_written, dif_pos mobSample.len]

/-- An exception that is `IndexError`, if there is one. -/
def OnlyIndex {α : Type} (x : Except Err α) : Prop := ∀ e, x = .error e → e = .index

theorem OnlyIndex.bind {α β : Type} {x : Except Err α} {f : α → Except Err β} (hx : OnlyIndex x)
    (hf : ∀ a, OnlyIndex (f a)) : OnlyIndex (x >>= f) := by
  intro e h
  cases x with
  | ok a => exact hf a e h
  | error e' => cases h; exact hx _ rfl

theorem OnlyIndex.byteAt (s : Bytes) (i : Nat) : OnlyIndex (byteAt s i) := by
  intro e h
  unfold Raw.byteAt at h
  split at h
  · cases h
  · cases h; rfl

theorem OnlyIndex.ok {α : Type} (a : α) : OnlyIndex (.ok a : Except Err α) := fun _ h => nomatch h

theorem OnlyIndex.u16At (s : Bytes) (i : Nat) : OnlyIndex (u16At s i) :=
  .bind (.byteAt s _) fun _ => .bind (.byteAt s _) fun _ => .ok _

theorem OnlyIndex.u32At (s : Bytes) (i : Nat) : OnlyIndex (u32At s i) :=
  .bind (.byteAt s _) fun _ => .bind (.byteAt s _) fun _ => .bind (.byteAt s _) fun _ => .bind (.byteAt s _) fun _ =>
    .ok _

theorem OnlyIndex.allBytes (s : Bytes) (l : List (Nat × Nat)) : OnlyIndex (allBytes s l) := by
  induction l with
  | nil => exact .ok _
  | cons p l ih =>
    refine .bind (.byteAt s _) fun b => ?_
    split
    · exact ih
    · exact .ok _

theorem OnlyIndex.mapM {α β : Type} (f : α → Except Err β) (h : ∀ a, OnlyIndex (f a)) (l : List α) :
    OnlyIndex (l.mapM f) := by
  induction l with
  | nil => exact .ok _
  | cons a l ih =>
    rw [List.mapM_cons]
    exact .bind (h a) fun _ => .bind ih fun _ => .ok _

theorem OnlyIndex.hexBytes (s : Bytes) (i n : Nat) : OnlyIndex (hexBytes s i n) := by
  refine .mapM _ (fun j => ?_) _
  intro e h
  refine OnlyIndex.byteAt s (i + j) e ?_
  cases hb : Raw.byteAt s (i + j) with
  | ok a => rw [hb] at h; cases h
  | error e' => rw [hb] at h; cases h; rfl

theorem ok_bind {α β : Type} (a : α) (f : α → Except Err β) : (Except.ok a >>= f) = f a := rfl

theorem bind_ok {α β : Type} {x : Except Err α} {f : α → Except Err β} {b : β} (h : (x >>= f) = .ok b) :
    ∃ a, x = .ok a ∧ f a = .ok b := by
  cases x with
  | ok a => exact ⟨a, rfl, h⟩
  | error e => cases h

theorem mapM_ok {α β : Type} {f : α → Except Err β} {l : List α} {r : List β} (h : l.mapM f = .ok r) :
    ∀ a ∈ l, ∃ b, f a = .ok b := by
  induction l generalizing r with
  | nil => simp
  | cons a l ih =>
    rw [List.mapM_cons] at h
    obtain ⟨b, h1, h⟩ := bind_ok h
    obtain ⟨bs, h2, _⟩ := bind_ok h
    intro x hx
    rcases List.mem_cons.1 hx with rfl | hx
    · exact ⟨b, h1⟩
    · exact ih h2 x hx

theorem hexBytes_length {s : Bytes} {i n : Nat} {r : List Text} (h : hexBytes s i (n + 1) = .ok r) : i + n < s.length := by
  obtain ⟨t, ht⟩ := mapM_ok h n (by simp)
  by_contra hl
  rw [byteAt_error (by omega)] at ht
  cases ht

theorem hexBytes_ok {s : Bytes} {i n : Nat} (h : i + n ≤ s.length) :
    hexBytes s i n = .ok ((List.range n).map fun j => fmtHex 2 (s.getD (i + j) 0).toNat) := by
  have key : ∀ l : List Nat, (∀ j ∈ l, i + j < s.length) →
      (l.mapM fun j => (byteAt s (i + j)).map (fmtHex 2)) = Except.ok (l.map fun j => fmtHex 2 (s.getD (i + j) 0).toNat) := by
    intro l
    induction l with
    | nil => intro _; rfl
    | cons a l ih =>
      intro hl
      rw [List.mapM_cons, byteAt_ok (hl a (by simp)), ih fun j hj => hl j (by simp [hj])]
      rfl
  exact key _ fun j hj => by have := List.mem_range.1 hj; omega

theorem u16At_ok {s : Bytes} {i : Nat} (h : i + 2 ≤ s.length) :
    u16At s i = .ok ((s.getD i 0).toNat + (s.getD (i + 1) 0).toNat <<< 8) := by
  unfold u16At
  rw [byteAt_ok (by omega), byteAt_ok (by omega)]
  rfl

theorem u32At_ok {s : Bytes} {i : Nat} (h : i + 4 ≤ s.length) :
    u32At s i = .ok ((s.getD i 0).toNat + (s.getD (i + 1) 0).toNat <<< 8 + (s.getD (i + 2) 0).toNat <<< 16 +
      (s.getD (i + 3) 0).toNat <<< 24) := by
  unfold u32At
  rw [byteAt_ok (by omega), byteAt_ok (by omega), byteAt_ok (by omega), byteAt_ok (by omega)]
  rfl

theorem allBytes_ok {s : Bytes} : ∀ {l : List (Nat × Nat)}, (∀ p ∈ l, p.1 < s.length) →
    allBytes s l = .ok (l.all fun p => (s.getD p.1 0).toNat == p.2)
  | [], _ => rfl
  | (i, v) :: l, h => by
    unfold allBytes
    rw [byteAt_ok (h (i, v) (by simp)), List.all_cons]
    show (if _ = _ then _ else _) = _
    split
    · rename_i he
      rw [allBytes_ok fun p hp => h p (by simp [hp]), beq_iff_eq.2 he]
      rfl
    · rename_i he
      rw [beq_eq_false_iff_ne.2 he]
      rfl

theorem getD_take (s : Bytes) {i n : Nat} (h : i < n) : (s.take n).getD i 0 = s.getD i 0 := by
  rw [List.getD_eq_getElem?_getD, List.getD_eq_getElem?_getD, List.getElem?_take_of_lt h]

/-- `urn` on 32 bytes or more. -/
theorem urn_long {s : Bytes} (h : 32 ≤ s.length) : urn s = .ok (MobID.urn ⟨s.take 32, by simp [h]⟩) := by
  have key : ∀ i, i < 32 → s.getD i 0 = MobID.byteAt ⟨s.take 32, by simp [h]⟩ i := by
    intro i hi
    rw [← getD_take s hi]
    rfl
  generalize (⟨s.take 32, by simp [h]⟩ : MobID) = m at key
  have hx : ∀ i n, i + n ≤ 32 → hexBytes s i n = .ok ((List.range n).map fun j => fmtHex 2 (m.byteAt (i + j)).toNat) := by
    intro i n hi
    rw [hexBytes_ok (by omega)]
    congr 1
    apply List.map_congr_left
    intro j hj
    rw [key _ (by have := List.mem_range.1 hj; omega)]
  have h0 := hx 0 12 (by decide)
  have h12 := hx 12 4 (by decide)
  have h24 := hx 24 8 (by decide)
  have d1 : u32At s 16 = .ok m.data1 := by
    rw [u32At_ok (by omega), key _ (by decide), key _ (by decide), key _ (by decide), key _ (by decide)]
    rfl
  have d2 : u16At s 20 = .ok m.data2 := by
    rw [u16At_ok (by omega), key _ (by decide), key _ (by decide)]
    rfl
  have d3 : u16At s 22 = .ok m.data3 := by
    rw [u16At_ok (by omega), key _ (by decide), key _ (by decide)]
    rfl
  have hall : allBytes s [(11, 0x00), (24, 0x06), (25, 0x0E), (26, 0x2B), (27, 0x34), (28, 0x7F), (29, 0x7F)] =
      .ok m.halfSwapped := by
    have : ∀ p ∈ [(11, 0x00), (24, 0x06), (25, 0x0E), (26, 0x2B), (27, 0x34), (28, 0x7F), (29, 0x7F)], p.1 < 32 := by
      decide
    rw [allBytes_ok fun p hp => Nat.lt_of_lt_of_le (this p hp) h]
    simp only [List.all_cons, List.all_nil, Bool.and_true, key 11 (by decide), key 24 (by decide), key 25 (by decide),
      key 26 (by decide), key 27 (by decide), key 28 (by decide), key 29 (by decide), MobID.halfSwapped, Bool.and_assoc]
  have r12 : List.range 12 = [0, 1, 2, 3, 4, 5, 6, 7, 8, 9, 10, 11] := rfl
  have r8 : List.range 8 = [0, 1, 2, 3, 4, 5, 6, 7] := rfl
  have r4 : List.range 4 = [0, 1, 2, 3] := rfl
  rw [r12] at h0
  rw [r4] at h12
  rw [r8] at h24
  unfold urn
  simp only [hall, h0, h12, h24, d1, d2, d3, ok_bind]
  unfold MobID.urn MobID.urnHead MobID.length MobID.instanceHigh MobID.instanceMid MobID.instanceLow
  generalize fmtHex = F
  generalize urnPrefix = P
  generalize m.data1 = x1
  generalize m.data2 = x2
  generalize m.data3 = x3
  split
  · simp
    rfl
  · simp
    rfl

/-- C80: the URN of an id looks at the first 32 bytes alone; one with fewer bytes has none. -/
theorem C80_urn (s : Bytes) : urn s =
    if h : 32 ≤ s.length then .ok (MobID.urn ⟨s.take 32, by simp [h]⟩) else .error .index := by
  split
  · rename_i h
    exact urn_long h
  · rename_i h
    cases hu : urn s with
    | error e =>
      congr 1
      refine (?_ : OnlyIndex (urn s)) e hu
      unfold urn
      refine .bind (.allBytes _ _) fun half => .bind (.hexBytes _ _ _) fun _ => .bind (.hexBytes _ _ _) fun _ => ?_
      dsimp only
      split
      · exact .bind (.hexBytes _ _ _) fun _ => .bind (.u32At _ _) fun _ => .bind (.u16At _ _) fun _ =>
          .bind (.u16At _ _) fun _ => .ok _
      · exact .bind (.u32At _ _) fun _ => .bind (.u16At _ _) fun _ => .bind (.u16At _ _) fun _ =>
          .bind (.hexBytes _ _ _) fun _ => .ok _
    | ok t =>
      exfalso
      apply h
      unfold urn at hu
      obtain ⟨half, _, hu⟩ := bind_ok hu
      obtain ⟨_, _, hu⟩ := bind_ok hu
      obtain ⟨_, _, hu⟩ := bind_ok hu
      dsimp only at hu
      split at hu
      · obtain ⟨_, h1, _⟩ := bind_ok hu
        exact hexBytes_length h1
      · obtain ⟨_, _, hu⟩ := bind_ok hu
        obtain ⟨_, _, hu⟩ := bind_ok hu
        obtain ⟨_, _, hu⟩ := bind_ok hu
        obtain ⟨_, h1, _⟩ := bind_ok hu
        exact hexBytes_length h1

/-- An id of 31 bytes has no URN; one of 33 has that of its first 32. -/
example : urn (List.replicate 31 7) = .error .index := by rw [C80_urn]; rfl

example : urn (mobSample.bytes ++ [9]) = .ok mobSample.urn := by
  rw [C80_urn, dif_pos (by simp [mobSample.len])]
  congr 2

/-- C80: an id of 32 bytes or more has the dictionary of its first 32 bytes, and one of fewer than 24 has none. -/
theorem C80_to_dict (s : Bytes) :
    (∀ h : 32 ≤ s.length, toDict s = .ok (MobID.toDict ⟨s.take 32, by simp [h]⟩)) ∧
    (s.length < 24 → toDict s = .error .index) := by
  constructor
  · intro h
    unfold toDict
    have key : ∀ i, i < 32 → s.getD i 0 = MobID.byteAt ⟨s.take 32, by simp [h]⟩ i := by
      intro i hi
      rw [← getD_take s hi]
      rfl
    have hl : label s = MobID.label ⟨s.take 32, by simp [h]⟩ := by
      show s.take 12 = (s.take 32).take 12
      rw [List.take_take]
      rfl
    have hd : data4 s = MobID.data4 ⟨s.take 32, by simp [h]⟩ := by
      show (s.drop 24).take 8 = ((s.take 32).drop 24).take 8
      rw [List.drop_take, List.take_take]
      rfl
    rw [hl, hd]
    generalize (⟨s.take 32, by simp [h]⟩ : MobID) = m at key
    have d1 : u32At s 16 = .ok m.data1 := by
      rw [u32At_ok (by omega), key _ (by decide), key _ (by decide), key _ (by decide), key _ (by decide)]
      rfl
    have d2 : u16At s 20 = .ok m.data2 := by
      rw [u16At_ok (by omega), key _ (by decide), key _ (by decide)]
      rfl
    have d3 : u16At s 22 = .ok m.data3 := by
      rw [u16At_ok (by omega), key _ (by decide), key _ (by decide)]
      rfl
    rw [d1, d2, d3, byteAt_ok (by omega), byteAt_ok (by omega), byteAt_ok (by omega), byteAt_ok (by omega),
      key _ (by decide), key _ (by decide), key _ (by decide), key _ (by decide)]
    rfl
  · intro h
    cases hd : toDict s with
    | error e =>
      congr 1
      refine (?_ : OnlyIndex (toDict s)) e hd
      unfold toDict
      exact .bind (.u32At _ _) fun _ => .bind (.u16At _ _) fun _ => .bind (.u16At _ _) fun _ =>
        .bind (.byteAt _ _) fun _ => .bind (.byteAt _ _) fun _ => .bind (.byteAt _ _) fun _ =>
        .bind (.byteAt _ _) fun _ => .ok _
    | ok d =>
      exfalso
      unfold toDict at hd
      obtain ⟨_, _, hd⟩ := bind_ok hd
      obtain ⟨_, _, hd⟩ := bind_ok hd
      obtain ⟨_, h3, hd⟩ := bind_ok hd
      unfold u16At at h3
      obtain ⟨_, _, h3⟩ := bind_ok h3
      obtain ⟨_, h4, h3⟩ := bind_ok h3
      rw [byteAt_error (by omega)] at h4
      cases h4

/-- A sequence of two assignments that succeeds. -/
theorem mut_ok {a b : Mut Unit} {s s' : Bytes} (h : (a >>= fun _ => b) s = .ok () s') :
    ∃ s1, a s = .ok () s1 ∧ b s1 = .ok () s' := by
  change EStateM.bind _ _ _ = _ at h
  unfold EStateM.bind at h
  cases ha : a s with
  | ok u s1 => rw [ha] at h; exact ⟨s1, rfl, h⟩
  | error e s1 => rw [ha] at h; cases h

/-- C80: an id of 24 to 31 bytes has a dictionary, but no id takes it. -/
theorem C80_short_dict {s : Bytes} (h1 : 24 ≤ s.length) (h2 : s.length < 32) :
    ∃ d, toDict s = .ok d ∧ ∀ t t', fromDict d t ≠ .ok () t' := by
  unfold toDict
  rw [u32At_ok (by omega), u16At_ok (by omega), u16At_ok (by omega), byteAt_ok (by omega), byteAt_ok (by omega),
    byteAt_ok (by omega), byteAt_ok (by omega)]
  refine ⟨_, rfl, ?_⟩
  intro t t' h
  unfold fromDict at h
  obtain ⟨_, _, h⟩ := mut_ok h
  obtain ⟨_, _, h⟩ := mut_ok h
  obtain ⟨_, _, h⟩ := mut_ok h
  obtain ⟨_, _, h⟩ := mut_ok h
  obtain ⟨_, _, h⟩ := mut_ok h
  obtain ⟨_, _, h⟩ := mut_ok h
  obtain ⟨_, _, h⟩ := mut_ok h
  obtain ⟨_, h3, _⟩ := mut_ok h
  unfold setData4 packBytes at h3
  rw [if_pos] at h3
  · cases h3
  · simp only [Option.getD_some, List.length_map, data4, List.length_take, List.length_drop]
    omega

example : toDict (List.replicate 23 1) = .error .index := (C80_to_dict _).2 (by decide)
example : toDict (mobSample.bytes ++ [9]) = .ok (MobID.toDict ⟨(mobSample.bytes ++ [9]).take 32, by simp [mobSample.len]⟩) :=
  (C80_to_dict _).1 (by simp [mobSample.len])
example : ∃ d, toDict (List.replicate 30 1) = .ok d ∧ ∀ t t', fromDict d t ≠ .ok () t' :=
  C80_short_dict (by decide) (by decide)

/-! ### numbers -/

theorem int_eq (s : Bytes) : int s = bigValue s := intFromBytes_eq s

theorem little_eq (l : Bytes) : intFromBytes .little l = leVal l := by
  have key : ∀ (l : Bytes) (k : Nat), ((l.zipIdx k).map fun p => p.1.toNat <<< (p.2 * 8)).sum = 256 ^ k * leVal l := by
    intro l
    induction l with
    | nil => intro k; simp [leVal]
    | cons b l ih =>
      intro k
      rw [List.zipIdx_cons, List.map_cons, List.sum_cons, ih (k + 1), leVal, Nat.shiftLeft_eq, Nat.mul_comm k 8,
        Nat.pow_mul, Nat.pow_succ]
      ring
  have := key l 0
  simpa [intFromBytes] using this

theorem little_reverse (n : Int) (k : Nat) : bytesFromInt .little n k = (bytesFromInt .big n k).reverse := by
  apply List.ext_getElem
  · simp [bytesFromInt]
  · intro i h1 h2
    simp only [bytesFromInt, List.length_map, List.length_range, List.length_reverse] at h1 h2
    simp only [bytesFromInt, List.getElem_map, List.getElem_range, List.getElem_reverse, List.length_map, List.length_range]
    congr 6
    omega

/-- C80: `int_from_bytes` is the value of the bytes in the byte order, and `bytes_from_int` gives the bytes of the
number modulo a power of 256; each undoes the other. -/
theorem C80_numbers (n : Int) (k : Nat) (l : Bytes) :
    intFromBytes .big l = bigValue l ∧ intFromBytes .little l = bigValue l.reverse ∧
    (∀ bo, (intFromBytes bo (bytesFromInt bo n k) : Int) = n % 256 ^ k) ∧
    (∀ bo, (bytesFromInt bo n k).length = k) ∧
    (∀ bo, bytesFromInt bo (intFromBytes bo l) l.length = l) := by
  have hlen : ∀ bo n k, (bytesFromInt bo n k).length = k := by intro bo n k; cases bo <;> simp [bytesFromInt]
  have hv : ∀ bo (n : Int) k, (intFromBytes bo (bytesFromInt bo n k) : Int) = n % 256 ^ k := by
    intro bo n k
    cases bo with
    | big => rw [← bytesFromInt_value n k]; exact congrArg Nat.cast (intFromBytes_eq _)
    | little =>
      rw [little_eq, little_reverse, ← bigValue_eq, ← bytesFromInt_value n k]
      rfl
  have hb : ∀ l, intFromBytes .big l = bigValue l := intFromBytes_eq
  have hl : ∀ l, intFromBytes .little l = bigValue l.reverse := fun l => by rw [little_eq, bigValue_eq, List.reverse_reverse]
  refine ⟨hb l, hl l, fun bo => hv bo n k, fun bo => hlen bo n k, fun bo => ?_⟩
  have h := hv bo (intFromBytes bo l) l.length
  have lt : intFromBytes bo l < 256 ^ l.length := by
    cases bo with
    | big => rw [hb]; exact bigValue_lt l
    | little => rw [hl]; have := bigValue_lt l.reverse; rwa [List.length_reverse] at this
  rw [Int.emod_eq_of_lt (by omega) (by exact_mod_cast lt)] at h
  have h' : intFromBytes bo (bytesFromInt bo (intFromBytes bo l) l.length) = intFromBytes bo l := by exact_mod_cast h
  have hlen' := hlen bo (intFromBytes bo l) l.length
  generalize bytesFromInt bo (intFromBytes bo l) l.length = r at h' hlen' ⊢
  cases bo with
  | big => rw [hb, hb] at h'; exact bigValue_inj hlen' h'
  | little =>
    rw [hl, hl] at h'
    have := bigValue_inj (by rw [List.length_reverse, List.length_reverse]; exact hlen') h'
    exact List.reverse_injective this

example : bytesFromInt .little (-2) 3 = [0xfe, 0xff, 0xff] ∧ bytesFromInt .big 0x123456 2 = [0x34, 0x56] ∧
    intFromBytes .little [1, 2] = 513 := by decide

/-- C80: ids of the same size are ordered by their numbers, with exactly one of less, equal and greater; but ids of
different sizes may be neither less, nor equal, nor greater, while `<=` holds both ways. -/
theorem C80_order (a b : Bytes) :
    (a.length = b.length → (eq a b = true ↔ int a = int b) ∧
      ((lt a b = true ∧ eq a b = false ∧ lt b a = false) ∨ (lt a b = false ∧ eq a b = true ∧ lt b a = false) ∨
        (lt a b = false ∧ eq a b = false ∧ lt b a = true))) ∧
    (eq (0 :: a) a = false ∧ lt (0 :: a) a = false ∧ lt a (0 :: a) = false ∧ le (0 :: a) a = true ∧
      le a (0 :: a) = true) := by
  constructor
  · intro h
    have he : eq a b = true ↔ int a = int b := by
      unfold eq
      rw [beq_iff_eq, int_eq, int_eq]
      exact ⟨fun h => by rw [h], bigValue_inj h⟩
    refine ⟨he, ?_⟩
    have hf : eq a b = decide (int a = int b) := by rw [Bool.eq_iff_iff, he, decide_eq_true_iff]
    rw [hf]
    unfold lt
    rcases Nat.lt_trichotomy (int a) (int b) with h | h | h
    · simp only [decide_eq_true_iff, decide_eq_false_iff_not]; omega
    · simp only [decide_eq_true_iff, decide_eq_false_iff_not]; omega
    · simp only [decide_eq_true_iff, decide_eq_false_iff_not]; omega
  · have h : int (0 :: a) = int a := by
      rw [int_eq, int_eq, bigValue_cons]
      simp
    unfold eq lt le
    rw [h]
    refine ⟨?_, by simp, by simp, by simp, by simp⟩
    rw [beq_eq_false_iff_ne]
    intro h
    have := congrArg List.length h
    simp at this

example : lt mobSample.bytes (MobID.zero.bytes) = false ∧ eq (0 :: mobSample.bytes) mobSample.bytes = false :=
  ⟨by decide +kernel, (C80_order mobSample.bytes []).2.1⟩

/-! ### where ids of other sizes come from, and how they are mended -/

/-- C80: bytes given to the constructor are taken whatever their number, and the other arguments are not looked at;
no bytes at all count as none given, and then a number wins over a text, which has to be one nevertheless. -/
theorem C80_make (t : Option Text) (n : Option Int) (b : Bytes) (m : MobID) (u : Text) (e : Err) (i : Int) :
    (b ≠ [] → make t (some b) n = .ok b) ∧ make t (some []) n = make t none n ∧
    make none none none = .ok (List.replicate 32 0) ∧ make none none (some i) = .ok (MobID.ofInt i).bytes ∧
    (MobID.ofUrn u = .ok m → make (some u) none none = .ok m.bytes ∧
      make (some u) none (some i) = .ok (MobID.ofInt i).bytes) ∧
    (MobID.ofUrn u = .error e → make (some u) none n = .error e) := by
  refine ⟨?_, rfl, rfl, rfl, ?_, ?_⟩
  · intro h
    cases b with
    | nil => exact absurd rfl h
    | cons x b => rfl
  · intro h
    unfold make
    simp only [h]
    exact ⟨rfl, rfl⟩
  · intro h
    unfold make
    simp only [h]
    rfl

/-- C80: an assignment to a field keeps the number of bytes, whether it succeeds or raises. -/
theorem C80_size (s : Bytes) (v : Int) (l : List Int) :
    let size := fun r : EStateM.Result Err Bytes Unit => match r with
      | .ok _ s' => s'.length
      | .error _ s' => s'.length
    size (setLabel l s) = s.length ∧ size (setLength v s) = s.length ∧ size (setInstanceHigh v s) = s.length ∧
    size (setInstanceMid v s) = s.length ∧ size (setInstanceLow v s) = s.length ∧ size (setData1 v s) = s.length ∧
    size (setData2 v s) = s.length ∧ size (setData3 v s) = s.length ∧ size (setData4 l s) = s.length := by
  intro size
  have hb : ∀ i, size (setByte i v s) = s.length := by
    intro i
    unfold setByte
    split
    · split <;> simp [size]
    · rfl
  have hw : ∀ off n, size (packWord off n v s) = s.length := by
    intro off n
    unfold packWord
    split
    · rfl
    · split
      · exact overwrite_length (by simp; omega)
      · exact overwrite_length (by simp; omega)
  have hp : ∀ off n, size (packBytes off n l s) = s.length := by
    intro off n
    unfold packBytes
    split
    · rfl
    · rename_i h1
      split
      · rfl
      · rename_i h2
        dsimp only
        have h3 := List.takeWhile_sublist (l := l) (fun v => decide (0 ≤ v ∧ v < 256)) |>.length_le
        split
        · exact overwrite_length (by simp only [List.length_append, List.length_map, List.length_replicate]; omega)
        · exact overwrite_length (by simp only [List.length_append, List.length_map, List.length_replicate]; omega)
  exact ⟨hp _ _, hb _, hb _, hb _, hb _, hw _ _, hw _ _, hw _ _, hp _ _⟩

/-- C80: after an assignment to `int` the id has 32 bytes; after one to `material` it has, if it had sixteen or
more, and its material is the one assigned. -/
theorem C80_mended (s : Bytes) (u : UUID) (v : Int) :
    (∃ m : MobID, setInt v s = .ok () m.bytes ∧ (m.int : Int) = v % 2 ^ 256) ∧
    (16 ≤ s.length → ∃ m : MobID, setMaterial u s = .ok () m.bytes ∧ m.material = u ∧ m.bytes.take 16 = s.take 16) ∧
    (s.length < 16 → ∃ s', setMaterial u s = .ok () s' ∧ s'.length = s.length + 16) := by
  have hu : u.bytesLE.length = 16 := by simp [UUID.bytesLE, swapUuid, u.len]
  refine ⟨⟨MobID.ofInt v, rfl, C27_set_get v⟩, ?_, ?_⟩
  · intro h
    have ht : (s.take 16).length = 16 := by simp [h]
    refine ⟨⟨s.take 16 ++ u.bytesLE, by rw [List.length_append, ht, hu]⟩, rfl, ?_, ?_⟩
    · have : (s.take 16 ++ u.bytesLE).drop 16 = u.bytesLE := by
        rw [List.drop_append_of_le_length (by rw [ht]), List.drop_of_length_le (by rw [ht]), List.nil_append]
      unfold MobID.material
      obtain ⟨ub, hub⟩ := u
      congr 1
      rw [this]
      exact swapUuid_swap hub
    · show (s.take 16 ++ u.bytesLE).take 16 = _
      rw [List.take_append_of_le_length (by rw [ht]), List.take_take]
      rfl
  · intro h
    refine ⟨_, rfl, ?_⟩
    rw [List.length_append, hu, List.length_take]
    omega

/-- An id made of six bytes stays an id of six bytes, cannot be written, and is mended by a number. -/
example : make (some ['x']) (some [1, 2, 3, 4, 5, 6]) (some 7) = .ok [1, 2, 3, 4, 5, 6] ∧
    setLength 5 [1, 2, 3, 4, 5, 6] = .error .index [1, 2, 3, 4, 5, 6] ∧
    write .big [1, 2, 3, 4, 5, 6] = .error .index ∧
    ∃ m : MobID, setInt (-1) [1, 2, 3, 4, 5, 6] = .ok () m.bytes ∧ (m.int : Int) = (-1) % 2 ^ 256 :=
  ⟨(C80_make _ _ _ mobSample [] .value 0).1 (by decide), rfl, by rw [C80_written]; rfl,
    (C80_mended _ mobSample.material _).1⟩

example : ∃ m : MobID, setMaterial mobSample.material (List.replicate 20 1) = .ok () m.bytes ∧
    m.material = mobSample.material ∧ m.bytes.take 16 = (List.replicate 20 1).take 16 :=
  (C80_mended _ _ 0).2.1 (by decide)

/-- A dictionary refused at `Data2` leaves an id with that field zero. -/
example : ∃ m' : MobID, setData2 65536 mobSample.bytes = .error .struct m'.bytes ∧
    m'.fields = { mobSample.fields with data2 := 0 } := C80_data2_refused mobSample (by decide)
example : ∃ m' : MobID, setData3 (-5) mobSample.bytes = .error .struct m'.bytes ∧
    m'.fields = { mobSample.fields with data3 := 0 } := C80_data3_refused mobSample (by decide)

example : fromDict mobSample.toDict MobID.zero.bytes = .ok () mobSample.bytes :=
  (C80_from_dict _ _).1 _ (C29_dict mobSample MobID.zero)

end Avb.Raw

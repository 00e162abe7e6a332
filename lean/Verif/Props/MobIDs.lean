import Verif.Lemmas.MobID

/-
C27, C28, C29: mob ids as integers, texts and dictionaries.
-/

namespace Avb

/-! ### C27 -/

/-- C27: the integer of an id is the value of its 32 bytes, the first one being the most significant. -/
theorem C27_int (m : MobID) : m.int = bigValue m.bytes ∧ m.int < 2 ^ 256 := by
  rw [MobID.int_eq]
  refine ⟨rfl, ?_⟩
  have := bigValue_lt m.bytes
  rw [m.len] at this
  calc bigValue m.bytes < 256 ^ 32 := this
    _ = 2 ^ 256 := by norm_num

/-- C27: an assigned integer reads back, reduced modulo 2 ^ 256; integers out of range, negative ones
too, are not refused. -/
theorem C27_set_get (n : Int) : ((MobID.ofInt n).int : Int) = n % 2 ^ 256 := by
  rw [MobID.int_eq]
  have := bytesFromInt_value n 32
  rw [show (256 : Int) ^ 32 = 2 ^ 256 by norm_num] at this
  exact this

/-- C27: every integer in range reads back as it was. -/
theorem C27_set_get_same {n : Int} (h0 : 0 ≤ n) (h1 : n < 2 ^ 256) : ((MobID.ofInt n).int : Int) = n := by
  rw [C27_set_get, Int.emod_eq_of_lt h0 h1]

/-- C27: an id is recovered from its integer. -/
theorem C27_get_set (m : MobID) : MobID.ofInt m.int = m := by
  apply MobID.ext_bytes
  apply bigValue_inj (by rw [m.len]; exact (MobID.ofInt m.int).len)
  rw [← MobID.int_eq, ← MobID.int_eq]
  have := C27_set_get_same (n := m.int) (by omega) (by exact_mod_cast (C27_int m).2)
  exact_mod_cast this

/-- C27: ids that compare equal are the same id, and equal to equal integers. -/
theorem C27_eq (a b : MobID) : (a.eq b = true ↔ a = b) ∧ (a.ne b = !a.eq b) ∧ (a = b ↔ a.int = b.int) := by
  refine ⟨?_, rfl, fun h => by rw [h], fun h => by rw [← C27_get_set a, ← C27_get_set b, h]⟩
  simp only [MobID.eq, beq_iff_eq]
  exact ⟨MobID.ext_bytes, fun h => by rw [h]⟩

/-- C27: the comparisons are those of a total order: exactly one of less, equal, greater holds,
`<=` and `>=` mean less or equal and greater or equal, and less is transitive. -/
theorem C27_order (a b c : MobID) :
    ((a.lt b = true ∧ a.eq b = false ∧ a.gt b = false) ∨
      (a.lt b = false ∧ a.eq b = true ∧ a.gt b = false) ∨
      (a.lt b = false ∧ a.eq b = false ∧ a.gt b = true)) ∧
    a.le b = (a.lt b || a.eq b) ∧ a.ge b = (a.gt b || a.eq b) ∧ a.gt b = b.lt a ∧
    (a.lt b = true → b.lt c = true → a.lt c = true) := by
  have he : a.eq b = decide (a.int = b.int) := by
    rw [Bool.eq_iff_iff, (C27_eq a b).1, (C27_eq a b).2.2, decide_eq_true_iff]
  simp only [he, MobID.lt, MobID.gt, MobID.le, MobID.ge]
  rcases Nat.lt_trichotomy a.int b.int with h | h | h
  · have h1 : ¬ a.int = b.int := by omega
    have h2 : ¬ b.int < a.int := by omega
    have h3 : ¬ b.int ≤ a.int := by omega
    simp only [h, h1, h2, h3, le_of_lt h, decide_true, decide_false, decide_eq_true_eq]
    refine ⟨by simp, by simp, by simp, by simp, fun _ hc => by omega⟩
  · simp only [h, decide_true, decide_false, decide_eq_true_eq, lt_irrefl, le_refl]
    simp
  · have h1 : ¬ a.int = b.int := by omega
    have h2 : ¬ a.int < b.int := by omega
    have h3 : ¬ a.int ≤ b.int := by omega
    have h4 : b.int ≤ a.int := by omega
    simp only [h, h1, h2, h3, h4, decide_true, decide_false, decide_eq_true_eq]
    simp

theorem bigValue_lt_iff {a b : Bytes} (hl : a.length = b.length) : bigValue a < bigValue b ↔ a < b := by
  induction a generalizing b with
  | nil =>
    cases b with
    | nil => simp
    | cons y b => simp at hl
  | cons x a ih =>
    cases b with
    | nil => simp at hl
    | cons y b =>
      have hl' : a.length = b.length := by simpa using hl
      rw [bigValue_cons, bigValue_cons, hl', List.cons_lt_cons_iff, ← ih hl']
      have h1 := bigValue_lt a
      have h2 := bigValue_lt b
      rw [hl'] at h1
      generalize 256 ^ b.length = M at *
      rw [UInt8.lt_iff_toNat_lt, ← UInt8.toNat_inj]
      constructor
      · intro h
        rcases Nat.lt_trichotomy x.toNat y.toNat with hc | hc | hc
        · exact Or.inl hc
        · rw [hc] at h; exact Or.inr ⟨hc, by omega⟩
        · exfalso
          have : y.toNat * M + M ≤ x.toNat * M := by
            rw [← Nat.succ_mul]; exact Nat.mul_le_mul_right _ hc
          omega
      · rintro (h | ⟨h, h'⟩)
        · have : x.toNat * M + M ≤ y.toNat * M := by
            rw [← Nat.succ_mul]; exact Nat.mul_le_mul_right _ h
          omega
        · rw [h]; omega

/-- C27: ids are ordered like their byte strings, the first byte deciding first. -/
theorem C27_lexicographic (a b : MobID) : a.lt b = true ↔ a.bytes < b.bytes := by
  rw [MobID.lt, decide_eq_true_iff, MobID.int_eq, MobID.int_eq]
  exact bigValue_lt_iff (by rw [a.len, b.len])

example : ((MobID.ofInt (-1)).int : Int) = 2 ^ 256 - 1 ∧ (MobID.ofInt (2 ^ 256 + 7)).int = 7 := by
  constructor
  · rw [C27_set_get]; norm_num
  · have := C27_set_get (2 ^ 256 + 7)
    norm_num at this
    exact_mod_cast this

/-! ### C29 -/

/-- The fields of an id, written down from its layout: bytes 0 to 11, 12, 13, 14, 15, then three
little-endian numbers of 4, 2 and 2 bytes, and bytes 24 to 31. -/
structure MobFields where
  label : Bytes
  length : Nat
  high : Nat
  mid : Nat
  low : Nat
  data1 : Nat
  data2 : Nat
  data3 : Nat
  data4 : Bytes
  deriving DecidableEq

/-- What the properties of an id give. -/
def MobID.fields (m : MobID) : MobFields :=
  ⟨m.label, m.length, m.instanceHigh, m.instanceMid, m.instanceLow, m.data1, m.data2, m.data3, m.data4⟩

theorem MobID.cases32 {P : MobID → Prop}
    (h : ∀ (b0 b1 b2 b3 b4 b5 b6 b7 b8 b9 b10 b11 b12 b13 b14 b15 b16 b17 b18 b19 b20 b21 b22 b23 b24 b25
      b26 b27 b28 b29 b30 b31 : UInt8), P ⟨[b0, b1, b2, b3, b4, b5, b6, b7, b8, b9, b10, b11, b12, b13, b14,
        b15, b16, b17, b18, b19, b20, b21, b22, b23, b24, b25, b26, b27, b28, b29, b30, b31], rfl⟩)
    (m : MobID) : P m := by
  obtain ⟨l, hl⟩ := m
  match l, hl with
  | [b0, b1, b2, b3, b4, b5, b6, b7, b8, b9, b10, b11, b12, b13, b14, b15, b16, b17, b18, b19, b20, b21, b22,
     b23, b24, b25, b26, b27, b28, b29, b30, b31], _ => exact h ..

theorem MobID.data1_eq (m : MobID) : m.data1 = leVal ((m.bytes.drop 16).take 4) := by
  have : (m.bytes.drop 16).take 4 = [m.byteAt 16, m.byteAt 17, m.byteAt 18, m.byteAt 19] := by
    induction m using MobID.cases32
    rfl
  rw [this]
  unfold MobID.data1
  generalize m.byteAt 16 = a
  generalize m.byteAt 17 = b
  generalize m.byteAt 18 = c
  generalize m.byteAt 19 = d
  simp only [leVal, Nat.shiftLeft_eq]
  omega

theorem MobID.data2_eq (m : MobID) : m.data2 = leVal ((m.bytes.drop 20).take 2) := by
  induction m using MobID.cases32
  simp [MobID.data2, MobID.byteAt, leVal, Nat.shiftLeft_eq]
  omega

theorem MobID.data3_eq (m : MobID) : m.data3 = leVal ((m.bytes.drop 22).take 2) := by
  induction m using MobID.cases32
  simp [MobID.data3, MobID.byteAt, leVal, Nat.shiftLeft_eq]
  omega

/-- C29: different ids differ in a field. -/
theorem C29_fields_determine {a b : MobID} (h : a.fields = b.fields) : a = b := by
  simp only [MobID.fields, MobFields.mk.injEq, MobID.data1_eq, MobID.data2_eq, MobID.data3_eq] at h
  obtain ⟨h1, h2, h3, h4, h5, h6, h7, h8, h9⟩ := h
  have le : ∀ {x y : Bytes}, x.length = y.length → leVal x = leVal y → x = y := by
    intro x y hl hv
    rw [← leBytes_leVal x, ← leBytes_leVal y, hl, hv]
  have h6 := le (by simp [a.len, b.len]) h6
  have h7 := le (by simp [a.len, b.len]) h7
  have h8 := le (by simp [a.len, b.len]) h8
  simp only [MobID.length, MobID.instanceHigh, MobID.instanceMid, MobID.instanceLow, UInt8.toNat_inj] at h2 h3 h4 h5
  simp only [MobID.label, MobID.data4] at h1 h9
  clear le
  induction a using MobID.cases32
  induction b using MobID.cases32
  simp [MobID.byteAt] at h1 h2 h3 h4 h5 h6 h7 h8 h9
  simp [h1, h2, h3, h4, h5, h6, h7, h8, h9]

theorem leBytes_four (n : Nat) : ∃ a b c d, leBytes 4 n = [a, b, c, d] := ⟨_, _, _, _, rfl⟩
theorem leBytes_two (n : Nat) : ∃ a b, leBytes 2 n = [a, b] := ⟨_, _, rfl⟩

/-- C29: an assignment to `length` changes that field alone, and a value that is no byte is refused. -/
theorem C29_length (m : MobID) (v : Int) : (m.setLength v).map MobID.fields =
    if 0 ≤ v ∧ v < 256 then .ok { m.fields with length := v.toNat } else .error .value := by
  unfold MobID.setLength MobID.setByte
  split
  · rename_i h
    have e : (UInt8.ofNat v.toNat).toNat = v.toNat := by rw [UInt8.toNat_ofNat']; omega
    conv => rhs; rw [← e]
    induction m using MobID.cases32
    rfl
  · rfl

/-- C29: an assignment to `instanceHigh` changes that field alone, and a value that is no byte is refused. -/
theorem C29_instanceHigh (m : MobID) (v : Int) : (m.setInstanceHigh v).map MobID.fields =
    if 0 ≤ v ∧ v < 256 then .ok { m.fields with high := v.toNat } else .error .value := by
  unfold MobID.setInstanceHigh MobID.setByte
  split
  · rename_i h
    have e : (UInt8.ofNat v.toNat).toNat = v.toNat := by rw [UInt8.toNat_ofNat']; omega
    conv => rhs; rw [← e]
    induction m using MobID.cases32
    rfl
  · rfl

/-- C29: an assignment to `instanceMid` changes that field alone, and a value that is no byte is refused. -/
theorem C29_instanceMid (m : MobID) (v : Int) : (m.setInstanceMid v).map MobID.fields =
    if 0 ≤ v ∧ v < 256 then .ok { m.fields with mid := v.toNat } else .error .value := by
  unfold MobID.setInstanceMid MobID.setByte
  split
  · rename_i h
    have e : (UInt8.ofNat v.toNat).toNat = v.toNat := by rw [UInt8.toNat_ofNat']; omega
    conv => rhs; rw [← e]
    induction m using MobID.cases32
    rfl
  · rfl

/-- C29: an assignment to `instanceLow` changes that field alone, and a value that is no byte is refused. -/
theorem C29_instanceLow (m : MobID) (v : Int) : (m.setInstanceLow v).map MobID.fields =
    if 0 ≤ v ∧ v < 256 then .ok { m.fields with low := v.toNat } else .error .value := by
  unfold MobID.setInstanceLow MobID.setByte
  split
  · rename_i h
    have e : (UInt8.ofNat v.toNat).toNat = v.toNat := by rw [UInt8.toNat_ofNat']; omega
    conv => rhs; rw [← e]
    induction m using MobID.cases32
    rfl
  · rfl

/-- C29: an assignment to `Data1` changes that field alone, and a value that does not fit is refused. -/
theorem C29_data1 (m : MobID) (v : Int) : (m.setData1 v).map MobID.fields =
    if 0 ≤ v ∧ v < 2 ^ 32 then .ok { m.fields with data1 := v.toNat } else .error .struct := by
  unfold MobID.setData1
  split
  · rename_i h
    have e : leVal (leBytes 4 v.toNat) = v.toNat := by
      rw [leVal_leBytes]; exact Nat.mod_eq_of_lt (by omega)
    conv => rhs; rw [← e]
    obtain ⟨a, b, c, d, hl⟩ := leBytes_four v.toNat
    rw [hl]
    show Except.ok (MobID.fields _) = _
    simp only [MobID.fields, MobID.data1_eq, MobID.data2_eq, MobID.data3_eq]
    induction m using MobID.cases32
    rfl
  · rfl

/-- C29: an assignment to `Data2` changes that field alone, and a value that does not fit is refused. -/
theorem C29_data2 (m : MobID) (v : Int) : (m.setData2 v).map MobID.fields =
    if 0 ≤ v ∧ v < 2 ^ 16 then .ok { m.fields with data2 := v.toNat } else .error .struct := by
  unfold MobID.setData2
  split
  · rename_i h
    have e : leVal (leBytes 2 v.toNat) = v.toNat := by
      rw [leVal_leBytes]; exact Nat.mod_eq_of_lt (by omega)
    conv => rhs; rw [← e]
    obtain ⟨a, b, hl⟩ := leBytes_two v.toNat
    rw [hl]
    show Except.ok (MobID.fields _) = _
    simp only [MobID.fields, MobID.data1_eq, MobID.data2_eq, MobID.data3_eq]
    induction m using MobID.cases32
    rfl
  · rfl

/-- C29: an assignment to `Data3` changes that field alone, and a value that does not fit is refused. -/
theorem C29_data3 (m : MobID) (v : Int) : (m.setData3 v).map MobID.fields =
    if 0 ≤ v ∧ v < 2 ^ 16 then .ok { m.fields with data3 := v.toNat } else .error .struct := by
  unfold MobID.setData3
  split
  · rename_i h
    have e : leVal (leBytes 2 v.toNat) = v.toNat := by
      rw [leVal_leBytes]; exact Nat.mod_eq_of_lt (by omega)
    conv => rhs; rw [← e]
    obtain ⟨a, b, hl⟩ := leBytes_two v.toNat
    rw [hl]
    show Except.ok (MobID.fields _) = _
    simp only [MobID.fields, MobID.data1_eq, MobID.data2_eq, MobID.data3_eq]
    induction m using MobID.cases32
    rfl
  · rfl

theorem bytes_of_ints {l : List Int} (h : ∀ v ∈ l, 0 ≤ v ∧ v < 256) :
    (l.map fun v => UInt8.ofNat v.toNat).map (fun b => (b.toNat : Int)) = l := by
  rw [List.map_map]
  conv => rhs; rw [← List.map_id l]
  apply List.map_congr_left
  intro v hv
  have := h v hv
  simp only [Function.comp, UInt8.toNat_ofNat', id]
  omega

/-- C29: an assignment to `SMPTELabel` changes that field alone; anything but twelve bytes is refused. -/
theorem C29_label (m : MobID) (v : List Int) : (m.setLabel v).map MobID.fields =
    if v.length = 12 ∧ ∀ x ∈ v, 0 ≤ x ∧ x < 256 then
      .ok { m.fields with label := v.map fun x => UInt8.ofNat x.toNat } else .error .struct := by
  unfold MobID.setLabel MobID.packBytes
  split
  · rename_i h
    obtain ⟨hl, _⟩ := h
    match v, hl with
    | [_, _, _, _, _, _, _, _, _, _, _, _], _ =>
      induction m using MobID.cases32
      rfl
  · rfl

/-- C29: an assignment to `Data4` changes that field alone; anything but eight bytes is refused. -/
theorem C29_data4 (m : MobID) (v : List Int) : (m.setData4 v).map MobID.fields =
    if v.length = 8 ∧ ∀ x ∈ v, 0 ≤ x ∧ x < 256 then
      .ok { m.fields with data4 := v.map fun x => UInt8.ofNat x.toNat } else .error .struct := by
  unfold MobID.setData4 MobID.packBytes
  split
  · rename_i h
    obtain ⟨hl, _⟩ := h
    match v, hl with
    | [_, _, _, _, _, _, _, _], _ =>
      induction m using MobID.cases32
      rfl
  · rfl

/-- C29: an assignment to `material` changes the last sixteen bytes alone and reads back. -/
theorem C29_material (m : MobID) (u : UUID) : (m.setMaterial u).material = u ∧
    (m.setMaterial u).label = m.label ∧ (m.setMaterial u).length = m.length ∧
    (m.setMaterial u).instanceHigh = m.instanceHigh ∧ (m.setMaterial u).instanceMid = m.instanceMid ∧
    (m.setMaterial u).instanceLow = m.instanceLow := by
  obtain ⟨u, hu⟩ := u
  match u, hu with
  | [_, _, _, _, _, _, _, _, _, _, _, _, _, _, _, _], _ =>
    induction m using MobID.cases32
    exact ⟨rfl, rfl, rfl, rfl, rfl, rfl⟩

/-- The dictionary with the missing entries added: zero, or as many zeros as the field has bytes. -/
def MobDict.filled (d : MobDict) : MobDict :=
  let mat := d.material.getD ⟨none, none, none, none⟩
  { material := some ⟨some (mat.Data1.getD 0), some (mat.Data2.getD 0), some (mat.Data3.getD 0),
      some (mat.Data4.getD [0, 0, 0, 0, 0, 0, 0, 0])⟩
    length := some (d.length.getD 0)
    instanceHigh := some (d.instanceHigh.getD 0)
    instanceMid := some (d.instanceMid.getD 0)
    instanceLow := some (d.instanceLow.getD 0)
    SMPTELabel := some (d.SMPTELabel.getD [0, 0, 0, 0, 0, 0, 0, 0, 0, 0, 0, 0]) }

/-- `v`, if there, is a number below `n`. -/
def Within (v : Option Int) (n : Int) : Prop := ∀ x, v = some x → 0 ≤ x ∧ x < n
/-- `v`, if there, is a list of `n` bytes. -/
def WithinList (v : Option (List Int)) (n : Nat) : Prop :=
  ∀ l, v = some l → l.length = n ∧ ∀ x ∈ l, 0 ≤ x ∧ x < 256

/-- All entries of the dictionary fit. -/
structure MobDict.Fits (d : MobDict) : Prop where
  length : Within d.length 256
  high : Within d.instanceHigh 256
  mid : Within d.instanceMid 256
  low : Within d.instanceLow 256
  data1 : ∀ mat, d.material = some mat → Within mat.Data1 (2 ^ 32)
  data2 : ∀ mat, d.material = some mat → Within mat.Data2 (2 ^ 16)
  data3 : ∀ mat, d.material = some mat → Within mat.Data3 (2 ^ 16)
  data4 : ∀ mat, d.material = some mat → WithinList mat.Data4 8
  label : WithinList d.SMPTELabel 12

theorem within_getD {v : Option Int} {n : Int} (hn : 0 < n) :
    (0 ≤ v.getD 0 ∧ v.getD 0 < n) ↔ Within v n := by
  cases v <;> simp [Within, hn]

theorem withinList_getD {v : Option (List Int)} {n : Nat} :
    ((v.getD (List.replicate n 0)).length = n ∧ ∀ x ∈ v.getD (List.replicate n 0), 0 ≤ x ∧ x < 256) ↔
      WithinList v n := by
  cases v with
  | none =>
    simp only [Option.getD_none, List.length_replicate, true_and, WithinList]
    refine ⟨fun _ l hl => by simp at hl, fun _ x hx => ?_⟩
    rw [List.eq_of_mem_replicate hx]; decide
  | some l => simp [WithinList]

theorem MobID.assign_ok {f : MobID → Except Err MobID} {m : MobID} {F : MobFields}
    (h : (f m).map MobID.fields = .ok F) : ∃ m', MobID.assign f m = .ok () m' ∧ m'.fields = F := by
  unfold MobID.assign
  cases hf : f m with
  | error e => rw [hf] at h; simp [Except.map] at h
  | ok m' => rw [hf] at h; simp only [Except.map, Except.ok.injEq] at h; exact ⟨m', rfl, h⟩

theorem MobID.assign_error {f : MobID → Except Err MobID} {m : MobID} {e : Err}
    (h : (f m).map MobID.fields = .error e) : MobID.assign f m = .error e m := by
  unfold MobID.assign
  cases hf : f m with
  | error e' => rw [hf] at h; simp only [Except.map, Except.error.injEq] at h; rw [h]
  | ok m' => rw [hf] at h; simp [Except.map] at h

theorem Mut_bind_ok {α β : Type} {x : MobID.Mut α} {f : α → MobID.Mut β} {m m' : MobID} {a : α}
    (h : x m = .ok a m') : (x >>= f) m = f a m' := by
  show EStateM.bind x f m = _
  unfold EStateM.bind
  rw [h]

theorem Mut_bind_error {α β : Type} {x : MobID.Mut α} {f : α → MobID.Mut β} {m m' : MobID} {e : Err}
    (h : x m = .error e m') : (x >>= f) m = .error e m' := by
  show EStateM.bind x f m = _
  unfold EStateM.bind
  rw [h]

theorem toDict_of_fields {m m' : MobID} (h : m.fields = m'.fields) : m.toDict = m'.toDict := by
  rw [C29_fields_determine h]

theorem MobDict.fits_iff (d : MobDict) {mat : MaterialDict}
    (hmat : mat = d.material.getD ⟨some 0, some 0, some 0, some (List.replicate 8 0)⟩) :
    d.Fits ↔ Within d.length 256 ∧ Within d.instanceHigh 256 ∧ Within d.instanceMid 256 ∧
      Within d.instanceLow 256 ∧ Within mat.Data1 (2 ^ 32) ∧ Within mat.Data2 (2 ^ 16) ∧
      Within mat.Data3 (2 ^ 16) ∧ WithinList mat.Data4 8 ∧ WithinList d.SMPTELabel 12 := by
  have z : WithinList (some (List.replicate 8 0)) 8 := by
    intro l hl
    simp only [Option.some.injEq] at hl
    subst hl
    decide
  have z1 : ∀ n : Int, 0 < n → Within (some 0) n := by
    intro n hn x hx
    simp only [Option.some.injEq] at hx
    subst hx
    exact ⟨le_refl _, hn⟩
  cases hm : d.material with
  | none =>
    rw [hm] at hmat
    subst hmat
    constructor
    · intro h
      exact ⟨h.length, h.high, h.mid, h.low, z1 _ (by decide), z1 _ (by decide), z1 _ (by decide), z, h.label⟩
    · rintro ⟨h1, h2, h3, h4, -, -, -, -, h9⟩
      exact ⟨h1, h2, h3, h4, by simp [hm], by simp [hm], by simp [hm], by simp [hm], h9⟩
  | some q =>
    rw [hm] at hmat
    simp only [Option.getD_some] at hmat
    constructor
    · intro h
      rw [hmat]
      exact ⟨h.length, h.high, h.mid, h.low, h.data1 _ hm, h.data2 _ hm, h.data3 _ hm, h.data4 _ hm, h.label⟩
    · rintro ⟨h1, h2, h3, h4, h5, h6, h7, h8, h9⟩
      refine ⟨h1, h2, h3, h4, ?_, ?_, ?_, ?_, h9⟩ <;> intro q' hq' <;>
        (rw [hm] at hq'; cases hq'; subst hmat; assumption)

theorem fromDict_cases (d : MobDict) (m0 : MobID) :
    (d.Fits ∧ ∃ m, MobID.fromDict d m0 = .ok () m ∧ m.toDict = d.filled) ∨
      (¬ d.Fits ∧ ∃ e m, MobID.fromDict d m0 = .error e m) := by
  obtain ⟨mat, hmat⟩ : ∃ mat, mat = d.material.getD ⟨some 0, some 0, some 0, some (List.replicate 8 0)⟩ :=
    ⟨_, rfl⟩
  have hf := d.fits_iff hmat
  unfold MobID.fromDict
  rw [← hmat]
  dsimp only
  simp only [← within_getD (show (0 : Int) < 256 by decide), ← within_getD (show (0 : Int) < 2 ^ 32 by decide),
    ← within_getD (show (0 : Int) < 2 ^ 16 by decide), ← withinList_getD] at hf
  by_cases c1 : 0 ≤ d.length.getD 0 ∧ d.length.getD 0 < 256
  swap
  · exact Or.inr ⟨fun h => c1 (hf.1 h).1, _, _, Mut_bind_error (MobID.assign_error ((C29_length m0 _).trans (if_neg c1)))⟩
  obtain ⟨m1, e1, f1⟩ := MobID.assign_ok ((C29_length m0 _).trans (if_pos c1))
  rw [Mut_bind_ok e1]
  by_cases c2 : 0 ≤ d.instanceHigh.getD 0 ∧ d.instanceHigh.getD 0 < 256
  swap
  · exact Or.inr ⟨fun h => c2 (hf.1 h).2.1, _, _, Mut_bind_error (MobID.assign_error ((C29_instanceHigh m1 _).trans (if_neg c2)))⟩
  obtain ⟨m2, e2, f2⟩ := MobID.assign_ok ((C29_instanceHigh m1 _).trans (if_pos c2))
  rw [Mut_bind_ok e2]
  by_cases c3 : 0 ≤ d.instanceMid.getD 0 ∧ d.instanceMid.getD 0 < 256
  swap
  · exact Or.inr ⟨fun h => c3 (hf.1 h).2.2.1, _, _, Mut_bind_error (MobID.assign_error ((C29_instanceMid m2 _).trans (if_neg c3)))⟩
  obtain ⟨m3, e3, f3⟩ := MobID.assign_ok ((C29_instanceMid m2 _).trans (if_pos c3))
  rw [Mut_bind_ok e3]
  by_cases c4 : 0 ≤ d.instanceLow.getD 0 ∧ d.instanceLow.getD 0 < 256
  swap
  · exact Or.inr ⟨fun h => c4 (hf.1 h).2.2.2.1, _, _, Mut_bind_error (MobID.assign_error ((C29_instanceLow m3 _).trans (if_neg c4)))⟩
  obtain ⟨m4, e4, f4⟩ := MobID.assign_ok ((C29_instanceLow m3 _).trans (if_pos c4))
  rw [Mut_bind_ok e4]
  by_cases c5 : 0 ≤ mat.Data1.getD 0 ∧ mat.Data1.getD 0 < 2 ^ 32
  swap
  · exact Or.inr ⟨fun h => c5 (hf.1 h).2.2.2.2.1, _, _, Mut_bind_error (MobID.assign_error ((C29_data1 m4 _).trans (if_neg c5)))⟩
  obtain ⟨m5, e5, f5⟩ := MobID.assign_ok ((C29_data1 m4 _).trans (if_pos c5))
  rw [Mut_bind_ok e5]
  by_cases c6 : 0 ≤ mat.Data2.getD 0 ∧ mat.Data2.getD 0 < 2 ^ 16
  swap
  · exact Or.inr ⟨fun h => c6 (hf.1 h).2.2.2.2.2.1, _, _, Mut_bind_error (MobID.assign_error ((C29_data2 m5 _).trans (if_neg c6)))⟩
  obtain ⟨m6, e6, f6⟩ := MobID.assign_ok ((C29_data2 m5 _).trans (if_pos c6))
  rw [Mut_bind_ok e6]
  by_cases c7 : 0 ≤ mat.Data3.getD 0 ∧ mat.Data3.getD 0 < 2 ^ 16
  swap
  · exact Or.inr ⟨fun h => c7 (hf.1 h).2.2.2.2.2.2.1, _, _, Mut_bind_error (MobID.assign_error ((C29_data3 m6 _).trans (if_neg c7)))⟩
  obtain ⟨m7, e7, f7⟩ := MobID.assign_ok ((C29_data3 m6 _).trans (if_pos c7))
  rw [Mut_bind_ok e7]
  by_cases c8 : (mat.Data4.getD (List.replicate 8 0)).length = 8 ∧
      ∀ x ∈ mat.Data4.getD (List.replicate 8 0), 0 ≤ x ∧ x < 256
  swap
  · exact Or.inr ⟨fun h => c8 (hf.1 h).2.2.2.2.2.2.2.1, _, _, Mut_bind_error (MobID.assign_error ((C29_data4 m7 _).trans (if_neg c8)))⟩
  obtain ⟨m8, e8, f8⟩ := MobID.assign_ok ((C29_data4 m7 _).trans (if_pos c8))
  rw [Mut_bind_ok e8]
  by_cases c9 : (d.SMPTELabel.getD (List.replicate 12 0)).length = 12 ∧
      ∀ x ∈ d.SMPTELabel.getD (List.replicate 12 0), 0 ≤ x ∧ x < 256
  swap
  · exact Or.inr ⟨fun h => c9 (hf.1 h).2.2.2.2.2.2.2.2, _, _, MobID.assign_error ((C29_label m8 _).trans (if_neg c9))⟩
  obtain ⟨m9, e9, f9⟩ := MobID.assign_ok ((C29_label m8 _).trans (if_pos c9))
  refine Or.inl ⟨hf.2 ⟨c1, c2, c3, c4, c5, c6, c7, c8, c9⟩, m9, e9, ?_⟩
  rw [f8, f7, f6, f5, f4, f3, f2, f1] at f9
  clear f1 f2 f3 f4 f5 f6 f7 f8 e1 e2 e3 e4 e5 e6 e7 e8 e9
  simp only [MobID.fields, MobFields.mk.injEq] at f9
  obtain ⟨g1, g2, g3, g4, g5, g6, g7, g8, g9⟩ := f9
  have k : ∀ x : Int, 0 ≤ x → ((x.toNat : Nat) : Int) = x := fun x hx => Int.toNat_of_nonneg hx
  unfold MobID.toDict MobDict.filled
  rw [g1, g2, g3, g4, g5, g6, g7, g8, g9, bytes_of_ints c8.2, bytes_of_ints c9.2, k _ c1.1, k _ c2.1, k _ c3.1, k _ c4.1,
    k _ c5.1, k _ c6.1, k _ c7.1]
  cases hm : d.material with
  | none => rw [hm] at hmat; subst hmat; rfl
  | some q => rw [hm] at hmat; subst hmat; rfl

/-- C29: a dictionary of which all entries fit sets every field, missing ones to zero, whatever the id
was before. -/
theorem C29_from_dict (d : MobDict) (m0 : MobID) (h : d.Fits) :
    ∃ m, MobID.fromDict d m0 = .ok () m ∧ m.toDict = d.filled := by
  rcases fromDict_cases d m0 with ⟨_, h'⟩ | ⟨h', _⟩
  · exact h'
  · exact absurd h h'

/-- C29: a dictionary with an entry that does not fit is refused. -/
theorem C29_from_dict_refused (d : MobDict) (m0 : MobID) (h : ¬ d.Fits) :
    ∃ e m, MobID.fromDict d m0 = .error e m := by
  rcases fromDict_cases d m0 with ⟨h', _⟩ | ⟨_, h'⟩
  · exact absurd h' h
  · exact h'

theorem toDict_inj {a b : MobID} (h : a.toDict = b.toDict) : a = b := by
  apply C29_fields_determine
  simp only [MobID.toDict, MobDict.mk.injEq, Option.some.injEq, MaterialDict.mk.injEq] at h
  obtain ⟨⟨h1, h2, h3, h4⟩, h5, h6, h7, h8, h9⟩ := h
  have inj : ∀ {x y : Bytes}, x.map (fun b => (b.toNat : Int)) = y.map (fun b => (b.toNat : Int)) → x = y := by
    intro x y hxy
    refine List.map_injective_iff.2 ?_ hxy
    intro p q hpq
    have : (p.toNat : Int) = q.toNat := hpq
    exact UInt8.toNat_inj.1 (by exact_mod_cast this)
  simp only [MobID.fields, MobFields.mk.injEq]
  exact ⟨inj h9, by exact_mod_cast h5, by exact_mod_cast h6, by exact_mod_cast h7, by exact_mod_cast h8,
    by exact_mod_cast h1, by exact_mod_cast h2, by exact_mod_cast h3, inj h4⟩

/-- C29: the dictionary of an id gives that id back, whatever the id was before. -/
theorem C29_dict (m m0 : MobID) : MobID.fromDict m.toDict m0 = .ok () m := by
  have hb : ∀ l : Bytes, ∀ n, l.length = n → WithinList (some (l.map fun b => (b.toNat : Int))) n := by
    intro l n hl l' hl'
    simp only [Option.some.injEq] at hl'
    subst hl'
    refine ⟨by simpa using hl, ?_⟩
    intro x hx
    obtain ⟨b, _, rfl⟩ := List.mem_map.1 hx
    have := b.toNat_lt
    omega
  have hn : ∀ n k : Nat, n < k → Within (some (n : Int)) k := by
    intro n k hnk x hx
    simp only [Option.some.injEq] at hx
    omega
  have hfit : m.toDict.Fits := by
    refine ⟨hn _ _ (UInt8.toNat_lt _), hn _ _ (UInt8.toNat_lt _), hn _ _ (UInt8.toNat_lt _),
      hn _ _ (UInt8.toNat_lt _), ?_, ?_, ?_, ?_, hb _ _ (by simp [MobID.label, m.len])⟩
    all_goals
      intro mat hm
      simp only [MobID.toDict, Option.some.injEq] at hm
      subst hm
    · refine hn _ _ ?_
      rw [MobID.data1_eq]
      have := leVal_lt ((m.bytes.drop 16).take 4)
      simpa [m.len] using this
    · refine hn _ _ ?_
      rw [MobID.data2_eq]
      have := leVal_lt ((m.bytes.drop 20).take 2)
      simpa [m.len] using this
    · refine hn _ _ ?_
      rw [MobID.data3_eq]
      have := leVal_lt ((m.bytes.drop 22).take 2)
      simpa [m.len] using this
    · exact hb _ _ (by simp [MobID.data4, m.len])
  obtain ⟨m', h1, h2⟩ := C29_from_dict _ m0 hfit
  rw [h1, toDict_inj (show m'.toDict = m.toDict from h2)]

/-- A mob id with all fields different, for the cases below. -/
def mobSample : MobID := MobID.ofInt 0x060a2b340101010501010f1013203142_0123456789abcdef1122334455667788

example : mobSample.fields = ⟨[0x06, 0x0a, 0x2b, 0x34, 1, 1, 1, 5, 1, 1, 0x0f, 0x10], 0x13, 0x20, 0x31, 0x42,
    0x67452301, 0xab89, 0xefcd, [0x11, 0x22, 0x33, 0x44, 0x55, 0x66, 0x77, 0x88]⟩ := by decide +kernel

example : (⟨none, some 19, none, none, some 255, none⟩ : MobDict).Fits :=
  ⟨by simp [Within], by simp [Within], by simp [Within], by simp [Within], by simp, by simp, by simp, by simp,
    by simp [WithinList]⟩

example : ¬ (⟨none, some 256, none, none, none, none⟩ : MobDict).Fits := fun h => by
  have := h.length 256 rfl
  omega

/-- C29: a fresh id has the label of the library, length 19, instance 0 and the drawn UUID as material. -/
theorem C29_new (u : UUID) : ∃ m, MobID.new u = .ok m ∧ m.material = u ∧ m.length = 0x13 ∧
    m.instanceHigh = 0 ∧ m.instanceMid = 0 ∧ m.instanceLow = 0 ∧
    m.label = [0x06, 0x0a, 0x2b, 0x34, 0x01, 0x01, 0x01, 0x05, 0x01, 0x01, 0x0f, 0x20] := by
  obtain ⟨u, hu⟩ := u
  match u, hu with
  | [_, _, _, _, _, _, _, _, _, _, _, _, _, _, _, _], _ =>
    exact ⟨_, rfl, rfl, rfl, rfl, rfl, rfl, rfl⟩

/-! ### C28 -/

/-- The digit with value `n`. -/
def digit (n : Nat) : Char := ['0', '1', '2', '3', '4', '5', '6', '7', '8', '9', 'a', 'b', 'c', 'd', 'e', 'f'].getD n '?'

/-- Bytes in hexadecimal, two small digits each. -/
def hexText (p : Bytes) : Text := p.flatMap fun b => [digit (b.toNat / 16), digit (b.toNat % 16)]

/-- The text of a UMID: the prefix and eight groups of four bytes, joined by points. -/
def umidText (p : Bytes) : Text :=
  "urn:smpte:umid:".toList ++
    ['.'].intercalate ((List.range 8).map fun i => hexText ((p.drop (4 * i)).take 4))

/-- The material number is printed half swapped: the last label byte is 0 and the second half of the
material begins with 06 0e 2b 34 7f 7f. -/
def MobID.Swapped (m : MobID) : Prop :=
  m.bytes.getD 11 0 = 0 ∧ (m.bytes.drop 24).take 6 = [0x06, 0x0e, 0x2b, 0x34, 0x7f, 0x7f]

instance (m : MobID) : Decidable m.Swapped := by unfold MobID.Swapped; infer_instance

/-- The three little-endian numbers at the start of eight bytes turned around. -/
def turn : Bytes → Bytes
  | [a, b, c, d, e, f, g, h] => [d, c, b, a, f, e, h, g]
  | l => l

/-- The bytes in the order in which they are printed. -/
def MobID.printed (m : MobID) : Bytes :=
  m.bytes.take 16 ++
    if m.Swapped then m.bytes.drop 24 ++ turn ((m.bytes.drop 16).take 8)
    else turn ((m.bytes.drop 16).take 8) ++ m.bytes.drop 24

theorem digit_eq : ∀ n < 16, digit n = hexChar n := by decide

theorem hexText_eq (p : Bytes) : hexText p = p.flatMap hexByte := by
  unfold hexText
  congr 1
  funext b
  have := b.toNat_lt
  rw [digit_eq _ (by omega), digit_eq _ (by omega)]
  rfl

theorem halfSwapped_iff (m : MobID) : m.halfSwapped = true ↔ m.Swapped := by
  have e : ∀ (b : UInt8) (n : Nat), n < 256 → (b.toNat = n ↔ b = UInt8.ofNat n) := by
    intro b n hn
    rw [← UInt8.toNat_inj, UInt8.toNat_ofNat', Nat.mod_eq_of_lt hn]
  unfold MobID.halfSwapped MobID.Swapped
  simp only [Bool.and_eq_true, beq_iff_eq]
  rw [e _ 0 (by decide), e _ 6 (by decide), e _ 0x0e (by decide), e _ 0x2b (by decide), e _ 0x34 (by decide),
    e _ 0x7f (by decide), e _ 0x7f (by decide)]
  induction m using MobID.cases32
  simp [MobID.byteAt]
  tauto

theorem fmtHex_four (a b c d : UInt8) :
    fmtHex 8 (a.toNat + b.toNat <<< 8 + c.toNat <<< 16 + d.toNat <<< 24) =
      hexByte d ++ hexByte c ++ hexByte b ++ hexByte a := by
  rw [← fmtHex_byte d, ← fmtHex_snoc _ (by decide), ← fmtHex_snoc _ (by decide), ← fmtHex_snoc _ (by decide)]
  have e : a.toNat + b.toNat <<< 8 + c.toNat <<< 16 + d.toNat <<< 24 =
      ((d.toNat * 256 + c.toNat) * 256 + b.toNat) * 256 + a.toNat := by
    simp only [Nat.shiftLeft_eq]
    omega
  rw [e]

theorem fmtHex_two (a b : UInt8) : fmtHex 4 (a.toNat + b.toNat <<< 8) = hexByte b ++ hexByte a := by
  rw [← fmtHex_byte b, ← fmtHex_snoc _ (by decide)]
  have e : a.toNat + b.toNat <<< 8 = b.toNat * 256 + a.toNat := by
    simp only [Nat.shiftLeft_eq]
    omega
  rw [e]

theorem eight_groups (f : Nat → Text) : ['.'].intercalate ((List.range 8).map f) =
    f 0 ++ ['.'] ++ f 1 ++ ['.'] ++ f 2 ++ ['.'] ++ f 3 ++ ['.'] ++ f 4 ++ ['.'] ++ f 5 ++ ['.'] ++ f 6 ++
      ['.'] ++ f 7 := by
  show ['.'].intercalate [f 0, f 1, f 2, f 3, f 4, f 5, f 6, f 7] = _
  simp [List.intercalate]

theorem MobID.fmt_data1 (m : MobID) : fmtHex 8 m.data1 =
    hexByte (m.byteAt 19) ++ hexByte (m.byteAt 18) ++ hexByte (m.byteAt 17) ++ hexByte (m.byteAt 16) :=
  fmtHex_four _ _ _ _
theorem MobID.fmt_data2 (m : MobID) : fmtHex 4 m.data2 = hexByte (m.byteAt 21) ++ hexByte (m.byteAt 20) :=
  fmtHex_two _ _
theorem MobID.fmt_data3 (m : MobID) : fmtHex 4 m.data3 = hexByte (m.byteAt 23) ++ hexByte (m.byteAt 22) :=
  fmtHex_two _ _

theorem MobID.urnHead_eq (m : MobID) : m.urnHead = urnPrefix ++ (m.bytes.take 4).flatMap hexByte ++ ['.'] ++
    ((m.bytes.drop 4).take 4).flatMap hexByte ++ ['.'] ++ ((m.bytes.drop 8).take 4).flatMap hexByte ++ ['.'] ++
    ((m.bytes.drop 12).take 4).flatMap hexByte ++ ['.'] := by
  unfold MobID.urnHead MobID.length MobID.instanceHigh MobID.instanceMid MobID.instanceLow
  simp only [fmtHex_byte]
  generalize urnPrefix = u
  induction m using MobID.cases32
  simp [MobID.byteAt]

/-- C28: the URN of an id is the UMID text of its bytes, the first three numbers of the material being
turned around and its halves exchanged when it is half swapped. -/
theorem C28_form (m : MobID) : m.urn = umidText m.printed := by
  unfold MobID.urn umidText MobID.printed
  simp only [hexText_eq, eight_groups, MobID.fmt_data1, MobID.fmt_data2, MobID.fmt_data3, fmtHex_byte,
    MobID.urnHead_eq]
  change _ = urnPrefix ++ _
  generalize urnPrefix = u
  by_cases h : m.Swapped
  · rw [if_pos ((halfSwapped_iff m).2 h), if_pos h]
    clear h
    induction m using MobID.cases32
    simp [MobID.byteAt, turn]
  · rw [if_neg (mt (halfSwapped_iff m).1 h), if_neg h]
    clear h
    induction m using MobID.cases32
    simp [MobID.byteAt, turn]

/-- The bytes of the id that a printed sequence of bytes stands for. -/
def unprinted (p : Bytes) : Bytes :=
  p.take 16 ++
    if p.getD 11 0 = 0 ∧ (p.drop 16).take 6 = [0x06, 0x0e, 0x2b, 0x34, 0x7f, 0x7f] then
      turn (p.drop 24) ++ (p.drop 16).take 8
    else turn ((p.drop 16).take 8) ++ p.drop 24

theorem packBytes_ok (m : MobID) (off n : Nat) (l : Bytes) (h : l.length = n) :
    m.packBytes off n ((l.map UInt8.toNat).map Int.ofNat) = .ok (m.put off l) := by
  subst h
  unfold MobID.packBytes
  rw [if_pos]
  · congr 2
    rw [List.map_map, List.map_map]
    conv => rhs; rw [← List.map_id l]
    apply List.map_congr_left
    intro b _
    simp
  · refine ⟨by simp, ?_⟩
    intro v hv
    rw [List.map_map] at hv
    obtain ⟨b, _, rfl⟩ := List.mem_map.1 hv
    have := b.toNat_lt
    simp only [Function.comp, Int.ofNat_eq_natCast]
    omega

theorem setLabel_ok (m : MobID) (l : Bytes) (h : l.length = 12) :
    MobID.setLabel ((l.map UInt8.toNat).map Int.ofNat) m = .ok (m.put 0 l) := packBytes_ok m 0 12 l h
theorem setData4_ok (m : MobID) (l : Bytes) (h : l.length = 8) :
    MobID.setData4 ((l.map UInt8.toNat).map Int.ofNat) m = .ok (m.put 24 l) := packBytes_ok m 24 8 l h

theorem setByte_ok (m : MobID) (i : Nat) (l : Bytes) (h : l.length = 1) :
    m.setByte i (bigValue l : Nat) = .ok (m.put i l) := by
  match l, h with
  | [b], _ =>
    have := b.toNat_lt
    have e : bigValue [b] = b.toNat := by rw [bigValue_cons, bigValue_nil]; simp
    unfold MobID.setByte
    rw [e, if_pos (by omega)]
    simp

theorem setLength_ok (m : MobID) (l : Bytes) (h : l.length = 1) :
    MobID.setLength (bigValue l : Nat) m = .ok (m.put 12 l) := setByte_ok m 12 l h
theorem setInstanceHigh_ok (m : MobID) (l : Bytes) (h : l.length = 1) :
    MobID.setInstanceHigh (bigValue l : Nat) m = .ok (m.put 13 l) := setByte_ok m 13 l h
theorem setInstanceMid_ok (m : MobID) (l : Bytes) (h : l.length = 1) :
    MobID.setInstanceMid (bigValue l : Nat) m = .ok (m.put 14 l) := setByte_ok m 14 l h
theorem setInstanceLow_ok (m : MobID) (l : Bytes) (h : l.length = 1) :
    MobID.setInstanceLow (bigValue l : Nat) m = .ok (m.put 15 l) := setByte_ok m 15 l h

theorem leBytes_bigValue (l : Bytes) {n : Nat} (hn : l.length = n) : leBytes n (bigValue l) = l.reverse := by
  rw [bigValue_eq]
  have := leBytes_leVal l.reverse
  rwa [List.length_reverse, hn] at this

theorem setData1_ok (m : MobID) (l : Bytes) (h : l.length = 4) :
    MobID.setData1 (bigValue l : Nat) m = .ok (m.put 16 l.reverse) := by
  have hl : bigValue l < 4294967296 := by have := bigValue_lt l; rw [h] at this; exact this
  unfold MobID.setData1
  rw [if_pos (by omega), Int.toNat_natCast, leBytes_bigValue l h]

theorem setData2_ok (m : MobID) (l : Bytes) (h : l.length = 2) :
    MobID.setData2 (bigValue l : Nat) m = .ok (m.put 20 l.reverse) := by
  have hl : bigValue l < 65536 := by have := bigValue_lt l; rw [h] at this; exact this
  unfold MobID.setData2
  rw [if_pos (by omega), Int.toNat_natCast, leBytes_bigValue l h]

theorem setData3_ok (m : MobID) (l : Bytes) (h : l.length = 2) :
    MobID.setData3 (bigValue l : Nat) m = .ok (m.put 22 l.reverse) := by
  have hl : bigValue l < 65536 := by have := bigValue_lt l; rw [h] at this; exact this
  unfold MobID.setData3
  rw [if_pos (by omega), Int.toNat_natCast, leBytes_bigValue l h]

theorem lift_bind_ok {α β : Type} {x : Except Err α} {a : α} {f : α → MobID.Mut β} {m : MobID} (h : x = .ok a) :
    (MobID.lift x >>= f) m = f a m := by
  apply Mut_bind_ok
  unfold MobID.lift
  rw [h]

theorem assign_bind_ok {β : Type} {g : MobID → Except Err MobID} {f : Unit → MobID.Mut β} {m m' : MobID}
    (h : g m = .ok m') : (MobID.assign g >>= f) m = f () m' := by
  apply Mut_bind_ok
  unfold MobID.assign
  rw [h]

theorem assign_eq_ok {g : MobID → Except Err MobID} {m m' : MobID}
    (h : g m = .ok m') : MobID.assign g m = .ok () m' := by
  unfold MobID.assign
  rw [h]

theorem hexPairs_at {p : Bytes} {a n a' : Nat} (h : a + n ≤ p.length) (e : a' = 2 * a) :
    MobID.hexPairs (p.flatMap hexByte) a' n = .ok (((p.drop a).take n).map UInt8.toNat) := by
  rw [e, hexPairs_bytes h]

theorem cond_iff {p : Bytes} (hp : p.length = 32) :
    ((((p.drop 0).take 12).map UInt8.toNat)[11]? = some 0 ∧
      ((p.drop 16).take 6).map UInt8.toNat = [0x06, 0x0E, 0x2B, 0x34, 0x7F, 0x7F]) ↔
    (p.getD 11 0 = 0 ∧ (p.drop 16).take 6 = [0x06, 0x0e, 0x2b, 0x34, 0x7f, 0x7f]) := by
  have e : ∀ (b : UInt8) (n : Nat), n < 256 → (b.toNat = n ↔ b = UInt8.ofNat n) := by
    intro b n hn
    rw [← UInt8.toNat_inj, UInt8.toNat_ofNat', Nat.mod_eq_of_lt hn]
  match p, hp with
  | [b0, b1, b2, b3, b4, b5, b6, b7, b8, b9, b10, b11, b12, b13, b14, b15, b16, b17, b18, b19, b20, b21, b22,
     b23, b24, b25, b26, b27, b28, b29, b30, b31], hp =>
    simp [e]

theorem setUrn_bytes {t : Text} {p : Bytes} (hp : p.length = 32) (hc : urnClean t = p.flatMap hexByte) (m : MobID) :
    ∃ m', MobID.setUrn t m = .ok () m' ∧ m'.bytes = unprinted p := by
  unfold MobID.setUrn
  rw [hc]
  have hlen : (p.flatMap hexByte).length = 64 := by
    rw [List.length_flatMap]
    have : (p.map fun a => (hexByte a).length) = p.map fun _ => 2 := rfl
    rw [this]
    simp [hp]
  rw [lift_bind_ok (a := ()) (by rw [if_pos hlen])]
  rw [lift_bind_ok (hexPairs_at (p := p) (a := 0) (n := 12) (by omega) rfl)]
  rw [assign_bind_ok (setLabel_ok _ ((p.drop 0).take 12) (by simp; omega))]
  rw [lift_bind_ok (pyIntHex_slice (p := p) (a := 12) (b := 13) (by decide) (by omega) rfl rfl)]
  rw [assign_bind_ok (setLength_ok _ ((p.drop 12).take (13 - 12)) (by simp; omega))]
  rw [lift_bind_ok (pyIntHex_slice (p := p) (a := 13) (b := 14) (by decide) (by omega) rfl rfl)]
  rw [assign_bind_ok (setInstanceHigh_ok _ ((p.drop 13).take (14 - 13)) (by simp; omega))]
  rw [lift_bind_ok (pyIntHex_slice (p := p) (a := 14) (b := 15) (by decide) (by omega) rfl rfl)]
  rw [assign_bind_ok (setInstanceMid_ok _ ((p.drop 14).take (15 - 14)) (by simp; omega))]
  rw [lift_bind_ok (pyIntHex_slice (p := p) (a := 15) (b := 16) (by decide) (by omega) rfl rfl)]
  rw [assign_bind_ok (setInstanceLow_ok _ ((p.drop 15).take (16 - 15)) (by simp; omega))]
  rw [lift_bind_ok (hexPairs_at (p := p) (a := 16) (n := 6) (by omega) rfl)]
  by_cases hs : p.getD 11 0 = 0 ∧ (p.drop 16).take 6 = [0x06, 0x0e, 0x2b, 0x34, 0x7f, 0x7f]
  · rw [if_pos ((cond_iff hp).2 hs)]
    rw [lift_bind_ok (hexPairs_at (p := p) (a := 16) (n := 8) (by omega) rfl)]
    rw [assign_bind_ok (setData4_ok _ ((p.drop 16).take 8) (by simp; omega))]
    rw [lift_bind_ok (pyIntHex_slice (p := p) (a := 24) (b := 28) (by decide) (by omega) rfl rfl)]
    rw [assign_bind_ok (setData1_ok _ ((p.drop 24).take (28 - 24)) (by simp; omega))]
    rw [lift_bind_ok (pyIntHex_slice (p := p) (a := 28) (b := 30) (by decide) (by omega) rfl rfl)]
    rw [assign_bind_ok (setData2_ok _ ((p.drop 28).take (30 - 28)) (by simp; omega))]
    rw [lift_bind_ok (pyIntHex_slice (p := p) (a := 30) (b := 32) (by decide) (by omega) rfl rfl)]
    refine ⟨_, assign_eq_ok (setData3_ok _ ((p.drop 30).take (32 - 30)) (by simp; omega)), ?_⟩
    unfold unprinted
    rw [if_pos hs]
    clear hs hc hlen
    match p, hp with
    | [b0, b1, b2, b3, b4, b5, b6, b7, b8, b9, b10, b11, b12, b13, b14, b15, b16, b17, b18, b19, b20, b21, b22,
       b23, b24, b25, b26, b27, b28, b29, b30, b31], hp => rfl
  · rw [if_neg (fun h => hs ((cond_iff hp).1 h))]
    rw [lift_bind_ok (pyIntHex_slice (p := p) (a := 16) (b := 20) (by decide) (by omega) rfl rfl)]
    rw [assign_bind_ok (setData1_ok _ ((p.drop 16).take (20 - 16)) (by simp; omega))]
    rw [lift_bind_ok (pyIntHex_slice (p := p) (a := 20) (b := 22) (by decide) (by omega) rfl rfl)]
    rw [assign_bind_ok (setData2_ok _ ((p.drop 20).take (22 - 20)) (by simp; omega))]
    rw [lift_bind_ok (pyIntHex_slice (p := p) (a := 22) (b := 24) (by decide) (by omega) rfl rfl)]
    rw [assign_bind_ok (setData3_ok _ ((p.drop 22).take (24 - 22)) (by simp; omega))]
    rw [lift_bind_ok (hexPairs_at (p := p) (a := 24) (n := 8) (by omega) rfl)]
    refine ⟨_, assign_eq_ok (setData4_ok _ ((p.drop 24).take 8) (by simp; omega)), ?_⟩
    unfold unprinted
    rw [if_neg hs]
    clear hs hc hlen
    match p, hp with
    | [b0, b1, b2, b3, b4, b5, b6, b7, b8, b9, b10, b11, b12, b13, b14, b15, b16, b17, b18, b19, b20, b21, b22,
       b23, b24, b25, b26, b27, b28, b29, b30, b31], hp => rfl

/-- A text that spells the bytes `p`: an optional prefix in small or capital letters, then the digits, in
small or capital letters, with points and dashes anywhere. -/
structure Spells (t : Text) (p : Bytes) : Prop where
  parts : ∃ pre body, t = pre ++ body ∧ (pre = [] ∨ pre.map Char.toLower = "urn:smpte:umid:".toList) ∧
    (body.filter fun c => c != '.' && c != '-').map Char.toLower = hexText p

theorem hexText_plain {p : Bytes} {c : Char} (h : c ∈ hexText p) : c ≠ '.' ∧ c ≠ '-' ∧ c ≠ 'u' ∧ c ≠ 'x' := by
  rw [hexText_eq, ← nibbles_map] at h
  obtain ⟨n, hn, rfl⟩ := List.mem_map.1 h
  have := hexChar_plain n (nibbles_lt n hn)
  exact ⟨this.2.2.2.2.2.1, this.2.2.2.2.2.2.1, this.2.2.2.2.2.2.2, this.2.2.2.1⟩

theorem filter_lower {body : Text} (h : ∀ c ∈ body, c = '.' ∨ c = '-' ∨ (c.toLower ≠ '.' ∧ c.toLower ≠ '-')) :
    (((body.map Char.toLower).filter (· != '.')).filter (· != '-')) =
      (body.filter fun c => c != '.' && c != '-').map Char.toLower := by
  induction body with
  | nil => rfl
  | cons c body ih =>
    have ih := ih (fun d hd => h d (by simp [hd]))
    rcases h c (by simp) with rfl | rfl | ⟨h1, h2⟩
    · rw [List.map_cons, show Char.toLower '.' = '.' from rfl]
      simpa using ih
    · rw [List.map_cons, show Char.toLower '-' = '-' from rfl]
      simpa using ih
    · have h3 : c ≠ '.' := by rintro rfl; exact h1 rfl
      have h4 : c ≠ '-' := by rintro rfl; exact h2 rfl
      rw [List.map_cons]
      simp only [List.filter_cons, bne_iff_ne, ne_eq, h1, h2, h3, h4, not_false_eq_true, if_true, Bool.and_eq_true,
        and_self, List.map_cons]
      rw [ih]

theorem urnClean_spells {t : Text} {ds : Text} {pre body : Text} (ht : t = pre ++ body)
    (hpre : pre = [] ∨ pre.map Char.toLower = "urn:smpte:umid:".toList)
    (hbody : (body.filter fun c => c != '.' && c != '-').map Char.toLower = ds)
    (hds : ∀ c ∈ ds, c ≠ '.' ∧ c ≠ '-' ∧ c ≠ 'u' ∧ c ≠ 'x') : urnClean t = ds := by
  have hb : ∀ c ∈ body, c = '.' ∨ c = '-' ∨ c.toLower ∈ ds := by
    intro c hc
    by_cases h1 : c = '.'
    · exact Or.inl h1
    by_cases h2 : c = '-'
    · exact Or.inr (Or.inl h2)
    refine Or.inr (Or.inr ?_)
    rw [← hbody]
    exact List.mem_map.2 ⟨c, List.mem_filter.2 ⟨hc, by simp [h1, h2]⟩, rfl⟩
  have hu : 'u' ∉ body.map Char.toLower := by
    intro h
    obtain ⟨c, hc, e⟩ := List.mem_map.1 h
    rcases hb c hc with rfl | rfl | h'
    · exact absurd e (by decide)
    · exact absurd e (by decide)
    · rw [e] at h'; exact (hds _ h').2.2.1 rfl
  have h1 : removeAll urnPrefix (t.map Char.toLower) = body.map Char.toLower := by
    rw [ht, List.map_append]
    rcases hpre with rfl | hpre
    · exact removeAll_absent (c := 'u') (by decide) hu
    · rw [hpre]
      exact (removeAll_prefix (by decide)).trans (removeAll_absent (c := 'u') (by decide) hu)
  unfold urnClean
  dsimp only
  rw [h1, removeAll_single, removeAll_single, filter_lower, hbody]
  · exact removeAll_absent (c := 'x') (by decide) (fun h => (hds _ h).2.2.2 rfl)
  · intro c hc
    rcases hb c hc with h | h | h
    · exact Or.inl h
    · exact Or.inr (Or.inl h)
    · exact Or.inr (Or.inr ⟨(hds _ h).1, (hds _ h).2.1⟩)

/-- C28: any spelling of 32 bytes is accepted and gives the id these bytes stand for, whatever the id
was before. -/
theorem C28_parse {t : Text} {p : Bytes} (hp : p.length = 32) (h : Spells t p) (m0 : MobID) :
    ∃ m, MobID.setUrn t m0 = .ok () m ∧ m.bytes = unprinted p := by
  obtain ⟨pre, body, h1, h2, h3⟩ := h.parts
  refine setUrn_bytes hp ?_ m0
  rw [urnClean_spells h1 h2 h3 (fun c hc => hexText_plain hc), hexText_eq]

theorem urn_spells {p : Bytes} (hp : p.length = 32) : Spells (umidText p) p := by
  refine ⟨"urn:smpte:umid:".toList, _, rfl, Or.inr (by decide), ?_⟩
  have hk : ∀ q, (hexText q).filter (fun c => c != '.' && c != '-') = hexText q := by
    intro q
    rw [List.filter_eq_self]
    intro c hc
    have := hexText_plain hc
    simp [this.1, this.2.1]
  have hl : ∀ q, (hexText q).map Char.toLower = hexText q := by
    intro q
    conv => rhs; rw [← List.map_id (hexText q)]
    apply List.map_congr_left
    intro c hc
    rw [hexText_eq, ← nibbles_map] at hc
    obtain ⟨n, hn, rfl⟩ := List.mem_map.1 hc
    exact hexChar_lower n (nibbles_lt n hn)
  have hd : (['.'] : Text).filter (fun c => c != '.' && c != '-') = [] := rfl
  rw [eight_groups]
  simp only [List.filter_append, hk, hd, List.map_append, hl, List.append_nil]
  match p, hp with
  | [b0, b1, b2, b3, b4, b5, b6, b7, b8, b9, b10, b11, b12, b13, b14, b15, b16, b17, b18, b19, b20, b21, b22,
     b23, b24, b25, b26, b27, b28, b29, b30, b31], hp =>
    simp [hexText]

/-- The ids that print the straight way though their text reads as a half swapped one. -/
def MobID.Ambiguous (m : MobID) : Prop :=
  m.label.getD 11 1 = 0 ∧ m.data1 = 0x060e2b34 ∧ m.data2 = 0x7f7f ∧ ¬ m.Swapped

theorem printed_length (m : MobID) : m.printed.length = 32 := by
  unfold MobID.printed
  split
  all_goals
    rename_i h
    clear h
    induction m using MobID.cases32
    rfl

theorem MobID.data1_iff (m : MobID) :
    m.data1 = 0x060e2b34 ↔ (m.bytes.drop 16).take 4 = [0x34, 0x2b, 0x0e, 0x06] := by
  rw [MobID.data1_eq]
  constructor
  · intro h
    rw [← leBytes_leVal ((m.bytes.drop 16).take 4), h]
    simp only [List.length_take, List.length_drop, m.len]
    decide +kernel
  · intro h; rw [h]; decide +kernel

theorem MobID.data2_iff (m : MobID) : m.data2 = 0x7f7f ↔ (m.bytes.drop 20).take 2 = [0x7f, 0x7f] := by
  rw [MobID.data2_eq]
  constructor
  · intro h
    rw [← leBytes_leVal ((m.bytes.drop 20).take 2), h]
    simp only [List.length_take, List.length_drop, m.len]
    decide +kernel
  · intro h; rw [h]; decide +kernel

theorem turn_take {l : Bytes} (h : l.length = 8) (a b c d e f : UInt8) :
    (turn l).take 6 = [d, c, b, a, f, e] ↔ l.take 4 = [a, b, c, d] ∧ (l.drop 4).take 2 = [e, f] := by
  match l, h with
  | [_, _, _, _, _, _, _, _], _ =>
    simp only [turn, List.take_succ_cons, List.take_zero, List.drop_succ_cons, List.drop_zero, List.cons.injEq]
    tauto

theorem MobID.label_last (m : MobID) : m.label.getD 11 1 = m.bytes.getD 11 0 := by
  induction m using MobID.cases32
  rfl

theorem ambiguous_iff (m : MobID) : m.Ambiguous ↔
    (m.bytes.getD 11 0 = 0 ∧ (turn ((m.bytes.drop 16).take 8)).take 6 = [0x06, 0x0e, 0x2b, 0x34, 0x7f, 0x7f]) ∧
      ¬ m.Swapped := by
  unfold MobID.Ambiguous
  rw [MobID.data1_iff, MobID.data2_iff, MobID.label_last, turn_take (by simp [m.len]), List.take_take, List.drop_take,
    List.drop_drop, List.take_take]
  simp only [show min 4 8 = 4 from rfl, show min 2 (8 - 4) = 2 from rfl, show 16 + 4 = 20 from rfl, and_assoc]

/-- C28: the URN of an id gives the id back, exactly unless the id is ambiguous. -/
theorem C28_round_trip (m m0 : MobID) : MobID.setUrn m.urn m0 = .ok () m ↔ ¬ m.Ambiguous := by
  rw [C28_form, ambiguous_iff]
  obtain ⟨m', h1, h2⟩ := C28_parse (printed_length m) (urn_spells (printed_length m)) m0
  rw [h1]
  have e : (EStateM.Result.ok () m' : EStateM.Result Err MobID Unit) = .ok () m ↔ m'.bytes = m.bytes :=
    ⟨fun h => by cases h; rfl, fun h => by rw [MobID.ext_bytes h]⟩
  rw [e, h2]
  clear e h1 h2
  by_cases hs : m.Swapped
  · simp only [hs, not_true, and_false, not_false_eq_true, iff_true]
    have hp : m.printed = m.bytes.take 16 ++ (m.bytes.drop 24 ++ turn ((m.bytes.drop 16).take 8)) := by
      unfold MobID.printed; rw [if_pos hs]
    unfold unprinted
    rw [hp]
    obtain ⟨h1, h2⟩ := hs
    clear hp
    induction m using MobID.cases32
    rw [if_pos ⟨h1, h2⟩]
    rfl
  · have hp : m.printed = m.bytes.take 16 ++ (turn ((m.bytes.drop 16).take 8) ++ m.bytes.drop 24) := by
      unfold MobID.printed; rw [if_neg hs]
    unfold unprinted
    rw [hp]
    clear hp
    simp only [hs, not_false_eq_true, and_true]
    unfold MobID.Swapped at hs
    induction m using MobID.cases32
    split
    · rename_i hc
      constructor
      · intro h
        exfalso
        apply hs
        have h5 := congrArg (List.drop 24) h
        refine ⟨hc.1, ?_⟩
        refine Eq.trans ?_ hc.2
        exact (congrArg (List.take 6) h5).symm
      · intro h
        exact absurd hc h
    · rename_i hc
      exact ⟨fun _ => hc, fun _ => rfl⟩

/-- C28: making an id from its URN gives an equal id, exactly unless it is ambiguous. -/
theorem C28_of_urn (m : MobID) : MobID.ofUrn m.urn = .ok m ↔ ¬ m.Ambiguous := by
  rw [← C28_round_trip m MobID.zero]
  unfold MobID.ofUrn
  split
  · rename_i m' h
    rw [h]
    exact ⟨fun h' => by cases h'; rfl, fun h' => by cases h'; rfl⟩
  · rename_i e m' h
    rw [h]
    constructor <;> intro h' <;> cases h'

/-- C28: ids with the same URN are equal, unless one of them is ambiguous. -/
theorem C28_injective {a b : MobID} (h : a.urn = b.urn) (ha : ¬ a.Ambiguous) (hb : ¬ b.Ambiguous) : a = b := by
  have h1 := (C28_of_urn a).2 ha
  have h2 := (C28_of_urn b).2 hb
  rw [h, h2] at h1
  cases h1
  rfl

/-- C28: the URN of an ambiguous id is also the URN of another id. -/
theorem C28_collision {m : MobID} (h : m.Ambiguous) : ∃ m' : MobID, m' ≠ m ∧ m'.urn = m.urn := by
  have h' := (ambiguous_iff m).1 h
  obtain ⟨⟨h1, h2⟩, h3⟩ := h'
  refine ⟨⟨m.bytes.take 16 ++ (turn (m.bytes.drop 24) ++ turn ((m.bytes.drop 16).take 8)), ?_⟩, ?_, ?_⟩
  · clear h1 h2 h3 h
    induction m using MobID.cases32
    rfl
  · intro e
    apply h3
    refine ⟨h1, ?_⟩
    rw [← h2]
    have e' := congrArg (fun q : MobID => (q.bytes.drop 24).take 6) e
    refine Eq.trans e'.symm ?_
    clear h1 h2 h3 h e e'
    induction m using MobID.cases32
    rfl
  · rw [C28_form, C28_form]
    congr 1
    unfold MobID.printed
    rw [if_neg h3, if_pos]
    · clear h1 h2 h3 h
      induction m using MobID.cases32
      rfl
    · clear h3 h
      induction m using MobID.cases32
      exact ⟨h1, h2⟩

/-- An ambiguous id, and the id its URN gives. -/
def mobAmbiguous : MobID :=
  MobID.ofInt 0x060a2b34010101050101000013000000_342b0e067f7f11220102030405060708

example : mobAmbiguous.Ambiguous := by
  refine ⟨by decide +kernel, by decide +kernel, by decide +kernel, by decide +kernel⟩

example : ¬ mobSample.Ambiguous := fun h => absurd h.2.1 (by decide +kernel)

/-- C28: the ids made by `MobID.new()` are never ambiguous. -/
theorem C28_new {u : UUID} {m : MobID} (h : MobID.new u = .ok m) : ¬ m.Ambiguous := by
  obtain ⟨m', h1, _, _, _, _, _, h2⟩ := C29_new u
  rw [h] at h1
  cases h1
  intro h'
  have := h'.1
  rw [h2] at this
  exact absurd this (by decide)

example : ∃ m, MobID.new ⟨List.range' 1 16 |>.map UInt8.ofNat, rfl⟩ = .ok m ∧ ¬ m.Ambiguous := by
  obtain ⟨m, h, _⟩ := C29_new ⟨List.range' 1 16 |>.map UInt8.ofNat, rfl⟩
  exact ⟨m, h, C28_new h⟩

/-- C28: digits that are not 64 are refused, and the id stays as it was. -/
theorem C28_wrong_count {t pre body : Text} (ht : t = pre ++ body)
    (hpre : pre = [] ∨ pre.map Char.toLower = "urn:smpte:umid:".toList)
    (hd : ∀ c ∈ body, c = '.' ∨ c = '-' ∨ ∃ n < 16, c.toLower = digit n)
    (hl : (body.filter fun c => c != '.' && c != '-').length ≠ 64) (m : MobID) :
    MobID.setUrn t m = .error .assertion m := by
  have hc := urnClean_spells ht hpre rfl (by
    intro c hc
    obtain ⟨d, hd1, rfl⟩ := List.mem_map.1 hc
    obtain ⟨hd1, hd2⟩ := List.mem_filter.1 hd1
    simp only [Bool.and_eq_true, bne_iff_ne, ne_eq] at hd2
    rcases hd d hd1 with h | h | ⟨n, hn, h⟩
    · exact absurd h hd2.1
    · exact absurd h hd2.2
    · rw [h]
      have key : ∀ n < 16, digit n ≠ '.' ∧ digit n ≠ '-' ∧ digit n ≠ 'u' ∧ digit n ≠ 'x' := by decide
      exact key n hn)
  unfold MobID.setUrn
  rw [hc]
  apply Mut_bind_error
  unfold MobID.lift
  rw [if_neg (by rw [List.length_map]; exact hl)]

/-- Three digits, the prefix in capitals. -/
example (m : MobID) : MobID.setUrn "URN:SMPTE:UMID:06-0.A".toList m = .error .assertion m :=
  C28_wrong_count (pre := "URN:SMPTE:UMID:".toList) (body := "06-0.A".toList) (by decide) (.inr (by decide))
    (by
      intro c hc
      simp only [show "06-0.A".toList = ['0', '6', '-', '0', '.', 'A'] from by decide, List.mem_cons, List.not_mem_nil,
        or_false] at hc
      rcases hc with rfl | rfl | rfl | rfl | rfl | rfl
      · exact .inr (.inr ⟨0, by decide, by decide⟩)
      · exact .inr (.inr ⟨6, by decide, by decide⟩)
      · exact .inr (.inl rfl)
      · exact .inr (.inr ⟨0, by decide, by decide⟩)
      · exact .inl rfl
      · exact .inr (.inr ⟨10, by decide, by decide⟩)) (by decide) m

/-- C28: some texts that are no UMID are accepted too, here with `+f`, a space and underscores in place of
digits. -/
theorem C28_sloppy :
    (MobID.ofUrn ("+f 1".toList ++ List.replicate 60 '0')).toOption.map MobID.label =
      some [0x0f, 0x01, 0, 0, 0, 0, 0, 0, 0, 0, 0, 0] ∧
    (MobID.ofUrn (List.replicate 32 '0' ++ "060e2b347f7f00001_2_3_4f".toList ++
      List.replicate 8 '0')).toOption.map MobID.data1 = some 0x1234f := by
  decide +kernel

/-- C28: an assignment that fails can leave the id half changed: the label is the new one, the material the
old one. -/
theorem C28_half_assigned :
    (match MobID.setUrn (List.replicate 32 '0' ++ "zz".toList ++ List.replicate 30 '0') mobSample with
      | .ok _ _ => none
      | .error e m => some (e, m.label, m.data1)) = some (.value, List.replicate 12 0, 0x67452301) := by
  decide +kernel

/-- C27_order: three ids in order. -/
example : (MobID.ofInt 1).lt (MobID.ofInt 2) = true ∧ (MobID.ofInt 2).lt (MobID.ofInt (2 ^ 200)) = true ∧
    (MobID.ofInt 1).lt (MobID.ofInt (2 ^ 200)) = true := by
  have h1 : (MobID.ofInt 1).lt (MobID.ofInt 2) = true := by decide +kernel
  have h2 : (MobID.ofInt 2).lt (MobID.ofInt (2 ^ 200)) = true := by decide +kernel
  exact ⟨h1, h2, (C27_order _ _ _).2.2.2.2 h1 h2⟩

/-- C28_injective: ids with the URN of the sample that are not ambiguous are the sample. -/
example (m : MobID) (h : m.urn = mobSample.urn) (hm : ¬ m.Ambiguous) : m = mobSample :=
  C28_injective h hm fun h => absurd h.2.1 (by decide +kernel)

/-- C29_from_dict_refused: a length of 256 does not fit its byte. -/
example (m0 : MobID) : ∃ e m, MobID.fromDict ⟨none, some 256, none, none, none, none⟩ m0 = .error e m :=
  C29_from_dict_refused _ m0 fun h => by
    have := h.length 256 rfl
    omega

end Avb

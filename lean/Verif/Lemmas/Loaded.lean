import Verif.Spec.Loaded
import Verif.Spec.Stored
import Verif.Lemmas.Post
import Verif.Lemmas.StoredNorm
import Verif.Lemmas.Rate
import Mathlib.Tactic.Linarith
import Mathlib.Tactic.NormNum

/-
Facts about what the field readers give, in the form the field writers need them.
-/

namespace Avb

/-- The value fits the field. -/
def InTy (t : IntTy) (v : Int) : Prop := t.lo ≤ v ∧ v ≤ t.hi

instance (t : IntTy) (v : Int) : Decidable (InTy t v) := inferInstanceAs (Decidable (_ ∧ _))

/-- The property is absent or its value satisfies `P`. -/
def OptIn {α : Type} (P : α → Prop) : Option α → Prop
  | none => True
  | some v => P v

/-- The text of a field: encodable, of a length the field can tell, without outer NULs. -/
def TextIn (e : Enc) (t : Text) : Prop :=
  ∃ bs, encodeText e t = some bs ∧ bs.length ≤ 65534 ∧ stripText t = t

section
variable {α β : Type} {bo : BO} {c : WCtx} {d : RCtx}

@[simp] theorem OptIn.none {P : α → Prop} : OptIn P none ↔ True := Iff.rfl
@[simp] theorem OptIn.some {P : α → Prop} {v : α} : OptIn P (some v) ↔ P v := Iff.rfl
theorem OptIn.true (o : Option α) : OptIn (fun _ => True) o ↔ True := by cases o <;> simp
theorem OptIn.iff {P : α → Prop} {o : Option α} : OptIn P o ↔ ∀ v, o = .some v → P v := by
  cases o <;> simp

/-! ### Writers -/

theorem Wr.ok_int' {t : IntTy} {v : Int} : Wr.Ok (wInt bo t v) ↔ InTy t v := Wr.ok_int

theorem Wr.ok_emit {bs : Bytes} : Wr.Ok (Wr.emit bs) ↔ True := ⟨fun _ => trivial, fun _ => ⟨_, rfl⟩⟩

theorem Wr.ok_pure : Wr.Ok (pure ()) ↔ True := ⟨fun _ => trivial, fun _ => ⟨_, rfl⟩⟩

theorem Wr.ok_bool' {b : Bool} : Wr.Ok (wBool b) ↔ True := ⟨fun _ => trivial, fun _ => Wr.ok_bool⟩

theorem Wr.ok_guard {p : Prop} [Decidable p] {e : Err} : Wr.Ok (Wr.guard p e) ↔ p := by
  unfold Wr.guard
  split
  · next h => exact ⟨fun _ => h, fun _ => ⟨[], rfl⟩⟩
  · next h => exact ⟨fun ⟨_, hb⟩ => (nomatch hb), fun hp => absurd hp h⟩

theorem Wr.ok_ifHas {o : Option α} {w : α → Wr Unit} :
    Wr.Ok (Wr.ifHas o w) ↔ OptIn (fun v => Wr.Ok (w v)) o := by
  cases o with
  | none => exact ⟨fun _ => trivial, fun _ => ⟨[], rfl⟩⟩
  | some v => exact Iff.rfl

theorem Wr.ok_when {p : Prop} [Decidable p] {w : Wr Unit} : Wr.Ok (Wr.when p w) ↔ (p → Wr.Ok w) := by
  unfold Wr.when
  split
  · next h => exact ⟨fun hw _ => hw, fun hw => hw h⟩
  · next h => exact ⟨fun _ hp => absurd hp h, fun _ => ⟨[], rfl⟩⟩

theorem Wr.ok_nth {xs : List α} {i : Nat} {k : α → Wr Unit} :
    Wr.Ok (Wr.nth xs i >>= k) ↔ ∃ a, xs[i]? = some a ∧ Wr.Ok (k a) := by
  unfold Wr.nth
  cases h : xs[i]? with
  | none =>
    refine ⟨fun ⟨_, hb⟩ => ?_, fun ⟨_, hb, _⟩ => nomatch hb⟩
    obtain ⟨_, _, _, h1, _⟩ := Wr.bind_eq_ok hb
    cases h1
  | some a => exact Wr.ok_get (o := some a) (k := k)

theorem unpack_in {n : Nat} {bs : Bytes} (h : bs.length ≤ n) : (unpackNat bo bs : Int) < 256 ^ n := by
  have h1 := unpackNat_lt bo bs
  have h2 : 256 ^ bs.length ≤ 256 ^ n := Nat.pow_le_pow_right (by omega) h
  exact_mod_cast Nat.lt_of_lt_of_le h1 h2

theorem UUID.timeLow_in (u : UUID) : InTy .u32 u.timeLow := by
  have : (u.timeLow : Int) < 256 ^ 4 := unpack_in (by simp)
  refine ⟨by simp [IntTy.lo, IntTy.signed], ?_⟩
  simp [IntTy.hi, IntTy.signed, IntTy.width]; omega

theorem UUID.timeMid_in (u : UUID) : InTy .u16 u.timeMid := by
  have : (u.timeMid : Int) < 256 ^ 2 := unpack_in (by simp)
  refine ⟨by simp [IntTy.lo, IntTy.signed], ?_⟩
  simp [IntTy.hi, IntTy.signed, IntTy.width]; omega

theorem UUID.timeHi_in (u : UUID) : InTy .u16 u.timeHi := by
  have : (u.timeHi : Int) < 256 ^ 2 := unpack_in (by simp)
  refine ⟨by simp [IntTy.lo, IntTy.signed], ?_⟩
  simp [IntTy.hi, IntTy.signed, IntTy.width]; omega

theorem byte_in (b : UInt8) : InTy .u8 b.toNat := by
  have := b.toNat_lt
  refine ⟨by simp [IntTy.lo, IntTy.signed], ?_⟩
  simp [IntTy.hi, IntTy.signed, IntTy.width]; omega

theorem Wr.ok_rawUuid {u : UUID} : Wr.Ok (wRawUuid bo u) ↔ True := by
  cases bo <;> exact Wr.ok_emit

theorem Wr.ok_uuid {u : UUID} : Wr.Ok (wUuid bo u) ↔ True := by
  unfold wUuid
  cases bo <;>
    simp (decide := true) only [Wr.ok_bind, Wr.ok_int', Wr.ok_emit, UUID.timeLow_in, UUID.timeMid_in,
      UUID.timeHi_in, and_self]

theorem Wr.ok_mobId {m : MobID} : Wr.Ok (wMobId bo m) ↔ True := by
  unfold wMobId
  simp (decide := true) only [Wr.ok_bind, Wr.ok_int', Wr.ok_forW, byte_in, Wr.ok_uuid, implies_true,
    and_self]

theorem MobID.lo_in (m : MobID) : InTy .u32 m.lo := m.material.timeLow_in

theorem MobID.hi_in (m : MobID) : InTy .u32 m.hi := by
  have h1 := m.material.timeMid_in
  have h2 := m.material.timeHi_in
  simp only [InTy, IntTy.lo, IntTy.hi, IntTy.signed, IntTy.width] at h1 h2 ⊢
  simp at h1 h2 ⊢
  unfold MobID.hi
  push_cast
  omega

theorem Wr.ok_double {v : F64} : Wr.Ok (wDouble v) ↔ True := by
  have := v.bits.toNat_lt
  unfold wDouble
  rw [Wr.ok_int']
  simp only [InTy, IntTy.lo, IntTy.hi, IntTy.signed, IntTy.width]
  simp
  omega

/-! ### Texts -/

theorem utf8Bytes_eq (t : Text) : (t.flatMap String.utf8EncodeChar).length = utf8Bytes t := by
  simp [utf8Bytes, List.length_flatMap]

theorem Wr.ok_utf8 {t : Text} : Wr.Ok (wStr bo .utf8 t) ↔ utf8Bytes t ≤ 65533 := by
  unfold wStr
  split
  · next h => subst h; simp (decide := true) [Wr.ok_int']
  · simp only [encodeText, if_true]
    rw [Wr.ok_bind, Wr.ok_int', ← utf8Bytes_eq]
    simp only [Wr.ok_emit, and_true, InTy, IntTy.lo, IntTy.hi, IntTy.signed, IntTy.width]
    simp
    omega

theorem macEncode_map (bs : Bytes) : macEncode (bs.map macDecodeByte) = some bs := by
  induction bs with
  | nil => rfl
  | cons b bs ih => simp [macEncode, macEncode_decodeByte, ih]

theorem Wr.ok_mac {t : Text} (h : TextIn .macroman t) : Wr.Ok (wStr bo .macroman t) := by
  obtain ⟨bs, h1, h2, _⟩ := h
  unfold wStr
  split
  · exact Wr.ok_int'.2 (by decide)
  · rw [h1]
    simp only [reduceCtorEq, if_false]
    rw [Wr.ok_bind, Wr.ok_int']
    refine ⟨?_, Wr.ok_emit.2 trivial⟩
    simp only [InTy, IntTy.lo, IntTy.hi, IntTy.signed, IntTy.width]
    simp
    omega

theorem Wr.ok_name {t : Text} (h : TextIn .macroman t) : Wr.Ok (wName c (orNone t)) := by
  unfold wName
  split
  · unfold orNone at *
    split
    · next h1 => simp [h1] at *
    · exact Wr.ok_mac h
  · exact Wr.ok_int'.2 (by decide)

theorem Wr.ok_name' {t : Text} (h : TextIn .macroman t) : Wr.Ok (wName c (some t)) := by
  unfold wName
  split
  · exact Wr.ok_mac h
  · exact Wr.ok_int'.2 (by decide)

theorem stripNul_length (bs : Bytes) : (stripNul bs).length ≤ bs.length := by
  unfold stripNul
  have h1 := (List.dropWhile_sublist (fun b : UInt8 => b == 0) (l := bs)).length_le
  have h2 := (List.dropWhile_sublist (fun b : UInt8 => b == 0)
    (l := (bs.dropWhile fun b => b == 0).reverse)).length_le
  simp only [List.length_reverse] at *
  omega

theorem stripNul_stripNul (bs : Bytes) : stripNul (stripNul bs) = stripNul bs := by
  have hi : Function.Injective macDecodeByte := by
    intro a b h
    have h1 := macEncode_decodeByte a
    rw [h, macEncode_decodeByte] at h1
    exact (Option.some.inj h1).symm
  apply List.map_injective_iff.2 hi
  rw [map_macDecode_strip, map_macDecode_strip, stripText_idem]

theorem decode_in {e : Enc} {s : Bytes} {t : Text} (hs : s.length ≤ 65534)
    (h : decodeText e (stripNul s) = some t) : TextIn e t := by
  have hl := stripNul_length s
  cases e with
  | macroman =>
    simp only [decodeText, Option.some.injEq] at h
    subst h
    refine ⟨_, macEncode_map _, by omega, ?_⟩
    rw [← map_macDecode_strip, stripNul_stripNul]
  | utf8 =>
    simp only [decodeText, Option.map_eq_some_iff] at h
    obtain ⟨arr, h1, rfl⟩ := h
    have h2 := ByteArray.utf8Encode_get_utf8Decode? (b := (stripNul s).toByteArray)
      (h := by rw [h1]; rfl)
    simp only [h1, Option.get_some, List.utf8Encode] at h2
    have h3 : arr.toList.flatMap String.utf8EncodeChar = stripNul s := by
      exact List.toByteArray_inj.1 h2
    refine ⟨stripNul s, by simp [encodeText, h3], by omega, ?_⟩
    have h4 := strip_flatMap_utf8 arr.toList
    rw [h3, stripNul_stripNul, ← h3] at h4
    have h5 := decode_utf8 arr.toList
    rw [h4, decode_utf8] at h5
    exact Option.some.inj h5

/-! ### Rates -/

theorem rateLoop_small (n : Nat) (v : ℚ) :
    (rateLoop v n).1 = v ∨ |(rateLoop v n).1| < 2147483647 := by
  induction n generalizing v with
  | zero => exact .inl rfl
  | succ n ih =>
    rw [rateLoop]
    split
    · exact .inl rfl
    · split
      · exact .inl rfl
      · next h =>
        rw [absRat_eq] at h
        right
        rcases ih (rnd (v * 10)) with h1 | h1
        · rw [h1]; exact lt_of_not_ge h
        · exact h1

theorem rateLoop_big {q : ℚ} (h : 2147483648 ≤ |q|) : (rateLoop q 6).1 = q := by
  rw [show (6 : Nat) = 5 + 1 from rfl, rateLoop]
  by_cases c : (truncRat q : ℚ) = q
  · rw [if_pos c]
  · rw [if_neg c, if_pos]
    rw [absRat_eq]
    have h1 := rnd_err (q * 10)
    rw [abs_mul, abs_of_pos (by norm_num : (0 : ℚ) < 10)] at h1
    have h2 : |q * 10| ≤ |rnd (q * 10) - q * 10| + |rnd (q * 10)| := by
      have := abs_add_le (q * 10 - rnd (q * 10)) (rnd (q * 10))
      rw [abs_sub_comm] at this
      simpa using this
    rw [abs_mul, abs_of_pos (by norm_num : (0 : ℚ) < 10)] at h2
    have h3 : |q| * 10 * eps ≤ |q| := by
      unfold eps
      have := abs_nonneg q
      linarith
    have h4 : tau ≤ 1 := by
      have := tau_le
      unfold eps at this
      norm_num at this
      linarith
    linarith

theorem truncRat_in (w : ℚ) : InTy .s32 (truncRat w) ↔ -2147483649 < w ∧ w < 2147483648 := by
  have hi : InTy .s32 (truncRat w) ↔ -2147483648 ≤ truncRat w ∧ truncRat w ≤ 2147483647 := Iff.rfl
  rw [hi]
  unfold truncRat
  simp only [floor_eq]
  by_cases h : w < 0
  · simp only [if_pos h]
    have e : (⌊-w⌋ ≤ 2147483648) ↔ -2147483649 < w := by
      rw [← Int.lt_add_one_iff, Int.floor_lt]; push_cast
      constructor <;> intro _ <;> linarith
    have f : 0 ≤ ⌊-w⌋ := Int.floor_nonneg.2 (by linarith)
    rw [← e]
    have g : w < 2147483648 := by linarith
    simp only [g, and_true]
    omega
  · simp only [if_neg h]
    have e : (⌊w⌋ ≤ 2147483647) ↔ w < 2147483648 := by
      rw [← Int.lt_add_one_iff, Int.floor_lt]; push_cast
      constructor <;> intro _ <;> linarith
    have f : 0 ≤ ⌊w⌋ := Int.floor_nonneg.2 (by linarith)
    rw [← e]
    have g : -2147483649 < w := by linarith
    simp only [g, true_and]
    omega

theorem Wr.ok_rate {r : Rate} : Wr.Ok (wRate bo r) ↔ RateFits r := by
  cases r with
  | inf b => exact ⟨fun ⟨_, h⟩ => (nomatch h), fun ⟨_, h, _⟩ => (nomatch h)⟩
  | nan => exact ⟨fun ⟨_, h⟩ => (nomatch h), fun ⟨_, h, _⟩ => (nomatch h)⟩
  | fin q =>
    have hf : RateFits (.fin q) ↔ -2147483649 < q ∧ q < 2147483648 :=
      ⟨fun ⟨_, h, h'⟩ => by cases h; exact h', fun h => ⟨q, rfl, h⟩⟩
    rw [hf]
    unfold wRate
    dsimp only
    rw [Wr.ok_bind, Wr.ok_int', Wr.ok_int']
    have hx := encodeRate_exp q
    have h2 : InTy .s16 (encodeRate q).2 := by
      simp only [InTy, IntTy.lo, IntTy.hi, IntTy.signed, IntTy.width]
      simp
      omega
    simp only [h2, and_true]
    have h1 : (encodeRate q).1 = if (rateLoop q 6).1 = 5994 then 59940 else truncRat (rateLoop q 6).1 := by
      unfold encodeRate
      dsimp only
      split <;> rfl
    rw [h1]
    by_cases hb : 2147483648 ≤ |q|
    · rw [rateLoop_big hb, if_neg (by rintro rfl; norm_num at hb), truncRat_in]
    · have hq : -2147483649 < q ∧ q < 2147483648 := by
        have := abs_lt.1 (lt_of_not_ge hb)
        exact ⟨by linarith [this.1], this.2⟩
      refine ⟨fun _ => hq, fun _ => ?_⟩
      split
      · decide
      · rw [truncRat_in]
        rcases rateLoop_small 6 q with h | h
        · rw [h]; exact hq
        · have := abs_lt.1 h
          exact ⟨by linarith [this.1], by linarith [this.2]⟩

/-! ### Readers -/

theorem InTy.count {t : IntTy} {n : Int} (h : InTy t n) : InTy t (n.toNat : Int) := by
  by_cases h0 : 0 ≤ n
  · rwa [Int.toNat_of_nonneg h0]
  · rw [Int.toNat_of_nonpos (by omega)]
    cases t <;> decide

theorem InTy.le {t : IntTy} {n m : Int} (h : InTy t n) (h0 : 0 ≤ m) (h1 : m ≤ n) : InTy t m := by
  refine ⟨?_, Int.le_trans h1 h.2⟩
  refine Int.le_trans ?_ h0
  cases t <;> decide

theorem Post.int (t : IntTy) : Post (rInt bo t) (InTy t) := by
  intro bs v rest h
  unfold rInt at h
  split at h
  · cases h
  · next hl =>
    have hn := unpackNat_lt bo (bs.take t.width)
    rw [List.length_take, Nat.min_eq_left (by omega)] at hn
    injection h with h
    injection h with h _
    subst h
    have hn' : (unpackNat bo (bs.take t.width) : Int) < 256 ^ t.width := by exact_mod_cast hn
    generalize unpackNat bo (bs.take t.width) = n at *
    clear hl hn
    cases t <;> simp only [InTy, IntTy.lo, IntTy.hi, IntTy.signed, IntTy.width] at * <;>
      norm_num at * <;> (try split) <;> omega

theorem Post.tag {t : Int} {k : Rd β} {P : β → Prop} (h : Post k P) :
    Post (rTag t >>= fun _ => k) P := Post.bind fun _ => h

theorem Post.str (e : Enc) : Post (rStr bo e) (TextIn e) := by
  unfold rStr
  refine Post.bindP (Post.int .u16) fun n hn => ?_
  split
  · refine Post.pure ⟨[], ?_, by simp, rfl⟩
    cases e <;> rfl
  · next h =>
    intro bs v rest hr
    obtain ⟨s, mid, h1, h2⟩ := Rd.bind_eq_ok' hr
    have hs : s.length ≤ 65534 := by
      unfold fread at h1
      split at h1
      · next h0 => have := hn.1; simp [IntTy.lo, IntTy.signed] at this; omega
      · cases h1; simp; omega
    cases ht : decodeText e (stripNul s) with
    | some t => rw [ht] at h2; cases h2; exact decode_in hs ht
    | none => rw [ht] at h2; cases h2

theorem Post.readN' {r : Rd α} {P : α → Prop} (hr : Post r P) (n : Nat) :
    Post (Avb.readN n r) fun l => l.length = n ∧ ∀ a ∈ l, P a := by
  induction n with
  | zero => exact Post.pure ⟨rfl, by simp⟩
  | succ n ih =>
    refine Post.bindP hr fun a ha => Post.bindP ih fun l hl => Post.pure ⟨by simp [hl.1], ?_⟩
    intro b hb
    rcases List.mem_cons.1 hb with rfl | hb
    · exact ha
    · exact hl.2 b hb

/-- A counted list: its length fits the count's field again. -/
theorem Post.list {r : Rd α} {P : α → Prop} (hr : Post r P) {n : Int} :
    Post (Avb.readN n.toNat r) fun l => (∀ t, InTy t n → InTy t (l.length : Int)) ∧ ∀ a ∈ l, P a :=
  (Post.readN' hr n.toNat).mono fun l h => ⟨fun t ht => by rw [h.1]; exact ht.count, h.2⟩

theorem Post.all {r : Rd α} : Post r fun _ => True := fun _ _ _ _ => trivial

/-- A block of bytes whose size cannot be negative. -/
theorem Post.fread {n : Int} (h : 0 ≤ n) :
    Post (Avb.fread n) fun b => ∀ t, InTy t n → InTy t (b.length : Int) := by
  intro bs v rest hr
  unfold Avb.fread at hr
  rw [if_neg (by omega)] at hr
  cases hr
  intro t ht
  exact ht.le (by omega) (by simp; omega)

/-- The number of bytes read, when there are more of them. -/
theorem fread_more {n : Int} {bs v rest : Bytes} (h : Avb.fread n bs = .ok (v, rest)) (hr : rest ≠ []) :
    0 ≤ n ∧ (v.length : Int) = n := by
  unfold Avb.fread at h
  split at h
  · cases h; exact absurd rfl hr
  · cases h
    have : n.toNat < bs.length := by
      by_contra hc
      exact hr (List.drop_eq_nil_of_le (by omega))
    simp
    omega

/-- A block of bytes followed by something that has to be there. -/
theorem Post.freadk {n : Int} {k : Bytes → Rd β} {P : β → Prop} (hk : ∀ b x, k b [] ≠ .ok x)
    (h : ∀ b : Bytes, (b.length : Int) = n → Post (k b) P) : Post (Avb.fread n >>= k) P := by
  intro bs v rest hr
  obtain ⟨b, mid, h1, h2⟩ := Rd.bind_eq_ok' hr
  have hm : mid ≠ [] := by rintro rfl; exact hk _ _ h2
  exact h b (fread_more h1 hm).2 _ _ _ h2

theorem Post.rate : Post (rRate bo) fun _ => True := Post.all

theorem rInt_nil {t : IntTy} {k : Int → Rd β} {x : β × Bytes} : (rInt bo t >>= k) [] ≠ .ok x := by
  intro h
  obtain ⟨a, mid, h1, h2⟩ := Rd.bind_eq_ok' h
  unfold rInt at h1
  cases t <;> simp [IntTy.width] at h1

theorem rTag_nil {t : Int} {k : Unit → Rd β} {x : β × Bytes} : (rTag t >>= k) [] ≠ .ok x := by
  intro h
  obtain ⟨a, mid, h1, h2⟩ := Rd.bind_eq_ok' h
  exact rInt_nil h1

end

end Avb

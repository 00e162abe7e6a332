import Verif.Model.Prim

/-
Lemmas about readers, writers and integer codecs.
-/

namespace Avb

@[simp] theorem Rd.pure_apply {α} (a : α) (bs : Bytes) : (pure a : Rd α) bs = .ok (a, bs) := rfl

theorem Rd.bind_apply {α β} (r : Rd α) (k : α → Rd β) (bs : Bytes) :
    (r >>= k) bs = match r bs with
      | .ok (a, rest) => k a rest
      | .error e => .error e := rfl

theorem Rd.bind_ok {α β} {r : Rd α} {k : α → Rd β} {bs rest : Bytes} {a : α}
    (h : r bs = .ok (a, rest)) : (r >>= k) bs = k a rest := by
  rw [Rd.bind_apply, h]

theorem Rd.bind_eq_ok {α β} {r : Rd α} {k : α → Rd β} {bs : Bytes} {v : β × Bytes}
    (h : (r >>= k) bs = .ok v) : ∃ a rest, r bs = .ok (a, rest) ∧ k a rest = .ok v := by
  rw [Rd.bind_apply] at h
  split at h
  · rename_i a rest heq
    exact ⟨a, rest, heq, h⟩
  · cases h

@[simp] theorem Rd.fail_apply {α} (e : Err) (bs : Bytes) : (Rd.fail e : Rd α) bs = .error e := rfl

theorem Rd.guard_apply (c : Prop) [Decidable c] (e : Err) (bs : Bytes) :
    Rd.guard c e bs = if c then .ok ((), bs) else .error e := rfl

theorem Wr.bind_eq_ok {α β} {w : Wr α} {k : α → Wr β} {b : β} {out : Bytes}
    (h : (w >>= k) = .ok (b, out)) :
    ∃ a o1 o2, w = .ok (a, o1) ∧ k a = .ok (b, o2) ∧ out = o1 ++ o2 := by
  change Wr.bind w k = _ at h
  unfold Wr.bind at h
  split at h
  · rename_i a o1
    split at h
    · rename_i b' o2 hk
      injection h with h
      injection h with h1 h2
      subst h1 h2
      exact ⟨a, o1, o2, rfl, hk, rfl⟩
    · cases h
  · cases h

theorem Wr.bind_ok {α β} {w : Wr α} {k : α → Wr β} {a : α} {b : β} {o1 o2 : Bytes}
    (h1 : w = .ok (a, o1)) (h2 : k a = .ok (b, o2)) : (w >>= k) = .ok (b, o1 ++ o2) := by
  change Wr.bind w k = _
  simp only [Wr.bind, h1, h2]
  rfl

theorem Wr.pure_eq_ok {α} {a b : α} {out : Bytes} (h : (pure a : Wr α) = .ok (b, out)) :
    a = b ∧ out = [] := by
  change (Except.ok (a, []) : Except Err (α × Bytes)) = _ at h
  injection h with h
  injection h with h1 h2
  exact ⟨h1, h2.symm⟩

theorem Wr.emit_eq_ok {bs out : Bytes} (h : Wr.emit bs = .ok ((), out)) : out = bs := by
  unfold Wr.emit at h
  injection h with h
  injection h with _ h
  exact h.symm

/-! ### integers -/

@[simp] theorem leBytes_length (n v : Nat) : (leBytes n v).length = n := by
  induction n generalizing v with
  | zero => rfl
  | succ n ih => simp [leBytes, ih]

theorem leVal_leBytes (n v : Nat) : leVal (leBytes n v) = v % 256 ^ n := by
  induction n generalizing v with
  | zero => simp [leBytes, leVal, Nat.mod_one]
  | succ n ih =>
    simp only [leBytes, leVal, ih]
    have h : (UInt8.ofNat (v % 256)).toNat = v % 256 := by
      simp
    rw [h, Nat.pow_succ, Nat.mul_comm (256 ^ n) 256, Nat.mod_mul]

theorem leVal_lt (bs : Bytes) : leVal bs < 256 ^ bs.length := by
  induction bs with
  | nil => simp [leVal]
  | cons b bs ih =>
    have := b.toNat_lt
    simp only [leVal, List.length_cons, Nat.pow_succ]
    omega

theorem leBytes_leVal (bs : Bytes) : leBytes bs.length (leVal bs) = bs := by
  induction bs with
  | nil => rfl
  | cons b bs ih =>
    have hb := b.toNat_lt
    simp only [leBytes, leVal, List.length_cons]
    have h1 : (b.toNat + 256 * leVal bs) % 256 = b.toNat := by omega
    have h2 : (b.toNat + 256 * leVal bs) / 256 = leVal bs := by omega
    rw [h1, h2, ih]
    simp

@[simp] theorem packNat_length (bo : BO) (n v : Nat) : (packNat bo n v).length = n := by
  cases bo <;> simp [packNat]

theorem unpackNat_packNat (bo : BO) (n v : Nat) : unpackNat bo (packNat bo n v) = v % 256 ^ n := by
  cases bo <;> simp [packNat, unpackNat, leVal_leBytes]

theorem packNat_unpackNat (bo : BO) (bs : Bytes) :
    packNat bo bs.length (unpackNat bo bs) = bs := by
  cases bo
  · exact leBytes_leVal bs
  · have := leBytes_leVal bs.reverse
    simp only [packNat, unpackNat]
    rw [List.length_reverse] at this
    rw [this]; simp

theorem unpackNat_lt (bo : BO) (bs : Bytes) : unpackNat bo bs < 256 ^ bs.length := by
  cases bo
  · exact leVal_lt bs
  · have := leVal_lt bs.reverse
    simpa [unpackNat] using this

theorem wInt_eq_ok {bo t v out} (h : wInt bo t v = .ok ((), out)) :
    t.lo ≤ v ∧ v ≤ t.hi ∧ out = packNat bo t.width (v % (2 ^ (8 * t.width) : Int)).toNat := by
  unfold wInt at h
  split at h
  · rename_i hr
    exact ⟨hr.1, hr.2, Wr.emit_eq_ok h⟩
  · cases h

theorem wInt_ok {bo t v} (h1 : t.lo ≤ v) (h2 : v ≤ t.hi) :
    wInt bo t v = .ok ((), packNat bo t.width (v % (2 ^ (8 * t.width) : Int)).toNat) := by
  unfold wInt
  rw [if_pos ⟨h1, h2⟩]
  rfl

theorem rInt_pack (bo : BO) (t : IntTy) (v : Int) (rest : Bytes) (h1 : t.lo ≤ v) (h2 : v ≤ t.hi) :
    rInt bo t (packNat bo t.width (v % (2 ^ (8 * t.width) : Int)).toNat ++ rest) = .ok (v, rest) := by
  unfold rInt
  rw [if_neg (by simp)]
  rw [List.take_left' (by simp), List.drop_left' (by simp), unpackNat_packNat]
  have key : (if t.signed = true ∧ 2 ^ (8 * t.width - 1) ≤
      (v % (2 ^ (8 * t.width) : Int)).toNat % 256 ^ t.width then
        (((v % (2 ^ (8 * t.width) : Int)).toNat % 256 ^ t.width : Nat) : Int)
          - (2 ^ (8 * t.width) : Int)
      else (((v % (2 ^ (8 * t.width) : Int)).toNat % 256 ^ t.width : Nat) : Int)) = v := by
    cases t <;>
      simp only [IntTy.width, IntTy.signed, IntTy.lo, IntTy.hi, false_and, true_and,
        if_true, if_false, Bool.false_eq_true, Nat.reduceMul, Nat.reduceSub,
        Int.reducePow, Nat.reducePow] at * <;>
      (try split) <;> omega
  simp only [key]

end Avb

import Verif.Model.Fast
import Verif.Lemmas.RT
import Batteries.Data.List.Basic

/-
Simulation of the portable readers by the accelerated ones: whenever the portable reader succeeds,
so does the accelerated one, stopping at the same place with a related result.
-/

namespace Avb.Fast

variable {α β γ δ σ : Type}

/-- Start with the properties `p0` at any position of any payload.  If the portable reader `r`
succeeds on what is left there (and, when `ne` is set, does not use up the data), the accelerated
reader `f` succeeds, stops at the same place, and result and properties are related by `R`. -/
def Sim (ne : Bool) (p0 : Props) (r : Rd α) (f : Fast β) (R : α → β → Props → Prop) : Prop :=
  ∀ (data : Bytes) (pos : Nat) (a : α) (rest : Bytes), pos ≤ data.length →
    r (data.drop pos) = .ok (a, rest) → (ne = true → rest ≠ []) →
    ∃ b pos' p', f data ⟨pos, p0⟩ = (.ok b, ⟨pos', p'⟩) ∧ pos ≤ pos' ∧ pos' ≤ data.length ∧
      data.drop pos' = rest ∧ R a b p'

/-- Simulation of a reader that leaves the properties alone. -/
def SimV (ne : Bool) (r : Rd α) (f : Fast β) (V : α → β → Prop) : Prop :=
  ∀ p0, Sim ne p0 r f (fun a b p' => V a b ∧ p' = p0)

/-- The reader needs at least one byte. -/
def NilFails (r : Rd α) : Prop := ∀ x, r [] ≠ .ok x

theorem bind_apply (f : Fast α) (k : α → Fast β) (d : Bytes) (s : St) :
    (f >>= k) d s = match f d s with
      | (.ok a, s') => k a d s'
      | (.error e, s') => (.error e, s') := rfl

theorem bind_ok {f : Fast α} {k : α → Fast β} {d : Bytes} {s s' : St} {a : α}
    (h : f d s = (.ok a, s')) : (f >>= k) d s = k a d s' := by
  rw [bind_apply, h]

theorem rd_bind {r : Rd α} {k : α → Rd β} {bs : Bytes} {v : β} {rest : Bytes}
    (h : (r >>= k) bs = .ok (v, rest)) :
    ∃ a mid, r bs = .ok (a, mid) ∧ k a mid = .ok (v, rest) := by
  rw [Rd.bind_apply] at h
  match hr : r bs with
  | .ok (a, mid) => rw [hr] at h; exact ⟨a, mid, rfl, h⟩
  | .error e => rw [hr] at h; cases h

variable {ne : Bool} {p0 : Props} {r : Rd α} {f : Fast β} {R : α → β → Props → Prop}

theorem Sim.weaken {R' : α → β → Props → Prop} (h : Sim false p0 r f R)
    (hR : ∀ a b p, R a b p → R' a b p) : Sim ne p0 r f R' := by
  intro data pos a rest hp hr _
  obtain ⟨b, pos', p', h1, h0, h2, h3, h4⟩ := h data pos a rest hp hr (by simp)
  exact ⟨b, pos', p', h1, h0, h2, h3, hR _ _ _ h4⟩

theorem Sim.bind {k : α → Rd γ} {k' : β → Fast δ} {Q : γ → δ → Props → Prop}
    (h : Sim false p0 r f R) (hk : ∀ a b p, R a b p → Sim ne p (k a) (k' b) Q) :
    Sim ne p0 (r >>= k) (f >>= k') Q := by
  intro data pos c rest hp hr hne
  obtain ⟨a, mid, e1, e2⟩ := rd_bind hr
  obtain ⟨b, pos1, p1, h1, h0, h2, h3, h4⟩ := h data pos a mid hp e1 (by simp)
  rw [← h3] at e2
  obtain ⟨b', pos2, p2, g1, g0, g2, g3, g4⟩ := hk a b p1 h4 data pos1 c rest h2 e2 hne
  exact ⟨b', pos2, p2, by rw [bind_ok h1, g1], by omega, g2, g3, g4⟩

theorem SimV.bind {V : α → β → Prop} {k : α → Rd γ} {k' : β → Fast δ} {Q : γ → δ → Props → Prop}
    (h : SimV false r f V) (hk : ∀ a b, V a b → Sim ne p0 (k a) (k' b) Q) :
    Sim ne p0 (r >>= k) (f >>= k') Q :=
  Sim.bind (h p0) (by rintro a b p ⟨hv, rfl⟩; exact hk a b hv)

/-- A first step that may run into the end of the data, followed by one that then fails. -/
theorem SimV.bind_ne {V : α → β → Prop} {k : α → Rd γ} {k' : β → Fast δ}
    {Q : γ → δ → Props → Prop} (h : SimV true r f V) (hn : ∀ a, NilFails (k a))
    (hk : ∀ a b, V a b → Sim ne p0 (k a) (k' b) Q) : Sim ne p0 (r >>= k) (f >>= k') Q := by
  intro data pos c rest hp hr hne
  obtain ⟨a, mid, e1, e2⟩ := rd_bind hr
  have hm : mid ≠ [] := by
    rintro rfl
    exact hn a _ e2
  obtain ⟨b, pos1, p1, h1, h0, h2, h3, h4, rfl⟩ := h p0 data pos a mid hp e1 (fun _ => hm)
  rw [← h3] at e2
  obtain ⟨b', pos2, p2, g1, g0, g2, g3, g4⟩ := hk a b h4 data pos1 c rest h2 e2 hne
  exact ⟨b', pos2, p2, by rw [bind_ok h1, g1], by omega, g2, g3, g4⟩

theorem Sim.pure {a : α} {b : β} (h : R a b p0) : Sim ne p0 (pure a) (pure b) R := by
  intro data pos a' rest hp hr _
  injection hr with hr
  injection hr with h1 h2
  subst h1 h2
  exact ⟨b, pos, p0, rfl, Nat.le_refl _, hp, rfl, h⟩

theorem Sim.put {u : Props → Props} {k' : Unit → Fast β} (h : Sim ne (u p0) r (k' ()) R) :
    Sim ne p0 r (put u >>= k') R := by
  intro data pos a rest hp hr hne
  obtain ⟨b, pos', p', h1, h2⟩ := h data pos a rest hp hr hne
  exact ⟨b, pos', p', h1, h2⟩

theorem Sim.put_last {u : Props → Props} {a : α} {R : α → Unit → Props → Prop}
    (h : R a () (u p0)) : Sim ne p0 (Pure.pure a) (Fast.put u) R := by
  intro data pos a' rest hp hr _
  injection hr with hr
  injection hr with h1 h2
  subst h1 h2
  exact ⟨(), pos, u p0, rfl, Nat.le_refl _, hp, rfl, h⟩

theorem Sim.guard {c : Prop} [Decidable c] {e : Err} {k : Unit → Rd α}
    (h : c → Sim ne p0 (k ()) f R) : Sim ne p0 (Rd.guard c e >>= k) f R := by
  intro data pos a rest hp hr hne
  obtain ⟨_, mid, e1, e2⟩ := rd_bind hr
  unfold Rd.guard at e1
  split at e1
  · rename_i hc
    injection e1 with e1
    injection e1 with _ e1
    subst e1
    exact h hc data pos a rest hp e2 hne
  · cases e1

theorem Sim.fail {e : Err} : Sim ne p0 (Rd.fail e : Rd α) f R := by
  intro data pos a rest hp hr; cases hr

theorem Sim.ignore {f : Fast Unit} {R : α → Unit → Props → Prop} (h : Sim ne p0 r f R) :
    Sim ne p0 r (ignore f) R := by
  intro data pos a rest hp hr hne
  obtain ⟨b, pos', p', h1, h2⟩ := h data pos a rest hp hr hne
  exact ⟨b, pos', p', by unfold Fast.ignore; rw [h1], h2⟩

theorem Sim.keepShort (h : Sim ne p0 r f R) : Sim ne p0 r (keepShort f) R := by
  intro data pos a rest hp hr hne
  obtain ⟨b, pos', p', h1, h2⟩ := h data pos a rest hp hr hne
  exact ⟨b, pos', p', by unfold Fast.keepShort; rw [h1], h2⟩

theorem Sim.ite {c c' : Prop} [Decidable c] [Decidable c'] {r' : Rd α} {f' : Fast β} (hc : c ↔ c')
    (h1 : c → Sim ne p0 r f R) (h2 : ¬c → Sim ne p0 r' f' R) :
    Sim ne p0 (if c then r else r') (if c' then f else f') R := by
  by_cases h : c
  · rw [if_pos h, if_pos (hc.1 h)]; exact h1 h
  · rw [if_neg h, if_neg (fun g => h (hc.2 g))]; exact h2 h

/-- A step of the accelerated reader that the portable one does not have. -/
theorem Sim.ite_left {c : Prop} [Decidable c] {f' : Fast β} (hc : c) (h : Sim ne p0 r f R) :
    Sim ne p0 r (if c then f else f') R := by rwa [if_pos hc]

theorem Sim.ite_right {c : Prop} [Decidable c] {f' : Fast β} (hc : ¬c) (h : Sim ne p0 r f R) :
    Sim ne p0 r (if c then f' else f) R := by rwa [if_neg hc]

theorem Sim.ite_left' {c : Prop} [Decidable c] {r' : Rd α} (h1 : c → Sim ne p0 r f R)
    (h2 : Sim ne p0 r' f R) : Sim ne p0 (if c then r else r') f R := by
  split
  · rename_i h; exact h1 h
  · exact h2

theorem SimV.pure {a : α} {b : β} {V : α → β → Prop} (h : V a b) :
    SimV ne (Pure.pure a) (Pure.pure b) V := fun _ => Sim.pure ⟨h, rfl⟩

/-! ### Bytes and integers -/

theorem u8_at {data : Bytes} {pos : Nat} {b : UInt8} {bs : Bytes} {p : Props}
    (h : data.drop pos = b :: bs) : u8 data ⟨pos, p⟩ = (.ok b, ⟨pos + 1, p⟩) := by
  have h1 : data[pos]? = some b := by
    have h2 := congrArg List.head? h
    rwa [List.head?_drop] at h2
  simp [u8, h1]

theorem bytes_at {data : Bytes} {pos n : Nat} {p : Props} (h : pos + n ≤ data.length) :
    bytes n data ⟨pos, p⟩ = (.ok ((data.drop pos).take n), ⟨pos + n, p⟩) := by
  induction n generalizing pos with
  | zero => simp [bytes]; rfl
  | succ n ih =>
    have hlt : pos < data.length := by omega
    have hd : data.drop pos = data[pos] :: data.drop (pos + 1) := List.drop_eq_getElem_cons hlt
    unfold bytes
    rw [bind_ok (u8_at hd), bind_ok (ih (by omega)), hd]
    show (Except.ok _, _) = _
    rw [List.take_succ_cons]
    congr 2
    omega

theorem drop_drop_add {data : Bytes} {pos n : Nat} : (data.drop pos).drop n = data.drop (pos + n) :=
  List.drop_drop

theorem sim_bytes {n : Nat} {g : Bytes → α} {r : Rd α}
    (h : ∀ bs a rest, r bs = .ok (a, rest) → n ≤ bs.length ∧ a = g (bs.take n) ∧ rest = bs.drop n) :
    SimV false r (bytes n) (fun a b => a = g b ∧ b.length = n) := by
  intro p0 data pos a rest hp hr _
  obtain ⟨hl, rfl, rfl⟩ := h _ _ _ hr
  rw [List.length_drop] at hl
  exact ⟨_, pos + n, p0, bytes_at (by omega), by omega, by omega, by rw [drop_drop_add],
    ⟨rfl, by simp; omega⟩, rfl⟩

/-- The value an integer format gives to the bytes read. -/
def intOf (t : IntTy) (b : Bytes) : Int :=
  if t.signed = true then toSigned t.width (leVal b) else (leVal b : Int)

theorem rInt_ok {t : IntTy} {bs : Bytes} {a : Int} {rest : Bytes}
    (h : rInt .little t bs = .ok (a, rest)) :
    t.width ≤ bs.length ∧ a = intOf t (bs.take t.width) ∧ rest = bs.drop t.width := by
  unfold rInt at h
  split at h
  · cases h
  · rename_i hl
    injection h with h
    injection h with h1 h2
    refine ⟨by omega, ?_, h2.symm⟩
    rw [← h1]
    unfold intOf toSigned unpackNat
    by_cases hs : t.signed = true
    · simp only [hs, true_and, if_true]
    · simp only [hs, false_and, if_false, Bool.false_eq_true]

theorem sim_int {t : IntTy} :
    SimV false (rInt .little t) (bytes t.width) (fun a b => a = intOf t b ∧ b.length = t.width) :=
  sim_bytes fun _ _ _ h => rInt_ok h

theorem SimV.map {V : α → β → Prop} {g : β → γ} {W : α → γ → Prop} (h : SimV false r f V)
    (hW : ∀ a b, V a b → W a (g b)) :
    SimV false r (f >>= fun b => (Pure.pure (g b) : Fast γ)) W := by
  intro p0 data pos a rest hp hr hne
  obtain ⟨b, pos', p', h1, h0, h2, h3, h4, h5⟩ := h p0 data pos a rest hp hr hne
  exact ⟨g b, pos', p', by rw [bind_ok h1]; rfl, h0, h2, h3, hW _ _ h4, h5⟩

theorem SimV.map2 {V : α → β → Prop} {g : β → γ} {g' : α → δ} {W : δ → γ → Prop}
    (h : SimV ne r f V) (hW : ∀ a b, V a b → W (g' a) (g b)) :
    SimV ne (r >>= fun a => (Pure.pure (g' a) : Rd δ)) (f >>= fun b => (Pure.pure (g b) : Fast γ))
      W := by
  intro p0 data pos a rest hp hr hne
  obtain ⟨a', mid, e1, e2⟩ := rd_bind hr
  injection e2 with e2
  injection e2 with e2 e3
  subst e2 e3
  obtain ⟨b, pos', p', h1, h0, h2, h3, h4, h5⟩ := h p0 data pos a' _ hp e1 hne
  exact ⟨g b, pos', p', by rw [bind_ok h1]; rfl, h0, h2, h3, hW _ _ h4, h5⟩

theorem leVal_lt (bs : Bytes) : leVal bs < 2 ^ (8 * bs.length) := by
  induction bs with
  | nil => simp [leVal]
  | cons b bs ih =>
    have hb := b.toNat_lt
    simp only [leVal, List.length_cons]
    have : 2 ^ (8 * (bs.length + 1)) = 256 * 2 ^ (8 * bs.length) := by
      rw [Nat.mul_add, Nat.pow_add]; omega
    rw [this]
    omega

theorem sim_s (t : IntTy) (ht : t.signed = true) :
    SimV false (rInt .little t) (sint t.width) (fun a b => a = b) := by
  refine SimV.map (V := fun a b => a = toSigned t.width b)
    (SimV.map sim_int (by rintro a b ⟨rfl, _⟩; simp [intOf, ht])) ?_
  intro a b h; exact h

theorem sim_s8 : SimV false (rInt .little .s8) (sint 1) (fun a b => a = b) := sim_s .s8 rfl
theorem sim_s16 : SimV false (rInt .little .s16) (sint 2) (fun a b => a = b) := sim_s .s16 rfl
theorem sim_s32 : SimV false (rInt .little .s32) (sint 4) (fun a b => a = b) := sim_s .s32 rfl
theorem sim_s64 : SimV false (rInt .little .s64) (sint 8) (fun a b => a = b) := sim_s .s64 rfl

theorem sim_u (t : IntTy) (ht : t.signed = false) :
    SimV false (rInt .little t) (uint t.width) (fun a b => a = (b : Int) ∧ b < 2 ^ (8 * t.width)) := by
  refine SimV.map sim_int ?_
  rintro a b ⟨rfl, hl⟩
  refine ⟨by simp [intOf, ht], ?_⟩
  have := leVal_lt b
  rwa [hl] at this

theorem sim_u16 : SimV false (rInt .little .u16) (uint 2) (fun a b => a = (b : Int) ∧ b < 2 ^ 16) :=
  sim_u .u16 rfl
theorem sim_u32 : SimV false (rInt .little .u32) (uint 4) (fun a b => a = (b : Int) ∧ b < 2 ^ 32) :=
  sim_u .u32 rfl

theorem sim_un (t : IntTy) (ht : t.signed = false) :
    SimV false (rInt .little t) (unat t.width) (fun a b => a = b) :=
  SimV.map (sim_u t ht) (by rintro a b ⟨rfl, _⟩; rfl)

theorem sim_un8 : SimV false (rInt .little .u8) (unat 1) (fun a b => a = b) := sim_un .u8 rfl
theorem sim_un16 : SimV false (rInt .little .u16) (unat 2) (fun a b => a = b) := sim_un .u16 rfl
theorem sim_un32 : SimV false (rInt .little .u32) (unat 4) (fun a b => a = b) := sim_un .u32 rfl

/-- A signed field read without a sign: the sign can be put back. -/
theorem sim_su (t : IntTy) (ht : t.signed = true) :
    SimV false (rInt .little t) (uint t.width)
      (fun a b => a = toSigned t.width b ∧ b < 2 ^ (8 * t.width)) := by
  refine SimV.map sim_int ?_
  rintro a b ⟨rfl, hl⟩
  refine ⟨by simp [intOf, ht], ?_⟩
  have := leVal_lt b
  rwa [hl] at this

theorem sim_s16u : SimV false (rInt .little .s16) (uint 2)
    (fun a b => a = toSigned 2 b ∧ b < 2 ^ 16) := sim_su .s16 rfl
theorem sim_s32u : SimV false (rInt .little .s32) (uint 4)
    (fun a b => a = toSigned 4 b ∧ b < 2 ^ 32) := sim_su .s32 rfl
theorem sim_s16n : SimV false (rInt .little .s16) (unat 2) (fun a b => a = toSigned 2 b.toNat) :=
  SimV.map sim_s16u (by rintro a b ⟨rfl, _⟩; rfl)
theorem sim_s32n : SimV false (rInt .little .s32) (unat 4) (fun a b => a = toSigned 4 b.toNat) :=
  SimV.map sim_s32u (by rintro a b ⟨rfl, _⟩; rfl)

theorem sim_u8 : SimV false rU8 u8 (fun a b => a = (b.toNat : Int)) := by
  intro p0 data pos a rest hp hr _
  obtain ⟨hl, rfl, rfl⟩ := rInt_ok hr
  simp only [IntTy.width, List.length_drop] at hl
  have hlt : pos < data.length := by omega
  have hd : data.drop pos = data[pos] :: data.drop (pos + 1) := List.drop_eq_getElem_cons hlt
  refine ⟨data[pos], pos + 1, p0, u8_at hd, by omega, by omega, ?_, ?_, rfl⟩
  · simp [IntTy.width]
  · have e : (data.drop pos).take IntTy.u8.width = [data[pos]] := by rw [hd]; rfl
    show intOf .u8 _ = _
    rw [e]
    simp [intOf, IntTy.signed, leVal]

theorem sim_bool : SimV false rBool bool (fun a b => a = b) := by
  refine SimV.map2 sim_u8 ?_
  rintro a b rfl
  have : ((b.toNat : Int) == 1) = decide (b = 1) := by
    by_cases h : b = 1
    · subst h; rfl
    · have h1 : (b.toNat : Int) ≠ 1 := by
        intro h2
        apply h
        apply UInt8.toNat_inj.1
        simp; omega
      simp [h, h1]
  simpa using this

theorem sim_byte : SimV false rByte u8 (fun a b => a = b) := by
  intro p0 data pos a rest hp hr hne
  obtain ⟨v, mid, e1, e2⟩ := rd_bind hr
  injection e2 with e2
  injection e2 with e2 e3
  subst e2 e3
  obtain ⟨b, pos', p', h1, h0, h2, h3, h4, h5⟩ := sim_u8 p0 data pos v _ hp e1 hne
  subst h4
  exact ⟨b, pos', p', h1, h0, h2, h3, by simp, h5⟩

theorem sim_tag {t : UInt8} : SimV false (rTag t.toNat) (tag t) (fun _ _ => True) := by
  intro p0
  unfold rTag tag
  refine SimV.bind sim_u8 ?_
  rintro a b rfl data pos c rest hp hr _
  unfold Rd.guard at hr
  split at hr
  · rename_i hc
    injection hr with hr
    injection hr with _ hr
    subst hr
    have hb : b = t := UInt8.toNat_inj.1 (by omega)
    exact ⟨(), pos, p0, by simp [hb]; rfl, Nat.le_refl _, hp, rfl, trivial, rfl⟩
  · cases hr

theorem sim_double : SimV false rDouble double (fun a b => a = b) := by
  refine SimV.map2 (sim_u .u64 rfl) ?_
  rintro a b ⟨rfl, _⟩
  simp

theorem sim_ref {n : Nat} : SimV false (rRef ⟨.little, n⟩) ref (fun a b => a = b) := by
  intro p0 data pos a rest hp hr hne
  obtain ⟨v, mid, e1, e2⟩ := rd_bind hr
  obtain ⟨_, mid', e2, e3⟩ := rd_bind e2
  unfold Rd.guard at e2
  split at e2
  · injection e2 with e2
    injection e2 with _ e2
    injection e3 with e3
    injection e3 with e3 e4
    subst e2 e3 e4
    obtain ⟨b, pos', p', h1, h0, h2, h3, ⟨h4, _⟩, h5⟩ := sim_u32 p0 data pos v _ hp e1 hne
    subst h4
    exact ⟨b, pos', p', h1, h0, h2, h3, by simp, h5⟩
  · cases e2

theorem decodeRate_scale {m e : Int} {q : Rate} (h : decodeRate m e = .ok q) : scale m e = q := by
  unfold decodeRate at h
  unfold scale
  by_cases h1 : 0 ≤ e
  · simp only [h1, if_true] at h ⊢
    split at h
    · cases h
    · rename_i h2
      rw [if_neg h2]
      injection h
  · simp only [h1, if_false] at h ⊢
    injection h

theorem sim_rate : SimV false (rRate .little) rate (fun a b => a = b) := by
  intro p0
  unfold rRate rate
  refine SimV.bind sim_s32 ?_
  rintro m _ rfl
  refine SimV.bind sim_s16 ?_
  rintro e _ rfl
  split
  · rename_i q hq
    exact Sim.pure ⟨(decodeRate_scale hq).symm, rfl⟩
  · exact Sim.fail

theorem sim_times {V : α → β → Prop} (h : SimV false r f V) (n : Nat) :
    SimV false (readN n r) (times f n) (fun as bs => List.Forall₂ V as bs) := by
  intro p0
  induction n with
  | zero => exact Sim.pure ⟨List.Forall₂.nil, rfl⟩
  | succ n ih =>
    unfold readN times
    refine SimV.bind h ?_
    intro a b hv
    refine Sim.bind ih ?_
    rintro as bs p ⟨hvs, rfl⟩
    exact Sim.pure ⟨List.Forall₂.cons hv hvs, rfl⟩

theorem forall₂_eq {as bs : List α} (h : List.Forall₂ (fun a b => a = b) as bs) : as = bs := by
  induction h with
  | nil => rfl
  | cons h _ ih => rw [h, ih]

theorem sim_times_eq {f : Fast α} (h : SimV false r f (fun a b => a = b)) (n : Nat) :
    SimV false (readN n r) (times f n) (fun as bs => as = bs) := by
  intro p0
  exact (sim_times h n p0).weaken (fun _ _ _ h => ⟨forall₂_eq h.1, h.2⟩)

theorem sim_bytesN (n : Nat) :
    SimV false (readN n rByte) (bytes n) (fun as bs => as = bs ∧ bs.length = n) := by
  intro p0
  induction n with
  | zero => exact Sim.pure ⟨⟨rfl, rfl⟩, rfl⟩
  | succ n ih =>
    unfold readN bytes
    refine SimV.bind sim_byte ?_
    rintro a b rfl
    refine Sim.bind ih ?_
    rintro as bs p ⟨⟨rfl, hl⟩, rfl⟩
    exact Sim.pure ⟨⟨rfl, by simp [hl]⟩, rfl⟩

/-- `f.read(n)` and `n` bytes, when the data does not end there. -/
theorem sim_fread {n : Int} {m : Nat} (h : 0 ≤ n → n = m) :
    SimV true (fread n) (bytes m) (fun a b => a = b ∧ b.length = m) := by
  intro p0 data pos a rest hp hr hne
  have hne := hne rfl
  unfold fread at hr
  split at hr
  · injection hr with hr
    injection hr with _ hr
    exact absurd hr.symm hne
  · rename_i hn
    have hm : n.toNat = m := by have := h (by omega); omega
    injection hr with hr
    injection hr with h1 h2
    subst h1 h2
    rw [hm] at hne ⊢
    have hl : m < (data.drop pos).length := by
      apply Classical.byContradiction
      intro hlt
      exact hne (List.drop_of_length_le (by omega))
    rw [List.length_drop] at hl
    exact ⟨_, pos + m, p0, bytes_at (by omega), by omega, by omega, by rw [drop_drop_add],
      ⟨rfl, by simp; omega⟩, rfl⟩

theorem nilFails_int {bo : BO} {t : IntTy} {k : Int → Rd β} : NilFails (rInt bo t >>= k) := by
  intro x h
  have : rInt bo t [] = .error .struct := by
    unfold rInt; rw [if_pos]; cases t <;> decide
  rw [Rd.bind_apply, this] at h
  cases h

theorem nilFails_bind {k : α → Rd β} (h : NilFails r) : NilFails (r >>= k) := by
  intro x hx
  rw [Rd.bind_apply] at hx
  match hr : r [] with
  | .ok y => exact h y hr
  | .error e => rw [hr] at hx; cases hx

theorem nilFails_u8 : NilFails rU8 := by
  intro x h; cases h

theorem nilFails_bool : NilFails rBool := nilFails_bind nilFails_u8
theorem nilFails_tag {t : Int} : NilFails (rTag t) := nilFails_bind nilFails_u8

theorem nilFails_int' {bo : BO} {t : IntTy} : NilFails (rInt bo t) := by
  intro x h
  have : rInt bo t [] = .error .struct := by
    unfold rInt; rw [if_pos]; cases t <;> decide
  rw [this] at h
  cases h

theorem nilFails_iterExt {body : Int → σ → Rd σ} {s : σ} : NilFails (Avb.iterExt body s) := by
  intro x h
  unfold Avb.iterExt at h
  cases h

/-- `UUID(bytes_le=..)` on 16 bytes read raw. -/
theorem sim_rawUuid : SimV false (rRawUuid .little) rawUuid (fun a b => a = b) := by
  intro p0 data pos u rest hp hr _
  obtain ⟨d, mid, e1, e2⟩ := rd_bind hr
  unfold fread at e1
  rw [if_neg (by omega)] at e1
  injection e1 with e1
  injection e1 with e1 e3
  subst e1 e3
  have hlen : ((data.drop pos).take 16).length = 16 := by
    apply Classical.byContradiction
    intro hl
    have : uuidOf .little ((data.drop pos).take 16) = none := by
      simp only [uuidOf, uuidOfBytesLE, if_neg hl]
    have e2' : Rd.ofOption (uuidOf .little ((data.drop pos).take 16)) Err.value
      ((data.drop pos).drop 16) = .ok (u, rest) := e2
    rw [this] at e2'
    cases e2'
  have hl : pos + 16 ≤ data.length := by
    rw [List.length_take, List.length_drop] at hlen; omega
  have e2' : Rd.ofOption (uuidOf .little ((data.drop pos).take 16)) Err.value
      ((data.drop pos).drop 16) = .ok (u, rest) := e2
  match hu : uuidOf .little ((data.drop pos).take 16) with
  | none => rw [hu] at e2'; cases e2'
  | some v =>
    rw [hu] at e2'
    injection e2' with e2'
    injection e2' with e2' e3
    subst e2' e3
    refine ⟨v, pos + 16, p0, ?_, by omega, hl, by rw [drop_drop_add], rfl, rfl⟩
    unfold rawUuid
    rw [bind_ok (bytes_at hl)]
    have hu' : uuidOfBytesLE ((data.drop pos).take 16) = some v := hu
    simp only [hu']
    rfl

/-! ### Strings -/

theorem dropWhile_append_zeros (bs : Bytes) (k : Nat) :
    (List.dropWhile (· == 0) (List.replicate k (0 : UInt8) ++ bs)) = bs.dropWhile (· == 0) := by
  induction k with
  | zero => rfl
  | succ k ih => rw [List.replicate_succ, List.cons_append, List.dropWhile_cons_of_pos (by rfl), ih]

/-- Reading past the end of the data yields zeros. -/
theorem bytes_past {data : Bytes} {n : Nat} {p : Props} :
    ∀ {pos : Nat}, data.length ≤ pos →
      bytes n data ⟨pos, p⟩ = (.ok (List.replicate n 0), ⟨pos, p⟩) := by
  induction n with
  | zero => intro pos _; rfl
  | succ n ih =>
    intro pos h
    unfold bytes
    have h1 : u8 data ⟨pos, p⟩ = (.ok 0, ⟨pos, p⟩) := by
      simp [u8, List.getElem?_eq_none h]
    rw [bind_ok h1, bind_ok (ih h)]
    rfl

theorem bytes_add {data : Bytes} {m n : Nat} {s s1 s2 : St} {a b : Bytes}
    (h1 : bytes m data s = (.ok a, s1)) (h2 : bytes n data s1 = (.ok b, s2)) :
    bytes (m + n) data s = (.ok (a ++ b), s2) := by
  induction m generalizing s a with
  | zero =>
    have : (Except.ok [], s) = ((.ok a, s1) : Except Stop Bytes × St) := h1
    injection this with g1 g2
    injection g1 with g1
    subst g1 g2
    simpa using h2
  | succ m ih =>
    have e : m + 1 + n = (m + n) + 1 := by omega
    rw [e]
    unfold bytes at h1 ⊢
    rw [bind_apply] at h1
    match hu : u8 data s with
    | (.error e, s') => rw [hu] at h1; cases h1
    | (.ok x, s') =>
      rw [hu] at h1
      rw [bind_ok hu]
      simp only at h1
      rw [bind_apply] at h1
      match hb : bytes m data s' with
      | (.error e, s'') => rw [hb] at h1; cases h1
      | (.ok xs, s'') =>
        rw [hb] at h1
        simp only at h1
        have : (Except.ok (x :: xs), s'') = ((.ok a, s1) : Except Stop Bytes × St) := h1
        injection this with g1 g2
        injection g1 with g1
        subst g1 g2
        rw [bind_ok (ih hb)]
        rfl

/-- `n` bytes at the end of the data: what is left, filled up with zeros. -/
theorem bytes_short {data : Bytes} {pos n : Nat} {p : Props} (hp : pos ≤ data.length)
    (hn : data.length ≤ pos + n) :
    bytes n data ⟨pos, p⟩ =
      (.ok (data.drop pos ++ List.replicate (n - (data.length - pos)) 0), ⟨data.length, p⟩) := by
  have h1 : bytes (data.length - pos) data ⟨pos, p⟩ = (.ok (data.drop pos), ⟨data.length, p⟩) := by
    rw [bytes_at (by omega), List.take_of_length_le (by simp)]
    congr 2
    omega
  have h2 := bytes_add h1 (bytes_past (n := n - (data.length - pos)) (Nat.le_refl _))
  have e : data.length - pos + (n - (data.length - pos)) = n := by omega
  rwa [e] at h2

theorem stripNul_append_zeros (bs : Bytes) (k : Nat) :
    stripNul (bs ++ List.replicate k 0) = stripNul bs := by
  unfold stripNul
  by_cases h : ∀ b ∈ bs, b = 0
  · have h1 : ∀ l : Bytes, (∀ b ∈ l, b = 0) → l.dropWhile (· == 0) = [] := by
      intro l hl
      induction l with
      | nil => rfl
      | cons a l ih =>
        rw [List.dropWhile_cons_of_pos (by simp [hl a])]
        exact ih fun b hb => hl b (by simp [hb])
    rw [h1 bs h, h1 (bs ++ List.replicate k 0)]
    intro b hb
    rcases List.mem_append.1 hb with hb | hb
    · exact h b hb
    · exact (List.mem_replicate.1 hb).2
  · have h2 : (bs ++ List.replicate k 0).dropWhile (· == 0) =
        bs.dropWhile (· == 0) ++ List.replicate k 0 := by
      have : ∀ l : Bytes, (¬ ∀ b ∈ l, b = 0) → (l ++ List.replicate k (0 : UInt8)).dropWhile (· == 0)
          = l.dropWhile (· == 0) ++ List.replicate k 0 := by
        intro l hl
        induction l with
        | nil => exact absurd (by simp) hl
        | cons a l ih =>
          by_cases ha : a = 0
          · subst ha
            rw [List.cons_append, List.dropWhile_cons_of_pos (by rfl),
              List.dropWhile_cons_of_pos (by rfl)]
            apply ih
            intro h3
            apply hl
            intro b hb
            rcases List.mem_cons.1 hb with rfl | hb
            · rfl
            · exact h3 b hb
          · rw [List.cons_append, List.dropWhile_cons_of_neg (by simpa using ha),
              List.dropWhile_cons_of_neg (by simpa using ha)]
            rfl
      exact this bs h
    rw [h2, List.reverse_append, List.reverse_replicate, dropWhile_append_zeros]

/-- A string field: the portable value is the accelerated one without the outer NUL characters. -/
theorem sim_str : SimV false (rStr .little .macroman) str (fun a b => a = stripText b) := by
  intro p0 data pos t rest hp hr hne
  unfold rStr at hr
  obtain ⟨size, mid, e1, e2⟩ := rd_bind hr
  obtain ⟨n, pos1, p1, h1, h0, h2, h3, ⟨h4, h4'⟩, h5⟩ := sim_u16 p0 data pos size _ hp e1 (by simp)
  subst h4 h5
  unfold str data16
  have hstr : ∀ raw pos2, (uint 2 >>= fun size => if size < 65535 then bytes size else Pure.pure [])
      data ⟨pos, p1⟩ = (Except.ok raw, ⟨pos2, p1⟩) →
      ((uint 2 >>= fun size => if size < 65535 then bytes size else Pure.pure []) >>=
        fun b => (Pure.pure (b.map macDecodeByte) : Fast Text)) data ⟨pos, p1⟩ =
        (.ok (raw.map macDecodeByte), ⟨pos2, p1⟩) := by
    intro raw pos2 h
    rw [bind_ok h]; rfl
  by_cases hs : (n : Int) ≥ 65535
  · rw [if_pos hs] at e2
    injection e2 with e2
    injection e2 with e2 e3
    subst e2 e3
    refine ⟨_, pos1, p1, hstr [] pos1 ?_, by omega, h2, h3, rfl, rfl⟩
    rw [bind_ok h1, if_neg (by omega)]
    rfl
  · rw [if_neg hs] at e2
    have hlt : n < 65535 := by omega
    obtain ⟨s, mid', e2, e3⟩ := rd_bind e2
    unfold fread at e2
    rw [if_neg (by omega)] at e2
    injection e2 with e2
    injection e2 with e2 e4
    subst e2 e4
    have e3' : (Except.ok ((stripNul (List.take (n : Int).toNat mid)).map macDecodeByte,
      List.drop (n : Int).toNat mid) : Except Err (Text × Bytes)) = .ok (t, rest) := e3
    injection e3' with e3'
    injection e3' with e3' e4
    rw [Int.toNat_natCast] at e3' e4
    subst e3' e4
    have key : ∃ raw pos2, bytes n data ⟨pos1, p1⟩ = (.ok raw, ⟨pos2, p1⟩) ∧ pos1 ≤ pos2 ∧
        pos2 ≤ data.length ∧ data.drop pos2 = mid.drop n ∧ stripNul raw = stripNul (mid.take n) := by
      by_cases hl : pos1 + n ≤ data.length
      · exact ⟨_, pos1 + n, bytes_at hl, by omega, hl, by rw [← h3, drop_drop_add], by rw [h3]⟩
      · refine ⟨_, data.length, bytes_short h2 (by omega), h2, Nat.le_refl _, ?_, ?_⟩
        · rw [← h3, drop_drop_add, List.drop_of_length_le (Nat.le_refl _),
            List.drop_of_length_le (by omega)]
        · rw [stripNul_append_zeros, ← h3, List.take_of_length_le (by simp; omega)]
    obtain ⟨raw, pos2, k1, k0, k2, k3, k4⟩ := key
    refine ⟨_, pos2, p1, hstr raw pos2 ?_, by omega, k2, k3, ?_, rfl⟩
    · rw [bind_ok h1, if_pos hlt, k1]
    · rw [← k4, map_macDecode_strip]

/-! ### Extensions -/

theorem more_true {data : Bytes} {pos : Nat} {bs : Bytes} {p : Props}
    (h : data.drop pos = 1 :: bs) : more data ⟨pos, p⟩ = (.ok true, ⟨pos + 1, p⟩) := by
  unfold more
  rw [bind_ok (u8_at h)]
  rfl

theorem more_false {data : Bytes} {pos : Nat} {b : UInt8} {bs : Bytes} {p : Props}
    (h : data.drop pos = b :: bs) (hb : b ≠ 1) :
    more data ⟨pos, p⟩ = (.ok false, ⟨pos, p⟩) := by
  unfold more
  rw [bind_ok (u8_at h), if_neg hb]
  rfl

theorem sim_iterExt {body : Int → σ → Rd σ} {fbody : UInt8 → Fast Unit} {Inv : σ → Props → Prop}
    (hb : ∀ (t : UInt8) s p, Inv s p →
      Sim true p (body t.toNat s) (fbody t) (fun s' _ p' => Inv s' p')) {s : σ} (hs : Inv s p0) :
    Sim ne p0 (Avb.iterExt body s) (iterExt fbody) (fun s' _ p' => Inv s' p') := by
  intro data pos s' rest hp hr _
  induction hn : data.length - pos using Nat.strongRecOn generalizing pos s p0 with
  | _ n ih =>
  subst hn
  unfold Avb.iterExt at hr
  unfold iterExt
  match hd : data.drop pos with
  | [] => rw [hd] at hr; cases hr
  | b :: bs1 =>
    rw [hd] at hr
    simp only at hr
    have hlen : data.length - pos = bs1.length + 1 := by
      rw [← List.length_drop, hd]; rfl
    have hd1 : data.drop (pos + 1) = bs1 := by
      rw [← drop_drop_add, hd]; rfl
    by_cases hb1 : b ≠ 1
    · rw [if_pos hb1] at hr
      injection hr with hr
      injection hr with h1 h2
      subst h1 h2
      rw [more_false hd hb1]
      exact ⟨(), pos, p0, rfl, Nat.le_refl _, hp, hd, hs⟩
    · have hb1 : b = 1 := Classical.not_not.1 hb1
      subst hb1
      rw [if_neg (by simp)] at hr
      rw [more_true hd]
      match bs1, hd1 with
      | [], _ => cases hr
      | t :: bs2, hd1 =>
        simp only at hr
        have hd2 : data.drop (pos + 2) = bs2 := by
          rw [← drop_drop_add, hd]; rfl
        match hbod : body t.toNat s bs2 with
        | .error e => rw [hbod] at hr; cases hr
        | .ok (s1, rest1) =>
          rw [hbod] at hr
          simp only at hr
          split at hr
          · rename_i hle
            have hne : rest1 ≠ [] := by
              rintro rfl
              exact nilFails_iterExt _ hr
            rw [← hd2] at hbod
            have hlen2 : data.length - pos = bs2.length + 2 := by
              rw [hlen]; rfl
            obtain ⟨_, pos2, p2, g1, g0, g2, g3, g4⟩ :=
              hb t s p0 hs data (pos + 2) s1 rest1 (by omega) hbod (fun _ => hne)
            have hstep : (u8 >>= fbody) data ⟨pos + 1, p0⟩ = (.ok (), ⟨pos2, p2⟩) := by
              rw [bind_ok (u8_at hd1)]; exact g1
            dsimp only
            rw [hstep]
            dsimp only
            rw [if_pos ⟨by omega, g2⟩]
            rw [← g3] at hr
            obtain ⟨b', pos', p', k1, k0, k2, k3, k4⟩ := ih (data.length - pos2) (by omega) g4 pos2 g2 hr rfl
            exact ⟨b', pos', p', k1, by omega, k2, k3, k4⟩
          · cases hr

/-- Comparing a tag byte with a literal. -/
theorem tag_iff {t : UInt8} {n : Nat} (hn : n < 256) :
    ((t.toNat : Int) = (n : Int)) ↔ t = UInt8.ofNat n := by
  constructor
  · intro h
    apply UInt8.toNat_inj.1
    simp [Nat.mod_eq_of_lt hn]
    omega
  · rintro rfl
    simp [Nat.mod_eq_of_lt hn]

end Avb.Fast

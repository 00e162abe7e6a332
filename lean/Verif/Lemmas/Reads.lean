import Verif.Lemmas.Framing
import Verif.Lemmas.Loaded
import Verif.Lemmas.Fast
import Verif.Spec.Format

/-
Readers and formats: what it means that a reader accepts exactly a format, and how this composes.
-/

namespace Avb

variable {α β : Type}

/-- The reader takes exactly the byte strings with the format `F`, when something follows.  With
`free = false` what follows must not start with the byte 1, which would be taken for another
optional field. -/
structure Reads (free : Bool) (F : Fmt) (r : Rd α) : Prop where
  fwd : ∀ {bs v rest}, r bs = .ok (v, rest) → rest ≠ [] → ∃ p, bs = p ++ rest ∧ F p
  bwd : ∀ {p rest}, F p → rest ≠ [] → (free = false → rest.head? ≠ some 1) →
    ∃ v, r (p ++ rest) = .ok (v, rest)

/-- `Reads` for readers already dealt with. -/
class IsReads (free : outParam Bool) (F : outParam Fmt) (r : Rd α) : Prop where
  h : Reads free F r

/-- What a reader gives if something follows. -/
def Gives (r : Rd α) (P : α → Prop) : Prop := ∀ {bs v rest}, r bs = .ok (v, rest) → rest ≠ [] → P v

namespace Fmt

theorem cat_assoc (A B C : Fmt) : cat (cat A B) C = cat A (cat B C) := by
  funext p
  apply propext
  constructor
  · rintro ⟨q, r, rfl, ⟨a, b, rfl, ha, hb⟩, hr⟩
    exact ⟨a, b ++ r, by simp, ha, b, r, rfl, hb, hr⟩
  · rintro ⟨q, r, rfl, hq, b, c, rfl, hb, hc⟩
    exact ⟨q ++ b, c, by simp, ⟨q, b, rfl, hq, hb⟩, hc⟩

theorem nil_cat (B : Fmt) : cat nil B = B := by
  funext p
  apply propext
  constructor
  · rintro ⟨q, r, rfl, hq, hr⟩
    cases hq
    exact hr
  · exact fun h => ⟨[], p, rfl, rfl, h⟩

theorem cat_nil (A : Fmt) : cat A nil = A := by
  funext p
  apply propext
  constructor
  · rintro ⟨q, r, rfl, hq, hr⟩
    cases hr
    rwa [List.append_nil]
  · exact fun h => ⟨p, [], by simp, h, rfl⟩

theorem never_cat (B : Fmt) : cat never B = never := by
  funext p
  apply propext
  constructor
  · rintro ⟨q, r, rfl, hq, hr⟩
    exact hq
  · exact fun h => h.elim

theorem num_cat (bo : BO) (t : IntTy) (F : Int → Fmt) (B : Fmt) :
    cat (num bo t F) B = num bo t fun v => cat (F v) B := by
  funext p
  apply propext
  constructor
  · rintro ⟨q, r, rfl, ⟨v, q', h1, h2, rfl, hF⟩, hr⟩
    exact ⟨v, q' ++ r, h1, h2, by simp, q', r, rfl, hF, hr⟩
  · rintro ⟨v, q, h1, h2, rfl, a, b, rfl, ha, hb⟩
    exact ⟨_ ++ a, b, by simp, ⟨v, a, h1, h2, rfl, ha⟩, hb⟩

theorem only_cat (c : Prop) (F B : Fmt) : cat (only c F) B = only c (cat F B) := by
  funext p
  apply propext
  constructor
  · rintro ⟨q, r, rfl, ⟨hc, hF⟩, hr⟩
    exact ⟨hc, q, r, rfl, hF, hr⟩
  · rintro ⟨hc, q, r, rfl, hF, hr⟩
    exact ⟨q, r, rfl, ⟨hc, hF⟩, hr⟩

theorem ite_cat (c : Prop) [Decidable c] (A B C : Fmt) :
    cat (if c then A else B) C = if c then cat A C else cat B C := by
  split <;> rfl

theorem seq_nil : seq [] = nil := rfl
theorem seq_cons (A : Fmt) (L : List Fmt) : seq (A :: L) = cat A (seq L) := rfl
theorem rep_zero (F : Fmt) : rep 0 F = nil := rfl
theorem rep_succ (n : Nat) (F : Fmt) : rep (n + 1) F = cat F (rep n F) := rfl

end Fmt

open Fmt

theorem rInt_num {bo : BO} {t : IntTy} {bs rest : Bytes} {v : Int} :
    rInt bo t bs = .ok (v, rest) ↔ t.lo ≤ v ∧ v ≤ t.hi ∧
      bs = packNat bo t.width (v % (2 ^ (8 * t.width) : Int)).toNat ++ rest := by
  constructor
  · intro h
    unfold rInt at h
    split at h
    · cases h
    · rename_i hl
      obtain ⟨a, b⟩ : t.lo ≤ v ∧ v ≤ t.hi := by
        have hlt := unpackNat_lt bo (bs.take t.width)
        rw [List.length_take, Nat.min_eq_left (by omega)] at hlt
        injection h with h
        injection h with h _
        subst h
        generalize unpackNat bo (bs.take t.width) = n at hlt
        cases t <;> simp [IntTy.lo, IntTy.hi, IntTy.width, IntTy.signed] at hlt ⊢ <;>
          omega
      refine ⟨a, b, ?_⟩
      have h1 := rInt_pack bo t v rest a b
      injection h with h
      injection h with h2 h3
      conv_lhs => rw [← List.take_append_drop t.width bs, h3]
      congr 1
      have hk : (bs.take t.width).length = t.width := by
        rw [List.length_take, Nat.min_eq_left (by omega)]
      have hp := packNat_unpackNat bo (bs.take t.width)
      rw [hk] at hp
      rw [← hp]
      congr 1
      have hlt := unpackNat_lt bo (bs.take t.width)
      rw [hk] at hlt
      subst h2
      generalize unpackNat bo (bs.take t.width) = n at hlt
      cases t <;> simp [IntTy.width, IntTy.signed] at hlt ⊢ <;>
          omega
  · rintro ⟨h1, h2, rfl⟩
    exact rInt_pack bo t v rest h1 h2

namespace Reads

variable {f : Bool} {A B F : Fmt} {r : Rd α} {k : α → Rd β}

theorem pure {a : α} : Reads f nil (Pure.pure a : Rd α) where
  fwd h _ := by
    cases h
    exact ⟨[], rfl, rfl⟩
  bwd h _ _ := by
    cases h
    exact ⟨a, rfl⟩

theorem weaken (h : Reads true F r) : Reads f F r where
  fwd := h.fwd
  bwd h1 h2 _ := h.bwd h1 h2 (by simp)

theorem bindP {P : α → Prop} (h1 : Reads true A r) (hP : Gives r P)
    (hm : ∀ a, Mono (k a)) (h2 : ∀ a, P a → Reads f B (k a)) : Reads f (cat A B) (r >>= k) where
  fwd h hne := by
    obtain ⟨a, mid, e1, e2⟩ := Rd.bind_eq_ok' h
    have hm : mid ≠ [] := by
      rintro rfl
      have := hm a _ _ _ e2
      simp at this
      exact hne this.1
    obtain ⟨p, rfl, hp⟩ := h1.fwd e1 hm
    obtain ⟨q, rfl, hq⟩ := (h2 a (hP e1 hm)).fwd e2 hne
    exact ⟨p ++ q, by simp, p, q, rfl, hp, hq⟩
  bwd {_ rest} h hne hf := by
    obtain ⟨p, q, rfl, hp, hq⟩ := h
    obtain ⟨a, e1⟩ := h1.bwd (rest := q ++ rest) hp (by simp [hne]) (by simp)
    obtain ⟨v, e2⟩ := (h2 a (hP e1 (by simp [hne]))).bwd hq hne hf
    exact ⟨v, by rw [List.append_assoc, Rd.bind_ok e1, e2]⟩

theorem bind (h1 : Reads true A r) (h2 : ∀ a, Reads f B (k a)) : Reads f (cat A B) (r >>= k) where
  fwd h hne := by
    obtain ⟨a, mid, e1, e2⟩ := Rd.bind_eq_ok' h
    obtain ⟨q, rfl, hq⟩ := (h2 a).fwd e2 hne
    obtain ⟨p, rfl, hp⟩ := h1.fwd e1 (by simp [hne])
    exact ⟨p ++ q, by simp, p, q, rfl, hp, hq⟩
  bwd {_ rest} h hne hf := by
    obtain ⟨p, q, rfl, hp, hq⟩ := h
    obtain ⟨a, e1⟩ := h1.bwd (rest := q ++ rest) hp (by simp [hne]) (by simp)
    obtain ⟨v, e2⟩ := (h2 a).bwd hq hne hf
    exact ⟨v, by rw [List.append_assoc, Rd.bind_ok e1, e2]⟩

/-- After optional fields comes a byte other than 1. -/
theorem bindExt {P : α → Prop} {b : UInt8} (h1 : Reads false A r) (hP : Gives r P) (hb : b ≠ 1)
    (hm : ∀ a, Mono (k a)) (h2 : ∀ a, P a → Reads f (cat (byte b) B) (k a)) :
    Reads f (cat A (cat (byte b) B)) (r >>= k) where
  fwd h hne := by
    obtain ⟨a, mid, e1, e2⟩ := Rd.bind_eq_ok' h
    have hm : mid ≠ [] := by
      rintro rfl
      have := hm a _ _ _ e2
      simp at this
      exact hne this.1
    obtain ⟨p, rfl, hp⟩ := h1.fwd e1 hm
    obtain ⟨q, rfl, hq⟩ := (h2 a (hP e1 hm)).fwd e2 hne
    exact ⟨p ++ q, by simp, p, q, rfl, hp, hq⟩
  bwd {_ rest} h hne hf := by
    obtain ⟨p, q, rfl, hp, hq⟩ := h
    obtain ⟨_, q', rfl, hq1, hq'⟩ := id hq
    cases hq1
    obtain ⟨a, e1⟩ := h1.bwd (rest := [b] ++ q' ++ rest) hp (by simp) (by simp [hb])
    obtain ⟨v, e2⟩ := (h2 a (hP e1 (by simp))).bwd hq hne hf
    exact ⟨v, by rw [List.append_assoc, Rd.bind_ok e1, e2]⟩

theorem ext' {b : UInt8} (h1 : Reads false A r) (hb : b ≠ 1)
    (h2 : ∀ a, Reads f (cat (byte b) B) (k a)) : Reads f (cat A (cat (byte b) B)) (r >>= k) where
  fwd h hne := by
    obtain ⟨a, mid, e1, e2⟩ := Rd.bind_eq_ok' h
    obtain ⟨q, rfl, hq⟩ := (h2 a).fwd e2 hne
    obtain ⟨p, rfl, hp⟩ := h1.fwd e1 (by simp [hne])
    exact ⟨p ++ q, by simp, p, q, rfl, hp, hq⟩
  bwd {_ rest} h hne hf := by
    obtain ⟨p, q, rfl, hp, hq⟩ := h
    obtain ⟨_, q', rfl, hq1, hq'⟩ := id hq
    cases hq1
    obtain ⟨a, e1⟩ := h1.bwd (rest := [b] ++ q' ++ rest) hp (by simp) (by simp [hb])
    obtain ⟨v, e2⟩ := (h2 a).bwd hq hne hf
    exact ⟨v, by rw [List.append_assoc, Rd.bind_ok e1, e2]⟩

theorem numP {bo : BO} {t : IntTy} {F : Int → Fmt} {k : Int → Rd β}
    (h : ∀ v, t.lo ≤ v → v ≤ t.hi → Reads f (F v) (k v)) : Reads f (num bo t F) (rInt bo t >>= k) where
  fwd h1 hne := by
    obtain ⟨v, mid, e1, e2⟩ := Rd.bind_eq_ok' h1
    obtain ⟨l, u, rfl⟩ := rInt_num.1 e1
    obtain ⟨q, rfl, hq⟩ := (h v l u).fwd e2 hne
    exact ⟨_ ++ q, by simp, v, q, l, u, rfl, hq⟩
  bwd h1 hne hf := by
    obtain ⟨v, q, l, u, rfl, hq⟩ := h1
    obtain ⟨x, e⟩ := (h v l u).bwd hq hne hf
    exact ⟨x, by rw [List.append_assoc, Rd.bind_ok (rInt_num.2 ⟨l, u, rfl⟩), e]⟩

theorem num {bo : BO} {t : IntTy} {F : Int → Fmt} {k : Int → Rd β}
    (h : ∀ v, Reads f (F v) (k v)) : Reads f (num bo t F) (rInt bo t >>= k) :=
  numP fun v _ _ => h v

theorem only {c : Prop} [Decidable c] {e : Err} {k : Unit → Rd β} (h : c → Reads f F (k ())) :
    Reads f (only c F) (Rd.guard c e >>= k) where
  fwd h1 hne := by
    obtain ⟨_, mid, e1, e2⟩ := Rd.bind_eq_ok' h1
    rw [Rd.guard_apply] at e1
    split at e1
    · cases e1
      rename_i hc
      obtain ⟨q, rfl, hq⟩ := (h hc).fwd e2 hne
      exact ⟨q, rfl, hc, hq⟩
    · cases e1
  bwd h1 hne hf := by
    obtain ⟨hc, hq⟩ := h1
    obtain ⟨x, e⟩ := (h hc).bwd hq hne hf
    exact ⟨x, by rw [Rd.bind_ok (by rw [Rd.guard_apply, if_pos hc]), e]⟩

theorem onlyIff {c c' : Prop} [Decidable c] {e : Err} {k : Unit → Rd β} (hc : c ↔ c')
    (h : c' → Reads f F (k ())) : Reads f (Fmt.only c' F) (Rd.guard c e >>= k) := by
  have := propext hc
  subst this
  exact only h

theorem guardTrue {c : Prop} [Decidable c] {e : Err} {k : Unit → Rd β} (hc : c)
    (h : Reads f F (k ())) : Reads f F (Rd.guard c e >>= k) := by
  have : (Rd.guard c e >>= k) = k () := by
    funext bs
    rw [Rd.bind_ok (by rw [Rd.guard_apply, if_pos hc])]
  rw [this]
  exact h

theorem ite {c : Prop} [Decidable c] {r s : Rd β} (h1 : c → Reads f A r) (h2 : ¬ c → Reads f B s) :
    Reads f (if c then A else B) (if c then r else s) := by
  split
  · exact h1 ‹_›
  · exact h2 ‹_›

theorem fail {e : Err} : Reads f never (Rd.fail e : Rd α) where
  fwd h := nomatch h
  bwd h := h.elim

theorem last (h : Reads f A r) : Reads f (cat A nil) r := by
  rwa [cat_nil]

theorem map {g : α → β} (h : Reads f F r) : Reads f F (r >>= fun a => Pure.pure (g a)) where
  fwd h1 hne := by
    obtain ⟨a, mid, e1, e2⟩ := Rd.bind_eq_ok' h1
    cases e2
    exact h.fwd e1 hne
  bwd h1 hne hf := by
    obtain ⟨a, e⟩ := h.bwd h1 hne hf
    exact ⟨g a, by rw [Rd.bind_ok e]; rfl⟩

theorem mapLast {g : α → β} (h : Reads f F r) : Reads f (cat F nil) (r >>= fun a => Pure.pure (g a)) := by
  rw [cat_nil]
  exact h.map

theorem int {bo : BO} {t : IntTy} : Reads f (int t) (rInt bo t) where
  fwd h _ := by
    obtain ⟨_, _, rfl⟩ := rInt_num.1 h
    exact ⟨_, rfl, by simp [Fmt.int, skip]⟩
  bwd {p rest} h _ _ := by
    unfold rInt
    rw [if_neg (by simp only [Fmt.int, skip] at h; simp; omega)]
    exact ⟨_, by simp only [Fmt.int, skip] at h; rw [← h, List.drop_left]⟩

theorem u8 : Reads f (skip 1) rU8 := int (bo := .little) (t := .u8)

theorem boolean : Reads f Fmt.bool rBool := by
  unfold rBool
  exact u8.map

theorem uByte : Reads f (skip 1) rByte := by
  unfold rByte
  exact u8.map

theorem double : Reads f (skip 8) rDouble := by
  unfold rDouble
  exact Reads.map (int (t := .u64))

theorem date {bo : BO} : Reads f (Fmt.int .u32) (rDate bo) := int

theorem tag {t : Int} {b : UInt8} (hb : t = (b.toNat : Int)) : Reads f (byte b) (rTag t) where
  fwd h _ := by
    obtain ⟨v, h1, rfl⟩ := rTag_ok h
    exact ⟨[v], h1, by
      have : v = b := by
        apply UInt8.toNat_inj.1
        omega
      subst this
      rfl⟩
  bwd {p rest} h _ _ := by
    cases h
    exact ⟨(), by
      have h2 : rU8 (b :: rest) = .ok ((b.toNat : Int), rest) := by
        simp [rU8, rInt, IntTy.width, IntTy.signed, unpackNat, leVal]
      show rTag t (b :: rest) = _
      unfold rTag
      rw [Rd.bind_ok h2, Rd.guard_apply, if_pos hb.symm]⟩

theorem rep {n : Nat} (h : Reads true F r) : Reads true (rep n F) (readN n r) := by
  induction n with
  | zero => exact pure
  | succ n ih =>
    rw [rep_succ]
    refine bind h fun a => ?_
    exact ih.map

theorem readN_length {n : Nat} {bs rest : Bytes} {v : List α} (h : readN n r bs = .ok (v, rest)) :
    v.length = n := by
  induction n generalizing bs v with
  | zero => cases h; rfl
  | succ n ih =>
    obtain ⟨a, m, _, h⟩ := Rd.bind_eq_ok' h
    obtain ⟨l, m, h2, h⟩ := Rd.bind_eq_ok' h
    cases h
    simp [ih h2]

theorem fread {n : Int} (hn : 0 ≤ n) : Reads f (skip n.toNat) (fread n) where
  fwd {bs v rest} h hne := by
    unfold Avb.fread at h
    rw [if_neg (by omega)] at h
    cases h
    refine ⟨_, (List.take_append_drop _ _).symm, ?_⟩
    simp only [skip, List.length_take]
    have : bs.drop n.toNat ≠ [] := hne
    rw [Ne, List.drop_eq_nil_iff] at this
    omega
  bwd {p rest} h _ _ := by
    refine ⟨p, fread_append ?_⟩
    simp only [skip] at h
    omega

theorem skip {n : Nat} : Reads f (Fmt.skip n) (Avb.fread (n : Int)) := by
  simpa using fread (f := f) (n := (n : Int)) (by omega)

theorem fread_gives {n : Int} (hn : 0 ≤ n) : Gives (Avb.fread n) fun b => (b.length : Int) = n := by
  intro bs v rest h hne
  obtain ⟨p, hp, hl⟩ := (fread (f := true) hn).fwd h hne
  unfold Avb.fread at h
  rw [if_neg (by omega)] at h
  cases h
  have := congrArg List.length hp
  simp only [Fmt.skip] at hl
  simp at this ⊢
  omega

/-- A size read from the file: with a negative size `f.read` takes everything, and then nothing
can follow. -/
theorem bytes {n : Int} {k : Bytes → Rd β} (h : ∀ a, Reads f B (k a)) :
    Reads f (Fmt.only (0 ≤ n) (cat (Fmt.skip n.toNat) B)) (Avb.fread n >>= k) := by
  by_cases hn : 0 ≤ n
  · have := bind (fread hn) h
    exact ⟨fun h1 h2 => by
      obtain ⟨p, hp, hF⟩ := this.fwd h1 h2
      exact ⟨p, hp, hn, hF⟩, fun h1 h2 h3 => this.bwd h1.2 h2 h3⟩
  · refine ⟨fun h1 h2 => ?_, fun h1 => absurd h1.1 hn⟩
    obtain ⟨a, mid, e1, e2⟩ := Rd.bind_eq_ok' h1
    unfold Avb.fread at e1
    rw [if_pos (by omega)] at e1
    cases e1
    obtain ⟨p, hp, _⟩ := (h _).fwd e2 h2
    simp at hp
    exact absurd hp.2 h2

theorem bytesLast {n : Int} :
    Reads f (Fmt.only (0 ≤ n) (Fmt.skip n.toNat)) (Avb.fread n) := by
  have h := bytes (f := f) (n := n) (B := nil) (k := fun a => (Pure.pure a : Rd Bytes)) fun _ => pure
  rw [cat_nil] at h
  have e : (Avb.fread n >>= fun a => (Pure.pure a : Rd Bytes)) = Avb.fread n := by
    funext bs
    rw [Rd.bind_apply]
    unfold Avb.fread
    by_cases hn : n < 0
    · simp [hn]
    · simp [hn]
  rwa [e] at h

theorem opt {b : Bool} (h : Reads true F r) : Reads true (opt b F) (Rd.opt b r) := by
  cases b
  · exact pure
  · exact h.map

theorem opt_gives {b : Bool} : Gives (Rd.opt b r) fun o => o.isSome = b := by
  intro bs v rest h _
  cases b
  · cases h; rfl
  · obtain ⟨a, m, _, h⟩ := Rd.bind_eq_ok' h
    cases h; rfl

theorem ref {d : RCtx} : Reads f (Fmt.ref d) (rRef d) := by
  unfold Fmt.ref rRef
  refine numP fun v l u => ?_
  have : (v.toNat < d.nobj) ↔ (v < (d.nobj : Int)) := by
    simp only [IntTy.lo, IntTy.signed] at l
    simp at l
    omega
  have e : (Rd.guard (v.toNat < d.nobj) .value) = Rd.guard (v < (d.nobj : Int)) .value := by
    funext bs
    rw [Rd.guard_apply, Rd.guard_apply]
    simp only [this]
  rw [e]
  exact only fun _ => pure

theorem decode_utf8_iff {p : Bytes} {t : Text} :
    decodeText .utf8 p = some t ↔ p = t.flatMap String.utf8EncodeChar := by
  constructor
  · intro h
    simp only [decodeText, Option.map_eq_some_iff] at h
    obtain ⟨arr, h1, rfl⟩ := h
    have h2 := ByteArray.utf8Encode_get_utf8Decode? (b := p.toByteArray) (h := by rw [h1]; rfl)
    simp only [h1, Option.get_some, List.utf8Encode] at h2
    exact (List.toByteArray_inj.1 h2).symm
  · rintro rfl
    exact decode_utf8 t

theorem dropWhile_zeros (bs : Bytes) : ∃ a, bs = List.replicate a 0 ++ bs.dropWhile (· == 0) := by
  induction bs with
  | nil => exact ⟨0, rfl⟩
  | cons b bs ih =>
    by_cases hb : b = 0
    · subst hb
      obtain ⟨a, ha⟩ := ih
      exact ⟨a + 1, by simp [List.replicate_succ]; exact ha⟩
    · exact ⟨0, by simp [hb]⟩

theorem stripNul_zeros (bs : Bytes) :
    ∃ a b, bs = List.replicate a 0 ++ stripNul bs ++ List.replicate b 0 := by
  obtain ⟨a, ha⟩ := dropWhile_zeros bs
  obtain ⟨b, hb⟩ := dropWhile_zeros (bs.dropWhile (· == 0)).reverse
  refine ⟨a, b, ?_⟩
  have := congrArg List.reverse hb
  rw [List.reverse_reverse, List.reverse_append, List.reverse_replicate] at this
  rw [List.append_assoc]
  unfold stripNul
  rw [← this]
  exact ha

theorem stripNul_surround (a b : Nat) (bs : Bytes) :
    stripNul (List.replicate a 0 ++ bs ++ List.replicate b 0) = stripNul bs := by
  rw [Fast.stripNul_append_zeros]
  unfold stripNul
  congr 3
  induction a with
  | zero => rfl
  | succ a ih => rw [List.replicate_succ, List.cons_append, List.dropWhile_cons_of_pos (by simp), ih]

theorem chars_iff {e : Enc} {p : Bytes} {n : Nat} :
    chars e n p ↔ p.length = n ∧ ∃ t, decodeText e (stripNul p) = some t := by
  cases e with
  | macroman => simp [chars, Fmt.skip, decodeText]
  | utf8 =>
    simp only [chars]
    refine and_congr_right fun _ => ?_
    constructor
    · rintro ⟨a, b, t, rfl⟩
      rw [stripNul_surround]
      exact ⟨stripText t, by rw [decode_utf8_iff, ← strip_flatMap_utf8]⟩
    · rintro ⟨t, ht⟩
      obtain ⟨a, b, h⟩ := stripNul_zeros p
      rw [decode_utf8_iff] at ht
      exact ⟨a, b, t, by rw [← ht]; exact h⟩

theorem text {bo : BO} {e : Enc} : Reads f (Fmt.text bo e) (rStr bo e) := by
  unfold Fmt.text rStr
  refine numP fun n l u => ?_
  have l' : 0 ≤ n := by simpa [IntTy.lo, IntTy.signed] using l
  have u' : n ≤ 65535 := by simpa [IntTy.hi, IntTy.signed, IntTy.width] using u
  by_cases hn : n = 65535
  · rw [if_pos hn, if_pos (by omega)]
    exact pure
  · rw [if_neg hn, if_neg (by omega)]
    constructor
    · intro bs v rest h hne
      obtain ⟨s, mid, e1, e2⟩ := Rd.bind_eq_ok' h
      have hm : mid = rest := by
        cases hd : decodeText e (stripNul s) with
        | none => rw [hd] at e2; cases e2
        | some t => rw [hd] at e2; cases e2; rfl
      subst hm
      obtain ⟨p, rfl, hp⟩ := (fread (f := true) l').fwd e1 hne
      have hs : s = p := by
        rw [fread_append (by simp only [Fmt.skip] at hp; omega)] at e1
        cases e1; rfl
      subst hs
      refine ⟨s, rfl, chars_iff.2 ⟨hp, ?_⟩⟩
      cases hd : decodeText e (stripNul s) with
      | none => rw [hd] at e2; cases e2
      | some t => exact ⟨t, rfl⟩
    · intro p rest h hne _
      obtain ⟨hl, t, ht⟩ := chars_iff.1 h
      refine ⟨t, ?_⟩
      rw [Rd.bind_ok (fread_append (by omega))]
      simp only [ht]
      rfl

theorem pow_small : ∀ e < 309, ¬ pow2 1024 ≤ rnd ((10 ^ e : Nat) : Rat) := by
  decide +kernel

theorem pow_large {e : Nat} (h : 309 ≤ e) : pow2 1024 ≤ rnd ((10 ^ e : Nat) : Rat) := by
  have h1 : 2 * (2 ^ 1024 + 1) ≤ 10 ^ 309 := by decide +kernel
  have h2 : 2 * (2 ^ 1024 + 1) ≤ 10 ^ e := h1.trans (Nat.pow_le_pow_right (by norm_num) h)
  have h3 : (2 : Rat) * (pow2 1024 + 1) ≤ ((10 ^ e : Nat) : Rat) := by
    have : pow2 1024 = ((2 ^ 1024 : Nat) : Rat) := rfl
    rw [this]
    exact_mod_cast h2
  have h4 := rnd_err ((10 ^ e : Nat) : Rat)
  have h5 : (0 : Rat) ≤ ((10 ^ e : Nat) : Rat) := Nat.cast_nonneg _
  generalize ((10 ^ e : Nat) : Rat) = x at h3 h4 h5
  generalize pow2 1024 = y at h3
  rw [abs_of_nonneg h5] at h4
  have h6 : eps ≤ 1 / 4 := by unfold eps; norm_num
  have h7 : tau ≤ 1 / 4 := by
    have := tau_le
    have : eps / 10 ^ 100 ≤ eps / 1 := by
      apply div_le_div_of_nonneg_left eps_pos.le (by norm_num) (by norm_num)
    linarith
  have h8 : x * eps ≤ x * (1 / 4) := mul_le_mul_of_nonneg_left h6 h5
  have h9 := (abs_le.1 h4).1
  linarith

theorem rate {bo : BO} : Reads f (Fmt.rate bo) (rRate bo) := by
  unfold Fmt.rate rRate
  simp only [seq_cons, seq_nil, num_cat, only_cat, nil_cat]
  refine bind int fun m => numP fun e l u => ?_
  have hk : (∃ r, decodeRate m e = .ok r) ↔ e ≤ 308 := by
    unfold decodeRate
    dsimp only
    by_cases he : 0 ≤ e
    · rw [if_pos he]
      by_cases h8 : e ≤ 308
      · rw [if_neg (pow_small _ (by omega))]
        simp [h8]
      · rw [if_pos (pow_large (by omega))]
        simp [h8]
    · rw [if_neg he]
      simp
      omega
  cases hd : decodeRate m e with
  | error err =>
    have : ¬ e ≤ 308 := fun h => by
      obtain ⟨r, hr⟩ := hk.2 h
      rw [hd] at hr
      cases hr
    exact { fwd := fun h => (nomatch h), bwd := fun h => absurd h.1 this }
  | ok r =>
    have : e ≤ 308 := hk.1 ⟨r, hd⟩
    have hp : Reads f nil (Pure.pure r : Rd Rate) := pure
    exact ⟨fun h1 h2 => by
      obtain ⟨p, h3, h4⟩ := hp.fwd h1 h2
      exact ⟨p, h3, this, h4⟩, fun h1 h2 h3 => hp.bwd h1.2 h2 h3⟩

theorem rect {bo : BO} : Reads f (Fmt.rect bo) (rRect bo) := by
  unfold Fmt.rect rRect Fmt.const
  simp only [seq_cons, seq_nil, num_cat, only_cat, nil_cat]
  exact num fun _ => only fun _ => bind int fun _ => bind int fun _ => bind int fun _ =>
    bind int fun _ => pure

theorem rgb {bo : BO} : Reads f (Fmt.rgb bo) (rRgb bo) := by
  unfold Fmt.rgb rRgb Fmt.const
  simp only [seq_cons, seq_nil, num_cat, only_cat, nil_cat]
  exact num fun _ => only fun _ => bind int fun _ => bind int fun _ => bind int fun _ => pure

theorem ofOption {o : Option α} {e : Err} (h : ∃ a, o = some a) : Reads f nil (Rd.ofOption o e) := by
  obtain ⟨a, rfl⟩ := h
  exact pure

theorem uuidOf_some {bo : BO} {b : Bytes} (h : b.length = 16) : ∃ u, uuidOf bo b = some u := by
  cases bo
  · simp [uuidOf, uuidOfBytesLE, uuidOfBytes, h, swapUuid_length h]
  · simp [uuidOf, uuidOfBytes, h]

theorem rawUuid {bo : BO} : Reads f (Fmt.skip 16) (rRawUuid bo) := by
  unfold rRawUuid
  have := bindP (f := f) (B := nil) (skip (n := 16)) (fread_gives (by omega))
    (k := fun d => Rd.ofOption (uuidOf bo d) .value) (fun a => by mono)
    (fun a ha => ofOption (uuidOf_some (by have h' : (a.length : Int) = 16 := ha; omega)))
  rwa [cat_nil] at this

theorem fourcc {bo : BO} : Reads f (Fmt.skip 4) (rFourcc bo) := by
  unfold rFourcc
  rw [← cat_nil (Fmt.skip 4)]
  refine bind (skip (n := 4)) fun a => ?_
  cases bo <;> exact pure

theorem uuid {bo : BO} : Reads f (Fmt.uuid bo) (rUuid bo) := by
  unfold Fmt.uuid rUuid Fmt.const
  simp only [seq_cons, seq_nil, num_cat, only_cat, nil_cat]
  refine bind (tag rfl) fun _ => ?_
  refine bindP (skip (n := 4)) (fread_gives (by omega)) (fun a => by mono) fun a ha => ?_
  refine bind (tag rfl) fun _ => ?_
  refine bindP (skip (n := 2)) (fread_gives (by omega)) (fun a => by mono) fun b hb => ?_
  refine bind (tag rfl) fun _ => ?_
  refine bindP (skip (n := 2)) (fread_gives (by omega)) (fun a => by mono) fun c hc => ?_
  refine bind (tag rfl) fun _ => ?_
  refine num fun n => only fun _ => ?_
  refine bindP (skip (n := 8)) (fread_gives (by omega)) (fun a => by mono) fun d hd => ?_
  exact ofOption (uuidOf_some (by simp; omega))

theorem readN_gives {n : Nat} : Gives (readN n r) fun l => l.length = n :=
  fun h _ => readN_length h

theorem rep_skip (n : Nat) : Fmt.rep n (Fmt.skip 1) = Fmt.skip n := by
  induction n with
  | zero => funext p; simp [Fmt.rep, Fmt.skip, nil]
  | succ n ih =>
    rw [rep_succ, ih]
    funext p
    apply propext
    constructor
    · rintro ⟨a, b, rfl, ha, hb⟩
      simp only [Fmt.skip] at *
      simp
      omega
    · intro h
      simp only [Fmt.skip] at h
      refine ⟨p.take 1, p.drop 1, (List.take_append_drop 1 p).symm, ?_, ?_⟩ <;> simp [Fmt.skip] <;> omega

theorem mk'_some {a : List UInt8} (l h m lo : UInt8) (u : UUID) (ha : a.length = 12) :
    ∃ x, MobID.mk' a l h m lo u = some x := by
  have : (a ++ [l, h, m, lo] ++ u.bytesLE).length = 32 := by
    have := swapUuid_length u.len
    simp only [UUID.bytesLE, List.length_append, this, ha, List.length_cons, List.length_nil]
  unfold MobID.mk'
  dsimp only
  rw [dif_pos this]
  exact ⟨_, rfl⟩

theorem mobId {bo : BO} : Reads f (Fmt.mobId bo) (rMobId bo) := by
  unfold Fmt.mobId rMobId Fmt.const
  simp only [seq_cons, seq_nil, num_cat, only_cat, nil_cat]
  refine bind (tag rfl) fun _ => num fun n => only fun _ => ?_
  rw [← rep_skip 12]
  refine bindP (rep uByte) readN_gives (fun a => by mono) fun a ha => ?_
  refine bind (tag rfl) fun _ => bind uByte fun _ => bind (tag rfl) fun _ => bind uByte fun _ =>
    bind (tag rfl) fun _ => bind uByte fun _ => bind (tag rfl) fun _ => bind uByte fun _ =>
    bind uuid fun _ => ?_
  exact ofOption (mk'_some _ _ _ _ _ ha)

theorem lit {b : Bytes} {e : Err} {k : Unit → Rd β} (h : Reads f B (k ())) :
    Reads f (cat (Fmt.lit b) B)
      (Avb.fread (b.length : Int) >>= fun x => Rd.guard (x = b) e >>= k) where
  fwd h1 hne := by
    obtain ⟨x, mid, e1, e2⟩ := Rd.bind_eq_ok' h1
    obtain ⟨_, mid', e2, e3⟩ := Rd.bind_eq_ok' e2
    rw [Rd.guard_apply] at e2
    split at e2
    · cases e2
      obtain ⟨q, rfl, hq⟩ := h.fwd e3 hne
      obtain ⟨p, rfl, hp⟩ := (skip (f := true)).fwd e1 (by simp [hne])
      rw [fread_append (by simp only [Fmt.skip] at hp; omega)] at e1
      cases e1
      rename_i hx
      subst hx
      exact ⟨_ ++ q, by simp, _, q, rfl, rfl, hq⟩
    · cases e2
  bwd h1 hne hf := by
    obtain ⟨p, q, rfl, rfl, hq⟩ := h1
    obtain ⟨v, e⟩ := h.bwd hq hne hf
    exact ⟨v, by
      rw [List.append_assoc, Rd.bind_ok (fread_append rfl), Rd.bind_ok (by rw [Rd.guard_apply, if_pos rfl]), e]⟩

end Reads

/-- The body of the loop over optional fields takes exactly the announced fields. -/
def ExtOK {σ : Type} (alts : List (UInt8 × Fmt)) (B : Int → Rd σ) : Prop :=
  (∀ t F, (t, F) ∈ alts → Reads true F (B (t.toNat : Int))) ∧
    ∀ t : UInt8, (∀ F, (t, F) ∉ alts) → ∀ bs v, B (t.toNat : Int) bs ≠ .ok v

namespace ExtOK

variable {σ : Type}

theorem nil {e : Err} : ExtOK [] (fun _ => (Rd.fail e : Rd σ)) :=
  ⟨fun _ _ h => (nomatch h), fun _ _ _ _ h => (nomatch h)⟩

theorem cons {c : Int} {t : UInt8} {F : Fmt} {alts : List (UInt8 × Fmt)} {R : Rd σ} {B : Int → Rd σ}
    (hc : c = (t.toNat : Int)) (hn : ∀ p ∈ alts, p.1 ≠ t) (hR : Reads true F R) (hB : ExtOK alts B) :
    ExtOK ((t, F) :: alts) (fun tag => if tag = c then R else B tag) := by
  constructor
  · intro t' F' h
    rcases List.mem_cons.1 h with h | h
    · cases h
      beta_reduce
      rw [if_pos hc.symm]
      exact hR
    · have : t' ≠ t := hn _ h
      beta_reduce
      rw [if_neg (fun h' => this (UInt8.toNat_inj.1 (by omega)))]
      exact hB.1 _ _ h
  · intro t' h bs v
    have hne : t' ≠ t := by
      rintro rfl
      exact h F (by simp)
    show (if (t'.toNat : Int) = c then R else B (t'.toNat : Int)) bs ≠ _
    rw [if_neg (fun h' => hne (UInt8.toNat_inj.1 (by omega)))]
    exact hB.2 t' (fun F' h' => h F' (List.mem_cons_of_mem _ h')) bs v

end ExtOK

theorem Reads.iterP {σ : Type} {alts : List (UInt8 × Fmt)} {body : Int → σ → Rd σ} {I : σ → Prop}
    (h : ∀ s, I s → ExtOK alts fun t => body t s)
    (hI : ∀ s t bs s' rest, I s → body t s bs = .ok (s', rest) → I s') {s : σ} (hs : I s) :
    Reads false (ext alts) (iterExt body s) where
  fwd {bs v rest} h1 hne := by
    generalize hn : bs.length = n
    induction n using Nat.strong_induction_on generalizing bs s with
    | _ n ih =>
      unfold iterExt at h1
      match bs with
      | [] => cases h1
      | b :: bs1 =>
        simp only at h1
        split at h1
        · cases h1
          exact ⟨[], rfl, .done⟩
        · rename_i hb
          have hb : b = 1 := by simpa using hb
          subst hb
          match bs1 with
          | [] => cases h1
          | tag :: bs2 =>
            simp only at h1
            cases hbd : body tag.toNat s bs2 with
            | error e => rw [hbd] at h1; cases h1
            | ok w =>
              obtain ⟨s', r'⟩ := w
              rw [hbd] at h1
              simp only at h1
              split at h1
              · rename_i hl
                obtain ⟨q, rfl, hq⟩ := ih r'.length (by simp at hn; omega) (hI _ _ _ _ _ hs hbd) h1 rfl
                obtain ⟨F, hF⟩ : ∃ F, (tag, F) ∈ alts := by
                  apply Classical.byContradiction
                  intro hcon
                  exact (h s hs).2 tag (fun F hF => hcon ⟨F, hF⟩) bs2 _ hbd
                obtain ⟨p, rfl, hp⟩ := ((h s hs).1 tag F hF).fwd hbd (by simp [hne])
                exact ⟨1 :: tag :: (p ++ q), by simp, .field hF hp hq⟩
              · cases h1
  bwd {p rest} h1 hne hf := by
    have hf := hf rfl
    induction h1 generalizing s with
    | done =>
      match rest, hne, hf with
      | b :: tl, _, hf => exact ⟨s, iterExt_stop (by simpa using hf)⟩
    | @field tag F p q hF hp hq ih =>
      obtain ⟨s', e⟩ := ((h s hs).1 tag F hF).bwd (rest := q ++ rest) hp (by simp [hne]) (by simp)
      obtain ⟨v, e2⟩ := ih (hI _ _ _ _ _ hs e)
      refine ⟨v, ?_⟩
      rw [← e2]
      simp only [List.cons_append, List.append_assoc]
      exact iterExt_item e

theorem Reads.iter {σ : Type} {alts : List (UInt8 × Fmt)} {body : Int → σ → Rd σ}
    (h : ∀ s, ExtOK alts fun t => body t s) {s : σ} : Reads false (ext alts) (iterExt body s) :=
  Reads.iterP (I := fun _ => True) (fun s _ => h s) (fun _ _ _ _ _ _ _ => trivial) trivial

/-- A reader that ends by itself and takes exactly the format, given the bytes alone. -/
theorem Reads.whole {F : Fmt} {r : Rd α} (h : Reads true F r) (hs : Strict r) (bs : Bytes) :
    (∃ v, r bs = .ok (v, [])) ↔ F bs := by
  constructor
  · rintro ⟨v, e⟩
    obtain ⟨p, hp, e2⟩ := h.fwd (hs.more e [0]) (by simp)
    rw [List.append_cancel_right hp]
    exact e2
  · intro hF
    obtain ⟨v, e⟩ := h.bwd (rest := [0]) hF (by simp) (by simp)
    obtain ⟨p, _, hp, e2⟩ := hs _ _ _ e
    have := List.append_cancel_right hp
    subst this
    exact ⟨v, by simpa using e2 []⟩

theorem Reads.as {f : Bool} {F : Fmt} {r : Rd α} {g : α → Obj} (h : Reads f F r) :
    Reads f F (r.as g) := h.map

theorem Rd.assoc {γ : Type} {r : Rd α} {k : α → Rd β} {g : β → Rd γ} :
    ((r >>= k) >>= g) = r >>= fun a => k a >>= g := by
  funext bs
  simp only [Rd.bind_apply]
  cases r bs <;> rfl

theorem Rd.pure_next {a : α} {k : α → Rd β} : ((Pure.pure a : Rd α) >>= k) = k a := rfl

theorem Rd.ite_next {c : Prop} [Decidable c] {r s : Rd α} {k : α → Rd β} :
    ((if c then r else s) >>= k) = if c then r >>= k else s >>= k := by
  split <;> rfl

instance {bo : BO} {t : IntTy} : IsReads true (int t) (rInt bo t) := ⟨Reads.int⟩
instance : IsReads true (int .u8) rU8 := ⟨Reads.int⟩
instance : IsReads true (int .s8) rS8 := ⟨Reads.int⟩
instance : IsReads true Fmt.bool rBool := ⟨Reads.boolean⟩
instance : IsReads true (skip 8) rDouble := ⟨Reads.double⟩
instance {bo : BO} : IsReads true (int .u32) (rDate bo) := ⟨Reads.date⟩
instance {d : RCtx} : IsReads true (Fmt.ref d) (rRef d) := ⟨Reads.ref⟩
instance {bo : BO} {e : Enc} : IsReads true (Fmt.text bo e) (rStr bo e) := ⟨Reads.text⟩
instance {bo : BO} : IsReads true (Fmt.rate bo) (rRate bo) := ⟨Reads.rate⟩
instance {bo : BO} : IsReads true (Fmt.rect bo) (rRect bo) := ⟨Reads.rect⟩
instance {bo : BO} : IsReads true (Fmt.rgb bo) (rRgb bo) := ⟨Reads.rgb⟩
instance {bo : BO} : IsReads true (skip 16) (rRawUuid bo) := ⟨Reads.rawUuid⟩
instance {bo : BO} : IsReads true (skip 4) (rFourcc bo) := ⟨Reads.fourcc⟩
instance {bo : BO} : IsReads true (Fmt.mobId bo) (rMobId bo) := ⟨Reads.mobId⟩
instance : IsReads true (skip 6) (fread 6) := ⟨Reads.skip (n := 6)⟩
instance : IsReads true (skip 8) (fread 8) := ⟨Reads.skip (n := 8)⟩
instance {F : Fmt} {r : Rd α} {b : Bool} [h : IsReads true F r] : IsReads true (Fmt.opt b F) (Rd.opt b r) :=
  ⟨h.h.opt⟩

namespace Reads

variable {f : Bool} {B : Fmt}

/-- Data of announced size, checked to be complete. -/
theorem freadChecked {n : Int} {e : Err} {k : Bytes → Rd β} (hn : 0 ≤ n) (h : ∀ a, Reads f B (k a)) :
    Reads f (cat (Fmt.skip n.toNat) B)
      (Avb.fread n >>= fun x => Rd.guard ((x.length : Int) = n) e >>= fun _ => k x) where
  fwd h1 hne := by
    obtain ⟨x, mid, e1, e2⟩ := Rd.bind_eq_ok' h1
    obtain ⟨_, mid', e2, e3⟩ := Rd.bind_eq_ok' e2
    rw [Rd.guard_apply] at e2
    split at e2
    · cases e2
      exact (bind (fread hn) h).fwd (by rw [Rd.bind_ok e1]; exact e3) hne
    · cases e2
  bwd h1 hne hf := by
    obtain ⟨p, q, rfl, hp, hq⟩ := h1
    obtain ⟨v, e⟩ := (h p).bwd hq hne hf
    simp only [Fmt.skip] at hp
    exact ⟨v, by
      rw [List.append_assoc, Rd.bind_ok (fread_append (by omega)),
        Rd.bind_ok (by rw [Rd.guard_apply, if_pos (by omega)]), e]⟩

theorem lit4 {b : Bytes} {e : Err} {k : Unit → Rd β} (hb : b.length = 4) (h : Reads f B (k ())) :
    Reads f (cat (Fmt.lit b) B) (Avb.fread 4 >>= fun x => Rd.guard (x = b) e >>= k) := by
  have := lit (f := f) (e := e) (b := b) h
  rw [hb] at this
  exact this

/-- A boolean that must be true. -/
theorem isTrue {e : Err} {k : Rd β} (h : Reads f B k) :
    Reads f (cat (byte 1) B) (rBool >>= fun b => Rd.guard (b = true) e >>= fun _ => k) := by
  have e1 : (rBool >>= fun b => Rd.guard (b = true) e >>= fun _ => k) =
      rU8 >>= fun v => Rd.guard (v = 1) e >>= fun _ => k := by
    unfold rBool
    rw [Rd.assoc]
    congr 1
    funext v
    rw [Rd.pure_next]
    have : ((v == 1) = true) ↔ v = 1 := beq_iff_eq
    funext bs
    simp only [Rd.bind_apply, Rd.guard_apply, this]
  rw [e1]
  have := bind (f := f) (tag (f := true) (t := 1) (b := 1) rfl) fun _ => h
  refine ⟨fun {bs v rest} h1 h2 => ?_, fun {p rest} h1 h2 h3 => ?_⟩
  · obtain ⟨x, mid, e1, e2⟩ := Rd.bind_eq_ok' h1
    obtain ⟨_, mid', e2, e3⟩ := Rd.bind_eq_ok' e2
    rw [Rd.guard_apply] at e2
    split at e2
    · rename_i hx
      cases e2
      refine this.fwd (v := v) ?_ h2
      rw [Rd.bind_ok (a := ()) (rest := mid), e3]
      unfold rTag
      rw [Rd.bind_ok e1, Rd.guard_apply, if_pos hx]
    · cases e2
  · obtain ⟨v, e2⟩ := this.bwd h1 h2 h3
    refine ⟨v, ?_⟩
    obtain ⟨_, mid, e3, e4⟩ := Rd.bind_eq_ok' e2
    unfold rTag at e3
    obtain ⟨x, mid', e5, e6⟩ := Rd.bind_eq_ok' e3
    rw [Rd.guard_apply] at e6
    split at e6
    · rename_i hx
      cases e6
      rw [Rd.bind_ok e5, Rd.bind_ok (by rw [Rd.guard_apply, if_pos hx]), e4]
    · cases e6

/-- Text of announced size. -/
theorem utf8 {n : Int} {e : Err} {k : Text → Rd β} (h : ∀ a, Reads f B (k a)) :
    Reads f (Fmt.only (0 ≤ n) (cat (Fmt.utf8 n.toNat) B))
      (Avb.fread n >>= fun x => Rd.ofOption (decodeText .utf8 x) e >>= k) where
  fwd {bs v rest} h1 hne := by
    obtain ⟨x, mid, e1, e2⟩ := Rd.bind_eq_ok' h1
    cases hd : decodeText .utf8 x with
    | none => rw [hd] at e2; cases e2
    | some t =>
      rw [hd] at e2
      obtain ⟨q, rfl, hq⟩ := (h t).fwd e2 hne
      by_cases hn : 0 ≤ n
      · obtain ⟨p, rfl, hp⟩ := (fread (f := true) hn).fwd e1 (by simp [hne])
        rw [fread_append (by simp only [Fmt.skip] at hp; omega)] at e1
        cases e1
        exact ⟨x ++ q, by simp, hn, x, q, rfl, ⟨hp, t, decode_utf8_iff.1 hd⟩, hq⟩
      · unfold Avb.fread at e1
        rw [if_pos (by omega)] at e1
        injection e1 with e1
        injection e1 with _ e1
        have := congrArg List.length e1
        have := List.length_pos_iff.2 hne
        simp at *
        omega
  bwd h1 hne hf := by
    obtain ⟨hn, p, q, rfl, ⟨hl, t, ht⟩, hq⟩ := h1
    obtain ⟨v, e⟩ := (h t).bwd hq hne hf
    exact ⟨v, by
      rw [List.append_assoc, Rd.bind_ok (fread_append (by omega)), decode_utf8_iff.2 ht]
      exact e⟩

end Reads

theorem iterExt_inv {σ : Type} {body : Int → σ → Rd σ} {I : σ → Prop}
    (hI : ∀ s t bs s' rest, I s → body t s bs = .ok (s', rest) → I s') {s : σ} (hs : I s) {bs rest : Bytes}
    {v : σ} (h : iterExt body s bs = .ok (v, rest)) : I v := by
  generalize hn : bs.length = n
  induction n using Nat.strong_induction_on generalizing bs s with
  | _ n ih =>
    unfold iterExt at h
    match bs with
    | [] => cases h
    | b :: bs1 =>
      simp only at h
      split at h
      · cases h
        exact hs
      · match bs1 with
        | [] => cases h
        | tag :: bs2 =>
          simp only at h
          cases hbd : body tag.toNat s bs2 with
          | error e => rw [hbd] at h; cases h
          | ok w =>
            obtain ⟨s', r'⟩ := w
            rw [hbd] at h
            simp only at h
            split at h
            · exact ih r'.length (by simp at hn; omega) (hI _ _ _ _ _ hs hbd) h rfl
            · cases h

/-- Brings a format to the form the steps below work on. -/
syntax "fmt_norm" "[" Lean.Parser.Tactic.simpLemma,* "]" : tactic
macro_rules
  | `(tactic| fmt_norm [$l,*]) => `(tactic| simp only [$l,*, Fmt.const, Fmt.many, Fmt.counted, Fmt.blob,
      Fmt.bytes, seq_cons, seq_nil, cat_assoc, num_cat, only_cat, nil_cat, never_cat, ite_cat, Rd.assoc,
      Rd.pure_next, Rd.ite_next])

/-- One step through a reader and its format. -/
macro "reads_step" : tactic => `(tactic| first
  | exact Reads.pure
  | exact Reads.fail
  | exact ExtOK.nil
  | refine ExtOK.cons rfl (by simp) ?_ ?_
  | intro _
  | refine Reads.ite (fun _ => ?_) (fun _ => ?_)
  | refine Reads.bind (Reads.tag rfl) fun _ => ?_
  | refine Reads.numP fun _ _ _ => ?_
  | refine Reads.only fun _ => ?_
  | refine Reads.bytes fun _ => ?_
  | refine Reads.freadChecked (by assumption) fun _ => ?_
  | refine Reads.lit4 rfl ?_
  | refine Reads.isTrue ?_
  | refine Reads.utf8 fun _ => ?_
  | refine Reads.bind (Reads.fread (by assumption)) fun _ => ?_
  | refine Reads.bind IsReads.h fun _ => ?_
  | refine Reads.ext' IsReads.h (by decide) fun _ => ?_
  | refine Reads.bind (Reads.rep ?_) fun _ => ?_
  | refine Reads.ext' (Reads.iter fun _ => ?_) (by decide) fun _ => ?_
  | refine Reads.last ?_
  | exact IsReads.h
  | exact Reads.weaken IsReads.h
  | refine Reads.iter fun _ => ?_
  | refine Reads.rep ?_)

/-- Walks through a reader and its format; the definitions given are unfolded. -/
syntax "reads" "[" Lean.Parser.Tactic.simpLemma,* "]" : tactic
macro_rules
  | `(tactic| reads [$l,*]) => `(tactic| (fmt_norm [$l,*]; repeat' first | reads_step | fmt_norm [$l,*]))

end Avb

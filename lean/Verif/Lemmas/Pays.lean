import Verif.Lemmas.Loaded
import Verif.Lemmas.Mono
import Verif.Spec.Size

/-
What a reader gives is no larger than the bytes it passed.
-/

namespace Avb

variable {α β σ : Type}

/-- What the reader gives, measured by `s`, and what it leaves are together no larger than what it was
given, apart from a credit. -/
def Pays (c : Nat) (r : Rd α) (s : α → Nat) : Prop :=
  ∀ bs v rest, r bs = .ok (v, rest) → s v + rest.length ≤ bs.length + c

theorem size_int (v : Int) : size v = 0 := rfl
theorem size_nat (v : Nat) : size v = 0 := rfl
theorem size_bool (v : Bool) : size v = 0 := rfl
theorem size_rate (v : Rate) : size v = 0 := rfl
theorem size_f64 (v : F64) : size v = 0 := rfl
theorem size_uuid (v : UUID) : size v = 0 := rfl
theorem size_mobid (v : MobID) : size v = 0 := rfl
theorem size_rect (v : Rect) : size v = 0 := rfl
theorem size_rgb (v : RGB) : size v = 0 := rfl
theorem size_pval (v : PVal) : size v = 0 := rfl
theorem size_unit (v : Unit) : size v = 0 := rfl
theorem size_u8 (v : UInt8) : size v = 0 := rfl
theorem size_pair [Size α] [Size β] (a : α) (b : β) : size (a, b) = size a + size b := rfl
theorem size_none [Size α] : size (none : Option α) = 0 := rfl
theorem size_some [Size α] (a : α) : size (some a) = size a := rfl
theorem size_nil [Size α] : size ([] : List α) = 0 := rfl
theorem size_cons [Size α] (a : α) (l : List α) : size (a :: l) = size a + 1 + size l := by
  show (a :: l).length + ((a :: l).map size).sum = size a + 1 + (l.length + (l.map size).sum)
  simp
  omega
theorem size_append [Size α] (a b : List α) : size (a ++ b) = size a + size b := by
  show (a ++ b).length + ((a ++ b).map size).sum =
    a.length + (a.map size).sum + (b.length + (b.map size).sum)
  simp
  omega
theorem size_attr_int (v : Int) : size (AttrVal.int v) = 0 := rfl
theorem size_attr_str (v : Text) : size (AttrVal.str v) = size v := rfl
theorem size_attr_obj (v : Ref) : size (AttrVal.obj v) = 0 := rfl
theorem size_attr_bob (v : Bytes) : size (AttrVal.bob v) = size v := rfl
theorem size_attr_raw (v : Bytes) : size (AttrVal.raw v) = size v := rfl

theorem size_flat [Size α] (h : ∀ a : α, size a = 0) : ∀ l : List α, size l = l.length
  | [] => rfl
  | a :: l => by rw [size_cons, size_flat h l, h a]; simp; omega

theorem size_bytes (b : Bytes) : size b = b.length := size_flat (fun _ => rfl) b
theorem size_text (t : Text) : size t = t.length := size_flat (fun _ => rfl) t
theorem size_orNone (t : Text) : size (orNone t) = size t := by
  unfold orNone
  split
  · rename_i h; rw [h]; rfl
  · rfl

/-- Lists of numbers of some kind hold one unit per element. -/
theorem size_points (l : List (Int × Int)) : size l = l.length := size_flat (fun _ => rfl) l

theorem Pays.pure {c : Nat} {v : α} {s : α → Nat} (h : s v ≤ c) : Pays c (pure v : Rd α) s := by
  intro bs v rest hr
  cases hr
  omega

theorem Pays.fail {c : Nat} {e : Err} {s : α → Nat} : Pays c (Rd.fail e : Rd α) s := by
  intro bs v rest hr
  cases hr

theorem Pays.last {c : Nat} {r : Rd α} {s1 s : α → Nat} (h : Pays 0 r s1) (hs : ∀ v, s v ≤ s1 v + c) :
    Pays c r s := by
  intro bs v rest hr
  have := h _ _ _ hr
  have := hs v
  omega

theorem Pays.bind {c : Nat} {r : Rd α} {k : α → Rd β} {s1 : α → Nat} {s : β → Nat} (h1 : Pays 0 r s1)
    (h2 : ∀ a, Pays (c + s1 a) (k a) s) : Pays c (r >>= k) s := by
  intro bs v rest hr
  obtain ⟨a, mid, e1, e2⟩ := Rd.bind_eq_ok' hr
  have := h1 _ _ _ e1
  have := h2 _ _ _ _ e2
  omega

theorem Pays.ite {c : Nat} {p : Prop} [Decidable p] {r1 r2 : Rd α} {s : α → Nat} (h1 : Pays c r1 s)
    (h2 : Pays c r2 s) : Pays c (if p then r1 else r2) s := by
  split
  · exact h1
  · exact h2

theorem Pays.readN [Size α] {r : Rd α} {s : α → Nat} (h : Pays 0 r s) (hs : ∀ v, size v + 1 ≤ s v) :
    ∀ n, Pays 0 (readN n r) size
  | 0 => Pays.pure (Nat.le_of_eq size_nil)
  | n + 1 => by
    refine Pays.bind h fun a => Pays.bind (Pays.readN h hs n) fun l => Pays.pure ?_
    have := hs a
    rw [size_cons]
    omega

theorem Pays.opt [Size α] {p : Bool} {r : Rd α} {s : α → Nat} (h : Pays 0 r s) (hs : ∀ v, size v ≤ s v) :
    Pays 0 (Rd.opt p r) size := by
  unfold Rd.opt
  split
  · refine Pays.bind h fun a => Pays.pure ?_
    have := hs a
    rw [size_some]
    omega
  · exact Pays.pure (Nat.le_of_eq size_none)

/-- A loop over the optional parts. -/
theorem Pays.iterExt [Size σ] {body : Int → σ → Rd σ} (h : ∀ t s, Pays (size s) (body t s) size) :
    ∀ s, Pays (size s) (iterExt body s) size := by
  intro s bs
  induction hn : bs.length using Nat.strongRecOn generalizing bs s with
  | _ n ih =>
  intro v rest hr
  unfold Avb.iterExt at hr
  match bs, hn, hr with
  | [], _, hr => cases hr
  | b :: bs1, hn, hr =>
    dsimp only at hr
    by_cases hb : b ≠ 1
    · rw [if_pos hb] at hr
      cases hr
      omega
    · rw [if_neg hb] at hr
      match bs1, hn, hr with
      | [], _, hr => cases hr
      | tag :: bs2, hn, hr =>
        dsimp only at hr
        match hbody : body tag.toNat s bs2, hr with
        | .error e, hr => cases hr
        | .ok (s', rest'), hr =>
          dsimp only at hr
          split at hr
          · have h1 := h _ _ _ _ _ hbody
            simp only [List.length_cons] at hn
            have h2 := ih _ (by omega) s' rest' rfl v rest hr
            omega
          · cases hr

/-- Readers already treated. -/
class IsPays {α : Type} (r : Rd α) (s : outParam (α → Nat)) : Prop where
  h : Pays 0 r s

/-- Loop bodies already treated. -/
class IsPaysExt {σ : Type} [Size σ] (b : Int → σ → Rd σ) : Prop where
  h : ∀ t s, Pays (size s) (b t s) size

theorem Pays.bindExt [Size σ] {c : Nat} {b : Int → σ → Rd σ} [hb : IsPaysExt b] {s0 : σ} {k : σ → Rd β}
    {s : β → Nat} (h0 : size s0 ≤ c) (h2 : ∀ a, Pays (c - size s0 + size a) (k a) s) :
    Pays c (Avb.iterExt b s0 >>= k) s := by
  intro bs v rest hr
  obtain ⟨a, mid, e1, e2⟩ := Rd.bind_eq_ok' hr
  have := Pays.iterExt hb.h s0 _ _ _ e1
  have := h2 _ _ _ _ e2
  omega

theorem Pays.lastExt [Size σ] {c : Nat} {b : Int → σ → Rd σ} [hb : IsPaysExt b] {s0 : σ} {s : σ → Nat}
    (h0 : size s0 ≤ c) (hs : ∀ v, s v ≤ size v + (c - size s0)) :
    Pays c (Avb.iterExt b s0) s := by
  intro bs v rest hr
  have := Pays.iterExt hb.h s0 _ _ _ hr
  have := hs v
  omega

theorem Pays.int {bo : BO} {t : IntTy} : Pays 0 (rInt bo t) (fun _ => t.width) := by
  intro bs v rest h
  unfold rInt at h
  split at h
  · cases h
  · cases h
    rw [List.length_drop]
    dsimp only
    omega

theorem Pays.fread {n : Int} : Pays 0 (fread n) size := by
  intro bs v rest h
  rw [size_bytes]
  unfold Avb.fread at h
  split at h
  · cases h; simp
  · cases h
    rw [List.length_take, List.length_drop]
    omega

theorem Pays.guard {p : Prop} [Decidable p] {e : Err} : Pays 0 (Rd.guard p e) (fun _ => 0) := by
  intro bs v rest h
  unfold Rd.guard at h
  split at h
  · cases h; simp
  · cases h

theorem Pays.ofOption {o : Option α} {e : Err} : Pays 0 (Rd.ofOption o e) (fun _ => 0) := by
  cases o
  · exact Pays.fail
  · exact Pays.pure (Nat.le_refl _)

theorem Pays.tag {t : Int} : Pays 0 (rTag t) (fun _ => 1) :=
  Pays.bind Pays.int fun _ => Pays.last Pays.guard fun _ => by simp [IntTy.width]

instance {bo : BO} {t : IntTy} : IsPays (rInt bo t) (fun _ => t.width) := ⟨Pays.int⟩
instance {n : Int} : IsPays (fread n) size := ⟨Pays.fread⟩
instance {p : Prop} [Decidable p] {e : Err} : IsPays (Rd.guard p e) (fun _ => 0) := ⟨Pays.guard⟩
instance {o : Option α} {e : Err} : IsPays (Rd.ofOption o e) (fun _ => 0) := ⟨Pays.ofOption⟩
instance {t : Int} : IsPays (rTag t) (fun _ => 1) := ⟨Pays.tag⟩

theorem utf8Decode_length {b : Bytes} {a : Array Char} (h : b.toByteArray.utf8Decode? = some a) :
    a.size ≤ b.length := by
  have h2 := ByteArray.utf8Encode_get_utf8Decode? (b := b.toByteArray) (h := by rw [h]; rfl)
  simp only [h, Option.get_some, List.utf8Encode] at h2
  rw [← List.toByteArray_inj.1 h2]
  have key : ∀ l : Text, l.length ≤ (l.flatMap String.utf8EncodeChar).length := by
    intro l
    induction l with
    | nil => simp
    | cons c l ih =>
      have : 0 < (String.utf8EncodeChar c).length := by
        rw [String.length_utf8EncodeChar]
        exact c.utf8Size_pos
      simp only [List.length_cons, List.flatMap_cons, List.length_append]
      omega
  simpa using key a.toList

theorem decodeText_length {e : Enc} {b : Bytes} {t : Text} (h : decodeText e b = some t) :
    t.length ≤ b.length := by
  unfold decodeText at h
  cases e with
  | macroman => cases h; simp
  | utf8 =>
    obtain ⟨a, ha, rfl⟩ := Option.map_eq_some_iff.1 h
    simpa using utf8Decode_length ha

theorem rStr_pays {bo : BO} {e : Enc} : Pays 0 (rStr bo e) (fun t => size t + 1) := by
  unfold rStr
  refine Pays.bind Pays.int fun n => Pays.ite (Pays.pure ?_) (Pays.bind Pays.fread fun b => ?_)
  · simp [size_nil, IntTy.width]
  · split
    · rename_i t h
      refine Pays.pure ?_
      have h1 := decodeText_length h
      have h2 := stripNul_length b
      rw [size_text, size_bytes]
      simp only [IntTy.width]
      omega
    · exact Pays.fail

instance {bo : BO} {e : Enc} : IsPays (rStr bo e) (fun t => size t + 1) := ⟨rStr_pays⟩

/-- Walk through a reader, keeping what is known about sizes. -/
macro "pays_walk" : tactic => `(tactic| repeat' with_reducible first
  | exact Pays.fail
  | refine Pays.bind (Pays.readN IsPays.h (fun _ => ?_) _) fun _ => ?_
  | refine Pays.bind (Pays.opt IsPays.h (fun _ => ?_)) fun _ => ?_
  | refine Pays.bind IsPays.h fun _ => ?_
  | refine Pays.bindExt ?_ fun _ => ?_
  | refine Pays.lastExt ?_ fun _ => ?_
  | refine Pays.last (Pays.readN IsPays.h (fun _ => ?_) _) fun _ => ?_
  | refine Pays.last IsPays.h fun _ => ?_
  | refine Pays.ite ?_ ?_
  | refine Pays.pure ?_
  | split)

end Avb

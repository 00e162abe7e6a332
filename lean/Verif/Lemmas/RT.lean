import Verif.Model.IOCtx
import Verif.Lemmas.Text

/-
Compositional round-trip predicates for writer/reader pairs.
-/

namespace Avb

/-- The unread bytes start with a byte other than the extension marker `0x01`. -/
def Follow (bs : Bytes) : Prop := ∃ b tl, bs = b :: tl ∧ b ≠ 1

/-- Whenever the writer succeeds, the reader gets `v` back from its output followed by any `rest`
satisfying `F`, and stops exactly at `rest`. -/
def RTF {α : Type} (F : Bytes → Prop) (w : Wr Unit) (r : Rd α) (v : α) : Prop :=
  ∀ bs, w = .ok ((), bs) → ∀ rest, F rest → r (bs ++ rest) = .ok (v, rest)

/-- Round trip whatever follows. -/
abbrev RT {α : Type} (w : Wr Unit) (r : Rd α) (v : α) : Prop := RTF (fun _ => True) w r v

/-- Round trip when the following byte is not an extension marker. -/
abbrev RTN {α : Type} (w : Wr Unit) (r : Rd α) (v : α) : Prop := RTF Follow w r v

/-- The output of the writer starts with a byte other than `0x01`. -/
def Starts (w : Wr Unit) : Prop := ∀ bs, w = .ok ((), bs) → Follow bs

/-- Extension items written by `w` take the extension loop from state `s` to state `s'`. -/
def RTX {σ : Type} (w : Wr Unit) (body : Int → σ → Rd σ) (s s' : σ) : Prop :=
  ∀ bs, w = .ok ((), bs) → ∀ rest, iterExt body s (bs ++ rest) = iterExt body s' rest

variable {α β σ : Type} {F : Bytes → Prop}

theorem RT.weaken {w : Wr Unit} {r : Rd α} {v : α} (h : RT w r v) : RTF F w r v :=
  fun bs hbs rest _ => h bs hbs rest trivial

theorem RT.bind {w1 w2 : Wr Unit} {r1 : Rd α} {k : α → Rd β} {v1 : α} {v : β}
    (h1 : RT w1 r1 v1) (h2 : RTF F w2 (k v1) v) :
    RTF F (w1 >>= fun _ => w2) (r1 >>= k) v := by
  intro bs hbs rest hF
  obtain ⟨a, o1, o2, e1, e2, rfl⟩ := Wr.bind_eq_ok hbs
  rw [List.append_assoc, Rd.bind_ok (h1 o1 e1 _ trivial)]
  exact h2 o2 e2 rest hF

theorem RTN.bind {w1 w2 : Wr Unit} {r1 : Rd α} {k : α → Rd β} {v1 : α} {v : β}
    (h1 : RTN w1 r1 v1) (hs : Starts w2) (h2 : RTF F w2 (k v1) v) :
    RTF F (w1 >>= fun _ => w2) (r1 >>= k) v := by
  intro bs hbs rest hF
  obtain ⟨a, o1, o2, e1, e2, rfl⟩ := Wr.bind_eq_ok hbs
  have hf : Follow (o2 ++ rest) := by
    obtain ⟨b, tl, rfl, hb⟩ := hs o2 e2
    exact ⟨b, tl ++ rest, rfl, hb⟩
  rw [List.append_assoc, Rd.bind_ok (h1 o1 e1 _ hf)]
  exact h2 o2 e2 rest hF

theorem RT.pure {v v' : α} (h : v = v') : RTF F (pure ()) (pure v) v' := by
  intro bs hbs rest _
  obtain ⟨_, rfl⟩ := Wr.pure_eq_ok hbs
  simp [h]

/-- Last statement of a writer against a statement of the reader followed by a pure result. -/
theorem RT.last {w : Wr Unit} {r : Rd α} {k : α → Rd β} {v1 : α} {v : β}
    (h1 : RT w r v1) (h2 : k v1 = Pure.pure v) : RTF F w (r >>= k) v := by
  intro bs hbs rest _
  rw [Rd.bind_ok (h1 bs hbs rest trivial), h2]
  rfl

theorem RT.done {w : Wr Unit} {r : Rd α} {v v' : α} (h1 : RT w r v') (h : v' = v) : RTF F w r v := by
  subst h; exact h1.weaken

/-- Nothing left to write, reader only computes. -/
theorem RT.wguard {c : Prop} [Decidable c] {e : Err} {w : Wr Unit} {r : Rd α} {v : α}
    (h : c → RTF F w r v) : RTF F (Wr.guard c e >>= fun _ => w) r v := by
  intro bs hbs rest hF
  obtain ⟨a, o1, o2, e1, e2, rfl⟩ := Wr.bind_eq_ok hbs
  unfold Wr.guard at e1
  by_cases hc : c
  · rw [if_pos hc] at e1
    obtain ⟨_, rfl⟩ := Wr.pure_eq_ok e1
    exact h hc o2 e2 rest hF
  · rw [if_neg hc] at e1
    cases e1

theorem RT.rguard {c : Prop} [Decidable c] {e : Err} {w : Wr Unit} {k : Unit → Rd α} {v : α}
    (hc : c) (h : RTF F w (k ()) v) : RTF F w (Rd.guard c e >>= k) v := by
  intro bs hbs rest hF
  have : (Rd.guard c e) (bs ++ rest) = .ok ((), bs ++ rest) := by
    simp [Rd.guard, hc]
  rw [Rd.bind_ok this]
  exact h bs hbs rest hF

theorem RT.rpure {w : Wr Unit} {a : β} {k : β → Rd α} {v : α}
    (h : RTF F w (k a) v) : RTF F w (Pure.pure a >>= k) v := h

theorem RT.rif_pos {c : Prop} [Decidable c] {w : Wr Unit} {r1 r2 : Rd α} {v : α}
    (hc : c) (h : RTF F w r1 v) : RTF F w (if c then r1 else r2) v := by
  rw [if_pos hc]; exact h

theorem RT.rif_neg {c : Prop} [Decidable c] {w : Wr Unit} {r1 r2 : Rd α} {v : α}
    (hc : ¬ c) (h : RTF F w r2 v) : RTF F w (if c then r1 else r2) v := by
  rw [if_neg hc]; exact h

theorem RT.wfail {e : Err} {r : Rd α} {v : α} : RTF F (Wr.fail e) r v := by
  intro bs hbs; cases hbs

theorem RT.wfail_bind {e : Err} {w : Wr Unit} {r : Rd α} {v : α} :
    RTF F ((Wr.fail e : Wr Unit) >>= fun _ => w) r v := by
  intro bs hbs
  obtain ⟨a, o1, o2, e1, e2, rfl⟩ := Wr.bind_eq_ok hbs
  cases e1

theorem RT.wpure_bind {w : Wr Unit} {r : Rd α} {v : α} (h : RTF F w r v) :
    RTF F ((Pure.pure () : Wr Unit) >>= fun _ => w) r v := by
  intro bs hbs
  obtain ⟨a, o1, o2, e1, e2, rfl⟩ := Wr.bind_eq_ok hbs
  obtain ⟨_, rfl⟩ := Wr.pure_eq_ok e1
  exact h o2 e2

/-- Re-associate a nested sequence in the writer. -/
theorem RT.wassoc {w1 w2 w3 : Wr Unit} {r : Rd α} {v : α}
    (h : RTF F (w1 >>= fun _ => (w2 >>= fun _ => w3)) r v) :
    RTF F ((w1 >>= fun _ => w2) >>= fun _ => w3) r v := by
  intro bs hbs
  obtain ⟨a, o1, o2, e1, e2, rfl⟩ := Wr.bind_eq_ok hbs
  obtain ⟨a', o3, o4, e3, e4, rfl⟩ := Wr.bind_eq_ok e1
  have := h (o3 ++ (o4 ++ o2)) (Wr.bind_ok e3 (Wr.bind_ok e4 e2))
  rw [List.append_assoc]
  exact this

/-! ### lists -/

theorem RT.list {w : α → Wr Unit} {r : Rd β} {g : α → β} {xs : List α} {n : Nat}
    (hn : n = xs.length) (h : ∀ x ∈ xs, RT (w x) r (g x)) :
    RT (forW xs w) (readN n r) (xs.map g) := by
  subst hn
  induction xs with
  | nil => exact RT.pure rfl
  | cons x xs ih =>
    refine RT.bind (h x List.mem_cons_self) ?_
    exact RT.last (ih (fun y hy => h y (List.mem_cons_of_mem _ hy))) rfl

theorem RT.list_id {w : α → Wr Unit} {r : Rd α} {xs : List α} {n : Nat}
    (hn : n = xs.length) (h : ∀ x ∈ xs, RT (w x) r x) :
    RT (forW xs w) (readN n r) xs := by
  have := RT.list (g := id) hn h
  rwa [List.map_id] at this

/-! ### extension loops -/

theorem RTX.pure {body : Int → σ → Rd σ} {s : σ} : RTX (Pure.pure ()) body s s := by
  intro bs hbs rest
  obtain ⟨_, rfl⟩ := Wr.pure_eq_ok hbs
  rfl

theorem RTX.bind {w1 w2 : Wr Unit} {body : Int → σ → Rd σ} {s s1 s2 : σ}
    (h1 : RTX w1 body s s1) (h2 : RTX w2 body s1 s2) :
    RTX (w1 >>= fun _ => w2) body s s2 := by
  intro bs hbs rest
  obtain ⟨a, o1, o2, e1, e2, rfl⟩ := Wr.bind_eq_ok hbs
  rw [List.append_assoc, h1 o1 e1, h2 o2 e2]

theorem iterExt_item {body : Int → σ → Rd σ} {s s' : σ} {tag : UInt8} {bs rest : Bytes}
    (h : body tag.toNat s (bs ++ rest) = .ok (s', rest)) :
    iterExt body s (1 :: tag :: (bs ++ rest)) = iterExt body s' rest := by
  conv => lhs; unfold iterExt
  simp [h]

theorem iterExt_stop {body : Int → σ → Rd σ} {s : σ} {b : UInt8} {tl : Bytes} (h : b ≠ 1) :
    iterExt body s (b :: tl) = .ok (s, b :: tl) := by
  unfold iterExt
  simp [h]

theorem wU8_out {v : Int} {out : Bytes} (h : wU8 v = .ok ((), out)) :
    0 ≤ v ∧ v ≤ 255 ∧ out = [UInt8.ofNat v.toNat] := by
  obtain ⟨h1, h2, h3⟩ := wInt_eq_ok h
  simp only [IntTy.lo, IntTy.hi, IntTy.width, IntTy.signed, Bool.false_eq_true, if_false,
    Nat.mul_one, Int.reducePow, Int.reduceSub] at h1 h2 h3
  refine ⟨h1, h2, ?_⟩
  rw [h3]
  simp only [packNat, leBytes]
  congr 1
  have : (v % 256).toNat % 256 = v.toNat := by omega
  rw [this]

theorem wU8_ok {v : Int} (h1 : 0 ≤ v) (h2 : v ≤ 255) :
    wU8 v = .ok ((), [UInt8.ofNat v.toNat]) := by
  have h := wInt_ok (bo := .little) (t := .u8) (v := v)
    (by simpa [IntTy.lo, IntTy.signed] using h1) (by simpa [IntTy.hi, IntTy.signed, IntTy.width] using h2)
  obtain ⟨_, _, h3⟩ := wU8_out h
  exact h.trans (congrArg (fun o => Except.ok ((), o)) h3)

/-- One extension item: marker, tag, payload. -/
theorem RTX.item {w : Wr Unit} {body : Int → σ → Rd σ} {s s' : σ} {tag : Int}
    (h : RT w (body tag s) s') :
    RTX (wU8 1 >>= fun _ => wU8 tag >>= fun _ => w) body s s' := by
  intro bs hbs rest
  obtain ⟨_, o1, o2, e1, e2, rfl⟩ := Wr.bind_eq_ok hbs
  obtain ⟨_, o3, o4, e3, e4, rfl⟩ := Wr.bind_eq_ok e2
  obtain ⟨_, _, rfl⟩ := wU8_out e1
  obtain ⟨h1, h2, rfl⟩ := wU8_out e3
  have ht : ((UInt8.ofNat tag.toNat).toNat : Int) = tag := by
    simp; omega
  have := iterExt_item (body := body) (s := s) (s' := s') (tag := UInt8.ofNat tag.toNat)
    (bs := o4) (rest := rest) (by rw [ht]; exact h o4 e4 rest trivial)
  simpa using this

theorem RTX.ifHas {o : Option α} {w : α → Wr Unit} {body : Int → σ → Rd σ} {s s' : σ}
    (h1 : ∀ a, o = some a → RTX (w a) body s s') (h2 : o = none → s' = s) :
    RTX (Wr.ifHas o w) body s s' := by
  cases o with
  | none => rw [h2 rfl]; exact RTX.pure
  | some a => exact h1 a rfl

/-- Optional extension item, state update given by `set`. -/
theorem RTX.has {o : Option α} {w : α → Wr Unit} {body : Int → σ → Rd σ} {s : σ}
    (set : σ → Option β → σ) (g : α → β) (h0 : set s none = s)
    (h : ∀ a, o = some a → RTX (w a) body s (set s (some (g a)))) :
    RTX (Wr.ifHas o w) body s (set s (o.map g)) := by
  cases o with
  | none => rw [Option.map_none, h0]; exact RTX.pure
  | some a => exact h a rfl

/-- As `RTX.has` without a conversion. -/
theorem RTX.has' {o : Option α} {w : α → Wr Unit} {body : Int → σ → Rd σ} {s : σ}
    (set : σ → Option α → σ) (h0 : set s none = s)
    (h : ∀ a, o = some a → RTX (w a) body s (set s (some a))) :
    RTX (Wr.ifHas o w) body s (set s o) := by
  cases o with
  | none => rw [h0]; exact RTX.pure
  | some a => exact h a rfl

theorem RTX.when {c : Prop} [Decidable c] {w : Wr Unit} {body : Int → σ → Rd σ} {s s' : σ}
    (h1 : c → RTX w body s s') (h2 : ¬ c → s' = s) :
    RTX (Wr.when c w) body s s' := by
  unfold Wr.when
  split
  · rename_i h; exact h1 h
  · rename_i h; rw [h2 h]; exact RTX.pure

theorem RT.ext_step {w1 w2 : Wr Unit} {body : Int → σ → Rd σ} {s s1 : σ} {k : σ → Rd α} {v : α}
    (h1 : RTX w1 body s s1) (h2 : RTF F w2 (iterExt body s1 >>= k) v) :
    RTF F (w1 >>= fun _ => w2) (iterExt body s >>= k) v := by
  intro bs hbs rest hF
  obtain ⟨a, o1, o2, e1, e2, rfl⟩ := Wr.bind_eq_ok hbs
  have := h2 o2 e2 rest hF
  rw [Rd.bind_apply] at this
  rw [Rd.bind_apply, List.append_assoc, h1 o1 e1]
  exact this

theorem RT.ext_done {w : Wr Unit} {body : Int → σ → Rd σ} {s : σ} {k : σ → Rd α} {v : α}
    (hs : Starts w) (h : RTF F w (k s) v) : RTF F w (iterExt body s >>= k) v := by
  intro bs hbs rest hF
  obtain ⟨b, tl, rfl, hb⟩ := hs bs hbs
  have : iterExt body s ((b :: tl) ++ rest) = .ok (s, (b :: tl) ++ rest) := iterExt_stop hb
  rw [Rd.bind_ok this]
  exact h _ hbs rest hF

theorem RT.ext_end {w : Wr Unit} {body : Int → σ → Rd σ} {s s' : σ} {k : σ → Rd α} {v : α}
    (h : RTX w body s s') (hk : k s' = Pure.pure v) : RTN w (iterExt body s >>= k) v := by
  intro bs hbs rest hF
  obtain ⟨b, tl, rfl, hb⟩ := hF
  have : iterExt body s (bs ++ b :: tl) = .ok (s', b :: tl) := by
    rw [h bs hbs]; exact iterExt_stop hb
  rw [Rd.bind_ok this, hk]
  rfl

theorem RT.ext_end' {w : Wr Unit} {body : Int → σ → Rd σ} {s s' s'' : σ}
    (h : RTX w body s s') (hk : s' = s'') : RTN w (iterExt body s) s'' := by
  subst hk
  intro bs hbs rest hF
  obtain ⟨b, tl, rfl, hb⟩ := hF
  rw [h bs hbs]; exact iterExt_stop hb

/-! ### starts -/

theorem Starts.bind {w1 : Wr Unit} {k : Unit → Wr Unit} (h : Starts w1) : Starts (w1 >>= k) := by
  intro bs hbs
  obtain ⟨a, o1, o2, e1, e2, rfl⟩ := Wr.bind_eq_ok hbs
  obtain ⟨b, tl, rfl, hb⟩ := h o1 e1
  exact ⟨b, tl ++ o2, rfl, hb⟩

theorem Starts.u8 {v : Int} (h : v ≠ 1) : Starts (wU8 v) := by
  intro bs hbs
  obtain ⟨h1, h2, rfl⟩ := wU8_out hbs
  refine ⟨_, [], rfl, ?_⟩
  intro he
  apply h
  have := congrArg UInt8.toNat he
  simp at this
  omega

/-! ### primitive fields -/

theorem RT.int {bo t v} : RT (wInt bo t v) (rInt bo t) v := by
  intro bs hbs rest _
  obtain ⟨h1, h2, rfl⟩ := wInt_eq_ok hbs
  exact rInt_pack bo t v rest h1 h2

theorem RT.tag {t : Int} : RT (wU8 t) (rTag t) () := by
  refine RT.last RT.int ?_
  funext bs
  simp [Rd.guard]

theorem RT.bool {b : Bool} : RT (wBool b) rBool b := by
  cases b
  all_goals simp only [wBool, Bool.false_eq_true, if_false, if_true]
  · exact RT.last (RT.int (v := 0)) rfl
  · exact RT.last (RT.int (v := 1)) rfl

/-- `write_u8(f, flag)` with a Python bool, read back by `read_bool`. -/
theorem RT.boolU8 {b : Bool} : RT (wU8 (if b then 1 else 0)) rBool b := by
  cases b
  · exact RT.last (RT.int (v := 0)) rfl
  · exact RT.last (RT.int (v := 1)) rfl

theorem fread_append {bs rest : Bytes} {n : Int} (h : n = (bs.length : Int)) :
    fread n (bs ++ rest) = .ok (bs, rest) := by
  subst h
  unfold fread
  rw [if_neg (by omega)]
  simp

theorem RT.bytes {bs : Bytes} {n : Int} (h : n = (bs.length : Int)) :
    RT (Wr.emit bs) (fread n) bs := by
  intro out hout rest _
  obtain rfl := Wr.emit_eq_ok hout
  exact fread_append h

theorem RT.str {bo : BO} {e : Enc} {t : Text} (h : TextOK e t) :
    RT (wStr bo e t) (rStr bo e) (stripText t) := by
  unfold wStr
  split
  · rename_i ht
    subst ht
    refine RT.last RT.int ?_
    rw [if_neg (by omega)]
    funext bs
    cases e <;> rfl
  · split
    · exact RT.wfail
    · rename_i d hd
      have hp : payload e t = some (if e = .utf8 then [0, 0] ++ d else d) := by
        simp [payload, hd]
      have hlen := h _ hp
      have hdec := decode_strip_payload hp
      generalize (if e = .utf8 then [0, 0] ++ d else d) = p at *
      intro bs hbs rest _
      obtain ⟨_, o1, o2, e1, e2, rfl⟩ := Wr.bind_eq_ok hbs
      obtain rfl := Wr.emit_eq_ok e2
      have hb := (wInt_eq_ok e1).2.1
      simp only [IntTy.hi, IntTy.signed, IntTy.width, Bool.false_eq_true, if_false] at hb
      rw [List.append_assoc]
      unfold rStr
      rw [Rd.bind_ok (RT.int o1 e1 _ trivial)]
      rw [if_neg (by omega), Rd.bind_ok (fread_append rfl), hdec]
      rfl

theorem RT.ofOption {w : Wr Unit} {o : Option α} {e : Err} {v : α} (h : o = some v)
    (hw : RTF F w (Pure.pure v) v) : RTF F w (Rd.ofOption o e) v := by
  subst h; exact hw

theorem swapUuid_swap {b : Bytes} (h : b.length = 16) : swapUuid (swapUuid b) = b := by
  match b, h with
  | [a0, a1, a2, a3, a4, a5, a6, a7, a8, a9, a10, a11, a12, a13, a14, a15], _ => rfl

theorem swapUuid_length {b : Bytes} (h : b.length = 16) : (swapUuid b).length = 16 := by
  simp [swapUuid, h]

theorem uuidOf_bytes {bo : BO} {u : UUID} :
    uuidOf bo (match bo with | .little => u.bytesLE | .big => u.bytes) = some u := by
  cases bo with
  | little =>
    simp [uuidOf, uuidOfBytesLE, uuidOfBytes, UUID.bytesLE, swapUuid_length u.len,
      swapUuid_swap u.len, u.len]
  | big => simp [uuidOf, uuidOfBytes, u.len]

theorem RT.rawUuid {bo : BO} {u : UUID} : RT (wRawUuid bo u) (rRawUuid bo) u := by
  have h := @uuidOf_bytes bo u
  unfold wRawUuid rRawUuid
  cases bo with
  | little =>
    refine RT.last (RT.bytes (by simp [UUID.bytesLE, swapUuid_length u.len])) ?_
    dsimp only at h
    rw [h]; rfl
  | big =>
    refine RT.last (RT.bytes (by simp [u.len])) ?_
    dsimp only at h
    rw [h]; rfl

theorem two_pow_width (n : Nat) : (2 : Int) ^ (8 * n) = ((256 ^ n : Nat) : Int) := by
  have : (256 : Nat) ^ n = 2 ^ (8 * n) := by rw [Nat.pow_mul]
  rw [this]; simp

/-- An unsigned integer written by `struct.pack` and taken back as raw bytes. -/
theorem RT.intBytes {bo : BO} {t : IntTy} {bs : Bytes} {n : Int}
    (hl : bs.length = t.width) (hn : n = (t.width : Int)) :
    RT (wInt bo t (unpackNat .big bs : Nat)) (fread n)
      (match bo with | .little => bs.reverse | .big => bs) := by
  intro out hout rest _
  obtain ⟨_, h2, rfl⟩ := wInt_eq_ok hout
  clear hout
  have hlt := unpackNat_lt .big bs
  rw [hl] at hlt
  have hm : ((unpackNat .big bs : Int) % (2 ^ (8 * t.width) : Int)).toNat = unpackNat .big bs := by
    rw [two_pow_width, Int.emod_eq_of_lt (by omega) (Int.ofNat_lt.mpr hlt)]
    simp
  rw [hm]
  have hp := packNat_unpackNat .big bs
  rw [hl] at hp
  cases bo with
  | big =>
    dsimp only
    rw [hp]
    exact fread_append (by rw [hn, hl])
  | little =>
    simp only [packNat] at hp ⊢
    rw [← List.reverse_reverse (leBytes _ _), hp]
    exact fread_append (by rw [hn, List.length_reverse, hl])

theorem UUID.split (u : UUID) :
    u.bytes.take 4 ++ (u.bytes.drop 4).take 2 ++ (u.bytes.drop 6).take 2 ++ u.bytes.drop 8
      = u.bytes := by
  obtain ⟨b, h⟩ := u
  match b, h with
  | [a0, a1, a2, a3, a4, a5, a6, a7, a8, a9, a10, a11, a12, a13, a14, a15], _ => rfl

theorem RT.uuid {bo : BO} {u : UUID} : RT (wUuid bo u) (rUuid bo) u := by
  unfold wUuid rUuid
  refine RT.bind RT.tag ?_
  refine RT.bind (RT.intBytes (by simp [u.len, IntTy.width]) rfl) ?_
  refine RT.bind RT.tag ?_
  refine RT.bind (RT.intBytes (by simp [u.len, IntTy.width]) rfl) ?_
  refine RT.bind RT.tag ?_
  refine RT.bind (RT.intBytes (by simp [u.len, IntTy.width]) rfl) ?_
  refine RT.bind RT.tag ?_
  refine RT.bind RT.int ?_
  refine RT.rguard rfl ?_
  have h := @uuidOf_bytes bo u
  cases bo with
  | little =>
    refine RT.last (RT.bytes (by simp [UUID.bytesLE, swapUuid_length u.len])) ?_
    dsimp only at h ⊢
    have e : (u.bytes.take 4).reverse ++ ((u.bytes.drop 4).take 2).reverse
        ++ ((u.bytes.drop 6).take 2).reverse ++ u.bytesLE.drop 8 = u.bytesLE := by
      obtain ⟨b, hb⟩ := u
      match b, hb with
      | [a0, a1, a2, a3, a4, a5, a6, a7, a8, a9, a10, a11, a12, a13, a14, a15], _ => rfl
    rw [e, h]
    rfl
  | big =>
    refine RT.last (RT.bytes (by simp [u.len])) ?_
    dsimp only at h ⊢
    rw [UUID.split, h]
    rfl

theorem RT.byte {b : UInt8} : RT (wU8 b.toNat) rByte b := by
  refine RT.last RT.int ?_
  simp

theorem MobID.mk'_eq (m : MobID) :
    MobID.mk' m.label (m.byteAt 12) (m.byteAt 13) (m.byteAt 14) (m.byteAt 15) m.material
      = some m := by
  have e : m.label ++ [m.byteAt 12, m.byteAt 13, m.byteAt 14, m.byteAt 15] ++ m.material.bytesLE
      = m.bytes := by
    have h : m.material.bytesLE = m.bytes.drop 16 := by
      unfold UUID.bytesLE MobID.material
      exact swapUuid_swap (by simp [m.len])
    rw [h]
    obtain ⟨b, hb⟩ := m
    simp only [MobID.label, MobID.byteAt]
    have : ∀ (l : Bytes), l.length = 32 →
        l.take 12 ++ [l.getD 12 0, l.getD 13 0, l.getD 14 0, l.getD 15 0] ++ l.drop 16 = l := by
      intro l hl
      match l, hl with
      | a0::a1::a2::a3::a4::a5::a6::a7::a8::a9::a10::a11::a12::a13::a14::a15::tl, _ => rfl
    exact this b hb
  unfold MobID.mk'
  simp only [e, m.len, dite_true]

theorem RT.mobId {bo : BO} {m : MobID} : RT (wMobId bo m) (rMobId bo) m := by
  unfold wMobId rMobId
  refine RT.bind RT.tag ?_
  refine RT.bind RT.int ?_
  refine RT.rguard rfl ?_
  refine RT.bind (RT.list_id (by simp [MobID.label, m.len]) (fun _ _ => RT.byte)) ?_
  refine RT.bind RT.tag ?_
  refine RT.bind RT.byte ?_
  refine RT.bind RT.tag ?_
  refine RT.bind RT.byte ?_
  refine RT.bind RT.tag ?_
  refine RT.bind RT.byte ?_
  refine RT.bind RT.tag ?_
  refine RT.bind RT.byte ?_
  refine RT.last RT.uuid ?_
  rw [MobID.mk'_eq]
  rfl

theorem RT.double {d : F64} : RT (wDouble d) rDouble d := by
  refine RT.last RT.int ?_
  cases d; simp

theorem RT.doubleInt {v : Int} : RT (wDoubleInt v) rDouble ((F64.ofInt v).getD ⟨0⟩) := by
  unfold wDoubleInt
  cases F64.ofInt v with
  | none => exact RT.wfail
  | some d => exact RT.double

theorem RT.date {bo : BO} {t : Int} : RT (wDate bo t) (rDate bo) t := RT.int

theorem RT.rect {bo : BO} {v : Rect} : RT (wRect bo v) (rRect bo) v := by
  unfold wRect rRect
  refine RT.bind RT.int ?_
  refine RT.rguard rfl ?_
  refine RT.bind RT.int ?_
  refine RT.bind RT.int ?_
  refine RT.bind RT.int ?_
  exact RT.last RT.int rfl

theorem RT.rgb {bo : BO} {v : RGB} : RT (wRgb bo v) (rRgb bo) v := by
  unfold wRgb rRgb
  refine RT.bind RT.int ?_
  refine RT.rguard rfl ?_
  refine RT.bind RT.int ?_
  refine RT.bind RT.int ?_
  exact RT.last RT.int rfl

theorem RT.fourcc {bo : BO} {s : Bytes} : RT (wFourcc bo s) (rFourcc bo) s := by
  unfold wFourcc rFourcc
  refine RT.wguard fun h => ?_
  cases bo with
  | little => refine RT.last (RT.bytes (by simp [h])) (by simp)
  | big => refine RT.last (RT.bytes (by simp [h])) (by simp)

theorem rateLoop_exp (v : Rat) (n : Nat) (h : n ≤ 6) :
    -6 ≤ (rateLoop v n).2 ∧ (rateLoop v n).2 ≤ 0 := by
  induction n generalizing v with
  | zero => simp [rateLoop]
  | succ n ih =>
    unfold rateLoop
    split
    · dsimp only; omega
    · split
      · dsimp only; omega
      · exact ih _ (by omega)

theorem encodeRate_exp (q : Rat) : -6 ≤ (encodeRate q).2 ∧ (encodeRate q).2 ≤ 0 := by
  have := rateLoop_exp q 6 (Nat.le_refl _)
  unfold encodeRate
  split
  rename_i heq
  rw [heq] at this
  split
  · simp
  · exact this

theorem decodeRate_ok (m e : Int) (h : e ≤ 0) : ∃ r, decodeRate m e = .ok r := by
  unfold decodeRate
  by_cases he : 0 ≤ e
  · have : e = 0 := by omega
    subst this
    have h1 : ¬ (pow2 1024 ≤ rnd ((10 ^ (0 : Int).toNat : Nat) : Rat)) := by decide +kernel
    simp only [Int.le_refl, if_true, h1, if_false]
    exact ⟨_, rfl⟩
  · simp only [he, if_false]
    exact ⟨_, rfl⟩

theorem RT.rate {bo : BO} {v : Rate} : RT (wRate bo v) (rRate bo) (rateNorm v) := by
  cases v with
  | inf _ => exact RT.wfail
  | nan => exact RT.wfail
  | fin q =>
    unfold wRate rRate
    refine RT.bind RT.int ?_
    refine RT.last RT.int ?_
    obtain ⟨r, hr⟩ := decodeRate_ok (encodeRate q).1 (encodeRate q).2 (encodeRate_exp q).2
    simp only [rateNorm, hr]

/-! ### linked contexts -/

/-- A reader context for what a writer context produces: same byte order, every number handed out
by the mapping is an entry of the table. -/
structure Linked (c : WCtx) (d : RCtx) : Prop where
  bo : d.bo = c.bo
  pos : 0 < d.nobj
  range : ∀ i k, c.refMap i = some k → k < d.nobj

/-- Where a reference points after saving. -/
def WCtx.tr (c : WCtx) (r : Ref) : Ref := if r = 0 then 0 else (c.refMap r).getD 0

section
variable {c : WCtx} {d : RCtx}

theorem RT.ref (h : Linked c d) {r : Ref} : RT (wRef c r) (rRef d) (c.tr r) := by
  unfold wRef rRef WCtx.tr
  rw [h.bo]
  split
  · refine RT.last RT.int ?_
    funext bs
    simp [Rd.bind_apply, Rd.guard, h.pos]
  · split
    · exact RT.wfail
    · rename_i k hk
      refine RT.last RT.int ?_
      funext bs
      simp [Rd.bind_apply, Rd.guard, h.range _ _ hk, hk]

theorem RT.intL (h : Linked c d) {t : IntTy} {v : Int} : RT (wInt c.bo t v) (rInt d.bo t) v := by
  rw [h.bo]; exact RT.int

theorem RT.strL (h : Linked c d) {e : Enc} {t : Text} (ht : TextOK e t) :
    RT (wStr c.bo e t) (rStr d.bo e) (stripText t) := by
  rw [h.bo]; exact RT.str ht

theorem RT.rateL (h : Linked c d) {v : Rate} : RT (wRate c.bo v) (rRate d.bo) (rateNorm v) := by
  rw [h.bo]; exact RT.rate

theorem RT.uuidL (h : Linked c d) {u : UUID} : RT (wUuid c.bo u) (rUuid d.bo) u := by
  rw [h.bo]; exact RT.uuid

theorem RT.rawUuidL (h : Linked c d) {u : UUID} : RT (wRawUuid c.bo u) (rRawUuid d.bo) u := by
  rw [h.bo]; exact RT.rawUuid

theorem RT.mobIdL (h : Linked c d) {m : MobID} : RT (wMobId c.bo m) (rMobId d.bo) m := by
  rw [h.bo]; exact RT.mobId

theorem RT.dateL (h : Linked c d) {t : Int} : RT (wDate c.bo t) (rDate d.bo) t := by
  rw [h.bo]; exact RT.date

theorem RT.rectL (h : Linked c d) {v : Rect} : RT (wRect c.bo v) (rRect d.bo) v := by
  rw [h.bo]; exact RT.rect

theorem RT.rgbL (h : Linked c d) {v : RGB} : RT (wRgb c.bo v) (rRgb d.bo) v := by
  rw [h.bo]; exact RT.rgb

theorem RT.fourccL (h : Linked c d) {s : Bytes} : RT (wFourcc c.bo s) (rFourcc d.bo) s := by
  rw [h.bo]; exact RT.fourcc

theorem RT.refs (h : Linked c d) {xs : List Ref} {n : Nat} (hn : n = xs.length) :
    RT (forW xs (wRef c)) (readN n (rRef d)) (xs.map c.tr) :=
  RT.list hn fun _ _ => RT.ref h

/-- Writer reading an optional property that must be there. -/
theorem RT.wget {o : Option β} {k : β → Wr Unit} {r : Rd α} {v : α}
    (h : ∀ a, o = some a → RTF F (k a) r v) : RTF F (Wr.get o >>= k) r v := by
  cases o with
  | none =>
    intro bs hbs
    obtain ⟨_, _, _, e1, _⟩ := Wr.bind_eq_ok hbs
    cases e1
  | some a =>
    intro bs hbs
    obtain ⟨a', o1, o2, e1, e2, rfl⟩ := Wr.bind_eq_ok hbs
    obtain ⟨rfl, rfl⟩ := Wr.pure_eq_ok e1
    exact h _ rfl o2 e2

/-- Reader throwing away what the writer stored. -/
theorem RT.wif {p : Prop} [Decidable p] {w1 w2 : Wr Unit} {r : Rd α} {v : α}
    (h1 : p → RTF F w1 r v) (h2 : ¬ p → RTF F w2 r v) : RTF F (if p then w1 else w2) r v := by
  split
  · rename_i h; exact h1 h
  · rename_i h; exact h2 h

end

end Avb

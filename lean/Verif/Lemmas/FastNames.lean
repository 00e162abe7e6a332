import Verif.Lemmas.FastSafe
import Verif.Lemmas.LoadedBin

/-
The texts an accelerated reader puts into the properties come from less than 65535 bytes.
-/

namespace Avb.Fast

variable {α β : Type}

/-- A text of the file: fewer than 65535 bytes, decoded. -/
def RawText (t : Text) : Prop := ∃ b : Bytes, b.length < 65535 ∧ t = b.map macDecodeByte

/-- The name and the effect id, if there are any, are texts of the file. -/
def Named (p : Props) : Prop :=
  (∀ n, p.name = some n → ∃ t, n = some t ∧ RawText t) ∧
    ∀ n, p.effect_id = some n → ∃ t, n = some t ∧ RawText t

/-- The reader keeps this so. -/
def KN (f : Fast α) : Prop := ∀ (d : Bytes) (s : St), Named s.p → Named (f d s).2.p

/-- What the reader returns. -/
def Gives (f : Fast α) (P : α → Prop) : Prop := ∀ (d : Bytes) (s : St) (a : α) (s' : St),
  f d s = (.ok a, s') → P a

theorem KN.pure {a : α} : KN (pure a) := fun _ _ h => h

theorem KN.bindG {f : Fast α} {k : α → Fast β} {P : α → Prop} (h : KN f) (g : Gives f P)
    (hk : ∀ a, P a → KN (k a)) : KN (f >>= k) := by
  intro d s hs
  have h1 := h d s hs
  rw [bind_apply]
  match e : f d s with
  | (.ok a, s') => rw [e] at h1; exact hk a (g d s a s' e) d s' h1
  | (.error x, s') => rw [e] at h1; exact h1

theorem KN.bind {f : Fast α} {k : α → Fast β} (h : KN f) (hk : ∀ a, KN (k a)) : KN (f >>= k) :=
  KN.bindG (P := fun _ => True) h (fun _ _ _ _ _ => trivial) fun a _ => hk a

theorem KN.stop {e : Stop} : KN (Fast.stop e : Fast α) := fun _ _ h => h

theorem KN.put {u : Props → Props} (h : ∀ p, Named p → Named (u p)) : KN (put u) := fun _ s => h s.p

theorem KN.ignore {f : Fast Unit} (h : KN f) : KN (Fast.ignore f) := by
  intro d s hs
  have h1 := h d s hs
  unfold Fast.ignore
  match e : f d s with
  | (.ok a, s') => rw [e] at h1; exact h1
  | (.error .ret, s') => rw [e] at h1; exact h1
  | (.error .throw, s') => rw [e] at h1; exact h1
  | (.error .wild, s') => rw [e] at h1; exact h1

theorem KN.keepShort {f : Fast α} (h : KN f) : KN (Fast.keepShort f) := by
  intro d s hs
  have h1 := h d s hs
  unfold Fast.keepShort
  match e : f d s with
  | (.ok a, s') => rw [e] at h1; exact h1
  | (.error .ret, s') => rw [e] at h1; exact h1
  | (.error .throw, s') => rw [e] at h1; exact h1
  | (.error .wild, s') => rw [e] at h1; exact h1

theorem KN.u8 : KN Fast.u8 := by
  intro d s hs
  unfold Fast.u8
  split <;> exact hs

theorem KN.ite {c : Prop} [Decidable c] {f g : Fast α} (h1 : KN f) (h2 : KN g) :
    KN (if c then f else g) := by split <;> assumption

theorem KN.dite {c : Prop} [Decidable c] {f : c → Fast α} {g : ¬c → Fast α} (h1 : ∀ h, KN (f h))
    (h2 : ∀ h, KN (g h)) : KN (if h : c then f h else g h) := by
  split
  · exact h1 _
  · exact h2 _

theorem KN.tag {t : UInt8} : KN (Fast.tag t) := KN.bind KN.u8 fun _ => KN.ite KN.pure KN.stop

theorem KN.bytes : ∀ n, KN (Fast.bytes n)
  | 0 => KN.pure
  | n + 1 => KN.bind KN.u8 fun _ => KN.bind (KN.bytes n) fun _ => KN.pure

theorem KN.times {f : Fast α} (h : KN f) : ∀ n, KN (Fast.times f n)
  | 0 => KN.pure
  | n + 1 => KN.bind h fun _ => KN.bind (KN.times h n) fun _ => KN.pure

theorem KN.each {b : Nat → Fast Unit} (h : ∀ i, KN (b i)) : ∀ i n, KN (Fast.each b i n)
  | _, 0 => KN.pure
  | i, n + 1 => KN.bind (h i) fun _ => KN.each h (i + 1) n

theorem KN.more : KN more := by
  refine KN.bind KN.u8 fun _ => KN.ite KN.pure (KN.bind ?_ fun _ => KN.pure)
  intro d s hs
  unfold back
  split <;> exact hs

theorem KN.iterExt {body : UInt8 → Fast Unit} (h : ∀ t, KN (body t)) : KN (Fast.iterExt body) := by
  intro d s hs
  fun_induction Fast.iterExt body d s with
  | case1 s s1 hm a s2 hb hg ih =>
    have h1 := KN.more d s hs
    rw [hm] at h1
    have h2 := KN.bind KN.u8 h d s1 h1
    rw [hb] at h2
    exact ih h2
  | case2 s s1 hm a s2 hb hg =>
    have h1 := KN.more d s hs
    rw [hm] at h1
    have h2 := KN.bind KN.u8 h d s1 h1
    rw [hb] at h2
    exact h2
  | case3 s s1 hm e s2 hb =>
    have h1 := KN.more d s hs
    rw [hm] at h1
    have h2 := KN.bind KN.u8 h d s1 h1
    rw [hb] at h2
    exact h2
  | case4 s s1 hm => have h1 := KN.more d s hs; rwa [hm] at h1
  | case5 s e s1 hm => have h1 := KN.more d s hs; rwa [hm] at h1

theorem KN.uint {n : Nat} : KN (Fast.uint n) := KN.bind (KN.bytes n) fun _ => KN.pure
theorem KN.sint {n : Nat} : KN (Fast.sint n) := KN.bind KN.uint fun _ => KN.pure
theorem KN.unat {n : Nat} : KN (Fast.unat n) := KN.bind KN.uint fun _ => KN.pure
theorem KN.bool : KN Fast.bool := KN.bind KN.u8 fun _ => KN.pure
theorem KN.double : KN Fast.double := KN.bind KN.uint fun _ => KN.pure
theorem KN.rate : KN Fast.rate := KN.bind KN.sint fun _ => KN.bind KN.sint fun _ => KN.pure
theorem KN.data32 : KN Fast.data32 := KN.bind KN.uint fun _ => KN.bytes _
theorem KN.data16 : KN Fast.data16 := KN.bind KN.uint fun _ => KN.ite (KN.bytes _) KN.pure
theorem KN.str : KN Fast.str := KN.bind KN.data16 fun _ => KN.pure
theorem KN.ref : KN Fast.ref := KN.uint

theorem KN.rawUuid : KN Fast.rawUuid := by
  refine KN.bind (KN.bytes _) fun b => ?_
  split
  · exact KN.pure
  · exact KN.stop

theorem KN.opt {c : Bool} {f : Fast α} (h : KN f) : KN (Fast.opt c f) := by
  unfold Fast.opt
  exact KN.ite (KN.bind h fun _ => KN.pure) KN.pure

theorem Gives.bytes : ∀ n, Gives (Fast.bytes n) fun b => b.length = n
  | 0 => fun _ _ _ _ h => by injection h with h _; injection h with h; subst h; rfl
  | n + 1 => by
    intro d s a s' h
    unfold Fast.bytes at h
    rw [bind_apply] at h
    match e : Fast.u8 d s with
    | (.ok b, s1) =>
      rw [e] at h
      dsimp only at h
      rw [bind_apply] at h
      match e2 : Fast.bytes n d s1 with
      | (.ok bs, s2) =>
        rw [e2] at h
        have := Gives.bytes n d s1 bs s2 e2
        injection h with h _
        injection h with h
        subst h
        simp [this]
      | (.error x, s2) => rw [e2] at h; injection h with h _; cases h
    | (.error x, s1) => rw [e] at h; injection h with h _; cases h

theorem Gives.bind {f : Fast α} {k : α → Fast β} {P : β → Prop} (hk : ∀ a, Gives (k a) P) :
    Gives (f >>= k) P := by
  intro d s b s' h
  rw [bind_apply] at h
  match e : f d s with
  | (.ok a, s1) => rw [e] at h; exact hk a d s1 b s' h
  | (.error x, s1) => rw [e] at h; injection h with h _; cases h

theorem Gives.bindG {f : Fast α} {k : α → Fast β} {Q : α → Prop} {P : β → Prop} (hf : Gives f Q)
    (hk : ∀ a, Q a → Gives (k a) P) : Gives (f >>= k) P := by
  intro d s b s' h
  rw [bind_apply] at h
  match e : f d s with
  | (.ok a, s1) => rw [e] at h; exact hk a (hf d s a s1 e) d s1 b s' h
  | (.error x, s1) => rw [e] at h; injection h with h _; cases h

theorem Gives.pure {a : α} {P : α → Prop} (h : P a) : Gives (pure a) P := by
  intro d s b s' e
  injection e with e _
  injection e with e
  subst e
  exact h

theorem Gives.stop {e : Stop} {P : α → Prop} : Gives (Fast.stop e : Fast α) P := by
  intro d s b s' h
  injection h with h _
  cases h

theorem Gives.str : Gives Fast.str RawText := by
  refine Gives.bindG (Q := fun b => b.length < 65535) ?_ fun b hb => Gives.pure ⟨b, hb, rfl⟩
  refine Gives.bind fun n => ?_
  split
  · next h => intro d s a s' e; rw [Gives.bytes n d s a s' e]; exact h
  · exact Gives.pure (by decide)

theorem Gives.times {f : Fast α} {P : α → Prop} (h : Gives f P) :
    ∀ n, Gives (Fast.times f n) fun l => ∀ x ∈ l, P x
  | 0 => Gives.pure (by intro x hx; cases hx)
  | n + 1 => Gives.bindG h fun a ha => Gives.bindG (Gives.times h n) fun l hl => Gives.pure (by
      intro x hx
      rcases List.mem_cons.1 hx with rfl | hx
      · exact ha
      · exact hl x hx)

/-- One step of the walk through the text of a reader. -/
macro "kn1" : tactic => `(tactic| with_reducible first
  | exact KN.pure | exact KN.u8 | exact KN.tag | exact KN.bytes _ | exact KN.uint
  | exact KN.sint | exact KN.unat | exact KN.bool | exact KN.double | exact KN.rate
  | exact KN.data32 | exact KN.data16 | exact KN.str | exact KN.ref | exact KN.rawUuid
  | exact KN.stop | assumption | (refine KN.put ?_; with_unfolding_all exact fun _ h => h)
  | refine KN.bind ?_ (fun _ => ?_) | refine KN.ite ?_ ?_ | refine KN.ignore ?_
  | refine KN.keepShort ?_ | refine KN.times ?_ _ | refine KN.opt ?_
  | refine KN.each (fun _ => ?_) _ _ | refine KN.dite (fun _ => ?_) (fun _ => ?_))

/-- The same, keeping what is known of a text. -/
macro "knstr" x:ident h:ident : tactic =>
  `(tactic| (with_reducible refine KN.bindG KN.str Gives.str ?_; intro $x $h))

theorem KN.mobId : KN Fast.mobId := by unfold Fast.mobId; repeat kn1

theorem kn_comp : KN read_comp := by
  unfold read_comp
  iterate 6 refine KN.bind (by repeat kn1) (fun _ => ?_)
  knstr n hn
  knstr e he
  iterate 3 refine KN.bind (by repeat kn1) (fun _ => ?_)
  refine KN.bind (KN.put fun p _ => ⟨?_, ?_⟩) fun _ => KN.iterExt fun t => ?_
  · rintro _ ⟨⟩; exact ⟨n, rfl, hn⟩
  · rintro _ ⟨⟩; exact ⟨e, rfl, he⟩
  · unfold compExt
    repeat kn1

theorem kn_clip : KN read_clip := by
  unfold read_clip
  have := kn_comp
  repeat kn1

theorem kn_sequence : KN read_sequence := by
  unfold read_sequence
  have := kn_comp
  repeat kn1

theorem kn_filler : KN read_filler := by
  unfold read_filler
  have := kn_clip
  repeat kn1

theorem kn_sourceclip : KN read_sourceclip := by
  unfold read_sourceclip
  have := kn_clip
  have : KN (iterExt sourceclipExt) := KN.iterExt fun t => by
    unfold sourceclipExt
    have := KN.mobId
    repeat kn1
  repeat kn1

theorem kn_point (n : Nat) : KN (point n) := by
  unfold point pointValue pointProp propValue
  repeat kn1

theorem kn_paramclip : KN read_paramclip := by
  unfold read_paramclip
  have := kn_clip
  have : KN (iterExt paramclipExt) := KN.iterExt fun t => by
    unfold paramclipExt
    repeat kn1
  repeat (first | kn1 | exact kn_point _)

theorem kn_paramitem : KN read_paramitem := by
  unfold read_paramitem
  have h1 : ∀ t, KN (itemValue t) := fun t => by unfold itemValue; repeat kn1
  have : KN (iterExt paramitemExt) := KN.iterExt fun t => by
    unfold paramitemExt
    repeat kn1
  iterate 6 refine KN.bind (by first | exact h1 _ | repeat kn1) (fun _ => ?_)
  knstr n hn
  iterate 2 refine KN.bind (by repeat kn1) (fun _ => ?_)
  refine KN.bind (KN.put fun p h => ⟨?_, h.2⟩) fun _ => ?_
  · rintro _ ⟨⟩; exact ⟨n, rfl, hn⟩
  · repeat kn1

theorem kn_trackref : KN read_trackref := by
  unfold read_trackref
  have := kn_clip
  repeat kn1

theorem kn_trackgroup : KN read_trackgroup := by
  unfold read_trackgroup
  have := kn_comp
  have h1 : ∀ i, KN (oneTrack i) := fun i => by unfold oneTrack onTrack; repeat kn1
  have h2 : ∀ n, KN (iterExt (trackgroupExt n)) := fun n => KN.iterExt fun t => by
    unfold trackgroupExt
    refine KN.ite (KN.each (fun i => ?_) _ _) KN.stop
    unfold oneLock onTrack
    repeat kn1
  repeat (first | kn1 | exact h1 _ | exact h2 _)

theorem kn_trackeffect : KN read_trackeffect := by
  unfold read_trackeffect
  have := kn_trackgroup
  have : KN (iterExt trackeffectExt) := KN.iterExt fun t => by
    unfold trackeffectExt
    repeat kn1
  repeat kn1

theorem kn_selector : KN read_selector := by
  unfold read_selector
  have := kn_trackgroup
  repeat kn1

theorem kn_composition : KN read_composition := by
  unfold read_composition
  have := kn_trackgroup
  have : KN (iterExt compositionExt) := KN.iterExt fun t => by
    unfold compositionExt
    have := KN.mobId
    repeat kn1
  repeat kn1

theorem kn_media : KN read_media_descriptor := by
  unfold read_media_descriptor
  have : KN (iterExt mediaExt) := KN.iterExt fun t => by
    unfold mediaExt
    repeat kn1
  repeat kn1

theorem kn_mediafile : KN read_media_file_descriptor := by
  unfold read_media_file_descriptor
  have := kn_media
  repeat kn1

theorem kn_did : KN read_did_descriptor := by
  unfold read_did_descriptor
  have := kn_mediafile
  have : KN (iterExt didExt) := KN.iterExt fun t => by
    unfold didExt box boxPoint
    repeat kn1
  repeat kn1

theorem kn_cdci : KN read_cdci_descriptor := by
  unfold read_cdci_descriptor
  have := kn_did
  have : KN (iterExt cdciExt) := KN.iterExt fun t => by
    unfold cdciExt
    repeat kn1
  repeat kn1

theorem kn_params : KN read_effectparamlist := by
  unfold read_effectparamlist effectParam
  repeat kn1

theorem kn_reader {k : Cls} {f : Fast Unit} (h : reader k = some f) : KN f := by
  cases k <;> cases h
  case CMPO => exact kn_composition
  case TKFX => exact kn_trackeffect
  case MDES => exact kn_media
  case DIDD => exact kn_did
  case CDCI => exact kn_cdci
  case SLCT => exact kn_selector
  case SEQU => exact kn_sequence
  case FILL => exact kn_filler
  case SCLP => exact kn_sourceclip
  case PRCL => exact kn_paramclip
  case PRIT => exact kn_paramitem
  case TRKR => exact kn_trackref
  case FXPS => exact kn_params

/-- The texts of the properties that were loaded. -/
theorem load_named {f : Fast Unit} (h : KN f) {bs : Bytes} {p : Props} (hl : load f bs = .ok p) :
    Named p := by
  unfold load at hl
  have h1 := h bs ⟨0, {}⟩ ⟨by rintro _ ⟨⟩, by rintro _ ⟨⟩⟩
  split at hl
  · next e =>
    rw [e] at h1
    split at hl
    · cases hl
    · cases hl; exact h1
  · cases hl
  · cases hl
  · cases hl

/-- The texts of the attributes that were loaded. -/
theorem loadAttr_raw {bs : Bytes} {a : Attributes} (h : loadAttr bs = .ok a) :
    (a.items.map (·.1)).Nodup ∧ ∀ q ∈ a.items, RawText q.1 ∧ ∀ t, q.2 = .str t → RawText t := by
  have g : Gives read_attributes fun l => ∀ q ∈ l, RawText q.1 ∧ ∀ t, q.2 = .str t → RawText t := by
    unfold read_attributes
    refine Gives.bind fun _ => Gives.bind fun _ => Gives.bind fun n => ?_
    split
    · exact Gives.pure (by intro q hq; cases hq)
    · refine Gives.bindG (Gives.times (P := fun q : Text × AttrVal =>
        RawText q.1 ∧ ∀ t, q.2 = .str t → RawText t) ?_ n) fun l hl => Gives.bind fun _ => Gives.pure hl
      unfold attrItem
      refine Gives.bind fun ty => Gives.bindG Gives.str fun t ht => ?_
      refine Gives.bindG (Q := fun v => ∀ t, v = AttrVal.str t → RawText t) ?_ fun v hv =>
        Gives.pure ⟨ht, hv⟩
      unfold attrValue
      split
      · exact Gives.bind fun _ => Gives.pure (by intro t e; cases e)
      · split
        · exact Gives.bindG Gives.str fun v hv => Gives.pure (by intro t e; cases e; exact hv)
        · split
          · exact Gives.bind fun _ => Gives.pure (by intro t e; cases e)
          · split
            · exact Gives.bind fun _ => Gives.pure (by intro t e; cases e)
            · exact Gives.stop
  unfold loadAttr at h
  split at h
  · next items s e =>
    cases h
    have hi := g _ _ _ _ e
    clear e g
    have key : ∀ (items acc : List (Text × AttrVal)), (acc.map (·.1)).Nodup →
        (∀ q ∈ acc, RawText q.1 ∧ ∀ t, q.2 = .str t → RawText t) →
        (∀ q ∈ items, RawText q.1 ∧ ∀ t, q.2 = .str t → RawText t) →
        ((items.foldl (fun l p => dictSet l p.1 p.2) acc).map (·.1)).Nodup ∧
        ∀ q ∈ items.foldl (fun l p => dictSet l p.1 p.2) acc,
          RawText q.1 ∧ ∀ t, q.2 = .str t → RawText t := by
      intro items
      induction items with
      | nil => intro acc hn ha _; exact ⟨hn, ha⟩
      | cons x xs ih =>
        intro acc hn ha hx
        have hf := dictSet_facts (P := fun q : Text × AttrVal =>
          RawText q.1 ∧ ∀ t, q.2 = .str t → RawText t) hn ha (hx x List.mem_cons_self)
        exact ih _ hf.1 hf.2.1 fun q hq => hx q (List.mem_cons_of_mem _ hq)
    exact key items [] List.nodup_nil (by intro q hq; cases hq) hi
  · cases h
  · cases h
  · cases h

end Avb.Fast

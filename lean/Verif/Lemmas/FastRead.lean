import Verif.Lemmas.Fast
import Verif.Spec.Fast

/-
The accelerated readers simulate the portable ones, class by class.
-/

namespace Avb.Fast

variable {α β γ δ σ : Type} {ne : Bool} {p0 : Props} {n : Nat}

theorem sim_tag' {v : Int} {t : UInt8} (h : v = (t.toNat : Int)) :
    SimV false (rTag v) (tag t) (fun _ _ => True) := by subst h; exact sim_tag

theorem unsigned_toSigned {n v : Nat} (h : v < 2 ^ (8 * n)) :
    (v : Int) = unsigned n (toSigned n v) := by
  unfold toSigned unsigned
  have : ((2 : Int) ^ (8 * n)) = ((2 ^ (8 * n) : Nat) : Int) := by simp
  rw [this]
  split
  · rw [Int.sub_emod_right, Int.emod_eq_of_lt (by omega) (by omega)]
  · rw [Int.emod_eq_of_lt (by omega) (by omega)]

theorem toSigned_nonneg {n v : Nat} (hv : v < 2 ^ (8 * n)) (h : 0 ≤ toSigned n v) :
    toSigned n v = v := by
  unfold toSigned at h ⊢
  split at h
  · have : ((2 : Int) ^ (8 * n)) = ((2 ^ (8 * n) : Nat) : Int) := by simp
    rw [this] at h
    omega
  · rename_i h1
    rw [if_neg h1]

/-- A count read with a sign by one reader and without by the other. -/
theorem toSigned4 {a : Int} {v : Nat} (h : a = toSigned 4 v ∧ v < 2 ^ 32) (h0 : 0 ≤ a) :
    a = v := by
  obtain ⟨rfl, h2⟩ := h
  exact toSigned_nonneg h2 h0

theorem toSigned2 {a : Int} {v : Nat} (h : a = toSigned 2 v ∧ v < 2 ^ 16) (h0 : 0 ≤ a) :
    a = v := by
  obtain ⟨rfl, h2⟩ := h
  exact toSigned_nonneg h2 h0

theorem sim_s8' : SimV false rS8 (sint 1) (fun a b => a = b) := sim_s8
theorem sim_un8' : SimV false rU8 (unat 1) (fun a b => a = b) := sim_un8
theorem sim_date : SimV false (rDate .little) (unat 4) (fun a b => a = b) := sim_un32
theorem sim_s16n' : SimV false (rInt .little .s16) (unat 2) (fun a b => b = unsigned 2 a) :=
  SimV.map sim_s16u (by rintro a b ⟨rfl, h⟩; exact unsigned_toSigned h)
theorem sim_s32n' : SimV false (rInt .little .s32) (unat 4) (fun a b => b = unsigned 4 a) :=
  SimV.map sim_s32u (by rintro a b ⟨rfl, h⟩; exact unsigned_toSigned h)

/-- One step of both readers: a primitive, or a property added by the accelerated one. -/
macro "fstep" : tactic => `(tactic| first
  | (refine SimV.bind (sim_tag' (by rfl)) ?_; intro _ _ _)
  | (refine SimV.bind sim_ref ?_; intro _ _ h; subst h)
  | (refine SimV.bind sim_s32 ?_; intro _ _ h; subst h)
  | (refine SimV.bind sim_s16 ?_; intro _ _ h; subst h)
  | (refine SimV.bind sim_bool ?_; intro _ _ h; subst h)
  | (refine SimV.bind sim_s8' ?_; intro _ _ h; subst h)
  | (refine SimV.bind sim_un8' ?_; intro _ _ h; subst h)
  | (refine SimV.bind sim_un16 ?_; intro _ _ h; subst h)
  | (refine SimV.bind sim_un32 ?_; intro _ _ h; subst h)
  | (refine SimV.bind sim_date ?_; intro _ _ h; subst h)
  | (refine SimV.bind sim_s64 ?_; intro _ _ h; subst h)
  | (refine SimV.bind sim_rate ?_; intro _ _ h; subst h)
  | (refine SimV.bind sim_str ?_; intro _ _ h; subst h)
  | (refine SimV.bind sim_double ?_; intro _ _ h; subst h)
  | (refine SimV.bind sim_rawUuid ?_; intro _ _ h; subst h)
  | (refine SimV.bind sim_s16n' ?_; intro _ _ h; subst h)
  | (refine SimV.bind sim_s32n' ?_; intro _ _ h; subst h)
  | refine Sim.put ?_)

/-- The last property added by both readers. -/
macro "fput " u:term:max h:term:max : tactic =>
  `(tactic| (have h' := congrArg $u $h; exact Sim.put_last h'))

/-- The properties collected so far are those of the portable object. -/
def Same (props : α → Props) : α → Unit → Props → Prop := fun a _ p => p.seen = (props a).unsigned

theorem sim_end {props : α → Props} {x : α} (h : p0.seen = (props x).unsigned) :
    Sim ne p0 (rTag 3 >>= fun _ => Pure.pure x) (tag 3) (Same props) := by
  intro data pos a rest hp hr _
  obtain ⟨_, mid, e1, e2⟩ := rd_bind hr
  obtain ⟨b, pos', p', h1, h0, h2, h3, h4, h5⟩ :=
    (sim_tag' (t := 3) (v := 3) rfl) p0 data pos _ mid hp e1 (by simp)
  injection e2 with e2
  injection e2 with e2 e3
  subst e2 e3 h5
  exact ⟨(), pos', p', h1, h0, h2, h3, h⟩

theorem sim_comp : Sim false {} (Component.read ⟨.little, n⟩) read_comp (Same Component.props) := by
  unfold Component.read read_comp
  repeat fstep
  refine sim_iterExt (Inv := fun (s : Component) p => p.seen = s.props.unsigned) ?_ rfl
  intro t s p h
  unfold Component.ext compExt
  refine Sim.ite (tag_iff (by decide)) (fun _ => ?_) (fun _ => Sim.fail)
  fstep
  fstep; rename_i v
  fput (fun q : Props => { q with param_list := some v }) h

theorem sim_clip : Sim false {} (Clip.read ⟨.little, n⟩) read_clip (Same Clip.props) := by
  unfold Clip.read read_clip
  refine Sim.bind (Sim.ignore sim_comp) ?_
  intro base _ p h
  fstep
  fstep
  fstep; rename_i v
  fput (fun q : Props => { q with length := some v }) h

theorem sim_filler :
    Sim false {} (Filler.read ⟨.little, n⟩) read_filler (Same fun x => x.toClip.props) := by
  unfold Filler.read read_filler
  refine Sim.bind (Sim.ignore sim_clip) ?_
  intro base _ p h
  fstep
  fstep
  exact sim_end (props := fun x : Filler => x.toClip.props) h

theorem sim_sequence : Sim false {} (Sequence.read ⟨.little, n⟩) read_sequence
    (Same Sequence.props) := by
  unfold Sequence.read read_sequence
  refine Sim.bind (Sim.ignore sim_comp) ?_
  intro base _ p h
  fstep
  fstep
  refine SimV.bind sim_u32 ?_
  rintro _ c ⟨rfl, _⟩
  rw [Int.toNat_natCast]
  refine SimV.bind (sim_times_eq sim_ref c) ?_
  rintro l _ rfl
  fstep
  exact sim_end (congrArg (fun q : Props => { q with components := some l }) h)

theorem sim_trackref : Sim false {} (TrackRef.read ⟨.little, n⟩) read_trackref
    (Same TrackRef.props) := by
  unfold TrackRef.read read_trackref
  refine Sim.bind (Sim.ignore sim_clip) ?_
  intro base _ p h
  fstep
  fstep
  fstep; rename_i v
  fstep; rename_i w
  fstep
  exact sim_end (congrArg (fun q : Props => { q with
    relative_scope := some v, relative_track := some w }) h)

/-! ### Mob ids -/

theorem bytesLE_of_uuidOf {b : Bytes} {u : UUID} (h : uuidOf .little b = some u) :
    u.bytesLE = b := by
  unfold uuidOf uuidOfBytesLE at h
  simp only at h
  split at h
  · rename_i hb
    unfold uuidOfBytes at h
    split at h
    · injection h with h
      subst h
      exact swapUuid_swap hb
    · cases h
  · cases h

theorem rd_assoc {r : Rd α} {k : α → Rd β} {k' : β → Rd γ} :
    ((r >>= k) >>= k') = (r >>= fun a => k a >>= k') := by
  funext bs
  rw [Rd.bind_apply, Rd.bind_apply, Rd.bind_apply]
  match r bs with
  | .ok (a, mid) => rfl
  | .error e => rfl

theorem sim_mobId : SimV false (rMobId .little) mobId (fun a b => a = b) := by
  intro p0
  unfold rMobId mobId
  fstep
  refine SimV.bind sim_s32u ?_
  intro len len' hlen
  refine Sim.guard ?_
  intro hg
  have := toSigned4 hlen (by omega)
  refine Sim.ite_right (by omega) ?_
  refine SimV.bind (sim_bytesN 12) ?_
  rintro label _ ⟨rfl, hl⟩
  fstep
  refine SimV.bind sim_byte ?_
  rintro l _ rfl
  fstep
  refine SimV.bind sim_byte ?_
  rintro h _ rfl
  fstep
  refine SimV.bind sim_byte ?_
  rintro m _ rfl
  fstep
  refine SimV.bind sim_byte ?_
  rintro lo _ rfl
  unfold rUuid
  simp only [rd_assoc]
  fstep
  refine SimV.bind_ne (sim_fread (m := 4) (fun _ => rfl)) (fun _ => nilFails_bind nilFails_tag) ?_
  rintro d1 _ ⟨rfl, hl1⟩
  fstep
  refine SimV.bind_ne (sim_fread (m := 2) (fun _ => rfl)) (fun _ => nilFails_bind nilFails_tag) ?_
  rintro d2 _ ⟨rfl, hl2⟩
  fstep
  refine SimV.bind_ne (sim_fread (m := 2) (fun _ => rfl)) (fun _ => nilFails_bind nilFails_tag) ?_
  rintro d3 _ ⟨rfl, hl3⟩
  fstep
  refine SimV.bind sim_s32u ?_
  intro len len' hlen
  refine Sim.guard ?_
  intro hg
  have := toSigned4 hlen (by omega)
  refine Sim.ite_right (by omega) ?_
  intro data pos a rest hp hr _
  obtain ⟨d4, mid, e1, e2⟩ := rd_bind hr
  obtain ⟨u, mid2, e2, e3⟩ := rd_bind e2
  match hu : uuidOf .little (d1 ++ d2 ++ d3 ++ d4) with
  | none => rw [hu] at e2; cases e2
  | some v =>
    rw [hu] at e2
    injection e2 with e2
    injection e2 with e2 e4
    subst e2 e4
    have hlen : (d1 ++ d2 ++ d3 ++ d4).length = 16 := by
      have := bytesLE_of_uuidOf hu
      rw [← this]
      simp [UUID.bytesLE, swapUuid_length v.len]
    injection e1 with e1
    injection e1 with e1 e4
    subst e1 e4
    have h8 : Int.toNat 8 = 8 := rfl
    simp only [List.length_append, hl1, hl2, hl3, List.length_take, List.length_drop, h8] at hlen
    have hd : pos + 8 ≤ data.length := by omega
    unfold MobID.mk' at e3
    rw [bytesLE_of_uuidOf hu] at e3
    simp only at e3
    split at e3
    · rename_i hb
      injection e3 with e3
      injection e3 with e3 e4
      subst e3 e4
      refine ⟨_, pos + 8, p0, ?_, by omega, hd, by rw [drop_drop_add]; rfl, rfl, rfl⟩
      rw [bind_ok (bytes_at hd)]
      exact congrFun (congrFun (dif_pos hb) data) _
    · cases e3

theorem sim_sourceclip : Sim false {} (SourceClip.read ⟨.little, n⟩) read_sourceclip
    (Same SourceClip.props) := by
  unfold SourceClip.read read_sourceclip
  refine Sim.bind (Sim.ignore sim_clip) ?_
  intro base _ p h
  fstep
  fstep
  refine SimV.bind sim_u32 ?_
  intro _ _ _
  refine SimV.bind sim_u32 ?_
  intro _ _ _
  fstep; rename_i v
  fstep; rename_i w
  fstep
  refine Sim.bind (sim_iterExt (Inv := fun (s : SourceClip) p => p.seen = s.props.unsigned) ?_ ?_) ?_
  · intro t s p h
    unfold SourceClip.ext sourceclipExt
    refine Sim.ite (tag_iff (by decide)) (fun _ => ?_) (fun _ => Sim.fail)
    refine Sim.ignore (SimV.bind sim_mobId ?_)
    rintro m _ rfl
    fput (fun q : Props => { q with mob_id := some m }) h
  · exact congrArg (fun q : Props => { q with track_id := some v, start_time := some w }) h
  · intro s _ p h
    exact sim_end h

/-! ### Control points -/

theorem sim_pointValue {vt : Nat} : SimV false (PCP.readValue ⟨.little, n⟩ vt) (pointValue vt)
    (fun a b => b = unsignedVal a) := by
  intro p0
  unfold PCP.readValue pointValue
  refine Sim.ite (by omega) (fun _ => ?_) (fun _ => ?_)
  · fstep
    exact Sim.pure ⟨rfl, rfl⟩
  · refine Sim.ite (by omega) (fun _ => ?_) (fun _ => ?_)
    · fstep
      exact Sim.pure ⟨rfl, rfl⟩
    · refine Sim.ite (by omega) (fun _ => ?_) (fun _ => Sim.fail)
      fstep
      exact Sim.pure ⟨rfl, rfl⟩

theorem sim_pointProp : SimV false (PCPProp.read ⟨.little, n⟩) pointProp
    (fun a b => b = { a with value := unsignedVal a.value }) := by
  intro p0
  unfold PCPProp.read pointProp
  fstep; rename_i code
  refine SimV.bind sim_s16u ?_
  intro type t ht
  refine Sim.bind (R := fun a b p => b = unsignedVal a ∧ p = p0 ∧ type = t) ?_ ?_
  · unfold PCPProp.readValue propValue
    by_cases h1 : t = 1
    · subst h1
      have : type = 1 := ht.1
      subst this
      rw [if_neg (by decide), if_pos rfl, if_pos rfl]
      fstep
      exact Sim.pure ⟨rfl, rfl, rfl⟩
    · rw [if_neg h1]
      refine Sim.ite ?_ (fun h2 => ?_) (fun h2 => ?_)
      · constructor
        · intro h2
          have := toSigned2 ht (by omega)
          omega
        · rintro rfl
          exact ht.1
      · have := toSigned2 ht (by omega)
        fstep
        exact Sim.pure ⟨rfl, rfl, this⟩
      · refine Sim.ite_left' (fun h3 => ?_) Sim.fail
        have := toSigned2 ht (by omega)
        omega
  · rintro v w p ⟨rfl, rfl, rfl⟩
    exact Sim.pure ⟨rfl, rfl⟩

theorem forall₂_map {f : β → α} {as : List α} {bs : List β}
    (h : List.Forall₂ (fun a b => a = f b) as bs) : as = bs.map f := by
  induction h with
  | nil => rfl
  | cons h _ ih => rw [List.map_cons, ← h, ih]

theorem forall₂_map' {f : α → β} {as : List α} {bs : List β}
    (h : List.Forall₂ (fun a b => b = f a) as bs) : bs = as.map f := by
  induction h with
  | nil => rfl
  | cons h _ ih => rw [List.map_cons, ← h, ih]

theorem sim_point {vt : Nat} : SimV false (PCP.read ⟨.little, n⟩ vt) (point vt)
    (fun a b => b = unsignedPoint a) := by
  intro p0
  unfold PCP.read point
  fstep
  fstep
  fstep
  refine SimV.bind sim_pointValue ?_
  rintro v _ rfl
  refine SimV.bind sim_s16u ?_
  intro a b hab
  refine Sim.guard ?_
  intro hg
  have := toSigned2 hab hg
  subst this
  rw [Int.toNat_natCast]
  refine SimV.bind (sim_times sim_pointProp b) ?_
  intro as bs hs
  rw [forall₂_map' hs]
  exact Sim.pure ⟨rfl, rfl⟩

theorem sim_paramclip : Sim false {} (ParamClip.read ⟨.little, n⟩) read_paramclip
    (Same ParamClip.props) := by
  unfold ParamClip.read read_paramclip
  refine Sim.bind (Sim.ignore sim_clip) ?_
  intro base _ p h
  fstep
  fstep
  fstep; rename_i v
  refine SimV.bind sim_s16u ?_
  intro vt vt' hvt
  refine Sim.guard ?_
  intro hg
  have := toSigned2 hvt (by omega)
  subst this
  fstep
  refine SimV.bind sim_s32u ?_
  intro c c' hc
  refine Sim.guard ?_
  intro hg2
  have := toSigned4 hc hg2
  subst this
  rw [Int.toNat_natCast]
  refine SimV.bind (sim_times sim_point c') ?_
  intro as bs hs
  rw [forall₂_map' hs]
  fstep
  refine Sim.bind (sim_iterExt (Inv := fun (s : ParamClip) p => p.seen = s.props.unsigned) ?_ ?_) ?_
  · intro t s p h
    unfold ParamClip.ext paramclipExt
    refine Sim.ite (tag_iff (by decide)) (fun _ => ?_) (fun _ => ?_)
    · fstep
      fstep; rename_i v
      fput (fun q : Props => { q with extrap_kind := some v }) h
    · refine Sim.ite (tag_iff (by decide)) (fun _ => ?_) (fun _ => Sim.fail)
      fstep
      fstep; rename_i v
      fput (fun q : Props => { q with fields := some v }) h
  · exact congrArg (fun q : Props => { q with
      interp_kind := some v, value_type := some (vt' : Int),
      control_points := some (as.map unsignedPoint) }) h
  · intro s _ p h
    exact sim_end h

theorem sim_itemValue {vt : Int} : SimV false (ParameterItem.readValue ⟨.little, n⟩ vt)
    (itemValue vt) (fun a b => a = b) := by
  intro p0
  unfold ParameterItem.readValue itemValue
  refine Sim.ite (by omega) (fun _ => ?_) (fun _ => ?_)
  · fstep
    exact Sim.pure ⟨rfl, rfl⟩
  · refine Sim.ite (by omega) (fun _ => ?_) (fun _ => ?_)
    · fstep
      exact Sim.pure ⟨rfl, rfl⟩
    · refine Sim.ite (by omega) (fun _ => ?_) (fun _ => Sim.fail)
      fstep
      exact Sim.pure ⟨rfl, rfl⟩

theorem sim_paramitem : Sim false {} (ParameterItem.read ⟨.little, n⟩) read_paramitem
    (fun x _ p => p.seenItem = x.props) := by
  unfold ParameterItem.read read_paramitem
  fstep
  fstep
  fstep
  fstep
  fstep
  refine SimV.bind sim_itemValue ?_
  rintro v _ rfl
  fstep
  fstep
  fstep
  fstep
  refine Sim.bind (sim_iterExt (Inv := fun (s : ParameterItem) p => p.seenItem = s.props) ?_ rfl) ?_
  · intro t s p h
    unfold ParameterItem.ext paramitemExt
    refine Sim.ite (tag_iff (by decide)) (fun _ => ?_) (fun _ => Sim.fail)
    fstep
    fstep; rename_i v
    fput (fun q : Props => { q with contribs_to_sig := some v }) h
  · intro s _ p h data pos a rest hp hr hne
    obtain ⟨_, mid, e1, e2⟩ := rd_bind hr
    obtain ⟨b, pos', p', h1, h0, h2, h3, h4, h5⟩ :=
      (sim_tag' (t := 3) (v := 3) rfl) p data pos _ mid hp e1 (by simp)
    injection e2 with e2
    injection e2 with e2 e3
    subst e2 e3 h5
    exact ⟨(), pos', p', h1, h0, h2, h3, h⟩

/-! ### Track groups -/

/-- A reader that only accepts payloads with a property. -/
noncomputable def only (P : Bytes → Prop) (r : Rd α) : Rd α := fun bs =>
  open Classical in if P bs then r bs else .error .assertion

theorem only_ok {P : Bytes → Prop} {r : Rd α} {bs : Bytes} (h : P bs) : only P r bs = r bs := by
  unfold only; rw [if_pos h]

theorem only_bind {P : Bytes → Prop} {r : Rd α} {k : α → Rd β} :
    only P (r >>= k) = (only P r >>= k) := by
  funext bs
  by_cases h : P bs
  · rw [only_ok h, Rd.bind_apply, Rd.bind_apply, only_ok h]
  · rw [Rd.bind_apply]
    unfold only
    rw [if_neg h, if_neg h]

theorem Sim.mono {r r' : Rd α} {f : Fast β} {R : α → β → Props → Prop}
    (h : ∀ bs v, r' bs = .ok v → r bs = .ok v) (hs : Sim ne p0 r f R) : Sim ne p0 r' f R :=
  fun data pos a rest hp hr hne => hs data pos a rest hp (h _ _ hr) hne

theorem sim_opt {c : Bool} {r : Rd α} {f : Fast α} (h : SimV false r f (fun a b => a = b)) :
    SimV false (Rd.opt c r) (opt c f) (fun a b => a = b) := by
  intro p0
  unfold Rd.opt opt
  refine Sim.ite Iff.rfl (fun _ => ?_) (fun _ => Sim.pure ⟨rfl, rfl⟩)
  refine SimV.bind h ?_
  rintro a _ rfl
  exact Sim.pure ⟨rfl, rfl⟩

theorem modify_append_cons (u : α → α) (l : List α) (a : α) (m : List α) :
    (l ++ a :: m).modify l.length u = l ++ u a :: m := by
  induction l with
  | nil => rfl
  | cons b l ih => simp; exact ih

theorem sim_oneTrack {q : Props} {done : List Track} {t0 : Track} {todo : List Track} :
    Sim false { q with tracks := some (done ++ t0 :: todo) } (Track.read ⟨.little, n⟩)
      (oneTrack done.length)
      (fun t _ p => p = { q with tracks := some (done ++ t :: todo) }) := by
  unfold Track.read oneTrack
  refine SimV.bind sim_u16 ?_
  rintro _ fl ⟨rfl, _⟩
  simp only [Int.toNat_natCast]
  refine SimV.bind (sim_opt sim_s16) ?_
  rintro _ _ rfl
  refine SimV.bind (sim_opt sim_ref) ?_
  rintro _ _ rfl
  refine SimV.bind (sim_opt sim_ref) ?_
  rintro _ _ rfl
  refine SimV.bind (sim_opt sim_ref) ?_
  rintro _ _ rfl
  refine SimV.bind (sim_opt sim_ref) ?_
  rintro _ _ rfl
  refine SimV.bind (sim_opt sim_ref) ?_
  rintro _ _ rfl
  refine SimV.bind (sim_opt sim_s16) ?_
  rintro _ _ rfl
  refine SimV.bind (sim_opt sim_s16) ?_
  rintro _ _ rfl
  refine SimV.bind (sim_opt sim_s32) ?_
  rintro _ _ rfl
  refine SimV.bind (sim_opt sim_bool) ?_
  rintro _ _ rfl
  unfold onTrack
  fstep
  refine Sim.guard ?_
  intro h1
  refine Sim.ite_right (by omega) ?_
  refine Sim.guard ?_
  intro h2
  refine Sim.pure ?_
  simp only [Option.map_some, modify_append_cons]

theorem sim_tracks {q : Props} (k : Nat) : ∀ {done : List Track},
    Sim false { q with tracks := some (done ++ List.replicate k emptyTrack) }
      (readN k (Track.read ⟨.little, n⟩)) (each oneTrack done.length k)
      (fun ts _ p => p = { q with tracks := some (done ++ ts) } ∧ ts.length = k) := by
  induction k with
  | zero => intro done; exact Sim.pure ⟨rfl, rfl⟩
  | succ k ih =>
    intro done
    unfold readN each
    refine Sim.bind (sim_oneTrack (todo := List.replicate k emptyTrack)) ?_
    rintro t _ _ rfl
    have e : done ++ t :: List.replicate k emptyTrack =
      (done ++ [t]) ++ List.replicate k emptyTrack := by simp
    have e2 : done.length + 1 = (done ++ [t]).length := by simp
    rw [e, e2]
    intro data pos a rest hp hr hne
    obtain ⟨ts, mid, e3, e4⟩ := rd_bind hr
    injection e4 with e4
    injection e4 with e4 e5
    subst e4 e5
    obtain ⟨b, pos', p', h1, h0, h2, h3, rfl, h5⟩ := ih data pos ts _ hp e3 (by simp)
    exact ⟨b, pos', _, h1, h0, h2, h3, by simp, by simp [h5]⟩

theorem sim_locks {q : Props} : ∀ {ts done : List Track},
    Sim false { q with tracks := some (done ++ ts) }
      (readN ts.length (rLock ⟨.little, n⟩)) (each oneLock done.length ts.length)
      (fun ls _ p => p = { q with tracks := some (done ++
        ts.zipWith (fun (t : Track) l => { t with lock_number := some l }) ls) } ∧
        ls.length = ts.length) := by
  intro ts
  induction ts with
  | nil => intro done; exact Sim.pure ⟨rfl, rfl⟩
  | cons t ts ih =>
    intro done
    unfold readN each
    have h1 : Sim false { q with tracks := some (done ++ t :: ts) } (rLock ⟨.little, n⟩)
        (oneLock done.length) (fun l _ p => p = { q with
          tracks := some (done ++ { t with lock_number := some l } :: ts) }) := by
      unfold rLock oneLock onTrack
      fstep
      intro data pos a rest hp hr hne
      obtain ⟨b, pos', p', g1, g0, g2, g3, rfl, rfl⟩ :=
        sim_s16 { q with tracks := some (done ++ t :: ts) } data pos a rest hp hr hne
      refine ⟨(), pos', _, bind_ok g1, g0, g2, g3, ?_⟩
      simp only [Option.map_some, modify_append_cons]
    refine Sim.bind h1 ?_
    rintro l _ _ rfl
    have e : done ++ { t with lock_number := some l } :: ts =
      (done ++ [{ t with lock_number := some l }]) ++ ts := by simp
    have e2 : done.length + 1 = (done ++ [{ t with lock_number := some l }]).length := by simp
    rw [e, e2]
    intro data pos a rest hp hr hne
    obtain ⟨ls, mid, e3, e4⟩ := rd_bind hr
    injection e4 with e4
    injection e4 with e4 e5
    subst e4 e5
    obtain ⟨b, pos', p', h1, h0, h2, h3, rfl, h5⟩ := ih data pos ls _ hp e3 (by simp)
    exact ⟨b, pos', _, h1, h0, h2, h3, by simp, by simp [h5]⟩

/-- `TrackGroup.read` refusing a negative number of tracks. -/
def strictTrackGroup (d : RCtx) : Rd TrackGroup := do
  let base ← Component.read d
  rTag 0x02
  rTag 0x08
  let mc_mode ← rU8
  let length ← rInt d.bo .s32
  let num_scalars ← rInt d.bo .s32
  let track_count ← rInt d.bo .s32
  Rd.guard (0 ≤ track_count) .assertion
  let tracks ← readN track_count.toNat (Track.read d)
  Avb.iterExt (TrackGroup.ext d) { toComponent := base, mc_mode, length, num_scalars, tracks }

theorem strictTrackGroup_of {d : RCtx} {bs : Bytes} {v : TrackGroup × Bytes}
    (h : only (CountOK (TrackGroup.storedCount d)) (TrackGroup.read d) bs = .ok v) :
    strictTrackGroup d bs = .ok v := by
  by_cases hc : CountOK (TrackGroup.storedCount d) bs
  · rw [only_ok hc] at h
    obtain ⟨v, rest⟩ := v
    obtain ⟨base, m1, e1, h⟩ := rd_bind h
    obtain ⟨_, m2, e2, h⟩ := rd_bind h
    obtain ⟨_, m3, e3, h⟩ := rd_bind h
    obtain ⟨mc, m4, e4, h⟩ := rd_bind h
    obtain ⟨len, m5, e5, h⟩ := rd_bind h
    obtain ⟨num, m6, e6, h⟩ := rd_bind h
    obtain ⟨cnt, m7, e7, h⟩ := rd_bind h
    have h0 : 0 ≤ cnt := by
      refine hc cnt m7 ?_
      unfold TrackGroup.storedCount
      rw [Rd.bind_ok e1, Rd.bind_ok e2, Rd.bind_ok e3, Rd.bind_ok e4, Rd.bind_ok e5, Rd.bind_ok e6,
        e7]
    unfold strictTrackGroup
    rw [Rd.bind_ok e1, Rd.bind_ok e2, Rd.bind_ok e3, Rd.bind_ok e4, Rd.bind_ok e5, Rd.bind_ok e6,
      Rd.bind_ok e7]
    have hg : Rd.guard (0 ≤ cnt) Err.assertion m7 = .ok ((), m7) := by
      unfold Rd.guard; rw [if_pos h0]
    rw [Rd.bind_ok hg]
    exact h
  · unfold only at h
    rw [if_neg hc] at h
    cases h

theorem with_tracks {p : Props} {l : List Track} (h : p.tracks = some l) :
    p = { p with tracks := some l } := by
  rw [← h]

theorem sim_trackgroup :
    Sim false {} (only (CountOK (TrackGroup.storedCount ⟨.little, n⟩)) (TrackGroup.read ⟨.little, n⟩))
      read_trackgroup (Same TrackGroup.props) := by
  refine Sim.mono (fun _ _ => strictTrackGroup_of) ?_
  unfold strictTrackGroup read_trackgroup
  refine Sim.bind (Sim.ignore sim_comp) ?_
  intro base _ p h
  fstep
  fstep
  fstep; rename_i mc
  fstep; rename_i len
  fstep; rename_i num
  fstep
  fstep; rename_i cnt
  refine Sim.guard ?_
  intro hc
  refine Sim.ite_right (by omega) ?_
  fstep
  refine Sim.bind (sim_tracks (done := []) (q := { p with
    mc_mode := some mc, length := some len, num_scalars := some num }) cnt.toNat) ?_
  rintro ts _ _ ⟨rfl, hts⟩
  intro data pos a rest hp hr hne
  have main := sim_iterExt (ne := false) (p0 := { p with
      mc_mode := some mc, length := some len, num_scalars := some num, tracks := some ts })
    (body := TrackGroup.ext ⟨.little, n⟩) (fbody := trackgroupExt cnt.toNat)
    (Inv := fun (s : TrackGroup) p => p.seen = s.props.unsigned ∧ s.tracks.length = cnt.toNat)
    (s := { toComponent := base, mc_mode := mc, length := len, num_scalars := num, tracks := ts })
    ?_ ?_ data pos a rest hp hr (by simp)
  · obtain ⟨b, pos', p', h1, h0, h2, h3, h4, _⟩ := main
    exact ⟨b, pos', p', h1, h0, h2, h3, h4⟩
  · rintro t s q ⟨hq, hl⟩
    unfold TrackGroup.ext trackgroupExt
    refine Sim.ite (tag_iff (by decide)) (fun _ => ?_) (fun _ => Sim.fail)
    have ht : q.tracks = some s.tracks := congrArg Props.tracks hq
    rw [with_tracks ht, ← hl]
    intro data pos a rest hp hr hne
    obtain ⟨ls, mid, e3, e4⟩ := rd_bind hr
    injection e4 with e4
    injection e4 with e4 e5
    subst e4 e5
    obtain ⟨b, pos', p', h1, h0, h2, h3, rfl, h5⟩ :=
      sim_locks (n := n) (q := q) (done := []) (ts := s.tracks) data pos ls _ hp e3 (by simp)
    refine ⟨b, pos', _, h1, h0, h2, h3, ?_, by simp [h5]⟩
    exact congrArg (fun q : Props => { q with
      tracks := some (s.tracks.zipWith (fun (t : Track) l => { t with lock_number := some l }) ls) }) hq
  · exact ⟨congrArg (fun q : Props => { q with
      mc_mode := some mc, length := some len, num_scalars := some num, tracks := some ts }) h, hts⟩

theorem sim_trackeffect : Sim false {} (only (TracksOK n) (TrackEffect.readBody ⟨.little, n⟩))
    read_trackeffect (Same TrackEffect.props) := by
  unfold TrackEffect.readBody read_trackeffect
  rw [only_bind]
  refine Sim.bind (Sim.ignore sim_trackgroup) ?_
  intro base _ p h
  fstep
  fstep
  fstep; rename_i v1
  fstep; rename_i v2
  fstep; rename_i v3
  fstep; rename_i v4
  fstep; rename_i v5
  fstep; rename_i v6
  fstep; rename_i v7
  fstep; rename_i v8
  fstep; rename_i v9
  fstep; rename_i v10
  fstep; rename_i v11
  fstep; rename_i v12
  fstep
  refine sim_iterExt (Inv := fun (s : TrackEffect) p => p.seen = s.props.unsigned) ?_ ?_
  · intro t s p h
    unfold TrackEffect.ext trackeffectExt
    refine Sim.ite (tag_iff (by decide)) (fun _ => ?_) (fun _ => Sim.fail)
    fstep
    fstep; rename_i v
    fput (fun q : Props => { q with trackman := some v }) h
  · exact congrArg (fun q : Props => { q with
      left_length := some v1, right_length := some v2, info_version := some v3,
      info_current := some v4, info_smooth := some v5, info_color_item := some v6,
      info_quality := some v7, info_is_reversed := some v8, info_aspect_on := some v9,
      keyframes := some v10, info_force_software := some v11, info_never_hardware := some v12 }) h

theorem sim_selector : Sim false {} (only (TracksOK n) (Selector.read ⟨.little, n⟩))
    read_selector (Same Selector.props) := by
  unfold Selector.read read_selector
  rw [only_bind]
  refine Sim.bind (Sim.ignore sim_trackgroup) ?_
  intro base _ p h
  fstep
  fstep
  fstep; rename_i v1
  fstep; rename_i v2
  fstep
  refine Sim.guard ?_
  intro _
  exact sim_end (congrArg (fun q : Props => { q with
    is_ganged := some v1, selected := some v2 }) h)

theorem sim_composition : Sim false {} (only (TracksOK n) (Composition.read ⟨.little, n⟩))
    read_composition (Same Composition.props) := by
  unfold Composition.read read_composition
  rw [only_bind]
  refine Sim.bind (Sim.ignore sim_trackgroup) ?_
  intro base _ p h
  fstep
  fstep
  refine SimV.bind sim_u32 ?_
  intro _ _ _
  refine SimV.bind sim_u32 ?_
  intro _ _ _
  fstep; rename_i v1
  fstep; rename_i v2
  refine SimV.bind sim_s32n' ?_
  rintro v3 _ rfl
  fstep; rename_i v4
  fstep
  refine Sim.bind (sim_iterExt (Inv := fun (s : Composition) p => p.seen = s.props.unsigned) ?_ ?_) ?_
  · intro t s p h
    unfold Composition.ext compositionExt
    refine Sim.ite (tag_iff (by decide)) (fun _ => ?_) (fun _ => ?_)
    · fstep
      fstep; rename_i v
      fput (fun q : Props => { q with creation_time := some v }) h
    · refine Sim.ite (tag_iff (by decide)) (fun _ => ?_) (fun _ => Sim.fail)
      refine Sim.ignore (SimV.bind sim_mobId ?_)
      rintro m _ rfl
      fput (fun q : Props => { q with mob_id := some m }) h
  · exact congrArg (fun q : Props => { q with
      last_modified := some v1, mob_type_id := some v2, usage_code := some (unsigned 4 v3),
      descriptor := some v4 }) h
  · intro s _ p h
    exact sim_end h

/-! ### Media descriptors -/

theorem sim_data32 {t : IntTy} {V : Int → Nat → Prop} (hs : SimV false (rInt .little t) (uint 4) V)
    (hV : ∀ a b, V a b → 0 ≤ a → a = b) :
    SimV true (rInt .little t >>= fun size => fread size) data32 (fun a b => a = b) := by
  intro p0
  unfold data32
  refine SimV.bind hs ?_
  intro a b hab data pos c rest hp hr hne
  obtain ⟨b', pos1, p1, h1, h0, h2, h3, ⟨rfl, _⟩, h5⟩ :=
    sim_fread (n := a) (m := b) (hV a b hab) p0 data pos c _ hp hr hne
  exact ⟨c, pos1, p1, h1, h0, h2, h3, rfl, h5⟩

theorem sim_data32s :
    SimV true (rInt .little .s32 >>= fun size => fread size) data32 (fun a b => a = b) :=
  sim_data32 sim_s32u (fun _ _ h h0 => toSigned4 h h0)

theorem sim_data32u :
    SimV true (rInt .little .u32 >>= fun size => fread size) data32 (fun a b => a = b) :=
  sim_data32 sim_u32 (fun _ _ h _ => h.1)

theorem SimV.bind_put {r : Rd α} {f : Fast β} {V : α → β → Prop} {g : α → γ}
    {u : β → Props → Props} {R : γ → Unit → Props → Prop} (h : SimV ne r f V)
    (hR : ∀ a b, V a b → R (g a) () (u b p0)) :
    Sim ne p0 (r >>= fun a => (Pure.pure (g a) : Rd γ)) (f >>= fun b => Fast.put (u b)) R := by
  intro data pos a rest hp hr hne
  obtain ⟨v, mid, e1, e2⟩ := rd_bind hr
  injection e2 with e2
  injection e2 with e2 e3
  subst e2 e3
  obtain ⟨b, pos1, p1, h1, h0, h2, h3, h4, rfl⟩ := h p0 data pos v _ hp e1 hne
  exact ⟨(), pos1, u b p1, bind_ok h1, h0, h2, h3, hR _ _ h4⟩

theorem sim_media : Sim false {} (MediaDescriptor.readBody ⟨.little, n⟩) read_media_descriptor
    (Same MediaDescriptor.props) := by
  unfold MediaDescriptor.readBody read_media_descriptor
  repeat fstep
  refine sim_iterExt (Inv := fun (s : MediaDescriptor) p => p.seen = s.props.unsigned) ?_ rfl
  intro t s p h
  unfold MediaDescriptor.ext mediaExt
  refine Sim.ite (tag_iff (by decide)) (fun _ => ?_) (fun _ => ?_)
  · fstep
    refine SimV.bind sim_s32u ?_
    intro a b hab
    refine Sim.guard ?_
    intro hg
    have := toSigned4 hab (by omega)
    refine Sim.ite_right (by omega) ?_
    fstep; rename_i v
    fput (fun q : Props => { q with uuid := some v }) h
  · refine Sim.ite (tag_iff (by decide)) (fun _ => ?_) (fun _ => ?_)
    · fstep
      refine Sim.mono (r := (rInt .little .s32 >>= fun size => fread size) >>= _)
        (fun _ _ h => by rw [rd_assoc]; exact h) ?_
      refine SimV.bind_put sim_data32s ?_
      rintro v _ rfl
      exact congrArg (fun q : Props => { q with wchar := some v }) h
    · refine Sim.ite (tag_iff (by decide)) (fun _ => ?_) (fun _ => Sim.fail)
      fstep
      fstep; rename_i v
      fput (fun q : Props => { q with attributes := some v }) h

theorem sim_mediafile : Sim false {} (MediaFileDescriptor.readBody ⟨.little, n⟩)
    read_media_file_descriptor (Same MediaFileDescriptor.props) := by
  unfold MediaFileDescriptor.readBody read_media_file_descriptor
  refine Sim.bind sim_media ?_
  intro base _ p h
  fstep
  fstep
  fstep; rename_i v1
  fstep; rename_i v2
  fstep; rename_i v3
  fstep; rename_i v4
  fput (fun q : Props => { q with
    edit_rate := some v1, length := some v2, is_omfi := some v3, data_offset := some v4 }) h

theorem sim_boxPoint : SimV false (rPoint ⟨.little, n⟩) boxPoint (fun a b => a = b) := by
  intro p0
  unfold rPoint boxPoint
  repeat fstep
  exact Sim.pure ⟨rfl, rfl⟩

theorem sim_box : SimV false (rBox ⟨.little, n⟩) box (fun a b => a = b) := by
  intro p0
  unfold rBox box
  refine Sim.keepShort ?_
  refine SimV.bind sim_boxPoint ?_
  rintro _ _ rfl
  refine SimV.bind sim_boxPoint ?_
  rintro _ _ rfl
  refine SimV.bind sim_boxPoint ?_
  rintro _ _ rfl
  refine SimV.bind sim_boxPoint ?_
  rintro _ _ rfl
  exact Sim.pure ⟨rfl, rfl⟩

/-- `DIDDescriptor.read` refusing a negative size of the line map. -/
def strictDID (d : RCtx) : Rd DIDDescriptor := do
  let base ← MediaFileDescriptor.readBody d
  rTag 0x02
  rTag 0x02
  let stored_height ← rInt d.bo .s32
  let stored_width ← rInt d.bo .s32
  let sampled_height ← rInt d.bo .s32
  let sampled_width ← rInt d.bo .s32
  let sampled_x_offset ← rInt d.bo .s32
  let sampled_y_offset ← rInt d.bo .s32
  let display_height ← rInt d.bo .s32
  let display_width ← rInt d.bo .s32
  let display_x_offset ← rInt d.bo .s32
  let display_y_offset ← rInt d.bo .s32
  let frame_layout ← rInt d.bo .s16
  let numerator ← rInt d.bo .s32
  let denominator ← rInt d.bo .s32
  let line_map_byte_size ← rInt d.bo .s32
  Rd.guard (0 ≤ line_map_byte_size) .assertion
  let line_map ← readN (line_map_byte_size / 4).toNat (rInt d.bo .s32)
  let alpha_transparency ← rInt d.bo .s32
  let uniformness ← rBool
  let did_image_size ← rInt d.bo .s32
  let next_did_desc ← rRef d
  let compress_method ← rFourcc d.bo
  let resolution_id ← rInt d.bo .s32
  let image_alignment_factor ← rInt d.bo .s32
  Avb.iterExt (DIDDescriptor.ext d)
    { toMediaFileDescriptor := base, stored_height, stored_width, sampled_height, sampled_width,
      sampled_x_offset, sampled_y_offset, display_height, display_width, display_x_offset,
      display_y_offset, frame_layout, aspect_ratio := (numerator, denominator), line_map,
      alpha_transparency, uniformness, did_image_size, next_did_desc, compress_method,
      resolution_id, image_alignment_factor, frame_index_byte_order := none, frame_sample_size :=
      none, first_frame_offset := none, client_fill_start := none, client_fill_end := none,
      offset_to_rle_frame_index := none, frame_start_offset := none, valid_box := none,
      essence_box := none, source_box := none, framing_box := none, reformatting_option := none,
      transfer_characteristic := none, color_primaries := none, coding_equations := none,
      essence_compression := none, essence_element_size_kind := none, frame_checked_with_mapper :=
      none }

theorem strictDID_of {d : RCtx} {bs : Bytes} {v : DIDDescriptor × Bytes}
    (h : only (CountOK (DIDDescriptor.storedCount d)) (DIDDescriptor.readBody d) bs = .ok v) :
    strictDID d bs = .ok v := by
  by_cases hc : CountOK (DIDDescriptor.storedCount d) bs
  · rw [only_ok hc] at h
    obtain ⟨v, rest⟩ := v
    obtain ⟨base, m1, e1, h⟩ := rd_bind h
    obtain ⟨_, m2, e2, h⟩ := rd_bind h
    obtain ⟨_, m3, e3, h⟩ := rd_bind h
    obtain ⟨_, m4, e4, h⟩ := rd_bind h
    obtain ⟨_, m5, e5, h⟩ := rd_bind h
    obtain ⟨_, m6, e6, h⟩ := rd_bind h
    obtain ⟨_, m7, e7, h⟩ := rd_bind h
    obtain ⟨_, m8, e8, h⟩ := rd_bind h
    obtain ⟨_, m9, e9, h⟩ := rd_bind h
    obtain ⟨_, m10, e10, h⟩ := rd_bind h
    obtain ⟨_, m11, e11, h⟩ := rd_bind h
    obtain ⟨_, m12, e12, h⟩ := rd_bind h
    obtain ⟨_, m13, e13, h⟩ := rd_bind h
    obtain ⟨_, m14, e14, h⟩ := rd_bind h
    obtain ⟨_, m15, e15, h⟩ := rd_bind h
    obtain ⟨_, m16, e16, h⟩ := rd_bind h
    obtain ⟨cnt, m17, e17, h⟩ := rd_bind h
    have h0 : 0 ≤ cnt := by
      refine hc cnt m17 ?_
      unfold DIDDescriptor.storedCount
      rw [Rd.bind_ok e1, Rd.bind_ok e2, Rd.bind_ok e3, Rd.bind_ok e4, Rd.bind_ok e5, Rd.bind_ok e6,
        Rd.bind_ok e7, Rd.bind_ok e8, Rd.bind_ok e9, Rd.bind_ok e10, Rd.bind_ok e11, Rd.bind_ok e12,
        Rd.bind_ok e13, Rd.bind_ok e14, Rd.bind_ok e15, Rd.bind_ok e16, e17]
    unfold strictDID
    rw [Rd.bind_ok e1, Rd.bind_ok e2, Rd.bind_ok e3, Rd.bind_ok e4, Rd.bind_ok e5, Rd.bind_ok e6,
      Rd.bind_ok e7, Rd.bind_ok e8, Rd.bind_ok e9, Rd.bind_ok e10, Rd.bind_ok e11, Rd.bind_ok e12,
      Rd.bind_ok e13, Rd.bind_ok e14, Rd.bind_ok e15, Rd.bind_ok e16, Rd.bind_ok e17]
    have hg : Rd.guard (0 ≤ cnt) Err.assertion m17 = .ok ((), m17) := by
      unfold Rd.guard; rw [if_pos h0]
    rw [Rd.bind_ok hg]
    exact h
  · unfold only at h
    rw [if_neg hc] at h
    cases h

theorem sim_fourcc : SimV true (rFourcc .little) (bytes 4) (fun a b => a = b.reverse) := by
  intro p0 data pos a rest hp hr hne
  obtain ⟨v, mid, e1, e2⟩ := rd_bind hr
  injection e2 with e2
  injection e2 with e2 e3
  subst e2 e3
  obtain ⟨b, pos1, p1, h1, h0, h2, h3, ⟨rfl, _⟩, h5⟩ :=
    sim_fread (n := 4) (m := 4) (fun _ => rfl) p0 data pos v _ hp e1 hne
  exact ⟨v, pos1, p1, h1, h0, h2, h3, rfl, h5⟩

theorem sim_did : Sim false {} (only (LineMapOK n) (DIDDescriptor.readBody ⟨.little, n⟩))
    read_did_descriptor (Same DIDDescriptor.props) := by
  refine Sim.mono (fun _ _ => strictDID_of) ?_
  unfold strictDID read_did_descriptor
  refine Sim.bind (Sim.ignore sim_mediafile) ?_
  intro base _ p h
  fstep
  fstep
  fstep; rename_i v1
  fstep; rename_i v2
  fstep; rename_i v3
  fstep; rename_i v4
  fstep; rename_i v5
  fstep; rename_i v6
  fstep; rename_i v7
  fstep; rename_i v8
  fstep; rename_i v9
  fstep; rename_i v10
  fstep; rename_i v11
  fstep; rename_i v12
  fstep; rename_i v13
  refine SimV.bind sim_s32u ?_
  intro a b hab
  refine Sim.guard ?_
  intro hg
  have := toSigned4 hab hg
  have hdiv : (a / 4).toNat = b / 4 := by omega
  rw [hdiv]
  refine SimV.bind (sim_times_eq sim_s32 _) ?_
  rintro lm _ rfl
  fstep; rename_i v14
  fstep; rename_i v15
  fstep; rename_i v16
  fstep; rename_i v17
  refine SimV.bind_ne sim_fourcc (fun _ => nilFails_bind nilFails_int') ?_
  rintro _ cm rfl
  fstep; rename_i v18
  fstep; rename_i v19
  fstep
  refine sim_iterExt (Inv := fun (s : DIDDescriptor) p => p.seen = s.props.unsigned) ?_ ?_
  · intro t s p h
    unfold DIDDescriptor.ext didExt
    refine Sim.ite (tag_iff (by decide)) (fun _ => ?_) (fun _ => ?_)
    · fstep
      fstep; rename_i v
      fput (fun q : Props => { q with frame_index_byte_order := some v }) h
    refine Sim.ite (tag_iff (by decide)) (fun _ => ?_) (fun _ => ?_)
    · fstep
      fstep; rename_i v
      fput (fun q : Props => { q with frame_sample_size := some v }) h
    refine Sim.ite (tag_iff (by decide)) (fun _ => ?_) (fun _ => ?_)
    · fstep
      fstep; rename_i v
      fput (fun q : Props => { q with first_frame_offset := some v }) h
    refine Sim.ite (tag_iff (by decide)) (fun _ => ?_) (fun _ => ?_)
    · fstep
      fstep; rename_i v
      fstep
      fstep
      fstep; rename_i w
      fput (fun q : Props => { q with client_fill_start := some v, client_fill_end := some w }) h
    refine Sim.ite (tag_iff (by decide)) (fun _ => ?_) (fun _ => ?_)
    · fstep
      fstep; rename_i v
      fput (fun q : Props => { q with offset_to_rle_frame_index := some v }) h
    refine Sim.ite (tag_iff (by decide)) (fun _ => ?_) (fun _ => ?_)
    · fstep
      fstep; rename_i v
      fput (fun q : Props => { q with frame_start_offset := some v }) h
    refine Sim.ite (tag_iff (by decide)) (fun _ => ?_) (fun _ => ?_)
    · refine SimV.bind sim_box ?_
      rintro v _ rfl
      fstep
      refine SimV.bind sim_box ?_
      rintro w _ rfl
      fstep
      refine SimV.bind sim_box ?_
      rintro x _ rfl
      fput (fun q : Props => { q with
        valid_box := some v, essence_box := some w, source_box := some x }) h
    refine Sim.ite (tag_iff (by decide)) (fun _ => ?_) (fun _ => ?_)
    · refine SimV.bind sim_box ?_
      rintro v _ rfl
      fstep
      fstep
      fstep; rename_i w
      fput (fun q : Props => { q with framing_box := some v, reformatting_option := some w }) h
    refine Sim.ite (tag_iff (by decide)) (fun _ => ?_) (fun _ => ?_)
    · fstep
      fstep; rename_i v
      fput (fun q : Props => { q with transfer_characteristic := some v }) h
    refine Sim.ite (tag_iff (by decide)) (fun _ => ?_) (fun _ => ?_)
    · fstep
      fstep; rename_i v
      fstep
      fstep
      fstep; rename_i w
      fput (fun q : Props => { q with color_primaries := some v, coding_equations := some w }) h
    refine Sim.ite (tag_iff (by decide)) (fun _ => ?_) (fun _ => ?_)
    · fstep
      fstep; rename_i v
      fput (fun q : Props => { q with essence_compression := some v }) h
    refine Sim.ite (tag_iff (by decide)) (fun _ => ?_) (fun _ => ?_)
    · fstep
      fstep; rename_i v
      fput (fun q : Props => { q with essence_element_size_kind := some v }) h
    refine Sim.ite (tag_iff (by decide)) (fun _ => ?_) (fun _ => Sim.fail)
    fstep
    fstep; rename_i v
    fput (fun q : Props => { q with frame_checked_with_mapper := some v }) h
  · exact congrArg (fun q : Props => { q with
      stored_height := some v1, stored_width := some v2, sampled_height := some v3,
      sampled_width := some v4, sampled_x_offset := some v5, sampled_y_offset := some v6,
      display_height := some v7, display_width := some v8, display_x_offset := some v9,
      display_y_offset := some v10, frame_layout := some v11, aspect_ratio := some (v12, v13),
      line_map := some lm, alpha_transparency := some v14, uniformness := some v15,
      did_image_size := some v16, next_did_desc := some v17, compress_method := some cm.reverse,
      resolution_id := some v18, image_alignment_factor := some v19 }) h

theorem sim_cdci : Sim false {} (only (LineMapOK n) (CDCIDescriptor.read ⟨.little, n⟩))
    read_cdci_descriptor (Same CDCIDescriptor.props) := by
  unfold CDCIDescriptor.read CDCIDescriptor.readBody read_cdci_descriptor
  simp only [rd_assoc]
  rw [only_bind]
  refine Sim.bind (Sim.ignore sim_did) ?_
  intro base _ p h
  fstep
  fstep
  fstep; rename_i v1
  fstep; rename_i v2
  refine SimV.bind sim_s32n' ?_
  rintro v3 _ rfl
  fstep; rename_i v4
  fstep; rename_i v5
  fstep; rename_i v6
  fstep; rename_i v7
  fstep; rename_i v8
  fstep
  refine Sim.bind (sim_iterExt (Inv := fun (s : CDCIDescriptor) p => p.seen = s.props.unsigned) ?_ ?_) ?_
  · intro t s p h
    unfold CDCIDescriptor.ext cdciExt
    refine Sim.ite (tag_iff (by decide)) (fun _ => ?_) (fun _ => ?_)
    · fstep
      fstep; rename_i v
      fput (fun q : Props => { q with alpha_sampled_width := some v }) h
    · refine Sim.ite (tag_iff (by decide)) (fun _ => ?_) (fun _ => Sim.fail)
      fstep
      fstep; rename_i v
      fput (fun q : Props => { q with ignore_bw := some v }) h
  · exact congrArg (fun q : Props => { q with
      horizontal_subsampling := some v1, vertical_subsampling := some v2,
      component_width := some (unsigned 4 v3), color_sitting := some v4, black_ref_level := some v5,
      white_ref_level := some v6, color_range := some v7, frame_index_offset := some v8 }) h
  · intro s _ p h
    exact sim_end h

/-! ### Effect parameters -/

theorem sim_effectParam : SimV false (EffectParam.read ⟨.little, n⟩) effectParam
    (fun a b => a = b) := by
  intro p0
  unfold EffectParam.read effectParam
  repeat fstep
  refine SimV.bind sim_s32u ?_
  intro a b hab
  refine Sim.guard ?_
  intro hg
  have := toSigned4 hab hg
  subst this
  rw [Int.toNat_natCast]
  refine SimV.bind (sim_times_eq sim_s32 b) ?_
  rintro colors _ rfl
  refine SimV.bind sim_s32u ?_
  intro c d hcd
  refine Sim.guard ?_
  intro hg2
  have := toSigned4 hcd hg2
  refine SimV.bind_ne (sim_fread (fun _ => this)) (fun _ => nilFails_bind nilFails_bool) ?_
  rintro up _ ⟨rfl, _⟩
  fstep
  exact Sim.pure ⟨rfl, rfl⟩

/-- `EffectParamList.read` refusing a negative number of parameters. -/
def strictParams (d : RCtx) : Rd EffectParamList := do
  rTag 0x02
  rTag 0x12
  let orig_length ← rInt d.bo .s32
  let window_offset ← rInt d.bo .s32
  let count ← rInt d.bo .s32
  Rd.guard (0 ≤ count) .assertion
  let keyframe_size ← rInt d.bo .s32
  let parameters ← readN count.toNat (EffectParam.read d)
  rTag 0x03
  return { orig_length, window_offset, keyframe_size, parameters }

theorem strictParams_of {d : RCtx} {bs : Bytes} {v : EffectParamList × Bytes}
    (h : only (CountOK (EffectParamList.storedCount d)) (EffectParamList.read d) bs = .ok v) :
    strictParams d bs = .ok v := by
  by_cases hc : CountOK (EffectParamList.storedCount d) bs
  · rw [only_ok hc] at h
    obtain ⟨v, rest⟩ := v
    obtain ⟨_, m1, e1, h⟩ := rd_bind h
    obtain ⟨_, m2, e2, h⟩ := rd_bind h
    obtain ⟨_, m3, e3, h⟩ := rd_bind h
    obtain ⟨_, m4, e4, h⟩ := rd_bind h
    obtain ⟨cnt, m5, e5, h⟩ := rd_bind h
    have h0 : 0 ≤ cnt := by
      refine hc cnt m5 ?_
      unfold EffectParamList.storedCount
      rw [Rd.bind_ok e1, Rd.bind_ok e2, Rd.bind_ok e3, Rd.bind_ok e4, e5]
    unfold strictParams
    rw [Rd.bind_ok e1, Rd.bind_ok e2, Rd.bind_ok e3, Rd.bind_ok e4, Rd.bind_ok e5]
    have hg : Rd.guard (0 ≤ cnt) Err.assertion m5 = .ok ((), m5) := by
      unfold Rd.guard; rw [if_pos h0]
    rw [Rd.bind_ok hg]
    exact h
  · unfold only at h
    rw [if_neg hc] at h
    cases h

theorem sim_params : Sim false {} (only (ParamsOK n) (EffectParamList.read ⟨.little, n⟩))
    read_effectparamlist (Same EffectParamList.props) := by
  refine Sim.mono (fun _ _ => strictParams_of) ?_
  unfold strictParams read_effectparamlist
  fstep
  fstep
  fstep; rename_i v1
  fstep; rename_i v2
  refine SimV.bind sim_s32u ?_
  intro a b hab
  refine Sim.guard ?_
  intro hg
  have := toSigned4 hab hg
  subst this
  rw [Int.toNat_natCast]
  fstep; rename_i v3
  refine SimV.bind (sim_times_eq sim_effectParam b) ?_
  rintro l _ rfl
  fstep
  exact sim_end rfl

/-! ### Attributes -/

theorem sim_attrItem : SimV true (Attributes.readItem ⟨.little, n⟩) attrItem
    (fun a b => a = seenAttr b) := by
  intro p0
  unfold Attributes.readItem attrItem attrValue
  refine SimV.bind sim_u32 ?_
  rintro _ ty ⟨rfl, _⟩
  fstep; rename_i name
  by_cases h1 : ty = 1
  · subst h1
    rw [if_pos (show ((1 : Nat) : Int) = 1 from rfl), if_pos rfl]
    exact Sim.weaken (SimV.map2 (SimV.map sim_s32 (W := fun a b => .int a = b)
      (by rintro a _ rfl; rfl)) (by rintro a _ rfl; rfl) p0) (fun _ _ _ h => h)
  rw [if_neg (by omega), if_neg h1]
  by_cases h2 : ty = 2
  · subst h2
    rw [if_pos (show ((2 : Nat) : Int) = 2 from rfl), if_pos rfl]
    exact Sim.weaken (SimV.map2 (SimV.map sim_str
      (W := fun a b => ∃ t, b = .str t ∧ a = stripText t)
      (by rintro _ b rfl; exact ⟨b, rfl, rfl⟩))
      (by rintro _ _ ⟨t, rfl, rfl⟩; rfl) p0) (fun _ _ _ h => h)
  rw [if_neg (by omega), if_neg h2]
  by_cases h3 : ty = 3
  · subst h3
    rw [if_pos (show ((3 : Nat) : Int) = 3 from rfl), if_pos rfl]
    exact Sim.weaken (SimV.map2 (SimV.map sim_ref (W := fun a b => .obj a = b)
      (by rintro a _ rfl; rfl)) (by rintro a _ rfl; rfl) p0) (fun _ _ _ h => h)
  rw [if_neg (by omega), if_neg h3]
  by_cases h4 : ty = 4
  · subst h4
    rw [if_pos (show ((4 : Nat) : Int) = 4 from rfl), if_pos rfl]
    intro data pos a rest hp hr hne
    rw [← rd_assoc] at hr
    obtain ⟨v, mid, e1, e2⟩ := rd_bind hr
    injection e2 with e2
    injection e2 with e2 e3
    subst e2 e3
    obtain ⟨b, pos1, p1, g1, g0, g2, g3, rfl, rfl⟩ := sim_data32u p0 data pos v _ hp e1 hne
    refine ⟨(name, .bob v), pos1, p1, ?_, g0, g2, g3, rfl, rfl⟩
    have e : (data32 >>= fun v => (Pure.pure (AttrVal.bob v) : Fast AttrVal)) data ⟨pos, p1⟩ =
        (.ok (.bob v), ⟨pos1, p1⟩) := by rw [bind_ok g1]; rfl
    rw [bind_ok e]
    rfl
  rw [if_neg (by omega)]
  exact Sim.fail

theorem nilFails_attrItem : NilFails (Attributes.readItem ⟨.little, n⟩) := nilFails_bind nilFails_int'

theorem sim_times_ne {r : Rd α} {f : Fast β} {V : α → β → Prop} (h : SimV true r f V)
    (hn : NilFails r) (k : Nat) :
    SimV true (readN k r) (times f k) (fun as bs => List.Forall₂ V as bs) := by
  intro p0
  induction k with
  | zero => exact Sim.pure ⟨List.Forall₂.nil, rfl⟩
  | succ k ih =>
    unfold readN times
    intro data pos c rest hp hr hne
    obtain ⟨a, mid, e1, e2⟩ := rd_bind hr
    obtain ⟨as, mid2, e5, e3⟩ := rd_bind e2
    clear e2
    injection e3 with e3
    injection e3 with e3 e4
    subst e3 e4
    have hm : mid ≠ [] := by
      rintro rfl
      cases k with
      | zero =>
        injection e5 with e5
        injection e5 with _ e5
        exact hne rfl e5.symm
      | succ k => exact nilFails_bind hn _ e5
    obtain ⟨b, pos1, p1, g1, g0, g2, g3, g4, rfl⟩ := h p0 data pos a mid hp e1 (fun _ => hm)
    rw [← g3] at e5
    obtain ⟨bs, pos2, p2, k1, k0, k2, k3, k4, rfl⟩ := ih data pos1 as _ g2 e5 hne
    refine ⟨b :: bs, pos2, p2, ?_, by omega, k2, k3, List.Forall₂.cons g4 k4, rfl⟩
    rw [bind_ok g1, bind_ok k1]
    rfl

theorem sim_attributes {bs rest : Bytes} {x : Attributes}
    (h : Attributes.read ⟨.little, n⟩ bs = .ok (x, rest)) :
    ∃ items s, read_attributes bs ⟨0, {}⟩ = (.ok items, s) ∧
      x.items = (items.map seenAttr).foldl (fun l p => dictSet l p.1 p.2) [] := by
  have hs : ∀ k : Nat, Sim false {} (do
      let items ← readN k (Attributes.readItem ⟨.little, n⟩)
      rTag 0x03
      return ({ items := items.foldl (fun l p => dictSet l p.1 p.2) [] } : Attributes))
      (do let items ← times attrItem k
          tag 0x03
          return items)
      (fun x items _ => x.items = (items.map seenAttr).foldl (fun l p => dictSet l p.1 p.2) []) := by
    intro k
    refine SimV.bind_ne (sim_times_ne sim_attrItem nilFails_attrItem k)
      (fun _ => nilFails_bind nilFails_tag) ?_
    intro as bs hab
    fstep
    rw [forall₂_map hab]
    exact Sim.pure rfl
  obtain ⟨_, m1, e1, h⟩ := rd_bind h
  obtain ⟨_, m2, e2, h⟩ := rd_bind h
  obtain ⟨c, m3, e3, h⟩ := rd_bind h
  have t2 := (sim_tag' (t := 2) (v := 2) rfl) {} bs 0 _ m1 (by omega) e1 (by simp)
  obtain ⟨_, pos1, p1, g1, _, g2, g3, _, rfl⟩ := t2
  rw [← g3] at e2
  have t1 := (sim_tag' (t := 1) (v := 1) rfl) {} bs pos1 _ m2 g2 e2 (by simp)
  obtain ⟨_, pos2, p2, k1, _, k2, k3, _, rfl⟩ := t1
  rw [← k3] at e3
  obtain ⟨c', pos3, p3, l1, _, l2, l3, ⟨rfl, _⟩, rfl⟩ := sim_u32 {} bs pos2 _ m3 k2 e3 (by simp)
  rw [← l3, Int.toNat_natCast] at h
  unfold read_attributes
  rw [bind_ok g1, bind_ok k1, bind_ok l1]
  by_cases h0 : c' = 0
  · subst h0
    rw [if_pos rfl]
    refine ⟨[], _, rfl, ?_⟩
    obtain ⟨l, m, a1, a2⟩ := rd_bind h
    obtain ⟨_, m', a2, a3⟩ := rd_bind a2
    injection a1 with a1
    injection a1 with a1 _
    injection a3 with a3
    injection a3 with a3 _
    subst a1 a3
    rfl
  · rw [if_neg h0]
    obtain ⟨items, pos', p', r1, _, _, _, hx⟩ := hs c' bs pos3 x rest l2 h (by simp)
    exact ⟨items, _, r1, hx⟩

end Avb.Fast

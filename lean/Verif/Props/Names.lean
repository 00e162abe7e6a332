import Verif.Model.Names
import Verif.Props.Limits
import Verif.Props.BinFind
import Verif.Props.MobIDs

/-!
C37: names and codes.  C41: new mobs.
-/
namespace Avb

/-! ### C37 -/

/-- The media kinds that have names of their own. -/
def mediaKinds : List (Int × Option Text) :=
  [(0, none), (1, some "picture".toList), (2, some "sound".toList), (3, some "timecode".toList),
   (4, some "edgecode".toList), (5, some "attribute".toList), (6, some "effectdata".toList),
   (7, some "DescriptiveMetadata".toList), (16, some "DataEssenceTrack".toList)]

/-- The usages that have names of their own. -/
def usages : List (Int × Option Text) :=
  [(0, none), (1, some "precompute".toList), (2, some "subclip".toList), (3, some "effect".toList),
   (4, some "group".toList), (5, some "groupoofter".toList), (6, some "motion".toList),
   (7, some "mastermob".toList), (9, some "precompute_file".toList)]

/-- C37: the names of the media kinds in the table, in both directions. -/
theorem C37_media_kinds {p : Int × Option Text} (h : p ∈ mediaKinds) :
    mediaKind p.1 = p.2 ∧ setMediaKind p.2 = .ok p.1 := by
  simp only [mediaKinds, List.mem_cons, List.not_mem_nil, or_false] at h
  rcases h with rfl | rfl | rfl | rfl | rfl | rfl | rfl | rfl | rfl <;> exact ⟨rfl, rfl⟩

/-- C37: all other names are refused. -/
theorem C37_refused {n : Option Text} (h : ∀ k, (k, n) ∉ mediaKinds) : setMediaKind n = .error .value := by
  simp only [mediaKinds, List.mem_cons, List.not_mem_nil, or_false, Prod.mk.injEq, not_or, not_and] at h
  have h0 := (h 0).1 rfl
  have h1 := (h 1).2.1 rfl
  have h2 := (h 2).2.2.1 rfl
  have h3 := (h 3).2.2.2.1 rfl
  have h4 := (h 4).2.2.2.2.1 rfl
  have h5 := (h 5).2.2.2.2.2.1 rfl
  have h6 := (h 6).2.2.2.2.2.2.1 rfl
  have h7 := (h 7).2.2.2.2.2.2.2.1 rfl
  have h16 := (h 16).2.2.2.2.2.2.2.2 rfl
  simp only [setMediaKind, h0, h1, h2, h3, h4, h5, h6, h7, h16, if_false]

theorem mediaKind_other {c : Int} (h : ∀ n, (c, n) ∉ mediaKinds) :
    mediaKind c = some ("unknown".toList ++ decText c) := by
  simp only [mediaKinds, List.mem_cons, List.not_mem_nil, or_false, Prod.mk.injEq, not_or, not_and] at h
  have h0 := fun e => (h none).1 e rfl
  have h1 := fun e => (h _).2.1 e rfl
  have h2 := fun e => (h _).2.2.1 e rfl
  have h3 := fun e => (h _).2.2.2.1 e rfl
  have h4 := fun e => (h _).2.2.2.2.1 e rfl
  have h5 := fun e => (h _).2.2.2.2.2.1 e rfl
  have h6 := fun e => (h _).2.2.2.2.2.2.1 e rfl
  have h7 := fun e => (h _).2.2.2.2.2.2.2.1 e rfl
  have h16 := fun e => (h _).2.2.2.2.2.2.2.2 e rfl
  unfold mediaKind
  rw [if_neg h0, if_neg h1, if_neg h2, if_neg h3, if_neg h4, if_neg h5, if_neg h6, if_neg h7, if_neg h16]

theorem char_of_digit {a b : Nat} (ha : a < 10) (hb : b < 10) (h : Char.ofNat (48 + a) = Char.ofNat (48 + b)) :
    a = b := by
  have : ∀ a < 10, ∀ b < 10, Char.ofNat (48 + a) = Char.ofNat (48 + b) → a = b := by decide
  exact this a ha b hb h

theorem decText_nat {n m : Nat}
    (h : (Nat.digits 10 n).reverse.map (fun d => Char.ofNat (48 + d)) =
      (Nat.digits 10 m).reverse.map (fun d => Char.ofNat (48 + d))) : n = m := by
  have key : ∀ l l' : List Nat, (∀ d ∈ l, d < 10) → (∀ d ∈ l', d < 10) →
      l.map (fun d => Char.ofNat (48 + d)) = l'.map (fun d => Char.ofNat (48 + d)) → l = l' := by
    intro l
    induction l with
    | nil => intro l' _ _ h; simpa using h.symm
    | cons a l ih =>
      intro l' h1 h2 h
      cases l' with
      | nil => simp at h
      | cons b l' =>
        simp only [List.map_cons, List.cons.injEq] at h
        rw [char_of_digit (h1 a (by simp)) (h2 b (by simp)) h.1,
          ih l' (fun d hd => h1 d (by simp [hd])) (fun d hd => h2 d (by simp [hd])) h.2]
  have := key _ _ (fun d hd => Nat.digits_lt_base (by decide) (List.mem_reverse.1 hd))
    (fun d hd => Nat.digits_lt_base (by decide) (List.mem_reverse.1 hd)) h
  exact Nat.digits_inj_iff.1 (List.reverse_injective this)

theorem decText_head {n : Nat} : ∀ t, (Nat.digits 10 n).reverse.map (fun d => Char.ofNat (48 + d)) ≠ '-' :: t := by
  intro t h
  have : '-' ∈ (Nat.digits 10 n).reverse.map (fun d => Char.ofNat (48 + d)) := by rw [h]; simp
  obtain ⟨d, hd, h2⟩ := List.mem_map.1 this
  have hd := Nat.digits_lt_base (b := 10) (by decide) (List.mem_reverse.1 hd)
  have : ∀ d < 10, Char.ofNat (48 + d) ≠ '-' := by decide
  exact this d hd h2

theorem decText_inj {n m : Int} (hn : n ≠ 0) (hm : m ≠ 0) (h : decText n = decText m) : n = m := by
  unfold decText at h
  rw [if_neg hn, if_neg hm] at h
  by_cases h1 : n < 0
  · rw [if_pos h1] at h
    by_cases h2 : m < 0
    · rw [if_pos h2] at h
      have := decText_nat (List.append_cancel_left h)
      omega
    · rw [if_neg h2] at h
      exact absurd h.symm (decText_head _)
  · rw [if_neg h1] at h
    by_cases h2 : m < 0
    · rw [if_pos h2] at h
      exact absurd h (decText_head _)
    · rw [if_neg h2] at h
      have := decText_nat (n := n.natAbs) (m := m.natAbs) h
      omega

theorem mediaKind_known_name {p : Int × Option Text} (h : p ∈ mediaKinds) (t : Text) :
    p.2 ≠ some ("unknown".toList ++ t) := by
  simp only [mediaKinds, List.mem_cons, List.not_mem_nil, or_false] at h
  intro he
  have : ∀ (x : Text), some x = some ("unknown".toList ++ t) → x.take 7 = "unknown".toList := by
    rintro x h; injection h with h; subst h; rfl
  rcases h with rfl | rfl | rfl | rfl | rfl | rfl | rfl | rfl | rfl
  · cases he
  all_goals exact absurd (this _ he) (by decide)

/-- C37: different codes have different names, for all integers. -/
theorem C37_injective {a b : Int} (h : mediaKind a = mediaKind b) : a = b := by
  by_cases ha : ∃ n, (a, n) ∈ mediaKinds
  · obtain ⟨n, ha⟩ := ha
    obtain ⟨ha1, ha2⟩ := C37_media_kinds ha
    by_cases hb : ∃ m, (b, m) ∈ mediaKinds
    · obtain ⟨m, hb⟩ := hb
      obtain ⟨hb1, hb2⟩ := C37_media_kinds hb
      dsimp only at ha1 ha2 hb1 hb2
      rw [← ha1] at ha2
      rw [← hb1, ← h, ha2] at hb2
      injection hb2
    · rw [mediaKind_other fun n hn => hb ⟨n, hn⟩, ha1] at h
      exact absurd h (mediaKind_known_name ha _)
  · by_cases hb : ∃ m, (b, m) ∈ mediaKinds
    · obtain ⟨m, hb⟩ := hb
      rw [mediaKind_other fun n hn => ha ⟨n, hn⟩, (C37_media_kinds hb).1] at h
      exact absurd h.symm (mediaKind_known_name hb _)
    · have ha0 : a ≠ 0 := by rintro rfl; exact ha ⟨none, by simp [mediaKinds]⟩
      have hb0 : b ≠ 0 := by rintro rfl; exact hb ⟨none, by simp [mediaKinds]⟩
      rw [mediaKind_other fun n hn => ha ⟨n, hn⟩, mediaKind_other fun n hn => hb ⟨n, hn⟩] at h
      injection h with h
      exact decText_inj ha0 hb0 (List.append_cancel_left h)

/-- C37: assigning the name of a component to another one works exactly for the codes of the table; then
the code is copied. -/
theorem C37_copy (c : Int) :
    setMediaKind (mediaKind c) = if c ∈ mediaKinds.map (·.1) then .ok c else .error .value := by
  by_cases hc : ∃ n, (c, n) ∈ mediaKinds
  · obtain ⟨n, hn⟩ := hc
    obtain ⟨h1, h2⟩ := C37_media_kinds hn
    rw [h1, h2, if_pos (List.mem_map.2 ⟨_, hn, rfl⟩)]
  · rw [if_neg]
    · rw [mediaKind_other fun n hn => hc ⟨n, hn⟩]
      exact C37_refused fun k hk => mediaKind_known_name hk _ rfl
    · intro h
      obtain ⟨⟨c', n⟩, h1, rfl⟩ := List.mem_map.1 h
      exact hc ⟨n, h1⟩

/-- C37: usages: the codes of the table have the names of the table, no two of them the same, all other
codes are called unknown, and no code of the table is. -/
theorem C37_usages : (∀ p ∈ usages, usage p.1 = p.2) ∧ (usages.map (·.2)).Nodup ∧
    ∀ c, usage c = some "unknown".toList ↔ c ∉ usages.map (·.1) := by
  refine ⟨by decide, by decide, fun c => ?_⟩
  simp only [usages, List.map_cons, List.map_nil, List.mem_cons, List.not_mem_nil, or_false, not_or]
  constructor
  · intro h
    refine ⟨?_, ?_, ?_, ?_, ?_, ?_, ?_, ?_, ?_⟩ <;> (rintro rfl; revert h; decide)
  · rintro ⟨h0, h1, h2, h3, h4, h5, h6, h7, h9⟩
    simp only [usage, h0, h1, h2, h3, h4, h5, h6, h7, h9, if_false]

/-- C37: mob types: the codes 1 to 3 have names, from which the constructor gets the code back; other
codes raise, and other names raise. -/
theorem C37_mob_types :
    (∀ m : Composition, ∀ t, m.mobType = .ok t ↔ mobTypeId t = .ok m.mob_type_id) ∧
    (∀ m : Composition, m.mob_type_id ∉ [1, 2, 3] → m.mobType = .error .value) ∧
    ∀ t, t ∉ ["CompositionMob".toList, "MasterMob".toList, "SourceMob".toList] → mobTypeId t = .error .type := by
  refine ⟨fun m t => ?_, fun m hm => ?_, fun t ht => ?_⟩
  · unfold Composition.mobType mobTypeId
    generalize m.mob_type_id = k
    constructor
    · intro h
      split at h
      · injection h with h; subst h; subst_vars; rfl
      · split at h
        · injection h with h; subst h; subst_vars; rfl
        · split at h
          · injection h with h; subst h; subst_vars; rfl
          · cases h
    · intro h
      split at h
      · injection h with h; subst h; subst_vars; rfl
      · split at h
        · injection h with h; subst h; subst_vars; rfl
        · split at h
          · injection h with h; subst h; subst_vars; rfl
          · cases h
  · simp only [List.mem_cons, List.not_mem_nil, or_false, not_or] at hm
    simp [Composition.mobType, hm]
  · simp only [List.mem_cons, List.not_mem_nil, or_false, not_or] at ht
    simp only [mobTypeId, ht, if_false]

/-- Code 12 has no name of its own, nor has -1. -/
example : mediaKind 12 = some "unknown12".toList ∧ setMediaKind (some "unknown12".toList) = .error .value ∧
    mediaKind 12 ≠ mediaKind (-12) :=
  ⟨by decide +kernel, by have := C37_copy 12; rwa [show mediaKind 12 = some "unknown12".toList by decide +kernel] at this,
    fun h => absurd (C37_injective h) (by decide)⟩

example : setMediaKind (some "pictures".toList) = .error .value :=
  C37_refused (by intro k; simp [mediaKinds])

/-! ### C41 -/

/-- C41: a new mob has the type asked for, no tracks, a mob id with the drawn UUID, and the time as time
of creation and last change; its name is the type, whatever name is given. -/
theorem C41_new {name mob_type : Text} {attrs : Ref} {u : UUID} {now : Int}
    (h : mob_type ∈ ["CompositionMob".toList, "MasterMob".toList, "SourceMob".toList]) :
    ∃ m : Composition, Composition.create name mob_type attrs u now = .ok m ∧ m.mobType = .ok mob_type ∧
      m.tracks = [] ∧ m.length = 0 ∧ m.edit_rate = .fin 25 ∧ usage m.usage_code = none ∧
      mediaKind m.media_kind_id = none ∧ m.last_modified = now ∧ m.creation_time = some now ∧
      m.attributes = attrs ∧ m.descriptor = 0 ∧ m.name = some mob_type ∧
      ∃ i, m.mob_id = some i ∧ i.material = u := by
  obtain ⟨i, hi, hu, _⟩ := C29_new u
  simp only [List.mem_cons, List.not_mem_nil, or_false] at h
  unfold Composition.create
  rw [hi]
  rcases h with rfl | rfl | rfl <;>
    exact ⟨_, rfl, rfl, rfl, rfl, rfl, rfl, rfl, rfl, rfl, rfl, rfl, rfl, i, rfl, hu⟩

/-- C41: an unknown type name raises (a `TypeError`, not the `ValueError` that is meant). -/
theorem C41_unknown {name mob_type : Text} {attrs : Ref} {u : UUID} {now : Int}
    (h : mob_type ∉ ["CompositionMob".toList, "MasterMob".toList, "SourceMob".toList]) :
    Composition.create name mob_type attrs u now = .error .type := by
  unfold Composition.create
  rw [C37_mob_types.2.2 mob_type h]
  rfl

/-- C41: the name given has no effect at all. -/
theorem C41_name_ignored {name name' mob_type : Text} {attrs : Ref} {u : UUID} {now : Int} :
    Composition.create name mob_type attrs u now = Composition.create name' mob_type attrs u now := rfl

/-- C41: mobs made with different UUIDs have different ids. -/
theorem C41_fresh {name mob_type name' mob_type' : Text} {attrs attrs' : Ref} {u u' : UUID} {now now' : Int}
    {m m' : Composition} (h : Composition.create name mob_type attrs u now = .ok m)
    (h' : Composition.create name' mob_type' attrs' u' now' = .ok m') (hu : u ≠ u') : m.mob_id ≠ m'.mob_id := by
  have key : ∀ {name mob_type attrs u now} {m : Composition}, Composition.create name mob_type attrs u now = .ok m →
      ∃ i, m.mob_id = some i ∧ i.material = u := by
    intro name mob_type attrs u now m h
    by_cases ht : mob_type ∈ ["CompositionMob".toList, "MasterMob".toList, "SourceMob".toList]
    · obtain ⟨m', h1, _, _, _, _, _, _, _, _, _, _, _, h2⟩ := C41_new (name := name) (attrs := attrs) (u := u) (now := now) ht
      rw [h] at h1; injection h1 with h1; subst h1; exact h2
    · rw [C41_unknown ht] at h; cases h
  obtain ⟨i, h1, h2⟩ := key h
  obtain ⟨i', h1', h2'⟩ := key h'
  intro he
  rw [h1, h1'] at he
  injection he with he
  subst he
  exact hu (h2.symm.trans h2')

example : ∃ m, Composition.create "my clip".toList "SourceMob".toList 5 ⟨List.replicate 16 7, rfl⟩ 1000 = .ok m ∧
    m.mobType = .ok "SourceMob".toList := by
  obtain ⟨m, h1, h2, _⟩ := C41_new (name := "my clip".toList) (attrs := 5) (u := ⟨List.replicate 16 7, rfl⟩) (now := 1000)
    (mob_type := "SourceMob".toList) (by decide)
  exact ⟨m, h1, h2⟩

example : Composition.create "my clip".toList "Mob".toList 5 ⟨List.replicate 16 7, rfl⟩ 1000 = .error .type :=
  C41_unknown (by decide)

end Avb

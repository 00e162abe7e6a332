import Verif.Model.Resolve
import Verif.Props.BinFind
import Verif.Props.Names

/-
C59: the mob and the track a source clip refers to.
-/

namespace Avb.Resolve

/-- The media kind code of an object; 0 for objects that are not components. -/
def code : Obj → Int
  | .SEQU x => x.media_kind_id
  | .SCLP x => x.media_kind_id
  | .TCCP x => x.media_kind_id
  | .ECCP x => x.media_kind_id
  | .TRKR x => x.media_kind_id
  | .PRCL x => x.media_kind_id
  | .CTRL x => x.media_kind_id
  | .FILL x => x.media_kind_id
  | .TRKG x => x.media_kind_id
  | .TKFX x => x.media_kind_id
  | .PVOL x => x.media_kind_id
  | .ASPI x => x.media_kind_id
  | .EQMB x => x.media_kind_id
  | .MASK x => x.media_kind_id
  | .STRB x => x.media_kind_id
  | .SPED x => x.media_kind_id
  | .REPT x => x.media_kind_id
  | .RSET x => x.media_kind_id
  | .TNFX x => x.media_kind_id
  | .SLCT x => x.media_kind_id
  | .CMPO x => x.media_kind_id
  | _ => 0

theorem kindOf_code (o : Obj) : kindOf o = mediaKind (code o) := by
  cases o <;> rfl

theorem kindOf_eq {a : Int} {o : Obj} : mediaKind a = kindOf o ↔ a = code o := by
  rw [kindOf_code]
  exact ⟨C37_injective, fun h => by rw [h]⟩

/-- The number of entries of an attribute set or a list of references; nothing for other objects. -/
def entries : Obj → Option Nat
  | .ATTR x => some x.items.length
  | .PRLS x => some x.items.length
  | .TMCS x => some x.items.length
  | _ => none

theorem kind_cases (o : Obj) :
    entries o = none ∧ truth o = true ∧ mediaKindOf o = .ok (kindOf o) ∨
    entries o = some 0 ∧ truth o = false ∧ mediaKindOf o = .error .attribute ∨
    ∃ n, entries o = some (n + 1) ∧ truth o = true ∧ mediaKindOf o = .error .attribute := by
  have key : ∀ {α : Type} (l : List α), some l.length = some 0 ∧ (!l.isEmpty) = false ∨
      ∃ n, some l.length = some (n + 1) ∧ (!l.isEmpty) = true := by
    intro α l
    cases l with
    | nil => exact .inl ⟨rfl, rfl⟩
    | cons a l => exact .inr ⟨l.length, rfl, rfl⟩
  cases o with
  | ATTR x => exact .inr ((key x.items).imp (fun ⟨a, b⟩ => ⟨a, b, rfl⟩) fun ⟨n, a, b⟩ => ⟨n, a, b, rfl⟩)
  | PRLS x => exact .inr ((key x.items).imp (fun ⟨a, b⟩ => ⟨a, b, rfl⟩) fun ⟨n, a, b⟩ => ⟨n, a, b, rfl⟩)
  | TMCS x => exact .inr ((key x.items).imp (fun ⟨a, b⟩ => ⟨a, b, rfl⟩) fun ⟨n, a, b⟩ => ⟨n, a, b, rfl⟩)
  | _ => exact .inl ⟨rfl, rfl, rfl⟩

/-- The track is the one meant: it has the index, and a component, not a list, of the media kind of the clip. -/
def Fits (deref : Ref → Except Err (Option Obj)) (c : SourceClip) (t : Track) : Prop :=
  t.index = some c.track_id ∧ ∃ r o, t.component = some r ∧ deref r = .ok (some o) ∧ entries o = none ∧
    code o = c.media_kind_id

/-- The track is another one: it has another index, a null component, an empty list, or a component of another
kind. -/
def Passed (deref : Ref → Except Err (Option Obj)) (c : SourceClip) (t : Track) : Prop :=
  ∃ i, t.index = some i ∧ (i = c.track_id → ∃ r, t.component = some r ∧
    (deref r = .ok none ∨ ∃ o, deref r = .ok (some o) ∧
      (entries o = some 0 ∨ entries o = none ∧ code o ≠ c.media_kind_id)))

/-- It cannot be told: the track has no index, or has the index and no component, or its component cannot be
loaded, or is a list with entries, which has no media kind. -/
def Fails (deref : Ref → Except Err (Option Obj)) (c : SourceClip) (t : Track) (e : Err) : Prop :=
  t.index = none ∧ e = .attribute ∨
  t.index = some c.track_id ∧ (t.component = none ∧ e = .attribute ∨ ∃ r, t.component = some r ∧
    (deref r = .error e ∨ ∃ o n, deref r = .ok (some o) ∧ entries o = some (n + 1) ∧ e = .attribute))

theorem fits_passed {deref : Ref → Except Err (Option Obj)} {c : SourceClip} {t : Track}
    (h : Fits deref c t) : ¬ Passed deref c t := by
  rintro ⟨i, h1, h2⟩
  obtain ⟨k1, r, o, k2, k3, k5, k4⟩ := h
  rw [k1] at h1
  cases h1
  obtain ⟨r', q1, q2⟩ := h2 rfl
  rw [k2] at q1
  cases q1
  rcases q2 with q2 | ⟨o', q2, q3⟩
  · rw [k3] at q2; cases q2
  · rw [k3] at q2
    cases q2
    rcases q3 with q3 | ⟨_, q3⟩
    · rw [k5] at q3; cases q3
    · exact q3 k4

theorem fails_passed {deref : Ref → Except Err (Option Obj)} {c : SourceClip} {t : Track} {e : Err}
    (h : Fails deref c t e) : ¬ Passed deref c t := by
  rintro ⟨i, h1, h2⟩
  rcases h with ⟨k1, _⟩ | ⟨k1, k2⟩
  · rw [k1] at h1; cases h1
  · rw [k1] at h1
    cases h1
    obtain ⟨r', q1, q2⟩ := h2 rfl
    rcases k2 with ⟨k2, _⟩ | ⟨r, k2, k3⟩
    · rw [k2] at q1; cases q1
    · rw [k2] at q1
      cases q1
      rcases k3 with k3 | ⟨o, n, k3, k4, _⟩
      · rcases q2 with q2 | ⟨o', q2, _⟩ <;> (rw [k3] at q2; cases q2)
      · rcases q2 with q2 | ⟨o', q2, q3⟩
        · rw [k3] at q2; cases q2
        · rw [k3] at q2
          cases q2
          rcases q3 with q3 | ⟨q3, _⟩ <;> (rw [k4] at q3; cases q3)

theorem fits_fails {deref : Ref → Except Err (Option Obj)} {c : SourceClip} {t : Track} {e : Err}
    (h : Fits deref c t) : ¬ Fails deref c t e := by
  obtain ⟨k1, r, o, k2, k3, k5, _⟩ := h
  rintro (⟨h1, _⟩ | ⟨_, ⟨h1, _⟩ | ⟨r', h1, h2 | ⟨o', n, h2, h3, _⟩⟩⟩)
  · rw [k1] at h1; cases h1
  · rw [k2] at h1; cases h1
  · rw [k2] at h1; cases h1; rw [k3] at h2; cases h2
  · rw [k2] at h1; cases h1; rw [k3] at h2; cases h2; rw [k5] at h3; cases h3

theorem search_step (deref : Ref → Except Err (Option Obj)) (c : SourceClip) (t : Track) (ts : List Track) :
    Passed deref c t ∧ searchTracks deref c (t :: ts) = searchTracks deref c ts ∨
    Fits deref c t ∧ searchTracks deref c (t :: ts) = .ok (some t) ∨
    ∃ e, Fails deref c t e ∧ searchTracks deref c (t :: ts) = .error e := by
  rw [show searchTracks deref c (t :: ts) = _ from searchTracks.eq_2 ..]
  generalize searchTracks deref c ts = rest
  cases hi : t.index with
  | none => exact .inr (.inr ⟨_, .inl ⟨hi, rfl⟩, rfl⟩)
  | some i =>
    dsimp only
    split
    · next h =>
      subst h
      cases hc : t.component with
      | none => exact .inr (.inr ⟨_, .inr ⟨hi, .inl ⟨hc, rfl⟩⟩, rfl⟩)
      | some r =>
        dsimp only
        cases hd : deref r with
        | error e => exact .inr (.inr ⟨e, .inr ⟨hi, .inr ⟨r, hc, .inl hd⟩⟩, rfl⟩)
        | ok o =>
          cases o with
          | none => exact .inl ⟨⟨_, hi, fun _ => ⟨r, hc, .inl hd⟩⟩, rfl⟩
          | some o =>
            dsimp only
            rcases kind_cases o with ⟨h1, h2, h3⟩ | ⟨h1, h2, _⟩ | ⟨n, h1, h2, h3⟩
            · rw [if_pos h2, h3]
              dsimp only
              split
              · next hk => exact .inr (.inl ⟨⟨hi, r, o, hc, hd, h1, (kindOf_eq.1 hk).symm⟩, rfl⟩)
              · next hk =>
                exact .inl ⟨⟨_, hi, fun _ => ⟨r, hc, .inr ⟨o, hd, .inr ⟨h1, fun h => hk (kindOf_eq.2 h.symm)⟩⟩⟩⟩, rfl⟩
            · rw [if_neg (by rw [h2]; decide)]
              exact .inl ⟨⟨_, hi, fun _ => ⟨r, hc, .inr ⟨o, hd, .inl h1⟩⟩⟩, rfl⟩
            · rw [if_pos h2, h3]
              exact .inr (.inr ⟨_, .inr ⟨hi, .inr ⟨r, hc, .inr ⟨o, n, hd, h1, rfl⟩⟩⟩, rfl⟩)
    · next h => exact .inl ⟨⟨i, hi, fun h' => absurd h' h⟩, rfl⟩

/-- The answer expected: the first track that is not passed decides. -/
def Decides (deref : Ref → Except Err (Option Obj)) (c : SourceClip) (ts : List Track) :
    Except Err (Option Track) → Prop
  | .ok none => ∀ t ∈ ts, Passed deref c t
  | .ok (some t) => ∃ before after, ts = before ++ t :: after ∧ (∀ x ∈ before, Passed deref c x) ∧ Fits deref c t
  | .error e => ∃ before t after, ts = before ++ t :: after ∧ (∀ x ∈ before, Passed deref c x) ∧ Fails deref c t e

theorem search_decides (deref : Ref → Except Err (Option Obj)) (c : SourceClip) : ∀ ts,
    Decides deref c ts (searchTracks deref c ts)
  | [] => fun _ h => nomatch h
  | t :: ts => by
    have ih := search_decides deref c ts
    rcases search_step deref c t ts with ⟨h1, h2⟩ | ⟨h1, h2⟩ | ⟨e, h1, h2⟩
    · rw [h2]
      have cons : ∀ {b : List Track}, (∀ x ∈ b, Passed deref c x) → ∀ x ∈ t :: b, Passed deref c x := by
        intro b hb x hx
        rcases List.mem_cons.1 hx with rfl | hx
        · exact h1
        · exact hb x hx
      cases hr : searchTracks deref c ts with
      | error e =>
        rw [hr] at ih
        obtain ⟨b, u, a, k1, k2, k3⟩ := ih
        exact ⟨t :: b, u, a, by rw [k1]; rfl, cons k2, k3⟩
      | ok x =>
        rw [hr] at ih
        cases x with
        | none => exact cons ih
        | some u =>
          obtain ⟨b, a, k1, k2, k3⟩ := ih
          exact ⟨t :: b, a, by rw [k1]; rfl, cons k2, k3⟩
    · rw [h2]
      exact ⟨[], ts, rfl, by simp, h1⟩
    · rw [h2]
      exact ⟨[], t, ts, rfl, by simp, h1⟩

theorem decides_unique {deref : Ref → Except Err (Option Obj)} {c : SourceClip} {ts : List Track}
    {r r' : Except Err (Option Track)} (h : Decides deref c ts r) (h' : Decides deref c ts r') : r = r' := by
  induction ts with
  | nil =>
    have nil : ∀ {r}, Decides deref c [] r → r = .ok none := by
      intro r h
      cases r with
      | error e => obtain ⟨b, t, a, k, _⟩ := h; cases b <;> cases k
      | ok x =>
        cases x with
        | none => rfl
        | some t => obtain ⟨b, a, k, _⟩ := h; cases b <;> cases k
    rw [nil h, nil h']
  | cons t ts ih =>
    have tail : ∀ {r}, Decides deref c (t :: ts) r → Passed deref c t → Decides deref c ts r := by
      intro r h hp
      cases r with
      | error e =>
        obtain ⟨b, u, a, k1, k2, k3⟩ := h
        cases b with
        | nil => cases k1; exact absurd hp (fails_passed k3)
        | cons y b => cases k1; exact ⟨b, u, a, rfl, fun x hx => k2 x (List.mem_cons_of_mem _ hx), k3⟩
      | ok x =>
        cases x with
        | none => exact fun x hx => h x (List.mem_cons_of_mem _ hx)
        | some u =>
          obtain ⟨b, a, k1, k2, k3⟩ := h
          cases b with
          | nil => cases k1; exact absurd hp (fits_passed k3)
          | cons y b => cases k1; exact ⟨b, a, rfl, fun x hx => k2 x (List.mem_cons_of_mem _ hx), k3⟩
    have head : ∀ {r}, Decides deref c (t :: ts) r → ¬ Passed deref c t →
        r = .ok (some t) ∧ Fits deref c t ∨ ∃ e, r = .error e ∧ Fails deref c t e := by
      intro r h hp
      cases r with
      | error e =>
        obtain ⟨b, u, a, k1, k2, k3⟩ := h
        cases b with
        | nil => cases k1; exact .inr ⟨e, rfl, k3⟩
        | cons y b => cases k1; exact absurd (k2 _ (by simp)) hp
      | ok x =>
        cases x with
        | none => exact absurd (h t (by simp)) hp
        | some u =>
          obtain ⟨b, a, k1, k2, k3⟩ := h
          cases b with
          | nil => cases k1; exact .inl ⟨rfl, k3⟩
          | cons y b => cases k1; exact absurd (k2 _ (by simp)) hp
    by_cases hp : Passed deref c t
    · exact ih (tail h hp) (tail h' hp)
    · rcases head h hp with ⟨a1, a2⟩ | ⟨e, a1, a2⟩ <;> rcases head h' hp with ⟨b1, b2⟩ | ⟨e', b1, b2⟩
      · rw [a1, b1]
      · exact absurd b2 (fits_fails a2)
      · exact absurd a2 (fits_fails b2)
      · rw [a1, b1]
        congr 1
        rcases a2 with ⟨a2, rfl⟩ | ⟨a2, a3⟩ <;> rcases b2 with ⟨b2, rfl⟩ | ⟨b2, b3⟩
        · rfl
        · rw [a2] at b2; cases b2
        · rw [a2] at b2; cases b2
        · rcases a3 with ⟨a3, rfl⟩ | ⟨q, a3, a4⟩ <;> rcases b3 with ⟨b3, rfl⟩ | ⟨q', b3, b4⟩
          · rfl
          · rw [a3] at b3; cases b3
          · rw [a3] at b3; cases b3
          · rw [a3] at b3
            cases b3
            rcases a4 with a4 | ⟨o, n, a4, _, rfl⟩ <;> rcases b4 with b4 | ⟨o', n', b4, _, rfl⟩ <;> rw [a4] at b4 <;> cases b4 <;> rfl

/-- C59: the search of `clip.track` in the tracks of a mob gives the first track that has the index the clip
names and a component of the media kind of the clip; nothing if there is none; and it raises exactly if
before that one there is a track that has no index, or the index and no component, or a component that cannot be
loaded or is a list with entries. -/
theorem C59_search (deref : Ref → Except Err (Option Obj)) (c : SourceClip) (ts : List Track)
    (r : Except Err (Option Track)) : searchTracks deref c ts = r ↔ Decides deref c ts r :=
  ⟨fun h => h ▸ search_decides deref c ts, fun h => decides_unique (search_decides deref c ts) h⟩

/-- C59: in a bin whose items all have mobs with ids, after any calls of `find_by_mob_id` and `add_mob`,
`clip.mob` is the last mob in the list with the id the clip names, and nothing if there is none or the clip
names none; `clip.track` is found in its tracks as `C59_search` says.  Both change neither items nor mobs. -/
theorem C59_track {mobs : Nat → Composition} {items : List (Option Nat)} (ops : List BinFind.Op)
    (hc : BinFind.Complete mobs (items ++ BinFind.added ops)) (deref : Ref → Except Err (Option Obj))
    (c : SourceClip) :
    ∃ m, (mob (BinFind.run ⟨items, [], mobs⟩ ops) c).1 = .ok m ∧
      (match c.mob_id with
        | some i => BinFind.Answer mobs (items ++ BinFind.added ops) i m
        | none => m = none) ∧
      (match m with
        | none => (track deref (BinFind.run ⟨items, [], mobs⟩ ops) c).1 = .ok none
        | some k =>
          match (track deref (BinFind.run ⟨items, [], mobs⟩ ops) c).1 with
          | .error e => Decides deref c (mobs k).tracks (.error e)
          | .ok none => Decides deref c (mobs k).tracks (.ok none)
          | .ok (some (k', t)) => k' = k ∧ Decides deref c (mobs k).tracks (.ok (some t))) ∧
      (track deref (BinFind.run ⟨items, [], mobs⟩ ops) c).2.items = items ++ BinFind.added ops ∧
      (track deref (BinFind.run ⟨items, [], mobs⟩ ops) c).2.mobs = mobs := by
  have hm : ∀ (ops : List BinFind.Op) (s : BinFind.St), (BinFind.run s ops).mobs = s.mobs := by
    intro ops
    induction ops with
    | nil => exact fun _ => rfl
    | cons op ops ih =>
      intro s
      show (BinFind.run (BinFind.step s op) ops).mobs = _
      rw [ih]
      cases op with
      | find i =>
        unfold BinFind.step BinFind.find
        dsimp only
        split
        · split <;> rfl
        · rfl
      | add m =>
        unfold BinFind.step BinFind.addMob
        dsimp only
        split
        · rfl
        · split <;> rfl
  have hfind : ∀ (s : BinFind.St) i, (BinFind.find s i).2.mobs = s.mobs ∧ (BinFind.find s i).2.items = s.items := by
    intro s i
    unfold BinFind.find
    split
    · split <;> exact ⟨rfl, rfl⟩
    · exact ⟨rfl, rfl⟩
  have hitems : (BinFind.run ⟨items, [], mobs⟩ ops).items = items ++ BinFind.added ops :=
    (BinFind.C30_history ops hc ⟨List.replicate 32 0, rfl⟩).1
  have hmobs := hm ops ⟨items, [], mobs⟩
  cases hid : c.mob_id with
  | none =>
    have h1 : mob (BinFind.run ⟨items, [], mobs⟩ ops) c = (.ok none, BinFind.run ⟨items, [], mobs⟩ ops) := by
      unfold mob; rw [hid]
    have h2 : track deref (BinFind.run ⟨items, [], mobs⟩ ops) c =
        (.ok none, BinFind.run ⟨items, [], mobs⟩ ops) := by unfold track; rw [h1]
    exact ⟨none, by rw [h1], rfl, by rw [h2], by rw [h2]; exact hitems, by rw [h2]; exact hmobs⟩
  | some i =>
    obtain ⟨_, r, h1, h2⟩ := BinFind.C30_history ops hc i
    have hf := hfind (BinFind.run ⟨items, [], mobs⟩ ops) i
    have h3 : mob (BinFind.run ⟨items, [], mobs⟩ ops) c = BinFind.find (BinFind.run ⟨items, [], mobs⟩ ops) i := by
      unfold mob; rw [hid]
    cases hr : BinFind.find (BinFind.run ⟨items, [], mobs⟩ ops) i with
    | mk x s' =>
      rw [hr] at h1 h3 hf
      dsimp only at h1 hf
      subst h1
      rw [hitems, hmobs] at hf
      refine ⟨r, by rw [h3], h2, ?_⟩
      unfold track
      rw [h3]
      cases r with
      | none => exact ⟨rfl, hf.2, hf.1⟩
      | some k =>
        dsimp only
        rw [hf.1]
        have hd := search_decides deref c (mobs k).tracks
        cases hs : searchTracks deref c (mobs k).tracks with
        | error e => rw [hs] at hd; exact ⟨hd, hf.2, hf.1⟩
        | ok x =>
          rw [hs] at hd
          cases x with
          | none => exact ⟨hd, hf.2, hf.1⟩
          | some t => exact ⟨⟨rfl, hd⟩, hf.2, hf.1⟩

/-! ### Cases -/

/-- A track with an index and a component. -/
def exTrack (i : Int) (r : Ref) : Track :=
  ⟨some i, none, none, some r, none, none, none, none, none, none, none⟩

/-- A clip that names sound track 2. -/
def exRefClip : SourceClip where
  left_bob := 0
  right_bob := 0
  media_kind_id := 2
  edit_rate := .fin 25
  name := none
  effect_id := none
  attributes := 0
  session_attrs := 0
  precomputed := 0
  param_list := none
  length := 10
  track_id := 2
  start_time := 0
  mob_id := some BinFind.exId2

/-- Object 1 is a picture clip, object 2 a sound clip, object 3 cannot be loaded, all others are null. -/
def exDeref (r : Ref) : Except Err (Option Obj) :=
  if r = 1 then .ok (some (.SCLP { exRefClip with media_kind_id := 1 }))
  else if r = 2 then .ok (some (.SCLP exRefClip))
  else if r = 3 then .error .value
  else .ok none

/-- Picture track 2 and a null track 2 are passed, sound track 2 is found. -/
example : searchTracks exDeref exRefClip [exTrack 1 2, exTrack 2 1, exTrack 2 0, exTrack 2 2, exTrack 2 3] =
    .ok (some (exTrack 2 2)) :=
  (C59_search _ _ _ _).2 ⟨[exTrack 1 2, exTrack 2 1, exTrack 2 0], [exTrack 2 3], rfl, by
    intro x hx
    simp at hx
    rcases hx with rfl | rfl | rfl
    · exact ⟨1, rfl, fun h => absurd h (by decide)⟩
    · exact ⟨2, rfl, fun _ => ⟨1, rfl, .inr ⟨_, rfl, by decide⟩⟩⟩
    · exact ⟨2, rfl, fun _ => ⟨0, rfl, .inl rfl⟩⟩, rfl, 2, _, rfl, rfl, rfl, rfl⟩

/-- An empty attribute set as component is passed, one with entries makes the search raise. -/
example (as : Attributes) : searchTracks (fun r => if r = 4 then .ok (some (.ATTR as)) else exDeref r) exRefClip
    [exTrack 2 4, exTrack 2 2] = if as.items = [] then .ok (some (exTrack 2 2)) else .error .attribute := by
  rw [C59_search]
  split
  · next h =>
    refine ⟨[exTrack 2 4], [], rfl, ?_, rfl, 2, _, rfl, rfl, rfl, rfl⟩
    intro x hx
    simp at hx
    subst hx
    exact ⟨2, rfl, fun _ => ⟨4, rfl, .inr ⟨_, rfl, .inl (by rw [entries, h]; rfl)⟩⟩⟩
  · next h =>
    obtain ⟨a, l, hl⟩ := List.exists_cons_of_ne_nil h
    exact ⟨[], _, _, rfl, fun _ h => (nomatch h), .inr ⟨rfl, .inr ⟨4, rfl, .inr ⟨_, l.length, rfl,
      by rw [entries, hl]; rfl, rfl⟩⟩⟩⟩

/-- A track without an index before the wanted one makes the search raise. -/
example : searchTracks exDeref exRefClip [exTrack 1 2, { exTrack 1 2 with index := none }, exTrack 2 2] =
    .error .attribute :=
  (C59_search _ _ _ _).2 ⟨[exTrack 1 2], { exTrack 1 2 with index := none }, [exTrack 2 2], rfl, by
    intro x hx
    simp at hx
    subst hx
    exact ⟨1, rfl, fun h => absurd h (by decide)⟩, .inl ⟨rfl, rfl⟩⟩

/-- Mobs of which number 2 has a picture and a sound track 2. -/
def exMobs2 (n : Nat) : Composition :=
  { BinFind.exMobs n with tracks := [exTrack 1 1, exTrack 2 1, exTrack 2 2] }

/-- The hypotheses of `C59_track` can be met: the clip's track is found in a bin after some calls. -/
example : (track exDeref (BinFind.run ⟨[some 1, some 2], [], exMobs2⟩ [.find BinFind.exId2, .add (some 3)]) exRefClip).1 =
    .ok (some (2, exTrack 2 2)) := by
  obtain ⟨m, h1, h2, h3, _⟩ := C59_track (mobs := exMobs2) (items := [some 1, some 2])
    [.find BinFind.exId2, .add (some 3)] (by
      intro x hx
      cases x with
      | none => simp [BinFind.added] at hx
      | some m => exact ⟨m, _, rfl, rfl⟩) exDeref exRefClip
  have hm : m = some 2 := h2.unique ⟨by decide, [some 1], [some 3], rfl, by
    intro n hn
    simp at hn
    subst hn
    decide⟩
  subst hm
  dsimp only at h3
  have hf : Decides exDeref exRefClip (exMobs2 2).tracks (.ok (some (exTrack 2 2))) :=
    ⟨[exTrack 1 1, exTrack 2 1], [], rfl, by
      intro x hx
      simp at hx
      rcases hx with rfl | rfl
      · exact ⟨1, rfl, fun h => absurd h (by decide)⟩
      · exact ⟨2, rfl, fun _ => ⟨1, rfl, .inr ⟨_, rfl, by decide⟩⟩⟩, rfl, 2, _, rfl, rfl, rfl, rfl⟩
  split at h3
  · cases decides_unique hf h3
  · cases decides_unique hf h3
  · next hr =>
    obtain ⟨rfl, h4⟩ := h3
    cases decides_unique hf h4
    exact hr

end Avb.Resolve

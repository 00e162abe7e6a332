import Verif.Lemmas.CopyObj
import Verif.Lemmas.WriteRenumber
import Verif.Props.NewFile

/-
C62: an object copied from one file into another has the same content there, also after a save.
-/

namespace Avb.Cross

open Work

/-- The object without its references. -/
def rest (o : Obj) : Obj := o.renumber fun _ => 0

/-- `p` is `o`, with values for the properties that a constructor sets and `o` does not have. -/
def Gains : Obj → Obj → Prop
  | .SCLP x, p => ∃ m, p = .SCLP { x with mob_id := some m } ∧ (∀ i, x.mob_id = some i → m = i) ∧
      (x.mob_id = none → m = MobID.zero)
  | .CMPO x, p => ∃ m t, p = .CMPO { x with mob_id := some m, creation_time := some t } ∧
      (∀ i, x.mob_id = some i → m = i) ∧ ∀ c, x.creation_time = some c → t = c
  | .BVst x, p => ∃ l, p = .BVst { x with format_descriptors := some l } ∧
      (∀ m, x.format_descriptors = some m → l = m) ∧ (x.format_descriptors = none → l = [])
  | o, p => p = o

/-- Object `a` of one file and object `b` of another have the same content, apart from such properties, and at
corresponding places they refer to objects that have the same content in turn. -/
inductive Alike (w w' : Ref → Option Obj) : Ref → Ref → Prop
  | null : Alike w w' 0 0
  | obj {a b : Ref} {o p q : Obj} : a ≠ 0 → b ≠ 0 → w a = some o → w' b = some q → Gains o p →
      rest q = rest p → q.refs.length = o.refs.length →
      (∀ (i : Nat) r s, o.refs[i]? = some r → q.refs[i]? = some s → Alike w w' r s) → Alike w w' a b

/-- The objects that are there. -/
def there (src : Ref → Except Err Obj) (r : Ref) : Option Obj := (src r).toOption

/-- The objects of a file after work on it. -/
def now (f : AvbFile) (es : List Event) (i : Ref) : Option Obj :=
  match current f es i with
  | .ok o => o
  | .error _ => none

theorem fill_gains (v : Env) (i : Nat) (o : Obj) : Gains o (fill v i o) := by
  cases o with
  | SCLP x =>
    refine ⟨_, rfl, ?_, ?_⟩
    · intro i h; rw [h]; rfl
    · intro h; rw [h]; rfl
  | CMPO x =>
    refine ⟨_, _, rfl, ?_, ?_⟩
    · intro i h; rw [h]; rfl
    · intro c h; rw [h]; rfl
  | BVst x =>
    refine ⟨_, rfl, ?_, ?_⟩
    · intro m h; rw [h]; rfl
    · intro h; rw [h]; rfl
  | _ => rfl

theorem fill_refs (v : Env) (i : Nat) (o : Obj) : (fill v i o).refs = o.refs := by
  cases o <;> rfl

theorem withRefs_refs {o : Obj} {rs : List Ref} (h : rs.length = o.refs.length) :
    (o.withRefs rs).refs = rs ∧ rest (o.withRefs rs) = rest o := by
  obtain ⟨y, h1, h2, h3⟩ := Obj.law.done o rs [] h
  rw [List.append_nil] at h1
  unfold Obj.withRefs rest
  rw [h1]
  exact ⟨h2, h3⟩

theorem assigned_append {i : Nat} (es es' : List Event) :
    assigned i (es ++ es') = match assigned i es' with
      | some o => some o
      | none => assigned i es := by
  induction es with
  | nil => cases h : assigned i es' <;> simp [h, assigned]
  | cons e es ih =>
    have h : ∀ l, assigned i (e :: l) = match assigned i l with
        | some o => some o
        | none => assigned i [e] := by
      intro l
      cases e <;> rfl
    rw [List.cons_append, h, h, ih]
    cases assigned i es' <;> rfl

theorem touched_append (es es' : List Event) : touched (es ++ es') = touched es ++ touched es' := by
  unfold touched
  rw [List.filterMap_append]

theorem assigned_none {i : Nat} {es : List Event} (h : i ∉ touched es) : assigned i es = none := by
  by_contra h'
  exact h (assigned_touched.1 h')

theorem touched_of {i : Nat} {es : List Event} {o : Obj} (h : assigned i es = some o) : i ∈ touched es :=
  assigned_touched.1 (by rw [h]; simp)

/-- The events give new numbers only. -/
def Within (n n' : Nat) (es : List Event) : Prop := n ≤ n' ∧ ∀ i ∈ touched es, n < i ∧ i ≤ n'

theorem Within.append {n n1 n2 : Nat} {es es' : List Event} (h : Within n n1 es) (h' : Within n1 n2 es') :
    Within n n2 (es ++ es') := by
  refine ⟨Nat.le_trans h.1 h'.1, fun i hi => ?_⟩
  rw [touched_append] at hi
  rcases List.mem_append.1 hi with hi | hi
  · have := h.2 i hi; have := h'.1; omega
  · have := h'.2 i hi; have := h.1; omega

theorem news_within (n : Nat) (os : List Obj) : Within n (n + os.length) (news (n + 1) os) := by
  induction os generalizing n with
  | nil => exact ⟨Nat.le_refl _, by intro i hi; cases hi⟩
  | cons o os ih =>
    refine ⟨by omega, fun i hi => ?_⟩
    rcases List.mem_cons.1 hi with rfl | hi
    · simp
    · have := (ih (n + 1)).2 i hi
      rw [List.length_cons]
      omega

/-- The world has what the events made. -/
def Made (es : List Event) (w : Ref → Option Obj) : Prop := ∀ i o, assigned i es = some o → w i = some o

theorem Made.left {n n1 n2 : Nat} {es es' : List Event} {w : Ref → Option Obj} (h : Made (es ++ es') w)
    (h1 : Within n n1 es) (h2 : Within n1 n2 es') : Made es w := by
  intro i o hi
  apply h
  have := h1.2 i (touched_of hi)
  rw [assigned_append, assigned_none (es := es') (fun hm => by have := h2.2 i hm; omega), hi]

theorem Made.right {es es' : List Event} {w : Ref → Option Obj} (h : Made (es ++ es') w) : Made es' w := by
  intro i o hi
  apply h
  rw [assigned_append, hi]

/-- What copying one object does. -/
def Copies (src : Ref → Except Err Obj) (rec : Ref → Nat → Res Ref) : Prop :=
  ∀ r n b n' es, r ≠ 0 → rec r n = .ok (b, n', es) → Within n n' es ∧ n < b ∧ b ≤ n' ∧
    ∀ w, Made es w → Alike (there src) w r b

theorem copyAll_spec {src : Ref → Except Err Obj} {rec : Ref → Nat → Res Ref} (hr : Copies src rec)
    {st : Visit → Bool} : ∀ {vs : List Visit} {n : Nat} {rs : List Ref} {n' : Nat} {es : List Event},
    copyAll rec st vs n = .ok (rs, n', es) → Within n n' es ∧ rs.length = vs.length ∧
      ∀ w, Made es w → ∀ (i : Nat) a b, (vs.map Visit.ref)[i]? = some a → rs[i]? = some b → Alike (there src) w a b := by
  intro vs
  induction vs with
  | nil =>
    intro n rs n' es h
    cases h
    exact ⟨⟨Nat.le_refl _, by intro i hi; cases hi⟩, rfl, by intro w _ i a b h; cases h⟩
  | cons v vs ih =>
    intro n rs n' es h
    unfold copyAll at h
    split at h
    · next h0 =>
      split at h
      · cases h
      · split at h
        · cases h
        · next rs1 n1 es1 h1 =>
          cases h
          obtain ⟨a1, a2, a3⟩ := ih h1
          refine ⟨a1, by rw [List.length_cons, List.length_cons, a2], fun w hw i a b ha hb => ?_⟩
          cases i with
          | zero =>
            simp only [List.map_cons, List.getElem?_cons_zero, Option.some.injEq] at ha hb
            rw [← ha, ← hb, h0]
            exact .null
          | succ i => exact a3 w hw i a b (by simpa using ha) (by simpa using hb)
    · next h0 =>
      split at h
      · cases h
      · next r1 n1 es1 h1 =>
        split at h
        · cases h
        · next rs2 n2 es2 h2 =>
          cases h
          obtain ⟨a1, a2, a3, a4⟩ := hr _ _ _ _ _ h0 h1
          obtain ⟨b1, b2, b3⟩ := ih h2
          refine ⟨a1.append b1, by rw [List.length_cons, List.length_cons, b2], fun w hw i a b ha hb => ?_⟩
          cases i with
          | zero =>
            simp only [List.map_cons, List.getElem?_cons_zero, Option.some.injEq] at ha hb
            rw [← ha, ← hb]
            exact a4 w (hw.left a1 b1)
          | succ i => exact b3 w hw.right i a b (by simpa using ha) (by simpa using hb)

theorem copyObj_spec (v : Env) (src : Ref → Except Err Obj) (k : Nat) : Copies src (copyObj v src k) := by
  induction k with
  | zero => intro r n b n' es _ h; cases h
  | succ k ih =>
    intro r n b n' es hr0 h
    unfold copyObj at h
    split at h
    · cases h
    · next o ho =>
      split at h
      · cases h
      · dsimp only at h
        split at h
        · cases h
        · next rs n2 es1 h1 =>
          cases h
          obtain ⟨a1, a2, a3⟩ := copyAll_spec ih h1
          have hlen : rs.length = (fill v (n + 1) o).refs.length := by
            rw [fill_refs, a2]
            exact (List.length_map ..).symm
          obtain ⟨c1, c2⟩ := withRefs_refs hlen
          have hn := news_within (n + 1) (extras (n + 2) o.cls)
          have h2 : Within (n + 1) n' (news (n + 2) (extras (n + 2) o.cls) ++ es1) := hn.append a1
          have hall : ∀ i ∈ touched (.new (n + 1) ((fill v (n + 1) o).renumber fun _ => 0) ::
              news (n + 2) (extras (n + 2) o.cls) ++ es1 ++ [.edit (n + 1) ((fill v (n + 1) o).withRefs rs)]),
              n < i ∧ i ≤ n' := by
            intro i hi
            have h3 := h2.1
            rw [touched_append] at hi
            rcases List.mem_append.1 hi with hi | hi
            · rcases List.mem_cons.1 hi with rfl | hi
              · omega
              · have := h2.2 i hi
                omega
            · obtain rfl : i = n + 1 := List.mem_singleton.1 hi
              omega
          have h4 : n + 1 ≤ n' := h2.1
          refine ⟨⟨by omega, hall⟩, by omega, by omega, fun w hw => ?_⟩
          have hlast : w (n + 1) = some ((fill v (n + 1) o).withRefs rs) := by
            apply hw
            rw [assigned_snoc]
            simp
          have hmid : Made es1 w := by
            intro i o' hi
            apply hw
            have := a1.2 i (touched_of hi)
            rw [assigned_snoc]
            have hne : n + 1 ≠ i := by omega
            simp only [hne, if_false]
            rw [List.cons_append, ← List.cons_append, assigned_append, hi]
          refine .obj hr0 (Nat.succ_ne_zero _) (by unfold there; rw [ho]; rfl) hlast (fill_gains v (n + 1) o) c2 ?_ ?_
          · rw [c1, a2]
            exact (List.length_map ..).symm
          · intro i a b ha hb
            rw [c1] at hb
            exact a3 w hmid i a b ha hb

/-- One object refers to another in the file that is copied from. -/
def Refers (src : Ref → Except Err Obj) (a b : Ref) : Prop := ∃ o, src a = .ok o ∧ b ∈ o.refs ∧ b ≠ 0

/-- The objects that are copied. -/
abbrev Under (src : Ref → Except Err Obj) : Ref → Ref → Prop := Relation.ReflTransGen (Refers src)

theorem gains_refs {o p : Obj} (h : Gains o p) : p.refs = o.refs := by
  cases o with
  | SCLP x => obtain ⟨m, rfl, _⟩ := h; rfl
  | CMPO x => obtain ⟨m, t, rfl, _⟩ := h; rfl
  | BVst x => obtain ⟨l, rfl, _⟩ := h; rfl
  | _ => cases h; rfl

/-- The copy of a file's content can be run from any moment: numbers are given out one after the other. -/
def Runs (f : AvbFile) (o₀ : Obj) (n n' : Nat) (evs : List Event) : Prop :=
  ∀ es s, Run f (start f o₀) es s → s.next = n → ∃ s', Run f (start f o₀) (es ++ evs) s' ∧ s'.next = n'

theorem Runs.append {f : AvbFile} {o₀ : Obj} {n n1 n2 : Nat} {a b : List Event} (h1 : Runs f o₀ n n1 a)
    (h2 : Runs f o₀ n1 n2 b) : Runs f o₀ n n2 (a ++ b) := by
  intro es s h hn
  obtain ⟨s1, r1, e1⟩ := h1 es s h hn
  obtain ⟨s2, r2, e2⟩ := h2 _ s1 r1 e1
  exact ⟨s2, by rw [← List.append_assoc]; exact r2, e2⟩

theorem Runs.new {f : AvbFile} {o₀ : Obj} {n : Nat} (o : Obj) : Runs f o₀ n (n + 1) [.new (n + 1) o] := by
  intro es s h hn
  subst hn
  exact ⟨_, h.snoc (.new s o), rfl⟩

theorem Runs.news {f : AvbFile} {o₀ : Obj} (os : List Obj) :
    ∀ n, Runs f o₀ n (n + os.length) (Cross.news (n + 1) os) := by
  induction os with
  | nil => intro n es s h hn; exact ⟨s, by rw [Cross.news, List.append_nil]; exact h, hn⟩
  | cons o os ih =>
    intro n
    have h := (Runs.new (f := f) (o₀ := o₀) (n := n) o).append (ih (n + 1))
    rw [List.length_cons, Nat.add_comm os.length, ← Nat.add_assoc]
    exact h

theorem edit_run {f : AvbFile} {o₀ : Obj} {es : List Event} {s : St} (h : Run f (start f o₀) es s) {i : Nat}
    (hi : i ∈ touched es) (o : Obj) : ∃ s', Run f (start f o₀) (es ++ [.edit i o]) s' ∧ s'.next = s.next := by
  have hv := Inv.run h
  cases hm : s.modified i with
  | none => exact absurd ((hv.mark i).1 hm) (assigned_touched.2 hi)
  | some l =>
    obtain ⟨h1, h2⟩ := hv.modified i l hm
    have := h.snoc (.edit s l o h1)
    rw [h2] at this
    exact ⟨_, this, rfl⟩

theorem copyAll_runs {f : AvbFile} {o₀ : Obj} {rec : Ref → Nat → Res Ref}
    (hr : ∀ r n b n' es, rec r n = .ok (b, n', es) → Runs f o₀ n n' es) {st : Visit → Bool} :
    ∀ {vs : List Visit} {n : Nat} {rs : List Ref} {n' : Nat} {es : List Event},
      copyAll rec st vs n = .ok (rs, n', es) → Runs f o₀ n n' es := by
  intro vs
  induction vs with
  | nil =>
    intro n rs n' es h
    cases h
    intro es s h hn
    exact ⟨s, by rw [List.append_nil]; exact h, hn⟩
  | cons v vs ih =>
    intro n rs n' es h
    unfold copyAll at h
    split at h
    · split at h
      · cases h
      · split at h
        · cases h
        · next h1 => cases h; exact ih h1
    · split at h
      · cases h
      · next h1 =>
        split at h
        · cases h
        · next h2 => cases h; exact (hr _ _ _ _ _ h1).append (ih h2)

theorem copyObj_runs {f : AvbFile} {o₀ : Obj} (v : Env) (src : Ref → Except Err Obj) (k : Nat) :
    ∀ r n b n' es, copyObj v src k r n = .ok (b, n', es) → Runs f o₀ n n' es := by
  induction k with
  | zero => intro r n b n' es h; cases h
  | succ k ih =>
    intro r n b n' es h
    unfold copyObj at h
    split at h
    · cases h
    · next o ho =>
      split at h
      · cases h
      · dsimp only at h
        split at h
        · cases h
        · next rs n2 es1 h1 =>
          cases h
          have r1 := (Runs.new (f := f) (o₀ := o₀) (n := n) ((fill v (n + 1) o).renumber fun _ => 0)).append
            (Runs.news (extras (n + 2) o.cls) (n + 1))
          have r2 := r1.append (copyAll_runs ih h1)
          intro es s hs hn
          obtain ⟨s1, q1, e1⟩ := r2 es s hs hn
          obtain ⟨s2, q2, e2⟩ := edit_run q1 (i := n + 1)
            (by rw [touched_append]; exact List.mem_append_right _ (List.mem_cons_self ..))
            ((fill v (n + 1) o).withRefs rs)
          refine ⟨s2, ?_, by rw [e2, e1]⟩
          rw [List.append_assoc] at q2
          exact q2

/-- C62: copying an object into another file, at any moment of the work on that file.  The objects of the
receiving file stay as they are; the copies get numbers that were not in use; and from the copy the same content
is seen as from the original: the same values, and at corresponding places references to objects with the same
content, to any depth, but for properties that only the constructor gives.  This holds if objects are shared in
the original, and for a copy of an object into its own file. -/
theorem C62_copy {f : AvbFile} {o₀ : Obj} {es : List Event} {s : St} (h : Run f (start f o₀) es s) {v : Env}
    {src : Ref → Except Err Obj} {k : Nat} {r r' : Ref} (hr : r ≠ 0) {n' : Nat} {evs : List Event}
    (hc : copyObj v src k r s.next = .ok (r', n', evs)) :
    (∃ s', Run f (start f o₀) (es ++ evs) s' ∧ s'.next = n') ∧
    Alike (there src) (now f (es ++ evs)) r r' ∧ s.next < r' ∧ r' ≤ n' ∧
    ∀ i ≤ s.next, current f (es ++ evs) i = current f es i := by
  obtain ⟨h1, h2, h3, h4⟩ := copyObj_spec v src k r s.next r' n' evs hr hc
  refine ⟨copyObj_runs v src k _ _ _ _ _ hc es s h rfl, h4 _ ?_, h2, h3, ?_⟩
  · intro i o hi
    unfold now current
    rw [assigned_append, hi]
  · intro i hi
    unfold current
    rw [assigned_append, assigned_none (es := evs) (fun hm => by have := h1.2 i hm; omega)]

theorem Alike.zero {w w' : Ref → Option Obj} {a : Ref} (h : Alike w w' a 0) : a = 0 := by
  cases h with
  | null => rfl
  | obj _ h0 => exact absurd rfl h0

/-- The objects of an opened file. -/
def loaded (f : AvbFile) (i : Ref) : Option Obj :=
  match readObject f i with
  | .ok o => o
  | .error _ => none

theorem Alike.saved {f f' : AvbFile} {order : Nat → Obj → List Visit} {es : List Event} {root : Ref}
    {num : Ref → Nat} (hh : Holds f' (wanted f order es) root num) (horder : ∀ i o v, v ∈ order i o ↔ v ∈ o.visits)
    {w : Ref → Option Obj} {a b : Ref} (h : Alike w (now f es) a b) (hb : b ≠ 0)
    (hr : Reach (wanted f order es) root b) : Alike w (loaded f') a (num b) := by
  induction h with
  | null => exact absurd rfl hb
  | @obj a b o p q ha _ ho hq hg hrest hlen hal ih =>
    have he : ∃ e, wanted f order es b = .ok e ∧ e.obj = q ∧ ∀ v, v ∈ e.visits ↔ v ∈ q.visits := by
      unfold now current at hq
      unfold wanted
      cases has : assigned b es with
      | some o' =>
        rw [has] at hq
        cases hq
        exact ⟨_, rfl, rfl, horder b q⟩
      | none =>
        rw [has] at hq
        dsimp only at hq ⊢
        unfold fileHeap
        cases hro : readObject f b with
        | error e => rw [hro] at hq; cases hq
        | ok x =>
          rw [hro] at hq
          dsimp only at hq
          subst hq
          exact ⟨_, rfl, rfl, fun v => Iff.rfl⟩
    obtain ⟨e, he, rfl, hvis⟩ := he
    have hs := hh.same b e hr he
    have hn0 : num b ≠ 0 := by
      have := (hh.onto (num b)).2 ⟨b, hr, rfl⟩
      omega
    refine .obj ha hn0 ho (by unfold loaded; rw [hs]) hg ?_ ?_ ?_
    · rw [← hrest]
      exact Obj.law.twice _ _ _
    · rw [Obj.law.refs, List.length_map, hlen]
    · intro i x y hx hy
      rw [Obj.law.refs, List.getElem?_map] at hy
      obtain ⟨z, hz, rfl⟩ := Option.map_eq_some_iff.1 hy
      by_cases h0 : z = 0
      · rw [if_pos h0]
        subst h0
        rw [Alike.zero (hal i x 0 hx hz)]
        exact .null
      · rw [if_neg h0]
        refine ih i x z hx hz h0 ⟨h0, hr.2.tail ⟨e, he, hr.1, h0, ?_⟩⟩
        obtain ⟨v, hv, hvr⟩ := List.mem_map.1 (List.mem_of_getElem? hz)
        exact ⟨v, (hvis v).2 hv, hvr⟩

theorem map_to {as rs : List Ref} (h : List.Forall₂ (fun a b => a = 0 ↔ b = 0) as rs)
    (hd : (rs.filter (· ≠ 0)).Nodup) : ∃ g : Ref → Ref, (∀ r, g r = 0 ↔ r = 0) ∧ rs.map g = as := by
  induction h with
  | nil => exact ⟨id, fun r => Iff.rfl, rfl⟩
  | @cons a b as rs hab _ ih =>
    by_cases hb : b = 0
    · obtain ⟨g, h1, h2⟩ := ih (by simpa [hb] using hd)
      exact ⟨g, h1, by rw [List.map_cons, h2, (h1 b).2 hb, hab.2 hb]⟩
    · have hd' : b ∉ rs.filter (· ≠ 0) ∧ (rs.filter (· ≠ 0)).Nodup := by
        rw [List.filter_cons_of_pos (by simpa using hb)] at hd
        exact List.nodup_cons.1 hd
      obtain ⟨g, h1, h2⟩ := ih hd'.2
      refine ⟨fun r => if r = b then a else g r, fun r => ?_, ?_⟩
      · dsimp only
        split
        · next e => rw [e]; exact hab
        · exact h1 r
      · rw [List.map_cons, if_pos rfl, ← h2]
        congr 1
        apply List.map_congr_left
        intro r hr
        rw [if_neg]
        rintro rfl
        exact hd'.1 (List.mem_filter.2 ⟨hr, by simpa using hb⟩)

/-- An object is what it is apart from its references, and its references. -/
theorem Obj_ext {x y : Obj} (h1 : rest x = rest y) (h2 : x.refs = y.refs) : x = y := by
  have a := Obj.law.back x (fun _ => 0) []
  have b := Obj.law.back y (fun _ => 0) []
  unfold rest at h1
  rw [h1, h2, b] at a
  exact (Prod.mk.inj a).1.symm

theorem writable_renumber {g : Ref → Ref} (hg : ∀ r, g r = 0 ↔ r = 0) {x : Obj} (h : Writable (x.renumber g)) :
    Writable x := by
  obtain ⟨h1, h2, h3, h4, c, out, h5, h6⟩ := h
  rw [Obj.cls_renumber] at h1 h2
  rw [Obj.write_renumber hg] at h5
  exact ⟨h1, h2, (Obj.readable_renumber x).1 h3, (Obj.stored_renumber x).1 h4, _, out, h5, h6⟩

theorem withRefs_writable {o : Obj} {rs : List Ref} (ho : Writable o)
    (h : List.Forall₂ (fun a b => a = 0 ↔ b = 0) o.refs rs) (hd : (rs.filter (· ≠ 0)).Nodup) :
    Writable (o.withRefs rs) := by
  obtain ⟨g, h1, h2⟩ := map_to h hd
  obtain ⟨c1, c2⟩ := withRefs_refs h.length_eq.symm
  refine writable_renumber h1 ?_
  have : (o.withRefs rs).renumber g = o := by
    apply Obj_ext
    · rw [← c2]
      exact Obj.law.twice _ _ _
    · rw [Obj.law.refs, c1, h2]
  rw [this]
  exact ho

theorem view_writable (k : Nat) : Writable (.BVst (newView (k + 1))) := by
  have h := newView_writable
  refine writable_renumber (g := fun r => if r = 0 then 0 else 3) ?_ h
  intro r
  split
  · next e => exact ⟨fun _ => e, fun _ => rfl⟩
  · next e => exact ⟨fun h => absurd h (by decide), fun h => absurd h e⟩

/-- The new references: null where the old ones are, else new numbers one after the other. -/
structure Fresh (n n' : Nat) (as rs : List Ref) : Prop where
  same : List.Forall₂ (fun a b => a = 0 ↔ b = 0) as rs
  incr : (rs.filter (· ≠ 0)).Pairwise (· < ·)
  within : ∀ b ∈ rs, b ≠ 0 → n < b ∧ b ≤ n'

theorem Fresh.nodup {n n' : Nat} {as rs : List Ref} (h : Fresh n n' as rs) : (rs.filter (· ≠ 0)).Nodup :=
  h.incr.imp fun h e => absurd h (by rw [e]; exact Nat.lt_irrefl _)

theorem copyAll_fresh {src : Ref → Except Err Obj} {rec : Ref → Nat → Res Ref} (hr : Copies src rec)
    {st : Visit → Bool} : ∀ {vs : List Visit} {n : Nat} {rs : List Ref} {n' : Nat} {es : List Event},
    copyAll rec st vs n = .ok (rs, n', es) → Fresh n n' (vs.map Visit.ref) rs := by
  intro vs
  induction vs with
  | nil =>
    intro n rs n' es h
    cases h
    exact ⟨.nil, .nil, by intro b hb; cases hb⟩
  | cons v vs ih =>
    intro n rs n' es h
    unfold copyAll at h
    split at h
    · next h0 =>
      split at h
      · cases h
      · split at h
        · cases h
        · next rs1 n1 es1 h1 =>
          cases h
          obtain ⟨a1, a2, a3⟩ := ih h1
          refine ⟨.cons (iff_of_true h0 rfl) a1, by simpa using a2, fun b hb hb0 => ?_⟩
          rcases List.mem_cons.1 hb with rfl | hb
          · exact absurd rfl hb0
          · exact a3 b hb hb0
    · next h0 =>
      split at h
      · cases h
      · next r1 n1 es1 h1 =>
        split at h
        · cases h
        · next rs2 n2 es2 h2 =>
          cases h
          obtain ⟨b1, b2, b3, _⟩ := hr _ _ _ _ _ h0 h1
          obtain ⟨a1, a2, a3⟩ := ih h2
          have hle := (copyAll_spec hr h2).1.1
          have hr1 : r1 ≠ 0 := Nat.ne_of_gt (Nat.lt_of_le_of_lt (Nat.zero_le _) b2)
          refine ⟨.cons (iff_of_false h0 hr1) a1, ?_, fun b hb hb0 => ?_⟩
          · rw [List.filter_cons_of_pos (by simpa using hr1)]
            refine List.pairwise_cons.2 ⟨fun b hb => ?_, a2⟩
            obtain ⟨hb1, hb2⟩ := List.mem_filter.1 hb
            have := a3 b hb1 (by simpa using hb2)
            exact Nat.lt_of_le_of_lt b3 this.1
          · rcases List.mem_cons.1 hb with rfl | hb
            · exact ⟨b2, Nat.le_trans b3 hle⟩
            · have := a3 b hb hb0
              exact ⟨Nat.lt_of_le_of_lt (Nat.le_trans (Nat.le_of_lt b2) b3) this.1, this.2⟩

/-- What the copies are: they can be written, and refer to later copies only. -/
def Good (n' : Nat) (es : List Event) : Prop :=
  ∀ i q, assigned i es = some q → Writable q ∧ ∀ r ∈ q.refs, r = 0 ∨ i < r ∧ r ≤ n'

theorem Good.mono {n n' : Nat} {es : List Event} (h : Good n es) (hn : n ≤ n') : Good n' es := by
  intro i q hi
  refine ⟨(h i q hi).1, fun r hr => ?_⟩
  rcases (h i q hi).2 r hr with h | h
  · exact .inl h
  · exact .inr ⟨h.1, Nat.le_trans h.2 hn⟩

theorem Good.append {n : Nat} {es es' : List Event} (h : Good n es) (h' : Good n es') : Good n (es ++ es') := by
  intro i q hi
  rw [assigned_append] at hi
  cases ha : assigned i es' with
  | some o => rw [ha] at hi; cases hi; exact h' i q ha
  | none => rw [ha] at hi; exact h i q hi

theorem copyAll_good {rec : Ref → Nat → Res Ref} {st : Visit → Bool} :
    ∀ {vs : List Visit} {n : Nat} {rs : List Ref} {n' : Nat} {es : List Event},
    (∀ r n b n' es, r ≠ 0 → r ∈ vs.map Visit.ref → rec r n = .ok (b, n', es) → Good n' es ∧ n ≤ n') →
    copyAll rec st vs n = .ok (rs, n', es) → Good n' es ∧ n ≤ n' := by
  intro vs
  induction vs with
  | nil =>
    intro n rs n' es _ h
    cases h
    exact ⟨(by intro i q hi; cases hi), Nat.le_refl _⟩
  | cons v vs ih =>
    intro n rs n' es hr h
    have ih' := fun {n rs n' es} => ih (n := n) (rs := rs) (n' := n') (es := es)
      fun r n b n' es h0 hm => hr r n b n' es h0 (List.mem_cons_of_mem _ hm)
    unfold copyAll at h
    split at h
    · split at h
      · cases h
      · split at h
        · cases h
        · next h1 => cases h; exact ih' h1
    · next h0 =>
      split at h
      · cases h
      · next h1 =>
        split at h
        · cases h
        · next h2 =>
          cases h
          obtain ⟨a1, a2⟩ := hr _ _ _ _ _ h0 (List.mem_cons_self ..) h1
          obtain ⟨b1, b2⟩ := ih' h2
          exact ⟨(a1.mono b2).append b1, Nat.le_trans a2 b2⟩

theorem news_good (n : Nat) (k : Cls) : Good (n + (extras (n + 1) k).length) (news (n + 1) (extras (n + 1) k)) := by
  have h1 : Good (n + 1) (news (n + 1) [.ATTR ⟨[]⟩]) := by
    intro i q hi
    unfold news news assigned assigned at hi
    dsimp only at hi
    split at hi
    · cases hi
      exact ⟨newAttr_writable, by intro r hr; cases hr⟩
    · cases hi
  have h0 : Good n (news (n + 1) []) := by intro i q hi; cases hi
  have h3 : Good (n + 3) (news (n + 1) [.BVst (newView (n + 1 + 1)), .ATTR ⟨[]⟩, .ATTR ⟨[]⟩]) := by
    intro i q hi
    simp only [news, assigned] at hi
    by_cases e3 : n + 1 + 1 + 1 = i
    · rw [if_pos e3] at hi
      cases hi
      exact ⟨newAttr_writable, by intro r hr; cases hr⟩
    · rw [if_neg e3] at hi
      by_cases e2 : n + 1 + 1 = i
      · rw [if_pos e2] at hi
        cases hi
        exact ⟨newAttr_writable, by intro r hr; cases hr⟩
      · rw [if_neg e2] at hi
        by_cases e1 : n + 1 = i
        · rw [if_pos e1] at hi
          cases hi
          refine ⟨view_writable _, fun r hr => ?_⟩
          have : r = n + 1 + 1 := List.mem_singleton.1 hr
          rw [this, ← e1]
          exact .inr ⟨Nat.lt_succ_self _, Nat.le_succ _⟩
        · rw [if_neg e1] at hi
          cases hi
  cases k <;> first | exact h0 | exact h1 | exact h3

theorem copyObj_good (v : Env) (src : Ref → Except Err Obj) (k : Nat) : ∀ r n b n' es, r ≠ 0 →
    (∀ a o p, Under src r a → src a = .ok o → Gains o p → Writable p) →
    copyObj v src k r n = .ok (b, n', es) → Good n' es ∧ n ≤ n' := by
  induction k with
  | zero => intro r n b n' es _ _ h; cases h
  | succ k ih =>
    intro r n b n' es hr0 hw h
    have hle := (copyObj_spec v src (k + 1) r n b n' es hr0 h).1.1
    refine ⟨?_, hle⟩
    unfold copyObj at h
    split at h
    · cases h
    · next o ho =>
      split at h
      · cases h
      · dsimp only at h
        split at h
        · cases h
        · next rs n2 es1 h1 =>
          cases h
          have hf := copyAll_fresh (copyObj_spec v src k) h1
          obtain ⟨g1, g2⟩ := copyAll_good (fun a m b n' es h0 hm hc =>
            ih a m b n' es h0 (fun a' o' p hu => hw a' o' p (hu.head ⟨o, ho, hm, h0⟩)) hc) h1
          have hn := news_good (n + 1) o.cls
          intro i q hi
          rw [assigned_snoc] at hi
          by_cases e : n + 1 = i
          · simp only [e, if_true] at hi
            cases hi
            have hsame := hf.same
            have hrf : o.visits.map Visit.ref = (fill v i o).refs := (fill_refs v i o).symm
            rw [hrf] at hsame
            refine ⟨withRefs_writable (hw r o _ .refl ho (fill_gains v i o)) hsame hf.nodup, fun x hx => ?_⟩
            rw [(withRefs_refs hsame.length_eq.symm).1] at hx
            by_cases hx0 : x = 0
            · exact .inl hx0
            · have := hf.within x hx hx0
              refine .inr ⟨Nat.lt_of_le_of_lt ?_ this.1, this.2⟩
              rw [← e]
              exact Nat.le_add_right ..
          · simp only [e, if_false] at hi
            have hi' : assigned i (news (n + 2) (extras (n + 2) o.cls) ++ es1) = some q := by
              have : assigned i (.new (n + 1) ((fill v (n + 1) o).renumber fun _ => 0) ::
                  (news (n + 2) (extras (n + 2) o.cls) ++ es1)) = some q := hi
              unfold assigned at this
              split at this
              · next hq => rw [hq]; exact this
              · simp only [e, if_false] at this
                cases this
            exact ((hn.mono g2).append g1) i q hi'

/-- Whether a number is one of those given to the copies. -/
def Copied (n n' i : Nat) : Prop := n < i ∧ i ≤ n'

/-- C62: a copy survives the save.  Any work on an opened file, then a copy of an object of another file, then
any further work that does not edit the copies (the copy is put somewhere), then a save.  If the conditions of
`C51_save` hold for the other objects, and the originals could be written, the save succeeds; and if the copy is
reachable from the root, the reopened file has an object with the same content as the original. -/
theorem C62_saved {bytes : Bytes} {f : AvbFile} (ho : openTable bytes = .ok f) {o₀ : Obj}
    {es : List Event} {s : St} {v : Env} {src : Ref → Except Err Obj} {k : Nat} {r r' : Ref}
    (hr : r ≠ 0) {n' : Nat} {evs : List Event} (hc : copyObj v src k r s.next = .ok (r', n', evs))
    (hsrc : ∀ a o p, Under src r a → src a = .ok o → Gains o p → Writable p)
    {more all : List Event} (hall : all = es ++ evs ++ more) {s' : St} (h : Run f (start f o₀) es s)
    (h' : Run f (start f o₀) all s') (hmore : ∀ i ∈ touched more, ¬ Copied s.next n' i) {root : Ref}
    {order : Nat → Obj → List Visit} (horder : ∀ i o v, v ∈ order i o ↔ v ∈ o.visits)
    (hedit : ∀ i o, assigned i all = some o → ¬ Copied s.next n' i → Reach (wanted f order all) root i →
      Writable o)
    (hfile : ∀ i, assigned i all = none → Reach (wanted f order all) root i →
      ∃ o, readObject f i = .ok (some o) ∧ o.Keeps)
    (rank : Ref → Nat)
    (hrank : ∀ a b, Reach (wanted f order all) root a → ¬ Copied s.next n' a → ¬ Copied s.next n' b →
      Edge (wanted f order all) a b → rank b < rank a)
    (hcount : (touched all).length + f.header.num_objects < 2 ^ 32)
    {bo : BO} {hd : HeaderInfo} {pre post : Bytes} (ht : TextOK .macroman hd.last_save_str)
    (hpre : (writeHeaderPre bo hd).bytes = .ok pre) (hpost : (writeHeaderPost bo hd).bytes = .ok post) :
    ∃ fuel₀, ∀ fuel ≥ fuel₀, ∃ bytes' f' num, save (heap f order s') fuel bo hd root = .ok bytes' ∧
      openTable bytes' = .ok f' ∧ Holds f' (wanted f order all) root num ∧
      (Reach (wanted f order all) root r' → Alike (there src) (loaded f') r (num r')) := by
  obtain ⟨h1, h2, h3, h4⟩ := copyObj_spec v src k r s.next r' n' evs hr hc
  obtain ⟨hgood, _⟩ := copyObj_good v src k r s.next r' n' evs hr hsrc hc
  have hsmall := (Inv.run h).small
  have hasg : ∀ i, Copied s.next n' i → assigned i all = assigned i evs := by
    intro i hi
    rw [hall, assigned_append, assigned_none (es := more) (fun hm => hmore i hm hi), assigned_append]
    have : assigned i es = none := by
      by_contra hne
      have := hsmall i hne
      have := hi.1
      omega
    rw [this]
    cases assigned i evs <;> rfl
  have hmade : Made evs (now f all) := by
    intro i o hi
    unfold now current
    rw [hasg i (h1.2 i (touched_of hi)), hi]
  have hedge : ∀ a b, Copied s.next n' a → assigned a all ≠ none → Edge (wanted f order all) a b → a < b ∧ b ≤ n' := by
    rintro a b ha hne ⟨e, he, _, hb0, x, hx, rfl⟩
    obtain ⟨q, hq⟩ := Option.ne_none_iff_exists'.1 hne
    unfold wanted at he
    rw [hq] at he
    cases he
    rw [hasg a ha] at hq
    rcases (hgood a q hq).2 x.ref (List.mem_map.2 ⟨x, (horder a q x).1 hx, rfl⟩) with h0 | h0
    · exact absurd h0 hb0
    · exact h0
  have hnone : ∀ a, Copied s.next n' a → assigned a all = none → Reach (wanted f order all) root a → False := by
    intro a ha hna hra
    obtain ⟨o, ho', _⟩ := hfile a hna hra
    have h5 := (readObject_bound ho').2
    have h6 := (Inv.run h).size
    have := ha.1
    omega
  classical
  obtain ⟨fuel₀, hf⟩ := C51_save ho h' (root := root) horder
    (by
      intro i o hi hri
      by_cases hcp : Copied s.next n' i
      · rw [hasg i hcp] at hi
        exact (hgood i o hi).1
      · exact hedit i o hi hcp hri)
    hfile (fun a => if Copied s.next n' a then n' - a else rank a + n' + 1)
    (by
      intro a b hra hab
      by_cases ha : Copied s.next n' a
      · have hne : assigned a all ≠ none := fun hn => hnone a ha hn hra
        have hb := hedge a b ha hne hab
        have hcb : Copied s.next n' b := ⟨Nat.lt_trans ha.1 hb.1, hb.2⟩
        rw [if_pos ha, if_pos hcb]
        exact Nat.sub_lt_sub_left (Nat.lt_of_lt_of_le hb.1 hb.2) hb.1
      · rw [if_neg ha]
        split
        · exact Nat.lt_succ_of_le (Nat.le_trans (Nat.sub_le ..) (Nat.le_add_left ..))
        · next hb =>
          have := hrank a b hra ha hb hab
          omega)
    hcount ht hpre hpost
  refine ⟨fuel₀, fun fuel hfu => ?_⟩
  obtain ⟨bytes', f', num, k1, k2, k3⟩ := hf fuel hfu
  exact ⟨bytes', f', num, k1, k2, k3, fun hre => Alike.saved k3 horder (h4 _ hmade) hre.1 hre⟩

/-- What can be copied: the objects load; none is an effect with an AudioSuite plug-in, or has an attribute that is
plain bytes; and there is no null reference in a list of references or among attributes. -/
inductive Copyable (src : Ref → Except Err Obj) : Ref → Prop
  | mk {r : Ref} {o : Obj} : src r = .ok o → (∀ x, o = .ASPI x → x.plugins = []) →
      (∀ x, o = .ATTR x → ∀ p ∈ x.items, ∀ b, p.2 ≠ .raw b) →
      (∀ x ∈ o.visits, x.ref = 0 → x = .prop 0 ∧ o.cls ≠ .ATTR ∧ o.cls ≠ .PRLS ∧ o.cls ≠ .TMCS) →
      (∀ b ∈ o.refs, b ≠ 0 → Copyable src b) → Copyable src r

theorem refused_none (o : Obj) : refused o = none ↔
    (∀ x, o = .ASPI x → x.plugins = []) ∧ ∀ x, o = .ATTR x → ∀ p ∈ x.items, ∀ b, p.2 ≠ .raw b := by
  cases o with
  | ASPI x =>
    rw [refused]
    constructor
    · intro h
      split at h
      · next h1 => exact ⟨fun y hy => by cases hy; exact h1, fun y hy => by cases hy⟩
      · cases h
    · intro h
      rw [if_pos (h.1 x rfl)]
  | ATTR x =>
    rw [refused]
    constructor
    · intro h
      refine ⟨fun y hy => by (cases hy), fun y hy p hp b hb => ?_⟩
      cases hy
      split at h
      · cases h
      · next h1 =>
        apply h1
        refine List.any_eq_true.2 ⟨p, hp, ?_⟩
        rw [hb]
    · intro h
      rw [if_neg]
      intro h1
      obtain ⟨p, hp, h2⟩ := List.any_eq_true.1 h1
      have := h.2 x rfl p hp
      split at h2
      · next b hb => exact this b hb
      · cases h2
  | _ => exact ⟨fun _ => ⟨(by intro x h; cases h), by intro x h; cases h⟩, fun _ => rfl⟩

theorem strict_false (o : Obj) (x : Visit) : (x.ref = 0 → strict o x = false) ↔
    (x.ref = 0 → x = .prop 0 ∧ o.cls ≠ .ATTR ∧ o.cls ≠ .PRLS ∧ o.cls ≠ .TMCS) := by
  cases x with
  | item r =>
    constructor
    · intro h h0
      have := h h0
      cases o <;> cases this
    · intro h h0
      cases (h h0).1
  | prop r =>
    constructor
    · intro h h0
      have h1 := h h0
      have h2 : r = 0 := h0
      subst h2
      refine ⟨rfl, ?_⟩
      cases o with
      | ATTR _ => cases h1
      | PRLS _ => cases h1
      | TMCS _ => cases h1
      | _ => exact ⟨fun h => (nomatch h), fun h => (nomatch h), fun h => (nomatch h)⟩
    · intro h h0
      obtain ⟨_, h1, h2, h3⟩ := h h0
      cases o <;> first | rfl | exact absurd rfl h1 | exact absurd rfl h2 | exact absurd rfl h3

theorem copyAll_mono {rec rec' : Ref → Nat → Res Ref} (hr : ∀ r n x, rec r n = .ok x → rec' r n = .ok x)
    {st : Visit → Bool} : ∀ {vs : List Visit} {n : Nat} {x : List Ref × Nat × List Event},
    copyAll rec st vs n = .ok x → copyAll rec' st vs n = .ok x := by
  intro vs
  induction vs with
  | nil => intro n x h; exact h
  | cons v vs ih =>
    intro n x h
    unfold copyAll at h ⊢
    split at h
    · next h0 =>
      rw [if_pos h0]
      split at h
      · cases h
      · next hs =>
        rw [if_neg hs]
        split at h
        · cases h
        · next h1 => rw [ih h1]; exact h
    · next h0 =>
      rw [if_neg h0]
      split at h
      · cases h
      · next h1 =>
        rw [hr _ _ _ h1]
        dsimp only
        split at h
        · cases h
        · next h2 => rw [ih h2]; exact h

theorem copyObj_mono {v : Env} {src : Ref → Except Err Obj} (k : Nat) :
    ∀ r n x, copyObj v src k r n = .ok x → copyObj v src (k + 1) r n = .ok x := by
  induction k with
  | zero => intro r n x h; cases h
  | succ k ih =>
    intro r n x h
    rw [copyObj] at h ⊢
    split at h
    · cases h
    · next o ho =>
      split at h
      · cases h
      · dsimp only at h ⊢
        split at h
        · cases h
        · next h1 => rw [copyAll_mono ih h1]; exact h

theorem copyObj_le {v : Env} {src : Ref → Except Err Obj} {k k' : Nat} (hk : k ≤ k') {r : Ref} {n : Nat}
    {x : Ref × Nat × List Event} (h : copyObj v src k r n = .ok x) : copyObj v src k' r n = .ok x := by
  induction hk with
  | refl => exact h
  | step _ ih => exact copyObj_mono _ _ _ _ ih

theorem copyAll_ok {v : Env} {src : Ref → Except Err Obj} {st : Visit → Bool} : ∀ {vs : List Visit},
    (∀ x ∈ vs, x.ref = 0 → st x = false) →
    (∀ b ∈ vs.map Visit.ref, b ≠ 0 → ∀ n, ∃ k x, copyObj v src k b n = .ok x) →
    ∀ n, ∃ k x, copyAll (copyObj v src k) st vs n = .ok x := by
  intro vs
  induction vs with
  | nil => intro _ _ n; exact ⟨0, _, rfl⟩
  | cons y vs ih =>
    intro h1 h2 n
    have ih' := ih (fun x hx => h1 x (List.mem_cons_of_mem _ hx)) fun b hb => h2 b (List.mem_cons_of_mem _ hb)
    by_cases h0 : y.ref = 0
    · obtain ⟨k, x, hx⟩ := ih' n
      exact ⟨k, _, by
        rw [copyAll, if_pos h0, if_neg (by rw [h1 y (List.mem_cons_self ..) h0]; exact Bool.false_ne_true), hx]⟩
    · obtain ⟨k1, x1, hx1⟩ := h2 y.ref (List.mem_cons_self ..) h0 n
      obtain ⟨k2, x2, hx2⟩ := ih' x1.2.1
      refine ⟨max k1 k2, (x1.1 :: x2.1, x2.2.1, x1.2.2 ++ x2.2.2), ?_⟩
      rw [copyAll, if_neg h0, copyObj_le (Nat.le_max_left k1 k2) hx1]
      dsimp only
      rw [copyAll_mono (fun r n x hx => copyObj_le (Nat.le_max_right k1 k2) hx) hx2]

theorem copyAll_needs {rec : Ref → Nat → Res Ref} {st : Visit → Bool} : ∀ {vs : List Visit} {n : Nat}
    {x : List Ref × Nat × List Event}, copyAll rec st vs n = .ok x →
    (∀ y ∈ vs, y.ref = 0 → st y = false) ∧ ∀ b ∈ vs.map Visit.ref, b ≠ 0 → ∃ n x, rec b n = .ok x := by
  intro vs
  induction vs with
  | nil => intro n x _; exact ⟨(by intro y hy; cases hy), by intro y hy; cases hy⟩
  | cons y vs ih =>
    intro n x h
    unfold copyAll at h
    split at h
    · next h0 =>
      split at h
      · cases h
      · next hs =>
        split at h
        · cases h
        · next h1 =>
          obtain ⟨a1, a2⟩ := ih h1
          refine ⟨fun z hz hz0 => ?_, fun b hb hb0 => ?_⟩
          · rcases List.mem_cons.1 hz with rfl | hz
            · exact Bool.eq_false_iff.2 hs
            · exact a1 z hz hz0
          · rcases List.mem_cons.1 hb with rfl | hb
            · exact absurd h0 hb0
            · exact a2 b hb hb0
    · next h0 =>
      split at h
      · cases h
      · next hx =>
        split at h
        · cases h
        · next h1 =>
          obtain ⟨a1, a2⟩ := ih h1
          refine ⟨fun z hz hz0 => ?_, fun b hb hb0 => ?_⟩
          · rcases List.mem_cons.1 hz with rfl | hz
            · exact absurd hz0 h0
            · exact a1 z hz hz0
          · rcases List.mem_cons.1 hb with rfl | hb
            · exact ⟨_, _, hx⟩
            · exact a2 b hb hb0

/-- C62: what can be copied.  With a depth of calls that suffices the copy succeeds exactly if the object is
`Copyable`, whatever the state of the receiving file; a larger depth makes no difference. -/
theorem C62_ends {v : Env} {src : Ref → Except Err Obj} {r : Ref} (n : Nat) :
    Copyable src r ↔ ∃ k₀ x, ∀ k ≥ k₀, copyObj v src k r n = .ok x := by
  constructor
  · intro h
    have : ∀ n, ∃ k x, copyObj v src k r n = .ok x := by
      induction h with
      | @mk r o h1 h2 h3 h4 _ ih =>
        intro n
        obtain ⟨k, x, hx⟩ := copyAll_ok (v := v) (src := src) (st := strict o) (vs := o.visits)
          (fun y hy => (strict_false o y).2 (h4 y hy)) ih (n + 1 + (extras (n + 2) o.cls).length)
        refine ⟨k + 1, (n + 1, x.2.1, .new (n + 1) ((fill v (n + 1) o).renumber fun _ => 0) ::
          news (n + 2) (extras (n + 2) o.cls) ++ x.2.2 ++ [.edit (n + 1) ((fill v (n + 1) o).withRefs x.1)]), ?_⟩
        rw [copyObj, h1]
        dsimp only
        rw [(refused_none o).2 ⟨h2, h3⟩]
        dsimp only
        rw [hx]
    obtain ⟨k, x, hx⟩ := this n
    exact ⟨k, x, fun k' hk => copyObj_le hk hx⟩
  · rintro ⟨k, x, hx⟩
    induction k generalizing r n x with
    | zero => cases hx 0 (Nat.le_refl _)
    | succ k ih =>
      have hx := hx (k + 1) (Nat.le_refl _)
      rw [copyObj] at hx
      split at hx
      · cases hx
      · next o ho =>
        split at hx
        · cases hx
        · next href =>
          dsimp only at hx
          split at hx
          · cases hx
          · next h1 =>
            obtain ⟨a1, a2⟩ := copyAll_needs h1
            obtain ⟨b1, b2⟩ := (refused_none o).1 href
            refine .mk ho b1 b2 (fun y hy => (strict_false o y).1 (a1 y hy)) fun b hb hb0 => ?_
            obtain ⟨m, y, hy⟩ := a2 b hb hb0
            exact ih m y fun k' hk => copyObj_le hk hy

/-- C62: what is not `Copyable` raises an exception, also if the object that cannot be copied is one that is only
referred to. -/
theorem C62_under {v : Env} {src : Ref → Except Err Obj} {r a : Ref} (hu : Under src r a) (ha : ¬ Copyable src a)
    (k n : Nat) : ∃ e, copyObj v src k r n = .error e := by
  have hr : ¬ Copyable src r := by
    intro h
    apply ha
    induction hu with
    | refl => exact h
    | tail _ hbc ih =>
      obtain ⟨o, ho, hm, h0⟩ := hbc
      by_contra hc
      have hb := ih (fun hb => by
        cases hb with
        | mk h1 _ _ _ h5 =>
          rw [ho] at h1
          cases h1
          exact hc (h5 _ hm h0))
      cases hb with
      | mk h1 _ _ _ h5 =>
        rw [ho] at h1
        cases h1
        exact hc (h5 _ hm h0)
  cases hc : copyObj v src k r n with
  | error e => exact ⟨e, rfl⟩
  | ok x => exact absurd ((C62_ends n).2 ⟨k, x, fun k' hk => copyObj_le hk hc⟩) hr

/-- C62: an AudioSuite plug-in effect that was loaded from a file cannot be copied: `TypeError`. -/
theorem C62_plugin {f : AvbFile} {r : Ref} {x : AudioSuitePluginEffect}
    (h : readObject f r = .ok (some (.ASPI x))) {v : Env} {src : Ref → Except Err Obj} (hs : src r = .ok (.ASPI x))
    (k n : Nat) : copyObj v src (k + 1) r n = .error .type := by
  obtain ⟨_, _, c, bs, hr⟩ := readObject_readAs h
  have hl : x.plugins.length = 1 := C40_loaded hr
  have hp : x.plugins ≠ [] := fun e => by rw [e] at hl; cases hl
  rw [copyObj, hs]
  dsimp only
  rw [refused, if_neg hp]

/-- An AudioSuite effect with one plug-in that has one chunk. -/
def exPlugin : AudioSuitePluginEffect :=
  { toTrackGroup := { exGroup with tracks := [{ exTrack with session_attr := none, component := none, lock_number := some 0 }] },
    left_length := 0, right_length := 0, info_version := 1, info_current := 0, info_smooth := 0, info_color_item := 0,
    info_quality := 0, info_is_reversed := 0, info_aspect_on := false, keyframes := 0, info_force_software := false,
    info_never_hardware := false, trackman := none,
    plugins := [{ name := ['E', 'Q'], manufacturer_id := 1, product_id := 2, plugin_id := 3,
                  chunks := [⟨1, 1, 2, 3, 4, ['c'], [9, 8]⟩] }],
    mob_id := none, mark_in := some 5, mark_out := none, tracks_to_affect := none, rendering_mode := none,
    padding_secs := none, preset_path := none }

/-- The effect alone, saved and opened. -/
def exPluginTest (bo : BO) : Bool :=
  match save (fun _ => .ok ⟨11, true, .ASPI exPlugin, (Obj.ASPI exPlugin).visits⟩) 10 bo exInfo 1 with
  | .ok b => match openTable b with
    | .ok f => decide (readObject f 1 = .ok (some (.ASPI exPlugin)))
    | _ => false
  | _ => false

/-- The hypotheses can be met: the effect is saved in a file, which is opened; copying it raises. -/
example (bo : BO) : ∃ bytes f, openTable bytes = .ok f ∧ readObject f 1 = .ok (some (.ASPI exPlugin)) ∧
    ∀ v k n, copyObj v (fun _ => .ok (.ASPI exPlugin)) (k + 1) 1 n = .error .type := by
  have h : exPluginTest bo = true := by cases bo <;> decide +kernel
  unfold exPluginTest at h
  split at h
  · next b hb =>
    split at h
    · next f hf => exact ⟨b, f, hf, of_decide_eq_true h, fun _ k n => C62_plugin (of_decide_eq_true h) rfl k n⟩
    · cases h
  · cases h

/-- What was loaded, and may be saved as it is, can be written. -/
theorem loaded_writable {f : AvbFile} {r : Ref} {o : Obj} (h : readObject f r = .ok (some o)) (hk : o.Keeps) :
    Writable o := by
  obtain ⟨_, _, c, bs, hr⟩ := readObject_readAs h
  have := hk.entry hr (e := ⟨r, true, o, o.visits⟩) rfl rfl
  exact ⟨this.plain.1, this.plain.2, this.readable, this.stored, this.saves⟩

/-- Looking an object up and editing it is always possible. -/
theorem look_edit {f : AvbFile} {o₀ : Obj} {es : List Event} {s : St} (h : Run f (start f o₀) es s) {i : Nat}
    (hi : i ≠ 0) {o : Obj} (ho : current f es i = .ok (some o)) (q : Obj) :
    ∃ s', Run f (start f o₀) (es ++ [.look i, .edit i q]) s' := by
  have h1 := h.snoc (.look s i)
  have hv := Inv.run h1
  have hc : ∃ l, (look f s i).2.cache i = some l := by
    have hl := C51_look h hi
    rw [ho] at hl
    unfold look at hl ⊢
    rw [if_neg hi] at hl ⊢
    cases hca : s.cache i with
    | some l => exact ⟨l, hca⟩
    | none =>
      rw [hca] at hl
      dsimp only at hl ⊢
      cases hro : readObject f i with
      | error e => rw [hro] at hl; exact hl.elim
      | ok y =>
        cases y with
        | none => rw [hro] at hl; exact hl.elim
        | some o' => exact ⟨s.fresh, by simp [put]⟩
  obtain ⟨l, hl⟩ := hc
  obtain ⟨e1, e2⟩ := hv.cache i l hl
  have h2 := h1.snoc (.edit _ l q e1)
  rw [e2] at h2
  exact ⟨_, by rw [List.append_cons]; exact h2⟩

/-- The objects of the example file. -/
def exSrc : Ref → Except Err Obj := fun r =>
  if r = 1 then .ok exFill else if r = 2 then .ok exClip else if r = 3 then .ok exSeqF else .error .index

/-- Mob ids and the time for the example. -/
def exEnv : Env := ⟨1500000000, fun _ => MobID.zero⟩

/-- What copying the sequence does in a file with four objects: the sequence, the gap, the clip and the gap again
are made, each with attributes that are then not used. -/
def exCopied : List Event :=
  let c (n : Text) : Component := exComp n
  [.new 5 (.SEQU { toComponent := c ['V', '1'], components := [0, 0, 0] }), .new 6 (.ATTR ⟨[]⟩),
    .new 7 exFill, .new 8 (.ATTR ⟨[]⟩), .edit 7 exFill,
    .new 9 exClip, .new 10 (.ATTR ⟨[]⟩), .edit 9 exClip,
    .new 11 exFill, .new 12 (.ATTR ⟨[]⟩), .edit 11 exFill,
    .edit 5 (.SEQU { toComponent := c ['V', '1'], components := [7, 9, 11] })]

theorem exCopied_ok : copyObj exEnv exSrc 2 3 4 = .ok (5, 12, exCopied) := rfl

/-- The sequence with the copy of the sequence put into it. -/
def exSeqC : Obj := .SEQU { toComponent := exComp ['V', '1'], components := [1, 2, 5] }

theorem exSeqC_writable : Writable exSeqC := by
  refine ⟨by decide, by decide, textsOK_short (by decide), ?_, ⟨.little, fun _ => some 1⟩, _, rfl, by decide⟩
  refine ⟨?_, ?_, by simp [exSeqC, exComp, Obj.Shape, Component.Stored]⟩
  · show ∀ p ∈ exSeqC.texts, stripText p.2 = p.2
    decide
  simp [exSeqC, Obj.rates, Component.rates, exComp, exComp_rate, Stable]

/-- The original can be copied. -/
example : Copyable exSrc 3 := (C62_ends 4).2 ⟨2, _, fun _ hk => copyObj_le hk exCopied_ok⟩

/-- An effect with a plug-in as one of the objects of a sequence: the sequence cannot be copied. -/
example (x : AudioSuitePluginEffect) (hp : x.plugins ≠ []) (k n : Nat) :
    ∃ e, copyObj exEnv (fun r => if r = 1 then .ok exFill else if r = 2 then .ok (.ASPI x) else .ok exSeqF) k 3 n =
      .error e := by
  refine C62_under (a := 2) (.single ⟨exSeqF, rfl, by decide, by decide⟩) ?_ k n
  intro h
  cases h with
  | mk h1 h2 =>
    cases h1
    exact hp (h2 x rfl)

theorem exSrc_writable {f : AvbFile} (f1 : readObject f 1 = .ok (some exFill))
    (f2 : readObject f 2 = .ok (some exClip)) (f3 : readObject f 3 = .ok (some exSeqF)) :
    ∀ a o p, Under exSrc 3 a → exSrc a = .ok o → Gains o p → Writable p := by
  intro a o p _ ho hg
  unfold exSrc at ho
  split at ho
  · cases ho; cases hg; exact loaded_writable f1 exFill_keeps
  · split at ho
    · cases ho
      obtain ⟨m, rfl, h1, _⟩ := hg
      rw [h1 _ rfl]
      exact loaded_writable f2 exClip_keeps
    · split at ho
      · cases ho; cases hg; exact loaded_writable f3 exSeqF_keeps
      · cases ho

/-- The hypotheses can be met: the sequence of the example file is copied into the file that was opened, put into
its sequence, and the file is saved.  The new file has the copy. -/
example (bo : BO) : ∃ bytes f s, openTable bytes = .ok f ∧
    Run f (start f exFill) (exCopied ++ [.look 3, .edit 3 exSeqC]) s ∧
    ∃ fuel₀, ∀ fuel ≥ fuel₀, ∃ bytes' f', ∃ num : Ref → Nat,
      save (heap f (fun _ => Obj.visits) s) fuel bo exInfo 3 = .ok bytes' ∧ openTable bytes' = .ok f' ∧
      Alike (there exSrc) (loaded f') 3 (num 5) := by
  obtain ⟨bytes, f, _, hf, f1, f2, f3, hr, hn, hp⟩ := exFile_ok bo
  obtain ⟨pre, hpre⟩ := exInfo_pre bo
  obtain ⟨post, hpost⟩ := exInfo_post bo
  have h0 : Run f (start f exFill) [] (start f exFill) := .nil _
  have hc : copyObj exEnv exSrc 2 3 (start f exFill).next = .ok (5, 12, exCopied) := by
    show copyObj exEnv exSrc 2 3 f.positions.length = _
    rw [hp]
    exact exCopied_ok
  obtain ⟨⟨s1, hs1, _⟩, _, _, _, hcur⟩ := C62_copy h0 (by decide) hc
  have hnext : (start f exFill).next = 4 := hp
  have hc3 : current f ([] ++ exCopied) 3 = .ok (some exSeqF) := by
    rw [hcur 3 (by rw [hnext]; decide)]
    exact f3
  obtain ⟨s2, hs2⟩ := look_edit hs1 (by decide) hc3 exSeqC
  have hs2 : Run f (start f exFill) (exCopied ++ [.look 3, .edit 3 exSeqC]) s2 := hs2
  refine ⟨bytes, f, s2, hf, hs2, ?_⟩
  have hgood := (copyObj_good exEnv exSrc 2 3 4 5 12 exCopied (by decide) (exSrc_writable f1 f2 f3) exCopied_ok).1
  have hwithin := (copyObj_spec exEnv exSrc 2 3 4 5 12 exCopied (by decide) exCopied_ok).1
  have asg : ∀ i, assigned i (exCopied ++ [.look 3, .edit 3 exSeqC]) =
      if i = 3 then some exSeqC else assigned i exCopied := by
    intro i
    rw [assigned_append]
    simp only [assigned]
    by_cases h3 : i = 3
    · simp [h3]
    · simp [h3, Ne.symm h3]
  have low : ∀ i, i ≤ 4 → assigned i exCopied = none := fun i hi =>
    assigned_none fun hm => by have := (hwithin.2 i hm).1; omega
  have gone : ∀ i, 4 ≤ i → ∀ o, readObject f i ≠ .ok (some o) := by
    intro i hi o ho
    have := (readObject_readAs ho).2.1
    omega
  have step : ∀ a b, (a = 1 ∨ a = 2 ∨ a = 3 ∨ Copied 4 12 a) →
      Edge (wanted f (fun _ => Obj.visits) (exCopied ++ [.look 3, .edit 3 exSeqC])) a b →
      (a = 3 ∧ (b = 1 ∨ b = 2 ∨ b = 5)) ∨ Copied 4 12 a ∧ Copied 4 12 b := by
    rintro a b h ⟨e, he, _, hb, x, hx, rfl⟩
    unfold wanted at he
    rw [asg] at he
    rcases h with rfl | rfl | rfl | h
    · rw [if_neg (by decide), low 1 (by decide)] at he
      simp only [fileHeap, f1] at he
      cases he
      have : ∀ v ∈ exFill.visits, v.ref = 0 := by decide
      exact absurd (this x hx) hb
    · rw [if_neg (by decide), low 2 (by decide)] at he
      simp only [fileHeap, f2] at he
      cases he
      have : ∀ v ∈ exClip.visits, v.ref = 0 := by decide
      exact absurd (this x hx) hb
    · rw [if_pos rfl] at he
      cases he
      have : ∀ v ∈ exSeqC.visits, v.ref ≠ 0 → v.ref = 1 ∨ v.ref = 2 ∨ v.ref = 5 := by decide
      exact .inl ⟨rfl, this x hx hb⟩
    · have h3 : a ≠ 3 := by rintro rfl; exact absurd h.1 (by decide)
      rw [if_neg h3] at he
      cases ha : assigned a exCopied with
      | none =>
        rw [ha] at he
        obtain ⟨hro, _⟩ := fileHeap_readObject he
        exact absurd hro (gone a (Nat.le_of_lt h.1) _)
      | some q =>
        rw [ha] at he
        cases he
        rcases (hgood a q ha).2 x.ref (List.mem_map.2 ⟨x, hx, rfl⟩) with h0 | h0
        · exact absurd h0 hb
        · exact .inr ⟨h, Nat.lt_trans h.1 h0.1, h0.2⟩
  have reach : ∀ a, Reach (wanted f (fun _ => Obj.visits) (exCopied ++ [.look 3, .edit 3 exSeqC])) 3 a →
      a = 1 ∨ a = 2 ∨ a = 3 ∨ Copied 4 12 a := by
    rintro a ⟨_, ha⟩
    induction ha with
    | refl => exact .inr (.inr (.inl rfl))
    | tail _ hbc ih =>
      obtain ⟨_, _, h0, _⟩ := id hbc
      rcases step _ _ (ih h0) hbc with ⟨_, h | h | h⟩ | ⟨_, h⟩
      · exact .inl h
      · exact .inr (.inl h)
      · exact .inr (.inr (.inr (by rw [h]; exact ⟨by decide, by decide⟩)))
      · exact .inr (.inr (.inr h))
  obtain ⟨fuel₀, hfu⟩ := C62_saved hf (es := []) (evs := exCopied) (more := [.look 3, .edit 3 exSeqC]) (by decide) hc
    (exSrc_writable f1 f2 f3) rfl h0 hs2 (root := 3) (order := fun _ => Obj.visits) (bo := bo) (hd := exInfo)
    (by
      intro i hi hcp
      have : i = 3 := List.mem_singleton.1 hi
      subst this
      rw [hnext] at hcp
      exact absurd hcp.1 (by decide))
    (fun _ _ _ => Iff.rfl)
    (by
      intro i o ho hcp hri
      rw [hnext] at hcp
      have ho' : assigned i (exCopied ++ [.look 3, .edit 3 exSeqC]) = some o := ho
      rw [asg] at ho'
      rcases reach i hri with rfl | rfl | rfl | h
      · rw [if_neg (by decide), low 1 (by decide)] at ho'; cases ho'
      · rw [if_neg (by decide), low 2 (by decide)] at ho'; cases ho'
      · rw [if_pos rfl] at ho'; cases ho'; exact exSeqC_writable
      · exact absurd h hcp)
    (by
      intro i hi hri
      have hi' : assigned i (exCopied ++ [.look 3, .edit 3 exSeqC]) = none := hi
      rw [asg] at hi'
      rcases reach i hri with rfl | rfl | rfl | h
      · exact ⟨_, f1, exFill_keeps⟩
      · exact ⟨_, f2, exClip_keeps⟩
      · rw [if_pos rfl] at hi'; cases hi'
      · exfalso
        have h3 : i ≠ 3 := by rintro rfl; exact absurd h.1 (by decide)
        rw [if_neg h3] at hi'
        have : ∀ j, 4 < j → j ≤ 12 → assigned j exCopied ≠ none := by
          intro j h1 h2
          interval_cases j <;> decide
        exact this i h.1 h.2 hi')
    (fun r => if r = 3 then 1 else 0)
    (by
      intro a b ha hca hcb hab
      rw [hnext] at hca hcb
      rcases step a b (reach a ha) hab with ⟨rfl, rfl | rfl | rfl⟩ | ⟨h, _⟩
      · decide
      · decide
      · exact absurd ⟨by decide, by decide⟩ hcb
      · exact absurd h hca)
    (by rw [hn]; decide) exInfo_ok hpre hpost
  refine ⟨fuel₀, fun fuel hf' => ?_⟩
  obtain ⟨b', f', num, k1, k2, _, k4⟩ := hfu fuel hf'
  refine ⟨b', f', num, k1, k2, k4 ⟨by decide, .single ⟨⟨3, true, exSeqC, exSeqC.visits⟩, ?_, by decide, by decide, ?_⟩⟩⟩
  · unfold wanted
    rw [show assigned 3 ([] ++ exCopied ++ [.look 3, .edit 3 exSeqC]) = _ from asg 3, if_pos rfl]
  · have : ∃ v ∈ exSeqC.visits, v.ref = 5 := by decide
    exact this

end Avb.Cross

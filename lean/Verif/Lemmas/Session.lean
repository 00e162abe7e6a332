import Verif.Model.Session

/-!
Helper lemmas for `Verif/Props/Session.lean`: what stays true over every step of a program that uses
an open file.
-/
namespace Avb.Session

variable {F : FileView}

/-- What holds in every state of a program that started by opening a file. -/
structure Inv (F : FileView) (s : St) : Prop where
  live : ∀ l, Live s l → Exists s l
  closed : ∀ l l', Exists s l → Link s l l' → Exists s l'
  cached : ∀ l i, Exists s l → (s.recs l).iid = some i → s.cache i = some l
  cacheId : ∀ i l, s.cache i = some l → Exists s l ∧ (s.recs l).iid = some i
  modId : ∀ i l, s.modified i = some l → (s.recs l).iid = some i
  bound : ∀ i l, s.cache i = some l → i ≠ 0 ∧ i ≤ s.next
  size : F.size ≤ s.next
  heldList : ∀ l k, Tok.lst l k ∈ s.held → l < s.fresh
  gone : ∀ l ∈ s.gone, l < s.fresh

theorem Inv.start : Inv F (start F) := by
  have h : ∀ l, ¬ Live (Session.start F) l := by
    intro l hl
    induction hl with
    | held h => simp [Session.start] at h
    | parent h => simp [Session.start] at h
    | heldItem h => simp [Session.start] at h
    | modified h => simp [Session.start] at h
    | link _ _ ih => exact ih
  refine ⟨fun l hl => (h l hl).elim, ?_, ?_, ?_, ?_, ?_, Nat.le_refl _, ?_, ?_⟩ <;>
    simp [Session.start, Exists]

/-- What the program can get at exists, if its own references and the modified objects do and
existing objects refer to existing objects. -/
theorem live_exists {s : St} (h1 : ∀ l, Tok.obj l ∈ s.held → Exists s l)
    (h2 : ∀ l k, Tok.lst l k ∈ s.held → (s.recs l).parented k = true → Exists s l)
    (h3 : ∀ l k l', Tok.lst l k ∈ s.held → Val.obj l' ∈ (s.recs l).lists k → Exists s l')
    (h4 : ∀ i l, s.modified i = some l → Exists s l)
    (h5 : ∀ l l', Exists s l → Link s l l' → Exists s l') {l : Nat} (h : Live s l) : Exists s l := by
  induction h with
  | held h => exact h1 _ h
  | parent h hp => exact h2 _ _ h hp
  | heldItem h hv => exact h3 _ _ _ h hv
  | modified h => exact h4 _ _ h
  | link _ hk ih => exact h5 _ _ ih hk

theorem alloc_old {s : St} {t : Template} {iid : Option Nat} {l : Nat} (h : l < s.fresh) :
    (alloc s t iid).recs l = s.recs l := by
  have h1 : l ≠ s.fresh := Nat.ne_of_lt h
  have h2 : ¬ (s.fresh < l ∧ l < s.fresh + 1 + t.n) := fun hh => absurd hh.1 (Nat.lt_asymm h)
  simp only [alloc, if_neg h1, dif_neg h2]

theorem alloc_main {s : St} {t : Template} {iid : Option Nat} :
    (alloc s t iid).recs s.fresh = t.main.place s.fresh iid := by
  simp [alloc]

theorem alloc_helper {s : St} {t : Template} {iid : Option Nat} {l : Nat}
    (h : s.fresh < l ∧ l < s.fresh + 1 + t.n) :
    ∃ o, (alloc s t iid).recs l = (t.helpers o).place s.fresh none := by
  have h1 : l ≠ s.fresh := fun e => absurd h.1 (e ▸ Nat.lt_irrefl _)
  simp only [alloc, if_neg h1, dif_pos h]
  exact ⟨_, rfl⟩

theorem place_field {n base : Nat} {iid : Option Nat} {t : TRec n} {k l : Nat}
    (h : (t.place base iid).fields k = some (.obj l)) : base < l ∧ l < base + 1 + n := by
  simp only [TRec.place, Option.map_eq_some_iff] at h
  obtain ⟨v, _, hv⟩ := h
  cases v with
  | num => cases hv
  | ref => cases hv
  | helper o =>
    simp only [TVal.place, Val.obj.injEq] at hv
    have := o.isLt
    omega

theorem place_item {n base : Nat} {iid : Option Nat} {t : TRec n} {k l : Nat}
    (h : Val.obj l ∈ (t.place base iid).lists k) : base < l ∧ l < base + 1 + n := by
  simp only [TRec.place, List.mem_map] at h
  obtain ⟨v, _, hv⟩ := h
  cases v with
  | num => cases hv
  | ref => cases hv
  | helper o =>
    simp only [TVal.place, Val.obj.injEq] at hv
    have := o.isLt
    omega

theorem alloc_iid_helper {s : St} {t : Template} {iid : Option Nat} {l : Nat}
    (h : s.fresh ≤ l ∧ l < s.fresh + 1 + t.n) (hne : l ≠ s.fresh) :
    ((alloc s t iid).recs l).iid = none := by
  obtain ⟨o, ho⟩ := alloc_helper (iid := iid) ⟨Nat.lt_of_le_of_ne h.1 (Ne.symm hne), h.2⟩
  rw [ho]; rfl

/-- Allocating an object whose id is not in use keeps the invariant. -/
theorem Inv.alloc {s s' : St} {t : Template} {iid : Option Nat} (hi : Inv F s)
    (hr : s'.recs = (alloc s t iid).recs) (hf : s'.fresh = s.fresh + 1 + t.n)
    (hg : s'.gone = s.gone)
    (hm : ∀ i l, s'.modified i = some l → s.modified i = some l ∨ (l = s.fresh ∧ iid = some i))
    (hh : ∀ t, t ∈ s'.held → t ∈ s.held ∨ t = .obj s.fresh)
    (hc : ∀ j, s'.cache j = if iid = some j then some s.fresh else s.cache j)
    (hn : s.next ≤ s'.next) (hid : ∀ i, iid = some i → s.cache i = none ∧ i ≠ 0 ∧ i ≤ s'.next) :
    Inv F s' := by
  have hmain : (s'.recs s.fresh).iid = iid := by rw [hr, alloc_main]; rfl
  have hold : ∀ l, l < s.fresh → s'.recs l = s.recs l := fun l h => by rw [hr, alloc_old h]
  have up : ∀ l, Exists s l → Exists s' l := fun l h =>
    ⟨by rw [hf]; have := h.1; omega, by rw [hg]; exact h.2⟩
  have down : ∀ l, Exists s' l → Exists s l ∨ (s.fresh ≤ l ∧ l < s.fresh + 1 + t.n) := by
    intro l h
    by_cases e : l < s.fresh
    · exact .inl ⟨e, by have := h.2; rw [hg] at this; exact this⟩
    · exact .inr ⟨Nat.le_of_not_lt e, by have := h.1; rw [hf] at this; exact this⟩
  have new : ∀ l, s.fresh ≤ l → l < s.fresh + 1 + t.n → Exists s' l := fun l h1 h2 =>
    ⟨by rw [hf]; exact h2, by rw [hg]; intro h; have := hi.gone l h; omega⟩
  have newf : Exists s' s.fresh := new _ (Nat.le_refl _) (by omega)
  have hclosed : ∀ l l', Exists s' l → Link s' l l' → Exists s' l' := by
    intro l l' h1 h2
    unfold Link at h2
    rcases down l h1 with h1 | h1
    · rw [hold l h1.1] at h2
      exact up _ (hi.closed l l' h1 h2)
    · have key : ∃ (i : Option Nat) (r : TRec t.n), s'.recs l = r.place s.fresh i := by
        rcases Nat.eq_or_lt_of_le h1.1 with e | e
        · exact ⟨iid, t.main, by rw [hr, ← e]; exact alloc_main⟩
        · obtain ⟨o, ho⟩ := alloc_helper (iid := iid) ⟨e, h1.2⟩
          exact ⟨none, _, by rw [hr]; exact ho⟩
      obtain ⟨i, r, e⟩ := key
      rw [e] at h2
      rcases h2 with ⟨k, h2⟩ | ⟨k, h2⟩
      · have := place_field h2; exact new _ (Nat.le_of_lt this.1) this.2
      · have := place_item h2; exact new _ (Nat.le_of_lt this.1) this.2
  refine ⟨fun l => live_exists ?_ ?_ ?_ ?_ hclosed, hclosed, ?_, ?_, ?_, ?_,
    Nat.le_trans hi.size hn, ?_, ?_⟩
  · intro l h
    rcases hh _ h with h | h
    · exact up _ (hi.live _ (.held h))
    · cases h; exact newf
  · intro l k h hp
    rcases hh _ h with h | h
    · rw [hold _ (hi.heldList _ _ h)] at hp; exact up _ (hi.live _ (.parent h hp))
    · cases h
  · intro l k l' h hv
    rcases hh _ h with h | h
    · rw [hold _ (hi.heldList _ _ h)] at hv; exact up _ (hi.live _ (.heldItem h hv))
    · cases h
  · intro i l h
    rcases hm _ _ h with h | h
    · exact up _ (hi.live _ (.modified h))
    · rw [h.1]; exact newf
  · intro l i h1 h2
    rw [hc]
    rcases down l h1 with h | h
    · rw [hold l h.1] at h2
      have := hi.cached l i h h2
      rw [if_neg (fun e => by rw [(hid i e).1] at this; cases this)]
      exact this
    · by_cases e : l = s.fresh
      · subst e
        rw [hmain] at h2
        rw [if_pos h2]
      · rw [hr, alloc_iid_helper h e] at h2; cases h2
  · intro i l h
    rw [hc] at h
    split at h
    · cases h; rw [hmain]; exact ⟨newf, by assumption⟩
    · obtain ⟨h1, h2⟩ := hi.cacheId i l h
      rw [hold l h1.1]; exact ⟨up _ h1, h2⟩
  · intro i l h
    rcases hm i l h with h | ⟨rfl, h'⟩
    · rw [hold l (hi.live l (.modified h)).1]; exact hi.modId i l h
    · rw [hmain]; exact h'
  · intro i l h
    rw [hc] at h
    split at h
    · exact (hid i (by assumption)).2
    · have := hi.bound i l h; exact ⟨this.1, Nat.le_trans this.2 hn⟩
  · intro l k h
    rw [hf]
    rcases hh _ h with h | h
    · have := hi.heldList l k h; omega
    · cases h
  · intro l h
    rw [hf]
    rw [hg] at h
    have := hi.gone l h; omega

/-- Steps that make no new objects, collect nothing and change references only to existing objects
keep the invariant. -/
theorem Inv.mono {s s' : St} (hi : Inv F s)
    (hlink : ∀ l l', Link s' l l' → Link s l l' ∨ Exists s l')
    (hr : ∀ l, (s'.recs l).iid = (s.recs l).iid)
    (hp : ∀ l, (s'.recs l).parented = (s.recs l).parented)
    (hf : s'.fresh = s.fresh) (hg : s'.gone = s.gone)
    (hm : ∀ i l, s'.modified i = some l → s.modified i = some l ∨ (Exists s l ∧ (s.recs l).iid = some i))
    (hO : ∀ l, Tok.obj l ∈ s'.held → Tok.obj l ∈ s.held ∨ Exists s l)
    (hL : ∀ l k, Tok.lst l k ∈ s'.held → Tok.lst l k ∈ s.held ∨ Exists s l)
    (hI : ∀ l k l', Tok.lst l k ∈ s.held → Val.obj l' ∈ (s'.recs l).lists k → Exists s l')
    (hc : s'.cache = s.cache) (hn : s'.next = s.next) : Inv F s' := by
  have he : ∀ l, Exists s' l ↔ Exists s l := fun l => by unfold Exists; rw [hf, hg]
  have hclosed : ∀ l l', Exists s' l → Link s' l l' → Exists s' l' := by
    intro l l' h1 h2
    rw [he] at h1 ⊢
    rcases hlink _ _ h2 with h2 | h2
    · exact hi.closed _ _ h1 h2
    · exact h2
  refine ⟨fun l => live_exists ?_ ?_ ?_ ?_ hclosed, hclosed, ?_, ?_, ?_, ?_, ?_, ?_, ?_⟩
  · intro l h; rw [he]
    rcases hO l h with h | h
    · exact hi.live _ (.held h)
    · exact h
  · intro l k h h'; rw [he]; rw [hp] at h'
    rcases hL l k h with h | h
    · exact hi.live _ (.parent h h')
    · exact h
  · intro l k l' h h'
    rcases hL l k h with h | h
    · rw [he]; exact hI _ _ _ h h'
    · exact hclosed l l' ((he l).2 h) (.inr ⟨k, h'⟩)
  · intro i l h; rw [he]
    rcases hm i l h with h | h
    · exact hi.live _ (.modified h)
    · exact h.1
  · intro l i h1 h2; rw [hc]; rw [hr] at h2; rw [he] at h1; exact hi.cached l i h1 h2
  · intro i l h; rw [hr, he]; rw [hc] at h; exact hi.cacheId i l h
  · intro i l h; rw [hr]
    rcases hm i l h with h | h
    · exact hi.modId i l h
    · exact h.2
  · intro i l h; rw [hn]; rw [hc] at h; exact hi.bound i l h
  · rw [hn]; exact hi.size
  · intro l k h; rw [hf]
    rcases hL l k h with h | h
    · exact hi.heldList l k h
    · exact h.1
  · intro l h; rw [hf]; rw [hg] at h; exact hi.gone l h

theorem readObject_hit {s : St} {i l : Nat} (h0 : i ≠ 0) (h : s.cache i = some l) :
    readObject F s i = (.ok (some l), s) := by
  simp only [readObject, if_neg h0, h]

/-- What a lookup that returns an object did. -/
theorem readObject_some {s s' : St} {i l : Nat} (h : readObject F s i = (.ok (some l), s')) :
    i ≠ 0 ∧ ((s.cache i = some l ∧ s' = s) ∨
      ∃ t, s.cache i = none ∧ i < F.size ∧ F.parse i = .ok t ∧ l = s.fresh ∧
        s' = { alloc s t (some i) with cache := fun j => if j = i then some s.fresh else s.cache j }) := by
  unfold readObject at h
  split at h
  · cases h
  · rename_i h0
    refine ⟨h0, ?_⟩
    split at h
    · rename_i l' hc
      injection h with h1 h2
      cases h1
      exact .inl ⟨hc, h2.symm⟩
    · rename_i hc
      split at h
      · cases h
      · rename_i hs
        split at h
        · cases h
        · rename_i t ht
          injection h with h1 h2
          cases h1
          exact .inr ⟨t, hc, Nat.lt_of_not_le hs, ht, rfl, h2.symm⟩

theorem readObject_other {s s' : St} {i : Nat} {r : Except Err (Option Nat)}
    (h : readObject F s i = (r, s')) (hr : ∀ l, r ≠ .ok (some l)) : s' = s := by
  unfold readObject at h
  split at h
  · cases h; rfl
  · split at h
    · cases h; exact absurd rfl (hr _)
    · split at h
      · cases h; rfl
      · split at h
        · cases h; rfl
        · cases h; exact absurd rfl (hr _)

theorem setAttr_recs {s : St} {l k : Nat} {v : Val} : (setAttr s l k v).recs = fun l' =>
    if l' = l then { s.recs l with fields := fun k' => if k' = k then some v else (s.recs l).fields k' }
    else s.recs l' := by
  unfold setAttr; dsimp only; split <;> rfl

theorem setList_recs {s : St} {l k : Nat} {vs : List Val} : (setList s l k vs).recs = fun l' =>
    if l' = l then { s.recs l with lists := fun k' => if k' = k then vs else (s.recs l).lists k' }
    else s.recs l' := by
  unfold setList; dsimp only; split
  · split <;> rfl
  · rfl

theorem setAttr_rest {s : St} {l k : Nat} {v : Val} :
    (setAttr s l k v).cache = s.cache ∧ (setAttr s l k v).next = s.next ∧
    (setAttr s l k v).fresh = s.fresh ∧ (setAttr s l k v).held = s.held ∧
    (setAttr s l k v).modified = (fun j => if (s.recs l).iid = some j then some l else s.modified j) ∧
    (setAttr s l k v).gone = s.gone := by
  unfold setAttr; dsimp only; split
  · rename_i i e
    refine ⟨rfl, rfl, rfl, rfl, ?_, rfl⟩
    funext j
    simp only [addModified, e, Option.some.injEq]
    by_cases h : j = i
    · simp [h]
    · rw [if_neg h, if_neg (fun e => h e.symm)]
  · rename_i e
    refine ⟨rfl, rfl, rfl, rfl, ?_, rfl⟩
    funext j; simp [e]

theorem setList_rest {s : St} {l k : Nat} {vs : List Val} :
    (setList s l k vs).cache = s.cache ∧ (setList s l k vs).next = s.next ∧
    (setList s l k vs).fresh = s.fresh ∧ (setList s l k vs).held = s.held ∧
    (setList s l k vs).modified = (fun j =>
      if (s.recs l).parented k = true ∧ (s.recs l).iid = some j then some l else s.modified j) ∧
    (setList s l k vs).gone = s.gone := by
  unfold setList; dsimp only; split
  · rename_i hp
    split
    · rename_i i e
      refine ⟨rfl, rfl, rfl, rfl, ?_, rfl⟩
      funext j
      simp only [addModified, e, Option.some.injEq, hp, true_and]
      by_cases h : j = i
      · simp [h]
      · rw [if_neg h, if_neg (fun e => h e.symm)]
    · rename_i e
      refine ⟨rfl, rfl, rfl, rfl, ?_, rfl⟩
      funext j; simp [e]
  · rename_i hp
    refine ⟨rfl, rfl, rfl, rfl, ?_, rfl⟩
    funext j; simp [hp]

/-- Every step keeps the invariant. -/
theorem Inv.step {s s' : St} {e : Event} (hi : Inv F s) (h : Step F s e s') : Inv F s' := by
  have hI : ∀ l k l', Tok.lst l k ∈ s.held → Val.obj l' ∈ (s.recs l).lists k → Exists s l' :=
    fun l k l' h1 h2 => hi.live _ (.heldItem h1 h2)
  have holdObj : ∀ l, Exists s l → Inv F { s with held := .obj l :: s.held } := by
    intro l hl
    refine hi.mono (fun _ _ h => .inl h) (fun _ => rfl) (fun _ => rfl) rfl rfl (fun _ _ h => .inl h)
      ?_ ?_ hI rfl rfl
    · intro l' h
      rcases List.mem_cons.1 h with h | h
      · cases h; exact .inr hl
      · exact .inl h
    · intro l' k h
      rcases List.mem_cons.1 h with h | h
      · cases h
      · exact .inl h
  have hnew : ∀ (held : List Tok) (t : Tok), t ∈ Tok.obj s.fresh :: held → t ∈ held ∨ t = .obj s.fresh := by
    intro held t h
    rcases List.mem_cons.1 h with h | h
    · exact .inr h
    · exact .inl h
  cases h with
  | look i =>
    rcases hr : readObject F s i with ⟨r, s1⟩
    rcases r with e | (_ | l)
    · have := readObject_other hr (by simp); subst this; exact hi
    · have := readObject_other hr (by simp); subst this; exact hi
    · show Inv F { s1 with held := .obj l :: s1.held }
      obtain ⟨h0, ⟨hc, rfl⟩ | ⟨t, hc, hs, ht, rfl, rfl⟩⟩ := readObject_some hr
      · exact holdObj l (hi.cacheId i l hc).1
      · refine hi.alloc (t := t) (iid := some i) rfl rfl rfl (fun _ _ h => .inl h) (hnew _) ?_
          (Nat.le_refl _) ?_
        · intro j
          simp only [Option.some.injEq]
          by_cases h : j = i
          · simp [h]
          · rw [if_neg h, if_neg (fun e => h e.symm)]
        · intro j h
          cases h
          exact ⟨hc, h0, by have := hi.size; show i ≤ s.next; omega⟩
  | new t ok =>
    have key : ∀ held, (∀ t, t ∈ held → t ∈ s.held ∨ t = .obj s.fresh) →
        Inv F { create s t with held := held } := by
      intro held hh
      refine hi.alloc (t := t) (iid := some (s.next + 1)) rfl rfl rfl ?_ hh ?_ (Nat.le_succ _) ?_
      · intro i l h
        simp only [create, Session.alloc, addModified] at h
        split at h
        · rename_i e; cases h; exact .inr ⟨rfl, by rw [e]⟩
        · exact .inl h
      · intro j
        simp only [create, Session.alloc, addModified, Option.some.injEq]
        by_cases h : j = s.next + 1
        · simp [h]
        · rw [if_neg h, if_neg (fun e => h e.symm)]
      · intro j h
        cases h
        refine ⟨?_, by omega, Nat.le_refl _⟩
        rcases hc : s.cache (s.next + 1) with _ | l
        · rfl
        · have := (hi.bound _ _ hc).2; omega
    dsimp only
    split
    · exact key _ (hnew _)
    · exact key (create s t).held fun t h => .inl h
  | newHelper t =>
    refine hi.alloc (t := t) (iid := none) rfl rfl rfl (fun _ _ h => .inl h) (hnew _) ?_
      (Nat.le_refl _) ?_
    · intro j; simp [createHelper, Session.alloc, St.hold]
    · intro j h; cases h
  | set l k v hl hv =>
    obtain ⟨r1, r2, r3, r4, r5, r6⟩ := setAttr_rest (s := s) (l := l) (k := k) (v := v)
    have hls : ∀ l', ((setAttr s l k v).recs l').lists = (s.recs l').lists := by
      intro l'; rw [setAttr_recs]; dsimp only; split
      · rename_i e; subst e; rfl
      · rfl
    refine hi.mono ?_ ?_ ?_ r3 r6 ?_ ?_ ?_ ?_ r1 r2
    · intro x y h
      rcases h with ⟨k', h⟩ | ⟨k', h⟩
      · rw [setAttr_recs] at h; dsimp only at h
        split at h
        · rename_i e; subst e
          dsimp only at h
          split at h
          · injection h with h; exact .inr (hi.live _ (hv y h))
          · exact .inl (.inl ⟨k', h⟩)
        · exact .inl (.inl ⟨k', h⟩)
      · rw [hls] at h; exact .inl (.inr ⟨k', h⟩)
    · intro l'; rw [setAttr_recs]; dsimp only; split
      · rename_i e; subst e; rfl
      · rfl
    · intro l'; rw [setAttr_recs]; dsimp only; split
      · rename_i e; subst e; rfl
      · rfl
    · intro i l' h
      rw [r5] at h; dsimp only at h
      split at h
      · cases h; right; exact ⟨hi.live _ hl, by assumption⟩
      · exact .inl h
    · intro l' h; rw [r4] at h; exact .inl h
    · intro l' k' h; rw [r4] at h; exact .inl h
    · intro l' k' x h hx; rw [hls] at hx; exact hI _ _ _ h hx
  | edit l k vs hl hv =>
    obtain ⟨r1, r2, r3, r4, r5, r6⟩ := setList_rest (s := s) (l := l) (k := k) (vs := vs)
    have hls : ∀ l' k' x, Val.obj x ∈ ((setList s l k vs).recs l').lists k' →
        Val.obj x ∈ (s.recs l').lists k' ∨ Exists s x := by
      intro l' k' x h
      rw [setList_recs] at h; dsimp only at h
      split at h
      · rename_i e; subst e
        dsimp only at h
        split at h
        · exact .inr (hi.live _ (hv _ h x rfl))
        · exact .inl h
      · exact .inl h
    refine hi.mono ?_ ?_ ?_ r3 r6 ?_ ?_ ?_ ?_ r1 r2
    · intro x y h
      rcases h with ⟨k', h⟩ | ⟨k', h⟩
      · rw [setList_recs] at h; dsimp only at h
        split at h
        · rename_i e; subst e; exact .inl (.inl ⟨k', h⟩)
        · exact .inl (.inl ⟨k', h⟩)
      · rcases hls _ _ _ h with h | h
        · exact .inl (.inr ⟨k', h⟩)
        · exact .inr h
    · intro l'; rw [setList_recs]; dsimp only; split
      · rename_i e; subst e; rfl
      · rfl
    · intro l'; rw [setList_recs]; dsimp only; split
      · rename_i e; subst e; rfl
      · rfl
    · intro i l' h
      rw [r5] at h; dsimp only at h
      split at h
      · rename_i e; cases h
        refine .inr ⟨hi.live _ ?_, e.2⟩
        rcases hl with hl | hl
        · exact hl
        · exact .parent hl e.1
      · exact .inl h
    · intro l' h; rw [r4] at h; exact .inl h
    · intro l' k' h; rw [r4] at h; exact .inl h
    · intro l' k' x h hx
      rcases hls _ _ _ hx with hx | hx
      · exact hI _ _ _ h hx
      · exact hx
  | holdObj l hl => exact holdObj l (hi.live _ hl)
  | holdList l k hl =>
    refine hi.mono (fun _ _ h => .inl h) (fun _ => rfl) (fun _ => rfl) rfl rfl (fun _ _ h => .inl h)
      ?_ ?_ hI rfl rfl
    · intro l' h
      rcases List.mem_cons.1 h with h | h
      · cases h
      · exact .inl h
    · intro l' k h
      rcases List.mem_cons.1 h with h | h
      · cases h; exact .inr (hi.live _ hl)
      · exact .inl h
  | drop t =>
    exact hi.mono (fun _ _ h => .inl h) (fun _ => rfl) (fun _ => rfl) rfl rfl (fun _ _ h => .inl h)
      (fun l h => .inl (List.mem_filter.1 h).1) (fun l k h => .inl (List.mem_filter.1 h).1) hI rfl rfl
  | collect g hg =>
    have hex : ∀ l, Exists (Session.collect s g) l ↔ Exists s l ∧ l ∉ g := by
      intro l
      simp only [Exists, Session.collect, List.mem_append, not_or]
      exact ⟨fun h => ⟨⟨h.1, h.2.2⟩, h.2.1⟩, fun h => ⟨h.1.1, h.2, h.1.2⟩⟩
    have hlv : ∀ l, Live (Session.collect s g) l → Live s l := by
      intro l h
      induction h with
      | held h => exact .held h
      | parent h hp => exact .parent h hp
      | heldItem h hv => exact .heldItem h hv
      | modified h => exact .modified h
      | link _ hk ih => exact .link ih hk
    have hch : ∀ i l, (Session.collect s g).cache i = some l → s.cache i = some l ∧ l ∉ g := by
      intro i l h
      simp only [Session.collect] at h
      split at h
      · split at h
        · cases h
        · rename_i e hn; cases h; exact ⟨e, hn⟩
      · cases h
    refine ⟨?_, ?_, ?_, ?_, hi.modId, ?_, hi.size, hi.heldList, ?_⟩
    · intro l h
      rw [hex]
      exact ⟨hi.live _ (hlv l h), fun hl => (hg.1 l hl).2 (hlv l h)⟩
    · intro l l' h1 h2
      rw [hex] at h1 ⊢
      exact ⟨hi.closed _ _ h1.1 h2, hg.2 _ _ h1.1 h1.2 h2⟩
    · intro l i h1 h2
      rw [hex] at h1
      have := hi.cached l i h1.1 h2
      simp only [Session.collect, this, if_neg h1.2]
    · intro i l h
      obtain ⟨h1, h2⟩ := hch i l h
      rw [hex]
      exact ⟨⟨(hi.cacheId i l h1).1, h2⟩, (hi.cacheId i l h1).2⟩
    · intro i l h; exact hi.bound i l (hch i l h).1
    · intro l h
      rcases List.mem_append.1 h with h | h
      · exact (hg.1 l h).1.1
      · exact hi.gone l h

theorem Inv.run {s s' : St} {es : List Event} (hi : Inv F s) (h : Run F s es s') : Inv F s' := by
  induction h with
  | nil => exact hi
  | cons h _ ih => exact ih (hi.step h)

end Avb.Session

import Verif.Model.FileDeps
import Verif.Props.Depends
import Verif.Props.BinFind
import Verif.Props.Limits
import Verif.Props.Repr

/-
C82: the mobs a mob depends on, over the objects of a file.
-/

namespace Avb.FileDeps

open Relation

/-! ### specification -/

/-- The object at the address has the mob id. -/
def HasId (h : Heap) (r : Ref) (i : MobID) : Prop :=
  r ≠ 0 ∧ ∃ e, h r = .ok e ∧ (Print.shown e.obj).mob_id = some i

/-- A source clip with mob id `i` can be reached from `a` along references. -/
def ClipIn (h : Heap) (a : Ref) (i : MobID) : Prop :=
  ∃ r e c, Reach h a r ∧ h r = .ok e ∧ e.obj = .SCLP c ∧ c.mob_id = some i

/-- Mob `a` depends directly on the mob `b` of the bin: a clip that can be reached from `a` has the id of `b`. -/
def Uses (h : Heap) (ms : List Ref) (a b : Ref) : Prop := ∃ i, ClipIn h a i ∧ b ∈ ms ∧ HasId h b i

/-- The content is a bin with these mobs, which have an id each, no two the same. -/
structure Bin (w : World) (ms : List Ref) : Prop where
  content : ∃ e, w.heap w.content = .ok e ∧
    ((∃ b, e.obj = .ABIN b ∧ ms = b.items.map BinItem.mob) ∨ ∃ b, e.obj = .BINF b ∧ ms = b.items.map BinItem.mob)
  ids : ∀ m ∈ ms, ∃ i, HasId w.heap m i
  distinct : ∀ a ∈ ms, ∀ b ∈ ms, ∀ i, HasId w.heap a i → HasId w.heap b i → a = b
  walks : HeapOK w.heap

/-! ### lookups -/

theorem idOf_ok {h : Heap} {r : Ref} {i : MobID} : idOf h r = .ok i ↔ HasId h r i := by
  unfold idOf HasId
  by_cases h0 : r = 0
  · simp [h0]
  rw [if_neg h0]
  cases hr : h r with
  | error e => simp
  | ok e =>
    dsimp only
    cases hi : (Print.shown e.obj).mob_id with
    | none => simp [hi]
    | some j => simp [hi, h0]

theorem HasId.unique {h : Heap} {r : Ref} {i j : MobID} (hi : HasId h r i) (hj : HasId h r j) : i = j := by
  have := idOf_ok.2 hi
  rw [idOf_ok.2 hj] at this
  cases this
  rfl

theorem fill_spec {h : Heap} : ∀ (rs : List Ref) (d : List (MobID × Ref)), (∀ r ∈ rs, ∃ i, HasId h r i) →
    ∃ d', fill h rs d = .ok d' ∧
      (∀ i m, BinFind.get i d' = some m → (m ∈ rs ∧ HasId h m i) ∨ BinFind.get i d = some m) ∧
      ∀ i, (∃ m ∈ rs, HasId h m i) ∨ BinFind.get i d ≠ none → BinFind.get i d' ≠ none
  | [], d, _ => ⟨d, rfl, fun i m h => .inr h, fun i h => h.resolve_left (by simp)⟩
  | r :: rs, d, hr => by
    obtain ⟨i, hi⟩ := hr r (by simp)
    obtain ⟨d', h1, h2, h3⟩ := fill_spec rs (BinFind.put i r d) fun x hx => hr x (by simp [hx])
    refine ⟨d', by unfold fill; rw [idOf_ok.2 hi]; exact h1, fun j m hm => ?_, fun j hj => ?_⟩
    · rcases h2 j m hm with ⟨h4, h5⟩ | h4
      · exact .inl ⟨by simp [h4], h5⟩
      · rw [BinFind.get_put] at h4
        split at h4
        · rename_i he
          cases h4
          exact .inl ⟨by simp, he ▸ hi⟩
        · exact .inr h4
    · refine h3 j ?_
      rcases hj with ⟨m, hm, hmi⟩ | hj
      · rcases List.mem_cons.1 hm with rfl | hm
        · right
          have := hi.unique hmi
          rw [BinFind.get_put, if_pos (by simp [this])]
          simp
        · exact .inl ⟨m, hm, hmi⟩
      · right
        rw [BinFind.get_put]
        split
        · simp
        · exact hj

theorem Bin.find {w : World} {ms : List Ref} (hb : Bin w ms) (i : MobID) :
    ∃ o, FileDeps.find w i = .ok o ∧ ∀ m, o = some m ↔ m ∈ ms ∧ HasId w.heap m i := by
  obtain ⟨e, he, hm⟩ := hb.content
  have hm' : binMobs e.obj = some ms := by
    rcases hm with ⟨b, h1, rfl⟩ | ⟨b, h1, rfl⟩ <;> rw [h1] <;> rfl
  obtain ⟨d, h1, h2, h3⟩ := fill_spec (h := w.heap) ms [] hb.ids
  refine ⟨BinFind.get i d, ?_, fun m => ⟨fun h => ?_, fun ⟨h, hi⟩ => ?_⟩⟩
  · unfold FileDeps.find
    rw [he]
    dsimp only
    rw [hm']
    dsimp only
    rw [h1]
  · rcases h2 i m h with h | h
    · exact h
    · cases h
  · obtain ⟨m', hm'⟩ := Option.ne_none_iff_exists'.1 (h3 i (.inl ⟨m, h, hi⟩))
    rcases h2 i m' hm' with ⟨h4, h5⟩ | h4
    · rw [hm', hb.distinct m h m' h4 i hi h5]
    · cases h4

theorem Bin.find_iff {w : World} {ms : List Ref} (hb : Bin w ms) {i : MobID} {m : Ref} :
    FileDeps.find w i = .ok (some m) ↔ m ∈ ms ∧ HasId w.heap m i := by
  obtain ⟨o, h1, h2⟩ := hb.find i
  rw [h1, ← h2 m]
  constructor
  · intro h; cases h; rfl
  · rintro rfl; rfl

/-! ### the iteration without exceptions -/

/-- What Model/Depends takes as given. -/
def graph (w : World) : Depends.Graph where
  walk a := (walkObj w.heap w.fuel a).out.filterMap fun r =>
    match w.heap r with
    | .ok e => some e.obj
    | .error _ => none
  idOf a :=
    match idOf w.heap a with
    | .ok i => i
    | .error _ => MobID.zero
  find i :=
    match find w i with
    | .ok o => o
    | .error _ => none

/-- The state without the exception. -/
def proj (s : St) : Depends.St := ⟨s.visited, s.stack, s.out⟩

theorem graph_id {w : World} {a : Ref} {i : MobID} (h : HasId w.heap a i) : (graph w).idOf a = i := by
  show (match idOf w.heap a with | .ok i => i | .error _ => MobID.zero) = i
  rw [idOf_ok.2 h]

theorem scan_pushed {w : World} {v : List MobID} : ∀ {rs ps : List Ref}, scan w v rs = (ps, none) →
    ps = ((rs.filterMap fun r =>
      match w.heap r with
      | .ok e => some e.obj
      | .error _ => none).filterMap (Depends.clipMob (graph w))).filter fun r => (graph w).idOf r ∉ v
  | [], ps, h => by cases h; rfl
  | r :: rs, ps, h => by
    have ih := fun ps => scan_pushed (w := w) (v := v) (rs := rs) (ps := ps)
    unfold scan at h
    cases hr : w.heap r with
    | error e => rw [hr] at h; cases h
    | ok e =>
      rw [hr] at h
      rw [List.filterMap_cons, hr]
      dsimp only at h ⊢
      rw [List.filterMap_cons]
      split at h
      · rename_i c hc
        rw [hc]
        split at h
        · rename_i hi
          rw [show Depends.clipMob (graph w) (.SCLP c) = none by simp only [Depends.clipMob, hi]]
          exact ih _ h
        · rename_i i hi
          rw [show Depends.clipMob (graph w) (.SCLP c) = (graph w).find i by simp only [Depends.clipMob, hi]]
          split at h
          · cases h
          · rename_i hf
            have : (graph w).find i = none := by show (match find w i with | .ok o => o | .error _ => none) = _; rw [hf]
            rw [this]
            exact ih _ h
          · rename_i m hf
            have : (graph w).find i = some m := by
              show (match find w i with | .ok o => o | .error _ => none) = _; rw [hf]
            rw [this]
            dsimp only
            split at h
            · cases h
            · rename_i j hj
              have hg : (graph w).idOf m = j := graph_id (idOf_ok.1 hj)
              split at h
              · rename_i hv
                rw [List.filter_cons_of_neg (by rw [hg]; simpa using hv)]
                exact ih _ h
              · rename_i hv
                rw [List.filter_cons_of_pos (by rw [hg]; simpa using hv)]
                cases hs : scan w v rs with
                | mk a b =>
                  rw [hs] at h
                  cases h
                  rw [← ih _ hs]
      · rename_i hn
        have : Depends.clipMob (graph w) e.obj = none := by
          unfold Depends.clipMob
          split
          · rename_i c hc; exact absurd hc (hn c)
          · rfl
        rw [this]
        exact ih _ h

theorem step_sim {w : World} {top : Ref} {s : St} (h : (step w top s).err = none) :
    proj (step w top s) = Depends.step (graph w) top (proj s) := by
  obtain ⟨v, stack, out, err⟩ := s
  unfold step at h ⊢
  cases err with
  | some e => cases h
  | none =>
    cases stack with
    | nil => rfl
    | cons m rest =>
      dsimp only at h ⊢
      cases hs : scan w v (walkObj w.heap w.fuel m).out with
      | mk ps e1 =>
        rw [hs] at h
        cases e1 with
        | some e => cases h
        | none =>
          have hp : Depends.pushed (graph w) v m = ps := (scan_pushed hs).symm
          dsimp only at h ⊢
          cases hw : (walkObj w.heap w.fuel m).err with
          | some e => rw [hw] at h; cases h
          | none =>
            rw [hw] at h
            dsimp only at h ⊢
            have hgoal : Depends.step (graph w) top (proj ⟨v, m :: rest, out, none⟩) =
                if ps = [] then
                  if (graph w).idOf m ∈ v then ⟨v, rest, out⟩
                  else ⟨(graph w).idOf m :: v, rest, if m = top then out else out ++ [m]⟩
                else ⟨v, ps.reverse ++ m :: rest, out⟩ := by
              simp only [Depends.step, proj, hp]
              by_cases hn : ps = []
              · simp only [hn, if_true]
                congr
              · simp only [hn, if_false]
            rw [hgoal]
            by_cases hn : ps = []
            · rw [if_pos hn] at h ⊢
              rw [if_pos hn]
              cases hi : idOf w.heap m with
              | error e => rw [hi] at h; cases h
              | ok i =>
                rw [graph_id (idOf_ok.1 hi)]
                dsimp only
                split <;> rfl
            · rw [if_neg hn, if_neg hn]
              rfl

theorem rounds_succ {w : World} {top : Ref} {s : St} {n : Nat} :
    rounds w top (n + 1) s = step w top (rounds w top n s) := by
  induction n generalizing s with
  | zero => rfl
  | succ n ih => exact ih (s := step w top s)

theorem step_err {w : World} {top : Ref} {s : St} {e : Err} (h : s.err = some e) : step w top s = s := by
  unfold step
  rw [h]

theorem rounds_sim {w : World} {top : Ref} {n : Nat} (h : (rounds w top n (start top)).err = none) :
    proj (rounds w top n (start top)) = Depends.rounds (graph w) top n (Depends.start top) := by
  induction n with
  | zero => rfl
  | succ n ih =>
    rw [rounds_succ] at h ⊢
    rw [Depends.rounds_succ]
    have h0 : (rounds w top n (start top)).err = none := by
      cases he : (rounds w top n (start top)).err with
      | none => rfl
      | some e => rw [step_err he, he] at h; cases h
    rw [step_sim h, ih h0]

variable {w : World} {ms : List Ref} {top : Ref}

theorem walk_loads {a r : Ref} (hr : r ∈ (walkObj w.heap w.fuel a).out) (hh : HeapOK w.heap) :
    ∃ e, w.heap r = .ok e := by
  obtain ⟨k, _, hk⟩ := Print.yielded_walked hr
  have h0 : r ≠ 0 := ((walkObj_good hh w.fuel a []).2 r hr).1
  obtain ⟨_, e, _, he, _⟩ := walkObj_last h0 hk
  exact ⟨e, he⟩

theorem direct_iff (hb : Bin w ms) {a b : Ref} : Depends.Direct (graph w) a b ↔
    ∃ r ∈ (walkObj w.heap w.fuel a).out, ∃ e c i, w.heap r = .ok e ∧ e.obj = .SCLP c ∧ c.mob_id = some i ∧
      b ∈ ms ∧ HasId w.heap b i := by
  unfold Depends.Direct
  have hf : ∀ i, (graph w).find i = some b ↔ b ∈ ms ∧ HasId w.heap b i := by
    intro i
    obtain ⟨o, h1, h2⟩ := hb.find i
    rw [← h2]
    show (match find w i with | .ok o => o | .error _ => none) = _ ↔ _
    rw [h1]
  constructor
  · rintro ⟨c, i, h1, h2, h3⟩
    obtain ⟨r, hr, h4⟩ := List.mem_filterMap.1 h1
    split at h4
    · rename_i e he
      exact ⟨r, hr, e, c, i, he, Option.some.inj h4, h2, (hf i).1 h3⟩
    · cases h4
  · rintro ⟨r, hr, e, c, i, he, hc, hi, hm⟩
    refine ⟨c, i, List.mem_filterMap.2 ⟨r, hr, ?_⟩, hi, (hf i).2 hm⟩
    rw [he]
    simp [hc]

theorem direct_uses (hb : Bin w ms) {a b : Ref} (h : Depends.Direct (graph w) a b) : Uses w.heap ms a b := by
  obtain ⟨r, hr, e, c, i, he, hc, hi, hm⟩ := (direct_iff hb).1 h
  exact ⟨i, ⟨r, e, c, (walkObj_good hb.walks w.fuel a []).2 r hr, he, hc, hi⟩, hm⟩

theorem uses_direct (hb : Bin w ms) {a b : Ref} (hw : (walkObj w.heap w.fuel a).err = none) (h : Uses w.heap ms a b) :
    Depends.Direct (graph w) a b := by
  obtain ⟨i, ⟨r, e, c, hr, he, hc, hi⟩, hm⟩ := h
  have ha : a ≠ 0 := by
    rintro rfl
    obtain ⟨h1, h2⟩ := hr
    rcases reflTransGen_iff_eq_or_transGen.1 h2 with h | h
    · exact h1 h
    · obtain ⟨z, ⟨_, _, h0, _⟩, _⟩ := TransGen.head'_iff.1 h
      exact h0 rfl
  exact (direct_iff hb).2 ⟨r, walkObj_mem ha hw hr.2, e, c, i, he, hc, hi, hm⟩

theorem sound (hb : Bin w ms) (ht : top ∈ ms) : Depends.Sound (graph w) top := by
  have hf : ∀ i m, (graph w).find i = some m → m ∈ ms ∧ HasId w.heap m i := by
    intro i m h
    obtain ⟨o, h1, h2⟩ := hb.find i
    refine (h2 m).1 ?_
    have : (match find w i with | .ok o => o | .error _ => none) = some m := h
    rwa [h1] at this
  refine ⟨fun i m h => graph_id (hf i m h).2, fun m h => ?_⟩
  obtain ⟨i, hi⟩ := hb.ids top ht
  rw [graph_id hi] at h
  obtain ⟨h1, h2⟩ := hf _ _ h
  exact hb.distinct m h1 top ht i h2 hi

theorem scan_ok (hb : Bin w ms) (v : List MobID) : ∀ (rs : List Ref), (∀ r ∈ rs, ∃ e, w.heap r = .ok e) →
    (scan w v rs).2 = none
  | [], _ => rfl
  | r :: rs, h => by
    have ih := scan_ok hb v rs fun x hx => h x (by simp [hx])
    obtain ⟨e, he⟩ := h r (by simp)
    unfold scan
    rw [he]
    dsimp only
    split
    · split
      · exact ih
      · rename_i i _
        obtain ⟨o, h1, h2⟩ := hb.find i
        rw [h1]
        cases o with
        | none => exact ih
        | some m =>
          dsimp only
          rw [idOf_ok.2 ((h2 m).1 rfl).2]
          dsimp only
          split <;> exact ih
    · exact ih

/-- The exception of a round is the one of the walk over the mob on top of the stack. -/
theorem step_raises (hb : Bin w ms) {s : St} (hs : s.err = none) (hst : ∀ m ∈ s.stack, m ∈ ms) {e : Err}
    (h : (step w top s).err = some e) :
    ∃ m ∈ s.stack, (walkObj w.heap w.fuel m).err = some e ∧ (step w top s).out = s.out := by
  obtain ⟨v, stack, out, err⟩ := s
  cases hs
  unfold step at h ⊢
  cases stack with
  | nil => cases h
  | cons m rest =>
    dsimp only at h ⊢
    have hsc := scan_ok hb v (walkObj w.heap w.fuel m).out fun r hr => walk_loads hr hb.walks
    rw [hsc] at h ⊢
    dsimp only at h ⊢
    cases hw : (walkObj w.heap w.fuel m).err with
    | some e' =>
      rw [hw] at h
      cases h
      exact ⟨m, by simp, hw, rfl⟩
    | none =>
      rw [hw] at h
      dsimp only at h
      split at h
      · obtain ⟨i, hi⟩ := hb.ids m (hst m (by simp))
        rw [idOf_ok.2 hi] at h
        dsimp only at h
        split at h <;> cases h
      · cases h

theorem stack_reach (hb : Bin w ms) (ht : top ∈ ms) {n : Nat} (h : (rounds w top n (start top)).err = none) :
    Depends.Inv (graph w) top (proj (rounds w top n (start top))) := by
  rw [rounds_sim h]
  exact Depends.inv_rounds (sound hb ht) n _ Depends.inv_start

theorem reach_mem (hb : Bin w ms) (ht : top ∈ ms) {a : Ref} (h : ReflTransGen (Depends.Direct (graph w)) top a) :
    a ∈ ms := by
  rcases ReflTransGen.cases_tail h with rfl | ⟨b, _, h⟩
  · exact ht
  · obtain ⟨_, _, hm, _⟩ := direct_uses hb h
    exact hm

theorem reach_uses (hb : Bin w ms) {a : Ref} (h : ReflTransGen (Depends.Direct (graph w)) top a) :
    ReflTransGen (Uses w.heap ms) top a :=
  ReflTransGen.mono (fun _ _ => direct_uses hb) _ _ h

theorem rounds_err {n k : Nat} {e : Err} (h : (rounds w top n (start top)).err = some e) (hk : n ≤ k) :
    rounds w top k (start top) = rounds w top n (start top) := by
  induction k, hk using Nat.le_induction with
  | base => rfl
  | succ k _ ih => rw [rounds_succ, ih, step_err h]

/-- The last state before an exception. -/
theorem last_good (n : Nat) : ∃ k ≤ n, (rounds w top k (start top)).err = none ∧
    ((rounds w top n (start top)).err = none ∧ k = n ∨
      (rounds w top n (start top)).err ≠ none ∧ rounds w top n (start top) = step w top (rounds w top k (start top))) := by
  induction n with
  | zero => exact ⟨0, le_refl _, rfl, .inl ⟨rfl, rfl⟩⟩
  | succ n ih =>
    obtain ⟨k, hk, h1, h2⟩ := ih
    rcases h2 with ⟨h2, rfl⟩ | ⟨h2, h3⟩
    · cases he : (rounds w top (k + 1) (start top)).err with
      | none => exact ⟨k + 1, le_refl _, he, .inl ⟨rfl, rfl⟩⟩
      | some e => exact ⟨k, by omega, h1, .inr ⟨by simp, rounds_succ⟩⟩
    · obtain ⟨e, he⟩ := Option.ne_none_iff_exists'.1 h2
      have := rounds_err he (Nat.le_succ n)
      exact ⟨k, by omega, h1, .inr ⟨by rw [this]; exact h2, by rw [this]; exact h3⟩⟩

/-! ### the property -/

/-- C82: an exception is that of walking the references of a mob that is the starting mob or that it depends on. -/
theorem C82_cause (hb : Bin w ms) (ht : top ∈ ms) {n : Nat} {e : Err}
    (h : (rounds w top n (start top)).err = some e) :
    ∃ a, ReflTransGen (Uses w.heap ms) top a ∧ (walkObj w.heap w.fuel a).err = some e := by
  obtain ⟨k, _, h1, h2⟩ := last_good (w := w) (top := top) n
  rcases h2 with ⟨h2, _⟩ | ⟨_, h3⟩
  · rw [h2] at h; cases h
  · have hi := stack_reach hb ht h1
    rw [h3] at h
    obtain ⟨m, hm, hw, _⟩ := step_raises hb h1 (fun m hm => reach_mem hb ht (hi.stack m hm)) h
    exact ⟨m, reach_uses hb (hi.stack m hm), hw⟩

/-- Every mob visited was walked to the end. -/
theorem visited_walked (hb : Bin w ms) (ht : top ∈ ms) {n : Nat} (h : (rounds w top n (start top)).err = none) :
    ∀ i ∈ (rounds w top n (start top)).visited, ∃ a, (graph w).idOf a = i ∧
      ReflTransGen (Depends.Direct (graph w)) top a ∧ (walkObj w.heap w.fuel a).err = none := by
  induction n with
  | zero => intro i hi; cases hi
  | succ n ih =>
    have h0 : (rounds w top n (start top)).err = none := by
      cases he : (rounds w top n (start top)).err with
      | none => rfl
      | some e => rw [rounds_succ, step_err he, he] at h; cases h
    have hi := stack_reach hb ht h0
    have ih := ih h0
    rw [rounds_succ] at h ⊢
    generalize rounds w top n (start top) = s at *
    obtain ⟨v, stack, out, err⟩ := s
    cases h0
    unfold step at h ⊢
    cases stack with
    | nil => exact ih
    | cons m rest =>
      dsimp only at h ⊢
      have hsc := scan_ok hb v (walkObj w.heap w.fuel m).out fun r hr => walk_loads hr hb.walks
      rw [hsc] at h ⊢
      dsimp only at h ⊢
      cases hw : (walkObj w.heap w.fuel m).err with
      | some e => rw [hw] at h; cases h
      | none =>
        rw [hw] at h
        dsimp only at h ⊢
        split at h
        · rename_i hp
          rw [if_pos hp]
          cases hid : idOf w.heap m with
          | error e => rw [hid] at h; cases h
          | ok i =>
            dsimp only
            split
            · exact ih
            · intro j hj
              rcases List.mem_cons.1 hj with rfl | hj
              · exact ⟨m, graph_id (idOf_ok.1 hid), hi.stack m (by simp [proj]), hw⟩
              · exact ih j hj
        · rename_i hp
          rw [if_neg hp]
          exact ih

theorem out_walked (hb : Bin w ms) (ht : top ∈ ms) {n : Nat} (h : (rounds w top n (start top)).err = none) {a : Ref}
    (ha : ReflTransGen (Depends.Direct (graph w)) top a) (hv : (graph w).idOf a ∈ (rounds w top n (start top)).visited) :
    (walkObj w.heap w.fuel a).err = none := by
  obtain ⟨a', h1, h2, h3⟩ := visited_walked hb ht h _ hv
  rwa [(sound hb ht).inj h2 ha h1] at h3

theorem rounds_out (hb : Bin w ms) (ht : top ∈ ms) (n : Nat) : ∃ k, (rounds w top k (start top)).err = none ∧
    (rounds w top n (start top)).out = (rounds w top k (start top)).out := by
  obtain ⟨k, _, h1, h2⟩ := last_good (w := w) (top := top) n
  refine ⟨k, h1, ?_⟩
  rcases h2 with ⟨_, rfl⟩ | ⟨h2, h3⟩
  · rfl
  · obtain ⟨e, he⟩ := Option.ne_none_iff_exists'.1 h2
    have hi := stack_reach hb ht h1
    rw [h3] at he
    obtain ⟨m, _, _, ho⟩ := step_raises hb h1 (fun m hm => reach_mem hb ht (hi.stack m hm)) he
    rw [h3, ho]

/-- C82: at any time, also when an exception has ended the iteration, what has been yielded are different mobs the
starting mob depends on, each after all those it depends on itself. -/
theorem C82_any_time (hb : Bin w ms) (ht : top ∈ ms) (n : Nat) :
    (rounds w top n (start top)).out.Nodup ∧
    (∀ a ∈ (rounds w top n (start top)).out, TransGen (Uses w.heap ms) top a) ∧
    ∀ pre a post, (rounds w top n (start top)).out = pre ++ a :: post → ∀ b, Uses w.heap ms a b → b ∈ pre := by
  obtain ⟨k, h1, h2⟩ := rounds_out hb ht n
  rw [h2]
  have hi := stack_reach hb ht h1
  have tg : ∀ a ∈ (rounds w top k (start top)).out, TransGen (Depends.Direct (graph w)) top a := by
    intro a ha
    obtain ⟨_, h3, h4⟩ := hi.out a ha
    rcases reflTransGen_iff_eq_or_transGen.1 h4 with h | h
    · exact absurd h h3
    · exact h
  refine ⟨hi.nodup, fun a ha => TransGen.mono (fun _ _ => direct_uses hb) _ _ (tg a ha), fun pre a post he b hu => ?_⟩
  have ha : a ∈ (rounds w top k (start top)).out := by rw [he]; simp
  obtain ⟨hv, _, hr⟩ := hi.out a ha
  have hd := uses_direct hb (out_walked hb ht h1 hr hv) hu
  rcases hi.order pre a post he b hd with h | rfl
  · exact h
  · obtain ⟨a', e1, e2, _, hacc, _⟩ := hi.visited _ hv
    rw [(sound hb ht).inj e2 hr e1] at hacc
    exact absurd (TransGen.head hd (tg a ha)) (Depends.acc_no_cycle hacc)

theorem all_good (hb : Bin w ms) (ht : top ∈ ms)
    (hg : ∀ a, ReflTransGen (Uses w.heap ms) top a → (walkObj w.heap w.fuel a).err = none) (n : Nat) :
    (rounds w top n (start top)).err = none := by
  cases he : (rounds w top n (start top)).err with
  | none => rfl
  | some e =>
    obtain ⟨a, ha, hw⟩ := C82_cause hb ht he
    rw [hg a ha] at hw
    cases hw

/-- C82: the iteration ends without exception exactly if the references of the mob and of all mobs it depends on can be
walked, and no chain of dependencies goes on without end. -/
theorem C82_ends (hb : Bin w ms) (ht : top ∈ ms) :
    (∃ n, (rounds w top n (start top)).stack = [] ∧ (rounds w top n (start top)).err = none) ↔
      (∀ a, ReflTransGen (Uses w.heap ms) top a → (walkObj w.heap w.fuel a).err = none) ∧
        Acc (fun b a => Uses w.heap ms a b) top := by
  constructor
  · rintro ⟨n, hst, herr⟩
    have hi := stack_reach hb ht herr
    have hends : Depends.Ends (graph w) top (rounds w top n (start top)).out :=
      ⟨n, (rounds w top n (start top)).visited, by rw [← rounds_sim herr, proj, hst]⟩
    have hres := Depends.C32_result (sound hb ht) hends
    have hacc := (Depends.C32_ends_iff (sound hb ht)).1 ⟨_, hends⟩
    have hvis : ∀ a, ReflTransGen (Depends.Direct (graph w)) top a → (walkObj w.heap w.fuel a).err = none := by
      intro a ha
      refine out_walked hb ht herr ha ?_
      rcases reflTransGen_iff_eq_or_transGen.1 ha with rfl | h
      · rcases hi.selfSeen with h | h
        · have h : a ∈ (rounds w a n (start a)).stack := h
          rw [hst] at h; cases h
        · exact h
      · exact (hi.out a ((hres.2.1 a).2 h)).1
    have hall : ∀ a, ReflTransGen (Uses w.heap ms) top a → ReflTransGen (Depends.Direct (graph w)) top a := by
      intro a ha
      induction ha with
      | refl => exact .refl
      | tail _ h ih => exact ih.tail (uses_direct hb (hvis _ ih) h)
    refine ⟨fun a ha => hvis a (hall a ha), ?_⟩
    have : ∀ a, Acc (fun b a => Depends.Direct (graph w) a b) a → ReflTransGen (Depends.Direct (graph w)) top a →
        Acc (fun b a => Uses w.heap ms a b) a := by
      intro a ha
      induction ha with
      | intro a _ ih =>
        intro hr
        refine ⟨_, fun b hbb => ?_⟩
        have hd := uses_direct hb (hvis a hr) hbb
        exact ih b hd (hr.tail hd)
    exact this top hacc .refl
  · rintro ⟨hg, hacc⟩
    have hacc' : Acc (fun b a => Depends.Direct (graph w) a b) top :=
      Subrelation.accessible (fun {_ _} h => direct_uses hb h) hacc
    obtain ⟨out, n, v, h⟩ := (Depends.C32_ends_iff (sound hb ht)).2 hacc'
    have herr := all_good hb ht hg n
    refine ⟨n, ?_, herr⟩
    have := rounds_sim herr
    rw [h] at this
    exact congrArg Depends.St.stack this

/-- C82: and then it has yielded all mobs the starting mob depends on. -/
theorem C82_all (hb : Bin w ms) (ht : top ∈ ms) {n : Nat} (hst : (rounds w top n (start top)).stack = [])
    (herr : (rounds w top n (start top)).err = none) (a : Ref) :
    a ∈ (rounds w top n (start top)).out ↔ TransGen (Uses w.heap ms) top a := by
  have hends : Depends.Ends (graph w) top (rounds w top n (start top)).out :=
    ⟨n, (rounds w top n (start top)).visited, by rw [← rounds_sim herr, proj, hst]⟩
  rw [(Depends.C32_result (sound hb ht) hends).2.1 a]
  have hg := ((C82_ends hb ht).1 ⟨n, hst, herr⟩).1
  constructor
  · exact fun h => TransGen.mono (fun _ _ => direct_uses hb) _ _ h
  · intro h
    induction h with
    | single h => exact .single (uses_direct hb (hg _ .refl) h)
    | tail h1 h2 ih => exact ih.tail (uses_direct hb (hg _ h1.to_reflTransGen) h2)

/-- C82: if no chain of dependencies goes on without end, but the references of some of the mobs cannot be walked, the
iteration ends with an exception. -/
theorem C82_raises (hb : Bin w ms) (ht : top ∈ ms) (hacc : Acc (fun b a => Uses w.heap ms a b) top)
    (hbad : ∃ a, ReflTransGen (Uses w.heap ms) top a ∧ (walkObj w.heap w.fuel a).err ≠ none) :
    ∃ n e, (rounds w top n (start top)).err = some e := by
  have hacc' : Acc (fun b a => Depends.Direct (graph w) a b) top :=
    Subrelation.accessible (fun {_ _} h => direct_uses hb h) hacc
  obtain ⟨out, n, v, h⟩ := (Depends.C32_ends_iff (sound hb ht)).2 hacc'
  cases herr : (rounds w top n (start top)).err with
  | some e => exact ⟨n, e, herr⟩
  | none =>
    have := rounds_sim herr
    rw [h] at this
    obtain ⟨a, ha, hw⟩ := hbad
    exact absurd (((C82_ends hb ht).1 ⟨n, congrArg Depends.St.stack this, herr⟩).1 a ha) hw

/-- C82: a bin that cannot be searched, because an item refers to nothing or the content is no bin, stops the iteration
at the first clip with a mob id, and nothing is yielded. -/
theorem C82_no_bin (hh : HeapOK w.heap) {e : Err} (hf : ∀ i, find w i = .error e)
    (hw : (walkObj w.heap w.fuel top).err = none) {i : MobID} (hc : ClipIn w.heap top i) {n : Nat} (hn : 0 < n) :
    (rounds w top n (start top)).err = some e ∧ (rounds w top n (start top)).out = [] := by
  obtain ⟨r, en, c, hr, he, ho, hi⟩ := hc
  have ha : top ≠ 0 := by
    rintro rfl
    obtain ⟨h1, h2⟩ := hr
    rcases reflTransGen_iff_eq_or_transGen.1 h2 with h | h
    · exact h1 h
    · obtain ⟨z, ⟨_, _, h0, _⟩, _⟩ := TransGen.head'_iff.1 h
      exact h0 rfl
  have hmem := walkObj_mem ha hw hr.2
  have key : ∀ rs : List Ref, (∀ x ∈ rs, ∃ e, w.heap x = .ok e) → r ∈ rs → (scan w [] rs).2 = some e := by
    intro rs
    induction rs with
    | nil => intro _ h; cases h
    | cons x rs ih =>
      intro hl hx
      have ih' := ih fun y hy => hl y (by simp [hy])
      obtain ⟨ex, hex⟩ := hl x (by simp)
      unfold scan
      rw [hex]
      dsimp only
      by_cases hxr : x = r
      · subst hxr
        rw [he] at hex
        cases hex
        rw [ho]
        dsimp only
        rw [hi]
        dsimp only
        rw [hf]
      · have hx : r ∈ rs := by
          rcases List.mem_cons.1 hx with h | h
          · exact absurd h.symm hxr
          · exact h
        split
        · split
          · exact ih' hx
          · rw [hf]
        · exact ih' hx
  have h1 : rounds w top 1 (start top) = { start top with err := some e } := by
    show step w top (start top) = _
    unfold step start
    dsimp only
    rw [key _ (fun x hx => walk_loads hx hh) hmem]
  have h2 := rounds_err (n := 1) (k := n) (by rw [h1]) hn
  rw [h2, h1]
  exact ⟨rfl, rfl⟩

/-- C82: no mob is found in a bin with an item that refers to nothing or to an object without mob id, nor in a content
that is no bin. -/
theorem C82_unsearchable {en : Entry} (hc : w.heap w.content = .ok en) :
    (en.obj.cls ≠ .ABIN ∧ en.obj.cls ≠ .BINF → ∀ i, find w i = .error .attribute) ∧
    ∀ b : Avb.Bin, (en.obj = .ABIN b ∨ ∃ b', en.obj = .BINF b' ∧ b'.toBin = b) →
      (∃ it ∈ b.items, ∀ i, ¬ HasId w.heap it.mob i) → ∃ e, ∀ i, find w i = .error e := by
  refine ⟨fun ⟨h1, h2⟩ i => ?_, fun b hb ⟨it, hit, hno⟩ => ?_⟩
  · unfold find
    rw [hc]
    have : binMobs en.obj = none := by
      unfold binMobs
      split
      · rename_i h; rw [h] at h1; exact absurd rfl h1
      · rename_i h; rw [h] at h2; exact absurd rfl h2
      · rfl
    dsimp only
    rw [this]
  · have hm : binMobs en.obj = some (b.items.map BinItem.mob) := by
      rcases hb with h | ⟨b', h, rfl⟩ <;> rw [h] <;> rfl
    have key : ∀ (rs : List Ref) (d : List (MobID × Ref)), it.mob ∈ rs → ∃ e, fill w.heap rs d = .error e := by
      intro rs
      induction rs with
      | nil => intro d h; cases h
      | cons r rs ih =>
        intro d h
        unfold fill
        cases hi : idOf w.heap r with
        | error e => exact ⟨e, rfl⟩
        | ok i =>
          rcases List.mem_cons.1 h with rfl | h
          · exact absurd (idOf_ok.1 hi) (hno i)
          · exact ih _ h
    obtain ⟨e, he⟩ := key _ [] (List.mem_map_of_mem hit)
    refine ⟨e, fun i => ?_⟩
    unfold find
    rw [hc]
    dsimp only
    rw [hm]
    dsimp only
    rw [he]

/-! ### concrete cases -/

/-- A mob of that id with tracks of these components. -/
def exMob (i : Nat) (rs : List Ref) : Obj :=
  .CMPO { BinFind.exMobs 1 with mob_id := some (Depends.exIdOf i), tracks := rs.map fun r =>
    ⟨some 1, none, none, some r, none, none, none, none, none, none, none⟩ }

/-- A bin at 1 with the mobs at 2, 3 and 4.  The first has a sequence of a clip of the second and a gap, the second a clip
of the third, and the third no track. -/
def exDeps (more : Ref → Option Obj) : Heap := fun r =>
  match (match r with
    | 1 => some (.ABIN { exBin 0 with
        view_setting := 0, attributes := 0, items := [⟨2, 0, 0, 0, false⟩, ⟨3, 0, 0, 0, false⟩, ⟨4, 0, 0, 0, false⟩] })
    | 2 => some (exMob 0 [5])
    | 3 => some (exMob 1 [7])
    | 4 => some (exMob 2 [])
    | 5 => some (.SEQU { toComponent := exComp ['V', '1'], components := [6, 8] })
    | 6 => some (.SCLP (Depends.exClipOf 1))
    | 7 => some (.SCLP (Depends.exClipOf 2))
    | 8 => some exFill
    | r => more r : Option Obj) with
  | some o => .ok ⟨r, true, o, o.visits⟩
  | none => .error .struct

/-- The same, the third mob with a track that cannot be loaded. -/
def exDepsBad : Heap := fun r => if r = 4 then .ok ⟨4, true, exMob 2 [9], (exMob 2 [9]).visits⟩ else exDeps (fun _ => none) r

/-- The same, the third mob with a clip of the second. -/
def exDepsLoop : Heap := fun r => if r = 4 then .ok ⟨4, true, exMob 2 [6], (exMob 2 [6]).visits⟩ else exDeps (fun _ => none) r

theorem exDeps_ok : HeapOK (exDeps fun _ => none) := by
  intro r e he v
  unfold exDeps at he
  split at he
  · cases he; rfl
  · cases he

theorem ex_bin {h : Heap} (hh : HeapOK h) (h1 : h 1 = exDeps (fun _ => none) 1) (h2 : idOf h 2 = .ok (Depends.exIdOf 0))
    (h3 : idOf h 3 = .ok (Depends.exIdOf 1)) (h4 : idOf h 4 = .ok (Depends.exIdOf 2)) : Bin ⟨h, 10, 1⟩ [2, 3, 4] where
  content := ⟨_, h1.trans rfl, .inl ⟨_, rfl, rfl⟩⟩
  ids m hm := by
    simp only [List.mem_cons, List.not_mem_nil, or_false] at hm
    rcases hm with rfl | rfl | rfl
    · exact ⟨_, idOf_ok.1 h2⟩
    · exact ⟨_, idOf_ok.1 h3⟩
    · exact ⟨_, idOf_ok.1 h4⟩
  distinct a ha b hb i hai hbi := by
    have hai := idOf_ok.2 hai
    have hbi := idOf_ok.2 hbi
    simp only [List.mem_cons, List.not_mem_nil, or_false] at ha hb
    have h01 : Depends.exIdOf 0 ≠ Depends.exIdOf 1 := by decide
    have h02 : Depends.exIdOf 0 ≠ Depends.exIdOf 2 := by decide
    have h12 : Depends.exIdOf 1 ≠ Depends.exIdOf 2 := by decide
    rcases ha with rfl | rfl | rfl <;> rcases hb with rfl | rfl | rfl <;>
      simp_all only [Except.ok.injEq]
  walks := hh

/-- `C82_any_time`, `C82_ends`, `C82_all`: the first mob depends on the third and the second, in this order. -/
example : Bin ⟨exDeps fun _ => none, 10, 1⟩ [2, 3, 4] ∧
    (rounds ⟨exDeps fun _ => none, 10, 1⟩ 2 5 (start 2)).stack = [] ∧
    (rounds ⟨exDeps fun _ => none, 10, 1⟩ 2 5 (start 2)).err = none ∧
    (rounds ⟨exDeps fun _ => none, 10, 1⟩ 2 5 (start 2)).out = [4, 3] ∧
    TransGen (Uses (exDeps fun _ => none) [2, 3, 4]) 2 4 := by
  have hb := ex_bin exDeps_ok rfl rfl rfl rfl
  have h1 : (rounds ⟨exDeps fun _ => none, 10, 1⟩ 2 5 (start 2)).stack = [] := by decide +kernel
  have h2 : (rounds ⟨exDeps fun _ => none, 10, 1⟩ 2 5 (start 2)).err = none := by decide +kernel
  have h3 : (rounds ⟨exDeps fun _ => none, 10, 1⟩ 2 5 (start 2)).out = [4, 3] := by decide +kernel
  exact ⟨hb, h1, h2, h3, (C82_all hb (by simp) h1 h2 4).1 (by rw [h3]; simp)⟩

theorem exDepsBad_ok : HeapOK exDepsBad := by
  intro r e he v
  unfold exDepsBad at he
  split at he
  · cases he; rfl
  · exact exDeps_ok r e he v

/-- `C82_raises`, `C82_cause`: with a track of the third mob that cannot be loaded, nothing is yielded. -/
example : Bin ⟨exDepsBad, 10, 1⟩ [2, 3, 4] ∧ (rounds ⟨exDepsBad, 10, 1⟩ 2 5 (start 2)).err = some .struct ∧
    (rounds ⟨exDepsBad, 10, 1⟩ 2 5 (start 2)).out = [] ∧
    ∃ a, ReflTransGen (Uses exDepsBad [2, 3, 4]) 2 a ∧ (walkObj exDepsBad 10 a).err ≠ none := by
  have hb := ex_bin exDepsBad_ok rfl rfl rfl rfl
  have h1 : (rounds ⟨exDepsBad, 10, 1⟩ 2 5 (start 2)).err = some .struct := by decide +kernel
  obtain ⟨a, ha, hw⟩ := C82_cause hb (top := 2) (by simp) h1
  exact ⟨hb, h1, by decide +kernel, a, ha, by rw [hw]; simp⟩

theorem exDepsLoop_ok : HeapOK exDepsLoop := by
  intro r e he v
  unfold exDepsLoop at he
  split at he
  · cases he; rfl
  · exact exDeps_ok r e he v

/-- `C82_ends`: with a clip of the second mob in the third, the iteration does not end. -/
example (n : Nat) : (rounds ⟨exDepsLoop, 10, 1⟩ 2 n (start 2)).stack ≠ [] ∨
    (rounds ⟨exDepsLoop, 10, 1⟩ 2 n (start 2)).err ≠ none := by
  have hb := ex_bin exDepsLoop_ok rfl rfl rfl rfl
  by_contra hn
  rw [not_or, not_not, not_not] at hn
  have hacc := ((C82_ends hb (top := 2) (by simp)).1 ⟨n, hn⟩).2
  have u34 : Uses exDepsLoop [2, 3, 4] 3 4 :=
    ⟨Depends.exIdOf 2, ⟨7, _, _, ⟨by decide, .single ⟨_, rfl, by decide, by decide, by decide +kernel⟩⟩, rfl, rfl, rfl⟩,
      by simp, idOf_ok.1 rfl⟩
  have u43 : Uses exDepsLoop [2, 3, 4] 4 3 :=
    ⟨Depends.exIdOf 1, ⟨6, _, _, ⟨by decide, .single ⟨_, rfl, by decide, by decide, by decide +kernel⟩⟩, rfl, rfl, rfl⟩,
      by simp, idOf_ok.1 rfl⟩
  have u23 : Uses exDepsLoop [2, 3, 4] 2 3 :=
    ⟨Depends.exIdOf 1, ⟨6, _, _, ⟨by decide, .tail (.single ⟨_, rfl, by decide, by decide, by decide +kernel⟩)
      (b := 5) ⟨_, rfl, by decide, by decide, by decide +kernel⟩⟩, rfl, rfl, rfl⟩, by simp, idOf_ok.1 rfl⟩
  have : ∀ a, Acc (fun b a => Uses exDepsLoop [2, 3, 4] a b) a → a ≠ 3 ∧ a ≠ 4 := by
    intro a ha
    induction ha with
    | intro a _ ih =>
      refine ⟨?_, ?_⟩
      · rintro rfl; exact (ih 4 u34).2 rfl
      · rintro rfl; exact (ih 3 u43).1 rfl
  exact (this 3 (hacc.inv u23)).1 rfl

/-- `C82_no_bin`, `C82_unsearchable`: the content is a mob. -/
example : ClipIn (exDeps fun _ => none) 3 (Depends.exIdOf 2) ∧ (walkObj (exDeps fun _ => none) 10 3).err = none ∧
    ∀ i, find ⟨exDeps fun _ => none, 10, 2⟩ i = .error .attribute :=
  ⟨⟨7, _, _, ⟨by decide, .single ⟨_, rfl, by decide, by decide, by decide +kernel⟩⟩, rfl, rfl, rfl⟩, by decide +kernel,
    fun _ => rfl⟩

end Avb.FileDeps

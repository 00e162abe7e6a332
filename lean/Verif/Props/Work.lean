import Verif.Model.Work
import Verif.Props.Editing

/-
C51: opening a file, working on it in any way, and saving it.
-/

namespace Avb.Work

/-- The content last given to an object by a creation or an edit. -/
def assigned (i : Nat) : List Event → Option Obj
  | [] => none
  | e :: es =>
    match assigned i es with
    | some o => some o
    | none =>
      match e with
      | .new j o => if j = i then some o else none
      | .edit j o => if j = i then some o else none
      | _ => none

/-- The ids of created and edited objects. -/
def touched (es : List Event) : List Nat :=
  es.filterMap fun
    | .new i _ => some i
    | .edit i _ => some i
    | _ => none

/-- What an object has to be: what it was last assigned, and otherwise what the file has. -/
def current (f : AvbFile) (es : List Event) (i : Nat) : Except Err (Option Obj) :=
  match assigned i es with
  | some o => .ok (some o)
  | none => readObject f i

theorem assigned_snoc {i : Nat} {es : List Event} {e : Event} :
    assigned i (es ++ [e]) = match e with
      | .new j o => if j = i then some o else assigned i es
      | .edit j o => if j = i then some o else assigned i es
      | _ => assigned i es := by
  induction es with
  | nil => cases e <;> rfl
  | cons a es ih =>
    simp only [List.cons_append, assigned, ih]
    cases e with
    | look => rfl
    | collect => rfl
    | new j o => by_cases h : j = i <;> simp [h]
    | edit j o => by_cases h : j = i <;> simp [h]

theorem assigned_touched {i : Nat} {es : List Event} : assigned i es ≠ none ↔ i ∈ touched es := by
  induction es with
  | nil => simp [assigned, touched]
  | cons a es ih =>
    cases a with
    | look j =>
      have h1 : assigned i (.look j :: es) = match assigned i es with
        | some o => some o
        | none => none := rfl
      rw [h1, show touched (.look j :: es) = touched es from rfl, ← ih]
      cases assigned i es <;> simp
    | collect =>
      have h1 : assigned i (.collect :: es) = match assigned i es with
        | some o => some o
        | none => none := rfl
      rw [h1, show touched (.collect :: es) = touched es from rfl, ← ih]
      cases assigned i es <;> simp
    | new j o =>
      have h1 : assigned i (.new j o :: es) = match assigned i es with
        | some o => some o
        | none => if j = i then some o else none := rfl
      rw [h1, show touched (.new j o :: es) = j :: touched es from rfl, List.mem_cons, ← ih]
      cases assigned i es <;> simp [eq_comm]
    | edit j o =>
      have h1 : assigned i (.edit j o :: es) = match assigned i es with
        | some o => some o
        | none => if j = i then some o else none := rfl
      rw [h1, show touched (.edit j o :: es) = j :: touched es from rfl, List.mem_cons, ← ih]
      cases assigned i es <;> simp [eq_comm]

/-- What holds at every moment. -/
structure Inv (f : AvbFile) (es : List Event) (s : St) : Prop where
  cache : ∀ i l, s.cache i = some l → Exists s l ∧ (s.objs l).1 = i
  exist : ∀ l, Exists s l → s.cache (s.objs l).1 = some l
  gone : ∀ l ∈ s.gone, l < s.fresh
  modified : ∀ i l, s.modified i = some l → Exists s l ∧ (s.objs l).1 = i
  mark : ∀ i, s.modified i = none ↔ assigned i es = none
  content : ∀ l, Exists s l → current f es (s.objs l).1 = .ok (some (s.objs l).2)
  bound : ∀ l, Exists s l → 0 < (s.objs l).1 ∧ (s.objs l).1 ≤ s.next
  size : f.positions.length ≤ s.next
  small : ∀ i, assigned i es ≠ none → i ≤ s.next

theorem Inv.start (f : AvbFile) (o : Obj) : Inv f [] (start f o) where
  cache := by intro i l h; cases h
  exist := by intro l h; exact absurd h.1 (Nat.not_lt_zero _)
  gone := by intro l h; cases h
  modified := by intro i l h; cases h
  mark := by intro i; simp [Work.start, assigned]
  content := by intro l h; exact absurd h.1 (Nat.not_lt_zero _)
  bound := by intro l h; exact absurd h.1 (Nat.not_lt_zero _)
  size := Nat.le_refl _
  small := by intro i h; exact absurd rfl h

theorem readObject_bound {f : AvbFile} {i : Nat} {o : Obj} (h : readObject f i = .ok (some o)) :
    0 < i ∧ i ≤ f.positions.length := by
  obtain ⟨h0, h1, _⟩ := readObject_readAs h
  omega

theorem Inv.step {f : AvbFile} {es : List Event} {s s' : St} {e : Event} (h : Inv f es s)
    (hs : Step f s e s') : Inv f (es ++ [e]) s' := by
  cases hs with
  | look i =>
    have hc : ∀ j, current f (es ++ [.look i]) j = current f es j := by
      intro j; unfold current; rw [assigned_snoc]
    have ha : ∀ j, assigned j (es ++ [.look i]) = assigned j es := fun j => assigned_snoc
    unfold look
    split
    · exact ⟨h.cache, h.exist, h.gone, h.modified, by simpa [ha] using h.mark, by simpa [hc] using h.content,
        h.bound, h.size, by simpa [ha] using h.small⟩
    · next hi0 =>
      split
      · exact ⟨h.cache, h.exist, h.gone, h.modified, by simpa [ha] using h.mark, by simpa [hc] using h.content,
          h.bound, h.size, by simpa [ha] using h.small⟩
      · next hn =>
        split
        · exact ⟨h.cache, h.exist, h.gone, h.modified, by simpa [ha] using h.mark,
            by simpa [hc] using h.content, h.bound, h.size, by simpa [ha] using h.small⟩
        · exact ⟨h.cache, h.exist, h.gone, h.modified, by simpa [ha] using h.mark,
            by simpa [hc] using h.content, h.bound, h.size, by simpa [ha] using h.small⟩
        · next o ho =>
          have hm : s.modified i = none := by
            cases hm : s.modified i with
            | none => rfl
            | some l =>
              obtain ⟨h1, h2⟩ := h.modified i l hm
              have := h.exist l h1
              rw [h2, hn] at this; cases this
          have hfr : ∀ l, Exists s l → l ≠ s.fresh := fun l hl e => absurd hl.1 (by omega)
          have hex : ∀ l, Exists { alloc s i o with cache := put s.cache i s.fresh } l ↔
              l = s.fresh ∨ Exists s l := by
            intro l
            unfold Exists
            show l < s.fresh + 1 ∧ l ∉ s.gone ↔ _
            constructor
            · rintro ⟨h1, h2⟩
              by_cases hl : l = s.fresh
              · exact .inl hl
              · exact .inr ⟨by omega, h2⟩
            · rintro (rfl | ⟨h1, h2⟩)
              · exact ⟨by omega, fun hg => by have := h.gone _ hg; omega⟩
              · exact ⟨by omega, h2⟩
          have hb := readObject_bound ho
          have hobj : ∀ l, Exists s l → (alloc s i o).objs l = s.objs l := by
            intro l hl; simp [alloc, hfr l hl]
          have hnew : (alloc s i o).objs s.fresh = (i, o) := by simp [alloc]
          refine ⟨?_, ?_, ?_, ?_, ?_, ?_, ?_, h.size, fun j hj => h.small j (by rwa [ha] at hj)⟩
          · intro j l hj
            change put s.cache i s.fresh j = some l at hj
            unfold put at hj
            rw [hex]
            show _ ∧ ((alloc s i o).objs l).1 = j
            split at hj
            · next e => cases hj; exact ⟨.inl rfl, by rw [hnew, e]⟩
            · obtain ⟨h1, h2⟩ := h.cache j l hj
              exact ⟨.inr h1, by rw [hobj l h1, h2]⟩
          · intro l hl
            show put s.cache i s.fresh ((alloc s i o).objs l).1 = some l
            rcases (hex l).1 hl with rfl | hl
            · rw [hnew]; simp [put]
            · rw [hobj l hl]
              have h1 := h.exist l hl
              unfold put
              rw [if_neg (by rintro e; rw [e, hn] at h1; cases h1), h1]
          · intro l hl
            have := h.gone l hl
            show l < s.fresh + 1
            omega
          · intro j l hj
            obtain ⟨h1, h2⟩ := h.modified j l hj
            exact ⟨(hex l).2 (.inr h1), by show ((alloc s i o).objs l).1 = j; rw [hobj l h1, h2]⟩
          · intro j; rw [ha]; exact h.mark j
          · intro l hl
            rw [hc]
            show current f es ((alloc s i o).objs l).1 = .ok (some ((alloc s i o).objs l).2)
            rcases (hex l).1 hl with rfl | hl
            · rw [hnew]
              unfold current
              rw [(h.mark i).1 hm]
              exact ho
            · rw [hobj l hl]; exact h.content l hl
          · intro l hl
            show 0 < ((alloc s i o).objs l).1 ∧ ((alloc s i o).objs l).1 ≤ s.next
            rcases (hex l).1 hl with rfl | hl
            · rw [hnew]
              have := h.size
              exact ⟨hb.1, by show i ≤ s.next; omega⟩
            · rw [hobj l hl]; exact h.bound l hl
  | new o =>
    have hfr : ∀ l, Exists s l → l ≠ s.fresh := fun l hl e => absurd hl.1 (by omega)
    have hex : ∀ l, Exists (create s o) l ↔ l = s.fresh ∨ Exists s l := by
      intro l
      unfold Exists
      show l < s.fresh + 1 ∧ l ∉ s.gone ↔ _
      constructor
      · rintro ⟨h1, h2⟩
        by_cases hl : l = s.fresh
        · exact .inl hl
        · exact .inr ⟨by omega, h2⟩
      · rintro (rfl | ⟨h1, h2⟩)
        · exact ⟨by omega, fun hg => by have := h.gone _ hg; omega⟩
        · exact ⟨by omega, h2⟩
    have hobj : ∀ l, Exists s l → (create s o).objs l = s.objs l := by
      intro l hl; simp [create, alloc, hfr l hl]
    have hnew : (create s o).objs s.fresh = (s.next + 1, o) := by simp [create, alloc]
    have hne : ∀ l, Exists s l → (s.objs l).1 ≠ s.next + 1 := by
      intro l hl e; have := (h.bound l hl).2; omega
    refine ⟨?_, ?_, ?_, ?_, ?_, ?_, ?_, ?_, ?_⟩
    · intro j l hj
      change put s.cache (s.next + 1) s.fresh j = some l at hj
      unfold put at hj
      rw [hex]
      split at hj
      · next e => cases hj; exact ⟨.inl rfl, by rw [hnew, e]⟩
      · obtain ⟨h1, h2⟩ := h.cache j l hj
        exact ⟨.inr h1, by rw [hobj l h1, h2]⟩
    · intro l hl
      show put s.cache (s.next + 1) s.fresh ((create s o).objs l).1 = some l
      rcases (hex l).1 hl with rfl | hl
      · rw [hnew]; simp [put]
      · rw [hobj l hl]
        unfold put
        rw [if_neg (hne l hl), h.exist l hl]
    · intro l hl
      have := h.gone l hl
      show l < s.fresh + 1
      omega
    · intro j l hj
      change put s.modified (s.next + 1) s.fresh j = some l at hj
      unfold put at hj
      rw [hex]
      split at hj
      · next e => cases hj; exact ⟨.inl rfl, by rw [hnew, e]⟩
      · obtain ⟨h1, h2⟩ := h.modified j l hj
        exact ⟨.inr h1, by rw [hobj l h1, h2]⟩
    · intro j
      rw [assigned_snoc]
      show put s.modified (s.next + 1) s.fresh j = none ↔ _
      unfold put
      by_cases e : j = s.next + 1
      · simp [e]
      · simp [e, Ne.symm e, h.mark]
    · intro l hl
      unfold current
      rw [assigned_snoc]
      rcases (hex l).1 hl with rfl | hl
      · rw [hnew]; simp
      · rw [hobj l hl]
        have := h.content l hl
        simp only [Ne.symm (hne l hl), if_false]
        exact this
    · intro l hl
      show _ ∧ _ ≤ s.next + 1
      rcases (hex l).1 hl with rfl | hl
      · rw [hnew]; exact ⟨Nat.succ_pos _, Nat.le_refl _⟩
      · rw [hobj l hl]
        have := h.bound l hl
        exact ⟨this.1, by omega⟩
    · have := h.size
      show _ ≤ s.next + 1
      omega
    · intro j hj
      show j ≤ s.next + 1
      rw [assigned_snoc] at hj
      by_cases e : s.next + 1 = j
      · omega
      · simp only [e, if_false] at hj
        have := h.small j hj
        omega
  | edit l o hl =>
    have hex : ∀ l', Exists (edit s l o) l' ↔ Exists s l' := fun _ => Iff.rfl
    have hid : ∀ l', ((edit s l o).objs l').1 = (s.objs l').1 := by
      intro l'
      unfold edit
      dsimp only
      split
      · next e => rw [e]
      · rfl
    have huniq : ∀ l', Exists s l' → (s.objs l').1 = (s.objs l).1 → l' = l := by
      intro l' h' e
      have h1 := h.exist l' h'
      rw [e, h.exist l hl] at h1
      exact (Option.some.inj h1).symm
    refine ⟨?_, ?_, h.gone, ?_, ?_, ?_, ?_, h.size, ?_⟩
    · intro j l' hj
      rw [hex, hid]
      exact h.cache j l' hj
    · intro l' h'
      rw [hid]
      exact h.exist l' h'
    · intro j l' hj
      rw [hex, hid]
      change put s.modified (s.objs l).1 l j = some l' at hj
      unfold put at hj
      split at hj
      · next e => cases hj; exact ⟨hl, e.symm⟩
      · exact h.modified j l' hj
    · intro j
      rw [assigned_snoc]
      show put s.modified (s.objs l).1 l j = none ↔ _
      unfold put
      by_cases e : j = (s.objs l).1
      · simp [e]
      · simp [e, Ne.symm e, h.mark]
    · intro l' h'
      rw [hid]
      unfold current
      rw [assigned_snoc]
      by_cases e : l' = l
      · subst e
        simp [edit]
      · have hne : (s.objs l).1 ≠ (s.objs l').1 := fun e' => e (huniq l' h' e'.symm)
        have : (edit s l o).objs l' = s.objs l' := by simp [edit, e]
        rw [this]
        simp only [hne, if_false]
        exact h.content l' h'
    · intro l' h'
      rw [hid]
      exact h.bound l' h'
    · intro j hj
      rw [assigned_snoc] at hj
      by_cases e : (s.objs l).1 = j
      · rw [← e]; exact (h.bound l hl).2
      · simp only [e, if_false] at hj
        exact h.small j hj
  | collect g hg =>
    have hc : ∀ j, current f (es ++ [.collect]) j = current f es j := by
      intro j; unfold current; rw [assigned_snoc]
    have ha : ∀ j, assigned j (es ++ [.collect]) = assigned j es := fun j => assigned_snoc
    have hex : ∀ l, Exists (collect s g) l ↔ Exists s l ∧ l ∉ g := by
      intro l
      unfold Exists
      show l < s.fresh ∧ l ∉ g ++ s.gone ↔ _
      rw [List.mem_append, not_or]
      tauto
    have hca : ∀ i l, (collect s g).cache i = some l ↔ s.cache i = some l ∧ l ∉ g := by
      intro i l
      unfold collect
      dsimp only
      cases s.cache i with
      | none => simp
      | some l' =>
        by_cases hm : l' ∈ g
        · simp only [hm, if_true, reduceCtorEq, Option.some.injEq, false_iff]
          rintro ⟨rfl, h⟩; exact h hm
        · simp only [hm, if_false, Option.some.injEq]
          constructor
          · rintro rfl; exact ⟨rfl, hm⟩
          · exact fun h => h.1
    refine ⟨?_, ?_, ?_, ?_, ?_, ?_, ?_, h.size, fun j hj => h.small j (by rwa [ha] at hj)⟩
    · intro i l hi
      obtain ⟨h1, h2⟩ := (hca i l).1 hi
      obtain ⟨h3, h4⟩ := h.cache i l h1
      exact ⟨(hex l).2 ⟨h3, h2⟩, h4⟩
    · intro l hl
      obtain ⟨h1, h2⟩ := (hex l).1 hl
      exact (hca _ l).2 ⟨h.exist l h1, h2⟩
    · intro l hl
      rcases List.mem_append.1 hl with h1 | h1
      · exact (hg l h1).1.1
      · exact h.gone l h1
    · intro i l hi
      obtain ⟨h1, h2⟩ := h.modified i l hi
      exact ⟨(hex l).2 ⟨h1, fun hm => (hg l hm).2 i hi⟩, h2⟩
    · intro i; rw [ha]; exact h.mark i
    · intro l hl; rw [hc]; exact h.content l ((hex l).1 hl).1
    · intro l hl; exact h.bound l ((hex l).1 hl).1

theorem Inv.run {f : AvbFile} {o : Obj} {es : List Event} {s : St} (h : Run f (Work.start f o) es s) :
    Inv f es s := by
  induction h with
  | nil => exact .start f o
  | snoc _ h2 ih => exact ih.step h2

/-- C51: at any moment a lookup gives the content last assigned, and the content in the file if there is
none; what has been collected, looked up or created in between makes no difference. -/
theorem C51_look {f : AvbFile} {o₀ : Obj} {es : List Event} {s : St} (h : Run f (start f o₀) es s)
    {i : Nat} (hi : i ≠ 0) :
    match (look f s i), current f es i with
    | (.ok (some l), s'), .ok (some o) => s'.objs l = (i, o)
    | (.error e, _), .error e' => e = e'
    | _, _ => False := by
  have hv := Inv.run h
  unfold look
  rw [if_neg hi]
  cases hc : s.cache i with
  | some l =>
    obtain ⟨h1, h2⟩ := hv.cache i l hc
    have h3 := hv.content l h1
    rw [h2] at h3
    simp only [h3]
    rw [← h2]
  | none =>
    have hm : assigned i es = none := by
      rw [← hv.mark]
      cases hm : s.modified i with
      | none => rfl
      | some l =>
        obtain ⟨h1, h2⟩ := hv.modified i l hm
        have := hv.exist l h1
        rw [h2, hc] at this; cases this
    have : current f es i = readObject f i := by unfold current; rw [hm]
    rw [this]
    cases ho : readObject f i with
    | error e => simp
    | ok r =>
      cases r with
      | some o => simp [alloc]
      | none =>
        exfalso
        unfold readObject at ho
        rw [if_neg hi] at ho
        repeat' (first | split at ho | cases ho)

/-- The objects as they have to be saved. -/
def wanted (f : AvbFile) (order : Nat → Obj → List Visit) (es : List Event) : Heap := fun r =>
  match assigned r es with
  | some o => .ok ⟨r, true, o, order r o⟩
  | none => fileHeap f r

theorem heap_eq {f : AvbFile} {o₀ : Obj} {es : List Event} {s : St} (h : Run f (start f o₀) es s)
    (order : Nat → Obj → List Visit) : heap f order s = wanted f order es := by
  have hv := Inv.run h
  funext r
  unfold heap wanted
  cases hc : s.cache r with
  | some l =>
    obtain ⟨h1, h2⟩ := hv.cache r l hc
    have h3 := hv.content l h1
    rw [h2] at h3
    unfold current at h3
    dsimp only
    cases ha : assigned r es with
    | none =>
      rw [ha] at h3
      rw [if_pos ((hv.mark r).2 ha)]
      dsimp only at h3 ⊢
      unfold fileHeap
      rw [h3]
    | some o =>
      rw [ha] at h3
      have h3 : o = (s.objs l).2 := by simpa using h3
      have hm : s.modified r ≠ none := by rw [ne_eq, hv.mark, ha]; simp
      rw [if_neg hm, ← h3]
  | none =>
    have hm : assigned r es = none := by
      rw [← hv.mark]
      cases hm : s.modified r with
      | none => rfl
      | some l =>
        obtain ⟨h1, h2⟩ := hv.modified r l hm
        have := hv.exist l h1
        rw [h2, hc] at this; cases this
    rw [hm]
    dsimp only
    unfold fileHeap
    cases readObject f r with
    | error e => rfl
    | ok x => cases x <;> rfl

/-- C51: which objects were looked up, and what was collected when, makes no difference to the bytes saved:
two histories with the same last assignments give the same file. -/
theorem C51_same_bytes {f : AvbFile} {o₀ o₁ : Obj} {es es' : List Event} {s s' : St}
    (h : Run f (start f o₀) es s) (h' : Run f (start f o₁) es' s')
    (ha : ∀ i, assigned i es = assigned i es') (order : Nat → Obj → List Visit) (fuel : Nat) (bo : BO)
    (hd : HeaderInfo) (root : Ref) :
    save (heap f order s) fuel bo hd root = save (heap f order s') fuel bo hd root := by
  have : wanted f order es = wanted f order es' := by funext r; unfold wanted; rw [ha]
  rw [heap_eq h, heap_eq h', this]

/-- `C51_save` for any table of objects that is not larger than it says (an empty one for a new file). -/
theorem work_saves {f : AvbFile} (hpos : f.positions.length ≤ f.header.num_objects + 1) {o₀ : Obj}
    {es : List Event} {s : St} (h : Run f (start f o₀) es s) {root : Ref}
    {order : Nat → Obj → List Visit} (horder : ∀ i o v, v ∈ order i o ↔ v ∈ o.visits)
    (hedit : ∀ i o, assigned i es = some o → Reach (wanted f order es) root i →
      o.cls ≠ .TRKG ∧ o.cls ≠ .DATD ∧ o.Readable ∧ o.Stored ∧
      ∃ c out, o.write c = .ok ((), out) ∧ out.length < 2 ^ 32)
    (hfile : ∀ i, assigned i es = none → Reach (wanted f order es) root i →
      ∃ o, readObject f i = .ok (some o) ∧ o.Keeps)
    (rank : Ref → Nat)
    (hrank : ∀ a b, Reach (wanted f order es) root a → Edge (wanted f order es) a b → rank b < rank a)
    (hcount : (touched es).length + f.header.num_objects < 2 ^ 32)
    {bo : BO} {hd : HeaderInfo} {pre post : Bytes} (ht : TextOK .macroman hd.last_save_str)
    (hpre : (writeHeaderPre bo hd).bytes = .ok pre) (hpost : (writeHeaderPost bo hd).bytes = .ok post) :
    ∃ fuel₀, ∀ fuel ≥ fuel₀, ∃ bytes' f' num, save (heap f order s) fuel bo hd root = .ok bytes' ∧
      openTable bytes' = .ok f' ∧ Holds f' (wanted f order es) root num := by
  rw [heap_eq h]
  have hw : ∀ a e, wanted f order es a = .ok e → e.iid = a ∧ ∀ v, v ∈ e.visits ↔ v ∈ e.obj.visits := by
    intro a e he
    unfold wanted at he
    cases ha : assigned a es with
    | some o =>
      rw [ha] at he
      cases he
      exact ⟨rfl, horder a o⟩
    | none =>
      rw [ha] at he
      dsimp only at he
      refine ⟨?_, fileHeap_ok f a e he⟩
      unfold fileHeap at he
      split at he <;> cases he
      rfl
  refine edit_saves hpos (edited := touched es) (fun a e he => (hw a e he).2) ?_ ?_ ?_ ?_ ?_ rank hrank hcount
    ht hpre hpost
  · intro a b ea eb _ _ ha hb hab
    rw [(hw a ea ha).1, (hw b eb hb).1] at hab
    exact hab
  · intro a e ha hra he
    obtain ⟨o, h1⟩ := Option.ne_none_iff_exists'.1 (assigned_touched.2 ha)
    unfold wanted at he
    rw [h1] at he
    cases he
    obtain ⟨k1, k2, k3, k4, k5⟩ := hedit a o h1 hra
    exact ⟨rfl, ⟨k1, k2⟩, k3, k4, k5⟩
  · intro a ha
    have : assigned a es = none := by
      by_contra h1
      exact ha (assigned_touched.1 h1)
    unfold wanted
    rw [this]
  · intro a o ha hr hro
    have h1 : assigned a es = none := by
      by_contra h1
      exact ha (assigned_touched.1 h1)
    obtain ⟨o', h2, h3⟩ := hfile a h1 hr
    rw [hro] at h2
    cases h2
    exact h3
  · intro a ha
    unfold wanted
    cases h1 : assigned a es with
    | some o => exact ⟨_, rfl⟩
    | none =>
      obtain ⟨o, h2, _⟩ := hfile a h1 ha
      exact ⟨_, by unfold fileHeap; dsimp only; rw [h2]⟩

/-- C51: opening a file, any history of lookups, creations, reported edits and garbage collections, and a
save: if what is to be saved meets the conditions (no cycles; edited and created objects can be written;
the others were loaded from the file and can be saved again), the save succeeds and the saved file holds
exactly the objects reachable from `root`, each with the content it was last assigned, or if there was no
assignment with the content it has in the file, but for renumbered references. -/
theorem C51_save {bytes : Bytes} {f : AvbFile} (ho : openTable bytes = .ok f) {o₀ : Obj}
    {es : List Event} {s : St} (h : Run f (start f o₀) es s) {root : Ref}
    {order : Nat → Obj → List Visit} (horder : ∀ i o v, v ∈ order i o ↔ v ∈ o.visits)
    (hedit : ∀ i o, assigned i es = some o → Reach (wanted f order es) root i →
      o.cls ≠ .TRKG ∧ o.cls ≠ .DATD ∧ o.Readable ∧ o.Stored ∧
      ∃ c out, o.write c = .ok ((), out) ∧ out.length < 2 ^ 32)
    (hfile : ∀ i, assigned i es = none → Reach (wanted f order es) root i →
      ∃ o, readObject f i = .ok (some o) ∧ o.Keeps)
    (rank : Ref → Nat)
    (hrank : ∀ a b, Reach (wanted f order es) root a → Edge (wanted f order es) a b → rank b < rank a)
    (hcount : (touched es).length + f.header.num_objects < 2 ^ 32)
    {bo : BO} {hd : HeaderInfo} {pre post : Bytes} (ht : TextOK .macroman hd.last_save_str)
    (hpre : (writeHeaderPre bo hd).bytes = .ok pre) (hpost : (writeHeaderPost bo hd).bytes = .ok post) :
    ∃ fuel₀, ∀ fuel ≥ fuel₀, ∃ bytes' f' num, save (heap f order s) fuel bo hd root = .ok bytes' ∧
      openTable bytes' = .ok f' ∧ Holds f' (wanted f order es) root num :=
  work_saves (openTable_length ho).le h horder hedit hfile rank hrank hcount ht hpre hpost

/-- The sequence after the edit: the second gap is replaced by a new one. -/
def exSeqW : Obj := .SEQU { toComponent := exComp ['V', '1', 'b'], components := [1, 2, 5] }

/-- The history: the sequence is looked up, a gap is made, the sequence is edited, the first gap is looked
up and collected. -/
def exHistory : List Event :=
  [.look 3, .new 5 exFillE, .edit 3 exSeqW, .look 1, .collect]

theorem exHistory_run {f : AvbFile} (f1 : readObject f 1 = .ok (some exFill))
    (f3 : readObject f 3 = .ok (some exSeqF)) (hp : f.positions.length = 4) :
    ∃ s, Run f (start f exFill) exHistory s := by
  have h0 : Run f (start f exFill) [] (start f exFill) := .nil _
  have e1 : (look f (start f exFill) 3).2 =
      { alloc (start f exFill) 3 exSeqF with cache := put (start f exFill).cache 3 0 } := by
    simp [look, f3, start]
  have h1 := h0.snoc (.look _ 3)
  rw [e1] at h1
  have h2 := h1.snoc (.new _ exFillE)
  have h3 := h2.snoc (.edit _ 0 exSeqW ⟨by simp [create, alloc], by simp [create, alloc, start]⟩)
  have h4 := h3.snoc (.look _ 1)
  have h5 := h4.snoc (.collect _ [2] (by
    intro l hl
    simp only [List.mem_singleton] at hl
    subst hl
    constructor
    · simp [look, edit, create, alloc, start, put, f1, hp, Exists]
    · intro i
      simp only [look, edit, create, alloc, start, put, f1, hp]
      simp
      unfold put
      split
      · simp
      · split <;> simp))
  exact ⟨_, by
    have e : exHistory = [] ++ [Event.look 3] ++ [Event.new (f.positions.length + 1) exFillE] ++
      [Event.edit 3 exSeqW] ++ [Event.look 1] ++ [Event.collect] := by rw [hp]; rfl
    rw [e]
    exact h5⟩

/-- What this history gives meets the conditions of `C51_save`. -/
theorem exHistory_meets {f : AvbFile} (f1 : readObject f 1 = .ok (some exFill))
    (f2 : readObject f 2 = .ok (some exClip)) (hn : f.header.num_objects = 3) :
    (∀ i o, assigned i exHistory = some o → o.cls ≠ .TRKG ∧ o.cls ≠ .DATD ∧ o.Readable ∧ o.Stored ∧
      ∃ c out, o.write c = .ok ((), out) ∧ out.length < 2 ^ 32) ∧
    (∀ i, assigned i exHistory = none → Reach (wanted f (fun _ => Obj.visits) exHistory) 3 i →
      ∃ o, readObject f i = .ok (some o) ∧ o.Keeps) ∧
    (∀ a b, Reach (wanted f (fun _ => Obj.visits) exHistory) 3 a →
      Edge (wanted f (fun _ => Obj.visits) exHistory) a b →
      (fun r : Ref => if r = 3 then 1 else 0) b < (fun r : Ref => if r = 3 then 1 else 0) a) ∧
    (touched exHistory).length + f.header.num_objects < 2 ^ 32 ∧
    Reach (wanted f (fun _ => Obj.visits) exHistory) 3 1 := by
  have asg : ∀ i, assigned i exHistory =
      if i = 3 then some exSeqW else if i = 5 then some exFillE else none := by
    intro i
    simp only [exHistory, assigned]
    by_cases h3 : i = 3
    · simp [h3]
    · by_cases h5 : i = 5
      · simp [h5]
      · simp [h3, h5, Ne.symm h3, Ne.symm h5]
  have g1 : wanted f (fun _ => Obj.visits) exHistory 1 = .ok ⟨1, true, exFill, exFill.visits⟩ := by
    simp [wanted, asg, fileHeap, f1]
  have g2 : wanted f (fun _ => Obj.visits) exHistory 2 = .ok ⟨2, true, exClip, exClip.visits⟩ := by
    simp [wanted, asg, fileHeap, f2]
  have g3 : wanted f (fun _ => Obj.visits) exHistory 3 = .ok ⟨3, true, exSeqW, exSeqW.visits⟩ := by
    simp [wanted, asg]
  have g5 : wanted f (fun _ => Obj.visits) exHistory 5 = .ok ⟨5, true, exFillE, exFillE.visits⟩ := by
    simp [wanted, asg]
  have step : ∀ a b, a = 1 ∨ a = 2 ∨ a = 3 ∨ a = 5 → Edge (wanted f (fun _ => Obj.visits) exHistory) a b →
      a = 3 ∧ (b = 1 ∨ b = 2 ∨ b = 5) := by
    rintro a b h ⟨e, he, _, hb, v, hv, rfl⟩
    rcases h with rfl | rfl | rfl | rfl
    · rw [g1] at he; cases he
      have : ∀ v ∈ exFill.visits, v.ref = 0 := by decide
      exact absurd (this v hv) hb
    · rw [g2] at he; cases he
      have : ∀ v ∈ exClip.visits, v.ref = 0 := by decide
      exact absurd (this v hv) hb
    · rw [g3] at he; cases he
      have : ∀ v ∈ exSeqW.visits, v.ref ≠ 0 → v.ref = 1 ∨ v.ref = 2 ∨ v.ref = 5 := by decide
      exact ⟨rfl, this v hv hb⟩
    · rw [g5] at he; cases he
      have : ∀ v ∈ exFillE.visits, v.ref = 0 := by decide
      exact absurd (this v hv) hb
  have reach : ∀ a, Reach (wanted f (fun _ => Obj.visits) exHistory) 3 a → a = 1 ∨ a = 2 ∨ a = 3 ∨ a = 5 := by
    rintro a ⟨_, ha⟩
    induction ha with
    | refl => exact .inr (.inr (.inl rfl))
    | tail _ hbc ih =>
      obtain ⟨_, _, h0, _⟩ := id hbc
      rcases (step _ _ (ih h0) hbc).2 with h | h | h
      · exact .inl h
      · exact .inr (.inl h)
      · exact .inr (.inr (.inr h))
  refine ⟨?_, ?_, ?_, ?_, ?_⟩
  · intro i o ho
    rw [asg] at ho
    split at ho
    · cases ho
      refine ⟨by decide, by decide, textsOK_short (by decide), ?_, ⟨.little, fun _ => some 1⟩, _, rfl,
        by decide⟩
      refine ⟨?_, ?_, by simp [exSeqW, exComp, Obj.Shape, Component.Stored]⟩
      · show ∀ p ∈ exSeqW.texts, stripText p.2 = p.2
        decide
      · simp [exSeqW, Obj.rates, Component.rates, exComp, exComp_rate, Stable]
    · split at ho
      · cases ho
        have k := exFillE_keeps
        exact ⟨k.plain.1, k.plain.2, k.readable, k.stored, k.saves⟩
      · cases ho
  · intro i hi hri
    rw [asg] at hi
    rcases reach i hri with rfl | rfl | rfl | rfl
    · exact ⟨_, f1, exFill_keeps⟩
    · exact ⟨_, f2, exClip_keeps⟩
    · simp at hi
    · simp at hi
  · intro a b ha hab
    obtain ⟨rfl, rfl | rfl | rfl⟩ := step a b (reach a ha) hab <;> decide
  · rw [hn]; decide
  · refine ⟨by decide, .single ⟨_, g3, by decide, by decide, ?_⟩⟩
    have : ∃ v ∈ exSeqW.visits, v.ref = 1 := by decide
    exact this

/-- The hypotheses can be met by the example file and this history. -/
example (bo : BO) : ∃ bytes f s, openTable bytes = .ok f ∧ Run f (start f exFill) exHistory s ∧
    ∃ fuel₀, ∀ fuel ≥ fuel₀, ∃ bytes' f' num,
      save (heap f (fun _ => Obj.visits) s) fuel bo exInfo 3 = .ok bytes' ∧ openTable bytes' = .ok f' ∧
      Holds f' (wanted f (fun _ => Obj.visits) exHistory) 3 num := by
  obtain ⟨bytes, f, _, hf, f1, f2, f3, hr, hn, hp⟩ := exFile_ok bo
  obtain ⟨pre, hpre⟩ := exInfo_pre bo
  obtain ⟨post, hpost⟩ := exInfo_post bo
  obtain ⟨s, hs⟩ := exHistory_run f1 f3 hp
  obtain ⟨m1, m2, m3, m4, _⟩ := exHistory_meets f1 f2 hn
  exact ⟨bytes, f, s, hf, hs, C51_save hf hs (fun _ _ _ => Iff.rfl) (fun i o h _ => m1 i o h) m2 _ m3 m4 exInfo_ok hpre hpost⟩

end Avb.Work

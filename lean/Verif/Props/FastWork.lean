import Verif.Model.FastWork
import Verif.Props.FastSave
import Verif.Props.Work

/-
C76: working on a file that was opened with the accelerated readers, and saving it.
-/

namespace Avb.FastWork

open Relation
open Work (Event assigned touched assigned_snoc assigned_touched put)

/-- What an object has to be: what it was last assigned, and otherwise what the accelerated reader makes of
its chunk. -/
def Is (f : AvbFile) (es : List Event) (i : Nat) (e : Entry) : Prop :=
  match assigned i es with
  | some o => e.obj = o
  | none => Fast.fileHeap f i = .ok e

/-- What holds at every moment. -/
structure Inv (f : AvbFile) (es : List Event) (s : St) : Prop where
  cache : ∀ i l, s.cache i = some l → Exists s l ∧ (s.objs l).iid = i
  exist : ∀ l, Exists s l → s.cache (s.objs l).iid = some l
  gone : ∀ l ∈ s.gone, l < s.fresh
  modified : ∀ i l, s.modified i = some l → Exists s l ∧ (s.objs l).iid = i
  mark : ∀ i, s.modified i = none ↔ assigned i es = none
  content : ∀ l, Exists s l → Is f es (s.objs l).iid (s.objs l)
  bound : ∀ l, Exists s l → 0 < (s.objs l).iid ∧ (s.objs l).iid ≤ s.next
  size : f.positions.length ≤ s.next
  small : ∀ i, assigned i es ≠ none → i ≤ s.next

theorem Inv.start (f : AvbFile) (x : Entry) : Inv f [] (start f x) where
  cache := by intro i l h; cases h
  exist := by intro l h; exact absurd h.1 (Nat.not_lt_zero _)
  gone := by intro l h; cases h
  modified := by intro i l h; cases h
  mark := by intro i; simp [FastWork.start, assigned]
  content := by intro l h; exact absurd h.1 (Nat.not_lt_zero _)
  bound := by intro l h; exact absurd h.1 (Nat.not_lt_zero _)
  size := Nat.le_refl _
  small := by intro i h; exact absurd rfl h

theorem fileHeap_bound {f : AvbFile} {i : Nat} {e : Entry} (h : Fast.fileHeap f i = .ok e) :
    0 < i ∧ i ≤ f.positions.length := by
  unfold Fast.fileHeap at h
  split at h
  · next l hl =>
    unfold Fast.readObject at hl
    split at hl
    · cases hl
    · next h0 =>
      split at hl
      · cases hl
      · next pos hp =>
        have := (List.getElem?_eq_some_iff.1 hp).1
        omega
  · cases h
  · cases h

theorem Inv.step {f : AvbFile} {es : List Event} {s s' : St} {e : Event} (h : Inv f es s)
    (hs : Step f s e s') : Inv f (es ++ [e]) s' := by
  cases hs with
  | look i =>
    have hc : ∀ j, Is f (es ++ [.look i]) j = Is f es j := by
      intro j; unfold Is; rw [assigned_snoc]
    have ha : ∀ j, assigned j (es ++ [.look i]) = assigned j es := fun j => assigned_snoc
    unfold look
    split
    · exact ⟨h.cache, h.exist, h.gone, h.modified, by simpa [ha] using h.mark, by simpa [hc] using h.content,
        h.bound, h.size, by simpa [ha] using h.small⟩
    · next hi0 =>
      split
      · exact ⟨h.cache, h.exist, h.gone, h.modified, by simpa [ha] using h.mark, by simpa [hc] using h.content,
          h.bound, h.size, by simpa [ha] using h.small⟩
      · next hn =>
        split
        · exact ⟨h.cache, h.exist, h.gone, h.modified, by simpa [ha] using h.mark,
            by simpa [hc] using h.content, h.bound, h.size, by simpa [ha] using h.small⟩
        · next x ho =>
          have hm : s.modified i = none := by
            cases hm : s.modified i with
            | none => rfl
            | some l =>
              obtain ⟨h1, h2⟩ := h.modified i l hm
              have := h.exist l h1
              rw [h2, hn] at this; cases this
          have hfr : ∀ l, Exists s l → l ≠ s.fresh := fun l hl e => absurd hl.1 (by omega)
          have hex : ∀ l, Exists { alloc s x with cache := put s.cache i s.fresh } l ↔
              l = s.fresh ∨ Exists s l := by
            intro l
            unfold Exists
            show l < s.fresh + 1 ∧ l ∉ s.gone ↔ _
            constructor
            · rintro ⟨h1, h2⟩
              by_cases hl : l = s.fresh
              · exact .inl hl
              · exact .inr ⟨by omega, h2⟩
            · rintro (rfl | ⟨h1, h2⟩)
              · exact ⟨by omega, fun hg => by have := h.gone _ hg; omega⟩
              · exact ⟨by omega, h2⟩
          have hb := fileHeap_bound ho
          have hx : x.iid = i := Fast.fileHeap_iid ho
          have hobj : ∀ l, Exists s l → (alloc s x).objs l = s.objs l := by
            intro l hl; simp [alloc, hfr l hl]
          have hnew : (alloc s x).objs s.fresh = x := by simp [alloc]
          refine ⟨?_, ?_, ?_, ?_, ?_, ?_, ?_, h.size, fun j hj => h.small j (by rwa [ha] at hj)⟩
          · intro j l hj
            change put s.cache i s.fresh j = some l at hj
            unfold put at hj
            rw [hex]
            show _ ∧ ((alloc s x).objs l).iid = j
            split at hj
            · next e => cases hj; exact ⟨.inl rfl, by rw [hnew, hx, e]⟩
            · obtain ⟨h1, h2⟩ := h.cache j l hj
              exact ⟨.inr h1, by rw [hobj l h1, h2]⟩
          · intro l hl
            show put s.cache i s.fresh ((alloc s x).objs l).iid = some l
            rcases (hex l).1 hl with rfl | hl
            · rw [hnew, hx]; simp [put]
            · rw [hobj l hl]
              have h1 := h.exist l hl
              unfold put
              rw [if_neg (by rintro e; rw [e, hn] at h1; cases h1), h1]
          · intro l hl
            have := h.gone l hl
            show l < s.fresh + 1
            omega
          · intro j l hj
            obtain ⟨h1, h2⟩ := h.modified j l hj
            exact ⟨(hex l).2 (.inr h1), by show ((alloc s x).objs l).iid = j; rw [hobj l h1, h2]⟩
          · intro j; rw [ha]; exact h.mark j
          · intro l hl
            rw [hc]
            show Is f es ((alloc s x).objs l).iid ((alloc s x).objs l)
            rcases (hex l).1 hl with rfl | hl
            · rw [hnew, hx]
              unfold Is
              rw [(h.mark i).1 hm]
              exact ho
            · rw [hobj l hl]; exact h.content l hl
          · intro l hl
            show 0 < ((alloc s x).objs l).iid ∧ ((alloc s x).objs l).iid ≤ s.next
            rcases (hex l).1 hl with rfl | hl
            · rw [hnew, hx]
              have := h.size
              exact ⟨hb.1, by show i ≤ s.next; omega⟩
            · rw [hobj l hl]; exact h.bound l hl
  | new o =>
    have hfr : ∀ l, Exists s l → l ≠ s.fresh := fun l hl e => absurd hl.1 (by omega)
    have hex : ∀ l, Exists (create s o) l ↔ l = s.fresh ∨ Exists s l := by
      intro l
      unfold Exists
      show l < s.fresh + 1 ∧ l ∉ s.gone ↔ _
      constructor
      · rintro ⟨h1, h2⟩
        by_cases hl : l = s.fresh
        · exact .inl hl
        · exact .inr ⟨by omega, h2⟩
      · rintro (rfl | ⟨h1, h2⟩)
        · exact ⟨by omega, fun hg => by have := h.gone _ hg; omega⟩
        · exact ⟨by omega, h2⟩
    have hobj : ∀ l, Exists s l → (create s o).objs l = s.objs l := by
      intro l hl; simp [create, alloc, hfr l hl]
    have hnew : (create s o).objs s.fresh = ⟨s.next + 1, true, o, o.visits⟩ := by simp [create, alloc]
    have hne : ∀ l, Exists s l → (s.objs l).iid ≠ s.next + 1 := by
      intro l hl e; have := (h.bound l hl).2; omega
    refine ⟨?_, ?_, ?_, ?_, ?_, ?_, ?_, ?_, ?_⟩
    · intro j l hj
      change put s.cache (s.next + 1) s.fresh j = some l at hj
      unfold put at hj
      rw [hex]
      split at hj
      · next e => cases hj; exact ⟨.inl rfl, by rw [hnew, e]⟩
      · obtain ⟨h1, h2⟩ := h.cache j l hj
        exact ⟨.inr h1, by rw [hobj l h1, h2]⟩
    · intro l hl
      show put s.cache (s.next + 1) s.fresh ((create s o).objs l).iid = some l
      rcases (hex l).1 hl with rfl | hl
      · rw [hnew]; simp [put]
      · rw [hobj l hl]
        unfold put
        rw [if_neg (hne l hl), h.exist l hl]
    · intro l hl
      have := h.gone l hl
      show l < s.fresh + 1
      omega
    · intro j l hj
      change put s.modified (s.next + 1) s.fresh j = some l at hj
      unfold put at hj
      rw [hex]
      split at hj
      · next e => cases hj; exact ⟨.inl rfl, by rw [hnew, e]⟩
      · obtain ⟨h1, h2⟩ := h.modified j l hj
        exact ⟨.inr h1, by rw [hobj l h1, h2]⟩
    · intro j
      rw [assigned_snoc]
      show put s.modified (s.next + 1) s.fresh j = none ↔ _
      unfold put
      by_cases e : j = s.next + 1
      · simp [e]
      · simp [e, Ne.symm e, h.mark]
    · intro l hl
      unfold Is
      rw [assigned_snoc]
      rcases (hex l).1 hl with rfl | hl
      · rw [hnew]; simp
      · rw [hobj l hl]
        have := h.content l hl
        simp only [Ne.symm (hne l hl), if_false]
        exact this
    · intro l hl
      show _ ∧ _ ≤ s.next + 1
      rcases (hex l).1 hl with rfl | hl
      · rw [hnew]; exact ⟨Nat.succ_pos _, Nat.le_refl _⟩
      · rw [hobj l hl]
        have := h.bound l hl
        exact ⟨this.1, by omega⟩
    · have := h.size
      show _ ≤ s.next + 1
      omega
    · intro j hj
      show j ≤ s.next + 1
      rw [assigned_snoc] at hj
      by_cases e : s.next + 1 = j
      · omega
      · simp only [e, if_false] at hj
        have := h.small j hj
        omega
  | edit l o hl =>
    have hex : ∀ l', Exists (edit s l o) l' ↔ Exists s l' := fun _ => Iff.rfl
    have hid : ∀ l', ((edit s l o).objs l').iid = (s.objs l').iid := by
      intro l'
      unfold edit
      dsimp only
      split
      · next e => rw [e]
      · rfl
    have huniq : ∀ l', Exists s l' → (s.objs l').iid = (s.objs l).iid → l' = l := by
      intro l' h' e
      have h1 := h.exist l' h'
      rw [e, h.exist l hl] at h1
      exact (Option.some.inj h1).symm
    refine ⟨?_, ?_, h.gone, ?_, ?_, ?_, ?_, h.size, ?_⟩
    · intro j l' hj
      rw [hex, hid]
      exact h.cache j l' hj
    · intro l' h'
      rw [hid]
      exact h.exist l' h'
    · intro j l' hj
      rw [hex, hid]
      change put s.modified (s.objs l).iid l j = some l' at hj
      unfold put at hj
      split at hj
      · next e => cases hj; exact ⟨hl, e.symm⟩
      · exact h.modified j l' hj
    · intro j
      rw [assigned_snoc]
      show put s.modified (s.objs l).iid l j = none ↔ _
      unfold put
      by_cases e : j = (s.objs l).iid
      · simp [e]
      · simp [e, Ne.symm e, h.mark]
    · intro l' h'
      rw [hid]
      unfold Is
      rw [assigned_snoc]
      by_cases e : l' = l
      · subst e
        simp [edit]
      · have hne : (s.objs l).iid ≠ (s.objs l').iid := fun e' => e (huniq l' h' e'.symm)
        have : (edit s l o).objs l' = s.objs l' := by simp [edit, e]
        rw [this]
        simp only [hne, if_false]
        exact h.content l' h'
    · intro l' h'
      rw [hid]
      exact h.bound l' h'
    · intro j hj
      rw [assigned_snoc] at hj
      by_cases e : (s.objs l).iid = j
      · rw [← e]; exact (h.bound l hl).2
      · simp only [e, if_false] at hj
        exact h.small j hj
  | collect g hg =>
    have hc : ∀ j, Is f (es ++ [.collect]) j = Is f es j := by
      intro j; unfold Is; rw [assigned_snoc]
    have ha : ∀ j, assigned j (es ++ [.collect]) = assigned j es := fun j => assigned_snoc
    have hex : ∀ l, Exists (collect s g) l ↔ Exists s l ∧ l ∉ g := by
      intro l
      unfold Exists
      show l < s.fresh ∧ l ∉ g ++ s.gone ↔ _
      rw [List.mem_append, not_or]
      tauto
    have hca : ∀ i l, (collect s g).cache i = some l ↔ s.cache i = some l ∧ l ∉ g := by
      intro i l
      unfold collect
      dsimp only
      cases s.cache i with
      | none => simp
      | some l' =>
        by_cases hm : l' ∈ g
        · simp only [hm, if_true, reduceCtorEq, Option.some.injEq, false_iff]
          rintro ⟨rfl, h⟩; exact h hm
        · simp only [hm, if_false, Option.some.injEq]
          constructor
          · rintro rfl; exact ⟨rfl, hm⟩
          · exact fun h => h.1
    refine ⟨?_, ?_, ?_, ?_, ?_, ?_, ?_, h.size, fun j hj => h.small j (by rwa [ha] at hj)⟩
    · intro i l hi
      obtain ⟨h1, h2⟩ := (hca i l).1 hi
      obtain ⟨h3, h4⟩ := h.cache i l h1
      exact ⟨(hex l).2 ⟨h3, h2⟩, h4⟩
    · intro l hl
      obtain ⟨h1, h2⟩ := (hex l).1 hl
      exact (hca _ l).2 ⟨h.exist l h1, h2⟩
    · intro l hl
      rcases List.mem_append.1 hl with h1 | h1
      · exact (hg l h1).1.1
      · exact h.gone l h1
    · intro i l hi
      obtain ⟨h1, h2⟩ := h.modified i l hi
      exact ⟨(hex l).2 ⟨h1, fun hm => (hg l hm).2 i hi⟩, h2⟩
    · intro i; rw [ha]; exact h.mark i
    · intro l hl; rw [hc]; exact h.content l ((hex l).1 hl).1
    · intro l hl; exact h.bound l ((hex l).1 hl).1

theorem Inv.run {f : AvbFile} {x : Entry} {es : List Event} {s : St} (h : Run f (FastWork.start f x) es s) :
    Inv f es s := by
  induction h with
  | nil => exact .start f x
  | snoc _ h2 ih => exact ih.step h2


theorem Inv.unassigned {f : AvbFile} {es : List Event} {s : St} (hv : Inv f es s) {i : Nat}
    (hc : s.cache i = none) : assigned i es = none := by
  rw [← hv.mark]
  cases hm : s.modified i with
  | none => rfl
  | some l =>
    obtain ⟨h1, h2⟩ := hv.modified i l hm
    have := hv.exist l h1
    rw [h2, hc] at this; cases this

/-- C76: at any moment a lookup gives the content last assigned, and what the accelerated reader makes of the
chunk if there is none; it raises what the reader raises.  What has been collected, looked up or created in
between makes no difference. -/
theorem C76_look {f : AvbFile} {x : Entry} {es : List Event} {s : St} (h : Run f (start f x) es s)
    {i : Nat} (hi : i ≠ 0) :
    match (look f s i), assigned i es, Fast.fileHeap f i with
    | (.ok (some l), s'), some o, _ => (s'.objs l).iid = i ∧ (s'.objs l).obj = o
    | (.ok (some l), s'), none, .ok e => s'.objs l = e
    | (.error e, _), none, .error e' => e = e'
    | _, _, _ => False := by
  have hv := Inv.run h
  unfold look
  rw [if_neg hi]
  cases hc : s.cache i with
  | some l =>
    obtain ⟨h1, h2⟩ := hv.cache i l hc
    have h3 := hv.content l h1
    rw [h2] at h3
    unfold Is at h3
    cases ha : assigned i es with
    | some o =>
      rw [ha] at h3
      exact ⟨h2, h3⟩
    | none =>
      rw [ha] at h3
      dsimp only at h3
      rw [h3]
  | none =>
    rw [hv.unassigned hc]
    cases ho : Fast.fileHeap f i with
    | error e => simp
    | ok e => simp [alloc]

/-- The objects as they have to be saved, with the accelerated readers. -/
def wanted (f : AvbFile) (order : Nat → Obj → List Visit) (es : List Event) : Heap := fun r =>
  match assigned r es with
  | some o => .ok ⟨r, true, o, order r o⟩
  | none => Fast.fileHeap f r

theorem fileHeap_own {f : AvbFile} {r : Ref} {e : Entry} (h : Fast.fileHeap f r = .ok e) : e.own = true := by
  unfold Fast.fileHeap at h
  split at h
  · next l _ =>
    cases l with
    | portable o => injection h with h; subst h; rfl
    | attributes a => injection h with h; subst h; rfl
    | props k p =>
      unfold Fast.Loaded.entry at h
      dsimp only at h
      split at h
      · injection h with h; subst h; rfl
      · cases h
  · cases h
  · cases h

theorem heap_eq {f : AvbFile} {x : Entry} {es : List Event} {s : St} (h : Run f (start f x) es s)
    (order : Nat → Obj → List Visit) : heap f order s = wanted f order es := by
  have hv := Inv.run h
  funext r
  unfold heap wanted
  cases hc : s.cache r with
  | some l =>
    obtain ⟨h1, h2⟩ := hv.cache r l hc
    have h3 := hv.content l h1
    rw [h2] at h3
    unfold Is at h3
    dsimp only
    cases ha : assigned r es with
    | none =>
      rw [ha] at h3
      rw [if_pos ((hv.mark r).2 ha)]
      dsimp only at h3 ⊢
      have h4 := fileHeap_own h3
      rw [h3, ← h2, ← h4]
    | some o =>
      rw [ha] at h3
      have hm : s.modified r ≠ none := by rw [ne_eq, hv.mark, ha]; simp
      rw [if_neg hm]
      dsimp only at h3 ⊢
      rw [h3]
  | none => rw [hv.unassigned hc]

/-- C76: which objects were looked up, and what was collected when, makes no difference to the bytes saved. -/
theorem C76_same_bytes {f : AvbFile} {x y : Entry} {es es' : List Event} {s s' : St}
    (h : Run f (start f x) es s) (h' : Run f (start f y) es' s')
    (ha : ∀ i, assigned i es = assigned i es') (order : Nat → Obj → List Visit) (fuel : Nat) (bo : BO)
    (hd : HeaderInfo) (root : Ref) :
    save (heap f order s) fuel bo hd root = save (heap f order s') fuel bo hd root := by
  have : wanted f order es = wanted f order es' := by funext r; unfold wanted; rw [ha]
  rw [heap_eq h, heap_eq h', this]

theorem wanted_ok {f : AvbFile} {order : Nat → Obj → List Visit} (horder : ∀ i o v, v ∈ order i o ↔ v ∈ o.visits)
    (es : List Event) : HeapOK (wanted f order es) ∧ ∀ r e, wanted f order es r = .ok e → e.iid = r := by
  constructor
  · intro r e he
    unfold wanted at he
    split at he
    · injection he with he; subst he; exact horder r _
    · exact Fast.fileHeap_ok f r e he
  · intro r e he
    unfold wanted at he
    split at he
    · injection he with he; subst he; rfl
    · exact Fast.fileHeap_iid he

/-- C76: a file is opened with the accelerated readers, worked on in any way, and saved.  If what is to be saved
meets the conditions (no cycles; edited and created objects can be written; the others meet the conditions of
C69), the save succeeds, and the saved file holds exactly the objects reachable from `root`, each with the
content last assigned; those that were not assigned are as they would be without the accelerated readers. -/
theorem C76_save {bytes : Bytes} {f : AvbFile} (ho : openTable bytes = .ok f) {x : Entry}
    {es : List Event} {s : St} (h : Run f (start f x) es s) {root : Ref}
    {order : Nat → Obj → List Visit} (horder : ∀ i o v, v ∈ order i o ↔ v ∈ o.visits)
    (hedit : ∀ i o, assigned i es = some o → Reach (Work.wanted f order es) root i →
      o.cls ≠ .TRKG ∧ o.cls ≠ .DATD ∧ o.Readable ∧ o.Stored ∧
      ∃ c out, o.write c = .ok ((), out) ∧ out.length < 2 ^ 32)
    (hfile : ∀ i, assigned i es = none → Reach (Work.wanted f order es) root i →
      ∃ o, Avb.readObject f i = .ok (some o) ∧ o.Keeps ∧
        (∀ c out, o.write c = .ok ((), out) → out.length + o.slack < 2 ^ 32) ∧ (f.bo = .little → o.NonNeg) ∧
        ∀ payload, HasChunk f i o.cls.id payload → f.bo = .little →
          Fast.CountsOK f.positions.length o.cls payload)
    (hnames : ∀ i y, assigned i es = none → Reach (Work.wanted f order es) root i →
      Fast.readObject f i = .ok (some (.attributes y)) → (y.items.map fun q => stripText q.1).Nodup)
    (rank : Ref → Nat)
    (hrank : ∀ a b, Reach (Work.wanted f order es) root a → Edge (Work.wanted f order es) a b → rank b < rank a)
    (hcount : (touched es).length + f.header.num_objects < 2 ^ 32)
    {bo : BO} {hd : HeaderInfo} {pre post : Bytes} (ht : TextOK .macroman hd.last_save_str)
    (hpre : (writeHeaderPre bo hd).bytes = .ok pre) (hpost : (writeHeaderPost bo hd).bytes = .ok post) :
    ∃ fuel₀, ∀ fuel ≥ fuel₀, ∃ bytes' f' num, save (heap f order s) fuel bo hd root = .ok bytes' ∧
      openTable bytes' = .ok f' ∧ Holds f' (Work.wanted f order es) root num := by
  rw [heap_eq h]
  obtain ⟨hok, hiid⟩ := wanted_ok (f := f) horder es
  have all : ∀ a, Reach (Work.wanted f order es) root a → ∃ e e',
      Work.wanted f order es a = .ok e ∧ wanted f order es a = .ok e' ∧ e.Keeps ∧
      (∀ v, v ∈ e'.visits ↔ v ∈ e.visits) ∧ e'.own = true ∧ e'.obj.cls = e.obj.cls ∧ e'.obj.Readable ∧
      (∀ c, e'.obj.norm c = e.obj.norm c) ∧ (∃ c out, e'.obj.write c = .ok ((), out) ∧ out.length < 2 ^ 32) ∧
      a ∈ touched es ++ List.range' 1 f.header.num_objects := by
    intro a ha
    cases hass : assigned a es with
    | some o =>
      obtain ⟨h1, h2, h3, h4, h5⟩ := hedit a o hass ha
      refine ⟨⟨a, true, o, order a o⟩, ⟨a, true, o, order a o⟩, by simp [Work.wanted, hass],
        by simp [wanted, hass], ⟨rfl, ⟨h1, h2⟩, h3, h4, h5⟩, fun _ => Iff.rfl, rfl, rfl, h3, fun _ => rfl, h5,
        List.mem_append_left _ (assigned_touched.1 (by rw [hass]; simp))⟩
    | none =>
      obtain ⟨o, h1, h2, hsz, h3, h4⟩ := hfile a hass ha
      obtain ⟨payload, hp⟩ := Fast.readObject_chunk h1
      obtain ⟨h0, hlt, k, bs, hk⟩ := readObject_readAs h1
      have keeps := h2.entry (e := ⟨a, true, o, o.visits⟩) hk rfl rfl
      obtain ⟨c, out, hw, _⟩ := keeps.saves
      obtain ⟨e, h5, h6⟩ := Fast.C69_object hp h1 ⟨c, out, hw⟩ (h4 payload hp) h3 fun y => hnames a y hass ha
      obtain ⟨out', hw'⟩ := h6.writes c ⟨out, hw⟩
      refine ⟨⟨a, true, o, o.visits⟩, e, ?_, by simp [wanted, hass, h5], keeps, h6.visits, h6.own, h6.cls,
        h6.readable keeps.readable, h6.norm, ⟨c, out', hw', ?_⟩, List.mem_append_right _ ?_⟩
      · simp only [Work.wanted, hass]
        unfold Avb.fileHeap
        rw [h1]
      · have := h6.size c out out' hw hw'
        have := hsz c out hw
        omega
      · rw [List.mem_range'_1]
        have := (openTable_length ho).le
        omega
  have same := Fast.reach_same (h := Work.wanted f order es) (h' := wanted f order es) (root := root)
    fun a ha => by
      obtain ⟨e, e', h1, h2, _, h3, _⟩ := all a ha
      exact ⟨e, e', h1, h2, h3⟩
  obtain ⟨fuel₀, hf⟩ := C12_save_succeeds (bo := bo) (content := root) hok rank
    (fun a b ha hab => by
      have ha' := (same a).1.1 ha
      exact hrank a b ha' (((same a).2 ha' b).1 hab))
    (touched es ++ List.range' 1 f.header.num_objects)
    (fun a ha => by
      obtain ⟨_, _, _, _, _, _, _, _, _, _, _, h⟩ := all a ((same a).1.1 ha)
      exact h)
    (by simpa using hcount)
    (fun a ha => by
      obtain ⟨e, e', _, h2, h3, _, h5, h6, _, _, h7, _⟩ := all a ((same a).1.1 ha)
      exact ⟨e', h2, h5, by rw [h6]; exact h3.plain.1, by rw [h6]; exact h3.plain.2, h7⟩) hpre hpost
  refine ⟨fuel₀, fun fuel hfuel => ?_⟩
  obtain ⟨bytes', hs⟩ := hf fuel hfuel
  obtain ⟨f', num, h1, _, h2, _⟩ := C12_save_open hok
    (fun a b ea eb _ _ ha hb hab => by rw [hiid a ea ha, hiid b eb hb] at hab; exact hab) ht
    (fun a e ha he => by
      obtain ⟨_, e', _, h2, _, _, _, _, h3, _⟩ := all a ((same a).1.1 ha)
      rw [he] at h2; injection h2 with h2; subst h2
      exact h3) hs
  refine ⟨bytes', f', num, hs, h1, ?_, ?_, h2.root, ?_⟩
  · intro a b ha hb
    exact h2.inj a b ((same a).1.2 ha) ((same b).1.2 hb)
  · intro k
    rw [h2.onto k]
    exact ⟨fun ⟨a, ha, hk⟩ => ⟨a, (same a).1.1 ha, hk⟩, fun ⟨a, ha, hk⟩ => ⟨a, (same a).1.2 ha, hk⟩⟩
  · intro a e ha he
    obtain ⟨e1, e', h3, h4, h5, _, _, _, _, h6, _⟩ := all a ha
    rw [he] at h3; injection h3 with h3; subst h3
    rw [h2.same a e' ((same a).1.2 ha) h4, h6, Obj.norm_renumber h5.stored]
    rfl

/-- C76: an object with one of the negative values of C69 that is not edited makes every save of a file under
whose root it is fail, whatever else was done. -/
theorem C76_negative {f : AvbFile} (hb : f.bo = .little) {x : Entry} {es : List Event} {s : St}
    (h : Run f (start f x) es s) {root : Ref} {order : Nat → Obj → List Visit}
    (horder : ∀ i o v, v ∈ order i o ↔ v ∈ o.visits) {i : Nat} (hr : Reach (heap f order s) root i)
    (ha : assigned i es = none) {payload : Bytes} {o : Obj} (hp : HasChunk f i o.cls.id payload)
    (ho : Avb.readObject f i = .ok (some o)) (hw : ∃ c, Wr.Ok (o.write c))
    (hc : Fast.CountsOK f.positions.length o.cls payload) (hn : ¬ o.NonNeg)
    (fuel : Nat) (bo : BO) (hd : HeaderInfo) (bytes : Bytes) :
    save (heap f order s) fuel bo hd root ≠ .ok bytes := by
  rw [heap_eq h] at hr ⊢
  obtain ⟨hok, hiid⟩ := wanted_ok (f := f) horder es
  intro hs
  obtain ⟨e, h1, h2⟩ := Fast.C69_negative hb hp ho hw hc hn
  obtain ⟨pre, post, s', done, sc⟩ := save_core hok hs
  obtain ⟨j, hj, h3, h4, _⟩ := sc.chunk
    (fun a b ea eb _ _ ha hb hab => by rw [hiid a ea ha, hiid b eb hb] at hab; exact hab) hr
  obtain ⟨m, _, hwr, _⟩ := sc.inv.each j hj
  subst h3
  unfold wanted at h4
  rw [ha] at h4
  dsimp only at h4
  rw [h1] at h4
  injection h4 with h4
  rw [← h4] at hwr
  exact h2 _ ⟨_, hwr⟩

/-! ### Examples -/

/-- The history of the example of C51, with the accelerated readers. -/
theorem exHistory_run {f : AvbFile} {e1 e3 : Entry} (g1 : Fast.fileHeap f 1 = .ok e1)
    (g3 : Fast.fileHeap f 3 = .ok e3) (hp : f.positions.length = 4) :
    ∃ s, Run f (start f e1) Work.exHistory s := by
  have i3 := Fast.fileHeap_iid g3
  have h0 : Run f (start f e1) [] (start f e1) := .nil _
  have l1 : (look f (start f e1) 3).2 =
      { alloc (start f e1) e3 with cache := put (start f e1).cache 3 0 } := by
    simp [look, g3, start]
  have h1 := h0.snoc (.look _ 3)
  rw [l1] at h1
  have h2 := h1.snoc (.new _ exFillE)
  have h3 := h2.snoc (.edit _ 0 Work.exSeqW ⟨by simp [create, alloc], by simp [create, alloc, start]⟩)
  have j : ((create { alloc (start f e1) e3 with cache := put (start f e1).cache 3 0 } exFillE).objs 0).iid = 3 := by
    simp [create, alloc, start, i3]
  rw [j] at h3
  have h4 := h3.snoc (.look _ 1)
  have h5 := h4.snoc (.collect _ [2] (by
    intro l hl
    simp only [List.mem_singleton] at hl
    subst hl
    constructor
    · simp [look, edit, create, alloc, start, put, g1, hp, Exists, i3]
    · intro i
      simp only [look, edit, create, alloc, start, put, g1, hp]
      simp [i3]
      unfold put
      split
      · simp
      · split <;> simp))
  exact ⟨_, by
    have e : Work.exHistory = [] ++ [Event.look 3] ++ [Event.new (f.positions.length + 1) exFillE] ++
      [Event.edit 3 Work.exSeqW] ++ [Event.look 1] ++ [Event.collect] := by rw [hp]; rfl
    rw [e]
    exact h5⟩

/-- The example file of C51, opened with the accelerated readers, and this history meet the hypotheses. -/
example (bo bo' : BO) : ∃ bytes f x s, openTable bytes = .ok f ∧ Run f (start f x) Work.exHistory s ∧
    ∃ fuel₀, ∀ fuel ≥ fuel₀, ∃ bytes' f' num,
      save (heap f (fun _ => Obj.visits) s) fuel bo' exInfo 3 = .ok bytes' ∧ openTable bytes' = .ok f' ∧
      Holds f' (Work.wanted f (fun _ => Obj.visits) Work.exHistory) 3 num := by
  obtain ⟨bytes, f, _, hf, f1, f2, f3, hr, hn, hp⟩ := exFile_ok bo
  obtain ⟨pre, hpre⟩ := exInfo_pre bo'
  obtain ⟨post, hpost⟩ := exInfo_post bo'
  have a1 := fun x => Fast.not_attributes f1 (Fast.readObject_chunk f1).choose_spec (fun _ => trivial) (by decide) x
  have a2 := fun x => Fast.not_attributes f2 (Fast.readObject_chunk f2).choose_spec (fun _ => trivial) (by decide) x
  have a3 := fun x => Fast.not_attributes f3 (Fast.readObject_chunk f3).choose_spec (fun _ => trivial) (by decide) x
  obtain ⟨e1, g1, _⟩ := Fast.C69_object (Fast.readObject_chunk f1).choose_spec f1
    ⟨⟨.little, fun _ => some 1⟩, _, rfl⟩ (fun _ => trivial) (fun _ => by unfold Obj.NonNeg; decide)
    fun x hx => absurd hx (a1 x)
  obtain ⟨e3, g3, _⟩ := Fast.C69_object (Fast.readObject_chunk f3).choose_spec f3
    ⟨⟨.little, fun _ => some 1⟩, _, rfl⟩ (fun _ => trivial) (fun _ => by unfold Obj.NonNeg; decide)
    fun x hx => absurd hx (a3 x)
  obtain ⟨s, hs⟩ := exHistory_run g1 g3 hp
  obtain ⟨m1, m2, m3, m4, _⟩ := Work.exHistory_meets f1 f2 hn
  have cases12 : ∀ i, assigned i Work.exHistory = none →
      Reach (Work.wanted f (fun _ => Obj.visits) Work.exHistory) 3 i → i = 1 ∨ i = 2 := by
    intro i hi hri
    obtain ⟨o, h1, _⟩ := m2 i hi hri
    obtain ⟨h0, hlt, _⟩ := readObject_readAs h1
    have h3 : i ≠ 3 := by rintro rfl; simp [Work.exHistory, assigned] at hi
    rw [hp] at hlt
    omega
  refine ⟨bytes, f, e1, s, hf, hs, C76_save hf hs (fun _ _ _ => Iff.rfl) (fun i o h _ => m1 i o h) ?_ ?_ _ m3 m4
    exInfo_ok hpre hpost⟩
  · intro i hi hri
    rcases cases12 i hi hri with rfl | rfl
    · exact ⟨_, f1, exFill_keeps, Fast.slack_of rfl (by decide), fun _ => by unfold Obj.NonNeg; decide,
        fun _ _ _ => trivial⟩
    · exact ⟨_, f2, exClip_keeps, Fast.slack_of rfl (by decide), fun _ => by unfold Obj.NonNeg; decide,
        fun _ _ _ => trivial⟩
  · intro i y hi hri hy
    rcases cases12 i hi hri with rfl | rfl
    · exact absurd hy (a1 y)
    · exact absurd hy (a2 y)

/-- A file whose only object is a parameter that is -5 from the start: it cannot be saved after anything that
leaves the object as it is; here a gap is made and the parameter is looked up. -/
example : ∃ f x s, Avb.readObject f 1 = .ok (some Fast.exNegParam) ∧ Run f (start f x) [.new 3 exFillE, .look 1] s ∧
    ∀ fuel bo hd bytes, save (heap f (fun _ => Obj.visits) s) fuel bo hd 1 ≠ .ok bytes := by
  obtain ⟨bs, hw, hl⟩ : ∃ bs, Fast.exNegParam.write (exWrite .little 2) = .ok ((), bs) ∧ bs.length < 2 ^ 32 :=
    ⟨_, rfl, by decide⟩
  obtain ⟨h1, h2, h3⟩ := Fast.exChunk_of (x := Fast.exNegParam)
    (show Fast.exNegParam.Readable from ⟨textsOK_short (by decide), .inl rfl⟩) hw hl (by decide +kernel)
  have hn : ¬ Fast.exNegParam.NonNeg := fun h => absurd (h (4, -5) (by decide)) (by decide)
  have run : ∀ x, Run (exChunkFile .little Fast.exNegParam.cls.id bs)
      (start (exChunkFile .little Fast.exNegParam.cls.id bs) x) [.new 3 exFillE, .look 1] _ :=
    fun x => ((Run.nil _).snoc (.new _ exFillE)).snoc (.look _ 1)
  refine ⟨_, ⟨0, true, exFillE, []⟩, _, h2, run _, fun fuel bo hd bytes => ?_⟩
  exact C76_negative rfl (run _) (fun _ _ _ => Iff.rfl) ⟨by decide, .refl⟩ (by decide) h1 h2 ⟨_, bs, hw⟩ h3 hn fuel
    bo hd bytes

end Avb.FastWork

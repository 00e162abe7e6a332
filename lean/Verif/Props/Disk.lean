import Verif.Model.Disk
import Verif.Lemmas.WalkCongr
import Verif.Props.Work
import Verif.Props.Crash

/-
C55: saving any number of times, with and without failures, between steps of work.
-/

namespace Avb

open Relation

namespace Disk

open Work

/-- The work done, without the saves. -/
def works (es : List Event) : List Work.Event :=
  es.filterMap fun
    | .work e => some e
    | .save .. => none

/-- No save to the path. -/
def NoSave (path : Nat) (es : List Event) : Prop :=
  ∀ bo hd content fuel, Event.save path bo hd content fuel ∉ es

theorem setFile_twice {disk : Nat → Option Bytes} {path : Nat} {a b : Bytes} :
    setFile (setFile disk path a) path b = setFile disk path b := by
  funext p; unfold setFile; split <;> rfl

/-- A save leaves at its path what a save of the same objects by a new `AVBFile` leaves there, raises
the same exception, and changes no other file and no object. -/
theorem write_eq (f : AvbFile) (src : Nat) (order : Nat → Obj → List Visit) (fuel : Nat) (w : World)
    (path : Nat) (bo : BO) (hd : HeaderInfo) (content : Ref) :
    let run := saveRun (heap (handle f src (setFile w.disk path [])) order w.mem) fuel bo hd content
    (write f src order fuel w path bo hd content).2 = run.err ∧
    (write f src order fuel w path bo hd content).1.disk = setFile w.disk path run.disk ∧
    (write f src order fuel w path bo hd content).1.mem = w.mem ∧
    (write f src order fuel w path bo hd content).1.octx = none := by
  simp only [write, saveRun]
  generalize heap (handle f src (setFile w.disk path [])) order w.mem = h
  generalize walkObj h fuel content = wk
  generalize saveLoop h bo wk.out ⟨0, fun _ => none, []⟩ = sl
  generalize (writeHeaderPre bo hd).bytes = p1
  generalize (writeHeaderPost bo hd).bytes = p2
  obtain ⟨out, we⟩ := wk
  obtain ⟨s, er⟩ := sl
  cases p1 with
  | error e => simp [SaveRun.disk]
  | ok pre =>
    cases (writeCounts bo 0 0).bytes with
    | error e => simp [SaveRun.disk]
    | ok zero =>
      cases p2 with
      | error e => simp [SaveRun.disk]
      | ok post =>
        cases er with
        | some e => simp [SaveRun.disk, setFile_twice]
        | none =>
          cases we with
          | some e => simp [SaveRun.disk, setFile_twice]
          | none =>
            dsimp only
            cases (writeCounts bo s.next s.next).bytes with
            | ok counts => simp [SaveRun.disk, setFile_twice]
            | error e => simp [SaveRun.disk, setFile_twice]

theorem looks_run {f : AvbFile} {s₀ : St} (rs : List Ref) : ∀ {es : List Work.Event} {s : St},
    Work.Run f s₀ es s → ∃ es', Work.Run f s₀ (es ++ es') (looks f s rs) ∧
      (∀ i, assigned i (es ++ es') = assigned i es) ∧ touched es' = [] := by
  induction rs with
  | nil => intro es s h; exact ⟨[], by simpa [looks] using h, by simp, rfl⟩
  | cons r rs ih =>
    intro es s h
    obtain ⟨es', h1, h2, h3⟩ := ih (h.snoc (.look s r))
    refine ⟨.look r :: es', ?_, ?_, h3⟩
    · simpa [looks] using h1
    · intro i
      have := h2 i
      rw [assigned_snoc] at this
      simpa using this

/-- What holds at every moment. -/
structure Inv (f : AvbFile) (src : Nat) (o : Obj) (es : List Event) (w : World) : Prop where
  source : w.disk src = some f.data
  idle : w.octx = none
  mem : ∃ es', Work.Run f (Work.start f o) es' w.mem ∧ (∀ i, assigned i es' = assigned i (works es)) ∧
    touched es' = touched (works es)

theorem handle_source {f : AvbFile} {src : Nat} {disk : Nat → Option Bytes}
    (h : disk src = some f.data) : handle f src disk = f := by
  unfold handle; rw [h]; rfl

theorem setFile_other {disk : Nat → Option Bytes} {path p : Nat} {b : Bytes} (h : p ≠ path) :
    setFile disk path b p = disk p := by simp [setFile, h]

theorem works_snoc {es : List Event} {e : Event} : works (es ++ [e]) = works es ++ works [e] := by
  simp [works]

theorem touched_append {a b : List Work.Event} : touched (a ++ b) = touched a ++ touched b := by
  simp [touched]

theorem Inv.step {f : AvbFile} {src : Nat} {o : Obj} {order : Nat → Obj → List Visit} {es : List Event}
    {w w' : World} {e : Event} (h : Inv f src o es w) (hs : Step f src order w e w') :
    Inv f src o (es ++ [e]) w' := by
  obtain ⟨es', h1, h2, ht⟩ := h.mem
  cases hs with
  | work e s hw =>
    rw [handle_source h.source] at hw
    refine ⟨h.source, h.idle, es' ++ [e], h1.snoc hw, ?_, ?_⟩
    · intro i
      rw [works_snoc, show works [.work e] = [e] from rfl, assigned_snoc, assigned_snoc, h2]
    · rw [works_snoc, show works [.work e] = [e] from rfl, touched_append, touched_append, ht]
  | save path bo hd content fuel rs hp =>
    rw [handle_source h.source]
    obtain ⟨_, k2, _, k4⟩ := write_eq f src order fuel w path bo hd content
    obtain ⟨es'', h3, h4, h5⟩ := looks_run rs h1
    refine ⟨?_, k4, es' ++ es'', h3, ?_, ?_⟩
    · show (write f src order fuel w path bo hd content).1.disk src = _
      rw [k2, setFile_other (Ne.symm hp), h.source]
    · intro i
      rw [h4, h2, works_snoc]
      simp [works]
    · rw [touched_append, h5, ht, works_snoc]
      simp [works]

theorem Inv.run {f : AvbFile} {src : Nat} {o : Obj} {order : Nat → Obj → List Visit}
    {disk : Nat → Option Bytes} {es : List Event} {w : World}
    (h : Run f src order (start f src disk o) es w) : Inv f src o es w := by
  induction h with
  | nil => exact ⟨by simp [start, setFile], rfl, [], .nil _, by simp [works], rfl⟩
  | snoc _ h2 ih => exact ih.step h2

/-- The heap a save sees, in any history. -/
theorem heap_works {f : AvbFile} {src : Nat} {o : Obj} {es : List Event} {w : World}
    (h : Inv f src o es w) (order : Nat → Obj → List Visit) :
    heap f order w.mem = wanted f order (works es) := by
  obtain ⟨es', h1, h2, ht⟩ := h.mem
  rw [heap_eq h1]
  funext r
  unfold wanted
  rw [h2]

/-- C55: a save anywhere in a history of work and saves: what it writes and whether it raises depends on
the work done before it only.  The saves before it, failed ones included, make no difference, and the file
that was opened is as it was. -/
theorem C55_save_step {f : AvbFile} {src : Nat} {o₀ : Obj} {order : Nat → Obj → List Visit}
    {disk : Nat → Option Bytes} {es : List Event} {w : World}
    (h : Run f src order (start f src disk o₀) es w) {path : Nat} (hp : path ≠ src) (bo : BO)
    (hd : HeaderInfo) (content : Ref) (fuel : Nat) :
    let run := saveRun (wanted f order (works es)) fuel bo hd content
    let r := write f src order fuel w path bo hd content
    r.2 = run.err ∧ r.1.disk path = some run.disk ∧ (∀ p, p ≠ path → r.1.disk p = w.disk p) ∧
      r.1.disk src = some f.data ∧ r.1.mem = w.mem ∧ r.1.octx = none := by
  intro run r
  have hv := Inv.run h
  obtain ⟨k1, k2, k3, k4⟩ := write_eq f src order fuel w path bo hd content
  have hs : (setFile w.disk path []) src = some f.data := by
    rw [setFile_other (Ne.symm hp), hv.source]
  rw [handle_source hs, heap_works hv] at k1 k2
  refine ⟨k1, ?_, ?_, ?_, k3, k4⟩
  · show r.1.disk path = _
    rw [k2]; simp [setFile]; rfl
  · intro p h1
    show r.1.disk p = _
    rw [k2, setFile_other h1]
  · show r.1.disk src = _
    rw [k2, setFile_other (Ne.symm hp), hv.source]

/-- C55: after any history of work and saves a lookup gives the content last assigned, and the content in
the file if there is none. -/
theorem C55_look {f : AvbFile} {src : Nat} {o₀ : Obj} {order : Nat → Obj → List Visit}
    {disk : Nat → Option Bytes} {es : List Event} {w : World}
    (h : Run f src order (start f src disk o₀) es w) {i : Nat} (hi : i ≠ 0) :
    match (look (handle f src w.disk) w.mem i), current f (works es) i with
    | (.ok (some l), s'), .ok (some o) => s'.objs l = (i, o)
    | (.error e, _), .error e' => e = e'
    | _, _ => False := by
  have hv := Inv.run h
  obtain ⟨es', h1, h2, _⟩ := hv.mem
  have h3 := C51_look h1 hi
  rw [handle_source hv.source]
  have h4 : current f es' i = current f (works es) i := by unfold current; rw [h2]
  rw [h4] at h3
  exact h3

/-- C55: after any history each path holds what the last save to it wrote, which is what the objects were
at that time; paths never saved to are as they were, and so is the file that was opened. -/
theorem C55_disk {f : AvbFile} {src : Nat} {o₀ : Obj} {order : Nat → Obj → List Visit}
    {disk : Nat → Option Bytes} {es : List Event} {w : World}
    (h : Run f src order (start f src disk o₀) es w) :
    w.disk src = some f.data ∧ ∀ path, path ≠ src →
      (NoSave path es ∧ w.disk path = disk path) ∨
      ∃ before bo hd content fuel after,
        es = before ++ Event.save path bo hd content fuel :: after ∧ NoSave path after ∧
        w.disk path = some (saveRun (wanted f order (works before)) fuel bo hd content).disk := by
  refine ⟨(Inv.run h).source, ?_⟩
  induction h with
  | nil =>
    intro path hp
    exact .inl ⟨by simp [NoSave], by simp [start, setFile, hp]⟩
  | @snoc w1 w2 e es hr hs ih =>
    intro path hp
    have other : w2.disk path = w1.disk path → (∀ bo hd content fuel, e ≠ .save path bo hd content fuel) →
        (NoSave path (es ++ [e]) ∧ w2.disk path = disk path) ∨
        ∃ before bo hd content fuel after,
          es ++ [e] = before ++ Event.save path bo hd content fuel :: after ∧ NoSave path after ∧
          w2.disk path = some (saveRun (wanted f order (works before)) fuel bo hd content).disk := by
      intro hw hne
      have hno : ∀ l, NoSave path l → NoSave path (l ++ [e]) := by
        intro l hl bo hd content fuel hm
        rcases List.mem_append.1 hm with hm | hm
        · exact hl _ _ _ _ hm
        · exact hne _ _ _ _ (List.mem_singleton.1 hm).symm
      rcases ih path hp with ⟨h1, h2⟩ | ⟨before, bo, hd, content, fuel, after, h1, h2, h3⟩
      · exact .inl ⟨hno _ h1, by rw [hw, h2]⟩
      · exact .inr ⟨before, bo, hd, content, fuel, after ++ [e], by rw [h1]; simp, hno _ h2, by rw [hw, h3]⟩
    cases hs with
    | work e s hw => exact other rfl (by intros; simp)
    | save path' bo hd content fuel rs hp' =>
      obtain ⟨_, k2, k3, _⟩ := C55_save_step hr hp' bo hd content fuel
      by_cases hpp : path = path'
      · subst hpp
        exact .inr ⟨es, bo, hd, content, fuel, [], by simp, by simp [NoSave], k2⟩
      · refine other (k3 path hpp) ?_
        intro bo hd content fuel h
        injection h with h
        exact hpp h.symm

/-- C55: a save after any history, if what is to be saved meets the conditions of C51: it succeeds, and
its file opens and holds exactly the objects reachable from `root`, each with its present content.  Before
it there may have been any number of saves in either byte order to any paths, and any of them may have
raised. -/
theorem C55_save_again {bytes : Bytes} {f : AvbFile} (ho : openTable bytes = .ok f) {src : Nat} {o₀ : Obj}
    {order : Nat → Obj → List Visit} (horder : ∀ i o v, v ∈ order i o ↔ v ∈ o.visits)
    {disk : Nat → Option Bytes} {es : List Event} {w : World}
    (h : Run f src order (start f src disk o₀) es w) {root : Ref}
    (hedit : ∀ i o, assigned i (works es) = some o → Reach (wanted f order (works es)) root i →
      o.cls ≠ .TRKG ∧ o.cls ≠ .DATD ∧ o.Readable ∧ o.Stored ∧ ∃ c out, o.write c = .ok ((), out) ∧ out.length < 2 ^ 32)
    (hfile : ∀ i, assigned i (works es) = none → Reach (wanted f order (works es)) root i →
      ∃ o, readObject f i = .ok (some o) ∧ o.Keeps)
    (rank : Ref → Nat)
    (hrank : ∀ a b, Reach (wanted f order (works es)) root a → Edge (wanted f order (works es)) a b →
      rank b < rank a)
    (hcount : (touched (works es)).length + f.header.num_objects < 2 ^ 32)
    {bo : BO} {hd : HeaderInfo} {pre post : Bytes} (ht : TextOK .macroman hd.last_save_str)
    (hpre : (writeHeaderPre bo hd).bytes = .ok pre) (hpost : (writeHeaderPost bo hd).bytes = .ok post)
    {path : Nat} (hp : path ≠ src) :
    ∃ fuel₀, ∀ fuel ≥ fuel₀, ∃ bytes' f' num,
      (write f src order fuel w path bo hd root).2 = none ∧
      (write f src order fuel w path bo hd root).1.disk path = some bytes' ∧
      openTable bytes' = .ok f' ∧ Holds f' (wanted f order (works es)) root num := by
  obtain ⟨es', h1, h2, h3⟩ := (Inv.run h).mem
  have hw : wanted f order (works es) = wanted f order es' := by funext r; unfold wanted; rw [h2]
  obtain ⟨fuel₀, hs⟩ := C51_save ho h1 horder (bo := bo) (hd := hd) (by simpa only [h2, ← hw] using hedit)
    (by simpa only [h2, ← hw] using hfile) rank (by simpa only [← hw] using hrank) (by rw [h3]; exact hcount)
    ht hpre hpost
  refine ⟨fuel₀, fun fuel hf => ?_⟩
  obtain ⟨bytes', f', num, k1, k2, k3⟩ := hs fuel hf
  rw [heap_works (Inv.run h)] at k1
  obtain ⟨k4, k5, _⟩ := C55_save_step h hp bo hd root fuel
  unfold save at k1
  dsimp only at k1
  split at k1
  · cases k1
  · next h4 =>
    cases k1
    exact ⟨_, f', num, by rw [k4, h4], k5, k2, hw ▸ k3⟩

/-! ### saving to the path that was opened -/

theorem wanted_own {f : AvbFile} {order : Nat → Obj → List Visit} {es : List Work.Event} :
    OwnIids (wanted f order es) := by
  intro a e he
  unfold wanted at he
  cases ha : assigned a es with
  | some o => rw [ha] at he; cases he; rfl
  | none =>
    rw [ha] at he
    unfold fileHeap at he
    dsimp only at he
    split at he <;> cases he
    rfl

theorem wanted_ok {f : AvbFile} {order : Nat → Obj → List Visit}
    (horder : ∀ i o v, v ∈ order i o ↔ v ∈ o.visits) {es : List Work.Event} :
    HeapOK (wanted f order es) := by
  intro a e he
  unfold wanted at he
  cases ha : assigned a es with
  | some o => rw [ha] at he; cases he; exact horder a o
  | none => rw [ha] at he; exact fileHeap_ok f a e he

theorem readObject_empty {f : AvbFile} (hf : f.data = []) (r : Nat) :
    ∀ o, readObject f r ≠ .ok (some o) := by
  intro o h
  unfold readObject at h
  split at h
  · cases h
  · split at h
    · cases h
    · rw [hf] at h
      simp only [List.drop_nil] at h
      have hr : ∃ e, (rFourcc f.bo >>= fun id => rInt f.bo .u32 >>= fun size => pure (id, size)) [] =
          .error e := by
        cases f.bo
        · exact ⟨_, rfl⟩
        · exact ⟨_, rfl⟩
      obtain ⟨e, hr⟩ := hr
      rw [hr] at h
      cases h

/-- A save where some objects cannot be had: if those that can be had include all that are to be saved, it
makes no difference. -/
theorem saveRun_held {h h' : Heap} (hh : HeapOK h) (hown : OwnIids h) {P : Ref → Prop}
    (hin : ∀ r, P r → h' r = h r) (hout : ∀ r, ¬ P r → ∃ e, h' r = .error e) {content : Ref}
    (hall : ∀ x, Reach h content x → P x ∧ ∃ e, h x = .ok e) (fuel : Nat) (bo : BO) (hd : HeaderInfo) :
    saveRun h fuel bo hd content = saveRun h' fuel bo hd content := by
  refine saveRun_congr hh hown ?_ ?_ (fun x hx => (hall x hx).2) fuel bo hd
  · intro a e he
    by_cases hc : P a
    · rw [hin a hc] at he
      exact hown a e he
    · obtain ⟨e', h1⟩ := hout a hc
      rw [h1] at he; cases he
  · intro x hx
    rw [hin x (hall x hx).1]

/-- A save where an object that is to be saved cannot be had raises. -/
theorem saveRun_missing {h h' : Heap} {P : Ref → Prop}
    (hin : ∀ r, P r → h' r = h r) (hout : ∀ r, ¬ P r → ∃ e, h' r = .error e) {content x : Ref}
    (hx : Reach h content x) (hc : ¬ P x) (fuel : Nat) (bo : BO) (hd : HeaderInfo) :
    ∃ e, (saveRun h' fuel bo hd content).err = some e := by
  have hwalk : (walkObj h' fuel content).err ≠ none := by
    intro hok
    have held : ∀ a, ReflTransGen (Edge h') content a → a ≠ 0 → P a := by
      intro a ha ha0
      apply Classical.byContradiction
      intro hn
      obtain ⟨m, hm⟩ : ∃ m, (walkObj h' m a).err = none := by
        rcases ReflTransGen.cases_head_iff.1 ha with rfl | ⟨b, hb, hba⟩
        · exact ⟨fuel, hok⟩
        · obtain ⟨m, _, hm⟩ := walkObj_path hok (.head' hb hba)
          exact ⟨m, hm⟩
      obtain ⟨_, e, _, he, _⟩ := walkObj_last ha0 hm
      obtain ⟨e', h1⟩ := hout a hn
      rw [he] at h1; cases h1
    have : ∀ a, ReflTransGen (Edge h) content a → a ≠ 0 → ReflTransGen (Edge h') content a := by
      intro a ha
      induction ha with
      | refl => intro _; exact .refl
      | @tail b c _ hbc ih =>
        intro _
        obtain ⟨e, he, hb, hc', v, hv', rfl⟩ := hbc
        refine (ih hb).tail ⟨e, ?_, hb, hc', v, hv', rfl⟩
        rw [hin b (held b (ih hb) hb), he]
    exact hc (held x (this x hx.2 hx.1) hx.1)
  unfold saveRun
  split
  · dsimp only
    obtain ⟨e, he⟩ := Option.ne_none_iff_exists'.1 hwalk
    rw [he]
    split <;> first | exact ⟨_, rfl⟩ | (next h1 h2 => cases h2)
  · exact ⟨_, rfl⟩
  · exact ⟨_, rfl⟩
  · exact ⟨_, rfl⟩

/-- What a save to the path that was opened sees: the file is empty by then. -/
theorem heap_emptied {f : AvbFile} {src : Nat} {o : Obj} {es : List Event} {w : World}
    (h : Inv f src o es w) (order : Nat → Obj → List Visit) (r : Ref) :
    (w.mem.cache r ≠ none → heap (handle f src (setFile w.disk src [])) order w.mem r =
      wanted f order (works es) r) ∧
    (w.mem.cache r = none → ∃ e, heap (handle f src (setFile w.disk src [])) order w.mem r = .error e) := by
  constructor
  · intro hc
    rw [← heap_works h]
    unfold heap
    cases hr : w.mem.cache r with
    | some l => rfl
    | none => exact absurd hr hc
  · intro hc
    unfold heap
    rw [hc]
    dsimp only
    cases hr : readObject (handle f src (setFile w.disk src [])) r with
    | error e => exact ⟨e, rfl⟩
    | ok x =>
      cases x with
      | none => exact ⟨_, rfl⟩
      | some o => exact absurd hr (readObject_empty (by simp [handle, setFile]) r o)

/-- C55: a save to the path that was opened, when everything to be saved is in memory, writes what a save
to another path would write. -/
theorem C55_own_path_loaded {f : AvbFile} {src : Nat} {o₀ : Obj} {order : Nat → Obj → List Visit}
    (horder : ∀ i o v, v ∈ order i o ↔ v ∈ o.visits) {disk : Nat → Option Bytes} {es : List Event}
    {w : World} (h : Run f src order (start f src disk o₀) es w) (bo : BO) (hd : HeaderInfo)
    {content : Ref} (fuel : Nat)
    (hall : ∀ x, Reach (wanted f order (works es)) content x → w.mem.cache x ≠ none) :
    let run := saveRun (wanted f order (works es)) fuel bo hd content
    let r := write f src order fuel w src bo hd content
    r.2 = run.err ∧ r.1.disk src = some run.disk := by
  intro run r
  have hv := Inv.run h
  obtain ⟨k1, k2, _⟩ := write_eq f src order fuel w src bo hd content
  have he : run = saveRun (heap (handle f src (setFile w.disk src [])) order w.mem) fuel bo hd content := by
    refine saveRun_held (wanted_ok horder) wanted_own (P := fun r => w.mem.cache r ≠ none)
      (fun r => (heap_emptied hv order r).1) (fun r hr => (heap_emptied hv order r).2 (not_not.1 hr))
      (fun x hx => ⟨hall x hx, ?_⟩) fuel bo hd
    rw [← (heap_emptied hv order x).1 (hall x hx)]
    unfold heap
    cases hr : w.mem.cache x with
    | some l => exact ⟨_, rfl⟩
    | none => exact absurd hr (hall x hx)
  rw [← he] at k1 k2
  exact ⟨k1, by show r.1.disk src = _; rw [k2]; simp [setFile]⟩

/-- C55: a save to the path that was opened, when an object to be saved is not in memory: the file is
emptied before the object is looked up in it, so the save raises, and the file that was opened is lost. -/
theorem C55_own_path_lost {f : AvbFile} {src : Nat} {o₀ : Obj} {order : Nat → Obj → List Visit}
    {disk : Nat → Option Bytes} {es : List Event}
    {w : World} (h : Run f src order (start f src disk o₀) es w) (bo : BO) {hd : HeaderInfo}
    (ht : TextOK .macroman hd.last_save_str) {content : Ref} (fuel : Nat) {x : Ref}
    (hx : Reach (wanted f order (works es)) content x) (hc : w.mem.cache x = none) :
    let r := write f src order fuel w src bo hd content
    r.2 ≠ none ∧ ∃ bytes, r.1.disk src = some bytes ∧
      ∀ f' o, openFile bytes = .ok (f', o) → o = none := by
  intro r
  have hv := Inv.run h
  obtain ⟨k1, k2, _⟩ := write_eq f src order fuel w src bo hd content
  have herr := saveRun_missing (P := fun r => w.mem.cache r ≠ none) (fun r => (heap_emptied hv order r).1)
    (fun r hr => (heap_emptied hv order r).2 (not_not.1 hr)) hx (not_not.2 hc) fuel bo hd
  obtain ⟨e, he⟩ := herr
  refine ⟨by show r.2 ≠ none; rw [k1, he]; simp, _, by show r.1.disk src = _; rw [k2]; simp [setFile]; rfl, ?_⟩
  intro f' o ho
  exact C35_failed_save ht he ho

/-! ### examples -/

theorem lift_run {f : AvbFile} {src : Nat} {o : Obj} {order : Nat → Obj → List Visit}
    {disk : Nat → Option Bytes} {es : List Work.Event} {s : St} (h : Work.Run f (Work.start f o) es s) :
    ∃ w, Run f src order (start f src disk o) (es.map .work) w ∧ w.mem = s ∧ w.disk src = some f.data := by
  induction h with
  | nil => exact ⟨_, .nil _, rfl, by simp [start, setFile]⟩
  | @snoc s1 s2 e es _ h2 ih =>
    obtain ⟨w, h3, h4, h5⟩ := ih
    refine ⟨{ w with mem := s2 }, ?_, rfl, h5⟩
    rw [List.map_append]
    refine h3.snoc (.work w e s2 ?_)
    rw [handle_source h5, h4]
    exact h2

theorem works_map (es : List Work.Event) : works (es.map .work) = es := by
  induction es with
  | nil => rfl
  | cons e es ih => simp only [List.map_cons, works, List.filterMap_cons] at ih ⊢; rw [ih]

/-- The history of C51 with two saves after it: one to path 7 that raises (no recursion is allowed), one to
path 8 in the other byte order. -/
def exSaves (bo : BO) : List Event :=
  exHistory.map .work ++ [.save 7 bo exInfo 3 0] ++ [.save 8 .big exInfo 3 5]

/-- The hypotheses of the theorems can be met by this history; the save after it is to path 7 again. -/
example (bo : BO) : ∃ bytes f w, openTable bytes = .ok f ∧
    Run f 1 (fun _ => Obj.visits) (start f 1 (fun _ => none) exFill) (exSaves bo) w ∧
    (∃ fuel₀, ∀ fuel ≥ fuel₀, ∃ bytes' f' num,
      (write f 1 (fun _ => Obj.visits) fuel w 7 bo exInfo 3).2 = none ∧
      (write f 1 (fun _ => Obj.visits) fuel w 7 bo exInfo 3).1.disk 7 = some bytes' ∧
      openTable bytes' = .ok f' ∧ Holds f' (wanted f (fun _ => Obj.visits) exHistory) 3 num) := by
  obtain ⟨bytes, f, _, hf, f1, f2, f3, hr, hn, hp⟩ := exFile_ok bo
  obtain ⟨pre, hpre⟩ := exInfo_pre bo
  obtain ⟨post, hpost⟩ := exInfo_post bo
  obtain ⟨s, hs⟩ := exHistory_run f1 f3 hp
  obtain ⟨m1, m2, m3, m4, _⟩ := exHistory_meets f1 f2 hn
  obtain ⟨w, hw, _⟩ := lift_run (src := 1) (order := fun _ => Obj.visits) (disk := fun _ => none) hs
  have hw' := (hw.snoc (.save w 7 bo exInfo 3 0 [] (by decide))).snoc (.save _ 8 .big exInfo 3 5 [2] (by decide))
  have hwk : works (exSaves bo) = exHistory := by
    have := works_map exHistory
    unfold works at this ⊢
    simp only [exSaves, List.filterMap_append, this]
    simp
  refine ⟨bytes, f, _, hf, hw', ?_⟩
  have key := C55_save_again hf (fun _ _ _ => Iff.rfl) hw' (root := 3) (path := 7) (bo := bo) (hd := exInfo)
    (pre := pre) (post := post)
  rw [show exHistory.map Event.work ++ [.save 7 bo exInfo 3 0] ++ [.save 8 .big exInfo 3 5] = exSaves bo
    from rfl, hwk] at key
  exact key (fun i o h _ => m1 i o h) m2 _ m3 m4 exInfo_ok hpre hpost (by decide)

theorem exLooks_reach {f : AvbFile} (f1 : readObject f 1 = .ok (some exFill))
    (f2 : readObject f 2 = .ok (some exClip)) (f3 : readObject f 3 = .ok (some exSeqF))
    {es : List Work.Event} (he : ∀ i, assigned i es = none) (x : Ref) :
    Reach (wanted f (fun _ => Obj.visits) es) 3 x ↔ x = 1 ∨ x = 2 ∨ x = 3 := by
  have g1 : wanted f (fun _ => Obj.visits) es 1 = .ok ⟨1, true, exFill, exFill.visits⟩ := by
    simp [wanted, he, fileHeap, f1]
  have g2 : wanted f (fun _ => Obj.visits) es 2 = .ok ⟨2, true, exClip, exClip.visits⟩ := by
    simp [wanted, he, fileHeap, f2]
  have g3 : wanted f (fun _ => Obj.visits) es 3 = .ok ⟨3, true, exSeqF, exSeqF.visits⟩ := by
    simp [wanted, he, fileHeap, f3]
  constructor
  · rintro ⟨_, hx⟩
    induction hx with
    | refl => exact .inr (.inr rfl)
    | @tail b c _ hbc ih =>
      obtain ⟨e, he, hb0, hc, v, hv, rfl⟩ := hbc
      rcases ih hb0 with rfl | rfl | rfl
      · rw [g1] at he; cases he
        have : ∀ v ∈ exFill.visits, v.ref = 0 := by decide
        exact absurd (this v hv) hc
      · rw [g2] at he; cases he
        have : ∀ v ∈ exClip.visits, v.ref = 0 := by decide
        exact absurd (this v hv) hc
      · rw [g3] at he; cases he
        have : ∀ v ∈ exSeqF.visits, v.ref ≠ 0 → v.ref = 1 ∨ v.ref = 2 := by decide
        rcases this v hv hc with h | h
        · exact .inl h
        · exact .inr (.inl h)
  · have a1 : ∃ v ∈ exSeqF.visits, v.ref = 1 := by decide
    have a2 : ∃ v ∈ exSeqF.visits, v.ref = 2 := by decide
    rintro (rfl | rfl | rfl)
    · exact ⟨by decide, .single ⟨_, g3, by decide, by decide, a1⟩⟩
    · exact ⟨by decide, .single ⟨_, g3, by decide, by decide, a2⟩⟩
    · exact ⟨by decide, .refl⟩

/-- The hypotheses of `C55_own_path_lost` can be met: only the sequence has been looked up. -/
example (bo : BO) : ∃ bytes f w, openTable bytes = .ok f ∧
    Run f 1 (fun _ => Obj.visits) (start f 1 (fun _ => none) exFill) [.work (.look 3)] w ∧
    ∀ fuel, (write f 1 (fun _ => Obj.visits) fuel w 1 bo exInfo 3).2 ≠ none := by
  obtain ⟨bytes, f, _, hf, f1, f2, f3, hr, hn, hp⟩ := exFile_ok bo
  obtain ⟨w, hw, hm, _⟩ := lift_run (src := 1) (order := fun _ => Obj.visits) (disk := fun _ => none)
    ((Work.Run.nil (f := f) (Work.start f exFill)).snoc (.look _ 3))
  refine ⟨bytes, f, w, hf, hw, fun fuel => ?_⟩
  refine (C55_own_path_lost hw bo exInfo_ok fuel (x := 1)
    ((exLooks_reach f1 f2 f3 (by intro i; rfl) 1).2 (.inl rfl)) ?_).1
  rw [hm]
  simp [look, Work.start, f3, put]

/-- The hypotheses of `C55_own_path_loaded` can be met: everything has been looked up. -/
example (bo : BO) : ∃ bytes f w, openTable bytes = .ok f ∧
    Run f 1 (fun _ => Obj.visits) (start f 1 (fun _ => none) exFill)
      [.work (.look 3), .work (.look 1), .work (.look 2)] w ∧
    ∀ fuel, (write f 1 (fun _ => Obj.visits) fuel w 1 bo exInfo 3).1.disk 1 =
      some (saveRun (wanted f (fun _ => Obj.visits) []) fuel bo exInfo 3).disk := by
  obtain ⟨bytes, f, _, hf, f1, f2, f3, hr, hn, hp⟩ := exFile_ok bo
  obtain ⟨w, hw, hm, _⟩ := lift_run (src := 1) (order := fun _ => Obj.visits) (disk := fun _ => none)
    ((((Work.Run.nil (f := f) (Work.start f exFill)).snoc (.look _ 3)).snoc (.look _ 1)).snoc (.look _ 2))
  refine ⟨bytes, f, w, hf, hw, fun fuel => ?_⟩
  refine (C55_own_path_loaded (fun _ _ _ => Iff.rfl) hw bo exInfo fuel ?_).2
  intro x hx
  rw [hm]
  rcases (exLooks_reach f1 f2 f3 (by intro i; rfl) x).1 hx with rfl | rfl | rfl <;>
    simp [look, Work.start, f1, f2, f3, put, alloc]

end Disk
end Avb

import Verif.Props.Examples
import Verif.Props.Fields
import Verif.Lemmas.StoredNorm
import Verif.Lemmas.Renumber
import Verif.Lemmas.ResaveFile
import Verif.Lemmas.MonoAll

/-
C06-C10: objects of every class, one at a time.
-/

namespace Avb

/-- A reader of a file with `n` objects. -/
def exRead (bo : BO) (n : Nat) : RCtx := { bo, nobj := n }

/-- A writer that keeps the numbers of references below `n`. -/
def exWrite (bo : BO) (n : Nat) : WCtx := { bo, refMap := fun r => if r < n then some r else none }

theorem ex_linked (bo : BO) {n : Nat} (hn : 0 < n) : Linked (exWrite bo n) (exRead bo n) := by
  refine ⟨rfl, hn, fun i k h => ?_⟩
  simp only [exWrite] at h
  split at h
  · injection h with h; subst h; assumption
  · cases h


/-- Decide whether a writer succeeds. -/
def Wr.isOk {α : Type} (w : Wr α) : Bool :=
  match w with
  | .ok _ => true
  | .error _ => false

theorem Wr.isOk_iff {w : Wr Unit} : w.isOk = true ↔ ∃ bs, w = .ok ((), bs) := by
  cases w with
  | ok p => exact ⟨fun _ => ⟨p.2, rfl⟩, fun _ => rfl⟩
  | error e => exact ⟨nofun, nofun⟩

/-- A clip whose attributes are object 2. -/
def exClip2 : Obj :=
  .SCLP { toComponent := { exComp ['c', 'l', 'i', 'p'] with attributes := 2 }, length := 12,
          track_id := 1, start_time := 5, mob_id := some MobID.zero }

theorem exClip2_write (bo : BO) : ∃ bs, exClip2.write (exWrite bo 4) = .ok ((), bs) := by
  apply Wr.isOk_iff.1
  cases bo <;> decide +kernel

theorem exClip2_readable : exClip2.Readable := textsOK_short (by decide)

theorem exClip2_stored : exClip2.Stored := by
  refine ⟨?_, ?_, ?_⟩
  · intro p hp; revert p; decide
  · intro r hr; revert r; decide +kernel
  · exact ⟨by decide, by decide⟩

/-! ### C06 -/

/-- C06: what is written is read back, of every class, in both byte orders and under any numbering of
references, whatever follows in the data.  `Obj.norm` is the object as it has to look: see
`C06_unchanged`, `C06_references` and `C06_stored` for what it leaves alone. -/
theorem C06_read_back {c : WCtx} {d : RCtx} (hl : Linked c d) {x : Obj} (hx : x.Readable)
    {bs : Bytes} (hw : x.write c = .ok ((), bs)) (rest : Bytes) :
    Obj.readAs d x.cls (bs ++ rest) = .ok (x.norm c, rest) :=
  Obj.rt hl hx _ hw rest trivial

/-- C06: an object in stored form whose references keep their numbers is read back exactly as it was. -/
theorem C06_unchanged {c : WCtx} {d : RCtx} (hl : Linked c d) {x : Obj} (hx : x.Readable)
    (hs : x.Stored) (hf : ∀ v ∈ x.visits, v.ref = 0 ∨ c.refMap v.ref = some v.ref)
    {bs : Bytes} (hw : x.write c = .ok ((), bs)) (rest : Bytes) :
    Obj.readAs d x.cls (bs ++ rest) = .ok (x, rest) := by
  have hf' : FixRefs c x.visits := by
    intro v hv
    rcases hf v hv with h | h
    · simp [WCtx.tr, h]
    · unfold WCtx.tr
      split
      · next h0 => exact h0.symm
      · simp [h]
  rw [C06_read_back hl hx hw rest, Obj.norm_self hf' hs]

/-- The hypotheses of `C06_read_back` and `C06_unchanged` can be met: a clip with a reference. -/
example (bo : BO) : ∃ bs, exClip2.write (exWrite bo 4) = .ok ((), bs) ∧
    ∀ rest, Obj.readAs (exRead bo 4) .SCLP (bs ++ rest) = .ok (exClip2, rest) := by
  obtain ⟨bs, hw⟩ := exClip2_write bo
  refine ⟨bs, hw, C06_unchanged (ex_linked bo (by decide)) exClip2_readable exClip2_stored ?_ hw⟩
  cases bo <;> decide

/-- C06: the references of the object read are those of the object written, in order, each replaced by
the number it was saved under. -/
theorem C06_references {c : WCtx} {d : RCtx} (hl : Linked c d) {x : Obj} (hx : x.Readable)
    (hs : x.Stored) {bs : Bytes} (hw : x.write c = .ok ((), bs)) (rest : Bytes) :
    ∃ y, Obj.readAs d x.cls (bs ++ rest) = .ok (y, rest) ∧ y.cls = x.cls ∧
      y.visits = x.visits.map (Visit.map fun r => if r = 0 then 0 else (c.refMap r).getD 0) :=
  ⟨_, C06_read_back hl hx hw rest, Obj.norm_cls, Obj.norm_visits_eq hs.clean⟩

/-- C06: of an object in stored form nothing changes but the numbers of the objects it refers to. -/
theorem C06_renumbered {c : WCtx} {d : RCtx} (hl : Linked c d) {x : Obj} (hx : x.Readable)
    (hs : x.Stored) {bs : Bytes} (hw : x.write c = .ok ((), bs)) (rest : Bytes) :
    Obj.readAs d x.cls (bs ++ rest) =
      .ok (x.renumber fun r => if r = 0 then 0 else (c.refMap r).getD 0, rest) := by
  rw [C06_read_back hl hx hw rest, Obj.norm_renumber hs]
  rfl

/-- C06: what is read back is in stored form (if its edit rates are), so it never changes again. -/
theorem C06_stored {c : WCtx} {d : RCtx} (hl : Linked c d) {x : Obj} (hx : x.Readable)
    {bs : Bytes} (hw : x.write c = .ok ((), bs)) (rest : Bytes) :
    ∃ y, Obj.readAs d x.cls (bs ++ rest) = .ok (y, rest) ∧ (Stable y.rates → y.Stored) :=
  ⟨_, C06_read_back hl hx hw rest, Obj.norm_stored⟩

/-- C06: two objects that are read back differently were written differently. -/
theorem C06_distinct {c : WCtx} {d : RCtx} (hl : Linked c d) {x y : Obj} (hx : x.Readable)
    (hy : y.Readable) (hc : x.cls = y.cls) (hn : x.norm c ≠ y.norm c) {bs : Bytes}
    (hw : x.write c = .ok ((), bs)) : y.write c ≠ .ok ((), bs) := by
  intro hw'
  have h1 := C06_read_back hl hx hw []
  have h2 := C06_read_back hl hy hw' []
  rw [hc, h2] at h1
  injection h1 with h1
  injection h1 with h1 _
  exact hn h1.symm

/-- Two clips that differ in their start. -/
example : ∃ x y : Obj, x.Readable ∧ y.Readable ∧ x.cls = y.cls ∧
    x.norm (exWrite .big 4) ≠ y.norm (exWrite .big 4) ∧
      ∃ bs, x.write (exWrite .big 4) = .ok ((), bs) := by
  refine ⟨exClip2, exClip, exClip2_readable, textsOK_short (by decide), rfl, ?_, exClip2_write _⟩
  intro h
  injection h with h
  revert h
  decide +kernel

/-! ### C07 -/

/-- C07: what can be written in one byte order can be written in the other, and gives as many bytes. -/
theorem C07_length {m : Nat → Option Nat} {bo bo' : BO} {x : Obj}
    {bs : Bytes} (hw : x.write ⟨bo, m⟩ = .ok ((), bs)) :
    ∃ bs', x.write ⟨bo', m⟩ = .ok ((), bs') ∧ bs'.length = bs.length :=
  Obj.write_rel (c := ⟨bo, m⟩) (c' := ⟨bo', m⟩) (fun _ _ h => h) () bs hw

/-- C07: what cannot be written in one byte order cannot be written in the other either. -/
theorem C07_raises {m : Nat → Option Nat} {bo bo' : BO} {x : Obj} :
    (∃ e, x.write ⟨bo, m⟩ = .error e) ↔ ∃ e, x.write ⟨bo', m⟩ = .error e := by
  have one : ∀ bo bo' : BO, (∃ e, x.write ⟨bo, m⟩ = .error e) → ∃ e, x.write ⟨bo', m⟩ = .error e := by
    rintro bo bo' ⟨e, he⟩
    match h : x.write ⟨bo', m⟩ with
    | .error e' => exact ⟨e', rfl⟩
    | .ok ((), bs) =>
      obtain ⟨_, h', _⟩ := C07_length (bo' := bo) h
      rw [he] at h'
      cases h'
  exact ⟨one bo bo', one bo' bo⟩

/-- A clip of which the attributes have no number yet: refused in one byte order, so in the other. -/
example : (∃ e, exClip2.write ⟨.little, fun _ => none⟩ = .error e) ∧
    ∃ e, exClip2.write ⟨.big, fun _ => none⟩ = .error e := by
  have h : ∃ e, exClip2.write ⟨.little, fun _ => none⟩ = .error e := ⟨.exception, by rfl⟩
  exact ⟨h, C07_raises.1 h⟩

/-- C07: read back each in its own byte order, the two give the same object. -/
theorem C07_same {m : Nat → Option Nat} {n : Nat} (hn : 0 < n)
    (hm : ∀ i k, m i = some k → k < n) {x : Obj} (hx : x.Readable) {b1 b2 : Bytes}
    (h1 : x.write ⟨.little, m⟩ = .ok ((), b1)) (h2 : x.write ⟨.big, m⟩ = .ok ((), b2)) :
    ∃ y, Obj.readAs ⟨.little, n⟩ x.cls b1 = .ok (y, []) ∧ Obj.readAs ⟨.big, n⟩ x.cls b2 = .ok (y, []) := by
  refine ⟨x.norm ⟨.little, m⟩, ?_, ?_⟩
  · simpa using C06_read_back (c := ⟨.little, m⟩) (d := ⟨.little, n⟩) ⟨rfl, hn, hm⟩ hx h1 []
  · have he : x.norm ⟨.little, m⟩ = x.norm ⟨.big, m⟩ := Obj.norm_congr fun _ _ => rfl
    rw [he]
    simpa using C06_read_back (c := ⟨.big, m⟩) (d := ⟨.big, n⟩) ⟨rfl, hn, hm⟩ hx h2 []

/-- A clip, written both ways. -/
example : ∃ b1 b2 y, exClip2.write (exWrite .little 4) = .ok ((), b1) ∧
    exClip2.write (exWrite .big 4) = .ok ((), b2) ∧ b1 ≠ b2 ∧ b1.length = b2.length ∧
    Obj.readAs (exRead .little 4) .SCLP b1 = .ok (y, []) ∧
    Obj.readAs (exRead .big 4) .SCLP b2 = .ok (y, []) := by
  obtain ⟨b1, h1⟩ := exClip2_write .little
  obtain ⟨b2, h2, hl⟩ := C07_length (bo' := .big) h1
  obtain ⟨y, r1, r2⟩ := C07_same (n := 4) (by decide) (ex_linked .big (by decide)).range
    exClip2_readable h1 h2
  refine ⟨b1, b2, y, h1, h2, ?_, hl.symm, r1, r2⟩
  rintro rfl
  rw [← h2] at h1
  revert h1
  have : ∀ x y : Wr Unit, (match x, y with | .ok a, .ok b => decide (a.2 = b.2) | _, _ => true) = false →
      x ≠ y := by
    rintro (_ | ⟨_, a⟩) y h rfl <;> simp at h
  exact this _ _ (by decide +kernel)

/-! ### C08 -/

/-- C08: an object written, read and written again, its references now being the numbers they were
saved under, gives the same bytes. -/
theorem C08_rewrite {c : WCtx} {d : RCtx} (hl : Linked c d) {m : Nat → Option Nat}
    (hm : ∀ r k, r ≠ 0 → c.refMap r = some k → k ≠ 0 ∧ m k = some k) {x : Obj} (hx : x.Readable)
    (hc : x.Clean) {bs : Bytes} (hw : x.write c = .ok ((), bs)) :
    ∃ y, Obj.readAs d x.cls bs = .ok (y, []) ∧ y.write ⟨c.bo, m⟩ = .ok ((), bs) :=
  ⟨x.norm c, by simpa using C06_read_back hl hx hw [], Obj.write_imp hm hc () bs hw⟩

/-- C08: a whole file saved, opened and saved again with the same header data has the same bytes. -/
theorem C08_resave {h : Heap} {fuel : Nat} {bo : BO} {hd : HeaderInfo} {content : Ref} {bytes : Bytes}
    (hh : HeapOK h) (hord : ∀ r e, Reach h content r → h r = .ok e → e.visits = e.obj.visits)
    (hinj : IidInj h content) (ht : TextOK .macroman hd.last_save_str)
    (hread : ∀ a e, Reach h content a → h a = .ok e → e.obj.Readable ∧ e.obj.Clean)
    (hs : save h fuel bo hd content = .ok bytes) :
    ∃ f, openTable bytes = .ok f ∧ save (fileHeap f) fuel bo hd f.header.root_index = .ok bytes :=
  save_again hh hord hinj ht hread hs

theorem exHeap_clean {r : Ref} {e : Entry} (he : exHeap r = .ok e) : e.obj.Readable ∧ e.obj.Clean := by
  refine ⟨exHeap_readable he, ?_⟩
  rcases exHeap_cases he with ⟨rfl, rfl⟩ | ⟨rfl, rfl⟩ | ⟨rfl, rfl⟩ <;>
    refine ⟨fun p hp => ?_, fun r hr => ?_, trivial⟩ <;>
    first
      | (revert p; decide)
      | (revert r; decide +kernel)

theorem exHeap_visits {r : Ref} {e : Entry} (he : exHeap r = .ok e) : e.visits = e.obj.visits := by
  rcases exHeap_cases he with ⟨rfl, rfl⟩ | ⟨rfl, rfl⟩ | ⟨rfl, rfl⟩ <;> rfl

example (bo : BO) : ∃ bytes f, save exHeap 10 bo exInfo 1 = .ok bytes ∧ openTable bytes = .ok f ∧
    save (fileHeap f) 10 bo exInfo f.header.root_index = .ok bytes := by
  obtain ⟨bytes, hs⟩ := exHeap_save bo
  obtain ⟨f, h1, h2⟩ := C08_resave exHeap_ok (fun _ _ _ he => exHeap_visits he) (exHeap_inj 1) exInfo_ok
    (fun _ _ _ he => exHeap_clean he) hs
  exact ⟨bytes, f, hs, h1, h2⟩

/-- Open a file and save it, `n` times over. -/
def resaves (fuel : Nat) (hd : HeaderInfo) : Nat → Bytes → Except Err Bytes
  | 0, bytes => .ok bytes
  | n + 1, bytes => do
    let f ← openTable bytes
    let bytes' ← save (fileHeap f) fuel f.bo hd f.header.root_index
    resaves fuel hd n bytes'

/-- C08: however often the file is opened and saved again, its bytes stay as they are. -/
theorem C08_forever {h : Heap} {fuel : Nat} {bo : BO} {hd : HeaderInfo} {content : Ref} {bytes : Bytes}
    (hh : HeapOK h) (hord : ∀ r e, Reach h content r → h r = .ok e → e.visits = e.obj.visits)
    (hinj : IidInj h content) (ht : TextOK .macroman hd.last_save_str)
    (hread : ∀ a e, Reach h content a → h a = .ok e → e.obj.Readable ∧ e.obj.Clean)
    (hs : save h fuel bo hd content = .ok bytes) (n : Nat) : resaves fuel hd n bytes = .ok bytes := by
  obtain ⟨f, hf, hsv⟩ := save_again hh hord hinj ht hread hs
  have hbo : f.bo = bo := by
    obtain ⟨pre, post, s, done, sc⟩ := save_core hh hs
    rw [sc.table ht] at hf
    injection hf with hf
    rw [← hf]; rfl
  induction n with
  | zero => rfl
  | succ n ih =>
    unfold resaves
    rw [hf]
    show (save (fileHeap f) fuel f.bo hd f.header.root_index >>= fun b => resaves fuel hd n b) = _
    rw [hbo]
    show (save (fileHeap f) fuel bo hd f.header.root_index >>= fun b => resaves fuel hd n b) = _
    rw [hsv]
    exact ih

/-- The example file, opened and saved seven times over. -/
example (bo : BO) : ∃ bytes, save exHeap 10 bo exInfo 1 = .ok bytes ∧
    resaves 10 exInfo 7 bytes = .ok bytes := by
  obtain ⟨bytes, hs⟩ := exHeap_save bo
  exact ⟨bytes, hs, C08_forever exHeap_ok (fun _ _ _ he => exHeap_visits he) (exHeap_inj 1) exInfo_ok
    (fun _ _ _ he => exHeap_clean he) hs 7⟩

/-- A clip of the example written, read and written again. -/
example (bo : BO) : ∃ bs y, exClip2.write (exWrite bo 4) = .ok ((), bs) ∧
    Obj.readAs (exRead bo 4) .SCLP bs = .ok (y, []) ∧ y.write (exWrite bo 4) = .ok ((), bs) := by
  obtain ⟨bs, hw⟩ := exClip2_write bo
  have hm : ∀ r k, r ≠ 0 → (exWrite bo 4).refMap r = some k → k ≠ 0 ∧ (exWrite bo 4).refMap k = some k := by
    intro r k hr hk
    simp only [exWrite] at hk ⊢
    split at hk
    · injection hk with hk; subst hk; exact ⟨hr, by simp_all⟩
    · cases hk
  obtain ⟨y, h1, h2⟩ := C08_rewrite (ex_linked bo (by decide)) hm exClip2_readable exClip2_stored.clean hw
  exact ⟨bs, y, hw, h1, h2⟩

/-- A gap at 24000/1001 frames a second. -/
def exDrift : Obj :=
  .FILL { toComponent := { exComp ['g', 'a', 'p'] with edit_rate := .fin (rnd (24000 / 1001)) }, length := 10 }

/-- A gap whose name ends in a NUL. -/
def exNul : Obj := .FILL { toComponent := exComp ['g', 'a', 'p', '\x00'], length := 10 }

/-- Write, read and write again. -/
def rewritten (x : Obj) : Option (Bytes × Bytes) :=
  match x.write (exWrite .little 4) with
  | .error _ => none
  | .ok (_, bs) =>
    match Obj.readAs (exRead .little 4) x.cls bs with
    | .error _ => none
    | .ok (y, _) =>
      match y.write (exWrite .little 4) with
      | .error _ => none
      | .ok (_, bs') => some (bs, bs')

/-- C08 fails without the condition on rates: this gap is written differently the second time. -/
theorem C08_drift : ∃ p, rewritten exDrift = some p ∧ p.1 ≠ p.2 := by
  have : ∀ o : Option (Bytes × Bytes), (match o with | some p => decide (p.1 ≠ p.2) | none => false) = true →
      ∃ p, o = some p ∧ p.1 ≠ p.2 := by
    rintro (_ | p) h
    · cases h
    · exact ⟨p, rfl, by simpa using h⟩
  exact this _ (by decide +kernel)

/-- C08 fails without the condition on texts: this name loses its NUL, and its length changes. -/
theorem C08_nul : ∃ p, rewritten exNul = some p ∧ p.2.length + 1 = p.1.length := by
  have : ∀ o : Option (Bytes × Bytes),
      (match o with | some p => decide (p.2.length + 1 = p.1.length) | none => false) = true →
      ∃ p, o = some p ∧ p.2.length + 1 = p.1.length := by
    rintro (_ | p) h
    · cases h
    · exact ⟨p, rfl, by simpa using h⟩
  exact this _ (by decide +kernel)

/-! ### C09 -/

/-- The data left by a loop over extension items is never empty. -/
theorem iterExt_rest {σ : Type} {body : Int → σ → Rd σ} {s : σ} {bs : Bytes} {v : σ × Bytes}
    (h : iterExt body s bs = .ok v) : v.2 ≠ [] := by
  induction hn : bs.length using Nat.strongRecOn generalizing s bs with
  | ind n ih =>
    unfold iterExt at h
    split at h
    · cases h
    · split at h
      · injection h with h; rw [← h]; simp
      · split at h
        · cases h
        · split at h
          · cases h
          · split at h
            · refine ih _ ?_ h rfl
              simp only [List.length_cons] at hn
              omega
            · cases h

/-- C09: a plain track group, the only class whose record has no end of its own, is accepted in no
file whatever. -/
theorem C09_trackgroup {d : RCtx} {bs : Bytes} {o : Obj} : Obj.readAs d .TRKG bs ≠ .ok (o, []) := by
  intro h
  obtain ⟨x, rest, h, h1⟩ := Rd.bind_eq_ok (h : (TrackGroup.read d >>= fun x => pure (Obj.TRKG x)) bs = _)
  cases h1
  unfold TrackGroup.read at h
  iterate 8 obtain ⟨_, _, _, h⟩ := Rd.bind_eq_ok h
  exact iterExt_rest h rfl

/-- C09: when a reader accepts a chunk, it raises on every shorter beginning of it. -/
theorem C09_cut {d : RCtx} {k : Cls} {bs : Bytes} {o : Obj}
    (h : Obj.readAs d k bs = .ok (o, [])) (n : Nat) (hn : n < bs.length) :
    ∃ e, Obj.readAs d k (bs.take n) = .error e := by
  by_cases hk : k = .TRKG
  · subst hk; exact absurd h C09_trackgroup
  match hr : Obj.readAs d k (bs.take n) with
  | .error e => exact ⟨e, rfl⟩
  | .ok (v, rest) =>
    have := (Obj.readAs_strict d k hk).more hr (bs.drop n)
    rw [List.take_append_drop, h] at this
    injection this with this
    injection this with _ this
    have hd : bs.drop n = [] := (List.append_eq_nil_iff.1 this.symm).2
    have := congrArg List.length hd
    simp at this
    omega

/-- C09: nor does it accept the chunk with more data behind it as ending there. -/
theorem C09_longer {d : RCtx} {k : Cls} {bs : Bytes} {o : Obj}
    (h : Obj.readAs d k bs = .ok (o, [])) (more : Bytes) :
    Obj.readAs d k (bs ++ more) = .ok (o, more) := by
  by_cases hk : k = .TRKG
  · subst hk; exact absurd h C09_trackgroup
  exact (Obj.readAs_strict d k hk).more h more

/-- The chunk of a clip, cut one byte short. -/
example (bo : BO) : ∃ bs y e, exClip2.write (exWrite bo 4) = .ok ((), bs) ∧
    Obj.readAs (exRead bo 4) .SCLP bs = .ok (y, []) ∧
    Obj.readAs (exRead bo 4) .SCLP bs.dropLast = .error e := by
  obtain ⟨bs, hw⟩ := exClip2_write bo
  have h := C06_read_back (ex_linked bo (by decide)) exClip2_readable hw []
  rw [List.append_nil] at h
  have hne : bs ≠ [] := by
    rintro rfl
    have := Obj.write_last (by decide) (by decide) hw; cases this
  obtain ⟨e, he⟩ := C09_cut h (bs.length - 1) (by have := List.length_pos_iff.2 hne; omega)
  exact ⟨bs, _, e, hw, h, by rw [List.dropLast_eq_take]; exact he⟩

/-! ### C10 -/

/-- C10: what is appended to the file for an object. -/
theorem C10_chunk {c : WCtx} {e : Entry} {bs : Bytes} (h : writeObject c e = .ok ((), bs)) :
    ∃ size data, bs = (match c.bo with | .little => e.obj.cls.id.reverse | .big => e.obj.cls.id) ++
        size ++ data ∧ e.obj.cls.id.length = 4 ∧ size.length = 4 ∧
      bigValue (match c.bo with | .little => size.reverse | .big => size) = data.length ∧
      e.obj.write c = .ok ((), data) ∧ data.getLast? = some 3 := by
  obtain ⟨_, data, hw, hl, hlt, rfl⟩ := writeObject_ok h
  refine ⟨packNat c.bo 4 data.length, data, ?_, Cls.id_length _, packNat_length _ _ _, ?_, hw, hl⟩
  · obtain ⟨bo, m⟩ := c
    cases bo <;> rfl
  · obtain ⟨bo, m⟩ := c
    cases bo <;> simp [bigValue_eq, packNat, leVal_leBytes] <;> exact hlt

/-- C10: an object whose payload would not end in 0x03 is refused. -/
theorem C10_unterminated {c : WCtx} {e : Entry} {data : Bytes} (h : e.obj.write c = .ok ((), data))
    (hl : data.getLast? ≠ some 3) : ∃ err, writeObject c e = .error err := by
  match hr : writeObject c e with
  | .error err => exact ⟨err, rfl⟩
  | .ok ((), bs) =>
    obtain ⟨_, data', hw, hl', _⟩ := writeObject_ok hr
    rw [h] at hw
    injection hw with hw
    injection hw with _ hw
    exact absurd (hw ▸ hl') hl

/-- A data descriptor. -/
def exDatd : Obj :=
  .DATD { mob_kind := 1, locator := 2, intermediate := false, physical_media := 0, uuid := none,
          wchar := none, attributes := none, edit_rate := .fin 25, length := 100, is_omfi := 1,
          data_offset := 0, is_offset_to_frame_indexes_valid := false, offset_to_frame_indexes := 0,
          first_frame_offset := 0, min_sample_size := 4, max_sample_size := 4 }

/-- The chunk of a clip. -/
example (bo : BO) : ∃ bs size data, writeObject (exWrite bo 4) ⟨7, true, exClip2, exClip2.visits⟩ = .ok ((), bs) ∧
    bs = (match bo with | .little => [80, 76, 67, 83] | .big => [83, 67, 76, 80]) ++ size ++ data ∧
    data.getLast? = some 3 := by
  have h : ∃ bs, writeObject (exWrite bo 4) ⟨7, true, exClip2, exClip2.visits⟩ = .ok ((), bs) := by
    apply Wr.isOk_iff.1
    cases bo <;> decide +kernel
  obtain ⟨bs, h⟩ := h
  obtain ⟨size, data, h1, _, _, _, _, h2⟩ := C10_chunk h
  exact ⟨bs, size, data, h, by cases bo <;> exact h1, h2⟩

/-- A data descriptor is refused unless its last field happens to end in 0x03. -/
example : ∃ x err, (∃ bs, Obj.write (exWrite .big 4) x = .ok ((), bs) ∧ bs.getLast? ≠ some 3) ∧
    writeObject (exWrite .big 4) ⟨7, true, x, x.visits⟩ = .error err := by
  have : ∀ w : Wr Unit, (match w with | .ok p => decide (p.2.getLast? ≠ some 3) | .error _ => false) = true →
      ∃ bs, w = .ok ((), bs) ∧ bs.getLast? ≠ some 3 := by
    rintro (_ | ⟨_, p⟩) h
    · cases h
    · exact ⟨p, rfl, by simpa using h⟩
  obtain ⟨bs, hw, hl⟩ := this (Obj.write (exWrite .big 4) exDatd) (by decide +kernel)
  obtain ⟨err, he⟩ := C10_unterminated (e := ⟨7, true, exDatd, exDatd.visits⟩) hw hl
  exact ⟨exDatd, err, ⟨bs, hw, hl⟩, he⟩

/-- C10: every class but two always writes the closing 0x03 itself. -/
theorem C10_closes {c : WCtx} {x : Obj} (h1 : x.cls ≠ .TRKG) (h2 : x.cls ≠ .DATD) {bs : Bytes}
    (hw : x.write c = .ok ((), bs)) : bs.getLast? = some 3 := Obj.write_last h1 h2 hw

example (bo : BO) : ∃ bs, exClip2.write (exWrite bo 4) = .ok ((), bs) ∧ bs.getLast? = some 3 :=
  (exClip2_write bo).imp fun _ h => ⟨h, C10_closes (by decide) (by decide) h⟩

/-- C10: the ids of different classes differ. -/
theorem C10_ids (k k' : Cls) (h : k.id = k'.id) : k = k' := by
  have := Cls.ofId_id k
  rw [h, Cls.ofId_id k'] at this
  exact (Option.some.inj this).symm

end Avb

import Verif.Props.Loaded
import Verif.Props.File

/-
C49, C50: opening a file, editing some of its objects, and saving it.
-/

namespace Avb

open Relation

deriving instance DecidableEq for Obj
deriving instance DecidableEq for Except

/-- What a loaded object has to satisfy to be saved and come back as it was: no plain track group or data
descriptor, what `Obj.Resavable` asks, rates and lock numbers as they are stored, and less than 4 GB. -/
structure Obj.Keeps (o : Obj) : Prop where
  plain : o.cls ≠ .TRKG ∧ o.cls ≠ .DATD
  saves : o.Resavable
  texts : ∀ t, (Enc.utf8, t) ∈ o.texts → utf8Bytes t ≤ 65532
  rates : ∀ r ∈ o.rates, rateNorm r = r
  locks : o.Locked
  small : ∀ c out, o.write c = .ok ((), out) → out.length < 2 ^ 32

/-- What an edited or new object has to satisfy. -/
structure Entry.Keeps (e : Entry) : Prop where
  own : e.own = true
  plain : e.obj.cls ≠ .TRKG ∧ e.obj.cls ≠ .DATD
  readable : e.obj.Readable
  stored : e.obj.Stored
  saves : ∃ c out, e.obj.write c = .ok ((), out) ∧ out.length < 2 ^ 32

/-- The opened file holds the objects reachable from `root` in `h`, each under one number; the root is the
root; and each object is what it is in `h`, but for the numbers of the objects it refers to. -/
structure Holds (f : AvbFile) (h : Heap) (root : Ref) (num : Ref → Nat) : Prop where
  inj : ∀ a b, Reach h root a → Reach h root b → num a = num b → a = b
  onto : ∀ k, (1 ≤ k ∧ k ≤ f.header.num_objects) ↔ ∃ a, Reach h root a ∧ num a = k
  top : f.header.root_index = if root = 0 then 0 else num root
  same : ∀ a e, Reach h root a → h a = .ok e →
    readObject f (num a) = .ok (some (e.obj.renumber fun r => if r = 0 then 0 else num r))

theorem readObject_readAs {f : AvbFile} {a : Nat} {o : Obj} (h : readObject f a = .ok (some o)) :
    a ≠ 0 ∧ a < f.positions.length ∧ ∃ k bs, Obj.readAs f.ctx k bs = .ok (o, []) := by
  unfold readObject at h
  split at h
  · cases h
  · next h0 =>
    refine ⟨h0, ?_⟩
    split at h
    · cases h
    · next pos hp =>
      refine ⟨(List.getElem?_eq_some_iff.1 hp).1, ?_⟩
      split at h
      · cases h
      · split at h
        · cases h
        · split at h
          · cases h
          · next k _ =>
            split at h
            · cases h
            · next o' left hr =>
              split at h
              · next hl => cases h; subst hl; exact ⟨k, _, hr⟩
              · cases h

theorem scanChunks_length {bo : BO} {n pos : Nat} {bs : Bytes} {ps : List Nat}
    (h : scanChunks bo n pos bs = .ok ps) : ps.length = n := by
  induction n generalizing pos bs ps with
  | zero => cases h; rfl
  | succ n ih =>
    unfold scanChunks at h
    split at h
    · cases h
    · split at h
      · cases h
      · next hs => cases h; simp [ih hs]

theorem readHeader_count {bo : BO} {bs rest : Bytes} {hdr : Header}
    (h : readHeader bo bs = .ok (hdr, rest)) : hdr.num_objects < 2 ^ 32 := by
  have : Post (readHeader bo) fun h => h.num_objects < 2 ^ 32 := by
    unfold readHeader
    iterate 7 refine Post.bind fun _ => ?_
    refine Post.bindP (Post.int _) fun n hn => ?_
    iterate 11 refine Post.bind fun _ => ?_
    refine Post.pure ?_
    have h1 := hn.2
    simp only [IntTy.hi, IntTy.signed, IntTy.width] at h1
    simp only []
    simp at h1
    omega
  exact this _ _ _ h

theorem fileHeap_readObject {f : AvbFile} {a : Ref} {e : Entry} (h : fileHeap f a = .ok e) :
    readObject f a = .ok (some e.obj) ∧ e.own = true := by
  unfold fileHeap at h
  split at h
  · next o ho => cases h; exact ⟨ho, rfl⟩
  · cases h
  · cases h

theorem Obj.Keeps.entry {o : Obj} (h : o.Keeps) {d : RCtx} {k : Cls} {bs : Bytes}
    (hr : Obj.readAs d k bs = .ok (o, [])) {e : Entry} (ho : e.obj = o) (hw : e.own = true) : e.Keeps := by
  subst ho
  refine ⟨hw, h.plain, Obj.readable_of hr h.texts h.plain.1, Obj.stored_of hr h.rates h.locks, ?_⟩
  obtain ⟨out, ho⟩ := (C48_saves (c := ⟨.little, fun _ => some 1⟩) hr
    (fun _ _ => .inr ⟨1, rfl, by decide⟩)).2 h.saves
  exact ⟨_, out, ho, h.small _ _ ho⟩

/-- `C50_edit` for any table of objects that is not larger than it says (an empty one for a new file). -/
theorem edit_saves {f : AvbFile} (hpos : f.positions.length ≤ f.header.num_objects + 1) {h : Heap} {root : Ref}
    {edited : List Ref} (hh : HeapOK h) (hinj : IidInj h root)
    (hedit : ∀ a e, a ∈ edited → Reach h root a → h a = .ok e → e.Keeps)
    (hrest : ∀ a, a ∉ edited → h a = fileHeap f a)
    (hkeep : ∀ a o, a ∉ edited → Reach h root a → readObject f a = .ok (some o) → o.Keeps)
    (hload : ∀ a, Reach h root a → ∃ e, h a = .ok e)
    (rank : Ref → Nat) (hrank : ∀ a b, Reach h root a → Edge h a b → rank b < rank a)
    (hcount : edited.length + f.header.num_objects < 2 ^ 32)
    {bo : BO} {hd : HeaderInfo} {pre post : Bytes} (ht : TextOK .macroman hd.last_save_str)
    (hpre : (writeHeaderPre bo hd).bytes = .ok pre) (hpost : (writeHeaderPost bo hd).bytes = .ok post) :
    ∃ fuel₀, ∀ fuel ≥ fuel₀, ∃ bytes' f' num, save h fuel bo hd root = .ok bytes' ∧
      openTable bytes' = .ok f' ∧ Holds f' h root num := by
  have keeps : ∀ a e, Reach h root a → h a = .ok e → e.Keeps ∧ (a ∈ edited ∨ a ∈ List.range' 1 f.header.num_objects) := by
    intro a e ha he
    by_cases hm : a ∈ edited
    · exact ⟨hedit a e hm ha he, .inl hm⟩
    · obtain ⟨hr, hw⟩ := fileHeap_readObject ((hrest a hm).symm.trans he)
      obtain ⟨h0, hlt, k, bs, hk⟩ := readObject_readAs hr
      refine ⟨(hkeep a _ hm ha hr).entry hk rfl hw, .inr ?_⟩
      rw [List.mem_range'_1]
      omega
  obtain ⟨fuel₀, hf⟩ := C12_save_succeeds (bo := bo) (content := root) hh rank hrank
    (edited ++ List.range' 1 f.header.num_objects)
    (fun a ha => by
      obtain ⟨e, he⟩ := hload a ha
      exact List.mem_append.2 (keeps a e ha he).2)
    (by simpa using hcount)
    (fun a ha => by
      obtain ⟨e, he⟩ := hload a ha
      have k := (keeps a e ha he).1
      exact ⟨e, he, k.own, k.plain.1, k.plain.2, k.saves⟩) hpre hpost
  refine ⟨fuel₀, fun fuel hfuel => ?_⟩
  obtain ⟨bytes', hs⟩ := hf fuel hfuel
  obtain ⟨f', num, h1, _, h2, _⟩ := C12_save_open hh hinj ht
    (fun a e ha he => (keeps a e ha he).1.readable) hs
  refine ⟨bytes', f', num, hs, h1, h2.inj, h2.onto, h2.root, fun a e ha he => ?_⟩
  rw [h2.same a e ha he, Obj.norm_renumber (keeps a e ha he).1.stored]
  rfl

theorem openTable_length {bytes : Bytes} {f : AvbFile} (ho : openTable bytes = .ok f) :
    f.positions.length = f.header.num_objects + 1 := by
  obtain ⟨_, hdr, _, ps, _, _, _, hs, rfl⟩ := openTable_ok ho
  simp [scanChunks_length hs]

/-- C50: a file is opened, whatever wrote it; some objects are edited or added (those listed in `edited`),
the others are as they are in the file.  If there are no cycles, saving succeeds with a sufficient recursion
limit, and the saved file holds exactly the objects that are reachable then: the edited ones as they
were edited, and all others as they were in the file. -/
theorem C50_edit {bytes : Bytes} {f : AvbFile} (ho : openTable bytes = .ok f) {h : Heap} {root : Ref}
    {edited : List Ref} (hh : HeapOK h) (hinj : IidInj h root)
    (hedit : ∀ a e, a ∈ edited → Reach h root a → h a = .ok e → e.Keeps)
    (hrest : ∀ a, a ∉ edited → h a = fileHeap f a)
    (hkeep : ∀ a o, a ∉ edited → Reach h root a → readObject f a = .ok (some o) → o.Keeps)
    (hload : ∀ a, Reach h root a → ∃ e, h a = .ok e)
    (rank : Ref → Nat) (hrank : ∀ a b, Reach h root a → Edge h a b → rank b < rank a)
    (hcount : edited.length + f.header.num_objects < 2 ^ 32)
    {bo : BO} {hd : HeaderInfo} {pre post : Bytes} (ht : TextOK .macroman hd.last_save_str)
    (hpre : (writeHeaderPre bo hd).bytes = .ok pre) (hpost : (writeHeaderPost bo hd).bytes = .ok post) :
    ∃ fuel₀, ∀ fuel ≥ fuel₀, ∃ bytes' f' num, save h fuel bo hd root = .ok bytes' ∧
      openTable bytes' = .ok f' ∧ Holds f' h root num :=
  edit_saves (openTable_length ho).le hh hinj hedit hrest hkeep hload rank hrank hcount ht hpre hpost

/-- C49: a file that is opened and saved without edits holds the same objects afterwards. -/
theorem C49_resave {bytes : Bytes} {f : AvbFile} (ho : openTable bytes = .ok f)
    (hload : ∀ a, Reach (fileHeap f) f.header.root_index a → ∃ o, readObject f a = .ok (some o) ∧ o.Keeps)
    (rank : Ref → Nat)
    (hrank : ∀ a b, Reach (fileHeap f) f.header.root_index a → Edge (fileHeap f) a b → rank b < rank a)
    {bo : BO} {hd : HeaderInfo} {pre post : Bytes} (ht : TextOK .macroman hd.last_save_str)
    (hpre : (writeHeaderPre bo hd).bytes = .ok pre) (hpost : (writeHeaderPost bo hd).bytes = .ok post) :
    ∃ fuel₀, ∀ fuel ≥ fuel₀, ∃ bytes' f' num,
      save (fileHeap f) fuel bo hd f.header.root_index = .ok bytes' ∧
      openTable bytes' = .ok f' ∧ Holds f' (fileHeap f) f.header.root_index num := by
  refine C50_edit ho (edited := []) (fileHeap_ok f) (fileHeap_inj f _) (by simp) (fun _ _ => rfl)
    (fun a o _ ha hr => ?_) (fun a ha => ?_) rank hrank ?_ ht hpre hpost
  · obtain ⟨o', h1, h2⟩ := hload a ha
    rw [hr] at h1
    cases h1
    exact h2
  · obtain ⟨o, h1, _⟩ := hload a ha
    exact ⟨⟨a, true, o, o.visits⟩, by unfold fileHeap; rw [h1]⟩
  · obtain ⟨_, hdr, _, ps, _, _, hh, _, rfl⟩ := openTable_ok ho
    simpa using readHeader_count hh

/-- The sequence of the example file as it is read. -/
def exSeqF : Obj := .SEQU { toComponent := exComp ['V', '1'], components := [1, 2, 1] }

/-- The sequence after an edit: the second gap is replaced by a new one. -/
def exSeqE : Obj := .SEQU { toComponent := exComp ['V', '1', 'b'], components := [1, 2, 4] }

/-- The new gap. -/
def exFillE : Obj := .FILL { toComponent := exComp ['n', 'e', 'w'], length := 20 }

/-- The saved example file holds the gap, the clip and the sequence. -/
def exFileTest (bo : BO) : Bool :=
  match save exHeap 10 bo exInfo 1 with
  | .ok b => match openTable b with
    | .ok f => decide (readObject f 1 = .ok (some exFill) ∧ readObject f 2 = .ok (some exClip) ∧
        readObject f 3 = .ok (some exSeqF) ∧ f.header.root_index = 3 ∧ f.header.num_objects = 3 ∧
        f.positions.length = 4)
    | _ => false
  | _ => false

theorem exFile_ok (bo : BO) : ∃ b f, save exHeap 10 bo exInfo 1 = .ok b ∧ openTable b = .ok f ∧
    readObject f 1 = .ok (some exFill) ∧ readObject f 2 = .ok (some exClip) ∧
    readObject f 3 = .ok (some exSeqF) ∧ f.header.root_index = 3 ∧ f.header.num_objects = 3 ∧
    f.positions.length = 4 := by
  have h : exFileTest bo = true := by cases bo <;> decide +kernel
  unfold exFileTest at h
  split at h
  · next b hb =>
    split at h
    · next f hf => exact ⟨b, f, hb, hf, of_decide_eq_true h⟩
    · cases h
  · cases h

theorem small_of {o : Obj} {out : Bytes} (hw : o.write ⟨.little, fun _ => some 1⟩ = .ok ((), out))
    (hl : out.length < 2 ^ 32) (c : WCtx) (out' : Bytes) (h : o.write c = .ok ((), out')) :
    out'.length < 2 ^ 32 := by
  obtain ⟨b, h1, h2⟩ := Obj.write_rel (c' := ⟨.little, fun _ => some 1⟩)
    (fun _ _ _ => .inr ⟨1, rfl, by decide⟩) _ _ h
  rw [hw] at h1
  cases h1
  omega

theorem exComp_rate : RateFits (.fin 25) ∧ rateNorm (.fin 25) = .fin 25 := by
  refine ⟨⟨25, rfl, by decide +kernel, by decide +kernel⟩, by decide +kernel⟩

theorem exFill_keeps : exFill.Keeps := by
  refine ⟨by decide, ⟨?_, ?_, trivial⟩, ?_, ?_, trivial, small_of rfl (by decide)⟩
  all_goals simp [exFill, Obj.rates, Obj.texts, Component.rates, Component.texts, exComp, exComp_rate]

theorem exClip_keeps : exClip.Keeps := by
  refine ⟨by decide, ⟨?_, ?_, rfl⟩, ?_, ?_, trivial, small_of rfl (by decide)⟩
  all_goals simp [exClip, Obj.rates, Obj.texts, Component.rates, Component.texts, exComp, exComp_rate]

theorem exSeqF_keeps : exSeqF.Keeps := by
  refine ⟨by decide, ⟨?_, ?_, trivial⟩, ?_, ?_, trivial, small_of rfl (by decide)⟩
  all_goals simp [exSeqF, Obj.rates, Obj.texts, Component.rates, Component.texts, exComp, exComp_rate]

theorem exSeqE_keeps : Entry.Keeps ⟨3, true, exSeqE, exSeqE.visits⟩ := by
  refine ⟨rfl, by decide, textsOK_short (by decide), ?_, ⟨.little, fun _ => some 1⟩, _, rfl, by decide⟩
  refine ⟨?_, ?_, by simp [exSeqE, exComp, Obj.Shape, Component.Stored]⟩
  · show ∀ p ∈ exSeqE.texts, stripText p.2 = p.2
    decide
  simp [exSeqE, Obj.rates, Component.rates, exComp, exComp_rate, Stable]

theorem exFillE_keeps : Entry.Keeps ⟨4, true, exFillE, exFillE.visits⟩ := by
  refine ⟨rfl, by decide, textsOK_short (by decide), ?_, ⟨.little, fun _ => some 1⟩, _, rfl, by decide⟩
  refine ⟨?_, ?_, by simp [exFillE, exComp, Obj.Shape, Component.Stored]⟩
  · show ∀ p ∈ exFillE.texts, stripText p.2 = p.2
    decide
  simp [exFillE, Obj.rates, Component.rates, exComp, exComp_rate, Stable]

/-- The heap after the edit. -/
def exEdited (f : AvbFile) : Heap := fun r =>
  if r = 3 then .ok ⟨3, true, exSeqE, exSeqE.visits⟩
  else if r = 4 then .ok ⟨4, true, exFillE, exFillE.visits⟩
  else fileHeap f r

/-- The hypotheses can be met: the example file is opened, its sequence is changed and gets a new gap; what
is saved has the four objects, with the new names. -/
example (bo : BO) : ∃ bytes f, openTable bytes = .ok f ∧ ∃ fuel₀, ∀ fuel ≥ fuel₀, ∃ bytes' f' num,
    save (exEdited f) fuel bo exInfo 3 = .ok bytes' ∧ openTable bytes' = .ok f' ∧
      Holds f' (exEdited f) 3 num := by
  obtain ⟨bytes, f, _, hf, f1, f2, f3, hr, hn, hp⟩ := exFile_ok bo
  obtain ⟨pre, hpre⟩ := exInfo_pre bo
  obtain ⟨post, hpost⟩ := exInfo_post bo
  refine ⟨bytes, f, hf, ?_⟩
  have g1 : exEdited f 1 = .ok ⟨1, true, exFill, exFill.visits⟩ := by simp [exEdited, fileHeap, f1]
  have g2 : exEdited f 2 = .ok ⟨2, true, exClip, exClip.visits⟩ := by simp [exEdited, fileHeap, f2]
  have g3 : exEdited f 3 = .ok ⟨3, true, exSeqE, exSeqE.visits⟩ := rfl
  have g4 : exEdited f 4 = .ok ⟨4, true, exFillE, exFillE.visits⟩ := rfl
  have hcase : ∀ a e, exEdited f a = .ok e → e.iid = a ∧ e.visits = e.obj.visits := by
    intro a e he
    unfold exEdited at he
    split at he
    · next h => cases he; exact ⟨h.symm, rfl⟩
    · split at he
      · next h => cases he; exact ⟨h.symm, rfl⟩
      · unfold fileHeap at he
        split at he <;> cases he
        exact ⟨rfl, rfl⟩
  have step : ∀ a b, a = 1 ∨ a = 2 ∨ a = 3 ∨ a = 4 → Edge (exEdited f) a b → a = 3 ∧ (b = 1 ∨ b = 2 ∨ b = 4) := by
    rintro a b h ⟨e, he, _, hb, v, hv, rfl⟩
    rcases h with rfl | rfl | rfl | rfl
    · rw [g1] at he; cases he
      have : ∀ v ∈ exFill.visits, v.ref = 0 := by decide
      exact absurd (this v hv) hb
    · rw [g2] at he; cases he
      have : ∀ v ∈ exClip.visits, v.ref = 0 := by decide
      exact absurd (this v hv) hb
    · rw [g3] at he; cases he
      have : ∀ v ∈ exSeqE.visits, v.ref ≠ 0 → v.ref = 1 ∨ v.ref = 2 ∨ v.ref = 4 := by decide
      exact ⟨rfl, this v hv hb⟩
    · rw [g4] at he; cases he
      have : ∀ v ∈ exFillE.visits, v.ref = 0 := by decide
      exact absurd (this v hv) hb
  have reach : ∀ a, Reach (exEdited f) 3 a → a = 1 ∨ a = 2 ∨ a = 3 ∨ a = 4 := by
    rintro a ⟨_, ha⟩
    induction ha with
    | refl => exact .inr (.inr (.inl rfl))
    | tail _ hbc ih =>
      obtain ⟨_, _, h0, _⟩ := id hbc
      rcases (step _ _ (ih h0) hbc).2 with h | h | h
      · exact .inl h
      · exact .inr (.inl h)
      · exact .inr (.inr (.inr h))
  refine C50_edit hf (edited := [3, 4]) ?_ ?_ ?_ ?_ ?_ ?_ (fun r => if r = 3 then 1 else 0) ?_ ?_
    exInfo_ok hpre hpost
  · intro a e he v
    rw [(hcase a e he).2]
  · intro a b ea eb _ _ ha hb hab
    rw [(hcase a ea ha).1, (hcase b eb hb).1] at hab
    exact hab
  · intro a e ha _ he
    simp only [List.mem_cons, List.not_mem_nil, or_false] at ha
    rcases ha with rfl | rfl
    · rw [g3] at he; cases he; exact exSeqE_keeps
    · rw [g4] at he; cases he; exact exFillE_keeps
  · intro a ha
    simp only [List.mem_cons, List.not_mem_nil, or_false, not_or] at ha
    simp [exEdited, ha.1, ha.2]
  · intro a o ha hra ho
    rcases reach a hra with rfl | rfl | rfl | rfl
    · rw [f1] at ho; cases ho; exact exFill_keeps
    · rw [f2] at ho; cases ho; exact exClip_keeps
    · simp at ha
    · simp at ha
  · intro a ha
    rcases reach a ha with rfl | rfl | rfl | rfl
    exacts [⟨_, g1⟩, ⟨_, g2⟩, ⟨_, g3⟩, ⟨_, g4⟩]
  · intro a b ha hab
    obtain ⟨rfl, rfl | rfl | rfl⟩ := step a b (reach a ha) hab <;> decide
  · rw [hn]; decide

/-- The unedited example file meets the hypotheses of the theorem above. -/
example (bo bo' : BO) : ∃ bytes f, openTable bytes = .ok f ∧ ∃ fuel₀, ∀ fuel ≥ fuel₀, ∃ bytes' f' num,
    save (fileHeap f) fuel bo' exInfo f.header.root_index = .ok bytes' ∧ openTable bytes' = .ok f' ∧
      Holds f' (fileHeap f) f.header.root_index num := by
  obtain ⟨bytes, f, _, hf, f1, f2, f3, hr, hn, hp⟩ := exFile_ok bo
  obtain ⟨pre, hpre⟩ := exInfo_pre bo'
  obtain ⟨post, hpost⟩ := exInfo_post bo'
  refine ⟨bytes, f, hf, ?_⟩
  have g1 : fileHeap f 1 = .ok ⟨1, true, exFill, exFill.visits⟩ := by simp [fileHeap, f1]
  have g2 : fileHeap f 2 = .ok ⟨2, true, exClip, exClip.visits⟩ := by simp [fileHeap, f2]
  have g3 : fileHeap f 3 = .ok ⟨3, true, exSeqF, exSeqF.visits⟩ := by simp [fileHeap, f3]
  have step : ∀ a b, a = 1 ∨ a = 2 ∨ a = 3 → Edge (fileHeap f) a b → a = 3 ∧ (b = 1 ∨ b = 2) := by
    rintro a b h ⟨e, he, _, hb, v, hv, rfl⟩
    rcases h with rfl | rfl | rfl
    · rw [g1] at he; cases he
      have : ∀ v ∈ exFill.visits, v.ref = 0 := by decide
      exact absurd (this v hv) hb
    · rw [g2] at he; cases he
      have : ∀ v ∈ exClip.visits, v.ref = 0 := by decide
      exact absurd (this v hv) hb
    · rw [g3] at he; cases he
      have : ∀ v ∈ exSeqF.visits, v.ref ≠ 0 → v.ref = 1 ∨ v.ref = 2 := by decide
      exact ⟨rfl, this v hv hb⟩
  have reach : ∀ a, Reach (fileHeap f) f.header.root_index a → a = 1 ∨ a = 2 ∨ a = 3 := by
    rw [hr]
    rintro a ⟨_, ha⟩
    induction ha with
    | refl => exact .inr (.inr rfl)
    | tail _ hbc ih =>
      obtain ⟨_, _, h0, _⟩ := id hbc
      rcases (step _ _ (ih h0) hbc).2 with h | h
      · exact .inl h
      · exact .inr (.inl h)
  refine C49_resave hf ?_ (fun r => if r = 3 then 1 else 0) ?_ exInfo_ok hpre hpost
  · intro a ha
    rcases reach a ha with rfl | rfl | rfl
    exacts [⟨_, f1, exFill_keeps⟩, ⟨_, f2, exClip_keeps⟩, ⟨_, f3, exSeqF_keeps⟩]
  · intro a b ha hab
    obtain ⟨rfl, rfl | rfl⟩ := step a b (reach a ha) hab <;> decide

end Avb

import Verif.Lemmas.Walk
import Verif.Lemmas.Obj
import Verif.Lemmas.RelAll
import Verif.Lemmas.Ends
import Verif.Lemmas.Congr

/-
The save loop: numbering, layout of the chunks, references already numbered.
-/

namespace Avb

/-- A chunk written: the object, and its data. -/
structure Chunk where
  ref : Ref
  ent : Entry
  data : Bytes

/-- A four character code as stored. -/
def fourccBytes (bo : BO) (id : Bytes) : Bytes :=
  match bo with
  | .little => id.reverse
  | .big => id

/-- A chunk on disk: class id, length, data. -/
def chunkBytes (bo : BO) (id data : Bytes) : Bytes :=
  fourccBytes bo id ++ packNat bo 4 data.length ++ data

theorem Cls.id_length (k : Cls) : k.id.length = 4 := by cases k <;> rfl

theorem fourccBytes_length {bo : BO} {id : Bytes} : (fourccBytes bo id).length = id.length := by
  cases bo <;> simp [fourccBytes]

theorem chunkBytes_length {bo : BO} {k : Cls} {data : Bytes} :
    (chunkBytes bo k.id data).length = 8 + data.length := by
  simp [chunkBytes, fourccBytes_length, Cls.id_length]; omega

theorem wFourcc_eq {bo : BO} {id : Bytes} (h : id.length = 4) :
    wFourcc bo id = .ok ((), fourccBytes bo id) := by
  unfold wFourcc
  rw [Wr.bind_ok (o1 := []) (o2 := fourccBytes bo id) (a := ()) (b := ())]
  · rfl
  · unfold Wr.guard; rw [if_pos h]; rfl
  · cases bo <;> rfl

theorem wU32_eq {bo : BO} {n : Nat} (h : n < 2 ^ 32) : wInt bo .u32 n = .ok ((), packNat bo 4 n) := by
  have h1 : IntTy.u32.lo ≤ (n : Int) := by
    simp only [IntTy.lo, IntTy.signed, Bool.false_eq_true, if_false]; omega
  have h2 : (n : Int) ≤ IntTy.u32.hi := by
    simp only [IntTy.hi, IntTy.signed, IntTy.width, Bool.false_eq_true, if_false]; omega
  rw [wInt_ok h1 h2]
  congr 4
  simp only [IntTy.width]
  omega

theorem wU32_lt {bo : BO} {n : Nat} {out : Bytes} (h : wInt bo .u32 n = .ok ((), out)) : n < 2 ^ 32 := by
  have := (wInt_eq_ok h).2.1
  simp only [IntTy.hi, IntTy.signed, IntTy.width, Bool.false_eq_true, if_false] at this
  omega

theorem payloadOf_ok {w : Wr Unit} {d out : Bytes} (h : payloadOf w = .ok (d, out)) :
    w = .ok ((), d) ∧ out = [] := by
  unfold payloadOf at h
  split at h
  · obtain ⟨rfl, rfl⟩ := Wr.pure_eq_ok h
    exact ⟨rfl, rfl⟩
  · cases h

theorem Wr.guard_ok {p : Prop} [Decidable p] {e : Err} {out : Bytes}
    (h : Wr.guard p e = .ok ((), out)) : p ∧ out = [] := by
  unfold Wr.guard at h
  by_cases hp : p
  · rw [if_pos hp] at h
    exact ⟨hp, (Wr.pure_eq_ok h).2⟩
  · rw [if_neg hp] at h; cases h

theorem Wr.guard_pos {p : Prop} [Decidable p] {e : Err} (h : p) : Wr.guard p e = .ok ((), []) := by
  unfold Wr.guard; rw [if_pos h]; rfl

/-- What a chunk that was written looks like. -/
theorem writeObject_ok {c : WCtx} {e : Entry} {bs : Bytes} (h : writeObject c e = .ok ((), bs)) :
    e.own = true ∧ ∃ data, e.obj.write c = .ok ((), data) ∧ data.getLast? = some 3 ∧
      data.length < 2 ^ 32 ∧ bs = chunkBytes c.bo e.obj.cls.id data := by
  unfold writeObject at h
  obtain ⟨_, o1, o2, e1, h1, rfl⟩ := Wr.bind_eq_ok h
  obtain ⟨hown, rfl⟩ := Wr.guard_ok e1
  obtain ⟨data, o1, o2, e1, h2, rfl⟩ := Wr.bind_eq_ok h1
  obtain ⟨hd, rfl⟩ := payloadOf_ok e1
  obtain ⟨_, o1, o2, e1, h3, rfl⟩ := Wr.bind_eq_ok h2
  obtain ⟨hlast, rfl⟩ := Wr.guard_ok e1
  obtain ⟨_, o1, o2, e0, h4, rfl⟩ := Wr.bind_eq_ok h3
  rw [wFourcc_eq (Cls.id_length _)] at e0
  obtain ⟨_, o3, o4, e2, h5, rfl⟩ := Wr.bind_eq_ok h4
  have hlt := wU32_lt e2
  rw [wU32_eq hlt] at e2
  obtain rfl := Wr.emit_eq_ok h5
  cases e0; cases e2
  exact ⟨hown, _, hd, hlast, hlt, by simp [chunkBytes]⟩

theorem writeObject_of {c : WCtx} {e : Entry} {data : Bytes} (hown : e.own = true)
    (hw : e.obj.write c = .ok ((), data)) (hl : data.getLast? = some 3) (hlt : data.length < 2 ^ 32) :
    writeObject c e = .ok ((), chunkBytes c.bo e.obj.cls.id data) := by
  have hp : payloadOf (e.obj.write c) = .ok (data, []) := by rw [hw]; rfl
  unfold writeObject
  rw [Wr.bind_ok (Wr.guard_pos (e := .value) hown) (Wr.bind_ok hp
    (Wr.bind_ok (Wr.guard_pos (e := .assertion) hl)
      (Wr.bind_ok (wFourcc_eq (bo := c.bo) (Cls.id_length e.obj.cls))
        (Wr.bind_ok (wU32_eq (bo := c.bo) hlt) (Wr.emit.eq_1 data)))))]
  simp [chunkBytes]
  rfl

/-- What holds of the state of the save loop after the chunks `done`. -/
structure SaveInv (h : Heap) (bo : BO) (s : SaveSt) (done : List Chunk) : Prop where
  next : s.next = done.length
  fwd : ∀ i (hi : i < done.length), s.map done[i].ent.iid = some (i + 1)
  bwd : ∀ id k, s.map id = some k → ∃ i, ∃ hi : i < done.length, k = i + 1 ∧ done[i].ent.iid = id
  out : s.out = done.flatMap fun ck => chunkBytes bo ck.ent.obj.cls.id ck.data
  ent : ∀ ck ∈ done, h ck.ref = .ok ck.ent
  own : ∀ ck ∈ done, ck.ent.own = true
  small : ∀ ck ∈ done, ck.data.length < 2 ^ 32
  ends : ∀ ck ∈ done, ck.data.getLast? = some 3
  each : ∀ i (hi : i < done.length), ∃ m : Nat → Option Nat,
    (∀ id k, m id = some k → s.map id = some k) ∧
    done[i].ent.obj.write ⟨bo, refMapOf h m⟩ = .ok ((), done[i].data) ∧
    ∀ v ∈ done[i].ent.visits, v.ref ≠ 0 → ∃ k ≤ i, refMapOf h m v.ref = some k

/-- Every object of the list has a number. -/
def Numbered (h : Heap) (s : SaveSt) (rs : List Ref) : Prop :=
  ∀ r ∈ rs, ∃ e k, h r = .ok e ∧ s.map e.iid = some k

theorem SaveInv.init {h bo} : SaveInv h bo ⟨0, fun _ => none, []⟩ [] := by
  constructor <;> simp

theorem SaveInv.step {h : Heap} {bo : BO} {s : SaveSt} {done : List Chunk} {r : Ref} {e : Entry}
    {bs : Bytes} (inv : SaveInv h bo s done) (he : h r = .ok e) (hnew : s.map e.iid = none)
    (hv : ∀ v ∈ e.visits, v.ref ≠ 0 → ∃ e' k, h v.ref = .ok e' ∧ s.map e'.iid = some k)
    (hw : writeObject ⟨bo, refMapOf h (mapSet s.map e.iid (s.next + 1))⟩ e = .ok ((), bs)) :
    ∃ data, SaveInv h bo ⟨s.next + 1, mapSet s.map e.iid (s.next + 1), s.out ++ bs⟩
      (done ++ [⟨r, e, data⟩]) := by
  obtain ⟨hown, data, hd, hl, hlt, rfl⟩ := writeObject_ok hw
  have keep : ∀ id k, s.map id = some k → mapSet s.map e.iid (s.next + 1) id = some k := by
    intro id k hk
    unfold mapSet
    rw [if_neg]
    · exact hk
    · rintro rfl; rw [hnew] at hk; cases hk
  refine ⟨data, ?_, ?_, ?_, ?_, ?_, ?_, ?_, ?_, ?_⟩
  · simp [inv.next]
  · intro i hi
    by_cases h1 : i < done.length
    · rw [List.getElem_append_left h1]
      exact keep _ _ (inv.fwd i h1)
    · have : i = done.length := by simp at hi; omega
      subst this
      simp [mapSet, inv.next]
  · intro id k hk
    change (if id = e.iid then some (s.next + 1) else s.map id) = some k at hk
    by_cases hid : id = e.iid
    · rw [if_pos hid] at hk
      injection hk with hk
      refine ⟨done.length, by simp, ?_, ?_⟩
      · rw [← hk, inv.next]
      · simp [hid]
    · rw [if_neg hid] at hk
      obtain ⟨i, hi, h1, h2⟩ := inv.bwd id k hk
      exact ⟨i, by simp; omega, h1, by rw [List.getElem_append_left hi]; exact h2⟩
  · simp [inv.out]
  · intro ck hck
    rcases List.mem_append.1 hck with hck | hck
    · exact inv.ent ck hck
    · rw [List.mem_singleton.1 hck]; exact he
  · intro ck hck
    rcases List.mem_append.1 hck with hck | hck
    · exact inv.own ck hck
    · rw [List.mem_singleton.1 hck]; exact hown
  · intro ck hck
    rcases List.mem_append.1 hck with hck | hck
    · exact inv.small ck hck
    · rw [List.mem_singleton.1 hck]; exact hlt
  · intro ck hck
    rcases List.mem_append.1 hck with hck | hck
    · exact inv.ends ck hck
    · rw [List.mem_singleton.1 hck]; exact hl
  · intro i hi
    by_cases h1 : i < done.length
    · rw [List.getElem_append_left h1]
      obtain ⟨m, h2, h3, h4⟩ := inv.each i h1
      exact ⟨m, fun id k hk => keep _ _ (h2 id k hk), h3, h4⟩
    · have : i = done.length := by simp at hi; omega
      subst this
      refine ⟨mapSet s.map e.iid (s.next + 1), fun _ _ h => h, by simpa using hd, ?_⟩
      simp only [List.getElem_concat_length]
      intro v hv1 hv0
      obtain ⟨e', k, h5, h6⟩ := hv v hv1 hv0
      obtain ⟨i, hi, h7, _⟩ := inv.bwd _ _ h6
      refine ⟨k, by omega, ?_⟩
      unfold refMapOf
      rw [h5]
      exact keep _ _ h6

/-- The save loop over a list in which references come first. -/
theorem saveLoop_inv {h : Heap} {bo : BO} {rs : List Ref} {s s' : SaveSt} {done : List Chunk}
    {seen : List Ref} (inv : SaveInv h bo s done) (hpo : PO h seen rs) (hseen : Numbered h s seen)
    (hrun : saveLoop h bo rs s = (s', none)) :
    ∃ done', SaveInv h bo s' (done ++ done') ∧ (∀ ck ∈ done', ck.ref ∈ rs) ∧ Numbered h s' seen ∧
      Numbered h s' rs := by
  induction rs generalizing s done seen with
  | nil =>
    simp only [saveLoop] at hrun
    cases hrun
    exact ⟨[], by simpa using inv, by simp, hseen, by simp [Numbered]⟩
  | cons r rs ih =>
    obtain ⟨⟨e, he, hv⟩, hpo⟩ := hpo
    simp only [saveLoop, he] at hrun
    by_cases hm : (s.map e.iid).isSome
    · rw [if_pos hm] at hrun
      obtain ⟨k, hk⟩ := Option.isSome_iff_exists.1 hm
      obtain ⟨done', h1, h2, h3, h4⟩ := ih (seen := r :: seen) inv hpo
        (by
          intro x hx
          rcases List.mem_cons.1 hx with rfl | hx
          · exact ⟨e, k, he, hk⟩
          · exact hseen x hx) hrun
      refine ⟨done', h1, fun ck hck => List.mem_cons_of_mem _ (h2 ck hck),
        fun x hx => h3 x (List.mem_cons_of_mem _ hx), ?_⟩
      intro x hx
      rcases List.mem_cons.1 hx with rfl | hx
      · exact h3 _ List.mem_cons_self
      · exact h4 x hx
    · rw [if_neg hm] at hrun
      have hnew : s.map e.iid = none := by simpa using hm
      cases hw : writeObject ⟨bo, refMapOf h (mapSet s.map e.iid (s.next + 1))⟩ e with
      | error er => rw [hw] at hrun; simp at hrun
      | ok p =>
        obtain ⟨⟨⟩, bs⟩ := p
        rw [hw] at hrun
        obtain ⟨data, inv'⟩ := inv.step he hnew (fun v hv1 hv2 => hseen _ (hv v hv1 hv2)) hw
        have hs' : Numbered h ⟨s.next + 1, mapSet s.map e.iid (s.next + 1), s.out ++ bs⟩ (r :: seen) := by
          intro x hx
          rcases List.mem_cons.1 hx with rfl | hx
          · exact ⟨e, s.next + 1, he, by simp [mapSet]⟩
          · obtain ⟨e', k, h1, h2⟩ := hseen x hx
            refine ⟨e', k, h1, ?_⟩
            simp only [mapSet]
            rw [if_neg]
            · exact h2
            · intro h; rw [h, hnew] at h2; cases h2
        obtain ⟨done', h1, h2, h3, h4⟩ := ih inv' hpo hs' hrun
        refine ⟨⟨r, e, data⟩ :: done', by simpa using h1, ?_, fun x hx => h3 x (List.mem_cons_of_mem _ hx), ?_⟩
        · intro ck hck
          rcases List.mem_cons.1 hck with rfl | hck
          · exact List.mem_cons_self
          · exact List.mem_cons_of_mem _ (h2 ck hck)
        · intro x hx
          rcases List.mem_cons.1 hx with rfl | hx
          · exact h3 _ List.mem_cons_self
          · exact h4 x hx

end Avb

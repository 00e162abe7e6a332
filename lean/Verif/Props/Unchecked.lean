import Verif.Model.Unchecked
import Verif.Props.Reach
import Verif.Props.Listing

/-!
C87: loading with `check_refs = False`.
-/
namespace Avb

/-- C87: every index is accepted. -/
theorem C87_ref (bo : BO) : rRef (.free bo) = rRefFree bo := by
  funext bs
  show Rd.bind (rInt bo .u32) _ bs = Rd.bind (rInt bo .u32) _ bs
  unfold Rd.bind
  cases hr : rInt bo .u32 bs with
  | error e => rfl
  | ok x =>
    obtain ⟨i, rest⟩ := x
    have hi : i.toNat < 2 ^ 32 := by
      have := (Post.int (bo := bo) .u32) _ _ _ hr
      simp only [InTy, IntTy.hi, IntTy.lo, IntTy.signed, IntTy.width] at this
      norm_num at this
      omega
    show Rd.bind (Rd.guard (i.toNat < 2 ^ 32) .value) _ rest = _
    unfold Rd.bind Rd.guard
    rw [if_pos hi]

theorem positions_small {bytes : Bytes} {f : AvbFile} (ho : openTable bytes = .ok f) : f.positions.length ≤ 2 ^ 32 := by
  obtain ⟨bo, hdr, rest, ps, h1, h2, h3, h4, rfl⟩ := openTable_ok ho
  have := readHeader_count h3
  have := scanChunks_length h4
  simp only [List.length_cons]
  omega

/-- C87: in any file that was opened, loading an object with the check either raises `ValueError` or does exactly what it does
without: the same object, or the same exception. -/
theorem C87_same {bytes : Bytes} {f : AvbFile} (ho : openTable bytes = .ok f) (i : Nat) :
    readObject f i = .error .value ∨ readObject f i = readObjectFree f i := by
  have hfew : Fewer f.positions.length (2 ^ 32) := ⟨positions_small ho⟩
  unfold readObject readObjectFree
  by_cases h0 : i = 0
  · rw [if_pos h0, if_pos h0]; exact .inr rfl
  rw [if_neg h0, if_neg h0]
  cases f.positions[i]? with
  | none => exact .inr rfl
  | some pos =>
    dsimp only
    generalize (rFourcc f.bo >>= fun id => rInt f.bo .u32 >>= fun size => pure (id, size)) (f.data.drop pos) = x
    rcases x with e | ⟨⟨id, size⟩, rest⟩
    · exact .inr rfl
    dsimp only
    by_cases hl : (rest.take size.toNat).length ≠ size.toNat
    · rw [if_pos hl, if_pos hl]; exact .inr rfl
    rw [if_neg hl, if_neg hl]
    cases Cls.ofId id with
    | none => exact .inr rfl
    | some k =>
      rcases Obj.readAs_capped (bo := f.bo) (m := f.positions.length) (n := 2 ^ 32) k (rest.take size.toNat) with he | he
      · right
        simp only [AvbFile.ctx, RCtx.free, he]
        rfl
      · left
        simp only [AvbFile.ctx, he]

/-- C87: what is loaded with the check is loaded without, as the same object, and all its references are inside the table. -/
theorem C87_loads {bytes : Bytes} {f : AvbFile} (ho : openTable bytes = .ok f) {i : Nat} {o : Obj}
    (h : readObject f i = .ok (some o)) : readObjectFree f i = .ok (some o) ∧ ∀ r ∈ o.refs, r < f.positions.length := by
  refine ⟨?_, C65_refs h⟩
  rcases C87_same ho i with he | he
  · rw [he] at h; cases h
  · rw [← he]; exact h

/-- C87: an object that is loaded without the check and has a reference beyond the table raises `ValueError` with the check. -/
theorem C87_refused {bytes : Bytes} {f : AvbFile} (ho : openTable bytes = .ok f) {i : Nat} {o : Obj}
    (h : readObjectFree f i = .ok (some o)) {r : Ref} (hr : r ∈ o.refs) (hm : f.positions.length ≤ r) :
    readObject f i = .error .value := by
  rcases C87_same ho i with he | he
  · exact he
  · rw [← he] at h
    exact absurd (C65_refs h r hr) (Nat.not_lt.2 hm)

theorem HasChunk.readFree {f : AvbFile} {index : Nat} {id payload : Bytes} (h : HasChunk f index id payload) :
    readObjectFree f index = match Cls.ofId id with
      | none => .error .notImplemented
      | some k =>
        match Obj.readAs (.free f.bo) k payload with
        | .error e => .error e
        | .ok (o, left) => if left = [] then .ok (some o) else .error .assertion := by
  obtain ⟨h0, hid, hlt, pos, tail, hp, hd⟩ := h
  have hd : f.data.drop pos = chunkBytes f.bo id payload ++ tail := by
    rw [hd]; cases f.bo <;> simp [chunkBytes, fourccBytes]
  unfold readObjectFree
  rw [if_neg h0, hp]
  simp only []
  rw [hd]
  have hf : rFourcc f.bo (chunkBytes f.bo id payload ++ tail) =
      .ok (id, packNat f.bo 4 payload.length ++ (payload ++ tail)) := by
    have := RT.fourcc (bo := f.bo) (s := id) _ (wFourcc_eq hid)
      (packNat f.bo 4 payload.length ++ (payload ++ tail)) trivial
    rw [← this]
    simp [chunkBytes]
  rw [Rd.bind_ok hf, Rd.bind_ok (rInt_u32 hlt _)]
  simp only [Rd.pure_apply, Int.toNat_natCast, List.take_left, ne_eq, not_true_eq_false, if_false]
  rfl

/-- C87: data that are read in a file of some number of objects are loaded without the check in every file, as the same
object. -/
theorem C87_anywhere {g : AvbFile} {j : Nat} {k : Cls} {payload : Bytes} (hg : HasChunk g j k.id payload) {n : Nat}
    (hn : n ≤ 2 ^ 32) {o : Obj} (h : Obj.readAs ⟨g.bo, n⟩ k payload = .ok (o, [])) :
    readObjectFree g j = .ok (some o) := by
  have : Fewer n (2 ^ 32) := ⟨hn⟩
  rw [hg.readFree, Cls.ofId_id]
  rcases Obj.readAs_capped (bo := g.bo) (m := n) (n := 2 ^ 32) k payload with he | he
  · rw [h] at he
    simp only [RCtx.free, ← he]
    rfl
  · rw [h] at he; cases he

/-- C87: the class id of a reference: with the check it is that of the chunk, `None` beyond the table; without, it is the
same word for every reference and nothing is read. -/
theorem C87_class_id {bytes : Bytes} {f : AvbFile} (ho : openTable bytes = .ok f) (i : Nat) :
    refClassId f false i = .ok (some (cc 'N' 'U' 'L' 'L')) ∧
    (f.header.num_objects < i → refClassId f true i = .ok none) ∧
    (i ≤ f.header.num_objects → ∃ id, refClassId f true i = .ok (some id) ∧ Work.IdAt f i id) := by
  obtain ⟨cks, c1, _⟩ := C56_chunks ho
  have hlen : f.positions.length = f.header.num_objects + 1 := by
    obtain ⟨bo, hdr, rest, ps, h1, h2, h3, h4, rfl⟩ := openTable_ok ho
    simp [scanChunks_length h4]
  refine ⟨rfl, fun h => ?_, fun h => ?_⟩
  · unfold refClassId
    rw [if_neg (by simp), if_pos (by omega)]
  · obtain ⟨ck, _, hc⟩ := mapM_get c1 i i (by rw [List.getElem?_range (by omega)])
    refine ⟨ck.class_id, ?_, ck, hc, rfl⟩
    unfold refClassId
    rw [if_neg (by simp), if_neg (by omega), hc]

/-- C87: a reference beyond the table that was loaded without the check raises `IndexError` when it is followed, as long as
no object with this number was made; then it leads to the new object, though that has nothing to do with the file. -/
theorem C87_dangling {f : AvbFile} {o₀ : Obj} {es : List Work.Event} {s : Work.St}
    (h : Work.Run f (Work.start f o₀) es s) {r : Nat} (h0 : r ≠ 0) (hr : f.positions.length ≤ r) :
    match Work.assigned r es with
    | none => Work.lookFree f s r = (.error .index, s)
    | some o => ∃ l, Work.lookFree f s r = (.ok (some l), s) ∧ s.objs l = (r, o) := by
  have hn : f.positions[r]? = none := List.getElem?_eq_none hr
  have e1 : readObject f r = .error .index := by unfold readObject; rw [if_neg h0, hn]
  have e2 : readObjectFree f r = .error .index := by unfold readObjectFree; rw [if_neg h0, hn]
  have hl := Work.C51_look h h0
  unfold Work.current Work.look at hl
  unfold Work.lookFree
  simp only [if_neg h0, e1] at hl
  simp only [if_neg h0, e2]
  cases ha : Work.assigned r es with
  | none =>
    rw [ha] at hl
    cases hc : s.cache r with
    | none => rfl
    | some l => rw [hc] at hl; exact hl.elim
  | some o =>
    rw [ha] at hl
    cases hc : s.cache r with
    | none => rw [hc] at hl; exact hl.elim
    | some l => rw [hc] at hl; exact ⟨l, rfl, hl⟩

/-- C87: without the check too an object is loaded once.  What a lookup gives is given again by the next one, which changes
nothing; if it was not in the cache it is what the file says; the objects that were there and the cached objects of all other
numbers stay what they were. -/
theorem C87_once {f : AvbFile} {s s' : Work.St} {i l : Nat} (h : Work.lookFree f s i = (.ok (some l), s')) :
    Work.lookFree f s' i = (.ok (some l), s') ∧
    (s.cache i = none → ∃ o, readObjectFree f i = .ok (some o) ∧ s'.objs l = (i, o)) ∧
    (∀ m < s.fresh, s'.objs m = s.objs m) ∧ ∀ j ≠ i, s'.cache j = s.cache j := by
  by_cases h0 : i = 0
  · simp [Work.lookFree, h0] at h
  · unfold Work.lookFree at h
    rw [if_neg h0] at h
    split at h
    · rename_i l' hc
      simp only [Prod.mk.injEq, Except.ok.injEq, Option.some.injEq] at h
      obtain ⟨rfl, rfl⟩ := h
      refine ⟨?_, fun hn => ?_, fun _ _ => rfl, fun _ _ => rfl⟩
      · unfold Work.lookFree; rw [if_neg h0, hc]
      · rw [hc] at hn; cases hn
    · split at h
      · cases h
      · cases h
      · rename_i o ho
        simp only [Prod.mk.injEq, Except.ok.injEq, Option.some.injEq] at h
        obtain ⟨rfl, rfl⟩ := h
        refine ⟨?_, fun _ => ⟨o, ho, ?_⟩, fun m hm => ?_, fun j hj => ?_⟩
        · unfold Work.lookFree; simp [h0, Work.put]
        · simp [Work.alloc]
        · simp [Work.alloc, Nat.ne_of_lt hm]
        · simp [Work.put, hj]

/-! ### examples -/

/-- The example file with the last reference of its sequence changed to 9. -/
def exDangling : Except Err Bytes :=
  match save exHeap 10 .little exInfo 1 with
  | .ok b => .ok (b.take (b.length - 5) ++ [9, 0, 0, 0, 3])
  | .error e => .error e

/-- It opens as a table; without the check the sequence is loaded, and refers to the objects 1 and 9. -/
theorem exDangling_ok : ∃ bytes f o, openTable bytes = .ok f ∧ readObjectFree f 3 = .ok (some o) ∧ 9 ∈ o.refs ∧
    f.positions.length = 4 ∧ readObject f 1 = .ok (some exFill) := by
  have key : ∀ x : Except Err Bytes,
      (match x with
        | .ok b => (match openTable b with
          | .ok f => (match readObjectFree f 3 with
            | .ok (some o) => decide (9 ∈ o.refs ∧ f.positions.length = 4 ∧ readObject f 1 = .ok (some exFill))
            | _ => false)
          | _ => false)
        | _ => false) = true →
      ∃ bytes f o, openTable bytes = .ok f ∧ readObjectFree f 3 = .ok (some o) ∧ 9 ∈ o.refs ∧
        f.positions.length = 4 ∧ readObject f 1 = .ok (some exFill) := by
    intro x hx
    split at hx
    · rename_i b
      split at hx
      · rename_i f ho
        split at hx
        · rename_i o hr
          exact ⟨b, f, o, ho, hr, of_decide_eq_true hx⟩
        · cases hx
      · cases hx
    · cases hx
  exact key exDangling (by decide +kernel)

/-- C87_refused, C87_same, C87_loads: with the check the sequence is refused, and the gap is the same either way. -/
example : ∃ bytes f o, openTable bytes = .ok f ∧ readObjectFree f 3 = .ok (some o) ∧ readObject f 3 = .error .value ∧
    readObjectFree f 1 = .ok (some exFill) := by
  obtain ⟨b, f, o, ho, h3, h9, hp, h1⟩ := exDangling_ok
  exact ⟨b, f, o, ho, h3, C87_refused ho h3 h9 (by omega), (C87_loads ho h1).1⟩

/-- C87_once: the sequence with the reference to 9, looked up twice. -/
example : ∃ bytes f l s o, openTable bytes = .ok f ∧ 9 ∈ o.refs ∧ s.objs l = (3, o) ∧
    Work.lookFree f (Work.start f exFill) 3 = (.ok (some l), s) ∧ Work.lookFree f s 3 = (.ok (some l), s) := by
  obtain ⟨b, f, o, ho, h3, h9, hp, h1⟩ := exDangling_ok
  have hc : (Work.start f exFill).cache 3 = none := rfl
  obtain ⟨l, s, h⟩ : ∃ l s, Work.lookFree f (Work.start f exFill) 3 = (.ok (some l), s) := by
    unfold Work.lookFree
    rw [if_neg (by decide), hc, h3]
    exact ⟨_, _, rfl⟩
  obtain ⟨c1, c2, -⟩ := C87_once h
  obtain ⟨o', e1, e2⟩ := c2 hc
  rw [h3] at e1
  cases e1
  exact ⟨b, f, _, _, o, ho, h9, e2, h, c1⟩

/-- C87_class_id: chunk 1 is a gap. -/
example : ∃ bytes f, openTable bytes = .ok f ∧ refClassId f true 9 = .ok none ∧
    refClassId f true 1 = .ok (some (cc 'F' 'I' 'L' 'L')) := by
  obtain ⟨b, f, o, ho, h3, h9, hp, h1⟩ := exDangling_ok
  obtain ⟨ck, c1, c2⟩ := Work.C56_class_id h1
  refine ⟨b, f, ho, ?_, ?_⟩
  · unfold refClassId
    rw [if_neg (by simp), if_pos (by omega)]
  · unfold refClassId
    rw [if_neg (by simp), if_neg (by omega), c1]
    exact congrArg (fun x => Except.ok (some x)) c2

/-- C87_anywhere: the sequence of the example file, which refers to the objects 1 and 2, in a file of one object. -/
example : ∃ g, g.positions.length = 2 ∧ readObject g 1 = .error .value ∧ readObjectFree g 1 = .ok (some exSeqF) := by
  have key : ∀ x : Except Err Bytes,
      (match x with
        | .ok p => decide (p.length < 2 ^ 32 ∧ Obj.readAs ⟨.little, 4⟩ .SEQU p = .ok (exSeqF, []))
        | _ => false) = true →
      ∃ p, p.length < 2 ^ 32 ∧ Obj.readAs ⟨.little, 4⟩ .SEQU p = .ok (exSeqF, []) := by
    intro x hx
    split at hx
    · exact ⟨_, of_decide_eq_true hx⟩
    · cases hx
  obtain ⟨p, hl, hp⟩ := key ((exSeqF.write (exWrite .little 4)).map Prod.snd) (by decide +kernel)
  have hg := exChunkFile_chunk .little (id := Cls.id .SEQU) (payload := p) rfl hl
  exact ⟨_, rfl, C65_refused hg hp (r := 2) (by decide +kernel) (Nat.le_refl 2), C87_anywhere hg (by decide) hp⟩

/-- C87_dangling: five objects are made, with the numbers 5 to 9; the reference to 9 leads to the last. -/
example : ∃ bytes f s l, openTable bytes = .ok f ∧ Work.lookFree f (Work.start f exFill) 9 = (.error .index, Work.start f exFill) ∧
    Work.Run f (Work.start f exFill) [.new 5 exFill, .new 6 exFill, .new 7 exFill, .new 8 exFill, .new 9 exSeqF] s ∧
    Work.lookFree f s 9 = (.ok (some l), s) ∧ s.objs l = (9, exSeqF) := by
  obtain ⟨b, f, o, ho, h3, h9, hp, h1⟩ := exDangling_ok
  have hr := (((((Work.Run.nil (f := f) (Work.start f exFill)).snoc (.new _ exFill)).snoc (.new _ exFill)).snoc
    (.new _ exFill)).snoc (.new _ exFill)).snoc (.new _ exSeqF)
  have e : (Work.start f exFill).next = 4 := hp
  have en : ∀ s o, (Work.create s o).next = s.next + 1 := fun _ _ => rfl
  simp only [en, e, List.nil_append, List.cons_append] at hr
  obtain ⟨l, hl⟩ := C87_dangling hr (r := 9) (by decide) (by omega)
  exact ⟨b, f, _, l, ho, C87_dangling (.nil _) (r := 9) (by decide) (by omega), hr, hl⟩

/-- A file with attributes in which a name comes twice, first with a reference to object 9. -/
def exTwice : AvbFile := exChunkFile .little (Cls.id .ATTR)
  [2, 1, 2, 0, 0, 0, 3, 0, 0, 0, 1, 0, 97, 9, 0, 0, 0, 1, 0, 0, 0, 1, 0, 97, 5, 0, 0, 0, 3]

/-- The converse of C87_loads does not hold for attributes: the first value of a name that comes twice has a reference
beyond the table, the second one replaces it.  Without the check all references of the object are inside the table, with the
check it is refused. -/
theorem C87_hidden : readObjectFree exTwice 1 = .ok (some (.ATTR ⟨[(['a'], .int 5)]⟩)) ∧
    readObject exTwice 1 = .error .value := by
  decide +kernel

end Avb

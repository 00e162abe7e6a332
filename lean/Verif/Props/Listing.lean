import Verif.Model.Listing
import Verif.Props.Work
import Verif.Props.Fast
import Verif.Props.Crash
import Verif.Lemmas.Reads

/-
C56: the table of chunks of any opened file, and listing its objects by class id.
-/

namespace Avb

/-- Id and size of a chunk. -/
theorem chunkHead_ok {bo : BO} {bs rest : Bytes} {size : Int}
    (h : (fread 4 >>= fun _ => rInt bo .u32) bs = .ok (size, rest)) :
    rest = bs.drop 8 ∧ 8 ≤ bs.length ∧ 0 ≤ size ∧ ∃ id : Bytes, id.length = 4 ∧
      (rFourcc bo >>= fun id => rInt bo .u32 >>= fun size => pure (id, size)) bs = .ok ((id, size), rest) := by
  rw [Rd.bind_apply] at h
  have hf : fread 4 bs = .ok (bs.take 4, bs.drop 4) := rfl
  rw [hf] at h
  dsimp only at h
  obtain ⟨h1, h2, h3⟩ := rInt_num.1 h
  have hl := congrArg List.length h3
  simp only [List.length_drop, List.length_append, packNat_length, IntTy.width] at hl
  refine ⟨?_, by omega, h1, ?_⟩
  · have := congrArg (List.drop 4) h3
    rw [List.drop_drop, List.drop_left' (by simp [IntTy.width])] at this
    exact this.symm
  · cases bo with
    | little =>
      refine ⟨(bs.take 4).reverse, by simp; omega, ?_⟩
      have hr : rFourcc .little bs = .ok ((bs.take 4).reverse, bs.drop 4) := rfl
      rw [Rd.bind_apply, hr]
      dsimp only
      rw [Rd.bind_apply, h]
      rfl
    | big =>
      refine ⟨bs.take 4, by simp; omega, ?_⟩
      have hr : rFourcc .big bs = .ok (bs.take 4, bs.drop 4) := rfl
      rw [Rd.bind_apply, hr]
      dsimp only
      rw [Rd.bind_apply, h]
      rfl

theorem scanChunks_at {bo : BO} {data : Bytes} {n pos : Nat} {ps : List Nat}
    (h : scanChunks bo n pos (data.drop pos) = .ok ps) :
    (∀ p, ps[0]? = some p → p = pos) ∧
    ∀ k p, ps[k]? = some p → p + 8 ≤ data.length ∧ ∃ (id : Bytes) (size : Int) (rest : Bytes), id.length = 4 ∧ 0 ≤ size ∧
      (rFourcc bo >>= fun id => rInt bo .u32 >>= fun size => pure (id, size)) (data.drop p) =
        .ok ((id, size), rest) ∧ ∀ q, ps[k + 1]? = some q → q = p + 8 + size.toNat := by
  induction n generalizing pos ps with
  | zero => cases h; simp
  | succ n ih =>
    rw [scanChunks] at h
    cases hr : (fread 4 >>= fun _ => rInt bo .u32) (data.drop pos) with
    | error e => rw [hr] at h; cases h
    | ok x =>
      obtain ⟨size, rest⟩ := x
      rw [hr] at h
      dsimp only at h
      obtain ⟨h1, h2, h3, id, h4, h5⟩ := chunkHead_ok hr
      rw [h1, List.drop_drop, List.drop_drop, ← Nat.add_assoc] at h
      cases hq : scanChunks bo n (pos + 8 + size.toNat) (data.drop (pos + 8 + size.toNat)) with
      | error e => rw [hq] at h; cases h
      | ok qs =>
        rw [hq] at h
        cases h
        obtain ⟨i1, i2⟩ := ih hq
        refine ⟨by simp [eq_comm], ?_⟩
        intro k p hp
        cases k with
        | zero =>
          simp only [List.getElem?_cons_zero, Option.some.injEq] at hp
          subst hp
          refine ⟨by simp at h2; omega, id, size, rest, h4, h3, h5, ?_⟩
          intro q hq'
          simp only [List.getElem?_cons_succ] at hq'
          exact i1 q hq'
        | succ k =>
          simp only [List.getElem?_cons_succ] at hp ⊢
          exact i2 k p hp

theorem mapM_ok {α β ε : Type} {g : α → Except ε β} : ∀ {l : List α}, (∀ x ∈ l, ∃ y, g x = .ok y) →
    ∃ ys, l.mapM g = .ok ys ∧ ys.length = l.length ∧
      ∀ (k : Nat) y, ys[k]? = some y → ∃ x, l[k]? = some x ∧ g x = .ok y
  | [], _ => ⟨[], rfl, rfl, by simp⟩
  | x :: l, h => by
    obtain ⟨y, hy⟩ := h x (by simp)
    obtain ⟨ys, h1, h2, h3⟩ := mapM_ok fun z hz => h z (List.mem_cons_of_mem _ hz)
    refine ⟨y :: ys, ?_, by simp [h2], ?_⟩
    · rw [List.mapM_cons, hy, h1]; rfl
    · intro k z hz
      cases k with
      | zero => simp at hz; exact ⟨x, by simp, by rw [hy, hz]⟩
      | succ k => simpa using h3 k z (by simpa using hz)

theorem mapM_each {α β ε : Type} {g : α → Except ε β} : ∀ {l : List α} {ys : List β},
    l.mapM g = .ok ys → ∀ x ∈ l, ∃ y, g x = .ok y
  | [], _, _ => by simp
  | x :: l, ys, h => by
    rw [List.mapM_cons] at h
    cases hx : g x with
    | error e => rw [hx] at h; cases h
    | ok y =>
      rw [hx] at h
      cases hl : l.mapM g with
      | error e => rw [hl] at h; cases h
      | ok zs =>
        intro z hz
        rcases List.mem_cons.1 hz with rfl | hz
        · exact ⟨y, hx⟩
        · exact mapM_each hl z hz

/-- C56: in any file that opens, `chunks()` does not raise: there is the header and one chunk for each
number up to the count in the header; the first one starts where the header ends, every other one where the
one before it ends; every chunk header is inside the file.  (The data of the last chunk may be cut.) -/
theorem C56_chunks {bytes : Bytes} {f : AvbFile} (ho : openTable bytes = .ok f) :
    ∃ cks, chunks f = .ok cks ∧ cks.length = f.header.num_objects + 1 ∧
      (∀ ck, cks[0]? = some ck → ck.class_id = cc 'O' 'B' 'J' 'D' ∧ ck.pos = 8 ∧ ck.pos + ck.size = f.headerEnd) ∧
      ∀ k ck ck', cks[k]? = some ck → cks[k + 1]? = some ck' →
        ck'.class_id.length = 4 ∧ ck'.pos = ck.pos + ck.size + 8 ∧ ck'.pos ≤ bytes.length := by
  obtain ⟨bo, hdr, rest, ps, h1, h2, h3, h4, rfl⟩ := openTable_ok ho
  obtain ⟨pre, hpre, _⟩ := readHeader_mono bo _ _ _ h3
  have hend : 8 ≤ bytes.length - rest.length := by
    have := congrArg List.length hpre
    simp only [List.length_drop, List.length_append] at this
    omega
  have hrest : rest = bytes.drop (bytes.length - rest.length) := by
    have : bytes = bytes.take 8 ++ pre ++ rest := by
      rw [List.append_assoc, ← hpre, List.take_append_drop]
    have hl := congrArg List.length this
    simp only [List.length_append] at hl
    conv_rhs => rw [this]
    rw [List.drop_left']
    simp only [List.length_append]
    omega
  have hlen := scanChunks_length h4
  rw [hrest] at h4
  have hd : (bytes.drop (bytes.length - rest.length)).length = rest.length := by rw [← hrest]
  rw [hd] at h4
  obtain ⟨h5, h6⟩ := scanChunks_at h4
  have h0 : readChunk ⟨bo, hdr, 0 :: ps, bytes, bytes.length - rest.length⟩ 0 =
      .ok ⟨cc 'O' 'B' 'J' 'D', 8, bytes.length - rest.length - 8⟩ := rfl
  have hs : ∀ k p, ps[k]? = some p →
      ∃ id size, readChunk ⟨bo, hdr, 0 :: ps, bytes, bytes.length - rest.length⟩ (k + 1) =
        .ok ⟨id, p + 8, size⟩ ∧ id.length = 4 ∧ p + 8 ≤ bytes.length ∧
        ∀ q, ps[k + 1]? = some q → q = p + 8 + size := by
    intro k p hp
    obtain ⟨h7, id, size, rest', h8, h9, h10, h11⟩ := h6 k p hp
    refine ⟨id, size.toNat, ?_, h8, h7, h11⟩
    unfold readChunk
    simp only [Nat.add_eq_zero_iff, one_ne_zero, and_false, if_false, List.getElem?_cons_succ, hp, h10]
  obtain ⟨cks, k1, k2, k3⟩ := mapM_ok (g := readChunk ⟨bo, hdr, 0 :: ps, bytes, bytes.length - rest.length⟩)
    (l := List.range (ps.length + 1)) (by
      intro i hi
      rw [List.mem_range] at hi
      cases i with
      | zero => exact ⟨_, h0⟩
      | succ i =>
        obtain ⟨id, size, h7, _⟩ := hs i ps[i] (by simp)
        exact ⟨_, h7⟩)
  refine ⟨cks, k1, by simp [k2, hlen], ?_, ?_⟩
  · intro ck hck
    obtain ⟨x, hx, hg⟩ := k3 0 ck hck
    simp at hx
    subst hx
    rw [h0] at hg
    cases hg
    exact ⟨rfl, rfl, Nat.add_sub_cancel' hend⟩
  · intro k ck ck' hck hck'
    obtain ⟨x, hx, hg⟩ := k3 k ck hck
    obtain ⟨x', hx', hg'⟩ := k3 (k + 1) ck' hck'
    have hx1 : x = k ∧ k < ps.length + 1 := by
      have := List.getElem?_eq_some_iff.1 hx
      obtain ⟨h7, h8⟩ := this
      rw [List.getElem_range] at h8
      rw [List.length_range] at h7
      exact ⟨h8.symm, h7⟩
    have hx2 : x' = k + 1 ∧ k + 1 < ps.length + 1 := by
      have := List.getElem?_eq_some_iff.1 hx'
      obtain ⟨h7, h8⟩ := this
      rw [List.getElem_range] at h8
      rw [List.length_range] at h7
      exact ⟨h8.symm, h7⟩
    obtain ⟨rfl, _⟩ := hx1
    obtain ⟨rfl, hlt⟩ := hx2
    have hp : ps[x]? = some (ps[x]'(by omega)) := by simp
    obtain ⟨id', size', e1, e2, e3, _⟩ := hs x _ hp
    rw [e1] at hg'
    cases hg'
    refine ⟨e2, ?_, e3⟩
    cases x with
    | zero =>
      rw [h0] at hg
      cases hg
      have := h5 _ hp
      show ps[0] + 8 = 8 + (bytes.length - rest.length - 8) + 8
      rw [Nat.add_sub_cancel' hend, this]
    | succ j =>
      have hq : ps[j]? = some (ps[j]'(by omega)) := by simp
      obtain ⟨id, size, g1, _, _, g4⟩ := hs j _ hq
      rw [g1] at hg
      cases hg
      have := g4 _ hp
      show ps[j + 1] + 8 = ps[j] + 8 + size + 8
      omega

namespace Work

/-- The class id in the file of the chunk with a number. -/
def IdAt (f : AvbFile) (i : Nat) (id : Bytes) : Prop := ∃ ck, readChunk f i = .ok ck ∧ ck.class_id = id

theorem ofId_some {id : Bytes} {k : Cls} (h : Cls.ofId id = some k) : k.id = id := by
  unfold Cls.ofId at h
  simpa using List.find?_some h

/-- The class id in the file of an object that can be loaded is that of its class. -/
theorem C56_class_id {f : AvbFile} {i : Nat} {o : Obj} (h : readObject f i = .ok (some o)) :
    IdAt f i o.cls.id := by
  unfold readObject at h
  split at h
  · cases h
  · next hi =>
    split at h
    · cases h
    · next p hp =>
      split at h
      · cases h
      · next id size rest hr =>
        refine ⟨⟨id, p + 8, size.toNat⟩, ?_, ?_⟩
        · unfold readChunk
          rw [if_neg hi, hp]
          dsimp only
          rw [hr]
        · split at h
          · cases h
          · split at h
            · cases h
            · next k hk =>
              split at h
              · cases h
              · next o' left ho =>
                split at h
                · cases h
                  rw [Fast.readAs_cls ho]
                  exact (ofId_some hk).symm
                · cases h

theorem look_cache {f : AvbFile} {s : St} {i j l : Nat} (h : s.cache j = some l) :
    (look f s i).2.cache j = some l := by
  unfold look
  split
  · exact h
  · split
    · exact h
    · next hn =>
      split
      · exact h
      · exact h
      · show put s.cache i s.fresh j = some l
        unfold put
        rw [if_neg (by rintro rfl; rw [hn] at h; cases h)]
        exact h

/-- What was yielded for the chunk with number `i`: `None` for the header, otherwise the object with this
number. -/
def Yielded (s : St) (i : Nat) (x : Option Nat) : Prop :=
  if i = 0 then x = none else ∃ l, x = some l ∧ s.cache i = some l

theorem iterFrom_ok {f : AvbFile} {o₀ : Obj} {ids : List Bytes} (sel : Nat → Bool) : ∀ {is : List Nat}
    {es : List Event} {s : St}, Run f (start f o₀) es s →
    (∀ i ∈ is, ∃ ck, readChunk f i = .ok ck ∧ (sel i = true ↔ ck.class_id ∈ ids)) →
    (∀ i ∈ is, i ≠ 0 → sel i = true → ∃ o, current f es i = .ok (some o)) →
    ∃ xs s' es', iterFrom f ids is s = ((xs, none), s') ∧ Run f (start f o₀) (es ++ es') s' ∧
      (∀ i, assigned i (es ++ es') = assigned i es) ∧
      (∀ j l, s.cache j = some l → s'.cache j = some l) ∧ List.Forall₂ (Yielded s') (is.filter sel) xs
  | [], es, s, h, _, _ => ⟨[], s, [], rfl, by simpa using h, by simp, fun _ _ h => h, .nil⟩
  | i :: is, es, s, h, hck, hload => by
    obtain ⟨ck, h1, h2⟩ := hck i (by simp)
    by_cases hs : sel i = true
    · have hl := h.snoc (.look s i)
      have ha : ∀ j, assigned j (es ++ [.look i]) = assigned j es := fun j => assigned_snoc
      obtain ⟨xs, s', es', k1, k2, k3, k4, k5⟩ := iterFrom_ok sel hl
        (fun j hj => hck j (List.mem_cons_of_mem _ hj))
        (fun j hj h0 hsj => by
          have := hload j (List.mem_cons_of_mem _ hj) h0 hsj
          unfold current at this ⊢
          rwa [ha])
      have hx : ∃ x, (look f s i).1 = .ok x ∧ Yielded s' i x := by
        by_cases h0 : i = 0
        · exact ⟨none, by simp [look, h0], by simp [Yielded, h0]⟩
        · obtain ⟨o, ho⟩ := hload i (by simp) h0 hs
          have hlk := C51_look h h0
          rw [ho] at hlk
          cases hr : look f s i with
          | mk r s1 =>
            rw [hr] at hlk
            cases r with
            | error e => exact hlk.elim
            | ok x =>
              cases x with
              | none => exact hlk.elim
              | some l =>
                refine ⟨some l, rfl, ?_⟩
                unfold Yielded
                rw [if_neg h0]
                refine ⟨l, rfl, k4 i l ?_⟩
                rw [hr]
                unfold look at hr
                rw [if_neg h0] at hr
                cases hc : s.cache i with
                | some l' => rw [hc] at hr; cases hr; exact hc
                | none =>
                  rw [hc] at hr
                  dsimp only at hr
                  split at hr <;> cases hr
                  simp [put]
      obtain ⟨x, hx1, hx2⟩ := hx
      refine ⟨x :: xs, s', .look i :: es', ?_, by simpa using k2, ?_, ?_, ?_⟩
      · simp only [iterFrom, h1]
        rw [if_pos (h2.1 hs)]
        cases hr : look f s i with
        | mk r s1 =>
          rw [hr] at hx1 k1
          dsimp only at hx1 k1
          subst hx1
          dsimp only
          rw [k1]
      · intro j
        have := k3 j
        rw [ha] at this
        simpa using this
      · exact fun j l hj => k4 j l (look_cache hj)
      · rw [List.filter_cons_of_pos hs]
        exact .cons hx2 k5
    · obtain ⟨xs, s', es', k1, k2, k3, k4, k5⟩ := iterFrom_ok sel h
        (fun j hj => hck j (List.mem_cons_of_mem _ hj)) (fun j hj => hload j (List.mem_cons_of_mem _ hj))
      refine ⟨xs, s', es', ?_, k2, k3, k4, ?_⟩
      · simp only [iterFrom, h1]
        rw [if_neg (fun hm => hs (h2.2 hm)), k1]
      · rw [List.filter_cons_of_neg hs]
        exact k5

/-- C56: after any history of work on an opened file, `iter_class_ids` yields exactly the objects of the
file whose class id in the file is in the list, in the order of their numbers, each with its present
content (`None` first if the list has `OBJD`); looking them up changes no content.  `sel` says which chunks
have a class id in the list. -/
theorem C56_iter {bytes : Bytes} {f : AvbFile} (ho : openTable bytes = .ok f) {o₀ : Obj}
    {es : List Event} {s : St} (h : Run f (start f o₀) es s) {ids : List Bytes} {sel : Nat → Bool}
    (hsel : ∀ i id, IdAt f i id → (sel i = true ↔ id ∈ ids))
    (hload : ∀ i, i ≠ 0 → i ≤ f.header.num_objects → sel i = true → ∃ o, current f es i = .ok (some o)) :
    ∃ xs s', iterClassIds f ids s = ((xs, none), s') ∧
      List.Forall₂ (fun i x => if i = 0 then x = none else
          ∃ l o, x = some l ∧ s'.objs l = (i, o) ∧ current f es i = .ok (some o))
        ((List.range (f.header.num_objects + 1)).filter sel) xs ∧
      ∀ order, heap f order s' = heap f order s := by
  obtain ⟨cks, c1, c2, _⟩ := C56_chunks ho
  have hlen : f.positions.length = f.header.num_objects + 1 := by
    obtain ⟨bo, hdr, rest, ps, h1, h2, h3, h4, rfl⟩ := openTable_ok ho
    simp [scanChunks_length h4]
  have hck : ∀ i ∈ List.range f.positions.length, ∃ ck, readChunk f i = .ok ck := by
    exact mapM_each c1
  obtain ⟨xs, s', es', k1, k2, k3, k4, k5⟩ := iterFrom_ok sel h (ids := ids)
    (is := List.range f.positions.length)
    (fun i hi => by
      obtain ⟨ck, hc⟩ := hck i hi
      exact ⟨ck, hc, hsel i _ ⟨ck, hc, rfl⟩⟩)
    (fun i hi h0 hs => hload i h0 (by have := List.mem_range.1 hi; omega) hs)
  rw [hlen] at k5
  refine ⟨xs, s', k1, k5.imp ?_, ?_⟩
  · intro i x hx
    unfold Yielded at hx
    split at hx
    · next h0 => rw [if_pos h0]; exact hx
    · next h0 =>
      rw [if_neg h0]
      obtain ⟨l, h1, h2⟩ := hx
      have hv := Inv.run k2
      obtain ⟨h3, h4⟩ := hv.cache i l h2
      have h5 := hv.content l h3
      rw [h4] at h5
      refine ⟨l, (s'.objs l).2, h1, by rw [← h4], ?_⟩
      unfold current at h5 ⊢
      rwa [k3] at h5
  · intro order
    rw [heap_eq k2, heap_eq h]
    funext r
    unfold wanted
    rw [k3]

theorem iterFrom_append {f : AvbFile} {ids : List Bytes} : ∀ {is js : List Nat} {s s' : St}
    {xs : List (Option Nat)}, iterFrom f ids is s = ((xs, none), s') →
    iterFrom f ids (is ++ js) s =
      ((xs ++ (iterFrom f ids js s').1.1, (iterFrom f ids js s').1.2), (iterFrom f ids js s').2)
  | [], js, s, s', xs, h => by cases h; rfl
  | i :: is, js, s, s', xs, h => by
    simp only [List.cons_append, iterFrom] at h ⊢
    cases hc : readChunk f i with
    | error e => rw [hc] at h; cases h
    | ok ck =>
      rw [hc] at h
      dsimp only at h ⊢
      split at h
      · next hm =>
        rw [if_pos hm]
        cases hl : look f s i with
        | mk r s1 =>
          rw [hl] at h
          cases r with
          | error e => cases h
          | ok x =>
            dsimp only at h ⊢
            cases hr : iterFrom f ids is s1 with
            | mk r2 s2 =>
              obtain ⟨ys, e⟩ := r2
              rw [hr] at h
              cases h
              rw [iterFrom_append hr]
              rfl
      · next hm =>
        rw [if_neg hm]
        exact iterFrom_append h

/-- C56: if an object with a class id in the list cannot be loaded, the listing yields the objects before
it and raises what loading it raises. -/
theorem C56_raises {bytes : Bytes} {f : AvbFile} (ho : openTable bytes = .ok f) {o₀ : Obj}
    {es : List Event} {s : St} (h : Run f (start f o₀) es s) {ids : List Bytes} {sel : Nat → Bool}
    (hsel : ∀ i id, IdAt f i id → (sel i = true ↔ id ∈ ids)) {k : Nat} (hk0 : k ≠ 0)
    (hk : k ≤ f.header.num_objects) (hks : sel k = true) {e : Err} (hke : current f es k = .error e)
    (hload : ∀ i, i ≠ 0 → i < k → sel i = true → ∃ o, current f es i = .ok (some o)) :
    ∃ xs s', iterClassIds f ids s = ((xs, some e), s') ∧
      List.Forall₂ (fun i x => if i = 0 then x = none else
          ∃ l o, x = some l ∧ s'.objs l = (i, o) ∧ current f es i = .ok (some o))
        ((List.range k).filter sel) xs := by
  obtain ⟨cks, c1, c2, _⟩ := C56_chunks ho
  have hlen : f.positions.length = f.header.num_objects + 1 := by
    obtain ⟨bo, hdr, rest, ps, h1, h2, h3, h4, rfl⟩ := openTable_ok ho
    simp [scanChunks_length h4]
  have hck : ∀ i ∈ List.range f.positions.length, ∃ ck, readChunk f i = .ok ck := mapM_each c1
  obtain ⟨xs, s', es', k1, k2, k3, k4, k5⟩ := iterFrom_ok sel h (ids := ids) (is := List.range k)
    (fun i hi => by
      obtain ⟨ck, hc⟩ := hck i (by rw [List.mem_range] at hi ⊢; omega)
      exact ⟨ck, hc, hsel i _ ⟨ck, hc, rfl⟩⟩)
    (fun i hi h0 hs => hload i h0 (List.mem_range.1 hi) hs)
  have hr : List.range f.positions.length = List.range k ++ k :: List.range' (k + 1) (f.header.num_objects - k) := by
    rw [hlen, List.range_eq_range', List.range_eq_range',
      show f.header.num_objects + 1 = k + (f.header.num_objects - k + 1) by omega, ← List.range'_append_1,
      List.range'_succ]
    simp
  obtain ⟨ck, hc⟩ := hck k (by rw [List.mem_range]; omega)
  have hl : (look f s' k).1 = .error e := by
    have hlk := C51_look k2 hk0
    have : current f (es ++ es') k = .error e := by unfold current at hke ⊢; rwa [k3]
    rw [this] at hlk
    cases hr : look f s' k with
    | mk r s1 =>
      rw [hr] at hlk
      cases r with
      | error e' => show Except.error e' = _; rw [show e' = e from hlk]
      | ok x => cases x <;> exact hlk.elim
  have hl2 : (look f s' k).2 = s' := by
    unfold look at hl ⊢
    rw [if_neg hk0] at hl ⊢
    cases hc : s'.cache k with
    | some l => rfl
    | none =>
      rw [hc] at hl
      dsimp only at hl ⊢
      split at hl <;> first | rfl | cases hl
  refine ⟨xs, s', ?_, k5.imp ?_⟩
  · unfold iterClassIds
    rw [hr, iterFrom_append k1]
    simp only [iterFrom, hc]
    rw [if_pos ((hsel k _ ⟨ck, hc, rfl⟩).1 hks)]
    cases hr : look f s' k with
    | mk r s1 =>
      rw [hr] at hl hl2
      dsimp only at hl hl2
      subst hl hl2
      simp
  · intro i x hx
    unfold Yielded at hx
    split at hx
    · next h0 => rw [if_pos h0]; exact hx
    · next h0 =>
      rw [if_neg h0]
      obtain ⟨l, h1, h2⟩ := hx
      have hv := Inv.run k2
      obtain ⟨h3, h4⟩ := hv.cache i l h2
      have h5 := hv.content l h3
      rw [h4] at h5
      refine ⟨l, (s'.objs l).2, h1, by rw [← h4], ?_⟩
      unfold current at h5 ⊢
      rwa [k3] at h5

theorem iterFrom_some {f : AvbFile} {o₀ : Obj} {ids : List Bytes} : ∀ {is : List Nat} {es : List Event}
    {s : St}, Run f (start f o₀) es s →
    ∃ es', Run f (start f o₀) (es ++ es') (iterFrom f ids is s).2 ∧
      (∀ j l, s.cache j = some l → (iterFrom f ids is s).2.cache j = some l) ∧
      ∀ l, some l ∈ (iterFrom f ids is s).1.1 → ∃ i ∈ is, (iterFrom f ids is s).2.cache i = some l
  | [], es, s, h => ⟨[], by simpa [iterFrom] using h, by simp [iterFrom], by simp [iterFrom]⟩
  | i :: is, es, s, h => by
    have stop : ∀ e : Option Err, ∃ es', Run f (start f o₀) (es ++ es') s ∧
      (∀ j l, s.cache j = some l → s.cache j = some l) ∧
      ∀ l, some l ∈ (([] : List (Option Nat)), e).1 → ∃ i' ∈ i :: is, s.cache i' = some l :=
      fun _ => ⟨[], by simpa using h, fun _ _ h => h, fun _ h => nomatch h⟩
    simp only [iterFrom]
    cases hc : readChunk f i with
    | error e => exact stop (some e)
    | ok ck =>
      dsimp only
      split
      · cases hl : look f s i with
        | mk r s1 =>
          have h1 := h.snoc (.look s i)
          have hcache : ∀ j l, s.cache j = some l → s1.cache j = some l := by
            intro j l hj
            have := look_cache (f := f) (i := i) hj
            rwa [hl] at this
          rw [hl] at h1
          cases r with
          | error e => exact ⟨[.look i], h1, hcache, fun _ h => nomatch h⟩
          | ok x =>
            obtain ⟨es', k1, k2, k3⟩ := iterFrom_some (ids := ids) (is := is) h1
            refine ⟨.look i :: es', by simpa using k1, fun j l hj => k2 j l (hcache j l hj), ?_⟩
            intro l hm
            rcases List.mem_cons.1 hm with hx | hm
            · refine ⟨i, by simp, k2 i l ?_⟩
              subst hx
              unfold look at hl
              split at hl
              · cases hl
              · cases hcc : s.cache i with
                | some l' => rw [hcc] at hl; cases hl; exact hcc
                | none =>
                  rw [hcc] at hl
                  dsimp only at hl
                  split at hl <;> cases hl
                  simp [put]
            · obtain ⟨j, h3, h4⟩ := k3 l hm
              exact ⟨j, List.mem_cons_of_mem _ h3, h4⟩
      · obtain ⟨es', k1, k2, k3⟩ := iterFrom_some (ids := ids) (is := is) h
        refine ⟨es', k1, k2, fun l hm => ?_⟩
        obtain ⟨j, h3, h4⟩ := k3 l hm
        exact ⟨j, List.mem_cons_of_mem _ h3, h4⟩

theorem new_large {f : AvbFile} {o₀ : Obj} {es : List Event} {s : St} (h : Run f (start f o₀) es s)
    {i : Nat} {o : Obj} (hn : .new i o ∈ es) : f.positions.length < i := by
  induction h with
  | nil => cases hn
  | @snoc s1 s2 e es h1 h2 ih =>
    rcases List.mem_append.1 hn with hn | hn
    · exact ih hn
    · cases List.mem_singleton.1 hn
      cases h2
      have := (Inv.run h1).size
      omega

/-- C56: objects made since the file was opened are never listed, whatever the list of class ids. -/
theorem C56_created_missing {f : AvbFile} {o₀ : Obj} {es : List Event} {s : St}
    (h : Run f (start f o₀) es s) {i : Nat} {o : Obj} (hn : .new i o ∈ es) (ids : List Bytes) :
    ∀ l, some l ∈ (iterClassIds f ids s).1.1 → ((iterClassIds f ids s).2.objs l).1 ≠ i := by
  intro l hl he
  obtain ⟨es', k1, _, k3⟩ := iterFrom_some (ids := ids) (is := List.range f.positions.length) h
  obtain ⟨j, h1, h2⟩ := k3 l hl
  obtain ⟨_, h3⟩ := (Inv.run k1).cache j l h2
  have h4 := new_large h hn
  unfold iterClassIds at he
  rw [h3] at he
  rw [List.mem_range] at h1
  omega

/-- Whether a chunk of the example file is a gap or the header. -/
def exSel (i : Nat) : Bool := i = 0 || i = 1

/-- The hypotheses of `C56_iter` can be met: gaps and the header of the example file, after the history of
C51, in which a gap was made. -/
example (bo : BO) : ∃ bytes f s, openTable bytes = .ok f ∧ Run f (start f exFill) exHistory s ∧
    ∃ xs s', iterClassIds f [cc 'O' 'B' 'J' 'D', cc 'F' 'I' 'L' 'L'] s = ((xs, none), s') ∧
      List.Forall₂ (fun i x => if i = 0 then x = none else
        ∃ l o, x = some l ∧ s'.objs l = (i, o) ∧ current f exHistory i = .ok (some o)) [0, 1] xs ∧
      ∀ l, some l ∈ xs → (s'.objs l).1 ≠ 5 := by
  obtain ⟨bytes, f, _, hf, f1, f2, f3, hr, hn, hp⟩ := exFile_ok bo
  obtain ⟨s, hs⟩ := exHistory_run f1 f3 hp
  have id1 := C56_class_id f1
  have id2 := C56_class_id f2
  have id3 := C56_class_id f3
  have uniq : ∀ {i id id'}, IdAt f i id → IdAt f i id' → id = id' := by
    rintro i id id' ⟨ck, h1, rfl⟩ ⟨ck', h2, rfl⟩
    rw [h1] at h2; cases h2; rfl
  obtain ⟨xs, s', h1, h2, _⟩ := C56_iter hf hs (ids := [cc 'O' 'B' 'J' 'D', cc 'F' 'I' 'L' 'L'])
    (sel := exSel) (by
      intro i id hid
      have hi : i < 4 := by
        by_contra hc
        obtain ⟨ck, h1, _⟩ := hid
        unfold readChunk at h1
        rw [if_neg (by omega), List.getElem?_eq_none (by omega)] at h1
        cases h1
      match i, hi with
      | 0, _ =>
        obtain ⟨ck, h1, rfl⟩ := hid
        cases h1
        show _ ↔ cc 'O' 'B' 'J' 'D' ∈ _
        decide
      | 1, _ => rw [uniq hid id1]; decide
      | 2, _ => rw [uniq hid id2]; decide
      | 3, _ => rw [uniq hid id3]; decide)
    (by
      intro i h0 hi hsel
      have : i = 1 := by
        unfold exSel at hsel
        simp only [Bool.or_eq_true, decide_eq_true_eq] at hsel
        omega
      subst this
      exact ⟨exFill, f1⟩)
  have h3 := C56_created_missing hs (i := 5) (o := exFillE) (by simp [exHistory])
    [cc 'O' 'B' 'J' 'D', cc 'F' 'I' 'L' 'L']
  rw [h1] at h3
  refine ⟨bytes, f, s, hf, hs, xs, s', h1, ?_, h3⟩
  rw [hn] at h2
  exact h2

/-- A file with two chunks of classes nobody knows: its table and what loading the second gives. -/
def exUnknownTest : Bool :=
  match (writeHeaderPre .little exInfo).bytes, (writeHeaderPost .little exInfo).bytes with
  | .ok pre, .ok post =>
    match openTable (headerBytes .little pre post 2 2 ++
      ([(cc 'x' 'x' 'x' 'x', [1, 2, 3]), (cc 'y' 'y' 'y' 'y', [])].flatMap
        fun p => chunkBytes .little p.1 p.2)) with
    | .ok f =>
      (match readObject f 2 with | .error .notImplemented => true | _ => false) &&
      (match readChunk f 1, readChunk f 2 with
        | .ok a, .ok b => a.class_id = cc 'x' 'x' 'x' 'x' && b.class_id = cc 'y' 'y' 'y' 'y'
        | _, _ => false) && f.header.num_objects = 2 && f.positions.length = 3
    | .error _ => false
  | _, _ => false

/-- The hypotheses of `C56_raises` can be met. -/
example : ∃ bytes f, openTable bytes = .ok f ∧ ∃ xs s',
    iterClassIds f [cc 'y' 'y' 'y' 'y'] (start f exFill) = ((xs, some .notImplemented), s') := by
  have ht : exUnknownTest = true := by decide +kernel
  unfold exUnknownTest at ht
  split at ht
  · next pre post _ _ =>
    split at ht
    · next f hf =>
      simp only [Bool.and_eq_true, decide_eq_true_eq] at ht
      obtain ⟨⟨⟨t1, t2⟩, t3⟩, t4⟩ := ht
      refine ⟨_, f, hf, ?_⟩
      have h2 : readObject f 2 = .error .notImplemented := by
        revert t1
        split
        · next h => intro _; exact h
        · intro h; cases h
      split at t2
      · next a b ha hb =>
        simp only [Bool.and_eq_true, decide_eq_true_eq] at t2
        obtain ⟨xs, s', k, _⟩ := C56_raises hf (.nil (start f exFill)) (ids := [cc 'y' 'y' 'y' 'y'])
          (sel := fun i => i = 2) (k := 2) (e := .notImplemented) (by
            intro i id hid
            have hi : i < 3 := by
              by_contra hc
              obtain ⟨ck, h1, _⟩ := hid
              unfold readChunk at h1
              rw [if_neg (by omega), List.getElem?_eq_none (by omega)] at h1
              cases h1
            obtain ⟨ck, h1, rfl⟩ := hid
            match i, hi with
            | 0, _ =>
              cases h1
              show _ ↔ cc 'O' 'B' 'J' 'D' ∈ _
              decide
            | 1, _ => rw [ha] at h1; cases h1; rw [t2.1]; decide
            | 2, _ => rw [hb] at h1; cases h1; rw [t2.2]; decide)
          (by decide) (by omega) (by decide) h2 (by
            intro i _ hi hs
            simp only [decide_eq_true_eq] at hs
            omega)
        exact ⟨xs, s', k⟩
      · cases t2
    · cases ht
  · cases ht

end Work
end Avb

import Verif.Model.Embedded
import Verif.Props.Listing
import Verif.Props.Bound
import Verif.Props.Fast
import Verif.Props.Layout

/-
C78: an AVB file inside another file.  C79: the hex dump of a chunk.
-/

namespace Avb

open SaveCore (finalCtx)

/-- What a user can tell about an opened file: byte order, header, objects by either reader, and the chunks
except for where they are. -/
structure SameFile (start : Nat) (f g : AvbFile) : Prop where
  bo : g.bo = f.bo
  header : g.header = f.header
  count : g.positions.length = f.positions.length
  object : ∀ i, readObject g i = readObject f i
  fast : ∀ i, Fast.readObject g i = Fast.readObject f i
  chunk : ∀ i ck, readChunk f i = .ok ck → ∃ ck', readChunkAt start g i = .ok ck' ∧ ck'.class_id = ck.class_id ∧
    ck'.size = ck.size ∧ ck'.pos = start + ck.pos ∧ ck'.read g = ck.read f
  missing : ∀ i e, readChunk f i = .error e → readChunkAt start g i = .error e

/-- The same, in terms of the bytes. -/
structure Relocated (start : Nat) (f g : AvbFile) : Prop where
  bo : g.bo = f.bo
  header : g.header = f.header
  count : g.positions.length = f.positions.length
  place : ∀ (i p : Nat), i ≠ 0 → f.positions[i]? = some p → g.positions[i]? = some (start + p) ∧
    ∃ id size rest rest', (rFourcc f.bo >>= fun id => rInt f.bo .u32 >>= fun size => pure (id, size))
        (f.data.drop p) = .ok ((id, size), rest) ∧
      (rFourcc f.bo >>= fun id => rInt f.bo .u32 >>= fun size => pure (id, size))
        (g.data.drop (start + p)) = .ok ((id, size), rest') ∧ rest.take size.toNat = rest'.take size.toNat ∧
      rest = (f.data.drop p).drop 8 ∧ rest' = (g.data.drop (start + p)).drop 8
  first : g.headerEnd = start + f.headerEnd
  head : ((g.data.drop (start + 8)).take (f.headerEnd - 8)) = (f.data.drop 8).take (f.headerEnd - 8)

theorem Relocated.sameFile {start : Nat} {f g : AvbFile} (h : Relocated start f g) : SameFile start f g := by
  have hlen : ∀ i : Nat, f.positions[i]? = .none → g.positions[i]? = .none := by
    intro i hi
    rw [List.getElem?_eq_none_iff] at hi ⊢
    rw [h.count]; exact hi
  have hctx : g.ctx = f.ctx := by unfold AvbFile.ctx; rw [h.bo, h.count]
  refine ⟨h.bo, h.header, h.count, ?_, ?_, ?_, ?_⟩
  · intro i
    unfold readObject
    by_cases h0 : i = 0
    · rw [if_pos h0, if_pos h0]
    · rw [if_neg h0, if_neg h0]
      cases hp : f.positions[i]? with
      | none => rw [hlen i hp]
      | some p =>
        obtain ⟨hq, id, size, rest, rest', h1, h2, h3, _, _⟩ := h.place i p h0 hp
        rw [hq]
        dsimp only
        rw [h.bo, h1, h2]
        dsimp only
        rw [h3, hctx]
  · intro i
    unfold Fast.readObject
    by_cases h0 : i = 0
    · rw [if_pos h0, if_pos h0]
    · rw [if_neg h0, if_neg h0]
      cases hp : f.positions[i]? with
      | none => rw [hlen i hp]
      | some p =>
        obtain ⟨hq, id, size, rest, rest', h1, h2, h3, _, _⟩ := h.place i p h0 hp
        rw [hq]
        dsimp only
        rw [h.bo, h1, h2]
        dsimp only
        rw [h3, hctx]
  · intro i ck hck
    unfold readChunk at hck
    unfold readChunkAt
    by_cases h0 : i = 0
    · rw [if_pos h0] at hck ⊢
      cases hck
      have he : g.headerEnd - (start + 8) = f.headerEnd - 8 := by rw [h.first]; omega
      refine ⟨_, rfl, rfl, he, rfl, ?_⟩
      unfold ChunkInfo.read
      dsimp only
      rw [he]
      exact h.head
    · rw [if_neg h0] at hck ⊢
      cases hp : f.positions[i]? with
      | none => rw [hp] at hck; cases hck
      | some p =>
        obtain ⟨hq, id, size, rest, rest', h1, h2, h3, h4, h5⟩ := h.place i p h0 hp
        rw [hp] at hck
        dsimp only at hck
        rw [h1] at hck
        cases hck
        unfold readChunk
        rw [if_neg h0, hq]
        dsimp only
        rw [h.bo, h2]
        refine ⟨_, rfl, rfl, rfl, by dsimp only; omega, ?_⟩
        unfold ChunkInfo.read
        dsimp only
        rw [h4, h5] at h3
        rw [List.drop_drop, List.drop_drop] at h3
        exact h3.symm
  · intro i e he
    unfold readChunk at he
    unfold readChunkAt
    by_cases h0 : i = 0
    · rw [if_pos h0] at he; cases he
    · rw [if_neg h0] at he ⊢
      cases hp : f.positions[i]? with
      | none =>
        rw [hp] at he
        cases he
        unfold readChunk
        rw [if_neg h0, hlen i hp]
      | some p =>
        obtain ⟨hq, id, size, rest, rest', h1, h2, h3, h4, h5⟩ := h.place i p h0 hp
        rw [hp] at he
        dsimp only at he
        rw [h1] at he
        cases he

theorem scanAt_eq {bo : BO} {data : Bytes} (n pos : Nat) :
    scanAt bo data n pos = scanChunks bo n pos (data.drop pos) := by
  induction n generalizing pos with
  | zero => rfl
  | succ n ih =>
    rw [scanAt, scanChunks]
    cases hr : (fread 4 >>= fun _ => rInt bo .u32) (data.drop pos) with
    | error e => rfl
    | ok x =>
      obtain ⟨size, rest⟩ := x
      obtain ⟨h1, _⟩ := chunkHead_ok hr
      dsimp only
      rw [ih, h1, List.drop_drop, List.drop_drop, Nat.add_assoc]
      rfl

theorem scanChunks_shift {bo : BO} (k n pos : Nat) (bs : Bytes) :
    scanChunks bo n (k + pos) bs = (scanChunks bo n pos bs).map (List.map (k + ·)) := by
  induction n generalizing pos bs with
  | zero => rfl
  | succ n ih =>
    rw [scanChunks, scanChunks]
    cases hr : (fread 4 >>= fun _ => rInt bo .u32) bs with
    | error e => rfl
    | ok x =>
      obtain ⟨size, rest⟩ := x
      dsimp only
      rw [show k + pos + 8 + size.toNat = k + (pos + 8 + size.toNat) by omega, ih]
      cases scanChunks bo n (pos + 8 + size.toNat) (rest.drop size.toNat) with
      | error e => rfl
      | ok ps => rfl

/-- Class id and size of a chunk, as bytes. -/
theorem readHead_layout {bo : BO} {bs rest id : Bytes} {size : Int}
    (h : (rFourcc bo >>= fun id => rInt bo .u32 >>= fun size => pure (id, size)) bs = .ok ((id, size), rest)) :
    id.length = 4 ∧ ∃ n : Nat, n < 2 ^ 32 ∧ size = n ∧ bs = Layout.tag bo id ++ Layout.word bo 4 n ++ rest := by
  obtain ⟨a, mid, h1, h2⟩ := Rd.bind_eq_ok' h
  obtain ⟨b, mid', h3, h4⟩ := Rd.bind_eq_ok' h2
  cases h4
  obtain ⟨n, h5, h6, h7⟩ := Layout.u32_iff.1 h3
  have h8 : bs.take 4 = Layout.tag bo id ∧ bs.drop 4 = mid := by
    cases bo
    · have hr : rFourcc .little bs = .ok ((bs.take 4).reverse, bs.drop 4) := rfl
      rw [hr] at h1
      cases h1
      exact ⟨by simp [Layout.tag], rfl⟩
    · have hr : rFourcc .big bs = .ok (bs.take 4, bs.drop 4) := rfl
      rw [hr] at h1
      cases h1
      exact ⟨rfl, rfl⟩
  have h9 : 4 ≤ bs.length := by
    have := congrArg List.length h8.2
    rw [h7] at this
    simp only [List.length_drop, List.length_append, Layout.word_length] at this
    omega
  refine ⟨?_, n, h5, h6, ?_⟩
  · have := congrArg List.length h8.1
    rw [Layout.tag_length, List.length_take] at this
    omega
  · rw [← h8.1, List.append_assoc, ← h7, ← h8.2, List.take_append_drop]

theorem readHead_drop {bo : BO} {bs rest id : Bytes} {size : Int}
    (h : (rFourcc bo >>= fun id => rInt bo .u32 >>= fun size => pure (id, size)) bs = .ok ((id, size), rest)) :
    rest = bs.drop 8 := by
  obtain ⟨h1, n, _, _, h2⟩ := readHead_layout h
  rw [h2, List.drop_left' (by simp [Layout.tag_length, Layout.word_length, h1])]

/-- The position behind a header. -/
theorem header_drop {bo : BO} {bs rest : Bytes} {hdr : Header} (h : readHeader bo (bs.drop 8) = .ok (hdr, rest)) :
    rest.length ≤ bs.length ∧ bs.drop (bs.length - rest.length) = rest := by
  obtain ⟨p, hp, _⟩ := readHeader_mono bo _ _ _ h
  have hl : rest.length ≤ bs.length := by
    have := congrArg List.length hp
    simp only [List.length_drop, List.length_append] at this
    omega
  refine ⟨hl, ?_⟩
  have h8 : bs = bs.take 8 ++ p ++ rest := by rw [List.append_assoc, ← hp, List.take_append_drop]
  have : bs.length - rest.length = (bs.take 8 ++ p).length := by
    rw [congrArg List.length h8]; simp only [List.length_append]; omega
  rw [this]
  generalize bs.take 8 ++ p = q at h8
  rw [h8, List.drop_left]

/-- The file as found inside other bytes. -/
def AvbFile.inside (pre : Bytes) (f : AvbFile) : AvbFile :=
  ⟨f.bo, f.header, 0 :: (f.positions.drop 1).map (pre.length + ·), pre ++ f.data, pre.length + f.headerEnd⟩

theorem openTableAt_eq (pre bs : Bytes) :
    openTableAt (pre ++ bs) pre.length = (openTable bs).map (AvbFile.inside pre) := by
  have key : ∀ bo, (if ((pre ++ bs).drop (pre.length + 2)).take 6 ≠ magic then .error .value
        else
          match readHeader bo ((pre ++ bs).drop (pre.length + 8)) with
          | .error e => .error e
          | .ok (hdr, rest) =>
            match scanAt bo (pre ++ bs) hdr.num_objects ((pre ++ bs).length - rest.length) with
            | .error e => .error e
            | .ok ps => .ok ⟨bo, hdr, 0 :: ps, (pre ++ bs), (pre ++ bs).length - rest.length⟩ : Except Err AvbFile) =
      Except.map (AvbFile.inside pre) (if (bs.drop 2).take 6 ≠ magic then .error .value
        else
          match readHeader bo (bs.drop 8) with
          | .error e => .error e
          | .ok (hdr, rest) =>
            match scanChunks bo hdr.num_objects (bs.length - rest.length) rest with
            | .error e => .error e
            | .ok ps => .ok ⟨bo, hdr, 0 :: ps, bs, bs.length - rest.length⟩) := by
    intro bo
    rw [List.drop_length_add_append, List.drop_length_add_append]
    by_cases hm : (bs.drop 2).take 6 ≠ magic
    · rw [if_pos hm, if_pos hm]; rfl
    · rw [if_neg hm, if_neg hm]
      cases hr : readHeader bo (bs.drop 8) with
      | error e => rfl
      | ok x =>
        obtain ⟨hdr, rest⟩ := x
        dsimp only
        obtain ⟨hl, hd⟩ := header_drop hr
        rw [List.length_append, Nat.add_sub_assoc hl, scanAt_eq, List.drop_length_add_append, hd, scanChunks_shift]
        cases scanChunks bo hdr.num_objects (bs.length - rest.length) rest with
        | error e => rfl
        | ok ps => rfl
  unfold openTableAt openTable
  dsimp only
  rw [List.drop_left]
  by_cases h1 : bs.take 2 = byteOrderMark .little
  · rw [if_pos h1, if_pos h1]; exact key _
  · rw [if_neg h1, if_neg h1]
    by_cases h2 : bs.take 2 = byteOrderMark .big
    · rw [if_pos h2, if_pos h2]; exact key _
    · rw [if_neg h2, if_neg h2]; rfl

/-- A file with more bytes behind it.  If it has objects, they are found at the same places. -/
theorem openTable_more {bs : Bytes} {f : AvbFile} (h : openTable bs = .ok f) (hn : 0 < f.header.num_objects)
    (post : Bytes) : openTable (bs ++ post) = .ok { f with data := bs ++ post } := by
  obtain ⟨bo, hdr, rest, ps, a1, a2, a3, a4, rfl⟩ := openTable_ok h
  dsimp only at hn ⊢
  obtain ⟨n, hn'⟩ : ∃ n, hdr.num_objects = n + 1 := ⟨hdr.num_objects - 1, by omega⟩
  have hne : rest ≠ [] := by
    rintro rfl
    rw [hn', scanChunks] at a4
    rw [show (fread 4 >>= fun _ => rInt bo .u32) [] = .error .struct by rfl] at a4
    cases a4
  have hm2 := (readHeader_mono bo).more a3 hne post
  have hmagic : (bs.drop 2).take 6 = magic := by
    by_contra hm
    unfold openTable at h
    dsimp only at h
    rw [if_pos hm, if_pos hm] at h
    split at h
    · cases h
    · split at h <;> cases h
  have hl : (bs ++ post).length - (rest ++ post).length = bs.length - rest.length := by
    simp only [List.length_append]; omega
  have t2 : (bs ++ post).take 2 = byteOrderMark bo := by rw [List.take_append_of_le_length (by omega), a1]
  have t6 : ((bs ++ post).drop 2).take 6 = magic := by
    rw [List.drop_append_of_le_length (by omega), List.take_append_of_le_length (by simp; omega), hmagic]
  have a4' : scanChunks bo hdr.num_objects (bs.length - rest.length) (rest ++ post) = .ok ps := by
    rw [hn'] at a4 ⊢
    exact scanChunks_prefix a4
  unfold openTable
  dsimp only
  cases bo
  · rw [if_pos t2, if_neg (by simpa using t6), List.drop_append_of_le_length a2, hm2]
    dsimp only
    rw [hl, a4']
  · rw [if_neg (by rw [t2]; decide), if_pos t2, if_neg (by simpa using t6), List.drop_append_of_le_length a2, hm2]
    dsimp only
    rw [hl, a4']

theorem inside_alike {bs : Bytes} {f : AvbFile} (h : openTable bs = .ok f) (pre : Bytes) {post : Bytes}
    (hp : post = [] ∨ ∀ i ck, readChunk f i = .ok ck → ck.pos + ck.size ≤ bs.length) :
    Relocated pre.length f (AvbFile.inside pre { f with data := bs ++ post }) := by
  have hd := openTable_data h
  obtain ⟨bo, hdr, rest, ps, a1, a2, a3, a4, rfl⟩ := openTable_ok h
  obtain ⟨b1, b2⟩ := header_drop a3
  rw [← b2] at a4
  have b3 : (bs.drop (bs.length - rest.length)).length = rest.length := by rw [b2]
  rw [b3] at a4
  obtain ⟨_, hat⟩ := scanChunks_at a4
  have hs : ∀ bo, Strict (rFourcc bo >>= fun id => rInt bo .u32 >>= fun size => pure (id, size)) := fun bo =>
    Strict.bind rFourcc_mono fun _ => Strict.last Strict.int
  refine ⟨rfl, rfl, by simp [AvbFile.inside], ?_, rfl, ?_⟩
  · intro i p h0 hi
    obtain ⟨k, rfl⟩ : ∃ k, i = k + 1 := ⟨i - 1, by omega⟩
    have hk : ps[k]? = some p := by simpa using hi
    refine ⟨by simp [AvbFile.inside, hk], ?_⟩
    obtain ⟨c1, id, size, r, c2, c3, c4, _⟩ := hat k p hk
    have c5 : r = (bs.drop p).drop 8 := readHead_drop c4
    refine ⟨id, size, r, r ++ post, c4, ?_, ?_, c5, ?_⟩
    · dsimp only [AvbFile.inside]
      rw [List.drop_length_add_append, List.drop_append_of_le_length (by omega)]
      exact (hs bo).more c4 post
    · rcases hp with rfl | hp
      · rw [List.append_nil]
      · have := hp (k + 1) ⟨id, p + 8, size.toNat⟩ (by
          unfold readChunk
          rw [if_neg h0, hi]
          dsimp only
          rw [c4])
        dsimp only at this
        rw [List.take_append_of_le_length]
        rw [c5]
        simp only [List.length_drop]
        omega
    · dsimp only [AvbFile.inside]
      rw [List.drop_length_add_append, List.drop_append_of_le_length (by omega),
        List.drop_append_of_le_length (by simp; omega), c5]
  · dsimp only [AvbFile.inside]
    rw [List.drop_length_add_append, List.drop_append_of_le_length (by omega), List.take_append_of_le_length]
    simp only [List.length_drop]
    omega

/-- C78: a file object that stands at the beginning of an AVB file, whatever comes before, is opened if and
only if the bytes from there on are (with the same exception if not), and what is opened is the same: byte
order, header, every object with either set of readers, every chunk; only the positions of the chunks are
those in the whole. -/
theorem C78_before (pre bs : Bytes) :
    (∀ e, openTable bs = .error e → openTableAt (pre ++ bs) pre.length = .error e) ∧
    ∀ f, openTable bs = .ok f → ∃ g, openTableAt (pre ++ bs) pre.length = .ok g ∧ SameFile pre.length f g := by
  rw [openTableAt_eq]
  refine ⟨fun e he => by rw [he]; rfl, fun f hf => ?_⟩
  rw [hf]
  have h := (inside_alike hf pre (.inl (rfl : ([] : Bytes) = []))).sameFile
  rw [List.append_nil] at h
  refine ⟨_, rfl, ?_⟩
  have hd := openTable_data hf
  rw [← hd] at h
  exact h

/-- C78: a file object at or behind its end is refused. -/
theorem C78_behind {data : Bytes} {start : Nat} (h : data.length ≤ start) :
    openTableAt data start = .error .value := by
  unfold openTableAt
  dsimp only
  rw [List.drop_eq_nil_of_le h, if_neg (by decide), if_neg (by decide)]

example : openTableAt [6, 0, 68, 111, 109] 7 = .error .value := C78_behind (by decide)

/-- C78: with any bytes before and after: if the file has objects and none of its chunks is cut, the bytes
after it do not matter either. -/
theorem C78_between (pre post : Bytes) {bs : Bytes} {f : AvbFile} (h : openTable bs = .ok f)
    (hn : 0 < f.header.num_objects)
    (hwhole : ∀ i ck, readChunk f i = .ok ck → ck.pos + ck.size ≤ bs.length) :
    ∃ g, openTableAt (pre ++ (bs ++ post)) pre.length = .ok g ∧ SameFile pre.length f g := by
  rw [openTableAt_eq, openTable_more h hn]
  exact ⟨_, rfl, (inside_alike h pre (.inr hwhole)).sameFile⟩

/-- A chunk whose object can be loaded is whole. -/
theorem readObject_whole {f : AvbFile} {i : Nat} {o : Obj} {ck : ChunkInfo} (ho : readObject f i = .ok (some o))
    (hc : readChunk f i = .ok ck) : ck.pos + ck.size ≤ f.data.length := by
  unfold readChunk at hc
  cases hp : f.positions[i]? with
  | none =>
    unfold readObject at ho
    split at ho
    · cases ho
    · rw [hp] at ho; cases ho
  | some p =>
    obtain ⟨h0, id, size, rest, k, h1, h2, _⟩ := readObject_chunk_ok hp ho
    rw [if_neg h0, hp] at hc
    dsimp only at hc
    rw [h1] at hc
    cases hc
    dsimp only
    have h3 := readHead_drop h1
    obtain ⟨h4, n, _, rfl, h5⟩ := readHead_layout h1
    have := congrArg List.length h5
    simp only [List.length_drop, List.length_append, Layout.tag_length, Layout.word_length, h4] at this
    rw [List.length_take] at h2
    omega

/-- C78: what has been saved can be opened wherever it stands, between any other bytes: it holds the graph
that was saved. -/
theorem C78_saved {h : Heap} {fuel : Nat} {bo : BO} {hd : HeaderInfo} {content : Ref}
    {bytes : Bytes} (hh : HeapOK h) (hinj : IidInj h content) (ht : TextOK .macroman hd.last_save_str)
    (hread : ∀ a e, Reach h content a → h a = .ok e → e.obj.Readable)
    (hs : save h fuel bo hd content = .ok bytes) {e : Entry} (hc : content ≠ 0) (he : h content = .ok e)
    (pre post : Bytes) :
    ∃ g num, openFileAt (pre ++ (bytes ++ post)) pre.length = .ok (g, some (e.obj.norm (finalCtx bo num))) ∧
      g.bo = bo ∧ SameGraph h content g num := by
  obtain ⟨f, num, h1, h2, h3, _, h4⟩ := C12_save_open hh hinj ht hread hs
  have hent : ∀ a, Reach h content a → ∃ e, h a = .ok e := by
    obtain ⟨_, _, _, parts, _, _, _, _, _, _, _, q1, _, q2⟩ := Layout.C70_layout hh hinj hc hs
    intro a ha
    obtain ⟨x, hx, rfl⟩ := List.mem_map.1 ((q1 a).2 ha)
    obtain ⟨i, hi⟩ := List.mem_iff_getElem?.1 hx
    exact ⟨_, (q2 i x hi).1⟩
  have hroot : readObject f f.header.root_index = .ok (some (e.obj.norm (finalCtx bo num))) := by
    rw [h3.root, if_neg hc, h3.same content e ⟨hc, .refl⟩ he, h2]
  have hn : 0 < f.header.num_objects := by
    have := (h3.onto (num content)).2 ⟨content, ⟨hc, .refl⟩, rfl⟩
    omega
  have hwhole : ∀ i ck, readChunk f i = .ok ck → ck.pos + ck.size ≤ bytes.length := by
    intro i ck hck
    by_cases h0 : i = 0
    · subst h0
      unfold readChunk at hck
      rw [if_pos rfl] at hck
      cases hck
      dsimp only
      obtain ⟨bo', hdr, rest, ps, a1, a2, a3, a4, rfl⟩ := openTable_ok h1
      dsimp only
      omega
    · have hi : i ≤ f.header.num_objects := by
        obtain ⟨bo', hdr, rest, ps, a1, a2, a3, a4, rfl⟩ := openTable_ok h1
        by_contra hlt
        dsimp only at hlt
        unfold readChunk at hck
        rw [if_neg h0] at hck
        dsimp only at hck
        rw [List.getElem?_eq_none (by simp [scanChunks_length a4]; omega)] at hck
        cases hck
      obtain ⟨a, ha, rfl⟩ := (h3.onto i).1 ⟨by omega, hi⟩
      have hd := openTable_data h1
      rw [← hd]
      obtain ⟨ea, hea⟩ := hent a ha
      exact readObject_whole (h3.same a ea ha hea) hck
  obtain ⟨g, h6, h7⟩ := C78_between pre post h1 hn hwhole
  refine ⟨g, num, ?_, by rw [h7.bo, h2], ?_⟩
  · unfold openFileAt
    rw [h6]
    dsimp only
    rw [h7.object, h7.header, hroot]
  · refine ⟨h3.inj, ?_, ?_, ?_⟩
    · rw [h7.header]; exact h3.onto
    · rw [h7.header]; exact h3.root
    · intro a e' ha he'
      rw [h7.object, h7.bo]; exact h3.same a e' ha he'

/-- The sequence of a gap, a clip and the same gap again, saved and put between other bytes. -/
example (bo : BO) (pre post : Bytes) : ∃ bytes g num, save exHeap 10 bo exInfo 1 = .ok bytes ∧
    openFileAt (pre ++ (bytes ++ post)) pre.length =
      .ok (g, some (exSeq.norm (finalCtx bo num))) ∧ SameGraph exHeap 1 g num := by
  obtain ⟨bytes, hs⟩ := exHeap_save bo
  obtain ⟨g, num, h1, _, h2⟩ := C78_saved exHeap_ok (exHeap_inj 1) exInfo_ok
    (fun _ _ _ he => exHeap_readable he) hs (by decide) rfl pre post
  exact ⟨bytes, g, num, hs, h1, h2⟩

/-! ### C79: the dump of a chunk -/

/-- The value of a hex digit. -/
def hexValue (c : UInt8) : Option Nat :=
  ['0', '1', '2', '3', '4', '5', '6', '7', '8', '9', 'a', 'b', 'c', 'd', 'e', 'f'].findIdx?
    fun d => d.toNat == c.toNat

/-- The bytes that a text of hex digits stands for. -/
def unhex : Bytes → Option Bytes
  | [] => some []
  | [_] => none
  | a :: b :: cs =>
    match hexValue a, hexValue b, unhex cs with
    | some x, some y, some bs => some (UInt8.ofNat (16 * x + y) :: bs)
    | _, _, _ => none

theorem hexValue_digit : ∀ n, n < 16 → hexValue (hexDigit n) = some n := by decide +kernel

theorem unhex_hexlify (bs : Bytes) : unhex (hexlify bs) = some bs := by
  induction bs with
  | nil => rfl
  | cons b bs ih =>
    have h := b.toNat_lt
    change unhex (hexDigit (b.toNat / 16) :: hexDigit (b.toNat % 16) :: hexlify bs) = _
    rw [unhex, hexValue_digit _ (by omega), hexValue_digit _ (by omega), ih]
    dsimp only
    rw [Nat.div_add_mod, UInt8.ofNat_toNat]

theorem reverseStr_eq (s : Bytes) : reverseStr s = s.reverse := by
  unfold reverseStr
  apply List.ext_getElem
  · simp
  · intro i h1 h2
    simp only [List.length_map, List.length_range] at h1
    simp only [List.getElem_map, List.getElem_range, List.getElem_reverse]
    rw [List.getD_eq_getElem?_getD, List.getElem?_eq_getElem (by omega)]
    rfl

/-- The chunk of an object, in terms of the bytes of the file. -/
theorem readChunk_layout {f : AvbFile} {i : Nat} {ck : ChunkInfo} (h0 : i ≠ 0) (h : readChunk f i = .ok ck) :
    ∃ p, f.positions[i]? = some p ∧ ck.pos = p + 8 ∧ ck.class_id.length = 4 ∧ ck.size < 2 ^ 32 ∧
      (f.data.drop p).take (8 + ck.size) =
        Layout.tag f.bo ck.class_id ++ Layout.word f.bo 4 ck.size ++ ck.read f := by
  unfold readChunk at h
  rw [if_neg h0] at h
  cases hp : f.positions[i]? with
  | none => rw [hp] at h; cases h
  | some p =>
    rw [hp] at h
    dsimp only at h
    split at h
    · cases h
    · rename_i id size rest hr
      cases h
      obtain ⟨h1, n, h2, rfl, h3⟩ := readHead_layout hr
      refine ⟨p, rfl, rfl, h1, h2, ?_⟩
      unfold ChunkInfo.read
      dsimp only [Int.toNat_natCast]
      have h4 := readHead_drop hr
      rw [List.drop_drop] at h4
      rw [← h4, h3]
      have hl : (Layout.tag f.bo id ++ Layout.word f.bo 4 n).length = 8 := by
        simp [Layout.tag_length, Layout.word_length, h1]
      rw [List.take_append, hl, Nat.add_sub_cancel_left, List.take_of_length_le (by omega)]

/-- C79: in a little endian file the dump of the chunk of an object is, in hex, the bytes of the chunk in the
file with its class id and size (as far as they are in the file). -/
theorem C79_little {f : AvbFile} {i : Nat} {ck : ChunkInfo} (hb : f.bo = .little) (h0 : i ≠ 0)
    (h : readChunk f i = .ok ck) :
    ∃ p, f.positions[i]? = some p ∧ unhex (ck.hex f) = some ((f.data.drop p).take (8 + ck.size)) := by
  obtain ⟨p, h1, _, _, _, h5⟩ := readChunk_layout h0 h
  refine ⟨p, h1, ?_⟩
  unfold ChunkInfo.hex
  rw [unhex_hexlify, h5, hb, reverseStr_eq, Layout.word_eq]
  rfl

/-- C79: in a big endian file it is not: class id and size are printed as a little endian file would have
them, before the data of the big endian file. -/
theorem C79_big {f : AvbFile} {i : Nat} {ck : ChunkInfo} (hb : f.bo = .big) (h0 : i ≠ 0)
    (h : readChunk f i = .ok ck) :
    ∃ p a b, f.positions[i]? = some p ∧ a.length = 4 ∧ b.length = 4 ∧
      (f.data.drop p).take (8 + ck.size) = a ++ b ++ ck.read f ∧
      unhex (ck.hex f) = some (a.reverse ++ b.reverse ++ ck.read f) ∧
      (ck.hex f = hexlify ((f.data.drop p).take (8 + ck.size)) ↔ a.reverse = a ∧ b.reverse = b) := by
  obtain ⟨p, h1, _, h3, _, h5⟩ := readChunk_layout h0 h
  have hx : unhex (ck.hex f) = some (ck.class_id.reverse ++ (Layout.word .big 4 ck.size).reverse ++ ck.read f) := by
    unfold ChunkInfo.hex
    rw [unhex_hexlify, reverseStr_eq, Layout.word_eq]
    simp [packNat]
  rw [hb] at h5
  refine ⟨p, ck.class_id, Layout.word .big 4 ck.size, h1, h3, Layout.word_length _ _ _, h5, hx, ?_⟩
  constructor
  · intro h
    rw [h, unhex_hexlify, h5] at hx
    injection hx with hx
    have hl := Layout.word_length .big 4 ck.size
    have hx := List.append_cancel_right hx
    obtain ⟨e1, e2⟩ := List.append_inj hx (by simp [Layout.tag_length])
    exact ⟨e1.symm, e2.symm⟩
  · rintro ⟨e1, e2⟩
    unfold ChunkInfo.hex
    rw [h5, reverseStr_eq, e1]
    have : packNat .little 4 ck.size = Layout.word .big 4 ck.size := by
      rw [← e2, Layout.word_eq]; simp [packNat]
    rw [this]
    rfl

/-- C79: from the dump of any chunk of any file its class id, its size and its data can be told; chunks with
the same dump have the same. -/
theorem C79_injective {f g : AvbFile} {i j : Nat} {ck ck' : ChunkInfo} (h0 : i ≠ 0) (h1 : j ≠ 0)
    (h : readChunk f i = .ok ck) (h' : readChunk g j = .ok ck') (he : ck.hex f = ck'.hex g) :
    ck.class_id = ck'.class_id ∧ ck.size = ck'.size ∧ ck.read f = ck'.read g := by
  obtain ⟨p, _, _, a3, a4, _⟩ := readChunk_layout h0 h
  obtain ⟨q, _, _, b3, b4, _⟩ := readChunk_layout h1 h'
  have hu := congrArg unhex he
  unfold ChunkInfo.hex at hu
  rw [unhex_hexlify, unhex_hexlify, reverseStr_eq, reverseStr_eq] at hu
  injection hu with hu
  obtain ⟨e1, e2⟩ := List.append_inj hu (by simp [packNat, a3, b3])
  obtain ⟨e3, e4⟩ := List.append_inj e1 (by simp [a3, b3])
  refine ⟨List.reverse_inj.1 e3, ?_, e2⟩
  have := congrArg leVal e4
  simp only [packNat] at this
  rw [leVal_leBytes, leVal_leBytes] at this
  omega

/-- C79: the function `read_chunk` at the position of chunk `i` gives the chunk `i`, and behind the data of a
chunk it gives the next one. -/
theorem C79_here {bytes : Bytes} {f : AvbFile} (ho : openTable bytes = .ok f) {i : Nat} {ck : ChunkInfo}
    (h : readChunk f i = .ok ck) :
    (i ≠ 0 → readChunkHere f (ck.pos - 8) = .ok ck) ∧
    ∀ next, readChunk f (i + 1) = .ok next → readChunkHere f (ck.pos + ck.size) = .ok next := by
  have here : ∀ k c, k ≠ 0 → readChunk f k = .ok c → readChunkHere f (c.pos - 8) = .ok c := by
    intro k c h0 hc
    obtain ⟨p, h1, h2, _⟩ := readChunk_layout h0 hc
    rw [h2, Nat.add_sub_cancel]
    unfold readChunk at hc
    rw [if_neg h0, h1] at hc
    exact hc
  refine ⟨fun h0 => here i ck h0 h, fun next hn => ?_⟩
  obtain ⟨cks, h1, _, _, h4⟩ := C56_chunks ho
  have hall : ∀ (l : List Nat) (cs : List ChunkInfo), l.mapM (readChunk f) = .ok cs →
      ∀ (k j : Nat) (c : ChunkInfo), l[k]? = some j → readChunk f j = .ok c → cs[k]? = some c := by
    intro l
    induction l with
    | nil => intro cs _ k j c hk; simp at hk
    | cons x l ih =>
      intro cs hcs k j c hk hc
      rw [List.mapM_cons] at hcs
      cases hx : readChunk f x with
      | error e => rw [hx] at hcs; cases hcs
      | ok y =>
        rw [hx] at hcs
        cases hy : l.mapM (readChunk f) with
        | error e => rw [hy] at hcs; cases hcs
        | ok ys =>
          rw [hy] at hcs
          cases hcs
          cases k with
          | zero =>
            simp only [List.getElem?_cons_zero, Option.some.injEq] at hk
            subst hk
            rw [hx] at hc
            cases hc
            rfl
          | succ k => exact ih ys hy k j c (by simpa using hk) hc
  have hlt : i + 1 < f.positions.length := by
    by_contra hlt
    unfold readChunk at hn
    rw [if_neg (by omega), List.getElem?_eq_none (by omega)] at hn
    cases hn
  have e1 := hall _ _ h1 i i ck (by rw [List.getElem?_range (by omega)]) h
  have e2 := hall _ _ h1 (i + 1) (i + 1) next (by rw [List.getElem?_range hlt]) hn
  have h5 := (h4 i ck next e1 e2).2.1
  have := here (i + 1) next (by omega) hn
  rwa [h5, Nat.add_sub_cancel] at this

/-- A filler of one byte in files of either byte order. -/
def exDump (bo : BO) : AvbFile :=
  ⟨bo, ⟨1, 1, 0, []⟩, [0, 2], [9, 9] ++ Layout.chunk bo (cc 'F' 'I' 'L' 'L') [171], 2⟩

/-- Its chunk. -/
def exDumpChunk : ChunkInfo := ⟨cc 'F' 'I' 'L' 'L', 10, 1⟩

theorem exDump_chunk (bo : BO) : readChunk (exDump bo) 1 = .ok exDumpChunk := by cases bo <;> rfl

/-- In the little endian file the dump shows the bytes of the file. -/
example : unhex (exDumpChunk.hex (exDump .little)) = some (Layout.ascii "LLIF" ++ [1, 0, 0, 0, 171]) ∧
    (exDump .little).data = [9, 9] ++ Layout.ascii "LLIF" ++ [1, 0, 0, 0, 171] := by
  obtain ⟨p, h1, h2⟩ := C79_little rfl (by decide) (exDump_chunk .little)
  cases h1
  exact ⟨h2, rfl⟩

/-- In the big endian file it does not. -/
example : unhex (exDumpChunk.hex (exDump .big)) = some (Layout.ascii "LLIF" ++ [1, 0, 0, 0, 171]) ∧
    (exDump .big).data = [9, 9] ++ Layout.ascii "FILL" ++ [0, 0, 0, 1, 171] ∧
    exDumpChunk.hex (exDump .big) ≠ hexlify (Layout.ascii "FILL" ++ [0, 0, 0, 1, 171]) := by
  obtain ⟨p, a, b, h1, h2, h3, h4, h5, h6⟩ := C79_big rfl (by decide) (exDump_chunk .big)
  cases h1
  obtain ⟨e1, e2⟩ := List.append_inj (show Layout.ascii "FILL" ++ ([0, 0, 0, 1] ++ [171]) = a ++ (b ++ [171]) by
    rw [← List.append_assoc a]; exact h4) (by rw [h2]; rfl)
  obtain ⟨e3, _⟩ := List.append_inj e2 (by rw [h3]; rfl)
  subst e1 e3
  refine ⟨h5, rfl, fun h => ?_⟩
  have := (h6.1 h).1
  revert this
  decide

/-- The dumps of the two files are the same: same class, same size, same data. -/
example : (exDumpChunk.read (exDump .little)) = exDumpChunk.read (exDump .big) :=
  (C79_injective (by decide) (by decide) (exDump_chunk .little) (exDump_chunk .big) (by decide +kernel)).2.2

/-- A file of two chunks of unknown classes: one is found behind the other, also when the file stands between
other bytes. -/
example (pre' post' : Bytes) : ∃ bytes f g ck next, openTable bytes = .ok f ∧ readChunk f 1 = .ok ck ∧
    readChunk f 2 = .ok next ∧ readChunkHere f (ck.pos + 3) = .ok next ∧
    openTableAt (pre' ++ (bytes ++ post')) pre'.length = .ok g ∧ SameFile pre'.length f g := by
  obtain ⟨pre, hpre⟩ : ∃ pre, (writeHeaderPre .little exInfo).bytes = .ok pre := ⟨_, rfl⟩
  obtain ⟨post, hpost⟩ : ∃ post, (writeHeaderPost .little exInfo).bytes = .ok post := ⟨_, rfl⟩
  obtain ⟨f, h1, h2, h9⟩ := C17_chunk_table (root := 0) hpre hpost exInfo_ok (by decide)
    [(cc 'x' 'x' 'x' 'x', [1, 2, 3]), (cc 'y' 'y' 'y' 'y', [])] (by decide) [] (by decide) (by decide)
  obtain ⟨ck, h3, _, h5, h4⟩ := h2 0 (by decide)
  obtain ⟨next, h6, _, h7, h8⟩ := h2 1 (by decide)
  have hw : ∀ i ck, readChunk f i = .ok ck → ck.pos + ck.size ≤ f.data.length := by
    intro i c hc
    have hr : (c.read f).length = c.size → 0 < c.size → c.pos + c.size ≤ f.data.length := by
      intro h h'
      unfold ChunkInfo.read at h
      rw [List.length_take, List.length_drop] at h
      omega
    have e0 : i = 0 ∨ i = 1 ∨ i = 2 ∨ 2 < i := by omega
    rcases e0 with rfl | rfl | rfl | h
    · obtain ⟨bo, hdr, rest, ps, a1, a2, a3, a4, rfl⟩ := openTable_ok h1
      unfold readChunk at hc
      rw [if_pos rfl] at hc
      cases hc
      dsimp only
      omega
    · rw [h3] at hc
      cases hc
      exact hr (by rw [h4, h5]) (by rw [h5]; decide)
    · obtain ⟨p, b1, b2, b3, b4, b5⟩ := readChunk_layout (by decide) hc
      rw [h6] at hc
      cases hc
      have hz : next.size = 0 := h7
      have := congrArg List.length b5
      simp only [List.length_take, List.length_drop, List.length_append, Layout.tag_length, Layout.word_length,
        b3] at this
      omega
    · rw [h9 i h] at hc
      cases hc
  have hn : 0 < f.header.num_objects := by
    by_contra hz
    obtain ⟨bo, hdr, rest, ps, a1, a2, a3, a4, rfl⟩ := openTable_ok h1
    have hz : hdr.num_objects = 0 := by dsimp only at hz; omega
    rw [hz] at a4
    cases a4
    cases h3
  rw [openTable_data h1] at hw
  obtain ⟨g, g1, g2⟩ := C78_between pre' post' h1 hn hw
  have hnext := (C79_here h1 h3).2 next h6
  rw [show ck.size = 3 from h5] at hnext
  exact ⟨_, f, g, ck, next, h1, h3, h6, hnext, g1, g2⟩

end Avb

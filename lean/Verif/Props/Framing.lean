import Verif.Lemmas.Framing
import Verif.Props.Chunks

/-!
C52: the block structure of chunks.
-/

namespace Avb

/-- C52: the data of every object that is loaded are made of the blocks of its class, in order, each with
its version, and a final 3.  (The two classes left out write no 3.) -/
theorem C52_blocks {f : AvbFile} {index : Nat} {k : Cls} {payload : Bytes}
    (h : HasChunk f index k.id payload) (h1 : k ≠ .TRKG) (h2 : k ≠ .DATD) {o : Obj}
    (hr : readObject f index = .ok (some o)) : ∃ p, payload = p ++ [3] ∧ Blocks k.blocks p :=
  Obj.readAs_framed f.ctx k h1 h2 _ _ _ ((C47_accepted h o).1 hr)

/-- C52: data descriptors do not have the 3.  (Plain track groups are never loaded, see `C09_trackgroup`.) -/
theorem C52_blocks_open {f : AvbFile} {index : Nat} {payload : Bytes}
    (h : HasChunk f index (Cls.id .DATD) payload) {o : Obj}
    (hr : readObject f index = .ok (some o)) : Blocks (Cls.blocks .DATD) payload := by
  obtain ⟨p, hp, hb⟩ := Obj.readAs_framed' f.ctx .DATD (by decide) _ _ _ ((C47_accepted h o).1 hr)
  rw [hp, List.append_nil]
  exact hb

theorem readObject_refused {f : AvbFile} {index : Nat} {id payload : Bytes} (h : HasChunk f index id payload)
    (hn : ∀ o, readObject f index ≠ .ok (some o)) : ∃ e, readObject f index = .error e := by
  rcases hr : readObject f index with e | _ | o
  · exact ⟨e, rfl⟩
  · exact absurd hr (C47_not_none h)
  · exact absurd hr (hn o)

/-- C52: data that do not start with 2 and the version of the first block are refused. -/
theorem C52_wrong_start {f : AvbFile} {index : Nat} {k : Cls} {payload : Bytes}
    (h : HasChunk f index k.id payload) {vs : List UInt8} {b : List (List UInt8)} (hk : k.blocks = vs :: b)
    (hs : ∀ v ∈ vs, payload.take 2 ≠ [2, v]) : ∃ e, readObject f index = .error e := by
  refine readObject_refused h fun o hr => ?_
  obtain ⟨p, hp, hb⟩ := Obj.readAs_framed' f.ctx k (by rintro rfl; simp [Cls.blocks] at hk) _ _ _
    ((C47_accepted h o).1 hr)
  rw [hk] at hb
  obtain ⟨v, hv, seg, q, rfl, _⟩ := hb
  exact hs v hv (by rw [hp]; simp)

/-- C52: so are data that do not end with 3. -/
theorem C52_wrong_end {f : AvbFile} {index : Nat} {k : Cls} {payload : Bytes}
    (h : HasChunk f index k.id payload) (h1 : k ≠ .TRKG) (h2 : k ≠ .DATD)
    (hs : payload.getLast? ≠ some 3) : ∃ e, readObject f index = .error e := by
  refine readObject_refused h fun o hr => ?_
  obtain ⟨p, rfl, _⟩ := C52_blocks h h1 h2 hr
  exact hs (by simp)

theorem Blocks.length_le {b : List (List UInt8)} {p : Bytes} (h : Blocks b p) : 2 * b.length ≤ p.length := by
  induction b generalizing p with
  | nil => simp
  | cons vs b ih =>
    obtain ⟨v, _, seg, q, rfl, hq⟩ := h
    have := ih hq
    simp
    omega

/-- C52: and data too short for the blocks of the class. -/
theorem C52_too_short {f : AvbFile} {index : Nat} {k : Cls} {payload : Bytes}
    (h : HasChunk f index k.id payload) (hs : payload.length < 2 * k.blocks.length) :
    ∃ e, readObject f index = .error e := by
  refine readObject_refused h fun o hr => ?_
  by_cases hk : k = .URLL
  · subst hk; simp [Cls.blocks] at hs
  · obtain ⟨p, hp, hb⟩ := Obj.readAs_framed' f.ctx k hk _ _ _ ((C47_accepted h o).1 hr)
    have := hb.length_le
    rw [hp, List.append_nil] at hs
    omega

/-- C52: what is saved has this structure as well. -/
theorem C52_written {c : WCtx} {d : RCtx} (hl : Linked c d) {x : Obj} (hx : x.Readable)
    (h1 : x.cls ≠ .TRKG) (h2 : x.cls ≠ .DATD) {bs : Bytes} (hw : x.write c = .ok ((), bs)) :
    ∃ p, bs = p ++ [3] ∧ Blocks x.cls.blocks p := by
  have hr := C06_read_back hl hx hw []
  rw [List.append_nil] at hr
  exact Obj.readAs_framed d _ h1 h2 _ _ _ hr

/-- C52: what is written for a data descriptor lacks only the 3 (a save refuses it unless its last byte happens to be 3). -/
theorem C52_written_data {c : WCtx} {d : RCtx} (hl : Linked c d) {x : DataDescriptor} {bs : Bytes}
    (hw : x.write c = .ok ((), bs)) : Blocks (Cls.blocks .DATD) bs := by
  have hr := C06_read_back hl (x := .DATD x) trivial hw []
  rw [List.append_nil] at hr
  obtain ⟨p, hp, hb⟩ := Obj.readAs_framed' d .DATD (by decide) _ _ _ hr
  rw [hp, List.append_nil]
  exact hb

/-- C52: and so does what is written for a plain track group. -/
theorem C52_written_group {c : WCtx} {d : RCtx} (hl : Linked c d) {x : TrackGroup} (ht : TextsOK x.texts)
    {bs : Bytes} (hw : x.write c = .ok ((), bs)) : Blocks (Cls.blocks .TRKG) bs := by
  obtain ⟨p, hp, hb⟩ := TrackGroup.framed d _ _ _ (TrackGroup.rt hl ht _ hw [0] ⟨0, [], rfl, by decide⟩)
  rw [List.append_cancel_right hp]
  exact hb

/-- A filler: three blocks with versions 3, 1 and 1.  With the first byte changed, or the last one, it is not
accepted. -/
example (bo : BO) : ∃ bs, exFill.write (exWrite bo 2) = .ok ((), bs) ∧
    (∃ s1 s2 s3, bs = 2 :: 3 :: (s1 ++ (2 :: 1 :: (s2 ++ (2 :: 1 :: s3)))) ++ [3]) ∧
    (∃ e, readObject (exChunkFile bo (Cls.id .FILL) (1 :: bs.tail)) 1 = .error e) ∧
    (∃ e, readObject (exChunkFile bo (Cls.id .FILL) (bs.dropLast ++ [0])) 1 = .error e) := by
  have hw : ∃ bs, exFill.write (exWrite bo 2) = .ok ((), bs) ∧ 10 < bs.length ∧ bs.length < 1000 := by
    cases bo
    · exact ⟨_, rfl, by decide +kernel, by decide +kernel⟩
    · exact ⟨_, rfl, by decide +kernel, by decide +kernel⟩
  obtain ⟨bs, hw, hl, hl'⟩ := hw
  have ht : exFill.Readable := textsOK_short (by decide)
  refine ⟨bs, hw, ?_, ?_, ?_⟩
  · obtain ⟨p, rfl, v1, hv1, s1, _, rfl, v2, hv2, s2, _, rfl, v3, hv3, s3, _, rfl, rfl⟩ :=
      C52_written (ex_linked bo (by decide)) ht (by decide) (by decide) hw
    rw [List.mem_singleton] at hv1 hv2 hv3
    subst hv1 hv2 hv3
    exact ⟨s1, s2, s3, by simp⟩
  · refine C52_wrong_start (k := .FILL) (exChunkFile_chunk bo rfl ?_) rfl ?_
    · simp; omega
    · intro v hv h
      have := congrArg List.head? h
      simp at this
  · refine C52_wrong_end (k := .FILL) (exChunkFile_chunk bo rfl ?_) (by decide) (by decide) (by simp)
    simp; omega

/-- A track group of ten frames without tracks. -/
def exPlainGroup : TrackGroup :=
  { toComponent := exComp ['g', 'r', 'p'], mc_mode := 0, length := 10, num_scalars := 0, tracks := [] }

/-- Two blocks with versions 3 and 8, and no 3 at the end. -/
example (bo : BO) : ∃ bs, exPlainGroup.write (exWrite bo 2) = .ok ((), bs) ∧
    (∃ s1 s2, bs = 2 :: 3 :: (s1 ++ (2 :: 8 :: s2))) ∧ bs.getLast? ≠ some 3 := by
  have hw : ∃ bs, exPlainGroup.write (exWrite bo 2) = .ok ((), bs) ∧ bs.getLast? ≠ some 3 := by
    cases bo
    · exact ⟨_, rfl, by decide +kernel⟩
    · exact ⟨_, rfl, by decide +kernel⟩
  obtain ⟨bs, hw, hl⟩ := hw
  refine ⟨bs, hw, ?_, hl⟩
  obtain ⟨v1, hv1, s1, _, rfl, v2, hv2, s2, _, rfl, rfl⟩ :=
    C52_written_group (ex_linked bo (by decide)) (textsOK_short (by decide)) hw
  rw [List.mem_singleton] at hv1 hv2
  subst hv1 hv2
  exact ⟨s1, s2, by simp⟩

/-- A data descriptor, without a 3 at the end too; its data are loaded. -/
def exDataDesc : DataDescriptor :=
  { mob_kind := 2, locator := 0, intermediate := false, physical_media := 1, uuid := none, wchar := none,
    attributes := none, edit_rate := .fin 25, length := 100, is_omfi := 0, data_offset := 0,
    is_offset_to_frame_indexes_valid := true, offset_to_frame_indexes := 4096, first_frame_offset := 0,
    min_sample_size := 1, max_sample_size := 512 }

example (bo : BO) : ∃ bs, exDataDesc.write (exWrite bo 2) = .ok ((), bs) ∧ bs.getLast? ≠ some 3 ∧
    Blocks (Cls.blocks .DATD) bs ∧
    ∃ o, readObject (exChunkFile bo (Cls.id .DATD) bs) 1 = .ok (some (.DATD o)) := by
  have hw : ∃ bs, exDataDesc.write (exWrite bo 2) = .ok ((), bs) ∧ bs.getLast? ≠ some 3 ∧ bs.length < 1000 := by
    cases bo
    · exact ⟨_, rfl, by decide +kernel, by decide +kernel⟩
    · exact ⟨_, rfl, by decide +kernel, by decide +kernel⟩
  obtain ⟨bs, hw, hl, hl'⟩ := hw
  have hc := exChunkFile_chunk (payload := bs) bo (Cls.id_length .DATD) (by omega)
  refine ⟨bs, hw, hl, C52_written_data (ex_linked bo (by decide)) hw,
    exDataDesc.norm (exWrite bo 2), (C47_accepted (k := .DATD) hc _).2 ?_⟩
  have := C06_read_back (ex_linked bo (n := 2) (by decide)) (x := .DATD exDataDesc) trivial hw []
  rwa [List.append_nil] at this

/-- C52_too_short: a filler has three blocks, so that five bytes are too few. -/
example (bo : BO) (a b c d e : UInt8) :
    ∃ err, readObject (exChunkFile bo (Cls.id .FILL) [a, b, c, d, e]) 1 = .error err :=
  C52_too_short (k := .FILL) (exChunkFile_chunk bo rfl (by simp))
    (show 5 < 2 * (Cls.blocks .FILL).length by decide)

/-- C52_blocks_open: whatever bytes are loaded as a data descriptor have its blocks. -/
example (bo : BO) {o : Obj} {bs : Bytes} (hl : bs.length < 2 ^ 32)
    (h : readObject (exChunkFile bo (Cls.id .DATD) bs) 1 = .ok (some o)) : Blocks (Cls.blocks .DATD) bs :=
  C52_blocks_open (exChunkFile_chunk bo rfl hl) h

end Avb

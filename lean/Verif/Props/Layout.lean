import Verif.Lemmas.Layout
import Verif.Props.Examples
import Verif.Props.Objects

/-
C70: the bytes of a saved file, and exactly which files can be opened.
-/

namespace Avb.Layout

/-- C70: a file can be opened if and only if its bytes have the layout `Opens`, which also says what is known
of it then: byte order, counts, date, creator and the places of the chunks. -/
theorem C70_opens {bs : Bytes} {f : AvbFile} : openTable bs = .ok f ↔ Opens bs f := by
  have hb : ∀ bo, byteOrderMark bo = word bo 2 6 := by intro bo; cases bo <;> decide
  have hm : magic = ascii "Domain" := by decide
  rw [open_iff]
  constructor
  · rintro ⟨bo, hdr, head, rest, ps, h1, h2, h3, rfl⟩
    obtain ⟨doc, date, mark, skipped, last, dateText, time, rfl, a1, a2, a3, a4, a5, a6, a7, a8, a9⟩ :=
      readHeader_iff.1 h2
    refine ⟨⟨doc, date, mark, skipped, last, rest, dateText, ps, time, ?_, a1, a2, a3, a4, a5, a6, a7, a8, a9, ?_,
      scan_iff.1 h3, rfl⟩, rfl⟩
    · rw [h1, hb, hm]
      simp only [List.append_assoc]
    · dsimp only
      have : rest.length ≤ bs.length := by rw [h1]; simp only [List.length_append]; omega
      omega
  · rintro ⟨⟨doc, date, mark, skipped, last, body, dateText, ps, time, h1, a1, a2, a3, a4, a5, a6, a7, a8, a9, a10,
      a11, a12⟩, hd⟩
    refine ⟨f.bo, f.header, _, body, ps, ?_,
      readHeader_iff.2 ⟨doc, date, mark, skipped, last, dateText, time, rfl, a1, a2, a3, a4, a5, a6, a7, a8, a9⟩,
      ?_, ?_⟩
    · rw [hb, hm, h1]
      simp only [List.append_assoc]
    · rw [show bs.length - body.length = f.headerEnd by omega]
      exact scan_iff.2 a11
    · obtain ⟨bo, hdr, pos, data, hend⟩ := f
      dsimp only at *
      rw [a12, hd, ← a10, Nat.add_sub_cancel]

theorem w16 {bo : BO} {v : Int} {o : Bytes} (h : wInt bo .u16 v = .ok ((), o)) :
    ∃ n : Nat, v = n ∧ n < 2 ^ 16 ∧ o = word bo 2 n := by
  obtain ⟨h1, h2, rfl⟩ := wInt_eq_ok h
  simp only [IntTy.lo, IntTy.hi, IntTy.signed, IntTy.width] at h1 h2 ⊢
  refine ⟨v.toNat, by simp at h1; omega, by simp at h1 h2; omega, ?_⟩
  rw [word_eq]
  congr 2
  simp at h1 h2 ⊢
  omega

theorem w32 {bo : BO} {v : Int} {o : Bytes} (h : wInt bo .u32 v = .ok ((), o)) :
    ∃ n : Nat, v = n ∧ n < 2 ^ 32 ∧ o = word bo 4 n := by
  obtain ⟨h1, h2, rfl⟩ := wInt_eq_ok h
  simp only [IntTy.lo, IntTy.hi, IntTy.signed, IntTy.width] at h1 h2 ⊢
  refine ⟨v.toNat, by simp at h1; omega, by simp at h1 h2; omega, ?_⟩
  rw [word_eq]
  congr 2
  simp at h1 h2 ⊢
  omega

theorem wText {bo : BO} {t : Text} {o : Bytes} (h : wStr bo .macroman t = .ok ((), o)) :
    ∃ d, encodeText .macroman t = some d ∧ o = word bo 2 d.length ++ d := by
  unfold wStr at h
  split at h
  · next ht =>
    obtain ⟨n, hn, _, rfl⟩ := w16 h
    refine ⟨[], by rw [ht]; rfl, ?_⟩
    rw [show n = 0 by omega]
    simp
  · split at h
    · cases h
    · next d hd =>
      obtain ⟨_, o1, o2, e1, e2, rfl⟩ := Wr.bind_eq_ok h
      rw [if_neg (by decide)] at e1 e2
      obtain ⟨n, hn, _, rfl⟩ := w16 e1
      obtain rfl := Wr.emit_eq_ok e2
      exact ⟨o2, hd, by rw [show o2.length = n by omega]⟩

theorem wTag {bo : BO} {id o : Bytes} (hid : id.length = 4) (h : wFourcc bo id = .ok ((), o)) : o = tag bo id := by
  rw [wFourcc_eq hid] at h
  injection h with h
  injection h with _ h
  rw [← h, tag_eq]

theorem pre_layout {bo : BO} {hd : HeaderInfo} {pre : Bytes} (h : (writeHeaderPre bo hd).bytes = .ok pre) :
    ∃ date, encodeText .macroman hd.last_save_str = some date ∧
      pre = word bo 2 6 ++ ascii "Domain" ++ tag bo (ascii "OBJD") ++ word bo 2 7 ++ ascii "AObjDoc" ++ [4] ++
        word bo 2 date.length ++ date := by
  have h := Wr.bytes_ok h
  unfold writeHeaderPre at h
  obtain ⟨_, o1, r1, e1, h1, rfl⟩ := Wr.bind_eq_ok h
  obtain ⟨_, o2, r2, e2, h2, rfl⟩ := Wr.bind_eq_ok h1
  obtain ⟨_, o3, r3, e3, h3, rfl⟩ := Wr.bind_eq_ok h2
  obtain ⟨_, o4, r4, e4, h4, rfl⟩ := Wr.bind_eq_ok h3
  obtain ⟨_, o5, r5, e5, e6, rfl⟩ := Wr.bind_eq_ok h4
  obtain rfl := Wr.emit_eq_ok e1
  obtain rfl := Wr.emit_eq_ok e2
  obtain rfl := wTag rfl e3
  obtain ⟨d, hd1, rfl⟩ := wText e4
  obtain ⟨date, hd2, rfl⟩ := wText e6
  obtain rfl : o5 = [4] := by
    have := (wInt_eq_ok e5).2.2
    rw [this]; rfl
  obtain rfl : d = ascii "AObjDoc" := by
    have : encodeText .macroman objDoc = some (ascii "AObjDoc") := by decide
    rw [this] at hd1
    injection hd1 with hd1
    exact hd1.symm
  refine ⟨date, hd2, ?_⟩
  rw [show byteOrderMark bo = word bo 2 6 by cases bo <;> decide, show magic = ascii "Domain" by decide,
    show cc 'O' 'B' 'J' 'D' = ascii "OBJD" by decide, show (ascii "AObjDoc").length = 7 by decide]
  simp only [List.append_assoc]

theorem post_layout {bo : BO} {hd : HeaderInfo} {post : Bytes} (h : (writeHeaderPost bo hd).bytes = .ok post) :
    ∃ (maker : Bytes) (time : Nat), encodeText .macroman hd.creator_version = some maker ∧ hd.last_save = time ∧
      time < 2 ^ 32 ∧
      post = order bo ++ word bo 4 time ++ [0, 0, 0, 0] ++ tag bo (ascii "ATob") ++ tag bo (ascii "ATve") ++
        word bo 2 30 ++ creator maker ++ [0, 0, 0, 0, 0, 0, 0, 0, 0, 0, 0, 0, 0, 0, 0, 0] := by
  have h := Wr.bytes_ok h
  unfold writeHeaderPost at h
  obtain ⟨_, o1, r1, e1, h1, rfl⟩ := Wr.bind_eq_ok h
  obtain ⟨_, o2, r2, e2, h2, rfl⟩ := Wr.bind_eq_ok h1
  obtain ⟨_, o3, r3, e3, h3, rfl⟩ := Wr.bind_eq_ok h2
  obtain ⟨_, o4, r4, e4, h4, rfl⟩ := Wr.bind_eq_ok h3
  obtain ⟨_, o5, r5, e5, h5, rfl⟩ := Wr.bind_eq_ok h4
  obtain ⟨n1, hn1, _, rfl⟩ := w32 e1
  obtain ⟨time, ht, htl, rfl⟩ := w32 e2
  obtain ⟨n3, hn3, _, rfl⟩ := w32 e3
  obtain rfl := wTag rfl e4
  obtain rfl := wTag rfl e5
  cases hm : encodeText .macroman hd.creator_version with
  | none => rw [hm] at h5; cases h5
  | some maker =>
    rw [hm] at h5
    obtain ⟨_, o6, r6, e6, h6, rfl⟩ := Wr.bind_eq_ok h5
    obtain ⟨_, o7, r7, e7, e8, rfl⟩ := Wr.bind_eq_ok h6
    obtain ⟨n6, hn6, _, rfl⟩ := w16 e6
    obtain rfl := Wr.emit_eq_ok e7
    obtain rfl := Wr.emit_eq_ok e8
    refine ⟨maker, time, rfl, ht, htl, ?_⟩
    have hc : creatorBytes maker = creator maker := by
      unfold creatorBytes creator
      rw [List.take_append, show ascii "                              " = List.replicate 30 0x20 by decide,
        List.take_replicate]
      congr 2
      simp
      omega
    rw [order_eq, show (orderWord bo).toNat = n1 by omega, show n3 = 0 by omega, show n6 = 30 by omega, hc,
      show cc 'A' 'T' 'o' 'b' = ascii "ATob" by decide, show cc 'A' 'T' 'v' 'e' = ascii "ATve" by decide,
      show word bo 4 0 = [0, 0, 0, 0] by cases bo <;> decide]
    simp only [List.append_assoc]
    rfl

/-- One object in a saved file: where it was, what it was, and its bytes. -/
structure Part where
  ref : Ref
  ent : Entry
  payload : Bytes

/-- C70: the bytes of a saved file are the header, with the number of chunks as count and as root, and a chunk
for each object reachable from the content, in an order in which the content is last.  The data of a chunk
are those of its object, with each reference as the place of its object, which is earlier. -/
theorem C70_layout {h : Heap} {fuel : Nat} {bo : BO} {hd : HeaderInfo} {content : Ref} {bytes : Bytes}
    (hh : HeapOK h) (hinj : IidInj h content) (hc : content ≠ 0) (hs : save h fuel bo hd content = .ok bytes) :
    ∃ (date maker : Bytes) (time : Nat) (parts : List Part),
      encodeText .macroman hd.last_save_str = some date ∧ encodeText .macroman hd.creator_version = some maker ∧
      hd.last_save = time ∧ time < 2 ^ 32 ∧ parts.length < 2 ^ 32 ∧
      bytes = header bo date parts.length parts.length time maker ++
        parts.flatMap (fun p => chunk bo p.ent.obj.cls.id p.payload) ∧
      (parts.map Part.ref).Nodup ∧ (∀ r, r ∈ parts.map Part.ref ↔ Reach h content r) ∧
      (parts.map Part.ref).getLast? = some content ∧
      ∀ i p, parts[i]? = some p → h p.ref = .ok p.ent ∧ p.payload.length < 2 ^ 32 ∧
        ∃ m : Ref → Option Nat, p.ent.obj.write ⟨bo, m⟩ = .ok ((), p.payload) ∧
          (∀ r k, Reach h content r → m r = some k → 1 ≤ k ∧ (parts.map Part.ref)[k - 1]? = some r) ∧
          ∀ v ∈ p.ent.visits, v.ref ≠ 0 → ∃ k ≤ i, m v.ref = some k := by
  obtain ⟨pre, post, s, done, sc⟩ := save_core hh hs
  obtain ⟨date, hdate, hpre⟩ := pre_layout sc.hpre
  obtain ⟨maker, time, hmaker, htime, htl, hpost⟩ := post_layout sc.hpost
  have hmap : (done.map fun ck => (⟨ck.ref, ck.ent, ck.data⟩ : Part)).map Part.ref = done.map (·.ref) := by
    rw [List.map_map]; rfl
  refine ⟨date, maker, time, done.map fun ck => ⟨ck.ref, ck.ent, ck.data⟩, hdate, hmaker, htime, htl, ?_, ?_, ?_,
    ?_, ?_, ?_⟩
  · rw [List.length_map]; exact sc.count
  · rw [sc.data, List.flatMap_map, List.length_map]
    unfold savedFile rootedFile
    dsimp only
    congr 1
    · rw [headerBytes, hpre, hpost, header, word_eq bo 4 done.length]
      simp only [List.append_assoc]
    · refine List.flatMap_congr fun ck _ => ?_
      rw [chunkBytes, chunk, tag_eq, word_eq]
  · rw [hmap, List.nodup_iff_pairwise_ne, List.pairwise_iff_getElem]
    intro i j hi hj hij he
    rw [List.length_map] at hi hj
    simp only [List.getElem_map] at he
    have h1 := sc.num hi
    have h2 := sc.num hj
    rw [he] at h1
    omega
  · intro r
    rw [hmap, List.mem_map]
    constructor
    · rintro ⟨ck, hck, rfl⟩; exact sc.reach ck hck
    · intro hr
      obtain ⟨i, hi, h1, _⟩ := sc.chunk hinj hr
      exact ⟨_, List.getElem_mem hi, h1⟩
  · obtain ⟨i, hi, h1, _, h2⟩ := sc.chunk hinj (r := content) ⟨hc, .refl⟩
    have h3 := sc.root hinj hc
    rw [hmap, List.getLast?_eq_getElem?, List.length_map, List.getElem?_map,
      show done.length - 1 = i by omega, List.getElem?_eq_getElem hi]
    exact congrArg some h1
  · intro i p hp
    rw [List.getElem?_map] at hp
    obtain ⟨ck, hck, rfl⟩ := Option.map_eq_some_iff.1 hp
    obtain ⟨hi, rfl⟩ := List.getElem?_eq_some_iff.1 hck
    have hmem : done[i] ∈ done := List.getElem_mem hi
    obtain ⟨m, h4, hw, h5⟩ := sc.inv.each i hi
    refine ⟨sc.inv.ent _ hmem, sc.inv.small _ hmem, refMapOf h m, hw, ?_, h5⟩
    intro r k hr hk
    obtain ⟨j, hj, h6, h7, h8⟩ := sc.chunk hinj hr
    have : numOf h s r = k := by
      unfold refMapOf at hk
      rw [h7] at hk
      unfold numOf refMapOf
      rw [h7]
      dsimp only at hk ⊢
      rw [h4 _ _ hk]
      rfl
    refine ⟨by omega, ?_⟩
    rw [hmap, List.getElem?_map, show k - 1 = j by omega, List.getElem?_eq_getElem hj]
    exact congrArg some h6

/-- C70: what pyavb writes into a timecode and skips when reading: six zeros between rate and start. -/
theorem C70_timecode {c : WCtx} {x : Timecode} {bs : Bytes} (h : (Obj.TCCP x).write c = .ok ((), bs)) :
    ∃ (pre : Bytes) (fps start : Nat), x.fps = fps ∧ x.start = start ∧
      bs = pre ++ word c.bo 2 fps ++ [0, 0, 0, 0, 0, 0] ++ word c.bo 4 start ++ [3] := by
  have h : Timecode.write c x = .ok ((), bs) := h
  unfold Timecode.write at h
  obtain ⟨_, o1, r1, e1, h1, rfl⟩ := Wr.bind_eq_ok h
  obtain ⟨_, o2, r2, e2, h2, rfl⟩ := Wr.bind_eq_ok h1
  obtain ⟨_, o3, r3, e3, h3, rfl⟩ := Wr.bind_eq_ok h2
  obtain ⟨_, o4, r4, e4, h4, rfl⟩ := Wr.bind_eq_ok h3
  obtain ⟨_, o5, r5, e5, h5, rfl⟩ := Wr.bind_eq_ok h4
  obtain ⟨_, o6, r6, e6, h6, rfl⟩ := Wr.bind_eq_ok h5
  obtain ⟨_, o7, r7, e7, e8, rfl⟩ := Wr.bind_eq_ok h6
  obtain ⟨fps, hf, _, rfl⟩ := w16 e5
  obtain rfl := Wr.emit_eq_ok e6
  obtain ⟨start, hs, _, rfl⟩ := w32 e7
  obtain rfl : r7 = [3] := by rw [(wInt_eq_ok e8).2.2]; rfl
  refine ⟨o1 ++ o2 ++ o3 ++ o4, fps, start, hf, hs, ?_⟩
  simp only [List.append_assoc]
  rfl

theorem descriptor_layout {c : WCtx} {x : FormatDescriptor} {bs : Bytes} (h : x.write c = .ok ((), bs)) :
    (x.format_descriptor.flatMap String.utf8EncodeChar).length + 2 < 2 ^ 15 ∧
      bs = descriptor c.bo (x.vcid_free_column_id % 2 ^ 16).toNat
        (x.format_descriptor.flatMap String.utf8EncodeChar) := by
  unfold FormatDescriptor.write at h
  obtain ⟨_, o1, r1, e1, h1, rfl⟩ := Wr.bind_eq_ok h
  obtain ⟨_, o2, r2, e2, h2, rfl⟩ := Wr.bind_eq_ok h1
  obtain ⟨d, o3, r3, e3, h3, rfl⟩ := Wr.bind_eq_ok h2
  obtain ⟨_, o4, r4, e4, h4, rfl⟩ := Wr.bind_eq_ok h3
  obtain ⟨_, o5, r5, e5, h5, rfl⟩ := Wr.bind_eq_ok h4
  obtain ⟨_, o6, r6, e6, h6, rfl⟩ := Wr.bind_eq_ok h5
  obtain ⟨_, o7, r7, e7, h7, rfl⟩ := Wr.bind_eq_ok h6
  obtain ⟨_, o8, r8, e8, e9, rfl⟩ := Wr.bind_eq_ok h7
  injection e3 with e3
  injection e3 with e3 e3'
  subst e3 e3'
  obtain rfl := Wr.emit_eq_ok e9
  generalize x.format_descriptor.flatMap String.utf8EncodeChar = d at *
  obtain ⟨h71, h72, rfl⟩ := wInt_eq_ok e7
  obtain ⟨h51, h52, rfl⟩ := wInt_eq_ok e5
  obtain rfl := (wInt_eq_ok e1).2.2
  obtain rfl := (wInt_eq_ok e2).2.2
  obtain rfl := (wInt_eq_ok e4).2.2
  obtain rfl := (wInt_eq_ok e6).2.2
  obtain rfl := (wInt_eq_ok e8).2.2
  have hl : d.length + 2 < 2 ^ 15 := by
    simp [IntTy.hi, IntTy.signed, IntTy.width] at h72
    omega
  refine ⟨hl, ?_⟩
  unfold descriptor
  rw [word_eq, word_eq, word_eq,
    show packNat c.bo IntTy.s16.width (((0 : Int) % 2 ^ (8 * IntTy.s16.width)).toNat) = [0, 0] by
      cases c.bo <;> decide,
    show (((d.length : Int) + 2) % 2 ^ (8 * IntTy.s16.width)).toNat = d.length + 2 by
      simp [IntTy.width]; omega,
    show ((d.length : Int) % 2 ^ (8 * IntTy.s32.width)).toNat = d.length by simp [IntTy.width]; omega]
  simp only [List.append_assoc]
  rfl

/-- C70: the format descriptors of a bin view: size, size plus two, which pyavb does not look at when
reading, and two zeros.  None can be longer than 32765 bytes. -/
theorem C70_descriptors {c : WCtx} {x : BinViewSetting} {l : List FormatDescriptor} {bs : Bytes}
    (hl : x.format_descriptors = some l) (h : (Obj.BVst x).write c = .ok ((), bs)) :
    (∀ y ∈ l, (y.format_descriptor.flatMap String.utf8EncodeChar).length ≤ 32765) ∧
    ∃ pre, bs = pre ++ [1, 1, 69] ++ word c.bo 2 l.length ++
      l.flatMap (fun y => descriptor c.bo (y.vcid_free_column_id % 2 ^ 16).toNat
        (y.format_descriptor.flatMap String.utf8EncodeChar)) ++ [3] := by
  have h : BinViewSetting.write c x = .ok ((), bs) := h
  unfold BinViewSetting.write at h
  obtain ⟨_, o1, r1, e1, h1, rfl⟩ := Wr.bind_eq_ok h
  obtain ⟨_, o2, r2, e2, h2, rfl⟩ := Wr.bind_eq_ok h1
  obtain ⟨_, o3, r3, e3, h3, rfl⟩ := Wr.bind_eq_ok h2
  obtain ⟨_, o4, r4, e4, h4, rfl⟩ := Wr.bind_eq_ok h3
  obtain ⟨_, o5, r5, e5, h5, rfl⟩ := Wr.bind_eq_ok h4
  obtain ⟨_, o6, r6, e6, e7, rfl⟩ := Wr.bind_eq_ok h5
  rw [hl] at e6
  obtain ⟨_, p1, q1, g1, k1, rfl⟩ := Wr.bind_eq_ok e6
  obtain ⟨_, p2, q2, g2, k2, rfl⟩ := Wr.bind_eq_ok k1
  obtain ⟨_, p3, q3, g3, k3, rfl⟩ := Wr.bind_eq_ok k2
  obtain ⟨_, p4, q4, g4, g5, rfl⟩ := Wr.bind_eq_ok k3
  obtain ⟨n, hn, _, rfl⟩ := w16 g4
  obtain rfl := (wInt_eq_ok g1).2.2
  obtain rfl := (wInt_eq_ok g2).2.2
  obtain rfl := (wInt_eq_ok g3).2.2
  obtain rfl := (wInt_eq_ok e7).2.2
  have key : ∀ (l : List FormatDescriptor) (q : Bytes), forW l (FormatDescriptor.write c) = .ok ((), q) →
      (∀ y ∈ l, (y.format_descriptor.flatMap String.utf8EncodeChar).length ≤ 32765) ∧
      q = l.flatMap (fun y => descriptor c.bo (y.vcid_free_column_id % 2 ^ 16).toNat
        (y.format_descriptor.flatMap String.utf8EncodeChar)) := by
    intro l
    induction l with
    | nil =>
      intro q hq
      obtain ⟨_, rfl⟩ := Wr.pure_eq_ok hq
      exact ⟨nofun, rfl⟩
    | cons y l ih =>
      intro q hq
      obtain ⟨_, o1, o2, e1, e2, rfl⟩ := Wr.bind_eq_ok hq
      obtain ⟨a1, rfl⟩ := descriptor_layout e1
      obtain ⟨a2, rfl⟩ := ih _ e2
      refine ⟨fun z hz => ?_, by simp⟩
      rcases List.mem_cons.1 hz with rfl | hz
      · omega
      · exact a2 z hz
  obtain ⟨k9, rfl⟩ := key l q4 g5
  refine ⟨k9, o1 ++ o2 ++ o3 ++ o4 ++ o5, ?_⟩
  rw [show n = l.length by omega]
  simp only [List.append_assoc]
  rfl

/-! ### Examples -/

/-- The example of a saved file meets the hypotheses of `C70_layout`. -/
example (bo : BO) : HeapOK exHeap ∧ IidInj exHeap 1 ∧ ∃ bytes, save exHeap 10 bo exInfo 1 = .ok bytes :=
  ⟨exHeap_ok, exHeap_inj 1, exHeap_save bo⟩

/-- An empty file in big endian order of which the second mark says little endian. -/
def odd : Bytes :=
  word .big 2 6 ++ ascii "Domain" ++ ascii "OBJD" ++ word .big 2 7 ++ ascii "AObjDoc" ++ [4] ++
    word .big 2 0 ++ word .big 4 0 ++ word .big 4 77 ++ ascii "IIII" ++ word .big 4 12 ++ [1, 2, 3, 4] ++
    ascii "ATob" ++ ascii "ATve" ++ word .big 2 30 ++ ascii "pya"

/-- It can be opened, though the file ends in the middle of the creator, and the content is the object 77 of
none. -/
example : ∃ f, openTable odd = .ok f ∧ Opens odd f ∧ f.bo = .big ∧ f.header.root_index = 77 ∧
    f.positions = [0] ∧ f.header.creator_version = ['p', 'y', 'a'] := by
  have h : (match openTable odd with
    | .ok f => decide (f.bo = .big ∧ f.header.root_index = 77 ∧ f.positions = [0] ∧
        f.header.creator_version = ['p', 'y', 'a'])
    | .error _ => false) = true := by decide +kernel
  split at h
  · next f hf => exact ⟨f, hf, C70_opens.1 hf, of_decide_eq_true h⟩
  · cases h

/-- With another letter in the mark it cannot. -/
example (f : AvbFile) : ¬Opens (odd.set 34 88) f := by
  intro h
  have h1 := C70_opens.2 h
  have h2 : (openTable (odd.set 34 88)).isOk = false := by decide +kernel
  rw [h1] at h2
  cases h2

end Avb.Layout

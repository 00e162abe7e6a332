import Verif.Lemmas.FastRead
import Verif.Lemmas.FastCounts
import Verif.Lemmas.CappedAll
import Verif.Props.Chunks
import Verif.Props.File

/-!
C33, C34: the accelerated chunk readers against the portable ones.
-/

namespace Avb.Fast

variable {α : Type} {n : Nat}

theorem load_of_sim {r : Rd α} {f : Fast Unit} {R : α → Unit → Props → Prop} (h : Sim false {} r f R)
    {bs rest : Bytes} {a : α} (hr : r bs = .ok (a, rest))
    (hq : ∀ p, R a () p → p.short_box = false := by
      intro p h; exact congrArg Props.short_box h) :
    ∃ p, load f bs = .ok p ∧ R a () p := by
  obtain ⟨b, pos', p', h1, _, _, _, h5⟩ := h bs 0 a rest (by omega) hr (by simp)
  exact ⟨p', by unfold load; rw [h1]; simp [hq p' h5], h5⟩

theorem load_only {P : Bytes → Prop} {r : Rd α} {f : Fast Unit} {R : α → Unit → Props → Prop}
    (h : Sim false {} (only P r) f R) {bs rest : Bytes} {a : α} (hP : P bs)
    (hr : r bs = .ok (a, rest))
    (hq : ∀ p, R a () p → p.short_box = false := by
      intro p h; exact congrArg Props.short_box h) : ∃ p, load f bs = .ok p ∧ R a () p :=
  load_of_sim h (by rw [only_ok hP]; exact hr) hq

theorem as_ok {r : Rd α} {g : α → Obj} {bs rest : Bytes} {o : Obj} (h : r.as g bs = .ok (o, rest)) :
    ∃ x, r bs = .ok (x, rest) ∧ o = g x := by
  obtain ⟨x, m, h1, h2⟩ := rd_bind h
  injection h2 with h2
  injection h2 with h2 h3
  exact ⟨x, by rw [h1, h3], h2.symm⟩

theorem drop_end {r : Rd α} {bs rest : Bytes} {x : α}
    (h : (r >>= fun s => rTag 3 >>= fun _ => (pure s : Rd α)) bs = .ok (x, rest)) :
    ∃ m, r bs = .ok (x, m) := by
  obtain ⟨y, m, h1, h2⟩ := rd_bind h
  obtain ⟨_, m', _, h3⟩ := rd_bind h2
  injection h3 with h3
  injection h3 with h3 _
  exact ⟨m, by rw [h1, h3]⟩

/-! ### C33 -/

/-- C33: every payload of an accelerated class that the portable reader accepts is accepted by the
accelerated one, which gives the same properties: the texts are those of the portable reader once
outer NULs are taken off and an empty name is `None`; media kinds, usage codes, component widths and
values of control points are the portable ones without sign; all other properties are equal.  The
counts of tracks and parameters and the size of a line map must not be negative
(`C33_negative_count`). -/
theorem C33_same_fields {k : Cls} {f : Fast Unit} (hf : reader k = some f) {bs rest : Bytes} {o : Obj}
    (h : Obj.readAs ⟨.little, n⟩ k bs = .ok (o, rest)) (hc : CountsOK n k bs) :
    ∃ p, load f bs = .ok p ∧ p.seenAs k = o.props.unsigned := by
  cases k with
  | CMPO => cases hf; obtain ⟨x, hx, rfl⟩ := as_ok h; exact load_only sim_composition hc hx
  | SLCT => cases hf; obtain ⟨x, hx, rfl⟩ := as_ok h; exact load_only sim_selector hc hx
  | TKFX =>
    cases hf; obtain ⟨x, hx, rfl⟩ := as_ok h
    obtain ⟨m, hx⟩ := drop_end hx; exact load_only sim_trackeffect hc hx
  | MDES =>
    cases hf; obtain ⟨x, hx, rfl⟩ := as_ok h
    obtain ⟨m, hx⟩ := drop_end hx; exact load_of_sim sim_media hx
  | DIDD =>
    cases hf; obtain ⟨x, hx, rfl⟩ := as_ok h
    obtain ⟨m, hx⟩ := drop_end hx; exact load_only sim_did hc hx
  | CDCI => cases hf; obtain ⟨x, hx, rfl⟩ := as_ok h; exact load_only sim_cdci hc hx
  | SEQU => cases hf; obtain ⟨x, hx, rfl⟩ := as_ok h; exact load_of_sim sim_sequence hx
  | FILL => cases hf; obtain ⟨x, hx, rfl⟩ := as_ok h; exact load_of_sim sim_filler hx
  | SCLP => cases hf; obtain ⟨x, hx, rfl⟩ := as_ok h; exact load_of_sim sim_sourceclip hx
  | PRCL => cases hf; obtain ⟨x, hx, rfl⟩ := as_ok h; exact load_of_sim sim_paramclip hx
  | PRIT => cases hf; obtain ⟨x, hx, rfl⟩ := as_ok h; exact load_of_sim sim_paramitem hx
  | TRKR => cases hf; obtain ⟨x, hx, rfl⟩ := as_ok h; exact load_of_sim sim_trackref hx
  | FXPS => cases hf; obtain ⟨x, hx, rfl⟩ := as_ok h; exact load_only sim_params hc hx
  | _ => cases hf

/-- C33: what the library itself writes always has such counts: the accelerated reader gives back
what was written, whatever follows in the data. -/
theorem C33_written {c : WCtx} (hl : Linked c ⟨.little, n⟩) {x : Obj} (hx : x.Readable)
    {f : Fast Unit} (hf : reader x.cls = some f) {bs : Bytes} (hw : x.write c = .ok ((), bs))
    (more : Bytes) :
    ∃ p, load f (bs ++ more) = .ok p ∧ p.seenAs x.cls = (x.norm c).props.unsigned :=
  C33_same_fields hf (Obj.rt hl hx bs hw more trivial) (countsOK_written hl hx hw more)

/-- A chunk written by the library and read by the accelerated reader: the name and the mob id of a
clip. -/
example : ∃ bs p, exClip2.write (exWrite .little 4) = .ok ((), bs) ∧
    load read_sourceclip bs = .ok p ∧ p.attributes = some 2 ∧ p.length = some 12 ∧
    p.name.map seenText = some (some ['c', 'l', 'i', 'p']) ∧ p.mob_id = some MobID.zero := by
  obtain ⟨bs, hw⟩ := exClip2_write .little
  obtain ⟨p, hp, hs⟩ := C33_written (ex_linked .little (by decide)) exClip2_readable rfl hw []
  rw [List.append_nil] at hp
  have hn : (exClip2.norm (exWrite .little 4)).props = exClip2.props := by decide +kernel
  rw [hn] at hs
  exact ⟨bs, p, hw, hp, congrArg (·.attributes) hs, congrArg (·.length) hs, congrArg (·.name) hs,
    congrArg (·.mob_id) hs⟩

theorem dictSet_names {l : List (Text × AttrVal)} {k : Text} {v : AttrVal} {m : Text} :
    (∃ q ∈ dictSet l k v, q.1 = m) ↔ (∃ q ∈ l, q.1 = m) ∨ k = m := by
  induction l with
  | nil => simp [dictSet]
  | cons p l ih =>
    unfold dictSet
    by_cases hp : p.1 = k
    · rw [if_pos hp]
      simp only [List.mem_cons, exists_eq_or_imp]
      constructor
      · rintro (h | h)
        · exact .inr h
        · exact .inl (.inr h)
      · rintro ((h | h) | h)
        · exact .inl (hp ▸ h)
        · exact .inr h
        · exact .inl h
    · rw [if_neg hp]
      simp only [List.mem_cons, exists_eq_or_imp, ih]
      exact or_assoc.symm

/-- The dictionary after assigning `items` one after the other to `l`. -/
abbrev assign (l items : List (Text × AttrVal)) : List (Text × AttrVal) :=
  items.foldl (fun l p => dictSet l p.1 p.2) l

theorem assign_names {items : List (Text × AttrVal)} : ∀ {l : List (Text × AttrVal)} {m : Text},
    (∃ q ∈ assign l items, q.1 = m) ↔ (∃ q ∈ l, q.1 = m) ∨ ∃ q ∈ items, q.1 = m := by
  induction items with
  | nil => intro l m; simp
  | cons p items ih =>
    intro l m
    rw [assign, List.foldl_cons, ih, dictSet_names]
    simp only [List.mem_cons, exists_eq_or_imp, or_assoc]

theorem dictSet_map {l : List (Text × AttrVal)} {k : Text} {v : AttrVal}
    (h : ∀ q ∈ l, stripText q.1 = stripText k → q.1 = k) :
    dictSet (l.map seenAttr) (seenAttr (k, v)).1 (seenAttr (k, v)).2 =
      (dictSet l k v).map seenAttr := by
  induction l with
  | nil => rfl
  | cons p l ih =>
    rw [List.map_cons]
    unfold dictSet
    by_cases hp : p.1 = k
    · rw [if_pos hp, if_pos (by unfold seenAttr; rw [hp]), List.map_cons]
    · rw [if_neg hp, if_neg (show ¬ (seenAttr p).1 = (seenAttr (k, v)).1 from fun h' => hp (h p List.mem_cons_self h')), List.map_cons,
        ih fun q hq => h q (List.mem_cons_of_mem _ hq)]

theorem assign_map {items : List (Text × AttrVal)} : ∀ {l : List (Text × AttrVal)},
    (∀ q ∈ l ++ items, ∀ q' ∈ l ++ items, stripText q.1 = stripText q'.1 → q.1 = q'.1) →
    assign (l.map seenAttr) (items.map seenAttr) = (assign l items).map seenAttr := by
  induction items with
  | nil => intro l _; rfl
  | cons p items ih =>
    intro l h
    rw [assign, List.map_cons, List.foldl_cons,
      dictSet_map fun q hq => h q (by simp [hq]) p (by simp)]
    refine ih ?_
    have key : ∀ q ∈ dictSet l p.1 p.2 ++ items, ∃ q' ∈ l ++ p :: items, q'.1 = q.1 := by
      intro q hq
      rcases List.mem_append.1 hq with hq | hq
      · rcases dictSet_names.1 ⟨q, hq, rfl⟩ with ⟨q', hq', e⟩ | e
        · exact ⟨q', by simp [hq'], e⟩
        · exact ⟨p, by simp, e⟩
      · exact ⟨q, by simp [hq], rfl⟩
    intro q hq q' hq' e
    obtain ⟨a, ha, ea⟩ := key q hq
    obtain ⟨b, hb, eb⟩ := key q' hq'
    rw [← ea, ← eb] at e ⊢
    exact h a ha b hb e

theorem nodup_inj {l : List (Text × AttrVal)} (h : (l.map fun q => stripText q.1).Nodup) {q q' : Text × AttrVal}
    (hq : q ∈ l) (hq' : q' ∈ l) (e : stripText q.1 = stripText q'.1) : q = q' := by
  induction l with
  | nil => cases hq
  | cons p l ih =>
    rw [List.map_cons, List.nodup_cons] at h
    rcases List.mem_cons.1 hq with e1 | h1 <;> rcases List.mem_cons.1 hq' with e2 | h2
    · rw [e1, e2]
    · exact absurd (List.mem_map.2 ⟨q', h2, by rw [← e, e1]⟩) h.1
    · exact absurd (List.mem_map.2 ⟨q, h1, by rw [e, e2]⟩) h.1
    · exact ih h.2 h1 h2

/-- C33: attribute dictionaries.  What the portable reader accepts is accepted, and gives the same
attributes in the same order once outer NULs are taken off names and texts, if the names then still
differ (`C33_attribute_names`). -/
theorem C33_attributes {bs rest : Bytes} {x : Attributes}
    (h : Attributes.read ⟨.little, n⟩ bs = .ok (x, rest)) :
    ∃ a, loadAttr bs = .ok a ∧ SameAttributes a x := by
  obtain ⟨items, s, h1, h2⟩ := sim_attributes h
  refine ⟨{ items := assign [] items }, by unfold loadAttr; rw [h1], fun hn => ?_⟩
  rw [h2]
  refine assign_map (l := []) ?_
  intro q hq q' hq' e
  obtain ⟨a, ha, ea⟩ := (assign_names (l := []) (m := q.1)).2 (.inr ⟨q, hq, rfl⟩)
  obtain ⟨b, hb, eb⟩ := (assign_names (l := []) (m := q'.1)).2 (.inr ⟨q', hq', rfl⟩)
  have := nodup_inj hn ha hb (by rw [ea, eb]; exact e)
  rw [← ea, ← eb, this]

theorem chunk_read {f : AvbFile} {index : Nat} {id payload : Bytes} (h : HasChunk f index id payload) :
    readObject f index = match Cls.ofId id with
      | none => .error .notImplemented
      | some k =>
        match f.bo with
        | .little => (loadChunk f.ctx k payload).map some
        | .big =>
          match Obj.readAs f.ctx k payload with
          | .error e => .error e
          | .ok (o, left) => if left = [] then .ok (some (.portable o)) else .error .assertion := by
  obtain ⟨h0, hid, hlt, pos, tail, hp, hd⟩ := h
  have hd : f.data.drop pos = chunkBytes f.bo id payload ++ tail := by
    rw [hd]; cases f.bo <;> simp [chunkBytes, fourccBytes]
  unfold readObject
  rw [if_neg h0, hp]
  simp only []
  rw [hd]
  have hf : rFourcc f.bo (chunkBytes f.bo id payload ++ tail) =
      .ok (id, packNat f.bo 4 payload.length ++ (payload ++ tail)) := by
    have := RT.fourcc (bo := f.bo) (s := id) _ (wFourcc_eq hid)
      (packNat f.bo 4 payload.length ++ (payload ++ tail)) trivial
    rw [← this]
    simp [chunkBytes]
  rw [Rd.bind_ok hf, Rd.bind_ok (rInt_u32 hlt _)]
  simp only [Rd.pure_apply, Int.toNat_natCast, List.take_left, ne_eq, not_true_eq_false, if_false]
  rfl

theorem readAs_cls {d : RCtx} {k : Cls} {bs rest : Bytes} {o : Obj}
    (h : Obj.readAs d k bs = .ok (o, rest)) : o.cls = k := by
  cases k <;> (obtain ⟨x, _, rfl⟩ := as_ok h; rfl)

/-- C33: in an opened file of either byte order: an object that can be read without the accelerated
readers can be read with them, and is the same in the sense of `Loaded.Agrees`. -/
theorem C33_file {f : AvbFile} {index : Nat} {k : Cls} {payload : Bytes}
    (h : HasChunk f index k.id payload) {o : Obj} (ho : Avb.readObject f index = .ok (some o))
    (hc : f.bo = .little → CountsOK f.positions.length k payload) :
    ∃ l, readObject f index = .ok (some l) ∧ l.Agrees o := by
  have hr := (C47_accepted h o).1 ho
  rw [chunk_read h, Cls.ofId_id]
  dsimp only
  cases hb : f.bo with
  | big =>
    dsimp only
    rw [hr]
    exact ⟨.portable o, rfl, rfl⟩
  | little =>
    have hd : f.ctx = ⟨.little, f.positions.length⟩ := by unfold AvbFile.ctx; rw [hb]
    rw [hd] at hr ⊢
    unfold loadChunk
    dsimp only
    have hcls : k = o.cls := (readAs_cls hr).symm
    by_cases hk : k = .ATTR
    · rw [if_pos hk]
      subst hk
      obtain ⟨x, hx, rfl⟩ := as_ok hr
      obtain ⟨a, ha, hs⟩ := C33_attributes hx
      exact ⟨.attributes a, by rw [ha]; rfl, x, rfl, hs⟩
    · rw [if_neg hk]
      cases hf : reader k with
      | none =>
        dsimp only
        rw [hr]
        exact ⟨.portable o, rfl, rfl⟩
      | some f =>
        dsimp only
        obtain ⟨p, hp, hs⟩ := C33_same_fields hf hr (hc hb)
        exact ⟨.props k p, by rw [hp]; rfl, hcls, hs⟩

/-- C33: in a big endian file, and for the classes other than the fourteen listed, there is no difference
at all: the same objects are given and the same errors raised, for every chunk, damaged or not. -/
theorem C33_others {f : AvbFile} {index : Nat} {k : Cls} {payload : Bytes}
    (h : HasChunk f index k.id payload)
    (hk : f.bo = .big ∨ k ∉ [.ATTR, .CMPO, .TKFX, .MDES, .DIDD, .CDCI, .SLCT, .SEQU, .FILL, .SCLP, .PRCL,
      .PRIT, .TRKR, .FXPS]) :
    readObject f index = (Avb.readObject f index).map (Option.map .portable) := by
  have key : Avb.readObject f index = match Obj.readAs f.ctx k payload with
      | .error e => .error e
      | .ok (o, left) => if left = [] then .ok (some o) else .error .assertion := by
    have := h.read
    rwa [Cls.ofId_id] at this
  rw [key, chunk_read h, Cls.ofId_id]
  dsimp only
  cases hb : f.bo with
  | big =>
    dsimp only
    cases Obj.readAs f.ctx k payload with
    | error e => rfl
    | ok r =>
      obtain ⟨o, left⟩ := r
      dsimp only
      by_cases hl : left = [] <;> simp [hl, Except.map]
  | little =>
    have hk' := hk.resolve_left (by rw [hb]; decide)
    have hr : reader k = none := by cases k <;> first | rfl | exact absurd (by decide) hk'
    dsimp only
    unfold loadChunk
    rw [if_neg (by rintro rfl; exact hk' (by decide)), hr]
    dsimp only
    cases Obj.readAs f.ctx k payload with
    | error e => rfl
    | ok r =>
      obtain ⟨o, left⟩ := r
      dsimp only
      by_cases hl : left = [] <;> simp [hl, Except.map]

/-- A bin reference, which has no accelerated reader, with a byte too many. -/
example : readObject (exChunkFile .little (Cls.id .MCBR) [2, 1, 0, 0, 0, 0, 0, 0, 0, 9, 1, 0, 98, 3, 0]) 1 =
    .error .assertion := by
  rw [C33_others (k := .MCBR) (exChunkFile_chunk .little rfl (by decide)) (.inr (by decide))]
  have : (match Avb.readObject
      (exChunkFile .little (Cls.id .MCBR) [2, 1, 0, 0, 0, 0, 0, 0, 0, 9, 1, 0, 98, 3, 0]) 1 with
    | .error .assertion => true | _ => false) = true := by decide +kernel
  split at this
  · next h => rw [h]; rfl
  · cases this

/-- C33: a file written by the library, in either byte order, and opened with and without the
accelerated readers: the objects agree.  (`C12_save_open` says that without them every object of the
saved graph is read, and what it is.) -/
theorem C33_saved {h : Heap} {fuel : Nat} {bo : BO} {hd : HeaderInfo} {content : Ref}
    {bytes : Bytes} (hh : HeapOK h) (ht : TextOK .macroman hd.last_save_str)
    (hread : ∀ a e, Reach h content a → h a = .ok e → e.obj.Readable)
    (hs : save h fuel bo hd content = .ok bytes) :
    ∃ f, openTable bytes = .ok f ∧ ∀ index o, Avb.readObject f index = .ok (some o) →
      ∃ l, readObject f index = .ok (some l) ∧ l.Agrees o := by
  obtain ⟨pre, post, s, done, sc⟩ := save_core hh hs
  have hlen : (savedFile bo hd pre post done).positions.length = done.length + 1 := by
    simp [savedFile, rootedFile, offsets_length]
  refine ⟨_, sc.table ht, fun index o ho => ?_⟩
  have h0 : index ≠ 0 := by
    rintro rfl
    rw [(C47_index _).1] at ho
    cases ho
  by_cases hi : index < done.length + 1
  · obtain ⟨i, rfl⟩ := Nat.exists_eq_succ_of_ne_zero h0
    have hi : i < done.length := by omega
    obtain ⟨m, h4, hw, h5⟩ := sc.inv.each i hi
    have hmem := List.getElem_mem hi
    have hi' : i < (done.map Chunk.pair).length := by simpa using hi
    obtain ⟨pos, tail, h6, h7⟩ := offsets_drop (bo := bo) (done.map Chunk.pair)
      (headerBytes bo pre post done.length done.length) i
      (by
        intro p hp
        obtain ⟨ck, _, rfl⟩ := List.mem_map.1 hp
        exact Cls.id_length _) hi'
    simp only [List.map_map, Function.comp_def, Chunk.pair, List.flatMap_map, List.getElem_map] at h6 h7
    have hch : HasChunk (savedFile bo hd pre post done) (i + 1) done[i].ent.obj.cls.id done[i].data :=
      ⟨h0, Cls.id_length _, sc.inv.small _ hmem, pos, tail,
        by simpa [savedFile, rootedFile] using h6,
        by
          have : (savedFile bo hd pre post done).bo = bo := rfl
          rw [this]
          refine Eq.trans h7 ?_
          cases bo <;> simp [chunkBytes, fourccBytes]⟩
    refine C33_file hch ho (fun hb => ?_)
    cases (show bo = .little from hb)
    have hl : Linked ⟨.little, refMapOf h m⟩ ⟨.little, done.length + 1⟩ := by
      refine ⟨rfl, Nat.succ_pos _, ?_⟩
      intro r k hk
      change refMapOf h m r = some k at hk
      unfold refMapOf at hk
      cases hr : h r with
      | error e => rw [hr] at hk; cases hk
      | ok e =>
        rw [hr] at hk
        obtain ⟨j, hj, h6, _⟩ := sc.inv.bwd _ _ (h4 _ _ hk)
        simp only
        omega
    rw [hlen]
    have := countsOK_written hl (hread _ _ (sc.reach _ hmem) (sc.inv.ent _ hmem)) hw []
    rwa [List.append_nil] at this
  · rw [(C47_index _).2 index (by rw [hlen]; omega) h0] at ho
    cases ho

/-- The example graph: all three objects. -/
example : ∃ bytes f num, save exHeap 10 .little exInfo 1 = .ok bytes ∧ openTable bytes = .ok f ∧
    ∀ a e, Reach exHeap 1 a → exHeap a = .ok e →
      ∃ l, readObject f (num a) = .ok (some l) ∧ l.Agrees (e.obj.norm (SaveCore.finalCtx .little num)) := by
  obtain ⟨bytes, hs⟩ := exHeap_save .little
  obtain ⟨f, num, h1, h2, h3, _⟩ := C12_save_open exHeap_ok (exHeap_inj 1) exInfo_ok
    (fun _ _ _ he => exHeap_readable he) hs
  obtain ⟨f', h4, h5⟩ := C33_saved exHeap_ok exInfo_ok (fun _ _ _ he => exHeap_readable he) hs
  rw [h1] at h4
  cases h4
  refine ⟨bytes, f, num, hs, h1, fun a e ha he => h5 _ _ ?_⟩
  have := h3.same a e ha he
  rwa [h2] at this

/-! ### Where the accelerated readers differ -/

theorem fast_assoc {α β γ : Type} {f : Fast α} {k : α → Fast β} {k' : β → Fast γ} :
    (f >>= k) >>= k' = f >>= fun a => k a >>= k' := by
  funext d s
  change (match (match f d s with
      | (.ok a, s') => k a d s'
      | (.error e, s') => (.error e, s')) with
    | (.ok a, s') => k' a d s'
    | (.error e, s') => (.error e, s')) = _
  change _ = (match f d s with
      | (.ok a, s') => (k a >>= k') d s'
      | (.error e, s') => (.error e, s'))
  rcases f d s with ⟨_ | _, _⟩ <;> rfl

/-- `read_trackgroup` up to the number of tracks. -/
def trackCount : Fast Int := do
  ignore read_comp
  tag 0x02
  tag 0x08
  let mc_mode ← unat 1
  let length ← sint 4
  let num_scalars ← sint 4
  put fun p => { p with
    mc_mode := some mc_mode, length := some length, num_scalars := some num_scalars }
  sint 4

theorem read_trackgroup_eq : read_trackgroup = (trackCount >>= fun track_count =>
    if track_count < 0 then stop .throw
    else do
      put fun p => { p with tracks := some (List.replicate track_count.toNat emptyTrack) }
      each oneTrack 0 track_count.toNat
      iterExt (trackgroupExt track_count.toNat)) := by
  unfold trackCount read_trackgroup
  simp only [fast_assoc]

theorem sim_trackCount : Sim false {} (TrackGroup.storedCount ⟨.little, n⟩) trackCount
    (fun a b _ => a = b) := by
  unfold TrackGroup.storedCount trackCount
  refine Sim.bind (Sim.ignore sim_comp) ?_
  intro base _ p h
  fstep
  fstep
  fstep
  fstep
  fstep
  fstep
  intro data pos a rest hp hr hne
  obtain ⟨b, pos', p', h1, h2, h3, h4, h5, _⟩ := sim_s32 _ data pos a rest hp hr hne
  exact ⟨b, pos', p', h1, h2, h3, h4, h5⟩

theorem trackgroup_negative {bs rest : Bytes} {m : Int}
    (h : TrackGroup.storedCount ⟨.little, n⟩ bs = .ok (m, rest)) (hm : m < 0) :
    ∃ s, read_trackgroup bs ⟨0, {}⟩ = (.error .throw, s) := by
  obtain ⟨b, pos', p', h1, _, _, _, rfl⟩ := sim_trackCount bs 0 m rest (by omega) h (by simp)
  rw [read_trackgroup_eq, bind_ok h1, if_pos hm]
  exact ⟨_, rfl⟩

theorem bind_stop {α β : Type} {f : Fast α} {k : α → Fast β} {d : Bytes} {s s' : St} {e : Stop}
    (h : f d s = (.error e, s')) : (f >>= k) d s = (.error e, s') := by
  change (match f d s with | (.ok a, s') => k a d s' | (.error e, s') => (.error e, s')) = _
  rw [h]

theorem ignore_throw {f : Fast Unit} {d : Bytes} {s s' : St}
    (h : f d s = (.error .throw, s')) : ignore f d s = (.error .throw, s') := by
  unfold ignore
  rw [h]

/-- C33, the exception: a negative number of tracks is an exception in the accelerated readers, whatever
the rest of the payload.  The portable readers see no tracks (example below). -/
theorem C33_negative_count {k : Cls} (hk : k = .CMPO ∨ k = .SLCT ∨ k = .TKFX) {f : Fast Unit}
    (hf : reader k = some f) {bs rest : Bytes} {m : Int}
    (h : TrackGroup.storedCount ⟨.little, n⟩ bs = .ok (m, rest)) (hm : m < 0) :
    load f bs = .error .exception := by
  obtain ⟨s, hs⟩ := trackgroup_negative h hm
  rcases hk with rfl | rfl | rfl <;> cases hf <;> unfold load
  · rw [show read_composition bs ⟨0, {}⟩ = (.error .throw, s) from bind_stop (ignore_throw hs)]
  · rw [show read_selector bs ⟨0, {}⟩ = (.error .throw, s) from bind_stop (ignore_throw hs)]
  · rw [show read_trackeffect bs ⟨0, {}⟩ = (.error .throw, s) from bind_stop (ignore_throw hs)]

/-- A component chunk with the given media kind and name. -/
def exCompBytes (kind name : Bytes) : Bytes :=
  [2, 3, 0, 0, 0, 0, 0, 0, 0, 0] ++ kind ++ [25, 0, 0, 0, 0, 0] ++ name ++ [255, 255] ++
    List.replicate 12 0

/-- A composition without tracks that says it has -1 of them. -/
def exNegative : Bytes :=
  exCompBytes [1, 0] [255, 255] ++ [2, 8, 0, 10, 0, 0, 0, 0, 0, 0, 0, 255, 255, 255, 255, 2, 2] ++
    [1, 0, 0, 0, 2, 0, 0, 0] ++ [0, 0, 0, 0, 1] ++ [0, 0, 0, 0] ++ [0, 0, 0, 0] ++ [3]

/-- The reader accepts all of the bytes and the result satisfies the test. -/
def readsTo (r : Rd α) (bs : Bytes) (p : α → Bool) : Bool :=
  match r bs with
  | .ok (x, []) => p x
  | _ => false

theorem readsTo_ok {r : Rd α} {bs : Bytes} {p : α → Bool} (h : readsTo r bs p = true) :
    ∃ x, r bs = .ok (x, []) ∧ p x = true := by
  unfold readsTo at h
  split at h
  · rename_i x e; exact ⟨x, e, h⟩
  · cases h

/-- The accelerated reader accepts the bytes and the properties satisfy the test. -/
def loadsTo (f : Fast Unit) (bs : Bytes) (p : Props → Bool) : Bool :=
  match load f bs with
  | .ok x => p x
  | _ => false

theorem loadsTo_ok {f : Fast Unit} {bs : Bytes} {p : Props → Bool} (h : loadsTo f bs p = true) :
    ∃ x, load f bs = .ok x ∧ p x = true := by
  unfold loadsTo at h
  split at h
  · rename_i x e; exact ⟨x, e, h⟩
  · cases h

example : (∃ x, Composition.read ⟨.little, 4⟩ exNegative = .ok (x, []) ∧ x.tracks = [] ∧ x.length = 10) ∧
    load read_composition exNegative = .error .exception := by
  refine ⟨?_, ?_⟩
  · obtain ⟨x, h, hp⟩ := readsTo_ok (p := fun x : Composition => x.tracks = [] ∧ x.length = 10)
      (show readsTo (Composition.read ⟨.little, 4⟩) exNegative _ = true by decide +kernel)
    exact ⟨x, h, by simpa using hp⟩
  · have h : (match TrackGroup.storedCount ⟨.little, 4⟩ exNegative with
        | .ok (m, _) => decide (m < 0)
        | .error _ => false) = true := by decide +kernel
    split at h
    · rename_i m rest e
      exact C33_negative_count (k := .CMPO) (.inl rfl) rfl e (by simpa using h)
    · cases h

/-- A filler of 10 frames. -/
def exFiller (kind name : Bytes) : Bytes := exCompBytes kind name ++ [2, 1, 10, 0, 0, 0, 2, 1, 3]

/-- The differences `C33_same_fields` allows for do occur: media kind -1 is 65535, a name of no bytes
is the empty text instead of `None`, and NULs around a name are kept. -/
theorem C33_differences :
    (∃ x p, Filler.read ⟨.little, 4⟩ (exFiller [255, 255] [0, 0]) = .ok (x, []) ∧
      load read_filler (exFiller [255, 255] [0, 0]) = .ok p ∧
      x.media_kind_id = -1 ∧ p.media_kind_id = some 65535 ∧
      x.name = none ∧ p.name = some (some [])) ∧
    (∃ x p, Filler.read ⟨.little, 4⟩ (exFiller [1, 0] [3, 0, 0, 65, 0]) = .ok (x, []) ∧
      load read_filler (exFiller [1, 0] [3, 0, 0, 65, 0]) = .ok p ∧
      x.name = some ['A'] ∧ p.name = some (some ['\x00', 'A', '\x00'])) := by
  constructor
  · obtain ⟨x, h, hx⟩ := readsTo_ok (p := fun x : Filler => x.media_kind_id = -1 ∧ x.name = none)
      (show readsTo (Filler.read ⟨.little, 4⟩) (exFiller [255, 255] [0, 0]) _ = true by decide +kernel)
    obtain ⟨p, h', hp⟩ := loadsTo_ok (p := fun p => p.media_kind_id = some 65535 ∧ p.name = some (some []))
      (show loadsTo read_filler (exFiller [255, 255] [0, 0]) _ = true by decide +kernel)
    simp only [decide_eq_true_eq] at hx hp
    exact ⟨x, p, h, h', hx.1, hp.1, hx.2, hp.2⟩
  · obtain ⟨x, h, hx⟩ := readsTo_ok (p := fun x : Filler => x.name = some ['A'])
      (show readsTo (Filler.read ⟨.little, 4⟩) (exFiller [1, 0] [3, 0, 0, 65, 0]) _ = true by
        decide +kernel)
    obtain ⟨p, h', hp⟩ := loadsTo_ok (p := fun p => p.name = some (some ['\x00', 'A', '\x00']))
      (show loadsTo read_filler (exFiller [1, 0] [3, 0, 0, 65, 0]) _ = true by decide +kernel)
    simp only [decide_eq_true_eq] at hx hp
    exact ⟨x, p, h, h', hx, hp⟩

/-- Three attributes named `a`, `a` followed by NUL, and `a` again. -/
def exAttrNames : Bytes :=
  [2, 1, 3, 0, 0, 0] ++ [1, 0, 0, 0, 2, 0, 97, 0, 1, 0, 0, 0] ++ [1, 0, 0, 0, 1, 0, 97, 2, 0, 0, 0] ++
    [1, 0, 0, 0, 2, 0, 97, 0, 3, 0, 0, 0] ++ [3]

/-- `C33_attributes` needs names that differ without their outer NULs: here the portable reader shows one
attribute with the value 3, the accelerated one two, of which the last has the value 2. -/
theorem C33_attribute_names :
    Attributes.read ⟨.little, 4⟩ exAttrNames = .ok ({ items := [(['a'], .int 3)] }, []) ∧
      loadAttr exAttrNames =
        .ok { items := [(['a', '\x00'], .int 3), (['a'], .int 2)] } :=
  ⟨by
    obtain ⟨x, h, hx⟩ := readsTo_ok (p := fun x : Attributes => x = { items := [(['a'], .int 3)] })
      (show readsTo (Attributes.read ⟨.little, 4⟩) exAttrNames _ = true by decide +kernel)
    rw [h, of_decide_eq_true hx],
   by
    have h : (match loadAttr exAttrNames with
        | .ok a => decide (a = { items := [(['a', '\x00'], .int 3), (['a'], .int 2)] })
        | .error _ => false) = true := by decide +kernel
    split at h
    · rename_i a e
      rw [e, of_decide_eq_true h]
    · cases h⟩

/-! ### C34 -/

/-- C34: bytes after the end of a payload are an error for the portable reader and pass unnoticed with the
accelerated one.  For every class, every payload the portable reader accepts, and every file. -/
theorem C34_trailing {f : AvbFile} {index : Nat} {k : Cls} {r : Fast Unit} (hf : reader k = some r)
    (hb : f.bo = .little) {payload more : Bytes} (h : HasChunk f index k.id (payload ++ more))
    (hm : more ≠ []) {o : Obj} (hr : Obj.readAs f.ctx k payload = .ok (o, []))
    (hc : CountsOK f.positions.length k (payload ++ more)) :
    Avb.readObject f index = .error .assertion ∧
      ∃ p, readObject f index = .ok (some (.props k p)) ∧ p.seenAs k = o.props.unsigned := by
  refine ⟨C47_trailing h hm hr, ?_⟩
  have hd : f.ctx = ⟨.little, f.positions.length⟩ := by unfold AvbFile.ctx; rw [hb]
  have hr' := C09_longer hr more
  rw [hd] at hr'
  obtain ⟨p, hp, hs⟩ := C33_same_fields hf hr' hc
  refine ⟨p, ?_, hs⟩
  rw [chunk_read h, Cls.ofId_id, hb]
  unfold loadChunk
  dsimp only
  rw [if_neg (by rintro rfl; cases hf), hf]
  dsimp only
  rw [hp]
  rfl

theorem rd_error {α β : Type} {r : Rd α} {k : α → Rd β} {bs : Bytes} {e : Err} (h : r bs = .error e) :
    (r >>= k) bs = .error e := by
  rw [Rd.bind_apply, h]

theorem rU8_cons {t : UInt8} {bs : Bytes} : rU8 (t :: bs) = .ok ((t.toNat : Int), bs) := by
  simp [rU8, rInt, IntTy.width, IntTy.signed, unpackNat, leVal]

theorem rTag_other {t : UInt8} {v : Int} {bs : Bytes} (h : (t.toNat : Int) ≠ v) :
    rTag v (t :: bs) = .error .assertion := by
  unfold rTag
  rw [Rd.bind_ok rU8_cons]
  unfold Rd.guard
  rw [if_neg h]

theorem toNat_ne {t : UInt8} {v : UInt8} (h : t ≠ v) : (t.toNat : Int) ≠ (v.toNat : Int) := by
  intro e
  exact h (UInt8.toNat_inj.1 (by omega))

theorem end_missing {r : Rd α} {g : α → Obj} {bs : Bytes} {x : α} {t : UInt8}
    (h : r bs = .ok (x, [t])) (ht : t ≠ 3) :
    (Rd.as (r >>= fun s => rTag 3 >>= fun _ => (pure s : Rd α)) g) bs = .error .assertion := by
  unfold Rd.as
  refine rd_error ?_
  rw [Rd.bind_ok h]
  exact rd_error (rTag_other (toNat_ne (v := 3) ht))

/-- C34: for track effects, media descriptors and digital image descriptors the end marker is not looked
at.  Whatever the library writes ends with the marker 3; with any other byte there (except 1, which
announces an extension) the portable reader fails and the accelerated one gives the same properties. -/
theorem C34_end_marker {c : WCtx} (hl : Linked c ⟨.little, n⟩) {x : Obj} (hx : x.Readable)
    (hk : x.cls = .TKFX ∨ x.cls = .MDES ∨ x.cls = .DIDD) {f : Fast Unit} (hf : reader x.cls = some f)
    {bs : Bytes} (hw : x.write c = .ok ((), bs)) :
    ∃ body, bs = body ++ [3] ∧ ∀ t : UInt8, t ≠ 1 →
      (∃ p, load f (body ++ [t]) = .ok p ∧ p.seenAs x.cls = (x.norm c).props.unsigned) ∧
      (t ≠ 3 → Obj.readAs ⟨.little, n⟩ x.cls (body ++ [t]) = .error .assertion) := by
  cases x with
  | TKFX x =>
    cases hf
    obtain ⟨_, body, o2, e1, e2, rfl⟩ := Wr.bind_eq_ok hw
    cases e2
    refine ⟨body, rfl, fun t ht => ?_⟩
    have hr := TrackEffect.rt_body hl hx body e1 [t] ⟨t, [], rfl, ht⟩
    exact ⟨load_only sim_trackeffect
      (RP.count (RP.left (TrackGroup.rp hl hx)) (by omega) e1 [t]) hr, end_missing hr⟩
  | MDES x =>
    cases hf
    obtain ⟨_, body, o2, e1, e2, rfl⟩ := Wr.bind_eq_ok hw
    cases e2
    refine ⟨body, rfl, fun t ht => ?_⟩
    have hr := MediaDescriptor.rt_body hl body e1 [t] ⟨t, [], rfl, ht⟩
    exact ⟨load_of_sim sim_media hr, end_missing hr⟩
  | DIDD x =>
    cases hf
    obtain ⟨_, body, o2, e1, e2, rfl⟩ := Wr.bind_eq_ok hw
    cases e2
    refine ⟨body, rfl, fun t ht => ?_⟩
    have hr := DIDDescriptor.rt_body hl body e1 [t] ⟨t, [], rfl, ht⟩
    exact ⟨load_only sim_did (RP.count (DIDDescriptor.rp hl) (by omega) e1 [t]) hr, end_missing hr⟩
  | _ => rcases hk with h | h | h <;> cases h

/-- C34: an empty attribute dictionary: whatever follows the number of attributes, the accelerated reader
is content; the portable one wants exactly the end marker. -/
theorem C34_attributes_end (more : Bytes) :
    loadAttr ([2, 1, 0, 0, 0, 0] ++ more) = .ok { items := [] } ∧
      ∀ x, Attributes.read ⟨.little, n⟩ ([2, 1, 0, 0, 0, 0] ++ more) = .ok (x, []) → more = [3] := by
  refine ⟨by rfl, fun x h => ?_⟩
  have h' : (rTag 3 >>= fun _ => (pure ({ items := [] } : Attributes) : Rd Attributes)) more = .ok (x, []) := h
  obtain ⟨_, m, e1, e2⟩ := rd_bind h'
  injection e2 with e2
  injection e2 with _ e2
  subst e2
  cases more with
  | nil => cases e1
  | cons t more =>
    by_cases ht : t = 3
    · subst ht
      have : rTag 3 (3 :: more) = .ok ((), more) := rfl
      rw [this] at e1
      injection e1 with e1
      injection e1 with _ e1
      rw [e1]
    · have : rTag 3 (t :: more) = .error .assertion := rTag_other (toNat_ne (v := 3) ht)
      rw [this] at e1
      cases e1

/-- The part of a sequence after the component. -/
def seqTail (d : RCtx) : Rd (List Ref) := do
  rTag 0x02
  rTag 0x03
  let count ← rInt d.bo .u32
  let components ← readN count.toNat (rRef d)
  rTag 0x03
  return components

/-- C34: that the component at the beginning of a chunk could not be read is not noticed.  A sequence of
which everything up to its list is replaced by one wrong byte loads, without a name, a media kind or an
edit rate; the portable reader fails. -/
theorem C34_component_lost {b : UInt8} (hb : b ≠ 2) {tail rest : Bytes} {l : List Ref}
    (h : seqTail ⟨.little, n⟩ tail = .ok (l, rest)) :
    load read_sequence (b :: tail) = .ok { components := some l } ∧
      Obj.readAs ⟨.little, n⟩ .SEQU (b :: tail) = .error .assertion := by
  constructor
  · have hi : ignore read_comp (b :: tail) ⟨0, {}⟩ = (.ok (), ⟨1, {}⟩) := by
      have : read_comp (b :: tail) ⟨0, {}⟩ = (.error .ret, ⟨1, {}⟩) := by
        unfold read_comp
        have ht : tag 2 (b :: tail) ⟨0, {}⟩ = (.error .ret, ⟨1, {}⟩) := by
          unfold tag
          rw [bind_ok (show u8 (b :: tail) ⟨0, {}⟩ = (.ok b, ⟨1, {}⟩) from rfl), if_neg hb]
          rfl
        exact bind_stop ht
      unfold ignore
      rw [this]
    have hs : Sim false {} (seqTail ⟨.little, n⟩) (do
        tag 0x02
        tag 0x03
        let count ← uint 4
        let components ← times ref count
        put fun p => { p with components := some components }
        tag 0x03) (fun l _ p => p = { components := some l }) := by
      unfold seqTail
      fstep
      fstep
      refine SimV.bind sim_u32 ?_
      rintro _ c ⟨rfl, _⟩
      rw [Int.toNat_natCast]
      refine SimV.bind (sim_times_eq sim_ref c) ?_
      rintro l _ rfl
      fstep
      intro data pos a rest hp hr _
      obtain ⟨_, mid, e1, e2⟩ := rd_bind hr
      obtain ⟨b, pos', p', h1, h0, h2, h3, h4, h5⟩ :=
        (sim_tag' (t := 3) (v := 3) rfl) _ data pos _ mid hp e1 (by simp)
      injection e2 with e2
      injection e2 with e2 e3
      subst e2 e3 h5
      exact ⟨(), pos', _, h1, h0, h2, h3, rfl⟩
    obtain ⟨_, pos', p', h1, _, _, _, rfl⟩ := hs (b :: tail) 1 l rest (by simp) h (by simp)
    unfold load read_sequence
    rw [bind_ok hi, h1]
    simp
  · exact rd_error (rd_error (rd_error (rTag_other (toNat_ne (v := 2) hb))))

/-- `n` bytes from position `i`, those beyond the end being zeros. -/
def field (bs : Bytes) (i n : Nat) : Bytes := (bs.drop i ++ List.replicate n 0).take n

theorem bytes_field {data : Bytes} {i n : Nat} {p : Props} :
    bytes n data ⟨min i data.length, p⟩ = (.ok (field data i n), ⟨min (i + n) data.length, p⟩) := by
  unfold field
  by_cases h : i + n ≤ data.length
  · rw [show min i data.length = i by omega, show min (i + n) data.length = i + n by omega, bytes_at h,
      List.take_append_of_le_length (by simp; omega)]
  · by_cases h' : i ≤ data.length
    · rw [show min i data.length = i by omega, show min (i + n) data.length = data.length by omega,
        bytes_short h' (by omega), List.take_append, List.take_of_length_le (by simp; omega),
        List.length_drop, List.take_replicate, show min (n - (data.length - i)) n = n - (data.length - i) by omega]
    · rw [show min i data.length = data.length by omega,
        show min (i + n) data.length = data.length by omega, bytes_past (Nat.le_refl _),
        List.drop_eq_nil_of_le (by omega), List.nil_append, List.take_replicate, Nat.min_self]

theorem u8_field {data : Bytes} {i : Nat} {p : Props} :
    u8 data ⟨min i data.length, p⟩ = (.ok ((data.drop i).headD 0), ⟨min (i + 1) data.length, p⟩) := by
  by_cases h : i < data.length
  · have hd : data.drop i = data[i] :: data.drop (i + 1) := List.drop_eq_getElem_cons h
    rw [show min i data.length = i by omega, show min (i + 1) data.length = i + 1 by omega, u8_at hd, hd]
    rfl
  · rw [show min i data.length = data.length by omega, show min (i + 1) data.length = data.length by omega,
      List.drop_eq_nil_of_le (by omega)]
    unfold u8
    rw [List.getElem?_eq_none (Nat.le_refl _)]
    rfl

theorem uint_field {data : Bytes} {i n : Nat} {p : Props} :
    uint n data ⟨min i data.length, p⟩ = (.ok (leVal (field data i n)), ⟨min (i + n) data.length, p⟩) := by
  unfold uint
  rw [bind_ok bytes_field]
  rfl

theorem unat_field {data : Bytes} {i n : Nat} {p : Props} :
    unat n data ⟨min i data.length, p⟩ =
      (.ok (leVal (field data i n) : Int), ⟨min (i + n) data.length, p⟩) := by
  unfold unat
  rw [bind_ok uint_field]
  rfl

theorem bool_field {data : Bytes} {i : Nat} {p : Props} :
    bool data ⟨min i data.length, p⟩ =
      (.ok (decide ((data.drop i).headD 0 = 1)), ⟨min (i + 1) data.length, p⟩) := by
  unfold bool
  rw [bind_ok u8_field]
  rfl

theorem rInt_length {t : IntTy} {bs rest : Bytes} {a : Int} (h : rInt .little t bs = .ok (a, rest)) :
    bs.length = rest.length + t.width := by
  obtain ⟨h1, _, rfl⟩ := rInt_ok h
  rw [List.length_drop]
  omega

theorem rTag_length {t : Int} {bs rest : Bytes} {a : Unit} (h : rTag t bs = .ok (a, rest)) :
    bs.length = rest.length + 1 := by
  obtain ⟨v, m, h1, h2⟩ := rd_bind h
  rw [Rd.guard_apply] at h2
  split at h2
  · injection h2 with h2
    injection h2 with _ h2
    subst h2
    exact rInt_length h1
  · cases h2

theorem rRef_length {bs rest : Bytes} {a : Ref} (h : rRef ⟨.little, n⟩ bs = .ok (a, rest)) :
    bs.length = rest.length + 4 := by
  obtain ⟨v, m, h1, h2⟩ := rd_bind h
  obtain ⟨_, m', h3, h4⟩ := rd_bind h2
  rw [Rd.guard_apply] at h3
  injection h4 with h4
  injection h4 with _ h4
  subst h4
  split at h3
  · injection h3 with h3
    injection h3 with _ h3
    subst h3
    exact rInt_length h1
  · cases h3

theorem rBool_length {bs rest : Bytes} {a : Bool} (h : rBool bs = .ok (a, rest)) :
    bs.length = rest.length + 1 := by
  obtain ⟨v, m, h1, h2⟩ := rd_bind h
  injection h2 with h2
  injection h2 with _ h2
  subst h2
  exact rInt_length h1

/-- C34: a media descriptor cut anywhere in its fixed fields, or just before its end, loads: the fields
that are not there are zeros, which for the references means `None`.  The portable reader fails. -/
theorem C34_media_cut {bs : Bytes} (h : bs.length ≤ 10) :
    load read_media_descriptor (2 :: 3 :: bs) = .ok
      { mob_kind := some (leVal (field bs 0 1)), locator := some (leVal (field bs 1 4)),
        intermediate := some (decide ((bs.drop 5).headD 0 = 1)),
        physical_media := some (leVal (field bs 6 4)) } ∧
    ∀ o rest, Obj.readAs ⟨.little, n⟩ .MDES (2 :: 3 :: bs) ≠ .ok (o, rest) := by
  constructor
  · have e1 : tag 2 (2 :: 3 :: bs) ⟨0, {}⟩ = (.ok (), ⟨1, {}⟩) := rfl
    have e2 : tag 3 (2 :: 3 :: bs) ⟨1, {}⟩ = (.ok (), ⟨min 2 (2 :: 3 :: bs).length, {}⟩) := by
      rw [show min 2 (2 :: 3 :: bs).length = 2 by simp]
      rfl
    unfold load read_media_descriptor
    rw [bind_ok e1, bind_ok e2, bind_ok unat_field, bind_ok (show ref _ _ = _ from uint_field),
      bind_ok bool_field, bind_ok (show ref _ _ = _ from uint_field)]
    rw [bind_ok (show put _ _ _ = _ from rfl), iterExt]
    have hm : ∀ p, more (2 :: 3 :: bs) ⟨min (2 + 1 + 4 + 1 + 4) (2 :: 3 :: bs).length, p⟩ =
        (.ok false, ⟨min (2 + 1 + 4 + 1 + 4) (2 :: 3 :: bs).length - 1, p⟩) := by
      intro p
      unfold more
      rw [bind_ok u8_field, List.drop_eq_nil_of_le (by simp; omega)]
      have : (List.headD ([] : Bytes) 0 : UInt8) ≠ 1 := by decide
      rw [if_neg this]
      have : min (2 + 1 + 4 + 1 + 4 + 1) (2 :: 3 :: bs).length =
        min (2 + 1 + 4 + 1 + 4) (2 :: 3 :: bs).length := by simp; omega
      rw [this]
      have hz : min (2 + 1 + 4 + 1 + 4) (2 :: 3 :: bs).length ≠ 0 := by simp
      exact bind_ok (show back _ _ = (.ok (), _) by unfold back; rw [if_neg hz])
    rw [hm]
    rfl
  · intro o rest hr
    obtain ⟨x, hr, _⟩ := as_ok hr
    obtain ⟨y, m, hr, hend⟩ := rd_bind hr
    obtain ⟨_, m1, h1, hr⟩ := rd_bind hr
    obtain ⟨_, m2, h2, hr⟩ := rd_bind hr
    obtain ⟨_, m3, h3, hr⟩ := rd_bind hr
    obtain ⟨_, m4, h4, hr⟩ := rd_bind hr
    obtain ⟨_, m5, h5, hr⟩ := rd_bind hr
    obtain ⟨_, m6, h6, hr⟩ := rd_bind hr
    have l1 := rTag_length h1
    have l2 := rTag_length h2
    have l3 := rInt_length h3
    have l4 := rRef_length h4
    have l5 := rBool_length h5
    have l6 := rRef_length h6
    simp only [List.length_cons, IntTy.width] at l1 l3
    have : m6 = [] := List.length_eq_zero_iff.1 (by omega)
    subst this
    rw [Avb.iterExt] at hr
    cases hr

/-- `Selector.read` without the test of `selected`. -/
def looseSelector (d : RCtx) : Rd Selector := do
  let base ← TrackGroup.read d
  rTag 0x02
  rTag 0x01
  let is_ganged ← rBool
  let selected ← rInt d.bo .u16
  rTag 0x03
  return { toTrackGroup := base, is_ganged, selected }

theorem sim_looseSelector : Sim false {} (only (TracksOK n) (looseSelector ⟨.little, n⟩))
    read_selector (Same Selector.props) := by
  unfold looseSelector read_selector
  rw [only_bind]
  refine Sim.bind (Sim.ignore sim_trackgroup) ?_
  intro base _ p h
  fstep
  fstep
  fstep; rename_i v1
  fstep; rename_i v2
  fstep
  exact sim_end (congrArg (fun q : Props => { q with
    is_ganged := some v1, selected := some v2 }) h)

theorem looseSelector_rt {c : WCtx} {d : RCtx} (h : Linked c d) {x : Selector} (ht : TextsOK x.texts) :
    RT (x.write c) (looseSelector d) (x.norm c) := by
  unfold Selector.write looseSelector
  refine RTN.bind (TrackGroup.rt h ht) (by starts) ?_
  rt_steps
  rt_last
  rfl

/-- C34: a selector that selects a track it does not have.  The library writes it, the accelerated reader
reads it back, the portable reader refuses it. -/
theorem C34_selected {c : WCtx} (hl : Linked c ⟨.little, n⟩) {x : Selector} (ht : TextsOK x.texts)
    (hs : (x.tracks.length : Int) ≤ x.selected) {bs : Bytes} (hw : x.write c = .ok ((), bs)) :
    (∃ p, load read_selector bs = .ok p ∧ p.seen = (x.norm c).props.unsigned) ∧
      Obj.readAs ⟨.little, n⟩ .SLCT bs = .error .assertion := by
  have hr := looseSelector_rt hl ht bs hw [] trivial
  rw [List.append_nil] at hr
  have hc := RP.count (RP.left (TrackGroup.rp hl ht)) (by omega) hw []
  rw [List.append_nil] at hc
  refine ⟨load_only sim_looseSelector hc hr, rd_error ?_⟩
  obtain ⟨base, m1, e1, hr⟩ := rd_bind hr
  obtain ⟨_, m2, e2, hr⟩ := rd_bind hr
  obtain ⟨_, m3, e3, hr⟩ := rd_bind hr
  obtain ⟨_, m4, e4, hr⟩ := rd_bind hr
  obtain ⟨sel, m5, e5, hr⟩ := rd_bind hr
  obtain ⟨_, m6, e6, hr⟩ := rd_bind hr
  injection hr with hr
  injection hr with hr _
  unfold Selector.read
  rw [Rd.bind_ok e1, Rd.bind_ok e2, Rd.bind_ok e3, Rd.bind_ok e4, Rd.bind_ok e5]
  have h1 : sel = x.selected := congrArg Selector.selected hr
  have h2 : base.tracks.length = x.tracks.length := by
    have := congrArg (fun s : Selector => s.tracks.length) hr
    simpa [Selector.norm, TrackGroup.norm] using this
  refine rd_error ?_
  rw [Rd.guard_apply, if_neg (by rw [h1, h2]; omega)]

/-- A filler followed by three bytes in the same chunk. -/
example : ∃ bs p, exFill.write (exWrite .little 2) = .ok ((), bs) ∧
    Avb.readObject (exChunkFile .little (Cls.id .FILL) (bs ++ [0, 3, 3])) 1 = .error .assertion ∧
    readObject (exChunkFile .little (Cls.id .FILL) (bs ++ [0, 3, 3])) 1 = .ok (some (.props .FILL p)) ∧
    p.length = some 10 := by
  have hw : ∃ bs, exFill.write (exWrite .little 2) = .ok ((), bs) ∧ bs.length < 1000 := ⟨_, rfl, by
    decide +kernel⟩
  obtain ⟨bs, hw, hl⟩ := hw
  have ht : exFill.Readable := textsOK_short (by decide)
  have hr := C06_read_back (ex_linked .little (by decide)) ht hw []
  rw [List.append_nil] at hr
  have hc := exChunkFile_chunk .little (id := Cls.id .FILL) (payload := bs ++ [0, 3, 3]) rfl
    (by rw [List.length_append]; simp; omega)
  have hp : (exFill.norm (exWrite .little 2)).props.unsigned.length = some 10 := rfl
  generalize exFill.norm (exWrite .little 2) = o at hr hp
  obtain ⟨h1, p, h2, h3⟩ := C34_trailing (k := .FILL) rfl rfl hc (by simp) hr trivial
  refine ⟨bs, p, hw, h1, h2, ?_⟩
  rw [← h3] at hp
  exact hp

/-- A media descriptor. -/
def exMedia : Obj :=
  .MDES { mob_kind := 4, locator := 1, intermediate := true, physical_media := 2, uuid := none,
          wchar := none, attributes := none }

/-- Its chunk with the end marker overwritten, and cut after three of its bytes. -/
example : ∃ body p, exMedia.write (exWrite .little 4) = .ok ((), body ++ [3]) ∧
    load read_media_descriptor (body ++ [7]) = .ok p ∧ p.mob_kind = some 4 ∧
    p.physical_media = some 2 ∧
    Obj.readAs (exRead .little 4) .MDES (body ++ [7]) = .error .assertion := by
  have hw : ∃ bs, exMedia.write (exWrite .little 4) = .ok ((), bs) := ⟨_, rfl⟩
  obtain ⟨bs, hw⟩ := hw
  obtain ⟨body, rfl, h⟩ := C34_end_marker (ex_linked .little (by decide)) (x := exMedia) trivial
    (.inr (.inl rfl)) rfl hw
  obtain ⟨⟨p, h1, h2⟩, h3⟩ := h 7 (by decide)
  exact ⟨body, p, hw, h1, congrArg (·.mob_kind) h2, congrArg (·.physical_media) h2, h3 (by decide)⟩

example : load read_media_descriptor [2, 3, 4] =
    .ok { mob_kind := some 4, locator := some 0, intermediate := some false, physical_media := some 0 } :=
  (C34_media_cut (n := 0) (bs := [4]) (by decide)).1

/-- Attributes without an end marker. -/
example : loadAttr [2, 1, 0, 0, 0, 0] = .ok { items := [] } ∧
    ∀ x, Attributes.read ⟨.little, 4⟩ [2, 1, 0, 0, 0, 0] ≠ .ok (x, []) :=
  ⟨(C34_attributes_end (n := 4) []).1, fun x h =>
    absurd ((C34_attributes_end (n := 4) []).2 x h) (by decide)⟩

/-- A sequence of one component with 255 for everything before its list. -/
example : load read_sequence [255, 2, 3, 1, 0, 0, 0, 2, 0, 0, 0, 3] = .ok { components := some [2] } ∧
    Obj.readAs ⟨.little, 4⟩ .SEQU [255, 2, 3, 1, 0, 0, 0, 2, 0, 0, 0, 3] = .error .assertion :=
  C34_component_lost (by decide) (rest := []) (by rfl)

/-- A selector without tracks that selects track 5. -/
def exSelector : Selector :=
  { toComponent := exComp ['s'], mc_mode := 0, length := 10, num_scalars := 0, tracks := [],
    is_ganged := false, selected := 5 }

example : ∃ bs p, exSelector.write (exWrite .little 4) = .ok ((), bs) ∧
    load read_selector bs = .ok p ∧ p.selected = some 5 ∧
    Obj.readAs (exRead .little 4) .SLCT bs = .error .assertion := by
  have hw : ∃ bs, exSelector.write (exWrite .little 4) = .ok ((), bs) := ⟨_, rfl⟩
  obtain ⟨bs, hw⟩ := hw
  have ht : TextsOK exSelector.texts := textsOK_short (by decide)
  obtain ⟨⟨p, h1, h2⟩, h3⟩ := C34_selected (ex_linked .little (by decide)) ht (by decide) hw
  exact ⟨bs, p, hw, h1, congrArg (·.selected) h2, h3⟩

/-- C34: references to objects the file does not have, wherever they are, are a `ValueError` for the portable
reader and pass unnoticed with the accelerated one.  For every class, every payload that is right in a file
of more objects, and every file. -/
theorem C34_reference {f : AvbFile} {index : Nat} {k : Cls} {r : Fast Unit} (hf : reader k = some r)
    (hb : f.bo = .little) {payload : Bytes} (h : HasChunk f index k.id payload) {n : Nat} {o : Obj}
    (hr : Obj.readAs ⟨.little, n⟩ k payload = .ok (o, [])) (hc : CountsOK n k payload) {x : Ref}
    (hx : x ∈ o.refs) (hn : f.positions.length ≤ x) :
    Avb.readObject f index = .error .value ∧
      ∃ p, readObject f index = .ok (some (.props k p)) ∧ p.seenAs k = o.props.unsigned := by
  refine ⟨C47_error h (by
    have hd : f.ctx = ⟨.little, f.positions.length⟩ := by unfold AvbFile.ctx; rw [hb]
    rw [hd]
    exact refs_refused hr hx hn), ?_⟩
  obtain ⟨p, hp, hs⟩ := C33_same_fields hf hr hc
  refine ⟨p, ?_, hs⟩
  rw [chunk_read h, Cls.ofId_id, hb]
  unfold loadChunk
  dsimp only
  rw [if_neg (by rintro rfl; cases hf), hf]
  dsimp only
  rw [hp]
  rfl

/-- A sequence with component 9. -/
def exNine : Bytes := exCompBytes [1, 0] [255, 255] ++ [2, 3, 1, 0, 0, 0, 9, 0, 0, 0, 3]

/-- In a file of one object. -/
example : Avb.readObject (exChunkFile .little (Cls.id .SEQU) exNine) 1 = .error .value ∧
    ∃ p, readObject (exChunkFile .little (Cls.id .SEQU) exNine) 1 = .ok (some (.props .SEQU p)) := by
  obtain ⟨o, h1, h2⟩ := readsTo_ok (p := fun o : Obj => decide (9 ∈ o.refs))
    (show readsTo (Obj.readAs ⟨.little, 10⟩ .SEQU) exNine _ = true by decide +kernel)
  obtain ⟨e1, p, e2, _⟩ := C34_reference (k := .SEQU) rfl rfl
    (exChunkFile_chunk .little rfl (by decide : exNine.length < 2 ^ 32)) h1 trivial (of_decide_eq_true h2)
    (by decide : 2 ≤ 9)
  exact ⟨e1, p, e2⟩

end Avb.Fast

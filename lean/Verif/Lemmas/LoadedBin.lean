import Verif.Lemmas.LoadedComp
import Verif.Lemmas.Bin

/-
src/avb/attributes.py and src/avb/bin.py: what the readers give can be written again.
-/

namespace Avb

theorem dictSet_facts {α : Type} {P : Text × α → Prop} {l : List (Text × α)} {k : Text} {v : α}
    (hn : (l.map (·.1)).Nodup) (hp : ∀ p ∈ l, P p) (hv : P (k, v)) :
    ((dictSet l k v).map (·.1)).Nodup ∧ (∀ p ∈ dictSet l k v, P p) ∧
    (dictSet l k v).length ≤ l.length + 1 ∧
    ∀ a ∈ (dictSet l k v).map (·.1), a = k ∨ a ∈ l.map (·.1) := by
  induction l with
  | nil => exact ⟨by simp [dictSet], by simp [dictSet, hv], by simp [dictSet], by simp [dictSet]⟩
  | cons q l ih =>
    rw [List.map_cons, List.nodup_cons] at hn
    unfold dictSet
    split
    · next h =>
      subst h
      refine ⟨by simpa using hn, ?_, by simp, ?_⟩
      · intro p h
        rcases List.mem_cons.1 h with rfl | h
        · exact hv
        · exact hp p (List.mem_cons_of_mem _ h)
      · intro a h
        exact .inr h
    · next h =>
      obtain ⟨i1, i2, i3, i4⟩ := ih hn.2 fun p h => hp p (List.mem_cons_of_mem _ h)
      refine ⟨?_, ?_, by simpa using i3, ?_⟩
      · rw [List.map_cons, List.nodup_cons]
        refine ⟨fun hm => ?_, i1⟩
        rcases i4 _ hm with e | e
        · exact h e
        · exact hn.1 e
      · intro p h
        rcases List.mem_cons.1 h with rfl | h
        · exact hp _ (List.mem_cons_self ..)
        · exact i2 p h
      · intro a h
        rcases List.mem_cons.1 h with rfl | h
        · exact .inr (List.mem_cons_self ..)
        · exact (i4 a h).imp id (List.mem_cons_of_mem _)

theorem dictFold_facts {α : Type} {P : Text × α → Prop} {xs l : List (Text × α)}
    (hn : (l.map (·.1)).Nodup) (hp : ∀ p ∈ l, P p) (hx : ∀ p ∈ xs, P p) :
    ((xs.foldl (fun l p => dictSet l p.1 p.2) l).map (·.1)).Nodup ∧
    (∀ p ∈ xs.foldl (fun l p => dictSet l p.1 p.2) l, P p) ∧
    (xs.foldl (fun l p => dictSet l p.1 p.2) l).length ≤ l.length + xs.length := by
  induction xs generalizing l with
  | nil => exact ⟨hn, hp, by simp⟩
  | cons q xs ih =>
    obtain ⟨f1, f2, f3, _⟩ := dictSet_facts hn hp (hx q (List.mem_cons_self ..))
    obtain ⟨g1, g2, g3⟩ := ih f1 f2 fun p h => hx p (List.mem_cons_of_mem _ h)
    refine ⟨g1, g2, ?_⟩
    simp only [List.foldl_cons, List.length_cons]
    omega

section
variable {c : WCtx} {d : RCtx}

theorem Attributes.good_item (hc : ∀ r, Wr.Ok (wRef c r)) : Post (Attributes.readItem d) fun p =>
    Wr.Ok (Attributes.writeItem c p) ∧
    ∀ q ∈ (Enc.macroman, p.1) :: p.2.texts, TextIn q.1 q.2 ∧ q.1 = .macroman := by
  unfold Attributes.readItem
  walk
  refine Post.ite ?_ (Post.ite ?_ (Post.ite ?_ (Post.ite ?_ Post.fail)))
  · walk
    refine Post.pure ⟨?_, ?_⟩
    · ok [Attributes.writeItem]
    · ok [AttrVal.texts]
  · walk
    refine Post.pure ⟨?_, ?_⟩
    · ok [Attributes.writeItem]
    · ok [AttrVal.texts]
  · walk
    refine Post.pure ⟨?_, ?_⟩
    · ok [Attributes.writeItem]
    · ok [AttrVal.texts]
  · walk
    rename_i n hn
    refine Post.bindP (Post.fread (by have : (0 : Int) ≤ n := hn.1; exact this)) fun b hb => ?_
    refine Post.pure ⟨?_, ?_⟩
    · ok [Attributes.writeItem]
    · ok [AttrVal.texts]

theorem Attributes.back (hc : ∀ r, Wr.Ok (wRef c r)) :
    Post (Attributes.read d) fun x => (Obj.ATTR x).Back c := by
  unfold Attributes.read
  walk
  rename_i n hn
  refine Post.bindP (Post.list (Attributes.good_item hc)) fun l hl => ?_
  have hln := hl.1 _ hn
  walk
  refine Post.pure ?_
  obtain ⟨f1, f2, f3⟩ := dictFold_facts (l := []) (by simp) (by simp) hl.2
  have f4 := hln.le (Int.natCast_nonneg _) (by exact_mod_cast (by simpa using f3))
  refine ⟨?_, ?_, fun _ => f1⟩
  · have : Wr.Ok (Attributes.write c ⟨l.foldl (fun l p => dictSet l p.1 p.2) []⟩) := by
      simp (decide := true) only [Attributes.write, Wr.ok_bind, Wr.ok_int', Wr.ok_forW, f4, true_and, and_true]
      exact fun x hx => (f2 x hx).1
    refine ⟨fun _ => ⟨fun r hr => (nomatch hr), ?_, trivial⟩, fun _ => this⟩
    intro t ht
    obtain ⟨p, hp, hq⟩ := List.mem_flatMap.1 ht
    have := ((f2 p hp).2 _ hq).2
    cases this
  · intro q hq
    obtain ⟨p, hp, hq⟩ := List.mem_flatMap.1 hq
    exact ((f2 p hp).2 _ hq).1

theorem ParameterList.back (hc : ∀ r, Wr.Ok (wRef c r)) :
    Post (ParameterList.read d) fun x => (Obj.PRLS x).Back c := by
  unfold ParameterList.read
  walk
  refine Post.bindP (Post.list Post.all) fun l hl => ?_
  walk
  refine Post.pure ?_
  back [ParameterList.write]

theorem TimeCrumbList.back (hc : ∀ r, Wr.Ok (wRef c r)) :
    Post (TimeCrumbList.read d) fun x => (Obj.TMCS x).Back c := by
  unfold TimeCrumbList.read
  walk
  refine Post.bindP (Post.list Post.all) fun l hl => ?_
  walk
  refine Post.pure ?_
  back [TimeCrumbList.write]

theorem Setting.good (hc : ∀ r, Wr.Ok (wRef c r)) : Post (Setting.read d) fun x =>
    Wr.Ok (x.write c) ∧ (∀ p ∈ x.texts, TextIn p.1 p.2) := by
  unfold Setting.read
  walk
  refine Post.pure ⟨?_, ?_⟩
  · ok [Setting.write]
  · ok [Setting.texts]

theorem BinColumn.good : Post (BinColumn.read d) fun x => Wr.Ok (x.write c) ∧ TextIn .macroman x.title := by
  unfold BinColumn.read
  walk
  refine Post.pure ⟨?_, by assumption⟩
  ok [BinColumn.write]

theorem FormatDescriptor.good : Post (FormatDescriptor.read d) fun x =>
    (Wr.Ok (x.write c) ↔ utf8Bytes x.format_descriptor ≤ 32765) := by
  unfold FormatDescriptor.read
  walk
  refine Post.bind fun _ => Post.bind fun t => ?_
  refine Post.pure ?_
  have he : ∀ k : Bytes → Wr Unit, Wr.Ok (Wr.encode .utf8 t >>= k) ↔
      Wr.Ok (k (t.flatMap String.utf8EncodeChar)) := by
    intro k
    constructor
    · rintro ⟨bs, h⟩
      obtain ⟨_, o1, o2, h1, h2, rfl⟩ := Wr.bind_eq_ok h
      cases h1
      exact ⟨_, h2⟩
    · rintro ⟨bs, h⟩
      exact ⟨[] ++ bs, Wr.bind_ok rfl h⟩
  unfold FormatDescriptor.write
  simp (decide := true) only [Wr.ok_bind, Wr.ok_int', Wr.ok_emit, utf8Bytes_eq, *, true_and, and_true]
  have h16 : ∀ v : Int, InTy .s16 v ↔ -32768 ≤ v ∧ v ≤ 32767 := fun _ => Iff.rfl
  have h32 : ∀ v : Int, InTy .s32 v ↔ -2147483648 ≤ v ∧ v ≤ 2147483647 := fun _ => Iff.rfl
  rw [h16, h32]
  omega

theorem BinViewSetting.back (hc : ∀ r, Wr.Ok (wRef c r)) :
    Post (BinViewSetting.read d) fun x => (Obj.BVst x).Back c := by
  refine Post.bindP (Setting.good hc) fun base hb => ?_
  obtain ⟨h1, h2⟩ := hb
  walk
  refine Post.bindP (Post.list (BinColumn.good (c := c))) fun columns hl => ?_
  refine Post.bindP (Post.iterExt (P := fun s => ∃ o, s =
    { toSetting := base, columns, format_descriptors := o } ∧
    OptIn (fun l : List FormatDescriptor => InTy .u16 (l.length : Int) ∧ ∀ x ∈ l,
      (Wr.Ok (x.write c) ↔ utf8Bytes x.format_descriptor ≤ 32765)) o) ?_ ⟨none, rfl, trivial⟩) ?_
  · rintro t _ ⟨o, rfl, g⟩
    unfold BinViewSetting.ext
    refine Post.ite ?_ Post.fail
    walk
    rename_i n hn _ h0
    refine Post.bindP (Post.list (FormatDescriptor.good (c := c))) fun l hl => ?_
    refine Post.pure ⟨_, rfl, ?_, hl.2⟩
    refine hl.1 _ ⟨h0, ?_⟩
    have h16 : -32768 ≤ n ∧ n ≤ 32767 := hn
    show n ≤ 65535
    omega
  · rintro _ ⟨o, rfl, g⟩
    walk
    refine Post.pure ⟨?_, ?_, fun _ => trivial⟩
    · cases o with
      | none => ok [Obj.write, BinViewSetting.write, Obj.Resavable, Obj.rates, Obj.texts,
          BinViewSetting.texts, Setting.texts]
      | some l =>
        obtain ⟨g1, g2⟩ := g
        ok [Obj.write, BinViewSetting.write, Obj.Resavable, Obj.rates, Obj.texts,
          BinViewSetting.texts, Setting.texts]
    · intro p hp
      rcases List.mem_append.1 hp with hp | hp
      · exact h2 p hp
      · obtain ⟨b, hb, rfl⟩ := List.mem_map.1 hp
        exact (hl.2 b hb).2

theorem BinItem.good (hc : ∀ r, Wr.Ok (wRef c r)) : Post (BinItem.read d) fun x => Wr.Ok (x.write c) := by
  unfold BinItem.read
  walk
  rename_i u _
  refine Post.pure ?_
  cases u <;> ok [BinItem.write]

theorem SiftItem.good : Post (SiftItem.read d) fun x =>
    Wr.Ok (x.write c) ∧ ∀ p ∈ x.texts, TextIn p.1 p.2 := by
  unfold SiftItem.read
  walk
  refine Post.pure ⟨?_, ?_⟩
  · ok [SiftItem.write]
  · ok [SiftItem.texts]

theorem sortColumn_good : Post (rSortColumn d) fun x =>
    Wr.Ok (wSortColumn c x) ∧ TextIn .macroman x.2 := by
  unfold rSortColumn
  walk
  refine Post.pure ⟨?_, by assumption⟩
  ok [wSortColumn]

theorem rect_good : Post (rRect d.bo) fun x => Wr.Ok (wRect c.bo x) := by
  unfold rRect
  walk
  refine Post.pure ?_
  ok [wRect]

theorem rgb_good : Post (rRgb d.bo) fun x => Wr.Ok (wRgb c.bo x) := by
  unfold rRgb
  walk
  refine Post.pure ?_
  ok [wRgb]

theorem Bin.good (hc : ∀ r, Wr.Ok (wRef c r)) : Post (Bin.readBody d) fun x =>
    Wr.Ok (x.writeBody c) ∧ (∀ p ∈ x.texts, TextIn p.1 p.2) ∧ x.Stored := by
  unfold Bin.readBody
  walk
  rename_i version _ _ hv _ _ _ _
  refine Post.bindP (Q := fun n => InTy .u32 n ∧ (version ≠ 0x0f → InTy .u16 n)) ?_ fun n hn => ?_
  · unfold Bin.readCount
    refine Post.ifP (fun h => ?_) (fun h => ?_)
    · refine (Post.int .u16).mono fun n hn => ⟨?_, fun _ => hn⟩
      have h16 : 0 ≤ n ∧ n ≤ 65535 := hn
      show 0 ≤ n ∧ n ≤ 4294967295
      omega
    · refine (Post.int .u32).mono fun n hn => ⟨hn, fun h' => absurd hv (by tauto)⟩
  refine Post.bindP (Post.list (BinItem.good hc)) fun items hi => ?_
  walk
  refine Post.bindP (Post.readN' (SiftItem.good (c := c)) 6) fun sifts hs => ?_
  walk
  refine Post.bindP (Post.list (sortColumn_good (c := c))) fun sorts ht => ?_
  walk
  refine Post.bindP (rect_good (c := c)) fun _ _ => ?_
  refine Post.bindP (rgb_good (c := c)) fun _ _ => ?_
  refine Post.bindP (rgb_good (c := c)) fun _ _ => ?_
  walk
  have hi32 := hi.1 _ hn.1
  have hi16 : version ≠ 0x0f → items.length ≤ 65535 := fun h => by
    have := (hi.1 _ (hn.2 h)).2
    have h' : (items.length : Int) ≤ 65535 := this
    omega
  refine Post.pure ⟨?_, ?_, ?_, ?_⟩
  · have h6 : ∀ i ∈ List.range' 0 6, ∃ a, sifts[i]? = some a ∧ Wr.Ok (a.write c) := by
      intro i hm
      have hl : i < sifts.length := by simp at hm; omega
      exact ⟨sifts[i], List.getElem?_eq_getElem hl, (hs.2 _ (List.getElem_mem hl)).1⟩
    have e6 : List.range' 0 6 = [0, 1, 2, 3, 4, 5] := rfl
    have hlen : sifts.length = 6 := hs.1
    by_cases hv' : version = 0x0f
    · ok [Bin.writeBody, Bin.isLarge, Bin.writeCount]
    · have h' := hi.1 _ (hn.2 hv')
      have hlt : ¬ 65535 < items.length := by have := hi16 hv'; omega
      ok [Bin.writeBody, Bin.isLarge, Bin.writeCount]
  · intro p hp
    rcases List.mem_append.1 hp with hp | hp
    · obtain ⟨s, hs', hp⟩ := List.mem_flatMap.1 hp
      exact (hs.2 s hs').2 p hp
    · obtain ⟨b, hb, rfl⟩ := List.mem_map.1 hp
      exact (ht.2 b hb).2
  · show sifts.length ≤ 6
    omega
  · intro h
    by_contra hc
    have := hi16 (by simpa using hc)
    exact absurd h (by show ¬ 65535 < items.length; omega)

theorem Bin.texts_mac (x : Bin) {t : Text} : (Enc.utf8, t) ∈ x.texts ↔ False := by
  simp [Bin.texts, SiftItem.texts]

theorem Bin.back (hc : ∀ r, Wr.Ok (wRef c r)) : Post (Bin.read d) fun x => (Obj.ABIN x).Back c := by
  refine Post.bindP (Bin.good hc) fun x hx => ?_
  obtain ⟨h1, h2, h3⟩ := hx
  walk
  refine Post.pure ?_
  back [Bin.write, Bin.texts_mac]

theorem BinFirst.back (hc : ∀ r, Wr.Ok (wRef c r)) : Post (BinFirst.read d) fun x => (Obj.BINF x).Back c := by
  refine Post.bindP (Bin.good hc) fun x hx => ?_
  obtain ⟨h1, h2, h3⟩ := hx
  walk
  refine Post.pure ?_
  back [BinFirst.write, Bin.texts_mac]

end

end Avb

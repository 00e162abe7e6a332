import Verif.Lemmas.Resave
import Verif.Lemmas.FileCore

/-
Saving an opened file again.
-/

namespace Avb

open Relation SaveCore

/-- The objects of an opened file, each read when it is asked for (src/avb/file.py:262-323,
src/avb/utils.py:21-28): its instance id is its number in the file, and its properties are in the order
in which `read` sets them. -/
def fileHeap (f : AvbFile) : Heap := fun r =>
  match readObject f r with
  | .ok (some o) => .ok ⟨r, true, o, o.visits⟩
  | .ok none => .error .attribute
  | .error e => .error e

theorem fileHeap_ok (f : AvbFile) : HeapOK (fileHeap f) := by
  intro r e he v
  unfold fileHeap at he
  split at he
  · cases he; exact Iff.rfl
  · cases he
  · cases he

theorem fileHeap_iid {f : AvbFile} {r : Ref} {e : Entry} (h : fileHeap f r = .ok e) : e.iid = r := by
  unfold fileHeap at h
  split at h
  · cases h; rfl
  · cases h
  · cases h

theorem fileHeap_inj (f : AvbFile) (content : Ref) : IidInj (fileHeap f) content := by
  intro a b ea eb _ _ ha hb h
  rw [← fileHeap_iid ha, ← fileHeap_iid hb, h]

/-- The graph below `content` in `h` looks like the graph below `tr content` in `h'`. -/
structure Iso (h h' : Heap) (content : Ref) (tr : Ref → Ref) : Prop where
  zero : tr 0 = 0
  pos : ∀ a, Reach h content a → tr a ≠ 0
  ent : ∀ a e, Reach h content a → h a = .ok e → ∃ e', h' (tr a) = .ok e' ∧
    e'.visits = e.visits.map (Visit.map tr) ∧ e'.obj.listItems = e.obj.listItems.map tr ∧
    ∀ r ∈ e.obj.listItems, .prop r ∈ e.visits

/-- A walk with its references renumbered. -/
def Walk.map (f : Ref → Ref) (w : Walk) : Walk := ⟨w.out.map f, w.err⟩

theorem Walk.map_andThen {f : Ref → Ref} {a b : Walk} :
    (a.andThen b).map f = (a.map f).andThen (b.map f) := by
  unfold Walk.andThen Walk.map
  cases a.err <;> simp

theorem walkItems_map {f : Ref → Ref} {w w' : Ref → Walk} {rs : List Ref}
    (h : ∀ r ∈ rs, w' (f r) = (w r).map f) : walkItems w' (rs.map f) = (walkItems w rs).map f := by
  induction rs with
  | nil => rfl
  | cons r rs ih =>
    simp only [List.map_cons, walkItems, Walk.map_andThen]
    rw [h r List.mem_cons_self, ih fun x hx => h x (List.mem_cons_of_mem _ hx)]

theorem Reach.step {h : Heap} {content a : Ref} {e : Entry} {v : Visit} (ha : Reach h content a)
    (he : h a = .ok e) (hv : v ∈ e.visits) (h0 : v.ref ≠ 0) : Reach h content v.ref :=
  ⟨h0, ha.2.tail ⟨e, he, ha.1, h0, v, hv, rfl⟩⟩

theorem walkVisits_map {h h' : Heap} {content : Ref} {tr : Ref → Ref} (iso : Iso h h' content tr)
    (hload : ∀ a, Reach h content a → ∃ e, h a = .ok e)
    {w w' : Ref → Walk} (hw : ∀ r, (r = 0 ∨ Reach h content r) → w' (tr r) = (w r).map tr)
    {vs : List Visit} (hv : ∀ v ∈ vs, v.ref = 0 ∨ Reach h content v.ref) :
    walkVisits h' w' (vs.map (Visit.map tr)) = (walkVisits h w vs).map tr := by
  induction vs with
  | nil => rfl
  | cons v vs ih =>
    have ih := ih fun x hx => hv x (List.mem_cons_of_mem _ hx)
    have hv := hv v List.mem_cons_self
    cases v with
    | item r =>
      simp only [List.map_cons, Visit.map, walkVisits, Walk.map_andThen]
      rw [ih, hw r hv]
    | prop r =>
      simp only [List.map_cons, Visit.map, walkVisits]
      rcases hv with h0 | hr
      · change r = 0 at h0
        subst h0
        rw [iso.zero, if_pos rfl, if_pos rfl, ih]
      · change Reach h content r at hr
        rw [if_neg hr.1, if_neg (iso.pos r hr)]
        obtain ⟨e, he⟩ := hload r hr
        obtain ⟨e', he', _, hl, hm⟩ := iso.ent r e hr he
        rw [he, he']
        simp only [Walk.map_andThen]
        rw [hl, ih, hw r (.inr hr), walkItems_map]
        intro x hx
        refine hw x ?_
        by_cases hx0 : x = 0
        · exact .inl hx0
        · exact .inr (hr.step he (hm x hx) hx0)

theorem walkObj_map {h h' : Heap} {content : Ref} {tr : Ref → Ref} (iso : Iso h h' content tr)
    (hload : ∀ a, Reach h content a → ∃ e, h a = .ok e) (n : Nat) :
    ∀ r, (r = 0 ∨ Reach h content r) → walkObj h' n (tr r) = (walkObj h n r).map tr := by
  induction n with
  | zero => intro r _; rfl
  | succ n ih =>
    intro r hr
    simp only [walkObj]
    rcases hr with h0 | hr
    · subst h0
      rw [iso.zero, if_pos rfl, if_pos rfl]; rfl
    · rw [if_neg hr.1, if_neg (iso.pos r hr)]
      obtain ⟨e, he⟩ := hload r hr
      obtain ⟨e', he', h1, _, _⟩ := iso.ent r e hr he
      rw [he, he']
      simp only [Walk.map_andThen]
      rw [h1, walkVisits_map iso hload ih]
      · rfl
      · intro v hv
        by_cases h0 : v.ref = 0
        · exact .inl h0
        · exact .inr (hr.step he hv h0)

theorem saveLoop_keep {h : Heap} {bo : BO} {rs : List Ref} {s s' : SaveSt} {er : Option Err}
    (hrun : saveLoop h bo rs s = (s', er)) {id k : Nat} (hk : s.map id = some k) :
    s'.map id = some k := by
  induction rs generalizing s with
  | nil => simp only [saveLoop] at hrun; cases hrun; exact hk
  | cons r rs ih =>
    simp only [saveLoop] at hrun
    cases he : h r with
    | error e => rw [he] at hrun; cases hrun; exact hk
    | ok e =>
      rw [he] at hrun
      simp only at hrun
      by_cases hm : (s.map e.iid).isSome
      · rw [if_pos hm] at hrun; exact ih hrun hk
      · rw [if_neg hm] at hrun
        have hk' : mapSet s.map e.iid (s.next + 1) id = some k := by
          unfold mapSet
          rw [if_neg]
          · exact hk
          · rintro rfl; rw [hk] at hm; simp at hm
        cases hw : writeObject ⟨bo, refMapOf h (mapSet s.map e.iid (s.next + 1))⟩ e with
        | error e => rw [hw] at hrun; cases hrun; exact hk'
        | ok p =>
          obtain ⟨_, bs⟩ := p
          rw [hw] at hrun
          exact ih hrun hk'

/-- The two saves in step. -/
theorem saveLoop_again {h h' : Heap} {bo : BO} {content : Ref} (hh : HeapOK h) (hinj : IidInj h content)
    {num : Ref → Nat} (hnum : ∀ a b, Reach h content a → Reach h content b → num a = num b → a = b)
    (hent : ∀ a e, Reach h content a → h a = .ok e → e.obj.Clean ∧
      h' (num a) = .ok ⟨num a, true, e.obj.norm (finalCtx bo num), (e.obj.norm (finalCtx bo num)).visits⟩)
    {rs : List Ref} {s s' t : SaveSt} {done : List Chunk} {seen : List Ref}
    (inv : SaveInv h bo s done) (hpo : PO h seen rs) (hseen : Numbered h s seen)
    (hreach : ∀ ck ∈ done, Reach h content ck.ref) (hrs : ∀ r ∈ rs, Reach h content r)
    (hsn : ∀ r ∈ seen, Reach h content r)
    (hrun : saveLoop h bo rs s = (s', none)) (hfin : ∀ a, Reach h content a → num a = numOf h s' a)
    (h1 : t.next = s.next) (h2 : t.out = s.out)
    (h3 : ∀ a e, Reach h content a → h a = .ok e → t.map (num a) = s.map e.iid) :
    ∃ t', saveLoop h' bo (rs.map num) t = (t', none) ∧ t'.next = s'.next ∧ t'.out = s'.out := by
  induction rs generalizing s t done seen with
  | nil =>
    simp only [saveLoop] at hrun
    cases hrun
    exact ⟨t, rfl, h1, h2⟩
  | cons r rs ih =>
    obtain ⟨⟨e, he, hv⟩, hpo⟩ := hpo
    have hr := hrs r List.mem_cons_self
    have hrs' : ∀ x ∈ rs, Reach h content x := fun x hx => hrs x (List.mem_cons_of_mem _ hx)
    have hsn' : ∀ x ∈ r :: seen, Reach h content x := by
      intro x hx
      rcases List.mem_cons.1 hx with rfl | hx
      · exact hr
      · exact hsn x hx
    obtain ⟨hcl, he'⟩ := hent r e hr he
    have hrun0 := hrun
    simp only [saveLoop, he] at hrun
    simp only [List.map_cons, saveLoop, he']
    by_cases hm : (s.map e.iid).isSome
    · rw [if_pos hm] at hrun
      rw [h3 r e hr he, if_pos hm]
      obtain ⟨k, hk⟩ := Option.isSome_iff_exists.1 hm
      refine ih (seen := r :: seen) inv hpo ?_ hreach hrs' hsn' hrun h1 h2 h3
      intro x hx
      rcases List.mem_cons.1 hx with rfl | hx
      · exact ⟨e, k, he, hk⟩
      · exact hseen x hx
    · rw [if_neg hm] at hrun
      rw [h3 r e hr he, if_neg hm]
      have hnew : s.map e.iid = none := by simpa using hm
      cases hw : writeObject ⟨bo, refMapOf h (mapSet s.map e.iid (s.next + 1))⟩ e with
      | error er => rw [hw] at hrun; simp at hrun
      | ok p =>
        obtain ⟨⟨⟩, bs⟩ := p
        rw [hw] at hrun
        have keep : ∀ id k, s.map id = some k → mapSet s.map e.iid (s.next + 1) id = some k := by
          intro id k hk
          unfold mapSet
          rw [if_neg]
          · exact hk
          · rintro rfl; rw [hnew] at hk; cases hk
        obtain ⟨data, inv'⟩ := inv.step he hnew (fun v hv1 hv2 => hseen _ (hv v hv1 hv2)) hw
        have hreach' : ∀ ck ∈ done ++ [⟨r, e, data⟩], Reach h content ck.ref := by
          intro ck hck
          rcases List.mem_append.1 hck with hck | hck
          · exact hreach ck hck
          · rw [List.mem_singleton.1 hck]; exact hr
        -- the maps of both saves after this object
        have h3' : ∀ a ea, Reach h content a → h a = .ok ea →
            mapSet t.map (num r) (t.next + 1) (num a) = mapSet s.map e.iid (s.next + 1) ea.iid := by
          intro a ea ha hea
          unfold mapSet
          by_cases har : a = r
          · subst har
            rw [he] at hea; cases hea
            rw [if_pos rfl, if_pos rfl, h1]
          · rw [if_neg fun hx => har (hnum a r ha hr hx),
              if_neg fun hx => har (hinj _ _ _ _ ha hr hea he hx)]
            exact h3 a ea ha hea
        -- numbers in the map are the final numbers
        have hval : ∀ a ea k, Reach h content a → h a = .ok ea →
            mapSet s.map e.iid (s.next + 1) ea.iid = some k → num a = k := by
          intro a ea k ha hea hk
          have := saveLoop_keep hrun (id := ea.iid) (k := k) hk
          rw [hfin a ha]
          unfold numOf refMapOf
          rw [hea]
          simp [this]
        have hren : Renum ⟨bo, refMapOf h (mapSet s.map e.iid (s.next + 1))⟩
            (refMapOf h' (mapSet t.map (num r) (t.next + 1))) := by
          intro x k _ hk
          change refMapOf h (mapSet s.map e.iid (s.next + 1)) x = some k at hk
          unfold refMapOf at hk
          cases hx : h x with
          | error er => rw [hx] at hk; cases hk
          | ok ex =>
            rw [hx] at hk
            simp only at hk
            obtain ⟨i, hi, hki, hid⟩ := inv'.bwd _ _ hk
            have hmem := List.getElem_mem hi
            have ha := hreach' _ hmem
            have hea := inv'.ent _ hmem
            generalize (done ++ [(⟨r, e, data⟩ : Chunk)])[i] = ck at *
            have hk2 : num ck.ref = k := hval _ _ _ ha hea (by rw [hid]; exact hk)
            refine ⟨by omega, ?_⟩
            unfold refMapOf
            rw [← hk2, (hent _ _ ha hea).2]
            simp only
            rw [h3' _ _ ha hea, hid, hk, hk2]
        have hnorm : e.obj.norm ⟨bo, refMapOf h (mapSet s.map e.iid (s.next + 1))⟩ =
            e.obj.norm (finalCtx bo num) := by
          refine Obj.norm_congr ?_
          intro v hv1
          have hv1 := (hh _ _ he v).2 hv1
          unfold WCtx.tr finalCtx
          by_cases h0 : v.ref = 0
          · rw [if_pos h0, if_pos h0]
          · rw [if_neg h0, if_neg h0]
            obtain ⟨ev, k, h5, h6⟩ := hseen _ (hv v hv1 h0)
            have h7 := keep _ _ h6
            have h8 : refMapOf h (mapSet s.map e.iid (s.next + 1)) v.ref = some k := by
              unfold refMapOf; rw [h5]; exact h7
            simp only [h8, Option.getD_some]
            exact (hval _ _ _ (hr.step he hv1 h0) h5 h7).symm
        obtain ⟨hown, d, hd1, hd2, hd3, rfl⟩ := writeObject_ok hw
        have himp := Obj.write_imp hren hcl _ _ hd1
        rw [hnorm] at himp
        have hw' := writeObject_of (e := ⟨num r, true, e.obj.norm (finalCtx bo num),
          (e.obj.norm (finalCtx bo num)).visits⟩) rfl himp hd2 hd3
        change writeObject ⟨bo, refMapOf h' (mapSet t.map (num r) (t.next + 1))⟩ _ = _ at hw'
        rw [hw']
        simp only
        refine ih (seen := r :: seen) inv' hpo ?_ hreach' hrs' hsn' hrun (by simp [h1]) ?_ h3'
        · intro x hx
          rcases List.mem_cons.1 hx with rfl | hx
          · exact ⟨e, s.next + 1, he, by simp [mapSet]⟩
          · obtain ⟨e', k, h4, h5⟩ := hseen x hx
            exact ⟨e', k, h4, keep _ _ h5⟩
        · simp only [h2, Obj.norm_cls]

/-- Saving again what was saved and opened gives the same file. -/
theorem save_again {h : Heap} {fuel : Nat} {bo : BO} {hd : HeaderInfo} {content : Ref} {bytes : Bytes}
    (hh : HeapOK h) (hord : ∀ r e, Reach h content r → h r = .ok e → e.visits = e.obj.visits)
    (hinj : IidInj h content) (ht : TextOK .macroman hd.last_save_str)
    (hread : ∀ a e, Reach h content a → h a = .ok e → e.obj.Readable ∧ e.obj.Clean)
    (hs : save h fuel bo hd content = .ok bytes) :
    ∃ f, openTable bytes = .ok f ∧ save (fileHeap f) fuel bo hd f.header.root_index = .ok bytes := by
  obtain ⟨pre, post, s, done, sc, hwalk, hloop⟩ := save_core' hh hs
  obtain ⟨g1, g2⟩ := walkObj_good hh fuel content []
  have hnum : ∀ a b, Reach h content a → Reach h content b → numOf h s a = numOf h s b → a = b := by
    intro a b ha hb hab
    obtain ⟨i, hi, rfl, _, h3⟩ := sc.chunk hinj ha
    obtain ⟨j, hj, rfl, _, h4⟩ := sc.chunk hinj hb
    have : i = j := by omega
    subst this; rfl
  have hent : ∀ a e, Reach h content a → h a = .ok e → e.obj.Clean ∧
      fileHeap (savedFile bo hd pre post done) (numOf h s a) =
        .ok ⟨numOf h s a, true, e.obj.norm (finalCtx bo (numOf h s)),
          (e.obj.norm (finalCtx bo (numOf h s))).visits⟩ := by
    intro a e ha he
    refine ⟨(hread a e ha he).2, ?_⟩
    obtain ⟨i, hi, rfl, h2, h3⟩ := sc.chunk hinj ha
    rw [h2] at he; cases he
    unfold fileHeap
    rw [h3, sc.read hh hi (hread _ _ ha h2).1]
  have hpos : ∀ a, Reach h content a → numOf h s a ≠ 0 := by
    intro a ha
    obtain ⟨i, hi, _, _, h3⟩ := sc.chunk hinj ha
    omega
  have hload : ∀ a, Reach h content a → ∃ e, h a = .ok e := by
    intro a ha
    obtain ⟨i, hi, _, h2, _⟩ := sc.chunk hinj ha
    exact ⟨_, h2⟩
  have htr : ∀ a, Reach h content a → (finalCtx bo (numOf h s)).tr a = numOf h s a := by
    intro a ha
    unfold WCtx.tr finalCtx
    rw [if_neg ha.1]; rfl
  have iso : Iso h (fileHeap (savedFile bo hd pre post done)) content (finalCtx bo (numOf h s)).tr := by
    refine ⟨by simp [WCtx.tr], ?_, ?_⟩
    · intro a ha; rw [htr a ha]; exact hpos a ha
    · intro a e ha he
      obtain ⟨hc, h1⟩ := hent a e ha he
      rw [htr a ha, hord a e ha he]
      exact ⟨_, h1, Obj.norm_visits_eq hc, Obj.norm_listItems, fun r hr => Obj.listItems_visits hr⟩
  have hw : ∀ r, (r = 0 ∨ Reach h content r) →
      walkObj (fileHeap (savedFile bo hd pre post done)) fuel ((finalCtx bo (numOf h s)).tr r) =
        (walkObj h fuel r).map (finalCtx bo (numOf h s)).tr := walkObj_map iso hload fuel
  have hmap : (walkObj h fuel content).out.map (finalCtx bo (numOf h s)).tr =
      (walkObj h fuel content).out.map (numOf h s) :=
    List.map_congr_left fun a ha => htr a (g2 a ha)
  have hroot : (savedFile bo hd pre post done).header.root_index =
      (finalCtx bo (numOf h s)).tr content := by
    by_cases hc : content = 0
    · subst hc
      rw [iso.zero]
      change done.length = 0
      rw [sc.noContent]; rfl
    · rw [htr content ⟨hc, .refl⟩, sc.root hinj hc]; rfl
  have hw' := hw content (by
    by_cases hc : content = 0
    · exact .inl hc
    · exact .inr ⟨hc, .refl⟩)
  obtain ⟨t', h1, h2, h3⟩ := saveLoop_again (t := ⟨0, fun _ => none, []⟩) hh hinj hnum hent SaveInv.init g1
    (by intro r hr; cases hr) (by intro ck hck; cases hck) g2 (by intro r hr; cases hr) hloop
    (fun _ _ => rfl) rfl rfl (fun _ _ _ _ => rfl)
  refine ⟨_, sc.table ht, ?_⟩
  have := save_of (h := fileHeap (savedFile bo hd pre post done)) (fuel := fuel)
    (content := (savedFile bo hd pre post done).header.root_index) sc.hpre sc.hpost (s := t')
    (by rw [hroot, hw']; exact hwalk) (by rw [hroot, hw']; unfold Walk.map; rw [hmap]; exact h1)
    (by rw [h2, sc.inv.next]; exact sc.count)
  rw [this, h2, h3, sc.data, sc.inv.out, sc.inv.next]
  rfl

end Avb

import Verif.Model.Bin
import Verif.Lemmas.Attributes

/-
Round trips of src/avb/bin.py.
-/

namespace Avb

section
variable {F : Bytes → Prop} {α β γ : Type} {c : WCtx} {d : RCtx}

/-- Two 16 bit values read back as one 32 bit value of which nothing is kept. -/
theorem RT.two16 {a b : Int} {w : Wr Unit} {k : Int → Rd α} {v : α}
    (hk : ∀ n, RTF F w (k n) v) :
    RTF F (wInt c.bo .s16 a >>= fun _ => wInt c.bo .s16 b >>= fun _ => w)
      (rInt d.bo .s32 >>= k) v := by
  intro bs hbs rest hF
  obtain ⟨_, o1, o2, e1, e2, rfl⟩ := Wr.bind_eq_ok hbs
  obtain ⟨_, o3, o4, e3, e4, rfl⟩ := Wr.bind_eq_ok e2
  obtain ⟨-, -, rfl⟩ := wInt_eq_ok e1
  obtain ⟨-, -, rfl⟩ := wInt_eq_ok e3
  have hr : ∃ n, rInt d.bo .s32 ((packNat c.bo IntTy.s16.width
      (a % (2 ^ (8 * IntTy.s16.width) : Int)).toNat ++ (packNat c.bo IntTy.s16.width
      (b % (2 ^ (8 * IntTy.s16.width) : Int)).toNat ++ o4)) ++ rest) = .ok (n, o4 ++ rest) := by
    unfold rInt
    rw [if_neg (by simp [IntTy.width]; omega)]
    refine ⟨_, congrArg Except.ok (Prod.ext rfl ?_)⟩
    change List.drop _ _ = _
    rw [← List.append_assoc (packNat _ _ _), List.append_assoc _ o4]
    exact List.drop_left' (by simp [IntTy.width])
  obtain ⟨n, hn⟩ := hr
  rw [Rd.bind_ok hn]
  exact hk n o4 e4 rest hF

/-- A value written as u16 and read as s16 comes back when it is below 2^15. -/
theorem RT.u16s16 (h : Linked c d) {v : Int} (hv : v < 32768) :
    RT (wInt c.bo .u16 v) (rInt d.bo .s16) v := by
  intro bs hbs rest hF
  obtain ⟨h1, h2, rfl⟩ := wInt_eq_ok hbs
  simp only [IntTy.lo, IntTy.signed, Bool.false_eq_true, if_false] at h1
  have := RT.int (bo := d.bo) (t := .s16) (v := v) _
    (wInt_ok (by simp [IntTy.lo, IntTy.signed, IntTy.width]; omega)
      (by simp [IntTy.hi, IntTy.signed, IntTy.width]; omega)) rest trivial
  rw [h.bo] at *
  exact this

/-- `for i in range(k, k + n): w(xs[i])` against `n` reads. -/
theorem RT.nths {w : β → Wr Unit} {r : Rd γ} {g : β → γ} {xs : List β}
    (h : ∀ x ∈ xs, RT (w x) r (g x)) (n k : Nat) :
    RT (forW (List.range' k n) fun i => Wr.nth xs i >>= w) (readN n r)
      (((xs.drop k).take n).map g) := by
  induction n generalizing k with
  | zero => exact RT.pure (by simp)
  | succ n ih =>
    simp only [List.range'_succ, forW, readN]
    intro bs hbs rest _
    obtain ⟨_, o1, o2, e1, e2, rfl⟩ := Wr.bind_eq_ok hbs
    obtain ⟨x, o3, o4, e3, e4, rfl⟩ := Wr.bind_eq_ok e1
    have hx : xs[k]? = some x ∧ o3 = [] := by
      unfold Wr.nth at e3
      split at e3
      · rename_i a ha
        obtain ⟨rfl, rfl⟩ := Wr.pure_eq_ok e3
        exact ⟨ha, rfl⟩
      · cases e3
    obtain ⟨hx, rfl⟩ := hx
    have hd : xs.drop k = x :: xs.drop (k + 1) := by
      obtain ⟨hk, hk'⟩ := List.getElem?_eq_some_iff.1 hx
      rw [List.drop_eq_getElem_cons hk, hk']
    have hm : x ∈ xs := List.mem_of_getElem? hx
    rw [List.nil_append, List.append_assoc, Rd.bind_ok (h x hm o4 e4 _ trivial),
      Rd.bind_ok (ih (k + 1) o2 e2 rest trivial), hd]
    rfl

/-- What is read back for a setting. -/
def Setting.norm (c : WCtx) (x : Setting) : Setting :=
  { x with name := stripText x.name, kind := stripText x.kind, attributes := c.tr x.attributes }

/-- The texts of a setting. -/
def Setting.texts (x : Setting) : List (Enc × Text) := [(.macroman, x.name), (.macroman, x.kind)]

theorem Setting.rt (h : Linked c d) {x : Setting} (ht : TextsOK x.texts) :
    RT (x.write c) (Setting.read d) (x.norm c) := by
  unfold Setting.write Setting.read
  unfold TextsOK Setting.texts at ht
  rt_steps
  rt_last
  rfl

/-- What is read back for a bin column. -/
def BinColumn.norm (x : BinColumn) : BinColumn := { x with title := stripText x.title }

theorem BinColumn.rt (h : Linked c d) {x : BinColumn} (ht : TextOK .macroman x.title) :
    RT (x.write c) (BinColumn.read d) x.norm := by
  unfold BinColumn.write BinColumn.read
  rt_steps
  rt_last
  rfl

theorem FormatDescriptor.rt (h : Linked c d) {x : FormatDescriptor} :
    RT (x.write c) (FormatDescriptor.read d) x := by
  unfold FormatDescriptor.write FormatDescriptor.read
  rt_steps
  refine RT.wval (fun a o e => ?_) fun a e => ?_
  · simp only [Wr.encode, encodeText] at e
    exact (Wr.pure_eq_ok e).2
  simp only [Wr.encode, encodeText] at e
  obtain ⟨rfl, -⟩ := Wr.pure_eq_ok e
  rt_steps
  refine RT.two16 fun n => ?_
  refine RT.last (RT.bytes rfl) ?_
  rw [decode_utf8]
  rfl

/-- What is read back for a bin view setting. -/
def BinViewSetting.norm (c : WCtx) (x : BinViewSetting) : BinViewSetting :=
  { x with toSetting := x.toSetting.norm c, columns := x.columns.map BinColumn.norm }

/-- The texts of a bin view setting. -/
def BinViewSetting.texts (x : BinViewSetting) : List (Enc × Text) :=
  x.toSetting.texts ++ x.columns.map fun b => (.macroman, b.title)

theorem BinViewSetting.rt (h : Linked c d) {x : BinViewSetting} (ht : TextsOK x.texts)
    (hf : ∀ v, x.format_descriptors = some v → v.length < 32768) :
    RT (x.write c) (BinViewSetting.read d) (x.norm c) := by
  unfold BinViewSetting.write BinViewSetting.read
  refine RT.bind (Setting.rt h ht.left) ?_
  rt_steps
  refine RT.bind (RT.list (by simp) fun b hb => BinColumn.rt h ?_) ?_
  · exact ht.right (.macroman, b.title) (List.mem_map.2 ⟨b, hb, rfl⟩)
  refine RT.ext_step (RTX.has (fun (s : BinViewSetting) o => { s with format_descriptors := o })
    id rfl fun v hv => RTX.item ?_) ?_
  · have hl := hf v hv
    rt_ext BinViewSetting.ext
    rt_step
    refine RT.bind (RT.u16s16 h (by omega)) ?_
    rt_steps
    refine RT.last (RT.list_id (by simp) fun _ _ => FormatDescriptor.rt h) ?_
    rfl
  refine RT.ext_done (by starts) ?_
  rt_last
  cases x; simp [BinViewSetting.norm]

/-- What is read back for a bin item. -/
def BinItem.norm (c : WCtx) (b : BinItem) : BinItem := { b with mob := c.tr b.mob }

theorem BinItem.rt (h : Linked c d) {x : BinItem} :
    RT (x.write c) (BinItem.read d) (x.norm c) := by
  unfold BinItem.write BinItem.read
  rt_steps
  rt_last
  rfl

/-- What is read back for a sift setting. -/
def SiftItem.norm (x : SiftItem) : SiftItem :=
  { x with string := stripText x.string, column := stripText x.column }

/-- The texts of a sift setting. -/
def SiftItem.texts (x : SiftItem) : List (Enc × Text) :=
  [(.macroman, x.string), (.macroman, x.column)]

theorem SiftItem.rt (h : Linked c d) {x : SiftItem} (ht : TextsOK x.texts) :
    RT (x.write c) (SiftItem.read d) x.norm := by
  unfold SiftItem.write SiftItem.read
  unfold TextsOK SiftItem.texts at ht
  rt_steps
  rt_last
  rfl

theorem sortColumn_rt (h : Linked c d) {p : Int × Text} (ht : TextOK .macroman p.2) :
    RT (wSortColumn c p) (rSortColumn d) (p.1, stripText p.2) := by
  unfold wSortColumn rSortColumn
  rt_steps
  rt_last
  rfl

/-- What is read back for a bin: it stays or becomes large when it had to be written so, and only
six sift settings are stored. -/
def Bin.norm (c : WCtx) (x : Bin) : Bin :=
  { x with
    large_bin := x.isLarge
    view_setting := c.tr x.view_setting
    items := x.items.map (BinItem.norm c)
    sifted_settings := (x.sifted_settings.take 6).map SiftItem.norm
    sort_columns := x.sort_columns.map fun p => (p.1, stripText p.2)
    attributes := c.tr x.attributes }

/-- The texts of a bin. -/
def Bin.texts (x : Bin) : List (Enc × Text) :=
  x.sifted_settings.flatMap SiftItem.texts ++ x.sort_columns.map fun p => (.macroman, p.2)

theorem Bin.rt_count (h : Linked c d) {x : Bin} :
    RT (x.writeCount c) (Bin.readCount d (if x.isLarge then 0x0f else 0x0e)) x.items.length := by
  unfold Bin.writeCount Bin.readCount
  cases x.isLarge
  · exact RT.intL h
  · exact RT.intL h

theorem Bin.rt_body (h : Linked c d) {x : Bin} (ht : TextsOK x.texts) :
    RT (x.writeBody c) (Bin.readBody d) (x.norm c) := by
  unfold Bin.writeBody Bin.readBody
  rt_step
  rt_step
  refine RT.rguard (by cases x.isLarge <;> simp) ?_
  rt_steps
  refine RT.bind (Bin.rt_count h) ?_
  refine RT.bind (RT.list (by simp) fun _ _ => BinItem.rt h) ?_
  rt_steps
  refine RT.bind (RT.nths (fun s hs => SiftItem.rt h fun q hq => ?_) 6 0) ?_
  · exact ht.left q (List.mem_flatMap.2 ⟨s, hs, hq⟩)
  rt_steps
  refine RT.bind (RT.list (by simp) fun p hp => sortColumn_rt h ?_) ?_
  · exact ht.right (.macroman, p.2) (List.mem_map.2 ⟨p, hp, rfl⟩)
  rt_steps
  rt_last
  have : decide ((if x.isLarge = true then (15 : Int) else 14) = 15) = x.isLarge := by
    cases x.isLarge <;> simp
  rw [this]
  rfl

theorem Bin.rt (h : Linked c d) {x : Bin} (ht : TextsOK x.texts) :
    RT (x.write c) (Bin.read d) (x.norm c) := by
  unfold Bin.write Bin.read
  refine RT.bind (Bin.rt_body h ht) ?_
  rt_last
  rfl

/-- What is read back for a first bin. -/
def BinFirst.norm (c : WCtx) (x : BinFirst) : BinFirst := { x with toBin := x.toBin.norm c }

theorem BinFirst.rt (h : Linked c d) {x : BinFirst} (ht : TextsOK x.texts) :
    RT (x.write c) (BinFirst.read d) (x.norm c) := by
  unfold BinFirst.write BinFirst.read
  refine RT.bind (Bin.rt_body h ht) ?_
  rt_steps
  rt_last
  rfl

end

end Avb

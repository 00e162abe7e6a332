import Verif.Model.NewFile
import Verif.Props.Names
import Verif.Lemmas.Loaded
import Verif.Props.Work

/-
C57: new files.
-/

namespace Avb

open Relation

namespace Work

/-- What making a new file does. -/
def setupEvents (uid : Int) : List Event :=
  [.new 1 (.ABIN (newBin uid 2 4)), .new 2 (.BVst (newView 3)), .new 3 (.ATTR ⟨[]⟩), .new 4 (.ATTR ⟨[]⟩)]

theorem Run.append {f : AvbFile} {s₀ s₁ s₂ : St} {es es' : List Event} (h : Run f s₀ es s₁)
    (h' : Run f s₁ es' s₂) : Run f s₀ (es ++ es') s₂ := by
  induction h' with
  | nil => simpa using h
  | snoc _ hs ih => rw [← List.append_assoc]; exact ih.snoc hs

theorem setup_run (uid : Int) (o : Obj) :
    Run emptyFile (start emptyFile o) (setupEvents uid) (setupEmpty uid o) := by
  have h0 : Run emptyFile (start emptyFile o) [] (start emptyFile o) := .nil _
  have h1 := h0.snoc (.new _ (.ABIN (newBin uid 2 4)))
  have h2 := h1.snoc (.new _ (.BVst (newView 3)))
  have h3 := h2.snoc (.new _ (.ATTR ⟨[]⟩))
  have h4 := h3.snoc (.new _ (.ATTR ⟨[]⟩))
  exact h4

/-- C57: a new file has nothing but what was made: a number that is not in use raises. -/
theorem C57_nothing_else {s : St} {i : Nat} (hi : i ≠ 0) (hc : s.cache i = none) :
    ∃ e, (look emptyFile s i).1 = .error e ∧ (look emptyFile s i).2 = s := by
  unfold look
  rw [if_neg hi, hc]
  have : readObject emptyFile i = .error .index := by
    unfold readObject
    rw [if_neg hi]
    simp [emptyFile]
  rw [this]
  exact ⟨_, rfl, rfl⟩

/-- C57: making a new file and any history of lookups, creations, reported edits and collections: if the
objects that are to be saved can be written and there are no cycles, the save succeeds, and the saved file
holds exactly the objects reachable from `root`, each with the content it was last assigned. -/
theorem C57_save {uid : Int} {o₀ : Obj} {es : List Event} {s : St}
    (h : Run emptyFile (setupEmpty uid o₀) es s) {root : Ref}
    {order : Nat → Obj → List Visit} (horder : ∀ i o v, v ∈ order i o ↔ v ∈ o.visits)
    (hedit : ∀ i o, assigned i (setupEvents uid ++ es) = some o →
      Reach (wanted emptyFile order (setupEvents uid ++ es)) root i → o.cls ≠ .TRKG ∧ o.cls ≠ .DATD ∧ o.Readable ∧ o.Stored ∧ ∃ c out, o.write c = .ok ((), out) ∧ out.length < 2 ^ 32)
    (hmade : ∀ i, Reach (wanted emptyFile order (setupEvents uid ++ es)) root i →
      assigned i (setupEvents uid ++ es) ≠ none)
    (rank : Ref → Nat)
    (hrank : ∀ a b, Reach (wanted emptyFile order (setupEvents uid ++ es)) root a →
      Edge (wanted emptyFile order (setupEvents uid ++ es)) a b → rank b < rank a)
    (hcount : (touched es).length + 4 < 2 ^ 32)
    {bo : BO} {hd : HeaderInfo} {pre post : Bytes} (ht : TextOK .macroman hd.last_save_str)
    (hpre : (writeHeaderPre bo hd).bytes = .ok pre) (hpost : (writeHeaderPost bo hd).bytes = .ok post) :
    ∃ fuel₀, ∀ fuel ≥ fuel₀, ∃ bytes' f' num, save (heap emptyFile order s) fuel bo hd root = .ok bytes' ∧
      openTable bytes' = .ok f' ∧ Holds f' (wanted emptyFile order (setupEvents uid ++ es)) root num := by
  refine work_saves (by simp [emptyFile]) ((setup_run uid o₀).append h) horder hedit
    (fun i hi hr => absurd hi (hmade i hr)) rank hrank ?_ ht hpre hpost
  have : (touched (setupEvents uid ++ es)).length = (touched es).length + 4 := by
    simp [setupEvents, touched]
  have e : emptyFile.header.num_objects = 0 := rfl
  rw [this, e]
  exact hcount

/-- What a save asks of an object. -/
def Writable (o : Obj) : Prop :=
  o.cls ≠ .TRKG ∧ o.cls ≠ .DATD ∧ o.Readable ∧ o.Stored ∧ ∃ c out, o.write c = .ok ((), out) ∧ out.length < 2 ^ 32

/-- The write succeeds and gives at most `n` bytes. -/
def Gives (n : Nat) (w : Wr Unit) : Prop := ∃ out, w = .ok ((), out) ∧ out.length ≤ n

theorem Gives.bind {n m : Nat} {w : Wr Unit} {k : Unit → Wr Unit} (h1 : Gives n w) (h2 : Gives m (k ())) :
    Gives (n + m) (w >>= k) := by
  obtain ⟨o1, e1, l1⟩ := h1
  obtain ⟨o2, e2, l2⟩ := h2
  exact ⟨_, Wr.bind_ok e1 e2, by rw [List.length_append]; omega⟩

theorem Gives.step {n m : Nat} {w : Wr Unit} {k : Unit → Wr Unit} (h1 : Gives n w) (hn : n ≤ m)
    (h2 : Gives (m - n) (k ())) : Gives m (w >>= k) := by
  have := h1.bind h2
  rwa [Nat.add_sub_cancel' hn] at this

theorem Gives.le {n m : Nat} {w : Wr Unit} (h : Gives n w) (hn : n ≤ m) : Gives m w := by
  obtain ⟨o, e, l⟩ := h
  exact ⟨o, e, by omega⟩

theorem Gives.get {n : Nat} {a : α} {k : α → Wr Unit} (h : Gives n (k a)) : Gives n (Wr.get (some a) >>= k) := by
  obtain ⟨o, e, l⟩ := h
  exact ⟨[] ++ o, Wr.bind_ok rfl e, l⟩

theorem Gives.int {bo : BO} {t : IntTy} {v : Int} (h1 : t.lo ≤ v) (h2 : v ≤ t.hi) : Gives t.width (wInt bo t v) :=
  ⟨_, wInt_ok h1 h2, by rw [packNat_length]⟩

theorem Gives.num {n v : Nat} (hv : v < 256) (hn : 1 ≤ n) {k : Unit → Wr Unit} (h2 : Gives (n - 1) (k ())) :
    Gives n (wU8 v >>= k) :=
  Gives.step (n := 1) (Gives.int (t := .u8) (by simp [IntTy.lo, IntTy.signed])
    (by simp [IntTy.hi, IntTy.signed, IntTy.width]; omega)) hn h2

theorem Gives.fits {n : Nat} {c : WCtx} {o : Obj} (h : Gives n (o.write c)) (hn : n < 2 ^ 32) :
    ∃ c out, o.write c = .ok ((), out) ∧ out.length < 2 ^ 32 := by
  obtain ⟨out, e, l⟩ := h
  exact ⟨c, out, e, by omega⟩

theorem Gives.byte {b : UInt8} : Gives 1 (wU8 b.toNat) := Gives.int (t := .u8) (byte_in b).1 (byte_in b).2

theorem Gives.emit {bs : Bytes} {n : Nat} (h : bs.length ≤ n) : Gives n (Wr.emit bs) := ⟨bs, rfl, h⟩

theorem Gives.forW {n : Nat} {k : α → Wr Unit} (h : ∀ a, Gives n (k a)) :
    ∀ xs : List α, Gives (xs.length * n) (forW xs k)
  | [] => ⟨[], rfl, by simp⟩
  | x :: xs => by
    rw [List.length_cons, Nat.add_mul, Nat.one_mul, Nat.add_comm]
    exact (h x).bind (Gives.forW h xs)

theorem Gives.ref {r : Ref} : Gives 4 (wRef ⟨.little, fun _ => some 1⟩ r) := by
  unfold wRef
  split
  · exact ⟨_, rfl, by decide⟩
  · exact ⟨_, rfl, by decide⟩

theorem Gives.mobId {bo : BO} {m : MobID} : Gives 49 (wMobId bo m) := by
  have hl : m.label.length = 12 := by simp [MobID.label, m.len]
  have hu : Gives 24 (wUuid bo m.material) := by
    have he : Gives 8 (match bo with
        | .little => Wr.emit (m.material.bytesLE.drop 8)
        | .big => Wr.emit (m.material.bytes.drop 8)) := by
      have h1 : m.material.bytesLE.length = 16 := by
        simp [UUID.bytesLE, swapUuid, m.material.len]
      cases bo <;> exact Gives.emit (by simp [h1, m.material.len])
    unfold wUuid
    refine Gives.num (by decide) (by decide) ?_
    refine Gives.step (Gives.int m.material.timeLow_in.1 m.material.timeLow_in.2) (by decide) ?_
    refine Gives.num (by decide) (by decide) ?_
    refine Gives.step (Gives.int m.material.timeMid_in.1 m.material.timeMid_in.2) (by decide) ?_
    refine Gives.num (by decide) (by decide) ?_
    refine Gives.step (Gives.int m.material.timeHi_in.1 m.material.timeHi_in.2) (by decide) ?_
    refine Gives.num (by decide) (by decide) ?_
    refine Gives.step (Gives.int (by decide) (by decide)) (by decide) ?_
    exact he
  have hf : Gives 12 (Avb.forW m.label fun b => wU8 b.toNat) := by
    have := Gives.forW (k := fun b : UInt8 => wU8 b.toNat) (n := 1) (fun b => Gives.byte) m.label
    rwa [hl] at this
  unfold wMobId
  refine Gives.num (by decide) (by decide) ?_
  refine Gives.step (Gives.int (by decide) (by decide)) (by decide) ?_
  refine Gives.step hf (by decide) ?_
  refine Gives.num (by decide) (by decide) (Gives.byte.step (by decide) ?_)
  refine Gives.num (by decide) (by decide) (Gives.byte.step (by decide) ?_)
  refine Gives.num (by decide) (by decide) (Gives.byte.step (by decide) ?_)
  refine Gives.num (by decide) (by decide) (Gives.byte.step (by decide) ?_)
  exact hu

theorem newAttr_writable : Writable (.ATTR ⟨[]⟩) := by
  refine ⟨by decide, by decide, textsOK_short (by decide), ⟨?_, ?_, ?_⟩, ⟨.little, fun _ => some 1⟩, _, rfl, by decide⟩
  · show ∀ p ∈ (Obj.ATTR ⟨[]⟩).texts, stripText p.2 = p.2
    decide
  · simp [Obj.rates, Stable]
  · simp [Obj.Shape]

theorem newView_writable : Writable (.BVst (newView 3)) := by
  refine ⟨by decide, by decide, ⟨textsOK_short (by decide), ?_⟩, ⟨?_, ?_, ?_⟩, ⟨.little, fun _ => some 1⟩, _, rfl, by decide +kernel⟩
  · intro v hv; cases hv; decide
  · show ∀ p ∈ (Obj.BVst (newView 3)).texts, stripText p.2 = p.2
    decide +kernel
  · simp [Obj.rates, Stable]
  · simp [Obj.Shape]

/-- A mob that was made just now can be written. -/
theorem newMob_writable {name mob_type : Text} {attrs : Ref} {u : UUID} {now : Int} {m : Composition}
    (h : Composition.create name mob_type attrs u now = .ok m) (h0 : 0 ≤ now) (h1 : now < 2 ^ 32) :
    Writable (.CMPO m) := by
  have hd : Gives 4 (wDate .little now) :=
    Gives.int (t := .u32) h0 (by show now ≤ 4294967295; omega)
  have hm : mob_type ∈ ["CompositionMob".toList, "MasterMob".toList, "SourceMob".toList] := by
    by_contra hc
    rw [C41_unknown hc] at h
    cases h
  obtain ⟨i, hi, _⟩ := C29_new u
  unfold Composition.create at h
  rw [hi] at h
  simp only [List.mem_cons, List.not_mem_nil, or_false] at hm
  rcases hm with rfl | rfl | rfl <;>
  · cases h
    refine ⟨by simp [Obj.cls], by simp [Obj.cls], textsOK_short ?_, ⟨?_, ?_, ?_⟩, ?_⟩
    · simp [Component.texts]
    · intro p hp
      simp [Obj.texts, Component.texts] at hp
      rcases hp with rfl | rfl <;> decide
    · simp [Obj.rates, Stable, Component.rates, exComp_rate]
    · simp [Obj.Shape, TrackGroup.Stored, Component.Stored]
    · refine Gives.fits (n := 1000) (c := ⟨.little, fun _ => some 1⟩) ?_ (by decide)
      · refine Gives.step (n := 100) (Gives.step (n := 80) ?_ (by decide) ⟨_, rfl, Nat.le_of_ble_eq_true rfl⟩) (by decide) ?_
        · refine Gives.num (by decide) (by decide) (Gives.num (by decide) (by decide) ?_)
          refine Gives.ref.step (by decide) (Gives.ref.step (by decide) ?_)
          refine Gives.step (n := 20) ⟨_, rfl, Nat.le_of_ble_eq_true rfl⟩ (by decide) ?_
          refine Gives.step (n := 6) ⟨_, rfl, Nat.le_of_ble_eq_true rfl⟩ (by decide) ?_
          refine Gives.step (n := 20) ⟨_, rfl, Nat.le_of_ble_eq_true rfl⟩ (by decide) ?_
          refine Gives.step (n := 2) ⟨_, rfl, Nat.le_of_ble_eq_true rfl⟩ (by decide) ?_
          refine Gives.ref.step (by decide) (Gives.ref.step (by decide) (Gives.ref.step (by decide) ?_))
          exact ⟨_, rfl, Nat.le_of_ble_eq_true rfl⟩
        · refine Gives.num (by decide) (by decide) (Gives.num (by decide) (by decide) (Gives.get ?_))
          refine Gives.step (Gives.int i.lo_in.1 i.lo_in.2) (by decide) ?_
          refine Gives.step (Gives.int i.hi_in.1 i.hi_in.2) (by decide) ?_
          refine Gives.step hd (by decide) ?_
          refine Gives.step (n := 1) ⟨_, rfl, Nat.le_of_ble_eq_true rfl⟩ (by decide) ?_
          refine Gives.step (n := 4) ⟨_, rfl, Nat.le_of_ble_eq_true rfl⟩ (by decide) ?_
          refine Gives.ref.step (by decide) ?_
          refine Gives.step (n := 7) ?_ (by decide) (Gives.step (n := 51) ?_ (by decide) ⟨_, rfl, Nat.le_of_ble_eq_true rfl⟩)
          · exact Gives.num (by decide) (by decide) (Gives.num (by decide) (by decide)
              (Gives.num (by decide) (by decide) hd))
          · exact Gives.num (by decide) (by decide) (Gives.num (by decide) (by decide) Gives.mobId)
/-- A bin made just now, with the mobs under the numbers 5, 7, … -/
def binWith (uid : Int) (n : Nat) : Bin := { newBin uid 2 4 with items := (List.range n).map fun k => newItem (5 + 2 * k) }

theorem newBin_writable {uid : Int} (h0 : 0 ≤ uid) (h1 : uid < 2 ^ 64) {n : Nat} (hn : n ≤ 65535) :
    Writable (.ABIN (binWith uid n)) := by
  refine ⟨by simp [Obj.cls], by simp [Obj.cls], ?_, ⟨?_, ?_, ?_⟩, ?_⟩
  · exact textsOK_short (show ∀ p ∈ (newBin 0 2 4).texts, _ by decide)
  · show ∀ p ∈ (newBin 0 2 4).texts, stripText p.2 = p.2
    decide
  · simp [Obj.rates, Stable]
  · simp only [Obj.Shape, Bin.Stored, binWith, newBin, List.length_map, List.length_range, List.length_replicate]
    omega
  · have hl : (binWith uid n).isLarge = false := by
      simp [Bin.isLarge, binWith, newBin]
      omega
    have hlen : (binWith uid n).items.length = n := by simp [binWith]
    have hitems : Gives (n * 13) (forW (binWith uid n).items (BinItem.write ⟨.little, fun _ => some 1⟩)) := by
      have : ∀ xs : List Nat, Gives (xs.length * 13)
          (forW (xs.map fun k => newItem (5 + 2 * k)) (BinItem.write ⟨.little, fun _ => some 1⟩)) := by
        intro xs
        induction xs with
        | nil => exact ⟨[], rfl, by simp⟩
        | cons x xs ih =>
          rw [List.length_cons, Nat.add_mul, Nat.one_mul, Nat.add_comm]
          refine Gives.bind ?_ ih
          refine Gives.ref.step (by decide) ⟨_, rfl, Nat.le_of_ble_eq_true rfl⟩
      have h := this (List.range n)
      rwa [List.length_range] at h
    refine Gives.fits (n := n * 13 + 1000) (c := ⟨.little, fun _ => some 1⟩) ?_ (by omega)
    have h13 : Gives (n * 13 + 999) (Bin.writeBody ⟨.little, fun _ => some 1⟩ (binWith uid n)) := by
      unfold Bin.writeBody Bin.writeCount
      rw [hl, hlen]
      refine Gives.num (v := 2) (by decide) (by omega) (Gives.num (v := 14) (by decide) (by omega) ?_)
      refine Gives.ref.step (by omega) ?_
      refine Gives.step (n := 8) (Gives.int (t := .u64) h0 (by show uid ≤ 18446744073709551615; omega)) (by omega) ?_
      refine Gives.step (n := 2) (Gives.int (t := .u16) (by simp [IntTy.lo, IntTy.signed])
        (by simp [IntTy.hi, IntTy.signed, IntTy.width]; omega)) (by omega) ?_
      refine Gives.step hitems (by omega) ?_
      refine Gives.le (n := 400) ⟨_, rfl, ?_⟩ (by omega)
      exact Nat.le_of_ble_eq_true rfl
    exact Gives.step h13 (by omega) (Gives.le (n := 1) ⟨_, rfl, Nat.le_of_ble_eq_true rfl⟩ (by omega))

/-- What making the mobs `ms 0`, … and adding them to the bin does. -/
def mobEvents (uid : Int) (ms : Nat → Composition) : Nat → List Event
  | 0 => []
  | n + 1 => mobEvents uid ms n ++ [.new (5 + 2 * n) (.CMPO (ms n))] ++ [.new (6 + 2 * n) (.ATTR ⟨[]⟩)] ++
      [.edit 1 (.ABIN (binWith uid (n + 1)))]

/-- A new file to which the mobs `ms 0`, …, `ms (n - 1)` were added. -/
def withMobs (uid : Int) (o : Obj) (ms : Nat → Composition) : Nat → St
  | 0 => setupEmpty uid o
  | n + 1 => addMob (withMobs uid o ms n) 0 (ms n)

theorem withMobs_run (uid : Int) (o : Obj) (ms : Nat → Composition) (n : Nat) :
    Run emptyFile (setupEmpty uid o) (mobEvents uid ms n) (withMobs uid o ms n) ∧
    (withMobs uid o ms n).next = 4 + 2 * n ∧ 0 < (withMobs uid o ms n).fresh ∧ (withMobs uid o ms n).gone = [] ∧
    (withMobs uid o ms n).objs 0 = (1, .ABIN (binWith uid n)) := by
  induction n with
  | zero => exact ⟨.nil _, rfl, Nat.lt_of_sub_eq_succ rfl, rfl, rfl⟩
  | succ n ih =>
    obtain ⟨h1, h2, h3, h4, h5⟩ := ih
    have e0 : ∀ {s : St} {i : Nat} {x : Obj}, 0 < s.fresh → (create s x).objs 0 = s.objs 0 := by
      intro s i x h
      simp [create, alloc, Nat.ne_of_lt h]
    have k1 := h1.snoc (.new _ (.CMPO (ms n)))
    have k2 := k1.snoc (.new _ (.ATTR ⟨[]⟩))
    have o2 : (create (create (withMobs uid o ms n) (.CMPO (ms n))) (.ATTR ⟨[]⟩)).objs 0 = (1, .ABIN (binWith uid n)) := by
      rw [e0 (i := 0) (by simp [create, alloc]), e0 (i := 0) h3, h5]
    have k3 := k2.snoc (.edit _ 0 (.ABIN (binWith uid (n + 1))) ⟨by simp [create, alloc], by simp [create, alloc, h4]⟩)
    have hs : withMobs uid o ms (n + 1) = edit (create (create (withMobs uid o ms n) (.CMPO (ms n))) (.ATTR ⟨[]⟩)) 0
        (.ABIN (binWith uid (n + 1))) := by
      show addMob _ _ _ = _
      unfold addMob
      dsimp only
      rw [o2]
      dsimp only
      rw [h2]
      congr 2
      simp only [binWith, List.range_succ, List.map_append, List.map_cons, List.map_nil]
      rw [show 4 + 2 * n + 1 = 5 + 2 * n by omega]
    rw [hs]
    refine ⟨?_, ?_, ?_, ?_, ?_⟩
    · rw [o2] at k3
      have e1 : (withMobs uid o ms n).next + 1 = 5 + 2 * n := by rw [h2]; omega
      have e2 : (create (withMobs uid o ms n) (.CMPO (ms n))).next + 1 = 6 + 2 * n := by
        show (withMobs uid o ms n).next + 1 + 1 = _
        rw [h2]; omega
      rw [e1, e2] at k3
      exact k3
    · show (withMobs uid o ms n).next + 1 + 1 = _
      rw [h2]; omega
    · simp [edit, create, alloc]
    · simp [edit, create, alloc, h4]
    · simp [edit, o2]

theorem assigned_append_new {i j : Nat} {o : Obj} {es : List Event} :
    assigned i (es ++ [.new j o]) = if i = j then some o else assigned i es := by
  rw [assigned_snoc]
  simp only [eq_comm]

theorem assigned_append_edit {i j : Nat} {o : Obj} {es : List Event} :
    assigned i (es ++ [.edit j o]) = if i = j then some o else assigned i es := by
  rw [assigned_snoc]
  simp only [eq_comm]

/-- The contents at the end. -/
theorem mobs_assigned {uid : Int} {ms : Nat → Composition} (n i : Nat) :
    assigned i (setupEvents uid ++ mobEvents uid ms n) =
    if i = 1 then some (.ABIN (binWith uid n)) else if i = 2 then some (.BVst (newView 3))
    else if i = 3 ∨ i = 4 then some (.ATTR ⟨[]⟩)
    else if 5 ≤ i ∧ i < 5 + 2 * n then
      some (if i % 2 = 1 then .CMPO (ms ((i - 5) / 2)) else .ATTR ⟨[]⟩) else none := by
  induction n with
  | zero =>
    simp only [setupEvents, assigned, mobEvents, List.append_nil]
    by_cases h1 : i = 1
    · simp [h1, binWith, newBin]
    · by_cases h2 : i = 2
      · simp [h2]
      · by_cases h3 : i = 3
        · simp [h3]
        · by_cases h4 : i = 4
          · simp [h4]
          · simp [h1, h2, h3, h4, Ne.symm h1, Ne.symm h2, Ne.symm h3, Ne.symm h4]
  | succ n ih =>
    rw [mobEvents, ← List.append_assoc, ← List.append_assoc, ← List.append_assoc, assigned_append_edit,
      assigned_append_new, assigned_append_new, ih]
    by_cases h1 : i = 1
    · simp [h1]
    · rw [if_neg h1, if_neg h1, if_neg h1]
      by_cases h6 : i = 6 + 2 * n
      · subst h6
        rw [if_pos rfl, if_neg (by omega), if_neg (by omega), if_pos (by omega), if_neg (by omega)]
      · rw [if_neg h6]
        by_cases h5 : i = 5 + 2 * n
        · subst h5
          rw [if_pos rfl, if_neg (by omega), if_neg (by omega), if_pos (by omega), if_pos (by omega)]
          rw [show (5 + 2 * n - 5) / 2 = n by omega]
        · rw [if_neg h5]
          have : (5 ≤ i ∧ i < 5 + 2 * n) ↔ (5 ≤ i ∧ i < 5 + 2 * (n + 1)) := by omega
          simp only [this]

/-- The mobs were made by the constructor, in this order, at times that can be stored. -/
def Made (ms : Nat → Composition) (n : Nat) : Prop :=
  ∀ k < n, ∃ name mob_type u now, Composition.create name mob_type (6 + 2 * k) u now = .ok (ms k) ∧
    0 ≤ now ∧ now < 2 ^ 32

theorem create_visits {name mob_type : Text} {attrs : Ref} {u : UUID} {now : Int} {m : Composition}
    (h : Composition.create name mob_type attrs u now = .ok m) {b : Ref} (hb : b ≠ 0) :
    (∃ v ∈ (Obj.CMPO m).visits, v.ref = b) ↔ b = attrs := by
  have hm : mob_type ∈ ["CompositionMob".toList, "MasterMob".toList, "SourceMob".toList] := by
    by_contra hc
    rw [C41_unknown hc] at h
    cases h
  obtain ⟨i, hi, _⟩ := C29_new u
  unfold Composition.create at h
  rw [hi] at h
  simp only [List.mem_cons, List.not_mem_nil, or_false] at hm
  rcases hm with rfl | rfl | rfl <;>
  · cases h
    simp [Obj.visits, Composition.visits, TrackGroup.visits, Component.visits, optProp, Visit.ref]
    constructor
    · rintro (rfl | rfl | rfl)
      · exact absurd rfl hb
      · rfl
      · exact absurd rfl hb
    · rintro rfl
      simp

theorem create_renumber {name mob_type : Text} {attrs : Ref} {u : UUID} {now : Int} {m : Composition}
    (h : Composition.create name mob_type attrs u now = .ok m) {g : Ref → Ref} (hg : g 0 = 0) :
    (Obj.CMPO m).renumber g = .CMPO { m with attributes := g attrs } := by
  have hm : mob_type ∈ ["CompositionMob".toList, "MasterMob".toList, "SourceMob".toList] := by
    by_contra hc
    rw [C41_unknown hc] at h
    cases h
  obtain ⟨i, hi, _⟩ := C29_new u
  unfold Composition.create at h
  rw [hi] at h
  simp only [List.mem_cons, List.not_mem_nil, or_false] at hm
  rcases hm with rfl | rfl | rfl <;>
  · cases h
    simp [Obj.renumber, Composition.renumber, TrackGroup.renumber, Component.renumber, hg]

section
variable {order : Nat → Obj → List Visit} {uid : Int} {ms : Nat → Composition} {n : Nat}

theorem mobs_edge (horder : ∀ i o v, v ∈ order i o ↔ v ∈ o.visits) (hms : Made ms n) {a b : Nat} :
    Edge (wanted emptyFile order (setupEvents uid ++ mobEvents uid ms n)) a b ↔
      (a = 1 ∧ (b = 2 ∨ b = 4 ∨ ∃ k < n, b = 5 + 2 * k)) ∨ (a = 2 ∧ b = 3) ∨
      ∃ k < n, a = 5 + 2 * k ∧ b = 6 + 2 * k := by
  have g : ∀ i o, assigned i (setupEvents uid ++ mobEvents uid ms n) = some o → ∀ b, i ≠ 0 → b ≠ 0 →
      (Edge (wanted emptyFile order (setupEvents uid ++ mobEvents uid ms n)) i b ↔ ∃ v ∈ o.visits, v.ref = b) := by
    intro i o h b hi hb
    have hw : wanted emptyFile order (setupEvents uid ++ mobEvents uid ms n) i = .ok ⟨i, true, o, order i o⟩ := by
      simp [wanted, h]
    constructor
    · rintro ⟨e, he, _, _, v, hv, hvb⟩
      rw [hw] at he; cases he
      exact ⟨v, (horder _ _ v).1 hv, hvb⟩
    · rintro ⟨v, hv, hvb⟩
      exact ⟨_, hw, hi, hb, v, (horder _ _ v).2 hv, hvb⟩
  by_cases hb : b = 0
  · subst hb
    constructor
    · rintro ⟨_, _, _, h, _⟩; exact absurd rfl h
    · rintro (⟨_, h | h | ⟨k, _, h⟩⟩ | ⟨_, h⟩ | ⟨k, _, _, h⟩)
      · cases h
      · cases h
      · exact absurd h (by omega)
      · cases h
      · exact absurd h (by omega)
  by_cases ha : a = 0
  · subst ha
    constructor
    · rintro ⟨_, _, h, _, _⟩; exact absurd rfl h
    · rintro (⟨h, _⟩ | ⟨h, _⟩ | ⟨k, _, h, _⟩)
      · cases h
      · cases h
      · exact absurd h (by omega)
  have hasg := mobs_assigned (uid := uid) (ms := ms) n a
  by_cases h1 : a = 1
  · subst h1
    rw [if_pos rfl] at hasg
    rw [g _ _ hasg b ha hb]
    simp only [Obj.visits, Bin.visits, binWith, newBin, newItem]
    simp [Visit.ref]
    constructor
    · rintro (h | ⟨k, hk, h⟩ | h)
      · exact .inl (.inl h.symm)
      · exact .inl (.inr (.inr ⟨k, hk, h.symm⟩))
      · exact .inl (.inr (.inl h.symm))
    · rintro ((h | h | ⟨k, hk, h⟩) | ⟨k, _, h, _⟩)
      · exact .inl h.symm
      · exact .inr (.inr h.symm)
      · exact .inr (.inl ⟨k, hk, h.symm⟩)
      · omega
  by_cases h2 : a = 2
  · subst h2
    rw [if_neg h1, if_pos rfl] at hasg
    rw [g _ _ hasg b ha hb]
    simp [Obj.visits, BinViewSetting.visits, newView, Visit.ref]
    constructor
    · intro h; exact .inl h.symm
    · rintro (h | ⟨k, _, h, _⟩)
      · exact h.symm
      · omega
  by_cases h3 : a = 3 ∨ a = 4
  · rw [if_neg h1, if_neg h2, if_pos h3] at hasg
    rw [g _ _ hasg b ha hb]
    simp [Obj.visits, Attributes.visits, Visit.ref]
    exact ⟨fun h => absurd h h1, fun h => absurd h h2, fun k _ h => by omega⟩
  rw [if_neg h1, if_neg h2, if_neg h3] at hasg
  by_cases h5 : 5 ≤ a ∧ a < 5 + 2 * n
  · rw [if_pos h5] at hasg
    rw [g _ _ hasg b ha hb]
    by_cases hodd : a % 2 = 1
    · rw [if_pos hodd]
      obtain ⟨_, _, _, _, hc, _⟩ := hms ((a - 5) / 2) (by omega)
      rw [create_visits hc hb]
      constructor
      · intro h
        exact .inr (.inr ⟨(a - 5) / 2, by omega, by omega, h⟩)
      · rintro (⟨h, _⟩ | ⟨h, _⟩ | ⟨k, _, h, h'⟩)
        · omega
        · omega
        · rw [h', show k = (a - 5) / 2 by omega]
    · rw [if_neg hodd]
      simp [Obj.visits, Attributes.visits, Visit.ref]
      exact ⟨fun h => absurd h h1, fun h => absurd h h2, fun k _ h => by omega⟩
  · rw [if_neg h5] at hasg
    constructor
    · rintro ⟨e, he, _⟩
      unfold wanted at he
      rw [hasg] at he
      simp [fileHeap, readObject, ha, emptyFile] at he
    · rintro (⟨h, _⟩ | ⟨h, _⟩ | ⟨k, _, h, _⟩) <;> omega

theorem mobs_reach (horder : ∀ i o v, v ∈ order i o ↔ v ∈ o.visits) (hms : Made ms n) {a : Nat} :
    Reach (wanted emptyFile order (setupEvents uid ++ mobEvents uid ms n)) 1 a ↔ 1 ≤ a ∧ a ≤ 4 + 2 * n := by
  constructor
  · rintro ⟨_, h⟩
    induction h with
    | refl => exact ⟨Nat.le_refl 1, by omega⟩
    | tail _ hbc _ =>
      rcases (mobs_edge horder hms).1 hbc with ⟨_, rfl | rfl | ⟨k, hk, rfl⟩⟩ | ⟨_, rfl⟩ | ⟨k, hk, _, rfl⟩ <;>
        constructor <;> omega
  · rintro ⟨h1, h2⟩
    have e := @mobs_edge order uid ms n horder hms
    refine ⟨Nat.pos_iff_ne_zero.1 h1, ?_⟩
    by_cases a1 : a = 1
    · subst a1; exact .refl
    by_cases a2 : a = 2
    · subst a2; exact .single (e.2 (.inl ⟨rfl, .inl rfl⟩))
    by_cases a3 : a = 3
    · subst a3; exact .tail (.single (e.2 (.inl ⟨rfl, .inl rfl⟩))) (e.2 (.inr (.inl ⟨rfl, rfl⟩)))
    by_cases a4 : a = 4
    · subst a4; exact .single (e.2 (.inl ⟨rfl, .inr (.inl rfl)⟩))
    have hk : (a - 5) / 2 < n := by omega
    have e1 := e.2 (.inl ⟨rfl, .inr (.inr ⟨(a - 5) / 2, hk, rfl⟩)⟩)
    by_cases hodd : a % 2 = 1
    · rw [show a = 5 + 2 * ((a - 5) / 2) by omega]
      exact .single e1
    · rw [show a = 6 + 2 * ((a - 5) / 2) by omega]
      exact .tail (.single e1) (e.2 (.inr (.inr ⟨_, hk, rfl, rfl⟩)))

/-- What an empty bin that was never shown is stored as: no items; six sift settings that let everything through,
switched off; not sorted; a grey background, the standard font and rectangle. -/
def freshBin (uid : Int) (view attributes : Ref) (items : List BinItem) : Bin where
  view_setting := view
  attributes := attributes
  uid := uid
  items := items
  large_bin := false
  was_iconic := false
  display_mask := 0x182b7
  display_mode := 0
  sifted := false
  sifted_settings := [⟨1, [], "Any".toList⟩, ⟨1, [], "Any".toList⟩, ⟨1, [], "Any".toList⟩, ⟨1, [], "Any".toList⟩,
    ⟨1, [], "Any".toList⟩, ⟨1, [], "Any".toList⟩]
  sort_columns := []
  mac_font := 1
  mac_font_size := 11
  mac_image_scale := 5
  ql_image_scale := 6
  home_rect := ⟨0, 0, 300, 600⟩
  background_color := ⟨0xb200, 0xb200, 0xb200⟩
  forground_color := ⟨0xd00, 0xd00, 0xd00⟩

/-- The columns of a view: title, format and type; none is hidden. -/
def freshColumns : List BinColumn :=
  [("Color", 105, 51), ("   ", 0, 200), ("Name", 20, 201), ("Creation Date", 102, 12), ("Duration", 100, 4),
    ("Drive", 2, 14), ("IN-OUT", 100, 7), ("Mark IN", 100, 5), ("Mark OUT", 100, 6), ("Tracks", 2, 1),
    ("Start", 100, 2), ("Tape", 2, 8), ("Video", 2, 13), ("Plug-in", 2, 133), ("TapeID", 2, 50), ("Audio SR", 2, 11),
    ("Comments", 2, 40)].map fun p => ⟨p.1.toList, p.2.1, p.2.2, false⟩

/-- The view of such a bin. -/
def freshView (attributes : Ref) : BinViewSetting where
  name := "Untitled".toList
  kind := "Bin View".toList
  attr_count := 1
  attr_type := 20
  attributes := attributes
  format_descriptors := some []
  columns := freshColumns

theorem freshView_eq (a : Ref) : newView a = freshView a := by
  have h1 : default_bin_columns = freshColumns := by decide +kernel
  have h2 : ['U', 'n', 't', 'i', 't', 'l', 'e', 'd'] = "Untitled".toList ∧
      ['B', 'i', 'n', ' ', 'V', 'i', 'e', 'w'] = "Bin View".toList := by decide +kernel
  unfold newView freshView
  rw [← h1, ← h2.1, ← h2.2]

theorem freshBin_eq (uid : Int) (v a : Ref) (l : List BinItem) :
    { newBin uid v a with items := l } = freshBin uid v a l := by
  have h : List.replicate 6 newSift = (freshBin uid v a l).sifted_settings := by
    have h : ['A', 'n', 'y'] = "Any".toList := by decide +kernel
    unfold freshBin newSift
    rw [← h]
    rfl
  unfold newBin
  rw [h]
  rfl

/-- C57: a new file, to which any number of new mobs is added, is saved, in either byte order, whatever
unique id its bin was given: the save succeeds, and the saved file opens and has exactly these objects:
the bin, with its defaults and the mobs as its items in the order in which they were added; its view with
the standard columns; the attributes of both, which are empty; and the mobs as they were made, each with its
empty attributes. -/
theorem C57_mobs (hu : 0 ≤ uid) (hu' : uid < 2 ^ 64) (o₀ : Obj) (hms : Made ms n) (hn : n ≤ 65535)
    (horder : ∀ i o v, v ∈ order i o ↔ v ∈ o.visits)
    {bo : BO} {hd : HeaderInfo} {pre post : Bytes} (ht : TextOK .macroman hd.last_save_str)
    (hpre : (writeHeaderPre bo hd).bytes = .ok pre) (hpost : (writeHeaderPost bo hd).bytes = .ok post) :
    ∃ fuel₀, ∀ fuel ≥ fuel₀, ∃ bytes f, ∃ view battr vattr : Ref, ∃ mob mattr : Nat → Ref,
      save (heap emptyFile order (withMobs uid o₀ ms n)) fuel bo hd 1 = .ok bytes ∧
      openTable bytes = .ok f ∧ f.header.num_objects = 4 + 2 * n ∧
      ([f.header.root_index, view, vattr, battr] ++ (List.range n).flatMap fun k => [mob k, mattr k]).Perm
        (List.range' 1 (4 + 2 * n)) ∧
      readObject f f.header.root_index = .ok (some (.ABIN (freshBin uid view battr
        ((List.range n).map fun k => ⟨mob k, -30000, -30000, 0, true⟩)))) ∧
      readObject f view = .ok (some (.BVst (freshView vattr))) ∧
      readObject f vattr = .ok (some (.ATTR ⟨[]⟩)) ∧ readObject f battr = .ok (some (.ATTR ⟨[]⟩)) ∧
      ∀ k < n, readObject f (mob k) = .ok (some (.CMPO { ms k with attributes := mattr k })) ∧
        readObject f (mattr k) = .ok (some (.ATTR ⟨[]⟩)) := by
  have hw : ∀ i o, assigned i (setupEvents uid ++ mobEvents uid ms n) = some o → Writable o := by
    intro i o h
    rw [mobs_assigned] at h
    split at h
    · cases h; exact newBin_writable hu hu' hn
    · split at h
      · cases h; exact newView_writable
      · split at h
        · cases h; exact newAttr_writable
        · split at h
          · next h5 =>
            cases h
            split
            · obtain ⟨_, _, _, _, hc, h0, h1⟩ := hms ((i - 5) / 2) (by omega)
              exact newMob_writable hc h0 h1
            · exact newAttr_writable
          · cases h
  have hmade : ∀ i, Reach (wanted emptyFile order (setupEvents uid ++ mobEvents uid ms n)) 1 i →
      assigned i (setupEvents uid ++ mobEvents uid ms n) ≠ none := by
    intro i hi
    have := (mobs_reach horder hms).1 hi
    rw [mobs_assigned]
    split
    · simp
    · split
      · simp
      · split
        · simp
        · rw [if_pos (by omega)]
          simp
  have htouch : ∀ n, (touched (mobEvents uid ms n)).length = 3 * n := by
    intro n
    induction n with
    | zero => rfl
    | succ n ih =>
      rw [touched] at ih
      simp only [touched, mobEvents]
      simp
      omega
  obtain ⟨fuel₀, hf⟩ := C57_save (o₀ := o₀) (withMobs_run uid o₀ ms n).1 (root := 1) horder (bo := bo) (hd := hd)
    (fun i o h _ => hw i o h) hmade
    (fun r : Nat => if r = 1 then 2 else if r = 2 then 1 else if 5 ≤ r ∧ r % 2 = 1 then 1 else 0)
    (by
      intro a b _ hab
      rcases (mobs_edge horder hms).1 hab with ⟨rfl, rfl | rfl | ⟨k, hk, rfl⟩⟩ | ⟨rfl, rfl⟩ | ⟨k, hk, rfl, rfl⟩
      · decide
      · decide
      · rw [if_neg (by omega), if_neg (by omega), if_pos (by omega)]
        decide
      · decide
      · rw [if_neg (by omega), if_neg (by omega), if_neg (by omega), if_neg (by omega), if_neg (by omega),
          if_pos (by omega)]
        decide)
    (by rw [htouch]; omega) ht hpre hpost
  refine ⟨fuel₀, fun fuel hfuel => ?_⟩
  obtain ⟨bytes, f, num, h1, h2, h3⟩ := hf fuel hfuel
  have same : ∀ a o, assigned a (setupEvents uid ++ mobEvents uid ms n) = some o → 1 ≤ a → a ≤ 4 + 2 * n →
      readObject f (num a) = .ok (some (o.renumber fun r => if r = 0 then 0 else num r)) := by
    intro a o ho ha ha'
    exact h3.same a ⟨a, true, o, order a o⟩ ((mobs_reach horder hms).2 ⟨ha, ha'⟩) (by simp [wanted, ho])
  have hperm : ((List.range' 1 (4 + 2 * n)).map num).Perm (List.range' 1 f.header.num_objects) := by
    refine (List.perm_ext_iff_of_nodup ?_ List.nodup_range').2 ?_
    · refine List.Nodup.map_on ?_ List.nodup_range'
      intro a ha b hb hab
      rw [List.mem_range'_1] at ha hb
      exact h3.inj a b ((mobs_reach horder hms).2 (by omega)) ((mobs_reach horder hms).2 (by omega)) hab
    · intro k
      rw [List.mem_range'_1, show (1 ≤ k ∧ k < 1 + f.header.num_objects) ↔ (1 ≤ k ∧ k ≤ f.header.num_objects) by
        omega, h3.onto, List.mem_map]
      constructor
      · rintro ⟨a, ha, rfl⟩
        rw [List.mem_range'_1] at ha
        exact ⟨a, (mobs_reach horder hms).2 (by omega), rfl⟩
      · rintro ⟨a, ha, rfl⟩
        have := (mobs_reach horder hms).1 ha
        exact ⟨a, List.mem_range'_1.2 (by omega), rfl⟩
  have hno : f.header.num_objects = 4 + 2 * n := by
    have := hperm.length_eq
    simpa using this.symm
  rw [hno] at hperm
  have htop : f.header.root_index = num 1 := h3.top
  refine ⟨bytes, f, num 2, num 4, num 3, fun k => num (5 + 2 * k), fun k => num (6 + 2 * k), h1, h2, hno, ?_, ?_, ?_, ?_, ?_, ?_⟩
  · rw [htop]
    have e : ∀ m, [num 1, num 2, num 3, num 4] ++ (List.range m).flatMap (fun k => [num (5 + 2 * k), num (6 + 2 * k)]) =
        (List.range' 1 (4 + 2 * m)).map num := by
      intro m
      induction m with
      | zero => rfl
      | succ m ih =>
        rw [List.range_succ, List.flatMap_append, ← List.append_assoc, ih,
          show 4 + 2 * (m + 1) = (4 + 2 * m) + 1 + 1 by omega, List.range'_1_concat, List.range'_1_concat,
          show 1 + (4 + 2 * m) = 5 + 2 * m by omega, show 1 + (4 + 2 * m + 1) = 6 + 2 * m by omega]
        simp
    rw [e]
    exact hperm
  · rw [htop, same 1 _ (mobs_assigned n 1) (by omega) (by omega)]
    rw [← freshBin_eq]
    simp [Obj.renumber, Bin.renumber, binWith, newBin, newItem]
  · rw [← freshView_eq]
    exact same 2 _ (mobs_assigned n 2) (by omega) (by omega)
  · exact same 3 _ (mobs_assigned n 3) (by omega) (by omega)
  · exact same 4 _ (mobs_assigned n 4) (by omega) (by omega)
  · intro k hk
    constructor
    · have := same (5 + 2 * k) (.CMPO (ms k)) (by
        rw [mobs_assigned, if_neg (by omega), if_neg (by omega), if_neg (by omega), if_pos (by omega), if_pos (by omega),
          show (5 + 2 * k - 5) / 2 = k by omega]) (by omega) (by omega)
      obtain ⟨_, _, _, _, hc, _⟩ := hms k hk
      rw [this, create_renumber hc rfl, if_neg (show ¬(6 + 2 * k : Nat) = 0 by omega)]
    · have := same (6 + 2 * k) (.ATTR ⟨[]⟩) (by
        rw [mobs_assigned, if_neg (by omega), if_neg (by omega), if_neg (by omega), if_pos (by omega), if_neg (by omega)])
        (by omega) (by omega)
      exact this

/-- C57: a new file that is saved at once has four objects: the bin without items, its view, and the
attributes of both. -/
theorem C57_fresh (hu : 0 ≤ uid) (hu' : uid < 2 ^ 64) (o₀ : Obj)
    (horder : ∀ i o v, v ∈ order i o ↔ v ∈ o.visits)
    {bo : BO} {hd : HeaderInfo} {pre post : Bytes} (ht : TextOK .macroman hd.last_save_str)
    (hpre : (writeHeaderPre bo hd).bytes = .ok pre) (hpost : (writeHeaderPost bo hd).bytes = .ok post) :
    ∃ fuel₀, ∀ fuel ≥ fuel₀, ∃ bytes f, ∃ view battr vattr : Ref,
      save (heap emptyFile order (setupEmpty uid o₀)) fuel bo hd 1 = .ok bytes ∧
      openTable bytes = .ok f ∧ f.header.num_objects = 4 ∧
      [f.header.root_index, view, vattr, battr].Perm [1, 2, 3, 4] ∧
      readObject f f.header.root_index = .ok (some (.ABIN (freshBin uid view battr []))) ∧
      readObject f view = .ok (some (.BVst (freshView vattr))) ∧
      readObject f vattr = .ok (some (.ATTR ⟨[]⟩)) ∧ readObject f battr = .ok (some (.ATTR ⟨[]⟩)) := by
  obtain ⟨m, _⟩ := C41_new (name := []) (mob_type := "MasterMob".toList) (attrs := 0)
    (u := ⟨List.replicate 16 0, rfl⟩) (now := 0) (by decide)
  obtain ⟨fuel₀, h⟩ := C57_mobs (n := 0) (ms := fun _ => m) hu hu' o₀ (fun k hk => absurd hk (by omega)) (by omega)
    horder (bo := bo) ht hpre hpost
  refine ⟨fuel₀, fun fuel hf => ?_⟩
  obtain ⟨bytes, f, view, battr, vattr, _, _, h1, h2, h3, h4, h5, h6, h7, h8, _⟩ := h fuel hf
  exact ⟨bytes, f, view, battr, vattr, h1, h2, h3, by simpa [List.range'] using h4, h5, h6, h7, h8⟩
end

/-! ### A concrete case: a master mob and a source mob are added -/

theorem exMobs_made : ∃ ms, Made ms 2 := by
  have h : ∀ k : Nat, ∃ m, Composition.create [] (if k = 0 then "MasterMob".toList else "SourceMob".toList) (6 + 2 * k)
      ⟨List.replicate 16 (7 + UInt8.ofNat k), by simp⟩ 1000 = .ok m := by
    intro k
    obtain ⟨m, hm, _⟩ := C41_new (name := []) (mob_type := if k = 0 then "MasterMob".toList else "SourceMob".toList)
      (attrs := 6 + 2 * k) (u := ⟨List.replicate 16 (7 + UInt8.ofNat k), by simp⟩) (now := 1000) (by split <;> decide)
    exact ⟨m, hm⟩
  exact ⟨fun k => (h k).choose, fun k _ => ⟨_, _, _, _, (h k).choose_spec, by decide, by decide⟩⟩

example (bo : BO) : ∃ ms fuel bytes f, ∃ view battr mob1 mob2 : Ref, Made ms 2 ∧
    save (heap emptyFile (fun _ => Obj.visits) (withMobs 77 (.ATTR ⟨[]⟩) ms 2)) fuel bo exInfo 1 = .ok bytes ∧
    openTable bytes = .ok f ∧ f.header.num_objects = 8 ∧ mob1 ≠ mob2 ∧
    readObject f f.header.root_index = .ok (some (.ABIN { newBin 77 view battr with
      items := [⟨mob1, -30000, -30000, 0, true⟩, ⟨mob2, -30000, -30000, 0, true⟩] })) := by
  obtain ⟨pre, hpre⟩ := exInfo_pre bo
  obtain ⟨post, hpost⟩ := exInfo_post bo
  obtain ⟨ms, hms⟩ := exMobs_made
  obtain ⟨fuel₀, h⟩ := C57_mobs (uid := 77) (order := fun _ => Obj.visits) (by decide) (by decide) (.ATTR ⟨[]⟩) hms
    (by decide) (fun _ _ _ => Iff.rfl) exInfo_ok hpre hpost
  obtain ⟨bytes, f, view, battr, vattr, mob, mattr, h1, h2, h3, h4, h5, _⟩ := h fuel₀ (Nat.le_refl _)
  refine ⟨ms, fuel₀, bytes, f, view, battr, mob 0, mob 1, hms, h1, h2, h3, ?_, h5⟩
  have := h4.nodup_iff.2 List.nodup_range'
  simp [List.range_succ] at this
  exact this.2.2.2.2.1.2.1

end Work
end Avb

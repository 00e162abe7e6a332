import Verif.Props.Unchecked
import Verif.Props.Disk

/-!
C87: saving with `check_refs = False`.
-/
namespace Avb

open Relation

/-- C87: a save that meets a reference beyond the table raises, unless an object with that number was made, and leaves a file
that does not open or has no content. -/
theorem C87_save_fails {f : AvbFile} {s : Work.St} {order : Nat → Obj → List Visit} {content x : Ref}
    (hx : Reach (Work.heapFree f order s) content x) (hm : f.positions.length ≤ x) (hc : s.cache x = none)
    (fuel : Nat) (bo : BO) {hd : HeaderInfo} (ht : TextOK .macroman hd.last_save_str) :
    let run := saveRun (Work.heapFree f order s) fuel bo hd content
    run.err ≠ none ∧ ∀ f' o, openFile run.disk = .ok (f', o) → o = none := by
  have hn : Work.heapFree f order s x = .error .index := by
    unfold Work.heapFree readObjectFree
    rw [hc, if_neg hx.1, List.getElem?_eq_none hm]
  obtain ⟨e, he⟩ := Disk.saveRun_missing (h := Work.heapFree f order s) (h' := Work.heapFree f order s)
    (P := fun r => ∃ e, Work.heapFree f order s r = .ok e) (fun _ _ => rfl)
    (fun r hr => by
      cases h : Work.heapFree f order s r with
      | error e => exact ⟨e, rfl⟩
      | ok e => exact absurd ⟨e, h⟩ hr) hx
    (by rintro ⟨e, h⟩; rw [hn] at h; cases h) fuel bo hd
  exact ⟨by rw [he]; simp, fun f' o ho => C35_failed_save ht he ho⟩

/-- C87: if all objects to be saved can be had with the check, the save does the same without. -/
theorem C87_save_same {bytes : Bytes} {f : AvbFile} (ho : openTable bytes = .ok f) {s : Work.St}
    {order : Nat → Obj → List Visit} (horder : ∀ i o v, v ∈ order i o ↔ v ∈ o.visits) {content : Ref}
    (hall : ∀ x, Reach (Work.heap f order s) content x → ∃ e, Work.heap f order s x = .ok e)
    (fuel : Nat) (bo : BO) (hd : HeaderInfo) :
    saveRun (Work.heapFree f order s) fuel bo hd content = saveRun (Work.heap f order s) fuel bo hd content := by
  refine (saveRun_congr ?_ ?_ ?_ ?_ hall fuel bo hd).symm
  · intro r e he v
    unfold Work.heap at he
    split at he
    · cases he
      simp only
      split
      · exact Iff.rfl
      · exact horder _ _ _
    · split at he <;> cases he
      exact Iff.rfl
  · intro r e he
    unfold Work.heap at he
    split at he
    · cases he; rfl
    · split at he <;> cases he
      rfl
  · intro r e he
    unfold Work.heapFree at he
    split at he
    · cases he; rfl
    · split at he <;> cases he
      rfl
  · intro x hx
    obtain ⟨e, he⟩ := hall x hx
    unfold Work.heap at he ⊢
    unfold Work.heapFree
    cases hc : s.cache x with
    | some l => rfl
    | none =>
      rw [hc] at he
      simp only at he ⊢
      cases hr : readObject f x with
      | error e' => rw [hr] at he; cases he
      | ok p =>
        cases p with
        | none => rw [hr] at he; cases he
        | some o => rw [(C87_loads ho hr).1]

/-! ### examples -/

/-- C87_save_fails, C87_save_same: the file with a sequence that refers to 9.  The sequence cannot be saved; the gap can, as
with the check. -/
example (bo : BO) : ∃ bytes f, openTable bytes = .ok f ∧
    (∀ fuel, (saveRun (Work.heapFree f (fun _ => Obj.visits) (Work.start f exFill)) fuel bo exInfo 3).err ≠ none) ∧
    ∀ fuel, saveRun (Work.heapFree f (fun _ => Obj.visits) (Work.start f exFill)) fuel bo exInfo 1 =
      saveRun (Work.heap f (fun _ => Obj.visits) (Work.start f exFill)) fuel bo exInfo 1 := by
  obtain ⟨b, f, o, ho, h3, h9, hp, h1⟩ := exDangling_ok
  have hc : ∀ i, (Work.start f exFill).cache i = none := fun _ => rfl
  refine ⟨b, f, ho, fun fuel => ?_, fun fuel => ?_⟩
  · obtain ⟨v, hv, hv9⟩ := List.mem_map.1 h9
    refine (C87_save_fails (x := 9) ⟨by decide, .single ⟨⟨3, true, o, o.visits⟩, ?_, by decide, by decide, v, hv, hv9⟩⟩
      (by omega) (hc 9) fuel bo exInfo_ok).1
    unfold Work.heapFree
    rw [hc, h3]
  · have e1 : Work.heap f (fun _ => Obj.visits) (Work.start f exFill) 1 = .ok ⟨1, true, exFill, exFill.visits⟩ := by
      unfold Work.heap
      rw [hc, h1]
    refine C87_save_same ho (fun _ _ _ => Iff.rfl) (fun x hx => ?_) fuel bo exInfo
    rcases ReflTransGen.cases_head_iff.1 hx.2 with rfl | ⟨c, ⟨e, he, -, h0, v, hv, hvc⟩, -⟩
    · exact ⟨_, e1⟩
    · rw [e1] at he
      cases he
      have hz : ∀ v ∈ exFill.visits, v.ref = 0 := by decide
      exact absurd (hvc.symm.trans (hz v hv)) h0

end Avb

import Verif.Spec.Fast
import Verif.Lemmas.Obj

/-
The counts in chunks written by the library are not negative.
-/

namespace Avb

/-- Whenever the writer succeeds, the reader gets `v` from the beginning of its output, whatever
follows. -/
def RP {α : Type} (w : Wr Unit) (r : Rd α) (v : α) : Prop :=
  ∀ bs, w = .ok ((), bs) → ∀ tail, ∃ rest, r (bs ++ tail) = .ok (v, rest)

variable {α β : Type}

theorem RP.bind {w1 w2 : Wr Unit} {r1 : Rd α} {k : α → Rd β} {v1 : α} {v : β}
    (h1 : RT w1 r1 v1) (h2 : RP w2 (k v1) v) : RP (w1 >>= fun _ => w2) (r1 >>= k) v := by
  intro bs hbs tail
  obtain ⟨a, o1, o2, e1, e2, rfl⟩ := Wr.bind_eq_ok hbs
  rw [List.append_assoc, Rd.bind_ok (h1 o1 e1 _ trivial)]
  exact h2 o2 e2 tail

theorem RP.bindN {w1 w2 : Wr Unit} {r1 : Rd α} {k : α → Rd β} {v1 : α} {v : β}
    (h1 : RTN w1 r1 v1) (hs : Starts w2) (h2 : RP w2 (k v1) v) :
    RP (w1 >>= fun _ => w2) (r1 >>= k) v := by
  intro bs hbs tail
  obtain ⟨a, o1, o2, e1, e2, rfl⟩ := Wr.bind_eq_ok hbs
  have hf : Follow (o2 ++ tail) := by
    obtain ⟨b, tl, rfl, hb⟩ := hs o2 e2
    exact ⟨b, tl ++ tail, rfl, hb⟩
  rw [List.append_assoc, Rd.bind_ok (h1 o1 e1 _ hf)]
  exact h2 o2 e2 tail

theorem RP.stop {w1 w2 : Wr Unit} {r1 : Rd α} {v : α} (h1 : RT w1 r1 v) :
    RP (w1 >>= fun _ => w2) r1 v := by
  intro bs hbs tail
  obtain ⟨a, o1, o2, e1, e2, rfl⟩ := Wr.bind_eq_ok hbs
  rw [List.append_assoc]
  exact ⟨_, h1 o1 e1 _ trivial⟩

theorem RP.left {w1 w2 : Wr Unit} {r : Rd α} {v : α} (h1 : RP w1 r v) :
    RP (w1 >>= fun _ => w2) r v := by
  intro bs hbs tail
  obtain ⟨a, o1, o2, e1, e2, rfl⟩ := Wr.bind_eq_ok hbs
  rw [List.append_assoc]
  exact h1 o1 e1 _

theorem RP.count {w : Wr Unit} {r : Rd Int} {v : Int} (h : RP w r v) (hv : 0 ≤ v) {bs : Bytes}
    (hw : w = .ok ((), bs)) (tail : Bytes) : CountOK r (bs ++ tail) := by
  obtain ⟨rest, hr⟩ := h bs hw tail
  intro n rest' hn
  rw [hr] at hn
  cases hn
  exact hv

local macro "rp_step" : tactic => `(tactic| with_reducible refine RP.bind (by rt_prim) ?_)

variable {c : WCtx} {d : RCtx}

theorem TrackGroup.rp (h : Linked c d) {x : TrackGroup} (ht : TextsOK x.texts) :
    RP (x.write c) (TrackGroup.storedCount d) x.tracks.length := by
  unfold TrackGroup.write TrackGroup.storedCount
  refine RP.bindN (Component.rt h ht) (by starts) ?_
  repeat rp_step
  exact RP.stop (by rt_prim)

theorem EffectParamList.rp (h : Linked c d) {x : EffectParamList} :
    RP (x.write c) (EffectParamList.storedCount d) x.parameters.length := by
  unfold EffectParamList.write EffectParamList.storedCount
  repeat rp_step
  exact RP.stop (by rt_prim)

theorem DIDDescriptor.rp (h : Linked c d) {x : DIDDescriptor} :
    RP (x.writeBody c) (DIDDescriptor.storedCount d) (x.line_map.length * 4) := by
  unfold DIDDescriptor.writeBody DIDDescriptor.storedCount
  refine RP.bind (MediaFileDescriptor.rt_body h) ?_
  repeat rp_step
  exact RP.stop (by rt_prim)

theorem Fast.countsOK_written {n : Nat} (h : Linked c ⟨.little, n⟩) {x : Obj} (hx : x.Readable)
    {bs : Bytes} (hw : x.write c = .ok ((), bs)) (tail : Bytes) :
    Fast.CountsOK n x.cls (bs ++ tail) := by
  cases x with
  | TKFX x => exact RP.count (RP.left (RP.left (TrackGroup.rp h hx))) (by omega) hw tail
  | SLCT x => exact RP.count (RP.left (TrackGroup.rp h hx.1)) (by omega) hw tail
  | CMPO x => exact RP.count (RP.left (TrackGroup.rp h hx)) (by omega) hw tail
  | DIDD x => exact RP.count (RP.left (DIDDescriptor.rp h)) (by omega) hw tail
  | CDCI x => exact RP.count (RP.left (RP.left (DIDDescriptor.rp h))) (by omega) hw tail
  | FXPS x => exact RP.count (EffectParamList.rp h) (by omega) hw tail
  | _ => trivial

end Avb

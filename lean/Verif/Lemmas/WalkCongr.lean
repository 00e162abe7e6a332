import Verif.Lemmas.Walk

/-! Two heaps that agree on what can be reached are saved the same. -/

namespace Avb

open Relation

theorem walkItems_congr {f g : Ref → Walk} : ∀ {rs : List Ref}, (∀ r ∈ rs, f r = g r) →
    walkItems f rs = walkItems g rs
  | [], _ => rfl
  | r :: rs, h => by
    simp only [walkItems]
    rw [h r (by simp), walkItems_congr fun x hx => h x (by simp [hx])]

theorem walkVisits_congr {h h' : Heap} {f g : Ref → Walk} : ∀ {vs : List Visit},
    (∀ v ∈ vs, f v.ref = g v.ref) → (∀ v ∈ vs, v.ref ≠ 0 → h v.ref = h' v.ref) →
    (∀ v ∈ vs, ∀ e, v.ref ≠ 0 → h v.ref = .ok e → ∀ x ∈ e.obj.listItems, f x = g x) →
    walkVisits h f vs = walkVisits h' g vs
  | [], _, _, _ => rfl
  | .item r :: vs, h1, h2, h3 => by
    simp only [walkVisits]
    rw [walkVisits_congr (fun v hv => h1 v (by simp [hv])) (fun v hv => h2 v (by simp [hv]))
      (fun v hv => h3 v (by simp [hv]))]
    have := h1 (.item r) (by simp)
    simp only [Visit.ref] at this
    rw [this]
  | .prop r :: vs, h1, h2, h3 => by
    simp only [walkVisits]
    rw [walkVisits_congr (fun v hv => h1 v (by simp [hv])) (fun v hv => h2 v (by simp [hv]))
      (fun v hv => h3 v (by simp [hv]))]
    by_cases hr : r = 0
    · rw [if_pos hr, if_pos hr]
    rw [if_neg hr, if_neg hr, ← show h r = h' r from h2 (.prop r) (by simp) hr]
    cases he : h r with
    | error e => rfl
    | ok e =>
      have a := h1 (.prop r) (by simp)
      simp only [Visit.ref] at a
      dsimp only
      rw [a, walkItems_congr (h3 (.prop r) (by simp) e hr he)]

theorem walkObj_congr {h h' : Heap} (hh : HeapOK h) (n : Nat) (r : Ref)
    (hag : ∀ x, Reach h r x → h x = h' x) : walkObj h n r = walkObj h' n r := by
  induction n generalizing r with
  | zero => rfl
  | succ n ih =>
    simp only [walkObj]
    by_cases hr : r = 0
    · rw [if_pos hr, if_pos hr]
    rw [if_neg hr, if_neg hr, ← hag r ⟨hr, .refl⟩]
    cases he : h r with
    | error e => rfl
    | ok e =>
      dsimp only
      have zero : walkObj h n 0 = walkObj h' n 0 := by cases n <;> simp [walkObj]
      have step : ∀ v ∈ e.visits, v.ref ≠ 0 → Edge h r v.ref := fun v hv h0 => ⟨e, he, hr, h0, v, hv, rfl⟩
      rw [walkVisits_congr (h' := h') (g := walkObj h' n)]
      · intro v hv
        by_cases h0 : v.ref = 0
        · rw [h0, zero]
        · exact ih _ fun x hx => hag x ⟨hx.1, .head (step v hv h0) hx.2⟩
      · intro v hv h0
        exact hag _ ⟨h0, .single (step v hv h0)⟩
      · intro v hv e' h0 he' x hx
        by_cases hx0 : x = 0
        · rw [hx0, zero]
        · refine ih x fun y hy => hag y ⟨hy.1, .head (step v hv h0) (.head ?_ hy.2)⟩
          exact ⟨e', he', h0, hx0, _, (hh _ _ he' _).2 (listItems_visits hx), rfl⟩

/-- Each object has its address as `instance_id`. -/
def OwnIids (h : Heap) : Prop := ∀ a e, h a = .ok e → e.iid = a

theorem refMapOf_congr {h h' : Heap} {P : Ref → Prop} (hag : ∀ x, P x → h x = h' x) (hi : OwnIids h)
    (hi' : OwnIids h') (hok : ∀ x, P x → ∃ e, h x = .ok e) {m : Nat → Option Nat}
    (hm : ∀ i, m i ≠ none → P i) : refMapOf h m = refMapOf h' m := by
  have key : ∀ g : Heap, OwnIids g → (∀ x, P x → ∃ e, g x = .ok e) → refMapOf g m = m := by
    intro g hg hgo
    funext r
    unfold refMapOf
    cases he : g r with
    | ok e => dsimp only; rw [hg r e he]
    | error e =>
      dsimp only
      cases hmr : m r with
      | none => rfl
      | some x =>
        obtain ⟨e', h1⟩ := hgo r (hm r (by rw [hmr]; simp))
        rw [he] at h1; cases h1
  rw [key h hi hok, key h' hi' fun x hx => by rw [← hag x hx]; exact hok x hx]

theorem saveLoop_congr {h h' : Heap} {P : Ref → Prop} (hag : ∀ x, P x → h x = h' x) (hi : OwnIids h)
    (hi' : OwnIids h') (hok : ∀ x, P x → ∃ e, h x = .ok e) {bo : BO} : ∀ {rs : List Ref} {s : SaveSt},
    (∀ x ∈ rs, P x) → (∀ i, s.map i ≠ none → P i) → saveLoop h bo rs s = saveLoop h' bo rs s
  | [], _, _, _ => rfl
  | r :: rs, s, hr, hm => by
    simp only [saveLoop]
    rw [← hag r (hr r (by simp))]
    cases he : h r with
    | error e => rfl
    | ok e =>
      dsimp only
      rw [hi r e he]
      have hm' : ∀ i, mapSet s.map r (s.next + 1) i ≠ none → P i := by
        intro i h1
        unfold mapSet at h1
        split at h1
        · next h2 => rw [h2]; exact hr r (by simp)
        · exact hm i h1
      rw [refMapOf_congr hag hi hi' hok hm', saveLoop_congr hag hi hi' hok (fun x hx => hr x (by simp [hx])) hm]
      split
      · rfl
      · split
        · exact saveLoop_congr hag hi hi' hok (fun x hx => hr x (List.mem_cons_of_mem _ hx)) hm'
        · rfl

theorem saveRun_congr {h h' : Heap} {root : Ref} (hh : HeapOK h) (hi : OwnIids h) (hi' : OwnIids h')
    (hag : ∀ x, Reach h root x → h x = h' x) (hok : ∀ x, Reach h root x → ∃ e, h x = .ok e)
    (fuel : Nat) (bo : BO) (hd : HeaderInfo) : saveRun h fuel bo hd root = saveRun h' fuel bo hd root := by
  unfold saveRun
  dsimp only
  rw [← walkObj_congr hh fuel root hag, saveLoop_congr hag hi hi' hok (rs := (walkObj h fuel root).out)
    (s := ⟨0, fun _ => none, []⟩) (walkObj_good hh fuel root []).2 (by intro i h; exact absurd rfl h)]

end Avb

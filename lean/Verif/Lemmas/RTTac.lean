import Verif.Lemmas.RT

/-
Tactics that walk a writer and a reader side by side.
-/

namespace Avb

/-- Side goals `TextOK e t` from a hypothesis `∀ p ∈ x.texts, TextOK p.1 p.2`. -/
macro "text_ok" : tactic => `(tactic| first
  | assumption
  | (refine (‹∀ p ∈ _, TextOK (Prod.fst p) (Prod.snd p)›) (_, _) ?_; simp))

/-- Close one primitive field goal `RT (write of a field) (read of a field) ?v`. -/
syntax "rt_prim" : tactic

macro_rules | `(tactic| rt_prim) => `(tactic| with_reducible first
  | exact RT.tag
  | exact RT.intL ‹Linked _ _›
  | exact RT.ref ‹Linked _ _›
  | exact RT.int
  | exact RT.bool
  | exact RT.boolU8
  | exact RT.double
  | exact RT.byte
  | exact RT.rateL ‹Linked _ _›
  | exact RT.mobIdL ‹Linked _ _›
  | exact RT.uuidL ‹Linked _ _›
  | exact RT.rawUuidL ‹Linked _ _›
  | exact RT.dateL ‹Linked _ _›
  | exact RT.rectL ‹Linked _ _›
  | exact RT.rgbL ‹Linked _ _›
  | exact RT.fourccL ‹Linked _ _›
  | exact RT.refs ‹Linked _ _› (by simp)
  | exact RT.strL ‹Linked _ _› (by text_ok)
  | exact RT.bytes (by first | rfl | simp | (simp; omega) | omega)
  | assumption)

/-- One step through the statements of a writer and its reader. -/
macro "rt_step" : tactic => `(tactic| with_reducible first
  | refine RT.bind (by rt_prim) ?_
  | refine RT.wguard fun _ => ?_
  | refine RT.rguard (by first | assumption | rfl | decide | omega | simp | (simp; omega)) ?_
  | refine RT.wget fun _ _ => ?_
  | refine RT.wassoc ?_)

/-- Walk as far as possible. -/
macro "rt_steps" : tactic => `(tactic| repeat rt_step)

/-- The last field. -/
macro "rt_last" : tactic => `(tactic| with_reducible first
  | refine RT.last (by rt_prim) ?_
  | refine RT.done (by rt_prim) ?_
  | refine RT.pure ?_)

/-- The next statement does not write an extension marker. -/
macro "starts" : tactic => `(tactic| with_reducible first
  | exact Starts.bind (Starts.u8 (by decide))
  | exact Starts.u8 (by decide))

/-- Reduce the extension body at a known tag. -/
macro "rt_ext" n:ident : tactic => `(tactic|
  simp only [$n:ident, Int.reduceEq, if_true, if_false, reduceIte])

/-- Optional extension item stored in field `f` of `S`, read back through `g`, whose extension body
is `n`; the rest of the writer follows. -/
macro "rt_opt" S:term:max f:ident g:term:max n:ident : tactic => `(tactic|
  (refine RT.ext_step (RTX.has (fun (s : $S) o => { s with $f:ident := o }) $g rfl
      fun _ _ => RTX.item ?_) ?_
   · rt_ext $n
     rt_steps
     rt_last
     rfl))

end Avb

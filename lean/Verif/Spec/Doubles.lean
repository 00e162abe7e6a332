import Verif.Model.IOCtx
import Mathlib.Data.Rat.Defs
import Mathlib.Algebra.Order.Ring.Rat
import Mathlib.Algebra.Order.Group.Unbundled.Abs
import Mathlib.Tactic.Ring

/-
The number a double stands for (IEEE 754 binary64), independent of how doubles are found or stored.
-/

namespace Avb

/-- The magnitude of a double in units of 2^-1074, from the 63 bits below the sign: the fraction alone if the
exponent field is zero, else the fraction with a leading one, scaled. -/
def F64.units (b : Nat) : Nat :=
  if b / 2 ^ 52 = 0 then b else (2 ^ 52 + b % 2 ^ 52) * 2 ^ (b / 2 ^ 52 - 1)

/-- The number a double stands for; none for the infinities and what is not a number. -/
def F64.value (d : F64) : Option ℚ :=
  let b := d.bits.toNat % 2 ^ 63
  if b / 2 ^ 52 = 2047 then none
  else some ((if d.bits.toNat / 2 ^ 63 = 0 then 1 else -1) * (F64.units b : ℚ) / 2 ^ 1074)

/-- The double is finite, no finite double is nearer to the number, and if another one is as near then it
stands for the same number or this is the one with the even last bit. -/
def F64.NearestTo (d : F64) (v : ℚ) : Prop :=
  ∃ x, d.value = some x ∧ ∀ d' y, F64.value d' = some y →
    |x - v| ≤ |y - v| ∧ (|x - v| = |y - v| → y = x ∨ d.bits.toNat % 2 = 0)

end Avb

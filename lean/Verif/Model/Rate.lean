import Verif.Model.Prim

/-
Edit rates: floats stored as a decimal mantissa / exponent pair.

Python floats are modelled as exact rationals; every float operation is followed by an explicit
rounding `rnd` to the nearest double (53 bit significand, ties to even, gradual underflow).
-/

namespace Avb

/-- `2 ^ e` for an integer exponent. -/
def pow2 (e : Int) : Rat :=
  match e with
  | .ofNat n => ((2 ^ n : Nat) : Rat)
  | .negSucc n => 1 / ((2 ^ (n + 1) : Nat) : Rat)

/-- Exponent `e` with `2 ^ e ≤ x < 2 ^ (e + 1)`, for positive `x`. -/
def ilog2 (x : Rat) : Int :=
  let l : Int := (Nat.log2 x.num.toNat : Int) - (Nat.log2 x.den : Int)
  if pow2 l ≤ x then l else l - 1

/-- Nearest integer, ties to even. -/
def roundEven (y : Rat) : Int :=
  let f := y.floor
  let r := y - f
  if r < 1 / 2 then f
  else if 1 / 2 < r then f + 1
  else if f % 2 = 0 then f else f + 1

/-- IEEE 754 binary64 rounding to nearest even, with gradual underflow; overflow is handled where
it can occur (`decodeRate`).  This is what every CPython float operation does. -/
def rnd (x : Rat) : Rat :=
  if x = 0 then 0
  else
    let a := if x < 0 then -x else x
    let u := pow2 (max (ilog2 a - 52) (-1074))
    let m := (roundEven (a / u) : Rat) * u
    if x < 0 then -m else m

/-- `int(value)`: truncation toward zero. -/
def truncRat (q : Rat) : Int := if q < 0 then -((-q).floor) else q.floor

/-- The absolute value used in `abs(value * 10)`. -/
def absRat (q : Rat) : Rat := if q < 0 then -q else q

/-- A Python number used as an edit rate: a finite float (or int), an infinity, or NaN.
Signed zeros are not distinguished. -/
inductive Rate where
  | fin (q : Rat)
  | inf (neg : Bool)
  | nan
  deriving DecidableEq, Repr

/-- The scaling loop of `write_exp10_encoded_float` (src/avb/ioctx.py:135-142).  The second argument
is the number of multiplications still allowed, i.e. `exponent + 6`; the loop stops when the value
is integral, when the next product would reach `0x7FFFFFFF`, or at exponent -6. -/
def rateLoop (v : Rat) : Nat → Rat × Int
  | 0 => (v, -6)
  | n + 1 =>
    if (truncRat v : Rat) = v then (v, (n : Int) - 5)
    else if (0x7FFFFFFF : Rat) ≤ absRat (rnd (v * 10)) then (v, (n : Int) - 5)
    else rateLoop (rnd (v * 10)) n

/-- The pair stored for a finite rate (src/avb/ioctx.py:134-150), including the
`exp10_pretty` remapping (src/avb/ioctx.py:16-18, 145-147). -/
def encodeRate (q : Rat) : Int × Int :=
  let (v, e) := rateLoop q 6
  if v = 5994 then (59940, -3) else (truncRat v, e)

/-- `write_exp10_encoded_float` (src/avb/ioctx.py:134-150).  `int(inf)` raises `OverflowError`,
`int(nan)` raises `ValueError`. -/
def wRate (bo : BO) (r : Rate) : Wr Unit :=
  match r with
  | .inf _ => Wr.fail .overflow
  | .nan => Wr.fail .value
  | .fin q => do
    wInt bo .s32 (encodeRate q).1
    wInt bo .s16 (encodeRate q).2

/-- `float(mantissa) * pow(10, exp10)` (src/avb/ioctx.py:132).  For `exp10 ≥ 0` the power is an
`int`, converted to float by the multiplication (`OverflowError` when too large); for negative
`exp10` it is the float power, taken to be the correctly rounded `10 ** exp10` (true of CPython on
glibc for the exponents -1 … -6 the writer produces).  A product beyond the double range is an
infinity. -/
def decodeRate (m e : Int) : Except Err Rate :=
  let fin (q : Rat) : Rate := if pow2 1024 ≤ absRat q then .inf (decide (q < 0)) else .fin q
  if 0 ≤ e then
    let p := rnd ((10 ^ e.toNat : Nat) : Rat)
    if pow2 1024 ≤ p then .error .overflow else .ok (fin (rnd ((m : Rat) * p)))
  else
    let p := rnd (1 / ((10 ^ (-e).toNat : Nat) : Rat))
    .ok (fin (rnd ((m : Rat) * p)))

/-- `read_exp10_encoded_float` (src/avb/ioctx.py:128-132). -/
def rRate (bo : BO) : Rd Rate := do
  let m ← rInt bo .s32
  let e ← rInt bo .s16
  match decodeRate m e with
  | .ok r => return r
  | .error err => Rd.fail err

/-- The rate found after saving and loading `r`. -/
def rateNorm (r : Rate) : Rate :=
  match r with
  | .fin q =>
    match decodeRate (encodeRate q).1 (encodeRate q).2 with
    | .ok r' => r'
    | .error _ => r
  | r => r

end Avb

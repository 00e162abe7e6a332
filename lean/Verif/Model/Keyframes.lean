import Verif.Model.Basic
import Mathlib.Analysis.SpecialFunctions.Trigonometric.Inverse
import Mathlib.Analysis.SpecialFunctions.Pow.Real

/-
Parameter curves: `ParamControlPoint`, `ParamClip.nearest_index`, `value_at`, `integrate`
(src/avb/components.py:468-513, 685-828) and src/avb/interpolation.py.

Floating point numbers are real numbers here.  Every arithmetic operation is followed by `fl`, the
rounding of the machine, which is a parameter: the identity gives exact arithmetic, and theorems that
hold for every (monotone) `fl` hold for IEEE doubles as long as no infinity or NaN occurs; those are not
modelled.  Negative zero is zero.
-/

namespace Avb.Curve

open Avb

noncomputable section

/-- A number, or a reference to an object or to nothing, of which `float` raises `TypeError`
(src/avb/components.py:476, 578-583). -/
inductive KVal where
  | num (x : ℝ)
  | ref

/-- `float(p.value)` (src/avb/components.py:717). -/
def KVal.float : KVal → Except Err ℝ
  | .num x => .ok x
  | .ref => .error .type

/-- `ParamControlPointProperty` (src/avb/components.py:516-529); its type is not used for curves.  The
value is a number, other types are not read (src/avb/components.py:595-600). -/
structure Prop' where
  code : Int
  value : ℝ

/-- `ParamControlPoint` (src/avb/components.py:469-477). -/
structure Point where
  offset : Int × Int
  timescale : Int
  value : KVal
  pp : List Prop'

/-- `ParamControlPoint.time` (src/avb/components.py:480-492).  The 32 bit numbers are exact as floats. -/
def Point.time (fl : ℝ → ℝ) (p : Point) : Except Err ℝ :=
  if p.offset.2 = 0 then .error .value
  else if p.timescale = 0 then .error .value
  else .ok (fl (fl ((p.offset.1 : ℝ) / (p.offset.2 : ℝ)) * (p.timescale : ℝ)))

/-- The name of a property (src/avb/components.py:459-466, 528-529), `none` for `None`. -/
inductive PPName where
  | inPos | inVal | outPos | outVal | mode | baseFrame
  deriving DecidableEq, Repr

/-- `POINT_PROPERTY_MAP.get(code)` (src/avb/components.py:459-466). -/
def ppName (code : Int) : Option PPName :=
  if code = 5 then some .inPos
  else if code = 6 then some .inVal
  else if code = 7 then some .outPos
  else if code = 8 then some .outVal
  else if code = 9 then some .mode
  else if code = 14 then some .baseFrame
  else none

/-- `point_properties.get(name, 0)` (src/avb/components.py:494-501): the last entry of that name, as the
dictionary is filled in order. -/
def getProp (name : PPName) (acc : ℝ) : List Prop' → ℝ
  | [] => acc
  | p :: ps => if ppName p.code = some name then getProp name p.value ps else getProp name acc ps

/-- `ParamControlPoint.base_frame` (src/avb/components.py:503-508): the first entry. -/
def baseFrame : List Prop' → ℝ
  | [] => 0
  | p :: ps => if ppName p.code = some .baseFrame then p.value else baseFrame ps

/-- `tangents[0]` (src/avb/components.py:510-516). -/
def Point.inTangent (p : Point) : ℝ × ℝ := (getProp .inPos 0 p.pp, getProp .inVal 0 p.pp)

/-- `tangents[1]` (src/avb/components.py:510-516). -/
def Point.outTangent (p : Point) : ℝ × ℝ := (getProp .outPos 0 p.pp, getProp .outVal 0 p.pp)

/-- The loop of `nearest_index` (src/avb/components.py:692-705). -/
def search (time : Nat → Except Err ℝ) (t : ℝ) (start stop : Int) : Except Err Nat :=
  if stop < start then .ok (max 0 stop).toNat
  else
    match time ((start + stop) / 2).toNat with
    | .error e => .error e
    | .ok x =>
      if x < t then search time t ((start + stop) / 2 + 1) stop
      else if x > t then search time t start ((start + stop) / 2 - 1)
      else .ok ((start + stop) / 2).toNat
termination_by (stop + 1 - start).toNat
decreasing_by all_goals omega

/-- `control_points[m].time` (src/avb/components.py:699-700). -/
def timeAt (fl : ℝ → ℝ) (ps : List Point) (m : Nat) : Except Err ℝ :=
  match ps[m]? with
  | none => .error .index
  | some p => p.time fl

/-- `ParamClip.nearest_index` (src/avb/components.py:685-705). -/
def nearestIndex (fl : ℝ → ℝ) (ps : List Point) (t : ℝ) : Except Err Nat :=
  if ps = [] then .error .value
  else search (timeAt fl ps) t 0 ((ps.length : Int) - 1)

/-- A division of floats, which raises `ZeroDivisionError`. -/
def fdiv (fl : ℝ → ℝ) (a b : ℝ) : Except Err ℝ :=
  if b = 0 then .error .zeroDivision else .ok (fl (a / b))

/-- `math.sqrt`, which raises `ValueError` for negative arguments. -/
def fsqrt (fl : ℝ → ℝ) (a : ℝ) : Except Err ℝ :=
  if a < 0 then .error .value else .ok (fl (Real.sqrt a))

/-- `lerp` (src/avb/interpolation.py:12-13). -/
def lerp (fl : ℝ → ℝ) (a b t : ℝ) : ℝ := fl (a + fl (fl (b - a) * t))

/-- `cubic_bezier` (src/avb/interpolation.py:15-21). -/
def cubicBezier (fl : ℝ → ℝ) (p0 p1 p2 p3 t : ℝ) : ℝ :=
  let u := fl (1 - t)
  let w1 := fl (fl (u * u) * u)
  let w2 := fl (fl (fl (3 * u) * u) * t)
  let w3 := fl (fl (fl (3 * u) * t) * t)
  let w4 := fl (fl (t * t) * t)
  fl (fl (fl (fl (w1 * p0) + fl (w2 * p1)) + fl (w3 * p2)) + fl (w4 * p3))

/-- `EPSILON` (src/avb/interpolation.py:10); the rounding of the literal is ignored. -/
def epsilon : ℝ := 1 / 10 ^ 10

/-- `valid_root` (src/avb/interpolation.py:23-25). -/
def validRoot (fl : ℝ → ℝ) (v : ℝ) : Prop := v ≥ -epsilon ∧ v ≤ fl (1 + epsilon)

/-- `if valid_root(root): result.append(root)`. -/
def keep (fl : ℝ → ℝ) (result : List ℝ) (root : ℝ) : List ℝ :=
  open Classical in if validRoot fl root then result ++ [root] else result

/-- `cube_root` (src/avb/interpolation.py:27-33). -/
def cubeRoot (fl : ℝ → ℝ) (x : ℝ) : ℝ :=
  if x < 0 then fl (fl (|x| ^ (fl (1 / 3))) * (-1)) else fl (x ^ (fl (1 / 3)))

/-- The linear case of `bezier_cubic_roots` (src/avb/interpolation.py:48-58). -/
def linearRoots (fl : ℝ → ℝ) (b c : ℝ) : Except Err (List ℝ) :=
  if |b| < epsilon then .ok []
  else do
    let root ← fdiv fl (-c) b
    return keep fl [] root

/-- The quadratic case of `bezier_cubic_roots` (src/avb/interpolation.py:60-71). -/
def quadraticRoots (fl : ℝ → ℝ) (a b c : ℝ) : Except Err (List ℝ) := do
  let q ← fsqrt fl (fl (fl (b * b) - fl (fl (4 * a) * c)))
  let a2 := fl (2 * a)
  let r1 ← fdiv fl (fl (q - b)) a2
  let r2 ← fdiv fl (fl (-b - q)) a2
  return keep fl (keep fl [] r1) r2

/-- Three real roots (src/avb/interpolation.py:84-108). -/
def threeRoots (fl : ℝ → ℝ) (a p q : ℝ) : Except Err (List ℝ) := do
  let mp3 ← fdiv fl (-p) 3
  let mp33 := fl (fl (mp3 * mp3) * mp3)
  let r ← fsqrt fl mp33
  let t ← fdiv fl (-q) (fl (2 * r))
  let cosphi := max (-1) (min 1 t)
  let phi := fl (Real.arccos cosphi)
  let crtr := cubeRoot fl r
  let t1 := fl (2 * crtr)
  let a3 ← fdiv fl a 3
  let f1 ← fdiv fl phi 3
  let f2 ← fdiv fl (fl (phi + fl (2 * fl Real.pi))) 3
  let f3 ← fdiv fl (fl (phi + fl (4 * fl Real.pi))) 3
  let r1 := fl (fl (t1 * fl (Real.cos f1)) - a3)
  let r2 := fl (fl (t1 * fl (Real.cos f2)) - a3)
  let r3 := fl (fl (t1 * fl (Real.cos f3)) - a3)
  return keep fl (keep fl (keep fl [] r1) r2) r3

/-- Three real roots of which two are equal (src/avb/interpolation.py:110-124). -/
def twoRoots (fl : ℝ → ℝ) (a q2 : ℝ) : Except Err (List ℝ) := do
  let u1 := if q2 < 0 then cubeRoot fl (-q2) else -cubeRoot fl q2
  let a3 ← fdiv fl a 3
  let r1 := fl (fl (2 * u1) - a3)
  let r2 := fl (-u1 - a3)
  return keep fl (keep fl [] r1) r2

/-- One real root (src/avb/interpolation.py:126-134). -/
def oneRoot (fl : ℝ → ℝ) (a q2 discriminant : ℝ) : Except Err (List ℝ) := do
  let sd ← fsqrt fl discriminant
  let u1 := cubeRoot fl (fl (sd - q2))
  let v1 := cubeRoot fl (fl (sd + q2))
  let a3 ← fdiv fl a 3
  return keep fl [] (fl (fl (u1 - v1) - a3))

/-- The cubic case of `bezier_cubic_roots` (src/avb/interpolation.py:73-134), with the coefficients already
divided. -/
def cubicRoots (fl : ℝ → ℝ) (a b c : ℝ) : Except Err (List ℝ) := do
  let p ← fdiv fl (fl (fl (3 * b) - fl (a * a))) 3
  let p3 ← fdiv fl p 3
  let q ← fdiv fl (fl (fl (fl (fl (fl (2 * a) * a) * a) - fl (fl (9 * a) * b)) + fl (27 * c))) 27
  let q2 ← fdiv fl q 2
  let discriminant := fl (fl (q2 * q2) + fl (fl (p3 * p3) * p3))
  if discriminant < 0 then threeRoots fl a p q
  else if discriminant = 0 then twoRoots fl a q2
  else oneRoot fl a q2 discriminant

/-- `bezier_cubic_roots` (src/avb/interpolation.py:37-134). -/
def bezierCubicRoots (fl : ℝ → ℝ) (pa pb pc pd : ℝ) : Except Err (List ℝ) :=
  let a := fl (fl (fl (3 * pa) - fl (6 * pb)) + fl (3 * pc))
  let b := fl (fl (-3 * pa) + fl (3 * pb))
  let c := pa
  let d := fl (fl (fl (-pa + fl (3 * pb)) - fl (3 * pc)) + pd)
  if |d| < epsilon then
    if |a| < epsilon then linearRoots fl b c
    else quadraticRoots fl a b c
  else do
    let a ← fdiv fl a d
    let b ← fdiv fl b d
    let c ← fdiv fl c d
    cubicRoots fl a b c

/-- `scale_handle` (src/avb/interpolation.py:136-148). -/
def scaleHandle (fl : ℝ → ℝ) (p0 p1 p2 : ℝ × ℝ) : Except Err (ℝ × ℝ) := do
  let y ← fdiv fl (fl (fl (p1.2 - p0.2) * fl (p2.1 - p0.1))) (fl (p1.1 - p0.1))
  return (p2.1, fl (p0.2 + y))

/-- The handle `p1` brought between the ends (src/avb/interpolation.py:157-162). -/
def startHandle (fl : ℝ → ℝ) (p0 p1 p3 : ℝ × ℝ) : Except Err (ℝ × ℝ) :=
  if p1.1 > p3.1 then scaleHandle fl p0 p1 p3
  else if p1.1 < p0.1 then pure (p0.1, p1.2)
  else pure p1

/-- The handle `p2` brought between the ends (src/avb/interpolation.py:164-169). -/
def endHandle (fl : ℝ → ℝ) (p0 p2 p3 : ℝ × ℝ) : Except Err (ℝ × ℝ) :=
  if p2.1 < p0.1 then scaleHandle fl p3 p2 p0
  else if p2.1 > p3.1 then pure (p3.1, p2.2)
  else pure p2

/-- `bezier_interpolate` (src/avb/interpolation.py:150-185).  The name `p` in the first branch is not
defined: `NameError`. -/
def bezierInterpolate (fl : ℝ → ℝ) (p0 p1 p2 p3 : ℝ × ℝ) (x : ℝ) : Except Err ℝ := do
  if p0.1 ≥ p3.1 then
    throw .name
  let p1 ← startHandle fl p0 p1 p3
  let p2 ← endHandle fl p0 p2 p3
  let pa := fl (p0.1 - x)
  let pb := fl (p1.1 - x)
  let pc := fl (p2.1 - x)
  let pd := fl (p3.1 - x)
  let roots ← bezierCubicRoots fl pa pb pc pd
  match roots with
  | [] => throw .assertion
  | r :: _ => return cubicBezier fl p0.2 p1.2 p2.2 p3.2 (min 1 (max 0 r))

/-- `sign_no_zero` (src/avb/interpolation.py:211-214). -/
def signNoZero (v : ℝ) : Int := if v ≥ 0 then 1 else -1

/-- The height of a tangent (src/avb/interpolation.py:245-256). -/
def tangentHeight (fl : ℝ → ℝ) (y py ny slope prevSlope nextSlope tanX : ℝ) : Except Err ℝ :=
  if signNoZero prevSlope ≠ signNoZero nextSlope ∨ signNoZero slope ≠ signNoZero nextSlope ∨ ny = py then
    pure 0
  else do
    let height := |fl (ny - py)|
    let h1 := |fl (ny - y)|
    let h2 := |fl (y - py)|
    let s ← fdiv fl (min h1 h2) height
    let scale := fl (s * 2)
    pure (fl (fl (scale * slope) * tanX))

/-- `calculate_tangent` (src/avb/interpolation.py:216-262). -/
def calculateTangent (fl : ℝ → ℝ) (p0 p1 p2 : ℝ × ℝ) (inTangent : Bool) : Except Err (ℝ × ℝ) := do
  let x := p1.1
  let y := p1.2
  let px := p0.1
  let nx := p2.1
  let py := p0.2
  let ny := p2.2
  let tanX := if inTangent then fl (fl (2 / 5) * fl (x - px)) else fl (fl (2 / 5) * fl (nx - x))
  let slope ← fdiv fl (fl (ny - py)) (fl (nx - px))
  let prevSlope ← fdiv fl (fl (y - py)) (fl (x - px))
  let nextSlope ← fdiv fl (fl (ny - y)) (fl (nx - x))
  let tanY ← tangentHeight fl y py ny slope prevSlope nextSlope tanX
  if inTangent then return (fl (tanX * (-1)), fl (tanY * (-1))) else return (tanX, tanY)

/-- `cubic_interpolate` (src/avb/interpolation.py:264-274). -/
def cubicInterpolate (fl : ℝ → ℝ) (p0 p1 p2 p3 : ℝ × ℝ) (t : ℝ) : Except Err ℝ := do
  let tan0 ← calculateTangent fl p0 p1 p2 false
  let tan1 ← calculateTangent fl p1 p2 p3 true
  bezierInterpolate fl p1 (fl (p1.1 + tan0.1), fl (p1.2 + tan0.2)) (fl (p2.1 + tan1.1), fl (p2.2 + tan1.2)) p2 t

/-- The names of `INTERPOLATION_MAP` (src/avb/components.py:452-457, 681-683). -/
inductive Interp where
  | constant | linear | bezier | cubic | unknown
  deriving DecidableEq, Repr

/-- `ParamClip.interp` (src/avb/components.py:681-683). -/
def interp (kind : Int) : Interp :=
  if kind = 2 then .constant
  else if kind = 3 then .linear
  else if kind = 5 then .bezier
  else if kind = 6 then .cubic
  else .unknown

/-- `(float(p.time), float(p.value))` (src/avb/components.py:761-765). -/
def Point.xy (fl : ℝ → ℝ) (p : Point) : Except Err (ℝ × ℝ) := do
  let t ← p.time fl
  let v ← p.value.float
  return (t, v)

/-- The point before the two around the time, or one made up (src/avb/components.py:757-764). -/
def pointBefore (fl : ℝ → ℝ) (ps : List Point) (index : Nat) (q1 q2 : ℝ × ℝ) : Except Err (ℝ × ℝ) :=
  if index = 0 then pure (fl (q1.1 - fl (fl (q2.1 - q1.1) * (1 / 2))), q1.2)
  else match ps[index - 1]? with
    | none => throw .index
    | some p0 => p0.xy fl

/-- The point after the two around the time, or one made up (src/avb/components.py:766-772). -/
def pointAfter (fl : ℝ → ℝ) (ps : List Point) (index : Nat) (q1 q2 : ℝ × ℝ) : Except Err (ℝ × ℝ) :=
  match ps[index + 2]? with
  | none => pure (fl (q2.1 + fl (fl (q2.1 - q1.1) * (1 / 2))), q2.2)
  | some p3 => p3.xy fl

/-- `ParamClip.value_at` (src/avb/components.py:708-785). -/
def valueAt (fl : ℝ → ℝ) (kind : Int) (ps : List Point) (t : ℝ) : Except Err ℝ := do
  if ps = [] then
    throw .value
  let index ← nearestIndex fl ps t
  match ps[index]? with
  | none => throw .index
  | some p1 =>
    let x1 ← p1.time fl
    match ps[index + 1]? with
    | none => p1.value.float
    | some p2 =>
      if t < x1 then
        p1.value.float
      else
        match interp kind with
        | .constant => p1.value.float
        | .linear =>
          let x2 ← p2.time fl
          let tLen := fl (x2 - x1)
          let tDiff := fl (t - x1)
          let tMix ← fdiv fl tDiff tLen
          let v0 ← p1.value.float
          let v1 ← p2.value.float
          return lerp fl v0 v1 tMix
        | .bezier =>
          let v0 ← p1.value.float
          let x3 ← p2.time fl
          let v3 ← p2.value.float
          let o := p1.outTangent
          let i := p2.inTangent
          bezierInterpolate fl (x1, v0) (fl (x1 + o.1), fl (v0 + o.2)) (fl (x3 + i.1), fl (v3 + i.2)) (x3, v3) t
        | .cubic =>
          let v1 ← p1.value.float
          let (x2, v2) ← p2.xy fl
          let q0 ← pointBefore fl ps index (x1, v1) (x2, v2)
          let q3 ← pointAfter fl ps index (x1, v1) (x2, v2)
          cubicInterpolate fl q0 (x1, v1) (x2, v2) q3 t
        | .unknown => throw .notImplemented

/-- `mc_trapezoidal_integrate` (src/avb/interpolation.py:276-287), the loop from `i` on. -/
def trapezoidFrom (fl : ℝ → ℝ) (f : ℝ → Except Err ℝ) (a h : ℝ) : Nat → Nat → ℝ → ℝ → Except Err ℝ
  | 0, _, _, result => .ok result
  | n + 1, i, pv, result => do
    let v ← f (fl (a + fl (i * h)))
    trapezoidFrom fl f a h n (i + 1) v (fl (result + fl (fl (fl (v + pv) * h) * (1 / 2))))

/-- `mc_trapezoidal_integrate` with `n = 5` (src/avb/interpolation.py:276-287). -/
def trapezoid (fl : ℝ → ℝ) (f : ℝ → Except Err ℝ) (a b : ℝ) : Except Err ℝ := do
  let h ← fdiv fl (fl (b - a)) 5
  let pv ← f (fl (a - h))
  trapezoidFrom fl f a h 5 0 pv 0

/-- The loop of `integrate_iter` (src/avb/interpolation.py:289-302), `n` times from `i` on; `t` is the
local variable, `none` while unbound, in which case the last part raises `UnboundLocalError` (a
`NameError`). -/
def integrateFrom (fl : ℝ → ℝ) (f : ℝ → Except Err ℝ) : Nat → Int → ℝ → Option ℝ → Except Err (List (ℝ × ℝ))
  | 0, _, pos, t =>
    match t with
    | none => .error .name
    | some t => do
      let t := fl (t + 1 / 2)
      let s ← trapezoid fl f (fl (t - 1 / 2)) t
      return [(t, fl (pos + s))]
  | n + 1, i, pos, _ => do
    let t : ℝ := i
    let s ← trapezoid fl f (fl (t - 1 / 2)) t
    let pos1 := fl (pos + s)
    let t2 := fl (t + 1 / 2)
    let s2 ← trapezoid fl f (fl (t2 - 1 / 2)) t2
    let pos2 := fl (pos1 + s2)
    let rest ← integrateFrom fl f n (i + 1) pos2 (some t2)
    return (t, pos1) :: (t2, pos2) :: rest

/-- `integrate_iter` (src/avb/interpolation.py:289-302). -/
def integrateIter (fl : ℝ → ℝ) (f : ℝ → Except Err ℝ) (start stop : Int) : Except Err (List (ℝ × ℝ)) :=
  integrateFrom fl f (stop - 1 - start).toNat start 0 none

/-- `int(x)` of a float: towards zero. -/
def trunc (x : ℝ) : Int := if 0 ≤ x then ⌊x⌋ else ⌈x⌉

/-- The last pair with time `c` (src/avb/components.py:808-812), `None` if there is none. -/
def lastAt (c : Int) (acc : Option ℝ) : List (ℝ × ℝ) → Option ℝ
  | [] => acc
  | (t, v) :: l => open Classical in if t = (c : ℝ) then lastAt c (some v) l else lastAt c acc l

/-- The loop that builds the result (src/avb/components.py:821-828). -/
def shifted (fl : ℝ → ℝ) (start stop : Int) (off : ℝ) : List (ℝ × ℝ) → List (ℝ × ℝ)
  | [] => []
  | (t, v) :: l =>
    if t > (stop : ℝ) then []
    else if t ≥ (start : ℝ) then (t, fl (v - off)) :: shifted fl start stop off l
    else shifted fl start stop off l

/-- `ParamClip.integrate` (src/avb/components.py:787-828) for integer arguments.  `value[None]` raises
`TypeError`. -/
def integrate (fl : ℝ → ℝ) (kind : Int) (ps : List Point) (start : Int) (stop : Option Int) :
    Except Err (List (ℝ × ℝ)) :=
  match ps with
  | [] => .error .index
  | first :: _ => do
    let c ← first.time fl
    let center := trunc c
    let stop ← match stop with
      | some e => pure e
      | none => do
        let l ← timeAt fl ps (ps.length - 1)
        pure (trunc l)
    if start > stop then
      throw .value
    let pairs ← integrateIter fl (valueAt fl kind ps) (min start center) (max center (stop + 1))
    match lastAt center none pairs with
    | none => throw .type
    | some v => return shifted fl start stop (fl (v - baseFrame first.pp)) pairs

end

end Avb.Curve

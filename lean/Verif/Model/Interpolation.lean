import Verif.Model.Keyframes
import Mathlib.Analysis.SpecialFunctions.Trigonometric.Inverse
import Mathlib.Analysis.SpecialFunctions.Pow.Real
/-!
# Values between keyframes (`/repo/src/aaf2/interpolation.py` and `misc.py` 252-330)

Simplification: a `float` is a real number here, so nothing is rounded and nothing overflows;
`math.sqrt`, `math.acos`, `math.cos` and `x**(1/3)` are the real functions.  A division whose divisor
the code has not excluded from being zero raises as in Python.  `bezier_interpolate_old` (187-211) has
no caller and is left out.
-/
namespace Verif.Interpolation

noncomputable section

/-- A point: time and value. (Used in `scaleHandle`: interpolation.py:136-148.) -/
abbrev P := ℝ × ℝ

/-- `EPSILON` (interpolation.py:10). -/
def eps : ℝ := 1 / 10 ^ 10

/-- `a / b`. (Used in `scaleHandle`: interpolation.py:136-148.) -/
def div (a b : ℝ) : Res ℝ := if b = 0 then .error .zeroDivision else .ok (a / b)

/-- `math.sqrt(x)`. (Used in `quadraticRoots`: interpolation.py:58-69.) -/
def sqrt (x : ℝ) : Res ℝ := if x < 0 then .error .valueError else .ok (Real.sqrt x)

/-- `lerp` (interpolation.py:12-13). -/
def lerp (a b t : ℝ) : ℝ := a + (b - a) * t

/-- `cubic_bezier` (interpolation.py:15-21). -/
def cubicBezier (p0 p1 p2 p3 t : ℝ) : ℝ :=
  let u := 1 - t
  let w1 := u * u * u
  let w2 := 3 * u * u * t
  let w3 := 3 * u * t * t
  let w4 := t * t * t
  w1 * p0 + w2 * p1 + w3 * p2 + w4 * p3

/-- `valid_root` (interpolation.py:23-25). -/
def validRoot (v : ℝ) : Prop := v ≥ -eps ∧ v ≤ 1 + eps

instance (v : ℝ) : Decidable (validRoot v) := by unfold validRoot; infer_instance

/-- `if valid_root(root): result.append(root)` for one root after the other. (Used in `linearRoots`: interpolation.py:46-56.) -/
def valid (l : List ℝ) : List ℝ := l.filter fun v => decide (validRoot v)

/-- `cube_root` (interpolation.py:27-33). -/
def cubeRoot (x : ℝ) : ℝ := if x < 0 then |x| ^ (1 / 3 : ℝ) * -1 else x ^ (1 / 3 : ℝ)

/-- The linear solution (interpolation.py:46-56). -/
def linearRoots (b c : ℝ) : List ℝ := if |b| < eps then [] else valid [-c / b]

/-- The quadratic solution (interpolation.py:58-69).  `a` is not zero. -/
def quadraticRoots (a b c : ℝ) : Res (List ℝ) := do
  let q ← sqrt (b * b - 4 * a * c)
  let a2 := 2 * a
  .ok (valid [(q - b) / a2, (-b - q) / a2])

/-- Three roots (interpolation.py:82-106).  `p` is negative, so that `r` is not zero and the square
root is of a positive number. -/
def threeRoots (a p q : ℝ) : List ℝ :=
  let mp3 := -p / 3
  let mp33 := mp3 * mp3 * mp3
  let r := Real.sqrt mp33
  let t := -q / (2 * r)
  let cosphi := max (-1) (min 1 t)
  let phi := Real.arccos cosphi
  let crtr := cubeRoot r
  let t1 := 2 * crtr
  valid [t1 * Real.cos (phi / 3) - a / 3, t1 * Real.cos ((phi + 2 * Real.pi) / 3) - a / 3,
    t1 * Real.cos ((phi + 4 * Real.pi) / 3) - a / 3]

/-- Two roots (interpolation.py:109-123). -/
def twoRoots (a q2 : ℝ) : List ℝ :=
  let u1 := if q2 < 0 then cubeRoot (-q2) else -cubeRoot q2
  valid [2 * u1 - a / 3, -u1 - a / 3]

/-- One root (interpolation.py:126-134).  The discriminant is positive. -/
def oneRoot (a q2 discriminant : ℝ) : List ℝ :=
  let sd := Real.sqrt discriminant
  let u1 := cubeRoot (sd - q2)
  let v1 := cubeRoot (sd + q2)
  valid [u1 - v1 - a / 3]

/-- The cubic solution (interpolation.py:71-134), after the division by `d`. -/
def cubicRoots (a b c : ℝ) : List ℝ :=
  let p := (3 * b - a * a) / 3
  let p3 := p / 3
  let q := (2 * a * a * a - 9 * a * b + 27 * c) / 27
  let q2 := q / 2
  let discriminant := q2 * q2 + p3 * p3 * p3
  if discriminant < 0 then threeRoots a p q
  else if discriminant = 0 then twoRoots a q2
  else oneRoot a q2 discriminant

/-- `bezier_cubic_roots` (interpolation.py:37-134). -/
def bezierCubicRoots (pa pb pc pd : ℝ) : Res (List ℝ) :=
  let a := 3 * pa - 6 * pb + 3 * pc
  let b := -3 * pa + 3 * pb
  let c := pa
  let d := -pa + 3 * pb - 3 * pc + pd
  if |d| < eps then
    if |a| < eps then .ok (linearRoots b c) else quadraticRoots a b c
  else .ok (cubicRoots (a / d) (b / d) (c / d))

/-- `scale_handle` (interpolation.py:136-148). -/
def scaleHandle (p0 p1 p2 : P) : Res P := do
  let y ← div ((p1.2 - p0.2) * (p2.1 - p0.1)) (p1.1 - p0.1)
  .ok (p2.1, p0.2 + y)

/-- The first handle (interpolation.py:159-162). -/
def outHandle (p0 p1 p3 : P) : Res P :=
  if p1.1 > p3.1 then scaleHandle p0 p1 p3
  else if p1.1 < p0.1 then .ok (p0.1, p1.2)
  else .ok p1

/-- The second handle (interpolation.py:166-169). -/
def inHandle (p0 p2 p3 : P) : Res P :=
  if p2.1 < p0.1 then scaleHandle p3 p2 p0
  else if p2.1 > p3.1 then .ok (p3.1, p2.2)
  else .ok p2

/-- `bezier_interpolate` (interpolation.py:150-185).  `p` in line 155 is not defined, a `NameError`,
for which `unboundLocal` stands. -/
def bezierInterpolate (p0 p1 p2 p3 : P) (x : ℝ) : Res ℝ :=
  if p0.1 ≥ p3.1 then .error .unboundLocal
  else do
    let p1 ← outHandle p0 p1 p3
    let p2 ← inHandle p0 p2 p3
    let roots ← bezierCubicRoots (p0.1 - x) (p1.1 - x) (p2.1 - x) (p3.1 - x)
    match roots with
    | [] => .error .assertion
    | r :: _ => .ok (cubicBezier p0.2 p1.2 p2.2 p3.2 (min 1 (max 0 r)))

/-- `sign_no_zero` (interpolation.py:213-216). -/
def signNoZero (v : ℝ) : Int := if v ≥ 0 then 1 else -1

/-- `calculate_tangent` (interpolation.py:218-262). -/
def calculateTangent (p0 p1 p2 : P) (inTangent : Bool) : Res P := do
  let x := p1.1
  let y := p1.2
  let px := p0.1
  let nx := p2.1
  let py := p0.2
  let ny := p2.2
  let tanX := if inTangent then 4 / 10 * (x - px) else 4 / 10 * (nx - x)
  let slope ← div (ny - py) (nx - px)
  let prevSlope ← div (y - py) (x - px)
  let nextSlope ← div (ny - y) (nx - x)
  let tanY :=
    if signNoZero prevSlope ≠ signNoZero nextSlope ∨ signNoZero slope ≠ signNoZero nextSlope ∨ ny = py
    then 0
    else
      let height := |ny - py|
      let h1 := |ny - y|
      let h2 := |y - py|
      let scale := min h1 h2 / height * 2
      scale * slope * tanX
  if inTangent then .ok (tanX * -1, tanY * -1) else .ok (tanX, tanY)

/-- `cubic_interpolate` (interpolation.py:264-274). -/
def cubicInterpolate (p0 p1 p2 p3 : P) (t : ℝ) : Res ℝ := do
  let tan0 ← calculateTangent p0 p1 p2 false
  let tan1 ← calculateTangent p1 p2 p3 true
  bezierInterpolate p1 (p1.1 + tan0.1, p1.2 + tan0.2) (p2.1 + tan1.1, p2.2 + tan1.2) p2 t

/-- `interpolationdef.auid` (misc.py:17-20). -/
inductive Interp
  | constant | linear | bezier | cubic | other
deriving DecidableEq

/-- A control point: `time`, `value` and `tangents` (misc.py:357-391). -/
structure Key where
  time : ℝ
  value : ℝ
  tin : P := (0, 0)
  tout : P := (0, 0)

/-- Time and value. (Used in `before`: misc.py:306-312.) -/
def Key.at (k : Key) : P := (k.time, k.value)

/-- `pointlist[i]`. (Used in `before`: misc.py:306-312.) -/
def item (l : List Key) (i : Nat) : Res Key :=
  match l[i]? with
  | none => .error .indexError
  | some k => .ok k

/-- The point before the first one of the interval (misc.py:306-312). -/
def before (l : List Key) (i : Nat) (p1 p2 : Key) : Res P :=
  if 0 < i then do
    let p0 ← item l (i - 1)
    .ok p0.at
  else .ok (p1.time - (p2.time - p1.time) * (5 / 10), p1.value)

/-- The point after the second one of the interval (misc.py:314-320). -/
def after (l : List Key) (i : Nat) (p1 p2 : Key) : Res P :=
  if i + 2 < l.length then do
    let p3 ← item l (i + 2)
    .ok p3.at
  else .ok (p2.time + (p2.time - p1.time) * (5 / 10), p2.value)

/-- The value between two points (misc.py:269-330). -/
def between (k : Interp) (l : List Key) (i : Nat) (p1 p2 : Key) (t : ℝ) : Res ℝ :=
  match k with
  | .linear => do
    let tLen := p2.time - p1.time
    let tDiff := t - p1.time
    let tMix ← div tDiff tLen
    .ok (lerp p1.value p2.value tMix)
  | .bezier =>
    bezierInterpolate p1.at (p1.time + p1.tout.1, p1.value + p1.tout.2)
      (p2.time + p2.tin.1, p2.value + p2.tin.2) p2.at t
  | .cubic => do
    let p0 ← before l i p1 p2
    let p3 ← after l i p1 p2
    cubicInterpolate p0 p1.at p2.at p3 t
  | _ => .error .notImplemented

/-- `point.time < t`. (Used in `valueAt`: misc.py:252-330.) -/
def ltReal (a b : ℝ) : Bool := decide (a < b)

/-- `value_at` (misc.py:252-330). -/
def valueAt (k : Interp) (l : List Key) (t : ℝ) : Res ℝ := do
  let i ← Keyframes.nearestIndex ltReal (l.map (·.time)) t
  let p1 ← item l i
  if t < p1.time ∨ i + 1 ≥ l.length then .ok p1.value
  else if k = .constant then .ok p1.value
  else do
    let p2 ← item l (i + 1)
    between k l i p1 p2 t

end

end Verif.Interpolation

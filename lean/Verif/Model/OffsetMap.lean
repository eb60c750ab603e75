import Verif.Model.Interpolation
import Mathlib.Algebra.Order.Floor.Ring
/-!
# Offset maps (`/repo/src/aaf2/interpolation.py` 276-303 and `misc.py` 393-436)

Simplification: as in `Model/Interpolation`, real numbers for `float`.
-/
namespace Verif.Interpolation

noncomputable section

/-- The loop of `mc_trapezoidal_integrate` (interpolation.py:283-286), with `n` turns left. -/
def trapLoop (f : ℝ → Res ℝ) (a h : ℝ) : Nat → Nat → ℝ → ℝ → Res ℝ
  | 0, _, _, result => .ok result
  | n + 1, i, pv, result => do
    let v ← f (a + i * h)
    trapLoop f a h n (i + 1) v (result + (v + pv) * h * (5 / 10))

/-- `mc_trapezoidal_integrate`, `n` is 5 in all calls (interpolation.py:276-287). -/
def trapezoidal (f : ℝ → Res ℝ) (a b : ℝ) : Res ℝ := do
  let h := (b - a) / 5
  let pv ← f (a - h)
  trapLoop f a h 5 0 pv 0

/-- The turns of the loop of `integrate_iter` (interpolation.py:292-298) for `i`, `i + 1`, ...: what is
yielded, and `t` and `pos` afterwards. -/
def integrateLoop (f : ℝ → Res ℝ) : Nat → Int → Option ℝ → ℝ → Res (List (ℝ × ℝ) × Option ℝ × ℝ)
  | 0, _, t, pos => .ok ([], t, pos)
  | n + 1, i, _, pos => do
    let t : ℝ := i
    let x ← trapezoidal f (t - 5 / 10) t
    let pos := pos + x
    let t' := t + 5 / 10
    let y ← trapezoidal f (t' - 5 / 10) t'
    let pos' := pos + y
    let r ← integrateLoop f n (i + 1) (some t') pos'
    .ok ((t, pos) :: (t', pos') :: r.1, r.2)

/-- The last turn (interpolation.py:300-302). -/
def integrateLast (f : ℝ → Res ℝ) (r : List (ℝ × ℝ) × Option ℝ × ℝ) : Res (List (ℝ × ℝ)) :=
  match r.2.1 with
  | none => .error .unboundLocal
  | some t => do
    let t := t + 5 / 10
    let x ← trapezoidal f (t - 5 / 10) t
    .ok (r.1 ++ [(t, r.2.2 + x)])

/-- All that `integrate_iter` yields (interpolation.py:289-302).  Nothing of it is used when it
raises. -/
def integrateIter (f : ℝ → Res ℝ) (start stop : Int) : Res (List (ℝ × ℝ)) := do
  let r ← integrateLoop f (stop - 1 - start).toNat start none 0
  integrateLast f r

/-- `int(x)`. (Used in `offsetMap`: misc.py:393-436.) -/
def toInt (x : ℝ) : Int := if 0 ≤ x then ⌊x⌋ else ⌈x⌉

/-- `value[offset_index]`, the last value whose time is the center, `value[None]` if there is none
(misc.py:409-421). -/
def centerOf (c : Int) (l : List (ℝ × ℝ)) : Res ℝ :=
  match l.reverse.find? fun p => decide (p.1 = (c : ℝ)) with
  | none => .error .typeError
  | some p => .ok p.2

/-- The loop over the times (misc.py:427-434). -/
def collect (start stop : Int) (off : ℝ) : List (ℝ × ℝ) → List (ℝ × ℝ)
  | [] => []
  | (t, v) :: r =>
    if t > stop then []
    else if t ≥ start then (t, v - off) :: collect start stop off r
    else collect start stop off r

/-- `generate_offset_map` (misc.py:393-436) with the first keyframe at `first`, its base frame `base` and
the last one at `last`. -/
def offsetMap (f : ℝ → Res ℝ) (first last base : ℝ) (start : Int) (stop : Option Int) :
    Res (List (ℝ × ℝ)) := do
  let center := toInt first
  let stop := stop.getD (toInt last)
  if start > stop then .error .valueError
  else do
    let l ← integrateIter f (min start center) (max center (stop + 1))
    let c ← centerOf center l
    .ok (collect start stop (c - base) l)

/-- `generate_offset_map(speed_map, start, end)` (misc.py:393-436). -/
def generateOffsetMap (k : Interp) (l : List Key) (base : ℝ) (start : Int) (stop : Option Int) :
    Res (List (ℝ × ℝ)) :=
  match l.head?, l.getLast? with
  | some a, some z => offsetMap (valueAt k l) a.time z.time base start stop
  | _, _ => .error .indexError

end

end Verif.Interpolation

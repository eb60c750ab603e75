import Mathlib.Data.Real.Basic
/-!
# Curves between keyframes, without the code

The curve of two keyframes and two handles is given by de Casteljau's construction: points on the
three lines, on the lines between those, and on the line between these.
-/
namespace Verif.Curves

/-- The point on the line from `a` to `b` at the fraction `s`. -/
def mix (a b : ℝ × ℝ) (s : ℝ) : ℝ × ℝ := ((1 - s) * a.1 + s * b.1, (1 - s) * a.2 + s * b.2)

/-- The curve from `a` to `d` with the handles `b` and `c`. -/
def curve (a b c d : ℝ × ℝ) (s : ℝ) : ℝ × ℝ :=
  mix (mix (mix a b s) (mix b c s) s) (mix (mix b c s) (mix c d s) s) s

/-- A fraction. -/
def Fraction (s : ℝ) : Prop := 0 ≤ s ∧ s ≤ 1

/-- Not outside of the two. -/
def Between (v a b : ℝ) : Prop := min a b ≤ v ∧ v ≤ max a b

/-- `g` is the handle `h` of the keyframe `a` as it is used for the curve to (or from) the keyframe `b`:
one that reaches beyond the time of `b` is cut there, one that points away from `b` in time is moved to
the time of `a`. -/
structure Cut (a b h g : ℝ × ℝ) : Prop where
  inside : Between h.1 a.1 b.1 → g = h
  beyond : 0 < (h.1 - b.1) * (b.1 - a.1) → g.1 = b.1 ∧ ∃ s, Fraction s ∧ g = mix a h s
  behind : (h.1 - a.1) * (b.1 - a.1) < 0 → g = (a.1, h.2)

/-- How steep a spline is at the keyframe `k` between `p` and `n`: flat where the values turn or stay,
otherwise twice the smaller one of the two changes over the time from `p` to `n`. -/
noncomputable def steep (p k n : ℝ × ℝ) : ℝ :=
  if p.2 < k.2 ∧ k.2 < n.2 then 2 * min (k.2 - p.2) (n.2 - k.2) / (n.1 - p.1)
  else if n.2 < k.2 ∧ k.2 < p.2 then -(2 * min (p.2 - k.2) (k.2 - n.2) / (n.1 - p.1))
  else 0

/-- How steep it is at the keyframe number `i`, flat at the first and the last. -/
noncomputable def steepAt (l : List (ℝ × ℝ)) : Nat → ℝ
  | 0 => 0
  | i + 1 =>
    match l[i]?, l[i + 1]?, l[i + 2]? with
    | some p, some k, some n => steep p k n
    | _, _, _ => 0

end Verif.Curves

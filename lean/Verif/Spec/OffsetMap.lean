import Mathlib.Data.Real.Basic
/-!
# Offset maps, without the code

A speed map gives the speed at each time; the offset is the distance from the center, with a value for
every half frame.
-/
namespace Verif.Curves

/-- The distance of half a frame: the trapezoids of five tenths of a frame, from 6/10 to 1/10 before
`x`. -/
noncomputable def half (g : ℝ → ℝ) (x : ℝ) : ℝ :=
  (g (x - 6 / 10) + 2 * g (x - 5 / 10) + 2 * g (x - 4 / 10) + 2 * g (x - 3 / 10) + 2 * g (x - 2 / 10) +
    g (x - 1 / 10)) / 20

/-- `o` has the offsets of all half frames from `lo` to `hi`, with `base` at the center `c`. -/
structure Offsets (g : ℝ → ℝ) (c : ℤ) (base : ℝ) (lo hi : ℤ) (o : ℤ → ℝ) : Prop where
  center : o (2 * c) = base
  step : ∀ j : ℤ, 2 * lo ≤ j → j < 2 * hi → o (j + 1) = o j + half g (((j : ℝ) + 1) / 2)

/-- The list of the offsets of all half frames from `lo` to `hi`. -/
noncomputable def table (o : ℤ → ℝ) (lo hi : ℤ) : List (ℝ × ℝ) :=
  (List.range (2 * (hi - lo) + 1).toNat).map fun (j : Nat) => ((lo : ℝ) + (j : ℝ) / 2, o (2 * lo + (j : ℤ)))

/-- `c` is the whole part of `x`. -/
def Whole (x : ℝ) (c : ℤ) : Prop :=
  (0 ≤ x → (c : ℝ) ≤ x ∧ x < (c : ℝ) + 1) ∧ (x < 0 → (c : ℝ) - 1 < x ∧ x ≤ (c : ℝ))

end Verif.Curves

import Mathlib.Analysis.SpecialFunctions.Pow.Real
import Mathlib.Algebra.BigOperators.Intervals

/-! Small specifications used in property statements; independent of the model. -/

namespace Verif.Spec

/-- `x` is strictly increasing on its first `n` points and neighbouring steps differ at most by a
factor 2 (logarithmic mass grids with `dlog10m ≤ log10 2` are of this kind). -/
structure GentleGrid (n : ℕ) (x : ℕ → ℝ) : Prop where
  step_pos : ∀ i, i + 1 < n → 0 < x (i + 1) - x i
  up : ∀ i, i + 2 < n → x (i + 2) - x (i + 1) ≤ 2 * (x (i + 1) - x i)
  down : ∀ i, i + 2 < n → x (i + 1) - x i ≤ 2 * (x (i + 2) - x (i + 1))

/-- strictly increasing on the first `n` points -/
def SortedOn (n : ℕ) (x : ℕ → ℝ) : Prop := ∀ i j, i < j → j < n → x i < x j

/-- Sum of the areas of the trapezoids under the polygon through `(x i, y i)`, `i < n`. -/
noncomputable def trapezoidArea (n : ℕ) (x y : ℕ → ℝ) : ℝ :=
  ∑ i ∈ Finset.range (n - 1), (x (i + 1) - x i) * (y i + y (i + 1)) / 2

end Verif.Spec

import Mathlib.Analysis.SpecialFunctions.Pow.Real

/-!
# `np.histogram(values, bins=n, density=True)` (external primitive, assumed contract)

Equal-width bins between the smallest and the largest value (widened by one half on each side when all
values are equal); bins are half open except the last one, which includes its right edge; the density is
count / (number of values * width).
-/

namespace Verif.Lib

/-- smallest value of a non-empty list -/
noncomputable def listMin (x : ℝ) (xs : List ℝ) : ℝ := xs.foldl min x

/-- largest value of a non-empty list -/
noncomputable def listMax (x : ℝ) (xs : List ℝ) : ℝ := xs.foldl max x

open Classical in
/-- range of the histogram of the non-empty list `x :: xs` -/
noncomputable def histRange (x : ℝ) (xs : List ℝ) : ℝ × ℝ :=
  let lo := listMin x xs
  let hi := listMax x xs
  if lo = hi then (lo - 0.5, hi + 0.5) else (lo, hi)

/-- bin edges -/
noncomputable def histEdge (x : ℝ) (xs : List ℝ) (n i : ℕ) : ℝ :=
  let r := histRange x xs
  r.1 + (r.2 - r.1) * i / n

open Classical in
/-- number of values in bin `i` -/
noncomputable def histCount (x : ℝ) (xs : List ℝ) (n i : ℕ) : ℕ :=
  (x :: xs).countP fun v => decide (histEdge x xs n i ≤ v ∧
    (v < histEdge x xs n (i + 1) ∨ (i + 1 = n ∧ v ≤ histEdge x xs n (i + 1))))

/-- density in bin `i` -/
noncomputable def histDensity (x : ℝ) (xs : List ℝ) (n i : ℕ) : ℝ :=
  histCount x xs n i / ((x :: xs).length * (histEdge x xs n (i + 1) - histEdge x xs n i))

end Verif.Lib

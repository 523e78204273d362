import Mathlib.Analysis.SpecialFunctions.Exp
import Mathlib.Algebra.Order.Floor.Defs
import Mathlib.Algebra.Order.Floor.Semiring
import Mathlib.Algebra.BigOperators.Intervals
import Mathlib.Order.Interval.Finset.Basic
import Mathlib.Data.Int.Interval

/-!
# `scipy.ndimage.gaussian_filter1d`

The filter called at pk.py:2731 and pk_lib.py:985 with its default arguments: `order=0`, `mode='reflect'`,
`truncate=4.0`, along the last axis.  The model is for `sigma > 0`.
-/

namespace Verif.Lib

/-- `mode='reflect'`: the row `a b c d` is continued as `... d c b a | a b c d | d c b a ...` -/
def reflect (n : ℕ) (x : ℤ) : ℕ :=
  let m := x % (2 * n : ℤ)
  (if m < n then m else 2 * n - 1 - m).toNat

/-- `int(truncate * sigma + 0.5)` for positive `sigma` -/
noncomputable def filterRadius (sigma : ℝ) : ℕ := ⌊4 * sigma + 0.5⌋₊

/-- the unnormalised kernel `exp(-0.5 / sigma² x²)` -/
noncomputable def gaussPhi (sigma : ℝ) (d : ℤ) : ℝ := Real.exp (-0.5 / sigma ^ 2 * (d : ℝ) ^ 2)

/-- the offsets `arange(-radius, radius + 1)` -/
noncomputable def filterOffsets (sigma : ℝ) : Finset ℤ := Finset.Icc (-(filterRadius sigma : ℤ)) (filterRadius sigma)

/-- `phi / phi.sum()` -/
noncomputable def gaussKernel (sigma : ℝ) (d : ℤ) : ℝ :=
  gaussPhi sigma d / ∑ e ∈ filterOffsets sigma, gaussPhi sigma e

/-- `gaussian_filter1d(row, sigma)` for a row of `n` entries -/
noncomputable def gaussianFilter1d (n : ℕ) (sigma : ℝ) (f : ℕ → ℝ) (i : ℕ) : ℝ :=
  ∑ d ∈ filterOffsets sigma, gaussKernel sigma d * f (reflect n (i + d))

end Verif.Lib

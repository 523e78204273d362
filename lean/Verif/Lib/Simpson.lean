import Mathlib.Analysis.SpecialFunctions.Pow.Real
import Mathlib.Algebra.BigOperators.Intervals
import Mathlib.Tactic.FieldSimp
import Mathlib.Tactic.Linarith
import Mathlib.Tactic.Positivity
import Mathlib.Tactic.Ring

/-!
# `scipy.integrate.simpson` (external primitive, assumed contract)

onepower integrates over halo mass, redshift and observable with `scipy.integrate.simpson`
(`/repo/src/onepower/pk.py:40`, `/repo/src/onepower/hod.py:11`).  The definitions below transcribe scipy's
algorithm (scipy ≥ 1.11; `/repo/pyproject.toml` requires `scipy>=1.13.1`): the composite rule on pairs of
possibly unequal intervals (`_basic_simpson`), the Cartwright correction for the last interval when the
number of points is even, and the trapezoid for two points.  scipy replaces a quotient with zero
denominator by `0` (`np.true_divide(..., out=zeros, where=den != 0)`), which is also what Lean's division
does.  Simplification: real instead of floating-point numbers.
-/

namespace Verif.Lib

open Finset

/-- One panel of scipy's `_basic_simpson`: three points with spacings `h0`, `h1`. -/
noncomputable def simpsonPanel (h0 h1 y0 y1 y2 : ℝ) : ℝ :=
  (h0 + h1) / 6 * (y0 * (2 - 1 / (h0 / h1)) + y1 * ((h0 + h1) * ((h0 + h1) / (h0 * h1)))
    + y2 * (2 - h0 / h1))

/-- scipy's `_basic_simpson` over the first `p` panels (points `0 .. 2p`). -/
noncomputable def basicSimpson (p : ℕ) (x y : ℕ → ℝ) : ℝ :=
  ∑ i ∈ range p, simpsonPanel (x (2 * i + 1) - x (2 * i)) (x (2 * i + 2) - x (2 * i + 1))
    (y (2 * i)) (y (2 * i + 1)) (y (2 * i + 2))

/-- scipy's Cartwright correction for the last interval: spacings `h0`, `h1`, values at the last three
points. -/
noncomputable def simpsonLast (h0 h1 y0 y1 y2 : ℝ) : ℝ :=
  (2 * h1 ^ 2 + 3 * h0 * h1) / (6 * (h1 + h0)) * y2
    + (h1 ^ 2 + 3 * h0 * h1) / (6 * h0) * y1
    - h1 ^ 3 / (6 * h0 * (h0 + h1)) * y0

/-- `scipy.integrate.simpson(y, x=x)` for `n` points.  `n = 0` (scipy raises) is given the value `0`;
no theorem uses it. -/
noncomputable def simpson (n : ℕ) (x y : ℕ → ℝ) : ℝ :=
  if n % 2 = 1 then basicSimpson (n / 2) x y
  else if n = 0 then 0
  else if n = 2 then 1 / 2 * (x 1 - x 0) * (y 1 + y 0)
  else basicSimpson (n / 2 - 1) x y
    + simpsonLast (x (n - 2) - x (n - 3)) (x (n - 1) - x (n - 2)) (y (n - 3)) (y (n - 2)) (y (n - 1))

/-- `scipy.integrate.simpson(y, dx=dx)`: the same rule on a uniform grid. -/
noncomputable def simpsonDx (n : ℕ) (dx : ℝ) (y : ℕ → ℝ) : ℝ :=
  simpson n (fun i => (i : ℝ) * dx) y

end Verif.Lib

import Mathlib.Analysis.SpecialFunctions.Gaussian.GaussianIntegral
import Mathlib.Analysis.SpecialFunctions.Pow.Real
import Mathlib.Analysis.SpecialFunctions.Log.Base

/-!
# Elementary numpy / scipy functions (external primitives, assumed contract)

`scipy.special.erf`, `numpy.heaviside`, `numpy.log10`, `numpy.linspace`, `numpy.logspace`,
`numpy.fmin` (on numbers that are not NaN: the minimum, `min`).
-/

namespace Verif.Lib

/-- `scipy.special.erf`: the error function `2/√π ∫₀ˣ exp(-t²) dt`. -/
noncomputable def erf (x : ℝ) : ℝ := 2 / Real.sqrt Real.pi * ∫ t in (0 : ℝ)..x, Real.exp (-t ^ 2)

open Classical in
/-- `numpy.heaviside(x, h0)`. -/
noncomputable def heaviside (x h0 : ℝ) : ℝ := if x < 0 then 0 else if x = 0 then h0 else 1

/-- `numpy.log10` on positive numbers. -/
noncomputable def log10 (x : ℝ) : ℝ := Real.logb 10 x

/-- `numpy.linspace(a, b, n)[i]` for `n ≥ 2`. -/
noncomputable def linspace (a b : ℝ) (n i : ℕ) : ℝ := a + i * ((b - a) / ((n : ℝ) - 1))

/-- `numpy.logspace(a, b, n)[i]` for `n ≥ 2`. -/
noncomputable def logspace (a b : ℝ) (n i : ℕ) : ℝ := (10 : ℝ) ^ linspace a b n i

end Verif.Lib

import Mathlib.MeasureTheory.Integral.IntervalIntegral.Basic
import Mathlib.Analysis.SpecialFunctions.Pow.Real
import Mathlib.Analysis.SpecialFunctions.Trigonometric.Basic

/-! Legendre polynomials and the angular integral of the satellite shear, independent of the model. -/

namespace Verif.Spec

/-- Legendre polynomials, by Bonnet's recurrence -/
noncomputable def legendre : ℕ → ℝ → ℝ
  | 0, _ => 1
  | 1, y => y
  | n + 2, y => ((2 * n + 3) * y * legendre (n + 1) y - (n + 1) * legendre n y) / (n + 2)

/-- The angular part of the intrinsic shear of radially aligned satellites with slope `b`, seen along a wavevector
perpendicular to the line of sight (eq. C8 of Fortuna et al. 2021 for `theta_k = pi/2`, `phi_k = 0`), with `x = cos theta`:
`∫ dx (1 - x²)^(b/2) ∫ dφ cos 2φ P_ell(sin θ cos φ)`. -/
noncomputable def angular (ell : ℕ) (b : ℝ) : ℝ :=
  ∫ x in (-1 : ℝ)..1, (1 - x ^ 2) ^ (b / 2) *
    ∫ φ in (0 : ℝ)..(2 * Real.pi), Real.cos (2 * φ) * legendre ell (Real.sqrt (1 - x ^ 2) * Real.cos φ)

end Verif.Spec

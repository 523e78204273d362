import Mathlib.Analysis.SpecialFunctions.Integrals.Basic
import Mathlib.MeasureTheory.Integral.IntervalIntegral.Basic

/-! # Bessel functions of whole-number order, and the projected correlation function -/

namespace Verif.Spec

/-- Bessel's integral: the Bessel function of the first kind for orders `mu = 0, 1, 2, ...` -/
noncomputable def besselJ (mu x : ℝ) : ℝ := 1 / Real.pi * ∫ t in (0 : ℝ)..Real.pi, Real.cos (mu * t - x * Real.sin t)

/-- the Fourier transform in the plane of a spectrum that depends on the wavenumber only: `1/(2 pi)` times the integral of
`k P(k) J_0(k r)` -/
noncomputable def projectedCorrelation (P : ℝ → ℝ) (r : ℝ) : ℝ :=
  1 / (2 * Real.pi) * ∫ k in Set.Ioi (0 : ℝ), k * P k * besselJ 0 (k * r)

/-- the mean of a function of the separation over the disc of radius `r`, minus its value at `r` -/
noncomputable def excess (w : ℝ → ℝ) (r : ℝ) : ℝ := 2 / r ^ 2 * (∫ x in (0 : ℝ)..r, x * w x) - w r

end Verif.Spec

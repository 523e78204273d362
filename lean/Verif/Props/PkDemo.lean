import Verif.Model.Pk
import Verif.Model.HmiProfiles
import Verif.Spec.Grid
import Verif.Lemmas.Simpson
import Mathlib.Tactic.NormNum
import Mathlib.Tactic.IntervalCases

/-!
A concrete, non-trivial object used in the `example`s of the `Props/Pk*` files to show that the hypotheses
of the theorems are met: three masses 1, 2, 3, a mass function growing with mass, a profile that falls with
`k`, occupied centrals and satellites, a missing-mass term of 1/2.
-/

namespace Verif.Pk

open Verif.Lib

/-- raw profile: falls with `k`, differs between masses, not normalised -/
noncomputable def demoRaw (_z k m : ℕ) : ℝ := ((m : ℝ) + 1) / ((k : ℝ) + 1)

/-- the demonstration object, plain mode -/
noncomputable def demo : Spectra where
  nonlinearMode := .none
  hmcodeIngredients := .none
  response := false
  pointmass := false
  oneHaloKtrunc := some 0.1
  twoHaloKtrunc := some 2
  oneHaloKtruncIa := some 4
  twoHaloKtruncIa := some 6
  tEff := 0
  mb := 13.87
  log10TAGN := 7.8
  omegaC := 0.25
  omegaB := 0.05
  omegaM := 0.3
  nm := 3
  zVec := fun z => z
  kVec := fun k => (k : ℝ) + 1
  mass := fun m => (m : ℝ) + 1
  dndlnm := fun _ m => (m : ℝ) + 1
  haloBias := fun _ _ => 1
  meanDensity0 := fun _ => 8
  uDm := Hmi.uDm demoRaw
  uSat := Hmi.uSat demoRaw
  sigma8z := fun _ => 1
  neff := fun _ => 0
  growthFactor := fun _ => 1
  pkLin := fun _ _ => 1
  pkNl := fun _ _ => 2
  betaNl := fun _ _ _ _ => 0
  fC := fun _ _ => 1 / 2
  fS := fun _ _ => 1 / 2
  hodCen := fun _ _ _ => 1
  hodSat := fun _ _ m => (m : ℝ) + 1
  numberDensity := fun _ _ => 2
  numberDensityCen := fun _ _ => 1
  numberDensitySat := fun _ _ => 1
  avgHaloMassCen := fun _ _ => 4
  fstar := fun _ _ _ => 0.01
  fstarMm := fun _ _ => 0
  poissonFunc := fun _ => 1
  alignmentGi := fun _ => 1
  betaCen := some 1
  betaSat := none
  mpivotCen := some 2
  mpivotSat := none
  wkmSat := fun _ _ _ => 1

theorem demo_gentle : Spec.GentleGrid demo.nm demo.mass := by
  refine ⟨fun i _ => ?_, fun i _ => ?_, fun i _ => ?_⟩ <;> (simp [demo]; try norm_num)

theorem demo_uDm_zero (z m : ℕ) : demo.uDm z 0 m = 1 := by
  simp only [demo, Hmi.uDm, demoRaw]
  field_simp

/-- Simpson's rule on the three-point demonstration grid -/
theorem demo_simpson (y : ℕ → ℝ) :
    simpson demo.nm demo.mass y = (y 0 + 4 * y 1 + y 2) / 3 := by
  simp only [demo, simpson, basicSimpson, simpsonPanel]
  norm_num
  ring

theorem demo_aTerm (z : ℕ) : demo.aTerm z = 1 / 2 := by
  unfold Spectra.aTerm
  rw [demo_simpson]
  simp [demo]; norm_num

end Verif.Pk

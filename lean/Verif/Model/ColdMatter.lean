import Verif.Lib.Py
import Verif.Lib.Simpson
import Mathlib.Analysis.SpecialFunctions.Pow.Real
import Mathlib.Analysis.SpecialFunctions.Trigonometric.Basic

/-!
# Cold matter and collapse redshifts (`/repo/src/onepower/hmi.py`, lines 1547-1671)

Three methods kept in the source and marked as currently unused.  Floats are real numbers; `x**0.7` is `Real.rpow`.
-/

namespace Verif.ColdMatter

open Verif.Lib

/-- `Tk_cold_ratio` (hmi.py:1548-1599): `om` is `ommh2`, `f` is `f_nu`, `N` is `N_nu` and `T` is `T_CMB` -/
noncomputable def tkColdRatio (k g om h f N T : ℝ) : ℝ :=
  if f = 0 then 1
  else
    let pcb := (5 - √(1 + 24 * (1 - f))) / 4
    let bigT := T / 2.7
    let zeq := 2.5e4 * om * (bigT ^ 4)⁻¹
    let D := (1 + zeq) * g
    let q := k * h * bigT ^ 2 / om
    let yfs := 17.2 * f * (1 + 0.488 * f ^ (-7 / 6 : ℝ)) * (N * q / f) ^ 2
    let Dcb := (1 + (D / (1 + yfs)) ^ (0.7 : ℝ)) ^ (pcb / 0.7)
    let Dcbnu := ((1 - f) ^ (0.7 / pcb) + (D / (1 + yfs)) ^ (0.7 : ℝ)) ^ (pcb / 0.7)
    Dcb / Dcbnu

/-- `k_space` (hmi.py:1623) as a function of `rk` -/
noncomputable def topHat (x : ℝ) : ℝ := 3 / x ^ 3 * (Real.sin x - x * Real.cos x)

/-- `sigmaR_cc` (hmi.py:1602-1628) for one radius -/
noncomputable def sigmaRcc (n : ℕ) (power k : ℕ → ℝ) (r : ℝ) : ℝ :=
  let dlnk := Real.log (k 1 / k 0)
  √(0.5 / Real.pi ^ 2 * simpsonDx n dlnk fun i => power i * k i ^ 3 * topHat (r * k i) ^ 2)

open Classical in
/-- the body of the loop of `get_halo_collapse_redshifts` (hmi.py:1659-1670): `sigma` is the fluctuation at a hundredth of the
mass, `solve` is `root_scalar(…, bracket=(1e-3, 1.0)).root` -/
noncomputable def collapse (solve : (ℝ → ℝ) → Except PyErr ℝ) (g : ℝ → ℝ) (a dc sigma : ℝ) : Except PyErr ℝ := do
  let fac := g a * dc / sigma
  let af ← if g a ≤ fac then .ok a else solve fun af => g af - fac
  return -1 + 1 / af

/-- `get_halo_collapse_redshifts` (hmi.py:1632-1671): `a` is `cosmo.scale_factor(z)`, `sigma` the fluctuation as a function of mass
(`mf.normalised_filter.sigma` of `mf.filter.mass_to_radius`, package hmf) -/
noncomputable def collapseRedshifts (solve : (ℝ → ℝ) → Except PyErr ℝ) (g sigma : ℝ → ℝ) (a dc : ℝ) (M : List ℝ) :
    Except PyErr (List ℝ) := M.mapM fun m => collapse solve g a dc (sigma (0.01 * m))

/-- `root_scalar(f, bracket=(1e-3, 1.0))` of scipy (assumed contract, the tolerance is ignored): values of the same sign at both ends are a
`ValueError`; otherwise a continuous function has the result as a root in the bracket -/
structure Bracketing (solve : (ℝ → ℝ) → Except PyErr ℝ) : Prop where
  refuse : ∀ f, 0 < f 1e-3 * f 1 → solve f = .error .valueError
  root : ∀ f, f 1e-3 * f 1 ≤ 0 → ContinuousOn f (Set.Icc 1e-3 1) → ∃ x ∈ Set.Icc (1e-3 : ℝ) 1, solve f = .ok x ∧ f x = 0

end Verif.ColdMatter

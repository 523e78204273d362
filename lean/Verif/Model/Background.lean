import Mathlib.Analysis.SpecialFunctions.Pow.Deriv
import Mathlib.Analysis.SpecialFunctions.Log.Base
import Mathlib.Analysis.SpecialFunctions.Trigonometric.Basic
import Mathlib.MeasureTheory.Integral.IntervalIntegral.Basic
import Mathlib.Analysis.Calculus.Deriv.Prod

/-!
# Background cosmology and HMcode collapse fits (`/repo/src/onepower/hmi.py`, `CosmologyBase`)

`astropy.cosmology.Flatw0waCDM.w` and `.de_density_scale` are external; the definitions `wDe` and `deScale`
transcribe astropy's documented formulas.
-/

namespace Verif.Background

/-- the parameters that enter (hmi.py:230-248): dark energy equation of state -/
structure DarkEnergy where
  w0 : ℝ
  wa : ℝ

/-- astropy `w(z) = w0 + wa z / (1 + z)` (external contract) -/
noncomputable def DarkEnergy.w (c : DarkEnergy) (z : ℝ) : ℝ := c.w0 + c.wa * z / (1 + z)

/-- astropy `de_density_scale(z) = (1 + z)^(3 (1 + w0 + wa)) exp(-3 wa z / (1 + z))` (external contract) -/
noncomputable def DarkEnergy.deScale (c : DarkEnergy) (z : ℝ) : ℝ :=
  (1 + z) ^ (3 * (1 + c.w0 + c.wa)) * Real.exp (-3 * c.wa * z / (1 + z))

variable (c : DarkEnergy)

/-- `scale_factor` (hmi.py:256-265) -/
noncomputable def scaleFactor (z : ℝ) : ℝ := 1 / (1 + z)

/-- `_Hubble2` (hmi.py:290-313) -/
noncomputable def hubble2 (a Om Ode Ok : ℝ) : ℝ :=
  let z := -1 + 1 / a;
  Om * a ^ (-3 : ℤ) + Ode * c.deScale z + Ok * a ^ (-2 : ℤ)

/-- `_Omega_m` (hmi.py:267-288) -/
noncomputable def omegaM (a Om Ode Ok : ℝ) : ℝ := Om * a ^ (-3 : ℤ) / hubble2 c a Om Ode Ok

/-- `_AH` (hmi.py:315-341) -/
noncomputable def ah (a Om Ode : ℝ) : ℝ :=
  let z := -1 + 1 / a;
  -0.5 * (Om * a ^ (-3 : ℤ) + (1 + 3 * c.w z) * Ode * c.deScale z)

/-- `a_init` (hmi.py:355, 404) -/
noncomputable def aInit : ℝ := 1e-4

/-- `f` (hmi.py:362) -/
noncomputable def fInit (Om Ode Ok : ℝ) : ℝ := 1 - omegaM c aInit Om Ode Ok

/-- `y0 = (d_init, v_init)` (hmi.py:363-369) -/
noncomputable def growthInit (Om Ode Ok : ℝ) : ℝ × ℝ :=
  let f := fInit c Om Ode Ok
  (aInit ^ (1 - 3 * f / 5), (1 - 3 * f / 5) * aInit ^ (-3 * f / 5))

/-- `fun(a, y)`, the right-hand side of the growth equation (hmi.py:371-377) -/
noncomputable def growthRhs (Om Ode Ok a : ℝ) (y : ℝ × ℝ) : ℝ × ℝ :=
  let fv := -(2 + ah c a Om Ode / hubble2 c a Om Ode Ok) * y.2 / a
  let fd := 1.5 * omegaM c a Om Ode Ok * y.1 / a ^ 2
  (y.2, fv + fd)

/-- what `solve_ivp(fun, (a[0], a[-1]), y0, t_eval=a)` approximates (hmi.py:360, 370-379): an exact solution of the growth
equation on the interval from `a_init` to today with the initial values of the code.  The steps of the integrator and the
cubic interpolation between its 129 outputs (hmi.py:380) are idealised away. -/
structure Solves (Om Ode Ok : ℝ) (y : ℝ → ℝ × ℝ) : Prop where
  init : y aInit = growthInit c Om Ode Ok
  eqn : ∀ a ∈ Set.Icc aInit 1, HasDerivWithinAt y (growthRhs c Om Ode Ok a (y a)) (Set.Icc aInit 1) a

/-- `get_mead_accumulated_growth` (hmi.py:395-415) for a growth function `g`; `scipy.integrate.quad` is the
exact integral. -/
noncomputable def accumulatedGrowth (g : ℝ → ℝ) (a : ℝ) : ℝ := (∫ x in aInit..a, g x / x) + g aInit

/-- `f_Mead` (hmi.py:417-436) -/
noncomputable def fMead (x y p0 p1 p2 p3 : ℝ) : ℝ := p0 + p1 * (1 - x) + p2 * (1 - x) ^ 2 + p3 * (1 - y)

/-- `dc_Mead` (hmi.py:439-470): growth `g`, accumulated growth `G`, scale factor `a`, matter fraction `Om`,
neutrino fraction `fnu`; `np.log10(Om) ** 0` is 1 also for `Om = 1`. -/
noncomputable def dcMead (g G a Om fnu : ℝ) : ℝ :=
  let d := 1 + fMead (g / a) (G / a) (-0.0069) (-0.0208) 0.0312 0.0021 * Real.logb 10 Om ^ 1
    + fMead (g / a) (G / a) 0.0001 (-0.0647) (-0.0417) 0.0646 * Real.logb 10 Om ^ 0
  let dc0 := 3 / 20 * (12 * Real.pi) ^ (2 / 3 : ℝ)
  d * dc0 * (1 - 0.041 * fnu)

/-- `Dv_Mead` (hmi.py:472-501) -/
noncomputable def dvMead (g G a Om fnu : ℝ) : ℝ :=
  let d := 1 + fMead (g / a) (G / a) (-0.79) (-10.17) 2.51 6.51 * Real.logb 10 Om ^ 1
    + fMead (g / a) (G / a) (-1.89) 0.38 18.8 (-15.87) * Real.logb 10 Om ^ 2
  let dv0 := 18 * Real.pi ^ 2
  d * dv0 * (1 + 0.763 * fnu)

end Verif.Background

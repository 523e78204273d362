import Verif.Lib.Simpson
import Verif.Lib.Interp
import Verif.Lib.Special
import Verif.Lib.Py

/-!
# Model of `/repo/src/onepower/hod.py` and `/repo/src/onepower/utils/poisson.py`

`b` is the galaxy bin, `j` the index of a redshift of the occupation model (`self.z[b]`), `i` the index of
a redshift of the spectra (`self.z_vec`), `m` the mass index.  Arrays are index functions; reals replace
floats.  The number of rows of the arrays is modelled separately (`Rows` section at the end).
-/

namespace Verif.Hod

open Verif.Lib

/-- State of `HaloOccupationDistribution` (hod.py:74-91): spectra redshifts `z_vec`, mass function and bias
on them, the redshift nodes `z[b]` (hod.py:221-241), and the occupations of the concrete subclass at those
nodes (`_compute_hod_cen`, `_compute_hod_sat`). -/
structure Base where
  nzv : ℕ
  zVec : ℕ → ℝ
  nm : ℕ
  mass : ℕ → ℝ
  dndlnm : ℕ → ℕ → ℝ
  haloBias : ℕ → ℕ → ℝ
  nz : ℕ
  z : ℕ → ℕ → ℝ
  occCen : ℕ → ℕ → ℕ → ℝ
  occSat : ℕ → ℕ → ℕ → ℝ

namespace Base

variable (h : Base)

/-- `_compute_hod` (hod.py:671-676). -/
noncomputable def occ (b j m : ℕ) : ℝ := h.occCen b j m + h.occSat b j m

/-- `dndlnm_int` (hod.py:117-137).  The shortcut `np.array_equal(self.z, self.z_vec)` is never taken:
`self.z` has two axes and `z_vec` one. -/
noncomputable def dndlnmInt (b j m : ℕ) : ℝ :=
  interp1d .extrapolate h.nzv h.zVec (fun i => h.dndlnm i m) (h.z b j)

/-- `halo_bias_int` (hod.py:139-159). -/
noncomputable def haloBiasInt (b j m : ℕ) : ℝ :=
  interp1d .extrapolate h.nzv h.zVec (fun i => h.haloBias i m) (h.z b j)

/-- `_mass_integral` (hod.py:272-287). -/
noncomputable def massIntegral (N : ℕ → ℕ → ℕ → ℝ) (b j : ℕ) : ℝ :=
  simpson h.nm h.mass (fun m => N b j m * h.dndlnmInt b j m / h.mass m)

/-- `_mean_mass_integral` (hod.py:289-304). -/
noncomputable def meanMassIntegral (N : ℕ → ℕ → ℕ → ℝ) (b j : ℕ) : ℝ :=
  simpson h.nm h.mass (fun m => N b j m * h.dndlnmInt b j m)

/-- `_ncen` (hod.py:349-357). -/
noncomputable def ncen (b j : ℕ) : ℝ := h.massIntegral h.occCen b j
/-- `_nsat` (hod.py:359-367). -/
noncomputable def nsat (b j : ℕ) : ℝ := h.massIntegral h.occSat b j
/-- `_ntot` (hod.py:369-377). -/
noncomputable def ntot (b j : ℕ) : ℝ := h.massIntegral h.occ b j

/-- `_bias_integral` (hod.py:306-321). -/
noncomputable def biasIntegral (N : ℕ → ℕ → ℕ → ℝ) (b j : ℕ) : ℝ :=
  simpson h.nm h.mass (fun m => N b j m * h.haloBiasInt b j m * h.dndlnmInt b j m / h.mass m)
    / h.ntot b j

/-- `_interpolate` for one-dimensional data per bin (hod.py:323-347). -/
noncomputable def interpolate (fill : Fill) (data : ℕ → ℕ → ℝ) (b i : ℕ) : ℝ :=
  interp1d fill h.nz (h.z b) (data b) (h.zVec i)

/-- `number_density_cen` (hod.py:433-443). -/
noncomputable def numberDensityCen (b i : ℕ) : ℝ := h.interpolate .extrapolate h.ncen b i
/-- `number_density_sat` (hod.py:445-455). -/
noncomputable def numberDensitySat (b i : ℕ) : ℝ := h.interpolate .extrapolate h.nsat b i
/-- `number_density` (hod.py:457-467). -/
noncomputable def numberDensity (b i : ℕ) : ℝ := h.interpolate .extrapolate h.ntot b i

/-- `f_c` (hod.py:469-480). -/
noncomputable def fC (b i : ℕ) : ℝ :=
  h.interpolate (.value 0) (fun b j => h.ncen b j / h.ntot b j) b i
/-- `f_s` (hod.py:482-493). -/
noncomputable def fS (b i : ℕ) : ℝ :=
  h.interpolate (.value 0) (fun b j => h.nsat b j / h.ntot b j) b i

/-- `avg_halo_mass_cen` (hod.py:379-386, 495-505). -/
noncomputable def avgHaloMassCen (b i : ℕ) : ℝ :=
  h.interpolate (.value 0) (h.meanMassIntegral h.occCen) b i
/-- `avg_halo_mass_sat` (hod.py:388-395, 507-517). -/
noncomputable def avgHaloMassSat (b i : ℕ) : ℝ :=
  h.interpolate (.value 0) (h.meanMassIntegral h.occSat) b i
/-- `avg_halo_mass` (hod.py:397-404, 519-529). -/
noncomputable def avgHaloMass (b i : ℕ) : ℝ :=
  h.interpolate (.value 0) (h.meanMassIntegral h.occ) b i

/-- `galaxy_linear_bias_cen` (hod.py:406-413, 531-541). -/
noncomputable def galaxyLinearBiasCen (b i : ℕ) : ℝ := h.interpolate .extrapolate (h.biasIntegral h.occCen) b i
/-- `galaxy_linear_bias_sat` (hod.py:415-422, 543-553). -/
noncomputable def galaxyLinearBiasSat (b i : ℕ) : ℝ := h.interpolate .extrapolate (h.biasIntegral h.occSat) b i
/-- `galaxy_linear_bias` (hod.py:424-431, 555-565). -/
noncomputable def galaxyLinearBias (b i : ℕ) : ℝ := h.interpolate .extrapolate (h.biasIntegral h.occ) b i

/-- `_interpolate(..., axis=0)` for data with a mass axis (hod.py:323-347). -/
noncomputable def interpolateMass (N : ℕ → ℕ → ℕ → ℝ) (b i m : ℕ) : ℝ :=
  h.interpolate .extrapolate (fun b j => N b j m) b i

/-- `hod_cen` (hod.py:567-577). -/
noncomputable def hodCen (b i m : ℕ) : ℝ := h.interpolateMass h.occCen b i m
/-- `hod_sat` (hod.py:579-589). -/
noncomputable def hodSat (b i m : ℕ) : ℝ := h.interpolateMass h.occSat b i m
/-- `hod` (hod.py:591-601). -/
noncomputable def hod (b i m : ℕ) : ℝ := h.interpolateMass h.occ b i m

/-- `stellar_fraction`, `stellar_fraction_cen`, `stellar_fraction_sat` (hod.py:603-655): `frac` is the
corresponding `_compute_stellar_fraction*` (`None` in the base class, hod.py:678-688), `unit` is
`hod_settings['observable_h_unit']`, `littleH` is `cosmo.h`. -/
noncomputable def stellarFraction (frac : Option (ℕ → ℕ → ℕ → ℝ)) (unit : String) (littleH : ℝ)
    (b i m : ℕ) : ℝ :=
  match frac with
  | none => 0
  | some f =>
    if unit = "1/h^2" then h.interpolateMass f b i m * littleH else h.interpolateMass f b i m

end Base

/-! ## Assembly bias decoration -/

/-- decoration of centrals (hod.py:999-1002 and the same lines of every model). -/
noncomputable def decorateCen (A : Option ℝ) (N : ℝ) : ℝ :=
  match A with
  | none => N
  | some a => N + a * min N (1 - N)

/-- decoration of satellites (hod.py:1013-1015 and the same lines of every model). -/
noncomputable def decorateSat (A : Option ℝ) (N : ℝ) : ℝ :=
  match A with
  | none => N
  | some a => N + a * N

/-! ## Simple and Zehavi -/

/-- parameters of `Simple` (hod.py:1068-1074) and `Zehavi` (hod.py:1185-1191) for one galaxy bin -/
structure StepParams where
  log10Mmin : ℝ
  log10Msat : ℝ
  alpha : ℝ
  aCen : Option ℝ
  aSat : Option ℝ

/-- `Simple._compute_hod_cen` (hod.py:1135-1144), same at every redshift (`np.tile`). -/
noncomputable def simpleCen (p : StepParams) (M : ℝ) : ℝ :=
  decorateCen p.aCen (heaviside (M - (10 : ℝ) ^ p.log10Mmin) 1)

/-- `Simple._compute_hod_sat` (hod.py:1146-1155). -/
noncomputable def simpleSat (p : StepParams) (M : ℝ) : ℝ :=
  decorateSat p.aSat (simpleCen p M * (M / (10 : ℝ) ^ p.log10Msat) ^ p.alpha)

/-- `Zehavi._compute_hod_cen` (hod.py:1252-1261). -/
noncomputable def zehaviCen (p : StepParams) (M : ℝ) : ℝ :=
  decorateCen p.aCen (heaviside (M - (10 : ℝ) ^ p.log10Mmin) 1)

/-- `Zehavi._compute_hod_sat` (hod.py:1263-1272). -/
noncomputable def zehaviSat (p : StepParams) (M : ℝ) : ℝ :=
  decorateSat p.aSat ((M / (10 : ℝ) ^ p.log10Msat) ^ p.alpha)

/-! ## Zheng -/

/-- parameters of `Zheng` (hod.py:1302-1310) for one galaxy bin -/
structure ZhengParams where
  log10Mmin : ℝ
  log10M0 : ℝ
  log10M1 : ℝ
  sigma : ℝ
  alpha : ℝ
  aCen : Option ℝ
  aSat : Option ℝ

open Classical in
/-- the central occupation shared by `Zheng` and `Zhai` before decoration (hod.py:1413-1417,
1575-1579). -/
noncomputable def erfCen (log10Mmin sigma M : ℝ) : ℝ :=
  if sigma = 0 then heaviside (M - (10 : ℝ) ^ log10Mmin) 1
  else 0.5 * (1 + erf (log10 (M / (10 : ℝ) ^ log10Mmin) / sigma))

/-- `Zheng._compute_hod_cen` (hod.py:1408-1421). -/
noncomputable def zhengCen (p : ZhengParams) (M : ℝ) : ℝ :=
  decorateCen p.aCen (erfCen p.log10Mmin p.sigma M)

/-- `Zheng._compute_hod_sat` (hod.py:1423-1434). -/
noncomputable def zhengSat (p : ZhengParams) (M : ℝ) : ℝ :=
  decorateSat p.aSat
    ((heaviside (M - (10 : ℝ) ^ p.log10M0) 1 * (M - (10 : ℝ) ^ p.log10M0) / (10 : ℝ) ^ p.log10M1)
      ^ p.alpha)

/-! ## Zhai -/

/-- parameters of `Zhai` (hod.py:1464-1472) for one galaxy bin -/
structure ZhaiParams where
  log10Mmin : ℝ
  log10Msat : ℝ
  log10Mcut : ℝ
  sigma : ℝ
  alpha : ℝ
  aCen : Option ℝ
  aSat : Option ℝ

/-- `Zhai._compute_hod_cen` (hod.py:1570-1583). -/
noncomputable def zhaiCen (p : ZhaiParams) (M : ℝ) : ℝ :=
  decorateCen p.aCen (erfCen p.log10Mmin p.sigma M)

/-- `Zhai._compute_hod_sat` (hod.py:1585-1595). -/
noncomputable def zhaiSat (p : ZhaiParams) (M : ℝ) : ℝ :=
  decorateSat p.aSat
    ((M / (10 : ℝ) ^ p.log10Msat) ^ p.alpha * Real.exp (-(10 : ℝ) ^ p.log10Mcut / M))

/-! ## Cacciato -/

/-- parameters of `Cacciato` (hod.py:748-764) -/
structure CacciatoParams where
  log10ObsNormC : ℝ
  log10Mch : ℝ
  g1 : ℝ
  g2 : ℝ
  sigmaLog10Oc : ℝ
  normS : ℝ
  pivot : ℝ
  alphaS : ℝ
  betaS : ℝ
  b0 : ℝ
  b1 : ℝ
  b2 : ℝ
  aCen : Option ℝ
  aSat : Option ℝ

namespace CacciatoParams

variable (p : CacciatoParams)

/-- `M_char` (hod.py:766-776). -/
noncomputable def mChar : ℝ := (10 : ℝ) ^ p.log10Mch
/-- `Obs_norm_c` (hod.py:778-788). -/
noncomputable def obsNormC : ℝ := (10 : ℝ) ^ p.log10ObsNormC

/-- `cal_mean_obs_c` (hod.py:940-968). -/
noncomputable def meanObsC (M : ℝ) : ℝ :=
  p.obsNormC * (M / p.mChar) ^ p.g1 / (1 + M / p.mChar) ^ (p.g1 - p.g2)

/-- `phi_star_s` (hod.py:970-990). -/
noncomputable def phiStarS (M : ℝ) : ℝ :=
  (10 : ℝ) ^ (p.b0 + p.b1 * (log10 M - p.pivot) + p.b2 * (log10 M - p.pivot) ^ 2)

/-- `COF_cen` (hod.py:790-817) at halo mass `M` and observable `O`. -/
noncomputable def cofCen (M O : ℝ) : ℝ :=
  1 / (Real.sqrt (2 * Real.pi) * Real.log 10 * p.sigmaLog10Oc * O)
    * Real.exp (-(log10 (O / p.meanObsC M)) ^ 2 / (2 * p.sigmaLog10Oc ^ 2))

/-- `COF_sat` (hod.py:819-842). -/
noncomputable def cofSat (M O : ℝ) : ℝ :=
  p.phiStarS M / (p.normS * p.meanObsC M) * (O / (p.normS * p.meanObsC M)) ^ p.alphaS
    * Real.exp (-(O / (p.normS * p.meanObsC M)) ^ p.betaS)

/-- `COF` (hod.py:844-854). -/
noncomputable def cof (M O : ℝ) : ℝ := p.cofCen M O + p.cofSat M O

/-- `_compute_hod_cen` (hod.py:992-1003); `obs` is the row of the observable grid (hod.py:93-115). -/
noncomputable def hodCen (nobs : ℕ) (obs : ℕ → ℝ) (M : ℝ) : ℝ :=
  decorateCen p.aCen (simpson nobs obs (fun o => p.cofCen M (obs o)))

/-- `_compute_hod_sat` (hod.py:1005-1016). -/
noncomputable def hodSat (nobs : ℕ) (obs : ℕ → ℝ) (M : ℝ) : ℝ :=
  decorateSat p.aSat (simpson nobs obs (fun o => p.cofSat M (obs o)))

/-- `_compute_stellar_fraction_cen` (hod.py:1018-1026). -/
noncomputable def stellarCen (nobs : ℕ) (obs : ℕ → ℝ) (M : ℝ) : ℝ :=
  simpson nobs obs (fun o => p.cofCen M (obs o) * obs o) / M

/-- `_compute_stellar_fraction_sat` (hod.py:1028-1036). -/
noncomputable def stellarSat (nobs : ℕ) (obs : ℕ → ℝ) (M : ℝ) : ℝ :=
  simpson nobs obs (fun o => p.cofSat M (obs o) * obs o) / M

/-- `_compute_stellar_fraction` (hod.py:1038-1046). -/
noncomputable def stellar (nobs : ℕ) (obs : ℕ → ℝ) (M : ℝ) : ℝ :=
  simpson nobs obs (fun o => p.cof M (obs o) * obs o) / M

/-- `obs_func_cen` (hod.py:856-882): `n` is `dndlnm_int` at one bin and redshift. -/
noncomputable def obsFuncCen (nm : ℕ) (mass n : ℕ → ℝ) (O : ℝ) : ℝ :=
  simpson nm mass (fun m => p.cofCen (mass m) O * n m / mass m)

/-- `obs_func_sat` (hod.py:884-910). -/
noncomputable def obsFuncSat (nm : ℕ) (mass n : ℕ → ℝ) (O : ℝ) : ℝ :=
  simpson nm mass (fun m => p.cofSat (mass m) O * n m / mass m)

/-- `obs_func` (hod.py:912-938). -/
noncomputable def obsFunc (nm : ℕ) (mass n : ℕ → ℝ) (O : ℝ) : ℝ :=
  simpson nm mass (fun m => p.cof (mass m) O * n m / mass m)

end CacciatoParams

/-- `Spectra.obs_func` and `obs_func_cen/sat` (pk.py:1723-1763): conversion to units per dex. -/
noncomputable def perDex (O f : ℝ) : ℝ := Real.log 10 * O * f

/-- one row of `obs` (hod.py:93-115). -/
noncomputable def obsRow (logMin logMax : ℝ) (nobs o : ℕ) : ℝ := logspace logMin logMax nobs o

/-! ## Rows: how many bins the results have -/

/-- rows of `self.z` (hod.py:221-241): the pairs made by `zip(zmin, zmax, strict=False)`. -/
def zRows (zmin zmax : List ℝ) : List (ℝ × ℝ) := zmin.zip zmax

/-- `nbins` (hod.py:193-204) without an observables file. -/
def nbins (obsMin : List ℝ) : ℕ := obsMin.length

/-- length of an axis after numpy broadcasting of two arrays, `ValueError` if the lengths do not match. -/
def broadcast (a c : ℕ) : Except PyErr ℕ :=
  if a = c then .ok a else if a = 1 then .ok c else if c = 1 then .ok a else .error .valueError

/-- `_interpolate` (hod.py:340-347) on data with `rows` rows: it runs over the rows of `self.z`, indexing
`data[i]`; returns how many rows of the data the result has. -/
def interpolateRows (zmin zmax : List ℝ) (rows : ℕ) : Except PyErr ℕ :=
  if (zRows zmin zmax).length ≤ rows then .ok (zRows zmin zmax).length else .error .indexError

/-- rows of `hod_cen`, `hod_sat`, `hod` (hod.py:567-601) for an occupation with `rows` rows. -/
def hodRows (zmin zmax : List ℝ) (rows : ℕ) : Except PyErr ℕ := interpolateRows zmin zmax rows

/-- rows of `number_density*` and `galaxy_linear_bias*` (hod.py:272-321, 433-565): the mass integral first
broadcasts the occupation (`rows` rows) against `dndlnm_int` (one row per row of `self.z`). -/
def densityRows (zmin zmax : List ℝ) (rows : ℕ) : Except PyErr ℕ := do
  interpolateRows zmin zmax (← broadcast rows (zRows zmin zmax).length)

end Verif.Hod

namespace Verif.Poisson

open Verif.Lib

/-- `constant.poisson_func` (utils/poisson.py:36-43) at one mass. -/
noncomputable def constant (poisson : ℝ) (_M : ℝ) : ℝ := poisson * 1

/-- `power_law.poisson_func` (utils/poisson.py:46-60) at one mass. -/
noncomputable def powerLaw (poisson : ℝ) (pivot slope : Option ℝ) (M : ℝ) : Except PyErr ℝ :=
  match pivot, slope with
  | some M0, some a => .ok (poisson * (M / (10 : ℝ) ^ M0) ^ a)
  | _, _ => .error .valueError

end Verif.Poisson

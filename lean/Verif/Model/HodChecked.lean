import Verif.Lib.Checked
import Verif.Model.Hod

/-!
# The occupation model of `/repo/src/onepower/hod.py` with invalid operations

`Model/Hod` computes in the real numbers, where every division and every power has a value.  This file repeats the same lines
of hod.py in `Ck`, in which a division by zero, a logarithm of a number that is not positive, a negative number to a
non-integer power and zero to a negative power are `bad`.  Masses, observables, redshifts, mass function and halo bias are
numbers.
-/

namespace Verif.HodChecked

open Verif.Lib Verif.Lib.Ck Verif.Hod

open Classical in
/-- `np.log10`: infinite at zero, not a number below -/
noncomputable def log10 : Ck → Ck
  | .num x => if x ≤ 0 then .bad else .num (Lib.log10 x)
  | .bad => .bad

/-- `np.heaviside(x, h0)` -/
noncomputable def heaviside (h0 : ℝ) : Ck → Ck
  | .num x => .num (Lib.heaviside x h0)
  | .bad => .bad

/-- `scipy.special.erf` -/
noncomputable def erf : Ck → Ck
  | .num x => .num (Lib.erf x)
  | .bad => .bad

/-- `np.fmin`.  numpy's `fmin` skips a `nan`; here a bad argument gives a bad result, which makes no difference in hod.py
because both arguments are made of the same number (hod.py:1001) and the result is added to it. -/
noncomputable def fmin (x y : Ck) : Ck := lift2 min x y

/-- `10.0**x` -/
noncomputable def ten (x : ℝ) : Ck := (Ck.num 10).rpow (.num x)

/-- decoration of centrals (hod.py:999-1002 and the same lines of every model). -/
noncomputable def decorateCen (A : Option ℝ) (N : Ck) : Ck :=
  match A with
  | none => N
  | some a => N + .num a * fmin N (.num 1 - N)

/-- decoration of satellites (hod.py:1013-1015 and the same lines of every model). -/
noncomputable def decorateSat (A : Option ℝ) (N : Ck) : Ck :=
  match A with
  | none => N
  | some a => N + .num a * N

/-- `Simple._compute_hod_cen` (hod.py:1135-1144). -/
noncomputable def simpleCen (p : StepParams) (M : ℝ) : Ck :=
  decorateCen p.aCen (heaviside 1 (.num M - ten p.log10Mmin))

/-- `Simple._compute_hod_sat` (hod.py:1146-1155). -/
noncomputable def simpleSat (p : StepParams) (M : ℝ) : Ck :=
  decorateSat p.aSat (simpleCen p M * (Ck.num M / ten p.log10Msat).rpow (.num p.alpha))

/-- `Zehavi._compute_hod_cen` (hod.py:1252-1261). -/
noncomputable def zehaviCen (p : StepParams) (M : ℝ) : Ck :=
  decorateCen p.aCen (heaviside 1 (.num M - ten p.log10Mmin))

/-- `Zehavi._compute_hod_sat` (hod.py:1263-1272). -/
noncomputable def zehaviSat (p : StepParams) (M : ℝ) : Ck :=
  decorateSat p.aSat ((Ck.num M / ten p.log10Msat).rpow (.num p.alpha))

open Classical in
/-- the central occupation shared by `Zheng` and `Zhai` before decoration (hod.py:1413-1417, 1575-1579).  `np.where`
computes both alternatives and throws the one that is not selected away, whatever it is. -/
noncomputable def erfCen (log10Mmin sigma M : ℝ) : Ck :=
  if sigma = 0 then heaviside 1 (.num M - ten log10Mmin)
  else .num 0.5 * (.num 1 + erf (log10 (.num M / ten log10Mmin) / .num sigma))

/-- `Zheng._compute_hod_cen` (hod.py:1408-1421). -/
noncomputable def zhengCen (p : ZhengParams) (M : ℝ) : Ck :=
  decorateCen p.aCen (erfCen p.log10Mmin p.sigma M)

/-- `Zheng._compute_hod_sat` (hod.py:1423-1434). -/
noncomputable def zhengSat (p : ZhengParams) (M : ℝ) : Ck :=
  decorateSat p.aSat
    ((heaviside 1 (.num M - ten p.log10M0) * (.num M - ten p.log10M0) / ten p.log10M1).rpow (.num p.alpha))

/-- `Zhai._compute_hod_cen` (hod.py:1570-1583). -/
noncomputable def zhaiCen (p : ZhaiParams) (M : ℝ) : Ck :=
  decorateCen p.aCen (erfCen p.log10Mmin p.sigma M)

/-- `Zhai._compute_hod_sat` (hod.py:1585-1595). -/
noncomputable def zhaiSat (p : ZhaiParams) (M : ℝ) : Ck :=
  decorateSat p.aSat
    ((Ck.num M / ten p.log10Msat).rpow (.num p.alpha) * (-ten p.log10Mcut / Ck.num M).exp)

/-! ## Cacciato -/

section Cacciato

variable (p : CacciatoParams)

/-- `cal_mean_obs_c` (hod.py:940-968), with `M_char` and `Obs_norm_c` (hod.py:766-788). -/
noncomputable def meanObsC (M : ℝ) : Ck :=
  ten p.log10ObsNormC * (Ck.num M / ten p.log10Mch).rpow (.num p.g1)
    / (.num 1 + Ck.num M / ten p.log10Mch).rpow (.num (p.g1 - p.g2))

/-- `phi_star_s` (hod.py:970-990). -/
noncomputable def phiStarS (M : ℝ) : Ck :=
  (Ck.num 10).rpow (.num p.b0 + .num p.b1 * (log10 (.num M) - .num p.pivot)
    + .num p.b2 * (log10 (.num M) - .num p.pivot) ^ 2)

/-- `COF_cen` (hod.py:790-817) at halo mass `M` and observable `O`. -/
noncomputable def cofCen (M O : ℝ) : Ck :=
  .num 1 / (.num (Real.sqrt (2 * Real.pi) * Real.log 10) * .num p.sigmaLog10Oc * .num O)
    * (-(log10 (Ck.num O / meanObsC p M)) ^ 2 / (Ck.num 2 * (Ck.num p.sigmaLog10Oc) ^ 2)).exp

/-- `COF_sat` (hod.py:819-842). -/
noncomputable def cofSat (M O : ℝ) : Ck :=
  phiStarS p M / (.num p.normS * meanObsC p M)
    * (Ck.num O / (.num p.normS * meanObsC p M)).rpow (.num p.alphaS)
    * (-(Ck.num O / (.num p.normS * meanObsC p M)).rpow (.num p.betaS)).exp

/-- `COF` (hod.py:844-854). -/
noncomputable def cof (M O : ℝ) : Ck := cofCen p M O + cofSat p M O

/-- `_compute_hod_cen` (hod.py:992-1003). -/
noncomputable def hodCen (nobs : ℕ) (obs : ℕ → ℝ) (M : ℝ) : Ck :=
  decorateCen p.aCen (simpsonCk nobs obs fun o => cofCen p M (obs o))

/-- `_compute_hod_sat` (hod.py:1005-1016). -/
noncomputable def hodSat (nobs : ℕ) (obs : ℕ → ℝ) (M : ℝ) : Ck :=
  decorateSat p.aSat (simpsonCk nobs obs fun o => cofSat p M (obs o))

/-- `_compute_stellar_fraction_cen` (hod.py:1018-1026). -/
noncomputable def stellarCen (nobs : ℕ) (obs : ℕ → ℝ) (M : ℝ) : Ck :=
  simpsonCk nobs obs (fun o => cofCen p M (obs o) * .num (obs o)) / .num M

/-- `_compute_stellar_fraction_sat` (hod.py:1028-1036). -/
noncomputable def stellarSat (nobs : ℕ) (obs : ℕ → ℝ) (M : ℝ) : Ck :=
  simpsonCk nobs obs (fun o => cofSat p M (obs o) * .num (obs o)) / .num M

/-- `_compute_stellar_fraction` (hod.py:1038-1046). -/
noncomputable def stellar (nobs : ℕ) (obs : ℕ → ℝ) (M : ℝ) : Ck :=
  simpsonCk nobs obs (fun o => cof p M (obs o) * .num (obs o)) / .num M

end Cacciato

/-! ## The base class -/

section Base

variable (h : Base) (cen sat : ℕ → ℕ → ℕ → Ck)

/-- `_compute_hod` (hod.py:671-676); `cen` and `sat` are the occupations of the concrete class. -/
def occ (b j m : ℕ) : Ck := cen b j m + sat b j m

/-- `_mass_integral` (hod.py:272-287). -/
noncomputable def massIntegral (N : ℕ → ℕ → ℕ → Ck) (b j : ℕ) : Ck :=
  simpsonCk h.nm h.mass (fun m => N b j m * .num (h.dndlnmInt b j m) / .num (h.mass m))

/-- `_mean_mass_integral` (hod.py:289-304). -/
noncomputable def meanMassIntegral (N : ℕ → ℕ → ℕ → Ck) (b j : ℕ) : Ck :=
  simpsonCk h.nm h.mass (fun m => N b j m * .num (h.dndlnmInt b j m))

/-- `_ncen` (hod.py:349-357). -/
noncomputable def ncen (b j : ℕ) : Ck := massIntegral h cen b j
/-- `_nsat` (hod.py:359-367). -/
noncomputable def nsat (b j : ℕ) : Ck := massIntegral h sat b j
/-- `_ntot` (hod.py:369-377). -/
noncomputable def ntot (b j : ℕ) : Ck := massIntegral h (occ cen sat) b j

/-- `_bias_integral` (hod.py:306-321). -/
noncomputable def biasIntegral (N : ℕ → ℕ → ℕ → Ck) (b j : ℕ) : Ck :=
  simpsonCk h.nm h.mass (fun m => N b j m * .num (h.haloBiasInt b j m) * .num (h.dndlnmInt b j m) / .num (h.mass m))
    / ntot h cen sat b j

/-- `interp1d._call_linear` on values that may be bad: both nodes of the segment enter. -/
noncomputable def interpLinearCk (n : ℕ) (x : ℕ → ℝ) (y : ℕ → Ck) (q : ℝ) : Ck :=
  (y (Lib.segment n x q) - y (Lib.segment n x q - 1)) / .num (x (Lib.segment n x q) - x (Lib.segment n x q - 1))
    * .num (q - x (Lib.segment n x q - 1)) + y (Lib.segment n x q - 1)

open Classical in
/-- `interp1d` on values that may be bad; the fill value takes the place of whatever was computed outside the nodes -/
noncomputable def interpCk (fill : Fill) (n : ℕ) (x : ℕ → ℝ) (y : ℕ → Ck) (q : ℝ) : Ck :=
  match fill with
  | .extrapolate => interpLinearCk n x y q
  | .value c => if q < x 0 ∨ x (n - 1) < q then .num c else interpLinearCk n x y q

/-- `_interpolate` for one-dimensional data per bin (hod.py:323-347). -/
noncomputable def interpolate (fill : Fill) (data : ℕ → ℕ → Ck) (b i : ℕ) : Ck :=
  interpCk fill h.nz (h.z b) (data b) (h.zVec i)

/-- `f_c` (hod.py:469-480). -/
noncomputable def fC (b i : ℕ) : Ck := interpolate h (.value 0) (fun b j => ncen h cen b j / ntot h cen sat b j) b i
/-- `f_s` (hod.py:482-493). -/
noncomputable def fS (b i : ℕ) : Ck := interpolate h (.value 0) (fun b j => nsat h sat b j / ntot h cen sat b j) b i
/-- `number_density` (hod.py:457-467). -/
noncomputable def numberDensity (b i : ℕ) : Ck := interpolate h .extrapolate (ntot h cen sat) b i
/-- `galaxy_linear_bias` (hod.py:424-431, 555-565). -/
noncomputable def galaxyLinearBias (b i : ℕ) : Ck :=
  interpolate h .extrapolate (biasIntegral h cen sat (occ cen sat)) b i
/-- `hod_cen` (hod.py:567-577). -/
noncomputable def hodCenAt (b i m : ℕ) : Ck := interpolate h .extrapolate (fun b j => cen b j m) b i
/-- `hod_sat` (hod.py:579-589). -/
noncomputable def hodSatAt (b i m : ℕ) : Ck := interpolate h .extrapolate (fun b j => sat b j m) b i

end Base

end Verif.HodChecked

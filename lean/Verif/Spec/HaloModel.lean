import Mathlib.Analysis.SpecialFunctions.Pow.Real
import Mathlib.Analysis.SpecialFunctions.Log.Base

/-! The halo model as written in the literature (Cooray & Sheth 2002; Asgari, Mead & Heymans 2023), at one redshift
and one wavenumber: haloes of sampled masses, a rule for integrals over halo mass, and fields given by their weight
per halo.  No reference to the code. -/

namespace Verif.Spec

/-- haloes: a rule for integrals over mass, masses, number density per unit mass, linear bias; and the linear matter
power spectrum and the mean matter density -/
structure HaloModel where
  integral : (ℕ → ℝ) → ℝ
  mass : ℕ → ℝ
  number : ℕ → ℝ
  bias : ℕ → ℝ
  linear : ℝ
  density : ℝ

namespace HaloModel

variable (h : HaloModel)

/-- pairs inside one halo: `∫ W V n dM` -/
def oneHalo (W V : ℕ → ℝ) : ℝ := h.integral fun m => W m * V m * h.number m

/-- the bias of a field: `∫ W b n dM` -/
def bias1 (W : ℕ → ℝ) : ℝ := h.integral fun m => W m * h.bias m * h.number m

/-- the part of the matter that is not in the sampled haloes but must be there for matter to be unbiased with respect
to itself -/
noncomputable def missing : ℝ := 1 - h.bias1 fun m => h.mass m / h.density

/-- the weight of matter: halo mass over mean density times the normalised profile -/
noncomputable def matter (u : ℕ → ℝ) (m : ℕ) : ℝ := h.mass m / h.density * u m

/-- the weight of matter when a halo consists of a part `p` of its mass that follows the profile `u` and a part `c`
concentrated in its centre -/
noncomputable def matterParts (p c u : ℕ → ℝ) (m : ℕ) : ℝ := h.mass m / h.density * (p m * u m + c m)

/-- the weight of galaxies: mean occupations over mean number density, satellites spread like `u` -/
noncomputable def galaxies (cen sat : ℕ → ℝ) (n : ℝ) (u : ℕ → ℝ) (m : ℕ) : ℝ := (cen m + sat m * u m) / n

/-- the integral that includes the haloes below the first sampled mass, as if they had that mass -/
noncomputable def bias1Ext (W : ℕ → ℝ) : ℝ := h.bias1 W + h.missing * (h.density / h.mass 0) * W 0

end HaloModel

/-- the gas fraction of haloes of mass `M`, with half of the gas lost at mass `Mb` (Schneider & Teyssier 2015, Mead et
al. 2020, eq. 24) -/
noncomputable def gasFraction (baryons stars M Mb : ℝ) : ℝ := (baryons - stars) * (M ^ 2 / (M ^ 2 + Mb ^ 2))

/-- the stellar fraction fitted to the BAHAMAS simulations as a function of the AGN temperature `T` (in K)
and redshift (Mead et al. 2020, table 5) -/
noncomputable def starsBahamas (T z : ℝ) : ℝ :=
  (0.0201 - 0.003 * Real.logb 10 (T / 10 ^ (7.8 : ℝ)))
    * 10 ^ ((0.409 + 0.0224 * Real.logb 10 (T / 10 ^ (7.8 : ℝ))) * z)

/-- the decimal logarithm of the gas mass scale fitted to the BAHAMAS simulations (Mead et al. 2020, table 5) -/
noncomputable def logMassBahamas (T z : ℝ) : ℝ :=
  13.87 + 1.81 * Real.logb 10 (T / 10 ^ (7.8 : ℝ)) + (0.195 * Real.logb 10 (T / 10 ^ (7.8 : ℝ)) - 0.108) * z

/-- the dimensionless power `Δ² = k³ P / 2π²` -/
noncomputable def dimensionless (k P : ℝ) : ℝ := k ^ 3 / (2 * Real.pi ^ 2) * P

/-- HMcode-2020: damping of the 1-halo term below `k* = 0.05618 σ₈(z)^-1.013` -/
noncomputable def hmcodeOneHalo (k σ8 : ℝ) : ℝ :=
  (k / (0.05618 * σ8 ^ (-1.013 : ℝ))) ^ 4 / (1 + (k / (0.05618 * σ8 ^ (-1.013 : ℝ))) ^ 4)

/-- HMcode-2020: damping of the 2-halo term above `k_d = 0.05699 σ₈(z)^-1.089` -/
noncomputable def hmcodeTwoHalo (k σ8 : ℝ) : ℝ :=
  1 - 0.2696 * σ8 ^ (0.9403 : ℝ) * (k / (0.05699 * σ8 ^ (-1.089 : ℝ))) ^ (2.853 : ℝ)
    / (1 + (k / (0.05699 * σ8 ^ (-1.089 : ℝ))) ^ (2.853 : ℝ))

/-- HMcode-2020: the exponent of the smoothed transition between 1-halo and 2-halo terms -/
noncomputable def hmcodeAlpha (neff : ℝ) : ℝ := 1.875 * 1.603 ^ neff

end Verif.Spec

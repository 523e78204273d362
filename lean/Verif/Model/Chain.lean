import Verif.Model.SpectraDeps

/-!
# The `Spectra` object in a chain of CosmoSIS calls (`/repo/cosmosis_modules/onepower_interface.py`)

`setup` builds one `Spectra()` (line 640) and every `execute` updates that same object with the keyword arguments it
collected (lines 1024-1025), reads it, and, if alignments are asked for, updates its `hod_settings` and reads on
(lines 1126-1129).  Which keyword arguments are collected depends on the configuration only.

A call that raises has done an initial part of its steps.  The quantities read and their order are arbitrary here.
Simplifications: `hmf` merges a new value of a dictionary parameter into the old one; the calls always give the same keys
(C90, C92), so the new value wins, and what is left over from the settings of another sample is not used (C146); reads made on the clone of a second population
(`UpsampledSpectra.power_2`) do not change this object.
-/

namespace Verif.Chain

open Verif.Cache Verif.SpectraDeps

/-- what decides which keyword arguments are collected -/
structure Flags where
  /-- `nonlinear_mode == 'bnl'` (line 802) -/
  bnl : Bool
  /-- `response or nonlinear_mode == 'fortuna'` (line 841) -/
  nlIn : Bool
  /-- `galaxy` -/
  galaxy : Bool
  /-- `alignment` -/
  alignment : Bool

/-- keyword arguments every call gives (onepower_interface.py:751-800) -/
def baseKeys : List String :=
  ["matter_power_lin", "hmcode_ingredients", "nonlinear_mode", "dewiggle", "k_vec", "z_vec", "lnk_min", "lnk_max", "dlnk",
    "Mmin", "Mmax", "dlog10m", "mdef_model", "hmf_model", "bias_model", "halo_profile_model_dm",
    "halo_concentration_model_dm", "halo_profile_model_sat", "halo_concentration_model_sat", "transfer_model",
    "transfer_params", "growth_model", "growth_params", "norm_cen", "norm_sat", "eta_cen", "eta_sat", "overdensity",
    "delta_c", "one_halo_ktrunc", "two_halo_ktrunc", "omega_c", "omega_b", "h0", "n_s", "sigma_8", "m_nu", "w0", "wa",
    "tcmb", "log10T_AGN", "mb"]

/-- `if galaxy or alignment` (onepower_interface.py:891-903) -/
def hodKeys : List String :=
  ["poisson_model", "poisson_params", "pointmass", "hod_model", "hod_params", "hod_settings", "obs_settings",
    "compute_observable", "hod_settings_mm"]

/-- `if alignment` (onepower_interface.py:965-974) -/
def alignKeys : List String := ["align_params", "one_halo_ktrunc_ia", "two_halo_ktrunc_ia", "t_eff"]

/-- the keys of `power_kwargs` -/
def keys (f : Flags) : List String :=
  baseKeys ++ (if f.bnl then ["beta_nl"] else []) ++ (if f.nlIn then ["matter_power_nl", "response"] else []) ++
    (if f.galaxy || f.alignment then hodKeys else []) ++ (if f.alignment then alignKeys else [])

/-- one call -/
structure Call (V : Type) where
  /-- the values of the keyword arguments -/
  kwargs : String → V
  /-- the settings of the alignment sample -/
  ia : V
  /-- quantities read before and after the switch to the alignment sample -/
  reads₁ : List ℕ
  reads₂ : List ℕ
  /-- number of steps after which the call raises, if it does -/
  steps : ℕ

/-- `power.update(**power_kwargs)` (line 1025) -/
def updateOps {V : Type} (f : Flags) (kw : String → V) : List (Op String V) := (keys f).map fun k => .set k (kw k)

/-- reading quantities -/
def readOps {V : Type} (l : List ℕ) : List (Op String V) := l.map .read

/-- the steps of `execute` on the object (onepower_interface.py:1024-1221) -/
def callOps {V : Type} (f : Flags) (c : Call V) : List (Op String V) :=
  updateOps f c.kwargs ++ readOps c.reads₁ ++
    (if f.alignment then .set "hod_settings" c.ia :: readOps c.reads₂ else [])

/-- the steps of a sequence of calls, each possibly cut short -/
def chainOps {V : Type} (f : Flags) (l : List (Call V)) : List (Op String V) :=
  l.flatMap fun c => (callOps f c).take c.steps

end Verif.Chain

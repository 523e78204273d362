import Verif.Model.Config
import Verif.Model.Background

/-!
# The legacy halo model ingredients (`/repo/cosmosis_modules/legacy/halo_model_ingredients/*.py`)

One `DMHaloModel` is made in `setup` and updated in place by every call, for every redshift.  As in `Model/Config.lean` a halo model is
the record of its settings and an update a change of the record; what halomod and hmf compute from the settings is external.  The fits
`dc_Mead`, `Dv_Mead` are numbers per redshift here and the subject of `Model/Background.lean`.  Grids of wavenumbers and masses, the
transfer function and the growth function are passed unchanged and left out.
-/

namespace Verif.LegacyIngredients

open Verif.Lib Verif.Config Verif.Config.Ingredients

/-- the options of `setup` (halo_model_ingredients_halomod.py:20-51) -/
structure Opt where
  nz : ℕ
  zVec : ℕ → ℝ
  profile : String
  hmfModel : String
  mdefModel : String
  overdensity : ℝ
  cmModel : String
  deltaC : ℝ
  biasModel : String
  useMead : String
  native : String → Bool

/-- the values of `mead_correction` -/
inductive Mead
  | nofeedback
  | feedback
  deriving DecidableEq

/-- `mead_correction_map.get(use_mead, None)` (halo_model_ingredients_halomod.py:52-60) -/
def Opt.mead (o : Opt) : Option Mead :=
  if o.useMead = "mead2020" then some .nofeedback else if o.useMead = "mead2020_feedback" then some .feedback else none

/-- the halo model of `setup` (halo_model_ingredients_halomod.py:47, 62-105) -/
noncomputable def Opt.start (o : Opt) : HaloModel where
  z := 0
  hmfModel := if o.mead.isSome then "ST" else o.hmfModel
  mdefModel := .user (if o.mead.isSome then "SOVirial" else o.mdefModel)
  disableMassConversion := o.mead.isSome
  biasModel := if o.mead.isSome then "ST99" else o.biasModel
  profileModel := o.profile
  profileParams := Dict.empty
  concModel := if o.mead.isSome then .native "Duffy08" else if o.native o.cmModel then .native o.cmModel else .colossus o.cmModel
  concParams := Dict.empty
  mdefParams := if o.mead.isSome then Dict.empty else if o.mdefModel = "SOVirial" then Dict.empty else overdensityDict o.overdensity
  deltaC := o.deltaC

/-- what a call reads from the block, and what follows from its cosmology (arrays over redshift) -/
structure Call where
  normCen : ℝ
  normSat : ℝ
  etaCen : ℝ
  etaSat : ℝ
  logTAGN : Option ℝ
  dcMead : ℕ → ℝ
  dvMead : ℕ → ℝ
  omZ : ℕ → ℝ
  sigma8z : ℝ → ℝ

/-- what is written for one redshift: the settings with which the profile of the centrals and of the satellites are computed - those of
the satellites also give mass function, bias and densities - and the amplitude of the concentrations if they are computed by hand -/
structure Rec where
  cen : HaloModel
  sat : HaloModel
  ampCen : Option ℝ
  ampSat : Option ℝ

/-- `update(halo_profile_params=d)` -/
noncomputable def setProfile (d : Dict) (h : HaloModel) : HaloModel := { h with profileParams := h.profileParams.assign d }

/-- `update(z=, delta_c=, mdef_model=SOVirial_Mead, mdef_params=)` (halo_model_ingredients_halomod.py:229-234); whether hmf empties the
parameters of a mass definition that is replaced is left open (`reset`) -/
noncomputable def setMead (reset : Bool) (z dc dv : ℝ) (h : HaloModel) : HaloModel :=
  { h with
    z := z
    deltaC := dc
    mdefModel := .soVirialMead
    mdefParams := (if reset && h.mdefModel ≠ .soVirialMead then Dict.empty else h.mdefParams).assign (overdensityDict dv) }

/-- `norm_cen` with the HMcode corrections (halo_model_ingredients_halomod.py:237-241) -/
noncomputable def meadNorm (m : Mead) (c : Call) (z : ℝ) : Except PyErr ℝ :=
  match m with
  | .nofeedback => .ok 5.196
  | .feedback => match c.logTAGN with
    | none => .error .blockError
    | some t => .ok (5.196 / 4 * ((3.44 - 0.496 * (t - 7.8)) * (10 : ℝ) ^ (z * (-0.0671 - 0.0371 * (t - 7.8)))))

/-- the body of the loop over redshifts (halo_model_ingredients_halomod.py:209-300): the halo model afterwards, and what is written -/
noncomputable def step (reset : Bool) (o : Opt) (c : Call) (i : ℕ) (h : HaloModel) : HaloModel × Except PyErr Rec :=
  match o.mead with
  | some m =>
    let h1 := setMead reset (o.zVec i) (c.dcMead i) (c.dvMead i) h
    match meadNorm m c (o.zVec i) with
    | .error e => (h1, .error e)
    | .ok a =>
      let h2 := setProfile (etaDict (0.1281 * c.sigma8z h1.z ^ (-0.3644 : ℝ))) h1
      let h3 := setProfile (etaDict c.etaSat) h2
      (h3, .ok ⟨h2, h3, some a, some c.normSat⟩)
  | none =>
    let dc := if o.mdefModel = "SOVirial" then
        3 / 20 * (12 * Real.pi) ^ ((2 : ℝ) / 3) * (1 + 0.0123 * Real.logb 10 (c.omZ i)) else o.deltaC
    let h1 := updParams (etaDict c.etaCen) (normDict c.normCen) { h with z := o.zVec i, deltaC := dc }
    let h2 := updParams (etaDict c.etaSat) (normDict c.normSat) h1
    (h2, .ok ⟨h1, h2, none, none⟩)

/-- the loop over redshifts: an exception ends it, with the halo model as it is by then -/
noncomputable def loop (reset : Bool) (o : Opt) (c : Call) : List ℕ → HaloModel → HaloModel × Except PyErr (List Rec)
  | [], h => (h, .ok [])
  | i :: l, h => match step reset o c i h with
    | (h', .error e) => (h', .error e)
    | (h', .ok r) => match loop reset o c l h' with
      | (h'', .error e) => (h'', .error e)
      | (h'', .ok rs) => (h'', .ok (r :: rs))

/-- `execute` (halo_model_ingredients_halomod.py:124-345): the update with the cosmology of the call, then the loop -/
noncomputable def execute (reset : Bool) (o : Opt) (c : Call) (h : HaloModel) : HaloModel × Except PyErr (List Rec) :=
  loop reset o c (List.range o.nz) (setProfile haloProfileParams h)

/-- the halo model after a chain of calls -/
noncomputable def after (reset : Bool) (o : Opt) (cs : List Call) : HaloModel :=
  cs.foldl (fun h c => (execute reset o c h).1) o.start

/-! ## concentrations and scale radii -/

/-- `conc_cen` (halo_model_ingredients_halomod.py:243-244, 273): the relation of the halo model, or by hand with the formation redshifts -/
noncomputable def Rec.conc (conc : HaloModel → ℝ → ℝ) (zf : HaloModel → ℝ → ℝ) (r : Rec) (m : ℝ) : ℝ :=
  match r.ampCen with
  | none => conc r.cen m
  | some a => a * (1 + zf r.cen m) / (1 + r.cen.z)

/-- `r_s_cen` (halo_model_ingredients_halomod.py:250, 276): `_rs_from_m` of halomod divides the virial radius by the concentration of
the halo model's own relation -/
noncomputable def Rec.rs (conc rvir : HaloModel → ℝ → ℝ) (r : Rec) (m : ℝ) : ℝ := rvir r.cen m / conc r.cen m

/-! ## background -/

/-- `_w` (halo_model_utility.py:48-52) -/
noncomputable def w (a w0 wa : ℝ) : ℝ := w0 + (1 - a) * wa

/-- `_X_w` (halo_model_utility.py:54-58) -/
noncomputable def xw (a w0 wa : ℝ) : ℝ := a ^ (-3 * (1 + w0 + wa)) * Real.exp (-3 * wa * (1 - a))

/-- `_Hubble2` (halo_model_utility.py:66-72) -/
noncomputable def hubble2 (a Om Ode Ok w0 wa : ℝ) : ℝ := Om * a ^ (-3 : ℤ) + Ode * xw a w0 wa + Ok * a ^ (-2 : ℤ)

/-- `_Omega_m` (halo_model_utility.py:60-64) -/
noncomputable def omegaM (a Om Ode Ok w0 wa : ℝ) : ℝ := Om * a ^ (-3 : ℤ) / hubble2 a Om Ode Ok w0 wa

/-- `_AH` (halo_model_utility.py:74-80) -/
noncomputable def ah (a Om Ode w0 wa : ℝ) : ℝ := -0.5 * (Om * a ^ (-3 : ℤ) + (1 + 3 * w a w0 wa) * Ode * xw a w0 wa)

/-- `y0` (halo_model_utility.py:88, 96-99) -/
noncomputable def growthInit (Om Ode Ok w0 wa : ℝ) : ℝ × ℝ :=
  let a : ℝ := 1e-4
  let f := 1 - omegaM a Om Ode Ok w0 wa
  (a ^ (1 - 3 * f / 5), (1 - 3 * f / 5) * a ^ (-3 * f / 5))

/-- `fun` (halo_model_utility.py:101-107) -/
noncomputable def growthRhs (Om Ode Ok w0 wa a : ℝ) (y : ℝ × ℝ) : ℝ × ℝ :=
  let fv := -(2 + ah a Om Ode w0 wa / hubble2 a Om Ode Ok w0 wa) * y.2 / a
  let fd := 1.5 * omegaM a Om Ode Ok w0 wa * y.1 / a ^ 2
  (y.2, fv + fd)

/-- the density parameters of the block that enter the two cosmologies -/
structure Densities where
  omegaC : ℝ
  omegaB : ℝ
  omegaM : ℝ

/-- `Om0` of the legacy module (halo_model_ingredients_halomod.py:145-153) -/
def legacyOm0 (d : Densities) : ℝ := d.omegaM

/-- `Om0` of the rewritten class (hmi.py:239-248) -/
noncomputable def newOm0 (d : Densities) : ℝ := d.omegaC + d.omegaB

/-- `Om` of the growth equation, with the neutrinos of the cosmology added (halo_model_utility.py:89, hmi.py:356) -/
noncomputable def growthOm (Om0 Onu0 : ℝ) : ℝ := Om0 + Onu0

/-! ## the interface to the rewritten class -/

/-- the names in the signature of `HaloModelIngredients.__init__` (hmi.py:565-592) -/
def hmiNames : List String := ["k_vec", "lnk_min", "lnk_max", "dlnk", "Mmin", "Mmax", "dlog10m", "mdef_model", "hmf_model", "bias_model",
  "halo_profile_model_dm", "halo_concentration_model_dm", "halo_profile_model_sat", "halo_concentration_model_sat", "transfer_model",
  "transfer_params", "growth_model", "growth_params", "norm_cen", "norm_sat", "eta_cen", "eta_sat", "overdensity", "delta_c",
  "hmcode_ingredients"]

/-- the names in the signature of `CosmologyBase.__init__` (hmi.py:93-107) -/
def cosmoNames : List String := ["z_vec", "h0", "omega_c", "omega_b", "w0", "wa", "n_s", "tcmb", "Neff", "m_nu", "sigma_8", "log10T_AGN"]

/-- binding of keyword arguments: the names left over go to `CosmologyBase.__init__`, which has no `**kwargs` (hmi.py:592-594) -/
def construct (kwargs : List String) : Except PyErr Unit :=
  if ∀ k ∈ kwargs.filter (fun k => !hmiNames.contains k), k ∈ cosmoNames then .ok () else .error .typeError

/-- the keywords passed by the legacy interface (halo_model_ingredients_halomod_class_interface.py:92-130) -/
def classKeywords : List String := ["k_vec", "z_vec", "lnk_min", "lnk_max", "dlnk", "Mmin", "Mmax", "dlog10m", "mdef_model", "hmf_model",
  "bias_model", "halo_profile_model_dm", "halo_concentration_model_dm", "halo_profile_model_sat", "halo_concentration_model_sat",
  "transfer_model", "transfer_params", "growth_model", "growth_params", "h0", "omega_c", "omega_b", "omega_m", "w0", "wa", "n_s", "tcmb",
  "m_nu", "sigma_8", "log10T_AGN", "norm_cen", "norm_sat", "eta_cen", "eta_sat", "overdensity", "delta_c", "mead_correction"]

end Verif.LegacyIngredients

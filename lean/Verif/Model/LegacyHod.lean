import Verif.Model.LegacyPk
import Verif.Model.Hod
import Verif.Model.Interface

/-!
# Model of the legacy occupation module (`/repo/cosmosis_modules/legacy/hod/hod_lib_class.py`, `hod_interface.py`) and of
what the legacy spectra read from it (`legacy/pk/pk_lib.py`, `load_hods`, `load_fstar_mm`)

Conventions as in `Model/Hod`: `b` is the galaxy bin, `j` a redshift of the sample (`z_bins[nb]`), `i` a redshift of the
spectra, `m` a mass index.  Not modelled: the text file of observables and the pickled mass limits of `setup`
(hod_interface.py:58-83), the data block's own errors, and the rows `obs_onebin` of the observable function.
-/

namespace Verif.LegacyHod

open Verif.Lib
open Verif.Hod (ZhengParams ZhaiParams CacciatoParams StepParams)
open Verif.LegacyPk (Block)

/-! ## `hod_lib_class.py` -/

/-- the decoration of centrals (hod_lib_class.py:276-278, 464-466, 521-523) -/
noncomputable def withAcen (A : Option ℝ) (N : ℝ) : ℝ :=
  match A with
  | none => N
  | some a => N + a * min N (1 - N)

/-- the decoration of satellites (hod_lib_class.py:289-291, 475-477, 533-535) -/
noncomputable def withAsat (A : Option ℝ) (N : ℝ) : ℝ :=
  match A with
  | none => N
  | some a => N + a * N

/-- `Zheng.compute_hod_cen` (hod_lib_class.py:455-467) -/
noncomputable def zhengCen (p : ZhengParams) (M : ℝ) : ℝ :=
  open Classical in
  withAcen p.aCen
    (if p.sigma = 0 then heaviside (M - (10 : ℝ) ^ p.log10Mmin) 1
      else 0.5 * (1 + erf (log10 (M / (10 : ℝ) ^ p.log10Mmin) / p.sigma)))

/-- `Zheng.compute_hod_sat` (hod_lib_class.py:469-478) -/
noncomputable def zhengSat (p : ZhengParams) (M : ℝ) : ℝ :=
  withAsat p.aSat
    ((heaviside (M - (10 : ℝ) ^ p.log10M0) 1 * (M - (10 : ℝ) ^ p.log10M0) / (10 : ℝ) ^ p.log10M1) ^ p.alpha)

/-- `Zhai.compute_hod_cen` (hod_lib_class.py:512-524) -/
noncomputable def zhaiCen (p : ZhaiParams) (M : ℝ) : ℝ :=
  open Classical in
  withAcen p.aCen
    (if p.sigma = 0 then heaviside (M - (10 : ℝ) ^ p.log10Mmin) 1
      else 0.5 * (1 + erf (log10 (M / (10 : ℝ) ^ p.log10Mmin) / p.sigma)))

/-- `Zhai.compute_hod_sat` (hod_lib_class.py:526-536) -/
noncomputable def zhaiSat (p : ZhaiParams) (M : ℝ) : ℝ :=
  withAsat p.aSat ((M / (10 : ℝ) ^ p.log10Msat) ^ p.alpha * Real.exp (-(10 : ℝ) ^ p.log10Mcut / M))

/-- `Cacciato.cal_mean_obs_c` (hod_lib_class.py:238-254) -/
noncomputable def meanObsC (p : CacciatoParams) (M : ℝ) : ℝ :=
  (10 : ℝ) ^ p.log10ObsNormC * (M / (10 : ℝ) ^ p.log10Mch) ^ p.g1 / (1 + M / (10 : ℝ) ^ p.log10Mch) ^ (p.g1 - p.g2)

/-- `Cacciato.phi_star_s` (hod_lib_class.py:256-266) -/
noncomputable def phiStarS (p : CacciatoParams) (M : ℝ) : ℝ :=
  (10 : ℝ) ^ (p.b0 + p.b1 * (log10 M - p.pivot) + p.b2 * (log10 M - p.pivot) ^ 2)

/-- `Cacciato.COF_cen` (hod_lib_class.py:162-173) -/
noncomputable def cofCen (p : CacciatoParams) (M O : ℝ) : ℝ :=
  1 / (Real.sqrt (2 * Real.pi) * Real.log 10 * p.sigmaLog10Oc * O)
    * Real.exp (-(log10 (O / meanObsC p M)) ^ 2 / (2 * p.sigmaLog10Oc ^ 2))

/-- `Cacciato.COF_sat` (hod_lib_class.py:175-187) -/
noncomputable def cofSat (p : CacciatoParams) (M O : ℝ) : ℝ :=
  phiStarS p M / (p.normS * meanObsC p M) * (O / (p.normS * meanObsC p M)) ^ p.alphaS
    * Real.exp (-(O / (p.normS * meanObsC p M)) ^ p.betaS)

/-- `Cacciato.COF` (hod_lib_class.py:189-191) -/
noncomputable def cof (p : CacciatoParams) (M O : ℝ) : ℝ := cofCen p M O + cofSat p M O

/-- the class chosen by `hod_model` with the parameters of every bin (hod_interface.py:155-173); the conditional
observable function has one set of parameters for all bins -/
inductive Pop
  | zheng (p : ℕ → ZhengParams)
  | zhai (p : ℕ → ZhaiParams)
  | cacciato (p : CacciatoParams)

/-- `hod_model == 'Cacciato'` -/
def Pop.conditional : Pop → Bool
  | .cacciato _ => true
  | _ => false

/-- what the module is given: `setup` (hod_interface.py:85-118) and the cosmology -/
structure Config where
  nbins : ℕ
  nz : ℕ
  nobs : ℕ
  /-- `z_bins` -/
  z : ℕ → ℕ → ℝ
  /-- `obs_simps` -/
  obs : ℕ → ℕ → ℕ → ℝ
  pop : Pop
  /-- `observable_h_unit` -/
  unit : String
  h0 : ℝ
  /-- size of `block['hmf', 'z']`; the grid itself is `zVec` of the block -/
  nzv : ℕ

section execute

variable (c : Config) (B : Block)

/-- `compute_hod_cen` of bin `b` (hod_lib_class.py:268-279, 455-467, 512-524) -/
noncomputable def nCen (b j m : ℕ) : ℝ :=
  match c.pop with
  | .zheng p => zhengCen (p b) (B.mass m)
  | .zhai p => zhaiCen (p b) (B.mass m)
  | .cacciato p => withAcen p.aCen (simpson c.nobs (c.obs b j) fun o => cofCen p (B.mass m) (c.obs b j o))

/-- `compute_hod_sat` of bin `b` (hod_lib_class.py:281-292, 469-478, 526-536) -/
noncomputable def nSat (b j m : ℕ) : ℝ :=
  match c.pop with
  | .zheng p => zhengSat (p b) (B.mass m)
  | .zhai p => zhaiSat (p b) (B.mass m)
  | .cacciato p => withAsat p.aSat (simpson c.nobs (c.obs b j) fun o => cofSat p (B.mass m) (c.obs b j o))

/-- `compute_hod` (hod_lib_class.py:294-296, 480-482, 538-540) -/
noncomputable def nTot (b j m : ℕ) : ℝ := nCen c B b j m + nSat c B b j m

/-- `dndlnM` (hod_interface.py:163-167) -/
noncomputable def dndlnM (b j m : ℕ) : ℝ := interp1d .extrapolate c.nzv B.zVec (fun i => B.dndlnm i m) (c.z b j)

/-- `hbias` (hod_interface.py:206-212) -/
noncomputable def hbias (b j m : ℕ) : ℝ := interp1d .extrapolate c.nzv B.zVec (fun i => B.bDm i m) (c.z b j)

/-- `compute_number_density_cen/sat`, `compute_number_density` (hod_lib_class.py:23-51) -/
noncomputable def numberDensity (N : ℕ → ℕ → ℕ → ℝ) (b j : ℕ) : ℝ :=
  simpson B.nm B.mass fun m => N b j m * dndlnM c B b j m / B.mass m

/-- `compute_avg_halo_mass_cen` (hod_lib_class.py:53-60) -/
noncomputable def avgHaloMass (N : ℕ → ℕ → ℕ → ℝ) (b j : ℕ) : ℝ :=
  simpson B.nm B.mass fun m => N b j m * dndlnM c B b j m

/-- `compute_galaxy_linear_bias_cen/sat`, `compute_galaxy_linear_bias` (hod_lib_class.py:80-102) -/
noncomputable def galaxyLinearBias (N : ℕ → ℕ → ℕ → ℝ) (b j : ℕ) : ℝ :=
  simpson B.nm B.mass fun m => N b j m * hbias c B b j m * dndlnM c B b j m / B.mass m

/-- `f_star`, written only for the conditional observable function (hod_lib_class.py:316-323;
hod_interface.py:181-185) -/
noncomputable def fStar (b j m : ℕ) : Option ℝ :=
  match c.pop with
  | .cacciato p =>
    let f := simpson c.nobs (c.obs b j) (fun o => cof p (B.mass m) (c.obs b j o) * c.obs b j o) / B.mass m
    some (if c.unit = "1/h^2" then f * c.h0 else f)
  | _ => none

/-- what `execute` writes for one bin (hod_interface.py:181-220) -/
structure Section where
  z : ℕ → ℝ
  nm : ℕ
  mass : ℕ → ℝ
  nCen : ℕ → ℕ → ℝ
  nSat : ℕ → ℕ → ℝ
  nTot : ℕ → ℕ → ℝ
  fStar : Option (ℕ → ℕ → ℝ)
  numdenCen : ℕ → ℝ
  numdenSat : ℕ → ℝ
  numdenTot : ℕ → ℝ
  fCen : ℕ → ℝ
  fSat : ℕ → ℝ
  massAvg : ℕ → ℝ
  biasCen : ℕ → ℝ
  biasSat : ℕ → ℝ
  biasTot : ℕ → ℝ

/-- the arrays written for one bin (hod_interface.py:181-220) -/
noncomputable def written (b : ℕ) : Section :=
  { z := c.z b
    nm := B.nm
    mass := B.mass
    nCen := nCen c B b
    nSat := nSat c B b
    nTot := nTot c B b
    fStar := if c.pop.conditional then some fun j m => (fStar c B b j m).getD 0 else none
    numdenCen := numberDensity c B (nCen c B) b
    numdenSat := numberDensity c B (nSat c B) b
    numdenTot := numberDensity c B (nTot c B) b
    fCen := fun j => numberDensity c B (nCen c B) b j / numberDensity c B (nTot c B) b j
    fSat := fun j => numberDensity c B (nSat c B) b j / numberDensity c B (nTot c B) b j
    massAvg := fun j => avgHaloMass c B (nCen c B) b j / numberDensity c B (nCen c B) b j
    biasCen := fun j => galaxyLinearBias c B (nCen c B) b j / numberDensity c B (nTot c B) b j
    biasSat := fun j => galaxyLinearBias c B (nSat c B) b j / numberDensity c B (nTot c B) b j
    biasTot := fun j => galaxyLinearBias c B (nTot c B) b j / numberDensity c B (nTot c B) b j }

open Classical in
/-- One turn of the loop of `execute` (hod_interface.py:152-220), from the occupations on. -/
noncomputable def bin (b : ℕ) : Except PyErr Section :=
  if (∃ j < c.nz, ∃ m < B.nm, nSat c B b j m < 0) ∨ (∃ j < c.nz, ∃ m < B.nm, nCen c B b j m < 0) then .error .valueError
  else .ok (written c B b)

/-- the loop over the bins from `b` on (hod_interface.py:152) -/
noncomputable def loop (b : ℕ) : ℕ → Except PyErr (List Section)
  | 0 => .ok []
  | n + 1 =>
    match bin c B b with
    | .error e => .error e
    | .ok s =>
      match loop (b + 1) n with
      | .error e => .error e
      | .ok l => .ok (s :: l)

/-- all bins of `execute` (hod_interface.py:152-220) -/
noncomputable def execute : Except PyErr (List Section) := loop c B 0 c.nbins

/-- smallest and largest entry of `z_bins`, and of the decimal logarithm of `obs_simps` (hod_interface.py:256, 264), given
with the settings that `setup_hod_settings_mm` computes from the same options -/
structure Extended where
  zmin : ℝ
  zmax : ℝ
  logObsMin : ℝ
  logObsMax : ℝ

/-- `z_bins_one` (hod_interface.py:255-256) -/
noncomputable def zExtended (e : Extended) (j : ℕ) : ℝ := linspace e.zmin e.zmax 15 j

/-- one row of `obs_range` (hod_interface.py:263-266) -/
noncomputable def obsExtended (e : Extended) (o : ℕ) : ℝ := logspace e.logObsMin e.logObsMax 100 o

/-- `f_star_extended` (hod_interface.py:269-277) -/
noncomputable def fStarExtended (p : CacciatoParams) (e : Extended) (_j m : ℕ) : ℝ :=
  let f := simpson 100 (obsExtended e) (fun o => cof p (B.mass m) (obsExtended e o) * obsExtended e o) / B.mass m
  if c.unit = "1/h^2" then f * c.h0 else f

/-- the observable function of a bin at its own observables (hod_lib_class.py:193-236): `Φ` is one of the three COFs -/
noncomputable def obsFunc (Φ : ℝ → ℝ → ℝ) (b j o : ℕ) : ℝ :=
  simpson B.nm B.mass fun m => Φ (B.mass m) (c.obs b j o) * dndlnM c B b j m / B.mass m

/-- `np.log(10.0) * obs_func * obs_range` of the mode `obs_z` (hod_interface.py:222-246): the function is interpolated from
the observables of each redshift to the common `obs_range`, 0 outside -/
noncomputable def obsFuncZ (range : ℕ → ℝ) (Φ : ℝ → ℝ → ℝ) (b j o : ℕ) : ℝ :=
  Real.log 10 * interp1d (.value 0) c.nobs (c.obs b j) (obsFunc c B Φ b j) (range o) * range o

/-- `obs_range` of the mode `obs_z` (hod_interface.py:225), for a bin whose observables lie between `lo` and `hi` -/
noncomputable def obsRange (lo hi : ℝ) (o : ℕ) : ℝ := logspace (log10 lo) (log10 hi) c.nobs o

/-- `cal_mean_obs_c.T[0]` (hod_interface.py:311-314): `cal_mean_obs_c` has the shape `(1, nm)`, its transpose `(nm, 1)` -/
noncomputable def meanRelation (p : CacciatoParams) : List ℝ :=
  (((List.range B.nm).map fun m => [meanObsC p (B.mass m)])[0]?).getD []

end execute

/-! ## The class `Simple` -/

/-- rows of `Simple.compute_hod_cen` (hod_lib_class.py:358): `np.tile(N, (nz, 1))` of one row -/
def simpleCenRows (nz : ℕ) : ℕ := nz * 1

/-- rows of `Simple.compute_hod_sat` (hod_lib_class.py:365, 369): the product with `compute_hod_cen` has its rows already
when it is tiled -/
def simpleSatRows (nz : ℕ) : ℕ := nz * simpleCenRows nz

/-- rows of `Simple.compute_hod` (hod_lib_class.py:371-373) -/
def simpleTotRows (nz : ℕ) : Except PyErr ℕ := Hod.broadcast (simpleCenRows nz) (simpleSatRows nz)

/-! ## `setup` and the parameters -/

/-- the checks of `setup` (hod_interface.py:47-56, 87-93), the options without a file of observables; lengths of
`log10_obs_min`, `log10_obs_max`, `zmin`, `zmax` -/
def setupChecks (unit model : String) (saveObservable : Bool) (lObsMin lObsMax lZmin lZmax : ℕ) : Except PyErr ℕ :=
  if unit ≠ "1/h" ∧ unit ≠ "1/h^2" then .error .valueError
  else if model ≠ "Cacciato" ∧ saveObservable = true then .error .valueError
  else if lObsMax = lObsMin ∧ lZmin = lObsMin ∧ lZmax = lObsMin then .ok lObsMin
  else .error .valueError

/-- `parameters_models` (hod_interface.py:25-32) -/
def parametersModels (model : String) : Except PyErr (List String) :=
  if model = "Zheng" then .ok ["log10_Mmin", "sigma", "log10_M0", "log10_M1", "alpha"]
  else if model = "Zhai" then .ok ["log10_Mmin", "sigma", "log10_Msat", "log10_Mcut", "alpha"]
  else if model = "Cacciato" then .ok ["log10_obs_norm_c", "log10_m_ch", "g1", "g2", "sigma_log10_O_c", "norm_s",
    "pivot", "alpha_s", "beta_s", "b0", "b1", "b2"]
  else .error .keyError

/-- the parameters of one bin (hod_interface.py:153-160) -/
def binParams (blk : Interface.Block) (sec model : String) (n nb : ℕ) :
    List String → Except PyErr (String → Option Interface.OVal)
  | [] => .ok fun _ => none
  | p :: ps =>
    match blk sec (if model = "Cacciato" then p else p ++ if n ≠ 1 then "_" ++ toString (nb + 1) else "") with
    | none => .error .generic
    | some v =>
      match binParams blk sec model n nb ps with
      | .error e => .error e
      | .ok d => .ok fun k => if k = p then some v else d k

/-- `hod_kwargs` of bin `nb` (hod_interface.py:139-140, 153-160) -/
def kwargs (blk : Interface.Block) (sec model : String) (n nb : ℕ) : Except PyErr (String → Option Interface.OVal) :=
  (parametersModels model).bind (binParams blk sec model n nb)

/-! ## The interface to the classes of the rewritten library -/

/-- the parameters of all bins are looked for before the object is made (hod_interface_no_loop.py:194-210) -/
def noLoopParams (blk : Interface.Block) (sec model : String) (n : ℕ) : List String → Except PyErr Unit
  | [] => .ok ()
  | p :: ps =>
    if model = "Cacciato" then if (blk sec p).isSome then noLoopParams blk sec model n ps else .error .generic
    else if (List.range n).all fun nb => (blk sec (p ++ if n ≠ 1 then "_" ++ toString (nb + 1) else "")).isSome then
      noLoopParams blk sec model n ps
    else .error .generic

/-- the keywords for the class (hod_interface_no_loop.py:190-215) -/
def noLoopKeywords (params : List String) : List String :=
  ["A_cen", "A_sat"] ++ params ++ ["mass", "dndlnm", "z_vec", "halobias", "hod_settings"]

/-- the named arguments of the constructor (hod.py:74-83) -/
def baseNames : List String := ["cosmo", "mass", "dndlnm", "halo_bias", "z_vec", "hod_settings"]

/-- the keys of `_defaults` of the classes that the legacy interfaces can name (hod.py:748-763, 1302-1310, 1464-1472) -/
def modelDefaults (model : String) : List String :=
  if model = "Zheng" then ["log10_Mmin", "log10_M0", "log10_M1", "sigma", "alpha", "A_cen", "A_sat"]
  else if model = "Zhai" then ["log10_Mmin", "log10_Msat", "log10_Mcut", "sigma", "alpha", "A_cen", "A_sat"]
  else ["log10_obs_norm_c", "log10_m_ch", "g1", "g2", "sigma_log10_O_c", "norm_s", "pivot", "alpha_s", "beta_s", "b0", "b1", "b2",
    "A_cen", "A_sat"]

/-- making the object (hod.py:74-91): keywords that are not named go to `Component.__init__` of hmf, which raises a `ValueError` for
one that is not a parameter of the model (external contract) -/
def construct (model : String) (kw : List String) : Except PyErr Unit :=
  if ∀ k ∈ kw, k ∈ baseNames ∨ k ∈ modelDefaults model then .ok () else .error .valueError

/-- `execute` up to the object (hod_interface_no_loop.py:182-217); the reads of the mass function and the bias fail if they are not there -/
def noLoop (blk : Interface.Block) (sec model : String) (n : ℕ) (hmf bias : Bool) : Except PyErr Unit :=
  (parametersModels model).bind fun ps =>
    if hmf then
      (noLoopParams blk sec model n ps).bind fun _ =>
        if bias then construct model (noLoopKeywords ps) else .error .blockError
    else .error .blockError

/-! ## What the legacy spectra read -/

/-- what `load_hods` returns -/
structure Loaded where
  nCen : ℕ → ℕ → ℝ
  nSat : ℕ → ℕ → ℝ
  numdenCen : ℕ → ℝ
  numdenSat : ℕ → ℝ
  fCen : ℕ → ℝ
  fSat : ℕ → ℝ
  massAvg : ℕ → ℝ
  fStar : ℕ → ℕ → ℝ

open Classical in
/-- `load_hods` (pk_lib.py:201-251).  The comparison of the mass grids is that of arrays of one length. -/
noncomputable def loadHods (nz : ℕ) (s : Section) (zVec : ℕ → ℝ) (mass : ℕ → ℝ) : Except PyErr Loaded :=
  if ∃ m < s.nm, s.mass m ≠ mass m then .error .valueError
  else
    let ext := fun (y : ℕ → ℝ) i => interp1d .extrapolate nz s.z y (zVec i)
    let zero := fun (y : ℕ → ℝ) i => interp1d (.value 0) nz s.z y (zVec i)
    .ok
      { nCen := fun i m => ext (fun j => s.nCen j m) i
        nSat := fun i m => ext (fun j => s.nSat j m) i
        fStar := fun i m => ext (fun j => (s.fStar.getD fun _ _ => 0) j m) i
        numdenCen := ext s.numdenCen
        numdenSat := ext s.numdenSat
        fCen := zero s.fCen
        fSat := zero s.fSat
        massAvg := zero s.massAvg }

/-- scipy's `RegularGridInterpolator((m, z), f.T, bounds_error=False, fill_value=None)` at one point (external primitive,
assumed contract): linear in both directions on the cell of the point, the outermost cell outside the grid -/
noncomputable def bilinear (nm nz : ℕ) (m z : ℕ → ℝ) (f : ℕ → ℕ → ℝ) (mq zq : ℝ) : ℝ :=
  let jm := Lib.segment nm m mq
  let jz := Lib.segment nz z zq
  let wm := (mq - m (jm - 1)) / (m jm - m (jm - 1))
  let wz := (zq - z (jz - 1)) / (z jz - z (jz - 1))
  f (jz - 1) (jm - 1) * (1 - wm) * (1 - wz) + f jz (jm - 1) * (1 - wm) * wz + f (jz - 1) jm * wm * (1 - wz) + f jz jm * wm * wz

/-- `load_fstar_mm` (pk_lib.py:593-606) -/
noncomputable def loadFstarMm (c : Config) (B : Block) (p : CacciatoParams) (e : Extended) (i m : ℕ) : ℝ :=
  bilinear B.nm 15 B.mass (zExtended e) (fStarExtended c B p e) (B.mass m) (B.zVec i)

/-- The block of the legacy spectra after the occupation module: bin `b` holds what `load_hods` gives (pk_interface.py:270-271
calls it with the suffix of the bin). -/
noncomputable def fill (B : Block) (l : ℕ → Loaded) : Block :=
  { B with
    nCen := fun b => (l b).nCen
    nSat := fun b => (l b).nSat
    numdenCen := fun b => (l b).numdenCen
    numdenSat := fun b => (l b).numdenSat
    fCen := fun b => (l b).fCen
    fSat := fun b => (l b).fSat
    massAvg := fun b => (l b).massAvg
    fstar := fun b => (l b).fStar }

/-! ## The same inputs for the rewritten library -/

/-- the occupations of the rewritten library with the same parameters (hod.py:992-1016, 1408-1434, 1570-1595) -/
noncomputable def newCen (c : Config) (mass : ℕ → ℝ) (b j m : ℕ) : ℝ :=
  match c.pop with
  | .zheng p => Hod.zhengCen (p b) (mass m)
  | .zhai p => Hod.zhaiCen (p b) (mass m)
  | .cacciato p => p.hodCen c.nobs (c.obs b j) (mass m)

/-- as `newCen`, satellites -/
noncomputable def newSat (c : Config) (mass : ℕ → ℝ) (b j m : ℕ) : ℝ :=
  match c.pop with
  | .zheng p => Hod.zhengSat (p b) (mass m)
  | .zhai p => Hod.zhaiSat (p b) (mass m)
  | .cacciato p => p.hodSat c.nobs (c.obs b j) (mass m)

/-- `_compute_stellar_fraction` of the rewritten library (hod.py:678-688, 1038-1046) -/
noncomputable def newFrac (c : Config) (mass : ℕ → ℝ) : Option (ℕ → ℕ → ℕ → ℝ) :=
  match c.pop with
  | .cacciato p => some fun b j m => p.stellar c.nobs (c.obs b j) (mass m)
  | _ => none

/-- the `hod` object of the rewritten library on the same grids (pk.py:1657-1676) -/
noncomputable def newBase (c : Config) (B : Block) : Hod.Base where
  nzv := c.nzv
  zVec := B.zVec
  nm := B.nm
  mass := B.mass
  dndlnm := B.dndlnm
  haloBias := B.bDm
  nz := c.nz
  z := c.z
  occCen := newCen c B.mass
  occSat := newSat c B.mass

end Verif.LegacyHod

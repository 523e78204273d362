import Verif.Lib.Interp
import Verif.Lib.Numpy
import Verif.Lib.Py
import Verif.Model.Add
import Verif.Model.Ia
import Mathlib.Analysis.SpecialFunctions.Log.Base

/-!
# CosmoSIS module (`/repo/cosmosis_modules/onepower_interface.py`)

Options, halo occupation settings, parameter dictionaries, the schedule of the non-linear bias and the names of
the output sections.  The numerical results themselves are the subject of the other models.

External contract (CosmoSIS): `options[section, name]` and the typed getters without default raise when the value
is missing or of another type (`PyErr.blockError`); `get_double` accepts integers.  Section and value names are
taken case-sensitively and the module's own option section is a single table `Options`.
-/

namespace Verif.Interface

open Verif.Lib

/-- values in a CosmoSIS data block -/
inductive OVal
  | str (s : String)
  | int (n : ℤ)
  | num (x : ℝ)
  | bool (b : Bool)
  | nums (l : List ℝ)

/-- the module's section of the ini file -/
abbrev Options := String → Option OVal

/-- the data block: section, name -/
abbrev Block := String → String → Option OVal

/-- `options[option_section, name]` -/
def getRaw : Option OVal → Except PyErr OVal
  | some v => .ok v
  | none => .error .blockError

/-- `get_string` -/
def getString (v : Option OVal) (default : Option String) : Except PyErr String :=
  match v with
  | some (.str s) => .ok s
  | some _ => .error .blockError
  | none => match default with
    | some d => .ok d
    | none => .error .blockError

/-- `get_bool` -/
def getBool (v : Option OVal) (default : Bool) : Except PyErr Bool :=
  match v with
  | some (.bool b) => .ok b
  | some _ => .error .blockError
  | none => .ok default

/-- `get_double` -/
def getDouble (v : Option OVal) (default : Option ℝ) : Except PyErr ℝ :=
  match v with
  | some (.num x) => .ok x
  | some (.int n) => .ok n
  | some _ => .error .blockError
  | none => match default with
    | some d => .ok d
    | none => .error .blockError

/-- `get_int` -/
def getInt (v : Option OVal) (default : ℤ) : Except PyErr ℤ :=
  match v with
  | some (.int n) => .ok n
  | some _ => .error .blockError
  | none => .ok default

/-- result of `get_string_or_none` -/
inductive SN
  | none
  | str (s : String)
  | num (x : ℝ)

/-- `get_string_or_none` (onepower_interface.py:40-59).  Booleans are numbers in Python, but CosmoSIS refuses to
return one as a double.  For a missing value without default the intention of the code (None) is modelled: it
relies on the CosmoSIS error being a `ValueError`. -/
def getStringOrNone (v : Option OVal) (default : Option ℝ) : Except PyErr SN :=
  match v with
  | some (.str s) => .ok (if s = "None" then .none else .str s)
  | some (.num x) => .ok (.num x)
  | some (.int n) => .ok (.num n)
  | some (.bool _) => .error .blockError
  | some (.nums _) => .error .valueError
  | none => match default with
    | some d => .ok (.num d)
    | none => .ok .none

/-! ## Interpolation helpers -/

open Classical in
/-- `interpolate_in_z` (onepower_interface.py:62-69) for one column: `interp1d` with its default bounds check -/
noncomputable def interpolateInZ (n : ℕ) (zIn grid : ℕ → ℝ) (m : ℕ) (zOut : ℕ → ℝ) : Except PyErr (ℕ → ℝ) :=
  if ∃ i < m, zOut i < zIn 0 ∨ zIn (n - 1) < zOut i then .error .valueError
  else .ok fun i => interpLinear n zIn grid (zOut i)

/-- `log_linear_interpolation_k` (onepower_interface.py:71-79) for one row -/
noncomputable def logLinearK (n : ℕ) (kIn power : ℕ → ℝ) (k : ℝ) : ℝ :=
  Real.exp (interp1d .extrapolate n (fun i => Real.log (kIn i)) (fun i => Real.log (power i)) (Real.log k))

/-- the wavenumbers of the halo model (onepower_interface.py:739-741) -/
noncomputable def kVec (n : ℕ) (kIn : ℕ → ℝ) (nk : ℕ) (i : ℕ) : ℝ :=
  (10 : ℝ) ^ npLinspace (Real.logb 10 (kIn 0)) (Real.logb 10 (kIn (n - 1))) nk i

/-! ## Halo occupation settings -/

/-- values in the settings dictionaries -/
inductive SVal
  | pyNone
  | raw (v : OVal)
  | arr (l : List ℝ)

/-- a settings dictionary -/
abbrev Settings := String → Option SVal

/-- the empty dictionary -/
def Settings.empty : Settings := fun _ => none

/-- assignment to a key -/
def Settings.set (d : Settings) (k : String) (v : SVal) : Settings := fun k' => if k' = k then some v else d k'

/-- reading a key -/
def Settings.get (d : Settings) (k : String) : Except PyErr SVal :=
  match d k with
  | some v => .ok v
  | none => .error .keyError

/-- `np.asarray([v]).flatten()`; arrays of strings or booleans, which only fail later, are refused here -/
def flatten : OVal → Except PyErr (List ℝ)
  | .num x => .ok [x]
  | .int n => .ok [(n : ℝ)]
  | .nums l => .ok l
  | .str _ => .error .typeError
  | .bool _ => .error .typeError

/-- an option read as a flat array -/
def getFlat (v : Option OVal) : Except PyErr (List ℝ) :=
  match v with
  | none => .error .blockError
  | some w => flatten w

/-- the bin limits read when there is no observables file (onepower_interface.py:110-123) -/
def binSettings (o : Options) (sfx : String) : Except PyErr Settings := do
  let omin ← getFlat (o ("log10_obs_min_" ++ sfx))
  let omax ← getFlat (o ("log10_obs_max_" ++ sfx))
  let zmin ← getFlat (o ("zmin_" ++ sfx))
  let zmax ← getFlat (o ("zmax_" ++ sfx))
  let nz ← getRaw (o ("nz_" ++ sfx))
  return (((((Settings.empty.set "observables_file" .pyNone).set "obs_min" (.arr omin)).set
    "obs_max" (.arr omax)).set "zmin" (.arr zmin)).set "zmax" (.arr zmax)).set "nz" (.raw nz)

/-- the settings when an observables file is given (onepower_interface.py:105-108) -/
def fileSettings (o : Options) (sfx : String) : Except PyErr Settings := do
  let f ← getString (o ("observables_file_" ++ sfx)) none
  return Settings.empty.set "observables_file" (.raw (.str f))

/-- `setup_hod_settings` (onepower_interface.py:102-128) -/
def setupHodSettings (o : Options) (sfx : String) : Except PyErr Settings := do
  let d ← if (o ("observables_file_" ++ sfx)).isSome then fileSettings o sfx else binSettings o sfx
  let nobs ← getRaw (o ("nobs_" ++ sfx))
  let unit ← getString (o "observable_h_unit") (some "1/h^2")
  return (d.set "nobs" (.raw nobs)).set "observable_h_unit" (.raw (.str unit.toLower))

/-- `.min()` of an array: numpy refuses an empty one -/
noncomputable def arrMin : List ℝ → Except PyErr ℝ
  | [] => .error .valueError
  | x :: l => .ok (l.foldl min x)

/-- `.max()` of an array -/
noncomputable def arrMax : List ℝ → Except PyErr ℝ
  | [] => .error .valueError
  | x :: l => .ok (l.foldl max x)

/-- a key that must hold an array -/
def Settings.getArr (d : Settings) (k : String) : Except PyErr (List ℝ) :=
  match d k with
  | some (.arr l) => .ok l
  | some _ => .error .attributeError
  | none => .error .keyError

/-- the bin limits replaced by their extremes (onepower_interface.py:134-139) -/
noncomputable def mmBins (d : Settings) : Except PyErr Settings := do
  let a ← (d.getArr "obs_min").bind arrMin
  let b ← (d.getArr "obs_max").bind arrMax
  let c ← (d.getArr "zmin").bind arrMin
  let e ← (d.getArr "zmax").bind arrMax
  return ((((d.set "obs_min" (.arr [a])).set "obs_max" (.arr [b])).set "zmin" (.arr [c])).set
    "zmax" (.arr [e])).set "nz" (.raw (.int 15))

/-- `setup_hod_settings_mm` (onepower_interface.py:131-141) -/
noncomputable def setupHodSettingsMm (d : Settings) : Except PyErr Settings :=
  match d "observables_file" with
  | none => .error .keyError
  | some .pyNone => (mmBins d).map fun d' => d'.set "nobs" (.raw (.int 100))
  | some _ => .ok (d.set "nobs" (.raw (.int 100)))

/-- `len(hod_settings['obs_min'])` -/
def nbinsOf (d : Settings) : Except PyErr ℕ := (d.getArr "obs_min").map List.length

/-- `setup_hod_settings`, `setup_hod_settings_mm` and the bin count for the galaxy sample
(onepower_interface.py:316-323) -/
noncomputable def galaxySettings (o : Options) (galaxy : Bool) : Except PyErr (Settings × Settings × ℕ) :=
  if galaxy then do
    let d ← setupHodSettings o "hod"
    let mm ← setupHodSettingsMm d
    let n ← nbinsOf d
    return (d, mm, n)
  else .ok (fun _ => none, fun _ => none, 0)

/-- settings of the alignment samples (onepower_interface.py:325-334) -/
def iaSettings (o : Options) (alignment splitIa : Bool) : Except PyErr (Settings × Settings) :=
  if alignment then
    if splitIa then do
      let a ← setupHodSettings o "ia_1"
      let b ← setupHodSettings o "ia_2"
      return (a, b)
    else do
      let a ← setupHodSettings o "ia"
      return (a, fun _ => none)
  else .ok (fun _ => none, fun _ => none)

/-- settings of the observable function (onepower_interface.py:335-346) -/
def obsSettings (o : Options) : Except PyErr Settings := do
  let s ← getBool (o "save_observable") false
  if s then do
    let d ← setupHodSettings o "smf"
    let name ← getString (o "observable_section_name") (some "stellar_mass_function")
    return (d.set "save_observable" (.raw (.bool true))).set "observable_section_name" (.raw (.str name.toLower))
  else
    return (Settings.empty.set "save_observable" (.raw (.bool false))).set
      "observable_section_name" (.raw (.str "stellar_mass_function"))

/-- `f'_{population_name}' if population_name else ''` -/
def popName (s : String) : String := if s.toLower = "" then "" else "_" ++ s.toLower

/-- the names read for the alignment samples (onepower_interface.py:274-313) -/
structure IaNames where
  section1 : Option String
  section2 : Option String
  pop1 : String
  pop2 : Option String
  centralIA : Option String
  satelliteIA : Option String

/-- onepower_interface.py:274-313 -/
def iaNames (o : Options) (alignment splitIa : Bool) : Except PyErr IaNames :=
  if alignment then do
    let c ← getString (o "central_IA_depends_on") (some "halo_mass")
    let s ← getString (o "satellite_IA_depends_on") (some "halo_mass")
    if splitIa then do
      let h1 ← getString (o "hod_section_name_ia_1") none
      let p1 ← getString (o "output_suffix_ia_1") (some "")
      let h2 ← getString (o "hod_section_name_ia_2") none
      let p2 ← getString (o "output_suffix_ia_2") (some "")
      return ⟨some h1, some h2, popName p1, some (popName p2), some c, some s⟩
    else do
      let h1 ← getString (o "hod_section_name_ia") none
      let p1 ← getString (o "output_suffix_ia") (some "")
      return ⟨some h1, none, popName p1, none, some c, some s⟩
  else .ok ⟨none, none, "", some "", none, none⟩

/-- what `setup_hod` returns -/
structure HodSetup where
  hodSection : String
  hodValues : String
  pop : String
  hodModel : String
  settings : Settings
  settingsMm : Settings
  obs : Settings
  nbins : ℕ
  ia1 : Settings
  ia2 : Settings
  names : IaNames

/-- `setup_hod` (onepower_interface.py:261-364) -/
noncomputable def setupHod (o : Options) (galaxy alignment splitIa : Bool) : Except PyErr HodSetup := do
  let sec ← getString (o "hod_section_name") (some "hod")
  let vals ← getString (o "values_name") (some "hod_parameters")
  let pop ← getString (o "output_suffix") (some "")
  let names ← iaNames o alignment splitIa
  let model ← getString (o "hod_model") (some "Cacciato")
  let g ← galaxySettings o galaxy
  let ia ← iaSettings o alignment splitIa
  let obs ← obsSettings o
  return ⟨sec, vals.toLower, popName pop, model, g.1, g.2.1, obs, g.2.2, ia.1, ia.2, names⟩

/-- the requested spectra and the Poisson option (onepower_interface.py:191-236) -/
structure Pipeline where
  pmm : Bool
  pgg : Bool
  pgm : Bool
  pgI : Bool
  pmI : Bool
  pII : Bool
  response : Bool
  splitIa : Bool
  hmcode : SN
  nonlinear : SN
  poissonType : String

namespace Pipeline

/-- onepower_interface.py:204 -/
def matter (p : Pipeline) : Bool := p.pmm

/-- onepower_interface.py:205 -/
def galaxy (p : Pipeline) : Bool := p.pgg || p.pgm

/-- onepower_interface.py:206 -/
def alignment (p : Pipeline) : Bool := p.pgI || p.pmI || p.pII

/-- `hod = not (matter and not galaxy)` (onepower_interface.py:1030) -/
def hod (p : Pipeline) : Bool := !(p.matter && !p.galaxy)

end Pipeline

/-- `setup_pipeline_parameters` (onepower_interface.py:191-258); the truncation wavenumbers and the two options
passed on unchanged (`dewiggle`, `point_mass`) are left out. -/
def setupPipeline (o : Options) : Except PyErr Pipeline := do
  let a ← getBool (o "p_mm") false
  let b ← getBool (o "p_gg") false
  let c ← getBool (o "p_gm") false
  let d ← getBool (o "p_gI") false
  let e ← getBool (o "p_mI") false
  let f ← getBool (o "p_II") false
  let r ← getBool (o "response") false
  let s ← getBool (o "split_ia") false
  let hm ← getStringOrNone (o "hmcode_ingredients") none
  let nl ← getStringOrNone (o "nonlinear_mode") none
  let po ← getString (o "poisson_type") (some "")
  return ⟨a, b, c, d, e, f, r, s, hm, nl, po⟩

/-- halo mass grid options (onepower_interface.py:146-155): lower and upper limit, step.  Python refuses to
divide by zero. -/
noncomputable def massGrid (o : Options) : Except PyErr (ℝ × ℝ × ℝ) := do
  let lo ← getDouble (o "log_mass_min") (some 9)
  let hi ← getDouble (o "log_mass_max") (some 16)
  let n ← getInt (o "nmass") 200
  if n = 0 then .error .zeroDivision else return (lo, hi, (hi - lo) / n)

/-- the non-linear bias cache created in `setup` (onepower_interface.py:631-638) -/
structure BnlCache (V : Type) where
  numCalls : ℕ
  value : Option V
  update : ℤ

/-- the cache of the non-linear bias (onepower_interface.py:628-638): `haveDarkemu` says whether the emulator package
is installed; `update_bnl` must be an integer. -/
def setupBnl (V : Type) (haveDarkemu : Bool) (o : Options) (nonlinear : SN) : Except PyErr (Option (BnlCache V)) :=
  match nonlinear with
  | .str s =>
    if s = "bnl" then
      if haveDarkemu then
        match o "update_bnl" with
        | some (.int u) => .ok (some ⟨0, none, u⟩)
        | some _ => .error .typeError
        | none => .error .blockError
      else .error .importError
    else .ok none
  | _ => .ok none

/-- `setup` as far as it can fail (onepower_interface.py:582-638): pipeline, halo occupation, mass grid, cache of
the non-linear bias -/
noncomputable def setup (V : Type) (haveDarkemu : Bool) (o : Options) :
    Except PyErr (Pipeline × HodSetup × (ℝ × ℝ × ℝ) × Option (BnlCache V)) := do
  let p ← setupPipeline o
  let h ← setupHod o p.galaxy p.alignment p.splitIa
  let m ← massGrid o
  let c ← setupBnl V haveDarkemu o p.nonlinear
  return (p, h, m, c)

/-! ## Execute -/

/-- non-linear bias of one call (onepower_interface.py:804-839): `compute` is the outcome of building
`NonLinearBias` for the parameters of this call.  Returns the new cache and the table handed to the spectra. -/
def bnlCall {V : Type} (c : BnlCache V) (compute : Except PyErr V) : BnlCache V × Except PyErr (Option V) :=
  if c.update = 0 then (c, .error .zeroDivision)
  else if (c.numCalls : ℤ) % c.update = 0 then
    match compute with
    | .error e => (c, .error e)
    | .ok v => (⟨c.numCalls + 1, some v, c.update⟩, .ok (some v))
  else (⟨c.numCalls + 1, c.value, c.update⟩, .ok c.value)

/-- the cache after a history of calls -/
def bnlRun {V : Type} (c : BnlCache V) (l : List (Except PyErr V)) : BnlCache V :=
  l.foldl (fun c x => (bnlCall c x).1) c

/-- `poisson_parameters` (onepower_interface.py:34-37) -/
def poissonParameters (t : String) : Except PyErr (List String) :=
  if t = "constant" then .ok ["poisson"]
  else if t = "power_law" then .ok ["poisson", "pivot", "slope"]
  else .error .keyError

/-- loop over the parameters of the Poisson model (onepower_interface.py:849-857) -/
def poissonLoop (b : Block) : List String → Except PyErr (String → Option SN)
  | [] => .ok fun _ => none
  | p :: ps => match b "pk_parameters" p with
    | none => .error .generic
    | some v => match getStringOrNone (some v) none with
      | .error e => .error e
      | .ok x => match poissonLoop b ps with
        | .error e => .error e
        | .ok d => .ok fun k => (d k).orElse fun _ => if k = p then some x else none

/-- Poisson parameters of one call (onepower_interface.py:848-857) -/
def poissonParams (b : Block) (t : String) : Except PyErr (String → Option SN) :=
  (poissonParameters t).bind (poissonLoop b)

/-- `parameters_models` (onepower_interface.py:15-32) -/
def parametersModels (m : String) : Except PyErr (List String) :=
  if m = "Zheng" then .ok ["log10_Mmin", "sigma", "log10_M0", "log10_M1", "alpha"]
  else if m = "Zhai" then .ok ["log10_Mmin", "sigma", "log10_Msat", "log10_Mcut", "alpha"]
  else if m = "Cacciato" then .ok ["log10_obs_norm_c", "log10_m_ch", "g1", "g2", "sigma_log10_O_c", "norm_s",
    "pivot", "alpha_s", "beta_s", "b0", "b1", "b2"]
  else .error .keyError

/-- `f'_{nb + 1}' if n != 1 else ''` (onepower_interface.py:447, 882, 1079, ...) -/
def binSuffix (n nb : ℕ) : String := if n ≠ 1 then "_" ++ toString (nb + 1) else ""

/-- values in `hod_params` -/
inductive HVal
  | pyNone
  | raw (v : OVal)
  | arr (l : List OVal)

/-- the values of one parameter for bins `nb, nb+1, ..., n-1` (onepower_interface.py:880-889) -/
def loadBins (b : Block) (sec param : String) (n : ℕ) : List ℕ → Except PyErr (List OVal)
  | [] => .ok []
  | nb :: l => match b sec (param ++ binSuffix n nb) with
    | none => .error .generic
    | some v => match loadBins b sec param n l with
      | .error e => .error e
      | .ok vs => .ok (v :: vs)

/-- one parameter of the halo occupation model (onepower_interface.py:871-889) -/
def loadParam (b : Block) (sec model : String) (n : ℕ) (param : String) : Except PyErr HVal :=
  if model = "Cacciato" then
    match b sec param with
    | none => .error .generic
    | some v => .ok (.raw v)
  else (loadBins b sec param n (List.range n)).map .arr

/-- the loop over the parameters (onepower_interface.py:869-889) -/
def loadParams (b : Block) (sec model : String) (n : ℕ) :
    List String → (String → Option HVal) → Except PyErr (String → Option HVal)
  | [], d => .ok d
  | p :: ps, d => match loadParam b sec model n p with
    | .error e => .error e
    | .ok v => loadParams b sec model n ps fun k => if k = p then some v else d k

/-- an optional entry -/
def optVal : Option OVal → HVal
  | none => .pyNone
  | some v => .raw v

/-- `hod_params` (onepower_interface.py:859-889) -/
def hodParams (b : Block) (sec model : String) (n : ℕ) : Except PyErr (String → Option HVal) :=
  match parametersModels model with
  | .error e => .error e
  | .ok ps => loadParams b sec model n ps fun k =>
      if k = "A_sat" then some (optVal (b sec "A_sat"))
      else if k = "A_cen" then some (optVal (b sec "A_cen")) else none

/-- the alignment parameters that are handed on (onepower_interface.py:908-964); the numerical settings
`nmass`, `n_hankel`, `nk`, `ell_max` are constants and left out -/
structure AlignParams where
  betaSat : Option ℝ
  mpivotSat : Option ℝ
  betaCen : Option ℝ
  mpivotCen : Option ℝ
  gamma1hSlope : ℝ
  gamma1h : ℝ
  gamma2h : ℝ

/-- a number of the alignment section -/
def readNum (b : Block) (sec name : String) : Except PyErr ℝ := getDouble (b sec name) none

/-- slope and pivot read for one galaxy type, or two `None` -/
def readPair (b : Block) (sec slope : String) (dep : String) : Except PyErr (Option ℝ × Option ℝ) :=
  if dep = "halo_mass" then do
    let x ← readNum b sec slope
    let m ← readNum b sec "M_pivot"
    return (some x, some m)
  else .ok (none, none)

/-- `align_params` (onepower_interface.py:908-964): the satellite entries are read under the condition on the
*central* option and the central entries under the condition on the *satellite* option. -/
def alignParams (b : Block) (pop central satellite : String) : Except PyErr AlignParams := do
  let sec := "intrinsic_alignment_parameters" ++ pop
  let s ← readPair b sec "beta_sat" central
  let c ← readPair b sec "beta" satellite
  let sl ← readNum b sec "gamma_1h_radial_slope"
  let g1 ← readNum b sec "gamma_1h_amplitude"
  let g2 ← readNum b sec "gamma_2h_amplitude"
  return ⟨s.1, s.2, c.1, c.2, sl, g1, g2⟩

/-- the amplitude object built from these parameters (pk.py:2085-2094, ia.py:58-93).  The two dependence options
are not passed and keep their defaults; a slope `None` (which only occurs with a pivot `None`) is replaced by an
arbitrary number, the amplitudes with option 'halo_mass' do not use it. -/
noncomputable def amplitudes (nz : ℕ) (zVec : ℕ → ℝ) (a : AlignParams) : Ia.Amplitudes where
  nz := nz
  zVec := zVec
  centralDep := "halo_mass"
  satelliteDep := "halo_mass"
  gamma2h := a.gamma2h
  betaCen := a.betaCen.getD 0
  betaTwo := none
  gamma1h := a.gamma1h
  betaSat := a.betaSat.getD 0
  mpivotCen := Ia.setPivot a.mpivotCen
  mpivotSat := Ia.setPivot a.mpivotSat
  lpivotCen := none
  lpivotSat := none
  lumFileCen := none
  lumFileSat := none

/-- the object combining the two alignment samples (onepower_interface.py:1134-1147) for the halo model `power` -/
def splitParams {P : Type} (z : Add.Arr) (k : ℕ → ℝ) (power : Add.Obj) (p1 p2 : P) : Add.Params P where
  z := z
  k := k
  fractionZ := some z
  fraction := some ⟨z.n, fun _ => 1⟩
  model := some power
  model1 := p1
  model2 := some p2
  extrapolate := .extrapolate

/-- `save_obs_results` (onepower_interface.py:505-571): the names written for `bins` observable bins.  `size1`
tells whether the five sizes are all 1; the settings are read in every iteration. -/
def saveObs (d : Settings) : List ℕ → Except PyErr (List String)
  | [] => .ok []
  | nb :: l => do
    let a ← d.getArr "obs_min"
    let b ← d.getArr "obs_max"
    let c ← d.getArr "zmin"
    let e ← d.getArr "zmax"
    let nz ← d.get "nz"
    let sfx := "_" ++ toString (nb + 1)
    let one : Bool := decide (a.length = 1 ∧ b.length = 1 ∧ c.length = 1 ∧ e.length = 1) &&
      (match nz with | .raw (.int 1) => true | _ => false)
    let names := if one then ["obs_val" ++ sfx, "obs_func" ++ sfx, "obs_func_c" ++ sfx, "obs_func_s" ++ sfx]
      else ["z_bin" ++ sfx, "obs_val" ++ sfx, "obs_func" ++ sfx, "obs_func_c" ++ sfx, "obs_func_s" ++ sfx]
    let rest ← saveObs d l
    return names ++ rest

/-- sections written in a loop over bins -/
def binSections (bases : List String) (n : ℕ) : List String :=
  (List.range n).flatMap fun nb => bases.map fun b => b ++ binSuffix n nb

/-- the sections that receive spectra and linear biases in one call (onepower_interface.py:1056-1202), in the
order of writing; `binsG` and `binsIa` are the bin counts returned by `save_hod_results` for the two samples. -/
def spectraSections (p : Pipeline) (binsG binsIa : ℕ) : List String :=
  (if p.pmm && !p.response then ["matter_power_nl"] else []) ++
  (if p.pgg then binSections ["galaxy_power", "galaxy_linear_bias"] binsG else []) ++
  (if p.pgm then binSections ["matter_galaxy_power", "galaxy_matter_linear_bias"] binsG else []) ++
  (if p.alignment then
    (if p.pII then binSections ["intrinsic_power"] binsIa else []) ++
    (if p.pgI then binSections ["galaxy_intrinsic_power"] binsIa else []) ++
    (if p.pmI then binSections ["matter_intrinsic_power"] binsIa else [])
   else [])

/-- the sections that receive halo occupation results (onepower_interface.py:1047-1053, 1128-1132) -/
def hodSections (p : Pipeline) (h : HodSetup) : List String :=
  (if p.hod then [h.hodSection] else []) ++
  (if p.alignment then h.names.section1.toList else [])

end Verif.Interface

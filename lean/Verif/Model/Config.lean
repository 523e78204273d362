import Verif.Model.Pk
import Verif.Lib.Py
import Mathlib.Analysis.SpecialFunctions.Log.Base

/-!
# Configuration: validation, `update`, and the HMcode overrides

Models `Spectra.validate` and the setters of `nonlinear_mode` and `hmcode_ingredients` (pk.py:57, 207-230,
hmi.py:37, 626-637), `update` (hmf `Framework.update`, see DESIGN section 4), and the configuration-dependent
ingredients of hmi.py:854-1229 including the generator of the per-redshift halo models.
-/

namespace Verif.Config

open Verif.Lib

/-- the two stored configuration parameters (Python strings or `None`) -/
structure Conf where
  mode : Option String
  ingr : Option String
  deriving DecidableEq

/-- pk.py:57 -/
def NONLINEAR_MODES : List (Option String) := [some "bnl", some "hmcode", some "fortuna", none]

/-- hmi.py:37 -/
def VALID_HMCODE_INGREDIENTS : List (Option String) :=
  [some "mead2020_feedback", some "mead2020", some "fit", none]

/-- setter of `nonlinear_mode` (pk.py:217-230) -/
def setMode (v : Option String) (c : Conf) : Except PyErr Conf :=
  if v ∈ NONLINEAR_MODES then .ok { c with mode := v } else .error .valueError

/-- setter of `hmcode_ingredients` (hmi.py:626-637) -/
def setIngr (v : Option String) (c : Conf) : Except PyErr Conf :=
  if v ∈ VALID_HMCODE_INGREDIENTS then .ok { c with ingr := v } else .error .valueError

/-- `validate` (pk.py:207-215); `not self.hmcode_ingredients` is true for `None` and the empty string. -/
def validate (c : Conf) : Except PyErr Unit :=
  if c.mode = some "hmcode" ∧ (c.ingr = none ∨ c.ingr = some "") then .error .valueError
  else if c.mode = some "hmcode" ∧ c.ingr = some "fit" then .error .valueError
  else .ok ()

/-- the constructor, as far as these two parameters are concerned: `hmcode_ingredients` is assigned first
(pk.py:172 calling hmi.py:597), then `nonlinear_mode` (pk.py:174), then hmf calls `validate`. -/
def construct (mode ingr : Option String) : Except PyErr Conf := do
  let c ← setIngr ingr ⟨none, none⟩
  let c ← setMode mode c
  validate c
  return c

/-- one keyword argument of `update` -/
inductive Assign
  | mode (v : Option String)
  | ingr (v : Option String)
  | other

/-- assigning one keyword argument -/
def assign (c : Conf) : Assign → Except PyErr Conf
  | .mode v => setMode v c
  | .ingr v => setIngr v c
  | .other => .ok c

/-- `update(**kwargs)`: assign in order, then validate; the stored parameters afterwards and the outcome -/
def update (c : Conf) : List Assign → Conf × Except PyErr Unit
  | [] => (c, validate c)
  | a :: as => match assign c a with
    | .ok c' => update c' as
    | .error e => (c, .error e)

/-- the comparisons with mode names made by the spectra (pk.py:1562, 1590, ...): any other value takes the
last branch -/
def modeOf : Option String → Pk.NLMode
  | some "bnl" => .bnl
  | some "hmcode" => .hmcode
  | some "fortuna" => .fortuna
  | _ => .none

/-- the comparisons with ingredient names -/
def ingrOf : Option String → Pk.HMIngr
  | some "mead2020" => .mead2020
  | some "mead2020_feedback" => .mead2020Feedback
  | some "fit" => .fit
  | _ => .none

/-- the object with these configuration parameters, everything else as in `s` -/
def withConf (c : Conf) (s : Pk.Spectra) : Pk.Spectra :=
  { s with nonlinearMode := modeOf c.mode, hmcodeIngredients := ingrOf c.ingr }

/-! ## Halo model ingredients -/

/-- values in the dictionaries passed to hmf -/
inductive DVal
  | cosmo
  | num (x : ℝ)

/-- a Python dictionary with string keys -/
abbrev Dict := String → Option DVal

/-- the empty dictionary -/
def Dict.empty : Dict := fun _ => none

open Classical in
/-- assigning a dictionary-valued hmf parameter: merged into the old value, an empty one replaces it -/
noncomputable def Dict.assign (old new : Dict) : Dict :=
  if new = Dict.empty then Dict.empty else fun k => (new k).orElse fun _ => old k

/-- mass definition: the HMcode class (hmi.py:40-61) or a user's choice -/
inductive MDef
  | soVirialMead
  | user (name : String)
  deriving DecidableEq

/-- concentration classes (hmi.py:983-996, 1009-1022) -/
inductive Conc
  | native (name : String)
  | colossus (name : String)
  deriving DecidableEq

/-- the parameters of a `DMHaloModel` that differ between configurations or redshifts; the others
(wavenumber and mass ranges, cosmology, transfer and growth models) are passed unchanged
(hmi.py:1101-1124) and are left out. -/
structure HaloModel where
  z : ℝ
  hmfModel : String
  mdefModel : MDef
  disableMassConversion : Bool
  biasModel : String
  profileModel : String
  profileParams : Dict
  concModel : Conc
  concParams : Dict
  mdefParams : Dict
  deltaC : ℝ

/-- the settings and derived per-redshift arrays read by the generator; arrays are index functions of
length `nz`.  `dcMead`, `dvMead` are the fits of hmi.py:438-501, `omZ` is `cosmo_model.Om(z_vec)`,
`native` says which names `concentration_classes` has, `sigma8z` is hmf's normalisation at a redshift. -/
structure Ingredients where
  ingr : Option String
  nz : ℕ
  zVec : ℕ → ℝ
  dcMead : ℕ → ℝ
  dvMead : ℕ → ℝ
  omZ : ℕ → ℝ
  log10TAGN : ℝ
  mdefModel : String
  hmfModel : String
  biasModel : String
  profileDm : String
  profileSat : String
  concDm : String
  concSat : String
  native : String → Bool
  overdensity : ℝ
  deltaC : ℝ
  normCen : ℕ → ℝ
  normSat : ℕ → ℝ
  etaCen : ℕ → ℝ
  etaSat : ℕ → ℝ
  sigma8z : ℝ → ℝ

namespace Ingredients

variable (s : Ingredients)

/-- the test `self.hmcode_ingredients in ['mead2020_feedback', 'mead2020']` -/
def mead : Bool := s.ingr = some "mead2020_feedback" || s.ingr = some "mead2020"

/-- `_delta_c_mod` (hmi.py:902-924) -/
noncomputable def deltaCMod (i : ℕ) : ℝ :=
  if s.mead then s.dcMead i
  else if s.mdefModel = "SOVirial" then
    3 / 20 * (12 * Real.pi) ^ ((2 : ℝ) / 3) * (1 + 0.0123 * Real.logb 10 (s.omZ i))
  else s.deltaC * 1

/-- `_mdef_mod` (hmi.py:926-939) -/
def mdefMod : MDef := if s.mead then .soVirialMead else .user s.mdefModel

/-- `_hmf_mod` (hmi.py:941-954) -/
def hmfMod : String := if s.mead then "ST" else s.hmfModel

/-- `_bias_mod` (hmi.py:956-969) -/
def biasMod : String := if s.mead then "ST99" else s.biasModel

/-- look up a concentration class, falling back on colossus (hmi.py:986-995) -/
def lookup (n : String) : Conc := if s.native n then .native n else .colossus n

/-- `_halo_concentration_mod_dm` (hmi.py:971-996) -/
def concModDm : Conc := if s.mead then .native "Bullock01" else s.lookup s.concDm

/-- `_halo_concentration_mod_sat` (hmi.py:998-1022) -/
def concModSat : Conc := if s.mead then .native "Bullock01" else s.lookup s.concSat

/-- a dictionary with the single key `overdensity` -/
def overdensityDict (x : ℝ) : Dict := fun k => if k = "overdensity" then some (.num x) else none

/-- `mdef_params` (hmi.py:1024-1047) -/
noncomputable def mdefParams (i : ℕ) : Dict :=
  if s.mead then overdensityDict (s.dvMead i)
  else if s.mdefModel = "SOVirial" then Dict.empty
  else overdensityDict s.overdensity

/-- `halo_profile_params` (hmi.py:1049-1060) -/
def haloProfileParams : Dict := fun k => if k = "cosmo" then some .cosmo else none

/-- `K` (hmi.py:1073-1087) -/
noncomputable def K (i : ℕ) : ℝ :=
  if s.ingr = some "mead2020" then 5.196 * 1
  else if s.ingr = some "mead2020_feedback" then
    5.196 / 4 * ((3.44 - 0.496 * (s.log10TAGN - 7.8))
      * (10 : ℝ) ^ (s.zVec i * (-0.0671 - 0.0371 * (s.log10TAGN - 7.8))))
  else 0

/-- the dictionary `{'eta_bloat': e}` -/
def etaDict (e : ℝ) : Dict := fun k => if k = "eta_bloat" then some (.num e) else none

/-- the dictionary `{'norm': n}` -/
def normDict (n : ℝ) : Dict := fun k => if k = "norm" then some (.num n) else none

/-- the dictionary `{'norm': n, 'K': k}` -/
def normKDict (n kk : ℝ) : Dict := fun k =>
  if k = "norm" then some (.num n) else if k = "K" then some (.num kk) else none

/-- the first halo model (hmi.py:1101-1125) -/
noncomputable def start : HaloModel where
  z := 0
  hmfModel := s.hmfMod
  mdefModel := s.mdefMod
  disableMassConversion := s.mead
  biasModel := s.biasMod
  profileModel := s.profileDm
  profileParams := haloProfileParams
  concModel := s.concModDm
  concParams := Dict.empty
  mdefParams := s.mdefParams 0
  deltaC := s.deltaCMod 0

/-- `update(z=, mdef_params=, delta_c=)` -/
noncomputable def updZ (i : ℕ) (h : HaloModel) : HaloModel :=
  { h with z := s.zVec i, mdefParams := h.mdefParams.assign (s.mdefParams i), deltaC := s.deltaCMod i }

/-- `update(halo_profile_model=, halo_concentration_model=)`.  Whether hmf empties the parameter dictionary
of a model that is replaced by another one is left open (`reset`). -/
def updModels (reset : Bool) (p : String) (c : Conc) (h : HaloModel) : HaloModel :=
  { h with
    profileModel := p
    profileParams := if reset && h.profileModel ≠ p then Dict.empty else h.profileParams
    concModel := c
    concParams := if reset && h.concModel ≠ c then Dict.empty else h.concParams }

/-- `update(halo_profile_params=, halo_concentration_params=)` -/
noncomputable def updParams (p c : Dict) (h : HaloModel) : HaloModel :=
  { h with profileParams := h.profileParams.assign p, concParams := h.concParams.assign c }

/-- the body of the loop over centrals (hmi.py:1129-1152, 1181-1198) -/
noncomputable def stepCen (i : ℕ) (h : HaloModel) : HaloModel :=
  if s.mead then
    let h := s.updZ i h
    updParams (etaDict (0.1281 * s.sigma8z h.z ^ (-0.3644 : ℝ))) (normKDict (s.normCen i) (s.K i)) h
  else updParams (etaDict (s.etaCen i)) (normDict (s.normCen i)) (s.updZ i h)

/-- the body of the loop over satellites (hmi.py:1154-1179, 1200-1219) -/
noncomputable def stepSat (reset : Bool) (i : ℕ) (h : HaloModel) : HaloModel :=
  if s.mead then
    let h := updModels reset s.profileSat s.concModSat (s.updZ i h)
    updParams (etaDict (0.1281 * s.sigma8z h.z ^ (-0.3644 : ℝ))) (normKDict (s.normSat i) (s.K i)) h
  else updParams (etaDict (s.etaSat i)) (normDict (s.normSat i))
    (updModels reset s.profileSat s.concModSat (s.updZ i h))

/-- a loop that updates one object and appends a clone of it to the output at each step -/
def loop (step : ℕ → HaloModel → HaloModel) (n : ℕ) (x : HaloModel) : HaloModel × List HaloModel :=
  (List.range n).foldl (fun r i => (step i r.1, r.2 ++ [step i r.1])) (x, [])

/-- `_hmf_generator` (hmi.py:1089-1220): `mdef_params[0]` raises IndexError for an empty grid; `y` is a clone
of `x` made before the loops. -/
noncomputable def generator (reset : Bool) : Except PyErr (List HaloModel × List HaloModel) :=
  if s.nz = 0 then .error .indexError
  else .ok ((loop s.stepCen s.nz s.start).2, (loop (s.stepSat reset) s.nz s.start).2)

end Ingredients

end Verif.Config

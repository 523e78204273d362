import Verif.Model.EndToEnd
import Verif.Model.InterfaceOptions

/-!
# From the data block to the arguments of the halo model
(`/repo/cosmosis_modules/onepower_interface.py:728-1023`)

The first half of `execute`: everything that is read from the data block, the arguments it becomes, and the whole call when this is
put before `Model/EndToEnd`.

Simplifications: entries that the code takes as they are (`block[...]`) are required to be numbers, one-dimensional arrays or (for
`p_k`) two-dimensional arrays, as the code needs them later; the shape of `p_k` is taken to fit its axes; the dictionaries handed
on are kept as values (`Arg`), the numerical settings in `align_params` are constants and left out; the class `NonLinearBias` is a
given function `build` of its arguments (its own model is `Model/Bnl`).
-/

namespace Verif.Collect

open Verif.Lib Verif.Interface Verif.EndToEnd

/-- the data block a call is given: scalars and one-dimensional arrays, and the two-dimensional arrays -/
structure Data where
  block : Block
  grid : String → String → Option (ℕ → ℕ → ℝ)

/-- a one-dimensional array of the block -/
def getArr : Option OVal → Except PyErr (List ℝ)
  | some (.nums l) => .ok l
  | _ => .error .blockError

/-- a two-dimensional array of the block -/
def getGrid : Option (ℕ → ℕ → ℝ) → Except PyErr (ℕ → ℕ → ℝ)
  | some f => .ok f
  | none => .error .blockError

/-- an array by index -/
def at' (l : List ℝ) (i : ℕ) : ℝ := l.getD i 0

open Classical in
/-- `get_linear_power_spectrum` and `get_nonlinear_power_spectrum` (onepower_interface.py:82-100): wavenumbers, redshifts and the
spectrum at the redshifts of the halo model; `interp1d` refuses redshifts outside the table -/
noncomputable def powerTable (d : Data) (sec : String) (nz : ℕ) (zOut : ℕ → ℝ) : Except PyErr (List ℝ × List ℝ × (ℕ → ℕ → ℝ)) := do
  let k ← getArr (d.block sec "k_h")
  let z ← getArr (d.block sec "z")
  let p ← getGrid (d.grid sec "p_k")
  if z = [] ∨ ∃ i < nz, zOut i < at' z 0 ∨ at' z (z.length - 1) < zOut i then .error .valueError
  else .ok (k, z, fun i l => interpLinear z.length (at' z) (fun m => p m l) (zOut i))

/-- the scalars every call reads (onepower_interface.py:775-799) -/
structure Scalars where
  normCen : ℝ
  normSat : ℝ
  etaCen : ℝ
  etaSat : ℝ
  omegaC : ℝ
  omegaB : ℝ
  h0 : ℝ
  nS : ℝ
  sigma8 : ℝ
  mNu : ℝ
  w0 : ℝ
  wa : ℝ
  tcmb : ℝ
  logTAGN : ℝ
  mb : ℝ

/-- onepower_interface.py:775-799; `prof` is the section of the profile parameters -/
noncomputable def scalars (b : Block) (prof : String) : Except PyErr Scalars := do
  let nc ← getDouble (b prof "norm_cen") (some 1)
  let ns ← getDouble (b prof "norm_sat") (some 1)
  let ec ← getDouble (b prof "eta_cen") (some 0)
  let es ← getDouble (b prof "eta_sat") (some 0)
  let oc ← readNum b "cosmological_parameters" "omega_c"
  let ob ← readNum b "cosmological_parameters" "omega_b"
  let h ← readNum b "cosmological_parameters" "h0"
  let n ← readNum b "cosmological_parameters" "n_s"
  let s8 ← readNum b "cosmological_parameters" "sigma_8"
  let nu ← readNum b "cosmological_parameters" "mnu"
  let w ← readNum b "cosmological_parameters" "w"
  let wa ← readNum b "cosmological_parameters" "wa"
  let t ← getDouble (b "cosmological_parameters" "TCMB") (some 2.7255)
  let agn ← readNum b "halo_model_parameters" "logT_AGN"
  let m ← getDouble (b "halo_model_parameters" "m_b") (some 13.87)
  return ⟨nc, ns, ec, es, oc, ob, h, n, s8, nu, w, wa, t, agn, (10 : ℝ) ^ m⟩

/-- what every call reads -/
structure Base where
  transferK : List ℝ
  transferT : List ℝ
  growthZ : List ℝ
  growthD : List ℝ
  /-- `k_vec_original`, `z_vec_original` -/
  kIn : List ℝ
  zIn : List ℝ
  /-- the linear spectrum at the redshifts of the halo model and the wavenumbers of the input -/
  plin : ℕ → ℕ → ℝ
  nk : ℕ
  scalars : Scalars

/-- `k_vec` -/
noncomputable def Base.k (b : Base) (j : ℕ) : ℝ := kVec b.kIn.length (at' b.kIn) b.nk j

/-- onepower_interface.py:730-799; `k_vec_original[0]` fails for an empty array, `np.logspace` for a negative number of points -/
noncomputable def collectBase (cfg : HmfConfig) (d : Data) : Except PyErr Base := do
  let tk ← getArr (d.block "matter_power_transfer_func" "k_h")
  let tt ← getArr (d.block "matter_power_transfer_func" "t_k")
  let gz ← getArr (d.block "growth_parameters" "z")
  let gd ← getArr (d.block "growth_parameters" "d_z")
  let p ← powerTable d "matter_power_lin" cfg.nz cfg.zVec
  if p.1 = [] then .error .indexError
  else if cfg.nk < 0 then .error .valueError
  else do
    let s ← scalars d.block cfg.profileValueName
    return ⟨tk, tt, gz, gd, p.1, p.2.1, p.2.2, cfg.nk.toNat, s⟩

/-- arguments of `NonLinearBias` (onepower_interface.py:809-827) -/
structure BnlArgs where
  massLo : ℝ
  massHi : ℝ
  massStep : ℝ
  nz : ℕ
  zVec : ℕ → ℝ
  nk : ℕ
  kVec : ℕ → ℝ
  h0 : ℝ
  aS : ℝ
  omegaB : ℝ
  omegaC : ℝ
  omegaLambda : ℝ
  nS : ℝ
  w0 : ℝ

/-- building a new table (onepower_interface.py:809-828) -/
noncomputable def newTable {V : Type} (build : BnlArgs → Except PyErr V) (cfg : HmfConfig) (b : Block) (a : Base) : Except PyErr V := do
  let aS ← readNum b "cosmological_parameters" "A_s"
  let om ← readNum b "cosmological_parameters" "omega_m"
  build ⟨cfg.logMassMin, cfg.logMassMax, cfg.dlog10m, cfg.nz, cfg.zVec, a.nk, a.k, a.scalars.h0, aS, a.scalars.omegaB,
    a.scalars.omegaC, 1 - om, a.scalars.nS, a.scalars.w0⟩

/-- the table of the non-linear bias (onepower_interface.py:802-839): outside mode 'bnl' there is none, and no argument for it -/
noncomputable def tableStep {V : Type} (build : BnlArgs → Except PyErr V) (cfg : HmfConfig) (bnl : Bool) (cache : Option (BnlCache V))
    (b : Block) (a : Base) : Option (BnlCache V) × Except PyErr (Option V) :=
  if bnl then
    match cache with
    | none => (none, .error .typeError)
    | some c => (some (bnlCall c (newTable build cfg b a)).1, (bnlCall c (newTable build cfg b a)).2)
  else (cache, .ok none)

/-- what a call collects -/
structure Collected (V : Type) where
  base : Base
  beta : Option V
  /-- the non-linear input spectrum, on the grid of the halo model -/
  nl : Option (ℕ → ℕ → ℝ)
  /-- Poisson and halo occupation parameters -/
  sample : Option ((String → Option SN) × (String → Option HVal))
  /-- alignment parameters and `t_eff` -/
  align : Option (AlignParams × ℝ)
  /-- `align_params_2` -/
  align2 : Option AlignParams

/-- the non-linear input spectrum (onepower_interface.py:841-846) -/
noncomputable def collectNl (cfg : HmfConfig) (wanted : Bool) (d : Data) (a : Base) : Except PyErr (Option (ℕ → ℕ → ℝ)) :=
  if wanted then do
    let p ← powerTable d "matter_power_nl" cfg.nz cfg.zVec
    return some fun i j => logLinearK p.1.length (at' p.1) (p.2.2 i) (a.k j)
  else .ok none

/-- Poisson and halo occupation parameters (onepower_interface.py:847-889) -/
def collectSample (h : HodSetup) (poissonType : String) (wanted : Bool) (b : Block) :
    Except PyErr (Option ((String → Option SN) × (String → Option HVal))) :=
  if wanted then do
    let p ← poissonParams b poissonType
    let q ← hodParams b h.hodValues h.hodModel h.nbins
    return some (p, q)
  else .ok none

/-- the option on which an alignment depends; it is only set with alignments -/
def depends (o : Option String) : String := o.getD ""

/-- alignment parameters of the first sample (onepower_interface.py:907-975) -/
noncomputable def collectAlign (h : HodSetup) (wanted : Bool) (b : Block) : Except PyErr (Option (AlignParams × ℝ)) :=
  if wanted then do
    let a ← alignParams b h.names.pop1 (depends h.names.centralIA) (depends h.names.satelliteIA)
    let t ← getDouble (b "pk_parameters" "linear_fraction_fortuna") (some 0)
    return some (a, t)
  else .ok none

/-- alignment parameters of the second sample (onepower_interface.py:976-1022) -/
def collectAlign2 (h : HodSetup) (wanted : Bool) (b : Block) : Except PyErr (Option AlignParams) :=
  if wanted then do
    let a ← alignParams b (h.names.pop2.getD "") (depends h.names.centralIA) (depends h.names.satelliteIA)
    return some a
  else .ok none

/-- everything a call reads (onepower_interface.py:728-1023); also the new state of the table cache -/
noncomputable def collect {V : Type} (build : BnlArgs → Except PyErr V) (cfg : Config V) (cache : Option (BnlCache V)) (d : Data) :
    Option (BnlCache V) × Except PyErr (Collected V) :=
  let p := cfg.pipeline.base
  match collectBase cfg.hmf d with
  | .error e => (cache, .error e)
  | .ok a =>
    let t := tableStep build cfg.hmf (flagsOf p).bnl cache d.block a
    (t.1, do
      let β ← t.2
      let nl ← collectNl cfg.hmf (flagsOf p).nlIn d a
      let s ← collectSample cfg.hod p.poissonType (p.galaxy || p.alignment) d.block
      let al ← collectAlign cfg.hod p.alignment d.block
      let al2 ← collectAlign2 cfg.hod (p.alignment && p.splitIa) d.block
      return ⟨a, β, nl, s, al, al2⟩)

/-! ## The arguments -/

/-- dictionaries and tables handed on as they are -/
inductive Arg (V : Type)
  /-- two arrays: `{'k': ..., 'T': ...}`, `{'z': ..., 'd': ...}` -/
  | curve (x y : List ℝ)
  | poisson (d : String → Option SN)
  | hod (d : String → Option HVal)
  | settings (d : Settings)
  | align (a : AlignParams)
  | table (v : V)

variable {V : Type}

/-- an option read with `get_string_or_none` -/
def snVal : SN → LiveSpectra.Val (Arg V)
  | .none => .none
  | .str s => .str s
  | .num x => .num x

/-- an entry of a settings dictionary used as a flag -/
def flagVal : Option SVal → LiveSpectra.Val (Arg V)
  | some (.raw (.bool b)) => .bool b
  | _ => .none

/-- `power_kwargs`, the part of every call (onepower_interface.py:751-800) -/
noncomputable def baseList (cfg : Config V) (b : Base) : List (String × LiveSpectra.Val (Arg V)) :=
  [("matter_power_lin", .a2 fun i j => logLinearK b.kIn.length (at' b.kIn) (b.plin i) (b.k j)),
    ("hmcode_ingredients", snVal cfg.pipeline.base.hmcode),
    ("nonlinear_mode", snVal cfg.pipeline.base.nonlinear),
    ("dewiggle", .bool cfg.pipeline.dewiggle),
    ("k_vec", .a1 b.nk b.k),
    ("z_vec", .a1 cfg.hmf.nz cfg.hmf.zVec),
    ("lnk_min", .num (Real.log 1e-8)),
    ("lnk_max", .num (Real.log 1e8)),
    ("dlnk", .num 0.05),
    ("Mmin", .num cfg.hmf.logMassMin),
    ("Mmax", .num cfg.hmf.logMassMax),
    ("dlog10m", .num cfg.hmf.dlog10m),
    ("mdef_model", .str cfg.hmf.mdefModel),
    ("hmf_model", .str cfg.hmf.hmfModel),
    ("bias_model", .str cfg.hmf.biasModel),
    ("halo_profile_model_dm", .str cfg.hmf.profileCen),
    ("halo_concentration_model_dm", .str cfg.hmf.cmModelCen),
    ("halo_profile_model_sat", .str cfg.hmf.profileSat),
    ("halo_concentration_model_sat", .str cfg.hmf.cmModelSat),
    ("transfer_model", .str "FromArray"),
    ("transfer_params", .obj (.curve b.transferK b.transferT)),
    ("growth_model", .str "FromArray"),
    ("growth_params", .obj (.curve b.growthZ b.growthD)),
    ("norm_cen", .num b.scalars.normCen),
    ("norm_sat", .num b.scalars.normSat),
    ("eta_cen", .num b.scalars.etaCen),
    ("eta_sat", .num b.scalars.etaSat),
    ("overdensity", .num cfg.hmf.overdensity),
    ("delta_c", .num cfg.hmf.deltaC),
    ("one_halo_ktrunc", snVal cfg.pipeline.oneHalo),
    ("two_halo_ktrunc", snVal cfg.pipeline.twoHalo),
    ("omega_c", .num b.scalars.omegaC),
    ("omega_b", .num b.scalars.omegaB),
    ("h0", .num b.scalars.h0),
    ("n_s", .num b.scalars.nS),
    ("sigma_8", .num b.scalars.sigma8),
    ("m_nu", .num b.scalars.mNu),
    ("w0", .num b.scalars.w0),
    ("wa", .num b.scalars.wa),
    ("tcmb", .num b.scalars.tcmb),
    ("log10T_AGN", .num b.scalars.logTAGN),
    ("mb", .num b.scalars.mb)]

/-- `power_kwargs.update(...)` in mode 'bnl' (onepower_interface.py:835-839) -/
def betaList (bnl : Bool) (β : Option V) : List (String × LiveSpectra.Val (Arg V)) :=
  if bnl then [("beta_nl", match β with | some v => .obj (.table v) | none => .none)] else []

/-- onepower_interface.py:844 -/
def nlList (response : Bool) : Option (ℕ → ℕ → ℝ) → List (String × LiveSpectra.Val (Arg V))
  | some p => [("matter_power_nl", .a2 p), ("response", .bool response)]
  | none => []

/-- onepower_interface.py:891-903 -/
def sampleList (cfg : Config V) : Option ((String → Option SN) × (String → Option HVal)) → List (String × LiveSpectra.Val (Arg V))
  | some s => [("poisson_model", .str cfg.pipeline.base.poissonType), ("poisson_params", .obj (.poisson s.1)),
      ("pointmass", .bool cfg.pipeline.pointMass), ("hod_model", .str cfg.hod.hodModel), ("hod_params", .obj (.hod s.2)),
      ("hod_settings", .obj (.settings cfg.hod.settings)), ("obs_settings", .obj (.settings cfg.hod.obs)),
      ("compute_observable", flagVal (cfg.hod.obs "save_observable")), ("hod_settings_mm", .obj (.settings cfg.hod.settingsMm))]
  | none => []

/-- onepower_interface.py:965-974 -/
def alignList (cfg : Config V) : Option (AlignParams × ℝ) → List (String × LiveSpectra.Val (Arg V))
  | some a => [("align_params", .obj (.align a.1)), ("one_halo_ktrunc_ia", snVal cfg.pipeline.oneHaloIa),
      ("two_halo_ktrunc_ia", snVal cfg.pipeline.twoHaloIa), ("t_eff", .num a.2)]
  | none => []

/-- `power_kwargs` -/
noncomputable def kwList (cfg : Config V) (c : Collected V) : List (String × LiveSpectra.Val (Arg V)) :=
  baseList cfg c.base ++ betaList (flagsOf cfg.pipeline.base).bnl c.beta ++ nlList cfg.pipeline.base.response c.nl ++
    sampleList cfg c.sample ++ alignList cfg c.align

/-- the value of an argument -/
noncomputable def kw (cfg : Config V) (c : Collected V) (k : String) : LiveSpectra.Val (Arg V) := ((kwList cfg c).lookup k).getD .none

/-! ## Calls -/

/-- what is not determined by the block: which quantities are read when, and what else is written -/
structure Rest where
  readsG : List ℕ
  reads : String → List ℕ
  other : Saved.Call

/-- the call that follows the collection (onepower_interface.py:1024-1200) -/
noncomputable def callOf (cfg : Config V) (c : Collected V) (r : Rest) : ThisCall (Arg V) where
  kw := kw cfg c
  ia := .obj (.settings cfg.hod.ia1)
  second := c.align2.map fun a => (.obj (.settings cfg.hod.ia2), .obj (.align a))
  zOut := ⟨c.base.zIn.length, at' c.base.zIn⟩
  nkOut := c.base.kIn.length
  kOut := at' c.base.kIn
  readsG := r.readsG
  reads := r.reads
  rest := r.other

/-- an earlier call: its block, what it read from the halo model, and after how many steps it stopped -/
structure Earlier where
  data : Data
  reads₁ : List ℕ
  reads₂ : List ℕ
  steps : ℕ

/-- the earlier calls: a failing collection leaves the halo model alone -/
noncomputable def past (build : BnlArgs → Except PyErr V) (cfg : Config V) :
    Option (BnlCache V) → List Earlier → Option (BnlCache V) × List (Chain.Call (LiveSpectra.Val (Arg V)))
  | c, [] => (c, [])
  | c, e :: l =>
    let r := collect build cfg c e.data
    let t := past build cfg r.1 l
    match r.2 with
    | .error _ => t
    | .ok a => (t.1, ⟨kw cfg a, .obj (.settings cfg.hod.ia1), e.reads₁, e.reads₂, e.steps⟩ :: t.2)

/-- `execute` after earlier calls of the same module (onepower_interface.py:689-1200) -/
noncomputable def runCall (build : BnlArgs → Except PyErr V) (ext : ℕ → LiveSpectra.Env (Arg V) → LiveSpectra.Val (Arg V))
    (σ₀ : String → LiveSpectra.Val (Arg V)) (cfg : Config V) (earlier : List Earlier) (d : Data) (r : Rest) (out : Saved.Block) :
    Except PyErr Saved.Block :=
  let h := past build cfg cfg.bnl earlier
  match (collect build cfg h.1 d).2 with
  | .error e => .error e
  | .ok c => execute ext σ₀ cfg.pipeline.base h.2 (callOf cfg c r) out

end Verif.Collect

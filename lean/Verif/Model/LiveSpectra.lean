import Verif.Model.Pk
import Verif.Model.SpectraDeps

/-!
# What the cached quantities of a live `Spectra` object compute (`/repo/src/onepower/pk.py`)

`Model/SpectraDeps` says which parameters and quantities every cached quantity reads; `Model/Pk` gives the spectra as
functions of one record of inputs.  Here the quantities are *programs with values*: the code of a quantity sees exactly
what it has read (`Env`), nothing else, and computes its value from that, as the method body does with `self.<name>`.
Whatever a formula would need and the code does not read is the placeholder `Val.none`, so the formulas work only if the
list of reads is complete.

Quantities that come from other packages or modules (numbers below 51, `calc_bnl`, `_beta_nl_array`, `_pk_lin`, `_pk_nl`,
`hod_mm`, `fstar_mm`, `poisson_func`, `hod`, `obs` and what belongs to it, `alignment_class`, `wkm_sat`) are an arbitrary
function `ext` of what they read.  Simplifications: an exception is a value like any other (the code that raises is
evaluated again at the next read in Python, with the same outcome); attributes of an object that is not there are zero.
-/

namespace Verif.LiveSpectra

open Finset Verif.Lib Verif.Cache Verif.SpectraDeps Verif.Pk

/-- what `Spectra` reads from its halo occupation object (pk.py:1677-1699, 1795-1827, 2269, 2283-2285) -/
structure HodOut where
  fC : ℕ → ℕ → ℝ
  fS : ℕ → ℕ → ℝ
  hodCen : ℕ → ℕ → ℕ → ℝ
  hodSat : ℕ → ℕ → ℕ → ℝ
  numberDensity : ℕ → ℕ → ℝ
  numberDensityCen : ℕ → ℕ → ℝ
  numberDensitySat : ℕ → ℕ → ℝ
  avgHaloMassCen : ℕ → ℕ → ℝ
  fstar : ℕ → ℕ → ℕ → ℝ

/-- what `Spectra` reads from its alignment object (pk.py:2097-2130) -/
structure AlignOut where
  betaCen : Option ℝ
  betaSat : Option ℝ
  mpivotCen : Option ℝ
  mpivotSat : Option ℝ
  alignmentGi : ℕ → ℝ

/-- values of parameters and quantities; `X` are the objects of other packages -/
inductive Val (X : Type)
  | none
  | num (x : ℝ)
  | bool (b : Bool)
  | str (s : String)
  /-- an array with one axis, with its length -/
  | a1 (n : ℕ) (f : ℕ → ℝ)
  | a2 (f : ℕ → ℕ → ℝ)
  | a3 (f : ℕ → ℕ → ℕ → ℝ)
  | a4 (f : ℕ → ℕ → ℕ → ℕ → ℝ)
  | hod (h : HodOut)
  | align (a : AlignOut)
  | result (r : Except PyErr PkResult)
  | obj (x : X)

instance (X : Type) : Inhabited (Val X) := ⟨.none⟩

namespace Val

variable {X : Type}

/-- `v is None` -/
def isNone : Val X → Bool
  | .none => true
  | _ => false

/-- `v == s` -/
def isStr (s : String) : Val X → Bool
  | .str t => t == s
  | _ => false

/-- `if v:` for an option -/
def truthy : Val X → Bool
  | .bool b => b
  | _ => false

def toNum : Val X → ℝ
  | .num x => x
  | _ => 0

/-- a number or `None` -/
def toOpt : Val X → Option ℝ
  | .num x => some x
  | _ => Option.none

def len : Val X → ℕ
  | .a1 n _ => n
  | _ => 0

def v1 : Val X → ℕ → ℝ
  | .a1 _ f => f
  | _ => fun _ => 0

def v2 : Val X → ℕ → ℕ → ℝ
  | .a2 f => f
  | _ => fun _ _ => 0

def v3 : Val X → ℕ → ℕ → ℕ → ℝ
  | .a3 f => f
  | _ => fun _ _ _ => 0

def v4 : Val X → ℕ → ℕ → ℕ → ℕ → ℝ
  | .a4 f => f
  | _ => fun _ _ _ _ => 0

def toHod : Val X → HodOut
  | .hod h => h
  | _ => ⟨fun _ _ => 0, fun _ _ => 0, fun _ _ _ => 0, fun _ _ _ => 0, fun _ _ => 0, fun _ _ => 0, fun _ _ => 0,
      fun _ _ => 0, fun _ _ _ => 0⟩

def toAlign : Val X → AlignOut
  | .align a => a
  | _ => ⟨Option.none, Option.none, Option.none, Option.none, fun _ => 0⟩

def toResult : Val X → Except PyErr PkResult
  | .result r => r
  | _ => .error .attributeError

/-- `nonlinear_mode` as the comparisons of the code see it -/
def mode (v : Val X) : NLMode :=
  if v.isStr "bnl" = true then .bnl else if v.isStr "hmcode" = true then .hmcode
  else if v.isStr "fortuna" = true then .fortuna else .none

/-- `hmcode_ingredients` as the comparisons of the code see it -/
def ingr (v : Val X) : HMIngr :=
  if v.isStr "mead2020_feedback" = true then .mead2020Feedback else if v.isStr "mead2020" = true then .mead2020
  else if v.isStr "fit" = true then .fit else .none

end Val

/-- the conditions of the code -/
def holds {X : Type} : Test → Val X → Bool
  | .mead, v => v.isStr "mead2020_feedback" || v.isStr "mead2020"
  | .feedback, v => v.isStr "mead2020_feedback"
  | .mead2020, v => v.isStr "mead2020"
  | .fit, v => v.isStr "fit"
  | .virial, v => v.isStr "SOVirial"
  | .bnl, v => v.isStr "bnl"
  | .hmcode, v => v.isStr "hmcode"
  | .fortuna, v => v.isStr "fortuna"
  | .dewiggle, v => v.truthy
  | .response, v => v.truthy
  | .pointmass, v => v.truthy
  | .observable, v => v.truthy
  | .cacciato, v => v.isStr "Cacciato"
  | .betaNone, v => v.isNone
  | .linNone, v => v.isNone
  | .nlNone, v => v.isNone
  | .oneNone, v => v.toOpt.isNone
  | .twoNone, v => v.toOpt.isNone
  | .oneIaNone, v => v.toOpt.isNone
  | .twoIaNone, v => v.toOpt.isNone

/-- what the code of a quantity has read -/
structure Env (X : Type) where
  par : String → Val X
  qty : ℕ → Val X

/-- nothing read yet -/
def Env.empty (X : Type) : Env X := ⟨fun _ => .none, fun _ => .none⟩

/-- a parameter has been read -/
def Env.setP {X : Type} (e : Env X) (s : String) (v : Val X) : Env X := ⟨Function.update e.par s v, e.qty⟩

/-- a quantity has been read -/
def Env.setQ {X : Type} (e : Env X) (i : ℕ) (v : Val X) : Env X := ⟨e.par, Function.update e.qty i v⟩

/-- assign the values read to the names they were read from -/
def replay {X : Type} {n : ℕ} : Body n → List (Val X) → Env X → Env X
  | .read (.p s) k, v :: l, e => replay k l (e.setP s v)
  | .read (.q i _) k, v :: l, e => replay k l (e.setQ i v)
  | .ite t a b, v :: l, e => if holds t v = true then replay a l (e.setP t.param v) else replay b l (e.setP t.param v)
  | _, _, e => e

namespace Env

variable {X : Type} (e : Env X)

/-! ## The methods that are not cached, on what the calling quantity has read -/

noncomputable def nm : ℕ := (e.qty mass).len
noncomputable def masses (m : ℕ) : ℝ := (e.qty mass).v1 m
noncomputable def hmf (z m : ℕ) : ℝ := (e.qty dndlnm).v2 z m
noncomputable def bias (z m : ℕ) : ℝ := (e.qty haloBias).v2 z m
noncomputable def rho (z : ℕ) : ℝ := (e.qty meanDensity0).v1 z
noncomputable def plin (z k : ℕ) : ℝ := (e.qty pkLin).v2 z k
noncomputable def ks (k : ℕ) : ℝ := (e.par "k_vec").v1 k

/-- `compute_matter_profile` (pk.py:673-705) with the arguments of `matter_profile` and `matter_profile_2h` -/
noncomputable def profile (z k m : ℕ) : ℝ := e.masses m / e.rho z * (e.qty uDm).v3 z k m

/-- `fs` (pk.py:1484-1503) -/
noncomputable def fs (z : ℕ) : ℝ :=
  (2.01 - 0.3 * ((e.par "log10T_AGN").toNum - 7.8)) * 0.01
    * (10 : ℝ) ^ ((e.par "z_vec").v1 z * (0.409 + 0.0224 * ((e.par "log10T_AGN").toNum - 7.8)))

/-- `fg` (pk.py:1408-1447) -/
noncomputable def fg (z m : ℕ) : ℝ :=
  let mb := (10 : ℝ) ^ (13.87 + 1.81 * ((e.par "log10T_AGN").toNum - 7.8))
    * (10 : ℝ) ^ ((e.par "z_vec").v1 z * (0.195 * ((e.par "log10T_AGN").toNum - 7.8) - 0.108))
  ((e.par "omega_b").toNum / (e.qty omegaM).toNum - e.fs z) * (e.masses m / mb) ^ 2 / (1 + (e.masses m / mb) ^ 2)

/-- `compute_matter_profile_with_feedback` (pk.py:745-785) -/
noncomputable def feedbackProfile (z k m : ℕ) : ℝ :=
  ((e.par "omega_c").toNum / (e.qty omegaM).toNum + e.fg z m) * (e.masses m / e.rho z) * (e.qty uDm).v3 z k m
    + e.fs z * (e.masses m / e.rho z)

/-- `fg_fit` (pk.py:1449-1482) -/
noncomputable def fgFit (m : ℕ) (fstar : ℝ) : ℝ :=
  ((e.par "omega_b").toNum / (e.qty omegaM).toNum - fstar) * (e.masses m / (e.par "mb").toNum) ^ 2
    / (1 + (e.masses m / (e.par "mb").toNum) ^ 2)

/-- `matter_profile_with_feedback_stellar_fraction_from_obs(fstar)` (pk.py:806-871) -/
noncomputable def fitProfile (fstar : ℝ) (z k m : ℕ) : ℝ :=
  ((e.par "omega_c").toNum / (e.qty omegaM).toNum + e.fgFit m fstar) * (e.masses m / e.rho z) * (e.qty uDm).v3 z k m
    + fstar * (e.masses m / e.rho z)

/-- `compute_1h_term` (pk.py:1033-1078) -/
noncomputable def oneHalo (u v : ℕ → ℝ) (z : ℕ) : ℝ :=
  simpson e.nm e.masses fun m => u m * v m * e.hmf z m / e.masses m

/-- `compute_Ig_term` (pk.py:1829-1850) -/
noncomputable def igTerm (u : ℕ → ℝ) (z : ℕ) : ℝ :=
  simpson e.nm e.masses fun m => u m * e.bias z m * e.hmf z m / e.masses m

/-- `trapezoidal_integrator` (pk.py:1402-1406) -/
noncomputable def trapz (f : ℕ → ℝ) : ℝ := ∑ i ∈ range e.nm, f i * (e.qty trapezoidalWeights).v1 i

/-- `I_NL` (pk.py:1300-1390) with the arguments every caller gives -/
noncomputable def iNL (W1 W2 : ℕ → ℝ) (z k : ℕ) : ℝ :=
  let A := (e.qty aTerm).v1 z
  let fac := e.rho z * (1 / e.masses 0)
  (e.qty betaNlArray).v4 z k 0 0 * (A * A) * W1 0 * W2 0 * fac ^ 2
    + A * W1 0 * e.trapz (fun m => (e.qty i12).v3 z k m * W2 m) * fac
    + A * W2 0 * e.trapz (fun m => (e.qty i21).v3 z k m * W1 m) * fac
    + e.trapz fun m1 => e.trapz (fun m2 => (e.qty i22).v4 z k m1 m2 * W2 m2) * W1 m1

/-- the profile of the 1-halo term of the matter spectrum (pk.py:1556-1567) -/
noncomputable def profileMm (z k m : ℕ) : ℝ :=
  match (e.par "hmcode_ingredients").ingr with
  | .mead2020Feedback => (e.qty matterProfileFeedback).v3 z k m
  | .mead2020 => (e.qty matterProfile).v3 z k m
  | .fit => e.fitProfile ((e.qty fstarMm).v2 z m) z k m
  | .none => (e.qty matterProfile).v3 z k m

/-- the matter profile of the 1-halo terms of gm and mi (pk.py:1991-2000, 2358-2367) -/
noncomputable def profileG (b z k m : ℕ) : ℝ :=
  match (e.par "hmcode_ingredients").ingr with
  | .mead2020Feedback => (e.qty matterProfileFeedback).v3 z k m
  | .mead2020 => (e.qty matterProfile).v3 z k m
  | .fit => e.fitProfile ((e.qty fstar).v3 b z m) z k m
  | .none => if (e.par "pointmass").truthy = true then e.fitProfile ((e.qty fstar).v3 b z m) z k m
      else (e.qty matterProfile).v3 z k m

/-- the damping factors of HMcode (pk.py:953-996) -/
noncomputable def oneMead (z k : ℕ) : ℝ :=
  (e.ks k / (0.05618 * (e.qty sigma8Z).v1 z ^ (-1.013 : ℝ))) ^ 4
    / (1 + (e.ks k / (0.05618 * (e.qty sigma8Z).v1 z ^ (-1.013 : ℝ))) ^ 4)

/-- pk.py:973-996 -/
noncomputable def twoMead (z k : ℕ) : ℝ :=
  1 - 0.2696 * (e.qty sigma8Z).v1 z ^ (0.9403 : ℝ)
      * (e.ks k / (0.05699 * (e.qty sigma8Z).v1 z ^ (-1.089 : ℝ))) ^ (2.853 : ℝ)
    / (1 + (e.ks k / (0.05699 * (e.qty sigma8Z).v1 z ^ (-1.089 : ℝ))) ^ (2.853 : ℝ))

/-- `transition_smoothing` (pk.py:998-1031) -/
noncomputable def smoothing (z k : ℕ) (p1 p2 : ℝ) : ℝ :=
  let fac := e.ks k ^ 3 / (2 * Real.pi ^ 2)
  let alpha := 1.875 * (1.603 : ℝ) ^ (e.qty neff).v1 z
  ((fac * p1) ^ alpha + (fac * p2) ^ alpha) ^ (1 / alpha) / fac

/-- `additional_term` (pk.py:2205-2208, 2241-2244) -/
noncomputable def massFactor (beta mpivot : Option ℝ) (avg : ℝ) : ℝ :=
  match beta, mpivot with
  | some b, some m => (avg / m) ^ b
  | _, _ => 1

/-- the response block at the end of the spectra (e.g. pk.py:1968-1971) -/
noncomputable def respond (r : PkResult) : Val X :=
  if (e.par "response").truthy = true then
    .result do
      let raw ← (e.qty mmRaw).toResult
      let f : ℕ → ℕ → ℝ := fun z k => (e.qty pkNl).v2 z k / raw.pkTot 0 z k
      .ok ⟨fun b z k => r.pk1h b z k * f z k, fun b z k => r.pk2h b z k * f z k, fun b z k => r.pkTot b z k * f z k,
        r.galaxyLinearBias⟩
  else .result (.ok r)

/-! ## The spectra -/

/-- `_power_spectrum_mm` (pk.py:1543-1630) -/
noncomputable def mmRawVal : Except PyErr PkResult :=
  let p1 : ℕ → ℕ → ℝ := fun z k => e.oneHalo (e.profileMm z k) (e.profileMm z k) z
  match (e.par "nonlinear_mode").mode with
  | .bnl =>
    let p2h : ℕ → ℕ → ℕ → ℝ := fun _ z k =>
      e.plin z k * (e.qty imTerm).v2 z k * (e.qty imTerm).v2 z k
        + e.plin z k * e.iNL ((e.qty matterProfile2h).v3 z k) ((e.qty matterProfile2h).v3 z k) z k
    let p1h : ℕ → ℕ → ℕ → ℝ := fun _ z k => p1 z k * (e.qty oneHaloTruncation).v1 k
    .ok ⟨p1h, p2h, fun b z k => p1h b z k + p2h b z k, none⟩
  | .hmcode =>
    if holds .mead (e.par "hmcode_ingredients") = true then
      let p2h : ℕ → ℕ → ℕ → ℝ := fun _ z k => e.plin z k * e.twoMead z k
      let p1h : ℕ → ℕ → ℕ → ℝ := fun _ z k => p1 z k * e.oneMead z k
      .ok ⟨p1h, p2h, fun b z k => e.smoothing z k (p1h b z k) (p2h b z k), none⟩
    else .error .unboundLocal
  | _ =>
    let p2h : ℕ → ℕ → ℕ → ℝ := fun _ z k =>
      e.plin z k * (e.qty imTerm).v2 z k * (e.qty imTerm).v2 z k * (e.qty twoHaloTruncation).v1 k
    let p1h : ℕ → ℕ → ℕ → ℝ := fun _ z k => p1 z k * (e.qty oneHaloTruncation).v1 k
    .ok ⟨p1h, p2h, fun b z k => p1h b z k + p2h b z k, none⟩

/-- the damping of the 2-halo terms of gg and gm, which the non-linear bias replaces (pk.py:1919-1935, 2027-2039) -/
noncomputable def twoCut (k : ℕ) : ℝ :=
  if holds .bnl (e.par "nonlinear_mode") = true then 1 else (e.qty twoHaloTruncation).v1 k

/-- `power_spectrum_gg` (pk.py:1888-1966) -/
noncomputable def ggVal : PkResult :=
  let c : ℕ → ℕ → ℕ → ℕ → ℝ := (e.qty centralProfile).v4
  let s : ℕ → ℕ → ℕ → ℕ → ℝ := (e.qty satelliteProfile).v4
  let ic : ℕ → ℕ → ℕ → ℝ := (e.qty icTerm).v3
  let is : ℕ → ℕ → ℕ → ℝ := (e.qty isTerm).v3
  let p1h : ℕ → ℕ → ℕ → ℝ := fun b z k =>
    2 * (e.oneHalo (c b z k) (s b z k) z * (e.qty oneHaloTruncation).v1 k)
      + e.oneHalo (fun m => s b z k m * (e.qty poissonFunc).v1 m) (s b z k) z * (e.qty oneHaloTruncation).v1 k
  let p2h : ℕ → ℕ → ℕ → ℝ := fun b z k =>
    e.plin z k * ic b z k * ic b z k * e.twoCut k + e.plin z k * is b z k * is b z k * e.twoCut k
      + 2 * (e.plin z k * ic b z k * is b z k * e.twoCut k)
      + (if holds .bnl (e.par "nonlinear_mode") = true then
          e.plin z k * e.iNL (fun m => c b z k m + s b z k m) (fun m => c b z k m + s b z k m) z k else 0)
  ⟨p1h, p2h, fun b z k => p1h b z k + p2h b z k,
    some fun b z k => √(ic b z k * ic b z k + is b z k * is b z k + 2 * ic b z k * is b z k)⟩

/-- `power_spectrum_gm` (pk.py:1980-2059) -/
noncomputable def gmVal : PkResult :=
  let c : ℕ → ℕ → ℕ → ℕ → ℝ := (e.qty centralProfile).v4
  let s : ℕ → ℕ → ℕ → ℕ → ℝ := (e.qty satelliteProfile).v4
  let ic : ℕ → ℕ → ℕ → ℝ := (e.qty icTerm).v3
  let is : ℕ → ℕ → ℕ → ℝ := (e.qty isTerm).v3
  let im : ℕ → ℕ → ℝ := (e.qty imTerm).v2
  let p1h : ℕ → ℕ → ℕ → ℝ := fun b z k =>
    e.oneHalo (c b z k) (e.profileG b z k) z * (e.qty oneHaloTruncation).v1 k
      + e.oneHalo (s b z k) (e.profileG b z k) z * (e.qty oneHaloTruncation).v1 k
  let p2h : ℕ → ℕ → ℕ → ℝ := fun b z k =>
    e.plin z k * ic b z k * im z k * e.twoCut k + e.plin z k * is b z k * im z k * e.twoCut k
      + (if holds .bnl (e.par "nonlinear_mode") = true then
          e.plin z k * e.iNL (fun m => c b z k m + s b z k m) ((e.qty matterProfile2h).v3 z k) z k else 0)
  ⟨p1h, p2h, fun b z k => p1h b z k + p2h b z k,
    some fun b z k => √(ic b z k * im z k + is b z k * im z k)⟩

/-- `power_spectrum_mi` (pk.py:2347-2432) -/
noncomputable def miVal : PkResult :=
  let c : ℕ → ℕ → ℕ → ℕ → ℝ := (e.qty centralAlignment).v4
  let s : ℕ → ℕ → ℕ → ℕ → ℝ := (e.qty satelliteAlignment).v4
  let p1h : ℕ → ℕ → ℕ → ℝ := fun b z k =>
    -1 * e.oneHalo (e.profileG b z k) (s b z k) z * (e.qty oneHaloTruncationIa).v1 k
  match (e.par "nonlinear_mode").mode with
  | .bnl =>
    let inl : ℕ → ℕ → ℕ → ℝ := fun b z k =>
      e.iNL (fun m => c b z k m + s b z k m) ((e.qty matterProfile2h).v3 z k) z k
    let sm : ℕ → ℕ → ℕ → ℝ := fun b z k => -1 * e.plin z k * (e.qty isAlign).v3 b z k * (e.qty imTerm).v2 z k
    let cm : ℕ → ℕ → ℕ → ℝ := fun b z k => -1 * e.plin z k * (e.qty icAlign).v3 b z k * (e.qty imTerm).v2 z k
    ⟨p1h, fun b z k => cm b z k + sm b z k - e.plin z k * inl b z k,
      fun b z k => p1h b z k + cm b z k + sm b z k - e.plin z k * inl b z k, none⟩
  | .fortuna =>
    let cm : ℕ → ℕ → ℕ → ℝ := fun b z k =>
      (e.qty hod).toHod.fC b z * (e.qty peff).v2 z k * (e.qty amplitude2h).v1 z * (e.qty twoHaloTruncationIa).v1 k
    ⟨p1h, cm, fun b z k => p1h b z k + cm b z k, none⟩
  | _ =>
    let sm : ℕ → ℕ → ℕ → ℝ := fun b z k =>
      -1 * e.plin z k * (e.qty isAlign).v3 b z k * (e.qty imTerm).v2 z k * (e.qty twoHaloTruncationIa).v1 k
    let cm : ℕ → ℕ → ℕ → ℝ := fun b z k =>
      -1 * e.plin z k * (e.qty icAlign).v3 b z k * (e.qty imTerm).v2 z k * (e.qty twoHaloTruncationIa).v1 k
    ⟨p1h, fun b z k => cm b z k + sm b z k, fun b z k => p1h b z k + cm b z k + sm b z k, none⟩

/-- `power_spectrum_ii` (pk.py:2443-2555) -/
noncomputable def iiVal : PkResult :=
  let c : ℕ → ℕ → ℕ → ℕ → ℝ := (e.qty centralAlignment).v4
  let s : ℕ → ℕ → ℕ → ℕ → ℝ := (e.qty satelliteAlignment).v4
  let ic : ℕ → ℕ → ℕ → ℝ := (e.qty icAlign).v3
  let is : ℕ → ℕ → ℕ → ℝ := (e.qty isAlign).v3
  let p1h : ℕ → ℕ → ℕ → ℝ := fun b z k => e.oneHalo (s b z k) (s b z k) z * (e.qty oneHaloTruncationIa).v1 k
  match (e.par "nonlinear_mode").mode with
  | .bnl =>
    let ss : ℕ → ℕ → ℕ → ℝ := fun b z k =>
      e.plin z k * is b z k * is b z k + e.plin z k * e.iNL (s b z k) (s b z k) z k
    let cc : ℕ → ℕ → ℕ → ℝ := fun b z k =>
      e.plin z k * ic b z k * ic b z k + e.plin z k * e.iNL (c b z k) (c b z k) z k
    let cs : ℕ → ℕ → ℕ → ℝ := fun b z k =>
      e.plin z k * ic b z k * is b z k + e.plin z k * e.iNL (c b z k) (s b z k) z k
    ⟨p1h, fun b z k => cc b z k + ss b z k + cs b z k, fun b z k => p1h b z k + cc b z k + ss b z k + cs b z k, none⟩
  | .fortuna =>
    let cc : ℕ → ℕ → ℕ → ℝ := fun b z k =>
      (e.qty hod).toHod.fC b z ^ 2 * (e.qty peff).v2 z k * (e.qty amplitude2hII).v1 z * (e.qty twoHaloTruncationIa).v1 k
    ⟨p1h, cc, fun b z k => p1h b z k + cc b z k, none⟩
  | _ =>
    let ss : ℕ → ℕ → ℕ → ℝ := fun b z k => e.plin z k * is b z k * is b z k * (e.qty twoHaloTruncationIa).v1 k
    let cc : ℕ → ℕ → ℕ → ℝ := fun b z k => e.plin z k * ic b z k * ic b z k * (e.qty twoHaloTruncationIa).v1 k
    let cs : ℕ → ℕ → ℕ → ℝ := fun b z k => e.plin z k * ic b z k * is b z k * (e.qty twoHaloTruncationIa).v1 k
    ⟨p1h, fun b z k => cc b z k + ss b z k + cs b z k, fun b z k => p1h b z k + cc b z k + ss b z k + cs b z k, none⟩

/-- `power_spectrum_gi` (pk.py:2566-2653) -/
noncomputable def giVal : PkResult :=
  let g : ℕ → ℕ → ℕ → ℕ → ℝ := (e.qty centralProfile).v4
  let c : ℕ → ℕ → ℕ → ℕ → ℝ := (e.qty centralAlignment).v4
  let s : ℕ → ℕ → ℕ → ℕ → ℝ := (e.qty satelliteAlignment).v4
  let ig : ℕ → ℕ → ℕ → ℝ := (e.qty icTerm).v3
  let p1h : ℕ → ℕ → ℕ → ℝ := fun b z k => e.oneHalo (g b z k) (s b z k) z * (e.qty oneHaloTruncationIa).v1 k
  match (e.par "nonlinear_mode").mode with
  | .bnl =>
    let cc : ℕ → ℕ → ℕ → ℝ := fun b z k =>
      e.plin z k * ig b z k * (e.qty icAlign).v3 b z k + e.plin z k * e.iNL (c b z k) (g b z k) z k
    let cs : ℕ → ℕ → ℕ → ℝ := fun b z k =>
      e.plin z k * ig b z k * (e.qty isAlign).v3 b z k + e.plin z k * e.iNL (s b z k) (g b z k) z k
    ⟨p1h, fun b z k => cs b z k + cc b z k, fun b z k => p1h b z k + cs b z k + cc b z k, none⟩
  | .fortuna =>
    let cc : ℕ → ℕ → ℕ → ℝ := fun b z k =>
      -1 * (e.qty peff).v2 z k * ig b z k * (e.qty amplitude2h).v1 z * (e.qty twoHaloTruncationIa).v1 k
    ⟨p1h, cc, fun b z k => p1h b z k + cc b z k, none⟩
  | _ =>
    let cc : ℕ → ℕ → ℕ → ℝ := fun b z k =>
      e.plin z k * ig b z k * (e.qty icAlign).v3 b z k * (e.qty twoHaloTruncationIa).v1 k
    let cs : ℕ → ℕ → ℕ → ℝ := fun b z k =>
      e.plin z k * ig b z k * (e.qty isAlign).v3 b z k * (e.qty twoHaloTruncationIa).v1 k
    ⟨p1h, fun b z k => cs b z k + cc b z k, fun b z k => p1h b z k + cs b z k + cc b z k, none⟩

end Env

/-- the value of every quantity from what its code has read; the comment gives name and place -/
noncomputable def formula {X : Type} (ext : ℕ → Env X → Val X) (n : ℕ) (e : Env X) : Val X :=
  match n with
  | 55 => if holds .fortuna (e.par "nonlinear_mode") = true then
      .a2 fun z k => (1 - (e.par "t_eff").toNum) * (e.qty pkNl).v2 z k + (e.par "t_eff").toNum * e.plin z k
      else .none -- peff pk.py:500-514
  | 56 => if holds .bnl (e.par "nonlinear_mode") = true then
      .a3 fun z k m => (e.qty betaNlArray).v4 z k 0 m * (e.bias z m * e.hmf z m * (1 / e.masses m))
      else .none -- I12 pk.py:545-562, 1242-1269
  | 57 => if holds .bnl (e.par "nonlinear_mode") = true then
      .a3 fun z k m => (e.qty betaNlArray).v4 z k m 0 * (e.bias z m * e.hmf z m * (1 / e.masses m))
      else .none -- I21 pk.py:564-581, 1271-1298
  | 58 => if holds .bnl (e.par "nonlinear_mode") = true then
      .a4 fun z k m1 m2 => (e.qty betaNlArray).v4 z k m1 m2 * (e.bias z m1 * e.hmf z m1 * (1 / e.masses m1))
        * (e.bias z m2 * e.hmf z m2 * (1 / e.masses m2))
      else .none -- I22 pk.py:583-600, 1205-1240
  | 61 => .a3 e.profile -- matter_profile pk.py:707-723
  | 62 => .a3 e.profile -- matter_profile_2h pk.py:725-743
  | 63 => .a3 e.feedbackProfile -- matter_profile_with_feedback pk.py:787-804
  | 64 => .a1 0 fun k => match (e.par "one_halo_ktrunc").toOpt with
      | none => 1
      | some kt => (e.ks k / kt) ^ 4 / (1 + (e.ks k / kt) ^ 4) -- one_halo_truncation pk.py:873-891
  | 65 => .a1 0 fun k => match (e.par "two_halo_ktrunc").toOpt with
      | none => 1
      | some _ => 1 - 0.05 * (e.ks k / 0.05699) ^ (2.853 : ℝ) / (1 + (e.ks k / 0.05699) ^ (2.853 : ℝ)) -- two_halo_truncation pk.py:893-913
  | 66 => .a1 0 fun k => match (e.par "one_halo_ktrunc_ia").toOpt with
      | none => 1
      | some kt => 1 - Real.exp (-(e.ks k / kt) ^ 2) -- one_halo_truncation_ia pk.py:915-932
  | 67 => .a1 0 fun k => match (e.par "two_halo_ktrunc_ia").toOpt with
      | none => 1
      | some kt => Real.exp (-(e.ks k / kt) ^ 2) -- two_halo_truncation_ia pk.py:934-951
  | 68 => .a1 0 fun z => 1 - simpson e.nm e.masses fun m => e.bias z m * e.hmf z m * (1 / e.rho z) -- missing_mass_integral pk.py:1080-1143
  | 69 => .a1 0 (e.qty missingMass).v1 -- A_term pk.py:1145-1155
  | 70 => .a2 fun z k => (simpson e.nm e.masses fun m => e.bias z m * e.hmf z m * (e.qty uDm).v3 z k m * (1 / e.rho z))
      + (e.qty aTerm).v1 z -- Im_term pk.py:1157-1203
  | 71 => .a1 e.nm fun i => if i = e.nm - 1 then (e.masses (e.nm - 1) - e.masses (e.nm - 2)) / 2
      else if i = 0 then (e.masses 1 - e.masses 0) / 2
      else (e.masses (i + 1) - e.masses (i - 1)) / 2 -- _trapezoidal_weights pk.py:1392-1400
  | 73 => .a2 e.plin -- power_spectrum_lin pk.py:1528-1541
  | 74 => .result e.mmRawVal -- _power_spectrum_mm pk.py:1543-1630
  | 75 => if (e.par "response").truthy = true then
      .result (.ok ⟨fun _ _ _ => 0, fun _ _ _ => 0, fun _ z k => (e.qty pkNl).v2 z k, none⟩)
      else .result (e.qty mmRaw).toResult -- power_spectrum_mm pk.py:1632-1653
  | 77 => .a3 (e.qty hod).toHod.fstar -- fstar pk.py:1677-1687
  | 78 => .a2 fun b z => (e.qty hod).toHod.avgHaloMassCen b z / (e.qty hod).toHod.numberDensity b z -- mass_avg pk.py:1689-1699
  | 85 => .a4 fun b z _ m => (e.qty hod).toHod.fC b z * (e.qty hod).toHod.hodCen b z m * 1
      / (e.qty hod).toHod.numberDensityCen b z -- central_galaxy_profile pk.py:1795-1810
  | 86 => .a4 fun b z k m => (e.qty hod).toHod.fS b z * (e.qty hod).toHod.hodSat b z m * (e.qty uSat).v3 z k m
      / (e.qty hod).toHod.numberDensitySat b z -- satellite_galaxy_profile pk.py:1812-1827
  | 87 => .a3 fun b z k => e.igTerm ((e.qty centralProfile).v4 b z k) z -- Ic_term pk.py:1852-1868
  | 88 => .a3 fun b z k => e.igTerm ((e.qty satelliteProfile).v4 b z k) z -- Is_term pk.py:1870-1886
  | 89 => e.respond e.ggVal -- power_spectrum_gg pk.py:1888-1978
  | 90 => e.respond e.gmVal -- power_spectrum_gm pk.py:1980-2071
  | 92 => ((e.qty alignmentClass).toAlign.betaCen).elim .none .num -- beta_cen pk.py:2097-2102
  | 93 => ((e.qty alignmentClass).toAlign.betaSat).elim .none .num -- beta_sat pk.py:2104-2109
  | 94 => ((e.qty alignmentClass).toAlign.mpivotCen).elim .none .num -- mpivot_cen pk.py:2111-2116
  | 95 => ((e.qty alignmentClass).toAlign.mpivotSat).elim .none .num -- mpivot_sat pk.py:2118-2123
  | 96 => .a1 0 (e.qty alignmentClass).toAlign.alignmentGi -- alignment_gi pk.py:2125-2130
  | 97 => .a1 0 fun z => 5e-14 * (e.qty alignmentGi).v1 z -- C1 pk.py:2154-2159
  | 98 => .a1 0 fun z => -1 * ((e.qty c1).v1 z * e.rho z / (e.qty growthFactor).v1 z) -- alignment_amplitude_2h pk.py:2132-2141
  | 99 => .a1 0 fun z => ((e.qty c1).v1 z * e.rho z / (e.qty growthFactor).v1 z) ^ 2 -- alignment_amplitude_2h_II pk.py:2143-2152
  | 101 => .a4 fun b z _ m => (e.qty hod).toHod.fC b z * ((e.qty c1).v1 z / (e.qty growthFactor).v1 z) * e.masses m
      * Env.massFactor (e.qty betaCen).toOpt (e.qty mpivotCen).toOpt ((e.qty massAvg).v2 b z) -- central_alignment_profile pk.py:2177-2211, 2247-2271
  | 102 => .a4 fun b z k m => (e.qty hod).toHod.fS b z * (e.qty hod).toHod.hodSat b z m * (e.qty wkmSat).v3 z k m
      / (e.qty hod).toHod.numberDensitySat b z
      * Env.massFactor (e.qty betaSat).toOpt (e.qty mpivotSat).toOpt ((e.qty massAvg).v2 b z) -- satellite_alignment_profile pk.py:2213-2245, 2273-2297
  | 103 => .a3 fun b z k => e.igTerm ((e.qty centralAlignment).v4 b z k) z
      + (e.qty aTerm).v1 z * (e.qty centralAlignment).v4 b z k 0 * e.rho z / e.masses 0 -- Ic_align_term pk.py:2299-2321
  | 104 => .a3 fun b z k => e.igTerm ((e.qty satelliteAlignment).v4 b z k) z
      + (e.qty aTerm).v1 z * (e.qty satelliteAlignment).v4 b z k 0 * e.rho z / e.masses 0 -- Is_align_term pk.py:2323-2345
  | 105 => e.respond e.miVal -- power_spectrum_mi pk.py:2347-2441
  | 106 => e.respond e.iiVal -- power_spectrum_ii pk.py:2443-2564
  | 107 => e.respond e.giVal -- power_spectrum_gi pk.py:2566-2662
  | n => ext n e

/-- the class `Spectra` with its formulas: a quantity computes from the values its code read, in the order of the reads -/
noncomputable def sem {X : Type} (ext : ℕ → Env X → Val X) : Sem (Val X) where
  out n vs := formula ext n (replay (body n) vs (Env.empty X))
  holds := holds

/-- the inputs of the spectra (`Model/Pk`) found in the parameters `σ` and in values `E` of the quantities -/
noncomputable def inputs {X : Type} (σ : String → Val X) (E : ℕ → Val X) : Spectra where
  nonlinearMode := (σ "nonlinear_mode").mode
  hmcodeIngredients := (σ "hmcode_ingredients").ingr
  response := (σ "response").truthy
  pointmass := (σ "pointmass").truthy
  oneHaloKtrunc := (σ "one_halo_ktrunc").toOpt
  twoHaloKtrunc := (σ "two_halo_ktrunc").toOpt
  oneHaloKtruncIa := (σ "one_halo_ktrunc_ia").toOpt
  twoHaloKtruncIa := (σ "two_halo_ktrunc_ia").toOpt
  tEff := (σ "t_eff").toNum
  mb := (σ "mb").toNum
  log10TAGN := (σ "log10T_AGN").toNum
  omegaC := (σ "omega_c").toNum
  omegaB := (σ "omega_b").toNum
  omegaM := (E omegaM).toNum
  nm := (E mass).len
  zVec := (σ "z_vec").v1
  kVec := (σ "k_vec").v1
  mass := (E mass).v1
  dndlnm := (E dndlnm).v2
  haloBias := (E haloBias).v2
  meanDensity0 := (E meanDensity0).v1
  uDm := (E uDm).v3
  uSat := (E uSat).v3
  sigma8z := (E sigma8Z).v1
  neff := (E neff).v1
  growthFactor := (E growthFactor).v1
  pkLin := (E pkLin).v2
  pkNl := (E pkNl).v2
  betaNl := (E betaNlArray).v4
  fC := (E hod).toHod.fC
  fS := (E hod).toHod.fS
  hodCen := (E hod).toHod.hodCen
  hodSat := (E hod).toHod.hodSat
  numberDensity := (E hod).toHod.numberDensity
  numberDensityCen := (E hod).toHod.numberDensityCen
  numberDensitySat := (E hod).toHod.numberDensitySat
  avgHaloMassCen := (E hod).toHod.avgHaloMassCen
  fstar := (E hod).toHod.fstar
  fstarMm := (E fstarMm).v2
  poissonFunc := (E poissonFunc).v1
  alignmentGi := (E alignmentClass).toAlign.alignmentGi
  betaCen := (E alignmentClass).toAlign.betaCen
  betaSat := (E alignmentClass).toAlign.betaSat
  mpivotCen := (E alignmentClass).toAlign.mpivotCen
  mpivotSat := (E alignmentClass).toAlign.mpivotSat
  wkmSat := (E wkmSat).v3

end Verif.LiveSpectra

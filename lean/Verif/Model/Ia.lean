import Verif.Lib.Simpson
import Verif.Lib.Py
import Verif.Lib.Histogram
import Mathlib.Analysis.SpecialFunctions.Gamma.Basic
import Mathlib.Analysis.SpecialFunctions.Trigonometric.Basic
import Mathlib.Data.Nat.Factorial.Basic

/-!
# Intrinsic alignment amplitudes and satellite alignment profile (`/repo/src/onepower/ia.py`)
-/

namespace Verif.Ia

open Verif.Lib

/-! ## Amplitudes -/

/-- the parameters of `AlignmentAmplitudes` (ia.py:58-93) after their setters; a luminosity file is the list
of its galaxies `(z, loglum)` (ia.py:357-359). -/
structure Amplitudes where
  nz : ℕ
  zVec : ℕ → ℝ
  centralDep : String
  satelliteDep : String
  gamma2h : ℝ
  betaCen : ℝ
  betaTwo : Option ℝ
  gamma1h : ℝ
  betaSat : ℝ
  mpivotCen : Option ℝ
  mpivotSat : Option ℝ
  lpivotCen : Option ℝ
  lpivotSat : Option ℝ
  lumFileCen : Option (List (ℝ × ℝ))
  lumFileSat : Option (List (ℝ × ℝ))

/-- setter of the dependence options (ia.py:103-133) -/
def setDep (v : String) : Except PyErr String :=
  if v ∈ ["constant", "luminosity", "halo_mass"] then .ok v else .error .valueError

/-- setter of a pivot (ia.py:179-213) -/
noncomputable def setPivot : Option ℝ → Option ℝ
  | none => none
  | some v => some ((10 : ℝ) ^ v)

namespace Amplitudes

variable (a : Amplitudes)

/-- `z_edges` (ia.py:361-363) -/
noncomputable def zEdge (i : ℕ) : ℝ :=
  let dz := 0.5 * (a.zVec 1 - a.zVec 0)
  if i < a.nz then a.zVec i - dz else a.zVec (a.nz - 1) + dz

open Classical in
/-- log-luminosities of the galaxies in redshift bin `i` (ia.py:369-370) -/
noncomputable def loglumBin (gals : List (ℝ × ℝ)) (i : ℕ) : List ℝ :=
  (gals.filter fun g => decide (a.zEdge i ≤ g.1 ∧ g.1 < a.zEdge (i + 1))).map Prod.snd

/-- entry `(i, j)` of the luminosity and density arrays (ia.py:368-376) for `nl` luminosity bins -/
noncomputable def lumAndPdf (gals : List (ℝ × ℝ)) (nl i j : ℕ) : ℝ × ℝ :=
  match (a.loglumBin gals i).map fun l => (10 : ℝ) ^ l with
  | [] => (0, 0)
  | x :: xs =>
    let dbin := (histEdge x xs nl nl - histEdge x xs nl 0) / (1 * nl)
    (histEdge x xs nl j + 0.5 * dbin, histDensity x xs nl j)

/-- `compute_luminosity_pdf` (ia.py:341-378): `z_bins[1]` needs two redshifts. -/
noncomputable def computeLuminosityPdf (gals : List (ℝ × ℝ)) (nl : ℕ) :
    Except PyErr ((ℕ → ℕ → ℝ) × (ℕ → ℕ → ℝ)) :=
  if a.nz < 2 then .error .indexError
  else .ok (fun i j => (a.lumAndPdf gals nl i j).1, fun i j => (a.lumAndPdf gals nl i j).2)

/-- `nlbins` (ia.py:285) -/
def nlbins : ℕ := 10000

/-- `_initialize_luminosity_array` (ia.py:261-288) -/
noncomputable def initLum (file : Option (List (ℝ × ℝ))) : Except PyErr ((ℕ → ℕ → ℝ) × (ℕ → ℕ → ℝ)) :=
  match file with
  | none => .error .valueError
  | some gals => a.computeLuminosityPdf gals nlbins

end Amplitudes

/-- `mean_l_l0_to_beta` (ia.py:290-309) for one redshift, `n` luminosities -/
noncomputable def meanLL0ToBeta (n : ℕ) (xlum pdf : ℕ → ℝ) (l0 beta : ℝ) : ℝ :=
  simpson n xlum fun j => pdf j * (xlum j / l0) ^ beta

open Classical in
/-- `broken_powerlaw` (ia.py:311-339) for one redshift -/
noncomputable def brokenPowerlaw (n : ℕ) (xlum pdf : ℕ → ℝ) (g l0 beta betaLow : ℝ) : ℝ :=
  simpson n xlum fun j => pdf j *
    (if xlum j > l0 then g * (xlum j / l0) ^ beta else g * (xlum j / l0) ^ betaLow)

namespace Amplitudes

variable (a : Amplitudes)

/-- `alignment_gi` (ia.py:380-423); the outer `Option` is Python's `None`, returned for an unknown option
(which the setter excludes). -/
noncomputable def alignmentGi : Except PyErr (Option (ℕ → ℝ)) :=
  if a.centralDep = "constant" then .ok (some fun _ => a.gamma2h * 1)
  else if a.centralDep = "luminosity" then
    match a.lpivotCen with
    | none => .error .valueError
    | some l0 => match a.betaTwo with
      | some b2 => match a.initLum a.lumFileCen with
        | .error e => .error e
        | .ok (lum, pdf) => .ok (some fun i =>
            brokenPowerlaw nlbins (lum i) (pdf i) a.gamma2h l0 a.betaCen b2)
      | none => match a.initLum a.lumFileCen with
        | .error e => .error e
        | .ok (lum, pdf) => .ok (some fun i =>
            a.gamma2h * meanLL0ToBeta nlbins (lum i) (pdf i) l0 a.betaCen)
  else if a.centralDep = "halo_mass" then
    match a.mpivotCen with
    | none => .error .valueError
    | some _ => match a.betaTwo with
      | some _ => .error .valueError
      | none => .ok (some fun _ => a.gamma2h * 1)
  else .ok none

/-- `gamma_1h_amp` (ia.py:425-449) -/
noncomputable def gamma1hAmp : Except PyErr (Option (ℕ → ℝ)) :=
  if a.satelliteDep = "constant" then .ok (some fun _ => a.gamma1h * 1)
  else if a.satelliteDep = "luminosity" then
    match a.lpivotSat with
    | none => .error .valueError
    | some l0 => match a.initLum a.lumFileSat with
      | .error e => .error e
      | .ok (lum, pdf) => .ok (some fun i =>
          a.gamma1h * meanLL0ToBeta nlbins (lum i) (pdf i) l0 a.betaSat)
  else if a.satelliteDep = "halo_mass" then
    match a.mpivotSat with
    | none => .error .valueError
    | some _ => .ok (some fun _ => a.gamma1h * 1)
  else .ok none

end Amplitudes

/-! ## Multipoles -/

/-- setter of `ell_max` (ia.py:578-589), for integers -/
def setEllMax (v : ℤ) : Except PyErr ℤ := if v > 11 then .error .valueError else .ok v

/-- `ell_values = np.arange(0, ell_max + 1, 2)` (ia.py:614-626) -/
def ellValues (ellMax : ℤ) : List ℕ := (List.range ((ellMax + 2) / 2).toNat).map fun i => 2 * i

/-- table lookup -/
def tableAt (l : List ℝ) (i : ℕ) : Except PyErr ℝ :=
  match l[i]? with
  | some v => .ok v
  | none => .error .indexError

/-- tabulated `f_ell` for slope 0 (ia.py:804-821) -/
noncomputable def table0 : List ℝ :=
  [0, 0, 2.77582637, 0, -0.19276603, 0, 0.04743899, 0, -0.01779024, 0, 0.00832446, 0, -0.00447308, 0]

/-- tabulated `f_ell` for slope -2 (ia.py:822-839) -/
noncomputable def tableM2 : List ℝ :=
  [0, 0, 4.71238898, 0, -2.61799389, 0, 2.06167032, 0, -1.76714666, 0, 1.57488973, 0, -1.43581368, 0]

/-- `gj` (ia.py:846-861) -/
noncomputable def gj : List ℝ :=
  [0, 0, Real.pi / 2, 0, Real.pi / 2, 0, 15 * Real.pi / 32, 0, 7 * Real.pi / 16, 0, 105 * Real.pi / 256, 0]

/-- `scipy.special.binom(x, k)` for an integer `k >= 0`: the generalised binomial coefficient -/
noncomputable def binom (x : ℝ) (k : ℕ) : ℝ := (∏ i ∈ Finset.range k, (x - i)) / (k.factorial : ℝ)

/-- `I_x` (ia.py:753-774) for an integer `b >= 0` -/
noncomputable def iX (a : ℝ) (b : ℕ) : ℝ :=
  (1 + (-1) ^ b) * Real.Gamma (a / 2 + 1) * Real.Gamma ((b + 1) / 2)
    / (2 * Real.Gamma (a / 2 + b / 2 + 3 / 2))

/-- a Python `sum(f(i) for i in range(n))` whose terms may raise -/
def sumE (n : ℕ) (f : ℕ → Except PyErr ℝ) : Except PyErr ℝ :=
  match n with
  | 0 => .ok 0
  | n + 1 => match sumE n f with
    | .error e => .error e
    | .ok s => match f n with
      | .error e => .error e
      | .ok v => .ok (s + v)

/-- `theta_k` (ia.py:512), hard coded -/
noncomputable def thetaK : ℝ := Real.pi / 2

/-- term `j` of the inner sum `sum2` (ia.py:865-872) -/
noncomputable def fEllInner (m : ℕ) (g : ℝ) (j : ℕ) : Except PyErr ℝ :=
  match tableAt gj j with
  | .error e => .error e
  | .ok c => .ok (binom m j * c * Real.sin thetaK ^ j * Real.cos thetaK ^ (m - j) * iX (j + g) (m - j))

/-- term `m` of the outer sum `sum1` (ia.py:863-873) -/
noncomputable def fEllOuter (ell : ℕ) (g : ℝ) (m : ℕ) : Except PyErr ℝ :=
  match sumE (m + 1) (fEllInner m g) with
  | .error e => .error e
  | .ok s => .ok (binom ell m * binom (0.5 * (ell + m - 1)) ell * s)

/-- `sum1 * 2**ell` of the general case (ia.py:862-875).  Simplification: real arithmetic, so
`cos(theta_k)` is exactly 0. -/
noncomputable def fEllGeneral (ell : ℕ) (g : ℝ) : Except PyErr ℝ :=
  match sumE (ell + 1) (fEllOuter ell g) with
  | .error e => .error e
  | .ok s => .ok (2 ^ ell * s)

open Classical in
/-- `calculate_f_ell` (ia.py:776-875); the phase is 1 because `phi_k = 0` (ia.py:513), and
`theta_k == np.pi / 2` always holds. -/
noncomputable def calculateFEll (ell : ℕ) (g : ℝ) : Except PyErr ℝ :=
  if g = 0 then tableAt table0 ell
  else if g = -2 then tableAt tableM2 ell
  else fEllGeneral ell g

/-- one term of the multipole sum (ia.py:889-893): `i**ell` is real for the even `ell` used;
`u` is `uell` (first axis of length `n`). -/
noncomputable def wkmTerm (n : ℕ) (u : ℕ → ℝ) (g : ℝ) (ell : ℕ) : Except PyErr ℝ :=
  match calculateFEll ell g with
  | .error e => .error e
  | .ok f => if ell / 2 < n then .ok ((-1) ^ (ell / 2) * (2 * ell + 1) * u (ell / 2) * f)
    else .error .indexError

/-- the loop over multipoles (ia.py:889-893) -/
noncomputable def wkmSum (n : ℕ) (u : ℕ → ℝ) (g : ℝ) : List ℕ → Except PyErr ℝ
  | [] => .ok 0
  | ell :: l => match wkmTerm n u g ell, wkmSum n u g l with
    | .error e, _ => .error e
    | _, .error e => .error e
    | .ok v, .ok s => .ok (v + s)

/-- `wkm_f_ell` (ia.py:873-895) for one redshift, mass and wavenumber; `uell` has one row per entry of
`ell_values` (ia.py:964-966). -/
noncomputable def wkmFEll (ellMax : ℤ) (u : ℕ → ℝ) (g : ℝ) : Except PyErr ℝ :=
  match wkmSum (ellValues ellMax).length u g (ellValues ellMax) with
  | .error e => .error e
  | .ok s => .ok |s|

open Classical in
/-- `gamma_r_nfw_profile` (ia.py:897-930) -/
noncomputable def gammaRNfwProfile (r rs rvir a b rcore : ℝ) (truncate : Bool) : ℝ :=
  let gamma := a * (r / rvir) ^ b
  let gamma := if r < rcore then a * (rcore / rvir) ^ b else gamma
  let gamma := min gamma 0.3
  let nfw := 1 / (r / rs * (1 + r / rs) ^ 2)
  let nfw := if truncate = true ∧ r ≥ rvir then 0 else nfw
  gamma * nfw

/-! ## Down-sampling -/

/-- `q[::f]` -/
def stride (f : ℕ) (q : List ℝ) : List ℝ :=
  (List.range ((q.length + f - 1) / f)).filterMap fun i => q[i * f]?

/-- the two early exits of `_downsample` (ia.py:655-665), then the stride -/
inductive DownsampleCase
  | same
  | factor (f : ℕ)

/-- ia.py:655-667 -/
def downsampleCase (method : String) (massSize nmass : ℕ) : Except PyErr DownsampleCase :=
  if method ≠ "hankel" then .ok .same
  else if massSize = nmass then .ok .same
  else if massSize < nmass then .error .valueError
  else .ok (.factor (massSize / nmass))

open Classical in
/-- `_downsample` of a one-dimensional array (ia.py:669-672) -/
noncomputable def downsample1 (method : String) (massSize nmass : ℕ) (q : List ℝ) : Except PyErr (List ℝ) :=
  match downsampleCase method massSize nmass with
  | .error e => .error e
  | .ok .same => .ok q
  | .ok (.factor f) =>
    match (stride f q).getLast?, q.getLast? with
    | some d, some l => if d ≠ l then .ok (stride f q ++ [l]) else .ok (stride f q)
    | _, _ => .error .indexError

open Classical in
/-- `_downsample` of a two-dimensional array, a list of rows (ia.py:673-678); an empty second axis would raise
IndexError and is not represented. -/
noncomputable def downsample2 (method : String) (massSize nmass : ℕ) (q : List (List ℝ)) :
    Except PyErr (List (List ℝ)) :=
  match downsampleCase method massSize nmass with
  | .error e => .error e
  | .ok .same => .ok q
  | .ok (.factor f) =>
    if ∀ row ∈ q, (stride f row).getLast? ≠ row.getLast? then
      .ok (q.map fun row => stride f row ++ row.getLast?.toList)
    else .ok (q.map (stride f))

/-! ## The dictionary passed by the caller -/

/-- a Python dictionary -/
abbrev Dict (V : Type) := String → Option V

open Classical in
/-- `self.align_params = align_params or {}` (pk.py:205): which dictionary object is stored; `none` stands for a
new empty one. -/
noncomputable def storedDict {V : Type} (caller : Option (Dict V)) : Option (Dict V) :=
  match caller with
  | none => none
  | some d => if d = (fun _ => none) then none else some d

/-- `alignment_class` (pk.py:2085-2094): the dictionary after `update` -/
def alignUpdate {V : Type} (zVec mass conc rs rvir fftlog : V) (d : Dict V) : Dict V := fun k =>
  if k = "z_vec" then some zVec
  else if k = "mass_in" then some mass
  else if k = "c_in" then some conc
  else if k = "r_s_in" then some rs
  else if k = "rvir_in" then some rvir
  else if k = "method" then some fftlog
  else d k

end Verif.Ia

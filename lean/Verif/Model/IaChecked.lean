import Verif.Lib.Checked
import Verif.Model.IaUpsample

/-!
# `/repo/src/onepower/ia.py` with invalid floating-point operations

The formulas of `Model/Ia` and `Model/IaUpsample`, written once more over `Ck` (`Lib/Checked`).  The citations are those of
the two models.
-/

namespace Verif.IaChecked

open Verif.Lib Verif.Ia

/-- the arguments for which `scipy.special.gamma` returns `inf` or `nan`: zero and the negative integers -/
def GammaPole (x : ℝ) : Prop := ∃ n : ℕ, x = -n

open Classical in
/-- `scipy.special.gamma`.  Simplification: `gamma(0) = inf` in a denominator, which would give 0, counts as invalid. -/
noncomputable def gamma : Ck → Ck
  | .num x => if GammaPole x then .bad else .num (Real.Gamma x)
  | .bad => .bad

open Classical in
/-- `np.log`: `-inf` at 0, `nan` below -/
noncomputable def log : Ck → Ck
  | .num x => if x ≤ 0 then .bad else .num (Real.log x)
  | .bad => .bad

/-! ## Angular factor -/

/-- `I_x` (ia.py:753-774) -/
noncomputable def iX (a : ℝ) (b : ℕ) : Ck :=
  (((1 + (-1) ^ b : ℝ)) : Ck) * gamma ((a / 2 + 1 : ℝ) : Ck) * gamma (((b + 1) / 2 : ℝ) : Ck)
    / (((2 : ℝ) : Ck) * gamma ((a / 2 + b / 2 + 3 / 2 : ℝ) : Ck))

/-- a Python `sum` whose terms may raise or be invalid -/
noncomputable def sumE (n : ℕ) (f : ℕ → Except PyErr Ck) : Except PyErr Ck :=
  match n with
  | 0 => .ok (.num 0)
  | n + 1 => match sumE n f with
    | .error e => .error e
    | .ok s => match f n with
      | .error e => .error e
      | .ok v => .ok (s + v)

/-- term `j` of the inner sum (ia.py:865-872) -/
noncomputable def fEllInner (m : ℕ) (g : ℝ) (j : ℕ) : Except PyErr Ck :=
  match tableAt gj j with
  | .error e => .error e
  | .ok c => .ok (((binom m j * c * Real.sin thetaK ^ j * Real.cos thetaK ^ (m - j) : ℝ) : Ck) * iX (j + g) (m - j))

/-- term `m` of the outer sum (ia.py:863-873) -/
noncomputable def fEllOuter (ell : ℕ) (g : ℝ) (m : ℕ) : Except PyErr Ck :=
  match sumE (m + 1) (fEllInner m g) with
  | .error e => .error e
  | .ok s => .ok (((binom ell m * binom (0.5 * (ell + m - 1)) ell : ℝ) : Ck) * s)

open Classical in
/-- `calculate_f_ell` (ia.py:776-875) -/
noncomputable def calculateFEll (ell : ℕ) (g : ℝ) : Except PyErr Ck :=
  if g = 0 then match tableAt table0 ell with
    | .error e => .error e
    | .ok v => .ok (.num v)
  else if g = -2 then match tableAt tableM2 ell with
    | .error e => .error e
    | .ok v => .ok (.num v)
  else match sumE (ell + 1) (fEllOuter ell g) with
    | .error e => .error e
    | .ok s => .ok (((2 ^ ell : ℝ) : Ck) * s)

/-- one term of the multipole sum (ia.py:889-893) -/
noncomputable def wkmTerm (n : ℕ) (u : ℕ → Ck) (g : ℝ) (ell : ℕ) : Except PyErr Ck :=
  match calculateFEll ell g with
  | .error e => .error e
  | .ok f => if ell / 2 < n then .ok ((((-1) ^ (ell / 2) * (2 * ell + 1) : ℝ) : Ck) * u (ell / 2) * f)
    else .error .indexError

/-- the loop over multipoles (ia.py:889-893) -/
noncomputable def wkmSum (n : ℕ) (u : ℕ → Ck) (g : ℝ) : List ℕ → Except PyErr Ck
  | [] => .ok (.num 0)
  | ell :: l => match wkmTerm n u g ell, wkmSum n u g l with
    | .error e, _ => .error e
    | _, .error e => .error e
    | .ok v, .ok s => .ok (v + s)

/-- `np.abs` -/
noncomputable def abs : Ck → Ck
  | .num x => .num |x|
  | .bad => .bad

/-- `wkm_f_ell` (ia.py:873-895) -/
noncomputable def wkmFEll (ellMax : ℤ) (u : ℕ → Ck) (g : ℝ) : Except PyErr Ck :=
  match wkmSum (ellValues ellMax).length u g (ellValues ellMax) with
  | .error e => .error e
  | .ok s => .ok (abs s)

/-! ## Radial profile -/

/-- `np.clip(x, None, top)` -/
noncomputable def clipTop (x : Ck) (top : ℝ) : Ck :=
  match x with
  | .num x => .num (min x top)
  | .bad => .bad

open Classical in
/-- `gamma_r_nfw_profile` (ia.py:897-930): `np.where` evaluates both alternatives, the one not taken is discarded -/
noncomputable def gammaRNfwProfile (r rs rvir a b rcore : ℝ) (truncate : Bool) : Ck :=
  let g : Ck := if r < rcore then (a : Ck) * ((rcore : Ck) / rvir).rpow b else (a : Ck) * ((r : Ck) / rvir).rpow b
  let nfw : Ck := if truncate = true ∧ r ≥ rvir then .num 0
    else ((1 : ℝ) : Ck) / ((r : Ck) / rs * (((1 : ℝ) : Ck) + (r : Ck) / rs) ^ 2)
  clipTop g 0.3 * nfw

/-- `mnfw` (ia.py:957-962) -/
noncomputable def mnfw (rs c : ℝ) : Ck :=
  ((4 * Real.pi * rs ^ 3 : ℝ) : Ck) * (log (((1 : ℝ) : Ck) + c) - (c : Ck) / (((1 : ℝ) : Ck) + c))

/-- the division that ends a multipole with `method='fftlog'` (ia.py:1004-1006): `t` is the entry of the transform -/
noncomputable def uell (t k rs c : ℝ) : Ck := (t : Ck) / ((k : Ck).rpow ((1.5 : ℝ) : Ck) * mnfw rs c)

/-! ## Amplitudes -/

/-- `mean_l_l0_to_beta` (ia.py:290-309) -/
noncomputable def meanLL0ToBeta (n : ℕ) (xlum pdf : ℕ → ℝ) (l0 beta : ℝ) : Ck :=
  simpsonCk n xlum fun j => (pdf j : Ck) * ((xlum j : Ck) / l0).rpow beta

open Classical in
/-- `broken_powerlaw` (ia.py:311-339) -/
noncomputable def brokenPowerlaw (n : ℕ) (xlum pdf : ℕ → ℝ) (g l0 beta betaLow : ℝ) : Ck :=
  simpsonCk n xlum fun j => (pdf j : Ck) *
    (if xlum j > l0 then (g : Ck) * ((xlum j : Ck) / l0).rpow beta else (g : Ck) * ((xlum j : Ck) / l0).rpow betaLow)

/-- `alignment_gi` (ia.py:380-423) -/
noncomputable def alignmentGi (a : Amplitudes) : Except PyErr (Option (ℕ → Ck)) :=
  if a.centralDep = "constant" then .ok (some fun _ => .num (a.gamma2h * 1))
  else if a.centralDep = "luminosity" then
    match a.lpivotCen with
    | none => .error .valueError
    | some l0 => match a.betaTwo with
      | some b2 => match a.initLum a.lumFileCen with
        | .error e => .error e
        | .ok (lum, pdf) => .ok (some fun i =>
            brokenPowerlaw Amplitudes.nlbins (lum i) (pdf i) a.gamma2h l0 a.betaCen b2)
      | none => match a.initLum a.lumFileCen with
        | .error e => .error e
        | .ok (lum, pdf) => .ok (some fun i =>
            (a.gamma2h : Ck) * meanLL0ToBeta Amplitudes.nlbins (lum i) (pdf i) l0 a.betaCen)
  else if a.centralDep = "halo_mass" then
    match a.mpivotCen with
    | none => .error .valueError
    | some _ => match a.betaTwo with
      | some _ => .error .valueError
      | none => .ok (some fun _ => .num (a.gamma2h * 1))
  else .ok none

/-- `gamma_1h_amp` (ia.py:425-449) -/
noncomputable def gamma1hAmp (a : Amplitudes) : Except PyErr (Option (ℕ → Ck)) :=
  if a.satelliteDep = "constant" then .ok (some fun _ => .num (a.gamma1h * 1))
  else if a.satelliteDep = "luminosity" then
    match a.lpivotSat with
    | none => .error .valueError
    | some l0 => match a.initLum a.lumFileSat with
      | .error e => .error e
      | .ok (lum, pdf) => .ok (some fun i =>
          (a.gamma1h : Ck) * meanLL0ToBeta Amplitudes.nlbins (lum i) (pdf i) l0 a.betaSat)
  else if a.satelliteDep = "halo_mass" then
    match a.mpivotSat with
    | none => .error .valueError
    | some _ => .ok (some fun _ => .num (a.gamma1h * 1))
  else .ok none

end Verif.IaChecked

import Verif.Lib.Checked
import Verif.Lib.Interp
import Verif.Lib.Special
import Verif.Lib.Py
import Mathlib.Algebra.BigOperators.Group.List.Basic

/-!
# The legacy module that bins observable functions
(`/repo/cosmosis_modules/legacy/predict_observable/predict_observable.py`)

Simplifications: what one suffix names in the input section (`obs_val_…`, `obs_func_…`, `z_bin_…`) is one grid, written
together, with arrays of matching shapes; the file of weights has at least two rows; `np.loadtxt`, `ast.literal_eval` and the
astropy cosmologies are external (a cosmology is its comoving distance and its `h`).  A division by zero, which numpy turns into
`nan`, is `Ck.bad`.
-/

namespace Verif.PredictObservable

open Verif.Lib

/-- comoving distance and `h` of a cosmology (predict_observable.py:137, 168, 208-213) -/
structure Cosmo where
  comoving : ℝ → ℝ
  h : ℝ

/-- the options read by `setup` (predict_observable.py:63-139); `none` is an absent option, `correct` holds the cosmology of the
data when `correct_cosmo` is set, `dist` the rows of `obs_dist_file` -/
structure Options where
  suffixes : Option (List String)
  sample : Option String
  dist : Option (List (ℝ × ℝ))
  weighted : Bool
  edges : Bool
  logMin : List ℝ
  logMax : List ℝ
  nObs : List ℕ
  zmin : List ℝ
  zmax : List ℝ
  correct : Option Cosmo

/-- what `setup` returns (predict_observable.py:64-139) -/
structure Config where
  suffixes : List String
  sample : Option String
  opts : Options

/-- `setup` (predict_observable.py:63-139): `sample` is only read together with `suffixes` -/
def setup (o : Options) : Except PyErr Config :=
  let rest (sfx : List String) (sample : Option String) : Except PyErr Config :=
    if o.logMin.length = sfx.length ∧ o.logMax.length = sfx.length ∧ o.nObs.length = sfx.length then
      if o.weighted = true ∧ o.edges = false then .error .valueError else .ok ⟨sfx, sample, o⟩
    else .error .valueError
  match o.suffixes with
  | none => rest ["_1"] none
  | some sfx => match o.sample with
    | none => .error .blockError
    | some s => rest sfx (some s)

/-- edge `j` of the bins of sample `i`, a decimal logarithm (predict_observable.py:99, 182, 192) -/
noncomputable def edge (o : Options) (i j : ℕ) : ℝ :=
  linspace (o.logMin.getD i 0) (o.logMax.getD i 0) (o.nObs.getD i 0 + 1) j

/-- `obs_arr[i][j]` (predict_observable.py:95-104) -/
noncomputable def obsArr (o : Options) (i j : ℕ) : ℝ :=
  if o.edges then (10 : ℝ) ^ ((edge o i (j + 1) + edge o i j) / 2)
  else logspace (o.logMin.getD i 0) (o.logMax.getD i 0) (o.nObs.getD i 0) j

/-- smallest entry of a list (`.min()`) -/
noncomputable def minimum (l : List ℝ) : ℝ := l.foldr min (l.headD 0)

/-- largest entry of a list (`.max()`) -/
noncomputable def maximum (l : List ℝ) : ℝ := l.foldr max (l.headD 0)

/-- `obs_arr_fine` with weight one (predict_observable.py:112, 195) -/
noncomputable def fine (o : Options) : List (ℝ × ℝ) :=
  (List.range 10000).map fun k => (linspace (minimum o.logMin) (maximum o.logMax) 10000 k, 1)

/-- the observable function of one suffix in the input section; without redshifts there is one row -/
structure Grid where
  n : ℕ
  obs : ℕ → ℝ
  z : Option (ℕ × (ℕ → ℝ))
  f : ℕ → ℕ → ℝ

/-- `load_and_interpolate_obs` (predict_observable.py:20-47): row `j` at an observable, 0 outside -/
noncomputable def Grid.at (g : Grid) (j : ℕ) (q : ℝ) : ℝ := interp1d (.value 0) g.n g.obs (g.f j) q

/-- a redshift distribution -/
structure Dist where
  n : ℕ
  z : ℕ → ℝ
  nz : ℕ → ℝ

/-- `load_redshift` (predict_observable.py:49-61), 0 outside -/
noncomputable def Dist.at (d : Dist) (z : ℝ) : ℝ := interp1d (.value 0) d.n d.z d.nz z

/-- the entries of the data block: the input section by the name of `obs_val_…`, the distributions of a sample by bin number, and
the cosmology of the run -/
structure Block where
  grid : String → Option Grid
  dist : String → ℕ → Option Dist
  run : Cosmo

open Classical in
/-- the weighted mean in one bin (predict_observable.py:184-187, 194-197) -/
noncomputable def binMean (pts : List (ℝ × ℝ)) (f : ℝ → ℝ) (lo hi : ℝ) : Ck :=
  let sel := pts.filter fun p => decide (lo < p.1 ∧ p.1 ≤ hi)
  .num (sel.map fun p => f p.1 * p.2).sum / .num (sel.map Prod.snd).sum

/-- `obs_func` before the redshift integral (predict_observable.py:178-200): the weighted means are made from the first row, for all
redshifts the same.  The `except` branch is taken when there is no file. -/
noncomputable def binned (o : Options) (g : Grid) (i j b : ℕ) : Ck :=
  if o.weighted then
    binMean (o.dist.getD (fine o)) (fun q => g.at 0 ((10 : ℝ) ^ q)) (edge o i b) (edge o i (b + 1))
  else .num (g.at j (obsArr o i b))

/-- the comoving volume of a sample (predict_observable.py:208-213) -/
noncomputable def volume (c : Cosmo) (zmin zmax : ℝ) : ℝ := (c.comoving zmax ^ 3 - c.comoving zmin ^ 3) * c.h ^ 3

/-- `obs_func * ratio_obs` (predict_observable.py:206-216) -/
noncomputable def corrected (o : Options) (run : Cosmo) (i : ℕ) (x : Ck) : Ck :=
  match o.correct with
  | none => x
  | some data => x * (.num (volume run (o.zmin.getD i 0) (o.zmax.getD i 0)) /
      .num (volume data (o.zmin.getD i 0) (o.zmax.getD i 0)))

/-- what is written for one sample: `bin_…`, and `obs_…`, `mass_…` with the same content -/
structure Out where
  n : ℕ
  bin : ℕ → Ck
  obs : ℕ → ℝ

/-- one turn of the loop (predict_observable.py:174-220) -/
noncomputable def sample (c : Config) (B : Block) (i : ℕ) : Except PyErr Out :=
  match B.grid ("obs_val_" ++ c.suffixes.getD i "") with
  | none => .error .blockError
  | some g => match g.z with
    | none => .ok ⟨c.opts.nObs.getD i 0, fun b => corrected c.opts B.run i (binned c.opts g i 0 b), obsArr c.opts i⟩
    | some (nz, z) => match c.sample with
      | none => .error .blockError
      | some s => match B.dist s (i + 1) with
        | none => .error .blockError
        | some d => .ok ⟨c.opts.nObs.getD i 0, fun b => corrected c.opts B.run i
            (simpsonCk nz z fun j => .num (d.at (z j)) * binned c.opts g i j b), obsArr c.opts i⟩

/-- the loop over the samples -/
noncomputable def samples (c : Config) (B : Block) : List ℕ → Except PyErr (List Out)
  | [] => .ok []
  | i :: l => match sample c B i with
    | .error e => .error e
    | .ok r => match samples c B l with
      | .error e => .error e
      | .ok rs => .ok (r :: rs)

/-- `execute` (predict_observable.py:141-225); the length of the result is `nbin` -/
noncomputable def execute (c : Config) (B : Block) : Except PyErr (List Out) :=
  if c.opts.correct.isSome ∧ (c.opts.zmin.length ≠ c.suffixes.length ∨ c.opts.zmax.length ≠ c.suffixes.length) then
    .error .valueError
  else samples c B (List.range c.suffixes.length)

/-- setup and execute -/
noncomputable def predict (o : Options) (B : Block) : Except PyErr (List Out) :=
  match setup o with
  | .error e => .error e
  | .ok c => execute c B

end Verif.PredictObservable

import Verif.Lib.Py
import Verif.Lib.InterpSort
import Mathlib.LinearAlgebra.Matrix.NonsingularInverse
import Mathlib.Analysis.SpecialFunctions.Log.Base

/-!
# The likelihood modules of `/repo/cosmosis_modules/legacy`

`likelihood_ds_wp/mini_2pt_like.py` (data from text files, theory from the data block) and `utils/mini_like.py` (data and theory
from the data block).

Vectors are lists.  Simplifications: every data file has at least two rows (numpy reads a single row as a number without axes),
separations and observables are positive, numbers in the files are already read, `unit` is the length of the data's unit in Mpc
(astropy, external).  What `setup` computes and never uses (errors, correlation matrix, normalisation) is left out.
-/

namespace Verif.Likelihood

open Verif.Lib

/-- one data file: the two columns read by `np.loadtxt` (mini_2pt_like.py:102-104) -/
structure DataFile where
  name : String
  x : List ℝ
  y : List ℝ

/-- `sorted(glob(datafiles))` (mini_2pt_like.py:98): the files in the order of their names; `glob` lists them in any order -/
def sortFiles (l : List DataFile) : List DataFile := l.insertionSort fun a b => a.name ≤ b.name

/-- `load_datapoints_2d` (mini_2pt_like.py:96-116) with `exclude=None`, as `setup` passes it (line 169): a third column
reaches `enumerat`, an unknown name -/
def loadDatapoints (ncols : ℕ) (l : List DataFile) : Except PyErr (List DataFile) :=
  if ncols = 3 then .error .nameError else .ok (sortFiles l)

/-- an `M` by `M` matrix from the file -/
def toMatrix (M : ℕ) (C : ℕ → ℕ → ℝ) : Matrix (Fin M) (Fin M) ℝ := Matrix.of fun i j => C i j

open Classical in
/-- `np.linalg.inv(cov2d)` with the handler around it (mini_2pt_like.py:42-49): the handler uses `warnings`, which is never
imported -/
noncomputable def invert (M : ℕ) (C : ℕ → ℕ → ℝ) : Except PyErr (Matrix (Fin M) (Fin M) ℝ) :=
  if (toMatrix M C).det = 0 then .error .nameError else .ok (toMatrix M C)⁻¹

/-- first row of bin `i`: `nrbins[:i].sum()` (mini_2pt_like.py:60-61) -/
def offset (sizes : List ℕ) (i : ℕ) : ℕ := (sizes.take i).sum

/-- entry of a matrix, 0 outside -/
noncomputable def entry {M : ℕ} (A : Matrix (Fin M) (Fin M) ℝ) (i j : ℕ) : ℝ :=
  if h : i < M ∧ j < M then A ⟨i, h.1⟩ ⟨j, h.2⟩ else 0

/-- length of the slice `start:start+n` of an axis of length `M` -/
def sliceLen (M start n : ℕ) : ℕ := min (start + n) M - min start M

/-- `np.dot(u, v)` of two vectors -/
def dot (u v : List ℝ) : ℝ := ((List.range u.length).map fun i => u.getD i 0 * v.getD i 0).sum

/-- `np.dot(residuals[m], np.dot(inv_cov[m][n], residuals[n]))` with the block cut out as in line 62
(mini_2pt_like.py:62-64, 235): a block of the wrong shape is a `ValueError` -/
noncomputable def blockTerm {M : ℕ} (A : Matrix (Fin M) (Fin M) ℝ) (r : List (List ℝ)) (m n : ℕ) : Except PyErr ℝ :=
  let sizes := r.map List.length
  let u := r.getD m []
  let v := r.getD n []
  let rows := sliceLen M (offset sizes m) u.length
  let cols := sliceLen M (offset sizes n) v.length
  if cols = v.length then
    if rows = u.length then
      .ok (dot u ((List.range rows).map fun a =>
        dot ((List.range cols).map fun b => entry A (offset sizes m + a) (offset sizes n + b)) v))
    else .error .valueError
  else .error .valueError

/-- `chi2` (mini_2pt_like.py:235-236): all pairs of bins, in this order -/
noncomputable def chi2 {M : ℕ} (A : Matrix (Fin M) (Fin M) ℝ) (r : List (List ℝ)) : Except PyErr ℝ := do
  let l ← (List.range r.length).mapM fun m => (List.range r.length).mapM fun n => blockTerm A r m n
  return (l.map List.sum).sum

/-! ## Theory -/

/-- `binning_mode` -/
inductive Mode
  | interpolate
  | integrate
  | other

open Classical in
/-- `interp1d(np.log(x), y, kind='linear')(np.log(q))` (mini_2pt_like.py:135-137): nodes of another number than values, and
points outside the nodes, are a `ValueError` -/
noncomputable def interpolated (x y q : List ℝ) : Except PyErr (List ℝ) :=
  if x.length ≠ y.length ∨ x = [] then .error .valueError
  else
    let nodes := sortNodes ((x.map Real.log).zip y)
    q.mapM fun t =>
      if Real.log t < (nodes.getD 0 (0, 0)).1 ∨ (nodes.getD (nodes.length - 1) (0, 0)).1 < Real.log t then .error .valueError
      else .ok (interpList .extrapolate nodes (Real.log t))

/-- `np.trapz(y, x)` on a list of points -/
noncomputable def trapz : List (ℝ × ℝ) → ℝ
  | [] => 0
  | [_] => 0
  | a :: b :: l => (b.1 - a.1) * (a.2 + b.2) / 2 + trapz (b :: l)

open Classical in
/-- one bin of the mode `integrate` (mini_2pt_like.py:140-148), without weights, as `execute` calls it -/
noncomputable def integrated (x y : List ℝ) (lo hi : ℝ) : ℝ := trapz ((x.zip y).filter fun p => lo ≤ p.1 ∧ p.1 < hi)

/-- the decimal logarithms of the bin edges (mini_2pt_like.py:176-184): midpoints, and the first and last one symmetric -/
noncomputable def logEdges (x : List ℝ) (i : ℕ) : ℝ :=
  let l := fun j => Real.logb 10 (x.getD j 0)
  let n := x.length
  if i = 0 then 2 * l 0 - (l 1 + l 0) * 0.5
  else if i = n then 2 * l (n - 1) - (l (n - 1) + l (n - 2)) * 0.5
  else (l i + l (i - 1)) * 0.5

/-- `get_theory_point` (mini_2pt_like.py:134-151); `x`, `y` are the theory, `q` the points of the data in Mpc, `d` the same in
the unit of the file, from which the edges are made -/
noncomputable def theoryPoint (mode : Mode) (x y q d : List ℝ) : Except PyErr (List ℝ) :=
  match mode with
  | .interpolate => interpolated x y q
  | .integrate =>
    if x.length ≠ y.length ∨ x = [] then .error .valueError
    else .ok ((List.range d.length).map fun i => integrated x y ((10 : ℝ) ^ logEdges d i) ((10 : ℝ) ^ logEdges d (i + 1)))
  | .other => .error .valueError

/-- what `execute` reads in one section (mini_2pt_like.py:198, 205, 211-218); bins are numbered from 0 here -/
structure Section where
  nbin : Option ℕ
  rp : Option (List ℝ)
  mass : ℕ → Option (List ℝ)
  luminosity : ℕ → Option (List ℝ)
  bin : ℕ → Option (List ℝ)

/-- subscript of the block -/
def read {α : Type} (v : Option α) : Except PyErr α :=
  match v with
  | none => .error .blockError
  | some a => .ok a

/-- the theory of bin `j` of section `name` at the points of file `f` (mini_2pt_like.py:207-223) -/
noncomputable def theoryBin (mode : Mode) (unit : ℝ) (name : String) (s : Section) (j : ℕ) (f : DataFile) :
    Except PyErr (List ℝ) := do
  if name = "wp" ∨ name = "ds" then
    let x ← read s.rp
    let y ← read (s.bin j)
    theoryPoint mode x y (f.x.map fun t => t * unit) f.x
  else
    let x ← match s.mass j with
      | some x => .ok x
      | none => read (s.luminosity j)
    let y ← read (s.bin j)
    theoryPoint mode x y f.x f.x

/-- the bins in the order of the loop (mini_2pt_like.py:204-206) -/
def theoryBins (sections : List (String × Section)) : Except PyErr (List (String × Section × ℕ)) := do
  let l ← sections.mapM fun p => do return (← read p.2.nbin, p)
  return l.flatMap fun p => (List.range p.1).map fun j => (p.2.1, p.2.2, j)

/-- `execute` (mini_2pt_like.py:193-240) with the configuration of `setup` (lines 156-190): the value of `chi2`; the likelihood is
`-0.5*chi2` -/
noncomputable def execute (ncols : ℕ) (files : List DataFile) (M : ℕ) (C : ℕ → ℕ → ℝ) (mode : Mode) (unit : ℝ)
    (sections : List (String × Section)) : Except PyErr ℝ := do
  let data ← loadDatapoints ncols files
  let A ← invert M C
  let bins ← theoryBins sections
  if bins.length ≠ data.length then .error .valueError
  else
    let theory ← (bins.zip data).mapM fun p => theoryBin mode unit p.1.1 p.1.2.1 p.1.2.2 p.2
    chi2 A ((data.zip theory).map fun p => List.zipWith (· - ·) p.1.y p.2)

/-- `ln_like` from `chi2` (mini_2pt_like.py:237, mini_like.py:27) -/
noncomputable def logLike (c : ℝ) : ℝ := -0.5 * c

/-- `mini_like.execute` (mini_like.py:12-30): data, theory and inverse covariance from the block -/
noncomputable def miniLike {M : ℕ} (d mu : Fin M → ℝ) (inv : Matrix (Fin M) (Fin M) ℝ) : ℝ :=
  (d - mu) ⬝ᵥ (inv.mulVec (d - mu))

end Verif.Likelihood

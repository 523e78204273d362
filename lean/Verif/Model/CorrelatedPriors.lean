import Verif.Lib.Py
import Mathlib.Data.Real.Basic
import Mathlib.Algebra.BigOperators.Group.Finset.Basic

/-!
# The legacy module that correlates parameters (`/repo/cosmosis_modules/legacy/utils/correlated_priors.py`)

Simplifications: names are what `split("/")` leaves (lists of parts); the data block is a map from section and name; the file is an
array with `r` rows and `c` columns.  `np.linalg.cholesky` is an external function for which only its documented behaviour is
assumed (`Chol`): it reads the lower triangle.
-/

namespace Verif.CorrelatedPriors

open Verif.Lib Finset

/-- `L` is a Cholesky factor of the lower triangle of `A` -/
structure IsChol (n : ℕ) (A L : ℕ → ℕ → ℝ) : Prop where
  diag : ∀ i < n, 0 < L i i
  upper : ∀ i j, i < j → j < n → L i j = 0
  prod : ∀ i < n, ∀ j ≤ i, ∑ k ∈ range n, L i k * L j k = A i j

/-- what is assumed of `np.linalg.cholesky`: a factor if there is one, an exception otherwise (correlated_priors.py:14) -/
def Chol (chol : ℕ → (ℕ → ℕ → ℝ) → Option (ℕ → ℕ → ℝ)) : Prop :=
  ∀ n A, match chol n A with
    | some L => IsChol n A L
    | none => ¬ ∃ L, IsChol n A L

/-- the covariance file as `np.loadtxt` reads it -/
structure File where
  r : ℕ
  c : ℕ
  a : ℕ → ℕ → ℝ

/-- what `setup` returns -/
structure Config where
  inputs : List (List String)
  outputs : List (List String)
  n : ℕ
  L : ℕ → ℕ → ℝ

/-- `setup` (correlated_priors.py:6-15): a file with one row or one column is read as an array of fewer than two dimensions, which
`cholesky` refuses like an array that is not square -/
def setup (chol : ℕ → (ℕ → ℕ → ℝ) → Option (ℕ → ℕ → ℝ)) (inputs outputs : List (List String)) (f : File) : Except PyErr Config :=
  if f.r ≠ f.c ∨ f.r < 2 then .error .generic
  else match chol f.r f.a with
    | none => .error .generic
    | some L => .ok ⟨inputs, outputs, f.r, L⟩

/-- the data block -/
abbrev Block := String × String → Option ℝ

/-- the first loop (correlated_priors.py:20-22) -/
def readInputs (B : Block) : List (List String) → Except PyErr (List ℝ)
  | [] => .ok []
  | [s, m] :: l => match B (s, m) with
    | none => .error .blockError
    | some v => match readInputs B l with
      | .error e => .error e
      | .ok vs => .ok (v :: vs)
  | _ :: _ => .error .valueError

/-- `block[section, name] = v` -/
def put (B : Block) (k : String × String) (v : ℝ) : Block := fun k' => if k' = k then some v else B k'

/-- the second loop from output `i` (correlated_priors.py:25-26), with the block as it is left when an exception is raised -/
def writeOutputs (n : ℕ) (p : ℕ → ℝ) : ℕ → List (List String) → Block → Block × Option PyErr
  | _, [], B => (B, none)
  | i, [s, m] :: l, B => if i < n then writeOutputs n p (i + 1) l (put B (s, m) (p i)) else (B, some .indexError)
  | _, _ :: _, B => (B, some .valueError)

/-- `L @ p` (correlated_priors.py:23) -/
noncomputable def matvec (n : ℕ) (L : ℕ → ℕ → ℝ) (x : List ℝ) (i : ℕ) : ℝ := ∑ j ∈ range n, L i j * x.getD j 0

/-- `execute` (correlated_priors.py:17-28) -/
noncomputable def execute (c : Config) (B : Block) : Block × Option PyErr :=
  match readInputs B c.inputs with
  | .error e => (B, some e)
  | .ok x => if x.length = c.n then writeOutputs c.n (matvec c.n c.L x) 0 c.outputs B else (B, some .valueError)

end Verif.CorrelatedPriors

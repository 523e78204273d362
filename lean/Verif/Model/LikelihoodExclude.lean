import Verif.Model.Likelihood

/-!
# Excluding points, and the numbers derived from the covariance
(`/repo/cosmosis_modules/legacy/likelihood_ds_wp/mini_2pt_like.py`)

`covariance_excluder`, the part of `load_datapoints_2d` that drops points, `load_data`, and what `covariance_aux_numbers` computes
beside the inverse.  `setup` passes `exclude=None` (line 169); the functions take more.  The covariance is square, its rows are
numbered over all bins.
-/

namespace Verif.Likelihood

open Verif.Lib

/-- what may be given as `exclude`: nothing, a number, a list or tuple, an array of integers -/
inductive Exclude
  | none
  | number (b : ℤ)
  | list (l : List ℤ)
  | array (l : List ℤ)

/-- `idx`, flattened (mini_2pt_like.py:85): the excluded numbers counted from the first row of every bin -/
def excludeIdx (sizes : List ℕ) (ex : List ℤ) : List ℤ :=
  (List.range sizes.length).flatMap fun a => ex.map fun b => (offset sizes a : ℤ) + b

/-- `np.delete(cov2d, idx, axis)` on an axis of length `N` (mini_2pt_like.py:86-87): the numbers of the rows that stay.  Negative
numbers count from the end; numbers outside are an `IndexError`, and so is an empty `idx`, which is an array of floats. -/
def delete (N : ℕ) (idx : List ℤ) : Except PyErr (List ℕ) :=
  if idx = [] ∨ ∃ i ∈ idx, i < -(N : ℤ) ∨ (N : ℤ) ≤ i then .error .indexError
  else .ok ((List.range N).filter fun r => ∀ i ∈ idx, (r : ℤ) ≠ if i < 0 then i + N else i)

/-- the number of points left in a bin (mini_2pt_like.py:88-92) -/
def newSize (ex : List ℤ) (n : ℕ) : ℤ :=
  if (ex.filter fun b => (n : ℤ) ≤ b).length ≠ 0 then (n : ℤ) - (ex.filter fun b => b < (n : ℤ)).length
  else (n : ℤ) - ex.length

/-- `covariance_excluder` (mini_2pt_like.py:79-93): the rows that stay and the new sizes of the bins.  A number is put in a list
(lines 82-83); `exclude[exclude >= n]` on a list is a `TypeError`. -/
def covarianceExcluder (N : ℕ) (sizes : List ℕ) : Exclude → Except PyErr (List ℕ × List ℤ)
  | .none => .ok (List.range N, sizes.map fun n => (n : ℤ))
  | .number b => do
    let _ ← delete N (excludeIdx sizes [b])
    .error .typeError
  | .list l => do
    let _ ← delete N (excludeIdx sizes l)
    .error .typeError
  | .array l => do
    let keep ← delete N (excludeIdx sizes l)
    .ok (keep, sizes.map (newSize l))

/-- `[Ri[j] for j in range(len(Ri)) if j not in exclude]` (mini_2pt_like.py:112-115) -/
def keptPoints {α : Type} (ex : List ℤ) (l : List α) : List α :=
  (List.range l.length).filterMap fun (j : ℕ) => if (j : ℤ) ∈ ex then Option.none else l[j]?

/-- `load_datapoints_2d` with `exclude` (mini_2pt_like.py:96-116): `j not in 3` is a `TypeError`, if there is a point at all -/
def loadDatapointsExcept (ncols : ℕ) (l : List DataFile) (e : Exclude) : Except PyErr (List DataFile) := do
  let f ← loadDatapoints ncols l
  match e with
  | .none => .ok f
  | .number _ => if (∃ d ∈ f, d.x ≠ [] ∨ d.y ≠ []) then .error .typeError else .ok f
  | .list ex => .ok (f.map fun d => ⟨d.name, keptPoints ex d.x, keptPoints ex d.y⟩)
  | .array ex => .ok (f.map fun d => ⟨d.name, keptPoints ex d.x, keptPoints ex d.y⟩)

/-- `load_data` (mini_2pt_like.py:119-131): the data, the inverse of the covariance that is left, its size, and the sizes by which it is cut
into blocks -/
noncomputable def loadData (ncols : ℕ) (l : List DataFile) (N : ℕ) (C : ℕ → ℕ → ℝ) (e : Exclude) :
    Except PyErr (List DataFile × List ℕ × (Σ M, Matrix (Fin M) (Fin M) ℝ) × List ℤ) := do
  let f ← loadDatapoints ncols l
  let k ← covarianceExcluder N (f.map fun d => d.y.length) e
  let A ← invert k.1.length fun i j => C (k.1.getD i 0) (k.1.getD j 0)
  let g ← loadDatapointsExcept ncols l e
  .ok (g, k.1, ⟨k.1.length, A⟩, k.2)

/-- `signal_err[i][a]` (mini_2pt_like.py:66-67) -/
noncomputable def signalErr (sizes : List ℕ) (C : ℕ → ℕ → ℝ) (i a : ℕ) : ℝ :=
  √(C (offset sizes i + a) (offset sizes i + a))

/-- `cor[i][j][a, b]` (mini_2pt_like.py:50, 60-65) -/
noncomputable def correlation (sizes : List ℕ) (C : ℕ → ℕ → ℝ) (i j a b : ℕ) : ℝ :=
  let r := offset sizes i + a
  let s := offset sizes j + b
  C r s / √(C r r * C s s)

/-- `likenorm` (mini_2pt_like.py:69, 75) -/
noncomputable def likenorm (nobsbins M : ℕ) (C : ℕ → ℕ → ℝ) : ℝ :=
  -((nobsbins : ℝ) ^ 2 * Real.log (2 * Real.pi) + Real.log (toMatrix M C).det) / 2

end Verif.Likelihood

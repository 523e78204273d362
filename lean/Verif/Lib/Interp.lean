import Mathlib.Analysis.SpecialFunctions.Pow.Real
import Mathlib.Algebra.BigOperators.Intervals
import Mathlib.Tactic.FieldSimp
import Mathlib.Tactic.Linarith
import Mathlib.Tactic.Positivity
import Mathlib.Tactic.Ring

/-!
# `scipy.interpolate.interp1d(kind='linear')` (external primitive, assumed contract)

Used throughout onepower (`hod.py:117-159,323-347`, `add.py:129-152,250-293`, `pk.py:453-460,486-493`,
`cosmosis_modules/onepower_interface.py:62-99`, `pk_to_real.py:38-69`).  Transcription of scipy's
`interp1d._call_linear` and `_evaluate`: left insertion index by `searchsorted`, clipped to
`[1, n-1]`, straight line through the two bracketing nodes; queries strictly outside the node range get
the fill value unless `fill_value='extrapolate'`.  Simplification: real numbers; the nodes are assumed
sorted (scipy sorts them).
-/

namespace Verif.Lib

open Finset

open Classical in
/-- `numpy.searchsorted(x, q)` (side `left`) on `n` sorted entries: how many entries are `< q`. -/
noncomputable def searchsorted (n : ℕ) (x : ℕ → ℝ) (q : ℝ) : ℕ :=
  ((range n).filter fun i => x i < q).card

/-- Index of the right end of the segment used by scipy: `searchsorted(x, q).clip(1, n-1)`. -/
noncomputable def segment (n : ℕ) (x : ℕ → ℝ) (q : ℝ) : ℕ :=
  max 1 (min (searchsorted n x q) (n - 1))

/-- `interp1d._call_linear`: the straight line through nodes `j-1`, `j` with `j = segment n x q`. -/
noncomputable def interpLinear (n : ℕ) (x y : ℕ → ℝ) (q : ℝ) : ℝ :=
  (y (segment n x q) - y (segment n x q - 1)) / (x (segment n x q) - x (segment n x q - 1))
    * (q - x (segment n x q - 1)) + y (segment n x q - 1)

/-- The `fill_value` argument with `bounds_error=False`. -/
inductive Fill
  | extrapolate
  | value (c : ℝ)

open Classical in
/-- `interp1d(x, y, kind='linear', bounds_error=False, fill_value=fill)(q)`. -/
noncomputable def interp1d (fill : Fill) (n : ℕ) (x y : ℕ → ℝ) (q : ℝ) : ℝ :=
  match fill with
  | .extrapolate => interpLinear n x y q
  | .value c => if q < x 0 ∨ x (n - 1) < q then c else interpLinear n x y q

end Verif.Lib

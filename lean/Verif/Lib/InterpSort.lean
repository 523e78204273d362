import Verif.Lib.Interp
import Mathlib.Data.List.Sort

/-!
# `scipy.interpolate.interp1d(kind='linear')` on nodes in any order (external primitive, assumed contract)

scipy sorts the nodes first (`ind = np.argsort(x, kind="mergesort")`, a stable sort) and then works on the sorted nodes, which
is what `Lib.Interp` transcribes.
-/

namespace Verif.Lib

open Classical in
/-- the nodes and values sorted by node, stable -/
noncomputable def sortNodes (l : List (ℝ × ℝ)) : List (ℝ × ℝ) := l.insertionSort (fun a b => a.1 ≤ b.1)

/-- `interp1d` on a list of nodes and values -/
noncomputable def interpList (fill : Fill) (l : List (ℝ × ℝ)) (q : ℝ) : ℝ :=
  interp1d fill l.length (fun i => (l.getD i (0, 0)).1) (fun i => (l.getD i (0, 0)).2) q

/-- `interp1d(x, y, kind='linear', bounds_error=False, fill_value=fill)(q)` with `n` nodes in any order -/
noncomputable def interp1dAny (fill : Fill) (n : ℕ) (x y : ℕ → ℝ) (q : ℝ) : ℝ :=
  interpList fill (sortNodes ((List.range n).map fun i => (x i, y i))) q

end Verif.Lib

import Verif.Lib.Py
import Mathlib.Data.Real.Basic
import Mathlib.Data.Real.Sign
import Mathlib.Data.Nat.Find
import Mathlib.Data.List.Basic
import Mathlib.Algebra.Order.Floor.Semiring
import Mathlib.Algebra.Order.Archimedean.Real.Basic

/-!
# numpy / scipy array primitives (external, assumed contract)

Arrays are a length and an index function.  `RegularGridInterpolator(method='nearest')` is a transcription of
scipy's `_find_indices` (extrapolating) and `_evaluate_nearest`.
-/

namespace Verif.Lib

/-- `np.repeat(a, c)`: entry `t` is `a[t // c]` -/
def npRepeat {α : Type} (a : ℕ × (ℕ → α)) (c : ℕ) : ℕ × (ℕ → α) := (a.1 * c, fun t => a.2 (t / c))

/-- `np.tile(a, c)`: entry `t` is `a[t % len(a)]` -/
def npTile {α : Type} (a : ℕ × (ℕ → α)) (c : ℕ) : ℕ × (ℕ → α) := (a.1 * c, fun t => a.2 (t % a.1))

/-- `np.arange(n)` -/
def npArange (n : ℕ) : ℕ × (ℕ → ℕ) := (n, fun t => t)

/-- `np.arange(a, b, d)` for real numbers: length `ceil((b - a) / d)` (none if negative) -/
noncomputable def npArangeReal (a b d : ℝ) : ℕ × (ℕ → ℝ) := (⌈(b - a) / d⌉₊, fun t => a + t * d)

/-- `np.linspace(a, b, n)`; for `n = 1` the only entry is `a` -/
noncomputable def npLinspace (a b : ℝ) (n : ℕ) : ℕ → ℝ := fun t => a + t * ((b - a) / (n - 1 : ℝ))

/-- `np.sign` -/
noncomputable def npSign (x : ℝ) : ℝ := open Classical in if x < 0 then -1 else if 0 < x then 1 else 0

/-- position of the first smallest entry of a non-empty list (`np.argmin`) -/
noncomputable def argminFrom (data : ℕ → ℝ) : ℕ → ℕ → ℕ → List ℕ → ℕ
  | best, _, _, [] => best
  | best, bi, pos, i :: l => open Classical in
    if data i < data bi then argminFrom data pos i (pos + 1) l else argminFrom data best bi (pos + 1) l

/-- `np.argmin(data[idx])` -/
noncomputable def npArgmin (data : ℕ → ℝ) : List ℕ → ℕ
  | [] => 0
  | i :: l => argminFrom data 0 i 1 l

/-- `np.argmax(data[idx])`: first largest entry -/
noncomputable def npArgmax (data : ℕ → ℝ) (idx : List ℕ) : ℕ := npArgmin (fun i => -data i) idx

open Classical in
/-- cell of the regular grid that contains `q`: the largest `i ≤ n-2` with `g i ≤ q`, 0 if there is none -/
noncomputable def gridCell (n : ℕ) (g : ℕ → ℝ) (q : ℝ) : ℕ := Nat.findGreatest (fun i => g i ≤ q) (n - 2)

open Classical in
/-- index of the node used by `method='nearest'`: the left end of the cell if the normalised distance is at
most 0.5, else the right end -/
noncomputable def nearestIdx (n : ℕ) (g : ℕ → ℝ) (q : ℝ) : ℕ :=
  let i := gridCell n g q
  if (q - g i) / (g (i + 1) - g i) ≤ 0.5 then i else i + 1

end Verif.Lib

import Mathlib.Analysis.SpecialFunctions.Pow.Real
import Mathlib.Algebra.BigOperators.Intervals
import Mathlib.Tactic.Linarith
import Mathlib.Tactic.Positivity

/-!
# Arithmetic with rounding errors

The other modules compute with real numbers.  Here the operations are those of floating-point numbers in the standard
model of rounding-error analysis: every addition, subtraction, multiplication and division returns the exact result
multiplied by `1 + δ` with `|δ| ≤ u` (for IEEE double precision `u = 2⁻⁵³`), powers and exponentials of the C library are
as accurate as `lib` such operations, and `np.sum` adds its terms in some order, in some grouping.

Simplifications: no overflow and no underflow; decimal constants of the source are taken to be exact.
-/

namespace Verif.Lib

/-- the order and grouping in which the terms of a sum are added -/
inductive SumTree where
  | leaf (i : ℕ)
  | node (l r : SumTree)

/-- the indices of the terms -/
def SumTree.leaves : SumTree → List ℕ
  | .leaf i => [i]
  | .node l r => l.leaves ++ r.leaves

/-- an arithmetic with rounding errors -/
structure Rounding where
  /-- unit roundoff -/
  u : ℝ
  u_nonneg : 0 ≤ u
  u_lt_one : u < 1
  /-- rounding of an exact result -/
  fl : ℝ → ℝ
  fl_err : ∀ x, |fl x - x| ≤ u * |x|
  /-- accuracy of the library functions, in roundings -/
  lib : ℕ
  /-- `pow` of the C library -/
  pow : ℝ → ℝ → ℝ
  pow_err : ∀ x y, 0 < x → (1 - u) ^ lib * x ^ y ≤ pow x y ∧ (1 - u) ^ lib * pow x y ≤ x ^ y
  /-- `exp` of the C library -/
  exp : ℝ → ℝ
  exp_err : ∀ x, (1 - u) ^ lib * Real.exp x ≤ exp x ∧ (1 - u) ^ lib * exp x ≤ Real.exp x
  /-- how a sum of `n` terms is grouped -/
  order : ℕ → SumTree
  order_leaves : ∀ n, 0 < n → (order n).leaves.Perm (List.range n)

/-- a floating-point number of the arithmetic `R` -/
structure Fl (R : Rounding) where
  val : ℝ

namespace Fl

variable {R : Rounding}

/-- numbers which are stored exactly: the inputs and the constants -/
instance : Coe ℝ (Fl R) := ⟨Fl.mk⟩

noncomputable instance : Add (Fl R) := ⟨fun a b => ⟨R.fl (a.val + b.val)⟩⟩
noncomputable instance : Sub (Fl R) := ⟨fun a b => ⟨R.fl (a.val - b.val)⟩⟩
noncomputable instance : Mul (Fl R) := ⟨fun a b => ⟨R.fl (a.val * b.val)⟩⟩
noncomputable instance : Div (Fl R) := ⟨fun a b => ⟨R.fl (a.val / b.val)⟩⟩

/-- `a ** y` -/
noncomputable def rpow (a : Fl R) (y : ℝ) : Fl R := ⟨R.pow a.val y⟩

/-- `np.exp(a)` -/
noncomputable def exp (a : Fl R) : Fl R := ⟨R.exp a.val⟩

/-- the sum along a tree -/
noncomputable def sumTree (f : ℕ → Fl R) : SumTree → Fl R
  | .leaf i => f i
  | .node l r => sumTree f l + sumTree f r

/-- `np.sum` -/
noncomputable def sum (n : ℕ) (f : ℕ → Fl R) : Fl R :=
  if n = 0 then ((0 : ℝ) : Fl R) else sumTree f (R.order n)

/-- `_basic_simpson` for one panel, the operations in scipy's order -/
noncomputable def simpsonPanel (h0 h1 y0 y1 y2 : Fl R) : Fl R :=
  (h0 + h1) / ((6 : ℝ) : Fl R)
    * (y0 * (((2 : ℝ) : Fl R) - ((1 : ℝ) : Fl R) / (h0 / h1)) + y1 * ((h0 + h1) * ((h0 + h1) / (h0 * h1)))
      + y2 * (((2 : ℝ) : Fl R) - h0 / h1))

/-- `_basic_simpson` -/
noncomputable def basicSimpson (p : ℕ) (x y : ℕ → Fl R) : Fl R :=
  sum p fun i => simpsonPanel (x (2 * i + 1) - x (2 * i)) (x (2 * i + 2) - x (2 * i + 1))
    (y (2 * i)) (y (2 * i + 1)) (y (2 * i + 2))

/-- the correction for the last interval -/
noncomputable def simpsonLast (h0 h1 y0 y1 y2 : Fl R) : Fl R :=
  (((2 : ℝ) : Fl R) * h1.rpow 2 + ((3 : ℝ) : Fl R) * h0 * h1) / (((6 : ℝ) : Fl R) * (h1 + h0)) * y2
    + (h1.rpow 2 + ((3 : ℝ) : Fl R) * h0 * h1) / (((6 : ℝ) : Fl R) * h0) * y1
    - ((1 : ℝ) : Fl R) * h1.rpow 3 / (((6 : ℝ) : Fl R) * h0 * (h0 + h1)) * y0

/-- `scipy.integrate.simpson(y, x=x)` in floating-point numbers; the branches are those of `Lib.simpson` -/
noncomputable def simpson (n : ℕ) (x y : ℕ → Fl R) : Fl R :=
  if n % 2 = 1 then basicSimpson (n / 2) x y
  else if n = 0 then ((0 : ℝ) : Fl R)
  else if n = 2 then ((0.5 : ℝ) : Fl R) * (x 1 - x 0) * (y 1 + y 0)
  else basicSimpson (n / 2 - 1) x y
    + simpsonLast (x (n - 2) - x (n - 3)) (x (n - 1) - x (n - 2)) (y (n - 3)) (y (n - 2)) (y (n - 1))

end Fl

end Verif.Lib

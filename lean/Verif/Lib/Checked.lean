import Verif.Lib.Simpson

/-!
# Numbers with invalid operations

In floating point `x / 0`, a negative number to a non-integer power, zero to a negative power and the square root of a
negative number do not raise an exception: numpy warns and continues with `inf` or `nan`.  In the real numbers of Lean these
operations have ordinary values.  `Ck` is the real numbers with one more element `bad` for the result of an invalid
operation; every operation on `bad` gives `bad`.  A computation in `Ck` that ends in a number has met no invalid operation.
Simplification: `inf` and `nan` are not distinguished, and `inf` never turns back into a number (`1 / inf`).
-/

namespace Verif.Lib

/-- a number, or the mark of an invalid operation -/
inductive Ck
  | num (x : ℝ)
  | bad

namespace Ck

instance : Coe ℝ Ck := ⟨num⟩

/-- lifting an operation that is always valid -/
def lift2 (f : ℝ → ℝ → ℝ) : Ck → Ck → Ck
  | num x, num y => num (f x y)
  | _, _ => bad

instance : Add Ck := ⟨lift2 (· + ·)⟩
instance : Sub Ck := ⟨lift2 (· - ·)⟩
instance : Mul Ck := ⟨lift2 (· * ·)⟩

instance : Neg Ck := ⟨fun x => match x with | num x => num (-x) | bad => bad⟩

open Classical in
/-- numpy division -/
noncomputable def div : Ck → Ck → Ck
  | num x, num y => if y = 0 then bad else num (x / y)
  | _, _ => bad

noncomputable instance : Div Ck := ⟨div⟩

/-- powers with a literal natural exponent (`x**2.0`) are always valid -/
def npow (x : Ck) (n : ℕ) : Ck := match x with | num x => num (x ^ n) | bad => bad

instance : Pow Ck ℕ := ⟨npow⟩

/-- valid real powers: positive base, zero base with non-negative exponent, negative base with integer exponent -/
def PowOk (x y : ℝ) : Prop := 0 < x ∨ (x = 0 ∧ 0 ≤ y) ∨ (x < 0 ∧ ∃ n : ℤ, y = n)

open Classical in
/-- `x ** y` with a float exponent -/
noncomputable def rpow : Ck → Ck → Ck
  | num x, num y => if PowOk x y then num (x ^ y) else bad
  | _, _ => bad

/-- `np.exp` -/
noncomputable def exp : Ck → Ck
  | num x => num (Real.exp x)
  | bad => bad

open Classical in
/-- `np.sqrt` -/
noncomputable def sqrt : Ck → Ck
  | num x => if x < 0 then bad else num (Real.sqrt x)
  | bad => bad

/-- the value (0 for `bad`) -/
def val : Ck → ℝ
  | num x => x
  | bad => 0

/-- no invalid operation has been met -/
def Ok : Ck → Prop
  | num _ => True
  | bad => False

end Ck

open Classical in
/-- `scipy.integrate.simpson(y, x=x)` for values that may be bad: one bad value spoils the sum.  (The divisions by the
spacings are guarded in scipy.) -/
noncomputable def simpsonCk (n : ℕ) (x : ℕ → ℝ) (y : ℕ → Ck) : Ck :=
  if ∀ i < n, (y i).Ok then .num (simpson n x fun i => (y i).val) else .bad

/-- `np.sum` -/
def sumCk : ℕ → (ℕ → Ck) → Ck
  | 0, _ => .num 0
  | n + 1, f => sumCk n f + f n

end Verif.Lib

import Verif.Lib.Rounded
import Mathlib.Data.Int.Log
import Mathlib.Algebra.Order.Round
import Mathlib.Tactic.FieldSimp
import Mathlib.Tactic.Ring
import Mathlib.Tactic.NormNum

/-! Binary floating-point numbers with `p` digits, rounded to nearest: an instance of `Rounding`. -/

namespace Verif.Lib

/-- the terms added one after the other -/
def seqTree : ℕ → SumTree
  | 0 => .leaf 0
  | n + 1 => .node (seqTree n) (.leaf (n + 1))

theorem seqTree_leaves (n : ℕ) : (seqTree n).leaves = List.range (n + 1) := by
  induction n with
  | zero => rfl
  | succ n ih => rw [seqTree, SumTree.leaves, ih, SumTree.leaves, ← List.range_succ]

/-- the unit in the last place of a number with `p` binary digits -/
noncomputable def ulp (p : ℕ) (x : ℝ) : ℝ := (2 : ℝ) ^ (Int.log 2 |x| + 1 - p)

/-- round to the nearest number with `p` binary digits -/
noncomputable def roundBinary (p : ℕ) (x : ℝ) : ℝ := (round (x / ulp p x) : ℝ) * ulp p x

theorem ulp_pos (p : ℕ) (x : ℝ) : 0 < ulp p x := zpow_pos (by norm_num) _

theorem roundBinary_err (p : ℕ) (x : ℝ) : |roundBinary p x - x| ≤ 1 / 2 ^ p * |x| := by
  rcases eq_or_ne x 0 with rfl | hx
  · simp [roundBinary]
  · have hu := ulp_pos p x
    have e : roundBinary p x - x = -((x / ulp p x - round (x / ulp p x)) * ulp p x) := by
      unfold roundBinary
      field_simp
      ring
    rw [e, abs_neg, abs_mul, abs_of_pos hu]
    have h1 := abs_sub_round (x / ulp p x)
    have h2 : ulp p x = 2 * (1 / 2 ^ p) * (2 : ℝ) ^ Int.log 2 |x| := by
      unfold ulp
      rw [zpow_sub₀ (by norm_num), zpow_add₀ (by norm_num), zpow_natCast, zpow_one]
      ring
    have h3 : (2 : ℝ) ^ Int.log 2 |x| ≤ |x| := by
      exact_mod_cast Int.zpow_log_le_self (b := 2) (by norm_num) (abs_pos.2 hx)
    have h4 : (0 : ℝ) < 1 / 2 ^ p := by positivity
    calc _ ≤ 1 / 2 * ulp p x := mul_le_mul_of_nonneg_right h1 hu.le
      _ = 1 / 2 ^ p * (2 : ℝ) ^ Int.log 2 |x| := by rw [h2]; ring
      _ ≤ _ := mul_le_mul_of_nonneg_left h3 h4.le

theorem roundBinary_lib {p : ℕ} {x : ℝ} (hx : 0 < x) :
    (1 - 1 / 2 ^ p) ^ 1 * x ≤ roundBinary p x ∧ (1 - 1 / 2 ^ p) ^ 1 * roundBinary p x ≤ x := by
  obtain ⟨h1, h2⟩ := abs_le.1 (roundBinary_err p x)
  rw [abs_of_pos hx] at h1 h2
  have hu : (0 : ℝ) < 1 / 2 ^ p := by positivity
  have hu1 : (1 : ℝ) / 2 ^ p ≤ 1 := by
    rw [div_le_one (by positivity)]
    exact one_le_pow₀ (by norm_num)
  rw [pow_one]
  generalize (1 : ℝ) / 2 ^ p = u at *
  constructor
  · linarith
  · have : (1 - u) * roundBinary p x ≤ (1 - u) * ((1 + u) * x) :=
      mul_le_mul_of_nonneg_left (by linarith) (by linarith)
    nlinarith [mul_nonneg (mul_nonneg hu.le hu.le) hx.le]

/-- binary floating-point numbers with `p` digits (`p = 53`: double precision), rounded to nearest, with correctly rounded
library functions and sums from left to right -/
noncomputable def Rounding.binary (p : ℕ) (hp : 1 ≤ p) : Rounding where
  u := 1 / 2 ^ p
  u_nonneg := by positivity
  u_lt_one := by
    rw [div_lt_one (by positivity)]
    exact one_lt_pow₀ (by norm_num) (by omega)
  fl := roundBinary p
  fl_err := roundBinary_err p
  lib := 1
  pow x y := roundBinary p (x ^ y)
  pow_err x y hx := roundBinary_lib (Real.rpow_pos_of_pos hx y)
  exp x := roundBinary p (Real.exp x)
  exp_err x := roundBinary_lib (Real.exp_pos x)
  order n := seqTree (n - 1)
  order_leaves n hn := by rw [seqTree_leaves, Nat.sub_add_cancel hn]

/-- a number just below one is rounded to one -/
theorem roundBinary_one {p : ℕ} {x : ℝ} (h1 : x < 1) (h2 : 1 - 1 / 2 ^ (p + 1) < x) (h3 : 1 / 2 ≤ x) :
    roundBinary p x = 1 := by
  have hx : 0 < x := by linarith
  have hl : Int.log 2 |x| = -1 := by
    rw [abs_of_pos hx]
    have a : -1 ≤ Int.log 2 x := by
      rw [← Int.zpow_le_iff_le_log (by norm_num) hx]
      norm_num; linarith
    have b : Int.log 2 x < 0 := by
      rw [← Int.lt_zpow_iff_log_lt (by norm_num) hx]
      norm_num; exact h1
    omega
  have hulp : ulp p x = 1 / 2 ^ p := by
    unfold ulp
    rw [hl, neg_add_cancel, zero_sub, zpow_neg, zpow_natCast, one_div]
  have hr : round (x / ulp p x) = (2 ^ p : ℤ) := by
    rw [hulp, round_eq, Int.floor_eq_iff]
    have hp : (0 : ℝ) < 2 ^ p := by positivity
    have e : x / (1 / 2 ^ p) = x * 2 ^ p := by field_simp
    rw [e]
    push_cast
    have h4 : (1 - 1 / 2 ^ (p + 1)) * 2 ^ p < x * (2 : ℝ) ^ p := mul_lt_mul_of_pos_right h2 hp
    have h5 : (1 - 1 / 2 ^ (p + 1)) * (2 : ℝ) ^ p = 2 ^ p - 1 / 2 := by
      rw [pow_succ]; field_simp
    constructor <;> nlinarith
  unfold roundBinary
  rw [hr, hulp]
  push_cast
  field_simp

theorem roundBinary_zero (p : ℕ) : roundBinary p 0 = 0 := by simp [roundBinary]

end Verif.Lib

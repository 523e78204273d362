import Mathlib.Analysis.MeanInequalitiesPow
import Mathlib.Tactic.Linarith
import Mathlib.Tactic.Positivity
import Mathlib.Tactic.FieldSimp
import Mathlib.Tactic.Ring

/-! Helper lemmas on real powers and on the damping shape `x / (1 + x)`. -/

namespace Verif.Lib

open NNReal

/-- power means of two non-negative numbers decrease with the exponent -/
theorem rpow_add_rpow_le {a b p q : ℝ} (ha : 0 ≤ a) (hb : 0 ≤ b) (hp : 0 < p) (hpq : p ≤ q) :
    (a ^ q + b ^ q) ^ (1 / q) ≤ (a ^ p + b ^ p) ^ (1 / p) := by
  lift a to ℝ≥0 using ha
  lift b to ℝ≥0 using hb
  exact_mod_cast NNReal.rpow_add_rpow_le a b hp hpq

theorem rpow_sum_scale {a b c p : ℝ} (ha : 0 ≤ a) (hb : 0 ≤ b) (hc : 0 ≤ c) (hp : 0 < p) :
    ((c * a) ^ p + (c * b) ^ p) ^ (1 / p) = c * (a ^ p + b ^ p) ^ (1 / p) := by
  rw [Real.mul_rpow hc ha, Real.mul_rpow hc hb, ← mul_add,
    Real.mul_rpow (Real.rpow_nonneg hc p) (by positivity), ← Real.rpow_mul hc,
    mul_one_div_cancel hp.ne', Real.rpow_one]

theorem le_rpow_sum {a b p : ℝ} (ha : 0 ≤ a) (hb : 0 ≤ b) (hp : 0 < p) :
    a ≤ (a ^ p + b ^ p) ^ (1 / p) := by
  have h : a = (a ^ p) ^ (1 / p) := by
    rw [← Real.rpow_mul ha, mul_one_div_cancel hp.ne', Real.rpow_one]
  calc a = (a ^ p) ^ (1 / p) := h
    _ ≤ _ := Real.rpow_le_rpow (by positivity) (by linarith [Real.rpow_nonneg hb p]) (by positivity)

theorem sat_nonneg {x : ℝ} (hx : 0 ≤ x) : 0 ≤ x / (1 + x) := by positivity

theorem sat_lt_one {x : ℝ} (hx : 0 ≤ x) : x / (1 + x) < 1 := by
  rw [div_lt_one (by linarith)]; linarith

theorem sat_strictMono {x y : ℝ} (hx : 0 ≤ x) (hxy : x < y) : x / (1 + x) < y / (1 + y) := by
  rw [div_lt_div_iff₀ (by linarith) (by linarith)]; nlinarith

theorem sat_mono {x y : ℝ} (hx : 0 ≤ x) (hxy : x ≤ y) : x / (1 + x) ≤ y / (1 + y) := by
  rw [div_le_div_iff₀ (by linarith) (by linarith)]; nlinarith

end Verif.Lib

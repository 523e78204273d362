import Verif.Lib.Special
import Mathlib.MeasureTheory.Integral.IntegralEqImproper
import Mathlib.MeasureTheory.Integral.IntervalIntegral.FundThmCalculus
import Mathlib.MeasureTheory.Integral.IntervalIntegral.Basic

/-! Facts about the error function and the step function. -/

namespace Verif.Lib

open MeasureTheory intervalIntegral Filter Topology Set

theorem heaviside_of_neg {x : ℝ} (h : x < 0) (h0 : ℝ) : heaviside x h0 = 0 := by simp [heaviside, h]

theorem heaviside_one_of_nonneg {x : ℝ} (h : 0 ≤ x) : heaviside x 1 = 1 := by
  unfold heaviside
  rw [if_neg (not_lt.2 h)]
  split_ifs <;> rfl

theorem heaviside_cases (x : ℝ) : heaviside x 1 = 0 ∨ heaviside x 1 = 1 := by
  rcases lt_or_ge x 0 with h | h
  · exact Or.inl (heaviside_of_neg h 1)
  · exact Or.inr (heaviside_one_of_nonneg h)

private theorem cont : Continuous fun t : ℝ => Real.exp (-t ^ 2) := by fun_prop

private theorem ii (a b : ℝ) : IntervalIntegrable (fun t : ℝ => Real.exp (-t ^ 2)) volume a b :=
  cont.intervalIntegrable a b

theorem erf_zero : erf 0 = 0 := by simp [erf]

theorem erf_neg (x : ℝ) : erf (-x) = -erf x := by
  unfold erf
  have h : ∫ t in (0 : ℝ)..(-x), Real.exp (-t ^ 2) = -∫ t in (0 : ℝ)..x, Real.exp (-t ^ 2) := by
    have := intervalIntegral.integral_comp_neg (a := 0) (b := x) (fun t : ℝ => Real.exp (-t ^ 2))
    simp only [neg_sq, neg_zero] at this
    rw [this, intervalIntegral.integral_symm]
  rw [h]; ring

theorem erf_strictMono : StrictMono erf := by
  intro a b hab
  unfold erf
  refine mul_lt_mul_of_pos_left ?_ (by positivity)
  rw [← sub_pos, intervalIntegral.integral_interval_sub_left (ii 0 b) (ii 0 a)]
  exact intervalIntegral.intervalIntegral_pos_of_pos (ii a b) (fun t => Real.exp_pos _) hab

theorem erf_tendsto_atTop : Tendsto erf atTop (𝓝 1) := by
  have hint : IntegrableOn (fun t : ℝ => Real.exp (-t ^ 2)) (Ioi 0) := by
    have := (integrable_exp_neg_mul_sq (b := 1) one_pos).integrableOn (s := Ioi (0 : ℝ))
    simpa using this
  have h := intervalIntegral_tendsto_integral_Ioi 0 hint tendsto_id
  have hv : ∫ t in Ioi (0 : ℝ), Real.exp (-t ^ 2) = Real.sqrt Real.pi / 2 := by
    have := integral_gaussian_Ioi 1
    simpa using this
  rw [hv] at h
  have h2 := h.const_mul (2 / Real.sqrt Real.pi)
  have : 2 / Real.sqrt Real.pi * (Real.sqrt Real.pi / 2) = 1 := by
    have : Real.sqrt Real.pi ≠ 0 := by positivity
    field_simp
  rw [this] at h2
  exact h2

theorem erf_tendsto_atBot : Tendsto erf atBot (𝓝 (-1)) := by
  have h := (erf_tendsto_atTop.comp tendsto_neg_atBot_atTop).neg
  refine h.congr fun x => ?_
  simp [erf_neg]

theorem erf_lt_one (x : ℝ) : erf x < 1 := by
  have h1 : erf (x + 1) ≤ 1 :=
    erf_strictMono.monotone.ge_of_tendsto erf_tendsto_atTop (x + 1)
  exact lt_of_lt_of_le (erf_strictMono (by linarith)) h1

theorem neg_one_lt_erf (x : ℝ) : -1 < erf x := by
  have := erf_lt_one (-x)
  rw [erf_neg] at this
  linarith

end Verif.Lib

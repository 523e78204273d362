import Verif.Spec.Bessel
import Mathlib.Analysis.Calculus.ParametricIntervalIntegral
import Mathlib.MeasureTheory.Integral.IntervalIntegral.FundThmCalculus
import Mathlib.MeasureTheory.Integral.Prod
import Mathlib.Analysis.SpecialFunctions.Trigonometric.Deriv

/-! # Facts about Bessel functions -/

namespace Verif.Spec

open MeasureTheory

theorem continuous_besselJ (mu : ℝ) : Continuous (besselJ mu) := by
  unfold besselJ
  refine continuous_const.mul ?_
  apply intervalIntegral.continuous_parametric_intervalIntegral_of_continuous'
  fun_prop

theorem abs_besselJ_le (mu x : ℝ) : |besselJ mu x| ≤ 1 := by
  unfold besselJ
  have h : ‖∫ t in (0 : ℝ)..Real.pi, Real.cos (mu * t - x * Real.sin t)‖ ≤ 1 * |Real.pi - 0| :=
    intervalIntegral.norm_integral_le_of_norm_le_const fun t _ => by
      rw [Real.norm_eq_abs]; exact Real.abs_cos_le_one _
  rw [Real.norm_eq_abs, sub_zero, abs_of_pos Real.pi_pos, one_mul] at h
  rw [abs_mul, abs_of_pos (by positivity : (0 : ℝ) < 1 / Real.pi)]
  calc 1 / Real.pi * _ ≤ 1 / Real.pi * Real.pi := mul_le_mul_of_nonneg_left h (by positivity)
    _ = 1 := by field_simp

/-- integration by parts: `J_1(x)` is `x` times the mean of `cos t cos (t - x sin t)` -/
theorem besselJ_one (x : ℝ) :
    besselJ 1 x = x * (1 / Real.pi * ∫ t in (0 : ℝ)..Real.pi, Real.cos t * Real.cos (t - x * Real.sin t)) := by
  have h : ∫ t in (0 : ℝ)..Real.pi, Real.cos (t - x * Real.sin t) * (1 - x * Real.cos t) = 0 := by
    have hd : ∀ t ∈ Set.uIcc (0 : ℝ) Real.pi, HasDerivAt (fun t => Real.sin (t - x * Real.sin t))
        (Real.cos (t - x * Real.sin t) * (1 - x * Real.cos t)) t := fun t _ =>
      ((hasDerivAt_id t).sub ((Real.hasDerivAt_sin t).const_mul x)).sin
    rw [intervalIntegral.integral_eq_sub_of_hasDerivAt hd (Continuous.intervalIntegrable (by fun_prop) _ _)]
    simp
  have e : ∫ t in (0 : ℝ)..Real.pi, Real.cos (t - x * Real.sin t) * (1 - x * Real.cos t) =
      (∫ t in (0 : ℝ)..Real.pi, Real.cos (t - x * Real.sin t)) -
        x * ∫ t in (0 : ℝ)..Real.pi, Real.cos t * Real.cos (t - x * Real.sin t) := by
    rw [← intervalIntegral.integral_const_mul, ← intervalIntegral.integral_sub
      (Continuous.intervalIntegrable (by fun_prop) _ _) (Continuous.intervalIntegrable (by fun_prop) _ _)]
    congr 1; ext t; ring
  rw [e, sub_eq_zero] at h
  unfold besselJ
  simp only [one_mul]
  rw [h]
  ring

/-- the recurrence `J_0 + J_2 = 2 J_1 / x` -/
theorem besselJ_recurrence (x : ℝ) : x * (besselJ 0 x + besselJ 2 x) = 2 * besselJ 1 x := by
  have e : besselJ 0 x + besselJ 2 x = 2 * (1 / Real.pi * ∫ t in (0 : ℝ)..Real.pi, Real.cos t * Real.cos (t - x * Real.sin t)) := by
    have h : ∫ t in (0 : ℝ)..Real.pi, (Real.cos (0 * t - x * Real.sin t) + Real.cos (2 * t - x * Real.sin t)) =
        ∫ t in (0 : ℝ)..Real.pi, 2 * (Real.cos t * Real.cos (t - x * Real.sin t)) := by
      congr 1
      ext t
      have h1 : (0 : ℝ) * t - x * Real.sin t = (t - x * Real.sin t) - t := by ring
      have h2 : (2 : ℝ) * t - x * Real.sin t = (t - x * Real.sin t) + t := by ring
      rw [h1, h2, Real.cos_sub (t - x * Real.sin t), Real.cos_add (t - x * Real.sin t)]
      ring
    rw [intervalIntegral.integral_const_mul, intervalIntegral.integral_add (Continuous.intervalIntegrable (by fun_prop) _ _)
      (Continuous.intervalIntegrable (by fun_prop) _ _)] at h
    unfold besselJ
    rw [← mul_add, h]
    ring
  rw [e, besselJ_one x]
  ring

theorem hasDerivAt_besselJ_one (x : ℝ) :
    HasDerivAt (besselJ 1) (1 / Real.pi * ∫ t in (0 : ℝ)..Real.pi, Real.sin t * Real.sin (t - x * Real.sin t)) x := by
  have h := intervalIntegral.hasDerivAt_integral_of_dominated_loc_of_deriv_le (𝕜 := ℝ) (μ := volume) (a := 0) (b := Real.pi)
    (F := fun x t => Real.cos (1 * t - x * Real.sin t)) (F' := fun x t => Real.sin t * Real.sin (t - x * Real.sin t)) (x₀ := x)
    (s := Set.univ) (bound := fun _ => 1) Filter.univ_mem
    (Filter.Eventually.of_forall fun y => (Continuous.aestronglyMeasurable (by fun_prop)))
    (Continuous.intervalIntegrable (by fun_prop) _ _) (Continuous.aestronglyMeasurable (by fun_prop))
    (Filter.Eventually.of_forall fun t _ y _ => by
      rw [Real.norm_eq_abs, abs_mul]
      exact mul_le_one₀ (Real.abs_sin_le_one _) (abs_nonneg _) (Real.abs_sin_le_one _))
    intervalIntegrable_const
    (Filter.Eventually.of_forall fun t _ y _ => by
      have := (((hasDerivAt_id y).mul_const (Real.sin t)).const_sub (1 * t)).cos
      refine this.congr_deriv ?_
      simp only [id, one_mul]
      ring)
  exact h.2.const_mul _

/-- `(x J_1)' = x J_0` -/
theorem hasDerivAt_mul_besselJ_one (x : ℝ) : HasDerivAt (fun x => x * besselJ 1 x) (x * besselJ 0 x) x := by
  refine ((hasDerivAt_id x).mul (hasDerivAt_besselJ_one x)).congr_deriv ?_
  have e : besselJ 0 x = (1 / Real.pi * ∫ t in (0 : ℝ)..Real.pi, Real.cos t * Real.cos (t - x * Real.sin t)) +
      1 / Real.pi * ∫ t in (0 : ℝ)..Real.pi, Real.sin t * Real.sin (t - x * Real.sin t) := by
    unfold besselJ
    rw [← mul_add, ← intervalIntegral.integral_add (Continuous.intervalIntegrable (by fun_prop) _ _)
      (Continuous.intervalIntegrable (by fun_prop) _ _)]
    congr 2
    ext t
    have h1 : (0 : ℝ) * t - x * Real.sin t = (t - x * Real.sin t) - t := by ring
    rw [h1, Real.cos_sub (t - x * Real.sin t)]
    ring
  simp only [id]
  rw [e, besselJ_one x]
  ring

theorem integral_besselJ_zero (x : ℝ) : ∫ t in (0 : ℝ)..x, t * besselJ 0 t = x * besselJ 1 x := by
  rw [intervalIntegral.integral_eq_sub_of_hasDerivAt (fun t _ => hasDerivAt_mul_besselJ_one t)
    (Continuous.intervalIntegrable (continuous_id.mul (continuous_besselJ 0)) _ _)]
  simp

/-- the excess of `J_0` is `J_2` -/
theorem excess_besselJ {k r : ℝ} (hk : 0 < k) (hr : 0 < r) : excess (fun x => besselJ 0 (k * x)) r = besselJ 2 (k * r) := by
  unfold excess
  have h : ∫ x in (0 : ℝ)..r, x * besselJ 0 (k * x) = r * besselJ 1 (k * r) / k := by
    have := intervalIntegral.integral_comp_mul_left (a := 0) (b := r) (fun t => t * besselJ 0 t) hk.ne'
    rw [mul_zero, integral_besselJ_zero, smul_eq_mul] at this
    have e : ∫ x in (0 : ℝ)..r, k * x * besselJ 0 (k * x) = k * ∫ x in (0 : ℝ)..r, x * besselJ 0 (k * x) := by
      rw [← intervalIntegral.integral_const_mul]; congr 1; ext x; ring
    rw [e] at this
    have h2 : (∫ x in (0 : ℝ)..r, x * besselJ 0 (k * x)) = k⁻¹ * (k * ∫ x in (0 : ℝ)..r, x * besselJ 0 (k * x)) := by
      rw [← mul_assoc, inv_mul_cancel₀ hk.ne', one_mul]
    rw [h2, this]
    field_simp
  rw [h]
  have hrec := besselJ_recurrence (k * r)
  have h3 : besselJ 1 (k * r) = k * r * (besselJ 0 (k * r) + besselJ 2 (k * r)) / 2 := by linarith
  rw [h3]
  field_simp
  ring

/-- the mean over the disc goes under the integral over the wavenumber -/
theorem excess_projected (P : ℝ → ℝ) (hP : IntegrableOn (fun k => k * P k) (Set.Ioi 0)) {r : ℝ} (hr : 0 < r) :
    excess (projectedCorrelation P) r = 1 / (2 * Real.pi) * ∫ k in Set.Ioi (0 : ℝ), k * P k * besselJ 2 (k * r) := by
  have int : ∀ x : ℝ, ∀ mu, IntegrableOn (fun k => k * P k * besselJ mu (k * x)) (Set.Ioi 0) := fun x mu => by
    refine hP.mul_bdd (c := 1) ?_ (Filter.Eventually.of_forall fun k => by rw [Real.norm_eq_abs]; exact abs_besselJ_le _ _)
    exact ((continuous_besselJ mu).comp (continuous_id.mul continuous_const)).aestronglyMeasurable
  have swap : ∫ x in (0 : ℝ)..r, x * ∫ k in Set.Ioi (0 : ℝ), k * P k * besselJ 0 (k * x) =
      ∫ k in Set.Ioi (0 : ℝ), k * P k * ∫ x in (0 : ℝ)..r, x * besselJ 0 (k * x) := by
    simp only [intervalIntegral.integral_of_le hr.le, ← integral_const_mul]
    have hprod : Integrable (Function.uncurry fun (x k : ℝ) => x * (k * P k * besselJ 0 (k * x)))
        ((volume.restrict (Set.Ioc 0 r)).prod (volume.restrict (Set.Ioi 0))) := by
      have h1 : Integrable (fun x : ℝ => x) (volume.restrict (Set.Ioc 0 r)) :=
        (continuous_id.integrableOn_Icc (a := 0) (b := r)).mono_set Set.Ioc_subset_Icc_self
      have h2 := h1.mul_prod hP
      have h3 := h2.mul_bdd (c := 1) (g := fun p : ℝ × ℝ => besselJ 0 (p.2 * p.1))
        ((continuous_besselJ 0).comp (continuous_snd.mul continuous_fst)).aestronglyMeasurable
        (Filter.Eventually.of_forall fun p => by rw [Real.norm_eq_abs]; exact abs_besselJ_le _ _)
      refine h3.congr (Filter.Eventually.of_forall fun p => ?_)
      simp only [Function.uncurry]
      ring
    rw [integral_integral_swap hprod]
    congr 1; ext k
    congr 1; ext x
    ring
  unfold excess projectedCorrelation
  have e1 : ∫ x in (0 : ℝ)..r, x * (1 / (2 * Real.pi) * ∫ k in Set.Ioi (0 : ℝ), k * P k * besselJ 0 (k * x)) =
      1 / (2 * Real.pi) * ∫ x in (0 : ℝ)..r, x * ∫ k in Set.Ioi (0 : ℝ), k * P k * besselJ 0 (k * x) := by
    rw [← intervalIntegral.integral_const_mul]; congr 1; ext x; ring
  rw [e1, swap]
  have e2 : ∫ k in Set.Ioi (0 : ℝ), k * P k * besselJ 2 (k * r) =
      ∫ k in Set.Ioi (0 : ℝ), (2 / r ^ 2 * (k * P k * ∫ x in (0 : ℝ)..r, x * besselJ 0 (k * x)) - k * P k * besselJ 0 (k * r)) := by
    refine setIntegral_congr_fun measurableSet_Ioi fun k hk => ?_
    show k * P k * besselJ 2 (k * r) = _
    rw [← excess_besselJ hk hr, excess]
    ring
  have int2 : IntegrableOn (fun k => 2 / r ^ 2 * (k * P k * ∫ x in (0 : ℝ)..r, x * besselJ 0 (k * x))) (Set.Ioi 0) := by
    refine ((int r 2).add (int r 0)).congr_fun (fun k hk => ?_) measurableSet_Ioi
    simp only [Pi.add_apply]
    rw [← excess_besselJ hk hr, excess]
    ring
  rw [e2, integral_sub int2 (int r 0), integral_const_mul]
  ring

end Verif.Spec

import Verif.Spec.Legendre
import Verif.Props.IaTables

/-! Property C76: the angular factor is the angular integral. -/

namespace Verif.Ia

open Verif.Lib Verif.Spec Finset MeasureTheory

/-- the coefficients used by the code are those of the Legendre polynomials -/
theorem legendre_coeff (ell : ℕ) (h : ell ≤ 11) (y : ℝ) :
    legendre ell y = ∑ m ∈ range (ell + 1), 2 ^ ell * (binom ell m * binom (0.5 * (ell + m - 1)) ell) * y ^ m := by
  interval_cases ell <;>
    norm_num [legendre, binom, sum_range_succ, prod_range_succ, Nat.factorial] <;> ring

theorem iX_pos (a : ℝ) (ha : -2 < a) : 0 < iX a 0 := by
  unfold iX
  have h1 : 0 < Real.Gamma (a / 2 + 1) := Real.Gamma_pos_of_pos (by linarith)
  have h2 : 0 < Real.Gamma ((((0 : ℕ) : ℝ) + 1) / 2) := Real.Gamma_pos_of_pos (by norm_num)
  have h3 : 0 < Real.Gamma (a / 2 + ((0 : ℕ) : ℝ) / 2 + 3 / 2) := Real.Gamma_pos_of_pos (by push_cast; linarith)
  have h4 : (0 : ℝ) < 1 + (-1) ^ 0 := by norm_num
  positivity

theorem integrable_pow (a : ℝ) (ha : -2 < a) :
    IntervalIntegrable (fun x : ℝ => (1 - x ^ 2) ^ (a / 2)) volume (-1) 1 := by
  apply intervalIntegral.intervalIntegrable_of_integral_ne_zero
  rw [← C76_iX a ha]
  exact (iX_pos a ha).ne'

theorem gjVal_eq (m : ℕ) (h : m ≤ 11) :
    gjVal m = ∫ φ in (0 : ℝ)..(2 * Real.pi), Real.cos (2 * φ) * Real.cos φ ^ m := by
  have h1 := C76_gj m h
  rw [tableAt_ok gj m (by simp only [gj, List.length_cons, List.length_nil]; omega)] at h1
  exact Except.ok.inj h1

/-- the azimuthal integral of a Legendre polynomial -/
theorem azimuthal (ell : ℕ) (h : ell ≤ 11) (s : ℝ) :
    ∫ φ in (0 : ℝ)..(2 * Real.pi), Real.cos (2 * φ) * legendre ell (s * Real.cos φ) =
      ∑ m ∈ range (ell + 1), 2 ^ ell * (binom ell m * binom (0.5 * (ell + m - 1)) ell) * gjVal m * s ^ m := by
  have e : ∀ φ : ℝ, Real.cos (2 * φ) * legendre ell (s * Real.cos φ) = ∑ m ∈ range (ell + 1),
      2 ^ ell * (binom ell m * binom (0.5 * (ell + m - 1)) ell) * s ^ m * (Real.cos (2 * φ) * Real.cos φ ^ m) := by
    intro φ
    rw [legendre_coeff ell h, mul_sum]
    refine sum_congr rfl fun m _ => ?_
    rw [mul_pow]; ring
  simp only [e]
  rw [intervalIntegral.integral_finsetSum]
  · refine sum_congr rfl fun m hm => ?_
    have := mem_range.1 hm
    rw [intervalIntegral.integral_const_mul, gjVal_eq m (by omega)]
    ring
  · intro m _
    exact (by fun_prop : Continuous _).intervalIntegrable _ _

/-- C76: for every multipole the code can do and every slope above -4, for which the integral converges, the general
expression is the angular integral of the shear field. -/
theorem C76_angular_integral (ell : ℕ) (h : ell ≤ 11) (g : ℝ) (hg : -4 < g) :
    fEllGeneral ell g = .ok (angular ell g) := by
  rw [fEllGeneral_eq ell (by omega) g]
  congr 1
  unfold angular
  have hterm : Set.EqOn (fun x : ℝ => (1 - x ^ 2) ^ (g / 2) *
      ∫ φ in (0 : ℝ)..(2 * Real.pi), Real.cos (2 * φ) * legendre ell (Real.sqrt (1 - x ^ 2) * Real.cos φ))
      (fun x : ℝ => ∑ m ∈ range (ell + 1), 2 ^ ell * (binom ell m * binom (0.5 * (ell + m - 1)) ell) * gjVal m *
        (1 - x ^ 2) ^ ((m + g) / 2)) (Set.Ioo (-1) 1) := by
    intro x hx
    have hpos : 0 < 1 - x ^ 2 := by nlinarith [hx.1, hx.2]
    simp only
    rw [azimuthal ell h, mul_sum]
    refine sum_congr rfl fun m _ => ?_
    have e : (1 - x ^ 2) ^ ((m + g) / 2) = (1 - x ^ 2) ^ (g / 2) * Real.sqrt (1 - x ^ 2) ^ m := by
      generalize 1 - x ^ 2 = w at hpos
      rw [Real.sqrt_eq_rpow, ← Real.rpow_natCast, ← Real.rpow_mul hpos.le, ← Real.rpow_add hpos]
      congr 1; ring
    rw [e]; ring
  rw [intervalIntegral.integral_congr_Ioo_of_le (by norm_num) hterm, intervalIntegral.integral_finsetSum, mul_sum]
  · refine sum_congr rfl fun m hm => ?_
    rw [intervalIntegral.integral_const_mul]
    rcases Nat.lt_or_ge m 2 with h2 | h2
    · have h0 : gjVal m = 0 := by
        obtain ⟨g0, g1, -⟩ := gjVals
        interval_cases m
        · exact g0
        · exact g1
      rw [h0]; ring
    · have h2' : (2 : ℝ) ≤ m := by exact_mod_cast h2
      rw [← C76_iX (m + g) (by linarith)]
      ring
  · intro m _
    rcases Nat.lt_or_ge m 2 with h2 | h2
    · have h0 : gjVal m = 0 := by
        obtain ⟨g0, g1, -⟩ := gjVals
        interval_cases m
        · exact g0
        · exact g1
      simp [h0]
    · have h2' : (2 : ℝ) ≤ m := by exact_mod_cast h2
      exact (integrable_pow (m + g) (by linarith)).const_mul _

/-- C76: so the angular factor the code uses is that integral for every slope above -4 other than 0 and -2; for slope -2 it is
the integral to 3e-6; for slope 0 it is the integral of slope 1 to 2e-6, and differs from that of slope 0 by more than 0.04 for
every multipole that contributes (C47). -/
theorem C76_angular_factor (ell : ℕ) (h : ell ≤ 11) (g : ℝ) (hg : -4 < g) :
    ∃ v, calculateFEll ell g = .ok v ∧ (g ≠ 0 → g ≠ -2 → v = angular ell g) ∧ (g = -2 → |v - angular ell (-2)| ≤ 3e-6) ∧
      (g = 0 → |v - angular ell 1| ≤ 2e-6) ∧ (g = 0 → 2 ≤ ell → Even ell → 0.04 < |v - angular ell 0|) := by
  by_cases h0 : g = 0
  · subst h0
    obtain ⟨t, v, ht, hv, hd⟩ := C47_table_zero_is_slope_one ell h
    rw [C76_angular_integral ell h 1 (by norm_num)] at hv
    cases hv
    refine ⟨t, ht, fun h => (h rfl).elim, fun h => ?_, fun _ => hd, fun _ h2 he => ?_⟩
    · norm_num at h
    · obtain ⟨t', v', ht', hv', hd'⟩ := C47_table_zero_differs ell h h2 he
      rw [C76_angular_integral ell h 0 (by norm_num)] at hv'
      cases hv'
      rw [ht] at ht'
      cases ht'
      exact hd'
  · by_cases h2 : g = -2
    · subst h2
      obtain ⟨t, v, ht, hv, hd⟩ := C47_table_minus_two ell h
      rw [C76_angular_integral ell h (-2) (by norm_num)] at hv
      cases hv
      exact ⟨t, ht, fun _ h => (h rfl).elim, fun _ => hd, fun h => (h0 h).elim, fun h => (h0 h).elim⟩
    · refine ⟨angular ell g, ?_, fun _ _ => rfl, fun h => (h2 h).elim, fun h => (h0 h).elim, fun h => (h0 h).elim⟩
      rw [calculateFEll, if_neg h0, if_neg h2, C76_angular_integral ell h g hg]

/-- the quadrupole for slope -1: the integral is `3 pi^2 / 8`, not zero -/
example : angular 2 (-1) = 3 * Real.pi ^ 2 / 8 ∧ (-4 : ℝ) < -1 := by
  refine ⟨?_, by norm_num⟩
  have h := general_even 2 (by norm_num) (-1)
  rw [C76_angular_integral 2 (by norm_num) (-1) (by norm_num)] at h
  rw [Except.ok.inj h]
  obtain ⟨-, -, g2, -⟩ := gjVals
  have e : (2 : ℝ) + -1 = 1 := by norm_num
  norm_num [sum_range_succ, g2, binom, prod_range_succ, Nat.factorial, e, iX_one]
  ring

end Verif.Ia

import Verif.Props.IaMultipoles
import Mathlib.Probability.Distributions.Beta

/-! Properties C47, C76: the hard-coded multipole tables against the general expression, and the factors of
the general expression against the angular integrals they stand for. -/

namespace Verif.Ia

open Verif.Lib Finset

/-- the general expression at slope -2, evaluated -/
theorem general_m2 :
    fEllGeneral 2 (-2) = .ok (3 * Real.pi / 2) ∧ fEllGeneral 4 (-2) = .ok (-5 * Real.pi / 6) ∧
    fEllGeneral 6 (-2) = .ok (21 * Real.pi / 32) ∧ fEllGeneral 8 (-2) = .ok (-9 * Real.pi / 16) ∧
    fEllGeneral 10 (-2) = .ok (385 * Real.pi / 768) := by
  obtain ⟨-, -, g2, -, g4, -, g6, -, g8, -, g10, -⟩ := gjVals
  obtain ⟨i2, i4, i6, i8, i10⟩ := iX_even
  have i0 := iX_zero
  refine ⟨?_, ?_, ?_, ?_, ?_⟩ <;> rw [general_even _ (by norm_num)] <;> congr 1 <;>
    norm_num [sum_range_succ, binom, prod_range_succ, Nat.factorial, g2, g4, g6, g8, g10, i0, i2, i4, i6, i8] <;>
    ring_nf

/-- the general expression at slope 0, evaluated -/
theorem general_0 :
    fEllGeneral 2 0 = .ok Real.pi ∧ fEllGeneral 4 0 = .ok (-Real.pi / 6) ∧
    fEllGeneral 6 0 = .ok (Real.pi / 16) ∧ fEllGeneral 8 0 = .ok (-Real.pi / 32) ∧
    fEllGeneral 10 0 = .ok (7 * Real.pi / 384) := by
  obtain ⟨-, -, g2, -, g4, -, g6, -, g8, -, g10, -⟩ := gjVals
  obtain ⟨i2, i4, i6, i8, i10⟩ := iX_even
  refine ⟨?_, ?_, ?_, ?_, ?_⟩ <;> rw [general_even _ (by norm_num)] <;> congr 1 <;>
    norm_num [sum_range_succ, binom, prod_range_succ, Nat.factorial, g2, g4, g6, g8, g10, i2, i4, i6, i8, i10] <;>
    ring_nf

/-- the general expression at slope 1, evaluated -/
theorem general_1 :
    fEllGeneral 2 1 = .ok (9 * Real.pi ^ 2 / 32) ∧ fEllGeneral 4 1 = .ok (-5 * Real.pi ^ 2 / 256) ∧
    fEllGeneral 6 1 = .ok (315 * Real.pi ^ 2 / 65536) ∧ fEllGeneral 8 1 = .ok (-945 * Real.pi ^ 2 / 524288) ∧
    fEllGeneral 10 1 = .ok (56595 * Real.pi ^ 2 / 67108864) := by
  obtain ⟨-, -, g2, -, g4, -, g6, -, g8, -, g10, -⟩ := gjVals
  obtain ⟨i3, i5, i7, i9, i11⟩ := iX_odd
  refine ⟨?_, ?_, ?_, ?_, ?_⟩ <;> rw [general_even _ (by norm_num)] <;> congr 1 <;>
    norm_num [sum_range_succ, binom, prod_range_succ, Nat.factorial, g2, g4, g6, g8, g10, i3, i5, i7, i9, i11] <;>
    ring_nf

/-- odd multipoles and the monopole of the general expression vanish -/
theorem general_zero (ell : ℕ) (h : ell < 12) (h' : ell = 0 ∨ ¬ Even ell) (g : ℝ) :
    fEllGeneral ell g = .ok 0 := by
  rw [general_even ell h g]
  congr 1
  have hb : ∀ i ∈ range (ell / 2), binom ell (2 * i + 2) *
      binom (0.5 * (ell + (2 * i + 2 : ℕ) - 1)) ell * (gjVal (2 * i + 2) * iX ((2 * i + 2 : ℕ) + g) 0) = 0 := by
    intro i hi
    have hi := mem_range.1 hi
    rcases h' with rfl | h'
    · simp at hi
    · -- the generalised binomial has the factor `(ell + m - 1) / 2 - j` at `j = (ell + m - 1) / 2`
      obtain ⟨k, hk⟩ := Nat.not_even_iff_odd.1 h'
      have : binom (0.5 * (ell + (2 * i + 2 : ℕ) - 1)) ell = 0 := by
        unfold binom
        rw [prod_eq_zero (i := k + i + 1), zero_div]
        · simp; omega
        · rw [hk]; push_cast; ring
      rw [this]; ring
  rw [sum_eq_zero hb, mul_zero]

theorem pi_bounds : 3.14159265358 < Real.pi ∧ Real.pi < 3.1415926536 := by
  have := Real.pi_gt_d20; have := Real.pi_lt_d20
  constructor <;> norm_num at * <;> linarith

theorem pi_sq_bounds : 9.869604401 < Real.pi ^ 2 ∧ Real.pi ^ 2 < 9.869604402 := by
  have := Real.pi_gt_d20; have := Real.pi_lt_d20
  have := Real.pi_pos
  constructor <;> norm_num at * <;> nlinarith

/-- C47: for slope -2 and every multipole the code can reach, the tabulated angular factor used by
`calculate_f_ell` is the value of the general expression to within 3e-6. -/
theorem C47_table_minus_two (ell : ℕ) (h : ell ≤ 11) :
    ∃ t v, calculateFEll ell (-2) = .ok t ∧ fEllGeneral ell (-2) = .ok v ∧ |t - v| ≤ 3e-6 := by
  have ht : calculateFEll ell (-2) = tableAt tableM2 ell := by
    simp [calculateFEll]
  obtain ⟨p1, p2⟩ := pi_bounds
  obtain ⟨e2, e4, e6, e8, e10⟩ := general_m2
  rw [ht]
  have hz : ∀ ell, ell < 12 → (ell = 0 ∨ ¬ Even ell) → fEllGeneral ell (-2) = .ok 0 :=
    fun ell h h' => general_zero ell h h' _
  have t0 : ∀ i (hi : i < 14), tableAt tableM2 i = .ok (tableM2.getD i 0) := fun i hi => tableAt_ok _ _ hi
  interval_cases ell
  · exact ⟨0, 0, t0 0 (by norm_num), hz _ (by norm_num) (by decide), by norm_num⟩
  · exact ⟨0, 0, t0 1 (by norm_num), hz _ (by norm_num) (by decide), by norm_num⟩
  · exact ⟨4.71238898, _, t0 2 (by norm_num), e2, by rw [abs_le]; constructor <;> norm_num at * <;> linarith⟩
  · exact ⟨0, 0, t0 3 (by norm_num), hz _ (by norm_num) (by decide), by norm_num⟩
  · exact ⟨-2.61799389, _, t0 4 (by norm_num), e4, by rw [abs_le]; constructor <;> norm_num at * <;> linarith⟩
  · exact ⟨0, 0, t0 5 (by norm_num), hz _ (by norm_num) (by decide), by norm_num⟩
  · exact ⟨2.06167032, _, t0 6 (by norm_num), e6, by rw [abs_le]; constructor <;> norm_num at * <;> linarith⟩
  · exact ⟨0, 0, t0 7 (by norm_num), hz _ (by norm_num) (by decide), by norm_num⟩
  · exact ⟨-1.76714666, _, t0 8 (by norm_num), e8, by rw [abs_le]; constructor <;> norm_num at * <;> linarith⟩
  · exact ⟨0, 0, t0 9 (by norm_num), hz _ (by norm_num) (by decide), by norm_num⟩
  · exact ⟨1.57488973, _, t0 10 (by norm_num), e10, by rw [abs_le]; constructor <;> norm_num at * <;> linarith⟩
  · exact ⟨0, 0, t0 11 (by norm_num), hz _ (by norm_num) (by decide), by norm_num⟩

/-- C47 (disagreement found): for slope 0 the tabulated factor used by the code is the general expression at
slope **1** (to 2e-6) for every reachable multipole, ... -/
theorem C47_table_zero_is_slope_one (ell : ℕ) (h : ell ≤ 11) :
    ∃ t v, calculateFEll ell 0 = .ok t ∧ fEllGeneral ell 1 = .ok v ∧ |t - v| ≤ 2e-6 := by
  have ht : calculateFEll ell 0 = tableAt table0 ell := by
    simp [calculateFEll]
  obtain ⟨p1, p2⟩ := pi_sq_bounds
  obtain ⟨e2, e4, e6, e8, e10⟩ := general_1
  rw [ht]
  have hz : ∀ ell, ell < 12 → (ell = 0 ∨ ¬ Even ell) → fEllGeneral ell 1 = .ok 0 :=
    fun ell h h' => general_zero ell h h' _
  have t0 : ∀ i (hi : i < 14), tableAt table0 i = .ok (table0.getD i 0) := fun i hi => tableAt_ok _ _ hi
  interval_cases ell
  · exact ⟨0, 0, t0 0 (by norm_num), hz _ (by norm_num) (by decide), by norm_num⟩
  · exact ⟨0, 0, t0 1 (by norm_num), hz _ (by norm_num) (by decide), by norm_num⟩
  · exact ⟨2.77582637, _, t0 2 (by norm_num), e2, by rw [abs_le]; constructor <;> norm_num at * <;> linarith⟩
  · exact ⟨0, 0, t0 3 (by norm_num), hz _ (by norm_num) (by decide), by norm_num⟩
  · exact ⟨-0.19276603, _, t0 4 (by norm_num), e4, by rw [abs_le]; constructor <;> norm_num at * <;> linarith⟩
  · exact ⟨0, 0, t0 5 (by norm_num), hz _ (by norm_num) (by decide), by norm_num⟩
  · exact ⟨0.04743899, _, t0 6 (by norm_num), e6, by rw [abs_le]; constructor <;> norm_num at * <;> linarith⟩
  · exact ⟨0, 0, t0 7 (by norm_num), hz _ (by norm_num) (by decide), by norm_num⟩
  · exact ⟨-0.01779024, _, t0 8 (by norm_num), e8, by rw [abs_le]; constructor <;> norm_num at * <;> linarith⟩
  · exact ⟨0, 0, t0 9 (by norm_num), hz _ (by norm_num) (by decide), by norm_num⟩
  · exact ⟨0.00832446, _, t0 10 (by norm_num), e10, by rw [abs_le]; constructor <;> norm_num at * <;> linarith⟩
  · exact ⟨0, 0, t0 11 (by norm_num), hz _ (by norm_num) (by decide), by norm_num⟩

/-- C47 (disagreement found): ... and differs from the general expression at slope 0 by more than 0.04 for
every multipole that contributes, so the slope-0 result is not the limit of the results for small slopes. -/
theorem C47_table_zero_differs (ell : ℕ) (h : ell ≤ 11) (h2 : 2 ≤ ell) (he : Even ell) :
    ∃ t v, calculateFEll ell 0 = .ok t ∧ fEllGeneral ell 0 = .ok v ∧ 0.04 < |t - v| := by
  have ht : calculateFEll ell 0 = tableAt table0 ell := by
    simp [calculateFEll]
  obtain ⟨p1, p2⟩ := pi_bounds
  obtain ⟨e2, e4, e6, e8, e10⟩ := general_0
  rw [ht]
  have t0 : ∀ i (hi : i < 14), tableAt table0 i = .ok (table0.getD i 0) := fun i hi => tableAt_ok _ _ hi
  interval_cases ell
  · exact ⟨2.77582637, _, t0 2 (by norm_num), e2, by rw [lt_abs]; right; norm_num at *; linarith⟩
  · exact absurd he (by decide)
  · exact ⟨-0.19276603, _, t0 4 (by norm_num), e4, by rw [lt_abs]; left; norm_num at *; linarith⟩
  · exact absurd he (by decide)
  · exact ⟨0.04743899, _, t0 6 (by norm_num), e6, by rw [lt_abs]; right; norm_num at *; linarith⟩
  · exact absurd he (by decide)
  · exact ⟨-0.01779024, _, t0 8 (by norm_num), e8, by rw [lt_abs]; left; norm_num at *; linarith⟩
  · exact absurd he (by decide)
  · exact ⟨0.00832446, _, t0 10 (by norm_num), e10, by rw [lt_abs]; right; norm_num at *; linarith⟩
  · exact absurd he (by decide)

/-! ## C76: the factors are the integrals they stand for -/

theorem cos_pow_int (n : ℕ) : ∫ x in (0 : ℝ)..(2 * Real.pi), Real.cos x ^ (n + 2) =
    (n + 1) / (n + 2) * ∫ x in (0 : ℝ)..(2 * Real.pi), Real.cos x ^ n := by
  rw [integral_cos_pow]; simp

/-- C76: the coefficients `gj` are the azimuthal integrals `∫₀^{2π} cos 2φ cos^j φ dφ`. -/
theorem C76_gj (j : ℕ) (h : j ≤ 11) :
    tableAt gj j = .ok (∫ φ in (0 : ℝ)..(2 * Real.pi), Real.cos (2 * φ) * Real.cos φ ^ j) := by
  have e : ∫ φ in (0 : ℝ)..(2 * Real.pi), Real.cos (2 * φ) * Real.cos φ ^ j =
      2 * (∫ φ in (0 : ℝ)..(2 * Real.pi), Real.cos φ ^ (j + 2)) - ∫ φ in (0 : ℝ)..(2 * Real.pi), Real.cos φ ^ j := by
    rw [← intervalIntegral.integral_const_mul, ← intervalIntegral.integral_sub]
    · refine intervalIntegral.integral_congr fun φ _ => ?_
      simp only [Real.cos_two_mul]; ring
    · exact (by fun_prop : Continuous _).intervalIntegrable _ _
    · exact (by fun_prop : Continuous _).intervalIntegrable _ _
  rw [tableAt_ok gj j (by simp only [gj, List.length_cons, List.length_nil]; omega), e, cos_pow_int]
  congr 1
  set I : ℕ → ℝ := fun n => ∫ φ in (0 : ℝ)..(2 * Real.pi), Real.cos φ ^ n with hI
  have h0 : I 0 = 2 * Real.pi := by simp [hI]
  have h1 : I 1 = 0 := by simp [hI]
  have s : ∀ n : ℕ, I (n + 2) = (n + 1) / (n + 2) * I n := cos_pow_int
  show gj.getD j 0 = 2 * ((j + 1) / (j + 2) * I j) - I j
  clear_value I
  have h2 := s 0; have h3 := s 1; have h4 := s 2; have h5 := s 3; have h6 := s 4; have h7 := s 5
  have h8 := s 6; have h9 := s 7; have h10 := s 8; have h11 := s 9
  rw [h0] at h2
  rw [h1] at h3
  rw [h2] at h4
  rw [h3] at h5
  rw [h4] at h6
  rw [h5] at h7
  rw [h6] at h8
  rw [h7] at h9
  rw [h8] at h10
  rw [h9] at h11
  norm_num at h2 h3 h4 h5 h6 h7 h8 h9 h10 h11
  interval_cases j <;>
    norm_num [gj, h0, h1, h2, h3, h4, h5, h6, h7, h8, h9, h10, h11] <;> ring

/-- C76: `I_x(a, 0)` is the polar integral `∫_{-1}^{1} (1 - x²)^{a/2} dx`, for every slope for which it
converges. -/
theorem C76_iX (a : ℝ) (ha : -2 < a) : iX a 0 = ∫ x in (-1 : ℝ)..1, (1 - x ^ 2) ^ (a / 2) := by
  set s := a / 2 + 1 with hs
  have hs0 : 0 < s := by linarith
  have hb : Real.Gamma s * Real.Gamma s / Real.Gamma (s + s) =
      ∫ x in (0 : ℝ)..1, (x * (1 - x)) ^ (s - 1) := by
    have h1 := ProbabilityTheory.beta_eq_betaIntegralReal s s hs0 hs0
    rw [ProbabilityTheory.beta] at h1
    rw [h1, Complex.betaIntegral]
    have : ∀ x ∈ Set.uIcc (0 : ℝ) 1, (x : ℂ) ^ ((s : ℂ) - 1) * (1 - (x : ℂ)) ^ ((s : ℂ) - 1) =
        (((x * (1 - x)) ^ (s - 1) : ℝ) : ℂ) := by
      intro x hx
      rw [Set.uIcc_of_le zero_le_one] at hx
      rw [Real.mul_rpow hx.1 (by linarith [hx.2])]
      push_cast
      rw [Complex.ofReal_cpow hx.1, Complex.ofReal_cpow (by linarith [hx.2])]
      push_cast; rfl
    rw [intervalIntegral.integral_congr this, intervalIntegral.integral_ofReal, Complex.ofReal_re]
  have hsub : ∫ x in (-1 : ℝ)..1, (1 - x ^ 2) ^ (a / 2) =
      2 * ∫ x in (0 : ℝ)..1, (4 * (x * (1 - x))) ^ (s - 1) := by
    have := intervalIntegral.integral_comp_mul_sub (a := 0) (b := 1)
      (fun x : ℝ => (1 - x ^ 2) ^ (a / 2)) (two_ne_zero) 1
    rw [show (2 * 0 - 1 : ℝ) = -1 by norm_num, show (2 * 1 - 1 : ℝ) = 1 by norm_num] at this
    have e : ∀ x : ℝ, (1 - (2 * x - 1) ^ 2) ^ (a / 2) = (4 * (x * (1 - x))) ^ (s - 1) := by
      intro x
      rw [hs]; congr 1 <;> ring
    simp only [e] at this
    rw [this]; simp
  have hp : ∫ x in (0 : ℝ)..1, (4 * (x * (1 - x))) ^ (s - 1) =
      4 ^ (s - 1) * ∫ x in (0 : ℝ)..1, (x * (1 - x)) ^ (s - 1) := by
    rw [← intervalIntegral.integral_const_mul]
    refine intervalIntegral.integral_congr fun x hx => ?_
    rw [Set.uIcc_of_le zero_le_one] at hx
    exact Real.mul_rpow (by norm_num) (mul_nonneg hx.1 (by linarith [hx.2]))
  rw [hsub, hp, ← hb]
  have hd := Real.Gamma_mul_Gamma_add_half s
  have hg1 : Real.Gamma (s + 1 / 2) ≠ 0 := (Real.Gamma_pos_of_pos (by linarith)).ne'
  have hg2 : Real.Gamma (s + s) ≠ 0 := (Real.Gamma_pos_of_pos (by linarith)).ne'
  have h4 : (4 : ℝ) ^ (s - 1) = (2 : ℝ) ^ (2 * s - 2) := by
    rw [show (4 : ℝ) = 2 ^ (2 : ℝ) by norm_num, ← Real.rpow_mul (by norm_num)]; congr 1; ring
  have h2 : 2 * (2 : ℝ) ^ (2 * s - 2) * (2 : ℝ) ^ (1 - 2 * s) = 1 := by
    have : (2 : ℝ) * (2 : ℝ) ^ (2 * s - 2) = 2 ^ (2 * s - 1) := by
      nth_rewrite 1 [← Real.rpow_one (2 : ℝ)]
      rw [← Real.rpow_add (by norm_num)]
      congr 1; ring
    rw [this, ← Real.rpow_add (by norm_num)]; ring_nf; simp
  unfold iX
  have e2 : a / 2 + ((0 : ℕ) : ℝ) / 2 + 3 / 2 = s + 1 / 2 := by rw [hs]; push_cast; ring
  rw [e2, ← hs, h4, show (((0 : ℕ) : ℝ) + 1) / 2 = 1 / 2 by norm_num, Real.Gamma_one_half_eq]
  rw [show (2 : ℝ) * s = s + s by ring] at hd
  set P := (2 : ℝ) ^ (2 * s - 2)
  set Q := (2 : ℝ) ^ (1 - (s + s))
  rw [show (1 - 2 * s) = 1 - (s + s) by ring] at h2
  have hG : Real.Gamma s / Real.Gamma (s + s) = Q * √Real.pi / Real.Gamma (s + 1 / 2) := by
    rw [div_eq_div_iff hg2 hg1, hd]; ring
  have : 2 * (P * (Real.Gamma s * Real.Gamma s / Real.Gamma (s + s))) =
      2 * P * Q * (√Real.pi * Real.Gamma s / Real.Gamma (s + 1 / 2)) := by
    rw [mul_div_assoc, hG]; ring
  rw [this, h2]
  field_simp
  norm_num

end Verif.Ia

import Verif.Props.Convergence
import Verif.Props.HodSpectra
import Mathlib.MeasureTheory.Integral.Gamma

/-! Properties C99 and C100 (occupations): what the conditional observable functions integrate to. -/

namespace Verif.Hod

open Verif.Lib Verif.Spec Filter Topology Set MeasureTheory

/-! ## The error function -/

theorem erf_hasDerivAt (x : ℝ) : HasDerivAt erf (2 / Real.sqrt Real.pi * Real.exp (-x ^ 2)) x := by
  have hc : Continuous fun t : ℝ => Real.exp (-t ^ 2) := by fun_prop
  exact (intervalIntegral.integral_hasDerivAt_right (hc.intervalIntegrable 0 x)
    (hc.stronglyMeasurableAtFilter _ _) hc.continuousAt).const_mul _

/-- distribution function (minus one half) of the logarithm being normal around `log Oc + c` with width `s` -/
noncomputable def cdf (Oc c s O : ℝ) : ℝ := 1 / 2 * erf ((Real.log (O / Oc) - c) / (Real.sqrt 2 * s))

theorem cdf_hasDerivAt {Oc s O : ℝ} (c : ℝ) (hOc : 0 < Oc) (hs : 0 < s) (hO : 0 < O) :
    HasDerivAt (cdf Oc c s)
      (1 / (Real.sqrt (2 * Real.pi) * s * O) * Real.exp (-(Real.log (O / Oc) - c) ^ 2 / (2 * s ^ 2))) O := by
  have h2 : 0 < Real.sqrt 2 := by positivity
  have h1 : HasDerivAt (fun O => (Real.log (O / Oc) - c) / (Real.sqrt 2 * s)) ((1 / O) / (Real.sqrt 2 * s)) O := by
    refine HasDerivAt.div_const ?_ _
    refine HasDerivAt.sub_const _ ?_
    have := ((hasDerivAt_id' O).div_const Oc).log (div_pos hO hOc).ne'
    refine this.congr_deriv ?_
    field_simp
  have h := ((erf_hasDerivAt _).comp O h1).const_mul (1 / 2)
  refine h.congr_deriv ?_
  have e : ((Real.log (O / Oc) - c) / (Real.sqrt 2 * s)) ^ 2 = (Real.log (O / Oc) - c) ^ 2 / (2 * s ^ 2) := by
    rw [div_pow, mul_pow, Real.sq_sqrt (by norm_num)]
  rw [e, Real.sqrt_mul (by norm_num), neg_div]
  have hp : 0 < Real.sqrt Real.pi := Real.sqrt_pos.2 Real.pi_pos
  field_simp

theorem cdf_atTop {Oc s : ℝ} (c : ℝ) (hOc : 0 < Oc) (hs : 0 < s) : Tendsto (cdf Oc c s) atTop (𝓝 (1 / 2)) := by
  have h2 : 0 < Real.sqrt 2 := by positivity
  have : Tendsto (fun O => (Real.log (O / Oc) - c) / (Real.sqrt 2 * s)) atTop atTop := by
    refine Tendsto.atTop_div_const (by positivity) ?_
    refine tendsto_atTop_add_const_right _ _ ?_
    exact Real.tendsto_log_atTop.comp (tendsto_id.atTop_div_const hOc)
  have h := (erf_tendsto_atTop.comp this).const_mul (1 / 2)
  rw [mul_one] at h
  exact h

theorem cdf_atZero {Oc s : ℝ} (c : ℝ) (hOc : 0 < Oc) (hs : 0 < s) : Tendsto (cdf Oc c s) (𝓝[>] 0) (𝓝 (-(1 / 2))) := by
  have h2 : 0 < Real.sqrt 2 := by positivity
  have : Tendsto (fun O => (Real.log (O / Oc) - c) / (Real.sqrt 2 * s)) (𝓝[>] 0) atBot := by
    refine Tendsto.atBot_div_const (by positivity) ?_
    refine tendsto_atBot_add_const_right _ _ ?_
    refine Real.tendsto_log_nhdsGT_zero.comp ?_
    refine tendsto_nhdsWithin_iff.2 ⟨?_, ?_⟩
    · have : Tendsto (fun O : ℝ => O / Oc) (𝓝 0) (𝓝 (0 / Oc)) := (continuous_id.div_const Oc).tendsto 0
      rw [zero_div] at this
      exact this.mono_left nhdsWithin_le_nhds
    · filter_upwards [self_mem_nhdsWithin] with O hO using div_pos hO hOc
  have h := (erf_tendsto_atBot.comp this).const_mul (1 / 2)
  rw [mul_neg, mul_one] at h
  exact h

/-- the log-normal density integrates to one over all positive values -/
theorem lognormal_total {Oc s : ℝ} (c : ℝ) (hOc : 0 < Oc) (hs : 0 < s) :
    ∫ O in Ioi 0, 1 / (Real.sqrt (2 * Real.pi) * s * O) * Real.exp (-(Real.log (O / Oc) - c) ^ 2 / (2 * s ^ 2)) = 1 := by
  have key := integral_Ioi_of_hasDerivAt_of_nonneg (a := 0) (l := 1 / 2)
    (g := Function.update (cdf Oc c s) 0 (-(1 / 2)))
    (g' := fun O => 1 / (Real.sqrt (2 * Real.pi) * s * O) * Real.exp (-(Real.log (O / Oc) - c) ^ 2 / (2 * s ^ 2)))
    (by
      rw [continuousWithinAt_update_same]
      have : Ici (0 : ℝ) \ {0} = Ioi 0 := Ici_sdiff_left
      rw [this]
      exact cdf_atZero c hOc hs)
    (fun O hO => by
      have hO' : (0 : ℝ) < O := hO
      refine (cdf_hasDerivAt c hOc hs hO').congr_of_eventuallyEq ?_
      filter_upwards [lt_mem_nhds hO'] with y hy
      rw [Function.update_of_ne hy.ne'])
    (fun O hO => by
      have hO' : (0 : ℝ) < O := hO
      have := Real.pi_pos
      positivity)
    ((cdf_atTop c hOc hs).congr' (by
      filter_upwards [eventually_gt_atTop 0] with y hy
      rw [Function.update_of_ne hy.ne']))
  rw [key]
  simp
  norm_num

namespace CacciatoParams

variable (p : CacciatoParams)

theorem cofCen_eq (M O : ℝ) : p.cofCen M O =
    1 / (Real.sqrt (2 * Real.pi) * (Real.log 10 * p.sigmaLog10Oc) * O) *
      Real.exp (-(Real.log (O / p.meanObsC M) - 0) ^ 2 / (2 * (Real.log 10 * p.sigmaLog10Oc) ^ 2)) := by
  have hl : Real.log 10 ≠ 0 := (Real.log_pos (by norm_num)).ne'
  unfold cofCen log10 Real.logb
  congr 2
  · ring
  · rw [sub_zero]
    by_cases hs : p.sigmaLog10Oc = 0
    · simp [hs]
    · field_simp

/-- C99: every halo has one central: the conditional function of centrals integrates to one over all values of the
observable -/
theorem C99_central_total (M : ℝ) (hM : 0 < M) (hs : 0 < p.sigmaLog10Oc) : ∫ O in Ioi 0, p.cofCen M O = 1 := by
  have hl : 0 < Real.log 10 := Real.log_pos (by norm_num)
  simp only [cofCen_eq]
  exact lognormal_total 0 (p.meanObsC_pos hM) (by positivity)

theorem cofCen_hasDerivAt (M O : ℝ) (hM : 0 < M) (hs : 0 < p.sigmaLog10Oc) (hO : 0 < O) :
    HasDerivAt (fun O => 1 / 2 * erf (log10 (O / p.meanObsC M) / (Real.sqrt 2 * p.sigmaLog10Oc))) (p.cofCen M O) O := by
  have hl : 0 < Real.log 10 := Real.log_pos (by norm_num)
  rw [cofCen_eq]
  refine (cdf_hasDerivAt 0 (p.meanObsC_pos hM) (by positivity : 0 < Real.log 10 * p.sigmaLog10Oc) hO).congr_of_eventuallyEq
    (Eventually.of_forall fun y => ?_)
  unfold cdf log10 Real.logb
  rw [sub_zero]
  field_simp

theorem cofCen_continuousOn (M : ℝ) (hM : 0 < M) : ContinuousOn (p.cofCen M) (Ioi 0) := by
  have hOc := p.meanObsC_pos hM
  intro O hO
  have hO' : (0 : ℝ) < O := hO
  refine ContinuousAt.continuousWithinAt ?_
  simp only [funext (p.cofCen_eq M)]
  by_cases hs : p.sigmaLog10Oc = 0
  · simp only [hs]; simp; exact continuousAt_const
  have hl : Real.log 10 ≠ 0 := (Real.log_pos (by norm_num)).ne'
  have hpi : Real.sqrt (2 * Real.pi) ≠ 0 := (Real.sqrt_pos.2 (by have := Real.pi_pos; positivity)).ne'
  have h1 : O / p.meanObsC M ≠ 0 := (div_pos hO' hOc).ne'
  have h2 : Real.sqrt (2 * Real.pi) * (Real.log 10 * p.sigmaLog10Oc) * O ≠ 0 :=
    mul_ne_zero (mul_ne_zero hpi (mul_ne_zero hl hs)) hO'.ne'
  fun_prop (disch := assumption)

/-- C99: the centrals with observable between two limits: the difference of two error functions, with the width of the
distribution of `log10 O` -/
theorem C99_central_bin (M a b : ℝ) (hM : 0 < M) (hs : 0 < p.sigmaLog10Oc) (ha : 0 < a) (hab : a ≤ b) :
    ∫ O in a..b, p.cofCen M O =
      1 / 2 * (erf (log10 (b / p.meanObsC M) / (Real.sqrt 2 * p.sigmaLog10Oc)) -
        erf (log10 (a / p.meanObsC M) / (Real.sqrt 2 * p.sigmaLog10Oc))) := by
  have hpos : ∀ O ∈ uIcc a b, 0 < O := fun O hO => by
    rw [uIcc_of_le hab] at hO
    exact lt_of_lt_of_le ha hO.1
  rw [intervalIntegral.integral_eq_sub_of_hasDerivAt (fun O hO => p.cofCen_hasDerivAt M O hM hs (hpos O hO))
    (((p.cofCen_continuousOn M hM).mono fun O hO => hpos O hO).intervalIntegrable)]
  ring

/-- C99: what the code calls the mean observable of centrals is the median: half of the centrals lie above it -/
theorem C99_median (M : ℝ) (hM : 0 < M) (hs : 0 < p.sigmaLog10Oc) :
    ∫ O in Ioi (p.meanObsC M), p.cofCen M O = 1 / 2 := by
  have hl : 0 < Real.log 10 := Real.log_pos (by norm_num)
  have hOc := p.meanObsC_pos hM
  have hs' : 0 < Real.log 10 * p.sigmaLog10Oc := by positivity
  simp only [cofCen_eq]
  rw [integral_Ioi_of_hasDerivAt_of_nonneg' (g := cdf (p.meanObsC M) 0 (Real.log 10 * p.sigmaLog10Oc)) (l := 1 / 2)
    (fun O hO => cdf_hasDerivAt 0 hOc hs' (lt_of_lt_of_le hOc hO))
    (fun O hO => by
      have hO' : 0 < O := lt_trans hOc hO
      have := Real.pi_pos
      positivity) (cdf_atTop 0 hOc hs')]
  simp [cdf, div_self hOc.ne', erf_zero]

/-- C99: the mean observable of centrals is larger than that by the factor `exp((σ ln 10)² / 2)` -/
theorem C99_central_mean (M : ℝ) (hM : 0 < M) (hs : 0 < p.sigmaLog10Oc) :
    ∫ O in Ioi 0, p.cofCen M O * O =
      p.meanObsC M * Real.exp ((Real.log 10 * p.sigmaLog10Oc) ^ 2 / 2) := by
  have hl : 0 < Real.log 10 := Real.log_pos (by norm_num)
  have hOc := p.meanObsC_pos hM
  set s := Real.log 10 * p.sigmaLog10Oc with hsd
  have hs' : 0 < s := by positivity
  have e : ∀ O ∈ Ioi (0 : ℝ), p.cofCen M O * O = (p.meanObsC M * Real.exp (s ^ 2 / 2)) *
      (1 / (Real.sqrt (2 * Real.pi) * s * O) * Real.exp (-(Real.log (O / p.meanObsC M) - s ^ 2) ^ 2 / (2 * s ^ 2))) := by
    intro O hO
    have hO' : (0 : ℝ) < O := hO
    rw [cofCen_eq, ← hsd]
    have e1 : -(Real.log (O / p.meanObsC M) - s ^ 2) ^ 2 / (2 * s ^ 2) =
        -(Real.log (O / p.meanObsC M) - 0) ^ 2 / (2 * s ^ 2) + Real.log (O / p.meanObsC M) + -(s ^ 2 / 2) := by
      field_simp; ring
    rw [e1, Real.exp_add, Real.exp_add, Real.exp_log (div_pos hO' hOc), Real.exp_neg]
    have := Real.exp_pos (s ^ 2 / 2)
    field_simp
  rw [setIntegral_congr_fun measurableSet_Ioi e, integral_const_mul, lognormal_total (s ^ 2) hOc hs', mul_one]

theorem phiStarS_pos (M : ℝ) : 0 < p.phiStarS M := Real.rpow_pos_of_pos (by norm_num) _

theorem cofSat_integral (M q : ℝ) (hM : 0 < M) (hn : 0 < p.normS) (hβ : 0 < p.betaS) (hq : -1 < p.alphaS + q) :
    ∫ O in Ioi 0, p.cofSat M O * (O / (p.normS * p.meanObsC M)) ^ q =
      p.phiStarS M / p.betaS * Real.Gamma ((p.alphaS + q + 1) / p.betaS) := by
  have hOs : 0 < p.normS * p.meanObsC M := mul_pos hn (p.meanObsC_pos hM)
  set Os := p.normS * p.meanObsC M with hOsd
  have e : ∀ O ∈ Ioi (0 : ℝ), p.cofSat M O * (O / Os) ^ q =
      p.phiStarS M / Os * (fun x : ℝ => x ^ (p.alphaS + q) * Real.exp (-x ^ p.betaS)) (Os⁻¹ * O) := by
    intro O hO
    have hx : 0 < O / Os := div_pos hO hOs
    have e1 : Os⁻¹ * O = O / Os := by rw [div_eq_inv_mul]
    simp only
    rw [e1, Real.rpow_add hx]
    unfold cofSat
    rw [← hOsd]
    ring
  rw [setIntegral_congr_fun measurableSet_Ioi e, integral_const_mul,
    integral_comp_mul_left_Ioi (fun x : ℝ => x ^ (p.alphaS + q) * Real.exp (-x ^ p.betaS)) 0 (inv_pos.2 hOs), mul_zero,
    integral_rpow_mul_exp_neg_rpow hβ hq]
  simp only [inv_inv, smul_eq_mul]
  field_simp

/-- C99: the conditional function of satellites is a generalised Schechter function: all satellites of a halo together are
`φ*/β Γ((α + 1)/β)` -/
theorem C99_satellite_total (M : ℝ) (hM : 0 < M) (hn : 0 < p.normS) (hβ : 0 < p.betaS) (hα : -1 < p.alphaS) :
    ∫ O in Ioi 0, p.cofSat M O = p.phiStarS M / p.betaS * Real.Gamma ((p.alphaS + 1) / p.betaS) := by
  have := p.cofSat_integral M 0 hM hn hβ (by linarith)
  simpa using this

/-- C99: and their total observable is `φ* O*/β Γ((α + 2)/β)`, finite also for slopes between -2 and -1 -/
theorem C99_satellite_mean (M : ℝ) (hM : 0 < M) (hn : 0 < p.normS) (hβ : 0 < p.betaS) (hα : -2 < p.alphaS) :
    ∫ O in Ioi 0, p.cofSat M O * O =
      p.phiStarS M * (p.normS * p.meanObsC M) / p.betaS * Real.Gamma ((p.alphaS + 2) / p.betaS) := by
  have hOs : 0 < p.normS * p.meanObsC M := mul_pos hn (p.meanObsC_pos hM)
  have h := p.cofSat_integral M 1 hM hn hβ (by linarith)
  have e : ∀ O : ℝ, p.cofSat M O * O =
      (p.normS * p.meanObsC M) * (p.cofSat M O * (O / (p.normS * p.meanObsC M)) ^ (1 : ℝ)) := by
    intro O
    rw [Real.rpow_one]
    have := hOs.ne'
    generalize p.normS * p.meanObsC M = y at *
    field_simp
  simp only [e]
  rw [integral_const_mul, h, show p.alphaS + 1 + 1 = p.alphaS + 2 by ring]
  ring

/-- C99: the logarithm of the normalisation of satellites is a parabola in log mass around the pivot -/
theorem C99_satellite_normalisation (x : ℝ) :
    log10 (p.phiStarS ((10 : ℝ) ^ (p.pivot + x))) = p.b0 + p.b1 * x + p.b2 * x ^ 2 := by
  unfold phiStarS log10
  rw [Real.logb_rpow (by norm_num) (by norm_num), Real.logb_rpow (by norm_num) (by norm_num)]
  ring

/-- C99: centrals do not depend on the parameters of satellites, and satellites not on the scatter of centrals -/
theorem C99_separate (p' : CacciatoParams) (nobs : ℕ) (obs : ℕ → ℝ) (M : ℝ) (h1 : p.log10ObsNormC = p'.log10ObsNormC)
    (h2 : p.log10Mch = p'.log10Mch) (h3 : p.g1 = p'.g1) (h4 : p.g2 = p'.g2) :
    (p.sigmaLog10Oc = p'.sigmaLog10Oc → p.aCen = p'.aCen → p.hodCen nobs obs M = p'.hodCen nobs obs M ∧
      p.stellarCen nobs obs M = p'.stellarCen nobs obs M) ∧
    (p.normS = p'.normS → p.pivot = p'.pivot → p.alphaS = p'.alphaS → p.betaS = p'.betaS → p.b0 = p'.b0 →
      p.b1 = p'.b1 → p.b2 = p'.b2 → p.aSat = p'.aSat → p.hodSat nobs obs M = p'.hodSat nobs obs M ∧
      p.stellarSat nobs obs M = p'.stellarSat nobs obs M) := by
  constructor
  · intro h5 h6
    simp only [hodCen, stellarCen, cofCen, meanObsC, obsNormC, mChar, h1, h2, h3, h4, h5, h6, and_self]
  · intro h5 h6 h7 h8 h9 h10 h11 h12
    simp only [hodSat, stellarSat, cofSat, phiStarS, meanObsC, obsNormC, mChar, h1, h2, h3, h4, h5, h6, h7, h8, h9, h10,
      h11, h12, and_self]

/-- C100: the occupation of centrals converges to that difference of error functions (before decoration) as the number of
points of the observable grid grows -/
theorem C100_centrals_converge (lo hi M : ℝ) (h : lo < hi) (hM : 0 < M) (hs : 0 < p.sigmaLog10Oc) :
    Tendsto (fun n : ℕ => p.hodCen n (obsRow lo hi n) M) atTop (𝓝 (decorateCen p.aCen
      (1 / 2 * (erf (log10 ((10 : ℝ) ^ hi / p.meanObsC M) / (Real.sqrt 2 * p.sigmaLog10Oc)) -
        erf (log10 ((10 : ℝ) ^ lo / p.meanObsC M) / (Real.sqrt 2 * p.sigmaLog10Oc)))))) := by
  have hlo : (0 : ℝ) < (10 : ℝ) ^ lo := Real.rpow_pos_of_pos (by norm_num) _
  have hle : (10 : ℝ) ^ lo ≤ (10 : ℝ) ^ hi := Real.rpow_le_rpow_of_exponent_le (by norm_num) h.le
  have t := Convergence.C100_observable_grid h (f := p.cofCen M)
    ((p.cofCen_continuousOn M hM).mono fun O hO => lt_of_lt_of_le hlo hO.1)
  rw [p.C99_central_bin M _ _ hM hs hlo hle] at t
  have hc : Continuous (decorateCen p.aCen) := by
    unfold decorateCen
    cases p.aCen with
    | none => exact continuous_id
    | some a => simp only; fun_prop
  exact (hc.tendsto _).comp t

theorem cofSat_continuousOn (M : ℝ) (hM : 0 < M) (hn : 0 < p.normS) : ContinuousOn (p.cofSat M) (Ioi 0) := by
  have hOs : 0 < p.normS * p.meanObsC M := mul_pos hn (p.meanObsC_pos hM)
  intro O hO
  have hx : O / (p.normS * p.meanObsC M) ≠ 0 := (div_pos hO hOs).ne'
  refine ContinuousAt.continuousWithinAt ?_
  unfold cofSat
  have h1 : ContinuousAt (fun O => O / (p.normS * p.meanObsC M)) O := continuousAt_id.div_const _
  exact (continuousAt_const.mul (h1.rpow_const (Or.inl hx))).mul
    (Real.continuous_exp.continuousAt.comp (h1.rpow_const (Or.inl hx)).neg)

/-- C100: and that of satellites to the integral of the Schechter function over the bin -/
theorem C100_satellites_converge (lo hi M : ℝ) (h : lo < hi) (hM : 0 < M) (hn : 0 < p.normS) :
    Tendsto (fun n : ℕ => p.hodSat n (obsRow lo hi n) M) atTop
      (𝓝 (decorateSat p.aSat (∫ O in (10 : ℝ) ^ lo..(10 : ℝ) ^ hi, p.cofSat M O))) := by
  have hlo : (0 : ℝ) < (10 : ℝ) ^ lo := Real.rpow_pos_of_pos (by norm_num) _
  have t := Convergence.C100_observable_grid h (f := p.cofSat M)
    ((p.cofSat_continuousOn M hM hn).mono fun O hO => lt_of_lt_of_le hlo hO.1)
  have hc : Continuous (decorateSat p.aSat) := by
    unfold decorateSat
    cases p.aSat with
    | none => exact continuous_id
    | some a => simp only; fun_prop
  exact (hc.tendsto _).comp t

end CacciatoParams

/-- C99: the conversion to units per dex is the change of variable to `log10 O` -/
theorem C99_per_dex (F : ℝ → ℝ) (f x : ℝ) (h : HasDerivAt F f ((10 : ℝ) ^ x)) :
    HasDerivAt (fun x => F ((10 : ℝ) ^ x)) (perDex ((10 : ℝ) ^ x) f) x := by
  have h1 : HasDerivAt (fun x : ℝ => (10 : ℝ) ^ x) ((10 : ℝ) ^ x * Real.log 10) x := by
    have := Real.hasStrictDerivAt_const_rpow (a := 10) (by norm_num) x
    exact this.hasDerivAt
  have := h.comp x h1
  refine this.congr_deriv ?_
  unfold perDex
  ring

/-- C99: Zhai satellites are a power law suppressed exponentially below the cutoff: always below the power law, by a factor
`e` at the cutoff, and vanishing for small masses -/
theorem C99_zhai_cutoff (r : ZhaiParams) (hA : r.aSat = none) :
    (∀ M > 0, zhaiSat r M < (M / (10 : ℝ) ^ r.log10Msat) ^ r.alpha) ∧
    zhaiSat r ((10 : ℝ) ^ r.log10Mcut) =
      ((10 : ℝ) ^ r.log10Mcut / (10 : ℝ) ^ r.log10Msat) ^ r.alpha * Real.exp (-1) ∧
    (∀ M > 0, ∀ t > 0, zhaiSat r (t * M) * Real.exp ((10 : ℝ) ^ r.log10Mcut / (t * M)) =
      t ^ r.alpha * (zhaiSat r M * Real.exp ((10 : ℝ) ^ r.log10Mcut / M))) ∧
    Tendsto (zhaiSat r) (𝓝[>] 0) (𝓝 0) := by
  have hc : (0 : ℝ) < (10 : ℝ) ^ r.log10Mcut := Real.rpow_pos_of_pos (by norm_num) _
  have hm : (0 : ℝ) < (10 : ℝ) ^ r.log10Msat := Real.rpow_pos_of_pos (by norm_num) _
  have e : ∀ M, zhaiSat r M = (M / (10 : ℝ) ^ r.log10Msat) ^ r.alpha * Real.exp (-(10 : ℝ) ^ r.log10Mcut / M) := by
    intro M; unfold zhaiSat; rw [hA]; rfl
  refine ⟨fun M hM => ?_, ?_, fun M hM t ht => ?_, ?_⟩
  · rw [e]
    refine mul_lt_of_lt_one_right (Real.rpow_pos_of_pos (div_pos hM hm) _) ?_
    rw [Real.exp_lt_one_iff]
    exact div_neg_of_neg_of_pos (by linarith) hM
  · rw [e, neg_div, div_self hc.ne']
  · rw [e, e, mul_assoc, mul_assoc, ← Real.exp_add, ← Real.exp_add, mul_div_assoc,
      Real.mul_rpow ht.le (div_pos hM hm).le]
    rw [show -(10 : ℝ) ^ r.log10Mcut / (t * M) + (10 : ℝ) ^ r.log10Mcut / (t * M) = 0 by ring,
      show -(10 : ℝ) ^ r.log10Mcut / M + (10 : ℝ) ^ r.log10Mcut / M = 0 by ring]
    ring
  · have h1 := tendsto_rpow_mul_exp_neg_mul_atTop_nhds_zero (-r.alpha) ((10 : ℝ) ^ r.log10Mcut) hc
    have h2 := (h1.comp tendsto_inv_nhdsGT_zero).const_mul (((10 : ℝ) ^ r.log10Msat) ^ (-r.alpha))
    rw [mul_zero] at h2
    refine h2.congr' ?_
    filter_upwards [self_mem_nhdsWithin] with M hM
    have hM' : (0 : ℝ) < M := hM
    rw [e]
    simp only [Function.comp]
    rw [Real.inv_rpow hM'.le, Real.rpow_neg hM'.le, inv_inv, Real.div_rpow hM'.le hm.le, Real.rpow_neg hm.le,
      ← div_eq_mul_inv]
    rw [show -(10 : ℝ) ^ r.log10Mcut / M = -((10 : ℝ) ^ r.log10Mcut / M) by ring]
    ring_nf

/-- parameters of this kind exist: values close to the defaults -/
noncomputable def typical : CacciatoParams :=
  ⟨9.95, 11.24, 3.18, 0.245, 0.157, 0.562, 12.0, -1.18, 2.0, -1.17, 1.53, -0.217, none, none⟩

example : 0 < typical.sigmaLog10Oc ∧ 0 < typical.normS ∧ 0 < typical.betaS ∧ -2 < typical.alphaS := by
  norm_num [typical]

/-- with a slope of -1.18 satellites of all observables diverge but their total observable does not -/
example (M : ℝ) (hM : 0 < M) : ∫ O in Ioi 0, typical.cofSat M O * O =
    typical.phiStarS M * (typical.normS * typical.meanObsC M) / typical.betaS *
      Real.Gamma ((typical.alphaS + 2) / typical.betaS) :=
  typical.C99_satellite_mean M hM (by norm_num [typical]) (by norm_num [typical]) (by norm_num [typical])

example (M : ℝ) (hM : 0 < M) : ∫ O in Ioi 0, typical.cofCen M O = 1 :=
  typical.C99_central_total M hM (by norm_num [typical])

end Verif.Hod

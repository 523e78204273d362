import Verif.Model.IaUpsample
import Mathlib.Analysis.SpecialFunctions.Integrals.Basic
import Mathlib.MeasureTheory.Integral.IntegralEqImproper

/-! Property C103: normalisation of the radial alignment profile of satellites. -/

namespace Verif.Ia

open Set MeasureTheory Filter Topology

/-- mass of the NFW profile within `x` scale radii, in units of `4 π ρ_s r_s³` -/
noncomputable def nfwMass (x : ℝ) : ℝ := Real.log (1 + x) - x / (1 + x)

theorem nfwMass_deriv {x : ℝ} (hx : 0 ≤ x) : HasDerivAt nfwMass (x / (1 + x) ^ 2) x := by
  have h1 : (1 : ℝ) + x ≠ 0 := by positivity
  have h : HasDerivAt (fun x : ℝ => 1 + x) 1 x := by simpa using (hasDerivAt_id' x).const_add 1
  have := (h.log h1).sub ((hasDerivAt_id' x).div h h1)
  refine this.congr_deriv ?_
  field_simp
  ring

theorem nfwMass_strictMono : StrictMonoOn nfwMass (Ici 0) := by
  refine strictMonoOn_of_deriv_pos (convex_Ici 0) (fun x hx => (nfwMass_deriv hx).continuousAt.continuousWithinAt) ?_
  intro x hx
  rw [interior_Ici] at hx
  have hx' : (0 : ℝ) < x := hx
  rw [(nfwMass_deriv hx'.le).deriv]
  positivity

theorem nfw_integrand {rs r : ℝ} (hrs : 0 < rs) (hr : 0 ≤ r) :
    4 * Real.pi * r ^ 2 * (1 / (r / rs * (1 + r / rs) ^ 2)) = 4 * Real.pi * rs ^ 2 * (r / rs / (1 + r / rs) ^ 2) := by
  rcases hr.eq_or_lt with rfl | hr
  · simp
  have : 0 < 1 + r / rs := by positivity
  field_simp

theorem nfw_integral {rs R : ℝ} (hrs : 0 < rs) (hR : 0 ≤ R) :
    IntervalIntegrable (fun r => 4 * Real.pi * r ^ 2 * (1 / (r / rs * (1 + r / rs) ^ 2))) volume 0 R ∧
    ∫ r in (0 : ℝ)..R, 4 * Real.pi * r ^ 2 * (1 / (r / rs * (1 + r / rs) ^ 2)) = 4 * Real.pi * rs ^ 3 * nfwMass (R / rs) := by
  have hd : ∀ r ∈ uIcc 0 R, HasDerivAt (fun r => 4 * Real.pi * rs ^ 3 * nfwMass (r / rs))
      (4 * Real.pi * r ^ 2 * (1 / (r / rs * (1 + r / rs) ^ 2))) r := by
    intro r hr
    rw [uIcc_of_le hR] at hr
    have h0 : 0 ≤ r / rs := div_nonneg hr.1 hrs.le
    have := ((nfwMass_deriv h0).comp r ((hasDerivAt_id' r).div_const rs)).const_mul (4 * Real.pi * rs ^ 3)
    refine this.congr_deriv ?_
    rw [nfw_integrand hrs hr.1]
    field_simp
  have hi : IntervalIntegrable (fun r => 4 * Real.pi * r ^ 2 * (1 / (r / rs * (1 + r / rs) ^ 2))) volume 0 R := by
    have : ContinuousOn (fun r => 4 * Real.pi * rs ^ 2 * (r / rs / (1 + r / rs) ^ 2)) (uIcc 0 R) := by
      refine continuousOn_const.mul (ContinuousOn.div (continuousOn_id.div_const _)
        ((continuousOn_const.add (continuousOn_id.div_const _)).pow 2) fun r hr => ?_)
      rw [uIcc_of_le hR] at hr
      have : 0 ≤ r / rs := div_nonneg hr.1 hrs.le
      positivity
    refine this.intervalIntegrable.congr fun r hr => ?_
    rw [uIoc_of_le hR] at hr
    exact (nfw_integrand hrs hr.1.le).symm
  refine ⟨hi, ?_⟩
  rw [intervalIntegral.integral_eq_sub_of_hasDerivAt hd hi]
  simp [nfwMass]

/-- C103: the normalisation the code divides by is the NFW mass within `c` scale radii -/
theorem C103_mnfw (rs c : ℝ) (hrs : 0 < rs) (hc : 0 ≤ c) :
    ∫ r in (0 : ℝ)..c * rs, 4 * Real.pi * r ^ 2 * (1 / (r / rs * (1 + r / rs) ^ 2)) = mnfw rs c := by
  rw [(nfw_integral hrs (mul_nonneg hc hrs.le)).2, mul_div_assoc, div_self hrs.ne', mul_one]
  rfl

theorem truncated_total {rs R a rcore : ℝ} (hrs : 0 < rs) (hR : 0 ≤ R) (ha : a ≤ 0.3) :
    ∫ r in Ioi (0 : ℝ), 4 * Real.pi * r ^ 2 * gammaRNfwProfile r rs R a 0 rcore true =
      a * (4 * Real.pi * rs ^ 3 * nfwMass (R / rs)) := by
  have e : ∀ r, gammaRNfwProfile r rs R a 0 rcore true = a * (if r ≥ R then 0 else 1 / (r / rs * (1 + r / rs) ^ 2)) := by
    intro r
    unfold gammaRNfwProfile
    simp [min_eq_left ha]
  have e2 : ∀ r ∈ Ioi (0 : ℝ), 4 * Real.pi * r ^ 2 * gammaRNfwProfile r rs R a 0 rcore true =
      (Ioo 0 R).indicator (fun r => a * (4 * Real.pi * r ^ 2 * (1 / (r / rs * (1 + r / rs) ^ 2)))) r := by
    intro r hr
    have hr' : (0 : ℝ) < r := hr
    rw [e]
    by_cases h : r ≥ R
    · rw [if_pos h, indicator_of_notMem (by simp [h])]; simp
    · rw [if_neg h, indicator_of_mem (by exact ⟨hr', not_le.1 h⟩)]; ring
  rw [setIntegral_congr_fun measurableSet_Ioi e2, setIntegral_indicator measurableSet_Ioo,
    show Ioi (0 : ℝ) ∩ Ioo 0 R = Ioo 0 R by ext; simp, ← integral_Ioc_eq_integral_Ioo,
    ← intervalIntegral.integral_of_le hR, intervalIntegral.integral_const_mul, (nfw_integral hrs hR).2]

/-- C103: a truncated profile of constant amplitude `a` integrates to `a` after that normalisation if and only if the
truncation radius is `c` scale radii of the same redshift -/
theorem C103_truncated_normalised (rs R c a rcore : ℝ) (hrs : 0 < rs) (hR : 0 ≤ R) (hc : 0 < c) (ha : a ≤ 0.3) (h0 : a ≠ 0) :
    (∫ r in Ioi (0 : ℝ), 4 * Real.pi * r ^ 2 * gammaRNfwProfile r rs R a 0 rcore true) / mnfw rs c = a ↔ R = c * rs := by
  have hm : 0 < nfwMass c := by
    have := nfwMass_strictMono (show (0 : ℝ) ∈ Ici 0 from self_mem_Ici) (show c ∈ Ici 0 from hc.le) hc
    simpa [nfwMass] using this
  have hpi := Real.pi_pos
  rw [truncated_total hrs hR ha, show mnfw rs c = 4 * Real.pi * rs ^ 3 * nfwMass c from rfl]
  have hk : 4 * Real.pi * rs ^ 3 ≠ 0 := by positivity
  rw [div_eq_iff (mul_ne_zero hk hm.ne'), mul_right_inj' h0, mul_right_inj' hk]
  constructor
  · intro h
    have := nfwMass_strictMono.injOn (show R / rs ∈ Ici 0 from div_nonneg hR hrs.le) (show c ∈ Ici 0 from hc.le) h
    rw [div_eq_iff hrs.ne'] at this
    exact this
  · rintro rfl
    rw [mul_div_assoc, div_self hrs.ne', mul_one]

/-- C103: so with the spectra's radii, where the virial radius of every redshift is `c r_s`, the truncated profile is
normalised exactly at the redshifts where the virial radius is that of the first redshift -/
theorem C103_first_redshift (rs rvir c : ℕ → ℕ → ℝ) (amp : ℕ → ℝ) (rcore : ℝ) (z m : ℕ) (hrs : 0 < rs z m)
    (h0 : 0 ≤ rvir 0 m) (hc : 0 < c z m) (hv : rvir z m = c z m * rs z m) (ha : amp z ≤ 0.3) (ha0 : amp z ≠ 0) :
    (∫ r in Ioi (0 : ℝ), 4 * Real.pi * r ^ 2 * radialProfile rs rvir amp 0 rcore true z m r) / mnfw (rs z m) (c z m) = amp z ↔
      rvir z m = rvir 0 m := by
  rw [hv, eq_comm (a := c z m * rs z m)]
  exact C103_truncated_normalised _ _ _ _ _ hrs h0 hc ha ha0

/-- C103: without truncation (the default) the profile is not integrable: the mass within `R` grows without bound -/
theorem C103_untruncated_diverges (rs rvir a rcore : ℝ) (hrs : 0 < rs) (ha : 0 < a) (ha' : a ≤ 0.3) :
    Tendsto (fun R => ∫ r in (0 : ℝ)..R, 4 * Real.pi * r ^ 2 * gammaRNfwProfile r rs rvir a 0 rcore false) atTop atTop := by
  have hpi := Real.pi_pos
  have e : ∀ r, 4 * Real.pi * r ^ 2 * gammaRNfwProfile r rs rvir a 0 rcore false =
      a * (4 * Real.pi * r ^ 2 * (1 / (r / rs * (1 + r / rs) ^ 2))) := by
    intro r
    unfold gammaRNfwProfile
    simp [min_eq_left ha']
    ring
  have key : Tendsto (fun R : ℝ => a * (4 * Real.pi * rs ^ 3 * nfwMass (R / rs))) atTop atTop := by
    refine Tendsto.const_mul_atTop ha (Tendsto.const_mul_atTop (by positivity) ?_)
    have t1 : Tendsto (fun R : ℝ => Real.log (1 + R / rs) + (-1)) atTop atTop := by
      refine tendsto_atTop_add_const_right _ _ (Real.tendsto_log_atTop.comp ?_)
      exact tendsto_atTop_add_const_left _ _ (tendsto_id.atTop_div_const hrs)
    refine tendsto_atTop_mono' _ ?_ t1
    filter_upwards [eventually_ge_atTop 0] with R hR
    have h0 : 0 ≤ R / rs := div_nonneg hR hrs.le
    have : R / rs / (1 + R / rs) ≤ 1 := (div_le_one (by positivity)).2 (by linarith)
    unfold nfwMass
    linarith
  refine key.congr' ?_
  filter_upwards [eventually_ge_atTop 0] with R hR
  simp only [e]
  rw [intervalIntegral.integral_const_mul, (nfw_integral hrs hR).2]

/-- C103: the two methods compute the same multipoles: the integral of the profile with the spherical Bessel function
`j_l(x) = sqrt(π / 2x) J_{l + 1/2}(x)` and volume element `r²`, over the mass -/
theorem C103_methods_agree (J : ℝ → ℝ → ℝ) (prof : ℝ → ℝ) (m : ℝ) (ell : ℕ) (k : ℝ) (hk : 0 < k) :
    uellHankel J prof m ell k = (∫ r in Ioi 0, prof r * (Real.sqrt (Real.pi / (2 * (k * r))) * J (ell + 0.5) (k * r)) * r ^ 2) / m ∧
    uellFftlog J prof m ell k = (∫ r in Ioi 0, prof r * (Real.sqrt (Real.pi / (2 * (k * r))) * J (ell + 0.5) (k * r)) * r ^ 2) / m := by
  have hpi := Real.pi_pos
  have hk2 : 0 < Real.sqrt k := Real.sqrt_pos.2 hk
  have e1 : k ^ (0.5 : ℝ) = Real.sqrt k := by rw [Real.sqrt_eq_rpow]; norm_num
  have e2 : k ^ (1.5 : ℝ) = k * Real.sqrt k := by
    rw [Real.sqrt_eq_rpow]
    nth_rw 2 [← Real.rpow_one k]
    rw [← Real.rpow_add hk]; norm_num
  have key : ∀ r : ℝ, 0 < r → Real.sqrt (Real.pi / (2 * (k * r))) = Real.sqrt (Real.pi / 2) / (Real.sqrt k * Real.sqrt r) := by
    intro r hr
    rw [show Real.pi / (2 * (k * r)) = Real.pi / 2 / (k * r) by field_simp, Real.sqrt_div (by positivity),
      Real.sqrt_mul hk.le]
  constructor
  · unfold uellHankel hankelTransform
    rw [e1, ← div_div, ← integral_div]
    congr 1
    refine setIntegral_congr_fun measurableSet_Ioi fun r hr => ?_
    have hr' : (0 : ℝ) < r := hr
    have hs : 0 < Real.sqrt r := Real.sqrt_pos.2 hr'
    simp only
    rw [key r hr', show r * Real.pi / 2 = r * (Real.pi / 2) by ring, Real.sqrt_mul hr'.le]
    have : Real.sqrt r * Real.sqrt r = r := Real.mul_self_sqrt hr'.le
    field_simp
    rw [show Real.sqrt r ^ 2 = r by rw [sq]; exact this]
  · unfold uellFftlog fht
    rw [e2, ← div_div, ← integral_div]
    congr 1
    refine setIntegral_congr_fun measurableSet_Ioi fun r hr => ?_
    have hr' : (0 : ℝ) < r := hr
    have hs : 0 < Real.sqrt r := Real.sqrt_pos.2 hr'
    have e3 : r ^ (1.5 : ℝ) = r * Real.sqrt r := by
      rw [Real.sqrt_eq_rpow]
      nth_rw 2 [← Real.rpow_one r]
      rw [← Real.rpow_add hr']; norm_num
    simp only
    rw [key r hr', e3]
    have : Real.sqrt r * Real.sqrt r = r := Real.mul_self_sqrt hr'.le
    field_simp
    rw [show Real.sqrt r ^ 2 = r by rw [sq]; exact this]

/-- radii of this kind: a virial radius that shrinks with redshift -/
example : ∃ (rs rvir c : ℕ → ℕ → ℝ) (amp : ℕ → ℝ), (∀ z m, 0 < rs z m ∧ 0 < c z m ∧ rvir z m = c z m * rs z m ∧
    amp z ≤ 0.3 ∧ amp z ≠ 0) ∧ rvir 1 0 ≠ rvir 0 0 := by
  refine ⟨fun _ _ => 1, fun z _ => 1 / (z + 1), fun z _ => 1 / (z + 1), fun _ => 0.1, fun z m => ⟨one_pos, ?_, ?_, ?_, ?_⟩, ?_⟩
  · positivity
  · simp
  · norm_num
  · norm_num
  · norm_num

end Verif.Ia

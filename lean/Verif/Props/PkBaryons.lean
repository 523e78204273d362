import Verif.Props.PkDamping
import Mathlib.Analysis.SpecialFunctions.Log.Base
import Mathlib.Analysis.SpecificLimits.Basic
import Mathlib.Topology.Algebra.Order.Field

/-! Properties C21–C23: the baryonic feedback profile. -/

namespace Verif.Pk

open Filter Topology Verif.Lib Spectra

theorem mbAgn_pos (s : Spectra) (zv : ℝ) : 0 < s.mbAgn zv := by
  unfold mbAgn; positivity

/-- `fg` is `fg_fit` at the AGN mass scale -/
theorem fg_eq_fit (s : Spectra) (M zv f : ℝ) : s.fg M zv f = s.fgFit M (s.mbAgn zv) f := rfl

theorem withFeedback_eq_fit (s : Spectra) (M ρ u zv : ℝ) :
    s.computeMatterProfileWithFeedback M ρ u zv
      = s.computeMatterProfileFit M ρ u (s.mbAgn zv) (s.fs zv) := rfl

/-! ## C21 -/

/-- C21: range of the gas fraction. -/
theorem C21_gas_fraction_range (s : Spectra) (M Mb f : ℝ) (_hMb : 0 < Mb) (_hm : s.omegaM ≠ 0)
    (hf : f ≤ s.omegaB / s.omegaM) :
    0 ≤ s.fgFit M Mb f ∧ s.fgFit M Mb f ≤ s.omegaB / s.omegaM - f := by
  unfold fgFit
  have hx : 0 ≤ (M / Mb) ^ 2 := sq_nonneg _
  have hR : 0 ≤ s.omegaB / s.omegaM - f := by linarith
  constructor
  · positivity
  · rw [mul_div_assoc]
    refine mul_le_of_le_one_right hR ?_
    rw [div_le_one (by linarith)]
    linarith

/-- C21: same for the HMcode gas fraction. -/
theorem C21_gas_fraction_range_agn (s : Spectra) (M zv f : ℝ) (hm : s.omegaM ≠ 0)
    (hf : f ≤ s.omegaB / s.omegaM) :
    0 ≤ s.fg M zv f ∧ s.fg M zv f ≤ s.omegaB / s.omegaM - f :=
  C21_gas_fraction_range s M _ f (mbAgn_pos s zv) hm hf

/-- C21: the gas fraction increases with halo mass. -/
theorem C21_gas_fraction_strictMono (s : Spectra) (Mb f : ℝ) (hMb : 0 < Mb) (_hm : s.omegaM ≠ 0)
    (hf : f < s.omegaB / s.omegaM) {M M' : ℝ} (hM : 0 ≤ M) (h : M < M') :
    s.fgFit M Mb f < s.fgFit M' Mb f := by
  unfold fgFit
  have hR : 0 < s.omegaB / s.omegaM - f := by linarith
  rw [mul_div_assoc, mul_div_assoc]
  refine mul_lt_mul_of_pos_left ?_ hR
  have hx : (M / Mb) ^ 2 < (M' / Mb) ^ 2 :=
    pow_lt_pow_left₀ (div_lt_div_of_pos_right h hMb) (div_nonneg hM hMb.le) (by norm_num)
  have h0 : 0 ≤ (M / Mb) ^ 2 := sq_nonneg _
  rw [div_lt_div_iff₀ (by linarith) (by linarith)]
  nlinarith

/-- C21: half of the reservoir is kept at the pivot mass. -/
theorem C21_half_at_pivot (s : Spectra) (Mb f : ℝ) (hMb : Mb ≠ 0) (_hm : s.omegaM ≠ 0) :
    s.fgFit Mb Mb f = (s.omegaB / s.omegaM - f) / 2 := by
  unfold fgFit; rw [div_self hMb]; norm_num

/-- C21: large-scale amplitude of the profile: the mass minus the expelled gas, and its mass budget. -/
theorem C21_large_scale_amplitude (s : Spectra) (M ρ Mb f : ℝ) (_hMb : 0 < Mb) (_hρ : ρ ≠ 0)
    (hm : s.omegaM ≠ 0) (hsum : s.omegaM = s.omegaC + s.omegaB) :
    s.computeMatterProfileFit M ρ 1 Mb f
      = (1 - (s.omegaB / s.omegaM - f) / (1 + (M / Mb) ^ 2)) * (M / ρ) := by
  unfold computeMatterProfileFit fgFit
  have hx : (1 + (M / Mb) ^ 2) ≠ 0 := by positivity
  have hc : s.omegaC / s.omegaM = 1 - s.omegaB / s.omegaM := by field_simp; linarith
  rw [hc]
  set x := (M / Mb) ^ 2
  set B := s.omegaB / s.omegaM
  have : (B - f) * x / (1 + x) = (B - f) - (B - f) / (1 + x) := by field_simp; ring
  rw [this]; ring

/-- C21: a halo never contains more than its own mass. -/
theorem C21_at_most_own_mass (s : Spectra) (M ρ Mb f : ℝ) (hM : 0 ≤ M) (hρ : 0 < ρ) (hMb : 0 < Mb)
    (hm : s.omegaM ≠ 0) (hsum : s.omegaM = s.omegaC + s.omegaB) (hf : f ≤ s.omegaB / s.omegaM) :
    s.computeMatterProfileFit M ρ 1 Mb f ≤ M / ρ := by
  rw [C21_large_scale_amplitude s M ρ Mb f hMb hρ.ne' hm hsum]
  have h1 : 0 ≤ M / ρ := by positivity
  have h2 : 0 ≤ (s.omegaB / s.omegaM - f) / (1 + (M / Mb) ^ 2) :=
    div_nonneg (by linarith) (by positivity)
  nlinarith

/-- C21: massive halos keep all their gas. -/
theorem C21_massive_limit (s : Spectra) (ρ Mb f : ℝ) (hMb : 0 < Mb) (hρ : ρ ≠ 0) (hm : s.omegaM ≠ 0)
    (hsum : s.omegaM = s.omegaC + s.omegaB) :
    Tendsto (fun M => s.computeMatterProfileFit M ρ 1 Mb f / (M / ρ)) atTop (𝓝 1) := by
  have e : (fun M => 1 - (s.omegaB / s.omegaM - f) / (1 + (M / Mb) ^ 2))
      =ᶠ[atTop] fun M => s.computeMatterProfileFit M ρ 1 Mb f / (M / ρ) := by
    filter_upwards [eventually_gt_atTop 0] with M hM
    rw [C21_large_scale_amplitude s M ρ Mb f hMb hρ hm hsum,
      mul_div_cancel_right₀ _ (div_ne_zero hM.ne' hρ)]
  refine Tendsto.congr' e ?_
  have h1 : Tendsto (fun M : ℝ => 1 + (M / Mb) ^ 2) atTop atTop := by
    refine tendsto_atTop_add_const_left _ _ ?_
    exact (tendsto_pow_atTop (by norm_num)).comp (tendsto_id.atTop_div_const hMb)
  have h2 := h1.const_div_atTop (s.omegaB / s.omegaM - f)
  simpa using (tendsto_const_nhds (x := (1 : ℝ))).sub h2

/-- C21: all of the above for the HMcode feedback profile (its pivot is `mbAgn`, its stars are `fs`). -/
theorem C21_agn_profile (s : Spectra) (M ρ zv : ℝ) (hM : 0 ≤ M) (hρ : 0 < ρ)
    (hm : s.omegaM ≠ 0) (hsum : s.omegaM = s.omegaC + s.omegaB) (hf : s.fs zv ≤ s.omegaB / s.omegaM) :
    s.computeMatterProfileWithFeedback M ρ 1 zv
        = (1 - (s.omegaB / s.omegaM - s.fs zv) / (1 + (M / s.mbAgn zv) ^ 2)) * (M / ρ) ∧
      s.computeMatterProfileWithFeedback M ρ 1 zv ≤ M / ρ ∧
      Tendsto (fun M => s.computeMatterProfileWithFeedback M ρ 1 zv / (M / ρ)) atTop (𝓝 1) :=
  ⟨C21_large_scale_amplitude s M ρ _ _ (mbAgn_pos s zv) hρ.ne' hm hsum,
    C21_at_most_own_mass s M ρ _ _ hM hρ (mbAgn_pos s zv) hm hsum hf,
    C21_massive_limit s ρ _ _ (mbAgn_pos s zv) hρ.ne' hm hsum⟩

example : demo.omegaM ≠ 0 ∧ demo.omegaM = demo.omegaC + demo.omegaB ∧ (0.01 : ℝ) < demo.omegaB / demo.omegaM ∧
    demo.fs 0 ≤ demo.omegaB / demo.omegaM := by
  refine ⟨?_, ?_, ?_, ?_⟩ <;> simp only [demo, fs] <;> norm_num

/-! ## C22 -/

/-- C22: exactly when the documented bound `0 < f* < Ω_b/Ω_m` holds, for AGN temperatures where the
present-day stellar fraction is positive (`log10T_AGN < 14.5`) and its growth exponent positive. -/
theorem C22_documented_bound_iff (s : Spectra) (zv : ℝ) (hm : 0 < s.omegaM) (hb : 0 < s.omegaB)
    (hA : 0 < (2.01 - 0.3 * (s.log10TAGN - 7.8)) * 0.01)
    (hB : 0 < 0.409 + 0.0224 * (s.log10TAGN - 7.8)) :
    (0 < s.fs zv ∧ s.fs zv < s.omegaB / s.omegaM) ↔
      zv < Real.logb 10 (s.omegaB / s.omegaM / ((2.01 - 0.3 * (s.log10TAGN - 7.8)) * 0.01))
        / (0.409 + 0.0224 * (s.log10TAGN - 7.8)) := by
  unfold fs
  set A := (2.01 - 0.3 * (s.log10TAGN - 7.8)) * 0.01
  set B := 0.409 + 0.0224 * (s.log10TAGN - 7.8)
  have hR : 0 < s.omegaB / s.omegaM := div_pos hb hm
  rw [and_iff_right (by positivity), lt_div_iff₀ hB, Real.lt_logb_iff_rpow_lt (by norm_num) (div_pos hR hA),
    lt_div_iff₀ hA, mul_comm]

/-- C22: the stellar fraction is not positive for `log10T_AGN ≥ 14.5`. -/
theorem C22_sign (s : Spectra) (zv : ℝ) : 0 < s.fs zv ↔ s.log10TAGN < 14.5 := by
  unfold fs
  rw [mul_pos_iff_of_pos_right (by positivity), mul_pos_iff_of_pos_right (by norm_num)]
  constructor <;> intro h <;> linarith

/-- C22: the bound fails at `z = 3` (last default redshift) for the default cosmology and AGN temperature;
the gas fraction is negative at every mass and the halo has more than its own mass on large scales. -/
theorem C22_fails_at_default (s : Spectra) (hc : s.omegaC = 0.25) (hb : s.omegaB = 0.05)
    (hm : s.omegaM = s.omegaC + s.omegaB) (hT : s.log10TAGN = 7.8) :
    s.omegaB / s.omegaM < s.fs 3 ∧
      ∀ M ρ, 0 < M → 0 < ρ → s.fg M 3 (s.fs 3) < 0 ∧
        M / ρ < s.computeMatterProfileWithFeedback M ρ 1 3 := by
  have hfs : s.omegaB / s.omegaM < s.fs 3 := by
    rw [hm, hc, hb]
    unfold fs
    rw [hT]
    have h : (10 : ℝ) < 10 ^ ((3 : ℝ) * (0.409 + 0.0224 * (7.8 - 7.8))) := by
      conv_lhs => rw [← Real.rpow_one (10 : ℝ)]
      exact Real.rpow_lt_rpow_of_exponent_lt (by norm_num) (by norm_num)
    norm_num at h ⊢
    linarith
  refine ⟨hfs, fun M ρ hM hρ => ?_⟩
  have hm0 : s.omegaM ≠ 0 := by rw [hm, hc, hb]; norm_num
  have hx : 0 < (M / s.mbAgn 3) ^ 2 := pow_pos (div_pos hM (mbAgn_pos s 3)) 2
  constructor
  · unfold fg
    rw [mul_div_assoc]
    exact mul_neg_of_neg_of_pos (by linarith) (by positivity)
  · rw [withFeedback_eq_fit, C21_large_scale_amplitude s M ρ _ _ (mbAgn_pos s 3) hρ.ne' hm0 hm]
    have h1 : 0 < M / ρ := by positivity
    have h2 : (s.omegaB / s.omegaM - s.fs 3) / (1 + (M / s.mbAgn 3) ^ 2) < 0 :=
      div_neg_of_neg_of_pos (by linarith) (by positivity)
    nlinarith

example : demo.omegaC = 0.25 ∧ demo.omegaB = 0.05 ∧ demo.omegaM = demo.omegaC + demo.omegaB ∧
    demo.log10TAGN = 7.8 ∧ 0 < (2.01 - 0.3 * (demo.log10TAGN - 7.8)) * 0.01 ∧
    0 < 0.409 + 0.0224 * (demo.log10TAGN - 7.8) := by
  refine ⟨rfl, rfl, ?_, rfl, ?_, ?_⟩ <;> simp only [demo] <;> norm_num

/-! ## C23 -/

/-- C23: with the constructor default `mb=13.87` every halo above `10^9` keeps at least `1 − 10⁻¹⁵` of its
gas reservoir. -/
theorem C23_default_pivot_expels_nothing (s : Spectra) (hmb : s.mb = 13.87) (M f : ℝ) (hM : 1e9 ≤ M)
    (_hm : s.omegaM ≠ 0) (hf : f ≤ s.omegaB / s.omegaM) :
    (1 - 1e-15) * (s.omegaB / s.omegaM - f) ≤ s.fgFit M s.mb f := by
  unfold fgFit
  rw [hmb, mul_div_assoc, mul_comm]
  refine mul_le_mul_of_nonneg_left ?_ (by linarith)
  have hx : (1e15 : ℝ) ≤ (M / 13.87) ^ 2 := by
    have h1 : (4e7 : ℝ) ≤ M / 13.87 := by rw [le_div_iff₀ (by norm_num)]; linarith
    calc (1e15 : ℝ) ≤ 4e7 ^ 2 := by norm_num
      _ ≤ _ := pow_le_pow_left₀ (by norm_num) h1 2
  rw [le_div_iff₀ (by linarith)]
  nlinarith

/-- C23: the same pivot given as a mass, `10^13.87`, would expel half of the gas of a halo of that mass. -/
theorem C23_intended_pivot (s : Spectra) (f : ℝ) (hm : s.omegaM ≠ 0) :
    s.fgFit (10 ^ (13.87 : ℝ)) (10 ^ (13.87 : ℝ)) f = (s.omegaB / s.omegaM - f) / 2 :=
  C21_half_at_pivot s _ f (by positivity) hm

/-- C23: what the user sees: the default 'fit' matter profile of a halo above `10^9` has, on large scales,
within `10⁻¹⁵` of the baryon reservoir the mass of a halo that lost nothing. -/
theorem C23_default_profile (s : Spectra) (hmb : s.mb = 13.87) (M ρ f : ℝ) (hM : 1e9 ≤ M) (hρ : 0 < ρ)
    (hm : s.omegaM ≠ 0) (hsum : s.omegaM = s.omegaC + s.omegaB) (hf : f ≤ s.omegaB / s.omegaM) :
    (1 - 1e-15 * (s.omegaB / s.omegaM - f)) * (M / ρ) ≤ s.computeMatterProfileFit M ρ 1 s.mb f ∧
      s.computeMatterProfileFit M ρ 1 s.mb f ≤ M / ρ := by
  have hmb' : 0 < s.mb := by rw [hmb]; norm_num
  have hM0 : 0 ≤ M := le_trans (by norm_num) hM
  refine ⟨?_, C21_at_most_own_mass s M ρ _ f hM0 hρ hmb' hm hsum hf⟩
  have h := C23_default_pivot_expels_nothing s hmb M f hM hm hf
  have hc : s.omegaC / s.omegaM = 1 - s.omegaB / s.omegaM := by field_simp; linarith
  have hMρ : 0 ≤ M / ρ := by positivity
  unfold computeMatterProfileFit
  rw [hc]
  nlinarith

example : demo.mb = 13.87 ∧ (1e9 : ℝ) ≤ 1e12 ∧ (0.01 : ℝ) ≤ demo.omegaB / demo.omegaM := by
  refine ⟨rfl, by norm_num, ?_⟩
  simp only [demo]; norm_num

end Verif.Pk

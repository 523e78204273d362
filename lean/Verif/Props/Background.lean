import Verif.Model.Background
import Mathlib.Analysis.SpecialFunctions.Integrals.Basic
import Mathlib.Analysis.SpecialFunctions.ExpDeriv
import Mathlib.Tactic.Linarith
import Mathlib.Tactic.NormNum
import Mathlib.Tactic.Positivity

/-! Properties C64, C65, C78: background functions, growth equation and collapse fits. -/

namespace Verif.Background

variable (c : DarkEnergy)

/-- C64: scale factors lie in (0, 1] for every redshift z >= 0, are 1 today and decrease with redshift. -/
theorem C64_scale_factor (z z' : ℝ) (h : 0 ≤ z) (h' : z < z') :
    0 < scaleFactor z ∧ scaleFactor z ≤ 1 ∧ scaleFactor 0 = 1 ∧ scaleFactor z' < scaleFactor z ∧
      -1 + 1 / scaleFactor z = z := by
  have h1 : 0 < 1 + z := by linarith
  unfold scaleFactor
  refine ⟨by positivity, ?_, by norm_num, ?_, ?_⟩
  · rw [div_le_one h1]; linarith
  · exact one_div_lt_one_div_of_lt h1 (by linarith)
  · rw [one_div_one_div]; ring

/-- the dark energy density as a function of the scale factor -/
theorem deScale_eq (a : ℝ) (ha : 0 < a) : c.deScale (-1 + 1 / a) =
    a ^ (-(3 * (1 + c.w0 + c.wa))) * Real.exp (-3 * c.wa * (1 - a)) := by
  unfold DarkEnergy.deScale
  rw [show 1 + (-1 + 1 / a) = a⁻¹ by rw [one_div]; ring, Real.inv_rpow ha.le, ← Real.rpow_neg ha.le]
  congr 2
  field_simp
  ring

theorem deScale_pos (a : ℝ) (ha : 0 < a) : 0 < c.deScale (-1 + 1 / a) := by
  rw [deScale_eq c a ha]; positivity

theorem w_eq (a : ℝ) (ha : 0 < a) : c.w (-1 + 1 / a) = c.w0 + c.wa * (1 - a) := by
  unfold DarkEnergy.w
  field_simp
  ring

/-- C64: today's expansion rate is 1 if the densities add up to 1, and then today's matter fraction is the
input. -/
theorem C64_today (Om Ode Ok : ℝ) (h : Om + Ode + Ok = 1) :
    hubble2 c 1 Om Ode Ok = 1 ∧ omegaM c 1 Om Ode Ok = Om := by
  have : hubble2 c 1 Om Ode Ok = 1 := by
    simp only [hubble2, deScale_eq c 1 one_pos]
    simp [h]
  exact ⟨this, by simp [omegaM, this]⟩

/-- C64: at every time the expansion rate is positive and the matter fraction lies in (0, 1]; it is below 1
when there is dark energy. -/
theorem C64_matter_fraction (a Om Ode : ℝ) (ha : 0 < a) (hm : 0 < Om) (hde : 0 ≤ Ode) :
    0 < hubble2 c a Om Ode 0 ∧ 0 < omegaM c a Om Ode 0 ∧ omegaM c a Om Ode 0 ≤ 1 ∧
      (0 < Ode → omegaM c a Om Ode 0 < 1) := by
  have h1 : 0 < Om * a ^ (-3 : ℤ) := by positivity
  have h2 := deScale_pos c a ha
  have hH : hubble2 c a Om Ode 0 = Om * a ^ (-3 : ℤ) + Ode * c.deScale (-1 + 1 / a) := by
    simp [hubble2]
  have h3 : 0 < hubble2 c a Om Ode 0 := by rw [hH]; positivity
  refine ⟨h3, div_pos h1 h3, ?_, fun hd => ?_⟩
  · rw [omegaM, div_le_one h3, hH]
    have : 0 ≤ Ode * c.deScale (-1 + 1 / a) := by positivity
    linarith
  · rw [omegaM, div_lt_one h3, hH]
    have : 0 < Ode * c.deScale (-1 + 1 / a) := by positivity
    linarith

/-- C78: the acceleration function is the one that belongs to the expansion rate (`ä/a = H² + a/2 dH²/da`), for
every dark energy model, every density and also with curvature. -/
theorem C78_acceleration (a Om Ode Ok : ℝ) (ha : 0 < a) :
    HasDerivAt (fun x => hubble2 c x Om Ode Ok) (2 * (ah c a Om Ode - hubble2 c a Om Ode Ok) / a) a := by
  have hm : HasDerivAt (fun x : ℝ => Om * x ^ (-3 : ℤ)) (Om * ((-3 : ℤ) * a ^ (-3 - 1 : ℤ))) a :=
    (hasDerivAt_zpow (-3) a (Or.inl ha.ne')).const_mul Om
  have hk : HasDerivAt (fun x : ℝ => Ok * x ^ (-2 : ℤ)) (Ok * ((-2 : ℤ) * a ^ (-2 - 1 : ℤ))) a :=
    (hasDerivAt_zpow (-2) a (Or.inl ha.ne')).const_mul Ok
  have hd : HasDerivAt (fun x : ℝ => x ^ (-(3 * (1 + c.w0 + c.wa))) * Real.exp (-3 * c.wa * (1 - x)))
      ((-(3 * (1 + c.w0 + c.wa))) * a ^ (-(3 * (1 + c.w0 + c.wa)) - 1) * Real.exp (-3 * c.wa * (1 - a)) +
        a ^ (-(3 * (1 + c.w0 + c.wa))) * (Real.exp (-3 * c.wa * (1 - a)) * (3 * c.wa))) a := by
    have h1 := Real.hasDerivAt_rpow_const (p := -(3 * (1 + c.w0 + c.wa))) (Or.inl ha.ne')
    have h2 : HasDerivAt (fun x : ℝ => -3 * c.wa * (1 - x)) (3 * c.wa) a := by
      have := ((hasDerivAt_id a).const_sub 1).const_mul (-3 * c.wa)
      simpa using this
    exact h1.mul h2.exp
  have hsum := (hm.add (hd.const_mul Ode)).add hk
  have hev : (fun x => hubble2 c x Om Ode Ok) =ᶠ[nhds a] fun x =>
      Om * x ^ (-3 : ℤ) + Ode * (x ^ (-(3 * (1 + c.w0 + c.wa))) * Real.exp (-3 * c.wa * (1 - x))) +
        Ok * x ^ (-2 : ℤ) := by
    filter_upwards [lt_mem_nhds ha] with x hx
    simp only [hubble2, deScale_eq c x hx]
  refine (hsum.congr_of_eventuallyEq hev).congr_deriv ?_
  simp only [hubble2, ah, deScale_eq c a ha, w_eq c a ha]
  rw [Real.rpow_sub_one ha.ne']
  set X := a ^ (-(3 * (1 + c.w0 + c.wa)))
  set E := Real.exp (-3 * c.wa * (1 - a))
  rw [show (-3 - 1 : ℤ) = -4 by norm_num, show (-2 - 1 : ℤ) = -3 by norm_num]
  simp only [zpow_neg]
  norm_cast
  push_cast
  field_simp
  ring

/-- C64: the growth equation is the standard one: with D' = v, `growthRhs` gives
`D'' = -(3 + dlnH/dlna) D'/a + (3/2) Ω_m D / a²`, where `dlnH/dlna = a (dH²/da) / (2 H²)`. -/
theorem C64_growth_equation (a Om Ode Ok H2' : ℝ) (ha : 0 < a) (hH : hubble2 c a Om Ode Ok ≠ 0)
    (hd : HasDerivAt (fun x => hubble2 c x Om Ode Ok) H2' a) (y : ℝ × ℝ) :
    growthRhs c Om Ode Ok a y = (y.2, -(3 + a * H2' / (2 * hubble2 c a Om Ode Ok)) * y.2 / a
      + 3 / 2 * omegaM c a Om Ode Ok * y.1 / a ^ 2) := by
  have := hd.unique (C78_acceleration c a Om Ode Ok ha)
  rw [this]
  unfold growthRhs
  simp only [Prod.mk.injEq, true_and]
  field_simp
  ring

/-- C64: in an Einstein-de Sitter universe D = a solves the growth equation at all times and meets the initial
conditions. -/
theorem C64_einstein_de_sitter (a : ℝ) (ha : 0 < a) :
    growthRhs c 1 0 0 a (a, 1) = (1, 0) ∧ growthInit c 1 0 0 = (aInit, 1) := by
  have hH : ∀ a : ℝ, hubble2 c a 1 0 0 = a ^ (-3 : ℤ) := by intro a; simp [hubble2]
  have hO : ∀ a : ℝ, 0 < a → omegaM c a 1 0 0 = 1 := by
    intro a ha
    rw [omegaM, hH, one_mul, div_self (by positivity)]
  constructor
  · simp only [growthRhs, hO a ha, hH, ah]
    have h3 : a ^ (-3 : ℤ) ≠ 0 := by positivity
    simp only [Prod.mk.injEq, true_and, mul_zero, zero_mul, add_zero, one_mul]
    rw [mul_div_assoc (-0.5 : ℝ), div_self h3]
    field_simp
    norm_num
  · have h0 : (0 : ℝ) < aInit := by norm_num [aInit]
    simp only [growthInit, fInit, hO aInit h0]
    norm_num

/-- C64: the two initial values belong together: `v_init` is the derivative of the early solution
`a^(1 - 3f/5)` whose value is `d_init`. -/
theorem C64_initial_slope (Om Ode Ok : ℝ) :
    HasDerivAt (fun a : ℝ => a ^ (1 - 3 * fInit c Om Ode Ok / 5)) (growthInit c Om Ode Ok).2 aInit ∧
    (growthInit c Om Ode Ok).1 = aInit ^ (1 - 3 * fInit c Om Ode Ok / 5) := by
  have h0 : (0 : ℝ) < aInit := by norm_num [aInit]
  refine ⟨?_, rfl⟩
  have := Real.hasDerivAt_rpow_const (x := aInit) (p := 1 - 3 * fInit c Om Ode Ok / 5) (Or.inl h0.ne')
  refine this.congr_deriv ?_
  simp only [growthInit]
  congr 2
  ring

/-- C64: for Einstein-de Sitter growth the accumulated growth is the scale factor too. -/
theorem C64_accumulated_eds (a : ℝ) (ha : aInit ≤ a) : accumulatedGrowth (fun a => a) a = a := by
  have h0 : (0 : ℝ) < aInit := by norm_num [aInit]
  have : ∫ x in aInit..a, x / x = ∫ _ in aInit..a, (1 : ℝ) := by
    refine intervalIntegral.integral_congr fun x hx => ?_
    rw [Set.uIcc_of_le ha] at hx
    exact div_self (by linarith [hx.1])
  rw [accumulatedGrowth, this]
  simp

/-- C64: when growth is suppressed with time (g/a does not increase), the accumulated growth is suppressed
less: G/a >= g/a. -/
theorem C64_accumulated_bound (g : ℝ → ℝ) (a : ℝ) (ha : aInit ≤ a) (hc : ContinuousOn g (Set.Icc aInit a))
    (hg : ∀ x ∈ Set.Icc aInit a, g a / a ≤ g x / x) : g a / a ≤ accumulatedGrowth g a / a := by
  have h0 : (0 : ℝ) < aInit := by norm_num [aInit]
  have ha0 : 0 < a := by linarith
  have hint : IntervalIntegrable (fun x => g x / x) MeasureTheory.volume aInit a := by
    refine ContinuousOn.intervalIntegrable ?_
    rw [Set.uIcc_of_le ha]
    exact hc.div continuousOn_id fun x hx => ne_of_gt (lt_of_lt_of_le h0 hx.1)
  have h1 : ∫ _ in aInit..a, g a / a ≤ ∫ x in aInit..a, g x / x :=
    intervalIntegral.integral_mono_on ha intervalIntegrable_const hint hg
  have h2 := hg aInit ⟨le_rfl, ha⟩
  rw [le_div_iff₀ h0] at h2
  simp only [intervalIntegral.integral_const, smul_eq_mul] at h1
  refine div_le_div_of_nonneg_right ?_ ha0.le
  unfold accumulatedGrowth
  have : g a = (a - aInit) * (g a / a) + g a / a * aInit := by field_simp; ring
  linarith

/-- the hypothesis is met by a growth function that is really suppressed -/
example : ContinuousOn (fun a : ℝ => a * (2 - a)) (Set.Icc aInit 1) ∧
    ∀ x ∈ Set.Icc aInit 1, (1 * (2 - 1) : ℝ) / 1 ≤ x * (2 - x) / x := by
  refine ⟨by fun_prop, fun x hx => ?_⟩
  have h0 : (0 : ℝ) < x := lt_of_lt_of_le (by norm_num [aInit]) hx.1
  rw [mul_div_cancel_left₀ _ h0.ne']
  linarith [hx.2]

/-- C65: with Einstein-de Sitter growth and Ω_m = 1 the fits reduce to redshift-independent constants: the
virial overdensity to 18π² and the collapse threshold to 1.0001 times (3/20)(12π)^(2/3), up to the neutrino
factors. -/
theorem C65_einstein_de_sitter (a fnu : ℝ) (ha : 0 < a) :
    dvMead a a a 1 fnu = 18 * Real.pi ^ 2 * (1 + 0.763 * fnu) ∧
    dcMead a a a 1 fnu = 1.0001 * (3 / 20 * (12 * Real.pi) ^ (2 / 3 : ℝ)) * (1 - 0.041 * fnu) := by
  constructor
  · simp only [dvMead, fMead, div_self ha.ne', Real.logb_one]; norm_num
  · simp only [dcMead, fMead, div_self ha.ne', Real.logb_one]; norm_num

/-- C65: for growth suppressed by at most one half (or enhanced by at most 1%) and Ω_m >= 0.2 the collapse threshold stays within 5% of the
Einstein-de Sitter value (1 - 0.041 f_nu) (3/20)(12π)^(2/3). -/
theorem C65_threshold_bounds (g G a Om fnu : ℝ) (hx : 1 / 2 ≤ g / a ∧ g / a ≤ 1.01)
    (hy : 1 / 2 ≤ G / a ∧ G / a ≤ 1.01)
    (hO : 0.2 ≤ Om ∧ Om ≤ 1) (hf : 0 ≤ fnu ∧ fnu ≤ 1) :
    |dcMead g G a Om fnu - 3 / 20 * (12 * Real.pi) ^ (2 / 3 : ℝ) * (1 - 0.041 * fnu)| ≤
      0.05 * (3 / 20 * (12 * Real.pi) ^ (2 / 3 : ℝ) * (1 - 0.041 * fnu)) := by
  have hL : -0.7 ≤ Real.logb 10 Om ∧ Real.logb 10 Om ≤ 0 := by
    constructor
    · rw [Real.le_logb_iff_rpow_le (by norm_num) (by linarith)]
      refine le_trans ?_ hO.1
      rw [show (-0.7 : ℝ) = -(7 / 10) by norm_num, Real.rpow_neg (by norm_num), show (0.2 : ℝ) = 5⁻¹ by norm_num]
      refine inv_anti₀ (by norm_num) ?_
      refine le_of_pow_le_pow_left₀ (n := 10) (by norm_num) (by positivity) ?_
      rw [← Real.rpow_natCast, ← Real.rpow_natCast, ← Real.rpow_mul (by norm_num)]
      norm_num
    · exact Real.logb_nonpos (by norm_num) (by linarith [hO.1]) hO.2
  set L := Real.logb 10 Om
  set x := g / a
  set y := G / a
  set D := 3 / 20 * (12 * Real.pi) ^ (2 / 3 : ℝ) with hD
  have hDp : 0 < D * (1 - 0.041 * fnu) := by
    have : 0 < Real.pi := Real.pi_pos
    have : 0 < 1 - 0.041 * fnu := by norm_num; linarith [hf.2]
    positivity
  have key : |fMead x y (-0.0069) (-0.0208) 0.0312 0.0021 * L ^ 1 +
      fMead x y 0.0001 (-0.0647) (-0.0417) 0.0646 * L ^ 0| ≤ 0.05 := by
    obtain ⟨u, hu⟩ : ∃ u, u = 1 - x := ⟨_, rfl⟩
    obtain ⟨v, hv⟩ : ∃ v, v = 1 - y := ⟨_, rfl⟩
    have hu1 : -0.01 ≤ u := by linarith [hx.2]
    have hu2 : u ≤ 1 / 2 := by linarith [hx.1]
    have hv1 : -0.01 ≤ v := by linarith [hy.2]
    have hv2 : v ≤ 1 / 2 := by linarith [hy.1]
    simp only [fMead, ← hu, ← hv, pow_one, pow_zero, mul_one]
    have hsq : 0 ≤ u ^ 2 ∧ u ^ 2 ≤ 1 / 4 := by
      norm_num at hu1
      constructor <;> nlinarith
    have hf1 : -0.01042 ≤ -0.0069 + -0.0208 * u + 0.0312 * u ^ 2 + 0.0021 * v := by
      nlinarith [sq_nonneg (u - 1 / 3)]
    have hf1' : -0.0069 + -0.0208 * u + 0.0312 * u ^ 2 + 0.0021 * v ≤ 0 := by
      norm_num; nlinarith
    set F := -0.0069 + -0.0208 * u + 0.0312 * u ^ 2 + 0.0021 * v
    have hFL : 0 ≤ F * L ∧ F * L ≤ 0.0073 := by
      constructor
      · nlinarith [hL.2]
      · norm_num at *; nlinarith [hL.1, hL.2]
    rw [abs_le]
    constructor <;> norm_num at * <;> linarith [hFL.1, hFL.2]
  have e : dcMead g G a Om fnu - D * (1 - 0.041 * fnu) =
      (fMead x y (-0.0069) (-0.0208) 0.0312 0.0021 * L ^ 1 +
      fMead x y 0.0001 (-0.0647) (-0.0417) 0.0646 * L ^ 0) * (D * (1 - 0.041 * fnu)) := by
    simp only [dcMead]
    ring
  rw [e, abs_mul, abs_of_pos hDp]
  exact mul_le_mul_of_nonneg_right key hDp.le

/-- C65: the neutrino factors act in opposite directions: massive neutrinos lower the collapse threshold and
raise the virial overdensity (for a positive fit). -/
theorem C65_neutrinos (g G a Om f f' : ℝ) (h : f < f') :
    (0 < dcMead g G a Om 0 → dcMead g G a Om f' < dcMead g G a Om f) ∧
    (0 < dvMead g G a Om 0 → dvMead g G a Om f < dvMead g G a Om f') := by
  have e1 : ∀ f, dcMead g G a Om f = dcMead g G a Om 0 * (1 - 0.041 * f) := by
    intro f; simp only [dcMead]; ring
  have e2 : ∀ f, dvMead g G a Om f = dvMead g G a Om 0 * (1 + 0.763 * f) := by
    intro f; simp only [dvMead]; ring
  rw [e1 f, e1 f', e2 f, e2 f']
  constructor
  · intro hp
    exact mul_lt_mul_of_pos_left (by norm_num; linarith) hp
  · intro hp
    exact mul_lt_mul_of_pos_left (by norm_num; linarith) hp

example : 0 < dcMead 1 1 1 1 0 ∧ 0 < dvMead 1 1 1 1 0 := by
  have hp := Real.pi_pos
  obtain ⟨h1, h2⟩ := C65_einstein_de_sitter 1 0 one_pos
  rw [h1, h2]
  constructor
  · norm_num; positivity
  · norm_num; positivity

end Verif.Background

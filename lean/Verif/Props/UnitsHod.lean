import Verif.Spec.UnitsHod
import Verif.Props.Units
import Verif.Props.HodBase

/-! Property C135 for the occupation models. -/

namespace Verif.Units

open Verif.Hod Verif.Lib

theorem interp1d_units (fill : Fill) (hf : fill = .extrapolate ∨ fill = .value 0) (c : ℝ) (n : ℕ) (x y y' : ℕ → ℝ)
    (h : ∀ i, y' i = c * y i) (q : ℝ) : interp1d fill n x y' q = c * interp1d fill n x y q := by
  have e : interpLinear n x y' q = c * interpLinear n x y q := by
    unfold interpLinear
    rw [h, h]
    ring
  rcases hf with rfl | rfl
  · exact e
  · unfold interp1d
    dsimp only
    split_ifs
    · ring
    · exact e

variable {a m w : ℝ}

theorem heaviside_scale (hm : 0 < m) (x c : ℝ) : heaviside (m * x) c = heaviside x c := by
  unfold heaviside
  have e1 : m * x < 0 ↔ x < 0 := ⟨fun h => by
    by_contra hx
    exact absurd (mul_nonneg hm.le (not_lt.1 hx)) (not_le.2 h), fun h => mul_neg_of_pos_of_neg hm h⟩
  have e2 : m * x = 0 ↔ x = 0 := by simp [hm.ne']
  simp only [e1, e2]

theorem ten_shift (hm : 0 < m) (x : ℝ) : (10 : ℝ) ^ (x + log10 m) = m * (10 : ℝ) ^ x := by
  unfold log10
  rw [Real.rpow_add (by norm_num), Real.rpow_logb (by norm_num) (by norm_num) hm, mul_comm]

theorem log_shift (hm : 0 < m) {x : ℝ} (hx : 0 < x) (c : ℝ) : log10 (m * x) - (c + log10 m) = log10 x - c := by
  unfold log10
  rw [Real.logb_mul hm.ne' hx.ne']
  ring

/-- the occupations of `Simple` and `Zehavi` are the same numbers in any unit of mass -/
theorem C135_step (hm : 0 < m) (p : StepParams) (M : ℝ) :
    simpleCen (stepInUnits m p) (m * M) = simpleCen p M ∧ simpleSat (stepInUnits m p) (m * M) = simpleSat p M ∧
    zehaviCen (stepInUnits m p) (m * M) = zehaviCen p M ∧ zehaviSat (stepInUnits m p) (m * M) = zehaviSat p M := by
  have c : simpleCen (stepInUnits m p) (m * M) = simpleCen p M := by
    unfold simpleCen stepInUnits
    dsimp only
    rw [ten_shift hm, ← mul_sub, heaviside_scale hm]
  have r : m * M / (10 : ℝ) ^ (p.log10Msat + log10 m) = M / (10 : ℝ) ^ p.log10Msat := by
    rw [ten_shift hm, mul_div_mul_left _ _ hm.ne']
  refine ⟨c, ?_, c, ?_⟩
  · unfold simpleSat
    rw [c]
    show decorateSat p.aSat (simpleCen p M * (m * M / (10 : ℝ) ^ (p.log10Msat + log10 m)) ^ p.alpha) = _
    rw [r]
  · show decorateSat p.aSat ((m * M / (10 : ℝ) ^ (p.log10Msat + log10 m)) ^ p.alpha) = _
    rw [r]
    rfl

theorem erf_cen (hm : 0 < m) (l σ M : ℝ) : erfCen (l + log10 m) σ (m * M) = erfCen l σ M := by
  unfold erfCen
  rw [ten_shift hm, ← mul_sub, heaviside_scale hm, mul_div_mul_left _ _ hm.ne']

/-- the occupations of `Zheng` are the same numbers in any unit of mass -/
theorem C135_zheng (hm : 0 < m) (p : ZhengParams) (M : ℝ) :
    zhengCen (zhengInUnits m p) (m * M) = zhengCen p M ∧ zhengSat (zhengInUnits m p) (m * M) = zhengSat p M := by
  constructor
  · exact congrArg (decorateCen p.aCen) (erf_cen hm _ _ _)
  · refine congrArg (fun x => decorateSat p.aSat (x ^ p.alpha)) ?_
    show heaviside (m * M - (10 : ℝ) ^ (p.log10M0 + log10 m)) 1 * (m * M - (10 : ℝ) ^ (p.log10M0 + log10 m)) /
      (10 : ℝ) ^ (p.log10M1 + log10 m) = _
    rw [ten_shift hm, ten_shift hm, ← mul_sub, heaviside_scale hm, mul_left_comm, mul_div_mul_left _ _ hm.ne']

/-- the occupations of `Zhai` are the same numbers in any unit of mass -/
theorem C135_zhai (hm : 0 < m) (p : ZhaiParams) (M : ℝ) :
    zhaiCen (zhaiInUnits m p) (m * M) = zhaiCen p M ∧ zhaiSat (zhaiInUnits m p) (m * M) = zhaiSat p M := by
  constructor
  · exact congrArg (decorateCen p.aCen) (erf_cen hm _ _ _)
  · refine congrArg (decorateSat p.aSat) ?_
    show (m * M / (10 : ℝ) ^ (p.log10Msat + log10 m)) ^ p.alpha * Real.exp (-(10 : ℝ) ^ (p.log10Mcut + log10 m) / (m * M)) = _
    rw [ten_shift hm, ten_shift hm, mul_div_mul_left _ _ hm.ne', ← mul_neg, mul_div_mul_left _ _ hm.ne']

theorem mean_obs (hm : 0 < m) (hw : 0 < w) (p : CacciatoParams) (M : ℝ) :
    (cacciatoInUnits m w p).meanObsC (m * M) = w * p.meanObsC M := by
  have e1 : (cacciatoInUnits m w p).obsNormC = w * p.obsNormC := ten_shift hw _
  have e2 : (cacciatoInUnits m w p).mChar = m * p.mChar := ten_shift hm _
  unfold CacciatoParams.meanObsC
  rw [e1, e2, mul_div_mul_left _ _ hm.ne']
  show w * p.obsNormC * (M / p.mChar) ^ p.g1 / (1 + M / p.mChar) ^ (p.g1 - p.g2) = _
  ring

theorem cof_cen (hm : 0 < m) (hw : 0 < w) (p : CacciatoParams) (M O : ℝ) :
    w * (cacciatoInUnits m w p).cofCen (m * M) (w * O) = p.cofCen M O := by
  unfold CacciatoParams.cofCen
  rw [mean_obs hm hw, mul_div_mul_left _ _ hw.ne']
  show w * (1 / (Real.sqrt (2 * Real.pi) * Real.log 10 * p.sigmaLog10Oc * (w * O)) *
    Real.exp (-(log10 (O / p.meanObsC M)) ^ 2 / (2 * p.sigmaLog10Oc ^ 2))) = _
  rw [← mul_assoc, mul_left_comm _ w O, mul_one_div, div_mul_eq_div_div, div_self hw.ne']

theorem cof_sat (hm : 0 < m) (hw : 0 < w) (p : CacciatoParams) {M : ℝ} (hM : 0 < M) (O : ℝ) :
    w * (cacciatoInUnits m w p).cofSat (m * M) (w * O) = p.cofSat M O := by
  have e : (cacciatoInUnits m w p).phiStarS (m * M) = p.phiStarS M := by
    unfold CacciatoParams.phiStarS
    show (10 : ℝ) ^ (p.b0 + p.b1 * (log10 (m * M) - (p.pivot + log10 m)) + p.b2 * (log10 (m * M) - (p.pivot + log10 m)) ^ 2) = _
    rw [log_shift hm hM]
  unfold CacciatoParams.cofSat
  rw [mean_obs hm hw, e]
  show w * (p.phiStarS M / (p.normS * (w * p.meanObsC M)) * (w * O / (p.normS * (w * p.meanObsC M))) ^ p.alphaS *
    Real.exp (-(w * O / (p.normS * (w * p.meanObsC M))) ^ p.betaS)) = _
  rw [mul_left_comm p.normS w, mul_div_mul_left _ _ hw.ne', ← mul_assoc, ← mul_assoc, mul_div_mul_left _ _ hw.ne' |>.symm.trans ?_ |> fun h => (mul_div_assoc' w _ _).trans h.symm]
  rfl

/-- the conditional observable functions are per unit of the observable; the occupations are the same numbers, the stellar
fractions change as an observable per mass, and the galaxy observable function as a density per unit of the observable -/
theorem C135_cacciato (hm : 0 < m) (hw : 0 < w) (p : CacciatoParams) {M : ℝ} (hM : 0 < M) (nobs : ℕ) (obs : ℕ → ℝ) :
    (∀ O, (cacciatoInUnits m w p).cofCen (m * M) (w * O) = p.cofCen M O / w) ∧
    (∀ O, (cacciatoInUnits m w p).cofSat (m * M) (w * O) = p.cofSat M O / w) ∧
    (cacciatoInUnits m w p).hodCen nobs (fun o => w * obs o) (m * M) = p.hodCen nobs obs M ∧
    (cacciatoInUnits m w p).hodSat nobs (fun o => w * obs o) (m * M) = p.hodSat nobs obs M ∧
    (cacciatoInUnits m w p).stellarCen nobs (fun o => w * obs o) (m * M) = w / m * p.stellarCen nobs obs M ∧
    (cacciatoInUnits m w p).stellarSat nobs (fun o => w * obs o) (m * M) = w / m * p.stellarSat nobs obs M ∧
    (cacciatoInUnits m w p).stellar nobs (fun o => w * obs o) (m * M) = w / m * p.stellar nobs obs M := by
  have c := cof_cen hm hw p M
  have s := cof_sat hm hw p hM
  have st : ∀ F G : ℝ → ℝ, (∀ O, w * F (w * O) = G O) →
      simpson nobs (fun o => w * obs o) (fun o => F (w * obs o) * (w * obs o)) / (m * M) =
        w / m * (simpson nobs obs (fun o => G (obs o) * obs o) / M) := by
    intro F G h
    rw [simpson_units hw.ne' nobs obs (fun o => G (obs o) * obs o) _ (d := w) fun i => by rw [← h]; ring]
    rw [div_mul_div_comm]
  refine ⟨fun O => by rw [eq_div_iff hw.ne', mul_comm, c], fun O => by rw [eq_div_iff hw.ne', mul_comm, s], ?_, ?_, st _ _ c,
    st _ _ s, st _ _ fun O => ?_⟩
  · refine congrArg (decorateCen p.aCen) ?_
    rw [← one_mul (simpson nobs obs _)]
    exact simpson_units hw.ne' _ _ _ _ fun i => by rw [one_mul]; exact c _
  · refine congrArg (decorateSat p.aSat) ?_
    rw [← one_mul (simpson nobs obs _)]
    exact simpson_units hw.ne' _ _ _ _ fun i => by rw [one_mul]; exact s _
  · unfold CacciatoParams.cof
    rw [mul_add, c, s]

/-- the galaxy observable function is a number density per unit of the observable, and per dex a number density -/
theorem C135_obs_func (ha : a ≠ 0) (hm : 0 < m) (hw : 0 < w) (p : CacciatoParams) (nm : ℕ) (mass n : ℕ → ℝ)
    (hM : ∀ i, 0 < mass i) (O : ℝ) :
    (cacciatoInUnits m w p).obsFuncCen nm (fun i => m * mass i) (fun i => n i / a ^ 3) (w * O) =
      p.obsFuncCen nm mass n O / (w * a ^ 3) ∧
    (cacciatoInUnits m w p).obsFuncSat nm (fun i => m * mass i) (fun i => n i / a ^ 3) (w * O) =
      p.obsFuncSat nm mass n O / (w * a ^ 3) ∧
    (cacciatoInUnits m w p).obsFunc nm (fun i => m * mass i) (fun i => n i / a ^ 3) (w * O) =
      p.obsFunc nm mass n O / (w * a ^ 3) ∧
    perDex (w * O) ((cacciatoInUnits m w p).obsFunc nm (fun i => m * mass i) (fun i => n i / a ^ 3) (w * O)) =
      perDex O (p.obsFunc nm mass n O) / a ^ 3 := by
  have st : ∀ F G : ℝ → ℝ, (∀ i, w * F (m * mass i) = G (mass i)) →
      simpson nm (fun i => m * mass i) (fun i => F (m * mass i) * (n i / a ^ 3) / (m * mass i)) =
        simpson nm mass (fun i => G (mass i) * n i / mass i) / (w * a ^ 3) := by
    intro F G h
    rw [div_eq_inv_mul]
    refine simpson_units hm.ne' _ _ _ _ fun i => ?_
    have := (hM i).ne'
    have := hw.ne'
    have := hm.ne'
    rw [← h]
    field_simp
  have c : ∀ i, w * (cacciatoInUnits m w p).cofCen (m * mass i) (w * O) = p.cofCen (mass i) O := fun i => cof_cen hm hw p _ _
  have s : ∀ i, w * (cacciatoInUnits m w p).cofSat (m * mass i) (w * O) = p.cofSat (mass i) O := fun i => cof_sat hm hw p (hM i) _
  have t : (cacciatoInUnits m w p).obsFunc nm (fun i => m * mass i) (fun i => n i / a ^ 3) (w * O) =
      p.obsFunc nm mass n O / (w * a ^ 3) :=
    st (fun M => (cacciatoInUnits m w p).cof M (w * O)) (fun M => p.cof M O) fun i => by
      unfold CacciatoParams.cof
      rw [mul_add, c, s]
  refine ⟨st (fun M => (cacciatoInUnits m w p).cofCen M (w * O)) (fun M => p.cofCen M O) c,
    st (fun M => (cacciatoInUnits m w p).cofSat M (w * O)) (fun M => p.cofSat M O) s, t, ?_⟩
  rw [t]
  unfold perDex
  have := hw.ne'
  field_simp

section statistics

variable (ha : a ≠ 0) (hm : m ≠ 0) (h : Base)
include ha hm

omit ha hm in
theorem dndlnm_int (b j i : ℕ) : (hodInUnits a m h).dndlnmInt b j i = h.dndlnmInt b j i / a ^ 3 := by
  rw [div_eq_inv_mul]
  exact interp1d_units _ (.inl rfl) _ _ _ _ _ (fun k => div_eq_inv_mul _ _) _

omit ha in
theorem mass_integral (N : ℕ → ℕ → ℕ → ℝ) (b j : ℕ) : (hodInUnits a m h).massIntegral N b j = (a ^ 3)⁻¹ * h.massIntegral N b j := by
  refine simpson_units hm _ _ _ _ fun i => ?_
  rw [dndlnm_int h]
  show m * (N b j i * (h.dndlnmInt b j i / a ^ 3) / (m * h.mass i)) = _
  rw [mul_div_assoc', mul_div_mul_left _ _ hm]
  ring

omit ha in
theorem mean_mass (N : ℕ → ℕ → ℕ → ℝ) (b j : ℕ) :
    (hodInUnits a m h).meanMassIntegral N b j = m * (a ^ 3)⁻¹ * h.meanMassIntegral N b j := by
  refine simpson_units hm _ _ _ _ fun i => ?_
  rw [dndlnm_int h]
  ring

theorem bias_integral (N : ℕ → ℕ → ℕ → ℝ) (b j : ℕ) : (hodInUnits a m h).biasIntegral N b j = h.biasIntegral N b j := by
  have e : ∀ I : ℝ, (a ^ 3)⁻¹ * I / ((hodInUnits a m h).ntot b j) = I / h.ntot b j := by
    intro I
    rw [show (hodInUnits a m h).ntot b j = (a ^ 3)⁻¹ * h.ntot b j from mass_integral hm h _ b j]
    exact mul_div_mul_left _ _ (inv_ne_zero (pow_ne_zero _ ha))
  unfold Base.biasIntegral
  rw [← e]
  congr 1
  refine simpson_units hm _ _ _ _ fun i => ?_
  rw [dndlnm_int h]
  show m * (N b j i * h.haloBiasInt b j i * (h.dndlnmInt b j i / a ^ 3) / (m * h.mass i)) = _
  rw [mul_div_assoc', mul_div_mul_left _ _ hm]
  ring

/-- number densities are per volume, the mean masses are masses per volume (hod.py does not divide by the number density), the
fractions and the biases are numbers -/
theorem C135_occupation (b i : ℕ) :
    (hodInUnits a m h).numberDensityCen b i = h.numberDensityCen b i / a ^ 3 ∧
    (hodInUnits a m h).numberDensitySat b i = h.numberDensitySat b i / a ^ 3 ∧
    (hodInUnits a m h).numberDensity b i = h.numberDensity b i / a ^ 3 ∧
    (hodInUnits a m h).avgHaloMassCen b i = m * h.avgHaloMassCen b i / a ^ 3 ∧
    (hodInUnits a m h).avgHaloMassSat b i = m * h.avgHaloMassSat b i / a ^ 3 ∧
    (hodInUnits a m h).avgHaloMass b i = m * h.avgHaloMass b i / a ^ 3 ∧
    (hodInUnits a m h).fC b i = h.fC b i ∧ (hodInUnits a m h).fS b i = h.fS b i ∧
    (hodInUnits a m h).galaxyLinearBiasCen b i = h.galaxyLinearBiasCen b i ∧
    (hodInUnits a m h).galaxyLinearBiasSat b i = h.galaxyLinearBiasSat b i ∧
    (hodInUnits a m h).galaxyLinearBias b i = h.galaxyLinearBias b i := by
  have i3 : (a ^ 3)⁻¹ ≠ 0 := inv_ne_zero (pow_ne_zero _ ha)
  have n : ∀ N : ℕ → ℕ → ℕ → ℝ, (hodInUnits a m h).interpolate .extrapolate ((hodInUnits a m h).massIntegral N) b i =
      h.interpolate .extrapolate (h.massIntegral N) b i / a ^ 3 := fun N => by
    rw [div_eq_inv_mul]
    exact interp1d_units _ (.inl rfl) _ _ _ _ _ (mass_integral hm h N b) _
  have v : ∀ N : ℕ → ℕ → ℕ → ℝ, (hodInUnits a m h).interpolate (.value 0) ((hodInUnits a m h).meanMassIntegral N) b i =
      m * h.interpolate (.value 0) (h.meanMassIntegral N) b i / a ^ 3 := fun N => by
    rw [mul_div_assoc, div_eq_inv_mul, ← mul_assoc]
    exact interp1d_units _ (.inr rfl) _ _ _ _ _ (mean_mass hm h N b) _
  have f : ∀ N : ℕ → ℕ → ℕ → ℝ, (hodInUnits a m h).interpolate (.value 0)
      (fun b j => (hodInUnits a m h).massIntegral N b j / (hodInUnits a m h).ntot b j) b i =
      h.interpolate (.value 0) (fun b j => h.massIntegral N b j / h.ntot b j) b i := fun N => by
    rw [← one_mul (h.interpolate _ _ b i)]
    refine interp1d_units _ (.inr rfl) _ _ _ _ _ (fun j => ?_) _
    rw [one_mul]
    show (hodInUnits a m h).massIntegral N b j / (hodInUnits a m h).massIntegral h.occ b j = _
    rw [mass_integral hm, mass_integral hm, mul_div_mul_left _ _ i3]
    rfl
  have g : ∀ N : ℕ → ℕ → ℕ → ℝ, (hodInUnits a m h).interpolate .extrapolate ((hodInUnits a m h).biasIntegral N) b i =
      h.interpolate .extrapolate (h.biasIntegral N) b i := fun N => by
    rw [← one_mul (h.interpolate _ _ b i)]
    exact interp1d_units _ (.inl rfl) _ _ _ _ _ (fun j => by rw [one_mul]; exact bias_integral ha hm h N b j) _
  exact ⟨n _, n _, n _, v _, v _, v _, f _, f _, g _, g _, g _⟩

end statistics

/-- Mpc and solar masses from Mpc/h and solar masses/h with h = 0.7: the number density of the example -/
example (b i : ℕ) : (hodInUnits (1 / 0.7) (1 / 0.7) Hod.demo).numberDensity b i = Hod.demo.numberDensity b i * 0.343 := by
  rw [(C135_occupation (by norm_num) (by norm_num) Hod.demo b i).2.2.1]
  norm_num
  ring

/-- Zheng occupation at 10^13 Msun/h with M_min = 10^12.5 Msun/h, and the same in Msun -/
example : zhengCen (zhengInUnits (1 / 0.7) ⟨12.5, 12, 13, 0.4, 1, none, none⟩) (1 / 0.7 * 10 ^ 13) =
    zhengCen ⟨12.5, 12, 13, 0.4, 1, none, none⟩ (10 ^ 13) :=
  (C135_zheng (by norm_num) _ _).1

end Verif.Units

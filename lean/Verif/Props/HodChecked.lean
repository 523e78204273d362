import Verif.Model.HodChecked
import Verif.Lemmas.Checked
import Verif.Lemmas.Interp
import Verif.Lemmas.Special
import Verif.Props.HodModels
import Verif.Props.HodBase

/-! Property C116: when the occupations, the densities, the fractions and the biases of hod.py are numbers. -/

namespace Verif.HodChecked

open Verif.Lib Verif.Lib.Ck Verif.Hod Verif.Spec

/-! ## Elementary steps -/

theorem ok_log10 {x : Ck} : (log10 x).Ok ↔ x.Ok ∧ 0 < x.val := by
  cases x with
  | bad => simp [log10]
  | num a => by_cases h : a ≤ 0 <;> simp [log10, h]; exact not_le.mp h

theorem refines_log10 {x : Ck} {a : ℝ} (hx : x.Refines a) : (log10 x).Refines (Lib.log10 a) := by
  intro h
  obtain ⟨h1, h2⟩ := ok_log10.mp h
  rw [← hx h1]
  cases x with
  | bad => exact h1.elim
  | num u =>
    have h2' : ¬ u ≤ 0 := not_le.mpr h2
    simp [log10, h2']

@[simp] theorem ok_heaviside {x : Ck} {t : ℝ} : (heaviside t x).Ok ↔ x.Ok := by cases x <;> simp [heaviside]

theorem refines_heaviside {x : Ck} {a t : ℝ} (hx : x.Refines a) : (heaviside t x).Refines (Lib.heaviside a t) := by
  intro h
  rw [← hx (ok_heaviside.mp h)]
  cases x with
  | bad => exact h.elim
  | num u => rfl

@[simp] theorem ok_erf {x : Ck} : (erf x).Ok ↔ x.Ok := by cases x <;> simp [erf]

theorem refines_erf {x : Ck} {a : ℝ} (hx : x.Refines a) : (erf x).Refines (Lib.erf a) := by
  intro h
  rw [← hx (ok_erf.mp h)]
  cases x with
  | bad => exact h.elim
  | num u => rfl

@[simp] theorem ok_fmin {x y : Ck} : (fmin x y).Ok ↔ x.Ok ∧ y.Ok := by
  cases x <;> cases y <;> simp [fmin, lift2]

theorem refines_fmin {x y : Ck} {a b : ℝ} (hx : x.Refines a) (hy : y.Refines b) : (fmin x y).Refines (min a b) := by
  intro h
  obtain ⟨h1, h2⟩ := ok_fmin.mp h
  rw [← hx h1, ← hy h2]
  cases x with
  | bad => exact h1.elim
  | num _ => cases y with
    | bad => exact h2.elim
    | num _ => rfl

theorem ten_eq (x : ℝ) : ten x = .num ((10 : ℝ) ^ x) := by
  simp [ten, rpow, PowOk]

@[simp] theorem ok_ten (x : ℝ) : (ten x).Ok := by rw [ten_eq]; trivial

theorem refines_ten (x : ℝ) : (ten x).Refines ((10 : ℝ) ^ x) := by rw [ten_eq]; exact Refines.num _

@[simp] theorem ok_decorateCen {A : Option ℝ} {N : Ck} : (decorateCen A N).Ok ↔ N.Ok := by
  cases A <;> simp [decorateCen]

@[simp] theorem ok_decorateSat {A : Option ℝ} {N : Ck} : (decorateSat A N).Ok ↔ N.Ok := by
  cases A <;> simp [decorateSat]

theorem refines_decorateCen {A : Option ℝ} {N : Ck} {a : ℝ} (h : N.Refines a) :
    (decorateCen A N).Refines (Hod.decorateCen A a) := by
  cases A with
  | none => exact h
  | some c => exact h.add ((Refines.num c).mul (refines_fmin h ((Refines.num 1).sub h)))

theorem refines_decorateSat {A : Option ℝ} {N : Ck} {a : ℝ} (h : N.Refines a) :
    (decorateSat A N).Refines (Hod.decorateSat A a) := by
  cases A with
  | none => exact h
  | some c => exact h.add ((Refines.num c).mul h)

theorem num_div_ten (M x : ℝ) : Ck.num M / ten x = .num (M / (10 : ℝ) ^ x) := by
  rw [ten_eq]
  simp [HDiv.hDiv, Div.div, Ck.div, (Real.rpow_pos_of_pos (by norm_num : (0 : ℝ) < 10) x).ne']

theorem num_sub_ten (M x : ℝ) : Ck.num M - ten x = .num (M - (10 : ℝ) ^ x) := by
  rw [ten_eq]; rfl

/-! ## The values agree with the model over the reals -/

theorem r_simpleCen (p : StepParams) (M : ℝ) : (simpleCen p M).Refines (Hod.simpleCen p M) :=
  refines_decorateCen (refines_heaviside ((Refines.num _).sub (refines_ten _)))

theorem r_simpleSat (p : StepParams) (M : ℝ) : (simpleSat p M).Refines (Hod.simpleSat p M) :=
  refines_decorateSat ((r_simpleCen p M).mul (((Refines.num _).div (refines_ten _)).rpow (Refines.num _)))

theorem r_zehaviCen (p : StepParams) (M : ℝ) : (zehaviCen p M).Refines (Hod.zehaviCen p M) :=
  refines_decorateCen (refines_heaviside ((Refines.num _).sub (refines_ten _)))

theorem r_zehaviSat (p : StepParams) (M : ℝ) : (zehaviSat p M).Refines (Hod.zehaviSat p M) :=
  refines_decorateSat (((Refines.num _).div (refines_ten _)).rpow (Refines.num _))

theorem r_erfCen (a s M : ℝ) : (erfCen a s M).Refines (Hod.erfCen a s M) := by
  unfold erfCen Hod.erfCen
  split_ifs
  · exact refines_heaviside ((Refines.num _).sub (refines_ten _))
  · exact (Refines.num _).mul ((Refines.num _).add
      (refines_erf ((refines_log10 ((Refines.num _).div (refines_ten _))).div (Refines.num _))))

theorem r_zhengCen (p : ZhengParams) (M : ℝ) : (zhengCen p M).Refines (Hod.zhengCen p M) :=
  refines_decorateCen (r_erfCen _ _ _)

theorem r_zhengSat (p : ZhengParams) (M : ℝ) : (zhengSat p M).Refines (Hod.zhengSat p M) :=
  refines_decorateSat
    ((((refines_heaviside ((Refines.num _).sub (refines_ten _))).mul ((Refines.num _).sub (refines_ten _))).div
      (refines_ten _)).rpow (Refines.num _))

theorem r_zhaiCen (p : ZhaiParams) (M : ℝ) : (zhaiCen p M).Refines (Hod.zhaiCen p M) :=
  refines_decorateCen (r_erfCen _ _ _)

theorem r_zhaiSat (p : ZhaiParams) (M : ℝ) : (zhaiSat p M).Refines (Hod.zhaiSat p M) :=
  refines_decorateSat ((((Refines.num _).div (refines_ten _)).rpow (Refines.num _)).mul
    (((refines_ten _).neg.div (Refines.num _)).exp))

section
variable (p : CacciatoParams)

theorem r_meanObsC (M : ℝ) : (meanObsC p M).Refines (p.meanObsC M) :=
  ((refines_ten _).mul (((Refines.num _).div (refines_ten _)).rpow (Refines.num _))).div
    (((Refines.num 1).add ((Refines.num _).div (refines_ten _))).rpow (Refines.num _))

theorem r_phiStarS (M : ℝ) : (phiStarS p M).Refines (p.phiStarS M) :=
  (Refines.num 10).rpow (((Refines.num _).add ((Refines.num _).mul
    ((refines_log10 (Refines.num _)).sub (Refines.num _)))).add
      ((Refines.num _).mul (((refines_log10 (Refines.num _)).sub (Refines.num _)).pow 2)))

theorem r_cofCen (M O : ℝ) : (cofCen p M O).Refines (p.cofCen M O) :=
  ((Refines.num 1).div (((Refines.num _).mul (Refines.num _)).mul (Refines.num _))).mul
    (((((refines_log10 ((Refines.num _).div (r_meanObsC p M))).pow 2).neg).div
      ((Refines.num 2).mul ((Refines.num _).pow 2))).exp)

theorem r_cofSat (M O : ℝ) : (cofSat p M O).Refines (p.cofSat M O) :=
  (((r_phiStarS p M).div ((Refines.num _).mul (r_meanObsC p M))).mul
    (((Refines.num _).div ((Refines.num _).mul (r_meanObsC p M))).rpow (Refines.num _))).mul
      (((((Refines.num _).div ((Refines.num _).mul (r_meanObsC p M))).rpow (Refines.num _)).neg).exp)

theorem r_hodCen (n : ℕ) (obs : ℕ → ℝ) (M : ℝ) : (hodCen p n obs M).Refines (p.hodCen n obs M) :=
  refines_decorateCen (Refines.simpson fun _ => r_cofCen p _ _)

theorem r_hodSat (n : ℕ) (obs : ℕ → ℝ) (M : ℝ) : (hodSat p n obs M).Refines (p.hodSat n obs M) :=
  refines_decorateSat (Refines.simpson fun _ => r_cofSat p _ _)

theorem r_stellarCen (n : ℕ) (obs : ℕ → ℝ) (M : ℝ) : (stellarCen p n obs M).Refines (p.stellarCen n obs M) :=
  (Refines.simpson fun _ => (r_cofCen p _ _).mul (Refines.num _)).div (Refines.num _)

theorem r_stellarSat (n : ℕ) (obs : ℕ → ℝ) (M : ℝ) : (stellarSat p n obs M).Refines (p.stellarSat n obs M) :=
  (Refines.simpson fun _ => (r_cofSat p _ _).mul (Refines.num _)).div (Refines.num _)

theorem r_stellar (n : ℕ) (obs : ℕ → ℝ) (M : ℝ) : (stellar p n obs M).Refines (p.stellar n obs M) :=
  (Refines.simpson fun _ => ((r_cofCen p _ _).add (r_cofSat p _ _)).mul (Refines.num _)).div (Refines.num _)

end

section
variable {h : Base} {cen sat : ℕ → ℕ → ℕ → Ck}

/-- the occupations of the base class are the checked ones, wherever those are numbers -/
structure Same (h : Base) (cen sat : ℕ → ℕ → ℕ → Ck) : Prop where
  cen : ∀ b j m, (cen b j m).Refines (h.occCen b j m)
  sat : ∀ b j m, (sat b j m).Refines (h.occSat b j m)

theorem Same.occ (s : Same h cen sat) (b j m : ℕ) : (occ cen sat b j m).Refines (h.occ b j m) :=
  (s.cen b j m).add (s.sat b j m)

theorem r_massIntegral {N : ℕ → ℕ → ℕ → Ck} {r : ℕ → ℕ → ℕ → ℝ} (hN : ∀ b j m, (N b j m).Refines (r b j m)) (b j : ℕ) :
    (massIntegral h N b j).Refines (h.massIntegral r b j) :=
  Refines.simpson fun _ => ((hN _ _ _).mul (Refines.num _)).div (Refines.num _)

theorem r_meanMassIntegral {N : ℕ → ℕ → ℕ → Ck} {r : ℕ → ℕ → ℕ → ℝ} (hN : ∀ b j m, (N b j m).Refines (r b j m))
    (b j : ℕ) : (meanMassIntegral h N b j).Refines (h.meanMassIntegral r b j) :=
  Refines.simpson fun _ => (hN _ _ _).mul (Refines.num _)

theorem r_biasIntegral (s : Same h cen sat) {N : ℕ → ℕ → ℕ → Ck} {r : ℕ → ℕ → ℕ → ℝ}
    (hN : ∀ b j m, (N b j m).Refines (r b j m)) (b j : ℕ) :
    (biasIntegral h cen sat N b j).Refines (h.biasIntegral r b j) :=
  (Refines.simpson fun _ => (((hN _ _ _).mul (Refines.num _)).mul (Refines.num _)).div (Refines.num _)).div
    (r_massIntegral s.occ b j)

theorem r_interp {fill : Fill} {n : ℕ} {x : ℕ → ℝ} {y : ℕ → Ck} {r : ℕ → ℝ} (hy : ∀ j, (y j).Refines (r j)) (q : ℝ) :
    (interpCk fill n x y q).Refines (interp1d fill n x r q) := by
  have h : (interpLinearCk n x y q).Refines (interpLinear n x r q) :=
    ((((hy _).sub (hy _)).div (Refines.num _)).mul (Refines.num _)).add (hy _)
  cases fill with
  | extrapolate => exact h
  | value c =>
    unfold interpCk interp1d
    simp only
    split_ifs
    · exact Refines.num c
    · exact h

theorem r_hodCenAt (s : Same h cen sat) (b i m : ℕ) : (hodCenAt h cen b i m).Refines (h.hodCen b i m) := by
  unfold hodCenAt interpolate Base.hodCen Base.interpolateMass Base.interpolate
  exact r_interp (fun _ => s.cen _ _ _) _

theorem r_hodSatAt (s : Same h cen sat) (b i m : ℕ) : (hodSatAt h sat b i m).Refines (h.hodSat b i m) := by
  unfold hodSatAt interpolate Base.hodSat Base.interpolateMass Base.interpolate
  exact r_interp (fun _ => s.sat _ _ _) _

theorem r_fC (s : Same h cen sat) (b i : ℕ) : (fC h cen sat b i).Refines (h.fC b i) := by
  unfold fC interpolate Base.fC Base.interpolate
  exact r_interp (fun j => (r_massIntegral s.cen b j).div (r_massIntegral s.occ b j)) _

theorem r_fS (s : Same h cen sat) (b i : ℕ) : (fS h cen sat b i).Refines (h.fS b i) := by
  unfold fS interpolate Base.fS Base.interpolate
  exact r_interp (fun j => (r_massIntegral s.sat b j).div (r_massIntegral s.occ b j)) _

theorem r_numberDensity (s : Same h cen sat) (b i : ℕ) : (numberDensity h cen sat b i).Refines (h.numberDensity b i) := by
  unfold numberDensity interpolate Base.numberDensity Base.interpolate
  exact r_interp (fun j => r_massIntegral s.occ b j) _

theorem r_bias (s : Same h cen sat) (b i : ℕ) :
    (galaxyLinearBias h cen sat b i).Refines (h.galaxyLinearBias b i) := by
  unfold galaxyLinearBias interpolate Base.galaxyLinearBias Base.interpolate
  exact r_interp (fun j => r_biasIntegral s s.occ b j) _

end

/-- C116: wherever the checked computation ends in a number, it is the number of the model over the reals, for the
occupations of the five models and for everything the base class makes of them. -/
theorem C116_values (p : StepParams) (q : ZhengParams) (r : ZhaiParams) (c : CacciatoParams) (n : ℕ) (obs : ℕ → ℝ) (M : ℝ)
    (h : Base) (cen sat : ℕ → ℕ → ℕ → Ck) (s : Same h cen sat) (b i m : ℕ) :
    ((simpleCen p M).Refines (Hod.simpleCen p M) ∧ (simpleSat p M).Refines (Hod.simpleSat p M)) ∧
    ((zehaviCen p M).Refines (Hod.zehaviCen p M) ∧ (zehaviSat p M).Refines (Hod.zehaviSat p M)) ∧
    ((zhengCen q M).Refines (Hod.zhengCen q M) ∧ (zhengSat q M).Refines (Hod.zhengSat q M)) ∧
    ((zhaiCen r M).Refines (Hod.zhaiCen r M) ∧ (zhaiSat r M).Refines (Hod.zhaiSat r M)) ∧
    ((hodCen c n obs M).Refines (c.hodCen n obs M) ∧ (hodSat c n obs M).Refines (c.hodSat n obs M)) ∧
    ((stellarCen c n obs M).Refines (c.stellarCen n obs M) ∧ (stellarSat c n obs M).Refines (c.stellarSat n obs M) ∧
      (stellar c n obs M).Refines (c.stellar n obs M)) ∧
    ((hodCenAt h cen b i m).Refines (h.hodCen b i m) ∧ (hodSatAt h sat b i m).Refines (h.hodSat b i m)) ∧
    ((fC h cen sat b i).Refines (h.fC b i) ∧ (fS h cen sat b i).Refines (h.fS b i) ∧
      (numberDensity h cen sat b i).Refines (h.numberDensity b i) ∧
      (galaxyLinearBias h cen sat b i).Refines (h.galaxyLinearBias b i)) :=
  ⟨⟨r_simpleCen _ _, r_simpleSat _ _⟩, ⟨r_zehaviCen _ _, r_zehaviSat _ _⟩, ⟨r_zhengCen _ _, r_zhengSat _ _⟩,
    ⟨r_zhaiCen _ _, r_zhaiSat _ _⟩, ⟨r_hodCen _ _ _ _, r_hodSat _ _ _ _⟩,
    ⟨r_stellarCen _ _ _ _, r_stellarSat _ _ _ _, r_stellar _ _ _ _⟩,
    ⟨r_hodCenAt s b i m, r_hodSatAt s b i m⟩, r_fC s b i, r_fS s b i, r_numberDensity s b i, r_bias s b i⟩

/-! ## The occupations -/

theorem ok_ratio_pow {M x a : ℝ} (hM : 0 < M) : ((Ck.num M / ten x).rpow (.num a)).Ok := by
  rw [num_div_ten, ok_rpow]
  exact ⟨trivial, trivial, Or.inl (by simp only [val_num]; positivity)⟩

theorem ok_erfCen {a s M : ℝ} (hM : 0 < M) : (erfCen a s M).Ok := by
  unfold erfCen
  split_ifs with hs
  · simp
  · rw [num_div_ten]
    simp only [ok_mul, ok_add, ok_num, ok_erf, true_and, ok_div, ok_log10, val_num]
    exact ⟨by positivity, hs⟩

/-- C116: on halo masses above zero the occupations of Simple, Zehavi and Zhai and the centrals of Zheng are numbers for
all parameters (also for `sigma = 0`). -/
theorem C116_always (p : StepParams) (q : ZhengParams) (r : ZhaiParams) (M : ℝ) (hM : 0 < M) :
    (simpleCen p M).Ok ∧ (simpleSat p M).Ok ∧ (zehaviCen p M).Ok ∧ (zehaviSat p M).Ok ∧
      (zhaiCen r M).Ok ∧ (zhaiSat r M).Ok ∧ (zhengCen q M).Ok := by
  have h1 : (simpleCen p M).Ok := by simp [simpleCen]
  refine ⟨h1, ?_, by simp [zehaviCen], ?_, ?_, ?_, ?_⟩
  · simp only [simpleSat, ok_decorateSat, ok_mul]; exact ⟨h1, ok_ratio_pow hM⟩
  · simp only [zehaviSat, ok_decorateSat]; exact ok_ratio_pow hM
  · simp only [zhaiCen, ok_decorateCen]; exact ok_erfCen hM
  · simp only [zhaiSat, ok_decorateSat, ok_mul, ok_exp, ok_div, ok_neg, ok_ten, ok_num, true_and, val_num]
    exact ⟨ok_ratio_pow hM, hM.ne'⟩
  · simp only [zhengCen, ok_decorateCen]; exact ok_erfCen hM

/-- C116: the satellites of Zheng at a halo mass up to the cut-off are a number exactly when the slope is not negative;
above the cut-off they always are. -/
theorem C116_zheng_satellites (q : ZhengParams) (M : ℝ) :
    (zhengSat q M).Ok ↔ ((10 : ℝ) ^ q.log10M0 < M ∨ 0 ≤ q.alpha) := by
  have h10 : (0 : ℝ) < 10 ^ q.log10M1 := by positivity
  unfold zhengSat
  rw [ok_decorateSat, num_sub_ten]
  have e : heaviside 1 (.num (M - (10 : ℝ) ^ q.log10M0)) * .num (M - (10 : ℝ) ^ q.log10M0) / ten q.log10M1
      = .num (Lib.heaviside (M - (10 : ℝ) ^ q.log10M0) 1 * (M - (10 : ℝ) ^ q.log10M0) / (10 : ℝ) ^ q.log10M1) :=
    num_div_ten _ _
  rw [e, ok_rpow]
  simp only [ok_num, val_num, true_and, PowOk]
  rcases lt_trichotomy (M - (10 : ℝ) ^ q.log10M0) 0 with hlt | heq | hgt
  · rw [heaviside_of_neg hlt]
    have : ¬ (10 : ℝ) ^ q.log10M0 < M := by linarith
    simp [this]
  · rw [heq]
    have : ¬ (10 : ℝ) ^ q.log10M0 < M := by linarith
    simp [this]
  · rw [heaviside_one_of_nonneg hgt.le, one_mul]
    have h1 : (10 : ℝ) ^ q.log10M0 < M := by linarith
    have h2 : 0 < (M - (10 : ℝ) ^ q.log10M0) / (10 : ℝ) ^ q.log10M1 := div_pos hgt h10
    simp [h1, h2]

/-- the hypotheses are met on both sides: slope -1 with a halo below and a halo above the cut-off -/
example : ¬ (zhengSat ⟨12, 12, 13, 0, -1, none, none⟩ 1).Ok ∧
    (zhengSat ⟨12, 0, 13, 0, -1, none, none⟩ 2).Ok := by
  rw [C116_zheng_satellites, C116_zheng_satellites]
  norm_num

section
variable (p : CacciatoParams)

theorem meanObsC_num {M : ℝ} (hM : 0 < M) : meanObsC p M = .num (p.meanObsC M) := by
  rw [eq_num_iff]
  have hok : (meanObsC p M).Ok := by
    unfold meanObsC
    rw [ok_div]
    have h1 : (0 : ℝ) < 1 + M / (10 : ℝ) ^ p.log10Mch := by positivity
    have e : (Ck.num 1 + Ck.num M / ten p.log10Mch).rpow (.num (p.g1 - p.g2))
        = .num ((1 + M / (10 : ℝ) ^ p.log10Mch) ^ (p.g1 - p.g2)) := by
      rw [num_div_ten, show Ck.num 1 + Ck.num (M / (10 : ℝ) ^ p.log10Mch) = .num (1 + M / (10 : ℝ) ^ p.log10Mch) from rfl]
      simp [rpow, PowOk, h1]
    rw [e]
    refine ⟨?_, trivial, ?_⟩
    · rw [ok_mul]; exact ⟨ok_ten _, ok_ratio_pow hM⟩
    · simp only [val_num]; positivity
  exact ⟨hok, r_meanObsC p M hok⟩

theorem ok_phiStarS {M : ℝ} (hM : 0 < M) : (phiStarS p M).Ok := by
  unfold phiStarS
  simp only [ok_rpow, ok_num, ok_add, ok_mul, ok_sub, ok_log10, ok_pow, val_num, hM, true_and, and_self]
  exact Or.inl (by norm_num)

/-- C116: the centrals of Cacciato are numbers exactly when the scatter is not zero. -/
theorem C116_cacciato_cen (M O : ℝ) (hM : 0 < M) (hO : 0 < O) : (cofCen p M O).Ok ↔ p.sigmaLog10Oc ≠ 0 := by
  have hm := p.meanObsC_pos hM
  have hc : 0 < Real.sqrt (2 * Real.pi) * Real.log 10 :=
    mul_pos (Real.sqrt_pos.2 (by positivity)) (Real.log_pos (by norm_num))
  unfold cofCen
  rw [meanObsC_num p hM]
  have e : Ck.num O / Ck.num (p.meanObsC M) = .num (O / p.meanObsC M) := by
    simp [HDiv.hDiv, Div.div, Ck.div, hm.ne']
  have e2 : Ck.num (Real.sqrt (2 * Real.pi) * Real.log 10) * .num p.sigmaLog10Oc * .num O
      = .num (Real.sqrt (2 * Real.pi) * Real.log 10 * p.sigmaLog10Oc * O) := rfl
  have e3 : Ck.num 2 * Ck.num p.sigmaLog10Oc ^ 2 = .num (2 * p.sigmaLog10Oc ^ 2) := rfl
  rw [e, e2, e3]
  have hq : 0 < O / p.meanObsC M := div_pos hO hm
  simp only [ok_mul, ok_exp, ok_div, ok_neg, ok_pow, ok_num, ok_log10, val_num, hq, true_and, and_self]
  constructor
  · rintro ⟨h, _⟩ hs
    exact h (by rw [hs]; ring)
  · intro hs
    exact ⟨mul_ne_zero (mul_ne_zero hc.ne' hs) hO.ne', mul_ne_zero two_ne_zero (pow_ne_zero _ hs)⟩

/-- C116: the satellites of Cacciato are numbers exactly when `norm_s` is above zero, or below zero with both exponents
integers. -/
theorem C116_cacciato_sat (M O : ℝ) (hM : 0 < M) (hO : 0 < O) :
    (cofSat p M O).Ok ↔
      (0 < p.normS ∨ (p.normS < 0 ∧ (∃ a : ℤ, p.alphaS = a) ∧ ∃ b : ℤ, p.betaS = b)) := by
  have hm := p.meanObsC_pos hM
  unfold cofSat
  rw [meanObsC_num p hM, show Ck.num p.normS * Ck.num (p.meanObsC M) = .num (p.normS * p.meanObsC M) from rfl]
  simp only [ok_mul, ok_exp, ok_neg, ok_rpow, ok_div, ok_num, val_num, true_and]
  by_cases h0 : p.normS = 0
  · simp [h0]
  have hne : p.normS * p.meanObsC M ≠ 0 := mul_ne_zero h0 hm.ne'
  have e : (Ck.num O / Ck.num (p.normS * p.meanObsC M)).val = O / (p.normS * p.meanObsC M) := by
    simp [HDiv.hDiv, Div.div, Ck.div, hne]
  rw [e]
  simp only [ok_phiStarS p hM, hne, ne_eq, not_false_eq_true, true_and, PowOk]
  rcases lt_or_gt_of_ne h0 with hn | hp
  · have hneg : O / (p.normS * p.meanObsC M) < 0 := div_neg_of_pos_of_neg hO (mul_neg_of_neg_of_pos hn hm)
    simp [hneg, hneg.not_gt, hneg.ne, hn, hn.not_gt]
  · have hpos : 0 < O / (p.normS * p.meanObsC M) := div_pos hO (mul_pos hp hm)
    simp [hpos, hp]

/-- C116: the occupation by centrals and by satellites and the stellar fractions of Cacciato on a grid of observables above
zero. -/
theorem C116_cacciato_occupation (n : ℕ) (obs : ℕ → ℝ) (M : ℝ) (hM : 0 < M) (hn : 0 < n) (ho : ∀ o < n, 0 < obs o) :
    ((hodCen p n obs M).Ok ↔ p.sigmaLog10Oc ≠ 0) ∧ ((stellarCen p n obs M).Ok ↔ p.sigmaLog10Oc ≠ 0) ∧
    ((hodSat p n obs M).Ok ↔
      (0 < p.normS ∨ (p.normS < 0 ∧ (∃ a : ℤ, p.alphaS = a) ∧ ∃ b : ℤ, p.betaS = b))) ∧
    ((stellarSat p n obs M).Ok ↔
      (0 < p.normS ∨ (p.normS < 0 ∧ (∃ a : ℤ, p.alphaS = a) ∧ ∃ b : ℤ, p.betaS = b))) ∧
    ((stellar p n obs M).Ok ↔ ((hodCen p n obs M).Ok ∧ (hodSat p n obs M).Ok)) := by
  have all : ∀ (P : Prop) (Q : ℕ → Prop), (∀ o < n, (Q o ↔ P)) → ((∀ o < n, Q o) ↔ P) := fun P Q h =>
    ⟨fun hq => (h 0 hn).1 (hq 0 hn), fun hp o ho => (h o ho).2 hp⟩
  have hc : ∀ o < n, ((cofCen p M (obs o)).Ok ↔ p.sigmaLog10Oc ≠ 0) := fun o h =>
    C116_cacciato_cen p M _ hM (ho o h)
  have hs := fun o (h : o < n) => C116_cacciato_sat p M (obs o) hM (ho o h)
  refine ⟨?_, ?_, ?_, ?_, ?_⟩
  · simp only [hodCen, ok_decorateCen, ok_simpson]; exact all _ _ hc
  · simp only [stellarCen, ok_div, ok_simpson, ok_mul, ok_num, and_true, val_num, ne_eq, hM.ne', not_false_eq_true]
    exact all _ _ hc
  · simp only [hodSat, ok_decorateSat, ok_simpson]; exact all _ _ hs
  · simp only [stellarSat, ok_div, ok_simpson, ok_mul, ok_num, and_true, val_num, ne_eq, hM.ne', not_false_eq_true]
    exact all _ _ hs
  · simp only [stellar, cof, hodCen, hodSat, ok_decorateCen, ok_decorateSat, ok_div, ok_simpson, ok_mul, ok_add, ok_num,
      and_true, val_num, ne_eq, hM.ne', not_false_eq_true]
    exact ⟨fun h => ⟨fun o ho => (h o ho).1, fun o ho => (h o ho).2⟩, fun h o ho => ⟨h.1 o ho, h.2 o ho⟩⟩

end

/-! ## Densities, fractions and biases -/

section
variable {h : Base} {cen sat : ℕ → ℕ → ℕ → Ck}

theorem ok_massIntegral {N : ℕ → ℕ → ℕ → Ck} (hM : ∀ m < h.nm, h.mass m ≠ 0) (b j : ℕ) :
    (massIntegral h N b j).Ok ↔ ∀ m < h.nm, (N b j m).Ok := by
  unfold massIntegral
  rw [ok_simpson]
  refine forall₂_congr fun m hm => ?_
  simp [ok_div, hM m hm]

theorem ok_interp {n : ℕ} {x : ℕ → ℝ} {y : ℕ → Ck} (hn : 2 ≤ n) (hx : SortedOn n x) (q : ℝ) :
    (interpLinearCk n x y q).Ok ↔ (y (Lib.segment n x q)).Ok ∧ (y (Lib.segment n x q - 1)).Ok := by
  have h1 := segment_pos n x q
  have h2 := segment_lt hn x q
  have h3 := hx (Lib.segment n x q - 1) (Lib.segment n x q) (by omega) h2
  unfold interpLinearCk
  simp only [ok_add, ok_mul, ok_div, ok_sub, ok_num, val_num, and_true, sub_ne_zero.2 h3.ne', ne_eq,
    not_false_eq_true]
  tauto

/-- C116: with `Zheng`, the number of satellites of a sample is a number exactly when the slope is not negative or the
cut-off is below every mass of the grid. -/
theorem C116_zheng_density (q : ℕ → ZhengParams) (hM : ∀ m < h.nm, h.mass m ≠ 0) (b j : ℕ) :
    (nsat h (fun b _ m => zhengSat (q b) (h.mass m)) b j).Ok ↔
      (0 ≤ (q b).alpha ∨ ∀ m < h.nm, (10 : ℝ) ^ (q b).log10M0 < h.mass m) := by
  unfold nsat
  rw [ok_massIntegral hM]
  constructor
  · intro g
    by_cases ha : 0 ≤ (q b).alpha
    · exact .inl ha
    · exact .inr fun m hm => ((C116_zheng_satellites _ _).1 (g m hm)).resolve_right ha
  · rintro (g | g) m hm
    · exact (C116_zheng_satellites _ _).2 (.inr g)
    · exact (C116_zheng_satellites _ _).2 (.inl (g m hm))

/-- C116: with occupations that are numbers on halo masses above zero, the densities are numbers; the fraction of
centrals and of satellites and the bias at a redshift of the sample are numbers exactly when the number density there is not
zero. -/
theorem C116_ratios (s : Same h cen sat) (b j : ℕ) (hM : ∀ m < h.nm, h.mass m ≠ 0)
    (hc : ∀ m < h.nm, (cen b j m).Ok) (hs : ∀ m < h.nm, (sat b j m).Ok) :
    (ncen h cen b j = .num (h.ncen b j) ∧ nsat h sat b j = .num (h.nsat b j) ∧ ntot h cen sat b j = .num (h.ntot b j)) ∧
    ((ncen h cen b j / ntot h cen sat b j).Ok ↔ h.ntot b j ≠ 0) ∧
    ((nsat h sat b j / ntot h cen sat b j).Ok ↔ h.ntot b j ≠ 0) ∧
    ((biasIntegral h cen sat (occ cen sat) b j).Ok ↔ h.ntot b j ≠ 0) := by
  have ho : ∀ m < h.nm, (occ cen sat b j m).Ok := fun m hm => by simp [occ, hc m hm, hs m hm]
  have e1 : ncen h cen b j = .num (h.ncen b j) :=
    eq_num_iff.2 ⟨(ok_massIntegral hM b j).2 hc, r_massIntegral s.cen b j ((ok_massIntegral hM b j).2 hc)⟩
  have e2 : nsat h sat b j = .num (h.nsat b j) :=
    eq_num_iff.2 ⟨(ok_massIntegral hM b j).2 hs, r_massIntegral s.sat b j ((ok_massIntegral hM b j).2 hs)⟩
  have e3 : ntot h cen sat b j = .num (h.ntot b j) :=
    eq_num_iff.2 ⟨(ok_massIntegral hM b j).2 ho, r_massIntegral s.occ b j ((ok_massIntegral hM b j).2 ho)⟩
  refine ⟨⟨e1, e2, e3⟩, ?_, ?_, ?_⟩
  · rw [e1, e3, ok_div]; simp
  · rw [e2, e3, ok_div]; simp
  · unfold biasIntegral
    rw [e3, ok_div, ok_simpson]
    simp only [ok_num, val_num, true_and]
    refine ⟨fun g => g.2, fun g => ⟨fun m hm => ?_, g⟩⟩
    simp [ok_div, hM m hm, ho m hm]

/-- C116: at a redshift of the spectra.  Inside the redshift range of the sample the fractions are numbers exactly when
neither of the two neighbouring sample redshifts has number density zero; outside they are the number 0.  The bias, which is
extrapolated, needs the same of the two sample redshifts it uses, everywhere.  The number density is always a number. -/
theorem C116_spectra (s : Same h cen sat) (b i : ℕ) (hnz : 2 ≤ h.nz) (hz : SortedOn h.nz (h.z b))
    (hM : ∀ m < h.nm, h.mass m ≠ 0) (hc : ∀ j, ∀ m < h.nm, (cen b j m).Ok) (hs : ∀ j, ∀ m < h.nm, (sat b j m).Ok) :
    let j := Lib.segment h.nz (h.z b) (h.zVec i)
    let dense := h.ntot b (j - 1) ≠ 0 ∧ h.ntot b j ≠ 0
    (numberDensity h cen sat b i = .num (h.numberDensity b i)) ∧
    ((galaxyLinearBias h cen sat b i).Ok ↔ dense) ∧
    (h.z b 0 ≤ h.zVec i → h.zVec i ≤ h.z b (h.nz - 1) →
      (((fC h cen sat b i).Ok ↔ dense) ∧ ((fS h cen sat b i).Ok ↔ dense))) ∧
    (h.zVec i < h.z b 0 ∨ h.z b (h.nz - 1) < h.zVec i → fC h cen sat b i = .num 0 ∧ fS h cen sat b i = .num 0) := by
  intro j dense
  have R := fun j => C116_ratios s b j hM (hc j) (hs j)
  have hd : (numberDensity h cen sat b i).Ok := by
    unfold numberDensity interpolate interpCk
    simp only
    rw [ok_interp hnz hz, (R _).1.2.2, (R _).1.2.2]
    exact ⟨trivial, trivial⟩
  refine ⟨eq_num_iff.2 ⟨hd, r_numberDensity s b i hd⟩, ?_, ?_, ?_⟩
  · unfold galaxyLinearBias interpolate interpCk
    simp only
    rw [ok_interp hnz hz, (R _).2.2.2, (R _).2.2.2]
    exact and_comm
  · intro h0 h1
    have hn : ¬ (h.zVec i < h.z b 0 ∨ h.z b (h.nz - 1) < h.zVec i) := by
      rintro (g | g) <;> linarith
    unfold fC fS interpolate interpCk
    simp only [hn, if_false]
    rw [ok_interp hnz hz, ok_interp hnz hz, (R _).2.1, (R _).2.1, (R _).2.2.1, (R _).2.2.1]
    exact ⟨and_comm, and_comm⟩
  · intro g
    unfold fC fS interpolate interpCk
    simp only [g, if_true, and_self]

/-- the hypotheses are met by the small occupation model of `HodBase`, where everything is a number -/
example : (fC demo (fun b j m => .num (demo.occCen b j m)) (fun b j m => .num (demo.occSat b j m)) 0 0).Ok ∧
    (galaxyLinearBias demo (fun b j m => .num (demo.occCen b j m)) (fun b j m => .num (demo.occSat b j m)) 0 1).Ok := by
  have s : Same demo (fun b j m => .num (demo.occCen b j m)) (fun b j m => .num (demo.occSat b j m)) :=
    ⟨fun _ _ _ => Refines.num _, fun _ _ _ => Refines.num _⟩
  have hM : ∀ m < demo.nm, demo.mass m ≠ 0 := fun m _ => by simp only [demo]; positivity
  have h := fun i => C116_spectra s 0 i (by decide) demo_sorted.1 hM (fun _ _ _ => trivial) (fun _ _ _ => trivial)
  have hd : ∀ j, demo.ntot 0 j ≠ 0 := fun j => (demo_ntot j).1.ne'
  exact ⟨((h 0).2.2.1 (by simp [demo]) (by simp [demo])).1.2 ⟨hd _, hd _⟩, (h 1).2.1.2 ⟨hd _, hd _⟩⟩

/-- C116: a sample without galaxies.  If no halo of the grid holds a galaxy, the number density is 0 at every redshift, and
the fractions inside the redshift range of the sample and the bias everywhere are not numbers. -/
theorem C116_no_galaxies (s : Same h cen sat) (b i : ℕ) (hnz : 2 ≤ h.nz) (hz : SortedOn h.nz (h.z b))
    (hM : ∀ m < h.nm, h.mass m ≠ 0) (hc : ∀ j, ∀ m < h.nm, cen b j m = .num 0) (hs : ∀ j, ∀ m < h.nm, sat b j m = .num 0) :
    numberDensity h cen sat b i = .num 0 ∧ ¬ (galaxyLinearBias h cen sat b i).Ok ∧
    (h.z b 0 ≤ h.zVec i → h.zVec i ≤ h.z b (h.nz - 1) → ¬ (fC h cen sat b i).Ok ∧ ¬ (fS h cen sat b i).Ok) := by
  have hc' : ∀ j, ∀ m < h.nm, (cen b j m).Ok := fun j m hm => by rw [hc j m hm]; trivial
  have hs' : ∀ j, ∀ m < h.nm, (sat b j m).Ok := fun j m hm => by rw [hs j m hm]; trivial
  have h0 : ∀ j, h.ntot b j = 0 := by
    intro j
    unfold Base.ntot Base.massIntegral
    rw [← simpson_zero h.nm h.mass]
    refine simpson_congr_right fun m hm => ?_
    have e1 : h.occCen b j m = 0 := by rw [← s.cen b j m (hc' j m hm), hc j m hm, val_num]
    have e2 : h.occSat b j m = 0 := by rw [← s.sat b j m (hs' j m hm), hs j m hm, val_num]
    simp [Base.occ, e1, e2]
  obtain ⟨a1, a2, a3, -⟩ := C116_spectra s b i hnz hz hM hc' hs'
  refine ⟨?_, ?_, ?_⟩
  · rw [a1]
    unfold Base.numberDensity Base.interpolate interp1d interpLinear
    simp [h0]
  · rw [a2]; exact fun g => g.2 (h0 _)
  · intro l u
    rw [(a3 l u).1, (a3 l u).2]
    exact ⟨fun g => g.2 (h0 _), fun g => g.2 (h0 _)⟩

end

/-- C116: the same for `Simple`, with the threshold `Mmin` above every mass of the grid. -/
theorem C116_simple_threshold_above_grid (h : Base) (p : ℕ → StepParams) (b i : ℕ) (hnz : 2 ≤ h.nz)
    (hz : SortedOn h.nz (h.z b)) (hM : ∀ m < h.nm, 0 < h.mass m)
    (ec : ∀ b j m, h.occCen b j m = Hod.simpleCen (p b) (h.mass m))
    (es : ∀ b j m, h.occSat b j m = Hod.simpleSat (p b) (h.mass m))
    (hlow : ∀ m < h.nm, h.mass m < (10 : ℝ) ^ (p b).log10Mmin) :
    numberDensity h (fun b _ m => simpleCen (p b) (h.mass m)) (fun b _ m => simpleSat (p b) (h.mass m)) b i = .num 0 ∧
    ¬ (galaxyLinearBias h (fun b _ m => simpleCen (p b) (h.mass m)) (fun b _ m => simpleSat (p b) (h.mass m)) b i).Ok ∧
    (h.z b 0 ≤ h.zVec i → h.zVec i ≤ h.z b (h.nz - 1) →
      ¬ (fC h (fun b _ m => simpleCen (p b) (h.mass m)) (fun b _ m => simpleSat (p b) (h.mass m)) b i).Ok ∧
      ¬ (fS h (fun b _ m => simpleCen (p b) (h.mass m)) (fun b _ m => simpleSat (p b) (h.mass m)) b i).Ok) := by
  have A := fun m hm => C116_always (p b) ⟨0, 0, 0, 0, 0, none, none⟩ ⟨0, 0, 0, 0, 0, none, none⟩ (h.mass m) (hM m hm)
  refine C116_no_galaxies ⟨fun b j m => ?_, fun b j m => ?_⟩ b i hnz hz (fun m hm => (hM m hm).ne') (fun _ m hm => ?_)
    (fun _ m hm => ?_)
  · rw [ec]; exact r_simpleCen _ _
  · rw [es]; exact r_simpleSat _ _
  · exact eq_num_iff.2 ⟨(A m hm).1, by
      rw [r_simpleCen _ _ (A m hm).1]; exact (C39_simple_empty_below (p b) (h.mass m) (hlow m hm)).1⟩
  · exact eq_num_iff.2 ⟨(A m hm).2.1, by
      rw [r_simpleSat _ _ (A m hm).2.1]; exact (C39_simple_empty_below (p b) (h.mass m) (hlow m hm)).2⟩

/-- Simpson's rule of positive values on a gentle grid is positive. -/
theorem simpson_pos {n : ℕ} {x y : ℕ → ℝ} (g : GentleGrid n x) (hn : 3 ≤ n) (hy : ∀ i < n, 0 < y i) : 0 < simpson n x y := by
  obtain ⟨e, he, hle⟩ : ∃ e > 0, ∀ i < n, e ≤ y i := by
    clear g hn
    induction n with
    | zero => exact ⟨1, one_pos, fun i hi => absurd hi (by omega)⟩
    | succ n ih =>
      obtain ⟨e, he, hle⟩ := ih fun i hi => hy i (by omega)
      refine ⟨min e (y n), lt_min he (hy n (by omega)), fun i hi => ?_⟩
      rcases Nat.lt_succ_iff_lt_or_eq.mp hi with h | rfl
      · exact (min_le_left _ _).trans (hle i h)
      · exact min_le_right _ _
  have hx : ∀ i, i + 1 < n → x i < x (i + 1) := fun i hi => sub_pos.1 (g.step_pos i hi)
  have h1 := simpson_quadratic hn hx e 0 0
  have h2 : simpson n x (fun i => e + 0 * x i + 0 * x i ^ 2) ≤ simpson n x y :=
    simpson_mono g fun i hi => by simpa using hle i hi
  have h3 : x 0 < x (n - 1) := sortedOn_of_step hx 0 (n - 1) (by omega) (by omega)
  rw [h1] at h2
  nlinarith

theorem decorateCen_pos {A : Option ℝ} (hA : ∀ a ∈ A, |a| < 1) {N : ℝ} (hN : 0 < N) : 0 < Hod.decorateCen A N := by
  cases A with
  | none => exact hN
  | some a =>
    obtain ⟨h1, h2⟩ := abs_lt.1 (hA a rfl)
    unfold Hod.decorateCen
    simp only
    rcases le_total N (1 - N) with h | h
    · rw [min_eq_left h]; nlinarith
    · rw [min_eq_right h]
      rcases le_total a 0 with ha | ha
      · rcases le_total N 1 with h' | h' <;> nlinarith
      · nlinarith

theorem decorateSat_pos {A : Option ℝ} (hA : ∀ a ∈ A, -1 < a) {N : ℝ} (hN : 0 < N) : 0 < Hod.decorateSat A N := by
  cases A with
  | none => exact hN
  | some a =>
    have := hA a rfl
    unfold Hod.decorateSat
    simp only
    nlinarith

/-- C116: the conditional observable function.  With scatter above zero, `norm_s` above zero, a decoration smaller than one,
gentle grids of observables and masses above zero, a mass function above zero, and the sample redshifts inside the redshifts
of the spectra, the number density of every sample redshift is above zero and every quantity is a number. -/
theorem C116_cacciato_all_numbers (h : Base) (p : CacciatoParams) (n : ℕ) (obs : ℕ → ℕ → ℕ → ℝ) (b i : ℕ)
    (hσ : 0 < p.sigmaLog10Oc) (hns : 0 < p.normS) (hA : ∀ a ∈ p.aCen, |a| < 1) (hB : ∀ a ∈ p.aSat, -1 < a)
    (hn : 3 ≤ n) (go : ∀ j, GentleGrid n (obs b j)) (ho : ∀ j, ∀ o < n, 0 < obs b j o)
    (hnm : 3 ≤ h.nm) (gm : GentleGrid h.nm h.mass) (hM : ∀ m, 0 < h.mass m)
    (hnv : 2 ≤ h.nzv) (hzv : SortedOn h.nzv h.zVec) (hnz : 2 ≤ h.nz) (hz : SortedOn h.nz (h.z b))
    (hin : ∀ j < h.nz, h.zVec 0 ≤ h.z b j ∧ h.z b j ≤ h.zVec (h.nzv - 1)) (hd : ∀ i < h.nzv, ∀ m < h.nm, 0 < h.dndlnm i m)
    (ec : ∀ b j m, h.occCen b j m = p.hodCen n (obs b j) (h.mass m))
    (es : ∀ b j m, h.occSat b j m = p.hodSat n (obs b j) (h.mass m)) :
    (∀ j < h.nz, 0 < h.ntot b j) ∧
    (fC h (fun b j m => hodCen p n (obs b j) (h.mass m)) (fun b j m => hodSat p n (obs b j) (h.mass m)) b i).Ok ∧
    (fS h (fun b j m => hodCen p n (obs b j) (h.mass m)) (fun b j m => hodSat p n (obs b j) (h.mass m)) b i).Ok ∧
    (galaxyLinearBias h (fun b j m => hodCen p n (obs b j) (h.mass m))
      (fun b j m => hodSat p n (obs b j) (h.mass m)) b i).Ok := by
  have s : Same h (fun b j m => hodCen p n (obs b j) (h.mass m)) (fun b j m => hodSat p n (obs b j) (h.mass m)) :=
    ⟨fun b j m => by rw [ec]; exact r_hodCen _ _ _ _, fun b j m => by rw [es]; exact r_hodSat _ _ _ _⟩
  have okc : ∀ j, ∀ m < h.nm, (hodCen p n (obs b j) (h.mass m)).Ok := fun j m _ =>
    ((C116_cacciato_occupation p n (obs b j) (h.mass m) (hM m) (by omega) (ho j)).1).2 hσ.ne'
  have oks : ∀ j, ∀ m < h.nm, (hodSat p n (obs b j) (h.mass m)).Ok := fun j m _ =>
    ((C116_cacciato_occupation p n (obs b j) (h.mass m) (hM m) (by omega) (ho j)).2.2.1).2 (.inl hns)
  have pos : ∀ j < h.nz, 0 < h.ntot b j := by
    intro j hj
    refine simpson_pos gm hnm fun m hm => ?_
    have hdn : 0 < h.dndlnmInt b j m := by
      obtain ⟨k, t, hk1, hk2, ht0, ht1, -, hv⟩ := interpLinear_convex hnv hzv (hin j hj).1 (hin j hj).2
      change 0 < interpLinear h.nzv h.zVec (fun i => h.dndlnm i m) (h.z b j)
      rw [hv]
      have a1 := hd (k - 1) (by omega) m hm
      have a2 := hd k hk2 m hm
      rcases eq_or_lt_of_le ht0 with rfl | ht
      · simpa using a1
      · nlinarith [mul_pos ht a2, mul_nonneg (sub_nonneg.2 ht1) a1.le]
    have hc : 0 < h.occCen b j m := by
      rw [ec]
      refine decorateCen_pos hA (simpson_pos (go j) hn fun o hO => ?_)
      have := ho j o hO
      have hl : 0 < Real.log 10 := Real.log_pos (by norm_num)
      unfold CacciatoParams.cofCen
      positivity
    have hs : 0 < h.occSat b j m := by
      rw [es]
      refine decorateSat_pos hB (simpson_pos (go j) hn fun o hO => ?_)
      have := ho j o hO
      have := p.meanObsC_pos (hM m)
      unfold CacciatoParams.cofSat CacciatoParams.phiStarS
      positivity
    have := hM m
    unfold Base.occ
    positivity
  obtain ⟨-, a2, a3, a4⟩ := C116_spectra s b i hnz hz (fun m _ => (hM m).ne') okc oks
  have h1 := segment_pos h.nz (h.z b) (h.zVec i)
  have h2 := segment_lt hnz (h.z b) (h.zVec i)
  have dense := And.intro (pos (Lib.segment h.nz (h.z b) (h.zVec i) - 1) (by omega)).ne' (pos _ h2).ne'
  refine ⟨pos, ?_, ?_, a2.2 dense⟩
  · by_cases hr : h.zVec i < h.z b 0 ∨ h.z b (h.nz - 1) < h.zVec i
    · rw [(a4 hr).1]; trivial
    · push Not at hr; exact (a3 hr.1 hr.2).1.2 dense
  · by_cases hr : h.zVec i < h.z b 0 ∨ h.z b (h.nz - 1) < h.zVec i
    · rw [(a4 hr).2]; trivial
    · push Not at hr; exact (a3 hr.1 hr.2).2.2 dense

/-- the hypotheses are met: three masses and three observables 1, 2, 3, with centrals and satellites decorated -/
example : ∃ (h : Base) (p : CacciatoParams) (obs : ℕ → ℕ → ℕ → ℝ), p.aCen = some (1 / 2) ∧
    0 < h.ntot 0 1 ∧
    (fC h (fun b j m => hodCen p 3 (obs b j) (h.mass m)) (fun b j m => hodSat p 3 (obs b j) (h.mass m)) 0 0).Ok := by
  let p : CacciatoParams := ⟨0, 0, 3, 1, 1 / 5, 1 / 2, 12, -1, 2, 0, 1, 0, some (1 / 2), some 1⟩
  let obs : ℕ → ℕ → ℕ → ℝ := fun _ _ o => (o : ℝ) + 1
  let h : Base := { demo with
    occCen := fun b j m => p.hodCen 3 (obs b j) (demo.mass m)
    occSat := fun b j m => p.hodSat 3 (obs b j) (demo.mass m) }
  have hz := demo_sorted
  have hp : ∀ m : ℕ, (0 : ℝ) < (m : ℝ) + 1 := fun m => by positivity
  have gg : GentleGrid 3 (fun o : ℕ => (o : ℝ) + 1) :=
    ⟨fun i _ => by push_cast; linarith, fun i _ => by push_cast; linarith, fun i _ => by push_cast; linarith⟩
  have R := C116_cacciato_all_numbers h p 3 obs 0 0 (by norm_num [p]) (by norm_num [p])
    (fun a ha => by obtain rfl : (1 / 2 : ℝ) = a := Option.some.inj ha; rw [abs_lt]; norm_num)
    (fun a ha => by obtain rfl : (1 : ℝ) = a := Option.some.inj ha; norm_num) le_rfl (fun _ => gg) (fun _ o _ => hp o)
    le_rfl gg (fun m => hp m) le_rfl hz.2 le_rfl hz.1
    (fun j hj => by
      have hj' : j < 2 := hj
      have : (j : ℝ) ≤ 1 := by exact_mod_cast Nat.lt_succ_iff.1 hj'
      change ((0 : ℕ) : ℝ) ≤ (j : ℝ) / 2 ∧ (j : ℝ) / 2 ≤ ((2 - 1 : ℕ) : ℝ)
      push_cast
      constructor
      · positivity
      · linarith)
    (fun i _ m _ => by change (0 : ℝ) < ((m : ℝ) + 1) * ((i : ℝ) + 1); positivity)
    (fun _ _ _ => rfl) (fun _ _ _ => rfl)
  exact ⟨h, p, obs, rfl, R.1 1 (by decide), R.2.1⟩

/-- the hypotheses of the threshold theorem are met: masses 1, 2, 3 and `Mmin = 10` -/
example : ∃ (h : Base) (p : ℕ → StepParams), h.nm = 3 ∧
    ¬ (fC h (fun b _ m => simpleCen (p b) (h.mass m)) (fun b _ m => simpleSat (p b) (h.mass m)) 0 0).Ok := by
  let p : ℕ → StepParams := fun _ => ⟨1, 1, 1, none, none⟩
  let h : Base := { demo with
    occCen := fun b _ m => Hod.simpleCen (p b) (demo.mass m)
    occSat := fun b _ m => Hod.simpleSat (p b) (demo.mass m) }
  have R := C116_simple_threshold_above_grid h p 0 0 le_rfl demo_sorted.1
    (fun m _ => by change (0 : ℝ) < (m : ℝ) + 1; positivity) (fun _ _ _ => rfl) (fun _ _ _ => rfl)
    (fun m hm => by
      have hm' : m < 3 := hm
      have : (m : ℝ) ≤ 2 := by exact_mod_cast Nat.lt_succ_iff.1 hm'
      change (m : ℝ) + 1 < (10 : ℝ) ^ (1 : ℝ)
      rw [Real.rpow_one]; linarith)
  exact ⟨h, p, rfl, (R.2.2 (by simp [h, demo]) (by simp [h, demo])).1⟩

end Verif.HodChecked

import Verif.Props.PkIdentities
import Verif.Props.PkBaryons

/-! Properties C14–C16: signs of the spectra and the 1-halo Cauchy–Schwarz inequality. -/

namespace Verif.Pk

open Verif.Lib Verif.Spec Spectra

/-- Logarithmic mass grids `10^(a + i d)` with `10^d ≤ 2` (default `d = 0.05`) meet the step condition. -/
theorem logGrid_gentle (n : ℕ) (a d : ℝ) (hd : 0 < d) (h2 : (10 : ℝ) ^ d ≤ 2) :
    GentleGrid n (fun i => (10 : ℝ) ^ (a + i * d)) := by
  set r := (10 : ℝ) ^ d with hr
  have h1 : 1 < r := Real.one_lt_rpow (by norm_num) hd
  have e : ∀ i : ℕ, (10 : ℝ) ^ (a + i * d) = 10 ^ a * r ^ i := by
    intro i
    rw [Real.rpow_add (by norm_num), mul_comm (i : ℝ), Real.rpow_mul_natCast (by norm_num)]
  have hp : ∀ i : ℕ, 0 < (10 : ℝ) ^ a * r ^ i := fun i => by positivity
  constructor
  · intro i _
    rw [e, e, pow_succ]
    nlinarith [hp i]
  · intro i _
    rw [e, e, e, show r ^ (i + 2) = r ^ i * r * r by ring, show r ^ (i + 1) = r ^ i * r by ring]
    have := mul_nonneg (mul_nonneg (hp i).le (sub_nonneg.2 h1.le)) (sub_nonneg.2 h2)
    nlinarith
  · intro i _
    rw [e, e, e, show r ^ (i + 2) = r ^ i * r * r by ring, show r ^ (i + 1) = r ^ i * r by ring]
    have := mul_pos (mul_pos (hp i) (sub_pos.2 h1)) (by linarith : 0 < 2 * r - 1)
    nlinarith

/-- the default spacing `dlog10m = 0.05` -/
example : (10 : ℝ) ^ (0.05 : ℝ) ≤ 2 := by
  have : (10 : ℝ) ^ (0.05 : ℝ) ≤ (2 ^ (20 : ℝ)) ^ (0.05 : ℝ) :=
    Real.rpow_le_rpow (by norm_num) (by norm_num) (by norm_num)
  refine this.trans ?_
  rw [← Real.rpow_mul (by norm_num)]
  norm_num

/-! ## Dampings are non-negative for all inputs -/

theorem oneHaloTruncation_nonneg (s : Spectra) (k : ℕ) : 0 ≤ s.oneHaloTruncation k := by
  unfold oneHaloTruncation; split
  · norm_num
  · positivity

theorem oneHaloTruncationIa_nonneg (s : Spectra) (k : ℕ) : 0 ≤ s.oneHaloTruncationIa k := by
  unfold oneHaloTruncationIa; split
  · norm_num
  · rw [sub_nonneg, Real.exp_le_one_iff, Left.neg_nonpos_iff]; positivity

theorem twoHaloTruncationIa_nonneg (s : Spectra) (k : ℕ) : 0 ≤ s.twoHaloTruncationIa k := by
  unfold twoHaloTruncationIa; split
  · norm_num
  · exact (Real.exp_pos _).le

theorem oneHaloTruncationMead_nonneg (s : Spectra) (z k : ℕ) : 0 ≤ s.oneHaloTruncationMead z k := by
  unfold oneHaloTruncationMead; positivity

/-! ## C14 -/

theorem compute1h_nonneg (s : Spectra) (g : GentleGrid s.nm s.mass) (hm : ∀ m < s.nm, 0 < s.mass m)
    (z : ℕ) (hn : ∀ m < s.nm, 0 ≤ s.dndlnm z m) (u v : ℕ → ℝ) (huv : ∀ m < s.nm, 0 ≤ u m * v m) :
    0 ≤ s.compute1hTerm u v z :=
  simpson_nonneg g fun m h => div_nonneg (mul_nonneg (huv m h) (hn m h)) (hm m h).le

/-- C14: 1-halo matter power, every mode. -/
theorem C14_mm_1h_nonneg (s : Spectra) (g : GentleGrid s.nm s.mass) (hm : ∀ m < s.nm, 0 < s.mass m)
    (hn : ∀ z, ∀ m < s.nm, 0 ≤ s.dndlnm z m) {r : PkResult} (h : s.powerSpectrumMm = .ok r)
    (b z k : ℕ) : 0 ≤ r.pk1h b z k := by
  have H := compute1h_nonneg s g hm z (hn z) (s.matterProfile1hMm z k) (s.matterProfile1hMm z k)
    (fun m _ => mul_self_nonneg _)
  unfold powerSpectrumMm at h
  split_ifs at h
  · cases h; exact le_rfl
  · unfold powerSpectrumMmRaw at h
    cases hmode : s.nonlinearMode <;> simp only [hmode] at h
    · cases h; exact mul_nonneg H (oneHaloTruncation_nonneg s k)
    · cases h; exact mul_nonneg H (oneHaloTruncation_nonneg s k)
    · split_ifs at h
      cases h; exact mul_nonneg H (oneHaloTruncationMead_nonneg s z k)
    · cases h; exact mul_nonneg H (oneHaloTruncation_nonneg s k)

/-- C14: 1-halo II power, every mode. -/
theorem C14_ii_1h_nonneg (s : Spectra) (g : GentleGrid s.nm s.mass) (hm : ∀ m < s.nm, 0 < s.mass m)
    (hn : ∀ z, ∀ m < s.nm, 0 ≤ s.dndlnm z m) (hresp : s.response = false) {r : PkResult}
    (h : s.powerSpectrumIi = .ok r) (b z k : ℕ) : 0 ≤ r.pk1h b z k := by
  rw [(C03_no_error s hresp).2.2.2.1] at h
  cases h
  have H := mul_nonneg (compute1h_nonneg s g hm z (hn z) (s.satelliteAlignmentProfile b z k)
    (s.satelliteAlignmentProfile b z k) (fun m _ => mul_self_nonneg _)) (oneHaloTruncationIa_nonneg s k)
  unfold powerSpectrumIiRaw
  cases s.nonlinearMode <;> exact H

/-- C14: 1-halo galaxy power, for non-negative occupations, profiles, fractions and Poisson factor. -/
theorem C14_gg_1h_nonneg (s : Spectra) (g : GentleGrid s.nm s.mass) (hm : ∀ m < s.nm, 0 < s.mass m)
    (hn : ∀ z, ∀ m < s.nm, 0 ≤ s.dndlnm z m) (hresp : s.response = false)
    (hcen : ∀ b z, ∀ m < s.nm, 0 ≤ s.hodCen b z m) (hsat : ∀ b z, ∀ m < s.nm, 0 ≤ s.hodSat b z m)
    (hu : ∀ z k, ∀ m < s.nm, 0 ≤ s.uSat z k m) (hfc : ∀ b z, 0 ≤ s.fC b z) (hfs : ∀ b z, 0 ≤ s.fS b z)
    (hnc : ∀ b z, 0 < s.numberDensityCen b z) (hns : ∀ b z, 0 < s.numberDensitySat b z)
    (hp : ∀ m < s.nm, 0 ≤ s.poissonFunc m) {r : PkResult}
    (h : s.powerSpectrumGg = .ok r) (b z k : ℕ) : 0 ≤ r.pk1h b z k := by
  rw [(C03_no_error s hresp).1] at h
  cases h
  have hc : ∀ m < s.nm, 0 ≤ s.centralGalaxyProfile b z k m := fun m h => by
    unfold centralGalaxyProfile
    exact div_nonneg (mul_nonneg (mul_nonneg (hfc b z) (hcen b z m h)) zero_le_one) (hnc b z).le
  have hs : ∀ m < s.nm, 0 ≤ s.satelliteGalaxyProfile b z k m := fun m h => by
    unfold satelliteGalaxyProfile
    exact div_nonneg (mul_nonneg (mul_nonneg (hfs b z) (hsat b z m h)) (hu z k m h)) (hns b z).le
  have h1 := compute1h_nonneg s g hm z (hn z) (s.centralGalaxyProfile b z k)
    (s.satelliteGalaxyProfile b z k) (fun m h => mul_nonneg (hc m h) (hs m h))
  have h2 := compute1h_nonneg s g hm z (hn z)
    (fun m => s.satelliteGalaxyProfile b z k m * s.poissonFunc m)
    (s.satelliteGalaxyProfile b z k)
    (fun m h => mul_nonneg (mul_nonneg (hs m h) (hp m h)) (hs m h))
  have h3 := oneHaloTruncation_nonneg s k
  have := mul_nonneg h1 h3
  have := mul_nonneg h2 h3
  simp only [powerSpectrumGgRaw]
  linarith

/-- demonstration object on the coarse grid 1, 2, 5 with satellites aligned only in the lightest halos -/
noncomputable def demoCoarse : Spectra :=
  { demo with
    mass := fun m => if m = 0 then 1 else if m = 1 then 2 else 5
    wkmSat := fun _ _ m => if m = 0 then 1 else 0 }

/-- C14: the step condition is needed: on a sorted grid with one step three times the previous one and all
inputs non-negative, the 1-halo II power is negative. -/
theorem C14_coarse_grid_negative : ∃ (s : Spectra) (r : PkResult),
    (∀ i, i + 1 < s.nm → s.mass i < s.mass (i + 1)) ∧ (∀ m < s.nm, 0 < s.mass m) ∧
    (∀ z, ∀ m < s.nm, 0 < s.dndlnm z m) ∧ (∀ z k, ∀ m < s.nm, 0 ≤ s.wkmSat z k m) ∧
    (∀ b z, ∀ m < s.nm, 0 ≤ s.hodSat b z m) ∧
    s.response = false ∧ s.powerSpectrumIi = .ok r ∧ r.pk1h 0 0 0 < 0 := by
  refine ⟨demoCoarse, _, ?_, ?_, ?_, ?_, ?_, rfl, (C03_no_error demoCoarse rfl).2.2.2.1, ?_⟩
  · intro i hi
    have : i < 2 := by change i + 1 < 3 at hi; omega
    interval_cases i <;> simp [demoCoarse] <;> norm_num
  · intro m _; simp only [demoCoarse]; split_ifs <;> norm_num
  · intro z m _; simp only [demoCoarse, demo]; positivity
  · intro z k m _; simp only [demoCoarse]; split_ifs <;> norm_num
  · intro b z m _; simp only [demoCoarse, demo]; positivity
  · have hT : 0 < demoCoarse.oneHaloTruncationIa 0 := by
      simp only [oneHaloTruncationIa, demoCoarse, demo]
      rw [sub_pos, Real.exp_lt_one_iff]
      norm_num
    have e : demoCoarse.powerSpectrumIiRaw.pk1h 0 0 0
      = demoCoarse.compute1hTerm (demoCoarse.satelliteAlignmentProfile 0 0 0)
        (demoCoarse.satelliteAlignmentProfile 0 0 0) 0 * demoCoarse.oneHaloTruncationIa 0 := rfl
    rw [e]
    refine mul_neg_of_neg_of_pos ?_ hT
    simp [compute1hTerm, simpson, basicSimpson, simpsonPanel, demoCoarse, demo,
      satelliteAlignmentProfile, additionalTerm]
    norm_num

example : GentleGrid demo.nm demo.mass ∧ (∀ m < demo.nm, 0 < demo.mass m) ∧
    (∀ z, ∀ m < demo.nm, 0 ≤ demo.dndlnm z m) ∧ (∀ b z, ∀ m < demo.nm, 0 ≤ demo.hodSat b z m) ∧
    (∀ z k, ∀ m < demo.nm, 0 ≤ demo.uSat z k m) ∧ (∀ b z, 0 < demo.numberDensitySat b z) := by
  refine ⟨demo_gentle, ?_, ?_, ?_, ?_, ?_⟩ <;> intros <;> simp only [demo, Hmi.uSat, demoRaw] <;> positivity

/-! ## C15 -/

/-- C15: Cauchy–Schwarz for 1-halo terms. -/
theorem C15_one_halo_cauchy_schwarz (s : Spectra) (g : GentleGrid s.nm s.mass)
    (hm : ∀ m < s.nm, 0 < s.mass m) (z : ℕ) (hn : ∀ m < s.nm, 0 ≤ s.dndlnm z m) (u v : ℕ → ℝ) :
    s.compute1hTerm u v z ^ 2 ≤ s.compute1hTerm u u z * s.compute1hTerm v v z := by
  have := simpson_cauchy_schwarz g u v (fun m => s.dndlnm z m / s.mass m)
    (fun m h => div_nonneg (hn m h) (hm m h).le)
  simpa only [compute1hTerm, mul_div_assoc] using this

/-- C15: MI against II and the matter term with the alignment damping; GI against II and the central term. -/
theorem C15_mi_gi (s : Spectra) (g : GentleGrid s.nm s.mass) (hm : ∀ m < s.nm, 0 < s.mass m)
    (hn : ∀ z, ∀ m < s.nm, 0 ≤ s.dndlnm z m) (hresp : s.response = false) :
    ∃ mi ii gi, s.powerSpectrumMi = .ok mi ∧ s.powerSpectrumIi = .ok ii ∧ s.powerSpectrumGi = .ok gi ∧
      ∀ b z k,
        mi.pk1h b z k ^ 2 ≤ ii.pk1h b z k *
          (s.compute1hTerm (s.matterProfile1hG b z k) (s.matterProfile1hG b z k) z
            * s.oneHaloTruncationIa k) ∧
        gi.pk1h b z k ^ 2 ≤ ii.pk1h b z k *
          (s.compute1hTerm (s.centralGalaxyProfile b z k) (s.centralGalaxyProfile b z k) z
            * s.oneHaloTruncationIa k) := by
  obtain ⟨-, -, a1, a2, a3⟩ := C03_no_error s hresp
  refine ⟨_, _, _, a1, a2, a3, fun b z k => ?_⟩
  have hT := mul_nonneg (oneHaloTruncationIa_nonneg s k) (oneHaloTruncationIa_nonneg s k)
  have e1 : s.powerSpectrumMiRaw.pk1h b z k
      = -1 * s.compute1hTerm (s.matterProfile1hG b z k) (s.satelliteAlignmentProfile b z k) z
        * s.oneHaloTruncationIa k := by
    unfold powerSpectrumMiRaw; cases s.nonlinearMode <;> rfl
  have e2 : s.powerSpectrumIiRaw.pk1h b z k
      = s.compute1hTerm (s.satelliteAlignmentProfile b z k) (s.satelliteAlignmentProfile b z k) z
        * s.oneHaloTruncationIa k := by
    unfold powerSpectrumIiRaw; cases s.nonlinearMode <;> rfl
  have e3 : s.powerSpectrumGiRaw.pk1h b z k
      = s.compute1hTerm (s.centralGalaxyProfile b z k) (s.satelliteAlignmentProfile b z k) z
        * s.oneHaloTruncationIa k := by
    unfold powerSpectrumGiRaw; cases s.nonlinearMode <;> rfl
  rw [e1, e2, e3]
  constructor
  · have := mul_le_mul_of_nonneg_right (C15_one_halo_cauchy_schwarz s g hm z (hn z)
      (s.matterProfile1hG b z k) (s.satelliteAlignmentProfile b z k)) hT
    nlinarith
  · have := mul_le_mul_of_nonneg_right (C15_one_halo_cauchy_schwarz s g hm z (hn z)
      (s.centralGalaxyProfile b z k) (s.satelliteAlignmentProfile b z k)) hT
    nlinarith

/-- C15: in terms of the reported matter spectrum (plain mode, no baryonic ingredients), after undoing the
two dampings. -/
theorem C15_mi_mm (s : Spectra) (g : GentleGrid s.nm s.mass) (hm : ∀ m < s.nm, 0 < s.mass m)
    (hn : ∀ z, ∀ m < s.nm, 0 ≤ s.dndlnm z m) (hresp : s.response = false)
    (hmode : s.nonlinearMode ≠ .hmcode) (hing : s.hmcodeIngredients = .none) (hpt : s.pointmass = false) :
    ∃ mi ii mm, s.powerSpectrumMi = .ok mi ∧ s.powerSpectrumIi = .ok ii ∧ s.powerSpectrumMm = .ok mm ∧
      ∀ b z k, mi.pk1h b z k ^ 2 * s.oneHaloTruncation k
        ≤ ii.pk1h b z k * mm.pk1h b z k * s.oneHaloTruncationIa k := by
  obtain ⟨mi, ii, gi, a1, a2, -, h⟩ := C15_mi_gi s g hm hn hresp
  have hmm : ∃ mm, s.powerSpectrumMm = .ok mm ∧ ∀ b z k, mm.pk1h b z k
      = s.compute1hTerm (s.matterProfile1hMm z k) (s.matterProfile1hMm z k) z * s.oneHaloTruncation k := by
    unfold powerSpectrumMm powerSpectrumMmRaw
    simp only [hresp, Bool.false_eq_true, if_false]
    cases hmo : s.nonlinearMode <;> simp only [hmo] at hmode ⊢ <;>
      first
        | exact absurd rfl hmode
        | exact ⟨_, rfl, fun _ _ _ => rfl⟩
  obtain ⟨mm, hmm, hmm1⟩ := hmm
  refine ⟨mi, ii, mm, a1, a2, hmm, fun b z k => ?_⟩
  have e : s.matterProfile1hG b z k = s.matterProfile1hMm z k := by
    funext m; unfold matterProfile1hG matterProfile1hMm; simp [hing, hpt]
  have h1 := mul_le_mul_of_nonneg_right (h b z k).1 (oneHaloTruncation_nonneg s k)
  rw [hmm1]
  rw [e] at h1
  nlinarith

/-! ## C16 -/

/-- The sign assumptions of C16: non-negative ingredients, positive densities and masses, a missing-mass
term that is not negative, and (only relevant with baryonic ingredients) stellar fractions within the baryon
budget. -/
structure NonnegInputs (s : Spectra) : Prop where
  grid : GentleGrid s.nm s.mass
  nm_pos : 0 < s.nm
  mass : ∀ m < s.nm, 0 < s.mass m
  dndlnm : ∀ z, ∀ m < s.nm, 0 ≤ s.dndlnm z m
  bias : ∀ z, ∀ m < s.nm, 0 ≤ s.haloBias z m
  density : ∀ z, 0 < s.meanDensity0 z
  uDm : ∀ z k, ∀ m < s.nm, 0 ≤ s.uDm z k m
  fC : ∀ b z, 0 ≤ s.fC b z
  fS : ∀ b z, 0 ≤ s.fS b z
  hodCen : ∀ b z, ∀ m < s.nm, 0 ≤ s.hodCen b z m
  hodSat : ∀ b z, ∀ m < s.nm, 0 ≤ s.hodSat b z m
  nCen : ∀ b z, 0 < s.numberDensityCen b z
  nSat : ∀ b z, 0 < s.numberDensitySat b z
  nTot : ∀ b z, 0 < s.numberDensity b z
  avgMass : ∀ b z, 0 ≤ s.avgHaloMassCen b z
  wkm : ∀ z k, ∀ m < s.nm, 0 ≤ s.wkmSat z k m
  gi : ∀ z, 0 ≤ s.alignmentGi z
  growth : ∀ z, 0 < s.growthFactor z
  pivotCen : ∀ M, s.mpivotCen = some M → 0 < M
  pivotSat : ∀ M, s.mpivotSat = some M → 0 < M
  aTerm : ∀ z, 0 ≤ s.aTerm z
  pkLin : ∀ z k, 0 ≤ s.pkLin z k
  omegaC : 0 ≤ s.omegaC
  omegaM : 0 < s.omegaM
  mb : 0 < s.mb
  stars : s.hmcodeIngredients = .mead2020Feedback →
    ∀ z, 0 ≤ s.fs (s.zVec z) ∧ s.fs (s.zVec z) ≤ s.omegaB / s.omegaM
  starsObs : s.hmcodeIngredients = .fit ∨ s.pointmass = true →
    ∀ b z, ∀ m < s.nm, 0 ≤ s.fstar b z m ∧ s.fstar b z m ≤ s.omegaB / s.omegaM

namespace NonnegInputs

variable {s : Spectra} (H : NonnegInputs s)
include H

theorem fit_nonneg {M ρ u Mb f : ℝ} (hM : 0 ≤ M) (hρ : 0 < ρ) (hu : 0 ≤ u) (hMb : 0 < Mb) (h0 : 0 ≤ f)
    (h1 : f ≤ s.omegaB / s.omegaM) : 0 ≤ s.computeMatterProfileFit M ρ u Mb f := by
  have hg := (C21_gas_fraction_range s M Mb f hMb H.omegaM.ne' h1).1
  have hc : 0 ≤ s.omegaC / s.omegaM := div_nonneg H.omegaC H.omegaM.le
  unfold computeMatterProfileFit
  positivity

theorem profileG (b z k : ℕ) : ∀ m < s.nm, 0 ≤ s.matterProfile1hG b z k m := by
  intro m hm
  have hM := (H.mass m hm).le
  have hp : 0 ≤ s.matterProfile z k m := by
    unfold matterProfile computeMatterProfile
    exact mul_nonneg (div_nonneg hM (H.density z).le) (H.uDm z k m hm)
  unfold matterProfile1hG
  cases hi : s.hmcodeIngredients
  · simp only
    split_ifs with hpt
    · have := H.starsObs (Or.inr hpt) b z m hm
      exact H.fit_nonneg hM (H.density z) (H.uDm z k m hm) H.mb this.1 this.2
    · exact hp
  · exact hp
  · have := H.stars hi z
    exact H.fit_nonneg hM (H.density z) (H.uDm z k m hm) (mbAgn_pos s _) this.1 this.2
  · have := H.starsObs (Or.inl hi) b z m hm
    exact H.fit_nonneg hM (H.density z) (H.uDm z k m hm) H.mb this.1 this.2

theorem additional_nonneg {β M : Option ℝ} (b z : ℕ) (hM : ∀ x, M = some x → 0 < x) :
    0 ≤ additionalTerm β M (s.massAvg b z) := by
  unfold additionalTerm
  split
  · rename_i β' M'
    exact Real.rpow_nonneg
      (div_nonneg (div_nonneg (H.avgMass b z) (H.nTot b z).le) (hM M' rfl).le) _
  · exact zero_le_one

theorem c1_nonneg (z : ℕ) : 0 ≤ s.c1 z := by
  have := H.gi z; unfold c1; positivity

theorem cenAlign (b z k : ℕ) : ∀ m < s.nm, 0 ≤ s.centralAlignmentProfile b z k m := by
  intro m hm
  have h1 := H.additional_nonneg (β := s.betaCen) b z H.pivotCen
  unfold centralAlignmentProfile
  exact mul_nonneg (mul_nonneg (mul_nonneg (H.fC b z) (div_nonneg (H.c1_nonneg z) (H.growth z).le))
    (H.mass m hm).le) h1

theorem satAlign (b z k : ℕ) : ∀ m < s.nm, 0 ≤ s.satelliteAlignmentProfile b z k m := by
  intro m hm
  have h1 := H.additional_nonneg (β := s.betaSat) b z H.pivotSat
  unfold satelliteAlignmentProfile
  exact mul_nonneg (div_nonneg (mul_nonneg (mul_nonneg (H.fS b z) (H.hodSat b z m hm))
    (H.wkm z k m hm)) (H.nSat b z).le) h1

theorem cenGal (b z k : ℕ) : ∀ m < s.nm, 0 ≤ s.centralGalaxyProfile b z k m := by
  intro m hm
  unfold centralGalaxyProfile
  exact div_nonneg (mul_nonneg (mul_nonneg (H.fC b z) (H.hodCen b z m hm)) zero_le_one) (H.nCen b z).le

theorem ig_nonneg (z : ℕ) (u : ℕ → ℝ) (hu : ∀ m < s.nm, 0 ≤ u m) : 0 ≤ s.computeIgTerm u z :=
  simpson_nonneg H.grid fun m hm =>
    div_nonneg (mul_nonneg (mul_nonneg (hu m hm) (H.bias z m hm)) (H.dndlnm z m hm)) (H.mass m hm).le

theorem align_nonneg (z : ℕ) (u : ℕ → ℝ) (hu : ∀ m < s.nm, 0 ≤ u m) :
    0 ≤ s.computeIgTerm u z + s.aTerm z * u 0 * s.meanDensity0 z / s.mass 0 :=
  add_nonneg (H.ig_nonneg z u hu)
    (div_nonneg (mul_nonneg (mul_nonneg (H.aTerm z) (hu 0 H.nm_pos)) (H.density z).le)
      (H.mass 0 H.nm_pos).le)

theorem im_nonneg (z k : ℕ) : 0 ≤ s.imTerm z k := by
  refine add_nonneg (simpson_nonneg H.grid fun m hm => ?_) (H.aTerm z)
  exact mul_nonneg (mul_nonneg (mul_nonneg (H.bias z m hm) (H.dndlnm z m hm)) (H.uDm z k m hm))
    (one_div_nonneg.2 (H.density z).le)

theorem oneH (z : ℕ) (u v : ℕ → ℝ) (hu : ∀ m < s.nm, 0 ≤ u m) (hv : ∀ m < s.nm, 0 ≤ v m) :
    0 ≤ s.compute1hTerm u v z :=
  compute1h_nonneg s H.grid H.mass z (H.dndlnm z) u v fun m hm => mul_nonneg (hu m hm) (hv m hm)

end NonnegInputs

/-- C16: signs of the alignment spectra (1-halo, 2-halo and total) in the plain mode, and in `hmcode` mode,
which uses the same alignment terms. -/
theorem C16_alignment_signs (s : Spectra) (H : NonnegInputs s) (hresp : s.response = false)
    (hmode : s.nonlinearMode = .none ∨ s.nonlinearMode = .hmcode) :
    ∃ mi ii gi, s.powerSpectrumMi = .ok mi ∧ s.powerSpectrumIi = .ok ii ∧ s.powerSpectrumGi = .ok gi ∧
      ∀ b z k,
        (mi.pk1h b z k ≤ 0 ∧ mi.pk2h b z k ≤ 0 ∧ mi.pkTot b z k ≤ 0) ∧
        (0 ≤ ii.pk1h b z k ∧ 0 ≤ ii.pk2h b z k ∧ 0 ≤ ii.pkTot b z k) ∧
        (0 ≤ gi.pk1h b z k ∧ 0 ≤ gi.pk2h b z k ∧ 0 ≤ gi.pkTot b z k) := by
  obtain ⟨-, -, a1, a2, a3⟩ := C03_no_error s hresp
  refine ⟨_, _, _, a1, a2, a3, fun b z k => ?_⟩
  have hP := H.pkLin z k
  have hT1 := oneHaloTruncationIa_nonneg s k
  have hT2 := twoHaloTruncationIa_nonneg s k
  have hI := H.im_nonneg z k
  have hc : 0 ≤ s.icAlignTerm b z k := H.align_nonneg z _ (H.cenAlign b z k)
  have hs : 0 ≤ s.isAlignTerm b z k := H.align_nonneg z _ (H.satAlign b z k)
  have hg : 0 ≤ s.icTerm b z k := H.ig_nonneg z _ (H.cenGal b z k)
  have o1 := mul_nonneg (H.oneH z _ _ (H.profileG b z k) (H.satAlign b z k)) hT1
  have o2 := mul_nonneg (H.oneH z _ _ (H.satAlign b z k) (H.satAlign b z k)) hT1
  have o3 := mul_nonneg (H.oneH z _ _ (H.cenGal b z k) (H.satAlign b z k)) hT1
  have p1 : 0 ≤ s.pkLin z k * s.isAlignTerm b z k * s.imTerm z k * s.twoHaloTruncationIa k := by positivity
  have p2 : 0 ≤ s.pkLin z k * s.icAlignTerm b z k * s.imTerm z k * s.twoHaloTruncationIa k := by positivity
  have p3 : 0 ≤ s.pkLin z k * s.isAlignTerm b z k * s.isAlignTerm b z k * s.twoHaloTruncationIa k := by
    positivity
  have p4 : 0 ≤ s.pkLin z k * s.icAlignTerm b z k * s.icAlignTerm b z k * s.twoHaloTruncationIa k := by
    positivity
  have p5 : 0 ≤ s.pkLin z k * s.icAlignTerm b z k * s.isAlignTerm b z k * s.twoHaloTruncationIa k := by
    positivity
  have p6 : 0 ≤ s.pkLin z k * s.icTerm b z k * s.icAlignTerm b z k * s.twoHaloTruncationIa k := by
    positivity
  have p7 : 0 ≤ s.pkLin z k * s.icTerm b z k * s.isAlignTerm b z k * s.twoHaloTruncationIa k := by
    positivity
  rcases hmode with hmode | hmode <;>
  · simp only [powerSpectrumMiRaw, powerSpectrumIiRaw, powerSpectrumGiRaw, hmode]
    refine ⟨⟨?_, ?_, ?_⟩, ⟨?_, ?_, ?_⟩, ⟨?_, ?_, ?_⟩⟩ <;> linarith

/-- C16: same signs in `fortuna` mode, given a non-negative non-linear power and `0 ≤ t_eff ≤ 1`. -/
theorem C16_alignment_signs_fortuna (s : Spectra) (H : NonnegInputs s) (hresp : s.response = false)
    (hmode : s.nonlinearMode = .fortuna) (hnl : ∀ z k, 0 ≤ s.pkNl z k) (ht : 0 ≤ s.tEff ∧ s.tEff ≤ 1) :
    ∃ mi ii gi, s.powerSpectrumMi = .ok mi ∧ s.powerSpectrumIi = .ok ii ∧ s.powerSpectrumGi = .ok gi ∧
      ∀ b z k, mi.pkTot b z k ≤ 0 ∧ 0 ≤ ii.pkTot b z k ∧ 0 ≤ gi.pkTot b z k := by
  obtain ⟨-, -, a1, a2, a3⟩ := C03_no_error s hresp
  refine ⟨_, _, _, a1, a2, a3, fun b z k => ?_⟩
  have hP := H.pkLin z k
  have hT1 := oneHaloTruncationIa_nonneg s k
  have hT2 := twoHaloTruncationIa_nonneg s k
  have hg : 0 ≤ s.icTerm b z k := H.ig_nonneg z _ (H.cenGal b z k)
  have o1 := mul_nonneg (H.oneH z _ _ (H.profileG b z k) (H.satAlign b z k)) hT1
  have o2 := mul_nonneg (H.oneH z _ _ (H.satAlign b z k) (H.satAlign b z k)) hT1
  have o3 := mul_nonneg (H.oneH z _ _ (H.cenGal b z k) (H.satAlign b z k)) hT1
  have hpe : 0 ≤ s.peffVal z k := by
    simp only [peffVal, peff, hmode, if_true, Option.getD_some]
    have := hnl z k
    have := mul_nonneg (sub_nonneg.2 ht.2) this
    have := mul_nonneg ht.1 hP
    linarith
  have hA : 0 ≤ s.c1 z * s.meanDensity0 z / s.growthFactor z :=
    div_nonneg (mul_nonneg (H.c1_nonneg z) (H.density z).le) (H.growth z).le
  have hf := H.fC b z
  simp only [powerSpectrumMiRaw, powerSpectrumIiRaw, powerSpectrumGiRaw, hmode, alignmentAmplitude2h,
    alignmentAmplitude2hII]
  set A := s.c1 z * s.meanDensity0 z / s.growthFactor z
  have p1 : 0 ≤ s.fC b z * s.peffVal z k * A * s.twoHaloTruncationIa k := by positivity
  have p2 : 0 ≤ s.fC b z ^ 2 * s.peffVal z k * A ^ 2 * s.twoHaloTruncationIa k := by positivity
  have p3 : 0 ≤ s.peffVal z k * s.icTerm b z k * A * s.twoHaloTruncationIa k := by positivity
  refine ⟨?_, ?_, ?_⟩ <;> linarith

theorem demo_nonnegInputs : NonnegInputs demo where
  grid := demo_gentle
  nm_pos := by decide
  mass := by intro m _; simp only [demo]; positivity
  dndlnm := by intro z m _; simp only [demo]; positivity
  bias := by intro z m _; simp only [demo]; norm_num
  density := by intro z; simp only [demo]; norm_num
  uDm := by intro z k m _; simp only [demo, Hmi.uDm, demoRaw]; positivity
  fC := by intro b z; simp only [demo]; norm_num
  fS := by intro b z; simp only [demo]; norm_num
  hodCen := by intro b z m _; simp only [demo]; norm_num
  hodSat := by intro b z m _; simp only [demo]; positivity
  nCen := by intro b z; simp only [demo]; norm_num
  nSat := by intro b z; simp only [demo]; norm_num
  nTot := by intro b z; simp only [demo]; norm_num
  avgMass := by intro b z; simp only [demo]; norm_num
  wkm := by intro z k m _; simp only [demo]; norm_num
  gi := by intro z; simp only [demo]; norm_num
  growth := by intro z; simp only [demo]; norm_num
  pivotCen := by intro M h; simp only [demo, Option.some.injEq] at h; rw [← h]; norm_num
  pivotSat := by intro M h; simp [demo] at h
  aTerm := by intro z; rw [demo_aTerm]; norm_num
  pkLin := by intro z k; simp only [demo]; norm_num
  omegaC := by simp only [demo]; norm_num
  omegaM := by simp only [demo]; norm_num
  mb := by simp only [demo]; norm_num
  stars := by intro h; simp [demo] at h
  starsObs := by intro h; simp [demo] at h

example : NonnegInputs demo ∧ demo.response = false ∧ demo.nonlinearMode = .none :=
  ⟨demo_nonnegInputs, rfl, rfl⟩

end Verif.Pk

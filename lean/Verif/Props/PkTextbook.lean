import Verif.Spec.HaloModel
import Verif.Props.PkInl
import Verif.Props.PkBaryons
import Verif.Props.HodSpectra

/-! Property C97: the spectra are those of the halo model as written in the literature (`Spec/HaloModel.lean`), with
the exceptions named in the theorems. -/

namespace Verif.Pk

open Verif.Lib Verif.Spec Spectra

/-- the haloes of the object at one redshift and wavenumber, integrated with Simpson's rule -/
noncomputable def haloes (s : Spectra) (z k : ℕ) : HaloModel where
  integral f := simpson s.nm s.mass f
  mass := s.mass
  number m := s.dndlnm z m / s.mass m
  bias := s.haloBias z
  linear := s.pkLin z k
  density := s.meanDensity0 z

/-- what is needed of the inputs: masses are not zero, there is a mass -/
structure Sampled (s : Spectra) : Prop where
  mass : ∀ m < s.nm, s.mass m ≠ 0
  some : 0 < s.nm

/-- what is needed of the galaxies in bin `b` at redshift `z`: densities are not zero, and the fractions are those of the
densities -/
structure Occupied (s : Spectra) (b z : ℕ) : Prop where
  tot : s.numberDensity b z ≠ 0
  cen : s.numberDensityCen b z ≠ 0
  sat : s.numberDensitySat b z ≠ 0
  fCen : s.fC b z = s.numberDensityCen b z / s.numberDensity b z
  fSat : s.fS b z = s.numberDensitySat b z / s.numberDensity b z

/-- galaxies of the object -/
noncomputable def galaxyWeight (s : Spectra) (b z k m : ℕ) : ℝ :=
  HaloModel.galaxies (s.hodCen b z) (s.hodSat b z) (s.numberDensity b z) (s.uSat z k) m

/-- satellites only, centrals only -/
noncomputable def cenWeight (s : Spectra) (b z k m : ℕ) : ℝ :=
  HaloModel.galaxies (s.hodCen b z) 0 (s.numberDensity b z) (s.uSat z k) m

noncomputable def satWeight (s : Spectra) (b z k m : ℕ) : ℝ :=
  HaloModel.galaxies 0 (s.hodSat b z) (s.numberDensity b z) (s.uSat z k) m

variable {s : Spectra} {b z k : ℕ}

theorem cen_profile (h : Occupied s b z) : s.centralGalaxyProfile b z k = cenWeight s b z k := by
  funext m
  simp only [centralGalaxyProfile, cenWeight, HaloModel.galaxies, h.fCen, Pi.zero_apply]
  field_simp [h.tot, h.cen]
  simp

theorem sat_profile (h : Occupied s b z) : s.satelliteGalaxyProfile b z k = satWeight s b z k := by
  funext m
  simp only [satelliteGalaxyProfile, satWeight, HaloModel.galaxies, h.fSat, Pi.zero_apply]
  field_simp [h.tot, h.sat]
  simp

theorem gal_weight (m : ℕ) : galaxyWeight s b z k m = cenWeight s b z k m + satWeight s b z k m := by
  simp only [galaxyWeight, cenWeight, satWeight, HaloModel.galaxies, Pi.zero_apply]
  ring

theorem oneHalo_eq (W V : ℕ → ℝ) : s.compute1hTerm W V z = (haloes s z k).oneHalo W V := by
  simp only [compute1hTerm, HaloModel.oneHalo, haloes, mul_div_assoc]

theorem bias1_eq (W : ℕ → ℝ) : s.computeIgTerm W z = (haloes s z k).bias1 W := by
  simp only [computeIgTerm, HaloModel.bias1, haloes, mul_div_assoc]

theorem bias1_add (W V : ℕ → ℝ) :
    (haloes s z k).bias1 (fun m => W m + V m) = (haloes s z k).bias1 W + (haloes s z k).bias1 V := by
  simp only [HaloModel.bias1, haloes]
  rw [← simpson_add]
  exact congrArg _ (funext fun m => by ring)

theorem oneHalo_add (W V U : ℕ → ℝ) :
    (haloes s z k).oneHalo (fun m => W m + V m) U = (haloes s z k).oneHalo W U + (haloes s z k).oneHalo V U := by
  simp only [HaloModel.oneHalo, haloes]
  rw [← simpson_add]
  exact congrArg _ (funext fun m => by ring)

theorem missing_eq (hm : Sampled s) : s.aTerm z = (haloes s z k).missing := by
  simp only [aTerm, HaloModel.missing, HaloModel.bias1, haloes]
  congr 1
  refine simpson_congr_right fun m h => ?_
  field_simp [hm.mass m h]

theorem matterBias_eq (hm : Sampled s) :
    s.imTerm z k = (haloes s z k).bias1 ((haloes s z k).matter (s.uDm z k)) + (haloes s z k).missing := by
  rw [imTerm, missing_eq (k := k) hm]
  congr 1
  simp only [computeImTerm, HaloModel.bias1, HaloModel.matter, haloes]
  refine simpson_congr_right fun m h => ?_
  field_simp [hm.mass m h]

/-- C97: matter.  Without feedback and outside the `bnl` and `hmcode` modes the matter spectrum is that of the halo model,
the missing mass being counted as if it were in haloes that are points. -/
theorem C97_matter (hm : Sampled s) (hmode : s.nonlinearMode = .none ∨ s.nonlinearMode = .fortuna)
    (hresp : s.response = false) (hi : s.hmcodeIngredients = .none ∨ s.hmcodeIngredients = .mead2020) :
    ∃ r, s.powerSpectrumMm = .ok r ∧ ∀ b z k,
      let h := haloes s z k
      let W := h.matter (s.uDm z k)
      r.pk1h b z k = h.oneHalo W W * s.oneHaloTruncation k ∧
        r.pk2h b z k = h.linear * (h.bias1 W + h.missing) ^ 2 * s.twoHaloTruncation k := by
  have hp : ∀ z k, s.matterProfile1hMm z k = (haloes s z k).matter (s.uDm z k) := by
    intro z k; funext m
    rcases hi with hi | hi <;> simp only [matterProfile1hMm, hi] <;> rfl
  have main : ∀ z k, s.pkLin z k * s.imTerm z k * s.imTerm z k * s.twoHaloTruncation k =
      (haloes s z k).linear * ((haloes s z k).bias1 ((haloes s z k).matter (s.uDm z k))
        + (haloes s z k).missing) ^ 2 * s.twoHaloTruncation k := by
    intro z k
    rw [matterBias_eq hm]
    simp only [haloes]
    ring
  rcases hmode with h | h
  · refine ⟨_, by simp only [powerSpectrumMm, hresp, powerSpectrumMmRaw, h]; rfl, fun b z k => ⟨?_, main z k⟩⟩
    dsimp only
    rw [hp, oneHalo_eq (k := k)]
  · refine ⟨_, by simp only [powerSpectrumMm, hresp, powerSpectrumMmRaw, h]; rfl, fun b z k => ⟨?_, main z k⟩⟩
    dsimp only
    rw [hp, oneHalo_eq (k := k)]

/-- C97: galaxies.  The 1-halo term counts pairs of a central and a satellite twice and pairs of satellites once, the latter
with the Poisson factor; pairs of a central with itself are left out; the 2-halo term is that of one field of galaxies. -/
theorem C97_galaxies (hmode : s.nonlinearMode ≠ .bnl) (hresp : s.response = false) :
    ∃ r, s.powerSpectrumGg = .ok r ∧ ∀ b z k, Occupied s b z →
      let h := haloes s z k
      r.pk1h b z k = h.integral (fun m => (2 * s.hodCen b z m * s.hodSat b z m * s.uSat z k m
          + s.poissonFunc m * (s.hodSat b z m * s.uSat z k m) ^ 2) / s.numberDensity b z ^ 2 * h.number m)
          * s.oneHaloTruncation k ∧
        r.pk2h b z k = h.linear * h.bias1 (galaxyWeight s b z k) ^ 2 * s.twoHaloTruncation k := by
  refine ⟨_, (C03_no_error s hresp).1, fun b z k ho => ⟨?_, ?_⟩⟩
  · simp only [powerSpectrumGgRaw, cen_profile ho, sat_profile ho]
    rw [oneHalo_eq (k := k), oneHalo_eq (k := k)]
    simp only [HaloModel.oneHalo, haloes]
    rw [← mul_assoc, ← add_mul, ← simpson_smul, ← simpson_add]
    congr 1
    refine congrArg _ (funext fun m => ?_)
    simp only [cenWeight, satWeight, HaloModel.galaxies, Pi.zero_apply]
    have := ho.tot
    field_simp
    ring
  · have e : galaxyWeight s b z k = fun m => cenWeight s b z k m + satWeight s b z k m := funext gal_weight
    simp only [powerSpectrumGgRaw, hmode, if_false, icTerm, isTerm, cen_profile ho, sat_profile ho]
    rw [e, bias1_add, bias1_eq (k := k), bias1_eq (k := k)]
    simp only [haloes]
    ring

/-- C97: galaxies and matter, for the matter weight the mode selects -/
theorem C97_galaxies_matter (hm : Sampled s) (hmode : s.nonlinearMode ≠ .bnl) (hresp : s.response = false) :
    ∃ r, s.powerSpectrumGm = .ok r ∧ ∀ b z k, Occupied s b z →
      let h := haloes s z k
      r.pk1h b z k = h.oneHalo (galaxyWeight s b z k) (s.matterProfile1hG b z k) * s.oneHaloTruncation k ∧
        r.pk2h b z k = h.linear * h.bias1 (galaxyWeight s b z k)
          * (h.bias1 (h.matter (s.uDm z k)) + h.missing) * s.twoHaloTruncation k := by
  refine ⟨_, (C03_no_error s hresp).2.1, fun b z k ho => ?_⟩
  have e : galaxyWeight s b z k = fun m => cenWeight s b z k m + satWeight s b z k m := funext gal_weight
  constructor
  · simp only [powerSpectrumGmRaw, cen_profile ho, sat_profile ho]
    rw [oneHalo_eq (k := k), oneHalo_eq (k := k), e, oneHalo_add]
    ring
  · simp only [powerSpectrumGmRaw, hmode, if_false, icTerm, isTerm, cen_profile ho, sat_profile ho, matterBias_eq hm]
    rw [e, bias1_add, bias1_eq (k := k), bias1_eq (k := k)]
    simp only [haloes]
    ring

/-! ## Which matter weight enters the 1-halo terms -/

/-- C97: without feedback, the plain weight -/
theorem C97_plain_weight (hi : s.hmcodeIngredients = .mead2020 ∨ (s.hmcodeIngredients = .none ∧ s.pointmass = false)) :
    s.matterProfile1hG b z k = (haloes s z k).matter (s.uDm z k) := by
  funext m
  rcases hi with hi | ⟨hi, hp⟩
  · simp only [matterProfile1hG, hi]; rfl
  · simp only [matterProfile1hG, hi, hp]; rfl

theorem fgFit_eq (s : Spectra) (M Mb f : ℝ) (hMb : Mb ≠ 0) :
    s.fgFit M Mb f = gasFraction (s.omegaB / s.omegaM) f M Mb := by
  unfold fgFit gasFraction
  have : 0 < Mb ^ 2 := by positivity
  have h2 : 0 < M ^ 2 + Mb ^ 2 := by positivity
  rw [div_pow, mul_div_assoc]
  congr 1
  field_simp
  ring

theorem theta (T : ℝ) (hT : 0 < T) : Real.logb 10 (T / 10 ^ (7.8 : ℝ)) = Real.logb 10 T - 7.8 := by
  rw [Real.logb_div hT.ne' (by positivity), Real.logb_rpow (by norm_num) (by norm_num)]

theorem fs_eq (s : Spectra) (T zv : ℝ) (hT : 0 < T) (h : s.log10TAGN = Real.logb 10 T) :
    s.fs zv = starsBahamas T zv := by
  rw [fs, starsBahamas, theta T hT, h, mul_comm zv]
  ring

theorem mbAgn_eq (s : Spectra) (T zv : ℝ) (hT : 0 < T) (h : s.log10TAGN = Real.logb 10 T) :
    s.mbAgn zv = 10 ^ logMassBahamas T zv := by
  rw [mbAgn, logMassBahamas, theta T hT, h, ← Real.rpow_add (by norm_num)]
  congr 1
  ring

/-- C97: with HMcode feedback, for AGN of temperature `T`: dark matter and the remaining gas follow the halo profile, stars
are in the centre, with the published fits for stellar fraction and gas mass scale.  This is so both for the matter spectrum and for
its cross spectra. -/
theorem C97_feedback_weight (hi : s.hmcodeIngredients = .mead2020Feedback) (T : ℝ) (hT : 0 < T)
    (h : s.log10TAGN = Real.logb 10 T) :
    let W := (haloes s z k).matterParts
      (fun m => s.omegaC / s.omegaM + gasFraction (s.omegaB / s.omegaM) (starsBahamas T (s.zVec z)) (s.mass m)
        (10 ^ logMassBahamas T (s.zVec z)))
      (fun _ => starsBahamas T (s.zVec z)) (s.uDm z k)
    s.matterProfile1hMm z k = W ∧ s.matterProfile1hG b z k = W := by
  have e : s.matterProfileWithFeedback z k = (haloes s z k).matterParts
      (fun m => s.omegaC / s.omegaM + gasFraction (s.omegaB / s.omegaM) (starsBahamas T (s.zVec z)) (s.mass m)
        (10 ^ logMassBahamas T (s.zVec z)))
      (fun _ => starsBahamas T (s.zVec z)) (s.uDm z k) := by
    funext m
    rw [matterProfileWithFeedback, withFeedback_eq_fit, computeMatterProfileFit, fgFit_eq _ _ _ _ (mbAgn_pos s _).ne',
      fs_eq s T _ hT h, mbAgn_eq s T _ hT h]
    simp only [HaloModel.matterParts, haloes]
    ring
  constructor
  · funext m; simp only [matterProfile1hMm, hi]; rw [e]
  · funext m; simp only [matterProfile1hG, hi]; rw [e]

/-- C97: with fitted profiles, and for the cross spectra also with point masses: the same with the stellar fraction of the
occupation model and the mass scale `mb`; the matter spectrum uses the stellar fraction of its own sample. -/
theorem C97_fit_weight (hmb : s.mb ≠ 0) :
    (s.hmcodeIngredients = .fit → s.matterProfile1hMm z k = (haloes s z k).matterParts
      (fun m => s.omegaC / s.omegaM + gasFraction (s.omegaB / s.omegaM) (s.fstarMm z m) (s.mass m) s.mb)
      (s.fstarMm z) (s.uDm z k)) ∧
    (s.hmcodeIngredients = .fit ∨ (s.hmcodeIngredients = .none ∧ s.pointmass = true) →
      s.matterProfile1hG b z k = (haloes s z k).matterParts
        (fun m => s.omegaC / s.omegaM + gasFraction (s.omegaB / s.omegaM) (s.fstar b z m) (s.mass m) s.mb)
        (s.fstar b z) (s.uDm z k)) := by
  have e : ∀ (f : ℕ → ℕ → ℕ → ℝ) b m, s.matterProfileFit f b z k m = (haloes s z k).matterParts
        (fun m => s.omegaC / s.omegaM + gasFraction (s.omegaB / s.omegaM) (f b z m) (s.mass m) s.mb)
        (f b z) (s.uDm z k) m := by
    intro f b m
    rw [matterProfileFit, computeMatterProfileFit, fgFit_eq _ _ _ _ hmb]
    simp only [HaloModel.matterParts, haloes]
    ring
  refine ⟨fun hi => ?_, fun hi => ?_⟩
  · funext m; simp only [matterProfile1hMm, hi]; rw [e]
  · funext m
    rcases hi with hi | ⟨hi, hp⟩
    · simp only [matterProfile1hG, hi]; rw [e]
    · simp only [matterProfile1hG, hi, hp, if_true]; rw [e]


/-! ## Intrinsic alignments -/

/-- the mass dependence of an alignment amplitude: a power of the mean halo mass over a pivot, or none -/
noncomputable def massFactor (s : Spectra) (b z : ℕ) : Option ℝ → Option ℝ → ℝ
  | some β, some M => (s.avgHaloMassCen b z / s.numberDensity b z / M) ^ β
  | _, _ => 1

/-- aligned satellites: the occupation over the density of all galaxies, times the alignment profile -/
noncomputable def satAlignWeight (s : Spectra) (b z k m : ℕ) : ℝ :=
  s.hodSat b z m * s.wkmSat z k m / s.numberDensity b z * massFactor s b z s.betaSat s.mpivotSat

/-- aligned centrals: all matter, unresolved, times the linear alignment amplitude `C₁ ρ̄ / D` and the fraction of
centrals -/
noncomputable def cenAlignWeight (s : Spectra) (b z k m : ℕ) : ℝ :=
  s.numberDensityCen b z / s.numberDensity b z
    * (5e-14 * s.alignmentGi z * s.meanDensity0 z / s.growthFactor z) * massFactor s b z s.betaCen s.mpivotCen
    * (haloes s z k).matter 1 m

theorem satAlign_profile (h : Occupied s b z) : s.satelliteAlignmentProfile b z k = satAlignWeight s b z k := by
  funext m
  have e : additionalTerm s.betaSat s.mpivotSat (s.massAvg b z) = massFactor s b z s.betaSat s.mpivotSat := by
    unfold additionalTerm massFactor massAvg
    cases s.betaSat <;> cases s.mpivotSat <;> rfl
  simp only [satelliteAlignmentProfile, satAlignWeight, h.fSat, e]
  field_simp [h.tot, h.sat]

theorem cenAlign_profile (h : Occupied s b z) (hρ : s.meanDensity0 z ≠ 0) :
    s.centralAlignmentProfile b z k = cenAlignWeight s b z k := by
  funext m
  have e : additionalTerm s.betaCen s.mpivotCen (s.massAvg b z) = massFactor s b z s.betaCen s.mpivotCen := by
    unfold additionalTerm massFactor massAvg
    cases s.betaCen <;> cases s.mpivotCen <;> rfl
  simp only [centralAlignmentProfile, cenAlignWeight, h.fCen, e, HaloModel.matter, haloes, Pi.one_apply, c1]
  field_simp [h.tot, h.cen, hρ]

theorem icAlign_eq (hm : Sampled s) (h : Occupied s b z) (hρ : s.meanDensity0 z ≠ 0) :
    s.icAlignTerm b z k = (haloes s z k).bias1Ext (cenAlignWeight s b z k) := by
  rw [icAlignTerm, cenAlign_profile h hρ, bias1_eq (k := k), missing_eq (k := k) hm, HaloModel.bias1Ext]
  simp only [haloes]
  ring

theorem isAlign_eq (hm : Sampled s) (h : Occupied s b z) :
    s.isAlignTerm b z k = (haloes s z k).bias1Ext (satAlignWeight s b z k) := by
  rw [isAlignTerm, satAlign_profile h, bias1_eq (k := k), missing_eq (k := k) hm, HaloModel.bias1Ext]
  simp only [haloes]
  ring

/-- C97: the alignment spectra outside the `bnl` and `fortuna` modes.  Only satellites are aligned inside a halo; between
haloes centrals and satellites are.  In the intrinsic-intrinsic spectrum the cross term is counted once, and the galaxies
of the galaxy-intrinsic spectrum are the centrals only. -/
theorem C97_alignments (hm : Sampled s) (hmode : s.nonlinearMode = .none ∨ s.nonlinearMode = .hmcode)
    (hresp : s.response = false) :
    ∃ mi ii gi, s.powerSpectrumMi = .ok mi ∧ s.powerSpectrumIi = .ok ii ∧ s.powerSpectrumGi = .ok gi ∧
      ∀ b z k, Occupied s b z → s.meanDensity0 z ≠ 0 →
      let h := haloes s z k
      let S := satAlignWeight s b z k
      let C := cenAlignWeight s b z k
      mi.pk1h b z k = -h.oneHalo (s.matterProfile1hG b z k) S * s.oneHaloTruncationIa k ∧
      mi.pk2h b z k = -h.linear * (h.bias1Ext C + h.bias1Ext S) * (h.bias1 (h.matter (s.uDm z k)) + h.missing)
        * s.twoHaloTruncationIa k ∧
      ii.pk1h b z k = h.oneHalo S S * s.oneHaloTruncationIa k ∧
      ii.pk2h b z k = h.linear * (h.bias1Ext C ^ 2 + h.bias1Ext C * h.bias1Ext S + h.bias1Ext S ^ 2)
        * s.twoHaloTruncationIa k ∧
      gi.pk1h b z k = h.oneHalo (cenWeight s b z k) S * s.oneHaloTruncationIa k ∧
      gi.pk2h b z k = h.linear * h.bias1 (cenWeight s b z k) * (h.bias1Ext C + h.bias1Ext S)
        * s.twoHaloTruncationIa k := by
  obtain ⟨-, -, e1, e2, e3⟩ := C03_no_error s hresp
  refine ⟨_, _, _, e1, e2, e3, fun b z k ho hρ => ?_⟩
  have l : s.pkLin z k = (haloes s z k).linear := rfl
  rcases hmode with h | h <;>
  · simp only [powerSpectrumMiRaw, powerSpectrumIiRaw, powerSpectrumGiRaw, h, icTerm, icAlign_eq hm ho hρ, isAlign_eq hm ho,
      matterBias_eq hm, satAlign_profile ho, cen_profile ho, oneHalo_eq (k := k), bias1_eq (k := k), l]
    refine ⟨by ring, by ring, trivial, by ring, trivial, by ring⟩

/-! ## Non-linear halo bias -/

/-- an integral over halo masses with the trapezoidal rule, weighted with bias and number of haloes and including the haloes
below the first mass -/
noncomputable def biasTrapz (s : Spectra) (z k : ℕ) (f : ℕ → ℝ) : ℝ :=
  trapezoidArea s.nm s.mass (fun m => f m * (haloes s z k).bias m * (haloes s z k).number m)
    + (haloes s z k).missing * ((haloes s z k).density / (haloes s z k).mass 0) * f 0

/-- the correction of Mead & Verde (2021): `∫∫ β(M, M') W(M) V(M') b(M) b(M') n(M) n(M') dM dM'` -/
noncomputable def nonlinearBias (s : Spectra) (z k : ℕ) (W V : ℕ → ℝ) : ℝ :=
  biasTrapz s z k fun m1 => biasTrapz s z k fun m2 => s.betaNl z k m1 m2 * W m1 * V m2

theorem biasTrapz_add (f g : ℕ → ℝ) :
    biasTrapz s z k (fun m => f m + g m) = biasTrapz s z k f + biasTrapz s z k g := by
  simp only [biasTrapz, trapezoidArea]
  have : ∀ a b c d e : ℝ, a = c + d → b = e → a + b = c + d + e := fun a b c d e h1 h2 => by rw [h1, h2]
  have e : ∑ i ∈ Finset.range (s.nm - 1), (s.mass (i + 1) - s.mass i) *
        ((f i + g i) * (haloes s z k).bias i * (haloes s z k).number i
          + (f (i + 1) + g (i + 1)) * (haloes s z k).bias (i + 1) * (haloes s z k).number (i + 1)) / 2 =
      (∑ i ∈ Finset.range (s.nm - 1), (s.mass (i + 1) - s.mass i) *
        (f i * (haloes s z k).bias i * (haloes s z k).number i
          + f (i + 1) * (haloes s z k).bias (i + 1) * (haloes s z k).number (i + 1)) / 2) +
      ∑ i ∈ Finset.range (s.nm - 1), (s.mass (i + 1) - s.mass i) *
        (g i * (haloes s z k).bias i * (haloes s z k).number i
          + g (i + 1) * (haloes s z k).bias (i + 1) * (haloes s z k).number (i + 1)) / 2 := by
    rw [← Finset.sum_add_distrib]
    exact Finset.sum_congr rfl fun i _ => by ring
  rw [e]
  ring

/-- C97: the integral in the code is the double integral of the literature -/
theorem C97_inl (hm : Sampled s) (hn : 2 ≤ s.nm) (W V : ℕ → ℝ) : s.iNL W V z k = nonlinearBias s z k W V := by
  have t : ∀ f : ℕ → ℝ, trapezoidArea s.nm s.mass (fun m => f m * (haloes s z k).bias m * (haloes s z k).number m)
      = s.trapezoidalIntegrator (fun m => f m * s.haloBias z m * (s.dndlnm z m / s.mass m)) := fun f =>
    (C13_trapezoid s hn _).symm
  simp only [nonlinearBias, biasTrapz, t, ← missing_eq (k := k) hm]
  simp only [haloes, iNL]
  have h1 : (fun m1 => (s.trapezoidalIntegrator (fun m => s.betaNl z k m1 m * W m1 * V m * s.haloBias z m
      * (s.dndlnm z m / s.mass m)) + s.aTerm z * (s.meanDensity0 z / s.mass 0) * (s.betaNl z k m1 0 * W m1 * V 0))
        * s.haloBias z m1 * (s.dndlnm z m1 / s.mass m1)) =
      fun m1 => 1 * (s.trapezoidalIntegrator (fun m2 => s.i22 z k m1 m2 * V m2) * W m1)
        + (s.aTerm z * (s.meanDensity0 z / s.mass 0) * V 0) * (s.i21 z k m1 * W m1) := by
    funext m1
    have : s.trapezoidalIntegrator (fun m => s.betaNl z k m1 m * W m1 * V m * s.haloBias z m
          * (s.dndlnm z m / s.mass m)) * (s.haloBias z m1 * (s.dndlnm z m1 / s.mass m1))
        = s.trapezoidalIntegrator (fun m2 => s.i22 z k m1 m2 * V m2) * W m1 := by
      rw [← integrator_smul, ← integrator_smul]
      exact integrator_congr s fun m _ => by unfold i22; ring
    rw [add_mul, add_mul, mul_assoc (s.trapezoidalIntegrator _), this]
    unfold i21
    ring
  have h0 : s.trapezoidalIntegrator (fun m => s.betaNl z k 0 m * W 0 * V m * s.haloBias z m * (s.dndlnm z m / s.mass m))
      = s.trapezoidalIntegrator (fun m => s.i12 z k m * V m) * W 0 := by
    rw [← integrator_smul]
    exact integrator_congr s fun m _ => by unfold i12; ring
  rw [h1, integrator_lin, h0]
  ring

/-- C97: in the `bnl` mode every pair of fields gets the double integral in addition, and no 2-halo truncation -/
theorem C97_nonlinear_bias (hm : Sampled s) (hn : 2 ≤ s.nm) (hmode : s.nonlinearMode = .bnl) (hresp : s.response = false) :
    ∃ mm gg gm mi ii gi, s.powerSpectrumMm = .ok mm ∧ s.powerSpectrumGg = .ok gg ∧ s.powerSpectrumGm = .ok gm ∧
      s.powerSpectrumMi = .ok mi ∧ s.powerSpectrumIi = .ok ii ∧ s.powerSpectrumGi = .ok gi ∧
      ∀ b z k, Occupied s b z → s.meanDensity0 z ≠ 0 →
      let h := haloes s z k
      let M := h.matter (s.uDm z k)
      let G := galaxyWeight s b z k
      let Gc := cenWeight s b z k
      let S := satAlignWeight s b z k
      let C := cenAlignWeight s b z k
      let β := nonlinearBias s z k
      mm.pk2h b z k = h.linear * ((h.bias1 M + h.missing) ^ 2 + β M M) ∧
      gg.pk2h b z k = h.linear * (h.bias1 G ^ 2 + β G G) ∧
      gm.pk2h b z k = h.linear * (h.bias1 G * (h.bias1 M + h.missing) + β G M) ∧
      mi.pk2h b z k = -h.linear * ((h.bias1Ext C + h.bias1Ext S) * (h.bias1 M + h.missing)
        + β (fun m => C m + S m) M) ∧
      ii.pk2h b z k = h.linear * (h.bias1Ext C ^ 2 + β C C + (h.bias1Ext C * h.bias1Ext S + β C S)
        + (h.bias1Ext S ^ 2 + β S S)) ∧
      gi.pk2h b z k = h.linear * (h.bias1 Gc * (h.bias1Ext C + h.bias1Ext S) + β C Gc + β S Gc) := by
  obtain ⟨g1, g2, e1, e2, e3⟩ := C03_no_error s hresp
  refine ⟨_, _, _, _, _, _, by simp only [powerSpectrumMm, hresp, powerSpectrumMmRaw, hmode]; rfl, g1, g2, e1, e2, e3,
    fun b z k ho hρ => ?_⟩
  have l : s.pkLin z k = (haloes s z k).linear := rfl
  have e : galaxyWeight s b z k = fun m => cenWeight s b z k m + satWeight s b z k m := funext gal_weight
  have p2 : s.matterProfile2h z k = (haloes s z k).matter (s.uDm z k) := rfl
  simp only [powerSpectrumGgRaw, powerSpectrumGmRaw, powerSpectrumMiRaw, powerSpectrumIiRaw, powerSpectrumGiRaw, hmode,
    if_true, icTerm, isTerm, icAlign_eq hm ho hρ, isAlign_eq hm ho, matterBias_eq hm, satAlign_profile ho, cen_profile ho,
    cenAlign_profile ho hρ, sat_profile ho, bias1_eq (k := k), l, C97_inl hm hn, p2, e, bias1_add]
  refine ⟨by ring, by ring, by ring, by ring, by ring, by ring⟩

/-! ## HMcode -/

/-- C97: in the `hmcode` mode the matter spectrum is that of HMcode-2020 (Mead et al. 2021, table 2 and equations 15-23):
damped linear power, damped 1-halo term, and the dimensionless spectra added as powers -/
theorem C97_hmcode (hmode : s.nonlinearMode = .hmcode) (hresp : s.response = false)
    (hi : s.hmcodeIngredients = .mead2020 ∨ s.hmcodeIngredients = .mead2020Feedback) :
    ∃ r, s.powerSpectrumMm = .ok r ∧ ∀ b z k,
      let h := haloes s z k
      let x := s.kVec k
      let one := h.oneHalo (s.matterProfile1hMm z k) (s.matterProfile1hMm z k) * hmcodeOneHalo x (s.sigma8z z)
      let two := h.linear * hmcodeTwoHalo x (s.sigma8z z)
      r.pk1h b z k = one ∧ r.pk2h b z k = two ∧
        (x ≠ 0 → dimensionless x (r.pkTot b z k) =
          (dimensionless x one ^ hmcodeAlpha (s.neff z) + dimensionless x two ^ hmcodeAlpha (s.neff z))
            ^ (1 / hmcodeAlpha (s.neff z))) := by
  have hi' : s.hmcodeIngredients = .mead2020Feedback ∨ s.hmcodeIngredients = .mead2020 := hi.symm
  refine ⟨_, by simp only [powerSpectrumMm, hresp, powerSpectrumMmRaw, hmode, if_pos hi']; rfl, fun b z k => ?_⟩
  refine ⟨?_, ?_, fun hx => ?_⟩
  · dsimp only
    rw [oneHalo_eq (k := k)]; rfl
  · rfl
  · dsimp only
    rw [oneHalo_eq (k := k)]
    unfold transitionSmoothing dimensionless
    have hp : s.kVec k ^ 3 / (2 * Real.pi ^ 2) ≠ 0 := by positivity
    rw [mul_div_cancel₀ _ hp]
    rfl

/-! ## The hypotheses are met -/

/-- C97: the occupation model gives such galaxies at every redshift that is a node of the sample, if there are centrals,
satellites and galaxies -/
theorem C97_occupied (s : Spectra) (nzv nz : ℕ) (z : ℕ → ℕ → ℝ) (occCen occSat : ℕ → ℕ → ℕ → ℝ)
    (b i j : ℕ) (hzv : 2 ≤ nzv) (hnz : 2 ≤ nz) (hsv : SortedOn nzv s.zVec) (hs : SortedOn nz (z b))
    (hi : i < nzv) (hj : j < nz) (he : s.zVec i = z b j)
    (hc : (s.withHod nzv nz z occCen occSat).numberDensityCen b i ≠ 0)
    (hsat : (s.withHod nzv nz z occCen occSat).numberDensitySat b i ≠ 0)
    (ht : (s.withHod nzv nz z occCen occSat).numberDensity b i ≠ 0) :
    Occupied (s.withHod nzv nz z occCen occSat) b i := by
  obtain ⟨n1, -, -⟩ := node_values s (occCen := occCen) (occSat := occSat) hzv hnz hsv hs hi hj he
  set h := s.buildHod nzv nz z occCen occSat with hh
  refine ⟨ht, hc, hsat, ?_, ?_⟩
  · change h.fC b i = h.numberDensityCen b i / h.numberDensity b i
    rw [Hod.Base.fC, Hod.Base.numberDensityCen, Hod.Base.numberDensity, n1, n1, n1]
  · change h.fS b i = h.numberDensitySat b i / h.numberDensity b i
    rw [Hod.Base.fS, Hod.Base.numberDensitySat, Hod.Base.numberDensity, n1, n1, n1]

/-- C97, a disagreement within the code: the missing mass has the profile of the smallest haloes in the non-linear bias
integral (and in the alignment terms), but no profile in the matter bias.  The two agree exactly where that profile is 1
or nothing is missing. -/
theorem C97_missing_mass_profile (hm : Sampled s) (hρ : s.meanDensity0 z ≠ 0) :
    s.imTerm z k - (haloes s z k).bias1Ext ((haloes s z k).matter (s.uDm z k)) = s.aTerm z * (1 - s.uDm z k 0) := by
  have h0 := hm.mass 0 hm.some
  rw [matterBias_eq hm, missing_eq (k := k) hm, HaloModel.bias1Ext]
  simp only [HaloModel.matter]
  simp only [haloes]
  field_simp
  ring

theorem demo_sampled : Sampled demo := ⟨fun m _ => by simp only [demo]; positivity, by simp [demo]⟩

theorem demo_occupied (b z : ℕ) : Occupied demo b z := by
  constructor <;> simp [demo]

example : ∃ r, demo.powerSpectrumMm = .ok r ∧ r.pk2h 0 0 0 = demo.twoHaloTruncation 0 := by
  obtain ⟨r, h, hr⟩ := C97_matter demo_sampled (.inl rfl) rfl (.inl rfl)
  refine ⟨r, h, ?_⟩
  have e := (hr 0 0 0).2
  simp only [← matterBias_eq demo_sampled] at e
  rw [e, imTerm, demo_aTerm, computeImTerm, demo_simpson]
  simp only [demo_uDm_zero]
  simp [demo, haloes]
  norm_num

/-- the disagreement is real: the demonstration object at the second wavenumber -/
example : demo.imTerm 0 1 ≠ (haloes demo 0 1).bias1Ext ((haloes demo 0 1).matter (demo.uDm 0 1)) := by
  have := C97_missing_mass_profile (z := 0) (k := 1) demo_sampled (by simp [demo])
  intro h
  rw [h, sub_self, demo_aTerm] at this
  have u : demo.uDm 0 1 0 = 1 / 2 := by simp [demo, Hmi.uDm, demoRaw]; norm_num
  rw [u] at this
  norm_num at this

example : ∃ r, demo.powerSpectrumGg = .ok r ∧ r.pk2h 0 0 0
    = (haloes demo 0 0).linear * (haloes demo 0 0).bias1 (galaxyWeight demo 0 0 0) ^ 2 * demo.twoHaloTruncation 0 :=
  (C97_galaxies (s := demo) (by simp [demo]) rfl).imp fun _ h => ⟨h.1, (h.2 0 0 0 (demo_occupied 0 0)).2⟩

example : ∃ s : Spectra, Sampled s ∧ 2 ≤ s.nm ∧ s.nonlinearMode = .bnl ∧ s.response = false ∧ Occupied s 0 0 ∧
    s.meanDensity0 0 ≠ 0 ∧ ∃ W : ℕ → ℝ, nonlinearBias s 0 0 W W ≠ 0 := by
  refine ⟨{ demo with nonlinearMode := .bnl, betaNl := fun _ _ _ _ => 1 }, ⟨demo_sampled.mass, demo_sampled.some⟩,
    by simp [demo], rfl, rfl, ⟨(demo_occupied 0 0).tot, (demo_occupied 0 0).cen, (demo_occupied 0 0).sat,
      (demo_occupied 0 0).fCen, (demo_occupied 0 0).fSat⟩, by simp [demo], fun m => if m = 2 then 1 else 0, ?_⟩
  simp [nonlinearBias, biasTrapz, trapezoidArea, haloes, demo, Finset.sum_range_succ]; norm_num

example : ∃ s : Spectra, s.hmcodeIngredients = .mead2020Feedback ∧ s.log10TAGN = Real.logb 10 (10 ^ (7.8 : ℝ)) ∧
    s.mbAgn 0 = 10 ^ (13.87 : ℝ) :=
  ⟨{ demo with hmcodeIngredients := .mead2020Feedback }, rfl,
    by rw [Real.logb_rpow (by norm_num) (by norm_num)]; rfl, by norm_num [mbAgn, demo]⟩

end Verif.Pk

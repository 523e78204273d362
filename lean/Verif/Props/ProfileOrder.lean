import Verif.Props.PkSigns
import Verif.Props.PkDamping

/-! Property C145: more extended halos have less power, and what unresolved halos would give is the upper bound. -/

namespace Verif.Pk.ProfileOrder

open Verif.Lib Verif.Spec Verif.Pk Spectra

/-- the same halo model with other normalised profiles of matter and satellites -/
def withProfiles (s : Spectra) (uD uS : ℕ → ℕ → ℕ → ℝ) : Spectra := { s with uDm := uD, uSat := uS }

/-- non-negative ingredients (as in C16), wavenumbers, satellite profile, Poisson factor and stellar fractions of the
matter spectrum -/
structure Inputs (s : Spectra) : Prop extends NonnegInputs s where
  uSat : ∀ z k, ∀ m < s.nm, 0 ≤ s.uSat z k m
  poisson : ∀ m < s.nm, 0 ≤ s.poissonFunc m
  kVec : ∀ k, 0 < s.kVec k
  starsMm : s.hmcodeIngredients = .fit →
    ∀ z, ∀ m < s.nm, 0 ≤ s.fstarMm z m ∧ s.fstarMm z m ≤ s.omegaB / s.omegaM

/-- `t`'s halos are at least as compact as those of `s`: its profiles are nowhere lower -/
def Compacter (s : Spectra) (uD uS : ℕ → ℕ → ℕ → ℝ) : Prop :=
  ∀ z k, ∀ m < s.nm, s.uDm z k m ≤ uD z k m ∧ s.uSat z k m ≤ uS z k m

variable {s : Spectra} {uD uS : ℕ → ℕ → ℕ → ℝ}

theorem fit_mono (H : Inputs s) {M ρ u u' Mb f : ℝ} (hM : 0 ≤ M) (hρ : 0 < ρ) (hu : u ≤ u') (hMb : 0 < Mb)
    (h1 : f ≤ s.omegaB / s.omegaM) : s.computeMatterProfileFit M ρ u Mb f ≤ s.computeMatterProfileFit M ρ u' Mb f := by
  have hg := (C21_gas_fraction_range s M Mb f hMb H.omegaM.ne' h1).1
  have hc : 0 ≤ s.omegaC / s.omegaM := div_nonneg H.omegaC H.omegaM.le
  have hw : 0 ≤ (s.omegaC / s.omegaM + s.fgFit M Mb f) * (M / ρ) :=
    mul_nonneg (add_nonneg hc hg) (div_nonneg hM hρ.le)
  unfold computeMatterProfileFit
  have := mul_le_mul_of_nonneg_left hu hw
  linarith

theorem plain_mono (H : Inputs s) (hc : Compacter s uD uS) {z k m : ℕ} (hm : m < s.nm) :
    s.matterProfile z k m ≤ (withProfiles s uD uS).matterProfile z k m := by
  unfold matterProfile computeMatterProfile
  exact mul_le_mul_of_nonneg_left (hc z k m hm).1 (div_nonneg (H.mass m hm).le (H.density z).le)

theorem profileG_mono (H : Inputs s) (hc : Compacter s uD uS) {b z k m : ℕ} (hm : m < s.nm) :
    s.matterProfile1hG b z k m ≤ (withProfiles s uD uS).matterProfile1hG b z k m := by
  have hp := plain_mono H hc (z := z) (k := k) hm
  have hM := (H.mass m hm).le
  have hu := (hc z k m hm).1
  unfold matterProfile1hG
  have hi' : (withProfiles s uD uS).hmcodeIngredients = s.hmcodeIngredients := rfl
  have hp' : (withProfiles s uD uS).pointmass = s.pointmass := rfl
  rw [hi', hp']
  cases hi : s.hmcodeIngredients
  · simp only
    split_ifs with hpt
    · exact fit_mono H hM (H.density z) hu H.mb (H.starsObs (Or.inr hpt) b z m hm).2
    · exact hp
  · exact hp
  · exact fit_mono H hM (H.density z) hu (mbAgn_pos s _) (H.stars hi z).2
  · exact fit_mono H hM (H.density z) hu H.mb (H.starsObs (Or.inl hi) b z m hm).2

theorem profileMm_mono (H : Inputs s) (hc : Compacter s uD uS) {z k m : ℕ} (hm : m < s.nm) :
    s.matterProfile1hMm z k m ≤ (withProfiles s uD uS).matterProfile1hMm z k m := by
  have hp := plain_mono H hc (z := z) (k := k) hm
  have hM := (H.mass m hm).le
  have hu := (hc z k m hm).1
  unfold matterProfile1hMm
  have hi' : (withProfiles s uD uS).hmcodeIngredients = s.hmcodeIngredients := rfl
  rw [hi']
  cases hi : s.hmcodeIngredients
  · exact hp
  · exact hp
  · exact fit_mono H hM (H.density z) hu (mbAgn_pos s _) (H.stars hi z).2
  · exact fit_mono H hM (H.density z) hu H.mb (H.starsMm hi z m hm).2

theorem profileMm_nonneg (H : Inputs s) {z k m : ℕ} (hm : m < s.nm) : 0 ≤ s.matterProfile1hMm z k m := by
  have hM := (H.mass m hm).le
  have hp : 0 ≤ s.matterProfile z k m := by
    unfold matterProfile computeMatterProfile
    exact mul_nonneg (div_nonneg hM (H.density z).le) (H.uDm z k m hm)
  unfold matterProfile1hMm
  cases hi : s.hmcodeIngredients
  · exact hp
  · exact hp
  · have := H.stars hi z
    exact H.toNonnegInputs.fit_nonneg hM (H.density z) (H.uDm z k m hm) (mbAgn_pos s _) this.1 this.2
  · have := H.starsMm hi z m hm
    exact H.toNonnegInputs.fit_nonneg hM (H.density z) (H.uDm z k m hm) H.mb this.1 this.2

theorem sat_nonneg (H : Inputs s) {b z k m : ℕ} (hm : m < s.nm) : 0 ≤ s.satelliteGalaxyProfile b z k m := by
  unfold satelliteGalaxyProfile
  exact div_nonneg (mul_nonneg (mul_nonneg (H.fS b z) (H.hodSat b z m hm)) (H.uSat z k m hm)) (H.nSat b z).le

theorem sat_mono (H : Inputs s) (hc : Compacter s uD uS) {b z k m : ℕ} (hm : m < s.nm) :
    s.satelliteGalaxyProfile b z k m ≤ (withProfiles s uD uS).satelliteGalaxyProfile b z k m := by
  unfold satelliteGalaxyProfile
  exact div_le_div_of_nonneg_right (mul_le_mul_of_nonneg_left (hc z k m hm).2
    (mul_nonneg (H.fS b z) (H.hodSat b z m hm))) (H.nSat b z).le

theorem oneH_mono (H : Inputs s) (z : ℕ) {u v u' v' : ℕ → ℝ} (h : ∀ m < s.nm, u m * v m ≤ u' m * v' m) :
    s.compute1hTerm u v z ≤ (withProfiles s uD uS).compute1hTerm u' v' z := by
  refine simpson_mono H.grid fun m hm => ?_
  exact div_le_div_of_nonneg_right (mul_le_mul_of_nonneg_right (h m hm) (H.dndlnm z m hm)) (H.mass m hm).le

theorem im_mono (H : Inputs s) (hc : Compacter s uD uS) (z k : ℕ) :
    s.imTerm z k ≤ (withProfiles s uD uS).imTerm z k := by
  have : s.computeImTerm z k ≤ (withProfiles s uD uS).computeImTerm z k :=
    simpson_mono H.grid fun m hm => mul_le_mul_of_nonneg_right (mul_le_mul_of_nonneg_left (hc z k m hm).1
      (mul_nonneg (H.bias z m hm) (H.dndlnm z m hm))) (one_div_nonneg.2 (H.density z).le)
  unfold imTerm
  exact add_le_add this le_rfl

theorem is_mono (H : Inputs s) (hc : Compacter s uD uS) (b z k : ℕ) :
    s.isTerm b z k ≤ (withProfiles s uD uS).isTerm b z k :=
  simpson_mono H.grid fun m hm => div_le_div_of_nonneg_right (mul_le_mul_of_nonneg_right
    (mul_le_mul_of_nonneg_right (sat_mono H hc hm) (H.bias z m hm)) (H.dndlnm z m hm)) (H.mass m hm).le

theorem is_nonneg (H : Inputs s) (b z k : ℕ) : 0 ≤ s.isTerm b z k :=
  H.toNonnegInputs.ig_nonneg z _ fun _ hm => sat_nonneg H hm

theorem ic_nonneg (H : Inputs s) (b z k : ℕ) : 0 ≤ s.icTerm b z k :=
  H.toNonnegInputs.ig_nonneg z _ (H.toNonnegInputs.cenGal b z k)

theorem trunc2_nonneg (H : Inputs s) (k : ℕ) : 0 ≤ s.twoHaloTruncation k := by
  have := (C18_range s k (H.kVec k).le).1
  linarith

theorem smoothing_mono (H : Inputs s) (z k : ℕ) {p p' q : ℝ} (hp : 0 ≤ p) (hpp : p ≤ p') (hq : 0 ≤ q) :
    s.transitionSmoothing z k p q ≤ s.transitionSmoothing z k p' q := by
  rw [transitionSmoothing_eq s z k (H.kVec k) hp hq, transitionSmoothing_eq s z k (H.kVec k) (hp.trans hpp) hq]
  have he := smoothingExponent_pos s z
  refine Real.rpow_le_rpow (add_nonneg (Real.rpow_nonneg hp _) (Real.rpow_nonneg hq _)) ?_ (by positivity)
  exact add_le_add (Real.rpow_le_rpow hp hpp he.le) le_rfl

/-- C145, matter: making the halos more compact lowers no part of the matter power, at no redshift and wavenumber. -/
theorem C145_matter (H : Inputs s) (hc : Compacter s uD uS) (hresp : s.response = false)
    (hmode : s.nonlinearMode ≠ .bnl) (hmead : ∀ z k, 0 ≤ s.twoHaloTruncationMead z k) {r r' : PkResult}
    (hr : s.powerSpectrumMm = .ok r) (hr' : (withProfiles s uD uS).powerSpectrumMm = .ok r') (b z k : ℕ) :
    r.pk1h b z k ≤ r'.pk1h b z k ∧ r.pk2h b z k ≤ r'.pk2h b z k ∧ r.pkTot b z k ≤ r'.pkTot b z k := by
  have h1 : s.compute1hTerm (s.matterProfile1hMm z k) (s.matterProfile1hMm z k) z
      ≤ (withProfiles s uD uS).compute1hTerm ((withProfiles s uD uS).matterProfile1hMm z k)
        ((withProfiles s uD uS).matterProfile1hMm z k) z :=
    oneH_mono H z fun m hm => mul_le_mul (profileMm_mono H hc hm) (profileMm_mono H hc hm) (profileMm_nonneg H hm)
      ((profileMm_nonneg H hm).trans (profileMm_mono H hc hm))
  have h0 : 0 ≤ s.compute1hTerm (s.matterProfile1hMm z k) (s.matterProfile1hMm z k) z :=
    H.toNonnegInputs.oneH z _ _ (fun m hm => profileMm_nonneg H hm) (fun m hm => profileMm_nonneg H hm)
  have hi0 := H.toNonnegInputs.im_nonneg z k
  have hi := im_mono H hc z k
  have hP := H.pkLin z k
  have hT := oneHaloTruncation_nonneg s k
  have hT2 := trunc2_nonneg H k
  have a1 := mul_le_mul_of_nonneg_right h1 hT
  have a2 : s.pkLin z k * s.imTerm z k * s.imTerm z k * s.twoHaloTruncation k
      ≤ s.pkLin z k * (withProfiles s uD uS).imTerm z k * (withProfiles s uD uS).imTerm z k * s.twoHaloTruncation k := by
    refine mul_le_mul_of_nonneg_right (mul_le_mul (mul_le_mul_of_nonneg_left hi hP) hi hi0 ?_) hT2
    exact mul_nonneg hP (hi0.trans hi)
  have hs' : (withProfiles s uD uS).response = false := hresp
  unfold powerSpectrumMm at hr hr'
  rw [if_neg (by simp [hresp])] at hr
  rw [if_neg (by simp [hs'])] at hr'
  unfold powerSpectrumMmRaw at hr hr'
  have hm' : (withProfiles s uD uS).nonlinearMode = s.nonlinearMode := rfl
  rw [hm'] at hr'
  cases hm : s.nonlinearMode <;> simp only [hm] at hr hr'
  · cases hr; cases hr'; exact ⟨a1, a2, add_le_add a1 a2⟩
  · exact absurd hm hmode
  · have hi' : (withProfiles s uD uS).hmcodeIngredients = s.hmcodeIngredients := rfl
    rw [hi'] at hr'
    split_ifs at hr hr'
    cases hr; cases hr'
    have b1 := mul_le_mul_of_nonneg_right h1 (oneHaloTruncationMead_nonneg s z k)
    refine ⟨b1, le_rfl, ?_⟩
    exact smoothing_mono H z k (mul_nonneg h0 (oneHaloTruncationMead_nonneg s z k)) b1 (mul_nonneg hP (hmead z k))
  · cases hr; cases hr'; exact ⟨a1, a2, add_le_add a1 a2⟩

/-- C145, galaxies: the same for the galaxy-galaxy and the galaxy-matter power. -/
theorem C145_galaxies (H : Inputs s) (hc : Compacter s uD uS) (hresp : s.response = false)
    (hmode : s.nonlinearMode ≠ .bnl) :
    ∃ gg gm gg' gm', s.powerSpectrumGg = .ok gg ∧ s.powerSpectrumGm = .ok gm ∧
      (withProfiles s uD uS).powerSpectrumGg = .ok gg' ∧ (withProfiles s uD uS).powerSpectrumGm = .ok gm' ∧
      ∀ b z k, (gg.pk1h b z k ≤ gg'.pk1h b z k ∧ gg.pk2h b z k ≤ gg'.pk2h b z k ∧ gg.pkTot b z k ≤ gg'.pkTot b z k) ∧
        (gm.pk1h b z k ≤ gm'.pk1h b z k ∧ gm.pk2h b z k ≤ gm'.pk2h b z k ∧ gm.pkTot b z k ≤ gm'.pkTot b z k) := by
  have h := C03_no_error s hresp
  have h' := C03_no_error (withProfiles s uD uS) hresp
  refine ⟨_, _, _, _, h.1, h.2.1, h'.1, h'.2.1, fun b z k => ?_⟩
  have hm' : (withProfiles s uD uS).nonlinearMode ≠ .bnl := hmode
  have hP := H.pkLin z k
  have hT := oneHaloTruncation_nonneg s k
  have hT2 := trunc2_nonneg H k
  have ic0 := ic_nonneg H b z k
  have is0 := is_nonneg H b z k
  have im0 := H.toNonnegInputs.im_nonneg z k
  have hi := im_mono H hc z k
  have hs := is_mono H hc b z k
  have ec : (withProfiles s uD uS).icTerm b z k = s.icTerm b z k := rfl
  have cs : s.compute1hTerm (s.centralGalaxyProfile b z k) (s.satelliteGalaxyProfile b z k) z
      ≤ (withProfiles s uD uS).compute1hTerm ((withProfiles s uD uS).centralGalaxyProfile b z k)
        ((withProfiles s uD uS).satelliteGalaxyProfile b z k) z :=
    oneH_mono H z fun m hm => mul_le_mul_of_nonneg_left (sat_mono H hc hm) (H.toNonnegInputs.cenGal b z k m hm)
  have ss : s.compute1hTerm (fun m => s.satelliteGalaxyProfile b z k m * s.poissonFunc m)
        (s.satelliteGalaxyProfile b z k) z
      ≤ (withProfiles s uD uS).compute1hTerm
        (fun m => (withProfiles s uD uS).satelliteGalaxyProfile b z k m * (withProfiles s uD uS).poissonFunc m)
        ((withProfiles s uD uS).satelliteGalaxyProfile b z k) z :=
    oneH_mono H z fun m hm => mul_le_mul (mul_le_mul_of_nonneg_right (sat_mono H hc hm) (H.poisson m hm))
      (sat_mono H hc hm) (sat_nonneg H hm)
      (mul_nonneg ((sat_nonneg H hm).trans (sat_mono H hc hm)) (H.poisson m hm))
  have cm : s.compute1hTerm (s.centralGalaxyProfile b z k) (s.matterProfile1hG b z k) z
      ≤ (withProfiles s uD uS).compute1hTerm ((withProfiles s uD uS).centralGalaxyProfile b z k)
        ((withProfiles s uD uS).matterProfile1hG b z k) z :=
    oneH_mono H z fun m hm => mul_le_mul_of_nonneg_left (profileG_mono H hc hm) (H.toNonnegInputs.cenGal b z k m hm)
  have sm : s.compute1hTerm (s.satelliteGalaxyProfile b z k) (s.matterProfile1hG b z k) z
      ≤ (withProfiles s uD uS).compute1hTerm ((withProfiles s uD uS).satelliteGalaxyProfile b z k)
        ((withProfiles s uD uS).matterProfile1hG b z k) z :=
    oneH_mono H z fun m hm => mul_le_mul (sat_mono H hc hm) (profileG_mono H hc hm)
      (H.toNonnegInputs.profileG b z k m hm) ((sat_nonneg H hm).trans (sat_mono H hc hm))
  have eT : (withProfiles s uD uS).oneHaloTruncation k = s.oneHaloTruncation k := rfl
  have eT2 : (withProfiles s uD uS).twoHaloTruncation k = s.twoHaloTruncation k := rfl
  have eP : (withProfiles s uD uS).pkLin z k = s.pkLin z k := rfl
  simp only [powerSpectrumGgRaw, powerSpectrumGmRaw, if_neg hmode, if_neg hm', eT, eT2, eP, ec]
  have x1 := mul_le_mul_of_nonneg_right cs hT
  have x2 := mul_le_mul_of_nonneg_right ss hT
  have x3 := mul_le_mul_of_nonneg_right cm hT
  have x4 := mul_le_mul_of_nonneg_right sm hT
  set I := s.isTerm b z k
  set I' := (withProfiles s uD uS).isTerm b z k
  set C := s.icTerm b z k
  set M := s.imTerm z k
  set M' := (withProfiles s uD uS).imTerm z k
  set P := s.pkLin z k
  set T := s.twoHaloTruncation k
  have y1 : P * I * I * T ≤ P * I' * I' * T := by
    refine mul_le_mul_of_nonneg_right (mul_le_mul (mul_le_mul_of_nonneg_left hs hP) hs is0 ?_) hT2
    exact mul_nonneg hP (is0.trans hs)
  have y2 : P * C * I * T ≤ P * C * I' * T :=
    mul_le_mul_of_nonneg_right (mul_le_mul_of_nonneg_left hs (mul_nonneg hP ic0)) hT2
  have y3 : P * C * M * T ≤ P * C * M' * T :=
    mul_le_mul_of_nonneg_right (mul_le_mul_of_nonneg_left hi (mul_nonneg hP ic0)) hT2
  have y4 : P * I * M * T ≤ P * I' * M' * T := by
    refine mul_le_mul_of_nonneg_right (mul_le_mul (mul_le_mul_of_nonneg_left hs hP) hi im0 ?_) hT2
    exact mul_nonneg hP (is0.trans hs)
  refine ⟨⟨?_, ?_, ?_⟩, ?_, ?_, ?_⟩ <;> linarith

/-- C145, alignments: more compact halos make the matter-alignment power more negative (never less), and leave the
intrinsic-intrinsic and galaxy-alignment power as they are. -/
theorem C145_alignments (H : Inputs s) (hc : Compacter s uD uS) (hresp : s.response = false)
    (hmode : s.nonlinearMode ≠ .bnl) :
    ∃ mi mi', s.powerSpectrumMi = .ok mi ∧ (withProfiles s uD uS).powerSpectrumMi = .ok mi' ∧
      (∀ b z k, mi'.pk1h b z k ≤ mi.pk1h b z k ∧ mi'.pk2h b z k ≤ mi.pk2h b z k ∧ mi'.pkTot b z k ≤ mi.pkTot b z k) ∧
      (withProfiles s uD uS).powerSpectrumIi = s.powerSpectrumIi ∧
      (withProfiles s uD uS).powerSpectrumGi = s.powerSpectrumGi := by
  have h := C03_no_error s hresp
  have h' := C03_no_error (withProfiles s uD uS) hresp
  refine ⟨_, _, h.2.2.1, h'.2.2.1, fun b z k => ?_, ?_, ?_⟩
  · have hP := H.pkLin z k
    have hT1 := oneHaloTruncationIa_nonneg s k
    have hT2 := twoHaloTruncationIa_nonneg s k
    have hi := im_mono H hc z k
    have hca : 0 ≤ s.icAlignTerm b z k := H.toNonnegInputs.align_nonneg z _ (H.toNonnegInputs.cenAlign b z k)
    have hsa : 0 ≤ s.isAlignTerm b z k := H.toNonnegInputs.align_nonneg z _ (H.toNonnegInputs.satAlign b z k)
    have sm : s.compute1hTerm (s.matterProfile1hG b z k) (s.satelliteAlignmentProfile b z k) z
        ≤ (withProfiles s uD uS).compute1hTerm ((withProfiles s uD uS).matterProfile1hG b z k)
          ((withProfiles s uD uS).satelliteAlignmentProfile b z k) z :=
      oneH_mono H z fun m hm => mul_le_mul_of_nonneg_right (profileG_mono H hc hm)
        (H.toNonnegInputs.satAlign b z k m hm)
    have x1 := mul_le_mul_of_nonneg_right sm hT1
    have y1 : s.pkLin z k * s.isAlignTerm b z k * s.imTerm z k * s.twoHaloTruncationIa k
        ≤ s.pkLin z k * s.isAlignTerm b z k * (withProfiles s uD uS).imTerm z k * s.twoHaloTruncationIa k :=
      mul_le_mul_of_nonneg_right (mul_le_mul_of_nonneg_left hi (mul_nonneg hP hsa)) hT2
    have y2 : s.pkLin z k * s.icAlignTerm b z k * s.imTerm z k * s.twoHaloTruncationIa k
        ≤ s.pkLin z k * s.icAlignTerm b z k * (withProfiles s uD uS).imTerm z k * s.twoHaloTruncationIa k :=
      mul_le_mul_of_nonneg_right (mul_le_mul_of_nonneg_left hi (mul_nonneg hP hca)) hT2
    have eT : (withProfiles s uD uS).oneHaloTruncationIa k = s.oneHaloTruncationIa k := rfl
    have eT2 : (withProfiles s uD uS).twoHaloTruncationIa k = s.twoHaloTruncationIa k := rfl
    have eP : (withProfiles s uD uS).pkLin z k = s.pkLin z k := rfl
    have ea : (withProfiles s uD uS).isAlignTerm b z k = s.isAlignTerm b z k := rfl
    have eb : (withProfiles s uD uS).icAlignTerm b z k = s.icAlignTerm b z k := rfl
    have ef : (withProfiles s uD uS).fC b z * (withProfiles s uD uS).peffVal z k *
        (withProfiles s uD uS).alignmentAmplitude2h z = s.fC b z * s.peffVal z k * s.alignmentAmplitude2h z := rfl
    have hm' : (withProfiles s uD uS).nonlinearMode = s.nonlinearMode := rfl
    unfold powerSpectrumMiRaw
    rw [hm']
    cases hm : s.nonlinearMode
    · simp only [eT, eT2, eP, ea, eb]
      refine ⟨?_, ?_, ?_⟩ <;> linarith
    · exact absurd hm hmode
    · simp only [eT, eT2, eP, ea, eb]
      refine ⟨?_, ?_, ?_⟩ <;> linarith
    · simp only [eT, eT2, ef]
      refine ⟨?_, ?_, ?_⟩ <;> linarith
  · rw [h.2.2.2.1, h'.2.2.2.1]; rfl
  · rw [h.2.2.2.2, h'.2.2.2.2]; rfl

/-! ## the bound by halos that are not resolved -/

/-- the profiles of matter and satellites are at most 1, as Fourier transforms of normalised positive densities are -/
def Bounded (s : Spectra) : Prop := ∀ z k, ∀ m < s.nm, s.uDm z k m ≤ 1 ∧ s.uSat z k m ≤ 1

theorem oneHaloTruncation_le (s : Spectra) (k : ℕ) : s.oneHaloTruncation k ≤ 1 := by
  unfold oneHaloTruncation
  split
  · exact le_rfl
  · have : 0 ≤ (s.kVec k / ‹ℝ›) ^ 4 := by positivity
    rw [div_le_one (by linarith)]
    linarith

theorem fit_le (H : Inputs s) (hω : s.omegaC + s.omegaB ≤ s.omegaM) {M ρ u Mb f : ℝ} (hM : 0 ≤ M) (hρ : 0 < ρ)
    (hu : u ≤ 1) (hMb : 0 < Mb) (h1 : f ≤ s.omegaB / s.omegaM) : s.computeMatterProfileFit M ρ u Mb f ≤ M / ρ := by
  have hg := C21_gas_fraction_range s M Mb f hMb H.omegaM.ne' h1
  have hc : 0 ≤ s.omegaC / s.omegaM := div_nonneg H.omegaC H.omegaM.le
  have hb : s.omegaC / s.omegaM + s.omegaB / s.omegaM ≤ 1 := by
    rw [← add_div, div_le_one H.omegaM]; exact hω
  have hx : 0 ≤ M / ρ := div_nonneg hM hρ.le
  have hw : 0 ≤ (s.omegaC / s.omegaM + s.fgFit M Mb f) * (M / ρ) := mul_nonneg (add_nonneg hc hg.1) hx
  have a := mul_le_mul_of_nonneg_left hu hw
  have b : (s.omegaC / s.omegaM + s.fgFit M Mb f + f) * (M / ρ) ≤ 1 * (M / ρ) :=
    mul_le_mul_of_nonneg_right (by linarith [hg.2]) hx
  unfold computeMatterProfileFit
  linarith

theorem plain_le (H : Inputs s) (hu : Bounded s) {z k m : ℕ} (hm : m < s.nm) :
    s.matterProfile z k m ≤ s.mass m / s.meanDensity0 z := by
  unfold matterProfile computeMatterProfile
  exact mul_le_of_le_one_right (div_nonneg (H.mass m hm).le (H.density z).le) (hu z k m hm).1

theorem profileMm_le (H : Inputs s) (hu : Bounded s) (hω : s.omegaC + s.omegaB ≤ s.omegaM) {z k m : ℕ}
    (hm : m < s.nm) : s.matterProfile1hMm z k m ≤ s.mass m / s.meanDensity0 z := by
  have hM := (H.mass m hm).le
  have h1 := (hu z k m hm).1
  unfold matterProfile1hMm
  cases hi : s.hmcodeIngredients
  · exact plain_le H hu hm
  · exact plain_le H hu hm
  · exact fit_le H hω hM (H.density z) h1 (mbAgn_pos s _) (H.stars hi z).2
  · exact fit_le H hω hM (H.density z) h1 H.mb (H.starsMm hi z m hm).2

theorem profileG_le (H : Inputs s) (hu : Bounded s) (hω : s.omegaC + s.omegaB ≤ s.omegaM) {b z k m : ℕ}
    (hm : m < s.nm) : s.matterProfile1hG b z k m ≤ s.mass m / s.meanDensity0 z := by
  have hM := (H.mass m hm).le
  have h1 := (hu z k m hm).1
  unfold matterProfile1hG
  cases hi : s.hmcodeIngredients
  · simp only
    split_ifs with hpt
    · exact fit_le H hω hM (H.density z) h1 H.mb (H.starsObs (Or.inr hpt) b z m hm).2
    · exact plain_le H hu hm
  · exact plain_le H hu hm
  · exact fit_le H hω hM (H.density z) h1 (mbAgn_pos s _) (H.stars hi z).2
  · exact fit_le H hω hM (H.density z) h1 H.mb (H.starsObs (Or.inl hi) b z m hm).2

theorem im_le (H : Inputs s) (hu : Bounded s) (z k : ℕ) : s.imTerm z k ≤ 1 := by
  have : s.computeImTerm z k
      ≤ simpson s.nm s.mass (fun m => s.haloBias z m * s.dndlnm z m * (1 / s.meanDensity0 z)) :=
    simpson_mono H.grid fun m hm => mul_le_mul_of_nonneg_right
      (mul_le_of_le_one_right (mul_nonneg (H.bias z m hm) (H.dndlnm z m hm)) (hu z k m hm).1)
      (one_div_nonneg.2 (H.density z).le)
  unfold imTerm aTerm
  linarith

/-- the mean number of galaxies (central and satellite, in units of their mean density) in halos of mass `m` -/
noncomputable def galaxies (s : Spectra) (b z m : ℕ) : ℝ :=
  s.fC b z * s.hodCen b z m / s.numberDensityCen b z + s.fS b z * s.hodSat b z m / s.numberDensitySat b z

/-- the large-scale bias of the galaxies: the halo bias averaged over the galaxies -/
noncomputable def galaxyBias (s : Spectra) (b z : ℕ) : ℝ :=
  simpson s.nm s.mass fun m => galaxies s b z m * s.haloBias z m * s.dndlnm z m / s.mass m

theorem ic_add_is_le (H : Inputs s) (hu : Bounded s) (b z k : ℕ) :
    s.icTerm b z k + s.isTerm b z k ≤ galaxyBias s b z := by
  unfold icTerm isTerm computeIgTerm galaxyBias
  rw [← simpson_add]
  refine simpson_mono H.grid fun m hm => ?_
  rw [← add_div, ← add_mul, ← add_mul]
  refine div_le_div_of_nonneg_right (mul_le_mul_of_nonneg_right (mul_le_mul_of_nonneg_right ?_ (H.bias z m hm))
    (H.dndlnm z m hm)) (H.mass m hm).le
  unfold centralGalaxyProfile satelliteGalaxyProfile galaxies
  rw [mul_one]
  exact add_le_add le_rfl (div_le_div_of_nonneg_right (mul_le_of_le_one_right
    (mul_nonneg (H.fS b z) (H.hodSat b z m hm)) (hu z k m hm).2) (H.nSat b z).le)

/-- C145, bound of the matter power: with profiles of at most 1 and a matter budget that is not exceeded the two-halo
part is at most the linear power and the one-halo part at most the shot noise of the halos, whatever the baryons do. -/
theorem C145_matter_bound (H : Inputs s) (hu : Bounded s) (hω : s.omegaC + s.omegaB ≤ s.omegaM)
    (hresp : s.response = false) (hmode : s.nonlinearMode ≠ .bnl) (hσ : ∀ z, 0 < s.sigma8z z) {r : PkResult}
    (hr : s.powerSpectrumMm = .ok r) (b z k : ℕ) :
    r.pk2h b z k ≤ s.pkLin z k ∧
      r.pk1h b z k ≤ simpson s.nm s.mass (fun m => (s.mass m / s.meanDensity0 z) ^ 2 * s.dndlnm z m / s.mass m) := by
  have h1 : s.compute1hTerm (s.matterProfile1hMm z k) (s.matterProfile1hMm z k) z
      ≤ simpson s.nm s.mass (fun m => (s.mass m / s.meanDensity0 z) ^ 2 * s.dndlnm z m / s.mass m) := by
    refine simpson_mono H.grid fun m hm => div_le_div_of_nonneg_right (mul_le_mul_of_nonneg_right ?_
      (H.dndlnm z m hm)) (H.mass m hm).le
    rw [sq]
    exact mul_le_mul (profileMm_le H hu hω hm) (profileMm_le H hu hω hm) (profileMm_nonneg H hm)
      (div_nonneg (H.mass m hm).le (H.density z).le)
  have h0 : 0 ≤ s.compute1hTerm (s.matterProfile1hMm z k) (s.matterProfile1hMm z k) z :=
    H.toNonnegInputs.oneH z _ _ (fun m hm => profileMm_nonneg H hm) (fun m hm => profileMm_nonneg H hm)
  have hi0 := H.toNonnegInputs.im_nonneg z k
  have hi := im_le H hu z k
  have hP := H.pkLin z k
  have hT2 := trunc2_nonneg H k
  have hT2' := (C18_range s k (H.kVec k).le).2
  have a1 := (mul_le_of_le_one_right h0 (oneHaloTruncation_le s k)).trans h1
  have a2 : s.pkLin z k * s.imTerm z k * s.imTerm z k * s.twoHaloTruncation k ≤ s.pkLin z k := by
    have p1 : s.pkLin z k * s.imTerm z k ≤ s.pkLin z k := mul_le_of_le_one_right hP hi
    have p2 := mul_le_of_le_one_right (mul_nonneg hP hi0) hi
    have p3 := mul_le_of_le_one_right (mul_nonneg (mul_nonneg hP hi0) hi0) hT2'
    linarith
  unfold powerSpectrumMm at hr
  rw [if_neg (by simp [hresp])] at hr
  unfold powerSpectrumMmRaw at hr
  cases hm : s.nonlinearMode <;> simp only [hm] at hr
  · cases hr; exact ⟨a2, a1⟩
  · exact absurd hm hmode
  · split_ifs at hr
    cases hr
    exact ⟨mul_le_of_le_one_right hP (C19_two_halo_range s z k (hσ z) (H.kVec k).le).2,
      (mul_le_of_le_one_right h0 (C19_one_halo_range s z k (hσ z)).2.le).trans h1⟩
  · cases hr; exact ⟨a2, a1⟩

/-- C145, bound of the galaxy power: the two-halo parts are at most the linear power times the square of the large-scale
bias (galaxy-galaxy) or the bias (galaxy-matter); the one-halo parts are at most the pair counts weighted with the halo
mass (galaxy-matter) or the number of other galaxies in the halo (galaxy-galaxy). -/
theorem C145_galaxy_bound (H : Inputs s) (hu : Bounded s) (hω : s.omegaC + s.omegaB ≤ s.omegaM)
    (hresp : s.response = false) (hmode : s.nonlinearMode ≠ .bnl) :
    ∃ gg gm, s.powerSpectrumGg = .ok gg ∧ s.powerSpectrumGm = .ok gm ∧ ∀ b z k,
      gg.pk2h b z k ≤ galaxyBias s b z ^ 2 * s.pkLin z k ∧
      gm.pk2h b z k ≤ galaxyBias s b z * s.pkLin z k ∧
      gm.pk1h b z k ≤ simpson s.nm s.mass
        (fun m => galaxies s b z m * (s.mass m / s.meanDensity0 z) * s.dndlnm z m / s.mass m) ∧
      ((∀ m < s.nm, s.poissonFunc m ≤ 1) → gg.pk1h b z k ≤ simpson s.nm s.mass
        (fun m => galaxies s b z m ^ 2 * s.dndlnm z m / s.mass m)) := by
  have h := C03_no_error s hresp
  refine ⟨_, _, h.1, h.2.1, fun b z k => ?_⟩
  have hP := H.pkLin z k
  have hT := oneHaloTruncation_nonneg s k
  have hT' := oneHaloTruncation_le s k
  have hT2 := trunc2_nonneg H k
  have hT2' := (C18_range s k (H.kVec k).le).2
  have ic0 := ic_nonneg H b z k
  have is0 := is_nonneg H b z k
  have im0 := H.toNonnegInputs.im_nonneg z k
  have im1 := im_le H hu z k
  have hB := ic_add_is_le H hu b z k
  have hg : ∀ m < s.nm, s.centralGalaxyProfile b z k m + s.satelliteGalaxyProfile b z k m ≤ galaxies s b z m := by
    intro m hm
    unfold centralGalaxyProfile satelliteGalaxyProfile galaxies
    rw [mul_one]
    exact add_le_add le_rfl (div_le_div_of_nonneg_right (mul_le_of_le_one_right
      (mul_nonneg (H.fS b z) (H.hodSat b z m hm)) (hu z k m hm).2) (H.nSat b z).le)
  have oadd : ∀ u v w y : ℕ → ℝ, s.compute1hTerm u v z + s.compute1hTerm w y z
      = simpson s.nm s.mass fun m => (u m * v m + w m * y m) * s.dndlnm z m / s.mass m := by
    intro u v w y
    unfold compute1hTerm
    rw [← simpson_add]
    congr 1
    funext m
    ring
  have gm1 : s.compute1hTerm (s.centralGalaxyProfile b z k) (s.matterProfile1hG b z k) z
        + s.compute1hTerm (s.satelliteGalaxyProfile b z k) (s.matterProfile1hG b z k) z
      ≤ simpson s.nm s.mass
        (fun m => galaxies s b z m * (s.mass m / s.meanDensity0 z) * s.dndlnm z m / s.mass m) := by
    rw [oadd]
    refine simpson_mono H.grid fun m hm => div_le_div_of_nonneg_right (mul_le_mul_of_nonneg_right ?_
      (H.dndlnm z m hm)) (H.mass m hm).le
    rw [← add_mul]
    have c0 := H.toNonnegInputs.cenGal b z k m hm
    have s0 := sat_nonneg H (b := b) (z := z) (k := k) hm
    exact mul_le_mul (hg m hm) (profileG_le H hu hω hm) (H.toNonnegInputs.profileG b z k m hm)
      ((add_nonneg c0 s0).trans (hg m hm))
  have g0 : 0 ≤ s.compute1hTerm (s.centralGalaxyProfile b z k) (s.matterProfile1hG b z k) z :=
    H.toNonnegInputs.oneH z _ _ (H.toNonnegInputs.cenGal b z k) (H.toNonnegInputs.profileG b z k)
  have g1 : 0 ≤ s.compute1hTerm (s.satelliteGalaxyProfile b z k) (s.matterProfile1hG b z k) z :=
    H.toNonnegInputs.oneH z _ _ (fun m hm => sat_nonneg H hm) (H.toNonnegInputs.profileG b z k)
  simp only [powerSpectrumGgRaw, powerSpectrumGmRaw, if_neg hmode]
  have e0 : 0 ≤ s.compute1hTerm (s.centralGalaxyProfile b z k) (s.satelliteGalaxyProfile b z k) z :=
    H.toNonnegInputs.oneH z _ _ (H.toNonnegInputs.cenGal b z k) (fun m hm => sat_nonneg H hm)
  have e1 : 0 ≤ s.compute1hTerm (fun m => s.satelliteGalaxyProfile b z k m * s.poissonFunc m)
      (s.satelliteGalaxyProfile b z k) z :=
    H.toNonnegInputs.oneH z _ _ (fun m hm => mul_nonneg (sat_nonneg H hm) (H.poisson m hm))
      (fun m hm => sat_nonneg H hm)
  have gg1 : (∀ m < s.nm, s.poissonFunc m ≤ 1) →
      2 * s.compute1hTerm (s.centralGalaxyProfile b z k) (s.satelliteGalaxyProfile b z k) z
        + s.compute1hTerm (fun m => s.satelliteGalaxyProfile b z k m * s.poissonFunc m)
          (s.satelliteGalaxyProfile b z k) z
      ≤ simpson s.nm s.mass (fun m => galaxies s b z m ^ 2 * s.dndlnm z m / s.mass m) := by
    intro hpo
    rw [two_mul, add_assoc, oadd]
    unfold compute1hTerm
    rw [← simpson_add]
    refine simpson_mono H.grid fun m hm => ?_
    rw [← add_div, ← add_mul]
    refine div_le_div_of_nonneg_right (mul_le_mul_of_nonneg_right ?_ (H.dndlnm z m hm)) (H.mass m hm).le
    have c0 := H.toNonnegInputs.cenGal b z k m hm
    have s0 := sat_nonneg H (b := b) (z := z) (k := k) hm
    have q := mul_le_mul (hg m hm) (hg m hm) (add_nonneg c0 s0) ((add_nonneg c0 s0).trans (hg m hm))
    have p := mul_le_of_le_one_right (mul_nonneg s0 s0) (hpo m hm)
    nlinarith [mul_nonneg c0 c0]
  set I := s.isTerm b z k
  set C := s.icTerm b z k
  set M := s.imTerm z k
  set P := s.pkLin z k
  set T := s.twoHaloTruncation k
  set B := galaxyBias s b z
  have hIC : 0 ≤ C + I := add_nonneg ic0 is0
  refine ⟨?_, ?_, ?_, fun hpo => ?_⟩
  · have a := mul_le_mul hB hB hIC (hIC.trans hB)
    have a' := mul_le_mul_of_nonneg_right a hP
    have a'' := mul_le_of_le_one_right (mul_nonneg (mul_nonneg hIC hIC) hP) hT2'
    have : P * C * C * T + P * I * I * T + 2 * (P * C * I * T) = (C + I) * (C + I) * P * T := by ring
    rw [this, sq]
    linarith
  · have a' := mul_le_mul_of_nonneg_right hB hP
    have a'' := mul_le_of_le_one_right (mul_nonneg hIC hP) im1
    have a3 := mul_le_of_le_one_right (mul_nonneg (mul_nonneg hIC hP) im0) hT2'
    have : P * C * M * T + P * I * M * T = (C + I) * P * M * T := by ring
    rw [this]
    linarith
  · rw [← add_mul]
    exact (mul_le_of_le_one_right (add_nonneg g0 g1) hT').trans gm1
  · rw [← mul_assoc, ← add_mul]
    exact (mul_le_of_le_one_right (by linarith) hT').trans (gg1 hpo)

/-! ## a concrete case -/

theorem demo_inputs : Inputs demo where
  toNonnegInputs := demo_nonnegInputs
  uSat := by intro z k m _; simp only [demo, Hmi.uSat, demoRaw]; positivity
  poisson := by intro m _; simp only [demo]; norm_num
  kVec := by intro k; simp only [demo]; positivity
  starsMm := by intro h; simp [demo] at h

theorem demo_bounded : Bounded demo := by
  intro z k m _
  have h : ((m : ℝ) + 1) / ((k : ℝ) + 1) / (((m : ℝ) + 1) / (((0 : ℕ) : ℝ) + 1)) ≤ 1 := by
    rw [Nat.cast_zero, zero_add, div_one, div_div, div_le_one (by positivity)]
    have : (0 : ℝ) ≤ ((m : ℝ) + 1) * k := by positivity
    nlinarith
  exact ⟨h, h⟩

/-- the hypotheses are met, with strictly more compact halos on the other side -/
example : Inputs demo ∧ Bounded demo ∧ demo.omegaC + demo.omegaB ≤ demo.omegaM ∧ demo.response = false ∧
    demo.nonlinearMode ≠ .bnl ∧ (∀ z, 0 < demo.sigma8z z) ∧ (∃ r, demo.powerSpectrumMm = .ok r) ∧
    Compacter demo (fun _ _ _ => 1) (fun _ _ _ => 1) ∧ demo.uDm 0 1 0 < 1 := by
  refine ⟨demo_inputs, demo_bounded, ?_, rfl, by simp [demo], ?_, ⟨_, rfl⟩, fun z k m hm => demo_bounded z k m hm, ?_⟩
  · simp only [demo]; norm_num
  · intro z; simp only [demo]; norm_num
  · simp only [demo, Hmi.uDm, demoRaw]; norm_num

end Verif.Pk.ProfileOrder

import Verif.Model.IaChain
import Verif.Model.PkHod
import Verif.Props.PkInl
import Verif.Props.PkDemo
import Verif.Props.IaProfile
import Verif.Lemmas.Interp

/-!
Property C140: how the spectra react when an amplitude is multiplied: the alignment amplitudes (C52, C51, C77, C102 joined to the
alignment spectra), the input power spectra and the completeness of the sample.
-/

namespace Verif.Pk.Spectra

open Verif.Lib

/-! ## Multiplying the alignment inputs -/

/-- central alignments multiplied by `l`, satellite alignments by `m` -/
noncomputable def aligned (l m : ℝ) (s : Spectra) : Spectra :=
  { s with alignmentGi := fun z => l * s.alignmentGi z, wkmSat := fun z k i => m * s.wkmSat z k i }

/-- both power spectra the caller supplies multiplied -/
noncomputable def powered (c : ℝ) (s : Spectra) : Spectra :=
  { s with pkLin := fun z k => c * s.pkLin z k, pkNl := fun z k => c * s.pkNl z k }

/-- every galaxy and every density of galaxies multiplied -/
noncomputable def thinned (c : ℝ) (s : Spectra) : Spectra :=
  { s with
    hodCen := fun b z m => c * s.hodCen b z m
    hodSat := fun b z m => c * s.hodSat b z m
    numberDensity := fun b z => c * s.numberDensity b z
    numberDensityCen := fun b z => c * s.numberDensityCen b z
    numberDensitySat := fun b z => c * s.numberDensitySat b z
    avgHaloMassCen := fun b z => c * s.avgHaloMassCen b z }

variable (s : Spectra) (l m c : ℝ)

theorem one_smul_left (u v : ℕ → ℝ) (z : ℕ) : s.compute1hTerm (fun i => c * u i) v z = c * s.compute1hTerm u v z := by
  unfold compute1hTerm
  rw [← simpson_smul]
  congr 1
  funext i
  ring

theorem one_smul_right (u v : ℕ → ℝ) (z : ℕ) : s.compute1hTerm u (fun i => c * v i) z = c * s.compute1hTerm u v z := by
  unfold compute1hTerm
  rw [← simpson_smul]
  congr 1
  funext i
  ring

theorem ig_smul (u : ℕ → ℝ) (z : ℕ) : s.computeIgTerm (fun i => c * u i) z = c * s.computeIgTerm u z := by
  unfold computeIgTerm
  rw [← simpson_smul]
  congr 1
  funext i
  ring

theorem iNL_smul_left (u v : ℕ → ℝ) (z k : ℕ) : s.iNL (fun i => c * u i) v z k = c * s.iNL u v z k := by
  simpa using C11_linear_left s c 0 u u v z k

theorem iNL_smul_right (u v : ℕ → ℝ) (z k : ℕ) : s.iNL v (fun i => c * u i) z k = c * s.iNL v u z k := by
  simpa using C11_linear_right s c 0 u u v z k

theorem iNL_add_left (u v w : ℕ → ℝ) (z k : ℕ) : s.iNL (fun i => l * u i + m * v i) w z k = l * s.iNL u w z k + m * s.iNL v w z k :=
  C11_linear_left s l m u v w z k

theorem aligned_iNL (u v : ℕ → ℝ) (z k : ℕ) : (aligned l m s).iNL u v z k = s.iNL u v z k := rfl

theorem central_aligned (b z k : ℕ) : (aligned l m s).centralAlignmentProfile b z k = fun i => l * s.centralAlignmentProfile b z k i := by
  funext i
  simp only [centralAlignmentProfile, c1, aligned, massAvg]
  ring

theorem satellite_aligned (b z k : ℕ) :
    (aligned l m s).satelliteAlignmentProfile b z k = fun i => m * s.satelliteAlignmentProfile b z k i := by
  funext i
  simp only [satelliteAlignmentProfile, aligned, massAvg]
  ring

theorem ic_aligned (b z k : ℕ) : (aligned l m s).icAlignTerm b z k = l * s.icAlignTerm b z k := by
  unfold icAlignTerm
  rw [central_aligned]
  show s.computeIgTerm _ z + s.aTerm z * _ * s.meanDensity0 z / s.mass 0 = _
  rw [ig_smul]
  ring

theorem is_aligned (b z k : ℕ) : (aligned l m s).isAlignTerm b z k = m * s.isAlignTerm b z k := by
  unfold isAlignTerm
  rw [satellite_aligned]
  show s.computeIgTerm _ z + s.aTerm z * _ * s.meanDensity0 z / s.mass 0 = _
  rw [ig_smul]
  ring

theorem aligned_one : aligned 1 1 s = s := by
  unfold aligned
  simp only [one_mul]

/-- the factor of the response block -/
theorem respond_eq (r r' : PkResult) (h : s.applyResponse r = .ok r') : ∃ f : ℕ → ℕ → ℝ, r' =
    ⟨fun b z k => r.pk1h b z k * f z k, fun b z k => r.pk2h b z k * f z k, fun b z k => r.pkTot b z k * f z k, r.galaxyLinearBias⟩ ∧
    ∀ q : PkResult, s.applyResponse q =
      .ok ⟨fun b z k => q.pk1h b z k * f z k, fun b z k => q.pk2h b z k * f z k, fun b z k => q.pkTot b z k * f z k, q.galaxyLinearBias⟩ := by
  unfold applyResponse at h ⊢
  split_ifs at h ⊢
  · cases hm : s.powerSpectrumMmRaw with
    | error e => rw [hm] at h; cases h
    | ok mm =>
      rw [hm] at h
      exact ⟨fun z k => s.pkNl z k / mm.pkTot 0 z k, (Except.ok.inj h).symm, fun q => rfl⟩
  · refine ⟨fun _ _ => 1, ?_, fun q => ?_⟩
    · rw [← Except.ok.inj h]
      simp only [mul_one]
    · simp only [mul_one]

theorem mi_raw (b z k : ℕ) : ∃ pc p1 p2, ∀ l m, (aligned l m s).powerSpectrumMiRaw.pk1h b z k = m * p1 ∧
    (aligned l m s).powerSpectrumMiRaw.pk2h b z k = l * pc + m * p2 ∧
    (aligned l m s).powerSpectrumMiRaw.pkTot b z k = l * pc + m * (p1 + p2) := by
  have hp1 : ∀ l m, (aligned l m s).compute1hTerm ((aligned l m s).matterProfile1hG b z k) ((aligned l m s).satelliteAlignmentProfile b z k) z =
      m * s.compute1hTerm (s.matterProfile1hG b z k) (s.satelliteAlignmentProfile b z k) z := fun l m => by
    rw [satellite_aligned]
    exact one_smul_right s m _ _ z
  have hpnl : ∀ l m, (aligned l m s).iNL (fun i => (aligned l m s).centralAlignmentProfile b z k i +
      (aligned l m s).satelliteAlignmentProfile b z k i) ((aligned l m s).matterProfile2h z k) z k =
      l * s.iNL (s.centralAlignmentProfile b z k) (s.matterProfile2h z k) z k +
        m * s.iNL (s.satelliteAlignmentProfile b z k) (s.matterProfile2h z k) z k := fun l m => by
    rw [satellite_aligned, central_aligned]
    exact iNL_add_left s l m _ _ _ z k
  cases hm : s.nonlinearMode with
  | bnl =>
    have hm' : ∀ l m, (aligned l m s).nonlinearMode = .bnl := fun _ _ => hm
    refine ⟨-1 * s.pkLin z k * s.icAlignTerm b z k * s.imTerm z k - s.pkLin z k * s.iNL (s.centralAlignmentProfile b z k) (s.matterProfile2h z k) z k,
      -1 * s.compute1hTerm (s.matterProfile1hG b z k) (s.satelliteAlignmentProfile b z k) z * s.oneHaloTruncationIa k,
      -1 * s.pkLin z k * s.isAlignTerm b z k * s.imTerm z k - s.pkLin z k * s.iNL (s.satelliteAlignmentProfile b z k) (s.matterProfile2h z k) z k,
      fun l m => ?_⟩
    unfold powerSpectrumMiRaw
    simp only [hm', hp1, hpnl, ic_aligned, is_aligned]
    refine ⟨?_, ?_, ?_⟩ <;> simp only [show (aligned l m s).pkLin = s.pkLin from rfl, show (aligned l m s).imTerm = s.imTerm from rfl,
      show (aligned l m s).oneHaloTruncationIa = s.oneHaloTruncationIa from rfl] <;> ring
  | fortuna =>
    have hm' : ∀ l m, (aligned l m s).nonlinearMode = .fortuna := fun _ _ => hm
    refine ⟨s.fC b z * s.peffVal z k * s.alignmentAmplitude2h z * s.twoHaloTruncationIa k,
      -1 * s.compute1hTerm (s.matterProfile1hG b z k) (s.satelliteAlignmentProfile b z k) z * s.oneHaloTruncationIa k, 0, fun l m => ?_⟩
    have ha : (aligned l m s).alignmentAmplitude2h z = l * s.alignmentAmplitude2h z := by
      simp only [alignmentAmplitude2h, c1, aligned]
      ring
    unfold powerSpectrumMiRaw
    simp only [hm', hp1, ha]
    refine ⟨?_, ?_, ?_⟩ <;> simp only [show (aligned l m s).fC = s.fC from rfl, show (aligned l m s).peffVal = s.peffVal from rfl,
      show (aligned l m s).oneHaloTruncationIa = s.oneHaloTruncationIa from rfl,
      show (aligned l m s).twoHaloTruncationIa = s.twoHaloTruncationIa from rfl] <;> ring
  | none | hmcode =>
    have hm' := fun l m => show (aligned l m s).nonlinearMode = _ from hm
    refine ⟨-1 * s.pkLin z k * s.icAlignTerm b z k * s.imTerm z k * s.twoHaloTruncationIa k,
      -1 * s.compute1hTerm (s.matterProfile1hG b z k) (s.satelliteAlignmentProfile b z k) z * s.oneHaloTruncationIa k,
      -1 * s.pkLin z k * s.isAlignTerm b z k * s.imTerm z k * s.twoHaloTruncationIa k, fun l m => ?_⟩
    unfold powerSpectrumMiRaw
    simp only [hm', hp1, ic_aligned, is_aligned]
    refine ⟨?_, ?_, ?_⟩ <;> simp only [show (aligned l m s).pkLin = s.pkLin from rfl, show (aligned l m s).imTerm = s.imTerm from rfl,
      show (aligned l m s).oneHaloTruncationIa = s.oneHaloTruncationIa from rfl,
      show (aligned l m s).twoHaloTruncationIa = s.twoHaloTruncationIa from rfl] <;> ring

theorem gi_raw (b z k : ℕ) : ∃ pc p1 p2, ∀ l m, (aligned l m s).powerSpectrumGiRaw.pk1h b z k = m * p1 ∧
    (aligned l m s).powerSpectrumGiRaw.pk2h b z k = l * pc + m * p2 ∧
    (aligned l m s).powerSpectrumGiRaw.pkTot b z k = l * pc + m * (p1 + p2) := by
  have hp1 : ∀ l m, (aligned l m s).compute1hTerm ((aligned l m s).centralGalaxyProfile b z k) ((aligned l m s).satelliteAlignmentProfile b z k) z =
      m * s.compute1hTerm (s.centralGalaxyProfile b z k) (s.satelliteAlignmentProfile b z k) z := fun l m => by
    rw [satellite_aligned]
    exact one_smul_right s m _ _ z
  have n1 : ∀ l m, (aligned l m s).iNL ((aligned l m s).centralAlignmentProfile b z k) ((aligned l m s).centralGalaxyProfile b z k) z k =
      l * s.iNL (s.centralAlignmentProfile b z k) (s.centralGalaxyProfile b z k) z k := fun l m => by
    rw [central_aligned]
    exact iNL_smul_left s l _ _ z k
  have n2 : ∀ l m, (aligned l m s).iNL ((aligned l m s).satelliteAlignmentProfile b z k) ((aligned l m s).centralGalaxyProfile b z k) z k =
      m * s.iNL (s.satelliteAlignmentProfile b z k) (s.centralGalaxyProfile b z k) z k := fun l m => by
    rw [satellite_aligned]
    exact iNL_smul_left s m _ _ z k
  cases hm : s.nonlinearMode with
  | bnl =>
    have hm' : ∀ l m, (aligned l m s).nonlinearMode = .bnl := fun _ _ => hm
    refine ⟨s.pkLin z k * s.icTerm b z k * s.icAlignTerm b z k +
        s.pkLin z k * s.iNL (s.centralAlignmentProfile b z k) (s.centralGalaxyProfile b z k) z k,
      s.compute1hTerm (s.centralGalaxyProfile b z k) (s.satelliteAlignmentProfile b z k) z * s.oneHaloTruncationIa k,
      s.pkLin z k * s.icTerm b z k * s.isAlignTerm b z k +
        s.pkLin z k * s.iNL (s.satelliteAlignmentProfile b z k) (s.centralGalaxyProfile b z k) z k, fun l m => ?_⟩
    unfold powerSpectrumGiRaw
    simp only [hm', hp1, n1, n2, ic_aligned, is_aligned]
    refine ⟨?_, ?_, ?_⟩ <;> simp only [show (aligned l m s).pkLin = s.pkLin from rfl, show (aligned l m s).icTerm = s.icTerm from rfl,
      show (aligned l m s).oneHaloTruncationIa = s.oneHaloTruncationIa from rfl] <;> ring
  | fortuna =>
    have hm' : ∀ l m, (aligned l m s).nonlinearMode = .fortuna := fun _ _ => hm
    refine ⟨-1 * s.peffVal z k * s.icTerm b z k * s.alignmentAmplitude2h z * s.twoHaloTruncationIa k,
      s.compute1hTerm (s.centralGalaxyProfile b z k) (s.satelliteAlignmentProfile b z k) z * s.oneHaloTruncationIa k, 0, fun l m => ?_⟩
    have ha : (aligned l m s).alignmentAmplitude2h z = l * s.alignmentAmplitude2h z := by
      simp only [alignmentAmplitude2h, c1, aligned]
      ring
    unfold powerSpectrumGiRaw
    simp only [hm', hp1, ha]
    refine ⟨?_, ?_, ?_⟩ <;> simp only [show (aligned l m s).icTerm = s.icTerm from rfl, show (aligned l m s).peffVal = s.peffVal from rfl,
      show (aligned l m s).oneHaloTruncationIa = s.oneHaloTruncationIa from rfl,
      show (aligned l m s).twoHaloTruncationIa = s.twoHaloTruncationIa from rfl] <;> ring
  | none | hmcode =>
    have hm' := fun l m => show (aligned l m s).nonlinearMode = _ from hm
    refine ⟨s.pkLin z k * s.icTerm b z k * s.icAlignTerm b z k * s.twoHaloTruncationIa k,
      s.compute1hTerm (s.centralGalaxyProfile b z k) (s.satelliteAlignmentProfile b z k) z * s.oneHaloTruncationIa k,
      s.pkLin z k * s.icTerm b z k * s.isAlignTerm b z k * s.twoHaloTruncationIa k, fun l m => ?_⟩
    unfold powerSpectrumGiRaw
    simp only [hm', hp1, ic_aligned, is_aligned]
    refine ⟨?_, ?_, ?_⟩ <;> simp only [show (aligned l m s).pkLin = s.pkLin from rfl, show (aligned l m s).icTerm = s.icTerm from rfl,
      show (aligned l m s).oneHaloTruncationIa = s.oneHaloTruncationIa from rfl,
      show (aligned l m s).twoHaloTruncationIa = s.twoHaloTruncationIa from rfl] <;> ring

theorem ii_raw (b z k : ℕ) : ∃ p1 cc cs ss, ∀ l m, (aligned l m s).powerSpectrumIiRaw.pk1h b z k = m ^ 2 * p1 ∧
    (aligned l m s).powerSpectrumIiRaw.pk2h b z k = l ^ 2 * cc + l * m * cs + m ^ 2 * ss ∧
    (aligned l m s).powerSpectrumIiRaw.pkTot b z k = l ^ 2 * cc + l * m * cs + m ^ 2 * (p1 + ss) := by
  have hp1 : ∀ l m, (aligned l m s).compute1hTerm ((aligned l m s).satelliteAlignmentProfile b z k) ((aligned l m s).satelliteAlignmentProfile b z k) z =
      m * (m * s.compute1hTerm (s.satelliteAlignmentProfile b z k) (s.satelliteAlignmentProfile b z k) z) := fun l m => by
    rw [satellite_aligned]
    show s.compute1hTerm _ _ z = _
    rw [one_smul_right, one_smul_left]
  have n1 : ∀ l m, (aligned l m s).iNL ((aligned l m s).centralAlignmentProfile b z k) ((aligned l m s).centralAlignmentProfile b z k) z k =
      l * (l * s.iNL (s.centralAlignmentProfile b z k) (s.centralAlignmentProfile b z k) z k) := fun l m => by
    rw [central_aligned]
    rw [aligned_iNL, iNL_smul_right, iNL_smul_left]
  have n2 : ∀ l m, (aligned l m s).iNL ((aligned l m s).satelliteAlignmentProfile b z k) ((aligned l m s).satelliteAlignmentProfile b z k) z k =
      m * (m * s.iNL (s.satelliteAlignmentProfile b z k) (s.satelliteAlignmentProfile b z k) z k) := fun l m => by
    rw [satellite_aligned]
    rw [aligned_iNL, iNL_smul_right, iNL_smul_left]
  have n3 : ∀ l m, (aligned l m s).iNL ((aligned l m s).centralAlignmentProfile b z k) ((aligned l m s).satelliteAlignmentProfile b z k) z k =
      m * (l * s.iNL (s.centralAlignmentProfile b z k) (s.satelliteAlignmentProfile b z k) z k) := fun l m => by
    rw [satellite_aligned, central_aligned]
    rw [aligned_iNL, iNL_smul_right, iNL_smul_left]
  cases hm : s.nonlinearMode with
  | bnl =>
    have hm' : ∀ l m, (aligned l m s).nonlinearMode = .bnl := fun _ _ => hm
    refine ⟨s.compute1hTerm (s.satelliteAlignmentProfile b z k) (s.satelliteAlignmentProfile b z k) z * s.oneHaloTruncationIa k,
      s.pkLin z k * s.icAlignTerm b z k * s.icAlignTerm b z k +
        s.pkLin z k * s.iNL (s.centralAlignmentProfile b z k) (s.centralAlignmentProfile b z k) z k,
      s.pkLin z k * s.icAlignTerm b z k * s.isAlignTerm b z k +
        s.pkLin z k * s.iNL (s.centralAlignmentProfile b z k) (s.satelliteAlignmentProfile b z k) z k,
      s.pkLin z k * s.isAlignTerm b z k * s.isAlignTerm b z k +
        s.pkLin z k * s.iNL (s.satelliteAlignmentProfile b z k) (s.satelliteAlignmentProfile b z k) z k, fun l m => ?_⟩
    unfold powerSpectrumIiRaw
    simp only [hm', hp1, n1, n2, n3, ic_aligned, is_aligned]
    refine ⟨?_, ?_, ?_⟩ <;> simp only [show (aligned l m s).pkLin = s.pkLin from rfl,
      show (aligned l m s).oneHaloTruncationIa = s.oneHaloTruncationIa from rfl] <;> ring
  | fortuna =>
    have hm' : ∀ l m, (aligned l m s).nonlinearMode = .fortuna := fun _ _ => hm
    refine ⟨s.compute1hTerm (s.satelliteAlignmentProfile b z k) (s.satelliteAlignmentProfile b z k) z * s.oneHaloTruncationIa k,
      s.fC b z ^ 2 * s.peffVal z k * s.alignmentAmplitude2hII z * s.twoHaloTruncationIa k, 0, 0, fun l m => ?_⟩
    have ha : (aligned l m s).alignmentAmplitude2hII z = l ^ 2 * s.alignmentAmplitude2hII z := by
      simp only [alignmentAmplitude2hII, c1, aligned]
      ring
    unfold powerSpectrumIiRaw
    simp only [hm', hp1, ha]
    refine ⟨?_, ?_, ?_⟩ <;> simp only [show (aligned l m s).fC = s.fC from rfl, show (aligned l m s).peffVal = s.peffVal from rfl,
      show (aligned l m s).oneHaloTruncationIa = s.oneHaloTruncationIa from rfl,
      show (aligned l m s).twoHaloTruncationIa = s.twoHaloTruncationIa from rfl] <;> ring
  | none | hmcode =>
    have hm' := fun l m => show (aligned l m s).nonlinearMode = _ from hm
    refine ⟨s.compute1hTerm (s.satelliteAlignmentProfile b z k) (s.satelliteAlignmentProfile b z k) z * s.oneHaloTruncationIa k,
      s.pkLin z k * s.icAlignTerm b z k * s.icAlignTerm b z k * s.twoHaloTruncationIa k,
      s.pkLin z k * s.icAlignTerm b z k * s.isAlignTerm b z k * s.twoHaloTruncationIa k,
      s.pkLin z k * s.isAlignTerm b z k * s.isAlignTerm b z k * s.twoHaloTruncationIa k, fun l m => ?_⟩
    unfold powerSpectrumIiRaw
    simp only [hm', hp1, ic_aligned, is_aligned]
    refine ⟨?_, ?_, ?_⟩ <;> simp only [show (aligned l m s).pkLin = s.pkLin from rfl,
      show (aligned l m s).oneHaloTruncationIa = s.oneHaloTruncationIa from rfl,
      show (aligned l m s).twoHaloTruncationIa = s.twoHaloTruncationIa from rfl] <;> ring

/-- C140: the matter-intrinsic and galaxy-intrinsic spectra are linear in the two alignment amplitudes, in every mode and with
response: the 1-halo part in the one of the satellites alone, and the parts do not depend on the amplitudes -/
theorem C140_linear (spectrum : Spectra → Except PyErr PkResult) (hq : spectrum = powerSpectrumMi ∨ spectrum = powerSpectrumGi)
    (r : PkResult) (h : spectrum s = .ok r) :
    ∃ c p1 p2 : ℕ → ℕ → ℕ → ℝ, ∀ l m, ∃ r', spectrum (aligned l m s) = .ok r' ∧ ∀ b z k,
      r'.pk1h b z k = m * p1 b z k ∧ r'.pk2h b z k = l * c b z k + m * p2 b z k ∧
      r'.pkTot b z k = l * c b z k + m * (p1 b z k + p2 b z k) := by
  rcases hq with rfl | rfl
  · obtain ⟨f, -, hf⟩ := respond_eq s _ r h
    choose pc p1 p2 hp using mi_raw s
    refine ⟨fun b z k => pc b z k * f z k, fun b z k => p1 b z k * f z k, fun b z k => p2 b z k * f z k, fun l m => ⟨_, hf _, fun b z k => ?_⟩⟩
    obtain ⟨h1, h2, h3⟩ := hp b z k l m
    dsimp only
    rw [h1, h2, h3]
    exact ⟨by ring, by ring, by ring⟩
  · obtain ⟨f, -, hf⟩ := respond_eq s _ r h
    choose pc p1 p2 hp using gi_raw s
    refine ⟨fun b z k => pc b z k * f z k, fun b z k => p1 b z k * f z k, fun b z k => p2 b z k * f z k, fun l m => ⟨_, hf _, fun b z k => ?_⟩⟩
    obtain ⟨h1, h2, h3⟩ := hp b z k l m
    dsimp only
    rw [h1, h2, h3]
    exact ⟨by ring, by ring, by ring⟩

/-- C140: the intrinsic-intrinsic spectrum is a quadratic form in the two alignment amplitudes -/
theorem C140_quadratic (r : PkResult) (h : s.powerSpectrumIi = .ok r) :
    ∃ p1 cc cs ss : ℕ → ℕ → ℕ → ℝ, ∀ l m, ∃ r', (aligned l m s).powerSpectrumIi = .ok r' ∧ ∀ b z k,
      r'.pk1h b z k = m ^ 2 * p1 b z k ∧ r'.pk2h b z k = l ^ 2 * cc b z k + l * m * cs b z k + m ^ 2 * ss b z k ∧
      r'.pkTot b z k = l ^ 2 * cc b z k + l * m * cs b z k + m ^ 2 * (p1 b z k + ss b z k) := by
  obtain ⟨f, -, hf⟩ := respond_eq s _ r h
  choose p1 cc cs ss hp using ii_raw s
  refine ⟨fun b z k => p1 b z k * f z k, fun b z k => cc b z k * f z k, fun b z k => cs b z k * f z k, fun b z k => ss b z k * f z k,
    fun l m => ⟨_, hf _, fun b z k => ?_⟩⟩
  obtain ⟨h1, h2, h3⟩ := hp b z k l m
  dsimp only
  rw [h1, h2, h3]
  exact ⟨by ring, by ring, by ring⟩

/-- C140: a common factor of both amplitudes is a factor of the matter-intrinsic and galaxy-intrinsic spectra, its square one of the
intrinsic-intrinsic spectrum; the other spectra do not look at the amplitudes -/
theorem C140_common_factor :
    (∀ r, s.powerSpectrumMi = .ok r → ∃ r', (aligned l l s).powerSpectrumMi = .ok r' ∧ ∀ b z k,
      r'.pk1h b z k = l * r.pk1h b z k ∧ r'.pk2h b z k = l * r.pk2h b z k ∧ r'.pkTot b z k = l * r.pkTot b z k) ∧
    (∀ r, s.powerSpectrumGi = .ok r → ∃ r', (aligned l l s).powerSpectrumGi = .ok r' ∧ ∀ b z k,
      r'.pk1h b z k = l * r.pk1h b z k ∧ r'.pk2h b z k = l * r.pk2h b z k ∧ r'.pkTot b z k = l * r.pkTot b z k) ∧
    (∀ r, s.powerSpectrumIi = .ok r → ∃ r', (aligned l l s).powerSpectrumIi = .ok r' ∧ ∀ b z k,
      r'.pk1h b z k = l ^ 2 * r.pk1h b z k ∧ r'.pk2h b z k = l ^ 2 * r.pk2h b z k ∧ r'.pkTot b z k = l ^ 2 * r.pkTot b z k) ∧
    (aligned l m s).powerSpectrumMm = s.powerSpectrumMm ∧ (aligned l m s).powerSpectrumGg = s.powerSpectrumGg ∧
    (aligned l m s).powerSpectrumGm = s.powerSpectrumGm := by
  have lin : ∀ spectrum : Spectra → Except PyErr PkResult, spectrum = powerSpectrumMi ∨ spectrum = powerSpectrumGi →
      ∀ r, spectrum s = .ok r → ∃ r', spectrum (aligned l l s) = .ok r' ∧ ∀ b z k,
        r'.pk1h b z k = l * r.pk1h b z k ∧ r'.pk2h b z k = l * r.pk2h b z k ∧ r'.pkTot b z k = l * r.pkTot b z k := fun spectrum hq r hr => by
    obtain ⟨c, p1, p2, hp⟩ := C140_linear s spectrum hq r hr
    obtain ⟨r1, h1, e1⟩ := hp 1 1
    rw [aligned_one, hr] at h1
    cases h1
    obtain ⟨r', h', e'⟩ := hp l l
    refine ⟨r', h', fun b z k => ?_⟩
    obtain ⟨a1, a2, a3⟩ := e1 b z k
    obtain ⟨b1, b2, b3⟩ := e' b z k
    rw [a1, a2, a3, b1, b2, b3]
    exact ⟨by ring, by ring, by ring⟩
  refine ⟨lin _ (.inl rfl), lin _ (.inr rfl), fun r hr => ?_, rfl, rfl, rfl⟩
  obtain ⟨p1, cc, cs, ss, hp⟩ := C140_quadratic s r hr
  obtain ⟨r1, h1, e1⟩ := hp 1 1
  rw [aligned_one, hr] at h1
  cases h1
  obtain ⟨r', h', e'⟩ := hp l l
  refine ⟨r', h', fun b z k => ?_⟩
  obtain ⟨a1, a2, a3⟩ := e1 b z k
  obtain ⟨b1, b2, b3⟩ := e' b z k
  rw [a1, a2, a3, b1, b2, b3]
  exact ⟨by ring, by ring, by ring⟩

/-! ## Multiplying the input power spectra -/

theorem raw_powered :
    (∀ r, s.powerSpectrumMmRaw = .ok r → ∃ r', (powered c s).powerSpectrumMmRaw = .ok r' ∧ (∀ b z k, r'.pk1h b z k = r.pk1h b z k ∧
      r'.pk2h b z k = c * r.pk2h b z k) ∧ (s.nonlinearMode ≠ .hmcode → ∀ b z k, r'.pkTot b z k = r.pk1h b z k + c * r.pk2h b z k)) := by
  intro r h
  unfold powerSpectrumMmRaw at h ⊢
  have hm : (powered c s).nonlinearMode = s.nonlinearMode := rfl
  have hi : (powered c s).hmcodeIngredients = s.hmcodeIngredients := rfl
  rw [hm]
  cases hmode : s.nonlinearMode with
  | hmcode =>
    rw [hmode] at h
    dsimp only at h ⊢
    rw [hi]
    split_ifs at h ⊢ with hg
    rw [← Except.ok.inj h]
    exact ⟨_, rfl, fun b z k => ⟨rfl, by show c * s.pkLin z k * _ = c * (s.pkLin z k * _); rw [mul_assoc]; rfl⟩, fun e => absurd rfl e⟩
  | bnl =>
    rw [hmode] at h
    rw [← Except.ok.inj h]
    have e2 : ∀ z k, (powered c s).pkLin z k * (powered c s).imTerm z k * (powered c s).imTerm z k +
        (powered c s).pkLin z k * (powered c s).iNL ((powered c s).matterProfile2h z k) ((powered c s).matterProfile2h z k) z k =
        c * (s.pkLin z k * s.imTerm z k * s.imTerm z k + s.pkLin z k * s.iNL (s.matterProfile2h z k) (s.matterProfile2h z k) z k) := fun z k => by
      show c * s.pkLin z k * s.imTerm z k * s.imTerm z k + c * s.pkLin z k * s.iNL (s.matterProfile2h z k) (s.matterProfile2h z k) z k = _
      ring
    exact ⟨_, rfl, fun b z k => ⟨rfl, e2 z k⟩, fun _ b z k => congrArg (fun t : ℝ => _ + t) (e2 z k)⟩
  | none | fortuna =>
    rw [hmode] at h
    rw [← Except.ok.inj h]
    have e2 : ∀ z k, (powered c s).pkLin z k * (powered c s).imTerm z k * (powered c s).imTerm z k * (powered c s).twoHaloTruncation k =
        c * (s.pkLin z k * s.imTerm z k * s.imTerm z k * s.twoHaloTruncation k) := fun z k => by
      show c * s.pkLin z k * s.imTerm z k * s.imTerm z k * s.twoHaloTruncation k = _
      ring
    exact ⟨_, rfl, fun b z k => ⟨rfl, e2 z k⟩, fun _ b z k => congrArg (fun t : ℝ => _ + t) (e2 z k)⟩

theorem peff_powered (z k : ℕ) : (powered c s).peffVal z k = c * s.peffVal z k := by
  unfold peffVal peff
  show (if s.nonlinearMode = .fortuna then some ((1 - s.tEff) * (c * s.pkNl z k) + s.tEff * (c * s.pkLin z k)) else none).getD 0 = _
  split_ifs
  · show (1 - s.tEff) * (c * s.pkNl z k) + s.tEff * (c * s.pkLin z k) = c * ((1 - s.tEff) * s.pkNl z k + s.tEff * s.pkLin z k)
    ring
  · simp

/-- a result whose 2-halo part and total react to the factor `c` of the power spectra as a halo model does -/
def TwoHalo (c : ℝ) (r r' : PkResult) : Prop :=
  ∀ b z k, r'.pk1h b z k = r.pk1h b z k ∧ r'.pk2h b z k = c * r.pk2h b z k ∧ r'.pkTot b z k = r.pk1h b z k + c * r.pk2h b z k

theorem gg_powered : TwoHalo c s.powerSpectrumGgRaw (powered c s).powerSpectrumGgRaw := by
  intro b z k
  unfold powerSpectrumGgRaw
  refine ⟨rfl, ?_, ?_⟩ <;>
    simp only [show (powered c s).nonlinearMode = s.nonlinearMode from rfl, show (powered c s).pkLin z k = c * s.pkLin z k from rfl,
      show (powered c s).icTerm = s.icTerm from rfl, show (powered c s).isTerm = s.isTerm from rfl,
      show (powered c s).twoHaloTruncation = s.twoHaloTruncation from rfl, show (powered c s).centralGalaxyProfile = s.centralGalaxyProfile from rfl,
      show (powered c s).satelliteGalaxyProfile = s.satelliteGalaxyProfile from rfl,
      show ∀ u v, (powered c s).iNL u v z k = s.iNL u v z k from fun _ _ => rfl,
      show ∀ u v, (powered c s).compute1hTerm u v z = s.compute1hTerm u v z from fun _ _ => rfl,
      show (powered c s).oneHaloTruncation = s.oneHaloTruncation from rfl, show (powered c s).poissonFunc = s.poissonFunc from rfl] <;>
    by_cases g : s.nonlinearMode = .bnl <;> simp only [g, if_true, if_false] <;> ring

theorem gm_powered : TwoHalo c s.powerSpectrumGmRaw (powered c s).powerSpectrumGmRaw := by
  intro b z k
  unfold powerSpectrumGmRaw
  refine ⟨rfl, ?_, ?_⟩ <;>
    simp only [show (powered c s).nonlinearMode = s.nonlinearMode from rfl, show (powered c s).pkLin z k = c * s.pkLin z k from rfl,
      show (powered c s).icTerm = s.icTerm from rfl, show (powered c s).isTerm = s.isTerm from rfl, show (powered c s).imTerm = s.imTerm from rfl,
      show (powered c s).twoHaloTruncation = s.twoHaloTruncation from rfl, show (powered c s).centralGalaxyProfile = s.centralGalaxyProfile from rfl,
      show (powered c s).satelliteGalaxyProfile = s.satelliteGalaxyProfile from rfl, show (powered c s).matterProfile2h = s.matterProfile2h from rfl,
      show (powered c s).matterProfile1hG = s.matterProfile1hG from rfl,
      show ∀ u v, (powered c s).iNL u v z k = s.iNL u v z k from fun _ _ => rfl,
      show ∀ u v, (powered c s).compute1hTerm u v z = s.compute1hTerm u v z from fun _ _ => rfl,
      show (powered c s).oneHaloTruncation = s.oneHaloTruncation from rfl] <;>
    by_cases g : s.nonlinearMode = .bnl <;> simp only [g, if_true, if_false] <;> ring

theorem mi_powered : TwoHalo c s.powerSpectrumMiRaw (powered c s).powerSpectrumMiRaw := by
  intro b z k
  unfold powerSpectrumMiRaw
  rw [show (powered c s).nonlinearMode = s.nonlinearMode from rfl]
  cases s.nonlinearMode <;> refine ⟨rfl, ?_, ?_⟩ <;>
    simp only [show (powered c s).pkLin z k = c * s.pkLin z k from rfl, peff_powered, show (powered c s).fC = s.fC from rfl,
      show (powered c s).icAlignTerm = s.icAlignTerm from rfl, show (powered c s).isAlignTerm = s.isAlignTerm from rfl,
      show (powered c s).imTerm = s.imTerm from rfl, show (powered c s).matterProfile1hG = s.matterProfile1hG from rfl,
      show (powered c s).twoHaloTruncationIa = s.twoHaloTruncationIa from rfl, show (powered c s).oneHaloTruncationIa = s.oneHaloTruncationIa from rfl,
      show (powered c s).centralAlignmentProfile = s.centralAlignmentProfile from rfl, show (powered c s).matterProfile2h = s.matterProfile2h from rfl,
      show (powered c s).satelliteAlignmentProfile = s.satelliteAlignmentProfile from rfl,
      show (powered c s).alignmentAmplitude2h = s.alignmentAmplitude2h from rfl,
      show ∀ u v, (powered c s).iNL u v z k = s.iNL u v z k from fun _ _ => rfl,
      show ∀ u v, (powered c s).compute1hTerm u v z = s.compute1hTerm u v z from fun _ _ => rfl] <;> ring

theorem gi_powered : TwoHalo c s.powerSpectrumGiRaw (powered c s).powerSpectrumGiRaw := by
  intro b z k
  unfold powerSpectrumGiRaw
  rw [show (powered c s).nonlinearMode = s.nonlinearMode from rfl]
  cases s.nonlinearMode <;> refine ⟨rfl, ?_, ?_⟩ <;>
    simp only [show (powered c s).pkLin z k = c * s.pkLin z k from rfl, peff_powered, show (powered c s).icTerm = s.icTerm from rfl,
      show (powered c s).icAlignTerm = s.icAlignTerm from rfl, show (powered c s).isAlignTerm = s.isAlignTerm from rfl,
      show (powered c s).centralGalaxyProfile = s.centralGalaxyProfile from rfl,
      show (powered c s).twoHaloTruncationIa = s.twoHaloTruncationIa from rfl, show (powered c s).oneHaloTruncationIa = s.oneHaloTruncationIa from rfl,
      show (powered c s).centralAlignmentProfile = s.centralAlignmentProfile from rfl,
      show (powered c s).satelliteAlignmentProfile = s.satelliteAlignmentProfile from rfl,
      show (powered c s).alignmentAmplitude2h = s.alignmentAmplitude2h from rfl,
      show ∀ u v, (powered c s).iNL u v z k = s.iNL u v z k from fun _ _ => rfl,
      show ∀ u v, (powered c s).compute1hTerm u v z = s.compute1hTerm u v z from fun _ _ => rfl] <;> ring

theorem ii_powered : TwoHalo c s.powerSpectrumIiRaw (powered c s).powerSpectrumIiRaw := by
  intro b z k
  unfold powerSpectrumIiRaw
  rw [show (powered c s).nonlinearMode = s.nonlinearMode from rfl]
  cases s.nonlinearMode <;> refine ⟨rfl, ?_, ?_⟩ <;>
    simp only [show (powered c s).pkLin z k = c * s.pkLin z k from rfl, peff_powered, show (powered c s).fC = s.fC from rfl,
      show (powered c s).icAlignTerm = s.icAlignTerm from rfl, show (powered c s).isAlignTerm = s.isAlignTerm from rfl,
      show (powered c s).twoHaloTruncationIa = s.twoHaloTruncationIa from rfl, show (powered c s).oneHaloTruncationIa = s.oneHaloTruncationIa from rfl,
      show (powered c s).centralAlignmentProfile = s.centralAlignmentProfile from rfl,
      show (powered c s).satelliteAlignmentProfile = s.satelliteAlignmentProfile from rfl,
      show (powered c s).alignmentAmplitude2hII = s.alignmentAmplitude2hII from rfl,
      show ∀ u v, (powered c s).iNL u v z k = s.iNL u v z k from fun _ _ => rfl,
      show ∀ u v, (powered c s).compute1hTerm u v z = s.compute1hTerm u v z from fun _ _ => rfl] <;> ring

/-- C140: a common factor of the linear and the non-linear power spectrum multiplies the 2-halo part and nothing else: without response,
every spectrum keeps its 1-halo part and its total is the old 1-halo part plus the factor times the old 2-halo part (for the matter
spectrum of the hmcode mode, whose total is a smoothed transition, only the two parts); the galaxy bias does not change -/
theorem C140_power (hr : s.response = false) :
    (∀ r, s.powerSpectrumMm = .ok r → ∃ r', (powered c s).powerSpectrumMm = .ok r' ∧ (∀ b z k, r'.pk1h b z k = r.pk1h b z k ∧
      r'.pk2h b z k = c * r.pk2h b z k) ∧ (s.nonlinearMode ≠ .hmcode → ∀ b z k, r'.pkTot b z k = r.pk1h b z k + c * r.pk2h b z k)) ∧
    (∀ spectrum ∈ [powerSpectrumGg, powerSpectrumGm, powerSpectrumMi, powerSpectrumGi, powerSpectrumIi], ∃ r r', spectrum s = .ok r ∧
      spectrum (powered c s) = .ok r' ∧ r'.galaxyLinearBias = r.galaxyLinearBias ∧
      ∀ b z k, r'.pk1h b z k = r.pk1h b z k ∧ r'.pk2h b z k = c * r.pk2h b z k ∧ r'.pkTot b z k = r.pk1h b z k + c * r.pk2h b z k) := by
  have hr' : (powered c s).response = false := hr
  have ha : ∀ r, s.applyResponse r = .ok r := fun r => if_neg (by rw [hr]; exact Bool.false_ne_true)
  have ha' : ∀ r, (powered c s).applyResponse r = .ok r := fun r => if_neg (by rw [hr']; exact Bool.false_ne_true)
  have hi : ∀ s : Spectra, s.powerSpectrumMiRaw.galaxyLinearBias = none := fun s => by
    unfold powerSpectrumMiRaw; cases s.nonlinearMode <;> rfl
  have hi2 : ∀ s : Spectra, s.powerSpectrumGiRaw.galaxyLinearBias = none := fun s => by
    unfold powerSpectrumGiRaw; cases s.nonlinearMode <;> rfl
  have hi3 : ∀ s : Spectra, s.powerSpectrumIiRaw.galaxyLinearBias = none := fun s => by
    unfold powerSpectrumIiRaw; cases s.nonlinearMode <;> rfl
  refine ⟨fun r h => ?_, fun spectrum hs => ?_⟩
  · have e : s.powerSpectrumMm = s.powerSpectrumMmRaw := if_neg (by rw [hr]; exact Bool.false_ne_true)
    have e' : (powered c s).powerSpectrumMm = (powered c s).powerSpectrumMmRaw := if_neg (by rw [hr']; exact Bool.false_ne_true)
    rw [e']
    exact raw_powered s c r (e ▸ h)
  · simp only [List.mem_cons, List.not_mem_nil, or_false] at hs
    rcases hs with rfl | rfl | rfl | rfl | rfl
    · exact ⟨_, _, ha _, ha' _, rfl, gg_powered s c⟩
    · exact ⟨_, _, ha _, ha' _, rfl, gm_powered s c⟩
    · exact ⟨_, _, ha _, ha' _, (hi _).trans (hi _).symm, mi_powered s c⟩
    · exact ⟨_, _, ha _, ha' _, (hi2 _).trans (hi2 _).symm, gi_powered s c⟩
    · exact ⟨_, _, ha _, ha' _, (hi3 _).trans (hi3 _).symm, ii_powered s c⟩

/-- C140: with response, a factor of the non-linear power spectrum alone is a factor of every total (outside the fortuna mode, whose
alignment spectra read it a second time) -/
theorem C140_response (hr : s.response = true) (hf : s.nonlinearMode ≠ .fortuna) (spectrum : Spectra → Except PyErr PkResult)
    (hs : spectrum ∈ [powerSpectrumMm, powerSpectrumGg, powerSpectrumGm, powerSpectrumMi, powerSpectrumGi, powerSpectrumIi])
    (r : PkResult) (h : spectrum s = .ok r) :
    ∃ r', spectrum { s with pkNl := fun z k => c * s.pkNl z k } = .ok r' ∧ r'.galaxyLinearBias = r.galaxyLinearBias ∧
      ∀ b z k, r'.pk1h b z k = c * r.pk1h b z k ∧ r'.pk2h b z k = c * r.pk2h b z k ∧ r'.pkTot b z k = c * r.pkTot b z k := by
  have key : ∀ q q' r, q' = q → s.applyResponse q = .ok r → ∃ r', applyResponse { s with pkNl := fun z k => c * s.pkNl z k } q' = .ok r' ∧
      r'.galaxyLinearBias = r.galaxyLinearBias ∧
      ∀ b z k, r'.pk1h b z k = c * r.pk1h b z k ∧ r'.pk2h b z k = c * r.pk2h b z k ∧ r'.pkTot b z k = c * r.pkTot b z k := by
    intro q q' r e h
    subst e
    unfold applyResponse at h ⊢
    rw [if_pos hr] at h
    rw [if_pos hr]
    have hmm : powerSpectrumMmRaw { s with pkNl := fun z k => c * s.pkNl z k } = s.powerSpectrumMmRaw := rfl
    rw [hmm]
    cases hm : s.powerSpectrumMmRaw with
    | error e => rw [hm] at h; cases h
    | ok mm =>
      rw [hm] at h
      rw [← Except.ok.inj h]
      refine ⟨_, rfl, rfl, fun b z k => ⟨?_, ?_, ?_⟩⟩ <;> dsimp only <;> ring
  simp only [List.mem_cons, List.not_mem_nil, or_false] at hs
  rcases hs with rfl | rfl | rfl | rfl | rfl | rfl
  · unfold powerSpectrumMm at h ⊢
    rw [if_pos hr] at h
    rw [if_pos hr, ← Except.ok.inj h]
    exact ⟨_, rfl, rfl, fun b z k => ⟨(mul_zero c).symm, (mul_zero c).symm, rfl⟩⟩
  · exact key _ _ r rfl h
  · exact key _ _ r rfl h
  · refine key _ _ r ?_ h
    unfold powerSpectrumMiRaw
    dsimp only
    cases hm : s.nonlinearMode <;> first | rfl | exact absurd hm hf
  · refine key _ _ r ?_ h
    unfold powerSpectrumGiRaw
    dsimp only
    cases hm : s.nonlinearMode <;> first | rfl | exact absurd hm hf
  · refine key _ _ r ?_ h
    unfold powerSpectrumIiRaw
    dsimp only
    cases hm : s.nonlinearMode <;> first | rfl | exact absurd hm hf

/-- C140: the Poisson factor multiplies the satellite-satellite 1-halo term only -/
theorem C140_poisson (hr : s.response = false) : ∃ p q : ℕ → ℕ → ℕ → ℝ, ∀ c, ∃ r,
    powerSpectrumGg { s with poissonFunc := fun i => c * s.poissonFunc i } = .ok r ∧ (∀ b z k, r.pk1h b z k = p b z k + c * q b z k) ∧
      ∃ r0, s.powerSpectrumGg = .ok r0 ∧ (∀ b z k, r.pk2h b z k = r0.pk2h b z k) ∧ r.galaxyLinearBias = r0.galaxyLinearBias := by
  have ha : ∀ r, s.applyResponse r = .ok r := fun r => if_neg (by rw [hr]; exact Bool.false_ne_true)
  have ha' : ∀ c r, applyResponse { s with poissonFunc := fun i => c * s.poissonFunc i } r = .ok r := fun c r =>
    if_neg (by rw [show Spectra.response { s with poissonFunc := fun i => c * s.poissonFunc i } = s.response from rfl, hr]; exact Bool.false_ne_true)
  refine ⟨fun b z k => 2 * (s.compute1hTerm (s.centralGalaxyProfile b z k) (s.satelliteGalaxyProfile b z k) z * s.oneHaloTruncation k),
    fun b z k => s.compute1hTerm (fun m => s.satelliteGalaxyProfile b z k m * s.poissonFunc m) (s.satelliteGalaxyProfile b z k) z *
      s.oneHaloTruncation k, fun c => ⟨_, ha' c _, fun b z k => ?_, _, ha _, fun b z k => rfl, rfl⟩⟩
  show 2 * (s.compute1hTerm (s.centralGalaxyProfile b z k) (s.satelliteGalaxyProfile b z k) z * s.oneHaloTruncation k) +
    s.compute1hTerm (fun m => s.satelliteGalaxyProfile b z k m * (c * s.poissonFunc m)) (s.satelliteGalaxyProfile b z k) z *
      s.oneHaloTruncation k = _
  rw [show (fun m => s.satelliteGalaxyProfile b z k m * (c * s.poissonFunc m)) =
    fun m => c * (s.satelliteGalaxyProfile b z k m * s.poissonFunc m) from funext fun m => by ring, one_smul_left]
  ring

/-! ## Observing a part of the galaxies -/

theorem thinned_central (hc : c ≠ 0) (b z k : ℕ) : (thinned c s).centralGalaxyProfile b z k = s.centralGalaxyProfile b z k := by
  funext i
  show s.fC b z * (c * s.hodCen b z i) * 1 / (c * s.numberDensityCen b z) = s.fC b z * s.hodCen b z i * 1 / s.numberDensityCen b z
  rw [show s.fC b z * (c * s.hodCen b z i) * 1 = c * (s.fC b z * s.hodCen b z i * 1) from by ring, mul_div_mul_left _ _ hc]

theorem thinned_satellite (hc : c ≠ 0) (b z k : ℕ) : (thinned c s).satelliteGalaxyProfile b z k = s.satelliteGalaxyProfile b z k := by
  funext i
  show s.fS b z * (c * s.hodSat b z i) * s.uSat z k i / (c * s.numberDensitySat b z) =
    s.fS b z * s.hodSat b z i * s.uSat z k i / s.numberDensitySat b z
  rw [show s.fS b z * (c * s.hodSat b z i) * s.uSat z k i = c * (s.fS b z * s.hodSat b z i * s.uSat z k i) from by ring, mul_div_mul_left _ _ hc]

theorem thinned_massAvg (hc : c ≠ 0) (b z : ℕ) : (thinned c s).massAvg b z = s.massAvg b z :=
  mul_div_mul_left _ _ hc

theorem thinned_central_align (hc : c ≠ 0) (b z k : ℕ) : (thinned c s).centralAlignmentProfile b z k = s.centralAlignmentProfile b z k := by
  funext i
  unfold centralAlignmentProfile
  rw [thinned_massAvg s c hc]
  rfl

theorem thinned_satellite_align (hc : c ≠ 0) (b z k : ℕ) :
    (thinned c s).satelliteAlignmentProfile b z k = s.satelliteAlignmentProfile b z k := by
  funext i
  unfold satelliteAlignmentProfile
  rw [thinned_massAvg s c hc]
  show s.fS b z * (c * s.hodSat b z i) * s.wkmSat z k i / (c * s.numberDensitySat b z) * additionalTerm s.betaSat s.mpivotSat _ =
    s.fS b z * s.hodSat b z i * s.wkmSat z k i / s.numberDensitySat b z * additionalTerm s.betaSat s.mpivotSat _
  rw [show s.fS b z * (c * s.hodSat b z i) * s.wkmSat z k i = c * (s.fS b z * s.hodSat b z i * s.wkmSat z k i) from by ring, mul_div_mul_left _ _ hc]

theorem thinned_spectra (hc : c ≠ 0) (spectrum : Spectra → Except PyErr PkResult)
    (hs : spectrum ∈ [powerSpectrumMm, powerSpectrumGg, powerSpectrumGm, powerSpectrumMi, powerSpectrumGi, powerSpectrumIi]) :
    spectrum (thinned c s) = spectrum s := by
  have hic : (thinned c s).icTerm = s.icTerm := funext fun b => funext fun z => funext fun k => by
    unfold icTerm; rw [thinned_central s c hc]; rfl
  have his : (thinned c s).isTerm = s.isTerm := funext fun b => funext fun z => funext fun k => by
    unfold isTerm; rw [thinned_satellite s c hc]; rfl
  have hca : (thinned c s).icAlignTerm = s.icAlignTerm := funext fun b => funext fun z => funext fun k => by
    unfold icAlignTerm; rw [thinned_central_align s c hc]; rfl
  have hsa : (thinned c s).isAlignTerm = s.isAlignTerm := funext fun b => funext fun z => funext fun k => by
    unfold isAlignTerm; rw [thinned_satellite_align s c hc]; rfl
  have key : ∀ q q', q' = q → (thinned c s).applyResponse q' = s.applyResponse q := fun q q' e => by rw [e]; rfl
  simp only [List.mem_cons, List.not_mem_nil, or_false] at hs
  rcases hs with rfl | rfl | rfl | rfl | rfl | rfl
  · rfl
  · refine key _ _ ?_
    unfold powerSpectrumGgRaw
    simp only [hic, his, thinned_central s c hc, thinned_satellite s c hc]
    rfl
  · refine key _ _ ?_
    unfold powerSpectrumGmRaw
    simp only [hic, his, thinned_central s c hc, thinned_satellite s c hc]
    rfl
  · refine key _ _ ?_
    unfold powerSpectrumMiRaw
    simp only [hca, hsa, thinned_central_align s c hc, thinned_satellite_align s c hc]
    rfl
  · refine key _ _ ?_
    unfold powerSpectrumGiRaw
    simp only [hic, hca, hsa, thinned_central s c hc, thinned_central_align s c hc, thinned_satellite_align s c hc]
    rfl
  · refine key _ _ ?_
    unfold powerSpectrumIiRaw
    simp only [hca, hsa, thinned_central_align s c hc, thinned_satellite_align s c hc]
    rfl

theorem interp_smul (fill : Fill) (hf : fill = .extrapolate ∨ fill = .value 0) (n : ℕ) (x y : ℕ → ℝ) (q : ℝ) :
    interp1d fill n x (fun i => c * y i) q = c * interp1d fill n x y q := by
  rcases hf with rfl | rfl
  · exact interpLinear_smul n c x y q
  · unfold interp1d
    dsimp only
    split_ifs
    · exact (mul_zero c).symm
    · exact interpLinear_smul n c x y q

/-- C140: the spectra do not depend on the completeness of the sample: if every occupation, of centrals and of satellites, in every halo
is multiplied by the same number, no spectrum changes, nor the galaxy bias -/
theorem C140_subsample (hc : c ≠ 0) (nzv nz : ℕ) (z : ℕ → ℕ → ℝ) (occCen occSat : ℕ → ℕ → ℕ → ℝ) (spectrum : Spectra → Except PyErr PkResult)
    (hs : spectrum ∈ [powerSpectrumMm, powerSpectrumGg, powerSpectrumGm, powerSpectrumMi, powerSpectrumGi, powerSpectrumIi]) :
    spectrum (s.withHod nzv nz z (fun b j i => c * occCen b j i) (fun b j i => c * occSat b j i)) =
      spectrum (s.withHod nzv nz z occCen occSat) := by
  set h := s.buildHod nzv nz z occCen occSat with hh
  set h' := s.buildHod nzv nz z (fun b j i => c * occCen b j i) (fun b j i => c * occSat b j i) with hh'
  have mi : ∀ N b j, h'.massIntegral (fun b j i => c * N b j i) b j = c * h.massIntegral N b j := fun N b j => by
    unfold Hod.Base.massIntegral
    rw [← simpson_smul]
    show simpson s.nm s.mass _ = simpson s.nm s.mass _
    congr 1
    funext i
    show c * N b j i * h.dndlnmInt b j i / s.mass i = c * (N b j i * h.dndlnmInt b j i / s.mass i)
    ring
  have mm : ∀ N b j, h'.meanMassIntegral (fun b j i => c * N b j i) b j = c * h.meanMassIntegral N b j := fun N b j => by
    unfold Hod.Base.meanMassIntegral
    rw [← simpson_smul]
    show simpson s.nm s.mass _ = simpson s.nm s.mass _
    congr 1
    funext i
    show c * N b j i * h.dndlnmInt b j i = c * (N b j i * h.dndlnmInt b j i)
    ring
  have hoc : h'.occ = fun b j i => c * h.occ b j i := by
    funext b j i
    show c * occCen b j i + c * occSat b j i = c * (occCen b j i + occSat b j i)
    ring
  have ncen : h'.ncen = fun b j => c * h.ncen b j := funext fun b => funext fun j => mi occCen b j
  have nsat : h'.nsat = fun b j => c * h.nsat b j := funext fun b => funext fun j => mi occSat b j
  have ntot : h'.ntot = fun b j => c * h.ntot b j := funext fun b => funext fun j => by
    unfold Hod.Base.ntot
    rw [hoc, mi]
  have ip : ∀ fill, fill = .extrapolate ∨ fill = .value 0 → ∀ (d : ℕ → ℕ → ℝ) b i,
      h'.interpolate fill (fun b j => c * d b j) b i = c * h.interpolate fill d b i := fun fill hf d b i => interp_smul c fill hf _ _ _ _
  have hfC : h'.fC = h.fC := funext fun b => funext fun i => by
    unfold Hod.Base.fC
    rw [ncen, ntot]
    simp only [mul_div_mul_left _ _ hc]
    rfl
  have hfS : h'.fS = h.fS := funext fun b => funext fun i => by
    unfold Hod.Base.fS
    rw [nsat, ntot]
    simp only [mul_div_mul_left _ _ hc]
    rfl
  have e : s.withHod nzv nz z (fun b j i => c * occCen b j i) (fun b j i => c * occSat b j i) = thinned c (s.withHod nzv nz z occCen occSat) := by
    unfold withHod useHod thinned
    rw [← hh, ← hh', hfC, hfS]
    have a1 : h'.hodCen = fun b i m => c * h.hodCen b i m := funext fun b => funext fun i => funext fun m => by
      unfold Hod.Base.hodCen Hod.Base.interpolateMass
      exact ip _ (.inl rfl) _ b i
    have a2 : h'.hodSat = fun b i m => c * h.hodSat b i m := funext fun b => funext fun i => funext fun m => by
      unfold Hod.Base.hodSat Hod.Base.interpolateMass
      exact ip _ (.inl rfl) _ b i
    have a3 : h'.numberDensity = fun b i => c * h.numberDensity b i := funext fun b => funext fun i => by
      unfold Hod.Base.numberDensity
      rw [ntot]
      exact ip _ (.inl rfl) _ b i
    have a4 : h'.numberDensityCen = fun b i => c * h.numberDensityCen b i := funext fun b => funext fun i => by
      unfold Hod.Base.numberDensityCen
      rw [ncen]
      exact ip _ (.inl rfl) _ b i
    have a5 : h'.numberDensitySat = fun b i => c * h.numberDensitySat b i := funext fun b => funext fun i => by
      unfold Hod.Base.numberDensitySat
      rw [nsat]
      exact ip _ (.inl rfl) _ b i
    have a6 : h'.avgHaloMassCen = fun b i => c * h.avgHaloMassCen b i := funext fun b => funext fun i => by
      unfold Hod.Base.avgHaloMassCen
      rw [show h'.meanMassIntegral h'.occCen = fun b j => c * h.meanMassIntegral h.occCen b j from
        funext fun b => funext fun j => mm occCen b j]
      exact ip _ (.inr rfl) _ b i
    rw [a1, a2, a3, a4, a5, a6]
  rw [e]
  exact thinned_spectra _ c hc spectrum hs

end Verif.Pk.Spectra

namespace Verif.IaChain

open Verif.Lib Verif.Ia Verif.Pk Verif.Pk.Spectra

/-! ## From the parameters -/

/-- the transform is homogeneous, as the Fourier transforms and products inside `fht` are -/
def Homogeneous (T : Transform) : Prop := ∀ (i : ℕ) (c : ℝ) (f : ℕ → ℝ) (j : ℕ), T.fht i (fun n => c * f n) j = c * T.fht i f j

/-- the alignment strength of a satellite at a sampled radius, before the cap -/
noncomputable def strength (x : Halos) (amp : ℝ) (m j : ℕ) : ℝ := amp * (max (radius j) rcore / x.rvirCen 0 m) ^ x.slope

/-- the cap of 0.3 is never reached -/
def Uncapped (x : Halos) (amp : ℕ → ℝ) : Prop := ∀ z m j, strength x (amp z) m j ≤ 0.3

theorem profile_eq (x : Halos) (amp : ℕ → ℝ) (z m j : ℕ) :
    radialProfile x.rs x.rvirCen amp x.slope rcore x.truncate z m (radius j) = min (strength x (amp z) m j) 0.3 *
      (if x.truncate = true ∧ radius j ≥ x.rvirCen 0 m then 0 else 1 / (radius j / x.rs z m * (1 + radius j / x.rs z m) ^ 2)) := by
  unfold radialProfile gammaRNfwProfile strength
  dsimp only
  congr 2
  by_cases g : radius j < rcore
  · rw [if_pos g, max_eq_right g.le]
  · rw [if_neg g, max_eq_left (not_lt.mp g)]

theorem wkm_smul (T : Transform) (hT : Homogeneous T) (x : Halos) (amp : ℕ → ℝ) (c : ℝ) (h : Uncapped x amp)
    (h' : Uncapped x fun z => c * amp z) (z m k : ℕ) (v : ℝ) (hv : wkm T x amp z m k = .ok v) :
    wkm T x (fun z => c * amp z) z m k = .ok (|c| * v) := by
  have hp : ∀ j, radialProfile x.rs x.rvirCen (fun z => c * amp z) x.slope rcore x.truncate z m (radius j) =
      c * radialProfile x.rs x.rvirCen amp x.slope rcore x.truncate z m (radius j) := fun j => by
    rw [profile_eq, profile_eq, min_eq_left (h z m j), min_eq_left (h' z m j)]
    unfold strength
    ring
  have hm : ∀ i, multipole T x (fun z => c * amp z) z m i = fun j => c * multipole T x amp z m i j := fun i => funext fun j => by
    unfold multipole
    rw [show (fun j => radialProfile x.rs x.rvirCen (fun z => c * amp z) x.slope rcore x.truncate z m (radius j) * radius j ^ (1.5 : ℝ) *
      Real.sqrt (Real.pi / 2)) = fun j => c * (radialProfile x.rs x.rvirCen amp x.slope rcore x.truncate z m (radius j) *
        radius j ^ (1.5 : ℝ) * Real.sqrt (Real.pi / 2)) from funext fun j => by rw [hp]; ring, hT]
    ring
  have hu : uell T x (fun z => c * amp z) z m k = fun i => c * uell T x amp z m k i := funext fun i => by
    unfold uell
    rw [hm]
    exact interp_smul c _ (.inl rfl) _ _ _ _
  unfold wkm at hv ⊢
  rw [hu]
  exact (C77_nonneg_homogeneous x.ellMax _ x.slope v hv c).2

theorem meanL_const (n : ℕ) (xlum pdf : ℕ → ℝ) (g c l0 b b2 : ℝ) :
    brokenPowerlaw n xlum pdf (c * g) l0 b b2 = c * brokenPowerlaw n xlum pdf g l0 b b2 := by
  unfold brokenPowerlaw
  rw [← simpson_smul]
  congr 1
  funext j
  split_ifs <;> ring

theorem gi_scaled (a : Amplitudes) (l m : ℝ) (g : ℕ → ℝ) (h : a.alignmentGi = .ok (some g)) :
    (withAmplitudes a l m).alignmentGi = .ok (some fun z => l * g z) := by
  unfold Amplitudes.alignmentGi at h ⊢
  show (if a.centralDep = "constant" then (.ok (some fun _ => l * a.gamma2h * 1) : Except PyErr (Option (ℕ → ℝ)))
    else if a.centralDep = "luminosity" then
      match a.lpivotCen with
      | none => .error .valueError
      | some l0 => match a.betaTwo with
        | some b2 => match a.initLum a.lumFileCen with
          | .error e => .error e
          | .ok (lum, pdf) => .ok (some fun i => brokenPowerlaw Amplitudes.nlbins (lum i) (pdf i) (l * a.gamma2h) l0 a.betaCen b2)
        | none => match a.initLum a.lumFileCen with
          | .error e => .error e
          | .ok (lum, pdf) => .ok (some fun i => l * a.gamma2h * meanLL0ToBeta Amplitudes.nlbins (lum i) (pdf i) l0 a.betaCen)
    else if a.centralDep = "halo_mass" then
      match a.mpivotCen with
      | none => .error .valueError
      | some _ => match a.betaTwo with
        | some _ => .error .valueError
        | none => .ok (some fun _ => l * a.gamma2h * 1)
    else .ok none) = _
  split_ifs at h ⊢ with h1 h2 h3
  · rw [← Option.some.inj (Except.ok.inj h)]
    simp only [mul_assoc]
  · cases hp : a.lpivotCen with
    | none => rw [hp] at h; cases h
    | some l0 =>
      rw [hp] at h
      cases hb : a.betaTwo with
      | some b2 =>
        rw [hb] at h
        cases hi : a.initLum a.lumFileCen with
        | error e => rw [hi] at h; cases h
        | ok q =>
          rw [hi] at h
          obtain ⟨lum, pdf⟩ := q
          rw [← Option.some.inj (Except.ok.inj h)]
          simp only [meanL_const]
      | none =>
        rw [hb] at h
        cases hi : a.initLum a.lumFileCen with
        | error e => rw [hi] at h; cases h
        | ok q =>
          rw [hi] at h
          obtain ⟨lum, pdf⟩ := q
          rw [← Option.some.inj (Except.ok.inj h)]
          simp only [mul_assoc]
  · cases hp : a.mpivotCen with
    | none => rw [hp] at h; cases h
    | some l0 =>
      rw [hp] at h
      cases hb : a.betaTwo with
      | some b2 => rw [hb] at h; cases h
      | none =>
        rw [hb] at h
        rw [← Option.some.inj (Except.ok.inj h)]
        simp only [mul_assoc]
  · cases Except.ok.inj h

theorem amp_scaled (a : Amplitudes) (l m : ℝ) (g : ℕ → ℝ) (h : a.gamma1hAmp = .ok (some g)) :
    (withAmplitudes a l m).gamma1hAmp = .ok (some fun z => m * g z) := by
  unfold Amplitudes.gamma1hAmp at h ⊢
  show (if a.satelliteDep = "constant" then (.ok (some fun _ => m * a.gamma1h * 1) : Except PyErr (Option (ℕ → ℝ)))
    else if a.satelliteDep = "luminosity" then
      match a.lpivotSat with
      | none => .error .valueError
      | some l0 => match a.initLum a.lumFileSat with
        | .error e => .error e
        | .ok (lum, pdf) => .ok (some fun i => m * a.gamma1h * meanLL0ToBeta Amplitudes.nlbins (lum i) (pdf i) l0 a.betaSat)
    else if a.satelliteDep = "halo_mass" then
      match a.mpivotSat with
      | none => .error .valueError
      | some _ => .ok (some fun _ => m * a.gamma1h * 1)
    else .ok none) = _
  split_ifs at h ⊢ with h1 h2 h3
  · rw [← Option.some.inj (Except.ok.inj h)]
    simp only [mul_assoc]
  · cases hp : a.lpivotSat with
    | none => rw [hp] at h; cases h
    | some l0 =>
      rw [hp] at h
      cases hi : a.initLum a.lumFileSat with
      | error e => rw [hi] at h; cases h
      | ok q =>
        rw [hi] at h
        obtain ⟨lum, pdf⟩ := q
        rw [← Option.some.inj (Except.ok.inj h)]
        simp only [mul_assoc]
  · cases hp : a.mpivotSat with
    | none => rw [hp] at h; cases h
    | some l0 =>
      rw [hp] at h
      rw [← Option.some.inj (Except.ok.inj h)]
      simp only [mul_assoc]
  · cases Except.ok.inj h

theorem inputs_scaled (T : Transform) (hT : Homogeneous T) (x : Halos) (a : Amplitudes) (s s' : Spectra) (l m : ℝ)
    (h : Inputs T x a s) (h' : Inputs T x (withAmplitudes a l m) s')
    (rest : s' = { s with alignmentGi := s'.alignmentGi, wkmSat := s'.wkmSat })
    (cap : ∀ amp, a.gamma1hAmp = .ok (some amp) → Uncapped x amp ∧ Uncapped x fun z => m * amp z) : s' = aligned l |m| s := by
  obtain ⟨amp, w, ha, hw, hs⟩ := h.satellite
  obtain ⟨amp', w', ha', hw', hs'⟩ := h'.satellite
  have e1 : s'.alignmentGi = fun z => l * s.alignmentGi z := by
    have := h'.central
    rw [gi_scaled a l m _ h.central] at this
    exact (Option.some.inj (Except.ok.inj this)).symm
  have e2 : amp' = fun z => m * amp z := by
    rw [amp_scaled a l m _ ha] at ha'
    exact (Option.some.inj (Except.ok.inj ha')).symm
  obtain ⟨c1, c2⟩ := cap amp ha
  have e3 : ∀ z i k, w' z i k = |m| * w z i k := fun z i k => by
    have := hw' z i k
    rw [e2, wkm_smul T hT x amp m c1 c2 z i k _ (hw z i k)] at this
    exact (Except.ok.inj this).symm
  have hk : s'.kVec = s.kVec := by rw [rest]
  have e4 : s'.wkmSat = fun z k i => |m| * s.wkmSat z k i := funext fun z => funext fun k => funext fun i => by
    rw [hs', hs, hk, show w' z i = fun n => |m| * w z i n from funext fun n => e3 z i n]
    exact interp_smul |m| _ (.inl rfl) _ _ _ _
  rw [rest, e1, e4]
  rfl

/-- C140: multiplying `gamma_2h` and `gamma_1h` by the same number `l ≥ 0` multiplies the matter-intrinsic and galaxy-intrinsic spectra by
`l` and the intrinsic-intrinsic spectrum by its square, whatever the dependence on luminosity or halo mass, as long as the
alignment of the satellites stays below its cap -/
theorem C140_parameters (T : Transform) (hT : Homogeneous T) (x : Halos) (a : Amplitudes) (s s' : Spectra) (l : ℝ) (hl : 0 ≤ l)
    (h : Inputs T x a s) (h' : Inputs T x (withAmplitudes a l l) s')
    (rest : s' = { s with alignmentGi := s'.alignmentGi, wkmSat := s'.wkmSat })
    (cap : ∀ amp, a.gamma1hAmp = .ok (some amp) → Uncapped x amp ∧ Uncapped x fun z => l * amp z) :
    (∀ r, s.powerSpectrumMi = .ok r → ∃ r', s'.powerSpectrumMi = .ok r' ∧ ∀ b z k, r'.pkTot b z k = l * r.pkTot b z k) ∧
    (∀ r, s.powerSpectrumGi = .ok r → ∃ r', s'.powerSpectrumGi = .ok r' ∧ ∀ b z k, r'.pkTot b z k = l * r.pkTot b z k) ∧
    (∀ r, s.powerSpectrumIi = .ok r → ∃ r', s'.powerSpectrumIi = .ok r' ∧ ∀ b z k, r'.pkTot b z k = l ^ 2 * r.pkTot b z k) := by
  have e := inputs_scaled T hT x a s s' l l h h' rest cap
  rw [abs_of_nonneg hl] at e
  subst e
  obtain ⟨h1, h2, h3, -⟩ := C140_common_factor s l l
  refine ⟨fun r hr => ?_, fun r hr => ?_, fun r hr => ?_⟩
  · obtain ⟨r', a1, a2⟩ := h1 r hr
    exact ⟨r', a1, fun b z k => (a2 b z k).2.2⟩
  · obtain ⟨r', a1, a2⟩ := h2 r hr
    exact ⟨r', a1, fun b z k => (a2 b z k).2.2⟩
  · obtain ⟨r', a1, a2⟩ := h3 r hr
    exact ⟨r', a1, fun b z k => (a2 b z k).2.2⟩

/-- C140: the sign of `gamma_1h` is lost: satellites aligned tangentially give the same inputs, hence the same spectra, as satellites aligned
radially, as long as the amplitude stays below the cap.  Changing the sign of both amplitudes therefore does not change the
sign of the satellite part -/
theorem C140_sign_lost (T : Transform) (hT : Homogeneous T) (x : Halos) (a : Amplitudes) (s s' : Spectra)
    (h : Inputs T x a s) (h' : Inputs T x { a with gamma1h := -a.gamma1h } s')
    (rest : s' = { s with alignmentGi := s'.alignmentGi, wkmSat := s'.wkmSat })
    (cap : ∀ amp, a.gamma1hAmp = .ok (some amp) → Uncapped x amp ∧ Uncapped x fun z => -amp z) : s' = s := by
  have e : { a with gamma1h := -a.gamma1h } = withAmplitudes a 1 (-1) := by
    unfold withAmplitudes
    rw [one_mul, neg_one_mul]
  rw [e] at h'
  have := inputs_scaled T hT x a s s' 1 (-1) h h' rest fun amp ha => by
    obtain ⟨c1, c2⟩ := cap amp ha
    simp only [neg_one_mul]
    exact ⟨c1, c2⟩
  rw [this, abs_neg, abs_one]
  exact aligned_one s

/-- C140: the cap is one-sided.  However large a positive amplitude, the alignment of a satellite stays below 0.3 of the halo profile, and
from the cap on the amplitude does not matter; a negative amplitude is never capped and the alignment has no bound -/
theorem C140_one_sided_cap (x : Halos) (z m j : ℕ) (hr : 0 < x.rvirCen 0 m) :
    (∀ amp : ℕ → ℝ, amp z ≤ 0 → strength x (amp z) m j ≤ 0.3) ∧
    (∀ amp amp' : ℕ → ℝ, 0.3 ≤ strength x (amp z) m j → 0.3 ≤ strength x (amp' z) m j →
      radialProfile x.rs x.rvirCen amp x.slope rcore x.truncate z m (radius j) =
        radialProfile x.rs x.rvirCen amp' x.slope rcore x.truncate z m (radius j)) ∧
    (0 < x.rs z m → x.truncate = false → ∃ halo : ℝ, 0 < halo ∧
      (∀ amp, radialProfile x.rs x.rvirCen amp x.slope rcore x.truncate z m (radius j) ≤ 0.3 * halo) ∧
      ∀ bound : ℝ, ∃ amp : ℕ → ℝ, radialProfile x.rs x.rvirCen amp x.slope rcore x.truncate z m (radius j) < -bound) := by
  have hrad : 0 < radius j := Real.rpow_pos_of_pos (by norm_num) _
  have hpow : 0 < (max (radius j) rcore / x.rvirCen 0 m) ^ x.slope := Real.rpow_pos_of_pos (div_pos (lt_max_of_lt_left hrad) hr) _
  have hneg : ∀ amp : ℕ → ℝ, amp z ≤ 0 → strength x (amp z) m j ≤ 0.3 := fun amp ha =>
    le_trans (mul_nonpos_of_nonpos_of_nonneg ha hpow.le) (by norm_num)
  refine ⟨hneg, fun amp amp' h1 h2 => ?_, fun hs ht => ?_⟩
  · rw [profile_eq, profile_eq, min_eq_right h1, min_eq_right h2]
  · have hhalo : 0 < 1 / (radius j / x.rs z m * (1 + radius j / x.rs z m) ^ 2) := by positivity
    refine ⟨_, hhalo, fun amp => ?_, fun bound => ?_⟩
    · rw [profile_eq, if_neg (by rw [ht]; simp)]
      exact mul_le_mul_of_nonneg_right (min_le_right _ _) hhalo.le
    · set H := 1 / (radius j / x.rs z m * (1 + radius j / x.rs z m) ^ 2) with hH
      set P := (max (radius j) rcore / x.rvirCen 0 m) ^ x.slope with hP
      refine ⟨fun _ => -((|bound| + 1) / (P * H)), ?_⟩
      have hn : -((|bound| + 1) / (P * H)) ≤ 0 := neg_nonpos.mpr (by positivity)
      rw [profile_eq, if_neg (by rw [ht]; simp), min_eq_left (hneg (fun _ => -((|bound| + 1) / (P * H))) hn)]
      unfold strength
      rw [← hP, ← hH]
      have : -((|bound| + 1) / (P * H)) * P * H = -(|bound| + 1) := by
        field_simp
      rw [this]
      have := le_abs_self bound
      linarith

/-! ## The hypotheses are met -/

/-- a transform that is not zero -/
noncomputable def demoT : Transform := ⟨fun i f j => (i + 1 : ℝ) * f j, fun _ j => radius j⟩

/-- halos of different sizes, alignment constant in radius, quadrupole -/
noncomputable def demoHalos : Halos := ⟨fun z m => z + m + 1, fun _ m => 2 * (m + 1), fun _ _ => 5, 0, false, 2, 50⟩

/-- the amplitudes of the shipped blue sample: satellites aligned tangentially -/
noncomputable def demoAmplitudes : Amplitudes :=
  ⟨2, fun z => z, "constant", "constant", 0.1, 1, none, -0.002, 1, none, none, none, none, none, none⟩

theorem demo_wkm (amp : ℕ → ℝ) (z m k : ℕ) : ∃ v, wkm demoT demoHalos amp z m k = .ok v := by
  show ∃ v, wkmFEll 2 (uell demoT demoHalos amp z m k) 0 = .ok v
  simp [wkmFEll, show ellValues 2 = [0, 2] from rfl, wkmSum, wkmTerm, calculateFEll, tableAt, table0]

/-- the spectra of those parameters exist -/
theorem demo_inputs (l m : ℝ) : ∃ s, Inputs demoT demoHalos (withAmplitudes demoAmplitudes l m) s ∧
    s = { demo with alignmentGi := s.alignmentGi, wkmSat := s.wkmSat } := by
  choose w hw using demo_wkm fun _ => m * -0.002 * 1
  exact ⟨{ demo with alignmentGi := fun _ => l * 0.1 * 1, wkmSat := fun z k i => upsampledFftlog 50 (w z i) (demo.kVec k) },
    ⟨rfl, fun _ => m * -0.002 * 1, w, rfl, hw, fun _ _ _ => rfl⟩, rfl⟩

theorem demo_uncapped (c : ℝ) (hc : c ≤ 0.3) : Uncapped demoHalos fun _ => c := fun z m j => by
  show c * _ ^ (0 : ℝ) ≤ 0.3
  rw [Real.rpow_zero, mul_one]
  exact hc

theorem demo_homogeneous : Homogeneous demoT := fun i c f j => by
  show (i + 1 : ℝ) * (c * f j) = c * ((i + 1 : ℝ) * f j)
  ring

/-- C140_parameters applies: doubled amplitudes -/
example : ∃ s s' : Spectra, (∀ r, s.powerSpectrumIi = .ok r → ∃ r', s'.powerSpectrumIi = .ok r' ∧
    ∀ b z k, r'.pkTot b z k = 2 ^ 2 * r.pkTot b z k) ∧ ∃ r, s.powerSpectrumIi = .ok r := by
  obtain ⟨s, h, e⟩ := demo_inputs 1 1
  obtain ⟨s', h', e'⟩ := demo_inputs 2 2
  have ha : withAmplitudes demoAmplitudes 1 1 = demoAmplitudes := by unfold withAmplitudes; rw [one_mul, one_mul]
  rw [ha] at h
  refine ⟨s, s', (C140_parameters demoT demo_homogeneous demoHalos demoAmplitudes s s' 2 (by norm_num) h h' ?_ fun amp hamp => ?_).2.2, ?_⟩
  · rw [e, e']
  · rw [← Option.some.inj (Except.ok.inj hamp)]
    exact ⟨demo_uncapped _ (by norm_num [demoAmplitudes]), demo_uncapped _ (by norm_num [demoAmplitudes])⟩
  · rw [e]
    exact ⟨_, rfl⟩

/-- C140_sign_lost applies -/
example : ∃ s, Inputs demoT demoHalos demoAmplitudes s ∧ ∀ s', Inputs demoT demoHalos { demoAmplitudes with gamma1h := 0.002 } s' →
    s' = { s with alignmentGi := s'.alignmentGi, wkmSat := s'.wkmSat } → s' = s := by
  obtain ⟨s, h, -⟩ := demo_inputs 1 1
  have ha : withAmplitudes demoAmplitudes 1 1 = demoAmplitudes := by unfold withAmplitudes; rw [one_mul, one_mul]
  rw [ha] at h
  refine ⟨s, h, fun s' h' rest => C140_sign_lost demoT demo_homogeneous demoHalos demoAmplitudes s s' h ?_ rest fun amp hamp => ?_⟩
  · rw [show -demoAmplitudes.gamma1h = 0.002 by norm_num [demoAmplitudes]]
    exact h'
  · rw [← Option.some.inj (Except.ok.inj hamp)]
    exact ⟨demo_uncapped _ (by norm_num [demoAmplitudes]), demo_uncapped _ (by norm_num [demoAmplitudes])⟩

/-- and that object exists for the other sign -/
example : ∃ s', Inputs demoT demoHalos { demoAmplitudes with gamma1h := -demoAmplitudes.gamma1h } s' := by
  obtain ⟨s', h', -⟩ := demo_inputs 1 (-1)
  refine ⟨s', ?_⟩
  have : withAmplitudes demoAmplitudes 1 (-1) = { demoAmplitudes with gamma1h := -demoAmplitudes.gamma1h } := by
    unfold withAmplitudes; rw [one_mul, neg_one_mul]
  rwa [this] at h'

/-- C140_one_sided_cap: a halo -/
example : 0 < demoHalos.rvirCen 0 3 ∧ 0 < demoHalos.rs 1 3 ∧ demoHalos.truncate = false ∧ 0.3 ≤ strength demoHalos 1 3 100 := by
  refine ⟨by norm_num [demoHalos], by norm_num [demoHalos], rfl, ?_⟩
  show (0.3 : ℝ) ≤ 1 * _ ^ (0 : ℝ)
  rw [Real.rpow_zero]
  norm_num

/-- C140_linear, C140_quadratic, C140_power and C140_poisson: the demonstration object, plain and with response -/
example : demo.response = false ∧ (∃ r, demo.powerSpectrumMi = .ok r) ∧ (∃ r, demo.powerSpectrumIi = .ok r) ∧
    (∃ r, demo.powerSpectrumMm = .ok r) ∧ ∃ r, powerSpectrumGi { demo with response := true } = .ok r :=
  ⟨rfl, ⟨_, rfl⟩, ⟨_, rfl⟩, ⟨_, rfl⟩, ⟨_, rfl⟩⟩

end Verif.IaChain

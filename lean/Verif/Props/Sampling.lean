import Verif.Spec.Along
import Verif.Lemmas.Simpson
import Verif.Props.PkDemo
import Mathlib.Analysis.SpecialFunctions.Pow.Continuity
import Mathlib.Analysis.SpecialFunctions.Sqrt

/-! Property C136: the spectra vary without jumps with their inputs. -/

namespace Verif.Sampling

open Verif.Pk Verif.Lib Finset

variable {T : Type} [TopologicalSpace T] {t₀ : T}

theorem at_simpson (n : ℕ) (x : ℕ → ℝ) {y : T → ℕ → ℝ} (h : ∀ i, ContinuousAt (fun t => y t i) t₀) :
    ContinuousAt (fun t => simpson n x (y t)) t₀ := by
  have p : ∀ h0 h1 i j l, ContinuousAt (fun t => simpsonPanel h0 h1 (y t i) (y t j) (y t l)) t₀ := by
    intro h0 h1 i j l
    exact continuousAt_const.mul ((((h i).mul continuousAt_const).add ((h j).mul continuousAt_const)).add
      ((h l).mul continuousAt_const))
  have q : ∀ h0 h1 i j l, ContinuousAt (fun t => simpsonLast h0 h1 (y t i) (y t j) (y t l)) t₀ := by
    intro h0 h1 i j l
    exact ((continuousAt_const.mul (h l)).add (continuousAt_const.mul (h j))).sub (continuousAt_const.mul (h i))
  have b : ∀ k, ContinuousAt (fun t => basicSimpson k x (y t)) t₀ := by
    intro k
    exact tendsto_finsetSum _ fun i _ => p _ _ _ _ _
  unfold simpson
  split_ifs
  · exact b _
  · exact continuousAt_const
  · exact continuousAt_const.mul ((h _).add (h _))
  · exact (b _).add (q _ _ _ _ _)

theorem at_rpow {f g : T → ℝ} (hf : ContinuousAt f t₀) (hg : ContinuousAt g t₀) (h : f t₀ ≠ 0 ∨ 0 < g t₀) :
    ContinuousAt (fun t => f t ^ g t) t₀ := hf.rpow hg h

variable {c : Spectra} {s : T → Spectra} (h : Along c s t₀)
include h

theorem at_profile (z k m : ℕ) : ContinuousAt (fun t => (s t).matterProfile z k m) t₀ := by
  unfold Spectra.matterProfile Spectra.computeMatterProfile
  simp only [h.mass]
  exact (continuousAt_const.div (h.meanDensity0 z) (h.meanDensity0Ne z)).mul (h.uDm z k m)

theorem at_ratio (m z : ℕ) : ContinuousAt (fun t => c.mass m / (s t).meanDensity0 z) t₀ :=
  continuousAt_const.div (h.meanDensity0 z) (h.meanDensity0Ne z)

theorem at_gas {f M : T → ℝ} (x : ℝ) (hf : ContinuousAt f t₀) (hM : ContinuousAt M t₀) (hne : M t₀ ≠ 0) :
    ContinuousAt (fun t => ((s t).omegaB / (s t).omegaM - f t) * (x / M t) ^ 2 / (1 + (x / M t) ^ 2)) t₀ := by
  have e : ContinuousAt (fun t => (x / M t) ^ 2) t₀ := (continuousAt_const.div hM hne).pow 2
  refine (((h.omegaB.div h.omegaM h.omegaMNe).sub hf).mul e).div (continuousAt_const.add e) ?_
  positivity

theorem at_feedback (z k m : ℕ) : ContinuousAt (fun t => (s t).matterProfileWithFeedback z k m) t₀ := by
  unfold Spectra.matterProfileWithFeedback Spectra.computeMatterProfileWithFeedback
  simp only [h.mass, h.zVec]
  have ten : ∀ f : T → ℝ, ContinuousAt f t₀ → ContinuousAt (fun t => (10 : ℝ) ^ f t) t₀ := fun f hf =>
    continuousAt_const.rpow hf (.inl (by norm_num))
  have l : ContinuousAt (fun t => (s t).log10TAGN - 7.8) t₀ := h.log10TAGN.sub continuousAt_const
  have f : ContinuousAt (fun t => (s t).fs (c.zVec z)) t₀ :=
    ((continuousAt_const.sub (continuousAt_const.mul l)).mul continuousAt_const).mul
      (ten _ (continuousAt_const.mul (continuousAt_const.add (continuousAt_const.mul l))))
  have M : ContinuousAt (fun t => (s t).mbAgn (c.zVec z)) t₀ :=
    (ten _ (continuousAt_const.add (continuousAt_const.mul l))).mul
      (ten _ (continuousAt_const.mul ((continuousAt_const.mul l).sub continuousAt_const)))
  have ne : (s t₀).mbAgn (c.zVec z) ≠ 0 := by
    unfold Spectra.mbAgn
    positivity
  have g : ContinuousAt (fun t => (s t).fg (c.mass m) (c.zVec z) ((s t).fs (c.zVec z))) t₀ := at_gas h _ f M ne
  exact ((((h.omegaC.div h.omegaM h.omegaMNe).add g).mul (at_ratio h m z)).mul (h.uDm z k m)).add (f.mul (at_ratio h m z))

theorem at_fit {f : T → ℕ → ℕ → ℕ → ℝ} (b z k m : ℕ) (hf : ContinuousAt (fun t => f t b z m) t₀) :
    ContinuousAt (fun t => (s t).matterProfileFit (f t) b z k m) t₀ := by
  unfold Spectra.matterProfileFit Spectra.computeMatterProfileFit
  simp only [h.mass]
  exact ((((h.omegaC.div h.omegaM h.omegaMNe).add (at_gas h _ hf h.mb h.mbNe)).mul (at_ratio h m z)).mul (h.uDm z k m)).add
    (hf.mul (at_ratio h m z))

theorem at_mm (z k m : ℕ) : ContinuousAt (fun t => (s t).matterProfile1hMm z k m) t₀ := by
  unfold Spectra.matterProfile1hMm
  simp only [h.hmcodeIngredients]
  split
  · exact at_feedback h z k m
  · exact at_profile h z k m
  · exact at_fit h 0 z k m (h.fstarMm z m)
  · exact at_profile h z k m

theorem at_mg (b z k m : ℕ) : ContinuousAt (fun t => (s t).matterProfile1hG b z k m) t₀ := by
  unfold Spectra.matterProfile1hG
  simp only [h.hmcodeIngredients, h.pointmass]
  split
  · exact at_feedback h z k m
  · exact at_profile h z k m
  · exact at_fit h b z k m (h.fstar b z m)
  · split
    · exact at_fit h b z k m (h.fstar b z m)
    · exact at_profile h z k m

theorem at_one_halo {u v : T → ℕ → ℝ} (z : ℕ) (hu : ∀ i, ContinuousAt (fun t => u t i) t₀)
    (hv : ∀ i, ContinuousAt (fun t => v t i) t₀) : ContinuousAt (fun t => (s t).compute1hTerm (u t) (v t) z) t₀ := by
  unfold Spectra.compute1hTerm
  simp only [h.mass, h.nm]
  exact at_simpson _ _ fun i => (((hu i).mul (hv i)).mul (h.dndlnm z i)).div_const _

theorem at_inv_density (z : ℕ) : ContinuousAt (fun t => 1 / (s t).meanDensity0 z) t₀ :=
  continuousAt_const.div (h.meanDensity0 z) (h.meanDensity0Ne z)

theorem at_a (z : ℕ) : ContinuousAt (fun t => (s t).aTerm z) t₀ := by
  unfold Spectra.aTerm
  simp only [h.mass, h.nm]
  exact continuousAt_const.sub (at_simpson _ _ fun i => ((h.haloBias z i).mul (h.dndlnm z i)).mul (at_inv_density h z))

theorem at_im (z k : ℕ) : ContinuousAt (fun t => (s t).imTerm z k) t₀ := by
  refine ContinuousAt.add ?_ (at_a h z)
  unfold Spectra.computeImTerm
  simp only [h.mass, h.nm]
  exact at_simpson _ _ fun i => (((h.haloBias z i).mul (h.dndlnm z i)).mul (h.uDm z k i)).mul (at_inv_density h z)

theorem at_trapz {f : T → ℕ → ℝ} (hf : ∀ i, ContinuousAt (fun t => f t i) t₀) :
    ContinuousAt (fun t => (s t).trapezoidalIntegrator (f t)) t₀ := by
  unfold Spectra.trapezoidalIntegrator Spectra.trapezoidalWeights
  simp only [h.mass, h.nm]
  exact tendsto_finsetSum _ fun i _ => (hf i).mul continuousAt_const

theorem at_nl {u v : T → ℕ → ℝ} (z k : ℕ) (hu : ∀ i, ContinuousAt (fun t => u t i) t₀)
    (hv : ∀ i, ContinuousAt (fun t => v t i) t₀) : ContinuousAt (fun t => (s t).iNL (u t) (v t) z k) t₀ := by
  have w : ∀ i, ContinuousAt (fun t => (s t).haloBias z i * (s t).dndlnm z i * (1 / c.mass i)) t₀ := fun i =>
    ((h.haloBias z i).mul (h.dndlnm z i)).mul continuousAt_const
  have d : ContinuousAt (fun t => (s t).meanDensity0 z * (1 / c.mass 0)) t₀ := (h.meanDensity0 z).mul continuousAt_const
  unfold Spectra.iNL Spectra.i12 Spectra.i21 Spectra.i22
  simp only [h.mass]
  exact (((((((h.betaNl z k 0 0).mul ((at_a h z).mul (at_a h z))).mul (hu 0)).mul (hv 0)).mul (d.pow 2)).add
    ((((at_a h z).mul (hu 0)).mul (at_trapz h fun i => ((h.betaNl z k 0 i).mul (w i)).mul (hv i))).mul d)).add
    ((((at_a h z).mul (hv 0)).mul (at_trapz h fun i => ((h.betaNl z k i 0).mul (w i)).mul (hu i))).mul d)).add
    (at_trapz h fun i => (at_trapz h fun j => (((h.betaNl z k i j).mul (w i)).mul (w j)).mul (hv j)).mul (hu i))

theorem at_cut1 (k : ℕ) : ContinuousAt (fun t => (s t).oneHaloTruncation k) t₀ := by
  unfold Spectra.oneHaloTruncation
  simp only [h.oneHaloKtrunc, h.kVec]
  exact continuousAt_const

theorem at_cut2 (k : ℕ) : ContinuousAt (fun t => (s t).twoHaloTruncation k) t₀ := by
  unfold Spectra.twoHaloTruncation
  simp only [h.twoHaloKtrunc, h.kVec]
  exact continuousAt_const

theorem at_cut1_ia (k : ℕ) : ContinuousAt (fun t => (s t).oneHaloTruncationIa k) t₀ := by
  unfold Spectra.oneHaloTruncationIa
  simp only [h.oneHaloKtruncIa, h.kVec]
  exact continuousAt_const

theorem at_cut2_ia (k : ℕ) : ContinuousAt (fun t => (s t).twoHaloTruncationIa k) t₀ := by
  unfold Spectra.twoHaloTruncationIa
  simp only [h.twoHaloKtruncIa, h.kVec]
  exact continuousAt_const

theorem at_sigma (z : ℕ) (q : ℝ) : ContinuousAt (fun t => (s t).sigma8z z ^ q) t₀ :=
  (h.sigma8z z).rpow continuousAt_const (.inl (h.sigma8zPos z).ne')

theorem at_mead1 (z k : ℕ) : ContinuousAt (fun t => (s t).oneHaloTruncationMead z k) t₀ := by
  unfold Spectra.oneHaloTruncationMead
  simp only [h.kVec]
  have := h.sigma8zPos z
  have ne : 0.05618 * (s t₀).sigma8z z ^ (-1.013 : ℝ) ≠ 0 := by positivity
  have e : ContinuousAt (fun t => (c.kVec k / (0.05618 * (s t).sigma8z z ^ (-1.013 : ℝ))) ^ 4) t₀ :=
    (continuousAt_const.div (continuousAt_const.mul (at_sigma h z _)) ne).pow 4
  exact e.div (continuousAt_const.add e) (by positivity)

theorem at_mead2 (hk : ∀ k, 0 ≤ c.kVec k) (z k : ℕ) : ContinuousAt (fun t => (s t).twoHaloTruncationMead z k) t₀ := by
  unfold Spectra.twoHaloTruncationMead
  simp only [h.kVec]
  have := h.sigma8zPos z
  have := hk k
  have ne : 0.05699 * (s t₀).sigma8z z ^ (-1.089 : ℝ) ≠ 0 := by positivity
  have e : ContinuousAt (fun t => (c.kVec k / (0.05699 * (s t).sigma8z z ^ (-1.089 : ℝ))) ^ (2.853 : ℝ)) t₀ :=
    (continuousAt_const.div (continuousAt_const.mul (at_sigma h z _)) ne).rpow continuousAt_const (.inr (by norm_num))
  exact continuousAt_const.sub (((continuousAt_const.mul (at_sigma h z _)).mul e).div (continuousAt_const.add e) (by positivity))

theorem at_transition {f g : T → ℝ} (z k : ℕ) (hf : ContinuousAt f t₀) (hg : ContinuousAt g t₀) :
    ContinuousAt (fun t => (s t).transitionSmoothing z k (f t) (g t)) t₀ := by
  unfold Spectra.transitionSmoothing
  simp only [h.kVec]
  have a : ContinuousAt (fun t => 1.875 * (1.603 : ℝ) ^ (s t).neff z) t₀ :=
    continuousAt_const.mul (continuousAt_const.rpow (h.neff z) (.inl (by norm_num)))
  have p : 0 < 1.875 * (1.603 : ℝ) ^ (s t₀).neff z := by positivity
  refine ContinuousAt.div_const (ContinuousAt.rpow ?_ (continuousAt_const.div a p.ne') (.inr (one_div_pos.2 p))) _
  exact ((continuousAt_const.mul hf).rpow a (.inr p)).add ((continuousAt_const.mul hg).rpow a (.inr p))

omit h in
theorem result_add {f g : T → ℕ → ℕ → ℕ → ℝ} (hf : ∀ b z k, ContinuousAt (fun t => f t b z k) t₀)
    (hg : ∀ b z k, ContinuousAt (fun t => g t b z k) t₀) :
    ResultAt (fun t => ⟨f t, g t, fun b z k => f t b z k + g t b z k, none⟩) t₀ :=
  ⟨hf, hg, fun b z k => (hf b z k).add (hg b z k), .inl fun _ => rfl⟩

/-- the halo-model matter spectrum: either the mode has no halo-model spectrum at all, or it varies without jumps -/
theorem at_mm_raw (hk : ∀ k, 0 ≤ c.kVec k) : (∀ t, (s t).powerSpectrumMmRaw = .error .unboundLocal) ∨
    ∃ r : T → PkResult, (∀ t, (s t).powerSpectrumMmRaw = .ok (r t)) ∧ ResultAt r t₀ := by
  have p1 : ∀ z k, ContinuousAt (fun t => (s t).compute1hTerm ((s t).matterProfile1hMm z k) ((s t).matterProfile1hMm z k) z) t₀ :=
    fun z k => at_one_halo h z (at_mm h z k) (at_mm h z k)
  have l2 : ∀ z k, ContinuousAt (fun t => (s t).pkLin z k * (s t).imTerm z k * (s t).imTerm z k) t₀ := fun z k =>
    ((h.pkLin z k).mul (at_im h z k)).mul (at_im h z k)
  unfold Spectra.powerSpectrumMmRaw
  simp only [h.nonlinearMode, h.hmcodeIngredients]
  cases c.nonlinearMode with
  | none =>
    exact .inr ⟨_, fun t => rfl, result_add (fun _ z k => (p1 z k).mul (at_cut1 h k)) fun _ z k => (l2 z k).mul (at_cut2 h k)⟩
  | fortuna =>
    exact .inr ⟨_, fun t => rfl, result_add (fun _ z k => (p1 z k).mul (at_cut1 h k)) fun _ z k => (l2 z k).mul (at_cut2 h k)⟩
  | bnl =>
    exact .inr ⟨_, fun t => rfl, result_add (fun _ z k => (p1 z k).mul (at_cut1 h k)) fun _ z k =>
      (l2 z k).add ((h.pkLin z k).mul (at_nl h z k (at_profile h z k) (at_profile h z k)))⟩
  | hmcode =>
    dsimp only
    by_cases q : c.hmcodeIngredients = .mead2020Feedback ∨ c.hmcodeIngredients = .mead2020
    · simp only [if_pos q]
      refine .inr ⟨_, fun t => rfl, fun _ z k => (p1 z k).mul (at_mead1 h z k), fun _ z k => (h.pkLin z k).mul (at_mead2 h hk z k),
        fun _ z k => at_transition h z k ((p1 z k).mul (at_mead1 h z k)) ((h.pkLin z k).mul (at_mead2 h hk z k)), .inl fun _ => rfl⟩
    · exact .inl fun _ => if_neg q

/-- a spectrum after the response step is continuous where the halo-model matter spectrum is not zero -/
theorem at_response {r : T → PkResult} (hk : ∀ k, 0 ≤ c.kVec k) (hr : ResultAt r t₀)
    (hm : c.response = true → ∀ q, (s t₀).powerSpectrumMmRaw = .ok q → ∀ z k, q.pkTot 0 z k ≠ 0) :
    (∀ t, (s t).applyResponse (r t) = .error .unboundLocal) ∨
    ∃ r' : T → PkResult, (∀ t, (s t).applyResponse (r t) = .ok (r' t)) ∧ ResultAt r' t₀ := by
  unfold Spectra.applyResponse
  simp only [h.response]
  by_cases q : c.response = true
  · simp only [if_pos q]
    rcases at_mm_raw h hk with e | ⟨w, e, hw⟩
    · exact .inl fun t => by rw [e]
    · have f : ∀ z k, ContinuousAt (fun t => (s t).pkNl z k / (w t).pkTot 0 z k) t₀ := fun z k =>
        (h.pkNl z k).div (hw.2.2.1 0 z k) (hm q _ (e t₀) z k)
      refine .inr ⟨fun t => ⟨fun b z k => (r t).pk1h b z k * ((s t).pkNl z k / (w t).pkTot 0 z k),
        fun b z k => (r t).pk2h b z k * ((s t).pkNl z k / (w t).pkTot 0 z k),
        fun b z k => (r t).pkTot b z k * ((s t).pkNl z k / (w t).pkTot 0 z k), (r t).galaxyLinearBias⟩,
        fun t => by rw [e], fun b z k => (hr.1 b z k).mul (f z k), fun b z k => (hr.2.1 b z k).mul (f z k),
        fun b z k => (hr.2.2.1 b z k).mul (f z k), hr.2.2.2⟩
  · simp only [if_neg q]
    exact .inr ⟨r, fun _ => rfl, hr⟩

theorem at_central (b z k m : ℕ) : ContinuousAt (fun t => (s t).centralGalaxyProfile b z k m) t₀ :=
  (((h.fC b z).mul (h.hodCen b z m)).mul continuousAt_const).div (h.numberDensityCen b z) (h.numberDensityCenNe b z)

theorem at_satellite (b z k m : ℕ) : ContinuousAt (fun t => (s t).satelliteGalaxyProfile b z k m) t₀ :=
  (((h.fS b z).mul (h.hodSat b z m)).mul (h.uSat z k m)).div (h.numberDensitySat b z) (h.numberDensitySatNe b z)

theorem at_ig {u : T → ℕ → ℝ} (z : ℕ) (hu : ∀ i, ContinuousAt (fun t => u t i) t₀) :
    ContinuousAt (fun t => (s t).computeIgTerm (u t) z) t₀ := by
  unfold Spectra.computeIgTerm
  simp only [h.mass, h.nm]
  exact at_simpson _ _ fun i => (((hu i).mul (h.haloBias z i)).mul (h.dndlnm z i)).div_const _

theorem at_ic (b z k : ℕ) : ContinuousAt (fun t => (s t).icTerm b z k) t₀ := at_ig h z (at_central h b z k)

theorem at_is (b z k : ℕ) : ContinuousAt (fun t => (s t).isTerm b z k) t₀ := at_ig h z (at_satellite h b z k)

omit h in
theorem at_ite {p : Prop} [Decidable p] {f g : T → ℝ} (hf : ContinuousAt f t₀) (hg : ContinuousAt g t₀) :
    ContinuousAt (fun t => if p then f t else g t) t₀ := by
  split_ifs
  · exact hf
  · exact hg

omit h in
theorem result_bias {f g q : T → ℕ → ℕ → ℕ → ℝ} (hf : ∀ b z k, ContinuousAt (fun t => f t b z k) t₀)
    (hg : ∀ b z k, ContinuousAt (fun t => g t b z k) t₀) (hq : ∀ b z k, ContinuousAt (fun t => q t b z k) t₀) :
    ResultAt (fun t => ⟨f t, g t, fun b z k => f t b z k + g t b z k, some (fun b z k => Real.sqrt (q t b z k))⟩) t₀ :=
  ⟨hf, hg, fun b z k => (hf b z k).add (hg b z k), .inr ⟨_, fun _ => rfl, fun b z k => (hq b z k).sqrt⟩⟩

/-- matter-matter -/
theorem C136_mm (hk : ∀ k, 0 ≤ c.kVec k) : (∀ t, (s t).powerSpectrumMm = .error .unboundLocal) ∨
    ∃ r : T → PkResult, (∀ t, (s t).powerSpectrumMm = .ok (r t)) ∧ ResultAt r t₀ := by
  unfold Spectra.powerSpectrumMm
  simp only [h.response]
  by_cases q : c.response = true
  · simp only [if_pos q]
    exact .inr ⟨_, fun _ => rfl, fun _ _ _ => continuousAt_const, fun _ _ _ => continuousAt_const, fun _ z k => h.pkNl z k,
      .inl fun _ => rfl⟩
  · simp only [if_neg q]
    exact at_mm_raw h hk

/-- galaxy-galaxy -/
theorem C136_gg (hk : ∀ k, 0 ≤ c.kVec k)
    (hm : c.response = true → ∀ q, (s t₀).powerSpectrumMmRaw = .ok q → ∀ z k, q.pkTot 0 z k ≠ 0) :
    (∀ t, (s t).powerSpectrumGg = .error .unboundLocal) ∨
    ∃ r : T → PkResult, (∀ t, (s t).powerSpectrumGg = .ok (r t)) ∧ ResultAt r t₀ := by
  refine at_response h hk ?_ hm
  have C := at_ic h
  have S := at_is h
  have P := h.pkLin
  have two : ∀ {A B : ℕ → ℕ → ℕ → T → ℝ}, (∀ b z k, ContinuousAt (A b z k) t₀) → (∀ b z k, ContinuousAt (B b z k) t₀) →
      ∀ b z k, ContinuousAt (fun t => if c.nonlinearMode = .bnl then (s t).pkLin z k * A b z k t * B b z k t
        else (s t).pkLin z k * A b z k t * B b z k t * (s t).twoHaloTruncation k) t₀ := fun hA hB b z k =>
    at_ite (((P z k).mul (hA b z k)).mul (hB b z k)) ((((P z k).mul (hA b z k)).mul (hB b z k)).mul (at_cut2 h k))
  have gal : ∀ b z k i, ContinuousAt (fun t => (s t).centralGalaxyProfile b z k i + (s t).satelliteGalaxyProfile b z k i) t₀ :=
    fun b z k i => (at_central h b z k i).add (at_satellite h b z k i)
  unfold Spectra.powerSpectrumGgRaw
  simp only [h.nonlinearMode]
  refine result_bias (fun b z k => ?_) (fun b z k => ?_) fun b z k => ?_
  · exact (continuousAt_const.mul ((at_one_halo h z (at_central h b z k) (at_satellite h b z k)).mul (at_cut1 h k))).add
      ((at_one_halo h z (fun i => (at_satellite h b z k i).mul (h.poissonFunc i)) (at_satellite h b z k)).mul (at_cut1 h k))
  · have l := ((two C C b z k).add (two S S b z k)).add ((continuousAt_const (y := (2 : ℝ))).mul (two C S b z k))
    exact at_ite (l.add ((P z k).mul (at_nl h z k (gal b z k) (gal b z k)))) l
  · exact (((C b z k).mul (C b z k)).add ((S b z k).mul (S b z k))).add ((continuousAt_const.mul (C b z k)).mul (S b z k))

/-- galaxy-matter -/
theorem C136_gm (hk : ∀ k, 0 ≤ c.kVec k)
    (hm : c.response = true → ∀ q, (s t₀).powerSpectrumMmRaw = .ok q → ∀ z k, q.pkTot 0 z k ≠ 0) :
    (∀ t, (s t).powerSpectrumGm = .error .unboundLocal) ∨
    ∃ r : T → PkResult, (∀ t, (s t).powerSpectrumGm = .ok (r t)) ∧ ResultAt r t₀ := by
  refine at_response h hk ?_ hm
  have C := at_ic h
  have S := at_is h
  have P := h.pkLin
  have two : ∀ {A : ℕ → ℕ → ℕ → T → ℝ}, (∀ b z k, ContinuousAt (A b z k) t₀) →
      ∀ b z k, ContinuousAt (fun t => if c.nonlinearMode = .bnl then (s t).pkLin z k * A b z k t * (s t).imTerm z k
        else (s t).pkLin z k * A b z k t * (s t).imTerm z k * (s t).twoHaloTruncation k) t₀ := fun hA b z k =>
    at_ite (((P z k).mul (hA b z k)).mul (at_im h z k)) ((((P z k).mul (hA b z k)).mul (at_im h z k)).mul (at_cut2 h k))
  have gal : ∀ b z k i, ContinuousAt (fun t => (s t).centralGalaxyProfile b z k i + (s t).satelliteGalaxyProfile b z k i) t₀ :=
    fun b z k i => (at_central h b z k i).add (at_satellite h b z k i)
  unfold Spectra.powerSpectrumGmRaw
  simp only [h.nonlinearMode]
  refine result_bias (fun b z k => ?_) (fun b z k => ?_) fun b z k => ?_
  · exact ((at_one_halo h z (at_central h b z k) (at_mg h b z k)).mul (at_cut1 h k)).add
      ((at_one_halo h z (at_satellite h b z k) (at_mg h b z k)).mul (at_cut1 h k))
  · have l := (two C b z k).add (two S b z k)
    exact at_ite (l.add ((P z k).mul (at_nl h z k (gal b z k) (at_profile h z k)))) l
  · exact ((C b z k).mul (at_im h z k)).add ((S b z k).mul (at_im h z k))

theorem at_avg (b z : ℕ) : ContinuousAt (fun t => (s t).massAvg b z) t₀ :=
  (h.avgHaloMassCen b z).div (h.numberDensity b z) (h.numberDensityNe b z)

theorem at_additional {β μ : T → Option ℝ} (b z : ℕ) (hβ : OptAt β t₀) (hμ : OptAt μ t₀)
    (hp : ∀ p, μ t₀ = some p → p ≠ 0 ∧ (s t₀).avgHaloMassCen b z ≠ 0) :
    ContinuousAt (fun t => Spectra.additionalTerm (β t) (μ t) ((s t).massAvg b z)) t₀ := by
  rcases hβ with e | ⟨f, e, hf⟩
  · simp only [e, Spectra.additionalTerm]
    exact continuousAt_const
  · rcases hμ with e' | ⟨g, e', hg⟩
    · simp only [e, e', Spectra.additionalTerm]
      exact continuousAt_const
    · simp only [e, e', Spectra.additionalTerm]
      have q := hp _ (e' t₀)
      exact ((at_avg h b z).div hg q.1).rpow hf (.inl (div_ne_zero (div_ne_zero q.2 (h.numberDensityNe b z)) q.1))

theorem at_central_ia (b z k m : ℕ) : ContinuousAt (fun t => (s t).centralAlignmentProfile b z k m) t₀ := by
  unfold Spectra.centralAlignmentProfile
  simp only [h.mass]
  exact (((h.fC b z).mul ((continuousAt_const.mul (h.alignmentGi z)).div (h.growthFactor z) (h.growthFactorNe z))).mul
    continuousAt_const).mul (at_additional h b z h.betaCen h.mpivotCen (h.pivotCen b z))

theorem at_satellite_ia (b z k m : ℕ) : ContinuousAt (fun t => (s t).satelliteAlignmentProfile b z k m) t₀ :=
  ((((h.fS b z).mul (h.hodSat b z m)).mul (h.wkmSat z k m)).div (h.numberDensitySat b z) (h.numberDensitySatNe b z)).mul
    (at_additional h b z h.betaSat h.mpivotSat (h.pivotSat b z))

theorem at_ic_ia (b z k : ℕ) : ContinuousAt (fun t => (s t).icAlignTerm b z k) t₀ := by
  unfold Spectra.icAlignTerm
  simp only [h.mass]
  exact (at_ig h z (at_central_ia h b z k)).add
    ((((at_a h z).mul (at_central_ia h b z k 0)).mul (h.meanDensity0 z)).div_const _)

theorem at_is_ia (b z k : ℕ) : ContinuousAt (fun t => (s t).isAlignTerm b z k) t₀ := by
  unfold Spectra.isAlignTerm
  simp only [h.mass]
  exact (at_ig h z (at_satellite_ia h b z k)).add
    ((((at_a h z).mul (at_satellite_ia h b z k 0)).mul (h.meanDensity0 z)).div_const _)

theorem at_peff (z k : ℕ) : ContinuousAt (fun t => (s t).peffVal z k) t₀ := by
  unfold Spectra.peffVal Spectra.peff
  simp only [h.nonlinearMode]
  split_ifs
  · exact ((continuousAt_const.sub h.tEff).mul (h.pkNl z k)).add (h.tEff.mul (h.pkLin z k))
  · exact continuousAt_const

theorem at_amp_base (z : ℕ) : ContinuousAt (fun t => (s t).c1 z * (s t).meanDensity0 z / (s t).growthFactor z) t₀ :=
  ((continuousAt_const.mul (h.alignmentGi z)).mul (h.meanDensity0 z)).div (h.growthFactor z) (h.growthFactorNe z)

theorem at_amp (z : ℕ) : ContinuousAt (fun t => (s t).alignmentAmplitude2h z) t₀ := continuousAt_const.mul (at_amp_base h z)

theorem at_amp2 (z : ℕ) : ContinuousAt (fun t => (s t).alignmentAmplitude2hII z) t₀ := (at_amp_base h z).pow 2

/-- matter-intrinsic -/
theorem C136_mi (hk : ∀ k, 0 ≤ c.kVec k)
    (hm : c.response = true → ∀ q, (s t₀).powerSpectrumMmRaw = .ok q → ∀ z k, q.pkTot 0 z k ≠ 0) :
    (∀ t, (s t).powerSpectrumMi = .error .unboundLocal) ∨
    ∃ r : T → PkResult, (∀ t, (s t).powerSpectrumMi = .ok (r t)) ∧ ResultAt r t₀ := by
  refine at_response h hk ?_ hm
  have one : ∀ b z k, ContinuousAt (fun t => -1 * (s t).compute1hTerm ((s t).matterProfile1hG b z k)
      ((s t).satelliteAlignmentProfile b z k) z * (s t).oneHaloTruncationIa k) t₀ := fun b z k =>
    (continuousAt_const.mul (at_one_halo h z (at_mg h b z k) (at_satellite_ia h b z k))).mul (at_cut1_ia h k)
  have C : ∀ b z k, ContinuousAt (fun t => -1 * (s t).pkLin z k * (s t).icAlignTerm b z k * (s t).imTerm z k) t₀ := fun b z k =>
    ((continuousAt_const.mul (h.pkLin z k)).mul (at_ic_ia h b z k)).mul (at_im h z k)
  have S : ∀ b z k, ContinuousAt (fun t => -1 * (s t).pkLin z k * (s t).isAlignTerm b z k * (s t).imTerm z k) t₀ := fun b z k =>
    ((continuousAt_const.mul (h.pkLin z k)).mul (at_is_ia h b z k)).mul (at_im h z k)
  unfold Spectra.powerSpectrumMiRaw
  simp only [h.nonlinearMode]
  have plain : ResultAt (fun t => (⟨fun b z k => -1 * (s t).compute1hTerm ((s t).matterProfile1hG b z k)
      ((s t).satelliteAlignmentProfile b z k) z * (s t).oneHaloTruncationIa k,
      fun b z k => -1 * (s t).pkLin z k * (s t).icAlignTerm b z k * (s t).imTerm z k * (s t).twoHaloTruncationIa k +
        -1 * (s t).pkLin z k * (s t).isAlignTerm b z k * (s t).imTerm z k * (s t).twoHaloTruncationIa k,
      fun b z k => -1 * (s t).compute1hTerm ((s t).matterProfile1hG b z k)
        ((s t).satelliteAlignmentProfile b z k) z * (s t).oneHaloTruncationIa k +
        -1 * (s t).pkLin z k * (s t).icAlignTerm b z k * (s t).imTerm z k * (s t).twoHaloTruncationIa k +
        -1 * (s t).pkLin z k * (s t).isAlignTerm b z k * (s t).imTerm z k * (s t).twoHaloTruncationIa k, none⟩ : PkResult)) t₀ :=
    ⟨one, fun b z k => ((C b z k).mul (at_cut2_ia h k)).add ((S b z k).mul (at_cut2_ia h k)),
      fun b z k => ((one b z k).add ((C b z k).mul (at_cut2_ia h k))).add ((S b z k).mul (at_cut2_ia h k)), .inl fun _ => rfl⟩
  cases c.nonlinearMode with
  | none => exact plain
  | hmcode => exact plain
  | fortuna =>
    exact result_add one fun b z k => (((h.fC b z).mul (at_peff h z k)).mul (at_amp h z)).mul (at_cut2_ia h k)
  | bnl =>
    have n : ∀ b z k, ContinuousAt (fun t => (s t).pkLin z k * (s t).iNL (fun i => (s t).centralAlignmentProfile b z k i +
        (s t).satelliteAlignmentProfile b z k i) ((s t).matterProfile2h z k) z k) t₀ := fun b z k =>
      (h.pkLin z k).mul (at_nl h z k (fun i => (at_central_ia h b z k i).add (at_satellite_ia h b z k i)) (at_profile h z k))
    exact ⟨one, fun b z k => ((C b z k).add (S b z k)).sub (n b z k),
      fun b z k => (((one b z k).add (C b z k)).add (S b z k)).sub (n b z k), .inl fun _ => rfl⟩

/-- intrinsic-intrinsic -/
theorem C136_ii (hk : ∀ k, 0 ≤ c.kVec k)
    (hm : c.response = true → ∀ q, (s t₀).powerSpectrumMmRaw = .ok q → ∀ z k, q.pkTot 0 z k ≠ 0) :
    (∀ t, (s t).powerSpectrumIi = .error .unboundLocal) ∨
    ∃ r : T → PkResult, (∀ t, (s t).powerSpectrumIi = .ok (r t)) ∧ ResultAt r t₀ := by
  refine at_response h hk ?_ hm
  have one : ∀ b z k, ContinuousAt (fun t => (s t).compute1hTerm ((s t).satelliteAlignmentProfile b z k)
      ((s t).satelliteAlignmentProfile b z k) z * (s t).oneHaloTruncationIa k) t₀ := fun b z k =>
    (at_one_halo h z (at_satellite_ia h b z k) (at_satellite_ia h b z k)).mul (at_cut1_ia h k)
  have l : ∀ {A B : ℕ → ℕ → ℕ → T → ℝ}, (∀ b z k, ContinuousAt (A b z k) t₀) → (∀ b z k, ContinuousAt (B b z k) t₀) →
      ∀ b z k, ContinuousAt (fun t => (s t).pkLin z k * A b z k t * B b z k t) t₀ := fun hA hB b z k =>
    ((h.pkLin z k).mul (hA b z k)).mul (hB b z k)
  have C := at_ic_ia h
  have S := at_is_ia h
  have x := at_cut2_ia h
  unfold Spectra.powerSpectrumIiRaw
  simp only [h.nonlinearMode]
  cases c.nonlinearMode with
  | none =>
    exact ⟨one, fun b z k => (((l C C b z k).mul (x k)).add ((l S S b z k).mul (x k))).add ((l C S b z k).mul (x k)),
      fun b z k => (((one b z k).add ((l C C b z k).mul (x k))).add ((l S S b z k).mul (x k))).add ((l C S b z k).mul (x k)),
      .inl fun _ => rfl⟩
  | hmcode =>
    exact ⟨one, fun b z k => (((l C C b z k).mul (x k)).add ((l S S b z k).mul (x k))).add ((l C S b z k).mul (x k)),
      fun b z k => (((one b z k).add ((l C C b z k).mul (x k))).add ((l S S b z k).mul (x k))).add ((l C S b z k).mul (x k)),
      .inl fun _ => rfl⟩
  | fortuna =>
    exact result_add one fun b z k => ((((h.fC b z).pow 2).mul (at_peff h z k)).mul (at_amp2 h z)).mul (x k)
  | bnl =>
    have cc : ∀ b z k, _ := fun b z k => (l C C b z k).add ((h.pkLin z k).mul (at_nl h z k (at_central_ia h b z k) (at_central_ia h b z k)))
    have ss : ∀ b z k, _ := fun b z k => (l S S b z k).add ((h.pkLin z k).mul (at_nl h z k (at_satellite_ia h b z k) (at_satellite_ia h b z k)))
    have cs : ∀ b z k, _ := fun b z k => (l C S b z k).add ((h.pkLin z k).mul (at_nl h z k (at_central_ia h b z k) (at_satellite_ia h b z k)))
    exact ⟨one, fun b z k => ((cc b z k).add (ss b z k)).add (cs b z k),
      fun b z k => (((one b z k).add (cc b z k)).add (ss b z k)).add (cs b z k), .inl fun _ => rfl⟩

/-- galaxy-intrinsic -/
theorem C136_gi (hk : ∀ k, 0 ≤ c.kVec k)
    (hm : c.response = true → ∀ q, (s t₀).powerSpectrumMmRaw = .ok q → ∀ z k, q.pkTot 0 z k ≠ 0) :
    (∀ t, (s t).powerSpectrumGi = .error .unboundLocal) ∨
    ∃ r : T → PkResult, (∀ t, (s t).powerSpectrumGi = .ok (r t)) ∧ ResultAt r t₀ := by
  refine at_response h hk ?_ hm
  have one : ∀ b z k, ContinuousAt (fun t => (s t).compute1hTerm ((s t).centralGalaxyProfile b z k)
      ((s t).satelliteAlignmentProfile b z k) z * (s t).oneHaloTruncationIa k) t₀ := fun b z k =>
    (at_one_halo h z (at_central h b z k) (at_satellite_ia h b z k)).mul (at_cut1_ia h k)
  have l : ∀ {A : ℕ → ℕ → ℕ → T → ℝ}, (∀ b z k, ContinuousAt (A b z k) t₀) →
      ∀ b z k, ContinuousAt (fun t => (s t).pkLin z k * (s t).icTerm b z k * A b z k t) t₀ := fun hA b z k =>
    ((h.pkLin z k).mul (at_ic h b z k)).mul (hA b z k)
  have C := at_ic_ia h
  have S := at_is_ia h
  have x := at_cut2_ia h
  unfold Spectra.powerSpectrumGiRaw
  simp only [h.nonlinearMode]
  cases c.nonlinearMode with
  | none =>
    exact ⟨one, fun b z k => ((l S b z k).mul (x k)).add ((l C b z k).mul (x k)),
      fun b z k => ((one b z k).add ((l S b z k).mul (x k))).add ((l C b z k).mul (x k)), .inl fun _ => rfl⟩
  | hmcode =>
    exact ⟨one, fun b z k => ((l S b z k).mul (x k)).add ((l C b z k).mul (x k)),
      fun b z k => ((one b z k).add ((l S b z k).mul (x k))).add ((l C b z k).mul (x k)), .inl fun _ => rfl⟩
  | fortuna =>
    exact result_add one fun b z k =>
      (((continuousAt_const.mul (at_peff h z k)).mul (at_ic h b z k)).mul (at_amp h z)).mul (x k)
  | bnl =>
    have cc : ∀ b z k, _ := fun b z k => (l C b z k).add ((h.pkLin z k).mul (at_nl h z k (at_central_ia h b z k) (at_central h b z k)))
    have cs : ∀ b z k, _ := fun b z k => (l S b z k).add ((h.pkLin z k).mul (at_nl h z k (at_satellite_ia h b z k) (at_central h b z k)))
    exact ⟨one, fun b z k => (cs b z k).add (cc b z k),
      fun b z k => ((one b z k).add (cs b z k)).add (cc b z k), .inl fun _ => rfl⟩

/-- a sampler that moves the linear power, the satellites, the alignment slope and the matter density of the example object -/
noncomputable def demoMove (t : ℝ) : Spectra :=
  { demo with
    pkLin := fun z k => (1 + t) * demo.pkLin z k, hodSat := fun b z m => (1 + t ^ 2) * demo.hodSat b z m, betaCen := some (1 + t)
    omegaM := 0.3 + t }

omit h in
theorem demo_along : Along demo demoMove 0 := by
  unfold demoMove
  constructor <;> intros <;>
    first
    | rfl
    | exact continuousAt_const
    | exact .inl fun _ => rfl
    | skip
  · norm_num [demo]
  · exact continuousAt_const.add continuousAt_id
  · norm_num
  · norm_num [demo]
  · norm_num [demo]
  · norm_num [demo]
  · exact (continuousAt_const.add continuousAt_id).mul continuousAt_const
  · exact (continuousAt_const.add (continuousAt_id.pow 2)).mul continuousAt_const
  · norm_num [demo]
  · norm_num [demo]
  · norm_num [demo]
  · exact .inr ⟨_, fun _ => rfl, continuousAt_const.add continuousAt_id⟩
  · exact .inr ⟨_, fun _ => rfl, continuousAt_const⟩
  · rename_i p hp
    have : p = 2 := by
      simp only [demo, Option.some.injEq] at hp
      exact hp.symm
    rw [this]
    norm_num [demo]
  · rename_i p hp
    simp [demo] at hp

omit h in
/-- the galaxy-galaxy spectrum of the example varies without jumps -/
example : ∃ r : ℝ → PkResult, (∀ t, (demoMove t).powerSpectrumGg = .ok (r t)) ∧ ResultAt r 0 := by
  rcases C136_gg demo_along (fun k => by simp only [demo]; positivity) (by simp [demo]) with e | r
  · have := e 0
    simp [Spectra.powerSpectrumGg, Spectra.applyResponse, demoMove, demo] at this
  · exact r

end Verif.Sampling

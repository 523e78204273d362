import Verif.Props.ProfileOrder
import Verif.Props.PkRounded
import Mathlib.Topology.Algebra.Order.Field
import Mathlib.Analysis.SpecialFunctions.Pow.Continuity
import Mathlib.Analysis.SpecificLimits.Basic

/-! Property C158: what is left of the spectra on scales where the profiles of halos have vanished. -/

namespace Verif.Pk.SmallScales

open Verif.Lib Verif.Spec Verif.Pk Spectra Verif.Pk.ProfileOrder Filter Topology Finset

theorem tendsto_simpson {ι : Type} {l : Filter ι} {n : ℕ} {x : ℕ → ℝ} {y : ι → ℕ → ℝ} {y' : ℕ → ℝ}
    (h : ∀ m < n, Tendsto (fun i => y i m) l (𝓝 (y' m))) : Tendsto (fun i => simpson n x (y i)) l (𝓝 (simpson n x y')) := by
  have basic : ∀ p, 2 * p < n → Tendsto (fun i => basicSimpson p x (y i)) l (𝓝 (basicSimpson p x y')) := fun p hp => by
    refine tendsto_finsetSum _ fun j hj => ?_
    have hj := mem_range.1 hj
    exact (((((h _ (by omega)).mul_const _).add ((h _ (by omega)).mul_const _)).add ((h _ (by omega)).mul_const _))).const_mul _
  unfold simpson
  split_ifs with h1 h2 h3
  · exact basic _ (by omega)
  · exact tendsto_const_nhds
  · exact ((h 1 (by omega)).add (h 0 (by omega))).const_mul _
  · refine (basic _ (by omega)).add ?_
    exact (((h _ (by omega)).const_mul _).add ((h _ (by omega)).const_mul _)).sub ((h _ (by omega)).const_mul _)

variable {ι : Type} {l : Filter ι} {s : Spectra} {uD uS : ι → ℕ → ℕ → ℕ → ℝ} {b z k : ℕ}

/-- the profiles of matter and of satellites vanish at this redshift and wavenumber, at every mass -/
structure Vanish (l : Filter ι) (s : Spectra) (uD uS : ι → ℕ → ℕ → ℕ → ℝ) (z k : ℕ) : Prop where
  matter : ∀ m < s.nm, Tendsto (fun i => uD i z k m) l (𝓝 0)
  satellites : ∀ m < s.nm, Tendsto (fun i => uS i z k m) l (𝓝 0)

/-- the part of the mass of a halo that is in stars, in the choice of profiles for galaxies and matter -/
noncomputable def stars (s : Spectra) (b z m : ℕ) : ℝ :=
  match s.hmcodeIngredients with
  | .mead2020Feedback => s.fs (s.zVec z)
  | .mead2020 => 0
  | .fit => s.fstar b z m
  | .none => if s.pointmass then s.fstar b z m else 0

/-- and in the choice of profiles for matter -/
noncomputable def starsMm (s : Spectra) (z m : ℕ) : ℝ :=
  match s.hmcodeIngredients with
  | .mead2020Feedback => s.fs (s.zVec z)
  | .mead2020 => 0
  | .fit => s.fstarMm z m
  | .none => 0

theorem lim_plain {u : ι → ℝ} (h : Tendsto u l (𝓝 0)) (c : ℝ) : Tendsto (fun i => c * u i) l (𝓝 0) := by
  simpa using h.const_mul c

theorem lim_fit {u : ι → ℝ} (h : Tendsto u l (𝓝 0)) (c d : ℝ) : Tendsto (fun i => c * u i + d) l (𝓝 d) := by
  simpa using (h.const_mul c).add_const d

theorem profile_plain (V : Vanish l s uD uS z k) {m : ℕ} (hm : m < s.nm) :
    Tendsto (fun i => (withProfiles s (uD i) (uS i)).matterProfile z k m) l (𝓝 0) := by
  exact lim_plain (V.matter m hm) (s.mass m / s.meanDensity0 z)

theorem profile_2h (V : Vanish l s uD uS z k) {m : ℕ} (hm : m < s.nm) :
    Tendsto (fun i => (withProfiles s (uD i) (uS i)).matterProfile2h z k m) l (𝓝 0) := profile_plain V hm

theorem profile_fit (V : Vanish l s uD uS z k) {m : ℕ} (hm : m < s.nm) (f : ℕ → ℕ → ℕ → ℝ) :
    Tendsto (fun i => (withProfiles s (uD i) (uS i)).matterProfileFit f b z k m) l (𝓝 (f b z m * (s.mass m / s.meanDensity0 z))) :=
  lim_fit (V.matter m hm) ((s.omegaC / s.omegaM + s.fgFit (s.mass m) s.mb (f b z m)) * (s.mass m / s.meanDensity0 z)) _

theorem profile_feedback (V : Vanish l s uD uS z k) {m : ℕ} (hm : m < s.nm) :
    Tendsto (fun i => (withProfiles s (uD i) (uS i)).matterProfileWithFeedback z k m) l
      (𝓝 (s.fs (s.zVec z) * (s.mass m / s.meanDensity0 z))) :=
  lim_fit (V.matter m hm) ((s.omegaC / s.omegaM + s.fg (s.mass m) (s.zVec z) (s.fs (s.zVec z))) * (s.mass m / s.meanDensity0 z)) _

theorem profile_mm (V : Vanish l s uD uS z k) {m : ℕ} (hm : m < s.nm) :
    Tendsto (fun i => (withProfiles s (uD i) (uS i)).matterProfile1hMm z k m) l
      (𝓝 (starsMm s z m * (s.mass m / s.meanDensity0 z))) := by
  have hi' : ∀ i, (withProfiles s (uD i) (uS i)).hmcodeIngredients = s.hmcodeIngredients := fun _ => rfl
  unfold matterProfile1hMm starsMm
  simp only [hi']
  cases hi : s.hmcodeIngredients
  · simpa using profile_plain V hm
  · simpa using profile_plain V hm
  · exact profile_feedback V hm
  · exact profile_fit (b := 0) V hm fun _ => s.fstarMm

theorem profile_g (V : Vanish l s uD uS z k) {m : ℕ} (hm : m < s.nm) :
    Tendsto (fun i => (withProfiles s (uD i) (uS i)).matterProfile1hG b z k m) l
      (𝓝 (stars s b z m * (s.mass m / s.meanDensity0 z))) := by
  have hi' : ∀ i, (withProfiles s (uD i) (uS i)).hmcodeIngredients = s.hmcodeIngredients := fun _ => rfl
  have hp' : ∀ i, (withProfiles s (uD i) (uS i)).pointmass = s.pointmass := fun _ => rfl
  unfold matterProfile1hG stars
  simp only [hi', hp']
  cases hi : s.hmcodeIngredients
  · simp only
    split_ifs with hpt
    · exact profile_fit V hm s.fstar
    · simpa using profile_plain V hm
  · simpa using profile_plain V hm
  · exact profile_feedback V hm
  · exact profile_fit V hm s.fstar

theorem profile_satellites (V : Vanish l s uD uS z k) {m : ℕ} (hm : m < s.nm) :
    Tendsto (fun i => (withProfiles s (uD i) (uS i)).satelliteGalaxyProfile b z k m) l (𝓝 0) := by
  have := ((V.satellites m hm).const_mul (s.fS b z * s.hodSat b z m)).div_const (s.numberDensitySat b z)
  rw [mul_zero, zero_div] at this
  exact this

theorem lim_1h {u v : ι → ℕ → ℝ} {u' v' : ℕ → ℝ} (hu : ∀ m < s.nm, Tendsto (fun i => u i m) l (𝓝 (u' m)))
    (hv : ∀ m < s.nm, Tendsto (fun i => v i m) l (𝓝 (v' m))) :
    Tendsto (fun i => s.compute1hTerm (u i) (v i) z) l (𝓝 (simpson s.nm s.mass fun m => u' m * v' m * s.dndlnm z m / s.mass m)) :=
  tendsto_simpson fun m hm => (((hu m hm).mul (hv m hm)).mul_const _).div_const _

theorem lim_im (V : Vanish l s uD uS z k) : Tendsto (fun i => (withProfiles s (uD i) (uS i)).imTerm z k) l (𝓝 (s.aTerm z)) := by
  have h : Tendsto (fun i => (withProfiles s (uD i) (uS i)).computeImTerm z k) l (𝓝 0) := by
    have := tendsto_simpson (x := s.mass) (n := s.nm) (l := l)
      (y := fun i m => s.haloBias z m * s.dndlnm z m * uD i z k m * (1 / s.meanDensity0 z)) (y' := fun _ => 0) fun m hm => by
        simpa using ((V.matter m hm).const_mul (s.haloBias z m * s.dndlnm z m)).mul_const (1 / s.meanDensity0 z)
    rw [simpson_zero] at this
    exact this
  have := h.add_const (s.aTerm z)
  rw [zero_add] at this
  exact this

theorem lim_is (V : Vanish l s uD uS z k) : Tendsto (fun i => (withProfiles s (uD i) (uS i)).isTerm b z k) l (𝓝 0) := by
  have := tendsto_simpson (x := s.mass) (n := s.nm) (l := l)
    (y := fun i m => (withProfiles s (uD i) (uS i)).satelliteGalaxyProfile b z k m * s.haloBias z m * s.dndlnm z m / s.mass m)
    (y' := fun _ => 0) fun m hm => by
      simpa using (((profile_satellites V hm).mul_const (s.haloBias z m)).mul_const (s.dndlnm z m)).div_const (s.mass m)
  rw [simpson_zero] at this
  exact this

theorem lim_trapezoid {f : ι → ℕ → ℝ} {f' : ℕ → ℝ} (h : ∀ m < s.nm, Tendsto (fun i => f i m) l (𝓝 (f' m))) :
    Tendsto (fun i => s.trapezoidalIntegrator (f i)) l (𝓝 (s.trapezoidalIntegrator f')) :=
  tendsto_finsetSum _ fun m hm => (h m (mem_range.1 hm)).mul_const _

theorem lim_iNL (h0 : 0 < s.nm) {u v : ι → ℕ → ℝ} {u' v' : ℕ → ℝ} (hu : ∀ m < s.nm, Tendsto (fun i => u i m) l (𝓝 (u' m)))
    (hv : ∀ m < s.nm, Tendsto (fun i => v i m) l (𝓝 (v' m))) : Tendsto (fun i => s.iNL (u i) (v i) z k) l (𝓝 (s.iNL u' v' z k)) := by
  unfold iNL
  refine Tendsto.add (Tendsto.add (Tendsto.add ?_ ?_) ?_) ?_
  · exact (((hu 0 h0).const_mul _).mul (hv 0 h0)).mul_const _
  · exact (((hu 0 h0).const_mul _).mul (lim_trapezoid fun m hm => (hv m hm).const_mul _)).mul_const _
  · exact (((hv 0 h0).const_mul _).mul (lim_trapezoid fun m hm => (hu m hm).const_mul _)).mul_const _
  · exact lim_trapezoid fun m hm => (lim_trapezoid fun m' hm' => (hv m' hm').const_mul _).mul (hu m hm)

theorem iNL_zero_right (u : ℕ → ℝ) : s.iNL u (fun _ => 0) z k = 0 := by
  simp [iNL, trapezoidalIntegrator]

/-- the bias-weighted share of the mass that is in no resolved halo -/
noncomputable def smooth (s : Spectra) (z : ℕ) : ℝ :=
  1 - simpson s.nm s.mass (fun m => s.haloBias z m * s.dndlnm z m * (1 / s.meanDensity0 z))

/-- the bias of the centrals, weighted with their share of the sample -/
noncomputable def centralBias (s : Spectra) (b z : ℕ) : ℝ :=
  simpson s.nm s.mass fun m => s.fC b z * s.hodCen b z m * 1 / s.numberDensityCen b z * s.haloBias z m * s.dndlnm z m / s.mass m

/-- the damping of the two-halo term: none with the beyond-linear bias -/
noncomputable def damping (s : Spectra) (k : ℕ) : ℝ := if s.nonlinearMode = .bnl then 1 else s.twoHaloTruncation k

/-- and in the spectra with alignments -/
noncomputable def dampingIa (s : Spectra) (k : ℕ) : ℝ := if s.nonlinearMode = .bnl then 1 else s.twoHaloTruncationIa k

/-- C158: where the profiles of halos have vanished, the one-halo power of matter is that of the stars, which the code
keeps as points, and the two-halo power is not zero but that of the mass in no resolved halo, which the code treats as
having no extent at all. -/
theorem C158_matter (h0 : 0 < s.nm) (hresp : s.response = false) (hmode : s.nonlinearMode ≠ .hmcode) (V : Vanish l s uD uS z k)
    {r : ι → PkResult} (h : ∀ i, (withProfiles s (uD i) (uS i)).powerSpectrumMm = .ok (r i)) :
    Tendsto (fun i => (r i).pk1h b z k) l (𝓝 ((simpson s.nm s.mass fun m => (starsMm s z m * (s.mass m / s.meanDensity0 z)) ^ 2
        * s.dndlnm z m / s.mass m) * s.oneHaloTruncation k)) ∧
      Tendsto (fun i => (r i).pk2h b z k) l (𝓝 (s.pkLin z k * smooth s z ^ 2 * damping s k)) ∧
      ∀ i, (r i).pkTot b z k = (r i).pk1h b z k + (r i).pk2h b z k := by
  have hr : ∀ i, (withProfiles s (uD i) (uS i)).powerSpectrumMmRaw = .ok (r i) := fun i => by
    have := h i
    unfold powerSpectrumMm at this
    rwa [show (withProfiles s (uD i) (uS i)).response = false from hresp, if_neg (by decide)] at this
  have h1 := (lim_1h (s := s) (z := z) (fun m hm => profile_mm V hm) (fun m hm => profile_mm V hm)).mul_const (s.oneHaloTruncation k)
  simp only [← pow_two] at h1
  have h2 := ((lim_im V).const_mul (s.pkLin z k)).mul (lim_im V)
  have e2 : s.pkLin z k * smooth s z ^ 2 = s.pkLin z k * s.aTerm z * s.aTerm z := by rw [mul_assoc, ← pow_two]; rfl
  rw [e2]
  have hm' : ∀ i, (withProfiles s (uD i) (uS i)).nonlinearMode = s.nonlinearMode := fun _ => rfl
  by_cases hb : s.nonlinearMode = .bnl
  · have e : ∀ i, (r i).pk1h b z k = s.compute1hTerm ((withProfiles s (uD i) (uS i)).matterProfile1hMm z k)
          ((withProfiles s (uD i) (uS i)).matterProfile1hMm z k) z * s.oneHaloTruncation k ∧
        (r i).pk2h b z k = s.pkLin z k * (withProfiles s (uD i) (uS i)).imTerm z k * (withProfiles s (uD i) (uS i)).imTerm z k
          + s.pkLin z k * s.iNL ((withProfiles s (uD i) (uS i)).matterProfile2h z k)
            ((withProfiles s (uD i) (uS i)).matterProfile2h z k) z k ∧
        (r i).pkTot b z k = (r i).pk1h b z k + (r i).pk2h b z k := fun i => by
      have := hr i
      unfold powerSpectrumMmRaw at this
      rw [hm', hb] at this
      rw [← Except.ok.inj this]
      exact ⟨rfl, rfl, rfl⟩
    simp only [damping, hb, if_true, mul_one]
    refine ⟨?_, ?_, fun i => (e i).2.2⟩
    · simp only [fun i => (e i).1]
      exact h1
    simp only [fun i => (e i).2.1]
    have h3 := ((lim_iNL (s := s) (z := z) (k := k) h0 (fun m hm => profile_2h V hm) (fun m hm => profile_2h V hm)).const_mul
      (s.pkLin z k))
    have := h2.add h3
    rw [iNL_zero_right, mul_zero, add_zero] at this
    exact this
  · have e : ∀ i, (r i).pk1h b z k = s.compute1hTerm ((withProfiles s (uD i) (uS i)).matterProfile1hMm z k)
          ((withProfiles s (uD i) (uS i)).matterProfile1hMm z k) z * s.oneHaloTruncation k ∧
        (r i).pk2h b z k = s.pkLin z k * (withProfiles s (uD i) (uS i)).imTerm z k * (withProfiles s (uD i) (uS i)).imTerm z k
          * s.twoHaloTruncation k ∧ (r i).pkTot b z k = (r i).pk1h b z k + (r i).pk2h b z k := fun i => by
      have := hr i
      unfold powerSpectrumMmRaw at this
      rw [hm'] at this
      cases hn : s.nonlinearMode <;> rw [hn] at this <;> first
        | exact absurd hn hb
        | exact absurd hn hmode
        | (rw [← Except.ok.inj this]; exact ⟨rfl, rfl, rfl⟩)
    simp only [damping, hb, if_false]
    refine ⟨?_, ?_, fun i => (e i).2.2⟩
    · simp only [fun i => (e i).1]
      exact h1
    · simp only [fun i => (e i).2.1]
      exact h2.mul_const _

/-- C158: without stars nothing is left of the one-halo power of matter. -/
theorem C158_no_stars (h0 : 0 < s.nm) (hresp : s.response = false) (hi : s.hmcodeIngredients = .none)
    (hmode : s.nonlinearMode ≠ .hmcode) (V : Vanish l s uD uS z k)
    {r : ι → PkResult} (h : ∀ i, (withProfiles s (uD i) (uS i)).powerSpectrumMm = .ok (r i)) :
    Tendsto (fun i => (r i).pkTot b z k) l (𝓝 (s.pkLin z k * smooth s z ^ 2 * damping s k)) := by
  obtain ⟨h1, h2, ht⟩ := C158_matter (b := b) h0 hresp hmode V h
  have e : (simpson s.nm s.mass fun m => (starsMm s z m * (s.mass m / s.meanDensity0 z)) ^ 2 * s.dndlnm z m / s.mass m) = 0 := by
    simp [starsMm, hi, simpson_zero]
  rw [e, zero_mul] at h1
  simp only [ht]
  simpa using h1.add h2

/-- C158: the two-halo power of matter never falls below that of the mass in no resolved halo, whatever the profiles. -/
theorem C158_floor (H : Inputs s) (hresp : s.response = false) (hm : s.nonlinearMode = .none ∨ s.nonlinearMode = .fortuna)
    {r : PkResult} (h : s.powerSpectrumMm = .ok r) :
    s.pkLin z k * smooth s z ^ 2 * s.twoHaloTruncation k ≤ r.pk2h b z k := by
  have hr : s.powerSpectrumMmRaw = .ok r := by
    unfold powerSpectrumMm at h
    rwa [hresp, if_neg (by decide)] at h
  have e : r.pk2h b z k = s.pkLin z k * s.imTerm z k * s.imTerm z k * s.twoHaloTruncation k := by
    unfold powerSpectrumMmRaw at hr
    rcases hm with hm | hm <;> rw [hm] at hr <;> rw [← Except.ok.inj hr]
  have hA : 0 ≤ smooth s z := H.aTerm z
  have hI : 0 ≤ s.computeImTerm z k := simpson_nonneg H.grid fun m hm => mul_nonneg (mul_nonneg
    (mul_nonneg (H.bias z m hm) (H.dndlnm z m hm)) (H.uDm z k m hm)) (one_div_nonneg.2 (H.density z).le)
  have hle : smooth s z ≤ s.imTerm z k := by
    have : s.imTerm z k = s.computeImTerm z k + smooth s z := rfl
    linarith
  rw [e, mul_assoc (s.pkLin z k) (s.imTerm z k) (s.imTerm z k), ← pow_two]
  exact mul_le_mul_of_nonneg_right (mul_le_mul_of_nonneg_left (pow_le_pow_left₀ hA hle 2) (H.pkLin z k))
    (Verif.PkRounded.twoHaloTruncation_pos (s := s) k (H.kVec k)).le

/-- C158: in the mode of HMCode only the one-halo term follows the profiles, and without feedback the total becomes the
two-halo term, which is the damped linear power. -/
theorem C158_hmcode (hresp : s.response = false) (hmode : s.nonlinearMode = .hmcode) (hi : s.hmcodeIngredients = .mead2020)
    (hk : 0 < s.kVec k) (hP : 0 ≤ s.pkLin z k * s.twoHaloTruncationMead z k) (V : Vanish l s uD uS z k)
    {r : ι → PkResult} (h : ∀ i, (withProfiles s (uD i) (uS i)).powerSpectrumMm = .ok (r i)) :
    Tendsto (fun i => (r i).pk1h b z k) l (𝓝 0) ∧
      Tendsto (fun i => (r i).pkTot b z k) l (𝓝 (s.pkLin z k * s.twoHaloTruncationMead z k)) := by
  have e : ∀ i, (r i).pk1h b z k = s.compute1hTerm ((withProfiles s (uD i) (uS i)).matterProfile1hMm z k)
          ((withProfiles s (uD i) (uS i)).matterProfile1hMm z k) z * s.oneHaloTruncationMead z k ∧
      (r i).pkTot b z k = s.transitionSmoothing z k ((r i).pk1h b z k) (s.pkLin z k * s.twoHaloTruncationMead z k) := fun i => by
    have := h i
    unfold powerSpectrumMm at this
    rw [show (withProfiles s (uD i) (uS i)).response = false from hresp, if_neg (by decide)] at this
    unfold powerSpectrumMmRaw at this
    rw [show (withProfiles s (uD i) (uS i)).nonlinearMode = .hmcode from hmode] at this
    simp only [show (withProfiles s (uD i) (uS i)).hmcodeIngredients = .mead2020 from hi, or_true, if_true] at this
    rw [← Except.ok.inj this]
    exact ⟨rfl, rfl⟩
  have h1 := (lim_1h (s := s) (z := z) (fun m hm => profile_mm V hm) (fun m hm => profile_mm V hm)).mul_const
    (s.oneHaloTruncationMead z k)
  simp only [starsMm, hi, zero_mul, zero_div, simpson_zero] at h1
  have h1' : Tendsto (fun i => (r i).pk1h b z k) l (𝓝 0) := by
    simp only [fun i => (e i).1]
    exact h1
  refine ⟨h1', ?_⟩
  simp only [fun i => (e i).2]
  set P := s.pkLin z k * s.twoHaloTruncationMead z k
  have hα : 0 < 1.875 * (1.603 : ℝ) ^ s.neff z := by positivity
  have hd : 0 < s.kVec k ^ 3 / (2 * Real.pi ^ 2) := by positivity
  unfold transitionSmoothing
  set α := 1.875 * (1.603 : ℝ) ^ s.neff z
  set d := s.kVec k ^ 3 / (2 * Real.pi ^ 2)
  have q : Tendsto (fun i => (d * (r i).pk1h b z k) ^ α) l (𝓝 0) := by
    have := ((h1'.const_mul d).rpow_const (p := α) (Or.inr hα.le))
    rwa [mul_zero, Real.zero_rpow hα.ne'] at this
  have q2 := ((q.add_const ((d * P) ^ α)).rpow_const (p := 1 / α) (Or.inr (by positivity))).div_const d
  rwa [zero_add, ← Real.rpow_mul (mul_nonneg hd.le hP), mul_one_div_cancel hα.ne', Real.rpow_one, mul_div_cancel_left₀ _ hd.ne'] at q2

/-- C158: the same for galaxies and matter: what is left of the one-halo term are the centrals with the stars, and of the
two-halo term the centrals with the mass in no resolved halo. -/
theorem C158_galaxies_matter (h0 : 0 < s.nm) (hresp : s.response = false) (V : Vanish l s uD uS z k)
    {r : ι → PkResult} (h : ∀ i, (withProfiles s (uD i) (uS i)).powerSpectrumGm = .ok (r i)) :
    Tendsto (fun i => (r i).pk1h b z k) l (𝓝 ((simpson s.nm s.mass fun m => s.fC b z * s.hodCen b z m * 1 / s.numberDensityCen b z
        * (stars s b z m * (s.mass m / s.meanDensity0 z)) * s.dndlnm z m / s.mass m) * s.oneHaloTruncation k)) ∧
      Tendsto (fun i => (r i).pk2h b z k) l (𝓝 (s.pkLin z k * centralBias s b z * smooth s z * damping s k)) := by
  have hr : ∀ i, r i = (withProfiles s (uD i) (uS i)).powerSpectrumGmRaw := fun i => by
    have := (C03_no_error (withProfiles s (uD i) (uS i)) hresp).2.1
    rw [h i] at this
    exact Except.ok.inj this
  have hc : ∀ m < s.nm, Tendsto (fun _ : ι => s.centralGalaxyProfile b z k m) l (𝓝 (s.centralGalaxyProfile b z k m)) :=
    fun m _ => tendsto_const_nhds
  have h1 := (lim_1h (s := s) (z := z) hc (fun m hm => profile_g (b := b) V hm)).mul_const (s.oneHaloTruncation k)
  have h1' := (lim_1h (s := s) (z := z) (fun m hm => profile_satellites (b := b) V hm)
    (fun m hm => profile_g (b := b) V hm)).mul_const (s.oneHaloTruncation k)
  simp only [zero_mul, zero_div, simpson_zero] at h1'
  have h2 := (lim_im V).const_mul (s.pkLin z k * centralBias s b z)
  have h2' := ((lim_is (b := b) V).const_mul (s.pkLin z k)).mul (lim_im V)
  simp only [mul_zero, zero_mul] at h2'
  have hm' : ∀ i, (withProfiles s (uD i) (uS i)).nonlinearMode = s.nonlinearMode := fun _ => rfl
  simp only [hr]
  constructor
  · have := h1.add h1'
    rw [add_zero] at this
    exact this
  · by_cases hb : s.nonlinearMode = .bnl
    · simp only [powerSpectrumGmRaw, hm', damping, hb, if_true, mul_one]
      have h3 := ((lim_iNL (s := s) (z := z) (k := k) h0
        (fun m hm => (hc m hm).add (profile_satellites (b := b) V hm)) (fun m hm => profile_2h V hm)).const_mul (s.pkLin z k))
      have := (h2.add h2').add h3
      rw [iNL_zero_right, mul_zero, add_zero, add_zero] at this
      exact this
    · simp only [powerSpectrumGmRaw, hm', damping, hb, if_false]
      have := (h2.mul_const (s.twoHaloTruncation k)).add (h2'.mul_const (s.twoHaloTruncation k))
      rw [zero_mul, add_zero] at this
      exact this

/-- C158: of galaxies only the two-halo power of the centrals is left: no one-halo term, and no shot noise either. -/
theorem C158_galaxies (hresp : s.response = false) (hb : s.nonlinearMode ≠ .bnl) (V : Vanish l s uD uS z k)
    {r : ι → PkResult} (h : ∀ i, (withProfiles s (uD i) (uS i)).powerSpectrumGg = .ok (r i)) :
    Tendsto (fun i => (r i).pk1h b z k) l (𝓝 0) ∧
      Tendsto (fun i => (r i).pkTot b z k) l (𝓝 (s.pkLin z k * centralBias s b z ^ 2 * s.twoHaloTruncation k)) := by
  have hr : ∀ i, r i = (withProfiles s (uD i) (uS i)).powerSpectrumGgRaw := fun i => by
    have := (C03_no_error (withProfiles s (uD i) (uS i)) hresp).1
    rw [h i] at this
    exact Except.ok.inj this
  have hc : ∀ m < s.nm, Tendsto (fun _ : ι => s.centralGalaxyProfile b z k m) l (𝓝 (s.centralGalaxyProfile b z k m)) :=
    fun m _ => tendsto_const_nhds
  have hs := fun m (hm : m < s.nm) => profile_satellites (b := b) V hm
  have h1 := (lim_1h (s := s) (z := z) hc hs).mul_const (s.oneHaloTruncation k)
  have h1' := (lim_1h (s := s) (z := z) (fun m hm => (hs m hm).mul_const (s.poissonFunc m)) hs).mul_const (s.oneHaloTruncation k)
  simp only [zero_mul, mul_zero, zero_div, simpson_zero] at h1 h1'
  have t1 := (h1.const_mul 2).add h1'
  rw [mul_zero, add_zero] at t1
  have hi := lim_is (b := b) V
  have h2 : Tendsto (fun _ : ι => s.pkLin z k * centralBias s b z * centralBias s b z * s.twoHaloTruncation k) l
    (𝓝 (s.pkLin z k * centralBias s b z * centralBias s b z * s.twoHaloTruncation k)) := tendsto_const_nhds
  have h3 := ((hi.const_mul (s.pkLin z k)).mul hi).mul_const (s.twoHaloTruncation k)
  have h4 := ((hi.const_mul (s.pkLin z k * centralBias s b z)).mul_const (s.twoHaloTruncation k)).const_mul 2
  have hm' : ∀ i, (withProfiles s (uD i) (uS i)).nonlinearMode = s.nonlinearMode := fun _ => rfl
  simp only [hr]
  refine ⟨t1, ?_⟩
  have := t1.add ((h2.add h3).add h4)
  simp only [mul_zero, zero_mul, add_zero, zero_add] at this
  rw [pow_two, ← mul_assoc]
  simp only [powerSpectrumGgRaw, hm', hb, if_false]
  exact this

/-- C158: with the non-linear halo bias the centrals keep, besides their linear two-halo power, the correction of pairs of centrals. -/
theorem C158_galaxies_bnl (h0 : 0 < s.nm) (hresp : s.response = false) (hb : s.nonlinearMode = .bnl) (V : Vanish l s uD uS z k)
    {r : ι → PkResult} (h : ∀ i, (withProfiles s (uD i) (uS i)).powerSpectrumGg = .ok (r i)) :
    Tendsto (fun i => (r i).pk1h b z k) l (𝓝 0) ∧
      Tendsto (fun i => (r i).pkTot b z k) l (𝓝 (s.pkLin z k * centralBias s b z ^ 2
        + s.pkLin z k * s.iNL (fun m => s.fC b z * s.hodCen b z m / s.numberDensityCen b z)
            (fun m => s.fC b z * s.hodCen b z m / s.numberDensityCen b z) z k)) := by
  have hr : ∀ i, r i = (withProfiles s (uD i) (uS i)).powerSpectrumGgRaw := fun i => by
    have := (C03_no_error (withProfiles s (uD i) (uS i)) hresp).1
    rw [h i] at this
    exact Except.ok.inj this
  have hc : ∀ m < s.nm, Tendsto (fun _ : ι => s.centralGalaxyProfile b z k m) l (𝓝 (s.centralGalaxyProfile b z k m)) :=
    fun m _ => tendsto_const_nhds
  have hs := fun m (hm : m < s.nm) => profile_satellites (b := b) V hm
  have h1 := (lim_1h (s := s) (z := z) hc hs).mul_const (s.oneHaloTruncation k)
  have h1' := (lim_1h (s := s) (z := z) (fun m hm => (hs m hm).mul_const (s.poissonFunc m)) hs).mul_const (s.oneHaloTruncation k)
  simp only [zero_mul, mul_zero, zero_div, simpson_zero] at h1 h1'
  have t1 := (h1.const_mul 2).add h1'
  rw [mul_zero, add_zero] at t1
  have hi := lim_is (b := b) V
  have h2 : Tendsto (fun _ : ι => s.pkLin z k * centralBias s b z * centralBias s b z) l
    (𝓝 (s.pkLin z k * centralBias s b z * centralBias s b z)) := tendsto_const_nhds
  have h3 := (hi.const_mul (s.pkLin z k)).mul hi
  have h4 := (hi.const_mul (s.pkLin z k * centralBias s b z)).const_mul 2
  have hg : ∀ m < s.nm, Tendsto (fun i => s.centralGalaxyProfile b z k m + (withProfiles s (uD i) (uS i)).satelliteGalaxyProfile b z k m) l
      (𝓝 (s.fC b z * s.hodCen b z m / s.numberDensityCen b z)) := fun m hm => by
    have := (hc m hm).add (hs m hm)
    rw [add_zero] at this
    have e : s.centralGalaxyProfile b z k m = s.fC b z * s.hodCen b z m / s.numberDensityCen b z := by
      unfold centralGalaxyProfile; rw [mul_one]
    rwa [e] at this ⊢
  have h5 := (lim_iNL (s := s) (z := z) (k := k) h0 hg hg).const_mul (s.pkLin z k)
  have hm' : ∀ i, (withProfiles s (uD i) (uS i)).nonlinearMode = s.nonlinearMode := fun _ => rfl
  simp only [hr]
  refine ⟨t1, ?_⟩
  have := t1.add (((h2.add h3).add h4).add h5)
  simp only [mul_zero, add_zero, zero_add] at this
  rw [pow_two, ← mul_assoc]
  simp only [powerSpectrumGgRaw, hm', hb, if_true]
  exact this

/-- C158: shapes with shapes and galaxies with shapes do not vanish and do not even change: neither knows the profiles of matter and of satellites, since the
satellites of a galaxy-shape pair are left out. -/
theorem C158_shapes (hresp : s.response = false) (u v : ℕ → ℕ → ℕ → ℝ) :
    (withProfiles s u v).powerSpectrumIi = s.powerSpectrumIi ∧ (withProfiles s u v).powerSpectrumGi = s.powerSpectrumGi := by
  have A := C03_no_error s hresp
  have B := C03_no_error (withProfiles s u v) hresp
  exact ⟨B.2.2.2.1.trans A.2.2.2.1.symm, B.2.2.2.2.trans A.2.2.2.2.symm⟩

/-- C158: and of matter with alignments: the aligned galaxies with the mass in no resolved halo, and the aligned
satellites with the stars. -/
theorem C158_alignments (h0 : 0 < s.nm) (hresp : s.response = false) (hf : s.nonlinearMode ≠ .fortuna) (V : Vanish l s uD uS z k)
    {r : ι → PkResult} (h : ∀ i, (withProfiles s (uD i) (uS i)).powerSpectrumMi = .ok (r i)) :
    Tendsto (fun i => (r i).pk1h b z k) l (𝓝 (-1 * (simpson s.nm s.mass fun m => stars s b z m * (s.mass m / s.meanDensity0 z)
        * s.satelliteAlignmentProfile b z k m * s.dndlnm z m / s.mass m) * s.oneHaloTruncationIa k)) ∧
      Tendsto (fun i => (r i).pk2h b z k) l
        (𝓝 (-1 * s.pkLin z k * (s.icAlignTerm b z k + s.isAlignTerm b z k) * smooth s z * dampingIa s k)) := by
  have hr : ∀ i, r i = (withProfiles s (uD i) (uS i)).powerSpectrumMiRaw := fun i => by
    have := (C03_no_error (withProfiles s (uD i) (uS i)) hresp).2.2.1
    rw [h i] at this
    exact Except.ok.inj this
  have ha : ∀ m < s.nm, Tendsto (fun _ : ι => s.satelliteAlignmentProfile b z k m) l (𝓝 (s.satelliteAlignmentProfile b z k m)) :=
    fun m _ => tendsto_const_nhds
  have hg : ∀ m < s.nm, Tendsto (fun _ : ι => s.centralAlignmentProfile b z k m + s.satelliteAlignmentProfile b z k m) l
    (𝓝 (s.centralAlignmentProfile b z k m + s.satelliteAlignmentProfile b z k m)) := fun m _ => tendsto_const_nhds
  have h1 := ((lim_1h (s := s) (z := z) (fun m hm => profile_g (b := b) V hm) ha).const_mul (-1)).mul_const (s.oneHaloTruncationIa k)
  have hc := (lim_im V).const_mul (-1 * s.pkLin z k * s.icAlignTerm b z k)
  have hs := (lim_im V).const_mul (-1 * s.pkLin z k * s.isAlignTerm b z k)
  have e : ∀ T, -1 * s.pkLin z k * (s.icAlignTerm b z k + s.isAlignTerm b z k) * smooth s z * T
      = -1 * s.pkLin z k * s.icAlignTerm b z k * s.aTerm z * T + -1 * s.pkLin z k * s.isAlignTerm b z k * s.aTerm z * T := fun T => by
    rw [show smooth s z = s.aTerm z from rfl]
    ring
  have hm' : ∀ i, (withProfiles s (uD i) (uS i)).nonlinearMode = s.nonlinearMode := fun _ => rfl
  simp only [hr, e]
  by_cases hb : s.nonlinearMode = .bnl
  · simp only [powerSpectrumMiRaw, hm', dampingIa, hb, if_true, mul_one]
    refine ⟨h1, ?_⟩
    have h3 := ((lim_iNL (s := s) (z := z) (k := k) h0 hg (fun m hm => profile_2h V hm)).const_mul (s.pkLin z k))
    have := (hc.add hs).sub h3
    rw [iNL_zero_right, mul_zero, sub_zero] at this
    exact this
  · have := (hc.mul_const (s.twoHaloTruncationIa k)).add (hs.mul_const (s.twoHaloTruncationIa k))
    simp only [powerSpectrumMiRaw, hm', dampingIa, hb, if_false]
    cases hn : s.nonlinearMode <;> first
      | exact absurd hn hb
      | exact absurd hn hf
      | exact ⟨h1, this⟩

theorem shrinks (a : ℝ) : Tendsto (fun i : ℕ => a / ((i : ℝ) + 1)) atTop (𝓝 0) := by
  have := (tendsto_one_div_add_atTop_nhds_zero_nat (𝕜 := ℝ)).const_mul a
  simpa [div_eq_mul_inv] using this

/-- the hypotheses are met: profiles that vanish without ever being zero, and all four spectra -/
example : Vanish atTop demo (fun (i : ℕ) z k m => demo.uDm z k m / ((i : ℝ) + 1)) (fun (i : ℕ) z k m => demo.uSat z k m / ((i : ℝ) + 1)) 0 1 ∧
    demo.uDm 0 1 0 ≠ 0 ∧ 0 < demo.nm ∧ demo.response = false ∧ demo.nonlinearMode = .none ∧ demo.hmcodeIngredients = .none ∧
    Inputs demo ∧
    (∀ uD uS, (∃ r, (withProfiles demo uD uS).powerSpectrumMm = .ok r) ∧ (∃ r, (withProfiles demo uD uS).powerSpectrumGm = .ok r) ∧
      (∃ r, (withProfiles demo uD uS).powerSpectrumGg = .ok r) ∧ ∃ r, (withProfiles demo uD uS).powerSpectrumMi = .ok r) := by
  refine ⟨⟨fun m _ => shrinks _, fun m _ => shrinks _⟩, ?_, by simp [demo], rfl, rfl, rfl, demo_inputs,
    fun uD uS => ⟨⟨_, rfl⟩, ⟨_, rfl⟩, ⟨_, rfl⟩, ⟨_, rfl⟩⟩⟩
  simp only [demo, Hmi.uDm, demoRaw]
  norm_num

/-- the hypotheses are met with the non-linear halo bias -/
example : ({ demo with nonlinearMode := .bnl } : Spectra).response = false ∧ ({ demo with nonlinearMode := .bnl } : Spectra).nonlinearMode = .bnl ∧
    0 < ({ demo with nonlinearMode := .bnl } : Spectra).nm ∧ ∀ uD uS, ∃ r, (withProfiles { demo with nonlinearMode := .bnl } uD uS).powerSpectrumGg = .ok r :=
  ⟨rfl, rfl, by simp [demo], fun uD uS => ⟨_, rfl⟩⟩

/-- the demonstration object in the mode of HMCode -/
noncomputable def demoHmcode : Spectra := { demo with nonlinearMode := .hmcode, hmcodeIngredients := .mead2020 }

/-- the hypotheses are met in that mode -/
example : demoHmcode.response = false ∧ demoHmcode.nonlinearMode = .hmcode ∧ demoHmcode.hmcodeIngredients = .mead2020 ∧
    (∀ uD uS, ∃ r, (withProfiles demoHmcode uD uS).powerSpectrumMm = .ok r) ∧ 0 < demoHmcode.kVec 1 := by
  refine ⟨rfl, rfl, rfl, fun uD uS => ?_, by simp only [demoHmcode, demo]; norm_num⟩
  have e1 : (withProfiles demoHmcode uD uS).response = false := rfl
  have e2 : (withProfiles demoHmcode uD uS).nonlinearMode = .hmcode := rfl
  have e3 : (withProfiles demoHmcode uD uS).hmcodeIngredients = .mead2020 := rfl
  simp [powerSpectrumMm, powerSpectrumMmRaw, e1, e2, e3]

end Verif.Pk.SmallScales

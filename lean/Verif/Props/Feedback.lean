import Verif.Props.ProfileOrder
import Verif.Props.HodChecked
import Mathlib.Analysis.Complex.ExponentialBounds

/-! Property C147: what baryons do to the power, and how much at most. -/

namespace Verif.Pk.Feedback

open Verif.Lib Verif.Spec Verif.Pk Spectra ProfileOrder

/-- the same halo model with other baryon settings: recipe, AGN temperature, gas mass, stars as point masses, stellar fractions -/
def withBaryons (s : Spectra) (i : HMIngr) (T mb : ℝ) (pm : Bool) (f : ℕ → ℕ → ℕ → ℝ) (fm : ℕ → ℕ → ℝ) : Spectra :=
  { s with hmcodeIngredients := i, log10TAGN := T, mb := mb, pointmass := pm, fstar := f, fstarMm := fm }

/-- `t` differs from `s` in its baryon settings only -/
def SameHalos (s t : Spectra) : Prop := ∃ i T mb pm f fm, t = withBaryons s i T mb pm f fm

variable {s t : Spectra}

theorem smoothing_homogeneous (H : Inputs s) (z k : ℕ) {c p q : ℝ} (hc : 0 ≤ c) (hp : 0 ≤ p) (hq : 0 ≤ q) :
    s.transitionSmoothing z k (c * p) (c * q) = c * s.transitionSmoothing z k p q := by
  rw [transitionSmoothing_eq s z k (H.kVec k) (mul_nonneg hc hp) (mul_nonneg hc hq),
    transitionSmoothing_eq s z k (H.kVec k) hp hq]
  have he := smoothingExponent_pos s z
  rw [Real.mul_rpow hc hp, Real.mul_rpow hc hq, ← mul_add,
    Real.mul_rpow (Real.rpow_nonneg hc _) (add_nonneg (Real.rpow_nonneg hp _) (Real.rpow_nonneg hq _)),
    ← Real.rpow_mul hc, mul_one_div_cancel he.ne', Real.rpow_one]

theorem smoothing_mono_right (H : Inputs s) (z k : ℕ) {p q q' : ℝ} (hp : 0 ≤ p) (hq : 0 ≤ q) (hqq : q ≤ q') :
    s.transitionSmoothing z k p q ≤ s.transitionSmoothing z k p q' := by
  rw [transitionSmoothing_eq s z k (H.kVec k) hp hq, transitionSmoothing_eq s z k (H.kVec k) hp (hq.trans hqq)]
  have he := smoothingExponent_pos s z
  refine Real.rpow_le_rpow (add_nonneg (Real.rpow_nonneg hp _) (Real.rpow_nonneg hq _)) ?_ (by positivity)
  exact add_le_add le_rfl (Real.rpow_le_rpow hq hqq he.le)

/-- matter: profiles that are at least `c` times as high give at least `c²` times the power -/
theorem mm_scaled (H : Inputs s) (hst : SameHalos s t) (hresp : s.response = false) {c : ℝ} (hc : 0 ≤ c) (hc1 : c ≤ 1)
    (hmode : s.nonlinearMode = .bnl → c = 1) (hmead : ∀ z k, 0 ≤ s.twoHaloTruncationMead z k) {r r' : PkResult}
    (hr : s.powerSpectrumMm = .ok r) (hr' : t.powerSpectrumMm = .ok r') (b z k : ℕ)
    (hp : ∀ m < s.nm, c * s.matterProfile1hMm z k m ≤ t.matterProfile1hMm z k m) :
    c ^ 2 * r.pk1h b z k ≤ r'.pk1h b z k ∧ r'.pk2h b z k = r.pk2h b z k ∧ c ^ 2 * r.pkTot b z k ≤ r'.pkTot b z k := by
  obtain ⟨i, T, mb, pm, f, fm, rfl⟩ := hst
  set t := withBaryons s i T mb pm f fm
  have c0 : 0 ≤ c ^ 2 := sq_nonneg c
  have c2 : c ^ 2 ≤ 1 := pow_le_one₀ hc hc1
  have h1 : c ^ 2 * s.compute1hTerm (s.matterProfile1hMm z k) (s.matterProfile1hMm z k) z
      ≤ t.compute1hTerm (t.matterProfile1hMm z k) (t.matterProfile1hMm z k) z := by
    unfold compute1hTerm
    rw [← simpson_smul]
    refine simpson_mono H.grid fun m hm => ?_
    rw [← mul_div_assoc, ← mul_assoc]
    refine div_le_div_of_nonneg_right (mul_le_mul_of_nonneg_right ?_ (H.dndlnm z m hm)) (H.mass m hm).le
    have n := mul_nonneg hc (profileMm_nonneg H (z := z) (k := k) hm)
    have := mul_le_mul (hp m hm) (hp m hm) n (n.trans (hp m hm))
    calc _ = c * s.matterProfile1hMm z k m * (c * s.matterProfile1hMm z k m) := by ring
      _ ≤ _ := this
  have h0 : 0 ≤ s.compute1hTerm (s.matterProfile1hMm z k) (s.matterProfile1hMm z k) z :=
    H.toNonnegInputs.oneH z _ _ (fun m hm => profileMm_nonneg H hm) (fun m hm => profileMm_nonneg H hm)
  have hi0 := H.toNonnegInputs.im_nonneg z k
  have hP := H.pkLin z k
  have hT := oneHaloTruncation_nonneg s k
  have hT2 := trunc2_nonneg H k
  have a1 : c ^ 2 * (s.compute1hTerm (s.matterProfile1hMm z k) (s.matterProfile1hMm z k) z * s.oneHaloTruncation k)
      ≤ t.compute1hTerm (t.matterProfile1hMm z k) (t.matterProfile1hMm z k) z * s.oneHaloTruncation k := by
    rw [← mul_assoc]; exact mul_le_mul_of_nonneg_right h1 hT
  have a2 : c ^ 2 * (s.pkLin z k * s.imTerm z k * s.imTerm z k * s.twoHaloTruncation k)
      ≤ s.pkLin z k * s.imTerm z k * s.imTerm z k * s.twoHaloTruncation k :=
    mul_le_of_le_one_left (mul_nonneg (mul_nonneg (mul_nonneg hP hi0) hi0) hT2) c2
  have hs' : t.response = false := hresp
  unfold powerSpectrumMm at hr hr'
  rw [if_neg (by simp [hresp])] at hr
  rw [if_neg (by simp [hs'])] at hr'
  unfold powerSpectrumMmRaw at hr hr'
  have hm' : t.nonlinearMode = s.nonlinearMode := rfl
  rw [hm'] at hr'
  cases hm : s.nonlinearMode <;> simp only [hm] at hr hr'
  · cases hr; cases hr'
    refine ⟨a1, rfl, ?_⟩
    show c ^ 2 * (_ + _) ≤ _ + _
    rw [mul_add]; exact add_le_add a1 a2
  · cases hr; cases hr'
    refine ⟨a1, rfl, ?_⟩
    show c ^ 2 * (_ + _) ≤ _ + _
    have e1 : c ^ 2 = 1 := by rw [hmode hm, one_pow]
    rw [e1, one_mul] at a1 ⊢
    exact add_le_add a1 le_rfl
  · split_ifs at hr hr'
    cases hr; cases hr'
    have q0 : 0 ≤ s.pkLin z k * s.twoHaloTruncationMead z k := mul_nonneg hP (hmead z k)
    have p0 := mul_nonneg h0 (oneHaloTruncationMead_nonneg s z k)
    have b1 : c ^ 2 * (s.compute1hTerm (s.matterProfile1hMm z k) (s.matterProfile1hMm z k) z * s.oneHaloTruncationMead z k)
        ≤ t.compute1hTerm (t.matterProfile1hMm z k) (t.matterProfile1hMm z k) z * s.oneHaloTruncationMead z k := by
      rw [← mul_assoc]; exact mul_le_mul_of_nonneg_right h1 (oneHaloTruncationMead_nonneg s z k)
    refine ⟨b1, rfl, ?_⟩
    have e := smoothing_homogeneous H z k c0 p0 q0
    have x := smoothing_mono H z k (mul_nonneg c0 p0) b1 (mul_nonneg c0 q0)
    have y := smoothing_mono_right H z k ((mul_nonneg c0 p0).trans b1) (mul_nonneg c0 q0) (mul_le_of_le_one_left q0 c2)
    calc _ = _ := e.symm
      _ ≤ _ := x
      _ ≤ _ := y
  · cases hr; cases hr'
    refine ⟨a1, rfl, ?_⟩
    show c ^ 2 * (_ + _) ≤ _ + _
    rw [mul_add]; exact add_le_add a1 a2

/-- galaxy-matter and matter-alignment: the same with `c`; the others do not see the baryons -/
theorem gm_scaled (H : Inputs s) (hst : SameHalos s t) (hresp : s.response = false) {c : ℝ} (hc1 : c ≤ 1)
    (hmode : s.nonlinearMode = .bnl → c = 1) (b z k : ℕ)
    (hp : ∀ m < s.nm, c * s.matterProfile1hG b z k m ≤ t.matterProfile1hG b z k m) :
    ∃ gm gm' mi mi', s.powerSpectrumGm = .ok gm ∧ t.powerSpectrumGm = .ok gm' ∧ s.powerSpectrumMi = .ok mi ∧
      t.powerSpectrumMi = .ok mi' ∧
      (c * gm.pk1h b z k ≤ gm'.pk1h b z k ∧ gm'.pk2h b z k = gm.pk2h b z k ∧ c * gm.pkTot b z k ≤ gm'.pkTot b z k) ∧
      (mi'.pk1h b z k ≤ c * mi.pk1h b z k ∧ mi'.pk2h b z k = mi.pk2h b z k ∧ (c = 1 → mi'.pkTot b z k ≤ mi.pkTot b z k)) ∧
      t.powerSpectrumGg = s.powerSpectrumGg ∧ t.powerSpectrumIi = s.powerSpectrumIi ∧
      t.powerSpectrumGi = s.powerSpectrumGi := by
  obtain ⟨i, T, mb, pm, f, fm, rfl⟩ := hst
  set t := withBaryons s i T mb pm f fm
  have hs' : t.response = false := hresp
  have hm' : t.nonlinearMode = s.nonlinearMode := rfl
  obtain ⟨a₁, a₂, a₃, a₄, a₅⟩ := C03_no_error s hresp
  obtain ⟨b₁, b₂, b₃, b₄, b₅⟩ := C03_no_error t hs'
  have one : ∀ u : ℕ → ℝ, (∀ m < s.nm, 0 ≤ u m) → c * s.compute1hTerm u (s.matterProfile1hG b z k) z
      ≤ t.compute1hTerm u (t.matterProfile1hG b z k) z := by
    intro u hu
    unfold compute1hTerm
    rw [← simpson_smul]
    refine simpson_mono H.grid fun m hm => ?_
    rw [← mul_div_assoc, ← mul_assoc]
    refine div_le_div_of_nonneg_right (mul_le_mul_of_nonneg_right ?_ (H.dndlnm z m hm)) (H.mass m hm).le
    calc _ = u m * (c * s.matterProfile1hG b z k m) := by ring
      _ ≤ _ := mul_le_mul_of_nonneg_left (hp m hm) (hu m hm)
  refine ⟨_, _, _, _, a₂, b₂, a₃, b₃, ?_, ?_, ?_, ?_, ?_⟩
  · have hT := oneHaloTruncation_nonneg s k
    have hT2 := trunc2_nonneg H k
    have hP := H.pkLin z k
    have ic0 := ic_nonneg H b z k
    have is0 := is_nonneg H b z k
    have im0 := H.toNonnegInputs.im_nonneg z k
    have x := mul_le_mul_of_nonneg_right (one _ (H.toNonnegInputs.cenGal b z k)) hT
    have y := mul_le_mul_of_nonneg_right (one _ fun m hm => sat_nonneg H (b := b) (z := z) (k := k) hm) hT
    have p := mul_le_of_le_one_left (add_nonneg (mul_nonneg (mul_nonneg (mul_nonneg hP ic0) im0) hT2)
      (mul_nonneg (mul_nonneg (mul_nonneg hP is0) im0) hT2)) hc1
    have one' : c * s.powerSpectrumGmRaw.pk1h b z k ≤ t.powerSpectrumGmRaw.pk1h b z k := by
      show c * (_ + _) ≤ _ + _
      rw [mul_add]
      exact add_le_add (by rw [← mul_assoc]; exact x) (by rw [← mul_assoc]; exact y)
    have two : t.powerSpectrumGmRaw.pk2h b z k = s.powerSpectrumGmRaw.pk2h b z k := rfl
    refine ⟨one', two, ?_⟩
    show c * (s.powerSpectrumGmRaw.pk1h b z k + s.powerSpectrumGmRaw.pk2h b z k)
      ≤ t.powerSpectrumGmRaw.pk1h b z k + t.powerSpectrumGmRaw.pk2h b z k
    rw [two, mul_add]
    refine add_le_add one' ?_
    by_cases hb : s.nonlinearMode = .bnl
    · rw [hmode hb, one_mul]
    · simp only [powerSpectrumGmRaw, if_neg hb]
      exact p
  · have hT := oneHaloTruncationIa_nonneg s k
    have x := mul_le_mul_of_nonneg_right (one _ (H.toNonnegInputs.satAlign b z k)) hT
    have comm : ∀ (w : Spectra) (u v : ℕ → ℝ), w.compute1hTerm u v z = w.compute1hTerm v u z := by
      intro w u v; unfold compute1hTerm; congr 1; funext m; ring
    have e1 : t.satelliteAlignmentProfile b z k = s.satelliteAlignmentProfile b z k := rfl
    have e3 : t.oneHaloTruncationIa k = s.oneHaloTruncationIa k := rfl
    have main : -1 * t.compute1hTerm (t.matterProfile1hG b z k) (t.satelliteAlignmentProfile b z k) z * t.oneHaloTruncationIa k
        ≤ c * (-1 * s.compute1hTerm (s.matterProfile1hG b z k) (s.satelliteAlignmentProfile b z k) z * s.oneHaloTruncationIa k) := by
      rw [comm, comm s, e1, e3]; linarith
    have e : c = 1 → -1 * t.compute1hTerm (t.matterProfile1hG b z k) (t.satelliteAlignmentProfile b z k) z
        * t.oneHaloTruncationIa k
        ≤ -1 * s.compute1hTerm (s.matterProfile1hG b z k) (s.satelliteAlignmentProfile b z k) z
          * s.oneHaloTruncationIa k := by
      intro h; rw [h, one_mul] at main; exact main
    unfold powerSpectrumMiRaw
    rw [hm']
    cases hm : s.nonlinearMode
    · exact ⟨main, rfl, fun h => add_le_add (add_le_add (e h) le_rfl) le_rfl⟩
    · exact ⟨main, rfl, fun h => sub_le_sub (add_le_add (add_le_add (e h) le_rfl) le_rfl) le_rfl⟩
    · exact ⟨main, rfl, fun h => add_le_add (add_le_add (e h) le_rfl) le_rfl⟩
    · exact ⟨main, rfl, fun h => add_le_add (e h) le_rfl⟩
  · rw [a₁, b₁]; rfl
  · rw [a₄, b₄]; rfl
  · rw [a₅, b₅]; rfl

/-! ## one halo -/

theorem gas_mono {M mb mb' : ℝ} (h : 0 < mb) (hmb : mb ≤ mb') :
    (M / mb') ^ 2 / (1 + (M / mb') ^ 2) ≤ (M / mb) ^ 2 / (1 + (M / mb) ^ 2) := by
  have h' := h.trans_le hmb
  have q : (M / mb') ^ 2 ≤ (M / mb) ^ 2 := by
    rw [div_pow, div_pow]
    exact div_le_div_of_nonneg_left (sq_nonneg M) (by positivity) (by gcongr)
  have a : 0 ≤ (M / mb') ^ 2 := sq_nonneg _
  rw [div_le_div_iff₀ (by linarith) (by linarith)]
  nlinarith

theorem gas_strict {M mb mb' : ℝ} (hM : 0 < M) (h : 0 < mb) (hmb : mb < mb') :
    (M / mb') ^ 2 / (1 + (M / mb') ^ 2) < (M / mb) ^ 2 / (1 + (M / mb) ^ 2) := by
  have h' := h.trans hmb
  have q : (M / mb') ^ 2 < (M / mb) ^ 2 := by
    rw [div_pow, div_pow]
    exact div_lt_div_of_pos_left (by positivity) (by positivity) (by gcongr)
  have a : 0 ≤ (M / mb') ^ 2 := sq_nonneg _
  rw [div_lt_div_iff₀ (by linarith) (by linarith)]
  nlinarith

theorem gas_range (M mb : ℝ) : 0 ≤ (M / mb) ^ 2 / (1 + (M / mb) ^ 2) ∧ (M / mb) ^ 2 / (1 + (M / mb) ^ 2) ≤ 1 := by
  have a : 0 ≤ (M / mb) ^ 2 := sq_nonneg _
  exact ⟨by positivity, (div_le_one (by linarith)).2 (by linarith)⟩

/-- more gas expelled and fewer stars: less matter in the halo on every scale -/
theorem fit_stronger (hst : SameHalos s t) {M ρ u mb mb' f f' : ℝ} (hM : 0 ≤ M) (hρ : 0 < ρ) (hu0 : 0 ≤ u) (hu1 : u ≤ 1)
    (h : 0 < mb) (hmb : mb ≤ mb') (hf : f' ≤ f) (hfb : f ≤ s.omegaB / s.omegaM) :
    t.computeMatterProfileFit M ρ u mb' f' ≤ s.computeMatterProfileFit M ρ u mb f := by
  obtain ⟨i, T, b, pm, g, gm, rfl⟩ := hst
  have w := gas_mono (M := M) h hmb
  have r := gas_range M mb
  have r' := gas_range M mb'
  unfold computeMatterProfileFit fgFit
  simp only [withBaryons, mul_div_assoc]
  set x := (M / mb) ^ 2 / (1 + (M / mb) ^ 2)
  set y := (M / mb') ^ 2 / (1 + (M / mb') ^ 2)
  have hx : 0 ≤ M / ρ := div_nonneg hM hρ.le
  have xu : x * u ≤ 1 := mul_le_one₀ r.2 hu0 hu1
  have k1 : 0 ≤ (f - f') * (1 - x * u) := mul_nonneg (by linarith) (by linarith)
  have k2 : 0 ≤ (s.omegaB / s.omegaM - f') * ((x - y) * u) :=
    mul_nonneg (by linarith) (mul_nonneg (by linarith) hu0)
  have := mul_nonneg (add_nonneg k1 k2) hx
  linarith

theorem fit_strict (hst : SameHalos s t) {M ρ u mb mb' f f' : ℝ} (hM : 0 < M) (hρ : 0 < ρ) (hu0 : 0 < u) (hu1 : u ≤ 1)
    (h : 0 < mb) (hmb : mb < mb') (hf : f' ≤ f) (hfb : f < s.omegaB / s.omegaM) :
    t.computeMatterProfileFit M ρ u mb' f' < s.computeMatterProfileFit M ρ u mb f := by
  obtain ⟨i, T, b, pm, g, gm, rfl⟩ := hst
  have w := gas_strict (M := M) hM h hmb
  have r := gas_range M mb
  have r' := gas_range M mb'
  unfold computeMatterProfileFit fgFit
  simp only [withBaryons, mul_div_assoc]
  set x := (M / mb) ^ 2 / (1 + (M / mb) ^ 2)
  set y := (M / mb') ^ 2 / (1 + (M / mb') ^ 2)
  have hx : 0 < M / ρ := div_pos hM hρ
  have xu : x * u ≤ 1 := mul_le_one₀ r.2 hu0.le hu1
  have k1 : 0 ≤ (f - f') * (1 - x * u) := mul_nonneg (by linarith) (by linarith)
  have k2 : 0 < (s.omegaB / s.omegaM - f') * ((x - y) * u) :=
    mul_pos (by linarith) (mul_pos (by linarith) hu0)
  have := mul_pos (add_pos_of_nonneg_of_pos k1 k2) hx
  linarith

/-- a halo keeps its cold matter -/
theorem fit_ge_cold (s : Spectra) {M ρ u mb f : ℝ} (hM : 0 ≤ M) (hρ : 0 < ρ) (hu : 0 ≤ u) (h0 : 0 ≤ f)
    (hfb : f ≤ s.omegaB / s.omegaM) : s.omegaC / s.omegaM * (M / ρ * u) ≤ s.computeMatterProfileFit M ρ u mb f := by
  have r := gas_range M mb
  unfold computeMatterProfileFit fgFit
  rw [mul_div_assoc]
  have hx : 0 ≤ M / ρ := div_nonneg hM hρ.le
  have k1 : 0 ≤ (s.omegaB / s.omegaM - f) * ((M / mb) ^ 2 / (1 + (M / mb) ^ 2)) * (M / ρ * u) :=
    mul_nonneg (mul_nonneg (by linarith) r.1) (mul_nonneg hx hu)
  have k2 := mul_nonneg h0 hx
  linarith

/-! ## the AGN temperature -/

theorem log_ten_le : Real.log 10 ≤ 2.3295 := by
  have e : (10 : ℝ) = 2 ^ 3 * (5 / 4) := by norm_num
  rw [e, Real.log_mul (by norm_num) (by norm_num), Real.log_pow]
  have a := Real.log_two_lt_d9
  have b := Real.log_le_sub_one_of_pos (show (0 : ℝ) < 5 / 4 by norm_num)
  push_cast
  linarith

/-- hotter AGN leave fewer stars, up to redshift 2.65 -/
theorem fs_anti (s t : Spectra) {z : ℝ} (hz0 : 0 ≤ z) (hz : z ≤ 2.65) (hT : 7.3 ≤ s.log10TAGN)
    (hTT : s.log10TAGN ≤ t.log10TAGN) : t.fs z ≤ s.fs z := by
  unfold fs
  set θ := s.log10TAGN - 7.8 with hθ
  set θ' := t.log10TAGN - 7.8 with hθ'
  have hd : 0 ≤ θ' - θ := by rw [hθ, hθ']; linarith
  have hlo : -0.5 ≤ θ := by rw [hθ]; linarith
  have hsplit : (10 : ℝ) ^ (z * (0.409 + 0.0224 * θ')) =
      (10 : ℝ) ^ (z * (0.409 + 0.0224 * θ)) * Real.exp (z * 0.0224 * (θ' - θ) * Real.log 10) := by
    rw [Real.rpow_def_of_pos (by norm_num), Real.rpow_def_of_pos (by norm_num), ← Real.exp_add]
    congr 1; ring
  have hp : 0 < (10 : ℝ) ^ (z * (0.409 + 0.0224 * θ)) := Real.rpow_pos_of_pos (by norm_num) _
  rw [hsplit]
  set P := (10 : ℝ) ^ (z * (0.409 + 0.0224 * θ))
  set E := Real.exp (z * 0.0224 * (θ' - θ) * Real.log 10) with hE
  have hE0 : 0 < E := Real.exp_pos _
  have key : (2.01 - 0.3 * θ') * E ≤ 2.01 - 0.3 * θ := by
    by_cases ha : 2.01 - 0.3 * θ' ≤ 0
    · by_cases ha' : 0 ≤ 2.01 - 0.3 * θ
      · exact (mul_nonpos_of_nonpos_of_nonneg ha hE0.le).trans ha'
      · have h1 : 1 ≤ E := by
          rw [hE]; apply Real.one_le_exp
          have := Real.log_pos (show (1 : ℝ) < 10 by norm_num)
          positivity
        nlinarith
    · have ha := not_le.1 ha
      set A := 2.01 - 0.3 * θ with hA
      have A0 : 0 < A := by rw [hA]; linarith
      have A1 : A ≤ 2.16 := by rw [hA]; linarith
      have x1 : z * 0.0224 * (θ' - θ) * Real.log 10 ≤ 0.3 * (θ' - θ) / A := by
        rw [le_div_iff₀ A0]
        have l := log_ten_le
        have l0 := Real.log_pos (show (1 : ℝ) < 10 by norm_num)
        have b1 : z * Real.log 10 ≤ 2.65 * 2.3295 := mul_le_mul hz l l0.le (by norm_num)
        have b2 : z * Real.log 10 * A ≤ 2.65 * 2.3295 * 2.16 := mul_le_mul b1 A1 A0.le (by norm_num)
        have b3 := mul_le_mul_of_nonneg_right b2 hd
        nlinarith
      have x2 : 1 - 0.3 * (θ' - θ) / A ≤ Real.exp (-(0.3 * (θ' - θ) / A)) := by
        have := Real.add_one_le_exp (-(0.3 * (θ' - θ) / A)); linarith
      have x3 : E ≤ Real.exp (0.3 * (θ' - θ) / A) := Real.exp_le_exp.2 x1
      have x4 : 2.01 - 0.3 * θ' = A * (1 - 0.3 * (θ' - θ) / A) := by
        have q : A * (0.3 * (θ' - θ) / A) = 0.3 * (θ' - θ) := mul_div_cancel₀ _ A0.ne'
        have q' : A * (1 - 0.3 * (θ' - θ) / A) = A - 0.3 * (θ' - θ) := by rw [mul_sub, mul_one, q]
        rw [q', hA]; ring
      have x5 : A * (1 - 0.3 * (θ' - θ) / A) * E ≤
          A * Real.exp (-(0.3 * (θ' - θ) / A)) * Real.exp (0.3 * (θ' - θ) / A) := by
        refine mul_le_mul (mul_le_mul_of_nonneg_left x2 A0.le) x3 hE0.le ?_
        positivity
      rw [x4]
      have x6 : A * Real.exp (-(0.3 * (θ' - θ) / A)) * Real.exp (0.3 * (θ' - θ) / A) = A := by
        rw [mul_assoc, ← Real.exp_add, neg_add_cancel, Real.exp_zero, mul_one]
      exact x5.trans_eq x6
  have := mul_le_mul_of_nonneg_right key hp.le
  nlinarith

theorem fs_nonneg (s : Spectra) (z : ℝ) (hT : s.log10TAGN ≤ 14.5) : 0 ≤ s.fs z := by
  unfold fs
  exact mul_nonneg (mul_nonneg (by linarith) (by norm_num)) (Real.rpow_nonneg (by norm_num) _)

theorem mbAgn_mono (s t : Spectra) {z : ℝ} (hz : 0 ≤ z) (h : s.log10TAGN ≤ t.log10TAGN) : s.mbAgn z ≤ t.mbAgn z := by
  unfold mbAgn
  refine mul_le_mul ?_ ?_ (Real.rpow_nonneg (by norm_num) _) (Real.rpow_nonneg (by norm_num) _)
  · exact Real.rpow_le_rpow_of_exponent_le (by norm_num) (by linarith)
  · exact Real.rpow_le_rpow_of_exponent_le (by norm_num) (mul_le_mul_of_nonneg_left (by linarith) hz)

theorem mbAgn_strict (s t : Spectra) {z : ℝ} (hz : 0 ≤ z) (h : s.log10TAGN < t.log10TAGN) : s.mbAgn z < t.mbAgn z := by
  unfold mbAgn
  refine mul_lt_mul_of_pos_of_nonneg' ?_ ?_ (Real.rpow_pos_of_pos (by norm_num) _) (Real.rpow_nonneg (by norm_num) _)
  · exact Real.rpow_lt_rpow_of_exponent_lt (by norm_num) (by linarith)
  · exact Real.rpow_le_rpow_of_exponent_le (by norm_num) (mul_le_mul_of_nonneg_left (by linarith) hz)

/-! ## C147 -/

/-- feedback is stronger in `t`: the same recipe with a higher gas mass scale, no more stars, or hotter AGN (the recipe
that reads the temperature is taken at redshifts up to 2.65) -/
structure Stronger (s t : Spectra) : Prop where
  halos : SameHalos s t
  recipe : t.hmcodeIngredients = s.hmcodeIngredients
  pointmass : t.pointmass = s.pointmass
  gas : s.mb ≤ t.mb
  stars : ∀ b z, ∀ m < s.nm, 0 ≤ t.fstar b z m ∧ t.fstar b z m ≤ s.fstar b z m
  starsMm : ∀ z, ∀ m < s.nm, 0 ≤ t.fstarMm z m ∧ t.fstarMm z m ≤ s.fstarMm z m
  agn : s.hmcodeIngredients = .mead2020Feedback →
    7.3 ≤ s.log10TAGN ∧ s.log10TAGN ≤ t.log10TAGN ∧ t.log10TAGN ≤ 14.5
  redshifts : s.hmcodeIngredients = .mead2020Feedback → ∀ z, 0 ≤ s.zVec z ∧ s.zVec z ≤ 2.65

theorem Stronger.profileMm (h : Stronger s t) (H : Inputs s) (hu : Bounded s) {z k m : ℕ} (hm : m < s.nm) :
    t.matterProfile1hMm z k m ≤ s.matterProfile1hMm z k m := by
  obtain ⟨i, T, b, pm, g, gm, rfl⟩ := h.halos
  set t := withBaryons s i T b pm g gm
  have hM := (H.mass m hm).le
  unfold matterProfile1hMm
  rw [h.recipe]
  cases hi : s.hmcodeIngredients
  · exact le_rfl
  · exact le_rfl
  · have A := h.agn hi
    have Z := h.redshifts hi z
    exact fit_stronger h.halos hM (H.density z) (H.uDm z k m hm) (hu z k m hm).1 (mbAgn_pos s _)
      (mbAgn_mono s t Z.1 A.2.1) (fs_anti s t Z.1 Z.2 A.1 A.2.1) (H.stars hi z).2
  · exact fit_stronger h.halos hM (H.density z) (H.uDm z k m hm) (hu z k m hm).1 H.mb h.gas (h.starsMm z m hm).2
      (H.starsMm hi z m hm).2

theorem Stronger.profileG (h : Stronger s t) (H : Inputs s) (hu : Bounded s) {b z k m : ℕ} (hm : m < s.nm) :
    t.matterProfile1hG b z k m ≤ s.matterProfile1hG b z k m := by
  obtain ⟨i, T, mb, pm, g, gm, rfl⟩ := h.halos
  set t := withBaryons s i T mb pm g gm
  have hM := (H.mass m hm).le
  unfold matterProfile1hG
  rw [h.recipe, h.pointmass]
  cases hi : s.hmcodeIngredients
  · simp only
    split_ifs with hp
    · exact fit_stronger h.halos hM (H.density z) (H.uDm z k m hm) (hu z k m hm).1 H.mb h.gas (h.stars b z m hm).2
        (H.starsObs (Or.inr hp) b z m hm).2
    · exact le_rfl
  · exact le_rfl
  · have A := h.agn hi
    have Z := h.redshifts hi z
    exact fit_stronger h.halos hM (H.density z) (H.uDm z k m hm) (hu z k m hm).1 (mbAgn_pos s _)
      (mbAgn_mono s t Z.1 A.2.1) (fs_anti s t Z.1 Z.2 A.1 A.2.1) (H.stars hi z).2
  · exact fit_stronger h.halos hM (H.density z) (H.uDm z k m hm) (hu z k m hm).1 H.mb h.gas (h.stars b z m hm).2
      (H.starsObs (Or.inl hi) b z m hm).2

theorem SameHalos.symm (h : SameHalos s t) : SameHalos t s := by
  obtain ⟨i, T, mb, pm, f, fm, rfl⟩ := h
  exact ⟨s.hmcodeIngredients, s.log10TAGN, s.mb, s.pointmass, s.fstar, s.fstarMm, rfl⟩

/-- other baryons leave admissible ingredients admissible, as long as the stars are within the baryon budget -/
theorem inputs_of (h : SameHalos s t) (H : Inputs s) (hmb : 0 < t.mb)
    (h1 : t.hmcodeIngredients = .mead2020Feedback → ∀ z, 0 ≤ t.fs (t.zVec z) ∧ t.fs (t.zVec z) ≤ t.omegaB / t.omegaM)
    (h2 : t.hmcodeIngredients = .fit ∨ t.pointmass = true → ∀ b z, ∀ m < t.nm,
      0 ≤ t.fstar b z m ∧ t.fstar b z m ≤ t.omegaB / t.omegaM)
    (h3 : t.hmcodeIngredients = .fit → ∀ z, ∀ m < t.nm, 0 ≤ t.fstarMm z m ∧ t.fstarMm z m ≤ t.omegaB / t.omegaM) :
    Inputs t := by
  obtain ⟨i, T, mb, pm, f, fm, rfl⟩ := h
  exact
    { grid := H.grid, nm_pos := H.nm_pos, mass := H.mass, dndlnm := H.dndlnm, bias := H.bias, density := H.density
      uDm := H.uDm, fC := H.fC, fS := H.fS, hodCen := H.hodCen, hodSat := H.hodSat, nCen := H.nCen, nSat := H.nSat
      nTot := H.nTot, avgMass := H.avgMass, wkm := H.wkm, gi := H.gi, growth := H.growth, pivotCen := H.pivotCen
      pivotSat := H.pivotSat, aTerm := H.aTerm, pkLin := H.pkLin, omegaC := H.omegaC, omegaM := H.omegaM, mb := hmb
      stars := h1, starsObs := h2, uSat := H.uSat, poisson := H.poisson, kVec := H.kVec, starsMm := h3 }

theorem Stronger.inputs (h : Stronger s t) (H : Inputs s) : Inputs t := by
  obtain ⟨i, T, mb, pm, f, fm, rfl⟩ := h.halos
  set t := withBaryons s i T mb pm f fm with ht
  refine inputs_of h.halos H (H.mb.trans_le h.gas) ?_ ?_ ?_
  · intro hi z
    have hi' := h.recipe.symm.trans hi
    have A := h.agn hi'
    have Z := h.redshifts hi' z
    exact ⟨fs_nonneg t _ A.2.2, (fs_anti s t Z.1 Z.2 A.1 A.2.1).trans (H.stars hi' z).2⟩
  · intro hi b z m hm
    rw [h.recipe, h.pointmass] at hi
    exact ⟨(h.stars b z m hm).1, (h.stars b z m hm).2.trans (H.starsObs hi b z m hm).2⟩
  · intro hi z m hm
    exact ⟨(h.starsMm z m hm).1, (h.starsMm z m hm).2.trans (H.starsMm (h.recipe.symm.trans hi) z m hm).2⟩

/-- C147, order: stronger feedback raises no part of the matter power at any redshift and wavenumber, and does not touch
the two-halo part. -/
theorem C147_matter (h : Stronger s t) (H : Inputs s) (hu : Bounded s) (hresp : s.response = false)
    (hmead : ∀ z k, 0 ≤ s.twoHaloTruncationMead z k) {r r' : PkResult}
    (hr : s.powerSpectrumMm = .ok r) (hr' : t.powerSpectrumMm = .ok r') (b z k : ℕ) :
    r'.pk1h b z k ≤ r.pk1h b z k ∧ r'.pk2h b z k = r.pk2h b z k ∧ r'.pkTot b z k ≤ r.pkTot b z k := by
  obtain ⟨i, T, mb, pm, f, fm, rfl⟩ := h.halos
  set t := withBaryons s i T mb pm f fm
  have := mm_scaled (h.inputs H) h.halos.symm (c := 1) hresp zero_le_one le_rfl (fun _ => rfl) hmead hr' hr b z k
    fun m hm => by rw [one_mul]; exact h.profileMm H hu hm
  rw [one_pow, one_mul, one_mul] at this
  exact ⟨this.1, this.2.1.symm, this.2.2⟩

/-- C147, order of the other spectra: the galaxy-matter power does not rise, the (negative) matter-alignment power does
not move away from zero, and the spectra of galaxies and alignments do not change. -/
theorem C147_tracers (h : Stronger s t) (H : Inputs s) (hu : Bounded s) (hresp : s.response = false) (b z k : ℕ) :
    ∃ gm gm' mi mi', s.powerSpectrumGm = .ok gm ∧ t.powerSpectrumGm = .ok gm' ∧ s.powerSpectrumMi = .ok mi ∧
      t.powerSpectrumMi = .ok mi' ∧
      (gm'.pk1h b z k ≤ gm.pk1h b z k ∧ gm'.pk2h b z k = gm.pk2h b z k ∧ gm'.pkTot b z k ≤ gm.pkTot b z k) ∧
      (mi.pk1h b z k ≤ mi'.pk1h b z k ∧ mi'.pk2h b z k = mi.pk2h b z k ∧ mi.pkTot b z k ≤ mi'.pkTot b z k) ∧
      t.powerSpectrumGg = s.powerSpectrumGg ∧ t.powerSpectrumIi = s.powerSpectrumIi ∧
      t.powerSpectrumGi = s.powerSpectrumGi := by
  obtain ⟨i, T, mb, pm, f, fm, rfl⟩ := h.halos
  set t := withBaryons s i T mb pm f fm
  obtain ⟨gm', gm, mi', mi, e1, e2, e3, e4, ⟨g1, g2, g3⟩, ⟨m1, m2, m3⟩, o1, o2, o3⟩ :=
    gm_scaled (h.inputs H) h.halos.symm (c := 1) hresp le_rfl (fun _ => rfl) b z k
      fun m hm => by rw [one_mul]; exact h.profileG H hu hm
  rw [one_mul] at g1 g3 m1
  exact ⟨gm, gm', mi, mi', e2, e1, e4, e3, ⟨g1, g2.symm, g3⟩, ⟨m1, m2.symm, m3 rfl⟩, o1.symm, o2.symm, o3.symm⟩

/-- C147, strictness: a higher gas mass scale or a hotter AGN does lower the one-halo power, wherever halos are resolved
at all and not all baryons are stars. -/
theorem C147_strict (h : Stronger s t) (H : Inputs s) (hu : Bounded s) (hresp : s.response = false) (hnm : 3 ≤ s.nm)
    (b z k : ℕ) (hd : ∀ m < s.nm, 0 < s.dndlnm z m) (hpos : ∀ m < s.nm, 0 < s.uDm z k m)
    (hT : 0 < s.oneHaloTruncation k) (hTm : 0 < s.oneHaloTruncationMead z k)
    (hstrict : (s.hmcodeIngredients = .mead2020Feedback ∧ s.log10TAGN < t.log10TAGN ∧
        s.fs (s.zVec z) < s.omegaB / s.omegaM) ∨
      (s.hmcodeIngredients = .fit ∧ s.mb < t.mb ∧ ∀ m < s.nm, s.fstarMm z m < s.omegaB / s.omegaM)) {r r' : PkResult}
    (hr : s.powerSpectrumMm = .ok r) (hr' : t.powerSpectrumMm = .ok r') : r'.pk1h b z k < r.pk1h b z k := by
  obtain ⟨i, T, mb, pm, f, fm, rfl⟩ := h.halos
  set t := withBaryons s i T mb pm f fm with ht
  have P : ∀ m < s.nm, t.matterProfile1hMm z k m < s.matterProfile1hMm z k m := by
    intro m hm
    have hM := H.mass m hm
    unfold matterProfile1hMm
    rw [h.recipe]
    rcases hstrict with ⟨hi, hlt, hfs⟩ | ⟨hi, hlt, hfs⟩
    · rw [hi]
      have A := h.agn hi
      have Z := h.redshifts hi z
      exact fit_strict h.halos hM (H.density z) (hpos m hm) (hu z k m hm).1 (mbAgn_pos s _)
        (mbAgn_strict s t Z.1 hlt) (fs_anti s t Z.1 Z.2 A.1 A.2.1) hfs
    · rw [hi]
      exact fit_strict h.halos hM (H.density z) (hpos m hm) (hu z k m hm).1 H.mb hlt (h.starsMm z m hm).2 (hfs m hm)
  have key : t.compute1hTerm (t.matterProfile1hMm z k) (t.matterProfile1hMm z k) z
      < s.compute1hTerm (s.matterProfile1hMm z k) (s.matterProfile1hMm z k) z := by
    rw [← sub_pos]
    have e : s.compute1hTerm (s.matterProfile1hMm z k) (s.matterProfile1hMm z k) z
        - t.compute1hTerm (t.matterProfile1hMm z k) (t.matterProfile1hMm z k) z
        = simpson s.nm s.mass fun m => (s.matterProfile1hMm z k m * s.matterProfile1hMm z k m
          - t.matterProfile1hMm z k m * t.matterProfile1hMm z k m) * s.dndlnm z m / s.mass m := by
      unfold compute1hTerm
      rw [show t.nm = s.nm from rfl, show t.mass = s.mass from rfl, ← simpson_sub]
      congr 1; funext m
      rw [show t.dndlnm = s.dndlnm from rfl]; ring
    rw [e]
    refine HodChecked.simpson_pos H.grid hnm fun m hm => div_pos (mul_pos ?_ (hd m hm)) (H.mass m hm)
    have n := profileMm_nonneg (h.inputs H) (z := z) (k := k) (m := m) hm
    nlinarith [P m hm]
  unfold powerSpectrumMm at hr hr'
  have hs' : t.response = false := hresp
  rw [if_neg (by simp [hresp])] at hr
  rw [if_neg (by simp [hs'])] at hr'
  unfold powerSpectrumMmRaw at hr hr'
  rw [show t.nonlinearMode = s.nonlinearMode from rfl] at hr'
  cases hm : s.nonlinearMode <;> simp only [hm] at hr hr'
  · cases hr; cases hr'; exact mul_lt_mul_of_pos_right key hT
  · cases hr; cases hr'; exact mul_lt_mul_of_pos_right key hT
  · split_ifs at hr hr'
    cases hr; cases hr'; exact mul_lt_mul_of_pos_right key hTm
  · cases hr; cases hr'; exact mul_lt_mul_of_pos_right key hT

/-- the same halos with all matter following the profile: no baryon recipe -/
def plain (s : Spectra) : Spectra := withBaryons s .mead2020 s.log10TAGN s.mb false s.fstar s.fstarMm

theorem plain_same (s : Spectra) : SameHalos (plain s) s :=
  SameHalos.symm ⟨_, _, _, _, _, _, rfl⟩

theorem plain_inputs (H : Inputs s) : Inputs (plain s) := by
  refine inputs_of (plain_same s).symm H H.mb ?_ ?_ ?_
  · intro h; exact absurd h (by simp [plain, withBaryons])
  · intro h; rcases h with h | h <;> exact absurd h (by simp [plain, withBaryons])
  · intro h; exact absurd h (by simp [plain, withBaryons])

theorem cold_le_one (H : Inputs s) (hω : s.omegaC ≤ s.omegaM) : 0 ≤ s.omegaC / s.omegaM ∧ s.omegaC / s.omegaM ≤ 1 :=
  ⟨div_nonneg H.omegaC H.omegaM.le, (div_le_one H.omegaM).2 hω⟩

/-- C147, bound: whatever the recipe, gas mass scale, temperature and stars, the matter power is never below the square
of the cold matter fraction times the power without baryon recipe, one-halo part and total alike. -/
theorem C147_suppression_bound (H : Inputs s) (hω : s.omegaC ≤ s.omegaM) (hresp : s.response = false)
    (hmode : s.nonlinearMode ≠ .bnl) (hmead : ∀ z k, 0 ≤ s.twoHaloTruncationMead z k) {r r' : PkResult}
    (hr : (plain s).powerSpectrumMm = .ok r) (hr' : s.powerSpectrumMm = .ok r') (b z k : ℕ) :
    (s.omegaC / s.omegaM) ^ 2 * r.pk1h b z k ≤ r'.pk1h b z k ∧
      (s.omegaC / s.omegaM) ^ 2 * r.pkTot b z k ≤ r'.pkTot b z k := by
  have c := cold_le_one H hω
  have := mm_scaled (plain_inputs H) (plain_same s) hresp c.1 c.2 (fun h => absurd h hmode) hmead hr hr' b z k
    fun m hm => ?_
  · exact ⟨this.1, this.2.2⟩
  · have hM := (H.mass m hm).le
    have hx : 0 ≤ s.mass m / s.meanDensity0 z * s.uDm z k m :=
      mul_nonneg (div_nonneg hM (H.density z).le) (H.uDm z k m hm)
    have e : (plain s).matterProfile1hMm z k m = s.mass m / s.meanDensity0 z * s.uDm z k m := rfl
    rw [e]
    unfold matterProfile1hMm
    cases hi : s.hmcodeIngredients
    · exact mul_le_of_le_one_left hx c.2
    · exact mul_le_of_le_one_left hx c.2
    · exact fit_ge_cold s hM (H.density z) (H.uDm z k m hm) (H.stars hi z).1 (H.stars hi z).2
    · exact fit_ge_cold s hM (H.density z) (H.uDm z k m hm) (H.starsMm hi z m hm).1 (H.starsMm hi z m hm).2

/-- C147, bound of the galaxy-matter and matter-alignment power: the factor is the cold matter fraction itself. -/
theorem C147_suppression_bound_tracers (H : Inputs s) (hω : s.omegaC ≤ s.omegaM) (hresp : s.response = false)
    (hmode : s.nonlinearMode ≠ .bnl) (b z k : ℕ) :
    ∃ gm gm' mi mi', (plain s).powerSpectrumGm = .ok gm ∧ s.powerSpectrumGm = .ok gm' ∧
      (plain s).powerSpectrumMi = .ok mi ∧ s.powerSpectrumMi = .ok mi' ∧
      s.omegaC / s.omegaM * gm.pk1h b z k ≤ gm'.pk1h b z k ∧
      s.omegaC / s.omegaM * gm.pkTot b z k ≤ gm'.pkTot b z k ∧
      mi'.pk1h b z k ≤ s.omegaC / s.omegaM * mi.pk1h b z k := by
  have c := cold_le_one H hω
  obtain ⟨gm, gm', mi, mi', e1, e2, e3, e4, g, m, -⟩ :=
    gm_scaled (plain_inputs H) (plain_same s) hresp c.2 (fun h => absurd h hmode) b z k fun m hm => by
      have hM := (H.mass m hm).le
      have hx : 0 ≤ s.mass m / s.meanDensity0 z * s.uDm z k m :=
        mul_nonneg (div_nonneg hM (H.density z).le) (H.uDm z k m hm)
      have e : (plain s).matterProfile1hG b z k m = s.mass m / s.meanDensity0 z * s.uDm z k m := rfl
      rw [e]
      unfold matterProfile1hG
      cases hi : s.hmcodeIngredients
      · simp only
        split_ifs with hp
        · have S := H.starsObs (Or.inr hp) b z m hm
          exact fit_ge_cold s hM (H.density z) (H.uDm z k m hm) S.1 S.2
        · exact mul_le_of_le_one_left hx c.2
      · exact mul_le_of_le_one_left hx c.2
      · exact fit_ge_cold s hM (H.density z) (H.uDm z k m hm) (H.stars hi z).1 (H.stars hi z).2
      · have S := H.starsObs (Or.inl hi) b z m hm
        exact fit_ge_cold s hM (H.density z) (H.uDm z k m hm) S.1 S.2
  exact ⟨gm, gm', mi, mi', e1, e2, e3, e4, g.1, g.2.2, m.1⟩

/-- C147, gas alone only removes power: without stars, and with a matter budget that is not exceeded, the matter power is
nowhere above that without baryon recipe. -/
theorem C147_gas_only (H : Inputs s) (hω : s.omegaC + s.omegaB ≤ s.omegaM) (hb : 0 ≤ s.omegaB)
    (hresp : s.response = false) (hmead : ∀ z k, 0 ≤ s.twoHaloTruncationMead z k) (hi : s.hmcodeIngredients = .fit)
    (hstars : ∀ z, ∀ m < s.nm, s.fstarMm z m = 0) {r r' : PkResult} (hr : (plain s).powerSpectrumMm = .ok r)
    (hr' : s.powerSpectrumMm = .ok r') (b z k : ℕ) :
    r'.pk1h b z k ≤ r.pk1h b z k ∧ r'.pkTot b z k ≤ r.pkTot b z k := by
  have := mm_scaled H (plain_same s).symm (c := 1) hresp zero_le_one le_rfl (fun _ => rfl) hmead hr' hr b z k
    fun m hm => ?_
  · rw [one_pow, one_mul, one_mul] at this
    exact ⟨this.1, this.2.2⟩
  · have hM := (H.mass m hm).le
    have hx : 0 ≤ s.mass m / s.meanDensity0 z * s.uDm z k m :=
      mul_nonneg (div_nonneg hM (H.density z).le) (H.uDm z k m hm)
    have e : (plain s).matterProfile1hMm z k m = s.mass m / s.meanDensity0 z * s.uDm z k m := rfl
    rw [e, one_mul]
    unfold matterProfile1hMm
    rw [hi]
    have g := C21_gas_fraction_range s (s.mass m) s.mb 0 H.mb H.omegaM.ne' (div_nonneg hb H.omegaM.le)
    have q : s.omegaC / s.omegaM + s.omegaB / s.omegaM ≤ 1 := by rw [← add_div, div_le_one H.omegaM]; exact hω
    simp only [matterProfileFit, computeMatterProfileFit, hstars z m hm, zero_mul, add_zero]
    rw [mul_assoc]
    exact mul_le_of_le_one_left hx (by linarith [g.2])

/-- C147, the redshift range is needed: from redshift 3.1 on, hotter AGN (up to 10^8.0) leave more stars. -/
theorem C147_stars_rise (s t : Spectra) {z : ℝ} (hz : 3.1 ≤ z) (hT : s.log10TAGN < t.log10TAGN)
    (hT' : t.log10TAGN ≤ 8.0) : s.fs z < t.fs z := by
  unfold fs
  set θ := s.log10TAGN - 7.8 with hθ
  set θ' := t.log10TAGN - 7.8 with hθ'
  have hd : 0 < θ' - θ := by rw [hθ, hθ']; linarith
  have hhi : θ' ≤ 0.2 := by rw [hθ']; linarith
  have hsplit : (10 : ℝ) ^ (z * (0.409 + 0.0224 * θ')) =
      (10 : ℝ) ^ (z * (0.409 + 0.0224 * θ)) * Real.exp (z * 0.0224 * (θ' - θ) * Real.log 10) := by
    rw [Real.rpow_def_of_pos (by norm_num), Real.rpow_def_of_pos (by norm_num), ← Real.exp_add]
    congr 1; ring
  have hp : 0 < (10 : ℝ) ^ (z * (0.409 + 0.0224 * θ)) := Real.rpow_pos_of_pos (by norm_num) _
  rw [hsplit]
  set P := (10 : ℝ) ^ (z * (0.409 + 0.0224 * θ))
  have l : 2.279 ≤ Real.log 10 := by
    have e : (10 : ℝ) = 2 ^ 3 * (5 / 4) := by norm_num
    rw [e, Real.log_mul (by norm_num) (by norm_num), Real.log_pow]
    have a := Real.log_two_gt_d9
    have b := Real.one_sub_inv_le_log_of_pos (show (0 : ℝ) < 5 / 4 by norm_num)
    push_cast
    norm_num at b
    linarith
  have x1 : z * 0.0224 * (θ' - θ) * Real.log 10 + 1 ≤ Real.exp (z * 0.0224 * (θ' - θ) * Real.log 10) :=
    Real.add_one_le_exp _
  have x2 : 0.158 * (θ' - θ) ≤ z * 0.0224 * (θ' - θ) * Real.log 10 := by
    have b1 : 3.1 * 2.279 ≤ z * Real.log 10 := mul_le_mul hz l (by norm_num) (by linarith)
    have b2 := mul_le_mul_of_nonneg_right b1 hd.le
    nlinarith
  set E := Real.exp (z * 0.0224 * (θ' - θ) * Real.log 10)
  have a' : 1.95 ≤ 2.01 - 0.3 * θ' := by linarith
  have key : 2.01 - 0.3 * θ < (2.01 - 0.3 * θ') * E := by
    have : (2.01 - 0.3 * θ') * (1 + 0.158 * (θ' - θ)) ≤ (2.01 - 0.3 * θ') * E :=
      mul_le_mul_of_nonneg_left (by linarith) (by linarith)
    nlinarith
  have := mul_lt_mul_of_pos_right key hp
  nlinarith

/-! ## examples -/

/-- the demonstration halo model with the fitted gas recipe -/
noncomputable def demoGas : Spectra := withBaryons demo .fit 7.8 2 true (fun _ _ _ => 0.01) (fun _ _ => 0.01)

/-- and with more gas expelled and fewer stars -/
noncomputable def demoGas' : Spectra := withBaryons demo .fit 7.8 3 true (fun _ _ _ => 0.005) (fun _ _ => 0.005)

theorem demoGas_inputs : Inputs demoGas := by
  refine inputs_of ⟨_, _, _, _, _, _, rfl⟩ demo_inputs ?_ ?_ ?_ ?_
  · simp only [demoGas, withBaryons]; norm_num
  · intro h; simp [demoGas, withBaryons] at h
  · intro _ b z m _; simp only [demoGas, withBaryons, demo]; norm_num
  · intro _ z m _; simp only [demoGas, withBaryons, demo]; norm_num

theorem demoGas_stronger : Stronger demoGas demoGas' where
  halos := ⟨_, _, _, _, _, _, rfl⟩
  recipe := rfl
  pointmass := rfl
  gas := by simp only [demoGas, demoGas', withBaryons]; norm_num
  stars := by intro b z m _; simp only [demoGas, demoGas', withBaryons]; norm_num
  starsMm := by intro z m _; simp only [demoGas, demoGas', withBaryons]; norm_num
  agn := by intro h; simp [demoGas, withBaryons] at h
  redshifts := by intro h; simp [demoGas, withBaryons] at h

theorem demo_uDm_pos (z k m : ℕ) : 0 < demo.uDm z k m := by
  simp only [demo, Hmi.uDm, demoRaw]; positivity

theorem demo_trunc_pos (k : ℕ) : 0 < demo.oneHaloTruncation k := by
  simp only [oneHaloTruncation, demo]; positivity

example (b z k : ℕ) : ∃ r r', demoGas.powerSpectrumMm = .ok r ∧ demoGas'.powerSpectrumMm = .ok r' ∧
    r'.pk1h b z k < r.pk1h b z k := by
  refine ⟨_, _, rfl, rfl, C147_strict demoGas_stronger demoGas_inputs demo_bounded rfl ?_ b z k ?_ ?_ ?_ ?_ (.inr ⟨rfl, ?_, ?_⟩)
    rfl rfl⟩
  · exact le_refl 3
  · intro m _
    show (0 : ℝ) < (m : ℝ) + 1
    positivity
  · exact fun m _ => demo_uDm_pos z k m
  · exact demo_trunc_pos k
  · exact (C19_one_halo_range demoGas z k (by show (0 : ℝ) < 1; norm_num)).1.lt_of_ne' (by
      unfold oneHaloTruncationMead; simp only [demoGas, withBaryons, demo]; positivity)
  · simp only [demoGas, demoGas', withBaryons]; norm_num
  · intro m _; simp only [demoGas, withBaryons, demo]; norm_num

/-- the demonstration halo model at redshift 1/2 with AGN of temperature `T` -/
noncomputable def demoAgn (T : ℝ) : Spectra :=
  { demo with zVec := fun _ => 1 / 2, hmcodeIngredients := .mead2020Feedback, log10TAGN := T }

theorem demoAgn_fs : 0 ≤ (demoAgn 7.8).fs (1 / 2) ∧ (demoAgn 7.8).fs (1 / 2) < 1 / 6 := by
  refine ⟨fs_nonneg _ _ (by simp only [demoAgn]; norm_num), ?_⟩
  have a : (10 : ℝ) ^ ((1 / 2 : ℝ) * (0.409 + 0.0224 * (7.8 - 7.8))) ≤ 4 := by
    calc (10 : ℝ) ^ ((1 / 2 : ℝ) * (0.409 + 0.0224 * (7.8 - 7.8))) ≤ (10 : ℝ) ^ (1 / 2 : ℝ) :=
          Real.rpow_le_rpow_of_exponent_le (by norm_num) (by norm_num)
      _ = Real.sqrt 10 := (Real.sqrt_eq_rpow 10).symm
      _ ≤ 4 := by rw [Real.sqrt_le_left (by norm_num)]; norm_num
  simp only [fs, demoAgn]
  norm_num at a ⊢
  linarith

theorem demo_mead (z k : ℕ) : 0 ≤ demo.twoHaloTruncationMead z k := by
  have := (C19_two_halo_range demo z k (by show (0 : ℝ) < 1; norm_num) (demo_inputs.kVec k).le).1
  have e : 1 - 0.2696 * demo.sigma8z z ^ (0.9403 : ℝ) = 0.7304 := by
    simp only [demo, Real.one_rpow]; norm_num
  linarith

theorem demoAgn_inputs : Inputs (demoAgn 7.8) :=
  have H := demo_inputs
  { grid := H.grid, nm_pos := H.nm_pos, mass := H.mass, dndlnm := H.dndlnm, bias := H.bias, density := H.density
    uDm := H.uDm, fC := H.fC, fS := H.fS, hodCen := H.hodCen, hodSat := H.hodSat, nCen := H.nCen, nSat := H.nSat
    nTot := H.nTot, avgMass := H.avgMass, wkm := H.wkm, gi := H.gi, growth := H.growth, pivotCen := H.pivotCen
    pivotSat := H.pivotSat, aTerm := H.aTerm, pkLin := H.pkLin, omegaC := H.omegaC, omegaM := H.omegaM, mb := H.mb
    uSat := H.uSat, poisson := H.poisson, kVec := H.kVec
    stars := fun _ _ => ⟨demoAgn_fs.1, demoAgn_fs.2.le.trans (by show (1 / 6 : ℝ) ≤ 0.05 / 0.3; norm_num)⟩
    starsObs := by intro h; simp [demoAgn, demo] at h
    starsMm := by intro h; simp [demoAgn] at h }

theorem demoAgn_stronger : Stronger (demoAgn 7.8) (demoAgn 8) where
  halos := ⟨.mead2020Feedback, 8, _, _, _, _, rfl⟩
  recipe := rfl
  pointmass := rfl
  gas := le_rfl
  stars := by intro b z m _; simp only [demoAgn, demo]; norm_num
  starsMm := by intro z m _; simp only [demoAgn, demo]; norm_num
  agn := by intro _; simp only [demoAgn]; norm_num
  redshifts := by intro _ z; simp only [demoAgn]; norm_num

example (b z k : ℕ) : ∃ r r', (demoAgn 7.8).powerSpectrumMm = .ok r ∧ (demoAgn 8).powerSpectrumMm = .ok r' ∧
    r'.pkTot b z k ≤ r.pkTot b z k :=
  ⟨_, _, rfl, rfl, (C147_matter demoAgn_stronger demoAgn_inputs demo_bounded rfl
    demo_mead rfl rfl b z k).2.2⟩

/-- a cold fraction of 5/6 keeps at least 25/36 of the matter power -/
example (b z k : ℕ) : ∃ r r', (plain (demoAgn 7.8)).powerSpectrumMm = .ok r ∧ (demoAgn 7.8).powerSpectrumMm = .ok r' ∧
    25 / 36 * r.pkTot b z k ≤ r'.pkTot b z k := by
  refine ⟨_, _, rfl, rfl, ?_⟩
  have := (C147_suppression_bound demoAgn_inputs (by simp only [demoAgn, demo]; norm_num) rfl (by simp [demoAgn, demo])
    demo_mead rfl rfl b z k).2
  have e : ((demoAgn 7.8).omegaC / (demoAgn 7.8).omegaM) ^ 2 = 25 / 36 := by simp only [demoAgn, demo]; norm_num
  rwa [e] at this

end Verif.Pk.Feedback

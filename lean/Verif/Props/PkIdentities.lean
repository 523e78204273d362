import Verif.Props.PkDamping

/-! Properties C01–C03, C05–C09, C20: identities between the spectra. -/

namespace Verif.Pk

open Verif.Lib Spectra

/-! ## C02 -/

/-- C02: the profiles are 1 at the first wavenumber wherever the raw profile does not vanish, and ratios
between wavenumbers are those of the raw profile. -/
theorem C02_profiles_normalised (raw : ℕ → ℕ → ℕ → ℝ) (z m : ℕ) (h : raw z 0 m ≠ 0) :
    Hmi.uDm raw z 0 m = 1 ∧ Hmi.uSat raw z 0 m = 1 ∧
      ∀ k k' : ℕ, raw z k' m ≠ 0 →
        Hmi.uDm raw z k m / Hmi.uDm raw z k' m = raw z k m / raw z k' m ∧
        Hmi.uSat raw z k m / Hmi.uSat raw z k' m = raw z k m / raw z k' m := by
  refine ⟨div_self h, div_self h, fun k k' h' => ⟨?_, ?_⟩⟩
  · unfold Hmi.uDm; field_simp
  · unfold Hmi.uSat; field_simp

example : demoRaw 0 0 1 ≠ 0 ∧ demoRaw 0 3 1 ≠ 0 ∧ Hmi.uDm demoRaw 0 3 1 ≠ 1 := by
  simp [demoRaw, Hmi.uDm]; norm_num

/-! ## C01 -/

/-- C01: the matter 2-halo integral is exactly 1 at the first wavenumber. -/
theorem C01_Im_first_wavenumber (s : Spectra) (raw : ℕ → ℕ → ℕ → ℝ) (hu : s.uDm = Hmi.uDm raw) (z : ℕ)
    (_hρ : s.meanDensity0 z ≠ 0) (hraw : ∀ m < s.nm, raw z 0 m ≠ 0) : s.imTerm z 0 = 1 := by
  have : s.computeImTerm z 0
      = simpson s.nm s.mass (fun m => s.haloBias z m * s.dndlnm z m * (1 / s.meanDensity0 z)) := by
    apply simpson_congr_right
    intro m hm
    rw [hu, (C02_profiles_normalised raw z m (hraw m hm)).1, mul_one]
  rw [imTerm, aTerm, this]; ring

/-- C01: hence, in the plain halo model, the 2-halo matter power at the first wavenumber is the linear
power times the 2-halo damping, a number in `(0.95, 1]` that does not depend on the halo model; with
`two_halo_ktrunc=None` it is the linear power itself. -/
theorem C01_large_scale_limit (s : Spectra) (raw : ℕ → ℕ → ℕ → ℝ) (hu : s.uDm = Hmi.uDm raw) (b z : ℕ)
    (hρ : s.meanDensity0 z ≠ 0) (hraw : ∀ m < s.nm, raw z 0 m ≠ 0)
    (hmode : s.nonlinearMode = .none ∨ s.nonlinearMode = .fortuna) (hresp : s.response = false)
    (hk : 0 ≤ s.kVec 0) :
    ∃ r, s.powerSpectrumMm = .ok r ∧ r.pk2h b z 0 = s.pkLin z 0 * s.twoHaloTruncation 0 ∧
      0.95 < s.twoHaloTruncation 0 ∧ s.twoHaloTruncation 0 ≤ 1 ∧
      (s.twoHaloKtrunc = none → r.pk2h b z 0 = s.pkLin z 0) := by
  have hI := C01_Im_first_wavenumber s raw hu z hρ hraw
  rcases hmode with h | h <;>
  · refine ⟨_, by simp only [powerSpectrumMm, powerSpectrumMmRaw, hresp, h]; rfl, ?_,
      (C18_range s 0 hk).1, (C18_range s 0 hk).2, ?_⟩
    · simp [hI]
    · intro hn
      simp [hI, twoHaloTruncation, hn]

/-- C01, non-linear bias mode: with a vanishing non-linear bias the same limit holds without damping. -/
theorem C01_large_scale_limit_bnl (s : Spectra) (raw : ℕ → ℕ → ℕ → ℝ) (hu : s.uDm = Hmi.uDm raw)
    (b z : ℕ) (hρ : s.meanDensity0 z ≠ 0) (hraw : ∀ m < s.nm, raw z 0 m ≠ 0)
    (hmode : s.nonlinearMode = .bnl) (hresp : s.response = false) :
    ∃ r, s.powerSpectrumMm = .ok r ∧
      r.pk2h b z 0 = s.pkLin z 0
        + s.pkLin z 0 * s.iNL (s.matterProfile2h z 0) (s.matterProfile2h z 0) z 0 := by
  have hI := C01_Im_first_wavenumber s raw hu z hρ hraw
  refine ⟨_, by simp only [powerSpectrumMm, powerSpectrumMmRaw, hresp, hmode]; rfl, ?_⟩
  simp [hI]

example : demo.uDm = Hmi.uDm demoRaw ∧ demo.meanDensity0 0 ≠ 0 ∧ (∀ m < demo.nm, demoRaw 0 0 m ≠ 0) ∧
    demo.nonlinearMode = .none ∧ demo.response = false ∧ 0 ≤ demo.kVec 0 ∧ demo.aTerm 0 ≠ 0 := by
  refine ⟨rfl, by simp [demo], ?_, rfl, rfl, by simp [demo], by rw [demo_aTerm]; norm_num⟩
  intro m _
  simp only [demoRaw]; positivity

/-! ## C03 -/

theorem applyResponse_tot (s : Spectra) {r r' : PkResult} (h : s.applyResponse r = .ok r')
    (hr : ∀ b z k, r.pkTot b z k = r.pk1h b z k + r.pk2h b z k) (b z k : ℕ) :
    r'.pkTot b z k = r'.pk1h b z k + r'.pk2h b z k := by
  unfold applyResponse at h
  split_ifs at h
  · split at h
    · cases h
    · injection h with h
      subst h
      simp only [hr]
      ring
  · injection h with h
    subst h
    exact hr b z k

/-- C03: galaxy and alignment spectra, all modes, with or without response. -/
theorem C03_total_is_sum (s : Spectra) {r : PkResult}
    (h : s.powerSpectrumGg = .ok r ∨ s.powerSpectrumGm = .ok r ∨ s.powerSpectrumMi = .ok r ∨
      s.powerSpectrumIi = .ok r ∨ s.powerSpectrumGi = .ok r) (b z k : ℕ) :
    r.pkTot b z k = r.pk1h b z k + r.pk2h b z k := by
  rcases h with h | h | h | h | h
  · exact applyResponse_tot s h (fun _ _ _ => rfl) b z k
  · exact applyResponse_tot s h (fun _ _ _ => rfl) b z k
  · refine applyResponse_tot s h (fun b z k => ?_) b z k
    unfold powerSpectrumMiRaw
    cases s.nonlinearMode <;> simp only [] <;> ring
  · refine applyResponse_tot s h (fun b z k => ?_) b z k
    unfold powerSpectrumIiRaw
    cases s.nonlinearMode <;> simp only [] <;> ring
  · refine applyResponse_tot s h (fun b z k => ?_) b z k
    unfold powerSpectrumGiRaw
    cases s.nonlinearMode <;> simp only [] <;> ring

/-- C03: matter spectrum outside `hmcode` mode and without response. -/
theorem C03_total_is_sum_mm (s : Spectra) (hmode : s.nonlinearMode ≠ .hmcode) (hresp : s.response = false)
    {r : PkResult} (h : s.powerSpectrumMm = .ok r) (b z k : ℕ) :
    r.pkTot b z k = r.pk1h b z k + r.pk2h b z k := by
  unfold powerSpectrumMm powerSpectrumMmRaw at h
  simp only [hresp, Bool.false_eq_true, if_false] at h
  cases hm : s.nonlinearMode <;> simp only [hm] at h hmode <;>
    first
      | exact absurd rfl hmode
      | (injection h with h; subst h; rfl)

/-- C03: with response on, the matter spectrum is the supplied non-linear power with empty 1-halo and
2-halo parts. -/
theorem C03_response_mm (s : Spectra) (hresp : s.response = true) :
    ∃ r, s.powerSpectrumMm = .ok r ∧ ∀ b z k,
      r.pkTot b z k = s.pkNl z k ∧ r.pk1h b z k = 0 ∧ r.pk2h b z k = 0 := by
  unfold powerSpectrumMm
  simp only [hresp, if_true]
  exact ⟨_, rfl, fun _ _ _ => ⟨rfl, rfl, rfl⟩⟩

/-- the five spectra are computed without error whenever response is off -/
theorem C03_no_error (s : Spectra) (hresp : s.response = false) :
    s.powerSpectrumGg = .ok s.powerSpectrumGgRaw ∧ s.powerSpectrumGm = .ok s.powerSpectrumGmRaw ∧
      s.powerSpectrumMi = .ok s.powerSpectrumMiRaw ∧ s.powerSpectrumIi = .ok s.powerSpectrumIiRaw ∧
      s.powerSpectrumGi = .ok s.powerSpectrumGiRaw := by
  simp [powerSpectrumGg, powerSpectrumGm, powerSpectrumMi, powerSpectrumIi, powerSpectrumGi,
    applyResponse, hresp]

example : ∃ r, demo.powerSpectrumGg = .ok r := ⟨_, (C03_no_error demo rfl).1⟩

example : ∃ r, ({ demo with response := true } : Spectra).powerSpectrumIi = .ok r :=
  ⟨_, by simp [powerSpectrumIi, applyResponse, powerSpectrumMmRaw, demo]; rfl⟩

/-- C03, the case left out above: in `hmcode` mode the total is in general not the sum (demonstration
object, all terms explicit). -/
theorem C03_hmcode_not_sum : ∃ (s : Spectra) (r : PkResult), s.nonlinearMode = .hmcode ∧
    s.powerSpectrumMm = .ok r ∧ r.pkTot 0 0 0 ≠ r.pk1h 0 0 0 + r.pk2h 0 0 0 := by
  -- one mass pair with non-zero 1-halo term, exponent 1.875 > 1
  refine ⟨demoHm, _, rfl, rfl, ?_⟩
  set p := demoHm.compute1hTerm (demoHm.matterProfile1hMm 0 0) (demoHm.matterProfile1hMm 0 0) 0
    * demoHm.oneHaloTruncationMead 0 0 with hp
  set q := demoHm.pkLin 0 0 * demoHm.twoHaloTruncationMead 0 0 with hq
  have hkpos : 0 < demoHm.kVec 0 := by simp [demoHm, demo]
  have ppos : 0 < p := by
    apply mul_pos
    · change 0 < simpson demo.nm demo.mass _
      rw [demo_simpson]
      simp [matterProfile1hMm, matterProfile, computeMatterProfile, demoHm, demo, Hmi.uDm, demoRaw]
      norm_num
    · simp [oneHaloTruncationMead, demoHm, demo]; norm_num
  have qpos : 0 < q := by
    have h := (C19_two_halo_range demoHm 0 0 (by simp [demoHm, demo]) hkpos.le).1
    have e : demoHm.pkLin 0 0 = 1 := by simp [demoHm, demo]
    have e2 : demoHm.sigma8z 0 = 1 := by simp [demoHm, demo]
    rw [e2, Real.one_rpow] at h
    rw [hq, e]
    norm_num at h ⊢
    linarith
  change demoHm.transitionSmoothing 0 0 p q ≠ p + q
  rw [transitionSmoothing_eq demoHm 0 0 hkpos ppos.le qpos.le]
  have hα : smoothingExponent demoHm 0 = 1.875 := by simp [smoothingExponent, demoHm, demo]
  rw [hα]
  -- strict power-mean inequality: (p^α + q^α) < (p+q)^α
  intro h
  have hs : 0 < p + q := by linarith
  have h' : p ^ (1.875 : ℝ) + q ^ (1.875 : ℝ) = (p + q) ^ (1.875 : ℝ) := by
    have hnn : 0 ≤ p ^ (1.875 : ℝ) + q ^ (1.875 : ℝ) := by positivity
    rw [← h, ← Real.rpow_mul hnn]
    norm_num
  have e : ∀ x : ℝ, 0 < x → x ^ (1.875 : ℝ) = x * x ^ (0.875 : ℝ) := by
    intro x hx
    rw [← Real.rpow_one_add' hx.le (by norm_num)]; norm_num
  rw [e p ppos, e q qpos, e _ hs] at h'
  have l1 : p ^ (0.875 : ℝ) < (p + q) ^ (0.875 : ℝ) :=
    Real.rpow_lt_rpow ppos.le (by linarith) (by norm_num)
  have l2 : q ^ (0.875 : ℝ) < (p + q) ^ (0.875 : ℝ) :=
    Real.rpow_lt_rpow qpos.le (by linarith) (by norm_num)
  nlinarith

/-! ## C05 -/

/-- C05: galaxy 2-halo power = (reported galaxy bias)² × linear power × damping. -/
theorem C05_gg_2h_is_bias_squared (s : Spectra) (hmode : s.nonlinearMode ≠ .bnl)
    (hresp : s.response = false) :
    ∃ r bias, s.powerSpectrumGg = .ok r ∧ r.galaxyLinearBias = some bias ∧ ∀ b z k,
      r.pk2h b z k = bias b z k ^ 2 * s.pkLin z k * s.twoHaloTruncation k ∧
      bias b z k = |s.icTerm b z k + s.isTerm b z k| := by
  refine ⟨_, _, (C03_no_error s hresp).1, rfl, fun b z k => ?_⟩
  have e : s.icTerm b z k * s.icTerm b z k + s.isTerm b z k * s.isTerm b z k
      + 2 * s.icTerm b z k * s.isTerm b z k = (s.icTerm b z k + s.isTerm b z k) ^ 2 := by ring
  simp only [powerSpectrumGgRaw, hmode, if_false, e]
  rw [Real.sq_sqrt (sq_nonneg _), Real.sqrt_sq_eq_abs]
  exact ⟨by ring, rfl⟩

/-- C05: hence it is non-negative for non-negative linear power. -/
theorem C05_gg_2h_nonneg (s : Spectra) (hmode : s.nonlinearMode ≠ .bnl) (hresp : s.response = false)
    {r : PkResult} (h : s.powerSpectrumGg = .ok r) (b z k : ℕ) (hP : 0 ≤ s.pkLin z k)
    (hk : 0 ≤ s.kVec k) : 0 ≤ r.pk2h b z k := by
  obtain ⟨r', bias, h', _, hb⟩ := C05_gg_2h_is_bias_squared s hmode hresp
  rw [h] at h'
  cases h'
  rw [(hb b z k).1]
  have := (C18_range s k hk).1
  exact mul_nonneg (mul_nonneg (sq_nonneg _) hP) (by linarith)

example : demo.nonlinearMode ≠ .bnl ∧ demo.response = false ∧ 0 < demo.icTerm 0 0 0 ∧
    0 < demo.isTerm 0 0 0 ∧ 0 ≤ demo.pkLin 0 0 ∧ 0 ≤ demo.kVec 0 := by
  refine ⟨by decide, rfl, ?_, ?_, by simp [demo], by simp [demo]⟩
  · unfold icTerm computeIgTerm; rw [demo_simpson]
    simp [demo, centralGalaxyProfile]; norm_num
  · unfold isTerm computeIgTerm; rw [demo_simpson]
    simp [demo, satelliteGalaxyProfile, Hmi.uSat, demoRaw]; norm_num

/-! ## C06 -/

/-- C06: perfect correlation of galaxies and matter on 2-halo scales. -/
theorem C06_perfect_correlation (s : Spectra) (hmode : s.nonlinearMode = .none ∨ s.nonlinearMode = .fortuna)
    (hresp : s.response = false) :
    ∃ gg gm mm, s.powerSpectrumGg = .ok gg ∧ s.powerSpectrumGm = .ok gm ∧ s.powerSpectrumMm = .ok mm ∧
      ∀ b z k, gm.pk2h b z k ^ 2 = gg.pk2h b z k * mm.pk2h b z k := by
  have hb : s.nonlinearMode ≠ .bnl := by rcases hmode with h | h <;> rw [h] <;> decide
  rcases hmode with h | h <;>
  · refine ⟨_, _, _, (C03_no_error s hresp).1, (C03_no_error s hresp).2.1,
      by simp only [powerSpectrumMm, powerSpectrumMmRaw, hresp, h]; rfl, fun b z k => ?_⟩
    simp only [powerSpectrumGgRaw, powerSpectrumGmRaw, hb, if_false]
    ring

example : demo.nonlinearMode = .none ∧ demo.response = false := ⟨rfl, rfl⟩

/-! ## C07 -/

/-- The value MI and II give to the alignment 2-halo integrals. -/
theorem C07_exact_deficit (s : Spectra) (hmode : s.nonlinearMode = .none) (hresp : s.response = false) :
    ∃ ii mi, s.powerSpectrumIi = .ok ii ∧ s.powerSpectrumMi = .ok mi ∧ ∀ b z k,
      mi.pk2h b z k = -(s.pkLin z k * s.twoHaloTruncationIa k * s.imTerm z k)
        * (s.icAlignTerm b z k + s.isAlignTerm b z k) ∧
      ii.pk2h b z k * (s.pkLin z k * s.twoHaloTruncationIa k * s.imTerm z k ^ 2)
        = mi.pk2h b z k ^ 2
          - (s.pkLin z k * s.twoHaloTruncationIa k * s.imTerm z k) ^ 2
            * (s.icAlignTerm b z k * s.isAlignTerm b z k) := by
  refine ⟨_, _, (C03_no_error s hresp).2.2.2.1, (C03_no_error s hresp).2.2.1, fun b z k => ?_⟩
  simp only [powerSpectrumMiRaw, powerSpectrumIiRaw, hmode]
  constructor <;> ring

/-- C07: the II 2-halo power times the matter 2-halo power (with the alignment damping) lies between 3/4 of
and the full squared cross power when the two alignment integrals have the same sign. -/
theorem C07_between (s : Spectra) (hmode : s.nonlinearMode = .none) (hresp : s.response = false) :
    ∃ ii mi, s.powerSpectrumIi = .ok ii ∧ s.powerSpectrumMi = .ok mi ∧ ∀ b z k,
      0 ≤ s.icAlignTerm b z k * s.isAlignTerm b z k →
      3 / 4 * mi.pk2h b z k ^ 2
          ≤ ii.pk2h b z k * (s.pkLin z k * s.twoHaloTruncationIa k * s.imTerm z k ^ 2) ∧
        ii.pk2h b z k * (s.pkLin z k * s.twoHaloTruncationIa k * s.imTerm z k ^ 2)
          ≤ mi.pk2h b z k ^ 2 := by
  obtain ⟨ii, mi, h1, h2, h⟩ := C07_exact_deficit s hmode hresp
  refine ⟨ii, mi, h1, h2, fun b z k hs => ?_⟩
  obtain ⟨e1, e2⟩ := h b z k
  rw [e2, e1]
  set Q := s.pkLin z k * s.twoHaloTruncationIa k * s.imTerm z k
  set c := s.icAlignTerm b z k
  set d := s.isAlignTerm b z k
  have hQ := sq_nonneg Q
  have hcd : 0 ≤ Q ^ 2 * (c - d) ^ 2 := by positivity
  constructor
  · nlinarith
  · have := mul_nonneg hQ hs; linarith

theorem demo_icAlign : demo.icAlignTerm 0 0 0 = 2e-13 := by
  unfold icAlignTerm computeIgTerm; rw [demo_simpson, demo_aTerm]
  simp [demo, centralAlignmentProfile, c1, additionalTerm, massAvg]; norm_num

theorem demo_isAlign : 0 < demo.isAlignTerm 0 0 0 := by
  unfold isAlignTerm computeIgTerm; rw [demo_simpson, demo_aTerm]
  simp [demo, satelliteAlignmentProfile, additionalTerm]; norm_num

theorem demo_imTerm (z : ℕ) : demo.imTerm z 0 = 1 :=
  C01_Im_first_wavenumber demo demoRaw rfl z (by simp [demo])
    (fun m _ => by simp only [demoRaw]; positivity)

/-- C07: the identity a consistent auto-power would satisfy fails (demonstration object). -/
theorem C07_identity_fails : ∃ (s : Spectra) (ii mi : PkResult), s.nonlinearMode = .none ∧
    s.response = false ∧ s.powerSpectrumIi = .ok ii ∧ s.powerSpectrumMi = .ok mi ∧
    ii.pk2h 0 0 0 * (s.pkLin 0 0 * s.twoHaloTruncationIa 0 * s.imTerm 0 0 ^ 2)
      ≠ mi.pk2h 0 0 0 ^ 2 := by
  obtain ⟨ii, mi, h1, h2, h⟩ := C07_exact_deficit demo rfl rfl
  refine ⟨demo, ii, mi, rfl, rfl, h1, h2, ?_⟩
  rw [(h 0 0 0).2]
  have hT : 0 < demo.twoHaloTruncationIa 0 := Real.exp_pos _
  have hP : demo.pkLin 0 0 = 1 := rfl
  have := demo_isAlign
  rw [demo_icAlign, hP, demo_imTerm]
  have : 0 < (1 * demo.twoHaloTruncationIa 0 * 1) ^ 2 * (2e-13 * demo.isAlignTerm 0 0 0) := by
    positivity
  linarith

/-! ## C08 -/

/-- C08: the central alignment 2-halo integral is exactly the linear-alignment amplitude. -/
theorem C08_central_alignment_exact (s : Spectra) (b z k : ℕ) (hm : ∀ m < s.nm, s.mass m ≠ 0)
    (hnm : 0 < s.nm) (hρ : s.meanDensity0 z ≠ 0) :
    s.icAlignTerm b z k = s.fC b z * (5e-14 * s.alignmentGi z) * s.meanDensity0 z / s.growthFactor z
      * additionalTerm s.betaCen s.mpivotCen (s.massAvg b z) := by
  unfold icAlignTerm computeIgTerm aTerm
  set X := s.fC b z * (s.c1 z / s.growthFactor z)
    * additionalTerm s.betaCen s.mpivotCen (s.massAvg b z) with hX
  have e : ∀ m, s.centralAlignmentProfile b z k m = X * s.mass m := by
    intro m; rw [hX]; unfold centralAlignmentProfile; ring
  have e1 : simpson s.nm s.mass
      (fun m => s.centralAlignmentProfile b z k m * s.haloBias z m * s.dndlnm z m / s.mass m)
      = (X * s.meanDensity0 z) * simpson s.nm s.mass
        (fun m => s.haloBias z m * s.dndlnm z m * (1 / s.meanDensity0 z)) := by
    rw [← simpson_smul]
    apply simpson_congr_right
    intro m hmn
    have := hm m hmn
    rw [e]; field_simp
  have h0 := hm 0 hnm
  rw [e1, e 0]
  rw [show s.fC b z * (5e-14 * s.alignmentGi z) * s.meanDensity0 z / s.growthFactor z
      * additionalTerm s.betaCen s.mpivotCen (s.massAvg b z) = X * s.meanDensity0 z by
    rw [hX]; unfold c1; ring]
  field_simp
  ring

/-- C08: written out when the mass dependence is on. -/
theorem C08_with_mass_dependence (s : Spectra) (b z k : ℕ) (hm : ∀ m < s.nm, s.mass m ≠ 0)
    (hnm : 0 < s.nm) (hρ : s.meanDensity0 z ≠ 0) {β M : ℝ} (hβ : s.betaCen = some β)
    (hM : s.mpivotCen = some M) :
    s.icAlignTerm b z k = s.fC b z * (5e-14 * s.alignmentGi z) * s.meanDensity0 z / s.growthFactor z
      * (s.avgHaloMassCen b z / s.numberDensity b z / M) ^ β := by
  rw [C08_central_alignment_exact s b z k hm hnm hρ]
  simp [additionalTerm, hβ, hM, massAvg]

example : (∀ m < demo.nm, demo.mass m ≠ 0) ∧ 0 < demo.nm ∧ demo.meanDensity0 0 ≠ 0 ∧
    demo.betaCen = some 1 ∧ demo.mpivotCen = some 2 := by
  refine ⟨fun m _ => ?_, by simp [demo], by simp [demo], rfl, rfl⟩
  simp only [demo]; positivity

/-! ## C09 -/

/-- C09: the effective power of `fortuna` mode interpolates linearly between the non-linear and the linear
power. -/
theorem C09_peff (s : Spectra) (hmode : s.nonlinearMode = .fortuna) (z k : ℕ) :
    ∃ P, s.peff z k = some P ∧ P = (1 - s.tEff) * s.pkNl z k + s.tEff * s.pkLin z k ∧
      (s.tEff = 0 → P = s.pkNl z k) ∧ (s.tEff = 1 → P = s.pkLin z k) ∧
      (0 ≤ s.tEff → s.tEff ≤ 1 →
        min (s.pkNl z k) (s.pkLin z k) ≤ P ∧ P ≤ max (s.pkNl z k) (s.pkLin z k)) := by
  refine ⟨_, by simp [peff, hmode], rfl, fun h => by rw [h]; ring, fun h => by rw [h]; ring, ?_⟩
  intro h0 h1
  have a := min_le_left (s.pkNl z k) (s.pkLin z k)
  have b := min_le_right (s.pkNl z k) (s.pkLin z k)
  have c := le_max_left (s.pkNl z k) (s.pkLin z k)
  have d := le_max_right (s.pkNl z k) (s.pkLin z k)
  constructor <;> nlinarith

/-- C09: outside `fortuna` mode `peff` is `None`. -/
theorem C09_peff_none (s : Spectra) (hmode : s.nonlinearMode ≠ .fortuna) (z k : ℕ) :
    s.peff z k = none := by simp [peff, hmode]

/-- C09: consistency of the central 2-halo terms of MI and II in `fortuna` mode, and the exact relation of
GI to them: `f_c · GI² = …` holds with an extra central fraction. -/
theorem C09_fortuna_relations (s : Spectra) (hmode : s.nonlinearMode = .fortuna)
    (hresp : s.response = false) :
    ∃ mi ii gi, s.powerSpectrumMi = .ok mi ∧ s.powerSpectrumIi = .ok ii ∧ s.powerSpectrumGi = .ok gi ∧
      ∀ b z k, ∀ P, s.peff z k = some P →
        mi.pk2h b z k ^ 2 = ii.pk2h b z k * (P * s.twoHaloTruncationIa k) ∧
        s.fC b z ^ 2 * gi.pk2h b z k ^ 2
          = ii.pk2h b z k * (s.icTerm b z k ^ 2 * P * s.twoHaloTruncationIa k) := by
  refine ⟨_, _, _, (C03_no_error s hresp).2.2.1, (C03_no_error s hresp).2.2.2.1,
    (C03_no_error s hresp).2.2.2.2, fun b z k P hP => ?_⟩
  have hv : s.peffVal z k = P := by simp [peffVal, hP]
  simp only [powerSpectrumMiRaw, powerSpectrumIiRaw, powerSpectrumGiRaw, hmode, hv,
    alignmentAmplitude2h, alignmentAmplitude2hII]
  constructor <;> ring

/-- C09: GI agrees with MI and II (`GI² = II · Ic² · peff · damping`) only where the central fraction is
`±1` or the term vanishes. -/
theorem C09_gi_consistent_iff (s : Spectra) (hmode : s.nonlinearMode = .fortuna)
    (hresp : s.response = false) :
    ∃ ii gi, s.powerSpectrumIi = .ok ii ∧ s.powerSpectrumGi = .ok gi ∧
      ∀ b z k, ∀ P, s.peff z k = some P →
        (gi.pk2h b z k ^ 2 = ii.pk2h b z k * (s.icTerm b z k ^ 2 * P * s.twoHaloTruncationIa k) ↔
          s.fC b z ^ 2 = 1 ∨ gi.pk2h b z k = 0) := by
  obtain ⟨mi, ii, gi, _, h2, h3, h⟩ := C09_fortuna_relations s hmode hresp
  refine ⟨ii, gi, h2, h3, fun b z k P hP => ?_⟩
  have e := (h b z k P hP).2
  constructor
  · intro hc
    rw [← hc] at e
    by_cases hg : gi.pk2h b z k = 0
    · exact Or.inr hg
    · left
      have hg2 : gi.pk2h b z k ^ 2 ≠ 0 := pow_ne_zero 2 hg
      exact mul_right_cancel₀ hg2 (by rw [e, one_mul])
  · rintro (hc | hc)
    · rw [← e, hc, one_mul]
    · rw [← e, hc]; ring

/-- the demonstration object in `fortuna` mode -/
noncomputable def demoFo : Spectra := { demo with nonlinearMode := .fortuna, tEff := 1 / 2 }

/-- C09: a case with `f_c = 1/2` where GI is inconsistent with MI and II. -/
theorem C09_gi_inconsistent : ∃ (s : Spectra) (ii gi : PkResult), s.nonlinearMode = .fortuna ∧
    s.powerSpectrumIi = .ok ii ∧ s.powerSpectrumGi = .ok gi ∧ ∃ P, s.peff 0 0 = some P ∧
    gi.pk2h 0 0 0 ^ 2 ≠ ii.pk2h 0 0 0 * (s.icTerm 0 0 0 ^ 2 * P * s.twoHaloTruncationIa 0) := by
  obtain ⟨ii, gi, h2, h3, h⟩ := C09_gi_consistent_iff demoFo rfl rfl
  obtain ⟨P, hP, -⟩ := C09_peff demoFo rfl 0 0
  refine ⟨demoFo, ii, gi, rfl, h2, h3, P, hP, ?_⟩
  rw [Ne, h 0 0 0 P hP, not_or]
  constructor
  · simp [demoFo, demo]; norm_num
  · rw [(C03_no_error demoFo rfl).2.2.2.2] at h3
    injection h3 with h3
    have hic : demoFo.icTerm 0 0 0 = 1 := by
      change demo.icTerm 0 0 0 = 1
      unfold icTerm computeIgTerm; rw [demo_simpson]
      simp [demo, centralGalaxyProfile]; norm_num
    have hT : 0 < demoFo.twoHaloTruncationIa 0 := Real.exp_pos _
    rw [← h3]
    simp only [powerSpectrumGiRaw, demoFo]
    change -1 * demoFo.peffVal 0 0 * demoFo.icTerm 0 0 0 * demoFo.alignmentAmplitude2h 0
      * demoFo.twoHaloTruncationIa 0 ≠ 0
    rw [hic]
    refine mul_ne_zero (mul_ne_zero (mul_ne_zero (mul_ne_zero (by norm_num) ?_) one_ne_zero) ?_) hT.ne'
    · simp [peffVal, peff, demoFo, demo]; norm_num
    · simp [alignmentAmplitude2h, c1, demoFo, demo]; norm_num

example : demoFo.nonlinearMode = .fortuna ∧ demoFo.response = false ∧ 0 ≤ demoFo.tEff ∧ demoFo.tEff ≤ 1 := by
  refine ⟨rfl, rfl, ?_, ?_⟩ <;> simp only [demoFo] <;> norm_num

/-! ## C20 -/

/-- C20: with response on, each spectrum is the one without response times `P_nl / P_mm`. -/
theorem C20_response_rescales (s : Spectra) (hresp : s.response = true) {mm : PkResult}
    (hmm : ({ s with response := false } : Spectra).powerSpectrumMm = .ok mm) :
    let s0 : Spectra := { s with response := false }
    ∃ gg gm mi ii gi gg0 gm0 mi0 ii0 gi0,
      (s.powerSpectrumGg = .ok gg ∧ s.powerSpectrumGm = .ok gm ∧ s.powerSpectrumMi = .ok mi ∧
        s.powerSpectrumIi = .ok ii ∧ s.powerSpectrumGi = .ok gi) ∧
      (s0.powerSpectrumGg = .ok gg0 ∧ s0.powerSpectrumGm = .ok gm0 ∧ s0.powerSpectrumMi = .ok mi0 ∧
        s0.powerSpectrumIi = .ok ii0 ∧ s0.powerSpectrumGi = .ok gi0) ∧
      ∀ b z k, ∀ p ∈ [(gg, gg0), (gm, gm0), (mi, mi0), (ii, ii0), (gi, gi0)],
        p.1.pkTot b z k = p.2.pkTot b z k * (s.pkNl z k / mm.pkTot 0 z k) ∧
        p.1.pk1h b z k = p.2.pk1h b z k * (s.pkNl z k / mm.pkTot 0 z k) ∧
        p.1.pk2h b z k = p.2.pk2h b z k * (s.pkNl z k / mm.pkTot 0 z k) := by
  have hraw : s.powerSpectrumMmRaw = .ok mm := hmm
  have key : ∀ r, s.applyResponse r = .ok
      ⟨fun b z k => r.pk1h b z k * (s.pkNl z k / mm.pkTot 0 z k),
       fun b z k => r.pk2h b z k * (s.pkNl z k / mm.pkTot 0 z k),
       fun b z k => r.pkTot b z k * (s.pkNl z k / mm.pkTot 0 z k), r.galaxyLinearBias⟩ := by
    intro r; simp [applyResponse, hresp, hraw]
  intro s0
  obtain ⟨a1, a2, a3, a4, a5⟩ := C03_no_error s0 rfl
  refine ⟨_, _, _, _, _, _, _, _, _, _, ⟨key _, key _, key _, key _, key _⟩,
    ⟨a1, a2, a3, a4, a5⟩, fun b z k p hp => ?_⟩
  simp only [List.mem_cons, List.not_mem_nil, or_false] at hp
  rcases hp with rfl | rfl | rfl | rfl | rfl <;> exact ⟨rfl, rfl, rfl⟩

/-- C20: hence ratios between any two of these spectra are those of the halo model, and a spectrum equal to
the halo-model matter power is mapped to the supplied non-linear power. -/
theorem C20_ratios_preserved (s : Spectra) (hresp : s.response = true) {mm : PkResult}
    (hmm : ({ s with response := false } : Spectra).powerSpectrumMm = .ok mm) :
    let s0 : Spectra := { s with response := false }
    ∀ f g : Spectra → Except PyErr PkResult,
      f ∈ [powerSpectrumGg, powerSpectrumGm, powerSpectrumMi, powerSpectrumIi, powerSpectrumGi] →
      g ∈ [powerSpectrumGg, powerSpectrumGm, powerSpectrumMi, powerSpectrumIi, powerSpectrumGi] →
      ∃ X Y X0 Y0, f s = .ok X ∧ g s = .ok Y ∧ f s0 = .ok X0 ∧ g s0 = .ok Y0 ∧ ∀ b z k,
        s.pkNl z k ≠ 0 → mm.pkTot 0 z k ≠ 0 → Y0.pkTot b z k ≠ 0 →
        X.pkTot b z k / Y.pkTot b z k = X0.pkTot b z k / Y0.pkTot b z k ∧
        (X0.pkTot b z k = mm.pkTot 0 z k → X.pkTot b z k = s.pkNl z k) := by
  intro s0 f g hf hg
  have key : ∀ f : Spectra → Except PyErr PkResult,
      f ∈ [powerSpectrumGg, powerSpectrumGm, powerSpectrumMi, powerSpectrumIi, powerSpectrumGi] →
      ∃ X X0, f s = .ok X ∧ f s0 = .ok X0 ∧ ∀ b z k,
        X.pkTot b z k = X0.pkTot b z k * (s.pkNl z k / mm.pkTot 0 z k) := by
    intro f hf
    obtain ⟨gg, gm, mi, ii, gi, gg0, gm0, mi0, ii0, gi0, ⟨a1, a2, a3, a4, a5⟩,
      ⟨b1, b2, b3, b4, b5⟩, h⟩ := C20_response_rescales s hresp hmm
    simp only [List.mem_cons, List.not_mem_nil, or_false] at hf h
    rcases hf with rfl | rfl | rfl | rfl | rfl
    · exact ⟨gg, gg0, a1, b1, fun b z k => (h b z k (gg, gg0) (by simp)).1⟩
    · exact ⟨gm, gm0, a2, b2, fun b z k => (h b z k (gm, gm0) (by simp)).1⟩
    · exact ⟨mi, mi0, a3, b3, fun b z k => (h b z k (mi, mi0) (by simp)).1⟩
    · exact ⟨ii, ii0, a4, b4, fun b z k => (h b z k (ii, ii0) (by simp)).1⟩
    · exact ⟨gi, gi0, a5, b5, fun b z k => (h b z k (gi, gi0) (by simp)).1⟩
  obtain ⟨X, X0, hX, hX0, hx⟩ := key f hf
  obtain ⟨Y, Y0, hY, hY0, hy⟩ := key g hg
  refine ⟨X, Y, X0, Y0, hX, hY, hX0, hY0, fun b z k h1 h2 h3 => ⟨?_, fun h => ?_⟩⟩
  · rw [hx, hy]; field_simp
  · rw [hx, h]; field_simp

/-- C20: the reported galaxy bias is not rescaled. -/
theorem C20_bias_unchanged (s : Spectra) {r : PkResult} (h : s.powerSpectrumGg = .ok r) :
    r.galaxyLinearBias = s.powerSpectrumGgRaw.galaxyLinearBias := by
  unfold powerSpectrumGg applyResponse at h
  split_ifs at h
  · split at h
    · cases h
    · injection h with h; rw [← h]
  · injection h with h; rw [← h]

example : ∃ mm, ({ demo with response := false } : Spectra).powerSpectrumMm = .ok mm :=
  ⟨_, by simp [powerSpectrumMm, powerSpectrumMmRaw, demo]; rfl⟩

end Verif.Pk

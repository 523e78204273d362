import Verif.Model.PkHod
import Verif.Props.HodBase
import Verif.Props.PkDemo

/-! Properties C34 (vanishing of the spectra) and C43: occupation model and spectra together. -/

namespace Verif.Pk.Spectra

open Verif.Lib Verif.Spec

/-- entry `(b, z, k)` of all three components of a result is zero -/
def VanishesAt (r : PkResult) (b z : ℕ) : Prop :=
  ∀ k, r.pk1h b z k = 0 ∧ r.pk2h b z k = 0 ∧ r.pkTot b z k = 0

theorem iNL_zero_left (s : Spectra) (W : ℕ → ℝ) (z k : ℕ) : s.iNL (fun _ => 0) W z k = 0 := by
  simp [iNL, trapezoidalIntegrator]

theorem vanish_of_fractions (s : Spectra) (b z : ℕ) (hc : s.fC b z = 0) (hs : s.fS b z = 0) :
    VanishesAt s.powerSpectrumGgRaw b z ∧ VanishesAt s.powerSpectrumGmRaw b z ∧
      VanishesAt s.powerSpectrumMiRaw b z ∧ VanishesAt s.powerSpectrumIiRaw b z ∧
      VanishesAt s.powerSpectrumGiRaw b z := by
  have p1 : ∀ k, s.centralGalaxyProfile b z k = fun _ => 0 := by
    intro k; funext m; simp [centralGalaxyProfile, hc]
  have p2 : ∀ k, s.satelliteGalaxyProfile b z k = fun _ => 0 := by
    intro k; funext m; simp [satelliteGalaxyProfile, hs]
  have p3 : ∀ k, s.centralAlignmentProfile b z k = fun _ => 0 := by
    intro k; funext m; simp [centralAlignmentProfile, hc]
  have p4 : ∀ k, s.satelliteAlignmentProfile b z k = fun _ => 0 := by
    intro k; funext m; simp [satelliteAlignmentProfile, hs]
  have i0 : s.computeIgTerm (fun _ => 0) z = 0 := by
    simp [computeIgTerm, simpson_zero]
  have t1 : ∀ k, s.icTerm b z k = 0 := by intro k; rw [icTerm, p1, i0]
  have t2 : ∀ k, s.isTerm b z k = 0 := by intro k; rw [isTerm, p2, i0]
  have t3 : ∀ k, s.icAlignTerm b z k = 0 := by intro k; rw [icAlignTerm, p3, i0]; simp
  have t4 : ∀ k, s.isAlignTerm b z k = 0 := by intro k; rw [isAlignTerm, p4, i0]; simp
  have c1 : ∀ u : ℕ → ℝ, s.compute1hTerm (fun _ => 0) u z = 0 := by
    intro u; simp [compute1hTerm, simpson_zero]
  have c2 : ∀ u : ℕ → ℝ, s.compute1hTerm u (fun _ => 0) z = 0 := by
    intro u; simp [compute1hTerm, simpson_zero]
  refine ⟨fun k => ?_, fun k => ?_, fun k => ?_, fun k => ?_, fun k => ?_⟩
  · simp only [powerSpectrumGgRaw, p1, p2, t1, t2, c1, add_zero, iNL_zero_left, zero_mul]
    refine ⟨by ring, ?_, ?_⟩ <;> split_ifs <;> simp
  · simp only [powerSpectrumGmRaw, p1, p2, t1, t2, c1, add_zero, iNL_zero_left]
    refine ⟨by ring, ?_, ?_⟩ <;> split_ifs <;> simp
  · unfold powerSpectrumMiRaw
    cases s.nonlinearMode <;> simp [p3, p4, t3, t4, c2, iNL_zero_left, hc]
  · unfold powerSpectrumIiRaw
    cases s.nonlinearMode <;> simp [p3, p4, t3, t4, c2, iNL_zero_left, hc]
  · unfold powerSpectrumGiRaw
    cases s.nonlinearMode <;> simp [p1, p3, p4, t1, c2, iNL_zero_left]

/-- C34: at a redshift outside the range of the sample's nodes all galaxy and alignment spectra vanish
identically, in every mode.  The divisions by the extrapolated densities must be well-defined. -/
theorem C34_spectra_vanish_outside (s : Spectra) (nzv nz : ℕ) (z : ℕ → ℕ → ℝ)
    (occCen occSat : ℕ → ℕ → ℕ → ℝ) (b i : ℕ)
    (ho : s.zVec i < z b 0 ∨ z b (nz - 1) < s.zVec i)
    (_h1 : (s.withHod nzv nz z occCen occSat).numberDensityCen b i ≠ 0)
    (_h2 : (s.withHod nzv nz z occCen occSat).numberDensitySat b i ≠ 0) :
    VanishesAt (s.withHod nzv nz z occCen occSat).powerSpectrumGgRaw b i ∧
      VanishesAt (s.withHod nzv nz z occCen occSat).powerSpectrumGmRaw b i ∧
      VanishesAt (s.withHod nzv nz z occCen occSat).powerSpectrumMiRaw b i ∧
      VanishesAt (s.withHod nzv nz z occCen occSat).powerSpectrumIiRaw b i ∧
      VanishesAt (s.withHod nzv nz z occCen occSat).powerSpectrumGiRaw b i := by
  have := Hod.C34_fractions_outside (s.buildHod nzv nz z occCen occSat) b i ho
  exact vanish_of_fractions _ b i this.1 this.2

/-- C34: also with the response rescaling (which only multiplies): whenever a result is returned, it is
zero there. -/
theorem C34_spectra_vanish_outside_response (s : Spectra) (nzv nz : ℕ) (z : ℕ → ℕ → ℝ)
    (occCen occSat : ℕ → ℕ → ℕ → ℝ) (b i : ℕ)
    (ho : s.zVec i < z b 0 ∨ z b (nz - 1) < s.zVec i)
    (h1 : (s.withHod nzv nz z occCen occSat).numberDensityCen b i ≠ 0)
    (h2 : (s.withHod nzv nz z occCen occSat).numberDensitySat b i ≠ 0)
    (r : PkResult)
    (hr : (s.withHod nzv nz z occCen occSat).powerSpectrumGg = .ok r ∨
      (s.withHod nzv nz z occCen occSat).powerSpectrumGm = .ok r ∨
      (s.withHod nzv nz z occCen occSat).powerSpectrumMi = .ok r ∨
      (s.withHod nzv nz z occCen occSat).powerSpectrumIi = .ok r ∨
      (s.withHod nzv nz z occCen occSat).powerSpectrumGi = .ok r) : VanishesAt r b i := by
  obtain ⟨v1, v2, v3, v4, v5⟩ := C34_spectra_vanish_outside s nzv nz z occCen occSat b i ho h1 h2
  have key : ∀ (t : Spectra) (q r : PkResult), VanishesAt q b i → t.applyResponse q = .ok r →
      VanishesAt r b i := by
    intro t q r hq h k
    unfold applyResponse at h
    split_ifs at h
    · cases hm : t.powerSpectrumMmRaw with
      | error e => rw [hm] at h; cases h
      | ok mm =>
        rw [hm] at h
        injection h with h
        subst h
        obtain ⟨a, c, d⟩ := hq k
        simp [a, c, d]
    · injection h with h
      subst h
      exact hq k
  rcases hr with h | h | h | h | h
  · exact key _ _ _ v1 h
  · exact key _ _ _ v2 h
  · exact key _ _ _ v3 h
  · exact key _ _ _ v4 h
  · exact key _ _ _ v5 h

/-! ## C43 -/

theorem node_values (s : Spectra) {nzv nz : ℕ} {z : ℕ → ℕ → ℝ} {occCen occSat : ℕ → ℕ → ℕ → ℝ}
    {b i j : ℕ} (hzv : 2 ≤ nzv) (hnz : 2 ≤ nz) (hsv : SortedOn nzv s.zVec) (hs : SortedOn nz (z b))
    (hi : i < nzv) (hj : j < nz) (he : s.zVec i = z b j) :
    let h := s.buildHod nzv nz z occCen occSat
    (∀ f data, h.interpolate f data b i = data b j) ∧ (∀ m, h.dndlnmInt b j m = s.dndlnm i m) ∧
      ∀ m, h.haloBiasInt b j m = s.haloBias i m := by
  intro h
  refine ⟨fun f data => ?_, fun m => ?_, fun m => ?_⟩
  · change interp1d f nz (z b) (data b) (s.zVec i) = _
    rw [he]; exact interp1d_node hnz hs f _ hj
  · change interp1d .extrapolate nzv s.zVec (fun i => s.dndlnm i m) (z b j) = _
    rw [← he]; exact interp1d_node hzv hsv _ _ hi
  · change interp1d .extrapolate nzv s.zVec (fun i => s.haloBias i m) (z b j) = _
    rw [← he]; exact interp1d_node hzv hsv _ _ hi

/-- C43: at a redshift that is both a spectra redshift and a node of the sample, the large-scale galaxy bias
of the spectra (smallest wavenumber, where the satellite profile is one) equals the bias reported by the
occupation model, if that is not negative. -/
theorem C43_bias_agrees (s : Spectra) (nzv nz : ℕ) (z : ℕ → ℕ → ℝ) (occCen occSat : ℕ → ℕ → ℕ → ℝ)
    (b i j : ℕ) (hzv : 2 ≤ nzv) (hnz : 2 ≤ nz) (hsv : SortedOn nzv s.zVec) (hs : SortedOn nz (z b))
    (hi : i < nzv) (hj : j < nz) (he : s.zVec i = z b j)
    (hu : ∀ m < s.nm, s.uSat i 0 m = 1)
    (hc : (s.buildHod nzv nz z occCen occSat).numberDensityCen b i ≠ 0)
    (hsat : (s.buildHod nzv nz z occCen occSat).numberDensitySat b i ≠ 0)
    (ht : (s.buildHod nzv nz z occCen occSat).numberDensity b i ≠ 0)
    (hb : 0 ≤ (s.buildHod nzv nz z occCen occSat).galaxyLinearBias b i) :
    ∃ bias, (s.withHod nzv nz z occCen occSat).powerSpectrumGgRaw.galaxyLinearBias = some bias ∧
      bias b i 0 = (s.buildHod nzv nz z occCen occSat).galaxyLinearBias b i := by
  obtain ⟨n1, n2, n3⟩ := node_values s (occCen := occCen) (occSat := occSat) hzv hnz hsv hs hi hj he
  set h := s.buildHod nzv nz z occCen occSat with hh
  refine ⟨_, rfl, ?_⟩
  have hc' : h.ncen b j ≠ 0 := by rw [← n1 .extrapolate h.ncen]; exact hc
  have hs' : h.nsat b j ≠ 0 := by rw [← n1 .extrapolate h.nsat]; exact hsat
  have ht' : h.ntot b j ≠ 0 := by rw [← n1 .extrapolate h.ntot]; exact ht
  have eC : (s.withHod nzv nz z occCen occSat).icTerm b i 0 = h.biasIntegral h.occCen b j := by
    change simpson s.nm s.mass (fun m => h.fC b i * h.hodCen b i m * 1 / h.numberDensityCen b i
      * s.haloBias i m * s.dndlnm i m / s.mass m) = _
    have : ∀ m, h.fC b i * h.hodCen b i m * 1 / h.numberDensityCen b i * s.haloBias i m * s.dndlnm i m
        / s.mass m = (h.ntot b j)⁻¹ * (h.occCen b j m * h.haloBiasInt b j m * h.dndlnmInt b j m
          / h.mass m) := by
      intro m
      have e1 : h.fC b i = h.ncen b j / h.ntot b j := n1 _ _
      have e2 : h.hodCen b i m = h.occCen b j m := n1 .extrapolate fun b j => h.occCen b j m
      have e3 : h.numberDensityCen b i = h.ncen b j := n1 _ _
      rw [e1, e2, e3, n2, n3]
      change _ = (h.ntot b j)⁻¹ * (h.occCen b j m * s.haloBias i m * s.dndlnm i m / s.mass m)
      field_simp
    simp only [this]
    rw [simpson_smul]
    unfold Hod.Base.biasIntegral
    change _ * simpson s.nm s.mass _ = simpson s.nm s.mass _ / _
    ring
  have eS : (s.withHod nzv nz z occCen occSat).isTerm b i 0 = h.biasIntegral h.occSat b j := by
    change simpson s.nm s.mass (fun m => h.fS b i * h.hodSat b i m * s.uSat i 0 m
      / h.numberDensitySat b i * s.haloBias i m * s.dndlnm i m / s.mass m) = _
    have : ∀ m < s.nm, h.fS b i * h.hodSat b i m * s.uSat i 0 m / h.numberDensitySat b i
        * s.haloBias i m * s.dndlnm i m / s.mass m
        = (h.ntot b j)⁻¹ * (h.occSat b j m * h.haloBiasInt b j m * h.dndlnmInt b j m / h.mass m) := by
      intro m hm
      have e1 : h.fS b i = h.nsat b j / h.ntot b j := n1 _ _
      have e2 : h.hodSat b i m = h.occSat b j m := n1 .extrapolate fun b j => h.occSat b j m
      have e3 : h.numberDensitySat b i = h.nsat b j := n1 _ _
      rw [e1, e2, e3, n2, n3, hu m hm]
      change _ = (h.ntot b j)⁻¹ * (h.occSat b j m * s.haloBias i m * s.dndlnm i m / s.mass m)
      field_simp
    rw [simpson_congr_right this, simpson_smul]
    unfold Hod.Base.biasIntegral
    change _ * simpson s.nm s.mass _ = simpson s.nm s.mass _ / _
    ring
  have eT : h.galaxyLinearBias b i = h.biasIntegral h.occ b j := n1 _ _
  rw [eT, Hod.biasIntegral_add] at hb ⊢
  simp only [eC, eS]
  rw [show h.biasIntegral h.occCen b j * h.biasIntegral h.occCen b j
      + h.biasIntegral h.occSat b j * h.biasIntegral h.occSat b j
      + 2 * h.biasIntegral h.occCen b j * h.biasIntegral h.occSat b j
    = (h.biasIntegral h.occCen b j + h.biasIntegral h.occSat b j) ^ 2 by ring]
  exact Real.sqrt_sq hb

/-- the hypotheses of C43 and (second redshift) of C34 are met by the demonstration spectra with a sample
at redshifts 0 and 1/2, centrals and satellites in every halo -/
example : let z : ℕ → ℕ → ℝ := fun _ j => (j : ℝ) / 2
    let o : ℕ → ℕ → ℕ → ℝ := fun _ _ _ => 1
    SortedOn 2 demo.zVec ∧ SortedOn 2 (z 0) ∧ demo.zVec 0 = z 0 0 ∧ (∀ m < demo.nm, demo.uSat 0 0 m = 1) ∧
      (demo.buildHod 2 2 z o o).numberDensityCen 0 0 ≠ 0 ∧
      (demo.buildHod 2 2 z o o).numberDensitySat 0 0 ≠ 0 ∧
      (demo.buildHod 2 2 z o o).numberDensity 0 0 ≠ 0 ∧
      0 ≤ (demo.buildHod 2 2 z o o).galaxyLinearBias 0 0 ∧ z 0 (2 - 1) < demo.zVec 1 := by
  intro z o
  have s1 : SortedOn 2 demo.zVec := sortedOn_of_step fun i _ => by simp [demo]
  have s2 : SortedOn 2 (z 0) := sortedOn_of_step fun i _ => by
    change (i : ℝ) / 2 < ((i + 1 : ℕ) : ℝ) / 2; push_cast; linarith
  have e : demo.zVec 0 = z 0 0 := by simp [demo, z]
  obtain ⟨n1, n2, n3⟩ := node_values demo (occCen := o) (occSat := o) (b := 0) (le_refl 2) (le_refl 2) s1 s2
    (by decide : 0 < 2) (by decide : 0 < 2) e
  set h := demo.buildHod 2 2 z o o
  have v : ∀ N : ℕ → ℕ → ℕ → ℝ, h.massIntegral N 0 0 = (N 0 0 0 + 4 * N 0 0 1 + N 0 0 2) / 3 := by
    intro N
    unfold Hod.Base.massIntegral
    change simpson demo.nm demo.mass (fun m => _ / demo.mass m) = _
    rw [demo_simpson]
    simp only [n2]
    simp [demo]
    norm_num
  have vc : h.ncen 0 0 = 2 := by rw [Hod.Base.ncen, v]; simp [h, buildHod, o]; norm_num
  have vs : h.nsat 0 0 = 2 := by rw [Hod.Base.nsat, v]; simp [h, buildHod, o]; norm_num
  have vt : h.ntot 0 0 = 4 := by rw [Hod.massIntegral_add, vc, vs]; norm_num
  refine ⟨s1, s2, e, fun m hm => ?_, ?_, ?_, ?_, ?_, ?_⟩
  · simp only [demo, Hmi.uSat, demoRaw]; field_simp
  · rw [Hod.Base.numberDensityCen, n1, vc]; norm_num
  · rw [Hod.Base.numberDensitySat, n1, vs]; norm_num
  · rw [Hod.Base.numberDensity, n1, vt]; norm_num
  · rw [Hod.Base.galaxyLinearBias, n1, Hod.C33_bias_is_mean h 0 0 1 (fun m _ => by rw [n3]; simp [demo])
      (by rw [vt]; norm_num)]
    norm_num
  · simp [demo, z]; norm_num

end Verif.Pk.Spectra

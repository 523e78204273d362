import Verif.Props.UnionOfSamples
import Verif.Props.HodBase
import Verif.Lemmas.Interp

/-! Property C159: what changes when only the number of satellites changes. -/

namespace Verif.MoreSatellites

open Verif.Lib Verif.Spec Verif.Hod

/-! ## Parameters that only multiply the satellites -/

theorem decorate_smul (A : Option ℝ) (c N : ℝ) : decorateSat A (c * N) = c * decorateSat A N := by
  cases A <;> simp only [decorateSat]
  ring

theorem rpow_shift {x : ℝ} (hx : 0 ≤ x) (l δ α : ℝ) :
    (x / (10 : ℝ) ^ (l - δ)) ^ α = (10 : ℝ) ^ (α * δ) * (x / (10 : ℝ) ^ l) ^ α := by
  have h10 : (0 : ℝ) < 10 := by norm_num
  rw [Real.rpow_sub h10, div_div_eq_mul_div, mul_div_right_comm, Real.mul_rpow (by positivity) (by positivity), ← Real.rpow_mul h10.le,
    mul_comm δ α, mul_comm]

/-- C159: which parameters multiply the satellites of all halos by the same number and leave the centrals alone: the mass scale of
the satellites in four models, the normalisation of the satellites in the conditional model, and the decoration in all. -/
theorem C159_parameters {M : ℝ} (hM : 0 < M) (δ : ℝ) :
    (∀ p : StepParams, simpleSat { p with log10Msat := p.log10Msat - δ } M = (10 : ℝ) ^ (p.alpha * δ) * simpleSat p M ∧
      simpleCen { p with log10Msat := p.log10Msat - δ } M = simpleCen p M ∧
      zehaviSat { p with log10Msat := p.log10Msat - δ } M = (10 : ℝ) ^ (p.alpha * δ) * zehaviSat p M ∧
      zehaviCen { p with log10Msat := p.log10Msat - δ } M = zehaviCen p M) ∧
    (∀ p : ZhengParams, zhengSat { p with log10M1 := p.log10M1 - δ } M = (10 : ℝ) ^ (p.alpha * δ) * zhengSat p M ∧
      zhengCen { p with log10M1 := p.log10M1 - δ } M = zhengCen p M) ∧
    (∀ p : ZhaiParams, zhaiSat { p with log10Msat := p.log10Msat - δ } M = (10 : ℝ) ^ (p.alpha * δ) * zhaiSat p M ∧
      zhaiCen { p with log10Msat := p.log10Msat - δ } M = zhaiCen p M) ∧
    (∀ (p : CacciatoParams) (nobs : ℕ) (obs : ℕ → ℝ),
      CacciatoParams.hodSat { p with b0 := p.b0 + δ } nobs obs M = (10 : ℝ) ^ δ * p.hodSat nobs obs M ∧
      CacciatoParams.hodCen { p with b0 := p.b0 + δ } nobs obs M = p.hodCen nobs obs M) ∧
    ∀ a N : ℝ, decorateSat (some a) N = (1 + a) * decorateSat none N := by
  have h10 : (0 : ℝ) < 10 := by norm_num
  refine ⟨fun p => ⟨?_, rfl, ?_, rfl⟩, fun p => ⟨?_, rfl⟩, fun p => ⟨?_, rfl⟩, fun p nobs obs => ⟨?_, rfl⟩, fun a N => ?_⟩
  · simp only [simpleSat, simpleCen]
    rw [rpow_shift hM.le, ← decorate_smul]
    congr 1
    ring
  · simp only [zehaviSat]
    rw [rpow_shift hM.le, ← decorate_smul]
  · simp only [zhengSat]
    have hx : 0 ≤ heaviside (M - (10 : ℝ) ^ p.log10M0) 1 * (M - (10 : ℝ) ^ p.log10M0) := by
      unfold heaviside
      split_ifs with h1 h2
      · simp
      · simp [h2]
      · have : 0 < M - (10 : ℝ) ^ p.log10M0 := lt_of_le_of_ne (not_lt.1 h1) (Ne.symm h2)
        simpa using this.le
    rw [rpow_shift hx, ← decorate_smul]
  · simp only [zhaiSat]
    rw [rpow_shift hM.le, ← decorate_smul, mul_assoc]
  · simp only [CacciatoParams.hodSat]
    rw [← decorate_smul, ← simpson_smul]
    congr 2
    funext o
    have : CacciatoParams.phiStarS { p with b0 := p.b0 + δ } M = (10 : ℝ) ^ δ * p.phiStarS M := by
      simp only [CacciatoParams.phiStarS]
      rw [← Real.rpow_add h10]
      congr 1
      ring
    simp only [CacciatoParams.cofSat, this]
    simp only [CacciatoParams.meanObsC, CacciatoParams.obsNormC, CacciatoParams.mChar]
    ring
  · simp only [decorateSat]
    ring

/-! ## Numbers, fractions and bias -/

/-- the same halos and centrals with `c` times as many satellites -/
noncomputable def more (c : ℝ) (h : Base) : Base := { h with occSat := fun b j m => c * h.occSat b j m }

variable {h : Base} {b i j : ℕ} {c d : ℝ}

theorem more_ncen : (more c h).ncen b j = h.ncen b j := rfl

theorem more_nsat : (more c h).nsat b j = c * h.nsat b j := by
  unfold Base.nsat Base.massIntegral
  rw [← simpson_smul]
  refine congrArg _ (funext fun m => ?_)
  change c * h.occSat b j m * h.dndlnmInt b j m / h.mass m = _
  ring

theorem total (h : Base) (b j : ℕ) : h.ntot b j = h.ncen b j + h.nsat b j := by
  unfold Base.ntot Base.ncen Base.nsat Base.massIntegral
  rw [← simpson_add]
  refine congrArg _ (funext fun m => ?_)
  simp only [Base.occ]
  ring

theorem more_ntot : (more c h).ntot b j = h.ncen b j + c * h.nsat b j := by
  rw [total, more_ncen, more_nsat]

/-- bias of all halos of a population, weighted with its galaxies but not divided by their number -/
noncomputable def biased (h : Base) (N : ℕ → ℕ → ℕ → ℝ) (b j : ℕ) : ℝ :=
  simpson h.nm h.mass (fun m => N b j m * h.haloBiasInt b j m * h.dndlnmInt b j m / h.mass m)

theorem more_bias : (more c h).biasIntegral (more c h).occ b j
    = (biased h h.occCen b j + c * biased h h.occSat b j) / (h.ncen b j + c * h.nsat b j) := by
  unfold Base.biasIntegral
  rw [more_ntot]
  congr 1
  unfold biased
  rw [← simpson_smul, ← simpson_add]
  refine congrArg _ (funext fun m => ?_)
  change (h.occCen b j m + c * h.occSat b j m) * h.haloBiasInt b j m * h.dndlnmInt b j m / h.mass m = _
  ring

theorem interp_mono {fill : Fill} {n : ℕ} (hn : 2 ≤ n) {x y w : ℕ → ℝ} (hx : SortedOn n x) {q : ℝ} (h0 : x 0 ≤ q) (h1 : q ≤ x (n - 1))
    (hy : ∀ i < n, y i ≤ w i) : interp1d fill n x y q ≤ interp1d fill n x w q := by
  rw [interp1d_inside h0 h1, interp1d_inside h0 h1]
  obtain ⟨j, t, hj1, hj2, ht0, ht1, -, hv⟩ := interpLinear_convex hn hx h0 h1
  rw [hv, hv]
  have := hy (j - 1) (by omega)
  have := hy j hj2
  exact add_le_add (mul_le_mul_of_nonneg_left (hy _ (by omega)) (sub_nonneg.2 ht1)) (mul_le_mul_of_nonneg_left (hy _ hj2) ht0)

/-- there are centrals and satellites at all redshifts of the sample -/
structure Present (h : Base) (b : ℕ) : Prop where
  cen : ∀ j < h.nz, 0 < h.ncen b j
  sat : ∀ j < h.nz, 0 < h.nsat b j

/-- the redshifts of the sample are sorted and include that of the spectra -/
structure Covers (h : Base) (b i : ℕ) : Prop where
  two : 2 ≤ h.nz
  sorted : SortedOn h.nz (h.z b)
  low : h.z b 0 ≤ h.zVec i
  high : h.zVec i ≤ h.z b (h.nz - 1)

theorem mean_mono {n m B S : ℝ} (hn : 0 < n) (hm : 0 < m) (hc : 0 < c) (hcd : c ≤ d) (hB : B / n ≤ S / m) :
    (B + c * S) / (n + c * m) ≤ (B + d * S) / (n + d * m) := by
  have hd : 0 < d := hc.trans_le hcd
  rw [div_le_div_iff₀ hn hm] at hB
  rw [div_le_div_iff₀ (by positivity) (by positivity)]
  nlinarith [mul_le_mul_of_nonneg_left hB (sub_nonneg.2 hcd)]

/-- C159: numbers of galaxies, fractions and bias.  The centrals stay, the satellites are multiplied, the density rises, the
fraction of satellites rises and that of centrals falls; the bias of the sample moves towards that of the satellites. -/
theorem C159_counts (hp : Present h b) (hv : Covers h b i) (hc : 0 < c) (hcd : c ≤ d) :
    (more c h).numberDensityCen b i = h.numberDensityCen b i ∧
    (more c h).numberDensitySat b i = c * h.numberDensitySat b i ∧
    (more c h).numberDensity b i ≤ (more d h).numberDensity b i ∧
    (more c h).fS b i ≤ (more d h).fS b i ∧ (more d h).fC b i ≤ (more c h).fC b i ∧
    ((∀ j < h.nz, biased h h.occCen b j / h.ncen b j ≤ biased h h.occSat b j / h.nsat b j) →
      (more c h).galaxyLinearBias b i ≤ (more d h).galaxyLinearBias b i) ∧
    ((∀ j < h.nz, biased h h.occSat b j / h.nsat b j ≤ biased h h.occCen b j / h.ncen b j) →
      (more d h).galaxyLinearBias b i ≤ (more c h).galaxyLinearBias b i) := by
  have hd : 0 < d := hc.trans_le hcd
  have mono : ∀ {fill : Fill} {y w : ℕ → ℝ}, (∀ j < h.nz, y j ≤ w j) →
      interp1d fill h.nz (h.z b) y (h.zVec i) ≤ interp1d fill h.nz (h.z b) w (h.zVec i) :=
    fun hy => interp_mono hv.two hv.sorted hv.low hv.high hy
  have key : ∀ j < h.nz, ∀ x > 0, 0 < h.ncen b j + x * h.nsat b j := fun j hj x hx => add_pos (hp.cen j hj) (mul_pos hx (hp.sat j hj))
  have lift : ∀ {x : ℝ} (fill : Fill) (f : ℕ → ℕ → ℝ), (more x h).interpolate fill f b i = interp1d fill h.nz (h.z b) (f b) (h.zVec i) :=
    fun _ _ => rfl
  simp only [Base.numberDensity, Base.fS, Base.fC, Base.galaxyLinearBias, lift]
  refine ⟨rfl, ?_, mono fun j hj => ?_, mono fun j hj => ?_, mono fun j hj => ?_, fun hb => mono fun j hj => ?_, fun hb => mono fun j hj => ?_⟩
  · unfold Base.numberDensitySat Base.interpolate
    change interpLinear h.nz (h.z b) (fun j => (more c h).nsat b j) (h.zVec i) = c * interpLinear h.nz (h.z b) (fun j => h.nsat b j) (h.zVec i)
    simp only [more_nsat]
    exact interpLinear_smul _ _ _ _ _
  · rw [more_ntot, more_ntot]
    have := mul_le_mul_of_nonneg_right hcd (hp.sat j hj).le
    linarith
  · simp only [more_ntot, more_nsat]
    have a := hp.cen j hj
    have e := hp.sat j hj
    rw [div_le_div_iff₀ (key j hj c hc) (key j hj d hd)]
    nlinarith [mul_le_mul_of_nonneg_right hcd (mul_pos a e).le]
  · simp only [more_ntot, more_ncen]
    have a := hp.cen j hj
    have e := hp.sat j hj
    refine div_le_div_of_nonneg_left a.le (key j hj c hc) ?_
    have := mul_le_mul_of_nonneg_right hcd e.le
    linarith
  · rw [more_bias, more_bias]
    exact mean_mono (hp.cen j hj) (hp.sat j hj) hc hcd (hb j hj)
  · rw [more_bias, more_bias]
    have := mean_mono (B := -biased h h.occCen b j) (S := -biased h h.occSat b j) (hp.cen j hj) (hp.sat j hj) hc hcd
      (by rw [neg_div, neg_div]; exact neg_le_neg (hb j hj))
    have e : ∀ x, -biased h h.occCen b j + x * -biased h h.occSat b j = -(biased h h.occCen b j + x * biased h h.occSat b j) := fun x => by ring
    rw [e, e, neg_div, neg_div] at this
    linarith

/-- the hypotheses are met -/
theorem demo_present : Present Hod.demo 0 := ⟨fun j _ => (Hod.demo_ntot j).2.1, fun j _ => (Hod.demo_ntot j).2.2⟩

theorem demo_covers : Covers Hod.demo 0 0 where
  two := le_refl 2
  sorted := sortedOn_of_step fun i _ => by simp only [Hod.demo]; push_cast; linarith
  low := by simp [Hod.demo]
  high := by simp [Hod.demo]

example : (more 1 Hod.demo).fS 0 0 ≤ (more 3 Hod.demo).fS 0 0 :=
  (C159_counts demo_present demo_covers (by norm_num) (by norm_num)).2.2.2.1

end Verif.MoreSatellites

namespace Verif.Pk.MoreSatellites

open Verif.Lib Verif.Spec Verif.Pk Verif.Pk.Spectra Verif.Pk.Samples

/-! ## Spectra -/

/-- the same centrals with `c` times as many satellites -/
def more (c : ℝ) (p : Population) : Population :=
  ⟨p.cen, fun b z m => c * p.sat b z m, p.nCen, fun b z => c * p.nSat b z⟩

variable {s : Spectra} {p : Population} {b z k : ℕ} {c d : ℝ}

theorem more_present (h : p.Present b z) (hc : 0 < c) : (more c p).Present b z := ⟨h.cen, mul_pos hc h.sat⟩

/-- the fraction of satellites -/
noncomputable def fraction (c : ℝ) (p : Population) (b z : ℕ) : ℝ := c * p.nSat b z / (p.nCen b z + c * p.nSat b z)

theorem fraction_mono (h : p.Present b z) (hc : 0 < c) (hcd : c ≤ d) :
    0 < fraction c p b z ∧ fraction c p b z ≤ fraction d p b z ∧ fraction d p b z < 1 := by
  have a := h.cen
  have e := h.sat
  have hd : 0 < d := hc.trans_le hcd
  refine ⟨by unfold fraction; positivity, ?_, ?_⟩
  · unfold fraction
    rw [div_le_div_iff₀ (by positivity) (by positivity)]
    nlinarith [mul_le_mul_of_nonneg_right hcd (mul_pos a e).le]
  · unfold fraction
    rw [div_lt_one (by positivity)]
    linarith

/-- centrals alone, per central -/
noncomputable def cenOnly (p : Population) (b z m : ℕ) : ℝ := p.cen b z m / p.nCen b z

/-- satellites alone, per satellite, at this wavenumber -/
noncomputable def satOnly (s : Spectra) (p : Population) (b z k m : ℕ) : ℝ := p.sat b z m * s.uSat z k m / p.nSat b z

theorem more_weight (h : p.Present b z) (hc : 0 < c) (m : ℕ) :
    galaxyWeight (populate s (more c p)) b z k m
      = (1 - fraction c p b z) * cenOnly p b z m + fraction c p b z * satOnly s p b z k m := by
  have a := h.cen
  have e := h.sat
  have f : 0 < p.nCen b z + c * p.nSat b z := by positivity
  simp only [galaxyWeight, HaloModel.galaxies, populate, Population.n, more, fraction, cenOnly, satOnly]
  field_simp
  ring

theorem more_bias (h : p.Present b z) (hc : 0 < c) :
    (haloes s z k).bias1 (galaxyWeight (populate s (more c p)) b z k) =
      (1 - fraction c p b z) * (haloes s z k).bias1 (cenOnly p b z) + fraction c p b z * (haloes s z k).bias1 (satOnly s p b z k) := by
  simp only [HaloModel.bias1]
  change simpson s.nm s.mass _ = _ * simpson s.nm s.mass _ + _ * simpson s.nm s.mass _
  rw [← simpson_smul, ← simpson_smul, ← simpson_add]
  refine congrArg _ (funext fun m => ?_)
  rw [more_weight h hc]
  ring

theorem more_cross (h : p.Present b z) (hc : 0 < c) (V : ℕ → ℝ) :
    (haloes s z k).oneHalo (galaxyWeight (populate s (more c p)) b z k) V =
      (1 - fraction c p b z) * (haloes s z k).oneHalo (cenOnly p b z) V + fraction c p b z * (haloes s z k).oneHalo (satOnly s p b z k) V := by
  simp only [HaloModel.oneHalo]
  change simpson s.nm s.mass _ = _ * simpson s.nm s.mass _ + _ * simpson s.nm s.mass _
  rw [← simpson_smul, ← simpson_smul, ← simpson_add]
  refine congrArg _ (funext fun m => ?_)
  rw [more_weight h hc]
  ring

/-- C159: galaxies and matter.  With more satellites both terms move from those of the centrals alone to those of the satellites alone,
in proportion to the fraction of satellites. -/
theorem C159_galaxies_matter (hs : Sampled s) (hmode : s.nonlinearMode ≠ .bnl) (hresp : s.response = false) (h : p.Present b z)
    (hc : 0 < c) : ∃ r, (populate s (more c p)).powerSpectrumGm = .ok r ∧
      r.pk1h b z k = (1 - fraction c p b z) * ((haloes s z k).oneHalo (cenOnly p b z) (s.matterProfile1hG b z k) * s.oneHaloTruncation k)
        + fraction c p b z * ((haloes s z k).oneHalo (satOnly s p b z k) (s.matterProfile1hG b z k) * s.oneHaloTruncation k) ∧
      r.pk2h b z k = s.pkLin z k * ((1 - fraction c p b z) * (haloes s z k).bias1 (cenOnly p b z)
          + fraction c p b z * (haloes s z k).bias1 (satOnly s p b z k))
        * ((haloes s z k).bias1 ((haloes s z k).matter (s.uDm z k)) + (haloes s z k).missing) * s.twoHaloTruncation k := by
  obtain ⟨r, r1, r2⟩ := C97_galaxies_matter (s := populate s (more c p)) ⟨hs.mass, hs.some⟩ hmode hresp
  have R := r2 b z k (occupied s (more_present h hc))
  have c1 := more_cross (s := s) (k := k) h hc (s.matterProfile1hG b z k)
  have c2 := more_bias (s := s) (k := k) h hc
  refine ⟨r, r1, ?_, ?_⟩
  · rw [R.1]
    change (haloes s z k).oneHalo _ (s.matterProfile1hG b z k) * s.oneHaloTruncation k = _
    rw [c1]
    ring
  · rw [R.2]
    change s.pkLin z k * (haloes s z k).bias1 _ * ((haloes s z k).bias1 ((haloes s z k).matter (s.uDm z k)) + (haloes s z k).missing)
      * s.twoHaloTruncation k = _
    rw [c2]

/-- pairs of centrals and satellites in the same halo -/
noncomputable def mixed (s : Spectra) (p : Population) (b z k : ℕ) : ℝ :=
  simpson s.nm s.mass fun m => p.cen b z m * (p.sat b z m * s.uSat z k m) * (s.dndlnm z m / s.mass m)

/-- pairs of satellites in the same halo -/
noncomputable def satellites (s : Spectra) (p : Population) (b z k : ℕ) : ℝ :=
  simpson s.nm s.mass fun m => s.poissonFunc m * (p.sat b z m * s.uSat z k m) ^ 2 * (s.dndlnm z m / s.mass m)

/-- C159: galaxies with galaxies, as a function of the number of satellites. -/
theorem C159_galaxies (hmode : s.nonlinearMode ≠ .bnl) (hresp : s.response = false) (h : p.Present b z) (hc : 0 < c) :
    ∃ r, (populate s (more c p)).powerSpectrumGg = .ok r ∧
      r.pk1h b z k = (2 * c * mixed s p b z k + c ^ 2 * satellites s p b z k) / (p.nCen b z + c * p.nSat b z) ^ 2 * s.oneHaloTruncation k ∧
      r.pk2h b z k = s.pkLin z k * ((1 - fraction c p b z) * (haloes s z k).bias1 (cenOnly p b z)
          + fraction c p b z * (haloes s z k).bias1 (satOnly s p b z k)) ^ 2 * s.twoHaloTruncation k := by
  obtain ⟨r, r1, r2⟩ := C97_galaxies (s := populate s (more c p)) hmode hresp
  have R := r2 b z k (occupied s (more_present h hc))
  have c2 := more_bias (s := s) (k := k) h hc
  have a := h.cen
  have e := h.sat
  have f : 0 < p.nCen b z + c * p.nSat b z := by positivity
  refine ⟨r, r1, ?_, ?_⟩
  · rw [R.1]
    change simpson s.nm s.mass (fun m => (2 * p.cen b z m * (c * p.sat b z m) * s.uSat z k m
      + s.poissonFunc m * (c * p.sat b z m * s.uSat z k m) ^ 2) / (p.nCen b z + c * p.nSat b z) ^ 2 * (s.dndlnm z m / s.mass m))
      * s.oneHaloTruncation k = _
    congr 1
    rw [mixed, satellites, ← simpson_smul, ← simpson_smul, ← simpson_add, div_eq_inv_mul, ← simpson_smul]
    refine congrArg _ (funext fun m => ?_)
    generalize s.dndlnm z m / s.mass m = w
    field_simp
  · rw [R.2]
    change s.pkLin z k * (haloes s z k).bias1 _ ^ 2 * s.twoHaloTruncation k = _
    rw [c2]

/-- C159: hence the one-halo power of galaxies rises with the number of satellites as long as they are at most half of the sample. -/
theorem C159_one_halo_rises (hmode : s.nonlinearMode ≠ .bnl) (hresp : s.response = false) (h : p.Present b z) (hc : 0 < c) (hcd : c ≤ d)
    (hf : fraction d p b z ≤ 1 / 2) (g : GentleGrid s.nm s.mass)
    (hm : ∀ m < s.nm, 0 < s.mass m ∧ 0 ≤ s.dndlnm z m ∧ 0 ≤ s.uSat z k m ∧ 0 ≤ s.poissonFunc m ∧ 0 ≤ p.cen b z m ∧ 0 ≤ p.sat b z m)
    {r t : PkResult} (hr : (populate s (more c p)).powerSpectrumGg = .ok r) (ht : (populate s (more d p)).powerSpectrumGg = .ok t) :
    r.pk1h b z k ≤ t.pk1h b z k := by
  have hd : 0 < d := hc.trans_le hcd
  obtain ⟨r', e1, q1, -⟩ := C159_galaxies (s := s) (k := k) hmode hresp h hc
  obtain ⟨t', e2, q2, -⟩ := C159_galaxies (s := s) (k := k) hmode hresp h hd
  rw [hr] at e1
  rw [ht] at e2
  cases e1
  cases e2
  rw [q1, q2]
  have a := h.cen
  have e := h.sat
  have X : 0 ≤ mixed s p b z k := simpson_nonneg g fun m hmm => by
    obtain ⟨m0, d0, u0, -, c0, s0⟩ := hm m hmm
    positivity
  have Y : 0 ≤ satellites s p b z k := simpson_nonneg g fun m hmm => by
    obtain ⟨m0, d0, u0, p0, c0, s0⟩ := hm m hmm
    positivity
  refine mul_le_mul_of_nonneg_right ?_ (oneHaloTruncation_nonneg s k)
  have fc : 0 < p.nCen b z + c * p.nSat b z := by positivity
  have fd : 0 < p.nCen b z + d * p.nSat b z := by positivity
  have hhalf : d * p.nSat b z ≤ p.nCen b z := by
    unfold fraction at hf
    rw [div_le_div_iff₀ fd (by norm_num)] at hf
    linarith
  set n := p.nCen b z
  set m := p.nSat b z
  have k1 : c / (n + c * m) ≤ d / (n + d * m) := by
    rw [div_le_div_iff₀ fc fd]
    nlinarith [mul_le_mul_of_nonneg_right hcd a.le]
  have k2 : c / (n + c * m) ^ 2 ≤ d / (n + d * m) ^ 2 := by
    rw [div_le_div_iff₀ (by positivity) (by positivity)]
    have h1 : c * m ≤ n := (mul_le_mul_of_nonneg_right hcd e.le).trans hhalf
    have h2 : 0 ≤ n ^ 2 - (c * m) * (d * m) := by nlinarith [mul_le_mul h1 hhalf (by positivity) a.le]
    nlinarith [mul_nonneg (sub_nonneg.2 hcd) h2]
  have k3 : c ^ 2 / (n + c * m) ^ 2 ≤ d ^ 2 / (n + d * m) ^ 2 := by
    rw [← div_pow, ← div_pow]
    exact pow_le_pow_left₀ (by positivity) k1 2
  have l1 := mul_le_mul_of_nonneg_right k2 X
  have l2 := mul_le_mul_of_nonneg_right k3 Y
  have ex : ∀ x : ℝ, (2 * x * mixed s p b z k + x ^ 2 * satellites s p b z k) / (n + x * m) ^ 2
      = 2 * (x / (n + x * m) ^ 2 * mixed s p b z k) + x ^ 2 / (n + x * m) ^ 2 * satellites s p b z k := fun x => by ring
  rw [ex, ex]
  linarith

/-- C159: beyond that, without pairs of satellites, it falls. -/
theorem C159_one_halo_falls (hmode : s.nonlinearMode ≠ .bnl) (hresp : s.response = false) (h : p.Present b z) (hc : 0 < c) (hcd : c ≤ d)
    (hf : 1 / 2 ≤ fraction c p b z) (g : GentleGrid s.nm s.mass)
    (hm : ∀ m < s.nm, 0 < s.mass m ∧ 0 ≤ s.dndlnm z m ∧ 0 ≤ s.uSat z k m ∧ s.poissonFunc m = 0 ∧ 0 ≤ p.cen b z m ∧ 0 ≤ p.sat b z m)
    {r t : PkResult} (hr : (populate s (more c p)).powerSpectrumGg = .ok r) (ht : (populate s (more d p)).powerSpectrumGg = .ok t) :
    t.pk1h b z k ≤ r.pk1h b z k := by
  have hd : 0 < d := hc.trans_le hcd
  obtain ⟨r', e1, q1, -⟩ := C159_galaxies (s := s) (k := k) hmode hresp h hc
  obtain ⟨t', e2, q2, -⟩ := C159_galaxies (s := s) (k := k) hmode hresp h hd
  rw [hr] at e1
  rw [ht] at e2
  cases e1
  cases e2
  rw [q1, q2]
  have a := h.cen
  have e := h.sat
  have X : 0 ≤ mixed s p b z k := simpson_nonneg g fun m hmm => by
    obtain ⟨m0, d0, u0, -, c0, s0⟩ := hm m hmm
    positivity
  have Y : satellites s p b z k = 0 := by
    rw [← simpson_zero s.nm s.mass]
    exact simpson_congr_right fun m hmm => by rw [(hm m hmm).2.2.2.1]; ring
  refine mul_le_mul_of_nonneg_right ?_ (oneHaloTruncation_nonneg s k)
  have fc : 0 < p.nCen b z + c * p.nSat b z := by positivity
  have fd : 0 < p.nCen b z + d * p.nSat b z := by positivity
  have hhalf : p.nCen b z ≤ c * p.nSat b z := by
    unfold fraction at hf
    rw [div_le_div_iff₀ (by norm_num) fc] at hf
    linarith
  set n := p.nCen b z
  set m := p.nSat b z
  have k2 : d / (n + d * m) ^ 2 ≤ c / (n + c * m) ^ 2 := by
    rw [div_le_div_iff₀ (by positivity) (by positivity)]
    have h1 : n ≤ d * m := hhalf.trans (mul_le_mul_of_nonneg_right hcd e.le)
    have h2 : 0 ≤ (c * m) * (d * m) - n ^ 2 := by nlinarith [mul_le_mul hhalf h1 a.le (by positivity)]
    nlinarith [mul_nonneg (sub_nonneg.2 hcd) h2]
  have l1 := mul_le_mul_of_nonneg_right k2 X
  have ex : ∀ x : ℝ, (2 * x * mixed s p b z k + x ^ 2 * 0) / (n + x * m) ^ 2 = 2 * (x / (n + x * m) ^ 2 * mixed s p b z k) := fun x => by ring
  rw [Y, ex, ex]
  linarith

example := C159_galaxies_matter (s := demo) (b := 0) (z := 0) (k := 1) (c := 3) demo_sampled (by simp [demo]) rfl red_present (by norm_num)

/-- the hypotheses of the comparisons are met: up to twice as many satellites as in `red`, and no fewer -/
example : fraction 1 red 0 0 = 1 / 3 ∧ fraction 2 red 0 0 = 1 / 2 ∧ ∃ r t, (populate demo (more 1 red)).powerSpectrumGg = .ok r ∧
    (populate demo (more 2 red)).powerSpectrumGg = .ok t ∧ r.pk1h 0 0 1 ≤ t.pk1h 0 0 1 := by
  have h2 : fraction 2 red 0 0 = 1 / 2 := by norm_num [fraction, red]
  refine ⟨by norm_num [fraction, red], h2, _, _, rfl, rfl, ?_⟩
  exact C159_one_halo_rises (s := demo) (p := red) (b := 0) (z := 0) (k := 1) (c := 1) (d := 2) (by simp [demo]) rfl red_present (by norm_num)
    (by norm_num) h2.le demo_gentle (fun m _ => ⟨by simp only [demo]; positivity, by simp only [demo]; positivity,
      by simp only [demo, Hmi.uSat, demoRaw]; positivity, by simp [demo], by simp [red], by simp [red]⟩) rfl rfl

example : ∃ r t, (populate { demo with poissonFunc := fun _ => 0 } (more 2 red)).powerSpectrumGg = .ok r ∧
    (populate { demo with poissonFunc := fun _ => 0 } (more 5 red)).powerSpectrumGg = .ok t ∧ t.pk1h 0 0 1 ≤ r.pk1h 0 0 1 := by
  refine ⟨_, _, rfl, rfl, ?_⟩
  exact C159_one_halo_falls (s := { demo with poissonFunc := fun _ => 0 }) (p := red) (b := 0) (z := 0) (k := 1) (c := 2) (d := 5) (by simp [demo])
    rfl red_present (by norm_num) (by norm_num) (by norm_num [fraction, red]) demo_gentle (fun m _ => ⟨by simp only [demo]; positivity,
      by simp only [demo]; positivity, by simp only [demo, Hmi.uSat, demoRaw]; positivity, rfl, by simp [red], by simp [red]⟩) rfl rfl

end Verif.Pk.MoreSatellites

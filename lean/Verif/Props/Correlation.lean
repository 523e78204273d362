import Verif.Props.PkTextbook
import Verif.Props.PkRounded
import Verif.Props.ProfileOrder

/-! Property C149: how strongly galaxies, matter and shapes can be correlated. -/

namespace Verif.Pk.Correlation

open Verif.Lib Verif.Spec Verif.Pk Verif.Pk.Spectra

/-! ## sums of two contributions -/

/-- Cauchy and Schwarz for a sum of two contributions -/
theorem sum_sq {c a₁ a₂ x₁ x₂ y₁ y₂ : ℝ} (hc : 0 ≤ c) (hx₁ : 0 ≤ x₁) (hx₂ : 0 ≤ x₂) (hy₁ : 0 ≤ y₁) (hy₂ : 0 ≤ y₂)
    (h₁ : a₁ ^ 2 ≤ c * (x₁ * y₁)) (h₂ : a₂ ^ 2 ≤ c * (x₂ * y₂)) : (a₁ + a₂) ^ 2 ≤ c * ((x₁ + x₂) * (y₁ + y₂)) := by
  have h : |2 * (a₁ * a₂)| ≤ c * (x₁ * y₂ + x₂ * y₁) := by
    refine abs_le_of_sq_le_sq ?_ (by positivity)
    have e : (2 * (a₁ * a₂)) ^ 2 = 4 * (a₁ ^ 2 * a₂ ^ 2) := by ring
    rw [e]
    have m : a₁ ^ 2 * a₂ ^ 2 ≤ c * (x₁ * y₁) * (c * (x₂ * y₂)) := mul_le_mul h₁ h₂ (sq_nonneg _) (by positivity)
    have s : 0 ≤ c ^ 2 * (x₁ * y₂ - x₂ * y₁) ^ 2 := by positivity
    nlinarith
  have := (abs_le.1 h).2
  nlinarith

theorem shape_nonneg {L A B T : ℝ} (hL : 0 ≤ L) (hT : 0 ≤ T) : 0 ≤ L * (A ^ 2 + A * B + B ^ 2) * T :=
  mul_nonneg (mul_nonneg hL (by nlinarith [sq_nonneg (A + B), sq_nonneg A, sq_nonneg B])) hT

/-- counting the cross term once instead of twice costs at most a quarter -/
theorem shape_pair {L A B C C' T τ : ℝ} (hC : C ^ 2 ≤ C' ^ 2) :
    (L * C * (A + B) * (τ * T)) ^ 2 ≤ 4 / 3 * (L * (A ^ 2 + A * B + B ^ 2) * (τ * T) * (τ * (L * C' ^ 2 * T))) := by
  have q : (A + B) ^ 2 ≤ 4 / 3 * (A ^ 2 + A * B + B ^ 2) := by nlinarith [sq_nonneg (A - B)]
  have r : (A + B) ^ 2 * C ^ 2 ≤ (4 / 3 * (A ^ 2 + A * B + B ^ 2)) * C' ^ 2 :=
    mul_le_mul q hC (sq_nonneg _) ((sq_nonneg _).trans q)
  calc (L * C * (A + B) * (τ * T)) ^ 2 = ((A + B) ^ 2 * C ^ 2) * (L * (τ * T)) ^ 2 := by ring
    _ ≤ ((4 / 3 * (A ^ 2 + A * B + B ^ 2)) * C' ^ 2) * (L * (τ * T)) ^ 2 := mul_le_mul_of_nonneg_right r (sq_nonneg _)
    _ = _ := by ring

variable {s : Spectra} {b z k : ℕ}

/-- the galaxies and the haloes at bin `b`, redshift `z` and wavenumber `k`: halo counts and the linear power are not
negative, and the fractions of centrals and satellites are those of the densities. -/
structure Sample (s : Spectra) (b z k : ℕ) : Prop where
  grid : GentleGrid s.nm s.mass
  mass : ∀ m < s.nm, 0 < s.mass m
  count : ∀ m < s.nm, 0 ≤ s.dndlnm z m
  linear : 0 ≤ s.pkLin z k
  wavenumber : 0 < s.kVec k
  occupied : Occupied s b z

/-- the pairs of a galaxy with itself that the code leaves out, and those the Poisson factor takes away -/
noncomputable def leftOut (s : Spectra) (b z k : ℕ) : ℝ :=
  (haloes s z k).integral (fun m => (s.hodCen b z m ^ 2 + (1 - s.poissonFunc m) * (s.hodSat b z m * s.uSat z k m) ^ 2)
    / s.numberDensity b z ^ 2 * (haloes s z k).number m) * s.oneHaloTruncation k

theorem number_nonneg (h : Sample s b z k) : ∀ m < s.nm, 0 ≤ s.dndlnm z m / s.mass m :=
  fun m hm => div_nonneg (h.count m hm) (h.mass m hm).le

/-- together with the pairs left out, the 1-halo galaxy power is that of one field -/
theorem gg_field (hmode : s.nonlinearMode ≠ .bnl) (hresp : s.response = false) (h : Sample s b z k) :
    ∃ r, s.powerSpectrumGg = .ok r ∧
      r.pk1h b z k + leftOut s b z k =
        s.compute1hTerm (galaxyWeight s b z k) (galaxyWeight s b z k) z * s.oneHaloTruncation k ∧
      r.pk2h b z k = s.pkLin z k * (haloes s z k).bias1 (galaxyWeight s b z k) ^ 2 * s.twoHaloTruncation k ∧
      r.pkTot b z k = r.pk1h b z k + r.pk2h b z k := by
  obtain ⟨r, hr, h2⟩ := C97_galaxies (s := s) hmode hresp
  refine ⟨r, hr, ?_, (h2 b z k h.occupied).2, C03_total_is_sum s (Or.inl hr) b z k⟩
  rw [(h2 b z k h.occupied).1, leftOut, ← add_mul]
  congr 1
  simp only [haloes, compute1hTerm]
  rw [← simpson_add]
  refine congrArg _ (funext fun m => ?_)
  have := h.occupied.tot
  simp only [galaxyWeight, HaloModel.galaxies]
  field_simp
  ring

/-- in the plain and in the `fortuna` mode the matter spectrum is that of one field -/
theorem mm_field (hm : Sampled s) (hmode : s.nonlinearMode = .none ∨ s.nonlinearMode = .fortuna) (hresp : s.response = false) :
    ∃ r, s.powerSpectrumMm = .ok r ∧ ∀ b z k,
      r.pk1h b z k = s.compute1hTerm (s.matterProfile1hMm z k) (s.matterProfile1hMm z k) z * s.oneHaloTruncation k ∧
      r.pk2h b z k = s.pkLin z k * ((haloes s z k).bias1 ((haloes s z k).matter (s.uDm z k)) + (haloes s z k).missing) ^ 2 *
        s.twoHaloTruncation k ∧ r.pkTot b z k = r.pk1h b z k + r.pk2h b z k := by
  have main : ∀ z k, s.pkLin z k * s.imTerm z k * s.imTerm z k * s.twoHaloTruncation k =
      s.pkLin z k * ((haloes s z k).bias1 ((haloes s z k).matter (s.uDm z k)) + (haloes s z k).missing) ^ 2 *
        s.twoHaloTruncation k := by
    intro z k
    rw [matterBias_eq hm]
    ring
  rcases hmode with h | h
  · exact ⟨_, by simp only [powerSpectrumMm, hresp, powerSpectrumMmRaw, h]; rfl, fun b z k => ⟨rfl, main z k, rfl⟩⟩
  · exact ⟨_, by simp only [powerSpectrumMm, hresp, powerSpectrumMmRaw, h]; rfl, fun b z k => ⟨rfl, main z k, rfl⟩⟩

theorem sampled (h : Sample s b z k) (hnm : 0 < s.nm) : Sampled s := ⟨fun m hm => (h.mass m hm).ne', hnm⟩

/-! ## galaxies and matter -/

/-- C149: the squared galaxy-matter power never exceeds the matter power times the galaxy power to which the pairs the code
leaves out are added: in the 1-halo parts and in the total, for every occupation and Poisson model, whenever both spectra
see the same matter in a halo. -/
theorem C149_galaxies_matter (hnm : 0 < s.nm) (hmode : s.nonlinearMode = .none ∨ s.nonlinearMode = .fortuna)
    (hresp : s.response = false) (h : Sample s b z k)
    (hW : ∀ m < s.nm, s.matterProfile1hG b z k m = s.matterProfile1hMm z k m) :
    ∃ gg gm mm, s.powerSpectrumGg = .ok gg ∧ s.powerSpectrumGm = .ok gm ∧ s.powerSpectrumMm = .ok mm ∧
      gm.pk1h b z k ^ 2 ≤ (gg.pk1h b z k + leftOut s b z k) * mm.pk1h b z k ∧
      gm.pkTot b z k ^ 2 ≤ (gg.pkTot b z k + leftOut s b z k) * mm.pkTot b z k := by
  have nb : s.nonlinearMode ≠ .bnl := by rcases hmode with e | e <;> rw [e] <;> decide
  obtain ⟨gg, hgg, g1, g2, g3⟩ := gg_field nb hresp h
  obtain ⟨mm, hmm, hm⟩ := mm_field (sampled h hnm) hmode hresp
  obtain ⟨m1, m2, m3⟩ := hm b z k
  obtain ⟨gm, hgm, hx⟩ := C97_galaxies_matter (sampled h hnm) nb hresp
  obtain ⟨x1, x2⟩ := hx b z k h.occupied
  have x3 := C03_total_is_sum s (Or.inr (Or.inl hgm)) b z k
  have T1 := oneHaloTruncation_nonneg s k
  have T2 := (Verif.PkRounded.twoHaloTruncation_pos (s := s) k h.wavenumber).le
  have hn := number_nonneg h
  set W := s.matterProfile1hMm z k
  set Gw := galaxyWeight s b z k
  have ex : (haloes s z k).oneHalo Gw (s.matterProfile1hG b z k) = s.compute1hTerm Gw W z := by
    rw [← oneHalo_eq]
    unfold compute1hTerm
    exact simpson_congr_right fun m hm => by rw [hW m hm]
  rw [ex] at x1
  have cs := C15_one_halo_cauchy_schwarz s h.grid h.mass z h.count Gw W
  have GG : 0 ≤ s.compute1hTerm Gw Gw z := compute1h_nonneg s h.grid h.mass z h.count _ _ fun m _ => mul_self_nonneg _
  have WW : 0 ≤ s.compute1hTerm W W z := compute1h_nonneg s h.grid h.mass z h.count _ _ fun m _ => mul_self_nonneg _
  have one : gm.pk1h b z k ^ 2 ≤ (gg.pk1h b z k + leftOut s b z k) * mm.pk1h b z k := by
    rw [g1, m1, x1, mul_pow]
    calc _ ≤ (s.compute1hTerm Gw Gw z * s.compute1hTerm W W z) * s.oneHaloTruncation k ^ 2 :=
          mul_le_mul_of_nonneg_right cs (sq_nonneg _)
      _ = _ := by ring
  refine ⟨gg, gm, mm, hgg, hgm, hmm, one, ?_⟩
  have two : gm.pk2h b z k ^ 2 ≤ 1 * (gg.pk2h b z k * mm.pk2h b z k) := by
    rw [g2, m2, x2]
    apply le_of_eq
    simp only [haloes]
    ring
  have lin := h.linear
  have p1 : 0 ≤ gg.pk1h b z k + leftOut s b z k := by rw [g1]; positivity
  have p2 : 0 ≤ gg.pk2h b z k := by rw [g2]; positivity
  have p3 : 0 ≤ mm.pk1h b z k := by rw [m1]; positivity
  have p4 : 0 ≤ mm.pk2h b z k := by rw [m2]; positivity
  have := sum_sq zero_le_one p1 p2 p3 p4 (by rw [one_mul]; exact one) two
  rw [g3, m3, x3]
  calc _ ≤ _ := this
    _ = _ := by ring

/-- what the occupation must satisfy for the shot noise to cover the pairs left out: centrals are present with a probability,
satellites have a profile between 0 and 1, and their mean number of pairs `p N²` belongs to a distribution, that is
`p N² + N ≥ N²` (its variance is not negative) -/
structure Countable (s : Spectra) (b z k : ℕ) : Prop where
  cen : ∀ m < s.nm, 0 ≤ s.hodCen b z m ∧ s.hodCen b z m ≤ 1
  sat : ∀ m < s.nm, 0 ≤ s.hodSat b z m
  profile : ∀ m < s.nm, 0 ≤ s.uSat z k m ∧ s.uSat z k m ≤ 1
  variance : ∀ m < s.nm, s.hodSat b z m ^ 2 ≤ s.poissonFunc m * s.hodSat b z m ^ 2 + s.hodSat b z m
  density : s.numberDensity b z =
    simpson s.nm s.mass (fun m => (s.hodCen b z m + s.hodSat b z m) * (s.dndlnm z m / s.mass m))
  pos : 0 < s.numberDensity b z

/-- the pairs left out are at most the shot noise -/
theorem leftOut_le (h : Sample s b z k) (c : Countable s b z k) : leftOut s b z k ≤ 1 / s.numberDensity b z := by
  have hn := number_nonneg h
  have T0 := oneHaloTruncation_nonneg s k
  have T1 := ProfileOrder.oneHaloTruncation_le s k
  have n0 := c.pos
  have up : (haloes s z k).integral (fun m => (s.hodCen b z m ^ 2 + (1 - s.poissonFunc m) * (s.hodSat b z m * s.uSat z k m) ^ 2)
      / s.numberDensity b z ^ 2 * (haloes s z k).number m) ≤ 1 / s.numberDensity b z := by
    have e : 1 / s.numberDensity b z = simpson s.nm s.mass (fun m => (1 / s.numberDensity b z ^ 2) *
        ((s.hodCen b z m + s.hodSat b z m) * (s.dndlnm z m / s.mass m))) := by
      rw [simpson_smul, ← c.density]
      field_simp
    rw [e]
    refine simpson_mono h.grid fun m hm => ?_
    change (s.hodCen b z m ^ 2 + (1 - s.poissonFunc m) * (s.hodSat b z m * s.uSat z k m) ^ 2) / s.numberDensity b z ^ 2
      * (s.dndlnm z m / s.mass m) ≤ _
    rw [← mul_assoc]
    refine mul_le_mul_of_nonneg_right ?_ (hn m hm)
    rw [div_eq_mul_one_div, mul_comm]
    refine mul_le_mul_of_nonneg_left ?_ (by positivity)
    obtain ⟨c0, c1⟩ := c.cen m hm
    obtain ⟨u0, u1⟩ := c.profile m hm
    have s0 := c.sat m hm
    have v := c.variance m hm
    have a : s.hodCen b z m ^ 2 ≤ s.hodCen b z m := by nlinarith
    have u2 : s.uSat z k m ^ 2 ≤ 1 := pow_le_one₀ u0 u1
    have b' : (1 - s.poissonFunc m) * (s.hodSat b z m * s.uSat z k m) ^ 2 ≤ s.hodSat b z m := by
      have e : (1 - s.poissonFunc m) * (s.hodSat b z m * s.uSat z k m) ^ 2 =
        ((1 - s.poissonFunc m) * s.hodSat b z m ^ 2) * s.uSat z k m ^ 2 := by ring
      rw [e]
      have w : (1 - s.poissonFunc m) * s.hodSat b z m ^ 2 ≤ s.hodSat b z m := by linarith
      calc _ ≤ s.hodSat b z m * s.uSat z k m ^ 2 := mul_le_mul_of_nonneg_right w (sq_nonneg _)
        _ ≤ s.hodSat b z m * 1 := mul_le_mul_of_nonneg_left u2 s0
        _ = _ := mul_one _
    linarith
  unfold leftOut
  have p : 0 ≤ 1 / s.numberDensity b z := by positivity
  calc _ ≤ 1 / s.numberDensity b z * s.oneHaloTruncation k := mul_le_mul_of_nonneg_right up T0
    _ ≤ _ := mul_le_of_le_one_right p T1

/-- C149: once the shot noise `1 / n` of the sample is added to the galaxy power, as it is in any measurement, galaxies and
matter are correlated by at most one. -/
theorem C149_shot_noise (hnm : 0 < s.nm) (hmode : s.nonlinearMode = .none ∨ s.nonlinearMode = .fortuna)
    (hresp : s.response = false) (h : Sample s b z k) (c : Countable s b z k)
    (hW : ∀ m < s.nm, s.matterProfile1hG b z k m = s.matterProfile1hMm z k m) :
    ∃ gg gm mm, s.powerSpectrumGg = .ok gg ∧ s.powerSpectrumGm = .ok gm ∧ s.powerSpectrumMm = .ok mm ∧
      gm.pk1h b z k ^ 2 ≤ (gg.pk1h b z k + 1 / s.numberDensity b z) * mm.pk1h b z k ∧
      gm.pkTot b z k ^ 2 ≤ (gg.pkTot b z k + 1 / s.numberDensity b z) * mm.pkTot b z k := by
  obtain ⟨gg, gm, mm, a1, a2, a3, a4, a5⟩ := C149_galaxies_matter hnm hmode hresp h hW
  obtain ⟨mm', hmm', hm⟩ := mm_field (sampled h hnm) hmode hresp
  rw [a3] at hmm'
  have em := Except.ok.inj hmm'
  obtain ⟨m1, m2, m3⟩ := hm b z k
  rw [← em] at m1 m2 m3
  have T1 := oneHaloTruncation_nonneg s k
  have T2 := (Verif.PkRounded.twoHaloTruncation_pos (s := s) k h.wavenumber).le
  have WW : 0 ≤ s.compute1hTerm (s.matterProfile1hMm z k) (s.matterProfile1hMm z k) z :=
    compute1h_nonneg s h.grid h.mass z h.count _ _ fun m _ => mul_self_nonneg _
  have p1 : 0 ≤ mm.pk1h b z k := by rw [m1]; positivity
  have p2 : 0 ≤ mm.pk2h b z k := by rw [m2]; have := h.linear; positivity
  have l := leftOut_le h c
  exact ⟨gg, gm, mm, a1, a2, a3, a4.trans (mul_le_mul_of_nonneg_right (by linarith) p1),
    a5.trans (mul_le_mul_of_nonneg_right (by linarith) (by rw [m3]; linarith))⟩

/-- when both spectra see the same matter in a halo: with the HMcode recipes, without any recipe unless point masses are
asked for, and with the fitted profiles if the sample has the stellar fraction of all matter -/
theorem same_matter (h : s.hmcodeIngredients = .mead2020 ∨ s.hmcodeIngredients = .mead2020Feedback ∨
      (s.hmcodeIngredients = .none ∧ s.pointmass = false) ∨
      (s.hmcodeIngredients = .fit ∧ ∀ m < s.nm, s.fstar b z m = s.fstarMm z m)) :
    ∀ m < s.nm, s.matterProfile1hG b z k m = s.matterProfile1hMm z k m := by
  intro m hm
  rcases h with h | h | ⟨h, hp⟩ | ⟨h, hf⟩
  · simp only [matterProfile1hG, matterProfile1hMm, h]
  · simp only [matterProfile1hG, matterProfile1hMm, h]
  · simp only [matterProfile1hG, matterProfile1hMm, h, hp]; rfl
  · simp only [matterProfile1hG, matterProfile1hMm, h, matterProfileFit, hf m hm]

/-! ## shapes -/

/-- C149: shapes and matter.  Let `τ₁` and `τ₂` be the ratios of the dampings of the alignment spectra to those of the matter
spectrum (1 if no truncation is set).  With matter damped like the alignments, the squared matter-intrinsic power is at most 4/3 of the
product of the matter and the intrinsic-intrinsic power, in the plain mode: the cross term that the code counts once instead of
twice allows a correlation of up to `2/√3`, and no more. -/
theorem C149_matter_shapes (hnm : 0 < s.nm) (hmode : s.nonlinearMode = .none) (hresp : s.response = false)
    (h : Sample s b z k) (hρ : s.meanDensity0 z ≠ 0)
    (hW : ∀ m < s.nm, s.matterProfile1hG b z k m = s.matterProfile1hMm z k m)
    {τ₁ τ₂ : ℝ} (t1 : 0 ≤ τ₁) (t2 : 0 ≤ τ₂) (hT1 : s.oneHaloTruncationIa k = τ₁ * s.oneHaloTruncation k)
    (hT2 : s.twoHaloTruncationIa k = τ₂ * s.twoHaloTruncation k) :
    ∃ mi ii mm, s.powerSpectrumMi = .ok mi ∧ s.powerSpectrumIi = .ok ii ∧ s.powerSpectrumMm = .ok mm ∧
      mi.pk1h b z k ^ 2 ≤ ii.pk1h b z k * (τ₁ * mm.pk1h b z k) ∧
      mi.pkTot b z k ^ 2 ≤ 4 / 3 * (ii.pkTot b z k * (τ₁ * mm.pk1h b z k + τ₂ * mm.pk2h b z k)) := by
  obtain ⟨mm, hmm, hm⟩ := mm_field (sampled h hnm) (Or.inl hmode) hresp
  obtain ⟨m1, m2, m3⟩ := hm b z k
  obtain ⟨mi, ii, gi, hmi, hii, -, hx⟩ := C97_alignments (sampled h hnm) (Or.inl hmode) hresp
  obtain ⟨x1, x2, i1, i2, -, -⟩ := hx b z k h.occupied hρ
  have x3 := C03_total_is_sum s (Or.inr (Or.inr (Or.inl hmi))) b z k
  have i3 := C03_total_is_sum s (Or.inr (Or.inr (Or.inr (Or.inl hii)))) b z k
  have T1 := oneHaloTruncation_nonneg s k
  have T2 := (Verif.PkRounded.twoHaloTruncation_pos (s := s) k h.wavenumber).le
  rw [hT1] at x1 i1
  rw [hT2] at x2 i2
  set W := s.matterProfile1hMm z k
  set Sw := satAlignWeight s b z k
  have ex : (haloes s z k).oneHalo (s.matterProfile1hG b z k) Sw = s.compute1hTerm W Sw z := by
    rw [← oneHalo_eq]
    unfold compute1hTerm
    exact simpson_congr_right fun m hm => by rw [hW m hm]
  rw [ex] at x1
  rw [← oneHalo_eq] at i1
  have cs := C15_one_halo_cauchy_schwarz s h.grid h.mass z h.count W Sw
  have SS : 0 ≤ s.compute1hTerm Sw Sw z := compute1h_nonneg s h.grid h.mass z h.count _ _ fun m _ => mul_self_nonneg _
  have WW : 0 ≤ s.compute1hTerm W W z := compute1h_nonneg s h.grid h.mass z h.count _ _ fun m _ => mul_self_nonneg _
  have one : mi.pk1h b z k ^ 2 ≤ ii.pk1h b z k * (τ₁ * mm.pk1h b z k) := by
    rw [i1, m1, x1, mul_pow, neg_sq]
    calc _ ≤ (s.compute1hTerm W W z * s.compute1hTerm Sw Sw z) * (τ₁ * s.oneHaloTruncation k) ^ 2 :=
          mul_le_mul_of_nonneg_right cs (sq_nonneg _)
      _ = _ := by ring
  refine ⟨mi, ii, mm, hmi, hii, hmm, one, ?_⟩
  have l : (haloes s z k).linear = s.pkLin z k := rfl
  rw [l] at x2 i2
  have lin := h.linear
  have two : mi.pk2h b z k ^ 2 ≤ 4 / 3 * (ii.pk2h b z k * (τ₂ * mm.pk2h b z k)) := by
    rw [i2, m2, x2, ← neg_sq]
    refine le_of_eq_of_le ?_ (shape_pair le_rfl)
    ring
  have p1 : 0 ≤ ii.pk1h b z k := by rw [i1]; positivity
  have p2 : 0 ≤ τ₁ * mm.pk1h b z k := by rw [m1]; positivity
  have := sum_sq (c := 4 / 3) (by norm_num) p1 (by rw [i2]; exact shape_nonneg lin (by positivity)) p2
    (by rw [m2]; positivity)
    (one.trans (by nlinarith [mul_nonneg p1 p2])) two
  rw [i3, x3]
  exact this

/-- C149: galaxies and shapes.  With galaxies damped like the alignments, the squared galaxy-intrinsic power is at most 4/3 of the
product of the intrinsic-intrinsic power and the galaxy power with its shot noise, in the plain mode. -/
theorem C149_galaxy_shapes (hnm : 0 < s.nm) (hmode : s.nonlinearMode = .none) (hresp : s.response = false)
    (h : Sample s b z k) (c : Countable s b z k) (hρ : s.meanDensity0 z ≠ 0) (hb : ∀ m < s.nm, 0 ≤ s.haloBias z m)
    {τ₁ τ₂ : ℝ} (t1 : 0 ≤ τ₁) (t2 : 0 ≤ τ₂) (hT1 : s.oneHaloTruncationIa k = τ₁ * s.oneHaloTruncation k)
    (hT2 : s.twoHaloTruncationIa k = τ₂ * s.twoHaloTruncation k) :
    ∃ gi ii gg, s.powerSpectrumGi = .ok gi ∧ s.powerSpectrumIi = .ok ii ∧ s.powerSpectrumGg = .ok gg ∧
      gi.pk1h b z k ^ 2 ≤ ii.pk1h b z k * (τ₁ * (gg.pk1h b z k + 1 / s.numberDensity b z)) ∧
      gi.pkTot b z k ^ 2 ≤ 4 / 3 * (ii.pkTot b z k *
        (τ₁ * (gg.pk1h b z k + 1 / s.numberDensity b z) + τ₂ * gg.pk2h b z k)) := by
  obtain ⟨gg, hgg, g1, g2, g3⟩ := gg_field (by rw [hmode]; decide) hresp h
  obtain ⟨mi, ii, gi, hmi, hii, hgi, hx⟩ := C97_alignments (sampled h hnm) (Or.inl hmode) hresp
  obtain ⟨-, -, i1, i2, x1, x2⟩ := hx b z k h.occupied hρ
  have x3 := C03_total_is_sum s (Or.inr (Or.inr (Or.inr (Or.inr hgi)))) b z k
  have i3 := C03_total_is_sum s (Or.inr (Or.inr (Or.inr (Or.inl hii)))) b z k
  have T1 := oneHaloTruncation_nonneg s k
  have T2 := (Verif.PkRounded.twoHaloTruncation_pos (s := s) k h.wavenumber).le
  have hn := number_nonneg h
  have left := leftOut_le h c
  rw [hT1] at x1 i1
  rw [hT2] at x2 i2
  set Cw := cenWeight s b z k with hCw
  set Gw := galaxyWeight s b z k with hGw
  set Sw := satAlignWeight s b z k
  rw [← oneHalo_eq] at i1 x1
  have n0 := c.pos
  have C0 : ∀ m < s.nm, 0 ≤ Cw m := fun m hm => by
    have := (c.cen m hm).1
    simp only [hCw, cenWeight, HaloModel.galaxies, Pi.zero_apply, zero_mul, add_zero]
    positivity
  have CG : ∀ m < s.nm, Cw m ≤ Gw m := fun m hm => by
    have := mul_nonneg (c.sat m hm) (c.profile m hm).1
    simp only [hCw, hGw, cenWeight, galaxyWeight, HaloModel.galaxies, Pi.zero_apply, zero_mul, add_zero]
    exact div_le_div_of_nonneg_right (by linarith) n0.le
  have cs := C15_one_halo_cauchy_schwarz s h.grid h.mass z h.count Cw Sw
  have SS : 0 ≤ s.compute1hTerm Sw Sw z := compute1h_nonneg s h.grid h.mass z h.count _ _ fun m _ => mul_self_nonneg _
  have GG : 0 ≤ s.compute1hTerm Gw Gw z := compute1h_nonneg s h.grid h.mass z h.count _ _ fun m _ => mul_self_nonneg _
  have CC : s.compute1hTerm Cw Cw z ≤ s.compute1hTerm Gw Gw z := by
    unfold compute1hTerm
    refine simpson_mono h.grid fun m hm => ?_
    rw [mul_div_assoc, mul_div_assoc]
    refine mul_le_mul_of_nonneg_right ?_ (hn m hm)
    exact mul_le_mul (CG m hm) (CG m hm) (C0 m hm) ((C0 m hm).trans (CG m hm))
  have B0 : 0 ≤ (haloes s z k).bias1 Cw :=
    simpson_nonneg h.grid fun m hm => mul_nonneg (mul_nonneg (C0 m hm) (hb m hm)) (hn m hm)
  have BB : (haloes s z k).bias1 Cw ≤ (haloes s z k).bias1 Gw :=
    simpson_mono h.grid fun m hm => mul_le_mul_of_nonneg_right (mul_le_mul_of_nonneg_right (CG m hm) (hb m hm)) (hn m hm)
  have p1 : 0 ≤ ii.pk1h b z k := by rw [i1]; positivity
  have one : gi.pk1h b z k ^ 2 ≤ ii.pk1h b z k * (τ₁ * (gg.pk1h b z k + 1 / s.numberDensity b z)) := by
    have o : gi.pk1h b z k ^ 2 ≤ ii.pk1h b z k * (τ₁ * (gg.pk1h b z k + leftOut s b z k)) := by
      rw [i1, g1, x1, mul_pow]
      calc _ ≤ (s.compute1hTerm Cw Cw z * s.compute1hTerm Sw Sw z) * (τ₁ * s.oneHaloTruncation k) ^ 2 :=
            mul_le_mul_of_nonneg_right cs (sq_nonneg _)
        _ ≤ (s.compute1hTerm Gw Gw z * s.compute1hTerm Sw Sw z) * (τ₁ * s.oneHaloTruncation k) ^ 2 :=
            mul_le_mul_of_nonneg_right (mul_le_mul_of_nonneg_right CC SS) (sq_nonneg _)
        _ = _ := by ring
    exact o.trans (mul_le_mul_of_nonneg_left (mul_le_mul_of_nonneg_left (by linarith) t1) p1)
  refine ⟨gi, ii, gg, hgi, hii, hgg, one, ?_⟩
  have l : (haloes s z k).linear = s.pkLin z k := rfl
  rw [l] at x2 i2
  have lin := h.linear
  have two : gi.pk2h b z k ^ 2 ≤ 4 / 3 * (ii.pk2h b z k * (τ₂ * gg.pk2h b z k)) := by
    rw [i2, g2, x2]
    exact shape_pair (pow_le_pow_left₀ B0 BB 2)
  have pg : 0 ≤ τ₁ * (gg.pk1h b z k + 1 / s.numberDensity b z) := by
    have : 0 ≤ gg.pk1h b z k + leftOut s b z k := by rw [g1]; positivity
    exact mul_nonneg t1 (by linarith)
  have := sum_sq (c := 4 / 3) (by norm_num) p1 (by rw [i2]; exact shape_nonneg lin (by positivity)) pg
    (by rw [g2]; positivity)
    (one.trans (by nlinarith [mul_nonneg p1 pg])) two
  rw [i3, x3]
  exact this

/-! ## the conditions are needed -/

/-- half of the halos have a central, halos of mass `M` have `a M` satellites; three masses, no damping -/
noncomputable def sample (a p lin : ℝ) : Spectra :=
  { demo with
    oneHaloKtrunc := none, twoHaloKtrunc := none, oneHaloKtruncIa := none, twoHaloKtruncIa := none
    pkLin := fun _ _ => lin, poissonFunc := fun _ => p
    hodCen := fun _ _ _ => 1 / 2, hodSat := fun _ _ m => a * ((m : ℝ) + 1)
    numberDensityCen := fun _ _ => 1, numberDensitySat := fun _ _ => 4 * a, numberDensity := fun _ _ => 1 + 4 * a
    fC := fun _ _ => 1 / (1 + 4 * a), fS := fun _ _ => 4 * a / (1 + 4 * a) }

theorem sample_simpson (a p lin : ℝ) (y : ℕ → ℝ) :
    simpson (sample a p lin).nm (sample a p lin).mass y = (y 0 + 4 * y 1 + y 2) / 3 := demo_simpson y

theorem sample_ok {a p lin : ℝ} (ha : 0 < a) (hl : 0 ≤ lin) (b z k : ℕ) : Sample (sample a p lin) b z k where
  grid := demo_gentle
  mass := fun m _ => by simp only [sample, demo]; positivity
  count := fun m _ => by simp only [sample, demo]; positivity
  linear := hl
  wavenumber := by simp only [sample, demo]; positivity
  occupied := by
    have : 1 + 4 * a ≠ 0 := by positivity
    constructor
    · exact this
    · simp [sample]
    · simp only [sample]; positivity
    · rfl
    · rfl

theorem sample_uSat (a p lin : ℝ) (z m : ℕ) : (sample a p lin).uSat z 0 m = 1 := by
  simp only [sample, demo, Hmi.uSat, demoRaw]
  field_simp

theorem sample_uDm (a p lin : ℝ) (z m : ℕ) : (sample a p lin).uDm z 0 m = 1 := demo_uDm_zero z m

theorem sample_density (a p lin : ℝ) (b z : ℕ) : (sample a p lin).numberDensity b z =
    simpson (sample a p lin).nm (sample a p lin).mass (fun m => ((sample a p lin).hodCen b z m + (sample a p lin).hodSat b z m) *
      ((sample a p lin).dndlnm z m / (sample a p lin).mass m)) := by
  rw [sample_simpson]
  simp only [sample, demo]
  norm_num
  ring

/-- a few satellites, as many pairs as for Poisson's distribution -/
theorem sample_countable {a lin : ℝ} (ha : 0 < a) (b z : ℕ) : Countable (sample a 1 lin) b z 0 where
  cen := fun m _ => by simp only [sample]; norm_num
  sat := fun m _ => by simp only [sample]; positivity
  profile := fun m _ => by rw [sample_uSat]; norm_num
  variance := fun m _ => by
    have : 0 ≤ (sample a 1 lin).hodSat b z m := by simp only [sample]; positivity
    have e : (sample a 1 lin).poissonFunc m = 1 := rfl
    rw [e]; linarith
  density := sample_density a 1 lin b z
  pos := by simp only [sample]; positivity

/-- the spectra of the sample at the first wavenumber -/
theorem sample_spectra {a p : ℝ} (ha : 0 < a) : ∃ gg gm mm, (sample a p 0).powerSpectrumGg = .ok gg ∧
    (sample a p 0).powerSpectrumGm = .ok gm ∧ (sample a p 0).powerSpectrumMm = .ok mm ∧
    gg.pkTot 0 0 0 = (4 * a + p * (26 / 3 * a ^ 2)) / (1 + 4 * a) ^ 2 ∧
    gm.pkTot 0 0 0 = (2 + 26 / 3 * a) / (8 * (1 + 4 * a)) ∧ mm.pkTot 0 0 0 = 26 / 192 := by
  have h := sample_ok (a := a) (p := p) ha le_rfl 0 0 0
  have n0 : (1 + 4 * a) ≠ 0 := by positivity
  have S : Sampled (sample a p 0) := sampled h (by simp [sample, demo])
  obtain ⟨gg, hgg, g⟩ := C97_galaxies (s := sample a p 0) (by simp [sample, demo]) rfl
  obtain ⟨gm, hgm, x⟩ := C97_galaxies_matter S (by simp [sample, demo]) rfl
  obtain ⟨mm, hmm, m⟩ := C97_matter S (Or.inl rfl) rfl (Or.inl rfl)
  have t1 := C03_total_is_sum _ (Or.inl hgg) 0 0 0
  have t2 := C03_total_is_sum _ (Or.inr (Or.inl hgm)) 0 0 0
  have t3 := C03_total_is_sum_mm (sample a p 0) (by simp [sample, demo]) rfl hmm 0 0 0
  have T : (sample a p 0).oneHaloTruncation 0 = 1 := rfl
  have L : (haloes (sample a p 0) 0 0).linear = 0 := rfl
  refine ⟨gg, gm, mm, hgg, hgm, hmm, ?_, ?_, ?_⟩
  · rw [t1, (g 0 0 0 h.occupied).1, (g 0 0 0 h.occupied).2, T, L]
    change simpson (sample a p 0).nm (sample a p 0).mass _ * 1 + _ = _
    rw [sample_simpson]
    simp only [sample_uSat]
    simp only [haloes, sample, demo]
    norm_num
    field_simp
    ring
  · rw [t2, (x 0 0 0 h.occupied).1, (x 0 0 0 h.occupied).2, T, L, C97_plain_weight (Or.inr ⟨rfl, rfl⟩)]
    change simpson (sample a p 0).nm (sample a p 0).mass _ * 1 + _ = _
    rw [sample_simpson]
    simp only [galaxyWeight, HaloModel.galaxies, HaloModel.matter, sample_uSat, sample_uDm]
    simp only [haloes, sample, demo]
    field_simp
    norm_num
    ring
  · rw [t3, (m 0 0 0).1, (m 0 0 0).2, T, L]
    change simpson (sample a p 0).nm (sample a p 0).mass _ * 1 + _ = _
    rw [sample_simpson]
    simp only [HaloModel.matter, sample_uDm]
    simp only [haloes, sample, demo]
    norm_num

/-- C149: without the shot noise the spectra of the code do not satisfy the inequality: for a sample of mostly centrals the
galaxy-matter correlation exceeds one, although everything is a proper distribution. -/
theorem C149_without_shot_noise : ∃ (s : Spectra) (gg gm mm : PkResult), Sample s 0 0 0 ∧ Countable s 0 0 0 ∧
    s.nonlinearMode = .none ∧ s.response = false ∧ (∀ m < s.nm, s.matterProfile1hG 0 0 0 m = s.matterProfile1hMm 0 0 m) ∧
    s.powerSpectrumGg = .ok gg ∧ s.powerSpectrumGm = .ok gm ∧ s.powerSpectrumMm = .ok mm ∧
    gg.pkTot 0 0 0 * mm.pkTot 0 0 0 < gm.pkTot 0 0 0 ^ 2 := by
  obtain ⟨gg, gm, mm, h1, h2, h3, e1, e2, e3⟩ := sample_spectra (a := 1 / 10) (p := 1) (by norm_num)
  refine ⟨sample (1 / 10) 1 0, gg, gm, mm, sample_ok (by norm_num) le_rfl 0 0 0, sample_countable (by norm_num) 0 0, rfl, rfl,
    same_matter (Or.inr (Or.inr (Or.inl ⟨rfl, rfl⟩))), h1, h2, h3, ?_⟩
  rw [e1, e2, e3]
  norm_num

/-- C149: the condition on the number of pairs is needed: with the constant Poisson factor 0 and several satellites per halo,
which no distribution has, even the shot noise does not restore the inequality. -/
theorem C149_too_few_pairs : ∃ (s : Spectra) (gg gm mm : PkResult), Sample s 0 0 0 ∧
    (∀ m < s.nm, 0 ≤ s.poissonFunc m) ∧
    s.nonlinearMode = .none ∧ s.response = false ∧ (∀ m < s.nm, s.matterProfile1hG 0 0 0 m = s.matterProfile1hMm 0 0 m) ∧
    s.powerSpectrumGg = .ok gg ∧ s.powerSpectrumGm = .ok gm ∧ s.powerSpectrumMm = .ok mm ∧
    (gg.pkTot 0 0 0 + 1 / s.numberDensity 0 0) * mm.pkTot 0 0 0 < gm.pkTot 0 0 0 ^ 2 := by
  obtain ⟨gg, gm, mm, h1, h2, h3, e1, e2, e3⟩ := sample_spectra (a := 3) (p := 0) (by norm_num)
  refine ⟨sample 3 0 0, gg, gm, mm, sample_ok (by norm_num) le_rfl 0 0 0, fun _ _ => le_rfl, rfl, rfl,
    same_matter (Or.inr (Or.inr (Or.inl ⟨rfl, rfl⟩))), h1, h2, h3, ?_⟩
  have e : (sample 3 0 0).numberDensity 0 0 = 1 + 4 * 3 := rfl
  rw [e, e1, e2, e3]
  norm_num

/-! ## concrete cases -/

example : ∃ gg gm mm, (sample 1 1 2).powerSpectrumGg = .ok gg ∧ (sample 1 1 2).powerSpectrumGm = .ok gm ∧
    (sample 1 1 2).powerSpectrumMm = .ok mm ∧ gm.pkTot 0 0 0 ^ 2 ≤ (gg.pkTot 0 0 0 + 1 / 5) * mm.pkTot 0 0 0 := by
  obtain ⟨gg, gm, mm, h1, h2, h3, -, h4⟩ := C149_shot_noise (s := sample 1 1 2) (by simp [sample, demo]) (Or.inl rfl) rfl
    (sample_ok (by norm_num) (by norm_num) 0 0 0) (sample_countable (by norm_num) 0 0)
    (same_matter (Or.inr (Or.inr (Or.inl ⟨rfl, rfl⟩))))
  have e : (sample 1 1 2).numberDensity 0 0 = 5 := by simp only [sample]; norm_num
  rw [e] at h4
  exact ⟨gg, gm, mm, h1, h2, h3, h4⟩

example : ∃ mi ii mm, (sample 1 1 2).powerSpectrumMi = .ok mi ∧ (sample 1 1 2).powerSpectrumIi = .ok ii ∧
    (sample 1 1 2).powerSpectrumMm = .ok mm ∧ mi.pk1h 0 0 0 ^ 2 ≤ ii.pk1h 0 0 0 * (1 * mm.pk1h 0 0 0) ∧
    mi.pkTot 0 0 0 ^ 2 ≤ 4 / 3 * (ii.pkTot 0 0 0 * (1 * mm.pk1h 0 0 0 + 1 * mm.pk2h 0 0 0)) :=
  C149_matter_shapes (s := sample 1 1 2) (by simp [sample, demo]) rfl rfl (sample_ok (by norm_num) (by norm_num) 0 0 0)
    (by simp [sample, demo]) (same_matter (Or.inr (Or.inr (Or.inl ⟨rfl, rfl⟩)))) zero_le_one zero_le_one
    (by rw [one_mul]; rfl) (by rw [one_mul]; rfl)

example : ∃ gi ii gg, (sample 1 1 2).powerSpectrumGi = .ok gi ∧ (sample 1 1 2).powerSpectrumIi = .ok ii ∧
    (sample 1 1 2).powerSpectrumGg = .ok gg ∧
    gi.pk1h 0 0 0 ^ 2 ≤ ii.pk1h 0 0 0 * (1 * (gg.pk1h 0 0 0 + 1 / (sample 1 1 2).numberDensity 0 0)) ∧
    gi.pkTot 0 0 0 ^ 2 ≤ 4 / 3 * (ii.pkTot 0 0 0 * (1 * (gg.pk1h 0 0 0 + 1 / (sample 1 1 2).numberDensity 0 0) + 1 * gg.pk2h 0 0 0)) :=
  C149_galaxy_shapes (s := sample 1 1 2) (by simp [sample, demo]) rfl rfl (sample_ok (by norm_num) (by norm_num) 0 0 0)
    (sample_countable (by norm_num) 0 0) (by simp [sample, demo]) (fun m _ => by simp [sample, demo]) zero_le_one zero_le_one
    (by rw [one_mul]; rfl) (by rw [one_mul]; rfl)

end Verif.Pk.Correlation

import Verif.Props.PkTextbook

/-! Property C152: galaxies that trace the mass of their halos. -/

namespace Verif.Pk.Tracers

open Verif.Lib Verif.Spec Verif.Pk Verif.Pk.Spectra

/-- the galaxies of a halo together follow its mass: `α` galaxies per mass, spread like matter; pairs of satellites are Poisson pairs; the
mean number density is that of `α` galaxies per mass in a part `f` of all matter -/
structure Tracer (s : Spectra) (b z k : ℕ) (α f : ℝ) : Prop where
  weight : ∀ m < s.nm, s.hodCen b z m + s.hodSat b z m * s.uSat z k m = α * s.mass m * s.uDm z k m
  pairs : ∀ m < s.nm, s.poissonFunc m = 1
  number : s.numberDensity b z = α * s.meanDensity0 z * f
  some : α ≠ 0
  density : s.meanDensity0 z ≠ 0
  part : f ≠ 0

variable {s : Spectra} {b z k : ℕ} {α f : ℝ}

theorem Tracer.galaxyWeight (T : Tracer s b z k α f) {m : ℕ} (hm : m < s.nm) :
    galaxyWeight s b z k m = (haloes s z k).matter (s.uDm z k) m / f := by
  have h1 := T.some
  have h2 := T.density
  have h3 := T.part
  simp only [Pk.galaxyWeight, HaloModel.galaxies, T.weight m hm, T.number, HaloModel.matter, haloes]
  field_simp

theorem Tracer.bias1 (T : Tracer s b z k α f) :
    (haloes s z k).bias1 (Pk.galaxyWeight s b z k) = (haloes s z k).bias1 ((haloes s z k).matter (s.uDm z k)) / f := by
  rw [div_eq_inv_mul]
  simp only [HaloModel.bias1]
  change simpson s.nm s.mass _ = f⁻¹ * simpson s.nm s.mass _
  rw [← simpson_smul]
  refine simpson_congr_right fun m hm => ?_
  rw [T.galaxyWeight hm, div_eq_inv_mul]
  ring

theorem Tracer.cross (T : Tracer s b z k α f) (V : ℕ → ℝ) :
    (haloes s z k).oneHalo (Pk.galaxyWeight s b z k) V = (haloes s z k).oneHalo ((haloes s z k).matter (s.uDm z k)) V / f := by
  rw [div_eq_inv_mul]
  simp only [HaloModel.oneHalo]
  change simpson s.nm s.mass _ = f⁻¹ * simpson s.nm s.mass _
  rw [← simpson_smul]
  refine simpson_congr_right fun m hm => ?_
  rw [T.galaxyWeight hm, div_eq_inv_mul]
  ring

/-- all pairs of galaxies are the pairs of different galaxies and the pairs of a central with itself -/
theorem Tracer.galaxy_pairs (T : Tracer s b z k α f) :
    (haloes s z k).integral (fun m => (2 * s.hodCen b z m * s.hodSat b z m * s.uSat z k m
        + s.poissonFunc m * (s.hodSat b z m * s.uSat z k m) ^ 2) / s.numberDensity b z ^ 2 * (haloes s z k).number m) +
      simpson s.nm s.mass (fun m => (s.hodCen b z m / s.numberDensity b z) ^ 2 * (s.dndlnm z m / s.mass m)) =
    (haloes s z k).oneHalo ((haloes s z k).matter (s.uDm z k)) ((haloes s z k).matter (s.uDm z k)) / f ^ 2 := by
  rw [div_eq_inv_mul]
  simp only [HaloModel.oneHalo]
  change simpson s.nm s.mass _ + _ = (f ^ 2)⁻¹ * simpson s.nm s.mass _
  rw [← simpson_smul, ← simpson_add]
  refine simpson_congr_right fun m hm => ?_
  have w := T.galaxyWeight hm
  have e : (f ^ 2)⁻¹ * ((haloes s z k).matter (s.uDm z k) m * (haloes s z k).matter (s.uDm z k) m * (haloes s z k).number m) =
      Pk.galaxyWeight s b z k m ^ 2 * (haloes s z k).number m := by rw [w]; ring
  rw [e, T.pairs m hm]
  simp only [Pk.galaxyWeight, HaloModel.galaxies, haloes]
  ring

/-- C152: the spectra of galaxies that trace the mass of their halos.  Inside halos they are those of matter divided by `f` per galaxy, less
the pairs of a central galaxy with itself.  Between halos matter counts the part `A` of the matter that is missing from the halos, galaxies do
not: with `I` the matter factor, the galaxy factor is `(I - A) / f`. -/
theorem C152_tracers (hs : Sampled s) (hmode : s.nonlinearMode = .none ∨ s.nonlinearMode = .fortuna) (hresp : s.response = false)
    (hi : s.hmcodeIngredients = .mead2020 ∨ (s.hmcodeIngredients = .none ∧ s.pointmass = false)) (hocc : Occupied s b z)
    (T : Tracer s b z k α f) :
    ∃ mm gg gm, s.powerSpectrumMm = .ok mm ∧ s.powerSpectrumGg = .ok gg ∧ s.powerSpectrumGm = .ok gm ∧
      gm.pk1h b z k = mm.pk1h b z k / f ∧
      gg.pk1h b z k = mm.pk1h b z k / f ^ 2 -
        simpson s.nm s.mass (fun m => (s.hodCen b z m / s.numberDensity b z) ^ 2 * (s.dndlnm z m / s.mass m)) * s.oneHaloTruncation k ∧
      mm.pk2h b z k = s.pkLin z k * s.imTerm z k ^ 2 * s.twoHaloTruncation k ∧
      gm.pk2h b z k = s.pkLin z k * ((s.imTerm z k - s.aTerm z) / f * s.imTerm z k) * s.twoHaloTruncation k ∧
      gg.pk2h b z k = s.pkLin z k * ((s.imTerm z k - s.aTerm z) / f) ^ 2 * s.twoHaloTruncation k := by
  have hb : s.nonlinearMode ≠ .bnl := by rcases hmode with h | h <;> rw [h] <;> simp
  obtain ⟨mm, m1, m2⟩ := C97_matter hs hmode hresp (hi.elim .inr fun h => .inl h.1)
  obtain ⟨gg, g1, g2⟩ := C97_galaxies (s := s) hb hresp
  obtain ⟨gm, c1, c2⟩ := C97_galaxies_matter hs hb hresp
  have M := m2 b z k
  have G := g2 b z k hocc
  have C := c2 b z k hocc
  simp only at M G C
  have B : (haloes s z k).bias1 ((haloes s z k).matter (s.uDm z k)) = s.imTerm z k - s.aTerm z := by
    rw [matterBias_eq hs, missing_eq (k := k) hs]; ring
  have I : (haloes s z k).bias1 ((haloes s z k).matter (s.uDm z k)) + (haloes s z k).missing = s.imTerm z k := (matterBias_eq hs).symm
  refine ⟨mm, gg, gm, m1, g1, c1, ?_, ?_, ?_, ?_, ?_⟩
  · rw [C.1, M.1, C97_plain_weight hi, T.cross]; ring
  · have p := T.galaxy_pairs
    rw [G.1, M.1, mul_div_right_comm, ← p]
    simp only [haloes]
    ring
  · rw [M.2, I]; rfl
  · rw [C.2, I, T.bias1, B]
    simp only [haloes]; ring
  · rw [G.2, T.bias1, B]; rfl

/-- C152, large scales: where halos are points and the mean number density is the number of these galaxies, `f` is the part of all matter that
is in halos, and the bias of the galaxies is the mean bias of this matter.  It is one exactly if what is missing of the biased matter is
what is missing of the matter. -/
theorem C152_large_scale_bias (hs : Sampled s) (T : Tracer s b z k α f) (hu : ∀ m < s.nm, s.uDm z k m = 1) (hv : ∀ m < s.nm, s.uSat z k m = 1)
    (hn : s.numberDensity b z = simpson s.nm s.mass fun m => (s.hodCen b z m + s.hodSat b z m) * s.dndlnm z m / s.mass m) :
    f = (simpson s.nm s.mass fun m => s.mass m * (s.dndlnm z m / s.mass m)) / s.meanDensity0 z ∧ s.imTerm z k = 1 ∧
    (s.imTerm z k - s.aTerm z) / f = (simpson s.nm s.mass fun m => s.mass m * s.haloBias z m * (s.dndlnm z m / s.mass m)) /
      (simpson s.nm s.mass fun m => s.mass m * (s.dndlnm z m / s.mass m)) ∧
    ((s.imTerm z k - s.aTerm z) / f = 1 ↔ s.aTerm z = 1 - f) := by
  have h1 := T.some
  have h2 := T.density
  have h3 := T.part
  have e : α * s.meanDensity0 z * f = α * simpson s.nm s.mass fun m => s.mass m * (s.dndlnm z m / s.mass m) := by
    rw [← T.number, hn, ← simpson_smul]
    refine simpson_congr_right fun m hm => ?_
    have w := T.weight m hm
    rw [hu m hm, hv m hm, mul_one, mul_one] at w
    rw [w]; ring
  have hf : s.meanDensity0 z * f = simpson s.nm s.mass fun m => s.mass m * (s.dndlnm z m / s.mass m) :=
    mul_left_cancel₀ h1 (by rw [← e]; ring)
  have hI : s.imTerm z k = 1 := by
    rw [matterBias_eq hs]
    simp only [HaloModel.missing]
    have : (haloes s z k).bias1 ((haloes s z k).matter (s.uDm z k)) = (haloes s z k).bias1 fun m => (haloes s z k).mass m / (haloes s z k).density := by
      simp only [HaloModel.bias1]
      change simpson s.nm s.mass _ = simpson s.nm s.mass _
      refine simpson_congr_right fun m hm => ?_
      simp only [HaloModel.matter, hu m hm, mul_one]
    rw [this]; ring
  have hA : 1 - s.aTerm z = (simpson s.nm s.mass fun m => s.mass m * s.haloBias z m * (s.dndlnm z m / s.mass m)) / s.meanDensity0 z := by
    rw [missing_eq (k := k) hs, HaloModel.missing, sub_sub_cancel, div_eq_inv_mul]
    simp only [HaloModel.bias1]
    change simpson s.nm s.mass _ = _
    rw [← simpson_smul]
    refine simpson_congr_right fun m _ => ?_
    simp only [haloes]
    ring
  refine ⟨by rw [← hf]; field_simp, hI, ?_, ?_⟩
  · rw [hI, hA, ← hf]; field_simp
  · rw [hI, div_eq_one_iff_eq h3]
    constructor <;> intro h <;> linarith

/-! ## an example -/

/-- halos with one central each and satellites such that galaxies are in proportion to the mass; half of all matter is in halos -/
noncomputable def tracing : Spectra :=
  { demo with
    hodSat := fun _ _ m => m
    numberDensity := fun _ _ => 4
    numberDensityCen := fun _ _ => 2
    numberDensitySat := fun _ _ => 2 }

theorem tracing_tracer : Tracer tracing 0 0 0 1 (1 / 2) where
  weight m _ := by
    have u : tracing.uDm 0 0 m = 1 := demo_uDm_zero 0 m
    have v : tracing.uSat 0 0 m = 1 := by
      simp only [tracing, demo, Hmi.uSat, demoRaw]
      field_simp
    rw [u, v]
    simp only [tracing, demo]
    ring
  pairs m _ := by simp [tracing, demo]
  number := by simp only [tracing, demo]; norm_num
  some := one_ne_zero
  density := by simp [tracing, demo]
  part := by norm_num

theorem tracing_sampled : Sampled tracing := ⟨demo_sampled.mass, demo_sampled.some⟩

theorem tracing_occupied : Occupied tracing 0 0 := by
  constructor <;> simp [tracing, demo] <;> norm_num

theorem tracing_uDm (m : ℕ) : tracing.uDm 0 0 m = 1 := demo_uDm_zero 0 m

theorem tracing_uSat (m : ℕ) : tracing.uSat 0 0 m = 1 := by
  simp only [tracing, demo, Hmi.uSat, demoRaw]
  field_simp

/-- half of the matter is in halos, all of bias one: so are the galaxies, and inside halos galaxies and matter correlate twice as much as
matter with itself -/
example : (tracing.imTerm 0 0 - tracing.aTerm 0) / (1 / 2) = 1 ∧
    ∃ mm gm, tracing.powerSpectrumMm = .ok mm ∧ tracing.powerSpectrumGm = .ok gm ∧ gm.pk1h 0 0 0 = mm.pk1h 0 0 0 / (1 / 2) ∧
      gm.pk2h 0 0 0 = mm.pk2h 0 0 0 := by
  have h := C152_large_scale_bias (b := 0) tracing_sampled tracing_tracer (fun m _ => tracing_uDm m) (fun m _ => tracing_uSat m) (by
    have : ∀ y : ℕ → ℝ, simpson tracing.nm tracing.mass y = (y 0 + 4 * y 1 + y 2) / 3 := demo_simpson
    rw [this]
    simp only [tracing, demo]
    norm_num)
  have e : (tracing.imTerm 0 0 - tracing.aTerm 0) / (1 / 2) = 1 := by
    rw [h.2.2.2]
    have : tracing.aTerm 0 = demo.aTerm 0 := rfl
    rw [this, demo_aTerm]; norm_num
  obtain ⟨mm, gg, gm, a, -, c, d, -, i, j, -⟩ := C152_tracers tracing_sampled (.inl rfl) rfl (.inr ⟨rfl, rfl⟩) tracing_occupied tracing_tracer
  exact ⟨e, mm, gm, a, c, d, by rw [i, j, e, h.2.1]; ring⟩

end Verif.Pk.Tracers

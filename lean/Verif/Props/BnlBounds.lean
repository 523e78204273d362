import Verif.Props.PkInl
import Verif.Props.ProfileOrder

/-! Property C164: how much the table of the non-linear halo bias can change. -/

namespace Verif.Pk.BnlBounds

open Verif.Lib Verif.Spec Verif.Pk Spectra ProfileOrder Finset

/-- the same object in the mode `bnl` with a given table -/
def tab (s : Spectra) (β : ℕ → ℕ → ℕ → ℕ → ℝ) : Spectra := { s with nonlinearMode := .bnl, betaNl := β }

/-- the plain mode without truncation of the two-halo term -/
def plain (s : Spectra) : Spectra := { s with nonlinearMode := .none, twoHaloKtrunc := none, twoHaloKtruncIa := none }

variable {s : Spectra} {β β' : ℕ → ℕ → ℕ → ℕ → ℝ} {z k : ℕ} {W1 W2 : ℕ → ℝ}

/-- galaxies of both kinds -/
noncomputable def gal (s : Spectra) (b z k m : ℕ) : ℝ := s.centralGalaxyProfile b z k m + s.satelliteGalaxyProfile b z k m

/-- shapes of both kinds -/
noncomputable def ali (s : Spectra) (b z k m : ℕ) : ℝ := s.centralAlignmentProfile b z k m + s.satelliteAlignmentProfile b z k m

/-- with non-negative profiles the integral rises with the table -/
theorem iNL_mono (H : Inputs s) (hn : 2 ≤ s.nm) (h1 : ∀ m < s.nm, 0 ≤ W1 m) (h2 : ∀ m < s.nm, 0 ≤ W2 m)
    (h : ∀ a c, a < s.nm → c < s.nm → β z k a c ≤ β' z k a c) : (tab s β).iNL W1 W2 z k ≤ (tab s β').iNL W1 W2 z k := by
  have h0 := H.nm_pos
  have up : ∀ i, i + 1 < s.nm → s.mass i ≤ s.mass (i + 1) := fun i hi => by linarith [H.grid.step_pos i hi]
  have ord : ∀ f g : ℕ → ℝ, (∀ i < s.nm, f i ≤ g i) → s.trapezoidalIntegrator f ≤ s.trapezoidalIntegrator g := fun f g hfg => (C13_order s hn up f g hfg).1
  have w : ∀ m < s.nm, 0 ≤ s.haloBias z m * s.dndlnm z m * (1 / s.mass m) := fun m hm =>
    mul_nonneg (mul_nonneg (H.bias z m hm) (H.dndlnm z m hm)) (one_div_nonneg.2 (H.mass m hm).le)
  have A := H.aTerm z
  have R : 0 ≤ s.meanDensity0 z * (1 / s.mass 0) := mul_nonneg (H.density z).le (one_div_nonneg.2 (H.mass 0 h0).le)
  have p1 := h1 0 h0
  have p2 := h2 0 h0
  have e : ∀ γ : ℕ → ℕ → ℕ → ℕ → ℝ, (tab s γ).iNL W1 W2 z k = γ z k 0 0 * (s.aTerm z * s.aTerm z) * W1 0 * W2 0 * (s.meanDensity0 z * (1 / s.mass 0)) ^ 2
      + s.aTerm z * W1 0 * s.trapezoidalIntegrator (fun m => γ z k 0 m * (s.haloBias z m * s.dndlnm z m * (1 / s.mass m)) * W2 m)
        * (s.meanDensity0 z * (1 / s.mass 0))
      + s.aTerm z * W2 0 * s.trapezoidalIntegrator (fun m => γ z k m 0 * (s.haloBias z m * s.dndlnm z m * (1 / s.mass m)) * W1 m)
        * (s.meanDensity0 z * (1 / s.mass 0))
      + s.trapezoidalIntegrator (fun m1 => s.trapezoidalIntegrator (fun m2 => γ z k m1 m2 * (s.haloBias z m1 * s.dndlnm z m1 * (1 / s.mass m1))
        * (s.haloBias z m2 * s.dndlnm z m2 * (1 / s.mass m2)) * W2 m2) * W1 m1) := fun γ => rfl
  rw [e, e]
  have t1 := h 0 0 h0 h0
  refine add_le_add (add_le_add (add_le_add ?_ ?_) ?_) ?_
  · gcongr
  · refine mul_le_mul_of_nonneg_right (mul_le_mul_of_nonneg_left (ord _ _ fun m hm => ?_) (mul_nonneg A p1)) R
    exact mul_le_mul_of_nonneg_right (mul_le_mul_of_nonneg_right (h 0 m h0 hm) (w m hm)) (h2 m hm)
  · refine mul_le_mul_of_nonneg_right (mul_le_mul_of_nonneg_left (ord _ _ fun m hm => ?_) (mul_nonneg A p2)) R
    exact mul_le_mul_of_nonneg_right (mul_le_mul_of_nonneg_right (h m 0 hm h0) (w m hm)) (h1 m hm)
  · refine ord _ _ fun a ha => mul_le_mul_of_nonneg_right (ord _ _ fun c hc => ?_) (h1 a ha)
    exact mul_le_mul_of_nonneg_right (mul_le_mul_of_nonneg_right (mul_le_mul_of_nonneg_right (h a c ha hc) (w a ha)) (w c hc)) (h2 c hc)

/-- a table of values up to `ε` gives at most `ε` times the product of the two biased integrals -/
theorem iNL_bound (H : Inputs s) (hn : 2 ≤ s.nm) (h1 : ∀ m < s.nm, 0 ≤ W1 m) (h2 : ∀ m < s.nm, 0 ≤ W2 m) {ε : ℝ}
    (h : ∀ a c, a < s.nm → c < s.nm → |β z k a c| ≤ ε) : |(tab s β).iNL W1 W2 z k| ≤ ε * biasWeighted s z W1 * biasWeighted s z W2 := by
  have m0 : ∀ m < s.nm, s.mass m ≠ 0 := fun m hm => (H.mass m hm).ne'
  have up := iNL_mono H hn h1 h2 (β := β) (β' := fun _ _ _ _ => ε) (z := z) (k := k) fun a c ha hc => (abs_le.1 (h a c ha hc)).2
  have lo := iNL_mono H hn h1 h2 (β := fun _ _ _ _ => -ε) (β' := β) (z := z) (k := k) fun a c ha hc => (abs_le.1 (h a c ha hc)).1
  rw [C12_constant_factorises (tab s fun _ _ _ _ => ε) W1 W2 z k ε hn m0 (fun _ _ _ _ => rfl)] at up
  rw [C12_constant_factorises (tab s fun _ _ _ _ => -ε) W1 W2 z k (-ε) hn m0 (fun _ _ _ _ => rfl)] at lo
  have e : ∀ (γ : ℕ → ℕ → ℕ → ℕ → ℝ) W, biasWeighted (tab s γ) z W = biasWeighted s z W := fun _ _ => rfl
  rw [e, e] at up lo
  rw [abs_le]
  exact ⟨by linarith, up⟩

/-- what the table adds to the six two-halo spectra -/
theorem form (hresp : s.response = false) (β : ℕ → ℕ → ℕ → ℕ → ℝ) :
    ∃ mm gg gm mi ii gi mm' gg' gm' mi' ii' gi',
      (plain s).powerSpectrumMm = .ok mm ∧ (plain s).powerSpectrumGg = .ok gg ∧ (plain s).powerSpectrumGm = .ok gm ∧
      (plain s).powerSpectrumMi = .ok mi ∧ (plain s).powerSpectrumIi = .ok ii ∧ (plain s).powerSpectrumGi = .ok gi ∧
      (tab s β).powerSpectrumMm = .ok mm' ∧ (tab s β).powerSpectrumGg = .ok gg' ∧ (tab s β).powerSpectrumGm = .ok gm' ∧
      (tab s β).powerSpectrumMi = .ok mi' ∧ (tab s β).powerSpectrumIi = .ok ii' ∧ (tab s β).powerSpectrumGi = .ok gi' ∧
      ∀ b z k,
        mm'.pk2h b z k - mm.pk2h b z k = s.pkLin z k * (tab s β).iNL (s.matterProfile2h z k) (s.matterProfile2h z k) z k ∧
        gg'.pk2h b z k - gg.pk2h b z k = s.pkLin z k * (tab s β).iNL (gal s b z k) (gal s b z k) z k ∧
        gm'.pk2h b z k - gm.pk2h b z k = s.pkLin z k * (tab s β).iNL (gal s b z k) (s.matterProfile2h z k) z k ∧
        mi.pk2h b z k - mi'.pk2h b z k = s.pkLin z k * (tab s β).iNL (ali s b z k) (s.matterProfile2h z k) z k ∧
        ii'.pk2h b z k - ii.pk2h b z k = s.pkLin z k * ((tab s β).iNL (s.centralAlignmentProfile b z k) (s.centralAlignmentProfile b z k) z k
          + (tab s β).iNL (s.satelliteAlignmentProfile b z k) (s.satelliteAlignmentProfile b z k) z k
          + (tab s β).iNL (s.centralAlignmentProfile b z k) (s.satelliteAlignmentProfile b z k) z k) ∧
        gi'.pk2h b z k - gi.pk2h b z k = s.pkLin z k * ((tab s β).iNL (s.centralAlignmentProfile b z k) (s.centralGalaxyProfile b z k) z k
          + (tab s β).iNL (s.satelliteAlignmentProfile b z k) (s.centralGalaxyProfile b z k) z k) ∧
        mm'.pk1h b z k = mm.pk1h b z k ∧ gg'.pk1h b z k = gg.pk1h b z k ∧ gm'.pk1h b z k = gm.pk1h b z k ∧ mi'.pk1h b z k = mi.pk1h b z k ∧
        ii'.pk1h b z k = ii.pk1h b z k ∧ gi'.pk1h b z k = gi.pk1h b z k := by
  have P := C03_no_error (plain s) hresp
  have T := C03_no_error (tab s β) hresp
  have mmE : ∀ q : Spectra, q.response = false → q.powerSpectrumMm = q.powerSpectrumMmRaw := fun q hq => by unfold powerSpectrumMm; rw [hq]; rfl
  refine ⟨_, _, _, _, _, _, _, _, _, _, _, _, mmE _ hresp, P.1, P.2.1, P.2.2.1, P.2.2.2.1, P.2.2.2.2, mmE _ hresp, T.1, T.2.1, T.2.2.1, T.2.2.2.1, T.2.2.2.2,
    fun b z k => ⟨?_, ?_, ?_, ?_, ?_, ?_, rfl, rfl, rfl, rfl, rfl, rfl⟩⟩
  · change s.pkLin z k * s.imTerm z k * s.imTerm z k + s.pkLin z k * (tab s β).iNL (s.matterProfile2h z k) (s.matterProfile2h z k) z k
      - s.pkLin z k * s.imTerm z k * s.imTerm z k * 1 = _
    ring
  · change s.pkLin z k * s.icTerm b z k * s.icTerm b z k + s.pkLin z k * s.isTerm b z k * s.isTerm b z k
        + 2 * (s.pkLin z k * s.icTerm b z k * s.isTerm b z k) + s.pkLin z k * (tab s β).iNL (gal s b z k) (gal s b z k) z k
      - (s.pkLin z k * s.icTerm b z k * s.icTerm b z k * 1 + s.pkLin z k * s.isTerm b z k * s.isTerm b z k * 1
        + 2 * (s.pkLin z k * s.icTerm b z k * s.isTerm b z k * 1)) = _
    ring
  · change s.pkLin z k * s.icTerm b z k * s.imTerm z k + s.pkLin z k * s.isTerm b z k * s.imTerm z k
        + s.pkLin z k * (tab s β).iNL (gal s b z k) (s.matterProfile2h z k) z k
      - (s.pkLin z k * s.icTerm b z k * s.imTerm z k * 1 + s.pkLin z k * s.isTerm b z k * s.imTerm z k * 1) = _
    ring
  · change (-1 * s.pkLin z k * s.icAlignTerm b z k * s.imTerm z k * 1 + -1 * s.pkLin z k * s.isAlignTerm b z k * s.imTerm z k * 1)
      - (-1 * s.pkLin z k * s.icAlignTerm b z k * s.imTerm z k + -1 * s.pkLin z k * s.isAlignTerm b z k * s.imTerm z k
        - s.pkLin z k * (tab s β).iNL (ali s b z k) (s.matterProfile2h z k) z k) = _
    ring
  · change s.pkLin z k * s.icAlignTerm b z k * s.icAlignTerm b z k
        + s.pkLin z k * (tab s β).iNL (s.centralAlignmentProfile b z k) (s.centralAlignmentProfile b z k) z k
        + (s.pkLin z k * s.isAlignTerm b z k * s.isAlignTerm b z k
          + s.pkLin z k * (tab s β).iNL (s.satelliteAlignmentProfile b z k) (s.satelliteAlignmentProfile b z k) z k)
        + (s.pkLin z k * s.icAlignTerm b z k * s.isAlignTerm b z k
          + s.pkLin z k * (tab s β).iNL (s.centralAlignmentProfile b z k) (s.satelliteAlignmentProfile b z k) z k)
      - (s.pkLin z k * s.icAlignTerm b z k * s.icAlignTerm b z k * 1 + s.pkLin z k * s.isAlignTerm b z k * s.isAlignTerm b z k * 1
        + s.pkLin z k * s.icAlignTerm b z k * s.isAlignTerm b z k * 1) = _
    ring
  · change s.pkLin z k * s.icTerm b z k * s.isAlignTerm b z k
        + s.pkLin z k * (tab s β).iNL (s.satelliteAlignmentProfile b z k) (s.centralGalaxyProfile b z k) z k
        + (s.pkLin z k * s.icTerm b z k * s.icAlignTerm b z k
          + s.pkLin z k * (tab s β).iNL (s.centralAlignmentProfile b z k) (s.centralGalaxyProfile b z k) z k)
      - (s.pkLin z k * s.icTerm b z k * s.isAlignTerm b z k * 1 + s.pkLin z k * s.icTerm b z k * s.icAlignTerm b z k * 1) = _
    ring

theorem gal_nonneg (H : Inputs s) (b z k : ℕ) : ∀ m < s.nm, 0 ≤ gal s b z k m := fun m hm => add_nonneg (H.toNonnegInputs.cenGal b z k m hm) (sat_nonneg H hm)

theorem ali_nonneg (H : Inputs s) (b z k : ℕ) : ∀ m < s.nm, 0 ≤ ali s b z k m := fun m hm =>
  add_nonneg (H.toNonnegInputs.cenAlign b z k m hm) (H.toNonnegInputs.satAlign b z k m hm)

theorem mat_nonneg (H : Inputs s) (z k : ℕ) : ∀ m < s.nm, 0 ≤ s.matterProfile2h z k m := fun m hm =>
  mul_nonneg (div_nonneg (H.mass m hm).le (H.density z).le) (H.uDm z k m hm)

/-- C164: a table that is nowhere lower gives two-halo spectra that are nowhere lower (`mi`, which is negative, nowhere higher). -/
theorem C164_order (H : Inputs s) (hresp : s.response = false) (hn : 2 ≤ s.nm)
    (h : ∀ z k a c, a < s.nm → c < s.nm → β z k a c ≤ β' z k a c) :
    (∀ f ∈ [powerSpectrumMm, powerSpectrumGg, powerSpectrumGm, powerSpectrumIi, powerSpectrumGi], ∃ r r', f (tab s β) = .ok r ∧ f (tab s β') = .ok r' ∧
      ∀ b z k, r.pk1h b z k = r'.pk1h b z k ∧ r.pk2h b z k ≤ r'.pk2h b z k) ∧
    ∃ r r', (tab s β).powerSpectrumMi = .ok r ∧ (tab s β').powerSpectrumMi = .ok r' ∧
      ∀ b z k, r.pk1h b z k = r'.pk1h b z k ∧ r'.pk2h b z k ≤ r.pk2h b z k := by
  obtain ⟨mm, gg, gm, mi, ii, gi, m1, g1, x1, i1, j1, k1, p1, p2, p3, p4, p5, p6, a1, a2, a3, a4, a5, a6, F⟩ := form hresp β
  obtain ⟨mm', gg', gm', mi', ii', gi', m2, g2, x2, i2, j2, k2, q1, q2, q3, q4, q5, q6, b1, b2, b3, b4, b5, b6, G⟩ := form hresp β'
  obtain rfl := Except.ok.inj (p1.symm.trans q1)
  obtain rfl := Except.ok.inj (p2.symm.trans q2)
  obtain rfl := Except.ok.inj (p3.symm.trans q3)
  obtain rfl := Except.ok.inj (p4.symm.trans q4)
  obtain rfl := Except.ok.inj (p5.symm.trans q5)
  obtain rfl := Except.ok.inj (p6.symm.trans q6)
  have M : ∀ {z k} {U V : ℕ → ℝ}, (∀ m < s.nm, 0 ≤ U m) → (∀ m < s.nm, 0 ≤ V m) →
      s.pkLin z k * (tab s β).iNL U V z k ≤ s.pkLin z k * (tab s β').iNL U V z k := fun {z k U V} hU hV =>
    mul_le_mul_of_nonneg_left (iNL_mono H hn hU hV (h z k)) (H.pkLin z k)
  have c0 := H.toNonnegInputs.cenAlign
  have s0 := H.toNonnegInputs.satAlign
  have g0 := H.toNonnegInputs.cenGal
  simp only [List.forall_mem_cons, List.not_mem_nil, false_implies, implies_true, and_true]
  refine ⟨⟨⟨_, _, a1, b1, fun b z k => ?_⟩, ⟨_, _, a2, b2, fun b z k => ?_⟩, ⟨_, _, a3, b3, fun b z k => ?_⟩, ⟨_, _, a5, b5, fun b z k => ?_⟩,
    ⟨_, _, a6, b6, fun b z k => ?_⟩⟩, ⟨_, _, a4, b4, fun b z k => ?_⟩⟩ <;>
    obtain ⟨f1, f2, f3, f4, f5, f6, f7, f8, f9, f10, f11, f12⟩ := F b z k <;>
    obtain ⟨e1, e2, e3, e4, e5, e6, e7, e8, e9, e10, e11, e12⟩ := G b z k
  · exact ⟨f7.trans e7.symm, by linarith [M (z := z) (k := k) (mat_nonneg H z k) (mat_nonneg H z k)]⟩
  · exact ⟨f8.trans e8.symm, by linarith [M (z := z) (k := k) (gal_nonneg H b z k) (gal_nonneg H b z k)]⟩
  · exact ⟨f9.trans e9.symm, by linarith [M (z := z) (k := k) (gal_nonneg H b z k) (mat_nonneg H z k)]⟩
  · have x1 := M (z := z) (k := k) (c0 b z k) (c0 b z k)
    have x2 := M (z := z) (k := k) (s0 b z k) (s0 b z k)
    have x3 := M (z := z) (k := k) (c0 b z k) (s0 b z k)
    exact ⟨f11.trans e11.symm, by linarith⟩
  · exact ⟨f12.trans e12.symm, by linarith [M (z := z) (k := k) (c0 b z k) (g0 b z k), M (z := z) (k := k) (s0 b z k) (g0 b z k)]⟩
  · exact ⟨f10.trans e10.symm, by linarith [M (z := z) (k := k) (ali_nonneg H b z k) (mat_nonneg H z k)]⟩

/-- C164: a table of values up to `ε` changes each two-halo spectrum of the plain mode (without truncation) by at most `ε` times the linear power times the
biased integrals of the two profiles, taken by the trapezoid rule. -/
theorem C164_bound (H : Inputs s) (hresp : s.response = false) (hn : 2 ≤ s.nm) {ε : ℝ} (h : ∀ z k a c, a < s.nm → c < s.nm → |β z k a c| ≤ ε) :
    ∃ mm gg gm mi ii gi mm' gg' gm' mi' ii' gi',
      (plain s).powerSpectrumMm = .ok mm ∧ (plain s).powerSpectrumGg = .ok gg ∧ (plain s).powerSpectrumGm = .ok gm ∧
      (plain s).powerSpectrumMi = .ok mi ∧ (plain s).powerSpectrumIi = .ok ii ∧ (plain s).powerSpectrumGi = .ok gi ∧
      (tab s β).powerSpectrumMm = .ok mm' ∧ (tab s β).powerSpectrumGg = .ok gg' ∧ (tab s β).powerSpectrumGm = .ok gm' ∧
      (tab s β).powerSpectrumMi = .ok mi' ∧ (tab s β).powerSpectrumIi = .ok ii' ∧ (tab s β).powerSpectrumGi = .ok gi' ∧
      ∀ b z k,
        |mm'.pk2h b z k - mm.pk2h b z k| ≤ ε * s.pkLin z k * biasWeighted s z (s.matterProfile2h z k) ^ 2 ∧
        |gg'.pk2h b z k - gg.pk2h b z k| ≤ ε * s.pkLin z k * biasWeighted s z (gal s b z k) ^ 2 ∧
        |gm'.pk2h b z k - gm.pk2h b z k| ≤ ε * s.pkLin z k * (biasWeighted s z (gal s b z k) * biasWeighted s z (s.matterProfile2h z k)) ∧
        |mi'.pk2h b z k - mi.pk2h b z k| ≤ ε * s.pkLin z k * (biasWeighted s z (ali s b z k) * biasWeighted s z (s.matterProfile2h z k)) ∧
        |ii'.pk2h b z k - ii.pk2h b z k| ≤ ε * s.pkLin z k * (biasWeighted s z (s.centralAlignmentProfile b z k) ^ 2
          + biasWeighted s z (s.satelliteAlignmentProfile b z k) ^ 2
          + biasWeighted s z (s.centralAlignmentProfile b z k) * biasWeighted s z (s.satelliteAlignmentProfile b z k)) ∧
        |gi'.pk2h b z k - gi.pk2h b z k| ≤ ε * s.pkLin z k * (biasWeighted s z (s.centralGalaxyProfile b z k)
          * (biasWeighted s z (s.centralAlignmentProfile b z k) + biasWeighted s z (s.satelliteAlignmentProfile b z k))) := by
  obtain ⟨mm, gg, gm, mi, ii, gi, m1, g1, x1, i1, j1, k1, p1, p2, p3, p4, p5, p6, a1, a2, a3, a4, a5, a6, F⟩ := form hresp β
  refine ⟨mm, gg, gm, mi, ii, gi, m1, g1, x1, i1, j1, k1, p1, p2, p3, p4, p5, p6, a1, a2, a3, a4, a5, a6, fun b z k => ?_⟩
  obtain ⟨f1, f2, f3, f4, f5, f6, -⟩ := F b z k
  have hP := H.pkLin z k
  have B : ∀ {U V : ℕ → ℝ}, (∀ m < s.nm, 0 ≤ U m) → (∀ m < s.nm, 0 ≤ V m) →
      |(tab s β).iNL U V z k| ≤ ε * biasWeighted s z U * biasWeighted s z V := fun hU hV => iNL_bound H hn hU hV (h z k)
  have c0 := H.toNonnegInputs.cenAlign b z k
  have s0 := H.toNonnegInputs.satAlign b z k
  have g0 := H.toNonnegInputs.cenGal b z k
  have L : ∀ {x y : ℝ}, |x| ≤ y → |s.pkLin z k * x| ≤ s.pkLin z k * y := fun {x y} hxy => by
    rw [abs_mul, abs_of_nonneg hP]; exact mul_le_mul_of_nonneg_left hxy hP
  refine ⟨?_, ?_, ?_, ?_, ?_, ?_⟩
  · rw [f1]; exact (L (B (mat_nonneg H z k) (mat_nonneg H z k))).trans_eq (by ring)
  · rw [f2]; exact (L (B (gal_nonneg H b z k) (gal_nonneg H b z k))).trans_eq (by ring)
  · rw [f3]; exact (L (B (gal_nonneg H b z k) (mat_nonneg H z k))).trans_eq (by ring)
  · rw [abs_sub_comm, f4]; exact (L (B (ali_nonneg H b z k) (mat_nonneg H z k))).trans_eq (by ring)
  · rw [f5]
    exact (L ((abs_add_three _ _ _).trans (add_le_add (add_le_add (B c0 c0) (B s0 s0)) (B c0 s0)))).trans_eq (by ring)
  · rw [f6]
    exact (L ((abs_add_le _ _).trans (add_le_add (B c0 g0) (B s0 g0)))).trans_eq (by ring)

/-- C164: the bound is reached: a constant table changes the matter, clustering and lensing spectra by exactly this much. -/
theorem C164_sharp (hresp : s.response = false) (hn : 2 ≤ s.nm) (hm : ∀ m < s.nm, s.mass m ≠ 0) (c : ℝ) :
    ∃ mm gg gm mm' gg' gm', (plain s).powerSpectrumMm = .ok mm ∧ (plain s).powerSpectrumGg = .ok gg ∧ (plain s).powerSpectrumGm = .ok gm ∧
      (tab s fun _ _ _ _ => c).powerSpectrumMm = .ok mm' ∧ (tab s fun _ _ _ _ => c).powerSpectrumGg = .ok gg' ∧
      (tab s fun _ _ _ _ => c).powerSpectrumGm = .ok gm' ∧ ∀ b z k,
        mm'.pk2h b z k - mm.pk2h b z k = c * s.pkLin z k * biasWeighted s z (s.matterProfile2h z k) ^ 2 ∧
        gg'.pk2h b z k - gg.pk2h b z k = c * s.pkLin z k * biasWeighted s z (gal s b z k) ^ 2 ∧
        gm'.pk2h b z k - gm.pk2h b z k = c * s.pkLin z k * (biasWeighted s z (gal s b z k) * biasWeighted s z (s.matterProfile2h z k)) := by
  obtain ⟨mm, gg, gm, mi, ii, gi, m1, g1, x1, i1, j1, k1, p1, p2, p3, -, -, -, a1, a2, a3, -, -, -, F⟩ := form hresp fun _ _ _ _ => c
  refine ⟨mm, gg, gm, m1, g1, x1, p1, p2, p3, a1, a2, a3, fun b z k => ?_⟩
  obtain ⟨f1, f2, f3, -⟩ := F b z k
  have C : ∀ U V, (tab s fun _ _ _ _ => c).iNL U V z k = c * biasWeighted s z U * biasWeighted s z V := fun U V =>
    C12_constant_factorises (tab s fun _ _ _ _ => c) U V z k c hn hm (fun _ _ _ _ => rfl)
  rw [f1, f2, f3, C, C, C]
  exact ⟨by ring, by ring, by ring⟩

/-! ## Non-vacuity -/

example : Inputs demo ∧ demo.response = false ∧ 2 ≤ demo.nm ∧ ∀ m < demo.nm, demo.mass m ≠ 0 :=
  ⟨demo_inputs, rfl, by simp [demo], fun m hm => (demo_inputs.mass m hm).ne'⟩

/-- two tables in order that differ -/
example : ∀ z k a c : ℕ, a < demo.nm → c < demo.nm → (fun _ _ _ _ : ℕ => (0 : ℝ)) z k a c ≤ (fun _ _ a c : ℕ => (a : ℝ) * c) z k a c := fun z k a c _ _ => by
  positivity

/-- and the second one changes the result -/
example : (tab demo fun _ _ a c => (a : ℝ) * c).iNL 1 1 0 0 ≠ 0 := by
  have e : ∀ f : ℕ → ℝ, (tab demo fun _ _ a c => (a : ℝ) * c).trapezoidalIntegrator f = (f 0 + 2 * f 1 + f 2) / 2 := by
    intro f
    rw [C13_trapezoid _ (by simp [tab, demo])]
    simp [trapezoidArea, tab, demo, sum_range_succ]; ring
  unfold iNL
  simp only [e]
  simp [i12, i21, i22, tab, demo]; norm_num

end Verif.Pk.BnlBounds

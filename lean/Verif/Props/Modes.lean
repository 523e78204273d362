import Verif.Props.PkIdentities
import Verif.Props.PkDamping
import Verif.Props.PkInl

/-! Property C161: what a change of the non-linear mode changes. -/

namespace Verif.Pk.Modes

open Verif.Lib Verif.Pk Verif.Pk.Spectra Finset

/-- the same ingredients in another mode -/
def inMode (s : Spectra) (m : NLMode) : Spectra := { s with nonlinearMode := m }

variable {s : Spectra} {m m' : NLMode} {b z k : ℕ}

/-- C161: clustering and galaxy-galaxy lensing know one alternative only: they are the same in all modes but `bnl`.  The matter power is the same
in the plain and the Fortuna mode, the alignment spectra in the plain and the HMcode mode. -/
theorem C161_same (hresp : s.response = false) :
    (m ≠ .bnl → m' ≠ .bnl → (inMode s m).powerSpectrumGg = (inMode s m').powerSpectrumGg ∧ (inMode s m).powerSpectrumGm = (inMode s m').powerSpectrumGm) ∧
    (inMode s .none).powerSpectrumMm = (inMode s .fortuna).powerSpectrumMm ∧
    (inMode s .none).powerSpectrumMi = (inMode s .hmcode).powerSpectrumMi ∧ (inMode s .none).powerSpectrumIi = (inMode s .hmcode).powerSpectrumIi ∧
    (inMode s .none).powerSpectrumGi = (inMode s .hmcode).powerSpectrumGi := by
  have N := C03_no_error (inMode s .none) hresp
  have H := C03_no_error (inMode s .hmcode) hresp
  refine ⟨fun h h' => ?_, ?_, ?_, ?_, ?_⟩
  · have A := C03_no_error (inMode s m) hresp
    have B := C03_no_error (inMode s m') hresp
    rw [A.1, B.1, A.2.1, B.2.1]
    constructor <;> cases m <;> cases m' <;> first | rfl | exact absurd rfl h | exact absurd rfl h'
  · simp only [powerSpectrumMm, powerSpectrumMmRaw, inMode, hresp]
    rfl
  · rw [N.2.2.1, H.2.2.1]; rfl
  · rw [N.2.2.2.1, H.2.2.2.1]; rfl
  · rw [N.2.2.2.2, H.2.2.2.2]; rfl

/-- C161: the pairs inside one halo are the same in every mode, for all spectra with galaxies or shapes. -/
theorem C161_one_halo (hresp : s.response = false) (m m' : NLMode) :
    ∀ f ∈ [powerSpectrumGg, powerSpectrumGm, powerSpectrumMi, powerSpectrumIi, powerSpectrumGi],
      ∃ r r', f (inMode s m) = .ok r ∧ f (inMode s m') = .ok r' ∧ r.pk1h = r'.pk1h := by
  have A := C03_no_error (inMode s m) hresp
  have B := C03_no_error (inMode s m') hresp
  simp only [List.forall_mem_cons, List.not_mem_nil, false_implies, implies_true, and_true]
  refine ⟨⟨_, _, A.1, B.1, rfl⟩, ⟨_, _, A.2.1, B.2.1, rfl⟩, ⟨_, _, A.2.2.1, B.2.2.1, ?_⟩, ⟨_, _, A.2.2.2.1, B.2.2.2.1, ?_⟩,
    ⟨_, _, A.2.2.2.2, B.2.2.2.2, ?_⟩⟩ <;> cases m <;> cases m' <;> rfl

/-- C161: HMcode against the plain mode, with the ingredients of HMcode: the one-halo power is damped differently, the two-halo power is the linear
power with its own damping instead of that of biased halos. -/
theorem C161_hmcode_matter (hresp : s.response = false) (hi : s.hmcodeIngredients = .mead2020Feedback ∨ s.hmcodeIngredients = .mead2020) :
    ∃ p h, (inMode s .none).powerSpectrumMm = .ok p ∧ (inMode s .hmcode).powerSpectrumMm = .ok h ∧ ∀ b z k,
      h.pk1h b z k * s.oneHaloTruncation k = p.pk1h b z k * s.oneHaloTruncationMead z k ∧
      h.pk2h b z k * (s.imTerm z k ^ 2 * s.twoHaloTruncation k) = p.pk2h b z k * s.twoHaloTruncationMead z k := by
  refine ⟨_, _, by simp only [powerSpectrumMm, powerSpectrumMmRaw, inMode, hresp]; rfl,
    by simp only [powerSpectrumMm, powerSpectrumMmRaw, inMode, hresp]; rw [if_pos hi]; rfl, fun b z k => ⟨?_, ?_⟩⟩
  · exact mul_right_comm _ _ _
  · change s.pkLin z k * s.twoHaloTruncationMead z k * (s.imTerm z k ^ 2 * s.twoHaloTruncation k) =
      s.pkLin z k * s.imTerm z k * s.imTerm z k * s.twoHaloTruncation k * s.twoHaloTruncationMead z k
    ring

/-- the damping of HMcode takes something away at every wavenumber -/
theorem mead_lt_one (hσ : 0 < s.sigma8z z) (hk : 0 < s.kVec k) : s.twoHaloTruncationMead z k < 1 := by
  unfold twoHaloTruncationMead
  have : 0 < 0.2696 * s.sigma8z z ^ (0.9403 : ℝ) * (s.kVec k / (0.05699 * s.sigma8z z ^ (-1.089 : ℝ))) ^ (2.853 : ℝ)
    / (1 + (s.kVec k / (0.05699 * s.sigma8z z ^ (-1.089 : ℝ))) ^ (2.853 : ℝ)) := by positivity
  linarith

/-- C161: so in the HMcode mode the two-halo terms of galaxies and matter no longer belong to one field (they do in the plain and the Fortuna mode,
C06).  Where halos are small against the wavelength and no truncation is asked for, galaxies and matter would be correlated by more than one. -/
theorem C161_hmcode_correlation (hresp : s.response = false) (hi : s.hmcodeIngredients = .mead2020Feedback ∨ s.hmcodeIngredients = .mead2020) :
    ∃ gg gm mm, (inMode s .hmcode).powerSpectrumGg = .ok gg ∧ (inMode s .hmcode).powerSpectrumGm = .ok gm ∧
      (inMode s .hmcode).powerSpectrumMm = .ok mm ∧ ∀ b z k,
      gm.pk2h b z k ^ 2 * s.twoHaloTruncationMead z k = gg.pk2h b z k * mm.pk2h b z k * (s.imTerm z k ^ 2 * s.twoHaloTruncation k) ∧
      (s.imTerm z k = 1 → s.twoHaloKtrunc = none → 0 < s.sigma8z z → 0 < s.kVec k → 0 < s.pkLin z k → gg.pk2h b z k ≠ 0 →
        gg.pk2h b z k * mm.pk2h b z k < gm.pk2h b z k ^ 2) := by
  obtain ⟨p, h, -, e2, e3⟩ := C161_hmcode_matter hresp hi
  have H := C03_no_error (inMode s .hmcode) hresp
  refine ⟨_, _, h, H.1, H.2.1, e2, fun b z k => ?_⟩
  have h2 : h.pk2h b z k = s.pkLin z k * s.twoHaloTruncationMead z k := by
    have : (inMode s .hmcode).powerSpectrumMm = .ok h := e2
    simp only [powerSpectrumMm, powerSpectrumMmRaw, inMode, hresp] at this
    rw [if_pos hi] at this
    rw [← Except.ok.inj this]
    rfl
  have g : (inMode s .hmcode).powerSpectrumGgRaw.pk2h b z k = s.pkLin z k * (s.icTerm b z k + s.isTerm b z k) ^ 2 * s.twoHaloTruncation k := by
    change s.pkLin z k * s.icTerm b z k * s.icTerm b z k * s.twoHaloTruncation k + s.pkLin z k * s.isTerm b z k * s.isTerm b z k * s.twoHaloTruncation k
      + 2 * (s.pkLin z k * s.icTerm b z k * s.isTerm b z k * s.twoHaloTruncation k) = _
    ring
  have x : (inMode s .hmcode).powerSpectrumGmRaw.pk2h b z k =
      s.pkLin z k * (s.icTerm b z k + s.isTerm b z k) * s.imTerm z k * s.twoHaloTruncation k := by
    change s.pkLin z k * s.icTerm b z k * s.imTerm z k * s.twoHaloTruncation k + s.pkLin z k * s.isTerm b z k * s.imTerm z k * s.twoHaloTruncation k = _
    ring
  rw [h2, g, x]
  refine ⟨by ring, fun i1 t hσ hk hp hne => ?_⟩
  have t1 : s.twoHaloTruncation k = 1 := by unfold twoHaloTruncation; rw [t]
  rw [t1, mul_one] at hne ⊢
  rw [i1, mul_one, mul_one]
  have hI : s.icTerm b z k + s.isTerm b z k ≠ 0 := fun h0 => hne (by rw [h0]; ring)
  have pos : 0 < (s.pkLin z k * (s.icTerm b z k + s.isTerm b z k)) ^ 2 := by positivity
  calc _ = (s.pkLin z k * (s.icTerm b z k + s.isTerm b z k)) ^ 2 * s.twoHaloTruncationMead z k := by ring
    _ < (s.pkLin z k * (s.icTerm b z k + s.isTerm b z k)) ^ 2 * 1 := mul_lt_mul_of_pos_left (mead_lt_one hσ hk) pos
    _ = _ := mul_one _

/-- C161: the Fortuna mode with the linear power (`t_eff = 1`, or a non-linear power equal to the linear one) against the plain mode.  What is missing are
the satellites, the size of halos in the cross-spectrum with matter, and the dependence on mass; `gi` has one factor of the fraction of centrals less
than in the plain mode. -/
theorem C161_fortuna (hresp : s.response = false) (hm : ∀ m < s.nm, s.mass m ≠ 0) (hnm : 0 < s.nm) (hρ : s.meanDensity0 z ≠ 0)
    (hp : (1 - s.tEff) * (s.pkNl z k - s.pkLin z k) = 0) :
    ∃ mi ii gi mi' ii' gi', (inMode s .none).powerSpectrumMi = .ok mi ∧ (inMode s .none).powerSpectrumIi = .ok ii ∧
      (inMode s .none).powerSpectrumGi = .ok gi ∧ (inMode s .fortuna).powerSpectrumMi = .ok mi' ∧ (inMode s .fortuna).powerSpectrumIi = .ok ii' ∧
      (inMode s .fortuna).powerSpectrumGi = .ok gi' ∧ ∀ b, ∃ A : ℝ, (s.betaCen = none ∨ s.mpivotCen = none → A = 1) ∧
        mi.pk2h b z k = A * s.imTerm z k * mi'.pk2h b z k - s.pkLin z k * s.isAlignTerm b z k * s.imTerm z k * s.twoHaloTruncationIa k ∧
        ii.pk2h b z k = A ^ 2 * ii'.pk2h b z k
          + s.pkLin z k * s.isAlignTerm b z k * (s.isAlignTerm b z k + s.icAlignTerm b z k) * s.twoHaloTruncationIa k ∧
        gi.pk2h b z k = A * s.fC b z * gi'.pk2h b z k + s.pkLin z k * s.icTerm b z k * s.isAlignTerm b z k * s.twoHaloTruncationIa k ∧
        (s.fS b z = 0 → mi.pk2h b z k = A * s.imTerm z k * mi'.pk2h b z k ∧ ii.pk2h b z k = A ^ 2 * ii'.pk2h b z k ∧
          gi.pk2h b z k = A * s.fC b z * gi'.pk2h b z k) := by
  have N := C03_no_error (inMode s .none) hresp
  have F := C03_no_error (inMode s .fortuna) hresp
  refine ⟨_, _, _, _, _, _, N.2.2.1, N.2.2.2.1, N.2.2.2.2, F.2.2.1, F.2.2.2.1, F.2.2.2.2, fun b =>
    ⟨additionalTerm s.betaCen s.mpivotCen (s.massAvg b z), ?_, ?_⟩⟩
  · rintro (h | h)
    · rw [h]; rfl
    · rw [h]; cases s.betaCen <;> rfl
  have pe : (inMode s .fortuna).peffVal z k = s.pkLin z k := by
    change (if NLMode.fortuna = .fortuna then some ((1 - s.tEff) * s.pkNl z k + s.tEff * s.pkLin z k) else none).getD 0 = _
    rw [if_pos rfl, Option.getD_some]
    linarith
  have ic := C08_central_alignment_exact s b z k hm hnm hρ
  have zero : s.fS b z = 0 → s.isAlignTerm b z k = 0 := fun h => by
    have e : ∀ m, s.satelliteAlignmentProfile b z k m = 0 := fun m => by simp [satelliteAlignmentProfile, h]
    unfold isAlignTerm computeIgTerm
    simp only [e, zero_mul, zero_div, mul_zero, add_zero]
    exact simpson_zero _ _
  have e1 : (inMode s .none).powerSpectrumMiRaw.pk2h b z k =
      -1 * s.pkLin z k * s.icAlignTerm b z k * s.imTerm z k * s.twoHaloTruncationIa k
        + -1 * s.pkLin z k * s.isAlignTerm b z k * s.imTerm z k * s.twoHaloTruncationIa k := rfl
  have e2 : (inMode s .none).powerSpectrumIiRaw.pk2h b z k =
      s.pkLin z k * s.icAlignTerm b z k * s.icAlignTerm b z k * s.twoHaloTruncationIa k
      + s.pkLin z k * s.isAlignTerm b z k * s.isAlignTerm b z k * s.twoHaloTruncationIa k
      + s.pkLin z k * s.icAlignTerm b z k * s.isAlignTerm b z k * s.twoHaloTruncationIa k := rfl
  have e3 : (inMode s .none).powerSpectrumGiRaw.pk2h b z k =
      s.pkLin z k * s.icTerm b z k * s.isAlignTerm b z k * s.twoHaloTruncationIa k
      + s.pkLin z k * s.icTerm b z k * s.icAlignTerm b z k * s.twoHaloTruncationIa k := rfl
  have f1 : (inMode s .fortuna).powerSpectrumMiRaw.pk2h b z k =
      s.fC b z * (inMode s .fortuna).peffVal z k * s.alignmentAmplitude2h z * s.twoHaloTruncationIa k := rfl
  have f2 : (inMode s .fortuna).powerSpectrumIiRaw.pk2h b z k =
      s.fC b z ^ 2 * (inMode s .fortuna).peffVal z k * s.alignmentAmplitude2hII z * s.twoHaloTruncationIa k := rfl
  have f3 : (inMode s .fortuna).powerSpectrumGiRaw.pk2h b z k =
      -1 * (inMode s .fortuna).peffVal z k * s.icTerm b z k * s.alignmentAmplitude2h z * s.twoHaloTruncationIa k := rfl
  rw [pe] at f1 f2 f3
  unfold alignmentAmplitude2h c1 at f1 f3
  unfold alignmentAmplitude2hII c1 at f2
  rw [e1, e2, e3, f1, f2, f3]
  have r1 : -1 * s.pkLin z k * s.icAlignTerm b z k * s.imTerm z k * s.twoHaloTruncationIa k
      + -1 * s.pkLin z k * s.isAlignTerm b z k * s.imTerm z k * s.twoHaloTruncationIa k =
      additionalTerm s.betaCen s.mpivotCen (s.massAvg b z) * s.imTerm z k * (s.fC b z * s.pkLin z k * (-1 * (5e-14 * s.alignmentGi z * s.meanDensity0 z / s.growthFactor z)) * s.twoHaloTruncationIa k)
      - s.pkLin z k * s.isAlignTerm b z k * s.imTerm z k * s.twoHaloTruncationIa k := by
    rw [ic]; ring
  have r2 : s.pkLin z k * s.icAlignTerm b z k * s.icAlignTerm b z k * s.twoHaloTruncationIa k
      + s.pkLin z k * s.isAlignTerm b z k * s.isAlignTerm b z k * s.twoHaloTruncationIa k
      + s.pkLin z k * s.icAlignTerm b z k * s.isAlignTerm b z k * s.twoHaloTruncationIa k =
      additionalTerm s.betaCen s.mpivotCen (s.massAvg b z) ^ 2 * (s.fC b z ^ 2 * s.pkLin z k * (5e-14 * s.alignmentGi z * s.meanDensity0 z / s.growthFactor z) ^ 2 * s.twoHaloTruncationIa k)
      + s.pkLin z k * s.isAlignTerm b z k * (s.isAlignTerm b z k + s.icAlignTerm b z k) * s.twoHaloTruncationIa k := by
    rw [ic]; ring
  have r3 : s.pkLin z k * s.icTerm b z k * s.isAlignTerm b z k * s.twoHaloTruncationIa k
      + s.pkLin z k * s.icTerm b z k * s.icAlignTerm b z k * s.twoHaloTruncationIa k =
      additionalTerm s.betaCen s.mpivotCen (s.massAvg b z) * s.fC b z * (-1 * s.pkLin z k * s.icTerm b z k * (-1 * (5e-14 * s.alignmentGi z * s.meanDensity0 z / s.growthFactor z)) * s.twoHaloTruncationIa k)
      + s.pkLin z k * s.icTerm b z k * s.isAlignTerm b z k * s.twoHaloTruncationIa k := by
    rw [ic]; ring
  refine ⟨r1, r2, r3, fun h => ?_⟩
  rw [r1, r2, r3, zero h]
  exact ⟨by ring, by ring, by ring⟩

/-- the non-linear bias integral is proportional to `beta_nl` -/
theorem iNL_smul (c : ℝ) (W1 W2 : ℕ → ℝ) :
    ({ s with betaNl := fun z k a b => c * s.betaNl z k a b } : Spectra).iNL W1 W2 z k = c * s.iNL W1 W2 z k := by
  have t : ∀ f : ℕ → ℝ, s.trapezoidalIntegrator (fun m => c * f m) = c * s.trapezoidalIntegrator f := fun f => by
    unfold trapezoidalIntegrator
    rw [mul_sum]
    exact sum_congr rfl fun i _ => by ring
  have t1 : ({ s with betaNl := fun z k a b => c * s.betaNl z k a b } : Spectra).trapezoidalIntegrator = s.trapezoidalIntegrator := rfl
  unfold iNL
  rw [t1]
  change c * s.betaNl z k 0 0 * (s.aTerm z * s.aTerm z) * W1 0 * W2 0 * (s.meanDensity0 z * (1 / s.mass 0)) ^ 2
    + s.aTerm z * W1 0 * s.trapezoidalIntegrator (fun m => c * s.betaNl z k 0 m * (s.haloBias z m * s.dndlnm z m * (1 / s.mass m)) * W2 m)
      * (s.meanDensity0 z * (1 / s.mass 0))
    + s.aTerm z * W2 0 * s.trapezoidalIntegrator (fun m => c * s.betaNl z k m 0 * (s.haloBias z m * s.dndlnm z m * (1 / s.mass m)) * W1 m)
      * (s.meanDensity0 z * (1 / s.mass 0))
    + s.trapezoidalIntegrator (fun m1 => s.trapezoidalIntegrator (fun m2 => c * s.betaNl z k m1 m2 * (s.haloBias z m1 * s.dndlnm z m1 * (1 / s.mass m1))
      * (s.haloBias z m2 * s.dndlnm z m2 * (1 / s.mass m2)) * W2 m2) * W1 m1) = _
  have a1 : (fun m => c * s.betaNl z k 0 m * (s.haloBias z m * s.dndlnm z m * (1 / s.mass m)) * W2 m) = fun m => c * (s.i12 z k m * W2 m) := by
    funext m; unfold i12; ring
  have a2 : (fun m => c * s.betaNl z k m 0 * (s.haloBias z m * s.dndlnm z m * (1 / s.mass m)) * W1 m) = fun m => c * (s.i21 z k m * W1 m) := by
    funext m; unfold i21; ring
  have a3 : ∀ m1, (fun m2 => c * s.betaNl z k m1 m2 * (s.haloBias z m1 * s.dndlnm z m1 * (1 / s.mass m1))
      * (s.haloBias z m2 * s.dndlnm z m2 * (1 / s.mass m2)) * W2 m2) = fun m2 => c * (s.i22 z k m1 m2 * W2 m2) := fun m1 => by
    funext m2; unfold i22; ring
  have a4 : (fun m1 => s.trapezoidalIntegrator (fun m2 => c * s.betaNl z k m1 m2 * (s.haloBias z m1 * s.dndlnm z m1 * (1 / s.mass m1))
      * (s.haloBias z m2 * s.dndlnm z m2 * (1 / s.mass m2)) * W2 m2) * W1 m1) =
      fun m1 => c * (s.trapezoidalIntegrator (fun m2 => s.i22 z k m1 m2 * W2 m2) * W1 m1) := by
    funext m1; rw [a3, t]; ring
  rw [a1, a2, a4, t, t, t]
  ring

/-- C161: without truncations, what the mode `bnl` adds to the two-halo power of the plain mode is proportional to the table: a table multiplied by `c`
adds `c` times as much, to each of the six spectra. -/
theorem C161_bnl (hresp : s.response = false) (h2 : s.twoHaloKtrunc = none) (h2i : s.twoHaloKtruncIa = none) (c : ℝ) :
    ∀ f ∈ [powerSpectrumMm, powerSpectrumGg, powerSpectrumGm, powerSpectrumMi, powerSpectrumIi, powerSpectrumGi], ∃ p r rc,
      f (inMode s .none) = .ok p ∧ f (inMode s .bnl) = .ok r ∧ f (inMode { s with betaNl := fun z k a b => c * s.betaNl z k a b } .bnl) = .ok rc ∧
      ∀ b z k, rc.pk1h b z k = p.pk1h b z k ∧ rc.pk2h b z k - p.pk2h b z k = c * (r.pk2h b z k - p.pk2h b z k) := by
  set sc : Spectra := { s with betaNl := fun z k a b => c * s.betaNl z k a b } with hsc
  have N := C03_no_error (inMode s .none) hresp
  have B := C03_no_error (inMode s .bnl) hresp
  have C := C03_no_error (inMode sc .bnl) hresp
  have mm : ∀ q : Spectra, q.response = false → q.powerSpectrumMm = q.powerSpectrumMmRaw := fun q hq => by unfold powerSpectrumMm; rw [hq]; rfl
  have t : ∀ k, s.twoHaloTruncation k = 1 := fun k => by unfold twoHaloTruncation; rw [h2]
  have ti : ∀ k, s.twoHaloTruncationIa k = 1 := fun k => by unfold twoHaloTruncationIa; rw [h2i]
  have L : ∀ z k W1 W2, sc.iNL W1 W2 z k = c * s.iNL W1 W2 z k := fun z k W1 W2 => iNL_smul (s := s) c W1 W2
  simp only [List.forall_mem_cons, List.not_mem_nil, false_implies, implies_true, and_true]
  refine ⟨⟨_, _, _, mm _ hresp, mm _ hresp, mm _ hresp, fun b z k => ⟨rfl, ?_⟩⟩,
    ⟨_, _, _, N.1, B.1, C.1, fun b z k => ⟨rfl, ?_⟩⟩, ⟨_, _, _, N.2.1, B.2.1, C.2.1, fun b z k => ⟨rfl, ?_⟩⟩,
    ⟨_, _, _, N.2.2.1, B.2.2.1, C.2.2.1, fun b z k => ⟨rfl, ?_⟩⟩, ⟨_, _, _, N.2.2.2.1, B.2.2.2.1, C.2.2.2.1, fun b z k => ⟨rfl, ?_⟩⟩,
    ⟨_, _, _, N.2.2.2.2, B.2.2.2.2, C.2.2.2.2, fun b z k => ⟨rfl, ?_⟩⟩⟩
  · change s.pkLin z k * s.imTerm z k * s.imTerm z k + s.pkLin z k * sc.iNL (s.matterProfile2h z k) (s.matterProfile2h z k) z k
      - s.pkLin z k * s.imTerm z k * s.imTerm z k * s.twoHaloTruncation k =
      c * (s.pkLin z k * s.imTerm z k * s.imTerm z k + s.pkLin z k * s.iNL (s.matterProfile2h z k) (s.matterProfile2h z k) z k
      - s.pkLin z k * s.imTerm z k * s.imTerm z k * s.twoHaloTruncation k)
    rw [L, t]; ring
  · change s.pkLin z k * s.icTerm b z k * s.icTerm b z k + s.pkLin z k * s.isTerm b z k * s.isTerm b z k
        + 2 * (s.pkLin z k * s.icTerm b z k * s.isTerm b z k) + s.pkLin z k * sc.iNL (fun m => s.centralGalaxyProfile b z k m + s.satelliteGalaxyProfile b z k m)
          (fun m => s.centralGalaxyProfile b z k m + s.satelliteGalaxyProfile b z k m) z k
      - (s.pkLin z k * s.icTerm b z k * s.icTerm b z k * s.twoHaloTruncation k + s.pkLin z k * s.isTerm b z k * s.isTerm b z k * s.twoHaloTruncation k
        + 2 * (s.pkLin z k * s.icTerm b z k * s.isTerm b z k * s.twoHaloTruncation k)) =
      c * (s.pkLin z k * s.icTerm b z k * s.icTerm b z k + s.pkLin z k * s.isTerm b z k * s.isTerm b z k
        + 2 * (s.pkLin z k * s.icTerm b z k * s.isTerm b z k) + s.pkLin z k * s.iNL (fun m => s.centralGalaxyProfile b z k m + s.satelliteGalaxyProfile b z k m)
          (fun m => s.centralGalaxyProfile b z k m + s.satelliteGalaxyProfile b z k m) z k
      - (s.pkLin z k * s.icTerm b z k * s.icTerm b z k * s.twoHaloTruncation k + s.pkLin z k * s.isTerm b z k * s.isTerm b z k * s.twoHaloTruncation k
        + 2 * (s.pkLin z k * s.icTerm b z k * s.isTerm b z k * s.twoHaloTruncation k)))
    rw [L, t]; ring
  · change s.pkLin z k * s.icTerm b z k * s.imTerm z k + s.pkLin z k * s.isTerm b z k * s.imTerm z k
        + s.pkLin z k * sc.iNL (fun m => s.centralGalaxyProfile b z k m + s.satelliteGalaxyProfile b z k m) (s.matterProfile2h z k) z k
      - (s.pkLin z k * s.icTerm b z k * s.imTerm z k * s.twoHaloTruncation k + s.pkLin z k * s.isTerm b z k * s.imTerm z k * s.twoHaloTruncation k) =
      c * (s.pkLin z k * s.icTerm b z k * s.imTerm z k + s.pkLin z k * s.isTerm b z k * s.imTerm z k
        + s.pkLin z k * s.iNL (fun m => s.centralGalaxyProfile b z k m + s.satelliteGalaxyProfile b z k m) (s.matterProfile2h z k) z k
      - (s.pkLin z k * s.icTerm b z k * s.imTerm z k * s.twoHaloTruncation k + s.pkLin z k * s.isTerm b z k * s.imTerm z k * s.twoHaloTruncation k))
    rw [L, t]; ring
  · change -1 * s.pkLin z k * s.icAlignTerm b z k * s.imTerm z k + -1 * s.pkLin z k * s.isAlignTerm b z k * s.imTerm z k
        - s.pkLin z k * sc.iNL (fun m => s.centralAlignmentProfile b z k m + s.satelliteAlignmentProfile b z k m) (s.matterProfile2h z k) z k
      - (-1 * s.pkLin z k * s.icAlignTerm b z k * s.imTerm z k * s.twoHaloTruncationIa k
        + -1 * s.pkLin z k * s.isAlignTerm b z k * s.imTerm z k * s.twoHaloTruncationIa k) =
      c * (-1 * s.pkLin z k * s.icAlignTerm b z k * s.imTerm z k + -1 * s.pkLin z k * s.isAlignTerm b z k * s.imTerm z k
        - s.pkLin z k * s.iNL (fun m => s.centralAlignmentProfile b z k m + s.satelliteAlignmentProfile b z k m) (s.matterProfile2h z k) z k
      - (-1 * s.pkLin z k * s.icAlignTerm b z k * s.imTerm z k * s.twoHaloTruncationIa k
        + -1 * s.pkLin z k * s.isAlignTerm b z k * s.imTerm z k * s.twoHaloTruncationIa k))
    rw [L, ti]; ring
  · change s.pkLin z k * s.icAlignTerm b z k * s.icAlignTerm b z k + s.pkLin z k * sc.iNL (s.centralAlignmentProfile b z k) (s.centralAlignmentProfile b z k) z k
        + (s.pkLin z k * s.isAlignTerm b z k * s.isAlignTerm b z k + s.pkLin z k * sc.iNL (s.satelliteAlignmentProfile b z k) (s.satelliteAlignmentProfile b z k) z k)
        + (s.pkLin z k * s.icAlignTerm b z k * s.isAlignTerm b z k + s.pkLin z k * sc.iNL (s.centralAlignmentProfile b z k) (s.satelliteAlignmentProfile b z k) z k)
      - (s.pkLin z k * s.icAlignTerm b z k * s.icAlignTerm b z k * s.twoHaloTruncationIa k
        + s.pkLin z k * s.isAlignTerm b z k * s.isAlignTerm b z k * s.twoHaloTruncationIa k
        + s.pkLin z k * s.icAlignTerm b z k * s.isAlignTerm b z k * s.twoHaloTruncationIa k) =
      c * (s.pkLin z k * s.icAlignTerm b z k * s.icAlignTerm b z k + s.pkLin z k * s.iNL (s.centralAlignmentProfile b z k) (s.centralAlignmentProfile b z k) z k
        + (s.pkLin z k * s.isAlignTerm b z k * s.isAlignTerm b z k + s.pkLin z k * s.iNL (s.satelliteAlignmentProfile b z k) (s.satelliteAlignmentProfile b z k) z k)
        + (s.pkLin z k * s.icAlignTerm b z k * s.isAlignTerm b z k + s.pkLin z k * s.iNL (s.centralAlignmentProfile b z k) (s.satelliteAlignmentProfile b z k) z k)
      - (s.pkLin z k * s.icAlignTerm b z k * s.icAlignTerm b z k * s.twoHaloTruncationIa k
        + s.pkLin z k * s.isAlignTerm b z k * s.isAlignTerm b z k * s.twoHaloTruncationIa k
        + s.pkLin z k * s.icAlignTerm b z k * s.isAlignTerm b z k * s.twoHaloTruncationIa k))
    rw [L, L, L, ti]; ring
  · change s.pkLin z k * s.icTerm b z k * s.isAlignTerm b z k + s.pkLin z k * sc.iNL (s.satelliteAlignmentProfile b z k) (s.centralGalaxyProfile b z k) z k
        + (s.pkLin z k * s.icTerm b z k * s.icAlignTerm b z k + s.pkLin z k * sc.iNL (s.centralAlignmentProfile b z k) (s.centralGalaxyProfile b z k) z k)
      - (s.pkLin z k * s.icTerm b z k * s.isAlignTerm b z k * s.twoHaloTruncationIa k
        + s.pkLin z k * s.icTerm b z k * s.icAlignTerm b z k * s.twoHaloTruncationIa k) =
      c * (s.pkLin z k * s.icTerm b z k * s.isAlignTerm b z k + s.pkLin z k * s.iNL (s.satelliteAlignmentProfile b z k) (s.centralGalaxyProfile b z k) z k
        + (s.pkLin z k * s.icTerm b z k * s.icAlignTerm b z k + s.pkLin z k * s.iNL (s.centralAlignmentProfile b z k) (s.centralGalaxyProfile b z k) z k)
      - (s.pkLin z k * s.icTerm b z k * s.isAlignTerm b z k * s.twoHaloTruncationIa k
        + s.pkLin z k * s.icTerm b z k * s.icAlignTerm b z k * s.twoHaloTruncationIa k))
    rw [L, L, ti]; ring

/-- C161: with `response` the spectra of galaxies carry the ratio of the given non-linear power to the matter power of the mode, so that two modes (both
but `bnl`) give results in the inverse ratio of their matter powers. -/
theorem C161_response (hresp : s.response = true) (h : m ≠ .bnl) (h' : m' ≠ .bnl) {mm mm' : PkResult}
    (e : (inMode { s with response := false } m).powerSpectrumMm = .ok mm) (e' : (inMode { s with response := false } m').powerSpectrumMm = .ok mm') :
    ∀ f ∈ [powerSpectrumGg, powerSpectrumGm], ∃ r r', f (inMode s m) = .ok r ∧ f (inMode s m') = .ok r' ∧
      ∀ b z k, mm.pkTot 0 z k ≠ 0 → mm'.pkTot 0 z k ≠ 0 → r.pkTot b z k * mm.pkTot 0 z k = r'.pkTot b z k * mm'.pkTot 0 z k ∧
        r.pk2h b z k * mm.pkTot 0 z k = r'.pk2h b z k * mm'.pkTot 0 z k := by
  have a : (inMode s m).powerSpectrumMmRaw = .ok mm := e
  have a' : (inMode s m').powerSpectrumMmRaw = .ok mm' := e'
  have hg : (inMode s m).powerSpectrumGgRaw = (inMode s m').powerSpectrumGgRaw ∧ (inMode s m).powerSpectrumGmRaw = (inMode s m').powerSpectrumGmRaw := by
    constructor <;> cases m <;> cases m' <;> first | rfl | exact absurd rfl h | exact absurd rfl h'
  have key : ∀ q (mq : NLMode) M, (inMode s mq).powerSpectrumMmRaw = .ok M → (inMode s mq).applyResponse q = .ok
      ⟨fun b z k => q.pk1h b z k * (s.pkNl z k / M.pkTot 0 z k), fun b z k => q.pk2h b z k * (s.pkNl z k / M.pkTot 0 z k),
       fun b z k => q.pkTot b z k * (s.pkNl z k / M.pkTot 0 z k), q.galaxyLinearBias⟩ := fun q mq M hM => by
    have r0 : (inMode s mq).response = true := hresp
    unfold applyResponse
    rw [r0, hM]
    rfl
  have fin : ∀ x p M M' : ℝ, M ≠ 0 → M' ≠ 0 → x * (p / M) * M = x * (p / M') * M' := fun x p M M' h1 h2 => by field_simp
  simp only [List.forall_mem_cons, List.not_mem_nil, false_implies, implies_true, and_true]
  refine ⟨⟨_, _, key _ m mm a, (key _ m' mm' a'), fun b z k n n' => ⟨?_, ?_⟩⟩, ⟨_, _, key _ m mm a, key _ m' mm' a', fun b z k n n' => ⟨?_, ?_⟩⟩⟩
  · rw [hg.1]; exact fin _ _ _ _ n n'
  · rw [hg.1]; exact fin _ _ _ _ n n'
  · rw [hg.2]; exact fin _ _ _ _ n n'
  · rw [hg.2]; exact fin _ _ _ _ n n'

/-! ## Non-vacuity -/

/-- ingredients of HMcode, no truncation on large scales, the linear power in the Fortuna mode, a table that only knows the smallest halos -/
noncomputable def sample : Spectra :=
  { demo with
    hmcodeIngredients := .mead2020
    twoHaloKtrunc := none
    twoHaloKtruncIa := none
    tEff := 1
    betaNl := fun _ _ a b => if a = 0 ∧ b = 0 then 1 else 0 }

theorem sample_ic : sample.icTerm 0 0 0 = 1 := by
  change demo.icTerm 0 0 0 = 1
  unfold icTerm computeIgTerm; rw [demo_simpson]
  simp [demo, centralGalaxyProfile]; norm_num

theorem sample_is : 0 < sample.isTerm 0 0 0 := by
  change 0 < demo.isTerm 0 0 0
  unfold isTerm computeIgTerm; rw [demo_simpson]
  simp [demo, satelliteGalaxyProfile, Hmi.uSat, demoRaw]; norm_num

/-- in the HMcode mode the product of the two auto-spectra is below the square of the cross-spectrum -/
example : ∃ gg gm mm, (inMode sample .hmcode).powerSpectrumGg = .ok gg ∧ (inMode sample .hmcode).powerSpectrumGm = .ok gm ∧
    (inMode sample .hmcode).powerSpectrumMm = .ok mm ∧ gg.pk2h 0 0 0 * mm.pk2h 0 0 0 < gm.pk2h 0 0 0 ^ 2 := by
  obtain ⟨gg, gm, mm, a, b, c, h⟩ := C161_hmcode_correlation (s := sample) rfl (Or.inr rfl)
  refine ⟨gg, gm, mm, a, b, c, (h 0 0 0).2 (demo_imTerm 0) rfl (by simp [sample, demo]) (by simp [sample, demo]) (by simp [sample, demo]) ?_⟩
  rw [(C03_no_error (inMode sample .hmcode) rfl).1] at a
  rw [← Except.ok.inj a]
  change sample.pkLin 0 0 * sample.icTerm 0 0 0 * sample.icTerm 0 0 0 * 1 + sample.pkLin 0 0 * sample.isTerm 0 0 0 * sample.isTerm 0 0 0 * 1
    + 2 * (sample.pkLin 0 0 * sample.icTerm 0 0 0 * sample.isTerm 0 0 0 * 1) ≠ 0
  have p : sample.pkLin 0 0 = 1 := rfl
  have := sample_is
  rw [sample_ic, p]
  positivity

/-- the two modes differ in the matter power of this object: the damping is not one -/
example : sample.twoHaloTruncationMead 0 0 < 1 := mead_lt_one (by simp [sample, demo]) (by simp [sample, demo])

/-- the hypotheses of `C161_fortuna`, with alignments of centrals and of satellites -/
example : (∀ m < sample.nm, sample.mass m ≠ 0) ∧ 0 < sample.nm ∧ sample.meanDensity0 0 ≠ 0 ∧
    (1 - sample.tEff) * (sample.pkNl 0 0 - sample.pkLin 0 0) = 0 ∧ sample.pkNl 0 0 ≠ sample.pkLin 0 0 ∧ sample.icAlignTerm 0 0 0 ≠ 0 ∧
    0 < sample.isAlignTerm 0 0 0 := by
  refine ⟨fun m _ => ?_, by simp [sample, demo], by simp [sample, demo], by simp [sample], by simp [sample, demo], ?_, demo_isAlign⟩
  · change (m : ℝ) + 1 ≠ 0
    positivity
  · change demo.icAlignTerm 0 0 0 ≠ 0
    rw [demo_icAlign]; norm_num

/-- the table of this object does change the matter power -/
example : sample.iNL (sample.matterProfile2h 0 0) (sample.matterProfile2h 0 0) 0 0 ≠ 0 := by
  have e : ∀ f : ℕ → ℝ, sample.trapezoidalIntegrator f = f 0 * (1 / 2) + f 1 * 1 + f 2 * (1 / 2) := fun f => by
    unfold trapezoidalIntegrator
    change ∑ i ∈ range 3, f i * sample.trapezoidalWeights i = _
    simp [sum_range_succ, trapezoidalWeights, sample, demo]
    norm_num
  have a : sample.aTerm 0 = demo.aTerm 0 := rfl
  have u : Hmi.uDm demoRaw 0 0 0 = 1 := demo_uDm_zero 0 0
  unfold iNL
  simp only [e]
  rw [a, demo_aTerm]
  simp [i12, i21, i22, sample, matterProfile2h, computeMatterProfile, demo, u]
  norm_num

/-- with `response` the two modes differ: both matter powers exist -/
example : ∃ mm mm', (inMode { ({ sample with response := true } : Spectra) with response := false } .none).powerSpectrumMm = .ok mm ∧
    (inMode { ({ sample with response := true } : Spectra) with response := false } .hmcode).powerSpectrumMm = .ok mm' := by
  obtain ⟨p, h, a, b, -⟩ := C161_hmcode_matter (s := sample) rfl (Or.inr rfl)
  exact ⟨p, h, a, b⟩

end Verif.Pk.Modes

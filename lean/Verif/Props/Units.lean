import Verif.Spec.Units
import Verif.Lemmas.Simpson
import Verif.Props.PkDemo

/-! Property C135: the formulas do not depend on the units, except for the built-in wavenumbers and the built-in gas mass. -/

namespace Verif.Units

open Verif.Pk Verif.Lib Finset

theorem panel_scale {c : ℝ} (hc : c ≠ 0) (h0 h1 y0 y1 y2 : ℝ) :
    simpsonPanel (c * h0) (c * h1) y0 y1 y2 = c * simpsonPanel h0 h1 y0 y1 y2 := by
  unfold simpsonPanel
  have e1 : c * h0 / (c * h1) = h0 / h1 := mul_div_mul_left h0 h1 hc
  have e2 : (c * h0 + c * h1) * ((c * h0 + c * h1) / (c * h0 * (c * h1))) = (h0 + h1) * ((h0 + h1) / (h0 * h1)) := by
    rw [show c * h0 + c * h1 = c * (h0 + h1) by ring, show c * h0 * (c * h1) = c * c * (h0 * h1) by ring]
    rw [mul_div_assoc', show c * (h0 + h1) * (c * (h0 + h1)) = c * c * ((h0 + h1) * (h0 + h1)) by ring,
      mul_div_mul_left _ _ (mul_ne_zero hc hc), mul_div_assoc']
  rw [e1, e2]
  ring

theorem last_scale {c : ℝ} (hc : c ≠ 0) (h0 h1 y0 y1 y2 : ℝ) :
    simpsonLast (c * h0) (c * h1) y0 y1 y2 = c * simpsonLast h0 h1 y0 y1 y2 := by
  unfold simpsonLast
  rw [show 2 * (c * h1) ^ 2 + 3 * (c * h0) * (c * h1) = c * (c * (2 * h1 ^ 2 + 3 * h0 * h1)) by ring,
    show 6 * (c * h1 + c * h0) = c * (6 * (h1 + h0)) by ring, mul_div_mul_left _ _ hc,
    show (c * h1) ^ 2 + 3 * (c * h0) * (c * h1) = c * (c * (h1 ^ 2 + 3 * h0 * h1)) by ring,
    show 6 * (c * h0) = c * (6 * h0) by ring, mul_div_mul_left _ _ hc,
    show (c * h1) ^ 3 = c * c * (c * h1 ^ 3) by ring,
    show c * (6 * h0) * (c * h0 + c * h1) = c * c * (6 * h0 * (h0 + h1)) by ring,
    mul_div_mul_left _ _ (mul_ne_zero hc hc)]
  ring

/-- Simpson's rule on a stretched grid -/
theorem simpson_stretch {c : ℝ} (hc : c ≠ 0) (n : ℕ) (x y : ℕ → ℝ) :
    simpson n (fun i => c * x i) y = c * simpson n x y := by
  have basic : ∀ p, basicSimpson p (fun i => c * x i) y = c * basicSimpson p x y := by
    intro p
    unfold basicSimpson
    rw [mul_sum]
    refine sum_congr rfl fun i _ => ?_
    rw [← panel_scale hc]
    ring_nf
  unfold simpson
  split_ifs
  · exact basic _
  · ring
  · ring
  · rw [basic, mul_add, ← last_scale hc]
    ring_nf

/-- Simpson's rule for integrands that are multiples of each other, on a stretched grid -/
theorem simpson_units {c d : ℝ} (hc : c ≠ 0) (n : ℕ) (x y y' : ℕ → ℝ) (h : ∀ i, c * y' i = d * y i) :
    simpson n (fun i => c * x i) y' = d * simpson n x y := by
  rw [simpson_stretch hc, ← simpson_smul, ← simpson_smul]
  exact congrArg _ (funext h)

variable {a m : ℝ} (ha : a ≠ 0) (hm : m ≠ 0) (s : Spectra)
include ha hm

theorem one_halo (u v u' v' : ℕ → ℝ) (z : ℕ) (hu : ∀ i, u' i = a ^ 3 * u i) (hv : ∀ i, v' i = a ^ 3 * v i) :
    (inUnits a m s).compute1hTerm u' v' z = a ^ 3 * s.compute1hTerm u v z := by
  refine simpson_units hm _ _ _ _ fun i => ?_
  show m * (u' i * v' i * (s.dndlnm z i / a ^ 3) / (m * s.mass i)) = a ^ 3 * (u i * v i * s.dndlnm z i / s.mass i)
  rw [hu, hv, mul_div_assoc', mul_div_mul_left _ _ hm]
  field_simp

theorem ig (u u' : ℕ → ℝ) (z : ℕ) (hu : ∀ i, u' i = a ^ 3 * u i) :
    (inUnits a m s).computeIgTerm u' z = s.computeIgTerm u z := by
  rw [← one_mul (s.computeIgTerm u z)]
  refine simpson_units hm _ _ _ _ fun i => ?_
  show m * (u' i * s.haloBias z i * (s.dndlnm z i / a ^ 3) / (m * s.mass i)) =
    1 * (u i * s.haloBias z i * s.dndlnm z i / s.mass i)
  rw [hu, mul_div_assoc', mul_div_mul_left _ _ hm]
  field_simp

theorem a_term : (inUnits a m s).aTerm = s.aTerm := by
  funext z
  refine congrArg (1 - ·) ?_
  refine (simpson_units (d := 1) hm _ _ _ _ fun i => ?_).trans (one_mul _)
  show m * (s.haloBias z i * (s.dndlnm z i / a ^ 3) * (1 / (m * s.meanDensity0 z / a ^ 3))) = _
  field_simp

theorem im_term : (inUnits a m s).imTerm = s.imTerm := by
  funext z k
  unfold Spectra.imTerm
  rw [a_term ha hm]
  refine congrArg (· + s.aTerm z) ?_
  refine (simpson_units (d := 1) hm _ _ _ _ fun i => ?_).trans (one_mul _)
  show m * (s.haloBias z i * (s.dndlnm z i / a ^ 3) * s.uDm z k i * (1 / (m * s.meanDensity0 z / a ^ 3))) = _
  field_simp

omit ha hm in
theorem weights (i : ℕ) : (inUnits a m s).trapezoidalWeights i = m * s.trapezoidalWeights i := by
  unfold Spectra.trapezoidalWeights
  show (if i = s.nm - 1 then (m * s.mass (s.nm - 1) - m * s.mass (s.nm - 2)) / 2
    else if i = 0 then (m * s.mass 1 - m * s.mass 0) / 2 else (m * s.mass (i + 1) - m * s.mass (i - 1)) / 2) = _
  split_ifs <;> ring

omit ha hm in
theorem trapz (f f' : ℕ → ℝ) {d : ℝ} (h : ∀ i, m * f' i = d * f i) :
    (inUnits a m s).trapezoidalIntegrator f' = d * s.trapezoidalIntegrator f := by
  unfold Spectra.trapezoidalIntegrator
  rw [mul_sum]
  refine sum_congr rfl fun i _ => ?_
  rw [weights, ← mul_assoc d, ← h]
  ring

theorem i_nl (u v u' v' : ℕ → ℝ) (z k : ℕ) (hu : ∀ i, u' i = a ^ 3 * u i) (hv : ∀ i, v' i = a ^ 3 * v i) :
    (inUnits a m s).iNL u' v' z k = s.iNL u v z k := by
  have e1 : (inUnits a m s).trapezoidalIntegrator (fun i => (inUnits a m s).i12 z k i * v' i) =
      1 * s.trapezoidalIntegrator fun i => s.i12 z k i * v i := by
    refine trapz s _ _ fun i => ?_
    show m * (s.betaNl z k 0 i * (s.haloBias z i * (s.dndlnm z i / a ^ 3) * (1 / (m * s.mass i))) * v' i) =
      1 * (s.betaNl z k 0 i * (s.haloBias z i * s.dndlnm z i * (1 / s.mass i)) * v i)
    rw [hv, one_div, one_div, mul_inv]
    field_simp
  have e2 : (inUnits a m s).trapezoidalIntegrator (fun i => (inUnits a m s).i21 z k i * u' i) =
      1 * s.trapezoidalIntegrator fun i => s.i21 z k i * u i := by
    refine trapz s _ _ fun i => ?_
    show m * (s.betaNl z k i 0 * (s.haloBias z i * (s.dndlnm z i / a ^ 3) * (1 / (m * s.mass i))) * u' i) =
      1 * (s.betaNl z k i 0 * (s.haloBias z i * s.dndlnm z i * (1 / s.mass i)) * u i)
    rw [hu, one_div, one_div, mul_inv]
    field_simp
  have e3 : (inUnits a m s).trapezoidalIntegrator (fun i =>
      (inUnits a m s).trapezoidalIntegrator (fun j => (inUnits a m s).i22 z k i j * v' j) * u' i) =
      1 * s.trapezoidalIntegrator fun i => s.trapezoidalIntegrator (fun j => s.i22 z k i j * v j) * u i := by
    refine trapz s _ _ fun i => ?_
    have : (inUnits a m s).trapezoidalIntegrator (fun j => (inUnits a m s).i22 z k i j * v' j) =
        1 / (m * a ^ 3) * s.trapezoidalIntegrator fun j => s.i22 z k i j * v j := by
      refine trapz s _ _ fun j => ?_
      show m * (s.betaNl z k i j * (s.haloBias z i * (s.dndlnm z i / a ^ 3) * (1 / (m * s.mass i)))
        * (s.haloBias z j * (s.dndlnm z j / a ^ 3) * (1 / (m * s.mass j))) * v' j) =
        1 / (m * a ^ 3) * (s.betaNl z k i j * (s.haloBias z i * s.dndlnm z i * (1 / s.mass i))
          * (s.haloBias z j * s.dndlnm z j * (1 / s.mass j)) * v j)
      rw [hv]
      simp only [one_div, mul_inv]
      field_simp
    rw [this, hu]
    field_simp
  unfold Spectra.iNL
  rw [e1, e2, e3, a_term ha hm, hu, hv]
  show s.betaNl z k 0 0 * (s.aTerm z * s.aTerm z) * (a ^ 3 * u 0) * (a ^ 3 * v 0)
      * (m * s.meanDensity0 z / a ^ 3 * (1 / (m * s.mass 0))) ^ 2 + s.aTerm z * (a ^ 3 * u 0) * _
      * (m * s.meanDensity0 z / a ^ 3 * (1 / (m * s.mass 0))) + s.aTerm z * (a ^ 3 * v 0) * _
      * (m * s.meanDensity0 z / a ^ 3 * (1 / (m * s.mass 0))) + _ = _
  have e4 : m * s.meanDensity0 z / a ^ 3 * (1 / (m * s.mass 0)) = s.meanDensity0 z * (1 / s.mass 0) / a ^ 3 := by
    simp only [one_div, mul_inv]
    field_simp
  rw [e4, one_mul, one_mul, one_mul]
  field_simp

theorem matter (z k i : ℕ) : (inUnits a m s).matterProfile z k i = a ^ 3 * s.matterProfile z k i := by
  show m * s.mass i / (m * s.meanDensity0 z / a ^ 3) * s.uDm z k i = a ^ 3 * (s.mass i / s.meanDensity0 z * s.uDm z k i)
  field_simp

theorem fit_profile (f : ℕ → ℕ → ℕ → ℝ) (b z k i : ℕ) :
    (inUnits a m s).matterProfileFit f b z k i = a ^ 3 * s.matterProfileFit f b z k i := by
  show (s.omegaC / s.omegaM + (s.omegaB / s.omegaM - f b z i) * (m * s.mass i / (m * s.mb)) ^ 2
      / (1 + (m * s.mass i / (m * s.mb)) ^ 2)) * (m * s.mass i / (m * s.meanDensity0 z / a ^ 3)) * s.uDm z k i
    + f b z i * (m * s.mass i / (m * s.meanDensity0 z / a ^ 3)) =
    a ^ 3 * ((s.omegaC / s.omegaM + (s.omegaB / s.omegaM - f b z i) * (s.mass i / s.mb) ^ 2
      / (1 + (s.mass i / s.mb) ^ 2)) * (s.mass i / s.meanDensity0 z) * s.uDm z k i + f b z i * (s.mass i / s.meanDensity0 z))
  rw [mul_div_mul_left _ _ hm, show m * s.mass i / (m * s.meanDensity0 z / a ^ 3) = a ^ 3 * (s.mass i / s.meanDensity0 z) by
    field_simp]
  ring

theorem feedback_profile (h : m = 1) (z k i : ℕ) :
    (inUnits a m s).matterProfileWithFeedback z k i = a ^ 3 * s.matterProfileWithFeedback z k i := by
  subst h
  show (s.omegaC / s.omegaM + s.fg (1 * s.mass i) (s.zVec z) (s.fs (s.zVec z)))
      * (1 * s.mass i / (1 * s.meanDensity0 z / a ^ 3)) * s.uDm z k i
      + s.fs (s.zVec z) * (1 * s.mass i / (1 * s.meanDensity0 z / a ^ 3)) =
    a ^ 3 * ((s.omegaC / s.omegaM + s.fg (s.mass i) (s.zVec z) (s.fs (s.zVec z))) * (s.mass i / s.meanDensity0 z) * s.uDm z k i
      + s.fs (s.zVec z) * (s.mass i / s.meanDensity0 z))
  rw [show 1 * s.mass i / (1 * s.meanDensity0 z / a ^ 3) = a ^ 3 * (s.mass i / s.meanDensity0 z) by field_simp, one_mul]
  ring

theorem profile_mm (h : MatterMass m s) (z k i : ℕ) :
    (inUnits a m s).matterProfile1hMm z k i = a ^ 3 * s.matterProfile1hMm z k i := by
  unfold Spectra.matterProfile1hMm
  show (match s.hmcodeIngredients with
    | .mead2020Feedback => (inUnits a m s).matterProfileWithFeedback z k i
    | .mead2020 => (inUnits a m s).matterProfile z k i
    | .fit => (inUnits a m s).matterProfileFit (fun _ => s.fstarMm) 0 z k i
    | .none => (inUnits a m s).matterProfile z k i) = _
  cases hi : s.hmcodeIngredients with
  | mead2020Feedback => exact feedback_profile ha hm s (h.resolve_right (by simp [hi])) z k i
  | mead2020 => exact matter ha hm s z k i
  | fit => exact fit_profile ha hm s _ 0 z k i
  | none => exact matter ha hm s z k i

theorem profile_g (h : MatterMass m s) (b z k i : ℕ) :
    (inUnits a m s).matterProfile1hG b z k i = a ^ 3 * s.matterProfile1hG b z k i := by
  unfold Spectra.matterProfile1hG
  show (match s.hmcodeIngredients with
    | .mead2020Feedback => (inUnits a m s).matterProfileWithFeedback z k i
    | .mead2020 => (inUnits a m s).matterProfile z k i
    | .fit => (inUnits a m s).matterProfileFit s.fstar b z k i
    | .none => if s.pointmass then (inUnits a m s).matterProfileFit s.fstar b z k i else (inUnits a m s).matterProfile z k i) = _
  cases hi : s.hmcodeIngredients with
  | mead2020Feedback => exact feedback_profile ha hm s (h.resolve_right (by simp [hi])) z k i
  | mead2020 => exact matter ha hm s z k i
  | fit => exact fit_profile ha hm s _ b z k i
  | none =>
    simp only
    split_ifs
    · exact fit_profile ha hm s _ b z k i
    · exact matter ha hm s z k i

omit hm in
theorem central (b z k i : ℕ) : (inUnits a m s).centralGalaxyProfile b z k i = a ^ 3 * s.centralGalaxyProfile b z k i := by
  show s.fC b z * s.hodCen b z i * 1 / (s.numberDensityCen b z / a ^ 3) = a ^ 3 * (s.fC b z * s.hodCen b z i * 1 / s.numberDensityCen b z)
  field_simp

omit hm in
theorem satellite (b z k i : ℕ) : (inUnits a m s).satelliteGalaxyProfile b z k i = a ^ 3 * s.satelliteGalaxyProfile b z k i := by
  show s.fS b z * s.hodSat b z i * s.uSat z k i / (s.numberDensitySat b z / a ^ 3) =
    a ^ 3 * (s.fS b z * s.hodSat b z i * s.uSat z k i / s.numberDensitySat b z)
  field_simp

theorem mass_avg (b z : ℕ) : (inUnits a m s).massAvg b z = m * s.massAvg b z := by
  show m * s.avgHaloMassCen b z / a ^ 3 / (s.numberDensity b z / a ^ 3) = m * (s.avgHaloMassCen b z / s.numberDensity b z)
  field_simp

omit ha in
theorem additional (β piv : Option ℝ) (x : ℝ) :
    Spectra.additionalTerm β (piv.map (m * ·)) (m * x) = Spectra.additionalTerm β piv x := by
  unfold Spectra.additionalTerm
  cases β <;> cases piv <;> simp only [Option.map]
  rw [mul_div_mul_left _ _ hm]

theorem central_alignment (b z k i : ℕ) :
    (inUnits a m s).centralAlignmentProfile b z k i = a ^ 3 * s.centralAlignmentProfile b z k i := by
  show s.fC b z * (5e-14 * (a ^ 3 / m * s.alignmentGi z) / s.growthFactor z) * (m * s.mass i)
      * Spectra.additionalTerm s.betaCen (s.mpivotCen.map (m * ·)) ((inUnits a m s).massAvg b z) =
    a ^ 3 * (s.fC b z * (5e-14 * s.alignmentGi z / s.growthFactor z) * s.mass i
      * Spectra.additionalTerm s.betaCen s.mpivotCen (s.massAvg b z))
  rw [mass_avg ha hm, additional hm]
  field_simp

theorem satellite_alignment (b z k i : ℕ) :
    (inUnits a m s).satelliteAlignmentProfile b z k i = a ^ 3 * s.satelliteAlignmentProfile b z k i := by
  show s.fS b z * s.hodSat b z i * s.wkmSat z k i / (s.numberDensitySat b z / a ^ 3)
      * Spectra.additionalTerm s.betaSat (s.mpivotSat.map (m * ·)) ((inUnits a m s).massAvg b z) =
    a ^ 3 * (s.fS b z * s.hodSat b z i * s.wkmSat z k i / s.numberDensitySat b z
      * Spectra.additionalTerm s.betaSat s.mpivotSat (s.massAvg b z))
  rw [mass_avg ha hm, additional hm]
  field_simp

theorem ic : (inUnits a m s).icTerm = s.icTerm := by
  funext b z k; exact ig ha hm s _ _ z (central ha s b z k)

theorem is_ : (inUnits a m s).isTerm = s.isTerm := by
  funext b z k; exact ig ha hm s _ _ z (satellite ha s b z k)

theorem ic_align : (inUnits a m s).icAlignTerm = s.icAlignTerm := by
  funext b z k
  show (inUnits a m s).computeIgTerm _ z + (inUnits a m s).aTerm z * (inUnits a m s).centralAlignmentProfile b z k 0
    * (m * s.meanDensity0 z / a ^ 3) / (m * s.mass 0) = _
  rw [ig ha hm s _ _ z (central_alignment ha hm s b z k), a_term ha hm, central_alignment ha hm]
  show s.computeIgTerm (s.centralAlignmentProfile b z k) z + _ = s.computeIgTerm (s.centralAlignmentProfile b z k) z + s.aTerm z
    * s.centralAlignmentProfile b z k 0 * s.meanDensity0 z / s.mass 0
  rw [show s.aTerm z * (a ^ 3 * s.centralAlignmentProfile b z k 0) * (m * s.meanDensity0 z / a ^ 3) =
    m * (s.aTerm z * s.centralAlignmentProfile b z k 0 * s.meanDensity0 z) by field_simp, mul_div_mul_left _ _ hm]

theorem is_align : (inUnits a m s).isAlignTerm = s.isAlignTerm := by
  funext b z k
  show (inUnits a m s).computeIgTerm _ z + (inUnits a m s).aTerm z * (inUnits a m s).satelliteAlignmentProfile b z k 0
    * (m * s.meanDensity0 z / a ^ 3) / (m * s.mass 0) = _
  rw [ig ha hm s _ _ z (satellite_alignment ha hm s b z k), a_term ha hm, satellite_alignment ha hm]
  show s.computeIgTerm (s.satelliteAlignmentProfile b z k) z + _ = s.computeIgTerm (s.satelliteAlignmentProfile b z k) z + s.aTerm z
    * s.satelliteAlignmentProfile b z k 0 * s.meanDensity0 z / s.mass 0
  rw [show s.aTerm z * (a ^ 3 * s.satelliteAlignmentProfile b z k 0) * (m * s.meanDensity0 z / a ^ 3) =
    m * (s.aTerm z * s.satelliteAlignmentProfile b z k 0 * s.meanDensity0 z) by field_simp, mul_div_mul_left _ _ hm]

omit hm in
theorem cut_one (k : ℕ) : (inUnits a m s).oneHaloTruncation k = s.oneHaloTruncation k := by
  unfold Spectra.oneHaloTruncation
  show (match s.oneHaloKtrunc.map (· / a) with
    | none => 1
    | some kt => (s.kVec k / a / kt) ^ 4 / (1 + (s.kVec k / a / kt) ^ 4)) = _
  cases s.oneHaloKtrunc with
  | none => rfl
  | some kt => simp only [Option.map, div_div_div_cancel_right₀ ha]

omit hm in
theorem cut_one_ia (k : ℕ) : (inUnits a m s).oneHaloTruncationIa k = s.oneHaloTruncationIa k := by
  unfold Spectra.oneHaloTruncationIa
  show (match s.oneHaloKtruncIa.map (· / a) with
    | none => 1
    | some kt => 1 - Real.exp (-(s.kVec k / a / kt) ^ 2)) = _
  cases s.oneHaloKtruncIa with
  | none => rfl
  | some kt => simp only [Option.map, div_div_div_cancel_right₀ ha]

omit hm in
theorem cut_two_ia (k : ℕ) : (inUnits a m s).twoHaloTruncationIa k = s.twoHaloTruncationIa k := by
  unfold Spectra.twoHaloTruncationIa
  show (match s.twoHaloKtruncIa.map (· / a) with
    | none => 1
    | some kt => Real.exp (-(s.kVec k / a / kt) ^ 2)) = _
  cases s.twoHaloKtruncIa with
  | none => rfl
  | some kt => simp only [Option.map, div_div_div_cancel_right₀ ha]

omit ha hm in
theorem cut_two (h : a = 1 ∨ s.twoHaloKtrunc = none) (k : ℕ) : (inUnits a m s).twoHaloTruncation k = s.twoHaloTruncation k := by
  unfold Spectra.twoHaloTruncation
  show (match s.twoHaloKtrunc.map (· / a) with
    | none => 1
    | some _ => 1 - 0.05 * (s.kVec k / a / 0.05699) ^ (2.853 : ℝ) / (1 + (s.kVec k / a / 0.05699) ^ (2.853 : ℝ))) = _
  rcases h with rfl | h
  · cases s.twoHaloKtrunc with
    | none => rfl
    | some kt => simp only [Option.map, div_one]
  · rw [h]; rfl

omit ha hm in
theorem result_ext {r r' : PkResult} (h1 : ∀ b z k, r'.pk1h b z k = a ^ 3 * r.pk1h b z k)
    (h2 : ∀ b z k, r'.pk2h b z k = a ^ 3 * r.pk2h b z k) (h3 : ∀ b z k, r'.pkTot b z k = a ^ 3 * r.pkTot b z k)
    (h4 : r'.galaxyLinearBias = r.galaxyLinearBias) : r' = resultInUnits a r := by
  obtain ⟨x1, x2, x3, x4⟩ := r'
  simp only at h1 h2 h3 h4
  unfold resultInUnits
  rw [PkResult.mk.injEq]
  exact ⟨funext fun b => funext fun z => funext (h1 b z), funext fun b => funext fun z => funext (h2 b z),
    funext fun b => funext fun z => funext (h3 b z), h4⟩

theorem mm_raw (hl : MatterLength a s) (hq : MatterMass m s) :
    (inUnits a m s).powerSpectrumMmRaw = s.powerSpectrumMmRaw.map (resultInUnits a) := by
  have e1 : ∀ z k, (inUnits a m s).compute1hTerm ((inUnits a m s).matterProfile1hMm z k)
      ((inUnits a m s).matterProfile1hMm z k) z = a ^ 3 * s.compute1hTerm (s.matterProfile1hMm z k) (s.matterProfile1hMm z k) z :=
    fun z k => one_halo ha hm s _ _ _ _ z (profile_mm ha hm s hq z k) (profile_mm ha hm s hq z k)
  unfold Spectra.powerSpectrumMmRaw
  simp only [e1, im_term ha hm, cut_one ha]
  show (match s.nonlinearMode with
    | .bnl => _
    | .hmcode => if s.hmcodeIngredients = .mead2020Feedback ∨ s.hmcodeIngredients = .mead2020 then _ else _
    | _ => _ : Except PyErr PkResult) = _
  cases hn : s.nonlinearMode with
  | bnl =>
    simp only [Except.map]
    congr 1
    have e2 : ∀ z k, (inUnits a m s).iNL ((inUnits a m s).matterProfile2h z k) ((inUnits a m s).matterProfile2h z k) z k =
        s.iNL (s.matterProfile2h z k) (s.matterProfile2h z k) z k :=
      fun z k => i_nl ha hm s _ _ _ _ z k (matter ha hm s z k) (matter ha hm s z k)
    simp only [e2]
    refine result_ext (fun b z k => ?_) (fun b z k => ?_) (fun b z k => ?_) rfl <;> simp only [inUnits] <;> ring
  | hmcode =>
    rcases hl with rfl | h | h
    · simp only
      split_ifs
      · simp only [Except.map]
        congr 1
        refine result_ext (fun b z k => ?_) (fun b z k => ?_) (fun b z k => ?_) rfl <;>
          simp only [inUnits, Spectra.oneHaloTruncationMead, Spectra.twoHaloTruncationMead, Spectra.transitionSmoothing, div_one,
            one_pow, one_mul]
      · rfl
    · exact absurd h (by simp [hn])
    · exact absurd hn h.1
  | none =>
    have hl' : a = 1 ∨ s.twoHaloKtrunc = none := by
      rcases hl with h | h | h
      · exact .inl h
      · exact absurd h (by simp [hn])
      · exact .inr h.2
    simp only [Except.map, cut_two s hl']
    congr 1
    refine result_ext (fun b z k => ?_) (fun b z k => ?_) (fun b z k => ?_) rfl <;> simp only [inUnits] <;> ring
  | fortuna =>
    have hl' : a = 1 ∨ s.twoHaloKtrunc = none := by
      rcases hl with h | h | h
      · exact .inl h
      · exact absurd h (by simp [hn])
      · exact .inr h.2
    simp only [Except.map, cut_two s hl']
    congr 1
    refine result_ext (fun b z k => ?_) (fun b z k => ?_) (fun b z k => ?_) rfl <;> simp only [inUnits] <;> ring

theorem respond (hl : s.response = true → MatterLength a s) (hq : s.response = true → MatterMass m s) {r r' : PkResult}
    (h : r' = resultInUnits a r) :
    (inUnits a m s).applyResponse r' = (s.applyResponse r).map (resultInUnits a) := by
  unfold Spectra.applyResponse
  show (if s.response = true then _ else _) = _
  by_cases hr : s.response = true
  · rw [if_pos hr, if_pos hr, mm_raw ha hm s (hl hr) (hq hr)]
    cases s.powerSpectrumMmRaw with
    | error e => rfl
    | ok mm =>
      simp only [Except.map, h]
      congr 1
      have e : ∀ z k, (inUnits a m s).pkNl z k / (resultInUnits a mm).pkTot 0 z k = s.pkNl z k / mm.pkTot 0 z k :=
        fun z k => mul_div_mul_left _ _ (pow_ne_zero 3 ha)
      simp only [e]
      refine result_ext (fun b z k => ?_) (fun b z k => ?_) (fun b z k => ?_) rfl <;> exact mul_assoc _ _ _
  · rw [if_neg hr, if_neg hr, h]; rfl

/-- C135: the matter spectrum in other units is the matter spectrum times a volume, and it is had in the same cases -/
theorem C135_mm (hl : s.response = false → MatterLength a s) (hq : s.response = false → MatterMass m s) :
    (inUnits a m s).powerSpectrumMm = s.powerSpectrumMm.map (resultInUnits a) := by
  unfold Spectra.powerSpectrumMm
  show (if s.response = true then _ else _) = _
  by_cases hr : s.response = true
  · rw [if_pos hr, if_pos hr]
    simp only [Except.map]
    congr 1
    exact result_ext (fun _ _ _ => (mul_zero _).symm) (fun _ _ _ => (mul_zero _).symm) (fun _ _ _ => rfl) rfl
  · rw [if_neg hr, if_neg hr]
    exact mm_raw ha hm s (hl (by simpa using hr)) (hq (by simpa using hr))

/-- C135: the galaxy spectrum, and its bias stays -/
theorem C135_gg (hg : GalaxyLength a s) (hl : s.response = true → MatterLength a s) (hq : s.response = true → MatterMass m s) :
    (inUnits a m s).powerSpectrumGg = s.powerSpectrumGg.map (resultInUnits a) := by
  refine respond ha hm s hl hq ?_
  have e1 : ∀ b z k, (inUnits a m s).compute1hTerm ((inUnits a m s).centralGalaxyProfile b z k)
      ((inUnits a m s).satelliteGalaxyProfile b z k) z =
      a ^ 3 * s.compute1hTerm (s.centralGalaxyProfile b z k) (s.satelliteGalaxyProfile b z k) z :=
    fun b z k => one_halo ha hm s _ _ _ _ z (central ha s b z k) (satellite ha s b z k)
  have e2 : ∀ b z k, (inUnits a m s).compute1hTerm (fun i => (inUnits a m s).satelliteGalaxyProfile b z k i
      * (inUnits a m s).poissonFunc i) ((inUnits a m s).satelliteGalaxyProfile b z k) z =
      a ^ 3 * s.compute1hTerm (fun i => s.satelliteGalaxyProfile b z k i * s.poissonFunc i) (s.satelliteGalaxyProfile b z k) z :=
    fun b z k => one_halo ha hm s _ _ _ _ z (fun i => by
      rw [satellite ha, mul_assoc]; rfl) (satellite ha s b z k)
  have e3 : ∀ b z k, (inUnits a m s).iNL (fun i => (inUnits a m s).centralGalaxyProfile b z k i
      + (inUnits a m s).satelliteGalaxyProfile b z k i) (fun i => (inUnits a m s).centralGalaxyProfile b z k i
      + (inUnits a m s).satelliteGalaxyProfile b z k i) z k =
      s.iNL (fun i => s.centralGalaxyProfile b z k i + s.satelliteGalaxyProfile b z k i)
        (fun i => s.centralGalaxyProfile b z k i + s.satelliteGalaxyProfile b z k i) z k :=
    fun b z k => i_nl ha hm s _ _ _ _ z k (fun i => by rw [central ha, satellite ha, mul_add])
      fun i => by rw [central ha, satellite ha, mul_add]
  unfold Spectra.powerSpectrumGgRaw
  simp only [e1, e2, e3, ic ha hm, is_ ha hm, cut_one ha]
  by_cases hn : s.nonlinearMode = .bnl
  · have hn' : (inUnits a m s).nonlinearMode = .bnl := hn
    simp only [if_pos hn, if_pos hn']
    refine result_ext (fun b z k => ?_) (fun b z k => ?_) (fun b z k => ?_) rfl <;> simp only [inUnits] <;> ring
  · have hn' : ¬ (inUnits a m s).nonlinearMode = .bnl := hn
    have hl' : a = 1 ∨ s.twoHaloKtrunc = none := hg.imp_right (·.resolve_left hn)
    simp only [if_neg hn, if_neg hn', cut_two s hl']
    refine result_ext (fun b z k => ?_) (fun b z k => ?_) (fun b z k => ?_) rfl <;> simp only [inUnits] <;> ring

/-- C135: the galaxy-matter spectrum -/
theorem C135_gm (hg : GalaxyLength a s) (hq : MatterMass m s) (hl : s.response = true → MatterLength a s) :
    (inUnits a m s).powerSpectrumGm = s.powerSpectrumGm.map (resultInUnits a) := by
  refine respond ha hm s hl (fun _ => hq) ?_
  have e1 : ∀ b z k, (inUnits a m s).compute1hTerm ((inUnits a m s).centralGalaxyProfile b z k)
      ((inUnits a m s).matterProfile1hG b z k) z =
      a ^ 3 * s.compute1hTerm (s.centralGalaxyProfile b z k) (s.matterProfile1hG b z k) z :=
    fun b z k => one_halo ha hm s _ _ _ _ z (central ha s b z k) (profile_g ha hm s hq b z k)
  have e2 : ∀ b z k, (inUnits a m s).compute1hTerm ((inUnits a m s).satelliteGalaxyProfile b z k)
      ((inUnits a m s).matterProfile1hG b z k) z =
      a ^ 3 * s.compute1hTerm (s.satelliteGalaxyProfile b z k) (s.matterProfile1hG b z k) z :=
    fun b z k => one_halo ha hm s _ _ _ _ z (satellite ha s b z k) (profile_g ha hm s hq b z k)
  have e3 : ∀ b z k, (inUnits a m s).iNL (fun i => (inUnits a m s).centralGalaxyProfile b z k i
      + (inUnits a m s).satelliteGalaxyProfile b z k i) ((inUnits a m s).matterProfile2h z k) z k =
      s.iNL (fun i => s.centralGalaxyProfile b z k i + s.satelliteGalaxyProfile b z k i) (s.matterProfile2h z k) z k :=
    fun b z k => i_nl ha hm s _ _ _ _ z k (fun i => by rw [central ha, satellite ha, mul_add]) (matter ha hm s z k)
  unfold Spectra.powerSpectrumGmRaw
  simp only [e1, e2, e3, ic ha hm, is_ ha hm, im_term ha hm, cut_one ha]
  by_cases hn : s.nonlinearMode = .bnl
  · have hn' : (inUnits a m s).nonlinearMode = .bnl := hn
    simp only [if_pos hn, if_pos hn']
    refine result_ext (fun b z k => ?_) (fun b z k => ?_) (fun b z k => ?_) rfl <;> simp only [inUnits] <;> ring
  · have hn' : ¬ (inUnits a m s).nonlinearMode = .bnl := hn
    have hl' : a = 1 ∨ s.twoHaloKtrunc = none := hg.imp_right (·.resolve_left hn)
    simp only [if_neg hn, if_neg hn', cut_two s hl']
    refine result_ext (fun b z k => ?_) (fun b z k => ?_) (fun b z k => ?_) rfl <;> simp only [inUnits] <;> ring

omit ha hm in
theorem p_eff (z k : ℕ) : (inUnits a m s).peffVal z k = a ^ 3 * s.peffVal z k := by
  unfold Spectra.peffVal Spectra.peff
  show (if s.nonlinearMode = .fortuna then some ((1 - s.tEff) * (a ^ 3 * s.pkNl z k) + s.tEff * (a ^ 3 * s.pkLin z k))
    else none).getD 0 = _
  split_ifs <;> simp only [Option.getD] <;> ring

theorem amp (z : ℕ) : (inUnits a m s).alignmentAmplitude2h z = s.alignmentAmplitude2h z := by
  show -1 * (5e-14 * (a ^ 3 / m * s.alignmentGi z) * (m * s.meanDensity0 z / a ^ 3) / s.growthFactor z) =
    -1 * (5e-14 * s.alignmentGi z * s.meanDensity0 z / s.growthFactor z)
  rw [show 5e-14 * (a ^ 3 / m * s.alignmentGi z) * (m * s.meanDensity0 z / a ^ 3) =
    5e-14 * s.alignmentGi z * s.meanDensity0 z by field_simp]

theorem amp2 (z : ℕ) : (inUnits a m s).alignmentAmplitude2hII z = s.alignmentAmplitude2hII z := by
  show (5e-14 * (a ^ 3 / m * s.alignmentGi z) * (m * s.meanDensity0 z / a ^ 3) / s.growthFactor z) ^ 2 =
    (5e-14 * s.alignmentGi z * s.meanDensity0 z / s.growthFactor z) ^ 2
  rw [show 5e-14 * (a ^ 3 / m * s.alignmentGi z) * (m * s.meanDensity0 z / a ^ 3) =
    5e-14 * s.alignmentGi z * s.meanDensity0 z by field_simp]

/-- C135: the matter-intrinsic spectrum, in every mode -/
theorem C135_mi (hq : MatterMass m s) (hl : s.response = true → MatterLength a s) :
    (inUnits a m s).powerSpectrumMi = s.powerSpectrumMi.map (resultInUnits a) := by
  refine respond ha hm s hl (fun _ => hq) ?_
  have e1 : ∀ b z k, (inUnits a m s).compute1hTerm ((inUnits a m s).matterProfile1hG b z k)
      ((inUnits a m s).satelliteAlignmentProfile b z k) z =
      a ^ 3 * s.compute1hTerm (s.matterProfile1hG b z k) (s.satelliteAlignmentProfile b z k) z :=
    fun b z k => one_halo ha hm s _ _ _ _ z (profile_g ha hm s hq b z k) (satellite_alignment ha hm s b z k)
  have e3 : ∀ b z k, (inUnits a m s).iNL (fun i => (inUnits a m s).centralAlignmentProfile b z k i
      + (inUnits a m s).satelliteAlignmentProfile b z k i) ((inUnits a m s).matterProfile2h z k) z k =
      s.iNL (fun i => s.centralAlignmentProfile b z k i + s.satelliteAlignmentProfile b z k i) (s.matterProfile2h z k) z k :=
    fun b z k => i_nl ha hm s _ _ _ _ z k (fun i => by rw [central_alignment ha hm, satellite_alignment ha hm, mul_add])
      (matter ha hm s z k)
  unfold Spectra.powerSpectrumMiRaw
  simp only [e1, e3, ic_align ha hm, is_align ha hm, im_term ha hm, cut_one_ia ha, cut_two_ia ha, p_eff, amp ha hm]
  show (match s.nonlinearMode with
    | .bnl => _
    | .fortuna => _
    | _ => _ : PkResult) = _
  cases s.nonlinearMode <;>
    refine result_ext (fun b z k => ?_) (fun b z k => ?_) (fun b z k => ?_) rfl <;> simp only [inUnits] <;> ring

/-- C135: the intrinsic-intrinsic spectrum, in every mode -/
theorem C135_ii (hl : s.response = true → MatterLength a s) (hq : s.response = true → MatterMass m s) :
    (inUnits a m s).powerSpectrumIi = s.powerSpectrumIi.map (resultInUnits a) := by
  refine respond ha hm s hl hq ?_
  have sa := fun b z k => satellite_alignment ha hm s b z k
  have ca := fun b z k => central_alignment ha hm s b z k
  have e1 : ∀ b z k, (inUnits a m s).compute1hTerm ((inUnits a m s).satelliteAlignmentProfile b z k)
      ((inUnits a m s).satelliteAlignmentProfile b z k) z =
      a ^ 3 * s.compute1hTerm (s.satelliteAlignmentProfile b z k) (s.satelliteAlignmentProfile b z k) z :=
    fun b z k => one_halo ha hm s _ _ _ _ z (sa b z k) (sa b z k)
  have e2 := fun b z k => i_nl ha hm s _ _ _ _ z k (sa b z k) (sa b z k)
  have e3 := fun b z k => i_nl ha hm s _ _ _ _ z k (ca b z k) (ca b z k)
  have e4 := fun b z k => i_nl ha hm s _ _ _ _ z k (ca b z k) (sa b z k)
  unfold Spectra.powerSpectrumIiRaw
  simp only [e1, e2, e3, e4, ic_align ha hm, is_align ha hm, cut_one_ia ha, cut_two_ia ha, p_eff, amp2 ha hm]
  show (match s.nonlinearMode with
    | .bnl => _
    | .fortuna => _
    | _ => _ : PkResult) = _
  cases s.nonlinearMode <;>
    refine result_ext (fun b z k => ?_) (fun b z k => ?_) (fun b z k => ?_) rfl <;>
    (try simp only [inUnits]) <;> ring

/-- C135: the galaxy-intrinsic spectrum, in every mode -/
theorem C135_gi (hl : s.response = true → MatterLength a s) (hq : s.response = true → MatterMass m s) :
    (inUnits a m s).powerSpectrumGi = s.powerSpectrumGi.map (resultInUnits a) := by
  refine respond ha hm s hl hq ?_
  have sa := fun b z k => satellite_alignment ha hm s b z k
  have ca := fun b z k => central_alignment ha hm s b z k
  have cg := fun b z k => central (m := m) ha s b z k
  have e1 : ∀ b z k, (inUnits a m s).compute1hTerm ((inUnits a m s).centralGalaxyProfile b z k)
      ((inUnits a m s).satelliteAlignmentProfile b z k) z =
      a ^ 3 * s.compute1hTerm (s.centralGalaxyProfile b z k) (s.satelliteAlignmentProfile b z k) z :=
    fun b z k => one_halo ha hm s _ _ _ _ z (cg b z k) (sa b z k)
  have e2 := fun b z k => i_nl ha hm s _ _ _ _ z k (ca b z k) (cg b z k)
  have e3 := fun b z k => i_nl ha hm s _ _ _ _ z k (sa b z k) (cg b z k)
  unfold Spectra.powerSpectrumGiRaw
  simp only [e1, e2, e3, ic ha hm, ic_align ha hm, is_align ha hm, cut_one_ia ha, cut_two_ia ha, p_eff, amp ha hm]
  show (match s.nonlinearMode with
    | .bnl => _
    | .fortuna => _
    | _ => _ : PkResult) = _
  cases s.nonlinearMode <;>
    refine result_ext (fun b z k => ?_) (fun b z k => ?_) (fun b z k => ?_) rfl <;>
    (try simp only [inUnits]) <;> ring

omit ha hm in
theorem frac_inj {x y : ℝ} (hx : 0 ≤ x) (hy : 0 ≤ y) (h : x / (1 + x) = y / (1 + y)) : x = y := by
  rw [div_eq_div_iff (by positivity) (by positivity)] at h
  linarith

omit ha hm in
/-- C135: the cut of the 2-halo term has a built-in wavenumber (0.05699, in h/Mpc): at every wavenumber it changes with the unit
of length, whatever `two_halo_ktrunc` is -/
theorem C135_built_in_cut (h : s.twoHaloKtrunc ≠ none) (ha : 0 < a) (k : ℕ) (hk : 0 < s.kVec k) :
    (inUnits a m s).twoHaloTruncation k = s.twoHaloTruncation k ↔ a = 1 := by
  refine ⟨fun e => ?_, fun e => cut_two s (.inl e) k⟩
  obtain ⟨kt, hkt⟩ := Option.ne_none_iff_exists'.1 h
  unfold Spectra.twoHaloTruncation at e
  rw [show (inUnits a m s).twoHaloKtrunc = some (kt / a) by simp [inUnits, hkt], hkt] at e
  simp only [inUnits, mul_div_assoc] at e
  have e' := frac_inj (by positivity) (by positivity) (mul_left_cancel₀ (by norm_num) (sub_right_injective e))
  have := (Real.rpow_left_inj (by positivity) (by positivity) (by norm_num)).1 e'
  field_simp at this
  linarith

omit ha hm in
/-- C135: so do the damping factors of HMcode: the 1-halo one at every wavenumber -/
theorem C135_built_in_hmcode (ha : 0 < a) (z k : ℕ) (hk : 0 < s.kVec k) (hs : 0 < s.sigma8z z) :
    (inUnits a m s).oneHaloTruncationMead z k = s.oneHaloTruncationMead z k ↔ a = 1 := by
  unfold Spectra.oneHaloTruncationMead
  refine ⟨fun e => ?_, fun e => by simp [inUnits, e]⟩
  simp only [inUnits] at e
  have hd : 0 < 0.05618 * s.sigma8z z ^ (-1.013 : ℝ) := by positivity
  have e' := frac_inj (by positivity) (by positivity) e
  have := (pow_left_inj₀ (by positivity) (by positivity) (by norm_num)).1 e'
  rw [div_left_inj' hd.ne'] at this
  field_simp at this
  linarith

omit ha hm in
/-- C135: the gas fraction of the feedback profile has a built-in mass (10^13.87 and more, in units of the sun over h): where there
is gas to lose, the profile follows the unit of mass only if it is kept -/
theorem C135_built_in_mass (ha : a ≠ 0) (hm : 0 < m) (z k i : ℕ) (hM : 0 < s.mass i) (hr : s.meanDensity0 z ≠ 0) (hu : s.uDm z k i ≠ 0)
    (hg : s.omegaB / s.omegaM ≠ s.fs (s.zVec z)) :
    (inUnits a m s).matterProfileWithFeedback z k i = a ^ 3 * s.matterProfileWithFeedback z k i ↔ m = 1 := by
  refine ⟨fun e => ?_, fun e => feedback_profile ha hm.ne' s e z k i⟩
  have hp : 0 < s.mbAgn (s.zVec z) := by unfold Spectra.mbAgn; positivity
  have e : (s.omegaC / s.omegaM + s.fg (m * s.mass i) (s.zVec z) (s.fs (s.zVec z)))
      * (m * s.mass i / (m * s.meanDensity0 z / a ^ 3)) * s.uDm z k i
      + s.fs (s.zVec z) * (m * s.mass i / (m * s.meanDensity0 z / a ^ 3)) =
    a ^ 3 * ((s.omegaC / s.omegaM + s.fg (s.mass i) (s.zVec z) (s.fs (s.zVec z))) * (s.mass i / s.meanDensity0 z) * s.uDm z k i
      + s.fs (s.zVec z) * (s.mass i / s.meanDensity0 z)) := e
  have hm0 := hm.ne'
  rw [show m * s.mass i / (m * s.meanDensity0 z / a ^ 3) = a ^ 3 * (s.mass i / s.meanDensity0 z) by field_simp] at e
  have e2 : (a ^ 3 * (s.mass i / s.meanDensity0 z) * s.uDm z k i) * s.fg (m * s.mass i) (s.zVec z) (s.fs (s.zVec z)) =
      (a ^ 3 * (s.mass i / s.meanDensity0 z) * s.uDm z k i) * s.fg (s.mass i) (s.zVec z) (s.fs (s.zVec z)) := by linarith
  have e3 := mul_left_cancel₀ (mul_ne_zero (mul_ne_zero (pow_ne_zero 3 ha) (div_ne_zero hM.ne' hr)) hu) e2
  unfold Spectra.fg at e3
  rw [mul_div_assoc (s.omegaB / s.omegaM - _), mul_div_assoc (s.omegaB / s.omegaM - _)] at e3
  have e4 := frac_inj (by positivity) (by positivity) (mul_left_cancel₀ (sub_ne_zero.2 hg) e3)
  have e5 := (pow_left_inj₀ (by positivity) (by positivity) (by norm_num)).1 e4
  rw [div_left_inj' hp.ne'] at e5
  nlinarith

omit ha hm in
/-- the hypotheses are met: the unit of length doubled, the unit of mass tripled, without a cut of the 2-halo term -/
example (s : Spectra) (hs : s = { Pk.demo with twoHaloKtrunc := none }) :
    (inUnits 2 3 s).powerSpectrumGm = s.powerSpectrumGm.map (resultInUnits 2) ∧
      (inUnits 2 3 s).powerSpectrumMm = s.powerSpectrumMm.map (resultInUnits 2) := by
  subst hs
  exact ⟨C135_gm (by norm_num) (by norm_num) _ (.inr (.inr rfl)) (.inr (by decide)) (fun _ => .inr (.inr ⟨by decide, rfl⟩)),
    C135_mm (by norm_num) (by norm_num) _ (fun _ => .inr (.inr ⟨by decide, rfl⟩)) (fun _ => .inr (by decide))⟩

omit ha hm in
/-- with the cut, the damping of the example changes with the unit of length -/
example : (inUnits 2 3 Pk.demo).twoHaloTruncation 0 ≠ Pk.demo.twoHaloTruncation 0 := by
  rw [Ne, C135_built_in_cut Pk.demo (by simp [Pk.demo]) (by norm_num) 0 (by simp [Pk.demo])]
  norm_num

end Verif.Units

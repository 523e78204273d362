import Verif.Props.AccuracySpectra
import Verif.Props.ErrorPropagationIa

/-! Property C148, continued: how accurate the alignment spectra are at finite resolution. -/

namespace Verif.Accuracy

open Verif.Lib Verif.Spec Verif.Pk Verif.Pk.Spectra Verif.Convergence Set MeasureTheory
open Verif.Pk.ErrorPropagation (tilt tilt_eq shapes shapes_eq centrals_eq linear ii_raw_eq gi_raw_eq mi_raw_eq ii_ok gi_ok mi_ok damp1_nonneg damp2_nonneg factor_eq)

/-- centrals, and satellites times their alignment, as functions of the mass -/
structure Aligned (s : Spectra) (t z k : ℕ) (Nc W : ℝ → ℝ) : Prop where
  cen : ∀ m < s.nm, s.hodCen t z m = Nc (s.mass m)
  sat : ∀ m < s.nm, s.hodSat t z m * s.wkmSat z k m = W (s.mass m)

section
variable {s : Spectra} {t z k : ℕ} {n b Nc W : ℝ → ℝ} {q : ℝ} {kn kb kc ks : Slopes}

theorem shape_value (A : Aligned s t z k Nc W) (ho : Occupied s t z) {m : ℕ} (hm : m < s.nm) :
    s.satelliteAlignmentProfile t z k m = W (s.mass m) * tilt s s.betaSat s.mpivotSat t z / s.numberDensity t z := by
  rw [shapes_eq ho, shapes, A.sat m hm]
  ring

theorem central_value (A : Aligned s t z k Nc W) (ho : Occupied s t z) {m : ℕ} (hm : m < s.nm) :
    s.centralGalaxyProfile t z k m = Nc (s.mass m) / s.numberDensity t z := by
  rw [centrals_eq ho, A.cen m hm]

/-- C148, shapes in one halo: the 1-halo terms of the three alignment spectra are the integrals of the halo model up to the relative error of the rule, with the
damping of the code. -/
theorem C148_shapes_one_halo {u : ℝ → ℝ} {ku : Slopes} (G : Geometric s.nm s.mass q) (hnm : 3 ≤ s.nm) (hn : ∀ m < s.nm, s.dndlnm z m = n (s.mass m))
    (hu : ∀ m < s.nm, s.uDm z k m = u (s.mass m)) (A : Aligned s t z k Nc W) (ho : Occupied s t z) (n0 : 0 < s.numberDensity t z)
    (ρ0 : 0 < s.meanDensity0 z) (g0 : 0 < tilt s s.betaSat s.mpivotSat t z)
    (gn : Gradual n kn (s.mass 0) (s.mass (s.nm - 1))) (gu : Gradual u ku (s.mass 0) (s.mass (s.nm - 1)))
    (gc : Gradual Nc kc (s.mass 0) (s.mass (s.nm - 1))) (gs : Gradual W ks (s.mass 0) (s.mass (s.nm - 1)))
    (hmode : s.nonlinearMode = .none ∨ s.nonlinearMode = .hmcode) (hresp : s.response = false)
    (hi : s.hmcodeIngredients = .mead2020 ∨ (s.hmcodeIngredients = .none ∧ s.pointmass = false)) :
    let g := tilt s s.betaSat s.mpivotSat t z
    let N := s.numberDensity t z
    let T := s.oneHaloTruncationIa k
    let I := ∫ M in s.mass 0..s.mass (s.nm - 1), (W M * g / N) ^ 2 * (n M / M)
    let I' := ∫ M in s.mass 0..s.mass (s.nm - 1), Nc M / N * (W M * g / N) * (n M / M)
    let I'' := ∫ M in s.mass 0..s.mass (s.nm - 1), M / s.meanDensity0 z * u M * (W M * g / N) * (n M / M)
    (∃ r, s.powerSpectrumIi = .ok r ∧ |r.pk1h t z k - I * T| ≤ tolerance (((ks.mul ks).mul kn).mul (Slopes.power (-1))) q * (I * T)) ∧
    (∃ r, s.powerSpectrumGi = .ok r ∧ |r.pk1h t z k - I' * T| ≤ tolerance (((kc.mul ks).mul kn).mul (Slopes.power (-1))) q * (I' * T)) ∧
    (∃ r, s.powerSpectrumMi = .ok r ∧ |r.pk1h t z k + I'' * T| ≤ tolerance ((ku.mul ks).mul kn) q * (I'' * T)) := by
  intro g N T I I' I''
  have hT : 0 ≤ T := damp1_nonneg s k
  refine ⟨⟨_, ii_ok hresp, ?_⟩, ⟨_, gi_ok hresp, ?_⟩, ⟨_, mi_ok hresp, ?_⟩⟩
  · have gF : Gradual (fun M => (g / N) ^ 2 * (W M * W M * n M * M ^ (-1 : ℝ))) (((ks.mul ks).mul kn).mul (Slopes.power (-1)))
        (s.mass 0) (s.mass (s.nm - 1)) := (((gs.mul gs).mul gn).mul (Gradual.power (-1) G.pos)).const_mul (by positivity)
    have R := rule (y := fun m => s.satelliteAlignmentProfile t z k m * s.satelliteAlignmentProfile t z k m * s.dndlnm z m / s.mass m) G hnm gF
      (f := fun M => (W M * g / N) ^ 2 * (n M / M)) (fun M hM => by rw [Real.rpow_neg_one]; field_simp)
      (fun m hm => by simp only [shape_value A ho hm, hn m hm]; ring)
    rw [(ii_raw_eq hmode t z k).1, ← sub_mul, abs_mul, ← mul_assoc, abs_of_nonneg hT]
    exact mul_le_mul_of_nonneg_right R.1 hT
  · have gF : Gradual (fun M => (g / N ^ 2) * (Nc M * W M * n M * M ^ (-1 : ℝ))) (((kc.mul ks).mul kn).mul (Slopes.power (-1)))
        (s.mass 0) (s.mass (s.nm - 1)) := (((gc.mul gs).mul gn).mul (Gradual.power (-1) G.pos)).const_mul (by positivity)
    have R := rule (y := fun m => s.centralGalaxyProfile t z k m * s.satelliteAlignmentProfile t z k m * s.dndlnm z m / s.mass m) G hnm gF
      (f := fun M => Nc M / N * (W M * g / N) * (n M / M)) (fun M hM => by rw [Real.rpow_neg_one]; field_simp)
      (fun m hm => by simp only [shape_value A ho hm, central_value A ho hm, hn m hm]; ring)
    rw [(gi_raw_eq hmode t z k).1, ← sub_mul, abs_mul, ← mul_assoc, abs_of_nonneg hT]
    exact mul_le_mul_of_nonneg_right R.1 hT
  · have gF : Gradual (fun M => (g / (N * s.meanDensity0 z)) * (u M * W M * n M)) ((ku.mul ks).mul kn)
        (s.mass 0) (s.mass (s.nm - 1)) := ((gu.mul gs).mul gn).const_mul (by positivity)
    have R := rule (y := fun m => s.matterProfile1hG t z k m * s.satelliteAlignmentProfile t z k m * s.dndlnm z m / s.mass m) G hnm gF
      (f := fun M => M / s.meanDensity0 z * u M * (W M * g / N) * (n M / M)) (fun M hM => by field_simp)
      (fun m hm => by
        rw [C97_plain_weight hi]
        simp only [HaloModel.matter, haloes, shape_value A ho hm, hu m hm, hn m hm]
        ring)
    have e : ∀ x : ℝ, -(x * T) + I'' * T = -((x - I'') * T) := fun x => by ring
    rw [(mi_raw_eq hmode t z k).1, e, abs_neg, abs_mul, ← mul_assoc, abs_of_nonneg hT]
    exact mul_le_mul_of_nonneg_right R.1 hT

/-- C148, shapes in two halos: the linear alignment `L` of the centrals is exact at every resolution; the alignment of the satellites is
`X = ∫ W b dn/dlnM dM/M + (1 - K) V`, where `K` is the biased matter in the halos of the grid and `V` the alignment per mass in the lightest, up to the error `e` of
two rules. The 2-halo terms follow. -/
theorem C148_shapes_two_halo {w : ℝ → ℝ} {kw : Slopes} (G : Geometric s.nm s.mass q) (hnm : 3 ≤ s.nm) (H : Halos s z k n b w)
    (A : Aligned s t z k Nc W) (ho : Occupied s t z) (n0 : 0 < s.numberDensity t z)
    (ρ0 : 0 < s.meanDensity0 z) (g0 : 0 < tilt s s.betaSat s.mpivotSat t z)
    (gn : Gradual n kn (s.mass 0) (s.mass (s.nm - 1))) (gb : Gradual b kb (s.mass 0) (s.mass (s.nm - 1)))
    (gw : Gradual w kw (s.mass 0) (s.mass (s.nm - 1)))
    (gc : Gradual Nc kc (s.mass 0) (s.mass (s.nm - 1))) (gs : Gradual W ks (s.mass 0) (s.mass (s.nm - 1)))
    (hmode : s.nonlinearMode = .none ∨ s.nonlinearMode = .hmcode) (hresp : s.response = false) :
    let g := tilt s s.betaSat s.mpivotSat t z
    let N := s.numberDensity t z
    let D := |s.pkLin z k| * s.twoHaloTruncationIa k
    let L := linear s t z
    let S := ∫ M in s.mass 0..s.mass (s.nm - 1), W M * g / N * b M * (n M / M)
    let K := ∫ M in s.mass 0..s.mass (s.nm - 1), M / s.meanDensity0 z * b M * (n M / M)
    let V := W (s.mass 0) * g / N * s.meanDensity0 z / s.mass 0
    let X := S + (1 - K) * V
    let e := tolerance (((ks.mul kb).mul kn).mul (Slopes.power (-1))) q * S + tolerance (kb.mul kn) q * K * |V|
    let B := ∫ M in s.mass 0..s.mass (s.nm - 1), Nc M / N * b M * (n M / M)
    let ε := tolerance (((kc.mul kb).mul kn).mul (Slopes.power (-1))) q * B
    let J := ∫ M in s.mass 0..s.mass (s.nm - 1), M / s.meanDensity0 z * w M * b M * (n M / M)
    let δ := tolerance ((kw.mul kb).mul kn) q * J
    (∃ r, s.powerSpectrumIi = .ok r ∧
      |r.pk2h t z k - s.pkLin z k * (L ^ 2 + X ^ 2 + L * X) * s.twoHaloTruncationIa k| ≤ (|L| + 2 * |X| + e) * e * D) ∧
    (∃ r, s.powerSpectrumGi = .ok r ∧
      |r.pk2h t z k - s.pkLin z k * (B * (L + X)) * s.twoHaloTruncationIa k| ≤ (ε * |L + X| + e * |B| + ε * e) * D) ∧
    (∃ r, s.powerSpectrumMi = .ok r ∧
      |r.pk2h t z k + s.pkLin z k * ((L + X) * (1 - J)) * s.twoHaloTruncationIa k| ≤ (e * |1 - J| + δ * |L + X| + e * δ) * D) := by
  intro g N D L S K V X e B ε J δ
  have p0 : ∀ m < s.nm, 0 < s.mass m := G.point_pos
  have hT : 0 ≤ s.twoHaloTruncationIa k := damp2_nonneg s k
  have S0 : Sampled s := ⟨fun m hm => (p0 m hm).ne', by omega⟩
  have hc : s.icAlignTerm t z k = L := by
    rw [C08_central_alignment_exact s t z k (fun m hm => (p0 m hm).ne') (by omega) ρ0.ne', tilt_eq]
    rfl
  have hs : |s.isAlignTerm t z k - X| ≤ e := by
    have gF : Gradual (fun M => (g / N) * (W M * b M * n M * M ^ (-1 : ℝ))) (((ks.mul kb).mul kn).mul (Slopes.power (-1)))
        (s.mass 0) (s.mass (s.nm - 1)) := (((gs.mul gb).mul gn).mul (Gradual.power (-1) G.pos)).const_mul (by positivity)
    have R := rule (y := fun m => s.satelliteAlignmentProfile t z k m * s.haloBias z m * s.dndlnm z m / s.mass m) G hnm gF
      (f := fun M => W M * g / N * b M * (n M / M)) (fun M hM => by rw [Real.rpow_neg_one]; field_simp)
      (fun m hm => by simp only [shape_value A ho hm, H.number m hm, H.bias m hm]; ring)
    have gK : Gradual (fun M => (1 / s.meanDensity0 z) * (b M * n M)) (kb.mul kn) (s.mass 0) (s.mass (s.nm - 1)) :=
      (gb.mul gn).const_mul (by positivity)
    have Q := rule (y := fun m => s.haloBias z m * s.dndlnm z m * (1 / s.meanDensity0 z)) G hnm gK
      (f := fun M => M / s.meanDensity0 z * b M * (n M / M)) (fun M hM => by field_simp)
      (fun m hm => by
        have := p0 m hm
        simp only [H.number m hm, H.bias m hm]
        field_simp)
    have e0 : s.isAlignTerm t z k - X = (s.computeIgTerm (s.satelliteAlignmentProfile t z k) z - S) +
        -((simpson s.nm s.mass (fun m => s.haloBias z m * s.dndlnm z m * (1 / s.meanDensity0 z)) - K) * V) := by
      have hv : s.satelliteAlignmentProfile t z k 0 * s.meanDensity0 z / s.mass 0 = V := by rw [shape_value A ho (by omega)]
      rw [isAlignTerm, aTerm, mul_assoc, mul_div_assoc, hv]
      simp only [X]
      ring
    rw [e0]
    refine (abs_add_le _ _).trans (add_le_add R.1 ?_)
    rw [abs_neg, abs_mul]
    exact mul_le_mul_of_nonneg_right Q.1 (abs_nonneg _)
  have hb : |s.icTerm t z k - B| ≤ ε := by
    have gF : Gradual (fun M => (1 / N) * (Nc M * b M * n M * M ^ (-1 : ℝ))) (((kc.mul kb).mul kn).mul (Slopes.power (-1)))
        (s.mass 0) (s.mass (s.nm - 1)) := (((gc.mul gb).mul gn).mul (Gradual.power (-1) G.pos)).const_mul (by positivity)
    have R := rule (y := fun m => s.centralGalaxyProfile t z k m * s.haloBias z m * s.dndlnm z m / s.mass m) G hnm gF
      (f := fun M => Nc M / N * b M * (n M / M)) (fun M hM => by rw [Real.rpow_neg_one]; field_simp)
      (fun m hm => by simp only [central_value A ho hm, H.number m hm, H.bias m hm]; ring)
    exact R.1
  have hm : |s.imTerm z k - (1 - J)| ≤ δ := by
    rw [matterBias_eq S0]
    exact (matter_factor G hnm H ρ0 gn gb gw).1
  have ha : |L + s.isAlignTerm t z k - (L + X)| ≤ e := by rw [add_sub_add_left_eq_sub]; exact hs
  have scale : ∀ {x y f : ℝ}, |x - y| ≤ f → |s.pkLin z k * x * s.twoHaloTruncationIa k - s.pkLin z k * y * s.twoHaloTruncationIa k| ≤ f * D := by
    intro x y f h
    have : s.pkLin z k * x * s.twoHaloTruncationIa k - s.pkLin z k * y * s.twoHaloTruncationIa k =
      (x - y) * (s.pkLin z k * s.twoHaloTruncationIa k) := by ring
    rw [this, abs_mul, abs_mul, abs_of_nonneg hT]
    exact mul_le_mul_of_nonneg_right h (mul_nonneg (abs_nonneg _) hT)
  refine ⟨⟨_, ii_ok hresp, ?_⟩, ⟨_, gi_ok hresp, ?_⟩, ⟨_, mi_ok hresp, ?_⟩⟩
  · rw [(ii_raw_eq hmode t z k).2, hc]
    refine scale ?_
    have f : L * L + s.isAlignTerm t z k * s.isAlignTerm t z k + L * s.isAlignTerm t z k - (L ^ 2 + X ^ 2 + L * X) =
        (s.isAlignTerm t z k * s.isAlignTerm t z k - X * X) + L * (s.isAlignTerm t z k - X) := by ring
    rw [f]
    refine (abs_add_le _ _).trans ?_
    have h1 := product_error hs hs
    have h2 : |L * (s.isAlignTerm t z k - X)| ≤ |L| * e := by
      rw [abs_mul]
      exact mul_le_mul_of_nonneg_left hs (abs_nonneg _)
    linarith
  · rw [(gi_raw_eq hmode t z k).2, hc]
    exact scale (product_error hb ha)
  · rw [(mi_raw_eq hmode t z k).2, hc]
    have f : ∀ x y : ℝ, |-(x * (s.pkLin z k * s.twoHaloTruncationIa k)) + s.pkLin z k * y * s.twoHaloTruncationIa k| =
        |s.pkLin z k * x * s.twoHaloTruncationIa k - s.pkLin z k * y * s.twoHaloTruncationIa k| := fun x y => by
      rw [← abs_neg]
      congr 1
      ring
    rw [f]
    exact scale (product_error ha hm)

end

/-! ## concrete cases -/

theorem populated_aligned : Aligned populated 0 0 0 (fun _ => 1) (fun M => M ^ (9 / 10 : ℝ)) :=
  ⟨fun _ _ => rfl, fun m _ => mul_one (massGrid 9 (1 / 20) m ^ (9 / 10 : ℝ))⟩

theorem populated_tilt : tilt populated populated.betaSat populated.mpivotSat 0 0 = 1 := rfl

example : let s := populated
    let I := ∫ M in s.mass 0..s.mass (s.nm - 1), (M ^ (9 / 10 : ℝ) * tilt s s.betaSat s.mpivotSat 0 0 / s.numberDensity 0 0) ^ 2 * (M ^ (-9 / 10 : ℝ) / M)
    ∃ r, s.powerSpectrumIi = .ok r ∧ |r.pk1h 0 0 0 - I * s.oneHaloTruncationIa 0| ≤
      tolerance ((((Slopes.power (9 / 10)).mul (Slopes.power (9 / 10))).mul (Slopes.power (-9 / 10))).mul (Slopes.power (-1))) (10 ^ (1 / 20 : ℝ)) *
        (I * s.oneHaloTruncationIa 0) :=
  (C148_shapes_one_halo (s := populated) (t := 0) (z := 0) (k := 0) (u := fun _ => 1 / 2) blurred_grid blurred_points (fun _ _ => rfl) (fun _ _ => rfl)
    populated_aligned populated_occupied (by simp [populated, blurred, steep, fineDemo, Pk.demo]) (by simp [populated, blurred, steep, fineDemo, Pk.demo])
    (by rw [populated_tilt]; exact one_pos) (power_gradual (-9 / 10)) half_gradual one_gradual (power_gradual _) (Or.inl rfl) rfl (Or.inr ⟨rfl, rfl⟩)).1

example : ∃ r L X e, populated.powerSpectrumIi = .ok r ∧
    |r.pk2h 0 0 0 - populated.pkLin 0 0 * (L ^ 2 + X ^ 2 + L * X) * populated.twoHaloTruncationIa 0| ≤
      (|L| + 2 * |X| + e) * e * (|populated.pkLin 0 0| * populated.twoHaloTruncationIa 0) := by
  obtain ⟨r, h, w⟩ := (C148_shapes_two_halo (s := populated) (t := 0) (z := 0) (k := 0) (b := fun M => M ^ (1 / 10 : ℝ)) (w := fun _ => 1 / 2) blurred_grid
    blurred_points ⟨fun _ _ => rfl, fun _ _ => rfl, fun _ _ => by change (1 : ℝ) - 1 / 2 = 1 / 2; norm_num⟩
    populated_aligned populated_occupied (by simp [populated, blurred, steep, fineDemo, Pk.demo]) (by simp [populated, blurred, steep, fineDemo, Pk.demo])
    (by rw [populated_tilt]; exact one_pos) (power_gradual (-9 / 10)) (power_gradual _) half_gradual one_gradual (power_gradual _) (Or.inl rfl) rfl).1
  exact ⟨r, _, _, _, h, w⟩

end Verif.Accuracy

import Verif.Props.Accuracy

/-! Property C148, continued: how accurate the 2-halo terms and the galaxy spectra are at finite resolution. -/

namespace Verif.Accuracy

open Verif.Lib Verif.Spec Verif.Pk Verif.Pk.Spectra Verif.Convergence Set MeasureTheory

/-! ## sums -/

/-- the bounds of a sum -/
noncomputable def Slopes.sup (a b : Slopes) : Slopes := ⟨max a.one b.one, max a.two b.two, max a.three b.three⟩

theorem Gradual.add {f g : ℝ → ℝ} {k l : Slopes} {a b : ℝ} (hf : Gradual f k a b) (hg : Gradual g l a b) :
    Gradual (fun t => f t + g t) (k.sup l) a b := by
  obtain ⟨f1, f2, f3, hf⟩ := hf
  obtain ⟨g1, g2, g3, hg⟩ := hg
  refine ⟨fun t => f1 t + g1 t, fun t => f2 t + g2 t, fun t => f3 t + g3 t, fun t ht => ?_⟩
  obtain ⟨pf, d1, d2, d3, a1, a2, a3⟩ := hf t ht
  obtain ⟨pg, e1, e2, e3, b1, b2, b3⟩ := hg t ht
  have m : ∀ {x y X Y : ℝ}, |x| ≤ X * f t → |y| ≤ Y * g t → |x + y| ≤ max X Y * (f t + g t) := by
    intro x y X Y hx hy
    have h1 := mul_le_mul_of_nonneg_right (le_max_left X Y) pf.le
    have h2 := mul_le_mul_of_nonneg_right (le_max_right X Y) pg.le
    linarith [abs_add_le x y]
  exact ⟨add_pos pf pg, d1.fun_add e1, d2.fun_add e2, d3.fun_add e3, by rw [mul_add]; exact m a1 b1,
    by rw [mul_add]; exact m a2 b2, by rw [mul_add]; exact m a3 b3⟩

/-- the rule on the values of a function that is gradual in another form -/
theorem rule {n : ℕ} {x : ℕ → ℝ} {q : ℝ} (G : Geometric n x q) (hn : 3 ≤ n) {F f : ℝ → ℝ} {y : ℕ → ℝ} {k : Slopes}
    (hF : Gradual F k (x 0) (x (n - 1))) (e : ∀ M, 0 < M → F M = f M) (hy : ∀ i < n, y i = f (x i)) :
    |simpson n x y - ∫ M in x 0..x (n - 1), f M| ≤ tolerance k q * (∫ M in x 0..x (n - 1), f M) ∧
      0 ≤ ∫ M in x 0..x (n - 1), f M := by
  have le := GentleGrid.le G.gentle (Nat.zero_le (n - 1)) (by omega)
  have E := C148_relative_error G hn hF
  have eI : (∫ M in x 0..x (n - 1), F M) = ∫ M in x 0..x (n - 1), f M :=
    intervalIntegral.integral_congr fun M hM => e M (G.pos.trans_le (by rw [uIcc_of_le le] at hM; exact hM.1))
  have es : simpson n x (fun i => F (x i)) = simpson n x y :=
    simpson_congr (fun _ _ => rfl) fun m hm => by rw [hy m hm, e _ (G.point_pos m hm)]
  rw [eI, es] at E
  refine ⟨E, intervalIntegral.integral_nonneg le fun M hM => ?_⟩
  obtain ⟨F1, F2, F3, h⟩ := hF
  rw [← e M (G.pos.trans_le hM.1)]
  exact (h M hM).1.le

/-! ## errors of products -/

theorem product_error {x X y Y e d : ℝ} (hx : |x - X| ≤ e) (hy : |y - Y| ≤ d) :
    |x * y - X * Y| ≤ e * |Y| + d * |X| + e * d := by
  have h : x * y - X * Y = (x - X) * Y + X * (y - Y) + (x - X) * (y - Y) := by ring
  rw [h]
  have h1 : |(x - X) * Y| ≤ e * |Y| := by rw [abs_mul]; exact mul_le_mul_of_nonneg_right hx (abs_nonneg _)
  have h2 : |X * (y - Y)| ≤ d * |X| := by
    rw [abs_mul, mul_comm]; exact mul_le_mul_of_nonneg_right hy (abs_nonneg _)
  have h3 : |(x - X) * (y - Y)| ≤ e * d := by
    rw [abs_mul]; exact mul_le_mul hx hy (abs_nonneg _) ((abs_nonneg _).trans hx)
  calc _ ≤ |(x - X) * Y + X * (y - Y)| + |(x - X) * (y - Y)| := abs_add_le _ _
    _ ≤ |(x - X) * Y| + |X * (y - Y)| + |(x - X) * (y - Y)| := by linarith [abs_add_le ((x - X) * Y) (X * (y - Y))]
    _ ≤ _ := by linarith

/-! ## matter between halos -/

/-- what the halos look like as functions of the mass: mass function, bias, and the part of the mass of a halo that is not
seen at this wavenumber, `1 - u` -/
structure Halos (s : Spectra) (z k : ℕ) (n b w : ℝ → ℝ) : Prop where
  number : ∀ m < s.nm, s.dndlnm z m = n (s.mass m)
  bias : ∀ m < s.nm, s.haloBias z m = b (s.mass m)
  unseen : ∀ m < s.nm, 1 - s.uDm z k m = w (s.mass m)

/-- the part of the matter, weighted with bias, that is not seen: `∫ (M/ρ) (1 - u) b dn/dlnM dM/M` -/
noncomputable def unseenMatter (s : Spectra) (z : ℕ) (n b w : ℝ → ℝ) : ℝ :=
  ∫ M in s.mass 0..s.mass (s.nm - 1), M / s.meanDensity0 z * w M * b M * (n M / M)

/-- the factor of matter in the 2-halo terms is `1` minus the part not seen, up to the relative error of the rule on that part -/
theorem matter_factor {s : Spectra} {z k : ℕ} {n b w : ℝ → ℝ} {q : ℝ} {kn kb kw : Slopes} (G : Geometric s.nm s.mass q)
    (hnm : 3 ≤ s.nm) (H : Halos s z k n b w) (ρ0 : 0 < s.meanDensity0 z) (gn : Gradual n kn (s.mass 0) (s.mass (s.nm - 1)))
    (gb : Gradual b kb (s.mass 0) (s.mass (s.nm - 1))) (gw : Gradual w kw (s.mass 0) (s.mass (s.nm - 1))) :
    |(haloes s z k).bias1 ((haloes s z k).matter (s.uDm z k)) + (haloes s z k).missing - (1 - unseenMatter s z n b w)| ≤
      tolerance ((kw.mul kb).mul kn) q * unseenMatter s z n b w ∧ 0 ≤ unseenMatter s z n b w := by
  set ρ := s.meanDensity0 z with hρ
  have gF : Gradual (fun M => (1 / ρ) * (w M * b M * n M)) ((kw.mul kb).mul kn) (s.mass 0) (s.mass (s.nm - 1)) :=
    ((gw.mul gb).mul gn).const_mul (by positivity)
  have R := rule (y := fun m => s.mass m / ρ * (1 - s.uDm z k m) * s.haloBias z m * (s.dndlnm z m / s.mass m)) G hnm gF
    (f := fun M => M / ρ * w M * b M * (n M / M)) (fun M hM => by field_simp)
    (fun m hm => by rw [H.number m hm, H.bias m hm, H.unseen m hm])
  have e : (haloes s z k).bias1 ((haloes s z k).matter (s.uDm z k)) + (haloes s z k).missing = 1 -
      simpson s.nm s.mass (fun m => s.mass m / ρ * (1 - s.uDm z k m) * s.haloBias z m * (s.dndlnm z m / s.mass m)) := by
    simp only [HaloModel.bias1, HaloModel.matter, HaloModel.missing, haloes]
    have : simpson s.nm s.mass (fun m => s.mass m / ρ * s.haloBias z m * (s.dndlnm z m / s.mass m)) =
        simpson s.nm s.mass (fun m => s.mass m / ρ * s.uDm z k m * s.haloBias z m * (s.dndlnm z m / s.mass m)) +
        simpson s.nm s.mass (fun m => s.mass m / ρ * (1 - s.uDm z k m) * s.haloBias z m * (s.dndlnm z m / s.mass m)) := by
      rw [← simpson_add]
      exact congrArg _ (funext fun m => by ring)
    rw [this]
    ring
  refine ⟨?_, R.2⟩
  rw [e, sub_sub_sub_cancel_left, abs_sub_comm]
  exact R.1

/-- C148, matter between halos: the 2-halo term of the matter power is `P (1 - J)²` times the damping at small scales, where
`J = ∫ (M/ρ) (1 - u) b dn/dlnM dM/M` is the part of the biased matter that is not seen; the rule only errs on `J`, hence not at
all where halos are points. -/
theorem C148_matter_two_halo {s : Spectra} {z k : ℕ} {n b w : ℝ → ℝ} {q : ℝ} {kn kb kw : Slopes} (G : Geometric s.nm s.mass q)
    (hnm : 3 ≤ s.nm) (H : Halos s z k n b w) (ρ0 : 0 < s.meanDensity0 z) (gn : Gradual n kn (s.mass 0) (s.mass (s.nm - 1)))
    (gb : Gradual b kb (s.mass 0) (s.mass (s.nm - 1))) (gw : Gradual w kw (s.mass 0) (s.mass (s.nm - 1)))
    (hmode : s.nonlinearMode = .none ∨ s.nonlinearMode = .fortuna) (hresp : s.response = false)
    (hi : s.hmcodeIngredients = .none ∨ s.hmcodeIngredients = .mead2020) :
    let J := ∫ M in s.mass 0..s.mass (s.nm - 1), M / s.meanDensity0 z * w M * b M * (n M / M)
    let δ := tolerance ((kw.mul kb).mul kn) q * J
    ∃ r, s.powerSpectrumMm = .ok r ∧ ∀ t,
      |r.pk2h t z k - s.pkLin z k * (1 - J) ^ 2 * s.twoHaloTruncation k| ≤
        (2 * |1 - J| * δ + δ ^ 2) * |s.pkLin z k * s.twoHaloTruncation k| := by
  intro J δ
  have S : Sampled s := ⟨fun m hm => (G.point_pos m hm).ne', by omega⟩
  obtain ⟨r, h1, h2⟩ := C97_matter S hmode hresp hi
  refine ⟨r, h1, fun t => ?_⟩
  have F := (matter_factor G hnm H ρ0 gn gb gw).1
  change |_ - (1 - J)| ≤ δ at F
  rw [(h2 t z k).2]
  set x := (haloes s z k).bias1 ((haloes s z k).matter (s.uDm z k)) + (haloes s z k).missing
  have p := product_error F F
  have e : (haloes s z k).linear * x ^ 2 * s.twoHaloTruncation k - s.pkLin z k * (1 - J) ^ 2 * s.twoHaloTruncation k =
      (x * x - (1 - J) * (1 - J)) * (s.pkLin z k * s.twoHaloTruncation k) := by
    simp only [haloes]; ring
  rw [e, abs_mul]
  refine mul_le_mul_of_nonneg_right (p.trans (le_of_eq ?_)) (abs_nonneg _)
  ring

/-! ## galaxies -/

/-- what the galaxies look like as functions of the mass: occupation with centrals, and with satellites times their profile -/
structure Galaxies (s : Spectra) (t z k : ℕ) (Nc Ns P : ℝ → ℝ) : Prop where
  cen : ∀ m < s.nm, s.hodCen t z m = Nc (s.mass m)
  sat : ∀ m < s.nm, s.hodSat t z m * s.uSat z k m = Ns (s.mass m)
  pairs : ∀ m < s.nm, s.poissonFunc m = P (s.mass m)

/-- the slopes of the integrand of the galaxy bias -/
noncomputable def galaxySlopes (kc ks kb kn : Slopes) : Slopes := (((kc.sup ks).mul kb).mul kn).mul (Slopes.power (-1))

/-- the slopes of the integrand of the pairs of galaxies in one halo -/
noncomputable def pairSlopes (kc ks kP kn : Slopes) : Slopes :=
  (((kc.mul ks).sup (kP.mul (ks.mul ks))).mul kn).mul (Slopes.power (-1))

/-- the bias of the galaxies is `∫ (Nc + Ns u)/n̄ b dn/dlnM dM/M` up to the relative error of the rule -/
theorem galaxy_factor {s : Spectra} {t z k : ℕ} {n b Nc Ns P : ℝ → ℝ} {q : ℝ} {kn kb kc ks : Slopes}
    (G : Geometric s.nm s.mass q) (hnm : 3 ≤ s.nm) (hn : ∀ m < s.nm, s.dndlnm z m = n (s.mass m))
    (hb : ∀ m < s.nm, s.haloBias z m = b (s.mass m)) (H : Galaxies s t z k Nc Ns P) (n0 : 0 < s.numberDensity t z)
    (gn : Gradual n kn (s.mass 0) (s.mass (s.nm - 1))) (gb : Gradual b kb (s.mass 0) (s.mass (s.nm - 1)))
    (gc : Gradual Nc kc (s.mass 0) (s.mass (s.nm - 1))) (gs : Gradual Ns ks (s.mass 0) (s.mass (s.nm - 1))) :
    let B := ∫ M in s.mass 0..s.mass (s.nm - 1), (Nc M + Ns M) / s.numberDensity t z * b M * (n M / M)
    |(haloes s z k).bias1 (galaxyWeight s t z k) - B| ≤ tolerance (galaxySlopes kc ks kb kn) q * B ∧ 0 ≤ B := by
  intro B
  have gF : Gradual (fun M => (1 / s.numberDensity t z) * ((Nc M + Ns M) * b M * n M * M ^ (-1 : ℝ))) (galaxySlopes kc ks kb kn)
      (s.mass 0) (s.mass (s.nm - 1)) :=
    ((((gc.add gs).mul gb).mul gn).mul (Gradual.power (-1) G.pos)).const_mul (by positivity)
  have R := rule (y := fun m => galaxyWeight s t z k m * s.haloBias z m * (s.dndlnm z m / s.mass m)) G hnm gF
    (f := fun M => (Nc M + Ns M) / s.numberDensity t z * b M * (n M / M))
    (fun M hM => by rw [Real.rpow_neg_one]; field_simp)
    (fun m hm => by rw [galaxyWeight, HaloModel.galaxies, H.cen m hm, H.sat m hm, hn m hm, hb m hm])
  exact R

/-- C148, galaxies: the 1-halo term of the galaxy power is `∫ (2 Nc Ns u + P (Ns u)²)/n̄² dn/dlnM dM/M` and the 2-halo term is the
linear power times the square of the bias, each up to the relative error of the rule, with the damping of the code. -/
theorem C148_galaxies {s : Spectra} {t z k : ℕ} {n b Nc Ns P : ℝ → ℝ} {q : ℝ} {kn kb kc ks kP : Slopes}
    (G : Geometric s.nm s.mass q) (hnm : 3 ≤ s.nm) (hn : ∀ m < s.nm, s.dndlnm z m = n (s.mass m))
    (hb : ∀ m < s.nm, s.haloBias z m = b (s.mass m)) (H : Galaxies s t z k Nc Ns P) (ho : Occupied s t z)
    (n0 : 0 < s.numberDensity t z)
    (gn : Gradual n kn (s.mass 0) (s.mass (s.nm - 1))) (gb : Gradual b kb (s.mass 0) (s.mass (s.nm - 1)))
    (gc : Gradual Nc kc (s.mass 0) (s.mass (s.nm - 1))) (gs : Gradual Ns ks (s.mass 0) (s.mass (s.nm - 1)))
    (gP : Gradual P kP (s.mass 0) (s.mass (s.nm - 1))) (hmode : s.nonlinearMode ≠ .bnl) (hresp : s.response = false) :
    let I := ∫ M in s.mass 0..s.mass (s.nm - 1), (2 * Nc M * Ns M + P M * Ns M ^ 2) / s.numberDensity t z ^ 2 * (n M / M)
    let B := ∫ M in s.mass 0..s.mass (s.nm - 1), (Nc M + Ns M) / s.numberDensity t z * b M * (n M / M)
    let ε := tolerance (galaxySlopes kc ks kb kn) q
    ∃ r, s.powerSpectrumGg = .ok r ∧
      |r.pk1h t z k - I * s.oneHaloTruncation k| ≤ tolerance (pairSlopes kc ks kP kn) q * (I * |s.oneHaloTruncation k|) ∧
      |r.pk2h t z k - s.pkLin z k * B ^ 2 * s.twoHaloTruncation k| ≤
        (2 * ε + ε ^ 2) * (B ^ 2 * |s.pkLin z k * s.twoHaloTruncation k|) := by
  intro I B ε
  obtain ⟨r, h1, h2⟩ := C97_galaxies (s := s) hmode hresp
  obtain ⟨e1, e2⟩ := h2 t z k ho
  refine ⟨r, h1, ?_, ?_⟩
  · have gF : Gradual (fun M => (1 / s.numberDensity t z ^ 2) * ((2 * (Nc M * Ns M) + P M * (Ns M * Ns M)) * n M * M ^ (-1 : ℝ)))
        (pairSlopes kc ks kP kn) (s.mass 0) (s.mass (s.nm - 1)) :=
      (((((gc.mul gs).const_mul two_pos).add (gP.mul (gs.mul gs))).mul gn).mul (Gradual.power (-1) G.pos)).const_mul
        (by positivity)
    have R := rule (y := fun m => (2 * s.hodCen t z m * s.hodSat t z m * s.uSat z k m
          + s.poissonFunc m * (s.hodSat t z m * s.uSat z k m) ^ 2) / s.numberDensity t z ^ 2 * (s.dndlnm z m / s.mass m)) G hnm gF
      (f := fun M => (2 * Nc M * Ns M + P M * Ns M ^ 2) / s.numberDensity t z ^ 2 * (n M / M))
      (fun M hM => by rw [Real.rpow_neg_one]; field_simp)
      (fun m hm => by rw [mul_assoc (2 * s.hodCen t z m), H.cen m hm, H.sat m hm, H.pairs m hm, hn m hm])
    rw [e1, ← sub_mul, abs_mul, ← mul_assoc]
    exact mul_le_mul_of_nonneg_right R.1 (abs_nonneg _)
  · obtain ⟨F, B0⟩ := galaxy_factor G hnm hn hb H n0 gn gb gc gs
    change |_ - B| ≤ ε * B at F
    change 0 ≤ B at B0
    rw [e2]
    set x := (haloes s z k).bias1 (galaxyWeight s t z k)
    have p := product_error F F
    have e : (haloes s z k).linear * x ^ 2 * s.twoHaloTruncation k - s.pkLin z k * B ^ 2 * s.twoHaloTruncation k =
        (x * x - B * B) * (s.pkLin z k * s.twoHaloTruncation k) := by
      simp only [haloes]; ring
    rw [e, abs_mul, ← mul_assoc]
    refine mul_le_mul_of_nonneg_right (p.trans (le_of_eq ?_)) (abs_nonneg _)
    rw [abs_of_nonneg B0]; ring

/-- C148, galaxies and matter: the 1-halo term is `∫ (Nc + Ns u)/n̄ (M u/ρ) dn/dlnM dM/M`, the 2-halo term the linear power times
the bias times the factor of matter, up to the relative errors of the rules. -/
theorem C148_galaxies_matter {s : Spectra} {t z k : ℕ} {n b w u Nc Ns P : ℝ → ℝ} {q : ℝ} {kn kb kw ku kc ks : Slopes}
    (G : Geometric s.nm s.mass q) (hnm : 3 ≤ s.nm) (L : Halos s z k n b w) (hu : ∀ m < s.nm, s.uDm z k m = u (s.mass m))
    (H : Galaxies s t z k Nc Ns P) (ho : Occupied s t z) (n0 : 0 < s.numberDensity t z) (ρ0 : 0 < s.meanDensity0 z)
    (gn : Gradual n kn (s.mass 0) (s.mass (s.nm - 1))) (gb : Gradual b kb (s.mass 0) (s.mass (s.nm - 1)))
    (gw : Gradual w kw (s.mass 0) (s.mass (s.nm - 1))) (gu : Gradual u ku (s.mass 0) (s.mass (s.nm - 1)))
    (gc : Gradual Nc kc (s.mass 0) (s.mass (s.nm - 1))) (gs : Gradual Ns ks (s.mass 0) (s.mass (s.nm - 1)))
    (hmode : s.nonlinearMode ≠ .bnl) (hresp : s.response = false)
    (hi : s.hmcodeIngredients = .mead2020 ∨ (s.hmcodeIngredients = .none ∧ s.pointmass = false)) :
    let I := ∫ M in s.mass 0..s.mass (s.nm - 1), (Nc M + Ns M) / s.numberDensity t z * (M / s.meanDensity0 z * u M) * (n M / M)
    let B := ∫ M in s.mass 0..s.mass (s.nm - 1), (Nc M + Ns M) / s.numberDensity t z * b M * (n M / M)
    let J := ∫ M in s.mass 0..s.mass (s.nm - 1), M / s.meanDensity0 z * w M * b M * (n M / M)
    let ε := tolerance (galaxySlopes kc ks kb kn) q
    let δ := tolerance ((kw.mul kb).mul kn) q * J
    ∃ r, s.powerSpectrumGm = .ok r ∧
      |r.pk1h t z k - I * s.oneHaloTruncation k| ≤
        tolerance (((kc.sup ks).mul ku).mul kn) q * (I * |s.oneHaloTruncation k|) ∧
      |r.pk2h t z k - s.pkLin z k * B * (1 - J) * s.twoHaloTruncation k| ≤
        (ε * |1 - J| + (1 + ε) * δ) * (B * |s.pkLin z k * s.twoHaloTruncation k|) := by
  intro I B J ε δ
  have S : Sampled s := ⟨fun m hm => (G.point_pos m hm).ne', by omega⟩
  obtain ⟨r, h1, h2⟩ := C97_galaxies_matter (s := s) S hmode hresp
  obtain ⟨e1, e2⟩ := h2 t z k ho
  refine ⟨r, h1, ?_, ?_⟩
  · rw [C97_plain_weight hi] at e1
    have gF : Gradual (fun M => (1 / (s.numberDensity t z * s.meanDensity0 z)) * ((Nc M + Ns M) * u M * n M))
        (((kc.sup ks).mul ku).mul kn) (s.mass 0) (s.mass (s.nm - 1)) :=
      (((gc.add gs).mul gu).mul gn).const_mul (by positivity)
    have R := rule (y := fun m => galaxyWeight s t z k m * (haloes s z k).matter (s.uDm z k) m * (haloes s z k).number m) G hnm gF
      (f := fun M => (Nc M + Ns M) / s.numberDensity t z * (M / s.meanDensity0 z * u M) * (n M / M))
      (fun M hM => by field_simp)
      (fun m hm => by
        simp only [galaxyWeight, HaloModel.galaxies, HaloModel.matter, haloes]
        rw [H.cen m hm, H.sat m hm, L.number m hm, hu m hm])
    rw [e1, ← sub_mul, abs_mul, ← mul_assoc]
    exact mul_le_mul_of_nonneg_right R.1 (abs_nonneg _)
  · obtain ⟨F, B0⟩ := galaxy_factor G hnm L.number L.bias H n0 gn gb gc gs
    change |_ - B| ≤ ε * B at F
    change 0 ≤ B at B0
    have M := (matter_factor G hnm L ρ0 gn gb gw).1
    change |_ - (1 - J)| ≤ δ at M
    rw [e2]
    set x := (haloes s z k).bias1 (galaxyWeight s t z k)
    set y := (haloes s z k).bias1 ((haloes s z k).matter (s.uDm z k)) + (haloes s z k).missing
    have p := product_error F M
    have e : (haloes s z k).linear * x * y * s.twoHaloTruncation k - s.pkLin z k * B * (1 - J) * s.twoHaloTruncation k =
        (x * y - B * (1 - J)) * (s.pkLin z k * s.twoHaloTruncation k) := by
      simp only [haloes]; ring
    rw [e, abs_mul, ← mul_assoc]
    refine mul_le_mul_of_nonneg_right (p.trans (le_of_eq ?_)) (abs_nonneg _)
    rw [abs_of_nonneg B0]; ring

/-! ## concrete cases -/

/-- a hundred and forty masses; the part of a halo that is not seen grows with its mass, from 8 % to 40 % -/
noncomputable def blurred : Spectra :=
  { steep with
    haloBias := fun _ m => massGrid 9 (1 / 20) m ^ (1 / 10 : ℝ)
    uDm := fun _ _ m => 1 - 1 / 100 * massGrid 9 (1 / 20) m ^ (1 / 10 : ℝ) }

theorem blurred_grid : Geometric blurred.nm blurred.mass ((10 : ℝ) ^ (1 / 20 : ℝ)) :=
  massGrid_geometric 9 (1 / 20) _ (by norm_num) step_small

theorem blurred_points : 3 ≤ blurred.nm := by
  change 3 ≤ arangeLen 9 16 (1 / 20); rw [points]; norm_num

theorem power_gradual (α : ℝ) : Gradual (fun M => M ^ α) (Slopes.power α) (blurred.mass 0) (blurred.mass (blurred.nm - 1)) :=
  Gradual.power _ (massGrid_pos 9 (1 / 20) 0)

example : let s := blurred
    let J := ∫ M in s.mass 0..s.mass (s.nm - 1), M / s.meanDensity0 0 * (1 / 100 * M ^ (1 / 10 : ℝ)) * M ^ (1 / 10 : ℝ) *
      (M ^ (-9 / 10 : ℝ) / M)
    let δ := tolerance (((Slopes.power (1 / 10)).mul (Slopes.power (1 / 10))).mul (Slopes.power (-9 / 10))) (10 ^ (1 / 20 : ℝ)) * J
    ∃ r, s.powerSpectrumMm = .ok r ∧ ∀ t,
      |r.pk2h t 0 0 - s.pkLin 0 0 * (1 - J) ^ 2 * s.twoHaloTruncation 0| ≤
        (2 * |1 - J| * δ + δ ^ 2) * |s.pkLin 0 0 * s.twoHaloTruncation 0| :=
  C148_matter_two_halo (s := blurred) (z := 0) (k := 0) blurred_grid blurred_points
    ⟨fun _ _ => rfl, fun _ _ => rfl, fun _ _ => sub_sub_cancel _ _⟩ (by simp [blurred, steep, fineDemo, Pk.demo]) (power_gradual _)
    (power_gradual _) ((power_gradual _).const_mul (by norm_num)) (Or.inl rfl) rfl (Or.inl rfl)

/-- with galaxies: one central per halo, satellites in proportion to a power of the mass, half of each halo not seen -/
noncomputable def populated : Spectra :=
  { blurred with
    uDm := fun _ _ _ => 1 / 2, uSat := fun _ _ _ => 1 / 2, hodSat := fun _ _ m => massGrid 9 (1 / 20) m ^ (9 / 10 : ℝ) }

theorem populated_galaxies : Galaxies populated 0 0 0 (fun _ => 1) (fun M => 1 / 2 * M ^ (9 / 10 : ℝ)) (fun _ => 1) :=
  ⟨fun _ _ => rfl, fun m _ => mul_comm (massGrid 9 (1 / 20) m ^ (9 / 10 : ℝ)) (1 / 2), fun _ _ => rfl⟩

theorem populated_occupied : Occupied populated 0 0 := by
  constructor <;> simp [populated, blurred, steep, fineDemo, Pk.demo]

theorem half_gradual {a b : ℝ} : Gradual (fun _ => (1 / 2 : ℝ)) ⟨0, 0, 0⟩ a b := by
  simpa using (one_gradual (a := a) (b := b)).const_mul (c := 1 / 2) (by norm_num)

example : let s := populated
    let B := ∫ M in s.mass 0..s.mass (s.nm - 1), (1 + 1 / 2 * M ^ (9 / 10 : ℝ)) / s.numberDensity 0 0 * M ^ (1 / 10 : ℝ) *
      (M ^ (-9 / 10 : ℝ) / M)
    let ε := tolerance (galaxySlopes ⟨0, 0, 0⟩ (Slopes.power (9 / 10)) (Slopes.power (1 / 10)) (Slopes.power (-9 / 10)))
      (10 ^ (1 / 20 : ℝ))
    ∃ r, s.powerSpectrumGg = .ok r ∧
      |r.pk2h 0 0 0 - s.pkLin 0 0 * B ^ 2 * s.twoHaloTruncation 0| ≤
        (2 * ε + ε ^ 2) * (B ^ 2 * |s.pkLin 0 0 * s.twoHaloTruncation 0|) := by
  intro s B ε
  obtain ⟨r, h1, -, h2⟩ := C148_galaxies (s := populated) (t := 0) (z := 0) (k := 0) (b := fun M => M ^ (1 / 10 : ℝ)) blurred_grid blurred_points
    (fun _ _ => rfl) (fun _ _ => rfl) populated_galaxies populated_occupied (by simp [populated, blurred, steep, fineDemo, Pk.demo])
    (power_gradual (-9 / 10)) (power_gradual _) one_gradual ((power_gradual _).const_mul (by norm_num)) one_gradual
    (by simp [populated, blurred, steep, fineDemo]) rfl
  exact ⟨r, h1, h2⟩

example : ∃ r, populated.powerSpectrumGm = .ok r ∧
    let I := ∫ M in populated.mass 0..populated.mass (populated.nm - 1), (1 + 1 / 2 * M ^ (9 / 10 : ℝ)) / populated.numberDensity 0 0 *
      (M / populated.meanDensity0 0 * (1 / 2)) * (M ^ (-9 / 10 : ℝ) / M)
    |r.pk1h 0 0 0 - I * populated.oneHaloTruncation 0| ≤
      tolerance ((((⟨0, 0, 0⟩ : Slopes).sup (Slopes.power (9 / 10))).mul ⟨0, 0, 0⟩).mul (Slopes.power (-9 / 10))) (10 ^ (1 / 20 : ℝ)) *
        (I * |populated.oneHaloTruncation 0|) := by
  obtain ⟨r, h1, h2, -⟩ := C148_galaxies_matter (s := populated) (t := 0) (z := 0) (k := 0) (b := fun M => M ^ (1 / 10 : ℝ)) blurred_grid
    blurred_points ⟨fun _ _ => rfl, fun _ _ => rfl, fun _ _ => by change (1 : ℝ) - 1 / 2 = 1 / 2; norm_num⟩ (fun _ _ => rfl) populated_galaxies
    populated_occupied (by simp [populated, blurred, steep, fineDemo, Pk.demo]) (by simp [populated, blurred, steep, fineDemo, Pk.demo])
    (power_gradual (-9 / 10)) (power_gradual _) half_gradual half_gradual one_gradual ((power_gradual _).const_mul (by norm_num))
    (by simp [populated, blurred, steep, fineDemo]) rfl (Or.inr ⟨rfl, rfl⟩)
  exact ⟨r, h1, h2⟩

end Verif.Accuracy

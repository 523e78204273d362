import Verif.Model.Hod
import Verif.Lemmas.Simpson
import Verif.Lemmas.Interp

/-! Properties C33, C34 (fractions), C42, C44, C45: occupation model, base class. -/

namespace Verif.Hod

open Verif.Lib Verif.Spec Base

/-- a concrete occupation model used in the examples: two spectra redshifts 0 and 1, two sample redshifts
0 and 1/2, masses 1, 2, 3 -/
noncomputable def demo : Base where
  nzv := 2
  zVec := fun i => i
  nm := 3
  mass := fun m => (m : ℝ) + 1
  dndlnm := fun i m => ((m : ℝ) + 1) * (i + 1)
  haloBias := fun i m => (m : ℝ) + i + 1
  nz := 2
  z := fun _ j => (j : ℝ) / 2
  occCen := fun _ _ m => if m = 0 then 0 else 1
  occSat := fun _ j m => (m : ℝ) + j

theorem demo_simpson (y : ℕ → ℝ) : simpson demo.nm demo.mass y = (y 0 + 4 * y 1 + y 2) / 3 := by
  simp only [demo, simpson, basicSimpson, simpsonPanel]
  norm_num
  ring

theorem demo_sorted : SortedOn demo.nz (demo.z 0) ∧ SortedOn demo.nzv demo.zVec := by
  constructor <;> refine sortedOn_of_step fun i _ => ?_ <;> simp only [demo] <;> push_cast <;> linarith

theorem demo_dndlnmInt (j m : ℕ) : demo.dndlnmInt 0 j m = ((m : ℝ) + 1) * (j / 2 + 1) := by
  have h := interpLinear_affine (n := demo.nzv) (by decide) demo_sorted.2 ((m : ℝ) + 1) ((m : ℝ) + 1)
    ((j : ℝ) / 2)
  unfold dndlnmInt interp1d
  rw [show (fun i => demo.dndlnm i m) = fun i => ((m : ℝ) + 1) + ((m : ℝ) + 1) * demo.zVec i by
    funext i; simp only [demo]; ring]
  change interpLinear demo.nzv demo.zVec _ ((j : ℝ) / 2) = _
  rw [h]; ring

theorem demo_ntot (j : ℕ) : 0 < demo.ntot 0 j ∧ 0 < demo.ncen 0 j ∧ 0 < demo.nsat 0 j := by
  refine ⟨?_, ?_, ?_⟩ <;>
  · simp only [ntot, ncen, nsat, massIntegral]
    rw [demo_simpson]
    simp only [demo_dndlnmInt, occ]
    simp only [demo]
    norm_num
    positivity

/-! ## C33 -/

theorem massIntegral_add (h : Base) (b j : ℕ) : h.ntot b j = h.ncen b j + h.nsat b j := by
  unfold ntot ncen nsat massIntegral
  rw [← simpson_add]
  congr 1; funext m; unfold occ; ring

theorem meanMass_add (h : Base) (b j : ℕ) :
    h.meanMassIntegral h.occ b j = h.meanMassIntegral h.occCen b j + h.meanMassIntegral h.occSat b j := by
  unfold meanMassIntegral
  rw [← simpson_add]
  congr 1; funext m; unfold occ; ring

theorem biasIntegral_add (h : Base) (b j : ℕ) :
    h.biasIntegral h.occ b j = h.biasIntegral h.occCen b j + h.biasIntegral h.occSat b j := by
  unfold biasIntegral
  rw [← add_div, ← simpson_add]
  congr 2; funext m; unfold occ; ring

theorem interpolate_add (h : Base) (f g : ℕ → ℕ → ℝ) (b i : ℕ) :
    h.interpolate .extrapolate (fun b j => f b j + g b j) b i
      = h.interpolate .extrapolate f b i + h.interpolate .extrapolate g b i := interp1d_add ..

theorem interpolate_zero_add (h : Base) (f g : ℕ → ℕ → ℝ) (b i : ℕ) :
    h.interpolate (.value 0) (fun b j => f b j + g b j) b i
      = h.interpolate (.value 0) f b i + h.interpolate (.value 0) g b i := by
  have := interp1d_fill_add 0 0 h.nz (h.z b) (f b) (g b) (h.zVec i)
  rw [add_zero] at this
  exact this

/-- C33: every count reported by the occupation model is the sum of its central and satellite parts, at
every bin, redshift (also extrapolated ones) and mass. -/
theorem C33_counts_split (h : Base) (b i : ℕ) :
    h.numberDensity b i = h.numberDensityCen b i + h.numberDensitySat b i ∧
      h.galaxyLinearBias b i = h.galaxyLinearBiasCen b i + h.galaxyLinearBiasSat b i ∧
      h.avgHaloMass b i = h.avgHaloMassCen b i + h.avgHaloMassSat b i ∧
      ∀ m, h.hod b i m = h.hodCen b i m + h.hodSat b i m := by
  refine ⟨?_, ?_, ?_, fun m => ?_⟩
  · unfold numberDensity numberDensityCen numberDensitySat
    rw [← interpolate_add]
    congr 1; funext b j; exact massIntegral_add h b j
  · unfold galaxyLinearBias galaxyLinearBiasCen galaxyLinearBiasSat
    rw [← interpolate_add]
    congr 1; funext b j; exact biasIntegral_add h b j
  · unfold avgHaloMass avgHaloMassCen avgHaloMassSat
    rw [← interpolate_zero_add]
    congr 1; funext b j; exact meanMass_add h b j
  · unfold hod hodCen hodSat interpolateMass
    rw [← interpolate_add]
    rfl

/-- C33: the reported linear bias is the number-weighted mean halo bias: at a node where all halos that
host galaxies have the same bias, that bias is returned. -/
theorem C33_bias_is_mean (h : Base) (b j : ℕ) (β : ℝ) (hβ : ∀ m < h.nm, h.haloBiasInt b j m = β)
    (hn : h.ntot b j ≠ 0) : h.biasIntegral h.occ b j = β := by
  have e : simpson h.nm h.mass
      (fun m => h.occ b j m * h.haloBiasInt b j m * h.dndlnmInt b j m / h.mass m) = β * h.ntot b j := by
    unfold ntot massIntegral
    rw [← simpson_smul]
    exact simpson_congr_right fun m hm => by rw [hβ m hm]; ring
  unfold biasIntegral
  rw [e, mul_div_cancel_right₀ _ hn]

example : demo.numberDensityCen 0 0 ≠ 0 ∧ demo.numberDensitySat 0 0 ≠ 0 := by
  have e : demo.zVec 0 = demo.z 0 0 := by simp [demo]
  unfold numberDensityCen numberDensitySat interpolate
  rw [e, interp1d_node (by decide) demo_sorted.1 _ _ (by decide),
    interp1d_node (by decide) demo_sorted.1 _ _ (by decide)]
  exact ⟨(demo_ntot 0).2.1.ne', (demo_ntot 0).2.2.ne'⟩

/-! ## C34 -/

/-- C34: inside the redshift range of the sample the two fractions add up to one. -/
theorem C34_fractions_inside (h : Base) (b i : ℕ) (hnz : 2 ≤ h.nz) (hz : SortedOn h.nz (h.z b))
    (hn : ∀ j < h.nz, h.ntot b j ≠ 0) (h0 : h.z b 0 ≤ h.zVec i) (h1 : h.zVec i ≤ h.z b (h.nz - 1)) :
    h.fC b i + h.fS b i = 1 := by
  unfold fC fS interpolate
  rw [interp1d_inside h0 h1, interp1d_inside h0 h1, ← interpLinear_add,
    interpLinear_congr hnz (z := fun _ => 1), interpLinear_const hnz hz]
  intro j hj
  have := hn j hj
  rw [← add_div, ← massIntegral_add, div_self this]

/-- C34: with non-negative number densities each fraction is in `[0, 1]` there. -/
theorem C34_fractions_range (h : Base) (b i : ℕ) (hnz : 2 ≤ h.nz) (hz : SortedOn h.nz (h.z b))
    (hn : ∀ j < h.nz, 0 < h.ntot b j) (hc : ∀ j < h.nz, 0 ≤ h.ncen b j)
    (hs : ∀ j < h.nz, 0 ≤ h.nsat b j) (h0 : h.z b 0 ≤ h.zVec i) (h1 : h.zVec i ≤ h.z b (h.nz - 1)) :
    (0 ≤ h.fC b i ∧ h.fC b i ≤ 1) ∧ (0 ≤ h.fS b i ∧ h.fS b i ≤ 1) := by
  unfold fC fS interpolate
  rw [interp1d_inside h0 h1, interp1d_inside h0 h1]
  refine ⟨interpLinear_mem_Icc hnz hz h0 h1 fun j hj => ⟨div_nonneg (hc j hj) (hn j hj).le, ?_⟩,
    interpLinear_mem_Icc hnz hz h0 h1 fun j hj => ⟨div_nonneg (hs j hj) (hn j hj).le, ?_⟩⟩
  · rw [div_le_one (hn j hj), massIntegral_add]; linarith [hs j hj]
  · rw [div_le_one (hn j hj), massIntegral_add]; linarith [hc j hj]

/-- C34: outside that range both fractions are zero. -/
theorem C34_fractions_outside (h : Base) (b i : ℕ)
    (ho : h.zVec i < h.z b 0 ∨ h.z b (h.nz - 1) < h.zVec i) : h.fC b i = 0 ∧ h.fS b i = 0 := by
  unfold fC fS interpolate interp1d
  simp [ho]

example : 2 ≤ demo.nz ∧ SortedOn demo.nz (demo.z 0) ∧ (∀ j < demo.nz, 0 < demo.ntot 0 j) ∧
    demo.z 0 0 ≤ demo.zVec 0 ∧ demo.zVec 0 ≤ demo.z 0 (demo.nz - 1) ∧
    demo.z 0 (demo.nz - 1) < demo.zVec 1 := by
  refine ⟨by decide, demo_sorted.1, fun j _ => (demo_ntot j).1, ?_, ?_, ?_⟩ <;> simp [demo]; norm_num

/-! ## C42

`rows` is the number of rows of the occupation: the number of observable bins for the Cacciato model
(`nbins`), the number of parameter values given for the other models. -/

/-- C42: interpolated occupations have one row per `(zmin, zmax)` pair: with fewer redshift bins than
observable bins the rest is dropped without an error, with more an `IndexError` is raised. -/
theorem C42_hod_rows (zmin zmax : List ℝ) (rows : ℕ) :
    (min zmin.length zmax.length ≤ rows →
      hodRows zmin zmax rows = .ok (min zmin.length zmax.length)) ∧
    (rows < min zmin.length zmax.length →
      hodRows zmin zmax rows = .error .indexError) := by
  unfold hodRows interpolateRows zRows
  rw [List.length_zip]
  exact ⟨fun h => if_pos h, fun h => if_neg (not_le.2 h)⟩

/-- C42: with as many redshift bins as observable bins all bins are returned. -/
theorem C42_all_bins_iff (zmin zmax : List ℝ) (rows : ℕ) :
    hodRows zmin zmax rows = .ok (rows) ↔
      min zmin.length zmax.length = rows := by
  rcases lt_or_ge (rows) (min zmin.length zmax.length) with h | h
  · rw [(C42_hod_rows zmin zmax rows).2 h]
    simp; omega
  · rw [(C42_hod_rows zmin zmax rows).1 h]
    simp

/-- C42: number densities and biases additionally need the bin counts to broadcast: they are returned for
all bins if the counts agree, for the single redshift bin only if there is one, and otherwise numpy raises
`ValueError` (unless there is a single observable bin, which is used for all redshift bins). -/
theorem C42_density_rows (zmin zmax : List ℝ) (rows : ℕ) :
    let Z := min zmin.length zmax.length
    let n := rows
    (Z = n → densityRows zmin zmax n = .ok n) ∧
    (Z = 1 → 1 < n → densityRows zmin zmax n = .ok 1) ∧
    (n = 1 → densityRows zmin zmax n = .ok Z) ∧
    (Z ≠ n → Z ≠ 1 → n ≠ 1 → densityRows zmin zmax n = .error .valueError) := by
  intro Z n
  have hl : (zRows zmin zmax).length = Z := by unfold zRows; rw [List.length_zip]
  have hi : ∀ r, Z ≤ r → interpolateRows zmin zmax r = .ok Z := by
    intro r h; unfold interpolateRows; rw [hl, if_pos h]
  unfold densityRows
  rw [hl]
  refine ⟨fun h => ?_, fun h h' => ?_, fun h => ?_, fun h1 h2 h3 => ?_⟩
  · rw [h]; unfold broadcast; rw [if_pos rfl]
    change interpolateRows zmin zmax n = _
    rw [hi n h.le, h]
  · unfold broadcast
    rw [if_neg (by omega), if_neg (by omega), if_pos h]
    change interpolateRows zmin zmax n = _
    rw [hi n (by omega), h]
  · have hb : broadcast n Z = .ok Z := by
      unfold broadcast
      by_cases hz : n = Z
      · rw [if_pos hz, hz]
      · rw [if_neg hz, if_pos h]
    rw [hb]
    change interpolateRows zmin zmax Z = _
    rw [hi Z le_rfl]
  · unfold broadcast
    rw [if_neg (fun h => h1 h.symm), if_neg h3, if_neg h2]
    rfl

/-- C42: a user who gives three observable bins and one redshift bin gets one result. -/
example : densityRows [0] [0.2] (nbins [8, 9, 10]) = .ok 1 ∧ hodRows [0] [0.2] (nbins [8, 9, 10]) = .ok 1 :=
  ⟨(C42_density_rows [0] [0.2] 3).2.1 rfl (by decide), (C42_hod_rows [0] [0.2] 3).1 (by decide)⟩

/-! ## C45 -/

/-- C45: observable functions split, also in units per dex. -/
theorem C45_obs_func_split (p : CacciatoParams) (nm : ℕ) (mass n : ℕ → ℝ) (O : ℝ) :
    p.obsFunc nm mass n O = p.obsFuncCen nm mass n O + p.obsFuncSat nm mass n O ∧
      perDex O (p.obsFunc nm mass n O)
        = perDex O (p.obsFuncCen nm mass n O) + perDex O (p.obsFuncSat nm mass n O) := by
  have e : p.obsFunc nm mass n O = p.obsFuncCen nm mass n O + p.obsFuncSat nm mass n O := by
    unfold CacciatoParams.obsFunc CacciatoParams.obsFuncCen CacciatoParams.obsFuncSat
    rw [← simpson_add]
    congr 1; funext m; unfold CacciatoParams.cof; ring
  exact ⟨e, by unfold perDex; rw [e]; ring⟩

theorem stellar_add (p : CacciatoParams) (nobs : ℕ) (obs : ℕ → ℝ) (M : ℝ) :
    p.stellar nobs obs M = p.stellarCen nobs obs M + p.stellarSat nobs obs M := by
  unfold CacciatoParams.stellar CacciatoParams.stellarCen CacciatoParams.stellarSat
  rw [← add_div, ← simpson_add]
  congr 2; funext o; unfold CacciatoParams.cof; ring

/-- C45: stellar fractions split at every bin, redshift and mass, in both unit choices. -/
theorem C45_stellar_fraction_split (h : Base) (p : CacciatoParams) (nobs : ℕ) (obs : ℕ → ℕ → ℕ → ℝ)
    (unit : String) (littleH : ℝ) (b i m : ℕ) (_hm : ∀ m < h.nm, h.mass m ≠ 0) :
    h.stellarFraction (some fun b j m => p.stellar nobs (obs b j) (h.mass m)) unit littleH b i m
      = h.stellarFraction (some fun b j m => p.stellarCen nobs (obs b j) (h.mass m)) unit littleH b i m
        + h.stellarFraction (some fun b j m => p.stellarSat nobs (obs b j) (h.mass m)) unit littleH b i m := by
  have e : h.interpolateMass (fun b j m => p.stellar nobs (obs b j) (h.mass m)) b i m
      = h.interpolateMass (fun b j m => p.stellarCen nobs (obs b j) (h.mass m)) b i m
        + h.interpolateMass (fun b j m => p.stellarSat nobs (obs b j) (h.mass m)) b i m := by
    unfold interpolateMass
    rw [← interpolate_add]
    congr 1; funext b j; exact stellar_add p nobs (obs b j) (h.mass m)
  unfold stellarFraction
  by_cases hu : unit = "1/h^2"
  · simp only [hu, if_true, e]; ring
  · simp only [hu, if_false, e]

/-- C45: models without observables have no stellar fraction; the unit '1/h^2' multiplies by `h`. -/
theorem C45_units (h : Base) (f : ℕ → ℕ → ℕ → ℝ) (littleH : ℝ) (b i m : ℕ) :
    (∀ unit, h.stellarFraction none unit littleH b i m = 0) ∧
      h.stellarFraction (some f) "1/h^2" littleH b i m
        = littleH * h.stellarFraction (some f) "1/h" littleH b i m := by
  refine ⟨fun _ => rfl, ?_⟩
  unfold stellarFraction
  simp only [if_true, show ("1/h" = "1/h^2") = False by decide, if_false]
  ring

example : ∀ m < demo.nm, demo.mass m ≠ 0 := fun m _ => by simp only [demo]; positivity

end Verif.Hod

/-! ## C44 -/

namespace Verif.Poisson

open Verif.Lib

/-- C44: the constant model is the power law with slope 0. -/
theorem C44_constant_is_slope_zero (P M0 M : ℝ) (_hM : 0 < M) :
    powerLaw P (some M0) (some 0) M = .ok (constant P M) := by
  simp [powerLaw, constant]

/-- C44: value at the pivot, scale-freeness. -/
theorem C44_power_law (P M0 a M t : ℝ) (hM : 0 < M) (ht : 0 < t) :
    powerLaw P (some M0) (some a) ((10 : ℝ) ^ M0) = .ok P ∧
      ∃ v w, powerLaw P (some M0) (some a) M = .ok v ∧ powerLaw P (some M0) (some a) (t * M) = .ok w ∧
        w = t ^ a * v := by
  constructor
  · simp only [powerLaw]
    rw [div_self (by positivity), Real.one_rpow, mul_one]
  · refine ⟨_, _, rfl, rfl, ?_⟩
    rw [mul_div_assoc, Real.mul_rpow ht.le (by positivity)]
    ring

/-- C44: `ValueError` exactly when pivot or slope is missing. -/
theorem C44_error_iff (P M : ℝ) (pivot slope : Option ℝ) :
    (powerLaw P pivot slope M = .error .valueError ↔ pivot = none ∨ slope = none) ∧
      ((∃ v, powerLaw P pivot slope M = .ok v) ↔ pivot ≠ none ∧ slope ≠ none) := by
  cases pivot <;> cases slope <;> simp [powerLaw]

example : ∃ v, powerLaw 1 (some 13) (some 2) 1e14 = .ok v := ⟨_, rfl⟩

end Verif.Poisson

import Verif.Props.HodSpectra

/-! Property C101: the mean halo mass of the occupation model and its use in the alignment profiles. -/

namespace Verif.Hod

open Verif.Lib Verif.Spec Base

/-- C101: the mean mass integral over the number density is a mean of halo masses: it lies between the smallest and the
largest mass of the grid -/
theorem C101_mean_mass_range (h : Base) (N : ℕ → ℕ → ℕ → ℝ) (b j : ℕ) (g : GentleGrid h.nm h.mass)
    (hm : ∀ m < h.nm, 0 < h.mass m) (hN : ∀ m < h.nm, 0 ≤ N b j m * h.dndlnmInt b j m)
    (h0 : 0 < h.massIntegral N b j) :
    h.mass 0 ≤ h.meanMassIntegral N b j / h.massIntegral N b j ∧
      h.meanMassIntegral N b j / h.massIntegral N b j ≤ h.mass (h.nm - 1) := by
  have hs : SortedOn h.nm h.mass := sortedOn_of_step fun i hi => by linarith [g.step_pos i hi]
  have hle : ∀ m k, m ≤ k → k < h.nm → h.mass m ≤ h.mass k := by
    intro m k hmk hk
    rcases hmk.lt_or_eq with hlt | rfl
    · exact (hs m k hlt hk).le
    · exact le_rfl
  rw [le_div_iff₀ h0, div_le_iff₀ h0]
  unfold massIntegral meanMassIntegral
  rw [← simpson_smul, ← simpson_smul]
  constructor
  · refine simpson_mono g fun m hm' => ?_
    rw [mul_div_assoc', div_le_iff₀ (hm m hm'), mul_comm]
    exact mul_le_mul_of_nonneg_left (hle 0 m (Nat.zero_le _) hm') (hN m hm')
  · refine simpson_mono g fun m hm' => ?_
    rw [mul_div_assoc', le_div_iff₀ (hm m hm'), mul_comm (h.mass (h.nm - 1))]
    exact mul_le_mul_of_nonneg_left (hle m (h.nm - 1) (by omega) (by omega)) (hN m hm')

/-- C101: halos of one mass have that mean mass -/
theorem C101_one_mass (h : Base) (N : ℕ → ℕ → ℕ → ℝ) (b j k : ℕ) (hm : ∀ m < h.nm, h.mass m ≠ 0)
    (hN : ∀ m < h.nm, m ≠ k → N b j m = 0) (h0 : h.massIntegral N b j ≠ 0) :
    h.meanMassIntegral N b j / h.massIntegral N b j = h.mass k := by
  rw [div_eq_iff h0]
  unfold massIntegral meanMassIntegral
  rw [← simpson_smul]
  refine simpson_congr_right fun m hm' => ?_
  by_cases e : m = k
  · subst e; field_simp [hm m hm']
  · rw [hN m hm' e]; simp

theorem interpolate_smul (h : Base) (fill : ℝ) (hf : fill = 0) (c : ℝ) (f : ℕ → ℕ → ℝ) (b i : ℕ) :
    h.interpolate (.value fill) (fun b j => c * f b j) b i = c * h.interpolate (.value fill) f b i := by
  subst hf
  unfold interpolate interp1d
  simp only
  split_ifs
  · simp
  · unfold interpLinear; ring

/-- C101: what the occupation model reports as average halo mass is not normalised: with `c` times the occupation of every
halo the reported mass is `c` times larger, although the halos hosting the galaxies are the same -/
theorem C101_not_normalised (h : Base) (c : ℝ) (b i : ℕ) :
    let h' := { h with occCen := fun b j m => c * h.occCen b j m, occSat := fun b j m => c * h.occSat b j m }
    h'.avgHaloMass b i = c * h.avgHaloMass b i ∧ h'.avgHaloMassCen b i = c * h.avgHaloMassCen b i ∧
      h'.avgHaloMassSat b i = c * h.avgHaloMassSat b i := by
  intro h'
  have e : ∀ N : ℕ → ℕ → ℕ → ℝ, ∀ b j,
      h'.meanMassIntegral (fun b j m => c * N b j m) b j = c * h.meanMassIntegral N b j := by
    intro N b j
    unfold meanMassIntegral
    rw [← simpson_smul]
    congr 1; funext m
    change c * N b j m * h.dndlnmInt b j m = _
    ring
  have key : ∀ N : ℕ → ℕ → ℕ → ℝ, h'.interpolate (.value 0) (h'.meanMassIntegral fun b j m => c * N b j m) b i =
      c * h.interpolate (.value 0) (h.meanMassIntegral N) b i := by
    intro N
    rw [show (h'.meanMassIntegral fun b j m => c * N b j m) = fun b j => c * h.meanMassIntegral N b j from
      funext fun b => funext fun j => e N b j, ← interpolate_smul h 0 rfl]
    rfl
  refine ⟨?_, key h.occCen, key h.occSat⟩
  have : h'.occ = fun b j m => c * h.occ b j m := by
    funext b j m
    change c * h.occCen b j m + c * h.occSat b j m = c * (h.occCen b j m + h.occSat b j m)
    ring
  unfold avgHaloMass
  rw [this]
  exact key h.occ

end Verif.Hod

namespace Verif.Pk

open Verif.Lib Verif.Spec Spectra

section
variable (s : Spectra) {nzv nz : ℕ} {z : ℕ → ℕ → ℝ} {occCen occSat : ℕ → ℕ → ℕ → ℝ} {b i j : ℕ}

/-- C101: the average mass used by the alignment profiles is the mean halo mass of the centrals times the fraction of
galaxies that are centrals, at the redshift nodes of the sample -/
theorem C101_mass_avg (hzv : 2 ≤ nzv) (hnz : 2 ≤ nz) (hsv : SortedOn nzv s.zVec) (hs : SortedOn nz (z b))
    (hi : i < nzv) (hj : j < nz) (he : s.zVec i = z b j)
    (hc : (s.buildHod nzv nz z occCen occSat).ncen b j ≠ 0) :
    let h := s.buildHod nzv nz z occCen occSat
    (s.withHod nzv nz z occCen occSat).massAvg b i =
      (s.withHod nzv nz z occCen occSat).fC b i * (h.meanMassIntegral h.occCen b j / h.massIntegral h.occCen b j) := by
  intro h
  obtain ⟨n1, -, -⟩ := node_values s (occCen := occCen) (occSat := occSat) hzv hnz hsv hs hi hj he
  have e1 : h.avgHaloMassCen b i = h.meanMassIntegral h.occCen b j := n1 _ _
  have e2 : h.numberDensity b i = h.ntot b j := n1 _ _
  have e3 : h.fC b i = h.ncen b j / h.ntot b j := n1 _ fun b j => h.ncen b j / h.ntot b j
  change h.avgHaloMassCen b i / h.numberDensity b i = h.fC b i * (_ / h.ncen b j)
  rw [e1, e2, e3]
  have hc' : h.ncen b j ≠ 0 := hc
  field_simp

/-- C101: so it is that mean mass only when there are no satellites -/
theorem C101_mass_avg_iff (hzv : 2 ≤ nzv) (hnz : 2 ≤ nz) (hsv : SortedOn nzv s.zVec) (hs : SortedOn nz (z b))
    (hi : i < nzv) (hj : j < nz) (he : s.zVec i = z b j)
    (hc : (s.buildHod nzv nz z occCen occSat).ncen b j ≠ 0) (ht : (s.buildHod nzv nz z occCen occSat).ntot b j ≠ 0)
    (hm : (s.buildHod nzv nz z occCen occSat).meanMassIntegral occCen b j ≠ 0) :
    let h := s.buildHod nzv nz z occCen occSat
    (s.withHod nzv nz z occCen occSat).massAvg b i = h.meanMassIntegral h.occCen b j / h.massIntegral h.occCen b j ↔
      h.nsat b j = 0 := by
  intro h
  obtain ⟨n1, -, -⟩ := node_values s (occCen := occCen) (occSat := occSat) hzv hnz hsv hs hi hj he
  have hc' : h.ncen b j ≠ 0 := hc
  have ht' : h.ntot b j ≠ 0 := ht
  have hm' : h.meanMassIntegral h.occCen b j ≠ 0 := hm
  rw [C101_mass_avg s hzv hnz hsv hs hi hj he hc]
  have e3 : (s.withHod nzv nz z occCen occSat).fC b i = h.ncen b j / h.ntot b j :=
    n1 (.value 0) fun b j => h.ncen b j / h.ntot b j
  rw [e3]
  change h.ncen b j / h.ntot b j * (h.meanMassIntegral h.occCen b j / h.ncen b j) =
    h.meanMassIntegral h.occCen b j / h.ncen b j ↔ _
  rw [mul_eq_right₀ (div_ne_zero hm' hc'), div_eq_one_iff_eq ht', Hod.massIntegral_add]
  constructor
  · intro h1; linarith
  · intro h1; rw [h1, add_zero]

/-- C101: the mass scaling `(M / M_pivot)^beta` of the alignment of centrals and satellites is that of the mean mass of
centrals times `f_c^beta` -/
theorem C101_alignment_scaling (hzv : 2 ≤ nzv) (hnz : 2 ≤ nz) (hsv : SortedOn nzv s.zVec) (hs : SortedOn nz (z b))
    (hi : i < nzv) (hj : j < nz) (he : s.zVec i = z b j)
    (hc : (s.buildHod nzv nz z occCen occSat).ncen b j ≠ 0)
    (hf : 0 ≤ (s.buildHod nzv nz z occCen occSat).fC b i)
    (hm : 0 ≤ (s.buildHod nzv nz z occCen occSat).meanMassIntegral occCen b j /
      (s.buildHod nzv nz z occCen occSat).massIntegral occCen b j) (β M : ℝ) (hM : 0 < M) :
    let h := s.buildHod nzv nz z occCen occSat
    additionalTerm (some β) (some M) ((s.withHod nzv nz z occCen occSat).massAvg b i) =
      h.fC b i ^ β * (h.meanMassIntegral h.occCen b j / h.massIntegral h.occCen b j / M) ^ β := by
  intro h
  rw [C101_mass_avg s hzv hnz hsv hs hi hj he hc]
  have hf' : 0 ≤ h.fC b i := hf
  have hm' : 0 ≤ h.meanMassIntegral h.occCen b j / h.massIntegral h.occCen b j := hm
  change (h.fC b i * _ / M) ^ β = _
  rw [mul_div_assoc, Real.mul_rpow hf' (div_nonneg hm' hM.le)]

/-- C101: outside the redshift range of the sample the average mass is zero, and with a positive exponent the alignment of
centrals and satellites vanishes there -/
theorem C101_outside (ho : s.zVec i < z b 0 ∨ z b (nz - 1) < s.zVec i) :
    (s.withHod nzv nz z occCen occSat).massAvg b i = 0 ∧
      ∀ β M, 0 < β → additionalTerm (some β) (some M) ((s.withHod nzv nz z occCen occSat).massAvg b i) = 0 := by
  have e : (s.withHod nzv nz z occCen occSat).massAvg b i = 0 := by
    have e0 : (s.buildHod nzv nz z occCen occSat).avgHaloMassCen b i = 0 := if_pos ho
    change (s.buildHod nzv nz z occCen occSat).avgHaloMassCen b i / _ = 0
    rw [e0, zero_div]
  refine ⟨e, fun β M hβ => ?_⟩
  rw [e]
  change (0 / M) ^ β = 0
  rw [zero_div, Real.zero_rpow hβ.ne']

end

/-- C101: so the average mass can lie below the smallest halo mass of the grid -/
theorem C101_below_smallest :
    ∃ (s : Spectra) (z : ℕ → ℕ → ℝ) (occCen occSat : ℕ → ℕ → ℕ → ℝ), GentleGrid s.nm s.mass ∧
      (∀ m, 0 < occCen 0 0 m ∧ 0 < occSat 0 0 m ∧ 0 < s.dndlnm 0 m) ∧ s.zVec 0 = z 0 0 ∧
      0 < (s.withHod 2 2 z occCen occSat).massAvg 0 0 ∧ (s.withHod 2 2 z occCen occSat).massAvg 0 0 < s.mass 0 := by
  let z : ℕ → ℕ → ℝ := fun _ j => j
  let c : ℕ → ℕ → ℕ → ℝ := fun _ _ _ => 1
  let o : ℕ → ℕ → ℕ → ℝ := fun _ _ _ => 9
  refine ⟨demo, z, c, o, demo_gentle, fun m => ⟨one_pos, by norm_num [o], by simp [demo]; positivity⟩,
    by simp [demo, z], ?_⟩
  have s1 : SortedOn 2 demo.zVec := sortedOn_of_step fun i _ => by simp [demo]
  have s2 : SortedOn 2 (z 0) := sortedOn_of_step fun i _ => by simp [z]
  obtain ⟨n1, n2, n3⟩ := node_values demo (occCen := c) (occSat := o) (b := 0) (le_refl 2) (le_refl 2) s1 s2
    (by decide : 0 < 2) (by decide : 0 < 2) (by simp [demo, z])
  set h := demo.buildHod 2 2 z c o
  have v : (demo.withHod 2 2 z c o).massAvg 0 0 = 1 / 5 := by
    change h.avgHaloMassCen 0 0 / h.numberDensity 0 0 = _
    rw [Hod.Base.avgHaloMassCen, n1, Hod.Base.numberDensity, n1]
    unfold Hod.Base.meanMassIntegral Hod.Base.ntot Hod.Base.massIntegral
    change simpson demo.nm demo.mass _ / simpson demo.nm demo.mass (fun m => _ / demo.mass m) = _
    rw [demo_simpson, demo_simpson]
    simp only [n2, Hod.Base.occ]
    simp [demo, h, buildHod, c, o]
    norm_num
  rw [v]
  norm_num [demo]

example : GentleGrid Hod.demo.nm Hod.demo.mass ∧ (∀ m < Hod.demo.nm, 0 < Hod.demo.mass m) ∧
    (∀ m < Hod.demo.nm, 0 ≤ Hod.demo.occSat 0 0 m * Hod.demo.dndlnmInt 0 0 m) ∧
    0 < Hod.demo.massIntegral Hod.demo.occSat 0 0 := by
  refine ⟨demo_gentle, fun m _ => by simp only [Hod.demo]; positivity, fun m _ => ?_, (Hod.demo_ntot 0).2.2⟩
  rw [Hod.demo_dndlnmInt]
  simp only [Hod.demo]
  positivity

end Verif.Pk

import Verif.Props.InterpFractions

/-! Property C153, for the mass integrals behind the mean halo masses of a sample. -/

namespace Verif.InterpAccuracy

open Verif.Lib Verif.Spec Set

/-- C153: the sum of the halo masses of the galaxies of a sample, of its centrals or of its satellites.  `N z` is the occupation in question and
`g z` the mass function at redshift `z`. -/
theorem C153_halo_mass {H : Hod.Base} {b i : ℕ} {O : ℕ → ℕ → ℕ → ℝ} {Y : ℝ} {N g : ℝ → ℕ → ℝ} {Mm : ℕ → ℝ} {K hz hb E : ℝ}
    (hY : (O = H.occ ∧ Y = H.avgHaloMass b i) ∨ (O = H.occCen ∧ Y = H.avgHaloMassCen b i) ∨ (O = H.occSat ∧ Y = H.avgHaloMassSat b i))
    (g' : GentleGrid H.nm H.mass) (hm : ∀ m < H.nm, 0 < H.mass m) (hnz : 2 ≤ H.nzv) (hnb : 2 ≤ H.nz) (sz : SortedOn H.nzv H.zVec)
    (sb : SortedOn H.nz (H.z b)) (hg : ∀ l < H.nzv, ∀ m < H.nm, H.dndlnm l m = g (H.zVec l) m)
    (hN : ∀ j < H.nz, ∀ m < H.nm, O b j m = N (H.z b j) m) (N0 : ∀ j < H.nz, ∀ m < H.nm, 0 ≤ N (H.z b j) m)
    (hfz : ∀ m < H.nm, Bent (Mm m) (Icc (H.zVec 0) (H.zVec (H.nzv - 1))) fun t => g t m)
    (inside : ∀ j < H.nz, H.zVec 0 ≤ H.z b j ∧ H.z b j ≤ H.zVec (H.nzv - 1)) (hhz : ∀ l, l + 1 < H.nzv → H.zVec (l + 1) - H.zVec l ≤ hz)
    (hE : ∀ j < H.nz, simpson H.nm H.mass (fun m => N (H.z b j) m * Mm m) ≤ E)
    (hD : Bent K (Icc (H.z b 0) (H.z b (H.nz - 1))) fun t => simpson H.nm H.mass fun m => N t m * g t m)
    (hhb : ∀ j, j + 1 < H.nz → H.z b (j + 1) - H.z b j ≤ hb) (z1 : H.z b 0 ≤ H.zVec i) (z2 : H.zVec i ≤ H.z b (H.nz - 1)) :
    |Y - simpson H.nm H.mass (fun m => N (H.zVec i) m * g (H.zVec i) m)| ≤ E * hz ^ 2 / 8 + K * hb ^ 2 / 8 := by
  have weigh : ∀ (a c : ℕ → ℝ), simpson H.nm H.mass (fun m => a m * c m) = simpson H.nm H.mass (fun m => H.mass m * a m * c m / H.mass m) :=
    fun a c => simpson_congr_right fun m hmm => by
      have := (hm m hmm).ne'
      field_simp
  have near : ∀ j < H.nz, |H.meanMassIntegral O b j - simpson H.nm H.mass (fun m => N (H.z b j) m * g (H.z b j) m)| ≤ E * hz ^ 2 / 8 := fun j hj => by
    have c := counts_near (O := fun b j m => H.mass m * O b j m) (N := fun t m => H.mass m * N t m) (E := E) g' hm hnz sz hg
      (fun m hmm => by rw [hN j hj m hmm]) (fun m hmm => mul_nonneg (hm m hmm).le (N0 j hj m hmm)) hfz (inside j hj) hhz
      (by rw [← weigh]; exact hE j hj)
    rw [Hod.Base.massIntegral, ← weigh, ← weigh] at c
    rw [Hod.Base.meanMassIntegral]
    exact c
  have e1 := interp_near hnb sb z1 z2 near
  have e2 := C153_between_nodes (f := fun t => simpson H.nm H.mass fun m => N t m * g t m)
    (y := fun j => simpson H.nm H.mass fun m => N (H.z b j) m * g (H.z b j) m) hnb sb (fun _ _ => rfl) hD hhb z1 z2
  have fin := (abs_sub_le _ _ _).trans (add_le_add e1 e2)
  rcases hY with ⟨rfl, rfl⟩ | ⟨rfl, rfl⟩ | ⟨rfl, rfl⟩
  · rw [Hod.Base.avgHaloMass, Hod.Base.interpolate, interp1d_inside z1 z2]
    exact fin
  · rw [Hod.Base.avgHaloMassCen, Hod.Base.interpolate, interp1d_inside z1 z2]
    exact fin
  · rw [Hod.Base.avgHaloMassSat, Hod.Base.interpolate, interp1d_inside z1 z2]
    exact fin

/-! ## example -/

theorem sample_masses (c : ℝ) : simpson sample.nm sample.mass (fun m => (1 : ℝ) * (((m : ℝ) + 1) * c)) = 4 * c := by
  simp only [sample, simpson, basicSimpson, simpsonPanel]
  norm_num
  ring

example : |sample.avgHaloMass 0 1 - 8| ≤ 8 * 1 ^ 2 / 8 + 8 * (1 / 2) ^ 2 / 8 := by
  have := C153_halo_mass (H := sample) (b := 0) (i := 1) (O := sample.occ) (N := fun _ _ => 1) (g := fun t m => ((m : ℝ) + 1) * (1 + t ^ 2))
    (Mm := fun m => ((m : ℝ) + 1) * 2) (K := 8) (hz := 1) (hb := 1 / 2) (E := 8) (.inl ⟨rfl, rfl⟩) mixed_grid
    (fun m _ => by simp only [sample]; positivity) (by simp [sample]) (by simp [sample]) (sorted_nat 3)
    (fun i j hij _ => by
      have : (i : ℝ) < j := by exact_mod_cast hij
      simp only [sample]; linarith)
    (fun l _ m _ => by simp only [sample]) (fun j _ m _ => by simp [sample, Hod.Base.occ]) (fun _ _ _ _ => zero_le_one)
    (fun m _ => (bent_parabola (M := ((m : ℝ) + 1) * 2) (convex_Icc _ _) (by positivity) ((m : ℝ) + 1)).congr' fun t => by ring)
    (fun j hj => by
      have := mixed_z hj
      simp only [sample]; push_cast; exact ⟨this.1, by linarith [this.2]⟩)
    (fun l _ => by simp only [sample]; push_cast; linarith) (fun j _ => (sample_masses 2).le.trans (by norm_num))
    (by
      refine (bent_parabola (M := 8) (convex_Icc _ _) (by norm_num) 4).congr' fun t => ?_
      rw [sample_masses (1 + t ^ 2)]; ring)
    (fun j _ => by simp only [sample]; push_cast; linarith) (by norm_num [sample]) (by norm_num [sample])
  rw [sample_masses] at this
  have e : (4 : ℝ) * (1 + sample.zVec 1 ^ 2) = 8 := by norm_num [sample]
  rwa [e] at this

end Verif.InterpAccuracy

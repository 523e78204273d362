import Verif.Props.InterpAccuracy

/-! Property C153, for the fractions of central and satellite galaxies. -/

namespace Verif.InterpAccuracy

open Verif.Lib Verif.Spec Set

/-- the counts of one kind of galaxies at a redshift of the bin, from the interpolated mass function -/
theorem counts_near {H : Hod.Base} {b j : ℕ} {O : ℕ → ℕ → ℕ → ℝ} {N g : ℝ → ℕ → ℝ} {Mm : ℕ → ℝ} {hz E : ℝ} (g' : GentleGrid H.nm H.mass)
    (hm : ∀ m < H.nm, 0 < H.mass m) (hnz : 2 ≤ H.nzv) (sz : SortedOn H.nzv H.zVec)
    (hg : ∀ l < H.nzv, ∀ m < H.nm, H.dndlnm l m = g (H.zVec l) m) (hN : ∀ m < H.nm, O b j m = N (H.z b j) m)
    (N0 : ∀ m < H.nm, 0 ≤ N (H.z b j) m) (hfz : ∀ m < H.nm, Bent (Mm m) (Icc (H.zVec 0) (H.zVec (H.nzv - 1))) fun t => g t m)
    (inside : H.zVec 0 ≤ H.z b j ∧ H.z b j ≤ H.zVec (H.nzv - 1)) (hhz : ∀ l, l + 1 < H.nzv → H.zVec (l + 1) - H.zVec l ≤ hz)
    (hE : simpson H.nm H.mass (fun m => N (H.z b j) m * Mm m / H.mass m) ≤ E) :
    |H.massIntegral O b j - simpson H.nm H.mass (fun m => N (H.z b j) m * g (H.z b j) m / H.mass m)| ≤ E * hz ^ 2 / 8 := by
  have pt : ∀ m < H.nm, |H.dndlnmInt b j m - g (H.z b j) m| ≤ Mm m * (hz ^ 2 / 8) := fun m hmm => by
    have := C153_between_nodes (f := fun t => g t m) (y := fun l => H.dndlnm l m) hnz sz (fun l hl => hg l hl m hmm) (hfz m hmm) hhz
      inside.1 inside.2
    rw [← mul_div_assoc]
    exact this
  have s := mass_sum (e := Mm) g' hm N0 pt
  have t : H.massIntegral O b j = simpson H.nm H.mass (fun m => N (H.z b j) m * H.dndlnmInt b j m / H.mass m) := by
    rw [Hod.Base.massIntegral]
    exact simpson_congr_right fun m hmm => by rw [hN m hmm]
  rw [t]
  refine s.trans ?_
  have := mul_le_mul_of_nonneg_left hE (show 0 ≤ hz ^ 2 / 8 by positivity)
  linarith

/-- a share of two counts, each known up to `d` -/
theorem share_near {c s c' s' d ν : ℝ} (c0 : 0 ≤ c) (s0 : 0 ≤ s) (p : 0 < c + s) (hν : 0 < ν) (hn : ν ≤ c' + s') (hc : |c' - c| ≤ d)
    (hs : |s' - s| ≤ d) : |c' / (c' + s') - c / (c + s)| ≤ d / ν := by
  have p' : 0 < c' + s' := hν.trans_le hn
  have d0 : 0 ≤ d := (abs_nonneg _).trans hc
  have e : c' / (c' + s') - c / (c + s) = ((c' - c) * s - c * (s' - s)) / ((c' + s') * (c + s)) := by
    field_simp
    ring
  have u : |(c' - c) * s - c * (s' - s)| ≤ d * (c + s) := by
    refine (abs_sub _ _).trans ?_
    rw [abs_mul, abs_mul, abs_of_nonneg c0, abs_of_nonneg s0]
    have a := mul_le_mul_of_nonneg_right hc s0
    have b := mul_le_mul_of_nonneg_left hs c0
    linarith
  rw [e, abs_div, abs_of_pos (mul_pos p' p)]
  calc _ ≤ d * (c + s) / ((c' + s') * (c + s)) := div_le_div_of_nonneg_right u (mul_pos p' p).le
    _ = d / (c' + s') := by field_simp
    _ ≤ d / ν := div_le_div_of_nonneg_left d0 hν hn

/-- C153: the fractions of central and satellite galaxies.  `Nc z`, `Ns z` are the occupations and `g z` the mass function at redshift `z`; the
fractions compared with are those from the mass function at the redshift itself.  `ν` is a number density the sample does not fall below. -/
theorem C153_fractions {H : Hod.Base} {b i : ℕ} {Nc Ns g : ℝ → ℕ → ℝ} {Mm : ℕ → ℝ} {K hz hb E ν : ℝ} (g' : GentleGrid H.nm H.mass)
    (hm : ∀ m < H.nm, 0 < H.mass m) (hnz : 2 ≤ H.nzv) (hnb : 2 ≤ H.nz) (sz : SortedOn H.nzv H.zVec) (sb : SortedOn H.nz (H.z b))
    (hg : ∀ l < H.nzv, ∀ m < H.nm, H.dndlnm l m = g (H.zVec l) m) (hc : ∀ j < H.nz, ∀ m < H.nm, H.occCen b j m = Nc (H.z b j) m)
    (hs : ∀ j < H.nz, ∀ m < H.nm, H.occSat b j m = Ns (H.z b j) m) (c0 : ∀ j < H.nz, ∀ m < H.nm, 0 ≤ Nc (H.z b j) m)
    (s0 : ∀ j < H.nz, ∀ m < H.nm, 0 ≤ Ns (H.z b j) m) (g0 : ∀ j < H.nz, ∀ m < H.nm, 0 ≤ g (H.z b j) m)
    (hfz : ∀ m < H.nm, Bent (Mm m) (Icc (H.zVec 0) (H.zVec (H.nzv - 1))) fun t => g t m)
    (inside : ∀ j < H.nz, H.zVec 0 ≤ H.z b j ∧ H.z b j ≤ H.zVec (H.nzv - 1)) (hhz : ∀ l, l + 1 < H.nzv → H.zVec (l + 1) - H.zVec l ≤ hz)
    (hEc : ∀ j < H.nz, simpson H.nm H.mass (fun m => Nc (H.z b j) m * Mm m / H.mass m) ≤ E)
    (hEs : ∀ j < H.nz, simpson H.nm H.mass (fun m => Ns (H.z b j) m * Mm m / H.mass m) ≤ E)
    (hν : 0 < ν) (hn : ∀ j < H.nz, ν ≤ H.ntot b j)
    (hp : ∀ j < H.nz, 0 < simpson H.nm H.mass (fun m => Nc (H.z b j) m * g (H.z b j) m / H.mass m) +
      simpson H.nm H.mass (fun m => Ns (H.z b j) m * g (H.z b j) m / H.mass m))
    (hhb : ∀ j, j + 1 < H.nz → H.z b (j + 1) - H.z b j ≤ hb) (z1 : H.z b 0 ≤ H.zVec i) (z2 : H.zVec i ≤ H.z b (H.nz - 1))
    {F G : ℝ → ℝ}
    (eF : ∀ t, F t = simpson H.nm H.mass (fun m => Nc t m * g t m / H.mass m) /
      (simpson H.nm H.mass (fun m => Nc t m * g t m / H.mass m) + simpson H.nm H.mass (fun m => Ns t m * g t m / H.mass m)))
    (eG : ∀ t, G t = simpson H.nm H.mass (fun m => Ns t m * g t m / H.mass m) /
      (simpson H.nm H.mass (fun m => Nc t m * g t m / H.mass m) + simpson H.nm H.mass (fun m => Ns t m * g t m / H.mass m)))
    (hF : Bent K (Icc (H.z b 0) (H.z b (H.nz - 1))) F) (hG : Bent K (Icc (H.z b 0) (H.z b (H.nz - 1))) G) :
    |H.fC b i - F (H.zVec i)| ≤ E * hz ^ 2 / 8 / ν + K * hb ^ 2 / 8 ∧ |H.fS b i - G (H.zVec i)| ≤ E * hz ^ 2 / 8 / ν + K * hb ^ 2 / 8 := by
  have nn : ∀ {N : ℝ → ℕ → ℝ}, (∀ j < H.nz, ∀ m < H.nm, 0 ≤ N (H.z b j) m) → ∀ j < H.nz,
      0 ≤ simpson H.nm H.mass (fun m => N (H.z b j) m * g (H.z b j) m / H.mass m) := fun h j hj =>
    simpson_nonneg g' fun m hmm => div_nonneg (mul_nonneg (h j hj m hmm) (g0 j hj m hmm)) (hm m hmm).le
  have tot : ∀ j, H.ntot b j = H.ncen b j + H.nsat b j := fun j => by
    rw [Hod.Base.ntot, Hod.Base.ncen, Hod.Base.nsat, Hod.Base.massIntegral, Hod.Base.massIntegral, Hod.Base.massIntegral, ← simpson_add]
    exact simpson_congr_right fun m _ => by rw [Hod.Base.occ]; ring
  have nc := fun j (hj : j < H.nz) => counts_near (O := H.occCen) g' hm hnz sz hg (hc j hj) (c0 j hj) hfz (inside j hj) hhz (hEc j hj)
  have ns := fun j (hj : j < H.nz) => counts_near (O := H.occSat) g' hm hnz sz hg (hs j hj) (s0 j hj) hfz (inside j hj) hhz (hEs j hj)
  have nearC : ∀ j < H.nz, |H.ncen b j / H.ntot b j - F (H.z b j)| ≤ E * hz ^ 2 / 8 / ν := fun j hj => by
    rw [eF, tot]
    exact share_near (nn c0 j hj) (nn s0 j hj) (hp j hj) hν (by rw [← tot]; exact hn j hj) (nc j hj) (ns j hj)
  have nearS : ∀ j < H.nz, |H.nsat b j / H.ntot b j - G (H.z b j)| ≤ E * hz ^ 2 / 8 / ν := fun j hj => by
    have p := hp j hj
    rw [eG, tot, add_comm (H.ncen b j), add_comm (simpson _ _ fun m => Nc _ m * _ / _)]
    exact share_near (nn s0 j hj) (nn c0 j hj) (by linarith) hν (by rw [add_comm, ← tot]; exact hn j hj) (ns j hj) (nc j hj)
  rw [Hod.Base.fC, Hod.Base.fS, Hod.Base.interpolate, Hod.Base.interpolate, interp1d_inside z1 z2, interp1d_inside z1 z2]
  exact ⟨(abs_sub_le _ _ _).trans (add_le_add (interp_near hnb sb z1 z2 nearC)
      (C153_between_nodes (y := fun j => F (H.z b j)) hnb sb (fun _ _ => rfl) hF hhb z1 z2)),
    (abs_sub_le _ _ _).trans (add_le_add (interp_near hnb sb z1 z2 nearS)
      (C153_between_nodes (y := fun j => G (H.z b j)) hnb sb (fun _ _ => rfl) hG hhb z1 z2))⟩

/-! ## example -/

/-- the sample of `InterpAccuracy` with centrals taking over from satellites as the redshift grows -/
noncomputable def mixed : Hod.Base :=
  { sample with occCen := fun _ j _ => ((j : ℝ) / 2) ^ 2 / 4, occSat := fun _ j _ => 1 - ((j : ℝ) / 2) ^ 2 / 4 }

theorem mixed_simpson (a c : ℝ) : simpson mixed.nm mixed.mass (fun m => a * (((m : ℝ) + 1) * c) / mixed.mass m) = a * (2 * c) := by
  rw [← sample_simpson c, ← simpson_smul]
  exact simpson_congr_right fun m _ => by simp only [mixed]; ring

theorem mixed_grid : GentleGrid mixed.nm mixed.mass :=
  ⟨fun i _ => by simp only [mixed, sample]; push_cast; linarith, fun i _ => by simp only [mixed, sample]; push_cast; linarith,
    fun i _ => by simp only [mixed, sample]; push_cast; linarith⟩

theorem mixed_z {j : ℕ} (hj : j < mixed.nz) : (0 : ℝ) ≤ (j : ℝ) / 2 ∧ (j : ℝ) / 2 ≤ 2 := by
  have : (j : ℝ) ≤ 4 := by
    have : j ≤ 4 := Nat.le_of_lt_succ hj
    exact_mod_cast this
  exact ⟨by positivity, by linarith⟩

theorem mixed_ntot {j : ℕ} (hj : j < mixed.nz) : 2 ≤ mixed.ntot 0 j := by
  have e := mixed_simpson 1 1
  rw [Hod.Base.ntot, Hod.Base.massIntegral]
  refine le_trans (by rw [e]; norm_num) (simpson_mono mixed_grid fun m _ => ?_)
  have i : (m : ℝ) + 1 ≤ mixed.dndlnmInt 0 j m := by
    obtain ⟨l, t, -, -, t0, t1, -, hv⟩ := interpLinear_convex (n := mixed.nzv) (x := mixed.zVec) (q := mixed.z 0 j) (by simp [mixed, sample]) (sorted_nat 3)
      (by simp only [mixed, sample]; push_cast; exact (mixed_z hj).1) (by simp only [mixed, sample]; push_cast; linarith [(mixed_z hj).2])
    rw [Hod.Base.dndlnmInt, interp1d, hv]
    simp only [mixed, sample]
    have a : (m : ℝ) + 1 ≤ ((m : ℝ) + 1) * (1 + ((l - 1 : ℕ) : ℝ) ^ 2) := le_mul_of_one_le_right (by positivity) (by nlinarith [sq_nonneg ((l - 1 : ℕ) : ℝ)])
    have b : (m : ℝ) + 1 ≤ ((m : ℝ) + 1) * (1 + (l : ℝ) ^ 2) := le_mul_of_one_le_right (by positivity) (by nlinarith [sq_nonneg (l : ℝ)])
    nlinarith
  have o : mixed.occ 0 j m = 1 := by simp only [Hod.Base.occ, mixed]; ring
  rw [o]
  refine div_le_div_of_nonneg_right ?_ (by simp only [mixed, sample]; positivity)
  linarith

/-- at redshift one a quarter of the galaxies is central -/
example : |mixed.fC 0 1 - 1 / 4| ≤ 4 * 1 ^ 2 / 8 / 2 + 1 / 2 * (1 / 2) ^ 2 / 8 ∧ |mixed.fS 0 1 - 3 / 4| ≤ 4 * 1 ^ 2 / 8 / 2 + 1 / 2 * (1 / 2) ^ 2 / 8 := by
  have := C153_fractions (H := mixed) (b := 0) (i := 1) (Nc := fun t _ => t ^ 2 / 4) (Ns := fun t _ => 1 - t ^ 2 / 4)
    (g := fun t m => ((m : ℝ) + 1) * (1 + t ^ 2)) (Mm := fun m => ((m : ℝ) + 1) * 2) (K := 1 / 2) (hz := 1) (hb := 1 / 2) (E := 4) (ν := 2)
    (F := fun t => t ^ 2 / 4) (G := fun t => 1 - t ^ 2 / 4) mixed_grid
    (fun m _ => by simp only [mixed, sample]; positivity) (by simp [mixed, sample]) (by simp [mixed, sample]) (sorted_nat 3)
    (fun i j hij _ => by
      have : (i : ℝ) < j := by exact_mod_cast hij
      simp only [mixed, sample]; linarith)
    (fun l _ m _ => by simp only [mixed, sample]) (fun j _ m _ => by simp only [mixed, sample]) (fun j _ m _ => by simp only [mixed, sample])
    (fun _ _ _ _ => by positivity)
    (fun j hj m _ => by
      have := mixed_z hj
      simp only [mixed, sample]; nlinarith)
    (fun _ _ _ _ => by positivity)
    (fun m _ => (bent_parabola (M := ((m : ℝ) + 1) * 2) (convex_Icc _ _) (by positivity) ((m : ℝ) + 1)).congr' fun t => by ring)
    (fun j hj => by
      have := mixed_z hj
      simp only [mixed, sample]; push_cast; exact ⟨this.1, by linarith [this.2]⟩)
    (fun l _ => by simp only [mixed, sample]; push_cast; linarith)
    (fun j hj => by
      have := mixed_z hj
      rw [mixed_simpson]; simp only [mixed, sample]; nlinarith)
    (fun j hj => by
      have := mixed_z hj
      rw [mixed_simpson]; simp only [mixed, sample]; nlinarith)
    two_pos (fun j hj => mixed_ntot hj)
    (fun j _ => by
      rw [mixed_simpson, mixed_simpson, ← add_mul]
      nlinarith [sq_nonneg (mixed.z 0 j)])
    (fun j _ => by simp only [mixed, sample]; push_cast; linarith) (by norm_num [mixed, sample]) (by norm_num [mixed, sample])
    (fun t => by
      rw [mixed_simpson, mixed_simpson]
      have : (0 : ℝ) < 1 + t ^ 2 := by positivity
      field_simp
      ring)
    (fun t => by
      rw [mixed_simpson, mixed_simpson]
      have : (0 : ℝ) < 1 + t ^ 2 := by positivity
      field_simp
      ring)
    ((bent_parabola (M := 1 / 2) (convex_Icc _ _) (by norm_num) 0).congr' fun t => by ring)
    (by
      have p := bent_parabola (I := Icc (mixed.z 0 0) (mixed.z 0 (mixed.nz - 1))) (M := 1 / 2) (convex_Icc _ _) (by norm_num) (-1)
      refine ⟨?_, ?_⟩
      · refine (convexOn_const (𝕜 := ℝ) 1 (convex_Icc _ _)).congr fun t _ => ?_
        ring
      · refine p.1.neg.congr fun t _ => ?_
        simp only [Pi.neg_apply]
        ring)
  have e : mixed.zVec 1 = 1 := by norm_num [mixed, sample]
  rw [e] at this
  norm_num at this ⊢
  exact this

end Verif.InterpAccuracy

import Verif.Props.InterpFractions

/-! Property C153, for the linear biases of a sample. -/

namespace Verif.InterpAccuracy

open Verif.Lib Verif.Spec Set

/-- between the nodes the interpolated values keep a bound of the table -/
theorem interp_bounded {n : ℕ} {x y : ℕ → ℝ} {q B : ℝ} (hn : 2 ≤ n) (hx : SortedOn n x) (h0 : x 0 ≤ q) (h1 : q ≤ x (n - 1))
    (hy : ∀ i < n, |y i| ≤ B) : |interpLinear n x y q| ≤ B := by
  have := interp_near (y := y) (y' := fun _ => 0) hn hx h0 h1 fun i hi => by rw [sub_zero]; exact hy i hi
  rwa [interpLinear_const hn hx, sub_zero] at this

/-- a mean known up to `p` in the sum and `d` in the number -/
theorem mean_near {S n S' n' p d B ν : ℝ} (hp : 0 < n) (hν : 0 < ν) (hn : ν ≤ n') (hS : |S' - S| ≤ p) (hd : |n' - n| ≤ d) (hB : |S / n| ≤ B) :
    |S' / n' - S / n| ≤ (p + B * d) / ν := by
  have p' : 0 < n' := hν.trans_le hn
  have d0 : 0 ≤ d := (abs_nonneg _).trans hd
  have p0 : 0 ≤ p := (abs_nonneg _).trans hS
  have B0 : 0 ≤ B := (abs_nonneg _).trans hB
  have e : S' / n' - S / n = ((S' - S) - S / n * (n' - n)) / n' := by
    field_simp
    ring
  have u : |(S' - S) - S / n * (n' - n)| ≤ p + B * d := by
    refine (abs_sub _ _).trans (add_le_add hS ?_)
    rw [abs_mul]
    exact mul_le_mul hB hd (abs_nonneg _) B0
  rw [e, abs_div, abs_of_pos p']
  calc _ ≤ (p + B * d) / n' := div_le_div_of_nonneg_right u p'.le
    _ ≤ (p + B * d) / ν := div_le_div_of_nonneg_left (by positivity) hν hn

/-- a product of two factors known up to `x` and `y` times the same number -/
theorem product_near {a b a' b' A G x y w : ℝ} (hA : |a'| ≤ A) (hG : |b| ≤ G) (hb : |b' - b| ≤ x * w / 8) (ha : |a' - a| ≤ y * w / 8) :
    |a' * b' - a * b| ≤ (A * x + G * y) * (w / 8) := by
  have s : a' * b' - a * b = a' * (b' - b) + b * (a' - a) := by ring
  have p := mul_le_mul hA hb (abs_nonneg _) ((abs_nonneg _).trans hA)
  have q := mul_le_mul hG ha (abs_nonneg _) ((abs_nonneg _).trans hG)
  rw [← abs_mul] at p q
  rw [s]
  calc _ ≤ _ := abs_add_le _ _
    _ ≤ _ := add_le_add p q
    _ = _ := by ring

/-- C153: the linear bias of a sample, or the share of it from centrals or satellites.  `N z` is the occupation in question, `T z` the one of all
galaxies, `g z` the mass function and `h z` the halo bias at redshift `z`, with bounds `Mg`, `Mb` for their second derivatives and `G`, `B` for
their sizes.  `X z` is the bias from the mass function and halo bias at `z` itself, and `b0` bounds it. -/
theorem C153_bias {H : Hod.Base} {b i : ℕ} {O : ℕ → ℕ → ℕ → ℝ} {Y : ℝ} {N T g h : ℝ → ℕ → ℝ} {Mg Mb G B : ℕ → ℝ} {K hz hb E D ν b0 : ℝ}
    (hY : (O = H.occ ∧ Y = H.galaxyLinearBias b i) ∨ (O = H.occCen ∧ Y = H.galaxyLinearBiasCen b i) ∨
      (O = H.occSat ∧ Y = H.galaxyLinearBiasSat b i))
    (g' : GentleGrid H.nm H.mass) (hm : ∀ m < H.nm, 0 < H.mass m) (hnz : 2 ≤ H.nzv) (hnb : 2 ≤ H.nz) (sz : SortedOn H.nzv H.zVec)
    (sb : SortedOn H.nz (H.z b)) (hg : ∀ l < H.nzv, ∀ m < H.nm, H.dndlnm l m = g (H.zVec l) m)
    (hh : ∀ l < H.nzv, ∀ m < H.nm, H.haloBias l m = h (H.zVec l) m) (hN : ∀ j < H.nz, ∀ m < H.nm, O b j m = N (H.z b j) m)
    (hT : ∀ j < H.nz, ∀ m < H.nm, H.occ b j m = T (H.z b j) m) (N0 : ∀ j < H.nz, ∀ m < H.nm, 0 ≤ N (H.z b j) m)
    (T0 : ∀ j < H.nz, ∀ m < H.nm, 0 ≤ T (H.z b j) m)
    (hfg : ∀ m < H.nm, Bent (Mg m) (Icc (H.zVec 0) (H.zVec (H.nzv - 1))) fun t => g t m)
    (hfh : ∀ m < H.nm, Bent (Mb m) (Icc (H.zVec 0) (H.zVec (H.nzv - 1))) fun t => h t m)
    (hB : ∀ l < H.nzv, ∀ m < H.nm, |H.haloBias l m| ≤ B m) (hG : ∀ j < H.nz, ∀ m < H.nm, |g (H.z b j) m| ≤ G m)
    (inside : ∀ j < H.nz, H.zVec 0 ≤ H.z b j ∧ H.z b j ≤ H.zVec (H.nzv - 1)) (hhz : ∀ l, l + 1 < H.nzv → H.zVec (l + 1) - H.zVec l ≤ hz)
    (hE : ∀ j < H.nz, simpson H.nm H.mass (fun m => N (H.z b j) m * (B m * Mg m + G m * Mb m) / H.mass m) ≤ E)
    (hD : ∀ j < H.nz, simpson H.nm H.mass (fun m => T (H.z b j) m * Mg m / H.mass m) ≤ D)
    (hν : 0 < ν) (hn : ∀ j < H.nz, ν ≤ H.ntot b j)
    (hp : ∀ j < H.nz, 0 < simpson H.nm H.mass (fun m => T (H.z b j) m * g (H.z b j) m / H.mass m))
    (hhb : ∀ j, j + 1 < H.nz → H.z b (j + 1) - H.z b j ≤ hb) (z1 : H.z b 0 ≤ H.zVec i) (z2 : H.zVec i ≤ H.z b (H.nz - 1)) {X : ℝ → ℝ}
    (eX : ∀ t, X t = simpson H.nm H.mass (fun m => N t m * (h t m * g t m) / H.mass m) /
      simpson H.nm H.mass (fun m => T t m * g t m / H.mass m))
    (hb0 : ∀ j < H.nz, |X (H.z b j)| ≤ b0) (hX : Bent K (Icc (H.z b 0) (H.z b (H.nz - 1))) X) :
    |Y - X (H.zVec i)| ≤ (E + b0 * D) * hz ^ 2 / 8 / ν + K * hb ^ 2 / 8 := by
  have near : ∀ j < H.nz, |H.biasIntegral O b j - X (H.z b j)| ≤ (E + b0 * D) * hz ^ 2 / 8 / ν := fun j hj => by
    have pt : ∀ m < H.nm, |H.haloBiasInt b j m * H.dndlnmInt b j m - h (H.z b j) m * g (H.z b j) m| ≤
        (B m * Mg m + G m * Mb m) * (hz ^ 2 / 8) := fun m hmm => by
      have u : |H.dndlnmInt b j m - g (H.z b j) m| ≤ Mg m * hz ^ 2 / 8 := by
        rw [Hod.Base.dndlnmInt, interp1d]
        exact C153_between_nodes (f := fun t => g t m) (y := fun l => H.dndlnm l m) hnz sz (fun l hl => hg l hl m hmm) (hfg m hmm) hhz
          (inside j hj).1 (inside j hj).2
      have v : |H.haloBiasInt b j m - h (H.z b j) m| ≤ Mb m * hz ^ 2 / 8 := by
        rw [Hod.Base.haloBiasInt, interp1d]
        exact C153_between_nodes (f := fun t => h t m) (y := fun l => H.haloBias l m) hnz sz (fun l hl => hh l hl m hmm) (hfh m hmm) hhz
          (inside j hj).1 (inside j hj).2
      have w : |H.haloBiasInt b j m| ≤ B m := by
        rw [Hod.Base.haloBiasInt, interp1d]
        exact interp_bounded hnz sz (inside j hj).1 (inside j hj).2 fun l hl => hB l hl m hmm
      exact product_near w (hG j hj m hmm) u v
    have s := mass_sum (e := fun m => B m * Mg m + G m * Mb m) g' hm (N0 j hj) pt
    have s' := s.trans (mul_le_mul_of_nonneg_left (hE j hj) (show 0 ≤ hz ^ 2 / 8 by positivity))
    have n := counts_near (O := H.occ) g' hm hnz sz hg (hT j hj) (T0 j hj) hfg (inside j hj) hhz (hD j hj)
    have t : H.biasIntegral O b j =
        simpson H.nm H.mass (fun m => N (H.z b j) m * (H.haloBiasInt b j m * H.dndlnmInt b j m) / H.mass m) / H.ntot b j := by
      rw [Hod.Base.biasIntegral]
      congr 1
      exact simpson_congr_right fun m hmm => by rw [hN j hj m hmm]; ring
    have bd := hb0 j hj
    rw [eX] at bd
    rw [t, eX]
    refine (mean_near (hp j hj) hν (hn j hj) s' n bd).trans (le_of_eq ?_)
    ring
  have e1 := interp_near hnb sb z1 z2 near
  have e2 := C153_between_nodes (y := fun j => X (H.z b j)) hnb sb (fun _ _ => rfl) hX hhb z1 z2
  have fin := (abs_sub_le _ _ _).trans (add_le_add e1 e2)
  rcases hY with ⟨rfl, rfl⟩ | ⟨rfl, rfl⟩ | ⟨rfl, rfl⟩
  · exact fin
  · exact fin
  · exact fin

/-! ## example -/

/-- the sample of `InterpFractions` with a halo bias growing with redshift -/
noncomputable def biased : Hod.Base := { mixed with haloBias := fun i _ => 1 + (i : ℝ) ^ 2 / 4 }

theorem biased_simpson (a c : ℝ) : simpson biased.nm biased.mass (fun m => a * (((m : ℝ) + 1) * c) / biased.mass m) = a * (2 * c) := mixed_simpson a c

theorem biased_simpson' (a d c : ℝ) : simpson biased.nm biased.mass (fun m => a * (d * (((m : ℝ) + 1) * c)) / biased.mass m) = a * d * (2 * c) := by
  rw [← biased_simpson]
  exact simpson_congr_right fun m _ => by ring

/-- halos at redshift one have bias 5/4, and so have the galaxies -/
example : |biased.galaxyLinearBias 0 1 - 5 / 4| ≤ (18 + 2 * 4) * 1 ^ 2 / 8 / 2 + 1 / 2 * (1 / 2) ^ 2 / 8 := by
  have zz : ∀ {j : ℕ}, j < biased.nz → (0 : ℝ) ≤ biased.z 0 j ∧ biased.z 0 j ≤ 2 := fun hj => mixed_z hj
  have := C153_bias (H := biased) (b := 0) (i := 1) (O := biased.occ) (N := fun _ _ => 1) (T := fun _ _ => 1)
    (g := fun t m => ((m : ℝ) + 1) * (1 + t ^ 2)) (h := fun t _ => 1 + t ^ 2 / 4) (Mg := fun m => ((m : ℝ) + 1) * 2) (Mb := fun _ => 1 / 2)
    (G := fun m => ((m : ℝ) + 1) * 5) (B := fun _ => 2) (K := 1 / 2) (hz := 1) (hb := 1 / 2) (E := 18) (D := 4) (ν := 2) (b0 := 2)
    (X := fun t => 1 + t ^ 2 / 4) (.inl ⟨rfl, rfl⟩) mixed_grid
    (fun m _ => by simp only [biased, mixed, sample]; positivity) (by simp [biased, mixed, sample]) (by simp [biased, mixed, sample]) (sorted_nat 3)
    (fun i j hij _ => by
      have : (i : ℝ) < j := by exact_mod_cast hij
      simp only [biased, mixed, sample]; linarith)
    (fun l _ m _ => by simp only [biased, mixed, sample]) (fun l _ m _ => by simp only [biased, mixed, sample])
    (fun j _ m _ => by simp only [Hod.Base.occ, biased, mixed, sample]; ring)
    (fun j _ m _ => by simp only [Hod.Base.occ, biased, mixed, sample]; ring) (fun _ _ _ _ => zero_le_one) (fun _ _ _ _ => zero_le_one)
    (fun m _ => (bent_parabola (M := ((m : ℝ) + 1) * 2) (convex_Icc _ _) (by positivity) ((m : ℝ) + 1)).congr' fun t => by ring)
    (fun m _ => (bent_parabola (M := 1 / 2) (convex_Icc _ _) (by norm_num) 1).congr' fun t => by ring)
    (fun l hl m _ => by
      have : (l : ℝ) ≤ 2 := by
        have : l ≤ 2 := Nat.le_of_lt_succ hl
        exact_mod_cast this
      have l0 : (0 : ℝ) ≤ l := by positivity
      simp only [biased]
      rw [abs_of_nonneg (by positivity)]
      nlinarith)
    (fun j hj m _ => by
      have := zz hj
      rw [abs_of_nonneg (by positivity)]
      refine mul_le_mul_of_nonneg_left ?_ (by positivity)
      nlinarith)
    (fun j hj => by
      have := mixed_z hj
      simp only [biased, mixed, sample]; push_cast; exact ⟨this.1, by linarith [this.2]⟩)
    (fun l _ => by simp only [biased, mixed, sample]; push_cast; linarith)
    (fun j _ => by
      have e := biased_simpson 1 (13 / 2)
      refine le_trans (le_of_eq ?_) (e.le.trans (by norm_num))
      exact simpson_congr_right fun m _ => by ring)
    (fun j _ => by rw [biased_simpson]; norm_num) two_pos
    (fun j hj => mixed_ntot hj)
    (fun j _ => by rw [biased_simpson]; positivity)
    (fun j _ => by simp only [biased, mixed, sample]; push_cast; linarith) (by norm_num [biased, mixed, sample]) (by norm_num [biased, mixed, sample])
    (fun t => by
      rw [biased_simpson, biased_simpson']
      have : (0 : ℝ) < 1 + t ^ 2 := by positivity
      field_simp)
    (fun j hj => by
      have := zz hj
      rw [abs_of_nonneg (by positivity)]
      nlinarith)
    ((bent_parabola (M := 1 / 2) (convex_Icc _ _) (by norm_num) 1).congr' fun t => by ring)
  have e : biased.zVec 1 = 1 := by norm_num [biased, mixed, sample]
  rw [e] at this
  norm_num at this ⊢
  exact this

end Verif.InterpAccuracy

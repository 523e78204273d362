import Verif.Model.HodRounded
import Verif.Lemmas.Rounded
import Verif.Lemmas.RoundedBinary
import Verif.Props.HodBase

/-!
C111: rounding errors of the mass integrals of the occupation distributions.
-/

namespace Verif.HodRounded

open Verif.Lib Verif.Spec Verif.Hod

variable {R : Rounding} {j : ℕ} {h : Hod.Base} {b i : ℕ} {n' b' c' s' : ℕ → ℝ}

/-- The stored values at the node `(b, i)` are the exact ones up to `j` roundings, and the exact ones are non-negative. -/
structure Node (R : Rounding) (j : ℕ) (h : Hod.Base) (b i : ℕ) (n' b' c' s' : ℕ → ℝ) : Prop where
  grid : SmoothGrid h.nm h.mass
  mass : ∀ m < h.nm, 0 < h.mass m
  dndlnm : ∀ m < h.nm, Near j (h.dndlnmInt b i m) ((n' m : ℝ) : Fl R)
  haloBias : ∀ m < h.nm, Near j (h.haloBiasInt b i m) ((b' m : ℝ) : Fl R)
  cen : ∀ m < h.nm, Near j (h.occCen b i m) ((c' m : ℝ) : Fl R)
  sat : ∀ m < h.nm, Near j (h.occSat b i m) ((s' m : ℝ) : Fl R)
  dndlnm_nonneg : ∀ m < h.nm, 0 ≤ h.dndlnmInt b i m
  haloBias_nonneg : ∀ m < h.nm, 0 ≤ h.haloBiasInt b i m
  cen_nonneg : ∀ m < h.nm, 0 ≤ h.occCen b i m
  sat_nonneg : ∀ m < h.nm, 0 ≤ h.occSat b i m

theorem massIntegral_est (N : Node R j h b i n' b' c' s') {k : ℕ} {f : ℕ → ℕ → ℕ → ℝ} {F : ℕ → Fl R}
    (hF : ∀ m < h.nm, Near k (f b i m) (F m)) (hf : ∀ m < h.nm, 0 ≤ f b i m) :
    Est (7 * (k + j + h.nm / 2 + R.lib + 19)) (h.massIntegral f b i) (h.massIntegral f b i)
      (massIntegral h.nm h.mass n' F) := by
  refine (simpson_est N.grid (k := k + j + 2) fun m hm => ?_).mono (by omega)
  have hpos := N.mass m hm
  exact ((((hF m hm).mul (N.dndlnm m hm)).div (near_exact _)).est'
    (div_nonneg (mul_nonneg (hf m hm) (N.dndlnm_nonneg m hm)) hpos.le)).mono (by omega)

theorem occ_near (N : Node R j h b i n' b' c' s') {m : ℕ} (hm : m < h.nm) :
    Near (j + 1) (h.occ b i m) (occ c' s' m : Fl R) :=
  (N.cen m hm).add (N.sat m hm) (N.cen_nonneg m hm) (N.sat_nonneg m hm)

theorem occ_nonneg (N : Node R j h b i n' b' c' s') {m : ℕ} (hm : m < h.nm) : 0 ≤ h.occ b i m :=
  add_nonneg (N.cen_nonneg m hm) (N.sat_nonneg m hm)

theorem ntot_est (N : Node R j h b i n' b' c' s') :
    Est (7 * (2 * j + h.nm / 2 + R.lib + 20)) (h.ntot b i) (h.ntot b i) (ntot h.nm h.mass n' c' s' : Fl R) :=
  (massIntegral_est N (fun _ hm => occ_near N hm) fun _ hm => occ_nonneg N hm).mono (by omega)

theorem rho_le {K : ℕ} (hK : (K : ℝ) * R.u ≤ 3 / 8) : R.rho ^ K ≤ 8 / 5 := by
  have h1 : 1 - (K : ℝ) * R.u ≤ (1 - R.u) ^ K := by
    have := one_add_mul_le_pow (a := -R.u) (by linarith [R.u_lt_one]) K
    calc _ = 1 + (K : ℝ) * -R.u := by ring
      _ ≤ _ := this
      _ = _ := by ring
  rw [Rounding.rho, div_pow, one_pow]
  calc _ ≤ 1 / (5 / 8 : ℝ) := one_div_le_one_div_of_le (by norm_num) (by linarith)
    _ = 8 / 5 := by norm_num

/-- The number densities of centrals, satellites and all galaxies have a relative error of at most `K` roundings. -/
theorem C111_density (N : Node R j h b i n' b' c' s')
    (hK : ((14 * j + 7 * (h.nm / 2) + 7 * R.lib + 140 : ℕ) : ℝ) * R.u < 1) :
    |(massIntegral h.nm h.mass n' (fun m => ((c' m : ℝ) : Fl R))).val - h.ncen b i|
      ≤ gamma R.u (14 * j + 7 * (h.nm / 2) + 7 * R.lib + 140) * h.ncen b i
    ∧ |(massIntegral h.nm h.mass n' (fun m => ((s' m : ℝ) : Fl R))).val - h.nsat b i|
      ≤ gamma R.u (14 * j + 7 * (h.nm / 2) + 7 * R.lib + 140) * h.nsat b i
    ∧ |(ntot h.nm h.mass n' c' s' : Fl R).val - h.ntot b i|
      ≤ gamma R.u (14 * j + 7 * (h.nm / 2) + 7 * R.lib + 140) * h.ntot b i :=
  ⟨((massIntegral_est N N.cen N.cen_nonneg).mono (by omega)).bound hK,
   ((massIntegral_est N N.sat N.sat_nonneg).mono (by omega)).bound hK,
   ((ntot_est N).mono (by omega)).bound hK⟩

/-- So have the fractions of centrals and satellites. -/
theorem C111_fraction (N : Node R j h b i n' b' c' s') (hK : ((42 * j + 21 * (h.nm / 2) + 21 * R.lib + 414 : ℕ) : ℝ) * R.u < 1) :
    |(fraction h.nm h.mass n' c' s' c' : Fl R).val - h.ncen b i / h.ntot b i|
      ≤ gamma R.u (42 * j + 21 * (h.nm / 2) + 21 * R.lib + 414) * (h.ncen b i / h.ntot b i)
    ∧ |(fraction h.nm h.mass n' c' s' s' : Fl R).val - h.nsat b i / h.ntot b i|
      ≤ gamma R.u (42 * j + 21 * (h.nm / 2) + 21 * R.lib + 414) * (h.nsat b i / h.ntot b i) := by
  have hle : ((7 * (2 * j + h.nm / 2 + R.lib + 20) : ℕ) : ℝ) * R.u ≤ 3 / 8 := by
    have h1 : 3 * (7 * (2 * j + h.nm / 2 + R.lib + 20)) ≤ 42 * j + 21 * (h.nm / 2) + 21 * R.lib + 420 := by omega
    have h2 : 8 * (7 * (2 * j + h.nm / 2 + R.lib + 20)) ≤ 3 * (42 * j + 21 * (h.nm / 2) + 21 * R.lib + 414) := by omega
    have h3 : (8 : ℝ) * ((7 * (2 * j + h.nm / 2 + R.lib + 20) : ℕ) : ℝ)
        ≤ 3 * ((42 * j + 21 * (h.nm / 2) + 21 * R.lib + 414 : ℕ) : ℝ) := by exact_mod_cast h2
    have h4 := mul_le_mul_of_nonneg_right h3 R.u_nonneg
    linarith
  have ht := (ntot_est N).near (rho_le hle)
  have hn := (ntot_est N).nonneg
  exact ⟨(((massIntegral_est N N.cen N.cen_nonneg).div' ht hn).mono (by omega)).bound hK,
    (((massIntegral_est N N.sat N.sat_nonneg).div' ht hn).mono (by omega)).bound hK⟩

/-- And the linear bias of all galaxies. -/
theorem C111_bias (N : Node R j h b i n' b' c' s') (hK : ((49 * j + 21 * (h.nm / 2) + 21 * R.lib + 428 : ℕ) : ℝ) * R.u < 1) :
    |(biasIntegral h.nm h.mass n' b' c' s' (occ c' s') : Fl R).val - h.biasIntegral h.occ b i|
      ≤ gamma R.u (49 * j + 21 * (h.nm / 2) + 21 * R.lib + 428) * h.biasIntegral h.occ b i := by
  have hle : ((7 * (2 * j + h.nm / 2 + R.lib + 20) : ℕ) : ℝ) * R.u ≤ 3 / 8 := by
    have h2 : 8 * (7 * (2 * j + h.nm / 2 + R.lib + 20)) ≤ 3 * (49 * j + 21 * (h.nm / 2) + 21 * R.lib + 428) := by omega
    have h3 : (8 : ℝ) * ((7 * (2 * j + h.nm / 2 + R.lib + 20) : ℕ) : ℝ)
        ≤ 3 * ((49 * j + 21 * (h.nm / 2) + 21 * R.lib + 428 : ℕ) : ℝ) := by exact_mod_cast h2
    have h4 := mul_le_mul_of_nonneg_right h3 R.u_nonneg
    linarith
  have ht := (ntot_est N).near (rho_le hle)
  have hn := (ntot_est N).nonneg
  have e : Est (7 * (3 * j + 4 + h.nm / 2 + R.lib + 17)) _ _
      (Fl.simpson h.nm (fun m => ((h.mass m : ℝ) : Fl R))
        (fun m => occ c' s' m * ((b' m : ℝ) : Fl R) * ((n' m : ℝ) : Fl R) / ((h.mass m : ℝ) : Fl R))) :=
    simpson_est N.grid (k := 3 * j + 4)
      (a := fun m => h.occ b i m * h.haloBiasInt b i m * h.dndlnmInt b i m / h.mass m)
      (y := fun m => h.occ b i m * h.haloBiasInt b i m * h.dndlnmInt b i m / h.mass m) fun m hm =>
        (((((occ_near N hm).mul (N.haloBias m hm)).mul (N.dndlnm m hm)).div (near_exact _)).est'
          (div_nonneg (mul_nonneg (mul_nonneg (occ_nonneg N hm) (N.haloBias_nonneg m hm)) (N.dndlnm_nonneg m hm))
            (N.mass m hm).le)).mono (by omega)
  exact ((e.div' ht hn).mono (by omega)).bound hK

/-! ## The hypotheses are met -/

theorem demo_haloBiasInt (i m : ℕ) : Hod.demo.haloBiasInt 0 i m = (m : ℝ) + 1 + i / 2 := by
  have h := interpLinear_affine (n := Hod.demo.nzv) (by decide) Hod.demo_sorted.2 ((m : ℝ) + 1) 1 ((i : ℝ) / 2)
  unfold Hod.Base.haloBiasInt interp1d
  rw [show (fun l => Hod.demo.haloBias l m) = fun l => ((m : ℝ) + 1) + 1 * Hod.demo.zVec l by
    funext l; simp only [Hod.demo]; ring]
  change interpLinear Hod.demo.nzv Hod.demo.zVec _ ((i : ℝ) / 2) = _
  rw [h]; ring

theorem demo_node (i : ℕ) : Node R 0 Hod.demo 0 i (Hod.demo.dndlnmInt 0 i) (Hod.demo.haloBiasInt 0 i) (Hod.demo.occCen 0 i)
    (Hod.demo.occSat 0 i) where
  grid := by refine ⟨fun i _ => ?_, fun i _ => ?_, fun i _ => ?_⟩ <;> (simp [Hod.demo]; try norm_num)
  mass m _ := by simp only [Hod.demo]; positivity
  dndlnm m _ := near_exact _
  haloBias m _ := near_exact _
  cen m _ := near_exact _
  sat m _ := near_exact _
  dndlnm_nonneg m _ := by rw [Hod.demo_dndlnmInt]; positivity
  haloBias_nonneg m _ := by rw [demo_haloBiasInt]; positivity
  cen_nonneg m _ := by simp only [Hod.demo]; split_ifs <;> norm_num
  sat_nonneg m _ := by simp only [Hod.demo]; positivity

/-- the number density of all galaxies of a concrete object in double precision -/
example (i : ℕ) : |(ntot Hod.demo.nm Hod.demo.mass (Hod.demo.dndlnmInt 0 i) (Hod.demo.occCen 0 i) (Hod.demo.occSat 0 i)
      : Fl (Rounding.binary 53 (by norm_num))).val - Hod.demo.ntot 0 i| ≤ gamma (1 / 2 ^ 53) 154 * Hod.demo.ntot 0 i :=
  (C111_density (demo_node i) (by simp [Rounding.binary, Hod.demo]; norm_num)).2.2

example (i : ℕ) : |(fraction Hod.demo.nm Hod.demo.mass (Hod.demo.dndlnmInt 0 i) (Hod.demo.occCen 0 i) (Hod.demo.occSat 0 i)
      (Hod.demo.occCen 0 i) : Fl (Rounding.binary 53 (by norm_num))).val - Hod.demo.ncen 0 i / Hod.demo.ntot 0 i|
      ≤ gamma (1 / 2 ^ 53) 456 * (Hod.demo.ncen 0 i / Hod.demo.ntot 0 i) :=
  (C111_fraction (demo_node i) (by simp [Rounding.binary, Hod.demo]; norm_num)).1

example (i : ℕ) : |(biasIntegral Hod.demo.nm Hod.demo.mass (Hod.demo.dndlnmInt 0 i) (Hod.demo.haloBiasInt 0 i)
      (Hod.demo.occCen 0 i) (Hod.demo.occSat 0 i) (occ (Hod.demo.occCen 0 i) (Hod.demo.occSat 0 i))
      : Fl (Rounding.binary 53 (by norm_num))).val - Hod.demo.biasIntegral Hod.demo.occ 0 i|
      ≤ gamma (1 / 2 ^ 53) 470 * Hod.demo.biasIntegral Hod.demo.occ 0 i :=
  C111_bias (demo_node i) (by simp [Rounding.binary, Hod.demo]; norm_num)

end Verif.HodRounded

import Verif.Lemmas.SimpsonLimit
import Verif.Props.PkSigns
import Verif.Props.HodModels

/-! Property C100: the sums over mass and observable converge to the integrals they stand for when the grids are
refined. -/

namespace Verif.Convergence

open Verif.Lib Verif.Spec Filter Topology Set MeasureTheory

theorem smooth_of_dist {n : ℕ} {x : ℕ → ℝ} {f : ℝ → ℝ} {ε δ : ℝ} (g : GentleGrid n x) (hδ : 0 ≤ δ)
    (hstep : ∀ i, i + 1 < n → x (i + 1) - x i ≤ δ)
    (h : ∀ s ∈ Icc (x 0) (x (n - 1)), ∀ t ∈ Icc (x 0) (x (n - 1)), |s - t| ≤ 3 * δ → |f s - f t| ≤ ε) :
    Smooth n x f ε := by
  intro i j hij hj3 hjn s hs t ht
  have hsub : Icc (x i) (x j) ⊆ Icc (x 0) (x (n - 1)) :=
    Icc_subset_Icc (GentleGrid.le g (Nat.zero_le i) (by omega)) (GentleGrid.le g (by omega) (by omega))
  refine h s (hsub hs) t (hsub ht) ?_
  have key : x j - x i ≤ 3 * δ := by
    obtain rfl | rfl | rfl | rfl : j = i ∨ j = i + 1 ∨ j = i + 2 ∨ j = i + 3 := by omega
    · linarith
    · have := hstep i (by omega); linarith
    · have := hstep i (by omega); have := hstep (i + 1) (by omega); linarith
    · have := hstep i (by omega); have := hstep (i + 1) (by omega); have := hstep (i + 2) (by omega); linarith
  rw [abs_le]
  exact ⟨by linarith [hs.1, ht.2], by linarith [hs.2, ht.1]⟩

/-- C100: on a grid whose neighbouring steps differ at most by a factor 2 and are at most `δ`, Simpson's rule as computed by
scipy (any number of points) misses the integral of a function with Lipschitz constant `L` by at most
`6 L δ` times the length of the interval -/
theorem C100_error_bound {n : ℕ} {x : ℕ → ℝ} {f : ℝ → ℝ} {L δ : ℝ} (hn : n ≠ 0) (g : GentleGrid n x) (hδ : 0 ≤ δ)
    (hL : 0 ≤ L) (hstep : ∀ i, i + 1 < n → x (i + 1) - x i ≤ δ)
    (hf : ∀ s ∈ Icc (x 0) (x (n - 1)), ∀ t ∈ Icc (x 0) (x (n - 1)), |f s - f t| ≤ L * |s - t|) :
    |simpson n x (fun i => f (x i)) - ∫ t in x 0..x (n - 1), f t| ≤ 6 * L * δ * (x (n - 1) - x 0) := by
  have hc : ContinuousOn f (Icc (x 0) (x (n - 1))) := by
    refine (LipschitzOnWith.of_dist_le_mul (K := ⟨L, hL⟩) fun s hs t ht => ?_).continuousOn
    exact hf s hs t ht
  have := simpson_bound (ε := L * (3 * δ)) hn g hc (smooth_of_dist g hδ hstep fun s hs t ht hst =>
    (hf s hs t ht).trans (mul_le_mul_of_nonneg_left hst hL))
  linarith

/-- C100: for every continuous function, Simpson's rule on gentle grids from `a` to (nearly) `b` converges to the integral as
the largest step goes to zero -/
theorem C100_simpson_converges {ι : Type} {l : Filter ι} {n : ι → ℕ} {x : ι → ℕ → ℝ} {a b : ℝ} {f : ℝ → ℝ}
    (hf : ContinuousOn f (Icc a b)) (hn : ∀ᶠ k in l, n k ≠ 0) (hg : ∀ᶠ k in l, GentleGrid (n k) (x k))
    (h0 : ∀ᶠ k in l, x k 0 = a) (h1 : ∀ᶠ k in l, x k (n k - 1) ≤ b)
    (hlast : Tendsto (fun k => x k (n k - 1)) l (𝓝 b))
    (hmesh : ∀ δ > 0, ∀ᶠ k in l, ∀ i, i + 1 < n k → x k (i + 1) - x k i ≤ δ) :
    Tendsto (fun k => simpson (n k) (x k) (fun i => f (x k i))) l (𝓝 (∫ t in a..b, f t)) := by
  rcases l.eq_or_neBot with rfl | hne
  · exact tendsto_bot
  have hab : a ≤ b := by
    refine ge_of_tendsto hlast ?_
    filter_upwards [hn, hg, h0] with k hk gk h0k
    rw [← h0k]
    exact GentleGrid.le gk (Nat.zero_le _) (by omega)
  have hint : IntervalIntegrable f volume a b := hf.intervalIntegrable_of_Icc hab
  -- the integrals up to the last node converge
  have hI : Tendsto (fun k => ∫ t in a..x k (n k - 1), f t) l (𝓝 (∫ t in a..b, f t)) := by
    have hcont : ContinuousOn (fun u => ∫ t in a..u, f t) (Icc a b) := by
      have := intervalIntegral.continuousOn_primitive_interval (a := a) (b := b) (f := f) (μ := volume)
        (by rw [uIcc_of_le hab]; exact hf.integrableOn_Icc)
      rwa [uIcc_of_le hab] at this
    have := (hcont b ⟨hab, le_rfl⟩).tendsto.comp (tendsto_nhdsWithin_iff.2 ⟨hlast, by
      filter_upwards [hn, hg, h0, h1] with k hk gk h0k h1k
      refine ⟨?_, h1k⟩
      rw [← h0k]
      exact GentleGrid.le gk (Nat.zero_le _) (by omega)⟩)
    exact this
  have hdiff : Tendsto (fun k => simpson (n k) (x k) (fun i => f (x k i)) - ∫ t in a..x k (n k - 1), f t) l (𝓝 0) := by
    rw [Metric.tendsto_nhds]
    intro η hη
    have huc : UniformContinuousOn f (Icc a b) := isCompact_Icc.uniformContinuousOn_of_continuous hf
    have hε : 0 < η / (4 * (b - a + 1)) := by have := sub_nonneg.2 hab; positivity
    obtain ⟨δ, hδ, hu⟩ := Metric.uniformContinuousOn_iff_le.1 huc _ hε
    filter_upwards [hn, hg, h0, h1, hmesh (δ / 3) (by positivity)] with k hk gk h0k h1k hm
    have hsub : Icc (x k 0) (x k (n k - 1)) ⊆ Icc a b := Icc_subset_Icc h0k.ge h1k
    have hb := simpson_bound (ε := η / (4 * (b - a + 1))) hk gk (hf.mono hsub)
      (smooth_of_dist gk (by positivity) hm fun s hs t ht hst => hu s (hsub hs) t (hsub ht) (by
        rw [Real.dist_eq]; linarith))
    rw [h0k] at hb
    rw [Real.dist_eq, sub_zero]
    refine lt_of_le_of_lt hb ?_
    have hlen : x k (n k - 1) - a ≤ b - a := by linarith
    have : 2 * (η / (4 * (b - a + 1))) * (x k (n k - 1) - a) ≤ 2 * (η / (4 * (b - a + 1))) * (b - a) :=
      mul_le_mul_of_nonneg_left hlen (by positivity)
    refine lt_of_le_of_lt this ?_
    have hpos : 0 < b - a + 1 := by linarith [sub_nonneg.2 hab]
    rw [show 2 * (η / (4 * (b - a + 1))) * (b - a) = η * ((b - a) / (2 * (b - a + 1))) by field_simp; ring]
    have : (b - a) / (2 * (b - a + 1)) < 1 := by rw [div_lt_one (by positivity)]; linarith [sub_nonneg.2 hab]
    nlinarith
  have := hdiff.add hI
  simpa using this

/-! ## The grids of the code -/

/-- number of points of `numpy.arange(lo, hi, d)` -/
noncomputable def arangeLen (lo hi d : ℝ) : ℕ := ⌈(hi - lo) / d⌉₊

/-- the mass grid of hmf: `10 ** numpy.arange(Mmin, Mmax, dlog10m)` -/
noncomputable def massGrid (lo d : ℝ) (i : ℕ) : ℝ := (10 : ℝ) ^ (lo + i * d)

theorem pow10_small : ∀ᶠ d in 𝓝[>] (0 : ℝ), (10 : ℝ) ^ d ≤ 2 := by
  have : Tendsto (fun d : ℝ => (10 : ℝ) ^ d) (𝓝 0) (𝓝 ((10 : ℝ) ^ (0 : ℝ))) :=
    (Real.continuous_const_rpow (by norm_num)).tendsto 0
  rw [Real.rpow_zero] at this
  exact (this.mono_left nhdsWithin_le_nhds).eventually_le_const (by norm_num)

theorem massGrid_facts {lo hi : ℝ} (h : lo < hi) :
    (∀ᶠ d in 𝓝[>] (0 : ℝ), arangeLen lo hi d ≠ 0) ∧ (∀ᶠ d in 𝓝[>] (0 : ℝ), GentleGrid (arangeLen lo hi d) (massGrid lo d)) ∧
      (∀ᶠ d in 𝓝[>] (0 : ℝ), massGrid lo d 0 = (10 : ℝ) ^ lo) ∧
      (∀ᶠ d in 𝓝[>] (0 : ℝ), massGrid lo d (arangeLen lo hi d - 1) ≤ (10 : ℝ) ^ hi) ∧
      Tendsto (fun d => massGrid lo d (arangeLen lo hi d - 1)) (𝓝[>] 0) (𝓝 ((10 : ℝ) ^ hi)) ∧
      ∀ δ > 0, ∀ᶠ d in 𝓝[>] (0 : ℝ), ∀ i, i + 1 < arangeLen lo hi d → massGrid lo d (i + 1) - massGrid lo d i ≤ δ := by
  have hlen : ∀ d : ℝ, 0 < d → 0 < arangeLen lo hi d := fun d hd => Nat.ceil_pos.2 (div_pos (by linarith) hd)
  have hlast : ∀ d : ℝ, 0 < d → lo + ((arangeLen lo hi d - 1 : ℕ) : ℝ) * d < hi ∧
      hi - d ≤ lo + ((arangeLen lo hi d - 1 : ℕ) : ℝ) * d := by
    intro d hd
    have h1 := hlen d hd
    have e : ((arangeLen lo hi d - 1 : ℕ) : ℝ) = (arangeLen lo hi d : ℝ) - 1 := by
      rw [Nat.cast_sub h1]; simp
    have c1 := Nat.ceil_lt_add_one (div_nonneg (by linarith : (0 : ℝ) ≤ hi - lo) hd.le)
    have c2 := Nat.le_ceil ((hi - lo) / d)
    change (arangeLen lo hi d : ℝ) < _ at c1
    change _ ≤ (arangeLen lo hi d : ℝ) at c2
    rw [div_add_one hd.ne', lt_div_iff₀ hd] at c1
    rw [div_le_iff₀ hd] at c2
    rw [e]
    constructor <;> nlinarith
  refine ⟨?_, ?_, ?_, ?_, ?_, ?_⟩
  · filter_upwards [self_mem_nhdsWithin] with d hd using (hlen d hd).ne'
  · filter_upwards [self_mem_nhdsWithin, pow10_small] with d hd h2
    exact Pk.logGrid_gentle _ lo d hd h2
  · exact Eventually.of_forall fun d => by simp [massGrid]
  · filter_upwards [self_mem_nhdsWithin] with d hd
    exact Real.rpow_le_rpow_of_exponent_le (by norm_num) (hlast d hd).1.le
  · have hc : Tendsto (fun u : ℝ => (10 : ℝ) ^ u) (𝓝 hi) (𝓝 ((10 : ℝ) ^ hi)) :=
      (Real.continuous_const_rpow (by norm_num)).tendsto hi
    refine hc.comp ?_
    have t1 : Tendsto (fun d : ℝ => hi - d) (𝓝[>] 0) (𝓝 hi) := by
      have : Tendsto (fun d : ℝ => hi - d) (𝓝 0) (𝓝 (hi - 0)) := (continuous_const.sub continuous_id).tendsto 0
      rw [sub_zero] at this
      exact this.mono_left nhdsWithin_le_nhds
    refine tendsto_of_tendsto_of_tendsto_of_le_of_le' t1 tendsto_const_nhds ?_ ?_
    · filter_upwards [self_mem_nhdsWithin] with d hd using (hlast d hd).2
    · filter_upwards [self_mem_nhdsWithin] with d hd using (hlast d hd).1.le
  · intro δ hδ
    -- every step is at most `10^hi (10^d - 1)`
    have t : Tendsto (fun d : ℝ => (10 : ℝ) ^ hi * ((10 : ℝ) ^ d - 1)) (𝓝[>] 0) (𝓝 0) := by
      have : Tendsto (fun d : ℝ => (10 : ℝ) ^ hi * ((10 : ℝ) ^ d - 1)) (𝓝 0) (𝓝 ((10 : ℝ) ^ hi * ((10 : ℝ) ^ (0 : ℝ) - 1))) :=
        (continuous_const.mul ((Real.continuous_const_rpow (by norm_num)).sub continuous_const)).tendsto 0
      rw [Real.rpow_zero, sub_self, mul_zero] at this
      exact this.mono_left nhdsWithin_le_nhds
    filter_upwards [self_mem_nhdsWithin, t.eventually_le_const hδ] with d hd hs
    intro i hi'
    have hd' : 0 < d := hd
    have e : massGrid lo d (i + 1) - massGrid lo d i = massGrid lo d i * ((10 : ℝ) ^ d - 1) := by
      unfold massGrid
      rw [show lo + ((i + 1 : ℕ) : ℝ) * d = (lo + i * d) + d by push_cast; ring, Real.rpow_add (by norm_num)]
      ring
    have hle : massGrid lo d i ≤ (10 : ℝ) ^ hi := by
      refine Real.rpow_le_rpow_of_exponent_le (by norm_num) ?_
      have := (hlast d hd).1
      have hi'' : (i : ℝ) ≤ ((arangeLen lo hi d - 1 : ℕ) : ℝ) := by
        exact_mod_cast (by omega : i ≤ arangeLen lo hi d - 1)
      nlinarith
    have h1 : 0 ≤ (10 : ℝ) ^ d - 1 := sub_nonneg.2 (Real.one_le_rpow (by norm_num) hd'.le)
    rw [e]
    exact (mul_le_mul_of_nonneg_right hle h1).trans hs

/-- C100: on the mass grid of the code, from `Mmin` up to but not including `Mmax`, Simpson's rule converges to the integral
from `10^Mmin` to `10^Mmax` as `dlog10m` goes to zero -/
theorem C100_mass_grid {lo hi : ℝ} (h : lo < hi) {f : ℝ → ℝ} (hf : ContinuousOn f (Icc ((10 : ℝ) ^ lo) ((10 : ℝ) ^ hi))) :
    Tendsto (fun d => simpson (arangeLen lo hi d) (massGrid lo d) (fun i => f (massGrid lo d i))) (𝓝[>] 0)
      (𝓝 (∫ M in (10 : ℝ) ^ lo..(10 : ℝ) ^ hi, f M)) := by
  obtain ⟨h1, h2, h3, h4, h5, h6⟩ := massGrid_facts h
  exact C100_simpson_converges hf h1 h2 h3 h4 h5 h6

/-- C100: on the observable grid (`numpy.logspace`, hod.py:93-115) Simpson's rule converges to the integral between the limits
of the bin as the number of points grows -/
theorem C100_observable_grid {lo hi : ℝ} (h : lo < hi) {f : ℝ → ℝ}
    (hf : ContinuousOn f (Icc ((10 : ℝ) ^ lo) ((10 : ℝ) ^ hi))) :
    Tendsto (fun n : ℕ => simpson n (Hod.obsRow lo hi n) (fun o => f (Hod.obsRow lo hi n o))) atTop
      (𝓝 (∫ O in (10 : ℝ) ^ lo..(10 : ℝ) ^ hi, f O)) := by
  have hd0 : Tendsto (fun n : ℕ => (hi - lo) / ((n : ℝ) - 1)) atTop (𝓝[>] 0) := by
    refine tendsto_nhdsWithin_iff.2 ⟨?_, ?_⟩
    · refine Tendsto.div_atTop tendsto_const_nhds ?_
      exact tendsto_atTop_add_const_right _ _ tendsto_natCast_atTop_atTop
    · filter_upwards [eventually_ge_atTop 2] with n hn
      have : (2 : ℝ) ≤ n := by exact_mod_cast hn
      have h1 : 0 < hi - lo := by linarith
      have h2 : 0 < (n : ℝ) - 1 := by linarith
      exact div_pos h1 h2
  have hgrid : ∀ n : ℕ, Hod.obsRow lo hi n = fun i : ℕ => (10 : ℝ) ^ (lo + i * ((hi - lo) / ((n : ℝ) - 1))) := fun n => rfl
  have hlast : ∀ n : ℕ, 2 ≤ n → Hod.obsRow lo hi n (n - 1) = (10 : ℝ) ^ hi := by
    intro n hn
    have : (2 : ℝ) ≤ n := by exact_mod_cast hn
    have h1 : (n : ℝ) - 1 ≠ 0 := by linarith
    rw [hgrid]
    simp only
    rw [Nat.cast_sub (by omega : 1 ≤ n)]
    congr 1
    push_cast
    field_simp
    ring
  refine C100_simpson_converges hf ?_ ?_ ?_ ?_ ?_ ?_
  · filter_upwards [eventually_ge_atTop 2] with n hn using by omega
  · filter_upwards [hd0.eventually pow10_small, hd0.eventually self_mem_nhdsWithin] with n h2 hd
    rw [hgrid]
    exact Pk.logGrid_gentle _ lo _ hd h2
  · exact Eventually.of_forall fun n => by rw [hgrid]; simp
  · filter_upwards [eventually_ge_atTop 2] with n hn using (hlast n hn).le
  · exact tendsto_const_nhds.congr' (by filter_upwards [eventually_ge_atTop 2] with n hn using (hlast n hn).symm)
  · intro δ hδ
    have t : Tendsto (fun d : ℝ => (10 : ℝ) ^ hi * ((10 : ℝ) ^ d - 1)) (𝓝[>] 0) (𝓝 0) := by
      have : Tendsto (fun d : ℝ => (10 : ℝ) ^ hi * ((10 : ℝ) ^ d - 1)) (𝓝 0) (𝓝 ((10 : ℝ) ^ hi * ((10 : ℝ) ^ (0 : ℝ) - 1))) :=
        (continuous_const.mul ((Real.continuous_const_rpow (by norm_num)).sub continuous_const)).tendsto 0
      rw [Real.rpow_zero, sub_self, mul_zero] at this
      exact this.mono_left nhdsWithin_le_nhds
    filter_upwards [eventually_ge_atTop 2, hd0.eventually self_mem_nhdsWithin, hd0.eventually (t.eventually_le_const hδ)]
      with n hn hd hs
    intro i hi'
    have hd' : 0 < (hi - lo) / ((n : ℝ) - 1) := hd
    have hle : Hod.obsRow lo hi n i ≤ (10 : ℝ) ^ hi := by
      rw [← hlast n hn, hgrid]
      refine Real.rpow_le_rpow_of_exponent_le (by norm_num) ?_
      have : (i : ℝ) ≤ ((n - 1 : ℕ) : ℝ) := by exact_mod_cast (by omega : i ≤ n - 1)
      nlinarith
    have e : Hod.obsRow lo hi n (i + 1) - Hod.obsRow lo hi n i =
        Hod.obsRow lo hi n i * ((10 : ℝ) ^ ((hi - lo) / ((n : ℝ) - 1)) - 1) := by
      rw [hgrid]
      simp only
      rw [show lo + ((i + 1 : ℕ) : ℝ) * ((hi - lo) / ((n : ℝ) - 1)) =
        (lo + i * ((hi - lo) / ((n : ℝ) - 1))) + (hi - lo) / ((n : ℝ) - 1) by push_cast; ring, Real.rpow_add (by norm_num)]
      ring
    have h1 : 0 ≤ (10 : ℝ) ^ ((hi - lo) / ((n : ℝ) - 1)) - 1 := sub_nonneg.2 (Real.one_le_rpow (by norm_num) hd'.le)
    rw [e]
    exact (mul_le_mul_of_nonneg_right hle h1).trans hs

/-- the integral of `1 / M` on the default range of masses -/
example : Tendsto (fun d => simpson (arangeLen 9 16 d) (massGrid 9 d) (fun i => (massGrid 9 d i)⁻¹)) (𝓝[>] 0)
    (𝓝 (7 * Real.log 10)) := by
  have h0 : (0 : ℝ) < (10 : ℝ) ^ (9 : ℝ) := Real.rpow_pos_of_pos (by norm_num) _
  have h1 : (0 : ℝ) < (10 : ℝ) ^ (16 : ℝ) := Real.rpow_pos_of_pos (by norm_num) _
  have := C100_mass_grid (lo := 9) (hi := 16) (by norm_num) (f := fun M => M⁻¹)
    (continuousOn_id.inv₀ fun M hM => (lt_of_lt_of_le h0 hM.1).ne')
  rw [integral_inv_of_pos h0 h1, Real.log_div h1.ne' h0.ne', Real.log_rpow (by norm_num), Real.log_rpow (by norm_num)] at this
  convert this using 2
  ring

end Verif.Convergence

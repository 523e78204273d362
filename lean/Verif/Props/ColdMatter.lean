import Verif.Model.ColdMatter
import Verif.Lemmas.Simpson
import Mathlib.Analysis.SpecialFunctions.Pow.Asymptotics
import Mathlib.Analysis.SpecialFunctions.Pow.Continuity
import Mathlib.Analysis.SpecialFunctions.Trigonometric.Deriv
import Mathlib.Analysis.SpecialFunctions.Trigonometric.Bounds
import Mathlib.Analysis.Calculus.Deriv.MeanValue
import Mathlib.Tactic.Positivity
import Mathlib.Tactic.FieldSimp

/-! # Cold matter and collapse redshifts: properties -/

namespace Verif.ColdMatter

open Verif.Lib Verif.Spec Filter Topology

/-! ## The ratio of the transfer functions -/

/-- growth of the largest scales relative to equality -/
noncomputable def growth (g om T : ℝ) : ℝ := (1 + 2.5e4 * om * ((T / 2.7) ^ 4)⁻¹) * g

/-- free streaming -/
noncomputable def streaming (k om h f N T : ℝ) : ℝ :=
  17.2 * f * (1 + 0.488 * f ^ (-7 / 6 : ℝ)) * (N * (k * h * (T / 2.7) ^ 2 / om) / f) ^ 2

noncomputable def pcb (f : ℝ) : ℝ := (5 - √(1 + 24 * (1 - f))) / 4

theorem ratio_eq (k g om h f N T : ℝ) (hf : f ≠ 0) : tkColdRatio k g om h f N T =
    (1 + (growth g om T / (1 + streaming k om h f N T)) ^ (0.7 : ℝ)) ^ (pcb f / 0.7) /
      ((1 - f) ^ (0.7 / pcb f) + (growth g om T / (1 + streaming k om h f N T)) ^ (0.7 : ℝ)) ^ (pcb f / 0.7) := by
  unfold tkColdRatio
  rw [if_neg hf]
  rfl

theorem pcb_pos {f : ℝ} (h0 : 0 < f) (_h1 : f < 1) : 0 < pcb f := by
  unfold pcb
  have : √(1 + 24 * (1 - f)) < 5 := by
    rw [Real.sqrt_lt' (by norm_num)]
    linarith
  linarith

theorem growth_pos {g om T : ℝ} (hg : 0 < g) (ho : 0 < om) : 0 < growth g om T := by unfold growth; positivity

theorem streaming_nonneg {f : ℝ} (h0 : 0 < f) (k om h N T : ℝ) : 0 ≤ streaming k om h f N T := by
  unfold streaming; positivity

/-- the ratio as a function of the suppressed growth `X` -/
noncomputable def shape (c p X : ℝ) : ℝ := (1 + X) ^ (p / 0.7) / (c ^ (0.7 / p) + X) ^ (p / 0.7)

theorem shape_eq {c p X : ℝ} (hc : 0 < c) (hX : 0 ≤ X) : shape c p X = ((1 + X) / (c ^ (0.7 / p) + X)) ^ (p / 0.7) := by
  unfold shape
  rw [Real.div_rpow (by linarith) (by have := Real.rpow_nonneg hc.le (0.7 / p); linarith)]

theorem shape_anti {c p X Y : ℝ} (hc : 0 < c) (hc1 : c ≤ 1) (hp : 0 < p) (hX : 0 ≤ X) (hXY : X ≤ Y) : shape c p Y ≤ shape c p X := by
  rw [shape_eq hc hX, shape_eq hc (hX.trans hXY)]
  have hca : 0 < c ^ (0.7 / p) := Real.rpow_pos_of_pos hc _
  have hca1 : c ^ (0.7 / p) ≤ 1 := Real.rpow_le_one hc.le hc1 (by positivity)
  have hY : 0 ≤ Y := hX.trans hXY
  refine Real.rpow_le_rpow (by positivity) ?_ (by positivity)
  rw [div_le_div_iff₀ (by positivity) (by positivity)]
  nlinarith

theorem shape_zero {c p : ℝ} (hc : 0 < c) (hp : 0 < p) : shape c p 0 = 1 / c := by
  unfold shape
  rw [add_zero, add_zero, Real.one_rpow, ← Real.rpow_mul hc.le]
  rw [show (0.7 : ℝ) / p * (p / 0.7) = 1 by field_simp, Real.rpow_one]

theorem one_le_shape {c p X : ℝ} (hc : 0 < c) (hc1 : c ≤ 1) (hp : 0 < p) (hX : 0 ≤ X) : 1 ≤ shape c p X := by
  rw [shape_eq hc hX]
  have hca : 0 < c ^ (0.7 / p) := Real.rpow_pos_of_pos hc _
  have hca1 : c ^ (0.7 / p) ≤ 1 := Real.rpow_le_one hc.le hc1 (by positivity)
  refine Real.one_le_rpow ?_ (by positivity)
  rw [one_le_div (by positivity)]
  linarith

/-- C115: the cold matter never has a smaller transfer function than all matter, and at most that of matter without its neutrinos -/
theorem C115_ratio_bounds (k g om h f N T : ℝ) (hf : 0 ≤ f) (hf1 : f < 1) (hg : 0 < g) (ho : 0 < om) :
    1 ≤ tkColdRatio k g om h f N T ∧ tkColdRatio k g om h f N T ≤ 1 / (1 - f) := by
  rcases hf.eq_or_lt with rfl | hf
  · simp [tkColdRatio]
  · rw [ratio_eq _ _ _ _ _ _ _ hf.ne']
    have hX : 0 ≤ (growth g om T / (1 + streaming k om h f N T)) ^ (0.7 : ℝ) := by
      have := streaming_nonneg hf k om h N T
      have := (growth_pos (T := T) hg ho).le
      positivity
    refine ⟨one_le_shape (by linarith) (by linarith) (pcb_pos hf hf1) hX, ?_⟩
    rw [← shape_zero (c := 1 - f) (by linarith) (pcb_pos hf hf1)]
    exact shape_anti (by linarith) (by linarith) (pcb_pos hf hf1) le_rfl hX

/-- C115: neutrinos matter more on smaller scales -/
theorem C115_ratio_mono (k k' g om h f N T : ℝ) (hf : 0 ≤ f) (hf1 : f < 1) (hg : 0 < g) (ho : 0 < om) (hh : 0 ≤ h) (hN : 0 ≤ N)
    (hk : 0 ≤ k) (hkk : k ≤ k') : tkColdRatio k g om h f N T ≤ tkColdRatio k' g om h f N T := by
  rcases hf.eq_or_lt with rfl | hf
  · simp [tkColdRatio]
  · rw [ratio_eq _ _ _ _ _ _ _ hf.ne', ratio_eq _ _ _ _ _ _ _ hf.ne']
    have hs : streaming k om h f N T ≤ streaming k' om h f N T := by
      unfold streaming
      gcongr
    have h0 := streaming_nonneg hf k om h N T
    have hG := growth_pos (T := T) hg ho
    have h1 : 0 < 1 + streaming k' om h f N T := by linarith
    refine shape_anti (by linarith) (by linarith) (pcb_pos hf hf1) (Real.rpow_nonneg (div_pos hG h1).le _) ?_
    exact Real.rpow_le_rpow (div_pos hG h1).le (div_le_div_of_nonneg_left hG.le (by linarith) (by linarith)) (by norm_num)

/-- C115: on the smallest scales the neutrinos do not cluster at all -/
theorem C115_ratio_small_scales (g om h f N T : ℝ) (hf : 0 < f) (hf1 : f < 1) (hg : 0 < g) (ho : 0 < om) (hh : 0 < h)
    (hN : 0 < N) (hT : T ≠ 0) : Tendsto (fun k => tkColdRatio k g om h f N T) atTop (𝓝 (1 / (1 - f))) := by
  have hG := growth_pos (T := T) hg ho
  have hs : Tendsto (fun k => streaming k om h f N T) atTop atTop := by
    have e : (fun k => streaming k om h f N T) = fun k =>
        17.2 * f * (1 + 0.488 * f ^ (-7 / 6 : ℝ)) * (N * (h * (T / 2.7) ^ 2 / om) / f) ^ 2 * k ^ 2 := by
      funext k; unfold streaming; ring
    rw [e]
    have hT2 : 0 < T ^ 2 := by positivity
    have : 0 < (T / 2.7) ^ 2 := by positivity
    exact (tendsto_pow_atTop (by norm_num)).const_mul_atTop (by positivity)
  have hX : Tendsto (fun k => (growth g om T / (1 + streaming k om h f N T)) ^ (0.7 : ℝ)) atTop (𝓝 0) := by
    have h1 : Tendsto (fun k => growth g om T / (1 + streaming k om h f N T)) atTop (𝓝 0) :=
      (tendsto_atTop_add_const_left _ 1 hs).const_div_atTop _
    have := h1.rpow_const (p := (0.7 : ℝ)) (Or.inr (by norm_num))
    rwa [Real.zero_rpow (by norm_num)] at this
  have hc : 0 < (1 - f) ^ (0.7 / pcb f) := Real.rpow_pos_of_pos (by linarith) _
  have hshape : ContinuousAt (fun X => shape (1 - f) (pcb f) X) 0 := by
    unfold shape
    refine ContinuousAt.div ?_ ?_ ?_
    · exact (continuousAt_const.add continuousAt_id).rpow_const (Or.inl (by simp))
    · exact (continuousAt_const.add continuousAt_id).rpow_const (Or.inl (by simpa using hc.ne'))
    · exact (Real.rpow_pos_of_pos (by simpa using hc) _).ne'
  have := hshape.tendsto.comp hX
  rw [shape_zero (by linarith) (pcb_pos hf hf1)] at this
  refine this.congr fun k => ?_
  rw [ratio_eq _ _ _ _ _ _ _ hf.ne']
  rfl

/-- C115: the special case without neutrinos is the limit of few neutrinos -/
theorem C115_ratio_few_neutrinos (k g om h N T : ℝ) (hg : 0 < g) (ho : 0 < om) :
    Tendsto (fun f => tkColdRatio k g om h f N T) (𝓝[>] 0) (𝓝 (tkColdRatio k g om h 0 N T)) := by
  have e : tkColdRatio k g om h 0 N T = 1 := by simp [tkColdRatio]
  rw [e]
  have hup : Tendsto (fun f : ℝ => 1 / (1 - f)) (𝓝[>] 0) (𝓝 1) := by
    have : ContinuousAt (fun f : ℝ => 1 / (1 - f)) 0 := continuousAt_const.div (continuousAt_const.sub continuousAt_id) (by simp)
    have := this.tendsto.mono_left (nhdsWithin_le_nhds (s := Set.Ioi 0))
    simpa using this
  have hev : ∀ᶠ f : ℝ in 𝓝[>] 0, 0 < f ∧ f < 1 := by
    filter_upwards [Ioo_mem_nhdsGT (show (0 : ℝ) < 1 by norm_num)] with f hf using hf
  refine tendsto_of_tendsto_of_tendsto_of_le_of_le' tendsto_const_nhds hup ?_ ?_
  · filter_upwards [hev] with f hf using (C115_ratio_bounds k g om h f N T hf.1.le hf.2 hg ho).1
  · filter_upwards [hev] with f hf using (C115_ratio_bounds k g om h f N T hf.1.le hf.2 hg ho).2

/-! ## The window and the fluctuations -/

theorem sin_sub_mul_cos_le {x : ℝ} (hx : 0 ≤ x) : Real.sin x - x * Real.cos x ≤ x ^ 3 / 3 := by
  have hd : ∀ t : ℝ, HasDerivAt (fun t => t ^ 3 / 3 - (Real.sin t - t * Real.cos t)) (t ^ 2 - t * Real.sin t) t := by
    intro t
    have h1 := ((hasDerivAt_id t).pow 3).div_const 3
    have h2 := (Real.hasDerivAt_sin t).sub ((hasDerivAt_id t).mul (Real.hasDerivAt_cos t))
    refine (h1.sub h2).congr_deriv ?_
    simp only [id]
    push_cast
    ring
  have hm : MonotoneOn (fun t => t ^ 3 / 3 - (Real.sin t - t * Real.cos t)) (Set.Ici 0) := by
    refine monotoneOn_of_hasDerivWithinAt_nonneg (convex_Ici 0) (fun t _ => (hd t).continuousAt.continuousWithinAt)
      (fun t _ => (hd t).hasDerivWithinAt) ?_
    intro t ht
    rw [interior_Ici] at ht
    have ht' : 0 < t := ht
    have := Real.sin_le ht'.le
    nlinarith
  have := hm (Set.mem_Ici.2 le_rfl) (Set.mem_Ici.2 hx) hx
  simp only [Real.sin_zero] at this
  norm_num at this
  linarith

theorem le_sin_sub_mul_cos {x : ℝ} (hx : 0 ≤ x) : x ^ 3 / 3 - x ^ 5 / 30 ≤ Real.sin x - x * Real.cos x := by
  have hsin : ∀ t : ℝ, 0 ≤ t → t - t ^ 3 / 6 ≤ Real.sin t := by
    intro t ht
    have hd : ∀ t : ℝ, HasDerivAt (fun t => Real.sin t - (t - t ^ 3 / 6)) (Real.cos t - (1 - t ^ 2 / 2)) t := by
      intro t
      have h1 := (hasDerivAt_id t).sub (((hasDerivAt_id t).pow 3).div_const 6)
      refine ((Real.hasDerivAt_sin t).sub h1).congr_deriv ?_
      simp only [id]
      push_cast
      ring
    have hm : MonotoneOn (fun t => Real.sin t - (t - t ^ 3 / 6)) (Set.Ici 0) := by
      refine monotoneOn_of_hasDerivWithinAt_nonneg (convex_Ici 0) (fun t _ => (hd t).continuousAt.continuousWithinAt)
        (fun t _ => (hd t).hasDerivWithinAt) ?_
      intro t _
      have := Real.one_sub_sq_div_two_le_cos (x := t)
      linarith
    have := hm (Set.mem_Ici.2 le_rfl) (Set.mem_Ici.2 ht) ht
    simp only [Real.sin_zero] at this
    norm_num at this
    linarith
  have hd : ∀ t : ℝ, HasDerivAt (fun t => Real.sin t - t * Real.cos t - (t ^ 3 / 3 - t ^ 5 / 30))
      (t * Real.sin t - (t ^ 2 - t ^ 4 / 6)) t := by
    intro t
    have h1 := ((hasDerivAt_id t).pow 3).div_const 3
    have h3 := ((hasDerivAt_id t).pow 5).div_const 30
    have h2 := (Real.hasDerivAt_sin t).sub ((hasDerivAt_id t).mul (Real.hasDerivAt_cos t))
    refine (h2.sub (h1.sub h3)).congr_deriv ?_
    simp only [id]
    push_cast
    ring
  have hm : MonotoneOn (fun t => Real.sin t - t * Real.cos t - (t ^ 3 / 3 - t ^ 5 / 30)) (Set.Ici 0) := by
    refine monotoneOn_of_hasDerivWithinAt_nonneg (convex_Ici 0) (fun t _ => (hd t).continuousAt.continuousWithinAt)
      (fun t _ => (hd t).hasDerivWithinAt) ?_
    intro t ht
    rw [interior_Ici] at ht
    have ht' : 0 < t := ht
    have := hsin t ht'.le
    nlinarith
  have := hm (Set.mem_Ici.2 le_rfl) (Set.mem_Ici.2 hx) hx
  simp only [Real.sin_zero] at this
  norm_num at this
  linarith

theorem neg_le_sin_sub_mul_cos {x : ℝ} (hx : 0 ≤ x) : -(x ^ 3 / 3) ≤ Real.sin x - x * Real.cos x := by
  have hd : ∀ t : ℝ, HasDerivAt (fun t => t ^ 3 / 3 + (Real.sin t - t * Real.cos t)) (t ^ 2 + t * Real.sin t) t := by
    intro t
    have h1 := ((hasDerivAt_id t).pow 3).div_const 3
    have h2 := (Real.hasDerivAt_sin t).sub ((hasDerivAt_id t).mul (Real.hasDerivAt_cos t))
    refine (h1.add h2).congr_deriv ?_
    simp only [id]
    push_cast
    ring
  have hm : MonotoneOn (fun t => t ^ 3 / 3 + (Real.sin t - t * Real.cos t)) (Set.Ici 0) := by
    refine monotoneOn_of_hasDerivWithinAt_nonneg (convex_Ici 0) (fun t _ => (hd t).continuousAt.continuousWithinAt)
      (fun t _ => (hd t).hasDerivWithinAt) ?_
    intro t ht
    rw [interior_Ici] at ht
    have ht' : 0 < t := ht
    have : -t ≤ Real.sin t := by
      rcases le_or_gt 1 t with h | h
      · linarith [Real.neg_one_le_sin t]
      · linarith [Real.sin_nonneg_of_nonneg_of_le_pi ht'.le (by linarith [Real.two_le_pi])]
    nlinarith
  have := hm (Set.mem_Ici.2 le_rfl) (Set.mem_Ici.2 hx) hx
  simp only [Real.sin_zero] at this
  norm_num at this
  linarith

/-- C115: the window never amplifies, and lets the largest scales through -/
theorem C115_window (x : ℝ) (hx : 0 < x) : |topHat x| ≤ 1 ∧ 1 - x ^ 2 / 10 ≤ topHat x := by
  have h3 : 0 < 3 / x ^ 3 := by positivity
  have e : 3 / x ^ 3 * (x ^ 3 / 3) = 1 := by field_simp
  have e' : 3 / x ^ 3 * (x ^ 3 / 3 - x ^ 5 / 30) = 1 - x ^ 2 / 10 := by field_simp; ring
  unfold topHat
  refine ⟨abs_le.2 ⟨?_, ?_⟩, ?_⟩
  · have := mul_le_mul_of_nonneg_left (neg_le_sin_sub_mul_cos hx.le) h3.le
    rw [mul_neg, e] at this
    exact this
  · have := mul_le_mul_of_nonneg_left (sin_sub_mul_cos_le hx.le) h3.le
    rw [e] at this
    exact this
  · have := mul_le_mul_of_nonneg_left (le_sin_sub_mul_cos hx.le) h3.le
    rw [e'] at this
    exact this

theorem gentle_uniform (n : ℕ) {d : ℝ} (hd : 0 < d) : GentleGrid n fun i => (i : ℝ) * d where
  step_pos i _ := by push_cast; ring_nf; exact hd
  up i _ := by push_cast; ring_nf; linarith
  down i _ := by push_cast; ring_nf; linarith

theorem simpsonDx_mono {n : ℕ} {d : ℝ} (hd : 0 < d) {y z : ℕ → ℝ} (h : ∀ i < n, y i ≤ z i) : simpsonDx n d y ≤ simpsonDx n d z :=
  simpson_mono (gentle_uniform n hd) h

/-- C115: the fluctuations are real and grow with the power; on equal steps of the logarithm a power multiplied by the square of a number
multiplies them by the number; they are at most those without window -/
theorem C115_sigma (n : ℕ) (P P' k : ℕ → ℝ) (r : ℝ) (hk : 0 < k 0) (hk1 : k 0 < k 1) (hkp : ∀ i < n, 0 < k i) (hr : 0 < r)
    (hP : ∀ i < n, 0 ≤ P i) (hPP : ∀ i < n, P i ≤ P' i) :
    sigmaRcc n P k r ^ 2 = 1 / (2 * Real.pi ^ 2) * simpsonDx n (Real.log (k 1 / k 0)) (fun i => k i ^ 3 * P i * topHat (r * k i) ^ 2) ∧
    sigmaRcc n P k r ≤ sigmaRcc n P' k r ∧ (∀ c, 0 ≤ c → sigmaRcc n (fun i => c ^ 2 * P i) k r = c * sigmaRcc n P k r) ∧
    sigmaRcc n P k r ^ 2 ≤ 1 / (2 * Real.pi ^ 2) * simpsonDx n (Real.log (k 1 / k 0)) (fun i => k i ^ 3 * P i) := by
  have hd : 0 < Real.log (k 1 / k 0) := Real.log_pos (by rwa [one_lt_div hk])
  have hpi : 0 < Real.pi ^ 2 := by positivity
  have h5 : (0.5 : ℝ) / Real.pi ^ 2 = 1 / (2 * Real.pi ^ 2) := by rw [div_eq_div_iff (by positivity) (by positivity)]; ring
  have hS : 0 ≤ simpsonDx n (Real.log (k 1 / k 0)) fun i => P i * k i ^ 3 * topHat (r * k i) ^ 2 :=
    simpson_nonneg (gentle_uniform n hd) fun i hi => by have := hP i hi; have := hkp i hi; positivity
  have e : sigmaRcc n P k r ^ 2 = 1 / (2 * Real.pi ^ 2) * simpsonDx n (Real.log (k 1 / k 0))
      (fun i => k i ^ 3 * P i * topHat (r * k i) ^ 2) := by
    unfold sigmaRcc
    rw [Real.sq_sqrt (by positivity), h5]
    congr 2
    funext i; ring
  refine ⟨e, ?_, ?_, ?_⟩
  · refine Real.sqrt_le_sqrt (mul_le_mul_of_nonneg_left (simpsonDx_mono hd fun i hi => ?_) (by positivity))
    have := hkp i hi
    have := hPP i hi
    gcongr
  · intro c hc
    unfold sigmaRcc
    simp only
    have : (fun i => c ^ 2 * P i * k i ^ 3 * topHat (r * k i) ^ 2) = fun i => c ^ 2 * (P i * k i ^ 3 * topHat (r * k i) ^ 2) := by
      funext i; ring
    rw [this]
    unfold simpsonDx
    rw [simpson_smul, show ∀ a b : ℝ, a * (c ^ 2 * b) = c ^ 2 * (a * b) from fun a b => by ring, Real.sqrt_mul (by positivity),
      Real.sqrt_sq hc]
  · rw [e]
    refine mul_le_mul_of_nonneg_left (simpsonDx_mono hd fun i hi => ?_) (by positivity)
    have h1 := hkp i hi
    have h2 := hP i hi
    have h3 := (C115_window (r * k i) (by positivity)).1
    have h4 : topHat (r * k i) ^ 2 ≤ 1 := by rw [← sq_abs]; exact pow_le_one₀ (abs_nonneg _) h3
    have h5 : 0 ≤ k i ^ 3 * P i := by positivity
    nlinarith

/-- C115: with the ratio applied to the matter power as the comment in the source describes (lines 1543-1545), the fluctuations of cold
matter are at least those of matter and at most those over the cold fraction -/
theorem C115_cold_sigma (n : ℕ) (P k : ℕ → ℝ) (r g om h f N T : ℝ) (hk : 0 < k 0) (hk1 : k 0 < k 1) (hkp : ∀ i < n, 0 < k i)
    (hr : 0 < r) (hP : ∀ i < n, 0 ≤ P i) (hf : 0 ≤ f) (hf1 : f < 1) (hg : 0 < g) (ho : 0 < om) :
    sigmaRcc n P k r ≤ sigmaRcc n (fun i => P i * tkColdRatio (k i) g om h f N T ^ 2) k r ∧
    sigmaRcc n (fun i => P i * tkColdRatio (k i) g om h f N T ^ 2) k r ≤ sigmaRcc n P k r / (1 - f) := by
  have hb := fun i => C115_ratio_bounds (k i) g om h f N T hf hf1 hg ho
  have hc : 0 < 1 - f := by linarith
  constructor
  · refine (C115_sigma n P _ k r hk hk1 hkp hr hP fun i hi => ?_).2.1
    exact le_mul_of_one_le_right (hP i hi) (one_le_pow₀ (hb i).1)
  · have := (C115_sigma n P P k r hk hk1 hkp hr hP fun i _ => le_rfl).2.2.1 (1 / (1 - f)) (by positivity)
    rw [show sigmaRcc n P k r / (1 - f) = 1 / (1 - f) * sigmaRcc n P k r by ring, ← this]
    refine (C115_sigma n _ _ k r hk hk1 hkp hr (fun i hi => ?_) fun i hi => ?_).2.1
    · have := hP i hi; positivity
    · rw [mul_comm]
      exact mul_le_mul_of_nonneg_right (pow_le_pow_left₀ (by linarith [(hb i).1]) (hb i).2 2) (hP i hi)

/-! ## Collapse redshifts -/

/-- the scale factor found for one halo: its own if its fluctuations are small, otherwise the one at which they reach the threshold -/
def FormedAt (g : ℝ → ℝ) (a dc sigma af : ℝ) : Prop :=
  af ∈ Set.Icc (1e-3 : ℝ) 1 ∧ ((sigma ≤ dc ∧ af = a) ∨ (dc < sigma ∧ af < a ∧ g af * sigma = g a * dc))

theorem collapse_cases {solve : (ℝ → ℝ) → Except PyErr ℝ} (hs : Bracketing solve) {g : ℝ → ℝ} {a dc sigma : ℝ}
    (hc : ContinuousOn g (Set.Icc 1e-3 1)) (hm : StrictMonoOn g (Set.Icc 1e-3 1)) (ha : a ∈ Set.Icc (1e-3 : ℝ) 1) (hg : 0 < g a)
    (hdc : 0 < dc) (hsig : 0 < sigma) :
    (g 1e-3 * sigma ≤ g a * dc → ∃ af, FormedAt g a dc sigma af ∧ collapse solve g a dc sigma = .ok (-1 + 1 / af)) ∧
    (g a * dc < g 1e-3 * sigma → collapse solve g a dc sigma = .error .valueError) := by
  have h0 : (1e-3 : ℝ) ∈ Set.Icc (1e-3 : ℝ) 1 := ⟨le_rfl, by norm_num⟩
  have h1 : (1 : ℝ) ∈ Set.Icc (1e-3 : ℝ) 1 := ⟨by norm_num, le_rfl⟩
  have hfac : g a ≤ g a * dc / sigma ↔ sigma ≤ dc := by
    rw [le_div_iff₀ hsig]
    exact mul_le_mul_iff_right₀ hg
  constructor
  · intro hb
    by_cases h : sigma ≤ dc
    · refine ⟨a, ⟨ha, Or.inl ⟨h, rfl⟩⟩, ?_⟩
      unfold collapse
      rw [if_pos (hfac.2 h)]
      rfl
    · push Not at h
      have hlt : g a * dc / sigma < g a := not_le.1 fun h' => absurd (hfac.1 h') (not_le.2 h)
      have hle1 : g a ≤ g 1 := hm.monotoneOn ha h1 ha.2
      have hle0 : g 1e-3 ≤ g a * dc / sigma := by rwa [le_div_iff₀ hsig]
      obtain ⟨x, hx, hsx, hx0⟩ := hs.root (fun af => g af - g a * dc / sigma)
        (mul_nonpos_of_nonpos_of_nonneg (by linarith) (by linarith)) (hc.sub continuousOn_const)
      have hgx : g x = g a * dc / sigma := by linarith
      refine ⟨x, ⟨hx, Or.inr ⟨h, ?_, ?_⟩⟩, ?_⟩
      · rw [← hm.lt_iff_lt hx ha, hgx]; exact hlt
      · rw [hgx]; field_simp
      · unfold collapse
        rw [if_neg (not_le.2 hlt)]
        simp only
        rw [hsx]
        rfl
  · intro hb
    have hle0 : g 1e-3 ≤ g a := hm.monotoneOn h0 ha ha.1
    have h : dc < sigma := by
      by_contra hc'
      push Not at hc'
      nlinarith
    have hlt : g a * dc / sigma < g a := not_le.1 fun h' => absurd (hfac.1 h') (not_le.2 h)
    have hle1 : g a ≤ g 1 := hm.monotoneOn ha h1 ha.2
    have hlt0 : g a * dc / sigma < g 1e-3 := by rwa [div_lt_iff₀ hsig]
    unfold collapse
    rw [if_neg (not_le.2 hlt)]
    simp only
    rw [hs.refuse _ (mul_pos (by linarith) (by linarith))]
    rfl

theorem mapM_exists {α β : Type} {R : α → β → Prop} {f : α → Except PyErr β} (l : List α) (h : ∀ x ∈ l, ∃ y, R x y ∧ f x = .ok y) :
    ∃ ys, l.mapM f = .ok ys ∧ List.Forall₂ R l ys := by
  induction l with
  | nil => exact ⟨[], rfl, .nil⟩
  | cons a l ih =>
    obtain ⟨y, h1, h2⟩ := h a (by simp)
    obtain ⟨ys, h3, h4⟩ := ih fun x hx => h x (by simp [hx])
    refine ⟨y :: ys, ?_, .cons h1 h4⟩
    rw [List.mapM_cons, h2, h3]
    rfl

theorem mapM_fails {α β : Type} {f : α → Except PyErr β} (e : PyErr) (l : List α) (h : ∀ x ∈ l, (∃ y, f x = .ok y) ∨ f x = .error e)
    (hx : ∃ x ∈ l, f x = .error e) : l.mapM f = .error e := by
  induction l with
  | nil => simp at hx
  | cons a l ih =>
    rw [List.mapM_cons]
    rcases h a (by simp) with ⟨b, hb⟩ | hb
    · obtain ⟨c, hc, hc'⟩ := hx
      rcases List.mem_cons.1 hc with rfl | hc
      · rw [hc'] at hb; cases hb
      · rw [hb, ih (fun a ha => h a (by simp [ha])) ⟨c, hc, hc'⟩]
        rfl
    · rw [hb]; rfl

/-- C115: the redshifts of formation.  A halo whose small fluctuations have not reached the threshold gets the redshift of the call; any other gets
the earlier redshift at which they do.  One halo that would have formed before redshift 999 and the whole call fails -/
theorem C115_collapse {solve : (ℝ → ℝ) → Except PyErr ℝ} (hs : Bracketing solve) (g sigma : ℝ → ℝ) (a dc z : ℝ) (M : List ℝ)
    (hc : ContinuousOn g (Set.Icc 1e-3 1)) (hm : StrictMonoOn g (Set.Icc 1e-3 1)) (ha : a ∈ Set.Icc (1e-3 : ℝ) 1) (hz : a = 1 / (1 + z))
    (hg : 0 < g a) (hdc : 0 < dc) (hsig : ∀ m ∈ M, 0 < sigma (0.01 * m)) :
    ((∀ m ∈ M, g 1e-3 * sigma (0.01 * m) ≤ g a * dc) → ∃ zf, collapseRedshifts solve g sigma a dc M = .ok zf ∧
      List.Forall₂ (fun m t => (sigma (0.01 * m) ≤ dc ∧ t = z) ∨
        (dc < sigma (0.01 * m) ∧ z < t ∧ t ≤ 999 ∧ g (1 / (1 + t)) * sigma (0.01 * m) = g (1 / (1 + z)) * dc)) M zf) ∧
    ((∃ m ∈ M, g a * dc < g 1e-3 * sigma (0.01 * m)) → collapseRedshifts solve g sigma a dc M = .error .valueError) := by
  have ha0 : 0 < a := lt_of_lt_of_le (by norm_num) ha.1
  have hz1 : 1 + z = 1 / a := by rw [hz]; simp
  constructor
  · intro hb
    refine mapM_exists M fun m hmM => ?_
    obtain ⟨af, ⟨haf, hF⟩, h2⟩ := (collapse_cases hs hc hm ha hg hdc (hsig m hmM)).1 (hb m hmM)
    refine ⟨_, ?_, h2⟩
    have haf0 : 0 < af := lt_of_lt_of_le (by norm_num) haf.1
    rcases hF with ⟨h3, rfl⟩ | ⟨h3, h4, h5⟩
    · left; exact ⟨h3, by linarith⟩
    · right
      refine ⟨h3, ?_, ?_, ?_⟩
      · have := one_div_lt_one_div_of_lt haf0 h4
        linarith
      · have := one_div_le_one_div_of_le (by norm_num) haf.1
        norm_num at this
        rw [one_div]; linarith
      · rw [show 1 / (1 + (-1 + 1 / af)) = af by field_simp; ring_nf, ← hz]
        exact h5
  · rintro ⟨m, hmM, hb⟩
    refine mapM_fails _ M (fun m hmM => ?_) ⟨m, hmM, (collapse_cases hs hc hm ha hg hdc (hsig m hmM)).2 hb⟩
    rcases le_or_gt (g 1e-3 * sigma (0.01 * m)) (g a * dc) with h | h
    · obtain ⟨af, -, h2⟩ := (collapse_cases hs hc hm ha hg hdc (hsig m hmM)).1 h
      exact Or.inl ⟨_, h2⟩
    · exact Or.inr ((collapse_cases hs hc hm ha hg hdc (hsig m hmM)).2 h)

/-- C115: the larger the fluctuations the earlier the formation: light halos form before heavy ones -/
theorem C115_collapse_order {solve : (ℝ → ℝ) → Except PyErr ℝ} (hs : Bracketing solve) (g : ℝ → ℝ) (a dc sigma sigma' t t' : ℝ)
    (hc : ContinuousOn g (Set.Icc 1e-3 1)) (hm : StrictMonoOn g (Set.Icc 1e-3 1)) (ha : a ∈ Set.Icc (1e-3 : ℝ) 1)
    (hg : 0 < g a) (hdc : 0 < dc) (h0 : 0 < sigma') (hle : sigma' ≤ sigma) (h1 : collapse solve g a dc sigma = .ok t)
    (h2 : collapse solve g a dc sigma' = .ok t') : t' ≤ t := by
  have key : ∀ s u, 0 < s → collapse solve g a dc s = .ok u → ∃ af, FormedAt g a dc s af ∧ u = -1 + 1 / af := by
    intro s u hs0 hu
    rcases le_or_gt (g 1e-3 * s) (g a * dc) with h | h
    · obtain ⟨af, h3, h4⟩ := (collapse_cases hs hc hm ha hg hdc hs0).1 h
      rw [hu] at h4
      exact ⟨af, h3, Except.ok.inj h4⟩
    · rw [(collapse_cases hs hc hm ha hg hdc hs0).2 h] at hu
      cases hu
  obtain ⟨x, ⟨hx, hX⟩, rfl⟩ := key _ _ (h0.trans_le hle) h1
  obtain ⟨y, ⟨hy, hY⟩, rfl⟩ := key _ _ h0 h2
  have hx0 : 0 < x := lt_of_lt_of_le (by norm_num) hx.1
  have hxy : x ≤ y := by
    rcases hX with ⟨h3, rfl⟩ | ⟨h3, h4, h5⟩
    · rcases hY with ⟨_, rfl⟩ | ⟨h6, _, _⟩
      · exact le_rfl
      · linarith
    · rcases hY with ⟨_, rfl⟩ | ⟨h6, h7, h8⟩
      · exact h4.le
      · rw [← hm.le_iff_le hx hy]
        have hp : 0 < g a * dc := mul_pos hg hdc
        have hgx : 0 < g x := by
          by_contra hn
          push Not at hn
          nlinarith [h0.trans_le hle]
        by_contra hn
        push Not at hn
        nlinarith
  have := one_div_le_one_div_of_le hx0 hxy
  linarith

/-! ## Cases that meet the hypotheses -/

example : 1 ≤ tkColdRatio 1 0.8 0.14 0.7 0.01 3 2.7255 := (C115_ratio_bounds 1 0.8 0.14 0.7 0.01 3 2.7255 (by norm_num) (by norm_num)
  (by norm_num) (by norm_num)).1

/-- a solver that meets the contract -/
noncomputable def demoSolve (f : ℝ → ℝ) : Except PyErr ℝ :=
  open Classical in if 0 < f 1e-3 * f 1 then .error .valueError else if h : ∃ x ∈ Set.Icc (1e-3 : ℝ) 1, f x = 0 then .ok h.choose else .ok 0

theorem demoSolve_bracketing : Bracketing demoSolve where
  refuse f h := if_pos h
  root f h hc := by
    have hex : ∃ x ∈ Set.Icc (1e-3 : ℝ) 1, f x = 0 := by
      rcases le_total (f 1e-3) 0 with h1 | h1
      · rcases le_or_gt 0 (f 1) with h2 | h2
        · exact intermediate_value_Icc (by norm_num) hc ⟨h1, h2⟩
        · rcases h1.eq_or_lt with h3 | h3
          · exact ⟨1e-3, ⟨le_rfl, by norm_num⟩, h3⟩
          · nlinarith
      · rcases le_or_gt (f 1) 0 with h2 | h2
        · exact intermediate_value_Icc' (by norm_num) hc ⟨h2, h1⟩
        · rcases h1.eq_or_lt with h3 | h3
          · exact ⟨1e-3, ⟨le_rfl, by norm_num⟩, h3.symm⟩
          · nlinarith
    refine ⟨hex.choose, hex.choose_spec.1, ?_, hex.choose_spec.2⟩
    unfold demoSolve
    rw [if_neg (not_lt.2 h), dif_pos hex]

/-- growth proportional to the scale factor, today, fluctuations twice the threshold: formed at redshift 1 -/
example : collapseRedshifts demoSolve (fun a => a) (fun _ => 2) 1 1 [5] = .ok [1] := by
  obtain ⟨zf, h1, h2⟩ := (C115_collapse demoSolve_bracketing (fun a => a) (fun _ => 2) 1 1 0 [5] continuousOn_id strictMonoOn_id
    ⟨by norm_num, le_rfl⟩ (by norm_num) (by norm_num) (by norm_num) (by norm_num)).1 (by norm_num)
  rw [h1]
  cases h2 with
  | cons h h' =>
    cases h'
    rcases h with ⟨h, -⟩ | ⟨-, h3, -, h4⟩
    · norm_num at h
    · rename_i t
      have : 1 + t ≠ 0 := by linarith
      field_simp at h4
      congr 2
      linarith

end Verif.ColdMatter

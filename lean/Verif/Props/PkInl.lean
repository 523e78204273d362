import Verif.Props.PkIdentities
import Mathlib.Algebra.BigOperators.Ring.Finset

/-! Properties C10–C13: the non-linear halo bias integral and the fixed-weight trapezoid integrator. -/

namespace Verif.Pk

open Finset Verif.Lib Verif.Spec Spectra

/-! ## C13 -/

private theorem weights_sum_aux (p : ℕ) (x f : ℕ → ℝ) :
    ∑ i ∈ range p, f (i + 1) * ((x (i + 1 + 1) - x (i + 1 - 1)) / 2) + f 0 * ((x 1 - x 0) / 2)
        + f (p + 1) * ((x (p + 1) - x p) / 2)
      = ∑ i ∈ range (p + 1), (x (i + 1) - x i) * (f i + f (i + 1)) / 2 := by
  induction p with
  | zero => simp; ring
  | succ p ih =>
    rw [sum_range_succ _ (p + 1), ← ih, sum_range_succ _ p]
    simp only [Nat.add_sub_cancel]
    ring

/-- C13: the fixed-weight integrator is the sum of the trapezoid areas. -/
theorem C13_trapezoid (s : Spectra) (hn : 2 ≤ s.nm) (f : ℕ → ℝ) :
    s.trapezoidalIntegrator f = trapezoidArea s.nm s.mass f := by
  obtain ⟨p, hp⟩ : ∃ p, s.nm = p + 2 := ⟨s.nm - 2, by omega⟩
  unfold trapezoidalIntegrator trapezoidArea
  rw [hp, sum_range_succ, sum_range_succ', show p + 2 - 1 = p + 1 by omega, ← weights_sum_aux]
  have h0 : s.trapezoidalWeights 0 = (s.mass 1 - s.mass 0) / 2 := by
    unfold trapezoidalWeights; rw [hp, if_neg (by omega), if_pos rfl]
  have hl : s.trapezoidalWeights (p + 1) = (s.mass (p + 1) - s.mass p) / 2 := by
    unfold trapezoidalWeights
    rw [hp, if_pos (by omega), show p + 2 - 1 = p + 1 by omega, show p + 2 - 2 = p by omega]
  rw [h0, hl]
  congr 2
  refine sum_congr rfl fun i hi => ?_
  have hi := mem_range.1 hi
  unfold trapezoidalWeights
  rw [hp, if_neg (by omega), if_neg (by omega)]

private theorem telescope (x : ℕ → ℝ) (g : ℝ → ℝ) (n : ℕ) :
    ∑ i ∈ range n, (g (x (i + 1)) - g (x i)) = g (x n) - g (x 0) := by
  induction n with
  | zero => simp
  | succ n ih => rw [sum_range_succ, ih]; ring

/-- C13: affine functions are integrated exactly. -/
theorem C13_affine_exact (s : Spectra) (hn : 2 ≤ s.nm) (α β : ℝ) :
    s.trapezoidalIntegrator (fun m => α + β * s.mass m)
      = α * (s.mass (s.nm - 1) - s.mass 0) + β * (s.mass (s.nm - 1) ^ 2 - s.mass 0 ^ 2) / 2 := by
  rw [C13_trapezoid s hn, trapezoidArea]
  have := telescope s.mass (fun t => α * t + β * t ^ 2 / 2) (s.nm - 1)
  rw [show α * (s.mass (s.nm - 1) - s.mass 0) + β * (s.mass (s.nm - 1) ^ 2 - s.mass 0 ^ 2) / 2
    = α * s.mass (s.nm - 1) + β * s.mass (s.nm - 1) ^ 2 / 2
      - (α * s.mass 0 + β * s.mass 0 ^ 2 / 2) by ring, ← this]
  exact sum_congr rfl fun i _ => by ring

/-- C13: the weights add up to the length of the grid. -/
theorem C13_weights_total (s : Spectra) (hn : 2 ≤ s.nm) :
    ∑ i ∈ range s.nm, s.trapezoidalWeights i = s.mass (s.nm - 1) - s.mass 0 := by
  have := C13_affine_exact s hn 1 0
  simpa [trapezoidalIntegrator] using this

/-- C13: on sorted grids the weights are non-negative. -/
theorem C13_weights_nonneg (s : Spectra) (hn : 2 ≤ s.nm)
    (hx : ∀ i, i + 1 < s.nm → s.mass i ≤ s.mass (i + 1)) :
    ∀ i < s.nm, 0 ≤ s.trapezoidalWeights i := by
  intro i hi
  unfold trapezoidalWeights
  split_ifs with h1 h2
  · have := hx (s.nm - 2) (by omega)
    rw [show s.nm - 2 + 1 = s.nm - 1 by omega] at this
    linarith
  · have := hx 0 (by omega)
    rw [zero_add] at this
    linarith
  · have a := hx i (by omega)
    have b := hx (i - 1) (by omega)
    rw [show i - 1 + 1 = i by omega] at b
    linarith

/-- C13: hence sign and order of the integrand are preserved on sorted grids. -/
theorem C13_order (s : Spectra) (hn : 2 ≤ s.nm)
    (hx : ∀ i, i + 1 < s.nm → s.mass i ≤ s.mass (i + 1)) (f g : ℕ → ℝ)
    (hfg : ∀ i < s.nm, f i ≤ g i) :
    s.trapezoidalIntegrator f ≤ s.trapezoidalIntegrator g ∧
      ((∀ i < s.nm, 0 ≤ f i) → 0 ≤ s.trapezoidalIntegrator f) := by
  have hw := C13_weights_nonneg s hn hx
  constructor
  · exact sum_le_sum fun i hi => mul_le_mul_of_nonneg_right (hfg i (mem_range.1 hi)) (hw i (mem_range.1 hi))
  · intro hf
    exact sum_nonneg fun i hi => mul_nonneg (hf i (mem_range.1 hi)) (hw i (mem_range.1 hi))

example : 2 ≤ demo.nm ∧ ∀ i, i + 1 < demo.nm → demo.mass i ≤ demo.mass (i + 1) := by
  refine ⟨by decide, fun i _ => ?_⟩
  simp only [demo]; push_cast; linarith

/-! ## C11 -/

theorem integrator_lin (s : Spectra) (a b : ℝ) (f g : ℕ → ℝ) :
    s.trapezoidalIntegrator (fun m => a * f m + b * g m)
      = a * s.trapezoidalIntegrator f + b * s.trapezoidalIntegrator g := by
  unfold trapezoidalIntegrator
  rw [mul_sum, mul_sum, ← sum_add_distrib]
  exact sum_congr rfl fun i _ => by ring

theorem integrator_smul (s : Spectra) (a : ℝ) (f : ℕ → ℝ) :
    s.trapezoidalIntegrator (fun m => f m * a) = s.trapezoidalIntegrator f * a := by
  have := integrator_lin s a 0 f 0
  simp only [Pi.zero_apply, zero_mul, add_zero] at this
  rw [mul_comm, ← this]
  simp only [mul_comm]

theorem integrator_congr (s : Spectra) {f g : ℕ → ℝ} (h : ∀ m < s.nm, f m = g m) :
    s.trapezoidalIntegrator f = s.trapezoidalIntegrator g :=
  sum_congr rfl fun i hi => by rw [h i (mem_range.1 hi)]

theorem integrator_swap (s : Spectra) (F : ℕ → ℕ → ℝ) :
    s.trapezoidalIntegrator (fun a => s.trapezoidalIntegrator (fun b => F a b))
      = s.trapezoidalIntegrator (fun b => s.trapezoidalIntegrator (fun a => F a b)) := by
  unfold trapezoidalIntegrator
  simp only [sum_mul]
  rw [sum_comm]
  exact sum_congr rfl fun i _ => sum_congr rfl fun j _ => by ring

/-- C11: symmetry under exchange of the two profiles. -/
theorem C11_symmetric (s : Spectra) (W1 W2 : ℕ → ℝ) (z k : ℕ)
    (hβ : ∀ m1 m2, m1 < s.nm → m2 < s.nm → s.betaNl z k m1 m2 = s.betaNl z k m2 m1) (hn : 0 < s.nm) :
    s.iNL W1 W2 z k = s.iNL W2 W1 z k := by
  have e12 : ∀ W : ℕ → ℝ, s.trapezoidalIntegrator (fun m => s.i12 z k m * W m)
      = s.trapezoidalIntegrator (fun m => s.i21 z k m * W m) := fun W =>
    integrator_congr s fun m hm => by unfold i12 i21; rw [hβ 0 m hn hm]
  have e22 : s.trapezoidalIntegrator
        (fun m1 => s.trapezoidalIntegrator (fun m2 => s.i22 z k m1 m2 * W2 m2) * W1 m1)
      = s.trapezoidalIntegrator
        (fun m1 => s.trapezoidalIntegrator (fun m2 => s.i22 z k m1 m2 * W1 m2) * W2 m1) := by
    simp only [← integrator_smul]
    rw [integrator_swap]
    refine integrator_congr s fun a ha => integrator_congr s fun b hb => ?_
    unfold i22
    rw [hβ b a hb ha]
    ring
  unfold iNL
  rw [e22, e12, e12]
  ring

/-- C11: linearity in the first profile. -/
theorem C11_linear_left (s : Spectra) (a b : ℝ) (W V U : ℕ → ℝ) (z k : ℕ) :
    s.iNL (fun m => a * W m + b * V m) U z k = a * s.iNL W U z k + b * s.iNL V U z k := by
  unfold iNL
  have e1 : s.trapezoidalIntegrator (fun m => s.i21 z k m * (a * W m + b * V m))
      = a * s.trapezoidalIntegrator (fun m => s.i21 z k m * W m)
        + b * s.trapezoidalIntegrator (fun m => s.i21 z k m * V m) := by
    rw [← integrator_lin]; exact integrator_congr s fun m _ => by ring
  have e2 : s.trapezoidalIntegrator (fun m1 =>
        s.trapezoidalIntegrator (fun m2 => s.i22 z k m1 m2 * U m2) * (a * W m1 + b * V m1))
      = a * s.trapezoidalIntegrator
          (fun m1 => s.trapezoidalIntegrator (fun m2 => s.i22 z k m1 m2 * U m2) * W m1)
        + b * s.trapezoidalIntegrator
          (fun m1 => s.trapezoidalIntegrator (fun m2 => s.i22 z k m1 m2 * U m2) * V m1) := by
    rw [← integrator_lin]; exact integrator_congr s fun m _ => by ring
  rw [e1, e2]
  ring

/-- C11: linearity in the second profile. -/
theorem C11_linear_right (s : Spectra) (a b : ℝ) (W V U : ℕ → ℝ) (z k : ℕ) :
    s.iNL U (fun m => a * W m + b * V m) z k = a * s.iNL U W z k + b * s.iNL U V z k := by
  unfold iNL
  have e0 : ∀ g : ℕ → ℝ, s.trapezoidalIntegrator (fun m => g m * (a * W m + b * V m))
      = a * s.trapezoidalIntegrator (fun m => g m * W m)
        + b * s.trapezoidalIntegrator (fun m => g m * V m) := by
    intro g
    rw [← integrator_lin]; exact integrator_congr s fun m _ => by ring
  simp only [e0]
  have e2 : s.trapezoidalIntegrator (fun m1 =>
        (a * s.trapezoidalIntegrator (fun m2 => s.i22 z k m1 m2 * W m2)
          + b * s.trapezoidalIntegrator (fun m2 => s.i22 z k m1 m2 * V m2)) * U m1)
      = a * s.trapezoidalIntegrator
          (fun m1 => s.trapezoidalIntegrator (fun m2 => s.i22 z k m1 m2 * W m2) * U m1)
        + b * s.trapezoidalIntegrator
          (fun m1 => s.trapezoidalIntegrator (fun m2 => s.i22 z k m1 m2 * V m2) * U m1) := by
    rw [← integrator_lin]; exact integrator_congr s fun m _ => by ring
  rw [e2]
  ring

/-- C11: what the symmetry means for the user: the galaxy-matter 2-halo term of `bnl` mode does not depend
on which of the two fields is named first. -/
theorem C11_gm_symmetric (s : Spectra) (hmode : s.nonlinearMode = .bnl) (hresp : s.response = false)
    (hn : 0 < s.nm) (hβ : ∀ z k m1 m2, m1 < s.nm → m2 < s.nm → s.betaNl z k m1 m2 = s.betaNl z k m2 m1) :
    ∃ r, s.powerSpectrumGm = .ok r ∧ ∀ b z k,
      r.pk2h b z k = s.pkLin z k * (s.imTerm z k * (s.icTerm b z k + s.isTerm b z k)
        + s.iNL (s.matterProfile2h z k)
          (fun m => s.centralGalaxyProfile b z k m + s.satelliteGalaxyProfile b z k m) z k) := by
  refine ⟨_, (C03_no_error s hresp).2.1, fun b z k => ?_⟩
  rw [C11_symmetric s _ _ z k (hβ z k) hn]
  simp only [powerSpectrumGmRaw, hmode, if_true]
  ring

example : ({ demo with betaNl := fun _ _ m1 m2 => (m1 : ℝ) * m2 } : Spectra).iNL 1 1 0 0 ≠ 0 := by
  have e : ∀ f : ℕ → ℝ, ({ demo with betaNl := fun _ _ m1 m2 => (m1 : ℝ) * m2 } : Spectra).trapezoidalIntegrator f
      = (f 0 + 2 * f 1 + f 2) / 2 := by
    intro f
    rw [C13_trapezoid _ (by decide)]
    simp [trapezoidArea, demo, sum_range_succ]; ring
  unfold iNL
  simp only [e]
  simp [i12, i21, i22, demo]; norm_num

/-! ## C12 -/

/-- bias-weighted integral of a profile by the trapezoid rule, with the mass below the grid put into the
lowest bin -/
noncomputable def biasWeighted (s : Spectra) (z : ℕ) (W : ℕ → ℝ) : ℝ :=
  s.aTerm z * W 0 * s.meanDensity0 z / s.mass 0
    + trapezoidArea s.nm s.mass (fun m => W m * s.haloBias z m * s.dndlnm z m / s.mass m)

/-- C12: a constant non-linear bias factorises. -/
theorem C12_constant_factorises (s : Spectra) (W1 W2 : ℕ → ℝ) (z k : ℕ) (c : ℝ) (hn : 2 ≤ s.nm)
    (_hm : ∀ m < s.nm, s.mass m ≠ 0)
    (hβ : ∀ m1 m2, m1 < s.nm → m2 < s.nm → s.betaNl z k m1 m2 = c) :
    s.iNL W1 W2 z k = c * biasWeighted s z W1 * biasWeighted s z W2 := by
  have h0 : 0 < s.nm := by omega
  have e12 : ∀ W : ℕ → ℝ, s.trapezoidalIntegrator (fun m => s.i12 z k m * W m)
      = c * trapezoidArea s.nm s.mass (fun m => W m * s.haloBias z m * s.dndlnm z m / s.mass m) := by
    intro W
    rw [← C13_trapezoid s hn, mul_comm, ← integrator_smul]
    exact integrator_congr s fun m hm => by unfold i12; rw [hβ 0 m h0 hm]; ring
  have e21 : ∀ W : ℕ → ℝ, s.trapezoidalIntegrator (fun m => s.i21 z k m * W m)
      = c * trapezoidArea s.nm s.mass (fun m => W m * s.haloBias z m * s.dndlnm z m / s.mass m) := by
    intro W
    rw [← C13_trapezoid s hn, mul_comm, ← integrator_smul]
    exact integrator_congr s fun m hm => by unfold i21; rw [hβ m 0 hm h0]; ring
  have e22 : s.trapezoidalIntegrator
        (fun m1 => s.trapezoidalIntegrator (fun m2 => s.i22 z k m1 m2 * W2 m2) * W1 m1)
      = c * trapezoidArea s.nm s.mass (fun m => W1 m * s.haloBias z m * s.dndlnm z m / s.mass m)
        * trapezoidArea s.nm s.mass (fun m => W2 m * s.haloBias z m * s.dndlnm z m / s.mass m) := by
    rw [← C13_trapezoid s hn, ← C13_trapezoid s hn, mul_assoc, mul_comm c, ← integrator_smul,
      ← integrator_smul]
    refine integrator_congr s fun m1 hm1 => ?_
    have : s.trapezoidalIntegrator (fun m2 => s.i22 z k m1 m2 * W2 m2)
        = s.trapezoidalIntegrator (fun m => W2 m * s.haloBias z m * s.dndlnm z m / s.mass m)
          * (c * (s.haloBias z m1 * s.dndlnm z m1 * (1 / s.mass m1))) := by
      rw [← integrator_smul]
      exact integrator_congr s fun m2 hm2 => by unfold i22; rw [hβ m1 m2 hm1 hm2]; ring
    rw [this]; ring
  unfold iNL biasWeighted
  rw [e12, e21, e22, hβ 0 0 h0 h0]
  ring

example : 2 ≤ demo.nm ∧ (∀ m < demo.nm, demo.mass m ≠ 0) ∧ biasWeighted demo 0 1 ≠ 0 := by
  refine ⟨by decide, fun m _ => by simp only [demo]; positivity, ?_⟩
  rw [biasWeighted, demo_aTerm]
  simp [trapezoidArea, demo, sum_range_succ]; norm_num

/-! ## C10 -/

theorem iNL_zero (s : Spectra) (W1 W2 : ℕ → ℝ) (z k : ℕ) (hn : 0 < s.nm)
    (hβ : ∀ m1 m2, m1 < s.nm → m2 < s.nm → s.betaNl z k m1 m2 = 0) : s.iNL W1 W2 z k = 0 := by
  have e : ∀ f : ℕ → ℝ, (∀ m < s.nm, f m = 0) → s.trapezoidalIntegrator f = 0 := by
    intro f hf
    rw [integrator_congr s (g := fun _ => 0) hf]
    simp [trapezoidalIntegrator]
  unfold iNL
  rw [hβ 0 0 hn hn, e _ (fun m hm => by simp [i12, hβ 0 m hn hm]),
    e _ (fun m hm => by simp [i21, hβ m 0 hm hn]),
    e _ (fun m hm => by rw [e _ (fun m2 hm2 => by simp [i22, hβ m m2 hm hm2])]; simp)]
  simp

/-- C10: with a vanishing table all six spectra of `bnl` mode are those of the plain mode without 2-halo
truncations (also with response on). -/
theorem C10_zero_bias_is_plain (s : Spectra) (hmode : s.nonlinearMode = .bnl) (hn : 0 < s.nm)
    (hβ : ∀ z k m1 m2, m1 < s.nm → m2 < s.nm → s.betaNl z k m1 m2 = 0) :
    let s0 : Spectra := { s with nonlinearMode := .none, twoHaloKtrunc := none, twoHaloKtruncIa := none }
    s.powerSpectrumMm = s0.powerSpectrumMm ∧ s.powerSpectrumGg = s0.powerSpectrumGg ∧
      s.powerSpectrumGm = s0.powerSpectrumGm ∧ s.powerSpectrumMi = s0.powerSpectrumMi ∧
      s.powerSpectrumIi = s0.powerSpectrumIi ∧ s.powerSpectrumGi = s0.powerSpectrumGi := by
  intro s0
  have hz : ∀ W1 W2 z k, s.iNL W1 W2 z k = 0 := fun W1 W2 z k => iNL_zero s W1 W2 z k hn (hβ z k)
  have t1 : ∀ k, s0.twoHaloTruncation k = 1 := fun k => rfl
  have t2 : ∀ k, s0.twoHaloTruncationIa k = 1 := fun k => rfl
  have im : s0.imTerm = s.imTerm := rfl
  have ic : s0.icTerm = s.icTerm := rfl
  have is' : s0.isTerm = s.isTerm := rfl
  have ia : s0.icAlignTerm = s.icAlignTerm := rfl
  have isa : s0.isAlignTerm = s.isAlignTerm := rfl
  have pl : s0.pkLin = s.pkLin := rfl
  have h1 : s0.compute1hTerm = s.compute1hTerm := rfl
  have pm : s0.matterProfile1hMm = s.matterProfile1hMm := rfl
  have pg : s0.matterProfile1hG = s.matterProfile1hG := rfl
  have o1 : s0.oneHaloTruncation = s.oneHaloTruncation := rfl
  have o2 : s0.oneHaloTruncationIa = s.oneHaloTruncationIa := rfl
  have cg : s0.centralGalaxyProfile = s.centralGalaxyProfile := rfl
  have sg : s0.satelliteGalaxyProfile = s.satelliteGalaxyProfile := rfl
  have sa : s0.satelliteAlignmentProfile = s.satelliteAlignmentProfile := rfl
  have po : s0.poissonFunc = s.poissonFunc := rfl
  have md : s0.nonlinearMode = .none := rfl
  have mm : s.powerSpectrumMmRaw = s0.powerSpectrumMmRaw := by
    unfold powerSpectrumMmRaw
    simp only [hmode, md, hz, t1, im, pl, h1, pm, o1, mul_zero, add_zero, mul_one]
  have ap : ∀ r, s.applyResponse r = s0.applyResponse r := by
    intro r
    unfold applyResponse
    rw [mm]
  refine ⟨?_, ?_, ?_, ?_, ?_, ?_⟩
  · unfold powerSpectrumMm; rw [mm]
  · unfold powerSpectrumGg; rw [ap]; congr 1
    unfold powerSpectrumGgRaw
    simp only [hmode, md, hz, t1, ic, is', pl, h1, cg, sg, o1, po, mul_zero, add_zero, mul_one,
      if_true, reduceCtorEq, if_false]
  · unfold powerSpectrumGm; rw [ap]; congr 1
    unfold powerSpectrumGmRaw
    simp only [hmode, md, hz, t1, ic, is', im, pl, h1, cg, sg, pg, o1, mul_zero, add_zero, mul_one,
      if_true, reduceCtorEq, if_false]
  · unfold powerSpectrumMi; rw [ap]; congr 1
    unfold powerSpectrumMiRaw
    simp only [hmode, md, hz, t2, ia, isa, im, pl, h1, sa, pg, o2, mul_zero, sub_zero, mul_one]
  · unfold powerSpectrumIi; rw [ap]; congr 1
    unfold powerSpectrumIiRaw
    simp only [hmode, md, hz, t2, ia, isa, pl, h1, sa, o2, mul_zero, add_zero, mul_one]
  · unfold powerSpectrumGi; rw [ap]; congr 1
    unfold powerSpectrumGiRaw
    simp only [hmode, md, hz, t2, ia, isa, ic, pl, h1, sa, cg, o2, mul_zero, add_zero, mul_one]

example : (0 < demo.nm) ∧ (∀ z k m1 m2, m1 < demo.nm → m2 < demo.nm → demo.betaNl z k m1 m2 = 0) ∧
    demo.twoHaloTruncation 0 ≠ 1 := by
  refine ⟨by decide, fun _ _ _ _ _ _ => rfl, ?_⟩
  have h : 0 < (demo.kVec 0 / 0.05699) ^ (2.853 : ℝ) :=
    Real.rpow_pos_of_pos (by simp [demo]; norm_num) _
  simp only [twoHaloTruncation, demo] at h ⊢
  intro hc
  have h2 : 0 < 0.05 * ((((0 : ℕ) : ℝ) + 1) / 0.05699) ^ (2.853 : ℝ)
      / (1 + ((((0 : ℕ) : ℝ) + 1) / 0.05699) ^ (2.853 : ℝ)) := by positivity
  linarith

end Verif.Pk

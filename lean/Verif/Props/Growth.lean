import Verif.Props.Background
import Verif.Props.ColdMatter
import Verif.Lemmas.LinearOde
import Mathlib.Analysis.SpecialFunctions.Pow.NNReal
import Mathlib.Algebra.Order.Ring.Pow

/-! Property C141: what every exact solution of the growth equation looks like, and what follows for the collapse fits. -/

namespace Verif.Background

open Set Verif.Lemmas

variable {c : DarkEnergy}

theorem aInit_pos : (0 : ℝ) < aInit := by norm_num [aInit]
theorem aInit_lt_one : aInit < 1 := by norm_num [aInit]

/-- the acceleration as a fraction of the expansion rate -/
theorem ah_ratio {Om Ode a : ℝ} (ha : 0 < a) (hm : 0 < Om) (hde : 0 ≤ Ode) :
    2 + ah c a Om Ode / hubble2 c a Om Ode 0 =
      3 / 2 * (1 - c.w (-1 + 1 / a) * (1 - omegaM c a Om Ode 0)) := by
  have hH := (C64_matter_fraction c a Om Ode ha hm hde).1
  have e : hubble2 c a Om Ode 0 = Om * a ^ (-3 : ℤ) + Ode * c.deScale (-1 + 1 / a) := by simp [hubble2]
  have eA : ah c a Om Ode = -0.5 * (Om * a ^ (-3 : ℤ) + (1 + 3 * c.w (-1 + 1 / a)) * Ode * c.deScale (-1 + 1 / a)) := rfl
  have hne : Om * a ^ (-3 : ℤ) + Ode * c.deScale (-1 + 1 / a) ≠ 0 := by rw [← e]; exact hH.ne'
  rw [omegaM, e, eA]
  generalize Om * a ^ (-3 : ℤ) = X at *
  generalize c.deScale (-1 + 1 / a) = Y at *
  generalize c.w (-1 + 1 / a) = w at *
  field_simp
  ring

/-- the matter fraction changes at the rate `3 w Ω_m (1 - Ω_m)` per e-fold -/
theorem omegaM_deriv {Om Ode a : ℝ} (ha : 0 < a) (hm : 0 < Om) (hde : 0 ≤ Ode) :
    HasDerivAt (fun x => omegaM c x Om Ode 0)
      (3 * c.w (-1 + 1 / a) * omegaM c a Om Ode 0 * (1 - omegaM c a Om Ode 0) / a) a := by
  have hH := (C64_matter_fraction c a Om Ode ha hm hde).1
  have h1 : HasDerivAt (fun x : ℝ => Om * x ^ (-3 : ℤ)) (Om * ((-3 : ℤ) * a ^ (-3 - 1 : ℤ))) a :=
    (hasDerivAt_zpow (-3) a (Or.inl ha.ne')).const_mul Om
  have h2 := h1.div (C78_acceleration c a Om Ode 0 ha) hH.ne'
  refine h2.congr_deriv ?_
  have h3 := ah_ratio (c := c) ha hm hde
  have h4 : ah c a Om Ode = hubble2 c a Om Ode 0 *
      (3 / 2 * (1 - c.w (-1 + 1 / a) * (1 - omegaM c a Om Ode 0)) - 2) := by
    rw [← h3]; field_simp; ring
  have h5 : Om * a ^ (-3 : ℤ) = omegaM c a Om Ode 0 * hubble2 c a Om Ode 0 := by
    rw [omegaM]; field_simp
  have h6 : a ^ (-3 - 1 : ℤ) = a ^ (-3 : ℤ) / a := by rw [zpow_sub₀ ha.ne', zpow_one]
  have h7 : Om * (((-3 : ℤ) : ℝ) * a ^ (-3 - 1 : ℤ)) = -3 * (omegaM c a Om Ode 0 * hubble2 c a Om Ode 0) / a := by
    rw [h6, ← h5]; push_cast; ring
  rw [h7, h5, h4]
  generalize omegaM c a Om Ode 0 = o at *
  generalize hubble2 c a Om Ode 0 = H at *
  generalize c.w (-1 + 1 / a) = w at *
  field_simp
  ring

section
variable {Om Ode : ℝ} (hm : 0 < Om) (hde : 0 ≤ Ode)
include hm hde

theorem omegaM_cont : ContinuousOn (fun x => omegaM c x Om Ode 0) (Icc aInit 1) := fun _ hx =>
  (omegaM_deriv (aInit_pos.trans_le hx.1) hm hde).continuousAt.continuousWithinAt

omit hm hde in
theorem w_cont : ContinuousOn (fun x => c.w (-1 + 1 / x)) (Icc aInit 1) := by
  refine ContinuousOn.congr (f := fun x => c.w0 + c.wa * (1 - x)) (by fun_prop) fun x hx => ?_
  exact w_eq c x (aInit_pos.trans_le hx.1)

theorem drag_cont : ContinuousOn (fun a => -(2 + ah c a Om Ode / hubble2 c a Om Ode 0) / a) (Icc aInit 1) := by
  refine ContinuousOn.congr
    (f := fun a => -(3 / 2 * (1 - c.w (-1 + 1 / a) * (1 - omegaM c a Om Ode 0))) / a) ?_ fun x hx => ?_
  · refine ContinuousOn.div ?_ continuousOn_id fun x hx => (aInit_pos.trans_le hx.1).ne'
    exact (continuousOn_const.mul (continuousOn_const.sub (w_cont.mul
      (continuousOn_const.sub (omegaM_cont hm hde))))).neg
  · simp only [ah_ratio (c := c) (aInit_pos.trans_le hx.1) hm hde]

theorem force_cont : ContinuousOn (fun a => 1.5 * omegaM c a Om Ode 0 / a ^ 2) (Icc aInit 1) :=
  (continuousOn_const.mul (omegaM_cont hm hde)).div (by fun_prop) fun x hx =>
    pow_ne_zero 2 (aInit_pos.trans_le hx.1).ne'

omit hm hde in
theorem rhs_eq (a : ℝ) (y : ℝ × ℝ) : growthRhs c Om Ode 0 a y =
    (y.2, -(2 + ah c a Om Ode / hubble2 c a Om Ode 0) / a * y.2 + 1.5 * omegaM c a Om Ode 0 / a ^ 2 * y.1) := by
  simp only [growthRhs, Prod.mk.injEq, true_and]
  ring

/-- C141: in every flat universe with matter and whatever dark energy the growth equation of the code has exactly one
solution from `a_init` to today -/
theorem C141_unique : ∃ y, Solves c Om Ode 0 y ∧ ∀ y', Solves c Om Ode 0 y' → EqOn y' y (Icc aInit 1) := by
  obtain ⟨y, h0, hy⟩ := LinearOde.exists_solution aInit_lt_one.le (drag_cont (c := c) hm hde) (force_cont (c := c) hm hde)
    (growthInit c Om Ode 0)
  refine ⟨y, ⟨h0, fun a ha => by rw [rhs_eq]; exact hy a ha⟩, fun y' hy' => ?_⟩
  refine LinearOde.unique_solution (drag_cont (c := c) hm hde) (force_cont (c := c) hm hde)
    (fun a ha => ?_) hy (hy'.init.trans h0.symm)
  rw [← rhs_eq]
  exact hy'.eqn a ha

omit hm hde in
theorem Solves.cont {y : ℝ → ℝ × ℝ} (h : Solves c Om Ode 0 y) : ContinuousOn y (Icc aInit 1) := fun a ha =>
  (h.eqn a ha).continuousWithinAt

omit hm hde in
theorem Solves.deriv {y : ℝ → ℝ × ℝ} (h : Solves c Om Ode 0 y) {a : ℝ} (ha : a ∈ Ioo aInit 1) :
    HasDerivAt (fun x => (y x).1) (y a).2 a ∧
    HasDerivAt (fun x => (y x).2) (-(2 + ah c a Om Ode / hubble2 c a Om Ode 0) / a * (y a).2
      + 1.5 * omegaM c a Om Ode 0 / a ^ 2 * (y a).1) a := by
  have h1 : HasDerivAt y (growthRhs c Om Ode 0 a (y a)) a :=
    (h.eqn a (Ioo_subset_Icc_self ha)).hasDerivAt (Icc_mem_nhds ha.1 ha.2)
  rw [rhs_eq] at h1
  exact ⟨(hasFDerivAt_fst.comp_hasDerivAt a h1 :), (hasFDerivAt_snd.comp_hasDerivAt a h1 :)⟩

/-- the early matter fraction: the exponent of the initial condition lies between 2/5 and 1 -/
theorem fInit_range : 0 ≤ fInit c Om Ode 0 ∧ fInit c Om Ode 0 < 1 := by
  obtain ⟨-, h1, h2, -⟩ := C64_matter_fraction c aInit Om Ode aInit_pos hm hde
  unfold fInit
  constructor <;> linarith

theorem init_pos : 0 < (growthInit c Om Ode 0).1 ∧ 0 < (growthInit c Om Ode 0).2 := by
  have h := fInit_range (c := c) hm hde
  have h0 := aInit_pos
  constructor
  · exact Real.rpow_pos_of_pos h0 _
  · exact mul_pos (by linarith) (Real.rpow_pos_of_pos h0 _)

theorem growing {y : ℝ → ℝ × ℝ} (h : Solves c Om Ode 0 y) :
    ∀ a ∈ Icc aInit 1, (growthInit c Om Ode 0).1 ≤ (y a).1 ∧ 0 < (y a).2 := by
  have hp := init_pos (c := c) hm hde
  have := LinearOde.growing (D := fun x => (y x).1) (v := fun x => (y x).2) (drag_cont (c := c) hm hde)
    (q := fun a => 1.5 * omegaM c a Om Ode 0 / a ^ 2)
    (fun a ha => by
      have h1 := (C64_matter_fraction c a Om Ode (aInit_pos.trans_le ha.1) hm hde).2.1
      positivity)
    (continuous_fst.comp_continuousOn h.cont) (continuous_snd.comp_continuousOn h.cont)
    (fun a ha => (h.deriv ha).1) (fun a ha => (h.deriv ha).2)
    (by show 0 < (y aInit).1; rw [h.init]; exact hp.1) (by show 0 < (y aInit).2; rw [h.init]; exact hp.2)
  intro a ha
  have h2 := this a ha
  rw [← h.init]
  exact h2

/-- C141: structures only grow: the growth function is positive and strictly increasing from `a_init` to today -/
theorem C141_growing {y : ℝ → ℝ × ℝ} (h : Solves c Om Ode 0 y) :
    (∀ a ∈ Icc aInit 1, 0 < (y a).1 ∧ 0 < (y a).2) ∧ StrictMonoOn (fun a => (y a).1) (Icc aInit 1) := by
  have hg := growing hm hde h
  have hp := init_pos (c := c) hm hde
  refine ⟨fun a ha => ⟨hp.1.trans_le (hg a ha).1, (hg a ha).2⟩, ?_⟩
  refine strictMonoOn_of_hasDerivWithinAt_pos (convex_Icc _ _) (continuous_fst.comp_continuousOn h.cont)
    (f' := fun a => (y a).2) (fun a ha => ?_) fun a ha => ?_
  · rw [interior_Icc] at ha; exact (h.deriv ha).1.hasDerivWithinAt
  · rw [interior_Icc] at ha; exact (hg a (Ioo_subset_Icc_self ha)).2

/-- C141: the rate of growth `dln D / dln a` lies between the matter fraction of the time and 1, for every dark energy with
`w <= 2/3`, and strictly below 1 when there is dark energy -/
theorem C141_rate (hw : ∀ a ∈ Icc aInit 1, c.w0 + c.wa * (1 - a) ≤ 2 / 3) {y : ℝ → ℝ × ℝ} (h : Solves c Om Ode 0 y) :
    ∀ a ∈ Icc aInit 1, omegaM c a Om Ode 0 ≤ a * (y a).2 / (y a).1 ∧ a * (y a).2 / (y a).1 ≤ 1 ∧
      (0 < Ode → a * (y a).2 / (y a).1 < 1) := by
  have hpos := (C141_growing hm hde h).1
  have hf := fInit_range (c := c) hm hde
  have hd0 : aInit * (growthInit c Om Ode 0).2 = (1 - 3 * fInit c Om Ode 0 / 5) * (growthInit c Om Ode 0).1 := by
    have e : aInit ^ (1 - 3 * fInit c Om Ode 0 / 5) = aInit * aInit ^ (-3 * fInit c Om Ode 0 / 5) := by
      rw [show 1 - 3 * fInit c Om Ode 0 / 5 = 1 + -3 * fInit c Om Ode 0 / 5 by ring, Real.rpow_add aInit_pos,
        Real.rpow_one]
    simp only [growthInit, e]
    ring
  have hc1 := continuous_fst.comp_continuousOn h.cont
  have hc2 := continuous_snd.comp_continuousOn h.cont
  have hoc := omegaM_cont (c := c) hm hde
  have hkc : ContinuousOn (fun a => 1.5 * omegaM c a Om Ode 0 / a) (Icc aInit 1) :=
    (continuousOn_const.mul hoc).div continuousOn_id fun x hx => (aInit_pos.trans_le hx.1).ne'
  have up : ∀ a ∈ Icc aInit 1, 0 ≤ (y a).1 - a * (y a).2 ∧
      (0 < (y aInit).1 - aInit * (y aInit).2 → 0 < (y a).1 - a * (y a).2) := by
    refine LinearOde.nonneg_of_deriv hkc (hc1.sub (continuousOn_id.mul hc2))
      (f' := fun a => (y a).2 - (1 * (y a).2 + a * (-(2 + ah c a Om Ode / hubble2 c a Om Ode 0) / a * (y a).2
        + 1.5 * omegaM c a Om Ode 0 / a ^ 2 * (y a).1))) (fun a ha => ?_) (fun a ha => ?_) ?_
    · exact (h.deriv ha).1.sub ((hasDerivAt_id a).mul (h.deriv ha).2)
    · have ha' := Ioo_subset_Icc_self ha
      have ha0 := aInit_pos.trans_le ha'.1
      obtain ⟨-, ho1, ho2, -⟩ := C64_matter_fraction c a Om Ode ha0 hm hde
      have hv := (hpos a ha').2
      have hwa := hw a ha'
      rw [← w_eq c a ha0] at hwa
      rw [ah_ratio ha0 hm hde]
      show -(1.5 * omegaM c a Om Ode 0 / a * ((y a).1 - a * (y a).2)) ≤ _
      rw [← sub_nonneg]
      have e : (y a).2 - (1 * (y a).2 + a * (-(3 / 2 * (1 - c.w (-1 + 1 / a) * (1 - omegaM c a Om Ode 0))) / a * (y a).2
          + 1.5 * omegaM c a Om Ode 0 / a ^ 2 * (y a).1)) -
          -(1.5 * omegaM c a Om Ode 0 / a * ((y a).1 - a * (y a).2)) =
          3 / 2 * (1 - omegaM c a Om Ode 0) * (1 - c.w (-1 + 1 / a)) * (y a).2 := by
        field_simp
        ring
      rw [e]
      exact mul_nonneg (mul_nonneg (mul_nonneg (by norm_num) (by linarith)) (by linarith)) hv.le
    · show 0 ≤ (y aInit).1 - aInit * (y aInit).2
      rw [h.init, hd0]
      have := (init_pos (c := c) hm hde).1
      nlinarith [mul_nonneg hf.1 this.le]
  have low : ∀ a ∈ Icc aInit 1, 0 ≤ a * (y a).2 - omegaM c a Om Ode 0 * (y a).1 := by
    refine fun a ha => (LinearOde.nonneg_of_deriv
      (k := fun a => (1 / 2 + omegaM c a Om Ode 0 - 3 / 2 * (c.w (-1 + 1 / a) * (1 - omegaM c a Om Ode 0))) / a) ?_
      ((continuousOn_id.mul hc2).sub (hoc.mul hc1))
      (f' := fun a => (1 * (y a).2 + a * (-(2 + ah c a Om Ode / hubble2 c a Om Ode 0) / a * (y a).2
        + 1.5 * omegaM c a Om Ode 0 / a ^ 2 * (y a).1)) -
        (3 * c.w (-1 + 1 / a) * omegaM c a Om Ode 0 * (1 - omegaM c a Om Ode 0) / a * (y a).1
          + omegaM c a Om Ode 0 * (y a).2)) (fun a ha => ?_) (fun a ha => ?_) ?_ a ha).1
    · refine ContinuousOn.div ?_ continuousOn_id fun x hx => (aInit_pos.trans_le hx.1).ne'
      exact (continuousOn_const.add hoc).sub (continuousOn_const.mul (w_cont.mul (continuousOn_const.sub hoc)))
    · have ha0 := aInit_pos.trans_le (Ioo_subset_Icc_self ha).1
      exact ((hasDerivAt_id a).mul (h.deriv ha).2).sub ((omegaM_deriv ha0 hm hde).mul (h.deriv ha).1)
    · have ha' := Ioo_subset_Icc_self ha
      have ha0 := aInit_pos.trans_le ha'.1
      obtain ⟨-, ho1, ho2, -⟩ := C64_matter_fraction c a Om Ode ha0 hm hde
      have hD := (hpos a ha').1
      have hwa := hw a ha'
      rw [← w_eq c a ha0] at hwa
      rw [ah_ratio ha0 hm hde, ← sub_nonneg]
      have e : (1 * (y a).2 + a * (-(3 / 2 * (1 - c.w (-1 + 1 / a) * (1 - omegaM c a Om Ode 0))) / a * (y a).2
          + 1.5 * omegaM c a Om Ode 0 / a ^ 2 * (y a).1)) -
          (3 * c.w (-1 + 1 / a) * omegaM c a Om Ode 0 * (1 - omegaM c a Om Ode 0) / a * (y a).1
            + omegaM c a Om Ode 0 * (y a).2) -
          -((1 / 2 + omegaM c a Om Ode 0 - 3 / 2 * (c.w (-1 + 1 / a) * (1 - omegaM c a Om Ode 0))) / a *
            (a * (y a).2 - omegaM c a Om Ode 0 * (y a).1)) =
          omegaM c a Om Ode 0 * (1 - omegaM c a Om Ode 0) * (1 - 3 / 2 * c.w (-1 + 1 / a)) * (y a).1 / a := by
        field_simp
        ring
      have e' : 0 ≤ omegaM c a Om Ode 0 * (1 - omegaM c a Om Ode 0) * (1 - 3 / 2 * c.w (-1 + 1 / a)) * (y a).1 / a := by
        refine div_nonneg (mul_nonneg (mul_nonneg (mul_nonneg ho1.le (by linarith)) (by linarith)) hD.le) ha0.le
      rw [← e] at e'
      exact e'
    · show 0 ≤ aInit * (y aInit).2 - omegaM c aInit Om Ode 0 * (y aInit).1
      rw [h.init, hd0]
      have := (init_pos (c := c) hm hde).1
      have e : omegaM c aInit Om Ode 0 = 1 - fInit c Om Ode 0 := by unfold fInit; ring
      rw [e]
      nlinarith [mul_nonneg hf.1 this.le]
  intro a ha
  have hD := (hpos a ha).1
  rw [le_div_iff₀ hD, div_le_one hD, div_lt_one hD]
  refine ⟨by linarith [low a ha], by linarith [(up a ha).1], fun hd => ?_⟩
  have h1 : 0 < fInit c Om Ode 0 := by
    have := (C64_matter_fraction c aInit Om Ode aInit_pos hm hde).2.2.2 hd
    unfold fInit; linarith
  have := (up a ha).2 (by
    rw [h.init, hd0]
    nlinarith [mul_pos h1 (init_pos (c := c) hm hde).1])
  linarith

omit hm hde in
theorem quotient_deriv {y : ℝ → ℝ × ℝ} (h : Solves c Om Ode 0 y) {a : ℝ} (ha : a ∈ Ioo aInit 1) :
    HasDerivAt (fun x => (y x).1 / x) (((y a).2 * a - (y a).1 * 1) / a ^ 2) a :=
  (h.deriv ha).1.div (hasDerivAt_id a) (aInit_pos.trans ha.1).ne'

omit hm hde in
theorem quotient_cont {y : ℝ → ℝ × ℝ} (h : Solves c Om Ode 0 y) : ContinuousOn (fun x => (y x).1 / x) (Icc aInit 1) :=
  (continuous_fst.comp_continuousOn h.cont).div continuousOn_id fun _ hx => (aInit_pos.trans_le hx.1).ne'

omit hm hde in
theorem quotient_init {y : ℝ → ℝ × ℝ} (h : Solves c Om Ode 0 y) :
    (y aInit).1 / aInit = aInit ^ (-3 * fInit c Om Ode 0 / 5) := by
  rw [h.init]
  simp only [growthInit]
  rw [show 1 - 3 * fInit c Om Ode 0 / 5 = 1 + -3 * fInit c Om Ode 0 / 5 by ring, Real.rpow_add aInit_pos, Real.rpow_one]
  exact mul_div_cancel_left₀ _ aInit_pos.ne'

/-- C141: growth is slower than in a universe of matter only: `g / a`, the first argument of the collapse fits, never
increases from its initial value `a_init^(-3f/5)`, and strictly decreases when there is dark energy -/
theorem C141_suppressed (hw : ∀ a ∈ Icc aInit 1, c.w0 + c.wa * (1 - a) ≤ 2 / 3) {y : ℝ → ℝ × ℝ} (h : Solves c Om Ode 0 y) :
    AntitoneOn (fun a => (y a).1 / a) (Icc aInit 1) ∧ (0 < Ode → StrictAntiOn (fun a => (y a).1 / a) (Icc aInit 1)) ∧
    ∀ a ∈ Icc aInit 1, (y a).1 / a ≤ aInit ^ (-3 * fInit c Om Ode 0 / 5) := by
  have hr := C141_rate hm hde hw h
  have hpos := (C141_growing hm hde h).1
  have hanti : AntitoneOn (fun a => (y a).1 / a) (Icc aInit 1) := by
    refine antitoneOn_of_hasDerivWithinAt_nonpos (convex_Icc _ _) (quotient_cont h)
      (f' := fun a => ((y a).2 * a - (y a).1 * 1) / a ^ 2) (fun a ha => ?_) fun a ha => ?_
    · rw [interior_Icc] at ha; exact (quotient_deriv h ha).hasDerivWithinAt
    · rw [interior_Icc] at ha
      have ha' := Ioo_subset_Icc_self ha
      have := (hr a ha').2.1
      rw [div_le_one (hpos a ha').1] at this
      exact div_nonpos_of_nonpos_of_nonneg (by linarith) (sq_nonneg a)
  refine ⟨hanti, fun hd => ?_, fun a ha => ?_⟩
  · refine strictAntiOn_of_hasDerivWithinAt_neg (convex_Icc _ _) (quotient_cont h)
      (f' := fun a => ((y a).2 * a - (y a).1 * 1) / a ^ 2) (fun a ha => ?_) fun a ha => ?_
    · rw [interior_Icc] at ha; exact (quotient_deriv h ha).hasDerivWithinAt
    · rw [interior_Icc] at ha
      have ha' := Ioo_subset_Icc_self ha
      have := (hr a ha').2.2 hd
      rw [div_lt_one (hpos a ha').1] at this
      exact div_neg_of_neg_of_pos (by linarith) (pow_pos (aInit_pos.trans ha.1) 2)
  · rw [← quotient_init h]
    exact hanti (left_mem_Icc.2 aInit_lt_one.le) ha ha.1

/-- C141: and not much slower: with an equation of state below `-p` at all times, `g / a` stays above
`Ω_m(a)^(1/(3p))` (the cube root of the matter fraction for a cosmological constant) -/
theorem C141_lower {p : ℝ} (hp : 0 < p) (hw : ∀ a ∈ Icc aInit 1, c.w0 + c.wa * (1 - a) ≤ -p) {y : ℝ → ℝ × ℝ}
    (h : Solves c Om Ode 0 y) :
    ∀ a ∈ Icc aInit 1, omegaM c a Om Ode 0 ^ (1 / (3 * p)) ≤ (y a).1 / a := by
  have hr := C141_rate hm hde (fun a ha => (hw a ha).trans (by linarith)) h
  have hpos := (C141_growing hm hde h).1
  have hO : ∀ a ∈ Icc aInit 1, 0 < omegaM c a Om Ode 0 ∧ omegaM c a Om Ode 0 ≤ 1 := fun a ha =>
    ⟨(C64_matter_fraction c a Om Ode (aInit_pos.trans_le ha.1) hm hde).2.1,
      (C64_matter_fraction c a Om Ode (aInit_pos.trans_le ha.1) hm hde).2.2.1⟩
  have hoc := omegaM_cont (c := c) hm hde
  have hmono : MonotoneOn (fun a => (y a).1 / a * omegaM c a Om Ode 0 ^ (-(1 / (3 * p)))) (Icc aInit 1) := by
    refine monotoneOn_of_hasDerivWithinAt_nonneg (convex_Icc _ _)
      ((quotient_cont h).mul (hoc.rpow_const fun x hx => Or.inl (hO x hx).1.ne'))
      (f' := fun a => ((y a).2 * a - (y a).1 * 1) / a ^ 2 * omegaM c a Om Ode 0 ^ (-(1 / (3 * p))) +
        (y a).1 / a * ((3 * c.w (-1 + 1 / a) * omegaM c a Om Ode 0 * (1 - omegaM c a Om Ode 0) / a) *
          (-(1 / (3 * p))) * omegaM c a Om Ode 0 ^ (-(1 / (3 * p)) - 1)))
      (fun a ha => ?_) fun a ha => ?_
    · rw [interior_Icc] at ha
      have ha' := Ioo_subset_Icc_self ha
      exact ((quotient_deriv h ha).mul ((omegaM_deriv (aInit_pos.trans ha.1) hm hde).rpow_const
        (Or.inl (hO a ha').1.ne'))).hasDerivWithinAt
    · rw [interior_Icc] at ha
      have ha' := Ioo_subset_Icc_self ha
      have ha0 := aInit_pos.trans ha.1
      obtain ⟨ho1, ho2⟩ := hO a ha'
      have hD := (hpos a ha').1
      have h1 := (hr a ha').1
      rw [le_div_iff₀ hD] at h1
      have hwa := hw a ha'
      rw [← w_eq c a ha0] at hwa
      have hX : 0 < omegaM c a Om Ode 0 ^ (-(1 / (3 * p))) := Real.rpow_pos_of_pos ho1 _
      rw [Real.rpow_sub_one ho1.ne']
      set X := omegaM c a Om Ode 0 ^ (-(1 / (3 * p)))
      set o := omegaM c a Om Ode 0
      set w := c.w (-1 + 1 / a)
      have e : ((y a).2 * a - (y a).1 * 1) / a ^ 2 * X +
          (y a).1 / a * ((3 * w * o * (1 - o) / a) * (-(1 / (3 * p))) * (X / o)) =
          X / a ^ 2 * ((a * (y a).2 - o * (y a).1) + (1 - o) * (y a).1 * ((-w - p) / p)) := by
        field_simp
        ring
      rw [e]
      have h2 : 0 ≤ (-w - p) / p := div_nonneg (by linarith) hp.le
      have h3 : 0 ≤ (1 - o) * (y a).1 * ((-w - p) / p) := mul_nonneg (mul_nonneg (by linarith) hD.le) h2
      exact mul_nonneg (by positivity) (by linarith)
  intro a ha
  obtain ⟨ho1, ho2⟩ := hO a ha
  have h0 := left_mem_Icc.2 aInit_lt_one.le
  have h1 := hmono h0 ha ha.1
  have h2 : 1 ≤ (y aInit).1 / aInit := by
    rw [quotient_init h]
    refine Real.one_le_rpow_of_pos_of_le_one_of_nonpos aInit_pos aInit_lt_one.le ?_
    have := (fInit_range (c := c) hm hde).1
    linarith
  have h3 : 1 ≤ omegaM c aInit Om Ode 0 ^ (-(1 / (3 * p))) := by
    refine Real.one_le_rpow_of_pos_of_le_one_of_nonpos (hO _ h0).1 (hO _ h0).2 ?_
    have : 0 < 1 / (3 * p) := by positivity
    linarith
  have h4 : 1 ≤ (y a).1 / a * omegaM c a Om Ode 0 ^ (-(1 / (3 * p))) :=
    (one_le_mul_of_one_le_of_one_le h2 h3).trans h1
  rw [Real.rpow_neg ho1.le, ← div_eq_mul_inv, one_le_div (Real.rpow_pos_of_pos ho1 _)] at h4
  exact h4

/-- the matter fraction never grows when the dark energy has negative pressure -/
theorem omegaM_anti (hw : ∀ a ∈ Icc aInit 1, c.w0 + c.wa * (1 - a) ≤ 0) :
    AntitoneOn (fun a => omegaM c a Om Ode 0) (Icc aInit 1) := by
  refine antitoneOn_of_hasDerivWithinAt_nonpos (convex_Icc _ _) (omegaM_cont hm hde)
    (f' := fun a => 3 * c.w (-1 + 1 / a) * omegaM c a Om Ode 0 * (1 - omegaM c a Om Ode 0) / a) (fun a ha => ?_)
    fun a ha => ?_
  · rw [interior_Icc] at ha; exact (omegaM_deriv (aInit_pos.trans ha.1) hm hde).hasDerivWithinAt
  · rw [interior_Icc] at ha
    have ha0 := aInit_pos.trans ha.1
    obtain ⟨-, ho1, ho2, -⟩ := C64_matter_fraction c a Om Ode ha0 hm hde
    have hwa := hw a (Ioo_subset_Icc_self ha)
    rw [← w_eq c a ha0] at hwa
    refine div_nonpos_of_nonpos_of_nonneg ?_ ha0.le
    exact mul_nonpos_of_nonpos_of_nonneg (mul_nonpos_of_nonpos_of_nonneg (by linarith) ho1.le) (by linarith)

/-- the early dark energy: with `w <= -2/3` its fraction at `a_init` is at most `a_init^2` times the ratio of today -/
theorem fInit_small (hw : ∀ a ∈ Icc aInit 1, c.w0 + c.wa * (1 - a) ≤ -(2 / 3)) (hs : Om + Ode = 1) :
    fInit c Om Ode 0 ≤ aInit ^ 2 * (Ode / Om) := by
  have hO : ∀ a ∈ Icc aInit 1, 0 < omegaM c a Om Ode 0 ∧ omegaM c a Om Ode 0 ≤ 1 := fun a ha =>
    ⟨(C64_matter_fraction c a Om Ode (aInit_pos.trans_le ha.1) hm hde).2.1,
      (C64_matter_fraction c a Om Ode (aInit_pos.trans_le ha.1) hm hde).2.2.1⟩
  have hmono : MonotoneOn (fun a => ((omegaM c a Om Ode 0)⁻¹ - 1) / a ^ 2) (Icc aInit 1) := by
    refine monotoneOn_of_hasDerivWithinAt_nonneg (convex_Icc _ _)
      ((((omegaM_cont (c := c) hm hde).inv₀ fun x hx => (hO x hx).1.ne').sub continuousOn_const).div (by fun_prop)
        fun x hx => pow_ne_zero 2 (aInit_pos.trans_le hx.1).ne')
      (f' := fun a => ((-(3 * c.w (-1 + 1 / a) * omegaM c a Om Ode 0 * (1 - omegaM c a Om Ode 0) / a) /
        omegaM c a Om Ode 0 ^ 2) * a ^ 2 - ((omegaM c a Om Ode 0)⁻¹ - 1) * (2 * a)) / (a ^ 2) ^ 2)
      (fun a ha => ?_) fun a ha => ?_
    · rw [interior_Icc] at ha
      have ha0 := aInit_pos.trans ha.1
      have h2 : HasDerivAt (fun x : ℝ => x ^ 2) (2 * a) a := by simpa using hasDerivAt_pow 2 a
      exact ((((omegaM_deriv ha0 hm hde).inv (hO a (Ioo_subset_Icc_self ha)).1.ne').sub_const 1).div h2
        (pow_ne_zero 2 ha0.ne')).hasDerivWithinAt
    · rw [interior_Icc] at ha
      have ha0 := aInit_pos.trans ha.1
      obtain ⟨ho1, ho2⟩ := hO a (Ioo_subset_Icc_self ha)
      have hwa := hw a (Ioo_subset_Icc_self ha)
      rw [← w_eq c a ha0] at hwa
      set o := omegaM c a Om Ode 0
      set w := c.w (-1 + 1 / a)
      have e : ((-(3 * w * o * (1 - o) / a) / o ^ 2) * a ^ 2 - (o⁻¹ - 1) * (2 * a)) / (a ^ 2) ^ 2 =
          (1 - o) * (-(3 * w) - 2) / (o * a ^ 3) := by
        field_simp
      rw [e]
      exact div_nonneg (mul_nonneg (by linarith) (by linarith)) (by positivity)
  have h0 := left_mem_Icc.2 aInit_lt_one.le
  have h1 := hmono h0 (right_mem_Icc.2 aInit_lt_one.le) aInit_lt_one.le
  simp only [(C64_today c Om Ode 0 (by linarith)).2] at h1
  rw [div_le_iff₀ (pow_pos aInit_pos 2)] at h1
  obtain ⟨ho1, ho2⟩ := hO aInit h0
  have h2 : fInit c Om Ode 0 ≤ (omegaM c aInit Om Ode 0)⁻¹ - 1 := by
    unfold fInit
    have h3 : omegaM c aInit Om Ode 0 * (omegaM c aInit Om Ode 0)⁻¹ = 1 := mul_inv_cancel₀ ho1.ne'
    have h4 : 1 ≤ (omegaM c aInit Om Ode 0)⁻¹ := (one_le_inv₀ ho1).2 ho2
    nlinarith
  have h5 : Om⁻¹ - 1 = Ode / Om := by rw [show Ode = 1 - Om by linarith]; field_simp
  rw [h5] at h1
  refine h2.trans (h1.trans (le_of_eq ?_))
  ring

end

/-- C141: the growth and the accumulated growth that enter the collapse fits are in the range for which the fits were made: for
a flat universe with at least 20% matter and `w <= -0.8` at all times, `g / a` and `G / a` lie between 1/2 and 1.001, at
every scale factor, and accumulated growth is suppressed less than growth -/
theorem C141_range {Om : ℝ} (hm : 0.2 ≤ Om) (hm1 : Om ≤ 1) (hw : ∀ a ∈ Icc aInit 1, c.w0 + c.wa * (1 - a) ≤ -0.8)
    {y : ℝ → ℝ × ℝ} (h : Solves c Om (1 - Om) 0 y) {a : ℝ} (ha : a ∈ Icc aInit 1) :
    1 / 2 ≤ (y a).1 / a ∧ (y a).1 / a ≤ accumulatedGrowth (fun x => (y x).1) a / a ∧
      accumulatedGrowth (fun x => (y x).1) a / a ≤ 1.001 := by
  have hm0 : 0 < Om := by linarith
  have hde : 0 ≤ 1 - Om := by linarith
  have ha0 := aInit_pos.trans_le ha.1
  obtain ⟨hanti, -, hle⟩ := C141_suppressed hm0 hde (fun a ha => (hw a ha).trans (by norm_num)) h
  have hq : aInit ^ (-3 * fInit c Om (1 - Om) 0 / 5) ≤ 1.001 := by
    have hf := fInit_small (c := c) hm0 hde (fun a ha => (hw a ha).trans (by norm_num)) (by ring)
    have h4 : (1 - Om) / Om ≤ 4 := by rw [div_le_iff₀ hm0]; linarith
    have h5 : fInit c Om (1 - Om) 0 ≤ 4e-8 := by
      refine hf.trans ((mul_le_mul_of_nonneg_left h4 (sq_nonneg _)).trans (le_of_eq ?_))
      norm_num [aInit]
    have h6 : aInit = (10000 : ℝ)⁻¹ := by norm_num [aInit]
    rw [h6, Real.inv_rpow (by norm_num), ← Real.rpow_neg (by norm_num)]
    have h7 : -(-3 * fInit c Om (1 - Om) 0 / 5) ≤ 1 / ((40000000 : ℕ) : ℝ) := by
      norm_num at h5 ⊢; linarith
    refine (Real.rpow_le_rpow_of_exponent_le (by norm_num) h7).trans ?_
    have h8 : (10000 : ℝ) ≤ 1.001 ^ (40000000 : ℕ) := by
      have := one_add_mul_le_pow (a := (0.001 : ℝ)) (by norm_num) 40000000
      rw [show (1.001 : ℝ) = 1 + 0.001 by norm_num]
      refine le_trans ?_ this
      norm_num
    calc (10000 : ℝ) ^ (1 / ((40000000 : ℕ) : ℝ)) ≤ ((1.001 : ℝ) ^ (40000000 : ℕ)) ^ (1 / ((40000000 : ℕ) : ℝ)) :=
          Real.rpow_le_rpow (by norm_num) h8 (by norm_num)
      _ = 1.001 := by
          rw [one_div, Real.pow_rpow_inv_natCast (by norm_num) (by norm_num)]
  have hcont : ContinuousOn (fun x => (y x).1) (Icc aInit a) :=
    (continuous_fst.comp_continuousOn h.cont).mono (Icc_subset_Icc_right ha.2)
  refine ⟨?_, ?_, ?_⟩
  · have h1 := C141_lower hm0 hde (p := 0.8) (by norm_num) hw h a ha
    refine le_trans ?_ h1
    have h2 : 0.2 ≤ omegaM c a Om (1 - Om) 0 := by
      have := omegaM_anti (c := c) hm0 hde (fun a ha => (hw a ha).trans (by norm_num)) ha
        (right_mem_Icc.2 aInit_lt_one.le) ha.2
      simp only [(C64_today c Om (1 - Om) 0 (by ring)).2] at this
      linarith
    refine le_trans ?_ (Real.rpow_le_rpow (by norm_num) h2 (by norm_num))
    rw [show (1 / (3 * 0.8) : ℝ) = 5 / 12 by norm_num]
    refine le_of_pow_le_pow_left₀ (n := 12) (by norm_num) (by positivity) ?_
    rw [← Real.rpow_natCast ((0.2 : ℝ) ^ (5 / 12 : ℝ)), ← Real.rpow_mul (by norm_num)]
    norm_num
  · exact C64_accumulated_bound _ a ha.1 hcont fun x hx =>
      hanti ⟨hx.1, hx.2.trans ha.2⟩ ha hx.2
  · rw [div_le_iff₀ ha0]
    have hint : IntervalIntegrable (fun x => (y x).1 / x) MeasureTheory.volume aInit a := by
      refine ContinuousOn.intervalIntegrable ?_
      rw [Set.uIcc_of_le ha.1]
      exact hcont.div continuousOn_id fun x hx => (aInit_pos.trans_le hx.1).ne'
    have h1 := intervalIntegral.integral_mono_on ha.1 hint (intervalIntegrable_const (c := (1.001 : ℝ)))
      fun x hx => (hle x ⟨hx.1, hx.2.trans ha.2⟩).trans hq
    have h2 := (hle aInit (left_mem_Icc.2 aInit_lt_one.le)).trans hq
    rw [div_le_iff₀ aInit_pos] at h2
    simp only [intervalIntegral.integral_const, smul_eq_mul] at h1
    unfold accumulatedGrowth
    simp only
    linarith

/-- C141: so the collapse threshold of the HMcode recipe, evaluated with the growth that the code computes for the same
cosmology, stays within 5% of the Einstein-de Sitter value at all redshifts -/
theorem C141_threshold {Om : ℝ} (hm : 0.2 ≤ Om) (hm1 : Om ≤ 1) (hw : ∀ a ∈ Icc aInit 1, c.w0 + c.wa * (1 - a) ≤ -0.8)
    {y : ℝ → ℝ × ℝ} (h : Solves c Om (1 - Om) 0 y) {a : ℝ} (ha : a ∈ Icc aInit 1) {Omz fnu : ℝ} (hO : 0.2 ≤ Omz ∧ Omz ≤ 1)
    (hf : 0 ≤ fnu ∧ fnu ≤ 1) :
    |dcMead (y a).1 (accumulatedGrowth (fun x => (y x).1) a) a Omz fnu
      - 3 / 20 * (12 * Real.pi) ^ (2 / 3 : ℝ) * (1 - 0.041 * fnu)| ≤
      0.05 * (3 / 20 * (12 * Real.pi) ^ (2 / 3 : ℝ) * (1 - 0.041 * fnu)) := by
  obtain ⟨h1, h2, h3⟩ := C141_range hm hm1 hw h ha
  exact C65_threshold_bounds _ _ _ _ _ ⟨h1, (h2.trans h3).trans (by norm_num)⟩ ⟨h1.trans h2, h3.trans (by norm_num)⟩ hO hf

/-- C141: in a universe of matter only the solution is the scale factor, and so is the accumulated growth -/
theorem C141_einstein_de_sitter {y : ℝ → ℝ × ℝ} (h : Solves c 1 0 0 y) {a : ℝ} (ha : a ∈ Icc aInit 1) :
    (y a).1 = a ∧ accumulatedGrowth (fun x => (y x).1) a = a := by
  have hs : Solves c 1 0 0 (fun a => (a, 1)) := by
    refine ⟨(C64_einstein_de_sitter c aInit aInit_pos).2.symm, fun x hx => ?_⟩
    rw [(C64_einstein_de_sitter c x (aInit_pos.trans_le hx.1)).1]
    exact ((hasDerivAt_id x).prodMk (hasDerivAt_const x (1 : ℝ))).hasDerivWithinAt
  obtain ⟨z, -, hz⟩ := C141_unique (c := c) (Om := 1) (Ode := 0) one_pos le_rfl
  have e : ∀ x ∈ Icc aInit 1, (y x).1 = x := fun x hx => by
    rw [hz y h hx, ← hz _ hs hx]
  refine ⟨e a ha, ?_⟩
  have e2 : accumulatedGrowth (fun x => (y x).1) a = accumulatedGrowth (fun x => x) a := by
    unfold accumulatedGrowth
    simp only [e aInit (left_mem_Icc.2 aInit_lt_one.le)]
    congr 1
    refine intervalIntegral.integral_congr fun x hx => ?_
    rw [Set.uIcc_of_le ha.1] at hx
    simp only [e x ⟨hx.1, hx.2.trans ha.2⟩]
  rw [e2, C64_accumulated_eds a ha.1]

/-- C141: and the redshifts of formation of the legacy module are those of `C115_collapse` for the growth function that is
computed: what was assumed there of a growth function holds of this one -/
theorem C141_formation {solve : (ℝ → ℝ) → Except Lib.PyErr ℝ} (hs : ColdMatter.Bracketing solve) {Om Ode : ℝ} (hm : 0 < Om)
    (hde : 0 ≤ Ode) {y : ℝ → ℝ × ℝ} (h : Solves c Om Ode 0 y) (sigma : ℝ → ℝ) (a dc z : ℝ) (M : List ℝ)
    (ha : a ∈ Icc (1e-3 : ℝ) 1) (hz : a = 1 / (1 + z)) (hdc : 0 < dc) (hsig : ∀ m ∈ M, 0 < sigma (0.01 * m))
    (hb : ∀ m ∈ M, (y 1e-3).1 * sigma (0.01 * m) ≤ (y a).1 * dc) :
    ∃ zf, ColdMatter.collapseRedshifts solve (fun x => (y x).1) sigma a dc M = .ok zf ∧
      List.Forall₂ (fun m t => (sigma (0.01 * m) ≤ dc ∧ t = z) ∨
        (dc < sigma (0.01 * m) ∧ z < t ∧ t ≤ 999 ∧ (y (1 / (1 + t))).1 * sigma (0.01 * m) = (y (1 / (1 + z))).1 * dc)) M zf := by
  have hsub : Icc (1e-3 : ℝ) 1 ⊆ Icc aInit 1 := Icc_subset_Icc_left (by norm_num [aInit])
  obtain ⟨h1, h2⟩ := C141_growing hm hde h
  exact (ColdMatter.C115_collapse hs (fun x => (y x).1) sigma a dc z M
    ((continuous_fst.comp_continuousOn h.cont).mono hsub) (h2.mono hsub) ha hz (h1 a (hsub ha)).1 hdc hsig).1 hb

/-! ## Cases that meet the hypotheses -/

/-- a cosmological constant with 30% matter, and the best-fitting kind of evolving dark energy -/
example : ∀ a ∈ Icc aInit 1, (⟨-1, 0⟩ : DarkEnergy).w0 + (⟨-1, 0⟩ : DarkEnergy).wa * (1 - a) ≤ -0.8 := fun a _ => by norm_num

example : ∀ a ∈ Icc aInit 1, (⟨-0.9, -0.2⟩ : DarkEnergy).w0 + (⟨-0.9, -0.2⟩ : DarkEnergy).wa * (1 - a) ≤ -0.8 := fun a ha => by
  have := ha.2
  norm_num
  linarith

/-- the growth of the concordance cosmology exists, and today it is at least one half and below its early value -/
example : ∃ y, Solves ⟨-1, 0⟩ 0.3 (1 - 0.3) 0 y ∧ 1 / 2 ≤ (y 1).1 ∧ (y 1).1 < (y aInit).1 / aInit := by
  obtain ⟨y, hy, -⟩ := C141_unique (c := ⟨-1, 0⟩) (Om := 0.3) (Ode := 1 - 0.3) (by norm_num) (by norm_num)
  refine ⟨y, hy, ?_, ?_⟩
  · have := (C141_range (by norm_num) (by norm_num) (fun a _ => by norm_num) hy (right_mem_Icc.2 aInit_lt_one.le)).1
    simpa using this
  · have := (C141_suppressed (by norm_num) (by norm_num) (fun a _ => by norm_num) hy).2.1 (by norm_num)
      (left_mem_Icc.2 aInit_lt_one.le) (right_mem_Icc.2 aInit_lt_one.le) aInit_lt_one
    simpa using this

end Verif.Background

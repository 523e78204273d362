import Verif.Model.Hod
import Verif.Lemmas.Special
import Verif.Lemmas.RealPow
import Mathlib.Analysis.SpecialFunctions.Pow.Continuity
import Mathlib.Analysis.SpecialFunctions.Pow.Asymptotics
import Mathlib.Analysis.SpecialFunctions.Log.Basic

/-! Properties C35-C41: the occupation models. -/

namespace Verif.Hod

open Verif.Lib Filter Topology

theorem erfCen_mem (L σ M : ℝ) : 0 ≤ erfCen L σ M ∧ erfCen L σ M ≤ 1 := by
  unfold erfCen
  split_ifs
  · rcases heaviside_cases (M - (10 : ℝ) ^ L) with h | h <;> rw [h] <;> norm_num
  · have h1 := erf_lt_one (log10 (M / (10 : ℝ) ^ L) / σ)
    have h2 := neg_one_lt_erf (log10 (M / (10 : ℝ) ^ L) / σ)
    constructor <;> linarith

theorem step_mem (x : ℝ) : 0 ≤ heaviside x 1 ∧ heaviside x 1 ≤ 1 := by
  rcases heaviside_cases x with h | h <;> rw [h] <;> norm_num

theorem decorateCen_mem {A : Option ℝ} (hA : ∀ a ∈ A, |a| ≤ 1) {N : ℝ} (h : 0 ≤ N ∧ N ≤ 1) :
    0 ≤ decorateCen A N ∧ decorateCen A N ≤ 1 := by
  cases A with
  | none => exact h
  | some a =>
    have ha := abs_le.1 (hA a rfl)
    have h1 : 0 ≤ min N (1 - N) := le_min h.1 (by linarith [h.2])
    have h2 : min N (1 - N) ≤ N := min_le_left _ _
    have h3 : min N (1 - N) ≤ 1 - N := min_le_right _ _
    simp only [decorateCen]
    constructor <;> nlinarith

theorem decorateSat_nonneg {A : Option ℝ} (hA : ∀ a ∈ A, -1 ≤ a) {N : ℝ} (h : 0 ≤ N) :
    0 ≤ decorateSat A N := by
  cases A with
  | none => exact h
  | some a =>
    have := hA a rfl
    simp only [decorateSat]
    nlinarith

theorem decorateSat_pos {A : Option ℝ} (hA : ∀ a ∈ A, -1 < a) {N : ℝ} (h : 0 < N) :
    0 < decorateSat A N := by
  cases A with
  | none => exact h
  | some a =>
    have := hA a rfl
    simp only [decorateSat]
    nlinarith

/-! ## C35 -/

/-- C35: the central occupation of the four occupation models is a probability for every mass, also with
assembly bias of size at most one. -/
theorem C35_cen_probability (p : StepParams) (q : ZhengParams) (r : ZhaiParams) (M : ℝ)
    (hp : ∀ a ∈ p.aCen, |a| ≤ 1) (hq : ∀ a ∈ q.aCen, |a| ≤ 1) (hr : ∀ a ∈ r.aCen, |a| ≤ 1) :
    (0 ≤ simpleCen p M ∧ simpleCen p M ≤ 1) ∧ (0 ≤ zehaviCen p M ∧ zehaviCen p M ≤ 1) ∧
      (0 ≤ zhengCen q M ∧ zhengCen q M ≤ 1) ∧ (0 ≤ zhaiCen r M ∧ zhaiCen r M ≤ 1) :=
  ⟨decorateCen_mem hp (step_mem _), decorateCen_mem hp (step_mem _),
    decorateCen_mem hq (erfCen_mem ..), decorateCen_mem hr (erfCen_mem ..)⟩

/-- C35: opposite assembly bias strengths average to the undecorated occupation. -/
theorem C35_opposite_average (p : StepParams) (q : ZhengParams) (r : ZhaiParams) (M a : ℝ) :
    (simpleCen {p with aCen := some a} M + simpleCen {p with aCen := some (-a)} M) / 2
        = simpleCen {p with aCen := none} M ∧
      (zehaviCen {p with aCen := some a} M + zehaviCen {p with aCen := some (-a)} M) / 2
        = zehaviCen {p with aCen := none} M ∧
      (zhengCen {q with aCen := some a} M + zhengCen {q with aCen := some (-a)} M) / 2
        = zhengCen {q with aCen := none} M ∧
      (zhaiCen {r with aCen := some a} M + zhaiCen {r with aCen := some (-a)} M) / 2
        = zhaiCen {r with aCen := none} M := by
  refine ⟨?_, ?_, ?_, ?_⟩ <;>
  · simp only [simpleCen, zehaviCen, zhengCen, zhaiCen, decorateCen]; ring

/-- C35: satellite counts are non-negative for `A_sat ≥ -1` (and, for the Simple model, whose satellites
multiply the decorated centrals, `|A_cen| ≤ 1`). -/
theorem C35_sat_nonneg (p : StepParams) (q : ZhengParams) (r : ZhaiParams) (M : ℝ) (hM : 0 < M)
    (hpc : ∀ a ∈ p.aCen, |a| ≤ 1)
    (hp : ∀ a ∈ p.aSat, -1 ≤ a) (hq : ∀ a ∈ q.aSat, -1 ≤ a) (hr : ∀ a ∈ r.aSat, -1 ≤ a) :
    0 ≤ simpleSat p M ∧ 0 ≤ zehaviSat p M ∧ 0 ≤ zhengSat q M ∧ 0 ≤ zhaiSat r M := by
  refine ⟨decorateSat_nonneg hp ?_, decorateSat_nonneg hp (by positivity), decorateSat_nonneg hq ?_,
    decorateSat_nonneg hr (by positivity)⟩
  · exact mul_nonneg (decorateCen_mem hpc (step_mem _)).1 (by positivity)
  · refine Real.rpow_nonneg (div_nonneg ?_ (by positivity)) _
    rcases lt_or_ge (M - (10 : ℝ) ^ q.log10M0) 0 with h | h
    · rw [heaviside_of_neg h, zero_mul]
    · rw [heaviside_one_of_nonneg h, one_mul]; exact h

/-- C35: a larger assembly bias does leave the unit interval. -/
theorem C35_bound_sharp : ∃ (q : ZhengParams) (M : ℝ), q.aCen = some 2 ∧ 1 < zhengCen q M := by
  refine ⟨⟨0, 0, 0, 1, 1, some 2, none⟩, 1, rfl, ?_⟩
  have : erfCen 0 1 1 = 1 / 2 := by
    unfold erfCen
    simp [log10, erf_zero]
    norm_num
  simp only [zhengCen, decorateCen, this]
  norm_num

example : ∃ p : StepParams, (∀ a ∈ p.aCen, |a| ≤ 1) ∧ (∀ a ∈ p.aSat, -1 ≤ a) ∧ p.aCen = some (-1) :=
  ⟨⟨12, 13, 1, some (-1), some (-0.5)⟩, by simp, by simp; norm_num, rfl⟩

/-! ## C36 -/

/-- C36: `A_cen` never changes step-like centrals. -/
theorem C36_step_no_effect (p : StepParams) (q : ZhengParams) (M : ℝ) (A : Option ℝ) :
    simpleCen {p with aCen := A} M = simpleCen p M ∧
      simpleSat {p with aCen := A} M = simpleSat p M ∧
      zehaviCen {p with aCen := A} M = zehaviCen p M ∧
      (q.sigma = 0 → zhengCen {q with aCen := A} M = zhengCen q M) := by
  have key : ∀ (x : ℝ) (A : Option ℝ), decorateCen A (heaviside x 1) = heaviside x 1 := by
    intro x A
    cases A with
    | none => rfl
    | some a => rcases heaviside_cases x with h | h <;> simp [decorateCen, h]
  refine ⟨?_, ?_, ?_, fun h => ?_⟩
  · simp only [simpleCen, key]
  · simp only [simpleSat, simpleCen, key]
  · simp only [zehaviCen, key]
  · simp only [zhengCen, erfCen, h, if_true, key]

/-- C36: with a positive scatter it does. -/
theorem C36_erf_has_effect (q : ZhengParams) (hσ : 0 < q.sigma) (a : ℝ) (ha : a ≠ 0) (M : ℝ) :
    zhengCen {q with aCen := some a} M ≠ zhengCen {q with aCen := none} M := by
  have h1 := erf_lt_one (log10 (M / (10 : ℝ) ^ q.log10Mmin) / q.sigma)
  have h2 := neg_one_lt_erf (log10 (M / (10 : ℝ) ^ q.log10Mmin) / q.sigma)
  simp only [zhengCen, decorateCen, erfCen, hσ.ne', if_false]
  set e := erf (log10 (M / (10 : ℝ) ^ q.log10Mmin) / q.sigma)
  have hm : 0 < min (0.5 * (1 + e)) (1 - 0.5 * (1 + e)) := lt_min (by linarith) (by linarith)
  intro h
  have : a * min (0.5 * (1 + e)) (1 - 0.5 * (1 + e)) = 0 := by linarith
  rcases mul_eq_zero.1 this with h | h
  · exact ha h
  · exact hm.ne' h

/-! ## C37 -/

theorem log10_strictMono {x y : ℝ} (hx : 0 < x) (h : x < y) : log10 x < log10 y :=
  Real.logb_lt_logb (by norm_num) hx h

theorem erfCen_lt {L σ : ℝ} (hσ : 0 < σ) {M M' : ℝ} (hM : 0 < M) (h : M < M') :
    erfCen L σ M < erfCen L σ M' := by
  unfold erfCen
  rw [if_neg hσ.ne', if_neg hσ.ne']
  have hp : (0 : ℝ) < (10 : ℝ) ^ L := by positivity
  have h1 := log10_strictMono (div_pos hM hp) (div_lt_div_of_pos_right h hp)
  have h2 := erf_strictMono (div_lt_div_of_pos_right h1 hσ)
  linarith

theorem erfCen_symm {L σ : ℝ} (hσ : 0 < σ) {t : ℝ} (ht : 0 < t) :
    erfCen L σ ((10 : ℝ) ^ L * t) + erfCen L σ ((10 : ℝ) ^ L / t) = 1 := by
  unfold erfCen
  rw [if_neg hσ.ne', if_neg hσ.ne']
  have hp : ((10 : ℝ) ^ L) ≠ 0 := by positivity
  have e1 : (10 : ℝ) ^ L * t / (10 : ℝ) ^ L = t := by field_simp
  have e2 : (10 : ℝ) ^ L / t / (10 : ℝ) ^ L = t⁻¹ := by field_simp
  rw [e1, e2]
  have e3 : log10 t⁻¹ / σ = -(log10 t / σ) := by unfold log10; rw [Real.logb_inv]; ring
  rw [e3, erf_neg]
  ring

theorem log10_atTop : Tendsto log10 atTop atTop := by
  unfold log10
  exact Real.tendsto_logb_atTop (by norm_num)

theorem erfCen_atTop {L σ : ℝ} (hσ : 0 < σ) : Tendsto (erfCen L σ) atTop (𝓝 1) := by
  have hp : (0 : ℝ) < (10 : ℝ) ^ L := by positivity
  have h1 : Tendsto (fun M => log10 (M / (10 : ℝ) ^ L) / σ) atTop atTop :=
    (log10_atTop.comp (tendsto_id.atTop_div_const hp)).atTop_div_const hσ
  have h2 := ((erf_tendsto_atTop.comp h1).const_add 1).const_mul 0.5
  have e : erfCen L σ = fun M => 0.5 * (1 + erf (log10 (M / (10 : ℝ) ^ L) / σ)) := by
    funext M; unfold erfCen; rw [if_neg hσ.ne']
  rw [show (0.5 : ℝ) * (1 + 1) = 1 by norm_num] at h2
  rw [e]
  exact h2

theorem erfCen_atZero {L σ : ℝ} (hσ : 0 < σ) : Tendsto (erfCen L σ) (𝓝[>] 0) (𝓝 0) := by
  have hp : (0 : ℝ) < (10 : ℝ) ^ L := by positivity
  have h0 : Tendsto (fun t : ℝ => 1 - erfCen L σ ((10 : ℝ) ^ L * ((10 : ℝ) ^ L * t⁻¹))) (𝓝[>] 0) (𝓝 0) := by
    have h1 : Tendsto (fun t : ℝ => (10 : ℝ) ^ L * ((10 : ℝ) ^ L * t⁻¹)) (𝓝[>] 0) atTop :=
      (tendsto_inv_nhdsGT_zero.const_mul_atTop hp).const_mul_atTop hp
    have := ((erfCen_atTop (L := L) hσ).comp h1).const_sub 1
    simpa using this
  refine h0.congr' ?_
  filter_upwards [self_mem_nhdsWithin] with t ht
  have ht : 0 < t := ht
  have := erfCen_symm (L := L) hσ (t := (10 : ℝ) ^ L * t⁻¹) (by positivity)
  have e : (10 : ℝ) ^ L / ((10 : ℝ) ^ L * t⁻¹) = t := by field_simp
  rw [e] at this
  linarith

theorem erfCen_half {L σ : ℝ} (hσ : 0 < σ) : erfCen L σ ((10 : ℝ) ^ L) = 1 / 2 := by
  have := erfCen_symm (L := L) hσ (t := 1) one_pos
  rw [mul_one, div_one] at this
  linarith

/-- C37: with positive scatter and no assembly bias the Zheng and Zhai centrals are strictly increasing in
mass, one half at `M_min`, point-symmetric in log mass, and tend to 0 and 1. -/
theorem C37_erf_centrals (q : ZhengParams) (r : ZhaiParams) (hq : 0 < q.sigma) (hr : 0 < r.sigma)
    (hqa : q.aCen = none) (hra : r.aCen = none) :
    (StrictMonoOn (zhengCen q) (Set.Ioi 0) ∧ zhengCen q ((10 : ℝ) ^ q.log10Mmin) = 1 / 2 ∧
      (∀ t > 0, zhengCen q ((10 : ℝ) ^ q.log10Mmin * t)
        = 1 - zhengCen q ((10 : ℝ) ^ q.log10Mmin / t)) ∧
      Tendsto (zhengCen q) (𝓝[>] 0) (𝓝 0) ∧ Tendsto (zhengCen q) atTop (𝓝 1)) ∧
    (StrictMonoOn (zhaiCen r) (Set.Ioi 0) ∧ zhaiCen r ((10 : ℝ) ^ r.log10Mmin) = 1 / 2 ∧
      (∀ t > 0, zhaiCen r ((10 : ℝ) ^ r.log10Mmin * t)
        = 1 - zhaiCen r ((10 : ℝ) ^ r.log10Mmin / t)) ∧
      Tendsto (zhaiCen r) (𝓝[>] 0) (𝓝 0) ∧ Tendsto (zhaiCen r) atTop (𝓝 1)) := by
  have e1 : zhengCen q = erfCen q.log10Mmin q.sigma := by funext M; simp [zhengCen, hqa, decorateCen]
  have e2 : zhaiCen r = erfCen r.log10Mmin r.sigma := by funext M; simp [zhaiCen, hra, decorateCen]
  rw [e1, e2]
  refine ⟨⟨fun x hx y _ h => erfCen_lt hq hx h, erfCen_half hq,
    fun t ht => by linarith [erfCen_symm (L := q.log10Mmin) hq ht], erfCen_atZero hq, erfCen_atTop hq⟩,
    ⟨fun x hx y _ h => erfCen_lt hr hx h, erfCen_half hr,
    fun t ht => by linarith [erfCen_symm (L := r.log10Mmin) hr ht], erfCen_atZero hr, erfCen_atTop hr⟩⟩

/-- C37: with assembly bias strictly between -1 and 1 the centrals are still strictly increasing. -/
theorem C37_decorated_strictMono (q : ZhengParams) (hq : 0 < q.sigma) (ha : ∀ a ∈ q.aCen, |a| < 1) :
    StrictMonoOn (zhengCen q) (Set.Ioi 0) := by
  intro x hx y _ h
  have h1 := erfCen_lt (L := q.log10Mmin) hq hx h
  unfold zhengCen
  cases hA : q.aCen with
  | none => exact h1
  | some a =>
    have ha := abs_lt.1 (ha a (by rw [hA]; rfl))
    simp only [decorateCen]
    set u := erfCen q.log10Mmin q.sigma x
    set v := erfCen q.log10Mmin q.sigma y
    rcases min_cases u (1 - u) with ⟨e, h'⟩ | ⟨e, h'⟩ <;> rcases min_cases v (1 - v) with ⟨e2, h2⟩ | ⟨e2, h2⟩ <;>
      rw [e, e2] <;> nlinarith

example : ∃ q : ZhengParams, 0 < q.sigma ∧ q.aCen = none := ⟨⟨12, 12.5, 13, 0.15, 1, none, none⟩, by norm_num, rfl⟩

/-! ## C38 -/

/-- C38: for a positive slope there are no satellites below `M_0` (nor at it). -/
theorem C38_no_sat_below_cutoff (q : ZhengParams) (hα : 0 < q.alpha) (M : ℝ)
    (hM : M ≤ (10 : ℝ) ^ q.log10M0) : zhengSat q M = 0 := by
  have e : heaviside (M - (10 : ℝ) ^ q.log10M0) 1 * (M - (10 : ℝ) ^ q.log10M0) = 0 := by
    rcases lt_or_eq_of_le hM with h | h
    · rw [heaviside_of_neg (by linarith), zero_mul]
    · rw [h, sub_self, mul_zero]
  unfold zhengSat
  rw [e, zero_div, Real.zero_rpow hα.ne']
  cases q.aSat <;> simp [decorateSat]

/-- C38: there are satellites above it. -/
theorem C38_sat_above_cutoff (q : ZhengParams) (hs : ∀ a ∈ q.aSat, -1 < a) (M : ℝ)
    (hM : (10 : ℝ) ^ q.log10M0 < M) : 0 < zhengSat q M := by
  refine decorateSat_pos hs (Real.rpow_pos_of_pos (div_pos ?_ (by positivity)) _)
  rw [heaviside_one_of_nonneg (by linarith), one_mul]
  linarith

/-- C38: for slope 0 every halo below `M_0` holds exactly one satellite before decoration. -/
theorem C38_one_sat_for_slope_zero (q : ZhengParams) (hα : q.alpha = 0) (M : ℝ)
    (_hM : M < (10 : ℝ) ^ q.log10M0) :
    zhengSat {q with aSat := none} M = 1 ∧ ∀ a, zhengSat {q with aSat := some a} M = 1 + a := by
  simp [zhengSat, decorateSat, hα]

/-- C38: so the claim "no satellites below the cutoff" fails for a slope a user may give. -/
theorem C38_claim_fails_slope_zero :
    ∃ (q : ZhengParams) (M : ℝ), 0 < M ∧ M < (10 : ℝ) ^ q.log10M0 ∧ zhengSat q M ≠ 0 := by
  refine ⟨⟨12, 1, 13, 1, 0, none, none⟩, 1, one_pos, by norm_num, ?_⟩
  rw [show zhengSat ⟨12, 1, 13, 1, 0, none, none⟩ 1 = 1 from
    (C38_one_sat_for_slope_zero ⟨12, 1, 13, 1, 0, none, none⟩ rfl 1 (by norm_num)).1]
  exact one_ne_zero

example : ∃ (q : ZhengParams) (M : ℝ), 0 < q.alpha ∧ M ≤ (10 : ℝ) ^ q.log10M0 ∧ 0 < M :=
  ⟨⟨12, 1, 13, 1, 1, none, none⟩, 1, one_pos, by norm_num, one_pos⟩

/-! ## C39 -/

/-- C39: in the Simple model a halo without a central has no satellites. -/
theorem C39_simple_needs_central (p : StepParams) (M : ℝ) (h : simpleCen p M = 0) : simpleSat p M = 0 := by
  unfold simpleSat
  rw [h, zero_mul]
  cases p.aSat <;> simp [decorateSat]

/-- C39: in particular below the minimum mass there is neither. -/
theorem C39_simple_empty_below (p : StepParams) (M : ℝ) (h : M < (10 : ℝ) ^ p.log10Mmin) :
    simpleCen p M = 0 ∧ simpleSat p M = 0 := by
  have : simpleCen p M = 0 := by
    unfold simpleCen
    rw [heaviside_of_neg (by linarith)]
    cases p.aCen <;> simp [decorateCen]
  exact ⟨this, C39_simple_needs_central p M this⟩

/-- C39: in the Zehavi model every halo below the minimum mass has satellites and no central; in the Zhai
model every halo has satellites. -/
theorem C39_zehavi_zhai_sat_without_central (p : StepParams) (r : ZhaiParams) (M : ℝ) (hM : 0 < M)
    (hp : ∀ a ∈ p.aSat, -1 < a) (hr : ∀ a ∈ r.aSat, -1 < a) :
    (M < (10 : ℝ) ^ p.log10Mmin → zehaviCen p M = 0 ∧ 0 < zehaviSat p M) ∧
      0 < zhaiSat r M ∧
      (r.sigma = 0 → M < (10 : ℝ) ^ r.log10Mmin → zhaiCen r M = 0 ∧ 0 < zhaiSat r M) := by
  have hz : 0 < zhaiSat r M := decorateSat_pos hr (by positivity)
  refine ⟨fun h => ⟨?_, decorateSat_pos hp (by positivity)⟩, hz, fun h0 h => ⟨?_, hz⟩⟩
  · unfold zehaviCen
    rw [heaviside_of_neg (by linarith)]
    cases p.aCen <;> simp [decorateCen]
  · unfold zhaiCen erfCen
    rw [if_pos h0, heaviside_of_neg (by linarith)]
    cases r.aCen <;> simp [decorateCen]

example : ∃ (p : StepParams) (M : ℝ), 0 < M ∧ M < (10 : ℝ) ^ p.log10Mmin ∧ ∀ a ∈ p.aSat, -1 < a :=
  ⟨⟨1, 13, 1, none, some 0⟩, 1, one_pos, by norm_num, by simp⟩

/-! ## C40 -/

/-- C40: Zheng with zero scatter has the Zehavi centrals. -/
theorem C40_centrals (q : ZhengParams) (h : q.sigma = 0) (log10Msat α : ℝ) (aSat : Option ℝ) (M : ℝ) :
    zhengCen q M = zehaviCen ⟨q.log10Mmin, log10Msat, α, q.aCen, aSat⟩ M := by
  simp [zhengCen, zehaviCen, erfCen, h]

/-- C40: as `log10_M0` tends to minus infinity its satellites tend to the Zehavi satellites. -/
theorem C40_satellites_limit (q : ZhengParams) (log10Mmin : ℝ) (aCen : Option ℝ) (M : ℝ) (hM : 0 < M) :
    Tendsto (fun L => zhengSat {q with log10M0 := L} M) atBot
      (𝓝 (zehaviSat ⟨log10Mmin, q.log10M1, q.alpha, aCen, q.aSat⟩ M)) := by
  have h0 : Tendsto (fun L : ℝ => (10 : ℝ) ^ L) atBot (𝓝 0) :=
    tendsto_rpow_atBot_of_base_gt_one 10 (by norm_num)
  have h1 : Tendsto (fun L : ℝ => ((M - (10 : ℝ) ^ L) / (10 : ℝ) ^ q.log10M1) ^ q.alpha) atBot
      (𝓝 ((M / (10 : ℝ) ^ q.log10M1) ^ q.alpha)) := by
    have := ((h0.const_sub M).div_const ((10 : ℝ) ^ q.log10M1)).rpow_const (p := q.alpha)
      (Or.inl (by rw [sub_zero]; positivity))
    simpa using this
  have h2 : Tendsto (fun L : ℝ => (heaviside (M - (10 : ℝ) ^ L) 1 * (M - (10 : ℝ) ^ L)
      / (10 : ℝ) ^ q.log10M1) ^ q.alpha) atBot (𝓝 ((M / (10 : ℝ) ^ q.log10M1) ^ q.alpha)) := by
    refine h1.congr' ?_
    filter_upwards [h0.eventually (gt_mem_nhds hM)] with L hL
    rw [heaviside_one_of_nonneg (by linarith), one_mul]
  unfold zhengSat zehaviSat
  cases q.aSat with
  | none => exact h2
  | some a => exact h2.add (h2.const_mul a)

example : ∃ (q : ZhengParams) (M : ℝ), q.sigma = 0 ∧ 0 < M ∧ 0 < q.alpha :=
  ⟨⟨12, 12, 13, 0, 1, none, none⟩, 1, rfl, one_pos, one_pos⟩

/-! ## C41 -/

namespace CacciatoParams

variable (p : CacciatoParams)

theorem meanObsC_pos {M : ℝ} (hM : 0 < M) : 0 < p.meanObsC M := by
  unfold meanObsC obsNormC mChar
  positivity

/-- C41: positive, and `Obs_norm_c / 2^(g1 - g2)` at the characteristic mass. -/
theorem C41_positive_and_pivot :
    (∀ M > 0, 0 < p.meanObsC M) ∧
      p.meanObsC ((10 : ℝ) ^ p.log10Mch) = (10 : ℝ) ^ p.log10ObsNormC / 2 ^ (p.g1 - p.g2) := by
  refine ⟨fun M hM => p.meanObsC_pos hM, ?_⟩
  unfold meanObsC obsNormC mChar
  rw [div_self (by positivity), Real.one_rpow]
  norm_num

/-- C41: strictly increasing in mass when both slopes are positive. -/
theorem C41_strictMono (h1 : 0 < p.g1) (h2 : 0 < p.g2) : StrictMonoOn p.meanObsC (Set.Ioi 0) := by
  have hm : 0 < p.mChar := by unfold mChar; positivity
  have hn : 0 < p.obsNormC := by unfold obsNormC; positivity
  have e : ∀ M, 0 < M → p.meanObsC M
      = p.obsNormC * (((M / p.mChar) / (1 + M / p.mChar)) ^ p.g1 * (1 + M / p.mChar) ^ p.g2) := by
    intro M hM
    have hx : 0 < M / p.mChar := by positivity
    unfold meanObsC
    rw [Real.div_rpow hx.le (by positivity), Real.rpow_sub (by positivity)]
    have : 0 < (1 + M / p.mChar) ^ p.g1 := by positivity
    have : 0 < (1 + M / p.mChar) ^ p.g2 := by positivity
    field_simp
  intro x hx y hy hxy
  have hx : 0 < x := hx
  have hy : 0 < y := hy
  rw [e x hx, e y hy]
  have hlt : x / p.mChar < y / p.mChar := div_lt_div_of_pos_right hxy hm
  have hx' : 0 < x / p.mChar := by positivity
  refine mul_lt_mul_of_pos_left ?_ hn
  refine mul_lt_mul'' ?_ ?_ (by positivity) (by positivity)
  · exact Real.rpow_lt_rpow (by positivity) (sat_strictMono hx'.le hlt) h1
  · exact Real.rpow_lt_rpow (by positivity) (by linarith) h2

/-- C41: the low-mass end is the power law of slope `g1`, the high-mass end the one of slope `g2`: the
ratios tend to one. -/
theorem C41_power_law_ends :
    Tendsto (fun M => p.meanObsC M
        / ((10 : ℝ) ^ p.log10ObsNormC * (M / (10 : ℝ) ^ p.log10Mch) ^ p.g1)) (𝓝[>] 0) (𝓝 1) ∧
      Tendsto (fun M => p.meanObsC M
        / ((10 : ℝ) ^ p.log10ObsNormC * (M / (10 : ℝ) ^ p.log10Mch) ^ p.g2)) atTop (𝓝 1) := by
  have hm : 0 < (10 : ℝ) ^ p.log10Mch := by positivity
  have hn : 0 < (10 : ℝ) ^ p.log10ObsNormC := by positivity
  constructor
  · have h : Tendsto (fun M : ℝ => ((1 + M / (10 : ℝ) ^ p.log10Mch) ^ (p.g1 - p.g2))⁻¹) (𝓝[>] 0) (𝓝 1) := by
      have h0 : Tendsto (fun M : ℝ => 1 + M / (10 : ℝ) ^ p.log10Mch) (𝓝[>] 0) (𝓝 1) := by
        have : Tendsto (fun M : ℝ => 1 + M / (10 : ℝ) ^ p.log10Mch) (𝓝 0) (𝓝 (1 + 0 / (10 : ℝ) ^ p.log10Mch)) :=
          (tendsto_id.div_const _).const_add 1
        rw [zero_div, add_zero] at this
        exact this.mono_left nhdsWithin_le_nhds
      have := (h0.rpow_const (p := p.g1 - p.g2) (Or.inl one_ne_zero)).inv₀ (by simp)
      simpa using this
    refine h.congr' ?_
    filter_upwards [self_mem_nhdsWithin] with M hM
    have hM : 0 < M := hM
    unfold meanObsC obsNormC mChar
    have : 0 < (M / (10 : ℝ) ^ p.log10Mch) ^ p.g1 := by positivity
    have : 0 < (1 + M / (10 : ℝ) ^ p.log10Mch) ^ (p.g1 - p.g2) := by positivity
    field_simp
  · have h : Tendsto (fun M : ℝ => ((M / (10 : ℝ) ^ p.log10Mch) / (1 + M / (10 : ℝ) ^ p.log10Mch))
        ^ (p.g1 - p.g2)) atTop (𝓝 1) := by
      have h0 : Tendsto (fun M : ℝ => 1 + M / (10 : ℝ) ^ p.log10Mch) atTop atTop :=
        tendsto_atTop_add_const_left _ 1 (tendsto_id.atTop_div_const hm)
      have h1 : Tendsto (fun M : ℝ => (M / (10 : ℝ) ^ p.log10Mch) / (1 + M / (10 : ℝ) ^ p.log10Mch))
          atTop (𝓝 1) := by
        have := (tendsto_inv_atTop_zero.comp h0).const_sub 1
        rw [sub_zero] at this
        refine this.congr' ?_
        filter_upwards [eventually_gt_atTop 0] with M hM
        have : 0 < 1 + M / (10 : ℝ) ^ p.log10Mch := by positivity
        simp only [Function.comp]
        field_simp
        ring
      have := h1.rpow_const (p := p.g1 - p.g2) (Or.inl one_ne_zero)
      simpa using this
    refine h.congr' ?_
    filter_upwards [eventually_gt_atTop 0] with M hM
    unfold meanObsC obsNormC mChar
    have hx : 0 < M / (10 : ℝ) ^ p.log10Mch := by positivity
    rw [Real.div_rpow hx.le (by positivity), Real.rpow_sub hx]
    have : 0 < (M / (10 : ℝ) ^ p.log10Mch) ^ p.g1 := by positivity
    have : 0 < (M / (10 : ℝ) ^ p.log10Mch) ^ p.g2 := by positivity
    have : 0 < (1 + M / (10 : ℝ) ^ p.log10Mch) ^ (p.g1 - p.g2) := by positivity
    field_simp

/-- the default slopes are positive -/
example : ∃ p : CacciatoParams, 0 < p.g1 ∧ 0 < p.g2 :=
  ⟨⟨9.95, 11.24, 3.18, 0.245, 0.157, 0.562, 12, -1.18, 2, -1.17, 1.53, -0.217, none, none⟩,
    by norm_num, by norm_num⟩

end CacciatoParams

end Verif.Hod

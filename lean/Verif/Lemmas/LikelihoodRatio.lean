import Verif.Lemmas.Simpson
import Verif.Lemmas.Special
import Mathlib.Analysis.Calculus.Deriv.MeanValue
import Mathlib.Analysis.SpecialFunctions.ExpDeriv
import Mathlib.MeasureTheory.Integral.IntervalIntegral.FundThmCalculus
import Mathlib.Tactic.Linarith

/-! Samples ordered by a monotone likelihood ratio, and the ratio of shifted error functions. -/

namespace Verif.Lib

open Verif.Spec Filter Topology

/-- If `N'` puts relatively more weight than `N` on larger indices and `b` increases, then the `N'`-weighted
mean of `b` is at least the `N`-weighted one (in product form, so that no sum need be non-zero). -/
theorem simpson_cross {n : ℕ} {x : ℕ → ℝ} (g : GentleGrid n x) (N N' b w : ℕ → ℝ)
    (hw : ∀ i < n, 0 ≤ w i)
    (hN : ∀ i j, i ≤ j → j < n → N' i * N j ≤ N' j * N i)
    (hb : ∀ i j, i ≤ j → j < n → b i ≤ b j) :
    simpson n x (fun i => N i * b i * w i) * simpson n x (fun i => N' i * w i)
      ≤ simpson n x (fun i => N' i * b i * w i) * simpson n x (fun i => N i * w i) := by
  set A := simpson n x (fun i => N' i * b i * w i) with hA
  set B := simpson n x (fun i => N i * b i * w i) with hB
  set C := simpson n x (fun i => N' i * w i) with hC
  set D := simpson n x (fun i => N i * w i) with hD
  have inner : ∀ i, simpson n x (fun j => (N' i * N j - N i * N' j) * (b i - b j) * (w i * w j))
      = D * (N' i * b i * w i) + (-C) * (N i * b i * w i) + ((-B) * (N' i * w i) + A * (N i * w i)) := by
    intro i
    have e : (fun j => (N' i * N j - N i * N' j) * (b i - b j) * (w i * w j))
        = fun j => (N' i * b i * w i) * (N j * w j) + (-(N i * b i * w i)) * (N' j * w j)
          + ((-(N' i * w i)) * (N j * b j * w j) + (N i * w i) * (N' j * b j * w j)) := by
      funext j; ring
    rw [e]
    simp only [simpson_add, simpson_smul]
    rw [← hA, ← hB, ← hC, ← hD]
    ring
  have pos : 0 ≤ simpson n x (fun i =>
      simpson n x (fun j => (N' i * N j - N i * N' j) * (b i - b j) * (w i * w j))) := by
    refine simpson_nonneg g fun i hi => simpson_nonneg g fun j hj => ?_
    refine mul_nonneg ?_ (mul_nonneg (hw i hi) (hw j hj))
    rcases le_total i j with h | h
    · exact mul_nonneg_of_nonpos_of_nonpos (by have := hN i j h hj; nlinarith) (by have := hb i j h hj; linarith)
    · exact mul_nonneg (by have := hN j i h hi; nlinarith) (by have := hb j i h hi; linarith)
  simp only [inner, simpson_add, simpson_smul] at pos
  rw [← hA, ← hB, ← hC, ← hD] at pos
  nlinarith

/-! ### the error function -/

private theorem erf_hasDerivAt (x : ℝ) : HasDerivAt erf (2 / Real.sqrt Real.pi * Real.exp (-x ^ 2)) x := by
  unfold erf
  have c : Continuous fun t : ℝ => Real.exp (-t ^ 2) := by fun_prop
  exact (c.integral_hasStrictDerivAt 0 x).hasDerivAt.const_mul _

private noncomputable def gs (x : ℝ) : ℝ := 2 / Real.sqrt Real.pi * Real.exp (-x ^ 2)

private theorem gs_pos (x : ℝ) : 0 < gs x := by
  have := Real.pi_pos
  unfold gs; positivity

private theorem gs_hasDerivAt (x : ℝ) : HasDerivAt gs (-(2 * x) * gs x) x := by
  unfold gs
  have h : HasDerivAt (fun t : ℝ => -t ^ 2) (-(2 * x)) x := by
    have h := (hasDerivAt_pow 2 x).fun_neg
    norm_num at h
    exact h
  exact ((h.exp).const_mul (2 / Real.sqrt Real.pi)).congr_deriv (by ring)

private theorem cum_hasDerivAt (x : ℝ) : HasDerivAt (fun t => 1 + erf t) (gs x) x :=
  (erf_hasDerivAt x).const_add 1

private theorem cum_pos (x : ℝ) : 0 < 1 + erf x := by linarith [neg_one_lt_erf x]

private theorem gs_tendsto : Tendsto gs atBot (𝓝 0) := by
  have h1 : Tendsto (fun x : ℝ => -x ^ 2) atBot atBot := by
    refine tendsto_neg_atTop_atBot.comp ?_
    have : (fun x : ℝ => x ^ 2) = fun x => (-x) ^ 2 := by funext x; ring
    rw [this]
    exact (tendsto_pow_atTop (by norm_num)).comp tendsto_neg_atBot_atTop
  have := (Real.tendsto_exp_atBot.comp h1).const_mul (2 / Real.sqrt Real.pi)
  rw [mul_zero] at this
  exact this

/-- the tail of the error function against its density (Mills ratio) -/
private theorem mills (x : ℝ) : 0 ≤ gs x + 2 * x * (1 + erf x) := by
  rcases le_or_gt 0 x with hx | hx
  · have := cum_pos x; have := gs_pos x; positivity
  have hd : ∀ t, HasDerivAt (fun t => -(gs t) / (2 * x) - (1 + erf t)) (gs t * (t / x - 1)) t := by
    intro t
    refine (((gs_hasDerivAt t).fun_neg.div_const (2 * x)).fun_sub (cum_hasDerivAt t)).congr_deriv ?_
    have := hx.ne
    field_simp
  have mono : MonotoneOn (fun t => -(gs t) / (2 * x) - (1 + erf t)) (Set.Iic x) := by
    refine monotoneOn_of_deriv_nonneg (convex_Iic x)
      (fun t _ => (hd t).continuousAt.continuousWithinAt)
      (fun t _ => (hd t).differentiableAt.differentiableWithinAt) fun t ht => ?_
    rw [interior_Iic] at ht
    rw [(hd t).deriv]
    refine mul_nonneg (gs_pos t).le ?_
    rw [sub_nonneg, le_div_iff_of_neg hx]
    have : t < x := ht
    linarith
  have lim : Tendsto (fun t => -(gs t) / (2 * x) - (1 + erf t)) atBot (𝓝 0) := by
    have := ((gs_tendsto.neg).div_const (2 * x)).sub (erf_tendsto_atBot.const_add 1)
    simpa using this
  have key : 0 ≤ -(gs x) / (2 * x) - (1 + erf x) := by
    refine le_of_tendsto lim ?_
    filter_upwards [eventually_le_atBot x] with t ht
    exact mono ht (Set.mem_Iic.2 le_rfl) ht
  have := mul_nonneg_of_nonpos_of_nonpos (show 2 * x ≤ 0 by linarith) (neg_nonpos.2 key)
  have e : 2 * x * -(-(gs x) / (2 * x) - (1 + erf x)) = gs x + 2 * x * (1 + erf x) := by
    have := hx.ne
    field_simp
    ring
  linarith

private theorem rate_antitone : Antitone fun x => gs x / (1 + erf x) := by
  have hd : ∀ x, HasDerivAt (fun x => gs x / (1 + erf x))
      ((-(2 * x) * gs x * (1 + erf x) - gs x * gs x) / (1 + erf x) ^ 2) x := fun x =>
    (gs_hasDerivAt x).div (cum_hasDerivAt x) (cum_pos x).ne'
  refine antitone_of_deriv_nonpos (fun x => (hd x).differentiableAt) fun x => ?_
  rw [(hd x).deriv]
  refine div_nonpos_of_nonpos_of_nonneg ?_ (sq_nonneg _)
  have := mul_nonneg (gs_pos x).le (mills x)
  nlinarith

/-- The ratio of the shifted cumulative normal to the unshifted one increases. -/
theorem erf_shift_ratio {x y δ : ℝ} (hxy : x ≤ y) (hδ : 0 ≤ δ) :
    (1 + erf (x - δ)) * (1 + erf y) ≤ (1 + erf (y - δ)) * (1 + erf x) := by
  have hs : ∀ x, HasDerivAt (fun x => 1 + erf (x - δ)) (gs (x - δ)) x := fun x => by
    have := (cum_hasDerivAt (x - δ)).comp x ((hasDerivAt_id x).sub_const δ)
    simpa [Function.comp_def] using this
  have hd : ∀ x, HasDerivAt (fun x => (1 + erf (x - δ)) / (1 + erf x))
      ((gs (x - δ) * (1 + erf x) - (1 + erf (x - δ)) * gs x) / (1 + erf x) ^ 2) x := fun x =>
    (hs x).div (cum_hasDerivAt x) (cum_pos x).ne'
  have mono : Monotone fun x => (1 + erf (x - δ)) / (1 + erf x) := by
    refine monotone_of_deriv_nonneg (fun x => (hd x).differentiableAt) fun x => ?_
    rw [(hd x).deriv]
    refine div_nonneg ?_ (sq_nonneg _)
    have h := rate_antitone (show x - δ ≤ x by linarith)
    simp only at h
    rw [div_le_div_iff₀ (cum_pos _) (cum_pos _)] at h
    linarith
  have h := mono hxy
  simp only at h
  rwa [div_le_div_iff₀ (cum_pos _) (cum_pos _)] at h

end Verif.Lib

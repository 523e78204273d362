import Verif.Lemmas.SimpsonLimit
import Mathlib.Analysis.Calculus.Deriv.MeanValue
import Mathlib.Analysis.SpecialFunctions.Integrals.Basic

/-! Third-order error bound of scipy's Simpson rule on gentle grids. -/

namespace Verif.Lib

open Finset Verif.Spec MeasureTheory Set

/-- a function that starts at zero with derivative at most `C (t - a)^k` -/
theorem grow {h h' : ℝ → ℝ} {a c C : ℝ} (k : ℕ) (hd : ∀ t ∈ Icc a c, HasDerivAt h (h' t) t) (h0 : h a = 0)
    (hb : ∀ t ∈ Icc a c, |h' t| ≤ C * (t - a) ^ k) : ∀ t ∈ Icc a c, |h t| ≤ C / (k + 1) * (t - a) ^ (k + 1) := by
  intro t ht
  have hk : (k : ℝ) + 1 ≠ 0 := by positivity
  have main : ∀ s : ℝ, (s = 1 ∨ s = -1) → 0 ≤ C / (k + 1) * (t - a) ^ (k + 1) + s * h t := by
    intro s hs
    have hder : ∀ x ∈ Icc a c, HasDerivAt (fun y => C / (k + 1) * (y - a) ^ (k + 1) + s * h y)
        (C * (x - a) ^ k + s * h' x) x := by
      intro x hx
      have e1 : HasDerivAt (fun y : ℝ => (y - a) ^ (k + 1)) (((k + 1 : ℕ) : ℝ) * (x - a) ^ k * 1) x :=
        ((hasDerivAt_id x).sub_const a).fun_pow (k + 1)
      have e2 := (e1.const_mul (C / (k + 1))).fun_add ((hd x hx).const_mul s)
      refine e2.congr_deriv ?_
      push_cast
      field_simp
    have mono : MonotoneOn (fun y => C / (k + 1) * (y - a) ^ (k + 1) + s * h y) (Icc a c) := by
      refine monotoneOn_of_deriv_nonneg (convex_Icc a c) (fun x hx => (hder x hx).continuousAt.continuousWithinAt) ?_ ?_
      · intro x hx
        exact (hder x (interior_subset hx)).differentiableAt.differentiableWithinAt
      · intro x hx
        have hx' := interior_subset hx
        rw [(hder x hx').deriv]
        have := abs_le.1 (hb x hx')
        rcases hs with rfl | rfl <;> linarith [this.1, this.2]
    have := mono ⟨le_rfl, ht.1.trans ht.2⟩ ht ht.1
    simp only [sub_self, h0, mul_zero] at this
    rw [zero_pow (Nat.succ_ne_zero k), mul_zero, zero_add] at this
    exact this
  have p := main 1 (Or.inl rfl)
  have q := main (-1) (Or.inr rfl)
  rw [abs_le]
  constructor <;> linarith

/-- Taylor's formula of second order -/
theorem taylor_two {f f1 f2 f3 : ℝ → ℝ} {a c B : ℝ} (h1 : ∀ t ∈ Icc a c, HasDerivAt f (f1 t) t)
    (h2 : ∀ t ∈ Icc a c, HasDerivAt f1 (f2 t) t) (h3 : ∀ t ∈ Icc a c, HasDerivAt f2 (f3 t) t)
    (hB : ∀ t ∈ Icc a c, |f3 t| ≤ B) :
    ∀ t ∈ Icc a c, |f t - (f a + f1 a * (t - a) + f2 a / 2 * (t - a) ^ 2)| ≤ B / 6 * (t - a) ^ 3 := by
  have r2 := grow (h := fun t => f2 t - f2 a) (C := B) 0 (fun t ht => (h3 t ht).sub_const _) (sub_self _)
    (fun t ht => by simpa using hB t ht)
  have r1 := grow (h := fun t => f1 t - f1 a - f2 a * (t - a)) (h' := fun t => f2 t - f2 a) (C := B / ((0 : ℕ) + 1)) 1
    (fun t ht => by
      have := ((h2 t ht).sub_const (f1 a)).fun_sub (((hasDerivAt_id t).sub_const a).const_mul (f2 a))
      exact this.congr_deriv (by ring)) (by simp) (fun t ht => by simpa using r2 t ht)
  have r0 := grow (h := fun t => f t - (f a + f1 a * (t - a) + f2 a / 2 * (t - a) ^ 2))
    (h' := fun t => f1 t - f1 a - f2 a * (t - a)) (C := B / ((0 : ℕ) + 1) / ((1 : ℕ) + 1)) 2
    (fun t ht => by
      have e := (hasDerivAt_id t).sub_const a
      have := (h1 t ht).fun_sub (((e.const_mul (f1 a)).const_add (f a)).fun_add ((e.fun_pow 2).const_mul (f2 a / 2)))
      exact this.congr_deriv (by simp only [id]; push_cast; ring)) (by simp) (fun t ht => r1 t ht)
  intro t ht
  refine (r0 t ht).trans_eq ?_
  push_cast
  ring

theorem integral_quadratic (a c α β γ : ℝ) : ∫ t in a..c, (α + β * t + γ * t ^ 2)
    = (α * c + β * c ^ 2 / 2 + γ * c ^ 3 / 3) - (α * a + β * a ^ 2 / 2 + γ * a ^ 3 / 3) := by
  rw [intervalIntegral.integral_eq_sub_of_hasDerivAt (f := fun t => α * t + β * t ^ 2 / 2 + γ * t ^ 3 / 3)]
  · intro t _
    have e := hasDerivAt_id t
    have := ((e.const_mul α).fun_add (((e.fun_pow 2).const_mul β).div_const 2)).fun_add
      (((e.fun_pow 3).const_mul γ).div_const 3)
    exact this.congr_deriv (by simp only [id]; push_cast; ring)
  · exact (by fun_prop : Continuous fun t : ℝ => α + β * t + γ * t ^ 2).intervalIntegrable _ _

/-- the integral of a function that is within `ε` of a quadratic -/
theorem integral_near {f : ℝ → ℝ} {a c α β γ ε : ℝ} (hac : a ≤ c) (hf : IntervalIntegrable f volume a c)
    (h : ∀ t ∈ Icc a c, |f t - (α + β * t + γ * t ^ 2)| ≤ ε) :
    |(∫ t in a..c, f t) - ((α * c + β * c ^ 2 / 2 + γ * c ^ 3 / 3) - (α * a + β * a ^ 2 / 2 + γ * a ^ 3 / 3))|
      ≤ ε * (c - a) := by
  have hq : IntervalIntegrable (fun t : ℝ => α + β * t + γ * t ^ 2) volume a c :=
    (by fun_prop : Continuous fun t : ℝ => α + β * t + γ * t ^ 2).intervalIntegrable _ _
  rw [← integral_quadratic, ← intervalIntegral.integral_sub hf hq]
  have := integral_bound (f := fun t => f t - (α + β * t + γ * t ^ 2)) (c := 0) hac (hf.sub hq)
    (fun t ht => by simpa using h t ht)
  simpa using this

theorem panel_near {f : ℝ → ℝ} {a b c α β γ ε : ℝ} (hab : a < b) (hbc : b < c) (hu : c - b ≤ 2 * (b - a))
    (hd : b - a ≤ 2 * (c - b)) (h : ∀ t ∈ Icc a c, |f t - (α + β * t + γ * t ^ 2)| ≤ ε) :
    |simpsonPanel (b - a) (c - b) (f a) (f b) (f c)
      - ((α * c + β * c ^ 2 / 2 + γ * c ^ 3 / 3) - (α * a + β * a ^ 2 / 2 + γ * a ^ 3 / 3))| ≤ ε * (c - a) := by
  rw [← simpsonPanel_quadratic hab hbc]
  set q : ℝ → ℝ := fun t => α + β * t + γ * t ^ 2
  have e : simpsonPanel (b - a) (c - b) (f a) (f b) (f c) = simpsonPanel (b - a) (c - b) (q a) (q b) (q c) +
      simpsonPanel (b - a) (c - b) (f a - q a) (f b - q b) (f c - q c) := by
    rw [← simpsonPanel_add]; congr 1 <;> ring
  have := panel_bound (c := 0) (sub_pos.2 hab) (sub_pos.2 hbc) hu hd (y0 := f a - q a) (y1 := f b - q b)
    (y2 := f c - q c) (ε := ε) (by simpa using h a ⟨le_rfl, (hab.trans hbc).le⟩) (by simpa using h b ⟨hab.le, hbc.le⟩)
    (by simpa using h c ⟨(hab.trans hbc).le, le_rfl⟩)
  rw [e]
  have e2 : b - a + (c - b) = c - a := by ring
  rw [e2, zero_mul, sub_zero] at this
  show |simpsonPanel (b - a) (c - b) (q a) (q b) (q c) + _ - simpsonPanel (b - a) (c - b) (q a) (q b) (q c)| ≤ _
  rwa [add_sub_cancel_left]

theorem panel_last_near {f : ℝ → ℝ} {a b c d α β γ ε : ℝ} (hab : a < b) (hbc : b < c) (hcd : c < d)
    (gu : c - b ≤ 2 * (b - a)) (gd : b - a ≤ 2 * (c - b)) (hu : d - c ≤ 2 * (c - b)) (hd : c - b ≤ 2 * (d - c))
    (h : ∀ t ∈ Icc a d, |f t - (α + β * t + γ * t ^ 2)| ≤ ε) :
    |simpsonPanel (b - a) (c - b) (f a) (f b) (f c) + simpsonLast (c - b) (d - c) (f b) (f c) (f d)
      - ((α * d + β * d ^ 2 / 2 + γ * d ^ 3 / 3) - (α * a + β * a ^ 2 / 2 + γ * a ^ 3 / 3))| ≤ ε * (d - a) := by
  have q1 := simpsonPanel_quadratic hab hbc α β γ
  have q2 := simpsonLast_quadratic hbc hcd α β γ
  set q : ℝ → ℝ := fun t => α + β * t + γ * t ^ 2
  have e : simpsonPanel (b - a) (c - b) (f a) (f b) (f c) = simpsonPanel (b - a) (c - b) (q a) (q b) (q c) +
      simpsonPanel (b - a) (c - b) (f a - q a) (f b - q b) (f c - q c) := by
    rw [← simpsonPanel_add]; congr 1 <;> ring
  have e' : simpsonLast (c - b) (d - c) (f b) (f c) (f d) = simpsonLast (c - b) (d - c) (q b) (q c) (q d) +
      simpsonLast (c - b) (d - c) (f b - q b) (f c - q c) (f d - q d) := by
    rw [← simpsonLast_add]; congr 1 <;> ring
  have := panel_last_bound (c := 0) (sub_pos.2 hab) (sub_pos.2 hbc) (sub_pos.2 hcd) gu gd hu hd (y0 := f a - q a)
    (y1 := f b - q b) (y2 := f c - q c) (y3 := f d - q d) (ε := ε)
    (by simpa using h a ⟨le_rfl, by linarith⟩) (by simpa using h b ⟨hab.le, by linarith⟩)
    (by simpa using h c ⟨by linarith, hcd.le⟩) (by simpa using h d ⟨by linarith, le_rfl⟩)
  have e2 : b - a + (c - b) + (d - c) = d - a := by ring
  rw [e2, zero_mul, sub_zero] at this
  have q1' : simpsonPanel (b - a) (c - b) (q a) (q b) (q c) =
    (α * c + β * c ^ 2 / 2 + γ * c ^ 3 / 3) - (α * a + β * a ^ 2 / 2 + γ * a ^ 3 / 3) := q1
  have q2' : simpsonLast (c - b) (d - c) (q b) (q c) (q d) =
    (α * d + β * d ^ 2 / 2 + γ * d ^ 3 / 3) - (α * c + β * c ^ 2 / 2 + γ * c ^ 3 / 3) := q2
  rw [e, e', q1', q2']
  convert this using 2
  ring

/-- over up to three neighbouring steps `f` is so near to a quadratic that twice the distance, times the length, is at
most the integral of `G` -/
def NearParabola (n : ℕ) (x : ℕ → ℝ) (f G : ℝ → ℝ) : Prop :=
  ∀ i j, i ≤ j → j ≤ i + 3 → j < n → ∃ α β γ ε, (∀ t ∈ Icc (x i) (x j), |f t - (α + β * t + γ * t ^ 2)| ≤ ε) ∧
    2 * (ε * (x j - x i)) ≤ ∫ t in x i..x j, G t

theorem basicSimpson_near {n p : ℕ} {x : ℕ → ℝ} {f G : ℝ → ℝ} (g : GentleGrid n x) (hp : 2 * p < n)
    (hf : ContinuousOn f (Icc (x 0) (x (n - 1)))) (hG : ContinuousOn G (Icc (x 0) (x (n - 1)))) (hs : NearParabola n x f G) :
    |basicSimpson p x (fun i => f (x i)) - ∫ t in x 0..x (2 * p), f t| ≤ ∫ t in x 0..x (2 * p), G t := by
  have hint : ∀ F : ℝ → ℝ, ContinuousOn F (Icc (x 0) (x (n - 1))) → ∀ i j, i ≤ j → j < n →
      IntervalIntegrable F volume (x i) (x j) := by
    intro F hF i j hij hj
    refine (hF.mono ?_).intervalIntegrable_of_Icc (GentleGrid.le g hij hj)
    exact Icc_subset_Icc (GentleGrid.le g (Nat.zero_le i) (by omega)) (GentleGrid.le g (by omega) (by omega))
  induction p with
  | zero => simp [basicSimpson]
  | succ p ih =>
    have ih := ih (by omega)
    have e : basicSimpson (p + 1) x (fun i => f (x i)) = basicSimpson p x (fun i => f (x i)) +
        simpsonPanel (x (2 * p + 1) - x (2 * p)) (x (2 * p + 2) - x (2 * p + 1)) (f (x (2 * p))) (f (x (2 * p + 1)))
          (f (x (2 * p + 2))) := by
      unfold basicSimpson; rw [sum_range_succ]
    have e2 : 2 * (p + 1) = 2 * p + 2 := by ring
    rw [e, e2, ← intervalIntegral.integral_add_adjacent_intervals (hint f hf 0 (2 * p) (Nat.zero_le _) (by omega))
      (hint f hf (2 * p) (2 * p + 2) (by omega) (by omega)),
      ← intervalIntegral.integral_add_adjacent_intervals (hint G hG 0 (2 * p) (Nat.zero_le _) (by omega))
      (hint G hG (2 * p) (2 * p + 2) (by omega) (by omega))]
    obtain ⟨α, β, γ, ε, h1, h2⟩ := hs (2 * p) (2 * p + 2) (by omega) (by omega) (by omega)
    have b1 := panel_near (sub_pos.1 (g.step_pos (2 * p) (by omega))) (sub_pos.1 (g.step_pos (2 * p + 1) (by omega)))
      (g.up _ (by omega)) (g.down _ (by omega)) h1
    have b2 := integral_near (GentleGrid.le g (show 2 * p ≤ 2 * p + 2 by omega) (by omega))
      (hint f hf (2 * p) (2 * p + 2) (by omega) (by omega)) h1
    rw [show 2 * p + 1 + 1 = 2 * p + 2 from rfl] at b1
    rw [abs_le] at *
    constructor <;> linarith [ih.1, ih.2, b1.1, b1.2, b2.1, b2.2]

/-- the error of Simpson's rule is at most the integral of `G` -/
theorem simpson_near {n : ℕ} {x : ℕ → ℝ} {f G : ℝ → ℝ} (hn : 3 ≤ n) (g : GentleGrid n x)
    (hf : ContinuousOn f (Icc (x 0) (x (n - 1)))) (hG : ContinuousOn G (Icc (x 0) (x (n - 1)))) (hs : NearParabola n x f G) :
    |simpson n x (fun i => f (x i)) - ∫ t in x 0..x (n - 1), f t| ≤ ∫ t in x 0..x (n - 1), G t := by
  have hint : ∀ F : ℝ → ℝ, ContinuousOn F (Icc (x 0) (x (n - 1))) → ∀ i j, i ≤ j → j < n →
      IntervalIntegrable F volume (x i) (x j) := by
    intro F hF i j hij hj
    refine (hF.mono ?_).intervalIntegrable_of_Icc (GentleGrid.le g hij hj)
    exact Icc_subset_Icc (GentleGrid.le g (Nat.zero_le i) (by omega)) (GentleGrid.le g (by omega) (by omega))
  unfold simpson
  split_ifs with h1 h3
  · have e : n - 1 = 2 * (n / 2) := by omega
    have := basicSimpson_near (p := n / 2) g (by omega) hf hG hs
    rw [e]; exact this
  · omega
  · omega
  · obtain ⟨p, rfl⟩ : ∃ p, n = 2 * p + 4 := ⟨n / 2 - 2, by omega⟩
    have e1 : (2 * p + 4) / 2 - 1 = p + 1 := by omega
    have e2 : 2 * p + 4 - 2 = 2 * p + 2 := by omega
    have e3 : 2 * p + 4 - 3 = 2 * p + 1 := by omega
    have e4 : 2 * p + 4 - 1 = 2 * p + 3 := by omega
    rw [e4] at hf hG
    have ih := basicSimpson_near (p := p) g (by omega) (by rwa [e4]) (by rwa [e4]) hs
    have e : basicSimpson (p + 1) x (fun i => f (x i)) = basicSimpson p x (fun i => f (x i)) +
        simpsonPanel (x (2 * p + 1) - x (2 * p)) (x (2 * p + 2) - x (2 * p + 1)) (f (x (2 * p))) (f (x (2 * p + 1)))
          (f (x (2 * p + 2))) := by
      unfold basicSimpson; rw [sum_range_succ]
    have i1 := fun F hF => hint F (by rw [e4]; exact hF) 0 (2 * p) (Nat.zero_le _) (by omega)
    have i2 := fun F hF => hint F (by rw [e4]; exact hF) (2 * p) (2 * p + 3) (by omega) (by omega)
    rw [e1, e2, e3, e4, e, ← intervalIntegral.integral_add_adjacent_intervals (i1 f hf) (i2 f hf),
      ← intervalIntegral.integral_add_adjacent_intervals (i1 G hG) (i2 G hG)]
    obtain ⟨α, β, γ, ε, h1, h2⟩ := hs (2 * p) (2 * p + 3) (by omega) (by omega) (by omega)
    have b1 := panel_last_near (sub_pos.1 (g.step_pos (2 * p) (by omega))) (sub_pos.1 (g.step_pos (2 * p + 1) (by omega)))
      (sub_pos.1 (g.step_pos (2 * p + 2) (by omega))) (g.up (2 * p) (by omega)) (g.down (2 * p) (by omega))
      (g.up (2 * p + 1) (by omega)) (g.down (2 * p + 1) (by omega)) h1
    have b2 := integral_near (GentleGrid.le g (show 2 * p ≤ 2 * p + 3 by omega) (by omega)) (i2 f hf) h1
    rw [show 2 * p + 1 + 1 = 2 * p + 2 from rfl, show 2 * p + 2 + 1 = 2 * p + 3 from rfl] at b1
    rw [abs_le] at *
    constructor <;> linarith [ih.1, ih.2, b1.1, b1.2, b2.1, b2.2]

end Verif.Lib

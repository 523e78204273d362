import Verif.Lemmas.Simpson
import Mathlib.MeasureTheory.Integral.IntervalIntegral.FundThmCalculus

/-! Error of scipy's Simpson rule on gentle grids, for continuous functions. -/

namespace Verif.Lib

open Finset Verif.Spec MeasureTheory Set

/-- a functional with non-negative weights moves by at most `ε` times their sum -/
theorem weights_bound {w0 w1 w2 w3 y0 y1 y2 y3 c ε : ℝ} (h0 : 0 ≤ w0) (h1 : 0 ≤ w1) (h2 : 0 ≤ w2) (h3 : 0 ≤ w3)
    (e0 : |y0 - c| ≤ ε) (e1 : |y1 - c| ≤ ε) (e2 : |y2 - c| ≤ ε) (e3 : |y3 - c| ≤ ε) :
    |w0 * y0 + w1 * y1 + w2 * y2 + w3 * y3 - c * (w0 + w1 + w2 + w3)| ≤ ε * (w0 + w1 + w2 + w3) := by
  rw [abs_le] at *
  constructor <;> nlinarith [mul_nonneg h0 (sub_nonneg.2 e0.1), mul_nonneg h0 (sub_nonneg.2 e0.2),
    mul_nonneg h1 (sub_nonneg.2 e1.1), mul_nonneg h1 (sub_nonneg.2 e1.2), mul_nonneg h2 (sub_nonneg.2 e2.1),
    mul_nonneg h2 (sub_nonneg.2 e2.2), mul_nonneg h3 (sub_nonneg.2 e3.1), mul_nonneg h3 (sub_nonneg.2 e3.2)]

theorem panel_bound {h0 h1 y0 y1 y2 c ε : ℝ} (h0p : 0 < h0) (h1p : 0 < h1) (hu : h1 ≤ 2 * h0) (hd : h0 ≤ 2 * h1)
    (e0 : |y0 - c| ≤ ε) (e1 : |y1 - c| ≤ ε) (e2 : |y2 - c| ≤ ε) :
    |simpsonPanel h0 h1 y0 y1 y2 - c * (h0 + h1)| ≤ ε * (h0 + h1) := by
  have a : 0 ≤ 2 - h1 / h0 := by rw [sub_nonneg, div_le_iff₀ h0p]; exact hu
  have b : 0 ≤ 2 - h0 / h1 := by rw [sub_nonneg, div_le_iff₀ h1p]; exact hd
  have := weights_bound (w0 := (h0 + h1) / 6 * (2 - h1 / h0)) (w1 := (h0 + h1) ^ 3 / (6 * h0 * h1))
    (w2 := (h0 + h1) / 6 * (2 - h0 / h1)) (w3 := 0) (by positivity) (by positivity) (by positivity) le_rfl e0 e1 e2 e2
  have e : (h0 + h1) / 6 * (2 - h1 / h0) + (h0 + h1) ^ 3 / (6 * h0 * h1) + (h0 + h1) / 6 * (2 - h0 / h1) + 0 = h0 + h1 := by
    field_simp; ring
  rw [e] at this
  rw [simpsonPanel_eq h0p h1p]
  convert this using 3
  ring

theorem panel_last_bound {g h0 h1 y0 y1 y2 y3 c ε : ℝ} (gp : 0 < g) (h0p : 0 < h0) (h1p : 0 < h1)
    (gu : h0 ≤ 2 * g) (gd : g ≤ 2 * h0) (hu : h1 ≤ 2 * h0) (hd : h0 ≤ 2 * h1)
    (e0 : |y0 - c| ≤ ε) (e1 : |y1 - c| ≤ ε) (e2 : |y2 - c| ≤ ε) (e3 : |y3 - c| ≤ ε) :
    |simpsonPanel g h0 y0 y1 y2 + simpsonLast h0 h1 y1 y2 y3 - c * (g + h0 + h1)| ≤ ε * (g + h0 + h1) := by
  have lin : ∀ s : ℝ, simpsonPanel g h0 (ε + s * (y0 - c)) (ε + s * (y1 - c)) (ε + s * (y2 - c))
      + simpsonLast h0 h1 (ε + s * (y1 - c)) (ε + s * (y2 - c)) (ε + s * (y3 - c)) =
      ε * (g + h0 + h1) + s * (simpsonPanel g h0 y0 y1 y2 + simpsonLast h0 h1 y1 y2 y3 - c * (g + h0 + h1)) := by
    intro s
    rw [simpsonPanel_eq gp h0p, simpsonPanel_eq gp h0p]
    unfold simpsonLast
    field_simp
    ring
  rw [abs_le] at e0 e1 e2 e3
  have p := panel_last_nonneg gp h0p h1p gu gd hu hd (y0 := ε + 1 * (y0 - c)) (y1 := ε + 1 * (y1 - c))
    (y2 := ε + 1 * (y2 - c)) (y3 := ε + 1 * (y3 - c)) (by linarith) (by linarith) (by linarith) (by linarith)
  have q := panel_last_nonneg gp h0p h1p gu gd hu hd (y0 := ε + (-1) * (y0 - c)) (y1 := ε + (-1) * (y1 - c))
    (y2 := ε + (-1) * (y2 - c)) (y3 := ε + (-1) * (y3 - c)) (by linarith) (by linarith) (by linarith) (by linarith)
  rw [lin] at p q
  rw [abs_le]
  constructor <;> linarith

theorem integral_bound {f : ℝ → ℝ} {a b c ε : ℝ} (hab : a ≤ b) (hf : IntervalIntegrable f volume a b)
    (h : ∀ t ∈ Icc a b, |f t - c| ≤ ε) : |(∫ t in a..b, f t) - c * (b - a)| ≤ ε * (b - a) := by
  have e : (∫ t in a..b, f t) - c * (b - a) = ∫ t in a..b, (f t - c) := by
    rw [intervalIntegral.integral_sub hf (by simp)]
    simp [mul_comm]
  rw [e]
  have := intervalIntegral.norm_integral_le_of_norm_le_const (a := a) (b := b) (f := fun t => f t - c) (C := ε) (by
    intro t ht
    rw [uIoc_of_le hab] at ht
    exact h t ⟨ht.1.le, ht.2⟩)
  rw [abs_of_nonneg (sub_nonneg.2 hab)] at this
  exact this

/-- strictly increasing steps give an ordered grid -/
theorem GentleGrid.le {n : ℕ} {x : ℕ → ℝ} (g : GentleGrid n x) {i j : ℕ} (hij : i ≤ j) (hj : j < n) : x i ≤ x j := by
  induction j, hij using Nat.le_induction with
  | base => exact le_rfl
  | succ j hij ih =>
    have := g.step_pos j hj
    linarith [ih (by omega)]

/-- the values of `f` at points less than four neighbouring nodes apart differ by at most `ε` -/
def Smooth (n : ℕ) (x : ℕ → ℝ) (f : ℝ → ℝ) (ε : ℝ) : Prop :=
  ∀ i j, i ≤ j → j ≤ i + 3 → j < n → ∀ s ∈ Icc (x i) (x j), ∀ t ∈ Icc (x i) (x j), |f s - f t| ≤ ε

theorem basicSimpson_bound {n p : ℕ} {x : ℕ → ℝ} {f : ℝ → ℝ} {ε : ℝ} (g : GentleGrid n x) (hp : 2 * p < n)
    (hf : ContinuousOn f (Icc (x 0) (x (n - 1)))) (hs : Smooth n x f ε) :
    |basicSimpson p x (fun i => f (x i)) - ∫ t in x 0..x (2 * p), f t| ≤ 2 * ε * (x (2 * p) - x 0) := by
  have hint : ∀ i j, i ≤ j → j < n → IntervalIntegrable f volume (x i) (x j) := by
    intro i j hij hj
    refine (hf.mono ?_).intervalIntegrable_of_Icc (GentleGrid.le g hij hj)
    exact Icc_subset_Icc (GentleGrid.le g (Nat.zero_le i) (by omega)) (GentleGrid.le g (by omega) (by omega))
  induction p with
  | zero => simp [basicSimpson]
  | succ p ih =>
    have ih := ih (by omega)
    have e : basicSimpson (p + 1) x (fun i => f (x i)) = basicSimpson p x (fun i => f (x i)) +
        simpsonPanel (x (2 * p + 1) - x (2 * p)) (x (2 * p + 2) - x (2 * p + 1)) (f (x (2 * p))) (f (x (2 * p + 1)))
          (f (x (2 * p + 2))) := by
      unfold basicSimpson; rw [sum_range_succ]
    have e2 : 2 * (p + 1) = 2 * p + 2 := by ring
    rw [e, e2, ← intervalIntegral.integral_add_adjacent_intervals (hint 0 (2 * p) (Nat.zero_le _) (by omega))
      (hint (2 * p) (2 * p + 2) (by omega) (by omega))]
    have l01 := GentleGrid.le g (show 2 * p ≤ 2 * p + 1 by omega) (by omega)
    have l12 := GentleGrid.le g (show 2 * p + 1 ≤ 2 * p + 2 by omega) (by omega)
    have osc := hs (2 * p) (2 * p + 2) (by omega) (by omega) (by omega)
    have b1 := panel_bound (g.step_pos (2 * p) (by omega)) (g.step_pos (2 * p + 1) (by omega)) (g.up _ (by omega))
      (g.down _ (by omega)) (osc (x (2 * p)) ⟨le_rfl, l01.trans l12⟩ (x (2 * p)) ⟨le_rfl, l01.trans l12⟩)
      (osc (x (2 * p + 1)) ⟨l01, l12⟩ (x (2 * p)) ⟨le_rfl, l01.trans l12⟩)
      (osc (x (2 * p + 2)) ⟨l01.trans l12, le_rfl⟩ (x (2 * p)) ⟨le_rfl, l01.trans l12⟩)
    have b2 := integral_bound (l01.trans l12) (hint (2 * p) (2 * p + 2) (by omega) (by omega))
      (fun t ht => osc t ht (x (2 * p)) ⟨le_rfl, l01.trans l12⟩)
    rw [abs_le] at *
    constructor <;> nlinarith

/-- C100 core: the error of Simpson's rule is at most twice the oscillation over three steps times the length -/
theorem simpson_bound {n : ℕ} {x : ℕ → ℝ} {f : ℝ → ℝ} {ε : ℝ} (hn : n ≠ 0) (g : GentleGrid n x)
    (hf : ContinuousOn f (Icc (x 0) (x (n - 1)))) (hs : Smooth n x f ε) :
    |simpson n x (fun i => f (x i)) - ∫ t in x 0..x (n - 1), f t| ≤ 2 * ε * (x (n - 1) - x 0) := by
  have hint : ∀ i j, i ≤ j → j < n → IntervalIntegrable f volume (x i) (x j) := by
    intro i j hij hj
    refine (hf.mono ?_).intervalIntegrable_of_Icc (GentleGrid.le g hij hj)
    exact Icc_subset_Icc (GentleGrid.le g (Nat.zero_le i) (by omega)) (GentleGrid.le g (by omega) (by omega))
  unfold simpson
  split_ifs with h1 h3
  · have e : n - 1 = 2 * (n / 2) := by omega
    have := basicSimpson_bound (p := n / 2) g (by omega) hf hs
    rw [e]; exact this
  · subst h3
    have osc := hs 0 1 (by omega) (by omega) (by omega)
    have l := GentleGrid.le g (show 0 ≤ 1 by omega) (by omega)
    have b1 := osc (x 1) ⟨l, le_rfl⟩ (x 0) ⟨le_rfl, l⟩
    have b2 := integral_bound l (hint 0 1 (by omega) (by omega)) (fun t ht => osc t ht (x 0) ⟨le_rfl, l⟩)
    change |1 / 2 * (x 1 - x 0) * (f (x 1) + f (x 0)) - ∫ t in x 0..x 1, f t| ≤ 2 * ε * (x 1 - x 0)
    rw [abs_le] at *
    have l' := sub_nonneg.2 l
    constructor <;> nlinarith
  · obtain ⟨p, rfl⟩ : ∃ p, n = 2 * p + 4 := ⟨n / 2 - 2, by omega⟩
    have e1 : (2 * p + 4) / 2 - 1 = p + 1 := by omega
    have e2 : 2 * p + 4 - 2 = 2 * p + 2 := by omega
    have e3 : 2 * p + 4 - 3 = 2 * p + 1 := by omega
    have e4 : 2 * p + 4 - 1 = 2 * p + 3 := by omega
    rw [e1, e2, e3, e4]
    have ih := basicSimpson_bound (p := p) g (by omega) hf hs
    have e : basicSimpson (p + 1) x (fun i => f (x i)) = basicSimpson p x (fun i => f (x i)) +
        simpsonPanel (x (2 * p + 1) - x (2 * p)) (x (2 * p + 2) - x (2 * p + 1)) (f (x (2 * p))) (f (x (2 * p + 1)))
          (f (x (2 * p + 2))) := by
      unfold basicSimpson; rw [sum_range_succ]
    rw [e, ← intervalIntegral.integral_add_adjacent_intervals (hint 0 (2 * p) (Nat.zero_le _) (by omega))
      (hint (2 * p) (2 * p + 3) (by omega) (by omega))]
    have l01 := GentleGrid.le g (show 2 * p ≤ 2 * p + 1 by omega) (by omega)
    have l12 := GentleGrid.le g (show 2 * p + 1 ≤ 2 * p + 2 by omega) (by omega)
    have l23 := GentleGrid.le g (show 2 * p + 2 ≤ 2 * p + 3 by omega) (by omega)
    have osc := hs (2 * p) (2 * p + 3) (by omega) (by omega) (by omega)
    have m0 : x (2 * p) ∈ Icc (x (2 * p)) (x (2 * p + 3)) := ⟨le_rfl, by linarith⟩
    have b1 := panel_last_bound (g.step_pos (2 * p) (by omega)) (g.step_pos (2 * p + 1) (by omega))
      (g.step_pos (2 * p + 2) (by omega)) (g.up (2 * p) (by omega)) (g.down (2 * p) (by omega))
      (g.up (2 * p + 1) (by omega)) (g.down (2 * p + 1) (by omega)) (osc (x (2 * p)) m0 _ m0)
      (osc (x (2 * p + 1)) ⟨l01, by linarith⟩ _ m0) (osc (x (2 * p + 2)) ⟨by linarith, l23⟩ _ m0)
      (osc (x (2 * p + 3)) ⟨by linarith, le_rfl⟩ _ m0)
    have b2 := integral_bound (by linarith) (hint (2 * p) (2 * p + 3) (by omega) (by omega))
      (fun t ht => osc t ht (x (2 * p)) m0)
    rw [abs_le] at *
    constructor <;> nlinarith

end Verif.Lib

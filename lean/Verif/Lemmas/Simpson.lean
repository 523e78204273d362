import Verif.Lib.Simpson
import Verif.Spec.Grid
import Mathlib.Algebra.QuadraticDiscriminant
import Mathlib.Tactic.LinearCombination
import Mathlib.Tactic.IntervalCases

/-! Helper lemmas on the Simpson functional: linearity, locality, positivity, exactness. -/

namespace Verif.Lib

open Finset

theorem simpsonPanel_add (h0 h1 a0 a1 a2 b0 b1 b2 : ℝ) :
    simpsonPanel h0 h1 (a0 + b0) (a1 + b1) (a2 + b2)
      = simpsonPanel h0 h1 a0 a1 a2 + simpsonPanel h0 h1 b0 b1 b2 := by
  unfold simpsonPanel; ring

theorem simpsonPanel_smul (c h0 h1 a0 a1 a2 : ℝ) :
    simpsonPanel h0 h1 (c * a0) (c * a1) (c * a2) = c * simpsonPanel h0 h1 a0 a1 a2 := by
  unfold simpsonPanel; ring

theorem simpsonLast_add (h0 h1 a0 a1 a2 b0 b1 b2 : ℝ) :
    simpsonLast h0 h1 (a0 + b0) (a1 + b1) (a2 + b2)
      = simpsonLast h0 h1 a0 a1 a2 + simpsonLast h0 h1 b0 b1 b2 := by
  unfold simpsonLast; ring

theorem simpsonLast_smul (c h0 h1 a0 a1 a2 : ℝ) :
    simpsonLast h0 h1 (c * a0) (c * a1) (c * a2) = c * simpsonLast h0 h1 a0 a1 a2 := by
  unfold simpsonLast; ring

theorem basicSimpson_add (p : ℕ) (x y z : ℕ → ℝ) :
    basicSimpson p x (fun i => y i + z i) = basicSimpson p x y + basicSimpson p x z := by
  unfold basicSimpson
  rw [← sum_add_distrib]
  exact sum_congr rfl fun i _ => simpsonPanel_add ..

theorem basicSimpson_smul (p : ℕ) (c : ℝ) (x y : ℕ → ℝ) :
    basicSimpson p x (fun i => c * y i) = c * basicSimpson p x y := by
  unfold basicSimpson
  rw [mul_sum]
  exact sum_congr rfl fun i _ => simpsonPanel_smul ..

/-- Simpson's rule is additive in the integrand. -/
theorem simpson_add (n : ℕ) (x y z : ℕ → ℝ) :
    simpson n x (fun i => y i + z i) = simpson n x y + simpson n x z := by
  unfold simpson
  split_ifs
  · exact basicSimpson_add ..
  · simp
  · ring
  · rw [basicSimpson_add, simpsonLast_add]; ring

/-- Simpson's rule is homogeneous in the integrand. -/
theorem simpson_smul (n : ℕ) (c : ℝ) (x y : ℕ → ℝ) :
    simpson n x (fun i => c * y i) = c * simpson n x y := by
  unfold simpson
  split_ifs
  · exact basicSimpson_smul ..
  · simp
  · ring
  · rw [basicSimpson_smul, simpsonLast_smul]; ring

theorem simpson_smul_right (n : ℕ) (c : ℝ) (x y : ℕ → ℝ) :
    simpson n x (fun i => y i * c) = simpson n x y * c := by
  rw [mul_comm, ← simpson_smul]; simp only [mul_comm]

theorem simpson_zero (n : ℕ) (x : ℕ → ℝ) : simpson n x (fun _ => 0) = 0 := by
  simpa using simpson_smul n 0 x (fun _ => 0)

theorem simpson_neg (n : ℕ) (x y : ℕ → ℝ) : simpson n x (fun i => -y i) = -simpson n x y := by
  simpa using simpson_smul n (-1) x y

theorem simpson_sub (n : ℕ) (x y z : ℕ → ℝ) :
    simpson n x (fun i => y i - z i) = simpson n x y - simpson n x z := by
  simp only [sub_eq_add_neg]; rw [simpson_add, simpson_neg]

theorem basicSimpson_congr {p : ℕ} {x x' y y' : ℕ → ℝ} (hx : ∀ i < 2 * p + 1, x i = x' i)
    (hy : ∀ i < 2 * p + 1, y i = y' i) : basicSimpson p x y = basicSimpson p x' y' := by
  unfold basicSimpson
  refine sum_congr rfl fun i hi => ?_
  have hi := mem_range.1 hi
  rw [hx (2 * i + 1) (by omega), hx (2 * i) (by omega), hx (2 * i + 2) (by omega),
    hy (2 * i + 1) (by omega), hy (2 * i) (by omega), hy (2 * i + 2) (by omega)]

/-- Simpson's rule on `n` points reads only the first `n` grid points and values. -/
theorem simpson_congr {n : ℕ} {x x' y y' : ℕ → ℝ} (hx : ∀ i < n, x i = x' i)
    (hy : ∀ i < n, y i = y' i) : simpson n x y = simpson n x' y' := by
  unfold simpson
  split_ifs with h1 h2 h3
  · exact basicSimpson_congr (fun i hi => hx i (by omega)) (fun i hi => hy i (by omega))
  · rfl
  · subst h3
    rw [hx 0 (by omega), hx 1 (by omega), hy 0 (by omega), hy 1 (by omega)]
  · rw [basicSimpson_congr (x' := x') (y' := y') (fun i hi => hx i (by omega))
      (fun i hi => hy i (by omega)), hx (n - 1) (by omega), hx (n - 2) (by omega),
      hx (n - 3) (by omega), hy (n - 1) (by omega), hy (n - 2) (by omega), hy (n - 3) (by omega)]

theorem simpson_congr_right {n : ℕ} {x y y' : ℕ → ℝ}
    (hy : ∀ i < n, y i = y' i) : simpson n x y = simpson n x y' :=
  simpson_congr (fun _ _ => rfl) hy

open Verif.Spec

theorem simpsonPanel_eq {h0 h1 : ℝ} (h0p : 0 < h0) (h1p : 0 < h1) (y0 y1 y2 : ℝ) :
    simpsonPanel h0 h1 y0 y1 y2 = (h0 + h1) / 6 * ((2 - h1 / h0) * y0)
      + (h0 + h1) ^ 3 / (6 * h0 * h1) * y1 + (h0 + h1) / 6 * ((2 - h0 / h1) * y2) := by
  unfold simpsonPanel; field_simp

theorem simpsonPanel_nonneg {h0 h1 y0 y1 y2 : ℝ} (h0p : 0 < h0) (h1p : 0 < h1)
    (hu : h1 ≤ 2 * h0) (hd : h0 ≤ 2 * h1) (y0p : 0 ≤ y0) (y1p : 0 ≤ y1) (y2p : 0 ≤ y2) :
    0 ≤ simpsonPanel h0 h1 y0 y1 y2 := by
  rw [simpsonPanel_eq h0p h1p]
  have a : 0 ≤ 2 - h1 / h0 := by
    rw [sub_nonneg, div_le_iff₀ h0p]; exact hu
  have b : 0 ≤ 2 - h0 / h1 := by
    rw [sub_nonneg, div_le_iff₀ h1p]; exact hd
  positivity

/-- The last panel together with the end correction has non-negative weights. -/
theorem panel_last_nonneg {g h0 h1 y0 y1 y2 y3 : ℝ} (gp : 0 < g) (h0p : 0 < h0) (h1p : 0 < h1)
    (gu : h0 ≤ 2 * g) (gd : g ≤ 2 * h0) (hu : h1 ≤ 2 * h0) (_hd : h0 ≤ 2 * h1)
    (y0p : 0 ≤ y0) (y1p : 0 ≤ y1) (y2p : 0 ≤ y2) (y3p : 0 ≤ y3) :
    0 ≤ simpsonPanel g h0 y0 y1 y2 + simpsonLast h0 h1 y1 y2 y3 := by
  rw [simpsonPanel_eq gp h0p]
  unfold simpsonLast
  have a : 0 ≤ 2 - h0 / g := by rw [sub_nonneg, div_le_iff₀ gp]; exact gu
  have b : 0 ≤ 2 - g / h0 := by rw [sub_nonneg, div_le_iff₀ h0p]; exact gd
  have key : h1 ^ 3 / (6 * h0 * (h0 + h1)) ≤ (g + h0) ^ 3 / (6 * g * h0) := by
    have e1 : h1 ^ 3 / (6 * h0 * (h0 + h1)) ≤ h0 := by
      rw [div_le_iff₀ (by positivity)]
      have : h1 ^ 3 ≤ 4 * h0 ^ 2 * h1 := by nlinarith [sq_nonneg h1, mul_pos h0p h1p]
      nlinarith [mul_pos h0p h1p, sq_nonneg h0, pow_pos h0p 3, mul_pos (pow_pos h0p 2) h1p]
    have e2 : h0 ≤ (g + h0) ^ 3 / (6 * g * h0) := by
      rw [le_div_iff₀ (by positivity)]
      nlinarith [sq_nonneg (g - h0), pow_pos gp 3, pow_pos h0p 3, mul_pos (pow_pos gp 2) h0p,
        mul_pos (pow_pos h0p 2) gp, mul_nonneg gp.le (sq_nonneg (g - h0)),
        mul_nonneg h0p.le (sq_nonneg (g - h0)), mul_nonneg h0p.le (sq_nonneg (2*g - h0)),
        mul_nonneg gp.le (sq_nonneg (2*g - h0))]
    exact e1.trans e2
  have : 0 ≤ ((g + h0) ^ 3 / (6 * g * h0) - h1 ^ 3 / (6 * h0 * (h0 + h1))) * y1 :=
    mul_nonneg (sub_nonneg.2 key) y1p
  have p1 : 0 ≤ (g + h0) / 6 * ((2 - h0 / g) * y0) := by positivity
  have p2 : 0 ≤ (g + h0) / 6 * ((2 - g / h0) * y2) := by positivity
  have p3 : 0 ≤ (2 * h1 ^ 2 + 3 * h0 * h1) / (6 * (h1 + h0)) * y3 := by positivity
  have p4 : 0 ≤ (h1 ^ 2 + 3 * h0 * h1) / (6 * h0) * y2 := by positivity
  linarith

theorem basicSimpson_nonneg {n p : ℕ} {x y : ℕ → ℝ} (g : GentleGrid n x) (hp : 2 * p < n)
    (hy : ∀ i < n, 0 ≤ y i) : 0 ≤ basicSimpson p x y := by
  unfold basicSimpson
  refine sum_nonneg fun i hi => ?_
  have hi := mem_range.1 hi
  exact simpsonPanel_nonneg (g.step_pos _ (by omega)) (g.step_pos _ (by omega)) (g.up _ (by omega))
    (g.down _ (by omega)) (hy _ (by omega)) (hy _ (by omega)) (hy _ (by omega))

/-- Simpson's rule preserves non-negativity on gentle grids. -/
theorem simpson_nonneg {n : ℕ} {x y : ℕ → ℝ} (g : GentleGrid n x) (hy : ∀ i < n, 0 ≤ y i) :
    0 ≤ simpson n x y := by
  unfold simpson
  split_ifs with h1 h2 h3
  · exact basicSimpson_nonneg g (by omega) hy
  · exact le_rfl
  · subst h3
    have a := g.step_pos 0 (by omega)
    have b := hy 0 (by omega)
    have c := hy 1 (by omega)
    simp only [zero_add] at a
    positivity
  · obtain ⟨p, rfl⟩ : ∃ p, n = 2 * p + 4 := ⟨n / 2 - 2, by omega⟩
    have e1 : (2 * p + 4) / 2 - 1 = p + 1 := by omega
    have e2 : 2 * p + 4 - 2 = 2 * p + 2 := by omega
    have e3 : 2 * p + 4 - 3 = 2 * p + 1 := by omega
    have e4 : 2 * p + 4 - 1 = 2 * p + 3 := by omega
    rw [e1, e2, e3, e4]
    unfold basicSimpson
    rw [sum_range_succ, add_assoc]
    refine add_nonneg (basicSimpson_nonneg (p := p) g (by omega) hy) ?_
    exact panel_last_nonneg (g.step_pos _ (by omega)) (g.step_pos _ (by omega))
      (g.step_pos (2 * p + 2) (by omega)) (g.up _ (by omega)) (g.down _ (by omega))
      (g.up (2 * p + 1) (by omega)) (g.down (2 * p + 1) (by omega))
      (hy _ (by omega)) (hy _ (by omega)) (hy _ (by omega)) (hy _ (by omega))

/-- Simpson's rule preserves order on gentle grids. -/
theorem simpson_mono {n : ℕ} {x y z : ℕ → ℝ} (g : GentleGrid n x) (h : ∀ i < n, y i ≤ z i) :
    simpson n x y ≤ simpson n x z := by
  have := simpson_nonneg g (y := fun i => z i - y i) (fun i hi => sub_nonneg.2 (h i hi))
  rw [simpson_sub] at this
  linarith

/-- Cauchy–Schwarz for the Simpson functional with a non-negative weight on a gentle grid. -/
theorem simpson_cauchy_schwarz {n : ℕ} {x : ℕ → ℝ} (g : GentleGrid n x) (u v w : ℕ → ℝ)
    (hw : ∀ i < n, 0 ≤ w i) :
    simpson n x (fun i => u i * v i * w i) ^ 2
      ≤ simpson n x (fun i => u i * u i * w i) * simpson n x (fun i => v i * v i * w i) := by
  set A := simpson n x (fun i => u i * u i * w i) with hA
  set B := simpson n x (fun i => u i * v i * w i) with hB
  set C := simpson n x (fun i => v i * v i * w i) with hC
  have q : ∀ t : ℝ, 0 ≤ A * (t * t) + 2 * B * t + C := by
    intro t
    have h := simpson_nonneg g (y := fun i => (t * u i + v i) ^ 2 * w i)
      (fun i hi => mul_nonneg (sq_nonneg _) (hw i hi))
    have e : simpson n x (fun i => (t * u i + v i) ^ 2 * w i) = t * t * A + 2 * t * B + C := by
      rw [hA, hB, hC, ← simpson_smul, ← simpson_smul, ← simpson_add, ← simpson_add]
      congr 1; funext i; ring
    linarith [e ▸ h]
  have d := discrim_le_zero q
  unfold discrim at d
  nlinarith

/-- Exactness of one panel for quadratics. -/
theorem simpsonPanel_quadratic {a b c : ℝ} (hab : a < b) (hbc : b < c) (α β γ : ℝ) :
    simpsonPanel (b - a) (c - b) (α + β * a + γ * a ^ 2) (α + β * b + γ * b ^ 2)
      (α + β * c + γ * c ^ 2)
      = (α * c + β * c ^ 2 / 2 + γ * c ^ 3 / 3) - (α * a + β * a ^ 2 / 2 + γ * a ^ 3 / 3) := by
  have h0 : b - a ≠ 0 := (sub_pos.2 hab).ne'
  have h1 : c - b ≠ 0 := (sub_pos.2 hbc).ne'
  rw [simpsonPanel_eq (sub_pos.2 hab) (sub_pos.2 hbc)]
  field_simp
  ring

theorem simpsonLast_quadratic {a b c : ℝ} (hab : a < b) (hbc : b < c) (α β γ : ℝ) :
    simpsonLast (b - a) (c - b) (α + β * a + γ * a ^ 2) (α + β * b + γ * b ^ 2)
      (α + β * c + γ * c ^ 2)
      = (α * c + β * c ^ 2 / 2 + γ * c ^ 3 / 3) - (α * b + β * b ^ 2 / 2 + γ * b ^ 3 / 3) := by
  have h0 : b - a ≠ 0 := (sub_pos.2 hab).ne'
  have h1 : c - b ≠ 0 := (sub_pos.2 hbc).ne'
  have h2 : c - b + (b - a) ≠ 0 := by
    have : 0 < c - b + (b - a) := by linarith
    exact this.ne'
  have h3 : b - a + (c - b) ≠ 0 := by rwa [add_comm] at h2
  unfold simpsonLast
  field_simp
  ring

theorem basicSimpson_quadratic {p : ℕ} {x : ℕ → ℝ} (hx : ∀ i < 2 * p, x i < x (i + 1))
    (α β γ : ℝ) :
    basicSimpson p x (fun i => α + β * x i + γ * x i ^ 2)
      = (α * x (2 * p) + β * x (2 * p) ^ 2 / 2 + γ * x (2 * p) ^ 3 / 3)
        - (α * x 0 + β * x 0 ^ 2 / 2 + γ * x 0 ^ 3 / 3) := by
  induction p with
  | zero => simp [basicSimpson]
  | succ p ih =>
    have := ih (fun i hi => hx i (by omega))
    unfold basicSimpson at this ⊢
    rw [sum_range_succ, this,
      simpsonPanel_quadratic (hx _ (by omega)) (hx (2 * p + 1) (by omega))]
    have : 2 * (p + 1) = 2 * p + 2 := by ring
    rw [this]; ring

/-- The modelled Simpson rule integrates every quadratic exactly on every strictly increasing grid with
at least three points (validation of the contract). -/
theorem simpson_quadratic {n : ℕ} (hn : 3 ≤ n) {x : ℕ → ℝ} (hx : ∀ i, i + 1 < n → x i < x (i + 1))
    (α β γ : ℝ) :
    simpson n x (fun i => α + β * x i + γ * x i ^ 2)
      = (α * x (n - 1) + β * x (n - 1) ^ 2 / 2 + γ * x (n - 1) ^ 3 / 3)
        - (α * x 0 + β * x 0 ^ 2 / 2 + γ * x 0 ^ 3 / 3) := by
  unfold simpson
  split_ifs with h1 h2 h3
  · rw [basicSimpson_quadratic (fun i hi => hx i (by omega))]
    rw [show 2 * (n / 2) = n - 1 by omega]
  · omega
  · omega
  · rw [basicSimpson_quadratic (fun i hi => hx i (by omega))]
    obtain ⟨p, rfl⟩ : ∃ p, n = 2 * p + 4 := ⟨n / 2 - 2, by omega⟩
    have e1 : 2 * ((2 * p + 4) / 2 - 1) = 2 * p + 2 := by omega
    have e2 : 2 * p + 4 - 2 = 2 * p + 2 := by omega
    have e3 : 2 * p + 4 - 3 = 2 * p + 1 := by omega
    have e4 : 2 * p + 4 - 1 = 2 * p + 3 := by omega
    rw [e1, e2, e3, e4, simpsonLast_quadratic (hx _ (by omega)) (hx (2 * p + 2) (by omega))]
    ring

end Verif.Lib

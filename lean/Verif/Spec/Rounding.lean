import Verif.Spec.Grid

/-! Specifications for the statements about rounding errors; independent of the model. -/

namespace Verif.Spec

/-- `x` is strictly increasing on its first `n` points and neighbouring steps differ at most by a factor `3/2`
(logarithmic mass grids with `dlog10m ≤ 0.17` are of this kind; the default is `0.05`). -/
structure SmoothGrid (n : ℕ) (x : ℕ → ℝ) : Prop where
  step_pos : ∀ i, i + 1 < n → 0 < x (i + 1) - x i
  up : ∀ i, i + 2 < n → 2 * (x (i + 2) - x (i + 1)) ≤ 3 * (x (i + 1) - x i)
  down : ∀ i, i + 2 < n → 2 * (x (i + 1) - x i) ≤ 3 * (x (i + 2) - x (i + 1))

theorem SmoothGrid.gentle {n : ℕ} {x : ℕ → ℝ} (g : SmoothGrid n x) : GentleGrid n x where
  step_pos := g.step_pos
  up i hi := by have := g.up i hi; have := g.step_pos i (by omega); linarith
  down i hi := by have := g.down i hi; have := g.step_pos (i + 1) (by omega); linarith

/-- the relative error of `K` operations with unit roundoff `u`, `γ_K = K u / (1 - K u)` -/
noncomputable def gamma (u : ℝ) (K : ℕ) : ℝ := K * u / (1 - K * u)

end Verif.Spec

import Verif.Lib.GaussianFilter
import Mathlib.Algebra.Order.BigOperators.Ring.Finset
import Mathlib.Algebra.BigOperators.Field
import Mathlib.Tactic.Linarith
import Mathlib.Tactic.Positivity
import Mathlib.Tactic.Ring

/-! Facts about `scipy.ndimage.gaussian_filter1d`: positive symmetric weights with sum one, reflecting boundary. -/

namespace Verif.Lib

theorem gaussPhi_pos (s : ℝ) (d : ℤ) : 0 < gaussPhi s d := Real.exp_pos _

theorem filterOffsets_zero (s : ℝ) : (0 : ℤ) ∈ filterOffsets s := by simp [filterOffsets]

theorem gaussSum_pos (s : ℝ) : 0 < ∑ e ∈ filterOffsets s, gaussPhi s e :=
  Finset.sum_pos (fun _ _ => gaussPhi_pos _ _) ⟨0, filterOffsets_zero s⟩

theorem gaussKernel_pos (s : ℝ) (d : ℤ) : 0 < gaussKernel s d := div_pos (gaussPhi_pos _ _) (gaussSum_pos _)

theorem gaussKernel_sum (s : ℝ) : ∑ d ∈ filterOffsets s, gaussKernel s d = 1 := by
  simp only [gaussKernel]
  rw [← Finset.sum_div]
  exact div_self (gaussSum_pos s).ne'

theorem gaussKernel_neg (s : ℝ) (d : ℤ) : gaussKernel s (-d) = gaussKernel s d := by
  simp [gaussKernel, gaussPhi]

theorem reflect_lt {n : ℕ} (hn : 0 < n) (x : ℤ) : reflect n x < n := by
  have h0 := Int.emod_nonneg x (show (2 * n : ℤ) ≠ 0 by omega)
  have h1 := Int.emod_lt_of_pos x (show (0 : ℤ) < 2 * n by omega)
  unfold reflect
  simp only
  split_ifs <;> omega

theorem reflect_self {n i : ℕ} (hi : i < n) : reflect n i = i := by
  have : (i : ℤ) % (2 * n : ℤ) = i := Int.emod_eq_of_lt (by omega) (by omega)
  unfold reflect
  simp only [this]
  rw [if_pos (by omega)]; simp

/-- the reflection never moves an index away from an index of the row -/
theorem reflect_near {n i : ℕ} (hi : i < n) (x : ℤ) : |(reflect n x : ℤ) - i| ≤ |x - i| := by
  have h0 := Int.emod_nonneg x (show (2 * n : ℤ) ≠ 0 by omega)
  have h1 := Int.emod_lt_of_pos x (show (0 : ℤ) < 2 * n by omega)
  have h2 := Int.emod_add_mul_ediv x (2 * n : ℤ)
  set m := x % (2 * n : ℤ)
  set q := x / (2 * n : ℤ)
  have hr := reflect_lt (show 0 < n by omega) x
  have hc : q = 0 ∨ q = -1 ∨ 1 ≤ q ∨ q ≤ -2 := by omega
  have e : (reflect n x : ℤ) = if m < n then m else 2 * n - 1 - m := by
    unfold reflect
    simp only
    rw [Int.toNat_of_nonneg]
    split_ifs <;> omega
  rcases hc with hc | hc | hc | hc
  · rw [hc] at h2
    rw [e]
    split_ifs with g
    · rw [show x = m by linarith]
    · rw [abs_le]; constructor
      · have : x - i ≤ |x - i| := le_abs_self _
        omega
      · have : x - i ≤ |x - i| := le_abs_self _
        omega
  · rw [hc] at h2
    have : -(x - i) ≤ |x - i| := neg_le_abs _
    rw [e, abs_le]
    split_ifs with g <;> constructor <;> omega
  · have hx : (2 * n : ℤ) ≤ 2 * n * q := by nlinarith
    have : x - i ≤ |x - i| := le_abs_self _
    rw [abs_le]; constructor <;> omega
  · have hx : (2 * n : ℤ) * q ≤ -(4 * n) := by nlinarith
    have : -(x - i) ≤ |x - i| := neg_le_abs _
    rw [abs_le]; constructor <;> omega

theorem filter_const {n : ℕ} (s c : ℝ) (i : ℕ) : gaussianFilter1d n s (fun _ => c) i = c := by
  unfold gaussianFilter1d
  rw [← Finset.sum_mul, gaussKernel_sum, one_mul]

theorem filter_add {n : ℕ} (s : ℝ) (f g : ℕ → ℝ) (i : ℕ) :
    gaussianFilter1d n s (fun j => f j + g j) i = gaussianFilter1d n s f i + gaussianFilter1d n s g i := by
  unfold gaussianFilter1d
  rw [← Finset.sum_add_distrib]
  exact Finset.sum_congr rfl fun _ _ => by ring

theorem filter_smul {n : ℕ} (s c : ℝ) (f : ℕ → ℝ) (i : ℕ) :
    gaussianFilter1d n s (fun j => c * f j) i = c * gaussianFilter1d n s f i := by
  unfold gaussianFilter1d
  rw [Finset.mul_sum]
  exact Finset.sum_congr rfl fun _ _ => by ring

/-- the filter only sees the entries of the row within its radius -/
theorem filter_congr {n : ℕ} (s : ℝ) {f g : ℕ → ℝ} {i : ℕ} (hi : i < n)
    (h : ∀ j < n, |(j : ℤ) - i| ≤ filterRadius s → f j = g j) :
    gaussianFilter1d n s f i = gaussianFilter1d n s g i := by
  unfold gaussianFilter1d
  refine Finset.sum_congr rfl fun d hd => ?_
  rw [h _ (reflect_lt (by omega) _)]
  refine (reflect_near hi _).trans ?_
  rw [filterOffsets, Finset.mem_Icc] at hd
  rw [add_sub_cancel_left, abs_le]; exact hd

theorem filter_mono {n : ℕ} (s : ℝ) {f g : ℕ → ℝ} {i : ℕ} (hi : i < n)
    (h : ∀ j < n, |(j : ℤ) - i| ≤ filterRadius s → f j ≤ g j) :
    gaussianFilter1d n s f i ≤ gaussianFilter1d n s g i := by
  unfold gaussianFilter1d
  refine Finset.sum_le_sum fun d hd => mul_le_mul_of_nonneg_left ?_ (gaussKernel_pos _ _).le
  refine h _ (reflect_lt (by omega) _) ((reflect_near hi _).trans ?_)
  rw [filterOffsets, Finset.mem_Icc] at hd
  rw [add_sub_cancel_left, abs_le]; exact hd

theorem filter_pos {n : ℕ} (s : ℝ) {f : ℕ → ℝ} {i : ℕ} (hi : i < n) (h : ∀ j < n, 0 < f j) :
    0 < gaussianFilter1d n s f i :=
  Finset.sum_pos (fun _ _ => mul_pos (gaussKernel_pos _ _) (h _ (reflect_lt (by omega) _)))
    ⟨0, filterOffsets_zero s⟩

theorem reflect_periodic (n : ℕ) (x : ℤ) : reflect n (x + 2 * n) = reflect n x := by
  unfold reflect
  simp

theorem reflect_mirror {n : ℕ} (hn : 0 < n) (x : ℤ) : reflect n (-1 - x) = reflect n x := by
  have h0 := Int.emod_nonneg x (show (2 * n : ℤ) ≠ 0 by omega)
  have h1 := Int.emod_lt_of_pos x (show (0 : ℤ) < 2 * n by omega)
  have h2 := Int.emod_add_mul_ediv x (2 * n : ℤ)
  have e : (-1 - x) % (2 * n : ℤ) = 2 * n - 1 - x % (2 * n : ℤ) := by
    have : -1 - x = (2 * n - 1 - x % (2 * n : ℤ)) + (2 * n : ℤ) * (-(x / (2 * n : ℤ)) - 1) := by
      linarith
    rw [this, Int.add_mul_emod_self_left]
    exact Int.emod_eq_of_lt (by omega) (by omega)
  unfold reflect
  simp only [e]
  split_ifs <;> omega

/-- sums of a periodic function over a period do not depend on where the period starts -/
theorem sum_period {N : ℕ} {F : ℤ → ℝ} (hF : ∀ x, F (x + N) = F x) (a : ℤ) :
    ∑ i ∈ Finset.range N, F (i + a) = ∑ i ∈ Finset.range N, F i := by
  have step : ∀ a : ℤ, ∑ i ∈ Finset.range N, F (i + (a + 1)) = ∑ i ∈ Finset.range N, F (i + a) := by
    intro a
    have h1 := Finset.sum_range_succ (fun i : ℕ => F (i + a)) N
    have h2 := Finset.sum_range_succ' (fun i : ℕ => F (i + a)) N
    rw [h1] at h2
    have h3 : F ((N : ℤ) + a) = F (((0 : ℕ) : ℤ) + a) := by
      rw [add_comm, hF]; simp
    rw [h3] at h2
    have h4 := add_right_cancel h2
    rw [h4]
    refine Finset.sum_congr rfl fun i _ => ?_
    congr 1; push_cast; ring
  induction a using Int.induction_on with
  | zero => simp
  | succ i ih => rw [step, ih]
  | pred i ih => rw [← ih, ← step]; simp

/-- with the reflecting boundary the filter keeps the sum of the row -/
theorem filter_sum {n : ℕ} (hn : 0 < n) (s : ℝ) (f : ℕ → ℝ) :
    ∑ i ∈ Finset.range n, gaussianFilter1d n s f i = ∑ i ∈ Finset.range n, f i := by
  -- shifting by `d` and by `-d` together covers each entry twice
  have pair : ∀ d : ℤ, ∑ i ∈ Finset.range n, f (reflect n (i + d)) + ∑ i ∈ Finset.range n, f (reflect n (i - d))
      = 2 * ∑ i ∈ Finset.range n, f i := by
    intro d
    set F : ℤ → ℝ := fun x => f (reflect n x)
    have hper : ∀ x, F (x + (2 * n : ℕ)) = F x := fun x => by
      simp only [F]; push_cast; rw [reflect_periodic]
    have hs := sum_period hper d
    have split : ∀ a : ℤ, ∑ i ∈ Finset.range (2 * n), F (i + a)
        = ∑ i ∈ Finset.range n, F (i + a) + ∑ i ∈ Finset.range n, F (i - a) := by
      intro a
      rw [two_mul, Finset.sum_range_add, ← Finset.sum_range_reflect (fun i => F (((n + i : ℕ) : ℤ) + a))]
      congr 1
      refine Finset.sum_congr rfl fun i hi => ?_
      rw [Finset.mem_range] at hi
      have : F (i - a) = F (-1 - (i - a)) := by simp only [F]; rw [reflect_mirror hn]
      rw [this, ← hper (-1 - (i - a))]
      congr 1
      push_cast
      omega
    have h0 := split 0
    simp only [add_zero, sub_zero] at h0
    rw [split, h0] at hs
    have hid : ∑ i ∈ Finset.range n, F (i : ℤ) = ∑ i ∈ Finset.range n, f i :=
      Finset.sum_congr rfl fun i hi => by
        simp only [F]; rw [reflect_self (Finset.mem_range.mp hi)]
    rw [hid] at hs
    rw [hs]; ring
  have e1 : ∑ i ∈ Finset.range n, gaussianFilter1d n s f i
      = ∑ d ∈ filterOffsets s, gaussKernel s d * ∑ i ∈ Finset.range n, f (reflect n (i + d)) := by
    unfold gaussianFilter1d
    rw [Finset.sum_comm]
    exact Finset.sum_congr rfl fun d _ => (Finset.mul_sum _ _ _).symm
  have e2 : ∑ i ∈ Finset.range n, gaussianFilter1d n s f i
      = ∑ d ∈ filterOffsets s, gaussKernel s d * ∑ i ∈ Finset.range n, f (reflect n (i - d)) := by
    rw [e1]
    refine Finset.sum_nbij' (fun d => -d) (fun d => -d) ?_ ?_ ?_ ?_ ?_
    · intro d hd; simp only [filterOffsets, Finset.mem_Icc] at hd ⊢; omega
    · intro d hd; simp only [filterOffsets, Finset.mem_Icc] at hd ⊢; omega
    · intro d _; simp
    · intro d _; simp
    · intro d _; rw [gaussKernel_neg]; simp
  have h2 : 2 * ∑ i ∈ Finset.range n, gaussianFilter1d n s f i = 2 * ∑ i ∈ Finset.range n, f i := by
    rw [two_mul]
    nth_rewrite 1 [e1]
    rw [e2, ← Finset.sum_add_distrib]
    simp only [← mul_add, pair]
    rw [← Finset.sum_mul, gaussKernel_sum, one_mul]
  linarith

end Verif.Lib

import Verif.Lib.Interp
import Verif.Spec.Grid

/-! Helper lemmas on linear interpolation. -/

namespace Verif.Lib

open Finset Verif.Spec

theorem _root_.Verif.Spec.SortedOn.le {n : ℕ} {x : ℕ → ℝ} (h : SortedOn n x) {i j : ℕ} (hij : i ≤ j) (hj : j < n) :
    x i ≤ x j := by
  rcases hij.eq_or_lt with rfl | h'
  · exact le_rfl
  · exact (h i j h' hj).le

theorem sortedOn_of_step {n : ℕ} {x : ℕ → ℝ} (h : ∀ i, i + 1 < n → x i < x (i + 1)) :
    SortedOn n x := by
  intro i j hij hj
  induction j with
  | zero => omega
  | succ j ih =>
    rcases Nat.lt_succ_iff_lt_or_eq.1 hij with h1 | rfl
    · exact (ih h1 (by omega)).trans (h j hj)
    · exact h _ hj

/-- If the nodes below `j` are `< q` and the nodes from `j` on are `≥ q`, the insertion index is `j`. -/
theorem searchsorted_eq {n j : ℕ} {x : ℕ → ℝ} {q : ℝ} (hj : j ≤ n) (h1 : ∀ i < j, x i < q)
    (h2 : ∀ i, j ≤ i → i < n → q ≤ x i) : searchsorted n x q = j := by
  unfold searchsorted
  have : (range n).filter (fun i => x i < q) = range j := by
    ext i
    simp only [mem_filter, mem_range]
    constructor
    · rintro ⟨hi, hq⟩
      by_contra hc
      exact absurd hq (not_lt.2 (h2 i (not_lt.1 hc) hi))
    · intro hi
      exact ⟨by omega, h1 i hi⟩
  rw [this, card_range]

theorem searchsorted_le (n : ℕ) (x : ℕ → ℝ) (q : ℝ) : searchsorted n x q ≤ n := by
  unfold searchsorted
  exact (card_filter_le _ _).trans (by simp)

theorem segment_pos (n : ℕ) (x : ℕ → ℝ) (q : ℝ) : 1 ≤ segment n x q := le_max_left _ _

theorem segment_lt {n : ℕ} (hn : 2 ≤ n) (x : ℕ → ℝ) (q : ℝ) : segment n x q < n := by
  unfold segment; omega

/-- Interpolation reproduces the node values. -/
theorem interpLinear_node {n : ℕ} (hn : 2 ≤ n) {x : ℕ → ℝ} (hx : SortedOn n x) (y : ℕ → ℝ) {i : ℕ}
    (hi : i < n) : interpLinear n x y (x i) = y i := by
  have hs : searchsorted n x (x i) = i :=
    searchsorted_eq hi.le (fun k hk => hx k i hk hi) (fun k hk hkn => hx.le hk hkn)
  unfold interpLinear segment
  rw [hs]
  rcases Nat.eq_zero_or_pos i with rfl | hpos
  · have : max 1 (min 0 (n - 1)) = 1 := by omega
    rw [this]; simp
  · have : max 1 (min i (n - 1)) = i := by omega
    rw [this]
    have hne : x i - x (i - 1) ≠ 0 := (sub_pos.2 (hx (i - 1) i (by omega) hi)).ne'
    field_simp; ring

theorem interpLinear_add (n : ℕ) (x y z : ℕ → ℝ) (q : ℝ) :
    interpLinear n x (fun i => y i + z i) q = interpLinear n x y q + interpLinear n x z q := by
  unfold interpLinear; ring

theorem interpLinear_smul (n : ℕ) (c : ℝ) (x y : ℕ → ℝ) (q : ℝ) :
    interpLinear n x (fun i => c * y i) q = c * interpLinear n x y q := by
  unfold interpLinear; ring

theorem interpLinear_congr {n : ℕ} (hn : 2 ≤ n) {x y z : ℕ → ℝ} (h : ∀ i < n, y i = z i) (q : ℝ) :
    interpLinear n x y q = interpLinear n x z q := by
  have a := segment_lt hn x q
  have b : segment n x q - 1 < n := by omega
  unfold interpLinear
  rw [h _ a, h _ b]

/-- Affine data are reproduced everywhere. -/
theorem interpLinear_affine {n : ℕ} (hn : 2 ≤ n) {x : ℕ → ℝ} (hx : SortedOn n x) (a b q : ℝ) :
    interpLinear n x (fun i => a + b * x i) q = a + b * q := by
  have h1 := segment_pos n x q
  have h2 := segment_lt hn x q
  unfold interpLinear
  have hne : x (segment n x q) - x (segment n x q - 1) ≠ 0 :=
    (sub_pos.2 (hx _ _ (by omega) h2)).ne'
  field_simp; ring

theorem interpLinear_const {n : ℕ} (hn : 2 ≤ n) {x : ℕ → ℝ} (hx : SortedOn n x) (a q : ℝ) :
    interpLinear n x (fun _ => a) q = a := by
  simpa using interpLinear_affine hn hx a 0 q

/-- For a query inside the node range the chosen segment brackets it. -/
theorem segment_bracket {n : ℕ} (hn : 2 ≤ n) {x : ℕ → ℝ} (hx : SortedOn n x) {q : ℝ}
    (h0 : x 0 ≤ q) (h1 : q ≤ x (n - 1)) :
    x (segment n x q - 1) ≤ q ∧ q ≤ x (segment n x q) := by
  classical
  -- the least index `j` with `q ≤ x j`
  have hex : ∃ j, j < n ∧ q ≤ x j := ⟨n - 1, by omega, h1⟩
  set j := Nat.find hex with hj
  have hjs := Nat.find_spec hex
  have hjm : ∀ i < j, x i < q := by
    intro i hi
    have := Nat.find_min hex hi
    push Not at this
    exact this (by omega)
  have hs : searchsorted n x q = j :=
    searchsorted_eq hjs.1.le hjm (fun i hi hin => hjs.2.trans (hx.le hi hin))
  unfold segment
  rw [hs]
  rcases Nat.eq_zero_or_pos j with h | hpos
  · have : max 1 (min j (n - 1)) = 1 := by omega
    rw [this]
    refine ⟨h0, ?_⟩
    have h2 := hjs.2
    rw [← hj, h] at h2
    exact h2.trans (hx 0 1 (by omega) (by omega)).le
  · have : max 1 (min j (n - 1)) = j := by omega
    rw [this]
    exact ⟨(hjm (j - 1) (by omega)).le, hjs.2⟩

/-- Inside the node range the interpolated value is a convex combination of two neighbouring nodes. -/
theorem interpLinear_convex {n : ℕ} (hn : 2 ≤ n) {x : ℕ → ℝ} (hx : SortedOn n x) {q : ℝ}
    (h0 : x 0 ≤ q) (h1 : q ≤ x (n - 1)) :
    ∃ j t, 1 ≤ j ∧ j < n ∧ 0 ≤ t ∧ t ≤ 1 ∧ q = (1 - t) * x (j - 1) + t * x j ∧
      ∀ y : ℕ → ℝ, interpLinear n x y q = (1 - t) * y (j - 1) + t * y j := by
  obtain ⟨ha, hb⟩ := segment_bracket hn hx h0 h1
  set j := segment n x q with hj
  have hj1 : 1 ≤ j := segment_pos n x q
  have hj2 : j < n := segment_lt hn x q
  have hd : 0 < x j - x (j - 1) := sub_pos.2 (hx _ _ (by omega) hj2)
  refine ⟨j, (q - x (j - 1)) / (x j - x (j - 1)), hj1, hj2, ?_, ?_, ?_, ?_⟩
  · exact div_nonneg (by linarith) hd.le
  · rw [div_le_one hd]; linarith
  · field_simp; ring
  · intro y
    unfold interpLinear
    rw [← hj]
    field_simp; ring

/-- Bounds carry over to interpolated values inside the range. -/
theorem interpLinear_mem_Icc {n : ℕ} (hn : 2 ≤ n) {x : ℕ → ℝ} (hx : SortedOn n x) {q : ℝ}
    (h0 : x 0 ≤ q) (h1 : q ≤ x (n - 1)) {y : ℕ → ℝ} {a b : ℝ} (hy : ∀ i < n, a ≤ y i ∧ y i ≤ b) :
    a ≤ interpLinear n x y q ∧ interpLinear n x y q ≤ b := by
  obtain ⟨j, t, hj1, hj2, ht0, ht1, -, hv⟩ := interpLinear_convex hn hx h0 h1
  rw [hv]
  obtain ⟨l1, u1⟩ := hy (j - 1) (by omega)
  obtain ⟨l2, u2⟩ := hy j hj2
  constructor <;> nlinarith

theorem interp1d_add (n : ℕ) (x y z : ℕ → ℝ) (q : ℝ) :
    interp1d .extrapolate n x (fun i => y i + z i) q
      = interp1d .extrapolate n x y q + interp1d .extrapolate n x z q :=
  interpLinear_add ..

theorem interp1d_fill_add (c d : ℝ) (n : ℕ) (x y z : ℕ → ℝ) (q : ℝ) :
    interp1d (.value (c + d)) n x (fun i => y i + z i) q
      = interp1d (.value c) n x y q + interp1d (.value d) n x z q := by
  unfold interp1d
  simp only
  split_ifs
  · rfl
  · exact interpLinear_add ..

theorem interp1d_inside {n : ℕ} {x : ℕ → ℝ} {q : ℝ} (h0 : x 0 ≤ q) (h1 : q ≤ x (n - 1))
    (fill : Fill) (y : ℕ → ℝ) : interp1d fill n x y q = interpLinear n x y q := by
  unfold interp1d
  cases fill with
  | extrapolate => rfl
  | value c => simp [not_lt.2 h0, not_lt.2 h1]

theorem interp1d_node {n : ℕ} (hn : 2 ≤ n) {x : ℕ → ℝ} (hx : SortedOn n x) (fill : Fill) (y : ℕ → ℝ)
    {i : ℕ} (hi : i < n) : interp1d fill n x y (x i) = y i := by
  rw [interp1d_inside (hx.le (Nat.zero_le i) hi) (hx.le (by omega) (by omega))]
  exact interpLinear_node hn hx y hi

end Verif.Lib

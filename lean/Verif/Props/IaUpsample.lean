import Verif.Model.IaUpsample
import Verif.Lemmas.Interp
import Verif.Props.PkSigns

/-! Property C102: the satellite alignment profile between and outside the wavenumbers where it is computed. -/

namespace Verif.Ia

open Verif.Lib Verif.Spec Finset

/-! ## The grid -/

theorem kGrid_pos (nk i : ℕ) : 0 < kGrid nk i := Real.rpow_pos_of_pos (by norm_num) _

theorem kGrid_sorted {nk : ℕ} (h : 2 ≤ nk) : SortedOn nk (kGrid nk) := by
  refine sortedOn_of_step fun i _ => ?_
  unfold kGrid
  refine Real.rpow_lt_rpow_of_exponent_lt (by norm_num) ?_
  have : (2 : ℝ) ≤ nk := by exact_mod_cast h
  have : 0 < 6 / ((nk : ℝ) - 1) := div_pos (by norm_num) (by linarith)
  push_cast
  nlinarith

/-! ## Cells -/

theorem cell_lt {n : ℕ} (hn : 2 ≤ n) (x : ℕ → ℝ) (q : ℝ) : cell n x q + 1 < n := by
  unfold cell; omega

theorem cell_node {n i : ℕ} {x : ℕ → ℝ} (hx : SortedOn n x) (hi : i < n) : cell n x (x i) = min i (n - 2) := by
  classical
  have : ((range n).filter fun j => x j ≤ x i) = range (i + 1) := by
    ext j
    simp only [mem_filter, mem_range]
    constructor
    · rintro ⟨hj, h⟩
      by_contra hc
      exact absurd (hx i j (by omega) hj) (not_lt.2 h)
    · intro hj
      exact ⟨by omega, hx.le (by omega) hi⟩
  unfold cell
  rw [this, card_range, Nat.add_sub_cancel]

theorem cell_bracket {n : ℕ} {x : ℕ → ℝ} (hn : 2 ≤ n) (hx : SortedOn n x) {q : ℝ} (h0 : x 0 ≤ q) (h1 : q ≤ x (n - 1)) :
    x (cell n x q) ≤ q ∧ q ≤ x (cell n x q + 1) := by
  classical
  set S := (range n).filter fun i => x i ≤ q with hS
  have hmem : ∀ i, i ∈ S ↔ i < n ∧ x i ≤ q := by intro i; rw [hS]; simp
  have hrange : S = range S.card := by
    refine (Finset.eq_of_subset_of_card_le ?_ (by simp)).symm
    intro i hi
    by_contra hc
    have hsub : S ⊆ range i := fun j hj => by
      rw [mem_range]
      by_contra hji
      have hj' := (hmem j).1 hj
      exact hc ((hmem i).2 ⟨by omega, (hx.le (by omega) hj'.1).trans hj'.2⟩)
    have := Finset.card_le_card hsub
    rw [card_range] at this
    rw [mem_range] at hi
    omega
  have hcard : S.card ≤ n := by
    have := Finset.card_filter_le (range n) fun i => x i ≤ q
    rw [card_range] at this
    exact this
  have hpos : 0 < S.card := by
    refine Finset.card_pos.2 ⟨0, (hmem 0).2 ⟨by omega, h0⟩⟩
  have hc : cell n x q = min (S.card - 1) (n - 2) := rfl
  constructor
  · have : cell n x q ∈ S := by rw [hrange, mem_range, hc]; omega
    exact ((hmem _).1 this).2
  · rcases Nat.lt_or_ge (S.card - 1) (n - 1) with hlt | hge
    · have e : cell n x q + 1 = S.card := by rw [hc]; omega
      have : ¬S.card ∈ S := by rw [hrange]; simp
      rw [hmem] at this
      rw [e]
      by_contra hcon
      exact this ⟨by omega, (not_le.1 hcon).le⟩
    · have e : cell n x q + 1 = n - 1 := by rw [hc]; omega
      rw [e]; exact h1

theorem cellPos_mem {n : ℕ} {x : ℕ → ℝ} (hn : 2 ≤ n) (hx : SortedOn n x) {q : ℝ} (h0 : x 0 ≤ q) (h1 : q ≤ x (n - 1)) :
    0 ≤ cellPos n x q ∧ cellPos n x q ≤ 1 := by
  obtain ⟨a, b⟩ := cell_bracket hn hx h0 h1
  have hd : 0 < x (cell n x q + 1) - x (cell n x q) := sub_pos.2 (hx _ _ (Nat.lt_succ_self _) (cell_lt hn x q))
  unfold cellPos
  exact ⟨div_nonneg (by linarith) hd.le, (div_le_one hd).2 (by linarith)⟩

/-- bilinear interpolation of a function that is affine in both variables is exact, also outside the grid -/
theorem gridInterp_affine {n m : ℕ} {x y : ℕ → ℝ} (hn : 2 ≤ n) (hm : 2 ≤ m) (hx : SortedOn n x) (hy : SortedOn m y)
    {v : ℕ → ℕ → ℝ} {a b c : ℝ} (hv : ∀ i < n, ∀ j < m, v i j = a + b * x i + c * y j) (p q : ℝ) :
    gridInterp n m x y v p q = a + b * p + c * q := by
  have l1 := cell_lt hn x p
  have l2 := cell_lt hm y q
  have hd1 : x (cell n x p + 1) - x (cell n x p) ≠ 0 := (sub_pos.2 (hx _ _ (Nat.lt_succ_self _) l1)).ne'
  have hd2 : y (cell m y q + 1) - y (cell m y q) ≠ 0 := (sub_pos.2 (hy _ _ (Nat.lt_succ_self _) l2)).ne'
  have e1 : cellPos n x p * (x (cell n x p + 1) - x (cell n x p)) = p - x (cell n x p) := by
    unfold cellPos; field_simp
  have e2 : cellPos m y q * (y (cell m y q + 1) - y (cell m y q)) = q - y (cell m y q) := by
    unfold cellPos; field_simp
  unfold gridInterp
  simp only
  rw [hv _ (by omega) _ (by omega), hv _ (by omega) _ l2, hv _ l1 _ (by omega), hv _ l1 _ l2]
  linear_combination b * e1 + c * e2

theorem gridInterp_node {n m : ℕ} {x y : ℕ → ℝ} (hn : 2 ≤ n) (hm : 2 ≤ m) (hx : SortedOn n x) (hy : SortedOn m y)
    (v : ℕ → ℕ → ℝ) {i j : ℕ} (hi : i < n) (hj : j < m) : gridInterp n m x y v (x i) (y j) = v i j := by
  have pos : ∀ {n : ℕ} {x : ℕ → ℝ} {i : ℕ}, 2 ≤ n → SortedOn n x → i < n →
      (i = cell n x (x i) ∧ cellPos n x (x i) = 0) ∨ (i = cell n x (x i) + 1 ∧ cellPos n x (x i) = 1) := by
    intro n x i hn hx hi
    have e := cell_node hx hi
    have hd : x (cell n x (x i) + 1) - x (cell n x (x i)) ≠ 0 :=
      (sub_pos.2 (hx _ _ (Nat.lt_succ_self _) (cell_lt hn x _))).ne'
    by_cases h : i ≤ n - 2
    · left
      have e' : cell n x (x i) = i := by rw [e]; omega
      refine ⟨e'.symm, ?_⟩
      unfold cellPos
      rw [e', sub_self, zero_div]
    · right
      have e' : cell n x (x i) + 1 = i := by rw [e]; omega
      refine ⟨e'.symm, ?_⟩
      unfold cellPos
      rw [e'] at hd ⊢
      exact div_self hd
  unfold gridInterp
  simp only
  rcases pos hn hx hi with ⟨a, a'⟩ | ⟨a, a'⟩ <;> rcases pos hm hy hj with ⟨b, b'⟩ | ⟨b, b'⟩ <;>
    (rw [a', b', ← a, ← b]; ring)

theorem gridInterp_mem {n m : ℕ} {x y : ℕ → ℝ} (hn : 2 ≤ n) (hm : 2 ≤ m) (hx : SortedOn n x) (hy : SortedOn m y)
    {v : ℕ → ℕ → ℝ} {L U p q : ℝ} (hv : ∀ i < n, ∀ j < m, L ≤ v i j ∧ v i j ≤ U) (p0 : x 0 ≤ p) (p1 : p ≤ x (n - 1))
    (q0 : y 0 ≤ q) (q1 : q ≤ y (m - 1)) : L ≤ gridInterp n m x y v p q ∧ gridInterp n m x y v p q ≤ U := by
  have l1 := cell_lt hn x p
  have l2 := cell_lt hm y q
  obtain ⟨s0, s1⟩ := cellPos_mem hn hx p0 p1
  obtain ⟨t0, t1⟩ := cellPos_mem hm hy q0 q1
  have a := hv (cell n x p) (by omega) (cell m y q) (by omega)
  have b := hv (cell n x p) (by omega) _ l2
  have c := hv _ l1 (cell m y q) (by omega)
  have d := hv _ l1 _ l2
  unfold gridInterp
  simp only
  set s := cellPos n x p
  set t := cellPos m y q
  have w1 : 0 ≤ (1 - s) * (1 - t) := mul_nonneg (by linarith) (by linarith)
  have w2 : 0 ≤ (1 - s) * t := mul_nonneg (by linarith) t0
  have w3 : 0 ≤ s * (1 - t) := mul_nonneg s0 (by linarith)
  have w4 : 0 ≤ s * t := mul_nonneg s0 t0
  constructor
  · nlinarith [mul_le_mul_of_nonneg_left a.1 w1, mul_le_mul_of_nonneg_left b.1 w2, mul_le_mul_of_nonneg_left c.1 w3,
      mul_le_mul_of_nonneg_left d.1 w4]
  · nlinarith [mul_le_mul_of_nonneg_left a.2 w1, mul_le_mul_of_nonneg_left b.2 w2, mul_le_mul_of_nonneg_left c.2 w3,
      mul_le_mul_of_nonneg_left d.2 w4]

theorem log10_sorted {n : ℕ} {x : ℕ → ℝ} (hx : SortedOn n x) (hp : ∀ i < n, 0 < x i) :
    SortedOn n fun i => log10 (x i) := fun i j hij hj =>
  Real.logb_lt_logb (by norm_num) (hp i (by omega)) (hx i j hij hj)

theorem pow_log10 {x : ℝ} (hx : 0 < x) : (10 : ℝ) ^ log10 x = x := Real.rpow_logb (by norm_num) (by norm_num) hx

/-! ## The Hankel method -/

section hankel

variable {nk nm : ℕ} {k mass : ℕ → ℝ} {w : ℕ → ℕ → ℝ}

/-- C102: with the Hankel method the profile at its own wavenumbers and masses is unchanged -/
theorem C102_hankel_nodes (hk : 2 ≤ nk) (hm : 2 ≤ nm) (sk : SortedOn nk k) (sm : SortedOn nm mass)
    (pk : ∀ i < nk, 0 < k i) (pm : ∀ j < nm, 0 < mass j) {i j : ℕ} (hi : i < nk) (hj : j < nm) (hw : 0 < w j i) :
    upsampledHankel nk nm k mass w (k i) (mass j) = w j i := by
  unfold upsampledHankel
  rw [gridInterp_node hk hm (log10_sorted sk pk) (log10_sorted sm pm) _ hi hj]
  have := pk i hi
  rw [pow_log10 (by positivity)]
  field_simp

/-- C102: with the Hankel method a power law in wavenumber and mass is continued exactly, inside and outside the grid -/
theorem C102_hankel_power_law (hk : 2 ≤ nk) (hm : 2 ≤ nm) (sk : SortedOn nk k) (sm : SortedOn nm mass)
    (pk : ∀ i < nk, 0 < k i) (pm : ∀ j < nm, 0 < mass j) {A p q : ℝ} (hA : 0 < A)
    (hw : ∀ i < nk, ∀ j < nm, w j i = A * k i ^ p * mass j ^ q) {x M : ℝ} (hx : 0 < x) (hM : 0 < M) :
    upsampledHankel nk nm k mass w x M = A * x ^ p * M ^ q := by
  unfold upsampledHankel
  have key : ∀ {x M : ℝ}, 0 < x → 0 < M →
      log10 (A * x ^ p * M ^ q / x ^ 2) = log10 A + (p - 2) * log10 x + q * log10 M := by
    intro x M hx hM
    have h1 : 0 < x ^ p := Real.rpow_pos_of_pos hx _
    have h2 : 0 < M ^ q := Real.rpow_pos_of_pos hM _
    unfold log10
    rw [Real.logb_div (by positivity) (by positivity), Real.logb_mul (by positivity) h2.ne', Real.logb_mul hA.ne' h1.ne',
      Real.logb_rpow_eq_mul_logb_of_pos hx, Real.logb_rpow_eq_mul_logb_of_pos hM, Real.logb_pow]
    push_cast
    ring
  rw [gridInterp_affine hk hm (log10_sorted sk pk) (log10_sorted sm pm) (a := log10 A) (b := p - 2) (c := q)
    (fun i hi j hj => by rw [hw i hi j hj]; exact key (pk i hi) (pm j hj)), ← key hx hM,
    pow_log10 (by have := Real.rpow_pos_of_pos hx p; have := Real.rpow_pos_of_pos hM q; positivity)]
  field_simp

/-- C102: with the Hankel method the profile is positive everywhere, and inside the grid `w / k^2` stays within the range of
the values at the nodes -/
theorem C102_hankel_range (x M : ℝ) (hx : 0 < x) : 0 < upsampledHankel nk nm k mass w x M ∧
    ∀ L U, 2 ≤ nk → 2 ≤ nm → SortedOn nk k → SortedOn nm mass → (∀ i < nk, 0 < k i) → (∀ j < nm, 0 < mass j) → 0 < L →
      (∀ i < nk, ∀ j < nm, L ≤ w j i / k i ^ 2 ∧ w j i / k i ^ 2 ≤ U) → k 0 ≤ x → x ≤ k (nk - 1) → mass 0 ≤ M →
      M ≤ mass (nm - 1) → L * x ^ 2 ≤ upsampledHankel nk nm k mass w x M ∧
        upsampledHankel nk nm k mass w x M ≤ U * x ^ 2 := by
  refine ⟨mul_pos (Real.rpow_pos_of_pos (by norm_num) _) (by positivity), ?_⟩
  intro L U hk hm sk sm pk pm hL hv x0 x1 M0 M1
  have hU : 0 < U := lt_of_lt_of_le hL ((hv 0 (by omega) 0 (by omega)).1.trans (hv 0 (by omega) 0 (by omega)).2)
  have mono : ∀ {a b : ℝ}, 0 < a → a ≤ b → log10 a ≤ log10 b := fun ha hab =>
    Real.logb_le_logb_of_le (by norm_num) ha hab
  have hM : 0 < M := lt_of_lt_of_le (pm 0 (by omega)) M0
  have h := gridInterp_mem hk hm (log10_sorted sk pk) (log10_sorted sm pm)
    (v := fun i j => log10 (w j i / k i ^ 2)) (L := log10 L) (U := log10 U) (p := log10 x) (q := log10 M)
    (fun i hi j hj => ⟨mono hL (hv i hi j hj).1, mono (lt_of_lt_of_le hL (hv i hi j hj).1) (hv i hi j hj).2⟩)
    (mono (pk 0 (by omega)) x0) (mono hx x1) (mono (pm 0 (by omega)) M0) (mono hM M1)
  unfold upsampledHankel
  constructor
  · refine mul_le_mul_of_nonneg_right ?_ (by positivity)
    calc L = (10 : ℝ) ^ log10 L := (pow_log10 hL).symm
      _ ≤ _ := Real.rpow_le_rpow_of_exponent_le (by norm_num) h.1
  · refine mul_le_mul_of_nonneg_right ?_ (by positivity)
    calc _ ≤ (10 : ℝ) ^ log10 U := Real.rpow_le_rpow_of_exponent_le (by norm_num) h.2
      _ = U := pow_log10 hU

end hankel

example : (2 : ℕ) ≤ 10 ∧ SortedOn 10 (kGrid 10) ∧ (∀ i < 10, 0 < kGrid 10 i) ∧
    SortedOn 2 (fun j => (j : ℝ) + 1) := by
  refine ⟨by norm_num, kGrid_sorted (by norm_num), fun i _ => kGrid_pos _ _, sortedOn_of_step fun i _ => ?_⟩
  push_cast; linarith

/-! ## The fftlog method, the one used by the spectra -/

theorem upsampledFftlog_eq (nk : ℕ) (w : ℕ → ℝ) (k : ℝ) :
    upsampledFftlog nk w k = interpLinear 100 (kGrid 100) w k := by
  simp [upsampledFftlog, nkOf, interp1d]

/-- C102: with fftlog, whatever the number of wavenumbers asked for, too, the profile is unchanged at its own wavenumbers, and not negative between them -/
theorem C102_fftlog_nodes (nk : ℕ) (w : ℕ → ℝ) :
    (∀ i < 100, upsampledFftlog nk w (kGrid 100 i) = w i) ∧
      ((∀ i < 100, 0 ≤ w i) → ∀ k, kGrid 100 0 ≤ k → k ≤ kGrid 100 99 → 0 ≤ upsampledFftlog nk w k) := by
  have hs := kGrid_sorted (nk := 100) (by norm_num)
  refine ⟨fun i hi => by rw [upsampledFftlog_eq]; exact interpLinear_node (by norm_num) hs _ hi, fun h k h0 h1 => ?_⟩
  rw [upsampledFftlog_eq]
  obtain ⟨U, hU⟩ : ∃ U, ∀ i < 100, w i ≤ U :=
    ⟨∑ i ∈ range 100, w i, fun i hi => Finset.single_le_sum (f := w) (fun j hj => h j (mem_range.1 hj)) (mem_range.2 hi)⟩
  exact (interpLinear_mem_Icc (by norm_num) hs h0 h1 fun i hi => ⟨h i hi, hU i hi⟩).1

theorem kGrid_ends : kGrid 100 0 = 1 / 1000 ∧ kGrid 100 99 = 1000 ∧
    (∀ i, kGrid 100 (i + 1) = (10 : ℝ) ^ (6 / 99 : ℝ) * kGrid 100 i) ∧ 1 < (10 : ℝ) ^ (6 / 99 : ℝ) := by
  refine ⟨?_, ?_, fun i => ?_, Real.one_lt_rpow (by norm_num) (by norm_num)⟩
  · unfold kGrid
    rw [Nat.cast_zero, zero_mul, add_zero, show (-3 : ℝ) = ((-3 : ℤ) : ℝ) by norm_num, Real.rpow_intCast]
    norm_num
  · unfold kGrid
    rw [show (-3 + ((99 : ℕ) : ℝ) * (6 / (((100 : ℕ) : ℝ) - 1))) = ((3 : ℕ) : ℝ) by norm_num, Real.rpow_natCast]
    norm_num
  · unfold kGrid
    rw [← Real.rpow_add (by norm_num)]
    congr 1
    push_cast
    ring

theorem segment_below {k : ℝ} (h : k ≤ kGrid 100 0) : segment 100 (kGrid 100) k = 1 := by
  have hs := kGrid_sorted (nk := 100) (by norm_num)
  have : searchsorted 100 (kGrid 100) k = 0 :=
    searchsorted_eq (by norm_num) (by omega) fun i _ hi => h.trans (hs.le (Nat.zero_le i) hi)
  unfold Lib.segment
  rw [this]
  rfl

theorem segment_above {k : ℝ} (h : kGrid 100 99 < k) : segment 100 (kGrid 100) k = 99 := by
  have hs := kGrid_sorted (nk := 100) (by norm_num)
  have : searchsorted 100 (kGrid 100) k = 100 :=
    searchsorted_eq le_rfl (fun i hi => lt_of_le_of_lt (hs.le (by omega) (by norm_num)) h) fun i h1 h2 => by omega
  unfold Lib.segment
  rw [this]
  rfl

/-- C102: but below the first wavenumber, `1e-3`, the straight line through the first two values is used: where the profile
grows like `k²`, as it does on large scales, the result is negative below `5e-4`, in the default range of the spectra -/
theorem C102_fftlog_negative_small (nk : ℕ) (w : ℕ → ℝ) (A : ℝ) (hA : 0 < A) (h0 : w 0 = A * kGrid 100 0 ^ 2)
    (h1 : w 1 = A * kGrid 100 1 ^ 2) (k : ℝ) (hk : k ≤ 5 / 10000) : upsampledFftlog nk w k < 0 := by
  obtain ⟨e0, -, er, hr⟩ := kGrid_ends
  set r := (10 : ℝ) ^ (6 / 99 : ℝ)
  have e1 : kGrid 100 1 = r * (1 / 1000) := by rw [er 0, e0]
  rw [upsampledFftlog_eq]
  unfold interpLinear
  rw [segment_below (by rw [e0]; linarith)]
  simp only [Nat.sub_self]
  rw [h0, h1, e0, e1]
  have hd : r - 1 ≠ 0 := by linarith
  have : (A * (r * (1 / 1000)) ^ 2 - A * (1 / 1000) ^ 2) / (r * (1 / 1000) - 1 / 1000) * (k - 1 / 1000)
      + A * (1 / 1000) ^ 2 = A / 1000 * ((r + 1) * k - r / 1000) := by
    rw [show r * (1 / 1000) - 1 / 1000 = (r - 1) / 1000 by ring]
    field_simp
    ring
  rw [this]
  refine mul_neg_of_pos_of_neg (by positivity) ?_
  nlinarith

/-- C102: and above the last one, `1e3`, where the profile falls at least like `1/k` the result is negative beyond `2e3`, and
decreases without bound -/
theorem C102_fftlog_negative_large (nk : ℕ) (w : ℕ → ℝ) (h0 : 0 < w 99) (h1 : kGrid 100 99 * w 99 ≤ kGrid 100 98 * w 98) :
    (∀ k, 2000 ≤ k → upsampledFftlog nk w k < 0) ∧ ∀ c, ∃ K, ∀ k ≥ K, upsampledFftlog nk w k < c := by
  obtain ⟨-, e99, er, hr⟩ := kGrid_ends
  set r := (10 : ℝ) ^ (6 / 99 : ℝ)
  have hr0 : 0 < r := by linarith
  have e98 : kGrid 100 98 = 1000 / r := by
    have := er 98
    rw [e99] at this
    rw [this]
    field_simp
  have hw : r * w 99 ≤ w 98 := by
    rw [e99, e98, div_mul_eq_mul_div, le_div_iff₀ hr0] at h1
    linarith
  have form : ∀ k, 1000 < k → upsampledFftlog nk w k = w 99 - (w 98 - w 99) * r / (1000 * (r - 1)) * (k - 1000) := by
    intro k hk
    rw [upsampledFftlog_eq]
    unfold interpLinear
    rw [segment_above (by rw [e99]; exact hk)]
    simp only [show (99 - 1 : ℕ) = 98 from rfl]
    rw [e99, e98]
    have : r - 1 ≠ 0 := by linarith
    have : (1000 : ℝ) - 1000 / r ≠ 0 := by
      rw [show (1000 : ℝ) - 1000 / r = 1000 * (r - 1) / r by field_simp]
      positivity
    field_simp
    ring
  have hs : w 99 * r / 1000 ≤ (w 98 - w 99) * r / (1000 * (r - 1)) := by
    have : 0 < r - 1 := by linarith
    rw [div_le_div_iff₀ (by norm_num) (by positivity)]
    have : w 99 * (r - 1) ≤ w 98 - w 99 := by linarith
    nlinarith [mul_le_mul_of_nonneg_right this hr0.le]
  have neg : ∀ k, 1000 < k → upsampledFftlog nk w k ≤ w 99 - w 99 * r / 1000 * (k - 1000) := by
    intro k hk
    rw [form k hk]
    have := mul_le_mul_of_nonneg_right hs (by linarith : (0 : ℝ) ≤ k - 1000)
    linarith
  have hs0 : 0 < w 99 * r / 1000 := by positivity
  constructor
  · intro k hk
    refine lt_of_le_of_lt (neg k (by linarith)) ?_
    nlinarith
  · intro c
    refine ⟨max 1001 (1000 + (w 99 - c + 1) / (w 99 * r / 1000)), fun k hk => ?_⟩
    have k1 : 1001 ≤ k := (le_max_left _ _).trans hk
    have k2 : 1000 + (w 99 - c + 1) / (w 99 * r / 1000) ≤ k := (le_max_right _ _).trans hk
    refine lt_of_le_of_lt (neg k (by linarith)) ?_
    have : (w 99 - c + 1) / (w 99 * r / 1000) ≤ k - 1000 := by linarith
    rw [div_le_iff₀ hs0] at this
    linarith

/-- the hypotheses of both: a profile growing like `k²` below the scale radius and falling like `1/k²` beyond -/
example : ∃ w : ℕ → ℝ, w 0 = 1 * kGrid 100 0 ^ 2 ∧ w 1 = 1 * kGrid 100 1 ^ 2 ∧ 0 < w 99 ∧
    kGrid 100 99 * w 99 ≤ kGrid 100 98 * w 98 := by
  refine ⟨fun i => if i ≤ 50 then 1 * kGrid 100 i ^ 2 else (kGrid 100 i ^ 2)⁻¹, rfl, rfl, ?_, ?_⟩
  · have := kGrid_pos 100 99
    simp only [show ¬(99 ≤ 50) by omega, if_false]
    positivity
  · have h1 := kGrid_pos 100 99
    have h2 := kGrid_pos 100 98
    have h3 := kGrid_sorted (nk := 100) (by norm_num) 98 99 (by norm_num) (by norm_num)
    simp only [show ¬(99 ≤ 50) by omega, show ¬(98 ≤ 50) by omega, if_false]
    rw [show kGrid 100 99 * (kGrid 100 99 ^ 2)⁻¹ = 1 / kGrid 100 99 by field_simp,
      show kGrid 100 98 * (kGrid 100 98 ^ 2)⁻¹ = 1 / kGrid 100 98 by field_simp]
    exact one_div_le_one_div_of_le h2 h3.le

end Verif.Ia

namespace Verif.Pk

open Verif.Lib Verif.Spec Spectra

/-- C102: the 1-halo matter-intrinsic spectrum changes sign with the satellite profile, so at wavenumbers where the profile is
negative it has the opposite of the sign it has where the profile is computed (C16) -/
theorem C102_spectrum_sign (s : Spectra) (H : NonnegInputs { s with wkmSat := fun z k m => -s.wkmSat z k m }) :
    ∀ b z k, 0 ≤ s.powerSpectrumMiRaw.pk1h b z k ∧ s.powerSpectrumGiRaw.pk1h b z k ≤ 0 := by
  intro b z k
  set s' : Spectra := { s with wkmSat := fun z k m => -s.wkmSat z k m } with hs'
  have hT1 := oneHaloTruncationIa_nonneg s' k
  have o1 := mul_nonneg (H.oneH z _ _ (H.profileG b z k) (H.satAlign b z k)) hT1
  have o3 := mul_nonneg (H.oneH z _ _ (H.cenGal b z k) (H.satAlign b z k)) hT1
  have neg : ∀ u : ℕ → ℝ, s'.compute1hTerm u (s'.satelliteAlignmentProfile b z k) z =
      -s.compute1hTerm u (s.satelliteAlignmentProfile b z k) z := by
    intro u
    unfold compute1hTerm
    rw [neg_eq_neg_one_mul, ← simpson_smul]
    congr 1
    funext m
    change u m * (s.fS b z * s.hodSat b z m * (-s.wkmSat z k m) / s.numberDensitySat b z *
      additionalTerm s.betaSat s.mpivotSat (s.massAvg b z)) * s.dndlnm z m / s.mass m = _
    unfold satelliteAlignmentProfile
    ring
  rw [neg] at o1 o3
  have e1 : s.powerSpectrumMiRaw.pk1h b z k =
      -1 * s.compute1hTerm (s.matterProfile1hG b z k) (s.satelliteAlignmentProfile b z k) z * s.oneHaloTruncationIa k := by
    unfold powerSpectrumMiRaw
    cases s.nonlinearMode <;> rfl
  have e3 : s.powerSpectrumGiRaw.pk1h b z k =
      s.compute1hTerm (s.centralGalaxyProfile b z k) (s.satelliteAlignmentProfile b z k) z * s.oneHaloTruncationIa k := by
    unfold powerSpectrumGiRaw
    cases s.nonlinearMode <;> rfl
  rw [e1, e3]
  have o1' : 0 ≤ -s.compute1hTerm (s.matterProfile1hG b z k) (s.satelliteAlignmentProfile b z k) z *
    s.oneHaloTruncationIa k := o1
  have o3' : 0 ≤ -s.compute1hTerm (s.centralGalaxyProfile b z k) (s.satelliteAlignmentProfile b z k) z *
    s.oneHaloTruncationIa k := o3
  constructor <;> linarith

/-- such spectra: the demonstration spectra with a negative profile -/
example : ∃ s : Spectra, (∀ z k m, s.wkmSat z k m < 0) ∧
    NonnegInputs { s with wkmSat := fun z k m => -s.wkmSat z k m } := by
  refine ⟨{ demo with wkmSat := fun z k m => -demo.wkmSat z k m }, fun z k m => ?_, ?_⟩
  · simp [demo]
  · have : ({ demo with wkmSat := fun z k m => - -demo.wkmSat z k m } : Spectra) = demo := by
      simp only [neg_neg]
    change NonnegInputs ({ demo with wkmSat := fun z k m => - -demo.wkmSat z k m } : Spectra)
    rw [this]
    exact demo_nonnegInputs

end Verif.Pk

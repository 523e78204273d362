import Verif.Model.TwoPointOps
import Verif.Props.ScaleCuts
import Mathlib.LinearAlgebra.Matrix.Determinant.Basic
import Mathlib.Algebra.BigOperators.Fin
import Mathlib.Algebra.BigOperators.Field
import Mathlib.Algebra.Order.BigOperators.Ring.Finset
import Mathlib.Data.List.Sort
import Mathlib.Data.Finset.Sort
import Mathlib.Tactic.FieldSimp
import Mathlib.Tactic.Ring
import Mathlib.Tactic.Positivity
import Mathlib.Tactic.NormNum
import Mathlib.Tactic.Linarith

/-!
# C129 — two-point files in memory
-/

namespace Verif.TwoPointOps

open Verif.Lib Verif.ScaleCuts Finset

/-! ## sample covariances -/

/-- the deviation from the mean -/
noncomputable def dev (n : ℕ) (X : ℕ → ℕ → ℝ) (s j : ℕ) : ℝ := X s j - mean n X j

/-- the factor of a mode -/
noncomputable def factor (n : ℕ) (mode : String) : ℝ := if mode = "subsample" then (1 : ℝ) / n else if mode = "jk" then n - 1 else 1

theorem cov_eq (n : ℕ) (X : ℕ → ℕ → ℝ) (mode : String) (i j : ℕ) :
    sampleCov n X mode i j = factor n mode / n * ∑ s ∈ range n, dev n X s i * dev n X s j := by
  simp only [sampleCov, factor, dev]
  split_ifs <;> ring

theorem factor_nonneg {n : ℕ} (hn : 1 ≤ n) (mode : String) : 0 ≤ factor n mode := by
  have : (1 : ℝ) ≤ n := by exact_mod_cast hn
  unfold factor
  split_ifs
  · positivity
  · linarith
  · norm_num

theorem factor_pos {n : ℕ} (hn : 2 ≤ n) (mode : String) : 0 < factor n mode := by
  have : (2 : ℝ) ≤ n := by exact_mod_cast hn
  unfold factor
  split_ifs
  · positivity
  · linarith
  · norm_num

/-- In every mode the sample covariance is symmetric and positive semidefinite, whatever the realisations. -/
theorem C129_sample_covariance {n : ℕ} (hn : 1 ≤ n) (X : ℕ → ℕ → ℝ) (mode : String) (p : ℕ) (w : ℕ → ℝ) :
    (∀ i j, sampleCov n X mode i j = sampleCov n X mode j i) ∧
    0 ≤ ∑ i ∈ range p, ∑ j ∈ range p, w i * sampleCov n X mode i j * w j := by
  constructor
  · intro i j
    rw [cov_eq, cov_eq]
    congr 1
    exact sum_congr rfl fun s _ => mul_comm _ _
  · have : ∑ i ∈ range p, ∑ j ∈ range p, w i * sampleCov n X mode i j * w j =
        factor n mode / n * ∑ s ∈ range n, (∑ i ∈ range p, w i * dev n X s i) ^ 2 := by
      have e : ∀ i j, w i * sampleCov n X mode i j * w j =
          ∑ s ∈ range n, factor n mode / n * ((w i * dev n X s i) * (w j * dev n X s j)) := fun i j => by
        rw [cov_eq, mul_sum, mul_sum, sum_mul]
        exact sum_congr rfl fun s _ => by ring
      simp only [e]
      rw [mul_sum]
      have e2 : ∀ s, factor n mode / n * (∑ i ∈ range p, w i * dev n X s i) ^ 2 =
          ∑ i ∈ range p, ∑ j ∈ range p, factor n mode / n * ((w i * dev n X s i) * (w j * dev n X s j)) := fun s => by
        rw [sq, sum_mul_sum, mul_sum]
        exact sum_congr rfl fun i _ => by rw [mul_sum]
      simp only [e2]
      rw [sum_comm (s := range n)]
      exact sum_congr rfl fun i _ => sum_comm
    rw [this]
    exact mul_nonneg (div_nonneg (factor_nonneg hn mode) (Nat.cast_nonneg n)) (sum_nonneg fun s _ => sq_nonneg _)

/-- The correlations are the same in every mode, lie between −1 and 1, and are 1 on the diagonal, when no variance is zero. -/
theorem C129_sample_correlation {n : ℕ} (hn : 2 ≤ n) (X : ℕ → ℕ → ℝ) (mode : String) (i j : ℕ)
    (hi : ∃ s < n, X s i ≠ mean n X i) (hj : ∃ s < n, X s j ≠ mean n X j) :
    sampleCorr n X mode i i = 1 ∧ |sampleCorr n X mode i j| ≤ 1 ∧ sampleCorr n X mode i j = sampleCorr n X "full" i j := by
  have hn0 : (0 : ℝ) < n := by exact_mod_cast (by omega : 0 < n)
  have hpos : ∀ k, (∃ s < n, X s k ≠ mean n X k) → 0 < ∑ s ∈ range n, dev n X s k * dev n X s k := fun k ⟨s, hs, hne⟩ =>
    sum_pos' (fun s _ => mul_self_nonneg _) ⟨s, mem_range.2 hs, mul_self_pos.2 (sub_ne_zero.2 hne)⟩
  have hc : ∀ m, sampleCorr n X m i j =
      (∑ s ∈ range n, dev n X s i * dev n X s j) /
        √((∑ s ∈ range n, dev n X s i * dev n X s i) * ∑ s ∈ range n, dev n X s j * dev n X s j) := fun m => by
    have hf : 0 < factor n m / n := div_pos (factor_pos hn m) hn0
    rw [sampleCorr, cov_eq, cov_eq, cov_eq,
      show ∀ f a b : ℝ, f * a * (f * b) = f ^ 2 * (a * b) from fun f a b => by ring, Real.sqrt_mul (sq_nonneg _),
      Real.sqrt_sq hf.le, mul_div_mul_left _ _ hf.ne']
  refine ⟨?_, ?_, by rw [hc, hc]⟩
  · have hf : 0 < factor n mode / n := div_pos (factor_pos hn mode) hn0
    rw [sampleCorr, cov_eq, Real.sqrt_mul_self (mul_pos hf (hpos i hi)).le]
    exact div_self (mul_pos hf (hpos i hi)).ne'
  · rw [hc, abs_div, abs_of_nonneg (Real.sqrt_nonneg _), div_le_one (Real.sqrt_pos.2 (mul_pos (hpos i hi) (hpos j hj)))]
    refine Real.abs_le_sqrt ?_
    have := sum_mul_sq_le_sq_mul_sq (range n) (fun s => dev n X s i) fun s => dev n X s j
    simpa [sq] using this

theorem sum_dev {n : ℕ} (hn : 1 ≤ n) (X : ℕ → ℕ → ℝ) (j : ℕ) : ∑ s ∈ range n, dev n X s j = 0 := by
  have hn0 : (n : ℝ) ≠ 0 := by exact_mod_cast (by omega : n ≠ 0)
  simp only [dev, sum_sub_distrib, sum_const, card_range, nsmul_eq_mul, mean]
  field_simp
  ring

/-- the means over all numbers but one -/
noncomputable def leaveOut (n : ℕ) (Y : ℕ → ℕ → ℝ) (s j : ℕ) : ℝ := ((∑ r ∈ range n, Y r j) - Y s j) / (n - 1)

/-- The realisations of a jackknife are the means over all patches but one.  With the mode `"jk"` the result is the unbiased estimate of the
covariance of the mean over the patches; with `"jackknife"`, the name given in the documentation of `from_spec_lists`, it is smaller
by the factor `n − 1`, without a message. -/
theorem C129_jackknife {n : ℕ} (hn : 2 ≤ n) (Y : ℕ → ℕ → ℝ) (i j : ℕ) :
    let unbiased := (∑ s ∈ range n, (Y s i - mean n Y i) * (Y s j - mean n Y j)) / (n - 1)
    sampleCov n (leaveOut n Y) "jk" i j = unbiased / n ∧
    (n - 1) * sampleCov n (leaveOut n Y) "jackknife" i j = unbiased / n := by
  have hn0 : (n : ℝ) ≠ 0 := by exact_mod_cast (by omega : n ≠ 0)
  have hn1 : (n : ℝ) - 1 ≠ 0 := by
    have : (2 : ℝ) ≤ n := by exact_mod_cast hn
    intro h; linarith
  have hm : ∀ k, mean n (leaveOut n Y) k = mean n Y k := fun k => by
    simp only [mean, leaveOut, ← sum_div, sum_sub_distrib, sum_const, card_range, nsmul_eq_mul]
    field_simp
  have hd : ∀ s k, dev n (leaveOut n Y) s k = -(dev n Y s k) / (n - 1) := fun s k => by
    rw [dev, hm, dev]
    simp only [leaveOut, mean]
    field_simp
    ring
  have hs : ∑ s ∈ range n, dev n (leaveOut n Y) s i * dev n (leaveOut n Y) s j =
      (∑ s ∈ range n, (Y s i - mean n Y i) * (Y s j - mean n Y j)) / (n - 1) ^ 2 := by
    rw [sum_div]
    refine sum_congr rfl fun s _ => ?_
    rw [hd, hd]
    simp only [dev]
    field_simp
  simp only
  rw [cov_eq, cov_eq, hs]
  have h1 : factor n "jk" = n - 1 := by simp [factor]
  have h2 : factor n "jackknife" = 1 := by simp [factor]
  rw [h1, h2]
  constructor <;> field_simp

/-- With the mode `"subsample"` and the realisations equal to the values in `n` patches, the result is `(n − 1)/n` times the unbiased estimate of
the covariance of their mean. -/
theorem C129_subsample {n : ℕ} (hn : 2 ≤ n) (Y : ℕ → ℕ → ℝ) (i j : ℕ) :
    sampleCov n Y "subsample" i j =
      (n - 1) / n * ((∑ s ∈ range n, (Y s i - mean n Y i) * (Y s j - mean n Y j)) / (n - 1) / n) := by
  have hn0 : (n : ℝ) ≠ 0 := by exact_mod_cast (by omega : n ≠ 0)
  have hn1 : (n : ℝ) - 1 ≠ 0 := by
    have : (2 : ℝ) ≤ n := by exact_mod_cast hn
    intro h; linarith
  have h1 : factor n "subsample" = 1 / n := by simp [factor]
  rw [cov_eq, h1]
  simp only [dev]
  field_simp

/-- `from_spec_lists` writes the mean into the first realisation.  A second call on the same realisations finds another mean and a covariance
that is smaller in a definite way, unless the first realisation was equal to the mean. -/
theorem C129_first_realisation {n : ℕ} (hn : 1 ≤ n) (X : ℕ → ℕ → ℝ) (i j : ℕ) :
    (∀ k, afterSpecLists n X 0 k = mean n X k) ∧
    mean n (afterSpecLists n X) i = mean n X i + (mean n X i - X 0 i) / n ∧
    sampleCov n (afterSpecLists n X) "full" i j =
      sampleCov n X "full" i j - (X 0 i - mean n X i) * (X 0 j - mean n X j) * (1 + 1 / n) / n := by
  have hn0 : (n : ℝ) ≠ 0 := by exact_mod_cast (by omega : n ≠ 0)
  obtain ⟨m, rfl⟩ : ∃ m, n = m + 1 := ⟨n - 1, by omega⟩
  have hmean : ∀ k, mean (m + 1) (afterSpecLists (m + 1) X) k =
      mean (m + 1) X k + (mean (m + 1) X k - X 0 k) / ((m + 1 : ℕ) : ℝ) := fun k => by
    have h : ∑ s ∈ range (m + 1), afterSpecLists (m + 1) X s k = (∑ s ∈ range (m + 1), X s k) - X 0 k + mean (m + 1) X k := by
      rw [sum_range_succ', sum_range_succ']
      simp [afterSpecLists]
    conv_lhs => rw [mean, h]
    conv_rhs => rw [show mean (m + 1) X k + (mean (m + 1) X k - X 0 k) / ((m + 1 : ℕ) : ℝ) =
      (∑ s ∈ range (m + 1), X s k) / ((m + 1 : ℕ) : ℝ) + (mean (m + 1) X k - X 0 k) / ((m + 1 : ℕ) : ℝ) from rfl]
    ring
  refine ⟨fun k => by simp [afterSpecLists], hmean i, ?_⟩
  have hf : factor (m + 1) "full" = 1 := by simp [factor]
  rw [cov_eq, cov_eq, hf]
  have hi := sum_dev hn X i
  have hj := sum_dev hn X j
  rw [sum_range_succ'] at hi hj
  have hd0 : ∀ k, dev (m + 1) (afterSpecLists (m + 1) X) 0 k = dev (m + 1) X 0 k / ((m + 1 : ℕ) : ℝ) := fun k => by
    rw [dev, hmean]
    simp only [afterSpecLists, if_true, dev]
    ring
  have hds : ∀ s k, dev (m + 1) (afterSpecLists (m + 1) X) (s + 1) k =
      dev (m + 1) X (s + 1) k + dev (m + 1) X 0 k / ((m + 1 : ℕ) : ℝ) := fun s k => by
    rw [dev, hmean]
    simp only [afterSpecLists, dev, Nat.add_eq_zero_iff, one_ne_zero, and_false, if_false]
    ring
  rw [sum_range_succ', sum_range_succ' (fun s => dev (m + 1) X s i * dev (m + 1) X s j)]
  simp only [hd0, hds]
  set N : ℝ := ((m + 1 : ℕ) : ℝ) with hN
  set A := dev (m + 1) X 0 i with hA
  set B := dev (m + 1) X 0 j with hB
  have hexp : ∑ s ∈ range m, (dev (m + 1) X (s + 1) i + A / N) * (dev (m + 1) X (s + 1) j + B / N) =
      (∑ s ∈ range m, dev (m + 1) X (s + 1) i * dev (m + 1) X (s + 1) j) + B / N * (∑ s ∈ range m, dev (m + 1) X (s + 1) i) +
        A / N * (∑ s ∈ range m, dev (m + 1) X (s + 1) j) + m * (A / N * (B / N)) := by
    rw [mul_sum, mul_sum, ← sum_add_distrib, ← sum_add_distrib, show (m : ℝ) * (A / N * (B / N)) = ∑ s ∈ range m, A / N * (B / N) by
      simp, ← sum_add_distrib]
    exact sum_congr rfl fun s _ => by ring
  have hi' : ∑ s ∈ range m, dev (m + 1) X (s + 1) i = -A := by linarith
  have hj' : ∑ s ∈ range m, dev (m + 1) X (s + 1) j = -B := by linarith
  rw [hexp, hi', hj', show X 0 i - mean (m + 1) X i = A from rfl, show X 0 j - mean (m + 1) X j = B from rfl,
    show (m : ℝ) = N - 1 by rw [hN]; push_cast; ring]
  field_simp
  ring

/-- Two realisations of two numbers: the variance of the first falls from 1 to 1/4. -/
example : let X : ℕ → ℕ → ℝ := fun s j => if s = 0 then (if j = 0 then 0 else 1) else (if j = 0 then 2 else 4)
    (∃ s < 2, X s 0 ≠ mean 2 X 0) ∧ sampleCov 2 X "full" 0 0 = 1 ∧ sampleCov 2 (afterSpecLists 2 X) "full" 0 0 = 1 / 4 := by
  refine ⟨⟨0, by norm_num, ?_⟩, ?_, ?_⟩ <;> simp [sampleCov, mean, afterSpecLists, sum_range_succ] <;> norm_num

/-! ## the canonical order -/

theorem before_iff (a b : Pt) : before a b = true ↔
    a.angbin < b.angbin ∨ a.angbin = b.angbin ∧ (a.bin2 < b.bin2 ∨ a.bin2 = b.bin2 ∧ a.bin1 ≤ b.bin1) := decide_eq_true_iff

theorem order_perm (l : List Pt) : (order l).Perm (List.range l.length) := List.mergeSort_perm _ _

theorem order_lt {l : List Pt} {i : ℕ} (h : i ∈ order l) : i < l.length := by simpa using (order_perm l).mem_iff.1 h

theorem order_length (l : List Pt) : (order l).length = l.length := by simpa using (order_perm l).length_eq

theorem order_sorted (l : List Pt) : (order l).Pairwise fun i j => before (l.getD i noPt) (l.getD j noPt) = true := by
  refine List.pairwise_mergeSort (fun a b c hab hbc => ?_) (fun a b => ?_) _
  · rw [before_iff] at *
    omega
  · rw [Bool.or_eq_true, before_iff, before_iff]
    omega

/-- After `canonical_order` a spectrum has the same entries, ordered by the angular bin, among equal ones by the second bin and among
equal ones of those by the first bin. -/
theorem C129_order (s : Sp) :
    (reorderSp s).name = s.name ∧ (reorderSp s).pts.Perm s.pts ∧
    (reorderSp s).pts.Pairwise fun a b =>
      a.angbin < b.angbin ∨ a.angbin = b.angbin ∧ (a.bin2 < b.bin2 ∨ a.bin2 = b.bin2 ∧ a.bin1 ≤ b.bin1) := by
  refine ⟨rfl, ?_, ?_⟩
  · have := (order_perm s.pts).map (s.pts.getD · noPt)
    rwa [map_getD_range] at this
  · rw [reorderSp, List.pairwise_map]
    exact (order_sorted s.pts).imp fun h => (before_iff _ _).1 h

/-- The comment says "order by b1, then b2, then angle".  That is not so as soon as an entry of a larger first bin has a smaller
angular bin than one of a smaller first bin. -/
theorem C129_order_not_by_bins (s : Sp) {p q : Pt} (hp : p ∈ s.pts) (hq : q ∈ s.pts) (hb : p.bin1 < q.bin1) (ha : q.angbin < p.angbin) :
    ¬ (reorderSp s).pts.Pairwise fun a b => a.bin1 ≤ b.bin1 := by
  obtain ⟨-, hperm, hs⟩ := C129_order s
  intro h
  obtain ⟨i, hi, rfl⟩ := List.getElem_of_mem (hperm.mem_iff.2 hp)
  obtain ⟨j, hj, rfl⟩ := List.getElem_of_mem (hperm.mem_iff.2 hq)
  rcases Nat.lt_trichotomy i j with hij | hij | hij
  · have := List.pairwise_iff_getElem.1 hs i j hi hj hij
    omega
  · subst hij
    omega
  · have := List.pairwise_iff_getElem.1 h j i hj hi hij
    omega

/-- the entries of the spectra in the order of the data vector -/
def flat (l : List Sp) : List (String × Pt) := l.flatMap fun s => s.pts.map fun p => (s.name, p)

theorem flat_length (l : List Sp) : (flat l).length = (l.map fun s => s.pts.length).sum := by
  simp [flat, List.length_flatMap]

theorem positions_length (n : ℕ) (l : List Sp) : (positions n l).length = (flat l).length := by
  induction l generalizing n with
  | nil => rfl
  | cons s l ih => simp [positions, ih, flat, order_length]

theorem positions_perm (n : ℕ) (l : List Sp) : (positions n l).Perm ((List.range (flat l).length).map (· + n)) := by
  induction l generalizing n with
  | nil => simp [positions, flat]
  | cons s l ih =>
    have e : (flat (s :: l)).length = s.pts.length + (flat l).length := by simp [flat]
    rw [positions, e, List.range_add, List.map_append]
    refine ((order_perm s.pts).map _).append ?_
    refine (ih _).trans (List.Perm.of_eq ?_)
    rw [List.map_map]
    exact List.map_congr_left fun a _ => by simp only [Function.comp]; omega

theorem flat_reorder (pre : List (String × Pt)) (l : List Sp) (d : String × Pt) :
    flat (l.map reorderSp) = (positions pre.length l).map ((pre ++ flat l).getD · d) := by
  induction l generalizing pre with
  | nil => rfl
  | cons s l ih =>
    have e : flat (s :: l) = (s.pts.map fun p => (s.name, p)) ++ flat l := rfl
    have e' : flat ((s :: l).map reorderSp) = ((reorderSp s).pts.map fun p => (s.name, p)) ++ flat (l.map reorderSp) := rfl
    rw [e', positions, List.map_append, e]
    congr 1
    · rw [reorderSp, List.map_map, List.map_map]
      refine List.map_congr_left fun i hi => ?_
      have hlt := order_lt hi
      simp only [Function.comp]
      rw [List.getD_append_right _ _ _ _ (by omega), Nat.add_sub_cancel, List.getD_append _ _ _ _ (by simpa using hlt),
        List.getD_eq_getElem _ _ hlt, List.getD_eq_getElem _ _ (by simpa using hlt), List.getElem_map]
    · have := ih (pre ++ s.pts.map fun p => (s.name, p))
      rw [List.length_append, List.length_map] at this
      rw [this, List.append_assoc]

theorem reorder_some {t : File} {C : Mat} (hC : t.cov = some C) (hs : t.specs ≠ [])
    (hrows : ∀ r ∈ positions 0 t.specs ++ List.replicate (onePts t.nobs) 1, r < C.n) :
    reorder t = .ok ⟨t.specs.map reorderSp, t.nobs, some (C.sub (positions 0 t.specs ++ List.replicate (onePts t.nobs) 1)), t.index⟩ := by
  rw [reorder, hC]
  simp only [hs, if_false]
  exact if_pos hrows

/-- Without one-point functions `reorder_canonical` never fails: entries and covariance are rearranged by the same permutation. -/
theorem C129_reorder {t : File} (hn : t.nobs = []) (hf : ∀ C, t.cov = some C → C.n = (flat t.specs).length) :
    ∃ t' : File, reorder t = .ok t' ∧ t'.specs = t.specs.map reorderSp ∧ t'.nobs = [] ∧
      ∃ k : List ℕ, k.Perm (List.range (flat t.specs).length) ∧
        (∀ d, flat t'.specs = k.map ((flat t.specs).getD · d)) ∧
        (t.cov = none → t'.cov = none) ∧
        ∀ C, t.cov = some C → ∃ C', t'.cov = some C' ∧ C'.n = C.n ∧
          ∀ i (hi : i < k.length) j (hj : j < k.length), C'.a i j = C.a k[i] k[j] := by
  have hperm : (positions 0 t.specs).Perm (List.range (flat t.specs).length) := by simpa using positions_perm 0 t.specs
  have hflat : ∀ d, flat (t.specs.map reorderSp) = (positions 0 t.specs).map ((flat t.specs).getD · d) := fun d => by
    simpa using flat_reorder [] t.specs d
  cases hC : t.cov with
  | none =>
    exact ⟨{ t with specs := t.specs.map reorderSp }, by simp [reorder, hC], rfl, hn, positions 0 t.specs, hperm, hflat, fun _ => hC,
      fun C h => by cases h⟩
  | some C =>
    have hCn := hf C hC
    by_cases hs : t.specs = []
    · refine ⟨t, by simp [reorder, hC, hs, hn], by simp [hs], hn, [], by simp [hs, flat], fun d => by simp [hs, flat],
        (fun h => by cases h), fun C' h => ?_⟩
      cases h
      exact ⟨C, hC, rfl, fun i hi => by simp at hi⟩
    · have hrows : ∀ r ∈ positions 0 t.specs ++ List.replicate (onePts t.nobs) 1, r < C.n := by
        rw [hn]
        intro r hr
        simp only [onePts, List.map_nil, List.sum_nil, List.replicate_zero, List.append_nil] at hr
        rw [hCn]
        simpa using hperm.mem_iff.1 hr
      refine ⟨_, reorder_some hC hs hrows, rfl, hn, positions 0 t.specs, hperm, hflat,
        fun h => (by cases h), fun C' h => ?_⟩
      cases h
      refine ⟨_, rfl, ?_, fun i hi j hj => ?_⟩
      · simp [Mat.sub, hn, onePts, positions_length, hCn]
      · simp only [Mat.sub, hn, onePts, List.map_nil, List.sum_nil, List.replicate_zero, List.append_nil]
        rw [List.getD_eq_getElem _ _ hi, List.getD_eq_getElem _ _ hj]

/-- With one-point functions, the rows and columns of their entries are replaced by the second row and column of the whole
covariance, so that the covariance has two equal rows and no inverse, if there are at least two entries of spectra. -/
theorem C129_reorder_one_point {t t' : File} {C : Mat} (hC : t.cov = some C) (h : reorder t = .ok t')
    (h2 : 2 ≤ (flat t.specs).length) (h1 : 1 ≤ onePts t.nobs) :
    t'.nobs = t.nobs ∧ ∃ C', t'.cov = some C' ∧ C'.n = (flat t.specs).length + onePts t.nobs ∧
      (∀ a < onePts t.nobs, ∀ b < onePts t.nobs, C'.a ((flat t.specs).length + a) ((flat t.specs).length + b) = C.a 1 1) ∧
      (Matrix.of fun i j : Fin C'.n => C'.a i j).det = 0 := by
  have hs : t.specs ≠ [] := fun h => by rw [h] at h2; simp [flat] at h2
  unfold reorder at h
  simp only [hC, hs, if_false] at h
  split_ifs at h with hr
  cases h
  have hl := positions_length 0 t.specs
  have hperm : (positions 0 t.specs).Perm (List.range (flat t.specs).length) := by simpa using positions_perm 0 t.specs
  have hone : ∀ a < onePts t.nobs, (positions 0 t.specs ++ List.replicate (onePts t.nobs) 1).getD ((flat t.specs).length + a) 0 = 1 := by
    intro a ha
    rw [List.getD_append_right _ _ _ _ (by omega), List.getD_eq_getElem _ _ (by simp; omega), List.getElem_replicate]
  have hm : (1 : ℕ) ∈ positions 0 t.specs := hperm.mem_iff.2 (by simp; omega)
  obtain ⟨i, hi, hi1⟩ := List.getElem_of_mem hm
  refine ⟨rfl, _, rfl, by simp [Mat.sub, hl], fun a ha b hb => ?_, ?_⟩
  · simp only [Mat.sub]
    rw [hone a ha, hone b hb]
  · refine Matrix.det_zero_of_row_eq (i := ⟨i, by simp [Mat.sub]; omega⟩) (j := ⟨(flat t.specs).length, by simp [Mat.sub]; omega⟩) ?_ ?_
    · intro e
      have := congrArg Fin.val e
      simp only at this
      omega
    · funext j
      show C.a _ _ = C.a _ _
      have e0 := hone 0 (by omega)
      rw [Nat.add_zero] at e0
      congr 1
      exact ((List.getD_append _ _ _ _ hi).trans ((List.getD_eq_getElem _ _ hi).trans hi1)).trans e0.symm

/-- Two bins, two angles and a one-point function with one entry. -/
def exampleFile : File :=
  ⟨[⟨"xip", [⟨1, 1, 1, 1, 10⟩, ⟨1, 1, 2, 2, 11⟩, ⟨2, 2, 1, 1, 12⟩, ⟨2, 2, 2, 2, 13⟩]⟩], [⟨"1pt", [5]⟩], some ⟨5, fun i j => i + j⟩, none⟩

/-- Its reordering runs, the hypotheses of the theorems hold, and the order is by angles. -/
example : (∃ t', reorder exampleFile = .ok t') ∧ 2 ≤ (flat exampleFile.specs).length ∧ 1 ≤ onePts exampleFile.nobs ∧
    order [⟨1, 1, 1, 1, 10⟩, ⟨1, 1, 2, 2, 11⟩, ⟨2, 2, 1, 1, 12⟩, ⟨2, 2, 2, 2, 13⟩] = [0, 2, 1, 3] := by
  have ho : order [⟨1, 1, 1, 1, 10⟩, ⟨1, 1, 2, 2, 11⟩, ⟨2, 2, 1, 1, 12⟩, ⟨2, 2, 2, 2, 13⟩] = [0, 2, 1, 3] := by
    simp [order, List.mergeSort, List.range_succ, before, List.MergeSort.Internal.splitInTwo]
  refine ⟨?_, by simp [exampleFile, flat], by simp [exampleFile, onePts], ho⟩
  · have hr : ∀ r ∈ positions 0 exampleFile.specs ++ List.replicate (onePts exampleFile.nobs) 1, r < 5 := by
      intro r hr
      simp [exampleFile, positions, onePts, ho] at hr
      omega
    have hne : exampleFile.specs ≠ [] := by simp [exampleFile]
    exact ⟨_, reorder_some (C := ⟨5, fun i j => i + j⟩) rfl hne hr⟩

/-! ## bad values -/

/-- `mask_bad` never fails on a file whose covariance belongs to its entries; it removes exactly the entries of spectra with the bad value, and
their rows and columns. -/
theorem C129_mask_bad {bad : ℝ} {t : TP} (hf : CovFits t) :
    ∃ t' kept, maskBad bad t = .ok t' ∧ Picks t t' kept ∧
      ∀ e : Entr, e ∈ entries t' ↔ e ∈ entries t ∧ ¬ (e.2.1.isSome ∧ e.2.2 = bad) := by
  classical
  have hones : onesOf t.nobs = (t.nobs.flatMap fun o => o.vals.map fun v => ((o.name, none, v) : Entr)).map fun _ => true := by
    simp [onesOf, List.map_flatMap, Function.comp_def]
  have hlen : (badMask bad t).length = (entries t).length := by
    rw [badMask, hones]
    simp [entries, List.length_flatMap]
  have hent : ∀ c, entries ⟨t.specs.map fun s => ⟨s.name, sel (s.pts.map fun p => decide (p.value ≠ bad)) s.pts⟩, t.nobs, c⟩ =
      sel (badMask bad t) (entries t) := fun c => by
    unfold entries badMask
    rw [hones, sel_append (by simp [List.length_flatMap]), sel_true]
    congr 1
    induction t.specs with
    | nil => rfl
    | cons s l ih =>
      simp only [List.map_cons, List.flatMap_cons]
      rw [sel_append (by simp), ih, sel_map]
  obtain ⟨c, hc⟩ : ∃ c, maskCov t.cov (badMask bad t) = .ok c := by
    cases hC : t.cov with
    | none => exact ⟨_, rfl⟩
    | some C => exact ⟨_, by simp only [maskCov]; exact if_pos (by rw [hlen, hf C hC])⟩
  refine ⟨⟨t.specs.map fun s => ⟨s.name, sel (s.pts.map fun p => decide (p.value ≠ bad)) s.pts⟩, t.nobs, c⟩, _, ?_,
    picks_of_mask hlen (hent c) hc, fun e => ?_⟩
  · rw [maskBad, hc]
  · rw [show entries ⟨t.specs.map fun s => ⟨s.name, sel (s.pts.map fun p => decide (p.value ≠ bad)) s.pts⟩, t.nobs, c⟩ =
      (t.specs.flatMap fun s => (s.pts.filter fun p => decide (p.value ≠ bad)).map fun p => ((s.name, some p.key, p.value) : Entr)) ++
        t.nobs.flatMap fun o => o.vals.map fun v => (o.name, none, v) by
      simp only [entries, sel_filter, List.flatMap_map]]
    simp only [entries, List.mem_append, List.mem_flatMap, List.mem_map, List.mem_filter, decide_eq_true_eq]
    constructor
    · rintro (⟨s, hs, p, ⟨hp, hv⟩, rfl⟩ | ⟨o, ho, v, hv, rfl⟩)
      · exact ⟨Or.inl ⟨s, hs, p, hp, rfl⟩, fun h => hv h.2⟩
      · exact ⟨Or.inr ⟨o, ho, v, hv, rfl⟩, fun h => by simp at h⟩
    · rintro ⟨⟨s, hs, p, hp, rfl⟩ | ⟨o, ho, v, hv, rfl⟩, hn⟩
      · exact Or.inl ⟨s, hs, p, ⟨hp, fun h => hn ⟨rfl, h⟩⟩, rfl⟩
      · exact Or.inr ⟨o, ho, v, hv, rfl⟩

/-! ## the index -/

theorem dictGet_zipIdx {κ : Type} [DecidableEq κ] {l : List κ} (hl : l.Nodup) {i : ℕ} (hi : i < l.length) (n : ℕ) :
    dictGet (l.zipIdx n) l[i] = some (i + n) := by
  have hm : (l[i], i + n) ∈ l.zipIdx n := by
    rw [List.mem_iff_getElem]
    exact ⟨i, by simpa using hi, by simp [Nat.add_comm]⟩
  unfold dictGet
  cases hf : (l.zipIdx n).reverse.find? fun p => decide (p.1 = l[i]) with
  | none =>
    have := List.find?_eq_none.1 hf (l[i], i + n) (List.mem_reverse.2 hm)
    simp at this
  | some p =>
    have h1 := List.mem_of_find?_eq_some hf
    have h2 : p.1 = l[i] := by simpa using List.find?_some hf
    rw [List.mem_reverse, List.mem_iff_getElem] at h1
    obtain ⟨j, hj, rfl⟩ := h1
    simp only [List.length_zipIdx] at hj
    simp only [List.getElem_zipIdx] at h2 ⊢
    have := (List.Nodup.getElem_inj_iff hl).1 h2
    subst this
    simp [Nat.add_comm]

theorem dictGet_none {κ : Type} [DecidableEq κ] {l : List κ} {k : κ} (hk : k ∉ l) (n : ℕ) : dictGet (l.zipIdx n) k = none := by
  unfold dictGet
  rw [Option.map_eq_none_iff, List.find?_eq_none]
  intro p hp h
  rw [List.mem_reverse] at hp
  have h2 : p.1 = k := by simpa using h
  exact hk (h2 ▸ List.fst_mem_of_mem_zipIdx hp)

/-- On a file whose index was not asked for before, `get_overall_index` returns the position in the data vector, and a KeyError for
entries that do not occur. -/
theorem C129_index {t : File} (hi : t.index = none) (hk : (keys t.specs).Nodup) :
    (∀ i (h : i < (keys t.specs).length), (overallIndex t (keys t.specs)[i]).2 = .ok i) ∧
    ∀ k ∉ keys t.specs, (overallIndex t k).2 = .error .keyError := by
  constructor
  · intro i h
    simp only [overallIndex, hi, Option.getD_none, buildIndex]
    rw [show dictGet (keys t.specs).zipIdx (keys t.specs)[i] = some (i + 0) from dictGet_zipIdx hk h 0]
    rfl
  · intro k h
    simp only [overallIndex, hi, Option.getD_none, buildIndex]
    rw [show dictGet (keys t.specs).zipIdx k = none from dictGet_none h 0]

/-- the keys that a cut keeps, for a condition on the keys -/
theorem keys_cut (keep : String × ℕ × ℕ × ℕ → Bool) (t : File) :
    keys (cutFile (fun n p => keep (n, p.bin1, p.bin2, p.angbin)) t).specs = (keys t.specs).filter keep := by
  simp only [keys, cutFile, List.flatMap_map, List.filter_flatMap, List.filter_map]
  rfl

/-- If the index was asked for before a cut, later questions are answered with the positions before the cut; the position in the data
vector is the number of kept entries before it. -/
theorem C129_index_after_cut {t : File} (hi : t.index = none) (hk : (keys t.specs).Nodup) (keep : String × ℕ × ℕ × ℕ → Bool)
    (k0 : String × ℕ × ℕ × ℕ) {i : ℕ} (h : i < (keys t.specs).length) :
    let cut := cutFile fun n p => keep (n, p.bin1, p.bin2, p.angbin)
    (overallIndex (cut (overallIndex t k0).1) (keys t.specs)[i]).2 = .ok i ∧
    (keep (keys t.specs)[i] = true →
      (overallIndex (cut t) (keys t.specs)[i]).2 = .ok (((keys t.specs).take i).countP keep) ∧
      (((keys t.specs).take i).countP keep = i ↔ ∀ k ∈ (keys t.specs).take i, keep k = true)) := by
  intro cut
  constructor
  · simp only [cut, cutFile, overallIndex, hi, Option.getD_none, Option.getD_some, buildIndex]
    rw [show dictGet (keys t.specs).zipIdx (keys t.specs)[i] = some (i + 0) from dictGet_zipIdx hk h 0]
    rfl
  · intro hkeep
    have hkc : keys (cut t).specs = (keys t.specs).filter keep := keys_cut keep t
    have hcount : ((keys t.specs).take i).countP keep = (((keys t.specs).take i).filter keep).length := List.countP_eq_length_filter
    have hsplit : keys t.specs = (keys t.specs).take i ++ (keys t.specs)[i] :: (keys t.specs).drop (i + 1) := by
      rw [List.getElem_cons_drop, List.take_append_drop]
    have hfilt : (keys t.specs).filter keep =
        ((keys t.specs).take i).filter keep ++ (keys t.specs)[i] :: ((keys t.specs).drop (i + 1)).filter keep := by
      conv_lhs => rw [hsplit]
      rw [List.filter_append, List.filter_cons_of_pos hkeep]
    have hlen : ((keys t.specs).take i).countP keep < (keys (cut t).specs).length := by
      rw [hkc, hfilt, hcount]
      simp
    have hget : (keys (cut t).specs)[((keys t.specs).take i).countP keep] = (keys t.specs)[i] := by
      have : ((keys (cut t).specs))[((keys t.specs).take i).countP keep]? = some (keys t.specs)[i] := by
        rw [hkc, hfilt, hcount, List.getElem?_append_right le_rfl]
        simp
      rw [List.getElem?_eq_getElem hlen] at this
      exact Option.some.inj this
    refine ⟨?_, ?_⟩
    · have := (C129_index (t := cut t) hi (by rw [hkc]; exact hk.filter _)).1 _ hlen
      rwa [hget] at this
    · have hl : ((keys t.specs).take i).length = i := by rw [List.length_take]; omega
      conv_lhs => rw [← hl]
      rw [hl]
      conv_lhs => rw [show (((keys t.specs).take i).countP keep = i) =
        (((keys t.specs).take i).countP keep = ((keys t.specs).take i).length) by rw [hl]]
      exact List.countP_eq_length

/-- The hypotheses hold for the file above; cutting the first pair of bins moves the third entry to the front. -/
example : exampleFile.index = none ∧ (keys exampleFile.specs).Nodup ∧
    (keys exampleFile.specs)[2]? = some ("xip", 2, 2, 1) ∧ ((keys exampleFile.specs).take 2).countP (fun k => k.2.1 == 2) = 0 := by
  refine ⟨rfl, ?_, ?_, ?_⟩ <;> simp [keys, exampleFile]

/-- `get_nobs` raises an exception on every file and for every name, also for names that occur. -/
theorem C129_get_nobs (nobs : Option (List OnePt)) (name : String) (o : OnePt) : getNobs nobs name ≠ .ok o := by
  cases nobs with
  | none => simp [getNobs]
  | some l => cases l <;> simp [getNobs, compr]

/-! ## angular bins and units -/

theorem mem_unique {l : List ℝ} {a : ℝ} : a ∈ unique l ↔ a ∈ l := by simp [unique]

theorem unique_sorted (l : List ℝ) : (unique l).Pairwise (· < ·) := Finset.sortedLT_sort _ |>.pairwise

theorem idxOf_lt_iff {l : List ℝ} {a b : ℝ} (ha : a ∈ l) (hb : b ∈ l) : (unique l).idxOf a < (unique l).idxOf b ↔ a < b := by
  have ha' := List.idxOf_lt_length_of_mem (mem_unique.2 ha)
  have hb' := List.idxOf_lt_length_of_mem (mem_unique.2 hb)
  have ea := List.getElem_idxOf ha'
  have eb := List.getElem_idxOf hb'
  have hs := List.pairwise_iff_getElem.1 (unique_sorted l)
  constructor
  · intro h
    have := hs _ _ ha' hb' h
    rwa [ea, eb] at this
  · intro h
    rcases Nat.lt_trichotomy ((unique l).idxOf a) ((unique l).idxOf b) with h' | h' | h'
    · exact h'
    · exfalso
      have : a = b := by rw [← ea, ← eb]; simp [h']
      linarith
    · have := hs _ _ hb' ha' h'
      rw [ea, eb] at this
      linarith

/-- `recompute_angular_bins` numbers the different angles in increasing order from one, without gaps: equal angles get equal numbers,
smaller ones smaller numbers. -/
theorem C129_angular_bins (l : List ℝ) :
    (angularBins l).length = l.length ∧
    (∀ i j (hi : i < l.length) (hj : j < l.length) (hi' : i < (angularBins l).length) (hj' : j < (angularBins l).length),
      ((angularBins l)[i] < (angularBins l)[j] ↔ l[i] < l[j]) ∧ ((angularBins l)[i] = (angularBins l)[j] ↔ l[i] = l[j])) ∧
    ∀ b, b ∈ angularBins l ↔ 1 ≤ b ∧ b ≤ l.toFinset.card := by
  have hlen : (unique l).length = l.toFinset.card := Finset.length_sort _
  refine ⟨by simp [angularBins], fun i j hi hj hi' hj' => ?_, fun b => ?_⟩
  · have h1 := @idxOf_lt_iff l l[i] l[j] (List.getElem_mem _) (List.getElem_mem _)
    have h2 := @idxOf_lt_iff l l[j] l[i] (List.getElem_mem _) (List.getElem_mem _)
    simp only [angularBins, List.getElem_map]
    refine ⟨by rw [Nat.add_lt_add_iff_right]; exact h1, ⟨fun h => ?_, fun h => by rw [h]⟩⟩
    have e : (unique l).idxOf l[i] = (unique l).idxOf l[j] := by omega
    rcases lt_trichotomy l[i] l[j] with h' | h' | h'
    · have := h1.2 h'; omega
    · exact h'
    · have := h2.2 h'; omega
  · simp only [angularBins, List.mem_map]
    constructor
    · rintro ⟨a, ha, rfl⟩
      have := List.idxOf_lt_length_of_mem (mem_unique.2 ha)
      omega
    · rintro ⟨h1, h2⟩
      have hb : b - 1 < (unique l).length := by omega
      refine ⟨(unique l)[b - 1], mem_unique.1 (List.getElem_mem _), ?_⟩
      have hnd : (unique l).Nodup := (unique_sorted l).imp fun h => ne_of_lt h
      rw [hnd.idxOf_getElem]
      omega

/-- Converting the units and back changes nothing, and keeps which angles lie in a range; spectra in Fourier space and other windows are
refused. -/
theorem C129_units (f : String → Option ℝ) (hf : ∀ u x, f u = some x → 0 < x) (w u v : String) (l : List ℝ) :
    (∀ l', convert f true w u v l = .ok l' → convert f true w v u l' = .ok l ∧
      ∃ c > 0, l' = l.map (· * c) ∧ ∀ x ∈ l, ∀ lo hi, (lo < x ∧ x < hi ↔ lo * c < x * c ∧ x * c < hi * c)) ∧
    (∀ l', convert f false w u v l ≠ .ok l') ∧
    (w = "LOG_MID" → convert f true w u v l = .error .notImplemented) := by
  refine ⟨fun l' h => ?_, fun l' h => by simp [convert] at h, fun h => by simp [convert, h]⟩
  unfold convert at h ⊢
  simp only [Bool.true_eq_false, if_false] at h ⊢
  split_ifs at h ⊢ with hw
  cases hu : f u with
  | none => simp [hu] at h
  | some a =>
    cases hv : f v with
    | none => simp [hu, hv] at h
    | some b =>
      simp only [hu, hv, Except.ok.injEq] at h
      have ha := hf u a hu
      have hb := hf v b hv
      subst h
      refine ⟨?_, a / b, div_pos ha hb, rfl, fun x _ lo hi => ?_⟩
      · simp only [List.map_map, Except.ok.injEq]
        conv_rhs => rw [← List.map_id l]
        refine List.map_congr_left fun x _ => ?_
        simp only [Function.comp, id]
        field_simp
      · rw [mul_lt_mul_iff_left₀ (div_pos ha hb), mul_lt_mul_iff_left₀ (div_pos ha hb)]

/-- Arcminutes and degrees. -/
example : convert (fun u => if u = "arcmin" then some 1 else if u = "deg" then some 60 else none) true "SAMPLE" "deg" "arcmin" [2] =
    .ok [120] := by
  simp [convert]
  norm_num

/-- The edges which `NumberDensity.from_block` makes from the middles meet exactly where the distance is the one between the second and the third. -/
theorem C129_edges {z : List ℝ} (h3 : 3 ≤ z.length) :
    ∃ lo hi, edgesFromMid z = .ok (lo, hi) ∧ lo.length = z.length ∧ hi.length = z.length ∧
      ∀ i, i + 1 < z.length → (hi.getD i 0 = lo.getD (i + 1) 0 ↔ z.getD (i + 1) 0 - z.getD i 0 = z.getD 2 0 - z.getD 1 0) := by
  refine ⟨_, _, by rw [edgesFromMid, if_pos h3], by simp, by simp, fun i hi => ?_⟩
  generalize z.getD 2 0 - z.getD 1 0 = dz
  have hi0 : i < z.length := by omega
  rw [List.getD_eq_getElem z _ hi, List.getD_eq_getElem z _ hi0, List.getD_eq_getElem _ _ (by simpa using hi0),
    List.getD_eq_getElem _ _ (by simpa using hi), List.getElem_map, List.getElem_map]
  constructor <;> intro h <;> linarith

example : 3 ≤ [(0.1 : ℝ), 0.2, 0.4].length := by simp

/-! ## the builder -/

section Builder

variable {σ : Type} [DecidableEq σ]

theorem typesOf_spec (acc l : List σ) (ha : acc.Nodup) :
    (typesOf acc l).Nodup ∧ ∀ s, s ∈ typesOf acc l ↔ s ∈ acc ∨ s ∈ l := by
  induction l generalizing acc with
  | nil => simp [typesOf, ha]
  | cons x l ih =>
    rw [typesOf]
    by_cases hx : x ∈ acc
    · rw [if_pos hx]
      refine ⟨(ih acc ha).1, fun s => ?_⟩
      rw [(ih acc ha).2, List.mem_cons]
      constructor
      · rintro (h | h) <;> simp [h]
      · rintro (h | rfl | h)
        · exact Or.inl h
        · exact Or.inl hx
        · exact Or.inr h
    · rw [if_neg hx]
      have ha' : (acc ++ [x]).Nodup := by
        rw [List.nodup_append]
        refine ⟨ha, by simp, fun a h b hb => ?_⟩
        simp only [List.mem_singleton] at hb
        subst hb
        exact fun e => hx (e ▸ h)
      refine ⟨(ih _ ha').1, fun s => ?_⟩
      rw [(ih _ ha').2, List.mem_append, List.mem_singleton, List.mem_cons, or_assoc]

theorem mem_indices {items : List (Item σ)} {s : σ} {i : ℕ} : i ∈ indices items s ↔ ∃ h : i < items.length, items[i].label = s := by
  simp only [indices, List.mem_filter, List.mem_range, decide_eq_true_eq]
  constructor
  · rintro ⟨h, e⟩
    refine ⟨h, ?_⟩
    rw [List.getElem?_eq_getElem (by simpa using h), List.getElem_map] at e
    exact Option.some.inj e
  · rintro ⟨h, e⟩
    refine ⟨h, ?_⟩
    rw [List.getElem?_eq_getElem (by simpa using h), List.getElem_map, e]

/-- the order in which `generate` takes the points -/
def master (items : List (Item σ)) : List ℕ := (typesOf [] (items.map Item.label)).flatMap (indices items)

theorem master_perm (items : List (Item σ)) : (master items).Perm (List.range items.length) := by
  obtain ⟨hnd, hmem⟩ := typesOf_spec [] (items.map Item.label) List.nodup_nil
  refine (List.perm_ext_iff_of_nodup ?_ List.nodup_range).2 fun i => ?_
  · rw [master, List.nodup_flatMap]
    refine ⟨fun s _ => List.nodup_range.filter _, ?_⟩
    refine hnd.imp fun {a b} hab i hia hib => ?_
    obtain ⟨h, e⟩ := mem_indices.1 hia
    obtain ⟨h', e'⟩ := mem_indices.1 hib
    exact hab (e.symm.trans e')
  · simp only [master, List.mem_flatMap, List.mem_range]
    constructor
    · rintro ⟨s, -, h⟩
      exact (mem_indices.1 h).1
    · intro h
      refine ⟨items[i].label, (hmem _).2 (Or.inr ?_), mem_indices.2 ⟨h, rfl⟩⟩
      exact List.mem_map.2 ⟨_, List.getElem_mem h, rfl⟩

theorem starts_ints (n : ℕ) (l : List ℕ) : ∃ st, starts n (l.map Len.int) = .ok st ∧
    ∀ i < l.length, st.getD i 0 = n + (l.take i).sum := by
  induction l generalizing n with
  | nil => exact ⟨[n], rfl, fun i hi => by simp at hi⟩
  | cons x l ih =>
    cases l with
    | nil =>
      refine ⟨[n], rfl, fun i hi => ?_⟩
      simp only [List.length_cons, List.length_nil] at hi
      obtain rfl : i = 0 := by omega
      simp
    | cons y l =>
      obtain ⟨st, h1, h2⟩ := ih (n + x)
      refine ⟨n :: st, ?_, fun i hi => ?_⟩
      · rw [List.map_cons, List.map_cons, starts]
        rw [List.map_cons] at h1
        rw [h1]
      · cases i with
        | zero => simp
        | succ i =>
          simp only [List.length_cons] at hi
          rw [List.getD_cons_succ, h2 i (by simp; omega), List.take_succ_cons, List.sum_cons]
          omega

/-- The spectra which `generate` returns: each label once, with exactly its points, in the order in which they were added. -/
theorem C129_builder_spectra {items : List (Item σ)} {names : σ → Option String} {ones : List (String × ℝ)} {C : Mat} {b : Built σ}
    (h : generate items names ones C = .ok b) :
    (b.spectra.map Prod.fst).Nodup ∧ (∀ s, s ∈ b.spectra.map Prod.fst ↔ s ∈ items.map Item.label) ∧
    ∀ x ∈ b.spectra, names x.1 = some x.2.1 ∧ x.2.2 = (items.filter fun t => t.label = x.1).map Item.value := by
  obtain ⟨hnd, hmem⟩ := typesOf_spec [] (items.map Item.label) List.nodup_nil
  unfold generate at h
  simp only at h
  split_ifs at h with h1 h2
  split at h
  · cases h
  cases h
  refine ⟨by simpa [List.map_map, Function.comp_def] using hnd, fun s => ?_, fun x hx => ?_⟩
  · rw [List.map_map, show (Prod.fst ∘ fun s => (s, (names s).getD "", (indices items s).map fun i => (items.map Item.value).getD i 0)) =
      (id : σ → σ) from rfl, List.map_id, hmem]
    simp
  · obtain ⟨s, hs, rfl⟩ := List.mem_map.1 hx
    refine ⟨?_, ?_⟩
    · cases hn : names s with
      | none => exact absurd ⟨s, hs, hn⟩ h1
      | some n => rfl
    · simp only
      have := sel_filter (fun t : Item σ => decide (t.label = s)) items
      have key : ∀ (l : List (Item σ)) (pre : List (Item σ)),
          ((List.range' pre.length l.length).filter fun i => decide (((pre ++ l).map Item.label)[i]? = some s)).map
            (fun i => ((pre ++ l).map Item.value).getD i 0) = (l.filter fun t => t.label = s).map Item.value := by
        intro l
        induction l with
        | nil => intro pre; simp
        | cons t l ih =>
          intro pre
          have e := ih (pre ++ [t])
          rw [List.append_assoc, List.singleton_append, List.length_append, List.length_singleton] at e
          rw [List.length_cons, List.range'_succ, List.filter_cons, List.filter_cons]
          have hg : ((pre ++ t :: l).map Item.label)[pre.length]? = some t.label := by
            rw [List.map_append, List.getElem?_append_right (by simp)]
            simp
          have hv : ((pre ++ t :: l).map Item.value).getD pre.length 0 = t.value := by
            rw [List.map_append, List.getD_append_right _ _ _ _ (by simp)]
            simp
          by_cases ht : t.label = s
          · simp only [hg, ht, decide_true, if_true, List.map_cons, hv, e]
          · have : ¬ (some t.label = some s) := fun h => ht (Option.some.inj h)
            simp only [hg, this, ht, decide_false, Bool.false_eq_true, if_false, e]
      have := key items []
      simpa [indices, List.range_eq_range'] using this

/-- Without one-point functions: `generate` runs whenever all spectra have names and the covariance has the right size; the concatenated
values of the spectra and the rows and columns of the covariance are the points in the same order. -/
theorem C129_builder {items : List (Item σ)} {names : σ → Option String} {C : Mat} (hn : ∀ t ∈ items, ∃ n, names t.label = some n)
    (hC : C.n = items.length) :
    ∃ b, generate items names [] C = .ok b ∧ ∃ k : List ℕ, k.Perm (List.range items.length) ∧
      (b.spectra.flatMap fun x => x.2.2) = k.map ((items.map Item.value).getD · 0) ∧ b.cov.n = items.length ∧
      (∀ i (hi : i < k.length) j (hj : j < k.length), b.cov.a i j = C.a k[i] k[j]) ∧
      ∀ i (hi : i < b.spectra.length), b.error i = .ok ((indices items b.spectra[i].1).map fun p => √(C.a p p)) := by
  obtain ⟨hnd, hmem⟩ := typesOf_spec [] (items.map Item.label) List.nodup_nil
  set types := typesOf [] (items.map Item.label) with ht
  have h1 : ¬ ∃ s ∈ types, names s = none := by
    rintro ⟨s, hs, e⟩
    rcases (hmem s).1 hs with h | h
    · cases h
    · obtain ⟨t, h', rfl⟩ := List.mem_map.1 h
      obtain ⟨n, hn⟩ := hn t h'
      rw [hn] at e
      cases e
  obtain ⟨st, hst, hst'⟩ := starts_ints 0 (types.map fun s => (indices items s).length)
  have hrun : generate items names [] C = .ok ⟨types.map fun s => (s, (names s).getD "",
      (indices items s).map fun i => (items.map Item.value).getD i 0),
      types.map fun s => (names s).getD "", types.map fun s => Len.int (indices items s).length, st, C.sub (master items)⟩ := by
    unfold generate
    simp only [← ht]
    rw [if_neg h1, if_neg (by simp [hC])]
    have e : ((types.map fun s => (s, (names s).getD "", (indices items s).map fun i => (items.map Item.value).getD i 0)).map
        fun x => Len.int x.2.2.length) ++ (([] : List (String × ℝ)).map Prod.fst).dedup.map (fun _ => Len.list [([] : List (String × ℝ)).length]) =
        (types.map fun s => (indices items s).length).map Len.int := by
      simp [List.map_map, Function.comp_def]
    rw [e, hst]
    simp [List.map_map, Function.comp_def, master, ← ht]
  have hcov : ∀ i (hi : i < (master items).length) j (hj : j < (master items).length),
      (C.sub (master items)).a i j = C.a (master items)[i] (master items)[j] := fun i hi j hj => by
    simp only [Mat.sub]
    rw [List.getD_eq_getElem _ _ hi, List.getD_eq_getElem _ _ hj]
  refine ⟨_, hrun, master items, master_perm items, ?_, ?_, hcov, fun i hi => ?_⟩
  · simp only [master, ← ht, List.map_flatMap, List.flatMap_map]
  · simpa [Mat.sub] using (master_perm items).length_eq
  · simp only [List.length_map] at hi
    unfold Built.error
    simp only [List.getElem_map, List.getElem?_map, List.getElem?_eq_getElem hi, Option.map_some]
    congr 1
    have hs := hst' i (by simpa using hi)
    rw [hs, Nat.zero_add]
    have hsplit : master items = (types.take i).flatMap (indices items) ++ (indices items types[i] ++
        (types.drop (i + 1)).flatMap (indices items)) := by
      rw [master, ← ht]
      conv_lhs => rw [← List.take_append_drop i types, ← List.getElem_cons_drop hi]
      rw [List.flatMap_append, List.flatMap_cons]
    have hlen : ((types.map fun s => (indices items s).length).take i).sum = ((types.take i).flatMap (indices items)).length := by
      rw [List.length_flatMap, List.map_take]
    rw [hlen]
    refine List.ext_getElem (by simp) fun p h1 h2 => ?_
    simp only [List.length_map, List.length_range] at h1
    simp only [List.getElem_map, List.getElem_range, Mat.sub]
    have e : (master items).getD (((types.take i).flatMap (indices items)).length + p) 0 = (indices items types[i])[p] := by
      rw [hsplit, List.getD_append_right _ _ _ _ (by omega), Nat.add_sub_cancel_left, List.getD_append _ _ _ _ h1,
        List.getD_eq_getElem _ _ h1]
    rw [e]

theorem starts_list (n : ℕ) (l : List ℕ) (a b : List ℕ) (r : List Len) :
    starts n (l.map Len.int ++ Len.list a :: Len.list b :: r) = .error .typeError := by
  induction l generalizing n with
  | nil => rfl
  | cons x l ih =>
    cases l with
    | nil =>
      simp only [List.map_cons, List.map_nil, List.cons_append, List.nil_append, starts]
    | cons y l =>
      have := ih (n + x)
      rw [List.map_cons, List.cons_append] at this
      rw [List.map_cons, List.map_cons, List.cons_append, List.cons_append, starts, this]

/-- With one-point functions of two or more names `generate` raises an exception, whatever else is given. -/
theorem C129_builder_two_names (items : List (Item σ)) (names : σ → Option String) (ones : List (String × ℝ)) (C : Mat)
    {a b : String} (ha : a ∈ ones.map Prod.fst) (hb : b ∈ ones.map Prod.fst) (hab : a ≠ b) (r : Built σ) :
    generate items names ones C ≠ .ok r := by
  intro h
  unfold generate at h
  simp only at h
  split_ifs at h with h1 h2
  have hd : ∃ x y l, (ones.map Prod.fst).dedup = x :: y :: l := by
    have ha' := List.mem_dedup.2 ha
    have hb' := List.mem_dedup.2 hb
    match he : (ones.map Prod.fst).dedup with
    | [] => rw [he] at ha'; cases ha'
    | [x] =>
      rw [he] at ha' hb'
      simp only [List.mem_singleton] at ha' hb'
      exact absurd (ha'.trans hb'.symm) hab
    | x :: y :: l => exact ⟨x, y, l, rfl⟩
  obtain ⟨x, y, l, he⟩ := hd
  have hs := starts_list 0 ((typesOf [] (items.map Item.label)).map fun s => (indices items s).length) [ones.length] [ones.length]
    (l.map fun _ => Len.list [ones.length])
  have e : (((typesOf [] (items.map Item.label)).map fun s =>
      (s, (names s).getD "", (indices items s).map fun i => (items.map Item.value).getD i 0)).map fun x => Len.int x.2.2.length) ++
      (ones.map Prod.fst).dedup.map (fun _ => Len.list [ones.length]) =
      ((typesOf [] (items.map Item.label)).map fun s => (indices items s).length).map Len.int ++
        Len.list [ones.length] :: Len.list [ones.length] :: l.map fun _ => Len.list [ones.length] := by
    rw [he]
    simp [List.map_map, Function.comp_def]
  rw [e, hs] at h
  cases h

/-- With one-point functions of one name it may run; then asking for the error of the one-point function, the last entry of the record, is a
TypeError, and the one-point function is not among what is returned. -/
theorem C129_builder_one_name {items : List (Item σ)} {names : σ → Option String} {ones : List (String × ℝ)} {C : Mat} {b : Built σ}
    (h : generate items names ones C = .ok b) (h1 : ones ≠ []) :
    b.names.getD b.spectra.length "" = "1pt" ∧ b.error b.spectra.length = .error .typeError ∧
    (b.spectra.map fun x => x.2.2.length).sum = items.length := by
  obtain ⟨x, l, hx⟩ : ∃ x l, (ones.map Prod.fst).dedup = x :: l := by
    cases he : (ones.map Prod.fst).dedup with
    | nil =>
      rw [List.dedup_eq_nil] at he
      exact absurd (List.map_eq_nil_iff.1 he) h1
    | cons x l => exact ⟨x, l, rfl⟩
  unfold generate at h
  simp only at h
  split_ifs at h with h1' h2
  split at h
  · cases h
  cases h
  refine ⟨?_, ?_, ?_⟩
  · simp only [hx]
    rw [List.getD_append_right _ _ _ _ (by simp)]
    simp
  · simp only [Built.error, hx]
    rw [List.getElem?_append_right (by simp)]
    simp
  · rw [← List.length_flatMap]
    have := (master_perm items).length_eq
    rw [List.length_range] at this
    rw [← this]
    simp [master, List.length_flatMap, List.map_map, Function.comp_def]

/-- The covariance with one-point functions: it keeps its size, and the block of the one-point functions, the last rows and columns that were
given, stays last and in order. -/
theorem C129_builder_one_point_covariance {items : List (Item σ)} {names : σ → Option String} {ones : List (String × ℝ)} {C : Mat}
    {b : Built σ} (h : generate items names ones C = .ok b) (h1 : ones ≠ []) :
    C.n = items.length + ones.length ∧ b.cov.n = C.n ∧
    ∀ i < ones.length, ∀ j < ones.length,
      b.cov.a (items.length + i) (items.length + j) = C.a (items.length + i) (items.length + j) := by
  have hone : ∃ x, (ones.map Prod.fst).dedup = [x] := by
    cases he : (ones.map Prod.fst).dedup with
    | nil =>
      rw [List.dedup_eq_nil] at he
      exact absurd (List.map_eq_nil_iff.1 he) h1
    | cons x l =>
      cases l with
      | nil => exact ⟨x, rfl⟩
      | cons y l =>
        have hn := List.nodup_dedup (ones.map Prod.fst)
        rw [he] at hn
        have hx : x ∈ ones.map Prod.fst := List.mem_dedup.1 (by rw [he]; simp)
        have hy : y ∈ ones.map Prod.fst := List.mem_dedup.1 (by rw [he]; simp)
        have hxy : x ≠ y := fun e => by simp [e] at hn
        exact absurd h (C129_builder_two_names items names ones C hx hy hxy b)
  obtain ⟨x, hx⟩ := hone
  unfold generate at h
  simp only at h
  split_ifs at h with h1' h2
  split at h
  · cases h
  cases h
  have hlen : (master items).length = items.length := by simpa using (master_perm items).length_eq
  have hm : (typesOf [] (items.map Item.label)).flatMap (indices items) = master items := rfl
  simp only [hx, hm, List.flatMap_cons, List.flatMap_nil, List.append_nil]
  have hg : ∀ i < ones.length,
      (master items ++ (List.range ones.length).map (items.length + ·)).getD (items.length + i) 0 = items.length + i := by
    intro i hi
    rw [List.getD_append_right _ _ _ _ (by omega), hlen, Nat.add_sub_cancel_left,
      List.getD_eq_getElem _ _ (by simpa using hi)]
    simp
  have hCn : C.n = items.length + ones.length := not_not.1 h2
  refine ⟨hCn, ?_, fun i hi j hj => ?_⟩
  · simp [Mat.sub, hlen, hCn]
  · simp only [Mat.sub]
    rw [hg i hi, hg j hj]

end Builder

/-- Three points of two spectra, added in turns, and a covariance; with a one-point function of one name it runs too. -/
example : (∃ b, generate [⟨"a", 1⟩, ⟨"b", 2⟩, ⟨"a", 3⟩] (fun s => some s) [("n", 5)] ⟨4, fun i j => i * j⟩ = .ok b) ∧
    (master [(⟨"a", 1⟩ : Item String), ⟨"b", 2⟩, ⟨"a", 3⟩]) = [0, 2, 1] := by
  constructor
  · simp [generate, typesOf, indices, List.range_succ, starts]
  · simp [master, typesOf, indices, List.range_succ]

end Verif.TwoPointOps

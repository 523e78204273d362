import Verif.Model.RealSpace
import Verif.Lemmas.Interp
import Verif.Lemmas.Simpson
import Mathlib.Analysis.MeanInequalities

/-!
# Interpolation before the Hankel transform, and the Hankel transform (C71, C92, C93)
-/

namespace Verif.RealSpace

open Verif.Lib Verif.Spec

theorem logSorted {n : ℕ} {k : ℕ → ℝ} (hk : SortedOn n k) (hp : ∀ i < n, 0 < k i) :
    SortedOn n fun i => Real.log (k i) := by
  intro i j hij hj
  exact Real.log_lt_log (hp i (by omega)) (hk i j hij hj)

theorem kindOf_pos {n : ℕ} {s : ℕ → ℝ} (h : ∀ i < n, 0 < s i) : kindOf n s = .loglog := if_pos h

theorem kindOf_neg {n : ℕ} (hn : 2 ≤ n) {s : ℕ → ℝ} (h : ∀ i < n, s i < 0) : kindOf n s = .minusLoglog := by
  unfold kindOf
  rw [if_neg, if_pos h]
  intro h'
  have := h 0 (by omega); have := h' 0 (by omega)
  linarith

theorem kindOf_mixed {n : ℕ} {s : ℕ → ℝ} (h1 : ∃ i < n, s i ≤ 0) (h2 : ∃ i < n, 0 ≤ s i) : kindOf n s = .logAng := by
  unfold kindOf
  rw [if_neg, if_neg]
  · obtain ⟨i, hi, h⟩ := h2
    exact fun h' => absurd (h' i hi) (not_lt.mpr h)
  · obtain ⟨i, hi, h⟩ := h1
    exact fun h' => absurd (h' i hi) (not_lt.mpr h)

/-- the three cases -/
theorem cases_kind (n : ℕ) (s : ℕ → ℝ) : (∀ i < n, 0 < s i) ∨ (∀ i < n, s i < 0) ∨
    ((∃ i < n, s i ≤ 0) ∧ ∃ i < n, 0 ≤ s i) := by
  by_cases h1 : ∀ i < n, 0 < s i
  · exact Or.inl h1
  · by_cases h2 : ∀ i < n, s i < 0
    · exact Or.inr (Or.inl h2)
    · push Not at h1 h2
      exact Or.inr (Or.inr ⟨h1, h2⟩)

/-! ## C71 -/

/-- C71: the input is reproduced at the input points, whatever its signs. -/
theorem C71_nodes {n : ℕ} (hn : 2 ≤ n) {x : ℕ → ℝ} (hx : SortedOn n x) (hp : ∀ i < n, 0 < x i) (s : ℕ → ℝ) {i : ℕ}
    (hi : i < n) : logInterp n x s (x i) = s i := by
  unfold logInterp
  rcases cases_kind n s with h | h | ⟨h, h'⟩
  · rw [kindOf_pos h]
    simp only
    rw [interpLinear_node hn (logSorted hx hp) _ hi, Real.exp_log (h i hi)]
  · rw [kindOf_neg hn h]
    simp only
    rw [interpLinear_node hn (logSorted hx hp) _ hi, Real.exp_log (by linarith [h i hi]), neg_neg]
  · rw [kindOf_mixed h h']
    exact interpLinear_node hn (logSorted hx hp) _ hi

/-- C71: a positive input gives positive values everywhere, also where it is extrapolated. -/
theorem C71_positive {n : ℕ} (x : ℕ → ℝ) {s : ℕ → ℝ} (h : ∀ i < n, 0 < s i) (q : ℝ) : 0 < logInterp n x s q := by
  unfold logInterp
  rw [kindOf_pos h]
  exact Real.exp_pos _

/-- C71: a negative input gives negative values everywhere. -/
theorem C71_negative {n : ℕ} (hn : 2 ≤ n) (x : ℕ → ℝ) {s : ℕ → ℝ} (h : ∀ i < n, s i < 0) (q : ℝ) :
    logInterp n x s q < 0 := by
  unfold logInterp
  rw [kindOf_neg hn h]
  exact neg_lt_zero.mpr (Real.exp_pos _)

/-- C71: an input with a zero or a change of sign is interpolated linearly in the logarithm of the argument: between
two neighbouring points the value is the weighted mean of theirs. -/
theorem C71_fallback {n : ℕ} (hn : 2 ≤ n) {x : ℕ → ℝ} (hx : SortedOn n x) (hp : ∀ i < n, 0 < x i) {s : ℕ → ℝ}
    (h1 : ∃ i < n, s i ≤ 0) (h2 : ∃ i < n, 0 ≤ s i) {q : ℝ} (hq0 : x 0 ≤ q) (hq1 : q ≤ x (n - 1)) :
    ∃ j t, 1 ≤ j ∧ j < n ∧ 0 ≤ t ∧ t ≤ 1 ∧ Real.log q = (1 - t) * Real.log (x (j - 1)) + t * Real.log (x j) ∧
      logInterp n x s q = (1 - t) * s (j - 1) + t * s j := by
  have hpos0 := hp 0 (by omega)
  obtain ⟨j, t, a, b, c, d, e, f⟩ := interpLinear_convex hn (logSorted hx hp)
    (Real.log_le_log hpos0 hq0) (Real.log_le_log (hpos0.trans_le hq0) hq1)
  refine ⟨j, t, a, b, c, d, e, ?_⟩
  unfold logInterp
  rw [kindOf_mixed h1 h2]
  exact f s

/-- C71: a power law of either sign is exact everywhere, inside and outside the range. -/
theorem C71_power_law {n : ℕ} (hn : 2 ≤ n) {x : ℕ → ℝ} (hx : SortedOn n x) (hp : ∀ i < n, 0 < x i) {A : ℝ}
    (hA : A ≠ 0) (m : ℝ) {q : ℝ} (hq : 0 < q) : logInterp n x (fun i => A * x i ^ m) q = A * q ^ m := by
  have key : ∀ B : ℝ, 0 < B → ∀ s : ℕ → ℝ, (∀ i < n, s i = B * x i ^ m) →
      Real.exp (interpLinear n (fun i => Real.log (x i)) (fun i => Real.log (s i)) (Real.log q)) = B * q ^ m := by
    intro B hB s hs
    have h : ∀ i < n, Real.log (s i) = Real.log B + m * Real.log (x i) := by
      intro i hi
      rw [hs i hi, Real.log_mul hB.ne' (Real.rpow_pos_of_pos (hp i hi) m).ne', Real.log_rpow (hp i hi)]
    rw [interpLinear_congr (x := fun i => Real.log (x i)) hn h,
      interpLinear_affine hn (logSorted hx hp) (Real.log B) m (Real.log q), Real.exp_add, Real.exp_log hB,
      Real.rpow_def_of_pos hq, mul_comm m]
  unfold logInterp
  rcases lt_or_gt_of_ne hA with h | h
  · rw [kindOf_neg hn fun i hi => mul_neg_of_neg_of_pos h (Real.rpow_pos_of_pos (hp i hi) m)]
    simp only
    rw [key (-A) (by linarith) _ fun i _ => by ring]
    ring
  · rw [kindOf_pos fun i hi => mul_pos h (Real.rpow_pos_of_pos (hp i hi) m)]
    exact key A h _ fun i _ => rfl

example : logInterp 3 (fun i => (i : ℝ) + 1) (fun i => (i : ℝ) - 1) 2 = 0 := by
  have h := C71_nodes (n := 3) (by norm_num) (x := fun i => (i : ℝ) + 1)
    (fun i j h _ => by have : (i : ℝ) < j := by exact_mod_cast h
                       simpa using this) (fun i _ => by positivity) (fun i => (i : ℝ) - 1) (i := 1) (by norm_num)
  norm_num at h ⊢
  exact h

/-- -3/q² is interpolated exactly at every q, here at q = 10 from the points 1, 2, 3 -/
example : logInterp 3 (fun i => (i : ℝ) + 1) (fun i => -3 * ((i : ℝ) + 1) ^ (-2 : ℝ)) 10 = -3 * (10 : ℝ) ^ (-2 : ℝ) :=
  C71_power_law (by norm_num) (fun i j h _ => by have : (i : ℝ) < j := by exact_mod_cast h
                                                 simpa using this) (fun i _ => by positivity) (by norm_num) _ (by norm_num)

/-! ## C92 -/

/-- Scaling a spectrum by any factor, also a negative one or zero, scales the interpolation. -/
theorem logInterp_smul {n : ℕ} (hn : 2 ≤ n) {x : ℕ → ℝ} (hx : SortedOn n x) (hp : ∀ i < n, 0 < x i) (c : ℝ) (s : ℕ → ℝ)
    (q : ℝ) : logInterp n x (fun i => c * s i) q = c * logInterp n x s q := by
  have key : ∀ d : ℝ, 0 < d → ∀ u v : ℕ → ℝ, (∀ i < n, 0 < v i) → (∀ i < n, u i = d * v i) →
      Real.exp (interpLinear n (fun i => Real.log (x i)) (fun i => Real.log (u i)) (Real.log q)) =
      d * Real.exp (interpLinear n (fun i => Real.log (x i)) (fun i => Real.log (v i)) (Real.log q)) := by
    intro d hd u v hv hu
    have h : ∀ i < n, Real.log (u i) = Real.log d + Real.log (v i) := by
      intro i hi
      rw [hu i hi, Real.log_mul hd.ne' (hv i hi).ne']
    rw [interpLinear_congr (x := fun i => Real.log (x i)) hn h,
      interpLinear_add n _ (fun _ => Real.log d) (fun i => Real.log (v i)), interpLinear_const hn (logSorted hx hp),
      Real.exp_add, Real.exp_log hd]
  unfold logInterp
  rcases lt_trichotomy c 0 with hc | rfl | hc
  · rcases cases_kind n s with h | h | ⟨h, h'⟩
    · rw [kindOf_pos h, kindOf_neg hn fun i hi => mul_neg_of_neg_of_pos hc (h i hi)]
      simp only
      rw [key (-c) (by linarith) _ s h fun i _ => by ring]
      ring
    · rw [kindOf_neg hn h, kindOf_pos fun i hi => mul_pos_of_neg_of_neg hc (h i hi)]
      simp only
      rw [key (-c) (by linarith) _ (fun i => -s i) (fun i hi => by linarith [h i hi]) fun i _ => by ring]
      ring
    · obtain ⟨i, hi, h⟩ := h
      obtain ⟨j, hj, h'⟩ := h'
      rw [kindOf_mixed ⟨i, hi, h⟩ ⟨j, hj, h'⟩,
        kindOf_mixed (s := fun i => c * s i) ⟨j, hj, mul_nonpos_of_nonpos_of_nonneg hc.le h'⟩
          ⟨i, hi, mul_nonneg_of_nonpos_of_nonpos hc.le h⟩]
      exact interpLinear_smul ..
  · rw [kindOf_mixed (s := fun i => 0 * s i) ⟨0, by omega, by simp⟩ ⟨0, by omega, by simp⟩]
    simp only
    rw [interpLinear_smul]
    simp
  · rcases cases_kind n s with h | h | ⟨h, h'⟩
    · rw [kindOf_pos h, kindOf_pos fun i hi => mul_pos hc (h i hi)]
      exact key c hc _ s h fun i _ => rfl
    · rw [kindOf_neg hn h, kindOf_neg hn fun i hi => mul_neg_of_pos_of_neg hc (h i hi)]
      simp only
      rw [key c hc _ (fun i => -s i) (fun i hi => by linarith [h i hi]) fun i _ => by ring]
      ring
    · obtain ⟨i, hi, h⟩ := h
      obtain ⟨j, hj, h'⟩ := h'
      rw [kindOf_mixed ⟨i, hi, h⟩ ⟨j, hj, h'⟩,
        kindOf_mixed (s := fun i => c * s i) ⟨i, hi, mul_nonpos_of_nonneg_of_nonpos hc.le h⟩
          ⟨j, hj, mul_nonneg hc.le h'⟩]
      exact interpLinear_smul ..

/-- the Hankel transform is a linear map of the `n` samples: a matrix -/
def IsMatrix (T : Transformer) : Prop := ∃ M : ℕ → ℕ → ℝ, ∀ f i, T.fht f i = ∑ j ∈ Finset.range T.n, M i j * f j

/-- C92: scaling the power spectrum (at all redshifts) by any factor scales the correlation function. -/
theorem C92_amplitude (T : Transformer) (hT : IsMatrix T) (c : CorrType) (density : ℝ) (s : Spectrum) (hn : 2 ≤ s.nk)
    (hk : SortedOn s.nk s.k) (hp : ∀ i < s.nk, 0 < s.k i) (kn : Kernel) (a : ℝ) (i : ℕ) :
    binOutput T c density ⟨s.nk, s.k, s.nz, s.z, fun j l => a * s.pk j l⟩ kn i = a * binOutput T c density s kn i := by
  obtain ⟨M, hM⟩ := hT
  have e : ∀ j, T.xi s.nk s.k (fun l => a * s.pk j l) i = a * T.xi s.nk s.k (s.pk j) i := by
    intro j
    unfold Transformer.xi
    rw [hM, hM]
    simp only [logInterp_smul hn hk hp a (s.pk j)]
    rw [mul_div_assoc', mul_div_assoc', Finset.mul_sum]
    congr 2
    exact Finset.sum_congr rfl fun l _ => by ring
  have e2 : simpson s.nz s.z (fun j => loadKernel kn (s.z j) * T.xi s.nk s.k (fun l => a * s.pk j l) i * density) =
      a * simpson s.nz s.z (fun j => loadKernel kn (s.z j) * T.xi s.nk s.k (s.pk j) i * density) := by
    rw [← simpson_smul]
    congr 1; funext j
    rw [e]; ring
  unfold binOutput
  cases c
  · exact e2
  · simp only
    rw [e2]; ring

/-- C92: the correlation function is linear in the redshift distribution. -/
theorem C92_kernel_linear (T : Transformer) (c : CorrType) (density : ℝ) (s : Spectrum) (n : ℕ) (z v w : ℕ → ℝ)
    (a b : ℝ) (i : ℕ) :
    binOutput T c density s ⟨n, z, fun t => a * v t + b * w t⟩ i =
      a * binOutput T c density s ⟨n, z, v⟩ i + b * binOutput T c density s ⟨n, z, w⟩ i := by
  have e : ∀ q, loadKernel ⟨n, z, fun t => a * v t + b * w t⟩ q = a * loadKernel ⟨n, z, v⟩ q + b * loadKernel ⟨n, z, w⟩ q := by
    intro q
    unfold loadKernel interp1d
    simp only
    split_ifs
    · ring
    · rw [interpLinear_add n z (fun t => a * v t) (fun t => b * w t), interpLinear_smul, interpLinear_smul]
  have e2 : ∀ f : ℕ → ℝ,
      simpson s.nz s.z (fun j => loadKernel ⟨n, z, fun t => a * v t + b * w t⟩ (s.z j) * f j * density) =
      a * simpson s.nz s.z (fun j => loadKernel ⟨n, z, v⟩ (s.z j) * f j * density) +
      b * simpson s.nz s.z (fun j => loadKernel ⟨n, z, w⟩ (s.z j) * f j * density) := by
    intro f
    rw [← simpson_smul, ← simpson_smul, ← simpson_add]
    congr 1; funext j
    rw [e]; ring
  unfold binOutput
  cases c
  · exact e2 _
  · simp only
    rw [e2]; ring

/-- C92: spectra at redshifts outside the range of the redshift distribution have no influence. -/
theorem C92_outside_ignored (T : Transformer) (c : CorrType) (density : ℝ) (nk : ℕ) (k : ℕ → ℝ) (nz : ℕ) (z : ℕ → ℝ)
    (pk pk' : ℕ → ℕ → ℝ) (kn : Kernel) (i : ℕ)
    (h : ∀ j < nz, kn.z 0 ≤ z j → z j ≤ kn.z (kn.n - 1) → pk j = pk' j) :
    binOutput T c density ⟨nk, k, nz, z, pk⟩ kn i = binOutput T c density ⟨nk, k, nz, z, pk'⟩ kn i := by
  have e2 : simpson nz z (fun j => loadKernel kn (z j) * T.xi nk k (pk j) i * density) =
      simpson nz z (fun j => loadKernel kn (z j) * T.xi nk k (pk' j) i * density) := by
    apply simpson_congr_right
    intro j hj
    by_cases h' : z j < kn.z 0 ∨ kn.z (kn.n - 1) < z j
    · have : loadKernel kn (z j) = 0 := by
        unfold loadKernel interp1d
        simp only
        rw [if_pos h']
      rw [this]; ring
    · push Not at h'
      rw [h j hj h'.1 h'.2]
  unfold binOutput
  cases c
  · exact e2
  · simp only
    rw [e2]

/-- C92: a redshift distribution outside the redshifts of the spectrum gives an identically zero correlation
function, without any message. -/
theorem C92_no_overlap (T : Transformer) (c : CorrType) (density : ℝ) (s : Spectrum) (kn : Kernel) (i : ℕ)
    (h : ∀ j < s.nz, s.z j < kn.z 0 ∨ kn.z (kn.n - 1) < s.z j) : binOutput T c density s kn i = 0 := by
  have e2 : simpson s.nz s.z (fun j => loadKernel kn (s.z j) * T.xi s.nk s.k (s.pk j) i * density) = 0 := by
    rw [simpson_congr_right (y' := fun _ => 0), simpson_zero]
    intro j hj
    have : loadKernel kn (s.z j) = 0 := by
      unfold loadKernel interp1d
      simp only
      rw [if_pos (h j hj)]
    rw [this]; ring
  unfold binOutput
  cases c
  · exact e2
  · simp only
    rw [e2]; simp

/-- weighted geometric means of sums -/
theorem geom_super {a b c d t : ℝ} (ha : 0 < a) (hb : 0 < b) (hc : 0 < c) (hd : 0 < d) (h0 : 0 ≤ t) (h1 : t ≤ 1) :
    a ^ (1 - t) * b ^ t + c ^ (1 - t) * d ^ t ≤ (a + c) ^ (1 - t) * (b + d) ^ t := by
  have hac : 0 < a + c := by positivity
  have hbd : 0 < b + d := by positivity
  have g1 := Real.geom_mean_le_arith_mean2_weighted (w₁ := 1 - t) (w₂ := t) (p₁ := a / (a + c)) (p₂ := b / (b + d))
    (by linarith) h0 (by positivity) (by positivity) (by ring)
  have g2 := Real.geom_mean_le_arith_mean2_weighted (w₁ := 1 - t) (w₂ := t) (p₁ := c / (a + c)) (p₂ := d / (b + d))
    (by linarith) h0 (by positivity) (by positivity) (by ring)
  have e1 : a / (a + c) + c / (a + c) = 1 := by field_simp
  have e2 : b / (b + d) + d / (b + d) = 1 := by field_simp
  have hs : (1 - t) * (a / (a + c)) + t * (b / (b + d)) + ((1 - t) * (c / (a + c)) + t * (d / (b + d))) = 1 := by
    linear_combination (1 - t) * e1 + t * e2
  rw [Real.div_rpow ha.le hac.le, Real.div_rpow hb.le hbd.le, div_mul_div_comm] at g1
  rw [Real.div_rpow hc.le hac.le, Real.div_rpow hd.le hbd.le, div_mul_div_comm] at g2
  have hpos : 0 < (a + c) ^ (1 - t) * (b + d) ^ t := by positivity
  have := add_le_add g1 g2
  rw [hs, ← add_div, div_le_one hpos] at this
  exact this

theorem logInterp_geom {n : ℕ} (hn : 2 ≤ n) {x : ℕ → ℝ} (hx : SortedOn n x) (hp : ∀ i < n, 0 < x i) {q : ℝ}
    (hq0 : x 0 ≤ q) (hq1 : q ≤ x (n - 1)) :
    ∃ j t, 1 ≤ j ∧ j < n ∧ 0 ≤ t ∧ t ≤ 1 ∧ Real.log q = (1 - t) * Real.log (x (j - 1)) + t * Real.log (x j) ∧
      ∀ s : ℕ → ℝ, (∀ i < n, 0 < s i) → logInterp n x s q = s (j - 1) ^ (1 - t) * s j ^ t := by
  have hpos0 := hp 0 (by omega)
  obtain ⟨j, t, a, b, c, d, e, f⟩ := interpLinear_convex hn (logSorted hx hp)
    (Real.log_le_log hpos0 hq0) (Real.log_le_log (hpos0.trans_le hq0) hq1)
  refine ⟨j, t, a, b, c, d, e, fun s hs => ?_⟩
  unfold logInterp
  rw [kindOf_pos hs]
  simp only
  rw [f, Real.exp_add, Real.rpow_def_of_pos (hs _ (by omega)), Real.rpow_def_of_pos (hs _ b)]
  ring_nf

/-- C92: the sum of two positive spectra is interpolated to at least the sum of the interpolations, so 1-halo and
2-halo correlation functions need not add up to that of the total. -/
theorem C92_superadditive {n : ℕ} (hn : 2 ≤ n) {x : ℕ → ℝ} (hx : SortedOn n x) (hp : ∀ i < n, 0 < x i) {u v : ℕ → ℝ}
    (hu : ∀ i < n, 0 < u i) (hv : ∀ i < n, 0 < v i) {q : ℝ} (hq0 : x 0 ≤ q) (hq1 : q ≤ x (n - 1)) :
    logInterp n x u q + logInterp n x v q ≤ logInterp n x (fun i => u i + v i) q := by
  obtain ⟨j, t, a, b, c, d, -, f⟩ := logInterp_geom hn hx hp hq0 hq1
  rw [f u hu, f v hv, f (fun i => u i + v i) fun i hi => add_pos (hu i hi) (hv i hi)]
  exact geom_super (hu _ (by omega)) (hu _ b) (hv _ (by omega)) (hv _ b) c d

/-- C92: the difference is real: k + 1/k at points 1, 4 is interpolated to sqrt(17/2) at k = 2, its parts to 2 + 1/2. -/
theorem C92_not_additive : ∃ (x u v : ℕ → ℝ) (q : ℝ), SortedOn 2 x ∧ (∀ i < 2, 0 < x i) ∧ (∀ i < 2, 0 < u i) ∧
    (∀ i < 2, 0 < v i) ∧ x 0 ≤ q ∧ q ≤ x 1 ∧
    logInterp 2 x u q + logInterp 2 x v q < logInterp 2 x (fun i => u i + v i) q := by
  have hs : SortedOn 2 fun i => if i = 0 then (1 : ℝ) else 4 := by
    intro i j h1 h2
    obtain ⟨rfl, rfl⟩ : i = 0 ∧ j = 1 := by omega
    norm_num
  have hp : ∀ i < 2, (0 : ℝ) < if i = 0 then (1 : ℝ) else 4 := by intro i _; split_ifs <;> norm_num
  refine ⟨fun i => if i = 0 then 1 else 4, fun i => if i = 0 then 1 else 4, fun i => if i = 0 then 1 else 1 / 4, 2, hs, hp,
    hp, by intro i _; dsimp only; split_ifs <;> norm_num, by norm_num, by norm_num, ?_⟩
  have e1 : logInterp 2 (fun i => if i = 0 then (1 : ℝ) else 4) (fun i => if i = 0 then (1 : ℝ) else 4) 2 = 2 := by
    have := C71_power_law le_rfl hs hp (A := 1) (by norm_num) 1 (q := 2) (by norm_num)
    simpa using this
  have e2 : logInterp 2 (fun i => if i = 0 then (1 : ℝ) else 4) (fun i => if i = 0 then (1 : ℝ) else 1 / 4) 2 = 1 / 2 := by
    have := C71_power_law le_rfl hs hp (A := 1) (by norm_num) (-1) (q := 2) (by norm_num)
    have h2 : (fun i => 1 * (if i = 0 then (1 : ℝ) else 4) ^ (-1 : ℝ)) = fun i : ℕ => if i = 0 then (1 : ℝ) else 1 / 4 := by
      funext i; split_ifs <;> norm_num [Real.rpow_neg_one]
    rw [h2] at this
    rw [this, Real.rpow_neg_one]; norm_num
  rw [e1, e2]
  -- the interpolation of the sum lies on the chord in log-log: sqrt(2 * 17/4)
  obtain ⟨j, t, a, b, c, d, e, f⟩ := logInterp_geom le_rfl hs hp (q := 2) (by norm_num) (by norm_num)
  obtain rfl : j = 1 := by omega
  rw [f _ fun i _ => by dsimp only; split_ifs <;> norm_num]
  have ht : t = 1 / 2 := by
    have l4 : Real.log 4 = 2 * Real.log 2 := by
      rw [show (4 : ℝ) = 2 ^ 2 by norm_num, Real.log_pow]; norm_num
    have l2 : 0 < Real.log 2 := Real.log_pos (by norm_num)
    simp [l4] at e
    have : Real.log 2 * (1 - 2 * t) = 0 := by linarith
    rcases mul_eq_zero.mp this with h | h
    · exact absurd h l2.ne'
    · linarith
  subst ht
  norm_num
  rw [← Real.sqrt_eq_rpow, ← Real.sqrt_eq_rpow, ← Real.sqrt_mul (by norm_num)]
  exact Real.lt_sqrt_of_sq_lt (by norm_num)

/-- C92: with suffixes given, success is equivalent to at least one bin and every section and redshift distribution
being present; there is then one output per bin, in order, and output `i` is computed from its own section
`input_suffix` and its own redshift distribution only. -/
theorem C92_bins (T : Transformer) (c : CorrType) (density : ℝ) (base : String) (l : List String) (nb : Option ℕ)
    (spectra : String → Option Spectrum) (kernels : ℕ → Option Kernel) :
    ((∃ r, transform T c density base (some l) nb spectra kernels = .ok r) ↔
      l ≠ [] ∧ ∀ i < l.length, (∃ s, l[i]? = some s ∧ (spectra (base ++ "_" ++ s)).isSome) ∧ (kernels i).isSome) ∧
    ∀ r, transform T c density base (some l) nb spectra kernels = .ok r → r.1.length = l.length ∧ r.2 = T.kept ∧
      ∀ i s sp kn, l[i]? = some s → spectra (base ++ "_" ++ s) = some sp → kernels i = some kn →
        r.1[i]? = some (binOutput T c density sp kn) := by
  have hloop : ∀ is : List ℕ, (∀ i ∈ is, i < l.length) →
      ((∃ r, transformLoop T c density base (some l) spectra kernels is = .ok r) ↔
        ∀ i ∈ is, (∃ s, l[i]? = some s ∧ (spectra (base ++ "_" ++ s)).isSome) ∧ (kernels i).isSome) ∧
      ∀ r, transformLoop T c density base (some l) spectra kernels is = .ok r → r.length = is.length ∧
        ∀ (t : ℕ) i s sp kn, is[t]? = some i → l[i]? = some s → spectra (base ++ "_" ++ s) = some sp →
          kernels i = some kn → r[t]? = some (binOutput T c density sp kn) := by
    intro is
    induction is with
    | nil => intro _; exact ⟨⟨fun _ => by simp, fun _ => ⟨[], rfl⟩⟩, fun r h => by cases h; simp⟩
    | cons a is ih =>
      intro hb
      obtain ⟨ih1, ih2⟩ := ih fun i hi => hb i (List.mem_cons_of_mem _ hi)
      have ha := hb a List.mem_cons_self
      have hla : l[a]? = some l[a] := List.getElem?_eq_getElem ha
      have e0 : inputSection base (some l) a = .ok (base ++ "_" ++ l[a]) := by simp only [inputSection, hla]
      cases hs : spectra (base ++ "_" ++ l[a]) with
      | none =>
        have e : transformLoop T c density base (some l) spectra kernels (a :: is) = .error .blockError := by
          simp only [transformLoop, e0, hs]
        rw [e]
        refine ⟨⟨fun ⟨r, h⟩ => (by cases h), fun h => ?_⟩, fun r h => by cases h⟩
        obtain ⟨⟨s, h1, h2⟩, -⟩ := h a List.mem_cons_self
        rw [hla] at h1; cases h1
        simp [hs] at h2
      | some sp =>
        cases hk : kernels a with
        | none =>
          have e : transformLoop T c density base (some l) spectra kernels (a :: is) = .error .blockError := by
            simp only [transformLoop, e0, hs, hk]
          rw [e]
          refine ⟨⟨fun ⟨r, h⟩ => (by cases h), fun h => ?_⟩, fun r h => by cases h⟩
          have := (h a List.mem_cons_self).2
          simp [hk] at this
        | some kn =>
          cases hr : transformLoop T c density base (some l) spectra kernels is with
          | error er =>
            have e : transformLoop T c density base (some l) spectra kernels (a :: is) = .error er := by
              simp only [transformLoop, e0, hs, hk, hr]
            rw [e]
            refine ⟨⟨fun ⟨r, h⟩ => (by cases h), fun h => ?_⟩, fun r h => by cases h⟩
            obtain ⟨r, h'⟩ := ih1.mpr fun i hi => h i (List.mem_cons_of_mem _ hi)
            rw [hr] at h'; cases h'
          | ok r0 =>
            have e : transformLoop T c density base (some l) spectra kernels (a :: is) =
                .ok (binOutput T c density sp kn :: r0) := by
              simp only [transformLoop, e0, hs, hk, hr]
            rw [e]
            refine ⟨⟨fun _ i hi => ?_, fun _ => ⟨_, rfl⟩⟩, fun r h => ?_⟩
            · rcases List.mem_cons.mp hi with rfl | hi
              · exact ⟨⟨_, hla, by simp [hs]⟩, by simp [hk]⟩
              · exact ih1.mp ⟨r0, hr⟩ i hi
            · cases h
              obtain ⟨h1, h2⟩ := ih2 r0 hr
              refine ⟨by simp [h1], fun t i s sp' kn' ht hl hs' hk' => ?_⟩
              cases t with
              | zero =>
                simp at ht; subst ht
                rw [hla] at hl; cases hl
                rw [hs] at hs'; cases hs'
                rw [hk] at hk'; cases hk'
                simp
              | succ t => simpa using h2 t i s sp' kn' (by simpa using ht) hl hs' hk'
  obtain ⟨h1, h2⟩ := hloop (List.range l.length) fun i hi => List.mem_range.mp hi
  have hlen : l.length = 0 ↔ l = [] := List.length_eq_zero_iff
  cases hr : transformLoop T c density base (some l) spectra kernels (List.range l.length) with
  | error er =>
    have e : transform T c density base (some l) nb spectra kernels = .error er := by simp only [transform, hr]
    rw [e]
    refine ⟨⟨fun ⟨r, h⟩ => (by cases h), fun h => ?_⟩, fun r h => by cases h⟩
    obtain ⟨r, h'⟩ := h1.mpr fun i hi => h.2 i (List.mem_range.mp hi)
    rw [hr] at h'; cases h'
  | ok r0 =>
    have e : transform T c density base (some l) nb spectra kernels =
        if l.length = 0 then .error .unboundLocal else .ok (r0, T.kept) := by simp only [transform, hr]
    rw [e]
    by_cases h0 : l = []
    · subst h0; simp
    · rw [if_neg (fun h => h0 (hlen.mp h))]
      refine ⟨⟨fun _ => ⟨h0, fun i hi => h1.mp ⟨r0, hr⟩ i (List.mem_range.mpr hi)⟩, fun _ => ⟨_, rfl⟩⟩, fun r h => ?_⟩
      cases h
      obtain ⟨h3, h4⟩ := h2 r0 hr
      refine ⟨by simpa using h3, rfl, fun i s sp kn hi hs hk => h4 i i s sp kn ?_ hi hs hk⟩
      have : i < l.length := (List.getElem?_eq_some_iff.mp hi).1
      simp [this]

/-- C92: without suffixes every bin is computed from the same spectrum, with its own redshift distribution; the number
of bins is taken from the sample. -/
theorem C92_shared_spectrum (T : Transformer) (c : CorrType) (density : ℝ) (base : String) (n : ℕ) (hn : 0 < n)
    (spectra : String → Option Spectrum) (sp : Spectrum) (hs : spectra base = some sp) (kn : ℕ → Kernel) :
    ∃ r, transform T c density base none (some n) spectra (fun i => some (kn i)) = .ok (r, T.kept) ∧
      r = (List.range n).map fun i => binOutput T c density sp (kn i) := by
  have hloop : ∀ is : List ℕ, transformLoop T c density base none spectra (fun i => some (kn i)) is =
      .ok (is.map fun i => binOutput T c density sp (kn i)) := by
    intro is
    induction is with
    | nil => rfl
    | cons a is ih => simp only [transformLoop, inputSection, hs, ih, List.map_cons]
  refine ⟨_, ?_, rfl⟩
  simp only [transform, hloop, if_neg hn.ne']

/-! ## C93 -/

theorem Transformer.log_k (T : Transformer) (i : ℕ) :
    Real.log (T.k i) = Real.log T.kMin + i * ((Real.log T.kMax - Real.log T.kMin) / (T.n - 1)) := by
  have h10 : Real.log 10 ≠ 0 := (Real.log_pos (by norm_num)).ne'
  unfold Transformer.k npLinspace
  rw [Real.log_rpow (by norm_num)]
  unfold Real.logb
  field_simp

theorem Transformer.dlogr_eq (T : Transformer) :
    T.dlogr = (Real.log T.kMax - Real.log T.kMin) / (T.n - 1) := by
  unfold Transformer.dlogr
  rw [T.log_k, T.log_k]
  push_cast; ring

/-- C93: the wavenumbers run from `k_min` to `k_max` in equal logarithmic steps. -/
theorem C93_wavenumbers (T : Transformer) (hn : 2 ≤ T.n) (h0 : 0 < T.kMin) (h1 : 0 < T.kMax) :
    T.k 0 = T.kMin ∧ T.k (T.n - 1) = T.kMax ∧ ∀ i, Real.log (T.k (i + 1)) - Real.log (T.k i) = T.dlogr := by
  have hk : ∀ i, 0 < T.k i := fun i => Real.rpow_pos_of_pos (by norm_num) _
  have hn1 : ((T.n : ℝ) - 1) ≠ 0 := by
    have : (2 : ℝ) ≤ T.n := by exact_mod_cast hn
    linarith
  refine ⟨?_, ?_, fun i => ?_⟩
  · apply Real.log_injOn_pos (hk 0) h0
    rw [T.log_k]; simp
  · apply Real.log_injOn_pos (hk _) h1
    rw [T.log_k, Nat.cast_sub (by omega)]
    push_cast
    field_simp
    ring
  · rw [T.log_k, T.log_k, T.dlogr_eq]
    push_cast; ring

/-- C93: the separations are positive, strictly increasing and in equal logarithmic steps. -/
theorem C93_separations (T : Transformer) (hn : 2 ≤ T.n) (h0 : 0 < T.kMin) (h1 : T.kMin < T.kMax) (hkr : 0 < T.kr) :
    (∀ i, 0 < T.rp i) ∧ (∀ i j, i < j → T.rp i < T.rp j) ∧
      ∀ i, Real.log (T.rp (i + 1)) - Real.log (T.rp i) = T.dlogr := by
  have hd : 0 < T.dlogr := by
    rw [T.dlogr_eq]
    have : (2 : ℝ) ≤ T.n := by exact_mod_cast hn
    exact div_pos (sub_pos.mpr (Real.log_lt_log h0 h1)) (by linarith)
  have hm : 0 < T.kr / Real.exp (0.5 * (Real.log T.kMin + Real.log T.kMax)) := div_pos hkr (Real.exp_pos _)
  refine ⟨fun i => mul_pos (Real.exp_pos _) hm, fun i j hij => ?_, fun i => ?_⟩
  · unfold Transformer.rp
    refine mul_lt_mul_of_pos_right (Real.exp_lt_exp.mpr (mul_lt_mul_of_pos_right ?_ hd)) hm
    have : (i : ℝ) < j := by exact_mod_cast hij
    linarith
  · unfold Transformer.rp
    simp only
    rw [Real.log_mul (Real.exp_pos _).ne' hm.ne', Real.log_mul (Real.exp_pos _).ne' hm.ne', Real.log_exp, Real.log_exp]
    push_cast; ring

/-- C93: the separations returned are exactly those strictly inside the requested limits, in increasing order. -/
theorem C93_range (T : Transformer) (hn : 2 ≤ T.n) (h0 : 0 < T.kMin) (h1 : T.kMin < T.kMax) (hkr : 0 < T.kr) :
    (∀ i, i ∈ T.kept ↔ i < T.n ∧ T.rpMin < T.rp i ∧ T.rp i < T.rpMax) ∧
    (T.kept.map T.rp).Pairwise (· < ·) := by
  refine ⟨fun i => by simp [Transformer.kept], ?_⟩
  rw [List.pairwise_map]
  exact (List.pairwise_lt_range.sublist List.filter_sublist).imp fun h => (C93_separations T hn h0 h1 hkr).2.1 _ _ h

/-- C93: FFTLog pairs wavenumber `k_j` with the separation `kr / k_j` at the mirrored position.  The separations that
are reported (and by which the transform is divided) are smaller than those by one logarithmic step. -/
theorem C93_shifted (T : Transformer) (hn : 2 ≤ T.n) (i : ℕ)
    (hi : i < T.n) : T.rp i = T.kr / T.k (T.n - 1 - i) * Real.exp (-T.dlogr) := by
  have hk : ∀ i, 0 < T.k i := fun i => Real.rpow_pos_of_pos (by norm_num) _
  have hn1 : ((T.n : ℝ) - 1) ≠ 0 := by
    have : (2 : ℝ) ≤ T.n := by exact_mod_cast hn
    linarith
  have hd := T.dlogr_eq
  have hd' : (T.n - 1) * T.dlogr = Real.log T.kMax - Real.log T.kMin := by rw [hd]; field_simp
  unfold Transformer.rp
  simp only
  rw [← Real.exp_log (hk (T.n - 1 - i)), T.log_k, ← hd, div_eq_mul_inv, div_eq_mul_inv, ← Real.exp_neg,
    ← Real.exp_neg, mul_comm, mul_assoc, mul_assoc, ← Real.exp_add, ← Real.exp_add]
  congr 2
  rw [Nat.cast_sub (by omega), Nat.cast_sub (by omega)]
  push_cast
  linear_combination (1 / 2) * hd'

/-- C93: in particular they never agree. -/
theorem C93_not_dual (T : Transformer) (hn : 2 ≤ T.n) (h0 : 0 < T.kMin) (h1 : T.kMin < T.kMax) (hkr : 0 < T.kr) (i : ℕ)
    (hi : i < T.n) : T.rp i < T.kr / T.k (T.n - 1 - i) := by
  rw [C93_shifted T hn i hi]
  have hd : 0 < T.dlogr := by
    rw [T.dlogr_eq]
    have : (2 : ℝ) ≤ T.n := by exact_mod_cast hn
    exact div_pos (sub_pos.mpr (Real.log_lt_log h0 h1)) (by linarith)
  have hp : 0 < T.kr / T.k (T.n - 1 - i) := div_pos hkr (Real.rpow_pos_of_pos (by norm_num) _)
  have : Real.exp (-T.dlogr) < 1 := by
    rw [← Real.exp_zero, Real.exp_lt_exp]; linarith
  nlinarith

/-- a transformer with four wavenumbers 1, 10, 100, 1000 and a transform that sums its input -/
noncomputable def demoT : Transformer :=
  ⟨4, 1, 1000, 1 / 100, 10, 1, fun f _ => ∑ j ∈ Finset.range 4, f j⟩

example : IsMatrix demoT := ⟨fun _ _ => 1, fun f i => by simp [demoT]⟩

example : demoT.rp 0 < 1 / demoT.k 3 :=
  C93_not_dual demoT (by norm_num [demoT]) (by norm_num [demoT]) (by norm_num [demoT]) (by norm_num [demoT]) 0
    (by norm_num [demoT])

/-- two bins with their own sections succeed, a missing second section fails -/
example (sp : Spectrum) (kn : Kernel) :
    (∃ r, transform demoT .wp 1 "galaxy_power" (some ["1", "2"]) none
      (fun s => if s = "galaxy_power_1" ∨ s = "galaxy_power_2" then some sp else none) (fun _ => some kn) = .ok r) ∧
    ¬ ∃ r, transform demoT .wp 1 "galaxy_power" (some ["1", "2"]) none
      (fun s => if s = "galaxy_power_1" then some sp else none) (fun _ => some kn) = .ok r := by
  constructor
  · rw [(C92_bins demoT .wp 1 "galaxy_power" ["1", "2"] none _ _).1]
    refine ⟨by simp, fun i hi => ⟨?_, rfl⟩⟩
    obtain rfl | rfl : i = 0 ∨ i = 1 := by simp at hi; omega
    · exact ⟨"1", rfl, rfl⟩
    · exact ⟨"2", rfl, rfl⟩
  · rw [(C92_bins demoT .wp 1 "galaxy_power" ["1", "2"] none _ _).1]
    rintro ⟨-, h⟩
    obtain ⟨⟨s, h1, h2⟩, -⟩ := h 1 (by simp)
    cases h1
    revert h2
    simp

/-- the second bin of a sample without suffixes -/
example (sp : Spectrum) (kn : ℕ → Kernel) (c : CorrType) :
    ∃ r, transform demoT c 1 "galaxy_power" none (some 2) (fun s => if s = "galaxy_power" then some sp else none)
      (fun i => some (kn i)) = .ok (r, demoT.kept) ∧ r[1]? = some (binOutput demoT c 1 sp (kn 1)) := by
  obtain ⟨r, h, hr⟩ := C92_shared_spectrum demoT c 1 "galaxy_power" 2 (by norm_num)
    (fun s => if s = "galaxy_power" then some sp else none) sp (if_pos rfl) kn
  exact ⟨r, h, by rw [hr]; rfl⟩

end Verif.RealSpace

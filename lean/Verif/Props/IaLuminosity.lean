import Verif.Props.IaAmplitudes

/-! Property C75: normalisation of the luminosity distribution. -/

namespace Verif.Ia

open Verif.Lib Verif.Spec Finset

theorem foldl_min_le (xs : List ℝ) (x : ℝ) : xs.foldl min x ≤ x ∧ ∀ v ∈ xs, xs.foldl min x ≤ v := by
  induction xs generalizing x with
  | nil => simp
  | cons y ys ih =>
    obtain ⟨h1, h2⟩ := ih (min x y)
    simp only [List.foldl_cons]
    refine ⟨h1.trans (min_le_left _ _), fun v hv => ?_⟩
    rcases List.mem_cons.1 hv with rfl | hv
    · exact h1.trans (min_le_right _ _)
    · exact h2 v hv

theorem le_foldl_max (xs : List ℝ) (x : ℝ) : x ≤ xs.foldl max x ∧ ∀ v ∈ xs, v ≤ xs.foldl max x := by
  induction xs generalizing x with
  | nil => simp
  | cons y ys ih =>
    obtain ⟨h1, h2⟩ := ih (max x y)
    simp only [List.foldl_cons]
    refine ⟨(le_max_left _ _).trans h1, fun v hv => ?_⟩
    rcases List.mem_cons.1 hv with rfl | hv
    · exact (le_max_right _ _).trans h1
    · exact h2 v hv

theorem histRange_spec (x : ℝ) (xs : List ℝ) : (histRange x xs).1 < (histRange x xs).2 ∧
    ∀ v ∈ x :: xs, (histRange x xs).1 ≤ v ∧ v ≤ (histRange x xs).2 := by
  have hlo := foldl_min_le xs x
  have hhi := le_foldl_max xs x
  have hle : listMin x xs ≤ listMax x xs := hlo.1.trans hhi.1
  have hb : ∀ v ∈ x :: xs, listMin x xs ≤ v ∧ v ≤ listMax x xs := by
    intro v hv
    rcases List.mem_cons.1 hv with rfl | hv
    · exact ⟨hlo.1, hhi.1⟩
    · exact ⟨hlo.2 v hv, hhi.2 v hv⟩
  unfold histRange
  simp only
  split_ifs with h
  · refine ⟨by simp only; linarith, fun v hv => ?_⟩
    have := hb v hv
    simp only
    constructor <;> linarith
  · exact ⟨lt_of_le_of_ne hle h, hb⟩

theorem histEdge_step (x : ℝ) (xs : List ℝ) (n i : ℕ) :
    histEdge x xs n (i + 1) - histEdge x xs n i = ((histRange x xs).2 - (histRange x xs).1) / n := by
  simp only [histEdge]; push_cast; ring

theorem histEdge_zero (x : ℝ) (xs : List ℝ) (n : ℕ) : histEdge x xs n 0 = (histRange x xs).1 := by
  simp [histEdge]

theorem histEdge_last (x : ℝ) (xs : List ℝ) (n : ℕ) (hn : 0 < n) : histEdge x xs n n = (histRange x xs).2 := by
  have : (n : ℝ) ≠ 0 := by exact_mod_cast hn.ne'
  simp only [histEdge]; field_simp; ring

/-- every value is counted once -/
theorem histCount_sum (x : ℝ) (xs : List ℝ) (n : ℕ) (hn : 0 < n) :
    ∑ i ∈ range n, histCount x xs n i = (x :: xs).length := by
  classical
  obtain ⟨hr, hb⟩ := histRange_spec x xs
  have hpos : (0 : ℝ) < n := by exact_mod_cast hn
  have hstep : ∀ i, histEdge x xs n i < histEdge x xs n (i + 1) := by
    intro i
    have h1 : 0 < ((histRange x xs).2 - (histRange x xs).1) / n := div_pos (by linarith) hpos
    linarith [histEdge_step x xs n i]
  have key := sum_countP n (fun i v => histEdge x xs n i ≤ v ∧
    (v < histEdge x xs n (i + 1) ∨ (i + 1 = n ∧ v ≤ histEdge x xs n (i + 1)))) (fun _ => True) (x :: xs) ?_
  · unfold histCount
    have h2 : ((x :: xs).countP fun v => decide True) = (x :: xs).length := by simp
    rw [h2] at key
    rw [← key]
  · intro v hv
    obtain ⟨hlo, hhi⟩ := hb v hv
    obtain ⟨m, rfl⟩ : ∃ m, n = m + 1 := ⟨n - 1, by omega⟩
    rw [sum_range_succ]
    have e1 : ∀ i ∈ range m, (if histEdge x xs (m + 1) i ≤ v ∧ (v < histEdge x xs (m + 1) (i + 1) ∨
        (i + 1 = m + 1 ∧ v ≤ histEdge x xs (m + 1) (i + 1))) then 1 else 0) =
        if histEdge x xs (m + 1) i ≤ v ∧ v < histEdge x xs (m + 1) (i + 1) then 1 else 0 := by
      intro i hi
      have : i + 1 ≠ m + 1 := by have := mem_range.1 hi; omega
      simp only [this, false_and, or_false]
    rw [sum_congr rfl e1, indicator_telescope m (histEdge x xs (m + 1)) (fun i _ => (hstep i).le) v,
      histEdge_zero, histEdge_last x xs (m + 1) hn]
    by_cases hv' : v < histEdge x xs (m + 1) m
    · simp [hlo, hv', not_le.2 hv']
    · simp [hv', not_lt.1 hv', hhi]

theorem width_pos (x : ℝ) (xs : List ℝ) (n : ℕ) (hn : 0 < n) :
    0 < ((histRange x xs).2 - (histRange x xs).1) / n := by
  have := (histRange_spec x xs).1
  exact div_pos (by linarith) (by exact_mod_cast hn)

variable (a : Amplitudes) (gals : List (ℝ × ℝ))

/-- C75: in every redshift bin that contains a galaxy, the luminosity distribution returned by the code is a
histogram density: it is non-negative, its luminosity grid is uniform with a positive step, and it integrates
to 1 over the bins (sum of density times step). -/
theorem C75_histogram_normalised (nl i : ℕ) (hn : 0 < nl) (hne : a.loglumBin gals i ≠ []) :
    ∃ w, 0 < w ∧ (∀ j, (a.lumAndPdf gals nl i (j + 1)).1 - (a.lumAndPdf gals nl i j).1 = w) ∧
      (∀ j, 0 ≤ (a.lumAndPdf gals nl i j).2) ∧
      ∑ j ∈ range nl, (a.lumAndPdf gals nl i j).2 * w = 1 := by
  obtain ⟨l, ls, hl⟩ := List.exists_cons_of_ne_nil hne
  set x := (10 : ℝ) ^ l
  set xs := ls.map fun l => (10 : ℝ) ^ l
  have hval : ∀ j, a.lumAndPdf gals nl i j =
      (histEdge x xs nl j + 0.5 * ((histEdge x xs nl nl - histEdge x xs nl 0) / (1 * nl)), histDensity x xs nl j) := by
    intro j
    simp only [Amplitudes.lumAndPdf, hl, List.map_cons]
    rfl
  have hw := width_pos x xs nl hn
  refine ⟨_, hw, ?_, ?_, ?_⟩
  · intro j
    rw [hval, hval, ← histEdge_step x xs nl j]; simp only; ring
  · intro j
    rw [hval]
    simp only [histDensity, histEdge_step]
    positivity
  · simp only [hval, histDensity, histEdge_step]
    set w := ((histRange x xs).2 - (histRange x xs).1) / (nl : ℝ)
    have hL : ((x :: xs).length : ℝ) ≠ 0 := by simp; positivity
    have : ∀ j ∈ range nl, (histCount x xs nl j : ℝ) / ((x :: xs).length * w) * w =
        histCount x xs nl j / (x :: xs).length := by
      intro j _
      have := hw.ne'
      field_simp
    rw [sum_congr rfl this, ← sum_div, ← Nat.cast_sum, histCount_sum x xs nl hn, div_self hL]

/-- C75 (disagreement found): a redshift with no galaxy in the file has amplitude 0 for every non-negative
slope, even slope 0 (no luminosity dependence). -/
theorem C75_empty_bin (i : ℕ) (he : a.loglumBin gals i = []) (l0 beta : ℝ) :
    meanLL0ToBeta 10000 (fun j => (a.lumAndPdf gals 10000 i j).1) (fun j => (a.lumAndPdf gals 10000 i j).2) l0 beta
      = 0 := by
  have : ∀ j, a.lumAndPdf gals 10000 i j = (0, 0) := by
    intro j; simp [Amplitudes.lumAndPdf, he]
  simp only [meanLL0ToBeta, this, zero_mul, simpson_zero]

/-- Simpson's rule, on a uniform grid with an even number of points, of values that vanish except at the
two ends -/
theorem simpson_two_ends (p : ℕ) (hp : 2 ≤ p) (x y : ℕ → ℝ) (w : ℝ) (hw : 0 < w) (hx : ∀ j, x (j + 1) - x j = w)
    (hy : ∀ j, 0 < j → j + 1 < 2 * p → y j = 0) :
    simpson (2 * p) x y = w / 3 * y 0 + 5 * w / 12 * y (2 * p - 1) := by
  have h1 : ¬ (2 * p) % 2 = 1 := by omega
  have h2 : 2 * p ≠ 0 := by omega
  have h3 : 2 * p ≠ 2 := by omega
  obtain ⟨q, rfl⟩ : ∃ q, p = q + 2 := ⟨p - 2, by omega⟩
  rw [simpson, if_neg h1, if_neg h2, if_neg h3]
  have hb : basicSimpson (2 * (q + 2) / 2 - 1) x y = w / 3 * y 0 := by
    rw [show 2 * (q + 2) / 2 - 1 = q + 1 by omega, basicSimpson, sum_range_succ', sum_eq_zero]
    · have e1 := hx 0; have e2 := hx 1
      norm_num at e1 e2
      have y1 := hy 1 (by omega) (by omega)
      have y2 := hy 2 (by omega) (by omega)
      simp only [mul_zero, zero_add, simpsonPanel, e1, e2, y1, y2]
      field_simp
      ring
    · intro i hi
      have hi := mem_range.1 hi
      rw [hy (2 * (i + 1)) (by omega) (by omega), hy (2 * (i + 1) + 1) (by omega) (by omega),
        hy (2 * (i + 1) + 2) (by omega) (by omega)]
      simp [simpsonPanel]
  rw [hb]
  congr 1
  have k1 : 2 * (q + 2) - 1 = (2 * q + 2) + 1 := by omega
  have k2 : 2 * (q + 2) - 2 = 2 * q + 2 := by omega
  have k3 : 2 * (q + 2) - 3 = 2 * q + 1 := by omega
  have e1 : x (2 * q + 2) - x (2 * q + 1) = w := hx (2 * q + 1)
  rw [k1, k2, k3, e1, hx, hy (2 * q + 1) (by omega) (by omega), hy (2 * q + 2) (by omega) (by omega), simpsonLast]
  field_simp
  ring

/-- the distribution of two different luminosities -/
theorem two_galaxies (x y : ℝ) (h : x < y) (n : ℕ) (hn : 2 ≤ n) :
    histEdge x [y] n 0 = x ∧ (∀ j, histEdge x [y] n (j + 1) - histEdge x [y] n j = (y - x) / n) ∧
    histCount x [y] n 0 = 1 ∧ histCount x [y] n (n - 1) = 1 ∧
    ∀ j, 0 < j → j + 1 < n → histCount x [y] n j = 0 := by
  have hr : histRange x [y] = (x, y) := by
    simp [histRange, listMin, listMax, min_eq_left h.le, max_eq_right h.le, h.ne]
  have he : ∀ j, histEdge x [y] n j = x + (y - x) * j / n := by
    intro j; simp only [histEdge, hr]
  have hn0 : (0 : ℝ) < n := by exact_mod_cast (by omega : 0 < n)
  have hd : 0 < y - x := by linarith
  have hlt : ∀ j : ℕ, 0 < j → x < histEdge x [y] n j := by
    intro j hj
    rw [he]
    have : 0 < (y - x) * j / n := div_pos (mul_pos hd (by exact_mod_cast hj)) hn0
    linarith
  have hlt' : ∀ j : ℕ, j < n → histEdge x [y] n j < y := by
    intro j hj
    rw [he]
    have : (y - x) * j / n < (y - x) * n / n := by
      gcongr
    rw [mul_div_assoc, mul_div_assoc, div_self hn0.ne', mul_one] at this
    rw [mul_div_assoc]
    linarith
  have hlast : histEdge x [y] n n = y := by
    rw [he]; field_simp; ring
  have h0 : histEdge x [y] n 0 = x := by rw [he]; simp
  refine ⟨h0, ?_, ?_, ?_, ?_⟩
  · intro j; rw [histEdge_step, hr]
  · unfold histCount
    have a1 := hlt 1 (by omega)
    have a2 := hlt' 1 (by omega)
    have a3 : ¬ (1 = n) := by omega
    simp only [zero_add, h0]
    rw [List.countP_cons_of_pos (by simp [a1]), List.countP_cons_of_neg]
    · simp
    · simp only [decide_eq_true_eq, not_and, not_or]
      intro _
      exact ⟨not_lt.2 a2.le, fun h => absurd h a3⟩
  · unfold histCount
    have e : n - 1 + 1 = n := by omega
    simp only [e, hlast]
    rw [List.countP_cons_of_neg, List.countP_cons_of_pos]
    · simp
    · simp [(hlt' (n - 1) (by omega)).le]
    · simp only [decide_eq_true_eq, not_and]
      intro hh
      exact absurd hh (not_le.2 (hlt (n - 1) (by omega)))
  · intro j hj hj'
    unfold histCount
    rw [List.countP_cons_of_neg, List.countP_cons_of_neg]
    · simp
    · simp only [decide_eq_true_eq, not_and, not_or]
      intro _
      exact ⟨not_lt.2 (hlt' (j + 1) hj').le, fun h => absurd h (by omega)⟩
    · simp only [decide_eq_true_eq, not_and]
      intro hh
      exact absurd hh (not_le.2 (hlt j hj))

/-- C75 (disagreement found): the amplitudes integrate that density with Simpson's rule, under which it is not
normalised.  For every redshift bin holding two galaxies of different luminosity, the amplitude with slope 0 -
which should be the amplitude itself - is 3/8 of it. -/
theorem C75_simpson_not_normalised (i : ℕ) (l1 l2 : ℝ) (h : l1 < l2) (hb : a.loglumBin gals i = [l1, l2])
    (hn : 2 ≤ a.nz) (l0 : ℝ) (hd : a.centralDep = "luminosity") (hp : a.lpivotCen = some l0)
    (hf : a.lumFileCen = some gals) (h2 : a.betaTwo = none) (hbeta : a.betaCen = 0) :
    ∃ amp, a.alignmentGi = .ok (some amp) ∧ amp i = 3 / 8 * a.gamma2h := by
  obtain ⟨amp, ha, hamp⟩ := (C52_luminosity a l0 gals hn).1 hd hp hf h2
  refine ⟨amp, ha, ?_⟩
  have hxy : (10 : ℝ) ^ l1 < (10 : ℝ) ^ l2 := Real.rpow_lt_rpow_of_exponent_lt (by norm_num) h
  set x := (10 : ℝ) ^ l1 with hx
  set y := (10 : ℝ) ^ l2 with hy
  have hval : ∀ j, a.lumAndPdf gals 10000 i j =
      (histEdge x [y] 10000 j + 0.5 * ((histEdge x [y] 10000 10000 - histEdge x [y] 10000 0) / (1 * (10000 : ℕ))),
        histDensity x [y] 10000 j) := by
    intro j
    simp only [Amplitudes.lumAndPdf, hb, List.map_cons, List.map_nil]
    rfl
  obtain ⟨-, hstep, hc0, hcl, hcm⟩ := two_galaxies x y hxy 10000 (by norm_num)
  have hw : 0 < (y - x) / (10000 : ℕ) := by
    have : 0 < y - x := by linarith
    positivity
  rw [hamp, hbeta, meanLL0ToBeta]
  simp only [Real.rpow_zero, mul_one]
  rw [show (10000 : ℕ) = 2 * 5000 by norm_num, simpson_two_ends 5000 (by norm_num) _ _ ((y - x) / (10000 : ℕ)) hw]
  · simp only [show 2 * 5000 = (10000 : ℕ) by norm_num, hval, histDensity, hstep, hc0,
      show (10000 : ℕ) - 1 = 9999 by norm_num] at *
    rw [hcl]
    have hw' := hw.ne'
    simp only [List.length_cons, List.length_nil]
    set w := (y - x) / ((10000 : ℕ) : ℝ)
    push_cast
    field_simp
    ring
  · intro j
    simp only [show 2 * 5000 = (10000 : ℕ) by norm_num, hval]
    rw [← hstep j]; ring
  · intro j hj hj'
    simp only [show 2 * 5000 = (10000 : ℕ) by norm_num, hval, histDensity]
    rw [hcm j hj (by omega)]
    simp

/-- a sample that meets the hypotheses -/
example : (demoAmp (fun i => i) 2 (some [(0, 0), (0, 1)])).loglumBin [(0, 0), (0, 1)] 0 = [0, 1] := by
  norm_num [Amplitudes.loglumBin, Amplitudes.zEdge, demoAmp, List.filter]

end Verif.Ia

import Verif.Model.Ia
import Mathlib.Analysis.Real.Pi.Bounds
import Mathlib.Analysis.SpecialFunctions.Integrals.Basic
import Mathlib.Analysis.SpecialFunctions.Gamma.Beta
import Mathlib.Tactic.Linarith
import Mathlib.Tactic.NormNum
import Mathlib.Tactic.IntervalCases

/-! Properties C46, C47, C75, C76: multipole tables of the satellite alignment. -/

namespace Verif.Ia

open Verif.Lib Finset

theorem sumE_ok (n : ℕ) (f : ℕ → Except PyErr ℝ) (g : ℕ → ℝ) (h : ∀ i < n, f i = .ok (g i)) :
    sumE n f = .ok (∑ i ∈ range n, g i) := by
  induction n with
  | zero => rfl
  | succ n ih =>
    rw [sumE, ih fun i hi => h i (by omega), h n (by omega), sum_range_succ]

theorem sumE_err (n : ℕ) (f : ℕ → Except PyErr ℝ) (e : PyErr) (i : ℕ) (hi : i < n) (h : f i = .error e)
    (hb : ∀ j < i, ∃ v, f j = .ok v) : sumE n f = .error e := by
  induction n with
  | zero => omega
  | succ n ih =>
    rcases Nat.lt_succ_iff_lt_or_eq.1 hi with hi | rfl
    · rw [sumE, ih hi]
    · choose! g hg using hb
      rw [sumE, sumE_ok i f g hg, h]

/-- the entries of `gj` -/
noncomputable def gjVal (j : ℕ) : ℝ := gj.getD j 0

theorem tableAt_ok (l : List ℝ) (i : ℕ) (h : i < l.length) : tableAt l i = .ok (l.getD i 0) := by
  simp [tableAt, List.getD, h]

theorem tableAt_err (l : List ℝ) (i : ℕ) (h : l.length ≤ i) : tableAt l i = .error .indexError := by
  simp [tableAt, h]

theorem sin_thetaK : Real.sin thetaK = 1 := Real.sin_pi_div_two
theorem cos_thetaK : Real.cos thetaK = 0 := Real.cos_pi_div_two

theorem binom_self (m : ℕ) : binom m m = 1 := by
  unfold binom
  have h : ∏ i ∈ range m, ((m : ℝ) - i) = m.factorial := by
    rw [← prod_range_reflect]
    rw [← prod_range_add_one_eq_factorial]
    push_cast
    refine prod_congr rfl fun i hi => ?_
    have := mem_range.1 hi
    rw [Nat.cast_sub (by omega), Nat.cast_sub (by omega)]
    push_cast; ring
  rw [h, div_self]
  exact_mod_cast m.factorial_ne_zero

theorem inner_ok (m : ℕ) (hm : m < 12) (g : ℝ) :
    sumE (m + 1) (fEllInner m g)
      = .ok (gjVal m * iX (m + g) 0) := by
  rw [sumE_ok (m + 1) _ (fun j => binom m j * gjVal j * Real.sin thetaK ^ j * Real.cos thetaK ^ (m - j) * iX (j + g) (m - j))]
  · rw [sum_range_succ, sum_eq_zero]
    · simp [binom_self, sin_thetaK]
    · intro j hj
      have : m - j ≠ 0 := by have := mem_range.1 hj; omega
      simp [cos_thetaK, this]
  · intro j hj
    rw [fEllInner, tableAt_ok gj j (by simp only [gj, List.length_cons, List.length_nil]; omega)]
    rfl

/-- the general expression for `ell <= 11` -/
theorem fEllGeneral_eq (ell : ℕ) (h : ell < 12) (g : ℝ) :
    fEllGeneral ell g = .ok (2 ^ ell * ∑ m ∈ range (ell + 1),
      binom ell m * binom (0.5 * (ell + m - 1)) ell * (gjVal m * iX (m + g) 0)) := by
  unfold fEllGeneral
  rw [sumE_ok (ell + 1) _ (fun m => binom ell m * binom (0.5 * (ell + m - 1)) ell * (gjVal m * iX (m + g) 0))]
  intro m hm
  rw [fEllOuter, inner_ok m (by omega) g]

theorem mem_ellValues (L : ℤ) (ell : ℕ) : ell ∈ ellValues L ↔ Even ell ∧ (ell : ℤ) ≤ L := by
  simp only [ellValues, List.mem_map, List.mem_range]
  constructor
  · rintro ⟨i, hi, rfl⟩
    exact ⟨⟨i, by ring⟩, by push_cast; omega⟩
  · rintro ⟨⟨i, hi⟩, h⟩
    exact ⟨i, by omega, by omega⟩

/-- C46: `ell_max` above 11 is refused, and for every accepted `ell_max` and slope, every multipole used
(the even numbers up to `ell_max`) has its angular factor and its radial array entry inside the tables, so
the alignment profile is computed without an IndexError. -/
theorem C46_lookups_in_range (L L' : ℤ) (h : setEllMax L = .ok L') (u : ℕ → ℝ) (g : ℝ) :
    L' = L ∧ L ≤ 11 ∧
    (∀ ell ∈ ellValues L, Even ell ∧ (ell : ℤ) ≤ L ∧ (∃ v, calculateFEll ell g = .ok v) ∧
      ell / 2 < (ellValues L).length) ∧
    ∃ v, wkmFEll L u g = .ok v := by
  have hL : L' = L ∧ L ≤ 11 := by
    unfold setEllMax at h
    split_ifs at h with h'
    injection h with h
    exact ⟨h.symm, by omega⟩
  obtain ⟨rfl, hL⟩ := hL
  have key : ∀ ell ∈ ellValues L', Even ell ∧ (ell : ℤ) ≤ L' ∧ (∃ v, calculateFEll ell g = .ok v) ∧
      ell / 2 < (ellValues L').length := by
    intro ell hm
    obtain ⟨he, hl⟩ := (mem_ellValues L' ell).1 hm
    refine ⟨he, hl, ?_, ?_⟩
    · unfold calculateFEll
      split_ifs
      · exact ⟨_, tableAt_ok _ _ (by simp only [table0, List.length_cons, List.length_nil]; omega)⟩
      · exact ⟨_, tableAt_ok _ _ (by simp only [tableM2, List.length_cons, List.length_nil]; omega)⟩
      · exact ⟨_, fEllGeneral_eq ell (by omega) g⟩
    · simp only [ellValues, List.length_map, List.length_range]
      omega
  refine ⟨rfl, hL, key, ?_⟩
  have : ∀ l : List ℕ, (∀ ell ∈ l, ell ∈ ellValues L') →
      ∃ v, wkmSum (ellValues L').length u g l = .ok v := by
    intro l
    induction l with
    | nil => intro _; exact ⟨0, rfl⟩
    | cons ell l ih =>
      intro hl
      obtain ⟨v, hv⟩ := ih fun e he => hl e (by simp [he])
      obtain ⟨-, -, ⟨f, hf⟩, hi⟩ := key ell (hl ell (by simp))
      simp only [wkmSum, wkmTerm, hf, hi, if_true, hv]
      exact ⟨_, rfl⟩
  obtain ⟨v, hv⟩ := this (ellValues L') (fun _ h => h)
  exact ⟨|v|, by simp only [wkmFEll, hv]⟩

example : setEllMax 6 = .ok 6 ∧ ellValues 6 = [0, 2, 4, 6] ∧ ellValues 11 = [0, 2, 4, 6, 8, 10] := by decide

/-- C46: values above 11 are refused with a ValueError. -/
theorem C46_rejected (L : ℤ) (h : 11 < L) : setEllMax L = .error .valueError := by
  simp [setEllMax, h]

/-- C46: and rightly so: 12 is a multiple of the step that the general expression cannot do (IndexError). -/
theorem C46_twelve_out_of_range (g : ℝ) (h0 : g ≠ 0) (h2 : g ≠ -2) (u : ℕ → ℝ) :
    calculateFEll 12 g = .error .indexError ∧ ∃ e, wkmFEll 12 u g = .error e := by
  have hf : calculateFEll 12 g = .error .indexError := by
    simp only [calculateFEll, h0, h2, if_false, fEllGeneral]
    rw [sumE_err _ _ .indexError 12 (by omega)]
    · rw [fEllOuter, sumE_err _ _ .indexError 12 (by omega)]
      · rw [fEllInner, tableAt_err _ _ (by simp [gj])]
      · intro j hj
        rw [fEllInner, tableAt_ok gj j (by simp only [gj, List.length_cons, List.length_nil]; omega)]
        exact ⟨_, rfl⟩
    · intro m hm
      rw [fEllOuter, inner_ok m (by omega) g]
      exact ⟨_, rfl⟩
  refine ⟨hf, ?_⟩
  have : ∀ l : List ℕ, 12 ∈ l → ∀ n, ∃ e, wkmSum n u g l = .error e := by
    intro l
    induction l with
    | nil => intro h; simp at h
    | cons a l ih =>
      intro h n
      rcases List.mem_cons.1 h with rfl | h
      · simp only [wkmSum, wkmTerm, hf]; exact ⟨_, rfl⟩
      · obtain ⟨e, he⟩ := ih h n
        simp only [wkmSum, he]
        cases wkmTerm n u g a with
        | error e => exact ⟨_, rfl⟩
        | ok v => exact ⟨_, rfl⟩
  obtain ⟨e, he⟩ := this (ellValues 12) (by decide) (ellValues 12).length
  exact ⟨e, by simp only [wkmFEll, he]⟩

/-! ## C47 -/

theorem iX_step (a : ℝ) (ha : -2 < a) : iX (a + 2) 0 = iX a 0 * ((a + 2) / (a + 3)) := by
  unfold iX
  have e1 : (a + 2) / 2 + 1 = (a / 2 + 1) + 1 := by ring
  have e2 : (a + 2) / 2 + ((0 : ℕ) : ℝ) / 2 + 3 / 2 = (a / 2 + ((0 : ℕ) : ℝ) / 2 + 3 / 2) + 1 := by ring
  have h1 : a / 2 + 1 ≠ 0 := by linarith
  have h2 : a / 2 + ((0 : ℕ) : ℝ) / 2 + 3 / 2 ≠ 0 := by push_cast; linarith
  rw [e1, e2, Real.Gamma_add_one h1, Real.Gamma_add_one h2]
  have hg : Real.Gamma (a / 2 + ((0 : ℕ) : ℝ) / 2 + 3 / 2) ≠ 0 :=
    (Real.Gamma_pos_of_pos (by push_cast; linarith)).ne'
  have h3 : a + 3 ≠ 0 := by linarith
  have h4 : a / 2 + ((0 : ℕ) : ℝ) / 2 + 3 / 2 = (a + 3) / 2 := by push_cast; ring
  rw [h4] at *
  field_simp

theorem iX_zero : iX 0 0 = 2 := by
  unfold iX
  have : Real.Gamma (0 / 2 + ((0 : ℕ) : ℝ) / 2 + 3 / 2) = 1 / 2 * Real.Gamma (1 / 2) := by
    rw [show (0 / 2 + ((0 : ℕ) : ℝ) / 2 + 3 / 2 : ℝ) = 1 / 2 + 1 by norm_num, Real.Gamma_add_one (by norm_num)]
  rw [this, show (((0 : ℕ) : ℝ) + 1) / 2 = 1 / 2 by norm_num, show (0 / 2 + 1 : ℝ) = 1 by norm_num,
    Real.Gamma_one]
  have hg : Real.Gamma (1 / 2) ≠ 0 := (Real.Gamma_pos_of_pos (by norm_num)).ne'
  field_simp
  norm_num

theorem iX_one : iX 1 0 = Real.pi / 2 := by
  unfold iX
  have e2 : (1 / 2 + ((0 : ℕ) : ℝ) / 2 + 3 / 2 : ℝ) = 2 := by norm_num
  rw [e2, Real.Gamma_two, Real.Gamma_add_one (by norm_num), show (((0 : ℕ) : ℝ) + 1) / 2 = 1 / 2 by norm_num,
    Real.Gamma_one_half_eq]
  have := Real.mul_self_sqrt Real.pi_pos.le
  norm_num
  nlinarith

/-- `∫ (1 - x²)^(a/2)` at the even and odd `a` needed -/
theorem iX_even : iX 2 0 = 4 / 3 ∧ iX 4 0 = 16 / 15 ∧ iX 6 0 = 32 / 35 ∧ iX 8 0 = 256 / 315 ∧
    iX 10 0 = 512 / 693 := by
  have a2 : iX 2 0 = 4 / 3 := by
    have := iX_step 0 (by norm_num); rw [iX_zero] at this; norm_num at this ⊢; exact this
  have a4 : iX 4 0 = 16 / 15 := by
    have := iX_step 2 (by norm_num); rw [a2] at this; norm_num at this ⊢; exact this
  have a6 : iX 6 0 = 32 / 35 := by
    have := iX_step 4 (by norm_num); rw [a4] at this; norm_num at this ⊢; exact this
  have a8 : iX 8 0 = 256 / 315 := by
    have := iX_step 6 (by norm_num); rw [a6] at this; norm_num at this ⊢; exact this
  have a10 : iX 10 0 = 512 / 693 := by
    have := iX_step 8 (by norm_num); rw [a8] at this; norm_num at this ⊢; exact this
  exact ⟨a2, a4, a6, a8, a10⟩

theorem iX_odd : iX 3 0 = 3 * Real.pi / 8 ∧ iX 5 0 = 5 * Real.pi / 16 ∧ iX 7 0 = 35 * Real.pi / 128 ∧
    iX 9 0 = 63 * Real.pi / 256 ∧ iX 11 0 = 231 * Real.pi / 1024 := by
  have a3 : iX 3 0 = 3 * Real.pi / 8 := by
    have := iX_step 1 (by norm_num); rw [iX_one] at this; norm_num at this ⊢; rw [this]; ring
  have a5 : iX 5 0 = 5 * Real.pi / 16 := by
    have := iX_step 3 (by norm_num); rw [a3] at this; norm_num at this ⊢; rw [this]; ring
  have a7 : iX 7 0 = 35 * Real.pi / 128 := by
    have := iX_step 5 (by norm_num); rw [a5] at this; norm_num at this ⊢; rw [this]; ring
  have a9 : iX 9 0 = 63 * Real.pi / 256 := by
    have := iX_step 7 (by norm_num); rw [a7] at this; norm_num at this ⊢; rw [this]; ring
  have a11 : iX 11 0 = 231 * Real.pi / 1024 := by
    have := iX_step 9 (by norm_num); rw [a9] at this; norm_num at this ⊢; rw [this]; ring
  exact ⟨a3, a5, a7, a9, a11⟩

theorem gjVals : gjVal 0 = 0 ∧ gjVal 1 = 0 ∧ gjVal 2 = Real.pi / 2 ∧ gjVal 3 = 0 ∧ gjVal 4 = Real.pi / 2 ∧
    gjVal 5 = 0 ∧ gjVal 6 = 15 * Real.pi / 32 ∧ gjVal 7 = 0 ∧ gjVal 8 = 7 * Real.pi / 16 ∧ gjVal 9 = 0 ∧
    gjVal 10 = 105 * Real.pi / 256 ∧ gjVal 11 = 0 := by
  simp [gjVal, gj]

/-- the sum over `m` has only even terms from 2 on -/
theorem general_even (ell : ℕ) (h : ell < 12) (g : ℝ) :
    fEllGeneral ell g = .ok (2 ^ ell * ∑ i ∈ range (ell / 2), binom ell (2 * i + 2) *
      binom (0.5 * (ell + (2 * i + 2 : ℕ) - 1)) ell * (gjVal (2 * i + 2) * iX ((2 * i + 2 : ℕ) + g) 0)) := by
  rw [fEllGeneral_eq ell h g]
  obtain ⟨g0, g1, -, g3, -, g5, -, g7, -, g9, -, g11⟩ := gjVals
  congr 2
  interval_cases ell <;>
    norm_num [sum_range_succ, g0, g1, g3, g5, g7, g9, g11]

end Verif.Ia

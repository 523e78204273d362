import Verif.Props.LegacyIa
import Verif.Props.IaAngular
import Verif.Lemmas.Simpson

/-! # C120: the angular factor of the legacy alignment for any angle -/

namespace Verif.LegacyIa

open Verif.Lib Verif.Spec Finset MeasureTheory

theorem simpson_sum {ι : Type} (s : Finset ι) (n : ℕ) (x : ℕ → ℝ) (f : ι → ℕ → ℝ) :
    simpson n x (fun i => ∑ a ∈ s, f a i) = ∑ a ∈ s, simpson n x (f a) := by
  classical
  induction s using Finset.induction_on with
  | empty => simpa using simpson_zero n x
  | insert a s ha ih =>
    simp only [sum_insert ha]
    rw [simpson_add, ih]

theorem binom_choose (m j : ℕ) (hm : m ≤ 11) (hj : j ≤ m) : Ia.binom m j = m.choose j := by
  interval_cases m <;> interval_cases j <;> norm_num [Ia.binom, prod_range_succ, Nat.factorial, Nat.choose]

/-- the azimuthal integral of a Legendre polynomial for any inclination -/
theorem azimuthal (l : ℕ) (h : l ≤ 11) (s c : ℝ) :
    ∫ φ in (0 : ℝ)..(2 * Real.pi), Real.cos (2 * φ) * legendre l (s * Real.cos φ + c) =
      ∑ m ∈ range (l + 1), 2 ^ l * (Ia.binom l m * Ia.binom (0.5 * (l + m - 1)) l) *
        ∑ j ∈ range (m + 1), Ia.binom m j * Ia.gjVal j * s ^ j * c ^ (m - j) := by
  have e : ∀ φ : ℝ, Real.cos (2 * φ) * legendre l (s * Real.cos φ + c) = ∑ m ∈ range (l + 1), ∑ j ∈ range (m + 1),
      2 ^ l * (Ia.binom l m * Ia.binom (0.5 * (l + m - 1)) l) * (Ia.binom m j * s ^ j * c ^ (m - j)) *
        (Real.cos (2 * φ) * Real.cos φ ^ j) := by
    intro φ
    rw [Ia.legendre_coeff l h, mul_sum]
    refine sum_congr rfl fun m hm => ?_
    have hm' := mem_range.1 hm
    rw [add_pow, mul_sum, mul_sum]
    refine sum_congr rfl fun j hj => ?_
    have hj' := mem_range.1 hj
    rw [binom_choose m j (by omega) (by omega), mul_pow]
    ring
  simp only [e]
  rw [intervalIntegral.integral_finsetSum]
  · refine sum_congr rfl fun m hm => ?_
    have hm' := mem_range.1 hm
    rw [intervalIntegral.integral_finsetSum, mul_sum]
    · refine sum_congr rfl fun j hj => ?_
      have hj' := mem_range.1 hj
      rw [intervalIntegral.integral_const_mul, Ia.gjVal_eq j (by omega)]
      ring
    · intro j _
      exact (by fun_prop : Continuous _).intervalIntegrable _ _
  · intro m _
    exact (by fun_prop : Continuous _).intervalIntegrable _ _

/-- For every inclination other than a right angle, every azimuth, slope and multipole up to 11: the legacy factor is the phase of the
azimuth times Simpson's rule, on 500 points between −1 and 1 without the ends, for the integral over the cosine of the polar angle of the
azimuthal integral of the Legendre polynomial of the cosine between the two directions. -/
theorem C120_angular (theta phi g : ℝ) (l : ℕ) (h : l ≤ 11) (ht : theta ≠ Real.pi / 2) :
    let x := linspace (-1 + 1e-10) (1 - 1e-10) 500
    fEll theta phi l g = .ok ((simpson 500 x fun i => (1 - x i ^ 2) ^ (g / 2) *
      ∫ φ in (0 : ℝ)..(2 * Real.pi), Real.cos (2 * φ) *
        legendre l (Real.sin theta * √(1 - x i ^ 2) * Real.cos φ + Real.cos theta * x i) : ℝ) * Complex.exp (2 * phi * Complex.I)) := by
  intro x
  have hgj : ∀ j ≤ 11, gj[j]? = some (Ia.gjVal j) := fun j hj => by
    have : gj = Ia.gj := rfl
    rw [this, Ia.gjVal, List.getD_eq_getElem?_getD]
    have hl : j < Ia.gj.length := by simp only [Ia.gj, List.length_cons, List.length_nil]; omega
    rw [List.getElem?_eq_getElem hl]
    rfl
  have h2 : ∀ m ≤ 11, sum2 theta g m = .ok (∑ j ∈ range (m + 1), Ia.binom m j * Ia.gjVal j * Real.sin theta ^ j *
      Real.cos theta ^ (m - j) * iX (j + g) (m - j)) := fun m hm => by
    rw [sum2, Ia.sumE_ok]
    intro j hj
    rw [hgj j (by omega)]
  have h1 : sum1 theta g l = .ok (∑ m ∈ range (l + 1), Ia.binom l m * Ia.binom (0.5 * (l + m - 1)) l *
      ∑ j ∈ range (m + 1), Ia.binom m j * Ia.gjVal j * Real.sin theta ^ j * Real.cos theta ^ (m - j) * iX (j + g) (m - j)) := by
    rw [sum1, Ia.sumE_ok]
    intro m hm
    rw [h2 m (by omega)]
  have hx : ∀ i < 500, 0 < 1 - x i ^ 2 := fun i hi => by
    have hi' : (i : ℝ) ≤ 499 := by exact_mod_cast (by omega : i ≤ 499)
    have h0 : (0 : ℝ) ≤ i := Nat.cast_nonneg i
    have e : x i = -1 + 1e-10 + i * ((1 - 1e-10 - (-1 + 1e-10)) / 499) := by
      simp only [x, linspace]
      norm_num
    have a : -1 < x i := by rw [e]; nlinarith
    have b : x i < 1 := by rw [e]; nlinarith
    nlinarith
  have hval : (simpson 500 x fun i => (1 - x i ^ 2) ^ (g / 2) *
      ∫ φ in (0 : ℝ)..(2 * Real.pi), Real.cos (2 * φ) *
        legendre l (Real.sin theta * √(1 - x i ^ 2) * Real.cos φ + Real.cos theta * x i)) =
      2 ^ l * ∑ m ∈ range (l + 1), Ia.binom l m * Ia.binom (0.5 * (l + m - 1)) l *
        ∑ j ∈ range (m + 1), Ia.binom m j * Ia.gjVal j * Real.sin theta ^ j * Real.cos theta ^ (m - j) * iX (j + g) (m - j) := by
    have e : ∀ i < 500, (1 - x i ^ 2) ^ (g / 2) * (∫ φ in (0 : ℝ)..(2 * Real.pi), Real.cos (2 * φ) *
        legendre l (Real.sin theta * √(1 - x i ^ 2) * Real.cos φ + Real.cos theta * x i)) =
        ∑ m ∈ range (l + 1), ∑ j ∈ range (m + 1), 2 ^ l * (Ia.binom l m * Ia.binom (0.5 * (l + m - 1)) l) *
          (Ia.binom m j * Ia.gjVal j * Real.sin theta ^ j * Real.cos theta ^ (m - j)) *
          ((1 - x i ^ 2) ^ (((j : ℝ) + g) / 2) * x i ^ (m - j)) := fun i hi => by
      rw [azimuthal l h, mul_sum]
      refine sum_congr rfl fun m _ => ?_
      rw [mul_sum, mul_sum]
      refine sum_congr rfl fun j _ => ?_
      have e : (1 - x i ^ 2) ^ (((j : ℝ) + g) / 2) = (1 - x i ^ 2) ^ (g / 2) * √(1 - x i ^ 2) ^ j := by
        have hpos := hx i hi
        generalize 1 - x i ^ 2 = w at hpos
        rw [Real.sqrt_eq_rpow, ← Real.rpow_natCast, ← Real.rpow_mul hpos.le, ← Real.rpow_add hpos]
        congr 1; ring
      rw [e, mul_pow, mul_pow]
      ring
    rw [simpson_congr_right e, simpson_sum, mul_sum]
    refine sum_congr rfl fun m _ => ?_
    rw [simpson_sum, mul_sum, mul_sum]
    refine sum_congr rfl fun j _ => ?_
    rw [simpson_smul]
    simp only [iX]
    ring
  have hphase : phase phi = Complex.exp (2 * phi * Complex.I) := by
    rw [Complex.exp_mul_I]
    refine Complex.ext ?_ ?_
    · simp [phase, ← Complex.ofReal_ofNat, ← Complex.ofReal_mul, ← Complex.ofReal_cos, ← Complex.ofReal_sin]
    · simp [phase, ← Complex.ofReal_ofNat, ← Complex.ofReal_mul, ← Complex.ofReal_cos, ← Complex.ofReal_sin]
  rw [fEll, if_neg ht, h1, hval, hphase]
  push_cast
  rfl

/-- The hypothesis holds along the line of sight. -/
example : (0 : ℝ) ≠ Real.pi / 2 := by have := Real.pi_pos; intro h; linarith

end Verif.LegacyIa

import Verif.Model.FftLog
import Mathlib.RingTheory.RootsOfUnity.Complex

/-! The real discrete Fourier transform in packed layout: inversion, and the coefficients of a reversed array. -/

namespace Verif.FftLog

open Finset ComplexConjugate

/-- `exp(2πi t)` -/
noncomputable def ee (t : ℝ) : ℂ := Complex.exp (2 * Real.pi * Complex.I * t)

theorem ee_add (s t : ℝ) : ee (s + t) = ee s * ee t := by
  unfold ee; rw [← Complex.exp_add]; congr 1; push_cast; ring

theorem ee_zero : ee 0 = 1 := by simp [ee]

theorem ee_int (k : ℤ) : ee k = 1 := by
  unfold ee
  rw [Complex.exp_eq_one_iff]
  exact ⟨k, by push_cast; ring⟩

theorem ee_ne_zero (t : ℝ) : ee t ≠ 0 := Complex.exp_ne_zero _

theorem ee_neg (t : ℝ) : ee (-t) = (ee t)⁻¹ := by
  refine eq_inv_of_mul_eq_one_left ?_
  rw [← ee_add]; simp [ee_zero]

theorem ee_conj (t : ℝ) : conj (ee t) = ee (-t) := by
  unfold ee
  rw [← Complex.exp_conj]
  congr 1
  simp [map_ofNat]

theorem ee_add_int (t : ℝ) (k : ℤ) : ee (t + k) = ee t := by rw [ee_add, ee_int, mul_one]

theorem ee_pow (t : ℝ) (j : ℕ) : ee t ^ j = ee (j * t) := by
  unfold ee; rw [← Complex.exp_nat_mul]; congr 1; push_cast; ring

theorem ee_eq_one_iff (t : ℝ) : ee t = 1 ↔ ∃ k : ℤ, t = k := by
  constructor
  · intro h
    unfold ee at h
    rw [Complex.exp_eq_one_iff] at h
    obtain ⟨k, hk⟩ := h
    refine ⟨k, ?_⟩
    have h2 : (2 * Real.pi * Complex.I : ℂ) ≠ 0 := by
      simp [Real.pi_ne_zero]
    have : (t : ℂ) = k := by
      apply mul_left_cancel₀ h2
      rw [hk]; ring
    exact_mod_cast this
  · rintro ⟨k, rfl⟩
    exact ee_int k

/-- orthogonality of the characters -/
theorem sum_ee {n : ℕ} (hn : 0 < n) (d : ℤ) :
    ∑ j ∈ range n, ee (j * (d / n)) = if (n : ℤ) ∣ d then (n : ℂ) else 0 := by
  have hn' : (n : ℝ) ≠ 0 := by positivity
  simp_rw [← ee_pow]
  split_ifs with h
  · obtain ⟨k, rfl⟩ := h
    have : ee (((n : ℤ) * k : ℤ) / n) = 1 := by
      rw [ee_eq_one_iff]
      exact ⟨k, by push_cast; field_simp⟩
    rw [sum_congr rfl fun j _ => by rw [this, one_pow]]
    simp
  · have h1 : ee (d / n) ≠ 1 := by
      rw [Ne, ee_eq_one_iff]
      rintro ⟨k, hk⟩
      apply h
      rw [div_eq_iff hn'] at hk
      exact ⟨k, by exact_mod_cast (by rw [hk]; ring : (d : ℝ) = n * k)⟩
    have h2 : ee (d / n) ^ n = 1 := by
      rw [ee_pow, mul_div_cancel₀ _ hn', ee_int]
    rw [geom_sum_eq h1, h2, sub_self, zero_div]

theorem dft_eq (n : ℕ) (a : ℕ → ℝ) (m : ℕ) : dft n a m = ∑ j ∈ range n, (a j : ℂ) * ee (-(j * m / n)) := by
  unfold dft ee
  refine sum_congr rfl fun j _ => ?_
  congr 2; push_cast; ring

theorem irfft_eq (n : ℕ) (y : ℕ → ℝ) (j : ℕ) :
    irfft n y j = ((∑ m ∈ range n, unpack n y m * ee (j * m / n)) / n).re := by
  have : ∀ m : ℕ, Complex.exp (2 * Real.pi * Complex.I * (j * m / n)) = ee (j * m / n) := by
    intro m
    unfold ee
    congr 1; push_cast; ring
  unfold irfft
  simp_rw [this]

/-- coefficients above `n/2` of a real array -/
theorem dft_conj {n : ℕ} (hn : 0 < n) (a : ℕ → ℝ) {m : ℕ} (hm : m ≤ n) : dft n a (n - m) = conj (dft n a m) := by
  rw [dft_eq, dft_eq, map_sum]
  refine sum_congr rfl fun j _ => ?_
  have hn' : (n : ℝ) ≠ 0 := by positivity
  rw [map_mul, Complex.conj_ofReal, ee_conj, neg_neg]
  congr 1
  have : (-(j * ((n - m : ℕ) : ℝ) / n) : ℝ) = j * m / n + ((-j : ℤ) : ℝ) := by
    push_cast [Nat.cast_sub hm]; field_simp; ring
  rw [this, ee_add_int]

/-- the packed array stands for the Fourier coefficients -/
theorem unpack_rfft {n : ℕ} (hn : 0 < n) (a : ℕ → ℝ) {m : ℕ} (hm : m < n) : unpack n (rfft n a) m = dft n a m := by
  have im0 : ∀ m, m ≤ n → n - m = m ∨ m = 0 → (dft n a m).im = 0 := by
    intro m hm h
    rcases h with h | rfl
    · have := dft_conj hn a hm
      rw [h] at this
      have h2 := congrArg Complex.im this
      rw [Complex.conj_im] at h2
      linarith
    · rw [dft_eq]; simp [ee_zero]
  unfold unpack
  split_ifs with h0 h1 h2
  · subst h0
    apply Complex.ext
    · simp [rfft]
    · rw [im0 0 (by omega) (Or.inr rfl)]; simp
  · apply Complex.ext
    · simp only [rfft]
      rw [if_neg (by omega), if_pos (by omega), show (2 * m - 1 + 1) / 2 = m by omega]
    · simp only [rfft]
      rw [if_neg (by omega), if_neg (by omega), show 2 * m / 2 = m by omega]
  · apply Complex.ext
    · simp only [rfft, Complex.ofReal_re]
      rw [if_neg (by omega), if_pos (by omega), show (n - 1 + 1) / 2 = m by omega]
    · rw [im0 m hm.le (Or.inl (by omega))]; simp
  · have e := dft_conj hn a (m := n - m) (by omega)
    rw [show n - (n - m) = m by omega] at e
    rw [e]
    apply Complex.ext
    · simp only [rfft, Complex.conj_re]
      rw [if_neg (by omega), if_pos (by omega), show (2 * (n - m) - 1 + 1) / 2 = n - m by omega]
    · simp only [rfft, Complex.conj_im]
      rw [if_neg (by omega), if_neg (by omega), show 2 * (n - m) / 2 = n - m by omega]

theorem unpack_conj {n : ℕ} (y : ℕ → ℝ) {m : ℕ} (h0 : 0 < m) (hm : m < n) : unpack n y (n - m) = conj (unpack n y m) := by
  unfold unpack
  rw [if_neg (by omega : ¬ n - m = 0), if_neg (by omega : ¬ m = 0)]
  rcases lt_trichotomy (2 * m) n with h | h | h
  · rw [if_neg (by omega), if_neg (by omega), if_pos h, show n - (n - m) = m by omega]
    apply Complex.ext <;> simp
  · rw [if_neg (by omega), if_pos (by omega), if_neg (by omega), if_pos h]
    simp
  · rw [if_pos (by omega), if_neg (by omega), if_neg (by omega)]
    apply Complex.ext <;> simp

/-- the sum in `irfft` is real -/
theorem irfft_complex {n : ℕ} (hn : 0 < n) (y : ℕ → ℝ) (j : ℕ) :
    (irfft n y j : ℂ) = (∑ m ∈ range n, unpack n y m * ee (j * m / n)) / n := by
  have hn' : (n : ℝ) ≠ 0 := by positivity
  set S := ∑ m ∈ range n, unpack n y m * ee (j * m / n) with hS
  have hc : conj S = S := by
    obtain ⟨p, rfl⟩ : ∃ p, n = p + 1 := ⟨n - 1, by omega⟩
    rw [hS, sum_range_succ', map_add, map_sum]
    congr 1
    · rw [← sum_range_reflect]
      refine sum_congr rfl fun m hm => ?_
      rw [mem_range] at hm
      have e : p - 1 - m + 1 = p + 1 - (m + 1) := by omega
      rw [map_mul, e, unpack_conj y (by omega) (by omega), Complex.conj_conj, ee_conj]
      congr 1
      have : (-(j * ((p + 1 - (m + 1) : ℕ) : ℝ) / ((p + 1 : ℕ) : ℝ)) : ℝ)
          = j * ((m + 1 : ℕ) : ℝ) / ((p + 1 : ℕ) : ℝ) + ((-j : ℤ) : ℝ) := by
        rw [Nat.cast_sub (by omega)]; field_simp; push_cast; ring
      rw [this, ee_add_int]
    · rw [map_mul, ee_conj]
      simp [unpack, ee_zero]
  rw [irfft_eq, ← hS]
  have : conj (S / n) = S / n := by rw [map_div₀, hc, Complex.conj_natCast]
  exact Complex.conj_eq_iff_re.1 this

/-- `rfft` undoes `irfft` -/
theorem dft_irfft {n : ℕ} (hn : 0 < n) (y : ℕ → ℝ) {m : ℕ} (hm : m < n) : dft n (irfft n y) m = unpack n y m := by
  have hn' : (n : ℝ) ≠ 0 := by positivity
  have hnc : (n : ℂ) ≠ 0 := by exact_mod_cast hn.ne'
  rw [dft_eq]
  simp_rw [irfft_complex hn, div_mul_eq_mul_div, sum_mul]
  rw [← sum_div, sum_comm]
  have : ∀ l ∈ range n, ∑ j ∈ range n, unpack n y l * ee (j * l / n) * ee (-(j * m / n)) =
      if l = m then unpack n y m * n else 0 := by
    intro l hl
    rw [mem_range] at hl
    have e : ∀ j : ℕ, unpack n y l * ee (j * l / n) * ee (-(j * m / n)) =
        unpack n y l * ee (j * (((l : ℤ) - m : ℤ) / n)) := by
      intro j
      rw [mul_assoc, ← ee_add]
      congr 2; push_cast; ring
    simp_rw [e]
    rw [← mul_sum, sum_ee hn]
    by_cases h : l = m
    · subst h; simp
    · rw [if_neg h, if_neg, mul_zero]
      rintro ⟨k, hk⟩
      have hk0 : k = 0 := by
        by_contra hk0
        have := Int.le_of_dvd (a := (n : ℤ)) (b := |(l : ℤ) - m|) (by
          rw [abs_pos, hk]; exact mul_ne_zero (by omega) hk0) ((dvd_abs _ _).2 ⟨k, hk⟩)
        rcases abs_cases ((l : ℤ) - m) with h' | h' <;> omega
      subst hk0
      omega
  rw [sum_congr rfl this, sum_ite_eq' , if_pos (mem_range.2 hm), mul_div_assoc, div_self hnc, mul_one]

/-- a real array is determined by its Fourier coefficients -/
theorem eq_of_dft {n : ℕ} (hn : 0 < n) (a b : ℕ → ℝ) (h : ∀ m < n, dft n a m = dft n b m) {j : ℕ} (hj : j < n) : a j = b j := by
  have hnc : (n : ℂ) ≠ 0 := by exact_mod_cast hn.ne'
  have inv : ∀ c : ℕ → ℝ, ∑ m ∈ range n, dft n c m * ee (j * m / n) = n * c j := by
    intro c
    simp_rw [dft_eq, sum_mul]
    rw [sum_comm]
    have : ∀ l ∈ range n, ∑ m ∈ range n, (c l : ℂ) * ee (-(l * m / n)) * ee (j * m / n) =
        if l = j then (n : ℂ) * c j else 0 := by
      intro l hl
      rw [mem_range] at hl
      have e : ∀ m : ℕ, (c l : ℂ) * ee (-(l * m / n)) * ee (j * m / n) = c l * ee (m * (((j : ℤ) - l : ℤ) / n)) := by
        intro m
        rw [mul_assoc, ← ee_add]
        congr 2; push_cast; ring
      simp_rw [e]
      rw [← mul_sum, sum_ee hn]
      by_cases h : l = j
      · subst h; simp [mul_comm]
      · rw [if_neg h, if_neg, mul_zero]
        rintro ⟨k, hk⟩
        have hk0 : k = 0 := by
          by_contra hk0
          have := Int.le_of_dvd (a := (n : ℤ)) (b := |(j : ℤ) - l|) (by
            rw [abs_pos, hk]; exact mul_ne_zero (by omega) hk0) ((dvd_abs _ _).2 ⟨k, hk⟩)
          rcases abs_cases ((j : ℤ) - l) with h' | h' <;> omega
        subst hk0
        omega
    rw [sum_congr rfl this, sum_ite_eq', if_pos (mem_range.2 hj)]
  have e : (n : ℂ) * a j = n * b j := by
    rw [← inv a, ← inv b]
    exact sum_congr rfl fun m hm => by rw [h m (mem_range.1 hm)]
  exact_mod_cast mul_left_cancel₀ hnc e

/-- coefficients of a reversed array -/
theorem dft_reverse {n : ℕ} (hn : 0 < n) (a : ℕ → ℝ) (m : ℕ) :
    dft n (fun j => a (n - 1 - j)) m = ee (m / n) * conj (dft n a m) := by
  have hn' : (n : ℝ) ≠ 0 := by positivity
  rw [dft_eq, dft_eq, map_sum, mul_sum, ← sum_range_reflect]
  refine sum_congr rfl fun j hj => ?_
  rw [mem_range] at hj
  rw [show n - 1 - (n - 1 - j) = j by omega, map_mul, Complex.conj_ofReal, ee_conj, neg_neg, mul_left_comm, ← ee_add]
  congr 1
  have : (-(((n - 1 - j : ℕ) : ℝ) * m / n) : ℝ) = m / n + j * m / n + ((-m : ℤ) : ℝ) := by
    rw [Nat.sub_sub, Nat.cast_sub (by omega)]; push_cast; field_simp; ring
  rw [this, ee_add_int]

theorem dft_smul (n : ℕ) (c : ℝ) (a : ℕ → ℝ) (m : ℕ) : dft n (fun j => c * a j) m = c * dft n a m := by
  unfold dft; rw [mul_sum]; exact sum_congr rfl fun j _ => by push_cast; ring

theorem dft_add (n : ℕ) (a b : ℕ → ℝ) (m : ℕ) : dft n (fun j => a j + b j) m = dft n a m + dft n b m := by
  unfold dft; rw [← sum_add_distrib]; exact sum_congr rfl fun j _ => by push_cast; ring

theorem dft_congr {n : ℕ} {a b : ℕ → ℝ} (h : ∀ j < n, a j = b j) (m : ℕ) : dft n a m = dft n b m := by
  unfold dft; exact sum_congr rfl fun j hj => by rw [h j (mem_range.1 hj)]

/-- Parseval -/
theorem parseval {n : ℕ} (hn : 0 < n) (a : ℕ → ℝ) :
    ∑ m ∈ range n, Complex.normSq (dft n a m) = n * ∑ j ∈ range n, a j ^ 2 := by
  have key : ∀ m ∈ range n, ((Complex.normSq (dft n a m) : ℝ) : ℂ) =
      ∑ j ∈ range n, ∑ l ∈ range n, (a j : ℂ) * a l * ee (m * (((l : ℤ) - j : ℤ) / n)) := by
    intro m _
    rw [← Complex.mul_conj, dft_eq, map_sum, sum_mul_sum]
    refine sum_congr rfl fun j _ => sum_congr rfl fun l _ => ?_
    rw [map_mul, Complex.conj_ofReal, ee_conj, neg_neg, mul_mul_mul_comm, ← ee_add]
    congr 2; push_cast; ring
  have : ((∑ m ∈ range n, Complex.normSq (dft n a m) : ℝ) : ℂ) = ((n * ∑ j ∈ range n, a j ^ 2 : ℝ) : ℂ) := by
    push_cast
    rw [sum_congr rfl key, sum_comm, mul_sum]
    refine sum_congr rfl fun j hj => ?_
    rw [mem_range] at hj
    rw [sum_comm]
    have e : ∀ l ∈ range n, ∑ m ∈ range n, (a j : ℂ) * a l * ee (m * (((l : ℤ) - j : ℤ) / n)) =
        if l = j then (n : ℂ) * a j ^ 2 else 0 := by
      intro l hl
      rw [mem_range] at hl
      rw [← mul_sum, sum_ee hn]
      by_cases h : l = j
      · subst h; simp; ring
      · rw [if_neg h, if_neg, mul_zero]
        rintro ⟨k, hk⟩
        have hk0 : k = 0 := by
          by_contra hk0
          have := Int.le_of_dvd (a := (n : ℤ)) (b := |(l : ℤ) - j|) (by
            rw [abs_pos, hk]; exact mul_ne_zero (by omega) hk0) ((dvd_abs _ _).2 ⟨k, hk⟩)
          rcases abs_cases ((l : ℤ) - j) with h' | h' <;> omega
        subst hk0
        omega
    rw [sum_congr rfl e, sum_ite_eq', if_pos (mem_range.2 hj)]
  exact_mod_cast this

end Verif.FftLog

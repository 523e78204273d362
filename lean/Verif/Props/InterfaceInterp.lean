import Verif.Model.Interface
import Verif.Lemmas.Interp
import Mathlib.Tactic.Linarith
import Mathlib.Tactic.Ring
import Mathlib.Tactic.FieldSimp
import Mathlib.Tactic.NormNum
import Mathlib.Tactic.Positivity

/-! # Interpolation helpers of the CosmoSIS module (C86, C87) -/

namespace Verif.Interface

open Verif.Lib Verif.Spec

theorem logSorted {n : ℕ} {k : ℕ → ℝ} (hk : SortedOn n k) (hp : ∀ i < n, 0 < k i) :
    SortedOn n fun i => Real.log (k i) := by
  intro i j hij hj
  exact Real.log_lt_log (hp i (by omega)) (hk i j hij hj)

/-- C86: the interpolated spectrum is positive everywhere, whatever the input. -/
theorem C86_positive (n : ℕ) (kIn power : ℕ → ℝ) (k : ℝ) : 0 < logLinearK n kIn power k := Real.exp_pos _

/-- C86: it reproduces a positive input at the input wavenumbers. -/
theorem C86_nodes {n : ℕ} (hn : 2 ≤ n) {kIn : ℕ → ℝ} (hk : SortedOn n kIn) (hp : ∀ i < n, 0 < kIn i)
    {power : ℕ → ℝ} (hpw : ∀ i < n, 0 < power i) {i : ℕ} (hi : i < n) :
    logLinearK n kIn power (kIn i) = power i := by
  unfold logLinearK
  rw [interp1d_node hn (logSorted hk hp) _ _ hi, Real.exp_log (hpw i hi)]

/-- C86: a power law is reproduced exactly at every positive wavenumber, inside and outside the input range. -/
theorem C86_power_law {n : ℕ} (hn : 2 ≤ n) {kIn : ℕ → ℝ} (hk : SortedOn n kIn) (hp : ∀ i < n, 0 < kIn i)
    {A s : ℝ} (hA : 0 < A) {k : ℝ} (hkk : 0 < k) :
    logLinearK n kIn (fun i => A * kIn i ^ s) k = A * k ^ s := by
  unfold logLinearK
  have h : ∀ i < n, Real.log (A * kIn i ^ s) = Real.log A + s * Real.log (kIn i) := by
    intro i hi
    rw [Real.log_mul hA.ne' (Real.rpow_pos_of_pos (hp i hi) s).ne', Real.log_rpow (hp i hi)]
  have e1 : interp1d .extrapolate n (fun i => Real.log (kIn i)) (fun i => Real.log (A * kIn i ^ s)) (Real.log k) =
      Real.log A + s * Real.log k := by
    have := interpLinear_congr (x := fun i => Real.log (kIn i)) hn h (Real.log k)
    have h2 := interpLinear_affine hn (logSorted hk hp) (Real.log A) s (Real.log k)
    exact this.trans h2
  rw [e1, Real.exp_add, Real.exp_log hA, Real.rpow_def_of_pos hkk, mul_comm s]

/-- C86: a sign-definite input never overshoots between the nodes: the value stays within the input's bounds. -/
theorem C86_bounds {n : ℕ} (hn : 2 ≤ n) {kIn : ℕ → ℝ} (hk : SortedOn n kIn) (hp : ∀ i < n, 0 < kIn i)
    {power : ℕ → ℝ} {a b : ℝ} (ha : 0 < a) (hpw : ∀ i < n, a ≤ power i ∧ power i ≤ b) {k : ℝ}
    (h0 : kIn 0 ≤ k) (h1 : k ≤ kIn (n - 1)) :
    a ≤ logLinearK n kIn power k ∧ logLinearK n kIn power k ≤ b := by
  have hk0 : 0 < kIn 0 := hp 0 (by omega)
  have hkp : 0 < k := lt_of_lt_of_le hk0 h0
  have hb : 0 < b := lt_of_lt_of_le ha ((hpw 0 (by omega)).1.trans (hpw 0 (by omega)).2)
  have hl : ∀ i < n, Real.log a ≤ Real.log (power i) ∧ Real.log (power i) ≤ Real.log b := fun i hi =>
    ⟨Real.log_le_log ha (hpw i hi).1, Real.log_le_log (lt_of_lt_of_le ha (hpw i hi).1) (hpw i hi).2⟩
  have h := interpLinear_mem_Icc (x := fun i => Real.log (kIn i)) hn (logSorted hk hp) (q := Real.log k)
    (Real.log_le_log hk0 h0) (Real.log_le_log hkp h1) hl
  have e : logLinearK n kIn power k = Real.exp (interpLinear n (fun i => Real.log (kIn i))
    (fun i => Real.log (power i)) (Real.log k)) := rfl
  rw [e]
  constructor
  · rw [← Real.exp_log ha] at *
    exact Real.exp_le_exp.mpr (by simpa using h.1)
  · calc _ ≤ Real.exp (Real.log b) := Real.exp_le_exp.mpr h.2
      _ = b := Real.exp_log hb

/-- C86: rescaling the amplitude of the input rescales the output. -/
theorem C86_amplitude {n : ℕ} (hn : 2 ≤ n) {kIn : ℕ → ℝ} (hk : SortedOn n kIn) (hp : ∀ i < n, 0 < kIn i)
    {power : ℕ → ℝ} (hpw : ∀ i < n, 0 < power i) {c : ℝ} (hc : 0 < c) (k : ℝ) :
    logLinearK n kIn (fun i => c * power i) k = c * logLinearK n kIn power k := by
  have h : ∀ i < n, Real.log (c * power i) = Real.log c + Real.log (power i) := fun i hi =>
    Real.log_mul hc.ne' (hpw i hi).ne'
  have e : ∀ pw : ℕ → ℝ, logLinearK n kIn pw k = Real.exp (interpLinear n (fun i => Real.log (kIn i))
    (fun i => Real.log (pw i)) (Real.log k)) := fun _ => rfl
  rw [e, e, interpLinear_congr (x := fun i => Real.log (kIn i)) hn h, interpLinear_add,
    interpLinear_const hn (logSorted hk hp), Real.exp_add, Real.exp_log hc]

/-- the input `k = 1, 2, 3` with `P = 4 k^(-3/2)` at `k = 100` -/
example : logLinearK 3 (fun i => (i : ℝ) + 1) (fun i => 4 * ((i : ℝ) + 1) ^ (-(3 / 2) : ℝ)) 100 =
    4 * (100 : ℝ) ^ (-(3 / 2) : ℝ) :=
  C86_power_law (by norm_num) (fun i j hij _ => by
    have : (i : ℝ) < j := by exact_mod_cast hij
    show (i : ℝ) + 1 < j + 1
    linarith) (fun i _ => by positivity) (by norm_num) (by norm_num)

/-! ## Redshift and wavenumber grids -/

/-- C87: a halo model redshift outside the redshift range of the input spectrum is refused, all others are
interpolated: node values are kept and values never leave the input's bounds. -/
theorem C87_redshifts {n : ℕ} (hn : 2 ≤ n) {z : ℕ → ℝ} (hz : SortedOn n z) (grid : ℕ → ℝ) (m : ℕ) (zOut : ℕ → ℝ) :
    ((∃ i < m, zOut i < z 0 ∨ z (n - 1) < zOut i) → interpolateInZ n z grid m zOut = .error .valueError) ∧
    ((∀ i < m, z 0 ≤ zOut i ∧ zOut i ≤ z (n - 1)) → ∃ v, interpolateInZ n z grid m zOut = .ok v ∧
      (∀ i < m, ∀ j < n, zOut i = z j → v i = grid j) ∧
      ∀ a b, (∀ j < n, a ≤ grid j ∧ grid j ≤ b) → ∀ i < m, a ≤ v i ∧ v i ≤ b) := by
  unfold interpolateInZ
  constructor
  · intro h; rw [if_pos h]
  · intro h
    rw [if_neg (by rintro ⟨i, hi, hlt | hlt⟩ <;> [linarith [(h i hi).1]; linarith [(h i hi).2]])]
    refine ⟨_, rfl, ?_, ?_⟩
    · intro i hi j hj he
      rw [he]; exact interpLinear_node hn hz _ hj
    · intro a b hab i hi
      exact interpLinear_mem_Icc (x := z) hn hz (h i hi).1 (h i hi).2 hab

/-- C87: the halo model's wavenumbers run from the first to the last input wavenumber, strictly increasing, so the
linear spectrum is never extrapolated in wavenumber. -/
theorem C87_wavenumbers {n : ℕ} (hn : 2 ≤ n) {k : ℕ → ℝ} (hk : SortedOn n k) (hp : ∀ i < n, 0 < k i) (nk : ℕ)
    (hnk : 2 ≤ nk) :
    kVec n k nk 0 = k 0 ∧ kVec n k nk (nk - 1) = k (n - 1) ∧ (∀ i j, i < j → kVec n k nk i < kVec n k nk j) ∧
    ∀ i < nk, k 0 ≤ kVec n k nk i ∧ kVec n k nk i ≤ k (n - 1) := by
  have h0 : 0 < k 0 := hp 0 (by omega)
  have h1 : 0 < k (n - 1) := hp _ (by omega)
  have hlt : k 0 < k (n - 1) := hk 0 (n - 1) (by omega) (by omega)
  have hl : Real.logb 10 (k 0) < Real.logb 10 (k (n - 1)) := Real.logb_lt_logb (by norm_num) h0 hlt
  have hnk' : (1 : ℝ) ≤ nk - 1 := by
    have : (2 : ℝ) ≤ nk := by exact_mod_cast hnk
    linarith
  have hmono : ∀ i j, i < j → kVec n k nk i < kVec n k nk j := by
    intro i j hij
    unfold kVec npLinspace
    refine Real.rpow_lt_rpow_of_exponent_lt (by norm_num) ?_
    have hd : 0 < (Real.logb 10 (k (n - 1)) - Real.logb 10 (k 0)) / (nk - 1 : ℝ) := div_pos (by linarith) (by linarith)
    have : (i : ℝ) < j := by exact_mod_cast hij
    nlinarith
  have e0 : kVec n k nk 0 = k 0 := by
    unfold kVec npLinspace
    rw [Nat.cast_zero, zero_mul, add_zero, Real.rpow_logb (by norm_num) (by norm_num) h0]
  have e1 : kVec n k nk (nk - 1) = k (n - 1) := by
    unfold kVec npLinspace
    rw [Nat.cast_sub (by omega), Nat.cast_one, mul_div_cancel₀ _ (by linarith), add_sub_cancel,
      Real.rpow_logb (by norm_num) (by norm_num) h1]
  have hle : ∀ i j, i ≤ j → kVec n k nk i ≤ kVec n k nk j := fun i j h => by
    rcases h.eq_or_lt with rfl | h
    · exact le_rfl
    · exact (hmono i j h).le
  refine ⟨e0, e1, hmono, fun i hi => ⟨?_, ?_⟩⟩
  · rw [← e0]; exact hle 0 i (Nat.zero_le _)
  · rw [← e1]; exact hle i (nk - 1) (by omega)

/-- a redshift 2 outside an input on [0, 1] -/
example : interpolateInZ 2 (fun i => i) (fun _ => 1) 1 (fun _ => 2) = .error .valueError :=
  (C87_redshifts le_rfl (fun i j h _ => by show (i : ℝ) < j; exact_mod_cast h) _ 1 _).1
    ⟨0, by norm_num, Or.inr (by norm_num)⟩

example : kVec 2 (fun i => (i : ℝ) + 1) 5 4 = 2 := by
  have h := (C87_wavenumbers (n := 2) (k := fun i => (i : ℝ) + 1) le_rfl (fun i j hij _ => by
    have : (i : ℝ) < j := by exact_mod_cast hij
    show (i : ℝ) + 1 < j + 1
    linarith) (fun i _ => by positivity) 5 (by norm_num)).2.1
  simpa using h.trans (by norm_num)

end Verif.Interface

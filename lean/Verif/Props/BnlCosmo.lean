import Verif.Model.Bnl
import Mathlib.Analysis.Complex.ExponentialBounds
import Mathlib.Tactic.Linarith
import Mathlib.Tactic.NormNum
import Mathlib.Tactic.FieldSimp
import Mathlib.Tactic.IntervalCases

/-! Properties C54, C57, C79, C81: emulator cosmology, truncations, halo sizes of the non-linear bias. -/

namespace Verif.Bnl

open Verif.Lib

/-! ## C54 -/

theorem clampStep_other (cin cout : ℕ → ℝ) (i j : ℕ) (e : ℝ × ℝ) (h : j ≠ i) : clampStep cin cout i e j = cout j := by
  unfold clampStep
  split_ifs <;> simp [Function.update, h]

theorem clampStep_self (cin cout : ℕ → ℝ) (i : ℕ) (e : ℝ × ℝ) (he : e.1 ≤ e.2) (h : cout i = cin i) :
    clampStep cin cout i e i = max e.1 (min e.2 (cin i)) := by
  unfold clampStep
  by_cases h1 : cin i < e.1
  · have h2 : ¬ e.2 < cin i := by linarith
    simp only [h1, h2, if_true, if_false, Function.update_self]
    rw [min_eq_right (by linarith), max_eq_left h1.le]
  · by_cases h2 : e.2 < cin i
    · simp only [h1, h2, if_true, if_false, Function.update_self]
      rw [min_eq_left h2.le, max_eq_right he]
    · simp only [h1, h2, if_false]
      rw [h, min_eq_right (not_lt.1 h2), max_eq_right (not_lt.1 h1)]

theorem clampLoop_spec (cin : ℕ → ℝ) (es : List (ℝ × ℝ)) (hes : ∀ e ∈ es, e.1 ≤ e.2) (i : ℕ) (cout : ℕ → ℝ)
    (hc : ∀ j, i ≤ j → cout j = cin j) :
    (∀ j < i, clampLoop cin i es cout j = cout j) ∧
    (∀ j e, es[j]? = some e → clampLoop cin i es cout (i + j) = max e.1 (min e.2 (cin (i + j)))) ∧
    (∀ j, i + es.length ≤ j → clampLoop cin i es cout j = cin j) := by
  induction es generalizing i cout with
  | nil => exact ⟨fun _ _ => rfl, fun j e h => by simp at h, fun j h => hc j (by simpa using h)⟩
  | cons e0 es ih =>
    have hc' : ∀ j, i + 1 ≤ j → clampStep cin cout i e0 j = cin j := fun j hj => by
      rw [clampStep_other _ _ _ _ _ (by omega)]; exact hc j (by omega)
    obtain ⟨a1, a2, a3⟩ := ih (fun e he => hes e (by simp [he])) (i + 1) (clampStep cin cout i e0) hc'
    refine ⟨fun j hj => ?_, fun j e he => ?_, fun j hj => ?_⟩
    · rw [clampLoop, a1 j (by omega), clampStep_other _ _ _ _ _ (by omega)]
    · cases j with
      | zero =>
        simp only [List.getElem?_cons_zero, Option.some.injEq] at he
        subst he
        simp only [Nat.add_zero]
        rw [clampLoop, a1 i (by omega), clampStep_self _ _ _ _ (hes e0 (by simp)) (hc i le_rfl)]
      | succ j =>
        have := a2 j e (by simpa using he)
        rw [clampLoop, show i + (j + 1) = i + 1 + j by omega, this]
    · rw [clampLoop, a3 j (by simp only [List.length_cons] at hj; omega)]

/-- lower ends of the emulator range -/
noncomputable def lower : ℕ → ℝ
  | 0 => 0.0211375
  | 1 => 0.10782
  | 2 => 0.54752
  | 3 => 2.4752
  | 4 => 0.916275
  | _ => -1.2

/-- upper ends of the emulator range -/
noncomputable def upper : ℕ → ℝ
  | 0 => 0.0233625
  | 1 => 0.13178
  | 2 => 0.82128
  | 3 => 3.7128
  | 4 => 1.012725
  | _ => -0.8

theorem edges_ordered : ∀ e ∈ edges, e.1 ≤ e.2 := by
  intro e he
  simp only [edges, List.mem_cons, List.not_mem_nil, or_false] at he
  rcases he with rfl | rfl | rfl | rfl | rfl | rfl <;> norm_num

/-- C54: every six-number cosmology is moved to the nearest point of the emulator range, number by number: below the
range to its lower end, above to its upper end, and numbers inside stay.  Anything but six numbers is refused. -/
theorem C54_clamped (cin : ℕ → ℝ) : ∃ c, testCosmo 6 cin = .ok c ∧ (∀ i, 6 ≤ i → c i = cin i) ∧
    ∀ i < 6, lower i ≤ c i ∧ c i ≤ upper i ∧ (lower i ≤ cin i ∧ cin i ≤ upper i → c i = cin i) ∧
      (cin i < lower i → c i = lower i) ∧ (upper i < cin i → c i = upper i) := by
  obtain ⟨-, a2, a3⟩ := clampLoop_spec cin edges edges_ordered 0 cin fun _ _ => rfl
  refine ⟨clampLoop cin 0 edges cin, by simp [testCosmo], fun i hi => a3 i (by simpa [edges] using hi), fun i hi => ?_⟩
  have h : edges[i]? = some (lower i, upper i) := by interval_cases i <;> rfl
  have h' := a2 i _ h
  have hle : lower i ≤ upper i := by interval_cases i <;> norm_num [lower, upper]
  rw [Nat.zero_add] at h'
  rw [h']
  dsimp only
  refine ⟨le_max_left _ _, max_le hle (min_le_left _ _), fun hh => ?_, fun hh => ?_, fun hh => ?_⟩
  · rw [min_eq_right hh.2, max_eq_right hh.1]
  · rw [min_eq_right (by linarith), max_eq_left hh.le]
  · rw [min_eq_left hh.le, max_eq_right hle]

/-- C54: clamping twice is clamping once. -/
theorem C54_idempotent (n : ℕ) (cin c : ℕ → ℝ) (h : testCosmo n cin = .ok c) : testCosmo n c = .ok c := by
  have hn : n = 6 := by
    by_contra hn
    simp [testCosmo, hn] at h
  subst hn
  obtain ⟨c1, h1, h2, h3⟩ := C54_clamped cin
  rw [h] at h1
  injection h1 with h1
  subst h1
  obtain ⟨c2, k1, k2, k3⟩ := C54_clamped c
  rw [k1]
  congr 1
  funext i
  by_cases hi : i < 6
  · exact (k3 i hi).2.2.1 ⟨(h3 i hi).1, (h3 i hi).2.1⟩
  · exact k2 i (by omega)

/-- C54: a vector of any other length is rejected. -/
theorem C54_length (n : ℕ) (cin : ℕ → ℝ) : testCosmo n cin = .error .valueError ↔ n ≠ 6 := by
  unfold testCosmo
  by_cases h : n = 6 <;> simp [h]

/-- C54: whatever the parameters, an emulator that is set up has a cosmology inside its range. -/
theorem C54_emulator_in_range (sig8 : (ℕ → ℝ) → ℝ) (c : Cosmo) (p : ℕ → ℝ) (h : emulator sig8 c = .ok p) :
    ∀ i < 6, lower i ≤ p i ∧ p i ≤ upper i := by
  have key : ∀ v q, testCosmo 6 v = .ok q → ∀ i < 6, lower i ≤ q i ∧ q i ≤ upper i := by
    intro v q hq i hi
    obtain ⟨c1, h1, -, h3⟩ := C54_clamped v
    rw [hq] at h1
    injection h1 with h1
    subst h1
    exact ⟨(h3 i hi).1, (h3 i hi).2.1⟩
  unfold emulator at h
  obtain ⟨q, hq, -⟩ := C54_clamped (c.vec (Real.log (2.1e-9 * 1e10)))
  cases hA : c.As with
  | some a => simp only [hA] at h; exact key _ _ h
  | none =>
    cases hs : c.sigma8 with
    | none => simp [hA, hs] at h
    | some s =>
      simp only [hA, hs, hq, bind, Except.bind] at h
      exact key _ _ h

/-- C54: which six numbers these are: with a primordial amplitude `A_s` the emulator is asked for the physical baryon
and cold matter densities Ω h², the dark energy fraction less the 0.00064 of the massive neutrinos, ln(10¹⁰ A_s), the
tilt and the equation of state - each moved to the nearest end of its range if it is outside. -/
theorem C54_parameters (sig8 : (ℕ → ℝ) → ℝ) (c : Cosmo) (A : ℝ) (hA : c.As = some A) :
    ∃ p, emulator sig8 c = .ok p ∧ ∀ v : ℕ → ℝ, v 0 = c.omegaB * c.h0 ^ 2 → v 1 = c.omegaC * c.h0 ^ 2 →
      v 2 = c.omegaLambda - 0.00064 → v 3 = Real.log (1e10 * A) → v 4 = c.ns → v 5 = c.w0 →
      ∀ i < 6, (lower i ≤ v i ∧ v i ≤ upper i → p i = v i) ∧ (v i < lower i → p i = lower i) ∧
        (upper i < v i → p i = upper i) := by
  obtain ⟨q, h1, -, h3⟩ := C54_clamped (c.vec (Real.log (A * 1e10)))
  refine ⟨q, by simp only [emulator, hA]; exact h1, fun v v0 v1 v2 v3 v4 v5 i hi => ?_⟩
  have hv : c.vec (Real.log (A * 1e10)) i = v i := by
    rw [mul_comm A]
    interval_cases i
    · exact v0.symm
    · exact v1.symm
    · exact v2.symm
    · exact v3.symm
    · exact v4.symm
    · exact v5.symm
  rw [← hv]
  exact ⟨(h3 i hi).2.2.1, (h3 i hi).2.2.2⟩

/-- C54: with σ8 in place of an amplitude the same holds of the other five numbers; neither is an error. -/
theorem C54_parameters_sigma8 (sig8 : (ℕ → ℝ) → ℝ) (c : Cosmo) (hA : c.As = none) :
    (c.sigma8 = none → emulator sig8 c = .error .valueError) ∧
    ∀ s8, c.sigma8 = some s8 →
    ∃ p, emulator sig8 c = .ok p ∧ ∀ v : ℕ → ℝ, v 0 = c.omegaB * c.h0 ^ 2 → v 1 = c.omegaC * c.h0 ^ 2 →
      v 2 = c.omegaLambda - 0.00064 → v 4 = c.ns → v 5 = c.w0 →
      ∀ i < 6, i ≠ 3 → (lower i ≤ v i ∧ v i ≤ upper i → p i = v i) ∧ (v i < lower i → p i = lower i) ∧
        (upper i < v i → p i = upper i) := by
  refine ⟨fun hs => by simp only [emulator, hA, hs], fun s8 hs => ?_⟩
  obtain ⟨q0, g1, -, -⟩ := C54_clamped (c.vec (Real.log (2.1e-9 * 1e10)))
  obtain ⟨q, h1, -, h3⟩ := C54_clamped (c.vec (Real.log (2.1e-9 * (s8 ^ 2 / sig8 q0 ^ 2) * 1e10)))
  refine ⟨q, by simp only [emulator, hA, hs, g1, bind, Except.bind]; exact h1, fun v v0 v1 v2 v4 v5 i hi h3' => ?_⟩
  have hv : c.vec (Real.log (2.1e-9 * (s8 ^ 2 / sig8 q0 ^ 2) * 1e10)) i = v i := by
    interval_cases i
    · exact v0.symm
    · exact v1.symm
    · exact v2.symm
    · exact absurd rfl h3'
    · exact v4.symm
    · exact v5.symm
  rw [← hv]
  exact ⟨(h3 i hi).2.2.1, (h3 i hi).2.2.2⟩

example : ∃ c : Cosmo, c.As = some 2.1e-9 ∧ lower 0 ≤ c.omegaB * c.h0 ^ 2 ∧ c.omegaB * c.h0 ^ 2 ≤ upper 0 :=
  ⟨⟨0.7, none, some 2.1e-9, 0.045, 0.25, 0.7, 0.96, -1⟩, rfl, by norm_num [lower], by norm_num [upper]⟩

/-- a cosmology out of range in one number: the emulator uses the end of the range -/
example : ∃ c, testCosmo 6 (fun i => if i = 5 then -2 else (lower i + upper i) / 2) = .ok c ∧ c 5 = -1.2 ∧
    c 4 = (0.916275 + 1.012725) / 2 := by
  obtain ⟨c, h1, -, h3⟩ := C54_clamped (fun i => if i = 5 then -2 else (lower i + upper i) / 2)
  refine ⟨c, h1, ?_, ?_⟩
  · have := (h3 5 (by norm_num)).2.2.2.1 (by norm_num [lower])
    rw [this]; rfl
  · have := (h3 4 (by norm_num)).2.2.1 (by norm_num [lower, upper])
    rw [this]; norm_num [lower, upper]

/-! ## C79 -/

theorem log21 : (2.4752 : ℝ) ≤ Real.log (2.1e-9 * 1e10) ∧ Real.log (2.1e-9 * 1e10) ≤ 3.7128 := by
  have e : (2.1e-9 * 1e10 : ℝ) = 21 := by norm_num
  rw [e]
  have h1 := Real.exp_one_lt_d9
  have h2 := Real.exp_one_gt_d9
  constructor
  · rw [Real.le_log_iff_exp_le (by norm_num)]
    have a : Real.exp 3 = Real.exp 1 ^ 3 := by rw [← Real.exp_nat_mul]; norm_num
    have b : Real.exp 1 ^ 3 ≤ 2.7182818286 ^ 3 := pow_le_pow_left₀ (Real.exp_pos 1).le h1.le 3
    have c : Real.exp 2.4752 ≤ Real.exp 3 := Real.exp_le_exp.2 (by norm_num)
    rw [a] at c
    norm_num at b ⊢
    linarith
  · rw [Real.log_le_iff_le_exp (by norm_num)]
    have a : Real.exp 3.5 * Real.exp 3.5 = Real.exp 1 ^ 7 := by
      rw [← Real.exp_nat_mul, ← Real.exp_add]; norm_num
    have b : (2.7182818283 : ℝ) ^ 7 ≤ Real.exp 1 ^ 7 := pow_le_pow_left₀ (by norm_num) h2.le 7
    have c : Real.exp 3.5 ≤ Real.exp 3.7128 := Real.exp_le_exp.2 (by norm_num)
    rw [← a] at b
    have d : (441 : ℝ) ≤ 2.7182818283 ^ 7 := by norm_num
    nlinarith [Real.exp_pos (3.5 : ℝ)]

/-- C79: the amplitude is set from the requested `sigma_8`: if σ8² is proportional to the amplitude (linear theory)
and the resulting ln(10¹⁰A) is inside the emulator range, the emulator ends with exactly the requested value -
also when other parameters were clamped. -/
theorem C79_sigma8_matched (sig8 : (ℕ → ℝ) → ℝ) (hpos : ∀ p, 0 < sig8 p)
    (hlin : ∀ p a, sig8 (Function.update p 3 a) ^ 2 = Real.exp (a - p 3) * sig8 p ^ 2)
    (c : Cosmo) (s8 : ℝ) (hA : c.As = none) (hs : c.sigma8 = some s8) (h0 : 0 < s8) (p0 p : ℕ → ℝ)
    (hp0 : testCosmo 6 (c.vec (Real.log (2.1e-9 * 1e10))) = .ok p0)
    (hr : lower 3 ≤ Real.log (2.1e-9 * (s8 ^ 2 / sig8 p0 ^ 2) * 1e10) ∧
      Real.log (2.1e-9 * (s8 ^ 2 / sig8 p0 ^ 2) * 1e10) ≤ upper 3)
    (h : emulator sig8 c = .ok p) : sig8 p = s8 := by
  unfold emulator at h
  simp only [hA, hs, hp0, bind, Except.bind] at h
  set lnA := Real.log (2.1e-9 * (s8 ^ 2 / sig8 p0 ^ 2) * 1e10) with hln
  obtain ⟨q0, a1, a2, a3⟩ := C54_clamped (c.vec (Real.log (2.1e-9 * 1e10)))
  rw [hp0] at a1
  injection a1 with a1
  subst a1
  obtain ⟨q, b1, b2, b3⟩ := C54_clamped (c.vec lnA)
  rw [h] at b1
  injection b1 with b1
  subst b1
  have hv : ∀ l i, i ≠ 3 → c.vec l i = c.vec (Real.log (2.1e-9 * 1e10)) i := by
    intro l i hi
    match i with
    | 0 => rfl
    | 1 => rfl
    | 2 => rfl
    | 3 => exact absurd rfl hi
    | 4 => rfl
    | _ + 5 => rfl
  have e3 : p 3 = lnA := (b3 3 (by norm_num)).2.2.1 hr
  have e30 : p0 3 = Real.log (2.1e-9 * 1e10) := (a3 3 (by norm_num)).2.2.1 log21
  have hpe : p = Function.update p0 3 lnA := by
    funext i
    by_cases hi : i = 3
    · subst hi; rw [Function.update_self, e3]
    · rw [Function.update_of_ne hi]
      by_cases h6 : i < 6
      · obtain ⟨-, -, x1, x2, x3⟩ := a3 i h6
        obtain ⟨-, -, y1, y2, y3⟩ := b3 i h6
        rw [hv lnA i hi] at y1 y2 y3
        rcases lt_or_ge (c.vec (Real.log (2.1e-9 * 1e10)) i) (lower i) with hl | hl
        · rw [x2 hl, y2 hl]
        · rcases lt_or_ge (upper i) (c.vec (Real.log (2.1e-9 * 1e10)) i) with hu | hu
          · rw [x3 hu, y3 hu]
          · rw [x1 ⟨hl, hu⟩, y1 ⟨hl, hu⟩]
      · rw [a2 i (by omega), b2 i (by omega), hv lnA i hi]
  have hs0 := hpos p0
  have hsq : sig8 p ^ 2 = s8 ^ 2 := by
    rw [hpe, hlin, e30, hln, ← Real.log_div (by positivity) (by norm_num), Real.exp_log (by positivity)]
    field_simp
  have := hpos p
  nlinarith

/-- C79: a given amplitude wins over `sigma_8`, which is then ignored; without either the setup fails. -/
theorem C79_amplitude_preferred (sig8 sig8' : (ℕ → ℝ) → ℝ) (c : Cosmo) (a : ℝ) (s s' : Option ℝ) :
    emulator sig8 { c with As := some a, sigma8 := s } = emulator sig8' { c with As := some a, sigma8 := s' } ∧
    emulator sig8 { c with As := none, sigma8 := none } = .error .valueError := by
  constructor <;> rfl

/-- C79 (disagreement found): when the amplitude for the requested `sigma_8` is out of range, the emulator silently
keeps another `sigma_8`: for every linear-theory emulator a large enough request is not met. -/
theorem C79_out_of_range (sig8 : (ℕ → ℝ) → ℝ) (c : Cosmo) (s8 : ℝ) (hA : c.As = none) (hs : c.sigma8 = some s8)
    (p0 p : ℕ → ℝ) (hp0 : testCosmo 6 (c.vec (Real.log (2.1e-9 * 1e10))) = .ok p0)
    (hr : upper 3 < Real.log (2.1e-9 * (s8 ^ 2 / sig8 p0 ^ 2) * 1e10)) (h : emulator sig8 c = .ok p)
    (hpos : ∀ p, 0 < sig8 p)
    (hlin : ∀ p a, sig8 (Function.update p 3 a) ^ 2 = Real.exp (a - p 3) * sig8 p ^ 2) (h0 : 0 < s8) :
    sig8 p < s8 := by
  unfold emulator at h
  simp only [hA, hs, hp0, bind, Except.bind] at h
  set lnA := Real.log (2.1e-9 * (s8 ^ 2 / sig8 p0 ^ 2) * 1e10) with hln
  obtain ⟨q0, a1, a2, a3⟩ := C54_clamped (c.vec (Real.log (2.1e-9 * 1e10)))
  rw [hp0] at a1
  injection a1 with a1
  subst a1
  obtain ⟨q, b1, b2, b3⟩ := C54_clamped (c.vec lnA)
  rw [h] at b1
  injection b1 with b1
  subst b1
  have hv : ∀ l i, i ≠ 3 → c.vec l i = c.vec (Real.log (2.1e-9 * 1e10)) i := by
    intro l i hi
    match i with
    | 0 => rfl
    | 1 => rfl
    | 2 => rfl
    | 3 => exact absurd rfl hi
    | 4 => rfl
    | _ + 5 => rfl
  have e3 : p 3 = upper 3 := (b3 3 (by norm_num)).2.2.2.2 hr
  have e30 : p0 3 = Real.log (2.1e-9 * 1e10) := (a3 3 (by norm_num)).2.2.1 log21
  have hpe : p = Function.update p0 3 (upper 3) := by
    funext i
    by_cases hi : i = 3
    · subst hi; rw [Function.update_self, e3]
    · rw [Function.update_of_ne hi]
      by_cases h6 : i < 6
      · obtain ⟨-, -, x1, x2, x3⟩ := a3 i h6
        obtain ⟨-, -, y1, y2, y3⟩ := b3 i h6
        rw [hv lnA i hi] at y1 y2 y3
        rcases lt_or_ge (c.vec (Real.log (2.1e-9 * 1e10)) i) (lower i) with hl | hl
        · rw [x2 hl, y2 hl]
        · rcases lt_or_ge (upper i) (c.vec (Real.log (2.1e-9 * 1e10)) i) with hu | hu
          · rw [x3 hu, y3 hu]
          · rw [x1 ⟨hl, hu⟩, y1 ⟨hl, hu⟩]
      · rw [a2 i (by omega), b2 i (by omega), hv lnA i hi]
  have hs0 := hpos p0
  have hsq : sig8 p ^ 2 < s8 ^ 2 := by
    have e1 : s8 ^ 2 = Real.exp (lnA - p0 3) * sig8 p0 ^ 2 := by
      rw [e30, hln, ← Real.log_div (by positivity) (by norm_num), Real.exp_log (by positivity)]
      field_simp
    rw [hpe, hlin, e1]
    exact mul_lt_mul_of_pos_right (Real.exp_lt_exp.2 (by linarith)) (by positivity)
  have := hpos p
  nlinarith

/-- a linear-theory emulator as in the hypotheses exists -/
example : ∃ sig8 : (ℕ → ℝ) → ℝ, (∀ p, 0 < sig8 p) ∧
    ∀ p a, sig8 (Function.update p 3 a) ^ 2 = Real.exp (a - p 3) * sig8 p ^ 2 := by
  refine ⟨fun p => Real.exp (p 3 / 2), fun p => Real.exp_pos _, fun p a => ?_⟩
  simp only [Function.update_self]
  rw [← Real.exp_nat_mul, ← Real.exp_nat_mul, ← Real.exp_add]
  congr 1; push_cast; ring

/-! ## C57 -/

/-- C57: at equal truncation wavenumber the two truncations add up to 1, lie strictly between 0 and 1, are 1/2 at
the truncation wavenumber, and rise (low-k) and fall (high-k) strictly with k. -/
theorem C57_complementary (k kt : ℝ) :
    lowK k kt + highK k kt = 1 ∧ 0 < lowK k kt ∧ lowK k kt < 1 ∧ 0 < highK k kt ∧ highK k kt < 1 ∧
      lowK kt kt = 1 / 2 ∧ highK kt kt = 1 / 2 := by
  have e1 : ∀ x : ℝ, 1 / (1 + Real.exp (-x)) + 1 / (1 + Real.exp x) = 1 := by
    intro x
    rw [Real.exp_neg]
    have := Real.exp_pos x
    field_simp
    ring
  have p1 : ∀ x : ℝ, 0 < 1 / (1 + Real.exp x) ∧ 1 / (1 + Real.exp x) < 1 := by
    intro x
    have := Real.exp_pos x
    exact ⟨by positivity, by rw [div_lt_one (by positivity)]; linarith⟩
  unfold lowK highK
  refine ⟨e1 _, (p1 _).1, (p1 _).2, (p1 _).1, (p1 _).2, ?_, ?_⟩ <;> norm_num

/-- C57: strict monotonicity in the wavenumber. -/
theorem C57_monotone (k k' kt : ℝ) (hk : 0 < k) (hkk : k < k') : lowK k kt < lowK k' kt ∧ highK k' kt < highK k kt := by
  have hl : log10 k < log10 k' := Real.logb_lt_logb (by norm_num) hk hkk
  unfold lowK highK
  have e := Real.exp_pos
  constructor
  · apply one_div_lt_one_div_of_lt (by linarith [e (-(10 * (log10 k' - log10 kt)))])
    have : Real.exp (-(10 * (log10 k' - log10 kt))) < Real.exp (-(10 * (log10 k - log10 kt))) :=
      Real.exp_lt_exp.2 (by linarith)
    linarith
  · apply one_div_lt_one_div_of_lt (by linarith [e (10 * (log10 k - log10 kt))])
    have : Real.exp (10 * (log10 k - log10 kt)) < Real.exp (10 * (log10 k' - log10 kt)) :=
      Real.exp_lt_exp.2 (by linarith)
    linarith

/-- C57: the exact shape: the odds of the low-k truncation are (k/kt) to the power 10/ln 10, a
pure power law in the wavenumber. -/
theorem C57_shape (k kt : ℝ) (hk : 0 < k) (ht : 0 < kt) :
    lowK k kt / highK k kt = (k / kt) ^ (10 / Real.log 10) := by
  have e : log10 k - log10 kt = Real.log (k / kt) / Real.log 10 := by
    unfold log10 Real.logb
    rw [Real.log_div hk.ne' ht.ne']; ring
  unfold lowK highK
  rw [e, Real.rpow_def_of_pos (by positivity), Real.exp_neg,
    show Real.log (k / kt) * (10 / Real.log 10) = 10 * (Real.log (k / kt) / Real.log 10) by ring]
  have := Real.exp_pos (10 * (Real.log (k / kt) / Real.log 10))
  field_simp
  ring

/-! ## C81 -/

/-- C81: a sphere of radius `rvir` at 200 times the mean density holds the mass. -/
theorem C81_rvir (Om M : ℝ) (hO : 0 < Om) (hM : 0 ≤ M) :
    0 ≤ rvir Om M ∧ 4 / 3 * Real.pi * rvir Om M ^ 3 * (200 * (2.77536627e11 * Om)) = M := by
  have hpi := Real.pi_pos
  have hb : 0 ≤ (3 * M) / (4 * Real.pi * 200 * rhom Om) := by unfold rhom; positivity
  refine ⟨Real.rpow_nonneg hb _, ?_⟩
  have e : rvir Om M ^ 3 = (3 * M) / (4 * Real.pi * 200 * rhom Om) := by
    unfold rvir
    rw [← Real.rpow_natCast, ← Real.rpow_mul hb]; norm_num
  rw [e]
  unfold rhom
  field_simp

/-- C81: the virial radius grows strictly with mass. -/
theorem C81_rvir_monotone (Om M M' : ℝ) (hO : 0 < Om) (hM : 0 ≤ M) (h : M < M') : rvir Om M < rvir Om M' := by
  have hpi := Real.pi_pos
  unfold rvir
  apply Real.rpow_lt_rpow (by unfold rhom; positivity) _ (by norm_num)
  apply div_lt_div_of_pos_right (by linarith)
  unfold rhom; positivity

/-- C81: the smallest halo mass is that of 200 particles, and the wavenumber returned with it is 2π over the radius
of the sphere that holds this mass at mean density. -/
theorem C81_minimum_mass (Om : ℝ) (hO : 0 < Om) :
    (minimumHaloMass Om).1 = 200 * (2.77536627e11 * Om * 1000 ^ 3 / 2048 ^ 3) ∧
    ∃ r, 0 < r ∧ (minimumHaloMass Om).2 = 2 * Real.pi / r ∧
      4 / 3 * Real.pi * r ^ 3 * (2.77536627e11 * Om) = (minimumHaloMass Om).1 := by
  have hpi := Real.pi_pos
  refine ⟨by simp only [minimumHaloMass, rhom]; ring, _, ?_, rfl, ?_⟩
  · positivity
  · have e : (((3 * ((1000 : ℝ) ^ 3 * 200 / 2048 ^ 3)) / (4 * Real.pi)) ^ ((1 : ℝ) / 3)) ^ 3 =
        (3 * ((1000 : ℝ) ^ 3 * 200 / 2048 ^ 3)) / (4 * Real.pi) := by
      rw [← Real.rpow_natCast, ← Real.rpow_mul (by positivity)]; norm_num
    rw [e]
    simp only [minimumHaloMass, rhom]
    field_simp

/-- C81: for every matter density a clamped flat cosmology can have, the smallest mass is below the upper end of the
mass table (10¹⁴), so the mass nodes of the table are increasing. -/
theorem C81_mass_nodes_increasing (Om : ℝ) (hO : 0 < Om) (h1 : Om ≤ 1) (i j : ℕ) (hij : i < j) :
    massNodes Om i < massNodes Om j := by
  have hm : (minimumHaloMass Om).1 < (10 : ℝ) ^ (14 : ℝ) := by
    rw [(C81_minimum_mass Om hO).1, show ((14 : ℝ)) = ((14 : ℕ) : ℝ) by norm_num, Real.rpow_natCast]
    nlinarith
  have hm0 : 0 < (minimumHaloMass Om).1 := by rw [(C81_minimum_mass Om hO).1]; positivity
  unfold massNodes logspace log10
  have e : ∀ y : ℝ, Real.logb 10 ((10 : ℝ) ^ y) = y := fun y => Real.logb_rpow (by norm_num) (by norm_num)
  simp only [e]
  have : Real.logb 10 (minimumHaloMass Om).1 < Real.logb 10 ((10 : ℝ) ^ (14 : ℝ)) :=
    Real.logb_lt_logb (by norm_num) hm0 hm
  have hij' : (i : ℝ) < j := by exact_mod_cast hij
  have hd : 0 < (Real.logb 10 ((10 : ℝ) ^ (14 : ℝ)) - Real.logb 10 (minimumHaloMass Om).1) / (((5 : ℕ) : ℝ) - 1) := by
    apply div_pos (by linarith); norm_num
  rw [e] at hd
  nlinarith

end Verif.Bnl

import Verif.Lemmas.Dft
import Mathlib.Analysis.SpecialFunctions.Gamma.Beta

/-! Property C104: the logarithmic Hankel transform (`pyfftlog.py`). -/

namespace Verif.FftLog

open Verif.Lib Finset ComplexConjugate

/-! ## The transform in terms of Fourier coefficients -/

/-- the factor of coefficient `m`, from the numbers applied to the packed array -/
noncomputable def uMul (n : ℕ) (g0 : ℝ) (A c s : ℕ → ℝ) (gN : ℝ) (m : ℕ) : ℂ :=
  if m = 0 then (g0 : ℂ)
  else if 2 * m < n then (A m : ℂ) * ⟨c m, s m⟩
  else if 2 * m = n then (gN : ℂ)
  else conj ((A (n - m) : ℂ) * ⟨c (n - m), s (n - m)⟩)

theorem unpack_mul {n : ℕ} (y y' : ℕ → ℝ) (g0 : ℝ) (A c s : ℕ → ℝ) (gN : ℝ) (h0 : y' 0 = y 0 * g0)
    (h1 : ∀ m, 0 < m → 2 * m < n → y' (2 * m - 1) = A m * (y (2 * m - 1) * c m - y (2 * m) * s m))
    (h2 : ∀ m, 0 < m → 2 * m < n → y' (2 * m) = A m * (y (2 * m - 1) * s m + y (2 * m) * c m))
    (hN : n % 2 = 0 → 0 < n → y' (n - 1) = y (n - 1) * gN) {m : ℕ} (hm : m < n) :
    unpack n y' m = uMul n g0 A c s gN m * unpack n y m := by
  unfold unpack uMul
  split_ifs with a b e
  · rw [h0]; push_cast; ring
  · rw [h1 m (by omega) b, h2 m (by omega) b]
    apply Complex.ext <;> simp <;> ring
  · rw [hN (by omega) (by omega)]; push_cast; ring
  · rw [h1 (n - m) (by omega) (by omega), h2 (n - m) (by omega) (by omega)]
    apply Complex.ext <;> simp <;> ring

theorem rotate_zero (n : ℕ) (c s y : ℕ → ℝ) : rotate n c s y 0 = y 0 := by
  unfold rotate; rw [if_neg (by omega), if_neg (by omega)]

theorem rotate_odd {n : ℕ} (c s y : ℕ → ℝ) {m : ℕ} (h : 0 < m) (h2 : 2 * m < n) :
    rotate n c s y (2 * m - 1) = y (2 * m - 1) * c m - y (2 * m) * s m := by
  unfold rotate
  rw [if_pos (by omega), show (2 * m - 1 + 1) / 2 = m by omega, show 2 * m - 1 + 1 = 2 * m by omega]

theorem rotate_even {n : ℕ} (c s y : ℕ → ℝ) {m : ℕ} (h : 0 < m) (h2 : 2 * m < n) :
    rotate n c s y (2 * m) = y (2 * m - 1) * s m + y (2 * m) * c m := by
  unfold rotate
  rw [if_neg (by omega), if_pos (by omega), show 2 * m / 2 = m by omega]

theorem rotate_last {n : ℕ} (c s y : ℕ → ℝ) (h : n % 2 = 0) (hn : 0 < n) : rotate n c s y (n - 1) = y (n - 1) := by
  unfold rotate; rw [if_neg (by omega), if_neg (by omega)]

theorem act_eq (d : Dir) (x f : ℝ) : d.act x f = x * d.act 1 f := by
  cases d
  · simp [Dir.act]
  · simp [Dir.act, div_eq_mul_inv]

open Classical in
/-- the numbers `fhtq` applies, read from `xsave` -/
noncomputable def pG0 (x : XSave) (d : Dir) : ℝ := if x.val 0 = 0 then 1 else d.act 1 (x.val 3)
open Classical in
noncomputable def pA (x : XSave) (d : Dir) (m : ℕ) : ℝ := if x.val 0 = 0 then 1 else d.act 1 (x.val (3 * m + 1))
open Classical in
noncomputable def pC (x : XSave) (m : ℕ) : ℝ := if x.val 0 = 0 then x.val (2 * m + 1) else x.val (3 * m + 2)
open Classical in
noncomputable def pS (x : XSave) (m : ℕ) : ℝ := if x.val 0 = 0 then x.val (2 * m + 2) else x.val (3 * m + 3)
open Classical in
noncomputable def pGN (n : ℕ) (x : XSave) (d : Dir) : ℝ :=
  d.act 1 (if x.val 0 = 0 then x.val (x.size - 2) else x.val (3 * (n / 2) + 2) * x.val (3 * (n / 2) + 1))

/-- the factor of coefficient `m` -/
noncomputable def fac (n : ℕ) (x : XSave) (d : Dir) (m : ℕ) : ℂ := uMul n (pG0 x d) (pA x d) (pC x) (pS x) (pGN n x d) m

theorem dft_fhtq {n : ℕ} (hn : 0 < n) (x : XSave) (d : Dir) (a : ℕ → ℝ) {m : ℕ} (hm : m < n) :
    dft n (fhtq n x d a) m = ee (m / n) * conj (fac n x d m * dft n a m) := by
  classical
  unfold fhtq
  simp only
  rw [dft_reverse hn (fun j => irfft n _ j) m, dft_irfft hn _ hm, ← unpack_rfft hn a hm]
  congr 2
  unfold fac
  refine unpack_mul _ _ _ _ _ _ _ ?_ ?_ ?_ ?_ hm
  · by_cases hq : x.val 0 = 0
    · simp only [if_pos hq, kernel0, pG0, mul_one]
      rw [if_neg (by omega), rotate_zero]
    · simp only [if_neg hq, kernelB, pG0, if_true, rotate_zero]
      cases d
      · simp [Dir.act]
      · by_cases h3 : x.val 3 = 0
        · simp [Dir.act, h3]
        · simp [Dir.act, h3, div_eq_mul_inv]
  · intro l h0 h2
    by_cases hq : x.val 0 = 0
    · simp only [if_pos hq, kernel0, pA, pC, pS, one_mul]
      rw [if_neg (by omega), rotate_odd _ _ _ h0 h2]
    · simp only [if_neg hq, kernelB, pA, pC, pS]
      rw [if_neg (by omega), if_neg (by omega), rotate_odd _ _ _ h0 h2, act_eq, show (2 * l - 1 + 1) / 2 = l by omega]
      ring
  · intro l h0 h2
    by_cases hq : x.val 0 = 0
    · simp only [if_pos hq, kernel0, pA, pC, pS, one_mul]
      rw [if_neg (by omega), rotate_even _ _ _ h0 h2]
    · simp only [if_neg hq, kernelB, pA, pC, pS]
      rw [if_neg (by omega), if_neg (by omega), rotate_even _ _ _ h0 h2, act_eq, show (2 * l + 1) / 2 = l by omega]
      ring
  · intro he hn'
    by_cases hq : x.val 0 = 0
    · simp only [if_pos hq, kernel0, pGN]
      rw [if_pos (by simp [he]), rotate_last _ _ _ he hn, act_eq]
    · simp only [if_neg hq, kernelB, pGN]
      rw [if_neg (by omega), if_pos (by simp [he]), rotate_last _ _ _ he hn, act_eq]

/-- two transforms in a row -/
theorem dft_fhtq_fhtq {n : ℕ} (hn : 0 < n) (x : XSave) (d e : Dir) (a : ℕ → ℝ) {m : ℕ} (hm : m < n) :
    dft n (fhtq n x e (fhtq n x d a)) m = conj (fac n x e m) * fac n x d m * dft n a m := by
  rw [dft_fhtq hn x e _ hm, dft_fhtq hn x d a hm]
  simp only [map_mul, Complex.conj_conj, ee_conj]
  have : ee (m / n) * ee (-(m / n)) = 1 := by rw [← ee_add]; simp [ee_zero]
  linear_combination (conj (fac n x e m) * (fac n x d m * dft n a m)) * this

/-! ## What `fhti` stores -/

theorem arg0_eq (lg : ℂ → ℂ) (n : ℕ) (mu dlnr kr : ℝ) (m : ℕ) : arg0 lg n mu dlnr kr m = argB lg n mu 0 dlnr kr m := by
  unfold arg0 argB
  simp only [Complex.ofReal_zero, add_zero, sub_zero]
  push_cast
  ring

variable {lg : ℂ → ℂ} {n : ℕ} {mu dlnr q kr kr' : ℝ} {opt : KrOpt} {x : XSave}

theorem fhti_zero (h : fhti lg n mu dlnr q kr opt = .ok (kr', x)) (hq : q = 0) :
    kr' = adjustKr lg mu q dlnr kr opt ∧ x = xsave0 lg n mu dlnr kr' := by
  unfold fhti at h
  simp only [if_pos hq] at h
  injection h with h
  injection h with h1 h2
  subst h1
  exact ⟨rfl, h2.symm⟩

theorem fhti_biased (h : fhti lg n mu dlnr q kr opt = .ok (kr', x)) (hq : q ≠ 0) :
    kr' = adjustKr lg mu q dlnr kr opt ∧ ∃ f, xsave1 lg mu q = .ok f ∧ x = xsaveB lg n mu q dlnr kr' f := by
  unfold fhti at h
  simp only [if_neg hq] at h
  cases hf : xsave1 lg mu q with
  | error e => rw [hf] at h; cases h
  | ok f =>
    rw [hf] at h
    injection h with h
    injection h with h1 h2
    subst h1
    exact ⟨rfl, f, rfl, h2.symm⟩

theorem fhti_head (h : fhti lg n mu dlnr q kr opt = .ok (kr', x)) : x.val 0 = q ∧ x.val 1 = dlnr ∧ x.val 2 = kr' := by
  by_cases hq : q = 0
  · obtain ⟨_, rfl⟩ := fhti_zero h hq
    simp [xsave0, hq]
  · obtain ⟨_, f, _, rfl⟩ := fhti_biased h hq
    simp [xsaveB]

theorem fhti_pC (h : fhti lg n mu dlnr q kr opt = .ok (kr', x)) {m : ℕ} (hm : 0 < m) :
    pC x m = Real.cos (argB lg n mu q dlnr kr' m) ∧ pS x m = Real.sin (argB lg n mu q dlnr kr' m) := by
  have h0 := (fhti_head h).1
  unfold pC pS
  by_cases hq : q = 0
  · rw [if_pos (by rw [h0, hq]), if_pos (by rw [h0, hq])]
    obtain ⟨_, rfl⟩ := fhti_zero h hq
    subst hq
    constructor
    · simp only [xsave0]
      rw [if_neg (by omega), if_neg (by omega), if_neg (by omega), if_pos (by omega), arg0_eq,
        show (2 * m + 1 - 1) / 2 = m by omega]
    · simp only [xsave0]
      rw [if_neg (by omega), if_neg (by omega), if_neg (by omega), if_neg (by omega), arg0_eq,
        show (2 * m + 2 - 2) / 2 = m by omega]
  · rw [if_neg (by rw [h0]; exact hq), if_neg (by rw [h0]; exact hq)]
    obtain ⟨_, f, _, rfl⟩ := fhti_biased h hq
    constructor
    · simp only [xsaveB]
      rw [if_neg (by omega), if_neg (by omega), if_neg (by omega), if_neg (by omega), if_neg (by omega),
        if_pos (by omega), show (3 * m + 2 - 2) / 3 = m by omega]
    · simp only [xsaveB]
      rw [if_neg (by omega), if_neg (by omega), if_neg (by omega), if_neg (by omega), if_neg (by omega),
        if_neg (by omega), show (3 * m + 3 - 3) / 3 = m by omega]

theorem ampB_zero (lg : ℂ → ℂ) (n : ℕ) (mu dlnr : ℝ) (m : ℕ) : ampB lg n mu 0 dlnr m = 1 := by
  unfold ampB
  simp

theorem ampB_pos (lg : ℂ → ℂ) (n : ℕ) (mu q dlnr : ℝ) (m : ℕ) : 0 < ampB lg n mu q dlnr m := Real.exp_pos _

theorem fhti_pA (h : fhti lg n mu dlnr q kr opt = .ok (kr', x)) (d : Dir) {m : ℕ} (hm : 0 < m) :
    pA x d m = d.act 1 (ampB lg n mu q dlnr m) := by
  have h0 := (fhti_head h).1
  unfold pA
  by_cases hq : q = 0
  · rw [if_pos (by rw [h0, hq]), hq, ampB_zero]
    cases d <;> simp [Dir.act]
  · rw [if_neg (by rw [h0]; exact hq)]
    obtain ⟨_, f, _, rfl⟩ := fhti_biased h hq
    simp only [xsaveB]
    rw [if_neg (by omega), if_neg (by omega), if_neg (by omega), if_neg (by omega), if_pos (by omega),
        show (3 * m + 1 - 1) / 3 = m by omega]

theorem fhti_pGN (h : fhti lg n mu dlnr q kr opt = .ok (kr', x)) (d : Dir) (hn : 2 ≤ n) :
    pGN n x d = d.act 1 (Real.cos (argB lg n mu q dlnr kr' (n / 2)) * ampB lg n mu q dlnr (n / 2)) := by
  have h0 := (fhti_head h).1
  have hc := (fhti_pC h (m := n / 2) (by omega)).1
  unfold pC at hc
  unfold pGN
  by_cases hq : q = 0
  · rw [if_pos (by rw [h0, hq])] at hc ⊢
    rw [← hc, hq, ampB_zero, mul_one]
    obtain ⟨_, rfl⟩ := fhti_zero h hq
    rfl
  · rw [if_neg (by rw [h0]; exact hq)] at hc ⊢
    rw [hc]
    obtain ⟨_, f, _, rfl⟩ := fhti_biased h hq
    simp only [xsaveB]
    rw [if_neg (by omega : ¬ 3 * (n / 2) + 1 = 0), if_neg (by omega), if_neg (by omega), if_neg (by omega),
      if_pos (by omega), show (3 * (n / 2) + 1 - 1) / 3 = n / 2 by omega]

/-! ## Round trips -/

theorem act_inv {d e : Dir} (hde : d ≠ e) {f : ℝ} (hf : f ≠ 0) : e.act 1 f * d.act 1 f = 1 := by
  cases d <;> cases e <;> simp_all [Dir.act]

/-- forward and backward factors of all but the first coefficient cancel -/
theorem fac_inv_pos (h : fhti lg n mu dlnr q kr opt = .ok (kr', x))
    (hN : n % 2 = 0 → Real.cos (argB lg n mu q dlnr kr' (n / 2)) ≠ 0) {d e : Dir} (hde : d ≠ e) {m : ℕ} (h0 : 0 < m)
    (hm : m < n) : conj (fac n x e m) * fac n x d m = 1 := by
  have ph : ∀ l, 0 < l → conj ((pA x e l : ℂ) * ⟨pC x l, pS x l⟩) * ((pA x d l : ℂ) * ⟨pC x l, pS x l⟩) = 1 := by
    intro l hl
    rw [fhti_pA h e hl, fhti_pA h d hl, (fhti_pC h hl).1, (fhti_pC h hl).2]
    have h1 := act_inv hde (ampB_pos lg n mu q dlnr l).ne'
    have h2 := Real.cos_sq_add_sin_sq (argB lg n mu q dlnr kr' l)
    rw [map_mul, Complex.conj_ofReal, mul_mul_mul_comm, ← Complex.ofReal_mul, h1]
    apply Complex.ext
    · simp; linear_combination h2
    · simp; ring
  unfold fac uMul
  split_ifs with a b c
  · omega
  · exact ph m h0
  · rw [Complex.conj_ofReal, ← Complex.ofReal_mul, fhti_pGN h e (by omega), fhti_pGN h d (by omega),
      act_inv hde (mul_ne_zero (hN (by omega)) (ampB_pos _ _ _ _ _ _).ne')]; simp
  · have := congrArg conj (ph (n - m) (by omega))
    simpa using this

/-- forward and backward factors cancel -/
theorem fac_inv (h : fhti lg n mu dlnr q kr opt = .ok (kr', x)) (h3 : q ≠ 0 → x.val 3 ≠ 0)
    (hN : n % 2 = 0 → Real.cos (argB lg n mu q dlnr kr' (n / 2)) ≠ 0) {d e : Dir} (hde : d ≠ e) {m : ℕ} (hm : m < n) :
    conj (fac n x e m) * fac n x d m = 1 := by
  rcases Nat.eq_zero_or_pos m with rfl | h0
  · unfold fac uMul
    rw [if_pos rfl, if_pos rfl, Complex.conj_ofReal, ← Complex.ofReal_mul]
    unfold pG0
    by_cases hq : q = 0
    · rw [if_pos (by rw [(fhti_head h).1, hq]), if_pos (by rw [(fhti_head h).1, hq])]; simp
    · rw [if_neg (by rw [(fhti_head h).1]; exact hq), if_neg (by rw [(fhti_head h).1]; exact hq), act_inv hde (h3 hq)]; simp
  · exact fac_inv_pos h hN hde h0 hm

theorem fhtq_smul {n : ℕ} (hn : 0 < n) (x : XSave) (d : Dir) (c : ℝ) (a : ℕ → ℝ) {i : ℕ} (hi : i < n) :
    fhtq n x d (fun j => c * a j) i = c * fhtq n x d a i := by
  refine eq_of_dft hn _ (fun i => c * fhtq n x d a i) (fun m hm => ?_) hi
  rw [dft_smul, dft_fhtq hn x d _ hm, dft_fhtq hn x d _ hm, dft_smul]
  simp only [map_mul, Complex.conj_ofReal]
  ring

theorem fhtq_congr {n : ℕ} (hn : 0 < n) (x : XSave) (d : Dir) {a b : ℕ → ℝ} (h : ∀ j < n, a j = b j) {i : ℕ} (hi : i < n) :
    fhtq n x d a i = fhtq n x d b i := by
  refine eq_of_dft hn _ _ (fun m hm => ?_) hi
  rw [dft_fhtq hn x d _ hm, dft_fhtq hn x d _ hm, dft_congr h]

theorem fhtq_roundtrip (hn : 0 < n) (h : fhti lg n mu dlnr q kr opt = .ok (kr', x)) (h3 : q ≠ 0 → x.val 3 ≠ 0)
    (hN : n % 2 = 0 → Real.cos (argB lg n mu q dlnr kr' (n / 2)) ≠ 0) {d e : Dir} (hde : d ≠ e) (a : ℕ → ℝ) {i : ℕ}
    (hi : i < n) : fhtq n x e (fhtq n x d a) i = a i :=
  eq_of_dft hn _ _ (fun m hm => by rw [dft_fhtq_fhtq hn x d e a hm, fac_inv h h3 hN hde hm, one_mul]) hi

/-- `loggamma` is a logarithm of the gamma function -/
def IsLogGamma (lg : ℂ → ℂ) : Prop := ∀ s, Complex.Gamma s ≠ 0 → Complex.exp (lg s) = Complex.Gamma s

theorem npRound_int (k : ℤ) : npRound k = k := by
  unfold npRound
  simp

theorem gamma_ne_zero_of_not {t : ℝ} (h : ¬ IsNegInt t) : Complex.Gamma (t : ℂ) ≠ 0 := by
  refine Complex.Gamma_ne_zero fun m hm => h ?_
  have : t = ((-m : ℤ) : ℝ) := by
    have : (t : ℂ) = ((-(m : ℝ) : ℝ) : ℂ) := by rw [hm]; push_cast; ring
    rw [Complex.ofReal_injective this]; push_cast; ring
  rw [this]
  refine ⟨by rw [npRound_int], ?_⟩
  push_cast
  have := Nat.cast_nonneg (α := ℝ) m
  linarith

/-- real and imaginary part of `loggamma` on the real axis -/
theorem lg_real (hlg : IsLogGamma lg) {t : ℝ} (h : ¬ IsNegInt t) :
    Real.exp (lg t).re * Real.cos (lg t).im = Real.Gamma t ∧ Real.sin (lg t).im = 0 := by
  have e := hlg t (gamma_ne_zero_of_not h)
  rw [Complex.Gamma_ofReal] at e
  have h1 := congrArg Complex.re e
  have h2 := congrArg Complex.im e
  rw [Complex.exp_re, Complex.ofReal_re] at h1
  rw [Complex.exp_im, Complex.ofReal_im] at h2
  exact ⟨h1, (mul_eq_zero.1 h2).resolve_left (Real.exp_pos _).ne'⟩

/-- the first element is `U_mu(q)` -/
theorem xsave1_eq (hlg : IsLogGamma lg) (hp : ¬ IsNegInt ((mu + 1 + q) / 2)) (hm : ¬ IsNegInt ((mu + 1 - q) / 2)) {f : ℝ}
    (h : xsave1 lg mu q = .ok f) :
    f = 2 ^ q * Real.Gamma ((mu + 1 + q) / 2) / Real.Gamma ((mu + 1 - q) / 2) ∧ f ≠ 0 := by
  unfold xsave1 at h
  simp only [hp, hm, false_and, if_false, or_self] at h
  injection h with h
  obtain ⟨p1, p2⟩ := lg_real hlg hp
  obtain ⟨m1, m2⟩ := lg_real hlg hm
  have sq : Real.cos (lg ((mu + 1 - q) / 2 : ℝ)).im ^ 2 = 1 := by
    have := Real.cos_sq_add_sin_sq (lg ((mu + 1 - q) / 2 : ℝ)).im
    rw [m2] at this; simpa using this
  have sqp : Real.cos (lg ((mu + 1 + q) / 2 : ℝ)).im ≠ 0 := by
    have := Real.cos_sq_add_sin_sq (lg ((mu + 1 + q) / 2 : ℝ)).im
    rw [p2] at this
    intro h0
    rw [h0] at this; norm_num at this
  have cm : Real.cos (lg ((mu + 1 - q) / 2 : ℝ)).im ≠ 0 := by
    intro h0; rw [h0] at sq; norm_num at sq
  have e : f = 2 ^ q * (Real.exp (lg ((mu + 1 + q) / 2 : ℝ)).re * Real.cos (lg ((mu + 1 + q) / 2 : ℝ)).im) /
      (Real.exp (lg ((mu + 1 - q) / 2 : ℝ)).re * Real.cos (lg ((mu + 1 - q) / 2 : ℝ)).im) := by
    rw [← h, Real.cos_add, p2, m2, Real.exp_sub, Real.exp_add, Real.rpow_def_of_pos two_pos]
    have := Real.exp_pos (lg ((mu + 1 - q) / 2 : ℝ)).re
    field_simp
    linear_combination Real.cos (lg ((mu + 1 + q) / 2 : ℝ)).im * sq
  refine ⟨by rw [e, p1, m1], ?_⟩
  rw [e]
  have h1 := Real.exp_pos (lg ((mu + 1 - q) / 2 : ℝ)).re
  have h2 := Real.exp_pos (lg ((mu + 1 + q) / 2 : ℝ)).re
  have h3 : (0 : ℝ) < 2 ^ q := Real.rpow_pos_of_pos two_pos _
  exact div_ne_zero (mul_ne_zero h3.ne' (mul_ne_zero h2.ne' sqp)) (mul_ne_zero h1.ne' cm)

theorem first_ne_zero (hlg : IsLogGamma lg) (h : fhti lg n mu dlnr q kr opt = .ok (kr', x))
    (hp : ¬ IsNegInt ((mu + 1 + q) / 2)) (hm : ¬ IsNegInt ((mu + 1 - q) / 2)) : q ≠ 0 → x.val 3 ≠ 0 := by
  intro hq
  obtain ⟨_, f, hf, rfl⟩ := fhti_biased h hq
  simpa [xsaveB] using (xsave1_eq hlg hp hm hf).2

/-- C104: a transform followed by the transform in the other direction gives back every array, for `fhtq` and `fht`, if
`U_mu(q)` is regular and, for an even number of points, the phase at the last coefficient is not purely imaginary -/
theorem C104_roundtrip (hlg : IsLogGamma lg) (hn : 0 < n) (h : fhti lg n mu dlnr q kr opt = .ok (kr', x))
    (hp : ¬ IsNegInt ((mu + 1 + q) / 2)) (hm : ¬ IsNegInt ((mu + 1 - q) / 2))
    (hN : n % 2 = 0 → Real.cos (argB lg n mu q dlnr kr' (n / 2)) ≠ 0) (d e : Dir) (hde : d ≠ e) (a : ℕ → ℝ) (i : ℕ)
    (hi : i < n) : fhtq n x e (fhtq n x d a) i = a i ∧ fht n x e (fht n x d a) i = a i := by
  have h3 := first_ne_zero hlg h hp hm
  have rt := fun (a : ℕ → ℝ) (i : ℕ) (hi : i < n) => fhtq_roundtrip hn h h3 hN hde a hi
  have hs : e.sign = -d.sign := by cases d <;> cases e <;> simp_all [Dir.sign]
  refine ⟨rt a i hi, ?_⟩
  unfold fht
  simp only
  by_cases hq : x.val 0 = 0
  · simp only [ne_eq, hq, not_true_eq_false, if_false]
    exact rt a i hi
  · simp only [ne_eq, hq, not_false_eq_true, if_true]
    set E := fun j => Real.exp (-d.sign * x.val 0 * centred n j * x.val 1)
    set K := Real.exp (-d.sign * x.val 0 * Real.log (x.val 2))
    have e1 : ∀ j < n, fhtq n x d (fun j => a j * Real.exp (-d.sign * x.val 0 * centred n j * x.val 1)) j *
        Real.exp (-d.sign * x.val 0 * (centred n j * x.val 1 + Real.log (x.val 2))) *
        Real.exp (-e.sign * x.val 0 * centred n j * x.val 1) = K * fhtq n x d (fun j => a j * E j) j := by
      intro j _
      rw [mul_assoc, ← Real.exp_add, mul_comm]
      congr 2
      rw [hs]; ring
    rw [fhtq_congr hn x e e1 hi, fhtq_smul hn x e K _ hi, rt _ i hi]
    simp only [E, K]
    rw [show ∀ p q r s : ℝ, p * (q * r) * s = q * (p * r * s) by intros; ring, ← Real.exp_add, ← Real.exp_add, hs,
      show -d.sign * x.val 0 * Real.log (x.val 2) + -d.sign * x.val 0 * centred n i * x.val 1 +
        -(-d.sign) * x.val 0 * (centred n i * x.val 1 + Real.log (x.val 2)) = 0 by ring, Real.exp_zero, mul_one]

/-- C104: where `U_mu(q)` is singular the mean of the array is lost: forward then backward subtracts it -/
theorem C104_singular (hn : 0 < n) (h : fhti lg n mu dlnr q kr opt = .ok (kr', x)) (hq : q ≠ 0)
    (hs : (IsNegInt ((mu + 1 + q) / 2) ∧ ¬ IsNegInt ((mu + 1 - q) / 2)) ∨
      (¬ IsNegInt ((mu + 1 + q) / 2) ∧ IsNegInt ((mu + 1 - q) / 2)))
    (hN : n % 2 = 0 → Real.cos (argB lg n mu q dlnr kr' (n / 2)) ≠ 0) (d e : Dir) (hde : d ≠ e) (a : ℕ → ℝ) (i : ℕ)
    (hi : i < n) : fhtq n x e (fhtq n x d a) i = a i - (∑ j ∈ range n, a j) / n := by
  have hnc : (n : ℂ) ≠ 0 := by exact_mod_cast hn.ne'
  have h3 : x.val 3 = 0 := by
    obtain ⟨_, f, hf, rfl⟩ := fhti_biased h hq
    have : f = 0 := by
      unfold xsave1 at hf
      rcases hs with ⟨a, b⟩ | ⟨a, b⟩ <;> simp only [a, b, and_false, false_and, if_false, or_true, true_or, if_true] at hf <;>
        (injection hf with hf; exact hf.symm)
    simp [xsaveB, this]
  refine eq_of_dft hn _ (fun i => a i - (∑ j ∈ range n, a j) / n) (fun m hm => ?_) hi
  rw [dft_fhtq_fhtq hn x d e a hm]
  have hconst : dft n (fun i => a i - (∑ j ∈ range n, a j) / n) m =
      dft n a m - if m = 0 then (∑ j ∈ range n, (a j : ℂ)) else 0 := by
    rw [dft_eq, dft_eq]
    have : ∀ j : ℕ, (((a j - (∑ j ∈ range n, a j) / n : ℝ) : ℂ)) * ee (-(j * m / n)) =
        a j * ee (-(j * m / n)) - ((∑ j ∈ range n, (a j : ℂ)) / n) * ee (j * (((-m : ℤ) : ℝ) / n)) := by
      intro j
      rw [show (j : ℝ) * (((-m : ℤ) : ℝ) / n) = -(j * m / n) by push_cast; ring]
      push_cast; ring
    simp_rw [this]
    rw [sum_sub_distrib, ← mul_sum, sum_ee hn]
    congr 1
    by_cases h0 : m = 0
    · subst h0; simp [hnc]
    · rw [if_neg h0, if_neg, mul_zero]
      rw [dvd_neg]
      intro hd
      have := Int.le_of_dvd (by omega) hd
      omega
  rw [hconst]
  by_cases h0 : m = 0
  · subst h0
    have : fac n x d 0 = 0 ∨ fac n x e 0 = 0 := by
      unfold fac uMul pG0
      rw [if_pos rfl, if_pos rfl, if_neg (by rw [(fhti_head h).1]; exact hq), if_neg (by rw [(fhti_head h).1]; exact hq), h3]
      cases d <;> simp [Dir.act]
    have hz : conj (fac n x e 0) * fac n x d 0 = 0 := by rcases this with h | h <;> rw [h] <;> simp
    rw [hz, zero_mul, if_pos rfl, dft_eq]
    simp [ee_zero]
  · rw [if_neg h0, sub_zero]
    rw [fac_inv_pos h hN hde (by omega) hm, one_mul]

/-! ## Low-ringing `kr` -/

theorem npRound_near (t : ℝ) : |t - npRound t| ≤ 1 / 2 := by
  have h1 := Int.fract_nonneg t
  have h2 := Int.fract_lt_one t
  have h3 : t = ⌊t⌋ + Int.fract t := (Int.floor_add_fract t).symm
  unfold npRound
  split_ifs <;> rw [abs_le] <;> push_cast <;> constructor <;> linarith

theorem argB_last (hd : dlnr ≠ 0) (hn : 2 ≤ n) (he : n % 2 = 0) :
    argB lg n mu q dlnr kr (n / 2) = Real.pi * (Real.log (2 / kr) / dlnr +
      ((lg (((mu + 1 + q) / 2 : ℝ) + Complex.I * (Real.pi / (2 * dlnr)))).im +
        (lg (((mu + 1 - q) / 2 : ℝ) + Complex.I * (Real.pi / (2 * dlnr)))).im) / Real.pi) := by
  have hn' : (n : ℝ) ≠ 0 := by positivity
  have hy : ((n / 2 : ℕ) : ℝ) * (Real.pi / (n * dlnr)) = Real.pi / (2 * dlnr) := by
    rw [Nat.cast_div (by omega) (by norm_num)]
    push_cast
    field_simp
  unfold argB
  simp only
  rw [hy]
  have hpi := Real.pi_ne_zero
  push_cast
  field_simp
  ring

/-- C104: `krgood` stays within half a step of the requested product, and makes the last phase real -/
theorem C104_low_ringing (hk : 0 < kr) (hd : dlnr ≠ 0) :
    0 < krgood lg mu q dlnr kr ∧ |Real.log (krgood lg mu q dlnr kr) - Real.log kr| ≤ |dlnr| / 2 ∧
    (2 ≤ n → n % 2 = 0 → Real.sin (argB lg n mu q dlnr (krgood lg mu q dlnr kr) (n / 2)) = 0 ∧
      |Real.cos (argB lg n mu q dlnr (krgood lg mu q dlnr kr) (n / 2))| = 1) := by
  set arg := Real.log (2 / kr) / dlnr + ((lg (((mu + 1 + q) / 2 : ℝ) + Complex.I * (Real.pi / (2 * dlnr)))).im +
        (lg (((mu + 1 - q) / 2 : ℝ) + Complex.I * (Real.pi / (2 * dlnr)))).im) / Real.pi with harg
  have e : krgood lg mu q dlnr kr = kr * Real.exp ((arg - npRound arg) * dlnr) := by
    unfold krgood
    rw [if_neg hd]
  have hpos : 0 < krgood lg mu q dlnr kr := by rw [e]; positivity
  have hlog : Real.log (krgood lg mu q dlnr kr) = Real.log kr + (arg - npRound arg) * dlnr := by
    rw [e, Real.log_mul hk.ne' (Real.exp_pos _).ne', Real.log_exp]
  refine ⟨hpos, ?_, ?_⟩
  · rw [hlog, add_sub_cancel_left, abs_mul]
    have := mul_le_mul_of_nonneg_right (npRound_near arg) (abs_nonneg dlnr)
    linarith
  · intro hn he
    have ha : argB lg n mu q dlnr (krgood lg mu q dlnr kr) (n / 2) = npRound arg * Real.pi := by
      rw [argB_last hd hn he, Real.log_div two_ne_zero hpos.ne', hlog]
      rw [Real.log_div two_ne_zero hk.ne'] at harg
      rw [mul_comm Real.pi]
      congr 1
      have : (Real.log 2 - (Real.log kr + (arg - npRound arg) * dlnr)) / dlnr =
          (Real.log 2 - Real.log kr) / dlnr - (arg - npRound arg) := by field_simp; ring
      rw [this]
      linarith
    rw [ha]
    refine ⟨Real.sin_int_mul_pi _, ?_⟩
    have := Real.abs_cos_int_mul_pi (npRound arg)
    exact this

/-- C104: in the set-up of `pk_to_real.py` (bias 0, `kropt = 1`) the transform is its own inverse, the same in both
directions, and preserves the sum of squares, for every order, number of points and spacing -/
theorem C104_unbiased (hn : 0 < n) (hk : 0 < kr) (hd : dlnr ≠ 0) (h : fhti lg n mu dlnr 0 kr .quiet = .ok (kr', x))
    (d e : Dir) (a : ℕ → ℝ) : (∀ i < n, fht n x e (fht n x d a) i = a i) ∧ (∀ i < n, fht n x e a i = fht n x d a i) ∧
      ∑ i ∈ range n, fht n x d a i ^ 2 = ∑ i ∈ range n, a i ^ 2 := by
  have hkr : kr' = krgood lg mu 0 dlnr kr := (fhti_zero h rfl).1
  have hx0 : x.val 0 = 0 := (fhti_head h).1
  have lr := (C104_low_ringing (lg := lg) (n := n) (mu := mu) (q := 0) hk hd).2.2
  rw [← hkr] at lr
  have hcos : 2 ≤ n → n % 2 = 0 → Real.cos (argB lg n mu 0 dlnr kr' (n / 2)) ^ 2 = 1 := by
    intro h2 he
    rw [← sq_abs, (lr h2 he).2, one_pow]
  have efht : ∀ (d : Dir) (a : ℕ → ℝ) i, fht n x d a i = fhtq n x d a i := by
    intro d a i
    unfold fht
    simp [hx0]
  have efht' : ∀ (d : Dir) (a : ℕ → ℝ), fht n x d a = fhtq n x d a := fun d a => funext (efht d a)
  -- both directions have the same factors
  have hfac : ∀ m < n, fac n x e m = fac n x d m := by
    intro m hm
    have hG : ∀ d, pG0 x d = 1 := fun d => by unfold pG0; rw [if_pos hx0]
    have hA : ∀ d, pA x d = fun _ => 1 := fun d => funext fun m => by unfold pA; rw [if_pos hx0]
    unfold fac
    rw [hG, hG, hA, hA]
    unfold uMul
    split_ifs with h1 h2 h3
    · rfl
    · rfl
    · rw [fhti_pGN h e (by omega), fhti_pGN h d (by omega), ampB_zero, mul_one]
      have hc := hcos (by omega) (by omega)
      have hc0 : Real.cos (argB lg n mu 0 dlnr kr' (n / 2)) ≠ 0 := fun h0 => by rw [h0] at hc; norm_num at hc
      have : (1 : ℝ) / Real.cos (argB lg n mu 0 dlnr kr' (n / 2)) = 1 * Real.cos (argB lg n mu 0 dlnr kr' (n / 2)) := by
        rw [div_eq_iff hc0]; linarith [hc]
      congr 1
      cases d <;> cases e <;> simp only [Dir.act] <;> first | rfl | exact this | exact this.symm
    · rfl
  have same : ∀ (a : ℕ → ℝ), ∀ i < n, fhtq n x e a i = fhtq n x d a i := by
    intro a i hi
    exact eq_of_dft hn _ _ (fun m hm => by rw [dft_fhtq hn x e a hm, dft_fhtq hn x d a hm, hfac m hm]) hi
  obtain ⟨o, ho⟩ : ∃ o : Dir, d ≠ o := by cases d; exacts [⟨.bwd, by simp⟩, ⟨.fwd, by simp⟩]
  have hN : n % 2 = 0 → Real.cos (argB lg n mu 0 dlnr kr' (n / 2)) ≠ 0 := by
    intro he h0
    have := hcos (by omega) he
    rw [h0] at this; norm_num at this
  have unit : ∀ m < n, Complex.normSq (fac n x d m) = 1 := by
    intro m hm
    have hG : pG0 x d = 1 := by unfold pG0; rw [if_pos hx0]
    have hA : pA x d = fun _ => 1 := funext fun m => by unfold pA; rw [if_pos hx0]
    unfold fac
    rw [hG, hA]
    unfold uMul
    split_ifs with h1 h2 h3
    · simp
    · rw [(fhti_pC h (by omega)).1, (fhti_pC h (by omega)).2]
      simp [Complex.normSq_apply, ← sq]
    · rw [fhti_pGN h d (by omega), ampB_zero, mul_one, Complex.normSq_ofReal]
      have hc := hcos (by omega) (by omega)
      cases d
      · simp only [Dir.act]; linarith [hc]
      · simp only [Dir.act]
        rw [one_div, ← mul_inv, ← sq, hc, inv_one]
    · rw [Complex.normSq_conj, (fhti_pC h (by omega)).1, (fhti_pC h (by omega)).2]
      simp [Complex.normSq_apply, ← sq]
  refine ⟨fun i hi => ?_, fun i hi => ?_, ?_⟩
  · rw [efht', efht']
    by_cases hde : d = e
    · have s2 : ∀ (b : ℕ → ℝ), ∀ i < n, fhtq n x o b i = fhtq n x d b i := by
        intro b i hi
        refine eq_of_dft hn _ _ (fun m hm => ?_) hi
        have hh : conj (fac n x o m) * fac n x d m = 1 :=
          fac_inv h (fun h0 => absurd rfl h0) hN ho hm
        have hu : conj (fac n x d m) * fac n x d m = 1 := by
          rw [mul_comm, Complex.mul_conj, unit m hm]; simp
        have hne : fac n x d m ≠ 0 := fun h0 => by rw [h0, mul_zero] at hu; exact zero_ne_one hu
        have : fac n x o m = fac n x d m := by
          have := mul_right_cancel₀ hne (hh.trans hu.symm)
          exact (starRingEnd ℂ).injective this
        rw [dft_fhtq hn x o b hm, dft_fhtq hn x d b hm, this]
      rw [← hde, ← s2 _ i hi]
      exact fhtq_roundtrip hn h (fun h0 => absurd rfl h0) hN ho a hi
    · exact fhtq_roundtrip hn h (fun h0 => absurd rfl h0) hN hde a hi
  · rw [efht, efht, same a i hi]
  · have hnr : (n : ℝ) ≠ 0 := by positivity
    apply mul_left_cancel₀ hnr
    rw [efht', ← parseval hn, ← parseval hn]
    refine sum_congr rfl fun m hm => ?_
    rw [mem_range] at hm
    rw [dft_fhtq hn x d a hm, Complex.normSq_mul, Complex.normSq_conj, Complex.normSq_mul, unit m hm, one_mul]
    have : Complex.normSq (ee (m / n)) = 1 := by
      have h1 : ee (m / n) * conj (ee (m / n)) = 1 := by rw [ee_conj, ← ee_add]; simp [ee_zero]
      rw [Complex.mul_conj] at h1
      exact_mod_cast h1
    rw [this, one_mul]

end Verif.FftLog

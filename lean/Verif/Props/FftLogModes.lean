import Verif.Props.FftLog
import Verif.Props.RealSpaceInterp

/-! Property C104, continued: what the logarithmic Hankel transform computes, and the separations of `pk_to_real.py`. -/

namespace Verif.FftLog

open Verif.Lib Finset ComplexConjugate

variable {lg : ℂ → ℂ} {n : ℕ} {mu dlnr q kr kr' : ℝ} {opt : KrOpt} {x : XSave}

/-- the Mellin transform of the Bessel function: `∫ t^s J_mu(t) dt = U_mu(s)`, so that the Hankel transform
`∫ r^s J_mu(k r) k dr` of a power law is `U_mu(s) k^(-s)` (pyfftlog.py:77-84) -/
noncomputable def U (mu : ℝ) (s : ℂ) : ℂ := 2 ^ s * Complex.Gamma ((mu + 1 + s) / 2) / Complex.Gamma ((mu + 1 - s) / 2)

/-- coefficients of one oscillation -/
theorem dft_mode {m l : ℕ} (hm : 2 * m < n) (hl : l < n) (D : ℂ) :
    dft n (fun j => (D * ee (m * j / n)).re) l =
      n / 2 * ((if l = m then D else 0) + if (n : ℤ) ∣ (m + l : ℤ) then conj D else 0) := by
  have hn : 0 < n := by omega
  rw [dft_eq]
  have e : ∀ j : ℕ, (((D * ee (m * j / n)).re : ℝ) : ℂ) * ee (-(j * l / n)) =
      D / 2 * ee (j * (((m - l : ℤ) : ℝ) / n)) + conj D / 2 * ee (j * (((-(m + l) : ℤ) : ℝ) / n)) := by
    intro j
    rw [Complex.re_eq_add_conj, map_mul, ee_conj]
    have h1 : ee (j * (((m - l : ℤ) : ℝ) / n)) = ee (m * j / n) * ee (-(j * l / n)) := by
      rw [← ee_add]; congr 1; push_cast; ring
    have h2 : ee (j * (((-(m + l) : ℤ) : ℝ) / n)) = ee (-(m * j / n)) * ee (-(j * l / n)) := by
      rw [← ee_add]; congr 1; push_cast; ring
    rw [h1, h2]
    ring
  simp_rw [e]
  rw [sum_add_distrib, ← mul_sum, ← mul_sum, sum_ee hn, sum_ee hn]
  have : ((n : ℤ) ∣ (m - l : ℤ)) ↔ l = m := by
    constructor
    · rintro ⟨k, hk⟩
      have : k = 0 := by
        by_contra h0
        have := Int.le_of_dvd (a := (n : ℤ)) (b := |(m : ℤ) - l|) (by
          rw [abs_pos, hk]; exact mul_ne_zero (by omega) h0) ((dvd_abs _ _).2 ⟨k, hk⟩)
        rcases abs_cases ((m : ℤ) - l) with h' | h' <;> omega
      subst this
      omega
    · rintro rfl; simp
  simp only [this, dvd_neg]
  split_ifs <;> ring

theorem fac_conj {d : Dir} {m : ℕ} (h0 : 0 < m) (hm : 2 * m < n) : fac n x d (n - m) = conj (fac n x d m) := by
  unfold fac uMul
  rw [if_neg (by omega : ¬ n - m = 0), if_neg (by omega), if_neg (by omega), if_neg (by omega), if_pos hm,
    show n - (n - m) = m by omega]

theorem fac_zero_conj {d : Dir} : conj (fac n x d 0) = fac n x d 0 := by
  unfold fac uMul
  rw [if_pos rfl, Complex.conj_ofReal]

/-- transform of one oscillation -/
theorem fhtq_mode {m : ℕ} (hm : 2 * m < n) (x : XSave) (d : Dir) (D : ℂ) {i : ℕ} (hi : i < n) :
    fhtq n x d (fun j => (D * ee (m * j / n)).re) i = (ee (m / n) * conj (fac n x d m * D) * ee (m * i / n)).re := by
  have hn : 0 < n := by omega
  have hnr : (n : ℝ) ≠ 0 := by positivity
  refine eq_of_dft hn _ (fun i => (ee (m / n) * conj (fac n x d m * D) * ee (m * i / n)).re) (fun l hl => ?_) hi
  rw [dft_fhtq hn x d _ hl, dft_mode hm hl, dft_mode hm hl]
  rcases Nat.eq_zero_or_pos m with rfl | h0
  · have hd : ((n : ℤ) ∣ ((0 : ℕ) + l : ℤ)) ↔ l = 0 := by
      constructor
      · intro h
        by_contra h0
        have := Int.le_of_dvd (by omega) h
        omega
      · rintro rfl; simp
    simp only [hd]
    by_cases hl0 : l = 0
    · subst hl0
      simp only [if_true, map_mul, map_add, Complex.conj_conj, fac_zero_conj, Nat.cast_zero, zero_div, ee_zero, map_div₀,
        Complex.conj_natCast, map_ofNat, map_one]
      ring
    · simp [hl0]
  · by_cases h1 : l = m
    · subst h1
      have : ¬ (n : ℤ) ∣ (l + l : ℤ) := by
        intro h
        have := Int.le_of_dvd (by omega) h
        omega
      simp only [if_true, this, if_false, add_zero, map_mul, map_div₀, Complex.conj_natCast, map_ofNat]
      ring
    · by_cases h2 : l = n - m
      · have hd : (n : ℤ) ∣ (m + l : ℤ) := ⟨1, by omega⟩
        rw [if_neg h1, if_neg h1, if_pos hd, if_pos hd, h2, fac_conj h0 hm]
        have : ee (((n - m : ℕ) : ℝ) / n) = ee (-(m / n)) := by
          rw [Nat.cast_sub (by omega), show ((n : ℝ) - m) / n = -(m / n) + ((1 : ℤ) : ℝ) by push_cast; field_simp; ring,
            ee_add_int]
        rw [this]
        simp only [map_mul, map_add, map_zero, Complex.conj_conj, ee_conj, map_div₀, Complex.conj_natCast, map_ofNat, zero_add]
        ring
      · have hd : ¬ (n : ℤ) ∣ (m + l : ℤ) := by
          rintro ⟨k, hk⟩
          have hk1 : k = 1 := by
            have a1 : 0 < k := by
              by_contra h
              have : (n : ℤ) * k ≤ 0 := mul_nonpos_of_nonneg_of_nonpos (by omega) (by omega)
              omega
            have a2 : k < 2 := by
              by_contra h
              have : (n : ℤ) * 2 ≤ n * k := mul_le_mul_of_nonneg_left (by omega) (by omega)
              omega
            omega
          subst hk1
          omega
        simp [h1, hd]

/-- the factors stored by `fhti` are `kr^(-2iy) U_mu(q + 2iy)` -/
theorem fac_fwd (hlg : IsLogGamma lg) (h : fhti lg n mu dlnr q kr opt = .ok (kr', x)) (hk : 0 < kr') (hd : dlnr ≠ 0)
    (hp : ¬ IsNegInt ((mu + 1 + q) / 2)) (hm' : ¬ IsNegInt ((mu + 1 - q) / 2)) {m : ℕ} (hm : 2 * m < n) :
    let s : ℂ := 2 * Complex.I * (m * (Real.pi / (n * dlnr)) : ℝ)
    fac n x .fwd m = U mu (q + s) * Complex.exp (-s * Real.log kr') := by
  intro s
  have hn : (n : ℝ) ≠ 0 := by
    have : 0 < n := by omega
    positivity
  rcases Nat.eq_zero_or_pos m with rfl | h0
  · have hs : s = 0 := by simp [s]
    rw [hs]
    simp only [add_zero, neg_zero, zero_mul, Complex.exp_zero, mul_one]
    unfold fac uMul pG0
    rw [if_pos rfl, (fhti_head h).1]
    have gm : Real.Gamma ((mu + 1 - q) / 2) ≠ 0 := by
      have := gamma_ne_zero_of_not hm'
      rw [Complex.Gamma_ofReal] at this
      exact_mod_cast this
    have ur : U mu q = ((2 ^ q * Real.Gamma ((mu + 1 + q) / 2) / Real.Gamma ((mu + 1 - q) / 2) : ℝ) : ℂ) := by
      unfold U
      push_cast
      rw [← Complex.Gamma_ofReal, ← Complex.Gamma_ofReal, Complex.ofReal_cpow (by norm_num)]
      push_cast
      rfl
    rw [ur]
    by_cases hq : q = 0
    · rw [if_pos hq, hq]
      rw [hq] at gm
      simp only [add_zero, sub_zero, Real.rpow_zero, one_mul] at gm ⊢
      rw [div_self gm]
    · rw [if_neg hq]
      obtain ⟨_, f, hf, rfl⟩ := fhti_biased h hq
      rw [← (xsave1_eq hlg hp hm' hf).1]
      simp [Dir.act, xsaveB]
  · have hy : (m * (Real.pi / (n * dlnr)) : ℝ) ≠ 0 :=
      mul_ne_zero (by positivity) (div_ne_zero Real.pi_ne_zero (mul_ne_zero hn hd))
    set y : ℝ := m * (Real.pi / (n * dlnr)) with hydef
    have gne : ∀ t : ℝ, Complex.Gamma ((t : ℂ) + Complex.I * y) ≠ 0 := by
      intro t
      refine Complex.Gamma_ne_zero fun k hk => hy ?_
      have := congrArg Complex.im hk
      simpa using this
    unfold fac uMul
    rw [if_neg (by omega), if_pos hm, fhti_pA h _ h0, (fhti_pC h h0).1, (fhti_pC h h0).2]
    set zp := lg (((mu + 1 + q) / 2 : ℝ) + Complex.I * y) with hzp
    set zm := lg (((mu + 1 - q) / 2 : ℝ) + Complex.I * y) with hzm
    have e1 : ampB lg n mu q dlnr m = Real.exp (Real.log 2 * q + zp.re - zm.re) := by
      unfold ampB; simp only [hzp, hzm, hydef]; push_cast; rfl
    have e2 : argB lg n mu q dlnr kr' m = 2 * Real.log (2 / kr') * y + zp.im + zm.im := by
      unfold argB; simp only [hzp, hzm, hydef]; push_cast; rfl
    have e3 : ∀ t : ℝ, (⟨Real.cos t, Real.sin t⟩ : ℂ) = Complex.exp (t * Complex.I) := by
      intro t
      rw [Complex.exp_mul_I]
      apply Complex.ext <;> simp [Complex.cos_ofReal_re, Complex.sin_ofReal_re, Complex.cos_ofReal_im, Complex.sin_ofReal_im]
    have gp : Complex.Gamma ((mu + 1 + (q + s)) / 2) = Complex.exp zp := by
      rw [hzp, hlg _ (gne _)]
      congr 1; simp only [s, hydef]; push_cast; ring
    have gm : Complex.Gamma ((mu + 1 - (q + s)) / 2) = Complex.exp (conj zm) := by
      rw [Complex.exp_conj, hzm, hlg _ (gne _), ← Complex.Gamma_conj]
      congr 1
      simp only [s, hydef, map_add, map_mul, Complex.conj_I, Complex.conj_ofReal]; push_cast; ring
    unfold U
    rw [gp, gm, e1, e2, e3, Complex.cpow_def_of_ne_zero two_ne_zero, ← Complex.exp_add, ← Complex.exp_sub, ← Complex.exp_add]
    simp only [Dir.act, one_mul]
    rw [Complex.ofReal_exp, ← Complex.exp_add]
    congr 1
    rw [Real.log_div two_ne_zero hk.ne', show Complex.log 2 = ((Real.log 2 : ℝ) : ℂ) by rw [Complex.ofReal_log (by norm_num)]; simp]
    have hsy : s = 2 * Complex.I * y := rfl
    rw [hsy]
    clear_value zp zm y
    clear * -
    apply Complex.ext
    · simp
      ring
    · simp
      ring

/-- C104: on an array that samples a log-periodic oscillation times the bias power law, `A(r) = Re[C (r/r_c)^s]` with
`s = q + 2πi m/(n dlnr)`, the transform returns the continuous Hankel transform `Re[C U_mu(s) (k r_c)^(-s)]` exactly, at the
wavenumbers `k = (kr/r_c) exp((i + 1 - (n+1)/2) dlnr)` -/
theorem C104_modes (hlg : IsLogGamma lg) (h : fhti lg n mu dlnr q kr opt = .ok (kr', x)) (hk : 0 < kr') (hd : dlnr ≠ 0)
    (hp : ¬ IsNegInt ((mu + 1 + q) / 2)) (hm' : ¬ IsNegInt ((mu + 1 - q) / 2)) (m : ℕ) (hm : 2 * m < n) (C : ℂ) (rc : ℝ)
    (hrc : 0 < rc) (i : ℕ) (hi : i < n) :
    let s : ℂ := q + 2 * Real.pi * Complex.I * m / (n * dlnr)
    let r := fun j : ℕ => rc * Real.exp ((j + 1 - (n + 1) / 2) * dlnr)
    let k := kr' / rc * Real.exp ((i + 1 - (n + 1) / 2) * dlnr)
    fht n x .fwd (fun j => (C * ((r j / rc : ℝ) : ℂ) ^ s).re) i = (C * U mu s * ((k * rc : ℝ) : ℂ) ^ (-s)).re := by
  intro s r k
  have hn : 0 < n := by omega
  have hnr : (n : ℝ) ≠ 0 := by positivity
  have hnc : (n : ℂ) ≠ 0 := by exact_mod_cast hn.ne'
  have hdc : (dlnr : ℂ) ≠ 0 := by exact_mod_cast hd
  set t : ℂ := 2 * Complex.I * (m * (Real.pi / (n * dlnr)) : ℝ) with ht
  have hst : s = q + t := by simp only [s, ht]; push_cast; ring
  have hexp : ∀ u : ℝ, ∀ z : ℂ, ((Real.exp u : ℝ) : ℂ) ^ z = Complex.exp (u * z) := by
    intro u z
    rw [Complex.cpow_def_of_ne_zero (by exact_mod_cast (Real.exp_pos u).ne'), ← Complex.ofReal_log (Real.exp_pos u).le,
      Real.log_exp]
  have hee : ∀ u : ℝ, Complex.exp ((u * dlnr : ℝ) * t) = ee (m * u / n) := by
    intro u
    unfold ee
    congr 1
    simp only [ht]; push_cast; field_simp
  have hr : ∀ j : ℕ, r j / rc = Real.exp (centred n j * dlnr) := by
    intro j
    simp only [r, centred]
    field_simp
  have hkk : k * rc = Real.exp (centred n i * dlnr + Real.log kr') := by
    rw [Real.exp_add, Real.exp_log hk]
    simp only [k, centred]
    field_simp
  -- the input without the bias
  have hin : ∀ j : ℕ, (C * ((r j / rc : ℝ) : ℂ) ^ s).re * Real.exp (-q * centred n j * dlnr) =
      (C * ee (m * (1 - (n + 1) / 2) / n) * ee (m * j / n)).re := by
    intro j
    rw [hr, hexp, hst, mul_add, Complex.exp_add, hee, ← Complex.re_mul_ofReal, mul_assoc C (ee _), ← ee_add]
    congr 1
    rw [Complex.ofReal_exp, mul_assoc, mul_right_comm, ← Complex.exp_add]
    rw [show ((centred n j * dlnr : ℝ) : ℂ) * q + ((-q * centred n j * dlnr : ℝ) : ℂ) = 0 by push_cast; ring, Complex.exp_zero,
      one_mul]
    congr 2
    unfold centred
    field_simp
    ring
  have key : fhtq n x .fwd (fun j => (C * ee (m * (1 - (n + 1) / 2) / n) * ee (m * j / n)).re) i *
      Real.exp (-q * (centred n i * dlnr + Real.log kr')) = (C * U mu s * ((k * rc : ℝ) : ℂ) ^ (-s)).re := by
    rw [fhtq_mode hm x .fwd _ hi, ← Complex.conj_re]
    rw [show conj (ee (m / n) * conj (fac n x .fwd m * (C * ee (m * (1 - (n + 1) / 2) / n))) * ee (m * i / n)) =
      fac n x .fwd m * C * ee (-(m * centred n i / n)) by
        simp only [map_mul, Complex.conj_conj, ee_conj]
        have : ee (-(m * centred n i / n)) = ee (-(m / n)) * ee (m * (1 - (n + 1) / 2) / n) * ee (-(m * i / n)) := by
          rw [← ee_add, ← ee_add, ← ee_add_int _ (-m : ℤ)]
          rw [show -(m * centred n i / n) + (((-m : ℤ) : ℤ) : ℝ) =
            -(m / n : ℝ) + m * (1 - (n + 1) / 2) / n + -(m * i / n) by
              unfold centred; push_cast; field_simp; ring]
        rw [this]; ring_nf]
    rw [← Complex.re_mul_ofReal, fac_fwd hlg h hk hd hp hm' hm, ← ht, ← hst, hkk, hexp]
    congr 1
    have h2 : ee (-(m * centred n i / n)) = Complex.exp (-((centred n i * dlnr : ℝ) * t)) := by
      rw [Complex.exp_neg, hee, ee_neg]
    rw [h2, Complex.ofReal_exp, show ∀ a b c d e : ℂ, a * b * c * d * e = c * a * (b * d * e) by intros; ring,
      ← Complex.exp_add, ← Complex.exp_add, hst]
    congr 2
    push_cast
    ring
  unfold fht
  rw [(fhti_head h).1, (fhti_head h).2.1, (fhti_head h).2.2]
  simp only [Dir.sign, neg_mul, one_mul]
  by_cases hq : q = 0
  · rw [if_neg (by simp [hq])]
    rw [← key, hq]
    simp only [neg_zero, zero_mul, Real.exp_zero, mul_one]
    refine fhtq_congr hn x .fwd (fun j _ => ?_) hi
    rw [← hin j, hq]
    simp
  · rw [if_pos hq, ← key]
    simp only [neg_mul] at hin ⊢
    rw [fhtq_congr hn x .fwd (fun j _ => hin j) hi]

/-! ## The separations of `pk_to_real.py` -/

open Verif.RealSpace in
/-- a `Transformer` whose transform is that of pyfftlog, set up as in pk_to_real.py:95-112, 128-137: bias 0, `kr` starting
from 1 and changed to the nearest low-ringing value, backward direction -/
def UsesFftLog (lg : ℂ → ℂ) (mu : ℝ) (T : Transformer) : Prop :=
  ∃ x, fhti lg T.n mu T.dlogr 0 1 .quiet = .ok (T.kr, x) ∧ T.fht = fht T.n x .bwd

/-- there is one for every order, number of points and range -/
theorem usesFftLog_exists (lg : ℂ → ℂ) (mu : ℝ) (n : ℕ) (kMin kMax rpMin rpMax : ℝ) :
    ∃ T : Verif.RealSpace.Transformer, T.n = n ∧ T.kMin = kMin ∧ T.kMax = kMax ∧ T.rpMin = rpMin ∧ T.rpMax = rpMax ∧
      UsesFftLog lg mu T := by
  let T0 : Verif.RealSpace.Transformer := ⟨n, kMin, kMax, rpMin, rpMax, 1, fun f => f⟩
  let kr := adjustKr lg mu 0 T0.dlogr 1 .quiet
  refine ⟨⟨n, kMin, kMax, rpMin, rpMax, kr, fht n (xsave0 lg n mu T0.dlogr kr) .bwd⟩, rfl, rfl, rfl, rfl, rfl,
    xsave0 lg n mu T0.dlogr kr, ?_, rfl⟩
  unfold fhti
  rw [if_pos rfl]
  rfl

open Verif.RealSpace

theorem dlogr_pos (T : Transformer) (hn : 2 ≤ T.n) (h0 : 0 < T.kMin) (h1 : T.kMin < T.kMax) : 0 < T.dlogr := by
  rw [T.dlogr_eq]
  have : (2 : ℝ) ≤ T.n := by exact_mod_cast hn
  exact div_pos (sub_pos.mpr (Real.log_lt_log h0 h1)) (by linarith)

/-- the transform of pyfftlog is a matrix, as the theorems on the correlation function module assume -/
theorem C104_linear (T : Transformer) (hT : UsesFftLog lg mu T) (hn : 0 < T.n) : IsMatrix T := by
  obtain ⟨x, h, hf⟩ := hT
  have hx0 : x.val 0 = 0 := (fhti_head h).1
  have e1 : ∀ f i, T.fht f i = fhtq T.n x .bwd f i := by
    intro f i
    rw [hf]
    unfold fht
    simp [hx0]
  have e2 : ∀ f i, fhtq T.n x .bwd f i = fhtq T.n x .bwd f (min i (T.n - 1)) := by
    intro f i
    unfold fhtq
    simp only
    congr 1
    omega
  have add : ∀ (a b : ℕ → ℝ) (i : ℕ), i < T.n →
      fhtq T.n x .bwd (fun j => a j + b j) i = fhtq T.n x .bwd a i + fhtq T.n x .bwd b i := by
    intro a b i hi
    refine eq_of_dft hn _ (fun i => fhtq T.n x .bwd a i + fhtq T.n x .bwd b i) (fun m hm => ?_) hi
    rw [dft_add, dft_fhtq hn x _ _ hm, dft_fhtq hn x _ _ hm, dft_fhtq hn x _ _ hm, dft_add]
    simp only [map_mul, map_add]
    ring
  have sum : ∀ (f : ℕ → ℝ) (i : ℕ), i < T.n → ∀ N, fhtq T.n x .bwd (fun j => ∑ l ∈ range N, f l * if j = l then 1 else 0) i =
      ∑ l ∈ range N, fhtq T.n x .bwd (fun j => if j = l then 1 else 0) i * f l := by
    intro f i hi N
    induction N with
    | zero =>
      simp only [range_zero, sum_empty]
      have := fhtq_smul hn x .bwd 0 (fun _ => 0) hi
      simpa using this
    | succ N ih =>
      simp only [sum_range_succ]
      rw [add _ _ i hi, ih, fhtq_smul hn x .bwd (f N) _ hi]
      ring
  refine ⟨fun i j => fhtq T.n x .bwd (fun l => if l = j then 1 else 0) (min i (T.n - 1)), fun f i => ?_⟩
  rw [e1, e2, ← sum f _ (by omega)]
  refine fhtq_congr hn x .bwd (fun j hj => ?_) (by omega)
  simp [hj]

/-- the projected correlation function `∫ k P(k) J_mu(k r) dk / 2π` of the power spectrum `k P(k) = Re[C (k/k_c)^s]` -/
noncomputable def projected (mu : ℝ) (C s : ℂ) (kc r : ℝ) : ℝ := (C * U mu s * ((r * kc : ℝ) : ℂ) ^ (-s)).re / (2 * Real.pi * r)

/-- C104: what the correlation function module returns for a log-periodic power spectrum: the value at index `i` belongs to
the separation one step above the reported one, `w_i = e^dlogr w(e^dlogr r_i)` -/
theorem C104_separation (hlg : IsLogGamma lg) (T : Transformer) (hT : UsesFftLog lg mu T) (hn : 2 ≤ T.n) (h0 : 0 < T.kMin)
    (h1 : T.kMin < T.kMax) (hmu : ¬ IsNegInt ((mu + 1) / 2)) (m : ℕ) (hm : 2 * m < T.n) (C : ℂ) (nk : ℕ) (kIn pk : ℕ → ℝ)
    (kc : ℝ) (hkc : kc = Real.sqrt (T.kMin * T.kMax)) (s : ℂ) (hs : s = 2 * Real.pi * Complex.I * m / (T.n * T.dlogr))
    (hin : ∀ j < T.n, T.k j * logInterp nk kIn pk (T.k j) = (C * ((T.k j / kc : ℝ) : ℂ) ^ s).re) (i : ℕ) (hi : i < T.n) :
    T.xi nk kIn pk i = Real.exp T.dlogr * projected mu C s kc (Real.exp T.dlogr * T.rp i) := by
  obtain ⟨x, h, hf⟩ := hT
  have hd := dlogr_pos T hn h0 h1
  have hkr : 0 < T.kr := by
    rw [(fhti_zero h rfl).1]
    exact (C104_low_ringing (lg := lg) (n := T.n) one_pos hd.ne').1
  have hkc0 : 0 < kc := by rw [hkc]; exact Real.sqrt_pos.2 (mul_pos h0 (h0.trans h1))
  have hlog : Real.log kc = 0.5 * (Real.log T.kMin + Real.log T.kMax) := by
    rw [hkc, Real.log_sqrt (mul_pos h0 (h0.trans h1)).le, Real.log_mul h0.ne' (h0.trans h1).ne']; norm_num; ring
  have hn1 : ((T.n : ℝ) - 1) ≠ 0 := by
    have : (2 : ℝ) ≤ T.n := by exact_mod_cast hn
    linarith
  have hk : ∀ j, T.k j = kc * Real.exp ((j + 1 - (T.n + 1) / 2) * T.dlogr) := by
    intro j
    have hkj : 0 < T.k j := Real.rpow_pos_of_pos (by norm_num) _
    apply Real.log_injOn_pos hkj (by exact mul_pos hkc0 (Real.exp_pos _))
    rw [T.log_k, Real.log_mul hkc0.ne' (Real.exp_pos _).ne', Real.log_exp, hlog, T.dlogr_eq]
    field_simp
    ring
  have hrp : Real.exp T.dlogr * T.rp i = T.kr / kc * Real.exp ((i + 1 - (T.n + 1) / 2) * T.dlogr) := by
    unfold Transformer.rp
    simp only
    rw [← hlog, Real.exp_log hkc0, ← mul_assoc, ← Real.exp_add, mul_comm]
    congr 2
    norm_num
    ring
  have unb := (C104_unbiased (by omega) one_pos hd.ne' h .fwd .bwd
    (fun j => T.k j * logInterp nk kIn pk (T.k j))).2.1 i hi
  have modes := C104_modes hlg h hkr hd.ne' (by simpa using hmu) (by simpa using hmu) m hm C kc hkc0 i hi
  simp only at modes
  have hs' : ((0 : ℝ) : ℂ) + 2 * Real.pi * Complex.I * m / (T.n * T.dlogr) = s := by rw [hs]; simp
  rw [hs'] at modes
  have hin' : fht T.n x .fwd (fun j => T.k j * logInterp nk kIn pk (T.k j)) i =
      fht T.n x .fwd (fun j => (C * ((kc * Real.exp ((j + 1 - (T.n + 1) / 2) * T.dlogr) / kc : ℝ) : ℂ) ^ s).re) i := by
    have hx0 : x.val 0 = 0 := (fhti_head h).1
    unfold fht
    simp only [hx0, ne_eq, not_true_eq_false, if_false]
    refine fhtq_congr (by omega) x .fwd (fun j hj => ?_) hi
    rw [hin j hj, hk j]
  have hr0 : 0 < T.rp i := mul_pos (Real.exp_pos _) (div_pos hkr (Real.exp_pos _))
  unfold Transformer.xi projected
  rw [hf, unb, hin', modes, hrp, ← hrp]
  have he := Real.exp_pos T.dlogr
  have hpi := Real.pi_pos
  field_simp

/-- C104: so at every separation some power spectrum comes out wrong, by more than the resampling of the input -/
theorem C104_separation_wrong (hlg : IsLogGamma lg) (T : Transformer) (hT : UsesFftLog lg mu T) (hn : 3 ≤ T.n)
    (h0 : 0 < T.kMin) (h1 : T.kMin < T.kMax) (hmu : ¬ IsNegInt ((mu + 1) / 2)) (i : ℕ) (hi : i < T.n) :
    ∃ (C s : ℂ) (kc : ℝ) (pk : ℕ → ℝ),
      (∀ j < T.n, T.k j * logInterp T.n T.k pk (T.k j) = (C * ((T.k j / kc : ℝ) : ℂ) ^ s).re) ∧
      T.xi T.n T.k pk i = Real.exp T.dlogr * projected mu C s kc (Real.exp T.dlogr * T.rp i) ∧
      T.xi T.n T.k pk i ≠ projected mu C s kc (T.rp i) := by
  have hd := dlogr_pos T (by omega) h0 h1
  have hkp : ∀ j, 0 < T.k j := fun j => Real.rpow_pos_of_pos (by norm_num) _
  set kc := Real.sqrt (T.kMin * T.kMax) with hkc
  have hkc0 : 0 < kc := Real.sqrt_pos.2 (mul_pos h0 (h0.trans h1))
  set s : ℂ := 2 * Real.pi * Complex.I * (1 : ℕ) / (T.n * T.dlogr) with hs
  have hT' := hT
  obtain ⟨x, h, hf⟩ := hT
  have hkr : 0 < T.kr := by
    rw [(fhti_zero h rfl).1]
    exact (C104_low_ringing (lg := lg) (n := T.n) one_pos hd.ne').1
  have hr0 : 0 < T.rp i := mul_pos (Real.exp_pos _) (div_pos hkr (Real.exp_pos _))
  set z1 := U mu s * ((Real.exp T.dlogr * T.rp i * kc : ℝ) : ℂ) ^ (-s) with hz1
  set z2 := U mu s * ((T.rp i * kc : ℝ) : ℂ) ^ (-s) with hz2
  have hnc : (T.n : ℂ) ≠ 0 := by exact_mod_cast (by omega : T.n ≠ 0)
  have hdc : (T.dlogr : ℂ) ≠ 0 := by exact_mod_cast hd.ne'
  have hsim : s.im ≠ 0 := by
    have : s = ((2 * Real.pi / (T.n * T.dlogr) : ℝ) : ℂ) * Complex.I := by rw [hs]; push_cast; field_simp
    rw [this]
    simp only [Complex.mul_im, Complex.ofReal_re, Complex.I_im, mul_one, Complex.ofReal_im, zero_mul, add_zero]
    have : (0 : ℝ) < T.n := by exact_mod_cast (by omega : 0 < T.n)
    have := Real.pi_pos
    positivity
  have hU : U mu s ≠ 0 := by
    unfold U
    refine div_ne_zero (mul_ne_zero ?_ ?_) ?_
    · rw [Complex.cpow_def_of_ne_zero two_ne_zero]; exact Complex.exp_ne_zero _
    · refine Complex.Gamma_ne_zero fun k hk => hsim ?_
      have := congrArg Complex.im hk
      simpa using this
    · refine Complex.Gamma_ne_zero fun k hk => hsim ?_
      have := congrArg Complex.im hk
      simpa using this
  have hne : z1 ≠ z2 := by
    have hpos : (0 : ℝ) < T.rp i * kc := mul_pos hr0 hkc0
    have e : ((Real.exp T.dlogr * T.rp i * kc : ℝ) : ℂ) ^ (-s) = ee (-(1 / T.n)) * ((T.rp i * kc : ℝ) : ℂ) ^ (-s) := by
      rw [mul_assoc, Complex.ofReal_mul, Complex.mul_cpow_ofReal_nonneg (Real.exp_pos _).le hpos.le]
      congr 1
      rw [Complex.cpow_def_of_ne_zero (by exact_mod_cast (Real.exp_pos _).ne'), ← Complex.ofReal_log (Real.exp_pos _).le,
        Real.log_exp]
      unfold ee
      congr 1
      rw [hs]
      push_cast
      field_simp
    rw [hz1, hz2, e]
    intro heq
    have h2 : ((T.rp i * kc : ℝ) : ℂ) ^ (-s) ≠ 0 := by
      rw [Complex.cpow_def_of_ne_zero (by exact_mod_cast hpos.ne')]; exact Complex.exp_ne_zero _
    have h3 : ee (-(1 / T.n)) = 1 := by
      have := mul_left_cancel₀ hU heq
      exact mul_right_cancel₀ h2 (by rw [this, one_mul])
    rw [ee_eq_one_iff] at h3
    obtain ⟨k, hk⟩ := h3
    have hn0 : (T.n : ℝ) ≠ 0 := by exact_mod_cast (by omega : T.n ≠ 0)
    have hk' : (-1 : ℝ) = k * T.n := by field_simp at hk; linarith
    have hk2 : (-1 : ℤ) = k * T.n := by exact_mod_cast hk'
    have : (T.n : ℤ) ∣ 1 := ⟨-k, by linarith⟩
    have := Int.le_of_dvd one_pos this
    omega
  have hsort : Verif.Spec.SortedOn T.n T.k := by
    intro a b hab hb
    apply (Real.log_lt_log_iff (hkp a) (hkp b)).1
    rw [T.log_k, T.log_k, ← T.dlogr_eq]
    have : (a : ℝ) < b := by exact_mod_cast hab
    nlinarith
  set C := conj (z1 - z2) with hC
  let pk : ℕ → ℝ := fun j => (C * ((T.k j / kc : ℝ) : ℂ) ^ s).re / T.k j
  have hin : ∀ j < T.n, T.k j * logInterp T.n T.k pk (T.k j) = (C * ((T.k j / kc : ℝ) : ℂ) ^ s).re := by
    intro j hj
    rw [C71_nodes (by omega) hsort (fun i _ => hkp i) pk hj]
    simp only [pk]
    rw [mul_div_cancel₀ _ (hkp j).ne']
  have main := C104_separation hlg T hT' (by omega) h0 h1 hmu 1 (by omega) C T.n T.k pk kc hkc s hs hin i hi
  refine ⟨C, s, kc, pk, hin, main, ?_⟩
  rw [main]
  intro heq
  have hpi := Real.pi_pos
  have he := Real.exp_pos T.dlogr
  unfold projected at heq
  rw [mul_assoc C, mul_assoc C, ← hz1, ← hz2] at heq
  have h5 : (C * z1).re = (C * z2).re := by
    field_simp at heq
    linarith
  have h6 : (C * (z1 - z2)).re = 0 := by rw [mul_sub, Complex.sub_re, h5, sub_self]
  rw [hC, mul_comm, Complex.mul_conj, Complex.ofReal_re, Complex.normSq_eq_zero, sub_eq_zero] at h6
  exact hne h6

/-! ## Routines that do not do what they announce -/

/-- C104: `fftl` forward then backward does not give back the array (its documentation says so): two points suffice, for
every order, spacing and logarithm of the gamma function -/
theorem C104_fftl_not_inverse (lg : ℂ → ℂ) (mu dlnr : ℝ) (hd : dlnr ≠ 0) :
    ∃ kr, 0 < kr ∧ ∃ x, fhti lg 2 mu dlnr 0 kr .asIs = .ok (kr, x) ∧
      fftl 2 x 1 .bwd (fftl 2 x 1 .fwd fun _ => 1) 0 ≠ 1 := by
  set z := (lg ((((mu + 1) / 2 : ℝ) : ℂ) + Complex.I * ((1 : ℕ) * (Real.pi / ((2 : ℕ) * dlnr)) : ℝ))).im with hz
  set y : ℝ := (1 : ℕ) * (Real.pi / ((2 : ℕ) * dlnr)) with hy
  have hy0 : y ≠ 0 := by
    rw [hy]; simp [Real.pi_ne_zero, hd]
  refine ⟨2 * Real.exp (z / y), by positivity, xsave0 lg 2 mu dlnr (2 * Real.exp (z / y)), ?_, ?_⟩
  · unfold fhti
    rw [if_pos rfl]
    rfl
  · have harg : arg0 lg 2 mu dlnr (2 * Real.exp (z / y)) 1 = 0 := by
      unfold arg0
      simp only
      rw [← hy, ← hz, show 2 / (2 * Real.exp (z / y)) = Real.exp (-(z / y)) by
        rw [Real.exp_neg]; have := Real.exp_pos (z / y); field_simp, Real.log_exp]
      field_simp
      ring
    set x := xsave0 lg 2 mu dlnr (2 * Real.exp (z / y)) with hx
    have hx0 : x.val 0 = 0 := by simp [hx, xsave0]
    have hx1 : x.val 1 = dlnr := by simp [hx, xsave0]
    have hlast : x.val (x.size - 2) = 1 := by
      simp [hx, xsave0, nArg, harg]
    -- with two points the transform exchanges them
    have hswap : ∀ (d : Dir) (a : ℕ → ℝ), ∀ i < 2, fhtq 2 x d a i = a (1 - i) := by
      intro d a i hi
      have hd0 : dft 2 a 0 = a 0 + a 1 := by
        rw [dft_eq]; simp [sum_range_succ, ee_zero]
      have hd1 : dft 2 a 1 = a 0 - a 1 := by
        rw [dft_eq]
        have : ee (-(1 / 2)) = -1 := by
          unfold ee
          rw [show (2 * Real.pi * Complex.I * ((-(1 / 2) : ℝ) : ℂ)) = -(Real.pi * Complex.I) by push_cast; ring,
            Complex.exp_neg, Complex.exp_pi_mul_I]; norm_num
        simp [sum_range_succ, ee_zero]
        rw [show (-(2⁻¹) : ℝ) = -(1 / 2) by norm_num, this]; ring
      refine eq_of_dft two_pos _ (fun i => a (1 - i)) (fun m hm => ?_) hi
      have hr := dft_reverse two_pos a m
      simp only [show 2 - 1 = 1 by norm_num] at hr
      rw [dft_fhtq two_pos x d a hm, hr]
      have hf : fac 2 x d m = 1 := by
        unfold fac uMul pG0 pGN
        rw [if_pos hx0, if_pos hx0, hlast]
        interval_cases m
        · simp
        · cases d <;> simp [Dir.act]
      rw [hf, one_mul]
    have hc0 : centred 2 0 = -(1 / 2) := by unfold centred; norm_num
    have hc1 : centred 2 1 = 1 / 2 := by unfold centred; norm_num
    have inner : ∀ i < 2, fftl 2 x 1 .fwd (fun _ => 1) i = Real.exp (0.5 * centred 2 (1 - i) * dlnr - 0.5 * centred 2 i * dlnr) := by
      intro i hi
      unfold fftl
      simp only
      rw [hswap _ _ i hi, hx0, hx1, one_mul, ← Real.exp_add]
      congr 1
      simp [Dir.sign]
      ring
    unfold fftl at inner ⊢
    simp only at inner ⊢
    rw [hswap .bwd _ 0 (by norm_num), show 1 - 0 = 1 by norm_num, inner 1 (by norm_num), show 1 - 1 = 0 by norm_num, hx0, hx1, hc0,
      hc1, ← Real.exp_add, ← Real.exp_add]
    rw [Ne, Real.exp_eq_one_iff]
    simp [Dir.sign]
    intro h
    apply hd
    norm_num at h
    linarith

/-- C104: when both gamma functions have poles the ratio is finite (pyfftlog.py:319), but for `|q| ≥ 2` the set-up ends in
ValueError because the factors are kept as an array instead of being multiplied -/
theorem C104_double_pole_fails (lg : ℂ → ℂ) (n : ℕ) (dlnr kr : ℝ) (opt : KrOpt) (a b : ℕ) (hab : a + 2 ≤ b ∨ b + 2 ≤ a) :
    fhti lg n (-(a + b : ℝ) - 1) dlnr ((b : ℝ) - a) kr opt = .error .valueError := by
  have hq : ((b : ℝ) - a) ≠ 0 := by
    intro h
    have : (b : ℝ) = a := by linarith
    have : b = a := by exact_mod_cast this
    omega
  have e1 : (-(a + b : ℝ) - 1 + 1 + (b - a)) / 2 = ((-a : ℤ) : ℝ) := by push_cast; ring
  have e2 : (-(a + b : ℝ) - 1 + 1 - (b - a)) / 2 = ((-b : ℤ) : ℝ) := by push_cast; ring
  have neg : ∀ c : ℕ, IsNegInt ((-c : ℤ) : ℝ) := by
    intro c
    refine ⟨by rw [npRound_int], ?_⟩
    push_cast
    have := Nat.cast_nonneg (α := ℝ) c
    linarith
  have e3 : |(((-a : ℤ) : ℝ)) - ((-b : ℤ) : ℝ)| = ((|(b : ℤ) - a| : ℤ) : ℝ) := by
    push_cast
    congr 1
    ring
  have cnt : 2 ≤ (|(b : ℤ) - a|).toNat := by
    rcases abs_cases ((b : ℤ) - a) with h | h <;> omega
  have hx : xsave1 lg (-(a + b : ℝ) - 1) (b - a) = .error .valueError := by
    unfold xsave1
    simp only
    rw [e1, e2, if_pos ⟨neg a, neg b⟩, e3, npRound_int, if_neg (by omega), if_neg (by omega)]
  unfold fhti
  simp only
  rw [if_neg hq, hx]
  rfl

/-- a logarithm of the gamma function -/
noncomputable def lgDemo (s : ℂ) : ℂ := Complex.log (Complex.Gamma s)

theorem lgDemo_spec : IsLogGamma lgDemo := fun _ h => Complex.exp_log h

theorem regular_pos {t : ℝ} (h : 0 < t) : ¬ IsNegInt t := fun h' => absurd h'.2 (not_le.2 h)

/-- the set-up of `pk_to_real.py` for the galaxy clustering and lensing transforms (orders 0 and 2) with the default range -/
example : ∃ T : Transformer, T.n = 8192 ∧ UsesFftLog lgDemo 2 T ∧
    ∃ (C s : ℂ) (kc : ℝ) (pk : ℕ → ℝ), T.xi T.n T.k pk 5 ≠ projected 2 C s kc (T.rp 5) := by
  obtain ⟨T, h1, h2, h3, _, _, h6⟩ := usesFftLog_exists lgDemo 2 8192 0.0001 5e6 0.1 1000
  obtain ⟨C, s, kc, pk, _, _, h⟩ := C104_separation_wrong lgDemo_spec T h6 (by omega) (by rw [h2]; norm_num)
    (by rw [h2, h3]; norm_num) (regular_pos (by norm_num)) 5 (by omega)
  exact ⟨T, h1, h6, C, s, kc, pk, h⟩

/-- a biased transform with an odd number of points -/
example (a : ℕ → ℝ) : ∃ kr' x, fhti lgDemo 5 0.5 0.1 0.3 1 .asIs = .ok (kr', x) ∧
    ∀ i < 5, fht 5 x .bwd (fht 5 x .fwd a) i = a i := by
  have hp : ¬ IsNegInt (((0.5 : ℝ) + 1 + 0.3) / 2) := regular_pos (by norm_num)
  have hm : ¬ IsNegInt (((0.5 : ℝ) + 1 - 0.3) / 2) := regular_pos (by norm_num)
  have hq : (0.3 : ℝ) ≠ 0 := by norm_num
  have hx : ∃ f, xsave1 lgDemo 0.5 0.3 = .ok f := by
    unfold xsave1
    simp only [hp, hm, false_and, if_false, or_self]
    exact ⟨_, rfl⟩
  obtain ⟨f, hf⟩ := hx
  have hfh : fhti lgDemo 5 0.5 0.1 0.3 1 .asIs = .ok (1, xsaveB lgDemo 5 0.5 0.3 0.1 1 f) := by
    unfold fhti
    rw [if_neg hq, hf]
    rfl
  exact ⟨_, _, hfh, fun i hi => (C104_roundtrip lgDemo_spec (by norm_num) hfh hp hm (by norm_num) .fwd .bwd (by simp) a i hi).2⟩

end Verif.FftLog

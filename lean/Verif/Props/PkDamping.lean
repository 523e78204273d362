import Verif.Props.PkDemo
import Verif.Lemmas.RealPow

/-! Properties C04, C17, C18, C19: dampings and transition smoothing. -/

namespace Verif.Pk

open Verif.Lib Spectra

/-! ## C17 -/

/-- C17: the 1-halo damping factor lies in `[0,1)`. -/
theorem C17_one_halo_range (s : Spectra) {kt : ℝ} (h : s.oneHaloKtrunc = some kt) (_hkt : 0 < kt)
    (k : ℕ) : 0 ≤ s.oneHaloTruncation k ∧ s.oneHaloTruncation k < 1 := by
  have hx : 0 ≤ (s.kVec k / kt) ^ 4 := by positivity
  simp only [oneHaloTruncation, h]
  exact ⟨sat_nonneg hx, sat_lt_one hx⟩

/-- C17: it increases strictly with the wavenumber. -/
theorem C17_one_halo_strictMono (s : Spectra) {kt : ℝ} (h : s.oneHaloKtrunc = some kt) (hkt : 0 < kt)
    {k k' : ℕ} (hk : 0 ≤ s.kVec k) (hkk : s.kVec k < s.kVec k') :
    s.oneHaloTruncation k < s.oneHaloTruncation k' := by
  simp only [oneHaloTruncation, h]
  have h0 : 0 ≤ s.kVec k / kt := by positivity
  have h1 : s.kVec k / kt < s.kVec k' / kt := div_lt_div_of_pos_right hkk hkt
  exact sat_strictMono (by positivity) (pow_lt_pow_left₀ h1 h0 (by norm_num))

/-- C17: it is one half at `one_halo_ktrunc`. -/
theorem C17_one_halo_half (s : Spectra) {kt : ℝ} (h : s.oneHaloKtrunc = some kt) (hkt : 0 < kt)
    {k : ℕ} (hk : s.kVec k = kt) : s.oneHaloTruncation k = 1 / 2 := by
  simp only [oneHaloTruncation, h, hk, div_self hkt.ne']; norm_num

/-- C17: `None` switches it off. -/
theorem C17_one_halo_none (s : Spectra) (h : s.oneHaloKtrunc = none) (k : ℕ) :
    s.oneHaloTruncation k = 1 := by simp [oneHaloTruncation, h]

/-- C17: the alignment 1-halo factor lies in `[0,1)` and the 2-halo one in `(0,1]`. -/
theorem C17_ia_range (s : Spectra) {k1 k2 : ℝ} (h1 : s.oneHaloKtruncIa = some k1)
    (h2 : s.twoHaloKtruncIa = some k2) (_hk1 : 0 < k1) (_hk2 : 0 < k2) (k : ℕ) :
    (0 ≤ s.oneHaloTruncationIa k ∧ s.oneHaloTruncationIa k < 1) ∧
      (0 < s.twoHaloTruncationIa k ∧ s.twoHaloTruncationIa k ≤ 1) := by
  simp only [oneHaloTruncationIa, twoHaloTruncationIa, h1, h2]
  have e1 : Real.exp (-(s.kVec k / k1) ^ 2) ≤ 1 := by
    rw [Real.exp_le_one_iff]; nlinarith [sq_nonneg (s.kVec k / k1)]
  have e2 : Real.exp (-(s.kVec k / k2) ^ 2) ≤ 1 := by
    rw [Real.exp_le_one_iff]; nlinarith [sq_nonneg (s.kVec k / k2)]
  exact ⟨⟨by linarith, by linarith [Real.exp_pos (-(s.kVec k / k1) ^ 2)]⟩, Real.exp_pos _, e2⟩

/-- C17: the alignment factors are strictly monotone, the 1-halo one increasing and the 2-halo one
decreasing. -/
theorem C17_ia_mono (s : Spectra) {k1 k2 : ℝ} (h1 : s.oneHaloKtruncIa = some k1)
    (h2 : s.twoHaloKtruncIa = some k2) (hk1 : 0 < k1) (hk2 : 0 < k2) {k k' : ℕ}
    (hk : 0 ≤ s.kVec k) (hkk : s.kVec k < s.kVec k') :
    s.oneHaloTruncationIa k < s.oneHaloTruncationIa k' ∧
      s.twoHaloTruncationIa k' < s.twoHaloTruncationIa k := by
  have aux : ∀ {q : ℝ}, 0 < q →
      Real.exp (-(s.kVec k' / q) ^ 2) < Real.exp (-(s.kVec k / q) ^ 2) := by
    intro q hq
    have h0 : 0 ≤ s.kVec k / q := by positivity
    have hlt : s.kVec k / q < s.kVec k' / q := div_lt_div_of_pos_right hkk hq
    have := pow_lt_pow_left₀ hlt h0 (n := 2) (by norm_num)
    exact Real.exp_lt_exp.2 (by linarith)
  simp only [oneHaloTruncationIa, twoHaloTruncationIa, h1, h2]
  exact ⟨by linarith [aux hk1], aux hk2⟩

/-- C17: with the same wavenumber the two alignment factors add up to one. -/
theorem C17_ia_complementary (s : Spectra) {kt : ℝ} (h1 : s.oneHaloKtruncIa = some kt)
    (h2 : s.twoHaloKtruncIa = some kt) (_hkt : kt ≠ 0) (k : ℕ) :
    s.oneHaloTruncationIa k + s.twoHaloTruncationIa k = 1 := by
  simp only [oneHaloTruncationIa, twoHaloTruncationIa, h1, h2]; ring

/-- C17: `None` switches the alignment factors off. -/
theorem C17_ia_none (s : Spectra) (k : ℕ) :
    (s.oneHaloKtruncIa = none → s.oneHaloTruncationIa k = 1) ∧
      (s.twoHaloKtruncIa = none → s.twoHaloTruncationIa k = 1) :=
  ⟨fun h => by simp [oneHaloTruncationIa, h], fun h => by simp [twoHaloTruncationIa, h]⟩

example : demo.oneHaloKtrunc = some 0.1 ∧ (0 : ℝ) < 0.1 ∧ 0 ≤ demo.kVec 0 ∧
    demo.kVec 0 < demo.kVec 1 ∧ demo.oneHaloKtruncIa = some 4 ∧ demo.twoHaloKtruncIa = some 6 := by
  simp [demo]; norm_num

/-! ## C18 -/

/-- The range of the 2-halo damping. -/
theorem C18_range (s : Spectra) (k : ℕ) (hk : 0 ≤ s.kVec k) :
    0.95 < s.twoHaloTruncation k ∧ s.twoHaloTruncation k ≤ 1 := by
  unfold twoHaloTruncation
  split
  · norm_num
  · have hx : 0 ≤ (s.kVec k / 0.05699) ^ (2.853 : ℝ) := Real.rpow_nonneg (by positivity) _
    have a := sat_nonneg hx
    have b := sat_lt_one hx
    rw [mul_div_assoc]
    constructor <;> linarith

/-- C18: the damping decreases with `k` when it is on. -/
theorem C18_antitone (s : Spectra) {kt : ℝ} (h : s.twoHaloKtrunc = some kt) {k k' : ℕ}
    (hk : 0 ≤ s.kVec k) (hkk : s.kVec k < s.kVec k') :
    s.twoHaloTruncation k' < s.twoHaloTruncation k := by
  simp only [twoHaloTruncation, h]
  have h0 : 0 ≤ s.kVec k / 0.05699 := by positivity
  have hlt : s.kVec k / 0.05699 < s.kVec k' / 0.05699 := div_lt_div_of_pos_right hkk (by norm_num)
  have := sat_strictMono (Real.rpow_nonneg h0 (2.853 : ℝ))
    (Real.rpow_lt_rpow h0 hlt (by norm_num : (0 : ℝ) < 2.853))
  rw [mul_div_assoc, mul_div_assoc]
  linarith

/-- C18 (the expectation "two_halo_ktrunc sets the scale of the 2-halo damping" is false): any two
non-`None` values of `two_halo_ktrunc` give the same six spectra. -/
theorem C18_value_ignored (s : Spectra) (a b : ℝ) :
    let sa : Spectra := { s with twoHaloKtrunc := some a }
    let sb : Spectra := { s with twoHaloKtrunc := some b }
    sa.powerSpectrumMm = sb.powerSpectrumMm ∧ sa.powerSpectrumGg = sb.powerSpectrumGg ∧
      sa.powerSpectrumGm = sb.powerSpectrumGm ∧ sa.powerSpectrumMi = sb.powerSpectrumMi ∧
      sa.powerSpectrumIi = sb.powerSpectrumIi ∧ sa.powerSpectrumGi = sb.powerSpectrumGi :=
  ⟨rfl, rfl, rfl, rfl, rfl, rfl⟩

/-- C18: `None` is the only value that switches the damping off: with any number it is below one at every
positive wavenumber. -/
theorem C18_none_switches_off (s : Spectra) (k : ℕ) (hk : 0 < s.kVec k) :
    s.twoHaloTruncation k = 1 ↔ s.twoHaloKtrunc = none := by
  unfold twoHaloTruncation
  split
  · next h => simp [h]
  · next v h =>
    have hx : 0 < (s.kVec k / 0.05699) ^ (2.853 : ℝ) := Real.rpow_pos_of_pos (by positivity) _
    have : 0 < 0.05 * (s.kVec k / 0.05699) ^ (2.853 : ℝ) / (1 + (s.kVec k / 0.05699) ^ (2.853 : ℝ)) := by
      positivity
    simp only [h, reduceCtorEq, iff_false]
    linarith

example : demo.twoHaloKtrunc = some 2 ∧ 0 < demo.kVec 0 ∧ demo.kVec 0 < demo.kVec 1 := by
  simp [demo]

/-! ## C19 -/

theorem kstar_pos {σ c e : ℝ} (hσ : 0 < σ) (hc : 0 < c) : 0 < c * σ ^ e :=
  mul_pos hc (Real.rpow_pos_of_pos hσ e)

/-- C19: the HMcode 1-halo factor lies in `[0,1)`. -/
theorem C19_one_halo_range (s : Spectra) (z k : ℕ) (_hσ : 0 < s.sigma8z z) :
    0 ≤ s.oneHaloTruncationMead z k ∧ s.oneHaloTruncationMead z k < 1 := by
  have hx : 0 ≤ (s.kVec k / (0.05618 * s.sigma8z z ^ (-1.013 : ℝ))) ^ 4 := by positivity
  exact ⟨sat_nonneg hx, sat_lt_one hx⟩

/-- C19: it increases strictly with `k`. -/
theorem C19_one_halo_strictMono (s : Spectra) (z : ℕ) {k k' : ℕ} (hσ : 0 < s.sigma8z z)
    (hk : 0 ≤ s.kVec k) (hkk : s.kVec k < s.kVec k') :
    s.oneHaloTruncationMead z k < s.oneHaloTruncationMead z k' := by
  have hp : 0 < 0.05618 * s.sigma8z z ^ (-1.013 : ℝ) := kstar_pos hσ (by norm_num)
  have h0 := div_nonneg hk hp.le
  have hlt := div_lt_div_of_pos_right hkk hp
  exact sat_strictMono (by positivity) (pow_lt_pow_left₀ hlt h0 (by norm_num))

/-- C19: the HMcode 2-halo factor lies in `(1-f, 1]` with `f = 0.2696 σ8^0.9403`. -/
theorem C19_two_halo_range (s : Spectra) (z k : ℕ) (hσ : 0 < s.sigma8z z) (hk : 0 ≤ s.kVec k) :
    1 - 0.2696 * s.sigma8z z ^ (0.9403 : ℝ) < s.twoHaloTruncationMead z k ∧
      s.twoHaloTruncationMead z k ≤ 1 := by
  have hp : 0 < 0.05699 * s.sigma8z z ^ (-1.089 : ℝ) := kstar_pos hσ (by norm_num)
  have hf : 0 < 0.2696 * s.sigma8z z ^ (0.9403 : ℝ) := kstar_pos hσ (by norm_num)
  have hx : 0 ≤ (s.kVec k / (0.05699 * s.sigma8z z ^ (-1.089 : ℝ))) ^ (2.853 : ℝ) :=
    Real.rpow_nonneg (div_nonneg hk hp.le) _
  unfold twoHaloTruncationMead
  rw [mul_div_assoc]
  have a := sat_nonneg hx
  have b := sat_lt_one hx
  constructor <;> nlinarith

/-- C19: it decreases strictly with `k`. -/
theorem C19_two_halo_antitone (s : Spectra) (z : ℕ) {k k' : ℕ} (hσ : 0 < s.sigma8z z)
    (hk : 0 ≤ s.kVec k) (hkk : s.kVec k < s.kVec k') :
    s.twoHaloTruncationMead z k' < s.twoHaloTruncationMead z k := by
  have hp : 0 < 0.05699 * s.sigma8z z ^ (-1.089 : ℝ) := kstar_pos hσ (by norm_num)
  have hf : 0 < 0.2696 * s.sigma8z z ^ (0.9403 : ℝ) := kstar_pos hσ (by norm_num)
  have h0 := div_nonneg hk hp.le
  have := sat_strictMono (Real.rpow_nonneg h0 (2.853 : ℝ))
    (Real.rpow_lt_rpow h0 (div_lt_div_of_pos_right hkk hp) (by norm_num : (0 : ℝ) < 2.853))
  unfold twoHaloTruncationMead
  rw [mul_div_assoc, mul_div_assoc]
  nlinarith

/-- C19: the 2-halo factor is positive at every wavenumber exactly when `0.2696 σ8^0.9403 ≤ 1`. -/
theorem C19_two_halo_pos_iff (s : Spectra) (z : ℕ) (hσ : 0 < s.sigma8z z) :
    (∀ κ : ℝ, 0 ≤ κ → 0 < ({ s with kVec := fun _ => κ } : Spectra).twoHaloTruncationMead z 0) ↔
      0.2696 * s.sigma8z z ^ (0.9403 : ℝ) ≤ 1 := by
  have hp : 0 < 0.05699 * s.sigma8z z ^ (-1.089 : ℝ) := kstar_pos hσ (by norm_num)
  constructor
  · intro h
    by_contra hf
    push Not at hf
    set f := 0.2696 * s.sigma8z z ^ (0.9403 : ℝ) with hfdef
    set kd := 0.05699 * s.sigma8z z ^ (-1.089 : ℝ) with hkd
    -- choose x with f x / (1 + x) = 1
    have hx : 0 < 1 / (f - 1) := by apply one_div_pos.2; linarith
    have := h (kd * (1 / (f - 1)) ^ ((2.853 : ℝ)⁻¹)) (by positivity)
    unfold twoHaloTruncationMead at this
    simp only [← hkd, ← hfdef] at this
    rw [mul_div_cancel_left₀ _ hp.ne', ← Real.rpow_mul hx.le, inv_mul_cancel₀ (by norm_num),
      Real.rpow_one] at this
    have e : f * (1 / (f - 1)) / (1 + 1 / (f - 1)) = 1 := by
      have : f - 1 ≠ 0 := by linarith
      have : f ≠ 0 := by linarith
      field_simp
      ring
    linarith
  · intro hf κ hκ
    have := (C19_two_halo_range { s with kVec := fun _ => κ } z 0 hσ hκ).1
    simp only at this
    linarith

example : 0 < demo.sigma8z 0 ∧ 0 ≤ demo.kVec 0 ∧ demo.kVec 0 < demo.kVec 1 := by simp [demo]

/-! ## C04 -/

/-- the smoothing exponent `α = 1.875 · 1.603^n_eff` -/
noncomputable def smoothingExponent (s : Spectra) (z : ℕ) : ℝ := 1.875 * (1.603 : ℝ) ^ s.neff z

theorem smoothingExponent_pos (s : Spectra) (z : ℕ) : 0 < smoothingExponent s z := by
  unfold smoothingExponent; positivity

/-- for `k > 0` the `k³/2π²` prefactors cancel -/
theorem transitionSmoothing_eq (s : Spectra) (z k : ℕ) {p q : ℝ} (hk : 0 < s.kVec k) (hp : 0 ≤ p)
    (hq : 0 ≤ q) : s.transitionSmoothing z k p q
      = (p ^ smoothingExponent s z + q ^ smoothingExponent s z) ^ (1 / smoothingExponent s z) := by
  have hc : 0 < s.kVec k ^ 3 / (2 * Real.pi ^ 2) := by positivity
  unfold transitionSmoothing
  change ((s.kVec k ^ 3 / (2 * Real.pi ^ 2) * p) ^ smoothingExponent s z
    + (s.kVec k ^ 3 / (2 * Real.pi ^ 2) * q) ^ smoothingExponent s z)
      ^ (1 / smoothingExponent s z) / _ = _
  rw [rpow_sum_scale hp hq hc.le (smoothingExponent_pos s z), mul_div_cancel_left₀ _ hc.ne']

/-- C04: symmetry. -/
theorem C04_symmetric (s : Spectra) (z k : ℕ) (p q : ℝ) :
    s.transitionSmoothing z k p q = s.transitionSmoothing z k q p := by
  unfold transitionSmoothing
  rw [add_comm]

/-- C04: homogeneity. -/
theorem C04_homogeneous (s : Spectra) (z k : ℕ) {p q c : ℝ} (hk : 0 < s.kVec k) (hp : 0 ≤ p)
    (hq : 0 ≤ q) (hc : 0 ≤ c) :
    s.transitionSmoothing z k (c * p) (c * q) = c * s.transitionSmoothing z k p q := by
  rw [transitionSmoothing_eq s z k hk (by positivity) (by positivity),
    transitionSmoothing_eq s z k hk hp hq, rpow_sum_scale hp hq hc (smoothingExponent_pos s z)]

/-- C04, in terms of the returned result: for `nonlinear_mode='hmcode'` the total matter power is at least
each of the two terms, equals their sum for exponent 1, is at least the sum for exponents below 1 and at
most the sum for exponents above 1. -/
theorem C04_hmcode_total (s : Spectra) (hmode : s.nonlinearMode = .hmcode) (hresp : s.response = false)
    {r : PkResult} (hr : s.powerSpectrumMm = .ok r) (b z k : ℕ) (hk : 0 < s.kVec k)
    (h1 : 0 ≤ r.pk1h b z k) (h2 : 0 ≤ r.pk2h b z k) :
    r.pk1h b z k ≤ r.pkTot b z k ∧ r.pk2h b z k ≤ r.pkTot b z k ∧
      (1.875 * (1.603 : ℝ) ^ s.neff z = 1 → r.pkTot b z k = r.pk1h b z k + r.pk2h b z k) ∧
      (1.875 * (1.603 : ℝ) ^ s.neff z ≤ 1 → r.pk1h b z k + r.pk2h b z k ≤ r.pkTot b z k) ∧
      (1 ≤ 1.875 * (1.603 : ℝ) ^ s.neff z → r.pkTot b z k ≤ r.pk1h b z k + r.pk2h b z k) := by
  have key : r.pkTot b z k = s.transitionSmoothing z k (r.pk1h b z k) (r.pk2h b z k) := by
    unfold powerSpectrumMm powerSpectrumMmRaw at hr
    simp only [hresp, hmode, Bool.false_eq_true, if_false] at hr
    split_ifs at hr
    injection hr with hr
    subst hr
    rfl
  have hα := smoothingExponent_pos s z
  rw [key, transitionSmoothing_eq s z k hk h1 h2]
  refine ⟨le_rpow_sum h1 h2 hα, ?_, ?_, ?_, ?_⟩
  · rw [add_comm]; exact le_rpow_sum h2 h1 hα
  · intro h
    have : smoothingExponent s z = 1 := h
    simp [this]
  · intro h
    simpa using rpow_add_rpow_le h1 h2 hα (h : smoothingExponent s z ≤ 1)
  · intro h
    have := rpow_add_rpow_le (q := smoothingExponent s z) h1 h2 one_pos h
    simpa using this

/-- the demonstration object in HMcode mode -/
noncomputable def demoHm : Spectra :=
  { demo with nonlinearMode := .hmcode, hmcodeIngredients := .mead2020 }

example : ∃ r, demoHm.powerSpectrumMm = .ok r ∧ 0 < demoHm.kVec 0 ∧ 0 ≤ r.pk1h 0 0 0 ∧
    0 < r.pk2h 0 0 0 := by
  refine ⟨_, by simp [demoHm, powerSpectrumMm, powerSpectrumMmRaw, demo]; rfl, ?_, ?_, ?_⟩
  · simp [demoHm, demo]
  · apply mul_nonneg
    · apply simpson_nonneg demo_gentle
      intro i _
      have h1 : (0 : ℝ) ≤ demoHm.dndlnm 0 i := by simp only [demoHm, demo]; positivity
      have h2 : (0 : ℝ) ≤ demoHm.mass i := by simp only [demoHm, demo]; positivity
      exact div_nonneg (mul_nonneg (mul_self_nonneg _) h1) h2
    · exact (C19_one_halo_range demoHm 0 0 (by simp [demoHm, demo])).1
  · have h := (C19_two_halo_range demoHm 0 0 (by simp [demoHm, demo]) (by simp [demoHm, demo])).1
    simp only [demoHm, demo, Real.one_rpow] at h ⊢
    norm_num at h
    linarith

end Verif.Pk

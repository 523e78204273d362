import Verif.Model.Ogata
import Verif.Props.RealSpaceInterp
import Mathlib.MeasureTheory.Integral.IntegralEqImproper
import Mathlib.MeasureTheory.Integral.Gamma

/-!
# The Hankel transform modules: options, and the transform with the `hankel` package (C106)
-/

namespace Verif.Ogata

open Verif.Lib Verif.Spec Verif.RealSpace

/-! ## Options -/

/-- C106: the options are accepted exactly when the correlation type is one of the two known ones, a sample is named and
at least two points are requested (or the default is used). -/
theorem C106_accepted (d : ℤ) (o : Options) :
    (∃ s, setup d o = .ok s) ↔ (o.corrType = some "wp" ∨ o.corrType = some "ds") ∧ o.sample ≠ none ∧
      2 ≤ o.nTransform.getD d := by
  have hc : (∃ n, readCount (o.nTransform.getD d) = .ok n) ↔ 2 ≤ o.nTransform.getD d := by
    unfold readCount
    split_ifs with h1 h2
    · exact ⟨fun ⟨_, h⟩ => (by cases h), fun h => by omega⟩
    · exact ⟨fun ⟨_, h⟩ => (by cases h), fun h => by omega⟩
    · exact ⟨fun _ => by omega, fun _ => ⟨_, rfl⟩⟩
  have ht : (∃ c, readCorrType o = .ok c) ↔ (o.corrType = some "wp" ∨ o.corrType = some "ds") := by
    unfold readCorrType
    cases o.corrType with
    | none => simp
    | some s =>
      simp only [Option.some.injEq]
      split_ifs with h1 h2
      · simp [h1]
      · simp [h2]
      · simp [h1, h2]
  rw [← hc, ← ht]
  unfold setup
  cases hr : readCorrType o with
  | error e => simp
  | ok c =>
    cases hs : o.sample with
    | none => simp
    | some sm =>
      cases hn : readCount (o.nTransform.getD d) with
      | error e => simp
      | ok n => simp

/-- C106: an option that is given is what the module uses, a missing one is replaced by the default, and an empty
section name counts as missing. -/
theorem C106_settings (d : ℤ) (o : Options) (s : Settings) (h : setup d o = .ok s) :
    (s.corr = .wp ↔ o.corrType = some "wp") ∧ (s.corr = .ds ↔ o.corrType = some "ds") ∧
    (∀ v, v ≠ "" → o.inputSection = some v → s.inputSection = v) ∧
    (∀ v, v ≠ "" → o.outputSection = some v → s.outputSection = v) ∧
    (o.inputSection = none ∨ o.inputSection = some "" →
      s.inputSection = if s.corr = .wp then "galaxy_power" else "matter_galaxy_power") ∧
    (o.outputSection = none ∨ o.outputSection = some "" → s.outputSection = if s.corr = .wp then "wp" else "ds") ∧
    s.suffixes = o.suffixes ∧ o.sample = some s.sample ∧
    (s.n : ℤ) = o.nTransform.getD d ∧ 2 ≤ s.n ∧
    s.kMin = o.kMin.getD (1 / 10000) ∧ s.kMax = o.kMax.getD 5000000 ∧ s.rpMin = o.rpMin.getD (1 / 10) ∧
    s.rpMax = o.rpMax.getD 1000 := by
  unfold setup at h
  cases hr : readCorrType o with
  | error e => rw [hr] at h; cases h
  | ok c =>
    rw [hr] at h
    cases hs : o.sample with
    | none => rw [hs] at h; cases h
    | some sm =>
      rw [hs] at h
      cases hn : readCount (o.nTransform.getD d) with
      | error e => rw [hn] at h; cases h
      | ok n =>
        rw [hn] at h
        cases h
        have hc : (c = .wp ↔ o.corrType = some "wp") ∧ (c = .ds ↔ o.corrType = some "ds") := by
          unfold readCorrType at hr
          cases hct : o.corrType with
          | none => rw [hct] at hr; cases hr
          | some t =>
            rw [hct] at hr
            simp only at hr
            split_ifs at hr with h1 h2
            · cases hr; simp [h1]
            · cases hr; simp [h2]
        have hcount : (n : ℤ) = o.nTransform.getD d ∧ 2 ≤ n := by
          unfold readCount at hn
          split_ifs at hn with h1 h2
          cases hn
          omega
        refine ⟨hc.1, hc.2, ?_, ?_, ?_, ?_, rfl, rfl, hcount.1, hcount.2, ?_, ?_, ?_, rfl⟩
        · rintro v hv hi; simp [sectionName, hi, hv]
        · rintro v hv hi; simp [sectionName, hi, hv]
        · rintro (hi | hi) <;> cases c <;> simp [sectionName, hi, defaultSections]
        · rintro (hi | hi) <;> cases c <;> simp [sectionName, hi, defaultSections]
        · dsimp only; norm_num
        · dsimp only; norm_num
        · dsimp only; norm_num

/-- C106: without an explicit number of points the two modules use different grids for the same ini file; otherwise they
read the same settings. -/
theorem C106_same_options (o : Options) : (o.nTransform ≠ none → setupFftlog o = setupOgata o) ∧
    ∀ s t, o.nTransform = none → setupFftlog o = .ok s → setupOgata o = .ok t →
      s.n = 8192 ∧ t.n = 250 ∧ { s with n := 0 } = { t with n := 0 } := by
  constructor
  · intro h
    obtain ⟨n, hn⟩ := Option.ne_none_iff_exists'.mp h
    unfold setupFftlog setupOgata setup
    rw [hn]; rfl
  · intro s t hn hs ht
    unfold setupFftlog setup at hs
    unfold setupOgata setup at ht
    rw [hn] at hs ht
    cases hr : readCorrType o with
    | error e => rw [hr] at hs; cases hs
    | ok c =>
      rw [hr] at hs ht
      cases hsm : o.sample with
      | none => rw [hsm] at hs; cases hs
      | some sm =>
        rw [hsm] at hs ht
        have e1 : readCount ((none : Option ℤ).getD 8192) = .ok 8192 := rfl
        have e2 : readCount ((none : Option ℤ).getD 250) = .ok 250 := rfl
        rw [e1] at hs
        rw [e2] at ht
        cases hs; cases ht
        exact ⟨rfl, rfl, rfl⟩

/-- a typical option section -/
noncomputable def demoOptions : Options :=
  ⟨some "ds", some "", none, some ["1", "2"], some "nz_sample", none, none, some 100, none, none⟩

example : ∃ s, setupOgata demoOptions = .ok s ∧ s.inputSection = "matter_galaxy_power" ∧ s.kMax = 100 ∧ s.n = 250 := by
  obtain ⟨s, hs⟩ := (C106_accepted 250 demoOptions).mpr (by simp [demoOptions])
  obtain ⟨-, hds, -, -, hi, -, -, -, hn, -, -, hk, -⟩ := C106_settings 250 demoOptions s hs
  refine ⟨s, hs, ?_, hk, ?_⟩
  · rw [hi (Or.inr rfl), if_neg]
    rw [hds.mpr rfl]; simp
  · have : (s.n : ℤ) = 250 := hn
    exact_mod_cast this

example : ¬ ∃ s, setupOgata { demoOptions with corrType := some "xi" } = .ok s := by
  unfold setupOgata
  rw [C106_accepted]; simp

/-! ## The transform -/

/-- the Hankel transform in the literature: `1/(2 pi)` times the integral of `k P(k) J(k r)` -/
noncomputable def hankelIntegral (P J : ℝ → ℝ) (r : ℝ) : ℝ := 1 / (2 * Real.pi) * ∫ k in Set.Ioi 0, k * P k * J (k * r)

theorem hankelIntegral_eq (P J : ℝ → ℝ) {r : ℝ} (hr : 0 < r) :
    hankelIntegral P J r = (∫ x in Set.Ioi 0, P (x / r) * x * J x) / (2 * Real.pi * r ^ 2) := by
  have h := MeasureTheory.integral_comp_mul_right_Ioi (fun x => P (x / r) * x * J x) 0 hr
  rw [zero_mul] at h
  have e : (∫ x in Set.Ioi (0 : ℝ), P (x * r / r) * (x * r) * J (x * r)) = r * ∫ k in Set.Ioi 0, k * P k * J (k * r) := by
    rw [← MeasureTheory.integral_const_mul]
    congr 1; ext x
    rw [mul_div_assoc, div_self hr.ne', mul_one]; ring
  rw [e, smul_eq_mul] at h
  unfold hankelIntegral
  have : (∫ x in Set.Ioi 0, P (x / r) * x * J x) = r * (r * ∫ k in Set.Ioi 0, k * P k * J (k * r)) := by
    rw [h]; field_simp
  rw [this]
  generalize (∫ k in Set.Ioi 0, k * P k * J (k * r)) = I
  field_simp

/-- C106: for any kernel `J` (the Bessel function of the chosen order): if the quadrature integrates `P(x/r) x J(x)` with
error at most `eps`, the value returned at separation `r` is the Hankel transform of the linearly interpolated spectrum
with error at most `eps / (2 pi r^2)`. -/
theorem C106_hankel (H : Quadrature) (J : ℝ → ℝ) (nk : ℕ) (k pk : ℕ → ℝ) {r eps : ℝ} (hr : 0 < r)
    (hH : |H.apply (fun x => interpLinear nk k pk (x / r) * x) -
      ∫ x in Set.Ioi 0, interpLinear nk k pk (x / r) * x * J x| ≤ eps) :
    |evaluate H nk k pk r - hankelIntegral (interpLinear nk k pk) J r| ≤ eps / (2 * Real.pi * r ^ 2) := by
  have hp : 0 < 2 * Real.pi * r ^ 2 := by positivity
  rw [hankelIntegral_eq _ _ hr]
  unfold evaluate interp1d
  simp only
  rw [show (2.0 : ℝ) = 2 by norm_num, ← sub_div, abs_div, abs_of_pos hp]
  exact div_le_div_of_nonneg_right hH hp.le

/-- C106: with a quadrature that is exact for the integrand the result is the Hankel transform. -/
theorem C106_hankel_exact (H : Quadrature) (J : ℝ → ℝ) (nk : ℕ) (k pk : ℕ → ℝ) {r : ℝ} (hr : 0 < r)
    (hH : H.apply (fun x => interpLinear nk k pk (x / r) * x) =
      ∫ x in Set.Ioi 0, interpLinear nk k pk (x / r) * x * J x) :
    evaluate H nk k pk r = hankelIntegral (interpLinear nk k pk) J r := by
  have := C106_hankel H J nk k pk hr (eps := 0) (by rw [hH]; simp)
  rw [zero_div] at this
  exact sub_eq_zero.mp (abs_eq_zero.mp (le_antisymm this (abs_nonneg _)))

/-- one node and one weight: exact for spectra that are straight lines, with the kernel `exp (-x)` -/
noncomputable def demoH : Quadrature := ⟨1, fun _ => 2, fun _ => 1 / 2⟩

/-- the hypothesis is met: a straight line, the kernel `exp (-x)`, every separation -/
example (r : ℝ) (hr : 0 < r) : evaluate demoH 2 (fun i => i) (fun i => 3 + 5 * i) r =
    hankelIntegral (interpLinear 2 (fun i => (i : ℝ)) fun i => 3 + 5 * i) (fun x => Real.exp (-x)) r := by
  have hs : SortedOn 2 fun i => (i : ℝ) := fun i j h _ => by
    have : (i : ℝ) < j := by exact_mod_cast h
    exact this
  apply C106_hankel_exact _ _ _ _ _ hr
  simp only [interpLinear_affine le_rfl hs]
  have g2 : ∫ x in Set.Ioi (0 : ℝ), Real.exp (-x) * x = 1 := by
    have h := Real.Gamma_eq_integral (s := 2) (by norm_num)
    have e : Real.Gamma 2 = 1 := by
      have := Real.Gamma_nat_eq_factorial 1
      rw [show ((1 : ℕ) : ℝ) + 1 = 2 by norm_num] at this
      rw [this]; simp
    rw [e] at h
    rw [h]
    congr 1; ext x; norm_num
  have g3 : ∫ x in Set.Ioi (0 : ℝ), Real.exp (-x) * x ^ 2 = 2 := by
    have h := Real.Gamma_eq_integral (s := 3) (by norm_num)
    have e : Real.Gamma 3 = 2 := by
      have := Real.Gamma_nat_eq_factorial 2
      rw [show ((2 : ℕ) : ℝ) + 1 = 3 by norm_num] at this
      rw [this]; norm_num
    rw [e] at h
    rw [h]
    congr 1; ext x; norm_num
  have i2 : MeasureTheory.IntegrableOn (fun x : ℝ => Real.exp (-x) * x) (Set.Ioi 0) := by
    have := Real.GammaIntegral_convergent (s := 2) (by norm_num)
    refine this.congr_fun (fun x _ => by norm_num) measurableSet_Ioi
  have i3 : MeasureTheory.IntegrableOn (fun x : ℝ => Real.exp (-x) * x ^ 2) (Set.Ioi 0) := by
    have := Real.GammaIntegral_convergent (s := 3) (by norm_num)
    refine this.congr_fun (fun x _ => by norm_num) measurableSet_Ioi
  have e : ∀ x : ℝ, (3 + 5 * (x / r)) * x * Real.exp (-x) = 3 * (Real.exp (-x) * x) + 5 / r * (Real.exp (-x) * x ^ 2) := by
    intro x; field_simp
  simp only [e]
  rw [MeasureTheory.integral_add (i2.const_mul 3) (i3.const_mul (5 / r)), MeasureTheory.integral_const_mul,
    MeasureTheory.integral_const_mul, g2, g3]
  unfold Quadrature.apply demoH
  rw [Finset.sum_range_one]
  field_simp

theorem Quadrature.apply_linear (H : Quadrature) (a b : ℝ) (f g : ℝ → ℝ) :
    H.apply (fun x => a * f x + b * g x) = a * H.apply f + b * H.apply g := by
  unfold Quadrature.apply
  rw [Finset.mul_sum, Finset.mul_sum, ← Finset.sum_add_distrib]
  exact Finset.sum_congr rfl fun j _ => by ring

theorem evaluate_linear (H : Quadrature) (nk : ℕ) (k p q : ℕ → ℝ) (a b r : ℝ) :
    evaluate H nk k (fun l => a * p l + b * q l) r = a * evaluate H nk k p r + b * evaluate H nk k q r := by
  have e : ∀ x, interpLinear nk k (fun l => a * p l + b * q l) (x / r) * x =
      a * (interpLinear nk k p (x / r) * x) + b * (interpLinear nk k q (x / r) * x) := by
    intro x
    rw [interpLinear_add nk k (fun l => a * p l) (fun l => b * q l), interpLinear_smul, interpLinear_smul]; ring
  unfold evaluate interp1d
  simp only [e]
  rw [H.apply_linear, add_div, mul_div_assoc, mul_div_assoc]

/-- C106: the correlation function is linear in the power spectrum, also for spectra of mixed sign: the 1-halo and 2-halo
correlation functions add up to that of the total.  (For the FFTLog module this fails: `C92_not_additive`.) -/
theorem C106_linear (s : Settings) (H : Quadrature) (nk nz : ℕ) (k z : ℕ → ℝ) (p q : ℕ → ℕ → ℝ) (kn : Kernel) (a b : ℝ)
    (i : ℕ) : binOutput s H ⟨nk, k, nz, z, fun j l => a * p j l + b * q j l⟩ kn i =
      a * binOutput s H ⟨nk, k, nz, z, p⟩ kn i + b * binOutput s H ⟨nk, k, nz, z, q⟩ kn i := by
  unfold binOutput
  simp only [evaluate_linear]
  rw [← simpson_smul, ← simpson_smul, ← simpson_add]
  exact simpson_congr_right fun j _ => by ring

theorem searchsorted_scale (n : ℕ) (x : ℕ → ℝ) (q : ℝ) {c : ℝ} (hc : 0 < c) :
    searchsorted n (fun i => c * x i) (c * q) = searchsorted n x q := by
  unfold searchsorted
  congr 1
  ext i
  simp only [Finset.mem_filter, mul_lt_mul_iff_right₀ hc]

theorem interpLinear_scale (n : ℕ) (x y : ℕ → ℝ) (q : ℝ) {c : ℝ} (hc : 0 < c) :
    interpLinear n (fun i => c * x i) y (c * q) = interpLinear n x y q := by
  unfold interpLinear Lib.segment
  rw [searchsorted_scale n x q hc]
  set j := max 1 (min (searchsorted n x q) (n - 1))
  rw [← mul_sub, ← mul_sub, div_mul_eq_mul_div, div_mul_eq_mul_div, mul_comm c (q - _), mul_comm c (x j - _), ← mul_assoc,
    mul_div_mul_right _ _ hc.ne']

/-- C106: the transform does not depend on the unit of length: with wavenumbers `c k`, spectra `P / c^3` and separation
`r / c` the result is `1 / c` times the old one, as befits a projected correlation function. -/
theorem C106_units (H : Quadrature) (nk : ℕ) (k pk : ℕ → ℝ) {r c : ℝ} (hr : 0 < r) (hc : 0 < c) :
    evaluate H nk (fun i => c * k i) (fun i => pk i / c ^ 3) (r / c) = evaluate H nk k pk r / c := by
  have e : ∀ x, interpLinear nk (fun i => c * k i) (fun i => pk i / c ^ 3) (x / (r / c)) =
      1 / c ^ 3 * interpLinear nk k pk (x / r) := by
    intro x
    have e1 : x / (r / c) = c * (x / r) := by field_simp
    rw [e1, interpLinear_scale _ _ _ _ hc, ← interpLinear_smul]
    exact congrArg (fun f => interpLinear nk k f (x / r)) (funext fun i => by ring)
  unfold evaluate interp1d
  simp only [e]
  have e2 : ∀ x, 1 / c ^ 3 * interpLinear nk k pk (x / r) * x =
      1 / c ^ 3 * (interpLinear nk k pk (x / r) * x) + 0 * (fun _ => 0) x := by intro x; simp; ring
  simp only [e2]
  rw [H.apply_linear]
  have := Real.pi_pos
  field_simp
  ring

theorem interpLinear_beyond {n : ℕ} (hn : 2 ≤ n) {x : ℕ → ℝ} (hx : SortedOn n x) (y : ℕ → ℝ) {q : ℝ} (hq : x (n - 1) < q) :
    interpLinear n x y q = (y (n - 1) - y (n - 2)) / (x (n - 1) - x (n - 2)) * (q - x (n - 2)) + y (n - 2) := by
  have hs : searchsorted n x q = n :=
    searchsorted_eq le_rfl (fun i hi => (hx.le (by omega) (by omega)).trans_lt hq) (fun i h1 h2 => by omega)
  unfold interpLinear Lib.segment
  rw [hs, show max 1 (min n (n - 1)) = n - 1 by omega, show n - 1 - 1 = n - 2 by omega]

/-- C106: a positive spectrum that decreases at the end of its table is continued with negative power: below some
separation every value of the power that the quadrature uses is negative.  The FFTLog module continues the same spectrum
with positive values. -/
theorem C106_negative_tail {n : ℕ} (hn : 2 ≤ n) {k p : ℕ → ℝ} (hk : SortedOn n k) (hp : ∀ i < n, 0 < p i)
    (hd : p (n - 1) < p (n - 2)) :
    (∃ K, ∀ q, K < q → interp1d .extrapolate n k p q < 0) ∧ (∀ q, 0 < logInterp n k p q) ∧
    ∀ H : Quadrature, (∀ j < H.size, 0 < H.node j) →
      ∃ r0 > 0, ∀ r, 0 < r → r < r0 → ∀ j < H.size, interp1d .extrapolate n k p (H.node j / r) < 0 := by
  have hlim : ∃ K, ∀ q, K < q → interp1d .extrapolate n k p q < 0 := by
    have hdx : 0 < k (n - 1) - k (n - 2) := sub_pos.mpr (hk _ _ (by omega) (by omega))
    set sl := (p (n - 1) - p (n - 2)) / (k (n - 1) - k (n - 2)) with hsl
    have hneg : sl < 0 := div_neg_of_neg_of_pos (by linarith) hdx
    refine ⟨max (k (n - 1)) (k (n - 2) - p (n - 2) / sl), fun q hq => ?_⟩
    have h1 := (le_max_left _ _).trans_lt hq
    have h2 := (le_max_right _ _).trans_lt hq
    show interpLinear n k p q < 0
    rw [interpLinear_beyond hn hk p h1, ← hsl]
    have : sl * (q - k (n - 2)) < sl * (-(p (n - 2) / sl)) := mul_lt_mul_of_neg_left (by linarith) hneg
    have e : sl * (-(p (n - 2) / sl)) = -p (n - 2) := by
      rw [mul_neg, mul_div_cancel₀ _ hneg.ne]
    linarith
  refine ⟨hlim, fun q => ?_, fun H hH => ?_⟩
  · unfold logInterp
    rw [kindOf_pos hp]
    exact Real.exp_pos _
  · obtain ⟨K, hK⟩ := hlim
    -- the smallest node
    obtain ⟨m, hm, hmin⟩ : ∃ m > 0, ∀ j < H.size, m ≤ H.node j := by
      have key : ∀ N ≤ H.size, ∃ m > 0, ∀ j < N, m ≤ H.node j := by
        intro N
        induction N with
        | zero => exact fun _ => ⟨1, one_pos, fun j hj => by omega⟩
        | succ N ih =>
          intro hN
          obtain ⟨m, hm, h⟩ := ih (by omega)
          refine ⟨min m (H.node N), lt_min hm (hH N (by omega)), fun j hj => ?_⟩
          rcases Nat.lt_succ_iff_lt_or_eq.mp hj with h1 | rfl
          · exact (min_le_left _ _).trans (h j h1)
          · exact min_le_right _ _
      exact key _ le_rfl
    refine ⟨m / (|K| + 1), by positivity, fun r hr hr0 j hj => hK _ ?_⟩
    have h1 : r * (|K| + 1) < m := by rwa [lt_div_iff₀ (by positivity)] at hr0
    rw [lt_div_iff₀ hr]
    have h2 := le_abs_self K
    nlinarith [hmin j hj]

/-- the hypotheses are met: 1/k at wavenumbers 1, 2, 3 -/
example : ∃ K, ∀ q, K < q → interp1d .extrapolate 3 (fun i => (i : ℝ) + 1) (fun i => 1 / ((i : ℝ) + 1)) q < 0 :=
  (C106_negative_tail (n := 3) (by norm_num) (fun i j h _ => by have : (i : ℝ) < j := by exact_mod_cast h
                                                                linarith)
    (fun i _ => by positivity) (by norm_num)).1

/-- C106: the separations are positive, increasing and in equal logarithmic steps, and the value stored for separation
number `i` belongs to that separation; only the grid is shifted with respect to `1/k` by one step. -/
theorem C106_separations (s : Settings) (hn : 2 ≤ s.n) (h0 : 0 < s.kMin) (h1 : s.kMin < s.kMax) :
    (∀ i, 0 < (grid s).rp i) ∧ (∀ i j, i < j → (grid s).rp i < (grid s).rp j) ∧
    (∀ i, Real.log ((grid s).rp (i + 1)) - Real.log ((grid s).rp i) = (Real.log s.kMax - Real.log s.kMin) / (s.n - 1)) ∧
    (∀ i < s.n, (grid s).rp i = 1 / (grid s).k (s.n - 1 - i) * Real.exp (-((Real.log s.kMax - Real.log s.kMin) / (s.n - 1)))) ∧
    ∀ i, i ∈ (grid s).kept ↔ i < s.n ∧ s.rpMin < (grid s).rp i ∧ (grid s).rp i < s.rpMax := by
  have a := C93_separations (grid s) hn h0 h1 one_pos
  have b := C93_range (grid s) hn h0 h1 one_pos
  have hd := (grid s).dlogr_eq
  refine ⟨a.1, a.2.1, fun i => ?_, fun i hi => ?_, b.1⟩
  · rw [a.2.2 i, hd]; rfl
  · rw [C93_shifted (grid s) hn i hi, hd]; rfl

/-- C106: lensing.  If the two modules agree on the transform of every redshift, the FFTLog module returns the mean
density over 1e12 times what this module returns: this module leaves out the density and the unit. For clustering they
agree. -/
theorem C106_lensing_density (s : Settings) (H : Quadrature) (T : Transformer) (sp : Spectrum) (kn : Kernel) (i : ℕ)
    (h : ∀ j < sp.nz, T.xi sp.nk sp.k (sp.pk j) i = evaluate H sp.nk sp.k (sp.pk j) ((grid s).rp i)) (density : ℝ) :
    RealSpace.binOutput T .ds density sp kn i = density / 10 ^ 12 * binOutput s H sp kn i ∧
    RealSpace.binOutput T .wp 1 sp kn i = binOutput s H sp kn i := by
  have e : ∀ d : ℝ, simpson sp.nz sp.z (fun j => loadKernel kn (sp.z j) * T.xi sp.nk sp.k (sp.pk j) i * d) =
      d * binOutput s H sp kn i := by
    intro d
    unfold binOutput
    rw [← simpson_smul]
    exact simpson_congr_right fun j hj => by rw [h j hj]; ring
  constructor
  · unfold RealSpace.binOutput
    simp only
    rw [e]; norm_num; ring
  · unfold RealSpace.binOutput
    simp only
    rw [e, one_mul]

/-- the hypothesis is met: one redshift and a transform that returns this module's value -/
example (s : Settings) (hn : 2 ≤ s.n) (h0 : 0 < s.kMin) (h1 : s.kMin < s.kMax) (H : Quadrature) (k p : ℕ → ℝ) (kn : Kernel) :
    ∃ T : Transformer, RealSpace.binOutput T .ds 7 ⟨2, k, 1, fun _ => 0, fun _ => p⟩ kn 0 =
      7 / 10 ^ 12 * binOutput s H ⟨2, k, 1, fun _ => 0, fun _ => p⟩ kn 0 := by
  refine ⟨⟨s.n, s.kMin, s.kMax, s.rpMin, s.rpMax, 1, fun _ i => evaluate H 2 k p ((grid s).rp i) * (2 * Real.pi) * (grid s).rp i⟩,
    (C106_lensing_density s H _ _ kn 0 (fun j _ => ?_) 7).1⟩
  have hr := ((C106_separations s hn h0 h1).1 0).ne'
  have hpi := Real.pi_pos
  unfold Transformer.xi
  simp only
  have : (⟨s.n, s.kMin, s.kMax, s.rpMin, s.rpMax, 1, fun _ i => evaluate H 2 k p ((grid s).rp i) * (2 * Real.pi) *
    (grid s).rp i⟩ : Transformer).rp 0 = (grid s).rp 0 := rfl
  rw [this]
  field_simp

/-! ## Bins -/

theorem loop_spec (s : Settings) (H : Quadrature) (spectra : String → Option Spectrum) (kernels : ℕ → Option Kernel) :
    ∀ is : List ℕ, ((∃ r, transformLoop s H spectra kernels is = .ok r) ↔
      ∀ i ∈ is, ∃ sec, RealSpace.inputSection s.inputSection s.suffixes i = .ok sec ∧ (spectra sec).isSome ∧ (kernels i).isSome) ∧
    ∀ r, transformLoop s H spectra kernels is = .ok r → r.length = is.length ∧
      ∀ (t : ℕ) i, is[t]? = some i → ∃ sec sp kn, RealSpace.inputSection s.inputSection s.suffixes i = .ok sec ∧
        spectra sec = some sp ∧ kernels i = some kn ∧ r[t]? = some (binOutput s H sp kn) := by
  intro is
  induction is with
  | nil => simp [transformLoop]
  | cons a is ih =>
    unfold transformLoop
    cases hsec : RealSpace.inputSection s.inputSection s.suffixes a with
    | error e => simp [hsec]
    | ok sec =>
      simp only
      cases hsp : spectra sec with
      | none => simp [hsec, hsp]
      | some sp =>
        simp only
        cases hkn : kernels a with
        | none => simp [hkn]
        | some kn =>
          simp only
          cases hl : transformLoop s H spectra kernels is with
          | error e =>
            simp only [hl] at ih
            constructor
            · constructor
              · rintro ⟨_, h⟩; cases h
              · intro h
                obtain ⟨_, h'⟩ := ih.1.mpr fun i hi => h i (List.mem_cons_of_mem _ hi)
                cases h'
            · intro r h; cases h
          | ok r' =>
            simp only [hl] at ih
            have h1 := ih.1.mp ⟨_, rfl⟩
            obtain ⟨h2, h3⟩ := ih.2 r' rfl
            constructor
            · refine ⟨fun _ i hi => ?_, fun _ => ⟨_, rfl⟩⟩
              rcases List.mem_cons.mp hi with rfl | hi
              · exact ⟨sec, hsec, by simp [hsp], by simp [hkn]⟩
              · exact h1 i hi
            · intro r h
              cases h
              refine ⟨by simp [h2], fun t i ht => ?_⟩
              cases t with
              | zero =>
                obtain rfl : a = i := by simpa using ht
                exact ⟨sec, sp, kn, hsec, hsp, hkn, by simp⟩
              | succ t =>
                obtain ⟨sec', sp', kn', e1, e2, e3, e4⟩ := h3 t i (by simpa using ht)
                exact ⟨sec', sp', kn', e1, e2, e3, by simpa using e4⟩

/-- C106: with suffixes the module succeeds exactly when there is at least one bin and each has its section and its
redshift distribution; output `i` is then made from the section `input_suffix` and the distribution of bin `i` only. -/
theorem C106_bins (s : Settings) (H : Quadrature) (l : List String) (hl : s.suffixes = some l) (nb : Option ℕ)
    (spectra : String → Option Spectrum) (kernels : ℕ → Option Kernel) :
    ((∃ r, transform s H nb spectra kernels = .ok r) ↔ l ≠ [] ∧ ∀ i (hi : i < l.length),
      (spectra (s.inputSection ++ "_" ++ l[i])).isSome ∧ (kernels i).isSome) ∧
    ∀ r, transform s H nb spectra kernels = .ok r → r.bins.length = l.length ∧ r.nbin = l.length ∧
      r.kept = (grid s).kept ∧ r.sample = s.sample ∧
      ∀ i (hi : i < l.length), ∃ sp kn, spectra (s.inputSection ++ "_" ++ l[i]) = some sp ∧ kernels i = some kn ∧
        r.bins[i]? = some (binOutput s H sp kn) := by
  have hsec : ∀ i (hi : i < l.length), RealSpace.inputSection s.inputSection s.suffixes i = .ok (s.inputSection ++ "_" ++ l[i]) := by
    intro i hi
    unfold RealSpace.inputSection
    rw [hl]
    simp only [List.getElem?_eq_getElem hi]
  have spec := loop_spec s H spectra kernels (List.range l.length)
  have hcount : countBins s nb = .ok l.length := by unfold countBins; rw [hl]
  unfold transform
  rw [hcount]
  simp only
  cases hloop : transformLoop s H spectra kernels (List.range l.length) with
  | error e =>
    constructor
    · constructor
      · rintro ⟨_, h⟩; cases h
      · rintro ⟨-, h⟩
        obtain ⟨_, h'⟩ := spec.1.mpr fun i hi => ⟨_, hsec i (by simpa using hi), h i (by simpa using hi)⟩
        rw [hloop] at h'; cases h'
    · intro r h; cases h
  | ok r' =>
    simp only
    have hz : l.length = 0 ↔ l = [] := List.length_eq_zero_iff
    constructor
    · constructor
      · rintro ⟨r, h⟩
        split_ifs at h with h0
        refine ⟨fun h1 => h0 (hz.mpr h1), fun i hi => ?_⟩
        obtain ⟨sec, a, b, c⟩ := spec.1.mp ⟨_, hloop⟩ i (by simpa using hi)
        rw [hsec i hi] at a
        cases a
        exact ⟨b, c⟩
      · rintro ⟨h, -⟩
        rw [if_neg fun h0 => h (hz.mp h0)]
        exact ⟨_, rfl⟩
    · intro r h
      split_ifs at h with h0
      cases h
      obtain ⟨h2, h3⟩ := spec.2 r' hloop
      refine ⟨by simpa using h2, rfl, rfl, rfl, fun i hi => ?_⟩
      obtain ⟨sec, sp, kn, a, b, c, d⟩ := h3 i i (by simp [hi])
      rw [hsec i hi] at a
      cases a
      exact ⟨sp, kn, b, c, d⟩

/-- C106: without suffixes all bins are made from the one section, each with its own redshift distribution. -/
theorem C106_shared_spectrum (s : Settings) (H : Quadrature) (hs : s.suffixes = none) (n : ℕ) (hn : 0 < n)
    (spectra : String → Option Spectrum) (sp : Spectrum) (h : spectra s.inputSection = some sp) (kn : ℕ → Kernel) :
    transform s H (some n) spectra (fun i => some (kn i)) =
      .ok ⟨(List.range n).map fun i => binOutput s H sp (kn i), (grid s).kept, n, s.sample, ""⟩ := by
  have hloop : ∀ is : List ℕ, transformLoop s H spectra (fun i => some (kn i)) is =
      .ok (is.map fun i => binOutput s H sp (kn i)) := by
    intro is
    induction is with
    | nil => rfl
    | cons a is ih => simp only [transformLoop, RealSpace.inputSection, hs, h, ih, List.map_cons]
  unfold transform countBins
  rw [hs]
  simp only [hloop, if_neg hn.ne']

/-! ## The next module -/

theorem correct_unknown (run data : Cosmo) (corr : String) (h1 : corr ≠ "wp") (h2 : corr ≠ "ds") (z : List ℝ) (n : ℕ)
    (hn : 0 < n) (s : Corr) : correct run data corr z n s = .error .valueError := by
  unfold correct
  by_cases hz : z.length = n
  · rw [if_neg (by simpa using hz)]
    obtain ⟨m, rfl⟩ : ∃ m, n = m + 1 := ⟨n - 1, by omega⟩
    rw [List.range_succ_eq_map]
    unfold correctLoop correctStep corrRatio
    have : z[0]? = some (z[0]'(by omega)) := List.getElem?_eq_getElem _
    simp [this, h1, h2]
  · rw [if_pos hz]

theorem correct_known (run data : Cosmo) (corr : String) (h : corr = "wp" ∨ corr = "ds") (z : List ℝ) (s : Corr) :
    ∃ s', correct run data corr z z.length s = .ok s' := by
  unfold correct
  rw [if_neg (by simp)]
  have key : ∀ l : List ℕ, (∀ i ∈ l, i < z.length) → ∀ s, ∃ s', correctLoop run data corr z l s = .ok s' := by
    intro l
    induction l with
    | nil => exact fun _ s => ⟨s, rfl⟩
    | cons i l ih =>
      intro hl s
      have hi := hl i (List.mem_cons_self ..)
      obtain ⟨c, hc⟩ : ∃ c, corrRatio run data corr z[i] = .ok c := by
        unfold corrRatio
        rcases h with rfl | rfl
        · exact ⟨_, rfl⟩
        · exact ⟨_, rfl⟩
      unfold correctLoop correctStep
      rw [List.getElem?_eq_getElem hi]
      simp only [hc]
      exact ih (fun i hi => hl i (List.mem_cons_of_mem _ hi)) _
  exact key _ (by simp) s

/-- C106: the change of cosmology cannot follow this module: it stops with an error on every output, because the name of
the correlation type is left empty.  After the FFTLog module it succeeds for any list of redshifts, one per bin. -/
theorem C106_next_module (s : Settings) (nb : Option ℕ) (spectra : String → Option Spectrum)
    (kernels : ℕ → Option Kernel) (run data : Cosmo) (z : List ℝ) (c : Corr) :
    (∀ (H : Quadrature) r, transform s H nb spectra kernels = .ok r →
      correct run data r.saveName z r.nbin c = .error .valueError) ∧
    ∀ kr fht d r, fftlogTransform s kr fht d nb spectra kernels = .ok r → z.length = r.nbin →
      ∃ c', correct run data r.saveName z r.nbin c = .ok c' := by
  constructor
  · intro H r h
    unfold transform at h
    cases hc : countBins s nb with
    | error e => rw [hc] at h; cases h
    | ok n =>
      rw [hc] at h
      simp only at h
      cases hl : transformLoop s H spectra kernels (List.range n) with
      | error e => rw [hl] at h; cases h
      | ok r' =>
        rw [hl] at h
        simp only at h
        split_ifs at h with h0
        cases h
        exact correct_unknown run data "" (by decide) (by decide) z n (by omega) c
  · intro kr fht d r h hz
    have hname : r.saveName = "wp" ∨ r.saveName = "ds" := by
      unfold fftlogTransform at h
      simp only at h
      split at h
      · cases h
      · split at h
        · cases h
        · split at h
          · cases h
          · cases h
            cases s.corr
            · exact Or.inl rfl
            · exact Or.inr rfl
    rw [← hz]
    exact correct_known run data _ hname z c

/-- the hypotheses are met: one bin, any spectrum, either module -/
example (sp : Spectrum) (kn : ℕ → Kernel) : ∃ s r r', s.suffixes = none ∧
    transform s demoH (some 1) (fun _ => some sp) (fun i => some (kn i)) = .ok r ∧
    fftlogTransform s 1 (fun f i => f i) none (some 1) (fun _ => some sp) (fun i => some (kn i)) = .ok r' ∧
    r'.saveName = "wp" := by
  let s : Settings := ⟨.wp, "galaxy_power", "wp", none, "nz", 4, 1, 1000, 1, 10⟩
  refine ⟨s, _, _, rfl, C106_shared_spectrum s demoH rfl 1 one_pos _ sp rfl kn, rfl, rfl⟩

end Verif.Ogata

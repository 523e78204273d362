import Verif.Model.HankelModules
import Verif.Props.Ogata
import Verif.Props.FftLogModes
import Verif.Lemmas.Bessel
import Mathlib.Analysis.SpecialFunctions.Integrals.Basic

/-! # C113: clustering is the projected correlation function, lensing its excess over the disc -/

namespace Verif.Ogata

open Verif.Lib Verif.Spec Verif.RealSpace MeasureTheory

/-- what a correlation type stands for, as an operation on functions of the separation -/
noncomputable def statistic : CorrType → (ℝ → ℝ) → ℝ → ℝ
  | .wp => fun w => w
  | .ds => excess

/-- C113: the excess over the disc of the projected correlation function is the transform of order 2. -/
theorem C113_orders (P : ℝ → ℝ) (hP : IntegrableOn (fun k => k * P k) (Set.Ioi 0)) (c : CorrType) {r : ℝ} (hr : 0 < r) :
    statistic c (projectedCorrelation P) r = hankelIntegral P (besselJ (order c)) r := by
  cases c with
  | wp => rfl
  | ds => exact excess_projected P hP hr

/-- C113: the module with the package `hankel`.  Let `P j` be the true spectrum of a bin at redshift `j`, and let the sum of order 0
for clustering and 2 for lensing, applied to the interpolated spectrum, be the integral of the true spectrum up to `eps`.  Then what
the module integrates over redshift is the projected correlation function of `P j`, or its excess, up to `eps / (2 pi r^2)`. -/
theorem C113_ogata (quad : ℝ → Quadrature) (s : Settings) (nb : Option ℕ) (spectra : String → Option Spectrum)
    (kernels : ℕ → Option Kernel) (l : List String) (hl : s.suffixes = some l) (out : Output)
    (h : ogataModule quad s nb spectra kernels = .ok out) (b : ℕ) (hb : b < l.length) :
    ∃ sp kn, spectra (s.inputSection ++ "_" ++ l[b]) = some sp ∧ kernels b = some kn ∧ ∃ (f : ℕ → ℝ) (v : ℕ → ℕ → ℝ),
      out.bins[b]? = some f ∧ (∀ i, f i = simpson sp.nz sp.z fun j => loadKernel kn (sp.z j) * v j i) ∧
      ∀ (P : ℕ → ℝ → ℝ) (eps : ℝ) (i j : ℕ), IntegrableOn (fun k => k * P j k) (Set.Ioi 0) → 0 < (grid s).rp i →
        |(quad (match s.corr with | .wp => 0 | .ds => 2)).apply (fun x => interpLinear sp.nk sp.k (sp.pk j) (x / (grid s).rp i) * x) -
          ∫ x in Set.Ioi 0, P j (x / (grid s).rp i) * x * besselJ (match s.corr with | .wp => 0 | .ds => 2) x| ≤ eps →
        |v j i - statistic s.corr (projectedCorrelation (P j)) ((grid s).rp i)| ≤ eps / (2 * Real.pi * (grid s).rp i ^ 2) := by
  obtain ⟨-, h2⟩ := C106_bins s (quad (order s.corr)) l hl nb spectra kernels
  obtain ⟨-, -, -, -, h3⟩ := h2 out h
  obtain ⟨sp, kn, e1, e2, e3⟩ := h3 b hb
  refine ⟨sp, kn, e1, e2, _, fun j i => evaluate (quad (order s.corr)) sp.nk sp.k (sp.pk j) ((grid s).rp i), e3, fun i => rfl, ?_⟩
  intro P eps i j hP hr hq
  have ho : (match s.corr with | .wp => (0 : ℝ) | .ds => 2) = order s.corr := by cases s.corr <;> rfl
  rw [ho] at hq
  rw [C113_orders (P j) hP s.corr hr, hankelIntegral_eq _ _ hr]
  have hp : 0 < 2 * Real.pi * (grid s).rp i ^ 2 := by positivity
  unfold evaluate interp1d
  simp only
  rw [show (2.0 : ℝ) = 2 by norm_num, ← sub_div, abs_div, abs_of_pos hp]
  exact div_le_div_of_nonneg_right hq hp.le

/-! ## FFTLog -/

open Verif.FftLog

/-- the recurrence of the gamma function in the two orders -/
theorem U_two {s : ℂ} (hs : s.re = 0) : U 2 s = U 0 s * ((1 + s) / (1 - s)) := by
  have h1 : (1 + s) / 2 ≠ 0 := by
    intro h
    have := congrArg Complex.re h
    simp [hs] at this
  have h2 : (1 - s) / 2 ≠ 0 := by
    intro h
    have := congrArg Complex.re h
    simp [hs] at this
  have h3 : 1 - s ≠ 0 := fun h => h2 (by rw [h]; simp)
  have g : Complex.Gamma ((1 - s) / 2) ≠ 0 := by
    apply Complex.Gamma_ne_zero_of_re_pos
    simp [hs]
  unfold U
  have e1 : (((2 : ℝ) : ℂ) + 1 + s) / 2 = (1 + s) / 2 + 1 := by push_cast; ring
  have e2 : (((2 : ℝ) : ℂ) + 1 - s) / 2 = (1 - s) / 2 + 1 := by push_cast; ring
  have e3 : (((0 : ℝ) : ℂ) + 1 + s) / 2 = (1 + s) / 2 := by push_cast; ring
  have e4 : (((0 : ℝ) : ℂ) + 1 - s) / 2 = (1 - s) / 2 := by push_cast; ring
  rw [e1, e2, e3, e4, Complex.Gamma_add_one _ h1, Complex.Gamma_add_one _ h2]
  field_simp

/-- the excess of a log-periodic correlation function -/
theorem excess_log_periodic (C s : ℂ) (hs : s.re = 0) {kc r : ℝ} (hk : 0 < kc) (hr : 0 < r) :
    excess (projected 0 C s kc) r = projected 2 C s kc r := by
  have h3 : 1 - s ≠ 0 := by
    intro h
    have := congrArg Complex.re h
    simp [hs] at this
  have hpi := Real.pi_pos
  set D : ℂ := C * U 0 s * (kc : ℂ) ^ (-s) with hD
  have split : ∀ x : ℝ, 0 < x → C * U 0 s * ((x * kc : ℝ) : ℂ) ^ (-s) = D * (x : ℂ) ^ (-s) := by
    intro x hx
    rw [Complex.ofReal_mul, Complex.mul_cpow_ofReal_nonneg hx.le hk.le, hD]
    ring
  have hint : ∫ x in (0 : ℝ)..r, x * projected 0 C s kc x = (D * ((r : ℂ) ^ (1 - s) / (1 - s))).re / (2 * Real.pi) := by
    have e1 : ∫ x in (0 : ℝ)..r, x * projected 0 C s kc x = ∫ x in (0 : ℝ)..r, (D * (x : ℂ) ^ (-s)).re / (2 * Real.pi) := by
      refine intervalIntegral.integral_congr_ae (Filter.Eventually.of_forall fun x hx => ?_)
      rw [Set.uIoc_of_le hr.le] at hx
      have hx0 := hx.1
      unfold projected
      rw [split x hx0]
      field_simp
    have i1 : IntervalIntegrable (fun x : ℝ => (x : ℂ) ^ (-s)) volume 0 r :=
      intervalIntegral.intervalIntegrable_cpow' (by simp [hs])
    have e2 : ∫ x in (0 : ℝ)..r, (x : ℂ) ^ (-s) = (r : ℂ) ^ (1 - s) / (1 - s) := by
      rw [integral_cpow (Or.inl (by simp [hs]))]
      rw [show -s + 1 = 1 - s by ring, Complex.ofReal_zero, Complex.zero_cpow h3, sub_zero]
    have e3 : ∫ x in (0 : ℝ)..r, (D * (x : ℂ) ^ (-s)).re = (∫ x in (0 : ℝ)..r, D * (x : ℂ) ^ (-s)).re := by
      have := Complex.reCLM.intervalIntegral_comp_comm (i1.const_mul D)
      simpa using this
    rw [e1, intervalIntegral.integral_div, e3, intervalIntegral.integral_const_mul, e2]
  unfold excess
  rw [hint]
  unfold projected
  rw [split r hr, U_two hs]
  have e4 : C * (U 0 s * ((1 + s) / (1 - s))) * ((r * kc : ℝ) : ℂ) ^ (-s) = D * (r : ℂ) ^ (-s) * ((1 + s) / (1 - s)) := by
    rw [← split r hr]; ring
  have hr0 : (r : ℂ) ≠ 0 := by exact_mod_cast hr.ne'
  have e5 : (r : ℂ) ^ (1 - s) = (r : ℂ) * (r : ℂ) ^ (-s) := by
    rw [sub_eq_add_neg, Complex.cpow_add _ _ hr0, Complex.cpow_one]
  rw [e4, e5]
  have e6 : (D * ((r : ℂ) * (r : ℂ) ^ (-s) / (1 - s))).re = r * (D * (r : ℂ) ^ (-s) / (1 - s)).re := by
    rw [← Complex.re_ofReal_mul]
    congr 1
    ring
  have e7 : (D * (r : ℂ) ^ (-s) * ((1 + s) / (1 - s))).re = 2 * (D * (r : ℂ) ^ (-s) / (1 - s)).re - (D * (r : ℂ) ^ (-s)).re := by
    have : D * (r : ℂ) ^ (-s) * ((1 + s) / (1 - s)) = ((2 : ℝ) : ℂ) * (D * (r : ℂ) ^ (-s) / (1 - s)) - D * (r : ℂ) ^ (-s) := by
      push_cast
      field_simp
      ring
    rw [this, Complex.sub_re, Complex.re_ofReal_mul]
  rw [e6, e7]
  field_simp

theorem moduleTransformer_spec (lg : ℂ → ℂ) (s : Settings) : ∃ T, moduleTransformer lg s = .ok T ∧
    UsesFftLog lg (order s.corr) T ∧ T.n = s.n ∧ T.kMin = s.kMin ∧ T.kMax = s.kMax ∧ T.rpMin = s.rpMin ∧ T.rpMax = s.rpMax := by
  have hb : bias s.corr = 0 := by cases s.corr <;> rfl
  unfold moduleTransformer
  rw [hb]
  cases hf : fhti lg s.n (order s.corr) (grid s).dlogr 0 1 .quiet with
  | error e => unfold fhti at hf; simp at hf
  | ok p =>
    obtain ⟨kr, x⟩ := p
    exact ⟨_, rfl, ⟨x, hf, rfl⟩, rfl, rfl, rfl, rfl, rfl⟩

/-- C113: the FFTLog module on spectra that oscillate in the logarithm of the wavenumber, `k P(k) = Re[C (k/k_c)^s]`, one such spectrum
per redshift: for clustering the integral over redshift of the projected correlation function, for lensing that of its excess over the
disc times the mean density in units of `10^12`; in both cases the value at a separation one logarithmic step above the reported one,
times the step. -/
theorem C113_fftlog {lg : ℂ → ℂ} (hlg : IsLogGamma lg) (s : Settings) (hn : 2 ≤ s.n) (h0 : 0 < s.kMin) (h1 : s.kMin < s.kMax) (T : Transformer)
    (hT : moduleTransformer lg s = .ok T) (density : ℝ) (sp : Spectrum) (kn : Kernel) (C : ℕ → ℂ) (m : ℕ → ℕ)
    (hm : ∀ j < sp.nz, 2 * m j < s.n) (kc : ℝ) (hkc : kc = Real.sqrt (s.kMin * s.kMax)) (S : ℕ → ℂ)
    (hS : ∀ j, S j = 2 * Real.pi * Complex.I * m j / (s.n * T.dlogr))
    (hin : ∀ j < sp.nz, ∀ t < s.n, T.k t * logInterp sp.nk sp.k (sp.pk j) (T.k t) = (C j * ((T.k t / kc : ℝ) : ℂ) ^ S j).re)
    (i : ℕ) (hi : i < s.n) :
    RealSpace.binOutput T s.corr density sp kn i = simpson sp.nz sp.z (fun j => loadKernel kn (sp.z j) *
      (Real.exp T.dlogr * statistic s.corr (projected 0 (C j) (S j) kc) (Real.exp T.dlogr * T.rp i)) * density) /
        (match s.corr with | .wp => 1 | .ds => 1e12) := by
  obtain ⟨T', hT', hu, e1, e2, e3, -, -⟩ := moduleTransformer_spec lg s
  rw [hT] at hT'
  obtain rfl := Except.ok.inj hT'
  have hmu : ¬ IsNegInt ((order s.corr + 1) / 2) := by
    apply regular_pos
    cases s.corr <;> norm_num [order]
  have hk0 : 0 < kc := by rw [hkc]; exact Real.sqrt_pos.2 (mul_pos h0 (h0.trans h1))
  have key : ∀ j < sp.nz, T.xi sp.nk sp.k (sp.pk j) i =
      Real.exp T.dlogr * statistic s.corr (projected 0 (C j) (S j) kc) (Real.exp T.dlogr * T.rp i) := by
    intro j hj
    have hr : 0 < Real.exp T.dlogr * T.rp i := by
      obtain ⟨x, h, hf⟩ := hu
      have hd := dlogr_pos T (by omega) (by rw [e2]; exact h0) (by rw [e2, e3]; exact h1)
      have hkr : 0 < T.kr := by
        rw [(fhti_zero h rfl).1]
        exact (C104_low_ringing (lg := lg) (n := T.n) one_pos hd.ne').1
      exact mul_pos (Real.exp_pos _) (mul_pos (Real.exp_pos _) (div_pos hkr (Real.exp_pos _)))
    have hre : (S j).re = 0 := by
      rw [hS j]
      have : (2 * Real.pi * Complex.I * m j / (s.n * T.dlogr) : ℂ) = ((2 * Real.pi * m j / (s.n * T.dlogr) : ℝ) : ℂ) * Complex.I := by
        push_cast; ring
      rw [this, Complex.re_ofReal_mul, Complex.I_re, mul_zero]
    rw [C104_separation hlg T hu (by omega) (by rw [e2]; exact h0) (by rw [e2, e3]; exact h1) hmu (m j) (by rw [e1]; exact hm j hj) (C j)
      sp.nk sp.k (sp.pk j) kc (by rw [e2, e3]; exact hkc) (S j) (by rw [e1]; exact hS j) (by rw [e1]; exact hin j hj) i (by omega)]
    cases s.corr with
    | wp => rfl
    | ds => show _ * projected 2 _ _ _ _ = _ * excess _ _
            rw [excess_log_periodic _ _ hre hk0 hr]
  have hs : simpson sp.nz sp.z (fun j => loadKernel kn (sp.z j) * T.xi sp.nk sp.k (sp.pk j) i * density) =
      simpson sp.nz sp.z (fun j => loadKernel kn (sp.z j) *
        (Real.exp T.dlogr * statistic s.corr (projected 0 (C j) (S j) kc) (Real.exp T.dlogr * T.rp i)) * density) := by
    apply simpson_congr_right
    intro j hj
    rw [key j hj]
  unfold RealSpace.binOutput
  simp only
  rw [hs]
  cases s.corr <;> simp

/-- C113: the FFTLog module gives these bins: with suffixes, output `b` is made from the section and the redshift distribution of bin `b`
with the transformer of the settings, the mean density of the block for lensing and 1 for clustering. -/
theorem C113_fftlog_bins (lg : ℂ → ℂ) (s : Settings) (l : List String) (hl : s.suffixes = some l) (d : Option ℝ) (nb : Option ℕ)
    (spectra : String → Option Spectrum) (kernels : ℕ → Option Kernel) (out : Output)
    (h : fftlogModule lg s d nb spectra kernels = .ok out) :
    ∃ T density, moduleTransformer lg s = .ok T ∧ (s.corr = .wp → density = 1) ∧ (s.corr = .ds → d = some density) ∧
      ∀ b (hb : b < l.length), ∃ sp kn, spectra (s.inputSection ++ "_" ++ l[b]) = some sp ∧ kernels b = some kn ∧
        out.bins[b]? = some (RealSpace.binOutput T s.corr density sp kn) := by
  obtain ⟨T, hT, -, e1, e2, e3, e4, e5⟩ := moduleTransformer_spec lg s
  have eT : (⟨s.n, s.kMin, s.kMax, s.rpMin, s.rpMax, T.kr, T.fht⟩ : Transformer) = T := by
    cases T
    simp only at e1 e2 e3 e4 e5
    subst e1 e2 e3 e4 e5
    rfl
  unfold fftlogModule at h
  rw [hT] at h
  simp only at h
  unfold fftlogTransform at h
  rw [eT] at h
  have hdens : ∃ density, (s.corr = .wp → density = 1) ∧ (s.corr = .ds → d = some density) ∧
      ∃ r, RealSpace.transform T s.corr density s.inputSection s.suffixes nb spectra kernels = .ok r ∧ out.bins = r.1 := by
    have hc : countBins s nb = .ok l.length := by unfold countBins; rw [hl]
    rw [hc] at h
    rcases hcorr : s.corr with _ | _
    · rw [hcorr] at h
      simp only at h
      refine ⟨1, fun _ => rfl, fun h => (by cases h), ?_⟩
      split at h
      · cases h
      · rename_i r hr
        obtain rfl := Except.ok.inj h
        exact ⟨r, hr, rfl⟩
    · rw [hcorr] at h
      rcases d with _ | d
      · simp only at h
        cases h
      · simp only at h
        refine ⟨d, fun h => (by cases h), fun _ => rfl, ?_⟩
        split at h
        · cases h
        · rename_i r hr
          obtain rfl := Except.ok.inj h
          exact ⟨r, hr, rfl⟩
  obtain ⟨density, a1, a2, r, hr, hb⟩ := hdens
  refine ⟨T, density, hT, a1, a2, ?_⟩
  intro b hlb
  rw [hl] at hr
  obtain ⟨c1, c2⟩ := C92_bins T s.corr density s.inputSection l nb spectra kernels
  obtain ⟨-, c3⟩ := c1.1 ⟨r, hr⟩
  obtain ⟨⟨sx, d1, d2⟩, d3⟩ := c3 b hlb
  have hsx : l[b] = sx := by rw [List.getElem?_eq_getElem hlb] at d1; exact Option.some.inj d1
  obtain ⟨sp, hsp⟩ := Option.isSome_iff_exists.1 d2
  obtain ⟨kn, hkn⟩ := Option.isSome_iff_exists.1 d3
  obtain ⟨-, -, c4⟩ := c2 r hr
  refine ⟨sp, kn, by rw [hsx]; exact hsp, hkn, ?_⟩
  rw [hb]
  exact c4 b sx sp kn d1 hsp hkn

/-! ## Examples -/

/-- two bins, lensing, with the defaults of the ranges -/
noncomputable def demoLensing : Settings := ⟨.ds, "matter_galaxy_power", "ds", some ["1", "2"], "nz", 64, 0.0001, 5e6, 0.1, 1000⟩

/-- an integrable spectrum: `P(k) = exp (-k)` -/
theorem demo_integrable : IntegrableOn (fun k : ℝ => k * Real.exp (-k)) (Set.Ioi 0) := by
  have := Real.GammaIntegral_convergent (s := 2) (by norm_num)
  refine this.congr_fun (fun x _ => ?_) measurableSet_Ioi
  norm_num
  ring

/-- non-vacuity: the transform of order 2 of `exp (-k)` -/
example : excess (projectedCorrelation fun k => Real.exp (-k)) 3 = hankelIntegral (fun k => Real.exp (-k)) (besselJ 2) 3 :=
  C113_orders _ demo_integrable .ds (by norm_num)

/-- non-vacuity: the module with `hankel` runs, for every quadrature and spectrum, and its second bin is the excess of `exp (-k)` up to
the error of the quadrature -/
example (quad : ℝ → Quadrature) (sp : Spectrum) (kn : ℕ → Kernel) : ∃ out, ogataModule quad demoLensing none (fun _ => some sp)
    (fun i => some (kn i)) = .ok out ∧ ∃ (f : ℕ → ℝ) (v : ℕ → ℕ → ℝ), out.bins[1]? = some f ∧
      (∀ i, f i = simpson sp.nz sp.z fun j => loadKernel (kn 1) (sp.z j) * v j i) ∧
      ∀ i j, |v j i - excess (projectedCorrelation fun k => Real.exp (-k)) ((grid demoLensing).rp i)| ≤
        |(quad 2).apply (fun x => interpLinear sp.nk sp.k (sp.pk j) (x / (grid demoLensing).rp i) * x) -
          ∫ x in Set.Ioi 0, Real.exp (-(x / (grid demoLensing).rp i)) * x * besselJ 2 x| / (2 * Real.pi * (grid demoLensing).rp i ^ 2) := by
  obtain ⟨out, h⟩ := (C106_bins demoLensing (quad 2) ["1", "2"] rfl none (fun _ => some sp) (fun i => some (kn i))).1.2
    ⟨by simp, fun i _ => ⟨rfl, rfl⟩⟩
  have h' : ogataModule quad demoLensing none (fun _ => some sp) (fun i => some (kn i)) = .ok out := h
  obtain ⟨sp', kn', e1, e2, f, v, e3, e4, e5⟩ := C113_ogata quad demoLensing none _ _ ["1", "2"] rfl out h' 1 (by simp)
  obtain rfl := Option.some.inj e1
  obtain rfl := Option.some.inj e2
  refine ⟨out, h', f, v, e3, e4, fun i j => e5 (fun _ k => Real.exp (-k)) _ i j demo_integrable ?_ le_rfl⟩
  exact (C106_separations demoLensing (by norm_num [demoLensing]) (by norm_num [demoLensing]) (by norm_num [demoLensing])).1 i

/-- non-vacuity: the FFTLog module on the constant `k P(k) = 1`, sampled on its own grid -/
example (kn : Kernel) (i : ℕ) (hi : i < 64) : ∃ T, moduleTransformer lgDemo demoLensing = .ok T ∧
    RealSpace.binOutput T .ds 8e10 ⟨64, T.k, 2, fun j => 0.1 * j, fun _ t => 1 / T.k t⟩ kn i =
      simpson 2 (fun j => 0.1 * j) (fun j => loadKernel kn (0.1 * j) *
        (Real.exp T.dlogr * excess (projected 0 1 0 (Real.sqrt (0.0001 * 5e6))) (Real.exp T.dlogr * T.rp i)) * 8e10) / 1e12 := by
  obtain ⟨T, hT, -, e1, e2, e3, -, -⟩ := moduleTransformer_spec lgDemo demoLensing
  refine ⟨T, hT, ?_⟩
  have hkp : ∀ j, 0 < T.k j := fun j => Real.rpow_pos_of_pos (by norm_num) _
  have hsort : SortedOn 64 T.k := by
    have hd := dlogr_pos T (by rw [e1]; norm_num [demoLensing]) (by rw [e2]; norm_num [demoLensing])
      (by rw [e2, e3]; norm_num [demoLensing])
    have hstep : ∀ i, T.k i < T.k (i + 1) := fun i => by
      have h := (C93_wavenumbers T (by rw [e1]; norm_num [demoLensing]) (by rw [e2]; norm_num [demoLensing])
        (by rw [e3]; norm_num [demoLensing])).2.2 i
      exact (Real.log_lt_log_iff (hkp i) (hkp (i + 1))).1 (by linarith)
    exact fun i j hij _ => strictMono_nat_of_lt_succ hstep hij
  have h := C113_fftlog lgDemo_spec demoLensing (by norm_num [demoLensing]) (by norm_num [demoLensing]) (by norm_num [demoLensing]) T hT 8e10
    ⟨64, T.k, 2, fun j => 0.1 * j, fun _ t => 1 / T.k t⟩ kn (fun _ => 1) (fun _ => 0) (fun j _ => by norm_num [demoLensing]) _ rfl (fun _ => 0)
    (fun j => by simp) (fun j _ t ht => by
      have hn := C71_nodes (n := 64) (by norm_num) hsort (fun i _ => hkp i) (fun t => 1 / T.k t) ht
      rw [hn]
      have := (hkp t).ne'
      simp [this]) i hi
  exact h

end Verif.Ogata

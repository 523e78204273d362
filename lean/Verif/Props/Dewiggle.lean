import Verif.Model.Dewiggle
import Verif.Lemmas.GaussianFilter
import Verif.Lemmas.Simpson
import Verif.Props.PkReaders
import Verif.Spec.Grid
import Mathlib.Analysis.Complex.ExponentialBounds

/-! Property C144: what the dewiggling does to the linear power, with the filter the code calls. -/

namespace Verif.Pk.Dewiggle

open Verif.Lib Verif.Spec Verif.Pk Verif.Pk.Wiggle

/-- the smooth Eisenstein-Hu shape `k^ns T(k)²`, `lnT` the logarithm of the no-wiggle transfer function -/
noncomputable def shape (ns : ℝ) (lnT : ℝ → ℝ) (q : ℝ) : ℝ := q ^ ns * Real.exp (lnT (Real.log q)) ^ 2

/-- wavenumbers equally spaced in the logarithm, with step `ℓ` -/
structure LogGrid (nk : ℕ) (k : ℕ → ℝ) (ℓ : ℝ) : Prop where
  two : 2 ≤ nk
  step : 0 < ℓ
  pos : 0 < k 0
  at' : ∀ i < nk, k i = k 0 * Real.exp (i * ℓ)

variable {nk : ℕ} {k : ℕ → ℝ} {ℓ ns : ℝ} {lnT : ℝ → ℝ}

theorem LogGrid.k_pos (g : LogGrid nk k ℓ) {i : ℕ} (hi : i < nk) : 0 < k i := by
  rw [g.at' i hi]; exact mul_pos g.pos (Real.exp_pos _)

theorem LogGrid.dlnk (g : LogGrid nk k ℓ) : Real.log (k 1 / k 0) = ℓ := by
  rw [g.at' 1 (by have := g.two; omega), mul_div_cancel_left₀ _ g.pos.ne', Real.log_exp]; simp

theorem LogGrid.log_k (g : LogGrid nk k ℓ) {i : ℕ} (hi : i < nk) : Real.log (k i) = Real.log (k 0) + i * ℓ := by
  rw [g.at' i hi, Real.log_mul g.pos.ne' (Real.exp_pos _).ne', Real.log_exp]

theorem shape_pos {q : ℝ} (hq : 0 < q) : 0 < shape ns lnT q :=
  mul_pos (Real.rpow_pos_of_pos hq _) (pow_pos (Real.exp_pos _) _)

theorem gentle {n : ℕ} (hl : 0 < ℓ) : GentleGrid n fun i => (i : ℝ) * ℓ where
  step_pos i _ := by push_cast; nlinarith
  up i _ := by push_cast; nlinarith
  down i _ := by push_cast; nlinarith

/-- the filter reaches nodes at most one unit of `ln k` (and half a step) away -/
theorem radius_reach (g : LogGrid nk k ℓ) {i j : ℕ} (hi : i < nk) (hj : j < nk)
    (h : |(j : ℤ) - i| ≤ filterRadius (0.25 / ℓ)) : |Real.log (k j) - Real.log (k i)| ≤ 1 + ℓ / 2 := by
  rw [g.log_k hi, g.log_k hj]
  have e : Real.log (k 0) + j * ℓ - (Real.log (k 0) + i * ℓ) = ((j : ℝ) - i) * ℓ := by ring
  rw [e, abs_mul, abs_of_pos g.step]
  have h1 : |(j : ℝ) - i| ≤ filterRadius (0.25 / ℓ) := by exact_mod_cast h
  have h2 : (filterRadius (0.25 / ℓ) : ℝ) ≤ 4 * (0.25 / ℓ) + 0.5 :=
    Nat.floor_le (by have := g.step; positivity)
  have h3 : (4 * (0.25 / ℓ) + 0.5) * ℓ = 1 + ℓ / 2 := by
    have := g.step.ne'
    field_simp; ring
  nlinarith [g.step]

theorem dispersion_nonneg (g : LogGrid nk k ℓ) {p : ℕ → ℝ} (hp : ∀ i < nk, 0 ≤ p i) :
    0 ≤ (scipyWiggle nk k ns lnT).dispersionSq p := by
  have : 0 ≤ simpson nk (fun i => (i : ℝ) * ℓ) (fun i => p i * k i) :=
    simpson_nonneg (gentle g.step) fun i hi => mul_nonneg (hp i hi) (g.k_pos hi).le
  have hd : (scipyWiggle nk k ns lnT).dispersionSq p
      = 0.5 / Real.pi ^ 2 * simpson nk (fun i => (i : ℝ) * ℓ) (fun i => p i * k i) / 3 := by
    simp only [dispersionSq, scipyWiggle, simpsonDx, g.dlnk]
  rw [hd]; positivity

theorem smoothed_eq (g : LogGrid nk k ℓ) (p : ℕ → ℝ) (i : ℕ) :
    (scipyWiggle nk k ns lnT).smoothedSpectrum p i
      = gaussianFilter1d nk (0.25 / ℓ) (fun j => p j / shape ns lnT (k j)) i * shape ns lnT (k i) := by
  simp only [smoothedSpectrum, scipyWiggle, g.dlnk]
  rfl

theorem combination (g : LogGrid nk k ℓ) {plin r : ℕ → ℕ → ℝ}
    (hr : (scipyWiggle nk k ns lnT).dewigglePlin plin = .ok r) {z : ℕ} (hp : ∀ i < nk, 0 ≤ plin z i) (i : ℕ) :
    ∃ w : ℝ, w = Real.exp (-(k i ^ 2 * (scipyWiggle nk k ns lnT).dispersionSq (plin z))) ∧ 0 < w ∧ w ≤ 1 ∧
      r z i = w * plin z i + (1 - w) *
        (gaussianFilter1d nk (0.25 / ℓ) (fun j => plin z j / shape ns lnT (k j)) i * shape ns lnT (k i)) := by
  have h := C30_convex_combination (scipyWiggle nk k ns lnT) g.two plin r hr z i (dispersion_nonneg g hp)
  simp only at h
  rw [smoothed_eq g] at h
  exact ⟨_, rfl, h.2.1, h.2.2.1, h.1⟩

/-- C144: the dewiggled power of a positive linear spectrum is positive at every wavenumber of the grid. -/
theorem C144_positive (g : LogGrid nk k ℓ) {plin r : ℕ → ℕ → ℝ}
    (hr : (scipyWiggle nk k ns lnT).dewigglePlin plin = .ok r) {z : ℕ} (hp : ∀ i < nk, 0 < plin z i) {i : ℕ}
    (hi : i < nk) : 0 < r z i := by
  obtain ⟨w, -, h0, h1, e⟩ := combination g hr (fun i hi => (hp i hi).le) i
  have hf : 0 < gaussianFilter1d nk (0.25 / ℓ) (fun j => plin z j / shape ns lnT (k j)) i :=
    filter_pos _ hi fun j hj => div_pos (hp j hj) (shape_pos (g.k_pos hj))
  have := mul_pos h0 (hp i hi)
  have := mul_nonneg (sub_nonneg.2 h1) (mul_pos hf (shape_pos (ns := ns) (lnT := lnT) (g.k_pos hi))).le
  rw [e]; linarith

/-- C144: the dewiggled power stays inside the band the linear power occupies around the smooth shape: if
`lo ≤ P(k') / (k'^ns T(k')²) ≤ hi` for the wavenumbers within about one unit of `ln k` of `k`, the dewiggled power at
`k` obeys the same bounds.  In particular wiggles are never amplified and no new features appear. -/
theorem C144_envelope (g : LogGrid nk k ℓ) {plin r : ℕ → ℕ → ℝ}
    (hr : (scipyWiggle nk k ns lnT).dewigglePlin plin = .ok r) {z : ℕ} (hp : ∀ i < nk, 0 ≤ plin z i) {i : ℕ}
    (hi : i < nk) {lo hi' : ℝ}
    (hb : ∀ j < nk, |Real.log (k j) - Real.log (k i)| ≤ 1 + ℓ / 2 →
      lo * shape ns lnT (k j) ≤ plin z j ∧ plin z j ≤ hi' * shape ns lnT (k j)) :
    lo * shape ns lnT (k i) ≤ r z i ∧ r z i ≤ hi' * shape ns lnT (k i) := by
  obtain ⟨w, -, h0, h1, e⟩ := combination g hr hp i
  have hs := shape_pos (ns := ns) (lnT := lnT) (g.k_pos hi)
  have hself := hb i hi (by rw [sub_self, abs_zero]; linarith [g.step])
  have hlo : lo ≤ gaussianFilter1d nk (0.25 / ℓ) (fun j => plin z j / shape ns lnT (k j)) i := by
    rw [← filter_const (n := nk) (0.25 / ℓ) lo i]
    refine filter_mono _ hi fun j hj hd => ?_
    rw [le_div_iff₀ (shape_pos (g.k_pos hj))]
    exact (hb j hj (radius_reach g hi hj hd)).1
  have hhi : gaussianFilter1d nk (0.25 / ℓ) (fun j => plin z j / shape ns lnT (k j)) i ≤ hi' := by
    rw [← filter_const (n := nk) (0.25 / ℓ) hi' i]
    refine filter_mono _ hi fun j hj hd => ?_
    rw [div_le_iff₀ (shape_pos (g.k_pos hj))]
    exact (hb j hj (radius_reach g hi hj hd)).2
  have a := mul_le_mul_of_nonneg_right hlo hs.le
  have b := mul_le_mul_of_nonneg_right hhi hs.le
  rw [e]
  constructor <;> nlinarith

/-- C144: a spectrum without wiggles, any multiple of the smooth shape on the grid, is returned unchanged. -/
theorem C144_smooth_unchanged (g : LogGrid nk k ℓ) {plin r : ℕ → ℕ → ℝ}
    (hr : (scipyWiggle nk k ns lnT).dewigglePlin plin = .ok r) {z : ℕ} {A : ℝ} (hA : 0 ≤ A)
    (hp : ∀ i < nk, plin z i = A * shape ns lnT (k i)) {i : ℕ} (hi : i < nk) : r z i = plin z i := by
  have h := C144_envelope g hr (z := z) (fun j hj => by
    rw [hp j hj]; exact mul_nonneg hA (shape_pos (g.k_pos hj)).le) hi (lo := A) (hi' := A)
    fun j hj _ => ⟨(hp j hj).ge, (hp j hj).le⟩
  rw [hp i hi]; exact le_antisymm h.2 h.1

/-- C144: apart from the velocity dispersion, a single number per redshift, the dewiggled power at `k` only depends
on the linear power within about one unit of `ln k`. -/
theorem C144_local (g : LogGrid nk k ℓ) {plin plin' r r' : ℕ → ℕ → ℝ}
    (hr : (scipyWiggle nk k ns lnT).dewigglePlin plin = .ok r)
    (hr' : (scipyWiggle nk k ns lnT).dewigglePlin plin' = .ok r') {z : ℕ} (hp : ∀ i < nk, 0 ≤ plin z i)
    (hp' : ∀ i < nk, 0 ≤ plin' z i)
    (hd : simpson nk (fun i => (i : ℝ) * ℓ) (fun i => plin z i * k i)
      = simpson nk (fun i => (i : ℝ) * ℓ) (fun i => plin' z i * k i)) {i : ℕ} (hi : i < nk)
    (hb : ∀ j < nk, |Real.log (k j) - Real.log (k i)| ≤ 1 + ℓ / 2 → plin z j = plin' z j) : r z i = r' z i := by
  obtain ⟨w, hw, -, -, e⟩ := combination g hr hp i
  obtain ⟨w', hw', -, -, e'⟩ := combination g hr' hp' i
  have hww : w = w' := by
    rw [hw, hw']
    simp only [dispersionSq, scipyWiggle, simpsonDx, g.dlnk, hd]
  have hf : gaussianFilter1d nk (0.25 / ℓ) (fun j => plin z j / shape ns lnT (k j)) i
      = gaussianFilter1d nk (0.25 / ℓ) (fun j => plin' z j / shape ns lnT (k j)) i :=
    filter_congr _ hi fun j hj hd => by rw [hb j hj (radius_reach g hi hj hd)]
  rw [e, e', hww, hf, hb i hi (by rw [sub_self, abs_zero]; linarith [g.step])]

/-- C144: the wiggles that `get_Pk_wiggle` extracts average out: relative to the smooth shape they sum to zero over
the grid, so the smoothing moves power around without adding or removing any. -/
theorem C144_wiggles_sum_to_zero (g : LogGrid nk k ℓ) {plin wig : ℕ → ℕ → ℝ}
    (hw : (scipyWiggle nk k ns lnT).getPkWiggle plin = .ok wig) (z : ℕ) :
    ∑ i ∈ Finset.range nk, wig z i / shape ns lnT (k i) = 0 := by
  rw [C31_guard_never_fires (scipyWiggle nk k ns lnT) g.two] at hw
  rw [← Except.ok.inj hw]
  have e : ∀ i ∈ Finset.range nk, (plin z i - (scipyWiggle nk k ns lnT).smooth (plin z) i) / shape ns lnT (k i)
      = plin z i / shape ns lnT (k i) - gaussianFilter1d nk (0.25 / ℓ) (fun j => plin z j / shape ns lnT (k j)) i := by
    intro i hi
    have hs := (shape_pos (ns := ns) (lnT := lnT) (g.k_pos (Finset.mem_range.1 hi))).ne'
    have : (scipyWiggle nk k ns lnT).smooth (plin z) i = _ := smoothed_eq g (plin z) i
    rw [this, sub_div, mul_div_assoc, div_self hs, mul_one]
  simp only
  rw [Finset.sum_congr rfl e, Finset.sum_sub_distrib, filter_sum (by have := g.two; omega), sub_self]

/-- C144: the more power, the more damping.  Scaling the linear spectrum by `A ≥ 1` (a larger amplitude, or a later
time) scales the smoothed spectrum by `A`, and the wiggles left over, in units of that smoothed spectrum, do not grow;
what is left of them is the fraction `exp(-k²σ²)`, at both amplitudes. -/
theorem C144_amplitude (g : LogGrid nk k ℓ) {plin r r' : ℕ → ℕ → ℝ} {A : ℝ} (hA : 1 ≤ A)
    (hr : (scipyWiggle nk k ns lnT).dewigglePlin plin = .ok r)
    (hr' : (scipyWiggle nk k ns lnT).dewigglePlin (fun z i => A * plin z i) = .ok r') {z : ℕ}
    (hp : ∀ i < nk, 0 ≤ plin z i) (i : ℕ) :
    ∃ S var : ℝ, var = 1 / (6 * Real.pi ^ 2) * simpson nk (fun i => (i : ℝ) * ℓ) (fun i => plin z i * k i) ∧
      0 ≤ var ∧
      r z i - S = Real.exp (-(k i ^ 2 * var)) * (plin z i - S) ∧
      r' z i - A * S = Real.exp (-(k i ^ 2 * (A * var))) * (A * plin z i - A * S) ∧
      |r' z i - A * S| ≤ A * |r z i - S| := by
  obtain ⟨w, hw, -, -, e⟩ := combination g hr hp i
  obtain ⟨w', hw', -, -, e'⟩ := combination g hr' (z := z) (fun i hi => mul_nonneg (by linarith) (hp i hi)) i
  have hd0 : 0 ≤ (scipyWiggle nk k ns lnT).dispersionSq (plin z) := dispersion_nonneg g hp
  have hd : (scipyWiggle nk k ns lnT).dispersionSq (plin z)
      = 1 / (6 * Real.pi ^ 2) * simpson nk (fun i => (i : ℝ) * ℓ) (fun i => plin z i * k i) := by
    simp only [dispersionSq, scipyWiggle, simpsonDx, g.dlnk]
    have := Real.pi_pos.ne'
    generalize simpson nk _ _ = X
    field_simp
    norm_num
    try ring
  have hd' : (scipyWiggle nk k ns lnT).dispersionSq (fun i => A * plin z i)
      = A * (scipyWiggle nk k ns lnT).dispersionSq (plin z) := by
    simp only [dispersionSq, scipyWiggle, simpsonDx]
    have : (fun i => A * plin z i * k i) = fun i => A * (plin z i * k i) := by funext i; ring
    rw [this, simpson_smul]; ring
  have hf : gaussianFilter1d nk (0.25 / ℓ) (fun j => A * plin z j / shape ns lnT (k j)) i
      = A * gaussianFilter1d nk (0.25 / ℓ) (fun j => plin z j / shape ns lnT (k j)) i := by
    rw [← filter_smul]; simp only [mul_div_assoc]
  rw [hf] at e'
  rw [hd'] at hw'
  set d := (scipyWiggle nk k ns lnT).dispersionSq (plin z)
  set S := gaussianFilter1d nk (0.25 / ℓ) (fun j => plin z j / shape ns lnT (k j)) i * shape ns lnT (k i)
  have e1 : r z i - S = w * (plin z i - S) := by rw [e]; ring
  have e2 : r' z i - A * S = w' * (A * plin z i - A * S) := by rw [e']; ring
  refine ⟨S, d, hd, hd0, by rw [e1, hw], by rw [e2, hw'], ?_⟩
  have hww : w' ≤ w := by
    rw [hw, hw']
    refine Real.exp_le_exp.2 (neg_le_neg (mul_le_mul_of_nonneg_left ?_ (sq_nonneg _)))
    nlinarith
  have h0 : 0 < w' := by rw [hw']; exact Real.exp_pos _
  rw [e1, e2, ← mul_sub, abs_mul, abs_mul, abs_mul, abs_of_pos h0, abs_of_nonneg (show (0 : ℝ) ≤ A by linarith),
    abs_of_pos (h0.trans_le hww)]
  have : 0 ≤ A * |plin z i - S| := mul_nonneg (by linarith) (abs_nonneg _)
  nlinarith

/-- C144: on a grid coarser than two units of `ln k` per step the filter has no neighbours left to average: the
dewiggling silently returns the linear spectrum with all its wiggles. -/
theorem C144_coarse_grid (g : LogGrid nk k ℓ) (hl : 2 < ℓ) {plin r : ℕ → ℕ → ℝ}
    (hr : (scipyWiggle nk k ns lnT).dewigglePlin plin = .ok r) {z : ℕ} (hp : ∀ i < nk, 0 ≤ plin z i) {i : ℕ}
    (hi : i < nk) : r z i = plin z i := by
  obtain ⟨w, -, -, -, e⟩ := combination g hr hp i
  have hr0 : filterRadius (0.25 / ℓ) = 0 := by
    unfold filterRadius
    rw [Nat.floor_eq_zero]
    have : 0.25 / ℓ < 0.125 := by rw [div_lt_iff₀ g.step]; linarith
    linarith
  have hf : gaussianFilter1d nk (0.25 / ℓ) (fun j => plin z j / shape ns lnT (k j)) i
      = gaussianFilter1d nk (0.25 / ℓ) (fun _ => plin z i / shape ns lnT (k i)) i :=
    filter_congr _ hi fun j _ hd => by
      rw [hr0] at hd
      have : (j : ℤ) - i = 0 := abs_nonpos_iff.1 (by simpa using hd)
      rw [show j = i by omega]
  have hs := (shape_pos (ns := ns) (lnT := lnT) (g.k_pos hi)).ne'
  rw [e, hf, filter_const, div_mul_cancel₀ _ hs]; ring

/-- C144: reading the linear power, with or without dewiggling, from the halo model's own spectrum or from a supplied
array, yields positive power at all redshifts and wavenumbers whenever the spectrum put in is positive. -/
theorem C144_read_positive (g : LogGrid nk k ℓ) (mode : NLMode) (dw : Bool) (nz : ℕ) (internal : ℕ → ℕ → ℝ)
    (supplied : Option NdArray) {out : NdArray}
    (ho : readPkLin mode dw (scipyWiggle nk k ns lnT) nz internal supplied = .ok out)
    (hin : ∀ z < nz, ∀ i < nk, 0 < internal z i)
    (hsup : ∀ a, supplied = some a → ∀ z < nz, ∀ i < nk, 0 < a.data z i) :
    out.shape = [nz, nk] ∧ ∀ z < nz, ∀ i < nk, 0 < out.data z i := by
  -- the spectrum that is read
  obtain ⟨v, hv, hv'⟩ : ∃ v : NdArray, (∀ z < nz, ∀ i < nk, 0 < v.data z i) ∧
      (do
        let val ← if mode = .hmcode || dw then dewiggleArray (scipyWiggle nk k ns lnT) v else .ok v
        if val.shape ≠ [nz, nk] then .error .valueError else .ok val) = Except.ok out := by
    cases supplied with
    | none => exact ⟨_, hin, ho⟩
    | some a => exact ⟨a, hsup a rfl, ho⟩
  have h2 := g.two
  have fin : ∀ {w : NdArray}, (if w.shape ≠ [nz, nk] then Except.error PyErr.valueError else .ok w) = .ok out →
      w = out ∧ out.shape = [nz, nk] := by
    intro w hw
    split_ifs at hw with hc
    have e := Except.ok.inj hw
    exact ⟨e, by rw [← e]; exact not_not.1 hc⟩
  by_cases hc : (decide (mode = .hmcode) || dw) = true
  · simp only [hc, if_true, bind, Except.bind] at hv'
    obtain ⟨sh, dat⟩ := v
    match sh, hv, hv' with
    | [], _, h => simp [dewiggleArray] at h
    | [x], _, h => simp [dewiggleArray] at h
    | x :: y :: t :: ts, _, h => simp [dewiggleArray] at h
    | [n, m], hv, h =>
      simp only [dewiggleArray] at h
      cases hb : bcast m (scipyWiggle nk k ns lnT).nk with
      | none => rw [hb] at h; simp at h
      | some m' =>
        rw [hb] at h
        cases hq : (scipyWiggle nk k ns lnT).dewigglePlin (fun z i => dat z (if m = 1 then 0 else i)) with
        | error e => simp only [hq] at h; simp at h
        | ok d =>
          simp only [hq] at h
          obtain ⟨e, hs⟩ := fin (w := ⟨[n, m'], d⟩) h
          refine ⟨hs, fun z hz i hi => ?_⟩
          rw [← e]
          refine C144_positive g hq (fun j hj => ?_) hi
          show 0 < dat z (if m = 1 then 0 else j)
          split_ifs
          · exact hv z hz 0 (by omega)
          · exact hv z hz j hj
  · simp only [hc, bind, Except.bind] at hv'
    obtain ⟨e, hs⟩ := fin hv'
    exact ⟨hs, by rw [← e]; exact hv⟩

/-! ## Legacy -/

/-- the interpolating coefficient of the shape parameter is non-negative for at most as many baryons as dark matter -/
theorem alpha_nonneg (c : LegacyCosmo) (hm : 1 / 22.3 ≤ c.ommh2) (hm1 : c.ommh2 ≤ 1) (hb : 0 ≤ c.ombh2)
    (hbm : c.ombh2 ≤ c.ommh2 / 2) : 0 < c.alpha := by
  have hm0 : 0 < c.ommh2 := lt_of_lt_of_le (by norm_num) hm
  have h1 : 0 ≤ c.ombh2 / c.ommh2 := div_nonneg hb hm0.le
  have h2 : c.ombh2 / c.ommh2 ≤ 1 / 2 := by rw [div_le_iff₀ hm0]; linarith
  have h3 : 0 ≤ Real.log (22.3 * c.ommh2) := Real.log_nonneg (by
    rw [div_le_iff₀ (by norm_num)] at hm; linarith)
  have h4 : Real.log (431 * c.ommh2) ≤ 6.07 := by
    rw [Real.log_le_iff_le_exp (by linarith)]
    have e : Real.exp 6.07 = Real.exp 1 ^ 6 * Real.exp 0.07 := by
      rw [← Real.exp_nat_mul, ← Real.exp_add]; norm_num
    have a : (2.718 : ℝ) ^ 6 ≤ Real.exp 1 ^ 6 :=
      pow_le_pow_left₀ (by norm_num) (by linarith [Real.exp_one_gt_d9]) 6
    have b : (1.07 : ℝ) ≤ Real.exp 0.07 := by linarith [Real.add_one_le_exp (0.07 : ℝ)]
    have : (431 : ℝ) ≤ 2.718 ^ 6 * 1.07 := by norm_num
    have := mul_le_mul a b (by norm_num) (by positivity)
    rw [e]; linarith
  unfold LegacyCosmo.alpha
  simp only
  generalize c.ombh2 / c.ommh2 = rb at *
  have h5 : Real.log (431 * c.ommh2) * rb ≤ 6.07 * (1 / 2) := by
    calc _ ≤ 6.07 * rb := mul_le_mul_of_nonneg_right h4 h1
      _ ≤ _ := mul_le_mul_of_nonneg_left h2 (by norm_num)
  have h6 : 0 ≤ Real.log (22.3 * c.ommh2) * rb ^ 2 := mul_nonneg h3 (sq_nonneg _)
  nlinarith

/-- C144: the legacy no-wiggle transfer function lies in `(0, 1]`, strictly below one for `k > 0`, for every physical
matter density and as many baryons as dark matter or fewer. -/
theorem C144_legacy_transfer (c : LegacyCosmo) (hh : 0 < c.h) (hT : c.tcmb ≠ 0) (hm : 1 / 22.3 ≤ c.ommh2)
    (hm1 : c.ommh2 ≤ 1) (hb : 0 ≤ c.ombh2) (hbm : c.ombh2 ≤ c.ommh2 / 2) {k : ℝ} (hk : 0 < k) :
    0 < c.tkNowiggle k ∧ c.tkNowiggle k < 1 := by
  have ha := alpha_nonneg c hm hm1 hb hbm
  have hm0 : 0 < c.ommh2 := lt_of_lt_of_le (by norm_num) hm
  have hG : 0 < c.gammaEff k := by
    unfold LegacyCosmo.gammaEff
    refine mul_pos (div_pos hm0 hh) ?_
    have hy : 0 ≤ (0.43 * k * c.soundHorizon * c.h) ^ 4 := by positivity
    generalize (0.43 * k * c.soundHorizon * c.h) ^ 4 = y at hy
    have : c.alpha + (1 - c.alpha) / (1 + y) = (1 + c.alpha * y) / (1 + y) := by
      have : (1 + y) ≠ 0 := by positivity
      field_simp; ring
    rw [this]; positivity
  unfold LegacyCosmo.tkNowiggle
  simp only
  have hq : 0 < k * (c.tcmb / 2.7) ^ 2 / c.gammaEff k := by
    have : 0 < (c.tcmb / 2.7) ^ 2 := by
      rw [sq_pos_iff]; exact div_ne_zero hT (by norm_num)
    positivity
  generalize k * (c.tcmb / 2.7) ^ 2 / c.gammaEff k = q at hq
  have hL : 0 < Real.log (2 * Real.exp 1 + 1.8 * q) := Real.log_pos (by
    have := Real.exp_one_gt_d9; linarith)
  have hC : 0 < (14.2 + 731 / (1 + 62.5 * q)) * q ^ 2 := by positivity
  generalize Real.log (2 * Real.exp 1 + 1.8 * q) = L at hL
  generalize (14.2 + 731 / (1 + 62.5 * q)) * q ^ 2 = X at hC
  constructor
  · positivity
  · rw [div_lt_one (by positivity)]; linarith

/-- C144: the legacy function and the library's method do the same to a spectrum, given the same no-wiggle transfer
function: everything proved above holds for the legacy dewiggling too. -/
theorem C144_legacy_same (c : LegacyCosmo) (g : LogGrid nk k ℓ) (hT : ∀ i < nk, 0 < c.tkNowiggle (k i))
    (plin : ℕ → ℕ → ℝ) :
    ∃ r r', legacyDewiggle c nk k plin = .ok r ∧
      (scipyWiggle nk k c.ns fun x => Real.log (c.tkNowiggle (Real.exp x))).dewigglePlin plin = .ok r' ∧
      ∀ z, ∀ i < nk, r z i = r' z i := by
  have h2 := g.two
  obtain ⟨ds, h⟩ := npDiff_cons (scipyWiggle nk k c.ns fun x => Real.log (c.tkNowiggle (Real.exp x))) h2
  have hgw : legacyGetPkWiggle c nk k plin = .ok fun z i => plin z i -
      gaussianFilter1d nk (0.25 / Real.log (k 1 / k 0)) (fun j => plin z j / (k j ^ c.ns * c.tkNowiggle (k j) ^ 2)) i
        * (k i ^ c.ns * c.tkNowiggle (k i) ^ 2) := by
    unfold legacyGetPkWiggle
    have h' : npDiff nk k = (k 1 - k 0) :: ds := h
    rw [h']
    have h0 : npAll (((k 1 - k 0) :: ds).map fun x => x - (k 1 - k 0)) = false := by simp [npAll]
    have h1 : npIsclose (boolNum false) 0 = true := by
      simp only [npIsclose, boolNum]; norm_num
    simp only [h0, h1]
    rfl
  have hl : legacyDewiggle c nk k plin = .ok fun z i =>
      plin z i - (1 - Real.exp (-((k i * legacySigmaV nk (plin z) k) ^ 2))) * (plin z i -
      gaussianFilter1d nk (0.25 / Real.log (k 1 / k 0)) (fun j => plin z j / (k j ^ c.ns * c.tkNowiggle (k j) ^ 2)) i
        * (k i ^ c.ns * c.tkNowiggle (k i) ^ 2)) := by
    unfold legacyDewiggle
    rw [if_neg (by omega), hgw]
  refine ⟨_, _, hl, dewiggle_ok _ h2 plin, ?_⟩
  · intro z i hi
    have hn : ∀ j < nk, k j ^ c.ns * c.tkNowiggle (k j) ^ 2
        = (scipyWiggle nk k c.ns fun x => Real.log (c.tkNowiggle (Real.exp x))).nowiggle j := by
      intro j hj
      show _ = k j ^ c.ns * Real.exp (Real.log (c.tkNowiggle (Real.exp (Real.log (k j))))) ^ 2
      rw [Real.exp_log (g.k_pos hj), Real.exp_log (hT j hj)]
    have hs : gaussianFilter1d nk (0.25 / Real.log (k 1 / k 0))
          (fun j => plin z j / (k j ^ c.ns * c.tkNowiggle (k j) ^ 2)) i * (k i ^ c.ns * c.tkNowiggle (k i) ^ 2)
        = (scipyWiggle nk k c.ns fun x => Real.log (c.tkNowiggle (Real.exp x))).smooth (plin z) i := by
      rw [hn i hi]
      simp only [smooth]
      congr 1
      show _ = gaussianFilter1d nk (0.25 / Real.log (k 1 / k 0)) (fun j => plin z j /
        (scipyWiggle nk k c.ns fun x => Real.log (c.tkNowiggle (Real.exp x))).nowiggle j) i
      exact filter_congr _ hi fun j hj _ => by simp only [hn j hj]
    rw [hs]
    rfl

/-- C144: a single wavenumber has no spacing: the legacy function ends in an `IndexError` -/
theorem C144_legacy_short (c : LegacyCosmo) {nk : ℕ} (h : nk < 2) (k : ℕ → ℝ) (plin : ℕ → ℕ → ℝ) :
    legacyDewiggle c nk k plin = .error .indexError := by
  unfold legacyDewiggle
  rw [if_pos h]

/-- C144: the legacy sound horizon is a length, and less matter makes it longer -/
theorem C144_sound_horizon (c : LegacyCosmo) (hb : 0 ≤ c.ombh2) (hm : 0 < c.ommh2) (h : c.ommh2 < 9.83) :
    0 < c.soundHorizon ∧ ∀ c' : LegacyCosmo, c'.ombh2 = c.ombh2 → 0 < c'.ommh2 → c'.ommh2 < c.ommh2 → c.soundHorizon < c'.soundHorizon := by
  have hs : 0 < √(1 + 10 * c.ombh2 ^ (0.75 : ℝ)) := Real.sqrt_pos.2 (by positivity)
  have hl : 0 < Real.log (9.83 / c.ommh2) := Real.log_pos (by rw [lt_div_iff₀ hm]; linarith)
  refine ⟨by unfold LegacyCosmo.soundHorizon; positivity, fun c' e h0 h1 => ?_⟩
  unfold LegacyCosmo.soundHorizon
  rw [e]
  have : Real.log (9.83 / c.ommh2) < Real.log (9.83 / c'.ommh2) :=
    Real.log_lt_log (by positivity) (by gcongr)
  gcongr

/-- C144: the filter is a bell: an entry counts the less the farther away it is -/
theorem C144_bell {sigma : ℝ} (hs : 0 < sigma) {d e : ℤ} (h : |d| < |e|) : gaussKernel sigma e < gaussKernel sigma d := by
  unfold gaussKernel
  refine div_lt_div_of_pos_right ?_ (gaussSum_pos sigma)
  unfold gaussPhi
  have hq : (d : ℝ) ^ 2 < (e : ℝ) ^ 2 := by exact_mod_cast sq_lt_sq.2 h
  refine Real.exp_lt_exp.2 ?_
  have : 0 < 0.5 / sigma ^ 2 := by positivity
  rw [neg_div]
  nlinarith

/-! ## The hypotheses can be met -/

/-- a quarter unit of `ln k` at ten wavenumbers per unit: the neighbour counts more than the one after it -/
example : gaussKernel (0.25 / 0.1) 2 < gaussKernel (0.25 / 0.1) (-1) := C144_bell (by norm_num) (by norm_num)

example : (0 : ℝ) < (⟨0.7, 0.0224, 0.14, 0.96, 2.7255⟩ : LegacyCosmo).soundHorizon :=
  (C144_sound_horizon _ (by norm_num) (by norm_num) (by norm_num)).1

/-- a realistic cosmology for the legacy transfer function -/
example : let c : LegacyCosmo := ⟨0.7, 0.0224, 0.14, 0.96, 2.7255⟩
    ∀ i : ℕ, 0 < c.tkNowiggle (0.01 * Real.exp (i * 0.1)) ∧ c.tkNowiggle (0.01 * Real.exp (i * 0.1)) < 1 := by
  intro c i
  refine C144_legacy_transfer c ?_ ?_ ?_ ?_ ?_ ?_ ?_ <;> first | positivity | (simp only [c]; norm_num)


/-- ten wavenumbers per unit of `ln k` -/
theorem demo_grid (nk : ℕ) (h : 2 ≤ nk) : LogGrid nk (fun i => 0.01 * Real.exp (i * 0.1)) 0.1 where
  two := h
  step := by norm_num
  pos := by positivity
  at' i _ := by simp

/-- a spectrum with a five per cent wiggle stays within five per cent of the smooth shape, and positive -/
example (ns : ℝ) (lnT : ℝ → ℝ) :
    let k : ℕ → ℝ := fun i => 0.01 * Real.exp (i * 0.1)
    ∃ r, (scipyWiggle 100 k ns lnT).dewigglePlin
        (fun _ i => (1 + 0.05 * (-1) ^ i) * shape ns lnT (k i)) = .ok r ∧
      ∀ z, ∀ i < 100, 0.95 * shape ns lnT (k i) ≤ r z i ∧ r z i ≤ 1.05 * shape ns lnT (k i) ∧ 0 < r z i := by
  intro k
  have g := demo_grid 100 (by norm_num)
  have b : ∀ i : ℕ, (0.95 : ℝ) ≤ 1 + 0.05 * (-1) ^ i ∧ 1 + 0.05 * (-1) ^ i ≤ (1.05 : ℝ) := fun i => by
    rcases neg_one_pow_eq_or ℝ i with h | h <;> rw [h] <;> norm_num
  have s : ∀ i < 100, 0 < shape ns lnT (k i) := fun i hi => shape_pos (g.k_pos hi)
  refine ⟨_, dewiggle_ok _ (by simp [scipyWiggle]) _, fun z i hi => ?_⟩
  have h := C144_envelope g (dewiggle_ok (scipyWiggle 100 k ns lnT) (by simp [scipyWiggle])
      (fun _ i => (1 + 0.05 * (-1) ^ i) * shape ns lnT (k i))) (z := z)
    (fun j hj => mul_nonneg (by linarith [(b j).1]) (s j hj).le) hi (lo := 0.95) (hi' := 1.05)
    (fun j hj _ => ⟨mul_le_mul_of_nonneg_right (b j).1 (s j hj).le, mul_le_mul_of_nonneg_right (b j).2 (s j hj).le⟩)
  exact ⟨h.1, h.2, lt_of_lt_of_le (mul_pos (by norm_num) (s i hi)) h.1⟩

/-- a grid of three wavenumbers, three units of `ln k` apart -/
example : LogGrid 3 (fun i => 0.01 * Real.exp (i * 3)) 3 ∧ (2 : ℝ) < 3 :=
  ⟨⟨by norm_num, by norm_num, by positivity, fun i _ => by simp⟩, by norm_num⟩

end Verif.Pk.Dewiggle

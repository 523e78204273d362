import Verif.Model.PkReaders
import Mathlib.Tactic.Linarith
import Mathlib.Tactic.NormNum
import Mathlib.Tactic.Ring
import Mathlib.Tactic.FieldSimp
import Mathlib.Tactic.Positivity

/-! Properties C30-C32: dewiggling and the shape checks of supplied spectra. -/

namespace Verif.Pk

open Verif.Lib

namespace Wiggle

variable (w : Wiggle)

theorem npDiff_cons (hn : 2 ≤ w.nk) : ∃ ds, npDiff w.nk w.k = (w.k 1 - w.k 0) :: ds := by
  unfold npDiff
  obtain ⟨n, hn'⟩ : ∃ n, w.nk - 1 = n + 1 := ⟨w.nk - 2, by omega⟩
  rw [hn', List.range_succ_eq_map]
  exact ⟨_, rfl⟩

/-- C31: whatever the wavenumbers (at least two of them), equally spaced, log spaced or in any order, the
spacing test passes: `get_Pk_wiggle` returns a result and its ValueError is unreachable. -/
theorem C31_guard_never_fires (hn : 2 ≤ w.nk) (plin : ℕ → ℕ → ℝ) :
    w.getPkWiggle plin = .ok fun z i => plin z i - w.smooth (plin z) i := by
  obtain ⟨ds, h⟩ := w.npDiff_cons hn
  unfold getPkWiggle
  rw [h]
  have h0 : npAll (((w.k 1 - w.k 0) :: ds).map fun x => x - (w.k 1 - w.k 0)) = false := by
    simp [npAll]
  have h1 : npIsclose (boolNum false) 0 = true := by
    simp only [npIsclose, boolNum]; norm_num
  simp only [h0, h1]
  rfl

/-- C31: in particular no call of `get_Pk_wiggle` or `dewiggle_plin` ever raises ValueError. -/
theorem C31_value_error_unreachable (plin : ℕ → ℕ → ℝ) :
    w.getPkWiggle plin ≠ .error .valueError ∧ w.dewigglePlin plin ≠ .error .valueError := by
  have h : w.getPkWiggle plin ≠ .error .valueError := by
    by_cases hn : 2 ≤ w.nk
    · rw [w.C31_guard_never_fires hn]; simp
    · have : npDiff w.nk w.k = [] := by simp [npDiff, show w.nk - 1 = 0 by omega]
      simp [getPkWiggle, this]
  refine ⟨h, ?_⟩
  unfold dewigglePlin
  split_ifs
  · simp
  · cases hp : w.getPkWiggle plin with
    | error e => rw [hp] at h; simpa using h
    | ok v => simp

/-- an irregular grid: spacings 1 and 5, ratios 2 and 3.5 — accepted -/
example : ∃ w : Wiggle, w.nk = 3 ∧ w.k 1 - w.k 0 ≠ w.k 2 - w.k 1 ∧ w.k 1 / w.k 0 ≠ w.k 2 / w.k 1 ∧
    ∀ plin, ∃ r, w.getPkWiggle plin = .ok r := by
  refine ⟨⟨3, fun i => if i = 0 then 1 else if i = 1 then 2 else 7, 1, fun _ => 0, fun _ f => f⟩, rfl, ?_, ?_, ?_⟩
  · norm_num
  · norm_num
  · intro plin; exact ⟨_, C31_guard_never_fires _ (by norm_num) plin⟩

/-- what the smoothed spectrum is: the filtered ratio to the no-wiggle shape, times that shape -/
noncomputable def smoothedSpectrum (plin : ℕ → ℝ) (i : ℕ) : ℝ :=
  w.gauss (0.25 / Real.log (w.k 1 / w.k 0)) (fun j => plin j / w.nowiggle j) i * w.nowiggle i

/-- the argument of the square root in the dispersion -/
noncomputable def dispersionSq (plin : ℕ → ℝ) : ℝ :=
  0.5 / Real.pi ^ 2 * simpsonDx w.nk (Real.log (w.k 1 / w.k 0)) (fun i => plin i * w.k i) / 3

theorem dewiggle_ok (hn : 2 ≤ w.nk) (plin : ℕ → ℕ → ℝ) :
    w.dewigglePlin plin = .ok fun z i =>
      plin z i - (1 - Real.exp (-((w.k i * w.sigmaV (plin z)) ^ 2))) * (plin z i - w.smooth (plin z) i) := by
  unfold dewigglePlin
  rw [if_neg (by omega), w.C31_guard_never_fires hn]

/-- C30: the dewiggled spectrum is the convex combination of the linear and the smoothed spectrum with weight
`exp(-k² σ²)` on the linear one, so it lies between them. -/
theorem C30_convex_combination (hn : 2 ≤ w.nk) (plin : ℕ → ℕ → ℝ) (r : ℕ → ℕ → ℝ)
    (hr : w.dewigglePlin plin = .ok r) (z i : ℕ) (hσ : 0 ≤ w.dispersionSq (plin z)) :
    let weight := Real.exp (-(w.k i ^ 2 * w.dispersionSq (plin z)))
    r z i = weight * plin z i + (1 - weight) * w.smoothedSpectrum (plin z) i ∧
      0 < weight ∧ weight ≤ 1 ∧
      min (plin z i) (w.smoothedSpectrum (plin z) i) ≤ r z i ∧
      r z i ≤ max (plin z i) (w.smoothedSpectrum (plin z) i) := by
  intro weight
  rw [w.dewiggle_ok hn] at hr
  injection hr with hr
  have hs : (w.k i * w.sigmaV (plin z)) ^ 2 = w.k i ^ 2 * w.dispersionSq (plin z) := by
    have : w.sigmaV (plin z) = Real.sqrt (w.dispersionSq (plin z)) := rfl
    rw [mul_pow, this, Real.sq_sqrt hσ]
  have e : r z i = weight * plin z i + (1 - weight) * w.smoothedSpectrum (plin z) i := by
    rw [← hr]
    simp only [hs]
    have : w.smooth (plin z) i = w.smoothedSpectrum (plin z) i := rfl
    rw [this]
    ring
  have h0 : 0 < weight := Real.exp_pos _
  have h1 : weight ≤ 1 := by
    refine Real.exp_le_one_iff.2 ?_
    have : 0 ≤ w.k i ^ 2 * w.dispersionSq (plin z) := by positivity
    linarith
  refine ⟨e, h0, h1, ?_, ?_⟩
  · rw [e]
    have a := min_le_left (plin z i) (w.smoothedSpectrum (plin z) i)
    have b := min_le_right (plin z i) (w.smoothedSpectrum (plin z) i)
    nlinarith [mul_le_mul_of_nonneg_left a h0.le, mul_le_mul_of_nonneg_left b (sub_nonneg.2 h1)]
  · rw [e]
    have a := le_max_left (plin z i) (w.smoothedSpectrum (plin z) i)
    have b := le_max_right (plin z i) (w.smoothedSpectrum (plin z) i)
    nlinarith [mul_le_mul_of_nonneg_left a h0.le, mul_le_mul_of_nonneg_left b (sub_nonneg.2 h1)]

/-- C30: where `k σ = 0`, and wherever smoothing changes nothing, the linear power is returned. -/
theorem C30_unchanged (hn : 2 ≤ w.nk) (plin : ℕ → ℕ → ℝ) (r : ℕ → ℕ → ℝ)
    (hr : w.dewigglePlin plin = .ok r) (z i : ℕ) (hσ : 0 ≤ w.dispersionSq (plin z)) :
    (w.k i = 0 ∨ w.dispersionSq (plin z) = 0 ∨ w.smoothedSpectrum (plin z) i = plin z i → r z i = plin z i) ∧
    (w.k i ≠ 0 → 0 < w.dispersionSq (plin z) → w.smoothedSpectrum (plin z) i ≠ plin z i → r z i ≠ plin z i) := by
  have h := w.C30_convex_combination hn plin r hr z i hσ
  simp only at h
  obtain ⟨e, h0, h1, -, -⟩ := h
  constructor
  · rintro (hk | hk | hk)
    · rw [e]; simp [hk]
    · rw [e]; simp [hk]
    · rw [e, hk]; ring
  · intro hk hd hs heq
    have hw : Real.exp (-(w.k i ^ 2 * w.dispersionSq (plin z))) < 1 := by
      rw [← Real.exp_zero, Real.exp_lt_exp]
      have : 0 < w.k i ^ 2 * w.dispersionSq (plin z) := by positivity
      linarith
    rw [e] at heq
    have : (1 - Real.exp (-(w.k i ^ 2 * w.dispersionSq (plin z)))) * (w.smoothedSpectrum (plin z) i - plin z i) = 0 := by
      linarith
    rcases mul_eq_zero.1 this with h | h
    · linarith
    · exact hs (by linarith)

/-- C30: a spectrum without wiggles (proportional to the no-wiggle shape) is left alone if the filter keeps
constants, as a normalised Gaussian filter does. -/
theorem C30_no_wiggles (hn : 2 ≤ w.nk) (hk : ∀ i, 0 < w.k i) (hg : ∀ σ c i, w.gauss σ (fun _ => c) i = c)
    (amp : ℕ → ℝ) (r : ℕ → ℕ → ℝ)
    (hr : w.dewigglePlin (fun z i => amp z * w.nowiggle i) = .ok r) (z i : ℕ)
    (hσ : 0 ≤ w.dispersionSq fun i => amp z * w.nowiggle i) :
    r z i = amp z * w.nowiggle i := by
  refine (w.C30_unchanged hn _ r hr z i hσ).1 (Or.inr (Or.inr ?_))
  have hne : ∀ j, w.nowiggle j ≠ 0 := fun j => by
    have := Real.rpow_pos_of_pos (hk j) w.ns
    unfold nowiggle; positivity
  unfold smoothedSpectrum
  have : (fun j => amp z * w.nowiggle j / w.nowiggle j) = fun _ => amp z := by
    funext j; field_simp [hne j]
  simp only [this, hg]

/-- C30: if the filter keeps non-negative ratios non-negative, the dewiggled power of a non-negative spectrum
is non-negative. -/
theorem C30_nonneg (hn : 2 ≤ w.nk) (hk : ∀ i, 0 < w.k i)
    (hg : ∀ σ f, (∀ i, 0 ≤ f i) → ∀ i, 0 ≤ w.gauss σ f i) (plin : ℕ → ℕ → ℝ) (hp : ∀ z i, 0 ≤ plin z i)
    (r : ℕ → ℕ → ℝ) (hr : w.dewigglePlin plin = .ok r) (z i : ℕ) (hσ : 0 ≤ w.dispersionSq (plin z)) :
    0 ≤ r z i := by
  have h := w.C30_convex_combination hn plin r hr z i hσ
  simp only at h
  refine le_trans (le_min (hp z i) ?_) h.2.2.2.1
  have hne : ∀ j, 0 < w.nowiggle j := fun j => by
    have := Real.rpow_pos_of_pos (hk j) w.ns
    unfold nowiggle; positivity
  exact mul_nonneg (hg _ _ (fun j => div_nonneg (hp z j) (hne j).le) i) (hne i).le

/-- a three-point example: filter replacing every entry by the first, power 1, 2, 3 -/
noncomputable def demo : Wiggle := ⟨3, fun i => 2 ^ i, 0, fun _ => 0, fun _ f _ => f 0⟩

example : ∃ r, demo.dewigglePlin (fun _ i => (i : ℝ) + 1) = .ok r ∧
    0 < demo.dispersionSq (fun i => (i : ℝ) + 1) ∧
    demo.smoothedSpectrum (fun i => (i : ℝ) + 1) 1 ≠ ((1 : ℕ) : ℝ) + 1 := by
  refine ⟨_, demo.dewiggle_ok (by norm_num [demo]) _, ?_, ?_⟩
  · have hl : 0 < Real.log 2 := Real.log_pos (by norm_num)
    have hp := Real.pi_pos
    simp only [dispersionSq, demo, simpsonDx, simpson, basicSimpson, simpsonPanel]
    norm_num
    have e : 2 * Real.log 2 - Real.log 2 = Real.log 2 := by ring
    rw [e, div_self hl.ne']
    norm_num
    have : Real.log 2 ≠ 0 := hl.ne'
    have hx : 0 < Real.log 2 * (1 / Real.pi ^ 2) := by positivity
    norm_num at hx ⊢
    try field_simp
    try norm_num
    try positivity
  · simp [smoothedSpectrum, demo, nowiggle]

end Wiggle

/-! ## C32 -/

theorem bcast_eq {m n k : ℕ} (h : bcast m n = some k) (hn : 2 ≤ n) : k = n ↔ m = n ∨ m = 1 := by
  unfold bcast at h
  split_ifs at h with h1 h2 h3 <;> injection h with h <;> omega

/-- C32: without dewiggling, reading the linear spectrum succeeds exactly if the supplied array has shape
`(n_z, n_k)`; it is then returned unchanged, and otherwise a ValueError is raised. -/
theorem C32_lin_shape (mode : NLMode) (hm : mode ≠ .hmcode) (w : Wiggle) (nz : ℕ) (internal : ℕ → ℕ → ℝ)
    (a : NdArray) :
    readPkLin mode false w nz internal (some a)
      = if a.shape = [nz, w.nk] then .ok a else .error .valueError := by
  have : ¬ (decide (mode = .hmcode) || false) = true := by simp [hm]
  simp only [readPkLin, this, bind, Except.bind]
  by_cases h : a.shape = [nz, w.nk] <;> simp [h]

/-- C32: with dewiggling (asked for, or implied by `hmcode`), the read also succeeds for a single-column array
of shape `(n_z, 1)`, which is silently stretched over all wavenumbers: the check sees the stretched result.
No other shape gets through. -/
theorem C32_lin_shape_dewiggled (mode : NLMode) (dw : Bool) (hd : mode = .hmcode ∨ dw = true) (w : Wiggle)
    (hn : 2 ≤ w.nk) (nz : ℕ) (internal : ℕ → ℕ → ℝ) (a : NdArray) :
    (∃ r, readPkLin mode dw w nz internal (some a) = .ok r) ↔
      a.shape = [nz, w.nk] ∨ a.shape = [nz, 1] := by
  have hc : (decide (mode = .hmcode) || dw) = true := by simpa using hd
  simp only [readPkLin, hc, if_true, bind, Except.bind]
  obtain ⟨sh, dat⟩ := a
  match sh with
  | [] => simp [dewiggleArray]
  | [x] => simp [dewiggleArray]
  | x :: y :: t :: ts => simp [dewiggleArray]
  | [n, m] =>
    simp only [dewiggleArray, List.cons.injEq, and_true]
    cases hb : bcast m w.nk with
    | none =>
      have h1 : m ≠ w.nk := by rintro rfl; simp [bcast] at hb
      have h2 : m ≠ 1 := by
        rintro rfl
        simp only [bcast] at hb
        split_ifs at hb
      simp [h1, h2]
    | some m' =>
      have hb' := bcast_eq hb hn
      simp only [w.dewiggle_ok hn]
      by_cases h : n = nz ∧ m' = w.nk
      · have := hb'.1 h.2
        simp [h.1, h.2, this]
      · have : ¬ (n = nz ∧ m = w.nk ∨ n = nz ∧ m = 1) := by
          rintro (⟨a, b⟩ | ⟨a, b⟩)
          · exact h ⟨a, hb'.2 (Or.inl b)⟩
          · exact h ⟨a, hb'.2 (Or.inr b)⟩
        simp [h, this]

/-- C32: the result always has shape `(n_z, n_k)`, and with no spectrum supplied hmf's is used. -/
theorem C32_lin_result_shape (mode : NLMode) (dw : Bool) (w : Wiggle) (nz : ℕ) (internal : ℕ → ℕ → ℝ)
    (supplied : Option NdArray) (r : NdArray) (h : readPkLin mode dw w nz internal supplied = .ok r) :
    r.shape = [nz, w.nk] ∧ (supplied = none → mode ≠ .hmcode → dw = false → r.data = internal) := by
  constructor
  · unfold readPkLin at h
    simp only [bind, Except.bind] at h
    have key : ∀ v : NdArray, (if v.shape ≠ [nz, w.nk] then Except.error PyErr.valueError else Except.ok v)
        = Except.ok r → r.shape = [nz, w.nk] := by
      intro v h
      split_ifs at h with h'
      injection h with h
      rw [← h]
      simpa using h'
    by_cases hc : (decide (mode = .hmcode) || dw) = true
    · simp only [hc, if_true] at h
      generalize dewiggleArray w _ = v at h
      cases v with
      | error e => cases h
      | ok v => exact key v h
    · simp only [hc] at h
      exact key _ h
  · rintro rfl hm rfl
    simp [readPkLin, bind, Except.bind, hm] at h
    rw [← h]

/-- C32: the non-linear spectrum is checked exactly when `response` or `fortuna` needs it; otherwise whatever
was supplied (or `None`) comes back. -/
theorem C32_nl_shape (mode : NLMode) (resp : Bool) (nz nk : ℕ) (internal : ℕ → ℕ → ℝ) (a : NdArray) :
    readPkNl mode resp nz nk internal (some a)
      = (if (mode = .fortuna ∨ resp = true) ∧ a.shape ≠ [nz, nk] then .error .valueError else .ok (some a)) ∧
    readPkNl mode resp nz nk internal none
      = (if mode = .fortuna ∨ resp = true then .ok (some ⟨[nz, nk], internal⟩) else .ok none) := by
  unfold readPkNl
  by_cases h : mode = .fortuna ∨ resp = true
  · have hc : (decide (mode = .fortuna) || resp) = true := by simpa using h
    by_cases hs : a.shape = [nz, nk] <;> simp [hc, h, hs]
  · have hc : ¬ (decide (mode = .fortuna) || resp) = true := by simpa using h
    simp only [hc, if_false, h, false_and]
    simp

/-- a column is refused without dewiggling and accepted with it -/
example (internal : ℕ → ℕ → ℝ) :
    readPkLin .none false Wiggle.demo 5 internal (some ⟨[5, 1], fun _ _ => 1⟩) = .error .valueError ∧
    ∃ r, readPkLin .none true Wiggle.demo 5 internal (some ⟨[5, 1], fun _ _ => 1⟩) = .ok r := by
  refine ⟨?_, ?_⟩
  · rw [C32_lin_shape _ (by decide)]; simp [Wiggle.demo]
  · exact (C32_lin_shape_dewiggled _ _ (Or.inr rfl) _ (by norm_num [Wiggle.demo]) _ _ _).2 (Or.inr rfl)

end Verif.Pk

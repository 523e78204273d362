import Verif.Props.PkIdentities
import Verif.Props.PkDamping

/-! Property C162: the galaxy bias that comes with the spectra, and the bias a user reads off the spectra. -/

namespace Verif.Pk.ReportedBias

open Verif.Lib Verif.Pk Verif.Pk.Spectra

variable {s : Spectra} {b z k : ℕ}

/-- the bias reported with a spectrum -/
def Reports (r : PkResult) (β : ℕ → ℕ → ℕ → ℝ) : Prop := r.galaxyLinearBias = some β

theorem kept {q r : PkResult} (h : s.applyResponse q = .ok r) : r.galaxyLinearBias = q.galaxyLinearBias := by
  unfold applyResponse at h
  split_ifs at h
  · cases e : s.powerSpectrumMmRaw with
    | error x => rw [e] at h; cases h
    | ok mm => rw [e] at h; rw [← Except.ok.inj h]
  · rw [← Except.ok.inj h]

/-- C162: the reported biases do not know the mode or `response`: whatever these are, they are the values of the plain halo model.  The other four
spectra report none. -/
theorem C162_mode_blind (m : NLMode) (x : Bool) {gg gm gg' gm' : PkResult} (h1 : s.powerSpectrumGg = .ok gg) (h2 : s.powerSpectrumGm = .ok gm)
    (h1' : ({ s with nonlinearMode := m, response := x } : Spectra).powerSpectrumGg = .ok gg')
    (h2' : ({ s with nonlinearMode := m, response := x } : Spectra).powerSpectrumGm = .ok gm') :
    gg'.galaxyLinearBias = gg.galaxyLinearBias ∧ gm'.galaxyLinearBias = gm.galaxyLinearBias ∧ gg.galaxyLinearBias ≠ none ∧ gm.galaxyLinearBias ≠ none ∧
    ∀ r, s.powerSpectrumMm = .ok r ∨ s.powerSpectrumMi = .ok r ∨ s.powerSpectrumIi = .ok r ∨ s.powerSpectrumGi = .ok r → r.galaxyLinearBias = none := by
  refine ⟨?_, ?_, ?_, ?_, ?_⟩
  · rw [kept h1, kept h1']; rfl
  · rw [kept h2, kept h2']; rfl
  · rw [kept h1]; exact Option.some_ne_none _
  · rw [kept h2]; exact Option.some_ne_none _
  · rintro r (h | h | h | h)
    · unfold powerSpectrumMm at h
      split at h
      · rw [← Except.ok.inj h]
      · unfold powerSpectrumMmRaw at h
        split at h
        · rw [← Except.ok.inj h]
        · split at h
          · rw [← Except.ok.inj h]
          · cases h
        · rw [← Except.ok.inj h]
    · rw [kept h]; unfold powerSpectrumMiRaw; cases s.nonlinearMode <;> rfl
    · rw [kept h]; unfold powerSpectrumIiRaw; cases s.nonlinearMode <;> rfl
    · rw [kept h]; unfold powerSpectrumGiRaw; cases s.nonlinearMode <;> rfl

/-- C162: in the plain and the Fortuna mode, with galaxies that are not anti-biased to the point of a negative bias: the ratio of the two-halo powers of
lensing and matter is that of clustering and lensing.  The bias reported with clustering is this ratio times the matter integral; the one reported
with lensing squared is this ratio times the square of the matter integral. -/
theorem C162_ratios (hmode : s.nonlinearMode = .none ∨ s.nonlinearMode = .fortuna) (hresp : s.response = false) :
    ∃ gg gm mm β β', s.powerSpectrumGg = .ok gg ∧ s.powerSpectrumGm = .ok gm ∧ s.powerSpectrumMm = .ok mm ∧ Reports gg β ∧ Reports gm β' ∧ ∀ b z k,
      0 < mm.pk2h b z k → 0 ≤ gm.pk2h b z k → 0 < s.imTerm z k → 0 < s.pkLin z k →
        β b z k = gm.pk2h b z k / mm.pk2h b z k * s.imTerm z k ∧
        β' b z k ^ 2 = gm.pk2h b z k / mm.pk2h b z k * s.imTerm z k ^ 2 ∧
        (0 < gm.pk2h b z k → gg.pk2h b z k / gm.pk2h b z k = gm.pk2h b z k / mm.pk2h b z k) := by
  have hb : s.nonlinearMode ≠ .bnl := by rcases hmode with h | h <;> rw [h] <;> decide
  have hmm : s.powerSpectrumMm = .ok ⟨fun _ z k => s.compute1hTerm (s.matterProfile1hMm z k) (s.matterProfile1hMm z k) z * s.oneHaloTruncation k,
      fun _ z k => s.pkLin z k * s.imTerm z k * s.imTerm z k * s.twoHaloTruncation k,
      fun _ z k => s.compute1hTerm (s.matterProfile1hMm z k) (s.matterProfile1hMm z k) z * s.oneHaloTruncation k
        + s.pkLin z k * s.imTerm z k * s.imTerm z k * s.twoHaloTruncation k, none⟩ := by
    rcases hmode with h | h <;> simp only [powerSpectrumMm, powerSpectrumMmRaw, hresp, h] <;> rfl
  refine ⟨_, _, _, _, _, (C03_no_error s hresp).1, (C03_no_error s hresp).2.1, hmm, rfl, rfl, fun b z k p g i l => ?_⟩
  simp only [powerSpectrumGgRaw, powerSpectrumGmRaw, hb, if_false] at p g ⊢
  have hT : 0 < s.twoHaloTruncation k := by
    by_contra hn
    have : s.pkLin z k * s.imTerm z k * s.imTerm z k * s.twoHaloTruncation k ≤ 0 := mul_nonpos_of_nonneg_of_nonpos (by positivity) (not_lt.1 hn)
    linarith
  have eg : s.pkLin z k * s.icTerm b z k * s.imTerm z k * s.twoHaloTruncation k + s.pkLin z k * s.isTerm b z k * s.imTerm z k * s.twoHaloTruncation k =
      s.pkLin z k * (s.icTerm b z k + s.isTerm b z k) * s.imTerm z k * s.twoHaloTruncation k := by ring
  have egg : s.pkLin z k * s.icTerm b z k * s.icTerm b z k * s.twoHaloTruncation k + s.pkLin z k * s.isTerm b z k * s.isTerm b z k * s.twoHaloTruncation k
      + 2 * (s.pkLin z k * s.icTerm b z k * s.isTerm b z k * s.twoHaloTruncation k) =
      s.pkLin z k * (s.icTerm b z k + s.isTerm b z k) ^ 2 * s.twoHaloTruncation k := by ring
  have e1 : s.icTerm b z k * s.icTerm b z k + s.isTerm b z k * s.isTerm b z k + 2 * s.icTerm b z k * s.isTerm b z k =
      (s.icTerm b z k + s.isTerm b z k) ^ 2 := by ring
  have e2 : s.icTerm b z k * s.imTerm z k + s.isTerm b z k * s.imTerm z k = (s.icTerm b z k + s.isTerm b z k) * s.imTerm z k := by ring
  rw [eg] at g ⊢
  rw [egg, e1, e2]
  have hB : 0 ≤ s.icTerm b z k + s.isTerm b z k := by
    by_contra hn
    have : s.pkLin z k * (s.icTerm b z k + s.isTerm b z k) * s.imTerm z k * s.twoHaloTruncation k < 0 :=
      mul_neg_of_neg_of_pos (mul_neg_of_neg_of_pos (mul_neg_of_pos_of_neg l (not_le.1 hn)) i) hT
    linarith
  generalize s.icTerm b z k + s.isTerm b z k = B at *
  refine ⟨?_, ?_, fun gp => ?_⟩
  · rw [Real.sqrt_sq hB]; field_simp
  · rw [Real.sq_sqrt (by positivity)]; field_simp
  · have hB' : 0 < B := by
      rcases hB.lt_or_eq with h | h
      · exact h
      · rw [← h] at gp; simp at gp
    field_simp

/-- C162: at the first wavenumber the bias reported with clustering is the ratio of lensing and matter power, as it should be, while the bias reported
with lensing is its square root.  The two agree only for an unbiased sample (or one without any bias); for a sample with a bias above one the value
reported with lensing is too low, below one too high, and never on the other side of one. -/
theorem C162_square_root (hmode : s.nonlinearMode = .none ∨ s.nonlinearMode = .fortuna) (hresp : s.response = false)
    (raw : ℕ → ℕ → ℕ → ℝ) (hu : s.uDm = Hmi.uDm raw) :
    ∃ gg gm mm β β', s.powerSpectrumGg = .ok gg ∧ s.powerSpectrumGm = .ok gm ∧ s.powerSpectrumMm = .ok mm ∧ Reports gg β ∧ Reports gm β' ∧ ∀ b z,
      s.meanDensity0 z ≠ 0 → (∀ m < s.nm, raw z 0 m ≠ 0) → 0 < s.pkLin z 0 → 0 < mm.pk2h b z 0 → 0 ≤ gm.pk2h b z 0 →
        β b z 0 = gm.pk2h b z 0 / mm.pk2h b z 0 ∧ β' b z 0 = Real.sqrt (β b z 0) ∧
        (β' b z 0 = β b z 0 ↔ β b z 0 = 0 ∨ β b z 0 = 1) ∧ (1 < β b z 0 → 1 < β' b z 0 ∧ β' b z 0 < β b z 0) ∧
        (0 < β b z 0 → β b z 0 < 1 → β b z 0 < β' b z 0 ∧ β' b z 0 < 1) := by
  obtain ⟨gg, gm, mm, β, β', h1, h2, h3, r1, r2, h⟩ := C162_ratios hmode hresp
  refine ⟨gg, gm, mm, β, β', h1, h2, h3, r1, r2, fun b z hρ hraw hp hmm hgm => ?_⟩
  have i := C01_Im_first_wavenumber s raw hu z hρ hraw
  obtain ⟨a, a', -⟩ := h b z 0 hmm hgm (by rw [i]; exact one_pos) hp
  rw [i, mul_one] at a
  rw [i, one_pow, mul_one, ← a] at a'
  have n : 0 ≤ β' b z 0 := by
    have r2 : gm.galaxyLinearBias = some β' := r2
    rw [kept h2] at r2
    have : (fun b z k => Real.sqrt (s.icTerm b z k * s.imTerm z k + s.isTerm b z k * s.imTerm z k)) = β' := Option.some.inj r2
    rw [← this]
    exact Real.sqrt_nonneg _
  have e : β' b z 0 = Real.sqrt (β b z 0) := by rw [← a', Real.sqrt_sq n]
  have q : ∀ x y : ℝ, 0 ≤ x → x ^ 2 = y → ((x = y ↔ y = 0 ∨ y = 1) ∧ (1 < y → 1 < x ∧ x < y) ∧ (0 < y → y < 1 → y < x ∧ x < 1)) := fun x y hx hy => by
    subst hy
    refine ⟨⟨fun hxx => ?_, fun hxx => ?_⟩, fun h1 => ?_, fun h0 h1 => ?_⟩
    · have : x * (x - 1) = 0 := by nlinarith
      rcases mul_eq_zero.1 this with c | c
      · left; rw [c]; ring
      · right; rw [show x = 1 by linarith]; ring
    · rcases hxx with c | c
      · rw [pow_eq_zero_iff two_ne_zero] at c; rw [c]; ring
      · have : x = 1 := by nlinarith
        rw [this]; ring
    · have : 1 < x := by nlinarith
      exact ⟨this, by nlinarith⟩
    · have hx0 : 0 < x := by
        rcases hx.lt_or_eq with c | c
        · exact c
        · rw [← c] at h0; simp at h0
      have : x < 1 := by nlinarith
      exact ⟨by nlinarith, this⟩
  obtain ⟨q1, q2, q3⟩ := q _ _ n a'
  exact ⟨a, e, q1, q2, q3⟩

/-- C162: with `response` the reported bias no longer belongs to the returned spectrum: the two-halo power of galaxies is the bias squared times the
damped linear power times the response, which the bias leaves out. -/
theorem C162_response (hmode : s.nonlinearMode ≠ .bnl) (hresp : s.response = true) {gg gm mm : PkResult} (h : s.powerSpectrumGg = .ok gg)
    (h' : s.powerSpectrumGm = .ok gm) (hm : ({ s with response := false } : Spectra).powerSpectrumMm = .ok mm) :
    ∃ β β', Reports gg β ∧ Reports gm β' ∧ ∀ b z k,
      gg.pk2h b z k = β b z k ^ 2 * (s.pkLin z k * s.twoHaloTruncation k) * (s.pkNl z k / mm.pkTot 0 z k) ∧
      (0 ≤ (s.icTerm b z k + s.isTerm b z k) * s.imTerm z k →
        gm.pk2h b z k = β' b z k ^ 2 * (s.pkLin z k * s.twoHaloTruncation k) * (s.pkNl z k / mm.pkTot 0 z k)) := by
  have r1 := kept h
  have r2 := kept h'
  refine ⟨_, _, r1.trans rfl, r2.trans rfl, fun b z k => ?_⟩
  have hm' : s.powerSpectrumMmRaw = .ok mm := hm
  unfold powerSpectrumGg applyResponse at h
  unfold powerSpectrumGm applyResponse at h'
  rw [hresp, hm'] at h h'
  rw [← Except.ok.inj h, ← Except.ok.inj h']
  simp only [powerSpectrumGgRaw, powerSpectrumGmRaw, hmode, if_false]
  have e1 : s.icTerm b z k * s.icTerm b z k + s.isTerm b z k * s.isTerm b z k + 2 * s.icTerm b z k * s.isTerm b z k =
      (s.icTerm b z k + s.isTerm b z k) ^ 2 := by ring
  have e2 : s.icTerm b z k * s.imTerm z k + s.isTerm b z k * s.imTerm z k = (s.icTerm b z k + s.isTerm b z k) * s.imTerm z k := by ring
  rw [e1, e2, Real.sq_sqrt (sq_nonneg _)]
  refine ⟨by ring, fun hn => ?_⟩
  rw [Real.sq_sqrt hn]
  ring

/-! ## Non-vacuity -/

/-- a sample with a bias above one: the value reported with lensing is strictly below the one reported with clustering -/
example : ∃ gg gm β β', demo.powerSpectrumGg = .ok gg ∧ demo.powerSpectrumGm = .ok gm ∧ Reports gg β ∧ Reports gm β' ∧
    1 < β' 0 0 0 ∧ β' 0 0 0 < β 0 0 0 := by
  obtain ⟨gg, gm, mm, β, β', h1, h2, h3, r1, r2, h⟩ := C162_square_root (s := demo) (Or.inl rfl) rfl demoRaw rfl
  have ic : demo.icTerm 0 0 0 = 1 := by
    unfold icTerm computeIgTerm; rw [demo_simpson]
    simp [demo, centralGalaxyProfile]; norm_num
  have is : 0 < demo.isTerm 0 0 0 := by
    unfold isTerm computeIgTerm; rw [demo_simpson]
    simp [demo, satelliteGalaxyProfile, Hmi.uSat, demoRaw]; norm_num
  have T : 0 < demo.twoHaloTruncation 0 := by
    have := (C18_range demo 0 (by simp [demo])).1
    linarith
  have im := demo_imTerm 0
  have p : demo.pkLin 0 0 = 1 := rfl
  have mmp : 0 < mm.pk2h 0 0 0 := by
    have e : demo.powerSpectrumMm = demo.powerSpectrumMmRaw := rfl
    rw [e] at h3
    have := Except.ok.inj h3
    rw [← this]
    change 0 < demo.pkLin 0 0 * demo.imTerm 0 0 * demo.imTerm 0 0 * demo.twoHaloTruncation 0
    rw [p, im]; linarith
  have gmp : 0 ≤ gm.pk2h 0 0 0 := by
    rw [(C03_no_error demo rfl).2.1] at h2
    rw [← Except.ok.inj h2]
    change 0 ≤ demo.pkLin 0 0 * demo.icTerm 0 0 0 * demo.imTerm 0 0 * demo.twoHaloTruncation 0
      + demo.pkLin 0 0 * demo.isTerm 0 0 0 * demo.imTerm 0 0 * demo.twoHaloTruncation 0
    rw [p, im, ic]; positivity
  obtain ⟨-, -, -, q, -⟩ := h 0 0 (by simp [demo]) (fun m _ => by simp only [demoRaw]; positivity) (by rw [p]; exact one_pos) mmp gmp
  refine ⟨gg, gm, β, β', h1, h2, r1, r2, q ?_⟩
  obtain ⟨r, bias, g1, g2, g3⟩ := C05_gg_2h_is_bias_squared demo (by decide) rfl
  rw [h1] at g1
  have eb : β = bias := Option.some.inj (r1.symm.trans ((congrArg PkResult.galaxyLinearBias (Except.ok.inj g1)).trans g2))
  rw [eb, (g3 0 0 0).2, ic, abs_of_pos (by positivity)]
  linarith

/-- spectra with `response` exist, and their matter power too -/
example : ∃ gg gm mm, ({ demo with response := true } : Spectra).powerSpectrumGg = .ok gg ∧ ({ demo with response := true } : Spectra).powerSpectrumGm = .ok gm ∧
    ({ ({ demo with response := true } : Spectra) with response := false } : Spectra).powerSpectrumMm = .ok mm :=
  ⟨_, _, _, rfl, rfl, rfl⟩

end Verif.Pk.ReportedBias

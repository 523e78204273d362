import Verif.Props.PkDamping
import Verif.Props.PkIdentities

/-! Property C165: what a change of the truncation wavenumbers changes. -/

namespace Verif.Pk.Truncation

open Verif.Lib Verif.Spec Verif.Pk Spectra

/-- the same object with other options `one_halo_ktrunc` and `two_halo_ktrunc` -/
def matterCut (s : Spectra) (one two : Option ℝ) : Spectra := { s with oneHaloKtrunc := one, twoHaloKtrunc := two }

/-- the same object with other options `one_halo_ktrunc_ia` and `two_halo_ktrunc_ia` -/
def shapeCut (s : Spectra) (one two : Option ℝ) : Spectra := { s with oneHaloKtruncIa := one, twoHaloKtruncIa := two }

/-- the scale of an option, none counted as zero -/
def scale : Option ℝ → ℝ := fun o => o.getD 0

/-- an option that is absent or a positive number -/
def Proper (o : Option ℝ) : Prop := ∀ a, o = some a → 0 < a

/-- the share of one-halo alignment power kept at the wavenumber `q` -/
noncomputable def keptOne (o : Option ℝ) (q : ℝ) : ℝ := match o with | none => 1 | some a => 1 - Real.exp (-(q / a) ^ 2)

/-- the share of two-halo alignment power kept at the wavenumber `q` -/
noncomputable def keptTwo (o : Option ℝ) (q : ℝ) : ℝ := match o with | none => 1 | some a => Real.exp (-(q / a) ^ 2)

variable {s : Spectra}

theorem one_eq {o : Option ℝ} (ho : Proper o) (t : Option ℝ) {k : ℕ} (hk : 0 < s.kVec k) :
    (matterCut s o t).oneHaloTruncation k * (s.kVec k ^ 4 + scale o ^ 4) = s.kVec k ^ 4 := by
  unfold oneHaloTruncation matterCut scale
  cases o with
  | none => simp
  | some a =>
    have := ho a rfl
    simp only [Option.getD_some]
    field_simp
    ring

theorem one_pos {o : Option ℝ} (ho : Proper o) (t : Option ℝ) {k : ℕ} (hk : 0 < s.kVec k) : 0 < (matterCut s o t).oneHaloTruncation k := by
  unfold oneHaloTruncation matterCut
  cases o with
  | none => simp
  | some a =>
    have := ho a rfl
    dsimp only
    positivity

/-- the matter power outside mode `hmcode`, apart from the truncation -/
theorem mm_form (hresp : s.response = false) (hmode : s.nonlinearMode ≠ .hmcode) : ∃ A B : ℕ → ℕ → ℝ, ∀ o t, ∃ r,
    (matterCut s o t).powerSpectrumMm = .ok r ∧ ∀ b z k, r.pk1h b z k = A z k * (matterCut s o t).oneHaloTruncation k ∧
      r.pk2h b z k = (if s.nonlinearMode = .bnl then B z k else s.pkLin z k * s.imTerm z k * s.imTerm z k * (matterCut s o t).twoHaloTruncation k) ∧
      r.pkTot b z k = r.pk1h b z k + r.pk2h b z k ∧ r.galaxyLinearBias = none := by
  refine ⟨fun z k => s.compute1hTerm (s.matterProfile1hMm z k) (s.matterProfile1hMm z k) z, fun z k =>
    s.pkLin z k * s.imTerm z k * s.imTerm z k + s.pkLin z k * s.iNL (s.matterProfile2h z k) (s.matterProfile2h z k) z k, fun o t => ?_⟩
  have hr : (matterCut s o t).response = false := hresp
  unfold powerSpectrumMm
  rw [if_neg (by rw [hr]; decide)]
  unfold powerSpectrumMmRaw
  have hn : (matterCut s o t).nonlinearMode = s.nonlinearMode := rfl
  rw [hn]
  cases hm : s.nonlinearMode
  case hmcode => exact absurd hm hmode
  all_goals exact ⟨_, rfl, fun b z k => ⟨rfl, rfl, rfl, rfl⟩⟩

/-- C165: which spectrum knows which option.  Matter, clustering and lensing never know the alignment options.  Without `response` the alignment spectra never
know the matter options.  With `response`, or in mode `hmcode`, the matter power knows none at all.  In mode `bnl` no spectrum knows a two-halo option. -/
theorem C165_reach (o t o' t' : Option ℝ) :
    ((shapeCut s o t).powerSpectrumMm = s.powerSpectrumMm ∧ (shapeCut s o t).powerSpectrumGg = s.powerSpectrumGg ∧
      (shapeCut s o t).powerSpectrumGm = s.powerSpectrumGm) ∧
    (s.response = false → (matterCut s o t).powerSpectrumMi = s.powerSpectrumMi ∧ (matterCut s o t).powerSpectrumIi = s.powerSpectrumIi ∧
      (matterCut s o t).powerSpectrumGi = s.powerSpectrumGi) ∧
    (s.response = true ∨ s.nonlinearMode = .hmcode → (matterCut s o t).powerSpectrumMm = s.powerSpectrumMm) ∧
    (s.nonlinearMode = .bnl → ∀ f ∈ [powerSpectrumMm, powerSpectrumGg, powerSpectrumGm, powerSpectrumMi, powerSpectrumIi, powerSpectrumGi],
      f (shapeCut (matterCut s o t) o' t) = f (shapeCut (matterCut s o t') o' t')) := by
  refine ⟨⟨rfl, rfl, rfl⟩, fun hr => ?_, ?_, fun hm => ?_⟩
  · have hr' : (matterCut s o t).response = false := hr
    have A := C03_no_error s hr
    have B := C03_no_error _ hr'
    exact ⟨B.2.2.1.trans A.2.2.1.symm, B.2.2.2.1.trans A.2.2.2.1.symm, B.2.2.2.2.trans A.2.2.2.2.symm⟩
  · rintro (hr | hm)
    · have hr' : (matterCut s o t).response = true := hr
      unfold powerSpectrumMm
      rw [if_pos hr, if_pos hr']
      rfl
    · unfold powerSpectrumMm powerSpectrumMmRaw
      have hm' : (matterCut s o t).nonlinearMode = .hmcode := hm
      rw [hm, hm']
      rfl
  · have raw : (shapeCut (matterCut s o t) o' t).powerSpectrumMmRaw = (shapeCut (matterCut s o t') o' t').powerSpectrumMmRaw := by
      unfold powerSpectrumMmRaw
      have h1 : (shapeCut (matterCut s o t) o' t).nonlinearMode = .bnl := hm
      have h2 : (shapeCut (matterCut s o t') o' t').nonlinearMode = .bnl := hm
      rw [h1, h2]
      rfl
    have app : ∀ q q' : PkResult, q = q' → (shapeCut (matterCut s o t) o' t).applyResponse q = (shapeCut (matterCut s o t') o' t').applyResponse q' := by
      rintro q _ rfl
      unfold applyResponse
      rw [raw]
      rfl
    simp only [List.forall_mem_cons, List.not_mem_nil, false_implies, implies_true, and_true]
    refine ⟨?_, app _ _ ?_, app _ _ ?_, app _ _ ?_, app _ _ ?_, app _ _ ?_⟩
    · unfold powerSpectrumMm
      rw [raw]; rfl
    · have h1 : (shapeCut (matterCut s o t) o' t).nonlinearMode = .bnl := hm
      have h2 : (shapeCut (matterCut s o t') o' t').nonlinearMode = .bnl := hm
      unfold powerSpectrumGgRaw
      simp only [h1, h2, if_true]
      rfl
    · have h1 : (shapeCut (matterCut s o t) o' t).nonlinearMode = .bnl := hm
      have h2 : (shapeCut (matterCut s o t') o' t').nonlinearMode = .bnl := hm
      unfold powerSpectrumGmRaw
      simp only [h1, h2, if_true]
      rfl
    all_goals
      first
      | unfold powerSpectrumMiRaw
      | unfold powerSpectrumIiRaw
      | unfold powerSpectrumGiRaw
      have h1 : (shapeCut (matterCut s o t) o' t).nonlinearMode = .bnl := hm
      have h2 : (shapeCut (matterCut s o t') o' t').nonlinearMode = .bnl := hm
      rw [h1, h2]
      rfl

/-- what a change of `one_halo_ktrunc` from `o` to `o'` does to a result, at one wavenumber `q` -/
structure Moved (o o' : Option ℝ) (q : ℝ) (r r' : PkResult) (b z k : ℕ) : Prop where
  two : r'.pk2h b z k = r.pk2h b z k
  bias : r'.galaxyLinearBias = r.galaxyLinearBias
  exact : r'.pk1h b z k * (q ^ 4 + scale o' ^ 4) = r.pk1h b z k * (q ^ 4 + scale o ^ 4)
  total : r'.pkTot b z k - r.pkTot b z k = r'.pk1h b z k - r.pk1h b z k
  smaller : scale o ≤ scale o' → |r'.pk1h b z k| ≤ |r.pk1h b z k|
  atMost : 0 < scale o → scale o ≤ scale o' → (scale o / scale o') ^ 4 * |r.pk1h b z k| ≤ |r'.pk1h b z k|
  near : |r'.pk1h b z k - r.pk1h b z k| ≤ |scale o' ^ 4 - scale o ^ 4| / q ^ 4 * |r.pk1h b z k|

theorem scale_nonneg {o : Option ℝ} (h : Proper o) : 0 ≤ scale o := by
  cases o with
  | none => exact le_rfl
  | some a => exact (h a rfl).le

theorem moved {o o' : Option ℝ} (ho : Proper o) (ho' : Proper o') {q : ℝ} (hq : 0 < q) {r r' : PkResult} {b z k : ℕ}
    (h2 : r'.pk2h b z k = r.pk2h b z k) (hb : r'.galaxyLinearBias = r.galaxyLinearBias) (ht : r.pkTot b z k = r.pk1h b z k + r.pk2h b z k)
    (ht' : r'.pkTot b z k = r'.pk1h b z k + r'.pk2h b z k)
    (h1 : r'.pk1h b z k * (q ^ 4 + scale o' ^ 4) = r.pk1h b z k * (q ^ 4 + scale o ^ 4)) : Moved o o' q r r' b z k := by
  have n := scale_nonneg ho
  have n' := scale_nonneg ho'
  have d : 0 < q ^ 4 + scale o ^ 4 := by positivity
  have d' : 0 < q ^ 4 + scale o' ^ 4 := by positivity
  have ab : |r'.pk1h b z k| * (q ^ 4 + scale o' ^ 4) = |r.pk1h b z k| * (q ^ 4 + scale o ^ 4) := by
    rw [← abs_of_pos d', ← abs_mul, h1, abs_mul, abs_of_pos d]
  refine ⟨h2, hb, h1, by rw [ht, ht', h2]; ring, fun h => ?_, fun p h => ?_, ?_⟩
  · have m : scale o ^ 4 ≤ scale o' ^ 4 := pow_le_pow_left₀ n h 4
    refine le_of_mul_le_mul_right ?_ d'
    rw [ab]
    exact mul_le_mul_of_nonneg_left (by linarith) (abs_nonneg _)
  · have p' : 0 < scale o' := p.trans_le h
    have m : scale o ^ 4 ≤ scale o' ^ 4 := pow_le_pow_left₀ n h 4
    refine le_of_mul_le_mul_right ?_ d'
    rw [ab, mul_comm ((scale o / scale o') ^ 4), mul_assoc]
    refine mul_le_mul_of_nonneg_left ?_ (abs_nonneg _)
    have e : (scale o / scale o') ^ 4 * (q ^ 4 + scale o' ^ 4) = (scale o / scale o') ^ 4 * q ^ 4 + scale o ^ 4 := by field_simp
    have l : (scale o / scale o') ^ 4 ≤ 1 := pow_le_one₀ (by positivity) ((div_le_one p').2 h)
    have := mul_le_mul_of_nonneg_right l (show 0 ≤ q ^ 4 by positivity)
    rw [e]; linarith
  · have e : (r'.pk1h b z k - r.pk1h b z k) * (q ^ 4 + scale o' ^ 4) = (scale o ^ 4 - scale o' ^ 4) * r.pk1h b z k := by linarith
    have e' : |r'.pk1h b z k - r.pk1h b z k| * (q ^ 4 + scale o' ^ 4) = |scale o' ^ 4 - scale o ^ 4| * |r.pk1h b z k| := by
      rw [← abs_of_pos d', ← abs_mul, e, abs_mul, abs_sub_comm]
    have q4 : 0 < q ^ 4 := by positivity
    rw [div_mul_eq_mul_div, le_div_iff₀ q4, ← e']
    exact mul_le_mul_of_nonneg_left (by nlinarith [pow_nonneg n' 4]) (abs_nonneg _)

/-- C165: another `one_halo_ktrunc` multiplies the one-halo terms of clustering and lensing, and of matter outside mode `hmcode`, by one and the same factor
`(q⁴+a⁴)/(q⁴+a'⁴)` of the wavenumber, for all bins and redshifts; none counts as zero.  Two-halo terms and reported biases stay.  A larger value never gives
a larger one-halo term, the loss is bounded by the fourth power of the ratio of the values, and it falls with the fourth power of the wavenumber. -/
theorem C165_one_halo (hresp : s.response = false) {o o' : Option ℝ} (ho : Proper o) (ho' : Proper o') (t : Option ℝ) :
    (∀ f ∈ [powerSpectrumGg, powerSpectrumGm], ∃ r r', f (matterCut s o t) = .ok r ∧ f (matterCut s o' t) = .ok r' ∧
      ∀ b z k, 0 < s.kVec k → Moved o o' (s.kVec k) r r' b z k) ∧
    (s.nonlinearMode ≠ .hmcode → ∃ r r', (matterCut s o t).powerSpectrumMm = .ok r ∧ (matterCut s o' t).powerSpectrumMm = .ok r' ∧
      ∀ b z k, 0 < s.kVec k → Moved o o' (s.kVec k) r r' b z k) := by
  have hr : (matterCut s o t).response = false := hresp
  have hr' : (matterCut s o' t).response = false := hresp
  have A := C03_no_error _ hr
  have B := C03_no_error _ hr'
  have key : ∀ {k : ℕ} (_ : 0 < s.kVec k) (x : ℝ), x * (matterCut s o' t).oneHaloTruncation k * (s.kVec k ^ 4 + scale o' ^ 4) =
      x * (matterCut s o t).oneHaloTruncation k * (s.kVec k ^ 4 + scale o ^ 4) := fun hk x => by
    rw [mul_assoc, mul_assoc, one_eq ho t hk, one_eq ho' t hk]
  refine ⟨?_, fun hmode => ?_⟩
  · simp only [List.forall_mem_cons, List.not_mem_nil, false_implies, implies_true, and_true]
    refine ⟨⟨_, _, A.1, B.1, fun b z k hk => moved ho ho' hk rfl rfl rfl rfl ?_⟩, ⟨_, _, A.2.1, B.2.1, fun b z k hk => moved ho ho' hk rfl rfl rfl rfl ?_⟩⟩
    · have e : ∀ o, (matterCut s o t).powerSpectrumGgRaw.pk1h b z k = (2 * s.compute1hTerm (s.centralGalaxyProfile b z k) (s.satelliteGalaxyProfile b z k) z
          + s.compute1hTerm (fun m => s.satelliteGalaxyProfile b z k m * s.poissonFunc m) (s.satelliteGalaxyProfile b z k) z)
          * (matterCut s o t).oneHaloTruncation k := fun o => by
        rw [add_mul, mul_assoc]; rfl
      rw [e, e, key hk]
    · have e : ∀ o, (matterCut s o t).powerSpectrumGmRaw.pk1h b z k = (s.compute1hTerm (s.centralGalaxyProfile b z k) (s.matterProfile1hG b z k) z
          + s.compute1hTerm (s.satelliteGalaxyProfile b z k) (s.matterProfile1hG b z k) z) * (matterCut s o t).oneHaloTruncation k := fun o => by
        rw [add_mul]; rfl
      rw [e, e, key hk]
  · obtain ⟨P, Q, h⟩ := mm_form hresp hmode
    obtain ⟨r, h1, h2⟩ := h o t
    obtain ⟨r', h1', h2'⟩ := h o' t
    refine ⟨r, r', h1, h1', fun b z k hk => moved ho ho' hk ?_ ?_ (h2 b z k).2.2.1 (h2' b z k).2.2.1 ?_⟩
    · rw [(h2 b z k).2.1, (h2' b z k).2.1]; rfl
    · rw [(h2 b z k).2.2.2, (h2' b z k).2.2.2]
    · rw [(h2 b z k).1, (h2' b z k).1, key hk]

/-- C165: outside mode `bnl` switching on `two_halo_ktrunc`, with whatever value, multiplies the two-halo terms of matter, clustering and lensing by one and the
same factor between 0.95 and 1, and leaves one-halo terms and biases alone. -/
theorem C165_two_halo (hresp : s.response = false) (hmode : s.nonlinearMode = .none ∨ s.nonlinearMode = .fortuna) (o : Option ℝ) (a : ℝ) :
    ∃ D : ℕ → ℝ, (∀ k, 0 ≤ s.kVec k → 0.95 < D k ∧ D k ≤ 1) ∧ (∀ k, 0 < s.kVec k → D k < 1) ∧
      ∀ f ∈ [powerSpectrumMm, powerSpectrumGg, powerSpectrumGm], ∃ r r', f (matterCut s o none) = .ok r ∧ f (matterCut s o (some a)) = .ok r' ∧
        ∀ b z k, r'.pk2h b z k = D k * r.pk2h b z k ∧ r'.pk1h b z k = r.pk1h b z k ∧ r'.galaxyLinearBias = r.galaxyLinearBias ∧
          r'.pkTot b z k = r.pkTot b z k - (1 - D k) * r.pk2h b z k := by
  have hb : s.nonlinearMode ≠ .bnl := by rcases hmode with h | h <;> rw [h] <;> decide
  have hh : s.nonlinearMode ≠ .hmcode := by rcases hmode with h | h <;> rw [h] <;> decide
  have hr : (matterCut s o none).response = false := hresp
  have hr' : (matterCut s o (some a)).response = false := hresp
  have A := C03_no_error _ hr
  have B := C03_no_error _ hr'
  have one : ∀ k, (matterCut s o none).twoHaloTruncation k = 1 := fun k => rfl
  refine ⟨fun k => (matterCut s o (some a)).twoHaloTruncation k, fun k hk => C18_range _ k hk, fun k hk =>
    lt_of_le_of_ne (C18_range (matterCut s o (some a)) k hk.le).2 fun e => ?_, ?_⟩
  · have := (C18_none_switches_off (matterCut s o (some a)) k hk).1 e
    cases this
  simp only [List.forall_mem_cons, List.not_mem_nil, false_implies, implies_true, and_true]
  refine ⟨?_, ⟨_, _, A.1, B.1, fun b z k => ?_⟩, ⟨_, _, A.2.1, B.2.1, fun b z k => ?_⟩⟩
  · obtain ⟨P, Q, h⟩ := mm_form hresp hh
    obtain ⟨r, h1, h2⟩ := h o none
    obtain ⟨r', h1', h2'⟩ := h o (some a)
    refine ⟨r, r', h1, h1', fun b z k => ?_⟩
    have e2 : r'.pk2h b z k = (matterCut s o (some a)).twoHaloTruncation k * r.pk2h b z k := by
      rw [(h2 b z k).2.1, (h2' b z k).2.1, if_neg hb, if_neg hb, one]; ring
    have e1 : r'.pk1h b z k = r.pk1h b z k := by rw [(h2 b z k).1, (h2' b z k).1]; rfl
    refine ⟨e2, e1, by rw [(h2 b z k).2.2.2, (h2' b z k).2.2.2], ?_⟩
    rw [(h2 b z k).2.2.1, (h2' b z k).2.2.1, e1, e2]; ring
  · have e : ∀ t, (matterCut s o t).powerSpectrumGgRaw.pk2h b z k = (s.pkLin z k * (s.icTerm b z k * s.icTerm b z k + s.isTerm b z k * s.isTerm b z k
        + 2 * (s.icTerm b z k * s.isTerm b z k))) * (matterCut s o t).twoHaloTruncation k := fun t => by
      have hm : (matterCut s o t).nonlinearMode ≠ .bnl := hb
      unfold powerSpectrumGgRaw
      simp only [if_neg hm]
      change s.pkLin z k * s.icTerm b z k * s.icTerm b z k * _ + s.pkLin z k * s.isTerm b z k * s.isTerm b z k * _
        + 2 * (s.pkLin z k * s.icTerm b z k * s.isTerm b z k * _) = _
      ring
    have e2 : (matterCut s o (some a)).powerSpectrumGgRaw.pk2h b z k = (matterCut s o (some a)).twoHaloTruncation k *
        (matterCut s o none).powerSpectrumGgRaw.pk2h b z k := by
      rw [e, e, one]; ring
    refine ⟨e2, rfl, rfl, ?_⟩
    change (matterCut s o (some a)).powerSpectrumGgRaw.pk1h b z k + (matterCut s o (some a)).powerSpectrumGgRaw.pk2h b z k =
      (matterCut s o none).powerSpectrumGgRaw.pk1h b z k + (matterCut s o none).powerSpectrumGgRaw.pk2h b z k - _
    have e1 : (matterCut s o (some a)).powerSpectrumGgRaw.pk1h b z k = (matterCut s o none).powerSpectrumGgRaw.pk1h b z k := rfl
    rw [e1, e2]; ring
  · have e : ∀ t, (matterCut s o t).powerSpectrumGmRaw.pk2h b z k = (s.pkLin z k * (s.icTerm b z k + s.isTerm b z k) * s.imTerm z k)
        * (matterCut s o t).twoHaloTruncation k := fun t => by
      have hm : (matterCut s o t).nonlinearMode ≠ .bnl := hb
      unfold powerSpectrumGmRaw
      simp only [if_neg hm]
      change s.pkLin z k * s.icTerm b z k * s.imTerm z k * _ + s.pkLin z k * s.isTerm b z k * s.imTerm z k * _ = _
      ring
    have e2 : (matterCut s o (some a)).powerSpectrumGmRaw.pk2h b z k = (matterCut s o (some a)).twoHaloTruncation k *
        (matterCut s o none).powerSpectrumGmRaw.pk2h b z k := by
      rw [e, e, one]; ring
    refine ⟨e2, rfl, rfl, ?_⟩
    change (matterCut s o (some a)).powerSpectrumGmRaw.pk1h b z k + (matterCut s o (some a)).powerSpectrumGmRaw.pk2h b z k =
      (matterCut s o none).powerSpectrumGmRaw.pk1h b z k + (matterCut s o none).powerSpectrumGmRaw.pk2h b z k - _
    have e1 : (matterCut s o (some a)).powerSpectrumGmRaw.pk1h b z k = (matterCut s o none).powerSpectrumGmRaw.pk1h b z k := rfl
    rw [e1, e2]; ring

/-- C165: the alignment options act the same way on all three alignment spectra: the one-halo term is proportional to `1 - exp(-(q/a)²)`, the two-halo term
to `exp(-(q/a')²)` except in mode `bnl`, where it is not truncated. -/
theorem C165_alignments (hresp : s.response = false) :
    ∀ f ∈ [powerSpectrumMi, powerSpectrumIi, powerSpectrumGi], ∃ A B : ℕ → ℕ → ℕ → ℝ, ∀ o t, ∃ r, f (shapeCut s o t) = .ok r ∧
      ∀ b z k, r.pk1h b z k = A b z k * keptOne o (s.kVec k) ∧
        r.pk2h b z k = B b z k * (if s.nonlinearMode = .bnl then 1 else keptTwo t (s.kVec k)) ∧
        r.pkTot b z k = A b z k * keptOne o (s.kVec k) + B b z k * (if s.nonlinearMode = .bnl then 1 else keptTwo t (s.kVec k)) := by
  have hr : ∀ o t, (shapeCut s o t).response = false := fun _ _ => hresp
  have one : ∀ o t k, (shapeCut s o t).oneHaloTruncationIa k = keptOne o (s.kVec k) := fun o t k => by cases o <;> rfl
  have two : ∀ o t k, (shapeCut s o t).twoHaloTruncationIa k = keptTwo t (s.kVec k) := fun o t k => by cases t <;> rfl
  have hn : ∀ o t, (shapeCut s o t).nonlinearMode = s.nonlinearMode := fun _ _ => rfl
  have c1 : ∀ o t, (shapeCut s o t).compute1hTerm = s.compute1hTerm := fun _ _ => rfl
  have c2 : ∀ o t, (shapeCut s o t).satelliteAlignmentProfile = s.satelliteAlignmentProfile := fun _ _ => rfl
  have c3 : ∀ o t, (shapeCut s o t).centralAlignmentProfile = s.centralAlignmentProfile := fun _ _ => rfl
  have c4 : ∀ o t, (shapeCut s o t).matterProfile1hG = s.matterProfile1hG := fun _ _ => rfl
  have c5 : ∀ o t, (shapeCut s o t).matterProfile2h = s.matterProfile2h := fun _ _ => rfl
  have c6 : ∀ o t, (shapeCut s o t).pkLin = s.pkLin := fun _ _ => rfl
  have c7 : ∀ o t, (shapeCut s o t).isAlignTerm = s.isAlignTerm := fun _ _ => rfl
  have c8 : ∀ o t, (shapeCut s o t).icAlignTerm = s.icAlignTerm := fun _ _ => rfl
  have c9 : ∀ o t, (shapeCut s o t).imTerm = s.imTerm := fun _ _ => rfl
  have d1 : ∀ o t, (shapeCut s o t).iNL = s.iNL := fun _ _ => rfl
  have d2 : ∀ o t, (shapeCut s o t).fC = s.fC := fun _ _ => rfl
  have d3 : ∀ o t, (shapeCut s o t).peffVal = s.peffVal := fun _ _ => rfl
  have d4 : ∀ o t, (shapeCut s o t).alignmentAmplitude2h = s.alignmentAmplitude2h := fun _ _ => rfl
  have d5 : ∀ o t, (shapeCut s o t).alignmentAmplitude2hII = s.alignmentAmplitude2hII := fun _ _ => rfl
  have d6 : ∀ o t, (shapeCut s o t).centralGalaxyProfile = s.centralGalaxyProfile := fun _ _ => rfl
  have d7 : ∀ o t, (shapeCut s o t).icTerm = s.icTerm := fun _ _ => rfl
  have u1 : ∀ q, keptOne none q = 1 := fun _ => rfl
  have u2 : ∀ q, keptTwo none q = 1 := fun _ => rfl
  simp only [List.forall_mem_cons, List.not_mem_nil, false_implies, implies_true, and_true]
  refine ⟨⟨(shapeCut s none none).powerSpectrumMiRaw.pk1h, (shapeCut s none none).powerSpectrumMiRaw.pk2h, fun o t =>
      ⟨_, (C03_no_error _ (hr o t)).2.2.1, fun b z k => ?_⟩⟩,
    ⟨(shapeCut s none none).powerSpectrumIiRaw.pk1h, (shapeCut s none none).powerSpectrumIiRaw.pk2h, fun o t =>
      ⟨_, (C03_no_error _ (hr o t)).2.2.2.1, fun b z k => ?_⟩⟩,
    ⟨(shapeCut s none none).powerSpectrumGiRaw.pk1h, (shapeCut s none none).powerSpectrumGiRaw.pk2h, fun o t =>
      ⟨_, (C03_no_error _ (hr o t)).2.2.2.2, fun b z k => ?_⟩⟩⟩
  · unfold powerSpectrumMiRaw
    rw [hn, hn]
    cases s.nonlinearMode
    all_goals
      simp only [one, two, c1, c2, c3, c4, c5, c6, c7, c8, c9, d1, d2, d3, d4, u1, u2, reduceCtorEq, if_true, if_false]
      refine ⟨?_, ?_, ?_⟩ <;> ring
  · unfold powerSpectrumIiRaw
    rw [hn, hn]
    cases s.nonlinearMode
    all_goals
      simp only [one, two, c1, c2, c3, c6, c7, c8, d1, d2, d3, d5, u1, u2, reduceCtorEq, if_true, if_false]
      refine ⟨?_, ?_, ?_⟩ <;> ring
  · unfold powerSpectrumGiRaw
    rw [hn, hn]
    cases s.nonlinearMode
    all_goals
      simp only [one, two, c1, c2, c3, c6, c7, c8, d1, d3, d4, d6, d7, u1, u2, reduceCtorEq, if_true, if_false]
      refine ⟨?_, ?_, ?_⟩ <;> ring

/-- C165: with `response` the matter options reach the alignment spectra too: each of them is then inversely proportional to the total matter power that the halo
model gives with the options. -/
theorem C165_response (hresp : s.response = true) (o t o' t' : Option ℝ) {mm mm' : PkResult}
    (hm : ({ matterCut s o t with response := false } : Spectra).powerSpectrumMm = .ok mm)
    (hm' : ({ matterCut s o' t' with response := false } : Spectra).powerSpectrumMm = .ok mm') :
    ∀ f ∈ [powerSpectrumMi, powerSpectrumIi, powerSpectrumGi], ∃ r r', f (matterCut s o t) = .ok r ∧ f (matterCut s o' t') = .ok r' ∧
      ∀ b z k, mm.pkTot 0 z k ≠ 0 → mm'.pkTot 0 z k ≠ 0 → r'.pk1h b z k * mm'.pkTot 0 z k = r.pk1h b z k * mm.pkTot 0 z k ∧
        r'.pk2h b z k * mm'.pkTot 0 z k = r.pk2h b z k * mm.pkTot 0 z k ∧ r'.pkTot b z k * mm'.pkTot 0 z k = r.pkTot b z k * mm.pkTot 0 z k := by
  have hr : (matterCut s o t).response = true := hresp
  have hr' : (matterCut s o' t').response = true := hresp
  have w : (matterCut s o t).powerSpectrumMmRaw = .ok mm := hm
  have w' : (matterCut s o' t').powerSpectrumMmRaw = .ok mm' := hm'
  have app : ∀ q q' : PkResult, q = q' → ∃ r r', (matterCut s o t).applyResponse q = .ok r ∧ (matterCut s o' t').applyResponse q' = .ok r' ∧
      ∀ b z k, mm.pkTot 0 z k ≠ 0 → mm'.pkTot 0 z k ≠ 0 → r'.pk1h b z k * mm'.pkTot 0 z k = r.pk1h b z k * mm.pkTot 0 z k ∧
        r'.pk2h b z k * mm'.pkTot 0 z k = r.pk2h b z k * mm.pkTot 0 z k ∧ r'.pkTot b z k * mm'.pkTot 0 z k = r.pkTot b z k * mm.pkTot 0 z k := by
    rintro q _ rfl
    unfold applyResponse
    rw [if_pos hr, if_pos hr', w, w']
    refine ⟨_, _, rfl, rfl, fun b z k h h' => ?_⟩
    have n : (matterCut s o t).pkNl z k = (matterCut s o' t').pkNl z k := rfl
    dsimp only
    rw [n]
    refine ⟨?_, ?_, ?_⟩ <;> field_simp
  simp only [List.forall_mem_cons, List.not_mem_nil, false_implies, implies_true, and_true]
  exact ⟨app _ _ rfl, app _ _ rfl, app _ _ rfl⟩

/-! ## Non-vacuity -/

/-- the demonstration object: from 0.1 to 0.2 the one-halo matter power at the first wavenumber, which is 1, changes by the factor 1.0001/1.0016 -/
example : ∃ r r', (matterCut demo (some 0.1) none).powerSpectrumMm = .ok r ∧ (matterCut demo (some 0.2) none).powerSpectrumMm = .ok r' ∧
    r'.pk1h 0 0 0 * 1.0016 = r.pk1h 0 0 0 * 1.0001 := by
  obtain ⟨r, r', a, b, h⟩ := (C165_one_halo (s := demo) rfl (o := some 0.1) (o' := some 0.2) (by rintro a ⟨⟩; norm_num) (by rintro a ⟨⟩; norm_num) none).2
    (by decide)
  refine ⟨r, r', a, b, ?_⟩
  have hk : demo.kVec 0 = 1 := by simp [demo]
  have := (h 0 0 0 (by rw [hk]; norm_num)).exact
  rw [hk] at this
  simp only [scale, Option.getD_some] at this
  norm_num at this ⊢
  linarith

/-- switching on `one_halo_ktrunc_ia = 1` keeps the share `1 - 1/e` of the one-halo term at the first wavenumber -/
example : ∃ r r', (shapeCut demo none none).powerSpectrumIi = .ok r ∧ (shapeCut demo (some 1) none).powerSpectrumIi = .ok r' ∧
    r'.pk1h 0 0 0 = r.pk1h 0 0 0 * (1 - Real.exp (-1)) ∧ r'.pk2h 0 0 0 = r.pk2h 0 0 0 := by
  obtain ⟨A, B, h⟩ := C165_alignments (s := demo) rfl powerSpectrumIi (by simp)
  obtain ⟨r, e, h1⟩ := h none none
  obtain ⟨r', e', h1'⟩ := h (some 1) none
  have hk : demo.kVec 0 = 1 := by simp [demo]
  refine ⟨r, r', e, e', ?_, ?_⟩
  · rw [(h1 0 0 0).1, (h1' 0 0 0).1, hk]
    simp [keptOne]
  · rw [(h1 0 0 0).2.1, (h1' 0 0 0).2.1]

/-- with `response` the matter power of the demonstration object is a number -/
example : ∃ mm, ({ matterCut { demo with response := true } (some 0.1) none with response := false } : Spectra).powerSpectrumMm = .ok mm := ⟨_, rfl⟩

end Verif.Pk.Truncation

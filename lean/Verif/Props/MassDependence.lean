import Verif.Props.Scaling

/-!
Property C166: what the mass dependence of the alignments (`beta_cen`, `mpivot_cen`, `beta_sat`, `mpivot_sat`) does to the spectra.
-/

namespace Verif.Pk.MassDependence

open Verif.Lib Verif.Pk.Spectra

/-- the object with the four options of the mass dependence set -/
def massed (s : Spectra) (bc mc bs ms : Option ℝ) : Spectra := { s with betaCen := bc, mpivotCen := mc, betaSat := bs, mpivotSat := ms }

/-- the documented factor: a power law of the mean halo mass around the pivot, given both options -/
noncomputable def factor (s : Spectra) (slope pivot : Option ℝ) (b z : ℕ) : ℝ :=
  (slope.bind fun β => pivot.map fun M => (s.avgHaloMassCen b z / s.numberDensity b z / M) ^ β).getD 1

theorem factor_eq (s : Spectra) (slope pivot : Option ℝ) (b z : ℕ) : additionalTerm slope pivot (s.massAvg b z) = factor s slope pivot b z := by
  cases slope <;> cases pivot <;> rfl

variable {s : Spectra}

/-- one bin and one redshift of two results agree at every wavenumber -/
def SameAt (r r' : PkResult) (b z : ℕ) : Prop :=
  ∀ k, r.pk1h b z k = r'.pk1h b z k ∧ r.pk2h b z k = r'.pk2h b z k ∧ r.pkTot b z k = r'.pkTot b z k

section
variable (bc mc bs ms : Option ℝ) (b z : ℕ)

theorem sat (l : ℝ) (k : ℕ) : (massed s bc mc bs ms).satelliteAlignmentProfile b z k =
    (aligned l (factor s bs ms b z) (massed s none none none none)).satelliteAlignmentProfile b z k := by
  funext i
  have e : (massed s bc mc bs ms).satelliteAlignmentProfile b z k i =
      s.fS b z * s.hodSat b z i * s.wkmSat z k i / s.numberDensitySat b z * additionalTerm bs ms (s.massAvg b z) := rfl
  have e' : (aligned l (factor s bs ms b z) (massed s none none none none)).satelliteAlignmentProfile b z k i =
      s.fS b z * s.hodSat b z i * (factor s bs ms b z * s.wkmSat z k i) / s.numberDensitySat b z * 1 := rfl
  rw [e, e', factor_eq]
  ring

theorem cen (m : ℝ) (k : ℕ) : (massed s bc mc bs ms).centralAlignmentProfile b z k =
    (aligned (factor s bc mc b z) m (massed s none none none none)).centralAlignmentProfile b z k := by
  funext i
  rw [central_aligned]
  beta_reduce
  have e : (massed s bc mc bs ms).centralAlignmentProfile b z k i =
      s.fC b z * (s.c1 z / s.growthFactor z) * s.mass i * additionalTerm bc mc (s.massAvg b z) := rfl
  have e' : (massed s none none none none).centralAlignmentProfile b z k i =
      s.fC b z * (s.c1 z / s.growthFactor z) * s.mass i * 1 := rfl
  rw [e, e', factor_eq]
  ring

theorem isA (l : ℝ) (k : ℕ) : (massed s bc mc bs ms).isAlignTerm b z k =
    (aligned l (factor s bs ms b z) (massed s none none none none)).isAlignTerm b z k := by
  unfold isAlignTerm
  rw [sat bc mc bs ms b z l k]
  rfl

theorem icA (m : ℝ) (k : ℕ) : (massed s bc mc bs ms).icAlignTerm b z k =
    (aligned (factor s bc mc b z) m (massed s none none none none)).icAlignTerm b z k := by
  unfold icAlignTerm
  rw [cen bc mc bs ms b z m k]
  rfl

/-- the factor of the central alignments: none in mode `fortuna` -/
noncomputable def central (s : Spectra) (slope pivot : Option ℝ) (b z : ℕ) : ℝ :=
  if s.nonlinearMode = .fortuna then 1 else factor s slope pivot b z

theorem raws : ∀ f ∈ [powerSpectrumMiRaw, powerSpectrumIiRaw, powerSpectrumGiRaw],
    SameAt (f (massed s bc mc bs ms)) (f (aligned (central s bc mc b z) (factor s bs ms b z) (massed s none none none none))) b z := by
  have hmX : (massed s bc mc bs ms).nonlinearMode = s.nonlinearMode := rfl
  have hmY : ∀ l m, (aligned l m (massed s none none none none)).nonlinearMode = s.nonlinearMode := fun _ _ => rfl
  have a1 : ∀ m, (aligned 1 m (massed s none none none none)).alignmentAmplitude2h z = (massed s bc mc bs ms).alignmentAmplitude2h z := fun m => by
    simp only [alignmentAmplitude2h, c1, aligned, massed, one_mul]
  have a2 : ∀ m, (aligned 1 m (massed s none none none none)).alignmentAmplitude2hII z = (massed s bc mc bs ms).alignmentAmplitude2hII z := fun m => by
    simp only [alignmentAmplitude2hII, c1, aligned, massed, one_mul]
  simp only [List.forall_mem_cons, List.not_mem_nil, false_implies, implies_true, and_true, SameAt]
  cases hm : s.nonlinearMode with
  | fortuna =>
    rw [hm] at hmX
    simp only [hm] at hmY
    rw [show central s bc mc b z = 1 from if_pos hm]
    refine ⟨fun k => ?_, fun k => ?_, fun k => ?_⟩
    · simp only [powerSpectrumMiRaw, hmX, hmY, sat bc mc bs ms b z 1, a1]
      exact ⟨rfl, rfl, rfl⟩
    · simp only [powerSpectrumIiRaw, hmX, hmY, sat bc mc bs ms b z 1, a2]
      exact ⟨rfl, rfl, rfl⟩
    · simp only [powerSpectrumGiRaw, hmX, hmY, sat bc mc bs ms b z 1, a1]
      exact ⟨rfl, rfl, rfl⟩
  | none | hmcode | bnl =>
    rw [hm] at hmX
    simp only [hm] at hmY
    rw [show central s bc mc b z = factor s bc mc b z from if_neg (by rw [hm]; decide)]
    have h1 := sat (s := s) bc mc bs ms b z (factor s bc mc b z)
    have h2 := cen (s := s) bc mc bs ms b z (factor s bs ms b z)
    have h3 := isA (s := s) bc mc bs ms b z (factor s bc mc b z)
    have h4 := icA (s := s) bc mc bs ms b z (factor s bs ms b z)
    refine ⟨fun k => ?_, fun k => ?_, fun k => ?_⟩
    · simp only [powerSpectrumMiRaw, hmX, hmY, h1, h2, h3, h4]
      exact ⟨rfl, rfl, rfl⟩
    · simp only [powerSpectrumIiRaw, hmX, hmY, h1, h2, h3, h4]
      exact ⟨rfl, rfl, rfl⟩
    · simp only [powerSpectrumGiRaw, hmX, hmY, h1, h2, h3, h4]
      exact ⟨rfl, rfl, rfl⟩

/-- C166: in one bin and at one redshift the mass dependence is not distinguishable from a change of the amplitudes: every alignment spectrum is the one without
mass dependence with the central amplitude multiplied by `(mean mass / pivot)^slope` of the centrals and the satellite alignment by that of the satellites. In mode
`fortuna` the central factor is missing. -/
theorem C166_rescaling : ∀ f ∈ [powerSpectrumMi, powerSpectrumIi, powerSpectrumGi], ∀ r, f (massed s bc mc bs ms) = .ok r →
    ∃ r', f (aligned (if s.nonlinearMode = .fortuna then 1 else factor s bc mc b z) (factor s bs ms b z) (massed s none none none none)) = .ok r' ∧
      SameAt r r' b z := by
  have key : ∀ q q' : PkResult, SameAt q q' b z → ∀ r, (massed s bc mc bs ms).applyResponse q = .ok r →
      ∀ l m, ∃ r', (aligned l m (massed s none none none none)).applyResponse q' = .ok r' ∧ SameAt r r' b z := by
    intro q q' hq r hr l m
    obtain ⟨f, e, h⟩ := respond_eq (massed s bc mc bs ms) q r hr
    refine ⟨_, h q', fun k => ?_⟩
    rw [e]
    obtain ⟨u, v, w⟩ := hq k
    exact ⟨by simp only [u], by simp only [v], by simp only [w]⟩
  have hraw := raws (s := s) bc mc bs ms b z
  simp only [List.forall_mem_cons, List.not_mem_nil, false_implies, implies_true, and_true] at hraw ⊢
  exact ⟨fun r hr => key _ _ hraw.1 r hr _ _, fun r hr => key _ _ hraw.2.1 r hr _ _, fun r hr => key _ _ hraw.2.2 r hr _ _⟩

end

/-- C166: the spectra without alignments never see the options. A slope without a pivot, or a pivot without a slope, is ignored by every spectrum. In mode
`fortuna` the options of the centrals are ignored altogether. -/
theorem C166_ignored (bc mc bs ms : Option ℝ) :
    (∀ f ∈ [powerSpectrumMm, powerSpectrumGg, powerSpectrumGm], f (massed s bc mc bs ms) = f s) ∧
    (∀ f ∈ [powerSpectrumMi, powerSpectrumIi, powerSpectrumGi],
      (bc = none ∨ mc = none → f (massed s bc mc bs ms) = f (massed s none none bs ms)) ∧
      (bs = none ∨ ms = none → f (massed s bc mc bs ms) = f (massed s bc mc none none)) ∧
      (s.nonlinearMode = .fortuna → f (massed s bc mc bs ms) = f (massed s none none bs ms))) := by
  have ext : ∀ (f : Spectra → PkResult) (_ : f ∈ [powerSpectrumMiRaw, powerSpectrumIiRaw, powerSpectrumGiRaw]) (_ : ∀ t, (f t).galaxyLinearBias = none)
      (bc' mc' bs' ms' : Option ℝ), (∀ b z, central s bc mc b z = central s bc' mc' b z) → (∀ b z, factor s bs ms b z = factor s bs' ms' b z) →
      f (massed s bc mc bs ms) = f (massed s bc' mc' bs' ms') := by
    intro f hf hn bc' mc' bs' ms' hc hs
    have h : ∀ b z, SameAt (f (massed s bc mc bs ms)) (f (massed s bc' mc' bs' ms')) b z := fun b z k => by
      have h1 := raws (s := s) bc mc bs ms b z f hf k
      have h2 := raws (s := s) bc' mc' bs' ms' b z f hf k
      rw [hc, hs] at h1
      exact ⟨h1.1.trans h2.1.symm, h1.2.1.trans h2.2.1.symm, h1.2.2.trans h2.2.2.symm⟩
    have e1 := hn (massed s bc mc bs ms)
    have e2 := hn (massed s bc' mc' bs' ms')
    generalize f (massed s bc mc bs ms) = x at h e1
    generalize f (massed s bc' mc' bs' ms') = y at h e2
    cases x
    cases y
    simp only [PkResult.mk.injEq]
    exact ⟨funext fun b => funext fun z => funext fun k => (h b z k).1, funext fun b => funext fun z => funext fun k => (h b z k).2.1,
      funext fun b => funext fun z => funext fun k => (h b z k).2.2, e1.trans e2.symm⟩
  have n1 : ∀ t : Spectra, t.powerSpectrumMiRaw.galaxyLinearBias = none := fun t => by unfold powerSpectrumMiRaw; cases t.nonlinearMode <;> rfl
  have n2 : ∀ t : Spectra, t.powerSpectrumIiRaw.galaxyLinearBias = none := fun t => by unfold powerSpectrumIiRaw; cases t.nonlinearMode <;> rfl
  have n3 : ∀ t : Spectra, t.powerSpectrumGiRaw.galaxyLinearBias = none := fun t => by unfold powerSpectrumGiRaw; cases t.nonlinearMode <;> rfl
  have app : ∀ (bc' mc' bs' ms' : Option ℝ), (∀ b z, central s bc mc b z = central s bc' mc' b z) → (∀ b z, factor s bs ms b z = factor s bs' ms' b z) →
      ∀ f ∈ [powerSpectrumMi, powerSpectrumIi, powerSpectrumGi], f (massed s bc mc bs ms) = f (massed s bc' mc' bs' ms') := by
    intro bc' mc' bs' ms' hc hs
    have w : ∀ q q' : PkResult, q = q' → (massed s bc mc bs ms).applyResponse q = (massed s bc' mc' bs' ms').applyResponse q' := by
      rintro q _ rfl
      rfl
    simp only [List.forall_mem_cons, List.not_mem_nil, false_implies, implies_true, and_true]
    exact ⟨w _ _ (ext _ (by simp) n1 _ _ _ _ hc hs), w _ _ (ext _ (by simp) n2 _ _ _ _ hc hs), w _ _ (ext _ (by simp) n3 _ _ _ _ hc hs)⟩
  have half : ∀ β M : Option ℝ, β = none ∨ M = none → ∀ b z, factor s β M b z = factor s none none b z := by
    rintro β M (rfl | rfl) b z
    · rfl
    · cases β <;> rfl
  refine ⟨?_, fun f hf => ⟨fun h => ?_, fun h => ?_, fun h => ?_⟩⟩
  · simp only [List.forall_mem_cons, List.not_mem_nil, false_implies, implies_true, and_true]
    exact ⟨rfl, rfl, rfl⟩
  · exact app _ _ _ _ (fun b z => by unfold central; rw [half _ _ h]) (fun _ _ => rfl) f hf
  · exact app _ _ _ _ (fun _ _ => rfl) (fun b z => half _ _ h b z) f hf
  · exact app _ _ _ _ (fun b z => by rw [central, central, if_pos h, if_pos h]) (fun _ _ => rfl) f hf

/-- C166: a pivot is a convention. With the pivot multiplied by `c` every alignment spectrum, in all bins and at all redshifts, is the old one with the central
alignments multiplied by `c ^ (-slope)`, so a fitted amplitude absorbs it; likewise for the satellites. -/
theorem C166_pivot (hf : s.nonlinearMode ≠ .fortuna) {βc Mc βs Ms c d : ℝ} (hc : 0 < c) (hd : 0 < d) (hMc : 0 < Mc) (hMs : 0 < Ms)
    (hm : ∀ b z, 0 ≤ s.avgHaloMassCen b z / s.numberDensity b z) : ∀ f ∈ [powerSpectrumMi, powerSpectrumIi, powerSpectrumGi], ∀ r,
    f (massed s (some βc) (some (c * Mc)) (some βs) (some (d * Ms))) = .ok r →
    ∃ r', f (aligned (c ^ (-βc)) (d ^ (-βs)) (massed s (some βc) (some Mc) (some βs) (some Ms))) = .ok r' ∧ ∀ b z, SameAt r r' b z := by
  have piv : ∀ {β M c : ℝ}, 0 < c → 0 < M → ∀ b z, factor s (some β) (some (c * M)) b z = c ^ (-β) * factor s (some β) (some M) b z := by
    intro β M c hc hM b z
    have e : s.avgHaloMassCen b z / s.numberDensity b z / (c * M) = c⁻¹ * (s.avgHaloMassCen b z / s.numberDensity b z / M) := by
      field_simp
    simp only [factor, Option.bind_some, Option.map_some, Option.getD_some]
    rw [e, Real.mul_rpow (by positivity) (div_nonneg (hm b z) hM.le), Real.inv_rpow hc.le, Real.rpow_neg hc.le]
  have swap : ∀ l m, aligned l m (massed s (some βc) (some Mc) (some βs) (some Ms)) = massed (aligned l m s) (some βc) (some Mc) (some βs) (some Ms) :=
    fun _ _ => rfl
  have two : ∀ l m l' m', aligned l m (massed (aligned l' m' s) none none none none) = aligned (l * l') (m * m') (massed s none none none none) := by
    intro l m l' m'
    simp only [aligned, massed, mul_assoc]
  intro f hF r hr
  have hres : ∀ (t : Spectra), t.response = s.response → t.powerSpectrumMmRaw = s.powerSpectrumMmRaw → t.pkNl = s.pkNl → ∃ r', f t = .ok r' := by
    intro t h1 h2 h3
    have hx : ∀ q q' : PkResult, ∀ r, (massed s (some βc) (some (c * Mc)) (some βs) (some (d * Ms))).applyResponse q = .ok r → ∃ r', t.applyResponse q' = .ok r' := by
      intro q q' r hr
      have e : (massed s (some βc) (some (c * Mc)) (some βs) (some (d * Ms))).applyResponse q = t.applyResponse q := by
        unfold applyResponse
        rw [h1, h2, h3]
        rfl
      rw [e] at hr
      obtain ⟨g, _, h⟩ := respond_eq t q r hr
      exact ⟨_, h q'⟩
    simp only [List.mem_cons, List.not_mem_nil, or_false] at hF
    rcases hF with rfl | rfl | rfl <;> exact hx _ _ _ hr
  obtain ⟨r', hr'⟩ := hres (aligned (c ^ (-βc)) (d ^ (-βs)) (massed s (some βc) (some Mc) (some βs) (some Ms))) rfl rfl rfl
  refine ⟨r', hr', fun b z => ?_⟩
  obtain ⟨u, hu, su⟩ := C166_rescaling (s := s) _ _ _ _ b z f hF r hr
  rw [swap] at hr'
  obtain ⟨v, hv, sv⟩ := C166_rescaling (s := aligned (c ^ (-βc)) (d ^ (-βs)) s) _ _ _ _ b z f hF r' hr'
  have hf' : (aligned (c ^ (-βc)) (d ^ (-βs)) s).nonlinearMode ≠ .fortuna := hf
  rw [if_neg hf, piv hc hMc, piv hd hMs] at hu
  rw [if_neg hf', two] at hv
  have same : ∀ β M, factor (aligned (c ^ (-βc)) (d ^ (-βs)) s) β M b z = factor s β M b z := fun _ _ => rfl
  rw [same, same, mul_comm, mul_comm (factor s (some βs) (some Ms) b z), hu] at hv
  have := Except.ok.inj hv
  subst this
  intro k
  exact ⟨(su k).1.trans (sv k).1.symm, (su k).2.1.trans (sv k).2.1.symm, (su k).2.2.trans (sv k).2.2.symm⟩

/-- C166: where the mean halo mass of the bin is the pivot mass nothing happens; above it a positive slope makes the factor larger than one, below smaller, and
the factor of two bins is the power of the ratio of their mean masses, whatever the pivot. -/
theorem C166_factor {β M : ℝ} (hM : 0 < M) (hβ : 0 < β) (b z : ℕ) (hm : 0 < s.avgHaloMassCen b z / s.numberDensity b z) :
    let A := s.avgHaloMassCen b z / s.numberDensity b z
    (A = M → factor s (some β) (some M) b z = 1) ∧ (M < A → 1 < factor s (some β) (some M) b z) ∧ (A < M → factor s (some β) (some M) b z < 1) ∧
    ∀ b' z', 0 < s.avgHaloMassCen b' z' / s.numberDensity b' z' → factor s (some β) (some M) b z / factor s (some β) (some M) b' z' =
      (A / (s.avgHaloMassCen b' z' / s.numberDensity b' z')) ^ β := by
  intro A
  have e : factor s (some β) (some M) b z = (A / M) ^ β := rfl
  refine ⟨fun h => ?_, fun h => ?_, fun h => ?_, fun b' z' h => ?_⟩
  · rw [e, h, div_self hM.ne', Real.one_rpow]
  · rw [e]
    exact Real.one_lt_rpow ((one_lt_div hM).2 h) hβ
  · rw [e]
    exact Real.rpow_lt_one (div_nonneg hm.le hM.le) ((div_lt_one hM).2 h) hβ
  · have e' : factor s (some β) (some M) b' z' = (s.avgHaloMassCen b' z' / s.numberDensity b' z' / M) ^ β := rfl
    rw [e, e', ← Real.div_rpow (div_nonneg hm.le hM.le) (div_nonneg h.le hM.le), div_div_div_cancel_right₀ hM.ne']

/-! ## Non-vacuity -/

/-- the demonstration object: the mean mass is 2, so with slope 1 and pivot 1 the intrinsic power of the centrals is that of twice the amplitude -/
example : ∃ r r', (massed demo (some 1) (some 1) none none).powerSpectrumIi = .ok r ∧
    (aligned 2 1 (massed demo none none none none)).powerSpectrumIi = .ok r' ∧ SameAt r r' 0 0 := by
  obtain ⟨r', h, w⟩ := C166_rescaling (s := demo) (some 1) (some 1) none none 0 0 powerSpectrumIi (by simp) _ rfl
  have e : factor demo (some 1) (some 1) 0 0 = 2 := by
    simp only [factor, Option.bind_some, Option.map_some, Option.getD_some, demo, Real.rpow_one]
    norm_num
  rw [if_neg (by decide), e] at h
  exact ⟨_, r', rfl, h, w⟩

/-- the hypotheses of the pivot theorem hold for the demonstration object -/
example : ∃ r', (aligned ((3 : ℝ) ^ (-(1 : ℝ))) ((5 : ℝ) ^ (-(2 : ℝ))) (massed demo (some 1) (some 2) (some 2) (some 4))).powerSpectrumGi = .ok r' := by
  obtain ⟨r', h, _⟩ := C166_pivot (s := demo) (βc := 1) (Mc := 2) (βs := 2) (Ms := 4) (c := 3) (d := 5) (by decide) (by norm_num) (by norm_num)
    (by norm_num) (by norm_num) (fun b z => by simp only [demo]; norm_num) powerSpectrumGi (by simp) _ rfl
  exact ⟨r', h⟩

/-- the factor of the demonstration object at pivot 1 is above one -/
example : 1 < factor demo (some 1) (some 1) 0 0 :=
  (C166_factor (s := demo) one_pos one_pos 0 0 (by simp only [demo]; norm_num)).2.1 (by simp only [demo]; norm_num)

end Verif.Pk.MassDependence

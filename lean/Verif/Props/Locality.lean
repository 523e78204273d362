import Verif.Model.HmiProfiles
import Verif.Props.PkDemo
import Verif.Props.PkSigns
import Verif.Props.HodBase

/-! Property C157: results at one bin, redshift and wavenumber, and the rest of the grids. -/

namespace Verif.Pk.Locality

open Verif.Lib Verif.Spec Verif.Pk Verif.Pk.Spectra

/-- the entries of all arrays at other bins, redshifts and wavenumbers: `β`, `τ`, `ρ` say which entry of the old array each new entry is -/
noncomputable def pick (β τ ρ : ℕ → ℕ) (s : Spectra) : Spectra :=
  { s with
    zVec := fun z => s.zVec (τ z)
    kVec := fun k => s.kVec (ρ k)
    dndlnm := fun z => s.dndlnm (τ z)
    haloBias := fun z => s.haloBias (τ z)
    meanDensity0 := fun z => s.meanDensity0 (τ z)
    uDm := fun z k => s.uDm (τ z) (ρ k)
    uSat := fun z k => s.uSat (τ z) (ρ k)
    sigma8z := fun z => s.sigma8z (τ z)
    neff := fun z => s.neff (τ z)
    growthFactor := fun z => s.growthFactor (τ z)
    pkLin := fun z k => s.pkLin (τ z) (ρ k)
    pkNl := fun z k => s.pkNl (τ z) (ρ k)
    betaNl := fun z k => s.betaNl (τ z) (ρ k)
    fC := fun b z => s.fC (β b) (τ z)
    fS := fun b z => s.fS (β b) (τ z)
    hodCen := fun b z => s.hodCen (β b) (τ z)
    hodSat := fun b z => s.hodSat (β b) (τ z)
    numberDensity := fun b z => s.numberDensity (β b) (τ z)
    numberDensityCen := fun b z => s.numberDensityCen (β b) (τ z)
    numberDensitySat := fun b z => s.numberDensitySat (β b) (τ z)
    avgHaloMassCen := fun b z => s.avgHaloMassCen (β b) (τ z)
    fstar := fun b z => s.fstar (β b) (τ z)
    fstarMm := fun z => s.fstarMm (τ z)
    alignmentGi := fun z => s.alignmentGi (τ z)
    wkmSat := fun z k => s.wkmSat (τ z) (ρ k) }

/-- the entries of a result -/
def PkResult.pick (β τ ρ : ℕ → ℕ) (r : PkResult) : PkResult :=
  ⟨fun b z k => r.pk1h (β b) (τ z) (ρ k), fun b z k => r.pk2h (β b) (τ z) (ρ k), fun b z k => r.pkTot (β b) (τ z) (ρ k),
    r.galaxyLinearBias.map fun f b z k => f (β b) (τ z) (ρ k)⟩

variable (β τ ρ : ℕ → ℕ) (s : Spectra)

theorem matter_bin (s : Spectra) (r : PkResult) (h : s.powerSpectrumMmRaw = .ok r) (b b' z k : ℕ) : r.pkTot b z k = r.pkTot b' z k := by
  unfold powerSpectrumMmRaw at h
  split at h
  · cases h; rfl
  · split_ifs at h; cases h; rfl
  · cases h; rfl

theorem raw_matter : (pick β τ ρ s).powerSpectrumMmRaw = s.powerSpectrumMmRaw.map (PkResult.pick β τ ρ) := by
  have e1 : (pick β τ ρ s).nonlinearMode = s.nonlinearMode := rfl
  have e2 : (pick β τ ρ s).hmcodeIngredients = s.hmcodeIngredients := rfl
  have prof : ∀ z k, (pick β τ ρ s).matterProfile1hMm z k = s.matterProfile1hMm (τ z) (ρ k) := fun z k => by
    funext m
    unfold matterProfile1hMm
    rw [e2]
    cases s.hmcodeIngredients <;> rfl
  unfold powerSpectrumMmRaw
  simp only [e1, e2, prof]
  cases s.nonlinearMode
  case hmcode => simp only; split_ifs <;> rfl
  all_goals rfl

theorem respond {r r' : PkResult} (h : r' = PkResult.pick β τ ρ r) :
    (pick β τ ρ s).applyResponse r' = (s.applyResponse r).map (PkResult.pick β τ ρ) := by
  subst h
  have e : (pick β τ ρ s).response = s.response := rfl
  unfold applyResponse
  rw [e, raw_matter]
  cases s.response
  · rfl
  · simp only [if_true]
    cases hm : s.powerSpectrumMmRaw with
    | error e => rfl
    | ok mm =>
      have key : ∀ z k, (PkResult.pick β τ ρ mm).pkTot 0 z k = mm.pkTot 0 (τ z) (ρ k) := fun z k => matter_bin s mm hm (β 0) 0 (τ z) (ρ k)
      simp only [Except.map, key]
      rfl

theorem profile_g (b z k : ℕ) : (pick β τ ρ s).matterProfile1hG b z k = s.matterProfile1hG (β b) (τ z) (ρ k) := by
  have e2 : (pick β τ ρ s).hmcodeIngredients = s.hmcodeIngredients := rfl
  funext m
  unfold matterProfile1hG
  rw [e2]
  cases s.hmcodeIngredients <;> rfl

theorem peff_pick (z k : ℕ) : (pick β τ ρ s).peffVal z k = s.peffVal (τ z) (ρ k) := rfl

/-- C157: no spectrum mixes bins, redshifts or wavenumbers.  Whatever entries of the arrays are kept, in whatever order, the six spectra of the kept
entries are the kept entries of the six spectra, including the bias, and fail in the same cases. -/
theorem C157_entries :
    (pick β τ ρ s).powerSpectrumMm = s.powerSpectrumMm.map (PkResult.pick β τ ρ) ∧
    (pick β τ ρ s).powerSpectrumGg = s.powerSpectrumGg.map (PkResult.pick β τ ρ) ∧
    (pick β τ ρ s).powerSpectrumGm = s.powerSpectrumGm.map (PkResult.pick β τ ρ) ∧
    (pick β τ ρ s).powerSpectrumMi = s.powerSpectrumMi.map (PkResult.pick β τ ρ) ∧
    (pick β τ ρ s).powerSpectrumIi = s.powerSpectrumIi.map (PkResult.pick β τ ρ) ∧
    (pick β τ ρ s).powerSpectrumGi = s.powerSpectrumGi.map (PkResult.pick β τ ρ) := by
  have e1 : (pick β τ ρ s).nonlinearMode = s.nonlinearMode := rfl
  have er : (pick β τ ρ s).response = s.response := rfl
  refine ⟨?_, respond β τ ρ s ?_, respond β τ ρ s ?_, respond β τ ρ s ?_, respond β τ ρ s ?_, respond β τ ρ s ?_⟩
  · unfold powerSpectrumMm
    rw [er, raw_matter]
    cases s.response <;> rfl
  · rfl
  · unfold powerSpectrumGmRaw
    simp only [profile_g]
    rfl
  · unfold powerSpectrumMiRaw
    simp only [profile_g, e1]
    cases s.nonlinearMode <;> rfl
  · unfold powerSpectrumIiRaw
    simp only [e1]
    cases s.nonlinearMode <;> rfl
  · unfold powerSpectrumGiRaw
    simp only [e1]
    cases s.nonlinearMode <;> rfl

/-- the spectra with profiles computed from the Fourier transforms `cen` and `sat` of halos and satellites -/
noncomputable def profiled (cen sat : ℕ → ℕ → ℕ → ℝ) (s : Spectra) : Spectra := { s with uDm := Hmi.uDm cen, uSat := Hmi.uSat sat }

/-- C157: wavenumbers after the first.  If the first wavenumber is kept, computing the profiles on the kept wavenumbers gives the kept entries. -/
theorem C157_keep_first (h : ρ 0 = 0) (cen sat : ℕ → ℕ → ℕ → ℝ) :
    profiled (fun z k => cen (τ z) (ρ k)) (fun z k => sat (τ z) (ρ k)) (pick β τ ρ s) = pick β τ ρ (profiled cen sat s) := by
  unfold profiled pick Hmi.uDm Hmi.uSat
  simp only [h]

/-- C157: without the first wavenumber.  Profiles are divided by their value at the first wavenumber of the grid.  If transforms fall with the
wavenumber, leaving out the first wavenumbers raises the profiles, the one-halo matter power and the two-halo integral at every wavenumber that is kept. -/
theorem C157_drop_first (cen sat : ℕ → ℕ → ℕ → ℝ) {z k : ℕ} (g : GentleGrid s.nm s.mass)
    (hm : ∀ m < s.nm, 0 < s.mass m ∧ 0 ≤ s.dndlnm (τ z) m ∧ 0 ≤ s.haloBias (τ z) m) (ρ0 : 0 < s.meanDensity0 (τ z))
    (hc : ∀ m < s.nm, 0 < cen (τ z) (ρ 0) m ∧ 0 ≤ cen (τ z) (ρ k) m ∧ cen (τ z) (ρ 0) m ≤ cen (τ z) 0 m) :
    let new := profiled (fun z k => cen (τ z) (ρ k)) (fun z k => sat (τ z) (ρ k)) (pick β τ ρ s)
    let old := profiled cen sat s
    (∀ m < s.nm, new.uDm z k m = old.uDm (τ z) (ρ k) m * (cen (τ z) 0 m / cen (τ z) (ρ 0) m) ∧ old.uDm (τ z) (ρ k) m ≤ new.uDm z k m) ∧
    old.compute1hTerm (old.matterProfile (τ z) (ρ k)) (old.matterProfile (τ z) (ρ k)) (τ z) ≤
      new.compute1hTerm (new.matterProfile z k) (new.matterProfile z k) z ∧
    old.imTerm (τ z) (ρ k) ≤ new.imTerm z k := by
  intro new old
  have U : ∀ m < s.nm, new.uDm z k m = old.uDm (τ z) (ρ k) m * (cen (τ z) 0 m / cen (τ z) (ρ 0) m) ∧ 0 ≤ old.uDm (τ z) (ρ k) m ∧
      old.uDm (τ z) (ρ k) m ≤ new.uDm z k m := fun m hmm => by
    obtain ⟨c0, ck, le⟩ := hc m hmm
    have c1 : 0 < cen (τ z) 0 m := c0.trans_le le
    change cen (τ z) (ρ k) m / cen (τ z) (ρ 0) m = cen (τ z) (ρ k) m / cen (τ z) 0 m * (cen (τ z) 0 m / cen (τ z) (ρ 0) m) ∧
      0 ≤ cen (τ z) (ρ k) m / cen (τ z) 0 m ∧ cen (τ z) (ρ k) m / cen (τ z) 0 m ≤ cen (τ z) (ρ k) m / cen (τ z) (ρ 0) m
    refine ⟨by field_simp, div_nonneg ck c1.le, div_le_div_of_nonneg_left ck c0 le⟩
  refine ⟨fun m hmm => ⟨(U m hmm).1, (U m hmm).2.2⟩, ?_, ?_⟩
  · refine simpson_mono g fun m hmm => ?_
    obtain ⟨m0, d0, -⟩ := hm m hmm
    obtain ⟨-, u0, u1⟩ := U m hmm
    have p0 : 0 ≤ old.matterProfile (τ z) (ρ k) m := mul_nonneg (div_nonneg m0.le ρ0.le) u0
    have p1 : old.matterProfile (τ z) (ρ k) m ≤ new.matterProfile z k m := mul_le_mul_of_nonneg_left u1 (div_nonneg m0.le ρ0.le)
    change old.matterProfile (τ z) (ρ k) m * old.matterProfile (τ z) (ρ k) m * s.dndlnm (τ z) m / s.mass m ≤
      new.matterProfile z k m * new.matterProfile z k m * s.dndlnm (τ z) m / s.mass m
    exact div_le_div_of_nonneg_right (mul_le_mul_of_nonneg_right (mul_le_mul p1 p1 p0 (p0.trans p1)) d0) m0.le
  · refine add_le_add (simpson_mono g fun m hmm => ?_) le_rfl
    obtain ⟨m0, d0, b0⟩ := hm m hmm
    exact mul_le_mul_of_nonneg_right (mul_le_mul_of_nonneg_left (U m hmm).2.2 (mul_nonneg b0 d0)) (by positivity)

/-- an occupation model on part of the redshifts of the halos -/
noncomputable def pickHalos (n : ℕ) (τ : ℕ → ℕ) (h : Hod.Base) : Hod.Base :=
  { h with
    nzv := n
    zVec := fun i => h.zVec (τ i)
    dndlnm := fun i => h.dndlnm (τ i)
    haloBias := fun i => h.haloBias (τ i) }

theorem interp1d_congr {n : ℕ} (hn : 2 ≤ n) (fill : Fill) {x y w : ℕ → ℝ} (h : ∀ i < n, y i = w i) (q : ℝ) :
    interp1d fill n x y q = interp1d fill n x w q := by
  cases fill <;> simp only [interp1d, interpLinear_congr hn h]

/-- C157: redshifts of galaxies.  Numbers of galaxies are counted at the redshifts of the sample, with halos interpolated from the grid of the spectra.
If the redshifts of the sample are kept, everything handed to the spectra is unchanged at the kept redshifts. -/
theorem C157_sample_kept {n : ℕ} {h : Hod.Base} (hn : 2 ≤ n) (hn' : 2 ≤ h.nzv) (hnz : 2 ≤ h.nz) (hs : SortedOn h.nzv h.zVec) (hτ : ∀ i j, i < j → j < n → τ i < τ j)
    (hlt : ∀ i < n, τ i < h.nzv) {b : ℕ} (hz : ∀ j < h.nz, ∃ i < n, h.z b j = h.zVec (τ i)) (i : ℕ) :
    (pickHalos n τ h).numberDensity b i = h.numberDensity b (τ i) ∧ (pickHalos n τ h).numberDensityCen b i = h.numberDensityCen b (τ i) ∧
    (pickHalos n τ h).numberDensitySat b i = h.numberDensitySat b (τ i) ∧ (pickHalos n τ h).fC b i = h.fC b (τ i) ∧
    (pickHalos n τ h).fS b i = h.fS b (τ i) ∧ (pickHalos n τ h).galaxyLinearBias b i = h.galaxyLinearBias b (τ i) ∧
    (pickHalos n τ h).avgHaloMassCen b i = h.avgHaloMassCen b (τ i) := by
  set g := pickHalos n τ h with hg
  have sorted : SortedOn n g.zVec := fun i j hij hj => hs _ _ (hτ i j hij hj) (hlt j hj)
  have D : ∀ j < h.nz, ∀ m, g.dndlnmInt b j m = h.dndlnmInt b j m ∧ g.haloBiasInt b j m = h.haloBiasInt b j m := fun j hj m => by
    obtain ⟨i, hi, e⟩ := hz j hj
    have e' : g.z b j = g.zVec i := e
    unfold Hod.Base.dndlnmInt Hod.Base.haloBiasInt
    rw [e', e]
    have a := interp1d_node (n := g.nzv) hn sorted .extrapolate (fun i => g.dndlnm i m) hi
    have c := interp1d_node (n := g.nzv) hn sorted .extrapolate (fun i => g.haloBias i m) hi
    rw [a, c, interp1d_node hn' hs _ _ (hlt i hi), interp1d_node hn' hs _ _ (hlt i hi)]
    exact ⟨rfl, rfl⟩
  have M : ∀ (N : ℕ → ℕ → ℕ → ℝ), ∀ j < h.nz, g.massIntegral N b j = h.massIntegral N b j ∧ g.meanMassIntegral N b j = h.meanMassIntegral N b j :=
    fun N j hj => by
      unfold Hod.Base.massIntegral Hod.Base.meanMassIntegral
      simp only [(D j hj _).1]
      exact ⟨rfl, rfl⟩
  have T : ∀ j < h.nz, g.ntot b j = h.ntot b j := fun j hj => (M h.occ j hj).1
  have B : ∀ (N : ℕ → ℕ → ℕ → ℝ), ∀ j < h.nz, g.biasIntegral N b j = h.biasIntegral N b j := fun N j hj => by
    unfold Hod.Base.biasIntegral
    simp only [(D j hj _).1, (D j hj _).2, T j hj]
    rfl
  have I : ∀ (fill : Fill) (f f' : ℕ → ℕ → ℝ), (∀ j < h.nz, f b j = f' b j) → g.interpolate fill f b i = h.interpolate fill f' b (τ i) :=
    fun fill f f' e => interp1d_congr hnz fill e _
  refine ⟨I _ _ _ T, I _ _ _ fun j hj => (M h.occCen j hj).1, I _ _ _ fun j hj => (M h.occSat j hj).1, I _ _ _ fun j hj => ?_, I _ _ _ fun j hj => ?_,
    I _ _ _ fun j hj => B h.occ j hj, I _ _ _ fun j hj => (M h.occCen j hj).2⟩
  · change g.massIntegral h.occCen b j / g.ntot b j = _
    rw [(M h.occCen j hj).1, T j hj]; rfl
  · change g.massIntegral h.occSat b j / g.ntot b j = _
    rw [(M h.occSat j hj).1, T j hj]; rfl

/-- C157: and if they are not kept.  Leave out the redshift of the sample, between two that are kept: halos are taken from the straight line between
the two, and the number of galaxies changes by what the line is above the halos counted before. -/
theorem C157_sample_dropped {h : Hod.Base} (hn : h.nzv = 3) (hs : SortedOn 3 h.zVec) {b j : ℕ} (hz : h.z b j = h.zVec 1) :
    let τ : ℕ → ℕ := fun i => 2 * i
    let line : ℕ → ℝ := fun m => h.dndlnm 0 m + (h.dndlnm 2 m - h.dndlnm 0 m) / (h.zVec 2 - h.zVec 0) * (h.zVec 1 - h.zVec 0)
    (pickHalos 2 τ h).ntot b j = h.ntot b j + simpson h.nm h.mass (fun m => h.occ b j m * (line m - h.dndlnm 1 m) / h.mass m) := by
  intro τ line
  have D : ∀ m, (pickHalos 2 τ h).dndlnmInt b j m = line m := fun m => by
    have h02 := hs 0 2 (by norm_num) (by norm_num)
    have h01 := hs 0 1 (by norm_num) (by norm_num)
    have h12 := hs 1 2 (by norm_num) (by norm_num)
    have hs2 : SortedOn 2 (pickHalos 2 τ h).zVec := sortedOn_of_step fun i hi => by
      obtain rfl : i = 0 := by omega
      exact h02
    set sl := (h.dndlnm 2 m - h.dndlnm 0 m) / (h.zVec 2 - h.zVec 0) with hsl
    have e : ∀ i < 2, (pickHalos 2 τ h).dndlnm i m = (h.dndlnm 0 m - sl * h.zVec 0) + sl * (pickHalos 2 τ h).zVec i := fun i hi => by
      have : h.zVec 2 - h.zVec 0 ≠ 0 := by linarith
      interval_cases i
      · change h.dndlnm 0 m = h.dndlnm 0 m - sl * h.zVec 0 + sl * h.zVec 0; ring
      · change h.dndlnm 2 m = h.dndlnm 0 m - sl * h.zVec 0 + sl * h.zVec 2
        have : sl * (h.zVec 2 - h.zVec 0) = h.dndlnm 2 m - h.dndlnm 0 m := by rw [hsl]; field_simp
        linarith
    have a := interpLinear_affine (n := 2) (by norm_num) hs2 (h.dndlnm 0 m - sl * h.zVec 0) sl (h.zVec 1)
    change interpLinear 2 (pickHalos 2 τ h).zVec (fun i => (pickHalos 2 τ h).dndlnm i m) (h.z b j) = _
    rw [hz, interpLinear_congr (by norm_num) e, a]
    change h.dndlnm 0 m - sl * h.zVec 0 + sl * h.zVec 1 = h.dndlnm 0 m + sl * (h.zVec 1 - h.zVec 0)
    ring
  have D' : ∀ m, h.dndlnmInt b j m = h.dndlnm 1 m := fun m => by
    unfold Hod.Base.dndlnmInt
    rw [hz, hn]
    exact interp1d_node (by norm_num) hs _ _ (by norm_num)
  unfold Hod.Base.ntot Hod.Base.massIntegral
  simp only [D, D']
  change simpson h.nm h.mass (fun m => h.occ b j m * line m / h.mass m) = simpson h.nm h.mass _ + _
  rw [← simpson_add]
  refine congrArg _ (funext fun m => ?_)
  ring

/-- every second wavenumber of the demonstration object -/
example (k : ℕ) : ∃ r r', demo.powerSpectrumMm = .ok r ∧ (pick id id (fun k => 2 * k) demo).powerSpectrumMm = .ok r' ∧ r'.pk1h 0 0 k = r.pk1h 0 0 (2 * k) := by
  have h := (C157_entries id id (fun k => 2 * k) demo).1
  cases hm : demo.powerSpectrumMm with
  | ok r => rw [hm] at h; exact ⟨r, _, rfl, h, rfl⟩
  | error e => simp [powerSpectrumMm, powerSpectrumMmRaw, demo] at hm

example : profiled demoRaw demoRaw demo = demo := rfl

example := C157_drop_first id id (fun k => k + 1) demo demoRaw demoRaw (z := 0) (k := 0) demo_gentle
  (fun m _ => ⟨by simp only [demo]; positivity, by simp only [demo]; positivity, by simp [demo]⟩) (by norm_num [demo])
  (fun m _ => ⟨by simp only [demoRaw]; positivity, by simp only [demoRaw]; positivity, by
    simp only [demoRaw, id]
    refine div_le_div_of_nonneg_left (by positivity) (by norm_num) (by norm_num)⟩)

/-- halos at four redshifts, galaxies at the second and fourth of them -/
noncomputable def four : Hod.Base :=
  { Hod.demo with
    nzv := 4
    z := fun _ j => 2 * j + 1 }

example (i : ℕ) := C157_sample_kept (n := 3) (fun i => i + 1) (h := four) (b := 0) (by norm_num) (by simp [four]) (by simp [four, Hod.demo])
  (sortedOn_of_step fun i _ => by simp only [four, Hod.demo]; push_cast; linarith) (by intros; omega) (fun i hi => by simp only [four]; omega)
  (fun j hj => by
    have hj : j < 2 := hj
    refine ⟨2 * j, by omega, ?_⟩
    simp only [four, Hod.demo]
    push_cast
    ring) i

/-- halos that grow in number like the square of the redshift -/
noncomputable def growing : Hod.Base :=
  { Hod.demo with
    nzv := 3
    dndlnm := fun i m => ((m : ℝ) + 1) * (i : ℝ) ^ 2
    z := fun _ _ => 1 }

example : (pickHalos 2 (fun i => 2 * i) growing).ntot 0 0 ≠ growing.ntot 0 0 := by
  have := C157_sample_dropped (h := growing) (b := 0) (j := 0) rfl (sortedOn_of_step fun i _ => by simp only [growing, Hod.demo]; push_cast; linarith)
    (by simp [growing, Hod.demo])
  rw [this]
  have e := Hod.demo_simpson
  change ∀ y, simpson growing.nm growing.mass y = _ at e
  rw [e]
  simp [growing, Hod.demo, Hod.Base.occ]
  norm_num

end Verif.Pk.Locality

import Verif.Props.Feedback

/-! Property C163: what switching on point masses changes. -/

namespace Verif.Pk.PointMass

open Verif.Lib Verif.Spec Verif.Pk Spectra ProfileOrder Feedback

/-- the same object with the option `pointmass` on or off -/
def point (s : Spectra) (x : Bool) : Spectra := { s with pointmass := x }

/-- share of its gas that a halo keeps -/
noncomputable def kept (s : Spectra) (m : ℕ) : ℝ := (s.mass m / s.mb) ^ 2 / (1 + (s.mass m / s.mb) ^ 2)

/-- what the smooth part of a halo loses in its mass when stars become point masses: everything but cold matter and the gas that is kept -/
noncomputable def removed (s : Spectra) (b z m : ℕ) : ℝ :=
  1 - s.omegaC / s.omegaM - (s.omegaB / s.omegaM - s.fstar b z m) * kept s m

variable {s : Spectra} {b z k : ℕ}

theorem same (s : Spectra) (x y : Bool) : SameHalos (point s x) (point s y) :=
  ⟨s.hmcodeIngredients, s.log10TAGN, s.mb, y, s.fstar, s.fstarMm, rfl⟩

theorem off_inputs (H : Inputs (point s true)) : Inputs (point s false) := by
  exact inputs_of (same s true false) H H.mb H.stars (fun _ => H.starsObs (Or.inr rfl)) H.starsMm

theorem response_same {x y : Bool} {q q' r r' : PkResult} (h : (point s x).applyResponse q = .ok r) (h' : (point s y).applyResponse q' = .ok r')
    (h2 : q.pk2h = q'.pk2h) (hb : q.galaxyLinearBias = q'.galaxyLinearBias) : r.pk2h = r'.pk2h ∧ r.galaxyLinearBias = r'.galaxyLinearBias := by
  have e : (point s x).powerSpectrumMmRaw = (point s y).powerSpectrumMmRaw := rfl
  have ex : (point s x).response = s.response := rfl
  have ey : (point s y).response = s.response := rfl
  unfold applyResponse at h h'
  rw [ex, e] at h
  rw [ey] at h'
  cases hr : s.response
  · rw [hr] at h h'
    rw [← Except.ok.inj h, ← Except.ok.inj h']
    exact ⟨h2, hb⟩
  · rw [hr] at h h'
    cases hm : (point s y).powerSpectrumMmRaw with
    | error e => rw [hm] at h; cases h
    | ok mm =>
      rw [hm] at h h'
      rw [← Except.ok.inj h, ← Except.ok.inj h']
      refine ⟨?_, hb⟩
      dsimp only
      rw [h2]
      rfl

/-- C163: clustering, matter, shapes with shapes and galaxies with shapes do not know the option, the matter power included; with a recipe for baryons
nothing knows it; and it never enters two-halo terms or reported biases. -/
theorem C163_untouched (x y : Bool) :
    (point s x).powerSpectrumGg = (point s y).powerSpectrumGg ∧ (point s x).powerSpectrumMm = (point s y).powerSpectrumMm ∧
    (point s x).powerSpectrumIi = (point s y).powerSpectrumIi ∧ (point s x).powerSpectrumGi = (point s y).powerSpectrumGi ∧
    (s.hmcodeIngredients ≠ .none → (point s x).powerSpectrumGm = (point s y).powerSpectrumGm ∧
      (point s x).powerSpectrumMi = (point s y).powerSpectrumMi) ∧
    ∀ f ∈ [powerSpectrumGm, powerSpectrumMi], ∀ r r', f (point s x) = .ok r → f (point s y) = .ok r' →
      r.pk2h = r'.pk2h ∧ r.galaxyLinearBias = r'.galaxyLinearBias := by
  refine ⟨rfl, rfl, rfl, rfl, fun h => ?_, ?_⟩
  · have e : (point s x).matterProfile1hG = (point s y).matterProfile1hG := by
      funext b z k m
      unfold matterProfile1hG
      change (match s.hmcodeIngredients with
        | .mead2020Feedback => _ | .mead2020 => _ | .fit => _ | .none => _) = (match s.hmcodeIngredients with
        | .mead2020Feedback => _ | .mead2020 => _ | .fit => _ | .none => _)
      cases hi : s.hmcodeIngredients
      · exact absurd hi h
      all_goals rfl
    have g : (point s x).powerSpectrumGmRaw = (point s y).powerSpectrumGmRaw := by
      unfold powerSpectrumGmRaw; rw [e]; rfl
    have i : (point s x).powerSpectrumMiRaw = (point s y).powerSpectrumMiRaw := by
      unfold powerSpectrumMiRaw; rw [e]; rfl
    exact ⟨by unfold powerSpectrumGm; rw [g]; rfl, by unfold powerSpectrumMi; rw [i]; rfl⟩
  · simp only [List.forall_mem_cons, List.not_mem_nil, false_implies, implies_true, and_true]
    refine ⟨fun r r' h h' => response_same h h' rfl rfl, fun r r' h h' => response_same h h' ?_ ?_⟩
    · unfold powerSpectrumMiRaw
      change (match s.nonlinearMode with | .bnl => _ | .fortuna => _ | _ => _ : PkResult).pk2h = (match s.nonlinearMode with | .bnl => _ | .fortuna => _ | _ => _ : PkResult).pk2h
      cases s.nonlinearMode <;> rfl
    · unfold powerSpectrumMiRaw
      change (match s.nonlinearMode with | .bnl => _ | .fortuna => _ | _ => _ : PkResult).galaxyLinearBias = (match s.nonlinearMode with | .bnl => _ | .fortuna => _ | _ => _ : PkResult).galaxyLinearBias
      cases s.nonlinearMode <;> rfl

/-- C163: one halo of mass `M`: stars are added as a point, and the smooth part loses what is not cold matter or kept gas.  The halo gains at a wavenumber
exactly where its profile has fallen below the ratio of the two. -/
theorem C163_halo (hi : s.hmcodeIngredients = .none) (b z k m : ℕ) :
    (point s true).matterProfile1hG b z k m - (point s false).matterProfile1hG b z k m =
      s.mass m / s.meanDensity0 z * (s.fstar b z m - removed s b z m * s.uDm z k m) ∧
    (0 < s.mass m / s.meanDensity0 z → ((point s false).matterProfile1hG b z k m ≤ (point s true).matterProfile1hG b z k m ↔
      removed s b z m * s.uDm z k m ≤ s.fstar b z m)) := by
  have e1 : (point s true).matterProfile1hG b z k m = s.matterProfileFit s.fstar b z k m := by
    unfold matterProfile1hG
    have : (point s true).hmcodeIngredients = .none := hi
    rw [this]; rfl
  have e0 : (point s false).matterProfile1hG b z k m = s.mass m / s.meanDensity0 z * s.uDm z k m := by
    unfold matterProfile1hG
    have : (point s false).hmcodeIngredients = .none := hi
    rw [this]; rfl
  have d : (point s true).matterProfile1hG b z k m - (point s false).matterProfile1hG b z k m =
      s.mass m / s.meanDensity0 z * (s.fstar b z m - removed s b z m * s.uDm z k m) := by
    rw [e1, e0]
    unfold matterProfileFit computeMatterProfileFit fgFit removed kept
    ring
  refine ⟨d, fun hx => ?_⟩
  rw [← sub_nonneg, d, mul_nonneg_iff_of_pos_left hx, sub_nonneg]

/-- C163: hence lensing gains, and the alignment of satellites with matter grows, where all halos are already faint at the wavenumber; and the reverse
where all are still nearly whole. -/
theorem C163_spectra (H : Inputs (point s true)) (hresp : s.response = false) (hi : s.hmcodeIngredients = .none) (b z k : ℕ) :
    ∃ gm gm' mi mi', (point s false).powerSpectrumGm = .ok gm ∧ (point s true).powerSpectrumGm = .ok gm' ∧
      (point s false).powerSpectrumMi = .ok mi ∧ (point s true).powerSpectrumMi = .ok mi' ∧
      ((∀ m < s.nm, removed s b z m * s.uDm z k m ≤ s.fstar b z m) → gm.pk1h b z k ≤ gm'.pk1h b z k ∧ gm.pkTot b z k ≤ gm'.pkTot b z k ∧
        mi'.pk1h b z k ≤ mi.pk1h b z k ∧ mi'.pkTot b z k ≤ mi.pkTot b z k) ∧
      ((∀ m < s.nm, s.fstar b z m ≤ removed s b z m * s.uDm z k m) → gm'.pk1h b z k ≤ gm.pk1h b z k ∧ gm'.pkTot b z k ≤ gm.pkTot b z k ∧
        mi.pk1h b z k ≤ mi'.pk1h b z k ∧ mi.pkTot b z k ≤ mi'.pkTot b z k) := by
  have A := C03_no_error (point s false) hresp
  have B := C03_no_error (point s true) hresp
  have H0 := off_inputs H
  refine ⟨_, _, _, _, A.2.1, B.2.1, A.2.2.1, B.2.2.1, fun h => ?_, fun h => ?_⟩
  · obtain ⟨gm, gm', mi, mi', a1, a2, a3, a4, g, m, -⟩ := gm_scaled H0 (same s false true) hresp (c := 1) le_rfl (fun _ => rfl) b z k (fun m hm => by
      rw [one_mul, ← sub_nonneg, (C163_halo hi b z k m).1]
      exact mul_nonneg (div_nonneg (H0.mass m hm).le (H0.density z).le) (sub_nonneg.2 (h m hm)))
    rw [Except.ok.inj (A.2.1.symm.trans a1), Except.ok.inj (B.2.1.symm.trans a2), Except.ok.inj (A.2.2.1.symm.trans a3),
      Except.ok.inj (B.2.2.1.symm.trans a4)]
    rw [one_mul, one_mul] at g
    rw [one_mul] at m
    exact ⟨g.1, g.2.2, m.1, m.2.2 rfl⟩
  · obtain ⟨gm, gm', mi, mi', a1, a2, a3, a4, g, m, -⟩ := gm_scaled H (same s true false) hresp (c := 1) le_rfl (fun _ => rfl) b z k (fun m hm => by
      rw [one_mul, ← sub_nonneg, ← neg_nonpos, neg_sub, (C163_halo hi b z k m).1]
      exact mul_nonpos_of_nonneg_of_nonpos (div_nonneg (H0.mass m hm).le (H0.density z).le) (sub_nonpos.2 (h m hm)))
    rw [Except.ok.inj (B.2.1.symm.trans a1), Except.ok.inj (A.2.1.symm.trans a2), Except.ok.inj (B.2.2.1.symm.trans a3),
      Except.ok.inj (A.2.2.1.symm.trans a4)]
    rw [one_mul, one_mul] at g
    rw [one_mul] at m
    exact ⟨g.1, g.2.2, m.1, m.2.2 rfl⟩

/-- C163: on the largest scales lensing can only lose: at the first wavenumber, with no more than all matter in cold matter and baryons, the one-halo term with
point masses is not above the one without, since expelled gas is not put anywhere. -/
theorem C163_first_wavenumber (H : Inputs (point s true)) (hresp : s.response = false) (hi : s.hmcodeIngredients = .none)
    (raw : ℕ → ℕ → ℕ → ℝ) (hu : s.uDm = Hmi.uDm raw) (hω : s.omegaC + s.omegaB ≤ s.omegaM) (b z : ℕ) (hraw : ∀ m < s.nm, raw z 0 m ≠ 0) :
    ∃ gm gm', (point s false).powerSpectrumGm = .ok gm ∧ (point s true).powerSpectrumGm = .ok gm' ∧
      gm'.pk1h b z 0 ≤ gm.pk1h b z 0 ∧ gm'.pkTot b z 0 ≤ gm.pkTot b z 0 := by
  obtain ⟨gm, gm', mi, mi', a1, a2, -, -, -, h⟩ := C163_spectra H hresp hi b z 0
  refine ⟨gm, gm', a1, a2, ?_⟩
  have := h fun m hm => by
    have hw : 0 < s.omegaM := H.omegaM
    have S : 0 ≤ s.fstar b z m ∧ s.fstar b z m ≤ s.omegaB / s.omegaM := H.starsObs (Or.inr rfl) b z m hm
    have G := gas_range (s.mass m) s.mb
    have q : s.omegaC / s.omegaM + s.omegaB / s.omegaM ≤ 1 := by rw [← add_div, div_le_one hw]; exact hω
    rw [hu, (C02_profiles_normalised raw z m (hraw m hm)).1, mul_one]
    unfold removed kept
    nlinarith [mul_nonneg (sub_nonneg.2 S.2) (sub_nonneg.2 G.2)]
  exact ⟨this.1, this.2.1⟩

/-- C163: where the profiles of all halos have vanished, lensing by the smooth halos and the one-halo matter power are gone, and the lensing by the stars alone
is left: the product of clustering and matter is zero, the square of lensing is not as soon as any galaxies with stars are left. -/
theorem C163_vanished (hresp : s.response = false) (hi : s.hmcodeIngredients = .none) (hmode : s.nonlinearMode ≠ .hmcode) :
    ∃ gm gm' mm, (point s false).powerSpectrumGm = .ok gm ∧ (point s true).powerSpectrumGm = .ok gm' ∧ (point s true).powerSpectrumMm = .ok mm ∧
      ∀ b z k, (∀ m < s.nm, s.uDm z k m = 0) → gm.pk1h b z k = 0 ∧ mm.pk1h b z k = 0 ∧
        gm'.pk1h b z k = (simpson s.nm s.mass fun m => (s.centralGalaxyProfile b z k m + s.satelliteGalaxyProfile b z k m)
          * (s.fstar b z m * (s.mass m / s.meanDensity0 z)) * s.dndlnm z m / s.mass m) * s.oneHaloTruncation k := by
  have A := C03_no_error (point s false) hresp
  have B := C03_no_error (point s true) hresp
  obtain ⟨mm, hm, hm1⟩ : ∃ mm, (point s true).powerSpectrumMm = .ok mm ∧ ∀ b z k, mm.pk1h b z k =
      s.compute1hTerm (s.matterProfile z k) (s.matterProfile z k) z * s.oneHaloTruncation k := by
    have r : (point s true).powerSpectrumMm = (point s true).powerSpectrumMmRaw := by
      unfold powerSpectrumMm
      have : (point s true).response = false := hresp
      rw [this]; rfl
    have w : ∀ z k, (point s true).matterProfile1hMm z k = s.matterProfile z k := fun z k => by
      funext m
      unfold matterProfile1hMm
      have : (point s true).hmcodeIngredients = .none := hi
      rw [this]; rfl
    have hn : (point s true).nonlinearMode = s.nonlinearMode := rfl
    rw [r]
    unfold powerSpectrumMmRaw
    rw [hn]
    cases hc : s.nonlinearMode
    case hmcode => exact absurd hc hmode
    all_goals exact ⟨_, rfl, fun b z k => by dsimp only; rw [w]; rfl⟩
  refine ⟨_, _, mm, A.2.1, B.2.1, hm, fun b z k hz => ⟨?_, ?_, ?_⟩⟩
  · change s.compute1hTerm (s.centralGalaxyProfile b z k) ((point s false).matterProfile1hG b z k) z * s.oneHaloTruncation k
      + s.compute1hTerm (s.satelliteGalaxyProfile b z k) ((point s false).matterProfile1hG b z k) z * s.oneHaloTruncation k = 0
    have w : ∀ v : ℕ → ℝ, s.compute1hTerm v ((point s false).matterProfile1hG b z k) z = 0 := fun v => by
      unfold compute1hTerm
      rw [← simpson_zero s.nm s.mass]
      refine simpson_congr_right fun m hmn => ?_
      have e0 : (point s false).matterProfile1hG b z k m = s.mass m / s.meanDensity0 z * s.uDm z k m := by
        unfold matterProfile1hG
        have : (point s false).hmcodeIngredients = .none := hi
        rw [this]; rfl
      rw [e0, hz m hmn]; ring
    rw [w, w]; ring
  · rw [hm1]
    have w : s.compute1hTerm (s.matterProfile z k) (s.matterProfile z k) z = 0 := by
      unfold compute1hTerm
      rw [← simpson_zero s.nm s.mass]
      refine simpson_congr_right fun m hmn => ?_
      unfold matterProfile computeMatterProfile
      rw [hz m hmn]; ring
    rw [w, zero_mul]
  · change s.compute1hTerm (s.centralGalaxyProfile b z k) ((point s true).matterProfile1hG b z k) z * s.oneHaloTruncation k
      + s.compute1hTerm (s.satelliteGalaxyProfile b z k) ((point s true).matterProfile1hG b z k) z * s.oneHaloTruncation k = _
    rw [← add_mul]
    unfold compute1hTerm
    rw [← simpson_add]
    congr 1
    refine simpson_congr_right fun m hmn => ?_
    have e1 : (point s true).matterProfile1hG b z k m = s.matterProfileFit s.fstar b z k m := by
      unfold matterProfile1hG
      have : (point s true).hmcodeIngredients = .none := hi
      rw [this]; rfl
    rw [e1]
    unfold matterProfileFit computeMatterProfileFit
    rw [hz m hmn]
    ring

/-! ## Non-vacuity -/

/-- the demonstration object, with stars -/
theorem demo_point : Inputs (point demo true) := by
  refine inputs_of ⟨_, _, _, _, _, _, rfl⟩ demo_inputs ?_ ?_ ?_ ?_
  · change (0 : ℝ) < 13.87
    norm_num
  · intro h; cases h
  · intro _ b z m _; simp only [point, demo]; norm_num
  · intro h; cases h

/-- at the first wavenumber the one-halo lensing of the demonstration object falls -/
example : ∃ gm gm', (point demo false).powerSpectrumGm = .ok gm ∧ (point demo true).powerSpectrumGm = .ok gm' ∧ gm'.pk1h 0 0 0 ≤ gm.pk1h 0 0 0 := by
  obtain ⟨gm, gm', a, b, c, -⟩ := C163_first_wavenumber demo_point rfl rfl demoRaw rfl (by simp only [demo]; norm_num) 0 0
    (fun m _ => by simp only [demoRaw]; positivity)
  exact ⟨gm, gm', a, b, c⟩

/-- halos of the demonstration object lose at the first wavenumber and gain at a larger one -/
example : demo.fstar 0 0 0 < removed demo 0 0 0 * demo.uDm 0 0 0 ∧ removed demo 0 0 0 * demo.uDm 0 99 0 < demo.fstar 0 0 0 := by
  have u0 : demo.uDm 0 0 0 = 1 := demo_uDm_zero 0 0
  have u1 : demo.uDm 0 99 0 = 1 / 100 := by simp only [demo, Hmi.uDm, demoRaw]; norm_num
  rw [u0, u1]
  simp only [removed, kept, demo]
  norm_num

/-- vanished profiles: what is left with point masses is positive -/
example : ∃ gm gm' mm, (point { demo with uDm := 0 } false).powerSpectrumGm = .ok gm ∧ (point { demo with uDm := 0 } true).powerSpectrumGm = .ok gm' ∧
    (point { demo with uDm := 0 } true).powerSpectrumMm = .ok mm ∧ gm.pk1h 0 0 0 = 0 ∧ mm.pk1h 0 0 0 = 0 ∧ 0 < gm'.pk1h 0 0 0 := by
  obtain ⟨gm, gm', mm, a, b, c, h⟩ := C163_vanished (s := { demo with uDm := 0 }) rfl rfl (by decide)
  obtain ⟨h1, h2, h3⟩ := h 0 0 0 (fun m _ => rfl)
  refine ⟨gm, gm', mm, a, b, c, h1, h2, ?_⟩
  rw [h3]
  refine mul_pos ?_ (demo_trunc_pos 0)
  change 0 < simpson demo.nm demo.mass _
  rw [demo_simpson]
  simp [demo, centralGalaxyProfile, satelliteGalaxyProfile, Hmi.uSat, demoRaw]
  norm_num

end Verif.Pk.PointMass

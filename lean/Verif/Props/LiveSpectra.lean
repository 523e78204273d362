import Verif.Lemmas.LiveSpectra
import Verif.Props.ModeChange

namespace Verif.LiveSpectra

open Verif.Lib Verif.Cache Verif.SpectraDeps Verif.Pk

variable {X : Type} {ext : ℕ → Env X → Val X} {σ : String → Val X} {E : ℕ → Val X}

theorem at_matterProfile (h : Consistent ext σ E) : E matterProfile = .a3 (inputs σ E).matterProfile := by
  rw [h matterProfile (by decide)]; rfl

theorem at_matterProfile2h (h : Consistent ext σ E) : E matterProfile2h = .a3 (inputs σ E).matterProfile2h := by
  rw [h matterProfile2h (by decide)]; rfl

theorem at_matterProfileFeedback (h : Consistent ext σ E) : E matterProfileFeedback = .a3 (inputs σ E).matterProfileWithFeedback := by
  rw [h matterProfileFeedback (by decide)]; rfl

theorem at_missingMass (h : Consistent ext σ E) : E missingMass = .a1 0 (inputs σ E).aTerm := by
  rw [h missingMass (by decide)]; rfl

theorem at_trapezoidalWeights (h : Consistent ext σ E) : E trapezoidalWeights = .a1 (E mass).len (inputs σ E).trapezoidalWeights := by
  rw [h trapezoidalWeights (by decide)]; rfl

theorem at_powerSpectrumLin (h : Consistent ext σ E) : E powerSpectrumLin = .a2 (inputs σ E).pkLin := by
  rw [h powerSpectrumLin (by decide)]; rfl

theorem at_fstar (h : Consistent ext σ E) : E fstar = .a3 (inputs σ E).fstar := by
  rw [h fstar (by decide)]; rfl

theorem at_massAvg (h : Consistent ext σ E) : E massAvg = .a2 (inputs σ E).massAvg := by
  rw [h massAvg (by decide)]; rfl

theorem at_centralProfile (h : Consistent ext σ E) : E centralProfile = .a4 (inputs σ E).centralGalaxyProfile := by
  rw [h centralProfile (by decide)]; rfl

theorem at_satelliteProfile (h : Consistent ext σ E) : E satelliteProfile = .a4 (inputs σ E).satelliteGalaxyProfile := by
  rw [h satelliteProfile (by decide)]; rfl

theorem at_alignmentGi (h : Consistent ext σ E) : E alignmentGi = .a1 0 (inputs σ E).alignmentGi := by
  rw [h alignmentGi (by decide)]; rfl


theorem at_aTerm (h : Consistent ext σ E) : E aTerm = .a1 0 (inputs σ E).aTerm := by
  rw [h aTerm (by decide)]
  show Val.a1 0 (E missingMass).v1 = _
  rw [at_missingMass h]; rfl

theorem at_imTerm (h : Consistent ext σ E) : E imTerm = .a2 (inputs σ E).imTerm := by
  rw [h imTerm (by decide)]
  show Val.a2 (fun z k => (inputs σ E).computeImTerm z k + (E aTerm).v1 z) = _
  rw [at_aTerm h]; rfl

theorem at_oneHaloTruncation (h : Consistent ext σ E) : E oneHaloTruncation = .a1 0 (inputs σ E).oneHaloTruncation := by
  rw [h oneHaloTruncation (by decide)]
  have : seen σ E (body oneHaloTruncation) (Env.empty X)
      = (Env.empty X |>.setP "one_halo_ktrunc" (σ "one_halo_ktrunc")).setP "k_vec" (σ "k_vec") := by
    show (if _ then _ else _) = _
    split_ifs <;> rfl
  rw [this]; rfl

theorem at_twoHaloTruncation (h : Consistent ext σ E) : E twoHaloTruncation = .a1 0 (inputs σ E).twoHaloTruncation := by
  rw [h twoHaloTruncation (by decide)]
  have : seen σ E (body twoHaloTruncation) (Env.empty X)
      = (Env.empty X |>.setP "two_halo_ktrunc" (σ "two_halo_ktrunc")).setP "k_vec" (σ "k_vec") := by
    show (if _ then _ else _) = _
    split_ifs <;> rfl
  rw [this]; rfl

theorem at_oneHaloTruncationIa (h : Consistent ext σ E) :
    E oneHaloTruncationIa = .a1 0 (inputs σ E).oneHaloTruncationIa := by
  rw [h oneHaloTruncationIa (by decide)]
  have : seen σ E (body oneHaloTruncationIa) (Env.empty X)
      = (Env.empty X |>.setP "one_halo_ktrunc_ia" (σ "one_halo_ktrunc_ia")).setP "k_vec" (σ "k_vec") := by
    show (if _ then _ else _) = _
    split_ifs <;> rfl
  rw [this]; rfl

theorem at_twoHaloTruncationIa (h : Consistent ext σ E) :
    E twoHaloTruncationIa = .a1 0 (inputs σ E).twoHaloTruncationIa := by
  rw [h twoHaloTruncationIa (by decide)]
  have : seen σ E (body twoHaloTruncationIa) (Env.empty X)
      = (Env.empty X |>.setP "two_halo_ktrunc_ia" (σ "two_halo_ktrunc_ia")).setP "k_vec" (σ "k_vec") := by
    show (if _ then _ else _) = _
    split_ifs <;> rfl
  rw [this]; rfl

theorem at_icTerm (h : Consistent ext σ E) : E icTerm = .a3 (inputs σ E).icTerm := by
  rw [h icTerm (by decide)]
  show Val.a3 (fun b z k => (inputs σ E).computeIgTerm ((E centralProfile).v4 b z k) z) = _
  rw [at_centralProfile h]; rfl

theorem at_isTerm (h : Consistent ext σ E) : E isTerm = .a3 (inputs σ E).isTerm := by
  rw [h isTerm (by decide)]
  show Val.a3 (fun b z k => (inputs σ E).computeIgTerm ((E satelliteProfile).v4 b z k) z) = _
  rw [at_satelliteProfile h]; rfl

theorem opt_elim (o : Option ℝ) : (o.elim Val.none Val.num : Val X).toOpt = o := by cases o <;> rfl

theorem at_betaCen (h : Consistent ext σ E) : (E betaCen).toOpt = (inputs σ E).betaCen := by
  rw [h betaCen (by decide)]; exact opt_elim _
theorem at_betaSat (h : Consistent ext σ E) : (E betaSat).toOpt = (inputs σ E).betaSat := by
  rw [h betaSat (by decide)]; exact opt_elim _
theorem at_mpivotCen (h : Consistent ext σ E) : (E mpivotCen).toOpt = (inputs σ E).mpivotCen := by
  rw [h mpivotCen (by decide)]; exact opt_elim _
theorem at_mpivotSat (h : Consistent ext σ E) : (E mpivotSat).toOpt = (inputs σ E).mpivotSat := by
  rw [h mpivotSat (by decide)]; exact opt_elim _

theorem at_c1 (h : Consistent ext σ E) : E c1 = .a1 0 (inputs σ E).c1 := by
  rw [h c1 (by decide)]
  show Val.a1 0 (fun z => 5e-14 * (E alignmentGi).v1 z) = _
  rw [at_alignmentGi h]; rfl

theorem at_amplitude2h (h : Consistent ext σ E) : E amplitude2h = .a1 0 (inputs σ E).alignmentAmplitude2h := by
  rw [h amplitude2h (by decide)]
  show Val.a1 0 (fun z => -1 * ((E c1).v1 z * (E meanDensity0).v1 z / (E growthFactor).v1 z)) = _
  rw [at_c1 h]; rfl

theorem at_amplitude2hII (h : Consistent ext σ E) : E amplitude2hII = .a1 0 (inputs σ E).alignmentAmplitude2hII := by
  rw [h amplitude2hII (by decide)]
  show Val.a1 0 (fun z => ((E c1).v1 z * (E meanDensity0).v1 z / (E growthFactor).v1 z) ^ 2) = _
  rw [at_c1 h]; rfl

theorem at_centralAlignment (h : Consistent ext σ E) : E centralAlignment = .a4 (inputs σ E).centralAlignmentProfile := by
  rw [h centralAlignment (by decide)]
  show Val.a4 (fun b z _ m => (E hod).toHod.fC b z * ((E c1).v1 z / (E growthFactor).v1 z) * (E mass).v1 m
      * Env.massFactor (E betaCen).toOpt (E mpivotCen).toOpt ((E massAvg).v2 b z)) = _
  rw [at_c1 h, at_betaCen h, at_mpivotCen h, at_massAvg h]; rfl

theorem at_satelliteAlignment (h : Consistent ext σ E) :
    E satelliteAlignment = .a4 (inputs σ E).satelliteAlignmentProfile := by
  rw [h satelliteAlignment (by decide)]
  show Val.a4 (fun b z k m => (E hod).toHod.fS b z * (E hod).toHod.hodSat b z m * (E wkmSat).v3 z k m
      / (E hod).toHod.numberDensitySat b z
      * Env.massFactor (E betaSat).toOpt (E mpivotSat).toOpt ((E massAvg).v2 b z)) = _
  rw [at_betaSat h, at_mpivotSat h, at_massAvg h]; rfl

theorem at_icAlign (h : Consistent ext σ E) : E icAlign = .a3 (inputs σ E).icAlignTerm := by
  rw [h icAlign (by decide)]
  show Val.a3 (fun b z k => (inputs σ E).computeIgTerm ((E centralAlignment).v4 b z k) z
      + (E aTerm).v1 z * (E centralAlignment).v4 b z k 0 * (E meanDensity0).v1 z / (E mass).v1 0) = _
  rw [at_centralAlignment h, at_aTerm h]; rfl

theorem at_isAlign (h : Consistent ext σ E) : E isAlign = .a3 (inputs σ E).isAlignTerm := by
  rw [h isAlign (by decide)]
  show Val.a3 (fun b z k => (inputs σ E).computeIgTerm ((E satelliteAlignment).v4 b z k) z
      + (E aTerm).v1 z * (E satelliteAlignment).v4 b z k 0 * (E meanDensity0).v1 z / (E mass).v1 0) = _
  rw [at_satelliteAlignment h, at_aTerm h]; rfl

/-! ## Quantities that branch -/

theorem at_peff (h : Consistent ext σ E) (hm : (inputs σ E).nonlinearMode = .fortuna) :
    E peff = .a2 (inputs σ E).peffVal := by
  rw [h peff (by decide)]
  have hf : holds .fortuna (σ "nonlinear_mode") = true := by rw [holds_fortuna]; exact decide_eq_true hm
  have : seen σ E (body peff) (Env.empty X) = (((Env.empty X |>.setP "nonlinear_mode" (σ "nonlinear_mode")).setP "t_eff"
      (σ "t_eff")).setQ pkNl (E pkNl)).setQ pkLin (E pkLin) := if_pos hf
  rw [this]
  refine (if_pos hf).trans ?_
  congr 1
  funext z k
  show _ = ((inputs σ E).peff z k).getD 0
  unfold Spectra.peff
  rw [if_pos hm]
  rfl

theorem at_i12 (h : Consistent ext σ E) (hm : (inputs σ E).nonlinearMode = .bnl) : E i12 = .a3 (inputs σ E).i12 := by
  rw [h i12 (by decide)]
  have hf : holds .bnl (σ "nonlinear_mode") = true := by rw [holds_bnl]; exact decide_eq_true hm
  have : seen σ E (body i12) (Env.empty X) = ((((Env.empty X |>.setP "nonlinear_mode" (σ "nonlinear_mode")).setQ haloBias
      (E haloBias)).setQ dndlnm (E dndlnm)).setQ betaNlArray (E betaNlArray)).setQ mass (E mass) := if_pos hf
  rw [this]
  exact if_pos hf

theorem at_i21 (h : Consistent ext σ E) (hm : (inputs σ E).nonlinearMode = .bnl) : E i21 = .a3 (inputs σ E).i21 := by
  rw [h i21 (by decide)]
  have hf : holds .bnl (σ "nonlinear_mode") = true := by rw [holds_bnl]; exact decide_eq_true hm
  have : seen σ E (body i21) (Env.empty X) = ((((Env.empty X |>.setP "nonlinear_mode" (σ "nonlinear_mode")).setQ haloBias
      (E haloBias)).setQ dndlnm (E dndlnm)).setQ betaNlArray (E betaNlArray)).setQ mass (E mass) := if_pos hf
  rw [this]
  exact if_pos hf

theorem at_i22 (h : Consistent ext σ E) (hm : (inputs σ E).nonlinearMode = .bnl) : E i22 = .a4 (inputs σ E).i22 := by
  rw [h i22 (by decide)]
  have hf : holds .bnl (σ "nonlinear_mode") = true := by rw [holds_bnl]; exact decide_eq_true hm
  have : seen σ E (body i22) (Env.empty X) = ((((Env.empty X |>.setP "nonlinear_mode" (σ "nonlinear_mode")).setQ haloBias
      (E haloBias)).setQ dndlnm (E dndlnm)).setQ betaNlArray (E betaNlArray)).setQ mass (E mass) := if_pos hf
  rw [this]
  exact if_pos hf

/-- what the tests of the code say -/
abbrev tests (σ : String → Val X) (t : Test) : Bool := holds t (σ t.param)

theorem fits_bnl (hm : (σ "nonlinear_mode").mode = .bnl) : Fits (known [(.bnl, true)]) (tests σ) :=
  fits (by simp [tests, Test.param, holds_bnl, hm])

theorem fits_fortuna (hm : (σ "nonlinear_mode").mode = .fortuna) :
    Fits (known [(.bnl, false), (.hmcode, false), (.fortuna, true)]) (tests σ) :=
  fits (by simp [tests, Test.param, holds_bnl, holds_fortuna, holds_hmcode, hm])

theorem fits_none (hm : (σ "nonlinear_mode").mode = .none) :
    Fits (known [(.bnl, false), (.hmcode, false), (.fortuna, false)]) (tests σ) :=
  fits (by simp [tests, Test.param, holds_bnl, holds_fortuna, holds_hmcode, hm])

theorem fits_hmcode (hm : (σ "nonlinear_mode").mode = .hmcode) :
    Fits (known [(.bnl, false), (.hmcode, true), (.fortuna, false)]) (tests σ) :=
  fits (by simp [tests, Test.param, holds_bnl, holds_fortuna, holds_hmcode, hm])

theorem fits_hmcode_mead (hm : (σ "nonlinear_mode").mode = .hmcode) (hi : holds .mead (σ "hmcode_ingredients") = true) :
    Fits (known [(.bnl, false), (.hmcode, true), (.fortuna, false), (.mead, true)]) (tests σ) :=
  fits (by simp [tests, Test.param, holds_bnl, holds_fortuna, holds_hmcode, hm, hi])

theorem fits_feedback (hi : (σ "hmcode_ingredients").ingr = .mead2020Feedback) : Fits (known [(.feedback, true)]) (tests σ) :=
  fits (by simp [tests, Test.param, holds_feedback, hi])

theorem fits_mead2020 (hi : (σ "hmcode_ingredients").ingr = .mead2020) :
    Fits (known [(.feedback, false), (.mead2020, true)]) (tests σ) :=
  fits (by simp [tests, Test.param, holds_feedback, holds_mead2020, hi])

theorem fits_fit (hi : (σ "hmcode_ingredients").ingr = .fit) :
    Fits (known [(.feedback, false), (.mead2020, false), (.fit, true)]) (tests σ) :=
  fits (by simp [tests, Test.param, holds_feedback, holds_mead2020, holds_fit, hi])

theorem fits_plain (hi : (σ "hmcode_ingredients").ingr = .none) :
    Fits (known [(.feedback, false), (.mead2020, false), (.fit, false)]) (tests σ) :=
  fits (by simp [tests, Test.param, holds_feedback, holds_mead2020, holds_fit, hi])

theorem fits_point (hi : (σ "hmcode_ingredients").ingr = .none) (b : Bool) (hb : (σ "pointmass").truthy = b) :
    Fits (known [(.feedback, false), (.mead2020, false), (.fit, false), (.pointmass, b)]) (tests σ) :=
  fits (by simp [tests, Test.param, holds_feedback, holds_mead2020, holds_fit, hi]; exact hb)

theorem oneHalo_eq {e : Env X} (h1 : e.qty mass = E mass) (h2 : e.qty dndlnm = E dndlnm) :
    e.oneHalo = (inputs σ E).compute1hTerm := by
  funext u v z
  have hm : e.masses = (E mass).v1 := by funext m; rw [Env.masses, h1]
  simp only [Env.oneHalo, Env.nm, hm, Env.hmf, h1, h2]
  rfl

theorem iNL_eq (h : Consistent ext σ E) (hm : (inputs σ E).nonlinearMode = .bnl) {e : Env X}
    (hq : ∀ i ∈ [aTerm, meanDensity0, betaNlArray, i12, i21, i22, mass, trapezoidalWeights], e.qty i = E i) :
    e.iNL = (inputs σ E).iNL := by
  funext u v z k
  simp only [List.forall_mem_cons] at hq
  obtain ⟨h1, h2, h3, h4, h5, h6, h7, h8, -⟩ := hq
  simp only [Env.iNL, Env.trapz, Env.nm, Env.masses, Env.rho, h1, h2, h3, h4, h5, h6, h7, h8, at_aTerm h, at_i12 h hm,
    at_i21 h hm, at_i22 h hm, at_trapezoidalWeights h]
  rfl

theorem fitProfile_eq {e : Env X} (hq : ∀ i ∈ [mass, meanDensity0, uDm, omegaM], e.qty i = E i)
    (hp : ∀ s ∈ ["mb", "omega_c", "omega_b"], e.par s = σ s) (fstar : ℕ → ℕ → ℕ → ℝ) (b z k m : ℕ) :
    e.fitProfile (fstar b z m) z k m = (inputs σ E).matterProfileFit fstar b z k m := by
  simp only [List.forall_mem_cons] at hq hp
  obtain ⟨h1, h2, h3, h4, -⟩ := hq
  obtain ⟨p1, p2, p3, -⟩ := hp
  simp only [Env.fitProfile, Env.fgFit, Env.masses, Env.rho, h1, h2, h3, h4, p1, p2, p3]
  rfl

theorem profileMm_eq (h : Consistent ext σ E) :
    (seen σ E (body mmRaw) (Env.empty X)).profileMm = (inputs σ E).matterProfile1hMm := by
  have hp : (seen σ E (body mmRaw) (Env.empty X)).par "hmcode_ingredients" = σ "hmcode_ingredients" :=
    seen_par σ E (K := known []) (fits (by simp)) _ _ _ (by decide +kernel)
  funext z k m
  unfold Env.profileMm Spectra.matterProfile1hMm
  rw [hp]
  cases hi : (σ "hmcode_ingredients").ingr with
  | mead2020Feedback =>
    rw [show (inputs σ E).hmcodeIngredients = .mead2020Feedback from hi]
    simp only
    rw [seen_qty σ E (fits_feedback hi) _ _ matterProfileFeedback (by decide +kernel), at_matterProfileFeedback h]; rfl
  | mead2020 =>
    rw [show (inputs σ E).hmcodeIngredients = .mead2020 from hi]
    simp only
    rw [seen_qty σ E (fits_mead2020 hi) _ _ matterProfile (by decide +kernel), at_matterProfile h]; rfl
  | none =>
    rw [show (inputs σ E).hmcodeIngredients = .none from hi]
    simp only
    rw [seen_qty σ E (fits_plain hi) _ _ matterProfile (by decide +kernel), at_matterProfile h]; rfl
  | fit =>
    rw [show (inputs σ E).hmcodeIngredients = .fit from hi]
    simp only
    rw [seen_qty σ E (fits_fit hi) _ _ fstarMm (by decide +kernel)]
    exact fitProfile_eq (fun i hi' => seen_qty σ E (fits_fit hi) _ _ i
      ((show ∀ i ∈ [mass, meanDensity0, uDm, omegaM], i ∈ mustRead _ (body mmRaw) by decide +kernel) i hi'))
      (fun i hi' => seen_par σ E (fits_fit hi) _ _ i
      ((show ∀ i ∈ ["mb", "omega_c", "omega_b"], i ∈ mustPar _ (body mmRaw) by decide +kernel) i hi')) (fun _ => (inputs σ E).fstarMm) 0 z k m

theorem at_mmRaw (h : Consistent ext σ E) : E mmRaw = .result (inputs σ E).powerSpectrumMmRaw := by
  rw [h mmRaw (by decide)]
  show Val.result (seen σ E (body mmRaw) (Env.empty X)).mmRawVal = _
  congr 1
  have hp : (seen σ E (body mmRaw) (Env.empty X)).par "nonlinear_mode" = σ "nonlinear_mode" :=
    seen_par σ E (K := known []) (fits (by simp)) _ _ _ (by decide +kernel)
  have hp' : (seen σ E (body mmRaw) (Env.empty X)).par "hmcode_ingredients" = σ "hmcode_ingredients" :=
    seen_par σ E (K := known []) (fits (by simp)) _ _ _ (by decide +kernel)
  have hprof := profileMm_eq h
  unfold Env.mmRawVal Spectra.powerSpectrumMmRaw
  rw [hprof, hp, hp']
  cases hm : (σ "nonlinear_mode").mode with
  | none =>
    rw [show (inputs σ E).nonlinearMode = .none from hm]
    have q := fun i => seen_qty σ E (fits_none hm) (body mmRaw) (Env.empty X) i
    have q1 := q imTerm (by decide +kernel)
    have q2 := q twoHaloTruncation (by decide +kernel)
    have q3 := q oneHaloTruncation (by decide +kernel)
    have q4 := q pkLin (by decide +kernel)
    simp only [oneHalo_eq (σ := σ) (q mass (by decide +kernel)) (q dndlnm (by decide +kernel)), q1, q2, q3, q4, Env.plin,
      at_imTerm h, at_twoHaloTruncation h, at_oneHaloTruncation h]
    rfl
  | fortuna =>
    rw [show (inputs σ E).nonlinearMode = .fortuna from hm]
    have q := fun i => seen_qty σ E (fits_fortuna hm) (body mmRaw) (Env.empty X) i
    have q1 := q imTerm (by decide +kernel)
    have q2 := q twoHaloTruncation (by decide +kernel)
    have q3 := q oneHaloTruncation (by decide +kernel)
    have q4 := q pkLin (by decide +kernel)
    simp only [oneHalo_eq (σ := σ) (q mass (by decide +kernel)) (q dndlnm (by decide +kernel)), q1, q2, q3, q4, Env.plin,
      at_imTerm h, at_twoHaloTruncation h, at_oneHaloTruncation h]
    rfl
  | bnl =>
    rw [show (inputs σ E).nonlinearMode = .bnl from hm]
    have q := fun i => seen_qty σ E (fits_bnl hm) (body mmRaw) (Env.empty X) i
    have q1 := q imTerm (by decide +kernel)
    have q3 := q oneHaloTruncation (by decide +kernel)
    have q4 := q pkLin (by decide +kernel)
    have q5 := q matterProfile2h (by decide +kernel)
    have q6 := iNL_eq h hm (e := seen σ E (body mmRaw) (Env.empty X)) fun i hi => q i
      ((show ∀ i ∈ [aTerm, meanDensity0, betaNlArray, i12, i21, i22, mass, trapezoidalWeights],
        i ∈ mustRead (known [(.bnl, true)]) (body mmRaw) by decide +kernel) i hi)
    simp only [oneHalo_eq (σ := σ) (q mass (by decide +kernel)) (q dndlnm (by decide +kernel)), q1, q3, q4, q5, q6, Env.plin,
      at_imTerm h, at_oneHaloTruncation h, at_matterProfile2h h]
    rfl
  | hmcode =>
    rw [show (inputs σ E).nonlinearMode = .hmcode from hm]
    have e1 : (holds .mead (σ "hmcode_ingredients") = true) =
        ((inputs σ E).hmcodeIngredients = .mead2020Feedback ∨ (inputs σ E).hmcodeIngredients = .mead2020) := by
      rw [holds_mead, decide_eq_true_eq]; rfl
    simp only [← e1]
    by_cases hi : holds .mead (σ "hmcode_ingredients") = true
    · rw [if_pos hi, if_pos hi]
      have q := fun i => seen_qty σ E (fits_hmcode_mead hm hi) (body mmRaw) (Env.empty X) i
      have q1 := q sigma8Z (by decide +kernel)
      have q2 := q neff (by decide +kernel)
      have q4 := q pkLin (by decide +kernel)
      have p1 := seen_par σ E (fits_hmcode_mead hm hi) (body mmRaw) (Env.empty X) "k_vec" (by decide +kernel)
      simp only [oneHalo_eq (σ := σ) (q mass (by decide +kernel)) (q dndlnm (by decide +kernel)), q1, q2, q4, p1, Env.plin,
        Env.ks, Env.twoMead, Env.oneMead, Env.smoothing]
      rfl
    · rw [if_neg hi, if_neg hi]

theorem at_mm (h : Consistent ext σ E) : E mm = .result (inputs σ E).powerSpectrumMm := by
  rw [h mm (by decide)]
  have hr : holds .response (σ "response") = (inputs σ E).response := rfl
  unfold Spectra.powerSpectrumMm
  cases hb : (inputs σ E).response with
  | true =>
    rw [hb] at hr
    have : seen σ E (body mm) (Env.empty X) = (Env.empty X |>.setP "response" (σ "response")).setQ pkNl (E pkNl) := if_pos hr
    rw [this]
    exact if_pos hr
  | false =>
    rw [hb] at hr
    have hr' : ¬ holds .response (σ "response") = true := by rw [hr]; decide
    have : seen σ E (body mm) (Env.empty X) = (Env.empty X |>.setP "response" (σ "response")).setQ mmRaw (E mmRaw) := if_neg hr'
    rw [this]
    refine (if_neg hr').trans ?_
    show Val.result (E mmRaw).toResult = _
    rw [at_mmRaw h]
    rfl

theorem respond_eq (h : Consistent ext σ E) {e : Env X} (hp : e.par "response" = σ "response")
    (hq : (σ "response").truthy = true → e.qty pkNl = E pkNl ∧ e.qty mmRaw = E mmRaw) (r : PkResult) :
    e.respond r = .result ((inputs σ E).applyResponse r) := by
  unfold Env.respond Spectra.applyResponse
  rw [hp]
  by_cases hr : (σ "response").truthy = true
  · rw [if_pos hr, if_pos (show (inputs σ E).response = true from hr)]
    obtain ⟨h1, h2⟩ := hq hr
    simp only [h1, h2, at_mmRaw h, Val.toResult]
    cases (inputs σ E).powerSpectrumMmRaw <;> rfl
  · rw [if_neg hr, if_neg (show ¬ (inputs σ E).response = true from hr)]

theorem fits_response (hr : (σ "response").truthy = true) : Fits (known [(.response, true)]) (tests σ) :=
  fits (by simp [tests, Test.param]; exact hr)

theorem at_gg (h : Consistent ext σ E) : E gg = .result (inputs σ E).powerSpectrumGg := by
  rw [h gg (by decide)]
  show (seen σ E (body gg) (Env.empty X)).respond (seen σ E (body gg) (Env.empty X)).ggVal = _
  rw [respond_eq h (seen_par σ E (K := known []) (fits (by simp)) _ _ _ (by decide +kernel)) fun hr =>
    ⟨seen_qty σ E (fits_response hr) _ _ _ (by decide +kernel), seen_qty σ E (fits_response hr) _ _ _ (by decide +kernel)⟩]
  unfold Spectra.powerSpectrumGg
  congr 2
  have hp : (seen σ E (body gg) (Env.empty X)).par "nonlinear_mode" = σ "nonlinear_mode" :=
    seen_par σ E (K := known []) (fits (by simp)) _ _ _ (by decide +kernel)
  have q := fun i => seen_qty σ E (K := known []) (fits (by simp)) (body gg) (Env.empty X) i
  have q1 := q centralProfile (by decide +kernel)
  have q2 := q satelliteProfile (by decide +kernel)
  have q3 := q icTerm (by decide +kernel)
  have q4 := q isTerm (by decide +kernel)
  have q5 := q oneHaloTruncation (by decide +kernel)
  have q6 := q pkLin (by decide +kernel)
  have q7 := q poissonFunc (by decide +kernel)
  have q8 := oneHalo_eq (σ := σ) (q mass (by decide +kernel)) (q dndlnm (by decide +kernel))
  unfold Env.ggVal Spectra.powerSpectrumGgRaw
  simp only [q1, q2, q3, q4, q5, q6, q7, q8, Env.plin, Env.twoCut, hp, holds_bnl, decide_eq_true_eq, at_centralProfile h,
    at_satelliteProfile h, at_icTerm h, at_isTerm h, at_oneHaloTruncation h]
  by_cases hm : (σ "nonlinear_mode").mode = .bnl
  · have hm' : (inputs σ E).nonlinearMode = .bnl := hm
    have q9 := iNL_eq h hm' (e := seen σ E (body gg) (Env.empty X)) fun i hi => seen_qty σ E (fits_bnl hm) _ _ i
      ((show ∀ i ∈ [aTerm, meanDensity0, betaNlArray, i12, i21, i22, mass, trapezoidalWeights],
        i ∈ mustRead (known [(.bnl, true)]) (body gg) by decide +kernel) i hi)
    simp only [if_pos hm, if_pos hm', q9, mul_one]
    rfl
  · have hm' : ¬ (inputs σ E).nonlinearMode = .bnl := hm
    have q9 : (seen σ E (body gg) (Env.empty X)).qty twoHaloTruncation = E twoHaloTruncation :=
      seen_qty σ E (K := known [(.bnl, false)]) (fits (by simp [Test.param, holds_bnl, hm])) _ _ _ (by decide +kernel)
    simp only [if_neg hm, if_neg hm', q9, add_zero, at_twoHaloTruncation h]
    rfl

theorem profileG_eq (h : Consistent ext σ E) {n : ℕ} {b : Body n}
    (h1 : "hmcode_ingredients" ∈ mustPar (known []) b)
    (h2 : matterProfileFeedback ∈ mustRead (known [(.feedback, true)]) b)
    (h3 : matterProfile ∈ mustRead (known [(.feedback, false), (.mead2020, true)]) b)
    (h4 : ∀ i ∈ [fstar, mass, meanDensity0, uDm, omegaM],
      i ∈ mustRead (known [(.feedback, false), (.mead2020, false), (.fit, true)]) b)
    (h5 : ∀ i ∈ [fstar, mass, meanDensity0, uDm, omegaM],
      i ∈ mustRead (known [(.feedback, false), (.mead2020, false), (.fit, false), (.pointmass, true)]) b)
    (h6 : matterProfile ∈ mustRead (known [(.feedback, false), (.mead2020, false), (.fit, false), (.pointmass, false)]) b)
    (h7 : ∀ s ∈ ["mb", "omega_c", "omega_b"],
      s ∈ mustPar (known [(.feedback, false), (.mead2020, false), (.fit, true)]) b)
    (h8 : "pointmass" ∈ mustPar (known [(.feedback, false), (.mead2020, false), (.fit, false)]) b ∧
      ∀ s ∈ ["mb", "omega_c", "omega_b"],
      s ∈ mustPar (known [(.feedback, false), (.mead2020, false), (.fit, false), (.pointmass, true)]) b) :
    (seen σ E b (Env.empty X)).profileG = (inputs σ E).matterProfile1hG := by
  have hp : (seen σ E b (Env.empty X)).par "hmcode_ingredients" = σ "hmcode_ingredients" :=
    seen_par σ E (K := known []) (fits (by simp)) _ _ _ h1
  funext b' z k m
  unfold Env.profileG Spectra.matterProfile1hG
  rw [hp]
  cases hi : (σ "hmcode_ingredients").ingr with
  | mead2020Feedback =>
    rw [show (inputs σ E).hmcodeIngredients = .mead2020Feedback from hi]
    simp only
    rw [seen_qty σ E (fits_feedback hi) _ _ matterProfileFeedback h2, at_matterProfileFeedback h]; rfl
  | mead2020 =>
    rw [show (inputs σ E).hmcodeIngredients = .mead2020 from hi]
    simp only
    rw [seen_qty σ E (fits_mead2020 hi) _ _ matterProfile h3, at_matterProfile h]; rfl
  | fit =>
    rw [show (inputs σ E).hmcodeIngredients = .fit from hi]
    simp only
    rw [seen_qty σ E (fits_fit hi) _ _ fstar (h4 _ (by simp)), at_fstar h]
    exact fitProfile_eq (fun i hi' => seen_qty σ E (fits_fit hi) _ _ i (h4 i (List.mem_cons_of_mem _ hi')))
      (fun i hi' => seen_par σ E (fits_fit hi) _ _ i (h7 i hi')) (inputs σ E).fstar b' z k m
  | none =>
    rw [show (inputs σ E).hmcodeIngredients = .none from hi]
    simp only
    rw [seen_par σ E (fits_plain hi) _ _ _ h8.1]
    cases hb : (σ "pointmass").truthy with
    | true =>
      rw [if_pos rfl, if_pos (show (inputs σ E).pointmass = true from hb),
        seen_qty σ E (fits_point hi _ hb) _ _ fstar (h5 _ (by simp)), at_fstar h]
      exact fitProfile_eq (fun i hi' => seen_qty σ E (fits_point hi _ hb) _ _ i (h5 i (List.mem_cons_of_mem _ hi')))
        (fun i hi' => seen_par σ E (fits_point hi _ hb) _ _ i (h8.2 i hi')) (inputs σ E).fstar b' z k m
    | false =>
      rw [if_neg (by decide), if_neg (by rw [show (inputs σ E).pointmass = false from hb]; decide),
        seen_qty σ E (fits_point hi _ hb) _ _ matterProfile h6, at_matterProfile h]; rfl

theorem at_gm (h : Consistent ext σ E) : E gm = .result (inputs σ E).powerSpectrumGm := by
  rw [h gm (by decide)]
  show (seen σ E (body gm) (Env.empty X)).respond (seen σ E (body gm) (Env.empty X)).gmVal = _
  rw [respond_eq h (seen_par σ E (K := known []) (fits (by simp)) _ _ _ (by decide +kernel)) fun hr =>
    ⟨seen_qty σ E (fits_response hr) _ _ _ (by decide +kernel), seen_qty σ E (fits_response hr) _ _ _ (by decide +kernel)⟩]
  unfold Spectra.powerSpectrumGm
  congr 2
  have hp : (seen σ E (body gm) (Env.empty X)).par "nonlinear_mode" = σ "nonlinear_mode" :=
    seen_par σ E (K := known []) (fits (by simp)) _ _ _ (by decide +kernel)
  have q := fun i => seen_qty σ E (K := known []) (fits (by simp)) (body gm) (Env.empty X) i
  have q1 := q centralProfile (by decide +kernel)
  have q2 := q satelliteProfile (by decide +kernel)
  have q3 := q icTerm (by decide +kernel)
  have q4 := q isTerm (by decide +kernel)
  have q5 := q oneHaloTruncation (by decide +kernel)
  have q6 := q pkLin (by decide +kernel)
  have q7 := q imTerm (by decide +kernel)
  have q8 := oneHalo_eq (σ := σ) (q mass (by decide +kernel)) (q dndlnm (by decide +kernel))
  have hprof := profileG_eq h (b := body gm) (by decide +kernel) (by decide +kernel) (by decide +kernel) (by decide +kernel)
    (by decide +kernel) (by decide +kernel) (by decide +kernel) (by decide +kernel)
  unfold Env.gmVal Spectra.powerSpectrumGmRaw
  simp only [q1, q2, q3, q4, q5, q6, q7, q8, hprof, Env.plin, Env.twoCut, hp, holds_bnl, decide_eq_true_eq,
    at_centralProfile h, at_satelliteProfile h, at_icTerm h, at_isTerm h, at_imTerm h, at_oneHaloTruncation h]
  by_cases hm : (σ "nonlinear_mode").mode = .bnl
  · have hm' : (inputs σ E).nonlinearMode = .bnl := hm
    have q9 := iNL_eq h hm' (e := seen σ E (body gm) (Env.empty X)) fun i hi => seen_qty σ E (fits_bnl hm) _ _ i
      ((show ∀ i ∈ [aTerm, meanDensity0, betaNlArray, i12, i21, i22, mass, trapezoidalWeights],
        i ∈ mustRead (known [(.bnl, true)]) (body gm) by decide +kernel) i hi)
    have q10 : (seen σ E (body gm) (Env.empty X)).qty matterProfile2h = E matterProfile2h :=
      seen_qty σ E (fits_bnl hm) _ _ _ (by decide +kernel)
    simp only [if_pos hm, if_pos hm', q9, q10, at_matterProfile2h h, mul_one]
    rfl
  · have hm' : ¬ (inputs σ E).nonlinearMode = .bnl := hm
    have q9 : (seen σ E (body gm) (Env.empty X)).qty twoHaloTruncation = E twoHaloTruncation :=
      seen_qty σ E (K := known [(.bnl, false)]) (fits (by simp [Test.param, holds_bnl, hm])) _ _ _ (by decide +kernel)
    simp only [if_neg hm, if_neg hm', q9, add_zero, at_twoHaloTruncation h]
    rfl

theorem at_mi (h : Consistent ext σ E) : E mi = .result (inputs σ E).powerSpectrumMi := by
  rw [h mi (by decide)]
  show (seen σ E (body mi) (Env.empty X)).respond (seen σ E (body mi) (Env.empty X)).miVal = _
  rw [respond_eq h (seen_par σ E (K := known []) (fits (by simp)) _ _ _ (by decide +kernel)) fun hr =>
    ⟨seen_qty σ E (fits_response hr) _ _ _ (by decide +kernel), seen_qty σ E (fits_response hr) _ _ _ (by decide +kernel)⟩]
  unfold Spectra.powerSpectrumMi
  congr 2
  have hp : (seen σ E (body mi) (Env.empty X)).par "nonlinear_mode" = σ "nonlinear_mode" :=
    seen_par σ E (K := known []) (fits (by simp)) _ _ _ (by decide +kernel)
  have q := fun i => seen_qty σ E (K := known []) (fits (by simp)) (body mi) (Env.empty X) i
  have q0 := oneHalo_eq (σ := σ) (q mass (by decide +kernel)) (q dndlnm (by decide +kernel))
  have q1 := q satelliteAlignment (by decide +kernel)
  have q2 := q oneHaloTruncationIa (by decide +kernel)
  have hprof := profileG_eq h (b := body mi) (by decide +kernel) (by decide +kernel) (by decide +kernel) (by decide +kernel)
    (by decide +kernel) (by decide +kernel) (by decide +kernel) (by decide +kernel)
  unfold Env.miVal Spectra.powerSpectrumMiRaw
  simp only [hp, q0, q1, q2, at_satelliteAlignment h, at_oneHaloTruncationIa h, hprof, Env.plin]
  cases hm : (σ "nonlinear_mode").mode with
  | none =>
    rw [show (inputs σ E).nonlinearMode = .none from hm]
    have r1 : (seen σ E (body mi) (Env.empty X)).qty icAlign = E icAlign := seen_qty σ E (fits_none hm) _ _ _ (by decide +kernel)
    have r2 : (seen σ E (body mi) (Env.empty X)).qty isAlign = E isAlign := seen_qty σ E (fits_none hm) _ _ _ (by decide +kernel)
    have r3 : (seen σ E (body mi) (Env.empty X)).qty imTerm = E imTerm := seen_qty σ E (fits_none hm) _ _ _ (by decide +kernel)
    have r4 : (seen σ E (body mi) (Env.empty X)).qty twoHaloTruncationIa = E twoHaloTruncationIa := seen_qty σ E (fits_none hm) _ _ _ (by decide +kernel)
    have r5 : (seen σ E (body mi) (Env.empty X)).qty pkLin = E pkLin := seen_qty σ E (fits_none hm) _ _ _ (by decide +kernel)
    simp only [r1, r2, r3, r4, r5, at_icAlign h, at_isAlign h, at_imTerm h, at_twoHaloTruncationIa h]
    rfl
  | hmcode =>
    rw [show (inputs σ E).nonlinearMode = .hmcode from hm]
    have r1 : (seen σ E (body mi) (Env.empty X)).qty icAlign = E icAlign := seen_qty σ E (fits_hmcode hm) _ _ _ (by decide +kernel)
    have r2 : (seen σ E (body mi) (Env.empty X)).qty isAlign = E isAlign := seen_qty σ E (fits_hmcode hm) _ _ _ (by decide +kernel)
    have r3 : (seen σ E (body mi) (Env.empty X)).qty imTerm = E imTerm := seen_qty σ E (fits_hmcode hm) _ _ _ (by decide +kernel)
    have r4 : (seen σ E (body mi) (Env.empty X)).qty twoHaloTruncationIa = E twoHaloTruncationIa := seen_qty σ E (fits_hmcode hm) _ _ _ (by decide +kernel)
    have r5 : (seen σ E (body mi) (Env.empty X)).qty pkLin = E pkLin := seen_qty σ E (fits_hmcode hm) _ _ _ (by decide +kernel)
    simp only [r1, r2, r3, r4, r5, at_icAlign h, at_isAlign h, at_imTerm h, at_twoHaloTruncationIa h]
    rfl
  | fortuna =>
    rw [show (inputs σ E).nonlinearMode = .fortuna from hm]
    have r1 : (seen σ E (body mi) (Env.empty X)).qty hod = E hod := seen_qty σ E (fits_fortuna hm) _ _ _ (by decide +kernel)
    have r2 : (seen σ E (body mi) (Env.empty X)).qty peff = E peff := seen_qty σ E (fits_fortuna hm) _ _ _ (by decide +kernel)
    have r3 : (seen σ E (body mi) (Env.empty X)).qty amplitude2h = E amplitude2h := seen_qty σ E (fits_fortuna hm) _ _ _ (by decide +kernel)
    have r4 : (seen σ E (body mi) (Env.empty X)).qty twoHaloTruncationIa = E twoHaloTruncationIa := seen_qty σ E (fits_fortuna hm) _ _ _ (by decide +kernel)
    simp only [r1, r2, r3, r4, at_peff h hm, at_amplitude2h h, at_twoHaloTruncationIa h]
    rfl
  | bnl =>
    rw [show (inputs σ E).nonlinearMode = .bnl from hm]
    have r1 : (seen σ E (body mi) (Env.empty X)).qty icAlign = E icAlign := seen_qty σ E (fits_bnl hm) _ _ _ (by decide +kernel)
    have r2 : (seen σ E (body mi) (Env.empty X)).qty isAlign = E isAlign := seen_qty σ E (fits_bnl hm) _ _ _ (by decide +kernel)
    have r3 : (seen σ E (body mi) (Env.empty X)).qty imTerm = E imTerm := seen_qty σ E (fits_bnl hm) _ _ _ (by decide +kernel)
    have r4 : (seen σ E (body mi) (Env.empty X)).qty pkLin = E pkLin := seen_qty σ E (fits_bnl hm) _ _ _ (by decide +kernel)
    have r5 : (seen σ E (body mi) (Env.empty X)).qty centralAlignment = E centralAlignment := seen_qty σ E (fits_bnl hm) _ _ _ (by decide +kernel)
    have r6 : (seen σ E (body mi) (Env.empty X)).qty matterProfile2h = E matterProfile2h := seen_qty σ E (fits_bnl hm) _ _ _ (by decide +kernel)
    have q9 := iNL_eq h hm (e := seen σ E (body mi) (Env.empty X)) fun i hi => seen_qty σ E (fits_bnl hm) _ _ i
      ((show ∀ i ∈ [aTerm, meanDensity0, betaNlArray, i12, i21, i22, mass, trapezoidalWeights],
        i ∈ mustRead (known [(.bnl, true)]) (body mi) by decide +kernel) i hi)
    simp only [r1, r2, r3, r4, r5, r6, at_icAlign h, at_isAlign h, at_imTerm h, at_centralAlignment h, at_matterProfile2h h, q9]
    rfl

theorem at_ii (h : Consistent ext σ E) : E ii = .result (inputs σ E).powerSpectrumIi := by
  rw [h ii (by decide)]
  show (seen σ E (body ii) (Env.empty X)).respond (seen σ E (body ii) (Env.empty X)).iiVal = _
  rw [respond_eq h (seen_par σ E (K := known []) (fits (by simp)) _ _ _ (by decide +kernel)) fun hr =>
    ⟨seen_qty σ E (fits_response hr) _ _ _ (by decide +kernel), seen_qty σ E (fits_response hr) _ _ _ (by decide +kernel)⟩]
  unfold Spectra.powerSpectrumIi
  congr 2
  have hp : (seen σ E (body ii) (Env.empty X)).par "nonlinear_mode" = σ "nonlinear_mode" :=
    seen_par σ E (K := known []) (fits (by simp)) _ _ _ (by decide +kernel)
  have q := fun i => seen_qty σ E (K := known []) (fits (by simp)) (body ii) (Env.empty X) i
  have q0 := oneHalo_eq (σ := σ) (q mass (by decide +kernel)) (q dndlnm (by decide +kernel))
  have q1 := q satelliteAlignment (by decide +kernel)
  have q2 := q oneHaloTruncationIa (by decide +kernel)
  unfold Env.iiVal Spectra.powerSpectrumIiRaw
  simp only [hp, q0, q1, q2, at_satelliteAlignment h, at_oneHaloTruncationIa h, Env.plin]
  cases hm : (σ "nonlinear_mode").mode with
  | none =>
    rw [show (inputs σ E).nonlinearMode = .none from hm]
    have r1 : (seen σ E (body ii) (Env.empty X)).qty icAlign = E icAlign := seen_qty σ E (fits_none hm) _ _ _ (by decide +kernel)
    have r2 : (seen σ E (body ii) (Env.empty X)).qty isAlign = E isAlign := seen_qty σ E (fits_none hm) _ _ _ (by decide +kernel)
    have r3 : (seen σ E (body ii) (Env.empty X)).qty twoHaloTruncationIa = E twoHaloTruncationIa := seen_qty σ E (fits_none hm) _ _ _ (by decide +kernel)
    have r4 : (seen σ E (body ii) (Env.empty X)).qty pkLin = E pkLin := seen_qty σ E (fits_none hm) _ _ _ (by decide +kernel)
    simp only [r1, r2, r3, r4, at_icAlign h, at_isAlign h, at_twoHaloTruncationIa h]
    rfl
  | hmcode =>
    rw [show (inputs σ E).nonlinearMode = .hmcode from hm]
    have r1 : (seen σ E (body ii) (Env.empty X)).qty icAlign = E icAlign := seen_qty σ E (fits_hmcode hm) _ _ _ (by decide +kernel)
    have r2 : (seen σ E (body ii) (Env.empty X)).qty isAlign = E isAlign := seen_qty σ E (fits_hmcode hm) _ _ _ (by decide +kernel)
    have r3 : (seen σ E (body ii) (Env.empty X)).qty twoHaloTruncationIa = E twoHaloTruncationIa := seen_qty σ E (fits_hmcode hm) _ _ _ (by decide +kernel)
    have r4 : (seen σ E (body ii) (Env.empty X)).qty pkLin = E pkLin := seen_qty σ E (fits_hmcode hm) _ _ _ (by decide +kernel)
    simp only [r1, r2, r3, r4, at_icAlign h, at_isAlign h, at_twoHaloTruncationIa h]
    rfl
  | fortuna =>
    rw [show (inputs σ E).nonlinearMode = .fortuna from hm]
    have r1 : (seen σ E (body ii) (Env.empty X)).qty hod = E hod := seen_qty σ E (fits_fortuna hm) _ _ _ (by decide +kernel)
    have r2 : (seen σ E (body ii) (Env.empty X)).qty peff = E peff := seen_qty σ E (fits_fortuna hm) _ _ _ (by decide +kernel)
    have r3 : (seen σ E (body ii) (Env.empty X)).qty amplitude2hII = E amplitude2hII := seen_qty σ E (fits_fortuna hm) _ _ _ (by decide +kernel)
    have r4 : (seen σ E (body ii) (Env.empty X)).qty twoHaloTruncationIa = E twoHaloTruncationIa := seen_qty σ E (fits_fortuna hm) _ _ _ (by decide +kernel)
    simp only [r1, r2, r3, r4, at_peff h hm, at_amplitude2hII h, at_twoHaloTruncationIa h]
    rfl
  | bnl =>
    rw [show (inputs σ E).nonlinearMode = .bnl from hm]
    have r1 : (seen σ E (body ii) (Env.empty X)).qty icAlign = E icAlign := seen_qty σ E (fits_bnl hm) _ _ _ (by decide +kernel)
    have r2 : (seen σ E (body ii) (Env.empty X)).qty isAlign = E isAlign := seen_qty σ E (fits_bnl hm) _ _ _ (by decide +kernel)
    have r3 : (seen σ E (body ii) (Env.empty X)).qty pkLin = E pkLin := seen_qty σ E (fits_bnl hm) _ _ _ (by decide +kernel)
    have r4 : (seen σ E (body ii) (Env.empty X)).qty centralAlignment = E centralAlignment := seen_qty σ E (fits_bnl hm) _ _ _ (by decide +kernel)
    have q9 := iNL_eq h hm (e := seen σ E (body ii) (Env.empty X)) fun i hi => seen_qty σ E (fits_bnl hm) _ _ i
      ((show ∀ i ∈ [aTerm, meanDensity0, betaNlArray, i12, i21, i22, mass, trapezoidalWeights],
        i ∈ mustRead (known [(.bnl, true)]) (body ii) by decide +kernel) i hi)
    simp only [r1, r2, r3, r4, at_icAlign h, at_isAlign h, at_centralAlignment h, q9]
    rfl

theorem at_gi (h : Consistent ext σ E) : E gi = .result (inputs σ E).powerSpectrumGi := by
  rw [h gi (by decide)]
  show (seen σ E (body gi) (Env.empty X)).respond (seen σ E (body gi) (Env.empty X)).giVal = _
  rw [respond_eq h (seen_par σ E (K := known []) (fits (by simp)) _ _ _ (by decide +kernel)) fun hr =>
    ⟨seen_qty σ E (fits_response hr) _ _ _ (by decide +kernel), seen_qty σ E (fits_response hr) _ _ _ (by decide +kernel)⟩]
  unfold Spectra.powerSpectrumGi
  congr 2
  have hp : (seen σ E (body gi) (Env.empty X)).par "nonlinear_mode" = σ "nonlinear_mode" :=
    seen_par σ E (K := known []) (fits (by simp)) _ _ _ (by decide +kernel)
  have q := fun i => seen_qty σ E (K := known []) (fits (by simp)) (body gi) (Env.empty X) i
  have q0 := oneHalo_eq (σ := σ) (q mass (by decide +kernel)) (q dndlnm (by decide +kernel))
  have q1 := q satelliteAlignment (by decide +kernel)
  have q2 := q oneHaloTruncationIa (by decide +kernel)
  have q3 := q centralProfile (by decide +kernel)
  unfold Env.giVal Spectra.powerSpectrumGiRaw
  simp only [hp, q0, q1, q2, q3, at_satelliteAlignment h, at_oneHaloTruncationIa h, at_centralProfile h, Env.plin]
  cases hm : (σ "nonlinear_mode").mode with
  | none =>
    rw [show (inputs σ E).nonlinearMode = .none from hm]
    have r1 : (seen σ E (body gi) (Env.empty X)).qty icTerm = E icTerm := seen_qty σ E (fits_none hm) _ _ _ (by decide +kernel)
    have r2 : (seen σ E (body gi) (Env.empty X)).qty icAlign = E icAlign := seen_qty σ E (fits_none hm) _ _ _ (by decide +kernel)
    have r3 : (seen σ E (body gi) (Env.empty X)).qty isAlign = E isAlign := seen_qty σ E (fits_none hm) _ _ _ (by decide +kernel)
    have r4 : (seen σ E (body gi) (Env.empty X)).qty twoHaloTruncationIa = E twoHaloTruncationIa := seen_qty σ E (fits_none hm) _ _ _ (by decide +kernel)
    have r5 : (seen σ E (body gi) (Env.empty X)).qty pkLin = E pkLin := seen_qty σ E (fits_none hm) _ _ _ (by decide +kernel)
    simp only [r1, r2, r3, r4, r5, at_icTerm h, at_icAlign h, at_isAlign h, at_twoHaloTruncationIa h]
    rfl
  | hmcode =>
    rw [show (inputs σ E).nonlinearMode = .hmcode from hm]
    have r1 : (seen σ E (body gi) (Env.empty X)).qty icTerm = E icTerm := seen_qty σ E (fits_hmcode hm) _ _ _ (by decide +kernel)
    have r2 : (seen σ E (body gi) (Env.empty X)).qty icAlign = E icAlign := seen_qty σ E (fits_hmcode hm) _ _ _ (by decide +kernel)
    have r3 : (seen σ E (body gi) (Env.empty X)).qty isAlign = E isAlign := seen_qty σ E (fits_hmcode hm) _ _ _ (by decide +kernel)
    have r4 : (seen σ E (body gi) (Env.empty X)).qty twoHaloTruncationIa = E twoHaloTruncationIa := seen_qty σ E (fits_hmcode hm) _ _ _ (by decide +kernel)
    have r5 : (seen σ E (body gi) (Env.empty X)).qty pkLin = E pkLin := seen_qty σ E (fits_hmcode hm) _ _ _ (by decide +kernel)
    simp only [r1, r2, r3, r4, r5, at_icTerm h, at_icAlign h, at_isAlign h, at_twoHaloTruncationIa h]
    rfl
  | fortuna =>
    rw [show (inputs σ E).nonlinearMode = .fortuna from hm]
    have r1 : (seen σ E (body gi) (Env.empty X)).qty icTerm = E icTerm := seen_qty σ E (fits_fortuna hm) _ _ _ (by decide +kernel)
    have r2 : (seen σ E (body gi) (Env.empty X)).qty peff = E peff := seen_qty σ E (fits_fortuna hm) _ _ _ (by decide +kernel)
    have r3 : (seen σ E (body gi) (Env.empty X)).qty amplitude2h = E amplitude2h := seen_qty σ E (fits_fortuna hm) _ _ _ (by decide +kernel)
    have r4 : (seen σ E (body gi) (Env.empty X)).qty twoHaloTruncationIa = E twoHaloTruncationIa := seen_qty σ E (fits_fortuna hm) _ _ _ (by decide +kernel)
    simp only [r1, r2, r3, r4, at_icTerm h, at_peff h hm, at_amplitude2h h, at_twoHaloTruncationIa h]
    rfl
  | bnl =>
    rw [show (inputs σ E).nonlinearMode = .bnl from hm]
    have r1 : (seen σ E (body gi) (Env.empty X)).qty icTerm = E icTerm := seen_qty σ E (fits_bnl hm) _ _ _ (by decide +kernel)
    have r2 : (seen σ E (body gi) (Env.empty X)).qty icAlign = E icAlign := seen_qty σ E (fits_bnl hm) _ _ _ (by decide +kernel)
    have r3 : (seen σ E (body gi) (Env.empty X)).qty isAlign = E isAlign := seen_qty σ E (fits_bnl hm) _ _ _ (by decide +kernel)
    have r4 : (seen σ E (body gi) (Env.empty X)).qty pkLin = E pkLin := seen_qty σ E (fits_bnl hm) _ _ _ (by decide +kernel)
    have r5 : (seen σ E (body gi) (Env.empty X)).qty centralAlignment = E centralAlignment := seen_qty σ E (fits_bnl hm) _ _ _ (by decide +kernel)
    have q9 := iNL_eq h hm (e := seen σ E (body gi) (Env.empty X)) fun i hi => seen_qty σ E (fits_bnl hm) _ _ i
      ((show ∀ i ∈ [aTerm, meanDensity0, betaNlArray, i12, i21, i22, mass, trapezoidalWeights],
        i ∈ mustRead (known [(.bnl, true)]) (body gi) by decide +kernel) i hi)
    simp only [r1, r2, r3, r4, r5, at_icTerm h, at_icAlign h, at_isAlign h, at_centralAlignment h, q9]
    rfl

/-! ## C134 -/

/-- the six spectra are the formulas of `Model/Pk` for given parameters and given ingredients -/
structure AreFormulas (σ : String → Val X) (ingredients spectrum : ℕ → Val X) : Prop where
  mm : spectrum mm = .result (inputs σ ingredients).powerSpectrumMm
  gg : spectrum gg = .result (inputs σ ingredients).powerSpectrumGg
  gm : spectrum gm = .result (inputs σ ingredients).powerSpectrumGm
  mi : spectrum mi = .result (inputs σ ingredients).powerSpectrumMi
  ii : spectrum ii = .result (inputs σ ingredients).powerSpectrumIi
  gi : spectrum gi = .result (inputs σ ingredients).powerSpectrumGi

theorem areFormulas (h : Consistent ext σ E) : AreFormulas σ E E :=
  ⟨at_mm h, at_gg h, at_gm h, at_mi h, at_ii h, at_gi h⟩

/-- what the object reports for every quantity after the history -/
noncomputable def reports (ext : ℕ → Env X → Val X) (σ : String → Val X) (h : List (Op String (Val X))) (q : ℕ) : Val X :=
  value (cls (sem ext)) q (run (cls (sem ext)) (newObj σ) h)

theorem consistent_reports (ext : ℕ → Env X → Val X) (σ : String → Val X) (h : List (Op String (Val X)))
    (hr : ReadsIn (fun τ => SameRegime (sem ext) τ (finalParams σ h)) σ h) :
    Consistent ext (finalParams σ h) (reports ext σ h) := by
  have e : reports ext σ h = fun n =>
      (den (pin (cls (sem ext)) omegaM (reports ext σ h omegaM)) (finalParams σ h) n).1 :=
    funext fun q => C95_object_consistent (oneFrozen (sem ext) _) σ h hr (fun _ => rfl) q
  rw [e]
  exact consistent_pin ext _ _

/-- C134: the spectra of a newly built object are the halo-model formulas at its parameters and at the ingredients it reports
itself: masses, mass function, bias, profiles, linear and non-linear power, occupation and alignment quantities -/
theorem C134_new_object (ext : ℕ → Env X → Val X) (σ : String → Val X) :
    AreFormulas σ (reports ext σ []) (reports ext σ []) :=
  areFormulas (consistent_reports ext σ [] trivial)

/-- C134: the same at any time in the life of the object: after any updates and reads in one regime the six spectra are the
formulas at the present parameters and the ingredients the object reports at present -/
theorem C134_live (ext : ℕ → Env X → Val X) (σ : String → Val X) (h : List (Op String (Val X)))
    (hr : ReadsIn (fun τ => SameRegime (sem ext) τ (finalParams σ h)) σ h) :
    AreFormulas (finalParams σ h) (reports ext σ h) (reports ext σ h) :=
  areFormulas (consistent_reports ext σ h hr)

/-- C134: the intermediate results a user can look at are the same formulas: the correction for missing mass, the large-scale
integrals, the profiles and the effective power of the fortuna mode -/
theorem C134_terms (ext : ℕ → Env X → Val X) (σ : String → Val X) (h : List (Op String (Val X)))
    (hr : ReadsIn (fun τ => SameRegime (sem ext) τ (finalParams σ h)) σ h) :
    let s := inputs (finalParams σ h) (reports ext σ h)
    (reports ext σ h aTerm).v1 = s.aTerm ∧ (reports ext σ h imTerm).v2 = s.imTerm ∧
      (reports ext σ h icTerm).v3 = s.icTerm ∧ (reports ext σ h isTerm).v3 = s.isTerm ∧
      (reports ext σ h icAlign).v3 = s.icAlignTerm ∧ (reports ext σ h isAlign).v3 = s.isAlignTerm ∧
      (reports ext σ h matterProfile).v3 = s.matterProfile ∧
      (reports ext σ h matterProfileFeedback).v3 = s.matterProfileWithFeedback ∧
      (reports ext σ h centralProfile).v4 = s.centralGalaxyProfile ∧
      (reports ext σ h satelliteProfile).v4 = s.satelliteGalaxyProfile ∧
      (reports ext σ h centralAlignment).v4 = s.centralAlignmentProfile ∧
      (reports ext σ h satelliteAlignment).v4 = s.satelliteAlignmentProfile ∧
      (s.nonlinearMode = .fortuna → (reports ext σ h peff).v2 = s.peffVal) := by
  have c := consistent_reports ext σ h hr
  rw [at_aTerm c, at_imTerm c, at_icTerm c, at_isTerm c, at_icAlign c, at_isAlign c, at_matterProfile c,
    at_matterProfileFeedback c, at_centralProfile c, at_satelliteProfile c, at_centralAlignment c, at_satelliteAlignment c]
  exact ⟨rfl, rfl, rfl, rfl, rfl, rfl, rfl, rfl, rfl, rfl, rfl, rfl, fun hm => by rw [at_peff c hm]; rfl⟩

/-- C134: without feedback, fitted gas fractions, point masses and default beta_nl, the non-linear mode and the response may be
changed at any time as well, and the ingredients are those of a newly built object with the present parameters -/
theorem C134_switching (ext : ℕ → Env X → Val X) (σ : String → Val X) (h : List (Op String (Val X)))
    (hr : ReadsIn (ModeChange.SameOptions (sem ext) (finalParams σ h)) σ h)
    (hi : (finalParams σ h "hmcode_ingredients").ingr = .none ∨ (finalParams σ h "hmcode_ingredients").ingr = .mead2020)
    (hpm : (finalParams σ h "pointmass").truthy = false) (hb : (finalParams σ h "beta_nl").isNone = false) :
    AreFormulas (finalParams σ h) (reports ext (finalParams σ h) []) (reports ext σ h) := by
  have h1 : outcome (sem ext) (finalParams σ h) .feedback = false := by
    show holds .feedback (finalParams σ h "hmcode_ingredients") = false
    rw [holds_feedback]; rcases hi with e | e <;> simp [e]
  have h2 : outcome (sem ext) (finalParams σ h) .fit = false := by
    show holds .fit (finalParams σ h "hmcode_ingredients") = false
    rw [holds_fit]; rcases hi with e | e <;> simp [e]
  have key := fun q hq => not_not.1 (ModeChange.C98_modes_are_safe (sem ext) σ h hr h1 h2 hpm hb q hq)
  obtain ⟨a, b, c, d, e, f⟩ := C134_new_object ext (finalParams σ h)
  exact ⟨(key _ (by simp)).trans a, (key _ (by simp)).trans b, (key _ (by simp)).trans c, (key _ (by simp)).trans d,
    (key _ (by simp)).trans e, (key _ (by simp)).trans f⟩

theorem done_sets (c : Cls String (Val X)) (l : List (Op String (Val X))) (hl : ∀ x, Op.read x ∉ l) (o : Obj String (Val X))
    (q : ℕ) : (run c o l).done q = o.done q := by
  induction l generalizing o with
  | nil => rfl
  | cons a l ih =>
    cases a with
    | read x => exact absurd List.mem_cons_self (hl x)
    | set p v =>
      refine (ih (fun x hx => hl x (List.mem_cons_of_mem _ hx)) (setP c p v o)).trans ?_
      unfold setP
      split_ifs <;> rfl

theorem reads_sets {Good : (String → Val X) → Prop} (l : List (Op String (Val X))) (hl : ∀ x, Op.read x ∉ l) (σ : String → Val X) :
    ReadsIn Good σ l := by
  induction l generalizing σ with
  | nil => trivial
  | cons a l ih =>
    cases a with
    | read x => exact absurd List.mem_cons_self (hl x)
    | set p v => exact ih (fun x hx => hl x (List.mem_cons_of_mem _ hx)) _

/-- C134: with feedback or fitted gas fractions, once the matter spectrum has been read, the spectra keep being the formulas at the
present parameters, but with the matter density of the moment of the first read: the fractions of the profiles divide the present
densities of cold dark matter and baryons by it -/
theorem C134_mixed_fractions (ext : ℕ → Env X → Val X) (σ : String → Val X) (first rest : List (Op String (Val X)))
    (hf : ∀ x, Op.read x ∉ first)
    (hi : (finalParams σ first "hmcode_ingredients").ingr = .mead2020Feedback ∨
      (finalParams σ first "hmcode_ingredients").ingr = .fit)
    (hr : ReadsIn (fun τ => SameRegime (sem ext) τ (finalParams σ (first ++ .read mmRaw :: rest))) σ
      (first ++ .read mmRaw :: rest)) :
    AreFormulas (finalParams σ (first ++ .read mmRaw :: rest))
        (Function.update (reports ext σ (first ++ .read mmRaw :: rest)) omegaM (reports ext (finalParams σ first) [] omegaM))
        (reports ext σ (first ++ .read mmRaw :: rest)) := by
  have hreg : SameRegime (sem ext) (finalParams σ first) (finalParams σ (first ++ .read mmRaw :: rest)) := by
    revert hr
    generalize finalParams σ (first ++ .read mmRaw :: rest) = τ
    clear hi
    intro hr
    induction first generalizing σ with
    | nil => exact hr.1
    | cons a l ih =>
      cases a with
      | read x => exact absurd List.mem_cons_self (hf x)
      | set p v => exact ih _ (fun x hx => hf x (List.mem_cons_of_mem _ hx)) hr
  have hu : Uses (cls (sem ext)) (finalParams σ first) mmRaw omegaM := by
    rcases hi with e | e
    · exact Chain.C95_feedback_uses_omega_m _ _ (by
        show holds .feedback (finalParams σ first "hmcode_ingredients") = true
        simp [holds_feedback, e]) _ (by simp)
    · refine Chain.C95_fit_uses_omega_m _ _ ?_ ?_ ?_ _ (by simp)
      · show holds .feedback (finalParams σ first "hmcode_ingredients") = false
        simp [holds_feedback, e]
      · show holds .mead2020 (finalParams σ first "hmcode_ingredients") = false
        simp [holds_mead2020, e]
      · show holds .fit (finalParams σ first "hmcode_ingredients") = true
        simp [holds_fit, e]
  obtain ⟨h1, h2⟩ := C95_frozen_at_first_use (oneFrozen (sem ext) _) σ first rest mmRaw (reads_sets first hf σ) hreg hu
  have h3 := h2 (by rw [done_sets _ _ hf]; rfl)
  have e : reports ext (finalParams σ first) [] omegaM = reports ext σ (first ++ .read mmRaw :: rest) omegaM := by
    unfold reports
    rw [h1, h3]
    exact Chain.value_new _ _ _
  rw [e, Function.update_eq_self]
  exact C134_live ext σ _ hr

/-- a cosmology that adds two densities, three masses, and a linear spectrum -/
noncomputable def toyExt (n : ℕ) (e : Env Unit) : Val Unit :=
  match n with
  | 0 => .num ((e.par "omega_c").toNum + (e.par "omega_b").toNum)
  | 1 => e.qty cosmoModel
  | 53 => .a2 fun z k => z + k + 1
  | _ => .a1 3 fun m => m + 1

/-- fitted gas fractions, no non-linear mode -/
noncomputable def toy : String → Val Unit
  | "hmcode_ingredients" => .str "fit"
  | "omega_c" => .num 0.25
  | "omega_b" => .num 0.05
  | _ => .none

theorem toy_omega : reports toyExt toy [] omegaM = .num 0.3 := by
  have e : reports toyExt toy [] omegaM = (den (cls (sem toyExt)) toy omegaM).1 := Chain.value_new _ _ _
  rw [e, den]
  have h := denProg_out toyExt toy (fun n => (den (cls (sem toyExt)) toy n).1) (fun i : Fin omegaM => den (cls (sem toyExt)) toy i)
    (fun _ => rfl) (body omegaM) []
  refine h.trans ?_
  show (den (cls (sem toyExt)) toy cosmoModel).1 = _
  have h := consistent_den toyExt toy cosmoModel (by decide)
  refine h.trans ?_
  show Val.num ((0.25 : ℝ) + 0.05) = _
  norm_num

/-- the hypotheses of `C134_live` and `C134_mixed_fractions` are met; after the update the spectra are the formulas with the new
density of dark matter, 0.4, and the old density of matter, 0.3 -/
example : ∃ s : Spectra, reports toyExt toy [.read mmRaw, .set "omega_c" (.num 0.4)] gm = .result s.powerSpectrumGm ∧
    s.omegaC = 0.4 ∧ s.omegaM = 0.3 ∧ s.omegaB = 0.05 := by
  have h := C134_mixed_fractions toyExt toy [] [.set "omega_c" (.num 0.4)] (by simp) (.inr (by simp [finalParams, toy, Val.ingr, Val.isStr]))
    ⟨fun t => by
      show holds t (toy t.param) = holds t (Function.update toy "omega_c" (.num 0.4) t.param)
      rw [Function.update_of_ne]
      cases t <;> decide, trivial⟩
  refine ⟨_, h.gm, ?_, ?_, ?_⟩
  · show (Function.update toy "omega_c" (.num 0.4) "omega_c").toNum = 0.4
    rw [Function.update_self]; rfl
  · simp only [inputs, Function.update_self]
    rw [show finalParams toy [] = toy from rfl, toy_omega]; rfl
  · rfl

/-- the hypotheses of `C134_switching` are met with the mode changed between reads -/
example (σ : String → Val Unit) (hσ : σ = Function.update (fun _ => .none) "beta_nl" (.obj ())) (h : List (Op String (Val Unit)))
    (hh : h = [.read mm, .set "nonlinear_mode" (.str "bnl"), .read gg, .set "omega_c" (.num 1), .read mm]) :
    AreFormulas (finalParams σ h) (reports toyExt (finalParams σ h) []) (reports toyExt σ h) := by
  subst hσ hh
  refine C134_switching toyExt _ _ ?_ (.inl ?_) ?_ ?_
  · have key : ∀ τ τ' : String → Val Unit, (∀ t : Test, t.param ∉ ModeChange.switches → τ t.param = τ' t.param) →
        ModeChange.SameOptions (sem toyExt) τ τ' := fun τ τ' h t ht => by
      show holds t _ = holds t _
      rw [h t ht]
    refine ⟨key _ _ ?_, key _ _ ?_, key _ _ ?_, trivial⟩ <;> intro t ht <;>
      cases t <;> first | rfl | (exact absurd (by decide) ht)
  all_goals rfl

end Verif.LiveSpectra

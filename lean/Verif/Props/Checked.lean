import Verif.Lemmas.PkChecked
import Verif.Lemmas.Interp
import Verif.Model.PkHod
import Verif.Props.PkSigns
import Verif.Props.PkDamping

/-! Property C108: when the spectra are numbers. -/

namespace Verif.PkChecked

open Verif.Lib Verif.Lib.Ck Verif.Pk Verif.Spec

/-- C108: whenever an entry of a checked spectrum is a number, it is the entry of the model over the reals that all other
properties are about, and the same exceptions are raised. -/
theorem C108_agrees (s : Pk.Spectra) :
    AgreesE (powerSpectrumMm s) s.powerSpectrumMm ∧ AgreesE (powerSpectrumGg s) s.powerSpectrumGg
      ∧ AgreesE (powerSpectrumGm s) s.powerSpectrumGm ∧ AgreesE (powerSpectrumMi s) s.powerSpectrumMi
      ∧ AgreesE (powerSpectrumIi s) s.powerSpectrumIi ∧ AgreesE (powerSpectrumGi s) s.powerSpectrumGi :=
  ⟨agrees_mm s, agrees_response s (agrees_ggRaw s), agrees_response s (agrees_gmRaw s),
    agrees_response s (agrees_miRaw s), agrees_response s (agrees_iiRaw s), agrees_response s (agrees_giRaw s)⟩

/-- Grid, cosmology and cutoffs do not vanish where the formulas divide by them. -/
structure Sound (s : Pk.Spectra) (z k : ℕ) : Prop where
  nm : 0 < s.nm
  mass : ∀ m < s.nm, s.mass m ≠ 0
  rho : s.meanDensity0 z ≠ 0
  omegaM : s.omegaM ≠ 0
  mb : s.mb ≠ 0
  wave : 0 ≤ s.kVec k
  kt : ∀ t ∈ s.oneHaloKtrunc, t ≠ 0
  ktIa1 : ∀ t ∈ s.oneHaloKtruncIa, t ≠ 0
  ktIa2 : ∀ t ∈ s.twoHaloKtruncIa, t ≠ 0

/-- the mass-dependence factor `(mass_avg / mpivot)**beta` of an alignment profile can be evaluated -/
def MassFactorOk (s : Pk.Spectra) (beta piv : Option ℝ) (b z : ℕ) : Prop :=
  ∀ e ∈ beta, ∀ p ∈ piv, s.numberDensity b z ≠ 0 ∧ p ≠ 0
    ∧ PowOk (s.avgHaloMassCen b z / s.numberDensity b z / p) e

variable {s : Pk.Spectra} {z k : ℕ}

theorem val_num_div {a b : ℝ} (h : b ≠ 0) : ((a : Ck) / (b : Ck)).val = a / b :=
  ((Refines.num a).div (Refines.num b)) (ok_div.mpr ⟨trivial, trivial, h⟩)

theorem one_add_ne {x : Ck} (n : ℕ) (hn : Even n) (hx : x.Ok) : (((1 : ℝ) : Ck) + x ^ n).val ≠ 0 := by
  have h := ((Refines.num 1).add (Refines.pow (x := x) (a := x.val) (fun _ => rfl) n))
    (ok_add.mpr ⟨trivial, (ok_pow n).mpr hx⟩)
  have : 0 ≤ x.val ^ n := hn.pow_nonneg _
  rw [h]
  linarith

theorem mbAgn_ne (s : Pk.Spectra) (zv : ℝ) : s.mbAgn zv ≠ 0 := by
  unfold Spectra.mbAgn
  positivity

theorem ok_matterProfile (h : Sound s z k) (k' m : ℕ) : (matterProfile s z k' m).Ok := by
  simp [matterProfile, computeMatterProfile, ok_div, h.rho]

theorem ok_fg (h : Sound s z k) (mass zv : ℝ) {x : Ck} (hx : x.Ok) : (fg s mass zv x).Ok := by
  have h1 : ((mass : Ck) / (s.mbAgn zv : Ck)).Ok := ok_div.mpr ⟨trivial, trivial, mbAgn_ne s zv⟩
  unfold fg
  simp only [ok_div, ok_mul, ok_sub, ok_pow, ok_add, ok_num, val_num, true_and, hx, and_true]
  exact ⟨⟨h.omegaM, mbAgn_ne s zv⟩, mbAgn_ne s zv, one_add_ne 2 even_two h1⟩

theorem ok_fgFit (h : Sound s z k) (mass : ℝ) {x : Ck} (hx : x.Ok) : (fgFit s mass s.mb x).Ok := by
  have h1 : ((mass : Ck) / (s.mb : Ck)).Ok := ok_div.mpr ⟨trivial, trivial, h.mb⟩
  unfold fgFit
  simp only [ok_div, ok_mul, ok_sub, ok_pow, ok_add, ok_num, val_num, true_and, hx, and_true]
  exact ⟨⟨h.omegaM, h.mb⟩, h.mb, one_add_ne 2 even_two h1⟩

theorem ok_feedback (h : Sound s z k) (k' m : ℕ) : (matterProfileWithFeedback s z k' m).Ok := by
  have h1 := ok_fg h (s.mass m) (s.zVec z) (x := fs s (s.zVec z)) trivial
  have h2 : (fs s (s.zVec z)).Ok := trivial
  simp [matterProfileWithFeedback, ok_div, h.rho, h.omegaM, h1, h2]

theorem ok_fit (h : Sound s z k) (f : ℕ → ℕ → ℕ → ℝ) (b k' m : ℕ) : (matterProfileFit s f b z k' m).Ok := by
  have h1 := ok_fgFit h (s.mass m) (x := ((f b z m : ℝ) : Ck)) trivial
  simp [matterProfileFit, ok_div, h.rho, h.omegaM, h1]

theorem ok_matterProfile1hMm (h : Sound s z k) (k' m : ℕ) : (matterProfile1hMm s z k' m).Ok := by
  unfold matterProfile1hMm
  cases s.hmcodeIngredients
  · exact ok_matterProfile h k' m
  · exact ok_matterProfile h k' m
  · exact ok_feedback h k' m
  · exact ok_fit h _ 0 k' m

theorem ok_matterProfile1hG (h : Sound s z k) (b k' m : ℕ) : (matterProfile1hG s b z k' m).Ok := by
  unfold matterProfile1hG
  cases s.hmcodeIngredients <;> dsimp only
  · split_ifs
    · exact ok_fit h _ b k' m
    · exact ok_matterProfile h k' m
  · exact ok_matterProfile h k' m
  · exact ok_feedback h k' m
  · exact ok_fit h _ b k' m

theorem ok_oneHaloTruncation (h : Sound s z k) : (oneHaloTruncation s k).Ok := by
  unfold oneHaloTruncation
  cases hk : s.oneHaloKtrunc with
  | none => trivial
  | some t =>
    have ht : t ≠ 0 := h.kt t (by rw [hk]; rfl)
    have h1 : ((s.kVec k : Ck) / (t : Ck)).Ok := ok_div.mpr ⟨trivial, trivial, ht⟩
    refine ok_div.mpr ⟨(ok_pow 4).mpr h1, ok_add.mpr ⟨trivial, (ok_pow 4).mpr h1⟩, ?_⟩
    exact one_add_ne 4 ⟨2, rfl⟩ h1

theorem one_add_rpow_ne {x : ℝ} (hx : 0 ≤ x) {e : ℝ} (he : 0 ≤ e) :
    (((x : Ck).rpow (e : Ck)).Ok) ∧ (((1 : ℝ) : Ck) + (x : Ck).rpow (e : Ck)).val ≠ 0 := by
  have hp : PowOk x e := by
    rcases hx.lt_or_eq with h | h
    · exact .inl h
    · exact .inr (.inl ⟨h.symm, he⟩)
  have h1 : ((x : Ck).rpow (e : Ck)).Ok := ok_rpow.mpr ⟨trivial, trivial, hp⟩
  refine ⟨h1, ?_⟩
  rw [((Refines.num 1).add ((Refines.num x).rpow (Refines.num e))) (ok_add.mpr ⟨trivial, h1⟩)]
  have := Real.rpow_nonneg hx e
  linarith

theorem num_div_eq {a b : ℝ} (h : b ≠ 0) : (a : Ck) / (b : Ck) = ((a / b : ℝ) : Ck) :=
  eq_num_iff.mpr ⟨ok_div.mpr ⟨trivial, trivial, h⟩, val_num_div h⟩

theorem ok_twoHaloTruncation (h : Sound s z k) : (twoHaloTruncation s k).Ok := by
  unfold twoHaloTruncation
  cases s.twoHaloKtrunc with
  | none => trivial
  | some t =>
    dsimp only
    rw [num_div_eq (by norm_num)]
    obtain ⟨h1, h2⟩ := one_add_rpow_ne (x := s.kVec k / 0.05699) (div_nonneg h.wave (by norm_num))
      (e := 2.853) (by norm_num)
    exact ok_sub.mpr ⟨trivial, ok_div.mpr ⟨ok_mul.mpr ⟨trivial, h1⟩, ok_add.mpr ⟨trivial, h1⟩, h2⟩⟩

theorem ok_oneHaloTruncationIa (h : Sound s z k) : (oneHaloTruncationIa s k).Ok := by
  unfold oneHaloTruncationIa
  cases hk : s.oneHaloKtruncIa with
  | none => trivial
  | some t => simp [ok_div, h.ktIa1 t (by rw [hk]; rfl)]

theorem ok_twoHaloTruncationIa (h : Sound s z k) : (twoHaloTruncationIa s k).Ok := by
  unfold twoHaloTruncationIa
  cases hk : s.twoHaloKtruncIa with
  | none => trivial
  | some t => simp [ok_div, h.ktIa2 t (by rw [hk]; rfl)]

theorem ok_compute1hTerm (h : Sound s z k) {u v : ℕ → Ck} :
    (compute1hTerm s u v z).Ok ↔ ∀ m < s.nm, (u m).Ok ∧ (v m).Ok := by
  unfold compute1hTerm
  rw [ok_simpson]
  refine forall₂_congr fun m hm => ?_
  simp [ok_div, h.mass m hm]

theorem ok_aTerm (h : Sound s z k) : (aTerm s z).Ok := by
  simp [aTerm, ok_simpson, ok_div, h.rho]

theorem ok_imTerm (h : Sound s z k) (k' : ℕ) : (imTerm s z k').Ok := by
  simp [imTerm, ok_simpson, ok_div, h.rho, ok_aTerm h]

theorem ok_iNL (h : Sound s z k) {W1 W2 : ℕ → Ck} (k' : ℕ) :
    (iNL s W1 W2 z k').Ok ↔ (∀ m < s.nm, (W1 m).Ok) ∧ ∀ m < s.nm, (W2 m).Ok := by
  have hA := ok_aTerm h
  have h0 := h.mass 0 h.nm
  constructor
  · intro hok
    simp only [iNL, trapezoidalIntegrator, ok_add, ok_mul, ok_sum] at hok
    obtain ⟨⟨⟨-, ⟨⟨-, -⟩, t1⟩, -⟩, ⟨⟨-, -⟩, t2⟩, -⟩, -⟩ := hok
    exact ⟨fun m hm => (t2 m hm).1.2, fun m hm => (t1 m hm).1.2⟩
  · rintro ⟨h1, h2⟩
    have h10 := h1 0 h.nm
    have h20 := h2 0 h.nm
    simp only [iNL, trapezoidalIntegrator, i12, i21, i22, ok_add, ok_mul, ok_sum, ok_pow, ok_div, ok_num, val_num,
      hA, h10, h20, h0, true_and, and_true, ne_eq, not_false_eq_true]
    exact ⟨⟨fun m hm => ⟨h.mass m hm, h2 m hm⟩, fun m hm => ⟨h.mass m hm, h1 m hm⟩⟩,
      fun m hm => ⟨fun m' hm' => ⟨⟨h.mass m hm, h.mass m' hm'⟩, h2 m' hm'⟩, h1 m hm⟩⟩

theorem ok_computeIgTerm (h : Sound s z k) {u : ℕ → Ck} :
    (computeIgTerm s u z).Ok ↔ ∀ m < s.nm, (u m).Ok := by
  unfold computeIgTerm
  rw [ok_simpson]
  refine forall₂_congr fun m hm => ?_
  simp [ok_div, h.mass m hm]

@[simp] theorem ok_central (b z k m : ℕ) : (centralGalaxyProfile s b z k m).Ok ↔ s.numberDensityCen b z ≠ 0 := by
  simp [centralGalaxyProfile, ok_div]

@[simp] theorem ok_satellite (b z k m : ℕ) :
    (satelliteGalaxyProfile s b z k m).Ok ↔ s.numberDensitySat b z ≠ 0 := by
  simp [satelliteGalaxyProfile, ok_div]

theorem forall_lt_const {n : ℕ} (hn : 0 < n) (p : Prop) : (∀ m < n, p) ↔ p :=
  ⟨fun h => h 0 hn, fun h _ _ => h⟩

theorem ok_icTerm (h : Sound s z k) (b k' : ℕ) : (icTerm s b z k').Ok ↔ s.numberDensityCen b z ≠ 0 := by
  unfold icTerm
  rw [ok_computeIgTerm h]
  simp only [ok_central]
  exact forall_lt_const h.nm _

theorem ok_isTerm (h : Sound s z k) (b k' : ℕ) : (isTerm s b z k').Ok ↔ s.numberDensitySat b z ≠ 0 := by
  unfold isTerm
  rw [ok_computeIgTerm h]
  simp only [ok_satellite]
  exact forall_lt_const h.nm _

theorem ok_additional (beta piv : Option ℝ) (b z : ℕ) :
    (additionalTerm beta piv (massAvg s b z)).Ok ↔ MassFactorOk s beta piv b z := by
  unfold additionalTerm MassFactorOk
  cases beta with
  | none => simp
  | some e =>
    cases piv with
    | none => simp
    | some p =>
      simp only [ok_rpow, ok_div, massAvg, ok_num, val_num, true_and, Option.mem_def, Option.some.injEq,
        forall_eq']
      constructor
      · rintro ⟨⟨hn, hp⟩, hpow⟩
        refine ⟨hn, hp, ?_⟩
        rwa [num_div_eq hn, num_div_eq hp] at hpow
      · rintro ⟨hn, hp, hpow⟩
        refine ⟨⟨hn, hp⟩, ?_⟩
        rwa [num_div_eq hn, num_div_eq hp]

theorem ok_centralAlignment (b z k m : ℕ) : (centralAlignmentProfile s b z k m).Ok ↔
    s.growthFactor z ≠ 0 ∧ MassFactorOk s s.betaCen s.mpivotCen b z := by
  simp [centralAlignmentProfile, c1, ok_div, ok_additional]

theorem ok_satelliteAlignment (b z k m : ℕ) : (satelliteAlignmentProfile s b z k m).Ok ↔
    s.numberDensitySat b z ≠ 0 ∧ MassFactorOk s s.betaSat s.mpivotSat b z := by
  simp [satelliteAlignmentProfile, ok_div, ok_additional]

theorem ok_icAlign (h : Sound s z k) (b k' : ℕ) : (icAlignTerm s b z k').Ok ↔
    s.growthFactor z ≠ 0 ∧ MassFactorOk s s.betaCen s.mpivotCen b z := by
  simp only [icAlignTerm, ok_add, ok_computeIgTerm h, ok_div, ok_mul, ok_centralAlignment, ok_aTerm h, ok_num,
    val_num, h.mass 0 h.nm, true_and, and_true, forall_lt_const h.nm, ne_eq, not_false_eq_true, and_self]

theorem ok_isAlign (h : Sound s z k) (b k' : ℕ) : (isAlignTerm s b z k').Ok ↔
    s.numberDensitySat b z ≠ 0 ∧ MassFactorOk s s.betaSat s.mpivotSat b z := by
  simp only [isAlignTerm, ok_add, ok_computeIgTerm h, ok_div, ok_mul, ok_satelliteAlignment, ok_aTerm h, ok_num,
    val_num, h.mass 0 h.nm, true_and, and_true, forall_lt_const h.nm, ne_eq, not_false_eq_true, and_self]

/-- all three components of a result are numbers at `(b, z, k)` -/
def OkAt (r : Result) (b z k : ℕ) : Prop := (r.pk1h b z k).Ok ∧ (r.pk2h b z k).Ok ∧ (r.pkTot b z k).Ok

/-- C108: outside the HMcode mode the matter spectrum is always a number. -/
theorem C108_mm (h : Sound s z k) (hm : s.nonlinearMode ≠ .hmcode) (b : ℕ) :
    ∃ r, powerSpectrumMmRaw s = .ok r ∧ OkAt r b z k := by
  have h1 : (compute1hTerm s (matterProfile1hMm s z k) (matterProfile1hMm s z k) z).Ok :=
    (ok_compute1hTerm h).mpr fun m _ => ⟨ok_matterProfile1hMm h k m, ok_matterProfile1hMm h k m⟩
  have h2 := ok_oneHaloTruncation h
  have h3 := ok_twoHaloTruncation h
  have h4 := ok_imTerm h k
  have h5 : (iNL s (matterProfile s z k) (matterProfile s z k) z k).Ok :=
    (ok_iNL h k).mpr ⟨fun m _ => ok_matterProfile h k m, fun m _ => ok_matterProfile h k m⟩
  unfold powerSpectrumMmRaw
  cases hmode : s.nonlinearMode
  · exact ⟨_, rfl, by simp [OkAt, h1, h2, h3, h4]⟩
  · exact ⟨_, rfl, by simp [OkAt, h1, h2, h4, h5]⟩
  · exact (hm hmode).elim
  · exact ⟨_, rfl, by simp [OkAt, h1, h2, h3, h4]⟩

/-- C108: the galaxy spectrum is a number exactly when neither the centrals nor the satellites have zero density; the same
holds for its effective bias.  Every mode. -/
theorem C108_gg (h : Sound s z k) (b : ℕ) :
    (OkAt (powerSpectrumGgRaw s) b z k ↔ s.numberDensityCen b z ≠ 0 ∧ s.numberDensitySat b z ≠ 0)
      ∧ ∃ f, (powerSpectrumGgRaw s).galaxyLinearBias = some f ∧
        ((f b z k).Ok ↔ s.numberDensityCen b z ≠ 0 ∧ s.numberDensitySat b z ≠ 0) := by
  have h2 := ok_oneHaloTruncation h
  have h3 := ok_twoHaloTruncation h
  constructor
  · constructor
    · intro hok
      have := hok.1
      simp only [powerSpectrumGgRaw, ok_add, ok_mul, ok_compute1hTerm h, ok_central, ok_satellite] at this
      exact (this.1.2.1 0 h.nm)
    · rintro ⟨hc, hs⟩
      have i1 := (ok_icTerm h b k).mpr hc
      have i2 := (ok_isTerm h b k).mpr hs
      have p1 : ((powerSpectrumGgRaw s).pk1h b z k).Ok := by
        simp [powerSpectrumGgRaw, ok_compute1hTerm h, h2, hc, hs]
      have p2 : ((powerSpectrumGgRaw s).pk2h b z k).Ok := by
        simp only [powerSpectrumGgRaw]
        split_ifs <;> simp [i1, i2, h3, ok_iNL h, hc, hs]
      exact ⟨p1, p2, ok_add.mpr ⟨p1, p2⟩⟩
  · refine ⟨_, rfl, ?_⟩
    constructor
    · intro hok
      have := (ok_sqrt.mp hok).1
      simp only [ok_add, ok_mul, ok_icTerm h, ok_isTerm h] at this
      exact ⟨this.1.1.1, this.1.2.1⟩
    · rintro ⟨hc, hs⟩
      have i1 := (ok_icTerm h b k).mpr hc
      have i2 := (ok_isTerm h b k).mpr hs
      refine ok_sqrt.mpr ⟨by simp [i1, i2], ?_⟩
      have r1 := r_icTerm s b z k
      have r2 := r_isTerm s b z k
      have : (icTerm s b z k * icTerm s b z k + isTerm s b z k * isTerm s b z k
          + ((2 : ℝ) : Ck) * icTerm s b z k * isTerm s b z k).Refines
          (s.icTerm b z k * s.icTerm b z k + s.isTerm b z k * s.isTerm b z k
          + 2 * s.icTerm b z k * s.isTerm b z k) := by refine_expr
      rw [this (by simp [i1, i2])]
      nlinarith [sq_nonneg (s.icTerm b z k + s.isTerm b z k)]

/-- C108: the galaxy-matter spectrum is a number under the same condition; its effective bias, a square root, needs a
non-negative large-scale amplitude as well. -/
theorem C108_gm (h : Sound s z k) (b : ℕ) :
    (OkAt (powerSpectrumGmRaw s) b z k ↔ s.numberDensityCen b z ≠ 0 ∧ s.numberDensitySat b z ≠ 0)
      ∧ ∃ f, (powerSpectrumGmRaw s).galaxyLinearBias = some f ∧
        ((f b z k).Ok ↔ (s.numberDensityCen b z ≠ 0 ∧ s.numberDensitySat b z ≠ 0)
          ∧ 0 ≤ (s.icTerm b z k + s.isTerm b z k) * s.imTerm z k) := by
  have h2 := ok_oneHaloTruncation h
  have h3 := ok_twoHaloTruncation h
  have h4 := ok_imTerm h k
  have hp := ok_matterProfile1hG h b k
  have hq := ok_matterProfile h k
  constructor
  · constructor
    · intro hok
      have := hok.1
      simp only [powerSpectrumGmRaw, ok_add, ok_mul, ok_compute1hTerm h, ok_central, ok_satellite] at this
      exact ⟨(this.1.1 0 h.nm).1, (this.2.1 0 h.nm).1⟩
    · rintro ⟨hc, hs⟩
      have i1 := (ok_icTerm h b k).mpr hc
      have i2 := (ok_isTerm h b k).mpr hs
      have p1 : ((powerSpectrumGmRaw s).pk1h b z k).Ok := by
        simp [powerSpectrumGmRaw, ok_compute1hTerm h, h2, hc, hs, hp]
      have p2 : ((powerSpectrumGmRaw s).pk2h b z k).Ok := by
        simp only [powerSpectrumGmRaw]
        split_ifs <;> simp [i1, i2, h3, h4, ok_iNL h, hc, hs, hq]
      exact ⟨p1, p2, ok_add.mpr ⟨p1, p2⟩⟩
  · refine ⟨_, rfl, ?_⟩
    have r1 := r_icTerm s b z k
    have r2 := r_isTerm s b z k
    have r3 := r_imTerm s z k
    have hr : (icTerm s b z k * imTerm s z k + isTerm s b z k * imTerm s z k).Refines
        (s.icTerm b z k * s.imTerm z k + s.isTerm b z k * s.imTerm z k) := by refine_expr
    constructor
    · intro hok
      obtain ⟨h5, h6⟩ := ok_sqrt.mp hok
      have h7 := hr h5
      simp only [ok_add, ok_mul, ok_icTerm h, ok_isTerm h] at h5
      refine ⟨⟨h5.1.1, h5.2.1⟩, ?_⟩
      rw [h7] at h6
      linarith
    · rintro ⟨⟨hc, hs⟩, h6⟩
      have i1 := (ok_icTerm h b k).mpr hc
      have i2 := (ok_isTerm h b k).mpr hs
      have h5 : (icTerm s b z k * imTerm s z k + isTerm s b z k * imTerm s z k).Ok := by simp [i1, i2, h4]
      refine ok_sqrt.mpr ⟨h5, ?_⟩
      rw [hr h5]
      linarith

/-- C108: the matter-intrinsic spectrum.  In the Fortuna mode the centrals enter only through the growth factor. -/
theorem C108_mi (h : Sound s z k) (b : ℕ) :
    OkAt (powerSpectrumMiRaw s) b z k ↔ s.numberDensitySat b z ≠ 0 ∧ s.growthFactor z ≠ 0
      ∧ MassFactorOk s s.betaSat s.mpivotSat b z
      ∧ (s.nonlinearMode ≠ .fortuna → MassFactorOk s s.betaCen s.mpivotCen b z) := by
  have h1 := ok_oneHaloTruncationIa h
  have h2 := ok_twoHaloTruncationIa h
  have h4 := ok_imTerm h k
  have hp := ok_matterProfile1hG h b k
  have hq := ok_matterProfile h k
  unfold OkAt powerSpectrumMiRaw
  cases hmode : s.nonlinearMode <;>
    simp only [ok_mul, ok_add, ok_sub, ok_num, ok_compute1hTerm h, ok_satelliteAlignment, ok_centralAlignment, h1, h2, h4,
      hp, hq, ok_icAlign h, ok_isAlign h, ok_iNL h, forall_lt_const h.nm, alignmentAmplitude2h, c1, ok_div, val_num] <;>
    simp <;> tauto

/-- C108: the intrinsic-intrinsic spectrum. -/
theorem C108_ii (h : Sound s z k) (b : ℕ) :
    OkAt (powerSpectrumIiRaw s) b z k ↔ s.numberDensitySat b z ≠ 0 ∧ s.growthFactor z ≠ 0
      ∧ MassFactorOk s s.betaSat s.mpivotSat b z
      ∧ (s.nonlinearMode ≠ .fortuna → MassFactorOk s s.betaCen s.mpivotCen b z) := by
  have h1 := ok_oneHaloTruncationIa h
  have h2 := ok_twoHaloTruncationIa h
  unfold OkAt powerSpectrumIiRaw
  cases hmode : s.nonlinearMode <;>
    simp only [ok_mul, ok_add, ok_pow, ok_num, ok_compute1hTerm h, ok_satelliteAlignment, ok_centralAlignment, h1, h2,
      ok_icAlign h, ok_isAlign h, ok_iNL h, forall_lt_const h.nm, alignmentAmplitude2hII, c1, ok_div, val_num] <;>
    simp <;> tauto

/-- C108: the galaxy-intrinsic spectrum. -/
theorem C108_gi (h : Sound s z k) (b : ℕ) :
    OkAt (powerSpectrumGiRaw s) b z k ↔ s.numberDensityCen b z ≠ 0 ∧ s.numberDensitySat b z ≠ 0
      ∧ s.growthFactor z ≠ 0 ∧ MassFactorOk s s.betaSat s.mpivotSat b z
      ∧ (s.nonlinearMode ≠ .fortuna → MassFactorOk s s.betaCen s.mpivotCen b z) := by
  have h1 := ok_oneHaloTruncationIa h
  have h2 := ok_twoHaloTruncationIa h
  unfold OkAt powerSpectrumGiRaw
  cases hmode : s.nonlinearMode <;>
    simp only [ok_mul, ok_add, ok_num, ok_compute1hTerm h, ok_satelliteAlignment, ok_centralAlignment, ok_central, h1, h2,
      ok_icTerm h, ok_icAlign h, ok_isAlign h, ok_iNL h, forall_lt_const h.nm, alignmentAmplitude2h, c1, ok_div,
      val_num] <;>
    simp <;> tauto

/-! ## The HMcode mode -/

theorem powOk_sigma {x e : ℝ} (hn : ∀ n : ℤ, e ≠ n) (he : e < 0) : PowOk x e ↔ 0 < x := by
  rw [powOk_iff_of_not_int hn]
  constructor
  · rintro (h | ⟨-, h⟩)
    · exact h
    · linarith
  · exact .inl

theorem not_int_of_between {e : ℝ} (n : ℤ) (h1 : (n : ℝ) < e) (h2 : e < n + 1) : ∀ m : ℤ, e ≠ m := by
  intro m hm
  subst hm
  have a : n < m := by exact_mod_cast h1
  have b : m < n + 1 := by exact_mod_cast h2
  omega

theorem ok_sigma_scale {c e x : ℝ} (hc : c ≠ 0) (hn : ∀ n : ℤ, e ≠ n) (he : e < 0) (y : ℝ) :
    ((y : Ck) / ((c : Ck) * (x : Ck).rpow (e : Ck))).Ok ↔ 0 < x := by
  rw [ok_div]
  constructor
  · rintro ⟨-, h, -⟩
    simp only [ok_mul, ok_rpow, ok_num, val_num, true_and] at h
    exact (powOk_sigma hn he).mp h
  · intro hx
    have h1 : ((c : Ck) * (x : Ck).rpow (e : Ck)).Ok := by simp [ok_rpow, PowOk.pos hx]
    refine ⟨trivial, h1, ?_⟩
    rw [((Refines.num c).mul ((Refines.num x).rpow (Refines.num e))) h1]
    exact mul_ne_zero hc (Real.rpow_pos_of_pos hx e).ne'

theorem ok_oneHaloTruncationMead (z k : ℕ) : (oneHaloTruncationMead s z k).Ok ↔ 0 < s.sigma8z z := by
  have key := ok_sigma_scale (x := s.sigma8z z) (c := 0.05618) (e := -1.013) (by norm_num)
    (not_int_of_between (-2) (by norm_num) (by norm_num)) (by norm_num) (s.kVec k)
  unfold oneHaloTruncationMead
  rw [ok_div]
  constructor
  · rintro ⟨h, -, -⟩
    exact key.mp ((ok_pow 4).mp h)
  · intro h
    have h1 := key.mpr h
    exact ⟨(ok_pow 4).mpr h1, ok_add.mpr ⟨trivial, (ok_pow 4).mpr h1⟩, one_add_ne 4 ⟨2, rfl⟩ h1⟩

theorem ok_twoHaloTruncationMead (z k : ℕ) (hk : 0 ≤ s.kVec k) :
    (twoHaloTruncationMead s z k).Ok ↔ 0 < s.sigma8z z := by
  have key := ok_sigma_scale (x := s.sigma8z z) (c := 0.05699) (e := -1.089) (by norm_num)
    (not_int_of_between (-2) (by norm_num) (by norm_num)) (by norm_num) (s.kVec k)
  unfold twoHaloTruncationMead
  constructor
  · intro h
    simp only [ok_sub, ok_div, ok_mul, ok_num, true_and] at h
    have := h.1.2
    rw [ok_rpow] at this
    exact key.mp this.1
  · intro h
    have h1 := key.mpr h
    have e1 := ((Refines.num (s.kVec k)).div ((Refines.num (0.05699 : ℝ)).mul
      ((Refines.num (s.sigma8z z)).rpow (Refines.num (-1.089 : ℝ))))) h1
    have h2 : 0 ≤ s.kVec k / (0.05699 * s.sigma8z z ^ (-1.089 : ℝ)) := by positivity
    rw [eq_num_iff.mpr ⟨h1, e1⟩]
    obtain ⟨h3, h4⟩ := one_add_rpow_ne h2 (e := 2.853) (by norm_num)
    have h5 : ((s.sigma8z z : Ck).rpow ((0.9403 : ℝ) : Ck)).Ok := ok_rpow.mpr ⟨trivial, trivial, PowOk.pos h⟩
    exact ok_sub.mpr ⟨trivial, ok_div.mpr ⟨ok_mul.mpr ⟨ok_mul.mpr ⟨trivial, h5⟩, h3⟩,
      ok_add.mpr ⟨trivial, h3⟩, h4⟩⟩

/-- the exponent of the transition between the two terms (pk.py:1016-1020) -/
noncomputable def alpha (s : Pk.Spectra) (z : ℕ) : ℝ := 1.875 * (1.603 : ℝ) ^ s.neff z

/-- The smoothed sum of two numbers: with an exponent that is not an integer it is a number exactly for a positive
wavenumber and two non-negative terms. -/
theorem ok_transitionSmoothing {p q : ℝ} (hk : 0 ≤ s.kVec k) (hα : ∀ n : ℤ, alpha s z ≠ n) :
    (transitionSmoothing s z k p q).Ok ↔ 0 < s.kVec k ∧ 0 ≤ p ∧ 0 ≤ q := by
  have hαp : 0 < alpha s z := by unfold alpha; positivity
  have hpi : (2 * Real.pi ^ 2 : ℝ) ≠ 0 := by positivity
  have hd : ((s.kVec k : Ck) ^ 3 / ((2 * Real.pi ^ 2 : ℝ) : Ck)) = ((s.kVec k ^ 3 / (2 * Real.pi ^ 2) : ℝ) : Ck) := by
    rw [eq_num_iff]
    have h1 : ((s.kVec k : Ck) ^ 3 / ((2 * Real.pi ^ 2 : ℝ) : Ck)).Ok := ok_div.mpr ⟨trivial, trivial, hpi⟩
    exact ⟨h1, (((Refines.num (s.kVec k)).pow 3).div (Refines.num _)) h1⟩
  have hone : (((1 : ℝ) : Ck) / ((alpha s z : ℝ) : Ck)) = ((1 / alpha s z : ℝ) : Ck) := num_div_eq hαp.ne'
  have hdef : transitionSmoothing s z k p q =
      (((((s.kVec k ^ 3 / (2 * Real.pi ^ 2) : ℝ) : Ck) * (p : Ck)).rpow ((alpha s z : ℝ) : Ck)
        + (((s.kVec k ^ 3 / (2 * Real.pi ^ 2) : ℝ) : Ck) * (q : Ck)).rpow ((alpha s z : ℝ) : Ck)).rpow
          ((1 / alpha s z : ℝ) : Ck)) / ((s.kVec k ^ 3 / (2 * Real.pi ^ 2) : ℝ) : Ck) := by
    rw [← hone, ← hd]
    rfl
  set d := s.kVec k ^ 3 / (2 * Real.pi ^ 2) with hdd
  have hd0 : 0 ≤ d := by positivity
  have hdk : d ≠ 0 ↔ 0 < s.kVec k := by
    constructor
    · intro h
      refine lt_of_le_of_ne hk fun e => h ?_
      rw [hdd, ← e]; simp
    · intro h; positivity
  have hmul : ∀ r : ℝ, ((d : Ck) * (r : Ck)) = ((d * r : ℝ) : Ck) := fun _ => rfl
  have hpow : ∀ x : ℝ, PowOk x (alpha s z) ↔ 0 ≤ x := by
    intro x
    rw [powOk_iff_of_not_int hα]
    constructor
    · rintro (h | ⟨h, -⟩)
      · exact h.le
      · exact h.ge
    · intro h
      rcases h.lt_or_eq with h | h
      · exact .inl h
      · exact .inr ⟨h.symm, hαp⟩
  rw [hdef, ok_div, hmul, hmul]
  constructor
  · rintro ⟨h1, -, h3⟩
    have hk' := hdk.mp h3
    have hd' : 0 < d := lt_of_le_of_ne hd0 (Ne.symm h3)
    simp only [ok_rpow, ok_add, ok_num, val_num, true_and] at h1
    obtain ⟨⟨h4, h5⟩, -⟩ := h1
    exact ⟨hk', nonneg_of_mul_nonneg_right ((hpow _).mp h4) hd', nonneg_of_mul_nonneg_right ((hpow _).mp h5) hd'⟩
  · rintro ⟨hk', hp, hq⟩
    have e1 : (((d * p : ℝ) : Ck).rpow ((alpha s z : ℝ) : Ck)) = (((d * p) ^ alpha s z : ℝ) : Ck) := by
      have h1 : (((d * p : ℝ) : Ck).rpow ((alpha s z : ℝ) : Ck)).Ok :=
        ok_rpow.mpr ⟨trivial, trivial, (hpow _).mpr (mul_nonneg hd0 hp)⟩
      exact eq_num_iff.mpr ⟨h1, ((Refines.num _).rpow (Refines.num _)) h1⟩
    have e2 : (((d * q : ℝ) : Ck).rpow ((alpha s z : ℝ) : Ck)) = (((d * q) ^ alpha s z : ℝ) : Ck) := by
      have h1 : (((d * q : ℝ) : Ck).rpow ((alpha s z : ℝ) : Ck)).Ok :=
        ok_rpow.mpr ⟨trivial, trivial, (hpow _).mpr (mul_nonneg hd0 hq)⟩
      exact eq_num_iff.mpr ⟨h1, ((Refines.num _).rpow (Refines.num _)) h1⟩
    refine ⟨?_, trivial, hdk.mpr hk'⟩
    rw [e1, e2]
    refine ok_rpow.mpr ⟨trivial, trivial, ?_⟩
    have h6 : 0 ≤ (d * p) ^ alpha s z + (d * q) ^ alpha s z :=
      add_nonneg (Real.rpow_nonneg (mul_nonneg hd0 hp) _) (Real.rpow_nonneg (mul_nonneg hd0 hq) _)
    rcases h6.lt_or_eq with h | h
    · exact .inl h
    · exact .inr (.inl ⟨h.symm, by simpa using hαp.le⟩)

/-- C108: the HMcode matter spectrum, for a transition exponent that is not an integer: a positive `sigma8`, a positive
wavenumber and two non-negative terms are needed and suffice.  (A negative term under the exponent gives `nan`.) -/
theorem C108_mm_hmcode (h : Sound s z k) (hm : s.nonlinearMode = .hmcode)
    (hi : s.hmcodeIngredients = .mead2020Feedback ∨ s.hmcodeIngredients = .mead2020)
    (hα : ∀ n : ℤ, alpha s z ≠ n) (b : ℕ) :
    ∃ r q, powerSpectrumMmRaw s = .ok r ∧ s.powerSpectrumMmRaw = .ok q
      ∧ ((r.pk1h b z k).Ok ↔ 0 < s.sigma8z z) ∧ ((r.pk2h b z k).Ok ↔ 0 < s.sigma8z z)
      ∧ ((r.pkTot b z k).Ok ↔ 0 < s.sigma8z z ∧ 0 < s.kVec k ∧ 0 ≤ q.pk1h b z k ∧ 0 ≤ q.pk2h b z k) := by
  have hag := agrees_mmRaw s
  unfold powerSpectrumMmRaw Spectra.powerSpectrumMmRaw at hag ⊢
  simp only [hm, if_pos hi] at hag ⊢
  refine ⟨_, _, rfl, rfl, ?_⟩
  obtain ⟨a1, a2, -, -⟩ := hag
  have h1 : (compute1hTerm s (matterProfile1hMm s z k) (matterProfile1hMm s z k) z).Ok :=
    (ok_compute1hTerm h).mpr fun m _ => ⟨ok_matterProfile1hMm h k m, ok_matterProfile1hMm h k m⟩
  have k1 : ((compute1hTerm s (matterProfile1hMm s z k) (matterProfile1hMm s z k) z
      * oneHaloTruncationMead s z k).Ok ↔ 0 < s.sigma8z z) := by
    simp [h1, ok_oneHaloTruncationMead]
  have k2 : (((s.pkLin z k : Ck) * twoHaloTruncationMead s z k).Ok ↔ 0 < s.sigma8z z) := by
    simp [ok_twoHaloTruncationMead z k h.wave]
  refine ⟨k1, k2, ?_⟩
  have a1 := a1 b z k
  have a2 := a2 b z k
  dsimp only at a1 a2 ⊢
  constructor
  · intro hok
    have hs : 0 < s.sigma8z z := by
      have : (transitionSmoothing s z k _ _).Ok := hok
      unfold transitionSmoothing at this
      simp only [ok_div, ok_rpow, ok_add] at this
      have := this.1.1.1.1
      rw [ok_mul] at this
      exact k1.mp this.2
    rw [eq_num_iff.mpr ⟨k1.mpr hs, a1 (k1.mpr hs)⟩, eq_num_iff.mpr ⟨k2.mpr hs, a2 (k2.mpr hs)⟩] at hok
    exact ⟨hs, (ok_transitionSmoothing h.wave hα).mp hok⟩
  · rintro ⟨hs, hrest⟩
    rw [eq_num_iff.mpr ⟨k1.mpr hs, a1 (k1.mpr hs)⟩, eq_num_iff.mpr ⟨k2.mpr hs, a2 (k2.mpr hs)⟩]
    exact (ok_transitionSmoothing h.wave hα).mpr hrest

/-- C108: with a gentle mass grid, a non-negative mass function and linear spectrum, and a damping amplitude of at most one
(`0.2696 sigma8^0.9403 ≤ 1`, that is `sigma8` below about 4) the HMcode matter spectrum is a number. -/
theorem C108_mm_hmcode_ok (h : Sound s z k) (hm : s.nonlinearMode = .hmcode)
    (hi : s.hmcodeIngredients = .mead2020Feedback ∨ s.hmcodeIngredients = .mead2020)
    (hα : ∀ n : ℤ, alpha s z ≠ n) (g : GentleGrid s.nm s.mass) (hmass : ∀ m < s.nm, 0 < s.mass m)
    (hn : ∀ m < s.nm, 0 ≤ s.dndlnm z m) (hp : 0 ≤ s.pkLin z k) (hs : 0 < s.sigma8z z) (hk : 0 < s.kVec k)
    (hf : 0.2696 * s.sigma8z z ^ (0.9403 : ℝ) ≤ 1) (b : ℕ) :
    ∃ r, powerSpectrumMmRaw s = .ok r ∧ OkAt r b z k := by
  obtain ⟨r, q, hr, hq, k1, k2, k3⟩ := C108_mm_hmcode h hm hi hα b
  refine ⟨r, hr, k1.mpr hs, k2.mpr hs, k3.mpr ⟨hs, hk, ?_, ?_⟩⟩
  all_goals
    unfold Spectra.powerSpectrumMmRaw at hq
    simp only [hm, if_pos hi] at hq
    cases hq
    dsimp only
  · exact mul_nonneg (Verif.Pk.compute1h_nonneg s g hmass z hn _ _ fun m _ => mul_self_nonneg _)
      (Verif.Pk.oneHaloTruncationMead_nonneg s z k)
  · refine mul_nonneg hp ?_
    have hx : 0 ≤ (s.kVec k / (0.05699 * s.sigma8z z ^ (-1.089 : ℝ))) ^ (2.853 : ℝ) := by positivity
    unfold Spectra.twoHaloTruncationMead
    rw [sub_nonneg, div_le_one (by positivity)]
    nlinarith

/-! ## The response -/

/-- C108: with `response` every component is multiplied by the supplied non-linear spectrum over the matter spectrum of the
halo model: it stays a number exactly where that matter spectrum is a number different from zero. -/
theorem C108_response (hr : s.response = true) {mm : Result} (hmm : powerSpectrumMmRaw s = .ok mm) (r : Result) (b : ℕ) :
    ∃ r', applyResponse s r = .ok r'
      ∧ (OkAt r' b z k ↔ OkAt r b z k ∧ (mm.pkTot 0 z k).Ok ∧ (mm.pkTot 0 z k).val ≠ 0) := by
  unfold applyResponse
  rw [if_pos hr, hmm]
  refine ⟨_, rfl, ?_⟩
  simp only [OkAt, ok_mul, ok_div, ok_num, true_and]
  tauto

/-! ## Samples -/

/-- Simpson's rule gives a positive value for a non-negative function that is positive at one of the middle points of the
panels. -/
theorem simpson_pos {n : ℕ} {x y : ℕ → ℝ} (g : GentleGrid n x) (hy : ∀ i < n, 0 ≤ y i) {p : ℕ} (hp : 2 * p + 6 ≤ n)
    (hpos : 0 < y (2 * p + 1)) : 0 < simpson n x y := by
  -- the bump at `2p+1`
  have key : ∀ q, p < q → 2 * q < n → 0 < basicSimpson q x y := by
    intro q hpq hq
    unfold basicSimpson
    refine Finset.sum_pos' (fun i hi => ?_) ⟨p, Finset.mem_range.mpr hpq, ?_⟩
    · have hi := Finset.mem_range.1 hi
      exact simpsonPanel_nonneg (g.step_pos _ (by omega)) (g.step_pos _ (by omega)) (g.up _ (by omega))
        (g.down _ (by omega)) (hy _ (by omega)) (hy _ (by omega)) (hy _ (by omega))
    · have h0 := g.step_pos (2 * p) (by omega)
      have h1 := g.step_pos (2 * p + 1) (by omega)
      have hu := g.up (2 * p) (by omega)
      have hd := g.down (2 * p) (by omega)
      have y0 := hy (2 * p) (by omega)
      have y2 := hy (2 * p + 2) (by omega)
      rw [simpsonPanel_eq h0 h1]
      have a : 0 ≤ 2 - (x (2 * p + 2) - x (2 * p + 1)) / (x (2 * p + 1) - x (2 * p)) := by
        rw [sub_nonneg, div_le_iff₀ h0]; exact hu
      have b : 0 ≤ 2 - (x (2 * p + 1) - x (2 * p)) / (x (2 * p + 2) - x (2 * p + 1)) := by
        rw [sub_nonneg, div_le_iff₀ h1]; exact hd
      have t0 : 0 ≤ (x (2 * p + 1) - x (2 * p) + (x (2 * p + 2) - x (2 * p + 1))) / 6
          * ((2 - (x (2 * p + 2) - x (2 * p + 1)) / (x (2 * p + 1) - x (2 * p))) * y (2 * p)) := by positivity
      have t1 : 0 < (x (2 * p + 1) - x (2 * p) + (x (2 * p + 2) - x (2 * p + 1))) ^ 3
          / (6 * (x (2 * p + 1) - x (2 * p)) * (x (2 * p + 2) - x (2 * p + 1))) * y (2 * p + 1) := by positivity
      have t2 : 0 ≤ (x (2 * p + 1) - x (2 * p) + (x (2 * p + 2) - x (2 * p + 1))) / 6
          * ((2 - (x (2 * p + 1) - x (2 * p)) / (x (2 * p + 2) - x (2 * p + 1))) * y (2 * p + 2)) := by positivity
      linarith
  unfold simpson
  split_ifs with h1 h2 h3
  · exact key _ (by omega) (by omega)
  · omega
  · omega
  · obtain ⟨q, rfl⟩ : ∃ q, n = 2 * q + 4 := ⟨n / 2 - 2, by omega⟩
    have e1 : (2 * q + 4) / 2 - 1 = q + 1 := by omega
    have e2 : 2 * q + 4 - 2 = 2 * q + 2 := by omega
    have e3 : 2 * q + 4 - 3 = 2 * q + 1 := by omega
    have e4 : 2 * q + 4 - 1 = 2 * q + 3 := by omega
    rw [e1, e2, e3, e4]
    unfold basicSimpson
    rw [Finset.sum_range_succ, add_assoc]
    refine add_pos_of_pos_of_nonneg (key q (by omega) (by omega)) ?_
    exact panel_last_nonneg (g.step_pos _ (by omega)) (g.step_pos _ (by omega))
      (g.step_pos (2 * q + 2) (by omega)) (g.up _ (by omega)) (g.down _ (by omega))
      (g.up (2 * q + 1) (by omega)) (g.down (2 * q + 1) (by omega))
      (hy _ (by omega)) (hy _ (by omega)) (hy _ (by omega)) (hy _ (by omega))

/-- a linear interpolation of positive values is positive inside the range of the nodes -/
theorem interp_pos {n : ℕ} (hn : 2 ≤ n) {x y : ℕ → ℝ} (hx : SortedOn n x) {q : ℝ} (h0 : x 0 ≤ q) (h1 : q ≤ x (n - 1))
    (hy : ∀ i < n, 0 < y i) : 0 < interp1d .extrapolate n x y q := by
  obtain ⟨j, t, hj1, hj2, ht0, ht1, -, hv⟩ := interpLinear_convex hn hx h0 h1
  rw [interp1d_inside h0 h1, hv]
  have a := hy (j - 1) (by omega)
  have c := hy j hj2
  rcases ht0.lt_or_eq with h | h
  · have := mul_pos h c
    have := mul_nonneg (sub_nonneg.mpr ht1) a.le
    linarith
  · rw [← h]; linarith

/-- C108: a sample has positive densities at every redshift inside the range of its nodes, if its nodes lie inside the
redshift range of the mass function, the mass function is positive, the occupations are not negative and at every node some
halos (at one of the middle points of the integration panels) hold galaxies. -/
theorem C108_densities_pos (s : Pk.Spectra) (nzv nz : ℕ) (z : ℕ → ℕ → ℝ) (occCen occSat : ℕ → ℕ → ℕ → ℝ) (b i : ℕ)
    (hz : 2 ≤ nz) (hzv : 2 ≤ nzv) (hsz : SortedOn nz (z b)) (hszv : SortedOn nzv s.zVec)
    (hin : z b 0 ≤ s.zVec i ∧ s.zVec i ≤ z b (nz - 1))
    (hnodes : ∀ j < nz, s.zVec 0 ≤ z b j ∧ z b j ≤ s.zVec (nzv - 1))
    (g : GentleGrid s.nm s.mass) (hmass : ∀ m < s.nm, 0 < s.mass m)
    (hdn : ∀ i < nzv, ∀ m < s.nm, 0 < s.dndlnm i m)
    (hc : ∀ j < nz, ∀ m < s.nm, 0 ≤ occCen b j m) (hs : ∀ j < nz, ∀ m < s.nm, 0 ≤ occSat b j m)
    {p p' : ℕ} (hp : 2 * p + 6 ≤ s.nm) (hp' : 2 * p' + 6 ≤ s.nm)
    (hc0 : ∀ j < nz, 0 < occCen b j (2 * p + 1)) (hs0 : ∀ j < nz, 0 < occSat b j (2 * p' + 1)) :
    0 < (s.withHod nzv nz z occCen occSat).numberDensityCen b i
      ∧ 0 < (s.withHod nzv nz z occCen occSat).numberDensitySat b i
      ∧ 0 < (s.withHod nzv nz z occCen occSat).numberDensity b i := by
  have hd : ∀ j < nz, ∀ m < s.nm, 0 < (s.buildHod nzv nz z occCen occSat).dndlnmInt b j m := fun j hj m hm =>
    interp_pos hzv hszv (hnodes j hj).1 (hnodes j hj).2 fun i hi => hdn i hi m hm
  have main : ∀ N : ℕ → ℕ → ℕ → ℝ, (∀ j < nz, ∀ m < s.nm, 0 ≤ N b j m) → ∀ p, 2 * p + 6 ≤ s.nm →
      (∀ j < nz, 0 < N b j (2 * p + 1)) →
      0 < (s.buildHod nzv nz z occCen occSat).interpolate .extrapolate
        ((s.buildHod nzv nz z occCen occSat).massIntegral N) b i := by
    intro N hN p hp hN0
    refine interp_pos hz hsz hin.1 hin.2 fun j hj => ?_
    exact simpson_pos g (fun m hm => div_nonneg (mul_nonneg (hN j hj m hm) (hd j hj m hm).le) (hmass m hm).le) hp
      (div_pos (mul_pos (hN0 j hj) (hd j hj _ (by omega))) (hmass _ (by omega)))
  exact ⟨main occCen hc p hp hc0, main occSat hs p' hp' hs0,
    main (fun b j m => occCen b j m + occSat b j m) (fun j hj m hm => add_nonneg (hc j hj m hm) (hs j hj m hm)) p hp
      fun j hj => add_pos_of_pos_of_nonneg (hc0 j hj) (hs j hj _ (by omega))⟩

theorem interp_zero (n : ℕ) (x : ℕ → ℝ) (q : ℝ) :
    interp1d .extrapolate n x (fun _ => 0) q = 0 := by
  simp [interp1d, interpLinear]

/-- C108: **a sample without satellites has no galaxy or alignment spectrum**: with an occupation of zero the satellite
density is zero, the satellite profile is `0 / 0`, and every galaxy and alignment spectrum, including the central part
contained in it, is not a number.  The matter spectrum is unaffected. -/
theorem C108_no_satellites (s : Pk.Spectra) (nzv nz : ℕ) (zn : ℕ → ℕ → ℝ) (occCen occSat : ℕ → ℕ → ℕ → ℝ) (b z k : ℕ)
    (h : Sound s z k) (h0 : ∀ j m, occSat b j m = 0) :
    ¬ OkAt (powerSpectrumGgRaw (s.withHod nzv nz zn occCen occSat)) b z k
      ∧ ¬ OkAt (powerSpectrumGmRaw (s.withHod nzv nz zn occCen occSat)) b z k
      ∧ ¬ OkAt (powerSpectrumMiRaw (s.withHod nzv nz zn occCen occSat)) b z k
      ∧ ¬ OkAt (powerSpectrumIiRaw (s.withHod nzv nz zn occCen occSat)) b z k
      ∧ ¬ OkAt (powerSpectrumGiRaw (s.withHod nzv nz zn occCen occSat)) b z k := by
  have hn : (s.withHod nzv nz zn occCen occSat).numberDensitySat b z = 0 := by
    have e : (s.buildHod nzv nz zn occCen occSat).nsat b = fun _ => 0 := by
      funext j
      change simpson s.nm s.mass (fun m => occSat b j m * _ / s.mass m) = 0
      simp only [h0, zero_mul, zero_div]
      exact simpson_zero _ _
    change interp1d .extrapolate nz (zn b) ((s.buildHod nzv nz zn occCen occSat).nsat b) (s.zVec z) = 0
    rw [e]
    exact interp_zero _ _ _
  have h' : Sound (s.withHod nzv nz zn occCen occSat) z k :=
    ⟨h.nm, h.mass, h.rho, h.omegaM, h.mb, h.wave, h.kt, h.ktIa1, h.ktIa2⟩
  refine ⟨fun hok => ?_, fun hok => ?_, fun hok => ?_, fun hok => ?_, fun hok => ?_⟩
  · exact ((C108_gg h' b).1.mp hok).2 hn
  · exact ((C108_gm h' b).1.mp hok).2 hn
  · exact ((C108_mi h' b).mp hok).1 hn
  · exact ((C108_ii h' b).mp hok).1 hn
  · exact ((C108_gi h' b).mp hok).2.1 hn

/-! ## The hypotheses are met -/

theorem demo_sound (z k : ℕ) : Sound demo z k := by
  refine ⟨by simp [demo], fun m _ => ?_, ?_, ?_, ?_, ?_, ?_, ?_, ?_⟩ <;> simp only [demo, Option.mem_def, Option.some.injEq]
  · positivity
  · norm_num
  · norm_num
  · norm_num
  · positivity
  · rintro t rfl; norm_num
  · rintro t rfl; norm_num
  · rintro t rfl; norm_num

/-- the demonstration object has all six spectra -/
example (b z k : ℕ) : (∃ r, powerSpectrumMmRaw demo = .ok r ∧ OkAt r b z k) ∧ OkAt (powerSpectrumGgRaw demo) b z k
    ∧ OkAt (powerSpectrumGmRaw demo) b z k ∧ OkAt (powerSpectrumMiRaw demo) b z k
    ∧ OkAt (powerSpectrumIiRaw demo) b z k ∧ OkAt (powerSpectrumGiRaw demo) b z k := by
  have h := demo_sound z k
  have hs : demo.numberDensitySat b z ≠ 0 := by simp [demo]
  have hc : demo.numberDensityCen b z ≠ 0 := by simp [demo]
  have hg : demo.growthFactor z ≠ 0 := by simp [demo]
  have m1 : MassFactorOk demo demo.betaSat demo.mpivotSat b z := by
    intro e he; simp [demo] at he
  have m2 : MassFactorOk demo demo.betaCen demo.mpivotCen b z := by
    intro e he p hp
    simp only [demo, Option.mem_def, Option.some.injEq] at he hp
    subst he hp
    simp only [demo]
    exact ⟨by norm_num, by norm_num, .inl (by norm_num)⟩
  exact ⟨C108_mm h (by simp [demo]) b, (C108_gg h b).1.mpr ⟨hc, hs⟩, (C108_gm h b).1.mpr ⟨hc, hs⟩,
    (C108_mi h b).mpr ⟨hs, hg, m1, fun _ => m2⟩, (C108_ii h b).mpr ⟨hs, hg, m1, fun _ => m2⟩,
    (C108_gi h b).mpr ⟨hc, hs, hg, m1, fun _ => m2⟩⟩

/-- the demonstration object in HMcode mode -/
noncomputable def demoMead : Pk.Spectra := { demo with nonlinearMode := .hmcode, hmcodeIngredients := .mead2020 }

example (b z k : ℕ) : ∃ r, powerSpectrumMmRaw demoMead = .ok r ∧ OkAt r b z k := by
  have hd := demo_sound z k
  refine C108_mm_hmcode_ok (s := demoMead) ⟨hd.nm, hd.mass, hd.rho, hd.omegaM, hd.mb, hd.wave, hd.kt, hd.ktIa1, hd.ktIa2⟩ rfl
    (.inr rfl) ?_ demo_gentle ?_ ?_ ?_ ?_ ?_ ?_ b
  · refine not_int_of_between 1 ?_ ?_ <;> simp [alpha, demoMead, demo] <;> norm_num
  · intro m _; simp only [demoMead, demo]; positivity
  · intro m _; simp only [demoMead, demo]; positivity
  · simp [demoMead, demo]
  · simp [demoMead, demo]
  · simp only [demoMead, demo]; positivity
  · simp [demoMead, demo]; norm_num

/-- the same with a negative linear spectrum -/
noncomputable def demoNeg : Pk.Spectra := { demoMead with pkLin := fun _ _ => -1 }

/-- a negative 2-halo term ends the HMcode sum -/
example (b z k : ℕ) : ∃ r, powerSpectrumMmRaw demoNeg = .ok r ∧ ¬ (r.pkTot b z k).Ok := by
  have hd := demo_sound z k
  have hi : demoNeg.hmcodeIngredients = .mead2020Feedback ∨ demoNeg.hmcodeIngredients = .mead2020 := .inr rfl
  obtain ⟨r, q, hr, hq, -, -, h3⟩ := C108_mm_hmcode (s := demoNeg) (z := z) (k := k)
    ⟨hd.nm, hd.mass, hd.rho, hd.omegaM, hd.mb, hd.wave, hd.kt, hd.ktIa1, hd.ktIa2⟩ rfl hi
    (not_int_of_between 1 (by simp [alpha, demoNeg, demoMead, demo]; norm_num)
      (by simp [alpha, demoNeg, demoMead, demo]; norm_num)) b
  refine ⟨r, hr, fun hok => ?_⟩
  have h4 := (h3.mp hok).2.2.2
  have hpos := (C19_two_halo_range demoNeg z k (by simp [demoNeg, demoMead, demo]) hd.wave).1
  have hq' : q.pk2h b z k = (-1) * demoNeg.twoHaloTruncationMead z k := by
    unfold Spectra.powerSpectrumMmRaw at hq
    simp only [show demoNeg.nonlinearMode = .hmcode from rfl, if_pos hi] at hq
    cases hq
    rfl
  rw [hq'] at h4
  have : (0 : ℝ) < 1 - 0.2696 * demoNeg.sigma8z z ^ (0.9403 : ℝ) := by simp [demoNeg, demoMead, demo]; norm_num
  linarith

/-- the demonstration object with nine masses -/
noncomputable def demoNine : Pk.Spectra := { demo with nm := 9 }

/-- a sample with densities: nodes at redshifts 0, 1, 2, one central per halo above the second mass, two satellites above the
fourth -/
example : 0 < (demoNine.withHod 3 3 (fun _ j => j) (fun _ _ m => if 1 ≤ m then 1 else 0)
      (fun _ _ m => if 3 ≤ m then 2 else 0)).numberDensityCen 0 1
    ∧ 0 < (demoNine.withHod 3 3 (fun _ j => j) (fun _ _ m => if 1 ≤ m then 1 else 0)
      (fun _ _ m => if 3 ≤ m then 2 else 0)).numberDensitySat 0 1 := by
  have hsort : SortedOn 3 (fun j : ℕ => (j : ℝ)) := fun i j hij _ => Nat.cast_lt.mpr hij
  have hg : GentleGrid demoNine.nm demoNine.mass := by
    refine ⟨fun i _ => ?_, fun i _ => ?_, fun i _ => ?_⟩ <;> (simp [demoNine, demo]; try norm_num)
  have H := C108_densities_pos demoNine 3 3 (fun _ j => j) (fun _ _ m => if 1 ≤ m then 1 else 0)
    (fun _ _ m => if 3 ≤ m then 2 else 0) 0 1 (by norm_num) (by norm_num) hsort hsort
    ⟨by simp [demoNine, demo], by simp [demoNine, demo]⟩
    (fun j hj => ⟨by simp [demoNine, demo], by
      have : (j : ℝ) ≤ 2 := by exact_mod_cast Nat.lt_succ_iff.mp hj
      simpa [demoNine, demo] using this⟩)
    hg (fun m _ => by simp only [demoNine, demo]; positivity) (fun i _ m _ => by simp only [demoNine, demo]; positivity)
    (fun j _ m _ => by split_ifs <;> norm_num) (fun j _ m _ => by split_ifs <;> norm_num)
    (p := 0) (p' := 1) (by simp [demoNine]) (by simp [demoNine])
    (fun j _ => by norm_num) (fun j _ => by norm_num)
  exact ⟨H.1, H.2.1⟩

/-- a sample without satellites: assembly-bias amplitude `A_sat = -1` (hod.py:1013-1015) -/
example (b z k : ℕ) : ¬ OkAt (powerSpectrumGgRaw (demoNine.withHod 3 3 (fun _ j => j) (fun _ _ _ => 1)
    (fun _ _ m => Hod.decorateSat (some (-1)) (m + 1)))) b z k := by
  have hd := demo_sound z k
  refine (C108_no_satellites demoNine 3 3 _ _ _ b z k ⟨by simp [demoNine], fun m _ => ?_, hd.rho, hd.omegaM, hd.mb,
    hd.wave, hd.kt, hd.ktIa1, hd.ktIa2⟩ fun j m => ?_).1
  · simp only [demoNine, demo]; positivity
  · simp [Hod.decorateSat]

end Verif.PkChecked

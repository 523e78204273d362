import Verif.Props.Sampling
import Verif.Props.HodTextbook
import Verif.Props.HodModels

/-! Property C136 for the occupation models. -/

namespace Verif.Sampling

open Verif.Hod Verif.Lib Filter Topology

variable {T : Type} [TopologicalSpace T] {t₀ : T}

/-! ## occupations -/

theorem at_decorate_cen {A : T → Option ℝ} {N : T → ℝ} (hA : OptAt A t₀) (hN : ContinuousAt N t₀) :
    ContinuousAt (fun t => decorateCen (A t) (N t)) t₀ := by
  rcases hA with e | ⟨g, e, hg⟩
  · simpa only [e, decorateCen] using hN
  · simp only [e, decorateCen]
    exact hN.add (hg.mul (hN.min (continuousAt_const.sub hN)))

theorem at_decorate_sat {A : T → Option ℝ} {N : T → ℝ} (hA : OptAt A t₀) (hN : ContinuousAt N t₀) :
    ContinuousAt (fun t => decorateSat (A t) (N t)) t₀ := by
  rcases hA with e | ⟨g, e, hg⟩
  · simpa only [e, decorateSat] using hN
  · simp only [e, decorateSat]
    exact hN.add (hg.mul hN)

theorem at_ten {f : T → ℝ} (hf : ContinuousAt f t₀) : ContinuousAt (fun t => (10 : ℝ) ^ f t) t₀ :=
  continuousAt_const.rpow hf (.inl (by norm_num))

theorem at_log {f : T → ℝ} (hf : ContinuousAt f t₀) (h : f t₀ ≠ 0) : ContinuousAt (fun t => log10 (f t)) t₀ := by
  unfold log10 Real.logb
  exact (hf.log h).div_const _

theorem at_erf {f : T → ℝ} (hf : ContinuousAt f t₀) : ContinuousAt (fun t => erf (f t)) t₀ :=
  (erf_hasDerivAt (f t₀)).continuousAt.comp hf

theorem ramp (x : ℝ) : heaviside x 1 * x = max x 0 := by
  rcases lt_or_ge x 0 with h | h
  · rw [heaviside_of_neg h, zero_mul, max_eq_right h.le]
  · rw [heaviside_one_of_nonneg h, one_mul, max_eq_left h]

theorem at_erf_cen {l σ : T → ℝ} (hl : ContinuousAt l t₀) (hσ : ContinuousAt σ t₀) (h : σ t₀ ≠ 0) {M : ℝ} (hM : M ≠ 0) :
    ContinuousAt (fun t => erfCen (l t) (σ t) M) t₀ := by
  have e : (fun t => 0.5 * (1 + erf (log10 (M / (10 : ℝ) ^ l t) / σ t))) =ᶠ[𝓝 t₀] fun t => erfCen (l t) (σ t) M := by
    filter_upwards [hσ.eventually_ne h] with t ht
    unfold erfCen
    rw [if_neg ht]
  refine ContinuousAt.congr ?_ e
  have p : (10 : ℝ) ^ l t₀ ≠ 0 := by positivity
  exact continuousAt_const.mul (continuousAt_const.add (at_erf ((at_log (continuousAt_const.div (at_ten hl) p)
    (div_ne_zero hM p)).div hσ h)))

/-- Zheng: with scatter the occupations vary without jumps with all parameters; the satellites at the cutoff mass need a
positive slope -/
theorem C136_zheng {p : T → ZhengParams} (h1 : ContinuousAt (fun t => (p t).log10Mmin) t₀)
    (h2 : ContinuousAt (fun t => (p t).log10M0) t₀) (h3 : ContinuousAt (fun t => (p t).log10M1) t₀)
    (h4 : ContinuousAt (fun t => (p t).sigma) t₀) (h5 : ContinuousAt (fun t => (p t).alpha) t₀)
    (h6 : OptAt (fun t => (p t).aCen) t₀) (h7 : OptAt (fun t => (p t).aSat) t₀) {M : ℝ} (hM : M ≠ 0) :
    ((p t₀).sigma ≠ 0 → ContinuousAt (fun t => zhengCen (p t) M) t₀) ∧
    ((10 : ℝ) ^ (p t₀).log10M0 < M ∨ 0 < (p t₀).alpha → ContinuousAt (fun t => zhengSat (p t) M) t₀) := by
  constructor
  · intro hs
    exact at_decorate_cen h6 (at_erf_cen h1 h4 hs hM)
  · intro hs
    refine at_decorate_sat h7 ?_
    simp only [ramp]
    have q : (10 : ℝ) ^ (p t₀).log10M1 ≠ 0 := by positivity
    refine (((continuousAt_const.sub (at_ten h2)).max continuousAt_const).div (at_ten h3) q).rpow h5 ?_
    rcases hs with hs | hs
    · exact .inl (div_ne_zero (lt_max_of_lt_left (sub_pos.2 hs)).ne' q)
    · exact .inr hs

/-- Zhai: with scatter the occupations vary without jumps with all parameters -/
theorem C136_zhai {p : T → ZhaiParams} (h1 : ContinuousAt (fun t => (p t).log10Mmin) t₀)
    (h2 : ContinuousAt (fun t => (p t).log10Msat) t₀) (h3 : ContinuousAt (fun t => (p t).log10Mcut) t₀)
    (h4 : ContinuousAt (fun t => (p t).sigma) t₀) (h5 : ContinuousAt (fun t => (p t).alpha) t₀)
    (h6 : OptAt (fun t => (p t).aCen) t₀) (h7 : OptAt (fun t => (p t).aSat) t₀) {M : ℝ} (hM : M ≠ 0) :
    ((p t₀).sigma ≠ 0 → ContinuousAt (fun t => zhaiCen (p t) M) t₀) ∧ ContinuousAt (fun t => zhaiSat (p t) M) t₀ := by
  refine ⟨fun hs => at_decorate_cen h6 (at_erf_cen h1 h4 hs hM), at_decorate_sat h7 ?_⟩
  have q : (10 : ℝ) ^ (p t₀).log10Msat ≠ 0 := by positivity
  exact ((continuousAt_const.div (at_ten h2) q).rpow h5 (.inl (div_ne_zero hM q))).mul
    (((at_ten h3).neg.div_const _).rexp)

/-- Cacciato: the occupations vary without jumps with all parameters -/
theorem C136_cacciato {p : T → CacciatoParams} (h1 : ContinuousAt (fun t => (p t).log10ObsNormC) t₀)
    (h2 : ContinuousAt (fun t => (p t).log10Mch) t₀) (h3 : ContinuousAt (fun t => (p t).g1) t₀)
    (h4 : ContinuousAt (fun t => (p t).g2) t₀) (h5 : ContinuousAt (fun t => (p t).sigmaLog10Oc) t₀)
    (h6 : ContinuousAt (fun t => (p t).normS) t₀) (h7 : ContinuousAt (fun t => (p t).pivot) t₀)
    (h8 : ContinuousAt (fun t => (p t).alphaS) t₀) (h9 : ContinuousAt (fun t => (p t).betaS) t₀)
    (h10 : ContinuousAt (fun t => (p t).b0) t₀) (h11 : ContinuousAt (fun t => (p t).b1) t₀)
    (h12 : ContinuousAt (fun t => (p t).b2) t₀)
    (h13 : OptAt (fun t => (p t).aCen) t₀) (h14 : OptAt (fun t => (p t).aSat) t₀)
    (hs : (p t₀).sigmaLog10Oc ≠ 0) (hn : (p t₀).normS ≠ 0) {M : ℝ} (hM : 0 < M) (nobs : ℕ) (obs : ℕ → ℝ) (ho : ∀ o, obs o ≠ 0) :
    ContinuousAt (fun t => (p t).hodCen nobs obs M) t₀ ∧ ContinuousAt (fun t => (p t).hodSat nobs obs M) t₀ := by
  have pch : 0 < (p t₀).mChar := Real.rpow_pos_of_pos (by norm_num) _
  have c1 : ContinuousAt (fun t => M / (p t).mChar) t₀ := continuousAt_const.div (at_ten h2) pch.ne'
  have pc : 0 < M / (p t₀).mChar := div_pos hM pch
  have p1 : 0 < 1 + M / (p t₀).mChar := by linarith
  have m : ContinuousAt (fun t => (p t).meanObsC M) t₀ :=
    ((at_ten h1).mul (c1.rpow h3 (.inl pc.ne'))).div ((continuousAt_const.add c1).rpow (h3.sub h4) (.inl p1.ne'))
      (Real.rpow_pos_of_pos p1 _).ne'
  have pm : (p t₀).meanObsC M ≠ 0 := by
    unfold CacciatoParams.meanObsC CacciatoParams.obsNormC
    positivity
  constructor
  · refine at_decorate_cen h13 (at_simpson _ _ fun o => ?_)
    have l : ContinuousAt (fun t => log10 (obs o / (p t).meanObsC M)) t₀ :=
      at_log (continuousAt_const.div m pm) (div_ne_zero (ho o) pm)
    refine (continuousAt_const.div ((continuousAt_const.mul h5).mul continuousAt_const) ?_).mul
      (((l.pow 2).neg.div (continuousAt_const.mul (h5.pow 2)) ?_).rexp)
    · have : Real.sqrt (2 * Real.pi) * Real.log 10 ≠ 0 := by
        have := Real.log_pos (show (1 : ℝ) < 10 by norm_num)
        positivity
      exact mul_ne_zero (mul_ne_zero this hs) (ho o)
    · exact mul_ne_zero two_ne_zero (pow_ne_zero 2 hs)
  · refine at_decorate_sat h14 (at_simpson _ _ fun o => ?_)
    have d : ContinuousAt (fun t => (p t).normS * (p t).meanObsC M) t₀ := h6.mul m
    have pd : (p t₀).normS * (p t₀).meanObsC M ≠ 0 := mul_ne_zero hn pm
    have q : ContinuousAt (fun t => obs o / ((p t).normS * (p t).meanObsC M)) t₀ := continuousAt_const.div d pd
    have l : ContinuousAt (fun t => log10 M - (p t).pivot) t₀ := continuousAt_const.sub h7
    have φ : ContinuousAt (fun t => (p t).phiStarS M) t₀ := at_ten ((h10.add (h11.mul l)).add (h12.mul (l.pow 2)))
    have nz := div_ne_zero (ho o) pd
    exact ((φ.div d pd).mul (q.rpow h8 (.inl nz))).mul (((q.rpow h9 (.inl nz)).neg).rexp)

/-! ## statistics of the occupations -/

/-- occupations and halo abundance that vary without jumps, on fixed grids -/
structure HodAlong (c : Base) (h : T → Base) (t₀ : T) : Prop where
  nzv : ∀ t, (h t).nzv = c.nzv
  zVec : ∀ t, (h t).zVec = c.zVec
  nm : ∀ t, (h t).nm = c.nm
  mass : ∀ t, (h t).mass = c.mass
  nz : ∀ t, (h t).nz = c.nz
  z : ∀ t, (h t).z = c.z
  dndlnm : ∀ z m, ContinuousAt (fun t => (h t).dndlnm z m) t₀
  haloBias : ∀ z m, ContinuousAt (fun t => (h t).haloBias z m) t₀
  occCen : ∀ b j m, ContinuousAt (fun t => (h t).occCen b j m) t₀
  occSat : ∀ b j m, ContinuousAt (fun t => (h t).occSat b j m) t₀

theorem at_interp (fill : Fill) (n : ℕ) (x : ℕ → ℝ) {y : T → ℕ → ℝ} (hy : ∀ i, ContinuousAt (fun t => y t i) t₀) (q : ℝ) :
    ContinuousAt (fun t => interp1d fill n x (y t) q) t₀ := by
  have e : ContinuousAt (fun t => interpLinear n x (y t) q) t₀ := by
    unfold interpLinear
    exact ((((hy _).sub (hy _)).div_const _).mul continuousAt_const).add (hy _)
  unfold interp1d
  cases fill with
  | extrapolate => exact e
  | value v =>
    dsimp only
    split_ifs
    · exact continuousAt_const
    · exact e

/-- number densities, mean masses and occupations vary without jumps; fractions and biases as well where there are galaxies at
all redshifts of the sample -/
theorem C136_occupation {c : Base} {h : T → Base} (H : HodAlong c h t₀) (b i : ℕ) :
    ContinuousAt (fun t => (h t).numberDensityCen b i) t₀ ∧ ContinuousAt (fun t => (h t).numberDensitySat b i) t₀ ∧
    ContinuousAt (fun t => (h t).numberDensity b i) t₀ ∧ ContinuousAt (fun t => (h t).avgHaloMassCen b i) t₀ ∧
    ContinuousAt (fun t => (h t).avgHaloMassSat b i) t₀ ∧ ContinuousAt (fun t => (h t).avgHaloMass b i) t₀ ∧
    (∀ m, ContinuousAt (fun t => (h t).hodCen b i m) t₀ ∧ ContinuousAt (fun t => (h t).hodSat b i m) t₀) ∧
    ((∀ j, (h t₀).ntot b j ≠ 0) →
      ContinuousAt (fun t => (h t).fC b i) t₀ ∧ ContinuousAt (fun t => (h t).fS b i) t₀ ∧
      ContinuousAt (fun t => (h t).galaxyLinearBiasCen b i) t₀ ∧ ContinuousAt (fun t => (h t).galaxyLinearBiasSat b i) t₀ ∧
      ContinuousAt (fun t => (h t).galaxyLinearBias b i) t₀) := by
  have D : ∀ j m, ContinuousAt (fun t => (h t).dndlnmInt b j m) t₀ := fun j m => by
    unfold Base.dndlnmInt
    simp only [H.nzv, H.zVec, H.z]
    exact at_interp _ _ _ (fun k => H.dndlnm k m) _
  have B : ∀ j m, ContinuousAt (fun t => (h t).haloBiasInt b j m) t₀ := fun j m => by
    unfold Base.haloBiasInt
    simp only [H.nzv, H.zVec, H.z]
    exact at_interp _ _ _ (fun k => H.haloBias k m) _
  have A : ∀ j m, ContinuousAt (fun t => (h t).occ b j m) t₀ := fun j m => (H.occCen b j m).add (H.occSat b j m)
  have I : ∀ {N : T → ℕ → ℕ → ℕ → ℝ}, (∀ j m, ContinuousAt (fun t => N t b j m) t₀) → ∀ j,
      ContinuousAt (fun t => (h t).massIntegral (N t) b j) t₀ := fun hN j => by
    unfold Base.massIntegral
    simp only [H.nm, H.mass]
    exact at_simpson _ _ fun m => ((hN j m).mul (D j m)).div_const _
  have Q : ∀ {N : T → ℕ → ℕ → ℕ → ℝ}, (∀ j m, ContinuousAt (fun t => N t b j m) t₀) → ∀ j,
      ContinuousAt (fun t => (h t).meanMassIntegral (N t) b j) t₀ := fun hN j => by
    unfold Base.meanMassIntegral
    simp only [H.nm, H.mass]
    exact at_simpson _ _ fun m => (hN j m).mul (D j m)
  have P : ∀ (fill : Fill) {d : T → ℕ → ℕ → ℝ}, (∀ j, ContinuousAt (fun t => d t b j) t₀) →
      ContinuousAt (fun t => (h t).interpolate fill (d t) b i) t₀ := fun fill d hd => by
    unfold Base.interpolate
    simp only [H.nz, H.z, H.zVec]
    exact at_interp _ _ _ hd _
  refine ⟨P _ (I (H.occCen b)), P _ (I (H.occSat b)), P _ (I A), P _ (Q (H.occCen b)), P _ (Q (H.occSat b)), P _ (Q A),
    fun m => ⟨P .extrapolate (d := fun t b j => (h t).occCen b j m) fun j => H.occCen b j m,
      P .extrapolate (d := fun t b j => (h t).occSat b j m) fun j => H.occSat b j m⟩, fun hn => ?_⟩
  have N : ∀ j, ContinuousAt (fun t => (h t).ntot b j) t₀ := I A
  have G : ∀ {N : T → ℕ → ℕ → ℕ → ℝ}, (∀ j m, ContinuousAt (fun t => N t b j m) t₀) → ∀ j,
      ContinuousAt (fun t => (h t).biasIntegral (N t) b j) t₀ := fun hN j => by
    unfold Base.biasIntegral
    simp only [H.nm, H.mass]
    exact (at_simpson _ _ fun m => (((hN j m).mul (B j m)).mul (D j m)).div_const _).div (N j) (hn j)
  exact ⟨P _ fun j => (I (H.occCen b) j).div (N j) (hn j), P _ fun j => (I (H.occSat b) j).div (N j) (hn j),
    P _ (G (H.occCen b)), P _ (G (H.occSat b)), P _ (G A)⟩

/-! ## the sharp thresholds of Simple and Zehavi, and Zheng without scatter -/

/-- the occupation statistics for occupations that depend on the mass only (the `np.tile` of the models) -/
noncomputable def withOcc (h : Base) (cen sat : ℝ → ℝ) : Base :=
  { h with occCen := fun _ _ m => cen (h.mass m), occSat := fun _ _ m => sat (h.mass m) }

theorem step_eq {M a a' : ℝ} (h : (10 : ℝ) ^ a ≤ M ↔ (10 : ℝ) ^ a' ≤ M) :
    heaviside (M - (10 : ℝ) ^ a) 1 = heaviside (M - (10 : ℝ) ^ a') 1 := by
  by_cases q : (10 : ℝ) ^ a ≤ M
  · rw [heaviside_one_of_nonneg (sub_nonneg.2 q), heaviside_one_of_nonneg (sub_nonneg.2 (h.1 q))]
  · rw [heaviside_of_neg (sub_neg.2 (not_le.1 q)), heaviside_of_neg (sub_neg.2 (not_le.1 fun r => q (h.2 r)))]

theorem step_value (A : Option ℝ) (M a : ℝ) :
    decorateCen A (heaviside (M - (10 : ℝ) ^ a) 1) = if (10 : ℝ) ^ a ≤ M then 1 else 0 := by
  by_cases q : (10 : ℝ) ^ a ≤ M
  · rw [heaviside_one_of_nonneg (sub_nonneg.2 q), if_pos q]
    cases A <;> simp [decorateCen]
  · rw [heaviside_of_neg (sub_neg.2 (not_le.1 q)), if_neg q]
    cases A <;> simp [decorateCen]

/-- the number of centrals of Simple and Zehavi does not react at all to the threshold while it moves between two masses of the
grid: neither their density, nor their share, bias and mean mass -/
theorem C136_threshold_flat (h : Base) (p : StepParams) (a a' : ℝ)
    (hg : ∀ m < h.nm, (10 : ℝ) ^ a ≤ h.mass m ↔ (10 : ℝ) ^ a' ≤ h.mass m) (b j : ℕ) :
    let H := fun x => withOcc h (simpleCen { p with log10Mmin := x }) (simpleSat { p with log10Mmin := x })
    let Z := fun x => withOcc h (zehaviCen { p with log10Mmin := x }) (zehaviSat { p with log10Mmin := x })
    (H a).ncen b j = (H a').ncen b j ∧ (H a).nsat b j = (H a').nsat b j ∧ (H a).ntot b j = (H a').ntot b j ∧
    (H a).biasIntegral (H a).occ b j = (H a').biasIntegral (H a').occ b j ∧
    (H a).meanMassIntegral (H a).occ b j = (H a').meanMassIntegral (H a').occ b j ∧
    (Z a).ncen b j = (Z a').ncen b j ∧ (Z a).nsat b j = (Z a').nsat b j ∧ (Z a).ntot b j = (Z a').ntot b j ∧
    (Z a).biasIntegral (Z a).occ b j = (Z a').biasIntegral (Z a').occ b j ∧
    (Z a).meanMassIntegral (Z a).occ b j = (Z a').meanMassIntegral (Z a').occ b j := by
  intro H Z
  have e : ∀ m < h.nm, simpleCen { p with log10Mmin := a } (h.mass m) = simpleCen { p with log10Mmin := a' } (h.mass m) :=
    fun m hm => congrArg (decorateCen p.aCen) (step_eq (hg m hm))
  have es : ∀ m < h.nm, simpleSat { p with log10Mmin := a } (h.mass m) = simpleSat { p with log10Mmin := a' } (h.mass m) :=
    fun m hm => by
      unfold simpleSat
      rw [e m hm]
  have gen : ∀ (cen cen' sat sat' : ℝ → ℝ), (∀ m < h.nm, cen (h.mass m) = cen' (h.mass m)) →
      (∀ m < h.nm, sat (h.mass m) = sat' (h.mass m)) →
      (withOcc h cen sat).ncen b j = (withOcc h cen' sat').ncen b j ∧ (withOcc h cen sat).nsat b j = (withOcc h cen' sat').nsat b j ∧
      (withOcc h cen sat).ntot b j = (withOcc h cen' sat').ntot b j ∧
      (withOcc h cen sat).biasIntegral (withOcc h cen sat).occ b j = (withOcc h cen' sat').biasIntegral (withOcc h cen' sat').occ b j ∧
      (withOcc h cen sat).meanMassIntegral (withOcc h cen sat).occ b j =
        (withOcc h cen' sat').meanMassIntegral (withOcc h cen' sat').occ b j := by
    intro cen cen' sat sat' hc hs
    have o : ∀ m < h.nm, (withOcc h cen sat).occ b j m = (withOcc h cen' sat').occ b j m := fun m hm =>
      show cen _ + sat _ = cen' _ + sat' _ by rw [hc m hm, hs m hm]
    have nt : (withOcc h cen sat).ntot b j = (withOcc h cen' sat').ntot b j :=
      simpson_congr_right fun m hm => by
        rw [o m hm]
        rfl
    refine ⟨simpson_congr_right fun m hm => ?_, simpson_congr_right fun m hm => ?_, nt, ?_, simpson_congr_right fun m hm => ?_⟩
    · show cen _ * _ / _ = cen' _ * _ / _
      rw [hc m hm]
      rfl
    · show sat _ * _ / _ = sat' _ * _ / _
      rw [hs m hm]
      rfl
    · unfold Base.biasIntegral
      rw [nt]
      congr 1
      exact simpson_congr_right fun m hm => by
        rw [o m hm]
        rfl
    · rw [o m hm]
      rfl
  obtain ⟨q1, q2, q3, q4, q5⟩ := gen _ _ _ _ e es
  obtain ⟨r1, r2, r3, r4, r5⟩ := gen (zehaviCen { p with log10Mmin := a }) (zehaviCen { p with log10Mmin := a' })
    (zehaviSat { p with log10Mmin := a }) (zehaviSat { p with log10Mmin := a' }) e fun _ _ => rfl
  exact ⟨q1, q2, q3, q4, q5, r1, r2, r3, r4, r5⟩

/-- when the threshold passes a mass of the grid, the density of centrals drops at once by the contribution of that mass -/
theorem C136_threshold_jump (h : Base) (p : StepParams) (hp : ∀ m < h.nm, 0 < h.mass m)
    (hs : ∀ m n, m < n → n < h.nm → h.mass m < h.mass n) {i : ℕ} (hi : i < h.nm) (b j : ℕ) :
    ∃ a', log10 (h.mass i) < a' ∧ ∀ a, log10 (h.mass i) < a → a < a' →
      (withOcc h (zehaviCen { p with log10Mmin := a }) (zehaviSat p)).ncen b j =
        (withOcc h (zehaviCen { p with log10Mmin := log10 (h.mass i) }) (zehaviSat p)).ncen b j
          - simpson h.nm h.mass (fun m => if m = i then h.dndlnmInt b j i / h.mass i else 0) := by
  have ten : (10 : ℝ) ^ log10 (h.mass i) = h.mass i := by
    unfold log10
    exact Real.rpow_logb (by norm_num) (by norm_num) (hp i hi)
  have up : ∀ x y : ℝ, x < y → (10 : ℝ) ^ x < (10 : ℝ) ^ y := fun x y q => Real.rpow_lt_rpow_of_exponent_lt (by norm_num) q
  obtain ⟨a', h1, h2⟩ : ∃ a', log10 (h.mass i) < a' ∧ ∀ m < h.nm, i < m → (10 : ℝ) ^ a' ≤ h.mass m := by
    by_cases q : i + 1 < h.nm
    · refine ⟨log10 (h.mass (i + 1)), Real.logb_lt_logb (by norm_num) (hp i hi) (hs _ _ (Nat.lt_succ_self i) q), fun m hm him => ?_⟩
      rw [show (10 : ℝ) ^ log10 (h.mass (i + 1)) = h.mass (i + 1) from Real.rpow_logb (by norm_num) (by norm_num) (hp _ q)]
      rcases Nat.lt_or_eq_of_le (show i + 1 ≤ m from him) with r | r
      · exact (hs _ _ r hm).le
      · exact (congrArg h.mass r).le
    · exact ⟨log10 (h.mass i) + 1, by linarith, fun m hm him => absurd (show i + 1 < h.nm by omega) q⟩
  refine ⟨a', h1, fun a ha ha' => ?_⟩
  unfold Base.ncen Base.massIntegral
  refine Eq.trans ?_ (simpson_sub h.nm h.mass _ _)
  refine simpson_congr_right fun m hm => ?_
  show decorateCen p.aCen (heaviside (h.mass m - (10 : ℝ) ^ a) 1) * h.dndlnmInt b j m / h.mass m =
    decorateCen p.aCen (heaviside (h.mass m - (10 : ℝ) ^ log10 (h.mass i)) 1) * h.dndlnmInt b j m / h.mass m - _
  rw [step_value, step_value, ten]
  have u := up _ _ ha
  rw [ten] at u
  rcases lt_trichotomy m i with q | q | q
  · have := hs m i q hi
    rw [if_neg (not_le.2 (this.trans u)), if_neg (not_le.2 this), if_neg q.ne]
    ring
  · subst q
    rw [if_neg (not_le.2 u), if_pos le_rfl, if_pos rfl]
    ring
  · rw [if_pos ((up _ _ ha').le.trans (h2 m hm q)), if_pos (hs i m q hm).le, if_neg q.ne']
    ring

/-- Zheng (and Zhai) with vanishing scatter: away from the threshold the centrals tend to those of the sharp threshold; at the
threshold they are one half for every scatter, but one without scatter -/
theorem C136_scatter_limit (L : ℝ) {M : ℝ} (hM : 0 < M) :
    (M ≠ (10 : ℝ) ^ L → Tendsto (fun σ => erfCen L σ M) (𝓝[>] 0) (𝓝 (erfCen L 0 M))) ∧
    (∀ σ, 0 < σ → erfCen L σ ((10 : ℝ) ^ L) = 1 / 2) ∧ erfCen L 0 ((10 : ℝ) ^ L) = 1 := by
  have p : (0 : ℝ) < (10 : ℝ) ^ L := by positivity
  refine ⟨fun hne => ?_, fun σ hσ => erfCen_half hσ, ?_⟩
  · have e : ∀ x, Tendsto (fun σ => erf (log10 (M / (10 : ℝ) ^ L) / σ)) (𝓝[>] 0) (𝓝 x) →
        Tendsto (fun σ => erfCen L σ M) (𝓝[>] 0) (𝓝 (0.5 * (1 + x))) := by
      intro x hx
      refine ((hx.const_add 1).const_mul 0.5).congr' ?_
      filter_upwards [self_mem_nhdsWithin] with σ hσ
      unfold erfCen
      rw [if_neg (ne_of_gt hσ)]
    have v : erfCen L 0 M = if (10 : ℝ) ^ L ≤ M then 1 else 0 := by
      rw [← step_value none M L]
      simp [erfCen, decorateCen]
    rw [v]
    rcases lt_or_gt_of_ne hne with q | q
    · rw [if_neg (not_le.2 q)]
      have n : log10 (M / (10 : ℝ) ^ L) < 0 := Real.logb_neg (by norm_num) (div_pos hM p) ((div_lt_one p).2 q)
      have := e (-1) (erf_tendsto_atBot.comp (by
        simp only [div_eq_mul_inv]
        exact tendsto_inv_nhdsGT_zero.const_mul_atTop_of_neg (by simpa only [div_eq_mul_inv] using n)))
      simpa using this
    · rw [if_pos q.le]
      have n : 0 < log10 (M / (10 : ℝ) ^ L) := Real.logb_pos (by norm_num) ((one_lt_div p).2 q)
      have := e 1 (erf_tendsto_atTop.comp (by
        simp only [div_eq_mul_inv]
        exact tendsto_inv_nhdsGT_zero.const_mul_atTop (by simpa only [div_eq_mul_inv] using n)))
      rwa [show (0.5 : ℝ) * (1 + 1) = 1 by norm_num] at this
  · simp [erfCen, heaviside]

/-- the density of centrals of the example drops by 4/3 when the threshold passes the mass 2 -/
example (p : StepParams) : ∃ a', log10 2 < a' ∧ ∀ a, log10 2 < a → a < a' →
    (withOcc Hod.demo (zehaviCen { p with log10Mmin := a }) (zehaviSat p)).ncen 0 0 =
      (withOcc Hod.demo (zehaviCen { p with log10Mmin := log10 2 }) (zehaviSat p)).ncen 0 0 - 4 / 3 := by
  have := C136_threshold_jump Hod.demo p (fun m _ => by simp only [Hod.demo]; positivity)
    (fun m n q _ => by simp only [Hod.demo]; exact_mod_cast Nat.succ_lt_succ q) (i := 1) (by decide) 0 0
  rw [Hod.demo_simpson, demo_dndlnmInt] at this
  have e : Hod.demo.mass 1 = 2 := by norm_num [Hod.demo]
  rw [e] at this
  norm_num at this ⊢
  exact this

/-- Zheng with scatter 0.4, moving all masses together -/
example : ContinuousAt (fun t : ℝ => zhengCen ⟨12 + t, 12 + t, 13 + t, 0.4, 1 + t, some t, none⟩ (10 ^ 12)) 0 :=
  (C136_zheng (p := fun t : ℝ => ⟨12 + t, 12 + t, 13 + t, 0.4, 1 + t, some t, none⟩)
    (by fun_prop) (by fun_prop) (by fun_prop) (by fun_prop) (by fun_prop)
    (.inr ⟨_, fun _ => rfl, continuousAt_id⟩) (.inl fun _ => rfl) (by norm_num)).1 (by norm_num)

end Verif.Sampling

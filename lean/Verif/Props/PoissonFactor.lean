import Verif.Props.PkSigns
import Verif.Props.PkDamping
import Verif.Props.Scaling
import Verif.Model.Hod

/-!
Property C167: what the model of the satellite pairs (`poisson_model`, `poisson_params`) changes in the spectra.
-/

namespace Verif.Pk.PoissonFactor

open Verif.Lib Verif.Pk.Spectra Verif.Poisson Verif.Spec

/-- the object with the factor of the satellite pairs replaced -/
def paired (s : Spectra) (p : ℕ → ℝ) : Spectra := { s with poissonFunc := p }

variable {s : Spectra}

/-- the integral over halos of the satellite pairs, weighted: `∫ w (f_s N_s u_s / n_s)^2 dn/dM dM` -/
noncomputable def pairs (s : Spectra) (w : ℕ → ℝ) (b z k : ℕ) : ℝ :=
  simpson s.nm s.mass fun m => w m * (s.fS b z * s.hodSat b z m * s.uSat z k m / s.numberDensitySat b z) ^ 2 * s.dndlnm z m / s.mass m

/-- the pairs of a central with a satellite -/
noncomputable def mixed (s : Spectra) (b z k : ℕ) : ℝ :=
  simpson s.nm s.mass fun m => (s.fC b z * s.hodCen b z m / s.numberDensityCen b z)
    * (s.fS b z * s.hodSat b z m * s.uSat z k m / s.numberDensitySat b z) * s.dndlnm z m / s.mass m

theorem raw_one (p : ℕ → ℝ) (b z k : ℕ) :
    (paired s p).powerSpectrumGgRaw.pk1h b z k = (2 * mixed s b z k + pairs s p b z k) * s.oneHaloTruncation k := by
  have e : (paired s p).powerSpectrumGgRaw.pk1h b z k =
      2 * (s.compute1hTerm (s.centralGalaxyProfile b z k) (s.satelliteGalaxyProfile b z k) z * s.oneHaloTruncation k) +
      s.compute1hTerm (fun m => s.satelliteGalaxyProfile b z k m * p m) (s.satelliteGalaxyProfile b z k) z * s.oneHaloTruncation k := rfl
  have e1 : s.compute1hTerm (s.centralGalaxyProfile b z k) (s.satelliteGalaxyProfile b z k) z = mixed s b z k := by
    unfold compute1hTerm mixed
    refine simpson_congr_right fun m _ => ?_
    simp only [centralGalaxyProfile, satelliteGalaxyProfile, mul_one]
  have e2 : s.compute1hTerm (fun m => s.satelliteGalaxyProfile b z k m * p m) (s.satelliteGalaxyProfile b z k) z = pairs s p b z k := by
    unfold compute1hTerm pairs
    refine simpson_congr_right fun m _ => ?_
    simp only [satelliteGalaxyProfile]
    ring
  rw [e, e1, e2]
  ring

theorem raw_tot (p : ℕ → ℝ) (b z k : ℕ) : (paired s p).powerSpectrumGgRaw.pkTot b z k =
    (paired s p).powerSpectrumGgRaw.pk1h b z k + (paired s p).powerSpectrumGgRaw.pk2h b z k := rfl

theorem gg_ok (hresp : s.response = false) (p : ℕ → ℝ) : (paired s p).powerSpectrumGg = .ok (paired s p).powerSpectrumGgRaw :=
  (C03_no_error (paired s p) hresp).1

/-- C167: the pairs of satellites matter to the one-halo and total power of clustering and to nothing else: matter, lensing and all alignment spectra, the two-halo
power of clustering and the bias reported with it are the same for every model, with and without response, and fail in the same cases. -/
theorem C167_reach (p q : ℕ → ℝ) :
    (∀ f ∈ [powerSpectrumMm, powerSpectrumGm, powerSpectrumMi, powerSpectrumIi, powerSpectrumGi], f (paired s p) = f (paired s q)) ∧
    (∀ e, (paired s p).powerSpectrumGg = .error e ↔ (paired s q).powerSpectrumGg = .error e) ∧
    (∀ r r', (paired s p).powerSpectrumGg = .ok r → (paired s q).powerSpectrumGg = .ok r' →
      r'.pk2h = r.pk2h ∧ r'.galaxyLinearBias = r.galaxyLinearBias) := by
  refine ⟨?_, fun e => ?_, fun r r' h h' => ?_⟩
  · simp only [List.forall_mem_cons, List.not_mem_nil, false_implies, implies_true, and_true]
    exact ⟨rfl, rfl, rfl, rfl, rfl⟩
  · have h1 : (paired s p).powerSpectrumMmRaw = s.powerSpectrumMmRaw := rfl
    have h2 : (paired s q).powerSpectrumMmRaw = s.powerSpectrumMmRaw := rfl
    have h3 : (paired s p).response = s.response := rfl
    have h4 : (paired s q).response = s.response := rfl
    unfold powerSpectrumGg applyResponse
    rw [h1, h2, h3, h4]
    split_ifs
    · cases s.powerSpectrumMmRaw with
      | error e' => rfl
      | ok mm => exact ⟨fun h => (by cases h), fun h => (by cases h)⟩
    · exact ⟨fun h => (by cases h), fun h => (by cases h)⟩
  · obtain ⟨f, e, w⟩ := respond_eq (paired s p) _ r h
    have e' : r' = _ := Except.ok.inj (h'.symm.trans (w (paired s q).powerSpectrumGgRaw))
    rw [e, e']
    exact ⟨rfl, rfl⟩

/-- C167: the one-halo power is twice the pairs of a central with a satellite plus the pairs of satellites weighted with the factor, damped. It is hence affine in the
factor: a change of the factor changes one-halo and total power by the pairs weighted with the change. -/
theorem C167_affine (hresp : s.response = false) (p q : ℕ → ℝ) : ∃ r r', (paired s p).powerSpectrumGg = .ok r ∧ (paired s q).powerSpectrumGg = .ok r' ∧
    ∀ b z k, r.pk1h b z k = (2 * mixed s b z k + pairs s p b z k) * s.oneHaloTruncation k ∧
      r'.pk1h b z k - r.pk1h b z k = pairs s (fun m => q m - p m) b z k * s.oneHaloTruncation k ∧
      r'.pkTot b z k - r.pkTot b z k = pairs s (fun m => q m - p m) b z k * s.oneHaloTruncation k := by
  refine ⟨_, _, gg_ok hresp p, gg_ok hresp q, fun b z k => ?_⟩
  have d : pairs s (fun m => q m - p m) b z k = pairs s q b z k - pairs s p b z k := by
    unfold pairs
    rw [← simpson_sub]
    refine simpson_congr_right fun m _ => ?_
    ring
  have t : (paired s q).powerSpectrumGgRaw.pk2h b z k = (paired s p).powerSpectrumGgRaw.pk2h b z k := rfl
  rw [raw_tot, raw_tot, t, raw_one, raw_one, d]
  exact ⟨rfl, by ring, by ring⟩

/-- halos, galaxies and profiles are not negative -/
structure Counts (s : Spectra) : Prop where
  grid : GentleGrid s.nm s.mass
  mass : ∀ m < s.nm, 0 < s.mass m
  halos : ∀ z, ∀ m < s.nm, 0 ≤ s.dndlnm z m
  cen : ∀ b z, ∀ m < s.nm, 0 ≤ s.hodCen b z m
  sat : ∀ b z, ∀ m < s.nm, 0 ≤ s.hodSat b z m
  prof : ∀ z k, ∀ m < s.nm, 0 ≤ s.uSat z k m
  fC : ∀ b z, 0 ≤ s.fC b z
  fS : ∀ b z, 0 ≤ s.fS b z
  nC : ∀ b z, 0 < s.numberDensityCen b z
  nS : ∀ b z, 0 < s.numberDensitySat b z

theorem pairs_mono (c : Counts s) {v w : ℕ → ℝ} (h : ∀ m < s.nm, v m ≤ w m) (b z k : ℕ) : pairs s v b z k ≤ pairs s w b z k := by
  unfold pairs
  refine simpson_mono c.grid fun m hm => ?_
  exact div_le_div_of_nonneg_right (mul_le_mul_of_nonneg_right (mul_le_mul_of_nonneg_right (h m hm) (sq_nonneg _)) (c.halos z m hm)) (c.mass m hm).le

theorem pairs_smul (a : ℝ) (w : ℕ → ℝ) (b z k : ℕ) : pairs s (fun m => a * w m) b z k = a * pairs s w b z k := by
  unfold pairs
  rw [← simpson_smul]
  refine simpson_congr_right fun m _ => ?_
  ring

theorem mixed_nonneg (c : Counts s) (b z k : ℕ) : 0 ≤ mixed s b z k :=
  simpson_nonneg c.grid fun m hm => div_nonneg (mul_nonneg (mul_nonneg
    (div_nonneg (mul_nonneg (c.fC b z) (c.cen b z m hm)) (c.nC b z).le)
    (div_nonneg (mul_nonneg (mul_nonneg (c.fS b z) (c.sat b z m hm)) (c.prof z k m hm)) (c.nS b z).le)) (c.halos z m hm)) (c.mass m hm).le

/-- C167: a larger factor never lowers the power of clustering, and a factor at most `t` times as large gives at most `t` times the one-halo power. -/
theorem C167_monotone (hresp : s.response = false) (c : Counts s) {p q : ℕ → ℝ} (hpq : ∀ m < s.nm, p m ≤ q m) :
    ∃ r r', (paired s p).powerSpectrumGg = .ok r ∧ (paired s q).powerSpectrumGg = .ok r' ∧
      ∀ b z k, r.pk1h b z k ≤ r'.pk1h b z k ∧ r.pkTot b z k ≤ r'.pkTot b z k ∧
        ∀ t, 1 ≤ t → (∀ m < s.nm, q m ≤ t * p m) → r'.pk1h b z k ≤ t * r.pk1h b z k ∧
          (0 ≤ r.pk2h b z k → r'.pkTot b z k ≤ t * r.pkTot b z k) := by
  refine ⟨_, _, gg_ok hresp p, gg_ok hresp q, fun b z k => ?_⟩
  have hT := oneHaloTruncation_nonneg s k
  have e : (paired s q).powerSpectrumGgRaw.pk2h b z k = (paired s p).powerSpectrumGgRaw.pk2h b z k := rfl
  have h1 : (paired s p).powerSpectrumGgRaw.pk1h b z k ≤ (paired s q).powerSpectrumGgRaw.pk1h b z k := by
    rw [raw_one, raw_one]
    exact mul_le_mul_of_nonneg_right (by linarith [pairs_mono c hpq b z k]) hT
  refine ⟨h1, by rw [raw_tot, raw_tot, e]; linarith, fun t ht hq => ?_⟩
  have h2 : (paired s q).powerSpectrumGgRaw.pk1h b z k ≤ t * (paired s p).powerSpectrumGgRaw.pk1h b z k := by
    rw [raw_one, raw_one, ← mul_assoc]
    refine mul_le_mul_of_nonneg_right ?_ hT
    have a := pairs_mono c hq b z k
    rw [pairs_smul] at a
    have m := mul_le_mul_of_nonneg_right ht (mixed_nonneg c b z k)
    linarith
  refine ⟨h2, fun h => ?_⟩
  rw [raw_tot, raw_tot, e]
  have := mul_le_mul_of_nonneg_right ht h
  linarith

/-- C167: the parameters of the power law. Moving the pivot by `d` dex is the same as multiplying the amplitude by `10 ^ (-slope * d)`, so the two cannot be told
apart. With slope zero the pivot does not matter and the model is the constant one. -/
theorem C167_power_law (hm : ∀ m < s.nm, 0 < s.mass m) (P M0 a d : ℝ) :
    (∀ p q : ℕ → ℝ, (∀ m < s.nm, powerLaw P (some (M0 + d)) (some a) (s.mass m) = .ok (p m)) →
      (∀ m < s.nm, powerLaw (P * (10 : ℝ) ^ (-a * d)) (some M0) (some a) (s.mass m) = .ok (q m)) →
      (paired s p).powerSpectrumGg = (paired s q).powerSpectrumGg) ∧
    (∀ p : ℕ → ℝ, (∀ m < s.nm, powerLaw P (some M0) (some 0) (s.mass m) = .ok (p m)) →
      (paired s p).powerSpectrumGg = (paired s fun m => constant P (s.mass m)).powerSpectrumGg) := by
  have key : ∀ p q : ℕ → ℝ, (∀ m < s.nm, p m = q m) → (paired s p).powerSpectrumGg = (paired s q).powerSpectrumGg := by
    intro p q h
    have hp : ∀ b z k, pairs s p b z k = pairs s q b z k := fun b z k => simpson_congr_right fun m hm => by rw [h m hm]
    have h1 : (paired s p).powerSpectrumGgRaw.pk1h = (paired s q).powerSpectrumGgRaw.pk1h := by
      funext b z k
      rw [raw_one, raw_one, hp]
    have w : (paired s p).powerSpectrumGgRaw = (paired s q).powerSpectrumGgRaw := by
      have e : ∀ p, (paired s p).powerSpectrumGgRaw = ⟨(paired s p).powerSpectrumGgRaw.pk1h, s.powerSpectrumGgRaw.pk2h,
        fun b z k => (paired s p).powerSpectrumGgRaw.pk1h b z k + s.powerSpectrumGgRaw.pk2h b z k, s.powerSpectrumGgRaw.galaxyLinearBias⟩ := fun _ => rfl
      rw [e p, e q, h1]
    have x : ∀ r r' : PkResult, r = r' → (paired s p).applyResponse r = (paired s q).applyResponse r' := by
      rintro r _ rfl
      rfl
    exact x _ _ w
  refine ⟨fun p q hp hq => key p q fun m h => ?_, fun p hp => key _ _ fun m h => ?_⟩
  · have e1 := Except.ok.inj (hp m h)
    have e2 := Except.ok.inj (hq m h)
    rw [← e1, ← e2, Real.rpow_add (by norm_num), ← div_div, Real.div_rpow (div_nonneg (hm m h).le (by positivity)) (by positivity),
      ← Real.rpow_mul (by norm_num), show -a * d = -(d * a) by ring, Real.rpow_neg (by norm_num)]
    ring
  · have e1 := Except.ok.inj (hp m h)
    rw [← e1]
    simp only [constant, Real.rpow_zero]

/-- C167: against the constant model of the same amplitude a rising power law gives more clustering if all halos are above the pivot and less if all are below. -/
theorem C167_tilt (hresp : s.response = false) (c : Counts s) {P M0 a : ℝ} (hP : 0 ≤ P) (ha : 0 ≤ a) {p : ℕ → ℝ}
    (hp : ∀ m < s.nm, powerLaw P (some M0) (some a) (s.mass m) = .ok (p m)) :
    ∃ r r', (paired s fun m => constant P (s.mass m)).powerSpectrumGg = .ok r ∧ (paired s p).powerSpectrumGg = .ok r' ∧
      ((∀ m < s.nm, (10 : ℝ) ^ M0 ≤ s.mass m) → ∀ b z k, r.pkTot b z k ≤ r'.pkTot b z k) ∧
      ((∀ m < s.nm, s.mass m ≤ (10 : ℝ) ^ M0) → ∀ b z k, r'.pkTot b z k ≤ r.pkTot b z k) := by
  have h10 : (0 : ℝ) < (10 : ℝ) ^ M0 := by positivity
  have e : ∀ m < s.nm, p m = P * (s.mass m / (10 : ℝ) ^ M0) ^ a := fun m h => (Except.ok.inj (hp m h)).symm
  refine ⟨_, _, gg_ok hresp _, gg_ok hresp _, fun h b z k => ?_, fun h b z k => ?_⟩
  · obtain ⟨r, r', e1, e2, w⟩ := C167_monotone hresp c (p := fun m => constant P (s.mass m)) (q := p) fun m hm => by
      rw [e m hm]
      exact mul_le_mul_of_nonneg_left (Real.one_le_rpow ((one_le_div h10).2 (h m hm)) ha) hP
    rw [gg_ok hresp] at e1 e2
    cases e1
    cases e2
    exact (w b z k).2.1
  · obtain ⟨r, r', e1, e2, w⟩ := C167_monotone hresp c (q := fun m => constant P (s.mass m)) (p := p) fun m hm => by
      rw [e m hm]
      exact mul_le_mul_of_nonneg_left (Real.rpow_le_one (div_nonneg (c.mass m hm).le h10.le) ((div_le_one h10).2 (h m hm)) ha) hP
    rw [gg_ok hresp] at e1 e2
    cases e1
    cases e2
    exact (w b z k).2.1

/-! ## Non-vacuity -/

theorem demo_counts : Counts demo where
  grid := demo_gentle
  mass := fun m _ => by simp only [demo]; positivity
  halos := fun z m _ => by simp only [demo]; positivity
  cen := fun b z m _ => by simp only [demo]; norm_num
  sat := fun b z m _ => by simp only [demo]; positivity
  prof := fun z k m _ => by simp only [demo, Hmi.uSat, demoRaw]; positivity
  fC := fun b z => by simp only [demo]; norm_num
  fS := fun b z => by simp only [demo]; norm_num
  nC := fun b z => by simp only [demo]; norm_num
  nS := fun b z => by simp only [demo]; norm_num

/-- with a factor of two instead of one the one-halo power of the demonstration object grows, at most twofold -/
example : ∃ r r', (paired demo fun _ => 1).powerSpectrumGg = .ok r ∧ (paired demo fun _ => 2).powerSpectrumGg = .ok r' ∧
    r.pk1h 0 0 0 ≤ r'.pk1h 0 0 0 ∧ r'.pk1h 0 0 0 ≤ 2 * r.pk1h 0 0 0 := by
  obtain ⟨r, r', e, e', w⟩ := C167_monotone (s := demo) rfl demo_counts (p := fun _ => 1) (q := fun _ => 2) (fun _ _ => by norm_num)
  exact ⟨r, r', e, e', (w 0 0 0).1, ((w 0 0 0).2.2 2 (by norm_num) (fun _ _ => by norm_num)).1⟩

/-- the demonstration object has its halos above the pivot of one -/
example : ∀ m < demo.nm, (10 : ℝ) ^ (0 : ℝ) ≤ demo.mass m := fun m _ => by
  simp only [demo, Real.rpow_zero]
  linarith [(Nat.cast_nonneg m : (0 : ℝ) ≤ m)]

example : ∀ m < demo.nm, powerLaw 1 (some 0) (some 2) (demo.mass m) = .ok (1 * (demo.mass m / (10 : ℝ) ^ (0 : ℝ)) ^ (2 : ℝ)) := fun _ _ => rfl

end Verif.Pk.PoissonFactor

import Verif.Model.PkRounded
import Verif.Lemmas.Rounded
import Verif.Lemmas.RoundedBinary
import Verif.Props.PkDemo

/-!
C111: rounding errors of the spectra.
-/

namespace Verif.PkRounded

open Verif.Lib Verif.Spec Verif.Pk

variable {R : Rounding}

/-- The stored inputs `t` are the inputs `s` up to `j` roundings each; the grids, the options and the parameters are
stored exactly. -/
structure Stored (R : Rounding) (j : ℕ) (s t : Pk.Spectra) : Prop where
  nm : t.nm = s.nm
  mass : t.mass = s.mass
  kVec : t.kVec = s.kVec
  oneHaloKtrunc : t.oneHaloKtrunc = s.oneHaloKtrunc
  twoHaloKtrunc : t.twoHaloKtrunc = s.twoHaloKtrunc
  oneHaloKtruncIa : t.oneHaloKtruncIa = s.oneHaloKtruncIa
  twoHaloKtruncIa : t.twoHaloKtruncIa = s.twoHaloKtruncIa
  betaCen : t.betaCen = s.betaCen
  betaSat : t.betaSat = s.betaSat
  mpivotCen : t.mpivotCen = s.mpivotCen
  mpivotSat : t.mpivotSat = s.mpivotSat
  dndlnm : ∀ z m, Near j (s.dndlnm z m) ((t.dndlnm z m : ℝ) : Fl R)
  haloBias : ∀ z m, Near j (s.haloBias z m) ((t.haloBias z m : ℝ) : Fl R)
  meanDensity0 : ∀ z, Near j (s.meanDensity0 z) ((t.meanDensity0 z : ℝ) : Fl R)
  uDm : ∀ z k m, Near j (s.uDm z k m) ((t.uDm z k m : ℝ) : Fl R)
  uSat : ∀ z k m, Near j (s.uSat z k m) ((t.uSat z k m : ℝ) : Fl R)
  growthFactor : ∀ z, Near j (s.growthFactor z) ((t.growthFactor z : ℝ) : Fl R)
  pkLin : ∀ z k, Near j (s.pkLin z k) ((t.pkLin z k : ℝ) : Fl R)
  fC : ∀ b z, Near j (s.fC b z) ((t.fC b z : ℝ) : Fl R)
  fS : ∀ b z, Near j (s.fS b z) ((t.fS b z : ℝ) : Fl R)
  hodCen : ∀ b z m, Near j (s.hodCen b z m) ((t.hodCen b z m : ℝ) : Fl R)
  hodSat : ∀ b z m, Near j (s.hodSat b z m) ((t.hodSat b z m : ℝ) : Fl R)
  numberDensity : ∀ b z, Near j (s.numberDensity b z) ((t.numberDensity b z : ℝ) : Fl R)
  numberDensityCen : ∀ b z, Near j (s.numberDensityCen b z) ((t.numberDensityCen b z : ℝ) : Fl R)
  numberDensitySat : ∀ b z, Near j (s.numberDensitySat b z) ((t.numberDensitySat b z : ℝ) : Fl R)
  avgHaloMassCen : ∀ b z, Near j (s.avgHaloMassCen b z) ((t.avgHaloMassCen b z : ℝ) : Fl R)
  poissonFunc : ∀ m, Near j (s.poissonFunc m) ((t.poissonFunc m : ℝ) : Fl R)
  alignmentGi : ∀ z, Near j (s.alignmentGi z) ((t.alignmentGi z : ℝ) : Fl R)
  wkmSat : ∀ z k m, Near j (s.wkmSat z k m) ((t.wkmSat z k m : ℝ) : Fl R)

/-- inputs which are floating-point numbers are stored exactly -/
theorem Stored.exact (s : Pk.Spectra) : Stored R 0 s s := by
  constructor <;> first | rfl | (intros; exact near_exact _)

/-- The inputs are the usual ones: masses on a smooth grid, non-negative abundances and profiles. -/
structure Usual (s : Pk.Spectra) : Prop where
  grid : SmoothGrid s.nm s.mass
  mass : ∀ m < s.nm, 0 < s.mass m
  kVec : ∀ k, 0 < s.kVec k
  oneHaloKtrunc : ∀ kt, s.oneHaloKtrunc = some kt → 0 < kt
  dndlnm : ∀ z, ∀ m < s.nm, 0 ≤ s.dndlnm z m
  haloBias : ∀ z, ∀ m < s.nm, 0 ≤ s.haloBias z m
  meanDensity0 : ∀ z, 0 < s.meanDensity0 z
  uDm : ∀ z k, ∀ m < s.nm, 0 ≤ s.uDm z k m
  uSat : ∀ z k, ∀ m < s.nm, 0 ≤ s.uSat z k m
  pkLin : ∀ z k, 0 ≤ s.pkLin z k
  fC : ∀ b z, 0 ≤ s.fC b z
  fS : ∀ b z, 0 ≤ s.fS b z
  hodCen : ∀ b z, ∀ m < s.nm, 0 ≤ s.hodCen b z m
  hodSat : ∀ b z, ∀ m < s.nm, 0 ≤ s.hodSat b z m
  numberDensityCen : ∀ b z, 0 < s.numberDensityCen b z
  numberDensitySat : ∀ b z, 0 < s.numberDensitySat b z
  poissonFunc : ∀ m < s.nm, 0 ≤ s.poissonFunc m

section lemmas

variable {j : ℕ} {s t : Pk.Spectra}

/-! ### profiles -/

theorem matterProfile_near (S : Stored R j s t) (z k m : ℕ) :
    Near (2 * j + 2) (s.matterProfile z k m) (matterProfile t z k m : Fl R) := by
  unfold matterProfile Spectra.matterProfile Spectra.computeMatterProfile
  rw [S.mass]
  exact (((near_exact _).div (S.meanDensity0 z)).mul (S.uDm z k m)).mono (by omega)

theorem central_near (S : Stored R j s t) (b z k m : ℕ) :
    Near (3 * j + 3) (s.centralGalaxyProfile b z k m) (centralGalaxyProfile t b z k m : Fl R) :=
  (((((S.fC b z).mul (S.hodCen b z m)).mul (near_exact 1)).div (S.numberDensityCen b z))).mono (by omega)

theorem satellite_near (S : Stored R j s t) (b z k m : ℕ) :
    Near (4 * j + 3) (s.satelliteGalaxyProfile b z k m) (satelliteGalaxyProfile t b z k m : Fl R) :=
  (((((S.fS b z).mul (S.hodSat b z m)).mul (S.uSat z k m)).div (S.numberDensitySat b z))).mono (by omega)

theorem additional_near (S : Stored R j s t) (b z : ℕ) {beta mpivot : Option ℝ} (hb : ∀ x, beta = some x → |x| ≤ 10)
    (hm : ∀ x, mpivot = some x → 0 < s.massAvg b z / x) :
    Near (20 * j + R.lib + 20) (Spectra.additionalTerm beta mpivot (s.massAvg b z))
      (additionalTerm beta mpivot (massAvg t b z) : Fl R) := by
  have ha : Near (2 * j + 1) (s.massAvg b z) (massAvg t b z : Fl R) :=
    ((S.avgHaloMassCen b z).div (S.numberDensity b z)).mono (by omega)
  unfold Spectra.additionalTerm additionalTerm
  rcases beta with _ | x <;> rcases mpivot with _ | m
  · exact (near_exact 1).mono (by omega)
  · exact (near_exact 1).mono (by omega)
  · exact (near_exact 1).mono (by omega)
  · exact ((ha.div (near_exact m)).rpow (hm m rfl) (c := 10) (by exact_mod_cast hb x rfl)).mono (by omega)

theorem satAlign_near (S : Stored R j s t) (b z k m : ℕ) (hb : ∀ x, s.betaSat = some x → |x| ≤ 10)
    (hm : ∀ x, s.mpivotSat = some x → 0 < s.massAvg b z / x) :
    Near (24 * j + R.lib + 24) (s.satelliteAlignmentProfile b z k m) (satelliteAlignmentProfile t b z k m : Fl R) := by
  unfold Spectra.satelliteAlignmentProfile satelliteAlignmentProfile
  rw [S.betaSat, S.mpivotSat]
  exact ((((((S.fS b z).mul (S.hodSat b z m)).mul (S.wkmSat z k m)).div (S.numberDensitySat b z))).mul
    (additional_near S b z hb hm)).mono (by omega)

theorem cenAlign_near (S : Stored R j s t) (b z k m : ℕ) (hb : ∀ x, s.betaCen = some x → |x| ≤ 10)
    (hm : ∀ x, s.mpivotCen = some x → 0 < s.massAvg b z / x) :
    Near (24 * j + R.lib + 26) (s.centralAlignmentProfile b z k m) (centralAlignmentProfile t b z k m : Fl R) := by
  unfold Spectra.centralAlignmentProfile centralAlignmentProfile
  rw [S.betaCen, S.mpivotCen, S.mass]
  exact ((((S.fC b z).mul (((near_exact _).mul (S.alignmentGi z)).div (S.growthFactor z))).mul (near_exact _)).mul
    (additional_near S b z hb hm)).mono (by omega)

/-! ### damping functions -/

theorem oneHaloTruncation_near (S : Stored R j s t) (k : ℕ) (hk : 0 < s.kVec k)
    (hkt : ∀ kt, s.oneHaloKtrunc = some kt → 0 < kt) :
    Near (2 * R.lib + 10) (s.oneHaloTruncation k) (oneHaloTruncation t k : Fl R) := by
  unfold Spectra.oneHaloTruncation oneHaloTruncation
  rw [S.oneHaloKtrunc, S.kVec]
  rcases h : s.oneHaloKtrunc with _ | kt
  · exact (near_exact 1).mono (by omega)
  · have h0 := hkt kt h
    have p : Near (R.lib + 4) ((s.kVec k / kt) ^ 4) ((((s.kVec k : ℝ) : Fl R) / ((kt : ℝ) : Fl R)).rpow 4) :=
      (((near_exact _).div (near_exact _)).rpow_nat (div_pos hk h0) 4 (by norm_num)).mono (by omega)
    have q := ((near_exact (R := R) 1).mono (k := R.lib + 4) (by omega)).add p (by norm_num) (by positivity)
    exact (p.div q).mono (by omega)

theorem oneHaloTruncation_nonneg (k : ℕ) : 0 ≤ s.oneHaloTruncation k := by
  unfold Spectra.oneHaloTruncation
  split
  · norm_num
  · positivity

theorem twoHaloTruncation_pos (k : ℕ) (hk : 0 < s.kVec k) : 0 < s.twoHaloTruncation k := by
  unfold Spectra.twoHaloTruncation
  split
  · norm_num
  · have hx : (0 : ℝ) < (s.kVec k / 0.05699) ^ (2.853 : ℝ) := Real.rpow_pos_of_pos (by positivity) _
    generalize (s.kVec k / 0.05699) ^ (2.853 : ℝ) = x at hx
    rw [sub_pos, div_lt_one (by positivity)]
    norm_num; linarith

theorem twoHaloTruncation_est (S : Stored R j s t) (k : ℕ) (hk : 0 < s.kVec k) :
    Est (4 * R.lib + 22) (s.twoHaloTruncation k) (s.twoHaloTruncation k) (twoHaloTruncation t k : Fl R) := by
  have hpos := twoHaloTruncation_pos (s := s) k hk
  unfold Spectra.twoHaloTruncation at hpos ⊢
  unfold twoHaloTruncation
  rw [S.twoHaloKtrunc, S.kVec]
  rcases h : s.twoHaloKtrunc with _ | kt
  · exact (Est.exact' (R := R) (x := 1) (by norm_num)).mono (by omega)
  · simp only [h] at hpos
    have hq : (0 : ℝ) < s.kVec k / 0.05699 := by positivity
    have p : Near (R.lib + 3) ((s.kVec k / 0.05699) ^ (2.853 : ℝ))
        ((((s.kVec k : ℝ) : Fl R) / ((0.05699 : ℝ) : Fl R)).rpow 2.853) :=
      (((near_exact _).div (near_exact _)).rpow hq (c := 3) (by rw [abs_of_pos (by norm_num)]; norm_num)).mono (by omega)
    have hx : (0 : ℝ) < (s.kVec k / 0.05699) ^ (2.853 : ℝ) := Real.rpow_pos_of_pos hq _
    have q := ((near_exact (R := R) 1).mono (k := R.lib + 3) (by omega)).add p (by norm_num) hx.le
    have d := (((near_exact (R := R) 0.05).mul p).div q).est' (by positivity)
    have e := ((Est.exact' (R := R) (x := 1) (by norm_num)).mono (by omega)).sub d
    generalize (s.kVec k / 0.05699) ^ (2.853 : ℝ) = x at *
    have e2 := (e.weaken (b := ((2 : ℕ) : ℝ) * (1 - 0.05 * x / (1 + x))) (by
      have : 0.05 * x / (1 + x) ≤ 0.05 := by rw [div_le_iff₀ (by positivity)]; norm_num
      norm_num at this ⊢; linarith)).absorb 2 (by rw [abs_of_pos hpos])
    exact e2.mono (by omega)

theorem oneHaloTruncationIa_est (S : Stored R j s t) (k : ℕ) (hk : 0 < s.kVec k)
    (hkt : ∀ kt, s.oneHaloKtruncIa = some kt → 0 < kt) :
    Est (2 * R.lib + 3) 2 (s.oneHaloTruncationIa k) (oneHaloTruncationIa t k : Fl R) := by
  unfold Spectra.oneHaloTruncationIa oneHaloTruncationIa
  rw [S.oneHaloKtruncIa, S.kVec]
  rcases h : s.oneHaloKtruncIa with _ | kt
  · exact ((Est.exact' (R := R) (x := 1) (by norm_num)).weaken (by norm_num)).mono (by omega)
  · have h0 := hkt kt h
    have p : Near (R.lib + 2) ((s.kVec k / kt) ^ 2) ((((s.kVec k : ℝ) : Fl R) / ((kt : ℝ) : Fl R)).rpow 2) :=
      (((near_exact _).div (near_exact _)).rpow_nat (div_pos hk h0) 2 (by norm_num)).mono (by omega)
    have e := exp_neg_est p (by positivity)
    have f := ((Est.exact' (R := R) (x := 1) (by norm_num)).mono (by omega)).sub e
    have := f.weaken (b := 2) (by norm_num)
    exact this.mono (by omega)

theorem twoHaloTruncationIa_est (S : Stored R j s t) (k : ℕ) (hk : 0 < s.kVec k)
    (hkt : ∀ kt, s.twoHaloKtruncIa = some kt → 0 < kt) :
    Est (2 * R.lib + 2) 1 (s.twoHaloTruncationIa k) (twoHaloTruncationIa t k : Fl R) := by
  unfold Spectra.twoHaloTruncationIa twoHaloTruncationIa
  rw [S.twoHaloKtruncIa, S.kVec]
  rcases h : s.twoHaloKtruncIa with _ | kt
  · exact ((Est.exact' (R := R) (x := 1) (by norm_num))).mono (by omega)
  · have h0 := hkt kt h
    have p : Near (R.lib + 2) ((s.kVec k / kt) ^ 2) ((((s.kVec k : ℝ) : Fl R) / ((kt : ℝ) : Fl R)).rpow 2) :=
      (((near_exact _).div (near_exact _)).rpow_nat (div_pos hk h0) 2 (by norm_num)).mono (by omega)
    exact (exp_neg_est p (by positivity)).mono (by omega)

/-! ### integrals -/

theorem oneHalo_est (S : Stored R j s t) (g : SmoothGrid s.nm s.mass) (hm : ∀ m < s.nm, 0 < s.mass m) {ku kv : ℕ}
    {au av u v : ℕ → ℝ} {U V : ℕ → Fl R} (z : ℕ) (hu : ∀ m < s.nm, Est ku (au m) (u m) (U m))
    (hv : ∀ m < s.nm, Est kv (av m) (v m) (V m)) :
    Est (7 * (ku + kv + j + s.nm / 2 + R.lib + 20))
      (simpson s.nm s.mass fun m => au m * av m * |s.dndlnm z m| / s.mass m) (s.compute1hTerm u v z)
      (compute1hTerm t U V z) := by
  unfold Spectra.compute1hTerm compute1hTerm
  rw [S.nm, S.mass]
  refine (simpson_est g (k := ku + kv + j + 3) fun m h => ?_).mono (by omega)
  exact ((((hu m h).mul (hv m h)).mul (S.dndlnm z m).est).div' (near_exact _) (hm m h).le).mono (by omega)

theorem ig_est (S : Stored R j s t) (g : SmoothGrid s.nm s.mass) (hm : ∀ m < s.nm, 0 < s.mass m) {ku : ℕ}
    {au u : ℕ → ℝ} {U : ℕ → Fl R} (z : ℕ) (hu : ∀ m < s.nm, Est ku (au m) (u m) (U m)) :
    Est (7 * (ku + 2 * j + s.nm / 2 + R.lib + 20))
      (simpson s.nm s.mass fun m => au m * |s.haloBias z m| * |s.dndlnm z m| / s.mass m) (s.computeIgTerm u z)
      (computeIgTerm t U z) := by
  unfold Spectra.computeIgTerm computeIgTerm
  rw [S.nm, S.mass]
  refine (simpson_est g (k := ku + 2 * j + 3) fun m h => ?_).mono (by omega)
  exact ((((hu m h).mul (S.haloBias z m).est).mul (S.dndlnm z m).est).div' (near_exact _) (hm m h).le).mono (by omega)

/-- the integral of bias and mass function, with the sizes of both -/
noncomputable def biasSize (s : Pk.Spectra) (z : ℕ) : ℝ :=
  simpson s.nm s.mass fun m => |s.haloBias z m| * |s.dndlnm z m| * (1 / |s.meanDensity0 z|)

theorem aTerm_est (S : Stored R j s t) (g : SmoothGrid s.nm s.mass) (z : ℕ) :
    Est (7 * (3 * j + s.nm / 2 + R.lib + 20) + 1) (1 + biasSize s z) (s.aTerm z) (aTerm t z : Fl R) := by
  unfold Spectra.aTerm aTerm biasSize
  rw [S.nm, S.mass]
  have i := simpson_est (R := R) g (k := 3 * j + 3)
    (a := fun m => |s.haloBias z m| * |s.dndlnm z m| * (1 / |s.meanDensity0 z|))
    (y := fun m => s.haloBias z m * s.dndlnm z m * (1 / s.meanDensity0 z))
    (Y := fun m => ((t.haloBias z m : ℝ) : Fl R) * ((t.dndlnm z m : ℝ) : Fl R)
      * (((1 : ℝ) : Fl R) / ((t.meanDensity0 z : ℝ) : Fl R))) (fun m h => by
      have := ((((S.haloBias z m).mul (S.dndlnm z m)).mul ((near_exact 1).div (S.meanDensity0 z))).est).mono
        (k := 3 * j + 3) (by omega)
      rwa [abs_mul, abs_mul, abs_div, abs_one] at this)
  exact ((Est.exact' (R := R) (x := 1) (by norm_num)).mono (by omega)).sub (i.mono (by omega))

/-- the matter integral, with the sizes of all factors -/
noncomputable def imSize (s : Pk.Spectra) (z k : ℕ) : ℝ :=
  simpson s.nm s.mass fun m => |s.haloBias z m| * |s.dndlnm z m| * |s.uDm z k m| * (1 / |s.meanDensity0 z|)

theorem imTerm_est (S : Stored R j s t) (g : SmoothGrid s.nm s.mass) (z k : ℕ) :
    Est (7 * (4 * j + s.nm / 2 + R.lib + 21) + 1) (imSize s z k + (1 + biasSize s z)) (s.imTerm z k)
      (imTerm t z k : Fl R) := by
  unfold Spectra.imTerm imTerm
  refine Est.add ?_ ((aTerm_est S g z).mono (by omega))
  unfold Spectra.computeImTerm computeImTerm imSize
  rw [S.nm, S.mass]
  refine (simpson_est g (k := 4 * j + 4) fun m h => ?_).mono (by omega)
  have := (((((S.haloBias z m).mul (S.dndlnm z m)).mul (S.uDm z k m)).mul
    ((near_exact 1).div (S.meanDensity0 z))).est).mono (k := 4 * j + 4) (by omega)
  rwa [abs_mul, abs_mul, abs_mul, abs_div, abs_one] at this

/-! ### the usual inputs -/

theorem matterProfile_nonneg (U : Usual s) {z k m : ℕ} (h : m < s.nm) : 0 ≤ s.matterProfile z k m :=
  mul_nonneg (div_nonneg (U.mass m h).le (U.meanDensity0 z).le) (U.uDm z k m h)

theorem central_nonneg (U : Usual s) {b z k m : ℕ} (h : m < s.nm) : 0 ≤ s.centralGalaxyProfile b z k m :=
  div_nonneg (mul_nonneg (mul_nonneg (U.fC b z) (U.hodCen b z m h)) zero_le_one) (U.numberDensityCen b z).le

theorem satellite_nonneg (U : Usual s) {b z k m : ℕ} (h : m < s.nm) : 0 ≤ s.satelliteGalaxyProfile b z k m :=
  div_nonneg (mul_nonneg (mul_nonneg (U.fS b z) (U.hodSat b z m h)) (U.uSat z k m h)) (U.numberDensitySat b z).le

theorem oneHalo_usual (S : Stored R j s t) (U : Usual s) {ku kv : ℕ} {u v : ℕ → ℝ} {P Q : ℕ → Fl R} (z : ℕ)
    (hu : ∀ m < s.nm, Near ku (u m) (P m)) (hv : ∀ m < s.nm, Near kv (v m) (Q m)) (pu : ∀ m < s.nm, 0 ≤ u m)
    (pv : ∀ m < s.nm, 0 ≤ v m) :
    Est (7 * (ku + kv + j + s.nm / 2 + R.lib + 20)) (s.compute1hTerm u v z) (s.compute1hTerm u v z)
      (compute1hTerm t P Q z) := by
  have := oneHalo_est S U.grid U.mass z (fun m h => (hu m h).est' (pu m h)) (fun m h => (hv m h).est' (pv m h))
  refine this.weaken (le_of_eq ?_)
  exact simpson_congr_right fun m h => by rw [abs_of_nonneg (U.dndlnm z m h)]

theorem ig_usual (S : Stored R j s t) (U : Usual s) {ku : ℕ} {u : ℕ → ℝ} {P : ℕ → Fl R} (z : ℕ)
    (hu : ∀ m < s.nm, Near ku (u m) (P m)) (pu : ∀ m < s.nm, 0 ≤ u m) :
    Est (7 * (ku + 2 * j + s.nm / 2 + R.lib + 20)) (s.computeIgTerm u z) (s.computeIgTerm u z)
      (computeIgTerm t P z) := by
  have := ig_est S U.grid U.mass z (fun m h => (hu m h).est' (pu m h))
  refine this.weaken (le_of_eq ?_)
  exact simpson_congr_right fun m h => by rw [abs_of_nonneg (U.dndlnm z m h), abs_of_nonneg (U.haloBias z m h)]

theorem ic_usual (S : Stored R j s t) (U : Usual s) (b z k : ℕ) :
    Est (7 * (6 * j + s.nm / 2 + R.lib + 23)) (s.icTerm b z k) (s.icTerm b z k) (icTerm t b z k : Fl R) :=
  (ig_usual S U z (fun m _ => central_near S b z k m) fun _ h => central_nonneg U h).mono (by omega)

theorem is_usual (S : Stored R j s t) (U : Usual s) (b z k : ℕ) :
    Est (7 * (6 * j + s.nm / 2 + R.lib + 23)) (s.isTerm b z k) (s.isTerm b z k) (isTerm t b z k : Fl R) :=
  (ig_usual S U z (fun m _ => satellite_near S b z k m) fun _ h => satellite_nonneg U h).mono (by omega)

theorem im_usual (S : Stored R j s t) (U : Usual s) {z : ℕ} (hA : 0 ≤ s.aTerm z) (k : ℕ) :
    Est (7 * (4 * j + s.nm / 2 + R.lib + 21) + 1) (s.imTerm z k + 2) (s.imTerm z k) (imTerm t z k : Fl R) := by
  refine (imTerm_est S U.grid z k).weaken ?_
  have h1 : imSize s z k = s.computeImTerm z k := simpson_congr_right fun m h => by
    rw [abs_of_nonneg (U.dndlnm z m h), abs_of_nonneg (U.haloBias z m h), abs_of_nonneg (U.uDm z k m h),
      abs_of_pos (U.meanDensity0 z)]
  have h2 : biasSize s z = 1 - s.aTerm z := by
    have : biasSize s z = simpson s.nm s.mass fun m => s.haloBias z m * s.dndlnm z m * (1 / s.meanDensity0 z) :=
      simpson_congr_right fun m h => by
        rw [abs_of_nonneg (U.dndlnm z m h), abs_of_nonneg (U.haloBias z m h), abs_of_pos (U.meanDensity0 z)]
    rw [this]; unfold Spectra.aTerm; ring
  rw [h1, h2]
  unfold Spectra.imTerm
  linarith

theorem lin_usual (S : Stored R j s t) (U : Usual s) (z k : ℕ) : Est j (s.pkLin z k) (s.pkLin z k) (pkLin t z k : Fl R) :=
  (S.pkLin z k).est' (U.pkLin z k)

theorem trunc1_usual (S : Stored R j s t) (U : Usual s) (k : ℕ) :
    Est (2 * R.lib + 10) (s.oneHaloTruncation k) (s.oneHaloTruncation k) (oneHaloTruncation t k : Fl R) :=
  (oneHaloTruncation_near S k (U.kVec k) U.oneHaloKtrunc).est' (oneHaloTruncation_nonneg k)

theorem mm1h_est (S : Stored R j s t) (U : Usual s) (z k : ℕ) :
    Est (35 * j + 7 * (s.nm / 2) + 9 * R.lib + 179)
      (s.compute1hTerm (s.matterProfile z k) (s.matterProfile z k) z * s.oneHaloTruncation k)
      (s.compute1hTerm (s.matterProfile z k) (s.matterProfile z k) z * s.oneHaloTruncation k) (mm1h t z k : Fl R) :=
  ((oneHalo_usual S U z (fun m _ => matterProfile_near S z k m) (fun m _ => matterProfile_near S z k m)
    (fun _ h => matterProfile_nonneg U h) fun _ h => matterProfile_nonneg U h).mul (trunc1_usual S U k)).mono (by omega)

theorem mm2h_est (S : Stored R j s t) (U : Usual s) {z : ℕ} (hA : 0 ≤ s.aTerm z) (k : ℕ) :
    Est (57 * j + 14 * (s.nm / 2) + 18 * R.lib + 323)
      (s.pkLin z k * (s.imTerm z k + 2) * (s.imTerm z k + 2) * s.twoHaloTruncation k)
      (s.pkLin z k * s.imTerm z k * s.imTerm z k * s.twoHaloTruncation k) (mm2h t z k : Fl R) :=
  ((((lin_usual S U z k).mul (im_usual S U hA k)).mul (im_usual S U hA k)).mul
    (twoHaloTruncation_est S k (U.kVec k))).mono (by omega)

theorem gg1h_est (S : Stored R j s t) (U : Usual s) (b z k : ℕ) :
    Est (70 * j + 7 * (s.nm / 2) + 9 * R.lib + 203)
      (2 * (s.compute1hTerm (s.centralGalaxyProfile b z k) (s.satelliteGalaxyProfile b z k) z * s.oneHaloTruncation k)
        + s.compute1hTerm (fun m => s.satelliteGalaxyProfile b z k m * s.poissonFunc m)
          (s.satelliteGalaxyProfile b z k) z * s.oneHaloTruncation k)
      (2 * (s.compute1hTerm (s.centralGalaxyProfile b z k) (s.satelliteGalaxyProfile b z k) z * s.oneHaloTruncation k)
        + s.compute1hTerm (fun m => s.satelliteGalaxyProfile b z k m * s.poissonFunc m)
          (s.satelliteGalaxyProfile b z k) z * s.oneHaloTruncation k) (gg1h t b z k : Fl R) := by
  have cs := (oneHalo_usual S U z (fun m _ => central_near S b z k m) (fun m _ => satellite_near S b z k m)
    (fun _ h => central_nonneg U h) fun _ h => satellite_nonneg U h).mul (trunc1_usual S U k)
  have ss := (oneHalo_usual S U z (fun m _ => (satellite_near S b z k m).mul (S.poissonFunc m))
    (fun m _ => satellite_near S b z k m) (fun m h => mul_nonneg (satellite_nonneg U h) (U.poissonFunc m h))
    fun _ h => satellite_nonneg U h).mul (trunc1_usual S U k)
  exact ((((Est.exact' (R := R) (x := 2) (by norm_num)).mul cs).mono
    (k := 70 * j + 7 * (s.nm / 2) + 9 * R.lib + 202) (by omega)).add (ss.mono (by omega)))

theorem gg2h_est (S : Stored R j s t) (U : Usual s) (b z k : ℕ) :
    Est (85 * j + 14 * (s.nm / 2) + 18 * R.lib + 350)
      (s.pkLin z k * s.icTerm b z k * s.icTerm b z k * s.twoHaloTruncation k
        + s.pkLin z k * s.isTerm b z k * s.isTerm b z k * s.twoHaloTruncation k
        + 2 * (s.pkLin z k * s.icTerm b z k * s.isTerm b z k * s.twoHaloTruncation k))
      (s.pkLin z k * s.icTerm b z k * s.icTerm b z k * s.twoHaloTruncation k
        + s.pkLin z k * s.isTerm b z k * s.isTerm b z k * s.twoHaloTruncation k
        + 2 * (s.pkLin z k * s.icTerm b z k * s.isTerm b z k * s.twoHaloTruncation k)) (gg2h t b z k : Fl R) := by
  have l := lin_usual S U z k
  have c := ic_usual S U b z k
  have d := is_usual S U b z k
  have T := twoHaloTruncation_est S k (U.kVec k)
  have cc := ((l.mul c).mul c).mul T
  have ss := ((l.mul d).mul d).mul T
  have cs := ((l.mul c).mul d).mul T
  exact ((cc.add ss).mono (k := 85 * j + 14 * (s.nm / 2) + 18 * R.lib + 349) (by omega)).add
    (((Est.exact' (R := R) (x := 2) (by norm_num)).mul cs).mono (by omega))

theorem gm1h_est (S : Stored R j s t) (U : Usual s) (b z k : ℕ) :
    Est (49 * j + 7 * (s.nm / 2) + 9 * R.lib + 187)
      (s.compute1hTerm (s.centralGalaxyProfile b z k) (s.matterProfile z k) z * s.oneHaloTruncation k
        + s.compute1hTerm (s.satelliteGalaxyProfile b z k) (s.matterProfile z k) z * s.oneHaloTruncation k)
      (s.compute1hTerm (s.centralGalaxyProfile b z k) (s.matterProfile z k) z * s.oneHaloTruncation k
        + s.compute1hTerm (s.satelliteGalaxyProfile b z k) (s.matterProfile z k) z * s.oneHaloTruncation k)
      (gm1h t b z k : Fl R) := by
  have c := (oneHalo_usual S U z (fun m _ => central_near S b z k m) (fun m _ => matterProfile_near S z k m)
    (fun _ h => central_nonneg U h) fun _ h => matterProfile_nonneg U h).mul (trunc1_usual S U k)
  have d := (oneHalo_usual S U z (fun m _ => satellite_near S b z k m) (fun m _ => matterProfile_near S z k m)
    (fun _ h => satellite_nonneg U h) fun _ h => matterProfile_nonneg U h).mul (trunc1_usual S U k)
  exact (c.mono (k := 49 * j + 7 * (s.nm / 2) + 9 * R.lib + 186) (by omega)).add (d.mono (by omega))

theorem gm2h_est (S : Stored R j s t) (U : Usual s) {z : ℕ} (hA : 0 ≤ s.aTerm z) (b k : ℕ) :
    Est (71 * j + 14 * (s.nm / 2) + 18 * R.lib + 337)
      (s.pkLin z k * s.icTerm b z k * (s.imTerm z k + 2) * s.twoHaloTruncation k
        + s.pkLin z k * s.isTerm b z k * (s.imTerm z k + 2) * s.twoHaloTruncation k)
      (s.pkLin z k * s.icTerm b z k * s.imTerm z k * s.twoHaloTruncation k
        + s.pkLin z k * s.isTerm b z k * s.imTerm z k * s.twoHaloTruncation k) (gm2h t b z k : Fl R) := by
  have l := lin_usual S U z k
  have c := ic_usual S U b z k
  have d := is_usual S U b z k
  have i := im_usual S U hA k
  have T := twoHaloTruncation_est S k (U.kVec k)
  exact ((((l.mul c).mul i).mul T).mono (k := 71 * j + 14 * (s.nm / 2) + 18 * R.lib + 336) (by omega)).add
    ((((l.mul d).mul i).mul T).mono (by omega))

end lemmas

/-! ## The theorems -/

variable {j : ℕ} {s t : Pk.Spectra}

theorem gamma_of_est {k K : ℕ} {a x : ℝ} {X : Fl R} (h : Est k a x X) (hk : k ≤ K) (hK : (K : ℝ) * R.u < 1) :
    |X.val - x| ≤ gamma R.u K * a :=
  (h.mono hk).bound hK

/-- Simpson's rule of `n` stored values on a smooth grid is the exact rule up to `7 (n/2 + lib + 17)` roundings of the
integral of the sizes of the values, whatever the order in which the panels are added. -/
theorem C111_simpson {n : ℕ} {x y : ℕ → ℝ} (g : SmoothGrid n x)
    (hK : ((7 * (n / 2 + R.lib + 17) : ℕ) : ℝ) * R.u < 1) :
    |(Fl.simpson n (fun i => ((x i : ℝ) : Fl R)) (fun i => ((y i : ℝ) : Fl R))).val - simpson n x y|
      ≤ gamma R.u (7 * (n / 2 + R.lib + 17)) * simpson n x (fun i => |y i|) :=
  gamma_of_est (simpson_est (k := 0) g fun i _ => Est.exact (y i)) (by omega) hK

/-- The matter power spectrum: the computed value is the exact one up to `K` roundings of the 1-halo term plus the 2-halo
term with `I_m + 2` for `I_m`. -/
theorem C111_mm (S : Stored R j s t) (U : Usual s) (hresp : s.response = false)
    (hmode : s.nonlinearMode ≠ .bnl ∧ s.nonlinearMode ≠ .hmcode)
    (hing : s.hmcodeIngredients = .none ∨ s.hmcodeIngredients = .mead2020) {r : PkResult}
    (hr : s.powerSpectrumMm = .ok r) {z : ℕ} (hA : 0 ≤ s.aTerm z) (b k : ℕ)
    (hK : ((57 * j + 14 * (s.nm / 2) + 18 * R.lib + 324 : ℕ) : ℝ) * R.u < 1) :
    |(mmTot t z k : Fl R).val - r.pkTot b z k|
      ≤ gamma R.u (57 * j + 14 * (s.nm / 2) + 18 * R.lib + 324)
        * (r.pk1h b z k + s.pkLin z k * (s.imTerm z k + 2) ^ 2 * s.twoHaloTruncation k) := by
  have hp : s.matterProfile1hMm z k = s.matterProfile z k := by
    funext m
    unfold Spectra.matterProfile1hMm
    rcases hing with h | h <;> rw [h]
  have e : r.pk1h b z k = s.compute1hTerm (s.matterProfile z k) (s.matterProfile z k) z * s.oneHaloTruncation k
      ∧ r.pkTot b z k = r.pk1h b z k + s.pkLin z k * s.imTerm z k * s.imTerm z k * s.twoHaloTruncation k := by
    unfold Spectra.powerSpectrumMm Spectra.powerSpectrumMmRaw at hr
    rw [hresp] at hr
    simp only [Bool.false_eq_true, if_false] at hr
    split at hr
    · next h => exact absurd h hmode.1
    · next h => exact absurd h hmode.2
    · obtain rfl := Except.ok.inj hr
      exact ⟨by rw [← hp], rfl⟩
  rw [e.2, e.1]
  refine gamma_of_est ?_ le_rfl hK
  have := ((mm1h_est S U z k).mono (k := 57 * j + 14 * (s.nm / 2) + 18 * R.lib + 323) (by omega)).add
    (mm2h_est S U hA k)
  refine this.weaken (le_of_eq ?_)
  ring

/-- The galaxy power spectrum has a relative error of at most `K` roundings. -/
theorem C111_gg (S : Stored R j s t) (U : Usual s) (hresp : s.response = false) (hmode : s.nonlinearMode ≠ .bnl)
    {r : PkResult} (hr : s.powerSpectrumGg = .ok r) (b z k : ℕ)
    (hK : ((85 * j + 14 * (s.nm / 2) + 18 * R.lib + 351 : ℕ) : ℝ) * R.u < 1) :
    |(ggTot t b z k : Fl R).val - r.pkTot b z k|
      ≤ gamma R.u (85 * j + 14 * (s.nm / 2) + 18 * R.lib + 351) * r.pkTot b z k := by
  unfold Spectra.powerSpectrumGg Spectra.applyResponse at hr
  rw [hresp] at hr
  simp only [Bool.false_eq_true, if_false] at hr
  obtain rfl := Except.ok.inj hr
  simp only [Spectra.powerSpectrumGgRaw, if_neg hmode]
  exact gamma_of_est (((gg1h_est S U b z k).mono (k := 85 * j + 14 * (s.nm / 2) + 18 * R.lib + 350) (by omega)).add
    (gg2h_est S U b z k)) le_rfl hK

/-- The galaxy-matter power spectrum: up to `K` roundings of the 1-halo term plus the 2-halo term with `I_m + 2` for
`I_m`. -/
theorem C111_gm (S : Stored R j s t) (U : Usual s) (hresp : s.response = false) (hmode : s.nonlinearMode ≠ .bnl)
    (hing : s.hmcodeIngredients = .none ∧ s.pointmass = false ∨ s.hmcodeIngredients = .mead2020)
    {r : PkResult} (hr : s.powerSpectrumGm = .ok r) {z : ℕ} (hA : 0 ≤ s.aTerm z) (b k : ℕ)
    (hK : ((71 * j + 14 * (s.nm / 2) + 18 * R.lib + 338 : ℕ) : ℝ) * R.u < 1) :
    |(gmTot t b z k : Fl R).val - r.pkTot b z k|
      ≤ gamma R.u (71 * j + 14 * (s.nm / 2) + 18 * R.lib + 338)
        * (r.pk1h b z k
          + s.pkLin z k * (s.icTerm b z k + s.isTerm b z k) * (s.imTerm z k + 2) * s.twoHaloTruncation k) := by
  have hp : s.matterProfile1hG b z k = s.matterProfile z k := by
    funext m
    unfold Spectra.matterProfile1hG
    rcases hing with ⟨h, h'⟩ | h
    · rw [h, h']; simp
    · rw [h]
  unfold Spectra.powerSpectrumGm Spectra.applyResponse at hr
  rw [hresp] at hr
  simp only [Bool.false_eq_true, if_false] at hr
  obtain rfl := Except.ok.inj hr
  simp only [Spectra.powerSpectrumGmRaw, if_neg hmode, hp]
  refine gamma_of_est ?_ le_rfl hK
  have := ((gm1h_est S U b z k).mono (k := 71 * j + 14 * (s.nm / 2) + 18 * R.lib + 337) (by omega)).add
    (gm2h_est S U hA b k)
  refine this.weaken (le_of_eq ?_)
  ring

/-! ## Alignment -/

/-- The integral of the missing mass: the error is absolute, of the size of one plus the integral; in particular the term
need not have a small relative error when it is close to zero. -/
theorem C111_missing_mass (S : Stored R j s t) (U : Usual s) {z : ℕ} (hA : 0 ≤ s.aTerm z)
    (hK : ((21 * j + 7 * (s.nm / 2) + 7 * R.lib + 141 : ℕ) : ℝ) * R.u < 1) :
    |(aTerm t z : Fl R).val - s.aTerm z| ≤ gamma R.u (21 * j + 7 * (s.nm / 2) + 7 * R.lib + 141) * 2 := by
  have h2 : biasSize s z = 1 - s.aTerm z := by
    have : biasSize s z = simpson s.nm s.mass fun m => s.haloBias z m * s.dndlnm z m * (1 / s.meanDensity0 z) :=
      simpson_congr_right fun m h => by
        rw [abs_of_nonneg (U.dndlnm z m h), abs_of_nonneg (U.haloBias z m h), abs_of_pos (U.meanDensity0 z)]
    rw [this]; unfold Spectra.aTerm; ring
  exact gamma_of_est ((aTerm_est S U.grid z).weaken (b := 2) (by rw [h2]; linarith)) (by omega) hK

/-- The 1-halo terms of the alignment spectra mi, ii and gi, for profiles of any sign: the error is at most `K` roundings
of twice the integral of the sizes of the profiles.  The factor is not the damping function at the scale but 2: the
function is computed as `1 - exp(-x)`, which loses its relative accuracy for small `x`. -/
theorem C111_alignment (S : Stored R j s t) (g : SmoothGrid s.nm s.mass) (hmass : ∀ m < s.nm, 0 < s.mass m)
    {b z k : ℕ} (hk : 0 < s.kVec k) (hkt : ∀ kt, s.oneHaloKtruncIa = some kt → 0 < kt)
    (hb : ∀ x, s.betaSat = some x → |x| ≤ 10) (hm : ∀ x, s.mpivotSat = some x → 0 < s.massAvg b z / x)
    (hK : ((343 * j + 7 * (s.nm / 2) + 25 * R.lib + 485 : ℕ) : ℝ) * R.u < 1) :
    |(mi1h t b z k : Fl R).val
        - -1 * s.compute1hTerm (s.matterProfile z k) (s.satelliteAlignmentProfile b z k) z * s.oneHaloTruncationIa k|
      ≤ gamma R.u (343 * j + 7 * (s.nm / 2) + 25 * R.lib + 485)
        * (2 * simpson s.nm s.mass fun m => |s.matterProfile z k m| * |s.satelliteAlignmentProfile b z k m|
          * |s.dndlnm z m| / s.mass m)
    ∧ |(ii1h t b z k : Fl R).val
        - s.compute1hTerm (s.satelliteAlignmentProfile b z k) (s.satelliteAlignmentProfile b z k) z
          * s.oneHaloTruncationIa k|
      ≤ gamma R.u (343 * j + 7 * (s.nm / 2) + 25 * R.lib + 485)
        * (2 * simpson s.nm s.mass fun m => |s.satelliteAlignmentProfile b z k m| * |s.satelliteAlignmentProfile b z k m|
          * |s.dndlnm z m| / s.mass m)
    ∧ |(gi1h t b z k : Fl R).val
        - s.compute1hTerm (s.centralGalaxyProfile b z k) (s.satelliteAlignmentProfile b z k) z * s.oneHaloTruncationIa k|
      ≤ gamma R.u (343 * j + 7 * (s.nm / 2) + 25 * R.lib + 485)
        * (2 * simpson s.nm s.mass fun m => |s.centralGalaxyProfile b z k m| * |s.satelliteAlignmentProfile b z k m|
          * |s.dndlnm z m| / s.mass m) := by
  have T := oneHaloTruncationIa_est S k hk hkt
  have a : ∀ m < s.nm, Est _ _ _ (satelliteAlignmentProfile t b z k m : Fl R) :=
    fun m _ => (satAlign_near S b z k m hb hm).est
  have p : ∀ m < s.nm, Est _ _ _ (matterProfile t z k m : Fl R) := fun m _ => (matterProfile_near S z k m).est
  have c : ∀ m < s.nm, Est _ _ _ (centralGalaxyProfile t b z k m : Fl R) := fun m _ => (central_near S b z k m).est
  refine ⟨?_, ?_, ?_⟩
  · have e := ((Est.exact (R := R) (-1)).mul (oneHalo_est S g hmass z p a)).mul T
    refine gamma_of_est (e.weaken (le_of_eq ?_)) (by omega) hK
    rw [abs_neg, abs_one]; ring
  · have e := (oneHalo_est S g hmass z a a).mul T
    exact gamma_of_est (e.weaken (le_of_eq (mul_comm _ _))) (by omega) hK
  · have e := (oneHalo_est S g hmass z c a).mul T
    exact gamma_of_est (e.weaken (le_of_eq (mul_comm _ _))) (by omega) hK

/-- the integral of an alignment profile over the haloes and the missing mass, with the sizes of all factors -/
noncomputable def alignSize (s : Pk.Spectra) (prof : ℕ → ℝ) (z : ℕ) : ℝ :=
  (simpson s.nm s.mass fun m => |prof m| * |s.haloBias z m| * |s.dndlnm z m| / s.mass m)
    + (1 + simpson s.nm s.mass fun m => |s.haloBias z m| * |s.dndlnm z m| * (1 / |s.meanDensity0 z|))
      * |prof 0| * |s.meanDensity0 z| / s.mass 0

theorem align_est (S : Stored R j s t) (g : SmoothGrid s.nm s.mass) (hmass : ∀ m < s.nm, 0 < s.mass m) (h0 : 0 < s.nm)
    {prof : ℕ → ℝ} {P : ℕ → Fl R} (z : ℕ) (hP : ∀ m, Near (24 * j + R.lib + 26) (prof m) (P m)) :
    Est (182 * j + 7 * (s.nm / 2) + 14 * R.lib + 323) (alignSize s prof z)
      (s.computeIgTerm prof z + s.aTerm z * prof 0 * s.meanDensity0 z / s.mass 0)
      (computeIgTerm t P z + aTerm t z * P 0 * ((t.meanDensity0 z : ℝ) : Fl R) / ((t.mass 0 : ℝ) : Fl R)) := by
  have i := ig_est S g hmass z fun m _ => (hP m).est
  have a := (((aTerm_est S g z).mul (hP 0).est).mul (S.meanDensity0 z).est).div' (near_exact (s.mass 0)) (hmass 0 h0).le
  rw [S.mass]
  exact (i.mono (k := 182 * j + 7 * (s.nm / 2) + 14 * R.lib + 322) (by omega)).add (a.mono (by omega))

/-- The 2-halo integrals of the alignment profiles of centrals and satellites, missing mass included: up to `K` roundings of
the integral of the sizes. -/
theorem C111_alignment_integrals (S : Stored R j s t) (g : SmoothGrid s.nm s.mass) (hmass : ∀ m < s.nm, 0 < s.mass m)
    (h0 : 0 < s.nm) {b z : ℕ} (k : ℕ)
    (hbc : ∀ x, s.betaCen = some x → |x| ≤ 10) (hmc : ∀ x, s.mpivotCen = some x → 0 < s.massAvg b z / x)
    (hbs : ∀ x, s.betaSat = some x → |x| ≤ 10) (hms : ∀ x, s.mpivotSat = some x → 0 < s.massAvg b z / x)
    (hK : ((182 * j + 7 * (s.nm / 2) + 14 * R.lib + 323 : ℕ) : ℝ) * R.u < 1) :
    |(icAlignTerm t b z k : Fl R).val - s.icAlignTerm b z k|
      ≤ gamma R.u (182 * j + 7 * (s.nm / 2) + 14 * R.lib + 323) * alignSize s (s.centralAlignmentProfile b z k) z
    ∧ |(isAlignTerm t b z k : Fl R).val - s.isAlignTerm b z k|
      ≤ gamma R.u (182 * j + 7 * (s.nm / 2) + 14 * R.lib + 323) * alignSize s (s.satelliteAlignmentProfile b z k) z :=
  ⟨gamma_of_est (align_est S g hmass h0 z fun m => cenAlign_near S b z k m hbc hmc) le_rfl hK,
    gamma_of_est (align_est S g hmass h0 z fun m => (satAlign_near S b z k m hbs hms).mono (by omega)) le_rfl hK⟩

/-- The matter-alignment power spectrum: up to `K` roundings of the sizes of its three terms, with `I_m + 2` for `I_m` and
without the damping functions of the alignment. -/
theorem C111_mi (S : Stored R j s t) (U : Usual s) (hresp : s.response = false)
    (hmode : s.nonlinearMode ≠ .bnl ∧ s.nonlinearMode ≠ .fortuna)
    (hing : s.hmcodeIngredients = .none ∧ s.pointmass = false ∨ s.hmcodeIngredients = .mead2020)
    {r : PkResult} (hr : s.powerSpectrumMi = .ok r) {z : ℕ} (hA : 0 ≤ s.aTerm z) (h0 : 0 < s.nm) {b k : ℕ}
    (hkt1 : ∀ kt, s.oneHaloKtruncIa = some kt → 0 < kt) (hkt2 : ∀ kt, s.twoHaloKtruncIa = some kt → 0 < kt)
    (hbc : ∀ x, s.betaCen = some x → |x| ≤ 10) (hmc : ∀ x, s.mpivotCen = some x → 0 < s.massAvg b z / x)
    (hbs : ∀ x, s.betaSat = some x → |x| ≤ 10) (hms : ∀ x, s.mpivotSat = some x → 0 < s.massAvg b z / x)
    (hK : ((211 * j + 14 * (s.nm / 2) + 23 * R.lib + 479 : ℕ) : ℝ) * R.u < 1) :
    |(miTot t b z k : Fl R).val - r.pkTot b z k|
      ≤ gamma R.u (211 * j + 14 * (s.nm / 2) + 23 * R.lib + 479)
        * (2 * (simpson s.nm s.mass fun m => |s.matterProfile z k m| * |s.satelliteAlignmentProfile b z k m|
              * |s.dndlnm z m| / s.mass m)
          + s.pkLin z k * (alignSize s (s.centralAlignmentProfile b z k) z + alignSize s (s.satelliteAlignmentProfile b z k) z)
            * (s.imTerm z k + 2)) := by
  have hp : s.matterProfile1hG b z k = s.matterProfile z k := by
    funext m
    unfold Spectra.matterProfile1hG
    rcases hing with ⟨h, h'⟩ | h
    · rw [h, h']; simp
    · rw [h]
  have e1 := ((Est.exact (R := R) (-1)).mul (oneHalo_est S U.grid U.mass z (fun m _ => (matterProfile_near S z k m).est)
    fun m _ => (satAlign_near S b z k m hbs hms).est)).mul (oneHaloTruncationIa_est S k (U.kVec k) hkt1)
  have T := twoHaloTruncationIa_est S k (U.kVec k) hkt2
  have l := (Est.exact (R := R) (-1)).mul (lin_usual S U z k)
  have ec := ((l.mul (align_est S U.grid U.mass h0 z fun m => cenAlign_near S b z k m hbc hmc)).mul (im_usual S U hA k)).mul T
  have es := ((l.mul (align_est S U.grid U.mass h0 z fun m => (satAlign_near S b z k m hbs hms).mono (by omega))).mul
    (im_usual S U hA k)).mul T
  have e := ((e1.mono (k := 211 * j + 14 * (s.nm / 2) + 23 * R.lib + 477) (by omega)).add (ec.mono (by omega))).add
    (es.mono (k := 211 * j + 14 * (s.nm / 2) + 23 * R.lib + 478) (by omega))
  have hx : r.pkTot b z k = -1 * s.compute1hTerm (s.matterProfile z k) (s.satelliteAlignmentProfile b z k) z
      * s.oneHaloTruncationIa k
      + -1 * s.pkLin z k * s.icAlignTerm b z k * s.imTerm z k * s.twoHaloTruncationIa k
      + -1 * s.pkLin z k * s.isAlignTerm b z k * s.imTerm z k * s.twoHaloTruncationIa k := by
    unfold Spectra.powerSpectrumMi Spectra.applyResponse at hr
    rw [hresp] at hr
    simp only [Bool.false_eq_true, if_false] at hr
    obtain rfl := Except.ok.inj hr
    obtain ⟨m1, m2⟩ := hmode
    rw [← hp]
    unfold Spectra.powerSpectrumMiRaw
    cases hm : s.nonlinearMode <;> first | rfl | exact absurd hm m1 | exact absurd hm m2
  rw [hx]
  refine gamma_of_est (e.weaken (le_of_eq ?_)) le_rfl hK
  rw [abs_neg, abs_one]
  ring

/-- The power spectrum of alignments: up to `K` roundings of the sizes of its four terms, without the damping functions. -/
theorem C111_ii (S : Stored R j s t) (U : Usual s) (hresp : s.response = false)
    (hmode : s.nonlinearMode ≠ .bnl ∧ s.nonlinearMode ≠ .fortuna)
    {r : PkResult} (hr : s.powerSpectrumIi = .ok r) {z : ℕ} (h0 : 0 < s.nm) {b k : ℕ}
    (hkt1 : ∀ kt, s.oneHaloKtruncIa = some kt → 0 < kt) (hkt2 : ∀ kt, s.twoHaloKtruncIa = some kt → 0 < kt)
    (hbc : ∀ x, s.betaCen = some x → |x| ≤ 10) (hmc : ∀ x, s.mpivotCen = some x → 0 < s.massAvg b z / x)
    (hbs : ∀ x, s.betaSat = some x → |x| ≤ 10) (hms : ∀ x, s.mpivotSat = some x → 0 < s.massAvg b z / x)
    (hK : ((365 * j + 14 * (s.nm / 2) + 30 * R.lib + 654 : ℕ) : ℝ) * R.u < 1) :
    |(iiTot t b z k : Fl R).val - r.pkTot b z k|
      ≤ gamma R.u (365 * j + 14 * (s.nm / 2) + 30 * R.lib + 654)
        * (2 * (simpson s.nm s.mass fun m => |s.satelliteAlignmentProfile b z k m| * |s.satelliteAlignmentProfile b z k m|
              * |s.dndlnm z m| / s.mass m)
          + s.pkLin z k * (alignSize s (s.centralAlignmentProfile b z k) z ^ 2 + alignSize s (s.satelliteAlignmentProfile b z k) z ^ 2
            + alignSize s (s.centralAlignmentProfile b z k) z * alignSize s (s.satelliteAlignmentProfile b z k) z)) := by
  have a : ∀ m < s.nm, Est _ _ _ (satelliteAlignmentProfile t b z k m : Fl R) := fun m _ => (satAlign_near S b z k m hbs hms).est
  have e1 := (oneHalo_est S U.grid U.mass z a a).mul (oneHaloTruncationIa_est S k (U.kVec k) hkt1)
  have T := twoHaloTruncationIa_est S k (U.kVec k) hkt2
  have l := lin_usual S U z k
  have ac := align_est S U.grid U.mass h0 z fun m => cenAlign_near S b z k m hbc hmc
  have as := align_est S U.grid U.mass h0 z fun m => (satAlign_near S b z k m hbs hms).mono (k := 24 * j + R.lib + 26) (by omega)
  have cc := ((l.mul ac).mul ac).mul T
  have ss := ((l.mul as).mul as).mul T
  have cs := ((l.mul ac).mul as).mul T
  have e := (((e1.mono (k := 365 * j + 14 * (s.nm / 2) + 30 * R.lib + 651) (by omega)).add (cc.mono (by omega))).add
    (ss.mono (k := 365 * j + 14 * (s.nm / 2) + 30 * R.lib + 652) (by omega))).add
    (cs.mono (k := 365 * j + 14 * (s.nm / 2) + 30 * R.lib + 653) (by omega))
  have hx : r.pkTot b z k = s.compute1hTerm (s.satelliteAlignmentProfile b z k) (s.satelliteAlignmentProfile b z k) z
      * s.oneHaloTruncationIa k
      + s.pkLin z k * s.icAlignTerm b z k * s.icAlignTerm b z k * s.twoHaloTruncationIa k
      + s.pkLin z k * s.isAlignTerm b z k * s.isAlignTerm b z k * s.twoHaloTruncationIa k
      + s.pkLin z k * s.icAlignTerm b z k * s.isAlignTerm b z k * s.twoHaloTruncationIa k := by
    unfold Spectra.powerSpectrumIi Spectra.applyResponse at hr
    rw [hresp] at hr
    simp only [Bool.false_eq_true, if_false] at hr
    obtain rfl := Except.ok.inj hr
    obtain ⟨m1, m2⟩ := hmode
    unfold Spectra.powerSpectrumIiRaw
    cases hm : s.nonlinearMode <;> first | rfl | exact absurd hm m1 | exact absurd hm m2
  rw [hx]
  refine gamma_of_est (e.weaken (le_of_eq ?_)) le_rfl hK
  ring

/-- The power spectrum of galaxies and alignments: up to `K` roundings of the sizes of its three terms, without the damping functions. -/
theorem C111_gi (S : Stored R j s t) (U : Usual s) (hresp : s.response = false)
    (hmode : s.nonlinearMode ≠ .bnl ∧ s.nonlinearMode ≠ .fortuna)
    {r : PkResult} (hr : s.powerSpectrumGi = .ok r) {z : ℕ} (h0 : 0 < s.nm) {b k : ℕ}
    (hkt1 : ∀ kt, s.oneHaloKtruncIa = some kt → 0 < kt) (hkt2 : ∀ kt, s.twoHaloKtruncIa = some kt → 0 < kt)
    (hbc : ∀ x, s.betaCen = some x → |x| ≤ 10) (hmc : ∀ x, s.mpivotCen = some x → 0 < s.massAvg b z / x)
    (hbs : ∀ x, s.betaSat = some x → |x| ≤ 10) (hms : ∀ x, s.mpivotSat = some x → 0 < s.massAvg b z / x)
    (hK : ((225 * j + 14 * (s.nm / 2) + 23 * R.lib + 491 : ℕ) : ℝ) * R.u < 1) :
    |(giTot t b z k : Fl R).val - r.pkTot b z k|
      ≤ gamma R.u (225 * j + 14 * (s.nm / 2) + 23 * R.lib + 491)
        * (2 * (simpson s.nm s.mass fun m => |s.centralGalaxyProfile b z k m| * |s.satelliteAlignmentProfile b z k m|
              * |s.dndlnm z m| / s.mass m)
          + s.pkLin z k * s.icTerm b z k * (alignSize s (s.centralAlignmentProfile b z k) z
            + alignSize s (s.satelliteAlignmentProfile b z k) z)) := by
  have a : ∀ m < s.nm, Est _ _ _ (satelliteAlignmentProfile t b z k m : Fl R) := fun m _ => (satAlign_near S b z k m hbs hms).est
  have c : ∀ m < s.nm, Est _ _ _ (centralGalaxyProfile t b z k m : Fl R) := fun m _ => (central_near S b z k m).est
  have e1 := (oneHalo_est S U.grid U.mass z c a).mul (oneHaloTruncationIa_est S k (U.kVec k) hkt1)
  have T := twoHaloTruncationIa_est S k (U.kVec k) hkt2
  have l := (lin_usual S U z k).mul (ic_usual S U b z k)
  have cc := (l.mul (align_est S U.grid U.mass h0 z fun m => cenAlign_near S b z k m hbc hmc)).mul T
  have cs := (l.mul (align_est S U.grid U.mass h0 z fun m => (satAlign_near S b z k m hbs hms).mono (k := 24 * j + R.lib + 26) (by omega))).mul T
  have e := ((e1.mono (k := 225 * j + 14 * (s.nm / 2) + 23 * R.lib + 489) (by omega)).add (cs.mono (by omega))).add
    (cc.mono (k := 225 * j + 14 * (s.nm / 2) + 23 * R.lib + 490) (by omega))
  have hx : r.pkTot b z k = s.compute1hTerm (s.centralGalaxyProfile b z k) (s.satelliteAlignmentProfile b z k) z
      * s.oneHaloTruncationIa k
      + s.pkLin z k * s.icTerm b z k * s.isAlignTerm b z k * s.twoHaloTruncationIa k
      + s.pkLin z k * s.icTerm b z k * s.icAlignTerm b z k * s.twoHaloTruncationIa k := by
    unfold Spectra.powerSpectrumGi Spectra.applyResponse at hr
    rw [hresp] at hr
    simp only [Bool.false_eq_true, if_false] at hr
    obtain rfl := Except.ok.inj hr
    obtain ⟨m1, m2⟩ := hmode
    unfold Spectra.powerSpectrumGiRaw
    cases hm : s.nonlinearMode <;> first | rfl | exact absurd hm m1 | exact absurd hm m2
  rw [hx]
  refine gamma_of_est (e.weaken (le_of_eq ?_)) le_rfl hK
  ring

/-! ## Double precision -/

/-- In double precision, with at most a thousand masses, library functions accurate to four roundings, and inputs taken as
stored, the galaxy power spectrum has twelve correct digits. -/
theorem C111_double_precision (U : Usual s) (hresp : s.response = false) (hmode : s.nonlinearMode ≠ .bnl)
    (hu : R.u = 1 / 2 ^ 53) (hlib : R.lib ≤ 4) (hnm : s.nm ≤ 1000) {r : PkResult} (hr : s.powerSpectrumGg = .ok r)
    (b z k : ℕ) : |(ggTot s b z k : Fl R).val - r.pkTot b z k| ≤ 1e-12 * r.pkTot b z k := by
  have hKle : 85 * 0 + 14 * (s.nm / 2) + 18 * R.lib + 351 ≤ 7423 := by omega
  have hK1 : ((85 * 0 + 14 * (s.nm / 2) + 18 * R.lib + 351 : ℕ) : ℝ) ≤ 7423 := by exact_mod_cast hKle
  have hK0 : (0 : ℝ) ≤ ((85 * 0 + 14 * (s.nm / 2) + 18 * R.lib + 351 : ℕ) : ℝ) := Nat.cast_nonneg _
  have key := C111_gg (Stored.exact (R := R) s) U hresp hmode hr b z k (by
    rw [hu]
    calc _ ≤ (7423 : ℝ) * (1 / 2 ^ 53) := mul_le_mul_of_nonneg_right hK1 (by positivity)
      _ < 1 := by norm_num)
  refine key.trans (mul_le_mul_of_nonneg_right ?_ ?_)
  · unfold gamma
    rw [hu, div_le_iff₀]
    · generalize ((85 * 0 + 14 * (s.nm / 2) + 18 * R.lib + 351 : ℕ) : ℝ) = K at *
      norm_num
      linarith
    · generalize ((85 * 0 + 14 * (s.nm / 2) + 18 * R.lib + 351 : ℕ) : ℝ) = K at *
      norm_num
      linarith
  · have h1 := (abs_nonneg _).trans key
    unfold Spectra.powerSpectrumGg Spectra.applyResponse at hr
    rw [hresp] at hr
    simp only [Bool.false_eq_true, if_false] at hr
    obtain rfl := Except.ok.inj hr
    simp only [Spectra.powerSpectrumGgRaw, if_neg hmode]
    exact ((gg1h_est (Stored.exact (R := R) s) U b z k).mono (k := 85 * 0 + 14 * (s.nm / 2) + 18 * R.lib + 350)
      (by omega) |>.add (gg2h_est (Stored.exact (R := R) s) U b z k)).nonneg

/-- The damping function of the alignment spectra on large scales: in binary arithmetic with `p` digits, once
`(k/k_trunc)² ≤ 2^-(p+3)` the computed value is zero although the function is positive, so that no bound on the relative
error can hold there. -/
theorem C111_damping_lost {p : ℕ} (hp : 2 ≤ p) (s : Pk.Spectra) (k : ℕ) (hk : 0 < s.kVec k) {kt : ℝ} (h0 : 0 < kt)
    (hkt : s.oneHaloKtruncIa = some kt) (hsmall : (s.kVec k / kt) ^ 2 ≤ 1 / 2 ^ (p + 3)) :
    (oneHaloTruncationIa s k : Fl (Rounding.binary p (by omega))).val = 0 ∧ 0 < s.oneHaloTruncationIa k := by
  have hp1 : 1 ≤ p := by omega
  constructor
  · have hpow : Near 3 ((s.kVec k / kt) ^ 2)
        ((((s.kVec k : ℝ) : Fl (Rounding.binary p hp1)) / ((kt : ℝ) : Fl (Rounding.binary p hp1))).rpow 2) :=
      (((near_exact _).div (near_exact _)).rpow_nat (div_pos hk h0) 2 (by norm_num)).mono (by
        change (0 + 0 + 1) * 2 + 1 ≤ 3; norm_num)
    have hX := hpow.pos (by positivity)
    have hrho : (Rounding.binary p hp1).rho ≤ 4 / 3 := by
      change 1 / (1 - 1 / 2 ^ p) ≤ 4 / 3
      have h4 : (4 : ℝ) ≤ 2 ^ p := by
        calc (4 : ℝ) = 2 ^ 2 := by norm_num
          _ ≤ _ := pow_le_pow_right₀ (by norm_num) hp
      have h5 : (1 : ℝ) / 2 ^ p ≤ 1 / 4 := one_div_le_one_div_of_le (by norm_num) h4
      calc _ ≤ 1 / (3 / 4 : ℝ) := one_div_le_one_div_of_le (by norm_num) (by linarith)
        _ = 4 / 3 := by norm_num
    have hle : ((((s.kVec k : ℝ) : Fl (Rounding.binary p hp1))
        / ((kt : ℝ) : Fl (Rounding.binary p hp1))).rpow 2).val < 1 / 2 ^ (p + 1) := by
      obtain ⟨θ, hθ, e⟩ := hpow
      rw [e]
      have h3 : θ ≤ (4 / 3) ^ 3 :=
        hθ.2.trans (pow_le_pow_left₀ (Rounding.rho_pos _).le hrho 3)
      have hx0 : 0 < (s.kVec k / kt) ^ 2 := by positivity
      calc _ ≤ 1 / 2 ^ (p + 3) * ((4 / 3 : ℝ) ^ 3) := mul_le_mul hsmall h3 hθ.pos.le (by positivity)
        _ < 1 / 2 ^ (p + 1) := by
          have : (0 : ℝ) < 1 / 2 ^ (p + 1) := by positivity
          have e2 : (1 : ℝ) / 2 ^ (p + 3) = 1 / 4 * (1 / 2 ^ (p + 1)) := by
            rw [show p + 3 = p + 1 + 2 by ring, pow_add]; field_simp; norm_num
          rw [e2]
          nlinarith
    unfold oneHaloTruncationIa
    rw [hkt]
    change roundBinary p (1 - roundBinary p (Real.exp (-((((s.kVec k : ℝ) : Fl (Rounding.binary p hp1))
        / ((kt : ℝ) : Fl (Rounding.binary p hp1))).rpow 2).val))) = 0
    generalize ((((s.kVec k : ℝ) : Fl (Rounding.binary p hp1))
        / ((kt : ℝ) : Fl (Rounding.binary p hp1))).rpow 2).val = X at hX hle
    have he1 : Real.exp (-X) < 1 := Real.exp_lt_one_iff.2 (by linarith)
    have he2 : 1 - X ≤ Real.exp (-X) := by linarith [Real.add_one_le_exp (-X)]
    have h8 : (1 : ℝ) / 2 ^ (p + 1) ≤ 1 / 2 :=
      one_div_le_one_div_of_le (by norm_num) (by
        calc (2 : ℝ) = 2 ^ 1 := by norm_num
          _ ≤ _ := pow_le_pow_right₀ (by norm_num) (by omega))
    rw [roundBinary_one he1 (by linarith) (by linarith), sub_self, roundBinary_zero]
  · unfold Spectra.oneHaloTruncationIa
    rw [hkt]
    have : Real.exp (-(s.kVec k / kt) ^ 2) < 1 := Real.exp_lt_one_iff.2 (by
      have : 0 < (s.kVec k / kt) ^ 2 := by positivity
      linarith)
    linarith

/-! ## The hypotheses are met -/

theorem demo_usual : Usual demo where
  grid := by refine ⟨fun i _ => ?_, fun i _ => ?_, fun i _ => ?_⟩ <;> (simp [demo]; try norm_num)
  mass m _ := by simp only [demo]; positivity
  kVec k := by simp only [demo]; positivity
  oneHaloKtrunc kt h := by simp only [demo, Option.some.injEq] at h; rw [← h]; norm_num
  dndlnm z m _ := by simp only [demo]; positivity
  haloBias z m _ := by simp [demo]
  meanDensity0 z := by simp [demo]
  uDm z k m _ := by simp only [demo, Hmi.uDm, demoRaw]; positivity
  uSat z k m _ := by simp only [demo, Hmi.uSat, demoRaw]; positivity
  pkLin z k := by simp [demo]
  fC b z := by simp [demo]
  fS b z := by simp [demo]
  hodCen b z m _ := by simp [demo]
  hodSat b z m _ := by simp only [demo]; positivity
  numberDensityCen b z := by simp [demo]
  numberDensitySat b z := by simp [demo]
  poissonFunc m _ := by simp [demo]

/-- double precision for a concrete object -/
example (b z k : ℕ) : ∃ r, demo.powerSpectrumGg = .ok r ∧
    |(ggTot demo b z k : Fl (Rounding.binary 53 (by norm_num))).val - r.pkTot b z k| ≤ 1e-12 * r.pkTot b z k :=
  ⟨_, rfl, C111_double_precision demo_usual rfl (by simp [demo]) rfl (by simp [Rounding.binary]) (by simp [demo]) rfl b z k⟩

example (z : ℕ) : |(aTerm demo z : Fl (Rounding.binary 53 (by norm_num))).val - demo.aTerm z|
    ≤ gamma (1 / 2 ^ 53) 155 * 2 :=
  C111_missing_mass (R := Rounding.binary 53 (by norm_num)) (Stored.exact demo) demo_usual
    (by rw [demo_aTerm]; norm_num) (by simp [Rounding.binary, demo]; norm_num)

example (b z k : ℕ) : ∃ r, demo.powerSpectrumMm = .ok r ∧
    |(mmTot demo z k : Fl (Rounding.binary 53 (by norm_num))).val - r.pkTot b z k|
      ≤ gamma (1 / 2 ^ 53) 356
        * (r.pk1h b z k + demo.pkLin z k * (demo.imTerm z k + 2) ^ 2 * demo.twoHaloTruncation k) :=
  ⟨_, rfl, C111_mm (R := Rounding.binary 53 (by norm_num)) (Stored.exact demo) demo_usual rfl
    (by simp [demo]) (by simp [demo]) rfl (by rw [demo_aTerm]; norm_num) b k (by simp [Rounding.binary, demo]; norm_num)⟩

example (b z k : ℕ) : ∃ r, demo.powerSpectrumGm = .ok r ∧
    |(gmTot demo b z k : Fl (Rounding.binary 53 (by norm_num))).val - r.pkTot b z k|
      ≤ gamma (1 / 2 ^ 53) 370 * (r.pk1h b z k + demo.pkLin z k * (demo.icTerm b z k + demo.isTerm b z k)
        * (demo.imTerm z k + 2) * demo.twoHaloTruncation k) :=
  ⟨_, rfl, C111_gm (R := Rounding.binary 53 (by norm_num)) (Stored.exact demo) demo_usual rfl
    (by simp [demo]) (by simp [demo]) rfl (by rw [demo_aTerm]; norm_num) b k (by simp [Rounding.binary, demo]; norm_num)⟩

example (b z k : ℕ) : |(ii1h demo b z k : Fl (Rounding.binary 53 (by norm_num))).val
        - demo.compute1hTerm (demo.satelliteAlignmentProfile b z k) (demo.satelliteAlignmentProfile b z k) z
          * demo.oneHaloTruncationIa k|
      ≤ gamma (1 / 2 ^ 53) 517 * (2 * simpson demo.nm demo.mass fun m => |demo.satelliteAlignmentProfile b z k m|
          * |demo.satelliteAlignmentProfile b z k m| * |demo.dndlnm z m| / demo.mass m) :=
  (C111_alignment (R := Rounding.binary 53 (by norm_num)) (Stored.exact demo) demo_usual.grid demo_usual.mass
    (demo_usual.kVec k) (fun kt h => by simp only [demo, Option.some.injEq] at h; rw [← h]; norm_num)
    (fun x h => by simp [demo] at h) (fun x h => by simp [demo] at h)
    (by simp [Rounding.binary, demo]; norm_num)).2.1

example (b z k : ℕ) : ∃ r, demo.powerSpectrumMi = .ok r ∧
    |(miTot demo b z k : Fl (Rounding.binary 53 (by norm_num))).val - r.pkTot b z k|
      ≤ gamma (1 / 2 ^ 53) 516
        * (2 * (simpson demo.nm demo.mass fun m => |demo.matterProfile z k m| * |demo.satelliteAlignmentProfile b z k m|
              * |demo.dndlnm z m| / demo.mass m)
          + demo.pkLin z k * (alignSize demo (demo.centralAlignmentProfile b z k) z
              + alignSize demo (demo.satelliteAlignmentProfile b z k) z) * (demo.imTerm z k + 2)) :=
  ⟨_, rfl, C111_mi (R := Rounding.binary 53 (by norm_num)) (Stored.exact demo) demo_usual rfl
    (by simp [demo]) (by simp [demo]) rfl (by rw [demo_aTerm]; norm_num) (by simp [demo])
    (fun kt h => by simp only [demo, Option.some.injEq] at h; rw [← h]; norm_num)
    (fun kt h => by simp only [demo, Option.some.injEq] at h; rw [← h]; norm_num)
    (fun x h => by simp [demo] at h; rw [← h]; norm_num) (fun x h => by simp [demo] at h; rw [← h]; simp [Spectra.massAvg, demo])
    (fun x h => by simp [demo] at h) (fun x h => by simp [demo] at h) (by simp [Rounding.binary, demo]; norm_num)⟩

example (b z k : ℕ) : ∃ r r', demo.powerSpectrumIi = .ok r ∧ demo.powerSpectrumGi = .ok r' ∧
    |(iiTot demo b z k : Fl (Rounding.binary 53 (by norm_num))).val - r.pkTot b z k|
      ≤ gamma (1 / 2 ^ 53) 698
        * (2 * (simpson demo.nm demo.mass fun m => |demo.satelliteAlignmentProfile b z k m| * |demo.satelliteAlignmentProfile b z k m|
              * |demo.dndlnm z m| / demo.mass m)
          + demo.pkLin z k * (alignSize demo (demo.centralAlignmentProfile b z k) z ^ 2 + alignSize demo (demo.satelliteAlignmentProfile b z k) z ^ 2
            + alignSize demo (demo.centralAlignmentProfile b z k) z * alignSize demo (demo.satelliteAlignmentProfile b z k) z)) ∧
    |(giTot demo b z k : Fl (Rounding.binary 53 (by norm_num))).val - r'.pkTot b z k|
      ≤ gamma (1 / 2 ^ 53) 528
        * (2 * (simpson demo.nm demo.mass fun m => |demo.centralGalaxyProfile b z k m| * |demo.satelliteAlignmentProfile b z k m|
              * |demo.dndlnm z m| / demo.mass m)
          + demo.pkLin z k * demo.icTerm b z k * (alignSize demo (demo.centralAlignmentProfile b z k) z
            + alignSize demo (demo.satelliteAlignmentProfile b z k) z)) :=
  ⟨_, _, rfl, rfl, C111_ii (R := Rounding.binary 53 (by norm_num)) (Stored.exact demo) demo_usual rfl (by simp [demo]) rfl (by simp [demo])
    (fun kt h => by simp only [demo, Option.some.injEq] at h; rw [← h]; norm_num)
    (fun kt h => by simp only [demo, Option.some.injEq] at h; rw [← h]; norm_num)
    (fun x h => by simp [demo] at h; rw [← h]; norm_num) (fun x h => by simp [demo] at h; rw [← h]; simp [Spectra.massAvg, demo])
    (fun x h => by simp [demo] at h) (fun x h => by simp [demo] at h) (by simp [Rounding.binary, demo]; norm_num),
    C111_gi (R := Rounding.binary 53 (by norm_num)) (Stored.exact demo) demo_usual rfl (by simp [demo]) rfl (by simp [demo])
    (fun kt h => by simp only [demo, Option.some.injEq] at h; rw [← h]; norm_num)
    (fun kt h => by simp only [demo, Option.some.injEq] at h; rw [← h]; norm_num)
    (fun x h => by simp [demo] at h; rw [← h]; norm_num) (fun x h => by simp [demo] at h; rw [← h]; simp [Spectra.massAvg, demo])
    (fun x h => by simp [demo] at h) (fun x h => by simp [demo] at h) (by simp [Rounding.binary, demo]; norm_num)⟩

example (b z k : ℕ) : |(icAlignTerm demo b z k : Fl (Rounding.binary 53 (by norm_num))).val - demo.icAlignTerm b z k|
    ≤ gamma (1 / 2 ^ 53) 344 * alignSize demo (demo.centralAlignmentProfile b z k) z :=
  (C111_alignment_integrals (R := Rounding.binary 53 (by norm_num)) (Stored.exact demo) demo_usual.grid demo_usual.mass
    (by simp [demo]) k (fun x h => by simp [demo] at h; rw [← h]; norm_num) (fun x h => by simp [demo] at h; rw [← h]; simp [Spectra.massAvg, demo])
    (fun x h => by simp [demo] at h) (fun x h => by simp [demo] at h) (by simp [Rounding.binary, demo]; norm_num)).1

/-- Simpson's rule for values of both signs -/
example : |(Fl.simpson demo.nm (fun i => ((demo.mass i : ℝ) : Fl (Rounding.binary 53 (by norm_num))))
      (fun i => (((-1) ^ i : ℝ) : Fl (Rounding.binary 53 (by norm_num))))).val - simpson demo.nm demo.mass fun i => (-1) ^ i|
    ≤ gamma (1 / 2 ^ 53) 133 * simpson demo.nm demo.mass fun i => |(-1 : ℝ) ^ i| :=
  C111_simpson (R := Rounding.binary 53 (by norm_num)) demo_usual.grid (by simp [Rounding.binary, demo]; norm_num)

/-- the damping of the alignment spectra is lost at `k = 1`, `k_trunc = 2^30` in double precision -/
example : (oneHaloTruncationIa { demo with oneHaloKtruncIa := some (2 ^ 30) } 0
    : Fl (Rounding.binary 53 (by norm_num))).val = 0 :=
  (C111_damping_lost (p := 53) (by norm_num) { demo with oneHaloKtruncIa := some (2 ^ 30) } 0 (by simp [demo])
    (kt := 2 ^ 30) (by norm_num) rfl (by simp [demo]; norm_num)).1

end Verif.PkRounded

import Verif.Model.LegacyHod
import Verif.Model.PkHod
import Verif.Props.LegacyPk
import Verif.Props.HodModels
import Verif.Props.InterfaceExecute
import Verif.Lemmas.Interp
import Verif.Lemmas.Simpson

/-! Property C118: the legacy occupation module and the rewritten library give the spectra the same galaxies, except for the
mean halo mass; when the legacy module stops instead. -/

namespace Verif.LegacyHod

open Verif.Lib Verif.Spec
open Verif.Hod (ZhengParams ZhaiParams CacciatoParams StepParams Base)
open Verif.LegacyPk (Block Opts toSpectra BinOut Agree)
open Verif.Pk (Spectra)

variable {c : Config} {B : Block}

theorem withAcen_eq (A : Option ℝ) (N : ℝ) : withAcen A N = Hod.decorateCen A N := by cases A <;> rfl

theorem withAsat_eq (A : Option ℝ) (N : ℝ) : withAsat A N = Hod.decorateSat A N := by cases A <;> rfl

theorem cofCen_eq (p : CacciatoParams) (M O : ℝ) : cofCen p M O = p.cofCen M O := rfl

theorem cofSat_eq (p : CacciatoParams) (M O : ℝ) : cofSat p M O = p.cofSat M O := rfl

/-- C118: the occupations of the legacy classes are those of the rewritten library, for every model the legacy module
accepts, every parameter, bin, redshift and mass -/
theorem C118_occupations (c : Config) (B : Block) :
    nCen c B = (newBase c B).occCen ∧ nSat c B = (newBase c B).occSat ∧ nTot c B = (newBase c B).occ := by
  have h1 : nCen c B = (newBase c B).occCen := by
    funext b j m
    change nCen c B b j m = newCen c B.mass b j m
    unfold nCen newCen
    cases c.pop with
    | zheng p => exact withAcen_eq _ _
    | zhai p => exact withAcen_eq _ _
    | cacciato p => exact withAcen_eq _ _
  have h2 : nSat c B = (newBase c B).occSat := by
    funext b j m
    change nSat c B b j m = newSat c B.mass b j m
    unfold nSat newSat
    cases c.pop with
    | zheng p => exact withAsat_eq _ _
    | zhai p => exact withAsat_eq _ _
    | cacciato p => exact withAsat_eq _ _
  refine ⟨h1, h2, ?_⟩
  funext b j m
  change nCen c B b j m + nSat c B b j m = (newBase c B).occCen b j m + (newBase c B).occSat b j m
  rw [h1, h2]

theorem numberDensity_eq (N : ℕ → ℕ → ℕ → ℝ) (b j : ℕ) :
    numberDensity c B N b j = (newBase c B).massIntegral N b j := rfl

theorem avgHaloMass_eq (N : ℕ → ℕ → ℕ → ℝ) (b j : ℕ) :
    avgHaloMass c B N b j = (newBase c B).meanMassIntegral N b j := rfl

/-- C118: the legacy loop writes a bin exactly when no occupation of the bin is negative anywhere on its grid; otherwise it
raises ValueError, where the rewritten library goes on -/
theorem C118_runs (c : Config) (B : Block) (b : ℕ) :
    ((∃ s, bin c B b = .ok s) ↔
      ∀ j < c.nz, ∀ m < B.nm, 0 ≤ (newBase c B).occCen b j m ∧ 0 ≤ (newBase c B).occSat b j m) ∧
    ((¬ ∃ s, bin c B b = .ok s) → bin c B b = .error .valueError) := by
  obtain ⟨h1, h2, -⟩ := C118_occupations c B
  rw [← h1, ← h2]
  unfold bin
  split_ifs with h
  · refine ⟨⟨fun ⟨s, hs⟩ => (nomatch hs), fun hall => ?_⟩, fun _ => rfl⟩
    exfalso
    rcases h with ⟨j, hj, m, hm, h⟩ | ⟨j, hj, m, hm, h⟩
    · exact absurd (hall j hj m hm).2 (not_le.2 h)
    · exact absurd (hall j hj m hm).1 (not_le.2 h)
  · refine ⟨⟨fun _ j hj m hm => ?_, fun _ => ⟨_, rfl⟩⟩, fun hno => absurd ⟨_, rfl⟩ hno⟩
    push Not at h
    exact ⟨h.2 j hj m hm, h.1 j hj m hm⟩

/-- C118: with masses above zero and assembly bias of size at most one, the models with parameters per bin never stop -/
theorem C118_runs_per_bin (c : Config) (B : Block) (b : ℕ) (hM : ∀ m < B.nm, 0 < B.mass m)
    (hp : (∃ p, c.pop = .zheng p ∧ (∀ a ∈ (p b).aCen, |a| ≤ 1) ∧ ∀ a ∈ (p b).aSat, -1 ≤ a) ∨
      ∃ p, c.pop = .zhai p ∧ (∀ a ∈ (p b).aCen, |a| ≤ 1) ∧ ∀ a ∈ (p b).aSat, -1 ≤ a) :
    ∃ s, bin c B b = .ok s := by
  rw [(C118_runs c B b).1]
  intro j _ m hm
  change 0 ≤ newCen c B.mass b j m ∧ 0 ≤ newSat c B.mass b j m
  let t : StepParams := ⟨0, 0, 0, none, none⟩
  let q0 : ZhengParams := ⟨0, 0, 0, 0, 0, none, none⟩
  let r0 : ZhaiParams := ⟨0, 0, 0, 0, 0, none, none⟩
  have n1 : ∀ a ∈ (none : Option ℝ), |a| ≤ 1 := fun a h => (nomatch h)
  have n2 : ∀ a ∈ (none : Option ℝ), -1 ≤ a := fun a h => (nomatch h)
  rcases hp with ⟨p, hp, ha, hs⟩ | ⟨p, hp, ha, hs⟩ <;> simp only [newCen, newSat, hp]
  · exact ⟨(Hod.C35_cen_probability t (p b) r0 (B.mass m) n1 ha n1).2.2.1.1,
      (Hod.C35_sat_nonneg t (p b) r0 (B.mass m) (hM m hm) n1 n2 hs n2).2.2.1⟩
  · exact ⟨(Hod.C35_cen_probability t q0 (p b) (B.mass m) n1 n1 ha).2.2.2.1,
      (Hod.C35_sat_nonneg t q0 (p b) (B.mass m) (hM m hm) n1 n2 n2 hs).2.2.2⟩

/-- C118: an assembly bias below `-1` for satellites stops the legacy module as soon as one mass of the grid has satellites;
the rewritten library uses the negative number -/
theorem C118_stops (c : Config) (B : Block) (b : ℕ) (p : ℕ → ZhaiParams) (hp : c.pop = .zhai p) (a : ℝ)
    (ha : (p b).aSat = some a) (ha1 : a < -1) (hz : 0 < c.nz) (m : ℕ) (hm : m < B.nm) (hM : 0 < B.mass m) :
    bin c B b = .error .valueError ∧ (newBase c B).occSat b 0 m < 0 := by
  have hneg : (newBase c B).occSat b 0 m < 0 := by
    change newSat c B.mass b 0 m < 0
    simp only [newSat, hp, Hod.zhaiSat, ha, Hod.decorateSat]
    have : 0 < (B.mass m / (10 : ℝ) ^ (p b).log10Msat) ^ (p b).alpha * Real.exp (-(10 : ℝ) ^ (p b).log10Mcut / B.mass m) := by
      positivity
    nlinarith
  refine ⟨(C118_runs c B b).2 fun h => ?_, hneg⟩
  exact absurd ((C118_runs c B b).1.1 h 0 hz m hm).2 (not_le.2 hneg)

theorem loop_spec : ∀ (n b : ℕ) (l : List Section),
    loop c B b n = .ok l ↔ l.length = n ∧ ∀ i < n, ∃ s, l[i]? = some s ∧ bin c B (b + i) = .ok s := by
  intro n
  induction n with
  | zero =>
    intro b l
    simp only [loop, Except.ok.injEq]
    exact ⟨fun h => ⟨by rw [← h]; rfl, fun i hi => absurd hi (by omega)⟩, fun h => (List.length_eq_zero_iff.1 h.1).symm⟩
  | succ n ih =>
    intro b l
    simp only [loop]
    cases hb : bin c B b with
    | error e =>
      simp only [reduceCtorEq, false_iff, not_and]
      intro _ hall
      obtain ⟨s, -, hs⟩ := hall 0 (by omega)
      rw [Nat.add_zero, hb] at hs
      cases hs
    | ok s =>
      simp only
      cases hl : loop c B (b + 1) n with
      | error e =>
        simp only [reduceCtorEq, false_iff, not_and]
        intro hlen hall
        obtain ⟨x, l', rfl⟩ : ∃ x l', l = x :: l' := by
          cases l with
          | nil => simp at hlen
          | cons x l' => exact ⟨x, l', rfl⟩
        have : loop c B (b + 1) n = .ok l' := by
          refine (ih (b + 1) l').2 ⟨by simpa using hlen, fun i hi => ?_⟩
          obtain ⟨s', h1, h2⟩ := hall (i + 1) (by omega)
          exact ⟨s', by simpa using h1, by rw [← h2]; congr 1; omega⟩
        rw [hl] at this
        cases this
      | ok l' =>
        have h' := (ih (b + 1) l').1 hl
        simp only [Except.ok.injEq]
        constructor
        · rintro rfl
          refine ⟨by simp [h'.1], fun i hi => ?_⟩
          cases i with
          | zero => exact ⟨s, rfl, hb⟩
          | succ i =>
            obtain ⟨s', h1, h2⟩ := h'.2 i (by omega)
            exact ⟨s', by simpa using h1, by rw [← h2]; congr 1; omega⟩
        · rintro ⟨hlen, hall⟩
          refine List.ext_getElem? fun i => ?_
          rcases lt_or_ge i (n + 1) with hi | hi
          · obtain ⟨s', h1, h2⟩ := hall i hi
            rw [h1]
            cases i with
            | zero =>
              rw [Nat.add_zero, hb] at h2
              cases h2
              rfl
            | succ i =>
              obtain ⟨s'', h3, h4⟩ := h'.2 i (by omega)
              have : b + 1 + i = b + (i + 1) := by omega
              rw [this, h2] at h4
              cases h4
              simpa using h3
          · rw [List.getElem?_eq_none (by simp [h'.1]; omega), List.getElem?_eq_none (by omega)]

/-- C118: the module succeeds exactly when every bin does, and section `b` is that of bin `b` -/
theorem C118_execute (c : Config) (B : Block) :
    ((∃ l, execute c B = .ok l) ↔ ∀ b < c.nbins, ∃ s, bin c B b = .ok s) ∧
    ∀ l, execute c B = .ok l → l.length = c.nbins ∧ ∀ b < c.nbins, ∃ s, l[b]? = some s ∧ bin c B b = .ok s := by
  have key : ∀ l, execute c B = .ok l → l.length = c.nbins ∧ ∀ b < c.nbins, ∃ s, l[b]? = some s ∧ bin c B b = .ok s := by
    intro l hl
    have := (loop_spec c.nbins 0 l).1 hl
    simpa using this
  refine ⟨⟨fun ⟨l, hl⟩ b hb => ?_, fun h => ?_⟩, key⟩
  · obtain ⟨s, -, hs⟩ := (key l hl).2 b hb
    exact ⟨s, hs⟩
  · choose s hs using h
    let f : ℕ → Section := fun b => if hb : b < c.nbins then s b hb else
      ⟨0, 0, 0, 0, 0, 0, none, 0, 0, 0, 0, 0, 0, 0, 0, 0⟩
    refine ⟨(List.range c.nbins).map f, (loop_spec c.nbins 0 _).2 ⟨by simp, fun i hi => ⟨f i, ?_, ?_⟩⟩⟩
    · simp [List.getElem?_map, List.getElem?_range hi]
    · simp only [f, hi, dif_pos, Nat.zero_add]
      exact hs i hi

theorem interpLinear_smul (n : ℕ) (x y : ℕ → ℝ) (a q : ℝ) :
    interpLinear n x (fun j => y j * a) q = interpLinear n x y q * a := by
  unfold interpLinear
  ring

theorem interpLinear_zero (n : ℕ) (x : ℕ → ℝ) (q : ℝ) : interpLinear n x (fun _ => 0) q = 0 := by
  simp [interpLinear]

theorem stellar_eq (c : Config) (B : Block) (b m : ℕ) :
    (fun j => ((if c.pop.conditional then some fun j m => (fStar c B b j m).getD 0 else none).getD fun _ _ => 0) j m) =
      match c.pop with
      | .cacciato p => fun j =>
          if c.unit = "1/h^2" then p.stellar c.nobs (c.obs b j) (B.mass m) * c.h0 else p.stellar c.nobs (c.obs b j) (B.mass m)
      | _ => fun _ => 0 := by
  funext j
  unfold fStar
  cases c.pop with
  | zheng p => rfl
  | zhai p => rfl
  | cacciato p =>
    simp only [Pop.conditional, if_true, Option.getD_some]
    split_ifs <;> rfl

/-- C118: what the legacy spectra load of a bin is what the rewritten library computes for it on the same grids: occupations,
densities, fractions and the stellar fraction (there multiplied by `h` after the interpolation, here before).  The mean halo
mass is the interpolated ratio to the number of *centrals*. -/
theorem C118_loaded (c : Config) (B : Block) (b : ℕ) (s : Section) (hs : bin c B b = .ok s) :
    ∃ l, loadHods c.nz s B.zVec B.mass = .ok l ∧
      (∀ i m, l.nCen i m = (newBase c B).hodCen b i m) ∧ (∀ i m, l.nSat i m = (newBase c B).hodSat b i m) ∧
      (∀ i, l.numdenCen i = (newBase c B).numberDensityCen b i) ∧
      (∀ i, l.numdenSat i = (newBase c B).numberDensitySat b i) ∧
      (∀ i, l.fCen i = (newBase c B).fC b i) ∧ (∀ i, l.fSat i = (newBase c B).fS b i) ∧
      (∀ i m, l.fStar i m = (newBase c B).stellarFraction (newFrac c B.mass) c.unit c.h0 b i m) ∧
      ∀ i, l.massAvg i = (newBase c B).interpolate (.value 0)
        (fun b j => (newBase c B).meanMassIntegral (newBase c B).occCen b j / (newBase c B).ncen b j) b i := by
  obtain ⟨h1, h2, h3⟩ := C118_occupations c B
  unfold bin at hs
  split_ifs at hs with hneg
  cases hs
  refine ⟨_, by unfold loadHods; rw [if_neg (by simp [written])], ?_⟩
  simp only [written, h1, h2, h3]
  refine ⟨fun i m => rfl, fun i m => rfl, fun i => rfl, fun i => rfl, fun i => rfl, fun i => rfl, fun i m => ?_, fun i => rfl⟩
  change interpLinear c.nz (c.z b)
    (fun j => ((if c.pop.conditional then some fun j m => (fStar c B b j m).getD 0 else none).getD fun _ _ => 0) j m) (B.zVec i) = _
  rw [stellar_eq c B b m]
  unfold Base.stellarFraction newFrac
  cases c.pop with
  | zheng p => exact interpLinear_zero _ _ _
  | zhai p => exact interpLinear_zero _ _ _
  | cacciato p =>
    simp only
    split_ifs with hu
    · rw [interpLinear_smul]
      rfl
    · rfl

/-- C118: the galaxy biases written are the bias integrals of the rewritten library at the sample redshifts -/
theorem C118_bias (c : Config) (B : Block) (b : ℕ) (s : Section) (hs : bin c B b = .ok s) (j : ℕ) :
    s.biasCen j = (newBase c B).biasIntegral (newBase c B).occCen b j ∧
    s.biasSat j = (newBase c B).biasIntegral (newBase c B).occSat b j ∧
    s.biasTot j = (newBase c B).biasIntegral (newBase c B).occ b j := by
  obtain ⟨h1, h2, h3⟩ := C118_occupations c B
  unfold bin at hs
  split_ifs at hs with hneg
  cases hs
  simp only [written, h1, h2, h3]
  exact ⟨rfl, rfl, rfl⟩

/-- C118: at a sample redshift the legacy mean halo mass is the mean over the centrals, and the value the rewritten library
puts in its place is the central fraction times as large -/
theorem C118_mass_avg (c : Config) (B : Block) (b : ℕ) (s : Section) (hs : bin c B b = .ok s) (l : Loaded)
    (hl : loadHods c.nz s B.zVec B.mass = .ok l) (hn : 2 ≤ c.nz) (hz : SortedOn c.nz (c.z b)) (i j : ℕ) (hj : j < c.nz)
    (hi : B.zVec i = c.z b j) (hc : (newBase c B).ncen b j ≠ 0) :
    l.massAvg i = (newBase c B).meanMassIntegral (newBase c B).occCen b j / (newBase c B).ncen b j ∧
    (newBase c B).avgHaloMassCen b i / (newBase c B).numberDensity b i = l.fCen i * l.massAvg i := by
  obtain ⟨l', hl', -, -, -, -, hf, -, -, hM⟩ := C118_loaded c B b s hs
  rw [hl] at hl'
  cases hl'
  have node : ∀ (fill : Fill) (y : ℕ → ℕ → ℝ), (newBase c B).interpolate fill y b i = y b j := by
    intro fill y
    change interp1d fill c.nz (c.z b) (y b) (B.zVec i) = y b j
    rw [hi]
    exact interp1d_node hn hz fill (y b) hj
  rw [hM, hf]
  unfold Base.fC Base.avgHaloMassCen Base.numberDensity
  simp only [node, true_and]
  rw [div_mul_div_comm, mul_comm ((newBase c B).ntot b j), mul_div_mul_left _ _ hc]

/-- C118: so the two agree at a sample redshift exactly when the sample has no satellites there or the centrals no mass -/
theorem C118_mass_avg_same_iff (c : Config) (B : Block) (b : ℕ) (s : Section) (hs : bin c B b = .ok s) (l : Loaded)
    (hl : loadHods c.nz s B.zVec B.mass = .ok l) (hn : 2 ≤ c.nz) (hz : SortedOn c.nz (c.z b)) (i j : ℕ) (hj : j < c.nz)
    (hi : B.zVec i = c.z b j) (hc : (newBase c B).ncen b j ≠ 0) (ht : (newBase c B).ntot b j ≠ 0)
    (hm : (newBase c B).meanMassIntegral (newBase c B).occCen b j ≠ 0) :
    (newBase c B).avgHaloMassCen b i / (newBase c B).numberDensity b i = l.massAvg i ↔ (newBase c B).nsat b j = 0 := by
  have h2 := C118_mass_avg c B b s hs l hl hn hz i j hj hi hc
  obtain ⟨l', hl', -, -, -, -, hf, -, -, hM⟩ := C118_loaded c B b s hs
  rw [hl] at hl'
  cases hl'
  have hfc : l.fCen i = (newBase c B).ncen b j / (newBase c B).ntot b j := by
    rw [hf]
    change interp1d (.value 0) c.nz (c.z b) (fun j => (newBase c B).ncen b j / (newBase c B).ntot b j) (B.zVec i) = _
    rw [hi]
    exact interp1d_node hn hz _ _ hj
  have hsum : (newBase c B).ntot b j = (newBase c B).ncen b j + (newBase c B).nsat b j := by
    unfold Base.ntot Base.ncen Base.nsat Base.massIntegral
    rw [← simpson_add]
    congr 1
    funext m
    unfold Base.occ
    ring
  have hM0 : l.massAvg i ≠ 0 := by
    rw [h2.1]
    exact div_ne_zero hm hc
  rw [h2.2, mul_eq_right₀ hM0, hfc, div_eq_one_iff_eq ht, hsum]
  constructor <;> intro h <;> linarith

/-- C118: the stellar fraction of all matter, read from the extended grid, is what the rewritten library computes with
`hod_settings_mm` (15 redshifts, 100 observables between the same limits), on a mass grid that increases -/
theorem C118_fstar_mm (c : Config) (B : Block) (p : CacciatoParams) (e : Extended) (hn : 2 ≤ B.nm) (hm : SortedOn B.nm B.mass)
    (i m : ℕ) (hi : m < B.nm) (hB : Base)
    (hb : hB.zVec = B.zVec ∧ hB.nz = 15 ∧ ∀ b j, hB.z b j = linspace e.zmin e.zmax 15 j) (b : ℕ) :
    loadFstarMm c B p e i m =
      hB.stellarFraction (some fun _ _ m => p.stellar 100 (Hod.obsRow e.logObsMin e.logObsMax 100) (B.mass m)) c.unit c.h0 b i m := by
  have hbil : ∀ (f : ℕ → ℕ → ℝ) (zq : ℝ), bilinear B.nm 15 B.mass (zExtended e) f (B.mass m) zq =
      interpLinear 15 (zExtended e) (fun j => f j m) zq := by
    intro f zq
    have h1 : ∀ j, interpLinear B.nm B.mass (fun m => f j m) (B.mass m) = f j m := fun j => interpLinear_node hn hm _ hi
    unfold bilinear
    simp only
    unfold interpLinear at h1 ⊢
    simp only at h1 ⊢
    rw [← h1 (Lib.segment 15 (zExtended e) zq), ← h1 (Lib.segment 15 (zExtended e) zq - 1)]
    ring
  unfold loadFstarMm
  rw [hbil]
  have hz : hB.z b = zExtended e := by
    funext j
    exact hb.2.2 b j
  unfold Base.stellarFraction Base.interpolateMass Base.interpolate
  simp only [hb.1, hb.2.1, hz]
  unfold fStarExtended
  split_ifs with hu
  · exact interpLinear_smul _ _ _ _ _
  · rfl

/-- C118: the observable function per decade of the mode `obs_z` is that of the rewritten library at the same observables,
when the bin has the same observables at every redshift (no file of limits): centrals, satellites and both together -/
theorem C118_obs_func (c : Config) (B : Block) (p : CacciatoParams) (lo hi : ℝ) (hlo : lo < hi) (hn : 2 ≤ c.nobs) (b j o : ℕ)
    (ho : o < c.nobs) (hobs : ∀ o, c.obs b j o = Hod.obsRow lo hi c.nobs o) :
    obsFuncZ c B (obsRange c ((10 : ℝ) ^ lo) ((10 : ℝ) ^ hi)) (cofCen p) b j o =
      Hod.perDex (c.obs b j o) (p.obsFuncCen B.nm B.mass ((newBase c B).dndlnmInt b j) (c.obs b j o)) ∧
    obsFuncZ c B (obsRange c ((10 : ℝ) ^ lo) ((10 : ℝ) ^ hi)) (cofSat p) b j o =
      Hod.perDex (c.obs b j o) (p.obsFuncSat B.nm B.mass ((newBase c B).dndlnmInt b j) (c.obs b j o)) ∧
    obsFuncZ c B (obsRange c ((10 : ℝ) ^ lo) ((10 : ℝ) ^ hi)) (cof p) b j o =
      Hod.perDex (c.obs b j o) (p.obsFunc B.nm B.mass ((newBase c B).dndlnmInt b j) (c.obs b j o)) := by
  have hr : obsRange c ((10 : ℝ) ^ lo) ((10 : ℝ) ^ hi) o = c.obs b j o := by
    rw [hobs]
    unfold obsRange Hod.obsRow
    have hl : ∀ x : ℝ, log10 ((10 : ℝ) ^ x) = x := fun x => Real.logb_rpow (by norm_num) (by norm_num)
    rw [hl, hl]
  have hs : SortedOn c.nobs (c.obs b j) := by
    intro x y hxy hy
    rw [hobs, hobs]
    unfold Hod.obsRow logspace
    refine Real.rpow_lt_rpow_of_exponent_lt (by norm_num) ?_
    unfold linspace
    have h1 : (0 : ℝ) < (hi - lo) / ((c.nobs : ℝ) - 1) := by
      have : (2 : ℝ) ≤ c.nobs := by exact_mod_cast hn
      exact div_pos (by linarith) (by linarith)
    have h2 : (x : ℝ) < y := by exact_mod_cast hxy
    nlinarith
  have node : ∀ Φ, obsFuncZ c B (obsRange c ((10 : ℝ) ^ lo) ((10 : ℝ) ^ hi)) Φ b j o =
      Hod.perDex (c.obs b j o) (obsFunc c B Φ b j o) := by
    intro Φ
    unfold obsFuncZ Hod.perDex
    rw [hr, interp1d_node hn hs _ _ ho]
    ring
  exact ⟨node _, node _, node _⟩

/-- C118: the array stored as `mean_obs_halo_mass_relation` has one entry, the value at the smallest mass, however many masses
the array `halo_mass_med` beside it has -/
theorem C118_mean_relation (B : Block) (p : CacciatoParams) (h : 0 < B.nm) :
    meanRelation B p = [p.meanObsC (B.mass 0)] := by
  unfold meanRelation
  rw [List.getElem?_map, List.getElem?_range h]
  rfl

/-- C118: the class `Simple` of the legacy library cannot give the total occupation of a sample with two redshifts or more -/
theorem C118_simple (nz : ℕ) : (∃ n, simpleTotRows nz = .ok n) ↔ nz ≤ 1 := by
  unfold simpleTotRows simpleCenRows simpleSatRows Hod.broadcast simpleCenRows
  constructor
  · rintro ⟨n, h⟩
    by_contra hlt
    have h1 : nz * 1 ≠ nz * (nz * 1) := by nlinarith
    rw [if_neg h1, if_neg (by omega), if_neg (by nlinarith)] at h
    cases h
  · intro h
    interval_cases nz <;> exact ⟨_, rfl⟩

/-- C118: the legacy `setup` passes exactly with one of two units, no observable function for the models without one (it is
switched on by default), and options of one length -/
theorem C118_setup (unit model : String) (save : Bool) (a b d e n : ℕ) :
    setupChecks unit model save a b d e = .ok n ↔
      (unit = "1/h" ∨ unit = "1/h^2") ∧ (model = "Cacciato" ∨ save = false) ∧ a = n ∧ b = n ∧ d = n ∧ e = n := by
  unfold setupChecks
  by_cases h1 : unit = "1/h" ∨ unit = "1/h^2"
  · rw [if_neg (by tauto)]
    by_cases h2 : model = "Cacciato" ∨ save = false
    · rw [if_neg (by rintro ⟨h3, h4⟩; rcases h2 with h2 | h2 <;> simp_all)]
      split_ifs with h3
      · simp only [Except.ok.injEq, h1, h2, true_and]
        constructor
        · rintro rfl; exact ⟨rfl, h3⟩
        · rintro ⟨rfl, -⟩; rfl
      · simp only [false_iff]
        rintro ⟨-, -, rfl, h4⟩
        exact h3 h4
    · rw [if_pos (by cases save <;> simp_all)]
      simp [h2]
  · rw [if_pos (by tauto)]
    simp [h1]

theorem binParams_ok (blk : Interface.Block) (sec model : String) (hC : model ≠ "Cacciato") (n nb : ℕ) :
    ∀ ps : List String, (∃ d, binParams blk sec model n nb ps = .ok d) ↔
      ∀ k ∈ ps, blk sec (k ++ Interface.binSuffix n nb) ≠ none := by
  intro ps
  induction ps with
  | nil => simp [binParams]
  | cons p ps ih =>
    simp only [binParams, if_neg hC]
    change (∃ d, (match blk sec (p ++ Interface.binSuffix n nb) with
      | none => Except.error PyErr.generic
      | some v => match binParams blk sec model n nb ps with
        | .error e => .error e
        | .ok d => .ok fun k => if k = p then some v else d k) = .ok d) ↔ _
    simp only [List.mem_cons, forall_eq_or_imp]
    cases h : blk sec (p ++ Interface.binSuffix n nb) with
    | none => simp
    | some v =>
      simp only [ne_eq, reduceCtorEq, not_false_eq_true, true_and]
      rw [← ih]
      cases binParams blk sec model n nb ps with
      | error e => simp
      | ok d => simp

theorem binParams_value (blk : Interface.Block) (sec model : String) (hC : model ≠ "Cacciato") (n nb : ℕ) :
    ∀ (ps : List String) (d : String → Option Interface.OVal), binParams blk sec model n nb ps = .ok d →
      ∀ k ∈ ps, d k = blk sec (k ++ Interface.binSuffix n nb) := by
  intro ps
  induction ps with
  | nil => intro d _ k hk; simp at hk
  | cons p ps ih =>
    intro d hd k hk
    simp only [binParams, if_neg hC] at hd
    change (match blk sec (p ++ Interface.binSuffix n nb) with
      | none => Except.error PyErr.generic
      | some v => match binParams blk sec model n nb ps with
        | .error e => .error e
        | .ok d => .ok fun k => if k = p then some v else d k) = .ok d at hd
    cases h : blk sec (p ++ Interface.binSuffix n nb) with
    | none => rw [h] at hd; cases hd
    | some v =>
      rw [h] at hd
      simp only at hd
      cases hr : binParams blk sec model n nb ps with
      | error e => rw [hr] at hd; cases hd
      | ok d' =>
        rw [hr] at hd
        simp only [Except.ok.injEq] at hd
        subst hd
        simp only
        split_ifs with hkp
        · rw [hkp, h]
        · exact ih d' hr k (by simpa [hkp] using hk)

/-- C118: for the models with parameters per bin, both modules read the same names of the values section: every bin of the
legacy module finds its parameters exactly when the rewritten interface finds all of them, and parameter `k` of bin `nb` is entry
`nb` of the array of the rewritten interface -/
theorem C118_parameters (blk : Interface.Block) (sec model : String) (hm : model = "Zheng" ∨ model = "Zhai") (n : ℕ) :
    ((∃ d, Interface.hodParams blk sec model n = .ok d) ↔ ∀ nb < n, ∃ k, kwargs blk sec model n nb = .ok k) ∧
    ∀ d, Interface.hodParams blk sec model n = .ok d → ∀ nb < n, ∀ kw, kwargs blk sec model n nb = .ok kw →
      ∃ ps, parametersModels model = .ok ps ∧ ps.length = 5 ∧
        ∀ k ∈ ps, ∃ vs, d k = some (.arr vs) ∧ vs.length = n ∧ kw k = vs[nb]? := by
  have hC : model ≠ "Cacciato" := by rcases hm with rfl | rfl <;> decide
  have hpm : parametersModels model = Interface.parametersModels model := rfl
  obtain ⟨ps, hps⟩ : ∃ ps, Interface.parametersModels model = .ok ps := by
    rcases hm with rfl | rfl
    · exact ⟨_, rfl⟩
    · exact ⟨_, rfl⟩
  refine ⟨?_, fun d hd nb hnb kw hkw => ?_⟩
  · rw [Interface.C85_needs_all blk sec model ps hps hC n]
    have : ∀ nb, kwargs blk sec model n nb = binParams blk sec model n nb ps := fun nb => by
      unfold kwargs
      rw [hpm, hps]
      rfl
    simp only [this, binParams_ok blk sec model hC]
    exact ⟨fun h nb hnb k hk => h k hk nb hnb, fun h k hk nb hnb => h nb hnb k hk⟩
  · obtain ⟨ps', hps', hlen, hall⟩ := Interface.C85_per_bin blk sec model hm n d hd
    rw [hps] at hps'
    cases hps'
    refine ⟨ps, hpm.trans hps, hlen, fun k hk => ?_⟩
    obtain ⟨vs, h1, h2, h3⟩ := hall k hk
    refine ⟨vs, h1, h2, ?_⟩
    rw [← h3 nb hnb]
    unfold kwargs at hkw
    rw [hpm, hps] at hkw
    rw [binParams_value blk sec model hC n nb ps kw hkw k hk]
    unfold Interface.binSuffix
    split_ifs <;> simp_all

/-- C118: the two step models, which the legacy library still has as classes, cannot be chosen in either module -/
theorem C118_step_models (blk : Interface.Block) (sec : String) (n nb : ℕ) :
    kwargs blk sec "Simple" n nb = .error .keyError ∧ kwargs blk sec "Zehavi" n nb = .error .keyError ∧
    Interface.hodParams blk sec "Simple" n = .error .keyError ∧ Interface.hodParams blk sec "Zehavi" n = .error .keyError :=
  ⟨rfl, rfl, rfl, rfl⟩

/-- the object of the rewritten library that builds its own occupation model from the same inputs, with the stellar fraction of
that model -/
noncomputable def newSpectra (o : Opts) (c : Config) (B : Block) (poisson : ℕ → ℝ) : Spectra :=
  { (toSpectra o B poisson (fun _ _ => 0) fun _ _ => 0).withHod c.nzv c.nz c.z (newCen c B.mass) (newSat c B.mass) with
    fstar := (newBase c B).stellarFraction (newFrac c B.mass) c.unit c.h0 }

/-- C118: the chain of the two legacy modules.  If the occupation module writes every bin and the spectra load it, the object of
the rewritten library with the loaded galaxies is the one that builds its own occupation model. -/
theorem C118_chain (o : Opts) (c : Config) (B : Block) (poisson : ℕ → ℝ) (s : ℕ → Section) (l : ℕ → Loaded)
    (hs : ∀ b, bin c B b = .ok (s b)) (hl : ∀ b, loadHods c.nz (s b) B.zVec B.mass = .ok (l b)) :
    toSpectra o (fill B l) poisson (newBase c B).numberDensity (newBase c B).avgHaloMassCen = newSpectra o c B poisson := by
  have key : ∀ b, (l b).nCen = (newBase c B).hodCen b ∧ (l b).nSat = (newBase c B).hodSat b ∧
      (l b).numdenCen = (newBase c B).numberDensityCen b ∧ (l b).numdenSat = (newBase c B).numberDensitySat b ∧
      (l b).fCen = (newBase c B).fC b ∧ (l b).fSat = (newBase c B).fS b ∧
      (l b).fStar = (newBase c B).stellarFraction (newFrac c B.mass) c.unit c.h0 b := by
    intro b
    obtain ⟨l', hl', h1, h2, h3, h4, h5, h6, h7, -⟩ := C118_loaded c B b (s b) (hs b)
    rw [hl b] at hl'
    cases hl'
    exact ⟨by funext i m; exact h1 i m, by funext i m; exact h2 i m, funext h3, funext h4, funext h5, funext h6,
      by funext i m; exact h7 i m⟩
  have hf : fill B l =
      { B with
        nCen := (newBase c B).hodCen, nSat := (newBase c B).hodSat, numdenCen := (newBase c B).numberDensityCen,
        numdenSat := (newBase c B).numberDensitySat, fCen := (newBase c B).fC, fSat := (newBase c B).fS,
        massAvg := fun b => (l b).massAvg,
        fstar := (newBase c B).stellarFraction (newFrac c B.mass) c.unit c.h0 } := by
    unfold fill
    congr 1
    · funext b; exact (key b).1
    · funext b; exact (key b).2.1
    · funext b; exact (key b).2.2.1
    · funext b; exact (key b).2.2.2.1
    · funext b; exact (key b).2.2.2.2.1
    · funext b; exact (key b).2.2.2.2.2.1
    · funext b; exact (key b).2.2.2.2.2.2
  rw [hf]
  rfl

/-- C118: galaxy-galaxy and galaxy-matter spectra from the two legacy modules in a row are those of the rewritten library, for
every bin, redshift and wavenumber -/
theorem C118_spectra (o : Opts) (c : Config) (B : Block) (poisson : ℕ → ℝ) (s : ℕ → Section) (l : ℕ → Loaded)
    (hs : ∀ b, bin c B b = .ok (s b)) (hl : ∀ b, loadHods c.nz (s b) B.zVec B.mass = .ok (l b)) (b : ℕ)
    (hm : o.SameMode) (hν : B.fnu = 0) (hn : 2 ≤ B.nm) (hB : o.bnl = true → B.SymmetricEdge)
    (hpm : o.pointMass = true → o.mead2020 = false) (ha : o.alignment = false)
    (hp : o.pGg = true → LegacyPk.poissonFunc o B = .ok poisson) {out : BinOut} (h : LegacyPk.bin o (fill B l) b = .ok out) :
    (o.pGg = true → ∃ r n, out.gg = some r ∧ (newSpectra o c B poisson).powerSpectrumGg = .ok n ∧ Agree b n r) ∧
    (o.pGm = true → ∃ r n, out.gm = some r ∧ (newSpectra o c B poisson).powerSpectrumGm = .ok n ∧ Agree b n r) := by
  have e := C118_chain o c B poisson s l hs hl
  have hs' := LegacyPk.C117_same (o := o) (B := fill B l) (p := poisson) (nd := (newBase c B).numberDensity)
    (am := (newBase c B).avgHaloMassCen) (b := b) hm hν hn hB hpm (fun h => absurd h (by simp [ha])) hp h
  rw [e] at hs'
  exact ⟨hs'.1, hs'.2.1⟩

/-- C118: the alignment spectra.  The satellite profile of the legacy chain at a sample redshift, and the one of the rewritten
library, differ by the central fraction to the power of the mass slope, both built from the same settings. -/
theorem C118_alignment (o : Opts) (c : Config) (B : Block) (poisson : ℕ → ℝ) (s : ℕ → Section) (l : ℕ → Loaded)
    (hs : ∀ b, bin c B b = .ok (s b)) (hl : ∀ b, loadHods c.nz (s b) B.zVec B.mass = .ok (l b)) (b : ℕ)
    (hn : 2 ≤ c.nz) (hz : SortedOn c.nz (c.z b)) (i j : ℕ) (hj : j < c.nz) (hi : B.zVec i = c.z b j)
    (hc : 0 < (newBase c B).ncen b j) (ht : 0 < (newBase c B).ntot b j)
    (hM : 0 ≤ (newBase c B).meanMassIntegral (newBase c B).occCen b j) {beta mp : ℝ}
    (hx : B.satHaloMass = some (beta, mp)) (hmp : 0 < mp) {sA : ℕ → ℕ → ℕ → ℝ}
    (hsA : LegacyPk.sAlign (fill B l) b = .ok sA) (k m : ℕ) :
    (newSpectra o c B poisson).satelliteAlignmentProfile b i k m =
      ((newBase c B).ncen b j / (newBase c B).ntot b j) ^ beta * sA i k m := by
  have e := C118_chain o c B poisson s l hs hl
  obtain ⟨l', hl', -, -, h3, -, h5, -, -, -⟩ := C118_loaded c B b (s b) (hs b)
  rw [hl b] at hl'
  cases hl'
  have node : ∀ (fill : Fill) (y : ℕ → ℕ → ℝ), (newBase c B).interpolate fill y b i = y b j := by
    intro fill y
    change interp1d fill c.nz (c.z b) (y b) (B.zVec i) = y b j
    rw [hi]
    exact interp1d_node hn hz fill (y b) hj
  have hma := C118_mass_avg c B b (s b) (hs b) (l b) (hl b) hn hz i j hj hi hc.ne'
  have hfc : (l b).fCen i = (newBase c B).ncen b j / (newBase c B).ntot b j := by rw [h5]; exact node _ _
  have hnc : (l b).numdenCen i = (newBase c B).ncen b j := by rw [h3]; exact node _ _
  have hnd : (newBase c B).numberDensity b i = (newBase c B).ntot b j := node _ _
  have ham : (newBase c B).avgHaloMassCen b i = (newBase c B).meanMassIntegral (newBase c B).occCen b j := node _ _
  have := (LegacyPk.C117_mass_avg (o := o) (B := fill B l) (p := poisson) (nd := (newBase c B).numberDensity)
    (am := (newBase c B).avgHaloMassCen) (b := b) hx hsA i k m
    (by change (l b).numdenCen i ≠ 0; rw [hnc]; exact hc.ne')
    (by change (l b).fCen i = (l b).numdenCen i / _; rw [hfc, hnc, hnd])
    (by change (l b).massAvg i = _ / (l b).numdenCen i; rw [hma.1, ham, hnc])
    (by change 0 ≤ (l b).fCen i; rw [hfc]; positivity)
    (by change 0 ≤ (l b).massAvg i; rw [hma.1]; positivity) hmp).2
  rw [e] at this
  rw [this]
  change (l b).fCen i ^ beta * _ = _
  rw [hfc]

/-! ## Cases that meet the hypotheses -/

/-- a sample of galaxies with one central in every halo of mass 1 or more and `M - 1` satellites, at the redshifts 0 and 1 -/
noncomputable def exampleConfig : Config where
  nbins := 1
  nz := 2
  nobs := 2
  z := fun _ j => j
  obs := fun _ _ o => o + 1
  pop := .zheng fun _ => ⟨0, 0, 0, 0, 1, none, none⟩
  unit := "1/h^2"
  h0 := 0.7
  nzv := 2

/-- masses 1 and 2, redshifts 0 and 1 -/
noncomputable def exampleBlock : Block :=
  { LegacyPk.exampleBlock false with
    zVec := fun i => i
    mass := fun m => m + 1
    dndlnm := fun _ _ => 1 }

theorem example_occ : (newBase exampleConfig exampleBlock).occCen 0 0 0 = 1 ∧
    (newBase exampleConfig exampleBlock).occCen 0 0 1 = 1 ∧ (newBase exampleConfig exampleBlock).occSat 0 0 0 = 0 ∧
    (newBase exampleConfig exampleBlock).occSat 0 0 1 = 1 := by
  norm_num [newBase, newCen, newSat, exampleConfig, exampleBlock, Hod.zhengCen, Hod.zhengSat, Hod.decorateCen,
    Hod.decorateSat, Hod.erfCen, heaviside]

theorem example_dndlnm (m : ℕ) : (newBase exampleConfig exampleBlock).dndlnmInt 0 0 m = 1 := by
  simp [Base.dndlnmInt, newBase, exampleConfig, exampleBlock, interp1d, interpLinear]

theorem example_densities : (newBase exampleConfig exampleBlock).ncen 0 0 = 3 / 4 ∧
    (newBase exampleConfig exampleBlock).nsat 0 0 = 1 / 4 ∧ (newBase exampleConfig exampleBlock).ntot 0 0 = 1 ∧
    (newBase exampleConfig exampleBlock).meanMassIntegral (newBase exampleConfig exampleBlock).occCen 0 0 = 1 := by
  obtain ⟨h1, h2, h3, h4⟩ := example_occ
  have hm : (newBase exampleConfig exampleBlock).mass = fun m : ℕ => (m : ℝ) + 1 := rfl
  have hn : (newBase exampleConfig exampleBlock).nm = 2 := rfl
  unfold Base.ncen Base.nsat Base.ntot Base.massIntegral Base.meanMassIntegral simpson
  simp only [Base.occ, hn, hm, h1, h2, h3, h4, example_dndlnm]
  norm_num

/-- the chain runs for this sample, the rewritten library has the mean mass 1 where the legacy modules have 4/3 -/
example : ∃ (s : ℕ → Section) (l : ℕ → Loaded), (∀ b, bin exampleConfig exampleBlock b = .ok (s b)) ∧
    (∀ b, loadHods exampleConfig.nz (s b) exampleBlock.zVec exampleBlock.mass = .ok (l b)) ∧
    2 ≤ exampleConfig.nz ∧ SortedOn exampleConfig.nz (exampleConfig.z 0) ∧ exampleBlock.zVec 0 = exampleConfig.z 0 0 ∧
    0 < (newBase exampleConfig exampleBlock).ncen 0 0 ∧ (l 0).massAvg 0 = 4 / 3 ∧
    (newBase exampleConfig exampleBlock).avgHaloMassCen 0 0 / (newBase exampleConfig exampleBlock).numberDensity 0 0 = 1 := by
  have hrun : ∀ b, ∃ s, bin exampleConfig exampleBlock b = .ok s := fun b =>
    C118_runs_per_bin _ _ b (fun m _ => by change (0 : ℝ) < m + 1; positivity)
      (.inl ⟨_, rfl, fun a h => (nomatch h), fun a h => (nomatch h)⟩)
  choose s hs using hrun
  have hload : ∀ b, ∃ l, loadHods exampleConfig.nz (s b) exampleBlock.zVec exampleBlock.mass = .ok l := fun b => by
    obtain ⟨l, hl, -⟩ := C118_loaded _ _ b (s b) (hs b)
    exact ⟨l, hl⟩
  choose l hl using hload
  have hz : SortedOn exampleConfig.nz (exampleConfig.z 0) := fun i j hij _ => by
    change (i : ℝ) < j
    exact_mod_cast hij
  obtain ⟨d1, d2, d3, d4⟩ := example_densities
  have hma := C118_mass_avg _ _ 0 (s 0) (hs 0) (l 0) (hl 0) (le_refl 2) hz 0 0 (by decide) rfl (by rw [d1]; norm_num)
  obtain ⟨l', hl', -, -, -, -, hf, -⟩ := C118_loaded _ _ 0 (s 0) (hs 0)
  rw [hl 0] at hl'
  cases hl'
  have hfc : (l 0).fCen 0 = 3 / 4 := by
    rw [hf]
    change interp1d (.value 0) exampleConfig.nz (exampleConfig.z 0) (fun j => (newBase exampleConfig exampleBlock).ncen 0 j /
      (newBase exampleConfig exampleBlock).ntot 0 j) (exampleConfig.z 0 0) = _
    have := interp1d_node (le_refl 2) hz (.value 0) (fun j => (newBase exampleConfig exampleBlock).ncen 0 j /
      (newBase exampleConfig exampleBlock).ntot 0 j) (i := 0) (by decide)
    refine Eq.trans this ?_
    simp only [d1, d3]
    norm_num
  refine ⟨s, l, hs, hl, le_refl 2, hz, rfl, by rw [d1]; norm_num, by rw [hma.1, d4, d1]; norm_num, ?_⟩
  rw [hma.2, hma.1, d4, d1, hfc]
  norm_num

/-- a sample that stops the legacy module -/
example : bin { exampleConfig with pop := .zhai fun _ => ⟨0, 0, 0, 0, 1, none, some (-2)⟩ } exampleBlock 0 = .error .valueError :=
  (C118_stops _ _ 0 (fun _ => ⟨0, 0, 0, 0, 1, none, some (-2)⟩) rfl (-2) rfl (by norm_num) (by decide) 0 (by decide)
    (by change (0 : ℝ) < ((0 : ℕ) : ℝ) + 1; norm_num)).1

/-- the defaults of the legacy module with a model that has no observable function -/
example : setupChecks "1/h^2" "Zheng" true 1 1 1 1 = .error .valueError := by decide

/-! ## the interface to the classes of the rewritten library -/

/-- C118: the legacy interface to the rewritten classes never makes an object: whatever the block holds it stops, at the latest in the
constructor, which has no argument `halobias`.  Without that keyword the constructor would accept all the others. -/
theorem C118_no_loop (blk : Interface.Block) (sec model : String) (n : ℕ) (hmf bias : Bool) :
    (∃ e, noLoop blk sec model n hmf bias = .error e) ∧
    (∀ ps, parametersModels model = .ok ps → hmf = true → bias = true → noLoopParams blk sec model n ps = .ok () →
      noLoop blk sec model n hmf bias = .error .valueError) ∧
    ∀ ps, parametersModels model = .ok ps →
      construct model ((noLoopKeywords ps).filter (· ≠ "halobias")) = .ok () ∧
      construct model ((noLoopKeywords ps).map fun k => if k = "halobias" then "halo_bias" else k) = .ok () := by
  have key : ∀ ps, construct model (noLoopKeywords ps) = .error .valueError := by
    intro ps
    unfold construct
    rw [if_neg]
    intro h
    have h := h "halobias" (by simp [noLoopKeywords])
    have hd : "halobias" ∉ modelDefaults model := by
      unfold modelDefaults
      split_ifs <;> decide
    rcases h with h | h
    · exact absurd h (by decide)
    · exact hd h
  refine ⟨?_, ?_, ?_⟩
  · unfold noLoop
    cases parametersModels model with
    | error e => exact ⟨e, rfl⟩
    | ok ps =>
      cases hmf
      · exact ⟨_, rfl⟩
      · cases hp : noLoopParams blk sec model n ps with
        | error e => exact ⟨e, by simp [Except.bind, hp]⟩
        | ok u =>
          cases bias
          · exact ⟨_, by simp [Except.bind, hp]; rfl⟩
          · exact ⟨_, by simp [Except.bind, hp, key]; rfl⟩
  · intro ps h1 h2 h3 h4
    subst h2 h3
    simp [noLoop, h1, Except.bind, h4, key]
  · intro ps h
    unfold parametersModels at h
    split_ifs at h with h1 h2 h3 <;> cases h
    · subst h1; decide
    · subst h2; decide
    · subst h3; decide

/-- a block with all parameters of two bins -/
example : noLoop (fun _ _ => some (.num 1)) "hod" "Zheng" 2 true true = .error .valueError :=
  (C118_no_loop _ "hod" "Zheng" 2 true true).2.1 _ rfl rfl rfl (by decide)

end Verif.LegacyHod

import Verif.Props.Convergence
import Verif.Props.PkTextbook
import Verif.Props.HodSpectra

/-! Property C100 (spectra and occupation model): with finer mass grids the matter power spectrum and the galaxy counts
converge to the integrals of the halo model. -/

namespace Verif.Convergence

open Verif.Lib Verif.Spec Verif.Pk Verif.Pk.Spectra Filter Topology Set MeasureTheory

/-- The spectra for every step `d` of the mass grid between `10^lo` and `10^hi`, when the mass function, the bias and the
profile at redshift `z` and wavenumber `k` are given by functions of mass that do not depend on the grid. -/
structure Fine (lo hi : ℝ) (s : ℝ → Spectra) (z k : ℕ) (n b u : ℝ → ℝ) (ρ : ℝ) : Prop where
  nm : ∀ d, 0 < d → (s d).nm = arangeLen lo hi d
  mass : ∀ d, 0 < d → (s d).mass = massGrid lo d
  number : ∀ d, 0 < d → ∀ m, (s d).dndlnm z m = n (massGrid lo d m)
  bias : ∀ d, 0 < d → ∀ m, (s d).haloBias z m = b (massGrid lo d m)
  profile : ∀ d, 0 < d → ∀ m, (s d).uDm z k m = u (massGrid lo d m)
  density : ∀ d, 0 < d → (s d).meanDensity0 z = ρ

theorem massGrid_pos (lo d : ℝ) (m : ℕ) : 0 < massGrid lo d m := Real.rpow_pos_of_pos (by norm_num) _

theorem pos_of_mem {lo hi M : ℝ} (h : M ∈ Icc ((10 : ℝ) ^ lo) ((10 : ℝ) ^ hi)) : 0 < M :=
  lt_of_lt_of_le (Real.rpow_pos_of_pos (by norm_num) _) h.1

/-- C100: as the step of the mass grid goes to zero, the 1-halo term of matter converges to
`∫ (M u / ρ)² dn/dlnM dM/M` and the 2-halo term to `P_lin (1 + ∫ b (u - 1) / ρ dn/dlnM dM)²`, both over the
configured range of masses -/
theorem C100_matter_spectrum {lo hi : ℝ} (h : lo < hi) {s : ℝ → Spectra} {z k : ℕ} {n b u : ℝ → ℝ} {ρ P T1 T2 : ℝ}
    (F : Fine lo hi s z k n b u ρ) (hn : ContinuousOn n (Icc ((10 : ℝ) ^ lo) ((10 : ℝ) ^ hi)))
    (hb : ContinuousOn b (Icc ((10 : ℝ) ^ lo) ((10 : ℝ) ^ hi)))
    (hu : ContinuousOn u (Icc ((10 : ℝ) ^ lo) ((10 : ℝ) ^ hi)))
    (hmode : ∀ d, (s d).nonlinearMode = .none ∨ (s d).nonlinearMode = .fortuna) (hresp : ∀ d, (s d).response = false)
    (hi' : ∀ d, (s d).hmcodeIngredients = .none ∨ (s d).hmcodeIngredients = .mead2020)
    (hP : ∀ d, (s d).pkLin z k = P) (hT1 : ∀ d, (s d).oneHaloTruncation k = T1)
    (hT2 : ∀ d, (s d).twoHaloTruncation k = T2) :
    ∃ r : ℝ → PkResult, (∀ d, 0 < d → (s d).powerSpectrumMm = .ok (r d)) ∧ ∀ t,
      Tendsto (fun d => (r d).pk1h t z k) (𝓝[>] 0)
        (𝓝 ((∫ M in (10 : ℝ) ^ lo..(10 : ℝ) ^ hi, (M / ρ * u M) ^ 2 * (n M / M)) * T1)) ∧
      Tendsto (fun d => (r d).pk2h t z k) (𝓝[>] 0)
        (𝓝 (P * (1 + ∫ M in (10 : ℝ) ^ lo..(10 : ℝ) ^ hi, b M * (u M - 1) / ρ * n M) ^ 2 * T2)) := by
  have hne : ∀ M ∈ Icc ((10 : ℝ) ^ lo) ((10 : ℝ) ^ hi), M ≠ 0 := fun M hM => (pos_of_mem hM).ne'
  have hS : ∀ d, 0 < d → Sampled (s d) := fun d hd => ⟨fun m _ => by rw [F.mass d hd]; exact (massGrid_pos lo d m).ne',
    by rw [F.nm d hd]; exact Nat.ceil_pos.2 (div_pos (by linarith) hd)⟩
  have hex : ∀ d, ∃ r, 0 < d → (s d).powerSpectrumMm = .ok r ∧ ∀ b z k,
      r.pk1h b z k = (haloes (s d) z k).oneHalo ((haloes (s d) z k).matter ((s d).uDm z k))
        ((haloes (s d) z k).matter ((s d).uDm z k)) * (s d).oneHaloTruncation k ∧
      r.pk2h b z k = (haloes (s d) z k).linear * ((haloes (s d) z k).bias1 ((haloes (s d) z k).matter ((s d).uDm z k))
        + (haloes (s d) z k).missing) ^ 2 * (s d).twoHaloTruncation k := by
    intro d
    by_cases hd : 0 < d
    · obtain ⟨r, h1, h2⟩ := C97_matter (hS d hd) (hmode d) (hresp d) (hi' d)
      exact ⟨r, fun _ => ⟨h1, h2⟩⟩
    · exact ⟨⟨fun _ _ _ => 0, fun _ _ _ => 0, fun _ _ _ => 0, none⟩, fun h => absurd h hd⟩
  choose r hr using hex
  refine ⟨r, fun d hd => (hr d hd).1, fun t => ⟨?_, ?_⟩⟩
  · have hc : ContinuousOn (fun M => (M / ρ * u M) ^ 2 * (n M / M)) (Icc ((10 : ℝ) ^ lo) ((10 : ℝ) ^ hi)) :=
      (((continuousOn_id.div_const ρ).mul hu).pow 2).mul (hn.div continuousOn_id hne)
    refine ((C100_mass_grid h hc).mul_const T1).congr' ?_
    filter_upwards [self_mem_nhdsWithin] with d hd
    have hd' : 0 < d := hd
    rw [((hr d hd').2 t z k).1, hT1]
    congr 1
    simp only [HaloModel.oneHalo, HaloModel.matter, haloes, F.nm d hd', F.mass d hd', F.density d hd', F.profile d hd',
      F.number d hd']
    refine congrArg _ (funext fun m => ?_)
    ring
  · have hc : ContinuousOn (fun M => b M * (u M - 1) / ρ * n M) (Icc ((10 : ℝ) ^ lo) ((10 : ℝ) ^ hi)) :=
      ((hb.mul (hu.sub continuousOn_const)).div_const ρ).mul hn
    refine (((((C100_mass_grid h hc).const_add 1).pow 2).const_mul P).mul_const T2).congr' ?_
    filter_upwards [self_mem_nhdsWithin] with d hd
    have hd' : 0 < d := hd
    rw [((hr d hd').2 t z k).2, hT2]
    have e : (haloes (s d) z k).linear = P := hP d
    rw [e]
    congr 3
    simp only [HaloModel.bias1, HaloModel.matter, HaloModel.missing, haloes, F.nm d hd', F.mass d hd', F.density d hd',
      F.profile d hd', F.number d hd', F.bias d hd']
    rw [show ∀ a c : ℝ, a + (1 - c) = 1 + (a + (-1) * c) by intros; ring, ← simpson_smul, ← simpson_add]
    congr 1
    refine congrArg _ (funext fun m => ?_)
    have := (massGrid_pos lo d m).ne'
    field_simp
    ring

/-- such spectra exist: the demonstration spectra on the grid of the code -/
noncomputable def fineDemo (d : ℝ) : Spectra :=
  { Pk.demo with
    nonlinearMode := .none, response := false, hmcodeIngredients := .none
    nm := arangeLen 9 16 d, mass := massGrid 9 d, dndlnm := fun _ m => 1 / massGrid 9 d m
    haloBias := fun _ m => 1 + massGrid 9 d m, uDm := fun _ k m => 1 / (1 + k * massGrid 9 d m) }

example (z k : ℕ) : Fine 9 16 fineDemo z k (fun M => 1 / M) (fun M => 1 + M) (fun M => 1 / (1 + k * M)) 8 := by
  constructor <;> intros <;> rfl

example (z k : ℕ) : ∃ r : ℝ → PkResult, (∀ d, 0 < d → (fineDemo d).powerSpectrumMm = .ok (r d)) ∧ ∀ t,
    Tendsto (fun d => (r d).pk1h t z k) (𝓝[>] 0)
      (𝓝 ((∫ M in (10 : ℝ) ^ (9 : ℝ)..(10 : ℝ) ^ (16 : ℝ), (M / 8 * (1 / (1 + k * M))) ^ 2 * (1 / M / M)) *
        (fineDemo 1).oneHaloTruncation k)) := by
  have pos : ∀ M ∈ Icc ((10 : ℝ) ^ (9 : ℝ)) ((10 : ℝ) ^ (16 : ℝ)), M ≠ 0 ∧ 1 + (k : ℝ) * M ≠ 0 := fun M hM => by
    have := pos_of_mem hM
    constructor <;> positivity
  obtain ⟨r, h1, h2⟩ := C100_matter_spectrum (lo := 9) (hi := 16) (by norm_num) (s := fineDemo) (z := z) (k := k)
    (n := fun M => 1 / M) (b := fun M => 1 + M) (u := fun M => 1 / (1 + k * M)) (ρ := 8)
    (by constructor <;> intros <;> rfl) (continuousOn_const.div continuousOn_id fun M hM => (pos M hM).1)
    (continuousOn_const.add continuousOn_id)
    (continuousOn_const.div (continuousOn_const.add (continuousOn_const.mul continuousOn_id)) fun M hM => (pos M hM).2)
    (fun _ => Or.inl rfl) (fun _ => rfl) (fun _ => Or.inl rfl) (fun _ => rfl) (T1 := (fineDemo 1).oneHaloTruncation k) (fun _ => rfl) (T2 := (fineDemo 1).twoHaloTruncation k)
    (fun _ => rfl)
  exact ⟨r, h1, fun t => (h2 t).1⟩

/-! ## The occupation model -/

/-- the occupation model for every step of the mass grid, when occupations, mass function and bias are given by functions of
mass -/
structure FineHod (lo hi : ℝ) (h : ℝ → Hod.Base) (b j : ℕ) (nzv : ℕ) (zVec : ℕ → ℝ) (zj : ℝ)
    (Nc Ns : ℝ → ℝ) (n β : ℕ → ℝ → ℝ) : Prop where
  nzv : ∀ d, 0 < d → (h d).nzv = nzv
  zVec : ∀ d, 0 < d → (h d).zVec = zVec
  z : ∀ d, 0 < d → (h d).z b j = zj
  nm : ∀ d, 0 < d → (h d).nm = arangeLen lo hi d
  mass : ∀ d, 0 < d → (h d).mass = massGrid lo d
  number : ∀ d, 0 < d → ∀ i m, (h d).dndlnm i m = n i (massGrid lo d m)
  bias : ∀ d, 0 < d → ∀ i m, (h d).haloBias i m = β i (massGrid lo d m)
  cen : ∀ d, 0 < d → ∀ m, (h d).occCen b j m = Nc (massGrid lo d m)
  sat : ∀ d, 0 < d → ∀ m, (h d).occSat b j m = Ns (massGrid lo d m)

/-- C100: the number densities of centrals and satellites converge to `∫ N dn/dlnM dM/M`, the mean mass integral to
`∫ N dn/dlnM dM` and the bias of centrals to the number-weighted mean bias, where `n` and `β` are the mass function and
the bias interpolated linearly to the redshift of the sample -/
theorem C100_occupation {lo hi : ℝ} (h : lo < hi) {H : ℝ → Hod.Base} {b j nzv : ℕ} {zVec : ℕ → ℝ} {zj : ℝ}
    {Nc Ns : ℝ → ℝ} {n β : ℕ → ℝ → ℝ} (F : FineHod lo hi H b j nzv zVec zj Nc Ns n β)
    (hc : ContinuousOn Nc (Icc ((10 : ℝ) ^ lo) ((10 : ℝ) ^ hi))) (hs : ContinuousOn Ns (Icc ((10 : ℝ) ^ lo) ((10 : ℝ) ^ hi)))
    (hn : ∀ i, ContinuousOn (n i) (Icc ((10 : ℝ) ^ lo) ((10 : ℝ) ^ hi)))
    (hβ : ∀ i, ContinuousOn (β i) (Icc ((10 : ℝ) ^ lo) ((10 : ℝ) ^ hi))) :
    let nz := fun M => interpLinear nzv zVec (fun i => n i M) zj
    let βz := fun M => interpLinear nzv zVec (fun i => β i M) zj
    let I := fun f : ℝ → ℝ => ∫ M in (10 : ℝ) ^ lo..(10 : ℝ) ^ hi, f M
    Tendsto (fun d => (H d).ncen b j) (𝓝[>] 0) (𝓝 (I fun M => Nc M * nz M / M)) ∧
    Tendsto (fun d => (H d).nsat b j) (𝓝[>] 0) (𝓝 (I fun M => Ns M * nz M / M)) ∧
    Tendsto (fun d => (H d).meanMassIntegral (H d).occCen b j) (𝓝[>] 0) (𝓝 (I fun M => Nc M * nz M)) ∧
    ((I fun M => (Nc M + Ns M) * nz M / M) ≠ 0 →
      Tendsto (fun d => (H d).biasIntegral (H d).occ b j) (𝓝[>] 0)
        (𝓝 ((I fun M => (Nc M + Ns M) * βz M * nz M / M) / I fun M => (Nc M + Ns M) * nz M / M))) := by
  intro nz βz I
  have hne : ∀ M ∈ Icc ((10 : ℝ) ^ lo) ((10 : ℝ) ^ hi), M ≠ 0 := fun M hM => (pos_of_mem hM).ne'
  have hcont : ∀ f : ℕ → ℝ → ℝ, (∀ i, ContinuousOn (f i) (Icc ((10 : ℝ) ^ lo) ((10 : ℝ) ^ hi))) →
      ContinuousOn (fun M => interpLinear nzv zVec (fun i => f i M) zj) (Icc ((10 : ℝ) ^ lo) ((10 : ℝ) ^ hi)) := by
    intro f hf
    unfold interpLinear
    exact ((((hf _).sub (hf _)).div_const _).mul continuousOn_const).add (hf _)
  have hnz := hcont n hn
  have hβz := hcont β hβ
  have en : ∀ d, 0 < d → ∀ m, (H d).dndlnmInt b j m = nz (massGrid lo d m) := by
    intro d hd m
    unfold Hod.Base.dndlnmInt interp1d
    simp only [F.nzv d hd, F.zVec d hd, F.z d hd, F.number d hd, nz]
  have eβ : ∀ d, 0 < d → ∀ m, (H d).haloBiasInt b j m = βz (massGrid lo d m) := by
    intro d hd m
    unfold Hod.Base.haloBiasInt interp1d
    simp only [F.nzv d hd, F.zVec d hd, F.z d hd, F.bias d hd, βz]
  have tot : Tendsto (fun d => (H d).ntot b j) (𝓝[>] 0) (𝓝 (I fun M => (Nc M + Ns M) * nz M / M)) := by
    refine (C100_mass_grid h (((hc.add hs).mul hnz).div continuousOn_id hne)).congr' ?_
    filter_upwards [self_mem_nhdsWithin] with d hd
    have hd' : 0 < d := hd
    simp only [Hod.Base.ntot, Hod.Base.massIntegral, Hod.Base.occ, en d hd', F.cen d hd', F.sat d hd', F.nm d hd',
      F.mass d hd']
    rfl
  refine ⟨?_, ?_, ?_, fun h0 => ?_⟩
  · refine (C100_mass_grid h ((hc.mul hnz).div continuousOn_id hne)).congr' ?_
    filter_upwards [self_mem_nhdsWithin] with d hd
    have hd' : 0 < d := hd
    simp only [Hod.Base.ncen, Hod.Base.massIntegral, en d hd', F.cen d hd', F.nm d hd', F.mass d hd']
    rfl
  · refine (C100_mass_grid h ((hs.mul hnz).div continuousOn_id hne)).congr' ?_
    filter_upwards [self_mem_nhdsWithin] with d hd
    have hd' : 0 < d := hd
    simp only [Hod.Base.nsat, Hod.Base.massIntegral, en d hd', F.sat d hd', F.nm d hd', F.mass d hd']
    rfl
  · refine (C100_mass_grid h (hc.mul hnz)).congr' ?_
    filter_upwards [self_mem_nhdsWithin] with d hd
    have hd' : 0 < d := hd
    simp only [Hod.Base.meanMassIntegral, en d hd', F.cen d hd', F.nm d hd', F.mass d hd']
    rfl
  · refine Tendsto.div ?_ tot h0
    refine (C100_mass_grid h ((((hc.add hs).mul hβz).mul hnz).div continuousOn_id hne)).congr' ?_
    filter_upwards [self_mem_nhdsWithin] with d hd
    have hd' : 0 < d := hd
    simp only [Hod.Base.occ, en d hd', eβ d hd', F.cen d hd', F.sat d hd', F.nm d hd', F.mass d hd']
    rfl

/-- with one central and `M` satellites per halo, `dn/dlnM = 1` at all redshifts -/
noncomputable def fineHodDemo (d : ℝ) : Hod.Base where
  nzv := 2
  zVec := fun i => i
  nm := arangeLen 9 16 d
  mass := massGrid 9 d
  dndlnm := fun _ _ => 1
  haloBias := fun _ m => massGrid 9 d m
  nz := 2
  z := fun _ j => j / 2
  occCen := fun _ _ _ => 1
  occSat := fun _ _ m => massGrid 9 d m

example : FineHod 9 16 fineHodDemo 0 1 2 (fun i => i) (1 / 2) (fun _ => 1) (fun M => M) (fun _ _ => 1) (fun _ M => M) := by
  constructor <;> intros <;> simp [fineHodDemo]

end Verif.Convergence

import Verif.Lib.Checked
import Verif.Model.Pk

/-!
# `/repo/src/onepower/pk.py` with invalid floating-point operations

The formulas of `Model/Pk`, written once more over `Ck`: a division by zero, an invalid power or the root of a negative
number gives `bad`, and so does everything computed from it.  The citations are those of `Model/Pk`.
-/

namespace Verif.PkChecked

open Verif.Lib Verif.Pk

variable (s : Pk.Spectra)

/-- `compute_matter_profile` (pk.py:673-705) -/
noncomputable def computeMatterProfile (mass meanDensity0 uDm : Ck) : Ck := mass / meanDensity0 * uDm

/-- `matter_profile`, `matter_profile_2h` (pk.py:707-743) -/
noncomputable def matterProfile (z k m : ℕ) : Ck :=
  computeMatterProfile (s.mass m) (s.meanDensity0 z) (s.uDm z k m)

/-- `fs` (pk.py:1484-1503); powers of ten are always valid -/
noncomputable def fs (zv : ℝ) : Ck := ((s.fs zv : ℝ) : Ck)

/-- `fg` (pk.py:1408-1447) -/
noncomputable def fg (mass : ℝ) (zv : ℝ) (fstar : Ck) : Ck :=
  ((s.omegaB : Ck) / s.omegaM - fstar) * ((mass : Ck) / s.mbAgn zv) ^ 2 / (((1 : ℝ) : Ck) + ((mass : Ck) / s.mbAgn zv) ^ 2)

/-- `fg_fit` (pk.py:1449-1482) -/
noncomputable def fgFit (mass mb : ℝ) (fstar : Ck) : Ck :=
  ((s.omegaB : Ck) / s.omegaM - fstar) * ((mass : Ck) / mb) ^ 2 / (((1 : ℝ) : Ck) + ((mass : Ck) / mb) ^ 2)

/-- `matter_profile_with_feedback` (pk.py:745-804) -/
noncomputable def matterProfileWithFeedback (z k m : ℕ) : Ck :=
  ((s.omegaC : Ck) / s.omegaM + fg s (s.mass m) (s.zVec z) (fs s (s.zVec z))) * ((s.mass m : Ck) / s.meanDensity0 z)
      * s.uDm z k m
    + fs s (s.zVec z) * ((s.mass m : Ck) / s.meanDensity0 z)

/-- `matter_profile_with_feedback_stellar_fraction_from_obs` (pk.py:806-871) -/
noncomputable def matterProfileFit (fstar : ℕ → ℕ → ℕ → ℝ) (b z k m : ℕ) : Ck :=
  ((s.omegaC : Ck) / s.omegaM + fgFit s (s.mass m) s.mb (fstar b z m)) * ((s.mass m : Ck) / s.meanDensity0 z)
      * s.uDm z k m
    + (fstar b z m : Ck) * ((s.mass m : Ck) / s.meanDensity0 z)

/-- `one_halo_truncation` (pk.py:873-891) -/
noncomputable def oneHaloTruncation (k : ℕ) : Ck :=
  match s.oneHaloKtrunc with
  | none => ((1 : ℝ) : Ck)
  | some kt => ((s.kVec k : Ck) / kt) ^ 4 / (((1 : ℝ) : Ck) + ((s.kVec k : Ck) / kt) ^ 4)

/-- `two_halo_truncation` (pk.py:893-913) -/
noncomputable def twoHaloTruncation (k : ℕ) : Ck :=
  match s.twoHaloKtrunc with
  | none => ((1 : ℝ) : Ck)
  | some _ => ((1 : ℝ) : Ck) - ((0.05 : ℝ) : Ck) * ((s.kVec k : Ck) / (0.05699 : ℝ)).rpow (2.853 : ℝ)
      / (((1 : ℝ) : Ck) + ((s.kVec k : Ck) / (0.05699 : ℝ)).rpow (2.853 : ℝ))

/-- `one_halo_truncation_ia` (pk.py:915-932) -/
noncomputable def oneHaloTruncationIa (k : ℕ) : Ck :=
  match s.oneHaloKtruncIa with
  | none => ((1 : ℝ) : Ck)
  | some kt => ((1 : ℝ) : Ck) - Ck.exp (-((s.kVec k : Ck) / kt) ^ 2)

/-- `two_halo_truncation_ia` (pk.py:934-951) -/
noncomputable def twoHaloTruncationIa (k : ℕ) : Ck :=
  match s.twoHaloKtruncIa with
  | none => ((1 : ℝ) : Ck)
  | some kt => Ck.exp (-((s.kVec k : Ck) / kt) ^ 2)

/-- `one_halo_truncation_mead2020` (pk.py:953-971) -/
noncomputable def oneHaloTruncationMead (z k : ℕ) : Ck :=
  ((s.kVec k : Ck) / (((0.05618 : ℝ) : Ck) * (s.sigma8z z : Ck).rpow (-1.013 : ℝ))) ^ 4
    / (((1 : ℝ) : Ck) + ((s.kVec k : Ck) / (((0.05618 : ℝ) : Ck) * (s.sigma8z z : Ck).rpow (-1.013 : ℝ))) ^ 4)

/-- `two_halo_truncation_mead2020` (pk.py:973-996) -/
noncomputable def twoHaloTruncationMead (z k : ℕ) : Ck :=
  ((1 : ℝ) : Ck) - ((0.2696 : ℝ) : Ck) * (s.sigma8z z : Ck).rpow (0.9403 : ℝ)
      * ((s.kVec k : Ck) / (((0.05699 : ℝ) : Ck) * (s.sigma8z z : Ck).rpow (-1.089 : ℝ))).rpow (2.853 : ℝ)
    / (((1 : ℝ) : Ck) + ((s.kVec k : Ck) / (((0.05699 : ℝ) : Ck) * (s.sigma8z z : Ck).rpow (-1.089 : ℝ))).rpow (2.853 : ℝ))

/-- `transition_smoothing` (pk.py:998-1031) -/
noncomputable def transitionSmoothing (z k : ℕ) (p1h p2h : Ck) : Ck :=
  let alpha : Ck := ((1.875 * (1.603 : ℝ) ^ s.neff z : ℝ) : Ck)
  let d : Ck := (s.kVec k : Ck) ^ 3 / ((2 * Real.pi ^ 2 : ℝ) : Ck)
  ((d * p1h).rpow alpha + (d * p2h).rpow alpha).rpow (((1 : ℝ) : Ck) / alpha) / d

/-- `compute_1h_term` (pk.py:1033-1078) -/
noncomputable def compute1hTerm (u v : ℕ → Ck) (z : ℕ) : Ck :=
  simpsonCk s.nm s.mass (fun m => u m * v m * s.dndlnm z m / s.mass m)

/-- `A_term` (pk.py:1080-1155) -/
noncomputable def aTerm (z : ℕ) : Ck :=
  ((1 : ℝ) : Ck) - simpsonCk s.nm s.mass
    (fun m => (s.haloBias z m : Ck) * s.dndlnm z m * (((1 : ℝ) : Ck) / s.meanDensity0 z))

/-- `Im_term` (pk.py:1157-1203) -/
noncomputable def imTerm (z k : ℕ) : Ck :=
  simpsonCk s.nm s.mass
    (fun m => (s.haloBias z m : Ck) * s.dndlnm z m * s.uDm z k m * (((1 : ℝ) : Ck) / s.meanDensity0 z)) + aTerm s z

/-- `I22`, `I12`, `I21` (pk.py:1205-1298) -/
noncomputable def i22 (z k m1 m2 : ℕ) : Ck :=
  (s.betaNl z k m1 m2 : Ck) * ((s.haloBias z m1 : Ck) * s.dndlnm z m1 * (((1 : ℝ) : Ck) / s.mass m1))
    * ((s.haloBias z m2 : Ck) * s.dndlnm z m2 * (((1 : ℝ) : Ck) / s.mass m2))

/-- see `i22` (pk.py:1242-1269) -/
noncomputable def i12 (z k m2 : ℕ) : Ck :=
  (s.betaNl z k 0 m2 : Ck) * ((s.haloBias z m2 : Ck) * s.dndlnm z m2 * (((1 : ℝ) : Ck) / s.mass m2))

/-- see `i22` (pk.py:1271-1298) -/
noncomputable def i21 (z k m1 : ℕ) : Ck :=
  (s.betaNl z k m1 0 : Ck) * ((s.haloBias z m1 : Ck) * s.dndlnm z m1 * (((1 : ℝ) : Ck) / s.mass m1))

/-- `trapezoidal_integrator` (pk.py:1392-1406) -/
noncomputable def trapezoidalIntegrator (f : ℕ → Ck) : Ck := sumCk s.nm fun i => f i * s.trapezoidalWeights i

/-- `I_NL` (pk.py:1300-1390) -/
noncomputable def iNL (W1 W2 : ℕ → Ck) (z k : ℕ) : Ck :=
  (s.betaNl z k 0 0 : Ck) * (aTerm s z * aTerm s z) * W1 0 * W2 0
      * ((s.meanDensity0 z : Ck) * (((1 : ℝ) : Ck) / s.mass 0)) ^ 2
    + aTerm s z * W1 0 * trapezoidalIntegrator s (fun m => i12 s z k m * W2 m)
      * ((s.meanDensity0 z : Ck) * (((1 : ℝ) : Ck) / s.mass 0))
    + aTerm s z * W2 0 * trapezoidalIntegrator s (fun m => i21 s z k m * W1 m)
      * ((s.meanDensity0 z : Ck) * (((1 : ℝ) : Ck) / s.mass 0))
    + trapezoidalIntegrator s
        (fun m1 => trapezoidalIntegrator s (fun m2 => i22 s z k m1 m2 * W2 m2) * W1 m1)

/-- the 1-halo matter profile of `_power_spectrum_mm` (pk.py:1556-1567) -/
noncomputable def matterProfile1hMm (z k m : ℕ) : Ck :=
  match s.hmcodeIngredients with
  | .mead2020Feedback => matterProfileWithFeedback s z k m
  | .mead2020 => matterProfile s z k m
  | .fit => matterProfileFit s (fun _ => s.fstarMm) 0 z k m
  | .none => matterProfile s z k m

/-- the three components of a spectrum -/
structure Result where
  pk1h : ℕ → ℕ → ℕ → Ck
  pk2h : ℕ → ℕ → ℕ → Ck
  pkTot : ℕ → ℕ → ℕ → Ck
  galaxyLinearBias : Option (ℕ → ℕ → ℕ → Ck)

/-- `_power_spectrum_mm` (pk.py:1543-1630) -/
noncomputable def powerSpectrumMmRaw : Except PyErr Result :=
  match s.nonlinearMode with
  | .bnl =>
    let pk2h : ℕ → ℕ → ℕ → Ck := fun _ z k =>
      (s.pkLin z k : Ck) * imTerm s z k * imTerm s z k
        + (s.pkLin z k : Ck) * iNL s (matterProfile s z k) (matterProfile s z k) z k
    let pk1h : ℕ → ℕ → ℕ → Ck := fun _ z k =>
      compute1hTerm s (matterProfile1hMm s z k) (matterProfile1hMm s z k) z * oneHaloTruncation s k
    .ok ⟨pk1h, pk2h, fun b z k => pk1h b z k + pk2h b z k, none⟩
  | .hmcode =>
    if s.hmcodeIngredients = .mead2020Feedback ∨ s.hmcodeIngredients = .mead2020 then
      let pk2h : ℕ → ℕ → ℕ → Ck := fun _ z k => (s.pkLin z k : Ck) * twoHaloTruncationMead s z k
      let pk1h : ℕ → ℕ → ℕ → Ck := fun _ z k =>
        compute1hTerm s (matterProfile1hMm s z k) (matterProfile1hMm s z k) z
          * oneHaloTruncationMead s z k
      .ok ⟨pk1h, pk2h, fun b z k => transitionSmoothing s z k (pk1h b z k) (pk2h b z k), none⟩
    else .error .unboundLocal
  | _ =>
    let pk2h : ℕ → ℕ → ℕ → Ck := fun _ z k =>
      (s.pkLin z k : Ck) * imTerm s z k * imTerm s z k * twoHaloTruncation s k
    let pk1h : ℕ → ℕ → ℕ → Ck := fun _ z k =>
      compute1hTerm s (matterProfile1hMm s z k) (matterProfile1hMm s z k) z * oneHaloTruncation s k
    .ok ⟨pk1h, pk2h, fun b z k => pk1h b z k + pk2h b z k, none⟩

/-- `power_spectrum_mm` (pk.py:1632-1653) -/
noncomputable def powerSpectrumMm : Except PyErr Result :=
  if s.response then
    .ok ⟨fun _ _ _ => ((0 : ℝ) : Ck), fun _ _ _ => ((0 : ℝ) : Ck), fun _ z k => (s.pkNl z k : Ck), none⟩
  else powerSpectrumMmRaw s

/-- the response block (pk.py:1968-1971 and the others) -/
noncomputable def applyResponse (r : Result) : Except PyErr Result :=
  if s.response then
    match powerSpectrumMmRaw s with
    | .error e => .error e
    | .ok mm => .ok
      ⟨fun b z k => r.pk1h b z k * ((s.pkNl z k : Ck) / mm.pkTot 0 z k),
       fun b z k => r.pk2h b z k * ((s.pkNl z k : Ck) / mm.pkTot 0 z k),
       fun b z k => r.pkTot b z k * ((s.pkNl z k : Ck) / mm.pkTot 0 z k),
       r.galaxyLinearBias⟩
  else .ok r

/-- `mass_avg` (pk.py:1689-1699) -/
noncomputable def massAvg (b z : ℕ) : Ck := (s.avgHaloMassCen b z : Ck) / s.numberDensity b z

/-- `central_galaxy_profile` (pk.py:1795-1810) -/
noncomputable def centralGalaxyProfile (b z : ℕ) (_k m : ℕ) : Ck :=
  (s.fC b z : Ck) * s.hodCen b z m * ((1 : ℝ) : Ck) / s.numberDensityCen b z

/-- `satellite_galaxy_profile` (pk.py:1812-1827) -/
noncomputable def satelliteGalaxyProfile (b z k m : ℕ) : Ck :=
  (s.fS b z : Ck) * s.hodSat b z m * s.uSat z k m / s.numberDensitySat b z

/-- `compute_Ig_term` (pk.py:1829-1850) -/
noncomputable def computeIgTerm (profile : ℕ → Ck) (z : ℕ) : Ck :=
  simpsonCk s.nm s.mass (fun m => profile m * s.haloBias z m * s.dndlnm z m / s.mass m)

/-- `Ic_term` (pk.py:1852-1868) -/
noncomputable def icTerm (b z k : ℕ) : Ck := computeIgTerm s (centralGalaxyProfile s b z k) z

/-- `Is_term` (pk.py:1870-1886) -/
noncomputable def isTerm (b z k : ℕ) : Ck := computeIgTerm s (satelliteGalaxyProfile s b z k) z

/-- `power_spectrum_gg` before the response block (pk.py:1888-1966) -/
noncomputable def powerSpectrumGgRaw : Result :=
  let pkCc2h : ℕ → ℕ → ℕ → Ck := fun b z k =>
    if s.nonlinearMode = .bnl then (s.pkLin z k : Ck) * icTerm s b z k * icTerm s b z k
    else (s.pkLin z k : Ck) * icTerm s b z k * icTerm s b z k * twoHaloTruncation s k
  let pkSs2h : ℕ → ℕ → ℕ → Ck := fun b z k =>
    if s.nonlinearMode = .bnl then (s.pkLin z k : Ck) * isTerm s b z k * isTerm s b z k
    else (s.pkLin z k : Ck) * isTerm s b z k * isTerm s b z k * twoHaloTruncation s k
  let pkCs2h : ℕ → ℕ → ℕ → Ck := fun b z k =>
    if s.nonlinearMode = .bnl then (s.pkLin z k : Ck) * icTerm s b z k * isTerm s b z k
    else (s.pkLin z k : Ck) * icTerm s b z k * isTerm s b z k * twoHaloTruncation s k
  let pkCs1h : ℕ → ℕ → ℕ → Ck := fun b z k =>
    compute1hTerm s (centralGalaxyProfile s b z k) (satelliteGalaxyProfile s b z k) z
      * oneHaloTruncation s k
  let pkSs1h : ℕ → ℕ → ℕ → Ck := fun b z k =>
    compute1hTerm s (fun m => satelliteGalaxyProfile s b z k m * s.poissonFunc m)
      (satelliteGalaxyProfile s b z k) z * oneHaloTruncation s k
  let pk1h : ℕ → ℕ → ℕ → Ck := fun b z k => ((2 : ℝ) : Ck) * pkCs1h b z k + pkSs1h b z k
  let gal : ℕ → ℕ → ℕ → ℕ → Ck := fun b z k m =>
    centralGalaxyProfile s b z k m + satelliteGalaxyProfile s b z k m
  let pk2h : ℕ → ℕ → ℕ → Ck := fun b z k =>
    if s.nonlinearMode = .bnl then
      pkCc2h b z k + pkSs2h b z k + ((2 : ℝ) : Ck) * pkCs2h b z k
        + (s.pkLin z k : Ck) * iNL s (gal b z k) (gal b z k) z k
    else pkCc2h b z k + pkSs2h b z k + ((2 : ℝ) : Ck) * pkCs2h b z k
  ⟨pk1h, pk2h, fun b z k => pk1h b z k + pk2h b z k,
    some fun b z k => Ck.sqrt (icTerm s b z k * icTerm s b z k + isTerm s b z k * isTerm s b z k
      + ((2 : ℝ) : Ck) * icTerm s b z k * isTerm s b z k)⟩

/-- `power_spectrum_gg` (pk.py:1888-1978) -/
noncomputable def powerSpectrumGg : Except PyErr Result := applyResponse s (powerSpectrumGgRaw s)

/-- the 1-halo matter profile of `power_spectrum_gm` and `power_spectrum_mi` (pk.py:1991-2000, 2358-2367) -/
noncomputable def matterProfile1hG (b z k m : ℕ) : Ck :=
  match s.hmcodeIngredients with
  | .mead2020Feedback => matterProfileWithFeedback s z k m
  | .mead2020 => matterProfile s z k m
  | .fit => matterProfileFit s s.fstar b z k m
  | .none => if s.pointmass then matterProfileFit s s.fstar b z k m else matterProfile s z k m

/-- `power_spectrum_gm` before the response block (pk.py:1980-2059) -/
noncomputable def powerSpectrumGmRaw : Result :=
  let pkCm2h : ℕ → ℕ → ℕ → Ck := fun b z k =>
    if s.nonlinearMode = .bnl then (s.pkLin z k : Ck) * icTerm s b z k * imTerm s z k
    else (s.pkLin z k : Ck) * icTerm s b z k * imTerm s z k * twoHaloTruncation s k
  let pkSm2h : ℕ → ℕ → ℕ → Ck := fun b z k =>
    if s.nonlinearMode = .bnl then (s.pkLin z k : Ck) * isTerm s b z k * imTerm s z k
    else (s.pkLin z k : Ck) * isTerm s b z k * imTerm s z k * twoHaloTruncation s k
  let pkCm1h : ℕ → ℕ → ℕ → Ck := fun b z k =>
    compute1hTerm s (centralGalaxyProfile s b z k) (matterProfile1hG s b z k) z
      * oneHaloTruncation s k
  let pkSm1h : ℕ → ℕ → ℕ → Ck := fun b z k =>
    compute1hTerm s (satelliteGalaxyProfile s b z k) (matterProfile1hG s b z k) z
      * oneHaloTruncation s k
  let pk1h : ℕ → ℕ → ℕ → Ck := fun b z k => pkCm1h b z k + pkSm1h b z k
  let gal : ℕ → ℕ → ℕ → ℕ → Ck := fun b z k m =>
    centralGalaxyProfile s b z k m + satelliteGalaxyProfile s b z k m
  let pk2h : ℕ → ℕ → ℕ → Ck := fun b z k =>
    if s.nonlinearMode = .bnl then
      pkCm2h b z k + pkSm2h b z k + (s.pkLin z k : Ck) * iNL s (gal b z k) (matterProfile s z k) z k
    else pkCm2h b z k + pkSm2h b z k
  ⟨pk1h, pk2h, fun b z k => pk1h b z k + pk2h b z k,
    some fun b z k => Ck.sqrt (icTerm s b z k * imTerm s z k + isTerm s b z k * imTerm s z k)⟩

/-- `power_spectrum_gm` (pk.py:1980-2071) -/
noncomputable def powerSpectrumGm : Except PyErr Result := applyResponse s (powerSpectrumGmRaw s)

/-- `C1` (pk.py:2154-2159) -/
noncomputable def c1 (z : ℕ) : Ck := ((5e-14 : ℝ) : Ck) * s.alignmentGi z

/-- `alignment_amplitude_2h` (pk.py:2132-2141) -/
noncomputable def alignmentAmplitude2h (z : ℕ) : Ck :=
  ((-1 : ℝ) : Ck) * (c1 s z * s.meanDensity0 z / s.growthFactor z)

/-- `alignment_amplitude_2h_II` (pk.py:2143-2152) -/
noncomputable def alignmentAmplitude2hII (z : ℕ) : Ck :=
  (c1 s z * s.meanDensity0 z / s.growthFactor z) ^ 2

/-- the mass dependence factor (pk.py:2205-2208, 2241-2244) -/
noncomputable def additionalTerm (beta mpivot : Option ℝ) (massAvg : Ck) : Ck :=
  match beta, mpivot with
  | some b, some m => (massAvg / m).rpow b
  | _, _ => ((1 : ℝ) : Ck)

/-- `central_alignment_profile` (pk.py:2177-2211, 2247-2271) -/
noncomputable def centralAlignmentProfile (b z : ℕ) (_k m : ℕ) : Ck :=
  (s.fC b z : Ck) * (c1 s z / s.growthFactor z) * s.mass m
    * additionalTerm s.betaCen s.mpivotCen (massAvg s b z)

/-- `satellite_alignment_profile` (pk.py:2213-2245, 2273-2297) -/
noncomputable def satelliteAlignmentProfile (b z k m : ℕ) : Ck :=
  (s.fS b z : Ck) * s.hodSat b z m * s.wkmSat z k m / s.numberDensitySat b z
    * additionalTerm s.betaSat s.mpivotSat (massAvg s b z)

/-- `Ic_align_term` (pk.py:2299-2321) -/
noncomputable def icAlignTerm (b z k : ℕ) : Ck :=
  computeIgTerm s (centralAlignmentProfile s b z k) z
    + aTerm s z * centralAlignmentProfile s b z k 0 * s.meanDensity0 z / s.mass 0

/-- `Is_align_term` (pk.py:2323-2345) -/
noncomputable def isAlignTerm (b z k : ℕ) : Ck :=
  computeIgTerm s (satelliteAlignmentProfile s b z k) z
    + aTerm s z * satelliteAlignmentProfile s b z k 0 * s.meanDensity0 z / s.mass 0

/-- `power_spectrum_mi` before the response block (pk.py:2347-2432) -/
noncomputable def powerSpectrumMiRaw : Result :=
  let pkSm1h : ℕ → ℕ → ℕ → Ck := fun b z k =>
    ((-1 : ℝ) : Ck) * compute1hTerm s (matterProfile1hG s b z k) (satelliteAlignmentProfile s b z k) z
      * oneHaloTruncationIa s k
  match s.nonlinearMode with
  | .bnl =>
    let ali : ℕ → ℕ → ℕ → ℕ → Ck := fun b z k m =>
      centralAlignmentProfile s b z k m + satelliteAlignmentProfile s b z k m
    let iNL' : ℕ → ℕ → ℕ → Ck := fun b z k => iNL s (ali b z k) (matterProfile s z k) z k
    let pkSm2h : ℕ → ℕ → ℕ → Ck := fun b z k =>
      ((-1 : ℝ) : Ck) * s.pkLin z k * isAlignTerm s b z k * imTerm s z k
    let pkCm2h : ℕ → ℕ → ℕ → Ck := fun b z k =>
      ((-1 : ℝ) : Ck) * s.pkLin z k * icAlignTerm s b z k * imTerm s z k
    ⟨pkSm1h, fun b z k => pkCm2h b z k + pkSm2h b z k - (s.pkLin z k : Ck) * iNL' b z k,
      fun b z k => pkSm1h b z k + pkCm2h b z k + pkSm2h b z k - (s.pkLin z k : Ck) * iNL' b z k, none⟩
  | .fortuna =>
    let pkCm2h : ℕ → ℕ → ℕ → Ck := fun b z k =>
      (s.fC b z : Ck) * s.peffVal z k * alignmentAmplitude2h s z * twoHaloTruncationIa s k
    ⟨pkSm1h, pkCm2h, fun b z k => pkSm1h b z k + pkCm2h b z k, none⟩
  | _ =>
    let pkSm2h : ℕ → ℕ → ℕ → Ck := fun b z k =>
      ((-1 : ℝ) : Ck) * s.pkLin z k * isAlignTerm s b z k * imTerm s z k * twoHaloTruncationIa s k
    let pkCm2h : ℕ → ℕ → ℕ → Ck := fun b z k =>
      ((-1 : ℝ) : Ck) * s.pkLin z k * icAlignTerm s b z k * imTerm s z k * twoHaloTruncationIa s k
    ⟨pkSm1h, fun b z k => pkCm2h b z k + pkSm2h b z k,
      fun b z k => pkSm1h b z k + pkCm2h b z k + pkSm2h b z k, none⟩

/-- `power_spectrum_mi` (pk.py:2347-2441) -/
noncomputable def powerSpectrumMi : Except PyErr Result := applyResponse s (powerSpectrumMiRaw s)

/-- `power_spectrum_ii` before the response block (pk.py:2443-2555) -/
noncomputable def powerSpectrumIiRaw : Result :=
  let pkSs1h : ℕ → ℕ → ℕ → Ck := fun b z k =>
    compute1hTerm s (satelliteAlignmentProfile s b z k) (satelliteAlignmentProfile s b z k) z
      * oneHaloTruncationIa s k
  match s.nonlinearMode with
  | .bnl =>
    let pkSs2h : ℕ → ℕ → ℕ → Ck := fun b z k =>
      (s.pkLin z k : Ck) * isAlignTerm s b z k * isAlignTerm s b z k
        + (s.pkLin z k : Ck)
          * iNL s (satelliteAlignmentProfile s b z k) (satelliteAlignmentProfile s b z k) z k
    let pkCc2h : ℕ → ℕ → ℕ → Ck := fun b z k =>
      (s.pkLin z k : Ck) * icAlignTerm s b z k * icAlignTerm s b z k
        + (s.pkLin z k : Ck)
          * iNL s (centralAlignmentProfile s b z k) (centralAlignmentProfile s b z k) z k
    let pkCs2h : ℕ → ℕ → ℕ → Ck := fun b z k =>
      (s.pkLin z k : Ck) * icAlignTerm s b z k * isAlignTerm s b z k
        + (s.pkLin z k : Ck)
          * iNL s (centralAlignmentProfile s b z k) (satelliteAlignmentProfile s b z k) z k
    ⟨pkSs1h, fun b z k => pkCc2h b z k + pkSs2h b z k + pkCs2h b z k,
      fun b z k => pkSs1h b z k + pkCc2h b z k + pkSs2h b z k + pkCs2h b z k, none⟩
  | .fortuna =>
    let pkCc2h : ℕ → ℕ → ℕ → Ck := fun b z k =>
      (s.fC b z : Ck) ^ 2 * s.peffVal z k * alignmentAmplitude2hII s z * twoHaloTruncationIa s k
    ⟨pkSs1h, pkCc2h, fun b z k => pkSs1h b z k + pkCc2h b z k, none⟩
  | _ =>
    let pkSs2h : ℕ → ℕ → ℕ → Ck := fun b z k =>
      (s.pkLin z k : Ck) * isAlignTerm s b z k * isAlignTerm s b z k * twoHaloTruncationIa s k
    let pkCc2h : ℕ → ℕ → ℕ → Ck := fun b z k =>
      (s.pkLin z k : Ck) * icAlignTerm s b z k * icAlignTerm s b z k * twoHaloTruncationIa s k
    let pkCs2h : ℕ → ℕ → ℕ → Ck := fun b z k =>
      (s.pkLin z k : Ck) * icAlignTerm s b z k * isAlignTerm s b z k * twoHaloTruncationIa s k
    ⟨pkSs1h, fun b z k => pkCc2h b z k + pkSs2h b z k + pkCs2h b z k,
      fun b z k => pkSs1h b z k + pkCc2h b z k + pkSs2h b z k + pkCs2h b z k, none⟩

/-- `power_spectrum_ii` (pk.py:2443-2564) -/
noncomputable def powerSpectrumIi : Except PyErr Result := applyResponse s (powerSpectrumIiRaw s)

/-- `power_spectrum_gi` before the response block (pk.py:2566-2653) -/
noncomputable def powerSpectrumGiRaw : Result :=
  let pkCs1h : ℕ → ℕ → ℕ → Ck := fun b z k =>
    compute1hTerm s (centralGalaxyProfile s b z k) (satelliteAlignmentProfile s b z k) z
      * oneHaloTruncationIa s k
  match s.nonlinearMode with
  | .bnl =>
    let pkCc2h : ℕ → ℕ → ℕ → Ck := fun b z k =>
      (s.pkLin z k : Ck) * icTerm s b z k * icAlignTerm s b z k
        + (s.pkLin z k : Ck) * iNL s (centralAlignmentProfile s b z k) (centralGalaxyProfile s b z k) z k
    let pkCs2h : ℕ → ℕ → ℕ → Ck := fun b z k =>
      (s.pkLin z k : Ck) * icTerm s b z k * isAlignTerm s b z k
        + (s.pkLin z k : Ck) * iNL s (satelliteAlignmentProfile s b z k) (centralGalaxyProfile s b z k) z k
    ⟨pkCs1h, fun b z k => pkCs2h b z k + pkCc2h b z k,
      fun b z k => pkCs1h b z k + pkCs2h b z k + pkCc2h b z k, none⟩
  | .fortuna =>
    let pkCc2h : ℕ → ℕ → ℕ → Ck := fun b z k =>
      ((-1 : ℝ) : Ck) * s.peffVal z k * icTerm s b z k * alignmentAmplitude2h s z * twoHaloTruncationIa s k
    ⟨pkCs1h, pkCc2h, fun b z k => pkCs1h b z k + pkCc2h b z k, none⟩
  | _ =>
    let pkCc2h : ℕ → ℕ → ℕ → Ck := fun b z k =>
      (s.pkLin z k : Ck) * icTerm s b z k * icAlignTerm s b z k * twoHaloTruncationIa s k
    let pkCs2h : ℕ → ℕ → ℕ → Ck := fun b z k =>
      (s.pkLin z k : Ck) * icTerm s b z k * isAlignTerm s b z k * twoHaloTruncationIa s k
    ⟨pkCs1h, fun b z k => pkCs2h b z k + pkCc2h b z k,
      fun b z k => pkCs1h b z k + pkCs2h b z k + pkCc2h b z k, none⟩

/-- `power_spectrum_gi` (pk.py:2566-2662) -/
noncomputable def powerSpectrumGi : Except PyErr Result := applyResponse s (powerSpectrumGiRaw s)

end Verif.PkChecked

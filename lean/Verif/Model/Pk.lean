import Verif.Lib.Simpson
import Verif.Lib.Py

/-!
# Model of `/repo/src/onepower/pk.py` (class `Spectra`)

Every definition is the entry `(b, z, k)` (galaxy bin, redshift index, wavenumber index) of the array the
Python property returns; `m`, `m1`, `m2` are mass indices.  numpy broadcasting over axes of length one is
modelled by ignoring the corresponding index.  Quantities which the code obtains from hmf/halomod, from the
occupation model (`hod.py`), from the alignment model (`ia.py`), from the emulator (`bnl.py`) or from the
caller are fields of `Spectra`; those modules have models of their own, which are composed with this one in
the property files.  Reals replace floats.
-/

namespace Verif.Pk

open Finset Verif.Lib

/-- `nonlinear_mode` after its setter accepted it (pk.py:57, 217-230). -/
inductive NLMode
  | none
  | bnl
  | hmcode
  | fortuna
  deriving DecidableEq, Repr

/-- `hmcode_ingredients` after its setter accepted it (hmi.py:37, 626-637). -/
inductive HMIngr
  | none
  | mead2020
  | mead2020Feedback
  | fit
  deriving DecidableEq, Repr

/-- The object state that the spectra read: switches and parameters (pk.py:146-205), grids and halo model
ingredients (hmi.py:1231-1537), the supplied (and shape-checked, pk.py:439-498) power spectra, the `hod`
outputs (pk.py:1657-1699), the Poisson factor (pk.py:1505-1526) and the alignment inputs (pk.py:2075-2175).
Simplifications: `hod_mm`/`fstar_mm` (pk.py:602-641) has a single bin; `beta_nl` (pk.py:425-437) is already
repeated along redshift when its first axis has length one. -/
structure Spectra where
  nonlinearMode : NLMode
  hmcodeIngredients : HMIngr
  response : Bool
  pointmass : Bool
  oneHaloKtrunc : Option ℝ
  twoHaloKtrunc : Option ℝ
  oneHaloKtruncIa : Option ℝ
  twoHaloKtruncIa : Option ℝ
  tEff : ℝ
  mb : ℝ
  log10TAGN : ℝ
  omegaC : ℝ
  omegaB : ℝ
  omegaM : ℝ
  /-- number of masses -/
  nm : ℕ
  zVec : ℕ → ℝ
  kVec : ℕ → ℝ
  mass : ℕ → ℝ
  dndlnm : ℕ → ℕ → ℝ
  haloBias : ℕ → ℕ → ℝ
  meanDensity0 : ℕ → ℝ
  uDm : ℕ → ℕ → ℕ → ℝ
  uSat : ℕ → ℕ → ℕ → ℝ
  sigma8z : ℕ → ℝ
  neff : ℕ → ℝ
  growthFactor : ℕ → ℝ
  pkLin : ℕ → ℕ → ℝ
  pkNl : ℕ → ℕ → ℝ
  betaNl : ℕ → ℕ → ℕ → ℕ → ℝ
  fC : ℕ → ℕ → ℝ
  fS : ℕ → ℕ → ℝ
  hodCen : ℕ → ℕ → ℕ → ℝ
  hodSat : ℕ → ℕ → ℕ → ℝ
  numberDensity : ℕ → ℕ → ℝ
  numberDensityCen : ℕ → ℕ → ℝ
  numberDensitySat : ℕ → ℕ → ℝ
  avgHaloMassCen : ℕ → ℕ → ℝ
  fstar : ℕ → ℕ → ℕ → ℝ
  fstarMm : ℕ → ℕ → ℝ
  poissonFunc : ℕ → ℝ
  alignmentGi : ℕ → ℝ
  betaCen : Option ℝ
  betaSat : Option ℝ
  mpivotCen : Option ℝ
  mpivotSat : Option ℝ
  wkmSat : ℕ → ℕ → ℕ → ℝ

/-- `PowerSpectrumResult` (pk.py:60-69). -/
structure PkResult where
  pk1h : ℕ → ℕ → ℕ → ℝ
  pk2h : ℕ → ℕ → ℕ → ℝ
  pkTot : ℕ → ℕ → ℕ → ℝ
  galaxyLinearBias : Option (ℕ → ℕ → ℕ → ℝ)

namespace Spectra

variable (s : Spectra)

/-- `peff` (pk.py:500-514); only meaningful in `fortuna` mode, `None` otherwise. -/
noncomputable def peff (z k : ℕ) : Option ℝ :=
  if s.nonlinearMode = .fortuna then
    some ((1 - s.tEff) * s.pkNl z k + s.tEff * s.pkLin z k)
  else none

/-- The value of `peff` used in the `fortuna` branches (pk.py:2389, 2513, 2617), where it is not `None`. -/
noncomputable def peffVal (z k : ℕ) : ℝ := (s.peff z k).getD 0

/-- `compute_matter_profile` (pk.py:673-705); the neutrino argument is unused there. -/
noncomputable def computeMatterProfile (mass meanDensity0 uDm : ℝ) : ℝ :=
  mass / meanDensity0 * uDm

/-- `matter_profile` (pk.py:707-723). -/
noncomputable def matterProfile (z k m : ℕ) : ℝ :=
  computeMatterProfile (s.mass m) (s.meanDensity0 z) (s.uDm z k m)

/-- `matter_profile_2h` (pk.py:725-743). -/
noncomputable def matterProfile2h (z k m : ℕ) : ℝ :=
  computeMatterProfile (s.mass m) (s.meanDensity0 z) (s.uDm z k m)

/-- `fs` (pk.py:1484-1503). -/
noncomputable def fs (zv : ℝ) : ℝ :=
  (2.01 - 0.3 * (s.log10TAGN - 7.8)) * 0.01
    * (10 : ℝ) ^ (zv * (0.409 + 0.0224 * (s.log10TAGN - 7.8)))

/-- the gas mass scale inside `fg` (pk.py:1438-1441). -/
noncomputable def mbAgn (zv : ℝ) : ℝ :=
  (10 : ℝ) ^ (13.87 + 1.81 * (s.log10TAGN - 7.8))
    * (10 : ℝ) ^ (zv * (0.195 * (s.log10TAGN - 7.8) - 0.108))

/-- `fg` (pk.py:1408-1447) with the default `beta=2`, the only value used. -/
noncomputable def fg (mass zv fstar : ℝ) : ℝ :=
  (s.omegaB / s.omegaM - fstar) * (mass / s.mbAgn zv) ^ 2 / (1 + (mass / s.mbAgn zv) ^ 2)

/-- `fg_fit` (pk.py:1449-1482) with the default `beta=2`, the only value used. -/
noncomputable def fgFit (mass mb fstar : ℝ) : ℝ :=
  (s.omegaB / s.omegaM - fstar) * (mass / mb) ^ 2 / (1 + (mass / mb) ^ 2)

/-- `compute_matter_profile_with_feedback` (pk.py:745-785). -/
noncomputable def computeMatterProfileWithFeedback (mass meanDensity0 uDm zv : ℝ) : ℝ :=
  (s.omegaC / s.omegaM + s.fg mass zv (s.fs zv)) * (mass / meanDensity0) * uDm
    + s.fs zv * (mass / meanDensity0)

/-- `matter_profile_with_feedback` (pk.py:787-804). -/
noncomputable def matterProfileWithFeedback (z k m : ℕ) : ℝ :=
  s.computeMatterProfileWithFeedback (s.mass m) (s.meanDensity0 z) (s.uDm z k m) (s.zVec z)

/-- `compute_matter_profile_with_feedback_stellar_fraction_from_obs` (pk.py:806-846). -/
noncomputable def computeMatterProfileFit (mass meanDensity0 uDm mb fstar : ℝ) : ℝ :=
  (s.omegaC / s.omegaM + s.fgFit mass mb fstar) * (mass / meanDensity0) * uDm
    + fstar * (mass / meanDensity0)

/-- `matter_profile_with_feedback_stellar_fraction_from_obs(fstar)` (pk.py:848-871). -/
noncomputable def matterProfileFit (fstar : ℕ → ℕ → ℕ → ℝ) (b z k m : ℕ) : ℝ :=
  s.computeMatterProfileFit (s.mass m) (s.meanDensity0 z) (s.uDm z k m) s.mb (fstar b z m)

/-- `one_halo_truncation` (pk.py:873-891). -/
noncomputable def oneHaloTruncation (k : ℕ) : ℝ :=
  match s.oneHaloKtrunc with
  | none => 1
  | some kt => (s.kVec k / kt) ^ 4 / (1 + (s.kVec k / kt) ^ 4)

/-- `two_halo_truncation` (pk.py:893-913). -/
noncomputable def twoHaloTruncation (k : ℕ) : ℝ :=
  match s.twoHaloKtrunc with
  | none => 1
  | some _ => 1 - 0.05 * (s.kVec k / 0.05699) ^ (2.853 : ℝ) / (1 + (s.kVec k / 0.05699) ^ (2.853 : ℝ))

/-- `one_halo_truncation_ia` (pk.py:915-932). -/
noncomputable def oneHaloTruncationIa (k : ℕ) : ℝ :=
  match s.oneHaloKtruncIa with
  | none => 1
  | some kt => 1 - Real.exp (-(s.kVec k / kt) ^ 2)

/-- `two_halo_truncation_ia` (pk.py:934-951). -/
noncomputable def twoHaloTruncationIa (k : ℕ) : ℝ :=
  match s.twoHaloKtruncIa with
  | none => 1
  | some kt => Real.exp (-(s.kVec k / kt) ^ 2)

/-- `one_halo_truncation_mead2020(sigma8_z)` (pk.py:953-971). -/
noncomputable def oneHaloTruncationMead (z k : ℕ) : ℝ :=
  (s.kVec k / (0.05618 * s.sigma8z z ^ (-1.013 : ℝ))) ^ 4
    / (1 + (s.kVec k / (0.05618 * s.sigma8z z ^ (-1.013 : ℝ))) ^ 4)

/-- `two_halo_truncation_mead2020(sigma8_z)` (pk.py:973-996). -/
noncomputable def twoHaloTruncationMead (z k : ℕ) : ℝ :=
  1 - 0.2696 * s.sigma8z z ^ (0.9403 : ℝ)
      * (s.kVec k / (0.05699 * s.sigma8z z ^ (-1.089 : ℝ))) ^ (2.853 : ℝ)
    / (1 + (s.kVec k / (0.05699 * s.sigma8z z ^ (-1.089 : ℝ))) ^ (2.853 : ℝ))

/-- `transition_smoothing(neff, p_1h, p_2h)` (pk.py:998-1031). -/
noncomputable def transitionSmoothing (z k : ℕ) (p1h p2h : ℝ) : ℝ :=
  ((s.kVec k ^ 3 / (2 * Real.pi ^ 2) * p1h) ^ (1.875 * (1.603 : ℝ) ^ s.neff z)
      + (s.kVec k ^ 3 / (2 * Real.pi ^ 2) * p2h) ^ (1.875 * (1.603 : ℝ) ^ s.neff z))
    ^ (1 / (1.875 * (1.603 : ℝ) ^ s.neff z)) / (s.kVec k ^ 3 / (2 * Real.pi ^ 2))

/-- `compute_1h_term` (pk.py:1033-1078) at one redshift; `u`, `v` are the two profiles as functions of the
mass index. -/
noncomputable def compute1hTerm (u v : ℕ → ℝ) (z : ℕ) : ℝ :=
  simpson s.nm s.mass (fun m => u m * v m * s.dndlnm z m / s.mass m)

/-- `compute_A_term`, `missing_mass_integral`, `A_term` (pk.py:1080-1155); the warning for negative values
has no effect on the result. -/
noncomputable def aTerm (z : ℕ) : ℝ :=
  1 - simpson s.nm s.mass (fun m => s.haloBias z m * s.dndlnm z m * (1 / s.meanDensity0 z))

/-- `compute_Im_term` (pk.py:1180-1203). -/
noncomputable def computeImTerm (z k : ℕ) : ℝ :=
  simpson s.nm s.mass
    (fun m => s.haloBias z m * s.dndlnm z m * s.uDm z k m * (1 / s.meanDensity0 z))

/-- `Im_term` (pk.py:1157-1178). -/
noncomputable def imTerm (z k : ℕ) : ℝ := s.computeImTerm z k + s.aTerm z

/-- `prepare_I22_integrand` (pk.py:1205-1240), `I22` (pk.py:583-600). -/
noncomputable def i22 (z k m1 m2 : ℕ) : ℝ :=
  s.betaNl z k m1 m2 * (s.haloBias z m1 * s.dndlnm z m1 * (1 / s.mass m1))
    * (s.haloBias z m2 * s.dndlnm z m2 * (1 / s.mass m2))

/-- `prepare_I12_integrand` (pk.py:1242-1269), `I12` (pk.py:545-562). -/
noncomputable def i12 (z k m2 : ℕ) : ℝ :=
  s.betaNl z k 0 m2 * (s.haloBias z m2 * s.dndlnm z m2 * (1 / s.mass m2))

/-- `prepare_I21_integrand` (pk.py:1271-1298), `I21` (pk.py:564-581). -/
noncomputable def i21 (z k m1 : ℕ) : ℝ :=
  s.betaNl z k m1 0 * (s.haloBias z m1 * s.dndlnm z m1 * (1 / s.mass m1))

/-- `_trapezoidal_weights` (pk.py:1392-1400); needs at least two masses (IndexError otherwise). -/
noncomputable def trapezoidalWeights (i : ℕ) : ℝ :=
  if i = s.nm - 1 then (s.mass (s.nm - 1) - s.mass (s.nm - 2)) / 2
  else if i = 0 then (s.mass 1 - s.mass 0) / 2
  else (s.mass (i + 1) - s.mass (i - 1)) / 2

/-- `trapezoidal_integrator` (pk.py:1402-1406). -/
noncomputable def trapezoidalIntegrator (f : ℕ → ℝ) : ℝ :=
  ∑ i ∈ range s.nm, f i * s.trapezoidalWeights i

/-- `I_NL` (pk.py:1300-1390) at one `(z, k)`, for two profiles as functions of the mass index. -/
noncomputable def iNL (W1 W2 : ℕ → ℝ) (z k : ℕ) : ℝ :=
  s.betaNl z k 0 0 * (s.aTerm z * s.aTerm z) * W1 0 * W2 0
      * (s.meanDensity0 z * (1 / s.mass 0)) ^ 2
    + s.aTerm z * W1 0 * s.trapezoidalIntegrator (fun m => s.i12 z k m * W2 m)
      * (s.meanDensity0 z * (1 / s.mass 0))
    + s.aTerm z * W2 0 * s.trapezoidalIntegrator (fun m => s.i21 z k m * W1 m)
      * (s.meanDensity0 z * (1 / s.mass 0))
    + s.trapezoidalIntegrator
        (fun m1 => s.trapezoidalIntegrator (fun m2 => s.i22 z k m1 m2 * W2 m2) * W1 m1)

/-- choice of the 1-halo matter profile in `_power_spectrum_mm` (pk.py:1556-1567). -/
noncomputable def matterProfile1hMm (z k m : ℕ) : ℝ :=
  match s.hmcodeIngredients with
  | .mead2020Feedback => s.matterProfileWithFeedback z k m
  | .mead2020 => s.matterProfile z k m
  | .fit => s.matterProfileFit (fun _ => s.fstarMm) 0 z k m
  | .none => s.matterProfile z k m

/-- `_power_spectrum_mm` (pk.py:1543-1630).  In `hmcode` mode without mead2020 ingredients the local
variables are never assigned. -/
noncomputable def powerSpectrumMmRaw : Except PyErr PkResult :=
  match s.nonlinearMode with
  | .bnl =>
    let pk2h : ℕ → ℕ → ℕ → ℝ := fun _ z k =>
      s.pkLin z k * s.imTerm z k * s.imTerm z k
        + s.pkLin z k * s.iNL (s.matterProfile2h z k) (s.matterProfile2h z k) z k
    let pk1h : ℕ → ℕ → ℕ → ℝ := fun _ z k =>
      s.compute1hTerm (s.matterProfile1hMm z k) (s.matterProfile1hMm z k) z * s.oneHaloTruncation k
    .ok ⟨pk1h, pk2h, fun b z k => pk1h b z k + pk2h b z k, none⟩
  | .hmcode =>
    if s.hmcodeIngredients = .mead2020Feedback ∨ s.hmcodeIngredients = .mead2020 then
      let pk2h : ℕ → ℕ → ℕ → ℝ := fun _ z k => s.pkLin z k * s.twoHaloTruncationMead z k
      let pk1h : ℕ → ℕ → ℕ → ℝ := fun _ z k =>
        s.compute1hTerm (s.matterProfile1hMm z k) (s.matterProfile1hMm z k) z
          * s.oneHaloTruncationMead z k
      .ok ⟨pk1h, pk2h, fun b z k => s.transitionSmoothing z k (pk1h b z k) (pk2h b z k), none⟩
    else .error .unboundLocal
  | _ =>
    let pk2h : ℕ → ℕ → ℕ → ℝ := fun _ z k =>
      s.pkLin z k * s.imTerm z k * s.imTerm z k * s.twoHaloTruncation k
    let pk1h : ℕ → ℕ → ℕ → ℝ := fun _ z k =>
      s.compute1hTerm (s.matterProfile1hMm z k) (s.matterProfile1hMm z k) z * s.oneHaloTruncation k
    .ok ⟨pk1h, pk2h, fun b z k => pk1h b z k + pk2h b z k, none⟩

/-- `power_spectrum_mm` (pk.py:1632-1653). -/
noncomputable def powerSpectrumMm : Except PyErr PkResult :=
  if s.response then
    .ok ⟨fun _ _ _ => 0, fun _ _ _ => 0, fun _ z k => s.pkNl z k, none⟩
  else s.powerSpectrumMmRaw

/-- `power_spectrum_lin` (pk.py:1528-1541): only `pk_tot` is set. -/
noncomputable def powerSpectrumLin (_b z k : ℕ) : ℝ := s.pkLin z k

/-- The response block at the end of each galaxy/alignment spectrum (pk.py:1968-1971, 2061-2064,
2434-2437, 2557-2560, 2655-2658); `_power_spectrum_mm` is evaluated only if `response` is set. -/
noncomputable def applyResponse (r : PkResult) : Except PyErr PkResult :=
  if s.response then
    match s.powerSpectrumMmRaw with
    | .error e => .error e
    | .ok mm => .ok
      ⟨fun b z k => r.pk1h b z k * (s.pkNl z k / mm.pkTot 0 z k),
       fun b z k => r.pk2h b z k * (s.pkNl z k / mm.pkTot 0 z k),
       fun b z k => r.pkTot b z k * (s.pkNl z k / mm.pkTot 0 z k),
       r.galaxyLinearBias⟩
  else .ok r

/-- `mass_avg` (pk.py:1689-1699). -/
noncomputable def massAvg (b z : ℕ) : ℝ := s.avgHaloMassCen b z / s.numberDensity b z

/-- `central_galaxy_profile` (pk.py:1795-1810); constant in `k`. -/
noncomputable def centralGalaxyProfile (b z : ℕ) (_k m : ℕ) : ℝ :=
  s.fC b z * s.hodCen b z m * 1 / s.numberDensityCen b z

/-- `satellite_galaxy_profile` (pk.py:1812-1827). -/
noncomputable def satelliteGalaxyProfile (b z k m : ℕ) : ℝ :=
  s.fS b z * s.hodSat b z m * s.uSat z k m / s.numberDensitySat b z

/-- `compute_Ig_term` (pk.py:1829-1850). -/
noncomputable def computeIgTerm (profile : ℕ → ℝ) (z : ℕ) : ℝ :=
  simpson s.nm s.mass (fun m => profile m * s.haloBias z m * s.dndlnm z m / s.mass m)

/-- `Ic_term` (pk.py:1852-1868). -/
noncomputable def icTerm (b z k : ℕ) : ℝ := s.computeIgTerm (s.centralGalaxyProfile b z k) z

/-- `Is_term` (pk.py:1870-1886). -/
noncomputable def isTerm (b z k : ℕ) : ℝ := s.computeIgTerm (s.satelliteGalaxyProfile b z k) z

/-- `power_spectrum_gg` before the response block (pk.py:1888-1966). -/
noncomputable def powerSpectrumGgRaw : PkResult :=
  let pkCc2h : ℕ → ℕ → ℕ → ℝ := fun b z k =>
    if s.nonlinearMode = .bnl then s.pkLin z k * s.icTerm b z k * s.icTerm b z k
    else s.pkLin z k * s.icTerm b z k * s.icTerm b z k * s.twoHaloTruncation k
  let pkSs2h : ℕ → ℕ → ℕ → ℝ := fun b z k =>
    if s.nonlinearMode = .bnl then s.pkLin z k * s.isTerm b z k * s.isTerm b z k
    else s.pkLin z k * s.isTerm b z k * s.isTerm b z k * s.twoHaloTruncation k
  let pkCs2h : ℕ → ℕ → ℕ → ℝ := fun b z k =>
    if s.nonlinearMode = .bnl then s.pkLin z k * s.icTerm b z k * s.isTerm b z k
    else s.pkLin z k * s.icTerm b z k * s.isTerm b z k * s.twoHaloTruncation k
  let pkCs1h : ℕ → ℕ → ℕ → ℝ := fun b z k =>
    s.compute1hTerm (s.centralGalaxyProfile b z k) (s.satelliteGalaxyProfile b z k) z
      * s.oneHaloTruncation k
  let pkSs1h : ℕ → ℕ → ℕ → ℝ := fun b z k =>
    s.compute1hTerm (fun m => s.satelliteGalaxyProfile b z k m * s.poissonFunc m)
      (s.satelliteGalaxyProfile b z k) z * s.oneHaloTruncation k
  let pk1h : ℕ → ℕ → ℕ → ℝ := fun b z k => 2 * pkCs1h b z k + pkSs1h b z k
  let gal : ℕ → ℕ → ℕ → ℕ → ℝ := fun b z k m =>
    s.centralGalaxyProfile b z k m + s.satelliteGalaxyProfile b z k m
  let pk2h : ℕ → ℕ → ℕ → ℝ := fun b z k =>
    if s.nonlinearMode = .bnl then
      pkCc2h b z k + pkSs2h b z k + 2 * pkCs2h b z k
        + s.pkLin z k * s.iNL (gal b z k) (gal b z k) z k
    else pkCc2h b z k + pkSs2h b z k + 2 * pkCs2h b z k
  ⟨pk1h, pk2h, fun b z k => pk1h b z k + pk2h b z k,
    some fun b z k => Real.sqrt (s.icTerm b z k * s.icTerm b z k + s.isTerm b z k * s.isTerm b z k
      + 2 * s.icTerm b z k * s.isTerm b z k)⟩

/-- `power_spectrum_gg` (pk.py:1888-1978). -/
noncomputable def powerSpectrumGg : Except PyErr PkResult := s.applyResponse s.powerSpectrumGgRaw

/-- choice of the 1-halo matter profile in `power_spectrum_gm` and `power_spectrum_mi`
(pk.py:1991-2000, 2358-2367). -/
noncomputable def matterProfile1hG (b z k m : ℕ) : ℝ :=
  match s.hmcodeIngredients with
  | .mead2020Feedback => s.matterProfileWithFeedback z k m
  | .mead2020 => s.matterProfile z k m
  | .fit => s.matterProfileFit s.fstar b z k m
  | .none => if s.pointmass then s.matterProfileFit s.fstar b z k m else s.matterProfile z k m

/-- `power_spectrum_gm` before the response block (pk.py:1980-2059). -/
noncomputable def powerSpectrumGmRaw : PkResult :=
  let pkCm2h : ℕ → ℕ → ℕ → ℝ := fun b z k =>
    if s.nonlinearMode = .bnl then s.pkLin z k * s.icTerm b z k * s.imTerm z k
    else s.pkLin z k * s.icTerm b z k * s.imTerm z k * s.twoHaloTruncation k
  let pkSm2h : ℕ → ℕ → ℕ → ℝ := fun b z k =>
    if s.nonlinearMode = .bnl then s.pkLin z k * s.isTerm b z k * s.imTerm z k
    else s.pkLin z k * s.isTerm b z k * s.imTerm z k * s.twoHaloTruncation k
  let pkCm1h : ℕ → ℕ → ℕ → ℝ := fun b z k =>
    s.compute1hTerm (s.centralGalaxyProfile b z k) (s.matterProfile1hG b z k) z
      * s.oneHaloTruncation k
  let pkSm1h : ℕ → ℕ → ℕ → ℝ := fun b z k =>
    s.compute1hTerm (s.satelliteGalaxyProfile b z k) (s.matterProfile1hG b z k) z
      * s.oneHaloTruncation k
  let pk1h : ℕ → ℕ → ℕ → ℝ := fun b z k => pkCm1h b z k + pkSm1h b z k
  let gal : ℕ → ℕ → ℕ → ℕ → ℝ := fun b z k m =>
    s.centralGalaxyProfile b z k m + s.satelliteGalaxyProfile b z k m
  let pk2h : ℕ → ℕ → ℕ → ℝ := fun b z k =>
    if s.nonlinearMode = .bnl then
      pkCm2h b z k + pkSm2h b z k + s.pkLin z k * s.iNL (gal b z k) (s.matterProfile2h z k) z k
    else pkCm2h b z k + pkSm2h b z k
  ⟨pk1h, pk2h, fun b z k => pk1h b z k + pk2h b z k,
    some fun b z k => Real.sqrt (s.icTerm b z k * s.imTerm z k + s.isTerm b z k * s.imTerm z k)⟩

/-- `power_spectrum_gm` (pk.py:1980-2071). -/
noncomputable def powerSpectrumGm : Except PyErr PkResult := s.applyResponse s.powerSpectrumGmRaw

/-- `C1` (pk.py:2154-2159). -/
noncomputable def c1 (z : ℕ) : ℝ := 5e-14 * s.alignmentGi z

/-- `alignment_amplitude_2h` (pk.py:2132-2141). -/
noncomputable def alignmentAmplitude2h (z : ℕ) : ℝ :=
  -1 * (s.c1 z * s.meanDensity0 z / s.growthFactor z)

/-- `alignment_amplitude_2h_II` (pk.py:2143-2152). -/
noncomputable def alignmentAmplitude2hII (z : ℕ) : ℝ :=
  (s.c1 z * s.meanDensity0 z / s.growthFactor z) ^ 2

/-- the mass dependence factor of the alignment profiles (pk.py:2205-2208, 2241-2244); `mass_avg` is always
given by the callers (pk.py:2269, 2295). -/
noncomputable def additionalTerm (beta mpivot : Option ℝ) (massAvg : ℝ) : ℝ :=
  match beta, mpivot with
  | some b, some m => (massAvg / m) ^ b
  | _, _ => 1

/-- `compute_central_galaxy_alignment_profile`, `central_alignment_profile` (pk.py:2177-2211, 2247-2271);
constant in `k`. -/
noncomputable def centralAlignmentProfile (b z : ℕ) (_k m : ℕ) : ℝ :=
  s.fC b z * (s.c1 z / s.growthFactor z) * s.mass m
    * additionalTerm s.betaCen s.mpivotCen (s.massAvg b z)

/-- `compute_satellite_galaxy_alignment_profile`, `satellite_alignment_profile`
(pk.py:2213-2245, 2273-2297). -/
noncomputable def satelliteAlignmentProfile (b z k m : ℕ) : ℝ :=
  s.fS b z * s.hodSat b z m * s.wkmSat z k m / s.numberDensitySat b z
    * additionalTerm s.betaSat s.mpivotSat (s.massAvg b z)

/-- `Ic_align_term` (pk.py:2299-2321). -/
noncomputable def icAlignTerm (b z k : ℕ) : ℝ :=
  s.computeIgTerm (s.centralAlignmentProfile b z k) z
    + s.aTerm z * s.centralAlignmentProfile b z k 0 * s.meanDensity0 z / s.mass 0

/-- `Is_align_term` (pk.py:2323-2345). -/
noncomputable def isAlignTerm (b z k : ℕ) : ℝ :=
  s.computeIgTerm (s.satelliteAlignmentProfile b z k) z
    + s.aTerm z * s.satelliteAlignmentProfile b z k 0 * s.meanDensity0 z / s.mass 0

/-- `power_spectrum_mi` before the response block (pk.py:2347-2432). -/
noncomputable def powerSpectrumMiRaw : PkResult :=
  let pkSm1h : ℕ → ℕ → ℕ → ℝ := fun b z k =>
    -1 * s.compute1hTerm (s.matterProfile1hG b z k) (s.satelliteAlignmentProfile b z k) z
      * s.oneHaloTruncationIa k
  match s.nonlinearMode with
  | .bnl =>
    let ali : ℕ → ℕ → ℕ → ℕ → ℝ := fun b z k m =>
      s.centralAlignmentProfile b z k m + s.satelliteAlignmentProfile b z k m
    let iNL : ℕ → ℕ → ℕ → ℝ := fun b z k => s.iNL (ali b z k) (s.matterProfile2h z k) z k
    let pkSm2h : ℕ → ℕ → ℕ → ℝ := fun b z k =>
      -1 * s.pkLin z k * s.isAlignTerm b z k * s.imTerm z k
    let pkCm2h : ℕ → ℕ → ℕ → ℝ := fun b z k =>
      -1 * s.pkLin z k * s.icAlignTerm b z k * s.imTerm z k
    ⟨pkSm1h, fun b z k => pkCm2h b z k + pkSm2h b z k - s.pkLin z k * iNL b z k,
      fun b z k => pkSm1h b z k + pkCm2h b z k + pkSm2h b z k - s.pkLin z k * iNL b z k, none⟩
  | .fortuna =>
    let pkCm2h : ℕ → ℕ → ℕ → ℝ := fun b z k =>
      s.fC b z * s.peffVal z k * s.alignmentAmplitude2h z * s.twoHaloTruncationIa k
    ⟨pkSm1h, pkCm2h, fun b z k => pkSm1h b z k + pkCm2h b z k, none⟩
  | _ =>
    let pkSm2h : ℕ → ℕ → ℕ → ℝ := fun b z k =>
      -1 * s.pkLin z k * s.isAlignTerm b z k * s.imTerm z k * s.twoHaloTruncationIa k
    let pkCm2h : ℕ → ℕ → ℕ → ℝ := fun b z k =>
      -1 * s.pkLin z k * s.icAlignTerm b z k * s.imTerm z k * s.twoHaloTruncationIa k
    ⟨pkSm1h, fun b z k => pkCm2h b z k + pkSm2h b z k,
      fun b z k => pkSm1h b z k + pkCm2h b z k + pkSm2h b z k, none⟩

/-- `power_spectrum_mi` (pk.py:2347-2441). -/
noncomputable def powerSpectrumMi : Except PyErr PkResult := s.applyResponse s.powerSpectrumMiRaw

/-- `power_spectrum_ii` before the response block (pk.py:2443-2555). -/
noncomputable def powerSpectrumIiRaw : PkResult :=
  let pkSs1h : ℕ → ℕ → ℕ → ℝ := fun b z k =>
    s.compute1hTerm (s.satelliteAlignmentProfile b z k) (s.satelliteAlignmentProfile b z k) z
      * s.oneHaloTruncationIa k
  match s.nonlinearMode with
  | .bnl =>
    let pkSs2h : ℕ → ℕ → ℕ → ℝ := fun b z k =>
      s.pkLin z k * s.isAlignTerm b z k * s.isAlignTerm b z k
        + s.pkLin z k
          * s.iNL (s.satelliteAlignmentProfile b z k) (s.satelliteAlignmentProfile b z k) z k
    let pkCc2h : ℕ → ℕ → ℕ → ℝ := fun b z k =>
      s.pkLin z k * s.icAlignTerm b z k * s.icAlignTerm b z k
        + s.pkLin z k
          * s.iNL (s.centralAlignmentProfile b z k) (s.centralAlignmentProfile b z k) z k
    let pkCs2h : ℕ → ℕ → ℕ → ℝ := fun b z k =>
      s.pkLin z k * s.icAlignTerm b z k * s.isAlignTerm b z k
        + s.pkLin z k
          * s.iNL (s.centralAlignmentProfile b z k) (s.satelliteAlignmentProfile b z k) z k
    ⟨pkSs1h, fun b z k => pkCc2h b z k + pkSs2h b z k + pkCs2h b z k,
      fun b z k => pkSs1h b z k + pkCc2h b z k + pkSs2h b z k + pkCs2h b z k, none⟩
  | .fortuna =>
    let pkCc2h : ℕ → ℕ → ℕ → ℝ := fun b z k =>
      s.fC b z ^ 2 * s.peffVal z k * s.alignmentAmplitude2hII z * s.twoHaloTruncationIa k
    ⟨pkSs1h, pkCc2h, fun b z k => pkSs1h b z k + pkCc2h b z k, none⟩
  | _ =>
    let pkSs2h : ℕ → ℕ → ℕ → ℝ := fun b z k =>
      s.pkLin z k * s.isAlignTerm b z k * s.isAlignTerm b z k * s.twoHaloTruncationIa k
    let pkCc2h : ℕ → ℕ → ℕ → ℝ := fun b z k =>
      s.pkLin z k * s.icAlignTerm b z k * s.icAlignTerm b z k * s.twoHaloTruncationIa k
    let pkCs2h : ℕ → ℕ → ℕ → ℝ := fun b z k =>
      s.pkLin z k * s.icAlignTerm b z k * s.isAlignTerm b z k * s.twoHaloTruncationIa k
    ⟨pkSs1h, fun b z k => pkCc2h b z k + pkSs2h b z k + pkCs2h b z k,
      fun b z k => pkSs1h b z k + pkCc2h b z k + pkSs2h b z k + pkCs2h b z k, none⟩

/-- `power_spectrum_ii` (pk.py:2443-2564). -/
noncomputable def powerSpectrumIi : Except PyErr PkResult := s.applyResponse s.powerSpectrumIiRaw

/-- `power_spectrum_gi` before the response block (pk.py:2566-2653). -/
noncomputable def powerSpectrumGiRaw : PkResult :=
  let pkCs1h : ℕ → ℕ → ℕ → ℝ := fun b z k =>
    s.compute1hTerm (s.centralGalaxyProfile b z k) (s.satelliteAlignmentProfile b z k) z
      * s.oneHaloTruncationIa k
  match s.nonlinearMode with
  | .bnl =>
    let pkCc2h : ℕ → ℕ → ℕ → ℝ := fun b z k =>
      s.pkLin z k * s.icTerm b z k * s.icAlignTerm b z k
        + s.pkLin z k * s.iNL (s.centralAlignmentProfile b z k) (s.centralGalaxyProfile b z k) z k
    let pkCs2h : ℕ → ℕ → ℕ → ℝ := fun b z k =>
      s.pkLin z k * s.icTerm b z k * s.isAlignTerm b z k
        + s.pkLin z k * s.iNL (s.satelliteAlignmentProfile b z k) (s.centralGalaxyProfile b z k) z k
    ⟨pkCs1h, fun b z k => pkCs2h b z k + pkCc2h b z k,
      fun b z k => pkCs1h b z k + pkCs2h b z k + pkCc2h b z k, none⟩
  | .fortuna =>
    let pkCc2h : ℕ → ℕ → ℕ → ℝ := fun b z k =>
      -1 * s.peffVal z k * s.icTerm b z k * s.alignmentAmplitude2h z * s.twoHaloTruncationIa k
    ⟨pkCs1h, pkCc2h, fun b z k => pkCs1h b z k + pkCc2h b z k, none⟩
  | _ =>
    let pkCc2h : ℕ → ℕ → ℕ → ℝ := fun b z k =>
      s.pkLin z k * s.icTerm b z k * s.icAlignTerm b z k * s.twoHaloTruncationIa k
    let pkCs2h : ℕ → ℕ → ℕ → ℝ := fun b z k =>
      s.pkLin z k * s.icTerm b z k * s.isAlignTerm b z k * s.twoHaloTruncationIa k
    ⟨pkCs1h, fun b z k => pkCs2h b z k + pkCc2h b z k,
      fun b z k => pkCs1h b z k + pkCs2h b z k + pkCc2h b z k, none⟩

/-- `power_spectrum_gi` (pk.py:2566-2662). -/
noncomputable def powerSpectrumGi : Except PyErr PkResult := s.applyResponse s.powerSpectrumGiRaw

end Spectra

end Verif.Pk

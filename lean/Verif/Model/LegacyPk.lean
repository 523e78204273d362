import Verif.Model.Pk

/-!
# Model of the spectra of the legacy modules (`/repo/cosmosis_modules/legacy/pk/pk_lib.py` and `pk_interface.py`)

The functions of `pk_lib.py` that compute spectra, and the part of `execute` of `pk_interface.py` that chooses and calls
them.  Conventions as in `Model/Pk`: entries `(z, k)` of arrays, `m` a mass index, `b` a galaxy bin.  What `execute`
reads and interpolates (pk_interface.py:158-208, 270-271, 305-309, 417-419) are the fields of `Block`: the values are
those on the grid `k_vec`, `z_vec`, after `log_linear_interpolation_k`, `load_hods`, `load_fstar_mm`,
`get_satellite_alignment`.  Their absence, and the exceptions for a missing `beta_interp` (182-191) and for grids of
masses that differ (pk_lib.py:150, 216), are not modelled.
-/

namespace Verif.LegacyPk

open Finset Verif.Lib
open Verif.Pk (NLMode HMIngr Spectra)

/-- `mead_correction` (pk_interface.py:135-146) -/
inductive Mead
  | none
  | noFeedback
  | feedback
  | fit
  deriving DecidableEq, Repr

/-- `poisson_type` (pk_interface.py:106); every other string behaves as the default -/
inductive PoissonType
  | other
  | scalar
  | powerLaw
  deriving DecidableEq, Repr

/-- the tuple returned by `setup` (pk_interface.py:89-152), without the section names -/
structure Opts where
  pMm : Bool
  pGg : Bool
  pGm : Bool
  pGI : Bool
  pMI : Bool
  pII : Bool
  response : Bool
  fortuna : Bool
  bnl : Bool
  pointMass : Bool
  dewiggle : Bool
  mead : Mead
  poissonType : PoissonType
  oneHaloKtrunc : Option ℝ
  twoHaloKtrunc : Option ℝ
  oneHaloKtruncIa : Option ℝ
  twoHaloKtruncIa : Option ℝ

namespace Opts

variable (o : Opts)

/-- `matter` (pk_interface.py:127) -/
def matter : Bool := o.pMm || o.pGm || o.pMI

/-- `galaxy` (pk_interface.py:128) -/
def galaxy : Bool := o.pGg || o.pGm || o.pGI || o.pMI || o.pII

/-- `alignment` (pk_interface.py:129) -/
def alignment : Bool := o.pGI || o.pMI || o.pII

/-- `mead_correction in ['feedback', 'nofeedback']` (pk_interface.py:173, 240) -/
def mead2020 : Bool := o.mead = .feedback || o.mead = .noFeedback

end Opts

/-- What `execute` has read from the block and interpolated to `z_vec`, `k_vec`. -/
structure Block where
  nm : ℕ
  zVec : ℕ → ℝ
  kVec : ℕ → ℝ
  mass : ℕ → ℝ
  dndlnm : ℕ → ℕ → ℝ
  bDm : ℕ → ℕ → ℝ
  meanDensity0 : ℝ
  fnu : ℝ
  omegaC : ℝ
  omegaM : ℝ
  omegaB : ℝ
  log10TAGN : ℝ
  /-- `10.0**m_b` (pk_interface.py:224, 290) -/
  mb : ℝ
  uDm : ℕ → ℕ → ℕ → ℝ
  uSat : ℕ → ℕ → ℕ → ℝ
  sigma8z : ℕ → ℝ
  neff : ℕ → ℝ
  growthFactor : ℕ → ℝ
  /-- `plin` after `log_linear_interpolation_k` (pk_interface.py:165) -/
  plinRead : ℕ → ℕ → ℝ
  /-- its image under `dewiggle` (pk_lib.py:993-998) -/
  plinDewiggled : ℕ → ℕ → ℝ
  /-- `pk_mm_in`, `pnl` (pk_interface.py:169-170, 417-418) -/
  pnl : ℕ → ℕ → ℝ
  /-- `beta_interp`, axes `(z, m1, m2, k)` (pk_interface.py:185) -/
  beta : ℕ → ℕ → ℕ → ℕ → ℝ
  fstarMm : ℕ → ℕ → ℝ
  nCen : ℕ → ℕ → ℕ → ℝ
  nSat : ℕ → ℕ → ℕ → ℝ
  numdenCen : ℕ → ℕ → ℝ
  numdenSat : ℕ → ℕ → ℝ
  fCen : ℕ → ℕ → ℝ
  fSat : ℕ → ℕ → ℝ
  massAvg : ℕ → ℕ → ℝ
  fstar : ℕ → ℕ → ℕ → ℝ
  alignmentGi : ℕ → ℝ
  /-- axes `(z, m, k)` (pk_lib.py:179, 188) -/
  wkm : ℕ → ℕ → ℕ → ℝ
  /-- `beta_sat`, `M_pivot` when the small-scale `instance` is `halo_mass` (pk_interface.py:311-313) -/
  satHaloMass : Option (ℝ × ℝ)
  /-- `beta`, `M_pivot` when the large-scale `instance` is `halo_mass` (pk_interface.py:318-320) -/
  cenHaloMass : Option (ℝ × ℝ)
  poisson : Option ℝ
  m0 : Option ℝ
  slope : Option ℝ
  tEff : ℝ

/-- one- and two-halo part and total, as `execute` stores them -/
structure Out where
  pk1h : ℕ → ℕ → ℝ
  pk2h : ℕ → ℕ → ℝ
  pkTot : ℕ → ℕ → ℝ

section functions

/-- `compute_matter_profile`, `matter_profile` (pk_lib.py:275-297) -/
noncomputable def matterProfile (B : Block) (fnu : ℝ) (z k m : ℕ) : ℝ :=
  B.mass m / B.meanDensity0 * B.uDm z k m * (1 - fnu)

/-- `fs` (pk_lib.py:583-591) -/
noncomputable def fs (log10TAGN z : ℝ) : ℝ :=
  (2.01 - 0.3 * (log10TAGN - 7.8)) * 0.01 * (10 : ℝ) ^ (z * (0.409 + 0.0224 * (log10TAGN - 7.8)))

/-- `fg_fit` (pk_lib.py:566-579), and the last line of `fg` (564), with `beta=2` -/
noncomputable def fgFit (mass mb fstar omegaB omegaM : ℝ) : ℝ :=
  (omegaB / omegaM - fstar) * (mass / mb) ^ 2 / (1 + (mass / mb) ^ 2)

/-- `fg` (pk_lib.py:547-564) -/
noncomputable def fg (mass fstar log10TAGN z omegaB omegaM : ℝ) : ℝ :=
  fgFit mass ((10 : ℝ) ^ (13.87 + 1.81 * (log10TAGN - 7.8)) * (10 : ℝ) ^ (z * (0.195 * (log10TAGN - 7.8) - 0.108)))
    fstar omegaB omegaM

/-- `matter_profile_with_feedback` (pk_lib.py:299-336) -/
noncomputable def matterProfileWithFeedback (B : Block) (z k m : ℕ) : ℝ :=
  (B.omegaC / B.omegaM + fg (B.mass m) (fs B.log10TAGN (B.zVec z)) B.log10TAGN (B.zVec z) B.omegaB B.omegaM)
      * (B.mass m / B.meanDensity0) * B.uDm z k m * (1 - B.fnu)
    + fs B.log10TAGN (B.zVec z) * (B.mass m / B.meanDensity0)

/-- `matter_profile_with_feedback_stellar_fraction_from_obs` (pk_lib.py:338-369) -/
noncomputable def matterProfileFit (B : Block) (fstar : ℕ → ℕ → ℝ) (z k m : ℕ) : ℝ :=
  (B.omegaC / B.omegaM + fgFit (B.mass m) B.mb (fstar z m) B.omegaB B.omegaM)
      * (B.mass m / B.meanDensity0) * B.uDm z k m * (1 - B.fnu)
    + fstar z m * (B.mass m / B.meanDensity0)

/-- `galaxy_profile` (pk_lib.py:375-376) at one redshift -/
noncomputable def galaxyProfile (N : ℕ → ℝ) (numden f : ℝ) (u : ℕ → ℝ) (m : ℕ) : ℝ := f * N m * u m / numden

/-- the factor `additional_term` (pk_lib.py:383-386, 391-394) -/
noncomputable def additionalTerm (beta mpivot massAvg : Option ℝ) : ℝ :=
  match beta, mpivot, massAvg with
  | some b, some p, some M => (M / p) ^ b
  | _, _, _ => 1

/-- `central_alignment_profile` (pk_lib.py:382-387, 398-414).  `mass_avg[:, np.newaxis, np.newaxis]` of `None` raises. -/
noncomputable def centralAlignmentProfile (B : Block) (b : ℕ) (C1 : ℕ → ℝ) (beta mpivot : Option ℝ)
    (massAvg : Option (ℕ → ℝ)) : Except PyErr (ℕ → ℕ → ℕ → ℝ) :=
  match massAvg with
  | none => .error .typeError
  | some M => .ok fun z _ m =>
      B.fCen b z * (C1 z / B.growthFactor z) * B.mass m * additionalTerm beta mpivot (some (M z))

/-- `satellite_alignment_profile` (pk_lib.py:390-395, 417-432) -/
noncomputable def satelliteAlignmentProfile (B : Block) (b : ℕ) (beta mpivot : Option ℝ)
    (massAvg : Option (ℕ → ℝ)) : Except PyErr (ℕ → ℕ → ℕ → ℝ) :=
  match massAvg with
  | none => .error .typeError
  | some M => .ok fun z k m =>
      B.fSat b z * B.nSat b z m * B.wkm z m k / B.numdenSat b z * additionalTerm beta mpivot (some (M z))

/-- `one_halo_truncation` (pk_lib.py:438-445) -/
noncomputable def oneHaloTruncation (k : ℝ) : Option ℝ → ℝ
  | none => 1
  | some kt => (k / kt) ^ 4 / (1 + (k / kt) ^ 4)

/-- `two_halo_truncation` (pk_lib.py:447-458) -/
noncomputable def twoHaloTruncation (k : ℝ) : Option ℝ → ℝ
  | none => 1
  | some _ => 1 - 0.05 * (k / 0.05699) ^ (2.853 : ℝ) / (1 + (k / 0.05699) ^ (2.853 : ℝ))

/-- `one_halo_truncation_ia` (pk_lib.py:462-468) -/
noncomputable def oneHaloTruncationIa (k : ℝ) : Option ℝ → ℝ
  | none => 1
  | some kt => 1 - Real.exp (-(k / kt) ^ 2)

/-- `two_halo_truncation_ia` (pk_lib.py:470-476) -/
noncomputable def twoHaloTruncationIa (k : ℝ) : Option ℝ → ℝ
  | none => 1
  | some kt => Real.exp (-(k / kt) ^ 2)

/-- `one_halo_truncation_mead` (pk_lib.py:478-487) -/
noncomputable def oneHaloTruncationMead (k sigma8 : ℝ) : ℝ :=
  (k / (0.05618 * sigma8 ^ (-1.013 : ℝ))) ^ 4 / (1 + (k / (0.05618 * sigma8 ^ (-1.013 : ℝ))) ^ 4)

/-- `two_halo_truncation_mead` (pk_lib.py:489-501) -/
noncomputable def twoHaloTruncationMead (k sigma8 : ℝ) : ℝ :=
  1 - 0.2696 * sigma8 ^ (0.9403 : ℝ) * (k / (0.05699 * sigma8 ^ (-1.089 : ℝ))) ^ (2.853 : ℝ)
    / (1 + (k / (0.05699 * sigma8 ^ (-1.089 : ℝ))) ^ (2.853 : ℝ))

/-- `transition_smoothing` (pk_lib.py:503-517) -/
noncomputable def transitionSmoothing (neff k p1h p2h : ℝ) : ℝ :=
  ((k ^ 3 / (2 * Real.pi ^ 2) * p1h) ^ (1.875 * (1.603 : ℝ) ^ neff)
      + (k ^ 3 / (2 * Real.pi ^ 2) * p2h) ^ (1.875 * (1.603 : ℝ) ^ neff)) ^ (1 / (1.875 * (1.603 : ℝ) ^ neff))
    / (k ^ 3 / (2 * Real.pi ^ 2))

/-- `compute_1h_term` (pk_lib.py:520-543) -/
noncomputable def compute1hTerm (B : Block) (u v : ℕ → ℝ) (z : ℕ) : ℝ :=
  simpson B.nm B.mass fun m => u m * v m * B.dndlnm z m / B.mass m

/-- `compute_A_term`, `missing_mass_integral` (pk_lib.py:615-635) -/
noncomputable def aTerm (B : Block) (z : ℕ) : ℝ :=
  1 - simpson B.nm B.mass fun m => B.bDm z m * B.dndlnm z m * (1 / B.meanDensity0)

/-- `Im_term`, `compute_Im_term` (pk_lib.py:637-647) -/
noncomputable def imTerm (B : Block) (z k : ℕ) : ℝ :=
  simpson B.nm B.mass (fun m => B.bDm z m * B.dndlnm z m * B.uDm z k m * (1 / B.meanDensity0)) + aTerm B z

/-- `compute_Ig_term`, `Ig_term` (pk_lib.py:655-665) -/
noncomputable def igTerm (B : Block) (profile : ℕ → ℝ) (z : ℕ) : ℝ :=
  simpson B.nm B.mass fun m => profile m * B.bDm z m * B.dndlnm z m / B.mass m

/-- `Ig_align_term` (pk_lib.py:667-674) -/
noncomputable def igAlignTerm (B : Block) (profile : ℕ → ℝ) (z : ℕ) : ℝ :=
  igTerm B profile z + aTerm B z * profile 0 * B.meanDensity0 / B.mass 0

/-- `prepare_I22_integrand` (pk_lib.py:676-691) -/
noncomputable def i22 (B : Block) (z m1 m2 k : ℕ) : ℝ :=
  B.beta z m1 m2 k * B.bDm z m1 * B.bDm z m2 * B.dndlnm z m1 * B.dndlnm z m2 / (B.mass m1 * B.mass m2)

/-- `prepare_I12_integrand` (pk_lib.py:693-704): the second mass index of `beta` is fixed -/
noncomputable def i12 (B : Block) (z m k : ℕ) : ℝ := B.beta z m 0 k * B.bDm z m * B.dndlnm z m / B.mass m

/-- `prepare_I21_integrand` (pk_lib.py:706-717): the first mass index of `beta` is fixed -/
noncomputable def i21 (B : Block) (z m k : ℕ) : ℝ := B.beta z 0 m k * B.bDm z m * B.dndlnm z m / B.mass m

/-- `trapezoid(y, x)` of scipy: the sum over the intervals of width times mean value -/
noncomputable def trapezoid (n : ℕ) (y x : ℕ → ℝ) : ℝ :=
  ∑ i ∈ range (n - 1), (x (i + 1) - x i) * (y (i + 1) + y i) / 2

/-- `I_NL` (pk_lib.py:719-759), for two profiles as functions of the mass index -/
noncomputable def iNL (B : Block) (W1 W2 : ℕ → ℝ) (z k : ℕ) : ℝ :=
  B.beta z 0 0 k * ((aTerm B z * aTerm B z) * W1 0 * W2 0 * (B.meanDensity0 * B.meanDensity0)) / (B.mass 0 * B.mass 0)
    + aTerm B z * W1 0 * trapezoid B.nm (fun m => i12 B z m k * W2 m) B.mass * B.meanDensity0 / B.mass 0
    + aTerm B z * W2 0 * trapezoid B.nm (fun m => i21 B z m k * W1 m) B.mass * B.meanDensity0 / B.mass 0
    + trapezoid B.nm
        (fun m2 => trapezoid B.nm (fun m1 => i22 B z m1 m2 k * W1 m1 * W2 m2) B.mass) B.mass

/-- `compute_two_halo_alignment` (pk_lib.py:906-923): the amplitude -/
noncomputable def alignmentAmplitude2h (B : Block) (z : ℕ) : ℝ :=
  -B.alignmentGi z * (5e-14 * B.meanDensity0 / B.growthFactor z)

/-- `compute_two_halo_alignment` (pk_lib.py:906-923): the amplitude for II -/
noncomputable def alignmentAmplitude2hII (B : Block) (z : ℕ) : ℝ :=
  (B.alignmentGi z * 5e-14 * B.meanDensity0 / B.growthFactor z) ^ 2

/-- `compute_two_halo_alignment` (pk_lib.py:906-923): `C1` -/
noncomputable def c1 (B : Block) (z : ℕ) : ℝ := 5e-14 * B.alignmentGi z

/-- `poisson_func` (pk_lib.py:926-949).  The caller always passes the key `poisson` (pk_interface.py:350-355), so its
default `1.0` is never used and `None` meets a product. -/
noncomputable def poissonFunc (o : Opts) (B : Block) : Except PyErr (ℕ → ℝ) :=
  match o.poissonType with
  | .scalar =>
    match B.poisson with
    | none => .error .typeError
    | some p => .ok fun _ => p * 1
  | .powerLaw =>
    match B.m0, B.slope with
    | some M0, some sl =>
      match B.poisson with
      | none => .error .typeError
      | some p => .ok fun m => p * (B.mass m / (10 : ℝ) ^ M0) ^ sl
    | _, _ => .error .valueError
  | .other => .ok fun _ => 1

end functions

section spectra

variable (o : Opts) (B : Block)

/-- `plin` as used for the spectra (pk_interface.py:165, 173-174) -/
noncomputable def plin (z k : ℕ) : ℝ := if o.mead2020 || o.dewiggle then B.plinDewiggled z k else B.plinRead z k

/-- `matter_profile`, the two-halo profile (pk_interface.py:215) -/
noncomputable def matterProfile2h (z k m : ℕ) : ℝ := matterProfile B 0 z k m

/-- `matter_profile_1h_mm` (pk_interface.py:217-228) -/
noncomputable def matterProfile1hMm (z k m : ℕ) : ℝ :=
  match o.mead with
  | .feedback => matterProfileWithFeedback B z k m
  | .fit => matterProfileFit B B.fstarMm z k m
  | _ => matterProfile B B.fnu z k m

/-- `pk_mm_1h`, `pk_mm_2h`, `pk_mm` (pk_interface.py:235-249; `compute_p_mm`, `compute_p_mm_bnl`, `compute_p_mm_mead`,
pk_lib.py:1003-1035) -/
noncomputable def pMm : Out :=
  let prof := matterProfile1hMm o B
  if o.bnl then
    let pk2h := fun z k => plin o B z k * imTerm B z k * imTerm B z k
      + plin o B z k * iNL B (matterProfile2h B z k) (matterProfile2h B z k) z k
    let pk1h := fun z k => compute1hTerm B (prof z k) (prof z k) z * oneHaloTruncation (B.kVec k) o.oneHaloKtrunc
    ⟨pk1h, pk2h, fun z k => pk1h z k + pk2h z k⟩
  else if o.mead2020 then
    let pk2h := fun z k => plin o B z k * twoHaloTruncationMead (B.kVec k) (B.sigma8z z)
    let pk1h := fun z k => compute1hTerm B (prof z k) (prof z k) z * oneHaloTruncationMead (B.kVec k) (B.sigma8z z)
    ⟨pk1h, pk2h, fun z k => transitionSmoothing (B.neff z) (B.kVec k) (pk1h z k) (pk2h z k)⟩
  else
    let pk2h := fun z k => plin o B z k * imTerm B z k * imTerm B z k
      * twoHaloTruncation (B.kVec k) o.twoHaloKtrunc
    let pk1h := fun z k => compute1hTerm B (prof z k) (prof z k) z * oneHaloTruncation (B.kVec k) o.oneHaloKtrunc
    ⟨pk1h, pk2h, fun z k => pk1h z k + pk2h z k⟩

/-- `profile_c` (pk_interface.py:280) -/
noncomputable def profileC (b z : ℕ) (_k m : ℕ) : ℝ :=
  galaxyProfile (B.nCen b z) (B.numdenCen b z) (B.fCen b z) (fun _ => 1) m

/-- `profile_s` (pk_interface.py:281) -/
noncomputable def profileS (b z k m : ℕ) : ℝ :=
  galaxyProfile (B.nSat b z) (B.numdenSat b z) (B.fSat b z) (B.uSat z k) m

/-- `I_c` (pk_interface.py:284) -/
noncomputable def iC (b z k : ℕ) : ℝ := igTerm B (profileC B b z k) z

/-- `I_s` (pk_interface.py:285) -/
noncomputable def iS (b z k : ℕ) : ℝ := igTerm B (profileS B b z k) z

/-- `compute_p_gg`, `compute_p_gg_bnl` (pk_lib.py:1038-1088; pk_interface.py:357-379), with the bias; `poisson` is the
array of `poisson_func` -/
noncomputable def pGg (poisson : ℕ → ℝ) (b : ℕ) : Out × (ℕ → ℕ → ℝ) :=
  let t := fun k => if o.bnl then 1 else twoHaloTruncation (B.kVec k) o.twoHaloKtrunc
  let cc := fun z k => plin o B z k * iC B b z k * iC B b z k * t k
  let ss := fun z k => plin o B z k * iS B b z k * iS B b z k * t k
  let cs := fun z k => plin o B z k * iC B b z k * iS B b z k * t k
  let cs1 := fun z k => compute1hTerm B (profileC B b z k) (profileS B b z k) z
    * oneHaloTruncation (B.kVec k) o.oneHaloKtrunc
  let ss1 := fun z k => compute1hTerm B (fun m => profileS B b z k m * poisson m) (profileS B b z k) z
    * oneHaloTruncation (B.kVec k) o.oneHaloKtrunc
  let gal := fun z k m => profileC B b z k m + profileS B b z k m
  let pk1h := fun z k => 2 * cs1 z k + ss1 z k
  let pk2h := fun z k =>
    if o.bnl then cc z k + ss z k + 2 * cs z k + plin o B z k * iNL B (gal z k) (gal z k) z k
    else cc z k + ss z k + 2 * cs z k
  (⟨pk1h, pk2h, fun z k => pk1h z k + pk2h z k⟩,
    fun z k => Real.sqrt (iC B b z k * iC B b z k + iS B b z k * iS B b z k + 2 * iS B b z k * iC B b z k))

/-- `compute_p_gm`, `compute_p_gm_bnl` (pk_lib.py:1091-1131; pk_interface.py:391-398), with the bias; `prof` is
`matter_profile_1h` -/
noncomputable def pGm (prof : ℕ → ℕ → ℕ → ℝ) (b : ℕ) : Out × (ℕ → ℕ → ℝ) :=
  let t := fun k => if o.bnl then 1 else twoHaloTruncation (B.kVec k) o.twoHaloKtrunc
  let cm := fun z k => plin o B z k * iC B b z k * imTerm B z k * t k
  let sm := fun z k => plin o B z k * iS B b z k * imTerm B z k * t k
  let cm1 := fun z k => compute1hTerm B (profileC B b z k) (prof z k) z * oneHaloTruncation (B.kVec k) o.oneHaloKtrunc
  let sm1 := fun z k => compute1hTerm B (profileS B b z k) (prof z k) z * oneHaloTruncation (B.kVec k) o.oneHaloKtrunc
  let gal := fun z k m => profileC B b z k m + profileS B b z k m
  let pk1h := fun z k => cm1 z k + sm1 z k
  let pk2h := fun z k =>
    if o.bnl then cm z k + sm z k + plin o B z k * iNL B (gal z k) (matterProfile2h B z k) z k
    else cm z k + sm z k
  (⟨pk1h, pk2h, fun z k => pk1h z k + pk2h z k⟩,
    fun z k => Real.sqrt (iC B b z k * imTerm B z k + iS B b z k * imTerm B z k))

/-- `pk_eff` (pk_interface.py:409-420) -/
noncomputable def pkEff (z k : ℕ) : ℝ := (1 - B.tEff) * B.pnl z k + B.tEff * plin o B z k

/-- `compute_p_II_fortuna`, `compute_p_II_bnl`, `compute_p_II` (pk_lib.py:1186-1229, 1311-1313;
pk_interface.py:422-438); `sA`, `cA` are the alignment profiles of satellites and centrals -/
noncomputable def pII (sA cA : ℕ → ℕ → ℕ → ℝ) (b : ℕ) : Out :=
  let ss1 := fun z k => compute1hTerm B (sA z k) (sA z k) z * oneHaloTruncationIa (B.kVec k) o.oneHaloKtruncIa
  let t := fun k => twoHaloTruncationIa (B.kVec k) o.twoHaloKtruncIa
  let iCa := fun z k => igAlignTerm B (cA z k) z
  let iSa := fun z k => igAlignTerm B (sA z k) z
  if o.fortuna then
    let cc := fun z k => B.fCen b z ^ 2 * pkEff o B z k * alignmentAmplitude2hII B z * t k
    ⟨ss1, cc, fun z k => ss1 z k + cc z k⟩
  else if o.bnl then
    let ss := fun z k => plin o B z k * iSa z k * iSa z k + plin o B z k * iNL B (sA z k) (sA z k) z k
    let cc := fun z k => plin o B z k * iCa z k * iCa z k + plin o B z k * iNL B (cA z k) (cA z k) z k
    let cs := fun z k => plin o B z k * iCa z k * iSa z k + plin o B z k * iNL B (cA z k) (sA z k) z k
    ⟨ss1, fun z k => cc z k + cs z k + cs z k, fun z k => ss1 z k + ss z k + cs z k + cc z k⟩
  else
    let ss := fun z k => plin o B z k * iSa z k * iSa z k * t k
    let cc := fun z k => plin o B z k * iCa z k * iCa z k * t k
    let cs := fun z k => plin o B z k * iCa z k * iSa z k * t k
    ⟨ss1, fun z k => cc z k + cs z k + cs z k, fun z k => ss1 z k + cc z k + ss z k + cs z k⟩

/-- `compute_p_gI_fortuna`, `compute_p_gI_bnl`, `compute_p_gI` (pk_lib.py:1232-1271; pk_interface.py:448-460) -/
noncomputable def pGI (sA cA : ℕ → ℕ → ℕ → ℝ) (b : ℕ) : Out :=
  let cs1 := fun z k => compute1hTerm B (profileC B b z k) (sA z k) z
    * oneHaloTruncationIa (B.kVec k) o.oneHaloKtruncIa
  let t := fun k => twoHaloTruncationIa (B.kVec k) o.twoHaloKtruncIa
  let iCa := fun z k => igAlignTerm B (cA z k) z
  let iSa := fun z k => igAlignTerm B (sA z k) z
  if o.fortuna then
    let cc := fun z k => -1 * pkEff o B z k * iC B b z k * alignmentAmplitude2h B z * t k
    ⟨cs1, cc, fun z k => cs1 z k + cc z k⟩
  else if o.bnl then
    let cc := fun z k => plin o B z k * iC B b z k * iCa z k + plin o B z k * iNL B (cA z k) (profileC B b z k) z k
    let cs := fun z k => plin o B z k * iC B b z k * iSa z k + plin o B z k * iNL B (sA z k) (profileC B b z k) z k
    ⟨cs1, fun z k => cc z k + cs z k, fun z k => cs1 z k + cs z k + cc z k⟩
  else
    let cc := fun z k => plin o B z k * iC B b z k * iCa z k * t k
    let cs := fun z k => plin o B z k * iC B b z k * iSa z k * t k
    ⟨cs1, fun z k => cc z k + cs z k, fun z k => cs1 z k + cs z k + cc z k⟩

/-- `compute_p_mI_fortuna`, `compute_p_mI_bnl`, `compute_p_mI` (pk_lib.py:1144-1183, 1297-1300;
pk_interface.py:470-483) -/
noncomputable def pMI (prof sA cA : ℕ → ℕ → ℕ → ℝ) (b : ℕ) : Out :=
  let sm1 := fun z k => -1 * compute1hTerm B (prof z k) (sA z k) z
    * oneHaloTruncationIa (B.kVec k) o.oneHaloKtruncIa
  let t := fun k => twoHaloTruncationIa (B.kVec k) o.twoHaloKtruncIa
  let iCa := fun z k => igAlignTerm B (cA z k) z
  let iSa := fun z k => igAlignTerm B (sA z k) z
  if o.fortuna then
    let cm := fun z k => B.fCen b z * pkEff o B z k * alignmentAmplitude2h B z * t k
    ⟨sm1, cm, fun z k => sm1 z k + cm z k⟩
  else if o.bnl then
    let sm := fun z k => -1 * plin o B z k * imTerm B z k * iSa z k
    let cm := fun z k => -1 * plin o B z k * imTerm B z k * iCa z k
    let ali := fun z k m => cA z k m + sA z k m
    ⟨sm1, fun z k => cm z k + sm z k,
      fun z k => sm1 z k + cm z k + sm z k - plin o B z k * iNL B (ali z k) (matterProfile2h B z k) z k⟩
  else
    let sm := fun z k => -1 * plin o B z k * imTerm B z k * iSa z k * t k
    let cm := fun z k => -1 * plin o B z k * imTerm B z k * iCa z k * t k
    ⟨sm1, fun z k => cm z k + sm z k, fun z k => sm1 z k + cm z k + sm z k⟩

/-! ### `execute` -/

/-- the local `matter_profile_1h_mm`, which exists only if `matter` (pk_interface.py:211-228) -/
noncomputable def localProfile1hMm : Option (ℕ → ℕ → ℕ → ℝ) :=
  if o.matter then some (matterProfile1hMm o B) else none

/-- the local `pk_mm`, which exists only if `matter and (p_mm or response)` (pk_interface.py:211, 234-249) -/
noncomputable def localPkMm : Option Out :=
  if o.matter && (o.pMm || o.response) then some (pMm o B) else none

/-- `matter_profile_1h` of a bin (pk_interface.py:287-295) -/
noncomputable def profile1h (b : ℕ) : Except PyErr (ℕ → ℕ → ℕ → ℝ) :=
  if o.mead = .fit || o.pointMass then .ok (matterProfileFit B (B.fstar b))
  else
    match localProfile1hMm o B with
    | none => .error .unboundLocal
    | some f => .ok f

/-- `s_align_profile` (pk_interface.py:311-317) -/
noncomputable def sAlign (b : ℕ) : Except PyErr (ℕ → ℕ → ℕ → ℝ) :=
  match B.satHaloMass with
  | some (beta, mp) => satelliteAlignmentProfile B b (some beta) (some mp) (some (B.massAvg b))
  | none => satelliteAlignmentProfile B b none none none

/-- `c_align_profile` (pk_interface.py:318-324) -/
noncomputable def cAlign (b : ℕ) : Except PyErr (ℕ → ℕ → ℕ → ℝ) :=
  match B.cenHaloMass with
  | some (beta, mp) => centralAlignmentProfile B b (c1 B) (some beta) (some mp) (some (B.massAvg b))
  | none => centralAlignmentProfile B b (c1 B) none none none

/-- the multiplication by the response in every section that is written (pk_interface.py:381-388, 400-407, 439-446,
461-468, 484-491) -/
noncomputable def respond (r : Out) : Except PyErr Out :=
  if o.response then
    match localPkMm o B with
    | none => .error .unboundLocal
    | some mm => .ok ⟨fun z k => r.pk1h z k / mm.pkTot z k * B.pnl z k, fun z k => r.pk2h z k / mm.pkTot z k * B.pnl z k,
        fun z k => r.pkTot z k / mm.pkTot z k * B.pnl z k⟩
  else .ok r

/-- what one turn of the loop over the bins writes -/
structure BinOut where
  gg : Option Out
  bg : Option (ℕ → ℕ → ℝ)
  gm : Option Out
  bgm : Option (ℕ → ℕ → ℝ)
  ii : Option Out
  gi : Option Out
  mi : Option Out

/-- a step made only under a switch -/
def guarded {α : Type} (c : Bool) (x : Except PyErr α) : Except PyErr (Option α) :=
  if c then
    match x with
    | .error e => .error e
    | .ok a => .ok (some a)
  else .ok none

/-- One turn of the loop (pk_interface.py:266-491), when `galaxy` (`alignment` implies `galaxy`).  The statements are
in the order of the code. -/
noncomputable def bin (b : ℕ) : Except PyErr BinOut :=
  (profile1h o B b).bind fun prof =>
  (guarded o.alignment (sAlign B b)).bind fun sA =>
  (guarded o.alignment (cAlign B b)).bind fun cA =>
  (guarded o.pGg ((poissonFunc o B).bind fun p => respond o B (pGg o B p b).1)).bind fun gg =>
  (guarded o.pGm (respond o B (pGm o B prof b).1)).bind fun gm =>
  (guarded o.pII (respond o B (pII o B (sA.getD 0) (cA.getD 0) b))).bind fun ii =>
  (guarded o.pGI (respond o B (pGI o B (sA.getD 0) (cA.getD 0) b))).bind fun gi =>
  (guarded o.pMI (respond o B (pMI o B prof (sA.getD 0) (cA.getD 0) b))).bind fun mi =>
  .ok ⟨gg, if o.pGg then some (pGg o B (fun _ => 1) b).2 else none, gm,
    if o.pGm then some (pGm o B prof b).2 else none, ii, gi, mi⟩

end spectra

/-! ### The same calculation with the rewritten library -/

/-- The `nonlinear_mode` that stands for the switches `bnl`, `fortuna` and `use_mead2020_corrections`; it has one value
where the legacy module has three switches. -/
def Opts.mode (o : Opts) : NLMode :=
  if o.bnl then .bnl else if o.fortuna then .fortuna else if o.mead2020 then .hmcode else .none

/-- The `hmcode_ingredients` that stand for `use_mead2020_corrections`. -/
def Opts.ingredients (o : Opts) : HMIngr :=
  match o.mead with
  | .none => .none
  | .noFeedback => .mead2020
  | .feedback => .mead2020Feedback
  | .fit => .fit

/-- The object of the rewritten library with the same inputs (`pk.py`, constructor 146-205): same grids, halo functions,
profiles, occupations, alignment inputs.  `pkLin` is the dewiggled spectrum under the condition of pk.py:464-465.
`numberDensity` and `avgHaloMassCen` have no counterpart in what the legacy module reads and are given separately. -/
noncomputable def toSpectra (o : Opts) (B : Block) (poisson : ℕ → ℝ) (numden avgMass : ℕ → ℕ → ℝ) : Spectra where
  nonlinearMode := o.mode
  hmcodeIngredients := o.ingredients
  response := o.response
  pointmass := o.pointMass
  oneHaloKtrunc := o.oneHaloKtrunc
  twoHaloKtrunc := o.twoHaloKtrunc
  oneHaloKtruncIa := o.oneHaloKtruncIa
  twoHaloKtruncIa := o.twoHaloKtruncIa
  tEff := B.tEff
  mb := B.mb
  log10TAGN := B.log10TAGN
  omegaC := B.omegaC
  omegaB := B.omegaB
  omegaM := B.omegaM
  nm := B.nm
  zVec := B.zVec
  kVec := B.kVec
  mass := B.mass
  dndlnm := B.dndlnm
  haloBias := B.bDm
  meanDensity0 := fun _ => B.meanDensity0
  uDm := B.uDm
  uSat := B.uSat
  sigma8z := B.sigma8z
  neff := B.neff
  growthFactor := B.growthFactor
  pkLin := if o.mode = .hmcode || o.dewiggle then B.plinDewiggled else B.plinRead
  pkNl := B.pnl
  betaNl := fun z k m1 m2 => B.beta z m1 m2 k
  fC := B.fCen
  fS := B.fSat
  hodCen := B.nCen
  hodSat := B.nSat
  numberDensity := numden
  numberDensityCen := B.numdenCen
  numberDensitySat := B.numdenSat
  avgHaloMassCen := avgMass
  fstar := B.fstar
  fstarMm := B.fstarMm
  poissonFunc := poisson
  alignmentGi := B.alignmentGi
  betaCen := B.cenHaloMass.map Prod.fst
  betaSat := B.satHaloMass.map Prod.fst
  mpivotCen := B.cenHaloMass.map Prod.snd
  mpivotSat := B.satHaloMass.map Prod.snd
  wkmSat := fun z k m => B.wkm z m k

end Verif.LegacyPk

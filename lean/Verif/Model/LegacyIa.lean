import Verif.Model.IaUpsample
import Verif.Lib.Simpson
import Verif.Lib.Histogram
import Verif.Lib.Special
import Verif.Lib.Py
import Mathlib.Analysis.Complex.Basic

/-! # The legacy intrinsic alignment modules (`/repo/cosmosis_modules/legacy/ia/*.py`)

`ia_amplitudes.py`, `ia_radial_lib.py`, `ia_radial_interface.py` and the reader of their output in
`legacy/pk/pk_lib.py`.  `np.histogram`, `simpson`, `RegularGridInterpolator` and `HankelTransform` are external and modelled
by the same contracts as for the rewritten library (Lib/Histogram, Lib/Simpson, `Ia.gridInterp`, `Ia.hankelTransform`).
The output suffix only renames sections; one suffix is modelled. -/

namespace Verif.LegacyIa

open Verif.Lib

/-! ## Amplitudes -/

/-- the options of `setup` (ia_amplitudes.py:58-95); a file is the list of its galaxies `(z, loglum)` and `none` an
absent option -/
structure AmpOptions where
  central : String
  satellite : String
  zmin : ℝ
  zmax : ℝ
  nz : ℕ
  fileCen : Option (List (ℝ × ℝ))
  fileSat : Option (List (ℝ × ℝ))

/-- `z_edges` (ia_amplitudes.py:39-41) -/
noncomputable def zEdge (zmin zmax : ℝ) (nz i : ℕ) : ℝ :=
  let dz := 0.5 * (linspace zmin zmax nz 1 - linspace zmin zmax nz 0)
  if i < nz then linspace zmin zmax nz i - dz else linspace zmin zmax nz (nz - 1) + dz

open Classical in
/-- `lum` of redshift bin `i` (ia_amplitudes.py:47-50) -/
noncomputable def lumBin (gals : List (ℝ × ℝ)) (zmin zmax : ℝ) (nz i : ℕ) : List ℝ :=
  (gals.filter fun g => decide (zEdge zmin zmax nz i ≤ g.1 ∧ g.1 < zEdge zmin zmax nz (i + 1))).map
    fun g => (10 : ℝ) ^ g.2

/-- `bincen[i, j]` (ia_amplitudes.py:43-53) -/
noncomputable def bincen (gals : List (ℝ × ℝ)) (zmin zmax : ℝ) (nz nl i j : ℕ) : ℝ :=
  match lumBin gals zmin zmax nz i with
  | [] => 0
  | x :: xs => histEdge x xs nl j + 0.5 * ((histEdge x xs nl nl - histEdge x xs nl 0) / (1 * nl))

/-- `pdf[i, j]` (ia_amplitudes.py:44-54) -/
noncomputable def lumPdf (gals : List (ℝ × ℝ)) (zmin zmax : ℝ) (nz nl i j : ℕ) : ℝ :=
  match lumBin gals zmin zmax nz i with
  | [] => 0
  | x :: xs => histDensity x xs nl j

/-- number of luminosities, luminosities and densities of each redshift -/
structure LumTable where
  n : ℕ
  lum : ℕ → ℕ → ℝ
  pdf : ℕ → ℕ → ℝ

/-- the tables of one population (ia_amplitudes.py:74-92): `z_bins[1]` needs two redshifts; arrays of ones without
luminosity dependence -/
noncomputable def lumTable (dep : String) (zmin zmax : ℝ) (nz : ℕ) (file : Option (List (ℝ × ℝ))) : Except PyErr LumTable :=
  if dep = "luminosity" then
    match file with
    | none => .error .blockError
    | some gals => if nz < 2 then .error .indexError
      else .ok ⟨10000, bincen gals zmin zmax nz 10000, lumPdf gals zmin zmax nz 10000⟩
  else .ok ⟨100000, fun _ _ => 1, fun _ _ => 1⟩

/-- what `setup` hands over (ia_amplitudes.py:97) -/
structure AmpConfig where
  cen : LumTable
  sat : LumTable
  nz : ℕ
  central : String
  satellite : String

/-- `setup` (ia_amplitudes.py:58-97) -/
noncomputable def ampSetup (o : AmpOptions) : Except PyErr AmpConfig :=
  if o.central ∉ ["constant", "luminosity", "halo_mass"] then .error .valueError
  else if o.satellite ∉ ["constant", "luminosity", "halo_mass"] then .error .valueError
  else match lumTable o.central o.zmin o.zmax o.nz o.fileCen with
    | .error e => .error e
    | .ok c => match lumTable o.satellite o.zmin o.zmax o.nz o.fileSat with
      | .error e => .error e
      | .ok s => .ok ⟨c, s, o.nz, o.central, o.satellite⟩

/-- the section `intrinsic_alignment_parameters` -/
structure AmpValues where
  gamma2h : Option ℝ
  gamma1h : Option ℝ
  lPivot : Option ℝ
  mPivot : Option ℝ
  beta : Option ℝ
  betaTwo : Option ℝ
  betaSat : Option ℝ

/-- one section written for the spectra: the amplitude per redshift, the pivot mass and slope (only for a dependence on halo
mass) and the instance -/
structure AmpSection where
  amplitude : ℕ → ℝ
  mPivot : Option ℝ
  slope : Option ℝ
  inst : String

/-- `block[section, name]` -/
def get (v : Option ℝ) : Except PyErr ℝ :=
  match v with
  | some x => .ok x
  | none => .error .blockError

/-- `mean_l_l0_to_beta` (ia_amplitudes.py:26-27), row `i` -/
noncomputable def meanScaling (t : LumTable) (l0 beta : ℝ) (i : ℕ) : ℝ :=
  simpson t.n (t.lum i) fun j => t.pdf i j * (t.lum i j / l0) ^ beta

open Classical in
/-- `broken_powerlaw` (ia_amplitudes.py:29-32), row `i` -/
noncomputable def brokenScaling (t : LumTable) (gamma l0 beta betaLow : ℝ) (i : ℕ) : ℝ :=
  simpson t.n (t.lum i) fun j => t.pdf i j *
    (if t.lum i j > l0 then gamma * (t.lum i j / l0) ^ beta else gamma * (t.lum i j / l0) ^ betaLow)

/-- the centrals of `execute` (ia_amplitudes.py:108-153) -/
noncomputable def centrals (c : AmpConfig) (v : AmpValues) : Except PyErr AmpSection := do
  let gamma ← get v.gamma2h
  if c.central = "constant" then .ok ⟨fun _ => gamma * 1, none, none, c.central⟩
  else if c.central = "luminosity" then
    match v.lPivot with
    | none => .error .valueError
    | some lpiv => do
      let beta ← get v.beta
      match v.betaTwo with
      | some b2 => .ok ⟨brokenScaling c.cen gamma ((10 : ℝ) ^ lpiv) beta b2, none, none, c.central⟩
      | none => .ok ⟨fun i => gamma * meanScaling c.cen ((10 : ℝ) ^ lpiv) beta i, none, none, c.central⟩
  else
    match v.mPivot with
    | none => .error .valueError
    | some mpiv => do
      let beta ← get v.beta
      match v.betaTwo with
      | some _ => .error .valueError
      | none => .ok ⟨fun _ => gamma * 1, some ((10 : ℝ) ^ mpiv), some beta, c.central⟩

/-- the satellites of `execute` (ia_amplitudes.py:157-182) -/
noncomputable def satellites (c : AmpConfig) (v : AmpValues) : Except PyErr AmpSection := do
  let gamma ← get v.gamma1h
  if c.satellite = "constant" then .ok ⟨fun _ => gamma * 1, none, none, c.satellite⟩
  else if c.satellite = "luminosity" then do
    let lpiv ← get v.lPivot
    let beta ← get v.betaSat
    .ok ⟨fun i => gamma * meanScaling c.sat ((10 : ℝ) ^ lpiv) beta i, none, none, c.satellite⟩
  else do
    let mpiv ← get v.mPivot
    let beta ← get v.betaSat
    .ok ⟨fun _ => gamma * 1, some ((10 : ℝ) ^ mpiv), some beta, c.satellite⟩

/-- setup and execute: the sections `ia_large_scale_alignment` and `ia_small_scale_alignment` -/
noncomputable def amplitudes (o : AmpOptions) (v : AmpValues) : Except PyErr (AmpSection × AmpSection) := do
  let c ← ampSetup o
  let cen ← centrals c v
  let sat ← satellites c v
  .ok (cen, sat)

/-! ## Angular part -/

/-- `I_x` (ia_radial_lib.py:98-102) -/
noncomputable def iX (a : ℝ) (b : ℕ) : ℝ :=
  let x := linspace (-1 + 1e-10) (1 - 1e-10) 500
  simpson 500 x fun i => (1 - x i ^ 2) ^ (a / 2) * x i ^ b

/-- the tabulated `f_ell` for slope 0 (ia_radial_lib.py:120) -/
noncomputable def pre0 : List ℝ :=
  [0, 0, 2.77582637, 0, -0.19276603, 0, 0.04743899, 0, -0.01779024, 0, 0.00832446, 0, -0.00447308, 0]

/-- the tabulated `f_ell` for slope -2 (ia_radial_lib.py:121) -/
noncomputable def preM2 : List ℝ :=
  [0, 0, 4.71238898, 0, -2.61799389, 0, 2.06167032, 0, -1.76714666, 0, 1.57488973, 0, -1.43581368, 0]

/-- `gj` (ia_radial_lib.py:127) -/
noncomputable def gj : List ℝ :=
  [0, 0, Real.pi / 2, 0, Real.pi / 2, 0, 15 * Real.pi / 32, 0, 7 * Real.pi / 16, 0, 105 * Real.pi / 256, 0]

/-- `sum2` (ia_radial_lib.py:130-132) -/
noncomputable def sum2 (theta g : ℝ) (m : ℕ) : Except PyErr ℝ :=
  Ia.sumE (m + 1) fun j => match gj[j]? with
    | none => .error .indexError
    | some c => .ok (Ia.binom m j * c * Real.sin theta ^ j * Real.cos theta ^ (m - j) * iX (j + g) (m - j))

/-- `sum1` (ia_radial_lib.py:128-133) -/
noncomputable def sum1 (theta g : ℝ) (l : ℕ) : Except PyErr ℝ :=
  Ia.sumE (l + 1) fun m => match sum2 theta g m with
    | .error e => .error e
    | .ok s => .ok (Ia.binom l m * Ia.binom (0.5 * (l + m - 1)) l * s)

/-- `cos(2 phi) + 1j sin(2 phi)` (ia_radial_lib.py:114) -/
noncomputable def phase (phi : ℝ) : ℂ := ⟨Real.cos (2 * phi), Real.sin (2 * phi)⟩

open Classical in
/-- `calculate_f_ell` (ia_radial_lib.py:108-134): for `theta_k == pi/2` the dictionary is asked for the slope, and
`None[l]` raises TypeError when it is not there -/
noncomputable def fEll (theta phi : ℝ) (l : ℕ) (g : ℝ) : Except PyErr ℂ :=
  if theta = Real.pi / 2 then
    match (if g = 0 then some pre0 else if g = -2 then some preM2 else none) with
    | none => .error .typeError
    | some t => match t[l]? with
      | none => .error .indexError
      | some v => .ok (v * phase phi)
  else match sum1 theta g l with
    | .error e => .error e
    | .ok s => .ok (2 ^ l * s * phase phi)

/-! ## Radial part -/

open Classical in
/-- `gamma_r_nfw_profile` with `nfw_profile` and `nfw_profile_trunc` (ia_radial_lib.py:141-156) -/
noncomputable def profile (r rs rvir a b rcore : ℝ) (truncate : Bool) : ℝ :=
  let nfw := 1 / (r / rs * (1 + r / rs) ^ 2)
  min (if r < rcore then a * (rcore / rvir) ^ b else a * (r / rvir) ^ b) 0.3 *
    (if truncate then (if rvir ≤ r then 0 else nfw) else nfw)

/-- `mass_nfw` (ia_radial_lib.py:145-146) -/
noncomputable def massNfw (rs c : ℝ) : ℝ := 4 * Real.pi * rs ^ 3 * (Real.log (1 + c) - c / (1 + c))

/-- `uk_l[i, jz, im, ik]` (ia_radial_lib.py:184-192) at one redshift, mass and wavenumber; `h_transf[i]` has the order
`2 i + 0.5` (ia_radial_interface.py:62-65) and `J` is the Bessel function -/
noncomputable def uell (J : ℝ → ℝ → ℝ) (rs c rvir a slope : ℝ) (i : ℕ) (k : ℝ) : ℝ :=
  Ia.hankelTransform J ((2 * i : ℕ) + 0.5) (fun x => profile x rs rvir a slope 0.06 false * Real.sqrt (x * Real.pi / 2)) k
    / (k ^ (0.5 : ℝ) * massNfw rs c)

/-- `range(0, ell_max + 1, 2)` (ia_radial_lib.py:205) -/
def ells (ellMax : ℤ) : List ℕ := (List.range ((ellMax + 2) / 2).toNat).map fun i => 2 * i

/-- the angular parts of all multipoles (ia_radial_lib.py:205-206): they do not depend on redshift, mass or wavenumber -/
noncomputable def angulars (theta phi g : ℝ) : List ℕ → Except PyErr (List (ℕ × ℂ))
  | [] => .ok []
  | l :: ls => match fEll theta phi l g with
    | .error e => .error e
    | .ok a => match angulars theta phi g ls with
      | .error e => .error e
      | .ok as => .ok ((l, a) :: as)

/-- one term of `sum_ell` (ia_radial_lib.py:207-210) -/
noncomputable def term (u : ℕ → ℝ) (l : ℕ) (angular : ℂ) : ℂ :=
  let radial : ℂ := Complex.I ^ l * (2 * l + 1) * u (l / 2)
  ⟨radial.re * angular.re - radial.im * angular.im, radial.re * angular.im + radial.im * angular.re⟩

/-- `wkm_f_ell` (ia_radial_lib.py:201-212) at one redshift, mass and wavenumber -/
noncomputable def wkm (u : ℕ → ℝ) (angs : List (ℕ × ℂ)) : ℝ :=
  let s := (angs.map fun a => term u a.1 a.2).sum
  Real.sqrt (s.re ^ 2 + s.im ^ 2)

/-! ## Down-sampling and the interface -/

/-- the halo parameters: mass, concentration and scale radius per redshift, virial radius -/
structure Halo where
  mass : List ℝ
  c : List (List ℝ)
  rs : List (List ℝ)
  rvir : List ℝ

open Classical in
/-- `downsample_halo_parameters` (ia_radial_interface.py:7-25) after the check of `execute` (ia_radial_interface.py:93-97) -/
noncomputable def downsample (nmass : ℕ) (h : Halo) : Except PyErr Halo :=
  if h.mass.length < nmass then .error .valueError
  else if h.mass.length = nmass then .ok h
  else if nmass = 0 then .error .zeroDivision
  else
    let f := h.mass.length / nmass
    match (Ia.stride f h.mass).getLast?, h.mass.getLast? with
    | some d, some l =>
      if d ≠ l then .ok ⟨Ia.stride f h.mass ++ [l], h.c.map fun r => Ia.stride f r ++ r.getLast?.toList,
        h.rs.map fun r => Ia.stride f r ++ r.getLast?.toList, Ia.stride f h.rvir ++ h.rvir.getLast?.toList⟩
      else .ok ⟨Ia.stride f h.mass, h.c.map (Ia.stride f), h.rs.map (Ia.stride f), Ia.stride f h.rvir⟩
    | _, _ => .error .indexError

/-- the options of the radial module (ia_radial_interface.py:37-60); the number of Hankel steps only sets the accuracy of the
external transform -/
structure RadialOptions where
  nmass : ℕ := 5
  kmin : ℝ := 1e-3
  kmax : ℝ := 1e3
  nk : ℕ := 10
  ellMax : ℤ := 6

/-- `k_vec` (ia_radial_interface.py:41) -/
noncomputable def kVec (o : RadialOptions) (i : ℕ) : ℝ := logspace (log10 o.kmin) (log10 o.kmax) o.nk i

/-- the section `wkm`: masses, and the profile per redshift, mass and wavenumber -/
structure Wkm where
  mass : List ℝ
  w : ℕ → ℕ → ℕ → ℝ

/-- entry of a two-dimensional array -/
def at2 (q : List (List ℝ)) (i j : ℕ) : ℝ := (q.getD i []).getD j 0

/-- setup and execute of the radial module (ia_radial_interface.py:27-120) -/
noncomputable def radial (J : ℝ → ℝ → ℝ) (o : RadialOptions) (slope : ℝ) (amp : ℕ → ℝ) (h : Halo) : Except PyErr Wkm := do
  if o.ellMax > 11 then .error .valueError
  else
    let d ← downsample o.nmass h
    let angs ← angulars (Real.pi / 2) 0 slope (ells o.ellMax)
    .ok ⟨d.mass, fun jz im ik =>
      wkm (fun i => uell J (at2 d.rs jz im) (at2 d.c jz im) (d.rvir.getD im 0) (amp jz) slope i (kVec o ik)) angs⟩

/-- `get_satellite_alignment` (pk_lib.py:175-189): the profile of redshift `jz` at a wavenumber and mass of the spectra -/
noncomputable def satelliteAlignment (o : RadialOptions) (w : Wkm) (jz : ℕ) (k mass : ℝ) : ℝ :=
  (10 : ℝ) ^ Ia.gridInterp o.nk w.mass.length (fun i => log10 (kVec o i)) (fun j => log10 (w.mass.getD j 0))
    (fun i j => log10 (w.w jz j i / kVec o i ^ 2)) (log10 k) (log10 mass) * k ^ 2

end Verif.LegacyIa

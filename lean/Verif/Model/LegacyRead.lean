import Verif.Model.LegacyAdd

/-!
# What the legacy spectra read from the data block
(`/repo/cosmosis_modules/legacy/pk/pk_lib.py:72-152`, `pk_interface.py:157-170`; `pk_util.py:13-93` is an unused copy)

Simplifications: real numbers; every section is present and every array has the shape of its grids; two mass grids of
different lengths cannot be compared (numpy's `ValueError`; lengths of one, which numpy would broadcast, are not represented).
-/

namespace Verif.LegacyRead

open Verif.Lib

/-- the sections of the block read by `execute`; `hmf`, `halobias` and `fourier_nfw_profile` each carry grids of their own -/
structure Sections where
  lin : LegacyAdd.Sect
  nl : LegacyAdd.Sect
  /-- `growth_parameters` -/
  nGrowth : ℕ
  zGrowth : ℕ → ℝ
  dGrowth : ℕ → ℝ
  /-- `hmf` -/
  nm : ℕ
  mass : ℕ → ℝ
  nz : ℕ
  z : ℕ → ℝ
  dndlnm : ℕ → ℕ → ℝ
  /-- `halobias` -/
  massBias : ℕ → ℝ
  zBias : ℕ → ℝ
  bias : ℕ → ℕ → ℝ
  /-- `fourier_nfw_profile` -/
  nmProfile : ℕ
  massProfile : ℕ → ℝ
  zProfile : ℕ → ℝ
  kProfile : ℕ → ℝ
  ukm : ℕ → ℕ → ℕ → ℝ
  uksat : ℕ → ℕ → ℕ → ℝ

/-- the local variables of `execute` after reading -/
structure Loaded where
  nm : ℕ
  mass : ℕ → ℝ
  nz : ℕ
  zVec : ℕ → ℝ
  kVec : ℕ → ℝ
  dndlnm : ℕ → ℕ → ℝ
  bDm : ℕ → ℕ → ℝ
  uDm : ℕ → ℕ → ℕ → ℝ
  uSat : ℕ → ℕ → ℕ → ℝ
  plin : ℕ → ℕ → ℝ
  growthFactor : ℕ → ℝ
  scaleFactor : ℕ → ℝ
  /-- `pk_mm_in`, only assigned with `response` -/
  pkMmIn : Option (ℕ → ℕ → ℝ)

open Classical in
/-- `interpolate_in_z` (pk_lib.py:72-78) for arrays with a second axis: `interp1d` with its default bounds check -/
noncomputable def interpolateInZ (n : ℕ) (zIn : ℕ → ℝ) (grid : ℕ → ℕ → ℝ) (m : ℕ) (zOut : ℕ → ℝ) : Except PyErr (ℕ → ℕ → ℝ) :=
  if ∃ i < m, zOut i < zIn 0 ∨ zIn (n - 1) < zOut i then .error .valueError
  else .ok fun i l => interpLinear n zIn (fun j => grid j l) (zOut i)

/-- `log_linear_interpolation_k` (pk_lib.py:114-120) -/
noncomputable def logLinearK (n : ℕ) (kIn : ℕ → ℝ) (power : ℕ → ℕ → ℝ) (kOut : ℕ → ℝ) (i j : ℕ) : ℝ :=
  Real.exp (interp1d .extrapolate n (fun l => Real.log (kIn l)) (fun l => Real.log (power i l)) (Real.log (kOut j)))

/-- `get_linear_power_spectrum` or `get_nonlinear_power_spectrum`, then `log_linear_interpolation_k`
(pk_lib.py:80-87, 105-112; pk_interface.py:164-165, 169-170) -/
noncomputable def readPower (s : LegacyAdd.Sect) (m : ℕ) (zOut kOut : ℕ → ℝ) : Except PyErr (ℕ → ℕ → ℝ) := do
  let p ← interpolateInZ s.nz s.z s.p m zOut
  .ok (logLinearK s.nk s.k p kOut)

open Classical in
/-- `get_normalised_profile` (pk_lib.py:134-152): the masses are compared, redshifts and wavenumbers are not -/
noncomputable def getNormalisedProfile (S : Sections) (nm : ℕ) (mass : ℕ → ℝ) :
    Except PyErr ((ℕ → ℕ → ℕ → ℝ) × (ℕ → ℕ → ℕ → ℝ) × (ℕ → ℝ)) :=
  if S.nmProfile ≠ nm ∨ ∃ m < nm, S.massProfile m ≠ mass m then .error .valueError
  else .ok (S.ukm, S.uksat, S.kProfile)

/-- the reading part of `execute` (pk_interface.py:157-170); `get_halo_functions` (pk_lib.py:122-132) returns the masses and
redshifts of `hmf` and drops those of `halobias`; `get_growth_factor` is pk_lib.py:90-103 (its second axis is constant) -/
noncomputable def read (response : Bool) (S : Sections) : Except PyErr Loaded := do
  let (uDm, uSat, kVec) ← getNormalisedProfile S S.nm S.mass
  let plin ← readPower S.lin S.nz S.z kVec
  let growth ← interpolateInZ S.nGrowth S.zGrowth (fun j _ => S.dGrowth j) S.nz S.z
  let nl ← if response then (readPower S.nl S.nz S.z kVec).map some else .ok none
  .ok
    { nm := S.nm
      mass := S.mass
      nz := S.nz
      zVec := S.z
      kVec := kVec
      dndlnm := S.dndlnm
      bDm := S.bias
      uDm := uDm
      uSat := uSat
      plin := plin
      growthFactor := fun i => growth i 0
      scaleFactor := fun i => 1 / (1 + S.z i)
      pkMmIn := nl }

end Verif.LegacyRead

import Verif.Model.Pk

/-! # The same halo model in other units

A user may think in other units of length and mass.  `a` is the number of new length units in an old one, `m` the number of
new mass units in an old one: a length `x` becomes `a * x`, a mass `M` becomes `m * M`, a wavenumber `k / a`, a density of
number `n / a ^ 3`, a density of mass `m * ρ / a ^ 3`, a power spectrum `a ^ 3 * P`. -/

namespace Verif.Units

open Verif.Pk

/-- the inputs of the spectra in the new units; what has no dimension stays -/
noncomputable def inUnits (a m : ℝ) (s : Spectra) : Spectra where
  nonlinearMode := s.nonlinearMode
  hmcodeIngredients := s.hmcodeIngredients
  response := s.response
  pointmass := s.pointmass
  oneHaloKtrunc := s.oneHaloKtrunc.map (· / a)
  twoHaloKtrunc := s.twoHaloKtrunc.map (· / a)
  oneHaloKtruncIa := s.oneHaloKtruncIa.map (· / a)
  twoHaloKtruncIa := s.twoHaloKtruncIa.map (· / a)
  tEff := s.tEff
  mb := m * s.mb
  log10TAGN := s.log10TAGN
  omegaC := s.omegaC
  omegaB := s.omegaB
  omegaM := s.omegaM
  nm := s.nm
  zVec := s.zVec
  kVec k := s.kVec k / a
  mass i := m * s.mass i
  dndlnm z i := s.dndlnm z i / a ^ 3
  haloBias := s.haloBias
  meanDensity0 z := m * s.meanDensity0 z / a ^ 3
  uDm := s.uDm
  uSat := s.uSat
  sigma8z := s.sigma8z
  neff := s.neff
  growthFactor := s.growthFactor
  pkLin z k := a ^ 3 * s.pkLin z k
  pkNl z k := a ^ 3 * s.pkNl z k
  betaNl := s.betaNl
  fC := s.fC
  fS := s.fS
  hodCen := s.hodCen
  hodSat := s.hodSat
  numberDensity b z := s.numberDensity b z / a ^ 3
  numberDensityCen b z := s.numberDensityCen b z / a ^ 3
  numberDensitySat b z := s.numberDensitySat b z / a ^ 3
  avgHaloMassCen b z := m * s.avgHaloMassCen b z / a ^ 3
  fstar := s.fstar
  fstarMm := s.fstarMm
  poissonFunc := s.poissonFunc
  -- the amplitude is multiplied by a volume per mass in `C1` (pk.py:2154-2159)
  alignmentGi z := a ^ 3 / m * s.alignmentGi z
  betaCen := s.betaCen
  betaSat := s.betaSat
  mpivotCen := s.mpivotCen.map (m * ·)
  mpivotSat := s.mpivotSat.map (m * ·)
  wkmSat := s.wkmSat

/-- a result in the new units: powers are volumes, the bias is a number -/
noncomputable def resultInUnits (a : ℝ) (r : PkResult) : PkResult :=
  ⟨fun b z k => a ^ 3 * r.pk1h b z k, fun b z k => a ^ 3 * r.pk2h b z k, fun b z k => a ^ 3 * r.pkTot b z k,
    r.galaxyLinearBias⟩

/-- the halo-model matter spectrum has no built-in wavenumber, or the unit of length is kept -/
def MatterLength (a : ℝ) (s : Spectra) : Prop :=
  a = 1 ∨ s.nonlinearMode = .bnl ∨ s.nonlinearMode ≠ .hmcode ∧ s.twoHaloKtrunc = none

/-- the galaxy spectra have no built-in wavenumber, or the unit of length is kept -/
def GalaxyLength (a : ℝ) (s : Spectra) : Prop := a = 1 ∨ s.nonlinearMode = .bnl ∨ s.twoHaloKtrunc = none

/-- the matter profile has no built-in mass, or the unit of mass is kept -/
def MatterMass (m : ℝ) (s : Spectra) : Prop := m = 1 ∨ s.hmcodeIngredients ≠ .mead2020Feedback

end Verif.Units

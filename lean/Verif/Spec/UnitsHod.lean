import Verif.Model.Hod

/-! # The same occupation model in other units

As in `Spec/Units`: `a` new length units and `m` new mass units in an old one; `w` new units of the galaxy observable (stellar
mass or luminosity) in an old one.  Parameters that are decimal logarithms of masses or observables are shifted. -/

namespace Verif.Units

open Verif.Hod Verif.Lib

/-- the inputs of the occupation statistics in the new units; the occupations are numbers -/
noncomputable def hodInUnits (a m : ℝ) (h : Base) : Base where
  nzv := h.nzv
  zVec := h.zVec
  nm := h.nm
  mass i := m * h.mass i
  dndlnm z i := h.dndlnm z i / a ^ 3
  haloBias := h.haloBias
  nz := h.nz
  z := h.z
  occCen := h.occCen
  occSat := h.occSat

/-- parameters of `Simple` and `Zehavi` in the new unit of mass -/
noncomputable def stepInUnits (m : ℝ) (p : StepParams) : StepParams :=
  { p with log10Mmin := p.log10Mmin + log10 m, log10Msat := p.log10Msat + log10 m }

/-- parameters of `Zheng` in the new unit of mass; the scatter is a number -/
noncomputable def zhengInUnits (m : ℝ) (p : ZhengParams) : ZhengParams :=
  { p with log10Mmin := p.log10Mmin + log10 m, log10M0 := p.log10M0 + log10 m, log10M1 := p.log10M1 + log10 m }

/-- parameters of `Zhai` in the new unit of mass -/
noncomputable def zhaiInUnits (m : ℝ) (p : ZhaiParams) : ZhaiParams :=
  { p with log10Mmin := p.log10Mmin + log10 m, log10Msat := p.log10Msat + log10 m, log10Mcut := p.log10Mcut + log10 m }

/-- parameters of `Cacciato` in the new units of mass and observable -/
noncomputable def cacciatoInUnits (m w : ℝ) (p : CacciatoParams) : CacciatoParams :=
  { p with log10ObsNormC := p.log10ObsNormC + log10 w, log10Mch := p.log10Mch + log10 m, pivot := p.pivot + log10 m }

end Verif.Units

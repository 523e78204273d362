import Verif.Model.Pk
import Verif.Model.Hod

/-! # How `pk.py` uses the occupation model -/

namespace Verif.Pk.Spectra

/-- The `hod` object built by the spectra (pk.py:1657-1676): it gets the spectra's mass grid, mass function,
bias and redshifts; `nzv` is `z_vec.size`, `z` the redshift nodes from `hod_settings` and `occCen`,
`occSat` the occupations of the chosen class. -/
def buildHod (s : Spectra) (nzv nz : ℕ) (z : ℕ → ℕ → ℝ) (occCen occSat : ℕ → ℕ → ℕ → ℝ) : Hod.Base where
  nzv := nzv
  zVec := s.zVec
  nm := s.nm
  mass := s.mass
  dndlnm := s.dndlnm
  haloBias := s.haloBias
  nz := nz
  z := z
  occCen := occCen
  occSat := occSat

/-- The spectra reading that object: `hod.f_c`, `hod.hod_cen`, ... (pk.py:1689-1699, 1795-1827). -/
noncomputable def useHod (s : Spectra) (h : Hod.Base) : Spectra :=
  { s with
    fC := h.fC
    fS := h.fS
    hodCen := h.hodCen
    hodSat := h.hodSat
    numberDensity := h.numberDensity
    numberDensityCen := h.numberDensityCen
    numberDensitySat := h.numberDensitySat
    avgHaloMassCen := h.avgHaloMassCen }

/-- The spectra with the occupation model they build. -/
noncomputable def withHod (s : Spectra) (nzv nz : ℕ) (z : ℕ → ℕ → ℝ) (occCen occSat : ℕ → ℕ → ℕ → ℝ) :
    Spectra := s.useHod (s.buildHod nzv nz z occCen occSat)

end Verif.Pk.Spectra

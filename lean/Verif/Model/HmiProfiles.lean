import Mathlib.Analysis.SpecialFunctions.Pow.Real

/-! # Model of the profile normalisation of `/repo/src/onepower/hmi.py` -/

namespace Verif.Hmi

/-- `u_dm` (hmi.py:1427-1437): the raw profile `nfw_cen` (hmi.py:1415-1425, entry `[z, k, m]`) divided by
its value at the first wavenumber. -/
noncomputable def uDm (nfwCen : ℕ → ℕ → ℕ → ℝ) (z k m : ℕ) : ℝ := nfwCen z k m / nfwCen z 0 m

/-- `u_sat` (hmi.py:1489-1499): the same for `nfw_sat` (hmi.py:1477-1487). -/
noncomputable def uSat (nfwSat : ℕ → ℕ → ℕ → ℝ) (z k m : ℕ) : ℝ := nfwSat z k m / nfwSat z 0 m

end Verif.Hmi

import Verif.Lib.Rounded
import Verif.Model.Hod

/-!
# The mass integrals of `/repo/src/onepower/hod.py` in floating-point numbers

The formulas of `Model/Hod` at the redshift nodes, with every operation rounded.  `n` (mass function), `b` (halo bias) and
the occupations are the stored values at one redshift node of one bin, as functions of the mass index.
-/

namespace Verif.HodRounded

open Verif.Lib

variable {R : Rounding}

/-- `_mass_integral` (hod.py:272-287) -/
noncomputable def massIntegral (nm : ℕ) (mass : ℕ → ℝ) (n : ℕ → ℝ) (N : ℕ → Fl R) : Fl R :=
  Fl.simpson nm (fun m => ((mass m : ℝ) : Fl R)) (fun m => N m * ((n m : ℝ) : Fl R) / ((mass m : ℝ) : Fl R))

/-- `_mean_mass_integral` (hod.py:289-304) -/
noncomputable def meanMassIntegral (nm : ℕ) (mass : ℕ → ℝ) (n : ℕ → ℝ) (N : ℕ → Fl R) : Fl R :=
  Fl.simpson nm (fun m => ((mass m : ℝ) : Fl R)) (fun m => N m * ((n m : ℝ) : Fl R))

/-- `_compute_hod` (hod.py:671-676) -/
noncomputable def occ (c s : ℕ → ℝ) (m : ℕ) : Fl R := ((c m : ℝ) : Fl R) + ((s m : ℝ) : Fl R)

/-- `_ntot` (hod.py:369-377) -/
noncomputable def ntot (nm : ℕ) (mass n c s : ℕ → ℝ) : Fl R := massIntegral nm mass n (occ c s)

/-- the fractions `_ncen / _ntot`, `_nsat / _ntot` (hod.py:469-493) -/
noncomputable def fraction (nm : ℕ) (mass n c s : ℕ → ℝ) (N : ℕ → ℝ) : Fl R :=
  massIntegral nm mass n (fun m => ((N m : ℝ) : Fl R)) / ntot nm mass n c s

/-- `_bias_integral` (hod.py:306-321) -/
noncomputable def biasIntegral (nm : ℕ) (mass n b c s : ℕ → ℝ) (N : ℕ → Fl R) : Fl R :=
  Fl.simpson nm (fun m => ((mass m : ℝ) : Fl R))
    (fun m => N m * ((b m : ℝ) : Fl R) * ((n m : ℝ) : Fl R) / ((mass m : ℝ) : Fl R)) / ntot nm mass n c s

end Verif.HodRounded

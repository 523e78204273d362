import Verif.Model.Ia
import Verif.Lib.Interp
import Verif.Lib.Special
import Mathlib.MeasureTheory.Integral.Bochner.Set

/-! # The satellite alignment profile on the grid of the spectra (`ia.py:629-639, 1020-1080`)

`RegularGridInterpolator((x, y), v, bounds_error=False, fill_value=None)` is external: it looks for the cell
`x[i] <= q < x[i+1]` (the first or last cell outside the grid) in each direction and is bilinear there. -/

namespace Verif.Ia

open Verif.Lib Finset

/-- the wavenumbers of the profile: `np.logspace(np.log10(1e-3), np.log10(1e3), nk)` (ia.py:629-639) -/
noncomputable def kGrid (nk i : ℕ) : ℝ := (10 : ℝ) ^ (-3 + (i : ℝ) * (6 / ((nk : ℝ) - 1)))

/-- how many wavenumbers (ia.py:638) -/
def nkOf (method : String) (nk : ℕ) : ℕ := if method = "fftlog" then 100 else nk

open Classical in
/-- the cell of scipy's `RegularGridInterpolator` in one direction -/
noncomputable def cell (n : ℕ) (x : ℕ → ℝ) (q : ℝ) : ℕ := min (((range n).filter fun i => x i ≤ q).card - 1) (n - 2)

/-- the relative position in that cell -/
noncomputable def cellPos (n : ℕ) (x : ℕ → ℝ) (q : ℝ) : ℝ :=
  (q - x (cell n x q)) / (x (cell n x q + 1) - x (cell n x q))

/-- `RegularGridInterpolator((x, y), v, fill_value=None)((p, q))` -/
noncomputable def gridInterp (n m : ℕ) (x y : ℕ → ℝ) (v : ℕ → ℕ → ℝ) (p q : ℝ) : ℝ :=
  let i := cell n x p
  let j := cell m y q
  let s := cellPos n x p
  let t := cellPos m y q
  (1 - s) * (1 - t) * v i j + (1 - s) * t * v i (j + 1) + s * (1 - t) * v (i + 1) j + s * t * v (i + 1) (j + 1)

/-- `upsampled_wkm` with `method='hankel'` (ia.py:1046-1068), at one redshift: `w im ik` is `wkm_f_ell[jz, im, ik]` on
`nm` masses and `nk` wavenumbers. -/
noncomputable def upsampledHankel (nk nm : ℕ) (k mass : ℕ → ℝ) (w : ℕ → ℕ → ℝ) (kOut massOut : ℝ) : ℝ :=
  (10 : ℝ) ^ gridInterp nk nm (fun i => log10 (k i)) (fun j => log10 (mass j))
    (fun i j => log10 (w j i / k i ^ 2)) (log10 kOut) (log10 massOut) * kOut ^ 2

/-- `upsampled_wkm` with `method='fftlog'` (ia.py:1070-1080), at one redshift and input mass; the masses asked for are
not looked at; `nk` is the number of wavenumbers asked for. -/
noncomputable def upsampledFftlog (nk : ℕ) (w : ℕ → ℝ) (kOut : ℝ) : ℝ :=
  interp1d .extrapolate (nkOf "fftlog" nk) (kGrid (nkOf "fftlog" nk)) w kOut

/-! ## The multipoles of the profile (`ia.py:932-1017`)

`HankelTransform(nu, N, h).transform(f, k)` (package hankel) and `fht(a, dln, mu)` (scipy) are external; they are modelled
by the integrals they approximate, for an arbitrary Bessel function `J`. -/

open MeasureTheory in
/-- hankel: `∫ f(r) J_nu(k r) r dr` -/
noncomputable def hankelTransform (J : ℝ → ℝ → ℝ) (nu : ℝ) (f : ℝ → ℝ) (k : ℝ) : ℝ :=
  ∫ r in Set.Ioi 0, f r * J nu (k * r) * r

open MeasureTheory in
/-- scipy's `fht`: `∫ a(r) J_mu(k r) k dr` -/
noncomputable def fht (J : ℝ → ℝ → ℝ) (mu : ℝ) (a : ℝ → ℝ) (k : ℝ) : ℝ :=
  ∫ r in Set.Ioi 0, a r * J mu (k * r) * k

/-- `mnfw` (ia.py:957-962) at one redshift and mass -/
noncomputable def mnfw (rs c : ℝ) : ℝ := 4 * Real.pi * rs ^ 3 * (Real.log (1 + c) - c / (1 + c))

/-- one entry of `compute_uell_gamma_r_hankel` with `method='hankel'` (ia.py:968-984): `prof` is the radial profile
`gamma_r_nfw_profile` at this redshift and mass. -/
noncomputable def uellHankel (J : ℝ → ℝ → ℝ) (prof : ℝ → ℝ) (m : ℝ) (ell : ℕ) (k : ℝ) : ℝ :=
  hankelTransform J (ell + 0.5) (fun x => prof x * Real.sqrt (x * Real.pi / 2)) k / (k ^ (0.5 : ℝ) * m)

/-- one entry of `compute_uell_gamma_r_hankel` with `method='fftlog'` (ia.py:986-1009), before the interpolation in
wavenumber -/
noncomputable def uellFftlog (J : ℝ → ℝ → ℝ) (prof : ℝ → ℝ) (m : ℝ) (ell : ℕ) (k : ℝ) : ℝ :=
  fht J (ell + 0.5) (fun r => prof r * r ^ (1.5 : ℝ) * Real.sqrt (Real.pi / 2)) k / (k ^ (1.5 : ℝ) * m)

/-- the radial profile at redshift `z` and mass `m` as set up by the spectra (pk.py:2074-2095, ia.py:970-979): scale radius
and amplitude of that redshift, but the virial radius `rvir_cen[0]` of the first one -/
noncomputable def radialProfile (rs : ℕ → ℕ → ℝ) (rvirCen : ℕ → ℕ → ℝ) (amp : ℕ → ℝ) (slope rcore : ℝ) (truncate : Bool)
    (z m : ℕ) (r : ℝ) : ℝ :=
  gammaRNfwProfile r (rs z m) (rvirCen 0 m) (amp z) slope rcore truncate

end Verif.Ia

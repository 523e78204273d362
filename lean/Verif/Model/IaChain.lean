import Verif.Model.IaUpsample
import Verif.Model.Pk

/-!
# From the alignment parameters to the inputs of the spectra

`pk.py:2075-2175` builds a `SatelliteAlignment` with the method `fftlog`; its amplitudes and its profile
(`ia.py:380-450, 873-1017, 1031-1080`) are what the alignment spectra read.  The steps are those of `Model/Ia` and
`Model/IaUpsample`; here they are joined.  scipy's `fht` is external: it is an arbitrary map of the 512 samples.  Without
down-sampling (method `fftlog`) all masses are used.
-/

namespace Verif.IaChain

open Verif.Lib Verif.Ia

/-- `fht(·, dlnr, mu=ell + 0.5, …)` and the wavenumbers it belongs to, for the number of the multipole (ia.py:986-1009) -/
structure Transform where
  fht : ℕ → (ℕ → ℝ) → ℕ → ℝ
  k : ℕ → ℕ → ℝ

/-- the arguments of `SatelliteAlignment` besides the amplitudes (ia.py:470-513, pk.py:2085-2095) -/
structure Halos where
  rs : ℕ → ℕ → ℝ
  rvirCen : ℕ → ℕ → ℝ
  conc : ℕ → ℕ → ℝ
  slope : ℝ
  truncate : Bool
  ellMax : ℤ
  nk : ℕ

/-- the core radius, a default argument that is never given (ia.py:897) -/
noncomputable def rcore : ℝ := 0.06

/-- `r = np.logspace(-8, 8, 512)` (ia.py:990-992) -/
noncomputable def radius (j : ℕ) : ℝ := (10 : ℝ) ^ (-8 + (j : ℝ) * (16 / 511))

/-- one entry of `ft` (ia.py:996-1009) -/
noncomputable def multipole (T : Transform) (x : Halos) (amp : ℕ → ℝ) (z m i j : ℕ) : ℝ :=
  T.fht i (fun j => radialProfile x.rs x.rvirCen amp x.slope rcore x.truncate z m (radius j) * radius j ^ (1.5 : ℝ) *
    Real.sqrt (Real.pi / 2)) j / (T.k i j ^ (1.5 : ℝ) * mnfw (x.rs z m) (x.conc z m))

/-- one entry of `compute_uell_gamma_r_hankel` (ia.py:1010-1017) -/
noncomputable def uell (T : Transform) (x : Halos) (amp : ℕ → ℝ) (z m k i : ℕ) : ℝ :=
  interp1d .extrapolate 512 (T.k i) (multipole T x amp z m i) (kGrid (nkOf "fftlog" x.nk) k)

/-- one entry of `wkm_f_ell` (ia.py:873-895) -/
noncomputable def wkm (T : Transform) (x : Halos) (amp : ℕ → ℝ) (z m k : ℕ) : Except PyErr ℝ :=
  wkmFEll x.ellMax (uell T x amp z m k) x.slope

/-- the alignment inputs of the spectra are those of these parameters (pk.py:2121-2175) -/
structure Inputs (T : Transform) (x : Halos) (a : Amplitudes) (s : Pk.Spectra) : Prop where
  central : a.alignmentGi = .ok (some s.alignmentGi)
  satellite : ∃ (amp : ℕ → ℝ) (w : ℕ → ℕ → ℕ → ℝ), a.gamma1hAmp = .ok (some amp) ∧ (∀ z m k, wkm T x amp z m k = .ok (w z m k)) ∧
    ∀ z k m, s.wkmSat z k m = upsampledFftlog x.nk (w z m) (s.kVec k)

/-- the parameters with both amplitudes multiplied -/
def withAmplitudes (a : Amplitudes) (l m : ℝ) : Amplitudes := { a with gamma2h := l * a.gamma2h, gamma1h := m * a.gamma1h }

end Verif.IaChain

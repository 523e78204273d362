import Verif.Model.PkReaders
import Verif.Lib.GaussianFilter

/-!
# Dewiggling with the filter the code calls

`Verif.Pk.Wiggle` leaves `gaussian_filter1d` arbitrary.  Here it is scipy's filter with the default arguments of the
call at pk.py:2731.
-/

namespace Verif.Pk

open Verif.Lib

/-- the settings of `dewiggle_plin` (pk.py:643-671) and `get_Pk_wiggle` (pk.py:2692-2734) with scipy's filter along
the `nk` wavenumbers; the logarithm `lnt` of the no-wiggle transfer function (hmf) stays arbitrary -/
noncomputable def scipyWiggle (nk : ℕ) (k : ℕ → ℝ) (ns : ℝ) (lnt : ℝ → ℝ) : Wiggle where
  nk := nk
  k := k
  ns := ns
  lnt := lnt
  gauss := gaussianFilter1d nk

/-! ## Legacy -/

/-- the cosmological parameters read by `dewiggle` (pk_lib.py:993-996): `h0`, `ombh2`, `ommh2`, `n_s`, `TCMB` -/
structure LegacyCosmo where
  h : ℝ
  ombh2 : ℝ
  ommh2 : ℝ
  ns : ℝ
  tcmb : ℝ

namespace LegacyCosmo

variable (c : LegacyCosmo)

/-- `s` (pk_lib.py:956) -/
noncomputable def soundHorizon : ℝ :=
  44.5 * Real.log (9.83 / c.ommh2) / Real.sqrt (1 + 10 * c.ombh2 ^ (0.75 : ℝ))

/-- `alpha` (pk_lib.py:955,957) -/
noncomputable def alpha : ℝ :=
  let rb := c.ombh2 / c.ommh2
  1 - 0.328 * Real.log (431 * c.ommh2) * rb + 0.38 * Real.log (22.3 * c.ommh2) * rb ^ 2

/-- `Gamma` (pk_lib.py:959) -/
noncomputable def gammaEff (k : ℝ) : ℝ :=
  c.ommh2 / c.h * (c.alpha + (1 - c.alpha) / (1 + (0.43 * k * c.soundHorizon * c.h) ^ 4))

/-- `Tk_EH_nowiggle` (pk_lib.py:951-964) -/
noncomputable def tkNowiggle (k : ℝ) : ℝ :=
  let q := k * (c.tcmb / 2.7) ^ 2 / c.gammaEff k
  let L := Real.log (2 * Real.exp 1 + 1.8 * q)
  let C := 14.2 + 731 / (1 + 62.5 * q)
  L / (L + C * q ^ 2)

end LegacyCosmo

/-- `sigmaV` (pk_lib.py:966-972) -/
noncomputable def legacySigmaV (nk : ℕ) (power k : ℕ → ℝ) : ℝ :=
  Real.sqrt (0.5 / Real.pi ^ 2 * simpsonDx nk (Real.log (k 1 / k 0)) (fun i => power i * k i) / 3)

/-- `get_Pk_wiggle` (pk_lib.py:974-991) for rows of `nk` wavenumbers -/
noncomputable def legacyGetPkWiggle (c : LegacyCosmo) (nk : ℕ) (k : ℕ → ℝ) (plin : ℕ → ℕ → ℝ) :
    Except PyErr (ℕ → ℕ → ℝ) :=
  match npDiff nk k with
  | [] => .error .indexError
  | d :: ds =>
    if ! npIsclose (boolNum (npAll ((d :: ds).map fun x => x - d))) 0 then .error .valueError
    else
      let sigma := 0.25 / Real.log (k 1 / k 0)
      let nowiggle : ℕ → ℝ := fun i => k i ^ c.ns * c.tkNowiggle (k i) ^ 2
      .ok fun z i => plin z i - gaussianFilter1d nk sigma (fun j => plin z j / nowiggle j) i * nowiggle i

/-- `dewiggle` (pk_lib.py:993-998) -/
noncomputable def legacyDewiggle (c : LegacyCosmo) (nk : ℕ) (k : ℕ → ℝ) (plin : ℕ → ℕ → ℝ) :
    Except PyErr (ℕ → ℕ → ℝ) :=
  if nk < 2 then .error .indexError
  else match legacyGetPkWiggle c nk k plin with
    | .error e => .error e
    | .ok wig => .ok fun z i =>
        plin z i - (1 - Real.exp (-((k i * legacySigmaV nk (plin z) k) ^ 2))) * wig z i

end Verif.Pk

import Verif.Lib.HmfCache
import Mathlib.Analysis.SpecialFunctions.Pow.Real

/-!
# Some of onepower's parameters and cached quantities, as programs of the cache machinery

The class below lists, with their real reading order, quantities of `hmi.py` and `pk.py` on which the
caching properties are stated.  Parameter kinds are those of the decorators in the source: `nonlinear_mode`
and `response` are `switch` (pk.py:217, 277), everything else is `param` or `model` (hmi.py:121-853,
pk.py:232-415), in particular `hmcode_ingredients` (hmi.py:626).
-/

namespace Verif.Cached

open Verif.Cache

/-- the Python values occurring as parameters -/
inductive PyVal
  | none
  | str (s : String)
  | num (x : ℝ)
  | arr (l : List ℝ)

namespace PyVal

/-- a float (anything else would be a TypeError in Python) -/
noncomputable def toNum : PyVal → ℝ
  | num x => x
  | _ => 0

/-- an array -/
noncomputable def toArr : PyVal → List ℝ
  | arr l => l
  | _ => []

instance : Inhabited PyVal := ⟨.none⟩

end PyVal

open PyVal

/-- numbers of the modelled quantities -/
abbrev qCosmo : ℕ := 0
/-- `omega_m` -/
abbrev qOmegaM : ℕ := 1
/-- `K` -/
abbrev qK : ℕ := 2
/-- the cold dark matter fraction used by the feedback profile -/
abbrev qDmFrac : ℕ := 3
/-- the baryon fraction used by the feedback profile -/
abbrev qBaryonFrac : ℕ := 4
/-- `scale_factor` -/
abbrev qScale : ℕ := 5
/-- `peff` -/
abbrev qPeff : ℕ := 6

/-- `cosmo_model` (hmi.py:229-248); the astropy object is represented by its constructor arguments
`[H0, Ob0, Om0, Neff, m_nu, Tcmb0, w0, wa]`. -/
noncomputable def cosmoCode : Prog String PyVal qCosmo :=
  .param "h0" fun h => .param "omega_b" fun ob => .param "omega_c" fun oc => .param "omega_b" fun ob' =>
  .param "Neff" fun neff => .param "m_nu" fun mnu => .param "tcmb" fun t => .param "w0" fun w0 =>
  .param "wa" fun wa =>
  .ret (.arr [h.toNum * 100, ob.toNum, oc.toNum + ob'.toNum, neff.toNum, mnu.toNum, t.toNum, w0.toNum,
    wa.toNum])

/-- `omega_m` (hmi.py:250-253): `functools.cached_property` returning `cosmo_model.Om0`. -/
noncomputable def omegaMCode : Prog String PyVal qOmegaM :=
  .quant ⟨qCosmo, by decide⟩ fun c => .ret (.num (c.toArr.getD 2 0))

/-- `K` (hmi.py:1066-1087). -/
noncomputable def kCode : Prog String PyVal qK :=
  .param "hmcode_ingredients" fun hm =>
    match hm with
    | .str "mead2020" => .param "z_vec" fun z => .ret (.arr (z.toArr.map fun _ => 5.196))
    | .str "mead2020_feedback" =>
      .param "log10T_AGN" fun t => .param "z_vec" fun z =>
        .ret (.arr (z.toArr.map fun z => 5.196 / 4 * ((3.44 - 0.496 * (t.toNum - 7.8))
          * (10 : ℝ) ^ (z * (-0.0671 - 0.0371 * (t.toNum - 7.8))))))
    | _ => .param "z_vec" fun z => .ret (.arr (z.toArr.map fun _ => 0))

/-- `omega_c / omega_m` inside the feedback profile (pk.py:778, 839); its reads are those of the cached
quantity containing it. -/
noncomputable def dmFracCode : Prog String PyVal qDmFrac :=
  .param "omega_c" fun oc => .quant ⟨qOmegaM, by decide⟩ fun om => .ret (.num (oc.toNum / om.toNum))

/-- `omega_b / omega_m` inside the gas fraction (pk.py:1442, 1477). -/
noncomputable def baryonFracCode : Prog String PyVal qBaryonFrac :=
  .param "omega_b" fun ob => .quant ⟨qOmegaM, by decide⟩ fun om => .ret (.num (ob.toNum / om.toNum))

/-- `scale_factor` (hmi.py:255-265). -/
noncomputable def scaleCode : Prog String PyVal qScale :=
  .param "z_vec" fun z => .ret (.arr (z.toArr.map fun z => 1 / (1 + z)))

open Classical in
/-- `peff` (pk.py:500-514), with both spectra supplied by the caller (then `_pk_nl` and `_pk_lin` return the
parameters, pk.py:439-498); flattened arrays of equal length. -/
noncomputable def peffCode : Prog String PyVal qPeff :=
  .param "nonlinear_mode" fun m =>
    if m = .str "fortuna" then
      .param "t_eff" fun t => .param "matter_power_nl" fun nl => .param "matter_power_lin" fun lin =>
        .ret (.arr (List.zipWith (fun a b => (1 - t.toNum) * a + t.toNum * b) nl.toArr lin.toArr))
    else .ret .none

/-- the class with these quantities; all other numbers are quantities returning `None` -/
noncomputable def cls : Cls String PyVal where
  isSwitch p := p = "nonlinear_mode" || p = "response"
  kind q := if q = qOmegaM then .frozen else .tracked
  code
    | 0 => cosmoCode
    | 1 => omegaMCode
    | 2 => kCode
    | 3 => dmFracCode
    | 4 => baryonFracCode
    | 5 => scaleCode
    | 6 => peffCode
    | _ + 7 => .ret .none

end Verif.Cached

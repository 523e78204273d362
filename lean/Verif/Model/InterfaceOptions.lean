import Verif.Model.Interface

/-!
# The complete `setup` of the CosmoSIS interface

`/repo/cosmosis_modules/onepower_interface.py:144-258, 582-685`.  `Model/Interface` has the parts of `setup` that other
properties need; here every option is read, in the order of the code.

Simplifications: the redshift array is kept as its three numbers; the constants `lnk_min`, `lnk_max`, `dlnk` and the `Spectra`
object are left out.
-/

namespace Verif.Interface

open Verif.Lib

/-- `setup_pipeline_parameters` (onepower_interface.py:191-258) with all options -/
structure PipelineAll where
  base : Pipeline
  oneHaloIa : SN
  twoHaloIa : SN
  oneHalo : SN
  twoHalo : SN
  dewiggle : Bool
  pointMass : Bool

/-- `setup_pipeline_parameters` (onepower_interface.py:191-258) -/
noncomputable def setupPipelineAll (o : Options) : Except PyErr PipelineAll := do
  let a ← getBool (o "p_mm") false
  let b ← getBool (o "p_gg") false
  let c ← getBool (o "p_gm") false
  let d ← getBool (o "p_gI") false
  let e ← getBool (o "p_mI") false
  let f ← getBool (o "p_II") false
  let r ← getBool (o "response") false
  let s ← getBool (o "split_ia") false
  let k1 ← getStringOrNone (o "one_halo_ktrunc_ia") (some 4)
  let k2 ← getStringOrNone (o "two_halo_ktrunc_ia") (some 6)
  let k3 ← getStringOrNone (o "one_halo_ktrunc") (some 0.1)
  let k4 ← getStringOrNone (o "two_halo_ktrunc") (some 2)
  let hm ← getStringOrNone (o "hmcode_ingredients") none
  let nl ← getStringOrNone (o "nonlinear_mode") none
  let dw ← getBool (o "dewiggle") false
  let pm ← getBool (o "point_mass") false
  let po ← getString (o "poisson_type") (some "")
  return ⟨⟨a, b, c, d, e, f, r, s, hm, nl, po⟩, k1, k2, k3, k4, dw, pm⟩

/-- `config_hmf` (onepower_interface.py:144-188) -/
structure HmfConfig where
  logMassMin : ℝ
  logMassMax : ℝ
  dlog10m : ℝ
  zMin : ℝ
  zMax : ℝ
  nz : ℕ
  nk : ℤ
  profileCen : String
  profileSat : String
  profileValueName : String
  hmfModel : String
  mdefModel : String
  overdensity : ℝ
  cmModelCen : String
  cmModelSat : String
  deltaC : ℝ
  biasModel : String

/-- `z_vec` (onepower_interface.py:156-160) -/
noncomputable def HmfConfig.zVec (c : HmfConfig) (i : ℕ) : ℝ := npLinspace c.zMin c.zMax c.nz i

/-- `setup_hmf_config` (onepower_interface.py:144-188); `np.linspace` refuses a negative number of points -/
noncomputable def setupHmfConfig (o : Options) : Except PyErr HmfConfig := do
  let m ← massGrid o
  let z0 ← getDouble (o "zmin_hmf") (some 0)
  let z1 ← getDouble (o "zmax_hmf") (some 3)
  let nz ← getInt (o "nz_hmf") 15
  if nz < 0 then .error .valueError else do
    let nk ← getInt (o "nk") 100
    let pc ← getString (o "profile_cen") (some "NFW")
    let ps ← getString (o "profile_sat") (some "NFW")
    let pv ← getString (o "profile_value_name") (some "profile_parameters")
    let hm ← getString (o "hmf_model") (some "Tinker10")
    let md ← getString (o "mdef_model") (some "SOMean")
    let od ← getDouble (o "overdensity") (some 200)
    let cc ← getString (o "cm_model_cen") (some "Duffy08")
    let cs ← getString (o "cm_model_sat") (some "Duffy08")
    let dc ← getDouble (o "delta_c") (some 1.686)
    let bm ← getString (o "bias_model") (some "Tinker10")
    return ⟨m.1, m.2.1, m.2.2, z0, z1, nz.toNat, nk, pc, ps, pv, hm, md, od, cc, cs, dc, bm⟩

/-- what `setup` returns (onepower_interface.py:641-685) -/
structure Config (V : Type) where
  pipeline : PipelineAll
  hod : HodSetup
  hmf : HmfConfig
  bnl : Option (BnlCache V)

/-- `setup` (onepower_interface.py:582-685) -/
noncomputable def setupAll (V : Type) (haveDarkemu : Bool) (o : Options) : Except PyErr (Config V) := do
  let p ← setupPipelineAll o
  let h ← setupHod o p.base.galaxy p.base.alignment p.base.splitIa
  let m ← setupHmfConfig o
  let c ← setupBnl V haveDarkemu o p.base.nonlinear
  return ⟨p, h, m, c⟩

end Verif.Interface

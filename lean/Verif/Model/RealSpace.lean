import Verif.Lib.Interp
import Verif.Lib.Simpson
import Verif.Lib.Numpy
import Verif.Lib.Py
import Mathlib.Analysis.SpecialFunctions.Log.Base
import Mathlib.Analysis.SpecialFunctions.Trigonometric.Basic

/-!
# Correlation functions in the CosmoSIS modules

`/repo/cosmosis_modules/pk_to_real/pk_to_real.py` (Hankel transform of the power spectra),
`/repo/cosmosis_modules/pk_to_real/correct_cosmo_real.py` (change of cosmology) and
`/repo/cosmosis_modules/convert_theta/convert_theta.py` (angular units).

The FFTLog algorithm (`pyfftlog.fht`) and the product `kr` chosen by `pyfftlog.fhti` are parameters here; they are
modelled in `Model/FftLog` and put in place by `FftLog.UsesFftLog`.  Cosmological distances (astropy) are parameters.
-/

namespace Verif.RealSpace

open Verif.Lib

/-! ## Interpolation -/

/-- which quantity is interpolated (pk_to_real.py:47-59) -/
inductive Kind
  | loglog
  | minusLoglog
  | logAng
  deriving DecidableEq

open Classical in
/-- the branch chosen in `LogInterp.__init__` (pk_to_real.py:48-59) -/
noncomputable def kindOf (n : ℕ) (spec : ℕ → ℝ) : Kind :=
  if ∀ i < n, 0 < spec i then .loglog
  else if ∀ i < n, spec i < 0 then .minusLoglog
  else .logAng

/-- `LogInterp(angle, spec, 'linear')(x)` (pk_to_real.py:47-69) -/
noncomputable def logInterp (n : ℕ) (angle spec : ℕ → ℝ) (x : ℝ) : ℝ :=
  match kindOf n spec with
  | .loglog => Real.exp (interpLinear n (fun i => Real.log (angle i)) (fun i => Real.log (spec i)) (Real.log x))
  | .minusLoglog => -Real.exp (interpLinear n (fun i => Real.log (angle i)) (fun i => Real.log (-spec i)) (Real.log x))
  | .logAng => interpLinear n (fun i => Real.log (angle i)) spec (Real.log x)

/-! ## Hankel transform -/

/-- the constants of a `Transformer` (pk_to_real.py:79-125): `kr` is the product chosen by `pyfftlog.fhti`, `fht` the
inverse transform with bias 0 (both transform types have `q = 0`) -/
structure Transformer where
  n : ℕ
  kMin : ℝ
  kMax : ℝ
  rpMin : ℝ
  rpMax : ℝ
  kr : ℝ
  fht : (ℕ → ℝ) → ℕ → ℝ

namespace Transformer

variable (T : Transformer)

/-- the internal wavenumbers (pk_to_real.py:88) -/
noncomputable def k (i : ℕ) : ℝ := (10 : ℝ) ^ npLinspace (Real.logb 10 T.kMin) (Real.logb 10 T.kMax) T.n i

/-- pk_to_real.py:90 -/
noncomputable def dlogr : ℝ := Real.log (T.k 1) - Real.log (T.k 0)

/-- the separations (pk_to_real.py:114-123) -/
noncomputable def rp (i : ℕ) : ℝ :=
  let nc : ℝ := 0.5 * (T.n + 1)
  let kMid := Real.exp (0.5 * (Real.log T.kMin + Real.log T.kMax))
  Real.exp ((i - nc) * T.dlogr) * (T.kr / kMid)

open Classical in
/-- indices of the separations that are kept (pk_to_real.py:125) -/
noncomputable def kept : List ℕ := (List.range T.n).filter fun i => decide (T.rpMin < T.rp i ∧ T.rp i < T.rpMax)

/-- the transform on the whole internal grid (pk_to_real.py:128-142, 144-156) -/
noncomputable def xi (nk : ℕ) (kIn pk : ℕ → ℝ) (i : ℕ) : ℝ :=
  T.fht (fun j => T.k j * logInterp nk kIn pk (T.k j)) i / (2 * Real.pi) / T.rp i

end Transformer

/-- the power spectrum section of one bin -/
structure Spectrum where
  nk : ℕ
  k : ℕ → ℝ
  nz : ℕ
  z : ℕ → ℝ
  pk : ℕ → ℕ → ℝ

/-- the redshift distribution of one bin -/
structure Kernel where
  n : ℕ
  z : ℕ → ℝ
  val : ℕ → ℝ

/-- the two transform types -/
inductive CorrType
  | wp
  | ds
  deriving DecidableEq

/-- `load_kernel` (pk_to_real.py:264-271) with extrapolation value 0 -/
noncomputable def loadKernel (kn : Kernel) (z : ℝ) : ℝ := interp1d (.value 0) kn.n kn.z kn.val z

/-- the correlation function of one bin at internal separation `i` (pk_to_real.py:239-256).  `simpson(y, z)` with the
second argument passed by position needs a scipy that still accepts this. -/
noncomputable def binOutput (T : Transformer) (c : CorrType) (density : ℝ) (s : Spectrum) (kn : Kernel) (i : ℕ) : ℝ :=
  let y := simpson s.nz s.z fun j => loadKernel kn (s.z j) * T.xi s.nk s.k (s.pk j) i * density
  match c with
  | .ds => y / 1e12
  | .wp => y

/-- name of the input section of bin `i` (pk_to_real.py:231-234) -/
def inputSection (base : String) (suffixes : Option (List String)) (i : ℕ) : Except PyErr String :=
  match suffixes with
  | none => .ok base
  | some l => match l[i]? with
    | some s => .ok (base ++ "_" ++ s)
    | none => .error .indexError

/-- loop over the bins (pk_to_real.py:224-256), outputs in order -/
noncomputable def transformLoop (T : Transformer) (c : CorrType) (density : ℝ) (base : String)
    (suffixes : Option (List String)) (spectra : String → Option Spectrum) (kernels : ℕ → Option Kernel) :
    List ℕ → Except PyErr (List (ℕ → ℝ))
  | [] => .ok []
  | i :: l => match inputSection base suffixes i with
    | .error e => .error e
    | .ok sec => match spectra sec with
      | none => .error .blockError
      | some s => match kernels i with
        | none => .error .blockError
        | some kn => match transformLoop T c density base suffixes spectra kernels l with
          | .error e => .error e
          | .ok r => .ok (binOutput T c density s kn :: r)

/-- `CosmosisTransformer.__call__` (pk_to_real.py:210-262): the outputs of all bins and the kept separations.  `density`
is the mean density for lensing and 1 for clustering.  Without bins the name `rp` is never bound. -/
noncomputable def transform (T : Transformer) (c : CorrType) (density : ℝ) (base : String)
    (suffixes : Option (List String)) (nbinBlock : Option ℕ) (spectra : String → Option Spectrum)
    (kernels : ℕ → Option Kernel) : Except PyErr (List (ℕ → ℝ) × List ℕ) :=
  let count : Except PyErr ℕ := match suffixes with
    | some l => .ok l.length
    | none => match nbinBlock with
      | some n => .ok n
      | none => .error .blockError
  match count with
  | .error e => .error e
  | .ok n => match transformLoop T c density base suffixes spectra kernels (List.range n) with
    | .error e => .error e
    | .ok r => if n = 0 then .error .unboundLocal else .ok (r, T.kept)

/-! ## Change of cosmology -/

/-- an astropy cosmology -/
structure Cosmo where
  comoving : ℝ → ℝ
  angular : ℝ → ℝ
  angular12 : ℝ → ℝ → ℝ
  efunc : ℝ → ℝ
  h : ℝ

/-- source redshift (correct_cosmo_real.py:71) -/
noncomputable def zSource : ℝ := 0.6

/-- factor of the separations (correct_cosmo_real.py:79-82) -/
noncomputable def rpRatio (run data : Cosmo) (z : ℝ) : ℝ := run.comoving z / data.comoving z * (run.h / data.h)

/-- factor of the correlation function (correct_cosmo_real.py:84-98) -/
noncomputable def corrRatio (run data : Cosmo) (corr : String) (z : ℝ) : Except PyErr ℝ :=
  if corr = "wp" then .ok (data.efunc z / run.efunc z * (data.h / run.h))
  else if corr = "ds" then
    .ok ((data.angular zSource * run.angular12 z zSource * run.angular z) /
      (run.angular zSource * data.angular12 z zSource * data.angular z) * (run.h / data.h))
  else .error .valueError

/-- the data block entries concerned: separations and the correlation functions of the bins -/
structure Corr where
  rp : ℕ → ℝ
  bin : ℕ → ℕ → ℝ

/-- one iteration (correct_cosmo_real.py:75-104) -/
noncomputable def correctStep (run data : Cosmo) (corr : String) (z : List ℝ) (i : ℕ) (s : Corr) : Except PyErr Corr :=
  match z[i]? with
  | none => .error .indexError
  | some zi => match corrRatio run data corr zi with
    | .error e => .error e
    | .ok rc => .ok ⟨fun t => s.rp t * rpRatio run data zi, fun b t => if b = i then s.bin b t * rc else s.bin b t⟩

/-- the loop (correct_cosmo_real.py:74-104): later iterations read what earlier ones wrote -/
noncomputable def correctLoop (run data : Cosmo) (corr : String) (z : List ℝ) : List ℕ → Corr → Except PyErr Corr
  | [], s => .ok s
  | i :: l, s => match correctStep run data corr z i s with
    | .error e => .error e
    | .ok s' => correctLoop run data corr z l s'

/-- `execute` (correct_cosmo_real.py:48-106) -/
noncomputable def correct (run data : Cosmo) (corr : String) (z : List ℝ) (nbins : ℕ) (s : Corr) : Except PyErr Corr :=
  if z.length ≠ nbins then .error .valueError else correctLoop run data corr z (List.range nbins) s

/-! ## Angular units -/

/-- the units accepted at setup (convert_theta.py:10) -/
def outputUnits : List String := ["rad", "deg", "arcmin", "arcsec"]

/-- `setup` (convert_theta.py:6-17) -/
def thetaSetup (u : String) : Except PyErr String :=
  if u ∈ outputUnits then .ok u else .error .valueError

/-- size of a unit in radian (astropy).  Simplification: only the units of `outputUnits` are known, astropy knows some
more. -/
noncomputable def unitSize (u : String) : Except PyErr ℝ :=
  if u = "rad" then .ok 1
  else if u = "deg" then .ok (Real.pi / 180)
  else if u = "arcmin" then .ok (Real.pi / 180 / 60)
  else if u = "arcsec" then .ok (Real.pi / 180 / 3600)
  else .error .valueError

/-- angles with their unit in the data block -/
structure Theta where
  val : ℕ → ℝ
  unit : String

/-- `execute` (convert_theta.py:20-34) -/
noncomputable def thetaExecute (out : String) (t : Theta) : Except PyErr Theta :=
  let u := if t.unit = "radian" ∨ t.unit = "radians" then "rad" else t.unit
  match unitSize u with
  | .error e => .error e
  | .ok a => match unitSize out with
    | .error e => .error e
    | .ok b => .ok ⟨fun i => t.val i * (a / b), out⟩

end Verif.RealSpace

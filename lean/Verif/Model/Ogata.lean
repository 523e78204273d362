import Verif.Model.RealSpace

/-!
# Setting up the two Hankel transform modules, and the variant with the `hankel` package

`/repo/cosmosis_modules/pk_to_real/pk_to_real_ogata.py`, and the parts of `pk_to_real.py` that read the options
(`CosmosisTransformer.__init__`, `setup`).  The two files read their options with the same statements.

The package `hankel` replaces an integral over a Bessel function by a finite sum (Ogata 2005).  Its nodes and weights are
parameters here (`Quadrature`); the weights contain the Bessel function.
-/

namespace Verif.Ogata

open Verif.Lib Verif.RealSpace

/-! ## Options -/

/-- the option section of either module: `none` is a missing entry.  `suffixes` is already flattened and its entries are
already strings, as in the f-string that uses them (pk_to_real.py:179-180,232, pk_to_real_ogata.py:110-111,157). -/
structure Options where
  corrType : Option String
  inputSection : Option String
  outputSection : Option String
  suffixes : Option (List String)
  sample : Option String
  nTransform : Option ℤ
  kMin : Option ℝ
  kMax : Option ℝ
  rpMin : Option ℝ
  rpMax : Option ℝ

/-- what the modules keep from their options -/
structure Settings where
  corr : CorrType
  inputSection : String
  outputSection : String
  suffixes : Option (List String)
  sample : String
  n : ℕ
  kMin : ℝ
  kMax : ℝ
  rpMin : ℝ
  rpMax : ℝ

/-- the check of `setup` (pk_to_real.py:274-279, pk_to_real_ogata.py:204-209) -/
def readCorrType (o : Options) : Except PyErr CorrType :=
  match o.corrType with
  | none => .error .blockError
  | some s => if s = "wp" then .ok .wp else if s = "ds" then .ok .ds else .error .valueError

/-- `DEFAULT_SECTIONS` (pk_to_real.py:20-23, pk_to_real_ogata.py:22-25) -/
def defaultSections : CorrType → String × String
  | .wp => ("galaxy_power", "wp")
  | .ds => ("matter_galaxy_power", "ds")

/-- a section name: the default if the option is missing or empty (pk_to_real.py:172-176,187-192,
pk_to_real_ogata.py:103-107,118-123) -/
def sectionName (v : Option String) (dflt : String) : String :=
  let s := v.getD dflt
  if s = "" then dflt else s

/-- the number of points as used by `np.logspace(..., n)` and `k[1]` (pk_to_real.py:88-90, pk_to_real_ogata.py:47-49) -/
def readCount (n : ℤ) : Except PyErr ℕ :=
  if n < 0 then .error .valueError else if n < 2 then .error .indexError else .ok n.toNat

/-- `setup` and the constructor, with the default number of points of the module (`8192` in pk_to_real.py:11, `250` in
pk_to_real_ogata.py:13; other defaults pk_to_real.py:12-15, pk_to_real_ogata.py:14-17; pk_to_real.py:165-208,274-286,
pk_to_real_ogata.py:96-138,204-217).  Simplification: wavenumber limits that are not positive make `nan`s in Python. -/
noncomputable def setup (dfltN : ℤ) (o : Options) : Except PyErr Settings :=
  match readCorrType o with
  | .error e => .error e
  | .ok c => match o.sample with
    | none => .error .blockError
    | some sm => match readCount (o.nTransform.getD dfltN) with
      | .error e => .error e
      | .ok n => .ok {
          corr := c
          inputSection := sectionName o.inputSection (defaultSections c).1
          outputSection := sectionName o.outputSection (defaultSections c).2
          suffixes := o.suffixes
          sample := sm
          n := n
          kMin := o.kMin.getD 0.0001
          kMax := o.kMax.getD 5.0e6
          rpMin := o.rpMin.getD 0.1
          rpMax := o.rpMax.getD 1000 }

/-- pk_to_real.py -/
noncomputable def setupFftlog : Options → Except PyErr Settings := setup 8192

/-- pk_to_real_ogata.py -/
noncomputable def setupOgata : Options → Except PyErr Settings := setup 250

/-- order `mu` of the Bessel function (pk_to_real.py:32-35, pk_to_real_ogata.py:34-37) -/
def order : CorrType → ℝ
  | .wp => 0
  | .ds => 2

/-- bias `q` of the transform (pk_to_real.py:32-35, pk_to_real_ogata.py:34-37) -/
def bias : CorrType → ℝ
  | .wp => 0
  | .ds => 0

/-! ## The transform -/

/-- `HankelTransform(mu, N, h)` of the package `hankel`, `transform(f)[0]` = sum of `weight j * f (node j)` -/
structure Quadrature where
  size : ℕ
  node : ℕ → ℝ
  weight : ℕ → ℝ

/-- the value of the sum -/
noncomputable def Quadrature.apply (H : Quadrature) (f : ℝ → ℝ) : ℝ := ∑ j ∈ Finset.range H.size, H.weight j * f (H.node j)

/-- the constants of `projected_corr` (pk_to_real_ogata.py:40-76): the separations are those of `pk_to_real.py` with the
product `kr` set to 1 (pk_to_real_ogata.py:70 against pk_to_real.py:119); there is no FFTLog -/
noncomputable def grid (s : Settings) : Transformer := ⟨s.n, s.kMin, s.kMax, s.rpMin, s.rpMax, 1, fun _ _ => 0⟩

/-- `projected_corr.evaluate` at separation `r` (pk_to_real_ogata.py:79-89), before the selection of the range -/
noncomputable def evaluate (H : Quadrature) (nk : ℕ) (kIn pk : ℕ → ℝ) (r : ℝ) : ℝ :=
  H.apply (fun x => interp1d .extrapolate nk kIn pk (x / r) * x) / (2.0 * Real.pi * r ^ 2)

/-- the correlation function of one bin at internal separation `i` (pk_to_real_ogata.py:167-175) -/
noncomputable def binOutput (s : Settings) (H : Quadrature) (sp : Spectrum) (kn : Kernel) (i : ℕ) : ℝ :=
  simpson sp.nz sp.z fun j => loadKernel kn (sp.z j) * evaluate H sp.nk sp.k (sp.pk j) ((grid s).rp i)

/-- loop over the bins (pk_to_real_ogata.py:149-178), outputs in order -/
noncomputable def transformLoop (s : Settings) (H : Quadrature) (spectra : String → Option Spectrum)
    (kernels : ℕ → Option Kernel) : List ℕ → Except PyErr (List (ℕ → ℝ))
  | [] => .ok []
  | i :: l => match RealSpace.inputSection s.inputSection s.suffixes i with
    | .error e => .error e
    | .ok sec => match spectra sec with
      | none => .error .blockError
      | some sp => match kernels i with
        | none => .error .blockError
        | some kn => match transformLoop s H spectra kernels l with
          | .error e => .error e
          | .ok r => .ok (binOutput s H sp kn :: r)

/-- what a module leaves in its output section: one function per bin, the indices of the separations, the number of bins
and the two names -/
structure Output where
  bins : List (ℕ → ℝ)
  kept : List ℕ
  nbin : ℕ
  sample : String
  saveName : String

/-- the number of bins (pk_to_real.py:219-222, pk_to_real_ogata.py:144-147) -/
def countBins (s : Settings) (nbinBlock : Option ℕ) : Except PyErr ℕ :=
  match s.suffixes with
  | some l => .ok l.length
  | none => match nbinBlock with
    | some n => .ok n
    | none => .error .blockError

/-- `projection.transform` (pk_to_real_ogata.py:141-187).  Without bins the name `rp` is never bound. -/
noncomputable def transform (s : Settings) (H : Quadrature) (nbinBlock : Option ℕ) (spectra : String → Option Spectrum)
    (kernels : ℕ → Option Kernel) : Except PyErr Output :=
  match countBins s nbinBlock with
  | .error e => .error e
  | .ok n => match transformLoop s H spectra kernels (List.range n) with
    | .error e => .error e
    | .ok r => if n = 0 then .error .unboundLocal else .ok ⟨r, (grid s).kept, n, s.sample, ""⟩

/-- `save_name` of pk_to_real.py:262 -/
def fftlogSaveName : CorrType → String
  | .wp => "wp"
  | .ds => "ds"

/-- `CosmosisTransformer.__call__` (pk_to_real.py:210-262) with the settings of the module: `kr` and `fht` come from
`pyfftlog`, `density0` is the block entry `density/mean_density0` reduced to its unique value.  Simplification: several
distinct values of `mean_density0` (numpy would broadcast or fail) are not modelled. -/
noncomputable def fftlogTransform (s : Settings) (kr : ℝ) (fht : (ℕ → ℝ) → ℕ → ℝ) (density0 : Option ℝ)
    (nbinBlock : Option ℕ) (spectra : String → Option Spectrum) (kernels : ℕ → Option Kernel) : Except PyErr Output :=
  let T : Transformer := ⟨s.n, s.kMin, s.kMax, s.rpMin, s.rpMax, kr, fht⟩
  let density : Except PyErr ℝ := match s.corr with
    | .wp => .ok 1
    | .ds => match density0 with
      | some d => .ok d
      | none => .error .blockError
  match density with
  | .error e => .error e
  | .ok d => match countBins s nbinBlock with
    | .error e => .error e
    | .ok n => match RealSpace.transform T s.corr d s.inputSection s.suffixes nbinBlock spectra kernels with
      | .error e => .error e
      | .ok r => .ok ⟨r.1, r.2, n, s.sample, fftlogSaveName s.corr⟩

end Verif.Ogata

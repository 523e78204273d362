import Verif.Model.Add
import Verif.Model.Interface

/-!
# The legacy module that adds and extrapolates spectra
(`/repo/cosmosis_modules/legacy/add_and_upsample/add_and_upsample.py`)

Simplifications: real numbers; every section of the data block that holds a spectrum is a grid `(z, k_h, p_k)`;
`lower()` of the names is left out (the names are taken as they are after it); the print in `setup` is dropped;
arrays of different shapes cannot be added (shapes with an axis of length 1, which numpy would broadcast, are not
represented); `extrapolate_nan` is never called and is not modelled.
-/

namespace Verif.LegacyAdd

open Verif.Lib Finset

/-- a section with a power spectrum: `z`, `k_h`, `p_k` -/
structure Sect where
  nz : ℕ
  z : ℕ → ℝ
  nk : ℕ
  k : ℕ → ℝ
  p : ℕ → ℕ → ℝ

/-- the power spectra in the data block, by section name -/
abbrev Pk := String → Option Sect

/-- `block.put_grid(name, ...)` -/
def put (B : Pk) (name : String) (s : Sect) : Pk := fun n => if n = name then some s else B n

/-- `np.sum(pk)` (add_and_upsample.py:75, 123) -/
noncomputable def total (s : Sect) : ℝ := ∑ i ∈ range s.nz, ∑ j ∈ range s.nk, s.p i j

/-- the two interpolations (add_and_upsample.py:86-90, 129-133): redshift, then log10 of the wavenumber.  `out` holds
the output grid. -/
noncomputable def interpolate (s out : Sect) (fill : Fill) (i j : ℕ) : ℝ :=
  interp1d .extrapolate s.nk (fun l => Add.log10 (s.k l))
    (fun l => interp1d fill s.nz s.z (fun m => s.p m l) (out.z i)) (Add.log10 (out.k j))

open Classical in
/-- the interpolation with the sign changed before and after it (add_and_upsample.py:75-79, 86-90, 108-109 and
123-127, 129-133, 151-152) -/
noncomputable def signed (s out : Sect) (fill : Fill) (i j : ℕ) : ℝ :=
  if total s < 0 then interpolate { s with p := fun m l => s.p m l * -1 } out fill i j * -1
  else interpolate s out fill i j

/-- the grid that is stored (add_and_upsample.py:111, 154) -/
noncomputable def stored (s out : Sect) (fill : Fill) : Sect :=
  ⟨out.nz, out.z, out.nk, out.k, signed s out fill⟩

/-- one call that reads spectra and stores one -/
structure Step where
  target : String
  reads : List String
  value : Pk → Except PyErr Sect

/-- `extrapolate_power` (add_and_upsample.py:115-154) -/
noncomputable def extrapolateStep (suffixOut suffixIn sec : String) (out : Sect) (fill : Fill) : Step where
  target := sec ++ suffixOut
  reads := [sec ++ suffixIn]
  value := fun B => match B (sec ++ suffixIn) with
    | none => .error .blockError
    | some s => .ok (stored s out fill)

/-- red and blue power at one redshift and wavenumber, with the red fraction `x` (add_and_upsample.py:66-69) -/
noncomputable def weighted (sec : String) (x r b : ℝ) : ℝ :=
  if sec ∈ ["intrinsic_power", "galaxy_power", "galaxy_intrinsic_power"] then x ^ 2 * r + (1 - x) ^ 2 * b
  else x * r + (1 - x) * b

/-- the spectrum of both populations on the grid of the red one (add_and_upsample.py:58-69): `f` is the fraction at
the redshifts of the red spectrum -/
noncomputable def mixed (sec : String) (f : ℕ → ℝ) (r b : Sect) : Sect :=
  { r with p := fun m l => weighted sec (f m) (r.p m l) (b.p m l) }

/-- `add_red_and_blue_power` (add_and_upsample.py:56-111) with the fraction at the redshifts of the red spectrum
(add_and_upsample.py:254-256 and its four repetitions) -/
noncomputable def addStep (suffixRed suffixBlue suffixOut sec : String) (frac : ℝ → ℝ) (out : Sect) (fill : Fill) : Step where
  target := sec ++ suffixOut
  reads := [sec ++ suffixRed, sec ++ suffixBlue]
  value := fun B => match B (sec ++ suffixRed) with
    | none => .error .blockError
    | some r => match B (sec ++ suffixBlue) with
      | none => .error .blockError
      | some b => if r.nz ≠ b.nz ∨ r.nk ≠ b.nk then .error .valueError
        else .ok (stored (mixed sec (fun m => frac (r.z m)) r b) out fill)

/-- calls one after another -/
def run : List Step → Pk → Except PyErr Pk
  | [], B => .ok B
  | s :: l, B => match s.value B with
    | .error e => .error e
    | .ok v => run l (put B s.target v)

/-! ## Options -/

/-- a table of the red fraction (add_and_upsample.py:177) -/
structure Table where
  n : ℕ
  z : ℕ → ℝ
  f : ℕ → ℝ

/-- the five sections that have an option besides matter, in the order of the calls (add_and_upsample.py:225-234,
252-281) -/
def sections : List String :=
  ["galaxy_power", "matter_galaxy_power", "matter_intrinsic_power", "intrinsic_power", "galaxy_intrinsic_power"]

/-- the entries of the ini file: `mm` is `do_p_mm`, `opt` gives `do_p_gg`, ... by section -/
structure Options where
  mm : String
  opt : String → String
  fRedFile : Option Table
  hodExtrap : String := "hod"
  hodRed : String := "hod_red"
  hodBlue : String := "hod_blue"
  nameExtrap : String := ""
  nameRed : String := "red"
  nameBlue : String := "blue"

/-- `any(option == o for option in ...)` (add_and_upsample.py:175, 215, 236) -/
def anyOption (opt : String → String) (o : String) : Bool := sections.any fun s => opt s == o

/-- `f'_{name}' if name != '' else ''` (add_and_upsample.py:190-192) -/
def suffix0 (name : String) : String := if name ≠ "" then "_" ++ name else ""

/-- what `setup` returns (add_and_upsample.py:194) -/
structure Config where
  fRed : Option Table
  mm : String
  opt : String → String
  sufExtrap : String
  sufRed : String
  sufBlue : String
  hodExtrap : String
  hodRed : String
  hodBlue : String

/-- `setup` (add_and_upsample.py:159-194): the file is only read when some spectrum is added -/
def setup (o : Options) : Except PyErr Config :=
  let rest (t : Option Table) : Config :=
    ⟨t, o.mm, o.opt, suffix0 o.nameExtrap, suffix0 o.nameRed, suffix0 o.nameBlue, o.hodExtrap, o.hodRed, o.hodBlue⟩
  if anyOption o.opt "add_and_extrapolate" then
    match o.fRedFile with
    | none => .error .blockError
    | some t => .ok (rest (some t))
  else .ok (rest none)

/-! ## Execution -/

/-- the entries of the data block: spectra, `nbins` and `observable_z` of the occupation sections -/
structure Block where
  pk : Pk
  nbins : String → Option ℕ
  observableZ : String → Option Bool

/-- `'extrapolate' if observables_z else 0.0` (add_and_upsample.py:219, 245) -/
noncomputable def fillOf : Bool → Fill
  | true => .extrapolate
  | false => .value 0

/-- the matter spectra (add_and_upsample.py:207-213): any failure of the second call is swallowed -/
noncomputable def matter (mm : String) (out : Sect) (B : Pk) : Except PyErr Pk :=
  if mm = "extrapolate" then
    match run [extrapolateStep "" "" "matter_power_nl" out .extrapolate] B with
    | .error e => .error e
    | .ok B1 => match run [extrapolateStep "" "" "matter_power_nl_mead" out .extrapolate] B1 with
      | .error _ => .ok B1
      | .ok B2 => .ok B2
  else .ok B

/-- the calls of the first loop over bins (add_and_upsample.py:221-234) -/
noncomputable def extrapolateSteps (opt : String → String) (suf0 : String) (n : ℕ) (out : Sect) (fill : Fill) : List Step :=
  (List.range n).flatMap fun nb => (sections.filter fun s => opt s == "extrapolate").map fun sec =>
    extrapolateStep (Interface.binSuffix n nb) (suf0 ++ Interface.binSuffix n nb) sec out fill

/-- the calls of the second loop over bins (add_and_upsample.py:247-281) -/
noncomputable def addSteps (opt : String → String) (red blue : String) (t : Table) (n : ℕ) (out : Sect) (fill : Fill) :
    List Step :=
  (List.range n).flatMap fun nb => (sections.filter fun s => opt s == "add_and_extrapolate").map fun sec =>
    addStep (red ++ Interface.binSuffix n nb) (blue ++ Interface.binSuffix n nb) (Interface.binSuffix n nb) sec
      (fun z => interp1d .extrapolate t.n t.z t.f z) out fill

/-- first part of the loops (add_and_upsample.py:215-234) -/
noncomputable def extrapolatePhase (c : Config) (X : Block) (out : Sect) (B : Pk) : Except PyErr Pk :=
  if anyOption c.opt "extrapolate" then
    match X.nbins c.hodExtrap with
    | none => .error .blockError
    | some n => match X.observableZ c.hodExtrap with
      | none => .error .blockError
      | some oz => run (extrapolateSteps c.opt c.sufExtrap n out (fillOf oz)) B
  else .ok B

/-- second part of the loops (add_and_upsample.py:236-281); a missing table would fail in `interp1d` (`setup` excludes
this). -/
noncomputable def addPhase (c : Config) (X : Block) (out : Sect) (B : Pk) : Except PyErr Pk :=
  if anyOption c.opt "add_and_extrapolate" then
    match X.nbins c.hodRed, X.nbins c.hodBlue with
    | none, _ => .error .blockError
    | some _, none => .error .blockError
    | some n, some n' => if n ≠ n' then .error .generic
      else match X.observableZ c.hodRed with
        | none => .error .blockError
        | some oz => match c.fRed with
          | none => if n = 0 then .ok B else .error .typeError
          | some t => run (addSteps c.opt c.sufRed c.sufBlue t n out (fillOf oz)) B
  else .ok B

/-- `execute` (add_and_upsample.py:196-283): the spectra in the block afterwards -/
noncomputable def execute (c : Config) (X : Block) : Except PyErr Pk :=
  match X.pk "matter_power_lin" with
  | none => .error .blockError
  | some lin => match matter c.mm lin X.pk with
    | .error e => .error e
    | .ok B1 => match extrapolatePhase c X lin B1 with
      | .error e => .error e
      | .ok B2 => addPhase c X lin B2

end Verif.LegacyAdd

import Verif.Lib.Py
import Verif.Model.Pk

/-!
# The benchmarks (`/repo/benchmarks/benchmarking.py`)

`OnepowerBenchmark` runs the library for several resolutions and collects what comes out.  The dictionary of parameters is
copied with `dict.copy()` before it is changed, which copies the outer dictionary only: the dictionary under `hod_settings` is the
*same object* in the copy.  It is therefore modelled as a separate part of the state.

`SpectraWithTrapezoid` replaces Simpson's rule by the trapezoidal rule in four methods of `Spectra`.

Simplifications: what `Spectra(**params)` computes is an arbitrary function of the parameters (`Library`), each of its results may
raise; of nested dictionaries only `hod_settings` is told apart (no other one is changed); the pickled file is the value
that is written, its name is left out; printing and pickling do not fail.
-/

namespace Verif.Benchmark

open Verif.Lib Verif.Pk

/-! ## Running the library -/

/-- a Python dictionary with text keys -/
abbrev Dict (V : Type) := String → Option V

/-- store a value in a dictionary -/
def Dict.set {V : Type} (d : Dict V) (k : String) (v : V) : Dict V := fun k' => if k' = k then some v else d k'

/-- the parameters: the entries of the dictionary, and the dictionary under `hod_settings` -/
structure Params (V : Type) where
  flat : Dict V
  hod : Option (Dict V)

/-- what a `Spectra` object gives; every reading may raise -/
structure Spectra (R : Type) where
  mm : Except PyErr R
  gg : Except PyErr R
  gm : Except PyErr R
  /-- `spectra.obs` and its functions -/
  smf : Except PyErr R
  /-- `spectra.hod` and its occupations -/
  hod : Except PyErr R

/-- `Spectra(**params)`, which may raise -/
abbrev Library (V R : Type) := Params V → Except PyErr (Spectra R)

/-- what is varied (benchmarking.py:157-182); any other name changes nothing -/
inductive Quantity
  | mass
  | k
  | nobs
  | other
  deriving DecidableEq

/-- `_modify_params(self.params.copy(), quantity, value)` (benchmarking.py:48, 157-182): the copy with the value, and `self.params`
afterwards -/
def modify {V : Type} (q : Quantity) (v : V) (p : Params V) : Except PyErr (Params V × Params V) :=
  match q with
  | .mass => .ok (⟨p.flat.set "dlog10m" v, p.hod⟩, p)
  | .k => .ok (⟨p.flat.set "dlnk" v, p.hod⟩, p)
  | .nobs =>
    match p.hod with
    | none => .error .keyError
    | some d => .ok (⟨p.flat, some (d.set "nobs" v)⟩, ⟨p.flat, some (d.set "nobs" v)⟩)
  | .other => .ok (p, p)

/-- one collected result: numbers from the library and the parameter noted beside them -/
structure Entry (V R : Type) where
  data : R
  noted : Option (String × V)

/-- a Python dictionary lookup that raises -/
def get {V : Type} (d : Dict V) (k : String) : Except PyErr V :=
  match d k with
  | none => .error .keyError
  | some v => .ok v

/-- `_get_power_spectrum` (benchmarking.py:20-25): the dictionary with all three spectra is built first -/
def getPowerSpectrum {R : Type} (s : Spectra R) (t : String) : Except PyErr R := do
  let mm ← s.mm
  let gg ← s.gg
  let gm ← s.gm
  if t = "mm" then .ok mm
  else if t = "gg" then .ok gg
  else if t = "gm" then .ok gm
  else .error .keyError

/-- one kind of spectrum in the loop of `_test_convergence` (benchmarking.py:59-70, 76-99) -/
def spectrumEntry {V R : Type} (q : Quantity) (s : Spectra R) (p : Params V) (t : String) : Except PyErr (Entry V R) := do
  let r ← getPowerSpectrum s t
  match q with
  | .mass => do let v ← get p.flat "dlog10m"; .ok ⟨r, some ("dlog10m", v)⟩
  | .k => do let v ← get p.flat "dlnk"; .ok ⟨r, some ("dlnk", v)⟩
  | _ => .ok ⟨r, none⟩

/-- store in an insertion-ordered dictionary -/
def put {K E : Type} [DecidableEq K] (k : K) (e : E) : List (K × E) → List (K × E)
  | [] => [(k, e)]
  | (k', e') :: l => if k' = k then (k', e) :: l else (k', e') :: put k e l

/-- the value stored for a key -/
def lookup {K E : Type} [DecidableEq K] (k : K) : List (K × E) → Option E
  | [] => none
  | (k', e') :: l => if k' = k then some e' else lookup k l

/-- the loop over the kinds of spectra (benchmarking.py:61-70) -/
def spectraEntries {V R : Type} (q : Quantity) (s : Spectra R) (p : Params V) :
    List String → List (String × Entry V R) → Except PyErr (List (String × Entry V R))
  | [], acc => .ok acc
  | t :: ts, acc => do
    let e ← spectrumEntry q s p t
    spectraEntries q s p ts (put t e acc)

/-- what is collected for one value (benchmarking.py:49-70, 101-155) -/
def valueResults {V R : Type} (F : Library V R) (q : Quantity) (types : List String) (p : Params V) :
    Except PyErr (List (String × Entry V R)) := do
  let s ← F p
  if "smf" ∈ types then do
    let r ← s.smf
    let v ← get p.flat "dlog10m"
    .ok [("smf", ⟨r, some ("dlog10m", v)⟩)]
  else if "hod" ∈ types then do
    let r ← s.hod
    match p.hod with
    | none => .error .keyError
    | some d => do let v ← get d "nobs"; .ok [("hod", ⟨r, some ("nobs", v)⟩)]
  else spectraEntries q s p types []

/-- the loop of `_test_convergence` (benchmarking.py:45-74): `self.params` afterwards, and the results or the exception -/
def testLoop {V R : Type} [DecidableEq V] (F : Library V R) (q : Quantity) (types : List String) :
    List V → List (V × List (String × Entry V R)) → Params V →
      Params V × Except PyErr (List (V × List (String × Entry V R)))
  | [], acc, p => (p, .ok acc)
  | v :: vs, acc, p =>
    match modify q v p with
    | .error e => (p, .error e)
    | .ok (copy, p') =>
      match valueResults F q types copy with
      | .error e => (p', .error e)
      | .ok r => testLoop F q types vs (put v r acc) p'

/-- `_test_convergence` (benchmarking.py:27-74); `test_mass`, `test_k`, `test_mass_smf`, `test_nobs_hod` (benchmarking.py:215-229) are
this with fixed `quantity` -/
def testConvergence {V R : Type} [DecidableEq V] (F : Library V R) (q : Quantity) (types : List String) (vs : List V) (p : Params V) :
    Params V × Except PyErr (List (V × List (String × Entry V R))) := testLoop F q types vs [] p

/-- `create_benchmark` and `save_to_file` (benchmarking.py:184-213, 231-262): what is written (the parameters and the three spectra),
or the exception.  `precision_params` is given as its entries and, if it has one, its `hod_settings` -/
def createBenchmark {V R : Type} (F : Library V R) (prec : Option (Params V)) (p : Params V) :
    Except PyErr (Params V × R × R × R) :=
  match prec with
  | none => .error .valueError
  | some c => do
    let high : Params V := ⟨fun k => (c.flat k).or (p.flat k), c.hod.or p.hod⟩
    let s ← F high
    let mm ← s.mm
    let gg ← s.gg
    let gm ← s.gm
    .ok (high, mm, gg, gm)

/-- a use of the benchmark object -/
inductive Act (V : Type)
  | test (q : Quantity) (types : List String) (vs : List V)
  | create (prec : Option (Params V))

/-- `self.params` after a use; a caller may catch the exception and go on -/
def after {V R : Type} [DecidableEq V] (F : Library V R) (p : Params V) : Act V → Params V
  | .test q types vs => (testConvergence F q types vs p).1
  | .create _ => p

/-- `self.params` after a session -/
def session {V R : Type} [DecidableEq V] (F : Library V R) (p : Params V) (h : List (Act V)) : Params V := h.foldl (after F) p

/-! ## The class with the trapezoidal rule -/

open Finset in
/-- `scipy.integrate.trapezoid(y, x)`, as `_replace_integration_method` calls it (benchmarking.py:268-270); external primitive, `n`
points -/
noncomputable def trapezoid (n : ℕ) (x y : ℕ → ℝ) : ℝ :=
  ∑ i ∈ range (n - 1), (x (i + 1) - x i) * (y (i + 1) + y i) / 2

variable (s : Pk.Spectra)

/-- `compute_1h_term` (benchmarking.py:272-275) -/
noncomputable def oneHaloTerm (u v : ℕ → ℝ) (z : ℕ) : ℝ :=
  trapezoid s.nm s.mass (fun m => u m * v m * s.dndlnm z m / s.mass m)

/-- `compute_Im_term` (benchmarking.py:277-280) -/
noncomputable def computeIm (z k : ℕ) : ℝ :=
  trapezoid s.nm s.mass (fun m => s.haloBias z m * s.dndlnm z m * s.uDm z k m * (1 / s.meanDensity0 z))

/-- `compute_Ig_term` (benchmarking.py:292-295) -/
noncomputable def computeIg (profile : ℕ → ℝ) (z : ℕ) : ℝ :=
  trapezoid s.nm s.mass (fun m => profile m * s.haloBias z m * s.dndlnm z m / s.mass m)

/-- the value `A` inside `compute_A_term` (benchmarking.py:282-285) -/
noncomputable def aValue (z : ℕ) : ℝ :=
  1 - trapezoid s.nm s.mass (fun m => s.haloBias z m * s.dndlnm z m * (1 / s.meanDensity0 z))

open Classical in
/-- `compute_A_term` (benchmarking.py:282-290) for `nz` redshifts: `warnings` is not imported in this file -/
noncomputable def computeA (nz : ℕ) : Except PyErr (ℕ → ℝ) :=
  if ∃ z < nz, aValue s z < 0 then .error .nameError else .ok (aValue s)

/-- `Im_term` (pk.py:1157-1178) with the methods of the class -/
noncomputable def imTerm (nz : ℕ) : Except PyErr (ℕ → ℕ → ℝ) := do
  let a ← computeA s nz
  .ok fun z k => computeIm s z k + a z

end Verif.Benchmark

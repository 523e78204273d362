import Verif.Lib.Interp
import Verif.Lib.Py
import Mathlib.Analysis.SpecialFunctions.Log.Base

/-!
# Upsampled and combined spectra (`/repo/src/onepower/add.py`)

State machine of an `UpsampledSpectra` object.  `functools.cached_property` stores the value of the first
successful read in the instance dictionary and nothing in the class ever removes it (assigning a `parameter`
only touches the hmf cache, which does not know these properties).

Simplifications: real numbers; both populations have the same observable bins (index `b`); the input grids have
at least two redshifts and two wavenumbers; a `Spectra` object is the table of its readable power spectra,
`Spectra(**params)` and `clone()` followed by `update(**params)` are arbitrary functions (`Env`); here it is a value, sharing one object with
the caller is the subject of `Model/AddShared.lean`.
-/

namespace Verif.Add

open Verif.Lib

/-- an array with its length -/
structure Arr where
  n : ℕ
  val : ℕ → ℝ

/-- an array over bins, redshifts and wavenumbers; `nz` is the length of the redshift axis -/
structure Arr3 where
  nz : ℕ
  val : ℕ → ℕ → ℕ → ℝ

/-- a `Spectra` object as seen by `results`: grids and `power_spectrum_<mode>.pk_<component>` -/
structure Obj where
  nz : ℕ
  z : ℕ → ℝ
  nk : ℕ
  k : ℕ → ℝ
  spec : String → Option (String → Option (ℕ → ℕ → ℕ → ℝ))

/-- construction of halo models from parameter dictionaries of type `P` -/
structure Env (P : Type) where
  make : P → Obj
  cloneUpdate : Obj → P → Obj

/-- the constructor arguments (add.py:36-55), all of them hmf parameters -/
structure Params (P : Type) where
  z : Arr
  k : ℕ → ℝ
  fractionZ : Option Arr
  fraction : Option Arr
  model : Option Obj
  model1 : P
  model2 : Option P
  extrapolate : Fill

/-- the object: parameters, the four `cached_property` cells, the attributes set by `results` -/
structure State (P : Type) where
  par : Params P
  frac1 : Option Arr
  frac2 : Option Arr
  power1 : Option Obj
  power2 : Option (Option Obj)
  attrs : String → Option (String → Option Arr3)

variable {P : Type}

/-- a new object (add.py:36-55) -/
def fresh (p : Params P) : State P := ⟨p, none, none, none, none, fun _ => none⟩

/-- value computed by `frac_1` (add.py:129-152); `interp1d` needs nodes and values of equal length -/
noncomputable def frac1Val (p : Params P) : Except PyErr Arr :=
  match p.fraction with
  | none => .ok ⟨p.z.n, fun _ => 1⟩
  | some f => match p.fractionZ with
    | none => .error .valueError
    | some fz => if fz.n ≠ f.n then .error .valueError
      else .ok ⟨p.z.n, fun i => interp1d .extrapolate fz.n fz.val f.val (p.z.val i)⟩

/-- read `frac_1` -/
noncomputable def readFrac1 (s : State P) : State P × Except PyErr Arr :=
  match s.frac1 with
  | some v => (s, .ok v)
  | none => match frac1Val s.par with
    | .error e => (s, .error e)
    | .ok v => ({ s with frac1 := some v }, .ok v)

/-- read `frac_2` (add.py:154-166) -/
noncomputable def readFrac2 (s : State P) : State P × Except PyErr Arr :=
  match s.frac2 with
  | some v => (s, .ok v)
  | none => match s.par.fraction with
    | none => ({ s with frac2 := some ⟨s.par.z.n, fun _ => 0⟩ }, .ok ⟨s.par.z.n, fun _ => 0⟩)
    | some _ => match readFrac1 s with
      | (s', .error e) => (s', .error e)
      | (s', .ok f) => ({ s' with frac2 := some ⟨f.n, fun i => 1 - f.val i⟩ }, .ok ⟨f.n, fun i => 1 - f.val i⟩)

/-- read `power_1` (add.py:168-180) -/
def readPower1 (env : Env P) (s : State P) : State P × Obj :=
  match s.power1 with
  | some v => (s, v)
  | none =>
    let v := match s.par.model with
      | none => env.make s.par.model1
      | some m => m
    ({ s with power1 := some v }, v)

/-- read `power_2` (add.py:182-200) -/
def readPower2 (env : Env P) (s : State P) : State P × Option Obj :=
  match s.power2 with
  | some v => (s, v)
  | none => match s.par.model2 with
    | none => ({ s with power2 := some none }, none)
    | some p2 =>
      let (s', o) := readPower1 env s
      ({ s' with power2 := some (some (env.cloneUpdate o p2)) }, some (env.cloneUpdate o p2))

/-- `getattr(getattr(power, f'power_spectrum_{mode}'), f'pk_{component}')` (add.py:220-221); a component that is
`None` makes `interp1d` fail. -/
def component (o : Obj) (mode comp : String) : Except PyErr (ℕ → ℕ → ℕ → ℝ) :=
  match o.spec mode with
  | none => .error .attributeError
  | some r => if comp ∈ ["1h", "2h", "tot"] then
      match r comp with
      | none => .error .valueError
      | some a => .ok a
    else .error .attributeError

/-- `np.log10` -/
noncomputable def log10 (x : ℝ) : ℝ := Real.logb 10 x

/-- `extrapolate_spectra` (add.py:250-293): first along redshift, then along log10 of the wavenumber -/
noncomputable def extrapolateSpectra (zExt kExt : ℕ → ℝ) (o : Obj) (power : ℕ → ℕ → ℕ → ℝ) (fill : Fill)
    (b i j : ℕ) : ℝ :=
  interp1d .extrapolate o.nk (fun l => log10 (o.k l))
    (fun l => interp1d fill o.nz o.z (fun m => power b m l) (zExt i)) (log10 (kExt j))

/-- broadcasting along an axis of length `n` -/
def bidx (n i : ℕ) : ℕ := if n = 1 then 0 else i

/-- `add_spectra` (add.py:295-328) for a non-'mm' mode with the fraction `f` (a column vector) -/
noncomputable def combine (mode : String) (f : Arr) (p1 p2 : Arr3) : Except PyErr Arr3 :=
  if f.n ≠ p1.nz ∧ f.n ≠ 1 ∧ p1.nz ≠ 1 then .error .valueError
  else .ok ⟨max f.n p1.nz, fun b i j =>
    let x := f.val (bidx f.n i)
    let y1 := p1.val b (bidx p1.nz i) j
    let y2 := p2.val b (bidx p1.nz i) j
    if mode ∈ ["gm", "mi"] then x * y1 + (1 - x) * y2 else x ^ 2 * y1 + (1 - x) ^ 2 * y2⟩

/-- the spectrum of one population on the output grid (add.py:220-229, 231-240) -/
noncomputable def upsampled (p : Params P) (o : Obj) (mode comp : String) : Except PyErr Arr3 :=
  match component o mode comp with
  | .error e => .error e
  | .ok a => .ok ⟨p.z.n, extrapolateSpectra p.z.val p.k o a p.extrapolate⟩

/-- the spectrum of the second population, zeros if there is none (add.py:230-242) -/
noncomputable def upsampled2 (p : Params P) (o : Option Obj) (mode comp : String) : Except PyErr Arr3 :=
  match o with
  | none => .ok ⟨p.z.n, fun _ _ _ => 0⟩
  | some o => upsampled p o mode comp

/-- the body of the inner loop of `results` (add.py:219-244) -/
noncomputable def oneComponent (env : Env P) (mode comp : String) (s : State P) : State P × Except PyErr Arr3 :=
  let (s1, o1) := readPower1 env s
  match upsampled s1.par o1 mode comp with
  | .error e => (s1, .error e)
  | .ok x1 =>
    let (s2, o2) := readPower2 env s1
    match upsampled2 s1.par o2 mode comp with
    | .error e => (s2, .error e)
    | .ok x2 =>
      if mode = "mm" then (s2, .ok x1)
      else match readFrac1 s2 with
        | (s3, .error e) => (s3, .error e)
        | (s3, .ok f) => (s3, combine mode f x1 x2)

/-- loop over components (add.py:218-244): the dictionary of collected spectra -/
noncomputable def collect (env : Env P) (mode : String) :
    List String → State P → State P × Except PyErr (String → Option Arr3)
  | [], s => (s, .ok fun _ => none)
  | comp :: comps, s => match oneComponent env mode comp s with
    | (s1, .error e) => (s1, .error e)
    | (s1, .ok v) => match collect env mode comps s1 with
      | (s2, .error e) => (s2, .error e)
      | (s2, .ok d) => (s2, .ok fun c => match d c with
        | some w => some w
        | none => if c = comp then some v else none)

/-- `results` (add.py:202-248): loop over modes, each stored as soon as it is complete -/
noncomputable def results (env : Env P) (comps : List String) :
    List String → State P → State P × Except PyErr Unit
  | [], s => (s, .ok ())
  | mode :: modes, s => match collect env mode comps s with
    | (s1, .error e) => (s1, .error e)
    | (s1, .ok d) =>
      results env comps modes { s1 with attrs := fun m => if m = mode then some d else s1.attrs m }

/-- what a user can do with the object -/
inductive Op (P : Type)
  /-- `update(...)` or an assignment: the parameters become `p` -/
  | setParams (p : Params P)
  | readFrac1
  | readFrac2
  | readPower1
  | readPower2
  | results (modes comps : List String)

/-- the state after an operation -/
noncomputable def step (env : Env P) (s : State P) : Op P → State P
  | .setParams p => { s with par := p }
  | .readFrac1 => (readFrac1 s).1
  | .readFrac2 => (readFrac2 s).1
  | .readPower1 => (readPower1 env s).1
  | .readPower2 => (readPower2 env s).1
  | .results modes comps => (results env comps modes s).1

/-- the state after a history -/
noncomputable def run (env : Env P) (s : State P) (ops : List (Op P)) : State P := ops.foldl (step env) s

end Verif.Add

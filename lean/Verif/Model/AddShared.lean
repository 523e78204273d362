import Verif.Model.Add

/-!
# Upsampled spectra that share their halo model with the caller (`/repo/src/onepower/add.py:36-55, 168-248`)

`Model/Add.lean` treats a halo model as a value.  In Python it is an object with an identity: `power_1` returns the very object passed
as `model`, `power_2` is a clone (`copy.deepcopy` of the hmf framework) made at its first read, and the interface updates its one
`Spectra` object between two uses of the same upsampled object (onepower_interface.py:1025-1043, 1127-1147).  Here the halo models live
in a memory and are named by references.

Simplifications: as in `Model/Add.lean`; the state of a halo model is what its parameters determine (`M`), reading a spectrum does not
change it (the caches are the subject of `Lib/HmfCache.lean`); the parameter setter of hmf stores the object it is given, not a copy
(assumed contract).
-/

namespace Verif.AddShared

open Verif.Lib Verif.Add

/-- the name of an object in memory -/
abbrev Ref := ℕ

/-- the halo models in memory: those with a reference below `next` exist -/
structure Heap (M : Type) where
  next : Ref
  obj : Ref → M

/-- what a halo model can do: `Spectra(**p)`, `update(**p)`, and what `results` reads of it -/
structure Api (M P : Type) where
  make : P → M
  update : M → P → M
  view : M → Obj

variable {M P : Type}

/-- a new object in memory -/
def Heap.alloc (h : Heap M) (m : M) : Heap M × Ref :=
  (⟨h.next + 1, fun r => if r = h.next then m else h.obj r⟩, h.next)

/-- change an object in place -/
def Heap.set (h : Heap M) (r : Ref) (m : M) : Heap M := ⟨h.next, fun s => if s = r then m else h.obj s⟩

/-- the constructor arguments (add.py:36-55); the halo model is a reference, the field `model` of `par` is not used -/
structure Pars (P : Type) where
  par : Params P
  model : Option Ref

/-- an upsampled object: parameters, the `cached_property` cells that `results` reads, the attributes it sets -/
structure Up (P : Type) where
  par : Pars P
  frac1 : Option Arr
  power1 : Option Ref
  power2 : Option (Option Ref)
  attrs : String → Option (String → Option Arr3)

/-- a new upsampled object (add.py:36-55) -/
def Up.fresh (p : Pars P) : Up P := ⟨p, none, none, none, fun _ => none⟩

/-- read `power_1` (add.py:168-180): without a `model` a new halo model is made, otherwise the object of the caller is returned -/
def readPower1 (A : Api M P) (h : Heap M) (u : Up P) : Heap M × Up P × Ref :=
  match u.power1 with
  | some r => (h, u, r)
  | none => match u.par.model with
    | none =>
      let a := h.alloc (A.make u.par.par.model1)
      (a.1, { u with power1 := some a.2 }, a.2)
    | some r => (h, { u with power1 := some r }, r)

/-- read `power_2` (add.py:182-200): a clone of the first halo model as it is now, then updated -/
def readPower2 (A : Api M P) (h : Heap M) (u : Up P) : Heap M × Up P × Option Ref :=
  match u.power2 with
  | some r => (h, u, r)
  | none => match u.par.par.model2 with
    | none => (h, { u with power2 := some none }, none)
    | some p2 =>
      let (h1, u1, r) := readPower1 A h u
      let a := h1.alloc (h1.obj r)
      (a.1.set a.2 (A.update (a.1.obj a.2) p2), { u1 with power2 := some (some a.2) }, some a.2)

/-- read `frac_1` (add.py:129-152) -/
noncomputable def readFrac1 (u : Up P) : Up P × Except PyErr Arr :=
  match u.frac1 with
  | some v => (u, .ok v)
  | none => match frac1Val u.par.par with
    | .error e => (u, .error e)
    | .ok v => ({ u with frac1 := some v }, .ok v)

/-- the body of the inner loop of `results` (add.py:219-244) -/
noncomputable def oneComponent (A : Api M P) (mode comp : String) (h : Heap M) (u : Up P) : (Heap M × Up P) × Except PyErr Arr3 :=
  let (h1, u1, r1) := readPower1 A h u
  match upsampled u1.par.par (A.view (h1.obj r1)) mode comp with
  | .error e => ((h1, u1), .error e)
  | .ok x1 =>
    let (h2, u2, r2) := readPower2 A h1 u1
    match upsampled2 u2.par.par (r2.map fun r => A.view (h2.obj r)) mode comp with
    | .error e => ((h2, u2), .error e)
    | .ok x2 =>
      if mode = "mm" then ((h2, u2), .ok x1)
      else match readFrac1 u2 with
        | (u3, .error e) => ((h2, u3), .error e)
        | (u3, .ok f) => ((h2, u3), combine mode f x1 x2)

/-- loop over components (add.py:218-244) -/
noncomputable def collect (A : Api M P) (mode : String) :
    List String → Heap M → Up P → (Heap M × Up P) × Except PyErr (String → Option Arr3)
  | [], h, u => ((h, u), .ok fun _ => none)
  | comp :: comps, h, u => match oneComponent A mode comp h u with
    | (s, .error e) => (s, .error e)
    | (s, .ok v) => match collect A mode comps s.1 s.2 with
      | (t, .error e) => (t, .error e)
      | (t, .ok d) => (t, .ok fun c => match d c with
        | some w => some w
        | none => if c = comp then some v else none)

/-- an attribute of an object -/
def Up.store (u : Up P) (mode : String) (d : String → Option Arr3) : Up P :=
  { u with attrs := fun m => if m = mode then some d else u.attrs m }

/-- `results` (add.py:202-248) -/
noncomputable def results (A : Api M P) (comps : List String) :
    List String → Heap M → Up P → (Heap M × Up P) × Except PyErr Unit
  | [], h, u => ((h, u), .ok ())
  | mode :: modes, h, u => match collect A mode comps h u with
    | (s, .error e) => (s, .error e)
    | (s, .ok d) => results A comps modes s.1 (s.2.store mode d)

/-! ## A program that uses halo models and upsampled objects -/

/-- the memory of a program: halo models, and the upsampled objects numbered in the order of their construction -/
structure World (M P : Type) where
  heap : Heap M
  nup : ℕ
  up : ℕ → Up P

/-- what a program does -/
inductive Op (P : Type)
  /-- `Spectra(**p)` -/
  | newModel (p : P)
  /-- `model.update(**p)` -/
  | update (r : Ref) (p : P)
  /-- `UpsampledSpectra(...)` -/
  | newUp (p : Pars P)
  /-- `up.results(modes, comps)`; an exception is caught -/
  | results (i : ℕ) (modes comps : List String)

/-- replace an upsampled object -/
def World.setUp (w : World M P) (h : Heap M) (i : ℕ) (u : Up P) : World M P := ⟨h, w.nup, fun j => if j = i then u else w.up j⟩

/-- one step -/
noncomputable def step (A : Api M P) (w : World M P) : Op P → World M P
  | .newModel p => { w with heap := (w.heap.alloc (A.make p)).1 }
  | .update r p => { w with heap := w.heap.set r (A.update (w.heap.obj r) p) }
  | .newUp p => ⟨w.heap, w.nup + 1, fun j => if j = w.nup then Up.fresh p else w.up j⟩
  | .results i modes comps =>
    let s := (AddShared.results A comps modes w.heap (w.up i)).1
    w.setUp s.1 i s.2

/-- a history -/
noncomputable def run (A : Api M P) (w : World M P) (ops : List (Op P)) : World M P := ops.foldl (step A) w

end Verif.AddShared

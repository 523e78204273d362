import Mathlib.Data.List.Basic
import Mathlib.Data.List.GetD
import Mathlib.Logic.Basic

/-!
# Dictionary parameters and who shares them (`/repo/src/onepower/pk.py:193-205, 2075-2095`)

`Spectra` has six dictionary parameters (`poisson_params`, `hod_settings`, `hod_params`, `obs_settings`, `hod_settings_mm`,
`align_params`), two more come from hmi.py:613-615.  Dictionaries are Python objects: the same one can be known to the caller and to
several `Spectra`.  This is a model with a memory of dictionaries, several `Spectra`, and one of the dictionary parameters.

External contract (hmf's `parameter`, DESIGN section 4): the first assignment stores the object that was given; a later one does
nothing if the new value equals the old one, adds the entries of the new dictionary *to the stored object* if the new one is not empty,
and stores the new object if it is empty; then what depends on the parameter is recomputed at the next read.

Simplifications: one dictionary parameter per object, all other parameters are one value `e`, one quantity computed from both.
-/

namespace Verif.DictParams

variable {K V E R : Type}

/-- a Python dictionary -/
abbrev Dict (K V : Type) := K → Option V

/-- `{}` -/
def empty : Dict K V := fun _ => none

/-- `d.update(n)` -/
def merge (d n : Dict K V) : Dict K V := fun k => (n k).orElse fun _ => d k

open Classical in
/-- `d[k] = v`, or `del d[k]` for `none` -/
noncomputable def write (d : Dict K V) (k : K) (v : Option V) : Dict K V := fun k' => if k' = k then v else d k'

/-- the class: the entries the code adds to the dictionary itself before using it (`alignment_class`, pk.py:2085-2094; none for the
other parameters), and the quantity -/
structure Cls (K V E R : Type) where
  extra : E → Dict K V
  quantity : Dict K V → E → R

/-- a `Spectra`: where its dictionary is, its other parameters, and the stored result (`none` if not read yet or flagged) -/
structure Obj (E R : Type) where
  loc : ℕ
  other : E
  memo : Option R

/-- memory: all dictionaries, those the caller has a name for, and the `Spectra` -/
structure World (K V E R : Type) where
  heap : List (Dict K V)
  held : List ℕ
  objs : List (Obj E R)

/-- nothing there -/
def World.start : World K V E R := ⟨[], [], []⟩

/-- what a caller can do -/
inductive Op (K V E : Type)
  /-- make a dictionary -/
  | dict (d : Dict K V)
  /-- change an entry of the `j`th dictionary made -/
  | write (j : ℕ) (k : K) (v : Option V)
  /-- `Spectra(params=...)` with the `j`th dictionary or without -/
  | build (j : Option ℕ) (e : E)
  /-- `spectra[i].update(params=...)` with the `j`th dictionary -/
  | update (i j : ℕ)
  /-- `spectra[i].update(...)` of other parameters -/
  | other (i : ℕ) (e : E)
  /-- read the quantity of `spectra[i]` -/
  | read (i : ℕ)

/-- the dictionary at a place -/
def World.at (w : World K V E R) (l : ℕ) : Dict K V := w.heap.getD l empty

open Classical in
/-- `params or {}` (pk.py:193-205): an empty dictionary of the caller is replaced by a new one -/
noncomputable def World.build (w : World K V E R) (j : Option ℕ) (e : E) : World K V E R :=
  let fresh : World K V E R := ⟨w.heap ++ [empty], w.held, w.objs ++ [⟨w.heap.length, e, none⟩]⟩
  match j.bind fun j => w.held[j]? with
  | none => fresh
  | some l => if w.at l = empty then fresh else { w with objs := w.objs ++ [⟨l, e, none⟩] }

open Classical in
/-- the setter of a dictionary parameter -/
noncomputable def World.update (w : World K V E R) (i : ℕ) (o : Obj E R) (l : ℕ) : World K V E R :=
  if w.at l = w.at o.loc then w
  else if w.at l = empty then { w with objs := w.objs.set i { o with loc := l, memo := none } }
  else { w with heap := w.heap.set o.loc (merge (w.at o.loc) (w.at l)), objs := w.objs.set i { o with memo := none } }

open Classical in
/-- one step, with what is read -/
noncomputable def step (c : Cls K V E R) (w : World K V E R) : Op K V E → World K V E R × Option R
  | .dict d => (⟨w.heap ++ [d], w.held ++ [w.heap.length], w.objs⟩, none)
  | .write j k v =>
    match w.held[j]? with
    | none => (w, none)
    | some l => ({ w with heap := w.heap.set l (DictParams.write (w.at l) k v) }, none)
  | .build j e => (w.build j e, none)
  | .update i j =>
    match w.objs[i]?, w.held[j]? with
    | some o, some l => (w.update i o l, none)
    | _, _ => (w, none)
  | .other i e =>
    match w.objs[i]? with
    | none => (w, none)
    | some o => (if e = o.other then w else { w with objs := w.objs.set i { o with other := e, memo := none } }, none)
  | .read i =>
    match w.objs[i]? with
    | none => (w, none)
    | some o =>
      match o.memo with
      | some r => (w, some r)
      | none =>
        let d := merge (w.at o.loc) (c.extra o.other)
        let r := c.quantity d o.other
        (⟨w.heap.set o.loc d, w.held, w.objs.set i { o with memo := some r }⟩, some r)

/-- a program: the memory afterwards and everything read -/
noncomputable def run (c : Cls K V E R) : World K V E R → List (Op K V E) → World K V E R × List (Option R)
  | w, [] => (w, [])
  | w, op :: ops => ((run c (step c w op).1 ops).1, (step c w op).2 :: (run c (step c w op).1 ops).2)

end Verif.DictParams

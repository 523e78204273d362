import Mathlib.Data.Finset.Basic
import Mathlib.Data.Finset.Lattice.Basic

/-!
# The parameter / cached-quantity machinery of `hmf` (external primitive, assumed contract)

onepower's classes derive from `hmf._internals._framework.Framework` and use `parameter(kind)` and
`cached_quantity` of `hmf._internals._cache` (pk.py:44-45, hmi.py:11-12, ia.py, bnl.py, add.py).
Contract assumed here (hmf >= 3.6):

* setting a parameter to a value equal to the present one does nothing; otherwise the value is stored and
  the quantities whose *index* contains the parameter are flagged for recalculation, or, if the parameter
  has kind `switch`, are dropped from the index altogether;
* reading a quantity that is not indexed runs its code, collects all parameters read meanwhile (also by
  quantities it uses) and stores value and index;
* reading an indexed quantity runs its code again only if it is flagged; its index is *not* recomputed;
  the stored index is added to the indexes being collected at that time;
* `functools.cached_property` (Python standard library) runs its code at the first read and keeps the value.

Quantities are numbered; the code of a quantity can only read quantities with a smaller number (Python
properties that call each other in a circle would not terminate).  Simplifications: the code of a quantity
cannot raise and has no effects other than reading; nothing is deleted.
-/

namespace Verif.Cache

/-- the code of a quantity: a program that reads parameters and quantities `< n` and returns a value -/
inductive Prog (P V : Type) (n : ℕ) : Type
  | ret (v : V) : Prog P V n
  | param (p : P) (k : V → Prog P V n) : Prog P V n
  | quant (q : Fin n) (k : V → Prog P V n) : Prog P V n

/-- `cached_quantity` or `functools.cached_property` -/
inductive Kind
  | tracked
  | frozen
  deriving DecidableEq

/-- a class: which parameters are switches, and kind and code of every quantity -/
structure Cls (P V : Type) where
  isSwitch : P → Bool
  kind : ℕ → Kind
  code : (q : ℕ) → Prog P V q

/-- an object -/
structure Obj (P V : Type) where
  params : P → V
  /-- the parameters a tracked quantity is known to depend on; `none` if it is not indexed -/
  index : ℕ → Option (Finset P)
  flagged : ℕ → Bool
  memo : ℕ → V
  /-- has the frozen quantity been read -/
  done : ℕ → Bool

variable {P V : Type} [DecidableEq P] (c : Cls P V)

/-- run a program given a way to read quantities; returns value, parameters collected, object -/
def runProg {n : ℕ} (ev : Fin n → Obj P V → V × Finset P × Obj P V) :
    Prog P V n → Obj P V → V × Finset P × Obj P V
  | .ret v, o => (v, ∅, o)
  | .param p k, o =>
    let r := runProg ev (k (o.params p)) o
    (r.1, insert p r.2.1, r.2.2)
  | .quant q k, o =>
    let a := ev q o
    let r := runProg ev (k a.1) a.2.2
    (r.1, a.2.1 ∪ r.2.1, r.2.2)

/-- read a quantity: value, parameters added to the indexes being collected, object afterwards -/
def readQ (q : ℕ) (o : Obj P V) : V × Finset P × Obj P V :=
  match c.kind q with
  | .frozen =>
    if o.done q then (o.memo q, ∅, o)
    else
      let r := runProg (fun i o => readQ i o) (c.code q) o
      (r.1, r.2.1, { r.2.2 with memo := Function.update r.2.2.memo q r.1,
                                done := Function.update r.2.2.done q true })
  | .tracked =>
    match o.index q with
    | some D =>
      if o.flagged q then
        let r := runProg (fun i o => readQ i o) (c.code q) o
        (r.1, r.2.1 ∪ D, { r.2.2 with memo := Function.update r.2.2.memo q r.1,
                                       flagged := Function.update r.2.2.flagged q false })
      else (o.memo q, D, o)
    | none =>
      let r := runProg (fun i o => readQ i o) (c.code q) o
      (r.1, r.2.1, { r.2.2 with memo := Function.update r.2.2.memo q r.1,
                                index := Function.update r.2.2.index q (some r.2.1),
                                flagged := Function.update r.2.2.flagged q false })
termination_by q
decreasing_by all_goals exact i.2

open Classical in
/-- set a parameter -/
noncomputable def setP (p : P) (v : V) (o : Obj P V) : Obj P V :=
  if v = o.params p then o
  else if c.isSwitch p then
    { o with params := Function.update o.params p v,
             index := fun q => match o.index q with
               | some D => if p ∈ D then none else some D
               | none => none }
  else
    { o with params := Function.update o.params p v,
             flagged := fun q => match o.index q with
               | some D => if p ∈ D then true else o.flagged q
               | none => o.flagged q }

/-- a newly built object with the given parameters -/
def newObj [Inhabited V] (σ : P → V) : Obj P V :=
  ⟨σ, fun _ => none, fun _ => false, fun _ => default, fun _ => false⟩

/-- one step of using an object: reading a quantity or setting a parameter (`update(a=.., b=..)` is a
sequence of settings) -/
inductive Op (P V : Type)
  | read (q : ℕ)
  | set (p : P) (v : V)

/-- the object after a step -/
noncomputable def step (o : Obj P V) : Op P V → Obj P V
  | .read q => (readQ c q o).2.2
  | .set p v => setP c p v o

/-- the object after a history -/
noncomputable def run (o : Obj P V) (h : List (Op P V)) : Obj P V := h.foldl (step c) o

/-- the value a user reads -/
def value (q : ℕ) (o : Obj P V) : V := (readQ c q o).1

end Verif.Cache

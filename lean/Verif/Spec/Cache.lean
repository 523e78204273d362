import Verif.Lib.HmfCache

/-! Specification for the cache properties: what a quantity *means* for given parameters, without any
cache, and which parameters its evaluation looks at. -/

namespace Verif.Cache

variable {P V : Type} [DecidableEq P]

/-- run a program without caches: value and parameters looked at -/
def denProg (σ : P → V) {n : ℕ} (ev : Fin n → V × Finset P) : Prog P V n → V × Finset P
  | .ret v => (v, ∅)
  | .param p k => let r := denProg σ ev (k (σ p)); (r.1, insert p r.2)
  | .quant q k => let r := denProg σ ev (k (ev q).1); (r.1, (ev q).2 ∪ r.2)

/-- value of a quantity for parameters `σ`, and the parameters looked at, ignoring all caching -/
def den (c : Cls P V) (σ : P → V) (q : ℕ) : V × Finset P :=
  denProg σ (fun i => den c σ i) (c.code q)
termination_by q
decreasing_by exact i.2

/-- the program only reads quantities of `S` -/
def ReadsOnly (S : Set ℕ) {n : ℕ} : Prog P V n → Prop
  | .ret _ => True
  | .param _ k => ∀ v, ReadsOnly S (k v)
  | .quant q k => (q : ℕ) ∈ S ∧ ∀ v, ReadsOnly S (k v)

/-- `S` is a set of tracked quantities that only use each other -/
structure Closed (c : Cls P V) (S : Set ℕ) : Prop where
  tracked : ∀ q ∈ S, c.kind q = .tracked
  reads : ∀ q ∈ S, ReadsOnly S (c.code q)

/-- which parameters a quantity of `S` looks at is decided by switches only -/
def SwitchDisciplined (c : Cls P V) (S : Set ℕ) : Prop :=
  ∀ q ∈ S, ∀ σ σ' : P → V, (∀ p, c.isSwitch p = true → σ p = σ' p) → (den c σ q).2 = (den c σ' q).2

/-- the parameters after a history: the last value set for each -/
def finalParams (σ : P → V) : List (Op P V) → P → V
  | [] => σ
  | .read _ :: h => finalParams σ h
  | .set p v :: h => finalParams (Function.update σ p v) h

end Verif.Cache

import Verif.Spec.Cache

/-! Specification for caching within a regime: the quantities an evaluation uses, histories that read only
while the parameters satisfy a condition. -/

namespace Verif.Cache

variable {P V : Type} [DecidableEq P]

/-- the quantities a program reads itself, when run without caches -/
def directQ (σ : P → V) {n : ℕ} (ev : Fin n → V × Finset P) : Prog P V n → Finset ℕ
  | .ret _ => ∅
  | .param p k => directQ σ ev (k (σ p))
  | .quant q k => insert (q : ℕ) (directQ σ ev (k (ev q).1))

/-- the quantities the code of `q` reads itself for parameters `σ` -/
def direct (c : Cls P V) (σ : P → V) (q : ℕ) : Finset ℕ :=
  directQ σ (fun i => den c σ i) (c.code q)

/-- all quantities evaluated, directly or not, when `q` is evaluated for parameters `σ` -/
inductive Uses (c : Cls P V) (σ : P → V) : ℕ → ℕ → Prop
  | self (q : ℕ) : Uses c σ q q
  | step {q i j : ℕ} : i ∈ direct c σ q → Uses c σ i j → Uses c σ q j

/-- every read of the history happens while the parameters satisfy `Good` -/
def ReadsIn (Good : (P → V) → Prop) (σ : P → V) : List (Op P V) → Prop
  | [] => True
  | .read _ :: h => Good σ ∧ ReadsIn Good σ h
  | .set p v :: h => ReadsIn Good (Function.update σ p v) h

/-- `S` is a set of tracked quantities that use only each other while the parameters satisfy `Good`, and that
look at the same parameters whenever they satisfy `Good` -/
structure Stable (c : Cls P V) (Good : (P → V) → Prop) (S : Set ℕ) : Prop where
  tracked : ∀ q ∈ S, c.kind q = .tracked
  closed : ∀ σ, Good σ → ∀ q ∈ S, ∀ i ∈ direct c σ q, i ∈ S
  same : ∀ σ σ', Good σ → Good σ' → ∀ q ∈ S, (den c σ q).2 = (den c σ' q).2

/-- the class in which quantity `f` is the constant `w` and nothing is frozen -/
def pin (c : Cls P V) (f : ℕ) (w : V) : Cls P V where
  isSwitch := c.isSwitch
  kind _ := .tracked
  code q := if q = f then .ret w else c.code q

/-- `f` is the only frozen quantity, and in the regime everything else always looks at the same parameters and
either always or never uses `f` -/
structure OneFrozen (c : Cls P V) (Good : (P → V) → Prop) (f : ℕ) : Prop where
  only : ∀ q, c.kind q = .frozen ↔ q = f
  same : ∀ w σ σ', Good σ → Good σ' → ∀ q, (den (pin c f w) σ q).2 = (den (pin c f w) σ' q).2
  uses : ∀ σ σ', Good σ → Good σ' → ∀ q, Uses c σ q f → Uses c σ' q f

end Verif.Cache

import Verif.Model.SpectraDeps
import Verif.Props.CacheFrozen

/-! What the quantities of `Spectra` look at, read off their code. -/

namespace Verif.SpectraDeps

open Verif.Cache

variable {V : Type} (S : Sem V)

/-- the outcome of every condition for parameters `σ` -/
def outcome (σ : String → V) (t : Test) : Bool := S.holds t (σ t.param)

/-- parameters looked at by a body, given those looked at by the quantities it reads -/
def depsB (R : Test → Bool) {n : ℕ} (D : Fin n → Finset String) : Body n → Finset String
  | .ret => ∅
  | .read (.p s) k => insert s (depsB R D k)
  | .read (.q i h) k => D ⟨i, h⟩ ∪ depsB R D k
  | .ite t a b => insert t.param (if R t = true then depsB R D a else depsB R D b)

/-- quantities read by a body -/
def readB (R : Test → Bool) {n : ℕ} : Body n → List ℕ
  | .ret => []
  | .read (.p _) k => readB R k
  | .read (.q i _) k => i :: readB R k
  | .ite t a b => if R t = true then readB R a else readB R b

theorem denProg_compile (σ : String → V) {n : ℕ} (ev : Fin n → V × Finset String) (b : Body n) (acc : List V) :
    (denProg σ ev (compile S b acc)).2 = depsB (outcome S σ) (fun i => (ev i).2) b := by
  induction b generalizing acc with
  | ret => rfl
  | read s k ih =>
    cases s with
    | p s => simp only [compile, denProg, depsB]; rw [ih]
    | q i h => simp only [compile, denProg, depsB]; rw [ih]
  | ite t a b iha ihb =>
    simp only [compile, denProg, depsB]
    by_cases h : outcome S σ t = true
    · rw [if_pos h, if_pos (show S.holds t (σ t.param) = true from h), iha]
    · rw [if_neg h, if_neg (show ¬ S.holds t (σ t.param) = true from h), ihb]

theorem directQ_compile (σ : String → V) {n : ℕ} (ev : Fin n → V × Finset String) (b : Body n) (acc : List V) :
    directQ σ ev (compile S b acc) = (readB (outcome S σ) b).toFinset := by
  induction b generalizing acc with
  | ret => rfl
  | read s k ih =>
    cases s with
    | p s => simp only [compile, directQ, readB]; rw [ih]
    | q i h => simp only [compile, directQ, readB, List.toFinset_cons]; rw [ih]
  | ite t a b iha ihb =>
    simp only [compile, directQ, readB]
    by_cases h : outcome S σ t = true
    · rw [if_pos h, if_pos (show S.holds t (σ t.param) = true from h), iha]
    · rw [if_neg h, if_neg (show ¬ S.holds t (σ t.param) = true from h), ihb]

theorem direct_cls (σ : String → V) (q : ℕ) :
    direct (cls S) σ q = (readB (outcome S σ) (body q)).toFinset :=
  directQ_compile S σ _ _ _

/-- two parameter settings in the same regime: all conditions the code branches on have the same outcome -/
def SameRegime (σ τ : String → V) : Prop := ∀ t, outcome S σ t = outcome S τ t

theorem deps_same (w : V) {σ τ : String → V} (h : SameRegime S σ τ) (q : ℕ) :
    (den (pin (cls S) omegaM w) σ q).2 = (den (pin (cls S) omegaM w) τ q).2 := by
  induction q using Nat.strong_induction_on with
  | _ q ih =>
    by_cases hq : q = omegaM
    · subst hq; rw [den_pin_self, den_pin_self]
    · rw [den_pin_ne σ hq, den_pin_ne τ hq]
      change (denProg σ _ (compile S (body q) [])).2 = (denProg τ _ (compile S (body q) [])).2
      rw [denProg_compile, denProg_compile]
      have e1 : outcome S σ = outcome S τ := funext h
      have e2 : (fun i : Fin q => (den (pin (cls S) omegaM w) σ i).2) =
          fun i : Fin q => (den (pin (cls S) omegaM w) τ i).2 := funext fun i => ih i i.2
      rw [e1, e2]

theorem uses_same {σ τ : String → V} (h : SameRegime S σ τ) {q j : ℕ} (hu : Uses (cls S) σ q j) :
    Uses (cls S) τ q j := by
  have e1 : outcome S σ = outcome S τ := funext h
  induction hu with
  | self q => exact .self q
  | step h1 _ ih =>
    refine .step ?_ ih
    rw [direct_cls] at h1 ⊢
    rw [← e1]
    exact h1

/-- `Spectra` has one frozen quantity, `omega_m`; in a regime everything looks at the same parameters -/
theorem oneFrozen (σ₀ : String → V) : OneFrozen (cls S) (fun σ => SameRegime S σ σ₀) omegaM where
  only q := by
    simp only [cls]
    split_ifs with h <;> simp [h]
  same w σ σ' h h' q := by
    rw [deps_same S w h, deps_same S w h']
  uses σ σ' h h' q hu := uses_same S (fun t => (h t).trans (h' t).symm) hu

end Verif.SpectraDeps

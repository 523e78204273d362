import Verif.Lib.HmfCache

/-!
# A live `NonLinearBias` object (`/repo/src/onepower/bnl.py`)

`NonLinearBias` uses the parameter / cached-quantity machinery of `hmf` (`Lib/HmfCache`).  All twelve parameters are declared with
kind `param` (none is a switch), and the five cached quantities are given with what they read, in which order, and on what they
branch.  What is *computed* from the values read is an arbitrary function (`Sem.out`), so everything proved holds whatever the
emulator answers.

Reads made inside plain methods and properties (`minimum_halo_mass`, `compute_bnl_darkquest`) belong to the quantity that calls
them.  A value read several times is listed at its first occurrence.  Simplification: `emulator` raises if neither `A_s` nor
`sigma_8` is given (bnl.py:253-254, C79); here it returns some value, and the theorems ask that no read is made in that case.
-/

namespace Verif.BnlCache

open Verif.Cache

/-- the parameters (bnl.py:86-192) -/
inductive Par
  | mass | zVec | kVec | h0 | sigma8 | aS | omegaB | omegaC | omegaLambda | nS | w0 | zDep
  deriving DecidableEq

/-- what the values are: `out q vs` is computed by quantity `q` from the values `vs` it read, `isNone` recognises `None` and
`truthy` decides `if self.z_dep` -/
structure Sem (V : Type) where
  out : ℕ → List V → V
  isNone : V → Bool
  truthy : V → Bool

abbrev ombh2 : ℕ := 0
abbrev omch2 : ℕ := 1
abbrev emulator : ℕ := 2
abbrev interpolation : ℕ := 3
abbrev bnl : ℕ := 4

variable {V : Type} (S : Sem V)

/-- the part of `emulator` that both ways of giving the amplitude share: physical densities, dark energy, spectral index and
equation of state (bnl.py:232-243, 256-267); `acc` are the values read so far -/
def cosmology (acc : List V) : Prog Par V emulator :=
  .quant ⟨ombh2, by decide⟩ fun ob => .quant ⟨omch2, by decide⟩ fun oc => .param .omegaLambda fun ol =>
    .param .nS fun ns => .param .w0 fun w => .ret (S.out emulator (acc ++ [ob, oc, ol, ns, w]))

/-- the reading behaviour of every cached quantity -/
def code : (n : ℕ) → Prog Par V n
  -- ombh2 bnl.py:194-204
  | 0 => .param .omegaB fun b => .param .h0 fun h => .ret (S.out ombh2 [b, h])
  -- omch2 bnl.py:206-216
  | 1 => .param .omegaC fun c => .param .h0 fun h => .ret (S.out omch2 [c, h])
  -- emulator bnl.py:218-269: `A_s` is looked at first, `sigma_8` only if `A_s` is `None`
  | 2 => .param .aS fun a =>
      if S.isNone a = true then
        .param .sigma8 fun s => if S.isNone s = true then .ret (S.out emulator [a, s]) else cosmology S [a, s]
      else cosmology S [a]
  -- create_bnl_interpolation_function bnl.py:528-567: `z_vec`, the emulator (bnl.py:364, 470-504), `z_dep`
  | 3 => .param .zVec fun z => .quant ⟨emulator, by decide⟩ fun e => .param .zDep fun d =>
      .ret (S.out interpolation [z, e, d])
  -- bnl bnl.py:271-309
  | 4 => .quant ⟨interpolation, by decide⟩ fun f => .param .mass fun m => .param .kVec fun k => .param .zDep fun d =>
      if S.truthy d = true then .param .zVec fun z => .ret (S.out bnl [f, m, k, d, z])
      else .ret (S.out bnl [f, m, k, d])
  | _ => .ret (S.out 5 [])

/-- the class: no parameter is a switch, every quantity is a `cached_quantity` -/
def cls : Cls Par V where
  isSwitch _ := false
  kind _ := .tracked
  code := code S

end Verif.BnlCache

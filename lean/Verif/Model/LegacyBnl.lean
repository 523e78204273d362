import Verif.Model.Bnl
import Mathlib.Algebra.Order.Round

/-!
# The legacy modules for the non-linear bias (`/repo/cosmosis_modules/legacy/bnl/*.py`, `bnl_delete/bnl_interface_delete.py`)

The emulator, the quadratic spline and the arrays are as in `Model/Bnl.lean`; the emulator after `set_cosmology(p)` is a function of the
six numbers `p`.  `curve_fit` of a constant is a function of the list of fitted values (an empty list is a ValueError).  The option
`update_bnl` is an integer.  `interpolate_bnl` and the redshifts, which are passed on and never used, are left out.
-/

namespace Verif.LegacyBnl

open Verif.Lib Verif.Bnl

/-- what the modules read from the data block: `matter_power_lin/k_h` and the section of the cosmological parameters -/
structure Block where
  kh : Option (List ℝ)
  par : String → Option ℝ

/-- `block['cosmological_parameters', name]` -/
def Block.get (B : Block) (name : String) : Except PyErr ℝ :=
  match B.par name with
  | none => .error .blockError
  | some x => .ok x

/-- the length of `np.arange(lo, hi, step)` -/
noncomputable def arangeLen (lo hi step : ℝ) : ℕ := ⌈(hi - lo) / step⌉₊

/-- `dlog10m` and `mass` of `setup` (bnl_interface.py:41-45, bnl_interface_class.py:23-27) -/
noncomputable def setupMass (lo hi : ℝ) (nmass : ℕ) : Except PyErr (ℕ × (ℕ → ℝ)) :=
  if nmass = 0 then .error .zeroDivision
  else
    let d := (hi - lo) / nmass
    .ok (arangeLen lo hi d, fun i => (10 : ℝ) ^ (lo + i * d))

/-- `k_vec` (bnl_interface.py:82-83, bnl_interface_class.py:60-61) -/
noncomputable def readK (B : Block) (nk : ℕ) : Except PyErr (ℕ → ℝ) :=
  match B.kh with
  | none => .error .blockError
  | some l => match l[0]?, l.getLast? with
    | some a, some b => .ok fun i => Bnl.logspace (log10 a) (log10 b) nk i
    | _, _ => .error .indexError

/-- the vector of parameters (bnl_interface.py:90-98) -/
noncomputable def params (B : Block) : Except PyErr (ℕ → ℝ) := do
  let ombh2 ← B.get "ombh2"
  let omch2 ← B.get "omch2"
  let ol ← B.get "omega_lambda"
  let As ← B.get "A_s"
  let ns ← B.get "n_s"
  let w ← B.get "w"
  return fun
    | 0 => ombh2
    | 1 => omch2
    | 2 => ol
    | 3 => Real.log (As * 10 ^ 10)
    | 4 => ns
    | _ => w

/-! ## the table -/

open Classical in
/-- `Pk_hh[(k > 100) & (k < 200)]` (bnl_util.py:112) -/
noncomputable def fitValues (nk : ℕ) (k p : ℕ → ℝ) : List ℝ :=
  ((List.range nk).filter fun l => 100 < k l ∧ k l < 200).map p

/-- the body of the double loop for `iM1 ≤ iM2` (bnl_util.py:99-129); the first `db` is overwritten before use and left out -/
noncomputable def cell (em : Emu) (fit : List ℝ → ℝ) (quad : Quad) (z : ℝ) (nk : ℕ) (k : ℕ → ℝ) (kmax b1 b2 M1 M2 : ℝ) :
    Except PyErr (ℕ → ℝ) :=
  let klin : ℝ := 0.05
  let raw := fun l => em.phh (k l) M1 M2 z
  let ys := fitValues nk k raw
  if ys = [] then .error .valueError
  else do
    let beta := fun l => (raw l - fit ys) / (b1 * b2 * em.pklin (k l) z) - 1
    let (_, lmax) ← hlEnvelopesIdx nk (fun l => |beta l + 1|)
    let interp ← quadratic quad (lmax.map fun l => (k l, |beta l + 1|))
    let db := interp klin - 1
    return fun l => (interp (k l) - 1 - db) * lowK (k l) klin * highK (k l) (3 * kmax)

/-- one pass of the double loop (bnl_util.py:94-129): below the diagonal the mirror image is copied -/
def pass (c : ℕ → ℕ → Except PyErr (ℕ → ℝ)) (T : ℕ → ℕ → ℕ → ℝ) (p : ℕ × ℕ) : Except PyErr (ℕ → ℕ → ℕ → ℝ) :=
  if p.2 < p.1 then .ok fun a b => if a = p.1 ∧ b = p.2 then T p.2 p.1 else T a b
  else match c p.1 p.2 with
    | .error e => .error e
    | .ok v => .ok fun a b => if a = p.1 ∧ b = p.2 then v else T a b

/-- the pairs of the double loop, row by row -/
def square (n : ℕ) : List (ℕ × ℕ) := (List.range n).flatMap fun i => (List.range n).map fun j => (i, j)

/-- `compute_bnl_darkquest` (bnl_util.py:74-131) on one grid of masses -/
noncomputable def compute (em : Emu) (fit : List ℝ → ℝ) (quad : Quad) (z : ℝ) (n nk : ℕ) (logM k : ℕ → ℝ) (kmax : ℝ) :
    Except PyErr (ℕ → ℕ → ℕ → ℝ) :=
  let M := fun i => (10 : ℝ) ^ logM i
  let b01 := fun i => linearBias em z (M i)
  (square n).foldlM (pass fun i j => cell em fit quad z nk k kmax (b01 i) (b01 j) (M i) (M j)) (fun _ _ _ => 0)

/-- `create_bnl_interpolation_function` (bnl_util.py:133-155): one function, at redshift 0.01 -/
noncomputable def interpolation (em : Emu) (fit : List ℝ → ℝ) (quad : Quad) (Om : ℝ) : Except PyErr (ℝ → ℝ → ℝ → ℝ) := do
  let T ← compute em fit quad 0.01 5 1000 (massNodes Om) kNodes (minimumHaloMass Om).2
  return gridInterp Om T

/-- `beta_interp2` (bnl_interface.py:104-112): `np.meshgrid` with its default order has the second argument on the first axis, so
the flat position `t` belongs to mass `t % (n p) / p` of the first, mass `t / (n p)` of the second argument and wavenumber `t % p` -/
noncomputable def fill (f : ℝ → ℝ → ℝ → ℝ) (n p : ℕ) (mass kVec : ℕ → ℝ) : ℕ → ℕ → ℕ → ℝ :=
  scatter (n * (n * p)) (fun t => t % (n * p) / p) (fun t => t / (n * p)) (fun t => t % p)
    fun t => f (log10 (mass (t % (n * p) / p))) (log10 (mass (t / (n * p)))) (log10 (kVec (t % p)))

/-- `beta_interp` without its first axis of length one: the lengths of the other three axes and the entries -/
structure Tab where
  d1 : ℕ
  d2 : ℕ
  d3 : ℕ
  val : ℕ → ℕ → ℕ → ℝ

/-- the grids and external functions: the emulator with its `Omega0` after `set_cosmology` -/
structure Env where
  emu : (ℕ → ℝ) → Emu × ℝ
  sig8 : (ℕ → ℝ) → ℝ
  fit : List ℝ → ℝ
  quad : Quad
  n : ℕ
  mass : ℕ → ℝ
  nk : ℕ
  zs : List ℝ

/-- the new table of `execute` (bnl_interface.py:89-114) -/
noncomputable def table (E : Env) (kVec : ℕ → ℝ) (B : Block) : Except PyErr Tab := do
  let p ← params B
  let c ← testCosmo 6 p
  let f ← interpolation (E.emu c).1 E.fit E.quad (E.emu c).2
  return ⟨E.n, E.n, E.nk, fill f E.n E.nk E.mass kVec⟩

/-- the arguments of `NonLinearBias` (bnl_interface_class.py:68-80); `sigma_8` keeps its default 0.8 -/
noncomputable def classCosmo (B : Block) : Except PyErr Cosmo := do
  let h0 ← B.get "h0"
  let As ← B.get "A_s"
  let ob ← B.get "omega_b"
  let oc ← B.get "omega_c"
  let om ← B.get "omega_m"
  let ns ← B.get "n_s"
  let w ← B.get "w"
  return ⟨h0, some 0.8, some As, ob, oc, 1 - om, ns, w⟩

/-- the new table of `execute` with the rewritten class (bnl_interface_class.py:68-83) -/
noncomputable def classTable (E : Env) (kVec : ℕ → ℝ) (B : Block) : Except PyErr Tab := do
  let cosmo ← classCosmo B
  let c ← emulator E.sig8 cosmo
  let l ← Bnl.bnl (E.emu c).1 E.quad (E.emu c).2 false E.zs E.n E.nk E.mass kVec
  match l[0]? with
  | none => .error .indexError
  | some T => return ⟨E.nk, E.n, E.n, T⟩

/-! ## the cache -/

/-- `cached_bnl` -/
structure St where
  calls : ℕ
  cache : Option Tab
  update : ℤ

/-- `execute` with `bnl` on (bnl_interface.py:85-119, bnl_interface_class.py:63-89), for either way of making a table.  On an exception
the counter and the cache keep their values. -/
noncomputable def execute (mk : (ℕ → ℝ) → Block → Except PyErr Tab) (nk : ℕ) (s : St) (B : Block) : Except PyErr (St × Tab) := do
  let kVec ← readK B nk
  if s.update = 0 then .error .zeroDivision
  else if (s.calls : ℤ) % s.update = 0 then
    let t ← mk kVec B
    return (⟨s.calls + 1, some t, s.update⟩, t)
  else match s.cache with
    | none => .error .typeError
    | some t => return (⟨s.calls + 1, some t, s.update⟩, t)

/-- a chain of calls: the outcome of each -/
noncomputable def chain (mk : (ℕ → ℝ) → Block → Except PyErr Tab) (nk : ℕ) : St → List Block → List (Block × Except PyErr Tab)
  | _, [] => []
  | s, B :: l => match execute mk nk s B with
    | .error e => (B, .error e) :: chain mk nk s l
    | .ok r => (B, .ok r.2) :: chain mk nk r.1 l

/-! ## what the power spectra read -/

/-- the value of `bnl/beta_interp`: `[0.0]` (bnl switched off, or deleted) or a table -/
inductive Out
  | zero
  | tab (t : Tab)

/-- `bnl_interface_delete` (bnl_interface_delete.py:6-32) -/
def delete (sampler : String) (keep : Bool) (o : Option Out) : Option Out :=
  match o with
  | none => none
  | some v => if sampler ≠ "test" ∧ keep = false then some .zero else some v

/-- the entry used at `(z, m1, m2, k)` by the legacy spectra (pk_interface.py:182-195, pk_lib.py:676-717): the table is multiplied with
arrays of shape `(nz, nm, nm, nk)`, so every axis must have that length or length one (for `nm`, `nk` above one) -/
def read (nm nk : ℕ) (o : Option Out) : Except PyErr (ℕ → ℕ → ℕ → ℕ → ℝ) :=
  match o with
  | none => .error .generic
  | some .zero => .error .valueError
  | some (.tab t) =>
    if (t.d1 = nm ∨ t.d1 = 1) ∧ (t.d2 = nm ∨ t.d2 = 1) ∧ (t.d3 = nk ∨ t.d3 = 1) then
      .ok fun _ m1 m2 k => t.val (if t.d1 = nm then m1 else 0) (if t.d2 = nm then m2 else 0) (if t.d3 = nk then k else 0)
    else .error .valueError

end Verif.LegacyBnl

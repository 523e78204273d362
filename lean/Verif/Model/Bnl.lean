import Verif.Lib.Numpy
import Mathlib.Analysis.SpecialFunctions.Log.Base
import Mathlib.Analysis.SpecialFunctions.Pow.Real

/-!
# Model of `src/onepower/bnl.py` (`NonLinearBias`)

The Dark Emulator is external: `Emu` holds the functions the code calls, arbitrary and evaluated wavenumber by
wavenumber (get_phh_mass and get_pklin_from_z on an array are modelled entry by entry).  The quadratic spline
(`interp1d(kind='quadratic')`) is an arbitrary function of its nodes; scipy refuses fewer than three nodes.  Arrays
are lengths and index functions over ℝ.
-/

namespace Verif.Bnl

open Verif.Lib

/-- the functions of the emulator (darkemu.base_class) that are called -/
structure Emu where
  /-- `get_phh_mass(k, M1, M2, z)` -/
  phh : ℝ → ℝ → ℝ → ℝ → ℝ
  /-- `get_pklin_from_z(k, z)` -/
  pklin : ℝ → ℝ → ℝ

/-- parameters used by `emulator` (bnl.py:57-83) -/
structure Cosmo where
  h0 : ℝ
  sigma8 : Option ℝ
  As : Option ℝ
  omegaB : ℝ
  omegaC : ℝ
  omegaLambda : ℝ
  ns : ℝ
  w0 : ℝ

/-- `ombh2` (bnl.py:194-204) -/
noncomputable def Cosmo.ombh2 (c : Cosmo) : ℝ := c.omegaB * c.h0 ^ 2

/-- `omch2` (bnl.py:206-216) -/
noncomputable def Cosmo.omch2 (c : Cosmo) : ℝ := c.omegaC * c.h0 ^ 2

/-- the ranges of the emulator (bnl.py:583-592) -/
noncomputable def edges : List (ℝ × ℝ) :=
  [(0.0211375, 0.0233625), (0.10782, 0.13178), (0.54752, 0.82128), (2.4752, 3.7128), (0.916275, 1.012725),
    (-1.2, -0.8)]

open Classical in
/-- one pass of the loop (bnl.py:597-601): the two `if`s test the input and write the output -/
noncomputable def clampStep (cin cout : ℕ → ℝ) (i : ℕ) (e : ℝ × ℝ) : ℕ → ℝ :=
  let c1 := if cin i < e.1 then Function.update cout i e.1 else cout
  if e.2 < cin i then Function.update c1 i e.2 else c1

/-- the loop `for i, (key, edges) in enumerate(...)` -/
noncomputable def clampLoop (cin : ℕ → ℝ) : ℕ → List (ℝ × ℝ) → (ℕ → ℝ) → (ℕ → ℝ)
  | _, [], cout => cout
  | i, e :: es, cout => clampLoop cin (i + 1) es (clampStep cin cout i e)

/-- `test_cosmo` (bnl.py:569-603) on an array of `n` numbers: `reshape(1, 6)` needs `n = 6` -/
noncomputable def testCosmo (n : ℕ) (cin : ℕ → ℝ) : Except PyErr (ℕ → ℝ) :=
  if n ≠ 6 then .error .valueError else .ok (clampLoop cin 0 edges cin)

/-- the vector handed to `test_cosmo` (bnl.py:233-242, 255-265) -/
noncomputable def Cosmo.vec (c : Cosmo) (lnA : ℝ) : ℕ → ℝ
  | 0 => c.ombh2
  | 1 => c.omch2
  | 2 => c.omegaLambda - 0.00064
  | 3 => lnA
  | 4 => c.ns
  | _ => c.w0

/-- `emulator` (bnl.py:218-269): the parameter vector the emulator is left with; `sig8 p` is `get_sigma8()` after
`set_cosmology(p)` -/
noncomputable def emulator (sig8 : (ℕ → ℝ) → ℝ) (c : Cosmo) : Except PyErr (ℕ → ℝ) :=
  match c.As, c.sigma8 with
  | none, some s8 => do
    let AsInit : ℝ := 2.1e-9
    let cparam ← testCosmo 6 (c.vec (Real.log (AsInit * 1e10)))
    let s8Init := sig8 cparam
    let scaling := s8 ^ 2 / s8Init ^ 2
    let As := AsInit * scaling
    testCosmo 6 (c.vec (Real.log (As * 1e10)))
  | some As, _ => testCosmo 6 (c.vec (Real.log (As * 1e10)))
  | none, none => .error .valueError

/-- `np.log10` -/
noncomputable def log10 (x : ℝ) : ℝ := Real.logb 10 x

/-- `low_k_truncation` (bnl.py:311-327) -/
noncomputable def lowK (k kt : ℝ) : ℝ := 1 / (1 + Real.exp (-(10 * (log10 k - log10 kt))))

/-- `high_k_truncation` (bnl.py:329-345) -/
noncomputable def highK (k kt : ℝ) : ℝ := 1 / (1 + Real.exp (10 * (log10 k - log10 kt)))

/-- mean matter density used by `minimum_halo_mass` and `rvir` (bnl.py:363-364, 389-390) -/
noncomputable def rhom (Om : ℝ) : ℝ := 2.77536627e11 * Om

/-- `minimum_halo_mass` (bnl.py:347-373) -/
noncomputable def minimumHaloMass (Om : ℝ) : ℝ × ℝ :=
  let npMin : ℝ := 200
  let npart : ℝ := 2048
  let L : ℝ := 1000
  let Mbox := rhom Om * L ^ 3
  let mmin := Mbox * npMin / npart ^ 3
  let vmin := L ^ 3 * npMin / npart ^ 3
  let rmin := ((3 * vmin) / (4 * Real.pi)) ^ ((1 : ℝ) / 3)
  (mmin, 2 * Real.pi / rmin)

/-- `rvir` (bnl.py:375-391) -/
noncomputable def rvir (Om mass : ℝ) : ℝ := ((3 * mass) / (4 * Real.pi * 200 * rhom Om)) ^ ((1 : ℝ) / 3)

/-- `np.diff(np.sign(np.diff(data)))` at position `i` -/
noncomputable def turn (data : ℕ → ℝ) (i : ℕ) : ℝ :=
  npSign (data (i + 2) - data (i + 1)) - npSign (data (i + 1) - data i)

open Classical in
/-- local minima (bnl.py:411) of `n` points -/
noncomputable def localMin (n : ℕ) (data : ℕ → ℝ) : List ℕ :=
  ((List.range (n - 2)).filter fun i => 0 < turn data i).map (· + 1)

open Classical in
/-- local maxima (bnl.py:413) of `n` points -/
noncomputable def localMax (n : ℕ) (data : ℕ → ℝ) : List ℕ :=
  ((List.range (n - 2)).filter fun i => turn data i < 0).map (· + 1)

/-- `[i + arg(data[l[i:i+d]]) for i in range(0, len(l), d)]` (bnl.py:417-420, 424-427), with `arg` argmin or argmax.
`range` with step 0 is a ValueError. -/
def chunkPositions (arg : List ℕ → ℕ) (d : ℕ) (l : List ℕ) : Except PyErr (List ℕ) :=
  if d = 0 then .error .valueError
  else .ok ((List.range ((l.length + d - 1) / d)).map fun c => c * d + arg ((l.drop (c * d)).take d))

/-- `l[positions]` (bnl.py:416, 423) -/
def gather (l : List ℕ) (pos : List ℕ) : Except PyErr (List ℕ) :=
  pos.mapM fun i => match l[i]? with
    | some v => .ok v
    | none => .error .indexError

/-- `hl_envelopes_idx` (bnl.py:393-431) -/
noncomputable def hlEnvelopesIdx (n : ℕ) (data : ℕ → ℝ) (dmin dmax : ℕ := 1) : Except PyErr (List ℕ × List ℕ) := do
  let p ← chunkPositions (npArgmin data) dmin (localMin n data)
  let lmin ← gather (localMin n data) p
  let q ← chunkPositions (npArgmax data) dmax (localMax n data)
  let lmax ← gather (localMax n data) q
  return (lmin, lmax)

open Classical in
/-- `np.mean(Pk_hh[hk_mask])` with `hk_mask = (k > 100) & (k < 200)` (bnl.py:479, 498) -/
noncomputable def shotNoise (nk : ℕ) (k p : ℕ → ℝ) : ℝ :=
  let idx := (List.range nk).filter fun l => 100 < k l ∧ k l < 200
  (idx.map p).sum / idx.length

/-- the spline constructor and evaluation: nodes ↦ query ↦ value -/
abbrev Quad := List (ℝ × ℝ) → ℝ → ℝ

/-- `interp1d(x, y, kind='quadratic')`: needs at least three nodes -/
def quadratic (quad : Quad) (nodes : List (ℝ × ℝ)) : Except PyErr (ℝ → ℝ) :=
  if nodes.length < 3 then .error .valueError else .ok (quad nodes)

/-- the body of the double loop (bnl.py:494-521) for one pair of masses; the first `db` (bnl.py:504-506) is
overwritten before use and left out.  Result: `beta_final` at every wavenumber. -/
noncomputable def betaCell (em : Emu) (quad : Quad) (z : ℝ) (nk : ℕ) (k : ℕ → ℝ) (kmax b1 b2 M1 M2 : ℝ) :
    Except PyErr (ℕ → ℝ) := do
  let klin : ℝ := 0.05
  let raw := fun l => em.phh (k l) M1 M2 z
  let shot := shotNoise nk k raw
  let beta := fun l => (raw l - shot) / (b1 * b2 * em.pklin (k l) z) - 1
  let (_, lmax) ← hlEnvelopesIdx nk (fun l => |beta l + 1|)
  let interp ← quadratic quad (lmax.map fun l => (k l, |beta l + 1|))
  let db := interp klin - 1
  return fun l => (interp (k l) - 1 - db) * lowK (k l) klin * highK (k l) (3 * kmax)

/-- linear halo bias `b01` (bnl.py:473-476) -/
noncomputable def linearBias (em : Emu) (z M : ℝ) : ℝ := Real.sqrt (em.phh 0.05 M M z / em.pklin 0.05 z)

/-- writing one cell and its mirror image (bnl.py:522-524) -/
def writeSym (T : ℕ → ℕ → ℕ → ℝ) (i j : ℕ) (v : ℕ → ℝ) : ℕ → ℕ → ℕ → ℝ := fun a b =>
  if a = i ∧ b = j then v else if j ≠ i ∧ a = j ∧ b = i then v else T a b

/-- one pass of the double loop over `i`, `j`: `b01[j]` has `n1` entries (bnl.py:488-524) -/
def betaStep (n1 : ℕ) (cell : ℕ → ℕ → Except PyErr (ℕ → ℝ)) (T : ℕ → ℕ → ℕ → ℝ) (p : ℕ × ℕ) :
    Except PyErr (ℕ → ℕ → ℕ → ℝ) :=
  if n1 ≤ p.2 then .error .indexError
  else match cell p.1 p.2 with
    | .error e => .error e
    | .ok v => .ok (writeSym T p.1 p.2 v)

/-- the pairs visited by `for i in range(n1): for j in range(i, n2)` -/
def pairs (n1 n2 : ℕ) : List (ℕ × ℕ) := (List.range n1).flatMap fun i => (List.range' i (n2 - i)).map fun j => (i, j)

/-- `compute_bnl_darkquest` (bnl.py:433-526) -/
noncomputable def computeBnl (em : Emu) (quad : Quad) (z : ℝ) (n1 n2 nk : ℕ) (logM1 logM2 k : ℕ → ℝ) (kmax : ℝ) :
    Except PyErr (ℕ → ℕ → ℕ → ℝ) :=
  let M1 := fun i => (10 : ℝ) ^ logM1 i
  let M2 := fun i => (10 : ℝ) ^ logM2 i
  let b01 := fun i => linearBias em z (M1 i)
  (pairs n1 n2).foldlM (betaStep n1 fun i j => betaCell em quad z nk k kmax (b01 i) (b01 j) (M1 i) (M2 j))
    (fun _ _ _ => 0)

/-- `np.logspace(lo, hi, n)` -/
noncomputable def logspace (lo hi : ℝ) (n i : ℕ) : ℝ := (10 : ℝ) ^ (lo + i * ((hi - lo) / ((n : ℝ) - 1)))

/-- mass nodes of the table, as log10 (bnl.py:543-552) -/
noncomputable def massNodes (Om : ℝ) (i : ℕ) : ℝ :=
  log10 (logspace (log10 (minimumHaloMass Om).1) (log10 ((10 : ℝ) ^ (14 : ℝ))) 5 i)

/-- wavenumber nodes of the table (bnl.py:544, 553) -/
noncomputable def kNodes (i : ℕ) : ℝ := logspace (-3) (log10 200) 1000 i

/-- an interpolation function of the table (`RegularGridInterpolator(method='nearest', fill_value=None)`) -/
noncomputable def gridInterp (Om : ℝ) (T : ℕ → ℕ → ℕ → ℝ) (x y l : ℝ) : ℝ :=
  T (nearestIdx 5 (massNodes Om) x) (nearestIdx 5 (massNodes Om) y) (nearestIdx 1000 (fun i => log10 (kNodes i)) l)

/-- `build_interp` (bnl.py:555-563) -/
noncomputable def buildInterp (em : Emu) (quad : Quad) (Om z : ℝ) : Except PyErr (ℝ → ℝ → ℝ → ℝ) := do
  let T ← computeBnl em quad z 5 5 1000 (massNodes Om) (massNodes Om) kNodes (minimumHaloMass Om).2
  return gridInterp Om T

/-- `create_bnl_interpolation_function` (bnl.py:528-567): one function, or one per redshift.  `zs` holds the
entries of `np.atleast_1d(z_vec)`. -/
noncomputable def createInterp (em : Emu) (quad : Quad) (Om : ℝ) (zDep : Bool) (zs : List ℝ) :
    Except PyErr ((ℝ → ℝ → ℝ → ℝ) ⊕ List (ℝ → ℝ → ℝ → ℝ)) :=
  if !zDep then do
    let f ← buildInterp em quad Om 0.01
    return .inl f
  else do
    let fs ← zs.mapM (buildInterp em quad Om)
    return .inr fs

/-- the array assignment `beta[kk, ii, jj] = f(values)` (bnl.py:304, 308): entries are written in order -/
def scatter (len : ℕ) (kk ii jj : ℕ → ℕ) (v : ℕ → ℝ) : ℕ → ℕ → ℕ → ℝ :=
  (List.range len).foldl (fun T t => fun k i j => if k = kk t ∧ i = ii t ∧ j = jj t then v t else T k i j)
    (fun _ _ _ => 0)

/-- the fill of one redshift plane (bnl.py:282-308): query points, flat indices and assignment -/
noncomputable def fillTable (f : ℝ → ℝ → ℝ → ℝ) (n p : ℕ) (mass kVec : ℕ → ℝ) : Except PyErr (ℕ → ℕ → ℕ → ℝ) :=
  let m := n
  let x := (n, fun i => log10 (mass i))
  let y := (m, fun i => log10 (mass i))
  let z := (p, fun i => log10 (kVec i))
  let Z := npRepeat z (n * m)
  let X := npTile (npRepeat x m) p
  let Y := npTile y (n * p)
  let kk := npRepeat (npArange p) (n * m)
  let ii := npTile (npRepeat (npArange n) m) p
  let jj := npTile (npArange m) (n * p)
  if X.1 ≠ Y.1 ∨ X.1 ≠ Z.1 then .error .valueError
  else if kk.1 ≠ ii.1 ∨ kk.1 ≠ jj.1 ∨ kk.1 ≠ X.1 then .error .indexError
  else .ok (scatter kk.1 kk.2 ii.2 jj.2 fun t => f (X.2 t) (Y.2 t) (Z.2 t))

/-- `bnl` (bnl.py:271-309): entry `r` of the list is the plane of redshift `r`; without redshift dependence there
is one plane -/
noncomputable def bnl (em : Emu) (quad : Quad) (Om : ℝ) (zDep : Bool) (zs : List ℝ) (n p : ℕ) (mass kVec : ℕ → ℝ) :
    Except PyErr (List (ℕ → ℕ → ℕ → ℝ)) := do
  let g ← createInterp em quad Om zDep zs
  match g with
  | .inl f => (fillTable f n p mass kVec).map fun T => [T]
  | .inr fs => fs.mapM fun f => fillTable f n p mass kVec

end Verif.Bnl

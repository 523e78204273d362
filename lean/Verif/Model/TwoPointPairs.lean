import Verif.Model.TwoPointFits
import Verif.Model.TwoPointOps

/-!
# Bin pairs of a measurement, and measurements from a data block (`/repo/cosmosis_modules/legacy/scale_cuts/twopoint.py`)

`bin_pairs`, `get_pair`, `get_error` and `cut_bin_pair` of `SpectrumMeasurement`; `from_block` of one-point functions and redshift
distributions.

Simplifications: numbers of bins are real numbers; the columns `bin1` and `bin2` have one length (numpy raises otherwise); a section of
the data block is given by what it holds under `bin_1`, `bin_2`, … and so on.
-/

namespace Verif.TwoPointPairs

open Verif.Lib Verif.ScaleCuts Verif.TwoPointFits

/-! ## bin pairs -/

/-- `if p not in unique_pairs: unique_pairs.append(p)` (twopoint.py:384-389) -/
noncomputable def unique : List (ℝ × ℝ) → List (ℝ × ℝ) → List (ℝ × ℝ)
  | acc, [] => acc
  | acc, p :: l => unique (if p ∈ acc then acc else acc ++ [p]) l

/-- `get_bin_pairs` (twopoint.py:384-389) -/
noncomputable def binPairs (s : Meas) : List (ℝ × ℝ) := unique [] (s.bin1.zip s.bin2)

/-- a measurement with the attribute `bin_pairs`, which the constructor sets (twopoint.py:352) -/
structure Obj where
  data : Meas
  pairs : List (ℝ × ℝ)

/-- `SpectrumMeasurement(…)` (twopoint.py:343-376) -/
noncomputable def Obj.make (s : Meas) : Obj := ⟨s, binPairs s⟩

/-- `(self.bin1 == b1) & (self.bin2 == b2)` (twopoint.py:441, 458, 462, 468) -/
noncomputable def pairMask (p : ℝ × ℝ) (s : Meas) : List Bool :=
  (s.bin1.zip s.bin2).map fun x => decide (x = p)

/-- `get_pair` (twopoint.py:457-459); without angles a TypeError -/
noncomputable def getPair (p : ℝ × ℝ) (s : Meas) : Except PyErr (List ℝ × List ℝ) := match s.angle with
  | none => .error .typeError
  | some a => .ok (sel (pairMask p s) a, sel (pairMask p s) s.value)

/-- `get_error` (twopoint.py:465-469) -/
noncomputable def getError (p : ℝ × ℝ) (s : Meas) : Option (List ℝ) := s.error.map (sel (pairMask p s))

/-- `apply_mask` (twopoint.py:424-435), statement by statement: what is left of the measurement, and whether it got through.
`None[mask]` is a TypeError -/
def applyMask (m : List Bool) (s : Meas) : Meas × Except PyErr Unit :=
  let s := { s with bin1 := sel m s.bin1, bin2 := sel m s.bin2, angbin := sel m s.angbin }
  match s.angle with
  | none => (s, .error .typeError)
  | some a =>
    let s := { s with angle := some (sel m a), value := sel m s.value, error := s.error.map (sel m) }
    match s.angleMin with
    | none => (s, .ok ())
    | some lo =>
      let s := { s with angleMin := some (sel m lo) }
      match s.angleMax with
      | none => (s, .error .typeError)
      | some hi => ({ s with angleMax := some (sel m hi) }, .ok ())

/-- `cut_bin_pair` (twopoint.py:437-446); `bin_pairs` is left as it is -/
noncomputable def Obj.cut (p : ℝ × ℝ) (complain : Bool) (o : Obj) : Obj × Except PyErr Unit :=
  let m := pairMask p o.data
  if m.count true = 0 then (o, if complain then .error .valueError else .ok ())
  else
    let r := applyMask (m.map not) o.data
    ({ o with data := r.1 }, r.2)

/-- several cuts one after the other, without complaints; an exception ends them -/
noncomputable def Obj.cuts : List (ℝ × ℝ) → Obj → Obj × Except PyErr Unit
  | [], o => (o, .ok ())
  | p :: l, o => match o.cut p false with
    | (o', .ok ()) => o'.cuts l
    | r => r

/-- what `mask_scales` removes from a spectrum for the pairs it is given (twopoint.py:864-890): `whole` are the pairs of `bin_cuts`,
`range` the entries of `cuts`.  Simplification: angles are present -/
noncomputable def scaleMask (pairs : List (ℝ × ℝ)) (whole : ℝ × ℝ → Bool) (range : ℝ × ℝ → Option (ℝ × ℝ)) (s : Meas) : List Bool :=
  ((s.bin1.zip s.bin2).zip (s.angle.getD [])).map fun x => pairs.all fun p =>
    if whole p then decide (x.1 ≠ p)
    else match range p with
      | none => true
      | some (lo, hi) => ! (decide (x.1 = p) && (decide (x.2 < lo) || decide (hi < x.2)))

/-! ## measurements from a data block -/

/-- a section of the data block: what is under `bin_{i}`, `obs_{i}`, `obs_low_{i}`, `obs_high_{i}`, `z`, `z_mid`, `z_low`, `z_high` -/
structure Section where
  bin : ℕ → Option (List ℝ)
  obs : ℕ → Option (List ℝ)
  low : ℕ → Option (List ℝ)
  high : ℕ → Option (List ℝ)
  z : Option (List ℝ)
  zMid : Option (List ℝ)
  zLow : Option (List ℝ)
  zHigh : Option (List ℝ)

/-- `block[section, name]`: a missing value is an error of CosmoSIS -/
def get (v : Option (List ℝ)) : Except PyErr (List ℝ) := match v with
  | none => .error .blockError
  | some l => .ok l

/-- what the loop of `OnePointMeasurement.from_block` appends for bin `i` (twopoint.py:195-205): values, observable, edges if
there are lower ones -/
def row (b : Section) (i : ℕ) (v : List ℝ) : Except PyErr (List ℝ × List ℝ × Option (List ℝ × List ℝ)) := match b.low i with
  | some lo => do
    let x ← get (b.obs i)
    let hi ← get (b.high i)
    .ok (v, x, some (lo, hi))
  | none => do
    let x ← get (b.obs i)
    .ok (v, x, none)

/-- the loop over `range(1, 99999)` (twopoint.py:193-205): `n` is what is left of the range -/
def rows (b : Section) : ℕ → ℕ → Except PyErr (List (List ℝ × List ℝ × Option (List ℝ × List ℝ)))
  | 0, _ => .ok []
  | n + 1, i => match b.bin i with
    | none => .ok []
    | some v => do
      let r ← row b i v
      let l ← rows b n (i + 1)
      .ok (r :: l)

/-- `OnePointMeasurement.from_block` (twopoint.py:184-215) -/
def onePoint (b : Section) (name : String) : Except PyErr OnePoint := do
  let l ← rows b 99998 1
  .ok ⟨name, l.map fun r => r.2.1, l.map fun r => r.1, edges (l.filterMap fun r => r.2.2.map Prod.fst),
    edges (l.filterMap fun r => r.2.2.map Prod.snd)⟩

/-- `NumberDensity.from_block` (twopoint.py:316-339); `sigma_e` and `ngal` are not read -/
noncomputable def numberDensity (b : Section) (name : String) : Except PyErr NumberDensity := do
  let (lo, mid, hi) ← match b.zMid with
    | some mid => do
      let lo ← get b.zLow
      let hi ← get b.zHigh
      Except.ok (lo, mid, hi)
    | none => do
      let mid ← get b.z
      let (lo, hi) ← TwoPointOps.edgesFromMid mid
      Except.ok (lo, mid, hi)
  .ok ⟨name, lo, mid, hi, TwoPointFits.loop b.bin 99998 1, none, none⟩

end Verif.TwoPointPairs

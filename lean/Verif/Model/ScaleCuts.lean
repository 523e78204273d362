import Verif.Lib.Py
import Mathlib.Data.Real.Basic
import Mathlib.Data.List.Infix
import Mathlib.Data.String.Basic

/-!
# The legacy scale cuts (`/repo/cosmosis_modules/legacy/scale_cuts/scale_cuts.py`, `wrapper_twopoint.py`, `twopoint.py`)

Simplifications: the FITS file is what `from_fits` makes of it (a list of spectra, a list of one-point measurements, a covariance with
names and lengths); kernels, types, units, errors and angular bin numbers, which no cut reads, are left out; angles and values of a theory bin have the same length; `nobs = None` is an empty
list (the theory, which has no covariance, is the only place where it is `None`); the statistics in `use_stats` contain no `+`.  An
option of the scale cuts is its name split at the underscores and its value split at blanks; `int`, `float` and `split('+')` are
parameters.
-/

namespace Verif.ScaleCuts

open Verif.Lib

/-- what the cuts look at in one entry of a spectrum (twopoint.py:342-376) -/
structure Key where
  bin1 : ℕ
  bin2 : ℕ
  angle : ℝ

/-- one entry of a spectrum -/
structure Point where
  key : Key
  value : ℝ

/-- `SpectrumMeasurement` (twopoint.py:342-376) -/
structure Spec where
  name : String
  pts : List Point

/-- `OnePointMeasurement` with the flattened values (twopoint.py:98-117, wrapper_twopoint.py:231-239) -/
structure OnePt where
  name : String
  vals : List ℝ

/-- a square matrix -/
structure Mat where
  n : ℕ
  a : ℕ → ℕ → ℝ

/-- `TwoPointFile` (twopoint.py:713-734) -/
structure TP where
  specs : List Spec
  nobs : List OnePt
  cov : Option Mat

/-- `str.lower` -/
def lower (s : String) : String := String.ofList (s.toList.map Char.toLower)

/-! ## masks -/

/-- `x[mask]` for a mask of the same length -/
def sel {α : Type} : List Bool → List α → List α
  | true :: m, x :: l => x :: sel m l
  | false :: m, _ :: l => sel m l
  | _, _ => []

/-- `cov[mask, :][:, mask]`: the positions where the mask is true -/
def Mat.sub (C : Mat) (kept : List ℕ) : Mat := ⟨kept.length, fun i j => C.a (kept.getD i 0) (kept.getD j 0)⟩

/-- `_mask_covmat` (twopoint.py:788-794): a mask of another length is an IndexError -/
def maskCov (cov : Option Mat) (mask : List Bool) : Except PyErr (Option Mat) :=
  match cov with
  | none => .ok none
  | some C => if mask.length = C.n then .ok (some (C.sub (sel mask (List.range C.n)))) else .error .indexError

/-- one call of a mask method -/
inductive Op
  /-- `mask_cross()` -/
  | cross
  /-- `mask_scales(bin_cuts=…)` -/
  | pairs (l : List (String × ℕ × ℕ))
  /-- `mask_indices(name, indices)` -/
  | bins (name : String) (idx : List ℤ)
  /-- `mask_scales(cuts=…)` -/
  | ranges (d : String × ℕ × ℕ → Option (ℝ × ℝ))
  /-- `mask_scale(name, min_scale, max_scale)` -/
  | scale (name : String) (lo hi : ℝ)

/-- is index `k` among the numpy indices `idx` of an array of `n` entries (negative ones count from the end) -/
def hit (n : ℕ) (idx : List ℤ) (k : ℕ) : Bool := idx.any fun i => i = (k : ℤ) || i + n = (k : ℤ)

open Classical in
/-- the mask of one spectrum (twopoint.py:448-449, 831-924) -/
noncomputable def specMask (op : Op) (name : String) (ks : List Key) : Except PyErr (List Bool) :=
  match op with
  | .cross => .ok (ks.map fun k => decide (k.bin1 = k.bin2))
  | .pairs l => .ok (ks.map fun k => decide ((name, k.bin1, k.bin2) ∉ l))
  | .ranges d => .ok (ks.map fun k => match d (name, k.bin1, k.bin2) with
      | none => true
      | some r => decide ¬ (k.angle < r.1 ∨ r.2 < k.angle))
  | .scale t lo hi =>
    if t ≠ "all" ∧ ¬ name.toList <:+: t.toList then .ok (ks.map fun _ => true)
    else .ok (ks.map fun k => decide (lo < k.angle ∧ k.angle < hi))
  | .bins t idx =>
    if name = t then
      if idx = [] ∨ ∃ i ∈ idx, i < -(ks.length : ℤ) ∨ (ks.length : ℤ) ≤ i then .error .indexError
      else .ok ((List.range ks.length).map fun k => !hit ks.length idx k)
    else .ok (ks.map fun _ => true)

/-- the masks of all spectra, in order -/
noncomputable def specMasks (op : Op) : List Spec → Except PyErr (List (List Bool))
  | [] => .ok []
  | s :: l => match specMask op s.name (s.pts.map Point.key) with
    | .error e => .error e
    | .ok m => match specMasks op l with
      | .error e => .error e
      | .ok ms => .ok (m :: ms)

/-- `get_spectrum(name)`, of which only the exception matters (twopoint.py:736-745, 832) -/
def found (op : Op) (specs : List Spec) : Prop :=
  match op with
  | .bins t _ => specs.countP (fun s => s.name = t) = 1
  | _ => True

/-- `apply_mask` on every spectrum (twopoint.py:424-435) -/
def applyMasks : List Spec → List (List Bool) → List Spec
  | s :: l, m :: ms => ⟨s.name, sel m s.pts⟩ :: applyMasks l ms
  | _, _ => []

/-- `np.ones(sum(obs.nsample), dtype=bool)` for the one-point measurements -/
def onesOf (nobs : List OnePt) : List Bool := nobs.flatMap fun o => o.vals.map fun _ => true

open Classical in
/-- one mask method -/
noncomputable def applyOp (op : Op) (t : TP) : Except PyErr TP :=
  if found op t.specs then
    match specMasks op t.specs with
    | .error e => .error e
    | .ok ms => match maskCov t.cov (ms.flatten ++ onesOf t.nobs) with
      | .error e => .error e
      | .ok c => .ok ⟨applyMasks t.specs ms, t.nobs, c⟩
  else .error .valueError

/-- several in order -/
noncomputable def applyOps : List Op → TP → Except PyErr TP
  | [], t => .ok t
  | op :: l, t => match applyOp op t with
    | .error e => .error e
    | .ok t' => applyOps l t'

/-- `choose_data_sets` (twopoint.py:926-956) -/
def choose (names : List String) (t : TP) : Except PyErr TP :=
  let want := names.map lower
  if ∀ d ∈ want, (∃ s ∈ t.specs, (lower s.name) = d) ∨ ∃ o ∈ t.nobs, (lower o.name) = d then
    match maskCov t.cov ((t.specs.flatMap fun s => s.pts.map fun _ => decide ((lower s.name) ∈ want)) ++
        t.nobs.flatMap fun o => o.vals.map fun _ => decide ((lower o.name) ∈ want)) with
    | .error e => .error e
    | .ok c => .ok ⟨t.specs.filter fun s => (lower s.name) ∈ want, t.nobs.filter fun o => (lower o.name) ∈ want, c⟩
  else .error .valueError

/-- `makeMeanVector` (wrapper_twopoint.py:231-239): nothing to concatenate is a ValueError -/
def mean (t : TP) : Except PyErr (List ℝ) :=
  if t.specs = [] ∧ t.nobs = [] then .error .valueError
  else .ok ((t.specs.flatMap fun s => s.pts.map Point.value) ++ t.nobs.flatMap OnePt.vals)

/-! ## mock data -/

/-- the pieces `data[idx[i]:idx[i+1]]` of a vector (wrapper_twopoint.py:252-259) -/
def split : List ℕ → List ℝ → List (List ℝ)
  | [], _ => []
  | n :: l, d => d.take n :: split l (d.drop n)

/-- `obs.nobs[i] = …` for the observable number `i`, from `i0` on (wrapper_twopoint.py:258-259): the index of the observable is used
as the index of its bin -/
def setNobs : ℕ → List (List (List ℝ)) → List (List ℝ) → Except PyErr (List (List (List ℝ)))
  | i, o :: l, v :: vs =>
    if i < o.length then match setNobs (i + 1) l vs with
      | .error e => .error e
      | .ok r => .ok (o.set i v :: r)
    else .error .indexError
  | _, _, _ => .ok []

/-- `replaceMeanVector` on the values of the spectra and the bins of the one-point functions (wrapper_twopoint.py:241-259) -/
def replaceMean (vals : List (List ℝ)) (nobs : List (List (List ℝ))) (data : List ℝ) :
    Except PyErr (List (List ℝ) × List (List (List ℝ))) :=
  let idx := vals.map List.length ++ nobs.map fun o => o.flatten.length
  if idx.sum ≠ data.length then .error .valueError
  else
    let parts := split idx data
    match setNobs 0 nobs (parts.drop vals.length) with
    | .error e => .error e
    | .ok r => .ok (parts.take vals.length, r)

/-- `makeMeanVector` in the same terms (wrapper_twopoint.py:231-239) -/
def meanOf (vals : List (List ℝ)) (nobs : List (List (List ℝ))) : List ℝ := vals.flatten ++ (nobs.map List.flatten).flatten

/-! ## the order of the covariance -/

/-- `CovarianceMatrixInfo` (twopoint.py:605-617) -/
structure CovInfo where
  names : List String
  lengths : List ℕ
  cov : Mat

/-- `starts[i]` (twopoint.py:613-615) -/
def CovInfo.start (c : CovInfo) (i : ℕ) : ℕ := (c.lengths.take i).sum

/-- the positions which `get_cov_start` copies, in order (twopoint.py:992-1001) -/
def covPositions (c : CovInfo) : List ℕ → List ℕ
  | [] => []
  | i :: l => (List.range (c.lengths.getD i 0)).map (c.start i + ·) ++ covPositions c l

/-- `get_cov_start` (twopoint.py:958-1001) -/
def covStart (c : CovInfo) (names : List String) : Except PyErr Mat :=
  if c.names = names then .ok c.cov
  else if c.lengths.sum ≠ c.cov.n then .error .generic
  else if ∀ n ∈ names, n ∈ c.names then .ok (c.cov.sub (covPositions c (names.map fun n => c.names.idxOf n)))
  else .error .valueError

/-! ## the options -/

/-- an option: its name split at underscores; its value, whether it is the empty string and its words -/
structure Entry where
  key : List String
  empty : Bool
  words : List String

/-- the arguments of the cuts (wrapper_twopoint.py:116-121) -/
structure Args where
  stats : Option (List String)
  cross : Bool
  pairs : List (String × ℤ × ℤ)
  bins : List (String × List ℤ)
  ranges : List ((String × ℤ × ℤ) × (ℝ × ℝ))
  scales : List (String × (ℝ × ℝ))

/-- `d[k] = v` on a dictionary kept in the order of insertion -/
def dictSet {κ ν : Type} [DecidableEq κ] (k : κ) (v : ν) : List (κ × ν) → List (κ × ν)
  | [] => [(k, v)]
  | p :: l => if p.1 = k then (k, v) :: l else p :: dictSet k v l

/-- `'a_b' in key`: `a` ends a part and `b` begins the next one (wrapper_twopoint.py:132, 140, 145, 154) -/
def contains (a b : String) : List String → Bool
  | x :: y :: l => (decide (a.toList <:+ x.toList) && decide (b.toList <+: y.toList)) || contains a b (y :: l)
  | _ => false

/-- the string functions of Python, and the dictionary of names (wrapper_twopoint.py:50-67) -/
structure Str where
  int : String → Option ℤ
  float : String → Option ℝ
  plus : String → List String
  lab : String → Option String

/-- `int(x[i])` -/
def intAt (S : Str) (l : List String) (i : ℕ) : Except PyErr ℤ :=
  match l[i]? with
  | none => .error .indexError
  | some w => match S.int w with
    | none => .error .valueError
    | some n => .ok n

/-- `float(x[i])` -/
def floatAt (S : Str) (l : List String) (i : ℕ) : Except PyErr ℝ :=
  match l[i]? with
  | none => .error .indexError
  | some w => match S.float w with
    | none => .error .valueError
    | some n => .ok n

/-- `self.labDict[keySplit[2]]` -/
def tagOf (S : Str) (key : List String) : Except PyErr String :=
  match key[2]? with
  | none => .error .indexError
  | some w => match S.lab w with
    | none => .error .keyError
    | some n => .ok n

/-- the words of `cut_pair_…` (wrapper_twopoint.py:134-138) -/
def pairsOf (S : Str) (tag : String) : List String → Except PyErr (List (String × ℤ × ℤ))
  | [] => .ok []
  | w :: l => do
    let a ← intAt S (S.plus w) 0
    let b ← intAt S (S.plus w) 1
    let r ← pairsOf S tag l
    .ok ((tag, a, b) :: r)

/-- the words of `cut_bin_…` (wrapper_twopoint.py:142) -/
def intsOf (S : Str) : List String → Except PyErr (List ℤ)
  | [] => .ok []
  | w :: l => match S.int w with
    | none => .error .valueError
    | some n => match intsOf S l with
      | .error e => .error e
      | .ok r => .ok (n :: r)

/-- one turn of the loop of `makeScaleCutsArgs` (wrapper_twopoint.py:110-163) -/
def parseOne (S : Str) (a : Args) (e : Entry) : Except PyErr Args :=
  if e.key = ["use", "stats"] then .ok { a with stats := some e.words }
  else if e.key = ["cut", "cross"] then .ok { a with cross := !e.empty }
  else if contains "cut" "pair" e.key then do
    let t ← tagOf S e.key
    let r ← pairsOf S t e.words
    .ok { a with pairs := a.pairs ++ r }
  else if contains "cut" "bin" e.key then do
    let t ← tagOf S e.key
    let r ← intsOf S e.words
    .ok { a with bins := dictSet t r a.bins }
  else if contains "keep" "ang" e.key ∧ 4 < e.key.length then do
    let t ← tagOf S e.key
    let i ← intAt S e.key 3
    let j ← intAt S e.key 4
    let lo ← floatAt S e.words 0
    let hi ← floatAt S e.words 1
    .ok { a with ranges := dictSet (t, i, j) (lo, hi) a.ranges }
  else if contains "keep" "ang" e.key ∧ e.key.length < 4 then do
    let t ← tagOf S e.key
    let lo ← floatAt S e.words 0
    let hi ← floatAt S e.words 1
    .ok { a with scales := dictSet t (lo, hi) a.scales }
  else .ok a

/-- the loop -/
def parseAll (S : Str) : Args → List Entry → Except PyErr Args
  | a, [] => .ok a
  | a, e :: l => match parseOne S a e with
    | .error err => .error err
    | .ok a' => parseAll S a' l

/-- `makeScaleCutsArgs` (wrapper_twopoint.py:110-163) -/
def parse (S : Str) (l : List Entry) : Except PyErr Args := parseAll S ⟨none, false, [], [], [], []⟩ l

/-- the calls made by `cutScales` and `keepScales` (wrapper_twopoint.py:261-278) -/
def opsOf (a : Args) : List Op :=
  (if a.cross then [.cross] else []) ++
  (if a.pairs = [] then [] else [.pairs (a.pairs.filterMap fun p =>
    if 0 ≤ p.2.1 ∧ 0 ≤ p.2.2 then some (p.1, p.2.1.toNat, p.2.2.toNat) else none)]) ++
  a.bins.map (fun p => .bins p.1 p.2) ++
  (if a.ranges = [] then [] else [.ranges fun k => (a.ranges.find? fun p =>
    p.1 = (k.1, (k.2.1 : ℤ), (k.2.2 : ℤ))).map Prod.snd]) ++
  a.scales.map fun p => .scale p.1 p.2.1 p.2.2

/-! ## the theory -/

/-- a section of the data block with the values of `bin_a_b` and the angles -/
structure Section where
  angle : List ℝ
  val : ℕ → ℕ → Option (List ℝ)

/-- `addTomo(i, j, angle, value)` (wrapper_twopoint.py:182-190) -/
def tomo (S : Section) (i j : ℕ) (v : List ℝ) : List Point :=
  (S.angle.zip v).map fun p => ⟨⟨i + 1, j + 1, p.1⟩, p.2⟩

/-- the inner loop: `bin_{a}_{b}` for the second index `j` from `j0`, until one is missing (scale_cuts.py:179-185, 192-198) -/
def inner (S : Section) (ggl : Bool) (i : ℕ) : ℕ → ℕ → List Point
  | 0, _ => []
  | n + 1, j => match if ggl then S.val (i + 1) (j + 1) else S.val (j + 1) (i + 1) with
    | none => []
    | some v => tomo S i j v ++ inner S ggl i n (j + 1)

/-- the outer loop (scale_cuts.py:172-198) -/
def outer (S : Section) (ggl : Bool) : ℕ → ℕ → List Point
  | 0, _ => []
  | n + 1, i => match if ggl then S.val (i + 1) 1 else S.val (i + 1) (i + 1) with
    | none => []
    | some _ => (if ggl then inner S ggl i 1000 0 else inner S ggl i (1000 - i) i) ++ outer S ggl n (i + 1)

/-- one line of `sectionNameList` (scale_cuts.py:136-147) -/
structure Line where
  sect : String
  ext : String
  ggl : Bool

/-- the loop over the lines (scale_cuts.py:149-209); a section without the first bin has nothing to concatenate -/
def gather (use : List String) (B : String → Option Section) : List Line → Except PyErr (List Spec)
  | [] => .ok []
  | l :: ls =>
    if l.ext ∉ use then gather use B ls
    else match B l.sect with
      | none => .error .generic
      | some S => match outer S l.ggl 1000 0 with
        | [] => .error .valueError
        | p :: ps => match gather use B ls with
          | .error e => .error e
          | .ok r => .ok (⟨l.ext, p :: ps⟩ :: r)

/-- the one-point part of `execute` (scale_cuts.py:211-218) -/
def gatherOne (use : List String) (ext : String) (one : Option (List ℝ)) : Except PyErr (List OnePt) :=
  if ext ∈ use then match one with
    | none => .error .generic
    | some v => .ok [⟨"1pt", v⟩]
  else .ok []

/-- `setup` up to the data and the covariance (scale_cuts.py:88-109): without `use_stats` the list of statistics is `None` -/
noncomputable def setupData (lab : String → Option String) (a : Args) (t : TP) : Except PyErr TP := do
  let t ← applyOps (opsOf a) t
  match a.stats with
  | none => .error .typeError
  | some st =>
    if ∀ s ∈ st, (lab (lower s)).isSome then choose (st.map fun s => (lab (lower s)).getD "") t else .error .keyError

/-- `execute` up to the theory vector (scale_cuts.py:120-230) -/
noncomputable def theory (a : Args) (lines : List Line) (oneExt : String) (B : String → Option Section) (one : Option (List ℝ)) :
    Except PyErr TP := do
  let sp ← gather (a.stats.getD []) B lines
  let ob ← gatherOne (a.stats.getD []) oneExt one
  applyOps (opsOf a) ⟨sp, ob, none⟩

end Verif.ScaleCuts

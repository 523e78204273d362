import Verif.Model.ScaleCuts
import Mathlib.Analysis.SpecialFunctions.Pow.Real
import Mathlib.Algebra.BigOperators.Group.Finset.Basic

/-!
# Two-point files in memory (`/repo/cosmosis_modules/legacy/scale_cuts/twopoint.py`)

Sample covariances, the canonical order, the index of the data vector, angular bins and units, and the builder of spectra with a
covariance.

Simplifications: arrays are lists, realisations are functions of two indices; kernels and types of a spectrum, which are only compared,
are one label; conversion factors of units are arbitrary positive numbers.
-/

namespace Verif.TwoPointOps

open Verif.Lib Verif.ScaleCuts

/-! ## sample covariances -/

/-- `np.mean(xi_arrays, axis=0)` -/
noncomputable def mean (n : ℕ) (X : ℕ → ℕ → ℝ) (j : ℕ) : ℝ := (∑ s ∈ Finset.range n, X s j) / n

/-- `sample_cov(xi_arrays, mode)[0]` (twopoint.py:41-55) -/
noncomputable def sampleCov (n : ℕ) (X : ℕ → ℕ → ℝ) (mode : String) (i j : ℕ) : ℝ :=
  let c := (∑ s ∈ Finset.range n, (X s i - mean n X i) * (X s j - mean n X j)) / n
  if mode = "subsample" then c / n else if mode = "jk" then c * (n - 1) else c

/-- `sample_cov(xi_arrays, mode)[1]` (twopoint.py:56-59) -/
noncomputable def sampleCorr (n : ℕ) (X : ℕ → ℕ → ℝ) (mode : String) (i j : ℕ) : ℝ :=
  sampleCov n X mode i j / √(sampleCov n X mode i i * sampleCov n X mode j j)

/-- the realisations after `from_spec_lists` (twopoint.py:699-706): `copy.copy` of the list of spectra shares the spectra, so the mean is
written into the first realisation -/
noncomputable def afterSpecLists (n : ℕ) (X : ℕ → ℕ → ℝ) : ℕ → ℕ → ℝ := fun s j => if s = 0 then mean n X j else X s j

/-! ## points and their order -/

/-- one entry of a spectrum (twopoint.py:343-376) -/
structure Pt where
  bin1 : ℕ
  bin2 : ℕ
  angbin : ℕ
  angle : ℝ
  value : ℝ

/-- a spectrum -/
structure Sp where
  name : String
  pts : List Pt

/-- `np.lexsort([self.bin1, self.bin2, self.angular_bin])`: the last key comes first (twopoint.py:388-391) -/
def before (a b : Pt) : Bool :=
  decide (a.angbin < b.angbin ∨ a.angbin = b.angbin ∧ (a.bin2 < b.bin2 ∨ a.bin2 = b.bin2 ∧ a.bin1 ≤ b.bin1))

/-- an entry that is never used -/
def noPt : Pt := ⟨0, 0, 0, 0, 0⟩

/-- `canonical_order` (twopoint.py:388-391); numpy's sort is stable -/
def order (l : List Pt) : List ℕ := (List.range l.length).mergeSort fun i j => before (l.getD i noPt) (l.getD j noPt)

/-- a file: spectra, one-point functions, covariance and the cached index (twopoint.py:714-734) -/
structure File where
  specs : List Sp
  nobs : List OnePt
  cov : Option Mat
  index : Option (List ((String × ℕ × ℕ × ℕ) × ℕ))

/-- the number of entries of the one-point functions -/
def onePts (l : List OnePt) : ℕ := (l.map fun o => o.vals.length).sum

/-- `mask+n` of one spectrum after the other (twopoint.py:820-824) -/
def positions : ℕ → List Sp → List ℕ
  | _, [] => []
  | n, s :: l => (order s.pts).map (· + n) ++ positions (n + s.pts.length) l

/-- `apply_mask` with an order (twopoint.py:424-435) -/
def reorderSp (s : Sp) : Sp := ⟨s.name, (order s.pts).map (s.pts.getD · noPt)⟩

/-- `reorder_canonical` (twopoint.py:815-829): the masks of the one-point functions are Boolean; joined with positions they become ones,
and only without any spectrum they remain Boolean -/
def reorder (t : File) : Except PyErr File :=
  let rows := positions 0 t.specs ++ List.replicate (onePts t.nobs) 1
  match t.cov with
  | none => .ok { t with specs := t.specs.map reorderSp }
  | some C =>
    if t.specs = [] then
      if t.nobs = [] ∨ onePts t.nobs = C.n then .ok t else .error .indexError
    else if ∀ r ∈ rows, r < C.n then .ok { t with specs := t.specs.map reorderSp, cov := some (C.sub rows) }
    else .error .indexError

/-- `mask_bad` on the spectra (twopoint.py:796-814) -/
noncomputable def badMask (bad : ℝ) (t : TP) : List Bool := by
  classical exact (t.specs.flatMap fun s => s.pts.map fun p => decide (p.value ≠ bad)) ++ onesOf t.nobs

open Classical in
/-- `mask_bad` (twopoint.py:796-814) -/
noncomputable def maskBad (bad : ℝ) (t : TP) : Except PyErr TP := match maskCov t.cov (badMask bad t) with
  | .error e => .error e
  | .ok c => .ok ⟨t.specs.map fun s => ⟨s.name, sel (s.pts.map fun p => decide (p.value ≠ bad)) s.pts⟩, t.nobs, c⟩

/-! ## the index of the data vector -/

/-- the keys of the entries in the order of the data vector (twopoint.py:769-781) -/
def keys (specs : List Sp) : List (String × ℕ × ℕ × ℕ) := specs.flatMap fun s => s.pts.map fun p => (s.name, p.bin1, p.bin2, p.angbin)

/-- `_build_spectrum_index` (twopoint.py:769-781) -/
def buildIndex (specs : List Sp) : List ((String × ℕ × ℕ × ℕ) × ℕ) := (keys specs).zipIdx

/-- looking up a dictionary to which the pairs were added in order: the last one counts -/
def dictGet {κ : Type} [DecidableEq κ] (l : List (κ × ℕ)) (k : κ) : Option ℕ := (l.reverse.find? fun p => p.1 = k).map Prod.snd

/-- `get_overall_index` (twopoint.py:783-786): the file afterwards and the number, or a KeyError -/
def overallIndex (t : File) (k : String × ℕ × ℕ × ℕ) : File × Except PyErr ℕ :=
  let ix := t.index.getD (buildIndex t.specs)
  ({ t with index := some ix }, match dictGet ix k with
    | none => .error .keyError
    | some i => .ok i)

/-- a mask on the spectra, which does not touch the cached index (twopoint.py:424-435, 788-794) -/
def cutFile (keep : String → Pt → Bool) (t : File) : File :=
  { t with specs := t.specs.map fun s => ⟨s.name, s.pts.filter (keep s.name)⟩ }

/-- a comprehension `[o for o in l if p o]` whose condition may raise -/
def compr {α : Type} (p : α → Except PyErr Bool) : List α → Except PyErr (List α)
  | [] => .ok []
  | x :: l => match p x with
    | .error e => .error e
    | .ok b => match compr p l with
      | .error e => .error e
      | .ok r => .ok (if b then x :: r else r)

/-- `get_nobs` (twopoint.py:758-767): the condition is `nobs.name == name`, where `nobs` is the local name the comprehension is being
assigned to, which has no value yet -/
def getNobs (nobs : Option (List OnePt)) (_name : String) : Except PyErr OnePt := match nobs with
  | none => .error .typeError
  | some l => match compr (fun _ => .error .nameError) l with
    | .error e => .error e
    | .ok [o] => .ok o
    | .ok _ => .error .valueError

/-! ## angular bins and units -/

/-- `np.unique`: the distinct values in increasing order -/
noncomputable def unique (l : List ℝ) : List ℝ := (l.toFinset.sort (· ≤ ·))

/-- `recompute_angular_bins` (twopoint.py:396-401) -/
noncomputable def angularBins (l : List ℝ) : List ℕ := l.map fun a => (unique l).idxOf a + 1

/-- `convert_angular_units` on the angles (twopoint.py:403-422): `f u` is the size of a unit -/
noncomputable def convert (f : String → Option ℝ) (real : Bool) (windows old new : String) (l : List ℝ) : Except PyErr (List ℝ) :=
  if real = false then .error .valueError
  else if windows ≠ "SAMPLE" ∧ windows ≠ "CLBP" then .error .notImplemented
  else match f old, f new with
    | some a, some b => .ok (l.map fun x => x * (a / b))
    | _, _ => .error .keyError

/-- the edges made from the middles of the bins in `NumberDensity.from_block` (twopoint.py:325-328); fewer than three are an IndexError -/
noncomputable def edgesFromMid (z : List ℝ) : Except PyErr (List ℝ × List ℝ) :=
  if 3 ≤ z.length then
    let dz := z.getD 2 0 - z.getD 1 0
    .ok (z.map fun x => x - 0.5 * dz, z.map fun x => x + 0.5 * dz)
  else .error .indexError

/-! ## the builder -/

/-- a length in a `CovarianceMatrixInfo`: a number, or the list `nsample` of a one-point function (twopoint.py:1455-1456) -/
inductive Len
  | int (n : ℕ)
  | list (l : List ℕ)

/-- a data point as it is added: the label of its spectrum and its value (twopoint.py:1366-1381) -/
structure Item (σ : Type) where
  label : σ
  value : ℝ

/-- `if spec not in self.types: self.types.append(spec)` (twopoint.py:1378-1380) -/
def typesOf {σ : Type} [DecidableEq σ] : List σ → List σ → List σ
  | acc, [] => acc
  | acc, s :: l => typesOf (if s ∈ acc then acc else acc ++ [s]) l

/-- the indices of the points of one spectrum (twopoint.py:1422-1431) -/
def indices {σ : Type} [DecidableEq σ] (items : List (Item σ)) (s : σ) : List ℕ :=
  (List.range items.length).filter fun i => (items.map Item.label)[i]? = some s

/-- `self.starts` (twopoint.py:613-615): adding a list and a number is a TypeError -/
def starts : ℕ → List Len → Except PyErr (List ℕ)
  | s, .int n :: x :: l => match starts (s + n) (x :: l) with
    | .error e => .error e
    | .ok r => .ok (s :: r)
  | _, .list _ :: _ :: _ => .error .typeError
  | s, _ => .ok [s]

/-- what `generate` returns: spectra (label, name, values), names and lengths of the record, the covariance (twopoint.py:1405-1458) -/
structure Built (σ : Type) where
  spectra : List (σ × String × List ℝ)
  names : List String
  lengths : List Len
  starts : List ℕ
  cov : Mat

/-- `generate` (twopoint.py:1405-1458); `ones` are the names given to `add_one_point`, one for each number, with the numbers, and `uniq`
the distinct ones: each of them gets all the numbers -/
def generate {σ : Type} [DecidableEq σ] (items : List (Item σ)) (names : σ → Option String) (ones : List (String × ℝ)) (C : Mat) :
    Except PyErr (Built σ) :=
  let types := typesOf [] (items.map Item.label)
  let uniq := (ones.map Prod.fst).dedup
  if ∃ s ∈ types, names s = none then .error .valueError
  else if C.n ≠ items.length + ones.length then .error .generic
  else
    let master := types.flatMap (indices items) ++ uniq.flatMap fun _ => (List.range ones.length).map (items.length + ·)
    let spectra := types.map fun s => (s, (names s).getD "", (indices items s).map fun i => (items.map Item.value).getD i 0)
    let lengths := (spectra.map fun x => Len.int x.2.2.length) ++ uniq.map fun _ => Len.list [ones.length]
    match starts 0 lengths with
    | .error e => .error e
    | .ok st => .ok ⟨spectra, (spectra.map fun x => x.2.1) ++ uniq.map (fun _ => "1pt"), lengths, st, C.sub master⟩

/-- `get_error` for the entry number `i` of the record (twopoint.py:619-623): `start + [n]` is a TypeError -/
noncomputable def Built.error {σ : Type} (b : Built σ) (i : ℕ) : Except PyErr (List ℝ) :=
  match b.lengths[i]? with
  | none => .error .valueError
  | some (.list _) => .error .typeError
  | some (.int n) => .ok ((List.range n).map fun k => √(b.cov.a (b.starts.getD i 0 + k) (b.starts.getD i 0 + k)))

end Verif.TwoPointOps

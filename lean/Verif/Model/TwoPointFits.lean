import Verif.Model.ScaleCuts
import Mathlib.Analysis.SpecialFunctions.Pow.Real

/-!
# Two-point files on disk (`/repo/cosmosis_modules/legacy/scale_cuts/twopoint.py`)

`to_fits` and `from_fits` of the four kinds of extensions, and what the scale cuts do to the record of the covariance that is written.

Simplifications: names of columns and header cards are constructors (an index instead of `f'BIN{i}'`); numbers of bins, angular bins
and headers are real numbers; a column is a list; units carry no blanks; the window type `CLBP`, whose angles are pairs of integers,
is left out.  `fits.BinTableHDU.from_columns` (astropy) makes a table with as many rows as its longest column and fills the others
with zeros; the other steps of astropy are taken to store what they are given.
-/

namespace Verif.TwoPointFits

open Verif.Lib Verif.ScaleCuts

/-! ## extensions -/

/-- names of columns -/
inductive Col
  | bin1 | bin2 | angbin | value | angleMin | angleMax | ang | npairs | varxi
  | extra (s : String)
  | zLow | zMid | zHigh
  /-- `BIN{i}` of a redshift distribution -/
  | bin (i : ℕ)
  /-- `VALUE{i}`, `ANG{i}`, `ANGLEMIN{i}`, `ANGLEMAX{i}` of a one-point function -/
  | valueOf (i : ℕ) | angOf (i : ℕ) | angMinOf (i : ℕ) | angMaxOf (i : ℕ)
  deriving DecidableEq

/-- header cards -/
inductive Card
  | twopoint | nz | onepoint | cov
  | extname | quant1 | quant2 | kernel1 | kernel2 | windows
  | sigE (i : ℕ) | ngal (i : ℕ)
  | start (i : ℕ) | name (i : ℕ)
  | md (s : String)
  deriving DecidableEq

/-- values of header cards -/
inductive Val
  | flag
  | text (s : String)
  | num (x : ℝ)
  | nat (n : ℕ)

/-- one column: name, cells, unit -/
structure Column where
  name : Col
  cells : List ℝ
  unit : Option String

/-- an extension of a FITS file -/
structure Hdu where
  header : List (Card × Val)
  cols : List Column
  image : Option Mat

/-- `header[c]` as an option -/
def Hdu.card (h : Hdu) (c : Card) : Option Val := (h.header.find? fun p => p.1 = c).map Prod.snd

/-- `data[c]` as an option -/
def Hdu.col (h : Hdu) (c : Col) : Option (List ℝ) := (h.cols.find? fun p => p.name = c).map Column.cells

/-- the unit of a column (`TUNIT{n}`) -/
def Hdu.unit (h : Hdu) (c : Col) : Option String := (h.cols.find? fun p => p.name = c).bind Column.unit

/-- `extension.name` -/
def Hdu.name (h : Hdu) : String := match h.card .extname with
  | some (.text s) => s
  | _ => ""

/-- rows of a table made from columns -/
def nrows (cols : List Column) : ℕ := (cols.map fun c => c.cells.length).foldr max 0

/-- a column filled up with zeros -/
def pad (n : ℕ) (l : List ℝ) : List ℝ := l ++ List.replicate (n - l.length) 0

/-- `fits.BinTableHDU.from_columns(columns, header=header)` -/
def table (header : List (Card × Val)) (cols : List Column) : Hdu :=
  ⟨header, cols.map fun c => { c with cells := pad (nrows cols) c.cells }, none⟩

/-- `while name in data.names: …; i += 1`: what `f` gives for `i`, `i + 1`, … up to the first that is missing; a table cannot have more
bins than columns, which bounds the loop -/
def loop {α : Type} (f : ℕ → Option α) : ℕ → ℕ → List α
  | 0, _ => []
  | n + 1, i => match f i with
    | none => []
    | some a => a :: loop f n (i + 1)

/-! ## the redshift distributions -/

/-- `NumberDensity` (twopoint.py:231-244); `nbin` and `nsample` are lengths of `nzs` -/
structure NumberDensity where
  name : String
  zlow : List ℝ
  z : List ℝ
  zhigh : List ℝ
  nzs : List (List ℝ)
  ngal : Option (List ℝ)
  sigma : Option (List ℝ)

/-- `for i in range(self.nbin): header[…] = x[i]` (twopoint.py:302-310): a list that is too short is an IndexError -/
def cards (mk : ℕ → Card) (n : ℕ) : Option (List ℝ) → Except PyErr (List (Card × Val))
  | none => .ok []
  | some l => if n ≤ l.length then .ok ((List.range n).map fun i => (mk (i + 1), .num (l.getD i 0))) else .error .indexError

/-- `NumberDensity.to_fits` (twopoint.py:286-313) -/
def NumberDensity.toFits (d : NumberDensity) : Except PyErr Hdu := do
  let s ← cards .sigE d.nzs.length d.sigma
  let g ← cards .ngal d.nzs.length d.ngal
  .ok (table ([(.nz, .flag), (.extname, .text d.name)] ++ s ++ g)
    ([⟨.zLow, d.zlow, none⟩, ⟨.zMid, d.z, none⟩, ⟨.zHigh, d.zhigh, none⟩] ++
      (List.range d.nzs.length).map fun i => ⟨.bin (i + 1), d.nzs.getD i [], none⟩))

/-- a number in the header -/
def num : Option Val → Option ℝ
  | some (.num x) => some x
  | _ => none

/-- "all or none" of the numbers per bin (twopoint.py:268-282): some but not all is an AssertionError -/
def allOrNone (l : List (Option ℝ)) : Except PyErr (Option (List ℝ)) :=
  if ∀ x ∈ l, x = none then .ok none
  else if ∃ x ∈ l, x = none then .error .generic
  else .ok (some (l.map fun x => x.getD 0))

/-- `data[c]`: a missing column is a KeyError -/
def need (h : Hdu) (c : Col) : Except PyErr (List ℝ) := match h.col c with
  | none => .error .keyError
  | some l => .ok l

/-- `NumberDensity.from_fits` (twopoint.py:246-284) -/
def NumberDensity.fromFits (h : Hdu) : Except PyErr NumberDensity := do
  let z ← need h .zMid
  let zl ← need h .zLow
  let zh ← need h .zHigh
  let rows := loop (fun i => (h.col (.bin i)).map fun nz => (nz, num (h.card (.ngal i)), num (h.card (.sigE i)))) h.cols.length 1
  let s ← allOrNone (rows.map fun r => r.2.2)
  let g ← allOrNone (rows.map fun r => r.2.1)
  .ok ⟨h.name, zl, z, zh, rows.map fun r => r.1, g, s⟩

/-! ## one-point functions -/

/-- `OnePointMeasurement` (twopoint.py:107-117) -/
structure OnePoint where
  name : String
  obs : List (List ℝ)
  nobs : List (List ℝ)
  low : Option (List (List ℝ))
  high : Option (List (List ℝ))

/-- `self.obs_low[i]` when there are lower edges: the column, if any, or an IndexError -/
def edgeCol (mk : ℕ → Col) (i : ℕ) : Option (List (List ℝ)) → Except PyErr (List Column)
  | none => .ok []
  | some l => match l[i]? with
    | none => .error .indexError
    | some e => .ok [⟨mk (i + 1), e, none⟩]

/-- the columns of the bins from number `i` on (twopoint.py:172-179) -/
def OnePoint.columns (o : OnePoint) : ℕ → List (List ℝ) → Except PyErr (List Column)
  | _, [] => .ok []
  | i, v :: vs => match o.obs[i]? with
    | none => .error .indexError
    | some x => do
      let a ← edgeCol .angMinOf i o.low
      let b ← edgeCol .angMaxOf i o.high
      let r ← o.columns (i + 1) vs
      .ok ([⟨.valueOf (i + 1), v, none⟩, ⟨.angOf (i + 1), x, none⟩] ++ a ++ b ++ r)

/-- `OnePointMeasurement.to_fits` (twopoint.py:162-182) -/
def OnePoint.toFits (o : OnePoint) : Except PyErr Hdu := do
  let cols ← o.columns 0 o.nobs
  .ok (table [(.onepoint, .flag), (.extname, .text o.name), (.quant1, .text "O"), (.quant2, .text "O")] cols)

/-- the loop of `from_fits` (twopoint.py:141-150): a bin without `ANG{i}` is a KeyError -/
def onePointRows (h : Hdu) : ℕ → ℕ → Except PyErr (List (List ℝ × List ℝ × Option (List ℝ) × Option (List ℝ)))
  | 0, _ => .ok []
  | n + 1, i => match h.col (.valueOf i) with
    | none => .ok []
    | some v => do
      let x ← need h (.angOf i)
      let r ← onePointRows h n (i + 1)
      .ok ((v, x, h.col (.angMinOf i), h.col (.angMaxOf i)) :: r)

/-- `if obs_low == []: obs_low = None` (twopoint.py:152-155) -/
def edges (l : List (List ℝ)) : Option (List (List ℝ)) := if l = [] then none else some l

/-- `OnePointMeasurement.from_fits` (twopoint.py:125-160); the unused name `ANGGLEMAX` is of no effect -/
def OnePoint.fromFits (h : Hdu) : Except PyErr OnePoint := do
  let rows ← onePointRows h h.cols.length 1
  .ok ⟨h.name, rows.map fun r => r.2.1, rows.map fun r => r.1, edges (rows.filterMap fun r => r.2.2.1),
    edges (rows.filterMap fun r => r.2.2.2)⟩

/-! ## the covariance -/

/-- `CovarianceMatrixInfo.to_fits` (twopoint.py:625-634); `zip` stops at the shorter of `starts` and `names` -/
def covToFits (name : String) (c : CovInfo) : Hdu :=
  ⟨[(.cov, .flag), (.extname, .text name)] ++
    (List.range (min (max 1 c.lengths.length) c.names.length)).flatMap fun i =>
      [(.start i, .nat (c.start i)), (.name i, .text (c.names.getD i ""))], [], some c.cov⟩

/-- one turn of the loop over the header (twopoint.py:644-651) -/
def covCards (h : Hdu) (i : ℕ) : Option (String × ℕ) := match h.card (.name i), h.card (.start i) with
  | some (.text n), some (.nat s) => some (n, s)
  | _, _ => none

/-- differences of consecutive starts, and the rest of the matrix at the end (twopoint.py:652-661) -/
def lengthsOf (n : ℕ) : List ℕ → List ℕ
  | [] => [n]
  | [s] => [n - s]
  | s :: t :: l => (t - s) :: lengthsOf n (t :: l)

/-- `CovarianceMatrixInfo.from_fits` (twopoint.py:636-662): one start only means that the length is the whole matrix, whatever it says -/
def covFromFits (h : Hdu) : Except PyErr CovInfo := match h.image with
  | none => .error .generic
  | some C =>
    let l := loop (covCards h) h.header.length 0
    .ok ⟨l.map Prod.fst, if 1 < l.length then lengthsOf C.n (l.map Prod.snd) else [C.n], C⟩

/-! ## the spectra -/

/-- `Types` (twopoint.py:62-92) -/
inductive Ty
  | gpf | gef | gbf | gpr | gplus | gminus | ckr | ckf | o
  deriving DecidableEq

/-- the code in the header (twopoint.py:78-86) -/
def Ty.code : Ty → String
  | .gpf => "GPF" | .gef => "GEF" | .gbf => "GBF" | .gpr => "GPR" | .gplus => "G+R" | .gminus => "G-R"
  | .ckr => "CKR" | .ckf => "CKF" | .o => "O"

/-- the members in order -/
def Ty.all : List Ty := [.gpf, .gef, .gbf, .gpr, .gplus, .gminus, .ckr, .ckf, .o]

/-- `Types.lookup` (twopoint.py:88-92) -/
def Ty.lookup (s : String) : Option Ty := Ty.all.find? fun t => t.code = s

/-- `value.endswith("R")` -/
def Ty.real : Ty → Bool
  | .gpr | .gplus | .gminus | .ckr => true
  | _ => false

/-- `window_types` without `CLBP` (twopoint.py:14) -/
inductive Win
  | sample | logMid
  deriving DecidableEq

/-- how it is written -/
def Win.code : Win → String
  | .sample => "SAMPLE" | .logMid => "LOG_MID"

/-- `windows in window_types` -/
def Win.lookup (s : String) : Option Win := if s = "SAMPLE" then some .sample else if s = "LOG_MID" then some .logMid else none

/-- `SpectrumMeasurement` (twopoint.py:343-376) -/
structure Meas where
  name : String
  bin1 : List ℝ
  bin2 : List ℝ
  type1 : Ty
  type2 : Ty
  kernel1 : String
  kernel2 : String
  windows : Win
  angbin : List ℝ
  value : List ℝ
  angle : Option (List ℝ)
  angleMin : Option (List ℝ)
  angleMax : Option (List ℝ)
  npairs : Option (List ℝ)
  varxi : Option (List ℝ)
  extra : Option (List (String × List ℝ))
  unit : Option String
  md : Option (List (String × Val))
  error : Option (List ℝ)

/-- `ANGULAR_UNITS` (twopoint.py:20-26) -/
def angularUnits : List String := ["arcsec", "arcmin", "rad", "deg"]

/-- `is_real_space` (twopoint.py:393-394) -/
def Meas.realSpace (s : Meas) : Bool := s.type1.real || s.type2.real

/-- the assertion of the constructor (twopoint.py:367-371) -/
def Meas.unitOk (s : Meas) : Prop := s.realSpace = true → ∃ u, s.unit = some u ∧ u ∈ angularUnits

/-- an optional column -/
def optCol (c : Col) (u : Option String) : Option (List ℝ) → List Column
  | none => []
  | some l => [⟨c, l, u⟩]

/-- the columns of `to_fits` (twopoint.py:566-592) -/
def Meas.columns (s : Meas) : List Column :=
  [⟨.bin1, s.bin1, none⟩, ⟨.bin2, s.bin2, none⟩, ⟨.angbin, s.angbin, none⟩, ⟨.value, s.value, none⟩] ++
  optCol .angleMin s.unit s.angleMin ++ optCol .angleMax s.unit s.angleMax ++
  (if s.windows = .sample then optCol .ang s.unit s.angle else []) ++ optCol .npairs none s.npairs ++ optCol .varxi none s.varxi

/-- the header of `to_fits` without the numbers of bins, which nothing reads (twopoint.py:548-564) -/
def Meas.header (s : Meas) : List (Card × Val) :=
  [(.twopoint, .flag), (.extname, .text s.name), (.quant1, .text s.type1.code), (.quant2, .text s.type2.code),
    (.kernel1, .text s.kernel1), (.kernel2, .text s.kernel2), (.windows, .text s.windows.code)]

/-- the cards that are in the header when the metadata are written (twopoint.py:549-560) -/
def reserved : List String :=
  ["2PTDATA", "EXTNAME", "QUANT1", "QUANT2", "KERNEL_1", "KERNEL_2", "WINDOWS", "N_ZBIN_1", "N_ZBIN_2"]

/-- `SpectrumMeasurement.to_fits` (twopoint.py:547-601): `iteritems` is no method of a dictionary -/
def Meas.toFits (s : Meas) : Except PyErr Hdu :=
  if (s.md.getD []).length ≠ 0 then
    if ∃ p ∈ s.md.getD [], p.1 ∈ reserved then .error .generic else .error .attributeError
  else if s.extra.isSome then .error .attributeError
  else .ok (table s.header s.columns)

/-- text in the header: a missing card is a KeyError -/
def needText (h : Hdu) (c : Card) : Except PyErr String := match h.card c with
  | some (.text s) => .ok s
  | _ => .error .keyError

/-- the cards beginning with `MD_` (twopoint.py:528-533) -/
def metaOf (h : Hdu) : List (String × Val) := h.header.filterMap fun p => match p.1 with
  | .md s => some (s, p.2)
  | _ => none

/-- the columns beginning with `XTRA_` (twopoint.py:515-525) -/
def extraOf (h : Hdu) : Option (List (String × List ℝ)) :=
  let l := h.cols.filterMap fun c => match c.name with
    | .extra s => some (s, c.cells)
    | _ => none
  if l = [] then none else some l

/-- `x[start:end]` -/
def slice (a b : ℕ) (l : List ℝ) : List ℝ := (l.drop a).take (b - a)

/-- `CovarianceMatrixInfo.get_error` (twopoint.py:619-623): an unknown name is a ValueError -/
noncomputable def getError (c : CovInfo) (name : String) : Except PyErr (List ℝ) :=
  if name ∈ c.names then
    let i := c.names.idxOf name
    .ok (slice (c.start i) (c.start i + c.lengths.getD i 0) ((List.range c.cov.n).map fun k => √(c.cov.a k k)))
  else .error .valueError

/-- the chunk of the covariance (twopoint.py:535-539) -/
noncomputable def errorOf (cov : Option CovInfo) (name : String) : Except PyErr (Option (List ℝ)) := match cov with
  | none => .ok none
  | some c => (getError c name).map some

/-- `SpectrumMeasurement.from_fits` (twopoint.py:470-545); an unknown type is `None`, whose `value` is an AttributeError -/
noncomputable def Meas.fromFits (h : Hdu) (cov : Option CovInfo) : Except PyErr Meas := do
  let q1 ← needText h .quant1
  let q2 ← needText h .quant2
  let k1 ← needText h .kernel1
  let k2 ← needText h .kernel2
  let w ← needText h .windows
  match Win.lookup w with
  | none => .error .notImplemented
  | some w => do
    let b1 ← need h .bin1
    let b2 ← need h .bin2
    let ab ← need h .angbin
    let v ← need h .value
    let e ← errorOf cov h.name
    match Ty.lookup q1, Ty.lookup q2 with
    | some t1, some t2 =>
      let s : Meas := ⟨h.name, b1, b2, t1, t2, k1, k2, w, ab, v, h.col .ang, h.col .angleMin, h.col .angleMax, h.col .npairs, h.col .varxi,
        extraOf h, h.unit .ang, some (metaOf h), e⟩
      if s.realSpace = true ∧ ¬ ∃ u ∈ angularUnits, s.unit = some u then .error .generic else .ok s
    | _, _ => .error .attributeError

/-- `apply_mask` (twopoint.py:424-435): `npairs`, `varxi` and the extra columns keep their length.  Simplification: angles are present
(otherwise a TypeError), and both edges or none -/
def Meas.mask (m : List Bool) (s : Meas) : Meas :=
  { s with
    bin1 := sel m s.bin1
    bin2 := sel m s.bin2
    angbin := sel m s.angbin
    angle := s.angle.map (sel m)
    value := sel m s.value
    error := s.error.map (sel m)
    angleMin := s.angleMin.map (sel m)
    angleMax := s.angleMax.map (sel m) }

/-! ## the record of the covariance in a file that is being cut -/

/-- the statistics of a file in the order of the data vector (twopoint.py:962-965) -/
def names (t : TP) : List String := t.specs.map Spec.name ++ t.nobs.map OnePt.name

/-- their lengths (twopoint.py:793-794) -/
def lens (t : TP) : List ℕ := (t.specs.map fun s => s.pts.length) ++ t.nobs.map fun o => o.vals.length

/-- a file with its `covmat_info`: the data, with `covmat` in `t.cov` -/
structure Live where
  t : TP
  info : CovInfo

/-- what `TwoPointFile(...)` makes of spectra, one-point functions and a covariance (twopoint.py:714-734) -/
def openFile (specs : List Spec) (nobs : List OnePt) (c : CovInfo) : Except PyErr Live := do
  let M ← covStart c (specs.map Spec.name ++ nobs.map OnePt.name)
  if ∀ s ∈ specs, s.name ∈ c.names then .ok ⟨⟨specs, nobs, some M⟩, c⟩ else .error .valueError

/-- one cut: `_mask_covmat` also renews the record (twopoint.py:788-794) -/
noncomputable def Live.cut (op : Op) (x : Live) : Except PyErr Live := match applyOp op x.t with
  | .error e => .error e
  | .ok t => .ok ⟨t, match t.cov with
    | none => x.info
    | some C => ⟨names t, lens t, C⟩⟩

/-- several -/
noncomputable def Live.cuts : List Op → Live → Except PyErr Live
  | [], x => .ok x
  | op :: l, x => match x.cut op with
    | .error e => .error e
    | .ok y => Live.cuts l y

/-- `choose_data_sets` leaves the record as it is (twopoint.py:926-956) -/
def Live.choose (l : List String) (x : Live) : Except PyErr Live := match ScaleCuts.choose l x.t with
  | .error e => .error e
  | .ok t => .ok ⟨t, x.info⟩

/-- what the scale cuts module does to the file it reads (scale_cuts.py:91-103) -/
noncomputable def Live.prepare (ops : List Op) (l : List String) (x : Live) : Except PyErr Live := match x.cuts ops with
  | .error e => .error e
  | .ok y => y.choose l

/-- write the covariance and read the file again (scale_cuts.py:241-251, twopoint.py:1003-1075): the spectra and one-point functions are
those of the file, the covariance goes through its extension -/
def Live.reread (x : Live) : Except PyErr Live := do
  let c ← covFromFits (covToFits "COVMAT" x.info)
  openFile x.t.specs x.t.nobs c

end Verif.TwoPointFits

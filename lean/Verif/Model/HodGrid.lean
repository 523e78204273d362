import Verif.Model.Hod
import Verif.Lib.InterpSort

/-!
# The grids of the occupation model (`/repo/src/onepower/hod.py:15-44, 87, 93-115, 161-270`)

Where the redshifts and the observable limits of the occupation model come from: either the five bin settings or a text file.
The text file is a list of rows (first three columns, already numbers: the reading of numbers from text is not modelled); `fs` maps
a file name to its rows, `none` if the file cannot be read.  `np.log10` is on positive numbers.
-/

namespace Verif.Hod

open Verif.Lib

/-- one row of the file: redshift, smallest and largest observable (hod.py:41-43) -/
structure Row where
  z : ℝ
  lo : ℝ
  hi : ℝ

/-- The dictionary `hod_settings`; `none` is a missing key.  `observablesFile` is `some none` for the value `None`. -/
structure Settings where
  observablesFile : Option (Option String)
  obsMin : Option (List ℝ)
  obsMax : Option (List ℝ)
  zmin : Option (List ℝ)
  zmax : Option (List ℝ)
  nz : Option ℕ
  nobs : Option ℕ

/-- `hod_settings_defaults` (hod.py:15-24) -/
noncomputable def settingsDefaults : Settings where
  observablesFile := some none
  obsMin := some [8.0]
  obsMax := some [12.0]
  zmin := some [0.0]
  zmax := some [0.2]
  nz := some 15
  nobs := some 300

/-- no key at all: the empty dictionary -/
def Settings.isEmpty (s : Settings) : Bool :=
  s.observablesFile.isNone && s.obsMin.isNone && s.obsMax.isNone && s.zmin.isNone && s.zmax.isNone && s.nz.isNone && s.nobs.isNone

/-- `self.hod_settings = hod_settings or hod_settings_defaults` (hod.py:87): `None` and the empty dictionary are replaced.
Simplification: the key `observable_h_unit` is left out (it is modelled in `Base.stellarFraction`). -/
noncomputable def initSettings (s : Option Settings) : Settings :=
  match s with
  | none => settingsDefaults
  | some d => if d.isEmpty then settingsDefaults else d

/-- what `np.loadtxt(..., unpack=True)` returns: for one row three numbers (the result is squeezed), otherwise three arrays -/
inductive Loaded
  | scalars (z lo hi : ℝ)
  | arrays (z lo hi : List ℝ)

/-- `load_data` (hod.py:27-44).  Not claimed: what numpy makes of a file without rows. -/
def loadData (rows : List Row) : Loaded :=
  match rows with
  | [r] => .scalars r.z r.lo r.hi
  | rs => .arrays (rs.map Row.z) (rs.map Row.lo) (rs.map Row.hi)

/-- subscript of a dictionary -/
def key {α : Type} (v : Option α) : Except PyErr α :=
  match v with
  | none => .error .keyError
  | some a => .ok a

/-- `len(x)` and `x[np.newaxis, :]` on an array -/
abbrev Rows := List (List ℝ)

variable (fs : String → Option (List Row)) (s : Settings)

/-- `data` (hod.py:161-174); an unreadable file is an `OSError`, recorded as `generic` -/
def data : Except PyErr (Option Loaded) := do
  match ← key s.observablesFile with
  | some f =>
    match fs f with
    | some rows => return some (loadData rows)
    | none => .error .generic
  | none => return none

/-- `nobs` (hod.py:176-186) -/
def nobs : Except PyErr ℕ := key s.nobs

/-- `nbins` (hod.py:188-201) -/
def gridBins : Except PyErr ℕ := do
  match ← key s.observablesFile with
  | some _ => return 1
  | none => return (← key s.obsMin).length

/-- `nz` (hod.py:203-216): `len` of a number is a `TypeError`; subscripting `None` would be one too -/
def gridNz : Except PyErr ℕ := do
  match ← key s.observablesFile with
  | some _ =>
    match ← data fs s with
    | some (.arrays z _ _) => return z.length
    | _ => .error .typeError
  | none => key s.nz

/-- `np.linspace(a, b, n)` as a list -/
noncomputable def linspaceList (a b : ℝ) (n : ℕ) : List ℝ := (List.range n).map (linspace a b n)

/-- `np.logspace(a, b, n)` as a list -/
noncomputable def logspaceList (a b : ℝ) (n : ℕ) : List ℝ := (List.range n).map (logspace a b n)

/-- `z` (hod.py:218-238): `[np.newaxis, :]` on a number is an `IndexError`.  `self.nz` is read for every row, so a missing `nz` only
matters if there is a row. -/
noncomputable def gridZ : Except PyErr Rows := do
  match ← key s.observablesFile with
  | some _ =>
    match ← data fs s with
    | some (.arrays z _ _) => return [z]
    | some (.scalars _ _ _) => .error .indexError
    | none => .error .typeError
  | none =>
    let zmin ← key s.zmin
    let zmax ← key s.zmax
    (zmin.zip zmax).mapM fun (a, b) => do return linspaceList a b (← gridNz fs s)

/-- `log_obs_min` (hod.py:240-254) -/
noncomputable def logObsMin : Except PyErr Rows := do
  match ← key s.observablesFile with
  | some _ =>
    match ← data fs s with
    | some (.arrays _ lo _) => return [lo.map log10]
    | some (.scalars _ _ _) => .error .indexError
    | none => .error .typeError
  | none => (← key s.obsMin).mapM fun a => do return List.replicate (← gridNz fs s) a

/-- `log_obs_max` (hod.py:256-270) -/
noncomputable def logObsMax : Except PyErr Rows := do
  match ← key s.observablesFile with
  | some _ =>
    match ← data fs s with
    | some (.arrays _ _ hi) => return [hi.map log10]
    | some (.scalars _ _ _) => .error .indexError
    | none => .error .typeError
  | none => (← key s.obsMax).mapM fun a => do return List.replicate (← gridNz fs s) a

/-- `a[b, j]` -/
def at2 (a : Rows) (b j : ℕ) : Except PyErr ℝ :=
  match a[b]? with
  | none => .error .indexError
  | some r =>
    match r[j]? with
    | none => .error .indexError
    | some v => .ok v

/-- `obs` (hod.py:93-115), without the mass axis of length one.  `range(self.nz)` is read for every bin; the last line subscripts
three axes, which fails if there is no bin or no redshift. -/
noncomputable def gridObs : Except PyErr (List Rows) := do
  let nb ← gridBins s
  let o ← (List.range nb).mapM fun b => do
    let n ← gridNz fs s
    (List.range n).mapM fun j => do
      let lo ← at2 (← logObsMin fs s) b j
      let hi ← at2 (← logObsMax fs s) b j
      return logspaceList lo hi (← nobs s)
  match o with
  | [] => .error .indexError
  | [] :: _ => .error .indexError
  | _ => return o

/-! ## The occupation model on these grids -/

/-- what the occupation model gets from the spectra (pk.py:1657-1676) -/
structure Inputs where
  nzv : ℕ
  zVec : ℕ → ℝ
  nm : ℕ
  mass : ℕ → ℝ
  dndlnm : ℕ → ℕ → ℝ
  haloBias : ℕ → ℕ → ℝ

/-- `Cacciato` on redshift nodes `z` and observables `o` with `n` redshifts and `k` observables (hod.py:690-1046) -/
noncomputable def cacciatoBase (i : Inputs) (p : CacciatoParams) (n k : ℕ) (z : Rows) (o : List Rows) : Base where
  nzv := i.nzv
  zVec := i.zVec
  nm := i.nm
  mass := i.mass
  dndlnm := i.dndlnm
  haloBias := i.haloBias
  nz := n
  z := fun b j => (z.getD b []).getD j 0
  occCen := fun b j m => p.hodCen k (fun l => ((o.getD b []).getD j []).getD l 0) (i.mass m)
  occSat := fun b j m => p.hodSat k (fun l => ((o.getD b []).getD j []).getD l 0) (i.mass m)

/-- the occupation model of the settings (hod.py:74-91 with the properties above); errors are those of the grids -/
noncomputable def cacciato (i : Inputs) (p : CacciatoParams) : Except PyErr Base := do
  let n ← gridNz fs s
  let z ← gridZ fs s
  let o ← gridObs fs s
  return cacciatoBase i p n (← nobs s) z o

/-! ## The results, with nodes in any order -/

/-- the results of hod.py:433-601 that are interpolated to the redshifts of the spectra -/
inductive Quantity
  | numberDensityCen | numberDensitySat | numberDensity
  | fC | fS
  | avgHaloMassCen | avgHaloMassSat | avgHaloMass
  | galaxyLinearBiasCen | galaxyLinearBiasSat | galaxyLinearBias
  | hodCen (m : ℕ) | hodSat (m : ℕ) | hod (m : ℕ)

namespace Quantity

/-- the `fill_value` passed to `_interpolate` (hod.py:433-601) -/
def fill : Quantity → Fill
  | fC | fS | avgHaloMassCen | avgHaloMassSat | avgHaloMass => .value 0
  | _ => .extrapolate

/-- the array passed to `_interpolate` (hod.py:433-601) -/
noncomputable def data (h : Base) : Quantity → ℕ → ℕ → ℝ
  | numberDensityCen => h.ncen
  | numberDensitySat => h.nsat
  | numberDensity => h.ntot
  | fC => fun b j => h.ncen b j / h.ntot b j
  | fS => fun b j => h.nsat b j / h.ntot b j
  | avgHaloMassCen => h.meanMassIntegral h.occCen
  | avgHaloMassSat => h.meanMassIntegral h.occSat
  | avgHaloMass => h.meanMassIntegral h.occ
  | galaxyLinearBiasCen => h.biasIntegral h.occCen
  | galaxyLinearBiasSat => h.biasIntegral h.occSat
  | galaxyLinearBias => h.biasIntegral h.occ
  | hodCen m => fun b j => h.occCen b j m
  | hodSat m => fun b j => h.occSat b j m
  | hod m => fun b j => h.occ b j m

end Quantity

/-- `_interpolate` (hod.py:323-347) with nodes in any order -/
noncomputable def Base.result (h : Base) (q : Quantity) (b i : ℕ) : ℝ :=
  interp1dAny q.fill h.nz (h.z b) (q.data h b) (h.zVec i)

end Verif.Hod

import Verif.Lib.Histogram
import Verif.Lib.Py
import Mathlib.Analysis.SpecialFunctions.Log.Base

/-!
# Making the input files (`/repo/legacy_input_files/input_files_generation.py`)

The script reads a galaxy catalogue and writes the red fraction, the luminosity limits of centrals and the luminosity tables the
alignment model uses.  It is modelled as a function of the catalogue and of the names that are bound, which returns the files written
so far and how it ended.  Plots are left out (`plots` only shows figures; the figure at input_files_generation.py:97-109 comes after the
point where the script has stopped).  Reals for floats; the 4-byte format of the tables is not modelled.
-/

namespace Verif.InputFiles

open Verif.Lib

/-- a row of the catalogue: `Z_B`, `sdss_u_abs_mag`, `sdss_r_abs_mag`, `flag_central` (0 for centrals, 1 for satellites) -/
structure Galaxy where
  z : ℝ
  u : ℝ
  r : ℝ
  flag : ℤ

/-- `split_value` (input_files_generation.py:12) -/
noncomputable def splitValue : ℝ := 1.75

/-- `nzbins` (input_files_generation.py:13) -/
def nzbins : ℕ := 30

/-- `df_obs` (input_files_generation.py:21-22) -/
noncomputable def lum (g : Galaxy) : ℝ := (10 : ℝ) ^ (-0.4 * (g.r - 4.76))

/-- `df_ur > split_value` (input_files_generation.py:25, 44); `df_ur <= split_value` is its negation -/
def Red (g : Galaxy) : Prop := g.u - g.r > splitValue

/-- smallest and largest redshift of a catalogue that is not empty -/
noncomputable def zRange (g : Galaxy) (gs : List Galaxy) : ℝ × ℝ :=
  (listMin g.z (gs.map Galaxy.z), listMax g.z (gs.map Galaxy.z))

/-- `edges[i]` for `i ≥ 0` (input_files_generation.py:42) -/
noncomputable def edge (r : ℝ × ℝ) (i : ℕ) : ℝ := r.1 + i * ((r.2 - r.1) / nzbins)

/-- `edges[i - 1]`: Python takes index -1 as the last one -/
noncomputable def edgeBefore (r : ℝ × ℝ) : ℕ → ℝ
  | 0 => edge r nzbins
  | i + 1 => edge r i

/-- bin `i` of `np.histogram(…, bins=edges)`: half open, the last one closed (contract of numpy) -/
def InBin (r : ℝ × ℝ) (i : ℕ) (z : ℝ) : Prop := edge r i ≤ z ∧ (z < edge r (i + 1) ∨ (i + 1 = nzbins ∧ z ≤ edge r (i + 1)))

open Classical in
/-- `nred[i]` (input_files_generation.py:44) -/
noncomputable def nRed (r : ℝ × ℝ) (cat : List Galaxy) (i : ℕ) : ℕ := cat.countP fun g => decide (InBin r i g.z ∧ Red g)

open Classical in
/-- `nblue[i]` (input_files_generation.py:43) -/
noncomputable def nBlue (r : ℝ × ℝ) (cat : List Galaxy) (i : ℕ) : ℕ := cat.countP fun g => decide (InBin r i g.z ∧ ¬ Red g)

/-- `red_fraction[i]` (input_files_generation.py:45-46); `none` is the `nan` of `0 / 0` -/
noncomputable def redFraction (r : ℝ × ℝ) (cat : List Galaxy) (i : ℕ) : Option ℝ :=
  let total := nBlue r cat i + nRed r cat i
  if total = 0 then none else some ((nRed r cat i : ℝ) / total)

/-- `blue_fraction[i]` (input_files_generation.py:47) -/
noncomputable def blueFraction (r : ℝ × ℝ) (cat : List Galaxy) (i : ℕ) : Option ℝ :=
  let total := nBlue r cat i + nRed r cat i
  if total = 0 then none else some ((nBlue r cat i : ℝ) / total)

/-- `zbins[i]` (input_files_generation.py:48) -/
noncomputable def zbin (r : ℝ × ℝ) (i : ℕ) : ℝ := (edge r (i + 1) + edge r i) / 2

open Classical in
/-- the selection of turn `i` of the loops for the limits (input_files_generation.py:63-68, 82-87): the same for red (`red = true`)
and blue -/
noncomputable def selection (r : ℝ × ℝ) (red : Bool) (cat : List Galaxy) (i : ℕ) : List Galaxy :=
  cat.filter fun g => decide (g.z < edge r i ∧ g.z ≥ edgeBefore r i ∧ (Red g ↔ red = true) ∧ g.flag = 0)

/-- one turn: `np.min` and `np.max` of the selected luminosities raise `ValueError` if there are none
(input_files_generation.py:69-70, 88-89) -/
noncomputable def limit (r : ℝ × ℝ) (red : Bool) (cat : List Galaxy) (i : ℕ) : Except PyErr (ℝ × ℝ) :=
  match (selection r red cat i).map lum with
  | [] => .error .valueError
  | x :: xs => .ok (listMin x xs, listMax x xs)

/-- the loops for the limits (input_files_generation.py:60-70, 79-89) -/
noncomputable def limits (r : ℝ × ℝ) (red : Bool) (cat : List Galaxy) : Except PyErr (List (ℝ × ℝ)) :=
  (List.range nzbins).mapM (limit r red cat)

open Classical in
/-- a luminosity table: redshift and logarithm of luminosity of the galaxies of one colour with one flag
(input_files_generation.py:113-124, 126-137, 139-150) -/
noncomputable def table (red : Bool) (flag : ℤ) (cat : List Galaxy) : List (ℝ × ℝ) :=
  let m := cat.filter fun g => decide ((Red g ↔ red = true) ∧ g.flag = flag)
  (m.map Galaxy.z).zip ((m.map lum).map (Real.logb 10))

/-- a file written -/
inductive File
  /-- `f_red.txt` -/
  | fRed (rows : List (ℝ × Option ℝ))
  /-- `red_cen_lum_pdf.txt`, `blue_cen_lum_pdf.txt` -/
  | limits (red : Bool) (rows : List (ℝ × ℝ × ℝ))
  /-- `bluesat_lum.fits`, `redsat_lum.fits`, `redcen_lum.fits` -/
  | table (red : Bool) (flag : ℤ) (rows : List (ℝ × ℝ))

/-- the names bound when the first file is written (input_files_generation.py:1-48) -/
def names : List String :=
  ["plt", "np", "pd", "fits", "interp1d", "split_value", "nzbins", "plots", "hdul", "df", "df_obs", "df_ur", "edges", "nblue", "nred",
    "total", "red_fraction", "blue_fraction", "zbins"]

/-- look a name up -/
def lookup (bound : List String) (name : String) : Except PyErr Unit :=
  if name ∈ bound then .ok () else .error .nameError

/-- the luminosity tables at the end -/
noncomputable def tables (cat : List Galaxy) : List File :=
  [.table false 1 (table false 1 cat), .table true 1 (table true 1 cat), .table true 0 (table true 0 cat)]

/-- the script, given the names that are bound at the first `np.savetxt`; `z_bins`, if bound, is taken to be `zbins` -/
noncomputable def script (bound : List String) : List Galaxy → List File × Except PyErr Unit
  -- `np.min` of an empty column (input_files_generation.py:42)
  | [] => ([], .error .valueError)
  | g :: gs =>
    let cat := g :: gs
    let r := zRange g gs
    let zs := (List.range nzbins).map (zbin r)
    -- input_files_generation.py:50
    match lookup bound "z_bins" with
    | .error e => ([], .error e)
    | .ok () =>
      let f := [File.fRed (zs.zip ((List.range nzbins).map (redFraction r cat)))]
      -- input_files_generation.py:59-76
      match limits r true cat with
      | .error e => (f, .error e)
      | .ok red =>
        let f := f ++ [File.limits true (zs.zip red)]
        -- input_files_generation.py:78-95
        match limits r false cat with
        | .error e => (f, .error e)
        | .ok blue => (f ++ [File.limits false (zs.zip blue)] ++ tables cat, .ok ())

end Verif.InputFiles

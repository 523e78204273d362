import Verif.Model.Pk
import Verif.Lib.Simpson
import Verif.Lib.Py
import Mathlib.Analysis.SpecialFunctions.Exp
import Mathlib.Analysis.SpecialFunctions.Log.Basic
import Mathlib.Analysis.SpecialFunctions.Pow.Real
import Mathlib.Analysis.Real.Pi.Bounds

/-!
# Reading the linear and non-linear power spectra; dewiggling

Models `_pk_lin`, `_pk_nl` (pk.py:439-498), `dewiggle_plin` (pk.py:643-671), `sigmaV` (pk.py:2665-2686) and
`get_Pk_wiggle` (pk.py:2692-2734).
-/

namespace Verif.Pk

open Verif.Lib

/-- `np.diff` of the first `n` entries -/
noncomputable def npDiff (n : ℕ) (k : ℕ → ℝ) : List ℝ := (List.range (n - 1)).map fun i => k (i + 1) - k i

open Classical in
/-- `np.all` of an array of floats: no entry is zero -/
noncomputable def npAll (l : List ℝ) : Bool := l.all fun x => decide (x ≠ 0)

open Classical in
/-- `np.isclose(a, b)` with default tolerances -/
noncomputable def npIsclose (a b : ℝ) : Bool := decide (|a - b| ≤ 1e-8 + 1e-5 * |b|)

/-- a Boolean used as a number -/
noncomputable def boolNum (b : Bool) : ℝ := if b then 1 else 0

/-- the settings of the dewiggling: `nk`, `k_vec`, `n_s`, the no-wiggle transfer function
`Tk_EH_nowiggle(...).lnt` (hmf) and `gaussian_filter1d(row, sigma)` (scipy), both arbitrary. -/
structure Wiggle where
  nk : ℕ
  k : ℕ → ℝ
  ns : ℝ
  lnt : ℝ → ℝ
  gauss : ℝ → (ℕ → ℝ) → ℕ → ℝ

namespace Wiggle

variable (w : Wiggle)

/-- `sigmaV` (pk.py:2665-2686) for one redshift; `simpson(y, dx=h)` is the rule on the grid `0, h, 2h, ...` -/
noncomputable def sigmaV (power : ℕ → ℝ) : ℝ :=
  let dlnk := Real.log (w.k 1 / w.k 0)
  Real.sqrt (0.5 / Real.pi ^ 2 * simpsonDx w.nk dlnk (fun i => power i * w.k i) / 3)

/-- `Pk_nowiggle` (pk.py:2728) -/
noncomputable def nowiggle (i : ℕ) : ℝ := w.k i ^ w.ns * Real.exp (w.lnt (Real.log (w.k i))) ^ 2

/-- `Pk_smooth` (pk.py:2725-2731) for one redshift -/
noncomputable def smooth (plin : ℕ → ℝ) (i : ℕ) : ℝ :=
  let sigma := 0.25 / Real.log (w.k 1 / w.k 0)
  w.gauss sigma (fun j => plin j / w.nowiggle j) i * w.nowiggle i

/-- `get_Pk_wiggle` (pk.py:2692-2734) -/
noncomputable def getPkWiggle (plin : ℕ → ℕ → ℝ) : Except PyErr (ℕ → ℕ → ℝ) :=
  match npDiff w.nk w.k with
  | [] => .error .indexError
  | d :: ds =>
    if ! npIsclose (boolNum (npAll ((d :: ds).map fun x => x - d))) 0 then .error .valueError
    else .ok fun z i => plin z i - w.smooth (plin z) i

/-- `dewiggle_plin` (pk.py:643-671); `sigmaV` is evaluated first and needs `k[1]`. -/
noncomputable def dewigglePlin (plin : ℕ → ℕ → ℝ) : Except PyErr (ℕ → ℕ → ℝ) :=
  if w.nk < 2 then .error .indexError
  else match w.getPkWiggle plin with
    | .error e => .error e
    | .ok wig => .ok fun z i =>
        plin z i - (1 - Real.exp (-((w.k i * w.sigmaV (plin z)) ^ 2))) * wig z i

end Wiggle

/-- a numpy array as passed by the user: its shape, and its entries when it has two dimensions -/
structure NdArray where
  shape : List ℕ
  data : ℕ → ℕ → ℝ

/-- numpy broadcasting of two lengths -/
def bcast (a b : ℕ) : Option ℕ := if a = b then some a else if a = 1 then some b else if b = 1 then some a else none

/-- `dewiggle_plin` on an array of any shape.  Two dimensions: the last axis is broadcast against `k_vec`.
Fewer: `sigma` is a scalar and `sigma[:, np.newaxis]` raises IndexError.  More: either broadcasting fails
(ValueError) or the result keeps its dimensions and is refused by the caller (ValueError). -/
noncomputable def dewiggleArray (w : Wiggle) (a : NdArray) : Except PyErr NdArray :=
  match a.shape with
  | [n, m] => match bcast m w.nk with
    | none => .error .valueError
    | some m' => match w.dewigglePlin (fun z i => a.data z (if m = 1 then 0 else i)) with
      | .error e => .error e
      | .ok d => .ok ⟨[n, m'], d⟩
  | [] => .error .indexError
  | [_] => .error .indexError
  | _ => .error .valueError

/-- `_pk_lin` (pk.py:439-470); `internal` is the spectrum interpolated from hmf, of shape `(n_z, n_k)`. -/
noncomputable def readPkLin (mode : NLMode) (dewiggle : Bool) (w : Wiggle) (nz : ℕ) (internal : ℕ → ℕ → ℝ)
    (supplied : Option NdArray) : Except PyErr NdArray := do
  let val : NdArray := match supplied with
    | none => ⟨[nz, w.nk], internal⟩
    | some a => a
  let val ← if mode = .hmcode || dewiggle then dewiggleArray w val else .ok val
  if val.shape ≠ [nz, w.nk] then .error .valueError else .ok val

/-- `_pk_nl` (pk.py:472-498) -/
noncomputable def readPkNl (mode : NLMode) (response : Bool) (nz nk : ℕ) (internal : ℕ → ℕ → ℝ)
    (supplied : Option NdArray) : Except PyErr (Option NdArray) :=
  if mode = .fortuna || response then
    let val : NdArray := match supplied with
      | none => ⟨[nz, nk], internal⟩
      | some a => a
    if val.shape ≠ [nz, nk] then .error .valueError else .ok (some val)
  else .ok supplied

end Verif.Pk

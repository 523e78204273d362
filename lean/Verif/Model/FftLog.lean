import Verif.Lib.Py
import Mathlib.Analysis.SpecialFunctions.Gamma.Basic
import Mathlib.Analysis.SpecialFunctions.Trigonometric.Basic
import Mathlib.Algebra.Order.Floor.Ring

/-!
# FFTLog

`/repo/cosmosis_modules/pk_to_real/pyfftlog.py`: the logarithmic Hankel transform used by `pk_to_real.py`.

Arrays of length `n` are index functions of which the entries below `n` count.  `loggamma` (scipy) is a parameter
`lg : ℂ → ℂ`.  `scipy.fftpack.rfft` and `irfft` are external and given by their documented formulas and packed layout.
Not modelled: the messages printed, the interactive option `kropt = 3`, directions other than `1` and `-1`.
-/

namespace Verif.FftLog

open Verif.Lib

/-- `np.round` of a scalar: to the nearest integer, ties to even -/
noncomputable def npRound (x : ℝ) : ℤ :=
  if Int.fract x < 1 / 2 then ⌊x⌋
  else if 1 / 2 < Int.fract x then ⌊x⌋ + 1
  else if Even ⌊x⌋ then ⌊x⌋ else ⌊x⌋ + 1

/-! ## Real Fourier transform in packed layout (scipy.fftpack) -/

/-- the discrete Fourier coefficient `m` of a real array -/
noncomputable def dft (n : ℕ) (a : ℕ → ℝ) (m : ℕ) : ℂ :=
  ∑ j ∈ Finset.range n, (a j : ℂ) * Complex.exp (-(2 * Real.pi * Complex.I * (j * m / n)))

/-- `rfft(a)`: `[y(0), Re y(1), Im y(1), ..., Re y(n/2)]` for even `n`, up to `Im y((n-1)/2)` for odd `n` -/
noncomputable def rfft (n : ℕ) (a : ℕ → ℝ) (i : ℕ) : ℝ :=
  if i = 0 then (dft n a 0).re
  else if i % 2 = 1 then (dft n a ((i + 1) / 2)).re
  else (dft n a (i / 2)).im

/-- the Fourier coefficients a packed array stands for, with those above `n/2` the conjugates of those below -/
noncomputable def unpack (n : ℕ) (y : ℕ → ℝ) (m : ℕ) : ℂ :=
  if m = 0 then (y 0 : ℂ)
  else if 2 * m < n then ⟨y (2 * m - 1), y (2 * m)⟩
  else if 2 * m = n then (y (n - 1) : ℂ)
  else ⟨y (2 * (n - m) - 1), -y (2 * (n - m))⟩

/-- `irfft(y)`: inverse of `rfft`, with the factor `1/n` -/
noncomputable def irfft (n : ℕ) (y : ℕ → ℝ) (j : ℕ) : ℝ :=
  ((∑ m ∈ Finset.range n, unpack n y m * Complex.exp (2 * Real.pi * Complex.I * (j * m / n))) / n).re

/-! ## Set-up -/

/-- `krgood` (pyfftlog.py:687-740) -/
noncomputable def krgood (lg : ℂ → ℂ) (mu q dlnr kr : ℝ) : ℝ :=
  if dlnr = 0 then kr
  else
    let xp := (mu + 1 + q) / 2
    let xm := (mu + 1 - q) / 2
    let zp := lg (xp + Complex.I * (Real.pi / (2 * dlnr)))
    let zm := lg (xm + Complex.I * (Real.pi / (2 * dlnr)))
    let arg := Real.log (2 / kr) / dlnr + (zp.im + zm.im) / Real.pi
    kr * Real.exp ((arg - npRound arg) * dlnr)

/-- `kropt` 0, 1 and 2 (pyfftlog.py:249-257) -/
inductive KrOpt
  | asIs
  | quiet
  | verbose
  deriving DecidableEq

open Classical in
/-- pyfftlog.py:249-257 -/
noncomputable def adjustKr (lg : ℂ → ℂ) (mu q dlnr kr : ℝ) : KrOpt → ℝ
  | .asIs => kr
  | .quiet => krgood lg mu q dlnr kr
  | .verbose => if 1e-15 ≤ |kr / krgood lg mu q dlnr kr - 1| then krgood lg mu q dlnr kr else kr

/-- the working array `xsave` with its length -/
structure XSave where
  size : ℕ
  val : ℕ → ℝ

/-- number of entries of `np.arange(1, (n + 1) / 2)` (pyfftlog.py:287, 368) -/
def nArg (n : ℕ) : ℕ := n / 2

/-- `arg` in the unbiased case (pyfftlog.py:283-291) -/
noncomputable def arg0 (lg : ℂ → ℂ) (n : ℕ) (mu dlnr kr : ℝ) (m : ℕ) : ℝ :=
  let ln2kr := Real.log (2 / kr)
  let xp := (mu + 1) / 2
  let d := Real.pi / (n * dlnr)
  let y := m * d
  2 * (ln2kr * y + (lg (xp + Complex.I * y)).im)

/-- `xsave` in the unbiased case: `[q, dlnr, kr, cos, sin, cos, sin, ...]` (pyfftlog.py:293-299) -/
noncomputable def xsave0 (lg : ℂ → ℂ) (n : ℕ) (mu dlnr kr : ℝ) : XSave where
  size := 2 * nArg n + 3
  val i := if i = 0 then 0 else if i = 1 then dlnr else if i = 2 then kr
    else if i % 2 = 1 then Real.cos (arg0 lg n mu dlnr kr ((i - 1) / 2))
    else Real.sin (arg0 lg n mu dlnr kr ((i - 2) / 2))

/-- amplitude for `m ≥ 1` in the biased case (pyfftlog.py:367-373) -/
noncomputable def ampB (lg : ℂ → ℂ) (n : ℕ) (mu q dlnr : ℝ) (m : ℕ) : ℝ :=
  let y := m * (Real.pi / (n * dlnr))
  Real.exp (Real.log 2 * q + (lg ((mu + 1 + q) / 2 + Complex.I * y)).re - (lg ((mu + 1 - q) / 2 + Complex.I * y)).re)

/-- argument for `m ≥ 1` in the biased case (pyfftlog.py:367-374) -/
noncomputable def argB (lg : ℂ → ℂ) (n : ℕ) (mu q dlnr kr : ℝ) (m : ℕ) : ℝ :=
  let y := m * (Real.pi / (n * dlnr))
  2 * Real.log (2 / kr) * y + (lg ((mu + 1 + q) / 2 + Complex.I * y)).im + (lg ((mu + 1 - q) / 2 + Complex.I * y)).im

/-- `np.round(x) == x and x <= 0` (pyfftlog.py:314-315) -/
def IsNegInt (x : ℝ) : Prop := (npRound x : ℝ) = x ∧ x ≤ 0

open Classical in
/-- `xsave1` (pyfftlog.py:307-364).  When `xp` and `xm` are both non-positive integers, `amp *= xm + m - 1` with an index
array `m` of `|xp - xm|` entries makes `amp` an array instead of multiplying by all entries; storing it in one element of
`xsave` (line 381) raises ValueError unless it has one entry. -/
noncomputable def xsave1 (lg : ℂ → ℂ) (mu q : ℝ) : Except PyErr ℝ :=
  let xp := (mu + 1 + q) / 2
  let xm := (mu + 1 - q) / 2
  if IsNegInt xp ∧ IsNegInt xm then
    let amp := Real.exp (Real.log 2 * q)
    let arg := npRound (xp + xm) * Real.pi
    let count := (npRound (|xp - xm|)).toNat
    if count = 0 then .ok (amp * Real.cos arg)
    else if count = 1 then
      if xm < xp then .ok (amp * xm * Real.cos arg) else .ok (amp / xp * Real.cos arg)
    else .error .valueError
  else if IsNegInt xp ∨ IsNegInt xm then .ok 0
  else
    let zp := lg xp
    let zm := lg xm
    .ok (Real.exp (Real.log 2 * q + zp.re - zm.re) * Real.cos (zp.im + zm.im))

/-- `xsave` in the biased case: `[q, dlnr, kr, xsave1, amp, cos, sin, amp, cos, sin, ...]` (pyfftlog.py:376-384) -/
noncomputable def xsaveB (lg : ℂ → ℂ) (n : ℕ) (mu q dlnr kr first : ℝ) : XSave where
  size := 3 * nArg n + 4
  val i := if i = 0 then q else if i = 1 then dlnr else if i = 2 then kr else if i = 3 then first
    else if i % 3 = 1 then ampB lg n mu q dlnr ((i - 1) / 3)
    else if i % 3 = 2 then Real.cos (argB lg n mu q dlnr kr ((i - 2) / 3))
    else Real.sin (argB lg n mu q dlnr kr ((i - 3) / 3))

open Classical in
/-- `fhti` for a positive `n` (pyfftlog.py:191-392) -/
noncomputable def fhti (lg : ℂ → ℂ) (n : ℕ) (mu dlnr q kr : ℝ) (opt : KrOpt) : Except PyErr (ℝ × XSave) :=
  let kr' := adjustKr lg mu q dlnr kr opt
  if q = 0 then .ok (kr', xsave0 lg n mu dlnr kr')
  else do
    let first ← xsave1 lg mu q
    return (kr', xsaveB lg n mu q dlnr kr' first)

/-! ## Transforms -/

/-- `tdir` -/
inductive Dir
  | fwd
  | bwd
  deriving DecidableEq

/-- `tdir` as a number -/
def Dir.sign : Dir → ℝ
  | .fwd => 1
  | .bwd => -1

/-- multiply or divide, depending on the direction -/
noncomputable def Dir.act : Dir → ℝ → ℝ → ℝ
  | .fwd, x, f => x * f
  | .bwd, x, f => x / f

/-- the phases applied to the packed coefficients `m = 1, ..., < n/2` (pyfftlog.py:612-618, 636-639) with the
cosines `c` and sines `s` read from `xsave`. -/
noncomputable def rotate (n : ℕ) (c s : ℕ → ℝ) (y : ℕ → ℝ) (i : ℕ) : ℝ :=
  if i % 2 = 1 ∧ i + 1 < n then
    y i * c ((i + 1) / 2) - y (i + 1) * s ((i + 1) / 2)
  else if i ≠ 0 ∧ i % 2 = 0 ∧ i < n then
    y (i - 1) * s (i / 2) + y i * c (i / 2)
  else y i

/-- packed coefficients after the multiplication, unbiased case (pyfftlog.py:613-631) -/
noncomputable def kernel0 (n : ℕ) (x : XSave) (d : Dir) (y : ℕ → ℝ) (i : ℕ) : ℝ :=
  let y1 := rotate n (fun m => x.val (2 * m + 1)) (fun m => x.val (2 * m + 2)) y
  if n % 2 = 0 ∧ i = n - 1 then d.act (y1 i) (x.val (x.size - 2)) else y1 i

open Classical in
/-- packed coefficients after the multiplication, biased case (pyfftlog.py:633-673) -/
noncomputable def kernelB (n : ℕ) (x : XSave) (d : Dir) (y : ℕ → ℝ) (i : ℕ) : ℝ :=
  let y1 := rotate n (fun m => x.val (3 * m + 2)) (fun m => x.val (3 * m + 3)) y
  if i = 0 then
    match d with
    | .fwd => y1 0 * x.val 3
    | .bwd => if x.val 3 = 0 then 0 else y1 0 / x.val 3
  else if n % 2 = 0 ∧ i = n - 1 then
    d.act (y1 i) (x.val (3 * (n / 2) + 2) * x.val (3 * (n / 2) + 1))
  else d.act (y1 i) (x.val (3 * ((i + 1) / 2) + 1))

open Classical in
/-- `fhtq` (pyfftlog.py:562-684) -/
noncomputable def fhtq (n : ℕ) (x : XSave) (d : Dir) (a : ℕ → ℝ) (j : ℕ) : ℝ :=
  let y := if x.val 0 = 0 then kernel0 n x d (rfft n a) else kernelB n x d (rfft n a)
  irfft n y (n - 1 - j)

/-- `j - jc` of entry `i` (pyfftlog.py:467-468, 546-547) -/
noncomputable def centred (n i : ℕ) : ℝ := (i + 1 : ℝ) - (n + 1) / 2

open Classical in
/-- `fht` (pyfftlog.py:486-559) -/
noncomputable def fht (n : ℕ) (x : XSave) (d : Dir) (a : ℕ → ℝ) (i : ℕ) : ℝ :=
  let q := x.val 0
  let dlnr := x.val 1
  let kr := x.val 2
  if q ≠ 0 then
    fhtq n x d (fun j => a j * Real.exp (-d.sign * q * centred n j * dlnr)) i *
      Real.exp (-d.sign * q * (centred n i * dlnr + Real.log kr))
  else fhtq n x d a i

/-- `fftl` (pyfftlog.py:395-483) -/
noncomputable def fftl (n : ℕ) (x : XSave) (rk : ℝ) (d : Dir) (a : ℕ → ℝ) (i : ℕ) : ℝ :=
  let q := x.val 0
  let dlnr := x.val 1
  let kr := x.val 2
  fhtq n x d (fun j => a j * Real.exp (-d.sign * (q - 0.5) * centred n j * dlnr)) i *
    Real.exp (-d.sign * ((q + 0.5) * centred n i * dlnr + q * Real.log kr - Real.log rk / 2))

end Verif.FftLog

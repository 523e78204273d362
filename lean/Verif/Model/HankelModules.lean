import Verif.Model.Ogata
import Verif.Model.FftLog

/-!
# The two Hankel transform modules as they are set up

`/repo/cosmosis_modules/pk_to_real/pk_to_real.py` with `pyfftlog.py`, and `pk_to_real_ogata.py` with the package `hankel`: the
transform of the order that belongs to the correlation type.
-/

namespace Verif.Ogata

open Verif.Lib Verif.RealSpace

/-- the `Transformer` of the settings (pk_to_real.py:79-125), with `kropt = 1`, `kr = 1` and direction `-1` -/
noncomputable def moduleTransformer (lg : ℂ → ℂ) (s : Settings) : Except PyErr Transformer :=
  match FftLog.fhti lg s.n (order s.corr) (grid s).dlogr (bias s.corr) 1 .quiet with
  | .error e => .error e
  | .ok (kr, x) => .ok ⟨s.n, s.kMin, s.kMax, s.rpMin, s.rpMax, kr, FftLog.fht s.n x .bwd⟩

/-- `CosmosisTransformer.__call__` after `setup` (pk_to_real.py:165-262, 274-296) -/
noncomputable def fftlogModule (lg : ℂ → ℂ) (s : Settings) (density0 : Option ℝ) (nbinBlock : Option ℕ)
    (spectra : String → Option Spectrum) (kernels : ℕ → Option Kernel) : Except PyErr Output :=
  match moduleTransformer lg s with
  | .error e => .error e
  | .ok T => fftlogTransform s T.kr T.fht density0 nbinBlock spectra kernels

/-- `projection.transform` after `setup` (pk_to_real_ogata.py:96-187, 204-225): `quad mu` is `HankelTransform(mu, 20, pi/20)` -/
noncomputable def ogataModule (quad : ℝ → Quadrature) (s : Settings) (nbinBlock : Option ℕ)
    (spectra : String → Option Spectrum) (kernels : ℕ → Option Kernel) : Except PyErr Output :=
  transform s (quad (order s.corr)) nbinBlock spectra kernels

end Verif.Ogata

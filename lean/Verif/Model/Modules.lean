import Verif.Model.Interface
import Verif.Model.Ogata

/-!
# The chain of CosmoSIS modules: power spectra, correlation functions, change of cosmology

How the output of `onepower_interface.execute` is found again by `pk_to_real` (or `pk_to_real_ogata`) and
`correct_cosmo_real`: section names, bin numbers, the mean density.  The data block is the list of entries written.
-/

namespace Verif.Modules

open Verif.Lib Verif.RealSpace Verif.Interface

/-- the spectra a call has computed, per bin -/
structure Results where
  mm : Spectrum
  gg : ℕ → Spectrum
  gm : ℕ → Spectrum
  ii : ℕ → Spectrum
  gi : ℕ → Spectrum
  mi : ℕ → Spectrum

/-- `save_pk_to_grid` for all bins of one spectrum (onepower_interface.py:574-579 in the loops of 1069-1198) -/
def binEntries (base : String) (n : ℕ) (sp : ℕ → Spectrum) : List (String × Spectrum) :=
  (List.range n).map fun nb => (base ++ binSuffix n nb, sp nb)

/-- the total spectra written in one call (onepower_interface.py:1056-1198); `nG` and `nI` are the bin counts of the two
samples.  Simplification: only `z`, `k_h` and `p_k` of each section. -/
def written (p : Pipeline) (nG nI : ℕ) (R : Results) : List (String × Spectrum) :=
  (if p.pmm && !p.response then [("matter_power_nl", R.mm)] else []) ++
  (if p.pgg then binEntries "galaxy_power" nG R.gg else []) ++
  (if p.pgm then binEntries "matter_galaxy_power" nG R.gm else []) ++
  (if p.alignment then
    (if p.pII then binEntries "intrinsic_power" nI R.ii else []) ++
    (if p.pgI then binEntries "galaxy_intrinsic_power" nI R.gi else []) ++
    (if p.pmI then binEntries "matter_intrinsic_power" nI R.mi else [])
   else [])

/-- reading a section from the block -/
def readSection (w : List (String × Spectrum)) (sec : String) : Option Spectrum := (w.find? fun e => e.1 == sec).map (·.2)

/-- `pk_to_real` after `onepower_interface`: the mean density is in the block of every call (onepower_interface.py:413,
1045), as one value per redshift, all equal -/
noncomputable def pkToReal (s : Ogata.Settings) (kr : ℝ) (fht : (ℕ → ℝ) → ℕ → ℝ) (meanDensity0 : ℝ) (p : Pipeline)
    (nG nI : ℕ) (R : Results) (nbinBlock : Option ℕ) (kernels : ℕ → Option Kernel) : Except PyErr Ogata.Output :=
  Ogata.fftlogTransform s kr fht (some meanDensity0) nbinBlock (readSection (written p nG nI R)) kernels

/-- `correct_cosmo_real` after `pk_to_real` (correct_cosmo_real.py:48-106): separations and functions of the bins -/
noncomputable def correctAfter (o : Ogata.Output) (rp : ℕ → ℝ) (run data : Cosmo) (z : List ℝ) : Except PyErr Corr :=
  correct run data o.saveName z o.nbin ⟨rp, fun b => (o.bins[b]?).getD fun _ => 0⟩

end Verif.Modules

import Verif.Model.Pk
import Mathlib.Topology.Algebra.Order.Field
import Mathlib.Topology.Instances.Real.Lemmas

/-! # Families of inputs that vary without jumps

A sampler moves the parameters; `t` is where it is.  Grids and switches stay, everything else varies continuously at `t₀`. -/

namespace Verif.Sampling

open Verif.Pk

variable {T : Type} [TopologicalSpace T]

/-- an optional parameter that is absent throughout, or present throughout and continuous -/
def OptAt (f : T → Option ℝ) (t₀ : T) : Prop :=
  (∀ t, f t = none) ∨ ∃ g : T → ℝ, (∀ t, f t = some (g t)) ∧ ContinuousAt g t₀

/-- all inputs of the spectra vary continuously at `t₀`, on a fixed grid with fixed switches and scale cuts, and what the
formulas divide by is not zero there -/
structure Along (c : Spectra) (s : T → Spectra) (t₀ : T) : Prop where
  nonlinearMode : ∀ t, (s t).nonlinearMode = c.nonlinearMode
  hmcodeIngredients : ∀ t, (s t).hmcodeIngredients = c.hmcodeIngredients
  response : ∀ t, (s t).response = c.response
  pointmass : ∀ t, (s t).pointmass = c.pointmass
  oneHaloKtrunc : ∀ t, (s t).oneHaloKtrunc = c.oneHaloKtrunc
  twoHaloKtrunc : ∀ t, (s t).twoHaloKtrunc = c.twoHaloKtrunc
  oneHaloKtruncIa : ∀ t, (s t).oneHaloKtruncIa = c.oneHaloKtruncIa
  twoHaloKtruncIa : ∀ t, (s t).twoHaloKtruncIa = c.twoHaloKtruncIa
  nm : ∀ t, (s t).nm = c.nm
  zVec : ∀ t, (s t).zVec = c.zVec
  kVec : ∀ t, (s t).kVec = c.kVec
  mass : ∀ t, (s t).mass = c.mass
  tEff : ContinuousAt (fun t => (s t).tEff) t₀
  mb : ContinuousAt (fun t => (s t).mb) t₀
  mbNe : (s t₀).mb ≠ 0
  log10TAGN : ContinuousAt (fun t => (s t).log10TAGN) t₀
  omegaC : ContinuousAt (fun t => (s t).omegaC) t₀
  omegaB : ContinuousAt (fun t => (s t).omegaB) t₀
  omegaM : ContinuousAt (fun t => (s t).omegaM) t₀
  omegaMNe : (s t₀).omegaM ≠ 0
  dndlnm : ∀ z m, ContinuousAt (fun t => (s t).dndlnm z m) t₀
  haloBias : ∀ z m, ContinuousAt (fun t => (s t).haloBias z m) t₀
  meanDensity0 : ∀ z, ContinuousAt (fun t => (s t).meanDensity0 z) t₀
  meanDensity0Ne : ∀ z, (s t₀).meanDensity0 z ≠ 0
  uDm : ∀ z k m, ContinuousAt (fun t => (s t).uDm z k m) t₀
  uSat : ∀ z k m, ContinuousAt (fun t => (s t).uSat z k m) t₀
  sigma8z : ∀ z, ContinuousAt (fun t => (s t).sigma8z z) t₀
  sigma8zPos : ∀ z, 0 < (s t₀).sigma8z z
  neff : ∀ z, ContinuousAt (fun t => (s t).neff z) t₀
  growthFactor : ∀ z, ContinuousAt (fun t => (s t).growthFactor z) t₀
  growthFactorNe : ∀ z, (s t₀).growthFactor z ≠ 0
  pkLin : ∀ z k, ContinuousAt (fun t => (s t).pkLin z k) t₀
  pkNl : ∀ z k, ContinuousAt (fun t => (s t).pkNl z k) t₀
  betaNl : ∀ z k i j, ContinuousAt (fun t => (s t).betaNl z k i j) t₀
  fC : ∀ b z, ContinuousAt (fun t => (s t).fC b z) t₀
  fS : ∀ b z, ContinuousAt (fun t => (s t).fS b z) t₀
  hodCen : ∀ b z m, ContinuousAt (fun t => (s t).hodCen b z m) t₀
  hodSat : ∀ b z m, ContinuousAt (fun t => (s t).hodSat b z m) t₀
  numberDensity : ∀ b z, ContinuousAt (fun t => (s t).numberDensity b z) t₀
  numberDensityNe : ∀ b z, (s t₀).numberDensity b z ≠ 0
  numberDensityCen : ∀ b z, ContinuousAt (fun t => (s t).numberDensityCen b z) t₀
  numberDensityCenNe : ∀ b z, (s t₀).numberDensityCen b z ≠ 0
  numberDensitySat : ∀ b z, ContinuousAt (fun t => (s t).numberDensitySat b z) t₀
  numberDensitySatNe : ∀ b z, (s t₀).numberDensitySat b z ≠ 0
  avgHaloMassCen : ∀ b z, ContinuousAt (fun t => (s t).avgHaloMassCen b z) t₀
  fstar : ∀ b z m, ContinuousAt (fun t => (s t).fstar b z m) t₀
  fstarMm : ∀ z m, ContinuousAt (fun t => (s t).fstarMm z m) t₀
  poissonFunc : ∀ m, ContinuousAt (fun t => (s t).poissonFunc m) t₀
  alignmentGi : ∀ z, ContinuousAt (fun t => (s t).alignmentGi z) t₀
  betaCen : OptAt (fun t => (s t).betaCen) t₀
  betaSat : OptAt (fun t => (s t).betaSat) t₀
  mpivotCen : OptAt (fun t => (s t).mpivotCen) t₀
  mpivotSat : OptAt (fun t => (s t).mpivotSat) t₀
  /-- the mean mass over the pivot, which is raised to the slope `beta` -/
  pivotCen : ∀ b z p, (s t₀).mpivotCen = some p → p ≠ 0 ∧ (s t₀).avgHaloMassCen b z ≠ 0
  pivotSat : ∀ b z p, (s t₀).mpivotSat = some p → p ≠ 0 ∧ (s t₀).avgHaloMassCen b z ≠ 0
  wkmSat : ∀ z k m, ContinuousAt (fun t => (s t).wkmSat z k m) t₀

/-- the three parts of a result and its bias, where there is one, are continuous -/
def ResultAt (r : T → PkResult) (t₀ : T) : Prop :=
  (∀ b z k, ContinuousAt (fun t => (r t).pk1h b z k) t₀) ∧ (∀ b z k, ContinuousAt (fun t => (r t).pk2h b z k) t₀) ∧
  (∀ b z k, ContinuousAt (fun t => (r t).pkTot b z k) t₀) ∧
  ((∀ t, (r t).galaxyLinearBias = none) ∨ ∃ g : T → ℕ → ℕ → ℕ → ℝ, (∀ t, (r t).galaxyLinearBias = some (g t)) ∧
    ∀ b z k, ContinuousAt (fun t => g t b z k) t₀)

end Verif.Sampling

import Verif.Model.Chain
import Verif.Model.LiveSpectra
import Verif.Model.Saved

/-!
# A call of the CosmoSIS module from the collected arguments to the spectra in the data block
(`/repo/cosmosis_modules/onepower_interface.py:1024-1200`)

Joins the other models: the one `Spectra` object of a chain (`Model/Chain`) with its cache and its formulas
(`Model/LiveSpectra`), the change to the output grid and the mixing of populations (`Model/Add`), and the writes
(`Model/Saved`).

Simplifications: the collected arguments are given (`kw`; where they come from is `Model/Interface`); everything written besides
spectra and linear biases is given (`rest`); which quantities are read before each spectrum is arbitrary (`reads`).  The results
object made before the change to the alignment sample goes on reading the shared halo model (C126), so it is modelled as made
anew.  All spectra are computed before the first write: of a call that fails nothing is said.  A spectrum that cannot be computed
counts as a missing attribute, whatever the exception was.
-/

namespace Verif.EndToEnd

open Verif.Lib Verif.Cache Verif.SpectraDeps Verif.Chain Verif.LiveSpectra Verif.Interface

variable {X : Type}

/-- `nonlinear_mode == s` -/
def modeIs (s : String) : SN → Bool
  | .str t => t == s
  | _ => false

/-- what decides which arguments are collected (onepower_interface.py:802, 841, 847, 907) -/
def flagsOf (p : Pipeline) : Flags where
  bnl := modeIs "bnl" p.nonlinear
  nlIn := p.response || modeIs "fortuna" p.nonlinear
  galaxy := p.galaxy
  alignment := p.alignment

/-- one call -/
structure ThisCall (X : Type) where
  /-- `power_kwargs` -/
  kw : String → LiveSpectra.Val X
  /-- `hod_settings_ia_1` -/
  ia : LiveSpectra.Val X
  /-- `hod_settings_ia_2` and `align_params_2`, with `split_ia` -/
  second : Option (LiveSpectra.Val X × LiveSpectra.Val X)
  /-- `z_vec_original` -/
  zOut : Add.Arr
  /-- `k_vec_original` -/
  nkOut : ℕ
  kOut : ℕ → ℝ
  /-- what is read before the change to the alignment sample, and (further) before each spectrum -/
  readsG : List ℕ
  reads : String → List ℕ
  /-- everything else that is written -/
  rest : Saved.Call

/-- the spectra of the alignment stage -/
def isIa (mode : String) : Bool := mode == "ii" || mode == "gi" || mode == "mi"

/-- what has happened to the halo model when a spectrum is read (onepower_interface.py:1025, 1057-1150) -/
def history (p : Pipeline) (before : List (Chain.Call (LiveSpectra.Val X))) (c : ThisCall X) (mode : String) :
    List (Op String (LiveSpectra.Val X)) :=
  if isIa mode then
    chainOps (flagsOf p) before ++ updateOps (flagsOf p) c.kw ++ readOps c.readsG ++ .set "hod_settings" c.ia :: readOps (c.reads mode)
  else chainOps (flagsOf p) before ++ updateOps (flagsOf p) c.kw ++ readOps (c.reads mode)

/-- `power_spectrum_<mode>` -/
def quantity : String → Option ℕ
  | "mm" => some mm
  | "gg" => some gg
  | "gm" => some gm
  | "ii" => some ii
  | "gi" => some gi
  | "mi" => some mi
  | _ => none

/-- what the object, built in `setup` with the parameters `σ₀`, reports for a quantity after a history -/
noncomputable def report (ext : ℕ → Env X → LiveSpectra.Val X) (σ₀ : String → LiveSpectra.Val X)
    (h : List (Op String (LiveSpectra.Val X))) (q : ℕ) : LiveSpectra.Val X :=
  value (cls (sem ext)) q (Cache.run (cls (sem ext)) (newObj σ₀) h)

/-- a component of a result -/
def part (r : Pk.PkResult) (comp : String) : Option (ℕ → ℕ → ℕ → ℝ) :=
  if comp = "1h" then some r.pk1h else if comp = "2h" then some r.pk2h else if comp = "tot" then some r.pkTot else none

/-- the halo model after a history, as `UpsampledSpectra` sees it -/
noncomputable def objAt (ext : ℕ → Env X → LiveSpectra.Val X) (σ₀ : String → LiveSpectra.Val X)
    (h : List (Op String (LiveSpectra.Val X))) : Add.Obj where
  nz := ((Cache.run (cls (sem ext)) (newObj σ₀) h).params "z_vec").len
  z := ((Cache.run (cls (sem ext)) (newObj σ₀) h).params "z_vec").v1
  nk := ((Cache.run (cls (sem ext)) (newObj σ₀) h).params "k_vec").len
  k := ((Cache.run (cls (sem ext)) (newObj σ₀) h).params "k_vec").v1
  spec mode := (quantity mode).bind fun q => match (report ext σ₀ h q).toResult with
    | .ok r => some (part r)
    | .error _ => none

/-- the results object: with `split_ia` and in the alignment stage it mixes two samples (onepower_interface.py:1027-1036,
1134-1147) -/
noncomputable def upsampler (ext : ℕ → Env X → LiveSpectra.Val X) (σ₀ : String → LiveSpectra.Val X)
    (h : List (Op String (LiveSpectra.Val X))) (c : ThisCall X) (mode : String) :
    Add.Params (LiveSpectra.Val X × LiveSpectra.Val X) :=
  match c.second with
  | some p2 => if isIa mode then splitParams c.zOut c.kOut (objAt ext σ₀ h) p2 p2
      else ⟨c.zOut, c.kOut, none, none, some (objAt ext σ₀ h), p2, none, .extrapolate⟩
  | none => ⟨c.zOut, c.kOut, none, none, some (objAt ext σ₀ h), (c.ia, c.ia), none, .extrapolate⟩

/-- a second halo model is a clone that is updated with the settings of the second sample (add.py:182-200) -/
noncomputable def maker (ext : ℕ → Env X → LiveSpectra.Val X) (σ₀ : String → LiveSpectra.Val X)
    (h : List (Op String (LiveSpectra.Val X))) : Add.Env (LiveSpectra.Val X × LiveSpectra.Val X) where
  make _ := objAt ext σ₀ []
  cloneUpdate _ p2 := objAt ext σ₀ (h ++ [.set "hod_settings" p2.1, .set "align_params" p2.2])

/-- `results.results([mode], ['1h', '2h', 'tot'])` and the three arrays (onepower_interface.py:1056-1061 and the like) -/
noncomputable def terms (ext : ℕ → Env X → LiveSpectra.Val X) (σ₀ : String → LiveSpectra.Val X)
    (h : List (Op String (LiveSpectra.Val X))) (c : ThisCall X) (mode : String) : Except PyErr Saved.Terms :=
  let out := Add.results (maker ext σ₀ h) ["1h", "2h", "tot"] [mode] (Add.fresh (upsampler ext σ₀ h c mode))
  match out.2 with
  | .error e => .error e
  | .ok _ => match out.1.attrs mode with
    | none => .error .attributeError
    | some d => match d "1h", d "2h", d "tot" with
      | some a, some b, some t => .ok ⟨a.val, b.val, t.val⟩
      | _, _, _ => .error .attributeError

/-- a spectrum that is asked for -/
noncomputable def wanted (b : Bool) (t : Except PyErr Saved.Terms) : Except PyErr Saved.Terms :=
  if b then t else .ok ⟨fun _ _ _ => 0, fun _ _ _ => 0, fun _ _ _ => 0⟩

/-- `power.power_spectrum_<mode>.galaxy_linear_bias` -/
noncomputable def biasOf (v : LiveSpectra.Val X) : ℕ → ℕ → ℕ → ℝ :=
  match v.toResult with
  | .ok r => r.galaxyLinearBias.getD fun _ _ _ => 0
  | .error _ => fun _ _ _ => 0

/-- `execute` from the update of the halo model on (onepower_interface.py:1024-1200) -/
noncomputable def execute (ext : ℕ → Env X → LiveSpectra.Val X) (σ₀ : String → LiveSpectra.Val X) (p : Pipeline)
    (before : List (Chain.Call (LiveSpectra.Val X))) (c : ThisCall X) (b : Saved.Block) : Except PyErr Saved.Block := do
  let t : String → Except PyErr Saved.Terms := fun mode => terms ext σ₀ (history p before c mode) c mode
  let mm ← wanted (p.pmm || p.response) (t "mm")
  let gg ← wanted p.pgg (t "gg")
  let gm ← wanted p.pgm (t "gm")
  let ii ← wanted p.pII (t "ii")
  let gi ← wanted p.pgI (t "gi")
  let mi ← wanted p.pmI (t "mi")
  Saved.run b (Saved.saveCall p
    { c.rest with
      zOut := .vec c.zOut.n c.zOut.val
      kOut := .vec c.nkOut c.kOut
      mm := mm
      gg := gg
      gm := gm
      ii := ii
      gi := gi
      mi := mi
      biasG := biasOf (report ext σ₀ (history p before c "gg") SpectraDeps.gg)
      biasGm := biasOf (report ext σ₀ (history p before c "gm") SpectraDeps.gm) })

end Verif.EndToEnd

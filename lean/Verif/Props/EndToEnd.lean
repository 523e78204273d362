import Verif.Model.EndToEnd
import Verif.Props.Chain
import Verif.Props.InterfaceExecute
import Verif.Props.InterfaceInterp
import Verif.Props.LiveSpectra
import Verif.Props.Saved

/-! Property C138: from the arguments of a call to the spectra in the data block. -/

namespace Verif.EndToEnd

open Verif.Lib Verif.Spec Verif.Cache Verif.SpectraDeps Verif.Chain Verif.LiveSpectra Verif.Interface

variable {X : Type}

/-! ## Parameters of the object -/

theorem runProg_params {P V : Type} [DecidableEq P] {n : ℕ} {ev : Fin n → Cache.Obj P V → V × Finset P × Cache.Obj P V}
    (hev : ∀ i o, (ev i o).2.2.params = o.params) (pr : Prog P V n) (o : Cache.Obj P V) :
    (runProg ev pr o).2.2.params = o.params := by
  induction pr generalizing o with
  | ret v => rfl
  | param p k ih => exact ih _ _
  | quant q k ih => exact (ih _ _).trans (hev q o)

theorem readQ_params {P V : Type} [DecidableEq P] (c : Cls P V) (q : ℕ) (o : Cache.Obj P V) :
    (readQ c q o).2.2.params = o.params := by
  induction q using Nat.strong_induction_on generalizing o with
  | _ q ih =>
    have r : ∀ o, (runProg (fun i o => readQ c i o) (c.code q) o).2.2.params = o.params :=
      runProg_params (fun i o => ih i i.2 o) _
    rw [readQ]
    split
    · split
      · rfl
      · exact r o
    · split
      · split
        · exact r o
        · rfl
      · exact r o

theorem setP_params' {P V : Type} [DecidableEq P] (c : Cls P V) (p : P) (v : V) (o : Cache.Obj P V) :
    (setP c p v o).params = Function.update o.params p v := by
  unfold setP
  split_ifs with h
  · rw [h, Function.update_eq_self]
  · rfl
  · rfl

theorem run_params {P V : Type} [DecidableEq P] (c : Cls P V) (h : List (Op P V)) (o : Cache.Obj P V) :
    (Cache.run c o h).params = finalParams o.params h := by
  induction h generalizing o with
  | nil => rfl
  | cons a h ih =>
    cases a with
    | read q => exact (ih _).trans (by rw [show (Cache.step c o (.read q)).params = o.params from readQ_params c q o]; rfl)
    | set p v =>
      exact (ih _).trans (by
        rw [show (Cache.step c o (.set p v)).params = Function.update o.params p v from setP_params' c p v o]; rfl)

/-! ## The specification -/

/-- the formula of a spectrum -/
noncomputable def formulaOf (s : Pk.Spectra) : String → Except PyErr Pk.PkResult
  | "mm" => s.powerSpectrumMm
  | "gg" => s.powerSpectrumGg
  | "gm" => s.powerSpectrumGm
  | "ii" => s.powerSpectrumIi
  | "gi" => s.powerSpectrumGi
  | "mi" => s.powerSpectrumMi
  | _ => .error .attributeError

/-- a function on a grid of redshifts and wavenumbers, continued by straight lines in redshift and then in log10 of the wavenumber -/
noncomputable def onGrid (z k : LiveSpectra.Val X) (F : ℕ → ℕ → ℝ) (q κ : ℝ) : ℝ :=
  interpLinear k.len (fun l => Real.logb 10 (k.v1 l)) (fun l => interpLinear z.len z.v1 (fun m => F m l) q) (Real.logb 10 κ)

/-- the section `sec` of the block holds bin `nb` of the spectrum `r`, brought from the grid of the halo model to the output grid -/
structure Holds (b : Saved.Block) (sec : String) (c : ThisCall X) (r : Pk.PkResult) (nb : ℕ) : Prop where
  z : b (sec, "z") = some (.vec c.zOut.n c.zOut.val)
  k : b (sec, "k_h") = some (.vec c.nkOut c.kOut)
  oneHalo : ∃ A, b (sec, "p_k_1h") = some (.mat A) ∧ ∀ i < c.zOut.n, ∀ j,
    A i j = onGrid (c.kw "z_vec") (c.kw "k_vec") (r.pk1h nb) (c.zOut.val i) (c.kOut j)
  twoHalo : ∃ A, b (sec, "p_k_2h") = some (.mat A) ∧ ∀ i < c.zOut.n, ∀ j,
    A i j = onGrid (c.kw "z_vec") (c.kw "k_vec") (r.pk2h nb) (c.zOut.val i) (c.kOut j)
  total : ∃ A, b (sec, "p_k") = some (.mat A) ∧ ∀ i < c.zOut.n, ∀ j,
    A i j = onGrid (c.kw "z_vec") (c.kw "k_vec") (r.pkTot nb) (c.zOut.val i) (c.kOut j)

/-- the spectrum `mode` of the halo model `s` can be computed and bin `nb` of it is in the section -/
def HoldsFormula (b : Saved.Block) (sec : String) (c : ThisCall X) (s : Pk.Spectra) (mode : String) (nb : ℕ) : Prop :=
  ∃ r, formulaOf s mode = .ok r ∧ Holds b sec c r nb

/-- the linear bias belonging to the spectrum -/
def HoldsBias (b : Saved.Block) (sec name : String) (s : Pk.Spectra) (mode : String) (nb : ℕ) : Prop :=
  ∃ r β, formulaOf s mode = .ok r ∧ r.galaxyLinearBias = some β ∧ b (sec, name) = some (.mat (β nb))

/-- all requested spectra are in the block: `s` gives the halo model each of them is computed from -/
structure AllSaved (p : Pipeline) (c : ThisCall X) (s : String → Pk.Spectra) (b : Saved.Block) : Prop where
  mm : p.pmm = true → p.response = false → HoldsFormula b "matter_power_nl" c (s "mm") "mm" 0
  gg : p.pgg = true → ∀ nb < c.rest.nG, HoldsFormula b ("galaxy_power" ++ binSuffix c.rest.nG nb) c (s "gg") "gg" nb
  gm : p.pgm = true → ∀ nb < c.rest.nG, HoldsFormula b ("matter_galaxy_power" ++ binSuffix c.rest.nG nb) c (s "gm") "gm" nb
  ii : p.pII = true → ∀ nb < c.rest.nI, HoldsFormula b ("intrinsic_power" ++ binSuffix c.rest.nI nb) c (s "ii") "ii" nb
  gi : p.pgI = true → ∀ nb < c.rest.nI, HoldsFormula b ("galaxy_intrinsic_power" ++ binSuffix c.rest.nI nb) c (s "gi") "gi" nb
  mi : p.pmI = true → ∀ nb < c.rest.nI, HoldsFormula b ("matter_intrinsic_power" ++ binSuffix c.rest.nI nb) c (s "mi") "mi" nb
  biasG : p.pgg = true → ∀ nb < c.rest.nG,
    HoldsBias b ("galaxy_linear_bias" ++ binSuffix c.rest.nG nb) "bg_linear" (s "gg") "gg" nb
  biasGm : p.pgm = true → ∀ nb < c.rest.nG,
    HoldsBias b ("galaxy_matter_linear_bias" ++ binSuffix c.rest.nG nb) "bgm_linear" (s "gm") "gm" nb

/-! ## The proof -/

variable {ext : ℕ → Env X → LiveSpectra.Val X} {σ₀ : String → LiveSpectra.Val X}

theorem single {P : Type} (env : Add.Env P) (z : Add.Arr) (k : ℕ → ℝ) (o : Add.Obj) (p1 : P) (comps : List String) (mode comp : String)
    (hok : (Add.results env comps [mode] (Add.fresh ⟨z, k, none, none, some o, p1, none, .extrapolate⟩)).2 = .ok ()) (hc : comp ∈ comps) :
    ∃ d v a, (Add.results env comps [mode] (Add.fresh ⟨z, k, none, none, some o, p1, none, .extrapolate⟩)).1.attrs mode = some d ∧
      d comp = some v ∧ Add.component o mode comp = .ok a ∧
      ∀ b i j, i < z.n → v.val b i j = Add.extrapolateSpectra z.val k o a .extrapolate b i j := by
  set p : Add.Params P := ⟨z, k, none, none, some o, p1, none, .extrapolate⟩ with hp
  obtain ⟨d0, hd0, hdc⟩ := (Add.results_spec env comps [mode] _).2.2 hok mode (by simp)
  obtain ⟨v0, hv0, -⟩ := (hdc comp).1 hc
  have e1 : Add.effP1 env (Add.fresh p) = o := rfl
  have hpar : (Add.fresh p).par = p := rfl
  unfold Add.valueNow Add.pureComp at hv0
  rw [e1, hpar] at hv0
  cases h1 : Add.upsampled p o mode comp with
  | error e => simp [h1] at hv0
  | ok x1 =>
    obtain ⟨d, v, hd, hdv, hval⟩ := Add.C59_single_population env p [mode] comps mode comp o (fun _ => 1) x1 rfl rfl
      (Or.inl ⟨rfl, rfl⟩) h1 hok (by simp) hc
    unfold Add.upsampled at h1
    cases ha : Add.component o mode comp with
    | error e => simp [ha] at h1
    | ok a =>
      simp only [ha, Except.ok.injEq] at h1
      refine ⟨d, v, a, hd, hdv, rfl, fun b i j hi => ?_⟩
      rw [hval b i j hi, ← h1]
      show (if mode = "mm" then _ else _) = Add.extrapolateSpectra z.val k o a .extrapolate b i j
      split_ifs <;> simp [hp]

/-- one population or two: what is computed is the spectrum of the object on the output grid -/
theorem either (h : List (Op String (LiveSpectra.Val X))) (c : ThisCall X) (mode comp : String)
    (hz : c.second ≠ none → SortedOn c.zOut.n c.zOut.val ∧ 2 ≤ c.zOut.n)
    (hok : (Add.results (maker ext σ₀ h) ["1h", "2h", "tot"] [mode] (Add.fresh (upsampler ext σ₀ h c mode))).2 = .ok ())
    (hc : comp ∈ ["1h", "2h", "tot"]) :
    ∃ d v a, (Add.results (maker ext σ₀ h) ["1h", "2h", "tot"] [mode] (Add.fresh (upsampler ext σ₀ h c mode))).1.attrs mode = some d ∧
      d comp = some v ∧ Add.component (objAt ext σ₀ h) mode comp = .ok a ∧
      ∀ b i j, i < c.zOut.n → v.val b i j = Add.extrapolateSpectra c.zOut.val c.kOut (objAt ext σ₀ h) a .extrapolate b i j := by
  unfold upsampler at hok ⊢
  cases hs : c.second with
  | none =>
    rw [hs] at hok
    exact single _ _ _ _ _ _ _ _ hok hc
  | some p2 =>
    rw [hs] at hok
    obtain ⟨z1, z2⟩ := hz (by rw [hs]; simp)
    dsimp only at hok ⊢
    by_cases hi : isIa mode = true
    · rw [if_pos hi] at hok ⊢
      obtain ⟨d, v, a, h1, h2, h3, -, h5⟩ := C69_second_sample_ignored _ c.zOut c.kOut (objAt ext σ₀ h) p2 p2 z1 z2 [mode] _ hok
        mode comp (by simp) hc
      exact ⟨d, v, a, h1, h2, h3, h5⟩
    · rw [if_neg hi] at hok ⊢
      exact single _ _ _ _ _ _ _ _ hok hc

/-- the three arrays of a spectrum are those of the object, on the output grid -/
theorem terms_ok {h : List (Op String (LiveSpectra.Val X))} {c : ThisCall X} {mode : String} {t : Saved.Terms}
    (hz : c.second ≠ none → SortedOn c.zOut.n c.zOut.val ∧ 2 ≤ c.zOut.n) (ht : terms ext σ₀ h c mode = .ok t) :
    ∃ q r, quantity mode = some q ∧ (report ext σ₀ h q).toResult = .ok r ∧
      (∀ b i j, i < c.zOut.n → t.p1 b i j = Add.extrapolateSpectra c.zOut.val c.kOut (objAt ext σ₀ h) r.pk1h .extrapolate b i j) ∧
      (∀ b i j, i < c.zOut.n → t.p2 b i j = Add.extrapolateSpectra c.zOut.val c.kOut (objAt ext σ₀ h) r.pk2h .extrapolate b i j) ∧
      ∀ b i j, i < c.zOut.n → t.tot b i j = Add.extrapolateSpectra c.zOut.val c.kOut (objAt ext σ₀ h) r.pkTot .extrapolate b i j := by
  unfold terms at ht
  dsimp only at ht
  cases ho : (Add.results (maker ext σ₀ h) ["1h", "2h", "tot"] [mode] (Add.fresh (upsampler ext σ₀ h c mode))).2 with
  | error e => rw [ho] at ht; cases ht
  | ok u =>
    rw [ho] at ht
    obtain ⟨d, v1, a1, k1, k2, k3, k4⟩ := either h c mode "1h" hz ho (by simp)
    obtain ⟨d', v2, a2, l1, l2, l3, l4⟩ := either h c mode "2h" hz ho (by simp)
    obtain ⟨d'', v3, a3, m1, m2, m3, m4⟩ := either h c mode "tot" hz ho (by simp)
    rw [k1] at l1 m1
    cases l1
    cases m1
    simp only [k1, k2, l2, m2, Except.ok.injEq] at ht
    subst ht
    unfold Add.component at k3 l3 m3
    cases hq : quantity mode with
    | none => simp [objAt, hq] at k3
    | some q =>
      cases hr : (report ext σ₀ h q).toResult with
      | error e => simp [objAt, hq, hr] at k3
      | ok r =>
        simp [objAt, hq, hr, part] at k3 l3 m3
        subst k3 l3 m3
        exact ⟨q, r, rfl, hr, k4, l4, m4⟩

theorem wanted_ok {b : Bool} {t : Except PyErr Saved.Terms} {x : Saved.Terms} (h : wanted b t = .ok x) (hb : b = true) : t = .ok x := by
  unfold wanted at h
  rwa [if_pos hb] at h

/-- the parameters of the object when a spectrum is read -/
def paramsAt (σ₀ : String → LiveSpectra.Val X) (p : Pipeline) (c : ThisCall X) (mode : String) : String → LiveSpectra.Val X :=
  if isIa mode = true then givenIa σ₀ (flagsOf p) c.kw c.ia else given σ₀ (flagsOf p) c.kw

theorem history_eq (p : Pipeline) (before : List (Chain.Call (LiveSpectra.Val X))) (c : ThisCall X) (mode : String) :
    history p before c mode = if isIa mode = true then upTo₂ (flagsOf p) before c.kw c.readsG c.ia (c.reads mode)
      else upTo₁ (flagsOf p) before c.kw (c.reads mode) := rfl

theorem history_facts (S : Sem (LiveSpectra.Val X)) (p : Pipeline) (before : List (Chain.Call (LiveSpectra.Val X))) (c : ThisCall X)
    (hc : ∀ x ∈ before, Regular S (flagsOf p) c.kw x) (mode : String) :
    ReadsIn (fun τ => SameRegime S τ (paramsAt σ₀ p c mode)) σ₀ (history p before c mode) ∧
      finalParams σ₀ (history p before c mode) = paramsAt σ₀ p c mode := by
  rw [history_eq]
  unfold paramsAt
  split_ifs
  · obtain ⟨h1, h2⟩ := upTo₂_facts S (flagsOf p) σ₀ before c.kw hc c.readsG c.ia (c.reads mode)
    have hr : SameRegime S (givenIa σ₀ (flagsOf p) c.kw c.ia) (given σ₀ (flagsOf p) c.kw) := fun t => outcome_hod_settings S _ c.ia t
    refine ⟨?_, h2⟩
    have e : (fun τ => SameRegime S τ (givenIa σ₀ (flagsOf p) c.kw c.ia)) = fun τ => SameRegime S τ (given σ₀ (flagsOf p) c.kw) :=
      funext fun τ => propext ⟨fun h t => (h t).trans (hr t), fun h t => (h t).trans (hr t).symm⟩
    rw [e]
    exact h1
  · exact upTo₁_facts S (flagsOf p) σ₀ before c.kw hc (c.reads mode)

theorem paramsAt_grid (p : Pipeline) (c : ThisCall X) (mode : String) :
    paramsAt σ₀ p c mode "z_vec" = c.kw "z_vec" ∧ paramsAt σ₀ p c mode "k_vec" = c.kw "k_vec" := by
  have hz : "z_vec" ∈ keys (flagsOf p) := by simp [keys, baseKeys]
  have hk : "k_vec" ∈ keys (flagsOf p) := by simp [keys, baseKeys]
  have g1 : given σ₀ (flagsOf p) c.kw "z_vec" = c.kw "z_vec" := if_pos hz
  have g2 : given σ₀ (flagsOf p) c.kw "k_vec" = c.kw "k_vec" := if_pos hk
  unfold paramsAt givenIa
  split_ifs
  · exact ⟨by rw [Function.update_of_ne (by decide), g1], by rw [Function.update_of_ne (by decide), g2]⟩
  · exact ⟨g1, g2⟩

/-- the six formulas in one statement -/
theorem areFormulas_mode {σ : String → LiveSpectra.Val X} {E F : ℕ → LiveSpectra.Val X} (h : AreFormulas σ E F) {mode : String} {q : ℕ}
    (hq : quantity mode = some q) : F q = .result (formulaOf (inputs σ E) mode) := by
  unfold quantity at hq
  split at hq <;> simp only [Option.some.injEq, reduceCtorEq] at hq <;> subst hq
  · exact h.mm
  · exact h.gg
  · exact h.gm
  · exact h.ii
  · exact h.gi
  · exact h.mi

/-- everything but the formulas: what is saved is what the object reports -/
theorem saved (p : Pipeline) (before : List (Chain.Call (LiveSpectra.Val X))) (c : ThisCall X) (b b' : Saved.Block)
    (hc : ∀ x ∈ before, Regular (sem ext) (flagsOf p) c.kw x)
    (hz : c.second ≠ none → SortedOn c.zOut.n c.zOut.val ∧ 2 ≤ c.zOut.n)
    (hres : ∀ s ∈ Saved.chosen p c.rest, s ∉ Saved.fixedSections p c.rest) (hb : Saved.Empty p c.rest b)
    (s : String → Pk.Spectra)
    (hs : ∀ mode q, quantity mode = some q → report ext σ₀ (history p before c mode) q = .result (formulaOf (s mode) mode))
    (hbG : ∀ r, formulaOf (s "gg") "gg" = .ok r → r.galaxyLinearBias ≠ none)
    (hbM : ∀ r, formulaOf (s "gm") "gm" = .ok r → r.galaxyLinearBias ≠ none)
    (h : execute ext σ₀ p before c b = .ok b') : AllSaved p c s b' := by
  simp only [execute, bind, Except.bind] at h
  cases e1 : wanted (p.pmm || p.response) (terms ext σ₀ (history p before c "mm") c "mm") with
  | error e => rw [e1] at h; cases h
  | ok t1 =>
  cases e2 : wanted p.pgg (terms ext σ₀ (history p before c "gg") c "gg") with
  | error e => rw [e1, e2] at h; cases h
  | ok t2 =>
  cases e3 : wanted p.pgm (terms ext σ₀ (history p before c "gm") c "gm") with
  | error e => rw [e1, e2, e3] at h; cases h
  | ok t3 =>
  cases e4 : wanted p.pII (terms ext σ₀ (history p before c "ii") c "ii") with
  | error e => rw [e1, e2, e3, e4] at h; cases h
  | ok t4 =>
  cases e5 : wanted p.pgI (terms ext σ₀ (history p before c "gi") c "gi") with
  | error e => rw [e1, e2, e3, e4, e5] at h; cases h
  | ok t5 =>
  cases e6 : wanted p.pmI (terms ext σ₀ (history p before c "mi") c "mi") with
  | error e => rw [e1, e2, e3, e4, e5, e6] at h; cases h
  | ok t6 =>
  rw [e1, e2, e3, e4, e5, e6] at h
  dsimp only at h
  have hw := fun e₁ e₂ => Saved.C109_spectra p _ b b' e₁ e₂ h
  obtain ⟨s1, s2, s3, s4, s5, s6⟩ := hw hres hb
  have key : ∀ {mode : String} {t : Saved.Terms}, terms ext σ₀ (history p before c mode) c mode = .ok t → ∀ {sec : String} {nb : ℕ},
      Saved.PkSaved b' sec (.vec c.zOut.n c.zOut.val) (.vec c.nkOut c.kOut) t nb → HoldsFormula b' sec c (s mode) mode nb := by
    intro mode t ht sec nb hp
    obtain ⟨q, r, hq, hr, k1, k2, k3⟩ := terms_ok hz ht
    rw [hs mode q hq] at hr
    have eo : ∀ (P : ℕ → ℕ → ℕ → ℝ) (i j : ℕ), Add.extrapolateSpectra c.zOut.val c.kOut (objAt ext σ₀ (history p before c mode)) P
        .extrapolate nb i j = onGrid (c.kw "z_vec") (c.kw "k_vec") (P nb) (c.zOut.val i) (c.kOut j) := by
      intro P i j
      have hpar : (Cache.run (cls (sem ext)) (newObj σ₀) (history p before c mode)).params = paramsAt σ₀ p c mode :=
        (run_params _ _ _).trans (history_facts (sem ext) p before c hc mode).2
      obtain ⟨g1, g2⟩ := paramsAt_grid (σ₀ := σ₀) p c mode
      rw [← g1, ← g2, ← hpar]
      rfl
    refine ⟨r, hr, hp.z, hp.k, ⟨_, hp.p1, fun i hi j => ?_⟩, ⟨_, hp.p2, fun i hi j => ?_⟩, ⟨_, hp.tot, fun i hi j => ?_⟩⟩
    · rw [k1 nb i j hi, eo]
    · rw [k2 nb i j hi, eo]
    · rw [k3 nb i j hi, eo]
  have bias : ∀ {mode : String} {q : ℕ} {sec name : String} {nb : ℕ} {t : Saved.Terms}, quantity mode = some q →
      terms ext σ₀ (history p before c mode) c mode = .ok t →
      (∀ r, formulaOf (s mode) mode = .ok r → r.galaxyLinearBias ≠ none) →
      b' (sec, name) = some (.mat (biasOf (report ext σ₀ (history p before c mode) q) nb)) → HoldsBias b' sec name (s mode) mode nb := by
    intro mode q sec name nb t hq ht hn hv
    obtain ⟨q', r, hq', hr, -⟩ := terms_ok hz ht
    rw [hq] at hq'
    cases hq'
    rw [hs mode q hq] at hr hv
    cases hβ : r.galaxyLinearBias with
    | none => exact absurd hβ (hn r hr)
    | some β =>
      refine ⟨r, β, hr, hβ, ?_⟩
      rw [hv]
      unfold biasOf
      rw [hr]
      simp [hβ]
  refine ⟨fun h1 h2 => key (wanted_ok e1 (by simp [h1])) (s1 h1 h2), fun h1 nb hn => key (wanted_ok e2 h1) (s2 h1 nb hn).1,
    fun h1 nb hn => key (wanted_ok e3 h1) (s3 h1 nb hn).1, fun h1 nb hn => key (wanted_ok e4 h1) (s4 h1 nb hn),
    fun h1 nb hn => key (wanted_ok e5 h1) (s5 h1 nb hn), fun h1 nb hn => key (wanted_ok e6 h1) (s6 h1 nb hn),
    fun h1 nb hn => bias rfl (wanted_ok e2 h1) hbG (s2 h1 nb hn).2, fun h1 nb hn => bias rfl (wanted_ok e3 h1) hbM (s3 h1 nb hn).2⟩

theorem bias_gg {s : Pk.Spectra} {r : Pk.PkResult} (h : formulaOf s "gg" = .ok r) : r.galaxyLinearBias ≠ none := by
  change s.applyResponse s.powerSpectrumGgRaw = _ at h
  unfold Pk.Spectra.applyResponse at h
  split_ifs at h
  · split at h
    · cases h
    · cases h; simp [Pk.Spectra.powerSpectrumGgRaw]
  · cases h; simp [Pk.Spectra.powerSpectrumGgRaw]

theorem bias_gm {s : Pk.Spectra} {r : Pk.PkResult} (h : formulaOf s "gm" = .ok r) : r.galaxyLinearBias ≠ none := by
  change s.applyResponse s.powerSpectrumGmRaw = _ at h
  unfold Pk.Spectra.applyResponse at h
  split_ifs at h
  · split at h
    · cases h
    · cases h; simp [Pk.Spectra.powerSpectrumGmRaw]
  · cases h; simp [Pk.Spectra.powerSpectrumGmRaw]

/-! ## C138 -/

/-- C138: after any chain of earlier calls in the same regime, also failed ones, and whatever was read in between: if a call
completes, every requested spectrum and linear bias in the block is the halo-model formula evaluated at the arguments of this
call, with the ingredients the one object reports at that time, brought to the output grid.  With two alignment samples too. -/
theorem C138_saved (p : Pipeline) (before : List (Chain.Call (LiveSpectra.Val X))) (c : ThisCall X) (b b' : Saved.Block)
    (hc : ∀ x ∈ before, Regular (sem ext) (flagsOf p) c.kw x)
    (hz : c.second ≠ none → SortedOn c.zOut.n c.zOut.val ∧ 2 ≤ c.zOut.n)
    (hres : ∀ s ∈ Saved.chosen p c.rest, s ∉ Saved.fixedSections p c.rest) (hb : Saved.Empty p c.rest b)
    (h : execute ext σ₀ p before c b = .ok b') :
    AllSaved p c (fun mode => inputs (paramsAt σ₀ p c mode) (report ext σ₀ (history p before c mode))) b' := by
  refine saved p before c b b' hc hz hres hb _ (fun mode q hq => ?_) (fun r hr => bias_gg hr) (fun r hr => bias_gm hr) h
  obtain ⟨h1, h2⟩ := history_facts (σ₀ := σ₀) (sem ext) p before c hc mode
  have h3 := C134_live ext σ₀ (history p before c mode) (by rw [h2]; exact h1)
  rw [h2] at h3
  exact areFormulas_mode h3 hq

/-- what is needed so that no spectrum uses `omega_m` (C94) -/
structure NoOmegaM (ext : ℕ → Env X → LiveSpectra.Val X) (σ : String → LiveSpectra.Val X) : Prop where
  bnl : outcome (sem ext) σ .bnl = false ∨ outcome (sem ext) σ .betaNone = false
  feedback : outcome (sem ext) σ .feedback = false
  profile : outcome (sem ext) σ .mead2020 = true ∨ outcome (sem ext) σ .fit = false ∧ outcome (sem ext) σ .pointmass = false

theorem NoOmegaM.same {σ τ : String → LiveSpectra.Val X} (h : NoOmegaM ext σ) (hr : SameRegime (sem ext) τ σ) : NoOmegaM ext τ :=
  ⟨by rw [hr, hr]; exact h.bnl, by rw [hr]; exact h.feedback, by rw [hr, hr, hr]; exact h.profile⟩

theorem spectrum_mem {mode : String} {q : ℕ} (hq : quantity mode = some q) : q ∈ [mmRaw, mm, gg, gm, mi, ii, gi] := by
  unfold quantity at hq
  split at hq <;> simp only [Option.some.injEq, reduceCtorEq] at hq <;> subst hq <;> simp

/-- a spectrum reported by a live object is that of a new object with the present parameters -/
theorem report_eq {h : List (Op String (LiveSpectra.Val X))}
    (hr : ReadsIn (fun τ => SameRegime (sem ext) τ (finalParams σ₀ h)) σ₀ h) (hn : NoOmegaM ext (finalParams σ₀ h)) {mode : String} {q : ℕ}
    (hq : quantity mode = some q) : report ext σ₀ h q = report ext (finalParams σ₀ h) [] q := by
  have hu := C94_spectra_without_omega_m (sem ext) _ hn.bnl hn.feedback hn.profile q (spectrum_mem hq)
  unfold report
  rw [C95_object_consistent (oneFrozen (sem ext) _) σ₀ h hr (fun _ => rfl) q, den_pin_unused _ q hu]
  exact (value_new (sem ext) _ q).symm

theorem paramsAt_regime (p : Pipeline) (c : ThisCall X) (mode : String) :
    SameRegime (sem ext) (paramsAt σ₀ p c mode) (given σ₀ (flagsOf p) c.kw) := by
  unfold paramsAt
  split_ifs
  · exact fun t => outcome_hod_settings (sem ext) _ c.ia t
  · exact fun _ => rfl

/-- C138: without feedback, fitted or point-mass profiles, and with the table of the non-linear bias given, the ingredients are
those of a new object built with the arguments of this call: nothing in the block depends on the past -/
theorem C138_this_call (p : Pipeline) (before : List (Chain.Call (LiveSpectra.Val X))) (c : ThisCall X) (b b' : Saved.Block)
    (hc : ∀ x ∈ before, Regular (sem ext) (flagsOf p) c.kw x) (hn : NoOmegaM ext (given σ₀ (flagsOf p) c.kw))
    (hz : c.second ≠ none → SortedOn c.zOut.n c.zOut.val ∧ 2 ≤ c.zOut.n)
    (hres : ∀ s ∈ Saved.chosen p c.rest, s ∉ Saved.fixedSections p c.rest) (hb : Saved.Empty p c.rest b)
    (h : execute ext σ₀ p before c b = .ok b') :
    AllSaved p c (fun mode => inputs (paramsAt σ₀ p c mode) (reports ext (paramsAt σ₀ p c mode) [])) b' := by
  refine saved p before c b b' hc hz hres hb _ (fun mode q hq => ?_) (fun r hr => bias_gg hr) (fun r hr => bias_gm hr) h
  obtain ⟨h1, h2⟩ := history_facts (σ₀ := σ₀) (sem ext) p before c hc mode
  rw [report_eq (by rw [h2]; exact h1) (by rw [h2]; exact hn.same (paramsAt_regime p c mode)) hq, h2]
  exact areFormulas_mode (C134_new_object ext (paramsAt σ₀ p c mode)) hq

theorem objAt_eq {h h' : List (Op String (LiveSpectra.Val X))} (hf : finalParams σ₀ h = finalParams σ₀ h')
    (hr : ∀ mode q, quantity mode = some q → report ext σ₀ h q = report ext σ₀ h' q) : objAt ext σ₀ h = objAt ext σ₀ h' := by
  unfold objAt
  rw [run_params, run_params]
  have e : (newObj σ₀).params = σ₀ := rfl
  rw [e, hf]
  congr 1
  funext mode
  cases hq : quantity mode with
  | none => rfl
  | some q => simp only [Option.bind_some]; rw [hr mode q hq]

/-- C138: then the whole outcome of the call, success or failure and every number in the block, is the same whatever happened
before -/
theorem C138_history (p : Pipeline) (before before' : List (Chain.Call (LiveSpectra.Val X))) (c : ThisCall X) (b : Saved.Block)
    (hc : ∀ x ∈ before, Regular (sem ext) (flagsOf p) c.kw x) (hc' : ∀ x ∈ before', Regular (sem ext) (flagsOf p) c.kw x)
    (hn : NoOmegaM ext (given σ₀ (flagsOf p) c.kw)) :
    execute ext σ₀ p before c b = execute ext σ₀ p before' c b := by
  have facts := fun mode => history_facts (σ₀ := σ₀) (sem ext) p before c hc mode
  have facts' := fun mode => history_facts (σ₀ := σ₀) (sem ext) p before' c hc' mode
  have more : ∀ mode (l : List (Op String (LiveSpectra.Val X))) (_ : ∀ τ : String → LiveSpectra.Val X, ReadsIn (fun _ => False) τ l)
      (_ : ∀ τ, SameRegime (sem ext) (finalParams τ l) τ) (mode' : String) (q : ℕ), quantity mode' = some q →
      report ext σ₀ (history p before c mode ++ l) q = report ext σ₀ (history p before' c mode ++ l) q := by
    intro mode l hl hs mode' q hq
    have weak : ∀ (G : (String → LiveSpectra.Val X) → Prop) (m : List (Op String (LiveSpectra.Val X))) (τ : String → LiveSpectra.Val X),
        ReadsIn (fun _ => False) τ m → ReadsIn G τ m := by
      intro G m
      induction m with
      | nil => exact fun _ _ => trivial
      | cons a m ih =>
        intro τ hm
        cases a with
        | read q => exact hm.1.elim
        | set p v => exact ih _ hm
    have step : ∀ bf, (ReadsIn (fun τ => SameRegime (sem ext) τ (paramsAt σ₀ p c mode)) σ₀ (history p bf c mode) ∧
        finalParams σ₀ (history p bf c mode) = paramsAt σ₀ p c mode) →
        report ext σ₀ (history p bf c mode ++ l) q = report ext (finalParams (paramsAt σ₀ p c mode) l) [] q := by
      intro bf ⟨f1, f2⟩
      have e : finalParams σ₀ (history p bf c mode ++ l) = finalParams (paramsAt σ₀ p c mode) l := by rw [finalParams_append, f2]
      have r := hs (paramsAt σ₀ p c mode)
      rw [report_eq (mode := mode') ?_ ?_ hq, e]
      · rw [e, readsIn_append]
        refine ⟨?_, weak _ _ _ (hl _)⟩
        have e' : (fun τ => SameRegime (sem ext) τ (finalParams (paramsAt σ₀ p c mode) l)) =
            fun τ => SameRegime (sem ext) τ (paramsAt σ₀ p c mode) :=
          funext fun τ => propext ⟨fun h t => (h t).trans (r t), fun h t => (h t).trans (r t).symm⟩
        rw [e']
        exact f1
      · rw [e]
        exact hn.same fun t => (r t).trans (paramsAt_regime p c mode t)
    rw [step before (facts mode), step before' (facts' mode)]
  have here : ∀ mode mode' q, quantity mode' = some q →
      report ext σ₀ (history p before c mode) q = report ext σ₀ (history p before' c mode) q := fun mode mode' q hq => by
    simpa using more mode [] (fun _ => trivial) (fun _ _ => rfl) mode' q hq
  have obj : ∀ mode, objAt ext σ₀ (history p before c mode) = objAt ext σ₀ (history p before' c mode) := fun mode =>
    objAt_eq ((facts mode).2.trans (facts' mode).2.symm) (here mode)
  have mk : ∀ mode, maker ext σ₀ (history p before c mode) = maker ext σ₀ (history p before' c mode) := fun mode => by
    unfold maker
    congr 1
    funext _ p2
    refine objAt_eq ?_ (more mode _ (fun _ => trivial) fun τ t => ?_)
    · rw [finalParams_append, finalParams_append, (facts mode).2, (facts' mode).2]
    · show outcome (sem ext) (Function.update (Function.update τ "hod_settings" p2.1) "align_params" p2.2) t = _
      unfold outcome
      rw [Function.update_of_ne (by cases t <;> simp [Test.param]), Function.update_of_ne (by cases t <;> simp [Test.param])]
  have tm : ∀ mode, terms ext σ₀ (history p before c mode) c mode = terms ext σ₀ (history p before' c mode) c mode := fun mode => by
    unfold terms upsampler
    rw [obj mode, mk mode]
  unfold execute
  simp only [tm, here "gg" "gg" SpectraDeps.gg rfl, here "gm" "gm" SpectraDeps.gm rfl]

theorem results_ok {P : Type} (env : Add.Env P) (comps : List String) (mode : String) (s : Add.State P)
    (h : ∀ c ∈ comps, ∃ v, Add.valueNow env s mode c = .ok v) : (Add.results env comps [mode] s).2 = .ok () := by
  have key : ∃ d, (Add.collect env mode comps s).2 = .ok d := by
    induction comps generalizing s with
    | nil => exact ⟨_, rfl⟩
    | cons comp comps ih =>
      obtain ⟨a1, a2, -⟩ := Add.oneComponent_spec env mode comp s
      obtain ⟨v, hv⟩ := h comp (by simp)
      rw [hv] at a1
      obtain ⟨d, hd⟩ := ih (Add.oneComponent env mode comp s).1 fun c hc => by
        rw [Add.valueNow_ext env a2]; exact h c (by simp [hc])
      unfold Add.collect
      generalize Add.oneComponent env mode comp s = x at a1 hd
      obtain ⟨s1, r⟩ := x
      subst a1
      dsimp only at hd ⊢
      generalize Add.collect env mode comps s1 = y at hd
      obtain ⟨s2, r2⟩ := y
      subst hd
      exact ⟨_, rfl⟩
  obtain ⟨d, hd⟩ := key
  unfold Add.results
  generalize Add.collect env mode comps s = y at hd
  obtain ⟨s2, r2⟩ := y
  subst hd
  rfl

/-- C138: a call with one alignment sample completes exactly when every spectrum it needs can be computed from the formulas and
the two samples are not written to the same section -/
theorem C138_completes (p : Pipeline) (before : List (Chain.Call (LiveSpectra.Val X))) (c : ThisCall X) (b : Saved.Block)
    (hc : ∀ x ∈ before, Regular (sem ext) (flagsOf p) c.kw x) (hsec : c.second = none)
    (hres : ∀ s ∈ Saved.chosen p c.rest, s ∉ Saved.fixedSections p c.rest) (hb : Saved.Empty p c.rest b) :
    (∃ b', execute ext σ₀ p before c b = .ok b') ↔
      (∀ x ∈ [(p.pmm || p.response, "mm"), (p.pgg, "gg"), (p.pgm, "gm"), (p.pII, "ii"), (p.pgI, "gi"), (p.pmI, "mi")], x.1 = true →
        ∃ r, formulaOf (inputs (paramsAt σ₀ p c x.2) (report ext σ₀ (history p before c x.2))) x.2 = .ok r) ∧
      ¬ (p.hod = true ∧ p.alignment = true ∧ c.rest.hodSection = c.rest.iaSection) := by
  have form : ∀ mode q, quantity mode = some q → report ext σ₀ (history p before c mode) q =
      .result (formulaOf (inputs (paramsAt σ₀ p c mode) (report ext σ₀ (history p before c mode))) mode) := fun mode q hq => by
    obtain ⟨h1, h2⟩ := history_facts (σ₀ := σ₀) (sem ext) p before c hc mode
    have h3 := C134_live ext σ₀ (history p before c mode) (by rw [h2]; exact h1)
    rw [h2] at h3
    exact areFormulas_mode h3 hq
  have key : ∀ mode q, quantity mode = some q → ((∃ t, terms ext σ₀ (history p before c mode) c mode = .ok t) ↔
      ∃ r, formulaOf (inputs (paramsAt σ₀ p c mode) (report ext σ₀ (history p before c mode))) mode = .ok r) := by
    intro mode q hq
    constructor
    · rintro ⟨t, ht⟩
      obtain ⟨q', r, hq', hr, -⟩ := terms_ok (fun h => absurd hsec h) ht
      rw [hq] at hq'
      cases hq'
      rw [form mode q hq] at hr
      exact ⟨r, hr⟩
    · rintro ⟨r, hr⟩
      have hv : ∀ comp ∈ ["1h", "2h", "tot"], ∃ v, Add.valueNow (maker ext σ₀ (history p before c mode))
          (Add.fresh (upsampler ext σ₀ (history p before c mode) c mode)) mode comp = .ok v := by
        intro comp hcomp
        have hsp : (objAt ext σ₀ (history p before c mode)).spec mode = some (part r) := by
          show (quantity mode).bind _ = _
          rw [hq, Option.bind_some, form mode q hq]
          change (match formulaOf _ mode with | .ok r => some (part r) | .error _ => none) = _
          rw [hr]
        have hco : ∃ a, Add.component (objAt ext σ₀ (history p before c mode)) mode comp = .ok a := by
          unfold Add.component
          rw [hsp]
          simp only [List.mem_cons, List.not_mem_nil, or_false] at hcomp
          rcases hcomp with rfl | rfl | rfl <;> simp [part]
        obtain ⟨a, ha⟩ := hco
        unfold Add.valueNow Add.pureComp
        have e1 : Add.effP1 (maker ext σ₀ (history p before c mode)) (Add.fresh (upsampler ext σ₀ (history p before c mode) c mode)) =
            objAt ext σ₀ (history p before c mode) := by unfold upsampler; rw [hsec]; rfl
        have e2 : Add.effP2 (maker ext σ₀ (history p before c mode)) (Add.fresh (upsampler ext σ₀ (history p before c mode) c mode)) =
            none := by unfold upsampler; rw [hsec]; rfl
        have e3 : Add.effF (Add.fresh (upsampler ext σ₀ (history p before c mode) c mode)) = .ok ⟨c.zOut.n, fun _ => 1⟩ := by
          unfold upsampler; rw [hsec]; rfl
        have e4 : (Add.fresh (upsampler ext σ₀ (history p before c mode) c mode)).par.z = c.zOut := by
          unfold upsampler; rw [hsec]; rfl
        rw [e1, e2, e3]
        unfold Add.upsampled Add.upsampled2 Add.combine
        rw [ha]
        simp only [e4]
        by_cases g : mode = "mm"
        · rw [if_pos g]; exact ⟨_, rfl⟩
        · rw [if_neg g]; exact ⟨_, if_neg fun h => h.1 rfl⟩
      have hok := results_ok _ _ _ _ hv
      obtain ⟨d, hd, hdc⟩ := (Add.results_spec _ _ _ _).2.2 hok mode (by simp)
      obtain ⟨v1, -, w1⟩ := (hdc "1h").1 (by simp)
      obtain ⟨v2, -, w2⟩ := (hdc "2h").1 (by simp)
      obtain ⟨v3, -, w3⟩ := (hdc "tot").1 (by simp)
      unfold terms
      simp only [hok, hd, w1, w2, w3]
      exact ⟨_, rfl⟩
  have wk : ∀ (f : Bool) mode q, quantity mode = some q →
      ((∃ t, wanted f (terms ext σ₀ (history p before c mode) c mode) = .ok t) ↔
        (f = true → ∃ r, formulaOf (inputs (paramsAt σ₀ p c mode) (report ext σ₀ (history p before c mode))) mode = .ok r)) := by
    intro f mode q hq
    unfold wanted
    split_ifs with hf
    · rw [key mode q hq]; simp [hf]
    · simp [hf]
  simp only [List.forall_mem_cons, List.not_mem_nil, false_implies, implies_true, and_true]
  rw [← wk (p.pmm || p.response) "mm" mm rfl, ← wk p.pgg "gg" gg rfl, ← wk p.pgm "gm" gm rfl, ← wk p.pII "ii" ii rfl, ← wk p.pgI "gi" gi rfl,
    ← wk p.pmI "mi" mi rfl]
  simp only [execute, bind, Except.bind]
  generalize wanted (p.pmm || p.response) (terms ext σ₀ (history p before c "mm") c "mm") = x1
  generalize wanted p.pgg (terms ext σ₀ (history p before c "gg") c "gg") = x2
  generalize wanted p.pgm (terms ext σ₀ (history p before c "gm") c "gm") = x3
  generalize wanted p.pII (terms ext σ₀ (history p before c "ii") c "ii") = x4
  generalize wanted p.pgI (terms ext σ₀ (history p before c "gi") c "gi") = x5
  generalize wanted p.pmI (terms ext σ₀ (history p before c "mi") c "mi") = x6
  cases x1 with
  | error e => simp
  | ok t1 =>
  cases x2 with
  | error e => simp
  | ok t2 =>
  cases x3 with
  | error e => simp
  | ok t3 =>
  cases x4 with
  | error e => simp
  | ok t4 =>
  cases x5 with
  | error e => simp
  | ok t5 =>
  cases x6 with
  | error e => simp
  | ok t6 =>
  simp only [Except.ok.injEq, exists_eq', true_and]
  exact Saved.C109_succeeds p _ b hres hb

/-- C138: where an output point is a point of the grid of the halo model, the saved number is the formula itself -/
theorem C138_exact {b : Saved.Block} {sec : String} {c : ThisCall X} {r : Pk.PkResult} {nb : ℕ} (h : Holds b sec c r nb)
    (hz : SortedOn (c.kw "z_vec").len (c.kw "z_vec").v1) (hz2 : 2 ≤ (c.kw "z_vec").len)
    (hk : SortedOn (c.kw "k_vec").len (c.kw "k_vec").v1) (hk2 : 2 ≤ (c.kw "k_vec").len) (hk0 : ∀ l < (c.kw "k_vec").len, 0 < (c.kw "k_vec").v1 l)
    {i j m l : ℕ} (hi : i < c.zOut.n) (hm : m < (c.kw "z_vec").len) (hl : l < (c.kw "k_vec").len)
    (ez : c.zOut.val i = (c.kw "z_vec").v1 m) (ek : c.kOut j = (c.kw "k_vec").v1 l) :
    (∃ A, b (sec, "p_k_1h") = some (.mat A) ∧ A i j = r.pk1h nb m l) ∧ (∃ A, b (sec, "p_k_2h") = some (.mat A) ∧ A i j = r.pk2h nb m l) ∧
      ∃ A, b (sec, "p_k") = some (.mat A) ∧ A i j = r.pkTot nb m l := by
  have key : ∀ F : ℕ → ℕ → ℝ, onGrid (c.kw "z_vec") (c.kw "k_vec") F (c.zOut.val i) (c.kOut j) = F m l := fun F => by
    unfold onGrid
    rw [ez, ek]
    have e : ∀ l, interpLinear (c.kw "z_vec").len (c.kw "z_vec").v1 (fun m => F m l) ((c.kw "z_vec").v1 m) = F m l := fun l =>
      interpLinear_node hz2 hz _ hm
    simp only [e]
    exact interpLinear_node hk2 (x := fun l => Real.logb 10 ((c.kw "k_vec").v1 l))
      (fun a b hab hb => Real.logb_lt_logb (by norm_num) (hk0 a (by omega)) (hk a b hab hb)) _ hl
  obtain ⟨A1, a1, b1⟩ := h.oneHalo
  obtain ⟨A2, a2, b2⟩ := h.twoHalo
  obtain ⟨A3, a3, b3⟩ := h.total
  exact ⟨⟨A1, a1, (b1 i hi j).trans (key _)⟩, ⟨A2, a2, (b2 i hi j).trans (key _)⟩, ⟨A3, a3, (b3 i hi j).trans (key _)⟩⟩

/-- C138: with the wavenumbers that the interface makes, evenly spaced in the logarithm between the ends of the given ones, this
is so at the lowest and the highest wavenumber -/
theorem C138_ends {b : Saved.Block} {sec : String} {c : ThisCall X} {r : Pk.PkResult} {nb nk : ℕ} (h : Holds b sec c r nb)
    (hz : SortedOn (c.kw "z_vec").len (c.kw "z_vec").v1) (hz2 : 2 ≤ (c.kw "z_vec").len)
    (hn : 2 ≤ c.nkOut) (hk : SortedOn c.nkOut c.kOut) (hk0 : ∀ j < c.nkOut, 0 < c.kOut j) (hnk : 2 ≤ nk)
    (hkv : c.kw "k_vec" = .a1 nk (kVec c.nkOut c.kOut nk))
    {i m : ℕ} (hi : i < c.zOut.n) (hm : m < (c.kw "z_vec").len) (ez : c.zOut.val i = (c.kw "z_vec").v1 m) :
    ∃ A, b (sec, "p_k") = some (.mat A) ∧ A i 0 = r.pkTot nb m 0 ∧ A i (c.nkOut - 1) = r.pkTot nb m (nk - 1) := by
  obtain ⟨e0, e1, hs, hb⟩ := C87_wavenumbers hn hk hk0 nk hnk
  have hl : (c.kw "k_vec").len = nk := by rw [hkv]; rfl
  have hv : (c.kw "k_vec").v1 = kVec c.nkOut c.kOut nk := by rw [hkv]; rfl
  have key := fun (j l : ℕ) (hl' : l < nk) (e : c.kOut j = kVec c.nkOut c.kOut nk l) =>
    (C138_exact h hz hz2 (by rw [hl, hv]; exact fun a b hab _ => hs a b hab) (by omega)
      (by rw [hl, hv]; exact fun l hl => lt_of_lt_of_le (hk0 0 (by omega)) (hb l hl).1) hi hm (j := j) (l := l) (by omega) ez (by rw [hv]; exact e)).2.2
  obtain ⟨A, a1, a2⟩ := key 0 0 (by omega) e0.symm
  obtain ⟨A', b1, b2⟩ := key (c.nkOut - 1) (nk - 1) (by omega) e1.symm
  rw [a1] at b1
  cases b1
  exact ⟨A, a1, a2, b2⟩

/-- C138: the parameters these spectra are evaluated at are the arguments of the call: all that every call gives, those for galaxies when
there are galaxies or alignments, those for alignments, and what the mode needs.  Only the alignment spectra see the settings of the
alignment sample. -/
theorem C138_parameters (σ₀ : String → LiveSpectra.Val X) (p : Pipeline) (c : ThisCall X) (mode : String) :
    (∀ q ∈ ["matter_power_lin", "hmcode_ingredients", "nonlinear_mode", "dewiggle", "k_vec", "z_vec", "lnk_min", "lnk_max", "dlnk",
      "Mmin", "Mmax", "dlog10m", "mdef_model", "hmf_model", "bias_model", "halo_profile_model_dm", "halo_concentration_model_dm",
      "halo_profile_model_sat", "halo_concentration_model_sat", "transfer_model", "transfer_params", "growth_model", "growth_params",
      "norm_cen", "norm_sat", "eta_cen", "eta_sat", "overdensity", "delta_c", "one_halo_ktrunc", "two_halo_ktrunc", "omega_c", "omega_b",
      "h0", "n_s", "sigma_8", "m_nu", "w0", "wa", "tcmb", "log10T_AGN", "mb"], paramsAt σ₀ p c mode q = c.kw q) ∧
    (p.galaxy = true ∨ p.alignment = true → ∀ q ∈ ["poisson_model", "poisson_params", "pointmass", "hod_model", "hod_params",
      "obs_settings", "compute_observable", "hod_settings_mm"], paramsAt σ₀ p c mode q = c.kw q) ∧
    (p.alignment = true → ∀ q ∈ ["align_params", "one_halo_ktrunc_ia", "two_halo_ktrunc_ia", "t_eff"], paramsAt σ₀ p c mode q = c.kw q) ∧
    (p.nonlinear = .str "bnl" → paramsAt σ₀ p c mode "beta_nl" = c.kw "beta_nl") ∧
    (p.response = true ∨ p.nonlinear = .str "fortuna" → ∀ q ∈ ["matter_power_nl", "response"], paramsAt σ₀ p c mode q = c.kw q) ∧
    (mode ∈ ["ii", "gi", "mi"] → paramsAt σ₀ p c mode "hod_settings" = c.ia) ∧
    (mode ∈ ["mm", "gg", "gm"] → p.galaxy = true ∨ p.alignment = true → paramsAt σ₀ p c mode "hod_settings" = c.kw "hod_settings") := by
  have g : ∀ q, q ≠ "hod_settings" → q ∈ keys (flagsOf p) → paramsAt σ₀ p c mode q = c.kw q := fun q hq hk => by
    unfold paramsAt givenIa
    split_ifs
    · rw [Function.update_of_ne hq]; exact if_pos hk
    · exact if_pos hk
  have hod : p.galaxy = true ∨ p.alignment = true → ((flagsOf p).galaxy || (flagsOf p).alignment) = true := by
    intro h; simpa [flagsOf] using h
  refine ⟨fun q hq => g q ?_ ?_, fun h q hq => g q ?_ ?_, fun h q hq => g q ?_ ?_, fun h => g _ (by decide) ?_, fun h q hq => g q ?_ ?_,
    fun h => ?_, fun h h' => ?_⟩
  · rintro rfl; revert hq; decide
  · exact List.mem_append_left _ (List.mem_append_left _ (List.mem_append_left _ (List.mem_append_left _ hq)))
  · rintro rfl; revert hq; decide
  · refine List.mem_append_left _ (List.mem_append_right _ ?_)
    rw [if_pos (hod h)]
    simp only [List.mem_cons, List.not_mem_nil, or_false] at hq
    rcases hq with rfl | rfl | rfl | rfl | rfl | rfl | rfl | rfl <;> decide
  · rintro rfl; revert hq; decide
  · refine List.mem_append_right _ ?_
    rw [if_pos (show (flagsOf p).alignment = true from h)]
    exact hq
  · refine List.mem_append_left _ (List.mem_append_left _ (List.mem_append_left _ (List.mem_append_right _ ?_)))
    rw [if_pos (show (flagsOf p).bnl = true by simp [flagsOf, h, modeIs])]
    simp
  · rintro rfl; revert hq; decide
  · refine List.mem_append_left _ (List.mem_append_left _ (List.mem_append_right _ ?_))
    rw [if_pos (show (flagsOf p).nlIn = true by rcases h with h | h <;> simp [flagsOf, h, modeIs])]
    exact hq
  · have : isIa mode = true := by
      simp only [List.mem_cons, List.not_mem_nil, or_false] at h
      rcases h with rfl | rfl | rfl <;> decide
    unfold paramsAt givenIa
    rw [if_pos this, Function.update_self]
  · have : ¬ isIa mode = true := by
      simp only [List.mem_cons, List.not_mem_nil, or_false] at h
      rcases h with rfl | rfl | rfl <;> decide
    unfold paramsAt
    rw [if_neg this]
    refine if_pos (List.mem_append_left _ (List.mem_append_right _ ?_))
    rw [if_pos (hod h')]
    decide

/-! ## A chain of three calls -/

/-- the arguments of a call: two redshifts, three wavenumbers, and the density of dark matter -/
noncomputable def demoKw (omegaC : ℝ) : String → LiveSpectra.Val Unit
  | "z_vec" => .a1 2 fun i => i
  | "k_vec" => .a1 3 (kVec 2 (fun i => i + 1) 3)
  | "omega_c" => .num omegaC
  | "omega_b" => .num 0.05
  | _ => .none

/-- all spectra on an output grid of two redshifts and two wavenumbers -/
noncomputable def demoThis : ThisCall Unit where
  kw := demoKw 0.25
  ia := .obj ()
  second := none
  zOut := ⟨2, fun i => i⟩
  nkOut := 2
  kOut := fun i => i + 1
  readsG := [gg]
  reads := fun _ => [mass]
  rest := Saved.demoCall "hod_ia"

/-- an earlier call with another density, and one that raised after 40 steps -/
noncomputable def demoBefore : List (Chain.Call (LiveSpectra.Val Unit)) :=
  [⟨demoKw 0.3, .none, [mm, gg], [ii], 1000⟩, ⟨demoKw 0.4, .none, [gm], [], 40⟩]

theorem demo_regular : ∀ x ∈ demoBefore, Regular (sem toyExt) (flagsOf Saved.demoAll) demoThis.kw x := by
  intro x hx t _
  simp only [demoBefore, List.mem_cons, List.not_mem_nil, or_false] at hx
  rcases hx with rfl | rfl <;> cases t <;> rfl

theorem demo_par (mode : String) :
    (paramsAt (fun _ => .none) Saved.demoAll demoThis mode "nonlinear_mode").mode = .none ∧
    (paramsAt (fun _ => .none) Saved.demoAll demoThis mode "response").truthy = false := by
  have g : ∀ s : String, s ≠ "hod_settings" → paramsAt (fun _ => .none) Saved.demoAll demoThis mode s =
      given (fun _ => .none) (flagsOf Saved.demoAll) demoThis.kw s := fun s hs => by
    unfold paramsAt givenIa
    split_ifs
    · exact Function.update_of_ne hs _ _
    · rfl
  rw [g _ (by decide), g _ (by decide)]
  unfold given
  constructor
  · split_ifs <;> rfl
  · split_ifs <;> rfl

theorem demo_noOmegaM : NoOmegaM toyExt (given (fun _ => .none) (flagsOf Saved.demoAll) demoThis.kw) := by
  have g : ∀ t : Test, t = .bnl ∨ t = .feedback ∨ t = .fit ∨ t = .pointmass →
      outcome (sem toyExt) (given (fun _ => .none) (flagsOf Saved.demoAll) demoThis.kw) t = false := by
    intro t ht
    unfold outcome given
    rcases ht with rfl | rfl | rfl | rfl <;> split_ifs <;> rfl
  exact ⟨.inl (g _ (by simp)), g _ (by simp), .inr ⟨g _ (by simp), g _ (by simp)⟩⟩

example : paramsAt (fun _ => .none) Saved.demoAll demoThis "mi" "hod_settings" = .obj () ∧
    paramsAt (fun _ => .none) Saved.demoAll demoThis "gm" "omega_c" = .num 0.25 :=
  ⟨(C138_parameters _ _ _ _).2.2.2.2.2.1 (by simp), (C138_parameters _ _ _ _).1 _ (by simp)⟩

/-- the third call completes, all spectra are those of a new object, and at redshift 1 the last number of the matter spectrum is
the formula at the last wavenumber of the halo model -/
example : ∃ b', execute toyExt (fun _ => .none) Saved.demoAll demoBefore demoThis (fun _ => none) = .ok b' ∧
    AllSaved Saved.demoAll demoThis (fun mode => inputs (paramsAt (fun _ => .none) Saved.demoAll demoThis mode)
      (reports toyExt (paramsAt (fun _ => .none) Saved.demoAll demoThis mode) [])) b' ∧
    ∃ (A : ℕ → ℕ → ℝ) (r : Pk.PkResult), (inputs (paramsAt (fun _ => .none) Saved.demoAll demoThis "mm")
        (reports toyExt (paramsAt (fun _ => .none) Saved.demoAll demoThis "mm") [])).powerSpectrumMm = .ok r ∧
      b' ("matter_power_nl", "p_k") = some (.mat A) ∧ A 1 1 = r.pkTot 0 1 2 := by
  have hz : SortedOn 2 fun i : ℕ => (i : ℝ) := fun a b hab _ => by show (a : ℝ) < b; exact_mod_cast hab
  obtain ⟨b', h⟩ := (C138_completes (ext := toyExt) (σ₀ := fun _ => .none) Saved.demoAll demoBefore demoThis (fun _ => none) demo_regular rfl
    Saved.demo_chosen (fun _ _ _ _ => rfl)).mpr ⟨by
      intro x _ _
      have e1 := fun E => show (inputs (paramsAt (fun _ => .none) Saved.demoAll demoThis x.2) E).nonlinearMode = .none from (demo_par x.2).1
      have e2 := fun E => show (inputs (paramsAt (fun _ => .none) Saved.demoAll demoThis x.2) E).response = false from (demo_par x.2).2
      generalize report toyExt (fun _ => .none) (history Saved.demoAll demoBefore demoThis x.2) = E
      have h1 := e1 E
      have h2 := e2 E
      generalize inputs (paramsAt (fun _ => .none) Saved.demoAll demoThis x.2) E = s at h1 h2
      rename_i hx _
      simp only [List.mem_cons, List.not_mem_nil, or_false] at hx
      rcases hx with rfl | rfl | rfl | rfl | rfl | rfl
      · exact ⟨_, by show s.powerSpectrumMm = _; unfold Pk.Spectra.powerSpectrumMm Pk.Spectra.powerSpectrumMmRaw; rw [h1, h2]; rfl⟩
      · exact ⟨_, by show s.applyResponse _ = _; unfold Pk.Spectra.applyResponse; rw [h2]; rfl⟩
      · exact ⟨_, by show s.applyResponse _ = _; unfold Pk.Spectra.applyResponse; rw [h2]; rfl⟩
      · exact ⟨_, by show s.applyResponse _ = _; unfold Pk.Spectra.applyResponse; rw [h2]; rfl⟩
      · exact ⟨_, by show s.applyResponse _ = _; unfold Pk.Spectra.applyResponse; rw [h2]; rfl⟩
      · exact ⟨_, by show s.applyResponse _ = _; unfold Pk.Spectra.applyResponse; rw [h2]; rfl⟩,
    by rintro ⟨-, -, h⟩; revert h; show ¬ ("hod" = "hod_ia"); decide⟩
  have ha := C138_this_call _ _ _ _ _ demo_regular demo_noOmegaM (fun h => absurd rfl h) Saved.demo_chosen (fun _ _ _ _ => rfl) h
  obtain ⟨r, hf, hr⟩ := ha.mm rfl rfl
  obtain ⟨A, a1, -, a2⟩ := C138_ends (nk := 3) hr hz le_rfl le_rfl
    (fun a b hab _ => by show (a : ℝ) + 1 < b + 1; have : (a : ℝ) < b := by exact_mod_cast hab
                         linarith)
    (fun j _ => by show (0 : ℝ) < j + 1; positivity) (by norm_num) rfl (i := 1) (m := 1) (by show 1 < 2; norm_num) (by show 1 < 2; norm_num) rfl
  exact ⟨b', h, ha, A, r, hf, a1, a2⟩

end Verif.EndToEnd

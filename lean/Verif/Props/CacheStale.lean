import Verif.Props.Cache
import Verif.Model.CachedQuantities
import Mathlib.Tactic.Linarith

/-! Properties C24 (instance), C25 and C74: where onepower's quantities are fresh and where they are not. -/

namespace Verif.Cached

open Verif.Cache
open Verif.Cached.PyVal (toNum toArr)

theorem den_cosmo (σ : String → PyVal) : den cls σ qCosmo = (.arr [(σ "h0").toNum * 100, (σ "omega_b").toNum,
    (σ "omega_c").toNum + (σ "omega_b").toNum, (σ "Neff").toNum, (σ "m_nu").toNum, (σ "tcmb").toNum,
    (σ "w0").toNum, (σ "wa").toNum],
    {"h0", "omega_b", "omega_c", "omega_b", "Neff", "m_nu", "tcmb", "w0", "wa"}) := by
  rw [den]
  rfl

/-- C24 for onepower: `cosmo_model`, `scale_factor` and `peff` (with supplied spectra) are always fresh. -/
theorem C24_onepower_instance (σ : String → PyVal) (h : List (Op String PyVal)) (q : ℕ)
    (hq : q = qCosmo ∨ q = qScale ∨ q = qPeff) :
    value cls q (run cls (newObj σ) h) = value cls q (newObj (finalParams σ h)) := by
  have hc : Closed cls {q | q = qCosmo ∨ q = qScale ∨ q = qPeff} := by
    constructor
    · rintro q (rfl | rfl | rfl) <;> rfl
    · rintro q (rfl | rfl | rfl)
      · simp [cls, cosmoCode, ReadsOnly]
      · simp [cls, scaleCode, ReadsOnly]
      · simp only [cls, peffCode, ReadsOnly]
        intro v
        split_ifs <;> simp [ReadsOnly]
  refine (C24_reads_are_fresh _ hc ?_ σ h q hq).1
  rintro q (rfl | rfl | rfl) σ σ' hs
  · rw [den_cosmo, den_cosmo]
  · rw [den, den]; rfl
  · have e : σ "nonlinear_mode" = σ' "nonlinear_mode" := hs _ rfl
    rw [den, den]
    simp only [show cls.code qPeff = peffCode from rfl, peffCode, denProg]
    by_cases hm : σ "nonlinear_mode" = .str "fortuna"
    · have hm' := e ▸ hm
      simp [hm, hm', denProg]
    · have hm' : ¬ σ' "nonlinear_mode" = .str "fortuna" := e ▸ hm
      simp [hm, hm', denProg]

/-- the hypotheses of the general theorem are met and the quantities are not trivial: `peff` changes with
`t_eff` and with the mode -/
example : ∃ σ σ' : String → PyVal, (den cls σ qPeff).1 ≠ (den cls σ' qPeff).1 := by
  refine ⟨fun _ => .none, fun p => if p = "nonlinear_mode" then .str "fortuna" else .num 1, ?_⟩
  rw [den, den]
  simp [cls, peffCode, denProg]

/-! ## C25 -/

theorem inv_cosmo (σ : String → PyVal) (h : List (Op String PyVal)) :
    Closed cls {qCosmo} ∧ Inv cls {qCosmo} (run cls (newObj σ) h) ∧
      (run cls (newObj σ) h).params = finalParams σ h := by
  have hc : Closed cls {qCosmo} := by
    constructor
    · rintro q rfl; rfl
    · rintro q rfl; simp [cls, cosmoCode, ReadsOnly]
  refine ⟨hc, run_inv hc ?_ h (newObj σ) (new_inv _ σ)⟩
  rintro q rfl σ σ' -
  rw [den_cosmo, den_cosmo]

theorem omega_m_first (σ : String → PyVal) (h : List (Op String PyVal))
    (hf : (run cls (newObj σ) h).done qOmegaM = false) :
    value cls qOmegaM (run cls (newObj σ) h)
      = .num ((finalParams σ h "omega_c").toNum + (finalParams σ h "omega_b").toNum) := by
  obtain ⟨hc, hi, hp⟩ := inv_cosmo σ h
  have e := (readQ_inv hc qCosmo _ hi).2 rfl
  rw [den_cosmo, hp] at e
  have e1 := congrArg Prod.fst e
  simp only at e1
  unfold value
  rw [readQ]
  simp only [show cls.kind qOmegaM = .frozen from rfl, hf, Bool.false_eq_true, if_false]
  simp only [show cls.code qOmegaM = omegaMCode from rfl, omegaMCode, runProg]
  rw [e1]
  rfl

/-- C25: whatever happened before, the first time `omega_m` is read its value is `omega_c + omega_b`, and
that value is returned for ever after, whatever parameters are updated (`done` says whether it has been
read). -/
theorem C25_omega_m_never_changes (σ : String → PyVal) (h1 h2 : List (Op String PyVal))
    (hfirst : (run cls (newObj σ) h1).done qOmegaM = false) :
    value cls qOmegaM (run cls (newObj σ) (h1 ++ Op.read qOmegaM :: h2))
      = .num ((finalParams σ h1 "omega_c").toNum + (finalParams σ h1 "omega_b").toNum) := by
  rw [← omega_m_first σ h1 hfirst]
  have := frozen_law (c := cls) qOmegaM rfl (run cls (newObj σ) h1) h2
  rw [← this]
  congr 1
  unfold run
  rw [List.foldl_append]
  rfl

/-- C25: a new object with the present parameters gives the present sum, so the stored value is right
exactly when the sum has not changed since. -/
theorem C25_stale_iff (σ : String → PyVal) (h1 h2 : List (Op String PyVal))
    (hfirst : (run cls (newObj σ) h1).done qOmegaM = false) :
    let σ1 := finalParams σ h1
    let σ2 := finalParams σ (h1 ++ Op.read qOmegaM :: h2)
    value cls qOmegaM (run cls (newObj σ) (h1 ++ Op.read qOmegaM :: h2)) = value cls qOmegaM (newObj σ2) ↔
      (σ1 "omega_c").toNum + (σ1 "omega_b").toNum = (σ2 "omega_c").toNum + (σ2 "omega_b").toNum := by
  intro σ1 σ2
  rw [C25_omega_m_never_changes σ h1 h2 hfirst]
  have := omega_m_first σ2 [] rfl
  rw [show value cls qOmegaM (newObj σ2) = _ from this]
  constructor
  · intro h; injection h
  · intro h; exact congrArg _ h

/-- parameters of a default object (the ones used here) -/
noncomputable def defaults : String → PyVal := fun p =>
  if p = "omega_c" then .num 0.25 else if p = "omega_b" then .num 0.05
  else if p = "log10T_AGN" then .num 7.8 else if p = "z_vec" then .arr [0] else .none

/-- C25: with the default cosmology, `update(omega_c=0.35)` after a read leaves `omega_m` at 0.3; the dark
matter and baryon fractions used by the feedback profile then add up to 4/3 instead of 1. -/
theorem C25_witness :
    let h := [Op.read qOmegaM, Op.set "omega_c" (.num 0.35)]
    value cls qOmegaM (run cls (newObj defaults) h) = .num (0.25 + 0.05) ∧
      value cls qOmegaM (newObj (finalParams defaults h)) = .num (0.35 + 0.05) ∧
      (value cls qDmFrac (run cls (newObj defaults) h)).toNum
        + (value cls qBaryonFrac (run cls (newObj defaults) h)).toNum = 4 / 3 := by
  intro h
  have e1 : value cls qOmegaM (run cls (newObj defaults) h) = .num (0.25 + 0.05) := by
    have := C25_omega_m_never_changes defaults [] [Op.set "omega_c" (.num 0.35)] rfl
    simpa [defaults, finalParams, toNum] using this
  have e2 : value cls qOmegaM (newObj (finalParams defaults h)) = .num (0.35 + 0.05) := by
    have := omega_m_first (finalParams defaults h) [] rfl
    rw [show value cls qOmegaM (newObj (finalParams defaults h)) = _ from this]
    simp [defaults, finalParams, toNum, h]
  refine ⟨e1, e2, ?_⟩
  have hp : (run cls (newObj defaults) h).params = finalParams defaults h := (inv_cosmo defaults h).2.2
  have hd : (run cls (newObj defaults) h).done qOmegaM = true := by
    have : (readQ cls qOmegaM (newObj defaults)).2.2.done qOmegaM = true := by
      rw [readQ]; simp [cls, newObj]
    exact (run_frozen (c := cls) qOmegaM rfl [Op.set "omega_c" (.num 0.35)] _ this).1
  have hm : (run cls (newObj defaults) h).memo qOmegaM = .num (0.25 + 0.05) := by
    rw [← e1]; unfold value; rw [readQ]; simp [show cls.kind qOmegaM = .frozen from rfl, hd]
  have hx : ∀ q, (run cls (newObj defaults) h).index q = none ∨ q = qCosmo := by
    intro q
    by_cases hq : q = qCosmo
    · exact Or.inr hq
    · left
      have : (readQ cls qOmegaM (newObj defaults)).2.2.index q = none := by
        rw [readQ]
        simp only [show cls.kind qOmegaM = .frozen from rfl, newObj, Bool.false_eq_true, if_false]
        simp only [show cls.code qOmegaM = omegaMCode from rfl, omegaMCode, runProg]
        rw [readQ]
        simp [show cls.kind qCosmo = .tracked from rfl, hq, show cls.code qCosmo = cosmoCode from rfl, cosmoCode,
          runProg]
      change (setP cls "omega_c" (.num 0.35) (readQ cls qOmegaM (newObj defaults)).2.2).index q = none
      unfold setP
      split_ifs with a b
      · exact this
      · simp only [this]
      · exact this
  have f1 : value cls qDmFrac (run cls (newObj defaults) h) = .num (0.35 / (0.25 + 0.05)) := by
    unfold value
    rw [readQ]
    have hi : (run cls (newObj defaults) h).index qDmFrac = none := by
      rcases hx qDmFrac with h | h
      · exact h
      · cases h
    simp only [show cls.kind qDmFrac = .tracked from rfl, hi]
    change (runProg (fun i o => readQ cls i o) dmFracCode _).1 = _
    simp only [dmFracCode, runProg]
    rw [readQ]
    simp only [show cls.kind qOmegaM = .frozen from rfl, hd, if_true, hm, hp]
    simp [finalParams, h, toNum]
  have f2 : value cls qBaryonFrac (run cls (newObj defaults) h) = .num (0.05 / (0.25 + 0.05)) := by
    unfold value
    rw [readQ]
    have hi : (run cls (newObj defaults) h).index qBaryonFrac = none := by
      rcases hx qBaryonFrac with h | h
      · exact h
      · cases h
    simp only [show cls.kind qBaryonFrac = .tracked from rfl, hi]
    change (runProg (fun i o => readQ cls i o) baryonFracCode _).1 = _
    simp only [baryonFracCode, runProg]
    rw [readQ]
    simp only [show cls.kind qOmegaM = .frozen from rfl, hd, if_true, hm, hp]
    simp [finalParams, h, toNum, defaults]
  rw [f1, f2]
  simp only [toNum]
  norm_num

/-! ## C74 -/

/-- value of `K` for feedback ingredients -/
noncomputable def kFeedback (t : ℝ) (zs : List ℝ) : List ℝ :=
  zs.map fun z => 5.196 / 4 * ((3.44 - 0.496 * (t - 7.8)) * (10 : ℝ) ^ (z * (-0.0671 - 0.0371 * (t - 7.8))))

/-- C74: if HMcode feedback ingredients are switched on by an update after the concentration normalisation
`K` had been read without them, later updates of `log10T_AGN` are ignored: `K` keeps the value for the old
temperature, for every choice of old and new temperature and redshift grid. -/
theorem C74_agn_update_ignored (σ : String → PyVal) (t0 t : ℝ) (zs : List ℝ)
    (h0 : σ "hmcode_ingredients" = .none) (ht : σ "log10T_AGN" = .num t0) (hz : σ "z_vec" = .arr zs) :
    let h := [Op.read qK, Op.set "hmcode_ingredients" (.str "mead2020_feedback"), Op.read qK,
      Op.set "log10T_AGN" (.num t)]
    value cls qK (run cls (newObj σ) h) = .arr (kFeedback t0 zs) ∧
      value cls qK (newObj (finalParams σ h)) = .arr (kFeedback t zs) := by
  intro h
  constructor
  · -- step by step
    have s1 : (readQ cls qK (newObj σ)).2.2 = { newObj σ with
        memo := Function.update (newObj σ).memo qK (.arr (zs.map fun _ => 0)),
        index := Function.update (newObj σ).index qK (some {"hmcode_ingredients", "z_vec"}),
        flagged := Function.update (newObj σ).flagged qK false } := by
      rw [readQ]
      simp only [show cls.kind qK = .tracked from rfl, newObj]
      simp only [show cls.code qK = kCode from rfl, kCode, runProg, h0, hz, toArr]
      rfl
    set o1 := (readQ cls qK (newObj σ)).2.2 with ho1
    have s2 : setP cls "hmcode_ingredients" (.str "mead2020_feedback") o1 = { o1 with
        params := Function.update o1.params "hmcode_ingredients" (.str "mead2020_feedback"),
        flagged := Function.update o1.flagged qK true } := by
      unfold setP
      rw [if_neg (by rw [s1]; simp [newObj, h0]), if_neg (by simp [cls])]
      congr 1
      funext q
      by_cases hq : q = qK
      · subst hq
        rw [s1]
        simp [newObj]
      · rw [s1]
        simp [newObj, hq]
    set o2 := setP cls "hmcode_ingredients" (.str "mead2020_feedback") o1 with ho2
    have s3 : (readQ cls qK o2).2.2 = { o2 with
        memo := Function.update o2.memo qK (.arr (kFeedback t0 zs)),
        flagged := Function.update o2.flagged qK false } := by
      have hi : o2.index qK = some {"hmcode_ingredients", "z_vec"} := by rw [s2, s1]; simp
      have hf : o2.flagged qK = true := by rw [s2]; simp
      have hp1 : o2.params "hmcode_ingredients" = .str "mead2020_feedback" := by rw [s2]; simp
      have hp2 : o2.params "log10T_AGN" = .num t0 := by rw [s2, s1]; simp [newObj, ht]
      have hp3 : o2.params "z_vec" = .arr zs := by rw [s2, s1]; simp [newObj, hz]
      rw [readQ]
      simp only [show cls.kind qK = .tracked from rfl, hi, hf, if_true]
      simp only [show cls.code qK = kCode from rfl, kCode, runProg, hp1, hp2, hp3, toArr, toNum]
      rfl
    set o3 := (readQ cls qK o2).2.2 with ho3
    have e : run cls (newObj σ) h = setP cls "log10T_AGN" (.num t) o3 := rfl
    have hi : o3.index qK = some {"hmcode_ingredients", "z_vec"} := by rw [s3, s2, s1]; simp
    have hf : o3.flagged qK = false := by rw [s3]; simp
    have hm : o3.memo qK = .arr (kFeedback t0 zs) := by rw [s3]; simp
    have e4 : (setP cls "log10T_AGN" (.num t) o3).index qK = some {"hmcode_ingredients", "z_vec"} ∧
        (setP cls "log10T_AGN" (.num t) o3).flagged qK = false ∧
        (setP cls "log10T_AGN" (.num t) o3).memo qK = .arr (kFeedback t0 zs) := by
      unfold setP
      split_ifs with a b
      · exact ⟨hi, hf, hm⟩
      · simp [cls] at b
      · refine ⟨hi, ?_, hm⟩
        simp [hi, hf]
    rw [e]
    unfold value
    rw [readQ]
    simp only [show cls.kind qK = .tracked from rfl, e4.1, e4.2.1, Bool.false_eq_true, if_false, e4.2.2]
  · unfold value
    rw [readQ]
    simp only [show cls.kind qK = .tracked from rfl, newObj]
    simp only [show cls.code qK = kCode from rfl, kCode, runProg]
    simp only [h, finalParams]
    simp [hz, toNum, toArr, runProg, kFeedback]

/-- C74: so the claim of C24 fails for `K`: the two values differ, e.g. at redshift 0 for 7.8 and 8. -/
theorem C74_witness :
    ∃ h : List (Op String PyVal),
      value cls qK (run cls (newObj defaults) h) ≠ value cls qK (newObj (finalParams defaults h)) := by
  obtain ⟨e1, e2⟩ := C74_agn_update_ignored defaults 7.8 8 [0] (by simp [defaults]) (by simp [defaults])
    (by simp [defaults])
  refine ⟨[Op.read qK, Op.set "hmcode_ingredients" (.str "mead2020_feedback"), Op.read qK,
    Op.set "log10T_AGN" (.num 8)], fun e => ?_⟩
  rw [e1, e2] at e
  injection e with e
  simp [kFeedback] at e
  norm_num at e

end Verif.Cached

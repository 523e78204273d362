import Verif.Model.Chain
import Verif.Lemmas.SpectraGraph

/-! Properties C94 and C95: what a call of the CosmoSIS module reports does not depend on the calls before, except through
`omega_m`. -/

namespace Verif.Chain

open Verif.Cache Verif.SpectraDeps

variable {V : Type}

/-- the parameters of an object built with `σ₀` and updated with the keyword arguments of one call -/
def given (σ₀ : String → V) (f : Flags) (kw : String → V) : String → V := fun p => if p ∈ keys f then kw p else σ₀ p

/-- the parameters after the switch to the alignment sample -/
def givenIa (σ₀ : String → V) (f : Flags) (kw : String → V) (ia : V) : String → V :=
  Function.update (given σ₀ f kw) "hod_settings" ia

theorem finalParams_append (σ : String → V) (h₁ h₂ : List (Op String V)) :
    finalParams σ (h₁ ++ h₂) = finalParams (finalParams σ h₁) h₂ := by
  induction h₁ generalizing σ with
  | nil => rfl
  | cons a h ih => cases a <;> exact ih _

theorem readsIn_append (Good : (String → V) → Prop) (σ : String → V) (h₁ h₂ : List (Op String V)) :
    ReadsIn Good σ (h₁ ++ h₂) ↔ ReadsIn Good σ h₁ ∧ ReadsIn Good (finalParams σ h₁) h₂ := by
  induction h₁ generalizing σ with
  | nil => simp [ReadsIn, finalParams]
  | cons a h ih =>
    cases a with
    | read q => simp only [List.cons_append, ReadsIn, finalParams, ih, and_assoc]
    | set p v => exact ih _

theorem finalParams_sets (σ : String → V) (l : List String) (kw : String → V) (p : String) :
    finalParams σ (l.map fun k => Op.set k (kw k)) p = if p ∈ l then kw p else σ p := by
  induction l generalizing σ with
  | nil => rfl
  | cons k l ih =>
    simp only [List.map_cons, finalParams, ih, List.mem_cons]
    by_cases h1 : p ∈ l
    · simp [h1]
    · by_cases h2 : p = k
      · subst h2; simp [h1]
      · simp [h1, h2]

theorem readsIn_sets (Good : (String → V) → Prop) (σ : String → V) (l : List String) (kw : String → V) :
    ReadsIn Good σ (l.map fun k => Op.set k (kw k)) := by
  induction l generalizing σ with
  | nil => trivial
  | cons k l ih => exact ih _

theorem finalParams_reads (σ : String → V) (l : List ℕ) : finalParams σ (readOps l) = σ := by
  induction l with
  | nil => rfl
  | cons q l ih => exact ih

theorem readsIn_reads (Good : (String → V) → Prop) (σ : String → V) (hg : Good σ) (l : List ℕ) :
    ReadsIn Good σ (readOps l) := by
  induction l with
  | nil => trivial
  | cons q l ih => exact ⟨hg, ih⟩

theorem readsIn_take (Good : (String → V) → Prop) (σ : String → V) (h : List (Op String V)) (n : ℕ)
    (hr : ReadsIn Good σ h) : ReadsIn Good σ (h.take n) := by
  have := (readsIn_append Good σ (h.take n) (h.drop n)).1 (by rwa [List.take_append_drop])
  exact this.1

/-- parameters that are only given by the update stay, apart from those of the update -/
theorem finalParams_same (σ : String → V) (h : List (Op String V)) (p : String)
    (hp : ∀ k v, Op.set k v ∈ h → k ≠ p) : finalParams σ h p = σ p := by
  induction h generalizing σ with
  | nil => rfl
  | cons a h ih =>
    cases a with
    | read q => exact ih _ fun k v hk => hp k v (List.mem_cons_of_mem _ hk)
    | set k v =>
      have h1 := ih (Function.update σ k v) fun k v hk => hp k v (List.mem_cons_of_mem _ hk)
      have h2 := hp k v List.mem_cons_self
      change finalParams (Function.update σ k v) h p = σ p
      rw [h1, Function.update_of_ne (Ne.symm h2)]

theorem hod_settings_mem (f : Flags) (h : f.alignment = true) : "hod_settings" ∈ keys f := by
  simp [keys, h, hodKeys]

theorem callOps_keys (f : Flags) (c : Call V) (k : String) (v : V) (h : Op.set k v ∈ callOps f c) : k ∈ keys f := by
  simp only [callOps, updateOps, readOps, List.mem_append, List.mem_map] at h
  rcases h with (⟨k', h1, h2⟩ | ⟨q, _, h2⟩) | h
  · injection h2 with h2; rw [← h2]; exact h1
  · cases h2
  · split_ifs at h with ha
    · simp only [List.mem_cons, List.mem_map] at h
      rcases h with h | ⟨q, _, h⟩
      · injection h with h; rw [h]; exact hod_settings_mem f ha
      · cases h
    · simp at h

theorem chainOps_keys (f : Flags) (l : List (Call V)) (k : String) (v : V) (h : Op.set k v ∈ chainOps f l) :
    k ∈ keys f := by
  simp only [chainOps, List.mem_flatMap] at h
  obtain ⟨c, _, h⟩ := h
  exact callOps_keys f c k v (List.mem_of_mem_take h)

theorem outcome_hod_settings (S : Sem V) (σ : String → V) (ia : V) (t : Test) :
    outcome S (Function.update σ "hod_settings" ia) t = outcome S σ t := by
  unfold outcome
  rw [Function.update_of_ne]
  cases t <;> simp [Test.param]

/-- all calls are made in the regime of the call `kw` -/
def Regular (S : Sem V) (f : Flags) (kw : String → V) (c : Call V) : Prop :=
  ∀ t : Test, t.param ∈ keys f → S.holds t (c.kwargs t.param) = S.holds t (kw t.param)

theorem sameRegime_given (S : Sem V) (f : Flags) (σ₀ σ : String → V) (hσ : ∀ p, p ∉ keys f → σ p = σ₀ p)
    (kw : String → V) (c : Call V) (hc : Regular S f kw c) :
    SameRegime S (given σ f c.kwargs) (given σ₀ f kw) := by
  intro t
  unfold outcome given
  by_cases h : t.param ∈ keys f
  · simp only [h, if_true]; exact hc t h
  · simp only [h, if_false, hσ _ h]

theorem readsIn_call (S : Sem V) (f : Flags) (σ₀ σ : String → V) (hσ : ∀ p, p ∉ keys f → σ p = σ₀ p)
    (kw : String → V) (c : Call V) (hc : Regular S f kw c) :
    ReadsIn (fun τ => SameRegime S τ (given σ₀ f kw)) σ (callOps f c) := by
  have hg := sameRegime_given S f σ₀ σ hσ kw c hc
  have e : finalParams σ (updateOps f c.kwargs) = given σ f c.kwargs :=
    funext fun p => finalParams_sets σ (keys f) c.kwargs p
  unfold callOps
  rw [readsIn_append, readsIn_append, finalParams_append, e, finalParams_reads]
  refine ⟨⟨readsIn_sets _ _ _ _, readsIn_reads (fun τ => SameRegime S τ (given σ₀ f kw)) _ hg _⟩, ?_⟩
  split_ifs
  · exact readsIn_reads (fun τ => SameRegime S τ (given σ₀ f kw)) _
      (fun t => by rw [outcome_hod_settings]; exact hg t) _
  · trivial

theorem readsIn_chain (S : Sem V) (f : Flags) (σ₀ σ : String → V) (hσ : ∀ p, p ∉ keys f → σ p = σ₀ p)
    (kw : String → V) (l : List (Call V)) (hc : ∀ c ∈ l, Regular S f kw c) :
    ReadsIn (fun τ => SameRegime S τ (given σ₀ f kw)) σ (chainOps f l) := by
  induction l generalizing σ with
  | nil => trivial
  | cons c l ih =>
    change ReadsIn _ σ ((callOps f c).take c.steps ++ chainOps f l)
    rw [readsIn_append]
    refine ⟨readsIn_take _ _ _ _ (readsIn_call S f σ₀ σ hσ kw c (hc c List.mem_cons_self)), ih _ ?_ fun c' h' =>
      hc c' (List.mem_cons_of_mem _ h')⟩
    intro p hp
    rw [← hσ p hp]
    refine finalParams_same _ _ _ fun k v hk h => ?_
    exact hp (h ▸ callOps_keys f c k v (List.mem_of_mem_take hk))

theorem final_update (f : Flags) (σ₀ : String → V) (l : List (Call V)) (kw : String → V) :
    finalParams σ₀ (chainOps f l ++ updateOps f kw) = given σ₀ f kw := by
  funext p
  rw [finalParams_append]
  unfold updateOps given
  rw [finalParams_sets]
  by_cases h : p ∈ keys f
  · simp [h]
  · simp only [h, if_false]
    exact finalParams_same _ _ _ fun k v hk e => h (e ▸ chainOps_keys f l k v hk)

/-- the steps of a call up to some point before the switch to the alignment sample -/
def upTo₁ (f : Flags) (l : List (Call V)) (kw : String → V) (rs : List ℕ) : List (Op String V) :=
  chainOps f l ++ updateOps f kw ++ readOps rs

/-- the steps of a call up to some point after the switch -/
def upTo₂ (f : Flags) (l : List (Call V)) (kw : String → V) (rs : List ℕ) (ia : V) (rs' : List ℕ) :
    List (Op String V) := upTo₁ f l kw rs ++ .set "hod_settings" ia :: readOps rs'

theorem upTo₁_facts (S : Sem V) (f : Flags) (σ₀ : String → V) (l : List (Call V)) (kw : String → V)
    (hc : ∀ c ∈ l, Regular S f kw c) (rs : List ℕ) :
    ReadsIn (fun τ => SameRegime S τ (given σ₀ f kw)) σ₀ (upTo₁ f l kw rs) ∧
      finalParams σ₀ (upTo₁ f l kw rs) = given σ₀ f kw := by
  unfold upTo₁
  rw [readsIn_append, readsIn_append, finalParams_append σ₀ (_ ++ _) (readOps rs), final_update, finalParams_reads]
  exact ⟨⟨⟨readsIn_chain S f σ₀ σ₀ (fun _ _ => rfl) kw l hc, readsIn_sets _ _ _ _⟩,
    readsIn_reads _ _ (fun _ => rfl) _⟩, rfl⟩

/-- C94: after any history, the parameters of the object are the ones the call under way collected — the cosmology, the
input spectra, the grids, the halo model, the feedback, and what the configuration adds: the non-linear bias, the non-linear
input spectrum, the galaxy sample, the alignment model; everything else is as the object was built -/
theorem C94_parameters_of_the_call (f : Flags) (σ₀ : String → V) (l : List (Call V)) (kw : String → V) (rs : List ℕ)
    (p : String) :
    (p ∈ ["matter_power_lin", "hmcode_ingredients", "nonlinear_mode", "dewiggle", "k_vec", "z_vec", "lnk_min", "lnk_max",
        "dlnk", "Mmin", "Mmax", "dlog10m", "mdef_model", "hmf_model", "bias_model", "halo_profile_model_dm",
        "halo_concentration_model_dm", "halo_profile_model_sat", "halo_concentration_model_sat", "transfer_model",
        "transfer_params", "growth_model", "growth_params", "norm_cen", "norm_sat", "eta_cen", "eta_sat", "overdensity",
        "delta_c", "one_halo_ktrunc", "two_halo_ktrunc", "omega_c", "omega_b", "h0", "n_s", "sigma_8", "m_nu", "w0", "wa",
        "tcmb", "log10T_AGN", "mb"] ∨
      (f.bnl = true ∧ p = "beta_nl") ∨ (f.nlIn = true ∧ p ∈ ["matter_power_nl", "response"]) ∨
      ((f.galaxy = true ∨ f.alignment = true) ∧
        p ∈ ["hod_model", "hod_params", "hod_settings", "hod_settings_mm", "obs_settings", "compute_observable",
          "poisson_model", "poisson_params", "pointmass"]) ∨
      (f.alignment = true ∧ p ∈ ["align_params", "t_eff", "one_halo_ktrunc_ia", "two_halo_ktrunc_ia"]) →
        finalParams σ₀ (upTo₁ f l kw rs) p = kw p) ∧
    (p = "Neff" ∨ (f.bnl = false ∧ p = "beta_nl") ∨ (f.nlIn = false ∧ p ∈ ["matter_power_nl", "response"]) ∨
      (f.galaxy = false ∧ f.alignment = false ∧
        p ∈ ["hod_model", "hod_params", "hod_settings", "hod_settings_mm", "obs_settings", "compute_observable",
          "poisson_model", "poisson_params", "pointmass"]) ∨
      (f.alignment = false ∧ p ∈ ["align_params", "t_eff", "one_halo_ktrunc_ia", "two_halo_ktrunc_ia"]) →
        finalParams σ₀ (upTo₁ f l kw rs) p = σ₀ p) := by
  have e : finalParams σ₀ (upTo₁ f l kw rs) p = if p ∈ keys f then kw p else σ₀ p := by
    unfold upTo₁
    rw [finalParams_append, final_update, finalParams_reads]
    rfl
  rw [e]
  refine ⟨fun h => if_pos ?_, fun h => if_neg ?_⟩
  · rcases h with h | ⟨h1, h2⟩ | ⟨h1, h2⟩ | ⟨h1, h2⟩ | ⟨h1, h2⟩
    · simp only [keys, List.mem_append]
      exact Or.inl (Or.inl (Or.inl (Or.inl h)))
    · subst h2
      simp [keys, h1]
    · simp only [keys, List.mem_append, h1, if_true]
      exact Or.inl (Or.inl (Or.inr h2))
    · have h3 : (f.galaxy || f.alignment) = true := by simpa using h1
      simp only [keys, List.mem_append, h3, if_true]
      refine Or.inl (Or.inr ?_)
      simp only [List.mem_cons, List.not_mem_nil, or_false] at h2
      rcases h2 with rfl | rfl | rfl | rfl | rfl | rfl | rfl | rfl | rfl <;> decide
    · simp only [keys, List.mem_append, h1, if_true]
      refine Or.inr ?_
      simp only [List.mem_cons, List.not_mem_nil, or_false] at h2
      rcases h2 with rfl | rfl | rfl | rfl <;> decide
  · clear e
    obtain ⟨b, n, g, a⟩ := f
    rcases h with rfl | ⟨h1, rfl⟩ | ⟨h1, h2⟩ | ⟨h1, h1', h2⟩ | ⟨h1, h2⟩
    · revert b n g a; decide
    · simp only at h1; subst h1; revert n g a; decide
    · simp only [List.mem_cons, List.not_mem_nil, or_false] at h1 h2
      subst h1
      rcases h2 with rfl | rfl <;> (revert b g a; decide)
    · simp only [List.mem_cons, List.not_mem_nil, or_false] at h1 h1' h2
      subst h1 h1'
      rcases h2 with rfl | rfl | rfl | rfl | rfl | rfl | rfl | rfl | rfl <;> (revert b n; decide)
    · simp only [List.mem_cons, List.not_mem_nil, or_false] at h1 h2
      subst h1
      rcases h2 with rfl | rfl | rfl | rfl <;> (revert b n g; decide)

theorem upTo₂_facts (S : Sem V) (f : Flags) (σ₀ : String → V) (l : List (Call V)) (kw : String → V)
    (hc : ∀ c ∈ l, Regular S f kw c) (rs : List ℕ) (ia : V) (rs' : List ℕ) :
    ReadsIn (fun τ => SameRegime S τ (given σ₀ f kw)) σ₀ (upTo₂ f l kw rs ia rs') ∧
      finalParams σ₀ (upTo₂ f l kw rs ia rs') = givenIa σ₀ f kw ia := by
  obtain ⟨h1, h2⟩ := upTo₁_facts S f σ₀ l kw hc rs
  unfold upTo₂
  rw [readsIn_append, finalParams_append, h2]
  refine ⟨⟨h1, readsIn_reads _ _ (fun t => outcome_hod_settings S _ ia t) _⟩, ?_⟩
  exact finalParams_reads _ _

/-- a value does not depend on the number given to a quantity that is not used -/
theorem den_pin_unused {c : Cls String V} {σ : String → V} {f : ℕ} (w : V) (q : ℕ) (hu : ¬ Uses c σ q f) :
    den (pin c f w) σ q = den c σ q := by
  induction q using Nat.strong_induction_on with
  | _ q ih =>
    have hq : q ≠ f := fun h => hu (h ▸ .self q)
    have hd : ∀ i ∈ directQ σ (fun i : Fin q => den c σ i) (c.code q), ¬ Uses c σ i f :=
      fun i hi hu' => hu (.step hi hu')
    rw [den_pin_ne σ hq, den]
    generalize c.code q = pr at hd
    induction pr with
    | ret v => rfl
    | param p k ihk =>
      simp only [denProg]
      rw [ihk _ hd]
    | quant i k ihk =>
      simp only [directQ, Finset.mem_insert, forall_eq_or_imp] at hd
      have e := ih i i.2 hd.1
      simp only [denProg]
      rw [e, ihk _ hd.2]

theorem value_new [Inhabited V] (S : Sem V) (σ : String → V) (q : ℕ) : value (cls S) q (newObj σ) = (den (cls S) σ q).1 := by
  have h := oneFrozen S σ
  have hK : InvK (cls S) (fun τ => SameRegime S τ σ) omegaM (newObj σ) :=
    fun w _ => ⟨(fun q _ D hD => by cases hD), (fun hd => by cases hd)⟩
  obtain ⟨h1, -⟩ := value_K h (newObj σ) (fun _ => rfl) hK q
  have h2 := (value_K h (newObj σ) (fun _ => rfl) hK omegaM).2 rfl
  rw [h1]
  exact den_pin_eq σ h2 q

/-- C94: at any point of a call, whatever calls were made before (successful or not, with other cosmologies, samples and
grids, in the same configuration) and whatever was read already, every quantity that does not use `omega_m` has the value a
newly built object given only this call's arguments reports -/
theorem C94_call_independent_of_history [Inhabited V] (S : Sem V) (f : Flags) (σ₀ : String → V) (before : List (Call V)) (kw : String → V)
    (hc : ∀ c ∈ before, Regular S f kw c) (rs : List ℕ) (q : ℕ) (hq : ¬ Uses (cls S) (given σ₀ f kw) q omegaM) :
    value (cls S) q (run (cls S) (newObj σ₀) (upTo₁ f before kw rs)) =
      value (cls S) q (newObj (given σ₀ f kw)) := by
  obtain ⟨h1, h2⟩ := upTo₁_facts S f σ₀ before kw hc rs
  rw [C95_object_consistent (oneFrozen S _) σ₀ _ h1 (by rw [h2]; exact fun _ => rfl) q, h2, value_new,
    den_pin_unused _ q hq]

/-- C94: the same after the switch to the alignment sample: the value is that of a newly built object given this call's
arguments and the settings of the alignment sample -/
theorem C94_alignment_stage_independent [Inhabited V] (S : Sem V) (f : Flags) (σ₀ : String → V) (before : List (Call V))
    (kw : String → V) (hc : ∀ c ∈ before, Regular S f kw c) (rs : List ℕ) (ia : V) (rs' : List ℕ) (q : ℕ)
    (hq : ¬ Uses (cls S) (given σ₀ f kw) q omegaM) :
    value (cls S) q (run (cls S) (newObj σ₀) (upTo₂ f before kw rs ia rs')) =
      value (cls S) q (newObj (givenIa σ₀ f kw ia)) := by
  obtain ⟨h1, h2⟩ := upTo₂_facts S f σ₀ before kw hc rs ia rs'
  have hr : SameRegime S (givenIa σ₀ f kw ia) (given σ₀ f kw) := fun t => outcome_hod_settings S _ ia t
  rw [C95_object_consistent (oneFrozen S _) σ₀ _ h1 (by rw [h2]; exact hr) q, h2, value_new,
    den_pin_unused _ q fun hu => hq (uses_same S hr hu)]

/-! ## Which quantities use `omega_m` -/

/-- C94: the quantities of the galaxy, alignment and matter spectra that never use `omega_m`, in any configuration -/
theorem C94_never_use_omega_m (S : Sem V) (σ : String → V) (q : ℕ)
    (hq : q < calcBnl ∧ q ≠ omegaM ∨ pkLin ≤ q ∧ q ≤ peff ∨ hodMm ≤ q ∧ q ≤ matterProfile2h ∨
      oneHaloTruncation ≤ q ∧ q ≤ powerSpectrumLin ∨ hod ≤ q ∧ q ≤ isTerm ∨ alignmentClass ≤ q ∧ q ≤ isAlign) :
    ¬ Uses (cls S) σ q omegaM := by
  refine not_uses (K := fun _ => none) (fun _ _ h => by cases h) ?_
  have key : ∀ q < 105, (q < calcBnl ∧ q ≠ omegaM ∨ pkLin ≤ q ∧ q ≤ peff ∨ hodMm ≤ q ∧ q ≤ matterProfile2h ∨
      oneHaloTruncation ≤ q ∧ q ≤ powerSpectrumLin ∨ hod ≤ q ∧ q ≤ isTerm ∨ alignmentClass ≤ q ∧ q ≤ isAlign) →
      mayReach (fun _ => none) omegaM q = false := by decide +kernel
  exact key q (by simp only [isAlign, isTerm, powerSpectrumLin, matterProfile2h, peff, calcBnl] at hq; omega) hq

/-- C94: without baryonic feedback, fitted or point-mass profiles, and with the non-linear bias not left to the object, no
spectrum uses `omega_m` -/
theorem C94_spectra_without_omega_m (S : Sem V) (σ : String → V)
    (hb : outcome S σ .bnl = false ∨ outcome S σ .betaNone = false)
    (hf : outcome S σ .feedback = false)
    (hp : outcome S σ .mead2020 = true ∨ outcome S σ .fit = false ∧ outcome S σ .pointmass = false) (q : ℕ)
    (hq : q ∈ [mmRaw, mm, gg, gm, mi, ii, gi]) : ¬ Uses (cls S) σ q omegaM := by
  have hall : ∀ l : List (Test × Bool), (∀ x ∈ l, outcome S σ x.1 = x.2) →
      (∀ q ∈ [mmRaw, mm, gg, gm, mi, ii, gi], mayReach (known l) omegaM q = false) → ¬ Uses (cls S) σ q omegaM :=
    fun l h1 h2 => not_uses (fits h1) (h2 q hq)
  rcases hb with hb | hb <;> rcases hp with hp | ⟨hp, hp'⟩
  · exact hall [(.bnl, false), (.feedback, false), (.mead2020, true)] (by simp [*]) (by decide +kernel)
  · exact hall [(.bnl, false), (.feedback, false), (.fit, false), (.pointmass, false)] (by simp [*]) (by decide +kernel)
  · exact hall [(.betaNone, false), (.feedback, false), (.mead2020, true)] (by simp [*]) (by decide +kernel)
  · exact hall [(.betaNone, false), (.feedback, false), (.fit, false), (.pointmass, false)] (by simp [*])
      (by decide +kernel)

/-- C95: with baryonic feedback the matter spectrum (of the halo model) and the spectra gm and mi use `omega_m` -/
theorem C95_feedback_uses_omega_m (S : Sem V) (σ : String → V) (hf : outcome S σ .feedback = true) (q : ℕ)
    (hq : q ∈ [mmRaw, gm, mi]) : Uses (cls S) σ q omegaM :=
  uses (fits (l := [(.feedback, true)]) (by simp [hf])) omegaM q
    ((show ∀ q ∈ [mmRaw, gm, mi], mustReach (known [(.feedback, true)]) omegaM q = true by decide +kernel) q hq)

/-- C95: so do they with fitted profiles -/
theorem C95_fit_uses_omega_m (S : Sem V) (σ : String → V) (hf : outcome S σ .feedback = false)
    (hm : outcome S σ .mead2020 = false) (hi : outcome S σ .fit = true) (q : ℕ)
    (hq : q ∈ [mmRaw, gm, mi]) : Uses (cls S) σ q omegaM :=
  uses (fits (l := [(.feedback, false), (.mead2020, false), (.fit, true)]) (by simp [hf, hm, hi])) omegaM q
    ((show ∀ q ∈ [mmRaw, gm, mi], mustReach (known [(.feedback, false), (.mead2020, false), (.fit, true)]) omegaM q = true
      by decide +kernel) q hq)

/-- C95: with point masses only gm and mi do -/
theorem C95_pointmass_uses_omega_m (S : Sem V) (σ : String → V) (hf : outcome S σ .feedback = false)
    (hm : outcome S σ .mead2020 = false) (hi : outcome S σ .pointmass = true) (q : ℕ)
    (hq : q ∈ [gm, mi]) : Uses (cls S) σ q omegaM :=
  uses (fits (l := [(.feedback, false), (.mead2020, false), (.pointmass, true)]) (by simp [hf, hm, hi])) omegaM q
    ((show ∀ q ∈ [gm, mi], mustReach (known [(.feedback, false), (.mead2020, false), (.pointmass, true)]) omegaM q = true
      by decide +kernel) q hq)

/-- C95: with the non-linear bias left to the object every spectrum does -/
theorem C95_bnl_uses_omega_m (S : Sem V) (σ : String → V) (hf : outcome S σ .bnl = true)
    (hm : outcome S σ .betaNone = true) (q : ℕ) (hq : q ∈ [mmRaw, gg, gm, mi, ii, gi]) : Uses (cls S) σ q omegaM :=
  uses (fits (l := [(.bnl, true), (.betaNone, true)]) (by simp [hf, hm])) omegaM q
    ((show ∀ q ∈ [mmRaw, gg, gm, mi, ii, gi], mustReach (known [(.bnl, true), (.betaNone, true)]) omegaM q = true
      by decide +kernel) q hq)

/-- C95: and what `power_spectrum_mm` returns without `response`, and every other spectrum with `response`, uses it as
soon as the halo-model matter spectrum does -/
theorem C95_matter_response (S : Sem V) (σ : String → V) (hu : Uses (cls S) σ mmRaw omegaM) (q : ℕ)
    (hq : outcome S σ .response = false ∧ q = mm ∨ outcome S σ .response = true ∧ q ∈ [gg, gm, mi, ii, gi]) :
    Uses (cls S) σ q omegaM := by
  have tr : ∀ a b, Uses (cls S) σ a b → Uses (cls S) σ b omegaM → Uses (cls S) σ a omegaM := by
    intro a b h1 h2
    induction h1 with
    | self => exact h2
    | step h _ ih => exact .step h (ih h2)
  refine tr q mmRaw ?_ hu
  rcases hq with ⟨h, rfl⟩ | ⟨h, hq⟩
  · exact uses (fits (l := [(.response, false)]) (by simp [h])) _ _ (by decide +kernel)
  · exact uses (fits (l := [(.response, true)]) (by simp [h])) _ _
      ((show ∀ q ∈ [gg, gm, mi, ii, gi], mustReach (known [(.response, true)]) mmRaw q = true by decide +kernel) q hq)

/-! ## The law of a chain -/

theorem run_append (S : Sem V) (o : Obj String V) (h₁ h₂ : List (Op String V)) :
    run (cls S) o (h₁ ++ h₂) = run (cls S) (run (cls S) o h₁) h₂ := by
  simp [run]

theorem run_sets_done (S : Sem V) (o : Obj String V) (l : List String) (kw : String → V) :
    (run (cls S) o (l.map fun k => Op.set k (kw k))).done = o.done := by
  induction l generalizing o with
  | nil => rfl
  | cons k l ih =>
    have := ih (setP (cls S) k (kw k) o)
    rw [(setP_done k (kw k) o).1] at this
    exact this

/-- C95: if the first call of a chain got as far as reading a quantity that uses `omega_m`, then in every later call
`omega_m` is that of the first call, and every quantity is evaluated with this call's arguments and the first call's
`omega_m` -/
theorem C95_chain_law [Inhabited V] (S : Sem V) (f : Flags) (σ₀ : String → V) (first : Call V) (l l' : List ℕ) (q₁ : ℕ)
    (hl : first.reads₁ = l ++ q₁ :: l') (hs : (keys f).length + l.length < first.steps)
    (before : List (Call V)) (kw : String → V) (hc : ∀ c ∈ first :: before, Regular S f kw c)
    (hu : Uses (cls S) (given σ₀ f kw) q₁ omegaM) (rs : List ℕ) :
    value (cls S) omegaM (run (cls S) (newObj σ₀) (upTo₁ f (first :: before) kw rs)) =
        (den (cls S) (given σ₀ f first.kwargs) omegaM).1 ∧
      ∀ q, value (cls S) q (run (cls S) (newObj σ₀) (upTo₁ f (first :: before) kw rs)) =
        (den (pin (cls S) omegaM (den (cls S) (given σ₀ f first.kwargs) omegaM).1) (given σ₀ f kw) q).1 := by
  obtain ⟨h1, h2⟩ := upTo₁_facts S f σ₀ (first :: before) kw hc rs
  have hf := oneFrozen S (given σ₀ f kw)
  have hreg := sameRegime_given S f σ₀ σ₀ (fun _ _ => rfl) kw first (hc first List.mem_cons_self)
  have e0 : finalParams σ₀ (updateOps f first.kwargs) = given σ₀ f first.kwargs :=
    funext fun p => finalParams_sets σ₀ (keys f) first.kwargs p
  have hsplit : ∃ h₂, upTo₁ f (first :: before) kw rs =
      (updateOps f first.kwargs ++ readOps l) ++ Op.read q₁ :: h₂ := by
    have hA : ∃ B, callOps f first = (updateOps f first.kwargs ++ readOps l ++ [Op.read q₁]) ++ B := by
      refine ⟨readOps l' ++ (if f.alignment then .set "hod_settings" first.ia :: readOps first.reads₂ else []), ?_⟩
      simp [callOps, hl, readOps]
    obtain ⟨B, hB⟩ := hA
    refine ⟨B.take (first.steps - (updateOps f first.kwargs ++ readOps l ++ [Op.read q₁]).length) ++
      chainOps f before ++ updateOps f kw ++ readOps rs, ?_⟩
    have ht : (callOps f first).take first.steps = (updateOps f first.kwargs ++ readOps l ++ [Op.read q₁]) ++
        B.take (first.steps - (updateOps f first.kwargs ++ readOps l ++ [Op.read q₁]).length) := by
      rw [hB, List.take_append, List.take_of_length_le]
      simp [updateOps, readOps]
      omega
    have hch : chainOps f (first :: before) = (callOps f first).take first.steps ++ chainOps f before := rfl
    unfold upTo₁
    rw [hch, ht]
    simp only [List.append_assoc, List.cons_append, List.nil_append]
  obtain ⟨h₂, e⟩ := hsplit
  have hread : ReadsIn (fun τ => SameRegime S τ (given σ₀ f kw)) σ₀ (updateOps f first.kwargs ++ readOps l) := by
    rw [e, readsIn_append] at h1
    exact h1.1
  have hfin : finalParams σ₀ (updateOps f first.kwargs ++ readOps l) = given σ₀ f first.kwargs := by
    rw [finalParams_append, e0, finalParams_reads]
  have hfirst := (C95_frozen_at_first_use hf σ₀ (updateOps f first.kwargs ++ readOps l) h₂ q₁ hread
    (by rw [hfin]; exact hreg) (by rw [hfin]; exact uses_same S (fun t => (hreg t).symm) hu)).1
  rw [← e] at hfirst
  have hval : value (cls S) omegaM (run (cls S) (newObj σ₀) (updateOps f first.kwargs ++ readOps l)) =
      (den (cls S) (given σ₀ f first.kwargs) omegaM).1 := by
    rw [run_append]
    obtain ⟨k1, k2⟩ := run_K hf (updateOps f first.kwargs) (newObj σ₀) (readsIn_sets _ _ _ _)
      (fun w _ => ⟨(fun q _ D hD => by cases hD), (fun hd => by cases hd)⟩)
    have k2' : (run (cls S) (newObj σ₀) (updateOps f first.kwargs)).params = given σ₀ f first.kwargs := k2.trans e0
    have k3 : (run (cls S) (newObj σ₀) (updateOps f first.kwargs)).done = (newObj σ₀).done :=
      run_sets_done S (newObj σ₀) (keys f) first.kwargs
    have := run_reads_frozen hf l _ (by rw [k2']; exact hreg) k1 (by rw [k3]; intro h; cases h)
    rw [k2'] at this
    exact this
  have hom := hfirst.trans hval
  refine ⟨hom, fun q => ?_⟩
  have := C95_object_consistent hf σ₀ _ h1 (by rw [h2]; exact fun _ => rfl) q
  rw [this, hom, h2]

/-- C95: so a later call is right exactly if its `omega_m` might as well be that of the first call -/
theorem C95_stale_iff [Inhabited V] (S : Sem V) (f : Flags) (σ₀ : String → V) (first : Call V) (l l' : List ℕ) (q₁ : ℕ)
    (hl : first.reads₁ = l ++ q₁ :: l') (hs : (keys f).length + l.length < first.steps)
    (before : List (Call V)) (kw : String → V) (hc : ∀ c ∈ first :: before, Regular S f kw c)
    (hu : Uses (cls S) (given σ₀ f kw) q₁ omegaM) (rs : List ℕ) (q : ℕ) :
    value (cls S) q (run (cls S) (newObj σ₀) (upTo₁ f (first :: before) kw rs)) =
        value (cls S) q (newObj (given σ₀ f kw)) ↔
      (den (pin (cls S) omegaM (den (cls S) (given σ₀ f first.kwargs) omegaM).1) (given σ₀ f kw) q).1 =
        (den (pin (cls S) omegaM (den (cls S) (given σ₀ f kw) omegaM).1) (given σ₀ f kw) q).1 := by
  rw [(C95_chain_law S f σ₀ first l l' q₁ hl hs before kw hc hu rs).2 q, value_new,
    den_pin_eq (given σ₀ f kw) rfl q]

/-! ## Two calls with different cosmologies -/

/-- numbers as values: every quantity is the sum of what it reads; feedback is on, everything else off -/
def sumSem : Sem ℕ where
  out _ l := l.sum
  holds t _ := t == .feedback

/-- the sum over the reads of a body -/
def sumB (R : Test → Bool) (σ : String → ℕ) {n : ℕ} (ev : Fin n → ℕ) : Body n → ℕ
  | .ret => 0
  | .read (.p s) k => σ s + sumB R σ ev k
  | .read (.q i h) k => ev ⟨i, h⟩ + sumB R σ ev k
  | .ite t a b => σ t.param + if R t = true then sumB R σ ev a else sumB R σ ev b

theorem denProg_sum (σ : String → ℕ) {n : ℕ} (ev : Fin n → ℕ × Finset String) (b : Body n) (acc : List ℕ) :
    (denProg σ ev (compile sumSem b acc)).1 = acc.sum + sumB (outcome sumSem σ) σ (fun i => (ev i).1) b := by
  induction b generalizing acc with
  | ret => rfl
  | read s k ih =>
    cases s with
    | p s => simp only [compile, denProg, sumB]; rw [ih]; simp [add_assoc]
    | q i h => simp only [compile, denProg, sumB]; rw [ih]; simp [add_assoc]
  | ite t a b iha ihb =>
    simp only [compile, denProg, sumB]
    by_cases h : outcome sumSem σ t = true
    · rw [if_pos h, if_pos (show sumSem.holds t (σ t.param) = true from h), iha]; simp [add_assoc]
    · rw [if_neg h, if_neg (show ¬ sumSem.holds t (σ t.param) = true from h), ihb]; simp [add_assoc]

theorem sumB_mono (R : Test → Bool) (σ : String → ℕ) {n : ℕ} (ev ev' : Fin n → ℕ) (h : ∀ i, ev i ≤ ev' i) (b : Body n) :
    sumB R σ ev b ≤ sumB R σ ev' b ∧
      ((∃ i, ∃ hi : i < n, i ∈ readB R b ∧ ev ⟨i, hi⟩ < ev' ⟨i, hi⟩) → sumB R σ ev b < sumB R σ ev' b) := by
  induction b with
  | ret => exact ⟨le_refl _, fun ⟨i, _, hi, _⟩ => by simp [readB] at hi⟩
  | read s k ih =>
    cases s with
    | p s =>
      simp only [sumB, readB]
      exact ⟨by have := ih.1; omega, fun h => by have := ih.2 h; omega⟩
    | q j hj =>
      simp only [sumB, readB, List.mem_cons]
      have h0 := h ⟨j, hj⟩
      refine ⟨by have := ih.1; omega, ?_⟩
      rintro ⟨i, hi, rfl | hm, hlt⟩
      · have := ih.1; omega
      · have := ih.2 ⟨i, hi, hm, hlt⟩; omega
  | ite t a b iha ihb =>
    simp only [sumB, readB]
    split_ifs
    · exact ⟨by have := iha.1; omega, fun h => by have := iha.2 h; omega⟩
    · exact ⟨by have := ihb.1; omega, fun h => by have := ihb.2 h; omega⟩

theorem sum_pin_mono (σ : String → ℕ) (w w' : ℕ) (hw : w < w') (q : ℕ) :
    (den (pin (cls sumSem) omegaM w) σ q).1 ≤ (den (pin (cls sumSem) omegaM w') σ q).1 ∧
      (Uses (cls sumSem) σ q omegaM →
        (den (pin (cls sumSem) omegaM w) σ q).1 < (den (pin (cls sumSem) omegaM w') σ q).1) := by
  induction q using Nat.strong_induction_on with
  | _ q ih =>
    by_cases hq : q = omegaM
    · subst hq; rw [den_pin_self, den_pin_self]; exact ⟨le_of_lt hw, fun _ => hw⟩
    · rw [den_pin_ne σ hq, den_pin_ne σ hq]
      change (denProg σ _ (compile sumSem (body q) [])).1 ≤ (denProg σ _ (compile sumSem (body q) [])).1 ∧
        (_ → (denProg σ _ (compile sumSem (body q) [])).1 < (denProg σ _ (compile sumSem (body q) [])).1)
      rw [denProg_sum, denProg_sum]
      simp only [List.sum_nil, Nat.zero_add]
      have := sumB_mono (outcome sumSem σ) σ _ _ (fun i : Fin q => (ih i i.2).1) (body q)
      refine ⟨this.1, fun hu => this.2 ?_⟩
      cases hu with
      | self => exact absurd rfl hq
      | @step _ i _ h1 h2 =>
        rw [direct_cls, List.mem_toFinset] at h1
        have hi := mayRead_lt (fun _ => none) _ i (readB_may (K := fun _ => none) (fun _ _ h => by cases h) _ i h1)
        exact ⟨i, hi, h1, (ih i hi).2 h2⟩

/-- all arguments 0 except the density of cold dark matter -/
def onlyCdm (x : ℕ) : String → ℕ := fun p => if p = "omega_c" then x else 0

theorem cosmo_sum (σ : String → ℕ) : (den (cls sumSem) σ omegaM).1 =
    σ "h0" + (σ "omega_b" + (σ "omega_c" + (σ "Neff" + (σ "m_nu" + (σ "tcmb" + (σ "w0" + σ "wa")))))) := by
  have h0 : (den (cls sumSem) σ cosmoModel).1 =
      σ "h0" + (σ "omega_b" + (σ "omega_c" + (σ "Neff" + (σ "m_nu" + (σ "tcmb" + (σ "w0" + σ "wa")))))) := by
    rw [den]
    change (denProg σ _ (compile sumSem (body 0) [])).1 = _
    rw [denProg_sum]
    simp [body, reads, sumB]
  rw [← h0, den]
  change (denProg σ _ (compile sumSem (body 1) [])).1 = _
  rw [denProg_sum]
  simp [body, sumB]

/-- C95: staleness happens: two successful calls with feedback that differ in the density of cold dark matter only; the
matter spectrum of the second is not the one of an object given only the second call -/
theorem C95_second_call_stale :
    ∃ (f : Flags) (first : Call ℕ) (kw : String → ℕ), Regular sumSem f kw first ∧
      (callOps f first).length ≤ first.steps ∧
      value (cls sumSem) mm (run (cls sumSem) (newObj fun _ => 0) (upTo₁ f [first] kw [])) ≠
        value (cls sumSem) mm (newObj (given (fun _ => 0) f kw)) := by
  let f : Flags := ⟨false, false, false, false⟩
  let first : Call ℕ := ⟨onlyCdm 1, 0, [mm], [], 1000⟩
  have hreg : Regular sumSem f (onlyCdm 2) first := fun _ _ => rfl
  have hfb : outcome sumSem (given (fun _ => 0) f (onlyCdm 2)) .feedback = true := rfl
  have hu : Uses (cls sumSem) (given (fun _ => 0) f (onlyCdm 2)) mm omegaM :=
    C95_matter_response sumSem _ (C95_feedback_uses_omega_m sumSem _ hfb mmRaw (by simp)) mm (Or.inl ⟨rfl, rfl⟩)
  refine ⟨f, first, onlyCdm 2, hreg, by decide, fun h => ?_⟩
  have h' := (C95_stale_iff sumSem f (fun _ => 0) first [] [] mm rfl (by decide) [] (onlyCdm 2)
    (fun c hc => by rw [List.mem_singleton.1 hc]; exact hreg) hu [] mm).1 h
  have e : ∀ x, (den (cls sumSem) (given (fun _ => 0) f (onlyCdm x)) omegaM).1 = x := by
    intro x
    rw [cosmo_sum]
    simp [given, onlyCdm, keys, baseKeys, f]
  have e1 := e 1
  have e2 := e 2
  change (den (pin (cls sumSem) omegaM (den (cls sumSem) (given (fun _ => 0) f (onlyCdm 1)) omegaM).1) _ mm).1 = _ at h'
  rw [e1, e2] at h'
  exact absurd h' (Nat.ne_of_lt ((sum_pin_mono _ 1 2 (by decide) mm).2 hu))

/-- numbers as values, all conditions false (the standard halo model) -/
def plainSem : Sem ℕ := ⟨fun q l => q + l.sum, fun _ _ => false⟩

/-- the hypotheses of C94 are met: two calls of the standard halo model with different cosmologies, the first one raising
half way, and the matter spectrum of the second -/
example : value (cls plainSem) mm (run (cls plainSem) (newObj fun _ => 0)
    (upTo₁ ⟨false, false, true, true⟩ [⟨onlyCdm 1, 5, [mm, gg], [ii], 60⟩] (onlyCdm 2) [mass, mm])) =
      value (cls plainSem) mm (newObj (given (fun _ => 0) ⟨false, false, true, true⟩ (onlyCdm 2))) :=
  C94_call_independent_of_history plainSem _ _ _ _ (fun _ _ _ _ => rfl) _ _
    (C94_spectra_without_omega_m plainSem _ (Or.inl rfl) rfl (Or.inr ⟨rfl, rfl⟩) mm (by simp))

example : value (cls plainSem) ii (run (cls plainSem) (newObj fun _ => 0)
    (upTo₂ ⟨false, false, true, true⟩ [⟨onlyCdm 1, 5, [mm, gg], [ii], 1000⟩] (onlyCdm 2) [gg] 7 [gi])) =
      value (cls plainSem) ii (newObj (givenIa (fun _ => 0) ⟨false, false, true, true⟩ (onlyCdm 2) 7)) :=
  C94_alignment_stage_independent plainSem _ _ _ _ (fun _ _ _ _ => rfl) _ _ _ _
    (C94_spectra_without_omega_m plainSem _ (Or.inl rfl) rfl (Or.inr ⟨rfl, rfl⟩) ii (by simp))

end Verif.Chain

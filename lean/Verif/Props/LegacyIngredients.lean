import Verif.Model.LegacyIngredients
import Verif.Props.HmfGenerator
import Mathlib.Tactic.FieldSimp
import Mathlib.Tactic.Ring

/-! Property C125: the legacy halo model ingredients, which update one object for ever, against the rewritten class. -/

namespace Verif.LegacyIngredients

open Verif.Lib Verif.Config Verif.Config.Ingredients

/-- the settings of the rewritten class for the same run: one profile and one concentration model for all galaxies, one value of each
parameter for all redshifts -/
noncomputable def toNew (o : Opt) (c : Call) : Ingredients where
  ingr := if o.useMead = "mead2020" ∨ o.useMead = "mead2020_feedback" then some o.useMead else none
  nz := o.nz
  zVec := o.zVec
  dcMead := c.dcMead
  dvMead := c.dvMead
  omZ := c.omZ
  log10TAGN := c.logTAGN.getD 0
  mdefModel := o.mdefModel
  hmfModel := o.hmfModel
  biasModel := o.biasModel
  profileDm := o.profile
  profileSat := o.profile
  concDm := o.cmModel
  concSat := o.cmModel
  native := o.native
  overdensity := o.overdensity
  deltaC := o.deltaC
  normCen := fun _ => c.normCen
  normSat := fun _ => c.normSat
  etaCen := fun _ => c.etaCen
  etaSat := fun _ => c.etaSat
  sigma8z := c.sigma8z

/-- what no call changes: the models of `setup`, and which parameters are set -/
structure Inv (o : Opt) (h : HaloModel) : Prop where
  hmf : h.hmfModel = o.start.hmfModel
  dis : h.disableMassConversion = o.start.disableMassConversion
  bias : h.biasModel = o.start.biasModel
  prof : h.profileModel = o.profile
  conc : h.concModel = o.start.concModel
  profK : KeysIn h.profileParams ["eta_bloat", "cosmo"]
  concK : KeysIn h.concParams ["norm"]
  mdefU : o.mead = none → h.mdefModel = .user o.mdefModel ∧ h.mdefParams = o.start.mdefParams
  meadM : o.mead.isSome → KeysIn h.mdefParams ["overdensity"] ∧ h.concParams = Dict.empty

theorem inv_start (o : Opt) : Inv o o.start where
  hmf := rfl
  dis := rfl
  bias := rfl
  prof := rfl
  conc := rfl
  profK := keysIn_empty _
  concK := keysIn_empty _
  mdefU := by intro h; simp [Opt.start, h]
  meadM := by intro h; simp [Opt.start, h, keysIn_empty]

theorem assign_cosmo (d : Dict) (h : KeysIn d ["eta_bloat", "cosmo"]) :
    KeysIn (d.assign haloProfileParams) ["eta_bloat", "cosmo"] ∧ (d.assign haloProfileParams) "cosmo" = some .cosmo := by
  have hne : haloProfileParams ≠ Dict.empty := by
    intro e
    have := congrFun e "cosmo"
    simp [haloProfileParams, Dict.empty] at this
  unfold Dict.assign
  rw [if_neg hne]
  refine ⟨fun k hk => ?_, by simp [haloProfileParams]⟩
  by_cases hc : k = "cosmo"
  · simp [hc]
  · simp only [haloProfileParams, if_neg hc] at hk
    exact h k (by simpa using hk)

theorem inv_cosmo (o : Opt) (h : HaloModel) (hi : Inv o h) :
    Inv o (setProfile haloProfileParams h) ∧ (setProfile haloProfileParams h).profileParams "cosmo" = some .cosmo :=
  ⟨⟨hi.hmf, hi.dis, hi.bias, hi.prof, hi.conc, (assign_cosmo _ hi.profK).1, hi.concK, hi.mdefU, hi.meadM⟩, (assign_cosmo _ hi.profK).2⟩

/-- the record expected at a redshift with the user's ingredients -/
noncomputable def userRec (o : Opt) (c : Call) (i : ℕ) : Rec :=
  ⟨(toNew o c).expectedCenUser i, (toNew o c).expectedSatUser false i, none, none⟩

/-- the centrals expected with the HMcode ingredients: the settings of the rewritten class except for the concentration -/
noncomputable def meadCen (o : Opt) (c : Call) (i : ℕ) : HaloModel :=
  { (toNew o c).expectedCenMead i with concModel := .native "Duffy08", concParams := dict [] }

/-- a halo model with other parameters of the profile -/
def withProfile (h : HaloModel) (d : Dict) : HaloModel := { h with profileParams := d }

/-- the satellites expected with the HMcode ingredients -/
noncomputable def meadSat (o : Opt) (c : Call) (i : ℕ) : HaloModel :=
  { meadCen o c i with profileParams := dict [("eta_bloat", .num c.etaSat), ("cosmo", .cosmo)] }

/-- the record expected at a redshift with the HMcode ingredients -/
noncomputable def meadRec (o : Opt) (c : Call) (i : ℕ) : Rec :=
  ⟨meadCen o c i, meadSat o c i, some ((toNew o c).K i), some c.normSat⟩

theorem step_user (reset : Bool) (o : Opt) (c : Call) (hm : o.mead = none) (i : ℕ) (h : HaloModel) (hi : Inv o h)
    (hc : h.profileParams "cosmo" = some .cosmo) :
    step reset o c i h = ((toNew o c).expectedSatUser false i, .ok (userRec o c i)) := by
  obtain ⟨h1, h2, h3, h4, h5, h6, h7, h8, -⟩ := hi
  obtain ⟨h8, h9⟩ := h8 hm
  have e1 : updParams (etaDict c.etaCen) (normDict c.normCen) { h with z := o.zVec i, deltaC := if o.mdefModel = "SOVirial" then
        3 / 20 * (12 * Real.pi) ^ ((2 : ℝ) / 3) * (1 + 0.0123 * Real.logb 10 (c.omZ i)) else o.deltaC }
      = (toNew o c).expectedCenUser i := by
    simp only [updParams, expectedCenUser, h1, h2, h3, h4, h5, h8, h9, toNew, Opt.start, hm, Option.isSome_none, Bool.false_eq_true,
      if_false]
    rw [assign_norm _ _ h7, (assign_eta _ _ h6).1 hc, overdensityDict_eq, empty_eq]
    rfl
  have e2 : updParams (etaDict c.etaSat) (normDict c.normSat) ((toNew o c).expectedCenUser i)
      = (toNew o c).expectedSatUser false i := by
    simp only [updParams, expectedSatUser]
    rw [assign_norm _ _ (by simp only [expectedCenUser]; exact keysIn_dict _),
      (assign_eta _ _ (by simp only [expectedCenUser]; exact keysIn_dict _)).1 rfl]
    simp only [satProfile, toNew, ne_eq, not_true, and_false, if_false]
    rfl
  simp only [step, hm, e1, e2, userRec]

theorem inv_user (o : Opt) (c : Call) (hm : o.mead = none) (i : ℕ) :
    Inv o ((toNew o c).expectedSatUser false i) ∧ ((toNew o c).expectedSatUser false i).profileParams "cosmo" = some .cosmo := by
  refine ⟨⟨?_, ?_, ?_, rfl, ?_, ?_, ?_, ?_, ?_⟩, ?_⟩
  · simp [expectedSatUser, expectedCenUser, toNew, Opt.start, hm]
  · simp [expectedSatUser, expectedCenUser, Opt.start, hm]
  · simp [expectedSatUser, expectedCenUser, toNew, Opt.start, hm]
  · simp only [expectedSatUser, toNew, Opt.start, hm, Option.isSome_none, Bool.false_eq_true, if_false]
    rfl
  · simp only [expectedSatUser]; exact (satProfile_keys _ _ _).1
  · exact keysIn_dict _
  · intro _
    refine ⟨rfl, ?_⟩
    simp only [expectedSatUser, expectedCenUser, toNew, Opt.start, hm, Option.isSome_none, Bool.false_eq_true, if_false]
    rw [overdensityDict_eq, empty_eq]
    rfl
  · intro h; simp [hm] at h
  · simp [expectedSatUser, satProfile, dict_cons]

/-- with feedback the temperature must be in the block -/
def Ready (o : Opt) (c : Call) : Prop := o.useMead = "mead2020" ∨ (o.useMead = "mead2020_feedback" ∧ c.logTAGN.isSome)

theorem meadNorm_ready (o : Opt) (c : Call) (m : Mead) (hm : o.mead = some m) (hr : Ready o c) (i : ℕ) :
    meadNorm m c (o.zVec i) = .ok ((toNew o c).K i) := by
  rcases hr with hr | ⟨hr, ht⟩
  · have : m = .nofeedback := by simpa [Opt.mead, hr, eq_comm] using hm
    subst this
    simp [meadNorm, K, toNew, hr]
  · have : m = .feedback := by simpa [Opt.mead, hr, eq_comm] using hm
    subst this
    obtain ⟨t, ht⟩ := Option.isSome_iff_exists.1 ht
    simp [meadNorm, K, toNew, hr, ht]

theorem set_mead (reset : Bool) (o : Opt) (c : Call) (m : Mead) (hm : o.mead = some m) (i : ℕ) (h : HaloModel) (hi : Inv o h) :
    setMead reset (o.zVec i) (c.dcMead i) (c.dvMead i) h = withProfile (meadCen o c i) h.profileParams := by
  obtain ⟨h1, h2, h3, h4, h5, -, -, -, h8⟩ := hi
  obtain ⟨h8, h9⟩ := h8 (by simp [hm])
  have : (if reset && decide (h.mdefModel ≠ .soVirialMead) then Dict.empty else h.mdefParams).assign (overdensityDict (c.dvMead i))
      = dict [("overdensity", .num (c.dvMead i))] := by
    refine assign_over _ _ ?_
    split_ifs
    · exact keysIn_empty _
    · exact h8
  unfold setMead
  rw [this]
  simp only [h1, h2, h3, h4, h5, h9, withProfile, meadCen, expectedCenMead, toNew, Opt.start, hm, Option.isSome_some, if_true, empty_eq]

theorem step_mead (reset : Bool) (o : Opt) (c : Call) (m : Mead) (hm : o.mead = some m) (hr : Ready o c) (i : ℕ) (h : HaloModel)
    (hi : Inv o h) (hc : h.profileParams "cosmo" = some .cosmo) :
    step reset o c i h = (meadSat o c i, .ok (meadRec o c i)) := by
  have e2 : setProfile (etaDict (0.1281 * c.sigma8z (o.zVec i) ^ (-0.3644 : ℝ)))
      (withProfile (meadCen o c i) h.profileParams) = meadCen o c i := by
    have hk : KeysIn (withProfile (meadCen o c i) h.profileParams).profileParams ["eta_bloat", "cosmo"] := hi.profK
    simp only [setProfile, (assign_eta _ _ hk).1 hc]
    rfl
  have e3 : setProfile (etaDict c.etaSat) (meadCen o c i) = meadSat o c i := by
    have hk : KeysIn (meadCen o c i).profileParams ["eta_bloat", "cosmo"] := keysIn_dict _
    simp only [setProfile, (assign_eta _ _ hk).1 rfl]
    rfl
  simp only [step, hm, set_mead reset o c m hm i h hi, meadNorm_ready o c m hm hr i]
  have : (withProfile (meadCen o c i) h.profileParams).z = o.zVec i := rfl
  rw [this, e2, e3]
  rfl

theorem inv_meadCen (o : Opt) (c : Call) (m : Mead) (hm : o.mead = some m) (i : ℕ) (d : Dict) (hd : KeysIn d ["eta_bloat", "cosmo"]) :
    Inv o (withProfile (meadCen o c i) d) := by
  refine ⟨?_, ?_, ?_, rfl, ?_, hd, (keysIn_dict [] : KeysIn (dict []) _) |> fun h => keys_mono h (by simp), ?_, ?_⟩
  · simp [withProfile, meadCen, expectedCenMead, Opt.start, hm]
  · simp [withProfile, meadCen, expectedCenMead, Opt.start, hm]
  · simp [withProfile, meadCen, expectedCenMead, Opt.start, hm]
  · simp [withProfile, meadCen, Opt.start, hm]
  · intro h; simp [hm] at h
  · intro _
    exact ⟨keysIn_dict [("overdensity", _)], empty_eq.symm⟩

theorem inv_meadSat (o : Opt) (c : Call) (m : Mead) (hm : o.mead = some m) (i : ℕ) :
    Inv o (meadSat o c i) ∧ (meadSat o c i).profileParams "cosmo" = some .cosmo :=
  ⟨inv_meadCen o c m hm i (dict [("eta_bloat", .num c.etaSat), ("cosmo", .cosmo)]) (keysIn_dict _), rfl⟩

theorem mead_cases (o : Opt) : o.mead = none ∨ ∃ m, o.mead = some m := by
  cases o.mead <;> simp

/-- a loop in which every step writes the record `f i` and leaves `g i` behind -/
theorem loop_eq (reset : Bool) (o : Opt) (c : Call) (I : HaloModel → Prop) (f : ℕ → Rec) (g : ℕ → HaloModel)
    (hs : ∀ i h, I h → step reset o c i h = (g i, .ok (f i))) (hg : ∀ i, I (g i)) (l : List ℕ) :
    ∀ h, I h → (LegacyIngredients.loop reset o c l h).2 = .ok (l.map f) := by
  induction l with
  | nil => intro h _; rfl
  | cons i l ih =>
    intro h hi
    have h2 := ih (g i) (hg i)
    simp only [LegacyIngredients.loop, hs i h hi]
    generalize LegacyIngredients.loop reset o c l (g i) = r at h2 ⊢
    obtain ⟨r1, r2⟩ := r
    simp only at h2
    subst h2
    rfl

/-- whatever a step does, it keeps the models of `setup` -/
theorem inv_step (reset : Bool) (o : Opt) (c : Call) (i : ℕ) (h : HaloModel)
    (hi : Inv o h ∧ h.profileParams "cosmo" = some .cosmo) :
    Inv o (step reset o c i h).1 ∧ (step reset o c i h).1.profileParams "cosmo" = some .cosmo := by
  rcases mead_cases o with hm | ⟨m, hm⟩
  · rw [step_user reset o c hm i h hi.1 hi.2]
    exact inv_user o c hm i
  · by_cases hr : Ready o c
    · rw [step_mead reset o c m hm hr i h hi.1 hi.2]
      exact inv_meadSat o c m hm i
    · have : meadNorm m c (o.zVec i) = .error .blockError := by
        by_cases h1 : o.useMead = "mead2020"
        · exact absurd (Or.inl h1) hr
        · have h2 : o.useMead = "mead2020_feedback" := by
            by_contra h2
            simp [Opt.mead, h1, h2] at hm
          have : m = .feedback := by simpa [Opt.mead, h2, eq_comm] using hm
          subst this
          have h3 : c.logTAGN = none := by
            by_contra h3
            exact hr (Or.inr ⟨h2, Option.isSome_iff_ne_none.2 h3⟩)
          simp [meadNorm, h3]
      simp only [step, hm, set_mead reset o c m hm i h hi.1, this]
      exact ⟨inv_meadCen o c m hm i _ hi.1.profK, hi.2⟩

theorem inv_loop (reset : Bool) (o : Opt) (c : Call) (l : List ℕ) :
    ∀ h, Inv o h ∧ h.profileParams "cosmo" = some .cosmo → Inv o (LegacyIngredients.loop reset o c l h).1 := by
  induction l with
  | nil => intro h hi; exact hi.1
  | cons i l ih =>
    intro h hi
    have h1 := inv_step reset o c i h hi
    simp only [LegacyIngredients.loop]
    generalize step reset o c i h = r at h1 ⊢
    obtain ⟨r1, r2⟩ := r
    cases r2 with
    | error e => exact h1.1
    | ok r2 =>
      have h2 := ih r1 h1
      dsimp only
      generalize LegacyIngredients.loop reset o c l r1 = q at h2 ⊢
      obtain ⟨q1, q2⟩ := q
      cases q2 <;> exact h2

theorem inv_after (reset : Bool) (o : Opt) (cs : List Call) : Inv o (after reset o cs) := by
  have : ∀ h, Inv o h → Inv o (cs.foldl (fun h c => (execute reset o c h).1) h) := by
    induction cs with
    | nil => intro h hi; exact hi
    | cons c cs ih =>
      intro h hi
      exact ih _ (inv_loop reset o c _ _ (inv_cosmo o h hi))
  exact this _ (inv_start o)

/-! ## the theorems -/

theorem mead_none (o : Opt) (h1 : o.useMead ≠ "mead2020") (h2 : o.useMead ≠ "mead2020_feedback") : o.mead = none := by
  simp [Opt.mead, h1, h2]

/-- C125: without HMcode corrections the object that is updated for ever has, at every redshift of every call, after any chain of calls,
the settings that the rewritten class gives to separate objects, for centrals and for satellites. -/
theorem C125_user (reset : Bool) (o : Opt) (cs : List Call) (c : Call) (h1 : o.useMead ≠ "mead2020")
    (h2 : o.useMead ≠ "mead2020_feedback") (hn : o.nz ≠ 0) :
    ∃ S rs, (toNew o c).generator reset = .ok S ∧ (execute reset o c (after reset o cs)).2 = .ok rs ∧
      rs.map Rec.cen = S.1 ∧ rs.map Rec.sat = S.2 ∧ ∀ r ∈ rs, r.ampCen = none ∧ r.ampSat = none := by
  have hm := mead_none o h1 h2
  have hI := inv_cosmo o _ (inv_after reset o cs)
  refine ⟨_, _, C29_generator_eq (toNew o c) reset hn, loop_eq reset o c (fun h => Inv o h ∧ h.profileParams "cosmo" = some .cosmo)
    (userRec o c) _ (fun i h hi => step_user reset o c hm i h hi.1 hi.2) (fun i => inv_user o c hm i) _ _ hI, ?_, ?_, ?_⟩
  · have : ¬ ((toNew o c).ingr = some "mead2020" ∨ (toNew o c).ingr = some "mead2020_feedback") := by simp [toNew, h1, h2]
    rw [expected, if_neg this]
    simp [userRec, Function.comp_def, toNew]
  · have : ¬ ((toNew o c).ingr = some "mead2020" ∨ (toNew o c).ingr = some "mead2020_feedback") := by simp [toNew, h1, h2]
    rw [expected, if_neg this]
    rw [List.map_map]
    refine List.map_congr_left fun i _ => ?_
    simp only [Function.comp, userRec, expectedSatUser, satProfile, toNew, ne_eq, not_true, and_false, if_false]
  · simp [userRec]

/-- C125: the legacy module reads mass function, bias and densities after the update for the satellites, the rewritten class from the
objects of the centrals.  The settings differ in the concentration's normalisation and in the bloating only, and not at all if these are
the same for both. -/
theorem C125_mass_function (reset : Bool) (o : Opt) (cs : List Call) (c : Call) (h1 : o.useMead ≠ "mead2020")
    (h2 : o.useMead ≠ "mead2020_feedback") (i : ℕ) (hi : i < o.nz) :
    ∃ S rs h r, (toNew o c).generator reset = .ok S ∧ (execute reset o c (after reset o cs)).2 = .ok rs ∧ S.1[i]? = some h ∧
      rs[i]? = some r ∧ r.sat.z = h.z ∧ r.sat.hmfModel = h.hmfModel ∧ r.sat.mdefModel = h.mdefModel ∧ r.sat.mdefParams = h.mdefParams ∧
      r.sat.disableMassConversion = h.disableMassConversion ∧ r.sat.biasModel = h.biasModel ∧ r.sat.deltaC = h.deltaC ∧
      r.sat.profileModel = h.profileModel ∧ r.sat.concModel = h.concModel ∧
      (r.sat = h ↔ c.etaSat = c.etaCen ∧ c.normSat = c.normCen) := by
  have hm := mead_none o h1 h2
  have hI := inv_cosmo o _ (inv_after reset o cs)
  have hing : ¬ ((toNew o c).ingr = some "mead2020" ∨ (toNew o c).ingr = some "mead2020_feedback") := by simp [toNew, h1, h2]
  refine ⟨_, _, (toNew o c).expectedCenUser i, userRec o c i, C29_generator_eq (toNew o c) reset (by show o.nz ≠ 0; omega),
    loop_eq reset o c (fun h => Inv o h ∧ h.profileParams "cosmo" = some .cosmo) (userRec o c) _
      (fun i h hi => step_user reset o c hm i h hi.1 hi.2) (fun i => inv_user o c hm i) _ _ hI, ?_, ?_, rfl, rfl, rfl, rfl, rfl, rfl, rfl,
      rfl, rfl, ?_⟩
  · rw [expected, if_neg hing]
    have : i < (toNew o c).nz := hi
    simp [this]
  · simp [hi]
  · constructor
    · intro h
      have a := congrFun (congrArg HaloModel.profileParams h) "eta_bloat"
      have b := congrFun (congrArg HaloModel.concParams h) "norm"
      simp only [userRec, expectedSatUser, expectedCenUser, satProfile, toNew, ne_eq, not_true, and_false, if_false, dict_cons, if_true,
        Option.some.injEq, DVal.num.injEq] at a b
      exact ⟨a, b⟩
    · rintro ⟨a, b⟩
      simp only [userRec, expectedSatUser, expectedCenUser, satProfile, toNew, ne_eq, not_true, and_false, if_false, a, b]

/-- C125: with HMcode corrections the centrals of the legacy module have the settings of the rewritten class, after any chain of calls,
except that the halo model carries the relation `Duffy08`; the concentrations are computed by hand with the amplitude `K`. -/
theorem C125_mead_centrals (reset : Bool) (o : Opt) (cs : List Call) (c : Call) (hr : Ready o c) (i : ℕ) (hi : i < o.nz) :
    ∃ S rs h r, (toNew o c).generator reset = .ok S ∧ (execute reset o c (after reset o cs)).2 = .ok rs ∧ S.1[i]? = some h ∧
      rs.length = o.nz ∧ rs[i]? = some r ∧ r.cen = { h with concModel := .native "Duffy08", concParams := Dict.empty } ∧
      h.concModel = .native "Bullock01" ∧ h.concParams "norm" = some (.num c.normCen) ∧
      ∃ K, h.concParams "K" = some (.num K) ∧ r.ampCen = some K := by
  obtain ⟨m, hm⟩ : ∃ m, o.mead = some m := by
    rcases hr with h | ⟨h, -⟩ <;> simp [Opt.mead, h]
  have hI := inv_cosmo o _ (inv_after reset o cs)
  have hing : (toNew o c).ingr = some "mead2020" ∨ (toNew o c).ingr = some "mead2020_feedback" := by
    rcases hr with h | ⟨h, -⟩ <;> simp [toNew, h]
  refine ⟨_, _, (toNew o c).expectedCenMead i, meadRec o c i, C29_generator_eq (toNew o c) reset (by show o.nz ≠ 0; omega),
    loop_eq reset o c (fun h => Inv o h ∧ h.profileParams "cosmo" = some .cosmo) (meadRec o c) _
      (fun i h hi => step_mead reset o c m hm hr i h hi.1 hi.2) (fun i => inv_meadSat o c m hm i) _ _ hI, ?_, by simp, ?_, ?_, rfl, ?_,
      (toNew o c).K i, ?_, ?_⟩
  · rw [expected, if_pos hing]
    have : i < (toNew o c).nz := hi
    simp [this]
  · simp [hi]
  · simp only [meadRec, meadCen, empty_eq]
  · simp [expectedCenMead, dict_cons, toNew]
  · simp [expectedCenMead, dict_cons]
  · rfl

/-- C125: the satellites with HMcode corrections: the legacy amplitude is the block's `norm_sat`, the rewritten class' is `norm_sat · K`;
the legacy bloating is the block's `eta_sat`, the rewritten class' the HMcode formula. -/
theorem C125_mead_satellites (reset : Bool) (o : Opt) (cs : List Call) (c : Call) (hr : Ready o c) (i : ℕ) (hi : i < o.nz) :
    ∃ S rs h r K, (toNew o c).generator reset = .ok S ∧ (execute reset o c (after reset o cs)).2 = .ok rs ∧ S.2[i]? = some h ∧
      rs[i]? = some r ∧ h.concParams "norm" = some (.num c.normSat) ∧ h.concParams "K" = some (.num K) ∧ r.ampSat = some c.normSat ∧
      (c.normSat ≠ 0 → (r.ampSat = some (c.normSat * K) ↔ K = 1)) ∧
      r.sat.profileParams "eta_bloat" = some (.num c.etaSat) ∧
      h.profileParams "eta_bloat" = some (.num (0.1281 * c.sigma8z (o.zVec i) ^ (-0.3644 : ℝ))) ∧
      r.sat.z = h.z ∧ r.sat.hmfModel = h.hmfModel ∧ r.sat.mdefModel = h.mdefModel ∧ r.sat.mdefParams = h.mdefParams ∧
      r.sat.disableMassConversion = h.disableMassConversion ∧ r.sat.biasModel = h.biasModel ∧ r.sat.deltaC = h.deltaC := by
  obtain ⟨m, hm⟩ : ∃ m, o.mead = some m := by
    rcases hr with h | ⟨h, -⟩ <;> simp [Opt.mead, h]
  have hI := inv_cosmo o _ (inv_after reset o cs)
  have hing : (toNew o c).ingr = some "mead2020" ∨ (toNew o c).ingr = some "mead2020_feedback" := by
    rcases hr with h | ⟨h, -⟩ <;> simp [toNew, h]
  refine ⟨_, _, (toNew o c).expectedSatMead reset i, meadRec o c i, (toNew o c).K i, C29_generator_eq (toNew o c) reset (by show o.nz ≠ 0; omega),
    loop_eq reset o c (fun h => Inv o h ∧ h.profileParams "cosmo" = some .cosmo) (meadRec o c) _
      (fun i h hi => step_mead reset o c m hm hr i h hi.1 hi.2) (fun i => inv_meadSat o c m hm i) _ _ hI, ?_, ?_, ?_, ?_, rfl, ?_, ?_, ?_,
      rfl, rfl, rfl, rfl, rfl, rfl, rfl⟩
  · rw [expected, if_pos hing]
    have : i < (toNew o c).nz := hi
    simp [this]
  · simp [hi]
  · simp [expectedSatMead, dict_cons, toNew]
  · simp [expectedSatMead, dict_cons]
  · intro h0
    simp only [meadRec, Option.some.injEq]
    constructor
    · intro h
      exact (mul_right_cancel₀ h0 (by linarith : 1 * c.normSat = (toNew o c).K i * c.normSat)).symm
    · intro h; rw [h, mul_one]
  · simp [meadRec, meadSat, dict_cons]
  · simp [expectedSatMead, satProfile, toNew, dict_cons]

/-- C125: with feedback the temperature is read inside the loop: without it the call fails, unless there is no redshift; what is left of
the object harms no later call (`C125_mead_centrals` holds after failed calls too). -/
theorem C125_no_temperature (reset : Bool) (o : Opt) (cs : List Call) (c : Call) (hf : o.useMead = "mead2020_feedback")
    (ht : c.logTAGN = none) :
    (execute reset o c (after reset o cs)).2 = if o.nz = 0 then .ok [] else .error .blockError := by
  have hm : o.mead = some .feedback := by simp [Opt.mead, hf]
  unfold execute
  rcases Nat.eq_zero_or_eq_succ_pred o.nz with h | h
  · simp [h, LegacyIngredients.loop]
  · rw [h, List.range_succ_eq_map]
    simp [LegacyIngredients.loop, step, hm, meadNorm, ht]

/-- C125: without HMcode corrections the scale radius and the concentration of the centrals multiply to the virial radius. -/
theorem C125_scale_radius_user (conc zf rvir : HaloModel → ℝ → ℝ) (reset : Bool) (o : Opt) (cs : List Call) (c : Call)
    (h1 : o.useMead ≠ "mead2020") (h2 : o.useMead ≠ "mead2020_feedback") (hc : ∀ h m, conc h m ≠ 0) :
    ∃ rs, (execute reset o c (after reset o cs)).2 = .ok rs ∧ ∀ r ∈ rs, ∀ m, r.rs conc rvir m * r.conc conc zf m = rvir r.cen m := by
  have hm := mead_none o h1 h2
  refine ⟨_, loop_eq reset o c (fun h => Inv o h ∧ h.profileParams "cosmo" = some .cosmo) (userRec o c) _
    (fun i h hi => step_user reset o c hm i h hi.1 hi.2) (fun i => inv_user o c hm i) _ _ (inv_cosmo o _ (inv_after reset o cs)), ?_⟩
  intro r hr m
  obtain ⟨i, -, rfl⟩ := List.mem_map.1 hr
  simp only [Rec.rs, Rec.conc, userRec]
  rw [div_mul_cancel₀ _ (hc _ _)]

/-- C125: with HMcode corrections they do so exactly where the concentration written equals that of the dummy relation `Duffy08`, which
the scale radius is computed with. -/
theorem C125_scale_radius_mead (conc zf rvir : HaloModel → ℝ → ℝ) (reset : Bool) (o : Opt) (cs : List Call) (c : Call) (hr : Ready o c)
    (hc : ∀ h m, conc h m ≠ 0) (hv : ∀ h m, rvir h m ≠ 0) :
    ∃ rs, (execute reset o c (after reset o cs)).2 = .ok rs ∧ ∀ r ∈ rs, r.cen.concModel = .native "Duffy08" ∧
      ∀ m, r.rs conc rvir m * r.conc conc zf m = rvir r.cen m ↔ r.conc conc zf m = conc r.cen m := by
  obtain ⟨m, hm⟩ : ∃ m, o.mead = some m := by
    rcases hr with h | ⟨h, -⟩ <;> simp [Opt.mead, h]
  refine ⟨_, loop_eq reset o c (fun h => Inv o h ∧ h.profileParams "cosmo" = some .cosmo) (meadRec o c) _
    (fun i h hi => step_mead reset o c m hm hr i h hi.1 hi.2) (fun i => inv_meadSat o c m hm i) _ _
    (inv_cosmo o _ (inv_after reset o cs)), ?_⟩
  intro r hr
  obtain ⟨i, -, rfl⟩ := List.mem_map.1 hr
  refine ⟨rfl, fun m => ?_⟩
  generalize Rec.conc conc zf _ m = x
  simp only [Rec.rs]
  have := hc (meadRec o c i).cen m
  have h2 := hv (meadRec o c i).cen m
  rw [div_mul_eq_mul_div, div_eq_iff this]
  exact mul_right_inj' h2

/-! ### background -/

/-- C125: the background functions of the legacy utilities are those of the rewritten class at every positive scale factor, and so are the
initial values and the right-hand side of the growth equation. -/
theorem C125_background (c : Background.DarkEnergy) (Om Ode Ok : ℝ) :
    (∀ a, 0 < a → xw a c.w0 c.wa = c.deScale (1 / a - 1) ∧ w a c.w0 c.wa = c.w (1 / a - 1) ∧
      hubble2 a Om Ode Ok c.w0 c.wa = Background.hubble2 c a Om Ode Ok ∧ omegaM a Om Ode Ok c.w0 c.wa = Background.omegaM c a Om Ode Ok ∧
      ah a Om Ode c.w0 c.wa = Background.ah c a Om Ode ∧
      ∀ y, growthRhs Om Ode Ok c.w0 c.wa a y = Background.growthRhs c Om Ode Ok a y) ∧
    growthInit Om Ode Ok c.w0 c.wa = Background.growthInit c Om Ode Ok := by
  have key : ∀ a, 0 < a → xw a c.w0 c.wa = c.deScale (-1 + 1 / a) := by
    intro a ha
    have e1 : 1 + (-1 + 1 / a) = a⁻¹ := by rw [one_div]; ring
    simp only [xw, Background.DarkEnergy.deScale, e1]
    rw [Real.inv_rpow ha.le, ← Real.rpow_neg ha.le]
    congr 2
    · ring
    · have : a ≠ 0 := ha.ne'
      field_simp
      ring
  have keyw : ∀ a, 0 < a → w a c.w0 c.wa = c.w (-1 + 1 / a) := by
    intro a ha
    have : a ≠ 0 := ha.ne'
    simp only [w, Background.DarkEnergy.w]
    have e1 : 1 + (-1 + 1 / a) = 1 / a := by ring
    rw [e1]
    field_simp
    ring
  have kh : ∀ a, 0 < a → hubble2 a Om Ode Ok c.w0 c.wa = Background.hubble2 c a Om Ode Ok := by
    intro a ha
    simp only [hubble2, Background.hubble2, key a ha]
  have ko : ∀ a, 0 < a → omegaM a Om Ode Ok c.w0 c.wa = Background.omegaM c a Om Ode Ok := by
    intro a ha
    simp only [omegaM, Background.omegaM, kh a ha]
  have ka : ∀ a, 0 < a → ah a Om Ode c.w0 c.wa = Background.ah c a Om Ode := by
    intro a ha
    simp only [ah, Background.ah, key a ha, keyw a ha]
  refine ⟨fun a ha => ⟨?_, ?_, kh a ha, ko a ha, ka a ha, fun y => ?_⟩, ?_⟩
  · rw [key a ha]; congr 1; ring
  · rw [keyw a ha]; congr 1; ring
  · simp only [growthRhs, Background.growthRhs, kh a ha, ko a ha, ka a ha]
  · simp only [growthInit, Background.growthInit, Background.fInit, Background.aInit]
    rw [ko _ (by norm_num)]

/-- C125: if the block's `omega_m` contains neutrinos, as CAMB writes it, the legacy matter density is larger than that of the rewritten
class by their density, and the growth equation of the legacy module counts them twice. -/
theorem C125_matter (d : Densities) (nu : ℝ) (hd : d.omegaM = d.omegaC + d.omegaB + nu) :
    legacyOm0 d = newOm0 d + nu ∧ (legacyOm0 d = newOm0 d ↔ nu = 0) ∧ growthOm (newOm0 d) nu = d.omegaM ∧
      growthOm (legacyOm0 d) nu = d.omegaM + nu := by
  simp only [legacyOm0, newOm0, growthOm, hd]
  refine ⟨trivial, ⟨fun h => by linarith, fun h => by linarith⟩, trivial, trivial⟩

/-! ### the interface to the rewritten class -/

/-- C125: the legacy interface to the rewritten class cannot make the object: two of its keywords are unknown; with any set of keywords
without these two taken from its list the constructor accepts. -/
theorem C125_class_interface :
    construct classKeywords = .error .typeError ∧
      ∀ ks : List String, (∀ k ∈ ks, k ∈ classKeywords) →
        (construct ks = .ok () ↔ "omega_m" ∉ ks ∧ "mead_correction" ∉ ks) := by
  have key : ∀ k ∈ classKeywords, (!hmiNames.contains k) = true → (k ∈ cosmoNames ↔ k ≠ "omega_m" ∧ k ≠ "mead_correction") := by
    decide
  have hom : (!hmiNames.contains "omega_m") = true ∧ "omega_m" ∉ cosmoNames := by decide
  have hmc : (!hmiNames.contains "mead_correction") = true ∧ "mead_correction" ∉ cosmoNames := by decide
  have main : ∀ ks : List String, (∀ k ∈ ks, k ∈ classKeywords) →
      (construct ks = .ok () ↔ "omega_m" ∉ ks ∧ "mead_correction" ∉ ks) := by
    intro ks hks
    unfold construct
    constructor
    · intro h
      split_ifs at h with hc
      exact ⟨fun hm => hom.2 (hc _ (List.mem_filter.2 ⟨hm, hom.1⟩)), fun hm => hmc.2 (hc _ (List.mem_filter.2 ⟨hm, hmc.1⟩))⟩
    · rintro ⟨h1, h2⟩
      rw [if_pos]
      intro k hk
      obtain ⟨hk, hk'⟩ := List.mem_filter.1 hk
      exact (key k (hks k hk) hk').2 ⟨fun e => h1 (e ▸ hk), fun e => h2 (e ▸ hk)⟩
  refine ⟨?_, main⟩
  have : construct classKeywords ≠ .ok () := by
    intro h
    exact ((main _ (fun _ h => h)).1 h).1 (by decide)
  unfold construct at this ⊢
  split_ifs at this ⊢ with h
  · exact absurd rfl this
  · rfl

/-! ### the hypotheses are met -/

/-- two redshifts, virial haloes, a relation of colossus, with and without corrections -/
noncomputable def demoOpt (mead : String) : Opt where
  nz := 2
  zVec := fun i => i
  profile := "NFW"
  hmfModel := "Tinker10"
  mdefModel := "SOMean"
  overdensity := 200
  cmModel := "ishiyama21"
  deltaC := 1.686
  biasModel := "Tinker10"
  useMead := mead
  native := fun s => s == "Duffy08"

noncomputable def demoCall (t : Option ℝ) : Call where
  normCen := 0.9
  normSat := 0.7
  etaCen := 0.1
  etaSat := 0.2
  logTAGN := t
  dcMead := fun i => 1.68 + i / 100
  dvMead := fun i => 330 - i
  omZ := fun i => 0.3 + i / 4
  sigma8z := fun z => 0.8 / (1 + z)

/-- the second redshift of the second call without corrections: the centrals are those of the rewritten class, the mass function is not
computed from the same object since the satellites' parameters differ -/
example : ∃ S rs h r, (toNew (demoOpt "None") (demoCall none)).generator true = .ok S ∧
    (execute true (demoOpt "None") (demoCall none) (after true (demoOpt "None") [demoCall (some 8)])).2 = .ok rs ∧ S.1[1]? = some h ∧
      rs[1]? = some r ∧ r.sat ≠ h := by
  obtain ⟨S, rs, h, r, a, b, c, d, -, -, -, -, -, -, -, -, -, e⟩ := C125_mass_function true (demoOpt "None") [demoCall (some 8)]
    (demoCall none) (by simp [demoOpt]) (by simp [demoOpt]) 1 (by simp [demoOpt])
  refine ⟨S, rs, h, r, a, b, c, d, fun h => ?_⟩
  have := (e.1 h).1
  norm_num [demoCall] at this

/-- a call with feedback after one that failed for want of the temperature -/
example : (execute true (demoOpt "mead2020_feedback") (demoCall none) (demoOpt "mead2020_feedback").start).2 = .error .blockError ∧
    ∃ rs, (execute true (demoOpt "mead2020_feedback") (demoCall (some 7.8))
      (after true (demoOpt "mead2020_feedback") [demoCall none])).2 = .ok rs ∧ rs.length = 2 := by
  constructor
  · simpa [after, demoOpt] using C125_no_temperature true (demoOpt "mead2020_feedback") [] (demoCall none) rfl rfl
  · obtain ⟨-, rs, -, -, -, a, -, b, -⟩ := C125_mead_centrals true (demoOpt "mead2020_feedback") [demoCall none] (demoCall (some 7.8))
      (Or.inr ⟨rfl, rfl⟩) 0 (by simp [demoOpt])
    exact ⟨rs, a, b⟩

/-- without feedback the satellites' amplitude is not that of the rewritten class -/
example : ∃ S rs h r, (toNew (demoOpt "mead2020") (demoCall none)).generator true = .ok S ∧
    (execute true (demoOpt "mead2020") (demoCall none) (demoOpt "mead2020").start).2 = .ok rs ∧ S.2[0]? = some h ∧ rs[0]? = some r ∧
      h.concParams "K" = some (.num 5.196) ∧ r.ampSat ≠ some ((demoCall none).normSat * 5.196) := by
  have hr : Ready (demoOpt "mead2020") (demoCall none) := Or.inl rfl
  obtain ⟨S, rs, h, r, K, a, b, c, d, -, e, -, f, -⟩ := C125_mead_satellites true (demoOpt "mead2020") [] (demoCall none) hr 0
    (by simp [demoOpt])
  have hK : K = 5.196 := by
    have hS := C29_generator_eq (toNew (demoOpt "mead2020") (demoCall none)) true (by simp [toNew, demoOpt])
    rw [a] at hS
    injection hS with hS
    rw [hS, expected, if_pos (by simp [toNew, demoOpt])] at c
    have : 0 < (toNew (demoOpt "mead2020") (demoCall none)).nz := by simp [toNew, demoOpt]
    simp only [List.getElem?_map, List.getElem?_range this, Option.map_some, Option.some.injEq] at c
    rw [← c] at e
    simp only [expectedSatMead, dict_cons, dict_nil] at e
    simpa [Ingredients.K, toNew, demoOpt, eq_comm] using e
  refine ⟨S, rs, h, r, a, b, c, d, hK ▸ e, fun h => ?_⟩
  have := (f (by norm_num [demoCall])).1 (hK ▸ h)
  rw [hK] at this
  norm_num at this

/-- a cosmology with neutrinos -/
example : legacyOm0 ⟨0.25, 0.05, 0.301⟩ ≠ newOm0 ⟨0.25, 0.05, 0.301⟩ := by
  intro h
  have := (C125_matter ⟨0.25, 0.05, 0.301⟩ 0.001 (by norm_num)).2.1.1 h
  norm_num at this

/-! ### concentrations -/

/-- C125: with HMcode corrections the concentration of the centrals times one plus the redshift is the amplitude times one plus the
formation redshift (HMcode-2020, equation 20), at every redshift above −1. -/
theorem C125_concentration_mead (conc zf : HaloModel → ℝ → ℝ) (reset : Bool) (o : Opt) (cs : List Call) (c : Call) (hr : Ready o c)
    (i : ℕ) (hi : i < o.nz) (hz : -1 < o.zVec i) :
    ∃ S rs h r K, (toNew o c).generator reset = .ok S ∧ (execute reset o c (after reset o cs)).2 = .ok rs ∧ S.1[i]? = some h ∧
      rs[i]? = some r ∧ h.concParams "K" = some (.num K) ∧ r.cen.z = o.zVec i ∧
      ∀ m, r.conc conc zf m * (1 + o.zVec i) = K * (1 + zf r.cen m) := by
  obtain ⟨S, rs, h, r, h1, h2, h3, -, h5, h6, -, -, K, h8, h9⟩ := C125_mead_centrals reset o cs c hr i hi
  have hzr : r.cen.z = o.zVec i := by
    rw [h6]
    obtain ⟨m, hm⟩ : ∃ m, o.mead = some m := by
      rcases hr with h | ⟨h, -⟩ <;> simp [Opt.mead, h]
    have hing : (toNew o c).ingr = some "mead2020" ∨ (toNew o c).ingr = some "mead2020_feedback" := by
      rcases hr with h | ⟨h, -⟩ <;> simp [toNew, h]
    rw [C29_generator_eq (toNew o c) reset (by show o.nz ≠ 0; omega)] at h1
    cases h1
    rw [expected, if_pos hing] at h3
    have hlt : i < (toNew o c).nz := hi
    simp only [List.getElem?_map, List.getElem?_range hlt, Option.map_some, Option.some.injEq] at h3
    rw [← h3]
    rfl
  refine ⟨S, rs, h, r, K, h1, h2, h3, h5, h8, hzr, fun m => ?_⟩
  simp only [Rec.conc, h9, hzr]
  rw [div_mul_cancel₀ _ (by linarith)]

end Verif.LegacyIngredients

import Verif.Model.Config
import Mathlib.Tactic.NormNum
import Mathlib.Tactic.Linarith
import Mathlib.Tactic.Positivity
import Mathlib.Analysis.SpecialFunctions.Pow.Real
import Mathlib.Tactic.SplitIfs

/-! Properties C28, C29: HMcode overrides, and independence of the per-redshift halo models. -/

namespace Verif.Config

open Verif.Lib

namespace Ingredients

/-- a Python dictionary literal -/
def dict (l : List (String × DVal)) : Dict := fun k => l.lookup k

/-- everything a loop step leaves behind is determined by an invariant of the incoming object -/
theorem loop_get (step : ℕ → HaloModel → HaloModel) (x : HaloModel) (n : ℕ) (I : HaloModel → Prop)
    (f : ℕ → HaloModel) (hx : I x) (hs : ∀ i h, I h → step i h = f i) (hf : ∀ i, I (f i)) :
    (loop step n x).2 = (List.range n).map f := by
  have hI : ∀ n, (loop step n x).2 = (List.range n).map f ∧ I (loop step n x).1 := by
    intro n
    induction n with
    | zero => exact ⟨rfl, hx⟩
    | succ n ih =>
      have e : loop step (n + 1) x = (step n (loop step n x).1, (loop step n x).2 ++ [step n (loop step n x).1]) := by
        simp [loop, List.range_succ]
      rw [e, hs n _ ih.2]
      refine ⟨?_, hf n⟩
      simp [ih.1, List.range_succ]
  exact (hI n).1

/-! The halo models expected for entry `i`, written out. -/

/-- centrals with HMcode ingredients -/
noncomputable def expectedCenMead (s : Ingredients) (i : ℕ) : HaloModel where
  z := s.zVec i
  hmfModel := "ST"
  mdefModel := .soVirialMead
  disableMassConversion := true
  biasModel := "ST99"
  profileModel := s.profileDm
  profileParams := dict [("eta_bloat", .num (0.1281 * s.sigma8z (s.zVec i) ^ (-0.3644 : ℝ))), ("cosmo", .cosmo)]
  concModel := .native "Bullock01"
  concParams := dict [("norm", .num (s.normCen i)), ("K", .num (s.K i))]
  mdefParams := dict [("overdensity", .num (s.dvMead i))]
  deltaC := s.dcMead i

/-- centrals with the user's ingredients -/
noncomputable def expectedCenUser (s : Ingredients) (i : ℕ) : HaloModel where
  z := s.zVec i
  hmfModel := s.hmfModel
  mdefModel := .user s.mdefModel
  disableMassConversion := false
  biasModel := s.biasModel
  profileModel := s.profileDm
  profileParams := dict [("eta_bloat", .num (s.etaCen i)), ("cosmo", .cosmo)]
  concModel := if s.native s.concDm then .native s.concDm else .colossus s.concDm
  concParams := dict [("norm", .num (s.normCen i))]
  mdefParams := if s.mdefModel = "SOVirial" then dict [] else dict [("overdensity", .num s.overdensity)]
  deltaC := if s.mdefModel = "SOVirial" then
      3 / 20 * (12 * Real.pi) ^ ((2 : ℝ) / 3) * (1 + 0.0123 * Real.logb 10 (s.omZ i)) else s.deltaC

/-- the profile dictionary of satellites: `cosmo` is still there unless hmf drops the parameters of a
replaced profile model -/
noncomputable def satProfile (s : Ingredients) (reset : Bool) (eta : ℝ) : Dict :=
  if reset ∧ s.profileDm ≠ s.profileSat then dict [("eta_bloat", .num eta)]
  else dict [("eta_bloat", .num eta), ("cosmo", .cosmo)]

/-- satellites with HMcode ingredients -/
noncomputable def expectedSatMead (s : Ingredients) (reset : Bool) (i : ℕ) : HaloModel :=
  { s.expectedCenMead i with
    profileModel := s.profileSat
    profileParams := s.satProfile reset (0.1281 * s.sigma8z (s.zVec i) ^ (-0.3644 : ℝ))
    concParams := dict [("norm", .num (s.normSat i)), ("K", .num (s.K i))] }

/-- satellites with the user's ingredients -/
noncomputable def expectedSatUser (s : Ingredients) (reset : Bool) (i : ℕ) : HaloModel :=
  { s.expectedCenUser i with
    profileModel := s.profileSat
    profileParams := s.satProfile reset (s.etaSat i)
    concModel := if s.native s.concSat then .native s.concSat else .colossus s.concSat
    concParams := dict [("norm", .num (s.normSat i))] }

theorem dict_cons (a : String) (v : DVal) (l : List (String × DVal)) (k : String) :
    dict ((a, v) :: l) k = if k = a then some v else dict l k := by
  by_cases h : k = a
  · simp [dict, h]
  · have : (k == a) = false := by simpa using h
    simp [dict, List.lookup, this, h]

theorem dict_nil (k : String) : dict [] k = none := rfl

theorem overdensityDict_eq (x : ℝ) : overdensityDict x = dict [("overdensity", .num x)] := by
  funext k
  simp [overdensityDict, dict_cons, dict_nil]

theorem etaDict_eq (x : ℝ) : etaDict x = dict [("eta_bloat", .num x)] := by
  funext k
  simp [etaDict, dict_cons, dict_nil]

theorem normDict_eq (x : ℝ) : normDict x = dict [("norm", .num x)] := by
  funext k
  simp [normDict, dict_cons, dict_nil]

theorem normKDict_eq (x y : ℝ) : normKDict x y = dict [("norm", .num x), ("K", .num y)] := by
  funext k
  simp [normKDict, dict_cons, dict_nil]

/-- `d` has at most the given keys -/
def KeysIn (d : Dict) (ks : List String) : Prop := ∀ k, d k ≠ none → k ∈ ks

theorem assign_norm (d : Dict) (x : ℝ) (h : KeysIn d ["norm"]) :
    d.assign (normDict x) = dict [("norm", .num x)] := by
  rw [normDict_eq]
  have hne : dict [("norm", .num x)] ≠ Dict.empty := by
    intro e
    have := congrFun e "norm"
    simp [dict, Dict.empty] at this
  unfold Dict.assign
  rw [if_neg hne]
  funext k
  by_cases hk : k = "norm"
  · subst hk; simp [dict]
  · have hd : d k = none := by
      by_contra hc
      exact hk (by simpa using h k hc)
    have : (k == "norm") = false := by simpa using hk
    simp [dict, List.lookup, this, hd]

theorem assign_normK (d : Dict) (x y : ℝ) (h : KeysIn d ["norm", "K"]) :
    d.assign (normKDict x y) = dict [("norm", .num x), ("K", .num y)] := by
  rw [normKDict_eq]
  have hne : dict [("norm", .num x), ("K", .num y)] ≠ Dict.empty := by
    intro e
    have := congrFun e "norm"
    simp [dict, Dict.empty] at this
  unfold Dict.assign
  rw [if_neg hne]
  funext k
  by_cases hk : k = "norm"
  · subst hk; simp [dict]
  · have h1 : (k == "norm") = false := by simpa using hk
    by_cases hk' : k = "K"
    · subst hk'; simp [dict, List.lookup]
    · have h2 : (k == "K") = false := by simpa using hk'
      have hd : d k = none := by
        by_contra hc
        have := h k hc
        simp [hk, hk'] at this
      simp [dict, List.lookup, h1, h2, hd]

theorem assign_over (d : Dict) (x : ℝ) (h : KeysIn d ["overdensity"]) :
    d.assign (overdensityDict x) = dict [("overdensity", .num x)] := by
  rw [overdensityDict_eq]
  have hne : dict [("overdensity", .num x)] ≠ Dict.empty := by
    intro e
    have := congrFun e "overdensity"
    simp [dict, Dict.empty] at this
  unfold Dict.assign
  rw [if_neg hne]
  funext k
  by_cases hk : k = "overdensity"
  · subst hk; simp [dict]
  · have hd : d k = none := by
      by_contra hc
      exact hk (by simpa using h k hc)
    have : (k == "overdensity") = false := by simpa using hk
    simp [dict, List.lookup, this, hd]

theorem assign_eta (d : Dict) (x : ℝ) (h : KeysIn d ["eta_bloat", "cosmo"]) :
    (d "cosmo" = some .cosmo →
      d.assign (etaDict x) = dict [("eta_bloat", .num x), ("cosmo", .cosmo)]) ∧
    (d "cosmo" = none → d.assign (etaDict x) = dict [("eta_bloat", .num x)]) := by
  rw [etaDict_eq]
  have hne : dict [("eta_bloat", .num x)] ≠ Dict.empty := by
    intro e
    have := congrFun e "eta_bloat"
    simp [dict, Dict.empty] at this
  have key : ∀ k, d.assign (dict [("eta_bloat", .num x)]) k
      = if k = "eta_bloat" then some (.num x) else if k = "cosmo" then d "cosmo" else none := by
    intro k
    unfold Dict.assign
    rw [if_neg hne]
    by_cases hk : k = "eta_bloat"
    · simp [hk, dict_cons]
    · by_cases hk' : k = "cosmo"
      · simp [hk', dict_cons, dict_nil]
      · have hd : d k = none := by
          by_contra hc
          have := h k hc
          simp [hk, hk'] at this
        simp [dict_cons, dict_nil, hk, hk', hd]
  constructor <;> intro hc <;> funext k <;> rw [key k, hc]
  · simp [dict_cons, dict_nil]
  · simp [dict_cons, dict_nil]

theorem keysIn_dict (l : List (String × DVal)) : KeysIn (dict l) (l.map Prod.fst) := by
  intro k hk
  induction l with
  | nil => simp [dict] at hk
  | cons a l ih =>
    by_cases h : k = a.1
    · simp [h]
    · have h1 : (k == a.1) = false := by simpa using h
      have : dict l k ≠ none := by simpa [dict, List.lookup, h1] using hk
      simp [ih this]

theorem keysIn_empty (ks : List String) : KeysIn Dict.empty ks := fun _ h => absurd rfl h

theorem empty_eq : Dict.empty = dict [] := by
  funext k; rfl

theorem profile_eq : haloProfileParams = dict [("cosmo", .cosmo)] := by
  funext k
  simp [haloProfileParams, dict_cons, dict_nil]

/-- what stays true of the object in the central loop -/
structure InvCen (s : Ingredients) (h : HaloModel) : Prop where
  hmf : h.hmfModel = s.hmfMod
  mdef : h.mdefModel = s.mdefMod
  dis : h.disableMassConversion = s.mead
  bias : h.biasModel = s.biasMod
  prof : h.profileModel = s.profileDm
  profK : KeysIn h.profileParams ["eta_bloat", "cosmo"]
  profC : h.profileParams "cosmo" = some .cosmo
  conc : h.concModel = s.concModDm
  concK : KeysIn h.concParams (if s.mead then ["norm", "K"] else ["norm"])
  mdefK : KeysIn h.mdefParams ["overdensity"]

theorem keys_mono {d : Dict} {a b : List String} (h : KeysIn d a) (hab : ∀ x ∈ a, x ∈ b) : KeysIn d b :=
  fun k hk => hab k (h k hk)

theorem mdefParams_keys (s : Ingredients) (i : ℕ) : KeysIn (s.mdefParams i) ["overdensity"] := by
  unfold mdefParams
  split_ifs
  · rw [overdensityDict_eq]; exact keysIn_dict _
  · exact keysIn_empty _
  · rw [overdensityDict_eq]; exact keysIn_dict _

theorem invCen_start (s : Ingredients) : InvCen s s.start where
  hmf := rfl
  mdef := rfl
  dis := rfl
  bias := rfl
  prof := rfl
  profK := by
    show KeysIn haloProfileParams _
    rw [profile_eq]
    exact keys_mono (keysIn_dict _) (by simp)
  profC := rfl
  conc := rfl
  concK := keysIn_empty _
  mdefK := mdefParams_keys s 0

theorem stepCen_mead (s : Ingredients) (hm : s.mead = true) (i : ℕ) (h : HaloModel) (hi : InvCen s h) :
    s.stepCen i h = s.expectedCenMead i := by
  obtain ⟨h1, h2, h3, h4, h5, h6, h7, h8, h9, h10⟩ := hi
  rw [if_pos hm] at h9
  simp only [stepCen, hm, if_true, updZ, updParams, expectedCenMead, h1, h2, h3, h4, h5, h8, hmfMod, mdefMod,
    biasMod, concModDm, deltaCMod, mdefParams]
  rw [assign_normK _ _ _ h9, (assign_eta _ _ h6).1 h7, assign_over _ _ h10]

theorem stepCen_user (s : Ingredients) (hm : s.mead = false) (i : ℕ) (h : HaloModel) (hi : InvCen s h) :
    s.stepCen i h = s.expectedCenUser i := by
  obtain ⟨h1, h2, h3, h4, h5, h6, h7, h8, h9, h10⟩ := hi
  rw [if_neg (by simp [hm])] at h9
  simp only [stepCen, hm, Bool.false_eq_true, if_false, updZ, updParams, expectedCenUser, h1, h2, h3, h4, h5, h8,
    hmfMod, mdefMod, biasMod, concModDm, deltaCMod, mdefParams, lookup]
  rw [assign_norm _ _ h9, (assign_eta _ _ h6).1 h7]
  by_cases hv : s.mdefModel = "SOVirial"
  · simp only [hv, if_true, Dict.assign, empty_eq]
  · simp only [hv, if_false, assign_over _ _ h10, mul_one]

theorem invCen_mead (s : Ingredients) (hm : s.mead = true) (i : ℕ) : InvCen s (s.expectedCenMead i) where
  hmf := by simp [expectedCenMead, hmfMod, hm]
  mdef := by simp [expectedCenMead, mdefMod, hm]
  dis := by simp [expectedCenMead, hm]
  bias := by simp [expectedCenMead, biasMod, hm]
  prof := rfl
  profK := keysIn_dict _
  profC := rfl
  conc := by simp [expectedCenMead, concModDm, hm]
  concK := by rw [if_pos hm]; exact keysIn_dict _
  mdefK := keysIn_dict _

theorem invCen_user (s : Ingredients) (hm : s.mead = false) (i : ℕ) : InvCen s (s.expectedCenUser i) where
  hmf := by simp [expectedCenUser, hmfMod, hm]
  mdef := by simp [expectedCenUser, mdefMod, hm]
  dis := by simp [expectedCenUser, hm]
  bias := by simp [expectedCenUser, biasMod, hm]
  prof := rfl
  profK := keysIn_dict _
  profC := rfl
  conc := by simp [expectedCenUser, concModDm, hm, lookup]
  concK := by rw [if_neg (by simp [hm])]; exact keysIn_dict _
  mdefK := by
    simp only [expectedCenUser]
    split_ifs
    · exact keys_mono (keysIn_dict _) (by simp)
    · exact keysIn_dict _

/-- what stays true of the object in the satellite loop: either still the central models (before the first
step) or the satellite ones -/
structure InvSat (s : Ingredients) (reset : Bool) (h : HaloModel) : Prop where
  hmf : h.hmfModel = s.hmfMod
  mdef : h.mdefModel = s.mdefMod
  dis : h.disableMassConversion = s.mead
  bias : h.biasModel = s.biasMod
  profK : KeysIn h.profileParams ["eta_bloat", "cosmo"]
  profC : (h.profileModel = s.profileDm ∧ h.profileParams "cosmo" = some .cosmo) ∨
    (h.profileModel = s.profileSat ∧ ((reset = true ∧ s.profileDm ≠ s.profileSat ∧ h.profileParams "cosmo" = none) ∨
      (¬ (reset = true ∧ s.profileDm ≠ s.profileSat) ∧ h.profileParams "cosmo" = some .cosmo)))
  concK : KeysIn h.concParams (if s.mead then ["norm", "K"] else ["norm"])
  mdefK : KeysIn h.mdefParams ["overdensity"]

theorem invSat_start (s : Ingredients) (reset : Bool) : InvSat s reset s.start where
  hmf := rfl
  mdef := rfl
  dis := rfl
  bias := rfl
  profK := (invCen_start s).profK
  profC := Or.inl ⟨rfl, rfl⟩
  concK := keysIn_empty _
  mdefK := mdefParams_keys s 0

theorem keys_ite {c : Prop} [Decidable c] {d : Dict} {ks} (h : KeysIn d ks) :
    KeysIn (if c then Dict.empty else d) ks := by
  split_ifs
  · exact keysIn_empty _
  · exact h

theorem sat_profile_step (s : Ingredients) (reset : Bool) (h : HaloModel) (hi : InvSat s reset h) (e : ℝ) :
    (if (reset && decide (h.profileModel ≠ s.profileSat)) = true then Dict.empty else h.profileParams).assign
      (etaDict e) = s.satProfile reset e := by
  have hk := assign_eta (if (reset && decide (h.profileModel ≠ s.profileSat)) = true then Dict.empty
    else h.profileParams) e (keys_ite hi.profK)
  unfold satProfile
  rcases hi.profC with ⟨p1, p2⟩ | ⟨p1, p2⟩
  · by_cases hr : reset = true ∧ s.profileDm ≠ s.profileSat
    · rw [if_pos hr]
      exact hk.2 (by rw [p1, if_pos (by simpa using hr)]; rfl)
    · rw [if_neg hr]
      exact hk.1 (by rw [p1, if_neg (by simpa using hr)]; exact p2)
  · have hf : ¬ ((reset && decide (h.profileModel ≠ s.profileSat)) = true) := by rw [p1]; simp
    rw [if_neg hf] at hk ⊢
    rcases p2 with ⟨q1, q2, q3⟩ | ⟨q1, q2⟩
    · rw [if_pos ⟨q1, q2⟩]; exact hk.2 q3
    · rw [if_neg q1]; exact hk.1 q2

theorem stepSat_mead (s : Ingredients) (reset : Bool) (hm : s.mead = true) (i : ℕ) (h : HaloModel)
    (hi : InvSat s reset h) : s.stepSat reset i h = s.expectedSatMead reset i := by
  have hp := sat_profile_step s reset h hi
  obtain ⟨h1, h2, h3, h4, h6, h7, h9, h10⟩ := hi
  rw [if_pos hm] at h9
  simp only [stepSat, hm, if_true, updZ, updModels, updParams, expectedSatMead, expectedCenMead, h1, h2, h3, h4,
    hmfMod, mdefMod, biasMod, concModSat, deltaCMod, mdefParams]
  rw [assign_normK _ _ _ (keys_ite h9), hp, assign_over _ _ h10]

theorem stepSat_user (s : Ingredients) (reset : Bool) (hm : s.mead = false) (i : ℕ) (h : HaloModel)
    (hi : InvSat s reset h) : s.stepSat reset i h = s.expectedSatUser reset i := by
  have hp := sat_profile_step s reset h hi
  obtain ⟨h1, h2, h3, h4, h6, h7, h9, h10⟩ := hi
  rw [if_neg (by simp [hm])] at h9
  simp only [stepSat, hm, Bool.false_eq_true, if_false, updZ, updModels, updParams, expectedSatUser,
    expectedCenUser, h1, h2, h3, h4, hmfMod, mdefMod, biasMod, concModSat, deltaCMod, mdefParams, lookup]
  rw [assign_norm _ _ (keys_ite h9), hp]
  by_cases hv : s.mdefModel = "SOVirial"
  · simp only [hv, if_true, Dict.assign, empty_eq]
  · simp only [hv, if_false, assign_over _ _ h10, mul_one]

theorem satProfile_keys (s : Ingredients) (reset : Bool) (e : ℝ) :
    KeysIn (s.satProfile reset e) ["eta_bloat", "cosmo"] ∧
    ((reset = true ∧ s.profileDm ≠ s.profileSat ∧ s.satProfile reset e "cosmo" = none) ∨
      (¬ (reset = true ∧ s.profileDm ≠ s.profileSat) ∧ s.satProfile reset e "cosmo" = some .cosmo)) := by
  unfold satProfile
  split_ifs with hc
  · exact ⟨keys_mono (keysIn_dict _) (by simp), Or.inl ⟨hc.1, hc.2, by simp [dict, List.lookup]⟩⟩
  · exact ⟨keysIn_dict _, Or.inr ⟨hc, by simp [dict, List.lookup]⟩⟩

theorem invSat_mead (s : Ingredients) (reset : Bool) (hm : s.mead = true) (i : ℕ) :
    InvSat s reset (s.expectedSatMead reset i) where
  hmf := by simp [expectedSatMead, expectedCenMead, hmfMod, hm]
  mdef := by simp [expectedSatMead, expectedCenMead, mdefMod, hm]
  dis := by simp [expectedSatMead, expectedCenMead, hm]
  bias := by simp [expectedSatMead, expectedCenMead, biasMod, hm]
  profK := (satProfile_keys s reset _).1
  profC := Or.inr ⟨rfl, (satProfile_keys s reset _).2⟩
  concK := by rw [if_pos hm]; exact keysIn_dict _
  mdefK := keysIn_dict _

theorem invSat_user (s : Ingredients) (reset : Bool) (hm : s.mead = false) (i : ℕ) :
    InvSat s reset (s.expectedSatUser reset i) where
  hmf := by simp [expectedSatUser, expectedCenUser, hmfMod, hm]
  mdef := by simp [expectedSatUser, expectedCenUser, mdefMod, hm]
  dis := by simp [expectedSatUser, expectedCenUser, hm]
  bias := by simp [expectedSatUser, expectedCenUser, biasMod, hm]
  profK := (satProfile_keys s reset _).1
  profC := Or.inr ⟨rfl, (satProfile_keys s reset _).2⟩
  concK := by rw [if_neg (by simp [hm])]; exact keysIn_dict _
  mdefK := (invCen_user s hm i).mdefK

/-- the lists of halo models expected: entry `i` is written in terms of the entries `i` of the settings only -/
noncomputable def expected (s : Ingredients) (reset : Bool) : List HaloModel × List HaloModel :=
  if s.ingr = some "mead2020" ∨ s.ingr = some "mead2020_feedback" then
    ((List.range s.nz).map s.expectedCenMead, (List.range s.nz).map (s.expectedSatMead reset))
  else ((List.range s.nz).map s.expectedCenUser, (List.range s.nz).map (s.expectedSatUser reset))

/-- C29: the loop that updates a single object returns, for every grid, exactly the halo models one would
build for each redshift separately. -/
theorem C29_generator_eq (s : Ingredients) (reset : Bool) (hn : s.nz ≠ 0) :
    s.generator reset = .ok (s.expected reset) := by
  unfold generator expected
  rw [if_neg hn]
  by_cases hm : s.mead = true
  · have hm' : s.ingr = some "mead2020" ∨ s.ingr = some "mead2020_feedback" := by
      simpa [mead, or_comm] using hm
    rw [if_pos hm', loop_get _ _ _ (InvCen s) _ (invCen_start s) (stepCen_mead s hm) (invCen_mead s hm),
      loop_get _ _ _ (InvSat s reset) _ (invSat_start s reset) (stepSat_mead s reset hm)
        (invSat_mead s reset hm)]
  · have hm' : ¬ (s.ingr = some "mead2020" ∨ s.ingr = some "mead2020_feedback") := by
      simpa [mead, or_comm, not_or] using hm
    have hm : s.mead = false := by simpa using hm
    rw [if_neg hm', loop_get _ _ _ (InvCen s) _ (invCen_start s) (stepCen_user s hm) (invCen_user s hm),
      loop_get _ _ _ (InvSat s reset) _ (invSat_start s reset) (stepSat_user s reset hm)
        (invSat_user s reset hm)]

/-- the two sets of settings agree except that the grids may have different lengths and different entries
at positions other than `i` and `j`, where they agree -/
structure AgreeAt (s t : Ingredients) (i j : ℕ) : Prop where
  ingr : s.ingr = t.ingr
  z : s.zVec i = t.zVec j
  dc : s.dcMead i = t.dcMead j
  dv : s.dvMead i = t.dvMead j
  om : s.omZ i = t.omZ j
  agn : s.log10TAGN = t.log10TAGN
  mdef : s.mdefModel = t.mdefModel
  hmf : s.hmfModel = t.hmfModel
  bias : s.biasModel = t.biasModel
  pd : s.profileDm = t.profileDm
  ps : s.profileSat = t.profileSat
  cd : s.concDm = t.concDm
  cs : s.concSat = t.concSat
  nat : s.native = t.native
  od : s.overdensity = t.overdensity
  dcu : s.deltaC = t.deltaC
  nc : s.normCen i = t.normCen j
  ns : s.normSat i = t.normSat j
  ec : s.etaCen i = t.etaCen j
  es : s.etaSat i = t.etaSat j
  s8 : s.sigma8z = t.sigma8z

/-- C29: a halo model depends only on its own entry of the grids: it is the same in any two runs that agree
there, whatever comes before or after it, at whatever position. -/
theorem C29_no_leak (s t : Ingredients) (reset : Bool) (i j : ℕ) (hi : i < s.nz) (hj : j < t.nz)
    (h : AgreeAt s t i j) :
    ∃ S T, s.generator reset = .ok S ∧ t.generator reset = .ok T ∧
      S.1[i]? = T.1[j]? ∧ S.2[i]? = T.2[j]? ∧ S.1[i]?.isSome ∧ S.2[i]?.isSome := by
  refine ⟨_, _, C29_generator_eq s reset (by omega), C29_generator_eq t reset (by omega), ?_⟩
  obtain ⟨a1, a2, a3, a4, a5, a6, a7, a8, a9, a10, a11, a12, a13, a14, a15, a16, a17, a18, a19, a20, a21⟩ := h
  unfold expected
  rw [← a1]
  split_ifs
  · have e : s.expectedCenMead i = t.expectedCenMead j := by
      simp only [expectedCenMead, K, a1, a2, a3, a4, a6, a10, a17, a21]
    have e' : s.expectedSatMead reset i = t.expectedSatMead reset j := by
      simp only [expectedSatMead, e, K, satProfile, a1, a2, a6, a10, a11, a18, a21]
    simp [hi, hj, e, e']
  · have e : s.expectedCenUser i = t.expectedCenUser j := by
      simp only [expectedCenUser, a2, a5, a7, a8, a9, a10, a12, a14, a15, a16, a17, a19]
    have e' : s.expectedSatUser reset i = t.expectedSatUser reset j := by
      simp only [expectedSatUser, e, satProfile, a10, a11, a13, a14, a18, a20]
    simp [hi, hj, e, e']

/-- settings used in the examples: three redshifts, everything varying with redshift -/
noncomputable def demo (ingr : Option String) : Ingredients where
  ingr := ingr
  nz := 3
  zVec := fun i => i
  dcMead := fun i => 1.68 + i
  dvMead := fun i => 178 + i
  omZ := fun i => 1 - 0.7 / (i + 1)
  log10TAGN := 7.8
  mdefModel := "SOMean"
  hmfModel := "Tinker10"
  biasModel := "Tinker10"
  profileDm := "NFW"
  profileSat := "Hernquist"
  concDm := "Duffy08"
  concSat := "diemer19"
  native := fun n => n = "Duffy08" || n = "Bullock01"
  overdensity := 200
  deltaC := 1.686
  normCen := fun i => 1 + i
  normSat := fun i => 2 + i
  etaCen := fun i => 0.1 * i
  etaSat := fun i => 0.2 * i
  sigma8z := fun z => 0.8 / (1 + z)

/-- the third model of the grid 0, 1, 2 is the first one of the grid 2, 3, 4 -/
example (ingr : Option String) : AgreeAt (demo ingr)
    { demo ingr with zVec := fun i => i + 2, dcMead := fun i => 1.68 + (i + 2 : ℕ), dvMead := fun i => 178 + (i + 2 : ℕ),
                     omZ := fun i => 1 - 0.7 / ((i + 2 : ℕ) + 1), normCen := fun i => 1 + (i + 2 : ℕ),
                     normSat := fun i => 2 + (i + 2 : ℕ), etaCen := fun i => 0.1 * (i + 2 : ℕ),
                     etaSat := fun i => 0.2 * (i + 2 : ℕ) } 2 0 := by
  constructor <;> simp [demo]

/-! ## C28 -/

/-- C28: with HMcode ingredients the halo models are the same whatever mass definition, mass function, bias,
concentrations, overdensity, threshold and bloating the user asked for. -/
theorem C28_hmcode_overrides (s : Ingredients) (reset : Bool)
    (hm : s.ingr = some "mead2020" ∨ s.ingr = some "mead2020_feedback")
    (mdef hmf bias cd cs : String) (od dc : ℝ) (ec es : ℕ → ℝ) :
    generator { s with mdefModel := mdef, hmfModel := hmf, biasModel := bias, concDm := cd, concSat := cs,
                       overdensity := od, deltaC := dc, etaCen := ec, etaSat := es } reset
      = s.generator reset := by
  by_cases hn : s.nz = 0
  · simp [generator, hn]
  · rw [C29_generator_eq _ reset hn, C29_generator_eq _ reset (by exact hn)]
    simp only [expected, hm, if_true]
    rfl

/-- C28: and they are HMcode's: for every redshift a Sheth-Tormen mass function and bias, Bullock
concentrations, the HMcode overdensity and threshold, mass conversion disabled, bloating from sigma_8(z). -/
theorem C28_hmcode_values (s : Ingredients) (reset : Bool) (hn : s.nz ≠ 0)
    (hm : s.ingr = some "mead2020" ∨ s.ingr = some "mead2020_feedback") (S : List HaloModel × List HaloModel)
    (hS : s.generator reset = .ok S) (i : ℕ) (hi : i < s.nz) :
    ∃ x y, S.1[i]? = some x ∧ S.2[i]? = some y ∧ ∀ h, (h = x ∨ h = y) →
      h.z = s.zVec i ∧ h.hmfModel = "ST" ∧ h.biasModel = "ST99" ∧ h.mdefModel = .soVirialMead ∧
      h.disableMassConversion = true ∧ h.concModel = .native "Bullock01" ∧
      h.mdefParams "overdensity" = some (.num (s.dvMead i)) ∧ h.deltaC = s.dcMead i ∧
      h.profileParams "eta_bloat" = some (.num (0.1281 * s.sigma8z (s.zVec i) ^ (-0.3644 : ℝ))) ∧
      h.concParams "K" = some (.num (s.K i)) := by
  rw [C29_generator_eq s reset hn] at hS
  injection hS with hS
  subst hS
  simp only [expected, hm, if_true]
  refine ⟨s.expectedCenMead i, s.expectedSatMead reset i, by simp [hi], by simp [hi], ?_⟩
  rintro h (rfl | rfl)
  · simp [expectedCenMead, dict, List.lookup]
  · simp only [expectedSatMead, expectedCenMead, satProfile]
    split_ifs <;> simp [dict, List.lookup]

/-- C28: without HMcode ingredients they are the user's; only the virial definition replaces the
overdensity (none is passed) and the threshold. -/
theorem C28_user_values (s : Ingredients) (reset : Bool) (hn : s.nz ≠ 0)
    (hm : s.ingr = none ∨ s.ingr = some "fit") (S : List HaloModel × List HaloModel)
    (hS : s.generator reset = .ok S) (i : ℕ) (hi : i < s.nz) :
    ∃ x y, S.1[i]? = some x ∧ S.2[i]? = some y ∧
      x.profileParams "eta_bloat" = some (.num (s.etaCen i)) ∧
      y.profileParams "eta_bloat" = some (.num (s.etaSat i)) ∧
      x.concParams "norm" = some (.num (s.normCen i)) ∧ y.concParams "norm" = some (.num (s.normSat i)) ∧
      x.concModel = (if s.native s.concDm then .native s.concDm else .colossus s.concDm) ∧
      y.concModel = (if s.native s.concSat then .native s.concSat else .colossus s.concSat) ∧
      x.profileModel = s.profileDm ∧ y.profileModel = s.profileSat ∧
      ∀ h, (h = x ∨ h = y) →
        h.z = s.zVec i ∧ h.hmfModel = s.hmfModel ∧ h.biasModel = s.biasModel ∧
        h.mdefModel = .user s.mdefModel ∧ h.disableMassConversion = false ∧
        (s.mdefModel ≠ "SOVirial" → h.mdefParams "overdensity" = some (.num s.overdensity) ∧
          h.deltaC = s.deltaC) ∧
        (s.mdefModel = "SOVirial" → h.mdefParams "overdensity" = none ∧
          h.deltaC = 3 / 20 * (12 * Real.pi) ^ ((2 : ℝ) / 3) * (1 + 0.0123 * Real.logb 10 (s.omZ i))) := by
  rw [C29_generator_eq s reset hn] at hS
  injection hS with hS
  subst hS
  have hm' : ¬ (s.ingr = some "mead2020" ∨ s.ingr = some "mead2020_feedback") := by
    rcases hm with h | h <;> simp [h]
  simp only [expected, hm', if_false]
  have hp : ∀ e, s.satProfile reset e "eta_bloat" = some (.num e) := by
    intro e; unfold satProfile; split_ifs <;> simp [dict, List.lookup]
  refine ⟨s.expectedCenUser i, s.expectedSatUser reset i, by simp [hi], by simp [hi], by
    simp [expectedCenUser, dict, List.lookup], hp _, by simp [expectedCenUser, dict, List.lookup],
    by simp [expectedSatUser, dict, List.lookup], rfl, rfl, rfl, rfl, ?_⟩
  have hq : ∀ (a b : Dict) (u v : ℝ) (c : Prop) [Decidable c], (¬ c → (if c then a else b) = b ∧ (if c then u else v) = v) ∧
      (c → (if c then a else b) = a ∧ (if c then u else v) = u) := by
    intro a b u v c _; constructor <;> intro h <;> simp [h]
  rintro h (rfl | rfl) <;> refine ⟨rfl, rfl, rfl, rfl, rfl, fun hv => ?_, fun hv => ?_⟩ <;>
    simp [expectedSatUser, expectedCenUser, hv, dict, List.lookup]

example : (demo (some "mead2020")).nz ≠ 0 ∧ ∃ S, (demo (some "mead2020")).generator true = .ok S :=
  ⟨by simp [demo], _, C29_generator_eq _ true (by simp [demo])⟩

/-- an empty redshift grid is an IndexError, not an empty result -/
theorem C28_empty_grid (s : Ingredients) (reset : Bool) (hn : s.nz = 0) :
    s.generator reset = .error .indexError := by simp [generator, hn]

/-- C28: the amplitude of the Bullock concentrations in HMcode runs: 5.196 without feedback, 5.196/4 of HMcode's
B(z) with feedback, which at redshift zero and log10 T_AGN = 7.8 is 14 % below the value without. -/
theorem C28_concentration_amplitude (s : Ingredients) (reset : Bool) (hn : s.nz ≠ 0) (S : List HaloModel × List HaloModel)
    (hS : s.generator reset = .ok S) (i : ℕ) (hi : i < s.nz) :
    (s.ingr = some "mead2020" → ∀ h, (S.1[i]? = some h ∨ S.2[i]? = some h) →
      h.concParams "K" = some (.num 5.196)) ∧
    (s.ingr = some "mead2020_feedback" → ∃ κ, (∀ h, (S.1[i]? = some h ∨ S.2[i]? = some h) →
      h.concParams "K" = some (.num κ)) ∧
      (s.log10TAGN = 7.8 → κ = 5.196 * 0.86 * (10 : ℝ) ^ (-0.0671 * s.zVec i)) ∧
      (s.zVec i = 0 → κ = 5.196 * (0.86 - 0.124 * (s.log10TAGN - 7.8))) ∧
      (7.8 ≤ s.log10TAGN → s.log10TAGN ≤ 14.7 → 0 ≤ s.zVec i → 0 ≤ κ ∧ κ ≤ 5.196 * 0.86)) := by
  constructor
  · intro hm h hh
    obtain ⟨x, y, hx, hy, H⟩ := C28_hmcode_values s reset hn (Or.inl hm) S hS i hi
    have : h = x ∨ h = y := by
      rcases hh with hh | hh
      · rw [hx] at hh; exact Or.inl (by injection hh with hh; exact hh.symm)
      · rw [hy] at hh; exact Or.inr (by injection hh with hh; exact hh.symm)
    rw [(H h this).2.2.2.2.2.2.2.2.2]
    simp [K, hm]
  · intro hm
    have hne : s.ingr ≠ some "mead2020" := by rw [hm]; decide
    have hK : s.K i = 5.196 / 4 * ((3.44 - 0.496 * (s.log10TAGN - 7.8))
        * (10 : ℝ) ^ (s.zVec i * (-0.0671 - 0.0371 * (s.log10TAGN - 7.8)))) := by
      unfold K; rw [if_neg hne, if_pos hm]
    obtain ⟨x, y, hx, hy, H⟩ := C28_hmcode_values s reset hn (Or.inr hm) S hS i hi
    refine ⟨s.K i, fun h hh => ?_, fun hT => ?_, fun hz => ?_, fun h1 h2 hz => ?_⟩
    · have : h = x ∨ h = y := by
        rcases hh with hh | hh
        · rw [hx] at hh; exact Or.inl (by injection hh with hh; exact hh.symm)
        · rw [hy] at hh; exact Or.inr (by injection hh with hh; exact hh.symm)
      exact (H h this).2.2.2.2.2.2.2.2.2
    · rw [hK, hT]
      rw [show s.zVec i * (-0.0671 - 0.0371 * ((7.8 : ℝ) - 7.8)) = -0.0671 * s.zVec i by ring]
      ring
    · rw [hK, hz, zero_mul, Real.rpow_zero]
      ring
    · rw [hK]
      have e1 : (10 : ℝ) ^ (s.zVec i * (-0.0671 - 0.0371 * (s.log10TAGN - 7.8))) ≤ 1 :=
        Real.rpow_le_one_of_one_le_of_nonpos (by norm_num) (by nlinarith)
      have e0 : 0 ≤ (10 : ℝ) ^ (s.zVec i * (-0.0671 - 0.0371 * (s.log10TAGN - 7.8))) :=
        Real.rpow_nonneg (by norm_num) _
      have b0 : 0 ≤ 3.44 - 0.496 * (s.log10TAGN - 7.8) := by linarith
      have b1 : 3.44 - 0.496 * (s.log10TAGN - 7.8) ≤ 3.44 := by linarith
      have m0 := mul_nonneg b0 e0
      have m1 : (3.44 - 0.496 * (s.log10TAGN - 7.8)) *
          (10 : ℝ) ^ (s.zVec i * (-0.0671 - 0.0371 * (s.log10TAGN - 7.8))) ≤ 3.44 * 1 :=
        mul_le_mul b1 e1 e0 (by norm_num)
      constructor
      · positivity
      · nlinarith

example : ∃ S, (demo (some "mead2020_feedback")).generator true = .ok S :=
  ⟨_, C29_generator_eq _ true (by simp [demo])⟩

end Ingredients

end Verif.Config

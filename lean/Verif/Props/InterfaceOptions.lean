import Verif.Model.InterfaceOptions
import Verif.Props.InterfaceSetup
import Verif.Model.Config
import Mathlib.Tactic.Linarith
import Mathlib.Tactic.Positivity
import Mathlib.Tactic.FieldSimp
import Mathlib.Tactic.Ring

/-!
# What the options of the ini file turn into (C105)

The table `known` below lists every option name that `setup` may read, with the value that leaving it out stands for (`none`:
no default).  The main theorem says that `setup` sees the options only through this table.
-/

namespace Verif.Interface

open Verif.Lib

/-- the option names of one sample (module.yaml:175-207) -/
def sampleNames (sfx : String) : List (String × Option OVal) :=
  [("observables_file_" ++ sfx, none), ("log10_obs_min_" ++ sfx, none), ("log10_obs_max_" ++ sfx, none), ("zmin_" ++ sfx, none),
    ("zmax_" ++ sfx, none), ("nz_" ++ sfx, none), ("nobs_" ++ sfx, none)]

/-- every option and what leaving it out stands for -/
noncomputable def known : List (String × Option OVal) :=
  [("p_mm", some (.bool false)), ("p_gg", some (.bool false)), ("p_gm", some (.bool false)), ("p_gI", some (.bool false)),
    ("p_mI", some (.bool false)), ("p_II", some (.bool false)), ("response", some (.bool false)),
    ("split_ia", some (.bool false)), ("one_halo_ktrunc_ia", some (.num 4)), ("two_halo_ktrunc_ia", some (.num 6)),
    ("one_halo_ktrunc", some (.num 0.1)), ("two_halo_ktrunc", some (.num 2)), ("hmcode_ingredients", some (.str "None")),
    ("nonlinear_mode", some (.str "None")), ("dewiggle", some (.bool false)), ("point_mass", some (.bool false)),
    ("poisson_type", some (.str "")), ("hod_section_name", some (.str "hod")), ("values_name", some (.str "hod_parameters")),
    ("output_suffix", some (.str "")), ("central_IA_depends_on", some (.str "halo_mass")),
    ("satellite_IA_depends_on", some (.str "halo_mass")), ("hod_section_name_ia", none), ("hod_section_name_ia_1", none),
    ("hod_section_name_ia_2", none), ("output_suffix_ia", some (.str "")), ("output_suffix_ia_1", some (.str "")),
    ("output_suffix_ia_2", some (.str "")), ("hod_model", some (.str "Cacciato")),
    ("observable_h_unit", some (.str "1/h^2")), ("save_observable", some (.bool false)),
    ("observable_section_name", some (.str "stellar_mass_function")), ("log_mass_min", some (.num 9)),
    ("log_mass_max", some (.num 16)), ("nmass", some (.int 200)), ("zmin_hmf", some (.num 0)), ("zmax_hmf", some (.num 3)),
    ("nz_hmf", some (.int 15)), ("nk", some (.int 100)), ("profile_cen", some (.str "NFW")),
    ("profile_sat", some (.str "NFW")), ("profile_value_name", some (.str "profile_parameters")),
    ("hmf_model", some (.str "Tinker10")), ("mdef_model", some (.str "SOMean")), ("overdensity", some (.num 200)),
    ("cm_model_cen", some (.str "Duffy08")), ("cm_model_sat", some (.str "Duffy08")), ("delta_c", some (.num 1.686)),
    ("bias_model", some (.str "Tinker10")), ("update_bnl", none)] ++
  sampleNames "hod" ++ sampleNames "ia" ++ sampleNames "ia_1" ++ sampleNames "ia_2" ++ sampleNames "smf"

/-- the options with unknown names removed and missing ones replaced by their defaults -/
noncomputable def normal (o : Options) : Options := fun k =>
  match known.lookup k with
  | none => none
  | some d => (o k).or d

theorem getBool_or (v : Option OVal) (d : Bool) : getBool (v.or (some (.bool d))) d = getBool v d := by cases v <;> rfl

theorem getString_or (v : Option OVal) (d : String) : getString (v.or (some (.str d))) (some d) = getString v (some d) := by
  cases v <;> rfl

theorem getDouble_or (v : Option OVal) (d : ℝ) : getDouble (v.or (some (.num d))) (some d) = getDouble v (some d) := by
  cases v <;> rfl

theorem getInt_or (v : Option OVal) (d : ℤ) : getInt (v.or (some (.int d))) d = getInt v d := by cases v <;> rfl

theorem getSN_or (v : Option OVal) (d : ℝ) : getStringOrNone (v.or (some (.num d))) (some d) = getStringOrNone v (some d) := by
  cases v <;> rfl

theorem getSN_none (v : Option OVal) : getStringOrNone (v.or (some (.str "None"))) none = getStringOrNone v none := by
  cases v <;> rfl

theorem normal_eq {o : Options} {k : String} {d : Option OVal} (h : known.lookup k = some d) : normal o k = (o k).or d := by
  unfold normal
  rw [h]

theorem normal_same {o : Options} {k : String} (h : known.lookup k = some none) : normal o k = o k := by
  rw [normal_eq h, Option.or_none]

/-- rewrite one read of the options -/
theorem rb {o : Options} {k : String} {d : Bool} (h : known.lookup k = some (some (.bool d))) :
    getBool (normal o k) d = getBool (o k) d := by rw [normal_eq h, getBool_or]

theorem rs {o : Options} {k d : String} (h : known.lookup k = some (some (.str d))) :
    getString (normal o k) (some d) = getString (o k) (some d) := by rw [normal_eq h, getString_or]

theorem rd {o : Options} {k : String} {d : ℝ} (h : known.lookup k = some (some (.num d))) :
    getDouble (normal o k) (some d) = getDouble (o k) (some d) := by rw [normal_eq h, getDouble_or]

theorem ri {o : Options} {k : String} {d : ℤ} (h : known.lookup k = some (some (.int d))) :
    getInt (normal o k) d = getInt (o k) d := by rw [normal_eq h, getInt_or]

theorem rn {o : Options} {k : String} {d : ℝ} (h : known.lookup k = some (some (.num d))) :
    getStringOrNone (normal o k) (some d) = getStringOrNone (o k) (some d) := by rw [normal_eq h, getSN_or]

theorem r0 {o : Options} {k : String} (h : known.lookup k = some (some (.str "None"))) :
    getStringOrNone (normal o k) none = getStringOrNone (o k) none := by rw [normal_eq h, getSN_none]

theorem setupPipelineAll_normal (o : Options) : setupPipelineAll (normal o) = setupPipelineAll o := by
  unfold setupPipelineAll
  rw [rb (k := "p_mm") rfl, rb (k := "p_gg") rfl, rb (k := "p_gm") rfl, rb (k := "p_gI") rfl, rb (k := "p_mI") rfl,
    rb (k := "p_II") rfl, rb (k := "response") rfl, rb (k := "split_ia") rfl, rn (k := "one_halo_ktrunc_ia") rfl,
    rn (k := "two_halo_ktrunc_ia") rfl, rn (k := "one_halo_ktrunc") rfl, rn (k := "two_halo_ktrunc") rfl,
    r0 (k := "hmcode_ingredients") rfl, r0 (k := "nonlinear_mode") rfl, rb (k := "dewiggle") rfl, rb (k := "point_mass") rfl,
    rs (k := "poisson_type") rfl]

theorem setupHmfConfig_normal (o : Options) : setupHmfConfig (normal o) = setupHmfConfig o := by
  unfold setupHmfConfig massGrid
  rw [rd (k := "log_mass_min") rfl, rd (k := "log_mass_max") rfl, ri (k := "nmass") rfl, rd (k := "zmin_hmf") rfl,
    rd (k := "zmax_hmf") rfl, ri (k := "nz_hmf") rfl, ri (k := "nk") rfl, rs (k := "profile_cen") rfl,
    rs (k := "profile_sat") rfl, rs (k := "profile_value_name") rfl, rs (k := "hmf_model") rfl, rs (k := "mdef_model") rfl,
    rd (k := "overdensity") rfl, rs (k := "cm_model_cen") rfl, rs (k := "cm_model_sat") rfl, rd (k := "delta_c") rfl,
    rs (k := "bias_model") rfl]

theorem setupHodSettings_normal (o : Options) (sfx : String) (h : sfx ∈ ["hod", "ia", "ia_1", "ia_2", "smf"]) :
    setupHodSettings (normal o) sfx = setupHodSettings o sfx := by
  have hu : getString (normal o "observable_h_unit") (some "1/h^2") = getString (o "observable_h_unit") (some "1/h^2") := rs rfl
  have e : ∀ b ∈ ["observables_file_", "log10_obs_min_", "log10_obs_max_", "zmin_", "zmax_", "nz_", "nobs_"],
      normal o (b ++ sfx) = o (b ++ sfx) := by
    intro b hb
    apply normal_same
    simp only [List.mem_cons, List.not_mem_nil, or_false] at h hb
    rcases h with rfl | rfl | rfl | rfl | rfl <;> rcases hb with rfl | rfl | rfl | rfl | rfl | rfl | rfl <;> rfl
  unfold setupHodSettings fileSettings binSettings
  rw [hu, e "observables_file_" (by simp), e "log10_obs_min_" (by simp), e "log10_obs_max_" (by simp), e "zmin_" (by simp),
    e "zmax_" (by simp), e "nz_" (by simp), e "nobs_" (by simp)]

theorem setupHod_normal (o : Options) (g a s : Bool) : setupHod (normal o) g a s = setupHod o g a s := by
  unfold setupHod iaNames galaxySettings iaSettings obsSettings
  rw [setupHodSettings_normal o "hod" (by simp), setupHodSettings_normal o "ia" (by simp), setupHodSettings_normal o "ia_1" (by simp),
    setupHodSettings_normal o "ia_2" (by simp), setupHodSettings_normal o "smf" (by simp), rs (k := "hod_section_name") rfl,
    rs (k := "values_name") rfl, rs (k := "output_suffix") rfl, rs (k := "central_IA_depends_on") rfl,
    rs (k := "satellite_IA_depends_on") rfl, rs (k := "output_suffix_ia") rfl, rs (k := "output_suffix_ia_1") rfl,
    rs (k := "output_suffix_ia_2") rfl, rs (k := "hod_model") rfl, rb (k := "save_observable") rfl,
    rs (k := "observable_section_name") rfl, normal_same (k := "hod_section_name_ia") rfl,
    normal_same (k := "hod_section_name_ia_1") rfl, normal_same (k := "hod_section_name_ia_2") rfl]

/-- C105: `setup` sees the options only through the table: unknown names have no effect and leaving an option out is the same as
giving its default. -/
theorem C105_table (V : Type) (emu : Bool) (o : Options) : setupAll V emu (normal o) = setupAll V emu o := by
  unfold setupAll setupBnl
  rw [setupPipelineAll_normal, setupHmfConfig_normal, normal_same (k := "update_bnl") rfl]
  simp only [setupHod_normal]

/-- C105: so two ini files that differ only in unknown names and in spelling out defaults give the same set-up or the same
error -/
theorem C105_same_setup (V : Type) (emu : Bool) (o o' : Options)
    (h : ∀ e ∈ known, (o e.1).or e.2 = (o' e.1).or e.2) : setupAll V emu o = setupAll V emu o' := by
  rw [← C105_table V emu o, ← C105_table V emu o']
  congr 1
  funext k
  unfold normal
  cases hk : known.lookup k with
  | none => rfl
  | some d =>
    have hmem : (k, d) ∈ known := by
      have : ∀ l : List (String × Option OVal), l.lookup k = some d → (k, d) ∈ l := by
        intro l
        induction l with
        | nil => intro h; cases h
        | cons a l ih =>
          intro h
          rw [List.lookup_cons] at h
          by_cases hka : k = a.1
          · have : (k == a.1) = true := by simp [hka]
            rw [this] at h
            simp only [Option.some.injEq] at h
            rw [hka, ← h]
            exact List.mem_cons_self
          · have : (k == a.1) = false := by simp [hka]
            rw [this] at h
            exact List.mem_cons_of_mem _ (ih h)
      exact this known hk
    exact h _ hmem

/-- C105: four options of the example file (example_ini_files/pipeline.ini) have names nothing reads: `bnl`,
`mead2020_correction`, `cm_model` and `profile`; whatever they are set to, the set-up is the same -/
theorem C105_example_ignored (V : Type) (emu : Bool) (o : Options) (k : String)
    (hk : k ∈ ["bnl", "mead2020_correction", "cm_model", "profile"]) (v : Option OVal) :
    setupAll V emu (Function.update o k v) = setupAll V emu o := by
  rw [← C105_table V emu (Function.update o k v), ← C105_table V emu o]
  congr 1
  funext k'
  unfold normal
  by_cases h : k' = k
  · have : known.lookup k = none := by
      simp only [List.mem_cons, List.not_mem_nil, or_false] at hk
      rcases hk with rfl | rfl | rfl | rfl <;> rfl
    rw [h, this]
  · rw [Function.update_of_ne h]

/-! ## The parts of the set-up -/

/-- C105: the parts used by the other theorems on the interface are parts of the whole -/
theorem C105_parts (V : Type) (emu : Bool) (o : Options) (c : Config V) (h : setupAll V emu o = .ok c) :
    setup V emu o = .ok (c.pipeline.base, c.hod, (c.hmf.logMassMin, c.hmf.logMassMax, c.hmf.dlog10m), c.bnl) := by
  unfold setupAll at h
  obtain ⟨p, hp, h⟩ := bind_eq_ok h
  obtain ⟨hd, hhd, h⟩ := bind_eq_ok h
  obtain ⟨m, hm, h⟩ := bind_eq_ok h
  obtain ⟨b, hb, h⟩ := bind_eq_ok h
  cases h
  have hp' : setupPipeline o = .ok p.base := by
    unfold setupPipelineAll at hp
    obtain ⟨_, h1, hp⟩ := bind_eq_ok hp
    obtain ⟨_, h2, hp⟩ := bind_eq_ok hp
    obtain ⟨_, h3, hp⟩ := bind_eq_ok hp
    obtain ⟨_, h4, hp⟩ := bind_eq_ok hp
    obtain ⟨_, h5, hp⟩ := bind_eq_ok hp
    obtain ⟨_, h6, hp⟩ := bind_eq_ok hp
    obtain ⟨_, h7, hp⟩ := bind_eq_ok hp
    obtain ⟨_, h8, hp⟩ := bind_eq_ok hp
    obtain ⟨_, -, hp⟩ := bind_eq_ok hp
    obtain ⟨_, -, hp⟩ := bind_eq_ok hp
    obtain ⟨_, -, hp⟩ := bind_eq_ok hp
    obtain ⟨_, -, hp⟩ := bind_eq_ok hp
    obtain ⟨_, h9, hp⟩ := bind_eq_ok hp
    obtain ⟨_, h10, hp⟩ := bind_eq_ok hp
    obtain ⟨_, -, hp⟩ := bind_eq_ok hp
    obtain ⟨_, -, hp⟩ := bind_eq_ok hp
    obtain ⟨_, h11, hp⟩ := bind_eq_ok hp
    cases hp
    unfold setupPipeline
    rw [h1, h2, h3, h4, h5, h6, h7, h8, h9, h10, h11]
    rfl
  have hm' : massGrid o = .ok (m.logMassMin, m.logMassMax, m.dlog10m) := by
    unfold setupHmfConfig at hm
    obtain ⟨g, hg, hm⟩ := bind_eq_ok hm
    obtain ⟨_, -, hm⟩ := bind_eq_ok hm
    obtain ⟨_, -, hm⟩ := bind_eq_ok hm
    obtain ⟨_, -, hm⟩ := bind_eq_ok hm
    split_ifs at hm
    obtain ⟨_, -, hm⟩ := bind_eq_ok hm
    obtain ⟨_, -, hm⟩ := bind_eq_ok hm
    obtain ⟨_, -, hm⟩ := bind_eq_ok hm
    obtain ⟨_, -, hm⟩ := bind_eq_ok hm
    obtain ⟨_, -, hm⟩ := bind_eq_ok hm
    obtain ⟨_, -, hm⟩ := bind_eq_ok hm
    obtain ⟨_, -, hm⟩ := bind_eq_ok hm
    obtain ⟨_, -, hm⟩ := bind_eq_ok hm
    obtain ⟨_, -, hm⟩ := bind_eq_ok hm
    obtain ⟨_, -, hm⟩ := bind_eq_ok hm
    obtain ⟨_, -, hm⟩ := bind_eq_ok hm
    cases hm
    exact hg
  unfold setup
  rw [hp', bind_ok, hhd, bind_ok, hm', bind_ok, hb, bind_ok]
  rfl

theorem toList_toLower (s : String) : s.toLower.toList = s.toList.map Char.toLower := by
  unfold String.toLower
  exact String.toList_map

theorem toLower_empty {s : String} : s.toLower = "" ↔ s = "" := by
  rw [← String.toList_inj, toList_toLower, ← String.toList_inj]
  simp

/-- C105: the settings of a sample without an observables file: the five bin settings are those of the options with the suffix of
the sample, numbers become arrays of one number, and there are no other keys -/
theorem C105_bins (o : Options) (sfx : String) (d : Settings) (hf : o ("observables_file_" ++ sfx) = none)
    (h : setupHodSettings o sfx = .ok d) :
    d "observables_file" = some .pyNone ∧
    (∀ kb ∈ [("obs_min", "log10_obs_min_"), ("obs_max", "log10_obs_max_"), ("zmin", "zmin_"), ("zmax", "zmax_")],
      ∃ l, d kb.1 = some (.arr l) ∧ (o (kb.2 ++ sfx) = some (.nums l) ∨
        (∃ x, o (kb.2 ++ sfx) = some (.num x) ∧ l = [x]) ∨ ∃ n : ℤ, o (kb.2 ++ sfx) = some (.int n) ∧ l = [(n : ℝ)])) ∧
    (∀ kb ∈ [("nz", "nz_"), ("nobs", "nobs_")], ∃ v, o (kb.2 ++ sfx) = some v ∧ d kb.1 = some (.raw v)) ∧
    (∃ u, d "observable_h_unit" = some (.raw (.str u)) ∧
      (o "observable_h_unit" = none ∧ u = "1/h^2" ∨ ∃ u', o "observable_h_unit" = some (.str u') ∧ u = u'.toLower)) ∧
    ∀ k ∉ ["observables_file", "obs_min", "obs_max", "zmin", "zmax", "nz", "nobs", "observable_h_unit"], d k = none := by
  have flat : ∀ (v : Option OVal) l, getFlat v = .ok l →
      v = some (.nums l) ∨ (∃ x, v = some (.num x) ∧ l = [x]) ∨ ∃ n : ℤ, v = some (.int n) ∧ l = [(n : ℝ)] := by
    intro v l hl
    rcases v with _ | (_ | n | x | _ | l') <;> cases hl
    · exact Or.inr (Or.inr ⟨n, rfl, rfl⟩)
    · exact Or.inr (Or.inl ⟨x, rfl, rfl⟩)
    · exact Or.inl rfl
  have raw : ∀ (v : Option OVal) w, getRaw v = .ok w → v = some w := by
    intro v w hw
    cases v <;> cases hw
    rfl
  unfold setupHodSettings at h
  rw [if_neg (by rw [hf]; simp)] at h
  obtain ⟨d1, hd1, h⟩ := bind_eq_ok h
  obtain ⟨nobs, hnobs, h⟩ := bind_eq_ok h
  obtain ⟨unit, hunit, h⟩ := bind_eq_ok h
  cases h
  unfold binSettings at hd1
  obtain ⟨omin, h1, hd1⟩ := bind_eq_ok hd1
  obtain ⟨omax, h2, hd1⟩ := bind_eq_ok hd1
  obtain ⟨zmin, h3, hd1⟩ := bind_eq_ok hd1
  obtain ⟨zmax, h4, hd1⟩ := bind_eq_ok hd1
  obtain ⟨nz, h5, hd1⟩ := bind_eq_ok hd1
  cases hd1
  refine ⟨rfl, ?_, ?_, ⟨unit.toLower, rfl, ?_⟩, ?_⟩
  · intro kb hkb
    simp only [List.mem_cons, List.not_mem_nil, or_false] at hkb
    rcases hkb with rfl | rfl | rfl | rfl
    · exact ⟨omin, rfl, flat _ _ h1⟩
    · exact ⟨omax, rfl, flat _ _ h2⟩
    · exact ⟨zmin, rfl, flat _ _ h3⟩
    · exact ⟨zmax, rfl, flat _ _ h4⟩
  · intro kb hkb
    simp only [List.mem_cons, List.not_mem_nil, or_false] at hkb
    rcases hkb with rfl | rfl
    · exact ⟨nz, raw _ _ h5, rfl⟩
    · exact ⟨nobs, raw _ _ hnobs, rfl⟩
  · rcases ho : o "observable_h_unit" with _ | (s | _ | _ | _ | _) <;> rw [ho] at hunit <;> cases hunit
    · exact Or.inl ⟨rfl, by apply String.toList_inj.1; rw [toList_toLower]; rfl⟩
    · exact Or.inr ⟨unit, rfl, rfl⟩
  · intro k hk
    simp only [List.mem_cons, List.not_mem_nil, or_false, not_or] at hk
    simp [Settings.set, Settings.empty, hk]

/-- C105: with an observables file only the file name, the resolution and the unit are kept, and for the matter spectra the
resolution is 100 -/
theorem C105_file (o : Options) (sfx f : String) (d : Settings) (hf : o ("observables_file_" ++ sfx) = some (.str f))
    (h : setupHodSettings o sfx = .ok d) :
    d "observables_file" = some (.raw (.str f)) ∧ (∀ k ∈ ["obs_min", "obs_max", "zmin", "zmax", "nz"], d k = none) ∧
    (∃ v, o ("nobs_" ++ sfx) = some v ∧ d "nobs" = some (.raw v)) ∧
    ∃ d', setupHodSettingsMm d = .ok d' ∧ d' "nobs" = some (.raw (.int 100)) ∧ ∀ k, k ≠ "nobs" → d' k = d k := by
  unfold setupHodSettings at h
  rw [if_pos (by rw [hf]; simp)] at h
  obtain ⟨d1, hd1, h⟩ := bind_eq_ok h
  obtain ⟨nobs, hnobs, h⟩ := bind_eq_ok h
  obtain ⟨unit, -, h⟩ := bind_eq_ok h
  cases h
  unfold fileSettings at hd1
  rw [hf] at hd1
  obtain ⟨_, h1, hd1⟩ := bind_eq_ok hd1
  cases h1
  cases hd1
  refine ⟨rfl, ?_, ?_, ?_⟩
  · intro k hk
    simp only [List.mem_cons, List.not_mem_nil, or_false] at hk
    rcases hk with rfl | rfl | rfl | rfl | rfl <;> rfl
  · refine ⟨nobs, ?_, rfl⟩
    cases ho : o ("nobs_" ++ sfx) <;> rw [ho] at hnobs <;> cases hnobs
    rfl
  · refine ⟨_, rfl, rfl, fun k hk => ?_⟩
    simp [Settings.set, hk]

/-- C105: the value `None` and numbers in the options that may be `None` -/
theorem C105_none_values (o : Options) (p : PipelineAll) (h : setupPipelineAll o = .ok p) :
    (∀ kv ∈ [("one_halo_ktrunc_ia", p.oneHaloIa, (4 : ℝ)), ("two_halo_ktrunc_ia", p.twoHaloIa, 6),
        ("one_halo_ktrunc", p.oneHalo, 0.1), ("two_halo_ktrunc", p.twoHalo, 2)],
      (o kv.1 = none → kv.2.1 = .num kv.2.2) ∧ (o kv.1 = some (.str "None") → kv.2.1 = .none) ∧
      ∀ x, o kv.1 = some (.num x) → kv.2.1 = .num x) ∧
    (∀ kv ∈ [("hmcode_ingredients", p.base.hmcode), ("nonlinear_mode", p.base.nonlinear)],
      (o kv.1 = none ∨ o kv.1 = some (.str "None") → kv.2 = .none) ∧
      ∀ s, s ≠ "None" → o kv.1 = some (.str s) → kv.2 = .str s) := by
  have num : ∀ (v : Option OVal) (d : ℝ) (r : SN), getStringOrNone v (some d) = .ok r →
      (v = none → r = .num d) ∧ (v = some (.str "None") → r = .none) ∧ ∀ x, v = some (.num x) → r = .num x := by
    intro v d r hr
    refine ⟨?_, ?_, ?_⟩
    · rintro rfl; cases hr; rfl
    · rintro rfl; cases hr; rfl
    · rintro x rfl; cases hr; rfl
  have str : ∀ (v : Option OVal) (r : SN), getStringOrNone v none = .ok r →
      (v = none ∨ v = some (.str "None") → r = .none) ∧ ∀ s, s ≠ "None" → v = some (.str s) → r = .str s := by
    intro v r hr
    refine ⟨?_, ?_⟩
    · rintro (rfl | rfl) <;> cases hr <;> rfl
    · rintro s hs rfl
      simp only [getStringOrNone, if_neg hs, Except.ok.injEq] at hr
      exact hr.symm
  unfold setupPipelineAll at h
  obtain ⟨_, -, h⟩ := bind_eq_ok h
  obtain ⟨_, -, h⟩ := bind_eq_ok h
  obtain ⟨_, -, h⟩ := bind_eq_ok h
  obtain ⟨_, -, h⟩ := bind_eq_ok h
  obtain ⟨_, -, h⟩ := bind_eq_ok h
  obtain ⟨_, -, h⟩ := bind_eq_ok h
  obtain ⟨_, -, h⟩ := bind_eq_ok h
  obtain ⟨_, -, h⟩ := bind_eq_ok h
  obtain ⟨k1, h1, h⟩ := bind_eq_ok h
  obtain ⟨k2, h2, h⟩ := bind_eq_ok h
  obtain ⟨k3, h3, h⟩ := bind_eq_ok h
  obtain ⟨k4, h4, h⟩ := bind_eq_ok h
  obtain ⟨hm, h5, h⟩ := bind_eq_ok h
  obtain ⟨nl, h6, h⟩ := bind_eq_ok h
  obtain ⟨_, -, h⟩ := bind_eq_ok h
  obtain ⟨_, -, h⟩ := bind_eq_ok h
  obtain ⟨_, -, h⟩ := bind_eq_ok h
  cases h
  refine ⟨?_, ?_⟩
  · intro kv hkv
    simp only [List.mem_cons, List.not_mem_nil, or_false] at hkv
    rcases hkv with rfl | rfl | rfl | rfl
    · exact num _ _ _ h1
    · exact num _ _ _ h2
    · exact num _ _ _ h3
    · exact num _ _ _ h4
  · intro kv hkv
    simp only [List.mem_cons, List.not_mem_nil, or_false] at hkv
    rcases hkv with rfl | rfl
    · exact str _ _ h5
    · exact str _ _ h6

/-- C105: the suffix of a sample: empty stays empty, anything else is written in small letters after an underscore, and two suffixes give the same names
exactly when they agree up to capitals -/
theorem C105_suffix (s t : String) : (popName s = "" ↔ s = "") ∧ (s ≠ "" → popName s = "_" ++ s.toLower) ∧
    (popName s = popName t ↔ s.toLower = t.toLower) := by
  have ne : ∀ a : String, "_" ++ a ≠ "" := by
    intro a h
    have := congrArg String.toList h
    simp at this
  rw [← toLower_empty (s := s), ne_eq, ← toLower_empty (s := s)]
  unfold popName
  refine ⟨?_, fun h => if_neg h, ?_⟩
  · split_ifs with h
    · exact ⟨fun _ => h, fun _ => rfl⟩
    · exact ⟨fun h' => absurd h' (ne _), fun h' => absurd h' h⟩
  · split_ifs with h1 h2 h2
    · simp [h1, h2]
    · exact ⟨fun h => absurd h.symm (ne _), fun h => absurd (h.symm.trans h1) h2⟩
    · exact ⟨fun h => absurd h (ne _), fun h => absurd (h.trans h2) h1⟩
    · constructor
      · intro h
        have := congrArg String.toList h
        simp only [String.toList_append, List.append_cancel_left_eq] at this
        exact String.toList_inj.1 this
      · rintro h; rw [h]

/-- C105: the names of the alignment samples -/
theorem C105_alignment_names (o : Options) (split : Bool) (r : IaNames) (h : iaNames o true split = .ok r) :
    (split = false → (∃ s, o "hod_section_name_ia" = some (.str s) ∧ r.section1 = some s) ∧ r.section2 = none ∧ r.pop2 = none ∧
      ∀ s, o "output_suffix_ia" = some (.str s) → r.pop1 = popName s) ∧
    (split = true → ∀ i ∈ [("hod_section_name_ia_1", "output_suffix_ia_1", r.section1, some r.pop1),
        ("hod_section_name_ia_2", "output_suffix_ia_2", r.section2, r.pop2)],
      (∃ s, o i.1 = some (.str s) ∧ i.2.2.1 = some s) ∧ (o i.2.1 = none → i.2.2.2 = some "") ∧
      ∀ s, o i.2.1 = some (.str s) → i.2.2.2 = some (popName s)) := by
  have gs : ∀ (v : Option OVal) s, getString v none = .ok s → v = some (.str s) := by
    intro v s hs
    rcases v with _ | (_ | _ | _ | _ | _) <;> cases hs
    rfl
  have gd : ∀ (v : Option OVal) s, getString v (some "") = .ok s → (v = none → s = "") ∧ ∀ t, v = some (.str t) → s = t := by
    intro v s hs
    refine ⟨?_, ?_⟩
    · rintro rfl; cases hs; rfl
    · rintro t rfl; cases hs; rfl
  have p0 : popName "" = "" := by unfold popName; rw [if_pos (toLower_empty.2 rfl)]
  unfold iaNames at h
  rw [if_pos rfl] at h
  obtain ⟨_, -, h⟩ := bind_eq_ok h
  obtain ⟨_, -, h⟩ := bind_eq_ok h
  cases split
  · rw [if_neg (by simp)] at h
    obtain ⟨h1, e1, h⟩ := bind_eq_ok h
    obtain ⟨p1, e2, h⟩ := bind_eq_ok h
    cases h
    exact ⟨fun _ => ⟨⟨h1, gs _ _ e1, rfl⟩, rfl, rfl, fun s hs => by simp only [(gd _ _ e2).2 s hs]⟩, fun h => by cases h⟩
  · rw [if_pos rfl] at h
    obtain ⟨h1, e1, h⟩ := bind_eq_ok h
    obtain ⟨p1, e2, h⟩ := bind_eq_ok h
    obtain ⟨h2, e3, h⟩ := bind_eq_ok h
    obtain ⟨p2, e4, h⟩ := bind_eq_ok h
    cases h
    refine ⟨fun h => (by cases h), fun _ i hi => ?_⟩
    simp only [List.mem_cons, List.not_mem_nil, or_false] at hi
    rcases hi with rfl | rfl
    · exact ⟨⟨h1, gs _ _ e1, rfl⟩, fun hn => by simp [(gd _ _ e2).1 hn, p0], fun s hs => by simp [(gd _ _ e2).2 s hs]⟩
    · exact ⟨⟨h2, gs _ _ e3, rfl⟩, fun hn => by simp [(gd _ _ e4).1 hn, p0], fun s hs => by simp [(gd _ _ e4).2 s hs]⟩

/-- C105: the emulator is needed exactly for the mode `bnl`: without it `setup` cannot succeed in that mode; with it the count
starts at 0 with an empty cache and the interval of the options -/
theorem C105_emulator (V : Type) (emu : Bool) (o : Options) (c : Config V) (h : setupAll V emu o = .ok c) :
    (o "nonlinear_mode" = some (.str "bnl") → emu = true ∧ ∃ u, o "update_bnl" = some (.int u) ∧ c.bnl = some ⟨0, none, u⟩) ∧
    (o "nonlinear_mode" ≠ some (.str "bnl") → c.bnl = none) := by
  unfold setupAll at h
  obtain ⟨p, hp, h⟩ := bind_eq_ok h
  obtain ⟨hd, hhd, h⟩ := bind_eq_ok h
  obtain ⟨m, hm, h⟩ := bind_eq_ok h
  obtain ⟨b, hb, h⟩ := bind_eq_ok h
  cases h
  have hn : getStringOrNone (o "nonlinear_mode") none = .ok p.base.nonlinear := by
    unfold setupPipelineAll at hp
    iterate 13 obtain ⟨_, -, hp⟩ := bind_eq_ok hp
    obtain ⟨_, h10, hp⟩ := bind_eq_ok hp
    iterate 3 obtain ⟨_, -, hp⟩ := bind_eq_ok hp
    cases hp
    exact h10
  constructor
  · intro hbnl
    rw [hbnl] at hn
    have hs : p.base.nonlinear = .str "bnl" := by
      simp only [getStringOrNone, Except.ok.injEq] at hn
      rw [← hn]
      rfl
    unfold setupBnl at hb
    rw [hs] at hb
    simp only [if_true] at hb
    cases emu
    · cases hb
    · simp only [if_true] at hb
      refine ⟨rfl, ?_⟩
      rcases ho : o "update_bnl" with _ | (_ | u | _ | _ | _) <;> rw [ho] at hb <;> cases hb
      exact ⟨u, rfl, rfl⟩
  · intro hbnl
    unfold setupBnl at hb
    cases hs : p.base.nonlinear with
    | none => rw [hs] at hb; cases hb; rfl
    | num x => rw [hs] at hb; cases hb; rfl
    | str s =>
      rw [hs] at hb
      simp only at hb
      by_cases hsb : s = "bnl"
      · exfalso
        apply hbnl
        rw [hs, hsb] at hn
        rcases ho : o "nonlinear_mode" with _ | (s' | _ | _ | _ | _) <;> rw [ho] at hn <;> simp only [getStringOrNone] at hn
        · cases hn
        · split_ifs at hn <;> cases hn
          rfl
        all_goals cases hn
      · rw [if_neg hsb] at hb
        cases hb
        rfl

/-- C105: the redshifts of the halo model: the number asked for, the first and the last as given, in increasing order -/
theorem C105_redshifts (o : Options) (c : HmfConfig) (h : setupHmfConfig o = .ok c) (hz : c.zMin < c.zMax) (hn : 2 ≤ c.nz) :
    c.zVec 0 = c.zMin ∧ c.zVec (c.nz - 1) = c.zMax ∧ (∀ i j, i < j → c.zVec i < c.zVec j) ∧
    (o "nz_hmf" = none → c.nz = 15) ∧ ∀ n : ℤ, o "nz_hmf" = some (.int n) → (c.nz : ℤ) = n := by
  have hn' : (0 : ℝ) < (c.nz : ℝ) - 1 := by
    have : (2 : ℝ) ≤ c.nz := by exact_mod_cast hn
    linarith
  have hd : 0 < (c.zMax - c.zMin) / ((c.nz : ℝ) - 1) := div_pos (sub_pos.2 hz) hn'
  refine ⟨?_, ?_, ?_, ?_⟩
  · unfold HmfConfig.zVec npLinspace; simp
  · unfold HmfConfig.zVec npLinspace
    rw [Nat.cast_sub (by omega)]
    field_simp
    push_cast
    ring
  · intro i j hij
    have : (i : ℝ) < j := by exact_mod_cast hij
    unfold HmfConfig.zVec npLinspace
    have := mul_lt_mul_of_pos_right this hd
    linarith
  · unfold setupHmfConfig at h
    obtain ⟨_, -, h⟩ := bind_eq_ok h
    obtain ⟨_, -, h⟩ := bind_eq_ok h
    obtain ⟨_, -, h⟩ := bind_eq_ok h
    obtain ⟨nz, hnz, h⟩ := bind_eq_ok h
    split_ifs at h with hneg
    iterate 11 obtain ⟨_, -, h⟩ := bind_eq_ok h
    cases h
    refine ⟨?_, ?_⟩
    · intro h0
      rw [h0] at hnz
      cases hnz
      rfl
    · intro n h0
      rw [h0] at hnz
      cases hnz
      simp only [Int.toNat_of_nonneg (not_lt.1 hneg)]

/-! ## Documented defaults that do not exist -/

/-- C105: the section names of the alignment samples are documented with defaults (module.yaml:121-132) and `nobs` with 100
(module.yaml:180-185); without them `setup` fails -/
theorem C105_missing_defaults (V : Type) (emu : Bool) (o : Options) :
    (∀ p, setupPipelineAll o = .ok p → p.base.alignment = true → p.base.splitIa = false → o "hod_section_name_ia" = none →
      ∃ e, setupAll V emu o = .error e) ∧
    (∀ p, setupPipelineAll o = .ok p → p.base.alignment = true → p.base.splitIa = true →
      o "hod_section_name_ia_1" = none ∨ o "hod_section_name_ia_2" = none → ∃ e, setupAll V emu o = .error e) ∧
    ∀ p, setupPipelineAll o = .ok p → p.base.galaxy = true → o "nobs_hod" = none → ∃ e, setupAll V emu o = .error e := by
  have key : ∀ p, setupPipelineAll o = .ok p →
      (∀ h, setupHod o p.base.galaxy p.base.alignment p.base.splitIa ≠ .ok h) → ∃ e, setupAll V emu o = .error e := by
    intro p hp hno
    cases hs : setupAll V emu o with
    | error e => exact ⟨e, rfl⟩
    | ok c =>
      unfold setupAll at hs
      rw [hp, bind_ok] at hs
      obtain ⟨hd, hhd, _⟩ := bind_eq_ok hs
      exact absurd hhd (hno hd)
  have names : ∀ g a s h, setupHod o g a s = .ok h → iaNames o a s = .ok h.names ∧ ∃ x, galaxySettings o g = .ok x := by
    intro g a s h hh
    unfold setupHod at hh
    obtain ⟨_, -, hh⟩ := bind_eq_ok hh
    obtain ⟨_, -, hh⟩ := bind_eq_ok hh
    obtain ⟨_, -, hh⟩ := bind_eq_ok hh
    obtain ⟨n, hn, hh⟩ := bind_eq_ok hh
    obtain ⟨_, -, hh⟩ := bind_eq_ok hh
    obtain ⟨x, hx, hh⟩ := bind_eq_ok hh
    obtain ⟨_, -, hh⟩ := bind_eq_ok hh
    obtain ⟨_, -, hh⟩ := bind_eq_ok hh
    cases hh
    exact ⟨hn, x, hx⟩
  refine ⟨?_, ?_, ?_⟩
  · intro p hp ha hsp ho
    refine key p hp fun h hh => ?_
    have := (names _ _ _ _ hh).1
    rw [ha, hsp] at this
    obtain ⟨⟨s, hs, -⟩, -⟩ := (C105_alignment_names o false _ this).1 rfl
    rw [ho] at hs
    cases hs
  · intro p hp ha hsp ho
    refine key p hp fun h hh => ?_
    have := (names _ _ _ _ hh).1
    rw [ha, hsp] at this
    have all := (C105_alignment_names o true _ this).2 rfl
    rcases ho with ho | ho
    · obtain ⟨⟨s, hs, -⟩, -⟩ := all _ List.mem_cons_self
      rw [ho] at hs
      cases hs
    · obtain ⟨⟨s, hs, -⟩, -⟩ := all _ (List.mem_cons_of_mem _ List.mem_cons_self)
      rw [ho] at hs
      cases hs
  · intro p hp hg ho
    refine key p hp fun h hh => ?_
    obtain ⟨x, hx⟩ := (names _ _ _ _ hh).2
    rw [hg] at hx
    unfold galaxySettings at hx
    rw [if_pos rfl] at hx
    obtain ⟨d, hd, -⟩ := bind_eq_ok hx
    have hn : ∃ y, getRaw (o ("nobs_" ++ "hod")) = .ok y := by
      unfold setupHodSettings at hd
      split_ifs at hd
      all_goals
        obtain ⟨_, -, hd⟩ := bind_eq_ok hd
        obtain ⟨y, hn, -⟩ := bind_eq_ok hd
        exact ⟨y, hn⟩
    obtain ⟨_, hn⟩ := hn
    have e : o ("nobs_" ++ "hod") = none := ho
    rw [e] at hn
    cases hn

/-- C105: the documented value `scalar` of `poisson_type` (module.yaml:96-99) is not among the known ones: every call that needs
it ends in KeyError, and so is the documented value `fit_feedback` of `hmcode_ingredients`, which the spectra refuse -/
theorem C105_documented_values (b : Block) (c : Verif.Config.Conf) :
    poissonParams b "scalar" = .error .keyError ∧ Verif.Config.setIngr (some "fit_feedback") c = .error .valueError :=
  ⟨rfl, by unfold Verif.Config.setIngr Verif.Config.VALID_HMCODE_INGREDIENTS; rw [if_neg (by decide)]⟩

/-- C105: the assembly bias parameters of the block are passed on under their own names, `None` when absent -/
theorem C105_assembly_bias (b : Block) (sec model : String) (n : ℕ) (d : String → Option HVal)
    (h : hodParams b sec model n = .ok d) :
    ∀ k ∈ ["A_cen", "A_sat"], (b sec k = none → d k = some .pyNone) ∧ ∀ v, b sec k = some v → d k = some (.raw v) := by
  unfold hodParams at h
  cases hps : parametersModels model with
  | error e => rw [hps] at h; cases h
  | ok ps =>
    rw [hps] at h
    simp only at h
    have hnot : ∀ k ∈ ["A_cen", "A_sat"], k ∉ ps := by
      intro k hk
      simp only [List.mem_cons, List.not_mem_nil, or_false] at hk
      unfold parametersModels at hps
      split_ifs at hps <;> cases hps <;> rcases hk with rfl | rfl <;> decide
    have keep : ∀ (ps : List String) (d0 d : String → Option HVal) (k : String), k ∉ ps → loadParams b sec model n ps d0 = .ok d →
        d k = d0 k := by
      intro ps
      induction ps with
      | nil => intro d0 d k _ h; cases h; rfl
      | cons p ps ih =>
        intro d0 d k hk h
        unfold loadParams at h
        cases hp : loadParam b sec model n p with
        | error e => rw [hp] at h; cases h
        | ok v =>
          rw [hp] at h
          simp only [List.mem_cons, not_or] at hk
          rw [ih _ d k hk.2 h, if_neg hk.1]
    intro k hk
    rw [keep ps _ d k (hnot k hk) h]
    simp only [List.mem_cons, List.not_mem_nil, or_false] at hk
    rcases hk with rfl | rfl
    · rw [if_neg (by decide), if_pos rfl]
      refine ⟨fun h => by rw [h]; rfl, fun v h => by rw [h]; rfl⟩
    · rw [if_pos rfl]
      refine ⟨fun h => by rw [h]; rfl, fun v h => by rw [h]; rfl⟩

/-! ## The hypotheses are met -/

/-- an ini file asking for the matter spectrum only -/
def demoMatter : Options := fun k => if k = "p_mm" then some (.bool true) else none

example : ∃ c, setupAll ℕ false demoMatter = .ok c ∧ c.hmf.nz = 15 ∧ c.hmf.zMin < c.hmf.zMax ∧ 2 ≤ c.hmf.nz := by
  have : ∃ c, setupAll ℕ false demoMatter = .ok c := by
    unfold setupAll setupPipelineAll setupHmfConfig massGrid setupHod
    simp [demoMatter, bind, Except.bind, getBool, getDouble, getInt, getString, getStringOrNone, iaNames, galaxySettings, iaSettings,
      obsSettings, Pipeline.galaxy, Pipeline.alignment, setupBnl, pure, Except.pure]
  obtain ⟨c, hc⟩ := this
  refine ⟨c, hc, ?_⟩
  unfold setupAll setupPipelineAll setupHmfConfig massGrid setupHod at hc
  simp [demoMatter, bind, Except.bind, getBool, getDouble, getInt, getString, getStringOrNone, iaNames, galaxySettings, iaSettings,
      obsSettings, Pipeline.galaxy, Pipeline.alignment, setupBnl, pure, Except.pure] at hc
  subst hc
  norm_num

/-- two galaxy bins -/
def demoGalaxy : Options := fun k =>
  if k = "p_gg" then some (.bool true) else if k = "log10_obs_min_hod" then some (.nums [8, 9])
  else if k = "log10_obs_max_hod" then some (.nums [9, 12]) else if k = "zmin_hod" then some (.nums [0, 0.2])
  else if k = "zmax_hod" then some (.nums [0.2, 0.5]) else if k = "nz_hod" then some (.int 15)
  else if k = "nobs_hod" then some (.int 300) else none

example : ∃ d, setupHodSettings demoGalaxy "hod" = .ok d ∧ d "zmax" = some (.arr [0.2, 0.5]) := ⟨_, rfl, rfl⟩

end Verif.Interface

import Verif.Props.Collect

/-! Property C139, continued: the arguments that come from the options, and the samples of the alignment spectra. -/

namespace Verif.Collect

open Verif.Lib Verif.Interface Verif.EndToEnd

variable {V : Type}

/-- the option is the text `s`, or it is missing and `s` is the default -/
def IsTextOr (o : Options) (name default s : String) : Prop := o name = some (.str s) ∨ o name = none ∧ s = default

/-- the option is the number `x`, or it is missing and `x` is the default -/
def IsValueOr (o : Options) (name : String) (default x : ℝ) : Prop :=
  o name = some (.num x) ∨ (∃ n : ℤ, o name = some (.int n) ∧ x = n) ∨ o name = none ∧ x = default

theorem text_of {o : Options} {name default s : String} (h : getString (o name) (some default) = .ok s) : IsTextOr o name default s := by
  unfold getString at h
  unfold IsTextOr
  split at h
  · rename_i e; rw [e, Except.ok.inj h]; exact .inl rfl
  · cases h
  · rename_i e; rw [e]; exact .inr ⟨rfl, (Except.ok.inj h).symm⟩

theorem value_of {o : Options} {name : String} {default x : ℝ} (h : getDouble (o name) (some default) = .ok x) : IsValueOr o name default x := by
  unfold getDouble at h
  unfold IsValueOr
  split at h
  · rename_i e; rw [e, Except.ok.inj h]; exact .inl rfl
  · rename_i n e; rw [e]; exact .inr (.inl ⟨n, rfl, (Except.ok.inj h).symm⟩)
  · cases h
  · rename_i e; rw [e]; exact .inr (.inr ⟨rfl, (Except.ok.inj h).symm⟩)

/-- C139: the models and constants of the halo model are the options of their names, with the documented defaults; centrals and satellites
each have their own profile and concentration; the wavenumbers of the transfer function are the same in every call. -/
theorem C139_options {build : BnlArgs → Except PyErr V} {emu : Bool} {o : Options} {cfg : Config V} (hs : setupAll V emu o = .ok cfg)
    {cache : Option (BnlCache V)} {d : Data} {c : Collected V} (h : (collect build cfg cache d).2 = .ok c) :
    (∀ x ∈ [("mdef_model", "mdef_model", "SOMean"), ("hmf_model", "hmf_model", "Tinker10"), ("bias_model", "bias_model", "Tinker10"),
      ("halo_profile_model_dm", "profile_cen", "NFW"), ("halo_concentration_model_dm", "cm_model_cen", "Duffy08"),
      ("halo_profile_model_sat", "profile_sat", "NFW"), ("halo_concentration_model_sat", "cm_model_sat", "Duffy08")],
      ∃ s, IsTextOr o x.2.1 x.2.2 s ∧ kw cfg c x.1 = .str s) ∧
    (∀ x ∈ [("overdensity", "overdensity", (200 : ℝ)), ("delta_c", "delta_c", 1.686), ("Mmin", "log_mass_min", 9), ("Mmax", "log_mass_max", 16)],
      ∃ v, IsValueOr o x.2.1 x.2.2 v ∧ kw cfg c x.1 = .num v) ∧
    (∀ x ∈ [("lnk_min", Real.log 1e-8), ("lnk_max", Real.log 1e8), ("dlnk", (1 / 20 : ℝ))], kw cfg c x.1 = .num x.2) := by
  unfold setupAll at hs
  obtain ⟨p, -, hs⟩ := bind_eq_ok hs
  obtain ⟨hd, -, hs⟩ := bind_eq_ok hs
  obtain ⟨m, hm, hs⟩ := bind_eq_ok hs
  obtain ⟨b, -, hs⟩ := bind_eq_ok hs
  cases hs
  unfold setupHmfConfig at hm
  obtain ⟨g, hg, hm⟩ := bind_eq_ok hm
  obtain ⟨_, -, hm⟩ := bind_eq_ok hm
  obtain ⟨_, -, hm⟩ := bind_eq_ok hm
  obtain ⟨nz, -, hm⟩ := bind_eq_ok hm
  split_ifs at hm
  obtain ⟨_, -, hm⟩ := bind_eq_ok hm
  obtain ⟨_, h1, hm⟩ := bind_eq_ok hm
  obtain ⟨_, h2, hm⟩ := bind_eq_ok hm
  obtain ⟨_, -, hm⟩ := bind_eq_ok hm
  obtain ⟨_, h3, hm⟩ := bind_eq_ok hm
  obtain ⟨_, h4, hm⟩ := bind_eq_ok hm
  obtain ⟨_, h5, hm⟩ := bind_eq_ok hm
  obtain ⟨_, h6, hm⟩ := bind_eq_ok hm
  obtain ⟨_, h7, hm⟩ := bind_eq_ok hm
  obtain ⟨_, h8, hm⟩ := bind_eq_ok hm
  obtain ⟨_, h9, hm⟩ := bind_eq_ok hm
  cases hm
  unfold massGrid at hg
  obtain ⟨_, g1, hg⟩ := bind_eq_ok hg
  obtain ⟨_, g2, hg⟩ := bind_eq_ok hg
  obtain ⟨_, -, hg⟩ := bind_eq_ok hg
  split_ifs at hg
  cases hg
  simp only [List.forall_mem_cons, List.not_mem_nil, false_implies, implies_true, and_true]
  refine ⟨⟨⟨_, text_of h4, kw_base rfl⟩, ⟨_, text_of h3, kw_base rfl⟩, ⟨_, text_of h9, kw_base rfl⟩, ⟨_, text_of h1, kw_base rfl⟩,
    ⟨_, text_of h6, kw_base rfl⟩, ⟨_, text_of h2, kw_base rfl⟩, ⟨_, text_of h7, kw_base rfl⟩⟩,
    ⟨⟨_, value_of h5, kw_base rfl⟩, ⟨_, value_of h8, kw_base rfl⟩, ⟨_, value_of g1, kw_base rfl⟩, ⟨_, value_of g2, kw_base rfl⟩⟩,
    kw_base rfl, kw_base rfl, ?_⟩
  rw [show (1 / 20 : ℝ) = 0.05 by norm_num]
  exact kw_base rfl

theorem nobs_of {o : Options} {sfx : String} {a : Settings} (h : setupHodSettings o sfx = .ok a) :
    ∃ v, o ("nobs_" ++ sfx) = some v ∧ a "nobs" = some (.raw v) := by
  unfold setupHodSettings at h
  obtain ⟨e, h⟩ : ∃ e : Settings, (getRaw (o ("nobs_" ++ sfx)) >>= fun nobs => getString (o "observable_h_unit") (some "1/h^2") >>= fun unit =>
      (.ok ((e.set "nobs" (.raw nobs)).set "observable_h_unit" (.raw (.str unit.toLower))) : Except PyErr Settings)) = .ok a := by
    dsimp only at h
    split_ifs at h
    · obtain ⟨e, -, h⟩ := bind_eq_ok h
      exact ⟨e, h⟩
    · obtain ⟨e, -, h⟩ := bind_eq_ok h
      exact ⟨e, h⟩
  obtain ⟨v, hv, h⟩ := bind_eq_ok h
  obtain ⟨u, -, h⟩ := bind_eq_ok h
  cases h
  refine ⟨v, ?_, ?_⟩
  · unfold getRaw at hv
    split at hv
    · rename_i e; rw [e, Except.ok.inj hv]
    · cases hv
  · unfold Settings.set
    rw [if_neg (by decide), if_pos rfl]

/-- C139: the alignment spectra are computed for the alignment samples: the first (or only) one has the settings of the options ending in
`_ia_1` (`_ia`), the second those ending in `_ia_2`; never those of the galaxy sample. -/
theorem C139_alignment_samples {emu : Bool} {o : Options} {cfg : Config V} (hs : setupAll V emu o = .ok cfg) (ha : cfg.pipeline.base.alignment = true)
    (c : Collected V) (r : Rest) :
    (∃ a, setupHodSettings o (if cfg.pipeline.base.splitIa then "ia_1" else "ia") = .ok a ∧ (callOf cfg c r).ia = .obj (.settings a) ∧
      ∃ v, o ("nobs_" ++ if cfg.pipeline.base.splitIa then "ia_1" else "ia") = some v ∧ a "nobs" = some (.raw v)) ∧
    (cfg.pipeline.base.splitIa = true → ∀ x, (callOf cfg c r).second = some x → ∃ b, setupHodSettings o "ia_2" = .ok b ∧ x.1 = .obj (.settings b) ∧
      ∃ v, o "nobs_ia_2" = some v ∧ b "nobs" = some (.raw v)) := by
  unfold setupAll at hs
  obtain ⟨p, -, hs⟩ := bind_eq_ok hs
  obtain ⟨hd, hh, hs⟩ := bind_eq_ok hs
  obtain ⟨m, -, hs⟩ := bind_eq_ok hs
  obtain ⟨b, -, hs⟩ := bind_eq_ok hs
  cases hs
  unfold setupHod at hh
  obtain ⟨_, -, hh⟩ := bind_eq_ok hh
  obtain ⟨_, -, hh⟩ := bind_eq_ok hh
  obtain ⟨_, -, hh⟩ := bind_eq_ok hh
  obtain ⟨_, -, hh⟩ := bind_eq_ok hh
  obtain ⟨_, -, hh⟩ := bind_eq_ok hh
  obtain ⟨_, -, hh⟩ := bind_eq_ok hh
  obtain ⟨ia, hia, hh⟩ := bind_eq_ok hh
  obtain ⟨_, -, hh⟩ := bind_eq_ok hh
  cases hh
  dsimp only at ha ⊢
  unfold iaSettings at hia
  rw [ha, if_pos rfl] at hia
  by_cases hsp : p.base.splitIa = true
  · rw [if_pos hsp] at hia
    obtain ⟨a, h1, hia⟩ := bind_eq_ok hia
    obtain ⟨b, h2, hia⟩ := bind_eq_ok hia
    cases hia
    rw [if_pos hsp]
    refine ⟨⟨a, h1, rfl, nobs_of h1⟩, fun _ x hx => ⟨b, h2, ?_, nobs_of h2⟩⟩
    simp only [callOf, Option.map_eq_some_iff] at hx
    obtain ⟨q, -, rfl⟩ := hx
    rfl
  · rw [if_neg hsp] at hia
    obtain ⟨a, h1, hia⟩ := bind_eq_ok hia
    cases hia
    rw [if_neg hsp]
    exact ⟨⟨a, h1, rfl, nobs_of h1⟩, fun h => absurd h hsp⟩

/-- C139: a linear spectrum without wavenumbers ends in the `IndexError` of `k_vec_original[0]`, if everything read before is there -/
theorem C139_empty_table {build : BnlArgs → Except PyErr V} {cfg : Config V} {cache : Option (BnlCache V)} {d : Data}
    (ht : HasArr d "matter_power_transfer_func" "k_h" ∧ HasArr d "matter_power_transfer_func" "t_k" ∧ HasArr d "growth_parameters" "z" ∧
      HasArr d "growth_parameters" "d_z") (hk : d.block "matter_power_lin" "k_h" = some (.nums [])) {z : List ℝ} (hz : z ≠ [])
    (h1 : d.block "matter_power_lin" "z" = some (.nums z)) {p : ℕ → ℕ → ℝ} (h2 : d.grid "matter_power_lin" "p_k" = some p)
    (hin : ∀ i < cfg.hmf.nz, at' z 0 ≤ cfg.hmf.zVec i ∧ cfg.hmf.zVec i ≤ at' z (z.length - 1)) :
    collect build cfg cache d = (cache, .error .indexError) := by
  obtain ⟨⟨a, ha⟩, ⟨b, hb⟩, ⟨e, he⟩, ⟨f, hf⟩⟩ := ht
  have : collectBase cfg.hmf d = .error .indexError := by
    unfold collectBase powerTable
    simp only [ha, hb, he, hf, hk, h1, h2, getArr, getGrid, bind, Except.bind]
    rw [if_neg]
    · simp
    · rintro (h | ⟨i, hi, h | h⟩)
      · exact hz h
      · exact absurd (hin i hi).1 (not_le.2 h)
      · exact absurd (hin i hi).2 (not_le.2 h)
  unfold collect
  simp only [this]

/-! ## examples -/

/-- the run of `Props/Collect`: nothing is said about profiles and mass function, so the defaults are used -/
example : ∃ (cfg : Config Unit) (c : Collected Unit), setupAll Unit false demoOptions = .ok cfg ∧
    (collect (fun _ => .ok ()) cfg cfg.bnl (demoData 1)).2 = .ok c ∧ kw cfg c "halo_profile_model_sat" = .str "NFW" ∧
    kw cfg c "delta_c" = .num 1.686 ∧ kw cfg c "dlnk" = .num (1 / 20) := by
  obtain ⟨cfg, hs, p1, -⟩ := demo_setup
  have hm : (flagsOf cfg.pipeline.base).bnl = false := by rw [p1]; rfl
  obtain ⟨c, hc⟩ := (C139_complete (fun _ => .ok ()) cfg cfg.bnl (demoData 1) (fun a => ⟨none, by simp [tableStep, hm]⟩)).mpr (demo_complete 1 hs)
  obtain ⟨h1, h2, h3⟩ := C139_options hs hc
  refine ⟨cfg, c, hs, hc, ?_, ?_, h3 ("dlnk", 1 / 20) (by simp)⟩
  · obtain ⟨s, h, e⟩ := h1 ("halo_profile_model_sat", "profile_sat", "NFW") (by simp)
    rcases h with h | ⟨-, rfl⟩
    · exact absurd h (by simp [demoOptions])
    · exact e
  · obtain ⟨v, h, e⟩ := h2 ("delta_c", "delta_c", 1.686) (by simp)
    rcases h with h | ⟨n, h, -⟩ | ⟨-, rfl⟩
    · exact absurd h (by simp [demoOptions])
    · exact absurd h (by simp [demoOptions])
    · exact e

/-- galaxies with 20 observable steps and an alignment sample with 30: the alignment spectra use 30 -/
example (c : Collected Unit) (r : Rest) : ∃ cfg : Config Unit, setupAll Unit false (fun k => if k = "p_II" then some (.bool true) else
      if k = "hod_section_name_ia" then some (.str "hod_ia") else if k = "observables_file_ia" then some (.str "file") else
      if k = "nobs_ia" then some (.int 30) else demoOptions k) = .ok cfg ∧
    ∃ a : Settings, (callOf cfg c r).ia = .obj (.settings a) ∧ a "nobs" = some (.raw (.int 30)) := by
  refine ⟨_, rfl, ?_⟩
  obtain ⟨⟨a, -, e, v, hv, ha⟩, -⟩ := C139_alignment_samples (V := Unit) (emu := false) (o := fun k => if k = "p_II" then some (.bool true) else
      if k = "hod_section_name_ia" then some (.str "hod_ia") else if k = "observables_file_ia" then some (.str "file") else
      if k = "nobs_ia" then some (.int 30) else demoOptions k) rfl rfl c r
  refine ⟨a, e, ?_⟩
  have : v = .int 30 := (Option.some.inj hv).symm
  rw [ha, this]

/-- the run of `Props/Collect` with an empty array of wavenumbers -/
example {cfg : Config Unit} (hs : setupAll Unit false demoOptions = .ok cfg) :
    collect (fun _ => .ok ()) cfg cfg.bnl ⟨fun s n => if s = "matter_power_lin" ∧ n = "k_h" then some (.nums []) else (demoData 1).block s n,
      (demoData 1).grid⟩ = (cfg.bnl, .error .indexError) := by
  obtain ⟨cfg', h', -, -, p3, -, p5, p6, -⟩ := demo_setup
  rw [hs] at h'
  cases h'
  refine C139_empty_table ⟨⟨[1, 2], rfl⟩, ⟨[1, 2], rfl⟩, ⟨[0, 1], rfl⟩, ⟨[0, 1], rfl⟩⟩ rfl (z := [0, 1]) (by simp) rfl rfl fun i hi => ?_
  rw [p3] at hi
  have : i = 0 ∨ i = 1 := by omega
  unfold HmfConfig.zVec npLinspace
  rw [p3, p5, p6]
  rcases this with rfl | rfl <;> norm_num [at']

end Verif.Collect

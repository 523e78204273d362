import Verif.Props.Chain

/-! Property C96: which inputs matter in which mode.  Changing an input that is not looked at cannot change a spectrum,
whatever the formulas are. -/

namespace Verif.Inputs

open Verif.Cache Verif.SpectraDeps Verif.Chain

variable {V : Type}

/-- the seven results -/
abbrev spectra : List ℕ := [mmRaw, mm, gg, gm, mi, ii, gi]

/-- `q` reports the same for `σ` whatever value the parameter `p` is given -/
def Ignores [Inhabited V] (S : Sem V) (σ : String → V) (q : ℕ) (p : String) : Prop :=
  ∀ v, value (cls S) q (newObj (Function.update σ p v)) = value (cls S) q (newObj σ)

theorem ignores_of_not_mem [Inhabited V] {S : Sem V} {σ : String → V} {q : ℕ} {p : String}
    (h : p ∉ (den (cls S) σ q).2) : Ignores S σ q p := by
  intro v
  rw [value_new, value_new]
  rw [← den_agree (σ := σ) q fun p' hp' => ?_]
  rw [Function.update_of_ne fun e => h (by rw [← e]; exact hp')]

theorem ignores_list [Inhabited V] {S : Sem V} {σ : String → V} (l : List (Test × Bool))
    (hl : ∀ x ∈ l, outcome S σ x.1 = x.2) (qs : List ℕ) (ps : List String)
    (h : ∀ q ∈ qs, ∀ p ∈ ps, mayLook (known l) p q = false) : ∀ q ∈ qs, ∀ p ∈ ps, Ignores S σ q p :=
  fun q hq p hp => ignores_of_not_mem (not_looks (fits hl) p q (h q hq p hp))

variable [Inhabited V] (S : Sem V) (σ : String → V)

/-- C96: the settings of the stellar mass function never matter for a spectrum -/
theorem C96_observable_settings :
    ∀ q ∈ spectra, ∀ p ∈ ["obs_settings", "compute_observable"], Ignores S σ q p :=
  ignores_list [] (by simp) _ _ (by decide +kernel)

/-- C96: the satellite scatter (Poisson) model matters for galaxy clustering only -/
theorem C96_poisson_only_clustering :
    ∀ q ∈ [mmRaw, mm, gm, mi, ii, gi], ∀ p ∈ ["poisson_model", "poisson_params"], Ignores S σ q p :=
  ignores_list [] (by simp) _ _ (by decide +kernel)

/-- C96: the alignment inputs matter for the alignment spectra only -/
theorem C96_alignment_inputs :
    ∀ q ∈ [mmRaw, mm, gg, gm], ∀ p ∈ ["align_params", "one_halo_ktrunc_ia", "two_halo_ktrunc_ia", "t_eff"],
      Ignores S σ q p :=
  ignores_list [] (by simp) _ _ (by decide +kernel)

/-- C96: and the alignment spectra have their own truncation: that of the other spectra matters for them only in the
response mode -/
theorem C96_alignment_truncation (h : outcome S σ .response = false) :
    ∀ q ∈ [mi, ii, gi], ∀ p ∈ ["one_halo_ktrunc", "two_halo_ktrunc"], Ignores S σ q p :=
  ignores_list [(.response, false)] (by simp [h]) _ _ (by decide +kernel)

/-- C96: the fraction of the linear spectrum matters in the fortuna mode only -/
theorem C96_linear_fraction (h : outcome S σ .fortuna = false) : ∀ q ∈ spectra, ∀ p ∈ ["t_eff"], Ignores S σ q p :=
  ignores_list [(.fortuna, false)] (by simp [h]) _ _ (by decide +kernel)

/-- C96: in the fortuna mode the 2-halo truncation of the alignment spectra is kept -/
example : mayLook (known [(.fortuna, true), (.bnl, false)]) "two_halo_ktrunc_ia" ii = true := by decide +kernel

/-- C96: the AGN temperature matters in the feedback mode only, for every quantity but the feedback profile itself -/
theorem C96_agn_temperature (h : outcome S σ .feedback = false) :
    ∀ q ∈ (List.range 108).filter (· ≠ matterProfileFeedback), ∀ p ∈ ["log10T_AGN"], Ignores S σ q p :=
  ignores_list [(.feedback, false)] (by simp [h]) _ _ (by decide +kernel)

/-- C96: the baryonic mass scale matters with fitted profiles only, and for gm and mi also with point masses -/
theorem C96_baryon_mass_scale (h : outcome S σ .fit = false) :
    (∀ q ∈ [mmRaw, mm], ∀ p ∈ ["mb"], Ignores S σ q p) ∧
      (outcome S σ .pointmass = false → ∀ q ∈ spectra, ∀ p ∈ ["mb"], Ignores S σ q p) :=
  ⟨ignores_list [(.fit, false)] (by simp [h]) _ _ (by decide +kernel),
    fun h' => ignores_list [(.fit, false), (.pointmass, false)] (by simp [h, h']) _ _ (by decide +kernel)⟩

/-- C96: with HMcode ingredients the choices of mass definition, mass function, bias, concentration, overdensity, threshold
and bloating are ignored by everything -/
theorem C96_hmcode_overrides (h : outcome S σ .mead = true) :
    ∀ q ∈ spectra ++ [mass, dndlnm, haloBias, uDm, uSat, hod, sigma8Z],
      ∀ p ∈ ["mdef_model", "hmf_model", "bias_model", "halo_concentration_model_dm", "halo_concentration_model_sat",
        "overdensity", "delta_c", "eta_cen", "eta_sat"], Ignores S σ q p :=
  ignores_list [(.mead, true)] (by simp [h]) _ _ (by decide +kernel)

/-- C96: in the HMcode non-linear mode the truncation wavenumbers are ignored by the matter spectrum, and the dewiggling
switch by everything -/
theorem C96_hmcode_mode (h : outcome S σ .hmcode = true) (hb : outcome S σ .bnl = false) :
    (∀ q ∈ [mmRaw, mm], ∀ p ∈ ["one_halo_ktrunc", "two_halo_ktrunc"], Ignores S σ q p) ∧
      ∀ q ∈ spectra, ∀ p ∈ ["dewiggle"], Ignores S σ q p :=
  ⟨ignores_list [(.hmcode, true), (.bnl, false)] (by simp [h, hb]) _ _ (by decide +kernel),
    ignores_list [(.hmcode, true), (.bnl, false)] (by simp [h, hb]) _ _ (by decide +kernel)⟩

/-- C96: galaxies do not matter for the matter spectrum unless its profiles are fitted; even then the selection of the
galaxy sample does not -/
theorem C96_matter_without_galaxies :
    (∀ q ∈ [mmRaw, mm], ∀ p ∈ ["hod_settings", "pointmass"], Ignores S σ q p) ∧
      (outcome S σ .fit = false →
        ∀ q ∈ [mmRaw, mm], ∀ p ∈ ["hod_model", "hod_params", "hod_settings_mm"], Ignores S σ q p) :=
  ⟨ignores_list [] (by simp) _ _ (by decide +kernel),
    fun h => ignores_list [(.fit, false)] (by simp [h]) _ _ (by decide +kernel)⟩

/-- C96: the sample the matter profiles are fitted with matters for no other spectrum than matter, unless `response` is on -/
theorem C96_fitted_sample (h : outcome S σ .response = false) :
    ∀ q ∈ [gg, gm, mi, ii, gi], ∀ p ∈ ["hod_settings_mm"], Ignores S σ q p :=
  ignores_list [(.response, false)] (by simp [h]) _ _ (by decide +kernel)

/-- C96: the non-linear input spectrum matters in the response and fortuna modes only -/
theorem C96_nonlinear_input (h : outcome S σ .response = false) (hf : outcome S σ .fortuna = false) :
    ∀ q ∈ spectra, ∀ p ∈ ["matter_power_nl"], Ignores S σ q p :=
  ignores_list [(.response, false), (.fortuna, false)] (by simp [h, hf]) _ _ (by decide +kernel)

/-- C96: the non-linear halo bias matters in the `bnl` mode only -/
theorem C96_nonlinear_bias (h : outcome S σ .bnl = false) : ∀ q ∈ spectra, ∀ p ∈ ["beta_nl"], Ignores S σ q p :=
  ignores_list [(.bnl, false)] (by simp [h]) _ _ (by decide +kernel)

/-- C96: in the `bnl` mode the 2-halo truncation is ignored by all spectra -/
theorem C96_bnl_two_halo_truncation (h : outcome S σ .bnl = true) :
    ∀ q ∈ spectra, ∀ p ∈ ["two_halo_ktrunc", "two_halo_ktrunc_ia"], Ignores S σ q p :=
  ignores_list [(.bnl, true)] (by simp [h]) _ _ (by decide +kernel)

/-- C96: in the response mode with a given non-linear spectrum the matter spectrum depends on nothing but that spectrum, the
grids and the mode -/
theorem C96_response_matter (h : outcome S σ .response = true) (hn : outcome S σ .nlNone = false) (p : String)
    (hp : p ∉ ["response", "matter_power_nl", "nonlinear_mode", "z_vec", "k_vec"]) : Ignores S σ mm p :=
  ignores_of_not_mem fun hm => hp (looks_in (fits (l := [(.response, true), (.nlNone, false)]) (by simp [h, hn]))
    _ mm (by decide +kernel) p hm)

/-- C96: the halo-model ingredients depend on the cosmology, the grids and their own choices only: no spectrum input, sample,
alignment or truncation parameter can change them -/
theorem C96_ingredients (q : ℕ) (hq : q < calcBnl) (p : String)
    (hp : p ∉ ["z_vec", "h0", "omega_c", "omega_b", "w0", "wa", "n_s", "tcmb", "Neff", "m_nu", "sigma_8", "log10T_AGN",
      "hmcode_ingredients", "k_vec", "lnk_min", "lnk_max", "dlnk", "Mmin", "Mmax", "dlog10m", "mdef_model", "hmf_model",
      "bias_model", "halo_concentration_model_dm", "halo_concentration_model_sat", "halo_profile_model_dm",
      "halo_profile_model_sat", "transfer_model", "transfer_params", "growth_model", "growth_params", "norm_cen",
      "norm_sat", "eta_cen", "eta_sat", "overdensity", "delta_c"]) : Ignores S σ q p :=
  ignores_of_not_mem fun hm => hp (looks_in (fits (l := []) (by simp)) _ q
    ((show ∀ q < calcBnl, mayLookOut (known []) _ q = false by decide +kernel) q hq) p hm)

/-- these are not empty statements: the parameters named are looked at in the other modes -/
example : mayLook (known [(.mead, false), (.virial, false)]) "eta_cen" mmRaw = true ∧
    mayLook (known [(.feedback, true)]) "log10T_AGN" mmRaw = true ∧
    mayLook (known [(.fit, true)]) "mb" gm = true ∧ mayLook (known []) "poisson_params" gg = true ∧
    mayLook (known [(.bnl, true)]) "beta_nl" gg = true := by decide +kernel

example : Ignores plainSem (fun _ => 0) gg "mb" :=
  (C96_baryon_mass_scale plainSem _ rfl).2 rfl gg (by simp) "mb" (by simp)

end Verif.Inputs

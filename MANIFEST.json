{
 "claims": [
  {
   "property": "C01",
   "status": "proved",
   "theorems": [
    "Verif.Pk.C01_Im_first_wavenumber",
    "Verif.Pk.C01_large_scale_limit",
    "Verif.Pk.C01_large_scale_limit_bnl"
   ],
   "note": "Large-scale limit of the matter 2-halo term"
  },
  {
   "property": "C02",
   "status": "proved",
   "theorems": [
    "Verif.Pk.C02_profiles_normalised"
   ],
   "note": "Halo profiles are normalised to the first wavenumber"
  },
  {
   "property": "C03",
   "status": "proved",
   "theorems": [
    "Verif.Pk.C03_total_is_sum",
    "Verif.Pk.C03_total_is_sum_mm",
    "Verif.Pk.C03_response_mm",
    "Verif.Pk.C03_no_error",
    "Verif.Pk.C03_hmcode_not_sum"
   ],
   "note": "Sum law proved for gg, gm, mi, ii, gi in all modes and with response, for mm outside hmcode/response; the two remaining mm cases are settled by C03_response_mm and C03_hmcode_not_sum (the total there is the smoothed sum of C04)."
  },
  {
   "property": "C04",
   "status": "proved",
   "theorems": [
    "Verif.Pk.C04_symmetric",
    "Verif.Pk.C04_homogeneous",
    "Verif.Pk.C04_hmcode_total"
   ],
   "note": "HMcode transition smoothing"
  },
  {
   "property": "C05",
   "status": "proved",
   "theorems": [
    "Verif.Pk.C05_gg_2h_is_bias_squared",
    "Verif.Pk.C05_gg_2h_nonneg"
   ],
   "note": "Galaxy-galaxy 2-halo term is the squared galaxy bias times the linear power"
  },
  {
   "property": "C06",
   "status": "proved",
   "theorems": [
    "Verif.Pk.C06_perfect_correlation"
   ],
   "note": "On 2-halo scales galaxies and matter are perfectly correlated"
  },
  {
   "property": "C07",
   "status": "proved",
   "theorems": [
    "Verif.Pk.C07_exact_deficit",
    "Verif.Pk.C07_between",
    "Verif.Pk.C07_identity_fails"
   ],
   "note": "The identity expected of an auto-power fails (C07_identity_fails); the exact deficit and the two-sided bound are proved."
  },
  {
   "property": "C08",
   "status": "proved",
   "theorems": [
    "Verif.Pk.C08_central_alignment_exact",
    "Verif.Pk.C08_with_mass_dependence"
   ],
   "note": "Central alignment 2-halo integral reduces to the linear alignment amplitude"
  },
  {
   "property": "C09",
   "status": "proved",
   "theorems": [
    "Verif.Pk.C09_peff",
    "Verif.Pk.C09_peff_none",
    "Verif.Pk.C09_fortuna_relations",
    "Verif.Pk.C09_gi_consistent_iff",
    "Verif.Pk.C09_gi_inconsistent"
   ],
   "note": "MI/II consistency proved; GI is inconsistent by the factor f_c (C09_gi_consistent_iff, C09_gi_inconsistent)."
  },
  {
   "property": "C10",
   "status": "proved",
   "theorems": [
    "Verif.Pk.C10_zero_bias_is_plain"
   ],
   "note": "Vanishing non-linear halo bias"
  },
  {
   "property": "C11",
   "status": "proved",
   "theorems": [
    "Verif.Pk.C11_symmetric",
    "Verif.Pk.C11_linear_left",
    "Verif.Pk.C11_linear_right",
    "Verif.Pk.C11_gm_symmetric"
   ],
   "note": "Non-linear halo bias integral: symmetry and bilinearity"
  },
  {
   "property": "C12",
   "status": "proved",
   "theorems": [
    "Verif.Pk.C12_constant_factorises"
   ],
   "note": "Non-linear halo bias integral for constant beta_nl factorises"
  },
  {
   "property": "C13",
   "status": "proved",
   "theorems": [
    "Verif.Pk.C13_trapezoid",
    "Verif.Pk.C13_affine_exact",
    "Verif.Pk.C13_weights_total",
    "Verif.Pk.C13_weights_nonneg",
    "Verif.Pk.C13_order"
   ],
   "note": "Trapezoidal mass integrator"
  },
  {
   "property": "C14",
   "status": "proved",
   "theorems": [
    "Verif.Pk.C14_mm_1h_nonneg",
    "Verif.Pk.C14_ii_1h_nonneg",
    "Verif.Pk.C14_gg_1h_nonneg",
    "Verif.Pk.C14_coarse_grid_negative"
   ],
   "note": "Non-negativity on grids with step ratio <= 2 and a counterexample on a coarser grid."
  },
  {
   "property": "C15",
   "status": "proved",
   "theorems": [
    "Verif.Pk.C15_one_halo_cauchy_schwarz",
    "Verif.Pk.C15_mi_gi",
    "Verif.Pk.C15_mi_mm"
   ],
   "note": "1-halo Cauchy-Schwarz"
  },
  {
   "property": "C16",
   "status": "proved",
   "theorems": [
    "Verif.Pk.C16_alignment_signs",
    "Verif.Pk.C16_alignment_signs_fortuna"
   ],
   "note": "Signs of the alignment spectra"
  },
  {
   "property": "C17",
   "status": "proved",
   "theorems": [
    "Verif.Pk.C17_one_halo_range",
    "Verif.Pk.C17_one_halo_strictMono",
    "Verif.Pk.C17_one_halo_half",
    "Verif.Pk.C17_one_halo_none",
    "Verif.Pk.C17_ia_range",
    "Verif.Pk.C17_ia_mono",
    "Verif.Pk.C17_ia_complementary",
    "Verif.Pk.C17_ia_none"
   ],
   "note": "1-halo large-scale damping"
  },
  {
   "property": "C18",
   "status": "proved",
   "theorems": [
    "Verif.Pk.C18_range",
    "Verif.Pk.C18_antitone",
    "Verif.Pk.C18_value_ignored",
    "Verif.Pk.C18_none_switches_off"
   ],
   "note": "The 2-halo truncation wavenumber"
  },
  {
   "property": "C19",
   "status": "proved",
   "theorems": [
    "Verif.Pk.C19_one_halo_range",
    "Verif.Pk.C19_one_halo_strictMono",
    "Verif.Pk.C19_two_halo_range",
    "Verif.Pk.C19_two_halo_antitone",
    "Verif.Pk.C19_two_halo_pos_iff"
   ],
   "note": "HMcode damping factors"
  },
  {
   "property": "C20",
   "status": "proved",
   "theorems": [
    "Verif.Pk.C20_response_rescales",
    "Verif.Pk.C20_ratios_preserved",
    "Verif.Pk.C20_bias_unchanged"
   ],
   "note": "Response mode"
  },
  {
   "property": "C21",
   "status": "proved",
   "theorems": [
    "Verif.Pk.C21_gas_fraction_range",
    "Verif.Pk.C21_gas_fraction_range_agn",
    "Verif.Pk.C21_gas_fraction_strictMono",
    "Verif.Pk.C21_half_at_pivot",
    "Verif.Pk.C21_large_scale_amplitude",
    "Verif.Pk.C21_at_most_own_mass",
    "Verif.Pk.C21_massive_limit",
    "Verif.Pk.C21_agn_profile"
   ],
   "note": "Baryon budget of the feedback profile"
  },
  {
   "property": "C22",
   "status": "proved",
   "theorems": [
    "Verif.Pk.C22_documented_bound_iff",
    "Verif.Pk.C22_sign",
    "Verif.Pk.C22_fails_at_default"
   ],
   "note": "The documented bound is characterised exactly and refuted at z=3 for the default cosmology."
  },
  {
   "property": "C23",
   "status": "proved",
   "theorems": [
    "Verif.Pk.C23_default_pivot_expels_nothing",
    "Verif.Pk.C23_intended_pivot",
    "Verif.Pk.C23_default_profile"
   ],
   "note": "Units of the gas mass pivot"
  },
  {
   "property": "C24",
   "status": "proved",
   "theorems": [
    "Verif.Cache.C24_reads_are_fresh",
    "Verif.Cache.C24_straight_line",
    "Verif.Cache.C24_fresh_in_regime",
    "Verif.Cached.C24_onepower_instance"
   ],
   "note": "Fresh evaluation after any history; in the presence of branches for histories that keep the switches."
  },
  {
   "property": "C25",
   "status": "proved",
   "theorems": [
    "Verif.Cached.C25_omega_m_never_changes",
    "Verif.Cached.C25_stale_iff",
    "Verif.Cached.C25_witness"
   ],
   "note": "The property holds in the negative: omega_m is frozen at its first value for every history (law, iff and witness)."
  },
  {
   "property": "C26",
   "status": "proved",
   "theorems": [
    "Verif.Config.C26_accepted_iff",
    "Verif.Config.C26_accepted_computes",
    "Verif.Config.C26_option_takes_effect",
    "Verif.Config.C26_rejected_would_fail"
   ],
   "note": "Accepted configurations never hit an unassigned spectrum"
  },
  {
   "property": "C27",
   "status": "proved",
   "theorems": [
    "Verif.Config.C27_not_rolled_back",
    "Verif.Config.C27_object_left_broken",
    "Verif.Config.C27_setter_refusal",
    "Verif.Config.C27_successful_updates_safe"
   ],
   "note": "Proved in the negative sense of the statement: refused updates are kept; objects with only successful updates are safe."
  },
  {
   "property": "C28",
   "status": "proved",
   "theorems": [
    "Verif.Config.Ingredients.C28_hmcode_overrides",
    "Verif.Config.Ingredients.C28_hmcode_values",
    "Verif.Config.Ingredients.C28_user_values",
    "Verif.Config.Ingredients.C28_empty_grid",
    "Verif.Config.Ingredients.C28_concentration_amplitude"
   ],
   "note": "HMcode ingredients override user choices"
  },
  {
   "property": "C29",
   "status": "proved",
   "theorems": [
    "Verif.Config.Ingredients.C29_generator_eq",
    "Verif.Config.Ingredients.C29_no_leak"
   ],
   "note": "Per-redshift halo models do not leak into one another"
  },
  {
   "property": "C30",
   "status": "proved",
   "theorems": [
    "Verif.Pk.Wiggle.C30_convex_combination",
    "Verif.Pk.Wiggle.C30_unchanged",
    "Verif.Pk.Wiggle.C30_no_wiggles",
    "Verif.Pk.Wiggle.C30_nonneg"
   ],
   "note": "Dewiggled power lies between the linear and the smooth power"
  },
  {
   "property": "C31",
   "status": "proved",
   "theorems": [
    "Verif.Pk.Wiggle.C31_guard_never_fires",
    "Verif.Pk.Wiggle.C31_value_error_unreachable"
   ],
   "note": "The guard is proved unreachable for every k array of length >= 2."
  },
  {
   "property": "C32",
   "status": "proved",
   "theorems": [
    "Verif.Pk.C32_lin_shape",
    "Verif.Pk.C32_lin_shape_dewiggled",
    "Verif.Pk.C32_lin_result_shape",
    "Verif.Pk.C32_nl_shape"
   ],
   "note": "Exact acceptance conditions; with dewiggling a (n_z,1) array is accepted as well (C32_lin_shape_dewiggled)."
  },
  {
   "property": "C33",
   "status": "proved",
   "theorems": [
    "Verif.Hod.C33_counts_split",
    "Verif.Hod.C33_bias_is_mean"
   ],
   "note": "Galaxy counts split into centrals and satellites"
  },
  {
   "property": "C34",
   "status": "proved",
   "theorems": [
    "Verif.Hod.C34_fractions_inside",
    "Verif.Hod.C34_fractions_range",
    "Verif.Hod.C34_fractions_outside",
    "Verif.Pk.Spectra.C34_spectra_vanish_outside",
    "Verif.Pk.Spectra.C34_spectra_vanish_outside_response"
   ],
   "note": "Central and satellite fractions"
  },
  {
   "property": "C35",
   "status": "proved",
   "theorems": [
    "Verif.Hod.C35_cen_probability",
    "Verif.Hod.C35_opposite_average",
    "Verif.Hod.C35_sat_nonneg",
    "Verif.Hod.C35_bound_sharp"
   ],
   "note": "Central occupation is a probability"
  },
  {
   "property": "C36",
   "status": "proved",
   "theorems": [
    "Verif.Hod.C36_step_no_effect",
    "Verif.Hod.C36_erf_has_effect"
   ],
   "note": "Assembly bias of step-like centrals has no effect"
  },
  {
   "property": "C37",
   "status": "proved",
   "theorems": [
    "Verif.Hod.C37_erf_centrals",
    "Verif.Hod.C37_decorated_strictMono"
   ],
   "note": "Error-function centrals"
  },
  {
   "property": "C38",
   "status": "proved",
   "theorems": [
    "Verif.Hod.C38_no_sat_below_cutoff",
    "Verif.Hod.C38_sat_above_cutoff",
    "Verif.Hod.C38_one_sat_for_slope_zero",
    "Verif.Hod.C38_claim_fails_slope_zero"
   ],
   "note": "Zheng satellites below the cutoff mass"
  },
  {
   "property": "C39",
   "status": "proved",
   "theorems": [
    "Verif.Hod.C39_simple_needs_central",
    "Verif.Hod.C39_simple_empty_below",
    "Verif.Hod.C39_zehavi_zhai_sat_without_central"
   ],
   "note": "Satellites require a central only in the Simple model"
  },
  {
   "property": "C40",
   "status": "proved",
   "theorems": [
    "Verif.Hod.C40_centrals",
    "Verif.Hod.C40_satellites_limit"
   ],
   "note": "Zehavi is the sharp limit of Zheng"
  },
  {
   "property": "C41",
   "status": "proved",
   "theorems": [
    "Verif.Hod.CacciatoParams.C41_positive_and_pivot",
    "Verif.Hod.CacciatoParams.C41_strictMono",
    "Verif.Hod.CacciatoParams.C41_power_law_ends"
   ],
   "note": "Mean observable-halo relation"
  },
  {
   "property": "C42",
   "status": "proved",
   "theorems": [
    "Verif.Hod.C42_hod_rows",
    "Verif.Hod.C42_all_bins_iff",
    "Verif.Hod.C42_density_rows"
   ],
   "note": "Number of galaxy bins returned"
  },
  {
   "property": "C43",
   "status": "proved",
   "theorems": [
    "Verif.Pk.Spectra.C43_bias_agrees"
   ],
   "note": "Galaxy bias on large scales agrees between the spectra and the occupation model"
  },
  {
   "property": "C44",
   "status": "proved",
   "theorems": [
    "Verif.Poisson.C44_constant_is_slope_zero",
    "Verif.Poisson.C44_power_law",
    "Verif.Poisson.C44_error_iff"
   ],
   "note": "Poisson models"
  },
  {
   "property": "C45",
   "status": "proved",
   "theorems": [
    "Verif.Hod.C45_obs_func_split",
    "Verif.Hod.C45_stellar_fraction_split",
    "Verif.Hod.C45_units"
   ],
   "note": "Observable and stellar-fraction functions split into centrals and satellites"
  },
  {
   "property": "C46",
   "status": "proved",
   "theorems": [
    "Verif.Ia.C46_lookups_in_range",
    "Verif.Ia.C46_rejected",
    "Verif.Ia.C46_twelve_out_of_range"
   ],
   "note": "Multipole tables are only read inside their bounds"
  },
  {
   "property": "C47",
   "status": "proved",
   "theorems": [
    "Verif.Ia.C47_table_minus_two",
    "Verif.Ia.C47_table_zero_is_slope_one",
    "Verif.Ia.C47_table_zero_differs"
   ],
   "note": "Agreement proved for slope -2; for slope 0 the table is proved to be the slope +1 one and to differ from slope 0."
  },
  {
   "property": "C48",
   "status": "proved",
   "theorems": [
    "Verif.Ia.C48_endpoints",
    "Verif.Ia.C48_too_few",
    "Verif.Ia.C48_two_dimensional",
    "Verif.Ia.C48_length_mismatch"
   ],
   "note": "One-dimensional arrays keep the end points; a two-dimensional array with a repeated last value comes out one entry shorter than the mass (C48_length_mismatch)."
  },
  {
   "property": "C49",
   "status": "proved",
   "theorems": [
    "Verif.Ia.C49_partition",
    "Verif.Ia.C49_disjoint",
    "Verif.Ia.C49_grid_redshift"
   ],
   "note": "Luminosity redshift bins partition the sample"
  },
  {
   "property": "C50",
   "status": "proved",
   "theorems": [
    "Verif.Ia.C50_equal_slopes",
    "Verif.Ia.C50_continuous",
    "Verif.Ia.C50_mean_bounds",
    "Verif.Ia.C50_pivot_monotone"
   ],
   "note": "Double power law of the luminosity dependence"
  },
  {
   "property": "C51",
   "status": "proved",
   "theorems": [
    "Verif.Ia.C51_clip",
    "Verif.Ia.C51_nonneg",
    "Verif.Ia.C51_flat_core",
    "Verif.Ia.C51_core_continuous",
    "Verif.Ia.C51_truncation",
    "Verif.Ia.C51_below_power_law"
   ],
   "note": "Radial satellite alignment profile"
  },
  {
   "property": "C52",
   "status": "proved",
   "theorems": [
    "Verif.Ia.C52_options",
    "Verif.Ia.C52_pivot",
    "Verif.Ia.C52_centrals",
    "Verif.Ia.C52_satellites",
    "Verif.Ia.C52_luminosity"
   ],
   "note": "Alignment amplitude decision logic"
  },
  {
   "property": "C53",
   "status": "proved",
   "theorems": [
    "Verif.Ia.C53_overwrites",
    "Verif.Ia.C53_idempotent",
    "Verif.Ia.C53_shared"
   ],
   "note": "Alignment parameters are overwritten in place"
  },
  {
   "property": "C54",
   "status": "proved",
   "theorems": [
    "Verif.Bnl.C54_clamped",
    "Verif.Bnl.C54_idempotent",
    "Verif.Bnl.C54_length",
    "Verif.Bnl.C54_emulator_in_range",
    "Verif.Bnl.C54_parameters",
    "Verif.Bnl.C54_parameters_sigma8"
   ],
   "note": "Cosmology is clamped into the emulator range"
  },
  {
   "property": "C55",
   "status": "proved",
   "theorems": [
    "Verif.Bnl.C55_fill",
    "Verif.Bnl.C55_once"
   ],
   "note": "The non-linear bias table is filled with the right entries"
  },
  {
   "property": "C56",
   "status": "proved",
   "theorems": [
    "Verif.Bnl.C56_symmetric",
    "Verif.Bnl.C56_unequal_grids",
    "Verif.Bnl.C56_bnl_symmetric"
   ],
   "note": "The computed non-linear bias table is symmetric in the two masses"
  },
  {
   "property": "C57",
   "status": "proved",
   "theorems": [
    "Verif.Bnl.C57_complementary",
    "Verif.Bnl.C57_monotone",
    "Verif.Bnl.C57_shape"
   ],
   "note": "Low-k and high-k truncations of the bias are complementary"
  },
  {
   "property": "C58",
   "status": "proved",
   "theorems": [
    "Verif.Bnl.C58_extrema",
    "Verif.Bnl.C58_chunks",
    "Verif.Bnl.C58_monotone_empty"
   ],
   "note": "Envelope indices are extrema"
  },
  {
   "property": "C59",
   "status": "proved",
   "theorems": [
    "Verif.Add.C59_mixing",
    "Verif.Add.C59_pure_populations",
    "Verif.Add.C59_no_second_model",
    "Verif.Add.C59_fractions",
    "Verif.Add.C59_single_population",
    "Verif.Add.C59_broadcast"
   ],
   "note": "Mixing two populations"
  },
  {
   "property": "C60",
   "status": "proved",
   "theorems": [
    "Verif.Add.C60_self_mixing"
   ],
   "note": "Combining a population with itself"
  },
  {
   "property": "C61",
   "status": "proved",
   "theorems": [
    "Verif.Add.C61_nodes",
    "Verif.Add.C61_linear",
    "Verif.Add.C61_fill_not_additive",
    "Verif.Add.C61_bounds"
   ],
   "note": "Upsampling reproduces the input grid and preserves sums"
  },
  {
   "property": "C62",
   "status": "proved",
   "theorems": [
    "Verif.Add.C62_frozen",
    "Verif.Add.C62_stale",
    "Verif.Add.C62_new_grid_fails",
    "Verif.Add.C62_witness"
   ],
   "note": "Upsampled results after an update are stale"
  },
  {
   "property": "C63",
   "status": "proved",
   "theorems": [
    "Verif.Add.C63_absent",
    "Verif.Add.C63_last_call_only"
   ],
   "note": "results() keeps the last requested components only"
  },
  {
   "property": "C64",
   "status": "proved",
   "theorems": [
    "Verif.Background.C64_scale_factor",
    "Verif.Background.C64_today",
    "Verif.Background.C64_matter_fraction",
    "Verif.Background.C64_growth_equation",
    "Verif.Background.C64_einstein_de_sitter",
    "Verif.Background.C64_initial_slope",
    "Verif.Background.C64_accumulated_eds",
    "Verif.Background.C64_accumulated_bound"
   ],
   "note": "Background functions"
  },
  {
   "property": "C65",
   "status": "proved",
   "theorems": [
    "Verif.Background.C65_einstein_de_sitter",
    "Verif.Background.C65_threshold_bounds",
    "Verif.Background.C65_neutrinos"
   ],
   "note": "Einstein-de Sitter limit of the HMcode collapse fits"
  },
  {
   "property": "C66",
   "status": "proved",
   "theorems": [
    "Verif.Interface.C66_schedule",
    "Verif.Interface.C66_age",
    "Verif.Interface.C66_zero_interval",
    "Verif.Interface.C66_never_none",
    "Verif.Interface.C66_failure_no_trace"
   ],
   "note": "Schedule for every history, age below the interval, interval 0, no missing table, failures leave no trace."
  },
  {
   "property": "C67",
   "status": "proved",
   "theorems": [
    "Verif.Interface.C67_always_fails",
    "Verif.Interface.C67_key_error",
    "Verif.Interface.C67_setup_fails",
    "Verif.Interface.C67_alignment_file_accepted"
   ],
   "note": "The claim is that the option never works; also shown: it is accepted for alignment samples without galaxy spectra."
  },
  {
   "property": "C68",
   "status": "proved",
   "theorems": [
    "Verif.Interface.C68_exchanged",
    "Verif.Interface.C68_values",
    "Verif.Interface.C68_amplitudes"
   ],
   "note": "Proved as the code behaves: the options are exchanged."
  },
  {
   "property": "C69",
   "status": "proved",
   "theorems": [
    "Verif.Interface.C69_second_sample_ignored",
    "Verif.Interface.C69_same_output"
   ],
   "note": "Proved as the code behaves: the second sample has no effect."
  },
  {
   "property": "C70",
   "status": "proved",
   "theorems": [
    "Verif.RealSpace.C70_product",
    "Verif.RealSpace.C70_correct_iff",
    "Verif.RealSpace.C70_same_cosmology",
    "Verif.RealSpace.C70_inverse",
    "Verif.RealSpace.C70_errors"
   ],
   "note": "The product behaviour is proved, with the exact condition under which it is right."
  },
  {
   "property": "C71",
   "status": "proved",
   "theorems": [
    "Verif.RealSpace.C71_nodes",
    "Verif.RealSpace.C71_positive",
    "Verif.RealSpace.C71_negative",
    "Verif.RealSpace.C71_fallback",
    "Verif.RealSpace.C71_power_law"
   ],
   "note": "Includes exact power laws of either sign and extrapolation."
  },
  {
   "property": "C72",
   "status": "proved",
   "theorems": [
    "Verif.RealSpace.C72_setup",
    "Verif.RealSpace.C72_preserves",
    "Verif.RealSpace.C72_idempotent",
    "Verif.RealSpace.C72_composition",
    "Verif.RealSpace.C72_round_trip",
    "Verif.RealSpace.C72_bad_input"
   ],
   "note": "Input units other than the four angles and two aliases are refused (simplification: astropy knows some more)."
  },
  {
   "property": "C73",
   "status": "proved",
   "theorems": [
    "Verif.Interface.C73_no_collision",
    "Verif.Interface.C73_one_bin",
    "Verif.Interface.C73_count"
   ],
   "note": "Spectra sections only; HOD sections are named by the user."
  },
  {
   "property": "C74",
   "status": "proved",
   "theorems": [
    "Verif.Cached.C74_agn_update_ignored",
    "Verif.Cached.C74_witness"
   ],
   "note": "Negation proved (under the documented hmf indexing contract): K ignores log10T_AGN after feedback is switched on by update."
  },
  {
   "property": "C75",
   "status": "proved",
   "theorems": [
    "Verif.Ia.C75_histogram_normalised",
    "Verif.Ia.C75_empty_bin",
    "Verif.Ia.C75_simpson_not_normalised"
   ],
   "note": "Normalisation of the histogram proved; failure of the Simpson normalisation proved for every pair of distinct luminosities and for empty bins."
  },
  {
   "property": "C76",
   "status": "proved",
   "theorems": [
    "Verif.Ia.C76_angular_integral",
    "Verif.Ia.C76_angular_factor",
    "Verif.Ia.C76_gj",
    "Verif.Ia.C76_iX"
   ],
   "note": "Angular factors are the integrals they stand for"
  },
  {
   "property": "C77",
   "status": "proved",
   "theorems": [
    "Verif.Ia.C77_monopole_ignored",
    "Verif.Ia.C77_nonneg_homogeneous"
   ],
   "note": "Satellite alignment profile ignores the monopole"
  },
  {
   "property": "C78",
   "status": "proved",
   "theorems": [
    "Verif.Background.C78_acceleration"
   ],
   "note": "Acceleration and expansion rate belong to one universe"
  },
  {
   "property": "C79",
   "status": "proved",
   "theorems": [
    "Verif.Bnl.C79_sigma8_matched",
    "Verif.Bnl.C79_amplitude_preferred",
    "Verif.Bnl.C79_out_of_range"
   ],
   "note": "The emulator amplitude matches the requested sigma_8"
  },
  {
   "property": "C80",
   "status": "proved",
   "theorems": [
    "Verif.Bnl.C80_linear_limit",
    "Verif.Bnl.C80_needs_three_maxima",
    "Verif.Bnl.C80_smooth_fails",
    "Verif.Bnl.C80_shot_noise_range",
    "Verif.Bnl.C80_shot_noise_shift",
    "Verif.Bnl.C80_noise_removed",
    "Verif.Bnl.C80_noise_in_bias"
   ],
   "note": "The non-linear bias vanishes on linear scales and can be computed for every spectrum"
  },
  {
   "property": "C81",
   "status": "proved",
   "theorems": [
    "Verif.Bnl.C81_rvir",
    "Verif.Bnl.C81_rvir_monotone",
    "Verif.Bnl.C81_minimum_mass",
    "Verif.Bnl.C81_mass_nodes_increasing"
   ],
   "note": "Halo sizes used by the non-linear bias"
  },
  {
   "property": "C82",
   "status": "proved",
   "theorems": [
    "Verif.Bnl.C82_nearest",
    "Verif.Bnl.C82_node",
    "Verif.Bnl.C82_bnl"
   ],
   "note": "Lookup of the non-linear bias table"
  },
  {
   "property": "C83",
   "status": "proved",
   "theorems": [
    "Verif.Interface.C83_saving_fails",
    "Verif.Interface.C83_bins_saved"
   ],
   "note": "Names written and failures; the values are C34-C46 results passed through."
  },
  {
   "property": "C84",
   "status": "proved",
   "theorems": [
    "Verif.Interface.C84_default_fails",
    "Verif.Interface.C84_known_options",
    "Verif.Interface.C84_failures"
   ],
   "note": "Values, exact failures and the default."
  },
  {
   "property": "C85",
   "status": "proved",
   "theorems": [
    "Verif.Interface.C85_per_bin",
    "Verif.Interface.C85_needs_all",
    "Verif.Interface.C85_alignment_only",
    "Verif.Interface.C85_cacciato"
   ],
   "note": "Exact success condition; order of the bins; Cacciato independent of the bin count."
  },
  {
   "property": "C86",
   "status": "proved",
   "theorems": [
    "Verif.Interface.C86_positive",
    "Verif.Interface.C86_nodes",
    "Verif.Interface.C86_power_law",
    "Verif.Interface.C86_bounds",
    "Verif.Interface.C86_amplitude"
   ],
   "note": "Includes extrapolation for power laws."
  },
  {
   "property": "C87",
   "status": "proved",
   "theorems": [
    "Verif.Interface.C87_redshifts",
    "Verif.Interface.C87_wavenumbers"
   ],
   "note": "Exact refusal condition."
  },
  {
   "property": "C88",
   "status": "proved",
   "theorems": [
    "Verif.Interface.C88_one_covering_bin",
    "Verif.Interface.C88_succeeds"
   ],
   "note": "Samples given by options (no file); the file case is C67."
  },
  {
   "property": "C89",
   "status": "proved",
   "theorems": [
    "Verif.Interface.C89_mass_grid",
    "Verif.Interface.C89_zero_points"
   ],
   "note": "Exact arithmetic; with rounding `np.arange` can yield one point more."
  },
  {
   "property": "C90",
   "status": "proved",
   "theorems": [
    "Verif.Interface.C90_suffix_ignored"
   ],
   "note": "Proved as the code behaves."
  },
  {
   "property": "C91",
   "status": "proved",
   "theorems": [
    "Verif.Interface.C91_flag",
    "Verif.Interface.C91_unrequested_output"
   ],
   "note": "Section names; the values are those of the default settings (Model/Config)."
  },
  {
   "property": "C92",
   "status": "proved",
   "theorems": [
    "Verif.RealSpace.C92_amplitude",
    "Verif.RealSpace.C92_kernel_linear",
    "Verif.RealSpace.C92_outside_ignored",
    "Verif.RealSpace.C92_no_overlap",
    "Verif.RealSpace.C92_superadditive",
    "Verif.RealSpace.C92_not_additive",
    "Verif.RealSpace.C92_bins",
    "Verif.RealSpace.C92_shared_spectrum"
   ],
   "note": "The FFTLog matrix is a parameter here; C104_linear shows that pyfftlog's transform is one."
  },
  {
   "property": "C93",
   "status": "proved",
   "theorems": [
    "Verif.RealSpace.C93_wavenumbers",
    "Verif.RealSpace.C93_separations",
    "Verif.RealSpace.C93_range",
    "Verif.RealSpace.C93_shifted",
    "Verif.RealSpace.C93_not_dual"
   ],
   "note": "Proved as the code behaves: the grid is shifted by one step."
  },
  {
   "property": "C94",
   "status": "proved",
   "theorems": [
    "Verif.Chain.C94_parameters_of_the_call",
    "Verif.Chain.C94_call_independent_of_history",
    "Verif.Chain.C94_alignment_stage_independent",
    "Verif.Chain.C94_never_use_omega_m",
    "Verif.Chain.C94_spectra_without_omega_m"
   ],
   "note": "Under the regime hypotheses spelled out as `Regular` (switches not changed within a chain, as in the interface, where they come from setup)."
  },
  {
   "property": "C95",
   "status": "proved",
   "theorems": [
    "Verif.Cache.C95_object_consistent",
    "Verif.Cache.C95_frozen_at_first_use",
    "Verif.Chain.C95_feedback_uses_omega_m",
    "Verif.Chain.C95_fit_uses_omega_m",
    "Verif.Chain.C95_pointmass_uses_omega_m",
    "Verif.Chain.C95_bnl_uses_omega_m",
    "Verif.Chain.C95_matter_response",
    "Verif.Chain.C95_chain_law",
    "Verif.Chain.C95_stale_iff",
    "Verif.Chain.C95_second_call_stale"
   ],
   "note": "Proved as the code behaves: the chain law is exact (C95_stale_iff) and the failure is witnessed."
  },
  {
   "property": "C96",
   "status": "proved",
   "theorems": [
    "Verif.Inputs.C96_observable_settings",
    "Verif.Inputs.C96_poisson_only_clustering",
    "Verif.Inputs.C96_alignment_inputs",
    "Verif.Inputs.C96_alignment_truncation",
    "Verif.Inputs.C96_linear_fraction",
    "Verif.Inputs.C96_agn_temperature",
    "Verif.Inputs.C96_baryon_mass_scale",
    "Verif.Inputs.C96_hmcode_overrides",
    "Verif.Inputs.C96_hmcode_mode",
    "Verif.Inputs.C96_matter_without_galaxies",
    "Verif.Inputs.C96_fitted_sample",
    "Verif.Inputs.C96_nonlinear_input",
    "Verif.Inputs.C96_nonlinear_bias",
    "Verif.Inputs.C96_bnl_two_halo_truncation",
    "Verif.Inputs.C96_response_matter",
    "Verif.Inputs.C96_ingredients"
   ],
   "note": "Exact statements per theorem; matter profile with feedback always looks at log10T_AGN and is therefore excluded from C96_agn_temperature."
  },
  {
   "property": "C97",
   "status": "proved",
   "theorems": [
    "Verif.Pk.C97_matter",
    "Verif.Pk.C97_galaxies",
    "Verif.Pk.C97_galaxies_matter",
    "Verif.Pk.C97_plain_weight",
    "Verif.Pk.C97_feedback_weight",
    "Verif.Pk.C97_fit_weight",
    "Verif.Pk.C97_alignments",
    "Verif.Pk.C97_inl",
    "Verif.Pk.C97_nonlinear_bias",
    "Verif.Pk.C97_hmcode",
    "Verif.Pk.C97_occupied",
    "Verif.Pk.C97_missing_mass_profile"
   ],
   "note": "Truncations of the 1- and 2-halo terms are factors of their own (C17, C18). The fractions of centrals and satellites equal the ratios of densities at nodes of the sample (C97_occupied)."
  },
  {
   "property": "C98",
   "status": "proved",
   "theorems": [
    "Verif.Cache.C98_unknown_inputs_ignored",
    "Verif.Cache.C98_fresh_when_switching",
    "Verif.ModeChange.C98_modes_are_safe",
    "Verif.ModeChange.C98_feedback_after_read",
    "Verif.ModeChange.C98_hmcode_before_read",
    "Verif.ModeChange.C98_baryons_after_read",
    "Verif.ModeChange.C98_linear_input_dropped",
    "Verif.ModeChange.C98_one_is_stale",
    "Verif.ModeChange.C98_feedback_stale"
   ],
   "note": "Safe for conditions other than the two switches only if they come out the same at every read; profiles, point masses and beta_nl must not bring in omega_m (C95 covers that)."
  },
  {
   "property": "C99",
   "status": "proved",
   "theorems": [
    "Verif.Hod.CacciatoParams.C99_central_total",
    "Verif.Hod.CacciatoParams.C99_central_bin",
    "Verif.Hod.CacciatoParams.C99_median",
    "Verif.Hod.CacciatoParams.C99_central_mean",
    "Verif.Hod.CacciatoParams.C99_satellite_total",
    "Verif.Hod.CacciatoParams.C99_satellite_mean",
    "Verif.Hod.CacciatoParams.C99_satellite_normalisation",
    "Verif.Hod.CacciatoParams.C99_separate",
    "Verif.Hod.C99_per_dex",
    "Verif.Hod.C99_zhai_cutoff"
   ],
   "note": "total, median, mean and bins of centrals; total and mean of satellites; normalisation; separation of parameters; per-dex units; Zhai cutoff"
  },
  {
   "property": "C100",
   "status": "proved",
   "theorems": [
    "Verif.Convergence.C100_error_bound",
    "Verif.Convergence.C100_simpson_converges",
    "Verif.Convergence.C100_mass_grid",
    "Verif.Convergence.C100_observable_grid",
    "Verif.Convergence.C100_matter_spectrum",
    "Verif.Convergence.C100_occupation",
    "Verif.Hod.CacciatoParams.C100_centrals_converge",
    "Verif.Hod.CacciatoParams.C100_satellites_converge"
   ],
   "note": "error bound, general limit, both grids, matter spectra, occupation integrals, occupations of a bin"
  },
  {
   "property": "C101",
   "status": "proved",
   "theorems": [
    "Verif.Hod.C101_mean_mass_range",
    "Verif.Hod.C101_one_mass",
    "Verif.Hod.C101_not_normalised",
    "Verif.Pk.C101_mass_avg",
    "Verif.Pk.C101_mass_avg_iff",
    "Verif.Pk.C101_alignment_scaling",
    "Verif.Pk.C101_outside",
    "Verif.Pk.C101_below_smallest"
   ],
   "note": "range, single mass, not normalised, factor f_c and its consequence for the alignment scaling, witness below the smallest mass, outside the sample range"
  },
  {
   "property": "C102",
   "status": "proved",
   "theorems": [
    "Verif.Ia.C102_hankel_nodes",
    "Verif.Ia.C102_hankel_power_law",
    "Verif.Ia.C102_hankel_range",
    "Verif.Ia.C102_fftlog_nodes",
    "Verif.Ia.C102_fftlog_negative_small",
    "Verif.Ia.C102_fftlog_negative_large",
    "Verif.Pk.C102_spectrum_sign"
   ],
   "note": "nodes, power laws and range of the hankel branch; nodes and negative extrapolation of the fftlog branch; sign of the spectra"
  },
  {
   "property": "C103",
   "status": "proved",
   "theorems": [
    "Verif.Ia.C103_mnfw",
    "Verif.Ia.C103_truncated_normalised",
    "Verif.Ia.C103_first_redshift",
    "Verif.Ia.C103_untruncated_diverges",
    "Verif.Ia.C103_methods_agree"
   ],
   "note": "NFW mass, normalisation if and only if R = c r_s, first-redshift radius, divergence without truncation, both methods equal the same integral (ideal transforms, slope 0 for the normalisation)"
  },
  {
   "property": "C104",
   "status": "proved",
   "theorems": [
    "Verif.FftLog.C104_roundtrip",
    "Verif.FftLog.C104_singular",
    "Verif.FftLog.C104_low_ringing",
    "Verif.FftLog.C104_unbiased",
    "Verif.FftLog.C104_modes",
    "Verif.FftLog.C104_linear",
    "Verif.FftLog.C104_separation",
    "Verif.FftLog.C104_separation_wrong",
    "Verif.FftLog.C104_fftl_not_inverse",
    "Verif.FftLog.C104_double_pole_fails"
   ],
   "note": "round trips (biased, unbiased, singular), low ringing, self-inverse and Parseval, exact transform of log-periodic modes, shifted separations with a witness at every separation, linearity (discharges IsMatrix of C92), fftl not inverse, ValueError at double poles. The Mellin transform of the Bessel function is taken as the specification."
  },
  {
   "property": "C105",
   "status": "proved",
   "theorems": [
    "Verif.Interface.C105_table",
    "Verif.Interface.C105_same_setup",
    "Verif.Interface.C105_example_ignored",
    "Verif.Interface.C105_parts",
    "Verif.Interface.C105_bins",
    "Verif.Interface.C105_file",
    "Verif.Interface.C105_none_values",
    "Verif.Interface.C105_suffix",
    "Verif.Interface.C105_alignment_names",
    "Verif.Interface.C105_emulator",
    "Verif.Interface.C105_redshifts",
    "Verif.Interface.C105_missing_defaults",
    "Verif.Interface.C105_documented_values",
    "Verif.Interface.C105_assembly_bias"
   ],
   "note": "table of names and defaults, ignored options of the example file, bins, files, None values, suffixes, alignment names, emulator, redshifts, missing defaults, refused documented values."
  },
  {
   "property": "C106",
   "status": "proved",
   "theorems": [
    "Verif.Ogata.C106_accepted",
    "Verif.Ogata.C106_settings",
    "Verif.Ogata.C106_same_options",
    "Verif.Ogata.C106_hankel",
    "Verif.Ogata.C106_hankel_exact",
    "Verif.Ogata.C106_linear",
    "Verif.Ogata.C106_units",
    "Verif.Ogata.C106_negative_tail",
    "Verif.Ogata.C106_separations",
    "Verif.Ogata.C106_lensing_density",
    "Verif.Ogata.C106_bins",
    "Verif.Ogata.C106_shared_spectrum",
    "Verif.Ogata.C106_next_module"
   ],
   "note": "The quality of the quadrature itself (package hankel) is a hypothesis: an error bound for the integrand at hand."
  },
  {
   "property": "C107",
   "status": "proved",
   "theorems": [
    "Verif.Modules.C107_plain_section",
    "Verif.Modules.C107_suffix_section",
    "Verif.Modules.C107_default_names",
    "Verif.Modules.C107_suffixes",
    "Verif.Modules.C107_mismatch",
    "Verif.Modules.C107_one_bin",
    "Verif.Modules.C107_chain"
   ],
   "note": "The spectra themselves are arbitrary; C97 and others say what they are."
  },
  {
   "property": "C108",
   "status": "proved",
   "theorems": [
    "Verif.PkChecked.C108_agrees",
    "Verif.PkChecked.C108_mm",
    "Verif.PkChecked.C108_gg",
    "Verif.PkChecked.C108_gm",
    "Verif.PkChecked.C108_mi",
    "Verif.PkChecked.C108_ii",
    "Verif.PkChecked.C108_gi",
    "Verif.PkChecked.C108_mm_hmcode",
    "Verif.PkChecked.C108_mm_hmcode_ok",
    "Verif.PkChecked.C108_response",
    "Verif.PkChecked.C108_densities_pos",
    "Verif.PkChecked.C108_no_satellites"
   ],
   "note": "Invalid operations inside hmf, halomod and the interpolators are not covered; rounding and overflow are not modelled."
  },
  {
   "property": "C109",
   "status": "proved",
   "theorems": [
    "Verif.Saved.C109_succeeds",
    "Verif.Saved.C109_same_section",
    "Verif.Saved.C109_frame",
    "Verif.Saved.C109_matter",
    "Verif.Saved.C109_samples",
    "Verif.Saved.C109_observable",
    "Verif.Saved.C109_spectra",
    "Verif.Saved.C109_sums",
    "Verif.Saved.C109_radius_mass",
    "Verif.Saved.C109_radius_iff",
    "Verif.Saved.C109_radius_mean",
    "Verif.Saved.C109_radius_critical",
    "Verif.Saved.C109_radius_mead",
    "Verif.Saved.C109_mean_density",
    "Verif.Saved.C109_critical_density"
   ],
   "note": "CosmoSIS rules for put, put_grid and assignment, and the hmf/halomod relations of radius, overdensity and mean density are assumed as stated in Model/Saved; names are compared case-sensitively."
  },
  {
   "property": "C110",
   "status": "proved",
   "theorems": [
    "Verif.IaChecked.C110_profile_agrees",
    "Verif.IaChecked.C110_angular",
    "Verif.IaChecked.C110_profile",
    "Verif.IaChecked.C110_radial",
    "Verif.IaChecked.C110_multipole",
    "Verif.IaChecked.C110_mean",
    "Verif.IaChecked.C110_broken",
    "Verif.IaChecked.C110_faint",
    "Verif.IaChecked.C110_amplitudes"
   ],
   "note": "gamma(0) = inf in a denominator counts as invalid although inf would turn into 0 there; this affects no statement, since an invalid numerator occurs at the same slopes for every multipole from 1 on. Overflow is not modelled."
  },
  {
   "property": "C111",
   "status": "proved",
   "theorems": [
    "Verif.HodRounded.C111_density",
    "Verif.HodRounded.C111_fraction",
    "Verif.HodRounded.C111_bias",
    "Verif.PkRounded.C111_simpson",
    "Verif.PkRounded.C111_mm",
    "Verif.PkRounded.C111_gg",
    "Verif.PkRounded.C111_gm",
    "Verif.PkRounded.C111_missing_mass",
    "Verif.PkRounded.C111_alignment",
    "Verif.PkRounded.C111_alignment_integrals",
    "Verif.PkRounded.C111_mi",
    "Verif.PkRounded.C111_ii",
    "Verif.PkRounded.C111_gi",
    "Verif.PkRounded.C111_double_precision",
    "Verif.PkRounded.C111_damping_lost"
   ],
   "note": "no overflow or underflow; decimal constants are taken as exact; matter profile without feedback; default treatment of non-linearities."
  },
  {
   "property": "C112",
   "status": "proved",
   "theorems": [
    "Verif.Hod.C112_file",
    "Verif.Hod.C112_one_row",
    "Verif.Hod.C112_file_only",
    "Verif.Hod.C112_bins",
    "Verif.Hod.C112_missing_limit",
    "Verif.Hod.C112_needs_key",
    "Verif.Hod.C112_defaults",
    "Verif.Hod.C112_file_is_bin",
    "Verif.Hod.C112_increasing",
    "Verif.Hod.C112_row_order"
   ],
   "note": "the parsing of numbers from text and a file without rows are not modelled; observables in the file are positive."
  },
  {
   "property": "C113",
   "status": "proved",
   "theorems": [
    "Verif.Ogata.C113_orders",
    "Verif.Ogata.C113_ogata",
    "Verif.Ogata.C113_fftlog",
    "Verif.Ogata.C113_fftlog_bins"
   ],
   "note": "the sum of the package hankel enters through its error on the spectrum at hand; FFTLog on its class of exact inputs (C104)."
  },
  {
   "property": "C114",
   "status": "proved",
   "theorems": [
    "Verif.Likelihood.C114_chi2",
    "Verif.Likelihood.C114_both_modules",
    "Verif.Likelihood.C114_maximum",
    "Verif.Likelihood.C114_covariance_too_large",
    "Verif.Likelihood.C114_listing_order",
    "Verif.Likelihood.C114_up_to_nine_files",
    "Verif.Likelihood.C114_ten_files",
    "Verif.Likelihood.C114_interpolate",
    "Verif.Likelihood.C114_integrate",
    "Verif.Likelihood.C114_edges",
    "Verif.Likelihood.C114_integrate_unit",
    "Verif.Likelihood.C114_execute",
    "Verif.Likelihood.C114_errors",
    "Verif.Likelihood.C114_theory",
    "Verif.Likelihood.C114_gaussian"
   ],
   "note": "what setup computes and never uses (errors, correlations, normalisation) is left out; astropy's unit is a factor; data files have at least two rows."
  },
  {
   "property": "C115",
   "status": "proved",
   "theorems": [
    "Verif.ColdMatter.C115_ratio_bounds",
    "Verif.ColdMatter.C115_ratio_mono",
    "Verif.ColdMatter.C115_ratio_small_scales",
    "Verif.ColdMatter.C115_ratio_few_neutrinos",
    "Verif.ColdMatter.C115_window",
    "Verif.ColdMatter.C115_sigma",
    "Verif.ColdMatter.C115_cold_sigma",
    "Verif.ColdMatter.C115_collapse",
    "Verif.ColdMatter.C115_collapse_order"
   ],
   "note": "the three methods are marked as currently unused in the source. The tolerance of root_scalar is ignored. What the docstring of sigmaR_cc calls variance is its square root."
  },
  {
   "property": "C116",
   "status": "proved",
   "theorems": [
    "Verif.HodChecked.C116_values",
    "Verif.HodChecked.C116_always",
    "Verif.HodChecked.C116_zheng_satellites",
    "Verif.HodChecked.C116_cacciato_cen",
    "Verif.HodChecked.C116_cacciato_sat",
    "Verif.HodChecked.C116_cacciato_occupation",
    "Verif.HodChecked.C116_zheng_density",
    "Verif.HodChecked.C116_ratios",
    "Verif.HodChecked.C116_spectra",
    "Verif.HodChecked.C116_no_galaxies",
    "Verif.HodChecked.C116_simple_threshold_above_grid",
    "Verif.HodChecked.C116_cacciato_all_numbers"
   ],
   "note": "infinite values and nan are one element, and no operation leads back from it to a number. With an infinite density of satellites (Zheng, negative slope) the code's f_c is finite / inf = 0, which this model does not tell from nan; the theorems make no statement on f_c there. np.interp at a node next to a bad node is not distinguished either."
  },
  {
   "property": "C117",
   "status": "proved",
   "theorems": [
    "Verif.LegacyPk.C117_inl",
    "Verif.LegacyPk.C117_inl_same_profile",
    "Verif.LegacyPk.C117_inl_symmetric",
    "Verif.LegacyPk.C117_mm",
    "Verif.LegacyPk.C117_neutrino",
    "Verif.LegacyPk.C117_gg",
    "Verif.LegacyPk.C117_gm",
    "Verif.LegacyPk.C117_point_mass",
    "Verif.LegacyPk.C117_gi",
    "Verif.LegacyPk.C117_ii",
    "Verif.LegacyPk.C117_mi",
    "Verif.LegacyPk.C117_ii_parts",
    "Verif.LegacyPk.C117_mi_parts",
    "Verif.LegacyPk.C117_mass_avg",
    "Verif.LegacyPk.C117_runs",
    "Verif.LegacyPk.C117_galaxies_alone",
    "Verif.LegacyPk.C117_alignment_instance",
    "Verif.LegacyPk.C117_same"
   ],
   "note": "the legacy ingredients (interpolations, log-log interpolation of wkm, load_hods) are inputs; missing block entries are not modelled. The dewiggled linear spectrum is an input of both."
  },
  {
   "property": "C118",
   "status": "proved",
   "theorems": [
    "Verif.LegacyHod.C118_occupations",
    "Verif.LegacyHod.C118_runs",
    "Verif.LegacyHod.C118_runs_per_bin",
    "Verif.LegacyHod.C118_stops",
    "Verif.LegacyHod.C118_execute",
    "Verif.LegacyHod.C118_loaded",
    "Verif.LegacyHod.C118_bias",
    "Verif.LegacyHod.C118_mass_avg",
    "Verif.LegacyHod.C118_mass_avg_same_iff",
    "Verif.LegacyHod.C118_fstar_mm",
    "Verif.LegacyHod.C118_obs_func",
    "Verif.LegacyHod.C118_mean_relation",
    "Verif.LegacyHod.C118_simple",
    "Verif.LegacyHod.C118_setup",
    "Verif.LegacyHod.C118_parameters",
    "Verif.LegacyHod.C118_step_models",
    "Verif.LegacyHod.C118_chain",
    "Verif.LegacyHod.C118_spectra",
    "Verif.LegacyHod.C118_alignment",
    "Verif.LegacyHod.C118_no_loop"
   ],
   "note": "the file of observables and the pickled mass limits of setup, and the mode obs_onebin, are not modelled. The limits of the extended grid are given (legacy: extremes of z_bins and obs_simps; rewritten: extremes of the options, the same if zmin <= zmax and obs_min <= obs_max). The bilinear RegularGridInterpolator is an assumed contract."
  },
  {
   "property": "C119",
   "status": "proved",
   "theorems": [
    "Verif.LegacyAdd.C119_sign",
    "Verif.LegacyAdd.C119_setup",
    "Verif.LegacyAdd.C119_runs",
    "Verif.LegacyAdd.C119_execute",
    "Verif.LegacyAdd.C119_new",
    "Verif.LegacyAdd.C119_constant_fraction",
    "Verif.LegacyAdd.C119_nodes",
    "Verif.LegacyAdd.C119_difference",
    "Verif.LegacyAdd.C119_outside",
    "Verif.LegacyAdd.C119_interface"
   ],
   "note": "shapes that numpy would broadcast (an axis of length 1) count as unequal; lower() of names is left out; extrapolate_nan is never called."
  },
  {
   "property": "C120",
   "status": "proved",
   "theorems": [
    "Verif.LegacyIa.C120_amplitudes",
    "Verif.LegacyIa.C120_pivots",
    "Verif.LegacyIa.C120_slopes",
    "Verif.LegacyIa.C120_multipoles",
    "Verif.LegacyIa.C120_sum",
    "Verif.LegacyIa.C120_downsample",
    "Verif.LegacyIa.C120_downsample_agree",
    "Verif.LegacyIa.C120_radial_runs",
    "Verif.LegacyIa.C120_radial",
    "Verif.LegacyIa.C120_upsampled",
    "Verif.LegacyIa.C120_angular"
   ],
   "note": "The Hankel transform, the histogram, Simpson's rule and the grid interpolation are the same external contracts on both sides. The option output_suffix only renames sections and is left out."
  },
  {
   "property": "C121",
   "status": "proved",
   "theorems": [
    "Verif.PredictObservable.C121_setup",
    "Verif.PredictObservable.C121_counts",
    "Verif.PredictObservable.C121_bins",
    "Verif.PredictObservable.C121_unweighted",
    "Verif.PredictObservable.C121_redshift",
    "Verif.PredictObservable.C121_weighted",
    "Verif.PredictObservable.C121_fine_grid",
    "Verif.PredictObservable.C121_weighted_first_redshift",
    "Verif.PredictObservable.C121_weighted_ignores_redshifts",
    "Verif.PredictObservable.C121_default_suffix",
    "Verif.PredictObservable.C121_volume",
    "Verif.PredictObservable.C121_redshift_limits",
    "Verif.PredictObservable.C121_distribution"
   ],
   "note": "The table of one suffix is assumed to be written with matching shapes; np.loadtxt, ast.literal_eval and astropy are external."
  },
  {
   "property": "C122",
   "status": "proved",
   "theorems": [
    "Verif.CorrelatedPriors.C122_factor_unique",
    "Verif.CorrelatedPriors.C122_setup",
    "Verif.CorrelatedPriors.C122_runs",
    "Verif.CorrelatedPriors.C122_values",
    "Verif.CorrelatedPriors.C122_too_many_outputs",
    "Verif.CorrelatedPriors.C122_triangular",
    "Verif.CorrelatedPriors.C122_covariance"
   ],
   "note": "np.linalg.cholesky is an external contract (lower triangle, positive diagonal, exception if there is no factor), shown to determine the result."
  },
  {
   "property": "C123",
   "status": "proved",
   "theorems": [
    "Verif.ScaleCuts.C123_mean",
    "Verif.ScaleCuts.C123_data_and_covariance",
    "Verif.ScaleCuts.C123_kept",
    "Verif.ScaleCuts.C123_no_exception",
    "Verif.ScaleCuts.C123_bins",
    "Verif.ScaleCuts.C123_bins_of_absent_statistic",
    "Verif.ScaleCuts.C123_setup_runs",
    "Verif.ScaleCuts.C123_data_and_theory",
    "Verif.ScaleCuts.C123_theory_statistics",
    "Verif.ScaleCuts.C123_data_statistics",
    "Verif.ScaleCuts.C123_statistic_without_theory",
    "Verif.ScaleCuts.C123_covariance_order",
    "Verif.ScaleCuts.C123_covariance_size",
    "Verif.ScaleCuts.C123_cut_cross",
    "Verif.ScaleCuts.C123_options_with_underscore",
    "Verif.ScaleCuts.C123_theory_order",
    "Verif.ScaleCuts.C123_mock",
    "Verif.ScaleCuts.C123_mock_one_point",
    "Verif.ScaleCuts.C123_mock_two",
    "Verif.ScaleCuts.C123_covariance_usable",
    "Verif.ScaleCuts.C123_pairs",
    "Verif.ScaleCuts.C123_last_option"
   ],
   "note": "full; the FITS input is taken as the lists that from_fits builds, and int, float and split are parameters"
  },
  {
   "property": "C124",
   "status": "proved",
   "theorems": [
    "Verif.LegacyBnl.C124_constant_fit",
    "Verif.LegacyBnl.C124_compute",
    "Verif.LegacyBnl.C124_compute_empty",
    "Verif.LegacyBnl.C124_interpolation",
    "Verif.LegacyBnl.C124_fill",
    "Verif.LegacyBnl.C124_parameters",
    "Verif.LegacyBnl.C124_same",
    "Verif.LegacyBnl.C124_class_axes",
    "Verif.LegacyBnl.C124_no_table",
    "Verif.LegacyBnl.C124_delete",
    "Verif.LegacyBnl.C124_stale",
    "Verif.LegacyBnl.C124_always_update",
    "Verif.LegacyBnl.C124_update_zero",
    "Verif.LegacyBnl.C124_failures",
    "Verif.LegacyBnl.C124_masses",
    "Verif.LegacyBnl.C124_class_table",
    "Verif.LegacyBnl.C124_other_grid"
   ],
   "note": "curve_fit is any function that attains the least sum of squares"
  },
  {
   "property": "C125",
   "status": "proved",
   "theorems": [
    "Verif.LegacyIngredients.C125_user",
    "Verif.LegacyIngredients.C125_mass_function",
    "Verif.LegacyIngredients.C125_mead_centrals",
    "Verif.LegacyIngredients.C125_mead_satellites",
    "Verif.LegacyIngredients.C125_no_temperature",
    "Verif.LegacyIngredients.C125_scale_radius_user",
    "Verif.LegacyIngredients.C125_scale_radius_mead",
    "Verif.LegacyIngredients.C125_background",
    "Verif.LegacyIngredients.C125_matter",
    "Verif.LegacyIngredients.C125_class_interface",
    "Verif.LegacyIngredients.C125_concentration_mead"
   ],
   "note": "settings of the halo model objects and what is computed from them by hand; halomod's own computation is external"
  },
  {
   "property": "C126",
   "status": "proved",
   "theorems": [
    "Verif.AddShared.C126_no_interference",
    "Verif.AddShared.C126_follows_model",
    "Verif.AddShared.C126_value",
    "Verif.AddShared.C126_second_stays",
    "Verif.AddShared.C126_first_parameters_ignored",
    "Verif.AddShared.C126_interface",
    "Verif.AddShared.C126_witness"
   ],
   "note": "construction, update and spectra of a halo model are arbitrary functions; that hmf's parameter setter stores the object and not a copy is assumed"
  },
  {
   "property": "C127",
   "status": "proved",
   "theorems": [
    "Verif.IaCache.C127_assignment_ignored",
    "Verif.IaCache.C127_amplitude_refreshes",
    "Verif.IaCache.C127_slope_refreshes",
    "Verif.IaCache.C127_fresh",
    "Verif.IaCache.C127_fresh_without_assignment",
    "Verif.IaCache.C127_options_ignored",
    "Verif.IaCache.C127_central_option",
    "Verif.IaCache.C127_satellite_option",
    "Verif.IaCache.C127_method",
    "Verif.IaCache.C127_one_is_stale",
    "Verif.IaCache.C127_beta_two_stale",
    "Verif.IaCache.C127_angles_stale"
   ],
   "note": "what is computed from the values read is arbitrary; the hmf cache contract is assumed; reads that raise are not claimed"
  },
  {
   "property": "C128",
   "status": "proved",
   "theorems": [
    "Verif.TwoPointFits.C128_number_density",
    "Verif.TwoPointFits.C128_one_point_rows",
    "Verif.TwoPointFits.C128_one_point",
    "Verif.TwoPointFits.C128_one_point_uneven",
    "Verif.TwoPointFits.C128_covariance_rest",
    "Verif.TwoPointFits.C128_covariance",
    "Verif.TwoPointFits.C128_error",
    "Verif.TwoPointFits.C128_mock_covariance",
    "Verif.TwoPointFits.C128_spectrum_rows",
    "Verif.TwoPointFits.C128_spectrum",
    "Verif.TwoPointFits.C128_cut_pair_counts",
    "Verif.TwoPointFits.C128_cut",
    "Verif.TwoPointFits.C128_log_mid",
    "Verif.TwoPointFits.C128_metadata",
    "Verif.TwoPointFits.C128_number_density_sound",
    "Verif.TwoPointFits.C128_cut_together",
    "Verif.TwoPointFits.C128_codes",
    "Verif.TwoPointFits.C128_metadata_not_written"
   ],
   "note": "astropy stores what it is given and fills short columns with zeros (assumed); window type CLBP left out"
  },
  {
   "property": "C129",
   "status": "proved",
   "theorems": [
    "Verif.TwoPointOps.C129_sample_covariance",
    "Verif.TwoPointOps.C129_sample_correlation",
    "Verif.TwoPointOps.C129_jackknife",
    "Verif.TwoPointOps.C129_subsample",
    "Verif.TwoPointOps.C129_first_realisation",
    "Verif.TwoPointOps.C129_order",
    "Verif.TwoPointOps.C129_order_not_by_bins",
    "Verif.TwoPointOps.C129_reorder",
    "Verif.TwoPointOps.C129_reorder_one_point",
    "Verif.TwoPointOps.C129_mask_bad",
    "Verif.TwoPointOps.C129_index",
    "Verif.TwoPointOps.C129_index_after_cut",
    "Verif.TwoPointOps.C129_get_nobs",
    "Verif.TwoPointOps.C129_angular_bins",
    "Verif.TwoPointOps.C129_units",
    "Verif.TwoPointOps.C129_edges",
    "Verif.TwoPointOps.C129_builder_spectra",
    "Verif.TwoPointOps.C129_builder",
    "Verif.TwoPointOps.C129_builder_two_names",
    "Verif.TwoPointOps.C129_builder_one_name",
    "Verif.TwoPointOps.C129_builder_one_point_covariance"
   ],
   "note": "label of a spectrum stands for kernels and types; unit sizes are positive parameters"
  },
  {
   "property": "C130",
   "status": "proved",
   "theorems": [
    "Verif.BnlCache.C130_fresh",
    "Verif.BnlCache.C130_sigma8_first",
    "Verif.BnlCache.C130_sigma8_ignored",
    "Verif.BnlCache.C130_repair",
    "Verif.BnlCache.C130_depends"
   ],
   "note": "hmf cache contract as in Lib/HmfCache; reads while neither amplitude is given (ValueError) are excluded"
  },
  {
   "property": "C131",
   "status": "proved",
   "theorems": [
    "Verif.InputFiles.C131_no_output",
    "Verif.InputFiles.C131_first_turn",
    "Verif.InputFiles.C131_with_name",
    "Verif.InputFiles.C131_shifted",
    "Verif.InputFiles.C131_all_counted",
    "Verif.InputFiles.C131_fractions",
    "Verif.InputFiles.C131_red_share",
    "Verif.InputFiles.C131_bins",
    "Verif.InputFiles.C131_limit",
    "Verif.InputFiles.C131_table",
    "Verif.InputFiles.C131_tables_named",
    "Verif.InputFiles.C131_tables_cover"
   ],
   "note": "figures are left out; the 4-byte table format is not modelled"
  },
  {
   "property": "C132",
   "status": "proved",
   "theorems": [
    "Verif.Benchmark.C132_clean",
    "Verif.Benchmark.C132_nobs_stays",
    "Verif.Benchmark.C132_session",
    "Verif.Benchmark.C132_results",
    "Verif.Benchmark.C132_noted",
    "Verif.Benchmark.C132_named_tests_return",
    "Verif.Benchmark.C132_smf_needs_step",
    "Verif.Benchmark.C132_order",
    "Verif.Benchmark.C132_order_nobs",
    "Verif.Benchmark.C132_all_three",
    "Verif.Benchmark.C132_create",
    "Verif.Benchmark.C132_trapezoid_error",
    "Verif.Benchmark.C132_same_limit",
    "Verif.Benchmark.C132_integrands",
    "Verif.Benchmark.C132_negative_correction",
    "Verif.Benchmark.C132_first_wavenumber"
   ],
   "note": ""
  },
  {
   "property": "C133",
   "status": "proved",
   "theorems": [
    "Verif.HodRows.C133_row_numbers",
    "Verif.HodRows.C133_occupations",
    "Verif.HodRows.C133_densities",
    "Verif.HodRows.C133_supported",
    "Verif.HodRows.C133_scalars",
    "Verif.HodRows.C133_wrong_length",
    "Verif.HodRows.C133_one_bin",
    "Verif.HodRows.C133_total",
    "Verif.HodRows.C133_fractions",
    "Verif.HodRows.C133_defaults"
   ],
   "note": ""
  },
  {
   "property": "C134",
   "status": "proved",
   "theorems": [
    "Verif.LiveSpectra.C134_new_object",
    "Verif.LiveSpectra.C134_live",
    "Verif.LiveSpectra.C134_terms",
    "Verif.LiveSpectra.C134_switching",
    "Verif.LiveSpectra.C134_mixed_fractions"
   ],
   "note": ""
  },
  {
   "property": "C135",
   "status": "proved",
   "theorems": [
    "Verif.Units.C135_mm",
    "Verif.Units.C135_gg",
    "Verif.Units.C135_gm",
    "Verif.Units.C135_mi",
    "Verif.Units.C135_ii",
    "Verif.Units.C135_gi",
    "Verif.Units.C135_built_in_cut",
    "Verif.Units.C135_built_in_hmcode",
    "Verif.Units.C135_built_in_mass",
    "Verif.Units.C135_step",
    "Verif.Units.C135_zheng",
    "Verif.Units.C135_zhai",
    "Verif.Units.C135_cacciato",
    "Verif.Units.C135_obs_func",
    "Verif.Units.C135_occupation"
   ],
   "note": ""
  },
  {
   "property": "C136",
   "status": "proved",
   "theorems": [
    "Verif.Sampling.C136_mm",
    "Verif.Sampling.C136_gg",
    "Verif.Sampling.C136_gm",
    "Verif.Sampling.C136_mi",
    "Verif.Sampling.C136_ii",
    "Verif.Sampling.C136_gi",
    "Verif.Sampling.C136_zheng",
    "Verif.Sampling.C136_zhai",
    "Verif.Sampling.C136_cacciato",
    "Verif.Sampling.C136_occupation",
    "Verif.Sampling.C136_threshold_flat",
    "Verif.Sampling.C136_threshold_jump",
    "Verif.Sampling.C136_scatter_limit"
   ],
   "note": ""
  },
  {
   "property": "C137",
   "status": "proved",
   "theorems": [
    "Verif.LegacyRead.C137_read",
    "Verif.LegacyRead.C137_same_power",
    "Verif.LegacyRead.C137_nodes",
    "Verif.LegacyRead.C137_unchecked",
    "Verif.LegacyRead.C137_bias_grid",
    "Verif.LegacyRead.C137_profile_redshift"
   ],
   "note": ""
  },
  {
   "property": "C138",
   "status": "proved",
   "theorems": [
    "Verif.EndToEnd.C138_saved",
    "Verif.EndToEnd.C138_this_call",
    "Verif.EndToEnd.C138_history",
    "Verif.EndToEnd.C138_completes",
    "Verif.EndToEnd.C138_exact",
    "Verif.EndToEnd.C138_ends",
    "Verif.EndToEnd.C138_parameters"
   ],
   "note": ""
  },
  {
   "property": "C139",
   "status": "proved",
   "theorems": [
    "Verif.Collect.C139_complete",
    "Verif.Collect.C139_names",
    "Verif.Collect.C139_scalars",
    "Verif.Collect.C139_tables",
    "Verif.Collect.C139_samples",
    "Verif.Collect.C139_listens",
    "Verif.Collect.C139_documented",
    "Verif.Collect.C139_cosmology",
    "Verif.Collect.C139_regime",
    "Verif.Collect.C139_before",
    "Verif.Collect.C139_saved",
    "Verif.Collect.C139_pure",
    "Verif.Collect.C139_table",
    "Verif.Collect.C139_options",
    "Verif.Collect.C139_alignment_samples",
    "Verif.Collect.C139_empty_table"
   ],
   "note": ""
  },
  {
   "property": "C140",
   "status": "proved",
   "theorems": [
    "Verif.Pk.Spectra.C140_linear",
    "Verif.Pk.Spectra.C140_quadratic",
    "Verif.Pk.Spectra.C140_common_factor",
    "Verif.Pk.Spectra.C140_power",
    "Verif.Pk.Spectra.C140_response",
    "Verif.Pk.Spectra.C140_poisson",
    "Verif.Pk.Spectra.C140_subsample",
    "Verif.IaChain.C140_parameters",
    "Verif.IaChain.C140_sign_lost",
    "Verif.IaChain.C140_one_sided_cap"
   ],
   "note": ""
  },
  {
   "property": "C141",
   "status": "proved",
   "theorems": [
    "Verif.Background.C141_unique",
    "Verif.Background.C141_growing",
    "Verif.Background.C141_rate",
    "Verif.Background.C141_suppressed",
    "Verif.Background.C141_lower",
    "Verif.Background.C141_range",
    "Verif.Background.C141_threshold",
    "Verif.Background.C141_einstein_de_sitter",
    "Verif.Background.C141_formation"
   ],
   "note": "Exact solution of the differential equation; the error of solve_ivp and of interp1d is not modelled. The neutrino fraction and the matter fraction with radiation used by dc_Mead are free parameters."
  },
  {
   "property": "C142",
   "status": "proved",
   "theorems": [
    "Verif.Hod.C142_published_bias",
    "Verif.Hod.C142_published_mass",
    "Verif.Hod.C142_order",
    "Verif.Hod.C142_fewer",
    "Verif.Hod.C142_centrals",
    "Verif.Hod.C142_satellite_slope",
    "Verif.Hod.C142_satellite_cut",
    "Verif.Hod.C142_satellite_normalisation",
    "Verif.Hod.C142_rescaled",
    "Verif.Hod.C142_threshold_sample",
    "Verif.Hod.C142_brighter",
    "Verif.Hod.C142_zehavi_can_fall"
   ],
   "note": "Halo bias is assumed not to fall with mass (it comes from a fit outside the library). Centrals of the smooth and observable-bin models are treated without assembly bias."
  },
  {
   "property": "C143",
   "status": "proved",
   "theorems": [
    "Verif.Likelihood.C143_aligned",
    "Verif.Likelihood.C143_sizes",
    "Verif.Likelihood.C143_sizes_outside",
    "Verif.Likelihood.C143_next_bin",
    "Verif.Likelihood.C143_last_bin",
    "Verif.Likelihood.C143_only_arrays",
    "Verif.Likelihood.C143_lists",
    "Verif.Likelihood.C143_chi2",
    "Verif.Likelihood.C143_correlation",
    "Verif.Likelihood.C143_likenorm"
   ],
   "note": "The module's setup passes exclude=None; the property is about its functions. The normalisation is compared with the normal density for independent errors."
  },
  {
   "property": "C144",
   "status": "proved",
   "theorems": [
    "Verif.Pk.Dewiggle.C144_positive",
    "Verif.Pk.Dewiggle.C144_envelope",
    "Verif.Pk.Dewiggle.C144_smooth_unchanged",
    "Verif.Pk.Dewiggle.C144_local",
    "Verif.Pk.Dewiggle.C144_wiggles_sum_to_zero",
    "Verif.Pk.Dewiggle.C144_amplitude",
    "Verif.Pk.Dewiggle.C144_coarse_grid",
    "Verif.Pk.Dewiggle.C144_read_positive",
    "Verif.Pk.Dewiggle.C144_legacy_transfer",
    "Verif.Pk.Dewiggle.C144_legacy_same",
    "Verif.Pk.Dewiggle.C144_legacy_short",
    "Verif.Pk.Dewiggle.C144_sound_horizon",
    "Verif.Pk.Dewiggle.C144_bell"
   ],
   "note": "scipy's gaussian_filter1d is modelled from its documented definition; hmf's no-wiggle transfer function stays arbitrary."
  },
  {
   "property": "C145",
   "status": "proved",
   "theorems": [
    "Verif.Pk.ProfileOrder.C145_matter",
    "Verif.Pk.ProfileOrder.C145_galaxies",
    "Verif.Pk.ProfileOrder.C145_alignments",
    "Verif.Pk.ProfileOrder.C145_matter_bound",
    "Verif.Pk.ProfileOrder.C145_galaxy_bound"
   ],
   "note": "the beta_nl mode is excluded (the sign of beta_nl is free); in hmcode mode the ordering needs the two-halo damping to be non-negative (C19 says when)"
  },
  {
   "property": "C146",
   "status": "proved",
   "theorems": [
    "Verif.DictParams.C146_own_dictionaries",
    "Verif.DictParams.C146_dictionaries_untouched",
    "Verif.DictParams.C146_last_entry",
    "Verif.DictParams.C146_rewritten_dictionary_ignored",
    "Verif.DictParams.C146_update_leaks",
    "Verif.DictParams.C146_empty_update",
    "Verif.DictParams.C146_leftovers_harmless",
    "Verif.DictParams.C146_leftovers_used"
   ],
   "note": "conditional on hmf's setter merging dictionaries in place (section 4)"
  },
  {
   "property": "C147",
   "status": "proved",
   "theorems": [
    "Verif.Pk.Feedback.C147_matter",
    "Verif.Pk.Feedback.C147_tracers",
    "Verif.Pk.Feedback.C147_strict",
    "Verif.Pk.Feedback.C147_suppression_bound",
    "Verif.Pk.Feedback.C147_suppression_bound_tracers",
    "Verif.Pk.Feedback.C147_gas_only",
    "Verif.Pk.Feedback.C147_stars_rise"
   ],
   "note": "response = False; profiles fixed, the AGN dependence of the concentration is C28"
  },
  {
   "property": "C148",
   "status": "proved",
   "theorems": [
    "Verif.Accuracy.C148_relative_error",
    "Verif.Accuracy.C148_third_order",
    "Verif.Accuracy.C148_top_cell",
    "Verif.Accuracy.C148_configured_range",
    "Verif.Accuracy.C148_matter",
    "Verif.Accuracy.C148_number_density",
    "Verif.Accuracy.C148_bias",
    "Verif.Accuracy.C148_shapes_one_halo",
    "Verif.Accuracy.C148_shapes_two_halo",
    "Verif.Accuracy.C148_matter_two_halo",
    "Verif.Accuracy.C148_galaxies",
    "Verif.Accuracy.C148_galaxies_matter"
   ],
   "note": "matter, galaxy and galaxy-matter spectra outside the bnl and hmcode modes; alignment spectra have the same integrals, their limit is C100"
  },
  {
   "property": "C149",
   "status": "proved",
   "theorems": [
    "Verif.Pk.Correlation.C149_galaxies_matter",
    "Verif.Pk.Correlation.C149_shot_noise",
    "Verif.Pk.Correlation.C149_matter_shapes",
    "Verif.Pk.Correlation.C149_galaxy_shapes",
    "Verif.Pk.Correlation.C149_without_shot_noise",
    "Verif.Pk.Correlation.C149_too_few_pairs"
   ],
   "note": "totals in modes none and fortuna only; in hmcode mode the matter total is smoothed and in bnl mode the two-halo parts are not products"
  },
  {
   "property": "C150",
   "status": "proved",
   "theorems": [
    "Verif.TwoPointPairs.C150_table",
    "Verif.TwoPointPairs.C150_pairs",
    "Verif.TwoPointPairs.C150_cut",
    "Verif.TwoPointPairs.C150_cuts",
    "Verif.TwoPointPairs.C150_old_pairs",
    "Verif.TwoPointPairs.C150_old_pairs_harmless",
    "Verif.TwoPointPairs.C150_half_cut",
    "Verif.TwoPointPairs.C150_one_point",
    "Verif.TwoPointPairs.C150_edges",
    "Verif.TwoPointPairs.C150_mixed_edges",
    "Verif.TwoPointPairs.C150_number_density"
   ],
   "note": "legacy code; cut_bin_pair is a method of the measurement and leaves the covariance of the file alone"
  },
  {
   "property": "C151",
   "status": "proved",
   "theorems": [
    "Verif.Pk.ErrorPropagation.C151_matter",
    "Verif.Pk.ErrorPropagation.C151_matter_two_halo",
    "Verif.Pk.ErrorPropagation.C151_galaxies",
    "Verif.Pk.ErrorPropagation.C151_galaxies_matter",
    "Verif.Pk.ErrorPropagation.C151_samples",
    "Verif.Pk.ErrorPropagation.C151_shapes_one_halo",
    "Verif.Pk.ErrorPropagation.C151_shapes_two_halo"
   ],
   "note": "plain matter modes for mm; gg and gm for every mode but bnl; factors for the occupation are common to centrals and satellites"
  },
  {
   "property": "C152",
   "status": "proved",
   "theorems": [
    "Verif.Pk.Tracers.C152_tracers",
    "Verif.Pk.Tracers.C152_large_scale_bias"
   ],
   "note": "matter in the modes with the plain matter profile; at wavenumbers where the relation holds"
  },
  {
   "property": "C153",
   "status": "proved",
   "theorems": [
    "Verif.InterpAccuracy.C153_between_nodes",
    "Verif.InterpAccuracy.C153_beyond_nodes",
    "Verif.InterpAccuracy.C153_sharp",
    "Verif.InterpAccuracy.C153_wavenumbers",
    "Verif.InterpAccuracy.C153_input_power",
    "Verif.InterpAccuracy.C153_upsampled",
    "Verif.InterpAccuracy.C153_number_density",
    "Verif.InterpAccuracy.C153_bias",
    "Verif.InterpAccuracy.C153_fractions",
    "Verif.InterpAccuracy.C153_halo_mass"
   ],
   "note": "exact arithmetic; the number density, mass integrals, fractions and biases for bins whose redshifts are inside those of the halo model; upsampled spectra inside the coarse grid"
  },
  {
   "property": "C154",
   "status": "proved",
   "theorems": [
    "Verif.ScaleCuts.C154_theory_names",
    "Verif.ScaleCuts.C154_renamed",
    "Verif.ScaleCuts.C154_spelling",
    "Verif.ScaleCuts.C154_default_names",
    "Verif.ScaleCuts.C154_source",
    "Verif.ScaleCuts.C154_b_modes"
   ],
   "note": "legacy module; options of type string; files that configparser cannot read are not modelled"
  },
  {
   "property": "C155",
   "status": "proved",
   "theorems": [
    "Verif.Pk.Samples.C155_galaxies_matter",
    "Verif.Pk.Samples.C155_galaxies",
    "Verif.Pk.Samples.C155_bounds",
    "Verif.Pk.Samples.C155_alignments_matter",
    "Verif.Pk.Samples.C155_alignments",
    "Verif.Pk.Samples.C155_galaxies_alignments"
   ],
   "note": "without nonlinear halo bias and without response; the Poisson function and the stellar fraction are common to both samples; alignments of both kinds only without dependence on the mean halo mass"
  },
  {
   "property": "C156",
   "status": "proved",
   "theorems": [
    "Verif.BinSplit.C156_same_spacing",
    "Verif.BinSplit.C156_many_points",
    "Verif.BinSplit.C156_accuracy",
    "Verif.BinSplit.C156_decorated",
    "Verif.BinSplit.C156_more_than_one",
    "Verif.BinSplit.C156_together"
   ],
   "note": "the parts share halos and redshifts"
  },
  {
   "property": "C157",
   "status": "proved",
   "theorems": [
    "Verif.Pk.Locality.C157_entries",
    "Verif.Pk.Locality.C157_keep_first",
    "Verif.Pk.Locality.C157_drop_first",
    "Verif.Pk.Locality.C157_sample_kept",
    "Verif.Pk.Locality.C157_sample_dropped"
   ],
   "note": "the linear and nonlinear input power are arrays here; dewiggling mixes wavenumbers (C144), and so do the alignment profiles outside their own wavenumbers (C102)"
  },
  {
   "property": "C158",
   "status": "proved",
   "theorems": [
    "Verif.Pk.SmallScales.C158_matter",
    "Verif.Pk.SmallScales.C158_no_stars",
    "Verif.Pk.SmallScales.C158_floor",
    "Verif.Pk.SmallScales.C158_hmcode",
    "Verif.Pk.SmallScales.C158_galaxies_matter",
    "Verif.Pk.SmallScales.C158_galaxies",
    "Verif.Pk.SmallScales.C158_galaxies_bnl",
    "Verif.Pk.SmallScales.C158_shapes",
    "Verif.Pk.SmallScales.C158_alignments"
   ],
   "note": "gg in bnl mode and mi in fortuna mode are not stated; alignment profiles are kept fixed, since they are separate arrays"
  },
  {
   "property": "C159",
   "status": "proved",
   "theorems": [
    "Verif.MoreSatellites.C159_parameters",
    "Verif.MoreSatellites.C159_counts",
    "Verif.Pk.MoreSatellites.C159_galaxies_matter",
    "Verif.Pk.MoreSatellites.C159_galaxies",
    "Verif.Pk.MoreSatellites.C159_one_halo_rises",
    "Verif.Pk.MoreSatellites.C159_one_halo_falls"
   ],
   "note": "the mean mass of halos that enters alignments changes as well and is not followed here"
  },
  {
   "property": "C160",
   "status": "proved",
   "theorems": [
    "Verif.Pk.MassRange.C160_resolved",
    "Verif.Pk.MassRange.C160_one_halo",
    "Verif.Pk.MassRange.C160_two_halo",
    "Verif.Pk.MassRange.C160_galaxies_matter",
    "Verif.Pk.MassRange.C160_galaxies",
    "Verif.Pk.MassRange.C160_counts"
   ],
   "note": "two-halo terms of matter without beyond-linear bias and HMCode mode; the division point is shared by both parts"
  },
  {
   "property": "C161",
   "status": "proved",
   "theorems": [
    "Verif.Pk.Modes.C161_same",
    "Verif.Pk.Modes.C161_one_halo",
    "Verif.Pk.Modes.C161_hmcode_matter",
    "Verif.Pk.Modes.C161_hmcode_correlation",
    "Verif.Pk.Modes.C161_fortuna",
    "Verif.Pk.Modes.C161_bnl",
    "Verif.Pk.Modes.C161_response"
   ],
   "note": "ingredients are held fixed: a user who changes the mode may change them too; the strict inequality of HMcode needs the matter integral to be one and no two-halo truncation"
  },
  {
   "property": "C162",
   "status": "proved",
   "theorems": [
    "Verif.Pk.ReportedBias.C162_mode_blind",
    "Verif.Pk.ReportedBias.C162_ratios",
    "Verif.Pk.ReportedBias.C162_square_root",
    "Verif.Pk.ReportedBias.C162_response"
   ],
   "note": "a negative bias is left out: the code takes the square root of a negative number for lensing (C108)"
  },
  {
   "property": "C163",
   "status": "proved",
   "theorems": [
    "Verif.Pk.PointMass.C163_untouched",
    "Verif.Pk.PointMass.C163_halo",
    "Verif.Pk.PointMass.C163_spectra",
    "Verif.Pk.PointMass.C163_first_wavenumber",
    "Verif.Pk.PointMass.C163_vanished"
   ],
   "note": "where some halos gain and others lose at a wavenumber, the sign of the sum is not stated"
  },
  {
   "property": "C164",
   "status": "proved",
   "theorems": [
    "Verif.Pk.BnlBounds.C164_order",
    "Verif.Pk.BnlBounds.C164_bound",
    "Verif.Pk.BnlBounds.C164_sharp"
   ],
   "note": "the bound uses the trapezoid rule of I_NL, the plain term Simpson's rule"
  },
  {
   "property": "C165",
   "status": "proved",
   "theorems": [
    "Verif.Pk.Truncation.C165_reach",
    "Verif.Pk.Truncation.C165_one_halo",
    "Verif.Pk.Truncation.C165_two_halo",
    "Verif.Pk.Truncation.C165_alignments",
    "Verif.Pk.Truncation.C165_response"
   ],
   "note": "a value of zero, which divides by zero in the code, is excluded"
  },
  {
   "property": "C166",
   "status": "proved",
   "theorems": [
    "Verif.Pk.MassDependence.C166_rescaling",
    "Verif.Pk.MassDependence.C166_ignored",
    "Verif.Pk.MassDependence.C166_pivot",
    "Verif.Pk.MassDependence.C166_factor"
   ],
   "note": "the power law with a negative base is the real-power convention of the model; the pivot theorem asks for a nonnegative mean mass"
  },
  {
   "property": "C167",
   "status": "proved",
   "theorems": [
    "Verif.Pk.PoissonFactor.C167_reach",
    "Verif.Pk.PoissonFactor.C167_affine",
    "Verif.Pk.PoissonFactor.C167_monotone",
    "Verif.Pk.PoissonFactor.C167_power_law",
    "Verif.Pk.PoissonFactor.C167_tilt"
   ],
   "note": "the inequalities are for a grid of masses on which Simpson's rule has nonnegative weights and for nonnegative halos and galaxies"
  },
  {
   "property": "C168",
   "status": "proved",
   "theorems": [
    "Verif.Pk.GrowthNormalisation.C168_amplitude",
    "Verif.Pk.GrowthNormalisation.C168_normalisation",
    "Verif.Pk.GrowthNormalisation.C168_frozen"
   ],
   "note": "the growth factor itself comes from hmf and is an input of the model"
  }
 ]
}
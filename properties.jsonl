{"id": "C01", "title": "Large-scale limit of the matter 2-halo term", "statement": "At the smallest tabulated wavenumber the matter 2-halo integral equals exactly 1, so Spectra.power_spectrum_mm.pk_2h there equals the linear power spectrum times the 2-halo damping factor (plain halo model), whatever mass range, mass function or bias relation is used.", "quantifier": "all mass grids, mass functions, bias functions, mean densities (non-zero), linear spectra, redshifts and halo profiles that do not vanish at the smallest k", "why_tests_cant": "A unit test fixes one mass grid, one fitting function and one cosmology; the claim is that the missing-mass correction cancels the quadrature error for every grid and every mass function.", "anchors": ["src/onepower/pk.py:Spectra.Im_term", "src/onepower/pk.py:Spectra.compute_A_term", "src/onepower/pk.py:Spectra.compute_Im_term", "src/onepower/pk.py:Spectra._power_spectrum_mm", "src/onepower/hmi.py:HaloModelIngredients.u_dm"]}
{"id": "C02", "title": "Halo profiles are normalised to the first wavenumber", "statement": "u_dm and u_sat equal 1 at the first entry of k_vec for every redshift and mass at which the raw profile is non-zero, and the ratio between any two wavenumbers equals that of the raw profile.", "quantifier": "all raw profile tables, all redshift and mass indices", "why_tests_cant": "Tests look at shapes or a handful of values of one profile model.", "anchors": ["src/onepower/hmi.py:HaloModelIngredients.u_dm", "src/onepower/hmi.py:HaloModelIngredients.u_sat"]}
{"id": "C03", "title": "Total power is the sum of the 1-halo and 2-halo parts", "statement": "For gg, gm, mi, ii and gi, in every non-linear mode and with or without the response rescaling, pk_tot = pk_1h + pk_2h; for mm it holds whenever nonlinear_mode is not 'hmcode' and response is off. With response on, mm returns zero 1-halo and 2-halo parts and pk_tot = the supplied non-linear power.", "quantifier": "all configurations (mode, ingredients, response, truncation settings), all inputs and all (bin, z, k)", "why_tests_cant": "The number of mode/ingredient/response combinations times the array contents is unbounded; the sum is assembled in different branches in each spectrum.", "anchors": ["src/onepower/pk.py:Spectra._power_spectrum_mm", "src/onepower/pk.py:Spectra.power_spectrum_mm", "src/onepower/pk.py:Spectra.power_spectrum_gg", "src/onepower/pk.py:Spectra.power_spectrum_gm", "src/onepower/pk.py:Spectra.power_spectrum_mi", "src/onepower/pk.py:Spectra.power_spectrum_ii", "src/onepower/pk.py:Spectra.power_spectrum_gi"]}
{"id": "C04", "title": "HMcode transition smoothing", "statement": "For nonlinear_mode='hmcode' the total matter power is symmetric in the two terms, is never below either of them, equals their sum when the smoothing exponent is 1, is at least the sum when the exponent is below 1, at most the sum when it is above 1, and scales linearly when both terms are scaled.", "quantifier": "all non-negative 1-halo and 2-halo powers, all k>0, all effective spectral indices", "why_tests_cant": "It is an inequality between real powers over a continuum of exponents and powers.", "anchors": ["src/onepower/pk.py:Spectra.transition_smoothing"]}
{"id": "C05", "title": "Galaxy-galaxy 2-halo term is the squared galaxy bias times the linear power", "statement": "Outside the 'bnl' mode and without response, power_spectrum_gg.pk_2h = galaxy_linear_bias^2 * P_lin * damping, hence it is non-negative whenever P_lin and the damping are.", "quantifier": "all occupation profiles, masses, mass functions, biases, spectra, indices", "why_tests_cant": "Holds for arbitrary arrays; tests only check array shapes.", "anchors": ["src/onepower/pk.py:Spectra.power_spectrum_gg", "src/onepower/pk.py:Spectra.Ic_term", "src/onepower/pk.py:Spectra.Is_term"]}
{"id": "C06", "title": "On 2-halo scales galaxies and matter are perfectly correlated", "statement": "Outside 'bnl' and 'hmcode' modes and without response, pk_2h of gm squared equals pk_2h of gg times pk_2h of mm, for every bin, redshift and wavenumber.", "quantifier": "all inputs and indices", "why_tests_cant": "An algebraic identity between three differently coded spectra for all array contents.", "anchors": ["src/onepower/pk.py:Spectra.power_spectrum_gg", "src/onepower/pk.py:Spectra.power_spectrum_gm", "src/onepower/pk.py:Spectra._power_spectrum_mm"]}
{"id": "C07", "title": "Intrinsic-intrinsic 2-halo term and the central-satellite cross term", "statement": "If the II 2-halo term were the auto-power of the field whose cross-power with matter is MI, then pk_2h(ii)*pk_2h(mm) = pk_2h(mi)^2 (with equal damping). The code counts the central-satellite term once instead of twice: the product falls short by exactly one cross term, and lies between 3/4 of and the full squared cross-power when the central and satellite alignment integrals have the same sign. The identity therefore fails.", "quantifier": "all alignment profiles and inputs", "why_tests_cant": "Needs the identity for all inputs and an exact deficit formula, not a sample value.", "anchors": ["src/onepower/pk.py:Spectra.power_spectrum_ii", "src/onepower/pk.py:Spectra.power_spectrum_mi"]}
{"id": "C08", "title": "Central alignment 2-halo integral reduces to the linear alignment amplitude", "statement": "Ic_align_term equals f_c * C1 * rho_mean / growth_factor * (mass_avg/mpivot)^beta exactly, independent of the mass grid, the mass function and the bias relation.", "quantifier": "all mass grids (non-zero masses), mass functions, biases, amplitudes", "why_tests_cant": "The statement is that a quadrature plus correction is exact for every grid.", "anchors": ["src/onepower/pk.py:Spectra.Ic_align_term", "src/onepower/pk.py:Spectra.compute_central_galaxy_alignment_profile", "src/onepower/pk.py:Spectra.compute_A_term"]}
{"id": "C09", "title": "Fortuna mode: effective power and central alignment terms", "statement": "peff interpolates linearly between non-linear (t_eff=0) and linear power (t_eff=1) and stays between them for t_eff in [0,1]; the central 2-halo terms satisfy pk_2h(mi)^2 = pk_2h(ii) * peff * damping. The gi term carries no central-fraction factor besides the one in the galaxy integral, so it is consistent with mi and ii (gi^2 = Ic^2 peff damping ii) only where f_c is 1 or the term vanishes.", "quantifier": "all inputs, t_eff, indices", "why_tests_cant": "Identities between separately coded spectra over all inputs.", "anchors": ["src/onepower/pk.py:Spectra.peff", "src/onepower/pk.py:Spectra.power_spectrum_mi", "src/onepower/pk.py:Spectra.power_spectrum_ii", "src/onepower/pk.py:Spectra.power_spectrum_gi"]}
{"id": "C10", "title": "Vanishing non-linear halo bias", "statement": "With nonlinear_mode='bnl' and beta_nl identically zero, each of the six spectra equals the plain halo model spectrum computed with no 2-halo truncation (two_halo_ktrunc=None and two_halo_ktrunc_ia=None).", "quantifier": "all inputs and indices, all six spectra", "why_tests_cant": "Compares two modes over all inputs.", "anchors": ["src/onepower/pk.py:Spectra.I_NL", "src/onepower/pk.py:Spectra.power_spectrum_gg", "src/onepower/pk.py:Spectra.power_spectrum_ii"]}
{"id": "C11", "title": "Non-linear halo bias integral: symmetry and bilinearity", "statement": "The beta_nl integral is linear in each of the two profiles and, when beta_nl is symmetric in the two masses, unchanged under exchange of the two profiles.", "quantifier": "all profiles, symmetric beta_nl tables, grids of any size", "why_tests_cant": "Exchange of summation order over grids of arbitrary size.", "anchors": ["src/onepower/pk.py:Spectra.I_NL", "src/onepower/pk.py:Spectra.prepare_I12_integrand", "src/onepower/pk.py:Spectra.prepare_I21_integrand", "src/onepower/pk.py:Spectra.prepare_I22_integrand"]}
{"id": "C12", "title": "Non-linear halo bias integral for constant beta_nl factorises", "statement": "If beta_nl takes the same value c at all masses then the integral equals c times the product of the two (trapezoidal, missing-mass corrected) bias-weighted profile integrals.", "quantifier": "all c, profiles, grids", "why_tests_cant": "Identity over arbitrary grids.", "anchors": ["src/onepower/pk.py:Spectra.I_NL"]}
{"id": "C13", "title": "Trapezoidal mass integrator", "statement": "The fixed-weight integrator equals the sum of trapezoid areas on every grid with at least two points; it integrates affine functions exactly, its weights sum to the grid length and are non-negative on sorted grids, so it preserves sign and order of integrands.", "quantifier": "all grids with >= 2 points, all integrands", "why_tests_cant": "Unbounded grid size.", "anchors": ["src/onepower/pk.py:Spectra._trapezoidal_weights", "src/onepower/pk.py:Spectra.trapezoidal_integrator"]}
{"id": "C14", "title": "1-halo terms of auto-spectra are non-negative", "statement": "On a sorted mass grid in which neighbouring steps differ by at most a factor 2, with positive mass function, pk_1h of mm and ii is non-negative, and so is pk_1h of gg for non-negative occupations, profiles and Poisson factor. The restriction on the grid is needed: Simpson's rule on a coarser-ratio grid gives a negative 1-halo term for some non-negative profile.", "quantifier": "all grids satisfying the step condition, all profiles", "why_tests_cant": "Sign of a quadrature over all grids and integrands.", "anchors": ["src/onepower/pk.py:Spectra.compute_1h_term", "src/onepower/pk.py:Spectra._power_spectrum_mm", "src/onepower/pk.py:Spectra.power_spectrum_gg", "src/onepower/pk.py:Spectra.power_spectrum_ii"]}
{"id": "C15", "title": "1-halo Cauchy-Schwarz", "statement": "On such grids the squared 1-halo cross term of two profiles never exceeds the product of their auto terms; in particular pk_1h(mi)^2 <= pk_1h(ii) * P_mm,1h built with the same damping.", "quantifier": "all grids with step ratio <= 2, all profiles", "why_tests_cant": "Inequality over all integrands.", "anchors": ["src/onepower/pk.py:Spectra.compute_1h_term", "src/onepower/pk.py:Spectra.power_spectrum_mi", "src/onepower/pk.py:Spectra.power_spectrum_ii"]}
{"id": "C16", "title": "Signs of the alignment spectra", "statement": "With non-negative occupations, alignment profiles, bias, mass function, missing-mass term and linear power, power_spectrum_mi is non-positive and power_spectrum_ii and power_spectrum_gi are non-negative in the plain mode.", "quantifier": "all inputs with those signs, grids with step ratio <= 2", "why_tests_cant": "Sign claim over all inputs.", "anchors": ["src/onepower/pk.py:Spectra.power_spectrum_mi", "src/onepower/pk.py:Spectra.power_spectrum_ii", "src/onepower/pk.py:Spectra.power_spectrum_gi"]}
{"id": "C17", "title": "1-halo large-scale damping", "statement": "one_halo_truncation lies in [0,1), increases with k, equals 1/2 at k=one_halo_ktrunc, and is identically 1 when one_halo_ktrunc is None; one_halo_truncation_ia and two_halo_truncation_ia lie in [0,1), (0,1], are monotone, and add up to 1 when they use the same wavenumber.", "quantifier": "all k>=0 and positive truncation wavenumbers", "why_tests_cant": "Continuum of wavenumbers.", "anchors": ["src/onepower/pk.py:Spectra.one_halo_truncation", "src/onepower/pk.py:Spectra.one_halo_truncation_ia", "src/onepower/pk.py:Spectra.two_halo_truncation_ia"]}
{"id": "C18", "title": "The 2-halo truncation wavenumber", "statement": "A user expects two_halo_ktrunc to set the scale of 2-halo damping. The value is ignored: any two non-None values give the same damping and hence the same spectra; only None switches it off. The damping lies in (0.95, 1] and decreases with k.", "quantifier": "all pairs of non-None values and all k>=0", "why_tests_cant": "Independence from a parameter must hold for all its values.", "anchors": ["src/onepower/pk.py:Spectra.two_halo_truncation"]}
{"id": "C19", "title": "HMcode damping factors", "statement": "The mead2020 1-halo factor lies in [0,1) and the 2-halo factor in (1-f,1] with f=0.2696 sigma8^0.9403, both monotone in k; the 2-halo factor is positive at all k exactly when f<=1.", "quantifier": "all k>=0, sigma8>0", "why_tests_cant": "Continuum; 'exactly when' needs a limit argument.", "anchors": ["src/onepower/pk.py:Spectra.one_halo_truncation_mead2020", "src/onepower/pk.py:Spectra.two_halo_truncation_mead2020"]}
{"id": "C20", "title": "Response mode", "statement": "With response on, every galaxy or alignment spectrum equals the halo model prediction times P_nl / P_mm(halo model); hence ratios between any two spectra are those of the halo model, and a spectrum equal to the halo model mm would be mapped to P_nl (where P_mm is non-zero).", "quantifier": "all configurations and inputs", "why_tests_cant": "Identity across two runs for all inputs.", "anchors": ["src/onepower/pk.py:Spectra.power_spectrum_gg", "src/onepower/pk.py:Spectra.power_spectrum_gm", "src/onepower/pk.py:Spectra.power_spectrum_mm"]}
{"id": "C21", "title": "Baryon budget of the feedback profile", "statement": "For 0<=f*<=Omega_b/Omega_m the gas fraction lies in [0, Omega_b/Omega_m - f*], increases with mass, equals half the reservoir at M=M_b; the large-scale amplitude of the feedback profile is (1 - expelled fraction) M/rho <= M/rho and tends to M/rho for large masses, provided Omega_m = Omega_c + Omega_b.", "quantifier": "all masses>0, M_b>0, stellar fractions, densities", "why_tests_cant": "Continuum of masses and parameters, plus a limit.", "anchors": ["src/onepower/pk.py:Spectra.fg", "src/onepower/pk.py:Spectra.fg_fit", "src/onepower/pk.py:Spectra.compute_matter_profile_with_feedback", "src/onepower/pk.py:Spectra.compute_matter_profile_with_feedback_stellar_fraction_from_obs"]}
{"id": "C22", "title": "HMcode stellar fraction stays below the baryon fraction", "statement": "The documentation states 0 < f* < Omega_b/Omega_m. It holds up to a redshift that depends on log10T_AGN and fails above it: with the default cosmology and default redshift range (z up to 3) f* exceeds the baryon fraction, the gas fraction is negative and the halo contains more than its own mass on large scales.", "quantifier": "all redshifts and AGN temperatures", "why_tests_cant": "The claim is about every redshift in the default grid; tests only check that results exist.", "anchors": ["src/onepower/pk.py:Spectra.fs", "src/onepower/pk.py:Spectra.fg", "src/onepower/pk.py:Spectra.compute_matter_profile_with_feedback", "src/onepower/hmi.py:CosmologyBase.__init__"]}
{"id": "C23", "title": "Units of the gas mass pivot", "statement": "A halo of mass 10^13.87 keeps half of its gas under the default pivot. With the constructor default mb=13.87 used as a mass (no power of ten is taken) every halo above 10^9 Msun/h keeps at least 1-10^-15 of its gas, so the default 'fit' and point-mass profiles contain no gas expulsion.", "quantifier": "all masses of at least 1e9", "why_tests_cant": "Statement about all masses.", "anchors": ["src/onepower/pk.py:Spectra.__init__", "src/onepower/pk.py:Spectra.fg_fit", "cosmosis_modules/onepower_interface.py:execute"]}
{"id": "C24", "title": "Changing a parameter changes every result that depends on it", "statement": "After any sequence of update() calls and reads, reading a result equals what a freshly built object with the same parameters returns. This holds for quantities managed by the parameter/cached-quantity machinery whose evaluation reads only parameters and other such quantities.", "quantifier": "all dependency structures, all histories of sets and reads", "why_tests_cant": "Unbounded histories.", "anchors": ["src/onepower/pk.py:Spectra", "src/onepower/hmi.py:CosmologyBase.cosmo_model"]}
{"id": "C25", "title": "omega_m is stale after an update", "statement": "The same claim fails for omega_m and everything computed from it: omega_m is stored at first read and is not refreshed by update(omega_c=..) or update(omega_b=..), so the baryon fractions use an old Omega_m; a fresh object gives a different value.", "quantifier": "all histories: omega_m always equals its value at the first read", "why_tests_cant": "The defect needs a read-update-read history, and the general law is for every history.", "anchors": ["src/onepower/hmi.py:CosmologyBase.omega_m", "src/onepower/pk.py:Spectra.fg", "src/onepower/pk.py:Spectra.compute_matter_profile_with_feedback", "cosmosis_modules/onepower_interface.py:execute"]}
{"id": "C26", "title": "Accepted configurations never hit an unassigned spectrum", "statement": "Construction succeeds exactly for supported nonlinear_mode and hmcode_ingredients values with 'hmcode' mode only combined with mead2020 or mead2020_feedback, and for every accepted configuration the matter spectrum is computed without reading an unassigned variable; for each rejected combination of known values it would do so.", "quantifier": "all configuration strings", "why_tests_cant": "All strings are possible inputs.", "anchors": ["src/onepower/pk.py:Spectra.validate", "src/onepower/pk.py:Spectra.nonlinear_mode", "src/onepower/pk.py:Spectra._power_spectrum_mm", "src/onepower/hmi.py:HaloModelIngredients.hmcode_ingredients"]}
{"id": "C27", "title": "A rejected update is not rolled back", "statement": "update() assigns before it validates, so after an update that raises, the object keeps the rejected value; a later read of the matter spectrum then fails although the only error reported was for the rejected call.", "quantifier": "all objects and rejected updates of nonlinear_mode or hmcode_ingredients", "why_tests_cant": "About failure histories.", "anchors": ["src/onepower/pk.py:Spectra.validate", "src/onepower/pk.py:Spectra._power_spectrum_mm"]}
{"id": "C28", "title": "HMcode ingredients override user choices", "statement": "With hmcode_ingredients mead2020 or mead2020_feedback the mass definition, collapse threshold, mass function, bias, concentration and bloating actually used do not depend on the user's settings of these; without HMcode they are the user's settings, with SOVirial and VirialOverdensity rules for overdensity and delta_c.", "quantifier": "all user settings", "why_tests_cant": "Independence from all values of several parameters.", "anchors": ["src/onepower/hmi.py:HaloModelIngredients._delta_c_mod", "src/onepower/hmi.py:HaloModelIngredients._mdef_mod", "src/onepower/hmi.py:HaloModelIngredients._hmf_mod", "src/onepower/hmi.py:HaloModelIngredients._bias_mod", "src/onepower/hmi.py:HaloModelIngredients.mdef_params"]}
{"id": "C29", "title": "Per-redshift halo models do not leak into one another", "statement": "The i-th halo model returned for a redshift grid depends only on the i-th redshift, normalisation, overdensity, threshold and bloating, not on earlier entries, although one object is updated in a loop.", "quantifier": "all redshift grids and per-redshift settings", "why_tests_cant": "All loop lengths and contents.", "anchors": ["src/onepower/hmi.py:HaloModelIngredients._hmf_generator"]}
{"id": "C30", "title": "Dewiggled power lies between the linear and the smooth power", "statement": "The dewiggled spectrum is a convex combination of linear and smoothed spectra with weight exp(-(k sigma)^2) on the linear one, hence lies between them, and equals the linear power where k sigma = 0.", "quantifier": "all spectra, k, sigma", "why_tests_cant": "All inputs.", "anchors": ["src/onepower/pk.py:Spectra.dewiggle_plin", "src/onepower/pk.py:Spectra.get_Pk_wiggle", "src/onepower/pk.py:Spectra.sigmaV"]}
{"id": "C31", "title": "The k-spacing guard of the dewiggling", "statement": "get_Pk_wiggle is meant to reject unsuitable k spacing, but its test accepts every k array with at least two entries: the ValueError is unreachable.", "quantifier": "all k arrays of length >= 2", "why_tests_cant": "Unreachability is a claim about all inputs.", "anchors": ["src/onepower/pk.py:Spectra.get_Pk_wiggle"]}
{"id": "C32", "title": "Shape of supplied power spectra is enforced", "statement": "Reading the linear spectrum (and the non-linear one when response or 'fortuna' needs it) succeeds only if the supplied array has shape (n_z, n_k), and then returns that array unchanged when no dewiggling is requested; when the non-linear one is not needed no check is made.", "quantifier": "all supplied shapes", "why_tests_cant": "All shapes.", "anchors": ["src/onepower/pk.py:Spectra._pk_lin", "src/onepower/pk.py:Spectra._pk_nl"]}
{"id": "C33", "title": "Galaxy counts split into centrals and satellites", "statement": "number_density = number_density_cen + number_density_sat, galaxy_linear_bias = cen + sat (as reported by the occupation model), hod = hod_cen + hod_sat, avg_halo_mass numerators add, at every requested redshift including extrapolated ones.", "quantifier": "all occupation models, mass grids, mass functions, redshifts", "why_tests_cant": "Linear interpolation/quadrature of arbitrary arrays.", "anchors": ["src/onepower/hod.py:HaloOccupationDistribution.number_density", "src/onepower/hod.py:HaloOccupationDistribution.galaxy_linear_bias", "src/onepower/hod.py:HaloOccupationDistribution.hod"]}
{"id": "C34", "title": "Central and satellite fractions", "statement": "f_c + f_s = 1 at every redshift inside the sample's redshift range (when no node is empty) and f_c = f_s = 0 outside it, so galaxy spectra vanish identically outside the range.", "quantifier": "all redshifts, occupation models", "why_tests_cant": "All query redshifts.", "anchors": ["src/onepower/hod.py:HaloOccupationDistribution.f_c", "src/onepower/hod.py:HaloOccupationDistribution.f_s", "src/onepower/hod.py:HaloOccupationDistribution._interpolate", "src/onepower/pk.py:Spectra.central_galaxy_profile"]}
{"id": "C35", "title": "Central occupation is a probability", "statement": "For Simple, Zehavi, Zheng and Zhai models the central occupation lies in [0,1] for all masses, also with assembly bias |A_cen|<=1; opposite A_cen values average to the undecorated occupation; satellites stay non-negative for A_sat>=-1 and non-negative undecorated counts.", "quantifier": "all masses and parameters", "why_tests_cant": "Continuum.", "anchors": ["src/onepower/hod.py:Simple._compute_hod_cen", "src/onepower/hod.py:Zehavi._compute_hod_cen", "src/onepower/hod.py:Zheng._compute_hod_cen", "src/onepower/hod.py:Zhai._compute_hod_cen"]}
{"id": "C36", "title": "Assembly bias of step-like centrals has no effect", "statement": "For Simple and Zehavi (and Zheng with sigma=0) the value of A_cen never changes the occupation.", "quantifier": "all A_cen, masses, parameters", "why_tests_cant": "Independence from a parameter.", "anchors": ["src/onepower/hod.py:Simple._compute_hod_cen", "src/onepower/hod.py:Zehavi._compute_hod_cen"]}
{"id": "C37", "title": "Error-function centrals", "statement": "For positive sigma the Zheng/Zhai central occupation is strictly increasing in mass, equals 1/2 at M_min, is point-symmetric in log mass about M_min, and tends to 0 and 1.", "quantifier": "all masses, sigma>0", "why_tests_cant": "Continuum and limits.", "anchors": ["src/onepower/hod.py:Zheng._compute_hod_cen", "src/onepower/hod.py:Zhai._compute_hod_cen"]}
{"id": "C38", "title": "Zheng satellites below the cutoff mass", "statement": "No satellites below M_0: holds for alpha>0; for alpha=0 the model puts exactly one satellite (before decoration) in every halo below M_0.", "quantifier": "all masses and parameters", "why_tests_cant": "All masses; special exponent.", "anchors": ["src/onepower/hod.py:Zheng._compute_hod_sat"]}
{"id": "C39", "title": "Satellites require a central only in the Simple model", "statement": "In the Simple model a halo without central has no satellites; in Zehavi and Zhai every halo below M_min still has a positive satellite count.", "quantifier": "all masses and parameters", "why_tests_cant": "All masses.", "anchors": ["src/onepower/hod.py:Simple._compute_hod_sat", "src/onepower/hod.py:Zehavi._compute_hod_sat", "src/onepower/hod.py:Zhai._compute_hod_sat"]}
{"id": "C40", "title": "Zehavi is the sharp limit of Zheng", "statement": "Zheng with sigma=0 has the Zehavi centrals, and as log10_M0 tends to minus infinity its satellites tend to the Zehavi satellites with M_1=M_sat.", "quantifier": "all masses and parameters", "why_tests_cant": "A limit.", "anchors": ["src/onepower/hod.py:Zheng", "src/onepower/hod.py:Zehavi"]}
{"id": "C41", "title": "Mean observable-halo relation", "statement": "cal_mean_obs_c is positive, equals Obs_norm_c/2^(g1-g2) at the characteristic mass, is strictly increasing in mass when both slopes are positive, and behaves as the two power laws at the ends.", "quantifier": "all masses and slopes", "why_tests_cant": "Continuum.", "anchors": ["src/onepower/hod.py:Cacciato.cal_mean_obs_c"]}
{"id": "C42", "title": "Number of galaxy bins returned", "statement": "A user expects one result per observable bin. Interpolated occupations have one row per (zmin, zmax) pair: with equally many bins all are returned, with fewer redshift bins the other observable bins are dropped without an error, with more an IndexError is raised. Number densities and biases need in addition that the bin counts broadcast: equal counts give all bins, a single redshift bin gives one row, a single observable bin is used for every redshift bin, and all other combinations raise ValueError.", "quantifier": "all list lengths", "why_tests_cant": "All lengths.", "anchors": ["src/onepower/hod.py:HaloOccupationDistribution.z", "src/onepower/hod.py:HaloOccupationDistribution._interpolate", "src/onepower/hod.py:HaloOccupationDistribution.nbins"]}
{"id": "C43", "title": "Galaxy bias on large scales agrees between the spectra and the occupation model", "statement": "If the spectra redshifts are redshift nodes of the sample, power_spectrum_gg.galaxy_linear_bias at the smallest k equals the occupation model's galaxy_linear_bias (for non-negative total bias).", "quantifier": "all models, grids, nodes with galaxies", "why_tests_cant": "Identity between two modules over all inputs.", "anchors": ["src/onepower/pk.py:Spectra.power_spectrum_gg", "src/onepower/pk.py:Spectra.central_galaxy_profile", "src/onepower/hod.py:HaloOccupationDistribution.galaxy_linear_bias"]}
{"id": "C44", "title": "Poisson models", "statement": "The constant model is the power law with slope 0; the power law equals the amplitude at the pivot mass, is scale-free, and construction of its values fails with ValueError exactly when pivot or slope is missing.", "quantifier": "all masses and parameters", "why_tests_cant": "Continuum.", "anchors": ["src/onepower/utils/poisson.py:constant", "src/onepower/utils/poisson.py:power_law"]}
{"id": "C45", "title": "Observable and stellar-fraction functions split into centrals and satellites", "statement": "obs_func = cen + sat before interpolation, the stellar fraction is the sum of central and satellite ones, and both are zero for models without observables; h-unit choice '1/h^2' multiplies the fraction by h.", "quantifier": "all inputs", "why_tests_cant": "All inputs.", "anchors": ["src/onepower/hod.py:Cacciato.obs_func", "src/onepower/hod.py:HaloOccupationDistribution.stellar_fraction"]}
{"id": "C46", "title": "Multipole tables are only read inside their bounds", "statement": "For every accepted ell_max and every multipole index used by the satellite alignment profile, all table and array lookups are in range; ell_max above 11 is rejected; 12 would already be out of range.", "quantifier": "all ell_max, ell, m", "why_tests_cant": "All indices.", "anchors": ["src/onepower/ia.py:SatelliteAlignment.ell_max", "src/onepower/ia.py:SatelliteAlignment.calculate_f_ell", "src/onepower/ia.py:SatelliteAlignment.ell_values", "src/onepower/ia.py:SatelliteAlignment.wkm_f_ell"]}
{"id": "C47", "title": "Tabulated angular factors agree with the general formula", "statement": "The tabulated angular factors f_ell for slopes 0 and -2 should equal the general expression. For slope -2 they do, to 3e-6, for every ell up to 11. For slope 0 they do not: the table holds the general expression at slope +1 (to 2e-6), and differs from the slope-0 values by more than 0.04 for every even ell from 2 to 10.", "quantifier": "every multipole ell <= 11, both tabulated slopes", "why_tests_cant": "The disagreement is hidden because tests compare table against table.", "anchors": ["src/onepower/ia.py:SatelliteAlignment.calculate_f_ell"]}
{"id": "C48", "title": "Down-sampling keeps the end points", "statement": "Down-sampled mass and profile arrays start with the first and end with the last input entry and are sub-sequences of the input; mass and concentration arrays can end up with different lengths when a concentration entry repeats.", "quantifier": "all arrays and target sizes", "why_tests_cant": "All arrays.", "anchors": ["src/onepower/ia.py:SatelliteAlignment._downsample"]}
{"id": "C49", "title": "Luminosity redshift bins partition the sample", "statement": "For a strictly increasing redshift grid every galaxy falls in at most one redshift bin, and in exactly one if it lies between the outer edges.", "quantifier": "all grids and galaxy redshifts", "why_tests_cant": "All samples.", "anchors": ["src/onepower/ia.py:AlignmentAmplitudes.compute_luminosity_pdf"]}
{"id": "C50", "title": "Double power law of the luminosity dependence", "statement": "The broken power law reduces to the single power law when both slopes agree, is continuous at the pivot (both branches give 1), and the luminosity average of a normalised distribution lies between the extreme values of the scaling.", "quantifier": "all luminosities and slopes", "why_tests_cant": "Continuum.", "anchors": ["src/onepower/ia.py:AlignmentAmplitudes.broken_powerlaw", "src/onepower/ia.py:AlignmentAmplitudes.mean_l_l0_to_beta"]}
{"id": "C51", "title": "Radial satellite alignment profile", "statement": "The radial alignment amplitude never exceeds 0.3 in the clipped factor, is flat inside the core radius, and the density-weighted profile is zero beyond the virial radius when truncation is on.", "quantifier": "all radii, masses, slopes", "why_tests_cant": "Continuum.", "anchors": ["src/onepower/ia.py:SatelliteAlignment.gamma_r_nfw_profile"]}
{"id": "C52", "title": "Alignment amplitude decision logic", "statement": "Each option of the central and satellite dependence either returns the documented amplitude or raises ValueError exactly when a needed pivot is missing (or a second slope is given for halo mass); pivots are powers of ten of the given logs.", "quantifier": "all option values", "why_tests_cant": "All combinations.", "anchors": ["src/onepower/ia.py:AlignmentAmplitudes.alignment_gi", "src/onepower/ia.py:AlignmentAmplitudes.gamma_1h_amp"]}
{"id": "C53", "title": "Alignment parameters are overwritten in place", "statement": "Reading an alignment spectrum overwrites the grid entries and 'method' in the caller's align_params dictionary, so a user's method choice is never used, other entries are kept, and repeated reads are idempotent.", "quantifier": "all dictionaries", "why_tests_cant": "All dictionary contents.", "anchors": ["src/onepower/pk.py:Spectra.alignment_class"]}
{"id": "C54", "title": "Cosmology is clamped into the emulator range", "statement": "test_cosmo returns parameters inside the emulator's ranges for every input, leaves in-range parameters unchanged, sends others to the nearest end of the range, is idempotent, and rejects any other number of parameters; every emulator that is set up has a cosmology in range.", "quantifier": "all parameter vectors", "why_tests_cant": "All inputs.", "anchors": ["src/onepower/bnl.py:NonLinearBias.test_cosmo"]}
{"id": "C55", "title": "The non-linear bias table is filled with the right entries", "statement": "Every cell (k,M1,M2) of the returned table receives the interpolation function's value at exactly that (M1,M2,k), each cell is written once.", "quantifier": "all grid sizes and interpolation functions", "why_tests_cant": "Flat-index bookkeeping for all sizes.", "anchors": ["src/onepower/bnl.py:NonLinearBias.bnl"]}
{"id": "C56", "title": "The computed non-linear bias table is symmetric in the two masses", "statement": "The table built from the emulator is symmetric under exchange of the two masses for every emulator output, each cell is the value computed for its own two masses, and the table handed to the power spectra is symmetric too.", "quantifier": "all emulator outputs and sizes", "why_tests_cant": "All sizes.", "anchors": ["src/onepower/bnl.py:NonLinearBias.compute_bnl_darkquest"]}
{"id": "C57", "title": "Low-k and high-k truncations of the bias are complementary", "statement": "low_k_truncation + high_k_truncation = 1 at the same wavenumber, both lie in (0,1), equal 1/2 at the truncation wavenumber, and are monotone.", "quantifier": "all k>0", "why_tests_cant": "Continuum.", "anchors": ["src/onepower/bnl.py:NonLinearBias.low_k_truncation", "src/onepower/bnl.py:NonLinearBias.high_k_truncation"]}
{"id": "C58", "title": "Envelope indices are extrema", "statement": "Every index returned by hl_envelopes_idx for chunk size 1 is an interior non-flat weak local extremum and every such point is returned, once and in order; with larger chunks exactly one index per chunk is returned, an extremum that is extreme within its chunk.", "quantifier": "all sequences", "why_tests_cant": "All sequences.", "anchors": ["src/onepower/bnl.py:NonLinearBias.hl_envelopes_idx"]}
{"id": "C59", "title": "Mixing two populations", "statement": "UpsampledSpectra combines gm and mi linearly and gg, gi, ii (and the linear spectrum) quadratically in the population fraction, leaves mm untouched; fraction 1 (or none given) returns population 1 and fraction 0 population 2. With a fraction but no second model the first population is still multiplied by f or f^2.", "quantifier": "all spectra, fractions, modes", "why_tests_cant": "All inputs.", "anchors": ["src/onepower/add.py:UpsampledSpectra.add_spectra", "src/onepower/add.py:UpsampledSpectra.frac_1"]}
{"id": "C60", "title": "Combining a population with itself", "statement": "Splitting one population into two identical halves should change nothing. It holds for mm, gm and mi; for gg, gi, ii the result is multiplied by f^2+(1-f)^2, i.e. between 1/2 and 1, because cross terms are missing. The linear spectrum requested through the same call is scaled too.", "quantifier": "all fractions in [0,1]", "why_tests_cant": "Identity over all inputs.", "anchors": ["src/onepower/add.py:UpsampledSpectra.add_spectra"]}
{"id": "C61", "title": "Upsampling reproduces the input grid and preserves sums", "statement": "Upsampling returns the input values at input grid points, is linear (so tot = 1h + 2h is preserved under extrapolation or zero fill; it is not preserved outside the redshift range for another fill value), keeps values between the bounds of the inputs inside the grid.", "quantifier": "all grids, spectra, queries", "why_tests_cant": "All grids.", "anchors": ["src/onepower/add.py:UpsampledSpectra.extrapolate_spectra"]}
{"id": "C62", "title": "Upsampled results after an update are stale", "statement": "frac_1, frac_2, power_1 and power_2 are frozen at first use: after update(fraction=...) or a change of model parameters, results() still uses the first values, unlike a fresh object; an update to a redshift grid of another length makes every later call for a mode other than mm fail.", "quantifier": "all histories", "why_tests_cant": "History property.", "anchors": ["src/onepower/add.py:UpsampledSpectra.frac_1", "src/onepower/add.py:UpsampledSpectra.power_1", "src/onepower/add.py:UpsampledSpectra.power_2"]}
{"id": "C63", "title": "results() keeps the last requested components only", "statement": "After any sequence of results() calls the stored object for a mode contains exactly the components of the last call that requested the mode, others are None, and modes never requested are absent.", "quantifier": "all call sequences", "why_tests_cant": "Unbounded sequences.", "anchors": ["src/onepower/add.py:UpsampledSpectra.results"]}
{"id": "C64", "title": "Background functions", "statement": "The dimensionless Hubble rate is 1 at a=1 for a flat model, the matter fraction at a=1 is the input and lies in (0,1] at all earlier times, scale factors lie in (0,1] for z>=0, and in an Einstein-de Sitter universe the growth equation is solved by D=a.", "quantifier": "all redshifts and densities", "why_tests_cant": "Continuum.", "anchors": ["src/onepower/hmi.py:CosmologyBase._Hubble2", "src/onepower/hmi.py:CosmologyBase._Omega_m", "src/onepower/hmi.py:CosmologyBase._AH", "src/onepower/hmi.py:CosmologyBase.get_mead_growth_fnc", "src/onepower/hmi.py:CosmologyBase.scale_factor"]}
{"id": "C65", "title": "Einstein-de Sitter limit of the HMcode collapse fits", "statement": "In an Einstein-de Sitter universe the fitted virial overdensity and collapse threshold reduce to fixed constants independent of redshift.", "quantifier": "all scale factors", "why_tests_cant": "Continuum.", "anchors": ["src/onepower/hmi.py:CosmologyBase.dc_Mead", "src/onepower/hmi.py:CosmologyBase.Dv_Mead", "src/onepower/hmi.py:CosmologyBase.f_Mead"]}
{"id": "C66", "title": "Refresh schedule of the non-linear bias in the CosmoSIS pipeline", "statement": "For every number of pipeline calls, the non-linear bias used in call n is the one computed in call u*floor(n/u), where u is update_bnl>=1.", "quantifier": "all call histories and update intervals", "why_tests_cant": "Unbounded histories.", "anchors": ["cosmosis_modules/onepower_interface.py:execute"]}
{"id": "C67", "title": "Observables file option of the CosmoSIS module", "statement": "With galaxy spectra requested and an observables file given for the sample, setup always fails with a missing key.", "quantifier": "all option blocks with that property", "why_tests_cant": "All configurations.", "anchors": ["cosmosis_modules/onepower_interface.py:setup_hod", "cosmosis_modules/onepower_interface.py:setup_hod_settings"]}
{"id": "C68", "title": "Central and satellite alignment options of the CosmoSIS module", "statement": "The central option should control the central pivot and the satellite option the satellite pivot. They are exchanged, and the option itself is not forwarded: with a central option other than halo_mass the satellite pivot stays unset and the run ends in ValueError, whatever the satellite option.", "quantifier": "all option values", "why_tests_cant": "All combinations.", "anchors": ["cosmosis_modules/onepower_interface.py:execute", "src/onepower/ia.py:AlignmentAmplitudes.gamma_1h_amp"]}
{"id": "C69", "title": "Second population with split alignments", "statement": "With split alignment samples the second population should enter the alignment spectra. The fraction passed is identically 1, so the second population's spectra never influence any output.", "quantifier": "all second-population parameters", "why_tests_cant": "Independence.", "anchors": ["cosmosis_modules/onepower_interface.py:execute", "src/onepower/add.py:UpsampledSpectra.add_spectra"]}
{"id": "C70", "title": "Separation axis correction", "statement": "Each bin of a correlation function should be rescaled by its own distance ratio. The separation axis is shared and rescaled in every iteration: after n bins it carries the product of all n ratios, correct only when n=1 or the other ratios are 1.", "quantifier": "all numbers of bins and ratios", "why_tests_cant": "Unbounded loop.", "anchors": ["cosmosis_modules/pk_to_real/correct_cosmo_real.py:execute"]}
{"id": "C71", "title": "Log interpolation keeps sign and nodes", "statement": "LogInterp returns the input at input points, positive (negative) values everywhere for an all-positive (all-negative) input, and falls back to semi-log interpolation otherwise.", "quantifier": "all inputs and queries", "why_tests_cant": "All inputs.", "anchors": ["cosmosis_modules/pk_to_real/pk_to_real.py:LogInterp"]}
{"id": "C72", "title": "Angle unit conversion", "statement": "convert_theta is idempotent, converting to a second unit equals converting directly, and converting back restores the angles; unsupported output units are rejected at setup.", "quantifier": "all angles and units", "why_tests_cant": "All inputs.", "anchors": ["cosmosis_modules/convert_theta/convert_theta.py:execute", "cosmosis_modules/convert_theta/convert_theta.py:setup"]}
{"id": "C73", "title": "Output sections of the CosmoSIS module never collide", "statement": "For every number of bins, each bin's spectra go to a section of their own; with one bin the name has no suffix.", "quantifier": "all bin counts", "why_tests_cant": "All counts.", "anchors": ["cosmosis_modules/onepower_interface.py:save_pk_to_grid", "cosmosis_modules/onepower_interface.py:execute"]}
{"id": "C74", "title": "Ingredients switched on by an update react to later updates", "statement": "If a parameter that selects which other parameters a quantity uses is changed by update (for example hmcode_ingredients from None to 'mead2020_feedback'), later updates of the newly used parameters (log10T_AGN) change the result. This is false of the code: hmcode_ingredients is declared as an ordinary parameter, so the concentration normalisation K read before the change keeps ignoring log10T_AGN for the life of the object.", "quantifier": "all old and new AGN temperatures, all redshift grids, all other parameters", "why_tests_cant": "The failure depends on the history of reads and updates; tests build fresh objects.", "anchors": ["src/onepower/hmi.py:HaloModelIngredients.hmcode_ingredients", "src/onepower/hmi.py:HaloModelIngredients.K", "src/onepower/pk.py:Spectra.nonlinear_mode"]}
{"id": "C75", "title": "Luminosity distribution is normalised", "statement": "In each redshift bin with galaxies the luminosity distribution is non-negative and integrates to 1 over its bins, so that a zero luminosity slope gives back the constant amplitude. The first half holds for the histogram sum; the second half fails because the code integrates with Simpson's rule: two galaxies of different luminosity give 3/8 of the amplitude, and a redshift with no galaxies gives 0.", "quantifier": "all galaxy samples and bin counts; all pairs of luminosities for the failure", "why_tests_cant": "All samples; the test catalogues are dense.", "anchors": ["src/onepower/ia.py:AlignmentAmplitudes.compute_luminosity_pdf", "src/onepower/ia.py:AlignmentAmplitudes.mean_l_l0_to_beta", "src/onepower/ia.py:AlignmentAmplitudes.alignment_gi"]}
{"id": "C76", "title": "Angular factors are the integrals they stand for", "statement": "The general angular factor is the angular integral of eq. C8 of Fortuna et al. 2021 with Legendre polynomials given by their recurrence, for every multipole up to 11 and every slope above -4, for which it converges; so is the factor the code uses, except for the tabulated slopes -2 (equal to 3e-6) and 0 (the integral of slope 1). In particular the coefficients gj are the azimuthal integrals of cos(2 phi) cos^j(phi) over the circle and I_x(a,0) is the integral of (1-x^2)^(a/2) over [-1,1] for every a > -2.", "quantifier": "all multipoles and j up to 11, all real slopes above -4, all real a > -2", "why_tests_cant": "Continuum of slopes; hard-coded constants.", "anchors": ["src/onepower/ia.py:SatelliteAlignment.calculate_f_ell", "src/onepower/ia.py:SatelliteAlignment.I_x"]}
{"id": "C77", "title": "Satellite alignment profile ignores the monopole", "statement": "The satellite alignment profile is non-negative, homogeneous in the radial multipoles, independent of the monopole, and zero for ell_max below 2.", "quantifier": "all ell_max, slopes and radial multipoles", "why_tests_cant": "All inputs.", "anchors": ["src/onepower/ia.py:SatelliteAlignment.wkm_f_ell"]}
{"id": "C78", "title": "Acceleration and expansion rate belong to one universe", "statement": "The acceleration function used in the growth equation is the one implied by the expansion rate: AH = H^2 + (a/2) dH^2/da for every dark-energy equation of state w0, wa and every density split.", "quantifier": "all scale factors, densities, w0, wa", "why_tests_cant": "Identity between two separately coded functions over a continuum.", "anchors": ["src/onepower/hmi.py:CosmologyBase._AH", "src/onepower/hmi.py:CosmologyBase._Hubble2"]}
{"id": "C79", "title": "The emulator amplitude matches the requested sigma_8", "statement": "If sigma_8^2 is proportional to the amplitude and the amplitude found is inside the emulator range, the emulator ends with exactly the requested sigma_8, also if other parameters were clamped; a given A_s takes precedence; without both the setup fails. If the amplitude is above the range the emulator silently uses a smaller sigma_8 than requested.", "quantifier": "all parameter sets and emulators with linear-theory amplitude scaling", "why_tests_cant": "All parameters and emulators.", "anchors": ["src/onepower/bnl.py:NonLinearBias.emulator"]}
{"id": "C80", "title": "The non-linear bias vanishes on linear scales and can be computed for every spectrum", "statement": "The non-linear bias of each pair of masses is zero at k = 0.05 and bounded by the change of the smoothed ratio; it should be computable for every emulator output and free of shot noise. The computation succeeds exactly when the ratio has at least three local maxima on the grid and otherwise ends in ValueError, e.g. for every smooth ratio. The shot noise is estimated from 100 < k < 200 only; white noise then cancels in the spectrum, but not in the linear biases by which it is divided.", "quantifier": "all emulators, splines, masses, wavenumber grids", "why_tests_cant": "All emulator outputs.", "anchors": ["src/onepower/bnl.py:NonLinearBias.compute_bnl_darkquest"]}
{"id": "C81", "title": "Halo sizes used by the non-linear bias", "statement": "A sphere of radius rvir at 200 times the mean density contains the halo mass and rvir is strictly increasing; the minimum halo mass is that of 200 particles and its wavenumber 2 pi over the radius holding that mass at mean density; the mass nodes of the emulator table are strictly increasing for every matter density up to 1.", "quantifier": "all masses and matter densities", "why_tests_cant": "Continuum.", "anchors": ["src/onepower/bnl.py:NonLinearBias.rvir", "src/onepower/bnl.py:NonLinearBias.minimum_halo_mass", "src/onepower/bnl.py:NonLinearBias.create_bnl_interpolation_function"]}
{"id": "C82", "title": "Lookup of the non-linear bias table", "statement": "The lookup uses the nearest grid node for every query, also outside the grid, and is exact at nodes; the returned table has one plane per redshift computed at that redshift, or a single plane computed at z = 0.01; each entry is the emulator table at the nodes nearest to its own masses and wavenumber.", "quantifier": "all grids, queries, redshift lists", "why_tests_cant": "All inputs.", "anchors": ["src/onepower/bnl.py:NonLinearBias.create_bnl_interpolation_function", "src/onepower/bnl.py:NonLinearBias.bnl"]}
{"id": "C83", "title": "Saving the observable function", "statement": "If the observable function is requested, its results should be written for every bin. With an observables file for it setup succeeds and saving always fails with a missing key; without a file every bin is written.", "quantifier": "all option blocks and bin counts", "why_tests_cant": "All configurations.", "anchors": ["cosmosis_modules/onepower_interface.py:setup_hod", "cosmosis_modules/onepower_interface.py:save_obs_results"]}
{"id": "C84", "title": "Poisson parameters of the CosmoSIS module", "statement": "Without the option poisson_type galaxy or alignment spectra should use the default model. The default is the empty string, which is not a known option, so every call fails with a missing key. The two known options return exactly their parameters.", "quantifier": "all option and data blocks", "why_tests_cant": "All configurations.", "anchors": ["cosmosis_modules/onepower_interface.py:setup_pipeline_parameters", "cosmosis_modules/onepower_interface.py:execute"]}
{"id": "C85", "title": "Halo occupation parameters per bin", "statement": "For models with one parameter set per bin, each parameter is an array with one entry per bin read from name_1, name_2, ... (no suffix for a single bin), and the call succeeds exactly when all are present. With alignment spectra only the bin count is 0 and the arrays are silently empty.", "quantifier": "all data blocks and bin counts", "why_tests_cant": "All bin counts.", "anchors": ["cosmosis_modules/onepower_interface.py:execute"]}
{"id": "C86", "title": "Interpolation of the spectra in wavenumber", "statement": "log_linear_interpolation_k returns positive spectra, reproduces the input at its wavenumbers and power laws everywhere, stays within the input's bounds inside the range and scales with the amplitude.", "quantifier": "all positive inputs and wavenumbers", "why_tests_cant": "Continuum.", "anchors": ["cosmosis_modules/onepower_interface.py:log_linear_interpolation_k"]}
{"id": "C87", "title": "Redshift and wavenumber grids of the CosmoSIS module", "statement": "Redshifts outside the input range are refused; accepted ones keep node values and bounds. The halo model wavenumbers span the input range, strictly increasing.", "quantifier": "all grids", "why_tests_cant": "All inputs.", "anchors": ["cosmosis_modules/onepower_interface.py:interpolate_in_z", "cosmosis_modules/onepower_interface.py:get_linear_power_spectrum"]}
{"id": "C88", "title": "Matter settings cover the galaxy sample", "statement": "The settings used for the matter spectra describe exactly one bin whose limits are the extreme limits of the sample's bins, attained, and exist whenever the sample has a bin.", "quantifier": "all lists of bins", "why_tests_cant": "Unbounded bin lists.", "anchors": ["cosmosis_modules/onepower_interface.py:setup_hod_settings_mm"]}
{"id": "C89", "title": "Mass grid of the CosmoSIS module", "statement": "With nmass = n > 0 and increasing limits the mass grid has exactly n increasing points from the lower limit to one step below the upper limit; n = 0 is refused.", "quantifier": "all limits and sizes", "why_tests_cant": "Continuum of limits.", "anchors": ["cosmosis_modules/onepower_interface.py:setup_hmf_config", "cosmosis_modules/onepower_interface.py:execute"]}
{"id": "C90", "title": "Output suffix option", "statement": "Two instances of the module with different output_suffix should write to different sections. The option has no influence on any section written, so the second instance overwrites the first.", "quantifier": "all option blocks", "why_tests_cant": "Independence.", "anchors": ["cosmosis_modules/onepower_interface.py:setup_hod", "cosmosis_modules/onepower_interface.py:execute"]}
{"id": "C91", "title": "Halo occupation output", "statement": "The halo occupation of the galaxy sample should be saved when galaxy spectra are requested. It is also saved, for a sample that was never configured, whenever the matter spectrum is not requested.", "quantifier": "all selections of spectra", "why_tests_cant": "All configurations.", "anchors": ["cosmosis_modules/onepower_interface.py:execute", "cosmosis_modules/onepower_interface.py:save_hod_results"]}
{"id": "C92", "title": "Correlation functions from power spectra", "statement": "The correlation function of a bin scales with the amplitude of its spectrum, is linear in its redshift distribution, depends only on its own section and distribution, ignores spectra outside the distribution and vanishes without overlap; the module succeeds exactly when every input is present and there is a bin. Correlation functions of two spectra need not add up to that of their sum, because the spectra are interpolated in logarithms.", "quantifier": "all spectra, distributions, bin counts and linear transforms", "why_tests_cant": "All inputs.", "anchors": ["cosmosis_modules/pk_to_real/pk_to_real.py:CosmosisTransformer.__call__", "cosmosis_modules/pk_to_real/pk_to_real.py:Transformer.__call__", "cosmosis_modules/pk_to_real/pk_to_real.py:CosmosisTransformer.load_kernel"]}
{"id": "C93", "title": "Separation grid of the Hankel transform", "statement": "Wavenumbers and separations are log-uniform and increasing, and exactly the separations strictly inside the limits are returned. FFTLog pairs position i with the separation kr / k at the mirrored position; the separations reported should be those. They are smaller by one logarithmic step.", "quantifier": "all grids and limits", "why_tests_cant": "All grids.", "anchors": ["cosmosis_modules/pk_to_real/pk_to_real.py:Transformer.__init__", "cosmosis_modules/pk_to_real/pyfftlog.py:fhti"]}
{"id": "C94", "title": "A likelihood call does not depend on the calls before it", "statement": "The interface reuses one Spectra object for all calls of a chain and updates it with the keys it forwards. For calls that keep the switches, every quantity read in a call whose modes never look at omega_m has the value a fresh object given this call's parameters has, whatever the earlier calls were; likewise for the alignment stage of the call.", "quantifier": "all chains (any number of calls, any parameter values), all interpretations of the numerical bodies, all 107 cached quantities", "why_tests_cant": "Unbounded histories of an object with 107 memoised, mutually dependent, branching quantities.", "anchors": ["cosmosis_modules/onepower_interface.py:execute", "src/onepower/pk.py:Spectra", "src/onepower/hmi.py:HaloModelIngredients"]}
{"id": "C95", "title": "What a stale omega_m does to a chain", "statement": "An object whose omega_m is frozen behaves, in every quantity, exactly like plain evaluation with omega_m replaced by the value it was first read with. Hence in the modes that look at omega_m (feedback, fit, point mass, beta_nl) every call of a chain after the first uses the first call's omega_m and is right iff this makes no difference.", "quantifier": "all chains, all quantities, all interpretations of the numerical bodies; a witness for the failure", "why_tests_cant": "All histories.", "anchors": ["src/onepower/hmi.py:CosmologyBase.omega_m", "src/onepower/pk.py:Spectra", "cosmosis_modules/onepower_interface.py:execute"]}
{"id": "C96", "title": "Which inputs a spectrum depends on", "statement": "A spectrum does not change with inputs that are not meant to enter it: galaxy settings do not change matter spectra unless the matter profiles are fitted, the Poisson parameters change clustering only, alignment inputs change alignment spectra only, the AGN temperature enters only in the feedback mode, the baryonic mass scale only with fitted profiles or point masses, HMcode's own ingredients replace the user's, the non-linear input spectrum is used only in the response and fortuna modes, beta_nl only when selected, and halo-model ingredients depend on nothing but cosmology, grids and their own choices.", "quantifier": "all objects, all histories in the same regime, all values of the other parameters, all interpretations of the numerical bodies", "why_tests_cant": "Non-interference over all values of all other inputs.", "anchors": ["src/onepower/pk.py:Spectra", "src/onepower/hmi.py:HaloModelIngredients", "src/onepower/pk.py:PowerSpectrumResult"]}
{"id": "C97", "title": "The spectra are those of the halo model in the literature", "statement": "With matter given by halo mass over mean density times profile, galaxies by mean occupation over mean number density and alignments by linear alignment of centrals and an alignment profile of satellites, every 1-halo term is the integral over pairs of fields in one halo and every 2-halo term the product of the biases of the two fields, plus the double integral over beta_nl in that mode; the HMcode mode is HMcode-2020 with the published constants, and with feedback haloes consist of dark matter, remaining gas and stars with the published fits. Exceptions: the cross term of the intrinsic-intrinsic spectrum is counted once, galaxies in the galaxy-intrinsic spectrum are centrals only, pairs of a central with itself are left out.", "quantifier": "all grids, mass functions, biases, profiles, occupations and parameters", "why_tests_cant": "Equality of functions of arbitrary inputs.", "anchors": ["src/onepower/pk.py:Spectra.power_spectrum_mm", "src/onepower/pk.py:Spectra.power_spectrum_gg", "src/onepower/pk.py:Spectra.power_spectrum_gm", "src/onepower/pk.py:Spectra.power_spectrum_mi", "src/onepower/pk.py:Spectra.power_spectrum_ii", "src/onepower/pk.py:Spectra.power_spectrum_gi", "src/onepower/pk.py:Spectra.I_NL"]}
{"id": "C98", "title": "Changing options on a live object", "statement": "Between reads of one Spectra object the non-linear mode and the response option may be changed freely: a spectrum is that of an object newly built with the present parameters. Any other option that decides what is read is not safe: a quantity first read before the option is changed never learns about inputs that matter only afterwards, so updates of the AGN temperature after feedback is switched on, of the halo-model choices after HMcode ingredients are replaced, of the baryonic mass scale after point masses or fitted profiles are switched on, and of the cosmology after the given linear spectrum is dropped are ignored; whenever such an input matters, a stale value is reported.", "quantifier": "all initial parameters, all histories of updates and reads, all formulas", "why_tests_cant": "Quantifies over all histories; a test would have to guess which updates in which order go wrong.", "anchors": ["src/onepower/pk.py:Spectra.nonlinear_mode", "src/onepower/pk.py:Spectra.response", "src/onepower/pk.py:Spectra.hmcode_ingredients", "src/onepower/pk.py:Spectra.pointmass", "src/onepower/pk.py:Spectra.power_spectrum_mm", "src/onepower/hmi.py:HaloModelIngredients.hmcode_ingredients", "src/onepower/hmi.py:HaloModelIngredients.update"]}
{"id": "C99", "title": "The conditional observable functions and occupations are the published distributions", "statement": "In the Cacciato model every halo has exactly one central: the conditional observable function of centrals is a log-normal that integrates to one over all observables, to a difference of error functions over a bin, and whose median is Obs_c(M) (the quantity the code calls the mean observable; the mean is larger by exp((sigma ln 10)^2/2)). The satellites follow the generalised Schechter function with total phi*/beta Gamma((alpha+1)/beta) and total observable phi* O*/beta Gamma((alpha+2)/beta), log10 phi* being a parabola in log mass around the pivot. Centrals do not depend on satellite parameters and vice versa. The conversion to per-dex units is the change of variable to log10 O. Zhai satellites are a power law suppressed by exp(-Mcut/M).", "quantifier": "all halo masses, observables and parameters with positive widths; all slopes for which the integrals converge", "why_tests_cant": "A test compares a few numbers with the same formula; a missing ln 10, a swapped exponent or a wrong normalisation is only visible against the integral over all observables, which no finite grid evaluates.", "anchors": ["src/onepower/hod.py:Cacciato.COF_cen", "src/onepower/hod.py:Cacciato.COF_sat", "src/onepower/hod.py:Cacciato.phi_star_s", "src/onepower/hod.py:Zhai.compute_hod_sat"]}
{"id": "C100", "title": "Refining the grids converges to the integrals of the halo model", "statement": "On the mass grid (10**arange(Mmin, Mmax, dlog10m)) and on the observable grid (logspace) the Simpson sums of the code converge to the integrals over the configured ranges as the step goes to zero or the number of points grows, for every continuous integrand, with an explicit error bound for Lipschitz integrands. Hence the 1-halo and 2-halo matter spectra converge to those of the halo model with a continuous mass function, the number densities, mean mass and bias of the occupation model to their integrals, and the occupation of centrals of a bin to the difference of error functions.", "quantifier": "all continuous mass functions, biases, profiles and occupations; all ranges; all parities of the number of points", "why_tests_cant": "Convergence is a statement about all sufficiently fine grids; a test runs a few resolutions and cannot tell convergence to the right value from convergence to a slightly wrong one (e.g. a last interval left out or weighted wrongly for an even number of points).", "anchors": ["src/onepower/hod.py:HaloOccupationDistribution._mass_integral", "src/onepower/hod.py:HaloOccupationDistribution.obs", "src/onepower/pk.py:Spectra.compute_1h_term", "src/onepower/pk.py:Spectra.compute_Im_term", "src/onepower/hmi.py:HaloModelIngredients"]}
{"id": "C101", "title": "The average halo mass", "statement": "The mean mass integral divided by the number density of the same galaxies is a mean halo mass, between the smallest and largest mass. The quantity avg_halo_mass of the occupation model is the integral itself and scales with the occupation. The average mass used in the alignment mass scaling divides the integral over centrals by the number density of all galaxies, so it is the mean halo mass of centrals times the central fraction, equal to that mean only without satellites, possibly below every halo mass of the grid, and zero outside the redshift range of the sample.", "quantifier": "all occupations, mass functions and grids with step ratio at most two; all sample redshift nodes", "why_tests_cant": "A regression test stores the value the code returns; that the denominator counts satellites too changes the amplitude by a factor f_c^beta that looks like any other parameter value.", "anchors": ["src/onepower/hod.py:HaloOccupationDistribution._mean_mass_integral", "src/onepower/hod.py:HaloOccupationDistribution.avg_halo_mass_cen", "src/onepower/pk.py:Spectra.mass_avg"]}
{"id": "C102", "title": "Satellite alignment profile between and outside its own wavenumbers", "statement": "The satellite alignment profile is tabulated at its own wavenumbers (1e-3 to 1e3) and masses and resampled to those of the spectra. Resampling reproduces the table at its nodes. The hankel branch interpolates the logarithm and stays positive, reproducing power laws. The fftlog branch, the only one the spectra select, interpolates and extrapolates linearly in wavenumber: outside the table it is a straight line, so a profile rising like k^2 becomes negative below 5e-4 and a profile falling like 1/k or faster becomes negative above 2e3, and the sign of the 1-halo alignment spectra flips there.", "quantifier": "all tables, masses, redshifts and wavenumbers inside and outside the table", "why_tests_cant": "A test evaluates a few wavenumbers, normally inside the table; the sign outside depends on the slope at the two end cells, for every profile.", "anchors": ["src/onepower/ia.py:SatelliteAlignment.upsampled_wkm", "src/onepower/ia.py:SatelliteAlignment.k_vec", "src/onepower/pk.py:Spectra.alignment_class", "src/onepower/pk.py:Spectra.wkm_sat"]}
{"id": "C103", "title": "Normalisation of the radial alignment profile of satellites", "statement": "The mass the alignment multipoles are divided by is the NFW mass within c scale radii. For an amplitude that does not depend on radius and does not exceed the core limit 0.3, the truncated profile integrates to that amplitude if and only if the truncation radius is c r_s of the same redshift; with the radii the spectra pass this holds exactly at the redshifts whose virial radius equals that of the first redshift. Without truncation, the default, the integral grows without bound with radius. The hankel and fftlog methods are the same integral of the profile with r^2 j_l(kr).", "quantifier": "all scale radii, concentrations, virial radii, amplitudes up to 0.3 with zero radial slope; for the two methods all profiles, multipoles, positive wavenumbers and every Bessel function", "why_tests_cant": "A test at one redshift, or with a mass definition whose radius does not evolve, cannot see that the first redshift's radius is used for all; the equality of two quadratures up to numerical error does not show that their prefactors agree for every wavenumber.", "anchors": ["src/onepower/ia.py:SatelliteAlignment.compute_uell_gamma_r_hankel", "src/onepower/ia.py:SatelliteAlignment.gamma_r_nfw_profile", "src/onepower/pk.py:Spectra.alignment_class"]}
{"id": "C104", "title": "The logarithmic Hankel transform (FFTLog)", "statement": "Set up with valid parameters, the transform followed by the transform in the other direction gives back the array, biased or not, odd or even length, except that in the singular case the mean is lost. The product kr chosen to reduce ringing is within half a step of the requested one and makes the unbiased transform its own inverse, the same in both directions, and norm preserving. For log-periodic input the output is exactly the continuous Hankel transform at the separations (kr/r_c) exp((i+1-(n+1)/2) dlnr). The separations pk_to_real.py reports are one step smaller, so its projected correlation function of a log-periodic spectrum is w_i = e^d w(e^d r_i) and not w(r_i). fftl forward then backward is documented to give back the array and does not. The set-up ends in ValueError when both gamma functions have poles and |q| >= 2, although the documentation promises a finite result.", "quantifier": "all array lengths, orders, biases, spacings, starting products, arrays, modes with 2m < n and every logarithm of the gamma function", "why_tests_cant": "A test transforms a few arrays at one length; a shift by one step (0.3 percent at the defaults) hides in the tolerance of a comparison against quadrature, and the round trip for odd and even lengths with bias needs the algebra of the discrete Fourier transform.", "anchors": ["cosmosis_modules/pk_to_real/pyfftlog.py:fhti", "cosmosis_modules/pk_to_real/pyfftlog.py:fht", "cosmosis_modules/pk_to_real/pyfftlog.py:fhtq", "cosmosis_modules/pk_to_real/pyfftlog.py:fftl", "cosmosis_modules/pk_to_real/pyfftlog.py:krgood", "cosmosis_modules/pk_to_real/pk_to_real.py:Transformer.__init__", "cosmosis_modules/pk_to_real/pk_to_real.py:Transformer.__call__"]}
{"id": "C105", "title": "What the options of the ini file turn into", "statement": "The set-up of the CosmoSIS module depends on the options only through a fixed table of names and defaults: unknown names have no effect, and leaving an option out is the same as spelling out its default. The options bnl, mead2020_correction, cm_model and profile of the example file are unknown names. Bins of a sample are those of the options with its suffix, an observables file replaces them, 'None' becomes no value, numbers stay numbers, suffixes are written in small letters after an underscore, alignment sections and suffixes are paired in order, the emulator is needed exactly in mode bnl, and the redshifts of the halo model run from zmin_hmf to zmax_hmf. The documented defaults of hod_section_name_ia, _ia_1, _ia_2 and nobs do not exist: set-up fails without them. The documented values poisson_type = scalar and hmcode_ingredients = fit_feedback are refused.", "quantifier": "all option blocks (any names, any values of any type), with or without the emulator package", "why_tests_cant": "A test runs a few ini files; that no other name is ever read, for any combination of switches, is a statement about all option blocks.", "anchors": ["cosmosis_modules/onepower_interface.py:get_string_or_none", "cosmosis_modules/onepower_interface.py:setup_hod_settings", "cosmosis_modules/onepower_interface.py:setup_hod_settings_mm", "cosmosis_modules/onepower_interface.py:setup_hmf_config", "cosmosis_modules/onepower_interface.py:setup_pipeline_parameters", "cosmosis_modules/onepower_interface.py:setup_hod", "cosmosis_modules/onepower_interface.py:setup", "cosmosis_modules/module.yaml", "cosmosis_modules/example_ini_files/pipeline.ini"]}
{"id": "C106", "title": "Hankel transform module of Ogata type, and the options of both transform modules", "statement": "Options are accepted exactly when the correlation type is wp or ds, a sample is named and at least two points are requested; given options are used, missing ones replaced by the documented default, an empty section name counts as missing. The value stored for a separation r is the Hankel transform of the linearly interpolated spectrum at that r, up to the quadrature error over 2 pi r^2; it is linear in the spectrum (1-halo and 2-halo correlation functions add up), independent of the unit of length, and made from the bin's own section and redshift distribution. A decreasing positive spectrum is continued with negative power, for lensing the mean density is left out, and the module that changes the cosmology rejects every output.", "quantifier": "all option sections, numbers of bins, spectra, redshift distributions, quadratures, kernels and separations", "why_tests_cant": "the statements hold for every spectrum, quadrature and bin list; a test sees one of each, and the negative continuation only shows at separations below those tabulated", "anchors": ["cosmosis_modules/pk_to_real/pk_to_real_ogata.py:projected_corr", "cosmosis_modules/pk_to_real/pk_to_real_ogata.py:projection", "cosmosis_modules/pk_to_real/pk_to_real_ogata.py:setup", "cosmosis_modules/pk_to_real/pk_to_real.py:CosmosisTransformer.__init__", "cosmosis_modules/pk_to_real/pk_to_real.py:setup"]}
{"id": "C107", "title": "From power spectra to correlation functions in another cosmology", "statement": "The sections written by the power spectrum module are found again by the transform module under its default names exactly when one bin is used without suffixes or several bins with suffixes that are bin numbers; every other combination fails. With the suffixes 1 to n each correlation function is made from the spectrum and redshift distribution of its own bin, carries the mean density over 1e12 for lensing, and is multiplied by the ratio of cosmologies at its own redshift. A list of suffixes in another order pairs spectra with the redshift distributions of the position in the list.", "quantifier": "all selections of spectra, all numbers of bins of the two samples, all lists of suffixes, all spectra, redshift distributions, cosmologies and effective redshifts", "why_tests_cant": "each module has to be run inside CosmoSIS; the statement is about the composition of three modules for all bin counts and suffix lists", "anchors": ["cosmosis_modules/onepower_interface.py:save_pk_to_grid", "cosmosis_modules/onepower_interface.py:execute", "cosmosis_modules/pk_to_real/pk_to_real.py:CosmosisTransformer.__call__", "cosmosis_modules/pk_to_real/correct_cosmo_real.py:execute"]}
{"id": "C108", "title": "When the spectra are numbers", "statement": "No division by zero, invalid power or root of a negative number occurs in the matter spectrum for non-vanishing grid, density and cutoffs (in HMcode mode: positive sigma8 and wavenumber and two non-negative terms, when the transition exponent is not an integer). Galaxy and galaxy-matter spectra are numbers exactly when both the central and the satellite density are non-zero; the alignment spectra exactly when the satellite density (for GI also the central density) and the growth factor are non-zero and the factors (mean mass / pivot)**beta can be evaluated; the response needs a non-zero matter spectrum. Whenever an entry is a number it is the value all other properties speak about. A sample with non-negative occupations, some occupied halos at every node and a positive mass function has positive densities at every redshift between its nodes; a sample without satellites has no galaxy or alignment spectrum at all.", "quantifier": "all parameters, grids, profiles, occupations, bins, redshifts and wavenumbers, all modes and ingredients", "why_tests_cant": "a NaN shows only for inputs that reach the invalid operation; the statement is an equivalence over all inputs and all modes", "anchors": ["src/onepower/pk.py:satellite_galaxy_profile", "src/onepower/pk.py:central_galaxy_profile", "src/onepower/pk.py:transition_smoothing", "src/onepower/pk.py:power_spectrum_gg", "src/onepower/pk.py:power_spectrum_gm", "src/onepower/pk.py:power_spectrum_mi", "src/onepower/pk.py:power_spectrum_ii", "src/onepower/pk.py:power_spectrum_gi", "src/onepower/hod.py:number_density_sat"]}
{"id": "C109", "title": "What one call leaves in the data block", "statement": "Saving the results of a call succeeds exactly when the galaxy sample and the alignment sample have different sections. Afterwards every grid and array of matter, of every bin of both samples, of the observable function and of every requested spectrum is found under its own section and name with the value of that bin; no other section changes and of the cosmological parameters only fnu. The saved occupations and densities of centrals and satellites add up to the saved totals, the fractions to one inside the redshift range of the bin. The saved mean density is read by the transform module as one number. The virial radius saved without a redshift axis is that of the first redshift: it holds at another redshift exactly when the overdensity with respect to the mean density is the same there, which is always so for SOMean and never for SOCritical in a flat universe with a cosmological constant.", "quantifier": "all selections of spectra, numbers of bins of the two samples, section names other than the fixed ones, blocks, values, redshifts, masses and mass definitions", "why_tests_cant": "names are built from bin numbers and user-chosen section names; freedom from collisions is a statement about all numbers of bins and all names, the radius about all cosmologies", "anchors": ["cosmosis_modules/onepower_interface.py:save_matter_results", "cosmosis_modules/onepower_interface.py:save_hod_results", "cosmosis_modules/onepower_interface.py:save_obs_results", "cosmosis_modules/onepower_interface.py:save_pk_to_grid", "cosmosis_modules/onepower_interface.py:execute", "src/onepower/hmi.py:rvir_cen", "src/onepower/hmi.py:rho_halo", "src/onepower/hmi.py:mean_density0"]}
{"id": "C110", "title": "When the alignment ingredients are numbers", "statement": "The satellite alignment profile is a number for every accepted ell_max from 2 on exactly if the radial multipoles it uses are numbers and the slope gamma_1h_slope is not one of the integers -3, -4, -5, ...; there the general angular expression multiplies a zero coefficient by an infinite gamma function. The radial profile is a number at every positive radius for every amplitude and slope, and a radial multipole at a positive wavenumber exactly if the concentration exceeds -1 and neither concentration nor scale radius vanish. The luminosity-dependent amplitudes are numbers in a redshift bin without galaxies exactly if the slope (for faint galaxies, if there are two) is not negative, and in a bin with two different luminosities or none below 0.5 for every slope. Whenever the result is a number it is that of the model over the reals.", "quantifier": "all slopes, amplitudes, multipoles, ell_max, radii, concentrations, luminosity files and redshift grids", "why_tests_cant": "NaN is propagated silently; the set of slopes at which it appears is infinite and has measure zero", "anchors": ["src/onepower/ia.py:SatelliteAlignment.I_x", "src/onepower/ia.py:SatelliteAlignment.calculate_f_ell", "src/onepower/ia.py:SatelliteAlignment.wkm_f_ell", "src/onepower/ia.py:SatelliteAlignment.gamma_r_nfw_profile", "src/onepower/ia.py:SatelliteAlignment.compute_uell_gamma_r_hankel", "src/onepower/ia.py:AlignmentAmplitudes.mean_l_l0_to_beta", "src/onepower/ia.py:AlignmentAmplitudes.broken_powerlaw"]}
{"id": "C111", "title": "Rounding errors of the spectra", "statement": "In floating-point arithmetic with unit roundoff u, whatever the order in which np.sum adds its terms, Simpson's rule over n masses on a grid whose neighbouring steps differ at most by a factor 3/2 is the exact rule up to gamma_K = K u / (1 - K u) times the integral of the sizes of the values, with K = 7 (n/2 + lib + 17), lib being the number of roundings by which the library functions are off. For non-negative inputs known to j roundings each, the number densities, the fractions of centrals and satellites, the linear galaxy bias and the whole galaxy power spectrum outside bnl mode have a relative error of at most gamma_K with explicit K linear in j, n and lib; in double precision with at most 1000 masses the galaxy spectrum has twelve correct digits. The matter and galaxy-matter spectra have an error of at most gamma_K times the 1-halo term plus the 2-halo term with I_m + 2 for I_m, the missing-mass term an absolute error of 2 gamma_K, and the 1-halo terms of the alignment spectra an error of gamma_K times twice the undamped integral of the sizes. The relative accuracy of the alignment damping 1 - exp(-(k/k_trunc)^2) is lost on large scales: with p binary digits it is computed as zero once (k/k_trunc)^2 <= 2^-(p+3), where it is positive. The 2-halo integrals of the alignment profiles of centrals and satellites, missing mass included, and the matter-alignment, alignment-alignment and galaxy-alignment spectra outside the bnl and fortuna modes have an error of at most gamma_K times the integrals of the sizes of their factors.", "quantifier": "all arithmetics with relative rounding error u (all roundings, all summation orders), all numbers of masses, all smooth grids, all inputs and their errors", "why_tests_cant": "a test compares two floating-point numbers; it cannot bound the distance to the real number the formula stands for, for all inputs", "anchors": ["src/onepower/pk.py:Spectra.compute_1h_term", "src/onepower/pk.py:Spectra.compute_A_term", "src/onepower/pk.py:Spectra.compute_Im_term", "src/onepower/pk.py:Spectra.compute_Ig_term", "src/onepower/pk.py:Spectra.power_spectrum_mm", "src/onepower/pk.py:Spectra.power_spectrum_gg", "src/onepower/pk.py:Spectra.power_spectrum_gm", "src/onepower/pk.py:Spectra.one_halo_truncation_ia", "src/onepower/hod.py:HaloOccupationDistribution._mass_integral", "src/onepower/hod.py:HaloOccupationDistribution._bias_integral"]}
{"id": "C112", "title": "Redshifts and observable limits of the occupation model", "statement": "With an observables file of at least two rows there is one bin, whose redshifts are the first column and whose observables run, at each redshift, from the second to the third column in equal logarithmic steps; only the file and nobs matter, and the order of the rows does not (for distinct redshifts). With bin settings the limits are 10**obs_min and 10**obs_max at every redshift of the bin. A file that lists the redshifts of a bin with its limits in linear units gives the same occupation model as the bin settings. A file of one row always ends in a TypeError, fewer upper than lower limits in an IndexError, and a non-empty dictionary without the key observables_file in a KeyError. Without settings the grid is one bin of log10 observable 8 to 12, with 300 observables at each of 15 redshifts from 0 to 0.2.", "quantifier": "all files, all settings dictionaries, all numbers of rows, bins, redshifts and observables, all occupation parameters, all inputs from the spectra", "why_tests_cant": "tests use one bin of settings and never a file; the order of rows, the number of rows and the missing keys are unbounded", "anchors": ["src/onepower/hod.py:load_data", "src/onepower/hod.py:hod_settings_defaults", "src/onepower/hod.py:HaloOccupationDistribution.obs", "src/onepower/hod.py:HaloOccupationDistribution.data", "src/onepower/hod.py:HaloOccupationDistribution.nbins", "src/onepower/hod.py:HaloOccupationDistribution.nz", "src/onepower/hod.py:HaloOccupationDistribution.z", "src/onepower/hod.py:HaloOccupationDistribution.log_obs_min", "src/onepower/hod.py:HaloOccupationDistribution.log_obs_max", "src/onepower/hod.py:HaloOccupationDistribution._interpolate"]}
{"id": "C113", "title": "Clustering is the projected correlation function, lensing its excess over the disc", "statement": "The transform of order 0 used for clustering gives the projected correlation function of the spectrum, and the transform of order 2 used for lensing gives the mean of that function over the disc minus its value on the circle, which is what galaxy-galaxy lensing measures. Both real-space modules, as they are set up from their options, use the order that belongs to the requested statistic: the module with the package hankel up to the error of its sum, the FFTLog module for spectra that oscillate in the logarithm of the wavenumber, evaluated one logarithmic step above the reported separation and multiplied by that step.", "quantifier": "all spectra with k P(k) integrable, all separations, both statistics, all settings, all numbers of bins and redshifts, every quadrature", "why_tests_cant": "an integral identity between transforms for all spectra; tests compare a few numbers with stored ones", "anchors": ["cosmosis_modules/pk_to_real/pk_to_real.py:_TRANSFORM_PARAMETERS", "cosmosis_modules/pk_to_real/pk_to_real.py:Transformer", "cosmosis_modules/pk_to_real/pk_to_real.py:CosmosisTransformer", "cosmosis_modules/pk_to_real/pk_to_real_ogata.py:projected_corr", "cosmosis_modules/pk_to_real/pk_to_real_ogata.py:projection"]}
{"id": "C114", "title": "The likelihood is the Gaussian one of the bins, and which file meets which bin", "statement": "The sum over pairs of bins that the likelihood module computes equals the quadratic form of data minus theory, all bins one after the other, with the inverse of the covariance read from the file; the module that takes vectors from the block gives the same number. For a positive definite covariance it is never negative and vanishes exactly if all residuals do. Files meet the bins of the theory in the order of their names, whatever order the directory is listed in: with up to nine files numbered in their names that is the order of the bins, with ten or more it is not. A covariance larger than the data is accepted and never lowers the result; a smaller one is refused. In the mode interpolate the theory is the straight line in log separation, and data outside the theory's range are refused; in the mode integrate it is an integral over the bin and not a mean, in the unit of the file.", "quantifier": "all numbers of bins and of points per bin, all data, covariances, theories, file names with a common prefix and suffix, listing orders, units", "why_tests_cant": "a matrix identity over all block structures and an order over all file names; a test uses a few bins, fewer than ten", "anchors": ["cosmosis_modules/legacy/likelihood_ds_wp/mini_2pt_like.py:execute", "cosmosis_modules/legacy/likelihood_ds_wp/mini_2pt_like.py:load_datapoints_2d", "cosmosis_modules/legacy/likelihood_ds_wp/mini_2pt_like.py:covariance_aux_numbers", "cosmosis_modules/legacy/likelihood_ds_wp/mini_2pt_like.py:get_theory_point", "cosmosis_modules/legacy/utils/mini_like.py:execute"]}
{"id": "C115", "title": "The cold-matter correction, the fluctuations and the formation redshifts of the unused methods", "statement": "The ratio of the transfer functions of cold and total matter lies between 1 and one over the cold fraction, grows with the wavenumber, tends to one over the cold fraction on small scales and to 1 for few neutrinos, where the code switches to the value 1. The top-hat window never exceeds 1 in absolute value and tends to 1 on large scales; the fluctuations are real, grow with the power, scale with its square root and stay below those without window; with the ratio applied as the comment in the source says, those of cold matter lie between those of matter and those divided by the cold fraction. The formation redshift of a halo is the redshift of the call if its small-scale fluctuations are below the threshold and otherwise the earlier one at which they reach it; light halos form before heavy ones; one halo that would form before redshift 999 makes the whole call fail.", "quantifier": "all wavenumbers, growth factors, densities, neutrino fractions below one; all spectra and radii; all growth functions that increase, all masses, redshifts and thresholds, every root finder with scipy's contract", "why_tests_cant": "limits, bounds and monotonicity over all parameters; the methods are excluded from the coverage of the tests", "anchors": ["src/onepower/hmi.py:Tk_cold_ratio", "src/onepower/hmi.py:sigmaR_cc", "src/onepower/hmi.py:get_halo_collapse_redshifts"]}
{"id": "C116", "title": "When the occupations, the densities, the fractions and the biases are numbers", "statement": "On halo masses above zero the occupations of Simple, Zehavi and Zhai and the centrals of Zheng are numbers for all parameters. The satellites of Zheng at a mass up to the cut-off M0 are a number exactly when the slope is not negative. The centrals of Cacciato are numbers exactly when the scatter is not zero, the satellites exactly when norm_s is above zero or below zero with two integer exponents. With occupations that are numbers, fractions and bias at a sample redshift are numbers exactly when the number density is not zero; at a redshift of the spectra the two neighbouring sample redshifts decide; outside the sample the fractions are 0 in any case. A sample in which no halo of the grid holds a galaxy (Simple with Mmin above the grid) has density 0 and no bias and no fractions. For Cacciato with scatter and norm_s above zero, decorations below one, gentle grids and sample redshifts inside those of the spectra all quantities are numbers. Wherever a number comes out it is that of the model over the reals.", "quantifier": "all parameters of the five models, all masses and observables above zero, all grids, redshifts and bins", "why_tests_cant": "invalid operations give nan without an exception; which parameters reach them is a statement about the whole parameter space", "anchors": ["src/onepower/hod.py:Zheng._compute_hod_sat", "src/onepower/hod.py:Cacciato.COF_cen", "src/onepower/hod.py:Cacciato.COF_sat", "src/onepower/hod.py:HaloOccupationDistribution._bias_integral", "src/onepower/hod.py:HaloOccupationDistribution.f_c"]}
{"id": "C117", "title": "The rewritten library computes the spectra of the legacy modules", "statement": "On the same inputs, without neutrinos, with one non-linear mode at a time, the legacy module stores for each galaxy bin what the rewritten library returns, with and without the response and in every mode: all parts of mm, gg, gm and gI, the one-halo part and the total of II and mI, and the linear biases; with bnl this needs beta symmetric at the lowest mass for spectra of two different profiles only. The differences are exact: (1 - fnu)^2 in the one-halo part of mm; the exchanged row and column of beta; f_c in the average mass and f_c^beta in the satellite alignment; point_mass is ignored together with HMCode corrections by the rewritten library; the stored two-halo parts of legacy II and mI do not add up to the total. The legacy loop ends without exception exactly when a matter spectrum is requested (or the profile does not need it), both alignment instances are halo_mass, the Poisson parameters are given, and a response has a matter spectrum.", "quantifier": "all option sets, grids, ingredients, occupations, alignment inputs, beta arrays, bins, redshifts and wavenumbers", "why_tests_cant": "two implementations of thousands of lines are compared on all inputs and option combinations; tests compare stored numbers for a few configurations", "anchors": ["cosmosis_modules/legacy/pk/pk_lib.py:I_NL", "cosmosis_modules/legacy/pk/pk_lib.py:compute_p_gg", "cosmosis_modules/legacy/pk/pk_lib.py:compute_p_II", "cosmosis_modules/legacy/pk/pk_interface.py:execute", "src/onepower/pk.py:Spectra.power_spectrum_gm", "src/onepower/pk.py:Spectra.I_NL"]}
{"id": "C118", "title": "The legacy occupation module hands the spectra the galaxies of the rewritten library", "statement": "For every occupation model the legacy module accepts, the occupations, densities, fractions and stellar fraction that the legacy spectra load from it equal the ones the rewritten library computes on the same grids, the biases equal its bias integrals, the stellar fraction of all matter and the observable function per decade agree, and so the gg and gm spectra of the two legacy modules in a row are those of the rewritten library building its own occupation model. Only the mean halo mass differs: at a sample redshift the rewritten value is the central fraction times the legacy one, the same exactly when there are no satellites, and the satellite alignment profile differs by the fraction to the power of the mass slope. The legacy module writes a bin exactly when no occupation is negative on its grid; both modules need the same parameter names. The interface to the rewritten classes (hod_interface_no_loop) never makes its object: whatever the block holds, it stops, at the latest in the constructor.", "quantifier": "all models and parameters, assembly bias, grids of masses, redshifts and observables, bins, redshifts, masses, wavenumbers and option sets", "why_tests_cant": "two implementations with different order of interpolation and unit conversion are compared on all inputs; tests compare stored numbers for a few settings", "anchors": ["cosmosis_modules/legacy/hod/hod_lib_class.py:HOD", "cosmosis_modules/legacy/hod/hod_lib_class.py:Cacciato", "cosmosis_modules/legacy/hod/hod_interface.py:execute", "cosmosis_modules/legacy/pk/pk_lib.py:load_hods", "cosmosis_modules/legacy/pk/pk_lib.py:load_fstar_mm", "src/onepower/hod.py:HaloOccupationDistribution", "cosmosis_modules/legacy/hod/hod_interface_no_loop.py:execute"]}
{"id": "C119", "title": "The legacy add_and_upsample module writes the spectra of the original inputs, and agrees with the rewritten mixing exactly where stated", "statement": "After setup, execute runs exactly when the linear spectrum, the matter spectrum (if extrapolated) and all bins of the spectra to be extrapolated or added are in the block, with equal bins and shapes for red and blue. Each output is made from the inputs as they were before the call, whatever suffixes are chosen and in whatever order the bins are done; the change of sign has no effect; other sections stay. The rewritten library mixes after regridding, with the fraction at the output redshift: both agree at every redshift of the halo model and for a constant fraction, and between redshifts differ by -t(1-t) times products of changes. Outside the redshifts the legacy module stores zeros for samples without a redshift-dependent observable where the rewritten CosmoSIS module extrapolates, and for two alignment samples the rewritten module stores the first one alone.", "quantifier": "all options, suffixes, numbers of bins, blocks, spectra, grids, fraction tables, output redshifts and wavenumbers", "why_tests_cant": "freedom from overwriting needs all names and orders; the two implementations agree on the usual test points (grid redshifts, constant fractions) and differ between them", "anchors": ["cosmosis_modules/legacy/add_and_upsample/add_and_upsample.py:execute", "cosmosis_modules/legacy/add_and_upsample/add_and_upsample.py:add_red_and_blue_power", "cosmosis_modules/legacy/add_and_upsample/add_and_upsample.py:extrapolate_power", "cosmosis_modules/legacy/add_and_upsample/add_and_upsample.py:setup", "src/onepower/add.py:add_spectra", "src/onepower/add.py:extrapolate_spectra"]}
{"id": "C120", "title": "The legacy alignment modules and the rewritten alignment classes", "statement": "For dependences which both accept, with the values the legacy module reads present, the legacy and the rewritten code give the same large-scale and small-scale amplitudes at every redshift or both raise. The legacy module hands the pivot mass and slope of a population to the spectra exactly when that population's own option is the halo mass. The legacy angular factor equals the rewritten one for the radial slopes 0 and -2 and raises TypeError for every other slope, so the legacy radial module runs exactly for those slopes, ell_max up to 11 and at least nmass masses; when it runs, each value of the profile is the value of the rewritten class with the down-sampled halo parameters, the multipoles are those of both rewritten methods, and the interpolation to the spectra and the wavenumbers are those of the rewritten hankel method. The legacy down-sampling keeps the same columns of all four arrays, first and last included; it agrees with the rewritten one when masses and virial radii increase and every row of concentration and scale radius changes at the end. For any inclination other than a right angle the legacy angular factor is Simpson's rule for the integral over the polar angle of the azimuthal integral of the Legendre polynomial of the angle between the directions, times the phase of the azimuth.", "quantifier": "all options, values, luminosity files, redshift grids, slopes, ell_max, halo arrays of any size and any Bessel function", "why_tests_cant": "a test compares the two codes for one catalogue, slope and mass grid; the agreement is claimed for all of them, and the differences occur for slopes and concentration tables a test would not use", "anchors": ["cosmosis_modules/legacy/ia/ia_amplitudes.py:compute_luminosity_pdf,setup,execute", "cosmosis_modules/legacy/ia/ia_radial_lib.py:calculate_f_ell,gamma_r_nfw_profile,compute_uell_gamma_r_hankel,wkm_f_ell", "cosmosis_modules/legacy/ia/ia_radial_interface.py:downsample_halo_parameters,setup,execute", "cosmosis_modules/legacy/pk/pk_lib.py:get_satellite_alignment", "src/onepower/ia.py:AlignmentAmplitudes,SatelliteAlignment"]}
{"id": "C121", "title": "Binned observable functions of the legacy pipeline", "statement": "The legacy module that predicts binned observable functions starts exactly if a sample is named with the suffixes, there is one lower limit, upper limit and number of bins per suffix, and weighted binning comes with edges; it then writes one output per suffix with n_obs bins. With edges the observable of a bin is the geometric mean of its edges. Without weights a prediction is the linear interpolation of the observable function, zero outside its table; with redshifts it is the average with the redshift distribution, between the bounds of the function times the integral of n(z). With weights it is the weighted mean over the points above the lower and not above the upper edge, a number exactly if the weights in the bin do not sum to zero, and between the bounds of the function in the bin; without a file of weights every bin at least one fine step wide gives a number. With correct_cosmo predictions are multiplied with the ratio of comoving volumes, positive, and one for equal cosmologies. With weights and redshifts together only the first redshift is used; without the option suffixes a run always fails.", "quantifier": "all options, observable tables, redshift distributions, weights, cosmologies and bins", "why_tests_cant": "a test bins one function with one file of weights; empty bins, redshift dependence and the missing option show only for inputs a test would not choose", "anchors": ["cosmosis_modules/legacy/predict_observable/predict_observable.py:load_and_interpolate_obs,load_redshift,setup,execute", "cosmosis_modules/legacy/hod/hod_interface.py:execute"]}
{"id": "C122", "title": "Correlated parameters from uncorrelated ones", "statement": "The legacy module that correlates sampled parameters starts exactly with a square covariance file of at least two rows whose lower triangle has a Cholesky factor; the upper triangle is never used and the factor is unique. A run succeeds exactly if every name has the form section/name, every input is present, there are as many inputs as rows and not more outputs. Output i is the sum over the inputs up to i with row i of the factor, so it does not depend on later inputs; other entries of the block are left as they were. If the inputs have unit variance and no correlation, the outputs have the covariance of the file, and mean zero if the inputs have. With more outputs than rows it raises IndexError after the block has been changed.", "quantifier": "all lists of names, blocks, covariance files of any size and all distributions of the inputs with finite variances", "why_tests_cant": "the claim is about the joint distribution of the outputs and about all sizes; a test evaluates one point", "anchors": ["cosmosis_modules/legacy/utils/correlated_priors.py:setup,execute"]}
{"id": "C123", "title": "After the legacy scale cuts data, covariance and theory belong together", "statement": "Whatever cuts are made and statistics chosen, the data vector of the scale-cuts module is a subsequence of the entries of the file and its covariance is the covariance of the file at exactly the kept positions; the covariance that is cut has its blocks in the order of the measurement whatever their order in the file. Without cuts by position the kept entries are exactly those that pass every cut, and nothing raises; a cut by position counts the entries that earlier cuts left. If data and theory carry the same names, bins and angles before the cuts, they do so after them; cuts never touch one-point functions. The theory is ordered lens-major for galaxy-galaxy lensing and by i <= j read from bin_j_i otherwise. Also: cut_cross cuts for any text including False, angular ranges for Psi_gm and Psi_gg are ignored, statistics without a line (gammax, PneB, PeeB, Bn) are in the data and never in the theory, a cut by position of an absent statistic raises, and mock data with a one-point function of several bins come out longer than the mock vector.", "quantifier": "all files (any number of spectra, entries and one-point functions), all covariances and orders of their blocks, all options and lists of cuts, all data blocks", "why_tests_cant": "a misaligned covariance or theory vector is silent: all shapes agree and the likelihood is a number; the cuts act through masks of arbitrary length and order", "anchors": ["cosmosis_modules/legacy/scale_cuts/scale_cuts.py: setup, execute", "cosmosis_modules/legacy/scale_cuts/wrapper_twopoint.py: LabelConvention.makeScaleCutsArgs, SpectrumBuilder, TwoPointWrapper", "cosmosis_modules/legacy/scale_cuts/twopoint.py: TwoPointFile.mask_indices, mask_cross, mask_scales, mask_scale, choose_data_sets, get_cov_start, _mask_covmat"]}
{"id": "C124", "title": "The non-linear bias of the legacy modules: same table, stale cache, wrong axes", "statement": "With the least-squares constant for the shot noise the legacy double loop gives the table (or the exception) of the rewritten class for every emulator, spline and mass grid, and on the wavenumber grid of the code there always are wavenumbers to fit. The legacy fill puts the value for masses m1, m2 and wavenumber k at (m1, m2, k), and the legacy spectra read exactly that number at every redshift; it is entry (k, m1, m2) of the rewritten table for a cosmology that asks the emulator for the same parameters. For the same dark energy density it does not: the rewritten class asks for 0.00064 less. The table left by bnl_interface_class has axes (k, m, m): the legacy spectra stop, or for as many wavenumbers as masses silently use the number of other masses and another wavenumber. In a chain with update_bnl = u, the n-th successful call has the table of call u*floor(n/u), with that call's cosmology and wavenumbers; failing calls do not count, u = 0 never works. After the deleting module (outside test runs, unless told to keep) the legacy spectra cannot run.", "quantifier": "all emulators, splines, redshifts, grids of any size, blocks, chains of any length with failures anywhere, all integers update_bnl, all samplers and options", "why_tests_cant": "A test run makes one call, for which the cache is always fresh, and does not delete the table; the agreement of the two loops is over all emulators, and the axis error passes silently when the grids have equal length.", "anchors": ["cosmosis_modules/legacy/bnl/bnl_interface.py: setup, execute", "cosmosis_modules/legacy/bnl/bnl_interface_class.py: setup, execute", "cosmosis_modules/legacy/bnl/bnl_util.py: compute_bnl_darkquest, create_bnl_interpolation_function", "cosmosis_modules/legacy/bnl_delete/bnl_interface_delete.py: execute", "cosmosis_modules/legacy/pk/pk_interface.py", "src/onepower/bnl.py: NonLinearBias"]}
{"id": "C125", "title": "The legacy halo model ingredients: one object updated for ever, against the rewritten class", "statement": "Without HMcode corrections the single halo model of the legacy module has, at every redshift of every call and after any chain of calls (failing ones included), exactly the settings the rewritten class gives to separate objects for centrals and for satellites. Mass function, bias and densities are read after the update for the satellites, the rewritten class reads them from the centrals: these settings differ in the concentration's normalisation and the bloating only, and agree iff the block's values for satellites and centrals do. With HMcode corrections the centrals have the settings of the rewritten class except that the object carries the relation Duffy08; the concentration is computed by hand with amplitude K (the block's norm_cen is ignored). The satellites have amplitude norm_sat instead of norm_sat*K and the block's bloating instead of the HMcode formula. Scale radius times concentration is the virial radius without corrections; with corrections iff the dummy relation happens to give the concentration written. With feedback and no temperature in the block a call fails iff there is a redshift. Background functions, growth equation and initial values are those of the rewritten class at every positive scale factor. With neutrinos in omega_m the legacy matter density is larger by their density and the growth equation counts them twice. The legacy interface to the rewritten class can never make the object: the keywords omega_m and mead_correction are unknown to it.", "quantifier": "all options, chains of calls of any length with failures anywhere, blocks, grids of any size, all concentration relations and formation redshifts, all cosmologies and positive scale factors", "why_tests_cant": "The tests do not cover the legacy modules; leaks between calls or redshifts show only in chains, and the inconsistent scale radius is a plausible number.", "anchors": ["cosmosis_modules/legacy/halo_model_ingredients/halo_model_ingredients_halomod.py: setup, execute", "cosmosis_modules/legacy/halo_model_ingredients/halo_model_utility.py: _w, _X_w, _Omega_m, _Hubble2, _AH, get_growth_interpolator", "cosmosis_modules/legacy/halo_model_ingredients/halo_model_ingredients_halomod_class_interface.py: execute", "src/onepower/hmi.py: CosmologyBase, HaloModelIngredients"]}
{"id": "C126", "title": "Upsampled spectra share the halo model they are given", "statement": "UpsampledSpectra keeps the Spectra object it is given, not a copy. (a) Computing results, with or without a second population, never changes a halo model that existed before nor another upsampled object. (b) Without a second population the results after any history of updates of the shared model are those of an upsampled object made anew from the model as it is now; the interface relies on this when it replaces the occupation settings between the galaxy and the alignment spectra. (c) Disagreement: the second population is a copy made at the first results call, so after an update of the shared model an object with two populations mixes the new first population with the old second one. (d) With a model given, model_1_params is never looked at.", "quantifier": "all programs that make and update any number of halo models and upsampled objects and compute results in any order, including failing calls; all interpretations of construction, update and spectra", "why_tests_cant": "Aliasing shows only in histories of several objects; the tests build one object and read it once.", "anchors": ["src/onepower/add.py:UpsampledSpectra.power_1", "src/onepower/add.py:UpsampledSpectra.power_2", "src/onepower/add.py:UpsampledSpectra.results", "cosmosis_modules/onepower_interface.py:execute"]}
{"id": "C127", "title": "Changing a live alignment object", "statement": "On an AlignmentAmplitudes or SatelliteAlignment object: (a) if the options (what centrals and satellites depend on, the transform method) are the same at all reads and no plain attribute is assigned, every result is that of a newly built object with the present parameters; results that involve no plain attribute are so even with assignments. (b) Disagreement: beta_two, theta_k and phi_k are read by cached code but are not declared as parameters, so assigning them changes no result that was read before, until a declared parameter it depends on changes; if the attribute matters, a stale value is reported. Setting gamma_2h_amplitude to another value brings the central amplitude up to date after any history at all, setting gamma_1h_slope the satellite profile when the options stay the same. (c) Disagreement: the options are declared as plain parameters, not switches, so a quantity read first with a constant or mass dependent amplitude ignores updates of slope, pivot and file after luminosity is chosen, and one read first with fftlog ignores updates of nk, nmass and n_hankel after hankel is chosen.", "quantifier": "all parameters and attributes, all histories of reads, settings and assignments, all formulas", "why_tests_cant": "Quantifies over all histories; a test would have to guess which update in which order goes wrong.", "anchors": ["src/onepower/ia.py:AlignmentAmplitudes.alignment_gi", "src/onepower/ia.py:AlignmentAmplitudes.gamma_1h_amp", "src/onepower/ia.py:SatelliteAlignment.k_vec", "src/onepower/ia.py:SatelliteAlignment._downsample", "src/onepower/ia.py:SatelliteAlignment.wkm_f_ell", "src/onepower/ia.py:SatelliteAlignment.__init__"]}
{"id": "C128", "title": "Two-point files written and read again", "statement": "Writing a two-point file and reading it gives back redshift distributions of any number of bins with their numbers per bin, one-point functions with bins of one length, covariances whose lengths add up to their size, and spectra with window type SAMPLE, a known unit, columns of one length and no metadata; the errors are the roots of the diagonal over the block of the same name. A mock file written after any cuts and choice of statistics carries, when read again, exactly the covariance in use, although choose_data_sets leaves the written record unchanged. Disagreements: a cut leaves NPAIRS and VARXI at full length, so a cut spectrum that has them comes back with an entry of zeros for every entry that was cut; one-point functions with bins of different lengths come back longer, filled with zeros; a spectrum with window type LOG_MID loses its angles and in real space cannot be read; a spectrum read with an MD_ card or XTRA_ column cannot be written; if the lengths of a covariance do not add up, the last one is silently changed.", "quantifier": "all files, spectra, one-point functions, distributions and covariances of any length, all masks, cuts and choices of statistics", "why_tests_cant": "The round trip quantifies over all shapes of tables and all sequences of cuts; a test on one file with columns of equal length sees none of the losses.", "anchors": ["cosmosis_modules/legacy/scale_cuts/twopoint.py: SpectrumMeasurement.to_fits, from_fits, apply_mask", "cosmosis_modules/legacy/scale_cuts/twopoint.py: OnePointMeasurement.to_fits, from_fits", "cosmosis_modules/legacy/scale_cuts/twopoint.py: NumberDensity.to_fits, from_fits", "cosmosis_modules/legacy/scale_cuts/twopoint.py: CovarianceMatrixInfo", "cosmosis_modules/legacy/scale_cuts/twopoint.py: TwoPointFile._mask_covmat, choose_data_sets, to_fits, from_fits", "cosmosis_modules/legacy/scale_cuts/scale_cuts.py: execute"]}
{"id": "C129", "title": "Two-point files in memory: sample covariances, order, index, bins and the builder", "statement": "The sample covariance is symmetric and positive semidefinite in every mode and its correlations lie in [-1,1], are 1 on the diagonal and do not depend on the mode; on means over all patches but one, mode 'jk' is the unbiased covariance of the mean. Reordering without one-point functions, masking bad values, and building spectra without one-point functions keep every value with its rows and columns of the covariance; recomputed angular bins number the different angles in increasing order without gaps; units convert back and forth exactly; the overall index is the position in the data vector on a fresh file. Disagreements: mode 'jackknife', the documented name, is silently the full covariance; from_spec_lists overwrites the first realisation by the mean, so a second call finds another mean and covariance; the canonical order is by angle, second bin, first bin, not by first bin as commented; with one-point functions the reordered covariance has no inverse; the index is stale after a cut; get_nobs never returns; the builder fails on two one-point names and never returns one-point functions; edges from middles meet only on grids with the spacing of the second step.", "quantifier": "all numbers of realisations and points, all realisations and modes; all files, cuts and keys; all lists of angles; all sequences of added points with any labels", "why_tests_cant": "The claims range over all realisations, orders of points and cuts; positive semidefiniteness, permutation and staleness are statements about every input.", "anchors": ["cosmosis_modules/legacy/scale_cuts/twopoint.py: sample_cov", "cosmosis_modules/legacy/scale_cuts/twopoint.py: CovarianceMatrixInfo.from_spec_lists", "cosmosis_modules/legacy/scale_cuts/twopoint.py: SpectrumMeasurement.canonical_order, recompute_angular_bins, convert_angular_units", "cosmosis_modules/legacy/scale_cuts/twopoint.py: TwoPointFile.reorder_canonical, mask_bad, get_overall_index, get_nobs", "cosmosis_modules/legacy/scale_cuts/twopoint.py: SpectrumCovarianceBuilder", "cosmosis_modules/legacy/scale_cuts/twopoint.py: NumberDensity.from_block"]}
{"id": "C130", "title": "Live NonLinearBias objects follow their parameters, except for the amplitude option", "statement": "Whatever is read and set on a NonLinearBias object, every quantity is that of a newly built object with the present parameters, provided sigma_8 is only set while A_s is given once something has been read; and also without that proviso if the emulator was first needed while A_s was None. If instead a quantity was first read with A_s given, and A_s is then set to None and the quantity read again, no later setting of sigma_8 changes it. Setting any other cosmological parameter to another value repairs the object. Every parameter matters, sigma_8 exactly if A_s is None.", "quantifier": "all parameter values, all emulators, all histories of reads and settings in which an amplitude is given at every read", "why_tests_cant": "Staleness depends on the order of reads and settings; there are infinitely many histories and the emulator is not available in tests.", "anchors": ["src/onepower/bnl.py: NonLinearBias.emulator", "src/onepower/bnl.py: NonLinearBias.create_bnl_interpolation_function", "src/onepower/bnl.py: NonLinearBias.bnl", "src/onepower/bnl.py: NonLinearBias.ombh2, omch2"]}
{"id": "C131", "title": "Making the input files from a catalogue", "statement": "The script that makes the input files writes nothing for any catalogue: it stops with NameError at its first file, because z_bins is not bound. With the name bound it would write only the red fraction and stop with ValueError, because the first turn of the loop for the luminosity limits selects galaxies below the smallest redshift. The other turns select the galaxies of the bin before the one they report, and the last bin is never used. The parts that work: every galaxy is counted in exactly one bin of the red fraction, the red fraction times the galaxies of a bin is the number of red ones, red and blue fractions lie in [0,1] and add up to 1 in bins with galaxies and are undefined in others, limits are the smallest and largest luminosities selected, and the luminosity tables pair each galaxy's redshift with -0.4 (M_r - 4.76) and, with the blue centrals, cover the catalogue.", "quantifier": "all catalogues, all bins, all sets of bound names", "why_tests_cant": "There is no catalogue in the repository to run the script on; the claims range over all catalogues.", "anchors": ["legacy_input_files/input_files_generation.py"]}
{"id": "C132", "title": "Benchmarks: shared parameters and the trapezoidal class", "statement": "Testing the mass or wavenumber resolution leaves the parameters of a benchmark as they were, even if the library raises half way. Testing the resolution in the observable does not: the dictionary hod_settings is shared with the copy, so afterwards nobs is the last value tried, and every later test or file is made with it; nothing else ever changes in any session. What a test returns for a value is what the library gives for the parameters with this value alone changed, whatever the order and the other values. Asking for the matter spectrum alone needs all three spectra not to raise. The file of create_benchmark holds the spectra for the given parameters over those of the benchmark. SpectraWithTrapezoid integrates the same four integrands as the library with the trapezoidal rule: the error is at most 2 L delta times the length, the difference from Simpson's rule at most 8 L delta times the length, both tend to the same integral on the mass grid, the matter integral is still one at the first wavenumber, and a negative correction for low masses raises NameError where the library warns.", "quantifier": "all libraries (what Spectra computes is an arbitrary, possibly raising function), all parameters, all lists of values, all sessions; all grids, all continuous or Lipschitz integrands", "why_tests_cant": "Whether an earlier test spoils a later one depends on the whole session; that two integration rules agree is a statement about all resolutions.", "anchors": ["benchmarks/benchmarking.py: OnepowerBenchmark, SpectraWithTrapezoid", "src/onepower/pk.py: compute_1h_term, compute_A_term, compute_Im_term, compute_Ig_term"]}
{"id": "C133", "title": "Occupation models with several galaxy bins", "statement": "In Simple, Zehavi, Zheng and Zhai each parameter may be one number or a list with one number per galaxy bin. Whenever an occupation or a number density can be had there is one for each bin, and it is the formula of the model with the parameters of that bin. For two or more bins occupations and number densities can both be had exactly if every parameter in use has one value or one per bin and at least one has one per bin. With single values only, as with the defaults, hod_cen and hod_sat raise IndexError while the number densities work. With a wrong number of values the densities raise ValueError; the occupations raise IndexError if there are too few and silently drop the last ones if there are too many. For one bin the first values are used. The total occupation may be had though one of its parts cannot. The fractions are those of the densities, bin by bin.", "quantifier": "all numbers of bins, all parameters (numbers, lists of any length, arrays without axes), all integrals and mass functions", "why_tests_cant": "Broadcasting depends on the combination of the lengths of up to three parameters with the number of bins; tests try a few.", "anchors": ["src/onepower/hod.py: Simple, Zehavi, Zheng, Zhai, _interpolate, _mass_integral, hod_cen, hod_sat, hod, number_density_cen, f_c, f_s"]}
{"id": "C134", "title": "A live Spectra object reports the halo-model formulas at its present parameters", "statement": "Through all the caching, the six spectra a Spectra object reports (mm, gg, gm, mi, ii, gi) are the formulas of the halo model applied to the present parameters and to the ingredients the object itself reports at that moment: masses, mass function, bias, profiles, linear and non-linear power, occupation and alignment quantities. This holds for a new object and after any sequence of updates and reads in one regime of the options. The intermediate results (missing mass, large-scale integrals, profiles, effective power) are the corresponding formulas too. Without feedback, fitted gas fractions, point masses and default beta_nl, the non-linear mode and the response may be changed at any time as well. With feedback or fitted gas fractions the formulas mix the present densities of dark matter and baryons with the matter density of the moment of the first read.", "quantifier": "all parameter values, all ingredients (arbitrary functions of what their code reads), all histories of updates and reads of any length", "why_tests_cant": "The number of histories is unlimited; a wrong dependency or a value read from the wrong name shows up only for special sequences of updates.", "anchors": ["src/onepower/pk.py: Spectra, power_spectrum_mm, _power_spectrum_mm, power_spectrum_gg, power_spectrum_gm, power_spectrum_mi, power_spectrum_ii, power_spectrum_gi, A_term, Im_term, Ic_term, Is_term, Ic_align_term, Is_align_term, matter_profile, central_galaxy_profile", "src/onepower/hmi.py: omega_m"]}
{"id": "C135", "title": "The formulas do not depend on the units, except for built-in wavenumbers and a built-in gas mass", "statement": "Giving all inputs in other units of length and mass gives the same physical spectra in the new units: mm, gg, gm, mi, ii and gi (one-halo, two-halo and total) are multiplied by the cube of the length factor, the galaxy bias is unchanged, and the errors raised are the same. The occupation models give the same occupation numbers when the logarithmic mass and observable parameters are shifted; number densities, mean masses, fractions, biases, stellar fractions and galaxy observable functions change as their dimension says. There are exactly three exceptions, whose constants are built in for Mpc/h and Msun/h: the two-halo cut (unchanged only if the unit of length is kept), the HMcode dampings (same), and the gas mass of the feedback profile (scales only if the unit of mass is kept).", "quantifier": "all non-zero (positive for the occupation models) unit factors, all inputs, all grids, bins, modes and options", "why_tests_cant": "Consistency of dimensions is a statement about every input at once: a missing power of the mass or of the volume looks like another plausible number in any single test.", "anchors": ["src/onepower/pk.py: Spectra, compute_1h_term, compute_A_term, compute_Im_term, I_NL, one_halo_truncation_mead2020, two_halo_truncation_mead2020, power_spectrum_mm, power_spectrum_gg, power_spectrum_gm, power_spectrum_mi, power_spectrum_ii, power_spectrum_gi, two_halo_truncation, fg, transition_smoothing", "src/onepower/hod.py: HaloOccupationDistribution, Cacciato, Simple, Zehavi, Zheng, Zhai"]}
{"id": "C136", "title": "The results vary without jumps with the parameters, except at sharp mass thresholds", "statement": "While a sampler moves the parameters on fixed grids and options, all six spectra (one-halo, two-halo, total and the linear galaxy bias) vary continuously with all their inputs at every point where what they divide by is not zero; in response mode the halo-model matter power must not vanish. The occupations of Zheng and Zhai with scatter and of Cacciato vary continuously with all their parameters, and so do number densities, mean masses, fractions and biases. Exceptions, stated exactly: with the sharp thresholds of Simple and Zehavi (and of Zheng and Zhai with zero scatter) nothing at all changes while the threshold moves between two masses of the grid, and the density of centrals drops at once by the contribution of one grid mass when the threshold passes it; Zheng without scatter is the limit of small scatter except exactly at the threshold, where it is one instead of one half.", "quantifier": "all topological families of parameters and inputs, all grids, modes and options, all masses", "why_tests_cant": "Continuity is a statement about all nearby parameter values at once; a test with finite steps cannot tell a small jump from a slope.", "anchors": ["src/onepower/pk.py: Spectra, power_spectrum_mm, power_spectrum_gg, power_spectrum_gm, power_spectrum_mi, power_spectrum_ii, power_spectrum_gi", "src/onepower/hod.py: Cacciato, Simple, Zehavi, Zheng, Zhai, number_density, galaxy_linear_bias"]}
{"id": "C137", "title": "The legacy spectra read consistent tables, or stop, except for grids that are not compared", "statement": "The legacy power-spectrum module stops with an error exactly when the profiles are tabulated on other masses than the mass function, or a redshift of the mass function lies outside the redshifts of the linear power, the growth factor or (in response mode) the non-linear power; otherwise it reads the mass function, bias and profiles as stored and the powers interpolated exactly as the rewritten module does, which returns the table at its own nodes and continues a power law in wavenumber. The redshifts and masses of the bias and the redshifts of the profiles are not compared although the documentation of the reader promises a check: a bias (profile) tabulated on grids of its own is read correctly exactly where those grids coincide with the mass function's.", "quantifier": "all data blocks with complete sections, all grids and tables, with and without response", "why_tests_cant": "A test has one set of consistent tables; which inconsistent ones are caught and which are silently mixed is a statement about all of them.", "anchors": ["cosmosis_modules/legacy/pk/pk_lib.py: interpolate_in_z, get_linear_power_spectrum, get_growth_factor, get_nonlinear_power_spectrum, log_linear_interpolation_k, get_halo_functions, get_normalised_profile", "cosmosis_modules/legacy/pk/pk_interface.py: execute"]}
{"id": "C138", "title": "What a pipeline call writes is the halo-model formula at the arguments of that call", "statement": "One object lives through a whole chain of calls, with a cache, a change of galaxy sample within each call, a change of grid, an optional mixing of two samples, and a sequence of writes. After any earlier calls in the same regime (also failed ones, whatever was read in between), if a call completes then every requested spectrum and linear bias found in the data block is the halo-model formula evaluated at the arguments of this call with the ingredients the object then reports, continued by straight lines in redshift and in log10 of the wavenumber to the output grid. If no quantity that uses omega_m is involved (no feedback, fitted or point-mass profiles; table of the non-linear bias given) the ingredients are those of a new object built with this call's arguments, and the entire outcome of the call is the same for any two pasts. A call with one alignment sample completes exactly when every needed formula can be evaluated and the two samples do not share a section. Where output and halo-model grid points coincide, and always at the lowest and highest wavenumber, the saved number is the formula itself.", "quantifier": "all chains of earlier calls in the same regime, all reads in between, all arguments, output grids, selections of spectra and numbers of bins, one or two alignment samples, all implementations of the quantities not modelled", "why_tests_cant": "The statement joins cache, update, sample switch, resampling and output for all histories; a test runs a few chains and can only compare the code with itself.", "anchors": ["cosmosis_modules/onepower_interface.py: execute", "src/onepower/pk.py: Spectra", "src/onepower/add.py: UpsampledSpectra.results"]}
{"id": "C139", "title": "A pipeline call is a pure function of a known list of block entries, whatever ran before it", "statement": "Starting from any option file that set up the module and after any earlier calls (also failed ones): a call obtains its arguments exactly when the data block holds every entry on an explicit list that depends only on the options. Each entry is passed to the halo model unchanged under the stated name (mnu as m_nu, w as w0, m_b as a power of ten), with nothing collected and dropped. All calls of one module take the same branches of the halo model. If a call completes, every requested spectrum and bias written is the halo-model formula of a new object made with the entries of this block. Two calls whose blocks agree on the list have the same outcome, success or failure, number for number, for any two histories (in mode 'bnl' provided a new table is made in every call). Outside mode 'bnl' only nine cosmological numbers are on the list: curvature, omega_m, omega_lambda, the amplitude and the effective number of neutrinos may be changed or removed without effect.", "quantifier": "all option files, all data blocks, all chains of earlier calls, all output grids, all implementations of the quantities that are not modelled", "why_tests_cant": "That an entry has no effect, and that no earlier call has any, is a statement about all values and all histories; a test varies a few.", "anchors": ["cosmosis_modules/onepower_interface.py: execute", "cosmosis_modules/onepower_interface.py: setup", "cosmosis_modules/onepower_interface.py: setup_hmf_config", "src/onepower/pk.py: Spectra"]}
{"id": "C140", "title": "How the spectra react when an amplitude, a power spectrum or the completeness of the sample is multiplied", "statement": "In every non-linear mode and with or without response, the matter-intrinsic and galaxy-intrinsic spectra are linear, and the intrinsic-intrinsic spectrum a quadratic form, in the amplitudes of the central and satellite alignment inputs; the 1-halo parts depend on the satellites alone and the other spectra on neither. From the parameters: multiplying gamma_2h and gamma_1h by the same number that is not negative multiplies mi and gi by it and ii by its square, for every luminosity or mass dependence, as long as the cap of 0.3 on the satellite alignment is not reached. The sign of gamma_1h has no effect on any spectrum below the cap, and the cap applies to positive amplitudes only. Without response, a common factor of the supplied power spectra multiplies the 2-halo part and leaves the 1-halo part and the bias unchanged; with response (outside mode 'fortuna') a factor of the non-linear spectrum is a factor of every spectrum. A common factor of all occupations changes no spectrum and no bias. The Poisson factor multiplies the satellite-satellite 1-halo term only.", "quantifier": "all states of the spectra, all factors, all amplitudes, all dependences of the amplitudes, all galaxy samples, every homogeneous transform", "why_tests_cant": "A scaling law is an equality of functions for all factors and all other inputs; a test evaluates two factors at one set of inputs.", "anchors": ["src/onepower/pk.py: Spectra", "src/onepower/ia.py: SatelliteAlignment", "src/onepower/ia.py: AlignmentAmplitudes", "src/onepower/hod.py: HaloOccupationDistribution"]}
{"id": "C141", "title": "The growth function computed for the HMcode recipe exists, is unique, only grows, and stays in the range of the collapse fits", "statement": "In every flat universe with matter and dark energy w0 + wa (1 - a), the growth equation that get_mead_growth_fnc hands to the integrator has exactly one solution from a_init to today. That solution is positive and strictly increasing. Its rate of growth dlnD/dlna lies between the matter fraction of the time and 1 for w <= 2/3, so g/a never increases, strictly decreases when there is dark energy, and stays above Omega_m(a)^(1/(3p)) for w <= -p. For at least 20% matter and w <= -0.8 the arguments g/a and G/a of the fits lie between 1/2 and 1.001 at every scale factor, and the collapse threshold computed from them stays within 5% of the Einstein-de Sitter value. In a universe of matter only the solution is the scale factor. The formation redshifts of the legacy module are well defined for this growth function.", "quantifier": "all matter densities, dark energy equations of state (w0, wa) in the stated ranges, all scale factors between a_init and today, all solutions of the growth equation", "why_tests_cant": "A test integrates the equation for a few cosmologies; it cannot exclude that for some parameters the solution turns around, is not unique or leaves the range of the fits.", "anchors": ["src/onepower/hmi.py: get_mead_growth_fnc, get_mead_growth, get_mead_accumulated_growth, dc_Mead, _Omega_m, _Hubble2, _AH", "cosmosis_modules/legacy/halo_model_ingredients/halo_model_utility.py: get_growth_interpolator, get_halo_collapse_redshifts"]}
{"id": "C142", "title": "A sample selected from heavier halos is rarer and more biased", "statement": "Number density, galaxy bias and host mass respond to the parameters of the occupation models the way a user varying them expects. Of two populations of the same halos, the one whose occupation puts relatively more members into heavier halos has the larger mean bias and the larger mean host mass. Raising the minimum mass of centrals (sharp, or smooth at a fixed width), steepening satellites, raising their cut-off mass, or moving an observable bin upwards are all of this kind, for all five models; the normalisation mass of satellites only rescales their number. For a threshold sample whose satellites need a central (Simple) the published galaxy bias rises and the published number density falls at every redshift of the sample. Where satellites do not need a central (Zehavi) the bias of the whole sample can fall. The published avg_halo_mass falls when the threshold rises, because it is the mean times the number density.", "quantifier": "all mass grids with neighbouring steps within a factor 2, all non-negative mass functions, all halo biases that do not fall with mass, all parameter values in the stated ranges, all redshifts inside the range of the sample", "why_tests_cant": "A test compares two settings on one mass grid; the direction of the response for every mass function, bias and pair of settings is a statement about all of them, and rests on an inequality between ratios of error functions.", "anchors": ["src/onepower/hod.py: _mass_integral, _mean_mass_integral, _bias_integral, galaxy_linear_bias, number_density, avg_halo_mass, Cacciato, Simple, Zehavi, Zheng, Zhai"]}
{"id": "C143", "title": "Excluding points from the likelihood keeps data and covariance together, and can only lower chi squared", "statement": "For an array of point numbers that every bin has, the rows of the covariance that stay are those of the data points that stay, in the same order, and the sizes by which the covariance is cut into blocks are those of the data exactly if no number is given twice. For a positive definite covariance chi squared with points excluded lies between zero and chi squared with all points. A number beyond the end of a bin removes a point of the next bin from the covariance only, and beyond the end of the last bin it is an IndexError; a single number or a list, which the documentation allows, always fails. The errors and correlations derived from the covariance reproduce it, with correlations strictly inside (-1, 1). The normalisation constant is that of a normal distribution exactly if the number of data points is the square of the number of bins.", "quantifier": "all numbers and sizes of bins, all arrays of excluded points, all positive definite covariances and residuals", "why_tests_cant": "A test uses bins of one size and one list of points; whether rows and points stay together depends on all sizes and lists, and the bound on chi squared is a statement about all positive definite matrices.", "anchors": ["cosmosis_modules/legacy/likelihood_ds_wp/mini_2pt_like.py: load_covariance_2d, covariance_excluder, covariance_aux_numbers, load_datapoints_2d, load_data"]}
{"id": "C144", "title": "What dewiggling does to the linear power", "statement": "With scipy's Gaussian filter and wavenumbers equally spaced in ln k: the dewiggled power of a positive spectrum is positive; it stays inside the band that the linear power occupies around the smooth Eisenstein-Hu shape within about one unit of ln k, so wiggles are never amplified; a spectrum without wiggles is unchanged; apart from one velocity dispersion per redshift only neighbouring wavenumbers matter; the extracted wiggles sum to zero relative to the smooth shape; raising the amplitude never leaves more wiggle; on grids coarser than two units of ln k per step nothing is smoothed. Reading a positive linear spectrum, dewiggled or not, gives positive power. The legacy functions do the same with their own transfer function, which lies between zero and one.", "quantifier": "all log-spaced wavenumber grids with at least two points, all non-negative spectra, all smooth transfer functions, spectral indices, redshifts and modes", "why_tests_cant": "Positivity, the envelope and locality hold for every spectrum and grid; a test sees one cosmology.", "anchors": ["src/onepower/pk.py:Spectra.dewiggle_plin", "src/onepower/pk.py:Spectra.get_Pk_wiggle", "src/onepower/pk.py:Spectra.sigmaV", "src/onepower/pk.py:Spectra._pk_lin", "cosmosis_modules/legacy/pk/pk_lib.py:Tk_EH_nowiggle", "cosmosis_modules/legacy/pk/pk_lib.py:get_Pk_wiggle", "cosmosis_modules/legacy/pk/pk_lib.py:dewiggle"]}
{"id": "C145", "title": "More extended halos have less power, and unresolved halos give the upper bound", "statement": "Raising the normalised profiles of matter and satellites anywhere (more compact halos) lowers no part (one-halo, two-halo, total) of the matter, galaxy and galaxy-matter power at any redshift and wavenumber, makes the matter-alignment power no less negative, and leaves the intrinsic-intrinsic and galaxy-alignment power unchanged. With profiles of at most 1 and a matter budget that is not exceeded, the two-halo parts are at most the linear power times 1, the galaxy bias or its square, and the one-halo parts are at most the shot noise of the halos, whatever gas expulsion and stars do.", "quantifier": "all nonlinear modes but the beta_nl one, all baryon settings, all non-negative ingredients on a log-spaced mass grid, all pairs of ordered profiles, all bins, redshifts and wavenumbers", "why_tests_cant": "the claim compares two arbitrary families of profiles at all wavenumbers and through all combinations of modes and baryon settings; a test compares two profiles", "anchors": ["src/onepower/pk.py:Spectra.power_spectrum_mm", "src/onepower/pk.py:Spectra.power_spectrum_gg", "src/onepower/pk.py:Spectra.power_spectrum_gm", "src/onepower/pk.py:Spectra.power_spectrum_mi", "src/onepower/pk.py:Spectra.Im_term", "src/onepower/pk.py:Spectra.compute_1h_term", "src/onepower/pk.py:Spectra.transition_smoothing"]}
{"id": "C146", "title": "Dictionary parameters are shared by reference", "statement": "hod_settings, hod_params, obs_settings, hod_settings_mm, poisson_params and align_params are kept by reference. As long as a dictionary is not used again after it was given to a constructor (non-empty) or, empty, to update, every value read is the one of the caller's current values: an entry has the last value given since the last empty dictionary, entries left out stay, and the caller's dictionaries are not touched (the pipeline builds its Spectra without dictionaries and is of this kind; entries left over from the previous galaxy sample do not change the occupation model of settings as the pipeline writes them). Otherwise: changing a dictionary that was given to the constructor and giving it to update again, any number of times, has no effect on results already computed; updating one of two objects built from the same dictionary changes the dictionary of the caller and the other object, which notices only if it is recomputed for another reason; an empty dictionary given to update is later filled by the code.", "quantifier": "all finite programs that make and change dictionaries, build any number of Spectra from them or without, update and read them; all entries, all other parameters, all computed quantities, including ones that add entries themselves", "why_tests_cant": "the statement ranges over all interleavings of changes, updates and reads with any number of objects and dictionaries; a test follows one", "anchors": ["src/onepower/pk.py:Spectra.__init__", "src/onepower/pk.py:Spectra.alignment_class", "src/onepower/hod.py:HaloOccupationDistribution.__init__", "cosmosis_modules/onepower_interface.py:setup_hod_settings", "cosmosis_modules/onepower_interface.py:execute"]}
{"id": "C147", "title": "Stronger feedback lowers the matter power, and baryons never suppress it below the square of the cold fraction", "statement": "With everything else fixed, a higher gas mass scale, fewer stars, or a hotter AGN (log10_T_AGN from 7.3 up, redshifts 0 to 2.65) raises neither the one-halo part nor the total of the matter and galaxy-matter power at any redshift and wavenumber, does not move the negative matter-alignment power away from zero, and leaves all two-halo parts and the galaxy-galaxy, alignment-alignment and galaxy-alignment power unchanged; the one-halo matter power strictly falls where halos are resolved and not all baryons are stars. Whatever the recipe and its parameters, the matter power is at least (omega_c/omega_m)^2 times the power without baryon recipe (one-halo part and total), the galaxy-matter power at least omega_c/omega_m times, the one-halo matter-alignment power at least omega_c/omega_m times in size. Gas without stars never raises the matter power.", "quantifier": "all non-negative ingredients on gentle mass grids with profiles between 0 and 1, all baryon recipes, gas mass scales, stellar fractions within the baryon budget, AGN temperatures and redshifts in the given ranges, all bins, redshifts and wavenumbers, all non-linear modes (the bounds: all but bnl)", "why_tests_cant": "an inequality between two runs for all profiles, mass functions and parameter values; a test compares a few", "anchors": ["src/onepower/pk.py:Spectra.fg", "src/onepower/pk.py:Spectra.fs", "src/onepower/pk.py:Spectra.fg_fit", "src/onepower/pk.py:Spectra.compute_matter_profile_with_feedback", "src/onepower/pk.py:Spectra.compute_matter_profile_with_feedback_stellar_fraction_from_obs", "src/onepower/pk.py:Spectra._power_spectrum_mm", "src/onepower/pk.py:Spectra.power_spectrum_gm", "src/onepower/pk.py:Spectra.power_spectrum_mi"]}
{"id": "C148", "title": "Accuracy of the mass integrals at finite resolution", "statement": "On the logarithmic mass grid of the code, Simpson's rule gives the integral of any positive integrand whose first three derivatives in M are bounded relative to it (|M f'| <= A f, |M^3 f'''| <= K f) with relative error at most K/3 q^(3A) (q^3-1)^3, q = 10^dlog10m, for odd and even numbers of points; this is at most a constant times dlog10m^3. Hence the one-halo matter power equals the halo model integral over the grid, the number densities equal the integrals of the occupation over the mass function, and the bias of a sample equals the number-weighted mean bias, each up to an explicit relative error computed from the slopes of mass function, profile, occupation and bias. The same holds of the 2-halo matter term, which is the linear power times (1-J)^2 with J = int (M/rho)(1-u) b dn/dlnM dM/M: the rule errs on J only, so not at all on scales where halos are points. It holds of both terms of the galaxy power and of the galaxy-matter power as well. The range itself is short by one step: with dlog10m = (max-min)/nmass the grid has nmass points and leaves out the cell below log_mass_max, which is worth between the last counted cell divided by q^(2A) and that cell times q^(1+2A). It holds of both terms of the three alignment spectra in the plain and 'hmcode' modes too: the linear alignment of the centrals is exact at every resolution, that of the satellites is the integral over halos plus the alignment per mass of the lightest halos times the biased matter missing from the grid, with the errors of these two rules.", "quantifier": "all grids growing by a constant factor between 1 and 2 with at least three points, all integrands (all mass functions, profiles, occupations and biases) with the stated slopes, all redshifts, wavenumbers and bins", "why_tests_cant": "an error bound for all integrands and resolutions; a test compares a few resolutions of one cosmology with one another", "anchors": ["src/onepower/pk.py:Spectra.compute_1h_term", "src/onepower/pk.py:Spectra._power_spectrum_mm", "src/onepower/hod.py:HaloOccupationDistribution._mass_integral", "src/onepower/hod.py:HaloOccupationDistribution._bias_integral", "cosmosis_modules/onepower_interface.py:setup_hmf_config", "src/onepower/pk.py:Spectra.compute_Im_term", "src/onepower/pk.py:Spectra.compute_A_term", "src/onepower/pk.py:Spectra.compute_Ig_term", "src/onepower/pk.py:Spectra.power_spectrum_gg", "src/onepower/pk.py:Spectra.power_spectrum_gm", "src/onepower/pk.py:Spectra.power_spectrum_mi", "src/onepower/pk.py:Spectra.power_spectrum_ii", "src/onepower/pk.py:Spectra.power_spectrum_gi"]}
{"id": "C149", "title": "How strongly galaxies, matter and shapes can be correlated", "statement": "The squared galaxy-matter power is at most the matter power times the galaxy power (one-halo parts and totals) once the pairs of a galaxy with itself, which the code leaves out, are added to the galaxy power; these are at most the shot noise 1/n for every occupation with central probabilities and with a number of satellite pairs that belongs to a distribution (p N^2 + N >= N^2). So with shot noise the correlation of galaxies and matter never exceeds one, at any redshift and wavenumber; the power returned by the code, without shot noise, does exceed it for samples of mostly centrals, and with a Poisson factor too small for the number of satellites even shot noise does not help. In the plain mode the squared matter-intrinsic power is at most 4/3 of the intrinsic-intrinsic times the matter power, and the squared galaxy-intrinsic power at most 4/3 of the intrinsic-intrinsic times the galaxy power with shot noise (matter and galaxies damped like the alignments); in the one-halo parts without the factor 4/3.", "quantifier": "all mass functions, biases, occupations, profiles, alignments and Poisson models on gentle mass grids, all bins, redshifts and wavenumbers; modes none and fortuna for galaxies and matter, mode none for shapes; every baryon recipe for which both spectra see the same matter in a halo", "why_tests_cant": "an inequality between three spectra for all ingredients; a test checks it for a few", "anchors": ["src/onepower/pk.py:Spectra.power_spectrum_gg", "src/onepower/pk.py:Spectra.power_spectrum_gm", "src/onepower/pk.py:Spectra.power_spectrum_mm", "src/onepower/pk.py:Spectra.power_spectrum_mi", "src/onepower/pk.py:Spectra.power_spectrum_ii", "src/onepower/pk.py:Spectra.power_spectrum_gi"]}
{"id": "C150", "title": "Bin pairs of two-point measurements, and measurements taken from a data block", "statement": "A measurement whose columns have one length is a table of points. bin_pairs of a new measurement lists every pair of bins that occurs once, and going through it with get_pair and get_error gives every point with its own angle, value and error exactly once. cut_bin_pair removes exactly the points of that ordered pair from all these columns together and keeps the order of the rest; without such points it changes nothing and complains if asked to; the order and repetition of several cuts do not matter. After a cut bin_pairs still lists the pair that is gone, which does no harm in mask_scales. A measurement without angles is left half cut by the TypeError. OnePointMeasurement.from_block and NumberDensity.from_block read the bins from 1 up to the first that is missing, each with its own observable; edges stand beside their bins if all bins or none have them, but if only some have them, the place of the first bin without edges holds the edges of a later bin.", "quantifier": "all measurements with columns of one length, all pairs of bins and lists of pairs, all sections of the data block with fewer than 99998 bins", "why_tests_cant": "statements about all tables and all sequences of cuts; the files at hand have a fixed set of pairs and edges for all bins", "anchors": ["cosmosis_modules/legacy/scale_cuts/twopoint.py:SpectrumMeasurement.get_bin_pairs", "cosmosis_modules/legacy/scale_cuts/twopoint.py:SpectrumMeasurement.apply_mask", "cosmosis_modules/legacy/scale_cuts/twopoint.py:SpectrumMeasurement.cut_bin_pair", "cosmosis_modules/legacy/scale_cuts/twopoint.py:SpectrumMeasurement.get_pair", "cosmosis_modules/legacy/scale_cuts/twopoint.py:SpectrumMeasurement.get_error", "cosmosis_modules/legacy/scale_cuts/twopoint.py:OnePointMeasurement.from_block", "cosmosis_modules/legacy/scale_cuts/twopoint.py:NumberDensity.from_block", "cosmosis_modules/legacy/scale_cuts/twopoint.py:TwoPointFile.mask_scales"]}
{"id": "C151", "title": "Errors of the ingredients carry over to the spectra with known factors", "statement": "Take two objects on the same grids whose ingredients differ by at most given factors: mass function a, halo bias d, matter profile c, one minus the profile w, occupation (satellites with their profile) o, mean number density n, Poisson parameter p. Then the 1-halo matter powers differ by at most the factor a c^2; the 2-halo matter powers differ only through the biased matter J that is not seen, by at most (2|1-J|+e)e times the linear power with e=(a d w-1)J; the 1-halo galaxy powers by at most p o^2 n^2 a and the 2-halo galaxy powers by at most (a d o n)^2; the 1-halo galaxy-matter powers by at most o n c a, the 2-halo galaxy-matter powers by the error of the galaxy bias and that of J. Number densities of the sample differ by at most a o, its fractions by at most (a o)^2, its linear bias by at most a^2 d o^2, at redshifts inside those of the bin. In the plain and 'hmcode' modes the same holds of the alignment spectra: with the aligned satellites (number times alignment times mass dependence) known up to g and the linear alignment of the centrals up to h, the 1-halo powers of shapes with shapes, galaxies and matter are known up to (g n)^2 a, o g n^2 a and c g n a; if the lightest halos of the grid hold no satellites, the 2-halo power of shapes is known up to l^2 with l = max(h, a d g n), that of galaxies and shapes up to a d o n l, and in that of matter and shapes errors of matter enter through J only; the linear alignment of the centrals does not depend on mass function and bias at all.", "quantifier": "all pairs of objects with the same grids and linear power, on gentle mass grids with positive masses, without beyond-linear bias and response; all factors, redshifts, wavenumbers and bins", "why_tests_cant": "a statement about all pairs of inputs within given factors; a test compares a few pairs, and says nothing of the worst case", "anchors": ["src/onepower/pk.py:Spectra.power_spectrum_mm", "src/onepower/pk.py:Spectra.power_spectrum_gg", "src/onepower/pk.py:Spectra.power_spectrum_gm", "src/onepower/pk.py:Spectra.compute_1h_term", "src/onepower/pk.py:Spectra.compute_Im_term", "src/onepower/hod.py:HaloOccupationDistribution._mass_integral", "src/onepower/hod.py:HaloOccupationDistribution._bias_integral", "src/onepower/hod.py:HaloOccupationDistribution._interpolate", "src/onepower/pk.py:Spectra.power_spectrum_mi", "src/onepower/pk.py:Spectra.power_spectrum_ii", "src/onepower/pk.py:Spectra.power_spectrum_gi"]}
{"id": "C152", "title": "Galaxies that trace the mass of their halos have the spectra of matter, up to what is missing", "statement": "Let the galaxies of every halo follow its mass (centrals plus satellites times their profile are alpha times the mass times the matter profile), let pairs of satellites be Poisson pairs, and let the mean number density be that of alpha galaxies per mass in a part f of all matter. Then the 1-halo galaxy-matter power is that of matter divided by f; the 1-halo galaxy power is that of matter divided by f^2 less the pairs of a central with itself, and nothing else; between halos the matter factor I counts the part A of the matter that is missing from the sampled halos and the galaxy factor does not: it is (I-A)/f. Where halos are points and the mean number density is the number of these galaxies, f is the part of all matter that is in sampled halos, I is one, the galaxy bias is the mean bias of this matter, and it is one exactly if A = 1-f.", "quantifier": "all objects without beyond-linear bias and response, all occupations, profiles and densities with the stated relation, all bins, redshifts and wavenumbers", "why_tests_cant": "compares three spectra for every occupation that follows mass; a test picks one occupation and has no independent value for the result", "anchors": ["src/onepower/pk.py:Spectra.power_spectrum_mm", "src/onepower/pk.py:Spectra.power_spectrum_gg", "src/onepower/pk.py:Spectra.power_spectrum_gm", "src/onepower/pk.py:Spectra.compute_A_term", "src/onepower/pk.py:Spectra.compute_Im_term", "src/onepower/pk.py:Spectra.matter_profile", "src/onepower/pk.py:Spectra.central_galaxy_profile", "src/onepower/pk.py:Spectra.satellite_galaxy_profile"]}
{"id": "C153", "title": "How far interpolated results are from the functions they are taken from", "statement": "Let a table hold the values of a function whose second derivative is between -M and M, at sorted nodes at most h apart. Between the nodes linear interpolation is off by at most M h^2/8; at a distance d beyond the last node on either side it is off by at most M d(d+h)/2; a parabola meets both bounds. Hence: the power spectra handed to the halo model are within the factor (1 plus or minus eps) exp(plus or minus M h^2/8) of the tabulated function, with eps the relative error from the redshifts of the table, h the largest step of its log k, and M the largest change of the logarithmic slope per unit of log k. Upsampled spectra inside the coarse grid are off by at most Mz hz^2/8 + Mk hk^2/8, with steps in redshift and log10 k. The number density of a sample is off by at most E hz^2/8 + K hb^2/8: E the sum over halos of the occupation times the bound for the mass function, hz the steps of the halo model, K the bound for the density itself and hb the steps of the bin. The fractions of centrals and satellites are off by at most E hz^2/(8 nu) + K hb^2/8, with E bounding that sum for both kinds of galaxies and nu a number density the sample does not fall below. The linear biases are off by at most (E + b0 D) hz^2/(8 nu) + K hb^2/8: E the sum over halos of the occupation times the bounds for halo bias and mass function, D the one for the number density, and b0 a bound for the bias. The mass integrals behind the mean halo masses obey the bound for the number density with the sums over halos weighted by mass.", "quantifier": "all functions with the stated bounds, all sorted grids with at least two nodes, all requested points", "why_tests_cant": "a bound over all functions with a given curvature and all grids; a test measures the error of one function on one grid", "anchors": ["cosmosis_modules/onepower_interface.py:interpolate_in_z", "cosmosis_modules/onepower_interface.py:log_linear_interpolation_k", "src/onepower/add.py:UpsampledSpectra.extrapolate_spectra", "src/onepower/hod.py:HaloOccupationDistribution.dndlnm_int", "src/onepower/hod.py:HaloOccupationDistribution._interpolate", "src/onepower/hod.py:HaloOccupationDistribution.number_density", "src/onepower/hod.py:HaloOccupationDistribution.f_c", "src/onepower/hod.py:HaloOccupationDistribution.f_s", "src/onepower/hod.py:HaloOccupationDistribution.galaxy_linear_bias", "src/onepower/hod.py:HaloOccupationDistribution.halo_bias_int", "src/onepower/hod.py:HaloOccupationDistribution.avg_halo_mass"]}
{"id": "C154", "title": "Names of statistics in the options of the scale cuts", "statement": "Once setup has passed, every statistic of the theory vector is named by one of the sixteen fixed tags up to case. So a statistic whose extension has been given another name, which eleven options offer, is in the data if it is asked for by its tag and in no theory vector, whatever use_stats says. The data take a statistic whatever the case in use_stats, the theory only if it is spelt like the extension. With the names left alone, a statistic spelt like its extension is in both. A file of scale cuts replaces all inline options; a file that does not exist is reported as a missing key; without a file exactly the options whose first word is use, cut or keep count. The names for B-modes of cosmic shear are read and change nothing.", "quantifier": "all options, files, measurements, lists of statistics and theory sections", "why_tests_cant": "concerns every name a user may choose and every spelling of the list; a test tries a few, usually the defaults, which work", "anchors": ["cosmosis_modules/legacy/scale_cuts/scale_cuts.py:setup", "cosmosis_modules/legacy/scale_cuts/scale_cuts.py:execute", "cosmosis_modules/legacy/scale_cuts/wrapper_twopoint.py:LabelConvention.__init__", "cosmosis_modules/legacy/scale_cuts/wrapper_twopoint.py:LabelConvention.defaultToCustomStatsTag", "cosmosis_modules/legacy/scale_cuts/wrapper_twopoint.py:LabelConvention.makeScaleCutsArgs"]}
{"id": "C155", "title": "Two samples and their union", "statement": "Put two samples of galaxies into the same halos and also all of their galaxies together. With matter, the one-halo and two-halo power of all galaxies is exactly the mixture x P1 + (1-x) P2 which UpsampledSpectra computes, if x is the fraction of the number of galaxies. Between galaxies, the power of all galaxies is the mixture x^2 P1 + (1-x)^2 P2 plus 2x(1-x) times the pairs of a galaxy of one sample with one of the other: inside halos the integral of centrals of one with satellites of the other and of satellites of both, between halos the linear power times the product of both biases. With nothing negative the mixture is never above the power of all galaxies; between halos it is at least half of it, and exactly half when both samples contribute alike to the bias. If alignments do not depend on the mean mass of halos, the same holds for the alignments: with matter the mixture is that of all galaxies, between alignments, and between galaxies and alignments, the pairs of one sample with the other are missing.", "quantifier": "all halos, occupations, densities, wavenumbers, redshifts and bins, with halos linearly biased", "why_tests_cant": "compares three halo models for arbitrary populations; a test compares the mixture with its own formula", "anchors": ["src/onepower/add.py:UpsampledSpectra.add_spectra", "src/onepower/add.py:UpsampledSpectra.results", "src/onepower/pk.py:Spectra.power_spectrum_gg", "src/onepower/pk.py:Spectra.power_spectrum_gm", "src/onepower/pk.py:Spectra.power_spectrum_mi", "src/onepower/pk.py:Spectra.power_spectrum_ii"]}
{"id": "C156", "title": "A bin of the observable split in two", "statement": "Cut a bin of the observable at an odd point of its grid. The mean numbers of centrals and satellites and the stellar masses of both parts, on grids of the same spacing, add up exactly to those of the bin. With the same number of points for every bin, as the code has it, they add up in the limit of many points, and differ at most by the tolerances of the three grids. Then number densities and halo masses add, the bias is the mean weighted by number, and the galaxies handed to the spectra are the union of the parts. Decorated satellites add as well. Decorated centrals do not: with positive strength the parts have at least as many as the bin, and the same number exactly if one part is empty or the bin has at most half a central per halo. Two bins can have more than one central per halo together, although each bin has at most one.", "quantifier": "all parameters of the conditional function, limits, cuts, masses, numbers of points and strengths", "why_tests_cant": "compares three grids for arbitrary limits and numbers of points, and quantifies over all strengths of decoration", "anchors": ["src/onepower/hod.py:HaloOccupationDistribution.obs", "src/onepower/hod.py:Cacciato._compute_hod_cen", "src/onepower/hod.py:Cacciato._compute_hod_sat", "src/onepower/hod.py:Cacciato._compute_stellar_fraction", "src/onepower/hod.py:HaloOccupationDistribution._mass_integral"]}
{"id": "C157", "title": "Results at one bin, redshift and wavenumber do not depend on the rest of the grids, with two exceptions", "statement": "Keep any entries of the arrays over bins, redshifts and wavenumbers, in any order: the six spectra of the kept entries are the kept entries of the six spectra, in every mode, with or without response, and fail in the same cases. First exception: profiles are divided by their value at the first wavenumber of the grid. If the first wavenumber is kept, nothing changes; if it is left out and the transforms of the profiles fall with the wavenumber, the one-halo matter power and the two-halo matter integral rise at every kept wavenumber. Second exception: galaxies are counted at the redshifts of the sample with halos interpolated from the redshifts of the spectra. If the redshifts of the sample are kept, densities, fractions, bias and mean mass at the kept redshifts do not change; if the redshift of the sample is left out between two others, the number of galaxies changes by what the straight line between these is above the halos counted before.", "quantifier": "all choices and orders of entries, all inputs, modes and options", "why_tests_cant": "quantifies over all pairs of grids; a test compares two grids at a few points", "anchors": ["src/onepower/pk.py:Spectra.power_spectrum_mm", "src/onepower/pk.py:Spectra.power_spectrum_gg", "src/onepower/pk.py:Spectra.power_spectrum_gm", "src/onepower/pk.py:Spectra.power_spectrum_mi", "src/onepower/pk.py:Spectra.power_spectrum_ii", "src/onepower/pk.py:Spectra.power_spectrum_gi", "src/onepower/hmi.py:HaloModelIngredients.u_dm", "src/onepower/hmi.py:HaloModelIngredients.u_sat", "src/onepower/hod.py:HaloOccupationDistribution.dndlnm_int", "src/onepower/hod.py:HaloOccupationDistribution._interpolate"]}
{"id": "C158", "title": "What is left of the spectra where the profiles of halos have vanished", "statement": "As the profiles of matter and satellites go to zero at a redshift and wavenumber: the one-halo power of matter goes to that of the stars, which are kept as points in the feedback options, and to zero without them; the two-halo power of matter does not go to zero but to the linear power times the square of the missing mass term, damped except with the beyond-linear bias, and with non-negative ingredients it is never below that; in HMCode mode without feedback the total goes to the damped linear power. Galaxies keep the two-halo power of the centrals alone (in mode 'bnl' with the non-linear correction of pairs of centrals), with no one-halo term left; shapes with shapes and galaxies with shapes do not depend on the profiles at all. Galaxies with matter keep the centrals with the stars and the centrals with the missing mass, alignments with matter the aligned satellites with the stars and all aligned galaxies with the missing mass.", "quantifier": "all inputs without response, all families of profiles that vanish along any filter, all modes except those named in the theorems", "why_tests_cant": "a limit over all families of profiles; a test evaluates profiles at finitely many wavenumbers", "anchors": ["src/onepower/pk.py:Spectra.power_spectrum_mm", "src/onepower/pk.py:Spectra.power_spectrum_gg", "src/onepower/pk.py:Spectra.power_spectrum_gm", "src/onepower/pk.py:Spectra.power_spectrum_mi", "src/onepower/pk.py:Spectra.Im_term", "src/onepower/pk.py:Spectra.A_term", "src/onepower/pk.py:Spectra.I_NL", "src/onepower/pk.py:Spectra.compute_matter_profile_with_feedback", "src/onepower/pk.py:Spectra.compute_matter_profile_with_feedback_stellar_fraction_from_obs", "src/onepower/pk.py:Spectra.transition_smoothing"]}
{"id": "C159", "title": "What changes when only the number of satellites changes", "statement": "The mass scale of the satellites in Simple, Zehavi, Zheng and Zhai, the parameter b0 in Cacciato and the assembly bias of satellites multiply the satellites of all halos by one number and leave the centrals alone. Multiplying the satellites leaves the density of centrals, multiplies that of satellites, raises the density and the fraction of satellites, lowers the fraction of centrals, and moves the bias of the sample towards that of the satellites. Both terms of galaxies with matter are the means of those of centrals and of satellites, weighted with the fractions, and so is the bias in the two-halo power of galaxies. The one-halo power of galaxies is (2 c X + c^2 Y)/(nc + c ns)^2 with fixed X and Y: it rises with the number of satellites as long as they are at most half of the sample; beyond that, without pairs of satellites, it falls.", "quantifier": "all occupations with centrals and satellites, all factors, all masses; spectra without beyond-linear bias and response; densities, fractions and bias at redshifts inside those of the sample", "why_tests_cant": "a statement on the direction of change for all occupations and all factors", "anchors": ["src/onepower/hod.py:Simple._compute_hod_sat", "src/onepower/hod.py:Zehavi._compute_hod_sat", "src/onepower/hod.py:Zheng._compute_hod_sat", "src/onepower/hod.py:Zhai._compute_hod_sat", "src/onepower/hod.py:Cacciato.phi_star_s", "src/onepower/hod.py:Cacciato._compute_hod_sat", "src/onepower/hod.py:HaloOccupationDistribution.f_c", "src/onepower/hod.py:HaloOccupationDistribution.f_s", "src/onepower/hod.py:HaloOccupationDistribution.number_density", "src/onepower/hod.py:HaloOccupationDistribution.galaxy_linear_bias", "src/onepower/pk.py:Spectra.power_spectrum_gg", "src/onepower/pk.py:Spectra.power_spectrum_gm"]}
{"id": "C160", "title": "The range of halo masses, divided in two or made wider", "statement": "Divide the mass grid at an odd point. The mass in resolved halos, the one-halo power of matter in all modes, the numbers of centrals and satellites and the summed masses of their halos are exactly the sums over both parts. The matter integral of the two-halo term of the whole is that of either part minus what the profiles of the other part take away: the two-halo power of matter does not depend on the range where profiles are one, and with profiles below one a wider range never raises it. The one-halo power of galaxies with matter is the mean of that of both parts weighted with their galaxies, that of galaxies with galaxies has the squares of these weights and no term between the parts, and the two-halo power has the mean bias.", "quantifier": "all mass grids and all odd points with at least three masses above; all inputs without response", "why_tests_cant": "compares two grids for all ingredients and all points of division", "anchors": ["src/onepower/pk.py:Spectra.A_term", "src/onepower/pk.py:Spectra.Im_term", "src/onepower/pk.py:Spectra.compute_1h_term", "src/onepower/pk.py:Spectra.power_spectrum_mm", "src/onepower/pk.py:Spectra.power_spectrum_gg", "src/onepower/pk.py:Spectra.power_spectrum_gm", "src/onepower/hod.py:HaloOccupationDistribution._mass_integral", "src/onepower/hod.py:HaloOccupationDistribution._mean_mass_integral"]}
{"id": "C161", "title": "What a change of the non-linear mode changes", "statement": "Take the same ingredients in two modes. Galaxy clustering and galaxy-galaxy lensing are the same in all modes but bnl; the matter power is the same in the plain and the Fortuna mode, the alignment spectra in the plain and the HMcode mode; pairs inside one halo of galaxies or shapes are the same in all modes. HMcode replaces the damping of the one-halo matter power and the whole two-halo matter power, but only there: galaxies and matter then no longer share one two-halo field, and where halos are small against the wavelength the product of the auto-spectra is strictly below the square of the cross-spectrum. With the linear power the Fortuna mode is the plain mode without satellites, without the size of halos and without the mean mass dependence, and its galaxy-intrinsic term lacks one fraction of centrals. Without truncations the mode bnl adds to all six two-halo spectra a term proportional to its table. With response, galaxy spectra in two modes are in the inverse ratio of the matter powers of these modes.", "quantifier": "all inputs, pairs of modes, redshifts and wavenumbers; response off except in the last part", "why_tests_cant": "compares results of different modes for all ingredients", "anchors": ["src/onepower/pk.py:Spectra._power_spectrum_mm", "src/onepower/pk.py:Spectra.power_spectrum_mm", "src/onepower/pk.py:Spectra.power_spectrum_gg", "src/onepower/pk.py:Spectra.power_spectrum_gm", "src/onepower/pk.py:Spectra.power_spectrum_mi", "src/onepower/pk.py:Spectra.power_spectrum_ii", "src/onepower/pk.py:Spectra.power_spectrum_gi", "src/onepower/pk.py:Spectra.two_halo_truncation_mead2020", "src/onepower/pk.py:Spectra.I_NL", "src/onepower/pk.py:Spectra.peff"]}
{"id": "C162", "title": "The galaxy bias reported with the spectra and the bias read off the spectra", "statement": "power_spectrum_gg and power_spectrum_gm report a galaxy bias, the other four spectra none. The reported values know neither the non-linear mode nor response. In the plain and the Fortuna mode the ratio of the two-halo powers of lensing and matter is that of clustering and lensing; the value reported with clustering is this ratio times the matter integral. At the first wavenumber the value reported with clustering is this ratio, the value reported with lensing is its square root: the two agree only for a bias of zero or one, the latter is too low above one and too high below. With response the reported values leave out the response of the spectra they come with.", "quantifier": "all inputs, modes, settings of response, bins, redshifts and wavenumbers with a positive matter power and a non-negative cross power", "why_tests_cant": "a relation between reported numbers and ratios of spectra for all halo models and samples", "anchors": ["src/onepower/pk.py:Spectra.power_spectrum_gg", "src/onepower/pk.py:Spectra.power_spectrum_gm", "src/onepower/pk.py:Spectra.power_spectrum_mm", "cosmosis_modules/onepower_interface.py:save_pk_to_grid"]}
{"id": "C163", "title": "What switching on point masses changes", "statement": "The option pointmass acts on the one-halo terms of galaxies with matter and of matter with shapes only, and only without a recipe for baryons; clustering, the matter power, the other alignment spectra, all two-halo terms and the reported biases do not know it. In one halo it adds the stars as a point and removes from the smooth part what is neither cold matter nor kept gas: the halo gains at a wavenumber exactly where its profile is below the ratio of the two. Lensing rises where this holds for all halos and falls where the reverse holds; at the first wavenumber it can only fall, since expelled gas is put nowhere. Where all profiles have vanished, the one-halo matter power and the lensing without point masses are zero, while with point masses the lensing by the stars remains.", "quantifier": "all non-negative inputs with stellar fractions up to the baryon fraction, all bins, redshifts and wavenumbers; the exact parts for all inputs", "why_tests_cant": "compares two settings for all halo models, and needs the sign at every mass", "anchors": ["src/onepower/pk.py:Spectra.power_spectrum_gm", "src/onepower/pk.py:Spectra.power_spectrum_mi", "src/onepower/pk.py:Spectra.compute_matter_profile_with_feedback_stellar_fraction_from_obs", "src/onepower/pk.py:Spectra.fg_fit", "src/onepower/pk.py:Spectra._power_spectrum_mm"]}
{"id": "C164", "title": "How much the table of the non-linear halo bias can change", "statement": "With non-negative profiles a table of the non-linear halo bias that is nowhere lower gives two-halo spectra of matter, galaxies, lensing, shapes and galaxies with shapes that are nowhere lower, and of matter with shapes nowhere higher; one-halo terms do not change. A table with values up to eps in size changes each two-halo spectrum of the plain mode without truncation by at most eps times the linear power times the biased integrals of the two profiles (trapezoid rule, mass below the grid in the lowest halo); a constant table reaches this bound for matter, clustering and lensing.", "quantifier": "all non-negative inputs on gentle mass grids with at least two masses, all tables, bins, redshifts and wavenumbers, without response", "why_tests_cant": "an inequality between results for all pairs of tables and all profiles", "anchors": ["src/onepower/pk.py:Spectra.I_NL", "src/onepower/pk.py:Spectra.prepare_I22_integrand", "src/onepower/pk.py:Spectra.prepare_I12_integrand", "src/onepower/pk.py:Spectra.prepare_I21_integrand", "src/onepower/pk.py:Spectra.trapezoidal_integrator", "src/onepower/pk.py:Spectra._power_spectrum_mm", "src/onepower/pk.py:Spectra.power_spectrum_gg", "src/onepower/pk.py:Spectra.power_spectrum_gm", "src/onepower/pk.py:Spectra.power_spectrum_mi", "src/onepower/pk.py:Spectra.power_spectrum_ii", "src/onepower/pk.py:Spectra.power_spectrum_gi"]}
{"id": "C165", "title": "What a change of the truncation wavenumbers changes", "statement": "Matter, clustering and lensing never depend on one_halo_ktrunc_ia and two_halo_ktrunc_ia; without response the alignment spectra never depend on one_halo_ktrunc and two_halo_ktrunc; in mode 'hmcode' (or with response) the matter power depends on none of the options, and in mode 'bnl' no spectrum depends on a two-halo option. A change of one_halo_ktrunc from a to a' multiplies all one-halo terms of clustering and lensing, and of matter outside 'hmcode', by the same factor (q^4+a^4)/(q^4+a'^4) at wavenumber q (None counts as 0) and leaves two-halo terms and reported biases alone; a larger value never gives a larger one-halo term, the loss is at most the fourth power of a/a', and its relative size is at most |a'^4-a^4|/q^4. In the plain and 'fortuna' modes switching on two_halo_ktrunc multiplies all two-halo terms of matter, clustering and lensing by one common factor between 0.95 and 1. The alignment spectra have one-halo terms proportional to 1-exp(-(q/a)^2) and, outside 'bnl', two-halo terms proportional to exp(-(q/a)^2). With response the matter options reach the alignment spectra: each is inversely proportional to the halo-model matter power made with them.", "quantifier": "all objects, all pairs of option values (None or positive), all bins, redshifts and positive wavenumbers", "why_tests_cant": "an identity between two runs for all pairs of values of an option, and independence of a spectrum from an option for all its values", "anchors": ["src/onepower/pk.py:Spectra.one_halo_truncation", "src/onepower/pk.py:Spectra.two_halo_truncation", "src/onepower/pk.py:Spectra.one_halo_truncation_ia", "src/onepower/pk.py:Spectra.two_halo_truncation_ia", "src/onepower/pk.py:Spectra._power_spectrum_mm", "src/onepower/pk.py:Spectra.power_spectrum_gg", "src/onepower/pk.py:Spectra.power_spectrum_gm", "src/onepower/pk.py:Spectra.power_spectrum_mi", "src/onepower/pk.py:Spectra.power_spectrum_ii", "src/onepower/pk.py:Spectra.power_spectrum_gi"]}
{"id": "C166", "title": "The mass dependence of the alignments is a rescaling of amplitudes", "statement": "Setting beta_cen, mpivot_cen, beta_sat, mpivot_sat gives, in each bin and at each redshift, exactly the alignment spectra (matter-intrinsic, intrinsic-intrinsic, galaxy-intrinsic; one-halo, two-halo and total) of the object without them whose central alignment amplitude is multiplied by (mean halo mass/mpivot_cen)^beta_cen and whose satellite alignment is multiplied by (mean halo mass/mpivot_sat)^beta_sat, so that within one bin and redshift the options cannot be told from an amplitude. Multiplying a pivot by c is multiplying the amplitude by c^(-beta) for all bins and redshifts at once. The factor is one at the pivot, above one for heavier and below one for lighter bins when the slope is positive, and its ratio between bins does not depend on the pivot. Matter, clustering and lensing spectra never see the options; a slope without pivot or a pivot without slope is ignored; in mode 'fortuna' the options of the centrals are ignored by all spectra.", "quantifier": "all objects in every mode with and without response, all values of the four options including None, all bins, redshifts and wavenumbers", "why_tests_cant": "an exact degeneracy between two families of options for all their values and all populations", "anchors": ["src/onepower/pk.py:Spectra.compute_central_galaxy_alignment_profile", "src/onepower/pk.py:Spectra.compute_satellite_galaxy_alignment_profile", "src/onepower/pk.py:Spectra.mass_avg", "src/onepower/pk.py:Spectra.central_alignment_profile", "src/onepower/pk.py:Spectra.satellite_alignment_profile", "src/onepower/pk.py:Spectra.power_spectrum_mi", "src/onepower/pk.py:Spectra.power_spectrum_ii", "src/onepower/pk.py:Spectra.power_spectrum_gi"]}
{"id": "C167", "title": "What the model of the satellite pairs changes", "statement": "poisson_model and poisson_params reach the one-halo and total power of clustering and nothing else: matter, lensing, the three alignment spectra, the two-halo power of clustering and the bias reported with it are the same for every choice, with and without response, and clustering fails in the same cases. The one-halo clustering power is the damped sum of twice the central-satellite pairs and the satellite pairs weighted with the factor, so one-halo and total power are affine in it; a larger factor never lowers either, and a factor at most t times as large raises the one-halo power at most t-fold, and the total too where the two-halo power is not negative. In the power-law model moving the pivot by d dex is the same as multiplying the amplitude by 10^(-slope d); with slope zero the model is the constant one, whatever the pivot; a rising power law gives more clustering than the constant of the same amplitude if all halos are above the pivot, less if all are below.", "quantifier": "all objects, all pairs of factors as functions of halo mass, all amplitudes, pivots and slopes, all bins, redshifts and wavenumbers", "why_tests_cant": "independence of five spectra from a function-valued option and inequalities between two runs for all its values", "anchors": ["src/onepower/pk.py:Spectra.poisson_func", "src/onepower/pk.py:Spectra.power_spectrum_gg", "src/onepower/utils/poisson.py:constant", "src/onepower/utils/poisson.py:power_law"]}
{"id": "C168", "title": "The growth factor is an inverse amplitude of the central alignments", "statement": "With the other ingredients fixed, the growth factor reaches only the alignment of the centrals: at each redshift the matter-intrinsic, intrinsic-intrinsic and galaxy-intrinsic spectra made with growth factor D' are those made with D and the central amplitude multiplied by D/D', in every mode, with and without response; matter, clustering and lensing spectra do not see it. Hence the normalisation of the growth factor is a convention: c times the growth factor is the central amplitude divided by c, for all bins and redshifts at once. If the linear power grows with the square of the growth factor and only centrals are aligned, the two-halo power of shapes in the plain mode does not grow: it is the initial power times the squared amplitude; that of matter and shapes grows like the growth factor.", "quantifier": "all objects, all nonzero growth factors as functions of redshift, all bins, redshifts and wavenumbers", "why_tests_cant": "an exact relation between runs with two arbitrary growth histories", "anchors": ["src/onepower/pk.py:Spectra.alignment_amplitude_2h", "src/onepower/pk.py:Spectra.alignment_amplitude_2h_II", "src/onepower/pk.py:Spectra.compute_central_galaxy_alignment_profile", "src/onepower/pk.py:Spectra.power_spectrum_mi", "src/onepower/pk.py:Spectra.power_spectrum_ii", "src/onepower/pk.py:Spectra.power_spectrum_gi", "src/onepower/hmi.py:HaloModelIngredients.growth_factor"]}

{
"C03": {
"note": "Sum law proved for gg, gm, mi, ii, gi in all modes and with response, for mm outside hmcode/response; the two remaining mm cases are settled by C03_response_mm and C03_hmcode_not_sum (the total there is the smoothed sum of C04)."
},
"C07": {
"note": "The identity expected of an auto-power fails (C07_identity_fails); the exact deficit and the two-sided bound are proved."
},
"C09": {
"note": "MI/II consistency proved; GI is inconsistent by the factor f_c (C09_gi_consistent_iff, C09_gi_inconsistent)."
},
"C14": {
"note": "Non-negativity on grids with step ratio <= 2 and a counterexample on a coarser grid."
},
"C22": {
"note": "The documented bound is characterised exactly and refuted at z=3 for the default cosmology."
},
"C25": {
"note": "The property holds in the negative: omega_m is frozen at its first value for every history (law, iff and witness)."
},
"C74": {
"note": "Negation proved (under the documented hmf indexing contract): K ignores log10T_AGN after feedback is switched on by update."
},
"C27": {
"note": "Proved in the negative sense of the statement: refused updates are kept; objects with only successful updates are safe."
},
"C31": {
"note": "The guard is proved unreachable for every k array of length >= 2."
},
"C32": {
"note": "Exact acceptance conditions; with dewiggling a (n_z,1) array is accepted as well (C32_lin_shape_dewiggled)."
},
"C47": {
"note": "Agreement proved for slope -2; for slope 0 the table is proved to be the slope +1 one and to differ from slope 0."
},
"C48": {
"note": "One-dimensional arrays keep the end points; a two-dimensional array with a repeated last value comes out one entry shorter than the mass (C48_length_mismatch)."
},
"C75": {
"note": "Normalisation of the histogram proved; failure of the Simpson normalisation proved for every pair of distinct luminosities and for empty bins."
},
"C66": {
"note": "Schedule for every history, age below the interval, interval 0, no missing table, failures leave no trace."
},
"C67": {
"note": "The claim is that the option never works; also shown: it is accepted for alignment samples without galaxy spectra."
},
"C68": {
"note": "Proved as the code behaves: the options are exchanged."
},
"C69": {
"note": "Proved as the code behaves: the second sample has no effect."
},
"C73": {
"note": "Spectra sections only; HOD sections are named by the user."
},
"C83": {
"note": "Names written and failures; the values are C34-C46 results passed through."
},
"C84": {
"note": "Values, exact failures and the default."
},
"C85": {
"note": "Exact success condition; order of the bins; Cacciato independent of the bin count."
},
"C86": {
"note": "Includes extrapolation for power laws."
},
"C87": {
"note": "Exact refusal condition."
},
"C88": {
"note": "Samples given by options (no file); the file case is C67."
},
"C89": {
"note": "Exact arithmetic; with rounding `np.arange` can yield one point more."
},
"C90": {
"note": "Proved as the code behaves."
},
"C91": {
"note": "Section names; the values are those of the default settings (Model/Config)."
},
"C70": {
"note": "The product behaviour is proved, with the exact condition under which it is right."
},
"C71": {
"note": "Includes exact power laws of either sign and extrapolation."
},
"C72": {
"note": "Input units other than the four angles and two aliases are refused (simplification: astropy knows some more)."
},
"C92": {
"note": "The FFTLog matrix is a parameter here; C104_linear shows that pyfftlog's transform is one."
},
"C93": {
"note": "Proved as the code behaves: the grid is shifted by one step."
},
"C24": {
"note": "Fresh evaluation after any history; in the presence of branches for histories that keep the switches."
},
"C94": {
"note": "Under the regime hypotheses spelled out as `Regular` (switches not changed within a chain, as in the interface, where they come from setup)."
},
"C95": {
"note": "Proved as the code behaves: the chain law is exact (C95_stale_iff) and the failure is witnessed."
},
"C96": {
"note": "Exact statements per theorem; matter profile with feedback always looks at log10T_AGN and is therefore excluded from C96_agn_temperature."
},
"C97": {
"note": "Truncations of the 1- and 2-halo terms are factors of their own (C17, C18). The fractions of centrals and satellites equal the ratios of densities at nodes of the sample (C97_occupied)."
},
"C98": {
"note": "Safe for conditions other than the two switches only if they come out the same at every read; profiles, point masses and beta_nl must not bring in omega_m (C95 covers that)."
},
"C99": {
"note": "total, median, mean and bins of centrals; total and mean of satellites; normalisation; separation of parameters; per-dex units; Zhai cutoff"
},
"C100": {
"note": "error bound, general limit, both grids, matter spectra, occupation integrals, occupations of a bin"
},
"C101": {
"note": "range, single mass, not normalised, factor f_c and its consequence for the alignment scaling, witness below the smallest mass, outside the sample range"
},
"C102": {
"note": "nodes, power laws and range of the hankel branch; nodes and negative extrapolation of the fftlog branch; sign of the spectra"
},
"C103": {
"note": "NFW mass, normalisation if and only if R = c r_s, first-redshift radius, divergence without truncation, both methods equal the same integral (ideal transforms, slope 0 for the normalisation)"
},
"C104": {
"note": "round trips (biased, unbiased, singular), low ringing, self-inverse and Parseval, exact transform of log-periodic modes, shifted separations with a witness at every separation, linearity (discharges IsMatrix of C92), fftl not inverse, ValueError at double poles. The Mellin transform of the Bessel function is taken as the specification."
},
"C105": {
"note": "table of names and defaults, ignored options of the example file, bins, files, None values, suffixes, alignment names, emulator, redshifts, missing defaults, refused documented values."
},
"C106": {
"note": "The quality of the quadrature itself (package hankel) is a hypothesis: an error bound for the integrand at hand.",
"status": "proved"
},
"C107": {
"note": "The spectra themselves are arbitrary; C97 and others say what they are.",
"status": "proved"
},
"C108": {
"note": "Invalid operations inside hmf, halomod and the interpolators are not covered; rounding and overflow are not modelled.",
"status": "proved"
},
"C109": {
"note": "CosmoSIS rules for put, put_grid and assignment, and the hmf/halomod relations of radius, overdensity and mean density are assumed as stated in Model/Saved; names are compared case-sensitively.",
"status": "proved"
},
"C110": {
"note": "gamma(0) = inf in a denominator counts as invalid although inf would turn into 0 there; this affects no statement, since an invalid numerator occurs at the same slopes for every multipole from 1 on. Overflow is not modelled.",
"status": "proved"
},
"C111": {
"note": "no overflow or underflow; decimal constants are taken as exact; matter profile without feedback; default treatment of non-linearities.",
"status": "proved"
},
"C112": {
"note": "the parsing of numbers from text and a file without rows are not modelled; observables in the file are positive.",
"status": "proved"
},
"C113": {
"note": "the sum of the package hankel enters through its error on the spectrum at hand; FFTLog on its class of exact inputs (C104).",
"status": "proved"
},
"C114": {
"note": "what setup computes and never uses (errors, correlations, normalisation) is left out; astropy's unit is a factor; data files have at least two rows.",
"status": "proved"
},
"C115": {
"note": "the three methods are marked as currently unused in the source. The tolerance of root_scalar is ignored. What the docstring of sigmaR_cc calls variance is its square root.",
"status": "proved"
},
"C116": {
"note": "infinite values and nan are one element, and no operation leads back from it to a number. With an infinite density of satellites (Zheng, negative slope) the code's f_c is finite / inf = 0, which this model does not tell from nan; the theorems make no statement on f_c there. np.interp at a node next to a bad node is not distinguished either.",
"status": "proved"
},
"C117": {
"note": "the legacy ingredients (interpolations, log-log interpolation of wkm, load_hods) are inputs; missing block entries are not modelled. The dewiggled linear spectrum is an input of both.",
"status": "proved"
},
"C118": {
"note": "the file of observables and the pickled mass limits of setup, and the mode obs_onebin, are not modelled. The limits of the extended grid are given (legacy: extremes of z_bins and obs_simps; rewritten: extremes of the options, the same if zmin <= zmax and obs_min <= obs_max). The bilinear RegularGridInterpolator is an assumed contract.",
"status": "proved"
},
"C119": {
"note": "shapes that numpy would broadcast (an axis of length 1) count as unequal; lower() of names is left out; extrapolate_nan is never called.",
"status": "proved"
},
"C120": {
"note": "The Hankel transform, the histogram, Simpson's rule and the grid interpolation are the same external contracts on both sides. The option output_suffix only renames sections and is left out.",
"status": "proved"
},
"C121": {
"note": "The table of one suffix is assumed to be written with matching shapes; np.loadtxt, ast.literal_eval and astropy are external.",
"status": "proved"
},
"C122": {
"note": "np.linalg.cholesky is an external contract (lower triangle, positive diagonal, exception if there is no factor), shown to determine the result.",
"status": "proved"
},
"C123": {
"note": "full; the FITS input is taken as the lists that from_fits builds, and int, float and split are parameters",
"status": "proved"
},
"C124": {
"note": "curve_fit is any function that attains the least sum of squares",
"status": "proved"
},
"C125": {
"note": "settings of the halo model objects and what is computed from them by hand; halomod's own computation is external",
"status": "proved"
},
"C126": {
"note": "construction, update and spectra of a halo model are arbitrary functions; that hmf's parameter setter stores the object and not a copy is assumed",
"status": "proved"
},
"C127": {
"note": "what is computed from the values read is arbitrary; the hmf cache contract is assumed; reads that raise are not claimed",
"status": "proved"
},
"C128": {
"note": "astropy stores what it is given and fills short columns with zeros (assumed); window type CLBP left out",
"status": "proved"
},
"C129": {
"note": "label of a spectrum stands for kernels and types; unit sizes are positive parameters",
"status": "proved"
},
"C130": {
"note": "hmf cache contract as in Lib/HmfCache; reads while neither amplitude is given (ValueError) are excluded",
"status": "proved"
},
"C131": {
"note": "figures are left out; the 4-byte table format is not modelled",
"status": "proved"
},
"C132": {
"note": "",
"status": "proved"
},
"C133": {
"note": "",
"status": "proved"
},
"C134": {
"note": "",
"status": "proved"
},
"C135": {
"note": "",
"status": "proved"
},
"C136": {
"note": "",
"status": "proved"
},
"C137": {
"note": "",
"status": "proved"
},
"C138": {
"note": "",
"status": "proved"
},
"C139": {
"note": "",
"status": "proved"
},
"C140": {
"note": "",
"status": "proved"
},
"C141": {
"note": "Exact solution of the differential equation; the error of solve_ivp and of interp1d is not modelled. The neutrino fraction and the matter fraction with radiation used by dc_Mead are free parameters.",
"status": "proved"
},
"C142": {
"note": "Halo bias is assumed not to fall with mass (it comes from a fit outside the library). Centrals of the smooth and observable-bin models are treated without assembly bias.",
"status": "proved"
},
"C143": {
"note": "The module's setup passes exclude=None; the property is about its functions. The normalisation is compared with the normal density for independent errors.",
"status": "proved"
},
"C144": {
"note": "scipy's gaussian_filter1d is modelled from its documented definition; hmf's no-wiggle transfer function stays arbitrary.",
"status": "proved"
},
"C145": {
"note": "the beta_nl mode is excluded (the sign of beta_nl is free); in hmcode mode the ordering needs the two-halo damping to be non-negative (C19 says when)",
"status": "proved"
},
"C146": {
"note": "conditional on hmf's setter merging dictionaries in place (section 4)",
"status": "proved"
},
"C147": {
"note": "response = False; profiles fixed, the AGN dependence of the concentration is C28",
"status": "proved"
},
"C148": {
"note": "matter, galaxy and galaxy-matter spectra outside the bnl and hmcode modes; alignment spectra have the same integrals, their limit is C100",
"status": "proved"
},
"C149": {
"note": "totals in modes none and fortuna only; in hmcode mode the matter total is smoothed and in bnl mode the two-halo parts are not products",
"status": "proved"
},
"C150": {
"note": "legacy code; cut_bin_pair is a method of the measurement and leaves the covariance of the file alone",
"status": "proved"
},
"C151": {
"note": "plain matter modes for mm; gg and gm for every mode but bnl; factors for the occupation are common to centrals and satellites",
"status": "proved"
},
"C152": {
"note": "matter in the modes with the plain matter profile; at wavenumbers where the relation holds",
"status": "proved"
},
"C153": {
"note": "exact arithmetic; the number density, mass integrals, fractions and biases for bins whose redshifts are inside those of the halo model; upsampled spectra inside the coarse grid",
"status": "proved"
},
"C154": {
"note": "legacy module; options of type string; files that configparser cannot read are not modelled",
"status": "proved"
},
"C155": {
"note": "without nonlinear halo bias and without response; the Poisson function and the stellar fraction are common to both samples; alignments of both kinds only without dependence on the mean halo mass",
"status": "proved"
},
"C156": {
"note": "the parts share halos and redshifts",
"status": "proved"
},
"C157": {
"note": "the linear and nonlinear input power are arrays here; dewiggling mixes wavenumbers (C144), and so do the alignment profiles outside their own wavenumbers (C102)",
"status": "proved"
},
"C158": {
"note": "gg in bnl mode and mi in fortuna mode are not stated; alignment profiles are kept fixed, since they are separate arrays",
"status": "proved"
},
"C159": {
"note": "the mean mass of halos that enters alignments changes as well and is not followed here",
"status": "proved"
},
"C160": {
"note": "two-halo terms of matter without beyond-linear bias and HMCode mode; the division point is shared by both parts",
"status": "proved"
},
"C161": {
"note": "ingredients are held fixed: a user who changes the mode may change them too; the strict inequality of HMcode needs the matter integral to be one and no two-halo truncation",
"status": "proved"
},
"C162": {
"note": "a negative bias is left out: the code takes the square root of a negative number for lensing (C108)",
"status": "proved"
},
"C163": {
"note": "where some halos gain and others lose at a wavenumber, the sign of the sum is not stated",
"status": "proved"
},
"C164": {
"note": "the bound uses the trapezoid rule of I_NL, the plain term Simpson's rule",
"status": "proved"
},
"C165": {
"note": "a value of zero, which divides by zero in the code, is excluded",
"status": "proved"
},
"C166": {
"note": "the power law with a negative base is the real-power convention of the model; the pivot theorem asks for a nonnegative mean mass",
"status": "proved"
},
"C167": {
"note": "the inequalities are for a grid of masses on which Simpson's rule has nonnegative weights and for nonnegative halos and galaxies",
"status": "proved"
},
"C168": {
"note": "the growth factor itself comes from hmf and is an input of the model",
"status": "proved"
}
}
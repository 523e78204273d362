# DESIGN — formal model of KiDS-WL/onepower in Lean 4

## 1. Approach

`/repo` is numerical Python (numpy/scipy/hmf). The model is a *shallow, function-by-function
transcription* of the Python code into Lean:

* **Floats** are modelled by real numbers (`ℝ`). Rounding, overflow, `inf` and `NaN` are not modelled,
  except that C108 and C110 determine exactly where the spectra and the alignment ingredients meet an
  invalid operation, and C111 bounds the rounding errors of the spectra.
  Where Python would produce `NaN`/`inf` or raise (division by zero, root of a negative number, power
  of a negative base), the theorem carries the guard as a hypothesis; Lean's totalised values are never
  relied upon.
* **Arrays** are modelled as functions from indices plus explicit lengths (`nz`, `nk`, `nm`, ...).
  numpy broadcasting of `x[np.newaxis, :, np.newaxis, :]` is modelled by applying the function to the
  indices that survive; every model function is therefore "the entry (bin, z, k) of the array the Python
  property returns". Where lengths or broadcasting are themselves the point (bin counts, shape checks,
  down-sampling, flat-index fill) lists and explicit lengths are used.
* **Exceptions** are values (`Except PyErr α`), Python `None` is `Option.none`.
* **Objects with state** (hmf cache, `UpsampledSpectra`, the CosmoSIS config/block) are explicit state
  machines; properties about them quantify over arbitrary histories (lists of operations).

Directory layout (`lean/Verif/`):

* `Lib/` – models of the numpy / scipy / stdlib primitives the code calls (trapezoid weights are in the
  code itself; `scipy.integrate.simpson`, `interp1d(kind='linear')`, `np.tile/repeat/diff/sign`, `erf`, ...).
* `Model/` – the model of onepower's own code, one file per Python file, each definition citing
  `/repo` lines.
* `Lemmas/` – helper lemmas.
* `Spec/` – small specifications written without reference to the model (what a trapezoid sum is, what
  "between" means, ...), used in theorem statements.
* `Props/` – the property theorems (named `Cnn_...`) and, beside each, `example`s showing that concrete
  non-trivial data meet the hypotheses.

## 2. Trusted base

* Lean 4.33.0's kernel and the statement of the theorems; axioms used: only `propext`,
  `Classical.choice`, `Quot.sound` (checked by `#print axioms`; no `sorry`, no own axioms, no
  `native_decide`/`bv_decide`).
* That the definitions in `Model/` say what `/repo` says (they cite lines) and that the `Lib/`
  definitions say what numpy/scipy/hmf do. The external behaviours assumed are listed in section 4.

## 3. Properties: what is modelled and how it is proved

English statements are in `properties.jsonl`.

| id | title | model and proof |
|---|---|---|
| C01 | Large-scale limit of the matter 2-halo term | Simpson quadrature as a concrete functional in `Lib/Simpson`; `Im_term`, `compute_A_term`, `u_dm` transcribed; proof by linearity of the functional. |
| C02 | Halo profiles are normalised to the first wavenumber | `u_dm`/`u_sat` normalisation transcribed from `_hmf_generator` outputs; direct algebra. |
| C03 | Total power is the sum of the 1-halo and 2-halo parts | all six spectra transcribed as records of functions of (bin,z,k) with a configuration record; case split over mode/response, ring. |
| C04 | HMcode transition smoothing | `transition_smoothing` with real powers; inequalities from Mathlib rpow sub/super-additivity. |
| C05 | Galaxy-galaxy 2-halo term is the squared galaxy bias times the linear power | algebra on the transcription, sqrt of a square. |
| C06 | On 2-halo scales galaxies and matter are perfectly correlated | algebra. |
| C07 | Intrinsic-intrinsic 2-halo term and the central-satellite cross term | algebra: exact deficit, two-sided bound, and a concrete refutation. |
| C08 | Central alignment 2-halo integral reduces to the linear alignment amplitude | linearity of Simpson + definition of A. |
| C09 | Fortuna mode: effective power and central alignment terms | algebra + convexity; concrete refutation for gi. |
| C10 | Vanishing non-linear halo bias | I_NL with zero table vanishes (sums of zeros); compare modes. |
| C11 | Non-linear halo bias integral: symmetry and bilinearity | Finset sums; sum exchange. |
| C12 | Non-linear halo bias integral for constant beta_nl factorises | Finset sums factor. |
| C13 | Trapezoidal mass integrator | induction on number of points. |
| C14 | 1-halo terms of auto-spectra are non-negative | Simpson weights are non-negative for step ratios <= 2 (incl. end correction); explicit counterexample otherwise. |
| C15 | 1-halo Cauchy-Schwarz | weighted Cauchy-Schwarz with the non-negative Simpson weights. |
| C16 | Signs of the alignment spectra | positivity through the transcription. |
| C17 | 1-halo large-scale damping | real analysis. |
| C18 | The 2-halo truncation wavenumber | definitional independence stated at the level of whole spectra + bounds. |
| C19 | HMcode damping factors | rpow monotonicity; limit for the only-if part. |
| C20 | Response mode | algebra. |
| C21 | Baryon budget of the feedback profile | order algebra + a Tendsto statement. |
| C22 | HMcode stellar fraction stays below the baryon fraction | rpow estimates; explicit witness at z=3. |
| C23 | Units of the gas mass pivot | explicit estimate. |
| C24 | Changing a parameter changes every result that depends on it | generic model of the hmf cache: quantities are programs reading parameters/quantities; invariant by induction over histories => memo = fresh evaluation. C24_fresh_in_regime: also with quantities that read different parameters in different branches, for histories that keep the switches |
| C25 | omega_m is stale after an update | frozen cell semantic; law for every history + witness. |
| C26 | Accepted configurations never hit an unassigned spectrum | validation transcribed over arbitrary strings; `Except`-valued matter spectrum with an UnboundLocal error. |
| C27 | A rejected update is not rolled back | update as assign-then-validate; theorem over all objects. |
| C28 | HMcode ingredients override user choices | configuration functions transcribed. |
| C29 | Per-redshift halo models do not leak into one another | loop as fold over per-z settings, invariant: state after step i = function of entry i. |
| C30 | Dewiggled power lies between the linear and the smooth power | algebra with an arbitrary smoothing operator. |
| C31 | The k-spacing guard of the dewiggling | np.diff/np.all/np.isclose modelled on lists of reals. |
| C32 | Shape of supplied power spectra is enforced | Except-valued readers with shapes. |
| C33 | Galaxy counts split into centrals and satellites | HOD base class transcribed, interpolation and Simpson linear. |
| C34 | Central and satellite fractions | interp1d model: in-range partition; fill 0 outside. |
| C35 | Central occupation is a probability | occupation formulas; erf model bounded by Gaussian integral. |
| C36 | Assembly bias of step-like centrals has no effect | case split. |
| C37 | Error-function centrals | erf strictly monotone, odd, limits. |
| C38 | Zheng satellites below the cutoff mass | case split on alpha. |
| C39 | Satellites require a central only in the Simple model | positivity. |
| C40 | Zehavi is the sharp limit of Zheng | Tendsto. |
| C41 | Mean observable-halo relation | rpow calculus / monotonicity. |
| C42 | Number of galaxy bins returned | list lengths through zip and range(z.shape[0]). |
| C43 | Galaxy bias on large scales agrees between the spectra and the occupation model | composition of HOD and Pk models. |
| C44 | Poisson models | case split. |
| C45 | Observable and stellar-fraction functions split into centrals and satellites | linearity. |
| C46 | Multipole tables are only read inside their bounds | index arithmetic over lists of the given lengths. |
| C47 | Tabulated angular factors agree with the general formula | general expression evaluated exactly (Gamma recurrence, pi bounds) for all ell <= 11 and compared with the decimals |
| C48 | Down-sampling keeps the end points | list model with numpy striding; sublist, end points, length bounds; mismatch theorem |
| C49 | Luminosity redshift bins partition the sample | counting identity by telescoping indicators; the half width of the first step decides which bin a grid redshift is in |
| C50 | Double power law of the luminosity dependence | Simpson linearity and monotonicity; continuity of the scaling |
| C51 | Radial satellite alignment profile | min/clip algebra. |
| C52 | Alignment amplitude decision logic | case analysis of the decision functions, iff for each exception |
| C53 | Alignment parameters are overwritten in place | association map model. |
| C54 | Cosmology is clamped into the emulator range | invariant of the clamping loop over the list of ranges |
| C55 | The non-linear bias table is filled with the right entries | np.repeat / np.tile index functions; div/mod arithmetic over arbitrary sizes; sequential scatter assignment |
| C56 | The computed non-linear bias table is symmetric in the two masses | invariant of the double loop (foldlM over index pairs) |
| C57 | Low-k and high-k truncations of the bias are complementary | exp algebra; exact power-law odds |
| C58 | Envelope indices are extrema | list model of np.diff(np.sign(np.diff)), argmin/argmax with induction, chunking by any size |
| C59 | Mixing two populations | state machine of the object (Model/Add); the value stored by results() characterised for every mode and component |
| C60 | Combining a population with itself | algebra on the stored value |
| C61 | Upsampling reproduces the input grid and preserves sums | interp1d model linear; node reproduction; convexity; counterexample for a constant fill |
| C62 | Upsampled results after an update are stale | frozen cells: invariant over all histories, closed form of later results, observable witness |
| C63 | results() keeps the last requested components only | invariant over histories: effect of one call plus frame lemma for the rest |
| C64 | Background functions | transcription of the background functions; HasDerivAt for the growth equation and its Einstein-de Sitter solution; bounds on the accumulated growth |
| C65 | Einstein-de Sitter limit of the HMcode collapse fits | evaluation of the fits; bounds over all growth and matter fractions |
| C66 | Refresh schedule of the non-linear bias in the CosmoSIS pipeline | state machine over calls (Model/Interface bnlCall, bnlRun), induction over the history; failing calls included |
| C67 | Observables file option of the CosmoSIS module | Except-valued transcription of setup_hod (Model/Interface); failure for every option block with the file option |
| C68 | Central and satellite alignment options of the CosmoSIS module | Except-valued transcription of the alignment parameters composed with the amplitude model of Model/Ia |
| C69 | Second population with split alignments | composition of the split-sample parameters with the model of UpsampledSpectra (C59) |
| C70 | Separation axis correction | fold over the bins; product of the factors; exact condition for correctness; inverse and identity laws |
| C71 | Log interpolation keeps sign and nodes | linear interpolation in log space (Lib/Interp), three branches |
| C72 | Angle unit conversion | unit factors; laws of conversion for all angles and units |
| C73 | Output sections of the CosmoSIS module never collide | injectivity of the section names (digits after a plain name), all selections of spectra and bin counts |
| C74 | Ingredients switched on by an update react to later updates | negation proved on the cache machine for all temperatures and grids; conditional on the hmf indexing contract of section 4. |
| C75 | Luminosity distribution is normalised | histogram contract in Lib/Histogram, counting identity; exact Simpson weights at the two ends |
| C76 | Angular factors are the integrals they stand for | `Spec/Legendre`, `Props/IaTables`, `Props/IaAngular`. Mathlib interval integrals: cosine power recurrence, beta integral and duplication formula; the coefficients of the double sum are compared with the Legendre recurrence multipole by multipole, then sum and integrals are exchanged |
| C77 | Satellite alignment profile ignores the monopole | induction over the list of multipoles |
| C78 | Acceleration and expansion rate belong to one universe | HasDerivAt of the transcribed Hubble rate |
| C79 | The emulator amplitude matches the requested sigma_8 | transcription of the two-step amplitude scaling over an arbitrary sigma_8 function |
| C80 | The non-linear bias vanishes on linear scales and can be computed for every spectrum | transcription of the loop body over an arbitrary emulator and spline; exact success condition |
| C81 | Halo sizes used by the non-linear bias | real powers |
| C82 | Lookup of the non-linear bias table | transcription of scipy's nearest lookup (Lib/Numpy); composition with C55 and C56 |
| C83 | Saving the observable function | transcription of the settings and of the names written, induction over the bins |
| C84 | Poisson parameters of the CosmoSIS module | Except-valued transcription, induction over the parameter list |
| C85 | Halo occupation parameters per bin | induction over parameters and bins |
| C86 | Interpolation of the spectra in wavenumber | linear interpolation in log-log (Lib/Interp lemmas) |
| C87 | Redshift and wavenumber grids of the CosmoSIS module | transcription and interpolation lemmas |
| C88 | Matter settings cover the galaxy sample | fold induction for minimum and maximum |
| C89 | Mass grid of the CosmoSIS module | ceil of an exact quotient |
| C90 | Output suffix option | equality of the setups for option blocks that differ only in the suffix |
| C91 | Halo occupation output | case analysis and transcription of setup_hod |
| C92 | Correlation functions from power spectra | Hankel transform as an arbitrary matrix; Simpson and interpolation lemmas; weighted AM-GM for superadditivity; induction over bins |
| C93 | Separation grid of the Hankel transform | closed form of the grids; the convention kr = k_j r_(n+1-j) is the one documented in pyfftlog.fhti |
| C94 | A likelihood call does not depend on the calls before it | deep embedding of what each cached quantity reads (Model/SpectraDeps) with arbitrary numerical bodies; reachability tables for the read graph checked by the kernel and proved sound; cache invariants by induction over the history |
| C95 | What a stale omega_m does to a chain | pinned class (one quantity replaced by a constant) and a simulation invariant between the object and the pinned class, by induction over histories; then reachability in the read graph for which modes use omega_m |
| C96 | Which inputs a spectrum depends on | non-interference on the deep embedding: unreachable inputs in the read graph (tables checked by kernel reduction, sound by induction) do not change the value |
| C97 | The spectra are those of the halo model in the literature | the literature's halo model is a specification of its own (Spec/HaloModel); linearity of Simpson's and the trapezoidal rule, sum exchange, field arithmetic; the occupation model is shown to meet the hypothesis on fractions at its nodes |
| C98 | Changing options on a live object | invariants of the caching machinery by induction over histories (recorded inputs stay those of the first read until a switch drops them); instances by the read graph of C96; staleness shown in an instance where every quantity is the sum of what it reads |
| C99 | The conditional observable functions and occupations are the published distributions | `Props/HodTextbook`. Integrals are Lebesgue integrals over `Ioi 0`; the normal distribution function comes from the derivative of `Lib.erf`, the Schechter integrals from Mathlib's Gamma integral after a scaling of the variable. |
| C100 | Refining the grids converges to the integrals of the halo model | `Lemmas/SimpsonLimit` bounds scipy's composite rule with the Cartwright correction against the integral panel by panel on grids with step ratios at most 2; `Props/Convergence` derives the limits on the two grids of the code; `Props/ConvergenceModel` and `Props/HodTextbook` transfer them to the model of the spectra (through C97) and of the occupation model. |
| C101 | The average halo mass | `Props/HodMass`. Positivity of Simpson's weights on gentle grids gives the range; linear interpolation at a node gives the factor `f_c`. |
| C102 | Satellite alignment profile between and outside its own wavenumbers | `Model/IaUpsample`, `Props/IaUpsample`. The interpolators are piecewise (bi)linear functions on the code's grids with linear extrapolation; the sign results follow from the slope of the end cells and are carried to the 1-halo spectra through the sign lemmas of the spectra. |
| C103 | Normalisation of the radial alignment profile of satellites | `Model/IaUpsample` (section on multipoles), `Props/IaNormalisation`. The external transforms are replaced by the integrals they approximate for an arbitrary Bessel function; quadrature error, the bias and offset of `fht` and its interpolation onto the wavenumbers are not modelled. The NFW integral is computed from its antiderivative; the normalisation results cover slope 0 only. |
| C104 | The logarithmic Hankel transform (FFTLog) | `Model/FftLog`, `Lemmas/Dft`, `Props/FftLog`, `Props/FftLogModes`. The whole of pyfftlog is modelled with the array layout of its saved state, for any `loggamma` with exp(loggamma) = Gamma off the poles; `rfft`/`irfft` in the packed FFTPACK layout are defined by their sums. The round trips come from the discrete Fourier transform of the output (product with a unit-modulus or mutually inverse factor, conjugate, reversed). The continuous transform of a power is its Mellin transform 2^s Gamma((mu+1+s)/2)/Gamma((mu+1-s)/2), stated as `U`; Mathlib has no Bessel functions, so the integral itself is not formalised. |
| C105 | What the options of the ini file turn into | `Model/InterfaceOptions`, `Props/InterfaceOptions`. The whole of `setup` as a function of the option block; `C105_table` rewrites every read through the table `known` (name, default), from which independence of every other name follows. The parts used by C64 - C71 are shown to be parts of it (`C105_parts`). |
| C106 | Hankel transform module of Ogata type, and the options of both transform modules | `Model/Ogata`: option reading of both modules, the quadrature of the package `hankel` as a finite weighted sum with arbitrary nodes and weights, `evaluate`, the loop over bins, the output section. The Hankel integral of the statement is an integral over the half line with an arbitrary kernel; the substitution x = k r is proved, not assumed. |
| C107 | From power spectra to correlation functions in another cosmology | `Model/Modules`: the entries written by one call as a list, reading by section name, `pk_to_real` and `correct_cosmo_real` applied to them. Uses the name injectivity of C73, the bin theorems of C92 and the product formula of C70. |
| C108 | When the spectra are numbers | `Lib/Checked` adds one element `bad` to the reals for the result of an invalid floating-point operation (`inf` and `nan` are not told apart and never turn back into numbers). `Model/PkChecked` is pk.py once more over these numbers; `Lemmas/PkChecked` proves that it agrees with `Model/Pk` wherever it is a number, which also says which theorems about `Model/Pk` speak about actual output. The equivalences are in `Props/Checked`. |
| C109 | What one call leaves in the data block | `Model/Saved`: the block as a map from section and name to values, `put`, grid axes and assignment as elementary writes with the rules of CosmoSIS, and the list of all writes of a call in order. Proved by showing that the writes are pairwise compatible (names of different bins differ by C73's argument on digits) and that a compatible list runs through and leaves each value; failure by the second `nbins`. Radii: the halomod relation between mass, overdensity and radius. |
| C110 | When the alignment ingredients are numbers | `Model/IaChecked`, `Props/IaChecked`: the formulas of `Model/Ia` over the numbers with invalid operations of C108 (`Lib/Checked`), with scipy's gamma invalid at its poles; agreement with the real model by structural refinement, the exact conditions by locating the poles in the double sum. |
| C111 | Rounding errors of the spectra | `Lib/Rounded` (arithmetic with a rounding after every operation, sums along an arbitrary tree), `Model/PkRounded`, `Model/HodRounded`, `Props/PkRounded`, `Props/HodRounded`: the formulas of `Model/Pk` and `Model/Hod` over such numbers; two predicates, 'equal up to k roundings' and 'error of k roundings of a given size', closed under the operations; cancellations of Simpson's weights bounded on smooth grids. `Lemmas/RoundedBinary` shows that binary arithmetic with p digits rounded to nearest is an instance. |
| C112 | Redshifts and observable limits of the occupation model | `Model/HodGrid`, `Lib/InterpSort`, `Props/HodGrid`: the settings dictionary with missing keys, the rows of the file, `np.loadtxt(unpack=True)` with its squeezing of one row, the four grids and the `Cacciato` model on them; scipy's sorting of the nodes. Equalities of the results for all 14 interpolated quantities. |
| C113 | Clustering is the projected correlation function, lensing its excess over the disc | `Spec/Bessel` (Bessel's integral, projected correlation, excess over the disc), `Lemmas/Bessel` (continuity, bound, recurrence, derivative, the disc average of `J_0`), `Model/HankelModules`, `Props/HankelModules`. The order-2 identity is proved by exchanging the disc average with the integral over wavenumber (Fubini) and `J_0 + J_2 = 2 J_1/x`; for FFTLog by the recurrence of the gamma function. |
| C114 | The likelihood is the Gaussian one of the bins, and which file meets which bin | `Model/Likelihood`, `Props/Likelihood`. The block sum is turned into one double sum by induction on the list of bins; the too-large covariance by completing the square with the zero-padded solution; the order of names by the lexicographic order on characters; the whole call is one theorem, `C114_execute`. For independent errors the likelihood is the product of Mathlib's normal densities (`C114_gaussian`); the points at which the theory is taken are `C114_theory`. |
| C115 | The cold-matter correction, the fluctuations and the formation redshifts of the unused methods | `Model/ColdMatter`, `Props/ColdMatter`. The ratio as a decreasing function of the suppressed growth; the window by monotonicity of `x^3/3 ± (sin x - x cos x)`; the redshifts from the contract of `root_scalar` on a bracket. |
| C116 | When the occupations, the densities, the fractions and the biases are numbers | `Model/HodChecked` repeats hod.py in `Ck` (a number or the mark of an invalid operation), `Props/HodChecked`. Every function refines its counterpart in `Model/Hod`; the exact conditions from the zero sets of the denominators and the domain of the power; positive density by comparison with a constant integrand, which Simpson's rule integrates exactly. |
| C117 | The rewritten library computes the spectra of the legacy modules | `Model/LegacyPk` (functions of legacy/pk/pk_lib.py and the control flow of execute, with the locals that may be unbound), `toSpectra` gives the object of `Model/Pk` with the same inputs, `Props/LegacyPk`. The two-dimensional trapezoid rule is exchanged with `Finset.sum_comm`; the mode by mode comparison reduces to definitional equality of the ingredients; execution by inversion of the error monad. |
| C118 | The legacy occupation module hands the spectra the galaxies of the rewritten library | `Model/LegacyHod` (classes of hod_lib_class.py, the loop of execute with its ValueError, setup checks, parameter names, load_hods, load_fstar_mm), `Props/LegacyHod`. Occupations by cases over the models; linearity of the interpolation for the unit factor; bilinear interpolation at a mass node; structural equality of the `Spectra` object, composed with C117. The constructor call of `hod_interface_no_loop` is Python's keyword rule with hmf's check of parameter names. |
| C119 | The legacy add_and_upsample module writes the spectra of the original inputs, and agrees with the rewritten mixing exactly where stated | `Model/LegacyAdd` (setup, execute as lists of calls on a block of named sections), `Props/LegacyAdd`. Induction over the list of calls with an independence condition; the condition from the section names (no one is a prefix of another, bin numbers have no underscore); linearity of interp1d for the sign and the constant fraction; the line through the neighbouring redshifts for the difference; C59 for the rewritten side. |
| C120 | The legacy alignment modules and the rewritten alignment classes | `Model/LegacyIa` (functions of the three legacy files, complex arithmetic for the angular part, numpy slices as lists), `Props/LegacyIa`: the luminosity tables are shown equal entry by entry and the branches of the two amplitudes compared; the loop over multipoles by induction on the list of multipoles; the columns kept by the down-sampling written out and shown increasing with the last one; the transforms are the integrals of `Model/IaUpsample` for an arbitrary Bessel function. For inclinations other than a right angle (`Props/LegacyIaAngular`) the double sum is shown to be Simpson's rule for the angular integral of a Legendre polynomial (`C120_angular`). |
| C121 | Binned observable functions of the legacy pipeline | `Model/PredictObservable` (options, block entries by suffix, numpy's nan as `Ck.bad`), `Props/PredictObservable`: inversion of a successful run to one turn of the loop; interpolation and Simpson lemmas; the weighted means by induction over the list of points; the fine grid by the floor of the position of the upper edge. |
| C122 | Correlated parameters from uncorrelated ones | `Model/CorrelatedPriors` (names as lists of parts, block as a map, the block left behind by an exception), `Props/CorrelatedPriors`: uniqueness of the factor by strong induction on the column; the loops by induction on the lists of names; the covariance with Mathlib's `ProbabilityTheory.covariance`. |
| C123 | After the legacy scale cuts data, covariance and theory belong together | `Model/ScaleCuts.lean` has the measurement (spectra, one-point functions, covariance), the five mask methods with their exceptions, `choose_data_sets`, `get_cov_start`, the parsing of the options, the gathering of the theory and `replaceMeanVector`. `Props/ScaleCuts.lean` composes the masks (a relation `Picks` of kept positions, closed under composition) and proves the statements by induction over the list of cuts. Not modelled: the FITS reading, units, types, kernels, errors. |
| C124 | The non-linear bias of the legacy modules: same table, stale cache, wrong axes | `Model/LegacyBnl.lean`, `Props/LegacyBnl.lean`. The double loop is folded over all pairs of indices, with the mirror copy below the diagonal; it is shown equal to the fold over the upper triangle of `Model/Bnl.lean`, exceptions included (both are the first failing cell, or the symmetric table). A least-squares constant is shown to be the mean. The cache is a state machine; the statement about chains is an induction over the chain with the start state general. `interpolate_bnl` and the unused redshifts are left out. |
| C125 | The legacy halo model ingredients: one object updated for ever, against the rewritten class | `Model/LegacyIngredients.lean`, `Props/LegacyIngredients.lean`. The halo model is the record of settings of `Model/Config.lean`, changed in place by `execute`; an exception leaves it as it is by then. An invariant (models of `setup`, keys of the parameter dictionaries) holds after every chain; with it each step writes a record that depends on the call and the redshift only, which is compared with `Ingredients.generator`. Keyword binding is a model of Python's call rule. What halomod and hmf compute from the settings is external; the grids, transfer and growth arrays are passed on and left out. |
| C126 | Upsampled spectra share the halo model they are given | `Model/AddShared.lean`, `Props/AddShared.lean`. Halo models live in a memory and are named by references; upsampled objects hold references in their cached cells. Reads only add new objects (`Grow`), references stay valid (`Wf`); both are invariants of every history, and with them the value of a component is a function of the present state of the shared model, of the copy and of the fraction. `C126_value` ties the result to the value model of C59 - C63. Reading does not change a halo model here (caches: C94 and the hmf contract); the setter of hmf storing the object itself is an assumed contract. |
| C127 | Changing a live alignment object | `Model/IaCache.lean`, `Props/IaCache.lean`. All 16 cached quantities of ia.py as reading programs of the cache machinery (`Lib/HmfCache`) with arbitrary numerical bodies; the class depends on the present plain attributes. Which parameters each quantity looks at is a table proved right for every outcome of the options. (a) by the regime invariant of C24 carried across assignments, (b) by a settledness invariant and by the lemma that a parameter read on every path is always recorded, (c) by the recorded index never changing, as in C98. Code that raises is left out. |
| C128 | Two-point files written and read again | `Model/TwoPointFits.lean`, `Props/TwoPointFits.lean`. Extensions as lists of header cards and columns; tables filled up with zeros to the longest column, as astropy does. Round trips by uniqueness of names of cards and columns and an induction over the reading loop, for any number of bins; the mock file by an invariant (the record is tidy and the covariance is the record's, label by label) kept by opening, cuts and choice. Names of cards are constructors, CLBP windows are left out. |
| C129 | Two-point files in memory: sample covariances, order, index, bins and the builder | `Model/TwoPointOps.lean`, `Props/TwoPointOps.lean`. The covariance as a sum over realisations: semidefiniteness as a sum of squares, correlations by Cauchy–Schwarz, the jackknife by computing with the means over all patches but one. The order as a stable sort with the last key first; positions proved a permutation by induction over the spectra. The index as a list of pairs in which the last one counts, with its cache in the state. The builder with the master index proved a permutation of all points. |
| C130 | Live NonLinearBias objects follow their parameters, except for the amplitude option | `Model/BnlCache.lean`, `Props/BnlCache.lean`. The five cached quantities as programs of `Lib/HmfCache` with arbitrary formulas. Two invariants over all histories: stored values that would be handed out are right, and stored indexes contain every parameter always looked at; the second is kept by reads because each program collects at least those, the first by settings because of the second. |
| C131 | Making the input files from a catalogue | `Model/InputFiles.lean`, `Props/InputFiles.lean`. The script as a function of the catalogue and the bound names, returning the files written and how it ended. Counting by telescoping indicators of half-open bins (as C75); the index -1 as the last edge; selections compared with bins. |
| C132 | Benchmarks: shared parameters and the trapezoidal class | `Model/Benchmark.lean`, `Props/Benchmark.lean`. State = the dictionary and the shared nested dictionary; tests return the new state and a result or exception; induction over values and sessions. Trapezoid error interval by interval; limits through C100 (`massGrid_facts`); integrands through C13. |
| C133 | Occupation models with several galaxy bins | `Model/HodRows.lean`, `Props/HodRows.lean`. Arrays as lists of rows; numpy broadcasting as a partial operation on lists with a characterisation of success and of every entry; `Gives v b x` says independently what a parameter means for bin b. |
| C134 | A live Spectra object reports the halo-model formulas at its present parameters | `Model/LiveSpectra.lean`, `Lemmas/LiveSpectra.lean`, `Props/LiveSpectra.lean`. Joins the two models of Spectra: the reads of every cached quantity (`Model/SpectraDeps`) and the formulas (`Model/Pk`). Each quantity computes its formula only from the names its code has read on the branch taken (anything not read is absent), so the theorems also check the read graph: a missing read makes them false. Ingredients are arbitrary functions of what they read. Proved by evaluating each quantity over a consistent assignment of values (`Consistent`), which the cache theorems C95, C98 supply for every history. |
| C135 | The formulas do not depend on the units, except for built-in wavenumbers and a built-in gas mass | `Spec/Units.lean`, `Spec/UnitsHod.lean` (what the inputs and results are in the new units), `Props/Units.lean`, `Props/UnitsHod.lean`. The whole model of pk.py and the base class and models of hod.py are evaluated in both units; Simpson's and the trapezoidal rule are shown to stretch with the grid. The exceptions are stated as equivalences (unchanged if and only if the factor is one). Not included: the ingredients of hmi.py (from the external `hmf`), the angular table of the alignment, the Bnl table (their outputs enter as inputs of the spectra). |
| C136 | The results vary without jumps with the parameters, except at sharp mass thresholds | `Spec/Along.lean` (families of inputs that vary without jumps at a point), `Props/Sampling.lean`, `Props/SamplingHod.lean`. Every definition of `Model/Pk` and of `Model/Hod` is shown continuous in its inputs (Simpson and trapezoidal rules are linear in the integrand; real powers are continuous at non-zero base or positive exponent). The mass, redshift and wavenumber grids, the scale cuts and the switches are fixed. Not included: continuity of the ingredients of hmi.py themselves (external `hmf`, CAMB). |
| C137 | The legacy spectra read consistent tables, or stop, except for grids that are not compared | `Model/LegacyRead.lean`, `Props/LegacyRead.lean`. All sections are assumed present with arrays of the shape of their grids; length-one broadcasting of mass grids is not represented. `C137_read` gives outcome and every loaded value; `C137_same_power` compares with `Interface.interpolateInZ` and `Interface.logLinearK` (C86). |
| C138 | What a pipeline call writes is the halo-model formula at the arguments of that call | `Model/EndToEnd.lean` joins `Model/Chain` (arguments of a call), `Model/LiveSpectra` (cache and formulas), `Model/Add` (grid, mixing) and `Model/Saved` (writes); `Props/EndToEnd.lean`. Proved from C134, C94, C95, C59, C69, C87 and C109. The collected arguments and what is written besides spectra and biases are given; the results object made before the sample switch is modelled as made anew (C126 shows that it reads the shared object); all spectra are computed before the first write. `C138_completes` is for one alignment sample. |
| C139 | A pipeline call is a pure function of a known list of block entries, whatever ran before it | `Model/Collect.lean` models the first half of `execute` (lines 728-1023), joined to `Model/EndToEnd` and to the set-up of `Model/Options`; `Props/Collect.lean`, and `Props/CollectOptions.lean` for the arguments that come from options and the settings of the alignment samples. The set-up invariant of the table cache and the regime of all calls are proved from the set-up itself, so C138's hypothesis on earlier calls is discharged. The block is a map from section and name to a value; the two-dimensional tables are a second map; the regridding of the linear spectrum is C86 and C87. Given, not modelled: which quantities of the halo model are read when and what is written besides spectra and biases (`Rest`), and the construction of the non-linear bias table (`build`). |
| C140 | How the spectra react when an amplitude, a power spectrum or the completeness of the sample is multiplied | `Props/Scaling.lean` on `Model/Pk`, `Model/PkHod` and the new `Model/IaChain.lean`, which joins `Model/Ia` and `Model/IaUpsample` to the alignment inputs of the spectra. Each scaling law is an existence statement for coefficients that do not depend on the factor. scipy's `fht` is an arbitrary map of the samples that is homogeneous. Grids, mass function, bias and profiles are kept when a power spectrum is multiplied (in the code they are computed from the cosmology, not from the supplied spectrum). |
| C141 | The growth function computed for the HMcode recipe exists, is unique, only grows, and stays in the range of the collapse fits | `Solves` in `Model/Background.lean` (exact solutions of the growth equation with the initial values of the code; the integrator's steps and the cubic interpolation are idealised), `Lemmas/LinearOde.lean` (global existence by truncation and Grönwall, uniqueness, continuous induction for positivity, integrating factors for comparison), `Props/Growth.lean` |
| C142 | A sample selected from heavier halos is rarer and more biased | `Base` and the occupation models of `Model/Hod.lean`; `Lemmas/LikelihoodRatio.lean` (Chebyshev-type inequality for the Simpson functional, log-concavity of the cumulative normal through the Mills ratio); vocabulary (`Halos`, `Heavier`, `popBias`, `popMass`) and theorems in `Props/HodSensitivity.lean` |
| C143 | Excluding points from the likelihood keeps data and covariance together, and can only lower chi squared | `Model/LikelihoodExclude.lean` (numpy's delete with its index errors, list comprehension over the points, sizes after exclusion, auxiliary numbers), `Props/LikelihoodExclude.lean` (induction over the bins; Schur-type inequality for submatrices of positive definite matrices) |
| C144 | What dewiggling does to the linear power | `Lib/GaussianFilter.lean` models scipy's `gaussian_filter1d` with default arguments (reflecting boundary, kernel cut at four standard deviations); `Model/Dewiggle.lean` puts it into the dewiggling model of C30 and adds the legacy functions. The kernel is positive, symmetric, falls away from its centre and sums to one, the reflection never moves an index away; hence bounds, locality, and conservation of the sum by pairing shifts `d` and `-d` over a period of the reflected row. |
| C145 | More extended halos have less power, and unresolved halos give the upper bound | The Spectra object of Model/Pk with its two profile arrays replaced; monotonicity of Simpson's rule on gentle grids carried through each spectrum and through the transition smoothing; the missing mass term completes the matter integral to at most 1, and gas plus stars never exceed the baryon fraction. |
| C146 | Dictionary parameters are shared by reference | `Model/DictParams.lean` (a memory of dictionaries, objects with a place in it, other parameters and a stored result), `Props/DictParams.lean`. A specification without sharing or storing is simulated: places of objects are distinct and apart from the dictionaries the caller may still use; the invariant holds after every program that obeys the rule, by induction. The exceptions are proved as equations between all programs of the given kind and their outputs. The setter of hmf is the contract of section 4. |
| C147 | Stronger feedback lowers the matter power, and baryons never suppress it below the square of the cold fraction | `Props/Feedback.lean` over Model/Pk: two Spectra that differ in their baryon settings only. Per halo: the retained gas falls with the mass scale, and moving baryons from stars to gas lowers the profile since it is at most 1. The AGN mass scale rises and the stellar fraction falls with temperature (the exponential against the linear factor, with a bound on log 10). Simpson's rule on gentle grids is monotone, and the transition smoothing monotone and homogeneous. The profiles are kept fixed: the concentration normalisation also depends on the temperature (C28). |
| C148 | Accuracy of the mass integrals at finite resolution | `Lemmas/SimpsonRate.lean`, `Props/Accuracy.lean`, `Props/AccuracySpectra.lean` and `Props/AccuracyShapes.lean` over Lib/Simpson, Model/Pk, Model/Hod: Taylor's formula with a third derivative bound on blocks of up to four points, exactness of the weighted rule for parabolas (also in scipy's correction for an even number of points), the slopes of a product by Leibniz' rule, and the change of a function over a factor in mass from its logarithmic slope. Exact real arithmetic; rounding is C111. |
| C149 | How strongly galaxies, matter and shapes can be correlated | `Props/Correlation.lean` over Model/Pk: by C97 the 1-halo galaxy power plus the pairs left out is the power of one field, and so is the matter power; Cauchy and Schwarz for Simpson's rule (C15), equality in the 2-halo parts (C06, and 4/3 for shapes from the cross term of C07), and Cauchy and Schwarz for the sum of both. The shot noise bounds the pairs left out halo by halo. Two exact three-mass samples show that shot noise and the condition on the pairs are needed. |
| C150 | Bin pairs of two-point measurements, and measurements taken from a data block | Model/TwoPointPairs.lean: the methods statement by statement, `apply_mask` with the state it leaves behind when it fails, the two `from_block` loops over a section of the block. Proved in Props/TwoPointPairs.lean by induction on lists of points, cuts and bins. Numbers of bins are real numbers; `bin1` and `bin2` have one length. |
| C151 | Errors of the ingredients carry over to the spectra with known factors | Props/ErrorPropagation.lean, Props/ErrorPropagationIa.lean (alignment spectra). A relation `Within a x y` on numbers that are not negative; it passes through sums, products, quotients, Simpson's rule on gentle grids and interpolation inside the range. Applied to the halo model form of the spectra (C97) and to the integrals of the occupation model. Both objects have the same damping, by hypothesis. |
| C152 | Galaxies that trace the mass of their halos have the spectra of matter, up to what is missing | Props/Tracers.lean. The halo model form of the spectra (C97) with the galaxy weight replaced by the matter weight over f; the 1-halo pairs by (c+s)^2 = c^2 + 2cs + s^2 under Simpson's rule. |
| C153 | How far interpolated results are from the functions they are taken from | Props/InterpAccuracy.lean. The bound on the second derivative is stated as convexity of f + M t^2/2 and concavity of f - M t^2/2, with a theorem that a second derivative between -M and M gives it. A convex function lies below its chords between the ends and above them outside. Two interpolations in turn: interpolated values of close tables are close, since between the nodes the result is a weighted mean. Props/InterpFractions.lean and Props/InterpBias.lean: the fractions and biases are quotients, whose errors follow from those of the two sums and a lower bound of the number density. Props/InterpHaloMass.lean: the mass integrals are number counts with the occupation times the mass. |
| C154 | Names of statistics in the options of the scale cuts | Model/ScaleCutSetup.lean, Props/ScaleCutSetup.lean. `setup` from the options to arguments, data and covariance, with the dictionary of names and the list of sections of these options, on top of the model of C123. |
| C155 | Two samples and their union | Props/UnionOfSamples.lean. The same object of C97 populated three times; densities and occupations of the union add, fractions of centrals and satellites are those of the densities. |
| C156 | A bin of the observable split in two | Props/BinSplit.lean on the occupation model of C99, the accuracy of C148 and the union of C155. The scipy rule is cut at an even index. |
| C157 | Results at one bin, redshift and wavenumber do not depend on the rest of the grids, with two exceptions | Props/Locality.lean. A map from new to old indices for each axis; the object with all arrays taken through the maps against the result taken through them. Profiles from their transforms, and occupations from the halos, are treated on top of it. |
| C158 | What is left of the spectra where the profiles of halos have vanished | Props/SmallScales.lean. The Spectra object of Model/Pk with its two profile arrays replaced by a family of arrays (as in C145); continuity of Simpson's rule, of the trapezoidal integrals of the beyond-linear bias and of the transition smoothing carried to each spectrum. |
| C159 | What changes when only the number of satellites changes | Props/MoreSatellites.lean. The occupation models of Model/Hod with one parameter changed; the base class with its satellites multiplied; the populated spectra of C155 with their satellites multiplied, in the form of C97. Linearity of Simpson's rule and monotone weighted means. |
| C160 | The range of halo masses, divided in two or made wider | Props/MassRange.lean. The Spectra object with its mass axis cut at an odd point, lower part and shifted upper part; Simpson's rule splits there exactly (C156), also for an even number of points in the upper part. Galaxies in the form of C97 with the populations of C155. |
| C161 | What a change of the non-linear mode changes | Props/Modes.lean. One Spectra object with its mode replaced; the six spectra compared between modes. The integral I_NL is shown to be linear in the table; the central alignment integral is exact by C08. |
| C162 | The galaxy bias reported with the spectra and the bias read off the spectra | Props/ReportedBias.lean. The reported field of each result against the returned two-halo spectra, in terms of outputs only; the matter integral is one at the first wavenumber by C01. |
| C163 | What switching on point masses changes | Props/PointMass.lean. One Spectra object with the option on and off; the exact difference of the profile of one halo, then the order of the spectra from the comparison of C147. |
| C164 | How much the table of the non-linear halo bias can change | Props/BnlBounds.lean. The integral is monotone in the table because trapezoid weights are non-negative (C13); the bound follows from the constant tables plus and minus eps, which factorise (C12). |
| C165 | What a change of the truncation wavenumbers changes | Props/Truncation.lean. Each spectrum is written as a part without options times the truncation; the factors are written out anew, without the functions of the model. |
| C166 | The mass dependence of the alignments is a rescaling of amplitudes | Props/MassDependence.lean. The object with the options is compared, at one bin and redshift, with the object without them after the operation aligned of C140; C140 then gives linearity and quadratic dependence in the factors. |
| C167 | What the model of the satellite pairs changes | Props/PoissonFactor.lean. Two objects that differ in the factor only; the integrals are restated with occupations, fractions and profiles, not with the profile functions of the model. |
| C168 | The growth factor is an inverse amplitude of the central alignments | Props/GrowthNormalisation.lean. Two objects that differ in the growth factor only, compared with the operation aligned of C140; the frozen amplitude uses C08. |

## 4. External behaviour assumed (not proved, because the dependency is not part of /repo)

* `scipy.integrate.simpson(y, x=x)` is the composite irregular-grid Simpson rule with the Cartwright
  end correction for an even number of points (scipy >= 1.11, pinned `scipy>=1.13.1`), trapezoid for two
  points, 0 for one point. `simpson(y, dx=h)` is the same rule on a uniform grid.
* `scipy.interpolate.interp1d(kind='linear')`: piecewise linear through the nodes (sorted), end segments
  continued when `fill_value='extrapolate'`, the fill value outside the node range otherwise.
* `scipy.special.erf` is the error function.
* hmf's `parameter`/`cached_quantity`/`Framework.update`: setting a parameter stores the validated value
  and flags every cached quantity that (transitively) read it; reading a flagged or never-read quantity
  recomputes it; `update` assigns the given parameters in turn and then calls `validate`; unknown names
  raise ValueError; the constructor also ends with `validate` (evidence: tests/test_pk.py test_validate);
  `functools.cached_property` stores the first value for the life of the object (Python stdlib).
  Dictionary-valued parameters are merged on update unless the new value is empty: the entries are added to the stored
  object itself (`getattr(self, name).update(value)`), an empty dictionary is stored as the object it is (C146).
  Indexing contract (hmf >= 3.4, `hmf/_internals/_cache.py`; its source is not available in this sandbox,
  so this is from its documented behaviour): the set of parameters a quantity depends on is recorded the
  first time the quantity is computed and *not* when a flagged quantity is recomputed; setting a parameter
  declared `switch` discards the records of the quantities depending on it, so they are recorded anew;
  setting a parameter to an equal value does nothing. `Lib/HmfCache.lean` is the formal version.
* astropy densities/distances, the hmf/halomod/colossus mass functions, biases, profiles, growth ODE
  solver, DarkEmulator, the external `hankel`/`fht` transforms: uninterpreted inputs (arbitrary real functions).
* scipy `rfft`/`irfft` (fftpack layout): the discrete Fourier sums, defined in `Model/FftLog`; `loggamma`: any function
  whose exponential is Gamma off the poles; the Mellin transform of the Bessel function J_mu is the specification of the
  continuous Hankel transform (C104).

* astropy `BinTableHDU.from_columns` makes a table as long as its longest column and fills the others with zeros; headers, columns and
  images are read as they were written (C128).
* hmf `Framework.clone()` is a deep copy; whether replacing a `*_model` parameter empties its `*_params`
  dictionary is left open (C28/C29 are proved for both behaviours).
* numpy broadcasting of a last axis: equal lengths, or one of them 1; `np.all` of floats is "no zero";
  `np.isclose(a, b)` is `|a-b| <= 1e-8 + 1e-5 |b|`; `np.arange(a, b, d)` has `ceil((b-a)/d)` points `a + i d`;
  `np.linspace(a, b, n)` has the points `a + i (b-a)/(n-1)`; both in exact arithmetic.
* CosmoSIS: option getters return the default when the name is absent, and fail for a missing name without
  default or a value of another type; `block[section, name]` fails for a missing name; `put_*` overwrites.
  `simpson(y, z)` in pk_to_real.py passes the abscissae by position, which newer scipy no longer accepts; modelled
  as `x=z`.
  `get_string_or_none` is modelled as its docstring says (None for a missing name with default None).

## 5. What is not modelled

* floating-point rounding, NaN/inf propagation outside pk.py (see C108), performance, plotting, file formats (FITS/ASCII reading is
  an arbitrary list of numbers), logging/warnings (the negative-A warning has no effect on results);
* the external `hankel` package and `fht` of the satellite alignment (replaced by the integrals they approximate), DarkEmulator internals, ODE/root solvers,
  `gaussian_filter1d` (modelled in C144, an arbitrary smoothing operator elsewhere), CAMB;
* of `cosmosis_modules/legacy/*`: the bytes of FITS files, plotting scripts and ini files. The modules
  themselves are modelled where they compute: likelihoods (C114), spectra (C117), occupations (C118), sums and up-sampling (C119),
  alignment (C120), observables (C121), correlated priors (C122), scale cuts (C123), non-linear bias (C124), ingredients (C125),
  two-point files (C128, C129);
* the notebooks, and of the benchmarks what C132 does not cover.

## 6. Disagreements found (properties that the code does not have, proved as such)

* C03/C04: with `nonlinear_mode='hmcode'` the matter total is the smoothed sum, not the sum.
* C07: the intrinsic-intrinsic 2-halo total is not a perfect square (central-satellite cross term counted once).
* C09: in `fortuna` mode the galaxy-intrinsic central 2-halo term lacks the factor `f_c`.
* C22: the HMcode stellar fraction exceeds the documented bound at z = 3 for the default cosmology.
* C25: `omega_m` is frozen at its first read.
* C27: a refused update leaves the object in the refused state.
* C31: the spacing guard of the dewiggling can never fire.
* C32: with dewiggling, a supplied array of shape `(n_z, 1)` passes the shape check.
* C74: parameters that switch ingredients on are not re-indexed by the cache.
* C47: the slope-0 table of angular factors contains the values of slope +1.
* C48: down-sampling can return mass and concentration arrays of different lengths (Hankel method, concentration constant at the high-mass end).
* C75: the luminosity average is not normalised under the Simpson rule the code uses (3/8 for two galaxies, 0 for an empty redshift bin).
* C59: with a fraction but no second model the spectra are multiplied by f (gm, mi) or f² (gg, gi, ii): the missing population is counted as empty.
* C60: splitting one population in two identical ones changes gg, gi, ii and the linear spectrum by f²+(1-f)² (missing cross terms).
* C62: update() on UpsampledSpectra has no effect on the fraction and the halo models once results() was called, and changing the number of output redshifts then raises ValueError.
* C79: when the amplitude that would give the requested sigma_8 lies outside the emulator range it is clamped silently, and the non-linear bias belongs to another sigma_8.
* C80: compute_bnl_darkquest needs three local maxima of the ratio of halo and linear spectra; smooth spectra raise ValueError.
* C67: with galaxy spectra requested, `observables_file_hod` always ends in KeyError: the matter settings and the bin count read `obs_min`, which only exists without a file.
* C68: the options for central and satellite alignments are exchanged, and the option itself is not forwarded to the halo model: 'constant' and 'luminosity' always end in ValueError.
* C69: with split alignments the fraction passed is identically 1, so the second sample never enters any output.
* C83: with `observables_file_smf` setup succeeds and `save_obs_results` always raises KeyError (`obs_min`).
* C84: the default of `poisson_type` is '' and not a key of `poisson_parameters`: galaxy or alignment spectra without this option end in KeyError.
* C85: with alignment spectra only, the Zheng and Zhai models silently receive empty parameter arrays whatever the data block contains.
* C90: `output_suffix` is read and then unused: instances that differ only in it overwrite each other's sections.
* C91: with alignment spectra only, the halo occupation of an unconfigured galaxy sample (default settings) is written; requesting the matter spectrum in addition removes it.
* C70: `correct_cosmo_real` rescales the shared separation axis once per bin, so it ends up with the product of all bins' factors.
* C92: 1-halo and 2-halo correlation functions do not add up to the total between input wavenumbers (interpolation in logarithms is only superadditive); a redshift distribution without overlap gives zeros silently; zero bins end in UnboundLocalError.
* C93: the centre index `(n+1)/2` of FFTLog counts from 1 while the positions count from 0: reported separations are too small by one logarithmic step (and the result is divided by them).
* C95: in the modes feedback, fit, pointmass and with beta_nl tables made on the fly, every call of a chain after the first uses the first call's omega_m (C95_second_call_stale).
* C97: the missing mass has the profile of the smallest haloes in the non-linear bias integral and in alignments but no profile in the matter bias (C97_missing_mass_profile).
* C98: hmcode_ingredients, pointmass, mdef_model, hod_model, dewiggle and the None-ness of inputs decide what is read but are not declared as switches; changing them on a live object makes later updates of the newly relevant inputs go unnoticed (C98_feedback_stale and others).
* C99: `mean_obs_c` (Cacciato) is the median of the distribution of centrals at fixed mass, not its mean: the mean is larger by `exp((sigma_log10_O_c ln 10)^2 / 2)` (C99_median, C99_central_mean). With the default faint-end slope -1.18 the number of satellites of all observables diverges; only the total observable and numbers above a limit are finite.
* C101: `mass_avg` (pk.py:1699) divides the mass integral of *centrals* by the number density of *all* galaxies. At a node of the sample it is `f_c` times the mean halo mass of centrals (C101_mass_avg), and the alignment mass scaling `(mass_avg/mpivot)^beta` is off by `f_c^beta` (C101_alignment_scaling); it may lie below the smallest halo mass (C101_below_smallest). `avg_halo_mass*` of the occupation model are not normalised (C101_not_normalised). Outside the redshift range of the sample `mass_avg` is zero: for `beta < 0` the code then computes `0 * inf = nan` (floating point, not part of the model).
* C102: `alignment_class` (pk.py:2092) always passes `method='fftlog'` and writes it into the caller's `align_params` dictionary. The profile is tabulated on [1e-3, 1e3] but the default wavenumbers of the spectra are 1e-4 to 1e4. Linear extrapolation in k makes the profile negative for k <= 5e-4 when it rises like k^2 and for k >= 2e3 when it falls like 1/k or faster (C102_fftlog_negative_small, C102_fftlog_negative_large); the 1-halo alignment spectra change sign there (C102_spectrum_sign). The fftlog branch ignores `mass_out`. With hankel a zero profile gives log10(0) (floating point, not modelled).
* C103: `alignment_class` passes `rvir_cen[0]`, the virial radius at the first redshift, for all redshifts (pk.py:2091) together with redshift-dependent scale radii and concentrations. With truncation the profile is correctly normalised only where the virial radius equals that of the first redshift (C103_first_redshift). The concentration and scale radius passed are those of centrals.
* C104: `pk_to_real.Transformer` reports separations one logarithmic step too small and divides by them, proved now through the transform itself (C104_separation, C104_separation_wrong). `pyfftlog.fftl` uses the exponent q-1/2 for the backward pre-factor where q+1/2 inverts the forward call (C104_fftl_not_inverse; unused in the repository). `fhti` with both gamma functions at poles and |q| >= 2 multiplies a scalar by an array and raises ValueError (C104_double_pole_fails).
* C105: The example file sets `bnl`, `mead2020_correction`, `cm_model` and `profile`, which nothing reads (C105_example_ignored). module.yaml documents defaults for `hod_section_name_ia`, `_ia_1`, `_ia_2` and `nobs` that do not exist (C105_missing_defaults), and the values `poisson_type = scalar` and `hmcode_ingredients = fit_feedback`, which are refused (C105_documented_values).
* C106: `pk_to_real_ogata.py` leaves `save_name` empty, so `correct_cosmo_real.py` stops with an error after it (`C106_next_module`); for lensing it leaves out the mean density and the factor 1e-12 that `pk_to_real.py` applies (`C106_lensing_density`); its linear extrapolation turns a decreasing positive spectrum negative beyond the table (`C106_negative_tail`).
* C107: `pk_to_real.py` pairs the spectrum named by suffix number t of the list with redshift distribution `bin_t`, whatever the suffix says; `suffixes = 2` alone combines the second spectrum with the first redshift distribution (`C107_suffixes`). With a single bin the suffix must be left out, with several it must be given (`C107_mismatch`).
* C108: a sample without satellites (for instance `A_sat = -1`, or satellites confined to masses above the grid) gives 0/0 in `satellite_galaxy_profile` (pk.py:1812-1827), and every galaxy and alignment spectrum becomes NaN although the central part is well defined (`C108_no_satellites`). In HMcode mode a negative 1-halo or 2-halo term is raised to a non-integer power and gives NaN (`C108_mm_hmcode`).
* C109: `save_matter_results` stores `rvir_cen[0]` with the comment "rvir doesn't change with z" (onepower_interface.py:400-402). That holds for SOMean only: for SOCritical it is right at the first redshift and no other (`C109_radius_critical`), for HMcode where the overdensity happens to agree (`C109_radius_mead`). Using the same `hod_section_name` for the galaxy and the alignment sample makes every call fail at the second `put_int(..., 'nbins', ...)` (`C109_same_section`).
* C80: the shot noise is subtracted from the halo spectrum but not from the spectrum at k = 0.05 that gives the linear bias (bnl.py:473-476), so the linear biases are too large by any positive noise (`C80_noise_in_bias`) although the rest of the table does not see it (`C80_noise_removed`).
* C110: with `gamma_1h_slope` equal to -3 (or any smaller integer) every angular factor of the general expression is NaN: `gj[0]` or `gj[1]`, which are 0, is multiplied by an infinite `gamma` (`C110_angular`). With a negative luminosity slope the amplitude is NaN at every redshift for which the luminosity file holds no galaxy (`C110_mean`).
* C111: the damping of the alignment 1-halo terms is computed as `1.0 - np.exp(-x)` (pk.py:932) instead of `-np.expm1(-x)`; its error is absolute, so that its relative accuracy is lost for `k << one_halo_ktrunc_ia` (`C111_damping_lost`).
* C112: an observables file with a single row (one redshift) cannot be used: `np.loadtxt(..., unpack=True)` squeezes it to three numbers and `len(self.data[0])` is a TypeError (hod.py:41-43, 214). The class documentation's `power.update(hod_settings={nbins: 6})` (pk.py:141) leads to a KeyError at the first use of the occupation model if the settings were left at their default (otherwise the key is ignored: the number of bins is the length of `obs_min`), and the limits are logarithms in the settings but linear in the file.
* C114: `mini_2pt_like.py` pairs data files with bins of the theory by the order of the file names (line 98). With ten or more files numbered 1, 2, …, 10 in their names, bin 2 gets the file of bin 10 (`C114_ten_files`) and nothing is reported. `enumerat` (line 108) and `warnings` (line 45) are unknown names: a third column, and a singular covariance, end in a NameError instead of the intended treatment. The mode `integrate` returns the integral over the bin, not the mean (`C114_integrate`), and ignores `unit` (`C114_integrate_unit`). A covariance with more rows than data is accepted; then the leading block of its inverse is used, which is not the inverse of the leading block. `likenorm` (line 75), unused, has the number of bins squared where the number of data points belongs.
* C116: a negative slope in Zheng gives infinitely many satellites in every halo up to the cut-off (`0 ** alpha`), not none, and the sample density becomes infinite (`C116_zheng_satellites`, `C116_zheng_density`).
* C117: against the legacy modules the rewrite drops the neutrino factor of the one-halo matter profile (the docstring still describes it), divides the mean mass of centrals by the density of all galaxies, and ignores `pointmass` with HMCode ingredients (`C117_neutrino`, `C117_mass_avg`, `C117_point_mass`). The legacy module itself stops with UnboundLocalError when gg, gI or II are requested without mm, gm or mI, and with TypeError for every alignment instance other than halo_mass (`C117_galaxies_alone`, `C117_alignment_instance`).
* C118: the rewrite dropped the legacy check for negative occupations (`C118_runs`, `C118_stops`) and changed the mean halo mass by the central fraction (`C118_mass_avg`, `C118_alignment`), so alignment amplitudes with a mass slope fitted with one code do not carry over to the other. In the legacy module `mean_obs_halo_mass_relation` holds one number (`C118_mean_relation`), the class Simple fails for two redshifts or more (`C118_simple`), and every model but Cacciato needs `save_observable = False` (`C118_setup`). `hod_interface_no_loop.py` passes `halobias` to classes whose argument is `halo_bias`, so it never gets an object (`C118_no_loop`).
* C119: between the redshifts of the halo model the galaxy power of a mixture is different in the two codes (`C119_difference`; by a factor of two in the example), because the squared fraction is interpolated in one and evaluated in the other. The rewritten CosmoSIS module has no red fraction at all: the fraction is 1 (`C119_interface`), and it extrapolates where the legacy one stored zeros (`C119_outside`). `do_p_mm = add_and_extrapolate` is ignored without a message, and any failure of the matter_power_nl_mead call is swallowed.
* C120: the legacy `calculate_f_ell` looks the slope up in a dictionary of the two tabulated slopes and indexes the result (ia_radial_lib.py:118-123); for every other `gamma_1h_radial_slope` this is `None[l]`, and the general expression below is never reached because the interface fixes `theta_k = pi/2` (`C120_slopes`, `C120_radial_runs`). The rewritten down-sampling decides for each array by its values and can return concentrations one column shorter than the masses, which the legacy function did not (`C120_downsample`, `C48_length_mismatch`); the rewritten interface exchanges the options which select the pivots, the legacy module did not (`C120_pivots`, `C68_exchanged`).
* C121: with `weighted_binning` and a sample with redshift bins the legacy module takes `obs_func_interp(...)[0]`, the function at the first redshift, and multiplies it with the integral of n(z) (predict_observable.py:181, 191, 202-204), so the evolution of the function within the bin is ignored (`C121_weighted_first_redshift`, `C121_weighted_ignores_redshifts`). The default suffix is `_1` and is put after `obs_val_`, so a run without `suffixes` asks for `obs_val__1`, which no module writes (`C121_default_suffix`). A bin without weighted points is nan (`C121_weighted`). The lengths of zmin and zmax are only checked in execute (`C121_redshift_limits`).
* C122: the legacy module for correlated priors adds no mean, so the outputs of standard normal inputs are centred on zero whatever the prior (`C122_covariance`); a single parameter cannot be used because `np.loadtxt` returns a 0-d array (`C122_setup`).
* C123: `cut_cross = False` (any non-empty text) cuts the cross bins; `keep_ang_psi_gm`/`keep_ang_psi_gg` are silently ignored and the other options of these statistics raise KeyError; `use_stats` entries `gammax`, `PneB`, `PeeB`, `Bn` enter the data and never the theory; theory names are compared literally, data names up to case and renaming; `cut_bin_x` for a statistic not in use lets the setup pass and raises in every execute; `replaceMeanVector` writes all mock values of a one-point function to its first bin and leaves the others.
* C124: `bnl_interface_class.py` stores the table with axes (k, m, m) while the legacy spectra read (z, m1, m2, k); the run stops, or with as many wavenumbers as masses goes on with permuted numbers (`C124_class_axes`). Between updates both legacy modules return the table of an earlier sample, with its wavenumbers (`C124_stale`). The legacy module passes omega_lambda to the emulator as it is, the rewritten class subtracts 0.00064 (`C124_parameters`).
* C125: the legacy module with HMcode corrections writes a scale radius computed with the dummy relation Duffy08 beside concentrations computed with HMcode's (`C125_scale_radius_mead`), gives satellites the amplitude norm_sat without the factor K (`C125_mead_satellites`), and ignores norm_cen. `halo_model_ingredients_halomod_class_interface.py` passes `omega_m` and `mead_correction`, which the rewritten constructor does not accept: it always stops with a TypeError (`C125_class_interface`).
* C126: an upsampled object with two populations mixes states: after an update of the shared halo model its first population is new and its second, copied at the first `results` call, is old (`C126_second_stays`, `C126_witness`). The interface avoids this by making a new object for the split alignments. `model_1_params` has no effect when a `model` is given (`C126_first_parameters_ignored`), although its description suggests an update.
* C127: `beta_two` (ia.py:81), `theta_k` and `phi_k` (ia.py:512-513) are not declared with `@parameter`, so assigning them on a live object is ignored by everything already read (`C127_assignment_ignored`, `C127_one_is_stale`, `C127_beta_two_stale`). `central_ia_depends_on`, `satellite_ia_depends_on` and `method` are `@parameter('param')` although they decide what is read; they should be `switch` (`C127_central_option`, `C127_satellite_option`, `C127_method`). Through `Spectra` neither shows, because `alignment_class` builds a new object whenever its parameters change.
* C128: `apply_mask` (twopoint.py:424-435) does not cut `npairs` and `varxi`, so mock files written after scale cuts from data with pair counts have extra rows of zeros (`C128_cut_pair_counts`); bins of different lengths of a one-point function are filled up (`C128_one_point_uneven`); `LOG_MID` angles are never written (`C128_log_mid`); `iteritems` (twopoint.py:561, 595) is no method of a Python 3 dictionary (`C128_metadata`).
* C129: `from_spec_lists` (twopoint.py:699-706) copies only the list, so the mean is written into the first realisation (`C129_first_realisation`), and its documented mode `jackknife` is not the `jk` of `sample_cov` (`C129_jackknife`); `np.lexsort` takes its last key first, against the comment (`C129_order_not_by_bins`); `reorder_canonical` joins positions with Boolean masks (`C129_reorder_one_point`); `get_nobs` uses its own result in its condition (`C129_get_nobs`); `get_overall_index` is not renewed after cuts (`C129_index_after_cut`); `generate` puts the list `nsample` among the lengths (`C129_builder_two_names`, `C129_builder_one_name`).
* C130: `emulator` looks at `sigma_8` only if `A_s` is `None`, but neither is a switch: an object first read with `A_s` and later normalised by `sigma_8` keeps the bias of the `sigma_8` it had then (`C130_sigma8_ignored`), until another parameter is set (`C130_repair`).
* C131: `input_files_generation.py:50` uses `z_bins`, the variable is `zbins` (`C131_no_output`); the loops at :62 and :81 take `edges[i - 1]` to `edges[i]` for bin `i`, empty for `i = 0` (`C131_first_turn`) and one bin too low otherwise (`C131_shifted`).
* C132: `test_nobs_hod` changes `hod_settings['nobs']` of the benchmark itself (`dict.copy()` is shallow), so tests and benchmark files made afterwards use the last value tried; `SpectraWithTrapezoid.compute_A_term` raises NameError for a negative correction because `warnings` is not imported (benchmarking.py:48, 180, 286-289).
* C133: with two or more redshift bins and single parameter values (the defaults of all four models) `hod_cen` and `hod_sat` raise IndexError although number densities, fractions and mean masses work, since the single row is broadcast in the integrals but not in `_interpolate` (hod.py:340-347); with too many values the last ones are dropped without a warning.
* C134: with feedback or fitted gas fractions a spectrum read after an update of omega_c or omega_b is the formula with the new omega_c and omega_b divided by the old omega_m (`omega_m` is a cached_property, hmi.py:250-253), so the baryon and dark matter fractions no longer add up to one.
* C135: the two-halo cut, the HMcode dampings and the feedback gas mass are built in in h/Mpc and Msun/h, so a user who works in Mpc and Msun throughout gets consistent spectra with `two_halo_ktrunc = None` and `nonlinear_mode` not `hmcode`, and silently wrong ones otherwise; note that the value given for `two_halo_ktrunc` is not the one used (C18).
* C136: with Simple and Zehavi (and Zheng/Zhai with sigma = 0) every prediction is a step function of `log10_Mmin` on the mass grid (`C136_threshold_flat`, `C136_threshold_jump`): a sampler sees exactly flat stretches of width `dlog10m` and jumps between them.
* C137: `get_normalised_profile` says it checks mass, redshift and k but compares only the masses; `get_halo_functions` drops the grids of `halobias` unread (`C137_unchecked`, `C137_bias_grid`, `C137_profile_redshift`).
* C139: `execute` reads nine cosmological numbers (C139). `omega_k`, `omega_lambda`, `A_s` and `nnu` are ignored, so a curved universe is computed as a flat one without a message. The table of the non-linear bias is made with `omega_lambda = 1 - omega_m` and without `wa`, neutrinos or curvature. `logT_AGN` is required even without feedback.
* C140: The sign of `gamma_1h_amplitude` is lost because `wkm_f_ell` returns an absolute value (ia.py:895); changing the sign of both amplitudes changes the sign of the central part of mi and gi only. `np.clip(gamma, None, 0.3)` (ia.py:925) caps positive amplitudes only. The example values file ships a negative amplitude with slope -2: its profile is never capped, while the same positive amplitude is capped near the core of a large halo (C140).
* C141: The growth function handed to the HMcode fits is normalised at early times, so `g/a` starts at `a_init^(-3f/5)`, which is slightly above 1 whenever there is dark energy: the first argument of the fits can exceed the Einstein-de Sitter value (C141_suppressed; harmless, the excess is below 0.1% for w <= -0.8).
* C142: For Zehavi's model the bias of a sample can fall when its minimum mass is raised, since satellites of halos without a central stay in the sample (C142_zehavi_can_fall). The published avg_halo_mass falls when the threshold rises (C142_threshold_sample, C142_published_mass).
* C143: `covariance_excluder` silently removes points of the next bin when a number exceeds the size of a bin (C143_next_bin), gives wrong block sizes for repeated numbers (C143_sizes) and fails for numbers and lists, which its documentation allows (C143_only_arrays). `likenorm` uses the square of the number of bins where the number of data points belongs (C143_likenorm; the value is never used).
* C144: `get_Pk_wiggle` smooths with a width of 0.25/dlnk grid steps cut at four widths. On grids with dlnk > 2 the kernel has a single entry and dewiggling returns the linear spectrum unchanged, without a warning.
* C146: a dictionary given to the constructor of `Spectra` stays connected to it. Changing an entry and calling `update` with the same dictionary does nothing, because the setter compares the dictionary with itself (`C146_rewritten_dictionary_ignored`); two `Spectra` built from one `hod_params` dictionary change each other through `update` (`C146_update_leaks`), and `alignment_class` writes its arrays into the caller's `align_params`.
* C147: the stellar fraction of the mead2020_feedback recipe falls with the AGN temperature only up to a redshift of about 2.7 to 2.8 (d ln fs/dT = -0.3/(2.01-0.3(T-7.8)) + 0.0224 z ln 10); above it hotter AGN leave more stars (`C147_stars_rise`, from redshift 3.1).
* C148: log_mass_max is not the upper end of the integrals: np.arange leaves it out, so the integrals stop one step dlog10m below it. Refining the grid changes the range at first order in the step while the rule itself converges at third order.
* C149: the galaxy power spectra carry no shot noise and leave out the pair of a central with itself, so the correlation coefficient P_gm / sqrt(P_gg P_mm) of the returned spectra exceeds one for samples of mostly centrals; and nothing stops a Poisson factor below 1 - 1/N, which no distribution of N satellites has.
* C150: SpectrumMeasurement.cut_bin_pair leaves bin_pairs (and the covariance of the file) as they were, and leaves a measurement without angles with fewer bins than values. OnePointMeasurement.from_block drops every bin beyond the first missing number silently, and shifts the edges when only some bins have them.
* C152: matter and galaxies treat the mass below the sampled halos differently (C152): the matter factor adds the missing part A, the galaxy factor is normalised by the sampled galaxies. Galaxies that trace the mass of halos exactly therefore do not have the 2-halo power of matter unless A = 1 - f.
* C154: the names of extensions cannot be changed in the legacy scale cuts (C154): `setup` wants the fixed tags in use_stats, `execute` compares the same list with the extension names. A renamed or differently spelt statistic stays in the data and is missing in the theory vector.
* C155: the galaxy power of a combined UpsampledSpectra is that of no sample of galaxies (C155, generalises C60): the pairs of a galaxy of one with a galaxy of the other population are missing; between halos that is up to half of the power.
* C156: assembly bias is applied to each bin of the observable by itself (C156): decorated centrals of two bins do not add up to the decorated centrals of the bin made of both, and can exceed one central per halo together.
* C157: the lowest wavenumber of the grid sets the normalisation of all profiles, and the redshift grid of the spectra sets the accuracy of galaxy numbers (C157): changing either grid changes results at points that both grids share.
* C158: the missing mass has no profile in the matter bias (C158, see also C97): on scales inside halos, where matter should have no large-scale term, the two-halo power stays at the linear power times the square of the missing mass term, so the total of matter approaches it from above and not zero.
* C161: in `hmcode` mode only the matter power uses the two-halo term of HMcode (pk.py:1597-1601), galaxies keep the plain one. Where the matter integral is one and no truncation is set, `gg.pk_2h * mm.pk_2h < gm.pk_2h**2` at every positive wavenumber: the two-halo correlation coefficient of galaxies and matter is above one.
* C162: `power_spectrum_gm.galaxy_linear_bias` (pk.py:2057) is the square root of the galaxy bias times the matter integral, because it copies the square root of the clustering case. At the first wavenumber a sample with bias 2 reports 1.41. The CosmoSIS module writes this as `bgm_linear` (onepower_interface.py:1105). Neither reported value includes response or the non-linear halo bias.
* C163: with `pointmass` and without a recipe for baryons the lensing spectrum contains stars and expelled gas, the matter power does not (pk.py:1556-1567 against 1991-2000): where smooth profiles have vanished `mm.pk_1h` is zero while `gm.pk_1h` is not, and on the largest scales the one-halo lensing of a halo lacks the mass of the expelled gas.
* C165: In mode 'bnl' the two-halo options have no effect on any spectrum, although they are accepted; and with response the matter options change the alignment spectra, through the matter power the response is divided by.
* C166: The power law is evaluated at the mean halo mass of the bin, not at the mass of each halo, so it changes no shape in mass or wavenumber; and in mode 'fortuna' beta_cen and mpivot_cen are accepted but have no effect.
* C167: Pivot and amplitude of the power law cannot be told apart: a fit needs one of them fixed.
* C168: The alignments of satellites do not contain the growth factor, so a change of its normalisation changes the ratio of central to satellite alignments.

## 7. Wrong programs (seeded/LOG.jsonl)

Each line is one edit of a model definition in a scratch copy, the claim the edit breaks and the theorems that no longer
check. `theorems_failed` means that the proof, or a lemma it uses, was rejected. For a single edit this does not by itself
show that the statement became false: a proof can also fail because its script no longer fits. What the log
establishes, for the edits it lists, is the converse: it names the edits whose claim became false while all theorems stood
(lines with an empty `theorems_failed`) and the theorems stated afterwards. Edits still being run are not listed.

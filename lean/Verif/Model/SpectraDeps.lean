import Verif.Lib.HmfCache

/-!
# What every cached quantity of `Spectra` reads (`/repo/src/onepower/hmi.py`, `/repo/src/onepower/pk.py`)

All 107 cached quantities of `CosmologyBase`, `HaloModelIngredients` and `Spectra` and the `cached_property`
`omega_m`, as programs of the cache machinery (`Lib/HmfCache`): which parameters and quantities the code reads, in
which order, and on which parameters it branches.  What is *computed* from the values read is an arbitrary function
of them (`Sem.out`), so everything proved holds whatever the formulas are.

Reads made inside plain methods (`I_NL`, `fg`, `dewiggle_plin`, ...) belong to the cached quantity that calls them and
are listed there.  A value read several times in a row is listed at its first occurrence.  Simplifications: the
redshift grid is not empty; code that raises is left out (readers' shape checks C32, the unreachable HMcode branch
C26); `alignment_class` writing into its parameter dictionary is the subject of C53; `if self.hod_mm is not None`
and `if self.obs is None` are the conditions under which these objects are built.
-/

namespace Verif.SpectraDeps

open Verif.Cache

/-- the conditions on parameters the code branches on -/
inductive Test
  /-- `hmcode_ingredients in ['mead2020_feedback', 'mead2020']` -/
  | mead
  /-- `hmcode_ingredients == 'mead2020_feedback'` -/
  | feedback
  /-- `hmcode_ingredients == 'mead2020'` -/
  | mead2020
  /-- `hmcode_ingredients == 'fit'` -/
  | fit
  /-- `mdef_model == 'SOVirial'` -/
  | virial
  /-- `nonlinear_mode == 'bnl'` -/
  | bnl
  /-- `nonlinear_mode == 'hmcode'` -/
  | hmcode
  /-- `nonlinear_mode == 'fortuna'` -/
  | fortuna
  /-- `dewiggle` -/
  | dewiggle
  /-- `response` -/
  | response
  /-- `pointmass` -/
  | pointmass
  /-- `compute_observable` -/
  | observable
  /-- `hod_model.__name__ == 'Cacciato'` -/
  | cacciato
  /-- `beta_nl is None` -/
  | betaNone
  /-- `matter_power_lin is None` -/
  | linNone
  /-- `matter_power_nl is None` -/
  | nlNone
  /-- `one_halo_ktrunc is None` -/
  | oneNone
  /-- `two_halo_ktrunc is None` -/
  | twoNone
  /-- `one_halo_ktrunc_ia is None` -/
  | oneIaNone
  /-- `two_halo_ktrunc_ia is None` -/
  | twoIaNone
  deriving DecidableEq

/-- the parameter a condition looks at -/
def Test.param : Test → String
  | mead | feedback | mead2020 | fit => "hmcode_ingredients"
  | virial => "mdef_model"
  | bnl | hmcode | fortuna => "nonlinear_mode"
  | dewiggle => "dewiggle"
  | response => "response"
  | pointmass => "pointmass"
  | observable => "compute_observable"
  | cacciato => "hod_model"
  | betaNone => "beta_nl"
  | linNone => "matter_power_lin"
  | nlNone => "matter_power_nl"
  | oneNone => "one_halo_ktrunc"
  | twoNone => "two_halo_ktrunc"
  | oneIaNone => "one_halo_ktrunc_ia"
  | twoIaNone => "two_halo_ktrunc_ia"

/-- something the code of quantity `n` reads -/
inductive Src (n : ℕ)
  | p (s : String)
  | q (i : ℕ) (h : i < n := by decide)

/-- the reading behaviour of the code of quantity `n` -/
inductive Body (n : ℕ)
  /-- return a value computed from everything read -/
  | ret
  | read (s : Src n) (k : Body n)
  | ite (t : Test) (a b : Body n)

/-- read one after the other -/
def reads {n : ℕ} : List (Src n) → Body n → Body n
  | [], k => k
  | s :: l, k => .read s (reads l k)

/-- what the values are: `out q vs` is computed by quantity `q` from the values `vs` it read, `holds` decides the
conditions -/
structure Sem (V : Type) where
  out : ℕ → List V → V
  holds : Test → V → Bool

/-- the code as a program of the cache machinery; `acc` are the values read so far -/
def compile {V : Type} (S : Sem V) {n : ℕ} : Body n → List V → Prog String V n
  | .ret, acc => .ret (S.out n acc)
  | .read (.p s) k, acc => .param s fun v => compile S k (acc ++ [v])
  | .read (.q i h) k, acc => .quant ⟨i, h⟩ fun v => compile S k (acc ++ [v])
  | .ite t a b, acc => .param t.param fun v =>
      if S.holds t v = true then compile S a (acc ++ [v]) else compile S b (acc ++ [v])

/-! ## Numbers of the quantities -/

abbrev cosmoModel : ℕ := 0
abbrev omegaM : ℕ := 1
abbrev scaleFactor : ℕ := 2
abbrev meadGrowthFnc : ℕ := 3
abbrev meadGrowth : ℕ := 4
abbrev meadAccumulatedGrowth : ℕ := 5
abbrev dcMead : ℕ := 6
abbrev dvMead : ℕ := 7
abbrev normC : ℕ := 8
abbrev normS : ℕ := 9
abbrev etaC : ℕ := 10
abbrev etaS : ℕ := 11
abbrev deltaCMod : ℕ := 12
abbrev mdefMod : ℕ := 13
abbrev hmfMod : ℕ := 14
abbrev biasMod : ℕ := 15
abbrev concModDm : ℕ := 16
abbrev concModSat : ℕ := 17
abbrev mdefParams : ℕ := 18
abbrev haloProfileParams : ℕ := 19
abbrev disableMassConversion : ℕ := 20
abbrev bigK : ℕ := 21
abbrev hmfGenerator : ℕ := 22
abbrev hmfCen : ℕ := 23
abbrev hmfSat : ℕ := 24
abbrev mass : ℕ := 25
abbrev power : ℕ := 26
abbrev nonlinearPower : ℕ := 27
abbrev kh : ℕ := 28
abbrev haloOverdensityMean : ℕ := 29
abbrev nu : ℕ := 30
abbrev dndlnm : ℕ := 31
abbrev meanDensity0 : ℕ := 32
abbrev meanDensityZ : ℕ := 33
abbrev rhoHalo : ℕ := 34
abbrev haloBias : ℕ := 35
abbrev neff : ℕ := 36
abbrev sigma8Z : ℕ := 37
abbrev fnu : ℕ := 38
abbrev concCen : ℕ := 39
abbrev nfwCen : ℕ := 40
abbrev uDm : ℕ := 41
abbrev rsCen : ℕ := 42
abbrev rvirCen : ℕ := 43
abbrev concSat : ℕ := 44
abbrev nfwSat : ℕ := 45
abbrev uSat : ℕ := 46
abbrev rsSat : ℕ := 47
abbrev rvirSat : ℕ := 48
abbrev growthFactor : ℕ := 49
abbrev ehNowiggle : ℕ := 50
abbrev calcBnl : ℕ := 51
abbrev betaNlArray : ℕ := 52
abbrev pkLin : ℕ := 53
abbrev pkNl : ℕ := 54
abbrev peff : ℕ := 55
abbrev i12 : ℕ := 56
abbrev i21 : ℕ := 57
abbrev i22 : ℕ := 58
abbrev hodMm : ℕ := 59
abbrev fstarMm : ℕ := 60
abbrev matterProfile : ℕ := 61
abbrev matterProfile2h : ℕ := 62
abbrev matterProfileFeedback : ℕ := 63
abbrev oneHaloTruncation : ℕ := 64
abbrev twoHaloTruncation : ℕ := 65
abbrev oneHaloTruncationIa : ℕ := 66
abbrev twoHaloTruncationIa : ℕ := 67
abbrev missingMass : ℕ := 68
abbrev aTerm : ℕ := 69
abbrev imTerm : ℕ := 70
abbrev trapezoidalWeights : ℕ := 71
abbrev poissonFunc : ℕ := 72
abbrev powerSpectrumLin : ℕ := 73
/-- `_power_spectrum_mm` -/
abbrev mmRaw : ℕ := 74
/-- `power_spectrum_mm` -/
abbrev mm : ℕ := 75
abbrev hod : ℕ := 76
abbrev fstar : ℕ := 77
abbrev massAvg : ℕ := 78
abbrev obs : ℕ := 79
abbrev obsFunc : ℕ := 80
abbrev obsFuncCen : ℕ := 81
abbrev obsFuncSat : ℕ := 82
abbrev obsFuncObs : ℕ := 83
abbrev obsFuncZ : ℕ := 84
abbrev centralProfile : ℕ := 85
abbrev satelliteProfile : ℕ := 86
abbrev icTerm : ℕ := 87
abbrev isTerm : ℕ := 88
/-- `power_spectrum_gg` -/
abbrev gg : ℕ := 89
/-- `power_spectrum_gm` -/
abbrev gm : ℕ := 90
abbrev alignmentClass : ℕ := 91
abbrev betaCen : ℕ := 92
abbrev betaSat : ℕ := 93
abbrev mpivotCen : ℕ := 94
abbrev mpivotSat : ℕ := 95
abbrev alignmentGi : ℕ := 96
abbrev c1 : ℕ := 97
abbrev amplitude2h : ℕ := 98
abbrev amplitude2hII : ℕ := 99
abbrev wkmSat : ℕ := 100
abbrev centralAlignment : ℕ := 101
abbrev satelliteAlignment : ℕ := 102
abbrev icAlign : ℕ := 103
abbrev isAlign : ℕ := 104
/-- `power_spectrum_mi` -/
abbrev mi : ℕ := 105
/-- `power_spectrum_ii` -/
abbrev ii : ℕ := 106
/-- `power_spectrum_gi` -/
abbrev gi : ℕ := 107

open Src

/-! ## Parts used by several quantities -/

/-- `matter_profile_with_feedback_stellar_fraction_from_obs(fstar)` (pk.py:806-871, 1449-1482) after `fstar` -/
def fitProfile {n : ℕ} (h : omegaM < n ∧ uDm < n) : List (Src n) :=
  [q mass (Nat.lt_trans (by decide) h.2), q meanDensity0 (Nat.lt_trans (by decide) h.2), q uDm h.2, p "z_vec", p "mb",
    p "omega_c", q omegaM h.1, p "omega_b"]

/-- arguments and reads of `I_NL` after the profiles (pk.py:1300-1406, 1573-1582) -/
def inlReads {n : ℕ} (h : trapezoidalWeights < n) : List (Src n) :=
  [q haloBias (Nat.lt_trans (by decide) h), q dndlnm (Nat.lt_trans (by decide) h), q aTerm (Nat.lt_trans (by decide) h),
    q meanDensity0 (Nat.lt_trans (by decide) h), q betaNlArray (Nat.lt_trans (by decide) h),
    q i12 (Nat.lt_trans (by decide) h), q i21 (Nat.lt_trans (by decide) h), q i22 (Nat.lt_trans (by decide) h),
    q mass (Nat.lt_trans (by decide) h), q trapezoidalWeights h]

/-- the matter profile of the 1-halo terms of gm and mi (pk.py:1991-2000, 2358-2367) -/
def profile1h {n : ℕ} (h : fstar < n) (k : Body n) : Body n :=
  .ite .feedback (.read (q matterProfileFeedback (Nat.lt_trans (by decide) h)) k)
    (.ite .mead2020 (.read (q matterProfile (Nat.lt_trans (by decide) h)) k)
      (.ite .fit (.read (q fstar h) (reads (fitProfile ⟨Nat.lt_trans (by decide) h, Nat.lt_trans (by decide) h⟩) k))
        (.ite .pointmass
          (.read (q fstar h) (reads (fitProfile ⟨Nat.lt_trans (by decide) h, Nat.lt_trans (by decide) h⟩) k))
          (.read (q matterProfile (Nat.lt_trans (by decide) h)) k))))

/-- the response factor at the end of gg, gm, mi, ii, gi (e.g. pk.py:1968-1971) -/
def responseTail {n : ℕ} (h : mmRaw < n) : Body n :=
  .ite .response (reads [q pkNl (Nat.lt_trans (by decide) h), q mmRaw h] .ret) .ret

/-- the prefactor reads of `_pk_lin` after the input spectrum (pk.py:464-470, 643-671, 2692-2734) -/
def dewiggleReads : Body pkLin := reads [p "k_vec", p "n_s", q ehNowiggle, p "z_vec"] .ret

/-- the tail of `_pk_lin` (pk.py:464-470) -/
def pkLinTail : Body pkLin :=
  .ite .hmcode dewiggleReads (.ite .dewiggle dewiggleReads (reads [p "z_vec", p "k_vec"] .ret))

/-- the tail of `_pk_nl` (pk.py:485-498) -/
def pkNlTail : Body pkNl :=
  .ite .nlNone (reads [q kh, q nonlinearPower, p "k_vec", p "z_vec"] .ret) (reads [p "z_vec", p "k_vec"] .ret)

/-- `I12`, `I21`, `I22` (pk.py:545-600, 1205-1298) -/
def iBody {n : ℕ} (h : betaNlArray < n) : Body n :=
  .ite .bnl (reads [q haloBias (Nat.lt_trans (by decide) h), q dndlnm (Nat.lt_trans (by decide) h), q betaNlArray h,
    q mass (Nat.lt_trans (by decide) h)] .ret) .ret

/-- a halo occupation object (pk.py:616-624, 1667-1675, 1713-1721) with the settings `s` -/
def hodReads {n : ℕ} (h : haloBias < n) (s : String) : List (Src n) :=
  [q cosmoModel (Nat.lt_trans (by decide) h), q mass (Nat.lt_trans (by decide) h), q dndlnm (Nat.lt_trans (by decide) h),
    q haloBias h, p "z_vec", p s, p "hod_params"]

/-- rest of `_power_spectrum_mm` after the profile (pk.py:1569-1630) -/
def mmTail : Body mmRaw :=
  .ite .bnl
    (.read (q matterProfile2h) (reads (inlReads (by decide))
      (reads [q pkLin, q imTerm, q oneHaloTruncation] .ret)))
    (.ite .hmcode
      (.ite .mead (reads [q pkLin, q sigma8Z, p "k_vec", q mass, q dndlnm, q neff] .ret) .ret)
      (reads [q pkLin, q imTerm, q twoHaloTruncation, q mass, q dndlnm, q oneHaloTruncation] .ret))

/-- the 1-halo part of gg (pk.py:1937-1966) -/
def gg1h : Body gg :=
  reads [q centralProfile, q satelliteProfile, q mass, q dndlnm, q oneHaloTruncation, q poissonFunc]
    (responseTail (by decide))

/-- 2-halo and 1-halo part of gm after the profile (pk.py:2002-2071) -/
def gmTail : Body gm :=
  .ite .bnl
    (reads [q centralProfile, q satelliteProfile, q matterProfile2h] (reads (inlReads (by decide))
      (reads [q pkLin, q icTerm, q imTerm, q isTerm, q oneHaloTruncation] (responseTail (by decide)))))
    (reads [q pkLin, q icTerm, q imTerm, q twoHaloTruncation, q isTerm, q centralProfile, q mass, q dndlnm,
      q oneHaloTruncation, q satelliteProfile] (responseTail (by decide)))

/-- the 1-halo part of mi (pk.py:2409-2441) -/
def mi1h : Body mi :=
  reads [q satelliteAlignment, q mass, q dndlnm, q oneHaloTruncationIa] (responseTail (by decide))

/-- 2-halo and 1-halo part of mi after the profile (pk.py:2369-2441) -/
def miTail : Body mi :=
  .ite .bnl
    (reads [q centralAlignment, q satelliteAlignment, q matterProfile2h] (reads (inlReads (by decide))
      (reads [q pkLin, q isAlign, q imTerm, q icAlign] mi1h)))
    (.ite .fortuna (reads [q hod, q peff, q amplitude2h, q twoHaloTruncationIa] mi1h)
      (reads [q pkLin, q isAlign, q imTerm, q twoHaloTruncationIa, q icAlign] mi1h))

/-- the 1-halo part of ii (pk.py:2537-2564) -/
def ii1h : Body ii :=
  reads [q satelliteAlignment, q mass, q dndlnm, q oneHaloTruncationIa] (responseTail (by decide))

/-- the 1-halo part of gi (pk.py:2636-2662) -/
def gi1h : Body gi :=
  reads [q centralProfile, q satelliteAlignment, q mass, q dndlnm, q oneHaloTruncationIa] (responseTail (by decide))

/-- the loops of `_hmf_generator` (hmi.py:1129-1214) -/
def generatorLoops : Body hmfGenerator :=
  .ite .mead
    (reads [p "z_vec", q normC, q bigK, q normS, p "halo_profile_model_sat", q concModSat] .ret)
    (reads [p "z_vec", q etaC, q normC, q etaS, q normS, p "halo_profile_model_sat", q concModSat] .ret)

/-! ## The quantities -/

/-- the reading behaviour of every quantity; the comment gives name and place -/
def body : (n : ℕ) → Body n
  | 0 => reads [p "h0", p "omega_b", p "omega_c", p "Neff", p "m_nu", p "tcmb", p "w0", p "wa"] .ret -- cosmo_model hmi.py:229-248
  | 1 => .read (q cosmoModel) .ret -- omega_m hmi.py:250-253
  | 2 => .read (p "z_vec") .ret -- scale_factor hmi.py:255-265
  | 3 => .read (q cosmoModel) .ret -- get_mead_growth_fnc hmi.py:343-380, 267-341
  | 4 => reads [q meadGrowthFnc, q scaleFactor] .ret -- get_mead_growth hmi.py:382-392
  | 5 => reads [q meadGrowthFnc, q scaleFactor] .ret -- get_mead_accumulated_growth hmi.py:394-415
  | 6 => reads [q scaleFactor, q cosmoModel, p "z_vec", q meadGrowth, q meadAccumulatedGrowth] .ret -- dc_Mead hmi.py:438-469
  | 7 => reads [q scaleFactor, q cosmoModel, p "z_vec", q meadGrowth, q meadAccumulatedGrowth] .ret -- Dv_Mead hmi.py:471-501
  | 8 => reads [p "norm_cen", p "z_vec"] .ret -- _norm_c hmi.py:854-864
  | 9 => reads [p "norm_sat", p "z_vec"] .ret -- _norm_s hmi.py:866-876
  | 10 => reads [p "eta_cen", p "z_vec"] .ret -- _eta_c hmi.py:878-889
  | 11 => reads [p "eta_sat", p "z_vec"] .ret -- _eta_s hmi.py:891-901
  | 12 => .ite .mead (.read (q dcMead) .ret)
      (.ite .virial (reads [q cosmoModel, p "z_vec"] .ret) (reads [p "delta_c", p "z_vec"] .ret)) -- _delta_c_mod hmi.py:903-924
  | 13 => .ite .mead .ret (.read (p "mdef_model") .ret) -- _mdef_mod hmi.py:926-939
  | 14 => .ite .mead .ret (.read (p "hmf_model") .ret) -- _hmf_mod hmi.py:941-954
  | 15 => .ite .mead .ret (.read (p "bias_model") .ret) -- _bias_mod hmi.py:956-969
  | 16 => .ite .mead .ret (.read (p "halo_concentration_model_dm") .ret) -- _halo_concentration_mod_dm hmi.py:971-993
  | 17 => .ite .mead .ret (.read (p "halo_concentration_model_sat") .ret) -- _halo_concentration_mod_sat hmi.py:995-1016
  | 18 => .ite .mead (.read (q dvMead) .ret)
      (.read (p "z_vec") (.ite .virial .ret (.read (p "overdensity") .ret))) -- mdef_params hmi.py:1018-1040
  | 19 => .read (q cosmoModel) .ret -- halo_profile_params hmi.py:1042-1053
  | 20 => .read (p "hmcode_ingredients") .ret -- disable_mass_conversion hmi.py:1055-1064
  | 21 => .ite .mead2020 (.read (p "z_vec") .ret)
      (.ite .feedback (reads [p "log10T_AGN", p "z_vec"] .ret) (.read (p "z_vec") .ret)) -- K hmi.py:1066-1087
  | 22 => reads [p "lnk_min", p "lnk_max", p "dlnk", p "Mmin", p "Mmax", p "dlog10m", q hmfMod, q mdefMod,
      q disableMassConversion, q biasMod, p "halo_profile_model_dm", q haloProfileParams, q concModDm, q cosmoModel,
      p "sigma_8", p "n_s", p "transfer_model", p "transfer_params", p "growth_model", p "growth_params", q mdefParams,
      q deltaCMod] generatorLoops -- _hmf_generator hmi.py:1089-1215
  | 23 => .read (q hmfGenerator) .ret -- _hmf_cen hmi.py:1217-1222
  | 24 => .read (q hmfGenerator) .ret -- _hmf_sat hmi.py:1224-1229
  | 25 => .read (q hmfCen) .ret -- mass hmi.py:1231-1241
  | 26 => .read (q hmfCen) .ret -- power hmi.py:1243-1253
  | 27 => .read (q hmfCen) .ret -- nonlinear_power hmi.py:1255-1265
  | 28 => .read (q hmfCen) .ret -- kh hmi.py:1267-1277
  | 29 => .read (q hmfCen) .ret -- halo_overdensity_mean hmi.py:1279-1289
  | 30 => .read (q hmfCen) .ret -- nu hmi.py:1291-1301
  | 31 => .read (q hmfCen) .ret -- dndlnm hmi.py:1303-1313
  | 32 => .read (q hmfCen) .ret -- mean_density0 hmi.py:1315-1325
  | 33 => .read (q hmfCen) .ret -- mean_density_z hmi.py:1327-1337
  | 34 => .read (q hmfCen) .ret -- rho_halo hmi.py:1339-1351
  | 35 => .read (q hmfCen) .ret -- halo_bias hmi.py:1353-1363
  | 36 => .read (q hmfCen) .ret -- neff hmi.py:1365-1375
  | 37 => .read (q hmfCen) .ret -- sigma8_z hmi.py:1377-1387
  | 38 => reads [p "z_vec", q cosmoModel] .ret -- fnu hmi.py:1389-1401
  | 39 => .read (q hmfCen) .ret -- conc_cen hmi.py:1403-1413
  | 40 => reads [q hmfCen, p "k_vec"] .ret -- nfw_cen hmi.py:1415-1425
  | 41 => .read (q nfwCen) .ret -- u_dm hmi.py:1427-1437
  | 42 => .read (q hmfCen) .ret -- r_s_cen hmi.py:1439-1449
  | 43 => .read (q hmfCen) .ret -- rvir_cen hmi.py:1451-1463
  | 44 => .read (q hmfSat) .ret -- conc_sat hmi.py:1465-1475
  | 45 => reads [q hmfSat, p "k_vec"] .ret -- nfw_sat hmi.py:1477-1487
  | 46 => .read (q nfwSat) .ret -- u_sat hmi.py:1489-1499
  | 47 => .read (q hmfSat) .ret -- r_s_sat hmi.py:1501-1511
  | 48 => .read (q hmfSat) .ret -- rvir_sat hmi.py:1513-1525
  | 49 => reads [q hmfCen, p "z_vec"] .ret -- growth_factor hmi.py:1527-1537
  | 50 => .read (q cosmoModel) .ret -- Tk_EH_nowiggle_lnt pk.py:2688-2690
  | 51 => reads [q mass, p "z_vec", p "k_vec", p "h0", p "sigma_8", p "omega_b", p "omega_c", q omegaM, p "n_s", p "w0"]
      .ret -- calc_bnl pk.py:516-543
  | 52 => .ite .bnl (.ite .betaNone (.read (q calcBnl) .ret) .ret) (.read (p "beta_nl") .ret) -- _beta_nl_array pk.py:425-437
  | 53 => .ite .linNone (reads [q kh, q power, p "k_vec"] pkLinTail) pkLinTail -- _pk_lin pk.py:439-470
  | 54 => .read (p "matter_power_nl") (.ite .fortuna pkNlTail (.ite .response pkNlTail .ret)) -- _pk_nl pk.py:472-498
  | 55 => .ite .fortuna (reads [p "t_eff", q pkNl, q pkLin] .ret) .ret -- peff pk.py:500-514
  | 56 => iBody (by decide) -- I12
  | 57 => iBody (by decide) -- I21
  | 58 => iBody (by decide) -- I22
  | 59 => .read (p "hod_model") (.ite .fit (.ite .cacciato (reads (hodReads (by decide) "hod_settings_mm") .ret) .ret)
      .ret) -- hod_mm pk.py:602-626
  | 60 => .read (q hodMm) (.ite .fit (.ite .cacciato .ret (reads [p "z_vec", q mass] .ret))
      (reads [p "z_vec", q mass] .ret)) -- fstar_mm pk.py:628-641
  | 61 => reads [q mass, q meanDensity0, q uDm] .ret -- matter_profile pk.py:707-723
  | 62 => reads [q mass, q meanDensity0, q uDm] .ret -- matter_profile_2h pk.py:725-743
  | 63 => reads [q mass, q meanDensity0, q uDm, p "z_vec", p "log10T_AGN", p "omega_c", q omegaM, p "omega_b"]
      .ret -- matter_profile_with_feedback pk.py:787-804, 745-785, 1408-1447, 1484-1503
  | 64 => .ite .oneNone (.read (p "k_vec") .ret) (.read (p "k_vec") .ret) -- one_halo_truncation pk.py:873-891
  | 65 => .ite .twoNone (.read (p "k_vec") .ret) (.read (p "k_vec") .ret) -- two_halo_truncation pk.py:893-913
  | 66 => .ite .oneIaNone (.read (p "k_vec") .ret) (.read (p "k_vec") .ret) -- one_halo_truncation_ia pk.py:915-932
  | 67 => .ite .twoIaNone (.read (p "k_vec") .ret) (.read (p "k_vec") .ret) -- two_halo_truncation_ia pk.py:934-951
  | 68 => reads [q mass, q haloBias, q dndlnm, q meanDensity0] .ret -- missing_mass_integral pk.py:1127-1143
  | 69 => .read (q missingMass) .ret -- A_term pk.py:1145-1155
  | 70 => reads [q mass, q uDm, q haloBias, q dndlnm, q meanDensity0, q aTerm] .ret -- Im_term pk.py:1157-1178
  | 71 => .read (q mass) .ret -- _trapezoidal_weights pk.py:1392-1400
  | 72 => reads [p "poisson_model", q mass, p "poisson_params"] .ret -- poisson_func pk.py:1505-1526
  | 73 => .read (q pkLin) .ret -- power_spectrum_lin pk.py:1528-1541
  | 74 => .ite .feedback (.read (q matterProfileFeedback) mmTail)
      (.ite .mead2020 (.read (q matterProfile) mmTail)
        (.ite .fit (.read (q fstarMm) (reads (fitProfile (by decide)) mmTail))
          (.read (q matterProfile) mmTail))) -- _power_spectrum_mm pk.py:1543-1630
  | 75 => .ite .response (.read (q pkNl) .ret) (.read (q mmRaw) .ret) -- power_spectrum_mm pk.py:1632-1653
  | 76 => .read (p "hod_model") (reads (hodReads (by decide) "hod_settings") .ret) -- hod pk.py:1657-1675
  | 77 => .read (q hod) .ret -- fstar pk.py:1677-1687
  | 78 => .read (q hod) .ret -- mass_avg pk.py:1689-1699
  | 79 => .read (p "hod_model") (.ite .cacciato (.ite .observable (reads (hodReads (by decide) "obs_settings") .ret) .ret)
      .ret) -- obs pk.py:1701-1723
  | 80 => .read (q obs) .ret -- obs_func pk.py:1725-1737
  | 81 => .read (q obs) .ret -- obs_func_cen pk.py:1739-1751
  | 82 => .read (q obs) .ret -- obs_func_sat pk.py:1753-1765
  | 83 => .read (q obs) .ret -- obs_func_obs pk.py:1767-1779
  | 84 => .read (q obs) .ret -- obs_func_z pk.py:1781-1793
  | 85 => reads [q hod, q uSat] .ret -- central_galaxy_profile pk.py:1795-1810
  | 86 => reads [q hod, q uSat] .ret -- satellite_galaxy_profile pk.py:1812-1827
  | 87 => reads [q centralProfile, q mass, q dndlnm, q haloBias] .ret -- Ic_term pk.py:1852-1868
  | 88 => reads [q satelliteProfile, q mass, q dndlnm, q haloBias] .ret -- Is_term pk.py:1870-1886
  | 89 => .ite .bnl
      (reads [q centralProfile, q satelliteProfile] (reads (inlReads (by decide)) (reads [q pkLin, q icTerm, q isTerm] gg1h)))
      (reads [q pkLin, q icTerm, q twoHaloTruncation, q isTerm] gg1h) -- power_spectrum_gg pk.py:1888-1978
  | 90 => profile1h (by decide) gmTail -- power_spectrum_gm pk.py:1980-2071
  | 91 => reads [p "align_params", p "z_vec", q mass, q concCen, q rsCen, q rvirCen] .ret -- alignment_class pk.py:2075-2095
  | 92 => .read (q alignmentClass) .ret -- beta_cen pk.py:2097-2102
  | 93 => .read (q alignmentClass) .ret -- beta_sat pk.py:2104-2109
  | 94 => .read (q alignmentClass) .ret -- mpivot_cen pk.py:2111-2116
  | 95 => .read (q alignmentClass) .ret -- mpivot_sat pk.py:2118-2123
  | 96 => .read (q alignmentClass) .ret -- alignment_gi pk.py:2125-2130
  | 97 => .read (q alignmentGi) .ret -- C1 pk.py:2154-2159
  | 98 => reads [q c1, q meanDensity0, q growthFactor] .ret -- alignment_amplitude_2h pk.py:2132-2141
  | 99 => reads [q c1, q meanDensity0, q growthFactor] .ret -- alignment_amplitude_2h_II pk.py:2143-2152
  | 100 => reads [q alignmentClass, p "k_vec", q mass] .ret -- wkm_sat pk.py:2161-2175
  | 101 => reads [q growthFactor, q hod, q c1, q mass, q betaCen, q mpivotCen, q massAvg] .ret -- central_alignment_profile pk.py:2247-2271
  | 102 => reads [q hod, q wkmSat, q betaSat, q mpivotSat, q massAvg] .ret -- satellite_alignment_profile pk.py:2273-2297
  | 103 => reads [q centralAlignment, q mass, q dndlnm, q haloBias, q aTerm, q meanDensity0] .ret -- Ic_align_term pk.py:2299-2321
  | 104 => reads [q satelliteAlignment, q mass, q dndlnm, q haloBias, q aTerm, q meanDensity0] .ret -- Is_align_term pk.py:2323-2345
  | 105 => profile1h (by decide) miTail -- power_spectrum_mi pk.py:2347-2441
  | 106 => .ite .bnl
      (reads [q satelliteAlignment] (reads (inlReads (by decide)) (reads [q centralAlignment, q pkLin, q isAlign, q icAlign]
        ii1h)))
      (.ite .fortuna (reads [q hod, q peff, q amplitude2hII, q twoHaloTruncationIa] ii1h)
        (reads [q pkLin, q isAlign, q twoHaloTruncationIa, q icAlign] ii1h)) -- power_spectrum_ii pk.py:2443-2564
  | 107 => .ite .bnl
      (reads [q centralAlignment, q centralProfile] (reads (inlReads (by decide))
        (reads [q satelliteAlignment, q pkLin, q icTerm, q icAlign, q isAlign] gi1h)))
      (.ite .fortuna (reads [q peff, q icTerm, q amplitude2h, q twoHaloTruncationIa] gi1h)
        (reads [q pkLin, q icTerm, q icAlign, q twoHaloTruncationIa, q isAlign] gi1h)) -- power_spectrum_gi pk.py:2566-2662
  | _ => .ret

/-- the class `Spectra`: `nonlinear_mode` and `response` are switches (pk.py:217, 277), `omega_m` is a
`functools.cached_property`, everything else a `cached_quantity` -/
def cls {V : Type} (S : Sem V) : Cls String V where
  isSwitch s := s == "nonlinear_mode" || s == "response"
  kind n := if n = omegaM then .frozen else .tracked
  code n := compile S (body n) []

end Verif.SpectraDeps

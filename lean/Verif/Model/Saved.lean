import Verif.Model.Interface
import Verif.Model.Hod
import Verif.Model.Background
import Mathlib.Data.Finset.Sort
import Mathlib.Data.Real.Basic

/-!
# What one call of the CosmoSIS module leaves in the data block
(`/repo/cosmosis_modules/onepower_interface.py:367-579, 1045-1198`)

The data block maps a section and a name to a value.  Contract assumed of CosmoSIS (external):

* `put_int`, `put_double_array_1d`, `put_double_array_nd`, `put` and the values of `put_grid` fail if the name exists;
* the two axes of `put_grid` may exist, but then with the same values (this is the strictest rule under which the code
  can work at all: it writes several grids with common axes);
* assignment `block[section, name] = v` replaces.

Simplification: sections and names are compared as they are (CosmoSIS compares them in lower case).
-/

namespace Verif.Saved

open Verif.Lib Verif.Interface

/-- values in the block: numbers and arrays with one to three axes; the first argument of `vec` is the length -/
inductive Val
  | int (n : ℕ)
  | str (s : String)
  | num (x : ℝ)
  | vec (n : ℕ) (f : ℕ → ℝ)
  | mat (f : ℕ → ℕ → ℝ)
  | cube (f : ℕ → ℕ → ℕ → ℝ)

/-- section and name -/
abbrev Key := String × String

/-- the data block -/
abbrev Block := Key → Option Val

/-- elementary writes -/
inductive Write
  | put (k : Key) (v : Val)
  | axis (k : Key) (v : Val)
  | set (k : Key) (v : Val)

/-- where -/
def Write.key : Write → Key
  | .put k _ => k
  | .axis k _ => k
  | .set k _ => k

/-- what -/
def Write.val : Write → Val
  | .put _ v => v
  | .axis _ v => v
  | .set _ v => v

/-- the block after writing `v` under `k` -/
def Block.write (b : Block) (k : Key) (v : Val) : Block := fun k' => if k' = k then some v else b k'

open Classical in
/-- one write -/
noncomputable def Write.step (b : Block) : Write → Except PyErr Block
  | .put k v => if b k = none then .ok (b.write k v) else .error .blockError
  | .axis k v => if b k = none ∨ b k = some v then .ok (b.write k v) else .error .blockError
  | .set k v => .ok (b.write k v)

/-- a sequence of writes; the first that fails ends the call -/
noncomputable def run : Block → List Write → Except PyErr Block
  | b, [] => .ok b
  | b, w :: l => match w.step b with
    | .ok b' => run b' l
    | .error e => .error e

/-- `block.put_grid(sec, nx, x, ny, y, name, v)` -/
def putGrid (sec nx : String) (x : Val) (ny : String) (y : Val) (name : String) (v : Val) : List Write :=
  [.axis (sec, nx) x, .axis (sec, ny) y, .put (sec, name) v]

/-! ## Matter results -/

/-- the quantities of the halo model `save_matter_results` reads (hmi.py, arrays over redshift, mass, wavenumber) -/
structure Matter where
  nz : ℕ
  zVec : ℕ → ℝ
  nk : ℕ
  kVec : ℕ → ℝ
  nm : ℕ
  mass : ℕ → ℝ
  meanDensity0 : ℕ → ℝ
  meanDensityZ : ℕ → ℝ
  rhoHalo : ℕ → ℝ
  dndlnm : ℕ → ℕ → ℝ
  haloBias : ℕ → ℕ → ℝ
  nu : ℕ → ℕ → ℝ
  neff : ℕ → ℝ
  sigma8z : ℕ → ℝ
  fnu : ℝ
  uDm : ℕ → ℕ → ℕ → ℝ
  uSat : ℕ → ℕ → ℕ → ℝ
  concCen : ℕ → ℕ → ℝ
  concSat : ℕ → ℕ → ℝ
  rsCen : ℕ → ℕ → ℝ
  rsSat : ℕ → ℕ → ℝ
  rvirCen : ℕ → ℕ → ℝ
  rvirSat : ℕ → ℕ → ℝ

/-- `save_matter_results` (onepower_interface.py:367-427); `omegaM` is `block[cosmo_params, 'omega_m']` -/
noncomputable def saveMatter (omegaM : ℝ) (m : Matter) : List Write :=
  let z := Val.vec m.nz m.zVec
  let mass := Val.vec m.nm m.mass
  putGrid "concentration_m" "z" z "m_h" mass "c" (.mat m.concCen) ++
  putGrid "concentration_sat" "z" z "m_h" mass "c" (.mat m.concSat) ++
  putGrid "nfw_scale_radius_m" "z" z "m_h" mass "rs" (.mat m.rsCen) ++
  putGrid "nfw_scale_radius_sat" "z" z "m_h" mass "rs" (.mat m.rsSat) ++
  [.put ("virial_radius", "m_h") mass,
   .put ("virial_radius", "rvir_m") (.vec m.nm (m.rvirCen 0)),
   .put ("virial_radius", "rvir_sat") (.vec m.nm (m.rvirSat 0)),
   .put ("fourier_nfw_profile", "z") z,
   .put ("fourier_nfw_profile", "m_h") mass,
   .put ("fourier_nfw_profile", "k_h") (.vec m.nk m.kVec),
   .put ("fourier_nfw_profile", "ukm") (.cube m.uDm),
   .put ("fourier_nfw_profile", "uksat") (.cube m.uSat),
   .set ("density", "mean_density0") (.vec m.nz m.meanDensity0),
   .set ("density", "rho_crit") (.vec m.nz fun i => m.meanDensity0 i / omegaM),
   .put ("density", "mean_density_z") (.vec m.nz m.meanDensityZ),
   .put ("density", "rho_halo") (.vec m.nz m.rhoHalo),
   .put ("density", "z") z] ++
  putGrid "hmf" "z" z "m_h" mass "dndlnmh" (.mat m.dndlnm) ++
  putGrid "hmf" "z" z "m_h" mass "nu" (.mat m.nu) ++
  [.put ("hmf", "neff") (.vec m.nz m.neff),
   .put ("hmf", "sigma8_z") (.vec m.nz m.sigma8z)] ++
  putGrid "halobias" "z" z "m_h" mass "b_hb" (.mat m.haloBias) ++
  [.set ("cosmological_parameters", "fnu") (.num m.fnu)]

/-! ## Halo occupation -/

/-- the grids of one bin (onepower_interface.py:446-483), `sfx` is the suffix -/
noncomputable def hodGrids (sec sfx : String) (z mass : Val) (h : Hod.Base) (fstar : ℕ → ℕ → ℕ → ℝ) (nb : ℕ) : List Write :=
  putGrid sec ("z" ++ sfx) z ("mass" ++ sfx) mass ("N_sat" ++ sfx) (.mat (h.hodSat nb)) ++
  putGrid sec ("z" ++ sfx) z ("mass" ++ sfx) mass ("N_cen" ++ sfx) (.mat (h.hodCen nb)) ++
  putGrid sec ("z" ++ sfx) z ("mass" ++ sfx) mass ("N_tot" ++ sfx) (.mat (h.hod nb)) ++
  putGrid sec ("z" ++ sfx) z ("mass" ++ sfx) mass ("f_star" ++ sfx) (.mat (fstar nb))

/-- the arrays of one bin (onepower_interface.py:484-501); the average mass is `mass_avg` (pk.py:1689-1699) -/
noncomputable def hodArrays (sec sfx : String) (h : Hod.Base) (nb : ℕ) : List Write :=
  [.put (sec, "number_density_cen" ++ sfx) (.vec h.nzv (h.numberDensityCen nb)),
   .put (sec, "number_density_sat" ++ sfx) (.vec h.nzv (h.numberDensitySat nb)),
   .put (sec, "number_density_tot" ++ sfx) (.vec h.nzv (h.numberDensity nb)),
   .put (sec, "central_fraction" ++ sfx) (.vec h.nzv (h.fC nb)),
   .put (sec, "satellite_fraction" ++ sfx) (.vec h.nzv (h.fS nb)),
   .put (sec, "average_halo_mass" ++ sfx) (.vec h.nzv fun i => h.avgHaloMassCen nb i / h.numberDensity nb i)]

/-- `save_hod_results` (onepower_interface.py:430-502); `n` is the number of bins, which it returns -/
noncomputable def saveHod (sec : String) (n : ℕ) (h : Hod.Base) (fstar : ℕ → ℕ → ℕ → ℝ) : List Write :=
  .put (sec, "nbins") (.int n) ::
  (List.range n).flatMap fun nb =>
    hodGrids sec (binSuffix n nb) (.vec h.nzv h.zVec) (.vec h.nm h.mass) h fstar nb ++ hodArrays sec (binSuffix n nb) h nb

/-! ## Observable function -/

/-- the observable functions per bin: redshifts, observable values and the three functions -/
structure Obs where
  nbins : ℕ
  nz : ℕ
  z : ℕ → ℕ → ℝ
  nobs : ℕ
  /-- `obs_range[nb, 0, :]` -/
  range : ℕ → ℕ → ℝ
  f : ℕ → ℕ → ℕ → ℝ
  fCen : ℕ → ℕ → ℕ → ℝ
  fSat : ℕ → ℕ → ℕ → ℝ

/-- one bin of `save_obs_results` (onepower_interface.py:515-571); `one` tells that all five sizes are 1, the arrays then
have one bin and one redshift and are written without their first two axes -/
noncomputable def saveObsBin (sec : String) (one : Bool) (o : Obs) (nb : ℕ) : List Write :=
  let s := "_" ++ toString (nb + 1)
  if one then
    [.put (sec, "obs_val" ++ s) (.vec o.nobs (o.range 0)), .put (sec, "obs_func" ++ s) (.vec o.nobs (o.f 0 0)),
     .put (sec, "obs_func_c" ++ s) (.vec o.nobs (o.fCen 0 0)), .put (sec, "obs_func_s" ++ s) (.vec o.nobs (o.fSat 0 0))]
  else
    putGrid sec ("z_bin" ++ s) (.vec o.nz (o.z nb)) ("obs_val" ++ s) (.vec o.nobs (o.range nb)) ("obs_func" ++ s) (.mat (o.f nb)) ++
    putGrid sec ("z_bin" ++ s) (.vec o.nz (o.z nb)) ("obs_val" ++ s) (.vec o.nobs (o.range nb)) ("obs_func_c" ++ s) (.mat (o.fCen nb)) ++
    putGrid sec ("z_bin" ++ s) (.vec o.nz (o.z nb)) ("obs_val" ++ s) (.vec o.nobs (o.range nb)) ("obs_func_s" ++ s) (.mat (o.fSat nb))

/-- `save_obs_results` (onepower_interface.py:505-571) -/
noncomputable def saveObsAll (sec : String) (one : Bool) (o : Obs) : List Write :=
  .put (sec, "obs_func_definition") (.str "obs_func * obs * ln(10)") ::
  (List.range o.nbins).flatMap fun nb => saveObsBin sec one o nb

/-! ## Spectra -/

/-- one-halo, two-halo and total spectrum of each bin -/
structure Terms where
  p1 : ℕ → ℕ → ℕ → ℝ
  p2 : ℕ → ℕ → ℕ → ℝ
  tot : ℕ → ℕ → ℕ → ℝ

/-- `save_pk_to_grid` (onepower_interface.py:574-579), also lines 1061-1068 -/
noncomputable def savePk (sec : String) (z k : Val) (t : Terms) (nb : ℕ) : List Write :=
  putGrid sec "z" z "k_h" k "p_k_1h" (.mat (t.p1 nb)) ++ putGrid sec "z" z "k_h" k "p_k_2h" (.mat (t.p2 nb)) ++
  putGrid sec "z" z "k_h" k "p_k" (.mat (t.tot nb))

/-- everything one call writes: matter, the two samples, observable function, spectra and biases -/
structure Call where
  omegaM : ℝ
  matter : Matter
  hodSection : String
  nG : ℕ
  hodG : Hod.Base
  fstarG : ℕ → ℕ → ℕ → ℝ
  /-- `power.obs_func is not None and obs_settings['save_observable']`, then the section, the flag of `save_obs_results` -/
  obs : Option (String × Bool × Obs)
  iaSection : String
  nI : ℕ
  hodI : Hod.Base
  fstarI : ℕ → ℕ → ℕ → ℝ
  /-- output redshifts and wavenumbers -/
  zOut : Val
  kOut : Val
  mm : Terms
  gg : Terms
  gm : Terms
  ii : Terms
  gi : Terms
  mi : Terms
  biasG : ℕ → ℕ → ℕ → ℝ
  biasGm : ℕ → ℕ → ℕ → ℝ

/-- the loop over galaxy bins writing a spectrum and a linear bias (onepower_interface.py:1078-1101, 1109-1124) -/
noncomputable def saveWithBias (c : Call) (base bias name : String) (t : Terms) (b : ℕ → ℕ → ℕ → ℝ) : List Write :=
  (List.range c.nG).flatMap fun nb =>
    savePk (base ++ binSuffix c.nG nb) c.zOut c.kOut t nb ++
    putGrid (bias ++ binSuffix c.nG nb) "z" (.vec c.matter.nz c.matter.zVec) "k_h" (.vec c.matter.nk c.matter.kVec) name
      (.mat (b nb))

/-- the loop over alignment bins (onepower_interface.py:1153-1198) -/
noncomputable def saveIa (c : Call) (base : String) (t : Terms) : List Write :=
  (List.range c.nI).flatMap fun nb => savePk (base ++ binSuffix c.nI nb) c.zOut c.kOut t nb

/-- halo occupation and observable function of the galaxy sample (onepower_interface.py:1047-1053) -/
noncomputable def saveSample (p : Pipeline) (c : Call) : List Write :=
  if p.hod then
    saveHod c.hodSection c.nG c.hodG c.fstarG ++
    (match c.obs with
     | none => []
     | some (sec, one, o) => saveObsAll sec one o)
  else []

/-- spectra of matter and galaxies (onepower_interface.py:1055-1124) -/
noncomputable def saveSpectra (p : Pipeline) (c : Call) : List Write :=
  (if p.pmm && !p.response then savePk "matter_power_nl" c.zOut c.kOut c.mm 0 else []) ++
  (if p.pgg then saveWithBias c "galaxy_power" "galaxy_linear_bias" "bg_linear" c.gg c.biasG else []) ++
  (if p.pgm then saveWithBias c "matter_galaxy_power" "galaxy_matter_linear_bias" "bgm_linear" c.gm c.biasGm else [])

/-- halo occupation and spectra of the alignment sample (onepower_interface.py:1126-1198) -/
noncomputable def saveAlignment (p : Pipeline) (c : Call) : List Write :=
  if p.alignment then
    saveHod c.iaSection c.nI c.hodI c.fstarI ++
    (if p.pII then saveIa c "intrinsic_power" c.ii else []) ++
    (if p.pgI then saveIa c "galaxy_intrinsic_power" c.gi else []) ++
    (if p.pmI then saveIa c "matter_intrinsic_power" c.mi else [])
  else []

/-- the writes of `execute` in their order (onepower_interface.py:1045-1198) -/
noncomputable def saveCall (p : Pipeline) (c : Call) : List Write :=
  saveMatter c.omegaM c.matter ++ saveSample p c ++ saveSpectra p c ++ saveAlignment p c

/-! ## Sizes of haloes and densities -/

/-- mass definitions: a multiple of the mean density, of the critical density, or the fit of HMcode (`SOVirial_Mead`,
hmi.py:40-51: a multiple of the mean density that may differ from redshift to redshift) -/
inductive MassDef
  | soMean (D : ℝ)
  | soCritical (D : ℝ)
  | mead (D : ℕ → ℝ)

/-- `halo_overdensity_mean` (hmf, external: halo density divided by the mean density at the same redshift); `Om` is the
matter density parameter at the redshifts -/
noncomputable def MassDef.overdensityMean (d : MassDef) (Om : ℕ → ℝ) (i : ℕ) : ℝ :=
  match d with
  | .soMean D => D
  | .soCritical D => D / Om i
  | .mead D => D i

/-- `halo_profile.halo_mass_to_radius` (halomod, external, used in hmi.py:1451-1463): comoving radius of a halo of mass
`m` with mean density `D` times the mean matter density `rho0` of today -/
noncomputable def haloRadius (D rho0 m : ℝ) : ℝ := (3 * m / (4 * Real.pi * D * rho0)) ^ ((1 : ℝ) / 3)

/-- the radii, densities of haloes and mean densities come from one universe and one mass definition
(hmi.py:1315-1351, 1451-1463) -/
structure Sizes (d : MassDef) (Om : ℕ → ℝ) (rho0 : ℝ) (m : Matter) : Prop where
  mean : ∀ i, m.meanDensity0 i = rho0
  halo : ∀ i, m.rhoHalo i = d.overdensityMean Om i * rho0
  radius : ∀ i j, m.rvirCen i j = haloRadius (d.overdensityMean Om i) rho0 (m.mass j)

open Classical in
/-- `np.unique(block['density', 'mean_density0'])` (pk_to_real.py:215): the distinct values in increasing order -/
noncomputable def unique : Val → List ℝ
  | .vec n f => ((Finset.range n).image f).sort (· ≤ ·)
  | .num x => [x]
  | _ => []

end Verif.Saved

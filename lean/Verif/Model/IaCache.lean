import Verif.Lib.HmfCache

/-!
# The cached quantities of the alignment classes (`/repo/src/onepower/ia.py`)

`AlignmentAmplitudes` and `SatelliteAlignment` use the parameter / cached-quantity machinery of `hmf` (`Lib/HmfCache`), but three
of the values their code reads are *not* declared as parameters: `beta_two` (ia.py:81) and `theta_k`, `phi_k` (ia.py:512-513) are
plain Python attributes.  Assigning one of them only stores the value.  All 16 cached quantities are given with what they read, in
which order, and on what they branch; what is *computed* from the values read is an arbitrary function (`Sem.out`), so everything
proved holds whatever the formulas are.

Reads made inside plain methods (`_initialize_luminosity_array`, `compute_luminosity_pdf`, `_downsample`, `calculate_f_ell`,
`gamma_r_nfw_profile`) belong to the quantity that calls them.  A value read several times is listed at its first occurrence.
Simplifications: the grids of redshifts, masses and multipoles are not empty; code that raises is left out (a missing pivot or file,
`beta_two` with `halo_mass`: C52; too few masses: C102).
-/

namespace Verif.IaCache

open Verif.Cache

/-- values read by the code that are not parameters -/
inductive Attr
  /-- `beta_two` (ia.py:81) -/
  | betaTwo
  /-- `theta_k` (ia.py:512) -/
  | thetaK
  /-- `phi_k` (ia.py:513) -/
  | phiK
  deriving DecidableEq

/-- the conditions on parameters the code branches on -/
inductive Test
  /-- `central_ia_depends_on == 'constant'` -/
  | cenConstant
  /-- `central_ia_depends_on == 'luminosity'` -/
  | cenLuminosity
  /-- `satellite_ia_depends_on == 'constant'` -/
  | satConstant
  /-- `satellite_ia_depends_on == 'luminosity'` -/
  | satLuminosity
  /-- `method == 'hankel'` -/
  | hankel
  /-- `method == 'fftlog'` -/
  | fftlog
  deriving DecidableEq

/-- the parameter a condition looks at -/
def Test.param : Test → String
  | cenConstant | cenLuminosity => "central_ia_depends_on"
  | satConstant | satLuminosity => "satellite_ia_depends_on"
  | hankel | fftlog => "method"

/-- something the code of quantity `n` reads -/
inductive Src (n : ℕ)
  | p (s : String)
  | q (i : ℕ) (h : i < n := by decide)
  | a (x : Attr)

/-- the reading behaviour of the code of quantity `n` -/
inductive Body (n : ℕ)
  /-- return a value computed from everything read -/
  | ret
  | read (s : Src n) (k : Body n)
  | ite (t : Test) (a b : Body n)
  /-- `if self.beta_two is not None` -/
  | betaTwo (a b : Body n)

/-- read one after the other -/
def reads {n : ℕ} : List (Src n) → Body n → Body n
  | [], k => k
  | s :: l, k => .read s (reads l k)

/-- what the values are: `out q vs` is computed by quantity `q` from the values `vs` it read, `holds` decides the
conditions, `isNone` recognises `None` -/
structure Sem (V : Type) where
  out : ℕ → List V → V
  holds : Test → V → Bool
  isNone : V → Bool

/-- the code as a program of the cache machinery; `at_` are the present attributes, `acc` the values read so far -/
def compile {V : Type} (S : Sem V) (at_ : Attr → V) {n : ℕ} : Body n → List V → Prog String V n
  | .ret, acc => .ret (S.out n acc)
  | .read (.p s) k, acc => .param s fun v => compile S at_ k (acc ++ [v])
  | .read (.q i h) k, acc => .quant ⟨i, h⟩ fun v => compile S at_ k (acc ++ [v])
  | .read (.a x) k, acc => compile S at_ k (acc ++ [at_ x])
  | .ite t a b, acc => .param t.param fun v =>
      if S.holds t v = true then compile S at_ a (acc ++ [v]) else compile S at_ b (acc ++ [v])
  | .betaTwo a b, acc => if S.isNone (at_ .betaTwo) = true then compile S at_ b acc else compile S at_ a acc

/-! ## Numbers of the quantities -/

abbrev lumCentrals : ℕ := 0
abbrev lumPdfCentrals : ℕ := 1
abbrev lumSatellites : ℕ := 2
abbrev lumPdfSatellites : ℕ := 3
abbrev alignmentGi : ℕ := 4
abbrev gamma1hAmp : ℕ := 5
abbrev ellValues : ℕ := 6
abbrev kVec : ℕ := 7
abbrev mass : ℕ := 8
abbrev conc : ℕ := 9
abbrev rs : ℕ := 10
abbrev rvir : ℕ := 11
abbrev hankelT : ℕ := 12
abbrev uell : ℕ := 13
abbrev wkmFEll : ℕ := 14
abbrev wkm : ℕ := 15

section

open Src

/-- `_downsample` (ia.py:641-679) -/
def downsample {n : ℕ} : Body n :=
  .ite .hankel (reads [p "mass_in", p "nmass"] .ret) .ret

/-- the reading behaviour of every quantity; the comment gives name and place -/
def body : (n : ℕ) → Body n
  | 0 => reads [p "z_loglum_file_centrals", p "z_vec"] .ret -- lum_centrals ia.py:233-238, 261-289, 344-378
  | 1 => reads [p "z_loglum_file_centrals", p "z_vec"] .ret -- lum_pdf_z_centrals ia.py:240-245
  | 2 => reads [p "z_loglum_file_satellites", p "z_vec"] .ret -- lum_satellites ia.py:247-252
  | 3 => reads [p "z_loglum_file_satellites", p "z_vec"] .ret -- lum_pdf_z_satellites ia.py:254-259
  | 4 => .ite .cenConstant (reads [p "gamma_2h_amplitude", p "z_vec"] .ret)
      (.ite .cenLuminosity
        (.read (p "lpivot_cen") (.betaTwo
          (reads [p "z_vec", q lumCentrals, q lumPdfCentrals, p "gamma_2h_amplitude", p "lpivot_cen", p "beta_cen",
            a .betaTwo] .ret)
          (reads [p "gamma_2h_amplitude", q lumCentrals, q lumPdfCentrals, p "lpivot_cen", p "beta_cen"] .ret)))
        (reads [p "mpivot_cen", a .betaTwo, p "gamma_2h_amplitude", p "z_vec"] .ret)) -- alignment_gi ia.py:380-423
  | 5 => .ite .satConstant (reads [p "gamma_1h_amplitude", p "z_vec"] .ret)
      (.ite .satLuminosity
        (reads [p "lpivot_sat", q lumSatellites, q lumPdfSatellites, p "beta_sat", p "gamma_1h_amplitude"] .ret)
        (reads [p "mpivot_sat", p "gamma_1h_amplitude", p "z_vec"] .ret)) -- gamma_1h_amp ia.py:425-450
  | 6 => .read (p "ell_max") .ret -- ell_values ia.py:614-626
  | 7 => .ite .fftlog .ret (.read (p "nk") .ret) -- k_vec ia.py:628-639
  | 8 => .read (p "mass_in") downsample -- mass ia.py:681-691
  | 9 => .read (p "c_in") downsample -- c ia.py:693-703
  | 10 => .read (p "r_s_in") downsample -- r_s ia.py:705-715
  | 11 => .read (p "rvir_in") downsample -- rvir ia.py:717-727
  | 12 => .ite .hankel (reads [q ellValues, p "n_hankel"] .ret) .ret -- hankel ia.py:729-752
  | 13 => reads [q rs, q conc, q ellValues, p "z_vec", q mass, q kVec]
      (.ite .hankel
        (reads [q hankelT, q kVec, q rs, q rvir, q gamma1hAmp, p "gamma_1h_slope", p "truncate"] .ret)
        (.ite .fftlog (reads [q rs, q rvir, q gamma1hAmp, p "gamma_1h_slope", p "truncate", q kVec] .ret)
          .ret)) -- compute_uell_gamma_r_hankel ia.py:932-1017
  | 14 => reads [q uell, q ellValues, p "gamma_1h_slope", a .phiK, a .thetaK] .ret -- wkm_f_ell ia.py:873-897, 776-871
  | 15 => reads [q wkmFEll, p "z_vec", q mass, q kVec] .ret -- wkm ia.py:1019-1029
  | _ => .ret

end

/-- the class with present attributes `at_`: no parameter is a switch (ia.py:94-231, 515-612), every quantity is a
`cached_quantity` -/
def cls {V : Type} (S : Sem V) (at_ : Attr → V) : Cls String V where
  isSwitch _ := false
  kind _ := .tracked
  code n := compile S at_ (body n) []

/-- an object: its attributes and what the machinery manages -/
structure World (V : Type) where
  attrs : Attr → V
  obj : Obj String V

/-- one step of using an object -/
inductive Act (V : Type)
  | read (q : ℕ)
  /-- set a declared parameter -/
  | set (p : String) (v : V)
  /-- assign a plain attribute -/
  | assign (x : Attr) (v : V)

/-- the object after a step -/
noncomputable def step {V : Type} (S : Sem V) (w : World V) : Act V → World V
  | .read q => ⟨w.attrs, (readQ (cls S w.attrs) q w.obj).2.2⟩
  | .set p v => ⟨w.attrs, setP (cls S w.attrs) p v w.obj⟩
  | .assign x v => ⟨Function.update w.attrs x v, w.obj⟩

/-- the object after a history -/
noncomputable def run {V : Type} (S : Sem V) (w : World V) (h : List (Act V)) : World V := h.foldl (step S) w

/-- the value a user reads -/
def value {V : Type} (S : Sem V) (q : ℕ) (w : World V) : V := Cache.value (cls S w.attrs) q w.obj

/-- a newly built object (ia.py:57-92, 470-513): `SatelliteAlignment` is given `beta_two` and sets `theta_k`, `phi_k` itself -/
def new {V : Type} [Inhabited V] (at_ : Attr → V) (σ : String → V) : World V := ⟨at_, newObj σ⟩

/-! ## What a user expects: results belong to the present values -/

/-- the parameters after a history -/
def params {V : Type} (σ : String → V) : List (Act V) → String → V
  | [] => σ
  | .set p v :: h => params (Function.update σ p v) h
  | _ :: h => params σ h

/-- the attributes after a history -/
def attrs {V : Type} (at_ : Attr → V) : List (Act V) → Attr → V
  | [] => at_
  | .assign x v :: h => attrs (Function.update at_ x v) h
  | _ :: h => attrs at_ h

end Verif.IaCache

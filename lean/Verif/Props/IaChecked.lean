import Verif.Model.IaChecked
import Verif.Lemmas.Checked
import Verif.Props.IaMultipoles
import Verif.Props.IaLuminosity
import Mathlib.Analysis.SpecialFunctions.Log.Basic
import Mathlib.Tactic.FieldSimp

/-! Property C110: when the alignment amplitudes and the satellite alignment profile are numbers. -/

namespace Verif.IaChecked

open Verif.Lib Verif.Lib.Ck Verif.Ia

/-- two computations raise the same exceptions, and the first is the second whenever it is a number -/
def Agrees : Except PyErr Ck → Except PyErr ℝ → Prop
  | .error e, .error e' => e = e'
  | .ok x, .ok a => x.Refines a
  | _, _ => False

/-! ## Elementary steps -/

theorem ok_gamma {x : Ck} : (gamma x).Ok ↔ x.Ok ∧ ¬ GammaPole x.val := by
  cases x with
  | bad => simp [gamma]
  | num a => by_cases h : GammaPole a <;> simp [gamma, h]

theorem refines_gamma {x : Ck} {a : ℝ} (hx : x.Refines a) : (gamma x).Refines (Real.Gamma a) := by
  intro h
  obtain ⟨h1, h2⟩ := ok_gamma.mp h
  rw [← hx h1]
  cases x with
  | bad => exact h1.elim
  | num u =>
    have h2' : ¬ GammaPole u := h2
    simp [gamma, h2']

theorem ok_log {x : Ck} : (log x).Ok ↔ x.Ok ∧ 0 < x.val := by
  cases x with
  | bad => simp [log]
  | num a => by_cases h : a ≤ 0 <;> simp [log, h]; exact not_le.mp h

theorem refines_log {x : Ck} {a : ℝ} (hx : x.Refines a) : (log x).Refines (Real.log a) := by
  intro h
  obtain ⟨h1, h2⟩ := ok_log.mp h
  rw [← hx h1]
  cases x with
  | bad => exact h1.elim
  | num u =>
    have h2' : ¬ u ≤ 0 := not_le.mpr h2
    simp [log, h2']

@[simp] theorem ok_abs {x : Ck} : (abs x).Ok ↔ x.Ok := by cases x <;> simp [abs]

theorem refines_abs {x : Ck} {a : ℝ} (hx : x.Refines a) : (abs x).Refines |a| := by
  intro h
  rw [← hx (ok_abs.mp h)]
  cases x with
  | bad => exact h.elim
  | num u => rfl

@[simp] theorem ok_clipTop {x : Ck} {t : ℝ} : (clipTop x t).Ok ↔ x.Ok := by cases x <;> simp [clipTop]

theorem refines_clipTop {x : Ck} {a t : ℝ} (hx : x.Refines a) : (clipTop x t).Refines (min a t) := by
  intro h
  rw [← hx (ok_clipTop.mp h)]
  cases x with
  | bad => exact h.elim
  | num u => rfl

/-! ## Agreement with the model over the reals -/

theorem r_iX (a : ℝ) (b : ℕ) : (iX a b).Refines (Ia.iX a b) := by
  unfold iX Ia.iX
  exact (((Refines.num _).mul (refines_gamma (Refines.num _))).mul (refines_gamma (Refines.num _))).div
    ((Refines.num _).mul (refines_gamma (Refines.num _)))

theorem agrees_sumE (n : ℕ) (f : ℕ → Except PyErr Ck) (g : ℕ → Except PyErr ℝ) (h : ∀ i, Agrees (f i) (g i)) :
    Agrees (sumE n f) (Ia.sumE n g) := by
  induction n with
  | zero => exact Refines.num 0
  | succ n ih =>
    have hn := h n
    rw [sumE, Ia.sumE]
    revert ih hn
    generalize sumE n f = x
    generalize Ia.sumE n g = y
    generalize f n = u
    generalize g n = v
    rcases x with e | x <;> rcases y with e' | y <;> intro ih hn
    · exact ih
    · exact ih.elim
    · exact ih.elim
    · rcases u with e | u <;> rcases v with e' | v
      · exact hn
      · exact hn.elim
      · exact hn.elim
      · exact Refines.add ih hn

theorem agrees_inner (m : ℕ) (g : ℝ) (j : ℕ) : Agrees (fEllInner m g j) (Ia.fEllInner m g j) := by
  unfold fEllInner Ia.fEllInner
  cases tableAt gj j with
  | error e => exact rfl
  | ok c => exact (Refines.num _).mul (r_iX _ _)

theorem agrees_outer (ell : ℕ) (g : ℝ) (m : ℕ) : Agrees (fEllOuter ell g m) (Ia.fEllOuter ell g m) := by
  have h := agrees_sumE (m + 1) _ _ (agrees_inner m g)
  unfold fEllOuter Ia.fEllOuter
  revert h
  generalize sumE (m + 1) (fEllInner m g) = x
  generalize Ia.sumE (m + 1) (Ia.fEllInner m g) = y
  rcases x with e | x <;> rcases y with e' | y <;> intro h
  · exact h
  · exact h.elim
  · exact h.elim
  · exact (Refines.num _).mul h

theorem agrees_fEll (ell : ℕ) (g : ℝ) : Agrees (calculateFEll ell g) (Ia.calculateFEll ell g) := by
  unfold calculateFEll Ia.calculateFEll
  split_ifs
  · cases tableAt table0 ell with
    | error e => exact rfl
    | ok v => exact Refines.num v
  · cases tableAt tableM2 ell with
    | error e => exact rfl
    | ok v => exact Refines.num v
  · have h := agrees_sumE (ell + 1) _ _ (agrees_outer ell g)
    unfold fEllGeneral
    revert h
    generalize sumE (ell + 1) (fEllOuter ell g) = x
    generalize Ia.sumE (ell + 1) (Ia.fEllOuter ell g) = y
    rcases x with e | x <;> rcases y with e' | y <;> intro h
    · exact h
    · exact h.elim
    · exact h.elim
    · exact (Refines.num _).mul h

theorem agrees_term (n : ℕ) {u : ℕ → Ck} {v : ℕ → ℝ} (hu : ∀ i, (u i).Refines (v i)) (g : ℝ) (ell : ℕ) :
    Agrees (wkmTerm n u g ell) (Ia.wkmTerm n v g ell) := by
  have h := agrees_fEll ell g
  unfold wkmTerm Ia.wkmTerm
  revert h
  generalize calculateFEll ell g = x
  generalize Ia.calculateFEll ell g = y
  rcases x with e | x <;> rcases y with e' | y <;> intro h
  · exact h
  · exact h.elim
  · exact h.elim
  · dsimp only
    split_ifs
    · exact ((Refines.num _).mul (hu _)).mul h
    · exact rfl

theorem agrees_sum (n : ℕ) {u : ℕ → Ck} {v : ℕ → ℝ} (hu : ∀ i, (u i).Refines (v i)) (g : ℝ) (l : List ℕ) :
    Agrees (wkmSum n u g l) (Ia.wkmSum n v g l) := by
  induction l with
  | nil => exact Refines.num 0
  | cons ell l ih =>
    have h := agrees_term n hu g ell
    rw [wkmSum, Ia.wkmSum]
    revert h ih
    generalize wkmTerm n u g ell = x
    generalize Ia.wkmTerm n v g ell = y
    generalize wkmSum n u g l = x'
    generalize Ia.wkmSum n v g l = y'
    rcases x with e | x <;> rcases y with e' | y <;> intro ih h
    · rcases x' with _ | _ <;> rcases y' with _ | _ <;> exact h
    · exact h.elim
    · exact h.elim
    · rcases x' with _ | _ <;> rcases y' with _ | _
      · exact ih
      · exact ih.elim
      · exact ih.elim
      · exact Refines.add h ih

/-- C110: whenever the satellite alignment profile over checked numbers is a number, it is the profile of the model over the
reals that the other properties are about; the same exceptions are raised. -/
theorem C110_profile_agrees (L : ℤ) {u : ℕ → Ck} {v : ℕ → ℝ} (hu : ∀ i, (u i).Refines (v i)) (g : ℝ) :
    Agrees (wkmFEll L u g) (Ia.wkmFEll L v g) ∧ ∀ ell, Agrees (calculateFEll ell g) (Ia.calculateFEll ell g) := by
  refine ⟨?_, fun ell => agrees_fEll ell g⟩
  have h := agrees_sum (ellValues L).length hu g (ellValues L)
  unfold wkmFEll Ia.wkmFEll
  revert h
  generalize wkmSum (ellValues L).length u g (ellValues L) = x
  generalize Ia.wkmSum (ellValues L).length v g (ellValues L) = y
  rcases x with e | x <;> rcases y with e' | y <;> intro h
  · exact h
  · exact h.elim
  · exact h.elim
  · exact refines_abs h

/-! ## Angular factors -/

theorem gamma_ne {x : ℝ} (h : ¬ GammaPole x) : Real.Gamma x ≠ 0 :=
  Real.Gamma_ne_zero fun n hn => h ⟨n, hn⟩

theorem ok_iX (a : ℝ) (b : ℕ) : (iX a b).Ok ↔ ¬ GammaPole (a / 2 + 1) ∧ ¬ GammaPole (a / 2 + b / 2 + 3 / 2) := by
  have hb : ¬ GammaPole (((b : ℝ) + 1) / 2) := by
    rintro ⟨n, hn⟩
    have h1 : (0 : ℝ) < ((b : ℝ) + 1) / 2 := by positivity
    have h2 : (0 : ℝ) ≤ n := by positivity
    linarith
  unfold iX
  rw [ok_div]
  simp only [ok_mul, ok_num, ok_gamma, val_num, true_and, hb, not_false_eq_true, and_true]
  constructor
  · rintro ⟨h1, h2, -⟩
    exact ⟨h1, h2⟩
  · rintro ⟨h1, h2⟩
    refine ⟨h1, h2, ?_⟩
    have h := ((Refines.num 2).mul (refines_gamma (Refines.num (a / 2 + b / 2 + 3 / 2))))
      (ok_mul.mpr ⟨trivial, ok_gamma.mpr ⟨trivial, h2⟩⟩)
    rw [h]
    exact mul_ne_zero two_ne_zero (gamma_ne h2)

theorem sumE_ok (n : ℕ) (f : ℕ → Except PyErr Ck) (g : ℕ → Ck) (h : ∀ i < n, f i = .ok (g i)) :
    sumE n f = .ok (sumCk n g) := by
  induction n with
  | zero => rfl
  | succ n ih => rw [sumE, ih fun i hi => h i (by omega), h n (by omega)]; rfl

/-- the slopes for which the general expression breaks down: -3, -4, -5, ... -/
def BadSlope (g : ℝ) : Prop := ∃ n : ℕ, g = -3 - n

theorem ok_general (ell : ℕ) (hl : ell < 12) (g : ℝ) (h2 : g ≠ -2) :
    ∃ x, sumE (ell + 1) (fEllOuter ell g) = .ok x ∧ (¬ BadSlope g → x.Ok) ∧ (BadSlope g → 1 ≤ ell → ¬ x.Ok) := by
  have hin : ∀ m < 12, ∃ y, sumE (m + 1) (fEllInner m g) = .ok y ∧ (y.Ok ↔ ∀ j < m + 1, (iX (j + g) (m - j)).Ok) := by
    intro m hm
    refine ⟨_, sumE_ok (m + 1) _ (fun j => ((binom m j * gj.getD j 0 * Real.sin thetaK ^ j * Real.cos thetaK ^ (m - j) : ℝ) : Ck)
      * iX (j + g) (m - j)) ?_, ?_⟩
    · intro j hj
      rw [fEllInner, tableAt_ok gj j (by simp only [gj, List.length_cons, List.length_nil]; omega)]
    · rw [ok_sum]
      exact forall₂_congr fun j _ => by simp
  have : Inhabited Ck := ⟨.bad⟩
  choose! y hy hyok using hin
  refine ⟨_, sumE_ok (ell + 1) _ (fun m => ((binom ell m * binom (0.5 * (ell + m - 1)) ell : ℝ) : Ck) * y m) ?_, ?_, ?_⟩
  · intro m hm
    rw [fEllOuter, hy m (by omega)]
  · intro hg
    rw [ok_sum]
    intro m hm
    rw [ok_mul]
    refine ⟨trivial, (hyok m (by omega)).mpr fun j hj => (ok_iX _ _).mpr ⟨?_, ?_⟩⟩
    · rintro ⟨n, hn⟩
      have e : g = -2 - (2 * n + j : ℕ) := by push_cast; linarith
      rcases Nat.eq_zero_or_pos (2 * n + j) with h0 | h0
      · rw [h0] at e
        exact h2 (by push_cast at e; linarith)
      · obtain ⟨p, hp⟩ : ∃ p, 2 * n + j = p + 1 := ⟨2 * n + j - 1, by omega⟩
        rw [hp] at e
        exact hg ⟨p, by push_cast at e; linarith⟩
    · rintro ⟨n, hn⟩
      rw [Nat.cast_sub (by omega)] at hn
      exact hg ⟨2 * n + m, by push_cast; linarith⟩
  · rintro ⟨n, hn⟩ h1 hok
    rw [ok_sum] at hok
    have := hok 1 (by omega)
    rw [ok_mul] at this
    have h3 := (hyok 1 (by omega)).mp this.2
    rcases Nat.even_or_odd' n with ⟨p, rfl | rfl⟩
    · refine ((ok_iX _ _).mp (h3 1 (by omega))).1 ⟨p, ?_⟩
      rw [hn]; push_cast; ring
    · refine ((ok_iX _ _).mp (h3 0 (by omega))).1 ⟨p + 1, ?_⟩
      rw [hn]; push_cast; ring

theorem ok_fEll (ell : ℕ) (hl : ell < 12) (g : ℝ) :
    ∃ x, calculateFEll ell g = .ok x ∧ (¬ BadSlope g → x.Ok) ∧ (BadSlope g → 1 ≤ ell → ¬ x.Ok) := by
  have hb : ∀ {y : ℝ}, -3 < y → ¬ BadSlope y := by
    rintro y hy ⟨n, hn⟩
    have : (0 : ℝ) ≤ n := by positivity
    linarith
  unfold calculateFEll
  split_ifs with h0 h2
  · rw [tableAt_ok table0 ell (by simp only [table0, List.length_cons, List.length_nil]; omega)]
    exact ⟨_, rfl, fun _ => trivial, fun h => (hb (by rw [h0]; norm_num) h).elim⟩
  · rw [tableAt_ok tableM2 ell (by simp only [tableM2, List.length_cons, List.length_nil]; omega)]
    exact ⟨_, rfl, fun _ => trivial, fun h => (hb (by rw [h2]; norm_num) h).elim⟩
  · obtain ⟨x, hx, h1, h3⟩ := ok_general ell hl g h2
    rw [hx]
    refine ⟨_, rfl, fun h => ok_mul.mpr ⟨trivial, h1 h⟩, fun h he hok => h3 h he (ok_mul.mp hok).2⟩

/-- C110: the angular factor of a multipole between 1 and 11 is a number exactly if the slope of the radial alignment is not
one of the integers -3, -4, -5, ...  (Slopes 0 and -2 are tabulated.) -/
theorem C110_angular (ell : ℕ) (h1 : 1 ≤ ell) (h11 : ell ≤ 11) (g : ℝ) :
    ∃ x, calculateFEll ell g = .ok x ∧ (x.Ok ↔ ¬ ∃ n : ℕ, g = -3 - n) := by
  obtain ⟨x, hx, ha, hb⟩ := ok_fEll ell (by omega) g
  exact ⟨x, hx, fun h hg => hb hg h1 h, ha⟩

/-- the slope -2.5 is fine, the slope -3 is not -/
example : (∃ x, calculateFEll 2 (-2.5) = .ok x ∧ x.Ok) ∧ ∃ x, calculateFEll 2 (-3) = .ok x ∧ ¬ x.Ok := by
  constructor
  · obtain ⟨x, hx, h⟩ := C110_angular 2 (by norm_num) (by norm_num) (-2.5)
    refine ⟨x, hx, h.mpr ?_⟩
    rintro ⟨n, hn⟩
    have : (0 : ℝ) ≤ n := by positivity
    linarith
  · obtain ⟨x, hx, h⟩ := C110_angular 2 (by norm_num) (by norm_num) (-3)
    exact ⟨x, hx, fun hok => h.mp hok ⟨0, by norm_num⟩⟩

theorem ok_sumList (n : ℕ) (u : ℕ → Ck) (g : ℝ) (l : List ℕ) (hl : ∀ ell ∈ l, ell < 12 ∧ ell / 2 < n) :
    ∃ x, wkmSum n u g l = .ok x ∧
      (x.Ok ↔ ∀ ell ∈ l, (u (ell / 2)).Ok ∧ ∃ f, calculateFEll ell g = .ok f ∧ f.Ok) := by
  induction l with
  | nil => exact ⟨_, rfl, by simp⟩
  | cons ell l ih =>
    obtain ⟨s, hs, hok⟩ := ih fun e he => hl e (by simp [he])
    obtain ⟨h12, hn⟩ := hl ell (by simp)
    obtain ⟨f, hf, -, -⟩ := ok_fEll ell h12 g
    refine ⟨(((((-1) ^ (ell / 2) * (2 * ell + 1) : ℝ) : Ck) * u (ell / 2) * f) + s), ?_, ?_⟩
    · rw [wkmSum, wkmTerm, hf, hs]
      simp only [hn, if_true]
    · simp only [ok_add, ok_mul, ok_num, true_and, hok, List.forall_mem_cons, hf, Except.ok.injEq, exists_eq_left']

/-- C110: for every accepted `ell_max` from 2 on, the satellite alignment profile is a number exactly if the radial
multipoles it uses are and the slope is not one of -3, -4, -5, ... -/
theorem C110_profile (L : ℤ) (h2 : 2 ≤ L) (h11 : L ≤ 11) (u : ℕ → Ck) (g : ℝ) :
    ∃ x, wkmFEll L u g = .ok x ∧ (x.Ok ↔ (∀ i : ℕ, 2 * (i : ℤ) ≤ L → (u i).Ok) ∧ ¬ ∃ n : ℕ, g = -3 - n) := by
  have hl : ∀ ell ∈ ellValues L, ell < 12 ∧ ell / 2 < (ellValues L).length := by
    intro ell hm
    obtain ⟨-, hle⟩ := (mem_ellValues L ell).1 hm
    refine ⟨by omega, ?_⟩
    simp only [ellValues, List.length_map, List.length_range]
    omega
  obtain ⟨x, hx, hok⟩ := ok_sumList (ellValues L).length u g (ellValues L) hl
  refine ⟨abs x, by rw [wkmFEll, hx], ?_⟩
  rw [ok_abs, hok]
  constructor
  · intro h
    refine ⟨fun i hi => ?_, fun hg => ?_⟩
    · have := (h (2 * i) ((mem_ellValues L _).2 ⟨⟨i, by ring⟩, by push_cast; omega⟩)).1
      rwa [Nat.mul_div_cancel_left i two_pos] at this
    · obtain ⟨f, hf, hfok⟩ := (h 2 ((mem_ellValues L 2).2 ⟨even_two, by exact_mod_cast h2⟩)).2
      obtain ⟨f', hf', -, hbad⟩ := ok_fEll 2 (by norm_num) g
      rw [hf] at hf'
      cases hf'
      exact hbad hg (by norm_num) hfok
  · rintro ⟨hu, hg⟩ ell hm
    obtain ⟨he, hle⟩ := (mem_ellValues L ell).1 hm
    obtain ⟨f, hf, hgood, -⟩ := ok_fEll ell (hl ell hm).1 g
    exact ⟨hu (ell / 2) (by omega), f, hf, hgood hg⟩

/-- the default settings, `ell_max = 6` and slope -2, are fine -/
example (u : ℕ → ℝ) : ∃ x, wkmFEll 6 (fun i => (u i : Ck)) (-2) = .ok x ∧ x.Ok := by
  obtain ⟨x, hx, h⟩ := C110_profile 6 (by norm_num) (by norm_num) (fun i => (u i : Ck)) (-2)
  refine ⟨x, hx, h.mpr ⟨fun _ _ => trivial, ?_⟩⟩
  rintro ⟨n, hn⟩
  have : (0 : ℝ) ≤ n := by positivity
  linarith

/-! ## Radial profile -/

theorem r_profile (r rs rvir a b rcore : ℝ) (t : Bool) :
    (gammaRNfwProfile r rs rvir a b rcore t).Refines (Ia.gammaRNfwProfile r rs rvir a b rcore t) := by
  unfold gammaRNfwProfile Ia.gammaRNfwProfile
  refine Refines.mul (refines_clipTop ?_) ?_
  · split_ifs
    · exact (Refines.num _).mul (((Refines.num _).div (Refines.num _)).rpow (Refines.num _))
    · exact (Refines.num _).mul (((Refines.num _).div (Refines.num _)).rpow (Refines.num _))
  · split_ifs
    · exact Refines.num 0
    · exact (Refines.num _).div (((Refines.num _).div (Refines.num _)).mul
        (((Refines.num _).add ((Refines.num _).div (Refines.num _))).pow 2))

theorem num_div_eq {a b : ℝ} (h : b ≠ 0) : (a : Ck) / (b : Ck) = ((a / b : ℝ) : Ck) :=
  eq_num_iff.mpr ⟨ok_div.mpr ⟨trivial, trivial, h⟩,
    ((Refines.num a).div (Refines.num b)) (ok_div.mpr ⟨trivial, trivial, h⟩)⟩

/-- C110: the radial profile is a number, and the one of the model over the reals, at every positive radius, for positive scale
radius, virial radius and core radius, every amplitude and every slope. -/
theorem C110_radial (r rs rvir a b rcore : ℝ) (t : Bool) (hr : 0 < r) (hs : 0 < rs) (hv : 0 < rvir) (hc : 0 < rcore) :
    gammaRNfwProfile r rs rvir a b rcore t = ((Ia.gammaRNfwProfile r rs rvir a b rcore t : ℝ) : Ck) := by
  refine eq_num_iff.mpr ⟨?_, r_profile r rs rvir a b rcore t ?_⟩ <;>
  · unfold gammaRNfwProfile
    have hp : ∀ x : ℝ, 0 < x → ((a : Ck) * ((x : Ck) / (rvir : Ck)).rpow (b : Ck)).Ok := by
      intro x hx
      rw [num_div_eq hv.ne', ok_mul, ok_rpow]
      exact ⟨trivial, trivial, trivial, PowOk.pos (div_pos hx hv)⟩
    rw [ok_mul, ok_clipTop]
    refine ⟨?_, ?_⟩
    · split_ifs
      · exact hp _ hc
      · exact hp _ hr
    · split_ifs
      · trivial
      · rw [num_div_eq hs.ne', ok_div]
        have h1 : (((r / rs : ℝ) : Ck) * (((1 : ℝ) : Ck) + ((r / rs : ℝ) : Ck)) ^ 2).Ok := by simp
        refine ⟨trivial, h1, ?_⟩
        have h2 := ((Refines.num (r / rs)).mul (((Refines.num 1).add (Refines.num (r / rs))).pow 2)) h1
        rw [h2]
        have : 0 < r / rs := div_pos hr hs
        positivity

theorem nfw_mass_pos {c : ℝ} (h : -1 < c) (h0 : c ≠ 0) : 0 < Real.log (1 + c) - c / (1 + c) := by
  have hp : 0 < 1 + c := by linarith
  have h1 := Real.log_lt_sub_one_of_pos (inv_pos.mpr hp) (by
    rw [ne_eq, inv_eq_one]
    intro h; exact h0 (by linarith))
  rw [Real.log_inv] at h1
  have h2 : c / (1 + c) = 1 - (1 + c)⁻¹ := by field_simp; ring
  rw [h2]
  linarith

/-- C110: a radial multipole at a positive wavenumber is a number exactly if the concentration exceeds -1 and neither the
concentration nor the scale radius vanishes. -/
theorem C110_multipole (t k rs c : ℝ) (hk : 0 < k) : (uell t k rs c).Ok ↔ -1 < c ∧ c ≠ 0 ∧ rs ≠ 0 := by
  have hpow : ((k : Ck).rpow ((1.5 : ℝ) : Ck)).Ok := ok_rpow.mpr ⟨trivial, trivial, PowOk.pos hk⟩
  have hm : (mnfw rs c).Ok ↔ -1 < c := by
    unfold mnfw
    simp only [ok_mul, ok_num, true_and, ok_sub, ok_log, ok_add, ok_div]
    have e : (((1 : ℝ) : Ck) + (c : Ck)).val = 1 + c := rfl
    rw [e]
    constructor
    · rintro ⟨h, -⟩; linarith
    · intro h
      exact ⟨by linarith, by intro h'; linarith⟩
  have hr : (mnfw rs c).Refines (Ia.mnfw rs c) := by
    unfold mnfw Ia.mnfw
    exact (Refines.num _).mul ((refines_log ((Refines.num 1).add (Refines.num c))).sub
      ((Refines.num c).div ((Refines.num 1).add (Refines.num c))))
  unfold uell
  rw [ok_div, ok_mul, hm]
  constructor
  · rintro ⟨-, ⟨-, h1⟩, h3⟩
    refine ⟨h1, ?_, ?_⟩
    · rintro rfl
      apply h3
      rw [((Refines.num k).rpow (Refines.num 1.5)).mul hr (ok_mul.mpr ⟨hpow, hm.mpr h1⟩)]
      simp [Ia.mnfw]
    · rintro rfl
      apply h3
      rw [((Refines.num k).rpow (Refines.num 1.5)).mul hr (ok_mul.mpr ⟨hpow, hm.mpr h1⟩)]
      simp [Ia.mnfw]
  · rintro ⟨h1, h2, h3⟩
    refine ⟨trivial, ⟨hpow, h1⟩, ?_⟩
    rw [((Refines.num k).rpow (Refines.num 1.5)).mul hr (ok_mul.mpr ⟨hpow, hm.mpr h1⟩)]
    have := (Real.rpow_pos_of_pos hk 1.5).ne'
    have h4 := (nfw_mass_pos h1 h2).ne'
    unfold Ia.mnfw
    have h5 : rs ^ 3 ≠ 0 := pow_ne_zero 3 h3
    have := Real.pi_ne_zero
    positivity

/-- an ordinary halo, concentration 5 and scale radius 0.2 -/
example (t : ℝ) : (uell t 1 0.2 5).Ok := (C110_multipole t 1 0.2 5 one_pos).mpr (by norm_num)

/-! ## Amplitudes -/

variable (a : Amplitudes) (gals : List (ℝ × ℝ))

/-- the luminosities at which the distribution of redshift `i` is tabulated -/
noncomputable abbrev lum (i j : ℕ) : ℝ := (a.lumAndPdf gals 10000 i j).1

/-- the distribution -/
noncomputable abbrev pdf (i j : ℕ) : ℝ := (a.lumAndPdf gals 10000 i j).2

theorem lum_pos (i j : ℕ) (hne : a.loglumBin gals i ≠ [])
    (hb : (∃ l ∈ a.loglumBin gals i, ∃ l' ∈ a.loglumBin gals i, l ≠ l') ∨
      ∀ l ∈ a.loglumBin gals i, (0.5 : ℝ) ≤ (10 : ℝ) ^ l) : 0 < lum a gals i j := by
  obtain ⟨l, ls, hl⟩ := List.exists_cons_of_ne_nil hne
  set x := (10 : ℝ) ^ l with hx
  set xs := ls.map fun l => (10 : ℝ) ^ l with hxs
  have hval : lum a gals i j =
      histEdge x xs 10000 j + 0.5 * ((histEdge x xs 10000 10000 - histEdge x xs 10000 0) / (1 * (10000 : ℕ))) := by
    simp only [lum, Amplitudes.lumAndPdf, hl, List.map_cons]
    rfl
  obtain ⟨hr, hmem⟩ := histRange_spec x xs
  rw [hval, histEdge_zero, histEdge_last x xs 10000 (by norm_num), histEdge]
  have hw : 0 < (histRange x xs).2 - (histRange x xs).1 := by linarith
  have h1 : 0 ≤ ((histRange x xs).2 - (histRange x xs).1) * j / (10000 : ℕ) := by positivity
  have h2 : 0 < 0.5 * (((histRange x xs).2 - (histRange x xs).1) / (1 * (10000 : ℕ))) := by positivity
  suffices h : 0 ≤ (histRange x xs).1 by linarith
  have hpos : ∀ v ∈ x :: xs, 0 < v := by
    intro v hv
    rcases List.mem_cons.1 hv with rfl | hv
    · positivity
    · obtain ⟨l', -, rfl⟩ := List.mem_map.1 hv
      positivity
  have hminmem : ∀ (ys : List ℝ) (y : ℝ), ys.foldl min y ∈ y :: ys := by
    intro ys
    induction ys with
    | nil => intro y; simp
    | cons z zs ih =>
      intro y
      rw [List.foldl_cons]
      rcases List.mem_cons.1 (ih (min y z)) with h | h
      · rw [h]
        rcases min_choice y z with h' | h' <;> rw [h'] <;> simp
      · exact List.mem_cons_of_mem _ (List.mem_cons_of_mem _ h)
  have hlo : listMin x xs ∈ x :: xs := hminmem xs x
  unfold histRange
  simp only
  split_ifs with he
  · simp only
    have hall : ∀ v ∈ x :: xs, v = listMin x xs := by
      intro v hv
      have h1 := foldl_min_le xs x
      have h2 := le_foldl_max xs x
      rcases List.mem_cons.1 hv with rfl | hv
      · exact le_antisymm (he ▸ h2.1) h1.1
      · exact le_antisymm (he ▸ h2.2 v hv) (h1.2 v hv)
    rcases hb with ⟨l1, m1, l2, m2, hlt⟩ | hb
    · exfalso
      have hin : ∀ l' ∈ a.loglumBin gals i, (10 : ℝ) ^ l' ∈ x :: xs := by
        intro l' h'
        rw [hl] at h'
        rcases List.mem_cons.1 h' with rfl | h'
        · simp [hx]
        · exact List.mem_cons_of_mem _ (List.mem_map.2 ⟨l', h', rfl⟩)
      have h3 := (hall _ (hin l1 m1)).trans (hall _ (hin l2 m2)).symm
      rcases lt_or_gt_of_ne hlt with h | h
      · exact (Real.rpow_lt_rpow_of_exponent_lt (by norm_num : (1 : ℝ) < 10) h).ne h3
      · exact (Real.rpow_lt_rpow_of_exponent_lt (by norm_num : (1 : ℝ) < 10) h).ne h3.symm
    · have h3 : (0.5 : ℝ) ≤ x := hb l (by rw [hl]; simp)
      rw [← hall x (by simp)]
      linarith
  · exact (hpos _ hlo).le

theorem lum_empty (i j : ℕ) (he : a.loglumBin gals i = []) : lum a gals i j = 0 := by
  simp [lum, Amplitudes.lumAndPdf, he]

theorem ok_mean (l0 beta : ℝ) (hl0 : 0 < l0) (i : ℕ) :
    (meanLL0ToBeta 10000 (lum a gals i) (pdf a gals i) l0 beta).Ok ↔ ∀ j < 10000, PowOk (lum a gals i j / l0) beta := by
  unfold meanLL0ToBeta
  rw [ok_simpson]
  refine forall₂_congr fun j _ => ?_
  rw [num_div_eq hl0.ne', ok_mul, ok_rpow]
  simp

theorem powOk_zero (b : ℝ) : PowOk 0 b ↔ 0 ≤ b := by
  constructor
  · rintro (h | ⟨-, h⟩ | ⟨h, -⟩)
    · exact absurd h (lt_irrefl 0)
    · exact h
    · exact absurd h (lt_irrefl 0)
  · exact fun h => .inr (.inl ⟨rfl, h⟩)

/-- C110: the luminosity-dependent amplitude of centrals or satellites, for one redshift: if the file has no galaxy there it is
a number exactly if the slope is not negative; if it has, with two different luminosities or none below one half, it is a
number for every slope. -/
theorem C110_mean (l0 beta : ℝ) (hl0 : 0 < l0) (i : ℕ) :
    (a.loglumBin gals i = [] → ((meanLL0ToBeta 10000 (lum a gals i) (pdf a gals i) l0 beta).Ok ↔ 0 ≤ beta)) ∧
    (a.loglumBin gals i ≠ [] → ((∃ l ∈ a.loglumBin gals i, ∃ l' ∈ a.loglumBin gals i, l ≠ l') ∨
        ∀ l ∈ a.loglumBin gals i, (0.5 : ℝ) ≤ (10 : ℝ) ^ l) →
      (meanLL0ToBeta 10000 (lum a gals i) (pdf a gals i) l0 beta).Ok) := by
  constructor
  · intro he
    rw [ok_mean a gals l0 beta hl0 i]
    simp only [lum_empty a gals i _ he, zero_div, powOk_zero]
    exact ⟨fun h => h 0 (by norm_num), fun h _ _ => h⟩
  · intro hne hb
    rw [ok_mean a gals l0 beta hl0 i]
    exact fun j _ => PowOk.pos (div_pos (lum_pos a gals i j hne hb) hl0)

/-- C110: the double power law: the same with the slope for faint galaxies. -/
theorem C110_broken (g l0 beta betaLow : ℝ) (hl0 : 0 < l0) (i : ℕ) :
    (a.loglumBin gals i = [] →
      ((brokenPowerlaw 10000 (lum a gals i) (pdf a gals i) g l0 beta betaLow).Ok ↔ 0 ≤ betaLow)) ∧
    (a.loglumBin gals i ≠ [] → ((∃ l ∈ a.loglumBin gals i, ∃ l' ∈ a.loglumBin gals i, l ≠ l') ∨
        ∀ l ∈ a.loglumBin gals i, (0.5 : ℝ) ≤ (10 : ℝ) ^ l) →
      (brokenPowerlaw 10000 (lum a gals i) (pdf a gals i) g l0 beta betaLow).Ok) := by
  have key : ∀ x b : ℝ, ((g : Ck) * ((x : Ck) / (l0 : Ck)).rpow (b : Ck)).Ok ↔ PowOk (x / l0) b := by
    intro x b
    rw [num_div_eq hl0.ne', ok_mul, ok_rpow]
    simp
  unfold brokenPowerlaw
  simp only [ok_simpson, ok_mul, ok_num, true_and]
  constructor
  · intro he
    simp only [lum_empty a gals i _ he, gt_iff_lt, not_lt.mpr hl0.le, if_false, key, zero_div, powOk_zero]
    exact ⟨fun h => h 0 (by norm_num), fun h _ _ => h⟩
  · intro hne hb j _
    have hp := lum_pos a gals i j hne hb
    split_ifs
    · exact (key _ _).mpr (PowOk.pos (div_pos hp hl0))
    · exact (key _ _).mpr (PowOk.pos (div_pos hp hl0))

/-- C110: in a redshift bin whose galaxies all have the same luminosity below 0.4 the distribution is spread over negative
luminosities, and the amplitude is a number only for integer slopes. -/
theorem C110_faint (l0 beta l : ℝ) (hl0 : 0 < l0) (i : ℕ) (hb : a.loglumBin gals i = [l]) (hl : (10 : ℝ) ^ l < 0.4)
    (hn : ∀ n : ℤ, beta ≠ n) : ¬ (meanLL0ToBeta 10000 (lum a gals i) (pdf a gals i) l0 beta).Ok := by
  rw [ok_mean a gals l0 beta hl0 i]
  intro h
  have h0 := h 0 (by norm_num)
  rw [powOk_iff_of_not_int hn] at h0
  have hval : lum a gals i 0 = (10 : ℝ) ^ l - 0.5 + 0.5 / 10000 := by
    simp only [lum, Amplitudes.lumAndPdf, hb, List.map_cons, List.map_nil, histEdge, histRange, listMin, listMax,
      List.foldl_nil, if_true]
    norm_num
  have hneg : lum a gals i 0 / l0 < 0 := by
    rw [hval]
    exact div_neg_of_neg_of_pos (by norm_num at hl ⊢; linarith) hl0
  rcases h0 with h0 | ⟨h0, -⟩ <;> linarith

/-- C110: the amplitudes themselves.  With the luminosity option they are the two functions above, and they are the
amplitudes of the model over the reals whenever they are numbers; with the other options they are always numbers. -/
theorem C110_amplitudes (l0 : ℝ) (hn : 2 ≤ a.nz) :
    (∀ amp, alignmentGi a = .ok (some amp) → ∃ amp', a.alignmentGi = .ok (some amp') ∧ ∀ i, (amp i).Refines (amp' i)) ∧
    (∀ amp, gamma1hAmp a = .ok (some amp) → ∃ amp', a.gamma1hAmp = .ok (some amp') ∧ ∀ i, (amp i).Refines (amp' i)) ∧
    (∀ amp, a.centralDep ≠ "luminosity" → alignmentGi a = .ok (some amp) → ∀ i, (amp i).Ok) ∧
    (∀ amp, a.satelliteDep ≠ "luminosity" → gamma1hAmp a = .ok (some amp) → ∀ i, (amp i).Ok) ∧
    (a.centralDep = "luminosity" → a.lpivotCen = some l0 → a.lumFileCen = some gals → a.betaTwo = none →
      ∃ amp, alignmentGi a = .ok (some amp) ∧ ∀ i, (amp i).Ok ↔
        (meanLL0ToBeta 10000 (lum a gals i) (pdf a gals i) l0 a.betaCen).Ok) ∧
    (∀ b2, a.centralDep = "luminosity" → a.lpivotCen = some l0 → a.lumFileCen = some gals → a.betaTwo = some b2 →
      ∃ amp, alignmentGi a = .ok (some amp) ∧ ∀ i, (amp i).Ok ↔
        (brokenPowerlaw 10000 (lum a gals i) (pdf a gals i) a.gamma2h l0 a.betaCen b2).Ok) ∧
    (a.satelliteDep = "luminosity" → a.lpivotSat = some l0 → a.lumFileSat = some gals →
      ∃ amp, gamma1hAmp a = .ok (some amp) ∧ ∀ i, (amp i).Ok ↔
        (meanLL0ToBeta 10000 (lum a gals i) (pdf a gals i) l0 a.betaSat).Ok) := by
  have rmean : ∀ (n : ℕ) (x p : ℕ → ℝ) (l b : ℝ), (meanLL0ToBeta n x p l b).Refines (Ia.meanLL0ToBeta n x p l b) := by
    intro n x p l b
    exact Refines.simpson fun j => (Refines.num _).mul (((Refines.num _).div (Refines.num _)).rpow (Refines.num _))
  have rbrok : ∀ (n : ℕ) (x p : ℕ → ℝ) (g l b b2 : ℝ),
      (brokenPowerlaw n x p g l b b2).Refines (Ia.brokenPowerlaw n x p g l b b2) := by
    intro n x p g l b b2
    refine Refines.simpson fun j => (Refines.num _).mul ?_
    split_ifs
    · exact (Refines.num _).mul (((Refines.num _).div (Refines.num _)).rpow (Refines.num _))
    · exact (Refines.num _).mul (((Refines.num _).div (Refines.num _)).rpow (Refines.num _))
  have h2 : ¬ a.nz < 2 := by omega
  refine ⟨?_, ?_, ?_, ?_, ?_, ?_, ?_⟩
  · intro amp h
    unfold alignmentGi at h
    unfold Amplitudes.alignmentGi
    split_ifs at h ⊢
    · cases h; exact ⟨_, rfl, fun i => Refines.num _⟩
    · cases hp : a.lpivotCen with
      | none => rw [hp] at h; cases h
      | some l =>
        rw [hp] at h
        cases hb : a.betaTwo with
        | none =>
          rw [hb] at h
          dsimp only at h ⊢
          revert h
          cases a.initLum a.lumFileCen with
          | error e => intro h; cases h
          | ok q => intro h; obtain rfl := Option.some.inj (Except.ok.inj h); exact ⟨_, rfl, fun i => (Refines.num _).mul (rmean _ _ _ _ _)⟩
        | some b2 =>
          rw [hb] at h
          dsimp only at h ⊢
          revert h
          cases a.initLum a.lumFileCen with
          | error e => intro h; cases h
          | ok q => intro h; obtain rfl := Option.some.inj (Except.ok.inj h); exact ⟨_, rfl, fun i => rbrok _ _ _ _ _ _ _⟩
    · cases hp : a.mpivotCen with
      | none => rw [hp] at h; cases h
      | some l =>
        rw [hp] at h
        cases hb : a.betaTwo with
        | none => rw [hb] at h; cases h; exact ⟨_, rfl, fun i => Refines.num _⟩
        | some b2 => rw [hb] at h; cases h
    · cases h
  · intro amp h
    unfold gamma1hAmp at h
    unfold Amplitudes.gamma1hAmp
    split_ifs at h ⊢
    · cases h; exact ⟨_, rfl, fun i => Refines.num _⟩
    · cases hp : a.lpivotSat with
      | none => rw [hp] at h; cases h
      | some l =>
        rw [hp] at h
        dsimp only at h ⊢
        revert h
        cases a.initLum a.lumFileSat with
        | error e => intro h; cases h
        | ok q => intro h; obtain rfl := Option.some.inj (Except.ok.inj h); exact ⟨_, rfl, fun i => (Refines.num _).mul (rmean _ _ _ _ _)⟩
    · cases hp : a.mpivotSat with
      | none => rw [hp] at h; cases h
      | some l => rw [hp] at h; cases h; exact ⟨_, rfl, fun i => Refines.num _⟩
    · cases h
  · intro amp hd h i
    unfold alignmentGi at h
    rw [if_neg hd] at h
    split_ifs at h
    · cases h; trivial
    · cases hp : a.mpivotCen with
      | none => rw [hp] at h; cases h
      | some l =>
        rw [hp] at h
        cases hb : a.betaTwo with
        | none => rw [hb] at h; cases h; trivial
        | some b2 => rw [hb] at h; cases h
    · cases h
  · intro amp hd h i
    unfold gamma1hAmp at h
    rw [if_neg hd] at h
    split_ifs at h
    · cases h; trivial
    · cases hp : a.mpivotSat with
      | none => rw [hp] at h; cases h
      | some l => rw [hp] at h; cases h; trivial
    · cases h
  · intro hd hp hf hb
    simp only [alignmentGi, hd, hp, hf, hb, Amplitudes.initLum, Amplitudes.computeLuminosityPdf, h2,
      if_false, if_true, Amplitudes.nlbins, String.reduceEq]
    exact ⟨_, rfl, fun i => by simp only [ok_mul, ok_num, true_and]⟩
  · intro b2 hd hp hf hb
    simp only [alignmentGi, hd, hp, hf, hb, Amplitudes.initLum, Amplitudes.computeLuminosityPdf, h2,
      if_false, if_true, Amplitudes.nlbins, String.reduceEq]
    exact ⟨_, rfl, fun i => Iff.rfl⟩
  · intro hd hp hf
    simp only [gamma1hAmp, hd, hp, hf, Amplitudes.initLum, Amplitudes.computeLuminosityPdf, h2,
      if_false, if_true, Amplitudes.nlbins, String.reduceEq]
    exact ⟨_, rfl, fun i => by simp only [ok_mul, ok_num, true_and]⟩

/-- a file with two galaxies at redshift 0 and none at redshift 1 -/
example : ((demoAmp (fun i => i) 2 (some [(0, 9), (0, 10)])).loglumBin [(0, 9), (0, 10)] 0 = [9, 10]) ∧
    (demoAmp (fun i => i) 2 (some [(0, 9), (0, 10)])).loglumBin [(0, 9), (0, 10)] 1 = [] := by
  constructor <;> norm_num [Amplitudes.loglumBin, Amplitudes.zEdge, demoAmp]

end Verif.IaChecked

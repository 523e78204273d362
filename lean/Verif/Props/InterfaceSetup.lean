import Verif.Model.Interface
import Mathlib.Tactic.Linarith
import Mathlib.Tactic.Ring
import Mathlib.Tactic.FieldSimp
import Mathlib.Tactic.NormNum
import Mathlib.Tactic.Positivity

/-! # Setup of the CosmoSIS module: settings, bins, mass grid (C67, C83, C88, C89) -/

namespace Verif.Interface

open Verif.Lib

theorem bind_ok {α β : Type} (a : α) (f : α → Except PyErr β) : (Except.ok a >>= f) = f a := rfl

theorem bind_error {α β : Type} (e : PyErr) (f : α → Except PyErr β) : ((Except.error e : Except PyErr α) >>= f) = .error e := rfl

theorem bind_eq_ok {α β : Type} {x : Except PyErr α} {f : α → Except PyErr β} {b : β} (h : (x >>= f) = .ok b) :
    ∃ a, x = .ok a ∧ f a = .ok b := by
  cases x with
  | error e => rw [bind_error] at h; cases h
  | ok a => exact ⟨a, rfl, h⟩

/-- the settings read from a file do not have the key `obs_min` -/
theorem setupHodSettings_file (o : Options) (sfx : String) (d : Settings)
    (hf : (o ("observables_file_" ++ sfx)).isSome) (h : setupHodSettings o sfx = .ok d) :
    d "obs_min" = none ∧ d "obs_max" = none ∧ d "zmin" = none ∧ d "zmax" = none ∧ d "nz" = none ∧
      ∃ f, o ("observables_file_" ++ sfx) = some (.str f) ∧ d "observables_file" = some (.raw (.str f)) := by
  unfold setupHodSettings at h
  rw [if_pos hf] at h
  obtain ⟨d0, hd0, h⟩ := bind_eq_ok h
  obtain ⟨nobs, -, h⟩ := bind_eq_ok h
  obtain ⟨unit, -, h⟩ := bind_eq_ok h
  unfold fileSettings at hd0
  obtain ⟨f, hf', hd0⟩ := bind_eq_ok hd0
  cases hd0
  cases h
  have hs : o ("observables_file_" ++ sfx) = some (.str f) := by
    unfold getString at hf'
    split at hf' <;> simp_all
  refine ⟨rfl, rfl, rfl, rfl, rfl, f, hs, rfl⟩

theorem galaxySettings_file (o : Options) (hf : (o "observables_file_hod").isSome) :
    ∃ e, galaxySettings o true = .error e := by
  unfold galaxySettings
  rw [if_pos rfl]
  cases h : setupHodSettings o "hod" with
  | error e => exact ⟨e, rfl⟩
  | ok d =>
    obtain ⟨h1, -, -, -, -, f, -, hf'⟩ := setupHodSettings_file o "hod" d hf h
    rw [bind_ok]
    unfold setupHodSettingsMm
    rw [hf']
    refine ⟨.keyError, ?_⟩
    simp only [bind_ok, nbinsOf, Settings.getArr, h1]
    rfl

/-- C67: with galaxy spectra requested, `setup_hod` fails whenever an observables file is given. -/
theorem C67_always_fails (o : Options) (al sp : Bool) (hf : (o "observables_file_hod").isSome) :
    ∀ r, setupHod o true al sp ≠ .ok r := by
  intro r h
  unfold setupHod at h
  obtain ⟨_, -, h⟩ := bind_eq_ok h
  obtain ⟨_, -, h⟩ := bind_eq_ok h
  obtain ⟨_, -, h⟩ := bind_eq_ok h
  obtain ⟨_, -, h⟩ := bind_eq_ok h
  obtain ⟨_, -, h⟩ := bind_eq_ok h
  obtain ⟨g, hg, h⟩ := bind_eq_ok h
  obtain ⟨e, he⟩ := galaxySettings_file o hf
  rw [he] at hg
  cases hg

/-- C67: if everything that is read before is in order, the failure is the missing key `obs_min`. -/
theorem C67_key_error (o : Options) (al sp : Bool) (f : String) (nobs : OVal)
    (hf : o "observables_file_hod" = some (.str f)) (hn : o "nobs_hod" = some nobs)
    (hu : ∃ s, getString (o "observable_h_unit") (some "1/h^2") = .ok s)
    (h1 : ∃ s, getString (o "hod_section_name") (some "hod") = .ok s)
    (h2 : ∃ s, getString (o "values_name") (some "hod_parameters") = .ok s)
    (h3 : ∃ s, getString (o "output_suffix") (some "") = .ok s)
    (h4 : ∃ s, iaNames o al sp = .ok s)
    (h5 : ∃ s, getString (o "hod_model") (some "Cacciato") = .ok s) :
    setupHod o true al sp = .error .keyError := by
  obtain ⟨s1, h1⟩ := h1
  obtain ⟨s2, h2⟩ := h2
  obtain ⟨s3, h3⟩ := h3
  obtain ⟨s4, h4⟩ := h4
  obtain ⟨s5, h5⟩ := h5
  obtain ⟨u, hu⟩ := hu
  have hset : setupHodSettings o "hod" = .ok (((Settings.empty.set "observables_file" (.raw (.str f))).set
      "nobs" (.raw nobs)).set "observable_h_unit" (.raw (.str u.toLower))) := by
    unfold setupHodSettings
    have : (o ("observables_file_" ++ "hod")).isSome := by
      show (o "observables_file_hod").isSome = true; rw [hf]; rfl
    rw [if_pos this]
    have hfs : fileSettings o "hod" = .ok (Settings.empty.set "observables_file" (.raw (.str f))) := by
      unfold fileSettings
      show getString (o "observables_file_hod") none >>= _ = _
      rw [hf]; rfl
    rw [hfs, bind_ok]
    show getRaw (o "nobs_hod") >>= _ = _
    rw [hn]
    show getString (o "observable_h_unit") (some "1/h^2") >>= _ = _
    rw [hu]
    rfl
  unfold setupHod
  rw [h1, h2, h3, h4, h5]
  simp only [bind_ok]
  unfold galaxySettings
  rw [if_pos rfl, hset]
  rfl

/-- C67: so the module cannot be set up at all. -/
theorem C67_setup_fails (V : Type) (emu : Bool) (o : Options) (p : Pipeline) (hp : setupPipeline o = .ok p)
    (hg : p.pgg = true ∨ p.pgm = true) (hf : (o "observables_file_hod").isSome) :
    ∀ r, setup V emu o ≠ .ok r := by
  intro r h
  unfold setup at h
  rw [hp, bind_ok] at h
  obtain ⟨s, hs, -⟩ := bind_eq_ok h
  have : p.galaxy = true := by unfold Pipeline.galaxy; rcases hg with h | h <;> simp [h]
  rw [this] at hs
  exact C67_always_fails o _ _ hf s hs

/-- C67: the same file option is accepted for an alignment sample without galaxy spectra. -/
theorem C67_alignment_file_accepted (o : Options) (f : String) (nobs : OVal)  (hf : o "observables_file_ia" = some (.str f)) (hn : o "nobs_ia" = some nobs)
    (hu : ∃ s, getString (o "observable_h_unit") (some "1/h^2") = .ok s) :
    ∃ d, iaSettings o true false = .ok (d, fun _ => none) ∧ d "observables_file" = some (.raw (.str f)) := by
  obtain ⟨u, hu⟩ := hu
  refine ⟨((Settings.empty.set "observables_file" (.raw (.str f))).set
      "nobs" (.raw nobs)).set "observable_h_unit" (.raw (.str u.toLower)), ?_, rfl⟩
  unfold iaSettings
  rw [if_pos rfl, if_neg (by simp)]
  unfold setupHodSettings
  have : (o ("observables_file_" ++ "ia")).isSome := by
    show (o "observables_file_ia").isSome = true; rw [hf]; rfl
  rw [if_pos this]
  have hfs : fileSettings o "ia" = .ok (Settings.empty.set "observables_file" (.raw (.str f))) := by
    unfold fileSettings
    show getString (o "observables_file_ia") none >>= _ = _
    rw [hf]; rfl
  rw [hfs, bind_ok]
  show ((getRaw (o "nobs_ia") >>= _) >>= _) = _
  rw [hn]
  show ((getString (o "observable_h_unit") (some "1/h^2") >>= _) >>= _) = _
  rw [hu]
  rfl

/-- an ini section with an observables file -/
def demoFileOptions : Options := fun k =>
  if k = "observables_file_hod" then some (.str "bins.txt")
  else if k = "observables_file_smf" then some (.str "bins.txt")
  else if k = "save_observable" then some (.bool true)
  else if k = "nobs_smf" then some (.int 100)
  else if k = "nobs_hod" then some (.int 100) else none

example : setupHod demoFileOptions true false false = .error .keyError :=
  C67_key_error demoFileOptions false false "bins.txt" (.int 100) rfl rfl ⟨_, rfl⟩ ⟨_, rfl⟩ ⟨_, rfl⟩ ⟨_, rfl⟩ ⟨_, rfl⟩
    ⟨_, rfl⟩

/-! ## Observable function -/

/-- C83: an observables file for the observable function passes setup, and saving the result then always fails
with a missing key, for every number of bins. -/
theorem C83_saving_fails (o : Options) (d : Settings) (hs : o "save_observable" = some (.bool true))
    (hf : (o "observables_file_smf").isSome) (h : obsSettings o = .ok d) (n : ℕ) (hn : 0 < n) :
    d "save_observable" = some (.raw (.bool true)) ∧ saveObs d (List.range n) = .error .keyError := by
  unfold obsSettings at h
  rw [hs] at h
  obtain ⟨b, hb, h⟩ := bind_eq_ok h
  cases hb
  rw [if_pos rfl] at h
  obtain ⟨d0, hd0, h⟩ := bind_eq_ok h
  obtain ⟨nm, -, h⟩ := bind_eq_ok h
  cases h
  obtain ⟨h1, -⟩ := setupHodSettings_file o "smf" d0 hf hd0
  refine ⟨rfl, ?_⟩
  obtain ⟨m, rfl⟩ := Nat.exists_eq_succ_of_ne_zero hn.ne'
  rw [List.range_succ_eq_map]
  unfold saveObs
  have : Settings.getArr ((d0.set "save_observable" (.raw (.bool true))).set "observable_section_name"
      (.raw (.str nm.toLower))) "obs_min" = .error .keyError := by
    have : ((d0.set "save_observable" (.raw (.bool true))).set "observable_section_name"
      (.raw (.str nm.toLower))) "obs_min" = none := h1
    unfold Settings.getArr
    rw [this]
  rw [this]
  rfl

/-- C83: without a file the names of all bins are written, five per bin (four for a single bin and redshift). -/
theorem C83_bins_saved (o : Options) (d : Settings) (hs : o "save_observable" = some (.bool true))
    (hf : o "observables_file_smf" = none) (h : obsSettings o = .ok d) (l : List ℕ) :
    ∃ names, saveObs d l = .ok names ∧ ∀ nb ∈ l, ∀ b ∈ ["obs_val", "obs_func", "obs_func_c", "obs_func_s"],
      b ++ "_" ++ toString (nb + 1) ∈ names := by
  unfold obsSettings at h
  rw [hs] at h
  obtain ⟨b, hb, h⟩ := bind_eq_ok h
  cases hb
  rw [if_pos rfl] at h
  obtain ⟨d0, hd0, h⟩ := bind_eq_ok h
  obtain ⟨nm, -, h⟩ := bind_eq_ok h
  cases h
  unfold setupHodSettings at hd0
  have hn : ¬ (o ("observables_file_" ++ "smf")).isSome := by
    show ¬ (o "observables_file_smf").isSome = true; rw [hf]; simp
  rw [if_neg hn] at hd0
  obtain ⟨d1, hd1, hd0⟩ := bind_eq_ok hd0
  obtain ⟨nobs, -, hd0⟩ := bind_eq_ok hd0
  obtain ⟨unit, -, hd0⟩ := bind_eq_ok hd0
  cases hd0
  unfold binSettings at hd1
  obtain ⟨omin, -, hd1⟩ := bind_eq_ok hd1
  obtain ⟨omax, -, hd1⟩ := bind_eq_ok hd1
  obtain ⟨zmin, -, hd1⟩ := bind_eq_ok hd1
  obtain ⟨zmax, -, hd1⟩ := bind_eq_ok hd1
  obtain ⟨nz, -, hd1⟩ := bind_eq_ok hd1
  cases hd1
  induction l with
  | nil => exact ⟨[], rfl, by simp⟩
  | cons nb l ih =>
    obtain ⟨names, hnames, hall⟩ := ih
    rw [saveObs, hnames]
    refine ⟨_, rfl, ?_⟩
    intro nb' hnb' b hb
    rcases List.mem_cons.mp hnb' with rfl | hnb'
    · refine List.mem_append_left _ ?_
      rw [String.append_assoc]
      split_ifs
      · simp only [List.mem_cons, List.not_mem_nil, or_false] at hb
        rcases hb with rfl | rfl | rfl | rfl <;> simp
      · simp only [List.mem_cons, List.not_mem_nil, or_false] at hb
        rcases hb with rfl | rfl | rfl | rfl <;> simp
    · exact List.mem_append_right _ (hall nb' hnb' b hb)

example : saveObs ((((Settings.empty.set "observables_file" (.raw (.str "bins.txt"))).set "nobs" (.raw (.int 100))).set
    "save_observable" (.raw (.bool true)))) (List.range 2) = .error .keyError := rfl

example : ∃ d, obsSettings demoFileOptions = .ok d := ⟨_, rfl⟩

/-! ## One sample covering all bins -/

theorem foldl_min_le (l : List ℝ) (x : ℝ) : l.foldl min x ≤ x ∧ (∀ y ∈ l, l.foldl min x ≤ y) ∧
    (l.foldl min x = x ∨ l.foldl min x ∈ l) := by
  induction l generalizing x with
  | nil => simp
  | cons a l ih =>
    obtain ⟨h1, h2, h3⟩ := ih (min x a)
    simp only [List.foldl_cons, List.mem_cons, forall_eq_or_imp]
    refine ⟨h1.trans (min_le_left _ _), ⟨h1.trans (min_le_right _ _), h2⟩, ?_⟩
    rcases h3 with h3 | h3
    · rcases min_choice x a with h | h
      · left; rw [h3, h]
      · right; left; rw [h3, h]
    · right; right; exact h3

theorem foldl_max_le (l : List ℝ) (x : ℝ) : x ≤ l.foldl max x ∧ (∀ y ∈ l, y ≤ l.foldl max x) ∧
    (l.foldl max x = x ∨ l.foldl max x ∈ l) := by
  induction l generalizing x with
  | nil => simp
  | cons a l ih =>
    obtain ⟨h1, h2, h3⟩ := ih (max x a)
    simp only [List.foldl_cons, List.mem_cons, forall_eq_or_imp]
    refine ⟨(le_max_left _ _).trans h1, ⟨(le_max_right _ _).trans h1, h2⟩, ?_⟩
    rcases h3 with h3 | h3
    · rcases max_choice x a with h | h
      · left; rw [h3, h]
      · right; left; rw [h3, h]
    · right; right; exact h3

theorem arrMin_spec {l : List ℝ} {m : ℝ} (h : arrMin l = .ok m) : m ∈ l ∧ ∀ y ∈ l, m ≤ y := by
  cases l with
  | nil => cases h
  | cons x l =>
    simp only [arrMin, Except.ok.injEq] at h
    subst h
    obtain ⟨h1, h2, h3⟩ := foldl_min_le l x
    exact ⟨by rcases h3 with h3 | h3 <;> simp [h3], by simpa using ⟨h1, h2⟩⟩

theorem arrMax_spec {l : List ℝ} {m : ℝ} (h : arrMax l = .ok m) : m ∈ l ∧ ∀ y ∈ l, y ≤ m := by
  cases l with
  | nil => cases h
  | cons x l =>
    simp only [arrMax, Except.ok.injEq] at h
    subst h
    obtain ⟨h1, h2, h3⟩ := foldl_max_le l x
    exact ⟨by rcases h3 with h3 | h3 <;> simp [h3], by simpa using ⟨h1, h2⟩⟩

/-- C88: the settings used for the matter spectra describe one bin that covers every bin of the sample exactly:
its limits are attained by some bins and no bin reaches beyond them.  All other keys except the two resolution
parameters are kept. -/
theorem C88_one_covering_bin (d d' : Settings) (a b c e : List ℝ) (hf : d "observables_file" = some .pyNone)
    (ha : d "obs_min" = some (.arr a)) (hb : d "obs_max" = some (.arr b)) (hc : d "zmin" = some (.arr c))
    (he : d "zmax" = some (.arr e)) (h : setupHodSettingsMm d = .ok d') :
    (∃ x y z w, d' "obs_min" = some (.arr [x]) ∧ d' "obs_max" = some (.arr [y]) ∧ d' "zmin" = some (.arr [z]) ∧
      d' "zmax" = some (.arr [w]) ∧ (x ∈ a ∧ ∀ t ∈ a, x ≤ t) ∧ (y ∈ b ∧ ∀ t ∈ b, t ≤ y) ∧
      (z ∈ c ∧ ∀ t ∈ c, z ≤ t) ∧ (w ∈ e ∧ ∀ t ∈ e, t ≤ w)) ∧
    d' "nz" = some (.raw (.int 15)) ∧ d' "nobs" = some (.raw (.int 100)) ∧
    ∀ k ∉ ["obs_min", "obs_max", "zmin", "zmax", "nz", "nobs"], d' k = d k := by
  unfold setupHodSettingsMm at h
  rw [hf] at h
  simp only at h
  cases hm : mmBins d with
  | error e => rw [hm] at h; cases h
  | ok dm =>
    rw [hm] at h
    cases h
    unfold mmBins at hm
    obtain ⟨x, hx, hm⟩ := bind_eq_ok hm
    obtain ⟨y, hy, hm⟩ := bind_eq_ok hm
    obtain ⟨z, hz, hm⟩ := bind_eq_ok hm
    obtain ⟨w, hw, hm⟩ := bind_eq_ok hm
    cases hm
    simp only [Settings.getArr, ha, hb, hc, he, Except.bind] at hx hy hz hw
    refine ⟨⟨x, y, z, w, rfl, rfl, rfl, rfl, arrMin_spec hx, arrMax_spec hy, arrMin_spec hz, arrMax_spec hw⟩,
      rfl, rfl, ?_⟩
    intro k hk
    simp only [List.mem_cons, List.not_mem_nil, or_false, not_or] at hk
    simp [Settings.set, hk]

/-- C88: it fails only for a sample without bins. -/
theorem C88_succeeds (d : Settings) (a b c e : List ℝ) (hf : d "observables_file" = some .pyNone)
    (ha : d "obs_min" = some (.arr a)) (hb : d "obs_max" = some (.arr b)) (hc : d "zmin" = some (.arr c))
    (he : d "zmax" = some (.arr e)) :
    (∃ d', setupHodSettingsMm d = .ok d') ↔ a ≠ [] ∧ b ≠ [] ∧ c ≠ [] ∧ e ≠ [] := by
  unfold setupHodSettingsMm mmBins
  simp only [hf, Settings.getArr, ha, hb, hc, he, Except.bind]
  cases a with
  | nil => simp [arrMin, bind, Except.bind, Except.map]
  | cons x a => cases b with
    | nil => simp [arrMin, arrMax, bind, Except.bind, Except.map]
    | cons y b => cases c with
      | nil => simp [arrMin, arrMax, bind, Except.bind, Except.map]
      | cons z c => cases e with
        | nil => simp [arrMin, arrMax, bind, Except.bind, Except.map]
        | cons w e => simp [arrMin, arrMax, bind, Except.bind, Except.map, pure, Except.pure]

/-- settings of a sample with two bins -/
def demoBins : Settings := fun k =>
  if k = "observables_file" then some .pyNone
  else if k = "obs_min" then some (.arr [9, 10])
  else if k = "obs_max" then some (.arr [10, 11])
  else if k = "zmin" then some (.arr [0.1, 0.2])
  else if k = "zmax" then some (.arr [0.3, 0.5]) else none

example : ∃ d', setupHodSettingsMm demoBins = .ok d' :=
  (C88_succeeds demoBins [9, 10] [10, 11] [0.1, 0.2] [0.3, 0.5] rfl rfl rfl rfl rfl).mpr (by simp)

/-! ## Mass grid -/

/-- C89: with `nmass = n > 0` and increasing limits the mass grid of the halo model and of the non-linear bias
(`np.arange(min, max, step)`) has exactly `n` points, starts at the lower limit, is increasing and never reaches the
upper limit; the last point is one step below it. -/
theorem C89_mass_grid (o : Options) (lo hi d : ℝ) (n : ℤ) (hn : getInt (o "nmass") 200 = .ok n) (hpos : 0 < n)
    (h : massGrid o = .ok (lo, hi, d)) (hlt : lo < hi) :
    (npArangeReal lo hi d).1 = n.toNat ∧ (npArangeReal lo hi d).2 0 = lo ∧
    (∀ i j, i < j → (npArangeReal lo hi d).2 i < (npArangeReal lo hi d).2 j) ∧
    (∀ i < n.toNat, (npArangeReal lo hi d).2 i < hi) ∧
    (npArangeReal lo hi d).2 (n.toNat - 1) = hi - d := by
  unfold massGrid at h
  obtain ⟨lo', hlo, h⟩ := bind_eq_ok h
  obtain ⟨hi', hhi, h⟩ := bind_eq_ok h
  rw [hn, bind_ok, if_neg hpos.ne'] at h
  cases h
  obtain ⟨m, rfl⟩ := Int.eq_ofNat_of_zero_le hpos.le
  have hm : 0 < m := by exact_mod_cast hpos
  have hmr : (0 : ℝ) < m := by exact_mod_cast hm
  have hd : 0 < (hi - lo) / ((m : ℤ) : ℝ) := by
    rw [Int.cast_natCast]; exact div_pos (by linarith) hmr
  have hdm : (hi - lo) / ((m : ℤ) : ℝ) * m = hi - lo := by rw [Int.cast_natCast]; field_simp
  have hne : hi - lo ≠ 0 := by linarith
  refine ⟨?_, ?_, ?_, ?_, ?_⟩
  · show ⌈(hi - lo) / ((hi - lo) / ((m : ℤ) : ℝ))⌉₊ = _
    have : (hi - lo) / ((hi - lo) / ((m : ℤ) : ℝ)) = m := by rw [Int.cast_natCast]; field_simp
    rw [this]; simp
  · show lo + ((0 : ℕ) : ℝ) * _ = lo
    simp
  · intro i j hij
    show lo + (i : ℝ) * _ < lo + (j : ℝ) * _
    have : (i : ℝ) < j := by exact_mod_cast hij
    nlinarith
  · intro i hi'
    show lo + (i : ℝ) * _ < hi
    have : (i : ℝ) < m := by simp at hi'; exact_mod_cast hi'
    nlinarith
  · show lo + (((Int.toNat (m : ℤ)) - 1 : ℕ) : ℝ) * _ = hi - _
    rw [Int.toNat_natCast, Nat.cast_sub hm]
    push_cast at hdm ⊢
    linarith

/-- C89: a grid of zero points is refused with ZeroDivisionError. -/
theorem C89_zero_points (o : Options) (hlo : ∃ x, getDouble (o "log_mass_min") (some 9) = .ok x)
    (hhi : ∃ x, getDouble (o "log_mass_max") (some 16) = .ok x) (hn : o "nmass" = some (.int 0)) :
    massGrid o = .error .zeroDivision := by
  obtain ⟨x, hx⟩ := hlo
  obtain ⟨y, hy⟩ := hhi
  unfold massGrid
  rw [hx, hy, hn]
  rfl

/-- the default grid: 200 points from 10^9 up to 10^15.965 -/
example : (npArangeReal 9 16 ((16 - 9) / (200 : ℤ))).1 = 200 :=
  (C89_mass_grid (fun _ => none) 9 16 _ 200 rfl (by norm_num) rfl (by norm_num)).1

end Verif.Interface

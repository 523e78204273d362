import Verif.Model.HodGrid
import Mathlib.Tactic.IntervalCases
import Mathlib.Tactic.NormNum

/-! # C112: the redshifts and observable limits of the occupation model, from settings or from a file -/

namespace Verif.Hod

open Verif.Lib

/-! ## Lists -/

theorem ok_bind {α β : Type} (a : α) (f : α → Except PyErr β) : (Except.ok a >>= f) = f a := rfl

theorem error_bind {α β : Type} (e : PyErr) (f : α → Except PyErr β) : ((Except.error e : Except PyErr α) >>= f) = .error e := rfl

theorem mapM_ok {α β : Type} (f : α → β) (g : α → Except PyErr β) (l : List α) (h : ∀ a ∈ l, g a = .ok (f a)) :
    l.mapM g = .ok (l.map f) := by
  induction l with
  | nil => rfl
  | cons a l ih =>
    rw [List.mapM_cons, h a (by simp), ih (fun b hb => h b (by simp [hb]))]
    rfl

theorem mapM_error {α β : Type} (e : PyErr) (g : α → Except PyErr β) (l : List α) (hl : l ≠ []) (h : ∀ a ∈ l, g a = .error e) :
    l.mapM g = .error e := by
  cases l with
  | nil => exact absurd rfl hl
  | cons a l => rw [List.mapM_cons, h a (by simp)]; rfl

theorem map_range_getD {α β : Type} (l : List α) (d : α) (f : α → β) :
    (List.range l.length).map (fun j => f (l.getD j d)) = l.map f := by
  apply List.ext_getElem?
  intro j
  simp only [List.getElem?_map, List.getD_eq_getElem?_getD]
  by_cases hj : j < l.length
  · simp [List.getElem?_range hj, List.getElem?_eq_getElem hj]
  · rw [List.getElem?_eq_none (by simpa using hj), List.getElem?_eq_none (by simpa using hj)]; rfl

/-! ## With a file -/

section File

variable {fs : String → Option (List Row)} {s : Settings} {f : String} {rows : List Row} {k : ℕ}

theorem loadData_two (h : 2 ≤ rows.length) :
    loadData rows = .arrays (rows.map Row.z) (rows.map Row.lo) (rows.map Row.hi) := by
  match rows, h with
  | _ :: _ :: _, _ => rfl

theorem gridObs_file (hs : s.observablesFile = some (some f)) (hf : fs f = some rows) (h2 : 2 ≤ rows.length)
    (hk : s.nobs = some k) :
    gridObs fs s = .ok [rows.map fun r => logspaceList (log10 r.lo) (log10 r.hi) k] := by
  have hb : gridBins s = .ok 1 := by simp [gridBins, hs, key]; rfl
  have hd : data fs s = .ok (some (loadData rows)) := by simp only [data, hs, key, ok_bind, hf]; rfl
  have hn : gridNz fs s = .ok rows.length := by
    simp only [gridNz, hs, key, hd, loadData_two h2]
    show Except.ok (rows.map Row.z).length = _
    simp
  have hlo : logObsMin fs s = .ok [(rows.map Row.lo).map log10] := by
    simp only [logObsMin, hs, key, hd, loadData_two h2]; rfl
  have hhi : logObsMax fs s = .ok [(rows.map Row.hi).map log10] := by
    simp only [logObsMax, hs, key, hd, loadData_two h2]; rfl
  have hrow : (List.range rows.length).mapM (fun j => do
      let lo ← at2 (← logObsMin fs s) 0 j
      let hi ← at2 (← logObsMax fs s) 0 j
      return logspaceList lo hi (← nobs s)) =
      Except.ok (rows.map fun r => logspaceList (log10 r.lo) (log10 r.hi) k) := by
    refine (mapM_ok (fun j => (fun r : Row => logspaceList (log10 r.lo) (log10 r.hi) k) (rows.getD j ⟨0, 0, 0⟩)) _ _ ?_).trans
      (congrArg Except.ok (map_range_getD rows ⟨0, 0, 0⟩ fun r : Row => logspaceList (log10 r.lo) (log10 r.hi) k))
    intro j hj
    have hj' : j < rows.length := by simpa using hj
    have hr : rows[j]? = some rows[j] := List.getElem?_eq_getElem hj'
    have e1 : at2 [(rows.map Row.lo).map log10] 0 j = .ok (log10 rows[j].lo) := by
      simp [at2, hr]
    have e2 : at2 [(rows.map Row.hi).map log10] 0 j = .ok (log10 rows[j].hi) := by
      simp [at2, hr]
    simp only [hlo, hhi, nobs, key, hk]
    show (at2 [(rows.map Row.lo).map log10] 0 j >>= fun lo => at2 [(rows.map Row.hi).map log10] 0 j >>= fun hi => _) = _
    rw [e1, e2]
    simp only [List.getD_eq_getElem?_getD, hr]
    rfl
  have hall : (List.range 1).mapM (fun b => do
      let n ← gridNz fs s
      (List.range n).mapM fun j => do
        let lo ← at2 (← logObsMin fs s) b j
        let hi ← at2 (← logObsMax fs s) b j
        return logspaceList lo hi (← nobs s)) =
      Except.ok [rows.map fun r => logspaceList (log10 r.lo) (log10 r.hi) k] := by
    rw [mapM_ok (fun _ => rows.map fun r => logspaceList (log10 r.lo) (log10 r.hi) k)]
    · rfl
    · intro b hb'
      have : b = 0 := by simpa using hb'
      subst this
      rw [hn]
      exact hrow
  unfold gridObs
  rw [hb, ok_bind]
  rw [hall]
  match rows, h2 with
  | _ :: _ :: _, _ => rfl

/-- C112: with an observables file of two or more rows there is one bin; its redshifts are the first column, in the order of the
file, and at each of them the observables run from the second to the third column, equally spaced in the logarithm. -/
theorem C112_file (hs : s.observablesFile = some (some f)) (hf : fs f = some rows) (h2 : 2 ≤ rows.length)
    (hpos : ∀ r ∈ rows, 0 < r.lo ∧ 0 < r.hi) (hk : s.nobs = some k) (hk2 : 2 ≤ k) :
    gridBins s = .ok 1 ∧ gridNz fs s = .ok rows.length ∧ gridZ fs s = .ok [rows.map Row.z] ∧
      ∃ o : Rows, gridObs fs s = .ok [o] ∧ o.length = rows.length ∧
        ∀ (j : ℕ) (r : Row), rows[j]? = some r → ∃ g : List ℝ, o[j]? = some g ∧ g.length = k ∧
          g[0]? = some r.lo ∧ g[k - 1]? = some r.hi ∧
          ∀ l < k, g[l]? = some (r.lo ^ (1 - (l : ℝ) / ((k : ℝ) - 1)) * r.hi ^ ((l : ℝ) / ((k : ℝ) - 1))) := by
  have hd : data fs s = .ok (some (loadData rows)) := by simp only [data, hs, key, ok_bind, hf]; rfl
  refine ⟨by simp [gridBins, hs, key]; rfl, ?_, ?_, _, gridObs_file hs hf h2 hk, by simp, ?_⟩
  · simp only [gridNz, hs, key, hd, loadData_two h2]
    show Except.ok (rows.map Row.z).length = _
    simp
  · simp only [gridZ, hs, key, hd, loadData_two h2]; rfl
  · intro j r hr
    obtain ⟨hlo, hhi⟩ := hpos r (List.mem_of_getElem? hr)
    have hkr : (0 : ℝ) < (k : ℝ) - 1 := by
      have : (2 : ℝ) ≤ k := by exact_mod_cast hk2
      linarith
    have val : ∀ l < k, (logspaceList (log10 r.lo) (log10 r.hi) k)[l]? =
        some (r.lo ^ (1 - (l : ℝ) / ((k : ℝ) - 1)) * r.hi ^ ((l : ℝ) / ((k : ℝ) - 1))) := by
      intro l hl
      rw [logspaceList, List.getElem?_map, List.getElem?_range hl]
      simp only [Option.map_some, Option.some.injEq]
      rw [logspace, linspace, log10, log10]
      have e : Real.logb 10 r.lo + (l : ℝ) * ((Real.logb 10 r.hi - Real.logb 10 r.lo) / ((k : ℝ) - 1)) =
          Real.logb 10 r.lo * (1 - (l : ℝ) / ((k : ℝ) - 1)) + Real.logb 10 r.hi * ((l : ℝ) / ((k : ℝ) - 1)) := by
        field_simp
        ring
      rw [e, Real.rpow_add (by norm_num), Real.rpow_mul (by norm_num), Real.rpow_mul (by norm_num),
        Real.rpow_logb (by norm_num) (by norm_num) hlo, Real.rpow_logb (by norm_num) (by norm_num) hhi]
    refine ⟨_, by rw [List.getElem?_map, hr]; rfl, by simp [logspaceList], ?_, ?_, val⟩
    · rw [val 0 (by omega)]; simp
    · rw [val (k - 1) (by omega)]
      have : ((k - 1 : ℕ) : ℝ) = (k : ℝ) - 1 := by rw [Nat.cast_sub (by omega)]; simp
      rw [this, div_self hkr.ne']
      simp

/-- C112: with a file of one row the occupation model cannot be used: `len` of a number is a `TypeError`, and adding an axis to a
number an `IndexError`. -/
theorem C112_one_row (r : Row) (hs : s.observablesFile = some (some f)) (hf : fs f = some [r]) (i : Inputs) (p : CacciatoParams) :
    gridNz fs s = .error .typeError ∧ gridZ fs s = .error .indexError ∧ gridObs fs s = .error .typeError ∧
      cacciato fs s i p = .error .typeError := by
  have hd : data fs s = .ok (some (.scalars r.z r.lo r.hi)) := by simp only [data, hs, key, ok_bind, hf]; rfl
  have hn : gridNz fs s = .error .typeError := by simp only [gridNz, hs, key, hd]; rfl
  have hb : gridBins s = .ok 1 := by simp [gridBins, hs, key]; rfl
  refine ⟨hn, by simp only [gridZ, hs, key, hd]; rfl, ?_, by rw [cacciato, hn]; rfl⟩
  unfold gridObs
  rw [hb, ok_bind]
  rw [mapM_error .typeError _ _ (by simp) (fun b _ => by rw [hn]; rfl)]
  rfl

/-- C112: with a file nothing but the file and the number of observables matters: the bin settings are ignored and may be missing. -/
theorem C112_file_only (s' : Settings) (hs : s.observablesFile = some (some f)) (hs' : s'.observablesFile = some (some f))
    (hk : s.nobs = s'.nobs) (i : Inputs) (p : CacciatoParams) : cacciato fs s i p = cacciato fs s' i p := by
  have hd : data fs s = data fs s' := by simp only [data, hs, hs']
  have hb : gridBins s = gridBins s' := by simp only [gridBins, hs, hs']; rfl
  have hn : gridNz fs s = gridNz fs s' := by simp only [gridNz, hs, hs', hd]; rfl
  have hz : gridZ fs s = gridZ fs s' := by simp only [gridZ, hs, hs', hd]; rfl
  have hlo : logObsMin fs s = logObsMin fs s' := by simp only [logObsMin, hs, hs', hd]; rfl
  have hhi : logObsMax fs s = logObsMax fs s' := by simp only [logObsMax, hs, hs', hd]; rfl
  have hno : nobs s = nobs s' := by simp only [nobs, hk]
  simp only [cacciato, gridObs, hb, hn, hz, hlo, hhi, hno]

end File

/-! ## With bin settings -/

section Bins

variable {fs : String → Option (List Row)} {s : Settings} {omin omax zmin zmax : List ℝ} {n k : ℕ}

theorem gridNz_bins (hs : s.observablesFile = some none) (hn : s.nz = some n) : gridNz fs s = .ok n := by
  simp only [gridNz, hs, key, hn]; rfl

theorem gridZ_bins (hs : s.observablesFile = some none) (hzmin : s.zmin = some zmin) (hzmax : s.zmax = some zmax)
    (hn : s.nz = some n) : gridZ fs s = .ok ((zmin.zip zmax).map fun ab => linspaceList ab.1 ab.2 n) := by
  simp only [gridZ, hs, key, hzmin, hzmax]
  exact mapM_ok _ _ _ (fun a _ => by rw [gridNz_bins hs hn]; rfl)

theorem logObsMin_bins (hs : s.observablesFile = some none) (h : s.obsMin = some omin) (hn : s.nz = some n) :
    logObsMin fs s = .ok (omin.map fun a => List.replicate n a) := by
  simp only [logObsMin, hs, key, h]
  exact mapM_ok _ _ _ (fun a _ => by rw [gridNz_bins hs hn]; rfl)

theorem logObsMax_bins (hs : s.observablesFile = some none) (h : s.obsMax = some omax) (hn : s.nz = some n) :
    logObsMax fs s = .ok (omax.map fun a => List.replicate n a) := by
  simp only [logObsMax, hs, key, h]
  exact mapM_ok _ _ _ (fun a _ => by rw [gridNz_bins hs hn]; rfl)

theorem at2_replicate (l : List ℝ) (b j : ℕ) (a : ℝ) (h : l[b]? = some a) (hj : j < n) :
    at2 (l.map fun a => List.replicate n a) b j = .ok a := by
  simp [at2, h, hj]

theorem at2_out (l : List ℝ) (b j : ℕ) (h : l.length ≤ b) :
    at2 (l.map fun a => List.replicate n a) b j = .error .indexError := by
  simp [at2, h]

theorem gridObs_bins (hs : s.observablesFile = some none) (homin : s.obsMin = some omin) (homax : s.obsMax = some omax)
    (hn : s.nz = some n) (hk : s.nobs = some k) (h0 : omin ≠ []) (hn0 : 0 < n) (hl : omin.length ≤ omax.length) :
    gridObs fs s = .ok ((omin.zip omax).map fun ab => List.replicate n (logspaceList ab.1 ab.2 k)) := by
  have hb : gridBins s = .ok omin.length := by simp [gridBins, hs, key, homin]; rfl
  have hlen : (omin.zip omax).length = omin.length := by simp [hl]
  have hrow : ∀ b ∈ List.range omin.length, (do
      let n ← gridNz fs s
      (List.range n).mapM fun j => do
        let lo ← at2 (← logObsMin fs s) b j
        let hi ← at2 (← logObsMax fs s) b j
        return logspaceList lo hi (← nobs s)) =
      Except.ok ((fun ab : ℝ × ℝ => List.replicate n (logspaceList ab.1 ab.2 k)) ((omin.zip omax).getD b (0, 0))) := by
    intro b hbb
    have hb' : b < omin.length := by simpa using hbb
    have hb2 : b < omax.length := by omega
    have h1 : omin[b]? = some omin[b] := List.getElem?_eq_getElem hb'
    have h2 : omax[b]? = some omax[b] := List.getElem?_eq_getElem hb2
    have hz : (omin.zip omax).getD b (0, 0) = (omin[b], omax[b]) := by
      simp [List.getD_eq_getElem?_getD, hb', hb2]
    rw [gridNz_bins hs hn, hz]
    show (List.range n).mapM _ = _
    rw [mapM_ok (fun _ => logspaceList omin[b] omax[b] k)]
    · simp [List.map_const']
    · intro j hj
      have hj' : j < n := by simpa using hj
      rw [logObsMin_bins hs homin hn, logObsMax_bins hs homax hn]
      show (at2 _ b j >>= fun lo => at2 _ b j >>= fun hi => _) = _
      rw [at2_replicate omin b j _ h1 hj', at2_replicate omax b j _ h2 hj']
      simp only [nobs, key, hk]
      rfl
  have hmap : (List.range omin.length).mapM (fun b => do
      let n ← gridNz fs s
      (List.range n).mapM fun j => do
        let lo ← at2 (← logObsMin fs s) b j
        let hi ← at2 (← logObsMax fs s) b j
        return logspaceList lo hi (← nobs s)) =
      Except.ok ((omin.zip omax).map fun ab => List.replicate n (logspaceList ab.1 ab.2 k)) := by
    rw [mapM_ok _ _ _ hrow, ← hlen]
    exact congrArg Except.ok (map_range_getD (omin.zip omax) (0, 0) fun ab : ℝ × ℝ => List.replicate n (logspaceList ab.1 ab.2 k))
  unfold gridObs
  rw [hb, ok_bind]
  rw [hmap]
  match omin, omax, n, h0, hl, hn0 with
  | a :: _, c :: _, m + 1, _, _, _ => rfl

/-- C112: with bin settings every bin has the same limits at all its redshifts, `10 ** obs_min` to `10 ** obs_max`: the settings are
logarithms (the columns of a file are not). -/
theorem C112_bins (hs : s.observablesFile = some none) (homin : s.obsMin = some omin) (homax : s.obsMax = some omax)
    (hzmin : s.zmin = some zmin) (hzmax : s.zmax = some zmax) (hn : s.nz = some n) (hk : s.nobs = some k)
    (h0 : omin ≠ []) (hn0 : 0 < n) (hk2 : 2 ≤ k) (hl : omin.length ≤ omax.length) :
    gridBins s = .ok omin.length ∧ gridNz fs s = .ok n ∧
      gridZ fs s = .ok ((zmin.zip zmax).map fun ab => (List.range n).map (linspace ab.1 ab.2 n)) ∧
      ∃ o : List Rows, gridObs fs s = .ok o ∧ o.length = omin.length ∧
        ∀ (b j : ℕ) (a c : ℝ), omin[b]? = some a → omax[b]? = some c → j < n → ∃ ob g, o[b]? = some ob ∧ ob.length = n ∧ ob[j]? = some g ∧
          g.length = k ∧ g[0]? = some ((10 : ℝ) ^ a) ∧ g[k - 1]? = some ((10 : ℝ) ^ c) := by
  refine ⟨by simp [gridBins, hs, key, homin]; rfl, gridNz_bins hs hn, gridZ_bins hs hzmin hzmax hn, _,
    gridObs_bins hs homin homax hn hk h0 hn0 hl, by simp [hl], ?_⟩
  intro b j a c ha hc hj
  have hz : (omin.zip omax)[b]? = some (a, c) := by simp [List.getElem?_zip_eq_some, ha, hc]
  have hkr : (0 : ℝ) < (k : ℝ) - 1 := by
    have : (2 : ℝ) ≤ k := by exact_mod_cast hk2
    linarith
  refine ⟨_, logspaceList a c k, by rw [List.getElem?_map, hz]; rfl, by simp, by simp [hj], by simp [logspaceList], ?_, ?_⟩
  · rw [logspaceList, List.getElem?_map, List.getElem?_range (by omega)]
    simp [logspace, linspace]
  · rw [logspaceList, List.getElem?_map, List.getElem?_range (by omega)]
    have : ((k - 1 : ℕ) : ℝ) = (k : ℝ) - 1 := by rw [Nat.cast_sub (by omega)]; simp
    simp only [Option.map_some, Option.some.injEq, logspace, linspace, this]
    congr 1
    field_simp
    ring

/-- C112: fewer upper than lower limits end in an `IndexError`. -/
theorem C112_missing_limit (hs : s.observablesFile = some none) (homin : s.obsMin = some omin) (homax : s.obsMax = some omax)
    (hn : s.nz = some n) (hk : s.nobs = some k) (hn0 : 0 < n) (hl : omax.length < omin.length) :
    gridObs fs s = .error .indexError := by
  have hb : gridBins s = .ok omin.length := by simp [gridBins, hs, key, homin]; rfl
  have key : ∀ m, omax.length < m → m ≤ omin.length → (List.range m).mapM (fun b => do
      let n ← gridNz fs s
      (List.range n).mapM fun j => do
        let lo ← at2 (← logObsMin fs s) b j
        let hi ← at2 (← logObsMax fs s) b j
        return logspaceList lo hi (← nobs s)) = (Except.error PyErr.indexError : Except PyErr (List Rows)) := by
    intro m hm1 hm2
    have hpre : ∀ b ∈ List.range omax.length, (do
        let n ← gridNz fs s
        (List.range n).mapM fun j => do
          let lo ← at2 (← logObsMin fs s) b j
          let hi ← at2 (← logObsMax fs s) b j
          return logspaceList lo hi (← nobs s)) =
        Except.ok ((fun b => List.replicate n (logspaceList (omin.getD b 0) (omax.getD b 0) k)) b) := by
      intro b hbb
      have hb2 : b < omax.length := by simpa using hbb
      have hb' : b < omin.length := by omega
      have h1 : omin[b]? = some omin[b] := List.getElem?_eq_getElem hb'
      have h2 : omax[b]? = some omax[b] := List.getElem?_eq_getElem hb2
      rw [gridNz_bins hs hn]
      show (List.range n).mapM _ = _
      rw [mapM_ok (fun _ => logspaceList (omin.getD b 0) (omax.getD b 0) k)]
      · simp [List.map_const']
      · intro j hj
        have hj' : j < n := by simpa using hj
        rw [logObsMin_bins hs homin hn, logObsMax_bins hs homax hn]
        show (at2 _ b j >>= fun lo => at2 _ b j >>= fun hi => _) = _
        rw [at2_replicate omin b j _ h1 hj', at2_replicate omax b j _ h2 hj']
        simp only [nobs, Hod.key, hk, List.getD_eq_getElem?_getD, h1, h2]
        rfl
    obtain ⟨d, rfl⟩ : ∃ d, m = omax.length + 1 + d := ⟨m - (omax.length + 1), by omega⟩
    rw [List.range_add, List.range_succ, List.append_assoc, List.mapM_append, mapM_ok _ _ _ hpre]
    rw [ok_bind, List.singleton_append, List.mapM_cons, gridNz_bins hs hn, ok_bind]
    rw [mapM_error .indexError _ _ (by simp; omega)]
    · rfl
    · intro j hj
      have hj' : j < n := by simpa using hj
      have h1 : omin[omax.length]? = some omin[omax.length] := List.getElem?_eq_getElem hl
      rw [logObsMin_bins hs homin hn, logObsMax_bins hs homax hn]
      show (at2 _ _ j >>= fun lo => at2 _ _ j >>= fun hi => _) = _
      rw [at2_replicate omin _ j _ h1 hj', at2_out omax _ j le_rfl]
      rfl
  unfold gridObs
  rw [hb, ok_bind]
  rw [key _ hl le_rfl]
  rfl

/-- C112: a dictionary without the key `observables_file` cannot be used, whatever else it contains; without any key (or `None`) the
defaults are used. -/
theorem C112_needs_key (i : Inputs) (p : CacciatoParams) (h : s.observablesFile = none) :
    (cacciato fs s i p = .error .keyError ∧ gridZ fs s = .error .keyError ∧ gridObs fs s = .error .keyError) ∧
      (s.isEmpty = false → initSettings (some s) = s) ∧
      initSettings none = settingsDefaults ∧ initSettings (some ⟨none, none, none, none, none, none, none⟩) = settingsDefaults := by
  refine ⟨⟨?_, ?_, ?_⟩, ?_, rfl, rfl⟩
  · simp only [cacciato, gridNz, h, key]; rfl
  · simp only [gridZ, h, key]; rfl
  · simp only [gridObs, gridBins, h, key]; rfl
  · intro he
    simp [initSettings, he]

/-- C112: the defaults are one bin of log10 observable 8 to 12 and redshift 0 to 0.2, with 15 redshifts and 300 observables;
every field of the grid they give is written out. -/
theorem C112_defaults (fs : String → Option (List Row)) :
    gridBins (initSettings none) = .ok 1 ∧ gridNz fs (initSettings none) = .ok 15 ∧
    gridZ fs (initSettings none) = .ok [(List.range 15).map fun i : ℕ => (i : ℝ) * 0.2 / 14] ∧
    ∃ o : List Rows, gridObs fs (initSettings none) = .ok o ∧ o.length = 1 ∧
      ∀ j < 15, ∃ ob g, o[0]? = some ob ∧ ob.length = 15 ∧ ob[j]? = some g ∧ g.length = 300 ∧
        g[0]? = some ((10 : ℝ) ^ (8 : ℝ)) ∧ g[299]? = some ((10 : ℝ) ^ (12 : ℝ)) := by
  have e8 : (8.0 : ℝ) = 8 := by norm_num
  have e12 : (12.0 : ℝ) = 12 := by norm_num
  obtain ⟨h1, h2, h3, o, h4, h5, h6⟩ := C112_bins (fs := fs) (s := initSettings none) rfl rfl rfl rfl rfl rfl rfl (by simp)
    (by norm_num) (by norm_num) (by simp)
  refine ⟨h1, h2, ?_, o, h4, h5, fun j hj => ?_⟩
  · rw [h3]
    simp only [List.zip_cons_cons, List.zip_nil_left, List.map_cons, List.map_nil]
    refine congrArg (fun x => Except.ok [x]) (List.map_congr_left fun i _ => ?_)
    unfold linspace
    norm_num
    ring
  · obtain ⟨ob, g, a, b, c, d, e, f⟩ := h6 0 j 8.0 12.0 rfl rfl hj
    rw [e8] at e
    rw [e12] at f
    exact ⟨ob, g, a, b, c, d, e, f⟩

/-- C112: a file whose rows are the redshifts of a bin with the limits of the bin (not their logarithms) gives the same occupation
model as the bin settings. -/
theorem C112_file_is_bin (s' : Settings) (f : String) (a c z₁ z₂ : ℝ) (hs : s.observablesFile = some none)
    (homin : s.obsMin = some [a]) (homax : s.obsMax = some [c]) (hzmin : s.zmin = some [z₁]) (hzmax : s.zmax = some [z₂])
    (hn : s.nz = some n) (hn2 : 2 ≤ n) (hk : s.nobs = some k) (hs' : s'.observablesFile = some (some f)) (hk' : s'.nobs = some k)
    (hf : fs f = some ((List.range n).map fun j => ⟨linspace z₁ z₂ n j, (10 : ℝ) ^ a, (10 : ℝ) ^ c⟩))
    (i : Inputs) (p : CacciatoParams) :
    cacciato fs s' i p = cacciato fs s i p ∧ ∃ h, cacciato fs s i p = .ok h := by
  set rows : List Row := (List.range n).map fun j => ⟨linspace z₁ z₂ n j, (10 : ℝ) ^ a, (10 : ℝ) ^ c⟩ with hrows
  have hlen : rows.length = n := by simp [hrows]
  have h2 : 2 ≤ rows.length := by omega
  have hd : data fs s' = .ok (some (loadData rows)) := by simp only [data, hs', key, ok_bind, hf]; rfl
  have hN : gridNz fs s' = .ok n := by
    simp only [gridNz, hs', key, hd, loadData_two h2]
    show Except.ok (rows.map Row.z).length = _
    simp [hlen]
  have hZ : gridZ fs s' = .ok [linspaceList z₁ z₂ n] := by
    simp only [gridZ, hs', key, hd, loadData_two h2]
    show Except.ok [rows.map Row.z] = _
    simp [hrows, linspaceList, Function.comp_def]
  have hlog : ∀ x : ℝ, log10 ((10 : ℝ) ^ x) = x := fun x => Real.logb_rpow (by norm_num) (by norm_num)
  have hO : gridObs fs s' = .ok [List.replicate n (logspaceList a c k)] := by
    rw [gridObs_file hs' hf h2 hk']
    simp [hrows, hlog, Function.comp_def, List.map_const']
  have hO' : gridObs fs s = .ok [List.replicate n (logspaceList a c k)] := by
    rw [gridObs_bins hs homin homax hn hk (by simp) (by omega) (by simp)]
    rfl
  have hZ' : gridZ fs s = .ok [linspaceList z₁ z₂ n] := by
    rw [gridZ_bins hs hzmin hzmax hn]; rfl
  have hno : nobs s = .ok k := by simp [nobs, hk, key]
  have hno' : nobs s' = .ok k := by simp [nobs, hk', key]
  constructor
  · rw [cacciato, cacciato, hN, hZ, hO, hZ', hO', hno, hno', gridNz_bins hs hn]
  · rw [cacciato, hZ', hO', hno, gridNz_bins hs hn]
    exact ⟨_, rfl⟩

end Bins

/-! ## The order of the rows -/

theorem sortNodes_perm {l₁ l₂ : List (ℝ × ℝ)} (h : l₁.Perm l₂) (hn : (l₁.map Prod.fst).Nodup) : sortNodes l₁ = sortNodes l₂ := by
  classical
  unfold sortNodes
  have : Std.Total (fun a b : ℝ × ℝ => a.1 ≤ b.1) := ⟨fun a b => le_total _ _⟩
  have : IsTrans (ℝ × ℝ) (fun a b => a.1 ≤ b.1) := ⟨fun a b c => le_trans⟩
  have p₁ := List.perm_insertionSort (fun a b : ℝ × ℝ => a.1 ≤ b.1) l₁
  have p₂ := List.perm_insertionSort (fun a b : ℝ × ℝ => a.1 ≤ b.1) l₂
  refine List.Perm.eq_of_pairwise ?_ (List.pairwise_insertionSort _ l₁) (List.pairwise_insertionSort _ l₂)
    (p₁.trans (h.trans p₂.symm))
  intro a b ha hb hab hba
  have ha' : a ∈ l₁ := p₁.mem_iff.1 ha
  have hb' : b ∈ l₁ := h.mem_iff.2 (p₂.mem_iff.1 hb)
  exact List.inj_on_of_nodup_map hn ha' hb' (le_antisymm hab hba)

theorem interp1d_congr (fill : Fill) (n : ℕ) (x y x' y' : ℕ → ℝ) (q : ℝ) (hn : 2 ≤ n) (hx : ∀ i < n, x i = x' i)
    (hy : ∀ i < n, y i = y' i) : interp1d fill n x y q = interp1d fill n x' y' q := by
  have hs : searchsorted n x q = searchsorted n x' q := by
    unfold searchsorted
    congr 1
    apply Finset.filter_congr
    intro i hi
    rw [hx i (by simpa using hi)]
  have hseg : Lib.segment n x q = Lib.segment n x' q := by rw [Lib.segment, Lib.segment, hs]
  have hlt : Lib.segment n x' q < n := by
    unfold Lib.segment
    omega
  have hl : interpLinear n x y q = interpLinear n x' y' q := by
    rw [interpLinear, interpLinear, hseg, hx _ hlt, hy _ hlt, hx _ (by omega), hy _ (by omega)]
  cases fill with
  | extrapolate => exact hl
  | value c => simp only [interp1d, hl, hx 0 (by omega), hx (n - 1) (by omega)]

theorem interp1dAny_sorted (fill : Fill) (n : ℕ) (x y : ℕ → ℝ) (q : ℝ) (hn : 2 ≤ n) (hx : ∀ i j, i < j → j < n → x i ≤ x j) :
    interp1dAny fill n x y q = interp1d fill n x y q := by
  classical
  have hs : sortNodes ((List.range n).map fun i => (x i, y i)) = (List.range n).map fun i => (x i, y i) := by
    unfold sortNodes
    apply List.Pairwise.insertionSort_eq
    rw [List.pairwise_map]
    refine List.Pairwise.imp_of_mem ?_ (List.pairwise_lt_range (n := n))
    intro i j _ hj hij
    exact hx i j hij (by simpa using hj)
  have hget : ∀ i < n, ((List.range n).map fun i => (x i, y i)).getD i (0, 0) = (x i, y i) := by
    intro i hi
    simp [List.getD_eq_getElem?_getD, hi]
  rw [interp1dAny, hs, interpList]
  have hlen : ((List.range n).map fun i => (x i, y i)).length = n := by simp
  rw [hlen]
  exact interp1d_congr fill n _ _ _ _ q hn (fun i hi => by rw [hget i hi]) (fun i hi => by rw [hget i hi])

/-- C112: on increasing redshifts (which the bin settings give) the results are those of the model of the occupation, `C33` to `C45`. -/
theorem C112_increasing (h : Base) (b i : ℕ) (hn : 2 ≤ h.nz) (hz : ∀ j l, j < l → l < h.nz → h.z b j < h.z b l) :
    h.result .numberDensityCen b i = h.numberDensityCen b i ∧ h.result .numberDensitySat b i = h.numberDensitySat b i ∧
      h.result .numberDensity b i = h.numberDensity b i ∧ h.result .fC b i = h.fC b i ∧ h.result .fS b i = h.fS b i ∧
      h.result .avgHaloMassCen b i = h.avgHaloMassCen b i ∧ h.result .avgHaloMassSat b i = h.avgHaloMassSat b i ∧
      h.result .avgHaloMass b i = h.avgHaloMass b i ∧ h.result .galaxyLinearBiasCen b i = h.galaxyLinearBiasCen b i ∧
      h.result .galaxyLinearBiasSat b i = h.galaxyLinearBiasSat b i ∧ h.result .galaxyLinearBias b i = h.galaxyLinearBias b i ∧
      ∀ m, h.result (.hodCen m) b i = h.hodCen b i m ∧ h.result (.hodSat m) b i = h.hodSat b i m ∧
        h.result (.hod m) b i = h.hod b i m := by
  have e : ∀ q : Quantity, h.result q b i = interp1d q.fill h.nz (h.z b) (q.data h b) (h.zVec i) := fun q =>
    interp1dAny_sorted _ _ _ _ _ hn (fun j l h1 h2 => (hz j l h1 h2).le)
  refine ⟨e _, e _, e _, e _, e _, e _, e _, e _, e _, e _, e _, fun m => ⟨e _, e _, e _⟩⟩

theorem data_congr (h h' : Base) (q : Quantity) (b j b' j' : ℕ) (hnzv : h.nzv = h'.nzv) (hzv : h.zVec = h'.zVec) (hnm : h.nm = h'.nm)
    (hm : h.mass = h'.mass) (hd : h.dndlnm = h'.dndlnm) (hb : h.haloBias = h'.haloBias) (hz : h.z b j = h'.z b' j')
    (hc : h.occCen b j = h'.occCen b' j') (hs : h.occSat b j = h'.occSat b' j') : q.data h b j = q.data h' b' j' := by
  have hdi : ∀ m, h.dndlnmInt b j m = h'.dndlnmInt b' j' m := fun m => by
    simp only [Base.dndlnmInt, hnzv, hzv, hd, hz]
  have hbi : ∀ m, h.haloBiasInt b j m = h'.haloBiasInt b' j' m := fun m => by
    simp only [Base.haloBiasInt, hnzv, hzv, hb, hz]
  have hn1 : h.ncen b j = h'.ncen b' j' := by simp only [Base.ncen, Base.massIntegral, hnm, hm, hdi, hc]
  have hn2 : h.nsat b j = h'.nsat b' j' := by simp only [Base.nsat, Base.massIntegral, hnm, hm, hdi, hs]
  have hn3 : h.ntot b j = h'.ntot b' j' := by simp only [Base.ntot, Base.massIntegral, Base.occ, hnm, hm, hdi, hc, hs]
  cases q <;>
    simp only [Quantity.data, hn1, hn2, hn3, Base.meanMassIntegral, Base.biasIntegral, Base.occ, hnm, hm, hdi, hbi, hc, hs]

/-- the occupation model at one row of the file -/
noncomputable def rowBase (i : Inputs) (p : CacciatoParams) (k : ℕ) (r : Row) : Base :=
  cacciatoBase i p 1 k [[r.z]] [[logspaceList (log10 r.lo) (log10 r.hi) k]]

theorem cacciato_file {fs : String → Option (List Row)} {s : Settings} {f : String} {rows : List Row} {k : ℕ}
    (hs : s.observablesFile = some (some f)) (hf : fs f = some rows) (h2 : 2 ≤ rows.length) (hk : s.nobs = some k)
    (i : Inputs) (p : CacciatoParams) :
    cacciato fs s i p = .ok (cacciatoBase i p rows.length k [rows.map Row.z]
      [rows.map fun r => logspaceList (log10 r.lo) (log10 r.hi) k]) := by
  have hd : data fs s = .ok (some (loadData rows)) := by simp only [data, hs, key, ok_bind, hf]; rfl
  have hN : gridNz fs s = .ok rows.length := by
    simp only [gridNz, hs, key, hd, loadData_two h2]
    show Except.ok (rows.map Row.z).length = _
    simp
  have hZ : gridZ fs s = .ok [rows.map Row.z] := by simp only [gridZ, hs, key, hd, loadData_two h2]; rfl
  have hno : nobs s = .ok k := by simp [nobs, hk, key]
  rw [cacciato, hN, hZ, gridObs_file hs hf h2 hk, hno]
  rfl

theorem result_file (i : Inputs) (p : CacciatoParams) (k : ℕ) (rows : List Row) (q : Quantity) (l : ℕ) :
    (cacciatoBase i p rows.length k [rows.map Row.z] [rows.map fun r => logspaceList (log10 r.lo) (log10 r.hi) k]).result q 0 l =
      interpList q.fill (sortNodes (rows.map fun r => (r.z, q.data (rowBase i p k r) 0 0))) (i.zVec l) := by
  rw [Base.result, interp1dAny]
  show interpList _ (sortNodes ((List.range rows.length).map _)) (i.zVec l) = _
  congr 2
  rw [← map_range_getD rows ⟨0, 0, 0⟩ (fun r => (r.z, q.data (rowBase i p k r) 0 0))]
  apply List.map_congr_left
  intro j hj
  have hj' : j < rows.length := by simpa using hj
  have hr : rows[j]? = some rows[j] := List.getElem?_eq_getElem hj'
  have hg : rows.getD j ⟨0, 0, 0⟩ = rows[j] := by simp [List.getD_eq_getElem?_getD, hr]
  rw [hg]
  refine Prod.ext ?_ ?_
  · simp [cacciatoBase, List.getD_eq_getElem?_getD, hr]
  · refine data_congr _ _ q 0 j 0 0 rfl rfl rfl rfl rfl rfl ?_ ?_ ?_
    · simp [cacciatoBase, rowBase, List.getD_eq_getElem?_getD, hr]
    · funext m
      simp [cacciatoBase, rowBase, List.getD_eq_getElem?_getD, hr]
    · funext m
      simp [cacciatoBase, rowBase, List.getD_eq_getElem?_getD, hr]

/-- C112: the order of the rows of the file does not matter (for distinct redshifts). -/
theorem C112_row_order (fs : String → Option (List Row)) (s s' : Settings) (f f' : String) (rows rows' : List Row) (k : ℕ)
    (hs : s.observablesFile = some (some f)) (hs' : s'.observablesFile = some (some f')) (hf : fs f = some rows)
    (hf' : fs f' = some rows') (hk : s.nobs = some k) (hk' : s'.nobs = some k) (h2 : 2 ≤ rows.length)
    (hp : rows.Perm rows') (hd : (rows.map Row.z).Nodup) (i : Inputs) (p : CacciatoParams) :
    ∃ h h', cacciato fs s i p = .ok h ∧ cacciato fs s' i p = .ok h' ∧ ∀ (q : Quantity) (l : ℕ), h.result q 0 l = h'.result q 0 l := by
  have h2' : 2 ≤ rows'.length := hp.length_eq ▸ h2
  refine ⟨_, _, cacciato_file hs hf h2 hk i p, cacciato_file hs' hf' h2' hk' i p, ?_⟩
  intro q l
  rw [result_file, result_file, sortNodes_perm (hp.map _) (by simpa [Function.comp_def] using hd)]

/-! ## Examples -/

/-- two files with the same three rows in different order, and one with a single row -/
noncomputable def demoFiles : String → Option (List Row) := fun f =>
  if f = "up.txt" then some [⟨0.1, 1e9, 1e12⟩, ⟨0.2, 2e9, 1e12⟩, ⟨0.3, 5e9, 2e12⟩]
  else if f = "down.txt" then some [⟨0.3, 5e9, 2e12⟩, ⟨0.2, 2e9, 1e12⟩, ⟨0.1, 1e9, 1e12⟩]
  else if f = "one.txt" then some [⟨0.1, 1e9, 1e12⟩] else none

/-- settings with a file and 300 observables, nothing else -/
def demoSettings (f : String) : Settings := ⟨some (some f), none, none, none, none, none, some 300⟩

/-- non-vacuity: a file of three rows -/
example : ∃ o : Rows, gridObs demoFiles (demoSettings "up.txt") = .ok [o] ∧ o.length = 3 ∧
    ∃ g : List ℝ, o[1]? = some g ∧ g.length = 300 ∧ g[0]? = some (2e9 : ℝ) ∧ g[299]? = some (1e12 : ℝ) := by
  obtain ⟨-, -, -, o, h1, h2, h3⟩ := C112_file (fs := demoFiles) (s := demoSettings "up.txt") (f := "up.txt")
    (rows := [⟨0.1, 1e9, 1e12⟩, ⟨0.2, 2e9, 1e12⟩, ⟨0.3, 5e9, 2e12⟩]) (k := 300) rfl (by simp [demoFiles]) (by simp)
    (by
      intro r hr
      simp only [List.mem_cons, List.not_mem_nil, or_false] at hr
      rcases hr with rfl | rfl | rfl <;> norm_num) rfl (by norm_num)
  obtain ⟨g, a, b, c, d, -⟩ := h3 1 ⟨0.2, 2e9, 1e12⟩ rfl
  exact ⟨o, h1, h2, g, a, b, c, d⟩

/-- non-vacuity: a file of one row is refused -/
example (i : Inputs) (p : CacciatoParams) : cacciato demoFiles (demoSettings "one.txt") i p = .error .typeError :=
  (C112_one_row ⟨0.1, 1e9, 1e12⟩ rfl (by simp [demoFiles]) i p).2.2.2

/-- non-vacuity: the same rows upside down -/
example (i : Inputs) (p : CacciatoParams) : ∃ h h', cacciato demoFiles (demoSettings "up.txt") i p = .ok h ∧
    cacciato demoFiles (demoSettings "down.txt") i p = .ok h' ∧ h.z ≠ h'.z ∧
    ∀ (q : Quantity) (l : ℕ), h.result q 0 l = h'.result q 0 l := by
  obtain ⟨h, h', e1, e2, e3⟩ := C112_row_order demoFiles (demoSettings "up.txt") (demoSettings "down.txt") "up.txt" "down.txt"
    [⟨0.1, 1e9, 1e12⟩, ⟨0.2, 2e9, 1e12⟩, ⟨0.3, 5e9, 2e12⟩] [⟨0.3, 5e9, 2e12⟩, ⟨0.2, 2e9, 1e12⟩, ⟨0.1, 1e9, 1e12⟩] 300 rfl rfl
    (by simp [demoFiles]) (by simp [demoFiles]) rfl rfl (by simp)
    (List.reverse_perm [(⟨0.3, 5e9, 2e12⟩ : Row), ⟨0.2, 2e9, 1e12⟩, ⟨0.1, 1e9, 1e12⟩]) (by norm_num) i p
  refine ⟨h, h', e1, e2, ?_, e3⟩
  rw [cacciato_file (f := "up.txt") (k := 300) rfl (by simp [demoFiles]; rfl) (by simp) rfl] at e1
  rw [cacciato_file (f := "down.txt") (k := 300) rfl (by simp [demoFiles]; rfl) (by simp) rfl] at e2
  obtain rfl := Except.ok.inj e1
  obtain rfl := Except.ok.inj e2
  intro hz
  have := congrFun (congrFun hz 0) 0
  norm_num [cacciatoBase] at this

/-- non-vacuity: the default settings -/
example (fs : String → Option (List Row)) : gridBins settingsDefaults = .ok 1 ∧ ∃ o : List Rows, gridObs fs settingsDefaults = .ok o ∧
    o.length = 1 ∧ ∃ ob g, o[0]? = some ob ∧ ob.length = 15 ∧ ob[3]? = some g ∧ g.length = 300 ∧
      g[0]? = some ((10 : ℝ) ^ (8.0 : ℝ)) := by
  obtain ⟨h1, -, -, o, h2, h3, h4⟩ := C112_bins (fs := fs) (s := settingsDefaults) rfl rfl rfl rfl rfl rfl rfl (by simp) (by norm_num)
    (by norm_num) (by simp)
  obtain ⟨ob, g, a, b, c, d, e, -⟩ := h4 0 3 8.0 12.0 rfl rfl (by norm_num)
  exact ⟨h1, o, h2, h3, ob, g, a, b, c, d, e⟩

/-- non-vacuity: two lower and one upper limit -/
example (fs : String → Option (List Row)) :
    gridObs fs ⟨some none, some [9, 10], some [12], some [0], some [0.5], some 15, some 300⟩ = .error .indexError :=
  C112_missing_limit (n := 15) (k := 300) rfl rfl rfl rfl rfl (by norm_num) (by simp)

/-- non-vacuity: the example of the documentation, `hod_settings={nbins: 6}`, has no key that is read -/
example (i : Inputs) (p : CacciatoParams) :
    cacciato demoFiles ⟨none, none, none, none, none, some 6, none⟩ i p = .error .keyError :=
  (C112_needs_key i p rfl).1.1

/-- non-vacuity: a bin and the file that says the same -/
example (i : Inputs) (p : CacciatoParams) :
    cacciato (fun _ => some ((List.range 15).map fun j => ⟨linspace 0 0.5 15 j, (10 : ℝ) ^ (9 : ℝ), (10 : ℝ) ^ (12 : ℝ)⟩))
        (demoSettings "bin.txt") i p =
      cacciato (fun _ => some ((List.range 15).map fun j => ⟨linspace 0 0.5 15 j, (10 : ℝ) ^ (9 : ℝ), (10 : ℝ) ^ (12 : ℝ)⟩))
        ⟨some none, some [9], some [12], some [0], some [0.5], some 15, some 300⟩ i p :=
  (C112_file_is_bin (n := 15) (k := 300) (demoSettings "bin.txt") "bin.txt" 9 12 0 0.5 rfl rfl rfl rfl rfl rfl (by norm_num) rfl rfl rfl rfl
    i p).1

/-- non-vacuity: leftover bin settings -/
example (i : Inputs) (p : CacciatoParams) :
    cacciato demoFiles ⟨some (some "up.txt"), some [9, 10], some [3], none, some [], some 0, some 300⟩ i p =
      cacciato demoFiles (demoSettings "up.txt") i p :=
  C112_file_only (demoSettings "up.txt") rfl rfl rfl i p

/-- non-vacuity: increasing redshifts -/
example (i : Inputs) (p : CacciatoParams) :
    (cacciatoBase i p 3 300 [[0.1, 0.2, 0.3]] [[[1, 2], [1, 2], [1, 2]]]).result .fC 0 0 =
      (cacciatoBase i p 3 300 [[0.1, 0.2, 0.3]] [[[1, 2], [1, 2], [1, 2]]]).fC 0 0 := by
  refine (C112_increasing _ 0 0 (by simp [cacciatoBase]) ?_).2.2.2.1
  intro j l h1 h2
  have h2' : l < 3 := h2
  interval_cases l <;> interval_cases j <;> norm_num [cacciatoBase]

end Verif.Hod

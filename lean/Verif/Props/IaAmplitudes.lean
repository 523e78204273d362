import Verif.Model.Ia
import Verif.Spec.Grid
import Verif.Lemmas.Simpson
import Mathlib.Tactic.Linarith
import Mathlib.Tactic.NormNum
import Mathlib.Analysis.SpecialFunctions.Pow.Continuity
import Mathlib.Analysis.SpecialFunctions.Log.Base

/-! Properties C49, C50, C52, C75: alignment amplitudes and their luminosity dependence. -/

namespace Verif.Ia

open Verif.Lib Verif.Spec Finset

/-! ## Counting in bins -/

open Classical in
theorem indicator_telescope (n : ℕ) (e : ℕ → ℝ) (he : ∀ i < n, e i ≤ e (i + 1)) (v : ℝ) :
    (∑ i ∈ range n, if e i ≤ v ∧ v < e (i + 1) then 1 else 0) = if e 0 ≤ v ∧ v < e n then 1 else 0 := by
  have hmono : ∀ m ≤ n, e 0 ≤ e m := by
    intro m
    induction m with
    | zero => intro _; exact le_rfl
    | succ m ih => intro hm; exact (ih (by omega)).trans (he m (by omega))
  induction n with
  | zero =>
    have : ¬ (e 0 ≤ v ∧ v < e 0) := by rintro ⟨h, h'⟩; linarith
    simp [this]
  | succ n ih =>
    rw [sum_range_succ, ih (fun i hi => he i (by omega)) (fun m hm => hmono m (by omega))]
    have h1 := he n (by omega)
    have h2 := hmono n (by omega)
    by_cases a : e 0 ≤ v <;> by_cases b : v < e n <;> by_cases c : e n ≤ v <;> by_cases d : v < e (n + 1) <;>
      simp [a, b, c, d] <;> linarith

theorem sum_countP {α : Type} (n : ℕ) (p : ℕ → α → Prop) (q : α → Prop) (l : List α)
    [∀ i v, Decidable (p i v)] [∀ v, Decidable (q v)]
    (h : ∀ v ∈ l, (∑ i ∈ range n, if p i v then 1 else 0) = if q v then 1 else 0) :
    ∑ i ∈ range n, l.countP (fun v => decide (p i v)) = l.countP fun v => decide (q v) := by
  induction l with
  | nil => simp
  | cons a l ih =>
    simp only [List.countP_cons, sum_add_distrib, decide_eq_true_eq]
    rw [ih fun v hv => h v (by simp [hv])]
    congr 1
    exact h a (by simp)

/-! ## C49 -/

namespace Amplitudes

variable (a : Amplitudes)

theorem zEdge_mono (hn : 2 ≤ a.nz) (hz : SortedOn a.nz a.zVec) (i : ℕ) (hi : i < a.nz) :
    a.zEdge i < a.zEdge (i + 1) := by
  have h01 := hz 0 1 (by omega) (by omega)
  unfold zEdge
  simp only [hi, if_true]
  by_cases h : i + 1 < a.nz
  · simp only [h, if_true]; linarith [hz i (i + 1) (by omega) h]
  · have : a.nz - 1 = i := by omega
    simp only [h, if_false, this]; linarith

end Amplitudes

open Classical in
/-- C49: for a strictly increasing redshift grid every galaxy between the outer edges is used in exactly one
redshift bin and no other galaxy is used: the numbers of galaxies in the bins add up to the number of galaxies
with redshift between half a step below the first and half a step above the last grid point. -/
theorem C49_partition (a : Amplitudes) (hn : 2 ≤ a.nz) (hz : SortedOn a.nz a.zVec) (gals : List (ℝ × ℝ)) :
    ∑ i ∈ range a.nz, (a.loglumBin gals i).length =
      gals.countP (fun g => decide (a.zVec 0 - 0.5 * (a.zVec 1 - a.zVec 0) ≤ g.1 ∧
        g.1 < a.zVec (a.nz - 1) + 0.5 * (a.zVec 1 - a.zVec 0))) := by
  have e0 : a.zEdge 0 = a.zVec 0 - 0.5 * (a.zVec 1 - a.zVec 0) := by
    simp only [Amplitudes.zEdge]; rw [if_pos (by omega)]
  have en : a.zEdge a.nz = a.zVec (a.nz - 1) + 0.5 * (a.zVec 1 - a.zVec 0) := by
    simp only [Amplitudes.zEdge]; rw [if_neg (by omega)]
  rw [← e0, ← en]
  have key := sum_countP a.nz (fun i g => a.zEdge i ≤ g.1 ∧ g.1 < a.zEdge (i + 1))
    (fun g : ℝ × ℝ => a.zEdge 0 ≤ g.1 ∧ g.1 < a.zEdge a.nz) gals
    (fun v _ => by
      convert indicator_telescope a.nz a.zEdge (fun i hi => (a.zEdge_mono hn hz i hi).le) v.1)
  rw [← key]
  refine sum_congr rfl fun i _ => ?_
  rw [Amplitudes.loglumBin, List.length_map, List.countP_eq_length_filter]

/-- C49: no galaxy is in two bins. -/
theorem C49_disjoint (a : Amplitudes) (hn : 2 ≤ a.nz) (hz : SortedOn a.nz a.zVec) (v : ℝ) (i j : ℕ)
    (hi : i < a.nz) (hj : j < a.nz) (h1 : a.zEdge i ≤ v ∧ v < a.zEdge (i + 1))
    (h2 : a.zEdge j ≤ v ∧ v < a.zEdge (j + 1)) : i = j := by
  have key : ∀ d i, i + 1 + d ≤ a.nz → a.zEdge (i + 1) ≤ a.zEdge (i + 1 + d) := by
    intro d
    induction d with
    | zero => intro i _; exact le_rfl
    | succ d ih =>
      intro i h
      exact (ih i (by omega)).trans (a.zEdge_mono hn hz (i + 1 + d) (by omega)).le
  rcases Nat.lt_trichotomy i j with h | h | h
  · obtain ⟨d, rfl⟩ := Nat.exists_eq_add_of_lt h
    have := key d i (by omega)
    rw [show i + 1 + d = i + d + 1 by ring] at this
    linarith [h1.2, h2.1]
  · exact h
  · obtain ⟨d, rfl⟩ := Nat.exists_eq_add_of_lt h
    have := key d j (by omega)
    rw [show j + 1 + d = j + d + 1 by ring] at this
    linarith [h1.1, h2.2]

/-- C49: a galaxy exactly at a grid redshift is counted in that redshift's bin iff the step above it is more
than half the *first* step (the half width is taken from the first step only). -/
theorem C49_grid_redshift (a : Amplitudes) (hn : 2 ≤ a.nz) (hz : SortedOn a.nz a.zVec) (i : ℕ) (hi : i < a.nz) :
    (a.zEdge i ≤ a.zVec i ∧ a.zVec i < a.zEdge (i + 1)) ↔
      (i + 1 = a.nz ∨ 0.5 * (a.zVec 1 - a.zVec 0) < a.zVec (i + 1) - a.zVec i) := by
  have h01 := hz 0 1 (by omega) (by omega)
  unfold Amplitudes.zEdge
  simp only [hi, if_true]
  by_cases h : i + 1 < a.nz
  · have : i + 1 ≠ a.nz := by omega
    simp only [h, if_true, this, false_or]
    constructor
    · rintro ⟨-, h2⟩; linarith
    · intro h2; constructor <;> linarith
  · have h1 : a.nz - 1 = i := by omega
    have h2 : i + 1 = a.nz := by omega
    simp only [h2, true_or, iff_true, lt_irrefl, if_false, h1]
    constructor <;> linarith

/-- grids for the examples -/
noncomputable def demoAmp (z : ℕ → ℝ) (nz : ℕ) (file : Option (List (ℝ × ℝ))) : Amplitudes where
  nz := nz
  zVec := z
  centralDep := "luminosity"
  satelliteDep := "luminosity"
  gamma2h := 5
  betaCen := 0
  betaTwo := none
  gamma1h := 7
  betaSat := 0
  mpivotCen := none
  mpivotSat := none
  lpivotCen := some 1
  lpivotSat := some 1
  lumFileCen := file
  lumFileSat := file

/-- both sides occur: on a regular grid every redshift is in its own bin, on 0, 1, 1.3, 3 the galaxies at
redshift 1 are counted at another grid point -/
example : (∀ i < 4, ((demoAmp (fun i => i) 4 none).zEdge i ≤ (i : ℝ) ∧ (i : ℝ) < (demoAmp (fun i => i) 4 none).zEdge (i + 1))) ∧
    ¬ ((demoAmp (fun i => if i = 0 then 0 else if i = 1 then 1 else if i = 2 then 1.3 else i) 4 none).zEdge 1 ≤ 1 ∧
      (1 : ℝ) < (demoAmp (fun i => if i = 0 then 0 else if i = 1 then 1 else if i = 2 then 1.3 else i) 4 none).zEdge 2) := by
  constructor
  · intro i hi
    interval_cases i <;> norm_num [Amplitudes.zEdge, demoAmp]
  · norm_num [Amplitudes.zEdge, demoAmp]

/-! ## C50 -/

/-- C50: with two equal slopes the broken power law is the single power law times the amplitude. -/
theorem C50_equal_slopes (n : ℕ) (xlum pdf : ℕ → ℝ) (g l0 beta : ℝ) :
    brokenPowerlaw n xlum pdf g l0 beta beta = g * meanLL0ToBeta n xlum pdf l0 beta := by
  rw [meanLL0ToBeta, ← simpson_smul, brokenPowerlaw]
  refine simpson_congr_right fun i _ => ?_
  rw [ite_self]; ring

/-- C50: the broken power law is the average over the luminosity distribution of a scaling that is continuous
for all positive luminosities, equals the amplitude at the pivot, is the power law with the first slope above
the pivot and with the second slope below it. -/
theorem C50_continuous (g l0 beta betaLow : ℝ) (h0 : 0 < l0) :
    ∃ s : ℝ → ℝ, ContinuousOn s (Set.Ioi 0) ∧ s l0 = g ∧ (∀ l, l0 ≤ l → s l = g * (l / l0) ^ beta) ∧
      (∀ l, 0 < l → l ≤ l0 → s l = g * (l / l0) ^ betaLow) ∧
      ∀ n xlum pdf, brokenPowerlaw n xlum pdf g l0 beta betaLow = simpson n xlum fun j => pdf j * s (xlum j) := by
  have e1 : ∀ l, l0 ≤ l → g * ((max l l0 / l0) ^ beta * (min l l0 / l0) ^ betaLow) = g * (l / l0) ^ beta := by
    intro l hl
    rw [max_eq_left hl, min_eq_right hl, div_self h0.ne', Real.one_rpow, mul_one]
  have e2 : ∀ l, l ≤ l0 → g * ((max l l0 / l0) ^ beta * (min l l0 / l0) ^ betaLow) = g * (l / l0) ^ betaLow := by
    intro l hl
    rw [max_eq_right hl, min_eq_left hl, div_self h0.ne', Real.one_rpow, one_mul]
  refine ⟨fun l => g * ((max l l0 / l0) ^ beta * (min l l0 / l0) ^ betaLow), ?_, ?_, e1, fun l _ => e2 l, ?_⟩
  · refine continuousOn_const.mul (ContinuousOn.mul ?_ ?_)
    · refine ContinuousOn.rpow_const (by fun_prop) fun x hx => Or.inl ?_
      exact (div_pos (lt_max_of_lt_right h0) h0).ne'
    · refine ContinuousOn.rpow_const (by fun_prop) fun x hx => Or.inl ?_
      exact (div_pos (lt_min hx h0) h0).ne'
  · refine (e1 l0 le_rfl).trans ?_
    rw [div_self h0.ne', Real.one_rpow, mul_one]
  · intro n xlum pdf
    rw [brokenPowerlaw]
    refine simpson_congr_right fun i _ => ?_
    by_cases h : xlum i ≤ l0
    · simp only [e2 _ h, gt_iff_lt, not_lt.2 h, if_false]
    · simp only [e1 _ (not_le.1 h).le, gt_iff_lt, not_le.1 h, if_true]

/-- C50: the mean scaling of a distribution whose Simpson integral is 1 lies between the extreme values of the
scaling. -/
theorem C50_mean_bounds (n : ℕ) (xlum pdf : ℕ → ℝ) (l0 beta lo hi : ℝ) (g : GentleGrid n xlum)
    (hp : ∀ i < n, 0 ≤ pdf i) (h1 : simpson n xlum pdf = 1)
    (hb : ∀ i < n, lo ≤ (xlum i / l0) ^ beta ∧ (xlum i / l0) ^ beta ≤ hi) :
    lo ≤ meanLL0ToBeta n xlum pdf l0 beta ∧ meanLL0ToBeta n xlum pdf l0 beta ≤ hi := by
  constructor
  · have := simpson_mono g (y := fun i => lo * pdf i) (z := fun i => pdf i * (xlum i / l0) ^ beta)
      (fun i hi' => by rw [mul_comm]; exact mul_le_mul_of_nonneg_left (hb i hi').1 (hp i hi'))
    rw [simpson_smul, h1, mul_one] at this
    exact this
  · have := simpson_mono g (z := fun i => hi * pdf i) (y := fun i => pdf i * (xlum i / l0) ^ beta)
      (fun i hi' => by rw [mul_comm hi]; exact mul_le_mul_of_nonneg_left (hb i hi').2 (hp i hi'))
    rw [simpson_smul, h1, mul_one] at this
    exact this

/-- C50: a brighter pivot lowers the mean scaling when the slope is positive. -/
theorem C50_pivot_monotone (n : ℕ) (xlum pdf : ℕ → ℝ) (l0 l0' beta : ℝ) (g : GentleGrid n xlum)
    (hp : ∀ i < n, 0 ≤ pdf i) (hx : ∀ i < n, 0 ≤ xlum i) (h0 : 0 < l0) (h : l0 ≤ l0') (hb : 0 ≤ beta) :
    meanLL0ToBeta n xlum pdf l0' beta ≤ meanLL0ToBeta n xlum pdf l0 beta := by
  refine simpson_mono g fun i hi => ?_
  refine mul_le_mul_of_nonneg_left (Real.rpow_le_rpow ?_ ?_ hb) (hp i hi)
  · exact div_nonneg (hx i hi) (by linarith)
  · exact div_le_div_of_nonneg_left (hx i hi) h0 h

/-- the hypotheses are met: three luminosities with a normalised distribution -/
example : GentleGrid 3 (fun i => (i : ℝ) + 1) ∧ simpson 3 (fun i => (i : ℝ) + 1) (fun _ => 1 / 2) = 1 := by
  constructor
  · constructor <;> intro i hi <;> push_cast <;> linarith
  · norm_num [simpson, basicSimpson, simpsonPanel]

/-! ## C52 -/

/-- C52: only the three documented dependence options are accepted. -/
theorem C52_options (v : String) :
    (v = "constant" ∨ v = "luminosity" ∨ v = "halo_mass" ↔ setDep v = .ok v) ∧
    (¬ (v = "constant" ∨ v = "luminosity" ∨ v = "halo_mass") ↔ setDep v = .error .valueError) := by
  unfold setDep
  simp only [List.mem_cons, List.not_mem_nil, or_false]
  split_ifs with h <;> simp [h]

/-- C52: pivots are given as decimal logarithms. -/
theorem C52_pivot (x : ℝ) (hx : 0 < x) : setPivot (some (Real.logb 10 x)) = some x ∧ setPivot none = none := by
  refine ⟨?_, rfl⟩
  rw [setPivot, Real.rpow_logb (by norm_num) (by norm_num) hx]

/-- C52: for an accepted option the amplitude of centrals never comes back as `None`; it is a ValueError exactly
when the pivot or luminosity file that the option needs is missing, or a second slope is given for halo mass;
it is the bare amplitude at every redshift for the options constant and halo mass. -/
theorem C52_centrals (a : Amplitudes) (v : String) (h : setDep v = .ok a.centralDep) (hn : 0 < a.nz) :
    a.alignmentGi ≠ .ok none ∧
    (a.alignmentGi = .error .valueError ↔
      (a.centralDep = "luminosity" ∧ (a.lpivotCen = none ∨ a.lumFileCen = none)) ∨
      (a.centralDep = "halo_mass" ∧ (a.mpivotCen = none ∨ a.betaTwo ≠ none))) ∧
    (a.alignmentGi = .error .indexError ↔
      a.centralDep = "luminosity" ∧ a.lpivotCen ≠ none ∧ a.lumFileCen ≠ none ∧ a.nz = 1) ∧
    (∀ amp, a.alignmentGi = .ok (some amp) → a.centralDep ≠ "luminosity" → ∀ i, amp i = a.gamma2h) := by
  have hd : a.centralDep = "constant" ∨ a.centralDep = "luminosity" ∨ a.centralDep = "halo_mass" := by
    unfold setDep at h
    split_ifs at h with h'
    injection h with h
    simpa [← h] using h'
  unfold Amplitudes.alignmentGi
  rcases hd with hd | hd | hd
  · simp [hd]
  · rcases hp : a.lpivotCen with _ | l0
    · simp [hd]
    · rcases hf : a.lumFileCen with _ | gals
      · rcases hb : a.betaTwo with _ | b2 <;> simp [hd, Amplitudes.initLum]
      · by_cases h2 : a.nz < 2
        · have : a.nz = 1 := by omega
          rcases hb : a.betaTwo with _ | b2 <;>
            simp [hd, Amplitudes.initLum, Amplitudes.computeLuminosityPdf, this]
        · have : a.nz ≠ 1 := by omega
          rcases hb : a.betaTwo with _ | b2 <;>
            simp [hd, Amplitudes.initLum, Amplitudes.computeLuminosityPdf, h2, this]
  · rcases hp : a.mpivotCen with _ | l0
    · simp [hd]
    · rcases hb : a.betaTwo with _ | b2 <;> simp [hd]

/-- C52: the same for satellites, which have no second slope. -/
theorem C52_satellites (a : Amplitudes) (v : String) (h : setDep v = .ok a.satelliteDep) (hn : 0 < a.nz) :
    a.gamma1hAmp ≠ .ok none ∧
    (a.gamma1hAmp = .error .valueError ↔
      (a.satelliteDep = "luminosity" ∧ (a.lpivotSat = none ∨ a.lumFileSat = none)) ∨
      (a.satelliteDep = "halo_mass" ∧ a.mpivotSat = none)) ∧
    (a.gamma1hAmp = .error .indexError ↔
      a.satelliteDep = "luminosity" ∧ a.lpivotSat ≠ none ∧ a.lumFileSat ≠ none ∧ a.nz = 1) ∧
    (∀ amp, a.gamma1hAmp = .ok (some amp) → a.satelliteDep ≠ "luminosity" → ∀ i, amp i = a.gamma1h) := by
  have hd : a.satelliteDep = "constant" ∨ a.satelliteDep = "luminosity" ∨ a.satelliteDep = "halo_mass" := by
    unfold setDep at h
    split_ifs at h with h'
    injection h with h
    simpa [← h] using h'
  unfold Amplitudes.gamma1hAmp
  rcases hd with hd | hd | hd
  · simp [hd]
  · rcases hp : a.lpivotSat with _ | l0
    · simp [hd]
    · rcases hf : a.lumFileSat with _ | gals
      · simp [hd, Amplitudes.initLum]
      · by_cases h2 : a.nz < 2
        · have : a.nz = 1 := by omega
          simp [hd, Amplitudes.initLum, Amplitudes.computeLuminosityPdf, this]
        · have : a.nz ≠ 1 := by omega
          simp [hd, Amplitudes.initLum, Amplitudes.computeLuminosityPdf, h2, this]
  · rcases hp : a.mpivotSat with _ | l0
    · simp [hd]
    · simp [hd]

/-- C52: the luminosity option: the amplitudes are the distribution averages over the galaxies in the file. -/
theorem C52_luminosity (a : Amplitudes) (l0 : ℝ) (gals : List (ℝ × ℝ)) (hn : 2 ≤ a.nz) :
    (a.centralDep = "luminosity" → a.lpivotCen = some l0 → a.lumFileCen = some gals → a.betaTwo = none →
      ∃ amp, a.alignmentGi = .ok (some amp) ∧ ∀ i, amp i = a.gamma2h * meanLL0ToBeta 10000
        (fun j => (a.lumAndPdf gals 10000 i j).1) (fun j => (a.lumAndPdf gals 10000 i j).2) l0 a.betaCen) ∧
    (∀ b2, a.centralDep = "luminosity" → a.lpivotCen = some l0 → a.lumFileCen = some gals → a.betaTwo = some b2 →
      ∃ amp, a.alignmentGi = .ok (some amp) ∧ ∀ i, amp i = brokenPowerlaw 10000
        (fun j => (a.lumAndPdf gals 10000 i j).1) (fun j => (a.lumAndPdf gals 10000 i j).2) a.gamma2h l0 a.betaCen b2) ∧
    (a.satelliteDep = "luminosity" → a.lpivotSat = some l0 → a.lumFileSat = some gals →
      ∃ amp, a.gamma1hAmp = .ok (some amp) ∧ ∀ i, amp i = a.gamma1h * meanLL0ToBeta 10000
        (fun j => (a.lumAndPdf gals 10000 i j).1) (fun j => (a.lumAndPdf gals 10000 i j).2) l0 a.betaSat) := by
  have h2 : ¬ a.nz < 2 := by omega
  refine ⟨?_, ?_, ?_⟩
  · intro hd hp hf hb
    simp only [Amplitudes.alignmentGi, hd, hp, hf, hb, Amplitudes.initLum, Amplitudes.computeLuminosityPdf, h2,
      if_false, if_true, Amplitudes.nlbins, String.reduceEq]
    exact ⟨_, rfl, fun i => rfl⟩
  · intro b2 hd hp hf hb
    simp only [Amplitudes.alignmentGi, hd, hp, hf, hb, Amplitudes.initLum, Amplitudes.computeLuminosityPdf, h2,
      if_false, if_true, Amplitudes.nlbins, String.reduceEq]
    exact ⟨_, rfl, fun i => rfl⟩
  · intro hd hp hf
    simp only [Amplitudes.gamma1hAmp, hd, hp, hf, Amplitudes.initLum, Amplitudes.computeLuminosityPdf, h2,
      if_false, if_true, Amplitudes.nlbins, String.reduceEq]
    exact ⟨_, rfl, fun i => rfl⟩

example : setDep "luminosity" = .ok (demoAmp (fun i => i) 4 none).centralDep ∧ 0 < (demoAmp (fun i => i) 4 none).nz ∧
    (demoAmp (fun i => i) 4 none).alignmentGi = .error .valueError := by
  refine ⟨by decide, by decide, ?_⟩
  simp [demoAmp, Amplitudes.alignmentGi, Amplitudes.initLum]

end Verif.Ia

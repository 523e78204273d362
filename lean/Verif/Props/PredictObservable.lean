import Verif.Model.PredictObservable
import Verif.Props.InterfaceExecute
import Verif.Lemmas.Checked
import Verif.Lemmas.Interp
import Verif.Lemmas.Simpson
import Mathlib.Algebra.Order.Floor.Ring
import Mathlib.Data.List.GetD
import Mathlib.Tactic.NormNum
import Mathlib.Tactic.Linarith
import Mathlib.Tactic.Positivity
import Mathlib.Tactic.FieldSimp

/-!
# C121 — the binned observable functions of the legacy pipeline
-/

namespace Verif.PredictObservable

open Verif.Lib Verif.Spec

/-- sample `i` is among what the module writes -/
def Written (o : Options) (B : Block) (i : ℕ) (out : Out) : Prop :=
  ∃ outs : List Out, predict o B = .ok outs ∧ outs[i]? = some out

/-- the options name sample `i` and the block holds its observable function -/
structure Reads (o : Options) (B : Block) (i : ℕ) (g : Grid) : Prop where
  named : ∃ sfx s, o.suffixes = some sfx ∧ sfx[i]? = some s ∧ B.grid ("obs_val_" ++ s) = some g

/-! ## what `setup` accepts -/

/-- The module starts exactly if a sample is named together with the suffixes, there is one entry of `log10_obs_min`,
`log10_obs_max` and `n_obs` per suffix, and weighted binning comes with bin edges. -/
theorem C121_setup (o : Options) :
    (∃ c, setup o = .ok c) ↔ (o.suffixes.isSome → o.sample.isSome) ∧
      o.logMin.length = (o.suffixes.getD ["_1"]).length ∧ o.logMax.length = (o.suffixes.getD ["_1"]).length ∧
      o.nObs.length = (o.suffixes.getD ["_1"]).length ∧ (o.weighted = true → o.edges = true) := by
  unfold setup
  cases hs : o.suffixes with
  | none =>
    dsimp only
    split_ifs with h1 h2
    · simp [h2]
    · simp only [Option.getD_none] at *
      constructor
      · intro _
        refine ⟨by simp, h1.1, h1.2.1, h1.2.2, fun hw => ?_⟩
        by_contra hc
        exact h2 ⟨hw, by simpa using hc⟩
      · intro _; exact ⟨_, rfl⟩
    · refine ⟨fun ⟨_, hc⟩ => (by simp at hc), fun h => absurd ⟨h.2.1, h.2.2.1, h.2.2.2.1⟩ h1⟩
  | some sfx =>
    cases hsm : o.sample with
    | none => simp
    | some s =>
      dsimp only
      split_ifs with h1 h2
      · simp [h2]
      · simp only [Option.getD_some] at *
        constructor
        · intro _
          refine ⟨by simp, h1.1, h1.2.1, h1.2.2, fun hw => ?_⟩
          by_contra hc
          exact h2 ⟨hw, by simpa using hc⟩
        · intro _; exact ⟨_, rfl⟩
      · refine ⟨fun ⟨_, hc⟩ => (by simp at hc), fun h => absurd ⟨h.2.1, h.2.2.1, h.2.2.2.1⟩ h1⟩

theorem setup_ok {o : Options} {c : Config} (h : setup o = .ok c) :
    c.opts = o ∧ c.suffixes = o.suffixes.getD ["_1"] ∧ (o.suffixes.isSome → c.sample = o.sample) ∧
      (o.suffixes = none → c.sample = none) := by
  unfold setup at h
  cases hs : o.suffixes with
  | none =>
    simp only [hs] at h
    split_ifs at h
    cases h
    simp
  | some sfx =>
    simp only [hs] at h
    cases hsm : o.sample with
    | none => simp [hsm] at h
    | some s =>
      simp only [hsm] at h
      split_ifs at h
      cases h
      simp

theorem samples_ok {c : Config} {B : Block} {l : List ℕ} {outs : List Out} (h : samples c B l = .ok outs) :
    outs.length = l.length ∧ ∀ (k : ℕ) (out : Out), outs[k]? = some out → ∃ i : ℕ, l[k]? = some i ∧ sample c B i = .ok out := by
  induction l generalizing outs with
  | nil => cases h; simp
  | cons i l ih =>
    simp only [samples] at h
    cases h1 : sample c B i with
    | error e => simp [h1] at h
    | ok r =>
      cases h2 : samples c B l with
      | error e => simp [h1, h2] at h
      | ok rs =>
        simp only [h1, h2, Except.ok.injEq] at h
        subst h
        refine ⟨by simp [(ih h2).1], fun k out hk => ?_⟩
        cases k with
        | zero => simp at hk; exact ⟨i, by simp, by rw [h1, hk]⟩
        | succ k =>
          obtain ⟨j, hj, hs⟩ := (ih h2).2 k out (by simpa using hk)
          exact ⟨j, by simpa using hj, hs⟩

theorem Written.sample {o : Options} {B : Block} {i : ℕ} {out : Out} (h : Written o B i out) :
    ∃ c, setup o = .ok c ∧ i < c.suffixes.length ∧ sample c B i = .ok out := by
  obtain ⟨outs, hp, hi⟩ := h
  unfold predict at hp
  cases hs : setup o with
  | error e => simp [hs] at hp
  | ok c =>
    simp only [hs, execute] at hp
    split_ifs at hp
    obtain ⟨hl, hk⟩ := samples_ok hp
    obtain ⟨j, hj, hsm⟩ := hk i out hi
    have hlt : i < outs.length := (List.getElem?_eq_some_iff.1 hi).1
    have hir : i < c.suffixes.length := by simpa [hl] using hlt
    have : j = i := by
      rw [List.getElem?_range hir] at hj
      exact (Option.some.inj hj).symm
    exact ⟨c, rfl, hir, this ▸ hsm⟩

/-- what is written for a sample without redshifts -/
theorem Written.plain {o : Options} {B : Block} {i : ℕ} {out : Out} {g : Grid} (h : Written o B i out) (hg : Reads o B i g)
    (hz : g.z = none) : out = ⟨o.nObs.getD i 0, fun b => corrected o B.run i (binned o g i 0 b), obsArr o i⟩ := by
  obtain ⟨c, hc, hi, hs⟩ := h.sample
  obtain ⟨hco, hcs, -, -⟩ := setup_ok hc
  obtain ⟨sfx, s, h1, h2, h3⟩ := hg.named
  have : c.suffixes.getD i "" = s := by rw [hcs, h1, Option.getD_some, List.getD_eq_getElem?_getD, h2]; rfl
  unfold PredictObservable.sample at hs
  rw [this, h3] at hs
  simp only [hz, hco, Except.ok.injEq] at hs
  exact hs.symm

/-- what is written for a sample with redshifts -/
theorem Written.redshift {o : Options} {B : Block} {i : ℕ} {out : Out} {g : Grid} {nz : ℕ} {z : ℕ → ℝ}
    (h : Written o B i out) (hg : Reads o B i g) (hz : g.z = some (nz, z)) :
    ∃ s d, o.sample = some s ∧ B.dist s (i + 1) = some d ∧
      out = ⟨o.nObs.getD i 0, fun b => corrected o B.run i
        (simpsonCk nz z fun j => .num (d.at (z j)) * binned o g i j b), obsArr o i⟩ := by
  obtain ⟨c, hc, hi, hs⟩ := h.sample
  obtain ⟨hco, hcs, hsm, -⟩ := setup_ok hc
  obtain ⟨sfx, s, h1, h2, h3⟩ := hg.named
  have : c.suffixes.getD i "" = s := by rw [hcs, h1, Option.getD_some, List.getD_eq_getElem?_getD, h2]; rfl
  have hsm := hsm (by simp [h1])
  unfold PredictObservable.sample at hs
  rw [this, h3] at hs
  simp only [hz, hco, hsm] at hs
  cases h4 : o.sample with
  | none => simp [h4] at hs
  | some t =>
    simp only [h4] at hs
    cases h5 : B.dist t (i + 1) with
    | none => simp [h5] at hs
    | some d =>
      simp only [h5, Except.ok.injEq] at hs
      exact ⟨t, d, rfl, h5, hs.symm⟩

/-! ## how many samples and bins are written -/

/-- One output per suffix, with `n_obs` bins of that suffix. -/
theorem C121_counts (o : Options) (B : Block) {outs : List Out} (h : predict o B = .ok outs) :
    outs.length = (o.suffixes.getD ["_1"]).length ∧ outs.length = o.nObs.length ∧
      ∀ i out, outs[i]? = some out → o.nObs[i]? = some out.n ∧ out.obs = obsArr o i := by
  have h' := h
  unfold predict at h
  cases hs : setup o with
  | error e => simp [hs] at h
  | ok c =>
    obtain ⟨hco, hcs, -, -⟩ := setup_ok hs
    have hset := (C121_setup o).1 ⟨c, hs⟩
    simp only [hs, execute] at h
    split_ifs at h
    obtain ⟨hl, hk⟩ := samples_ok h
    rw [List.length_range, hcs] at hl
    refine ⟨hl, by rw [hl, hset.2.2.2.1], fun i out hi => ?_⟩
    obtain ⟨c', hc', hi', hsm⟩ := Written.sample ⟨outs, h', hi⟩
    rw [hs] at hc'
    cases hc'
    have hlt : i < o.nObs.length := by rw [hset.2.2.2.1, ← hcs]; exact hi'
    have hn : out.n = o.nObs.getD i 0 ∧ out.obs = obsArr o i := by
      unfold sample at hsm
      split at hsm
      · cases hsm
      · split at hsm
        · cases hsm; exact ⟨by rw [hco], by rw [hco]⟩
        · split at hsm
          · cases hsm
          · split at hsm
            · cases hsm
            · cases hsm; exact ⟨by rw [hco], by rw [hco]⟩
    refine ⟨?_, hn.2⟩
    rw [hn.1, List.getD_eq_getElem?_getD, List.getElem?_eq_getElem hlt]
    rfl

/-! ## the bins -/

theorem edge_zero (o : Options) (i : ℕ) : edge o i 0 = o.logMin.getD i 0 := by simp [edge, linspace]

theorem edge_last (o : Options) (i : ℕ) (h : 0 < o.nObs.getD i 0) : edge o i (o.nObs.getD i 0) = o.logMax.getD i 0 := by
  unfold edge linspace
  have : ((o.nObs.getD i 0 : ℕ) : ℝ) ≠ 0 := by exact_mod_cast h.ne'
  rw [Nat.cast_add_one, add_sub_cancel_right, mul_div_cancel₀ _ this]
  ring

theorem edge_succ (o : Options) (i j : ℕ) :
    edge o i (j + 1) - edge o i j = (o.logMax.getD i 0 - o.logMin.getD i 0) / (o.nObs.getD i 0 : ℝ) := by
  unfold edge linspace
  push_cast
  ring

/-- With edges, the bins cover the range from `log10_obs_min` to `log10_obs_max` in equal logarithmic steps, and the observable
written for a bin is the geometric mean of its edges, strictly inside the bin. -/
theorem C121_bins (o : Options) (i j : ℕ) (he : o.edges = true) (hn : 0 < o.nObs.getD i 0)
    (hlt : o.logMin.getD i 0 < o.logMax.getD i 0) :
    edge o i 0 = o.logMin.getD i 0 ∧ edge o i (o.nObs.getD i 0) = o.logMax.getD i 0 ∧
    edge o i (j + 1) - edge o i j = (o.logMax.getD i 0 - o.logMin.getD i 0) / (o.nObs.getD i 0 : ℝ) ∧
    obsArr o i j ^ 2 = (10 : ℝ) ^ edge o i j * (10 : ℝ) ^ edge o i (j + 1) ∧
    (10 : ℝ) ^ edge o i j < obsArr o i j ∧ obsArr o i j < (10 : ℝ) ^ edge o i (j + 1) := by
  have hs := edge_succ o i j
  have hp : 0 < edge o i (j + 1) - edge o i j := by
    rw [hs]
    have : (0 : ℝ) < (o.nObs.getD i 0 : ℝ) := by exact_mod_cast hn
    exact div_pos (by linarith) this
  refine ⟨edge_zero o i, edge_last o i hn, hs, ?_, ?_, ?_⟩
  · simp only [obsArr, he, if_true]
    rw [← Real.rpow_add (by norm_num), ← Real.rpow_natCast, ← Real.rpow_mul (by norm_num)]
    congr 1
    push_cast
    ring
  · simp only [obsArr, he, if_true]
    exact Real.rpow_lt_rpow_of_exponent_lt (by norm_num) (by linarith)
  · simp only [obsArr, he, if_true]
    exact Real.rpow_lt_rpow_of_exponent_lt (by norm_num) (by linarith)

/-! ## without weights -/

/-- Without weights, redshifts and volume correction the prediction is the observable function at the observable of the bin: the
tabulated value at a grid point, a value between those of the two neighbours inside, and zero outside the table. -/
theorem C121_unweighted {o : Options} {B : Block} {i : ℕ} {out : Out} {g : Grid} (h : Written o B i out) (hg : Reads o B i g)
    (hz : g.z = none) (hw : o.weighted = false) (hc : o.correct = none) (hn : 2 ≤ g.n) (hx : SortedOn g.n g.obs) (b : ℕ) :
    ∃ v, out.bin b = .num v ∧
      (∀ k < g.n, out.obs b = g.obs k → v = g.f 0 k) ∧
      (out.obs b < g.obs 0 ∨ g.obs (g.n - 1) < out.obs b → v = 0) ∧
      (∀ k, k + 1 < g.n → g.obs k ≤ out.obs b → out.obs b ≤ g.obs (k + 1) →
        v = g.f 0 k + (g.f 0 (k + 1) - g.f 0 k) * ((out.obs b - g.obs k) / (g.obs (k + 1) - g.obs k))) := by
  rw [h.plain hg hz]
  refine ⟨g.at 0 (obsArr o i b), by simp [binned, hw, corrected, hc], fun k hk he => ?_, fun hout => ?_, fun k hk h1 h2 => ?_⟩
  · simp only [] at he
    rw [he]
    exact interp1d_node hn hx _ _ hk
  · exact if_pos hout
  · simp only [] at h1 h2 ⊢
    have hlt : g.obs k < g.obs (k + 1) := hx k (k + 1) (by omega) hk
    have hd : g.obs (k + 1) - g.obs k ≠ 0 := by linarith [hlt] |> fun h : 0 < g.obs (k + 1) - g.obs k => h.ne'
    unfold Grid.at
    rcases h1.eq_or_lt with e | hl
    · rw [← e, interp1d_node hn hx _ _ (by omega)]
      simp
    · rw [interp1d_inside ((hx.le (Nat.zero_le k) (by omega)).trans h1) (h2.trans (hx.le (by omega) (by omega)))]
      have hseg : Lib.segment g.n g.obs (obsArr o i b) = k + 1 := by
        unfold Lib.segment
        rw [searchsorted_eq (j := k + 1) (by omega) (fun m hm => (hx.le (by omega) (by omega)).trans_lt hl) (fun m hm hm' => h2.trans (hx.le hm hm'))]
        omega
      unfold interpLinear
      rw [hseg]
      simp only [Nat.add_sub_cancel]
      field_simp
      ring

/-! ## the average over redshift -/

/-- With redshifts and without weights the prediction is the observable function averaged with the redshift distribution of the
sample: between its bounds at the redshifts times `∫ n(z) dz`, and that integral times the value when it does not change with
redshift. -/
theorem C121_redshift {o : Options} {B : Block} {i : ℕ} {out : Out} {g : Grid} {nz : ℕ} {z : ℕ → ℝ} (h : Written o B i out)
    (hg : Reads o B i g) (hz : g.z = some (nz, z)) (hw : o.weighted = false) (hc : o.correct = none) (b : ℕ) :
    ∃ s d v, o.sample = some s ∧ B.dist s (i + 1) = some d ∧ out.bin b = .num v ∧
      v = simpson nz z (fun j => d.at (z j) * g.at j (out.obs b)) ∧
      (∀ c, (∀ j < nz, g.at j (out.obs b) = c) → v = c * simpson nz z fun j => d.at (z j)) ∧
      (GentleGrid nz z → (∀ j < nz, 0 ≤ d.at (z j)) → ∀ lo hi, (∀ j < nz, lo ≤ g.at j (out.obs b) ∧ g.at j (out.obs b) ≤ hi) →
        lo * (simpson nz z fun j => d.at (z j)) ≤ v ∧ v ≤ hi * simpson nz z fun j => d.at (z j)) := by
  obtain ⟨s, d, h1, h2, h3⟩ := h.redshift hg hz
  subst h3
  refine ⟨s, d, simpson nz z (fun j => d.at (z j) * g.at j (obsArr o i b)), h1, h2, ?_, rfl, fun c hcst => ?_, fun gg hd lo hi hb => ?_⟩
  · have hbn : ∀ j, binned o g i j b = Ck.num (g.at j (obsArr o i b)) := fun j => by simp [binned, hw]
    simp only [corrected, hc, hbn]
    exact if_pos fun j _ => trivial
  · rw [← simpson_smul]
    exact simpson_congr_right fun j hj => by rw [hcst j hj]; ring
  · rw [← simpson_smul, ← simpson_smul]
    exact ⟨simpson_mono gg fun j hj => by nlinarith [hd j hj, (hb j hj).1],
      simpson_mono gg fun j hj => by nlinarith [hd j hj, (hb j hj).2]⟩

/-! ## weighted bins -/

open Classical in
/-- the weight of a point in the bin `(lo, hi]` -/
noncomputable def weightIn (lo hi : ℝ) (p : ℝ × ℝ) : ℝ := if lo < p.1 ∧ p.1 ≤ hi then p.2 else 0

/-- ten thousand points from `a` to `c` in equal steps, with weight one -/
noncomputable def uniform (a c : ℝ) : List (ℝ × ℝ) := (List.range 10000).map fun k : ℕ => (a + k * ((c - a) / 9999), 1)

/-- the points a run weights with: the file, or the uniform grid over the bins of all samples -/
def Weights (o : Options) (pts : List (ℝ × ℝ)) : Prop :=
  o.dist = some pts ∨ o.dist = none ∧ pts = uniform (minimum o.logMin) (maximum o.logMax)

theorem linspace_fine (a c : ℝ) (n k : ℕ) (hn : n = 10000) : linspace a c n k = a + k * ((c - a) / 9999) := by
  have : (n : ℝ) - 1 = 9999 := by rw [hn]; norm_num
  rw [linspace, this]

theorem fine_eq (o : Options) : fine o = uniform (minimum o.logMin) (maximum o.logMax) := by
  unfold fine uniform
  generalize hn : (10000 : ℕ) = n
  exact List.map_congr_left fun k _ => by rw [linspace_fine _ _ _ _ hn.symm]

theorem getD_of_none {α : Type} {d : Option α} (h : d = none) (x : α) : d.getD x = x := by rw [h]; rfl

theorem Weights.eq {o : Options} {pts : List (ℝ × ℝ)} (h : Weights o pts) : o.dist.getD (fine o) = pts := by
  rcases h with h | ⟨h, e⟩
  · simp [h]
  · exact (getD_of_none h _).trans ((fine_eq o).trans e.symm)

open Classical in
theorem sum_filter (pts : List (ℝ × ℝ)) (lo hi : ℝ) (f : ℝ → ℝ) :
    ((pts.filter fun p => decide (lo < p.1 ∧ p.1 ≤ hi)).map fun p => f p.1 * p.2).sum =
      (pts.map fun p => f p.1 * weightIn lo hi p).sum := by
  induction pts with
  | nil => rfl
  | cons p l ih =>
    by_cases hp : lo < p.1 ∧ p.1 ≤ hi
    · rw [List.filter_cons_of_pos (by simpa using hp), List.map_cons, List.sum_cons, List.map_cons, List.sum_cons, ih, weightIn,
        if_pos hp]
    · rw [List.filter_cons_of_neg (by simpa using hp), List.map_cons, List.sum_cons, ih, weightIn, if_neg hp, mul_zero, zero_add]

theorem binMean_eq (pts : List (ℝ × ℝ)) (lo hi : ℝ) (f : ℝ → ℝ) :
    binMean pts f lo hi = Ck.num (pts.map fun p => f p.1 * weightIn lo hi p).sum / Ck.num (pts.map (weightIn lo hi)).sum := by
  have h := sum_filter pts lo hi fun _ => 1
  simp only [one_mul] at h
  unfold binMean
  simp only []
  rw [← sum_filter]
  congr 2

theorem mean_bounds {pts : List (ℝ × ℝ)} {lo hi a c : ℝ} {f : ℝ → ℝ} (hw : ∀ p ∈ pts, 0 ≤ p.2)
    (hf : ∀ p ∈ pts, lo < p.1 → p.1 ≤ hi → a ≤ f p.1 ∧ f p.1 ≤ c) :
    0 ≤ (pts.map (weightIn lo hi)).sum ∧
    a * (pts.map (weightIn lo hi)).sum ≤ (pts.map fun p => f p.1 * weightIn lo hi p).sum ∧
      (pts.map fun p => f p.1 * weightIn lo hi p).sum ≤ c * (pts.map (weightIn lo hi)).sum := by
  induction pts with
  | nil => simp
  | cons p l ih =>
    obtain ⟨h0, h1, h2⟩ := ih (fun q hq => hw q (List.mem_cons_of_mem _ hq)) (fun q hq => hf q (List.mem_cons_of_mem _ hq))
    simp only [List.map_cons, List.sum_cons]
    have hp := hw p List.mem_cons_self
    by_cases h : lo < p.1 ∧ p.1 ≤ hi
    · obtain ⟨b1, b2⟩ := hf p List.mem_cons_self h.1 h.2
      have e : weightIn lo hi p = p.2 := if_pos h
      rw [e]
      refine ⟨by linarith, by nlinarith, by nlinarith⟩
    · have e : weightIn lo hi p = 0 := if_neg h
      rw [e]
      refine ⟨by linarith, by linarith, by linarith⟩

/-- With weights the prediction of a bin is the mean, with the weights of the file or of a uniform fine grid, of the observable
function over the points above the lower edge and not above the upper edge.  It is a number exactly if these weights do not sum to
zero, and with nonnegative weights it lies between the bounds of the function in the bin. -/
theorem C121_weighted {o : Options} {B : Block} {i : ℕ} {out : Out} {g : Grid} {pts : List (ℝ × ℝ)} (h : Written o B i out)
    (hg : Reads o B i g) (hz : g.z = none) (hw : o.weighted = true) (hc : o.correct = none) (hp : Weights o pts) (b : ℕ) :
    ((∃ v, out.bin b = .num v) ↔ (pts.map (weightIn (edge o i b) (edge o i (b + 1)))).sum ≠ 0) ∧
    ∀ v, out.bin b = .num v →
      v * (pts.map (weightIn (edge o i b) (edge o i (b + 1)))).sum =
        (pts.map fun p => g.at 0 ((10 : ℝ) ^ p.1) * weightIn (edge o i b) (edge o i (b + 1)) p).sum ∧
      ∀ lo hi, (∀ p ∈ pts, 0 ≤ p.2) →
        (∀ p ∈ pts, edge o i b < p.1 → p.1 ≤ edge o i (b + 1) → lo ≤ g.at 0 ((10 : ℝ) ^ p.1) ∧ g.at 0 ((10 : ℝ) ^ p.1) ≤ hi) →
        lo ≤ v ∧ v ≤ hi := by
  have hb : out.bin b = Ck.num (pts.map fun p => g.at 0 ((10 : ℝ) ^ p.1) * weightIn (edge o i b) (edge o i (b + 1)) p).sum /
      Ck.num (pts.map (weightIn (edge o i b) (edge o i (b + 1)))).sum := by
    rw [h.plain hg hz]
    simp only [corrected, hc, binned, hw, if_true, hp.eq]
    exact binMean_eq pts _ _ fun q => g.at 0 ((10 : ℝ) ^ q)
  have hiff : (∃ v, out.bin b = .num v) ↔ (pts.map (weightIn (edge o i b) (edge o i (b + 1)))).sum ≠ 0 := by
    constructor
    · rintro ⟨v, hv⟩
      have : (out.bin b).Ok := by rw [hv]; trivial
      rw [hb] at this
      exact (Ck.ok_div.1 this).2.2
    · intro hne
      have : (out.bin b).Ok := by rw [hb]; exact Ck.ok_div.2 ⟨trivial, trivial, hne⟩
      cases hv : out.bin b with
      | num v => exact ⟨v, rfl⟩
      | bad => rw [hv] at this; exact absurd this (by simp)
  refine ⟨hiff, fun v hv => ?_⟩
  have hne := hiff.1 ⟨v, hv⟩
  have hval : v = (pts.map fun p => g.at 0 ((10 : ℝ) ^ p.1) * weightIn (edge o i b) (edge o i (b + 1)) p).sum /
      (pts.map (weightIn (edge o i b) (edge o i (b + 1)))).sum := by
    have hr := Ck.Refines.div (Ck.Refines.num (pts.map fun p => g.at 0 ((10 : ℝ) ^ p.1) * weightIn (edge o i b) (edge o i (b + 1)) p).sum)
      (Ck.Refines.num (pts.map (weightIn (edge o i b) (edge o i (b + 1)))).sum)
    rw [← hb, hv] at hr
    exact hr trivial
  refine ⟨by rw [hval, div_mul_cancel₀ _ hne], fun lo hi hpos hf => ?_⟩
  obtain ⟨h0, h1, h2⟩ := mean_bounds (f := fun q => g.at 0 ((10 : ℝ) ^ q)) hpos hf
  have hlt := lt_of_le_of_ne h0 hne.symm
  rw [hval, le_div_iff₀ hlt, div_le_iff₀ hlt]
  exact ⟨h1, h2⟩

/-! ## the fine grid never leaves a bin empty -/

theorem minimum_le {l : List ℝ} {x : ℝ} (h : x ∈ l) : minimum l ≤ x := by
  unfold minimum
  generalize l.headD 0 = a
  induction l with
  | nil => cases h
  | cons y l ih =>
    rcases List.mem_cons.1 h with rfl | h
    · exact min_le_left _ _
    · exact (min_le_right _ _).trans (ih h)

theorem le_maximum {l : List ℝ} {x : ℝ} (h : x ∈ l) : x ≤ maximum l := by
  unfold maximum
  generalize l.headD 0 = a
  induction l with
  | nil => cases h
  | cons y l ih =>
    rcases List.mem_cons.1 h with rfl | h
    · exact le_max_left _ _
    · exact (ih h).trans (le_max_right _ _)

theorem weightIn_sum_pos {pts : List (ℝ × ℝ)} {lo hi : ℝ} (hw : ∀ p ∈ pts, 0 < p.2) {p : ℝ × ℝ} (hp : p ∈ pts)
    (h : lo < p.1 ∧ p.1 ≤ hi) : 0 < (pts.map (weightIn lo hi)).sum := by
  have nn : ∀ q ∈ pts, 0 ≤ weightIn lo hi q := fun q hq => by
    unfold weightIn
    split_ifs
    · exact (hw q hq).le
    · exact le_rfl
  induction pts with
  | nil => cases hp
  | cons q l ih =>
    rw [List.map_cons, List.sum_cons]
    have hl : 0 ≤ (l.map (weightIn lo hi)).sum := List.sum_nonneg fun x hx => by
      obtain ⟨q', hq', rfl⟩ := List.mem_map.1 hx
      exact nn q' (List.mem_cons_of_mem _ hq')
    rcases List.mem_cons.1 hp with rfl | hp
    · have : weightIn lo hi p = p.2 := if_pos h
      have := hw p List.mem_cons_self
      linarith
    · have := ih (fun q' hq' => hw q' (List.mem_cons_of_mem _ hq')) hp (fun q' hq' => nn q' (List.mem_cons_of_mem _ hq'))
      have := nn q List.mem_cons_self
      linarith

/-- Without a file of weights every bin is a number as long as it is not narrower than the 9999 steps of the fine grid. -/
theorem C121_fine_grid {o : Options} {B : Block} {i : ℕ} {out : Out} {g : Grid} (h : Written o B i out) (hg : Reads o B i g)
    (hz : g.z = none) (hw : o.weighted = true) (hc : o.correct = none) (hd : o.dist = none)
    (hlt : o.logMin.getD i 0 < o.logMax.getD i 0)
    (hwide : (maximum o.logMax - minimum o.logMin) / 9999 ≤ (o.logMax.getD i 0 - o.logMin.getD i 0) / (o.nObs.getD i 0 : ℝ))
    (b : ℕ) (hb : b < out.n) : ∃ v, out.bin b = .num v := by
  obtain ⟨c, hcs, hi, -⟩ := h.sample
  have hset := (C121_setup o).1 ⟨c, hcs⟩
  rw [(setup_ok hcs).2.1] at hi
  have hn : out.n = o.nObs.getD i 0 := by rw [h.plain hg hz]
  rw [hn] at hb
  have hnp : (0 : ℝ) < (o.nObs.getD i 0 : ℝ) := by exact_mod_cast (Nat.zero_lt_of_lt hb)
  have hmin : minimum o.logMin ≤ o.logMin.getD i 0 := by
    rw [List.getD_eq_getElem _ _ (by rw [hset.2.1]; exact hi)]
    exact minimum_le (List.getElem_mem _)
  have hmax : o.logMax.getD i 0 ≤ maximum o.logMax := by
    rw [List.getD_eq_getElem _ _ (by rw [hset.2.2.1]; exact hi)]
    exact le_maximum (List.getElem_mem _)
  set a := minimum o.logMin with ha
  set M := maximum o.logMax with hM
  set w := (o.logMax.getD i 0 - o.logMin.getD i 0) / (o.nObs.getD i 0 : ℝ) with hwd
  have hspos : 0 < (M - a) / 9999 := by
    apply div_pos <;> linarith
  have hwp : 0 < w := div_pos (by linarith) hnp
  set s := (M - a) / 9999 with hsdef
  have hMa : M = a + 9999 * s := by rw [hsdef]; ring
  have hlo : edge o i (b + 1) - edge o i b = w := edge_succ o i b
  have hhi : edge o i (b + 1) ≤ M := by
    have h1 : edge o i (b + 1) = o.logMin.getD i 0 + (b + 1 : ℝ) * w := by
      unfold edge linspace
      rw [hwd]
      push_cast
      ring
    have h2 : o.logMax.getD i 0 = o.logMin.getD i 0 + (o.nObs.getD i 0 : ℝ) * w := by
      rw [hwd, mul_div_cancel₀ _ hnp.ne']
      ring
    have h3 : (b + 1 : ℝ) ≤ (o.nObs.getD i 0 : ℝ) := by exact_mod_cast hb
    nlinarith
  have hgea : a ≤ edge o i (b + 1) := by
    have h1 : edge o i (b + 1) = o.logMin.getD i 0 + (b + 1 : ℝ) * w := by
      unfold edge linspace
      rw [hwd]
      push_cast
      ring
    have : (0 : ℝ) ≤ (b + 1 : ℝ) * w := by positivity
    linarith
  have hpw : Weights o (uniform a M) := Or.inr ⟨hd, rfl⟩
  refine ((C121_weighted h hg hz hw hc hpw b).1).2 ?_
  have hx0 : 0 ≤ (edge o i (b + 1) - a) / s := div_nonneg (by linarith) hspos.le
  have hfl := Nat.floor_le hx0
  have hfl2 := Nat.lt_floor_add_one ((edge o i (b + 1) - a) / s)
  rw [le_div_iff₀ hspos] at hfl
  rw [div_lt_iff₀ hspos] at hfl2
  set k := ⌊(edge o i (b + 1) - a) / s⌋₊ with hk
  have hk9 : k < 10000 := by
    have : (k : ℝ) * s ≤ 9999 * s := by linarith
    have : (k : ℝ) ≤ 9999 := le_of_mul_le_mul_right this hspos
    have : k ≤ 9999 := by exact_mod_cast this
    omega
  refine (weightIn_sum_pos (p := (a + k * s, 1)) (fun p hp => ?_) (List.mem_map.2 ⟨k, by simpa using hk9, rfl⟩) ⟨?_, ?_⟩).ne'
  · obtain ⟨m, -, rfl⟩ := List.mem_map.1 hp
    norm_num
  · show edge o i b < a + k * s
    nlinarith
  · show a + k * s ≤ edge o i (b + 1)
    linarith

/-! ## weights and redshifts together -/

/-- Weighted binning of a sample with redshifts uses the observable function at the first redshift only: the prediction is the
weighted mean of the first row times `∫ n(z) dz`. -/
theorem C121_weighted_first_redshift {o : Options} {B : Block} {i : ℕ} {out : Out} {g : Grid} {nz : ℕ} {z : ℕ → ℝ}
    {pts : List (ℝ × ℝ)} (h : Written o B i out) (hg : Reads o B i g) (hz : g.z = some (nz, z)) (hw : o.weighted = true)
    (hc : o.correct = none) (hp : Weights o pts) (b : ℕ)
    (hne : (pts.map (weightIn (edge o i b) (edge o i (b + 1)))).sum ≠ 0) :
    ∃ s d v, o.sample = some s ∧ B.dist s (i + 1) = some d ∧ out.bin b = .num v ∧
      v = (pts.map fun p => g.at 0 ((10 : ℝ) ^ p.1) * weightIn (edge o i b) (edge o i (b + 1)) p).sum /
        (pts.map (weightIn (edge o i b) (edge o i (b + 1)))).sum * simpson nz z fun j => d.at (z j) := by
  obtain ⟨s, d, h1, h2, h3⟩ := h.redshift hg hz
  subst h3
  refine ⟨s, d, _, h1, h2, ?_, rfl⟩
  have hbn : ∀ j, binned o g i j b =
      Ck.num ((pts.map fun p => g.at 0 ((10 : ℝ) ^ p.1) * weightIn (edge o i b) (edge o i (b + 1)) p).sum /
        (pts.map (weightIn (edge o i b) (edge o i (b + 1)))).sum) := fun j => by
    simp only [binned, hw, if_true, hp.eq]
    refine (binMean_eq pts _ _ fun q => g.at 0 ((10 : ℝ) ^ q)).trans (Ck.eq_num_iff.2 ⟨Ck.ok_div.2 ⟨trivial, trivial, hne⟩, ?_⟩)
    exact Ck.Refines.div (Ck.Refines.num _) (Ck.Refines.num _) (Ck.ok_div.2 ⟨trivial, trivial, hne⟩)
  simp only [corrected, hc, hbn]
  refine (if_pos fun j _ => trivial).trans ?_
  congr 1
  rw [← simpson_smul]
  exact simpson_congr_right fun j _ => mul_comm _ _

/-- Two runs whose observable functions differ at every redshift but the first write the same weighted predictions. -/
theorem C121_weighted_ignores_redshifts {o : Options} {B B' : Block} {i : ℕ} {out out' : Out} {g g' : Grid} {nz : ℕ} {z : ℕ → ℝ}
    (h : Written o B i out) (h' : Written o B' i out') (hg : Reads o B i g) (hg' : Reads o B' i g')
    (hz : g.z = some (nz, z)) (hz' : g'.z = some (nz, z)) (hd : B'.dist = B.dist) (hr : B'.run = B.run)
    (hw : o.weighted = true) (hn : g'.n = g.n) (hobs : g'.obs = g.obs) (hf : g'.f 0 = g.f 0) : out' = out := by
  obtain ⟨s, d, h1, h2, h3⟩ := h.redshift hg hz
  obtain ⟨s', d', h1', h2', h3'⟩ := h'.redshift hg' hz'
  rw [h1] at h1'
  cases h1'
  rw [hd, h2] at h2'
  cases h2'
  have hat : g'.at 0 = g.at 0 := by funext q; simp only [Grid.at, hn, hobs, hf]
  subst h3
  rw [h3']
  simp only [binned, hw, if_true, hat, hr]

/-! ## the default suffix -/

/-- Without the option `suffixes` the module asks for `obs_val__1`, with two underscores.  The occupation modules write `obs_val_`
followed by `med` or by a number, so a run without the option always fails. -/
theorem C121_default_suffix (o : Options) (B : Block) (hs : o.suffixes = none)
    (hB : ∀ k g, B.grid k = some g → k = "obs_val_med" ∨ ∃ n : ℕ, k = "obs_val_" ++ toString n) :
    ∃ e, predict o B = .error e := by
  cases hp : predict o B with
  | error e => exact ⟨e, rfl⟩
  | ok outs =>
    exfalso
    obtain ⟨hl, -, -⟩ := C121_counts o B hp
    rw [hs] at hl
    simp only [Option.getD_none, List.length_cons, List.length_nil, zero_add] at hl
    obtain ⟨out, ho⟩ := List.length_eq_one_iff.1 hl
    obtain ⟨c, hc, hi, hsm⟩ := Written.sample (i := 0) (out := out) ⟨outs, hp, by simp [ho]⟩
    have hcs := (setup_ok hc).2.1
    rw [hs] at hcs
    unfold sample at hsm
    rw [hcs] at hsm
    cases hg : B.grid ("obs_val_" ++ "_1") with
    | none =>
      simp only [Option.getD_none, List.getD_cons_zero] at hsm
      rw [hg] at hsm
      cases hsm
    | some g =>
      rcases hB _ _ hg with h | ⟨n, h⟩
      · exact absurd h (by decide)
      · have h := congrArg String.toList h
        rw [String.toList_append, String.toList_append] at h
        have h := List.append_cancel_left h
        have hd := Interface.digits_toString n '_' (by rw [← h]; decide)
        exact absurd hd (by decide)

/-! ## the volume correction -/

/-- With `correct_cosmo` a prediction is multiplied with the ratio of the comoving volumes, in units of `h`, of the run and of the
cosmology of the data between the redshift limits of the sample; the ratio is positive for increasing distances, and one for equal
cosmologies. -/
theorem C121_volume {o : Options} {B : Block} {i : ℕ} {out : Out} {g : Grid} {data : Cosmo} (h : Written o B i out)
    (hg : Reads o B i g) (hz : g.z = none) (hw : o.weighted = false) (hc : o.correct = some data)
    (hr0 : 0 ≤ B.run.comoving (o.zmin.getD i 0)) (hr : B.run.comoving (o.zmin.getD i 0) < B.run.comoving (o.zmax.getD i 0))
    (hd0 : 0 ≤ data.comoving (o.zmin.getD i 0)) (hd : data.comoving (o.zmin.getD i 0) < data.comoving (o.zmax.getD i 0))
    (hhr : 0 < B.run.h) (hhd : 0 < data.h) (b : ℕ) :
    ∃ r, 0 < r ∧ out.bin b = .num (g.at 0 (out.obs b) * r) ∧
      r * ((data.comoving (o.zmax.getD i 0) ^ 3 - data.comoving (o.zmin.getD i 0) ^ 3) * data.h ^ 3) =
        (B.run.comoving (o.zmax.getD i 0) ^ 3 - B.run.comoving (o.zmin.getD i 0) ^ 3) * B.run.h ^ 3 ∧
      (B.run = data → r = 1) := by
  rw [h.plain hg hz]
  have vp : ∀ c : Cosmo, 0 ≤ c.comoving (o.zmin.getD i 0) → c.comoving (o.zmin.getD i 0) < c.comoving (o.zmax.getD i 0) →
      0 < c.h → 0 < volume c (o.zmin.getD i 0) (o.zmax.getD i 0) := fun c h0 h1 h2 =>
    mul_pos (sub_pos.2 (pow_lt_pow_left₀ h1 h0 (by norm_num))) (pow_pos h2 3)
  have v1 := vp B.run hr0 hr hhr
  have v2 := vp data hd0 hd hhd
  refine ⟨volume B.run (o.zmin.getD i 0) (o.zmax.getD i 0) / volume data (o.zmin.getD i 0) (o.zmax.getD i 0), div_pos v1 v2, ?_,
    ?_, fun e => by rw [e]; exact div_self v2.ne'⟩
  · simp only [corrected, hc, binned, hw]
    refine Ck.eq_num_iff.2 ⟨?_, ?_⟩
    · exact Ck.ok_mul.2 ⟨trivial, Ck.ok_div.2 ⟨trivial, trivial, v2.ne'⟩⟩
    · exact Ck.Refines.mul (Ck.Refines.num _) (Ck.Refines.div (Ck.Refines.num _) (Ck.Refines.num _))
        (Ck.ok_mul.2 ⟨trivial, Ck.ok_div.2 ⟨trivial, trivial, v2.ne'⟩⟩)
  · exact div_mul_cancel₀ _ v2.ne'

/-- The numbers of redshift limits are only compared with the number of samples when the cosmology is corrected, and then at every
`execute`, not in `setup`. -/
theorem C121_redshift_limits (o : Options) (B : Block) {c : Config} (hs : setup o = .ok c)
    (hl : o.zmin.length ≠ (o.suffixes.getD ["_1"]).length ∨ o.zmax.length ≠ (o.suffixes.getD ["_1"]).length) :
    (o.correct.isSome → predict o B = .error .valueError) ∧
    (o.correct = none → ∀ zs zs', predict { o with zmin := zs, zmax := zs' } B = predict o B) := by
  obtain ⟨h1, h2, -, -⟩ := setup_ok hs
  constructor
  · intro hc
    unfold predict
    rw [hs]
    simp only [execute]
    rw [h1, h2, if_pos ⟨hc, hl⟩]
  · intro hc zs zs'
    have hsm : ∀ (l : List ℕ), samples ⟨c.suffixes, c.sample, { o with zmin := zs, zmax := zs' }⟩ B l = samples c B l := by
      have hone : ∀ i, sample ⟨c.suffixes, c.sample, { o with zmin := zs, zmax := zs' }⟩ B i = sample c B i := fun i => by
        have hcor : ∀ x, corrected { o with zmin := zs, zmax := zs' } B.run i x = corrected o B.run i x := fun x => by
          simp only [corrected, hc]
        unfold sample
        rw [h1]
        simp only [hcor]
        rfl
      intro l
      induction l with
      | nil => rfl
      | cons i l ih => simp only [samples, hone, ih]
    have hs' : setup { o with zmin := zs, zmax := zs' } = .ok ⟨c.suffixes, c.sample, { o with zmin := zs, zmax := zs' }⟩ := by
      unfold setup at hs ⊢
      cases hsf : o.suffixes with
      | none =>
        simp only [hsf] at hs ⊢
        split_ifs at hs ⊢
        cases hs
        rfl
      | some sfx =>
        cases hsa : o.sample with
        | none => simp [hsf, hsa] at hs
        | some s =>
          simp only [hsf, hsa] at hs ⊢
          split_ifs at hs ⊢
          cases hs
          rfl
    unfold predict
    rw [hs, hs']
    have hx : ∀ c : Config, c.opts.correct = none → execute c B = samples c B (List.range c.suffixes.length) := fun c hc => by
      unfold execute
      rw [if_neg (by simp [hc])]
    dsimp only
    rw [hx c (by rw [h1, hc]), hx _ hc, hsm]

/-! ## the hypotheses are met -/

/-- one sample with two bins from `10` to `1000` -/
noncomputable def exOpts (weighted : Bool) (dist : Option (List (ℝ × ℝ))) (correct : Option Cosmo) : Options :=
  ⟨some ["1"], some "smf", dist, weighted, true, [1], [3], [2], [0], [1], correct⟩

/-- an observable function that rises from 1 -/
def exGrid (z : Option (ℕ × (ℕ → ℝ))) : Grid := ⟨3, fun k => 1000 * k, z, fun j k => j + k + 1⟩

/-- a flat redshift distribution, distances that grow with redshift -/
noncomputable def exBlock (z : Option (ℕ × (ℕ → ℝ))) : Block :=
  ⟨fun k => if k = "obs_val_1" then some (exGrid z) else none, fun _ _ => some ⟨2, fun k => k, fun _ => 1⟩, ⟨fun z => 3000 * z, 0.7⟩⟩

theorem ex_grid (z : Option (ℕ × (ℕ → ℝ))) : (exBlock z).grid ("obs_val_" ++ "1") = some (exGrid z) := by
  have : "obs_val_" ++ "1" = "obs_val_1" := by decide
  rw [this]
  simp [exBlock]

theorem ex_reads (w : Bool) (d : Option (List (ℝ × ℝ))) (c : Option Cosmo) (z : Option (ℕ × (ℕ → ℝ))) :
    Reads (exOpts w d c) (exBlock z) 0 (exGrid z) := ⟨["1"], "1", rfl, rfl, ex_grid z⟩

theorem ex_written (w : Bool) (d : Option (List (ℝ × ℝ))) (c : Option Cosmo) (z : Option (ℕ × (ℕ → ℝ))) :
    ∃ out, Written (exOpts w d c) (exBlock z) 0 out := by
  have hg : (exBlock z).grid ("obs_val_" ++ "1") = some (exGrid z) := ex_grid z
  have hset : setup (exOpts w d c) = .ok ⟨["1"], some "smf", exOpts w d c⟩ := by
    simp [setup, exOpts]
  have hs : ∃ out, sample ⟨["1"], some "smf", exOpts w d c⟩ (exBlock z) 0 = .ok out := by
    unfold sample
    simp only [List.getD_cons_zero, hg]
    cases z with
    | none => exact ⟨_, rfl⟩
    | some p => exact ⟨_, rfl⟩
  obtain ⟨out, hs⟩ := hs
  refine ⟨out, [out], ?_, rfl⟩
  unfold predict
  rw [hset]
  have hx : execute ⟨["1"], some "smf", exOpts w d c⟩ (exBlock z) = samples ⟨["1"], some "smf", exOpts w d c⟩ (exBlock z) [0] := by
    unfold execute
    rw [if_neg (by simp [exOpts])]
    rfl
  exact hx.trans (by simp only [samples, hs])

theorem ex_sorted : SortedOn (exGrid none).n (exGrid none).obs := fun i j hij _ => by
  have : (i : ℝ) < j := by exact_mod_cast hij
  show (1000 : ℝ) * i < 1000 * j
  linarith

/-- `C121_setup`, `C121_counts`: the example starts and writes one sample with two bins -/
example : ∃ outs, predict (exOpts false none none) (exBlock none) = .ok outs ∧ outs.length = 1 := by
  obtain ⟨out, outs, h, -⟩ := ex_written false none none none
  exact ⟨outs, h, by simpa [exOpts] using (C121_counts _ _ h).1⟩

/-- `C121_setup`: weighted binning without edges is refused -/
example : ¬ ∃ c, setup { exOpts true none none with edges := false } = .ok c := fun h =>
  absurd (((C121_setup _).1 h).2.2.2.2 rfl) (by decide)

/-- `C121_bins`: the first bin of the example goes from `10` to `100` -/
example : edge (exOpts true none none) 0 0 = 1 ∧ edge (exOpts true none none) 0 2 = 3 :=
  let h := C121_bins (exOpts true none none) 0 0 rfl (by decide) (by norm_num [exOpts])
  ⟨h.1, h.2.1⟩

/-- `C121_unweighted` -/
example : ∃ out v, Written (exOpts false none none) (exBlock none) 0 out ∧ out.bin 0 = .num v := by
  obtain ⟨out, h⟩ := ex_written false none none none
  obtain ⟨v, hv, -⟩ := C121_unweighted h (ex_reads _ _ _ _) rfl rfl rfl (by decide) ex_sorted 0
  exact ⟨out, v, h, hv⟩

/-- `C121_redshift` -/
example : ∃ out v, Written (exOpts false none none) (exBlock (some (3, fun k => k))) 0 out ∧ out.bin 0 = .num v := by
  obtain ⟨out, h⟩ := ex_written false none none (some (3, fun k => k))
  obtain ⟨-, -, v, -, -, hv, -⟩ := C121_redshift h (ex_reads _ _ _ _) rfl rfl rfl 0
  exact ⟨out, v, h, hv⟩

/-- `C121_fine_grid`, `C121_weighted` -/
example : ∃ out v, Written (exOpts true none none) (exBlock none) 0 out ∧ out.bin 1 = .num v := by
  obtain ⟨out, h⟩ := ex_written true none none none
  have hn : out.n = 2 := by rw [h.plain (ex_reads _ _ _ _) rfl]; rfl
  obtain ⟨v, hv⟩ := C121_fine_grid h (ex_reads _ _ _ _) rfl rfl rfl rfl (by norm_num [exOpts])
    (by norm_num [exOpts, minimum, maximum]) 1 (by omega)
  exact ⟨out, v, h, hv⟩

/-- `C121_weighted`: a file without galaxies in the second bin gives no number there -/
example : ∃ out, Written (exOpts true (some [(1.5, 2), (1.6, 1)]) none) (exBlock none) 0 out ∧ ¬ ∃ v, out.bin 1 = .num v := by
  obtain ⟨out, h⟩ := ex_written true (some [(1.5, 2), (1.6, 1)]) none none
  refine ⟨out, h, fun hv => (C121_weighted h (ex_reads _ _ _ _) rfl rfl rfl (Or.inl rfl) 1).1.1 hv ?_⟩
  norm_num [weightIn, edge, linspace, exOpts]

/-- `C121_weighted_first_redshift`, `C121_weighted_ignores_redshifts` -/
example : ∃ out v, Written (exOpts true (some [(1.5, 2), (1.6, 1)]) none) (exBlock (some (3, fun k => k))) 0 out ∧
    out.bin 0 = .num v := by
  obtain ⟨out, h⟩ := ex_written true (some [(1.5, 2), (1.6, 1)]) none (some (3, fun k => k))
  obtain ⟨-, -, v, -, -, hv, -⟩ := C121_weighted_first_redshift h (ex_reads _ _ _ _) rfl rfl rfl (Or.inl rfl) 0
    (by norm_num [weightIn, edge, linspace, exOpts])
  exact ⟨out, v, h, hv⟩

/-- `C121_default_suffix`: the block of the example has no entry with two underscores -/
example : ∃ e, predict { exOpts false none none with suffixes := none } (exBlock none) = .error e :=
  C121_default_suffix _ _ rfl fun k g h => by
    by_cases hk : k = "obs_val_1"
    · exact Or.inr ⟨1, hk⟩
    · simp [exBlock, hk] at h

/-- `C121_volume` -/
example : ∃ out v, Written (exOpts false none (some ⟨fun z => 4000 * z, 0.6⟩)) (exBlock none) 0 out ∧ out.bin 0 = .num v := by
  obtain ⟨out, h⟩ := ex_written false none (some ⟨fun z => 4000 * z, 0.6⟩) none
  obtain ⟨r, -, hv, -⟩ := C121_volume h (ex_reads _ _ _ _) rfl rfl rfl (by norm_num [exOpts, exBlock])
    (by norm_num [exOpts, exBlock]) (by norm_num [exOpts]) (by norm_num [exOpts]) (by norm_num [exBlock]) (by norm_num) 0
  exact ⟨out, _, h, hv⟩

/-- `C121_redshift_limits` -/
example : predict { exOpts false none (some ⟨fun z => 4000 * z, 0.6⟩) with zmin := [0, 1] } (exBlock none) = .error .valueError :=
  (C121_redshift_limits _ _ (c := ⟨["1"], some "smf", { exOpts false none (some ⟨fun z => 4000 * z, 0.6⟩) with zmin := [0, 1] }⟩)
    (by simp [setup, exOpts]) (Or.inl (by simp [exOpts]))).1 rfl

/-! ## the redshift distribution -/

/-- The redshift distribution that weights the prediction is the tabulated one at its redshifts, and zero below the first and above
the last of them: a sample whose distribution lies apart from the redshifts of the grid is predicted to have nothing. -/
theorem C121_distribution (d : Dist) :
    (∀ q, q < d.z 0 ∨ d.z (d.n - 1) < q → d.at q = 0) ∧
    (2 ≤ d.n → SortedOn d.n d.z → ∀ i < d.n, d.at (d.z i) = d.nz i) ∧
    ∀ {o : Options} {B : Block} {i : ℕ} {out : Out} {g : Grid} {nz : ℕ} {z : ℕ → ℝ} {s : String}, Written o B i out → Reads o B i g →
      g.z = some (nz, z) → o.weighted = false → o.correct = none → o.sample = some s → B.dist s (i + 1) = some d →
      (∀ j < nz, z j < d.z 0 ∨ d.z (d.n - 1) < z j) → ∀ b, out.bin b = .num 0 := by
  have h0 : ∀ q, q < d.z 0 ∨ d.z (d.n - 1) < q → d.at q = 0 := fun q hq => by
    simp only [Dist.at, interp1d, if_pos hq]
  refine ⟨h0, fun hn hs i hi => interp1d_node hn hs _ _ hi, fun {o B i out g nz z s} h hg hz hw hc hs hd hout b => ?_⟩
  obtain ⟨s', d', v, e1, e2, e3, e4, -, -⟩ := C121_redshift h hg hz hw hc b
  obtain rfl : s = s' := by simpa [hs] using e1
  obtain rfl : d = d' := by simpa [hd] using e2
  rw [e3, e4, simpson_congr_right (y' := fun _ => 0) fun j hj => by rw [h0 _ (hout j hj), zero_mul], simpson_zero]

end Verif.PredictObservable

import Verif.Model.CorrelatedPriors
import Mathlib.Probability.Moments.Covariance
import Mathlib.Probability.ProbabilityMassFunction.Integrals
import Mathlib.Probability.Distributions.Uniform
import Mathlib.Data.List.GetD
import Mathlib.Tactic.NormNum
import Mathlib.Tactic.Linarith
import Mathlib.Tactic.FieldSimp

/-!
# C122 — correlated parameters from uncorrelated ones
-/

namespace Verif.CorrelatedPriors

open Verif.Lib Finset MeasureTheory ProbabilityTheory

/-- the block holds the value `x i` of input number `i` -/
def Holds (B : Block) (inputs : List (String × String)) (x : ℕ → ℝ) : Prop :=
  ∀ i (h : i < inputs.length), B inputs[i] = some (x i)

/-- names with their two parts, as `split("/")` leaves them -/
def parts (l : List (String × String)) : List (List String) := l.map fun p => [p.1, p.2]

theorem readInputs_holds {B : Block} {l : List (String × String)} {x : ℕ → ℝ} (h : Holds B l x) :
    readInputs B (parts l) = .ok ((List.range l.length).map x) := by
  induction l generalizing x with
  | nil => rfl
  | cons p l ih =>
    have h0 : B (p.1, p.2) = some (x 0) := h 0 (by simp)
    have hl : Holds B l fun i => x (i + 1) := fun i hi => h (i + 1) (by simpa using hi)
    have := ih hl
    simp only [parts, List.map_cons] at this ⊢
    simp only [readInputs, h0, this]
    rw [List.length_cons, List.range_succ_eq_map, List.map_cons, List.map_map]
    rfl

theorem readInputs_ok {B : Block} {l : List (List String)} {v : List ℝ} (h : readInputs B l = .ok v) :
    ∃ l' : List (String × String), l = parts l' ∧ v.length = l.length ∧ Holds B l' fun i => v.getD i 0 := by
  induction l generalizing v with
  | nil => cases h; exact ⟨[], rfl, rfl, fun i hi => absurd hi (by simp)⟩
  | cons p l ih =>
    match p, h with
    | [s, m], h =>
      simp only [readInputs] at h
      cases hb : B (s, m) with
      | none => simp [hb] at h
      | some w =>
        cases hr : readInputs B l with
        | error e => simp [hb, hr] at h
        | ok vs =>
          simp only [hb, hr, Except.ok.injEq] at h
          subst h
          obtain ⟨l', h1, h2, h3⟩ := ih hr
          refine ⟨(s, m) :: l', by simp [parts, h1], by simp [h2], fun i hi => ?_⟩
          cases i with
          | zero => simpa using hb
          | succ i => simpa using h3 i (by simpa using hi)
    | [], h => simp [readInputs] at h
    | [_], h => simp [readInputs] at h
    | _ :: _ :: _ :: _, h => simp [readInputs] at h

theorem write_ok {n : ℕ} {p : ℕ → ℝ} {i : ℕ} {l : List (String × String)} {B : Block} (h : i + l.length ≤ n) :
    (writeOutputs n p i (parts l) B).2 = none ∧
    (∀ k, k ∉ l → (writeOutputs n p i (parts l) B).1 k = B k) ∧
    (∀ j (hj : j < l.length), (∀ m (hm : m < l.length), j < m → l[m] ≠ l[j]) →
      (writeOutputs n p i (parts l) B).1 l[j] = some (p (i + j))) := by
  induction l generalizing i B with
  | nil => exact ⟨rfl, fun k _ => rfl, fun j hj => absurd hj (by simp)⟩
  | cons q l ih =>
    simp only [List.length_cons] at h
    have hw : writeOutputs n p i (parts (q :: l)) B = writeOutputs n p (i + 1) (parts l) (put B q (p i)) := by
      show (if i < n then _ else _) = _
      rw [if_pos (by omega)]
      rfl
    rw [hw]
    obtain ⟨h1, h2, h3⟩ := ih (i := i + 1) (B := put B q (p i)) (by omega)
    refine ⟨h1, fun k hk => ?_, fun j hj hd => ?_⟩
    · rw [h2 k fun hm => hk (List.mem_cons_of_mem _ hm)]
      have hne : k ≠ q := fun e => hk (by rw [e]; exact List.mem_cons_self)
      exact if_neg hne
    · cases j with
      | zero =>
        have hq : q ∉ l := fun hm => by
          obtain ⟨m, hm, e⟩ := List.getElem_of_mem hm
          exact hd (m + 1) (by simpa using hm) (by omega) (by simpa using e)
        rw [List.getElem_cons_zero, h2 q hq]
        exact if_pos rfl
      | succ j =>
        rw [List.getElem_cons_succ, h3 j (by simpa using hj)]
        · congr 2; omega
        · intro m hm hjm
          have := hd (m + 1) (by simpa using hm) (by omega)
          rwa [List.getElem_cons_succ, List.getElem_cons_succ] at this

/-! ## the factor -/

/-- A Cholesky factor is determined by the lower triangle of the covariance: whatever satisfies the documented behaviour of numpy
gives the same numbers. -/
theorem C122_factor_unique {n : ℕ} {A A' L L' : ℕ → ℕ → ℝ} (h : IsChol n A L) (h' : IsChol n A' L')
    (hA : ∀ i < n, ∀ j ≤ i, A i j = A' i j) : ∀ i < n, ∀ j < n, L i j = L' i j := by
  have key : ∀ j, j < n → ∀ i < n, L i j = L' i j := by
    intro j
    induction j using Nat.strong_induction_on with
    | _ j ih =>
      intro hj
      have split : ∀ (M : ℕ → ℕ → ℝ) (B : ℕ → ℕ → ℝ), IsChol n B M → ∀ i < n, j ≤ i →
          (∑ k ∈ range j, M i k * M j k) + M i j * M j j = B i j := by
        intro M B hM i hi hji
        rw [← hM.prod i hi j hji, ← sum_range_succ fun k => M i k * M j k]
        refine sum_subset (range_subset_range.2 (by omega)) fun k hk hk' => ?_
        have : j < k := by simpa using hk'
        rw [hM.upper j k this (by simpa using hk), mul_zero]
      have hsum : ∀ i < n, (∑ k ∈ range j, L i k * L j k) = ∑ k ∈ range j, L' i k * L' j k := fun i hi =>
        sum_congr rfl fun k hk => by
          have hk : k < j := by simpa using hk
          rw [ih k hk (by omega) i hi, ih k hk (by omega) j hj]
      have hdd : L j j = L' j j := by
        have e := split L A h j hj le_rfl
        have e' := split L' A' h' j hj le_rfl
        rw [hsum j hj, hA j hj j le_rfl, ← e'] at e
        have : L j j * L j j = L' j j * L' j j := by linarith
        exact (mul_self_inj (h.diag j hj).le (h'.diag j hj).le).1 this
      intro i hi
      rcases lt_or_ge i j with hij | hij
      · rw [h.upper i j hij hj, h'.upper i j hij hj]
      · have e := split L A h i hi hij
        have e' := split L' A' h' i hi hij
        rw [hsum i hi, hA i hi j hij, ← e', hdd] at e
        have : L i j * L' j j = L' i j * L' j j := by linarith
        exact mul_right_cancel₀ (h'.diag j hj).ne' this
  exact fun i hi j hj => key j hj i hi

/-- The module starts exactly with a square file of at least two rows whose lower triangle has a factor; it never reads the
upper triangle. -/
theorem C122_setup {chol : ℕ → (ℕ → ℕ → ℝ) → Option (ℕ → ℕ → ℝ)} (hchol : Chol chol) (inputs outputs : List (List String))
    (f : File) :
    ((∃ c, setup chol inputs outputs f = .ok c) ↔ f.r = f.c ∧ 2 ≤ f.r ∧ ∃ L, IsChol f.r f.a L) ∧
    (∀ c, setup chol inputs outputs f = .ok c → c.inputs = inputs ∧ c.outputs = outputs ∧ c.n = f.r ∧ IsChol f.r f.a c.L) ∧
    ∀ f' : File, f'.r = f.r → f'.c = f.c → (∀ i < f.r, ∀ j ≤ i, f'.a i j = f.a i j) →
      ∀ c, setup chol inputs outputs f = .ok c → ∃ c', setup chol inputs outputs f' = .ok c' ∧ c'.n = c.n ∧
        ∀ i < c.n, ∀ j < c.n, c'.L i j = c.L i j := by
  have main : ∀ f : File, ((∃ c, setup chol inputs outputs f = .ok c) ↔ f.r = f.c ∧ 2 ≤ f.r ∧ ∃ L, IsChol f.r f.a L) ∧
      (∀ c, setup chol inputs outputs f = .ok c → c.inputs = inputs ∧ c.outputs = outputs ∧ c.n = f.r ∧ IsChol f.r f.a c.L) := by
    intro f
    have hc := hchol f.r f.a
    unfold setup
    by_cases h : f.r ≠ f.c ∨ f.r < 2
    · simp only [if_pos h]
      refine ⟨⟨fun ⟨_, h⟩ => (by simp at h), fun ⟨h1, h2, _⟩ => ?_⟩, fun c h => (by simp at h)⟩
      rcases h with h | h
      · exact absurd h1 h
      · omega
    · simp only [if_neg h]
      have h1 : f.r = f.c := by by_contra hh; exact h (Or.inl hh)
      have h2 : 2 ≤ f.r := by by_contra hh; exact h (Or.inr (by omega))
      cases hL : chol f.r f.a with
      | none =>
        rw [hL] at hc
        exact ⟨⟨fun ⟨_, h⟩ => (by simp at h), fun ⟨_, _, h⟩ => absurd h hc⟩, fun c h => (by simp at h)⟩
      | some L =>
        rw [hL] at hc
        refine ⟨⟨fun _ => ⟨h1, h2, L, hc⟩, fun _ => ⟨_, rfl⟩⟩, fun c h => ?_⟩
        cases h
        exact ⟨rfl, rfl, rfl, hc⟩
  refine ⟨(main f).1, (main f).2, fun f' hr hc ha c hs => ?_⟩
  obtain ⟨h1, h2, L, hL⟩ := (main f).1.1 ⟨c, hs⟩
  obtain ⟨-, -, hn, hcL⟩ := (main f).2 c hs
  obtain ⟨c', hs'⟩ := (main f').1.2 ⟨by rw [hr, hc, h1], by rw [hr]; exact h2, L,
    ⟨by rw [hr]; exact hL.diag, by rw [hr]; exact hL.upper, fun i hi j hji => by
      rw [hr] at hi ⊢
      rw [hL.prod i hi j hji, ha i hi j hji]⟩⟩
  obtain ⟨-, -, hn', hcL'⟩ := (main f').2 c' hs'
  refine ⟨c', hs', by rw [hn', hn, hr], ?_⟩
  rw [hr] at hcL'
  rw [hn]
  exact C122_factor_unique hcL' hcL ha

/-! ## what is written -/

/-- A run succeeds exactly if every name has two parts, every input is in the block, there are as many inputs as rows of the
covariance, and not more outputs. -/
theorem C122_runs (c : Config) (B : Block) : (execute c B).2 = none ↔
    ∃ ins outs : List (String × String), ∃ x, c.inputs = parts ins ∧ c.outputs = parts outs ∧ Holds B ins x ∧
      ins.length = c.n ∧ outs.length ≤ c.n := by
  constructor
  · intro h
    unfold execute at h
    cases hr : readInputs B c.inputs with
    | error e => simp [hr] at h
    | ok x =>
      simp only [hr] at h
      split_ifs at h with hl
      obtain ⟨ins, h1, h2, h3⟩ := readInputs_ok hr
      have hout : ∀ (l : List (List String)) (i : ℕ) (B : Block), i ≤ c.n → (writeOutputs c.n (matvec c.n c.L x) i l B).2 = none →
          ∃ outs, l = parts outs ∧ i + outs.length ≤ c.n := by
        intro l
        induction l with
        | nil => exact fun i B hi _ => ⟨[], rfl, by simpa using hi⟩
        | cons q l ih =>
          intro i B hi hw
          match q, hw with
          | [s, m], hw =>
            unfold writeOutputs at hw
            split_ifs at hw with hin
            obtain ⟨outs, e, hle⟩ := ih (i + 1) _ hin hw
            exact ⟨(s, m) :: outs, by simp [parts, e], by simp only [List.length_cons]; omega⟩
          | [], hw => simp [writeOutputs] at hw
          | [_], hw => simp [writeOutputs] at hw
          | _ :: _ :: _ :: _, hw => simp [writeOutputs] at hw
      obtain ⟨outs, e, hle⟩ := hout c.outputs 0 B (Nat.zero_le _) h
      refine ⟨ins, outs, _, h1, e, h3, ?_, by simpa using hle⟩
      rw [← hl, h2, h1, parts, List.length_map]
  · rintro ⟨ins, outs, x, h1, h2, h3, h4, h5⟩
    unfold execute
    rw [h1, readInputs_holds h3]
    simp only [List.length_map, List.length_range, h4, if_true, h2]
    exact (write_ok (by simpa using h5)).1

theorem matvec_eq {n : ℕ} {A L : ℕ → ℕ → ℝ} (hL : IsChol n A L) (x : ℕ → ℝ) {i : ℕ} (hi : i < n) :
    matvec n L ((List.range n).map x) i = ∑ j ∈ range (i + 1), L i j * x j := by
  unfold matvec
  symm
  refine (sum_congr rfl fun j hj => ?_).trans (sum_subset (range_subset_range.2 hi) fun k hk hk' => ?_)
  · have : j < n := by have := mem_range.1 hj; omega
    rw [List.getD_eq_getElem _ _ (by simpa using this)]
    simp
  · have : i < k := by simpa using hk'
    rw [hL.upper i k this (by simpa using hk), zero_mul]

/-- The value written to output `i` is the sum of the inputs up to `i` with row `i` of the factor; if a name occurs several times
among the outputs the last one counts; entries that are not outputs are left as they were.  The inputs are all read first, so an
output may have the name of an input. -/
theorem C122_values {c : Config} {B : Block} {ins outs : List (String × String)} {x : ℕ → ℝ} {A : ℕ → ℕ → ℝ}
    (hi : c.inputs = parts ins) (ho : c.outputs = parts outs) (hx : Holds B ins x) (hn : ins.length = c.n)
    (hm : outs.length ≤ c.n) (hL : IsChol c.n A c.L) :
    (∀ j (hj : j < outs.length), (∀ m (hm : m < outs.length), j < m → outs[m] ≠ outs[j]) →
      (execute c B).1 outs[j] = some (∑ k ∈ range (j + 1), c.L j k * x k)) ∧
    ∀ k, k ∉ outs → (execute c B).1 k = B k := by
  have he : execute c B = writeOutputs c.n (matvec c.n c.L ((List.range c.n).map x)) 0 (parts outs) B := by
    unfold execute
    rw [hi, readInputs_holds hx]
    simp only [List.length_map, List.length_range, hn, if_true, ho]
  obtain ⟨-, h2, h3⟩ := write_ok (n := c.n) (p := matvec c.n c.L ((List.range c.n).map x)) (i := 0) (l := outs) (B := B)
    (by simpa using hm)
  rw [he]
  refine ⟨fun j hj hd => ?_, h2⟩
  rw [h3 j hj hd, zero_add, matvec_eq hL x (by omega)]

/-- With more outputs than rows the run stops with an IndexError after the block has received the first ones. -/
theorem C122_too_many_outputs {c : Config} {B : Block} {ins outs : List (String × String)} {x : ℕ → ℝ} {A : ℕ → ℕ → ℝ}
    (hi : c.inputs = parts ins) (ho : c.outputs = parts outs) (hx : Holds B ins x) (hn : ins.length = c.n)
    (hm : c.n < outs.length) (hd : outs.Nodup) (hL : IsChol c.n A c.L) :
    (execute c B).2 = some .indexError ∧
    ∀ j (hj : j < c.n), (execute c B).1 (outs[j]'(by omega)) = some (∑ k ∈ range (j + 1), c.L j k * x k) := by
  have he : execute c B = writeOutputs c.n (matvec c.n c.L ((List.range c.n).map x)) 0 (parts outs) B := by
    unfold execute
    rw [hi, readInputs_holds hx]
    simp only [List.length_map, List.length_range, hn, if_true, ho]
  have key : ∀ (l : List (String × String)) (i : ℕ) (B : Block) (p : ℕ → ℝ), i ≤ c.n → c.n < i + l.length →
      writeOutputs c.n p i (parts l) B = ((writeOutputs c.n p i (parts (l.take (c.n - i))) B).1, some .indexError) := by
    intro l
    induction l with
    | nil => intro i B p h1 h2; simp at h2; omega
    | cons q l ih =>
      intro i B p h1 h2
      simp only [List.length_cons] at h2
      by_cases h : i < c.n
      · have e : c.n - i = (c.n - (i + 1)) + 1 := by omega
        rw [e, List.take_succ_cons]
        show (if i < c.n then _ else _) = ((if i < c.n then _ else _ : Block × Option PyErr).1, _)
        rw [if_pos h, if_pos h]
        exact ih (i + 1) _ p h (by omega)
      · have e : c.n - i = 0 := by omega
        rw [e, List.take_zero]
        show (if i < c.n then _ else _) = _
        rw [if_neg h]
        rfl
  have hk := key outs 0 B (matvec c.n c.L ((List.range c.n).map x)) (Nat.zero_le _) (by simpa using hm)
  rw [he, hk]
  refine ⟨rfl, fun j hj => ?_⟩
  have hlen : (outs.take (c.n - 0)).length = c.n := by simp; omega
  have := (write_ok (n := c.n) (p := matvec c.n c.L ((List.range c.n).map x)) (i := 0) (l := outs.take (c.n - 0)) (B := B)
    (by omega)).2.2 j (by omega) (fun m hm hjm e => by
      have hnd := hd.sublist (List.take_sublist (c.n - 0) outs)
      have := (List.Nodup.getElem_inj_iff hnd).1 e
      omega)
  rw [List.getElem_take] at this
  rw [this, zero_add, matvec_eq hL x hj]

/-- Output `j` does not depend on the inputs after `j`. -/
theorem C122_triangular {c : Config} {B B' : Block} {ins outs : List (String × String)} {x x' : ℕ → ℝ} {A : ℕ → ℕ → ℝ}
    (hi : c.inputs = parts ins) (ho : c.outputs = parts outs) (hx : Holds B ins x) (hx' : Holds B' ins x')
    (hn : ins.length = c.n) (hm : outs.length ≤ c.n) (hd : outs.Nodup) (hL : IsChol c.n A c.L) (j : ℕ) (hj : j < outs.length)
    (h : ∀ k ≤ j, x k = x' k) : (execute c B).1 outs[j] = (execute c B').1 outs[j] := by
  have hnd : ∀ m (hm : m < outs.length), j < m → outs[m] ≠ outs[j] := fun m hm hjm e => by
    have := (List.Nodup.getElem_inj_iff hd).1 e
    omega
  rw [(C122_values hi ho hx hn hm hL).1 j hj hnd, (C122_values hi ho hx' hn hm hL).1 j hj hnd]
  congr 1
  exact sum_congr rfl fun k hk => by rw [h k (by have := mem_range.1 hk; omega)]

/-! ## the distribution -/

/-- If the inputs are random with unit variances and no correlations, the outputs have the covariance of the file: entry `(i, j)` of
its lower triangle. Their means are the same sums of the means of the inputs, zero for inputs of mean zero: the module cannot
shift the parameters. -/
theorem C122_covariance {Ω : Type*} [MeasurableSpace Ω] {μ : Measure Ω} [IsProbabilityMeasure μ] {c : Config} {B : Ω → Block}
    {ins outs : List (String × String)} {X : ℕ → Ω → ℝ} {A : ℕ → ℕ → ℝ} (hi : c.inputs = parts ins) (ho : c.outputs = parts outs)
    (hx : ∀ ω, Holds (B ω) ins fun i => X i ω) (hn : ins.length = c.n) (hm : outs.length ≤ c.n) (hd : outs.Nodup)
    (hL : IsChol c.n A c.L) (h2 : ∀ i < c.n, MemLp (X i) 2 μ)
    (hcov : ∀ i < c.n, ∀ j < c.n, cov[X i, X j; μ] = if i = j then 1 else 0) :
    ∃ Y : ℕ → Ω → ℝ, (∀ i (hi : i < outs.length) ω, (execute c (B ω)).1 outs[i] = some (Y i ω)) ∧
      (∀ i < outs.length, ∀ j ≤ i, cov[Y i, Y j; μ] = A i j) ∧
      (∀ i < outs.length, ∫ ω, Y i ω ∂μ = ∑ k ∈ range (i + 1), c.L i k * ∫ ω, X k ω ∂μ) ∧
      ((∀ k < c.n, ∫ ω, X k ω ∂μ = 0) → ∀ i < outs.length, ∫ ω, Y i ω ∂μ = 0) := by
  have hmean : ∀ i < outs.length, ∫ ω, (∑ k ∈ range (i + 1), c.L i k * X k ω) ∂μ = ∑ k ∈ range (i + 1), c.L i k * ∫ ω, X k ω ∂μ := by
    intro i hi
    rw [integral_finsetSum _ fun k hk => ?_]
    · exact sum_congr rfl fun k _ => integral_const_mul _ _
    · exact ((h2 k (by have := mem_range.1 hk; omega)).integrable (by norm_num)).const_mul _
  refine ⟨fun i ω => ∑ k ∈ range (i + 1), c.L i k * X k ω, fun i hi' ω => ?_, fun i hi' j hj => ?_, hmean, fun h0 i hi' => ?_⟩
  · exact (C122_values hi ho (hx ω) hn hm hL).1 i hi' fun m hm hjm e => by
      have := (List.Nodup.getElem_inj_iff hd).1 e
      omega
  · have hext : ∀ a, a < outs.length → (fun ω => ∑ k ∈ range (a + 1), c.L a k * X k ω) = fun ω => ∑ k ∈ range c.n, c.L a k * X k ω := by
      intro a ha
      funext ω
      refine sum_subset (range_subset_range.2 (by omega)) fun k hk hk' => ?_
      have : a < k := by simpa using hk'
      rw [hL.upper a k this (by simpa using hk), zero_mul]
    show cov[fun ω => ∑ k ∈ range (i + 1), c.L i k * X k ω, fun ω => ∑ k ∈ range (j + 1), c.L j k * X k ω; μ] = A i j
    rw [hext i hi', hext j (by omega), covariance_fun_sum_fun_sum' (fun k hk => (h2 k (mem_range.1 hk)).const_mul _)
      (fun k hk => (h2 k (mem_range.1 hk)).const_mul _), ← hL.prod i (by omega) j hj]
    refine sum_congr rfl fun k hk => ?_
    rw [sum_eq_single k]
    · rw [covariance_const_mul_left, covariance_const_mul_right, hcov k (mem_range.1 hk) k (mem_range.1 hk), if_pos rfl]
      ring
    · intro m hm hmk
      rw [covariance_const_mul_left, covariance_const_mul_right, hcov k (mem_range.1 hk) m (mem_range.1 hm), if_neg hmk.symm]
      ring
    · intro h; exact absurd hk h
  · show ∫ ω, (∑ k ∈ range (i + 1), c.L i k * X k ω) ∂μ = 0
    rw [hmean i hi']
    exact sum_eq_zero fun k hk => by rw [h0 k (by have := mem_range.1 hk; omega), mul_zero]

/-! ## the hypotheses are met -/

/-- the covariance with rows `4 2` and `2 2` -/
def exA : ℕ → ℕ → ℝ := fun i j => if i = 0 ∧ j = 0 then 4 else 2

/-- its factor, with rows `2 0` and `1 1` -/
def exL : ℕ → ℕ → ℝ := fun i j => if i = 0 then (if j = 0 then 2 else 0) else 1

theorem ex_chol : IsChol 2 exA exL where
  diag i _ := by unfold exL; split_ifs <;> norm_num
  upper i j hij hj := by
    have h0 : i = 0 := by omega
    have h1 : j = 1 := by omega
    subst h0 h1
    simp [exL]
  prod i hi j hji := by
    have : (i = 0 ∧ j = 0) ∨ (i = 1 ∧ j = 0) ∨ (i = 1 ∧ j = 1) := by omega
    rcases this with ⟨rfl, rfl⟩ | ⟨rfl, rfl⟩ | ⟨rfl, rfl⟩ <;> norm_num [sum_range_succ, exL, exA]

open Classical in
/-- some function which behaves as documented -/
noncomputable def exCholesky (n : ℕ) (A : ℕ → ℕ → ℝ) : Option (ℕ → ℕ → ℝ) :=
  if h : ∃ L, IsChol n A L then some h.choose else none

theorem ex_cholesky : Chol exCholesky := fun n A => by
  unfold exCholesky
  split_ifs with h
  · exact h.choose_spec
  · exact h

/-- two inputs; the first output has the name of the first input -/
def exConfig : Config := ⟨[["p", "a"], ["p", "b"]], [["p", "a"], ["q", "b"]], 2, exL⟩

def exIns : List (String × String) := [("p", "a"), ("p", "b")]

def exOuts : List (String × String) := [("p", "a"), ("q", "b")]

def exBlock (x : ℕ → ℝ) : Block := fun k => if k = ("p", "a") then some (x 0) else if k = ("p", "b") then some (x 1) else none

theorem ex_holds (x : ℕ → ℝ) : Holds (exBlock x) exIns x := fun i hi => by
  have : i = 0 ∨ i = 1 := by simp [exIns] at hi; omega
  rcases this with rfl | rfl <;> simp [exBlock, exIns]

/-- `C122_factor_unique`, `C122_setup`: a file with another upper triangle gives the same module -/
example : (∃ c, setup exCholesky exConfig.inputs exConfig.outputs ⟨2, 2, exA⟩ = .ok c) ∧
    ¬ ∃ c, setup exCholesky [["p", "a"]] [["q", "a"]] ⟨1, 1, exA⟩ = .ok c :=
  ⟨(C122_setup ex_cholesky _ _ _).1.2 ⟨rfl, le_rfl, exL, ex_chol⟩, fun h => by
    have := ((C122_setup ex_cholesky _ _ _).1.1 h).2.1
    norm_num at this⟩

/-- `C122_runs`, `C122_values`: both outputs of the example -/
example : (execute exConfig (exBlock fun _ => 1)).2 = none ∧ (execute exConfig (exBlock fun _ => 1)).1 ("p", "a") = some 2 ∧
    (execute exConfig (exBlock fun _ => 1)).1 ("q", "b") = some 2 := by
  have hv := (C122_values (c := exConfig) (outs := exOuts) rfl rfl (ex_holds fun _ => 1) rfl le_rfl ex_chol).1
  refine ⟨(C122_runs _ _).2 ⟨exIns, exOuts, _, rfl, rfl, ex_holds _, rfl, le_rfl⟩, ?_, ?_⟩
  · refine (hv 0 (by decide) (by decide)).trans ?_
    norm_num [exConfig, exL]
  · refine (hv 1 (by decide) (by decide)).trans ?_
    norm_num [exConfig, exL, sum_range_succ]

/-- `C122_too_many_outputs` -/
example : (execute { exConfig with outputs := parts (exOuts ++ [("q", "c")]) } (exBlock fun _ => 1)).2 = some .indexError :=
  (C122_too_many_outputs (ins := exIns) (outs := exOuts ++ [("q", "c")]) rfl rfl (ex_holds fun _ => 1) rfl (by decide) (by decide)
    ex_chol).1

/-- `C122_triangular` -/
example : (execute exConfig (exBlock fun _ => 1)).1 ("p", "a") = (execute exConfig (exBlock fun i => 1 + 3 * i)).1 ("p", "a") :=
  C122_triangular (c := exConfig) (outs := exOuts) rfl rfl (ex_holds _) (ex_holds _) rfl le_rfl (by decide) ex_chol 0 (by decide)
    fun k hk => by
      have : k = 0 := by omega
      simp [this]

/-- two fair signs -/
def exX : ℕ → Fin 4 → ℝ := fun i ω => if i = 0 then (if ω.1 < 2 then 1 else -1) else (if ω.1 % 2 = 0 then 1 else -1)

/-- `C122_covariance`: with two fair signs for inputs the covariance of the outputs is that of the file -/
example : ∃ Y : ℕ → Fin 4 → ℝ, (∀ ω, (execute exConfig (exBlock fun i => exX i ω)).1 ("q", "b") = some (Y 1 ω)) ∧
    cov[Y 1, Y 0; (PMF.uniformOfFintype (Fin 4)).toMeasure] = 2 := by
  obtain ⟨Y, h1, h2, -⟩ := C122_covariance (μ := (PMF.uniformOfFintype (Fin 4)).toMeasure) (c := exConfig) (outs := exOuts)
    (B := fun ω => exBlock fun i => exX i ω) (X := exX) rfl rfl (fun ω => ex_holds _) rfl le_rfl (by decide) ex_chol
    (fun i _ => MemLp.of_discrete) (fun i hi j hj => by
      have hi : i < 2 := hi
      have hj : j < 2 := hj
      unfold covariance
      simp only [PMF.integral_eq_sum, PMF.uniformOfFintype_apply, Fin.sum_univ_four]
      have : (i = 0 ∨ i = 1) ∧ (j = 0 ∨ j = 1) := by omega
      rcases this with ⟨rfl | rfl, rfl | rfl⟩ <;> norm_num [exX])
  exact ⟨Y, fun ω => h1 1 (by decide) ω, (h2 1 (by decide) 0 (by omega)).trans (by norm_num [exA])⟩

end Verif.CorrelatedPriors

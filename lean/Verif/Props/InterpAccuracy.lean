import Verif.Model.Add
import Verif.Model.Collect
import Verif.Model.Hod
import Verif.Lemmas.Interp
import Verif.Lemmas.Simpson
import Mathlib.Analysis.Convex.Deriv

/-! Property C153: how far interpolated results are from the functions they are taken from. -/

namespace Verif.InterpAccuracy

open Verif.Lib Verif.Spec Set

/-- the second derivative is between `-M` and `M`, said without derivatives: adding `M t² / 2` makes the function convex, subtracting it
makes the function concave -/
def Bent (M : ℝ) (I : Set ℝ) (f : ℝ → ℝ) : Prop :=
  ConvexOn ℝ I (fun t => f t + M / 2 * t ^ 2) ∧ ConcaveOn ℝ I (fun t => f t - M / 2 * t ^ 2)

/-- functions with a second derivative between `-M` and `M` -/
theorem bent_of_derivatives {M a b : ℝ} {f f' f'' : ℝ → ℝ} (h1 : ∀ t ∈ Icc a b, HasDerivAt f (f' t) t)
    (h2 : ∀ t ∈ Icc a b, HasDerivAt f' (f'' t) t) (hM : ∀ t ∈ Icc a b, |f'' t| ≤ M) : Bent M (Icc a b) f := by
  have s : ∀ t ∈ interior (Icc a b), t ∈ Icc a b := fun t ht => interior_subset ht
  have q1 : ∀ t : ℝ, HasDerivAt (fun t : ℝ => M / 2 * t ^ 2) (M * t) t := fun t => by
    refine ((hasDerivAt_pow 2 t).const_mul (M / 2)).congr_deriv ?_
    norm_num; ring
  have q2 : ∀ t : ℝ, HasDerivAt (fun t : ℝ => M * t) M t := fun t => by
    simpa using (hasDerivAt_id t).const_mul M
  constructor
  · refine convexOn_of_hasDerivWithinAt2_nonneg (convex_Icc a b) (f' := fun t => f' t + M * t) (f'' := fun t => f'' t + M)
      (fun t ht => ((h1 t ht).add (q1 t)).continuousAt.continuousWithinAt) (fun t ht => ((h1 t (s t ht)).add (q1 t)).hasDerivWithinAt)
      (fun t ht => ((h2 t (s t ht)).add (q2 t)).hasDerivWithinAt) fun t ht => ?_
    have := (abs_le.1 (hM t (s t ht))).1
    linarith
  · refine concaveOn_of_hasDerivWithinAt2_nonpos (convex_Icc a b) (f' := fun t => f' t - M * t) (f'' := fun t => f'' t - M)
      (fun t ht => ((h1 t ht).sub (q1 t)).continuousAt.continuousWithinAt) (fun t ht => ((h1 t (s t ht)).sub (q1 t)).hasDerivWithinAt)
      (fun t ht => ((h2 t (s t ht)).sub (q2 t)).hasDerivWithinAt) fun t ht => ?_
    have := (abs_le.1 (hM t (s t ht))).2
    linarith

/-- the straight line through two points of a graph -/
noncomputable def line (f : ℝ → ℝ) (a b q : ℝ) : ℝ := (f b - f a) / (b - a) * (q - a) + f a

theorem chord {g : ℝ → ℝ} {I : Set ℝ} (hg : ConvexOn ℝ I g) {x y z : ℝ} (hx : x ∈ I) (hz : z ∈ I) (h1 : x ≤ y) (h2 : y ≤ z) (h : x < z) :
    (z - x) * g y ≤ (z - y) * g x + (y - x) * g z := by
  have d : 0 < z - x := by linarith
  have e := hg.2 hx hz (div_nonneg (sub_nonneg.2 h2) d.le) (div_nonneg (sub_nonneg.2 h1) d.le) (by field_simp; ring)
  simp only [smul_eq_mul] at e
  have i : (z - y) / (z - x) * x + (y - x) / (z - x) * z = y := by field_simp; ring
  rw [i] at e
  have := mul_le_mul_of_nonneg_left e d.le
  refine this.trans_eq ?_
  field_simp

theorem line_inside {g : ℝ → ℝ} {I : Set ℝ} (hg : ConvexOn ℝ I g) {a b q : ℝ} (ha : a ∈ I) (hb : b ∈ I) (h : a < b) (h1 : a ≤ q) (h2 : q ≤ b) :
    g q ≤ line g a b q := by
  have d : 0 < b - a := by linarith
  have := chord hg ha hb h1 h2 h
  have e : line g a b q = ((b - q) * g a + (q - a) * g b) / (b - a) := by rw [line]; field_simp; ring
  rw [e, le_div_iff₀ d]
  linarith

theorem line_outside {g : ℝ → ℝ} {I : Set ℝ} (hg : ConvexOn ℝ I g) {a b q : ℝ} (ha : a ∈ I) (hb : b ∈ I) (hq : q ∈ I) (h : a < b)
    (h1 : q ≤ a ∨ b ≤ q) : line g a b q ≤ g q := by
  have d : 0 < b - a := by linarith
  have e : line g a b q = ((b - q) * g a + (q - a) * g b) / (b - a) := by rw [line]; field_simp; ring
  rw [e, div_le_iff₀ d]
  rcases h1 with h1 | h1
  · have := chord hg hq hb h1 h.le (by linarith)
    linarith
  · have := chord hg ha hq h.le h1 (by linarith)
    linarith

theorem line_add (f g : ℝ → ℝ) (a b q : ℝ) : line (fun t => f t + g t) a b q = line f a b q + line g a b q := by
  simp only [line]; ring

theorem line_square {a b : ℝ} (h : a < b) (M q : ℝ) : line (fun t => M / 2 * t ^ 2) a b q = M / 2 * q ^ 2 - M / 2 * ((q - a) * (q - b)) := by
  have d : b - a ≠ 0 := by intro e; linarith
  simp only [line]; field_simp; ring

/-- a straight line through two points of a graph misses the graph by at most half the second derivative times the distances to both -/
theorem Bent.line {M : ℝ} {I : Set ℝ} {f : ℝ → ℝ} (hf : Bent M I f) {a b q : ℝ} (ha : a ∈ I) (hb : b ∈ I) (hq : q ∈ I) (h : a < b) :
    |line f a b q - f q| ≤ M / 2 * |(q - a) * (q - b)| := by
  obtain ⟨h1, h2⟩ := hf
  have h2' : ConvexOn ℝ I fun t => -f t + M / 2 * t ^ 2 := by
    refine h2.neg.congr fun t _ => ?_
    simp only [Pi.neg_apply]; ring
  have s := line_square h M q
  have n : InterpAccuracy.line (fun t => -f t) a b q = -InterpAccuracy.line f a b q := by simp only [InterpAccuracy.line]; ring
  have e1 := line_add f (fun t => M / 2 * t ^ 2) a b q
  have e2 := line_add (fun t => -f t) (fun t => M / 2 * t ^ 2) a b q
  by_cases c : a ≤ q ∧ q ≤ b
  · have i1 := line_inside h1 ha hb h c.1 c.2
    have i2 := line_inside h2' ha hb h c.1 c.2
    rw [e1, s] at i1
    rw [e2, s, n] at i2
    have : (q - a) * (q - b) ≤ 0 := mul_nonpos_of_nonneg_of_nonpos (by linarith [c.1]) (by linarith [c.2])
    rw [abs_of_nonpos this, abs_le]
    constructor <;> linarith
  · have c' : q ≤ a ∨ b ≤ q := by
      rcases not_and_or.1 c with c | c
      · exact .inl (not_le.1 c).le
      · exact .inr (not_le.1 c).le
    have i1 := line_outside h1 ha hb hq h c'
    have i2 := line_outside h2' ha hb hq h c'
    rw [e1, s] at i1
    rw [e2, s, n] at i2
    have : 0 ≤ (q - a) * (q - b) := by
      rcases c' with c | c
      · exact mul_nonneg_of_nonpos_of_nonpos (by linarith) (by linarith)
      · exact mul_nonneg (by linarith) (by linarith)
    rw [abs_of_nonneg this, abs_le]
    constructor <;> linarith

theorem Bent.congr' {M : ℝ} {I : Set ℝ} {f g : ℝ → ℝ} (hf : Bent M I f) (h : ∀ t, g t = f t) : Bent M I g := by
  rwa [show g = f from funext h]

theorem Bent.nonneg {M : ℝ} {I : Set ℝ} {f : ℝ → ℝ} (hf : Bent M I f) {a b : ℝ} (ha : a ∈ I) (hb : b ∈ I) (h : a < b) : 0 ≤ M := by
  have hm : (a + b) / 2 ∈ I := by
    have c : Convex ℝ I := hf.1.1
    have := c ha hb (show (0 : ℝ) ≤ 1 / 2 by norm_num) (show (0 : ℝ) ≤ 1 / 2 by norm_num) (by norm_num)
    simp only [smul_eq_mul] at this
    convert this using 1; ring
  have := hf.line ha hb hm h
  have p : 0 < |((a + b) / 2 - a) * ((a + b) / 2 - b)| := abs_pos.2 (mul_ne_zero (by intro e; linarith) (by intro e; linarith))
  by_contra hM
  have := (abs_nonneg _).trans this
  nlinarith

variable {n : ℕ} {x y : ℕ → ℝ} {f : ℝ → ℝ} {M h q : ℝ}

theorem interp_line (hn : 2 ≤ n) (hy : ∀ i < n, y i = f (x i)) (q : ℝ) :
    interpLinear n x y q = line f (x (segment n x q - 1)) (x (segment n x q)) q := by
  have h2 := segment_lt hn x q
  rw [interpLinear, hy _ h2, hy _ (by omega), line]

theorem mem_range (hx : SortedOn n x) {i : ℕ} (hi : i < n) : x i ∈ Icc (x 0) (x (n - 1)) :=
  ⟨hx.le (Nat.zero_le i) hi, hx.le (by omega) (by omega)⟩

theorem segment_above (hn : 2 ≤ n) (hx : SortedOn n x) (hq : x (n - 1) < q) : segment n x q = n - 1 := by
  have : searchsorted n x q = n := searchsorted_eq le_rfl (fun i hi => (hx.le (by omega) (by omega)).trans_lt hq) (fun i hi hin => by omega)
  rw [Lib.segment, this]; omega

theorem segment_below (hx : SortedOn n x) (hq : q ≤ x 0) : segment n x q = 1 := by
  have : searchsorted n x q = 0 := searchsorted_eq (Nat.zero_le n) (fun i hi => by omega) (fun i _ hin => hq.trans (hx.le (Nat.zero_le i) hin))
  rw [Lib.segment, this, Nat.zero_min, max_eq_left (by omega)]

/-- C153: between the nodes linear interpolation is off by at most an eighth of the second derivative times the square of the spacing -/
theorem C153_between_nodes (hn : 2 ≤ n) (hx : SortedOn n x) (hy : ∀ i < n, y i = f (x i)) (hf : Bent M (Icc (x 0) (x (n - 1))) f)
    (hh : ∀ i, i + 1 < n → x (i + 1) - x i ≤ h) (h0 : x 0 ≤ q) (h1 : q ≤ x (n - 1)) :
    |interpLinear n x y q - f q| ≤ M * h ^ 2 / 8 := by
  obtain ⟨ha, hb⟩ := segment_bracket hn hx h0 h1
  have hj1 := segment_pos n x q
  have hj2 := segment_lt hn x q
  rw [interp_line hn hy]
  have hl := hx (segment n x q - 1) (segment n x q) (by omega) hj2
  refine (hf.line (mem_range hx (by omega)) (mem_range hx hj2) ⟨h0, h1⟩ hl).trans ?_
  have hs := hh (segment n x q - 1) (by omega)
  rw [Nat.sub_add_cancel hj1] at hs
  have hM := hf.nonneg (mem_range hx (i := segment n x q - 1) (by omega)) (mem_range hx hj2) hl
  generalize x (segment n x q - 1) = a at *
  generalize x (segment n x q) = b at *
  rw [abs_of_nonpos (mul_nonpos_of_nonneg_of_nonpos (by linarith) (by linarith))]
  have k : -((q - a) * (q - b)) ≤ h ^ 2 / 4 := by nlinarith [sq_nonneg (2 * q - a - b)]
  calc M / 2 * -((q - a) * (q - b)) ≤ M / 2 * (h ^ 2 / 4) := mul_le_mul_of_nonneg_left k (by linarith)
    _ = M * h ^ 2 / 8 := by ring

/-- C153: at a distance `d` from the last node, on either side, extrapolation is off by at most half the second derivative times `d (d + h)` -/
theorem C153_beyond_nodes {I : Set ℝ} (hn : 2 ≤ n) (hx : SortedOn n x) (hy : ∀ i < n, y i = f (x i)) (hI : ∀ i < n, x i ∈ I) (hf : Bent M I f)
    (hh : ∀ i, i + 1 < n → x (i + 1) - x i ≤ h) (hq : q ∈ I) {d : ℝ} (hd : 0 ≤ d) (hqd : q = x (n - 1) + d ∨ q = x 0 - d) :
    |interpLinear n x y q - f q| ≤ M / 2 * (d * (d + h)) := by
  have hM := hf.nonneg (hI 0 (by omega)) (hI 1 (by omega)) (hx 0 1 (by omega) (by omega))
  have l0 : x 0 < x (0 + 1) := hx 0 1 (by omega) (by omega)
  have s0 := hh 0 (by omega)
  have l1 := hx (n - 2) (n - 1) (by omega) (by omega)
  have s1 := hh (n - 2) (by omega)
  rw [show n - 2 + 1 = n - 1 by omega] at s1
  have hh0 : 0 ≤ h := by linarith
  rcases hd.eq_or_lt with rfl | hd
  · rw [add_zero, sub_zero] at hqd
    rcases hqd with rfl | rfl
    · rw [interpLinear_node hn hx y (by omega), hy _ (by omega)]; simp
    · rw [interpLinear_node hn hx y (by omega), hy _ (by omega)]; simp
  · rw [interp_line hn hy]
    rcases hqd with e | e
    · rw [segment_above hn hx (by linarith), show n - 1 - 1 = n - 2 by omega]
      refine (hf.line (hI _ (by omega)) (hI _ (by omega)) hq l1).trans (mul_le_mul_of_nonneg_left ?_ (by linarith))
      rw [abs_of_nonneg (mul_nonneg (by linarith) (by linarith))]
      nlinarith
    · rw [segment_below hx (by linarith), Nat.sub_self]
      refine (hf.line (hI _ (by omega)) (hI _ (by omega)) hq l0).trans (mul_le_mul_of_nonneg_left ?_ (by linarith))
      rw [abs_of_nonneg (mul_nonneg_of_nonpos_of_nonpos (by linarith) (by linarith))]
      rw [zero_add] at *
      nlinarith

/-- C153: neither bound can be improved: both are met by a parabola, half way between two nodes and anywhere beyond the last one -/
theorem C153_sharp (hn : 2 ≤ n) (hx : SortedOn n x) (hM : 0 ≤ M) (hy : ∀ i < n, y i = M / 2 * x i ^ 2) :
    Bent M univ (fun t => M / 2 * t ^ 2) ∧
    (∀ i, i + 1 < n → interpLinear n x y ((x i + x (i + 1)) / 2) - M / 2 * ((x i + x (i + 1)) / 2) ^ 2 = M * (x (i + 1) - x i) ^ 2 / 8) ∧
    ∀ d, 0 < d → M / 2 * (x (n - 1) + d) ^ 2 - interpLinear n x y (x (n - 1) + d) = M / 2 * (d * (d + (x (n - 1) - x (n - 2)))) := by
  refine ⟨⟨?_, ?_⟩, fun i hi => ?_, fun d hd => ?_⟩
  · have : ConvexOn ℝ univ fun t : ℝ => M * t ^ 2 := (Even.convexOn_pow (by decide)).smul hM
    refine this.congr fun t _ => ?_
    ring
  · refine (concaveOn_const (𝕜 := ℝ) (0 : ℝ) convex_univ).congr fun t _ => ?_
    simp
  · have l := hx i (i + 1) (by omega) hi
    have e : searchsorted n x ((x i + x (i + 1)) / 2) = i + 1 :=
      searchsorted_eq (by omega) (fun j hj => (hx.le (by omega : j ≤ i) (by omega)).trans_lt (by linarith))
        (fun j hj hjn => le_trans (by linarith) (hx.le hj hjn))
    have s : segment n x ((x i + x (i + 1)) / 2) = i + 1 := by rw [Lib.segment, e]; omega
    rw [interp_line hn (f := fun t => M / 2 * t ^ 2) hy, s, Nat.add_sub_cancel, line_square l]
    ring
  · have l := hx (n - 2) (n - 1) (by omega) (by omega)
    rw [interp_line hn (f := fun t => M / 2 * t ^ 2) hy, segment_above hn hx (by linarith), show n - 1 - 1 = n - 2 by omega, line_square l]
    ring

/-! ## wavenumbers: power laws between the nodes -/

/-- steps of a grid of positive wavenumbers in the logarithm -/
theorem sorted_log {k : ℕ → ℝ} (hk : SortedOn n k) (h0 : 0 < k 0) : SortedOn n fun i => Real.log (k i) := fun i j hij hj =>
  Real.log_lt_log (h0.trans_le (hk.le (Nat.zero_le i) (by omega))) (hk i j hij hj)

/-- C153: the power spectra handed to the halo model, between the wavenumbers of the table.  If the logarithmic slope of the power changes by
at most `M` per unit of `log k`, and neighbouring wavenumbers of the table are at most a factor `e^h` apart, the relative error is at most
that of the factor `exp (M h² / 8)`. -/
theorem C153_wavenumbers {k : ℕ → ℝ} {P : ℝ → ℝ} {K : ℝ} (hn : 2 ≤ n) (hk : SortedOn n k) (h0 : 0 < k 0) (hP : ∀ t, k 0 ≤ t → t ≤ k (n - 1) → 0 < P t)
    (hf : Bent M (Icc (Real.log (k 0)) (Real.log (k (n - 1)))) fun t => Real.log (P (Real.exp t)))
    (hh : ∀ i, i + 1 < n → k (i + 1) ≤ Real.exp h * k i) (h1 : k 0 ≤ K) (h2 : K ≤ k (n - 1)) :
    P K * Real.exp (-(M * h ^ 2 / 8)) ≤ Interface.logLinearK n k (fun i => P (k i)) K ∧
    Interface.logLinearK n k (fun i => P (k i)) K ≤ P K * Real.exp (M * h ^ 2 / 8) := by
  have pos : ∀ i < n, 0 < k i := fun i hi => h0.trans_le (hk.le (Nat.zero_le i) hi)
  have hK : 0 < K := h0.trans_le h1
  have b := C153_between_nodes (n := n) (x := fun i => Real.log (k i)) (y := fun i => Real.log (P (k i))) (h := h) (q := Real.log K) hn (sorted_log hk h0)
    (fun i hi => by simp only [Real.exp_log (pos i hi)]) hf
    (fun i hi => by
      have := Real.log_le_log (pos _ hi) (hh i hi)
      rw [Real.log_mul (Real.exp_ne_zero h) (pos i (by omega)).ne', Real.log_exp] at this
      linarith)
    (Real.log_le_log h0 h1) (Real.log_le_log hK h2)
  simp only [Real.exp_log hK] at b
  have e : P K = Real.exp (Real.log (P K)) := (Real.exp_log (hP K h1 h2)).symm
  rw [abs_le] at b
  rw [Interface.logLinearK, interp1d]
  constructor
  · rw [e, ← Real.exp_add]; exact Real.exp_le_exp.2 (by linarith [b.1])
  · rw [e, ← Real.exp_add]; exact Real.exp_le_exp.2 (by linarith [b.2])

/-- interpolated values of tables that differ by at most `ε` differ by at most `ε` -/
theorem interp_near (hn : 2 ≤ n) (hx : SortedOn n x) (h0 : x 0 ≤ q) (h1 : q ≤ x (n - 1)) {y' : ℕ → ℝ} {ε : ℝ} (hy : ∀ i < n, |y i - y' i| ≤ ε) :
    |interpLinear n x y q - interpLinear n x y' q| ≤ ε := by
  obtain ⟨j, t, hj1, hj2, ht0, ht1, -, hv⟩ := interpLinear_convex hn hx h0 h1
  rw [hv, hv]
  have a := abs_le.1 (hy (j - 1) (by omega))
  have b := abs_le.1 (hy j hj2)
  rw [abs_le]
  constructor <;> nlinarith

/-- C153: the power spectra handed to the halo model, from the table in the data block: linear in redshift, then power laws in wavenumber.  The
error in redshift may be a fraction `ε` of the power. -/
theorem C153_input_power {nz nk : ℕ} {z k : ℕ → ℝ} {P : ℝ → ℝ → ℝ} {Z K ε hz : ℝ} {Mz : ℕ → ℝ} (hnz : 2 ≤ nz) (hnk : 2 ≤ nk) (hz' : SortedOn nz z)
    (hk : SortedOn nk k) (h0 : 0 < k 0) (hP : ∀ t, k 0 ≤ t → t ≤ k (nk - 1) → 0 < P Z t)
    (hfz : ∀ l < nk, Bent (Mz l) (Icc (z 0) (z (nz - 1))) fun t => P t (k l))
    (hfk : Bent M (Icc (Real.log (k 0)) (Real.log (k (nk - 1)))) fun t => Real.log (P Z (Real.exp t)))
    (hhz : ∀ i, i + 1 < nz → z (i + 1) - z i ≤ hz) (hε : ε < 1) (hsmall : ∀ l < nk, Mz l * hz ^ 2 / 8 ≤ ε * P Z (k l))
    (hh : ∀ i, i + 1 < nk → k (i + 1) ≤ Real.exp h * k i) (z1 : z 0 ≤ Z) (z2 : Z ≤ z (nz - 1)) (h1 : k 0 ≤ K) (h2 : K ≤ k (nk - 1)) :
    (1 - ε) * P Z K * Real.exp (-(M * h ^ 2 / 8)) ≤ Interface.logLinearK nk k (fun l => interpLinear nz z (fun m => P (z m) (k l)) Z) K ∧
    Interface.logLinearK nk k (fun l => interpLinear nz z (fun m => P (z m) (k l)) Z) K ≤ (1 + ε) * P Z K * Real.exp (M * h ^ 2 / 8) := by
  have pos : ∀ i < nk, 0 < k i := fun i hi => h0.trans_le (hk.le (Nat.zero_le i) hi)
  have Ppos : ∀ l < nk, 0 < P Z (k l) := fun l hl => hP _ (hk.le (Nat.zero_le l) hl) (hk.le (by omega) (by omega))
  have w := C153_wavenumbers (P := P Z) hnk hk h0 hP hfk hh h1 h2
  have near : ∀ l < nk, |interpLinear nz z (fun m => P (z m) (k l)) Z - P Z (k l)| ≤ ε * P Z (k l) := fun l hl =>
    (C153_between_nodes (f := fun t => P t (k l)) hnz hz' (fun _ _ => rfl) (hfz l hl) hhz z1 z2).trans (hsmall l hl)
  have ε0 : 0 ≤ ε := by
    have := (abs_nonneg _).trans (near 0 (by omega))
    exact nonneg_of_mul_nonneg_left this (Ppos 0 (by omega))
  have s := sorted_log hk h0
  have q1 : Real.log (k 0) ≤ Real.log K := Real.log_le_log h0 h1
  have q2 : Real.log K ≤ Real.log (k (nk - 1)) := Real.log_le_log (h0.trans_le h1) h2
  have lo : ∀ l < nk, Real.log (1 - ε) + Real.log (P Z (k l)) ≤ Real.log (interpLinear nz z (fun m => P (z m) (k l)) Z) := fun l hl => by
    have := abs_le.1 (near l hl)
    have p := Ppos l hl
    rw [← Real.log_mul (by linarith) p.ne']
    exact Real.log_le_log (mul_pos (by linarith) p) (by nlinarith [this.1])
  have up : ∀ l < nk, Real.log (interpLinear nz z (fun m => P (z m) (k l)) Z) ≤ Real.log (1 + ε) + Real.log (P Z (k l)) := fun l hl => by
    have := abs_le.1 (near l hl)
    have p := Ppos l hl
    rw [← Real.log_mul (by linarith) p.ne']
    exact Real.log_le_log (by nlinarith [this.1]) (by nlinarith [this.2])
  obtain ⟨j, t, hj1, hj2, ht0, ht1, -, hv⟩ := interpLinear_convex hnk s q1 q2
  have ht : 0 ≤ 1 - t := by linarith
  simp only [Interface.logLinearK, interp1d, hv] at w ⊢
  have l1 := mul_le_mul_of_nonneg_left (lo (j - 1) (by omega)) ht
  have l2 := mul_le_mul_of_nonneg_left (lo j hj2) ht0
  have u1 := mul_le_mul_of_nonneg_left (up (j - 1) (by omega)) ht
  have u2 := mul_le_mul_of_nonneg_left (up j hj2) ht0
  constructor
  · calc (1 - ε) * P Z K * Real.exp (-(M * h ^ 2 / 8)) = (1 - ε) * (P Z K * Real.exp (-(M * h ^ 2 / 8))) := by ring
      _ ≤ (1 - ε) * Real.exp ((1 - t) * Real.log (P Z (k (j - 1))) + t * Real.log (P Z (k j))) :=
        mul_le_mul_of_nonneg_left w.1 (by linarith)
      _ = Real.exp (Real.log (1 - ε) + ((1 - t) * Real.log (P Z (k (j - 1))) + t * Real.log (P Z (k j)))) := by
        rw [Real.exp_add (Real.log _), Real.exp_log (by linarith)]
      _ ≤ _ := Real.exp_le_exp.2 (by linarith)
  · calc _ ≤ Real.exp (Real.log (1 + ε) + ((1 - t) * Real.log (P Z (k (j - 1))) + t * Real.log (P Z (k j)))) := Real.exp_le_exp.2 (by linarith)
      _ = (1 + ε) * Real.exp ((1 - t) * Real.log (P Z (k (j - 1))) + t * Real.log (P Z (k j))) := by
        rw [Real.exp_add (Real.log _), Real.exp_log (by linarith)]
      _ ≤ (1 + ε) * (P Z K * Real.exp (M * h ^ 2 / 8)) := mul_le_mul_of_nonneg_left w.2 (by linarith)
      _ = _ := by ring

/-- C153: spectra of `UpsampledSpectra`, inside the coarse grid: linear in redshift, then linear in `log10 k` -/
theorem C153_upsampled {o : Add.Obj} {p : ℕ → ℕ → ℕ → ℝ} {F : ℝ → ℝ → ℝ} {zExt kExt : ℕ → ℝ} {b i j : ℕ} {Mz Mk hz hk : ℝ} (fill : Fill)
    (hnz : 2 ≤ o.nz) (hnk : 2 ≤ o.nk) (sz : SortedOn o.nz o.z) (sk : SortedOn o.nk o.k) (h0 : 0 < o.k 0)
    (hp : ∀ m < o.nz, ∀ l < o.nk, p b m l = F (o.z m) (Real.logb 10 (o.k l)))
    (hfz : ∀ l < o.nk, Bent Mz (Icc (o.z 0) (o.z (o.nz - 1))) fun t => F t (Real.logb 10 (o.k l)))
    (hfk : Bent Mk (Icc (Real.logb 10 (o.k 0)) (Real.logb 10 (o.k (o.nk - 1)))) fun t => F (zExt i) t)
    (hhz : ∀ m, m + 1 < o.nz → o.z (m + 1) - o.z m ≤ hz) (hhk : ∀ l, l + 1 < o.nk → Real.logb 10 (o.k (l + 1)) - Real.logb 10 (o.k l) ≤ hk)
    (z1 : o.z 0 ≤ zExt i) (z2 : zExt i ≤ o.z (o.nz - 1)) (k1 : o.k 0 ≤ kExt j) (k2 : kExt j ≤ o.k (o.nk - 1)) :
    |Add.extrapolateSpectra zExt kExt o p fill b i j - F (zExt i) (Real.logb 10 (kExt j))| ≤ Mz * hz ^ 2 / 8 + Mk * hk ^ 2 / 8 := by
  have pos : ∀ l < o.nk, 0 < o.k l := fun l hl => h0.trans_le (sk.le (Nat.zero_le l) hl)
  have s : SortedOn o.nk fun l => Real.logb 10 (o.k l) := fun l l' hl hl' => Real.logb_lt_logb (by norm_num) (pos l (by omega)) (sk l l' hl hl')
  have q1 : Real.logb 10 (o.k 0) ≤ Real.logb 10 (kExt j) := Real.logb_le_logb_of_le (by norm_num) h0 k1
  have q2 : Real.logb 10 (kExt j) ≤ Real.logb 10 (o.k (o.nk - 1)) := Real.logb_le_logb_of_le (by norm_num) (h0.trans_le k1) k2
  have near : ∀ l < o.nk, |interp1d fill o.nz o.z (fun m => p b m l) (zExt i) - F (zExt i) (Real.logb 10 (o.k l))| ≤ Mz * hz ^ 2 / 8 := fun l hl => by
    rw [interp1d_inside z1 z2]
    exact C153_between_nodes (f := fun t => F t (Real.logb 10 (o.k l))) hnz sz (fun m hm => hp m hm l hl) (hfz l hl) hhz z1 z2
  have e1 := interp_near hnk s q1 q2 near
  have e2 := C153_between_nodes (f := fun t => F (zExt i) t) (y := fun l => F (zExt i) (Real.logb 10 (o.k l))) hnk s (fun _ _ => rfl) hfk hhk q1 q2
  simp only [Add.extrapolateSpectra, interp1d, Add.log10]
  refine (abs_sub_le _ _ _).trans (add_le_add e1 e2)

/-- a weighted sum over halos of an interpolated table -/
theorem mass_sum {nm : ℕ} {mass c u v e : ℕ → ℝ} {w : ℝ} (g : GentleGrid nm mass) (hm : ∀ m < nm, 0 < mass m) (hc : ∀ m < nm, 0 ≤ c m)
    (h : ∀ m < nm, |u m - v m| ≤ e m * w) :
    |simpson nm mass (fun m => c m * u m / mass m) - simpson nm mass (fun m => c m * v m / mass m)| ≤
      w * simpson nm mass (fun m => c m * e m / mass m) := by
  have c' : ∀ m < nm, 0 ≤ c m / mass m := fun m hmm => div_nonneg (hc m hmm) (hm m hmm).le
  rw [← simpson_sub, ← simpson_smul, abs_le]
  constructor
  · have := simpson_mono g (y := fun m => -1 * (w * (c m * e m / mass m))) (z := fun m => c m * u m / mass m - c m * v m / mass m) fun m hmm => by
      have := mul_le_mul_of_nonneg_left (abs_le.1 (h m hmm)).1 (c' m hmm)
      calc _ = c m / mass m * -(e m * w) := by ring
        _ ≤ _ := this
        _ = _ := by ring
    rw [simpson_smul] at this
    linarith
  · refine simpson_mono g fun m hmm => ?_
    have := mul_le_mul_of_nonneg_left (abs_le.1 (h m hmm)).2 (c' m hmm)
    calc _ = c m / mass m * (u m - v m) := by ring
      _ ≤ _ := this
      _ = _ := by ring

/-- C153: the number density of a sample.  The mass function enters interpolated to the redshifts of the bin (spacing `hz` of the halo model), the
result interpolated back (spacing `hb` of the bin).  `D z` is the number density from the mass function at `z` itself. -/
theorem C153_number_density {H : Hod.Base} {b i : ℕ} {N g : ℝ → ℕ → ℝ} {Mm : ℕ → ℝ} {K hz hb E : ℝ} (g' : GentleGrid H.nm H.mass)
    (hm : ∀ m < H.nm, 0 < H.mass m) (hnz : 2 ≤ H.nzv) (hnb : 2 ≤ H.nz) (sz : SortedOn H.nzv H.zVec) (sb : SortedOn H.nz (H.z b))
    (hg : ∀ l < H.nzv, ∀ m < H.nm, H.dndlnm l m = g (H.zVec l) m) (hN : ∀ j < H.nz, ∀ m < H.nm, H.occ b j m = N (H.z b j) m)
    (N0 : ∀ j < H.nz, ∀ m < H.nm, 0 ≤ N (H.z b j) m) (hfz : ∀ m < H.nm, Bent (Mm m) (Icc (H.zVec 0) (H.zVec (H.nzv - 1))) fun t => g t m)
    (inside : ∀ j < H.nz, H.zVec 0 ≤ H.z b j ∧ H.z b j ≤ H.zVec (H.nzv - 1)) (hhz : ∀ l, l + 1 < H.nzv → H.zVec (l + 1) - H.zVec l ≤ hz)
    (hE : ∀ j < H.nz, simpson H.nm H.mass (fun m => N (H.z b j) m * Mm m / H.mass m) ≤ E)
    (hD : Bent K (Icc (H.z b 0) (H.z b (H.nz - 1))) fun t => simpson H.nm H.mass fun m => N t m * g t m / H.mass m)
    (hhb : ∀ j, j + 1 < H.nz → H.z b (j + 1) - H.z b j ≤ hb) (z1 : H.z b 0 ≤ H.zVec i) (z2 : H.zVec i ≤ H.z b (H.nz - 1)) :
    |H.numberDensity b i - simpson H.nm H.mass (fun m => N (H.zVec i) m * g (H.zVec i) m / H.mass m)| ≤ E * hz ^ 2 / 8 + K * hb ^ 2 / 8 := by
  have near : ∀ j < H.nz, |H.ntot b j - simpson H.nm H.mass (fun m => N (H.z b j) m * g (H.z b j) m / H.mass m)| ≤ E * hz ^ 2 / 8 := fun j hj => by
    have pt : ∀ m < H.nm, |H.dndlnmInt b j m - g (H.z b j) m| ≤ Mm m * (hz ^ 2 / 8) := fun m hmm => by
      have := C153_between_nodes (f := fun t => g t m) (y := fun l => H.dndlnm l m) hnz sz (fun l hl => hg l hl m hmm) (hfz m hmm) hhz
        (inside j hj).1 (inside j hj).2
      rw [← mul_div_assoc]
      exact this
    have s := mass_sum (e := Mm) g' hm (N0 j hj) pt
    have t : H.ntot b j = simpson H.nm H.mass (fun m => N (H.z b j) m * H.dndlnmInt b j m / H.mass m) := by
      rw [Hod.Base.ntot, Hod.Base.massIntegral]
      exact simpson_congr_right fun m hmm => by rw [hN j hj m hmm]
    rw [t]
    refine s.trans ?_
    have := mul_le_mul_of_nonneg_left (hE j hj) (show 0 ≤ hz ^ 2 / 8 by positivity)
    linarith
  have e1 := interp_near hnb sb z1 z2 near
  have e2 := C153_between_nodes (f := fun t => simpson H.nm H.mass fun m => N t m * g t m / H.mass m)
    (y := fun j => simpson H.nm H.mass fun m => N (H.z b j) m * g (H.z b j) m / H.mass m) hnb sb (fun _ _ => rfl) hD hhb z1 z2
  rw [Hod.Base.numberDensity, Hod.Base.interpolate, interp1d]
  exact (abs_sub_le _ _ _).trans (add_le_add e1 e2)

/-! ## examples -/

theorem bent_parabola {I : Set ℝ} (hI : Convex ℝ I) {M : ℝ} (hM : 0 ≤ M) (a : ℝ) : Bent M I fun t => a + M / 2 * t ^ 2 := by
  constructor
  · have : ConvexOn ℝ univ fun t : ℝ => M * t ^ 2 + a := ((Even.convexOn_pow (by decide)).smul hM).add_const a
    refine (this.subset (subset_univ I) hI).congr fun t _ => ?_
    ring
  · refine (concaveOn_const (𝕜 := ℝ) a hI).congr fun t _ => ?_
    simp

theorem sorted_nat (n : ℕ) : SortedOn n fun i => (i : ℝ) := fun i j hij _ => by
  simp only [Nat.cast_lt]; exact hij

/-- a sine from its values at 0, 1, 2, …, 9 is off by at most an eighth -/
example {q : ℝ} (h0 : 0 ≤ q) (h1 : q ≤ 9) : |interpLinear 10 (fun i => (i : ℝ)) (fun i => Real.sin i) q - Real.sin q| ≤ 1 / 8 := by
  have := C153_between_nodes (n := 10) (x := fun i => (i : ℝ)) (y := fun i => Real.sin i) (f := Real.sin) (M := 1) (h := 1) (q := q) (by norm_num)
    (sorted_nat 10) (fun _ _ => rfl)
    (bent_of_derivatives (f' := Real.cos) (f'' := fun t => -Real.sin t) (fun t _ => Real.hasDerivAt_sin t) (fun t _ => Real.hasDerivAt_cos t)
      fun t _ => by rw [abs_neg]; exact Real.abs_sin_le_one t)
    (fun i _ => by push_cast; linarith) (by simpa using h0) (by norm_num; exact h1)
  linarith

/-- one step beyond the last node it is off by at most one -/
example : |interpLinear 10 (fun i => (i : ℝ)) (fun i => Real.sin i) 10 - Real.sin 10| ≤ 1 := by
  have := C153_beyond_nodes (n := 10) (x := fun i => (i : ℝ)) (y := fun i => Real.sin i) (f := Real.sin) (M := 1) (h := 1) (q := 10) (d := 1)
    (I := Icc 0 10) (by norm_num) (sorted_nat 10) (fun _ _ => rfl)
    (fun i hi => ⟨by positivity, by exact_mod_cast (by omega : i ≤ 10)⟩)
    (bent_of_derivatives (f' := Real.cos) (f'' := fun t => -Real.sin t) (fun t _ => Real.hasDerivAt_sin t) (fun t _ => Real.hasDerivAt_cos t)
      fun t _ => by rw [abs_neg]; exact Real.abs_sin_le_one t)
    (fun i _ => by push_cast; linarith) ⟨by norm_num, le_rfl⟩ zero_le_one (.inl (by norm_num))
  linarith

/-- a power with a running slope, growing with redshift -/
noncomputable def running (z t : ℝ) : ℝ := (1 + z ^ 2) * Real.exp (Real.log t ^ 2 / 2)

theorem running_log (z t : ℝ) : Real.log (running z (Real.exp t)) = Real.log (1 + z ^ 2) + 1 / 2 * t ^ 2 := by
  rw [running, Real.log_mul (by positivity) (Real.exp_ne_zero _), Real.log_exp, Real.log_exp]
  ring

/-- wavenumbers a factor `e` apart, redshifts 0 and 1, asked at redshift a half: a fifth from the redshifts and an eighth from the wavenumbers -/
example {K : ℝ} (h1 : 1 ≤ K) (h2 : K ≤ Real.exp 4) :
    Interface.logLinearK 5 (fun i => Real.exp i) (fun l => interpLinear 2 (fun i => (i : ℝ)) (fun m => running m (Real.exp l)) (1 / 2)) K ≤
      (1 + 1 / 5) * running (1 / 2) K * Real.exp (1 / 8) := by
  have := (C153_input_power (nz := 2) (nk := 5) (z := fun i => (i : ℝ)) (k := fun i => Real.exp i) (P := running) (Z := 1 / 2) (K := K) (ε := 1 / 5) (hz := 1)
    (Mz := fun l => 2 * Real.exp ((l : ℝ) ^ 2 / 2)) (M := 1) (h := 1) le_rfl (by norm_num) (sorted_nat 2)
    (fun i j hij _ => Real.exp_lt_exp.2 (by exact_mod_cast hij)) (Real.exp_pos _) (fun t _ _ => by unfold running; positivity)
    (fun l _ => by
      have e : (fun t => running t (Real.exp l)) = fun t => Real.exp ((l : ℝ) ^ 2 / 2) + 2 * Real.exp ((l : ℝ) ^ 2 / 2) / 2 * t ^ 2 := by
        funext t; rw [running, Real.log_exp]; ring
      rw [e]
      exact bent_parabola (convex_Icc _ _) (by positivity) _)
    (by simp only [running_log]; exact bent_parabola (convex_Icc _ _) zero_le_one _)
    (fun i _ => by push_cast; linarith) (by norm_num)
    (fun l _ => by
      rw [running, Real.log_exp]
      have := Real.exp_pos ((l : ℝ) ^ 2 / 2)
      linarith)
    (fun i _ => by rw [← Real.exp_add]; push_cast; exact Real.exp_le_exp.2 (by linarith)) (by norm_num) (by norm_num)
    (by simpa using h1) (by simpa using h2)).2
  norm_num at this ⊢
  exact this

/-- a coarse grid of redshifts 0, 1, 2 and wavenumbers 1, 10, 100 -/
noncomputable def coarse : Add.Obj := { nz := 3, z := fun i => i, nk := 3, k := fun i => 10 ^ i, spec := fun _ => none }

example : |Add.extrapolateSpectra (fun _ => 1 / 2) (fun _ => 20) coarse (fun _ m l => (m : ℝ) ^ 2 / 2 + (l : ℝ) ^ 2 / 2) .extrapolate 0 0 0
    - ((1 / 2) ^ 2 / 2 + Real.logb 10 20 ^ 2 / 2)| ≤ 1 / 8 + 1 / 8 := by
  have lg : ∀ l : ℕ, Real.logb 10 (10 ^ l) = l := fun l => by rw [Real.logb_pow]; simp
  have := C153_upsampled (o := coarse) (p := fun _ m l => (m : ℝ) ^ 2 / 2 + (l : ℝ) ^ 2 / 2) (F := fun z t => z ^ 2 / 2 + t ^ 2 / 2)
    (zExt := fun _ => 1 / 2) (kExt := fun _ => 20) (b := 0) (i := 0) (j := 0) (Mz := 1) (Mk := 1) (hz := 1) (hk := 1) .extrapolate
    (by simp [coarse]) (by simp [coarse]) (sorted_nat 3) (fun i j hij _ => by simp only [coarse]; exact pow_lt_pow_right₀ (by norm_num) hij)
    (by simp [coarse]) (fun m _ l _ => by simp only [coarse, lg])
    (fun l _ => by
      refine (bent_parabola (convex_Icc _ _) zero_le_one (Real.logb 10 (coarse.k l) ^ 2 / 2)).congr' fun t => ?_
      ring)
    (by
      refine (bent_parabola (convex_Icc _ _) zero_le_one ((1 / 2) ^ 2 / 2)).congr' fun t => ?_
      ring)
    (fun m _ => by simp only [coarse]; push_cast; linarith) (fun l _ => by simp only [coarse, lg]; push_cast; linarith)
    (by norm_num [coarse]) (by norm_num [coarse]) (by norm_num [coarse]) (by norm_num [coarse])
  norm_num at this ⊢
  exact this

/-- a sample with one galaxy per halo, at redshifts 0 to 2 in steps of one half, with a halo model at redshifts 0, 1, 2 -/
noncomputable def sample : Hod.Base where
  nzv := 3
  zVec := fun i => i
  nm := 3
  mass := fun m => (m : ℝ) + 1
  dndlnm := fun i m => ((m : ℝ) + 1) * (1 + (i : ℝ) ^ 2)
  haloBias := fun _ _ => 1
  nz := 5
  z := fun _ j => (j : ℝ) / 2
  occCen := fun _ _ _ => 1
  occSat := fun _ _ _ => 0

theorem sample_simpson (c : ℝ) : simpson sample.nm sample.mass (fun m => (1 : ℝ) * (((m : ℝ) + 1) * c) / sample.mass m) = 2 * c := by
  have : ∀ m : ℕ, (1 : ℝ) * (((m : ℝ) + 1) * c) / ((m : ℝ) + 1) = c := fun m => by
    have : (m : ℝ) + 1 ≠ 0 := by positivity
    field_simp
  simp only [sample, this, simpson, basicSimpson, simpsonPanel]
  norm_num
  ring

example : |sample.numberDensity 0 1 - 4| ≤ 4 * 1 ^ 2 / 8 + 4 * (1 / 2) ^ 2 / 8 := by
  have := C153_number_density (H := sample) (b := 0) (i := 1) (N := fun _ _ => 1) (g := fun t m => ((m : ℝ) + 1) * (1 + t ^ 2))
    (Mm := fun m => ((m : ℝ) + 1) * 2) (K := 4) (hz := 1) (hb := 1 / 2) (E := 4)
    ⟨fun i _ => by simp only [sample]; push_cast; linarith, fun i _ => by simp only [sample]; push_cast; linarith,
      fun i _ => by simp only [sample]; push_cast; linarith⟩
    (fun m _ => by simp only [sample]; positivity) (by simp [sample]) (by simp [sample]) (sorted_nat 3)
    (fun i j hij _ => by
      have : (i : ℝ) < j := by exact_mod_cast hij
      simp only [sample]; linarith)
    (fun l _ m _ => by simp only [sample]) (fun j _ m _ => by simp [sample, Hod.Base.occ]) (fun _ _ _ _ => zero_le_one)
    (fun m _ => (bent_parabola (M := ((m : ℝ) + 1) * 2) (convex_Icc _ _) (by positivity) ((m : ℝ) + 1)).congr' fun t => by ring)
    (fun j hj => by
      have : (j : ℝ) ≤ 4 := by
        have : j ≤ 4 := Nat.le_of_lt_succ hj
        exact_mod_cast this
      simp only [sample]; constructor
      · norm_num; positivity
      · norm_num; linarith)
    (fun l _ => by simp only [sample]; push_cast; linarith) (fun j _ => (sample_simpson 2).le.trans (by norm_num))
    (by
      refine (bent_parabola (M := 4) (convex_Icc _ _) (by norm_num) 2).congr' fun t => ?_
      rw [sample_simpson (1 + t ^ 2)]; ring)
    (fun j _ => by simp only [sample]; push_cast; linarith) (by norm_num [sample]) (by norm_num [sample])
  rw [sample_simpson] at this
  have e : (2 : ℝ) * (1 + sample.zVec 1 ^ 2) = 4 := by norm_num [sample]
  rwa [e] at this

end Verif.InterpAccuracy

import Verif.Lib.Rounded
import Verif.Lib.Simpson
import Verif.Spec.Rounding
import Verif.Lemmas.Simpson
import Mathlib.Algebra.Order.Ring.Pow
import Mathlib.Tactic.GCongr

/-! Helper lemmas on rounding errors. -/

namespace Verif.Lib

open Finset

namespace Rounding

variable (R : Rounding)

/-- the largest factor of one rounding -/
noncomputable def rho : ℝ := 1 / (1 - R.u)

theorem one_sub_pos : 0 < 1 - R.u := by have := R.u_lt_one; linarith

theorem rho_pos : 0 < R.rho := one_div_pos.2 R.one_sub_pos

theorem one_le_rho : 1 ≤ R.rho := by
  unfold rho
  rw [le_div_iff₀ R.one_sub_pos]
  have := R.u_nonneg
  linarith

theorem one_le_rho_pow (k : ℕ) : 1 ≤ R.rho ^ k := one_le_pow₀ R.one_le_rho

theorem rho_pow_pos (k : ℕ) : 0 < R.rho ^ k := pow_pos R.rho_pos k

theorem rho_pow_mono {j k : ℕ} (h : j ≤ k) : R.rho ^ j ≤ R.rho ^ k := pow_le_pow_right₀ R.one_le_rho h

theorem rho_mul (k : ℕ) : (1 - R.u) ^ k * R.rho ^ k = 1 := by
  unfold rho
  rw [← mul_pow, mul_one_div_cancel R.one_sub_pos.ne', one_pow]

/-- `θ` is the effect of `k` roundings -/
def Factor (k : ℕ) (θ : ℝ) : Prop := 1 ≤ θ * R.rho ^ k ∧ θ ≤ R.rho ^ k

variable {R}

theorem Factor.pos {k : ℕ} {θ : ℝ} (h : R.Factor k θ) : 0 < θ := by
  by_contra hn
  have := mul_nonpos_of_nonpos_of_nonneg (not_lt.1 hn) (R.rho_pow_pos k).le
  linarith [h.1]

theorem Factor.mono {j k : ℕ} {θ : ℝ} (h : R.Factor j θ) (hjk : j ≤ k) : R.Factor k θ :=
  ⟨h.1.trans (mul_le_mul_of_nonneg_left (R.rho_pow_mono hjk) h.pos.le), h.2.trans (R.rho_pow_mono hjk)⟩

theorem Factor.one (k : ℕ) : R.Factor k 1 := ⟨by rw [one_mul]; exact R.one_le_rho_pow k, R.one_le_rho_pow k⟩

theorem Factor.mul {j k : ℕ} {θ η : ℝ} (h : R.Factor j θ) (g : R.Factor k η) : R.Factor (j + k) (θ * η) := by
  constructor
  · rw [pow_add, mul_mul_mul_comm]
    exact one_le_mul_of_one_le_of_one_le h.1 g.1
  · rw [pow_add]
    exact mul_le_mul h.2 g.2 g.pos.le (R.rho_pow_pos j).le

theorem Factor.inv {k : ℕ} {θ : ℝ} (h : R.Factor k θ) : R.Factor k θ⁻¹ := by
  constructor
  · rw [inv_mul_eq_div, le_div_iff₀ h.pos, one_mul]; exact h.2
  · rw [inv_le_iff_one_le_mul₀ h.pos, mul_comm]; exact h.1

theorem Factor.div {j k : ℕ} {θ η : ℝ} (h : R.Factor j θ) (g : R.Factor k η) : R.Factor (j + k) (θ / η) := by
  rw [div_eq_mul_inv]; exact h.mul g.inv

theorem Factor.sub_one {k : ℕ} {θ : ℝ} (h : R.Factor k θ) : |θ - 1| ≤ R.rho ^ k - 1 := by
  have hp := R.rho_pow_pos k
  have h1 := R.one_le_rho_pow k
  rw [abs_le]
  refine ⟨?_, by linarith [h.2]⟩
  have := h.1
  nlinarith [h.pos]

theorem fl_factor (x : ℝ) : ∃ θ, R.Factor 1 θ ∧ R.fl x = x * θ := by
  rcases eq_or_ne x 0 with rfl | hx
  · refine ⟨1, Factor.one 1, ?_⟩
    have := R.fl_err 0
    simp only [sub_zero, abs_zero, mul_zero] at this
    simpa using abs_nonpos_iff.1 this
  · refine ⟨R.fl x / x, ?_, by field_simp⟩
    have he : |R.fl x / x - 1| ≤ R.u := by
      have e : R.fl x / x - 1 = (R.fl x - x) / x := by field_simp
      rw [e, abs_div, div_le_iff₀ (abs_pos.2 hx)]
      exact R.fl_err x
    obtain ⟨h1, h2⟩ := abs_le.1 he
    have hu := R.one_sub_pos
    constructor
    · rw [pow_one, rho, mul_one_div, le_div_iff₀ hu]; linarith
    · rw [pow_one, rho, le_div_iff₀ hu]
      have := R.u_nonneg
      nlinarith

end Rounding

open Rounding

variable {R : Rounding}

/-- `X` is `x` up to `k` roundings -/
def Near (k : ℕ) (x : ℝ) (X : Fl R) : Prop := ∃ θ, R.Factor k θ ∧ X.val = x * θ

/-- `X` is `x` up to an error of `k` roundings of the size `a` -/
def Est (k : ℕ) (a x : ℝ) (X : Fl R) : Prop := |x| ≤ a ∧ |X.val - x| ≤ (R.rho ^ k - 1) * a

theorem near_exact (x : ℝ) : Near 0 x (x : Fl R) := ⟨1, Factor.one 0, by simp⟩

theorem near_fl {k : ℕ} {x y θ : ℝ} (hθ : R.Factor k θ) (hy : y = x * θ) : Near (k + 1) x (⟨R.fl y⟩ : Fl R) := by
  obtain ⟨η, hη, e⟩ := fl_factor (R := R) y
  exact ⟨θ * η, hθ.mul hη, by rw [e, hy]; ring⟩

namespace Near

variable {j k : ℕ} {x y : ℝ} {X Y : Fl R}

theorem mono (h : Near j x X) (hjk : j ≤ k) : Near k x X := by
  obtain ⟨θ, hθ, e⟩ := h
  exact ⟨θ, hθ.mono hjk, e⟩

theorem mul (h : Near j x X) (g : Near k y Y) : Near (j + k + 1) (x * y) (X * Y) := by
  obtain ⟨θ, hθ, e⟩ := h
  obtain ⟨η, hη, f⟩ := g
  exact near_fl (hθ.mul hη) (by rw [e, f]; ring)

theorem div (h : Near j x X) (g : Near k y Y) : Near (j + k + 1) (x / y) (X / Y) := by
  obtain ⟨θ, hθ, e⟩ := h
  obtain ⟨η, hη, f⟩ := g
  exact near_fl (hθ.div hη) (by rw [e, f, mul_div_mul_comm])

theorem nonneg (h : Near j x X) (hx : 0 ≤ x) : 0 ≤ X.val := by
  obtain ⟨θ, hθ, e⟩ := h
  rw [e]; exact mul_nonneg hx hθ.pos.le

theorem pos (h : Near j x X) (hx : 0 < x) : 0 < X.val := by
  obtain ⟨θ, hθ, e⟩ := h
  rw [e]; exact mul_pos hx hθ.pos

/-- sums of non-negative numbers -/
theorem add (h : Near k x X) (g : Near k y Y) (hx : 0 ≤ x) (hy : 0 ≤ y) : Near (k + 1) (x + y) (X + Y) := by
  obtain ⟨θ, hθ, e⟩ := h
  obtain ⟨η, hη, f⟩ := g
  rcases eq_or_lt_of_le (add_nonneg hx hy) with h0 | hpos
  · have hx0 : x = 0 := by linarith
    have hy0 : y = 0 := by linarith
    refine near_fl (Factor.one k) ?_
    rw [e, f, hx0, hy0]; ring
  · refine near_fl (θ := (x * θ + y * η) / (x + y)) ⟨?_, ?_⟩ (by rw [e, f]; field_simp)
    · rw [div_mul_eq_mul_div, le_div_iff₀ hpos]
      nlinarith [mul_le_mul_of_nonneg_left hθ.1 hx, mul_le_mul_of_nonneg_left hη.1 hy]
    · rw [div_le_iff₀ hpos]
      nlinarith [mul_le_mul_of_nonneg_left hθ.2 hx, mul_le_mul_of_nonneg_left hη.2 hy]

/-- the difference of two inputs -/
theorem sub_exact (x y : ℝ) : Near 1 (x - y) ((x : Fl R) - (y : Fl R)) :=
  near_fl (k := 0) (Factor.one 0) (by simp)

/-- powers -/
theorem rpow (h : Near k x X) (hx : 0 < x) {y : ℝ} {c : ℕ} (hc : |y| ≤ c) :
    Near (k * c + R.lib) (x ^ y) (X.rpow y) := by
  have hX := h.pos hx
  obtain ⟨θ, hθ, e⟩ := h
  obtain ⟨p1, p2⟩ := R.pow_err X.val y hX
  have hxy := Real.rpow_pos_of_pos hx y
  have key : ∀ (w : ℝ), 0 ≤ w → w ≤ c → R.Factor (k * c) (θ ^ w) := by
    intro w hw hwc
    have h1 := R.one_le_rho_pow k
    have hup : (R.rho ^ k : ℝ) ^ w ≤ R.rho ^ (k * c) := by
      rw [pow_mul, ← Real.rpow_natCast (R.rho ^ k) c]
      exact Real.rpow_le_rpow_of_exponent_le h1 hwc
    constructor
    · have : (1 : ℝ) ≤ (θ * R.rho ^ k) ^ w := Real.one_le_rpow hθ.1 hw
      rw [Real.mul_rpow hθ.pos.le (R.rho_pow_pos k).le] at this
      exact this.trans (mul_le_mul_of_nonneg_left hup (Real.rpow_nonneg hθ.pos.le _))
    · exact (Real.rpow_le_rpow hθ.pos.le hθ.2 hw).trans hup
  have hθy : R.Factor (k * c) (θ ^ y) := by
    obtain ⟨l, r⟩ := abs_le.1 hc
    rcases le_total 0 y with hy | hy
    · exact key y hy r
    · have := (key (-y) (by linarith) (by linarith)).inv
      rwa [Real.rpow_neg hθ.pos.le, inv_inv] at this
  have hXy := Real.rpow_pos_of_pos hX y
  refine ⟨θ ^ y * (R.pow X.val y / X.val ^ y), hθy.mul ⟨?_, ?_⟩, ?_⟩
  · rw [div_mul_eq_mul_div, le_div_iff₀ hXy, one_mul]
    have := mul_le_mul_of_nonneg_right p1 (R.rho_pow_pos R.lib).le
    rwa [mul_right_comm, R.rho_mul, one_mul] at this
  · rw [div_le_iff₀ hXy]
    have := mul_le_mul_of_nonneg_right p2 (R.rho_pow_pos R.lib).le
    rw [mul_right_comm, R.rho_mul, one_mul] at this
    linarith
  · change R.pow X.val y = _
    have : X.val ^ y = x ^ y * θ ^ y := by rw [e, Real.mul_rpow hx.le hθ.pos.le]
    rw [this]
    have := Real.rpow_pos_of_pos hθ.pos y
    field_simp

/-- natural powers -/
theorem rpow_nat (h : Near k x X) (hx : 0 < x) {y : ℝ} (c : ℕ) (hc : y = c) :
    Near (k * c + R.lib) (x ^ c) (X.rpow y) := by
  have := h.rpow hx (y := y) (c := c) (by rw [hc, Nat.abs_cast])
  rwa [hc, Real.rpow_natCast, ← hc] at this

theorem est (h : Near k x X) : Est k |x| x X := by
  refine ⟨le_rfl, ?_⟩
  obtain ⟨θ, hθ, e⟩ := h
  have : X.val - x = (θ - 1) * x := by rw [e]; ring
  rw [this, abs_mul]
  exact mul_le_mul_of_nonneg_right hθ.sub_one (abs_nonneg _)

theorem est' (h : Near k x X) (hx : 0 ≤ x) : Est k x x X := by
  have := h.est
  rwa [abs_of_nonneg hx] at this

end Near

namespace Est

variable {j k : ℕ} {a b x y : ℝ} {X Y : Fl R}

theorem nonneg (h : Est k a x X) : 0 ≤ a := (abs_nonneg _).trans h.1

theorem mono (h : Est j a x X) (hjk : j ≤ k) : Est k a x X :=
  ⟨h.1, h.2.trans (mul_le_mul_of_nonneg_right (by linarith [R.rho_pow_mono hjk]) h.nonneg)⟩

theorem weaken (h : Est k a x X) (hab : a ≤ b) : Est k b x X :=
  ⟨h.1.trans hab, h.2.trans (mul_le_mul_of_nonneg_left hab (by linarith [R.one_le_rho_pow k]))⟩

theorem exact (x : ℝ) : Est 0 |x| x (x : Fl R) := (near_exact x).est

theorem exact' (hx : 0 ≤ x) : Est 0 x x (x : Fl R) := (near_exact x).est' hx

theorem val_le (h : Est k a x X) : |X.val| ≤ R.rho ^ k * a := by
  have := abs_add_le (X.val - x) x
  rw [sub_add_cancel] at this
  linarith [h.1, h.2]

theorem fl {v : ℝ} (hx : |x| ≤ a) (h : |v - x| ≤ (R.rho ^ k - 1) * a) : Est (k + 1) a x (⟨R.fl v⟩ : Fl R) := by
  refine ⟨hx, ?_⟩
  obtain ⟨θ, hθ, e⟩ := fl_factor (R := R) v
  have hv : |v| ≤ R.rho ^ k * a := by
    have := abs_add_le (v - x) x
    rw [sub_add_cancel] at this
    linarith
  have h1 : R.fl v - x = (θ - 1) * v + (v - x) := by rw [e]; ring
  change |R.fl v - x| ≤ _
  rw [h1]
  refine (abs_add_le _ _).trans ?_
  rw [abs_mul]
  have h2 : |θ - 1| * |v| ≤ (R.rho ^ 1 - 1) * (R.rho ^ k * a) :=
    mul_le_mul hθ.sub_one hv (abs_nonneg _) (by linarith [R.one_le_rho_pow 1])
  calc _ ≤ (R.rho ^ 1 - 1) * (R.rho ^ k * a) + (R.rho ^ k - 1) * a := add_le_add h2 h
    _ = (R.rho ^ (k + 1) - 1) * a := by ring

theorem add (h : Est k a x X) (g : Est k b y Y) : Est (k + 1) (a + b) (x + y) (X + Y) := by
  refine fl ((abs_add_le _ _).trans (add_le_add h.1 g.1)) ?_
  have e : X.val + Y.val - (x + y) = (X.val - x) + (Y.val - y) := by ring
  rw [e, mul_add]
  exact (abs_add_le _ _).trans (add_le_add h.2 g.2)

theorem sub (h : Est k a x X) (g : Est k b y Y) : Est (k + 1) (a + b) (x - y) (X - Y) := by
  refine fl ((abs_sub _ _).trans (add_le_add h.1 g.1)) ?_
  have e : X.val - Y.val - (x - y) = (X.val - x) - (Y.val - y) := by ring
  rw [e, mul_add]
  exact (abs_sub _ _).trans (add_le_add h.2 g.2)

theorem mul (h : Est j a x X) (g : Est k b y Y) : Est (j + k + 1) (a * b) (x * y) (X * Y) := by
  refine fl ?_ ?_
  · rw [abs_mul]; exact mul_le_mul h.1 g.1 (abs_nonneg _) h.nonneg
  · have e : X.val * Y.val - x * y = (X.val - x) * Y.val + x * (Y.val - y) := by ring
    rw [e]
    refine (abs_add_le _ _).trans ?_
    rw [abs_mul, abs_mul]
    have h1 : |X.val - x| * |Y.val| ≤ ((R.rho ^ j - 1) * a) * (R.rho ^ k * b) :=
      mul_le_mul h.2 g.val_le (abs_nonneg _)
        (mul_nonneg (by linarith [R.one_le_rho_pow j]) h.nonneg)
    have h2 : |x| * |Y.val - y| ≤ a * ((R.rho ^ k - 1) * b) := mul_le_mul h.1 g.2 (abs_nonneg _) h.nonneg
    calc _ ≤ ((R.rho ^ j - 1) * a) * (R.rho ^ k * b) + a * ((R.rho ^ k - 1) * b) := add_le_add h1 h2
      _ = (R.rho ^ (j + k) - 1) * (a * b) := by ring

/-- division by a number with a small relative error -/
theorem div (h : Est j a x X) (g : Near k y Y) : Est (j + k + 1) (a / |y|) (x / y) (X / Y) := by
  obtain ⟨η, hη, f⟩ := g
  refine fl ?_ ?_
  · rw [abs_div]; exact div_le_div_of_nonneg_right h.1 (abs_nonneg _)
  · have hi := hη.inv
    have e : X.val / Y.val - x / y = ((X.val - x) * η⁻¹ + x * (η⁻¹ - 1)) / y := by
      rw [f, div_mul_eq_div_div_swap]
      ring
    rw [e, abs_div, mul_div_assoc']
    refine div_le_div_of_nonneg_right ?_ (abs_nonneg _)
    refine (abs_add_le _ _).trans ?_
    rw [abs_mul, abs_mul, abs_of_pos hi.pos]
    have h1 : |X.val - x| * η⁻¹ ≤ ((R.rho ^ j - 1) * a) * R.rho ^ k :=
      mul_le_mul h.2 hi.2 hi.pos.le (mul_nonneg (by linarith [R.one_le_rho_pow j]) h.nonneg)
    have h2 : |x| * |η⁻¹ - 1| ≤ a * (R.rho ^ k - 1) := mul_le_mul h.1 hi.sub_one (abs_nonneg _) h.nonneg
    calc _ ≤ ((R.rho ^ j - 1) * a) * R.rho ^ k + a * (R.rho ^ k - 1) := add_le_add h1 h2
      _ = (R.rho ^ (j + k) - 1) * a := by ring

theorem div' (h : Est j a x X) (g : Near k y Y) (hy : 0 ≤ y) : Est (j + k + 1) (a / y) (x / y) (X / Y) := by
  have := h.div g
  rwa [abs_of_nonneg hy] at this

/-- a constant factor in the size of the error is worth that many times the roundings -/
theorem absorb (c : ℕ) (h : Est k ((c : ℝ) * a) x X) (hx : |x| ≤ a) : Est (c * k) a x X := by
  refine ⟨hx, h.2.trans ?_⟩
  have h1 : 1 + (c : ℝ) * (R.rho ^ k - 1) ≤ (1 + (R.rho ^ k - 1)) ^ c :=
    one_add_mul_le_pow (by linarith [R.one_le_rho_pow k]) c
  have h2 : (1 + (R.rho ^ k - 1)) ^ c = R.rho ^ (c * k) := by
    rw [mul_comm, pow_mul]; ring
  rw [h2] at h1
  have : 0 ≤ a := (abs_nonneg _).trans hx
  nlinarith

/-- a small relative error makes the number fit for a denominator -/
theorem near (h : Est k x x X) (hk : R.rho ^ k ≤ 8 / 5) : Near (2 * k) x X := by
  have hx := h.nonneg
  rcases eq_or_lt_of_le hx with h0 | hpos
  · refine ⟨1, Factor.one _, ?_⟩
    have := h.2
    rw [← h0, mul_zero, sub_zero] at this
    rw [abs_nonpos_iff.1 this, ← h0]; ring
  · refine ⟨X.val / x, ⟨?_, ?_⟩, by field_simp⟩
    · obtain ⟨h1, -⟩ := abs_le.1 h.2
      rw [div_mul_eq_mul_div, le_div_iff₀ hpos, one_mul, mul_comm 2 k, pow_mul]
      have hr := R.one_le_rho_pow k
      generalize R.rho ^ k = r at *
      have h2 : x * (2 - r) ≤ X.val := by linarith
      have h3 : x * (2 - r) * r ^ 2 ≤ X.val * r ^ 2 := mul_le_mul_of_nonneg_right h2 (sq_nonneg r)
      have h4 : 1 ≤ (2 - r) * r ^ 2 := by nlinarith [mul_nonneg (sub_nonneg.2 hr) (sub_nonneg.2 hk)]
      nlinarith
    · obtain ⟨-, h1⟩ := abs_le.1 h.2
      rw [div_le_iff₀ hpos]
      have h2 : X.val ≤ R.rho ^ k * x := by linarith
      exact h2.trans (mul_le_mul_of_nonneg_right (R.rho_pow_mono (by omega)) hx)

/-- the error in the usual notation -/
theorem bound (h : Est k a x X) (hk : (k : ℝ) * R.u < 1) : |X.val - x| ≤ k * R.u / (1 - k * R.u) * a := by
  refine h.2.trans (mul_le_mul_of_nonneg_right ?_ h.nonneg)
  have hp : 0 < 1 - (k : ℝ) * R.u := by linarith
  have h1 : 1 - (k : ℝ) * R.u ≤ (1 - R.u) ^ k := by
    have := one_add_mul_le_pow (a := -R.u) (by linarith [R.u_lt_one]) k
    calc _ = 1 + (k : ℝ) * -R.u := by ring
      _ ≤ _ := this
      _ = _ := by ring
  have h2 : R.rho ^ k ≤ 1 / (1 - k * R.u) := by
    rw [Rounding.rho, div_pow, one_pow]
    exact one_div_le_one_div_of_le hp h1
  have h3 : 1 / (1 - k * R.u) - 1 = k * R.u / (1 - k * R.u) := by field_simp; ring
  linarith

end Est

/-- `exp(-y)`: the error is absolute, at most that of the roundings of `y` and of the exponential -/
theorem exp_neg_est {k : ℕ} {y : ℝ} {Y : Fl R} (h : Near k y Y) (hy : 0 ≤ y) :
    Est (k + R.lib) 1 (Real.exp (-y)) (Fl.exp ⟨-Y.val⟩ : Fl R) := by
  obtain ⟨θ, hθ, e⟩ := h
  have xe : ∀ t : ℝ, t * Real.exp (-t) ≤ 1 := by
    intro t
    have h1 : t ≤ Real.exp t := by linarith [Real.add_one_le_exp t]
    have h2 := mul_le_mul_of_nonneg_right h1 (Real.exp_pos (-t)).le
    rwa [← Real.exp_add, add_neg_cancel, Real.exp_zero] at h2
  have diff : ∀ t d : ℝ, Real.exp (-t) - Real.exp (-(t + d)) ≤ Real.exp (-t) * d := by
    intro t d
    have h1 := Real.add_one_le_exp (-d)
    have h2 := mul_le_mul_of_nonneg_left h1 (Real.exp_pos (-t)).le
    rw [← Real.exp_add, ← neg_add] at h2
    linarith
  have hr := R.one_le_rho_pow k
  have core : |Real.exp (-Y.val) - Real.exp (-y)| ≤ R.rho ^ k - 1 := by
    rw [e]
    rcases le_total 1 θ with h1 | h1
    · have hle : Real.exp (-(y * θ)) ≤ Real.exp (-y) := Real.exp_le_exp.2 (by nlinarith)
      rw [abs_of_nonpos (by linarith)]
      have h2 := diff y (y * θ - y)
      rw [add_sub_cancel] at h2
      have h3 : Real.exp (-y) * (y * θ - y) = (y * Real.exp (-y)) * (θ - 1) := by ring
      have h4 : (y * Real.exp (-y)) * (θ - 1) ≤ 1 * (θ - 1) := mul_le_mul_of_nonneg_right (xe y) (by linarith)
      linarith [hθ.2]
    · have hle : Real.exp (-y) ≤ Real.exp (-(y * θ)) := Real.exp_le_exp.2 (by nlinarith [hθ.pos])
      rw [abs_of_nonneg (by linarith)]
      have h2 := diff (y * θ) (y - y * θ)
      rw [add_sub_cancel] at h2
      have hi := hθ.inv
      have h3 : Real.exp (-(y * θ)) * (y - y * θ) = (y * θ * Real.exp (-(y * θ))) * (θ⁻¹ - 1) := by
        have := hθ.pos.ne'
        field_simp
      have hi1 : 1 ≤ θ⁻¹ := (one_le_inv₀ hθ.pos).2 h1
      have h4 : (y * θ * Real.exp (-(y * θ))) * (θ⁻¹ - 1) ≤ 1 * (θ⁻¹ - 1) :=
        mul_le_mul_of_nonneg_right (xe _) (by linarith)
      linarith [hi.2]
  have hY0 : 0 ≤ Y.val := by rw [e]; exact mul_nonneg hy hθ.pos.le
  have hv1 : Real.exp (-Y.val) ≤ 1 := Real.exp_le_one_iff.2 (by linarith)
  refine ⟨?_, ?_⟩
  · rw [abs_of_pos (Real.exp_pos _)]; exact Real.exp_le_one_iff.2 (by linarith)
  · obtain ⟨p1, p2⟩ := R.exp_err (-Y.val)
    change |R.exp (-Y.val) - Real.exp (-y)| ≤ _
    have hv := Real.exp_pos (-Y.val)
    have hL := R.one_le_rho_pow R.lib
    have u1 : R.exp (-Y.val) ≤ R.rho ^ R.lib * Real.exp (-Y.val) := by
      have := mul_le_mul_of_nonneg_right p2 (R.rho_pow_pos R.lib).le
      rw [mul_right_comm, R.rho_mul, one_mul] at this
      linarith
    have u2 : Real.exp (-Y.val) ≤ R.rho ^ R.lib * R.exp (-Y.val) := by
      have := mul_le_mul_of_nonneg_right p1 (R.rho_pow_pos R.lib).le
      rw [mul_right_comm, R.rho_mul, one_mul] at this
      linarith
    have u3 : |R.exp (-Y.val) - Real.exp (-Y.val)| ≤ (R.rho ^ R.lib - 1) * Real.exp (-Y.val) := by
      rw [abs_le]
      constructor
      · have : 0 ≤ R.exp (-Y.val) := by
          by_contra hn
          nlinarith
        nlinarith [mul_nonneg (sub_nonneg.2 hL) (sub_nonneg.2 hL)]
      · linarith
    have u4 : R.exp (-Y.val) - Real.exp (-y)
        = (R.exp (-Y.val) - Real.exp (-Y.val)) + (Real.exp (-Y.val) - Real.exp (-y)) := by ring
    rw [u4]
    refine (abs_add_le _ _).trans ?_
    have u5 : (R.rho ^ R.lib - 1) * Real.exp (-Y.val) ≤ (R.rho ^ R.lib - 1) * R.rho ^ k :=
      mul_le_mul_of_nonneg_left (hv1.trans hr) (by linarith)
    rw [pow_add]
    nlinarith

/-! ## Sums -/

theorem sumTree_est {k : ℕ} {a x : ℕ → ℝ} {X : ℕ → Fl R} (t : SumTree) (h : ∀ i ∈ t.leaves, Est k (a i) (x i) (X i)) :
    Est (k + t.leaves.length) (t.leaves.map a).sum (t.leaves.map x).sum (Fl.sumTree X t) := by
  have hlen : ∀ t : SumTree, 1 ≤ t.leaves.length := by
    intro t
    induction t with
    | leaf i => simp [SumTree.leaves]
    | node l r hl hr => simp only [SumTree.leaves, List.length_append]; omega
  induction t with
  | leaf i =>
    simp only [SumTree.leaves, List.map_cons, List.map_nil, List.sum_cons, List.sum_nil, add_zero, Fl.sumTree]
    exact (h i (by simp [SumTree.leaves])).mono (by omega)
  | node l r hl hr =>
    have h1 := hl fun i hi => h i (by simp [SumTree.leaves, hi])
    have h2 := hr fun i hi => h i (by simp [SumTree.leaves, hi])
    have ll := hlen l
    have lr := hlen r
    simp only [SumTree.leaves, List.map_append, List.sum_append, List.length_append, Fl.sumTree]
    exact ((h1.mono (k := k + (l.leaves.length + r.leaves.length - 1)) (by omega)).add
      (h2.mono (by omega))).mono (by omega)

theorem list_sum_range (n : ℕ) (f : ℕ → ℝ) : ((List.range n).map f).sum = ∑ i ∈ range n, f i := by
  induction n with
  | zero => simp
  | succ n ih => rw [List.range_succ, List.map_append, List.sum_append, ih, sum_range_succ]; simp

theorem sum_est {k n : ℕ} {a x : ℕ → ℝ} {X : ℕ → Fl R} (h : ∀ i < n, Est k (a i) (x i) (X i)) :
    Est (k + n) (∑ i ∈ range n, a i) (∑ i ∈ range n, x i) (Fl.sum n X) := by
  unfold Fl.sum
  split_ifs with hn
  · subst hn
    simp only [range_zero, sum_empty]
    have := (Est.exact' (R := R) (le_refl (0 : ℝ)))
    exact this.mono (by omega)
  · have hp := R.order_leaves n (by omega)
    have := sumTree_est (R.order n) (k := k) (a := a) (x := x) (X := X)
      fun i hi => h i (List.mem_range.1 (hp.mem_iff.1 hi))
    rw [hp.length_eq, List.length_range, (hp.map a).sum_eq, (hp.map x).sum_eq, list_sum_range, list_sum_range] at this
    exact this

/-! ## Simpson's rule -/

open Verif.Spec

/-- Simpson's rule for one panel with all terms counted as positive -/
noncomputable def absPanel (h0 h1 a0 a1 a2 : ℝ) : ℝ :=
  (h0 + h1) / 6 * (a0 * (2 + 1 / (h0 / h1)) + a1 * ((h0 + h1) * ((h0 + h1) / (h0 * h1))) + a2 * (2 + h0 / h1))

noncomputable def absLast (h0 h1 a0 a1 a2 : ℝ) : ℝ :=
  (2 * h1 ^ 2 + 3 * h0 * h1) / (6 * (h1 + h0)) * a2
    + (h1 ^ 2 + 3 * h0 * h1) / (6 * h0) * a1
    + h1 ^ 3 / (6 * h0 * (h0 + h1)) * a0

theorem panel_est {k : ℕ} {h0 h1 y0 y1 y2 a0 a1 a2 : ℝ} {H0 H1 Y0 Y1 Y2 : Fl R} (p0 : 0 < h0) (p1 : 0 < h1)
    (n0 : Near 1 h0 H0) (n1 : Near 1 h1 H1) (e0 : Est k a0 y0 Y0) (e1 : Est k a1 y1 Y1) (e2 : Est k a2 y2 Y2) :
    Est (k + 16) (absPanel h0 h1 a0 a1 a2) (Lib.simpsonPanel h0 h1 y0 y1 y2) (Fl.simpsonPanel H0 H1 Y0 Y1 Y2) := by
  have hs : Near 2 (h0 + h1) (H0 + H1) := n0.add n1 p0.le p1.le
  have hp : Near 3 (h0 * h1) (H0 * H1) := n0.mul n1
  have hq : Near 3 (h0 / h1) (H0 / H1) := n0.div n1
  have hi : Near 4 (1 / (h0 / h1)) (((1 : ℝ) : Fl R) / (H0 / H1)) := ((near_exact 1).div hq).mono (by omega)
  have t2 : Est 4 (2 : ℝ) 2 ((2 : ℝ) : Fl R) := (Est.exact' (by norm_num)).mono (by omega)
  have w0 := t2.sub (hi.est' (by positivity))
  have w2 := (t2.mono (k := 4) le_rfl).sub ((hq.mono (k := 4) (by omega)).est' (by positivity))
  have w1 := (hs.mul (hs.div hp)).est' (by positivity)
  have s1 := (e0.mul w0).mono (k := k + 10) (by omega)
  have s2 := (e1.mul w1).mono (k := k + 10) (by omega)
  have s3 := (e2.mul w2).mono (k := k + 11) (by omega)
  have s := (s1.add s2).add s3
  have hh := (hs.div (near_exact (R := R) 6)).est' (by positivity)
  exact (hh.mul s).mono (by omega)

theorem last_est {k : ℕ} {h0 h1 y0 y1 y2 a0 a1 a2 : ℝ} {H0 H1 Y0 Y1 Y2 : Fl R} (p0 : 0 < h0) (p1 : 0 < h1)
    (n0 : Near 1 h0 H0) (n1 : Near 1 h1 H1) (e0 : Est k a0 y0 Y0) (e1 : Est k a1 y1 Y1) (e2 : Est k a2 y2 Y2) :
    Est (k + R.lib + 14) (absLast h0 h1 a0 a1 a2) (Lib.simpsonLast h0 h1 y0 y1 y2) (Fl.simpsonLast H0 H1 Y0 Y1 Y2) := by
  have sq : Near (2 + R.lib) (h1 ^ 2) (H1.rpow 2) := by
    exact (n1.rpow_nat p1 2 (by norm_num)).mono (by omega)
  have cu : Near (3 + R.lib) (h1 ^ 3) (H1.rpow 3) := by
    exact (n1.rpow_nat p1 3 (by norm_num)).mono (by omega)
  have c3 : Near 4 (3 * h0 * h1) (((3 : ℝ) : Fl R) * H0 * H1) := (((near_exact 3).mul n0).mul n1).mono (by omega)
  have na := (((near_exact (R := R) 2).mul sq).mono (k := R.lib + 4) (by omega)).add
    (c3.mono (by omega)) (by positivity) (by positivity)
  have da := (near_exact (R := R) 6).mul (n1.add n0 p1.le p0.le)
  have nb := (sq.mono (k := R.lib + 4) (by omega)).add (c3.mono (by omega)) (by positivity) (by positivity)
  have db := (near_exact (R := R) 6).mul n0
  have nc := (near_exact (R := R) 1).mul cu
  have dc := ((near_exact (R := R) 6).mul n0).mul (n0.add n1 p0.le p1.le)
  have t1 := (((na.div da).est' (by positivity)).mul e2).mono (k := k + R.lib + 12) (by omega)
  have t2 := (((nb.div db).est' (by positivity)).mul e1).mono (k := k + R.lib + 12) (by omega)
  have t3 := (((nc.div dc).est' (by positivity)).mul e0).mono (k := k + R.lib + 13) (by omega)
  have t := (t1.add t2).sub t3
  unfold absLast Lib.simpsonLast
  rw [one_mul] at t
  exact t

/-- the terms of the panels counted as positive are at most seven times the panels -/
theorem absPanel_le {h0 h1 a0 a1 a2 : ℝ} (p0 : 0 < h0) (p1 : 0 < h1) (hu : 2 * h1 ≤ 3 * h0) (hd : 2 * h0 ≤ 3 * h1)
    (n0 : 0 ≤ a0) (n1 : 0 ≤ a1) (n2 : 0 ≤ a2) :
    absPanel h0 h1 a0 a1 a2 ≤ 7 * Lib.simpsonPanel h0 h1 a0 a1 a2 := by
  have e0 : 1 / (h0 / h1) ≤ 3 / 2 := by rw [one_div_div, div_le_div_iff₀ p0 (by norm_num)]; linarith
  have e2 : h0 / h1 ≤ 3 / 2 := by rw [div_le_div_iff₀ p1 (by norm_num)]; linarith
  have w1 : 0 ≤ (h0 + h1) * ((h0 + h1) / (h0 * h1)) := by positivity
  unfold absPanel Lib.simpsonPanel
  rw [mul_left_comm 7]
  have hs : 0 ≤ (h0 + h1) / 6 := by positivity
  refine mul_le_mul_of_nonneg_left ?_ hs
  nlinarith [mul_nonneg n1 w1]

theorem absPanel_last_le {g h0 h1 a0 a1 a2 a3 : ℝ} (gp : 0 < g) (p0 : 0 < h0) (p1 : 0 < h1)
    (gu : 2 * h0 ≤ 3 * g) (gd : 2 * g ≤ 3 * h0) (hu : 2 * h1 ≤ 3 * h0)
    (n0 : 0 ≤ a0) (n1 : 0 ≤ a1) (n2 : 0 ≤ a2) (n3 : 0 ≤ a3) :
    absPanel g h0 a0 a1 a2 + absLast h0 h1 a1 a2 a3
      ≤ 7 * (Lib.simpsonPanel g h0 a0 a1 a2 + Lib.simpsonLast h0 h1 a1 a2 a3) := by
  have e0 : 1 / (g / h0) ≤ 3 / 2 := by rw [one_div_div, div_le_div_iff₀ gp (by norm_num)]; linarith
  have e2 : g / h0 ≤ 3 / 2 := by rw [div_le_div_iff₀ p0 (by norm_num)]; linarith
  have eta : h1 ^ 3 / (6 * h0 * (h0 + h1)) ≤ 3 / 8 * h0 := by
    rw [div_le_iff₀ (by positivity)]
    have h3 : h1 ^ 2 ≤ 9 / 4 * h0 ^ 2 := by nlinarith
    have h4 : h1 ^ 3 ≤ 9 / 4 * h0 ^ 2 * h1 := by
      calc h1 ^ 3 = h1 ^ 2 * h1 := by ring
        _ ≤ _ := mul_le_mul_of_nonneg_right h3 p1.le
    have : 0 < h0 ^ 3 := by positivity
    nlinarith
  have mid : h0 ≤ (g + h0) / 6 * ((g + h0) * ((g + h0) / (g * h0))) := by
    have e : (g + h0) / 6 * ((g + h0) * ((g + h0) / (g * h0))) = (g + h0) ^ 3 / (6 * g * h0) := by field_simp
    rw [e, le_div_iff₀ (by positivity)]
    nlinarith [sq_nonneg (g - h0), pow_pos gp 3, pow_pos p0 3, mul_pos (pow_pos gp 2) p0,
      mul_pos (pow_pos p0 2) gp, mul_nonneg gp.le (sq_nonneg (g - h0)),
      mul_nonneg p0.le (sq_nonneg (g - h0)), mul_nonneg p0.le (sq_nonneg (2*g - h0)),
      mul_nonneg gp.le (sq_nonneg (2*g - h0))]
  unfold absPanel Lib.simpsonPanel absLast Lib.simpsonLast
  generalize h1 ^ 3 / (6 * h0 * (h0 + h1)) = E at *
  have w3 : 0 ≤ (2 * h1 ^ 2 + 3 * h0 * h1) / (6 * (h1 + h0)) * a3 := by positivity
  have w4 : 0 ≤ (h1 ^ 2 + 3 * h0 * h1) / (6 * h0) * a2 := by positivity
  generalize (2 * h1 ^ 2 + 3 * h0 * h1) / (6 * (h1 + h0)) * a3 = W3 at *
  generalize (h1 ^ 2 + 3 * h0 * h1) / (6 * h0) * a2 = W4 at *
  generalize (g + h0) * ((g + h0) / (g * h0)) = M at *
  generalize 1 / (g / h0) = q at *
  generalize g / h0 = r at *
  have hg : 0 ≤ (g + h0) / 6 := by positivity
  generalize (g + h0) / 6 = s at *
  have k0 : s * a0 * (2 + q) ≤ 7 * (s * a0 * (2 - q)) := by nlinarith [mul_nonneg hg n0]
  have k2 : s * a2 * (2 + r) ≤ 7 * (s * a2 * (2 - r)) := by nlinarith [mul_nonneg hg n2]
  have k1 : (s * M + E) * a1 ≤ 7 * ((s * M - E) * a1) := by
    have : s * M + E ≤ 7 * (s * M - E) := by linarith
    nlinarith
  nlinarith

/-- Simpson's rule on a smooth grid, in floating-point numbers: the error is that of `7 (k + n/2 + lib + 17)`
roundings of the integral of the sizes of the values. -/
theorem simpson_est {k n : ℕ} {x : ℕ → ℝ} {a y : ℕ → ℝ} {Y : ℕ → Fl R} (g : SmoothGrid n x)
    (h : ∀ i < n, Est k (a i) (y i) (Y i)) :
    Est (7 * (k + n / 2 + R.lib + 17)) (simpson n x a) (simpson n x y) (Fl.simpson n (fun i => ((x i : ℝ) : Fl R)) Y) := by
  have ha : ∀ i < n, 0 ≤ a i := fun i hi => (h i hi).nonneg
  have hle : |simpson n x y| ≤ simpson n x a := by
    rw [abs_le]
    constructor
    · rw [← simpson_neg]
      exact simpson_mono g.gentle fun i hi => (abs_le.1 (h i hi).1).1
    · exact simpson_mono g.gentle fun i hi => (abs_le.1 (h i hi).1).2
  have panel : ∀ i, 2 * i + 2 < n → Est (k + 16)
      (absPanel (x (2 * i + 1) - x (2 * i)) (x (2 * i + 2) - x (2 * i + 1)) (a (2 * i)) (a (2 * i + 1)) (a (2 * i + 2)))
      (Lib.simpsonPanel (x (2 * i + 1) - x (2 * i)) (x (2 * i + 2) - x (2 * i + 1)) (y (2 * i)) (y (2 * i + 1))
        (y (2 * i + 2)))
      (Fl.simpsonPanel (((x (2 * i + 1) : ℝ) : Fl R) - ((x (2 * i) : ℝ) : Fl R))
        (((x (2 * i + 2) : ℝ) : Fl R) - ((x (2 * i + 1) : ℝ) : Fl R)) (Y (2 * i)) (Y (2 * i + 1)) (Y (2 * i + 2))) :=
    fun i hi => panel_est (g.step_pos _ (by omega)) (g.step_pos _ (by omega)) (Near.sub_exact _ _) (Near.sub_exact _ _)
      (h _ (by omega)) (h _ (by omega)) (h _ (by omega))
  have basic : ∀ p, 2 * p < n → Est (k + 16 + p)
      (∑ i ∈ range p, absPanel (x (2 * i + 1) - x (2 * i)) (x (2 * i + 2) - x (2 * i + 1)) (a (2 * i)) (a (2 * i + 1))
        (a (2 * i + 2)))
      (Lib.basicSimpson p x y) (Fl.basicSimpson p (fun i => ((x i : ℝ) : Fl R)) Y) :=
    fun p hp => sum_est fun i hi => panel i (by omega)
  have sums : ∀ p, 2 * p < n →
      ∑ i ∈ range p, absPanel (x (2 * i + 1) - x (2 * i)) (x (2 * i + 2) - x (2 * i + 1)) (a (2 * i)) (a (2 * i + 1))
        (a (2 * i + 2)) ≤ 7 * Lib.basicSimpson p x a := by
    intro p hp
    unfold Lib.basicSimpson
    rw [mul_sum]
    refine sum_le_sum fun i hi => ?_
    have hi := mem_range.1 hi
    exact absPanel_le (g.step_pos _ (by omega)) (g.step_pos _ (by omega)) (g.up _ (by omega)) (g.down _ (by omega))
      (ha _ (by omega)) (ha _ (by omega)) (ha _ (by omega))
  refine Est.absorb 7 ?_ hle
  push_cast
  unfold simpson Fl.simpson
  split_ifs with h1 h2 h3
  · exact ((basic _ (by omega)).weaken (sums _ (by omega))).mono (by omega)
  · have := (Est.exact' (R := R) (le_refl (0 : ℝ)))
    exact (this.weaken (by norm_num)).mono (by omega)
  · subst h3
    have hs := g.step_pos 0 (by omega)
    simp only [zero_add] at hs
    have e := ((((near_exact (R := R) 0.5).mul (Near.sub_exact (x 1) (x 0))).est' (by
      norm_num at hs ⊢; linarith))).mul ((h 1 (by omega)).add (h 0 (by omega)))
    have e' : (0.5 : ℝ) * (x 1 - x 0) * (a 1 + a 0) ≤ 7 * (1 / 2 * (x 1 - x 0) * (a 1 + a 0)) := by
      have : 0 ≤ (x 1 - x 0) * (a 1 + a 0) := mul_nonneg hs.le (add_nonneg (ha 1 (by omega)) (ha 0 (by omega)))
      norm_num; nlinarith
    have e'' : (0.5 : ℝ) * (x 1 - x 0) * (y 1 + y 0) = 1 / 2 * (x 1 - x 0) * (y 1 + y 0) := by norm_num
    rw [e''] at e
    exact (e.weaken e').mono (by omega)
  · obtain ⟨p, rfl⟩ : ∃ p, n = 2 * p + 4 := ⟨n / 2 - 2, by omega⟩
    have e1 : (2 * p + 4) / 2 - 1 = p + 1 := by omega
    have e2 : 2 * p + 4 - 2 = 2 * p + 2 := by omega
    have e3 : 2 * p + 4 - 3 = 2 * p + 1 := by omega
    have e4 : 2 * p + 4 - 1 = 2 * p + 3 := by omega
    rw [e1, e2, e3, e4]
    have b := basic (p + 1) (by omega)
    have l := last_est (R := R) (k := k) (g.step_pos (2 * p + 1) (by omega)) (g.step_pos (2 * p + 2) (by omega))
      (Near.sub_exact _ _) (Near.sub_exact _ _) (h (2 * p + 1) (by omega)) (h (2 * p + 2) (by omega)) (h (2 * p + 3) (by omega))
    have t := (b.mono (k := k + (2 * p + 4) / 2 + R.lib + 16) (by omega)).add (l.mono (by omega))
    refine t.weaken ?_
    have eb : Lib.basicSimpson (p + 1) x a = Lib.basicSimpson p x a + Lib.simpsonPanel (x (2 * p + 1) - x (2 * p))
        (x (2 * p + 2) - x (2 * p + 1)) (a (2 * p)) (a (2 * p + 1)) (a (2 * p + 2)) := by
      unfold Lib.basicSimpson; rw [sum_range_succ]
    rw [sum_range_succ, eb, add_assoc (∑ i ∈ range p, _), add_assoc (Lib.basicSimpson p x a), mul_add]
    refine add_le_add (sums p (by omega)) ?_
    exact absPanel_last_le (g.step_pos _ (by omega)) (g.step_pos _ (by omega)) (g.step_pos (2 * p + 2) (by omega))
      (g.up _ (by omega)) (g.down _ (by omega)) (g.up (2 * p + 1) (by omega))
      (ha _ (by omega)) (ha _ (by omega)) (ha _ (by omega)) (ha _ (by omega))

end Verif.Lib

import Verif.Lemmas.SimpsonRate
import Verif.Props.ConvergenceModel

/-! Property C148: how accurate the mass integrals are at finite resolution. -/

namespace Verif.Accuracy

open Verif.Lib Verif.Spec Verif.Pk Verif.Pk.Spectra Verif.Convergence Set MeasureTheory

/-! ## functions that change gradually with the logarithm of the mass -/

/-- bounds of the first three derivatives relative to the function: `|M f'| ≤ one f`, `|M² f''| ≤ two f`,
`|M³ f'''| ≤ three f` -/
structure Slopes where
  one : ℝ
  two : ℝ
  three : ℝ

/-- the bounds of a product (Leibniz) -/
def Slopes.mul (a b : Slopes) : Slopes :=
  ⟨a.one + b.one, a.two + 2 * (a.one * b.one) + b.two, a.three + 3 * (a.two * b.one) + 3 * (a.one * b.two) + b.three⟩

/-- the bounds of a power of the mass -/
def Slopes.power (α : ℝ) : Slopes := ⟨|α|, |α * (α - 1)|, |α * (α - 1) * (α - 2)|⟩

/-- `f` is positive on `[a, b]`, three times differentiable, with these relative slopes -/
def Gradual (f : ℝ → ℝ) (k : Slopes) (a b : ℝ) : Prop :=
  ∃ f1 f2 f3 : ℝ → ℝ, ∀ t ∈ Icc a b, 0 < f t ∧ HasDerivAt f (f1 t) t ∧ HasDerivAt f1 (f2 t) t ∧ HasDerivAt f2 (f3 t) t ∧
    |t * f1 t| ≤ k.one * f t ∧ |t ^ 2 * f2 t| ≤ k.two * f t ∧ |t ^ 3 * f3 t| ≤ k.three * f t

theorem Gradual.continuousOn {f : ℝ → ℝ} {k : Slopes} {a b : ℝ} (h : Gradual f k a b) : ContinuousOn f (Icc a b) := by
  obtain ⟨f1, f2, f3, h⟩ := h
  exact fun t ht => (h t ht).2.1.continuousAt.continuousWithinAt

theorem Gradual.mono {f : ℝ → ℝ} {k : Slopes} {a b a' b' : ℝ} (h : Gradual f k a b) (ha : a ≤ a') (hb : b' ≤ b) :
    Gradual f k a' b' := by
  obtain ⟨f1, f2, f3, h⟩ := h
  exact ⟨f1, f2, f3, fun t ht => h t ⟨ha.trans ht.1, ht.2.trans hb⟩⟩

theorem Gradual.mul {f g : ℝ → ℝ} {k l : Slopes} {a b : ℝ} (hf : Gradual f k a b) (hg : Gradual g l a b) :
    Gradual (fun t => f t * g t) (k.mul l) a b := by
  obtain ⟨f1, f2, f3, hf⟩ := hf
  obtain ⟨g1, g2, g3, hg⟩ := hg
  refine ⟨fun t => f1 t * g t + f t * g1 t, fun t => f2 t * g t + 2 * (f1 t * g1 t) + f t * g2 t,
    fun t => f3 t * g t + 3 * (f2 t * g1 t) + 3 * (f1 t * g2 t) + f t * g3 t, fun t ht => ?_⟩
  obtain ⟨pf, d1, d2, d3, a1, a2, a3⟩ := hf t ht
  obtain ⟨pg, e1, e2, e3, b1, b2, b3⟩ := hg t ht
  have m : ∀ {x y X Y : ℝ}, |x| ≤ X * f t → |y| ≤ Y * g t → |x * y| ≤ X * Y * (f t * g t) := by
    intro x y X Y hx hy
    rw [abs_mul]
    calc |x| * |y| ≤ (X * f t) * (Y * g t) := mul_le_mul hx hy (abs_nonneg _) ((abs_nonneg _).trans hx)
      _ = _ := by ring
  have af : |f t| ≤ 1 * f t := by rw [abs_of_pos pf, one_mul]
  have ag : |g t| ≤ 1 * g t := by rw [abs_of_pos pg, one_mul]
  refine ⟨mul_pos pf pg, d1.fun_mul e1, ?_, ?_, ?_, ?_, ?_⟩
  · exact ((d2.fun_mul e1).fun_add (d1.fun_mul e2)).congr_deriv (by ring)
  · exact (((d3.fun_mul e1).fun_add ((d2.fun_mul e2).const_mul 2)).fun_add (d1.fun_mul e3)).congr_deriv (by ring)
  · have u := abs_le.1 (m a1 ag)
    have v := abs_le.1 (m af b1)
    rw [abs_le]
    unfold Slopes.mul
    constructor <;> linarith [u.1, u.2, v.1, v.2]
  · have u := abs_le.1 (m a2 ag)
    have v := abs_le.1 (m a1 b1)
    have w := abs_le.1 (m af b2)
    rw [abs_le]
    unfold Slopes.mul
    constructor <;> linarith [u.1, u.2, v.1, v.2, w.1, w.2]
  · have u := abs_le.1 (m a3 ag)
    have v := abs_le.1 (m a2 b1)
    have w := abs_le.1 (m a1 b2)
    have x := abs_le.1 (m af b3)
    rw [abs_le]
    unfold Slopes.mul
    constructor <;> linarith [u.1, u.2, v.1, v.2, w.1, w.2, x.1, x.2]

theorem Gradual.power (α : ℝ) {a b : ℝ} (ha : 0 < a) : Gradual (fun t => t ^ α) (Slopes.power α) a b := by
  refine ⟨fun t => α * t ^ (α - 1), fun t => α * ((α - 1) * t ^ (α - 1 - 1)),
    fun t => α * ((α - 1) * ((α - 1 - 1) * t ^ (α - 1 - 1 - 1))), fun t ht => ?_⟩
  have ht0 : 0 < t := ha.trans_le ht.1
  have p : 0 < t ^ α := Real.rpow_pos_of_pos ht0 _
  have q1 : t * t ^ (α - 1) = t ^ α := by
    rw [Real.rpow_sub_one ht0.ne']; field_simp
  have q2 : t ^ 2 * t ^ (α - 1 - 1) = t ^ α := by
    rw [Real.rpow_sub_one ht0.ne', Real.rpow_sub_one ht0.ne']; field_simp
  have q3 : t ^ 3 * t ^ (α - 1 - 1 - 1) = t ^ α := by
    rw [Real.rpow_sub_one ht0.ne', Real.rpow_sub_one ht0.ne', Real.rpow_sub_one ht0.ne']; field_simp
  refine ⟨p, Real.hasDerivAt_rpow_const (Or.inl ht0.ne'),
    (Real.hasDerivAt_rpow_const (Or.inl ht0.ne')).const_mul α,
    ((Real.hasDerivAt_rpow_const (Or.inl ht0.ne')).const_mul (α - 1)).const_mul α, ?_, ?_, ?_⟩
  · rw [show t * (α * t ^ (α - 1)) = α * (t * t ^ (α - 1)) by ring, q1, abs_mul, abs_of_pos p]; rfl
  · rw [show t ^ 2 * (α * ((α - 1) * t ^ (α - 1 - 1))) = α * (α - 1) * (t ^ 2 * t ^ (α - 1 - 1)) by ring, q2, abs_mul,
      abs_of_pos p]; rfl
  · rw [show t ^ 3 * (α * ((α - 1) * ((α - 1 - 1) * t ^ (α - 1 - 1 - 1)))) =
      α * (α - 1) * (α - 2) * (t ^ 3 * t ^ (α - 1 - 1 - 1)) by ring, q3, abs_mul, abs_of_pos p]; rfl

theorem Gradual.const_mul {f : ℝ → ℝ} {k : Slopes} {a b c : ℝ} (hf : Gradual f k a b) (hc : 0 < c) :
    Gradual (fun t => c * f t) k a b := by
  obtain ⟨f1, f2, f3, hf⟩ := hf
  refine ⟨fun t => c * f1 t, fun t => c * f2 t, fun t => c * f3 t, fun t ht => ?_⟩
  obtain ⟨pf, d1, d2, d3, a1, a2, a3⟩ := hf t ht
  have m : ∀ {x X : ℝ}, |x| ≤ X * f t → |c * x| ≤ X * (c * f t) := by
    intro x X hx
    rw [abs_mul, abs_of_pos hc]
    calc c * |x| ≤ c * (X * f t) := mul_le_mul_of_nonneg_left hx hc.le
      _ = _ := by ring
  refine ⟨mul_pos hc pf, d1.const_mul c, d2.const_mul c, d3.const_mul c, ?_, ?_, ?_⟩
  · rw [mul_left_comm]; exact m a1
  · rw [mul_left_comm]; exact m a2
  · rw [mul_left_comm]; exact m a3

theorem Gradual.congr {f g : ℝ → ℝ} {k : Slopes} {a b : ℝ} (hf : Gradual f k a b) (hfg : f = g) : Gradual g k a b :=
  hfg ▸ hf

/-- over a factor `Q` in mass such a function changes by at most the factor `Q ^ one` -/
theorem Gradual.ratio {f : ℝ → ℝ} {k : Slopes} {a b Q s t : ℝ} (hf : Gradual f k a b) (ha : 0 < a) (hQ : 1 ≤ Q)
    (hs : s ∈ Icc a b) (ht : t ∈ Icc a b) (hst : s ≤ Q * t) (hts : t ≤ Q * s) : f s ≤ Q ^ k.one * f t := by
  obtain ⟨f1, f2, f3, h⟩ := hf
  have hk : 0 ≤ k.one := by
    obtain ⟨p, -, -, -, q, -⟩ := h s hs
    exact nonneg_of_mul_nonneg_left ((abs_nonneg _).trans q) p
  have pos : ∀ x ∈ Icc a b, 0 < x := fun x hx => ha.trans_le hx.1
  have mono : ∀ c : ℝ, (c = 1 ∨ c = -1) → MonotoneOn (fun x => k.one * Real.log x + c * Real.log (f x)) (Icc a b) := by
    intro c hc
    have hder : ∀ x ∈ Icc a b, HasDerivAt (fun y => k.one * Real.log y + c * Real.log (f y))
        (k.one * x⁻¹ + c * (f1 x / f x)) x := fun x hx =>
      ((Real.hasDerivAt_log (pos x hx).ne').const_mul _).fun_add (((h x hx).2.1.log (h x hx).1.ne').const_mul c)
    refine monotoneOn_of_deriv_nonneg (convex_Icc a b) (fun x hx => (hder x hx).continuousAt.continuousWithinAt) ?_ ?_
    · intro x hx
      exact (hder x (interior_subset hx)).differentiableAt.differentiableWithinAt
    · intro x hx
      have hx' := interior_subset hx
      rw [(hder x hx').deriv]
      have px := pos x hx'
      have pf := (h x hx').1
      have q := abs_le.1 (h x hx').2.2.2.2.1
      have e : k.one * x⁻¹ + c * (f1 x / f x) = (k.one * f x + c * (x * f1 x)) / (x * f x) := by
        field_simp
      rw [e]
      refine div_nonneg ?_ (mul_pos px pf).le
      rcases hc with rfl | rfl <;> linarith [q.1, q.2]
  have ps := pos s hs
  have pt := pos t ht
  have fs := (h s hs).1
  have ft := (h t ht).1
  have lQ : 0 ≤ Real.log Q := Real.log_nonneg hQ
  have key : Real.log (f s) ≤ k.one * Real.log Q + Real.log (f t) := by
    rcases le_total s t with hle | hle
    · have m := mono 1 (Or.inl rfl) hs ht hle
      have m2 := mono (-1) (Or.inr rfl) hs ht hle
      simp only at m m2
      have l : Real.log t ≤ Real.log Q + Real.log s := by
        rw [← Real.log_mul (by linarith) ps.ne']; exact Real.log_le_log pt hts
      nlinarith
    · have m := mono (-1) (Or.inr rfl) ht hs hle
      simp only at m
      have l : Real.log s ≤ Real.log Q + Real.log t := by
        rw [← Real.log_mul (by linarith) pt.ne']; exact Real.log_le_log ps hst
      nlinarith
  have Q0 : 0 < Q := by linarith
  have e : k.one * Real.log Q + Real.log (f t) = Real.log (Q ^ k.one * f t) := by
    rw [Real.log_mul (Real.rpow_pos_of_pos Q0 _).ne' ft.ne', Real.log_rpow Q0]
  rw [e] at key
  exact (Real.log_le_log_iff fs (mul_pos (Real.rpow_pos_of_pos Q0 _) ft)).1 key

/-! ## the integration rule on logarithmic grids -/

/-- a grid that grows by the factor `q` from point to point -/
structure Geometric (n : ℕ) (x : ℕ → ℝ) (q : ℝ) : Prop where
  pos : 0 < x 0
  step : ∀ i, i + 1 < n → x (i + 1) = q * x i
  gt : 1 < q
  le : q ≤ 2

theorem Geometric.point_pos {n : ℕ} {x : ℕ → ℝ} {q : ℝ} (G : Geometric n x q) : ∀ i < n, 0 < x i := by
  intro i
  induction i with
  | zero => exact fun _ => G.pos
  | succ i ih => exact fun hi => by rw [G.step i hi]; exact mul_pos (by linarith [G.gt]) (ih (by omega))

theorem Geometric.gentle {n : ℕ} {x : ℕ → ℝ} {q : ℝ} (G : Geometric n x q) : GentleGrid n x := by
  have q1 := G.gt
  have q2 := G.le
  constructor
  · intro i hi
    have := G.point_pos i (by omega)
    rw [G.step i hi]; nlinarith
  · intro i hi
    have := G.point_pos i (by omega)
    rw [G.step (i + 1) hi, G.step i (by omega)]
    nlinarith [mul_pos this (sub_pos.2 q1)]
  · intro i hi
    have := G.point_pos i (by omega)
    rw [G.step (i + 1) hi, G.step i (by omega)]
    nlinarith [mul_pos this (sub_pos.2 q1)]

theorem Geometric.cube {n : ℕ} {x : ℕ → ℝ} {q : ℝ} (G : Geometric n x q) {i j : ℕ} (hij : i ≤ j) (hj3 : j ≤ i + 3)
    (hj : j < n) : x j ≤ q ^ 3 * x i := by
  have q1 := G.gt
  have p := G.point_pos i (by omega)
  have q0 : 0 < q := by linarith
  have a1 : q ≤ q ^ 3 := by nlinarith [mul_pos q0 q0]
  have a2 : q ^ 2 ≤ q ^ 3 := by nlinarith [mul_pos q0 q0]
  obtain rfl | rfl | rfl | rfl : j = i ∨ j = i + 1 ∨ j = i + 2 ∨ j = i + 3 := by omega
  · nlinarith
  · rw [G.step i hj]; nlinarith
  · rw [G.step (i + 1) hj, G.step i (by omega)]; nlinarith
  · rw [G.step (i + 2) hj, G.step (i + 1) (by omega), G.step i (by omega)]; apply le_of_eq; ring

/-- the relative error that the bound of C148 allows on a grid of ratio `q` -/
noncomputable def tolerance (k : Slopes) (q : ℝ) : ℝ := k.three / 3 * (q ^ 3) ^ k.one * (q ^ 3 - 1) ^ 3

/-- C148, rule: on a logarithmic grid scipy's Simpson rule gives the integral of a positive function with gradual slopes
up to a relative error of third order in the step. -/
theorem C148_relative_error {n : ℕ} {x : ℕ → ℝ} {q : ℝ} (G : Geometric n x q) (hn : 3 ≤ n) {f : ℝ → ℝ} {k : Slopes}
    (hf : Gradual f k (x 0) (x (n - 1))) :
    |simpson n x (fun i => f (x i)) - ∫ t in x 0..x (n - 1), f t| ≤ tolerance k q * ∫ t in x 0..x (n - 1), f t := by
  have g := G.gentle
  have hc := hf.continuousOn
  have q1 := G.gt
  have q3 : 1 < q ^ 3 := one_lt_pow₀ q1 (by norm_num)
  rw [← intervalIntegral.integral_const_mul]
  refine simpson_near hn g hc (hc.const_smul (tolerance k q)) ?_
  intro i j hij hj3 hj
  have lij := GentleGrid.le g hij hj
  have sub : Icc (x i) (x j) ⊆ Icc (x 0) (x (n - 1)) :=
    Icc_subset_Icc (GentleGrid.le g (Nat.zero_le i) (by omega)) (GentleGrid.le g (by omega) (by omega))
  have pi := G.point_pos i (by omega)
  have hcube := G.cube hij hj3 hj
  obtain ⟨s, hs, hmax⟩ := isCompact_Icc.exists_isMaxOn (nonempty_Icc.2 lij) (hc.mono sub)
  obtain ⟨f1, f2, f3, h⟩ := id hf
  have k3 : 0 ≤ k.three := by
    obtain ⟨p, -, -, -, -, -, r⟩ := h s (sub hs)
    exact nonneg_of_mul_nonneg_left ((abs_nonneg _).trans r) p
  have fs := (h s (sub hs)).1
  set B := k.three * f s / x i ^ 3 with hB
  have hB0 : 0 ≤ B := by rw [hB]; positivity
  have T := taylor_two (a := x i) (c := x j) (B := B) (fun t ht => (h t (sub ht)).2.1) (fun t ht => (h t (sub ht)).2.2.1)
    (fun t ht => (h t (sub ht)).2.2.2.1) (fun t ht => by
      have r := (h t (sub ht)).2.2.2.2.2.2
      have pt : 0 < t := pi.trans_le ht.1
      rw [abs_mul, abs_of_pos (by positivity)] at r
      rw [hB, le_div_iff₀ (by positivity)]
      have u : |f3 t| * x i ^ 3 ≤ |f3 t| * t ^ 3 :=
        mul_le_mul_of_nonneg_left (pow_le_pow_left₀ pi.le ht.1 3) (abs_nonneg _)
      have v : k.three * f t ≤ k.three * f s := mul_le_mul_of_nonneg_left (hmax ht) k3
      linarith)
  refine ⟨f (x i) - f1 (x i) * x i + f2 (x i) / 2 * x i ^ 2, f1 (x i) - f2 (x i) * x i, f2 (x i) / 2,
    B / 6 * (x j - x i) ^ 3, fun t ht => ?_, ?_⟩
  · have := T t ht
    have e : f (x i) - f1 (x i) * x i + f2 (x i) / 2 * x i ^ 2 + (f1 (x i) - f2 (x i) * x i) * t + f2 (x i) / 2 * t ^ 2
        = f (x i) + f1 (x i) * (t - x i) + f2 (x i) / 2 * (t - x i) ^ 2 := by ring
    rw [e]
    refine this.trans (mul_le_mul_of_nonneg_left (pow_le_pow_left₀ (by linarith [ht.1]) (by linarith [ht.2]) 3) (by positivity))
  · -- the tolerance times the integral is at least the value at the largest point
    have low : ∀ t ∈ Icc (x i) (x j), k.three / 3 * (q ^ 3 - 1) ^ 3 * f s ≤ tolerance k q * f t := by
      intro t ht
      have st : s ≤ q ^ 3 * t := by
        have : q ^ 3 * x i ≤ q ^ 3 * t := mul_le_mul_of_nonneg_left ht.1 (by linarith)
        linarith [hs.2]
      have ts : t ≤ q ^ 3 * s := by
        have : q ^ 3 * x i ≤ q ^ 3 * s := mul_le_mul_of_nonneg_left hs.1 (by linarith)
        linarith [ht.2]
      have r := hf.ratio G.pos q3.le (sub hs) (sub ht) st ts
      unfold tolerance
      have c : 0 ≤ k.three / 3 * (q ^ 3 - 1) ^ 3 := mul_nonneg (by linarith) (pow_nonneg (by linarith) 3)
      calc k.three / 3 * (q ^ 3 - 1) ^ 3 * f s ≤ k.three / 3 * (q ^ 3 - 1) ^ 3 * ((q ^ 3) ^ k.one * f t) :=
            mul_le_mul_of_nonneg_left r c
        _ = _ := by ring
    have I : ∫ t in x i..x j, (k.three / 3 * (q ^ 3 - 1) ^ 3 * f s) ≤ ∫ t in x i..x j, tolerance k q * f t :=
      intervalIntegral.integral_mono_on lij (by simp)
        (((hc.mono sub).const_smul (tolerance k q)).intervalIntegrable_of_Icc lij) low
    rw [intervalIntegral.integral_const, smul_eq_mul] at I
    refine le_trans ?_ I
    have w : (x j - x i) ≤ (q ^ 3 - 1) * x i := by linarith
    have w3 : (x j - x i) ^ 3 ≤ ((q ^ 3 - 1) * x i) ^ 3 := pow_le_pow_left₀ (by linarith) w 3
    have e : 2 * (B / 6 * (x j - x i) ^ 3 * (x j - x i)) = (x j - x i) * (k.three / 3 * f s * ((x j - x i) ^ 3 / x i ^ 3)) := by
      rw [hB]; field_simp; ring
    rw [e]
    refine mul_le_mul_of_nonneg_left ?_ (by linarith)
    have w4 : (x j - x i) ^ 3 / x i ^ 3 ≤ (q ^ 3 - 1) ^ 3 := by
      rw [div_le_iff₀ (by positivity), ← mul_pow]; exact w3
    calc k.three / 3 * f s * ((x j - x i) ^ 3 / x i ^ 3) ≤ k.three / 3 * f s * (q ^ 3 - 1) ^ 3 :=
          mul_le_mul_of_nonneg_left w4 (by positivity)
      _ = _ := by ring

theorem tolerance_nonneg {f : ℝ → ℝ} {k : Slopes} {a b q : ℝ} (hab : a ≤ b) (hf : Gradual f k a b) (hq : 1 < q) :
    0 ≤ tolerance k q := by
  obtain ⟨f1, f2, f3, h⟩ := hf
  obtain ⟨p, -, -, -, -, -, r⟩ := h a ⟨le_rfl, hab⟩
  have k3 : 0 ≤ k.three := nonneg_of_mul_nonneg_left ((abs_nonneg _).trans r) p
  have q3 : 1 < q ^ 3 := one_lt_pow₀ hq (by norm_num)
  unfold tolerance
  exact mul_nonneg (mul_nonneg (by linarith) (Real.rpow_nonneg (by linarith) _)) (pow_nonneg (by linarith) 3)

/-- C148, order: in terms of the step `d` in `log10 M` the relative error is at most a constant times `d³`: halving the step
divides the bound by eight. -/
theorem C148_third_order {k : Slopes} (h1 : 0 ≤ k.one) (h3 : 0 ≤ k.three) {d : ℝ} (hd : 0 < d) (h2 : (10 : ℝ) ^ d ≤ 2) :
    tolerance k (10 ^ d) ≤ 9 * k.three * Real.log 10 ^ 3 * 8 ^ (k.one + 3) * d ^ 3 := by
  set q := (10 : ℝ) ^ d with hq
  have L : 0 < Real.log 10 := Real.log_pos (by norm_num)
  have q1 : 1 < q := Real.one_lt_rpow (by norm_num) hd
  have q0 : 0 < q := by linarith
  have l : Real.log q = d * Real.log 10 := Real.log_rpow (by norm_num) d
  have q8 : q ^ 3 ≤ 8 := by
    calc q ^ 3 ≤ 2 ^ 3 := pow_le_pow_left₀ q0.le h2 3
      _ = 8 := by norm_num
  have q30 : 0 < q ^ 3 := by positivity
  have q31 : 1 < q ^ 3 := one_lt_pow₀ q1 (by norm_num)
  -- 1 - 1/q³ ≤ log q³
  have a : 1 - (q ^ 3)⁻¹ ≤ Real.log (q ^ 3) := Real.one_sub_inv_le_log_of_pos q30
  have b : q ^ 3 - 1 ≤ 8 * (3 * (d * Real.log 10)) := by
    have e : Real.log (q ^ 3) = 3 * (d * Real.log 10) := by rw [Real.log_pow, l]; norm_num
    have c : q ^ 3 * (1 - (q ^ 3)⁻¹) ≤ q ^ 3 * (3 * (d * Real.log 10)) := by
      rw [← e]; exact mul_le_mul_of_nonneg_left a q30.le
    rw [mul_sub, mul_inv_cancel₀ q30.ne', mul_one] at c
    exact c.trans (mul_le_mul_of_nonneg_right q8 (by positivity))
  have b3 : (q ^ 3 - 1) ^ 3 ≤ (8 * (3 * (d * Real.log 10))) ^ 3 := pow_le_pow_left₀ (by linarith) b 3
  have r : (q ^ 3) ^ k.one ≤ 8 ^ k.one := Real.rpow_le_rpow q30.le q8 h1
  unfold tolerance
  have e8 : (8 : ℝ) ^ (k.one + 3) = 8 ^ k.one * 8 ^ 3 := by
    rw [Real.rpow_add (by norm_num)]; norm_num
  calc k.three / 3 * (q ^ 3) ^ k.one * (q ^ 3 - 1) ^ 3
      ≤ k.three / 3 * 8 ^ k.one * (8 * (3 * (d * Real.log 10))) ^ 3 :=
        mul_le_mul (mul_le_mul_of_nonneg_left r (by linarith)) b3 (pow_nonneg (by linarith) 3) (by positivity)
    _ = _ := by rw [e8]; ring

/-- the mass grid of the code is logarithmic -/
theorem massGrid_geometric (lo d : ℝ) (n : ℕ) (hd : 0 < d) (h2 : (10 : ℝ) ^ d ≤ 2) :
    Geometric n (massGrid lo d) (10 ^ d) where
  pos := massGrid_pos lo d 0
  step := fun i _ => by
    unfold massGrid
    rw [← Real.rpow_add (by norm_num)]
    congr 1
    push_cast
    ring
  gt := Real.one_lt_rpow (by norm_num) hd
  le := h2

/-! ## what the excluded end of the range costs -/

/-- C148, range: `np.arange` leaves out the configured upper mass. The rule stops at the last grid point `b`, up to one
factor `q` short of the upper mass `c`; what is left out is at most about one more cell, and when the upper mass is one full
step away it is at least about one cell: unlike the error of the rule, this is of first order in the step. -/
theorem C148_top_cell {f : ℝ → ℝ} {k : Slopes} {a b c q : ℝ} (ha : 0 < a) (hq : 1 < q) (hab : b = q * a) (hbc : b ≤ c)
    (hc : c ≤ q * b) (hf : Gradual f k a c) :
    (∫ t in b..c, f t) ≤ q * (q ^ 2) ^ k.one * ∫ t in a..b, f t ∧
    (c = q * b → (∫ t in a..b, f t) ≤ (q ^ 2) ^ k.one * ∫ t in b..c, f t) := by
  have ab : a ≤ b := by rw [hab]; nlinarith
  have b0 : 0 < b := ha.trans_le ab
  have hcont := hf.continuousOn
  have q2 : 1 ≤ q ^ 2 := one_le_pow₀ hq.le
  have Q0 : 0 < (q ^ 2) ^ k.one := Real.rpow_pos_of_pos (by linarith) _
  have near : ∀ s ∈ Icc a c, ∀ t ∈ Icc a c, f s ≤ (q ^ 2) ^ k.one * f t := by
    intro s hs t ht
    have up : ∀ x ∈ Icc a c, ∀ y ∈ Icc a c, x ≤ q ^ 2 * y := by
      intro x hx y hy
      have h1 : x ≤ q ^ 2 * a := by
        calc x ≤ c := hx.2
          _ ≤ q * b := hc
          _ = q ^ 2 * a := by rw [hab]; ring
      exact h1.trans (mul_le_mul_of_nonneg_left hy.1 (by linarith))
    exact hf.ratio ha q2 hs ht (up s hs t ht) (up t ht s hs)
  have iab : IntervalIntegrable f volume a b :=
    (hcont.mono (Icc_subset_Icc le_rfl hbc)).intervalIntegrable_of_Icc ab
  have ibc : IntervalIntegrable f volume b c :=
    (hcont.mono (Icc_subset_Icc ab le_rfl)).intervalIntegrable_of_Icc hbc
  have mb : b ∈ Icc a c := ⟨ab, hbc⟩
  -- compare both parts with the value at the common point
  have pb : 0 < f b := by obtain ⟨_, _, _, h⟩ := hf; exact (h b mb).1
  -- the smallest value on the whole range
  obtain ⟨s, hs, hmin⟩ := isCompact_Icc.exists_isMinOn (nonempty_Icc.2 (ab.trans hbc)) hcont
  have lowab : (b - a) * f s ≤ ∫ t in a..b, f t := by
    have := intervalIntegral.integral_mono_on ab (f := fun _ => f s) (by simp) iab
      (fun t ht => hmin ⟨ht.1, ht.2.trans hbc⟩)
    rwa [intervalIntegral.integral_const, smul_eq_mul] at this
  have highbc : (∫ t in b..c, f t) ≤ (c - b) * ((q ^ 2) ^ k.one * f s) := by
    have := intervalIntegral.integral_mono_on hbc (g := fun _ => (q ^ 2) ^ k.one * f s) ibc (by simp)
      (fun t ht => near t ⟨ab.trans ht.1, ht.2⟩ s hs)
    rwa [intervalIntegral.integral_const, smul_eq_mul] at this
  have lowbc : (c - b) * f s ≤ ∫ t in b..c, f t := by
    have := intervalIntegral.integral_mono_on hbc (f := fun _ => f s) (by simp) ibc
      (fun t ht => hmin ⟨ab.trans ht.1, ht.2⟩)
    rwa [intervalIntegral.integral_const, smul_eq_mul] at this
  have highab : (∫ t in a..b, f t) ≤ (b - a) * ((q ^ 2) ^ k.one * f s) := by
    have := intervalIntegral.integral_mono_on ab (g := fun _ => (q ^ 2) ^ k.one * f s) iab (by simp)
      (fun t ht => near t ⟨ht.1, ht.2.trans hbc⟩ s hs)
    rwa [intervalIntegral.integral_const, smul_eq_mul] at this
  have ps : 0 < f s := by obtain ⟨_, _, _, h⟩ := hf; exact (h s hs).1
  constructor
  · refine highbc.trans ?_
    have w : c - b ≤ q * (b - a) := by rw [mul_sub, ← hab]; linarith
    calc (c - b) * ((q ^ 2) ^ k.one * f s) ≤ (q * (b - a)) * ((q ^ 2) ^ k.one * f s) :=
          mul_le_mul_of_nonneg_right w (by positivity)
      _ = q * (q ^ 2) ^ k.one * ((b - a) * f s) := by ring
      _ ≤ _ := mul_le_mul_of_nonneg_left lowab (by positivity)
  · intro e
    refine highab.trans ?_
    have w : b - a ≤ c - b := by
      rw [e, hab]; nlinarith [mul_pos ha (mul_pos (sub_pos.2 hq) (sub_pos.2 hq))]
    calc (b - a) * ((q ^ 2) ^ k.one * f s) ≤ (c - b) * ((q ^ 2) ^ k.one * f s) :=
          mul_le_mul_of_nonneg_right w (by positivity)
      _ = (q ^ 2) ^ k.one * ((c - b) * f s) := by ring
      _ ≤ _ := mul_le_mul_of_nonneg_left lowbc (by positivity)

/-- C148, configured range: with the step `(hi - lo) / N` that the configuration computes, the grid has `N` points and the
halos of the last of the `N` cells below the configured upper mass are never counted: what the grid leaves out of the
integral over the configured range lies between the last counted cell divided by `q^(2 one)` and that cell times
`q^(1 + 2 one)`. -/
theorem C148_configured_range {lo hi : ℝ} (h : lo < hi) {N : ℕ} (hN : 2 ≤ N) {f : ℝ → ℝ} {k : Slopes}
    (hf : Gradual f k ((10 : ℝ) ^ lo) ((10 : ℝ) ^ hi)) :
    let d := (hi - lo) / N
    let x := massGrid lo d
    let q := (10 : ℝ) ^ d
    let missing := (∫ M in (10 : ℝ) ^ lo..(10 : ℝ) ^ hi, f M) - ∫ M in x 0..x (N - 1), f M
    arangeLen lo hi d = N ∧
    (∫ M in x (N - 2)..x (N - 1), f M) ≤ (q ^ 2) ^ k.one * missing ∧
    missing ≤ q * (q ^ 2) ^ k.one * ∫ M in x (N - 2)..x (N - 1), f M := by
  intro d x q missing
  have N0 : (0 : ℝ) < N := by exact_mod_cast (by omega : 0 < N)
  have hd : 0 < d := div_pos (by linarith) N0
  have hq : 1 < q := Real.one_lt_rpow (by norm_num) hd
  have len : arangeLen lo hi d = N := by
    unfold arangeLen
    have e : (hi - lo) / d = (N : ℝ) := by
      have : hi - lo ≠ 0 := by linarith
      simp only [d]; field_simp
    rw [e, Nat.ceil_natCast]
  have x0 : x 0 = (10 : ℝ) ^ lo := by simp [x, massGrid]
  have st : ∀ i, x (i + 1) = q * x i := by
    intro i
    simp only [x, q, massGrid]
    rw [← Real.rpow_add (by norm_num)]
    congr 1
    push_cast
    ring
  have top : (10 : ℝ) ^ hi = q * x (N - 1) := by
    rw [← st, show N - 1 + 1 = N by omega]
    simp only [x, massGrid, d]
    congr 1
    field_simp
    ring
  have e1 : x (N - 1) = q * x (N - 2) := by rw [← st, show N - 2 + 1 = N - 1 by omega]
  have pos : ∀ i, 0 < x i := massGrid_pos lo d
  have mono : Monotone x := monotone_nat_of_le_succ fun i => by rw [st]; nlinarith [pos i]
  have lowle : (10 : ℝ) ^ lo ≤ x (N - 2) := by rw [← x0]; exact mono (Nat.zero_le _)
  have hbc : x (N - 1) ≤ (10 : ℝ) ^ hi := by rw [top]; nlinarith [pos (N - 1)]
  have hc := hf.continuousOn
  have le1 : x 0 ≤ x (N - 1) := mono (Nat.zero_le _)
  have em : missing = ∫ M in x (N - 1)..(10 : ℝ) ^ hi, f M := by
    simp only [missing]
    rw [x0, sub_eq_iff_eq_add, add_comm]
    refine (intervalIntegral.integral_add_adjacent_intervals ?_ ?_).symm
    · exact (hc.mono (Icc_subset_Icc le_rfl hbc)).intervalIntegrable_of_Icc (by rw [← x0]; exact le1)
    · exact (hc.mono (Icc_subset_Icc (by rw [← x0]; exact le1) le_rfl)).intervalIntegrable_of_Icc hbc
  have T := C148_top_cell (pos (N - 2)) hq e1 hbc top.le (hf.mono lowle le_rfl)
  rw [em]
  exact ⟨len, T.2 top, T.1⟩

/-! ## the matter power -/

/-- the slopes of the integrand of the matter 1-halo term, `M (u/ρ)² dn/dlnM` -/
noncomputable def matterSlopes (kn ku : Slopes) : Slopes := ((Slopes.power 1).mul (ku.mul ku)).mul kn

/-- C148, matter: on a logarithmic mass grid the 1-halo term of the matter power that the code returns is the integral
`∫ (M u / ρ)² dn/dlnM dM/M` over the masses of the grid, times the damping at large scales, up to the relative error of the
rule. -/
theorem C148_matter {s : Spectra} {z k : ℕ} {n u : ℝ → ℝ} {ρ q : ℝ} {kn ku : Slopes} (G : Geometric s.nm s.mass q)
    (hnm : 3 ≤ s.nm) (hn : ∀ m < s.nm, s.dndlnm z m = n (s.mass m)) (hu : ∀ m < s.nm, s.uDm z k m = u (s.mass m))
    (hρ : s.meanDensity0 z = ρ) (ρ0 : 0 < ρ) (gn : Gradual n kn (s.mass 0) (s.mass (s.nm - 1)))
    (gu : Gradual u ku (s.mass 0) (s.mass (s.nm - 1)))
    (hmode : s.nonlinearMode = .none ∨ s.nonlinearMode = .fortuna) (hresp : s.response = false)
    (hi : s.hmcodeIngredients = .none ∨ s.hmcodeIngredients = .mead2020) :
    let I := ∫ M in s.mass 0..s.mass (s.nm - 1), (M / ρ * u M) ^ 2 * (n M / M)
    ∃ r, s.powerSpectrumMm = .ok r ∧ ∀ t,
      |r.pk1h t z k - I * s.oneHaloTruncation k| ≤ tolerance (matterSlopes kn ku) q * (I * |s.oneHaloTruncation k|) := by
  intro I
  have S : Sampled s := ⟨fun m hm => (G.point_pos m hm).ne', by omega⟩
  obtain ⟨r, h1, h2⟩ := C97_matter S hmode hresp hi
  refine ⟨r, h1, fun t => ?_⟩
  have le := GentleGrid.le G.gentle (Nat.zero_le (s.nm - 1)) (by omega)
  have pos : ∀ M ∈ Icc (s.mass 0) (s.mass (s.nm - 1)), 0 < M := fun M hM => G.pos.trans_le hM.1
  have gF : Gradual (fun M => (1 / ρ ^ 2) * (M ^ (1 : ℝ) * (u M * u M) * n M)) (matterSlopes kn ku) (s.mass 0)
      (s.mass (s.nm - 1)) := (((Gradual.power 1 G.pos).mul (gu.mul gu)).mul gn).const_mul (by positivity)
  have e : ∀ M, 0 < M → (1 / ρ ^ 2) * (M ^ (1 : ℝ) * (u M * u M) * n M) = (M / ρ * u M) ^ 2 * (n M / M) := by
    intro M hM
    rw [Real.rpow_one]
    field_simp
  have E := C148_relative_error G hnm gF
  have eI : (∫ M in s.mass 0..s.mass (s.nm - 1), (1 / ρ ^ 2) * (M ^ (1 : ℝ) * (u M * u M) * n M)) = I :=
    intervalIntegral.integral_congr fun M hM => e M (pos M (by rwa [uIcc_of_le le] at hM))
  rw [eI] at E
  have es : r.pk1h t z k = simpson s.nm s.mass (fun i => (1 / ρ ^ 2) * (s.mass i ^ (1 : ℝ) * (u (s.mass i) * u (s.mass i))
      * n (s.mass i))) * s.oneHaloTruncation k := by
    rw [(h2 t z k).1]
    congr 1
    simp only [HaloModel.oneHalo, HaloModel.matter, haloes, hρ]
    refine simpson_congr (fun _ _ => rfl) fun m hm => ?_
    rw [e _ (G.point_pos m hm), hn m hm, hu m hm]
    ring
  rw [es, ← sub_mul, abs_mul]
  calc _ ≤ (tolerance (matterSlopes kn ku) q * I) * |s.oneHaloTruncation k| :=
        mul_le_mul_of_nonneg_right E (abs_nonneg _)
    _ = _ := by ring

/-! ## the galaxy sample -/

/-- C148, number density: on a logarithmic mass grid the number densities of centrals and satellites are
`∫ N dn/dlnM dM/M` up to the relative error of the rule. -/
theorem C148_number_density {h : Hod.Base} {b j : ℕ} {N n : ℝ → ℝ} {q : ℝ} {kN kn : Slopes} (G : Geometric h.nm h.mass q)
    (hnm : 3 ≤ h.nm) (hn : ∀ m < h.nm, h.dndlnmInt b j m = n (h.mass m))
    (gN : Gradual N kN (h.mass 0) (h.mass (h.nm - 1))) (gn : Gradual n kn (h.mass 0) (h.mass (h.nm - 1))) :
    let I := ∫ M in h.mass 0..h.mass (h.nm - 1), N M * n M / M
    let k := (kN.mul kn).mul (Slopes.power (-1))
    ((∀ m < h.nm, h.occCen b j m = N (h.mass m)) → |h.ncen b j - I| ≤ tolerance k q * I) ∧
    ((∀ m < h.nm, h.occSat b j m = N (h.mass m)) → |h.nsat b j - I| ≤ tolerance k q * I) ∧
    ((∀ m < h.nm, h.occ b j m = N (h.mass m)) → |h.ntot b j - I| ≤ tolerance k q * I) := by
  intro I k
  have le := GentleGrid.le G.gentle (Nat.zero_le (h.nm - 1)) (by omega)
  have gF : Gradual (fun M => N M * n M * M ^ (-1 : ℝ)) k (h.mass 0) (h.mass (h.nm - 1)) :=
    (gN.mul gn).mul (Gradual.power (-1) G.pos)
  have e : ∀ M, 0 < M → N M * n M * M ^ (-1 : ℝ) = N M * n M / M := by
    intro M hM
    rw [Real.rpow_neg_one, div_eq_mul_inv]
  have E := C148_relative_error G hnm gF
  have eI : (∫ M in h.mass 0..h.mass (h.nm - 1), N M * n M * M ^ (-1 : ℝ)) = I :=
    intervalIntegral.integral_congr fun M hM => e M (G.pos.trans_le (by rw [uIcc_of_le le] at hM; exact hM.1))
  rw [eI] at E
  have es : ∀ O : ℕ → ℕ → ℕ → ℝ, (∀ m < h.nm, O b j m = N (h.mass m)) → h.massIntegral O b j =
      simpson h.nm h.mass (fun i => N (h.mass i) * n (h.mass i) * h.mass i ^ (-1 : ℝ)) := by
    intro O hO
    unfold Hod.Base.massIntegral
    refine simpson_congr (fun _ _ => rfl) fun m hm => ?_
    rw [e _ (G.point_pos m hm), hO m hm, hn m hm]
  refine ⟨fun hO => ?_, fun hO => ?_, fun hO => ?_⟩
  · rw [Hod.Base.ncen, es _ hO]; exact E
  · rw [Hod.Base.nsat, es _ hO]; exact E
  · rw [Hod.Base.ntot, es _ hO]; exact E

theorem ratio_error {x X y Y ε δ : ℝ} (hX : 0 ≤ X) (hY : 0 < Y) (hδ : δ < 1) (hδ0 : 0 ≤ δ) (hx : |x - X| ≤ ε * X)
    (hy : |y - Y| ≤ δ * Y) : |x / y - X / Y| ≤ (ε + δ) / (1 - δ) * (X / Y) := by
  have y0 : (1 - δ) * Y ≤ y := by have := (abs_le.1 hy).1; linarith
  have y1 : 0 < y := (mul_pos (by linarith) hY).trans_le y0
  have e : x / y - X / Y = ((x - X) * Y - X * (y - Y)) / (y * Y) := by field_simp; ring
  rw [e, abs_div, abs_of_pos (mul_pos y1 hY), div_le_iff₀ (mul_pos y1 hY)]
  have a : |(x - X) * Y - X * (y - Y)| ≤ (ε + δ) * (X * Y) := by
    have h1 : |(x - X) * Y| ≤ ε * X * Y := by
      rw [abs_mul, abs_of_pos hY]; exact mul_le_mul_of_nonneg_right hx hY.le
    have h2 : |X * (y - Y)| ≤ X * (δ * Y) := by
      rw [abs_mul, abs_of_nonneg hX]; exact mul_le_mul_of_nonneg_left hy hX
    have := abs_sub ((x - X) * Y) (X * (y - Y))
    linarith
  refine a.trans ?_
  have hs : 0 ≤ (ε + δ) * X := by
    have : 0 ≤ ε * X := (abs_nonneg _).trans hx
    have : 0 ≤ δ * X := mul_nonneg hδ0 hX
    linarith
  have h1δ : 0 < 1 - δ := by linarith
  have e2 : (ε + δ) / (1 - δ) * (X / Y) * (y * Y) = ((ε + δ) * X) * (y / (1 - δ)) := by field_simp
  rw [e2, ← mul_assoc]
  refine mul_le_mul_of_nonneg_left ?_ hs
  rw [le_div_iff₀ h1δ]; linarith

/-- C148, bias: the bias of the sample is the number-weighted mean bias `∫ N b dn/dlnM dM/M / ∫ N dn/dlnM dM/M` up to the
relative errors of the two integrals. -/
theorem C148_bias {h : Hod.Base} {b j : ℕ} {N n β : ℝ → ℝ} {q : ℝ} {kN kn kβ : Slopes} (G : Geometric h.nm h.mass q)
    (hnm : 3 ≤ h.nm) (hn : ∀ m < h.nm, h.dndlnmInt b j m = n (h.mass m))
    (hβ : ∀ m < h.nm, h.haloBiasInt b j m = β (h.mass m)) (hN : ∀ m < h.nm, h.occ b j m = N (h.mass m))
    (gN : Gradual N kN (h.mass 0) (h.mass (h.nm - 1))) (gn : Gradual n kn (h.mass 0) (h.mass (h.nm - 1)))
    (gβ : Gradual β kβ (h.mass 0) (h.mass (h.nm - 1))) :
    let B := (∫ M in h.mass 0..h.mass (h.nm - 1), N M * β M * n M / M) / ∫ M in h.mass 0..h.mass (h.nm - 1), N M * n M / M
    let ε := tolerance (((kN.mul kβ).mul kn).mul (Slopes.power (-1))) q
    let δ := tolerance ((kN.mul kn).mul (Slopes.power (-1))) q
    δ < 1 → |h.biasIntegral h.occ b j - B| ≤ (ε + δ) / (1 - δ) * B := by
  intro B ε δ hδ
  have lt : h.mass 0 < h.mass (h.nm - 1) := by
    have := GentleGrid.le G.gentle (i := 1) (j := h.nm - 1) (by omega) (by omega)
    have s := G.step 0 (by omega)
    have := G.gt
    have := G.pos
    nlinarith
  have posM : ∀ M ∈ Icc (h.mass 0) (h.mass (h.nm - 1)), 0 < M := fun M hM => G.pos.trans_le hM.1
  have tot := (C148_number_density G hnm hn gN gn).2.2 hN
  have gF : Gradual (fun M => N M * β M * n M * M ^ (-1 : ℝ)) (((kN.mul kβ).mul kn).mul (Slopes.power (-1))) (h.mass 0)
      (h.mass (h.nm - 1)) := ((gN.mul gβ).mul gn).mul (Gradual.power (-1) G.pos)
  have e : ∀ M, 0 < M → N M * β M * n M * M ^ (-1 : ℝ) = N M * β M * n M / M := by
    intro M hM
    rw [Real.rpow_neg_one, div_eq_mul_inv]
  have E := C148_relative_error G hnm gF
  have eI : (∫ M in h.mass 0..h.mass (h.nm - 1), N M * β M * n M * M ^ (-1 : ℝ)) =
      ∫ M in h.mass 0..h.mass (h.nm - 1), N M * β M * n M / M :=
    intervalIntegral.integral_congr fun M hM => e M (posM M (by rwa [uIcc_of_le lt.le] at hM))
  rw [eI] at E
  have es : h.biasIntegral h.occ b j =
      simpson h.nm h.mass (fun i => N (h.mass i) * β (h.mass i) * n (h.mass i) * h.mass i ^ (-1 : ℝ)) / h.ntot b j := by
    unfold Hod.Base.biasIntegral
    congr 1
    refine simpson_congr (fun _ _ => rfl) fun m hm => ?_
    rw [e _ (G.point_pos m hm), hN m hm, hn m hm, hβ m hm]
  rw [es]
  obtain ⟨N1, N2, N3, hNg⟩ := id gN
  obtain ⟨n1, n2, n3, hng⟩ := id gn
  obtain ⟨β1, β2, β3, hβg⟩ := id gβ
  have cont : ContinuousOn (fun M => N M * n M / M) (Icc (h.mass 0) (h.mass (h.nm - 1))) :=
    (gN.continuousOn.mul gn.continuousOn).div continuousOn_id fun M hM => (posM M hM).ne'
  refine ratio_error ?_ ?_ hδ (tolerance_nonneg lt.le ((gN.mul gn).mul (Gradual.power (-1) G.pos)) G.gt) E tot
  · refine intervalIntegral.integral_nonneg lt.le fun M hM => ?_
    exact (div_pos (mul_pos (mul_pos (hNg M hM).1 (hβg M hM).1) (hng M hM).1) (posM M hM)).le
  · refine intervalIntegral.integral_pos lt cont (fun M hM => ?_) ⟨h.mass 0, ⟨le_rfl, lt.le⟩, ?_⟩
    · have hM' : M ∈ Icc (h.mass 0) (h.mass (h.nm - 1)) := ⟨hM.1.le, hM.2⟩
      exact (div_pos (mul_pos (hNg M hM').1 (hng M hM').1) (posM M hM')).le
    · have hM' : h.mass 0 ∈ Icc (h.mass 0) (h.mass (h.nm - 1)) := ⟨le_rfl, lt.le⟩
      exact div_pos (mul_pos (hNg _ hM').1 (hng _ hM').1) (posM _ hM')

/-! ## concrete cases -/

theorem step_small : (10 : ℝ) ^ (1 / 20 : ℝ) ≤ 2 := by
  have h : (10 : ℝ) ≤ 2 ^ (20 : ℝ) := by norm_num
  calc (10 : ℝ) ^ (1 / 20 : ℝ) ≤ ((2 : ℝ) ^ (20 : ℝ)) ^ (1 / 20 : ℝ) := Real.rpow_le_rpow (by norm_num) h (by norm_num)
    _ = 2 := by rw [← Real.rpow_mul (by norm_num)]; norm_num

theorem points : arangeLen 9 16 (1 / 20) = 140 := by
  unfold arangeLen
  norm_num

theorem one_gradual {a b : ℝ} : Gradual (fun _ => (1 : ℝ)) ⟨0, 0, 0⟩ a b :=
  ⟨fun _ => 0, fun _ => 0, fun _ => 0, fun t _ => ⟨one_pos, hasDerivAt_const t 1, hasDerivAt_const t 0, hasDerivAt_const t 0,
    by simp, by simp, by simp⟩⟩

/-- a mass function falling like a power of the mass, with a profile falling like another: a grid of 140 masses -/
noncomputable def steep : Spectra :=
  { fineDemo (1 / 20) with
    dndlnm := fun _ m => massGrid 9 (1 / 20) m ^ (-9 / 10 : ℝ), uDm := fun _ _ m => massGrid 9 (1 / 20) m ^ (-1 / 5 : ℝ) }

example : ∃ r, steep.powerSpectrumMm = .ok r ∧ ∀ t,
    let I := ∫ M in steep.mass 0..steep.mass (steep.nm - 1), (M / 8 * M ^ (-1 / 5 : ℝ)) ^ 2 * (M ^ (-9 / 10 : ℝ) / M)
    |r.pk1h t 0 0 - I * steep.oneHaloTruncation 0| ≤
      tolerance (matterSlopes (Slopes.power (-9 / 10)) (Slopes.power (-1 / 5))) ((10 : ℝ) ^ (1 / 20 : ℝ)) *
        (I * |steep.oneHaloTruncation 0|) :=
  C148_matter (s := steep) (z := 0) (k := 0) (ρ := 8) (massGrid_geometric 9 (1 / 20) _ (by norm_num) step_small)
    (by change 3 ≤ arangeLen 9 16 (1 / 20); rw [points]; norm_num) (fun _ _ => rfl) (fun _ _ => rfl) rfl (by norm_num)
    (Gradual.power _ (massGrid_pos 9 (1 / 20) 0)) (Gradual.power _ (massGrid_pos 9 (1 / 20) 0)) (Or.inl rfl) rfl (Or.inl rfl)

example : |(fineHodDemo (1 / 20)).nsat 0 1 -
      ∫ M in (fineHodDemo (1 / 20)).mass 0..(fineHodDemo (1 / 20)).mass ((fineHodDemo (1 / 20)).nm - 1), M ^ (1 : ℝ) * 1 / M| ≤
    tolerance (((Slopes.power 1).mul ⟨0, 0, 0⟩).mul (Slopes.power (-1))) ((10 : ℝ) ^ (1 / 20 : ℝ)) *
      ∫ M in (fineHodDemo (1 / 20)).mass 0..(fineHodDemo (1 / 20)).mass ((fineHodDemo (1 / 20)).nm - 1), M ^ (1 : ℝ) * 1 / M :=
  (C148_number_density (h := fineHodDemo (1 / 20)) (b := 0) (j := 1) (massGrid_geometric 9 (1 / 20) _ (by norm_num) step_small)
    (by change 3 ≤ arangeLen 9 16 (1 / 20); rw [points]; norm_num)
    (fun m _ => by simp [Hod.Base.dndlnmInt, interp1d, interpLinear, fineHodDemo])
    (Gradual.power 1 (massGrid_pos 9 (1 / 20) 0)) one_gradual).2.1 (fun m _ => by simp [fineHodDemo])

/-- one central per halo and no satellites -/
noncomputable def centralsOnly : Hod.Base := { fineHodDemo (1 / 20) with occSat := fun _ _ _ => 0 }

theorem cube_small : ((10 : ℝ) ^ (1 / 20 : ℝ)) ^ 3 ≤ 1.42 := by
  have h : ((10 : ℝ) ^ 3) ≤ 1.42 ^ (20 : ℝ) := by norm_num
  calc ((10 : ℝ) ^ (1 / 20 : ℝ)) ^ 3 = ((10 : ℝ) ^ 3) ^ (1 / 20 : ℝ) := by
        rw [← Real.rpow_natCast, ← Real.rpow_mul (by norm_num), ← Real.rpow_natCast, ← Real.rpow_mul (by norm_num)]
        norm_num
    _ ≤ ((1.42 : ℝ) ^ (20 : ℝ)) ^ (1 / 20 : ℝ) := Real.rpow_le_rpow (by norm_num) h (by norm_num)
    _ = 1.42 := by rw [← Real.rpow_mul (by norm_num)]; norm_num

/-- the condition of the theorem on the bias is met: on this grid the number density has a relative error below 22 % -/
theorem density_tolerance : tolerance (((⟨0, 0, 0⟩ : Slopes).mul ⟨0, 0, 0⟩).mul (Slopes.power (-1))) ((10 : ℝ) ^ (1 / 20 : ℝ))
    < 0.22 := by
  have c := cube_small
  have g : 1 ≤ ((10 : ℝ) ^ (1 / 20 : ℝ)) ^ 3 := one_le_pow₀ (Real.one_le_rpow (by norm_num) (by norm_num))
  set Q := ((10 : ℝ) ^ (1 / 20 : ℝ)) ^ 3
  have e : tolerance (((⟨0, 0, 0⟩ : Slopes).mul ⟨0, 0, 0⟩).mul (Slopes.power (-1))) ((10 : ℝ) ^ (1 / 20 : ℝ)) =
      2 * Q * (Q - 1) ^ 3 := by
    unfold tolerance Slopes.mul Slopes.power
    norm_num
    rfl
  rw [e]
  have h3 : (Q - 1) ^ 3 ≤ 0.42 ^ 3 := pow_le_pow_left₀ (by linarith) (by linarith) 3
  have : 2 * Q * (Q - 1) ^ 3 ≤ 2 * 1.42 * 0.42 ^ 3 :=
    mul_le_mul (by linarith) h3 (pow_nonneg (by linarith) 3) (by norm_num)
  norm_num at this ⊢
  linarith

example :
    let h := centralsOnly
    let B := (∫ M in h.mass 0..h.mass (h.nm - 1), 1 * M ^ (1 : ℝ) * 1 / M) / ∫ M in h.mass 0..h.mass (h.nm - 1), 1 * 1 / M
    let ε := tolerance ((((⟨0, 0, 0⟩ : Slopes).mul (Slopes.power 1)).mul ⟨0, 0, 0⟩).mul (Slopes.power (-1))) (10 ^ (1 / 20 : ℝ))
    let δ := tolerance (((⟨0, 0, 0⟩ : Slopes).mul ⟨0, 0, 0⟩).mul (Slopes.power (-1))) (10 ^ (1 / 20 : ℝ))
    |h.biasIntegral h.occ 0 1 - B| ≤ (ε + δ) / (1 - δ) * B :=
  C148_bias (h := centralsOnly) (b := 0) (j := 1) (massGrid_geometric 9 (1 / 20) _ (by norm_num) step_small)
    (by change 3 ≤ arangeLen 9 16 (1 / 20); rw [points]; norm_num)
    (fun m _ => by simp [Hod.Base.dndlnmInt, interp1d, interpLinear, centralsOnly, fineHodDemo])
    (fun m _ => by simp [Hod.Base.haloBiasInt, interp1d, interpLinear, centralsOnly, fineHodDemo])
    (fun m _ => by simp [Hod.Base.occ, centralsOnly, fineHodDemo])
    one_gradual one_gradual (Gradual.power 1 (massGrid_pos 9 (1 / 20) 0)) (density_tolerance.trans (by norm_num))

/-- the integrand `1/M` between `1` and `4`, with the upper end left out -/
example : (∫ t in (2 : ℝ)..4, t ^ (-1 : ℝ)) ≤ 2 * (2 ^ 2 : ℝ) ^ (Slopes.power (-1)).one * ∫ t in (1 : ℝ)..2, t ^ (-1 : ℝ) :=
  (C148_top_cell (by norm_num) (by norm_num) (by norm_num) (by norm_num) (by norm_num) (Gradual.power (-1) one_pos)).1

/-- the default range and number of masses: the rule stops at `10^15.965` -/
example : arangeLen 9 16 ((16 - 9) / (200 : ℕ)) = 200 :=
  (C148_configured_range (lo := 9) (hi := 16) (by norm_num) (N := 200) (by norm_num)
    (Gradual.power (-1) (b := (10 : ℝ) ^ (16 : ℝ)) (Real.rpow_pos_of_pos (by norm_num) (9 : ℝ)))).1

example : tolerance (Slopes.power (-1)) (10 ^ (1 / 20 : ℝ)) ≤ 9 * (Slopes.power (-1)).three * Real.log 10 ^ 3 *
    8 ^ ((Slopes.power (-1)).one + 3) * (1 / 20) ^ 3 :=
  C148_third_order (abs_nonneg _) (abs_nonneg _) (by norm_num) step_small

end Verif.Accuracy

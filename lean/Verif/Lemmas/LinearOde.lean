import Mathlib.Analysis.ODE.ExistUnique
import Mathlib.Analysis.Calculus.Deriv.MeanValue
import Mathlib.Analysis.SpecialFunctions.ExpDeriv
import Mathlib.Analysis.Calculus.Deriv.Prod
import Mathlib.Tactic.Linarith
import Mathlib.Tactic.Positivity

/-! Linear second order equations `D'' = p D' + q D` on a closed interval: existence, uniqueness, positivity and
comparison.  Mathlib has only the local existence theorem. -/

namespace Verif.Lemmas.LinearOde

open Set Filter Topology

/-- an integrating factor for a continuous coefficient -/
theorem exists_factor {a b : ℝ} (hab : a ≤ b) {k : ℝ → ℝ} (hk : ContinuousOn k (Icc a b)) :
    ∃ E : ℝ → ℝ, Continuous E ∧ (∀ t, 0 < E t) ∧ ∀ t ∈ Icc a b, HasDerivAt E (k t * E t) t := by
  have hc : Continuous (IccExtend hab ((Icc a b).domRestrict k)) :=
    Continuous.Icc_extend' hk.domRestrict
  have hd : ∀ t, HasDerivAt (fun u => ∫ x in a..u, IccExtend hab ((Icc a b).domRestrict k) x)
      (IccExtend hab ((Icc a b).domRestrict k) t) t := fun t =>
    (hc.integral_hasStrictDerivAt a t).hasDerivAt
  refine ⟨fun u => Real.exp (∫ x in a..u, IccExtend hab ((Icc a b).domRestrict k) x), ?_, fun t => Real.exp_pos _,
    fun t ht => ?_⟩
  · exact Real.continuous_exp.comp (continuous_iff_continuousAt.2 fun t => (hd t).continuousAt)
  · have := (hd t).exp
    rw [IccExtend_of_mem hab _ ht] at this
    rw [mul_comm]
    exact this

/-- a function with `f' >= -k f` that starts nonnegative stays nonnegative, and if it starts positive it stays positive -/
theorem nonneg_of_deriv {a b : ℝ} {k f f' : ℝ → ℝ} (hk : ContinuousOn k (Icc a b)) (hf : ContinuousOn f (Icc a b))
    (hd : ∀ t ∈ Ioo a b, HasDerivAt f (f' t) t) (hge : ∀ t ∈ Ioo a b, -(k t * f t) ≤ f' t) (h0 : 0 ≤ f a) :
    ∀ t ∈ Icc a b, 0 ≤ f t ∧ (0 < f a → 0 < f t) := by
  intro t ht
  obtain ⟨E, hE, hEp, hEd⟩ := exists_factor (ht.1.trans ht.2) hk
  have hm : MonotoneOn (fun t => E t * f t) (Icc a b) := by
    refine monotoneOn_of_hasDerivWithinAt_nonneg (convex_Icc a b) (hE.continuousOn.mul hf)
      (f' := fun t => k t * E t * f t + E t * f' t) (fun x hx => ?_) (fun x hx => ?_)
    · rw [interior_Icc] at hx
      exact ((hEd x (Ioo_subset_Icc_self hx)).mul (hd x hx)).hasDerivWithinAt
    · rw [interior_Icc] at hx
      have := mul_le_mul_of_nonneg_left (hge x hx) (hEp x).le
      nlinarith
  have h1 := hm (left_mem_Icc.2 (ht.1.trans ht.2)) ht ht.1
  have h2 : 0 ≤ E t * f t := le_trans (mul_nonneg (hEp a).le h0) h1
  exact ⟨nonneg_of_mul_nonneg_right h2 (hEp t), fun h =>
    pos_of_mul_pos_right (lt_of_lt_of_le (mul_pos (hEp a) h) h1) (hEp t).le⟩

/-- a growing mode never turns around: if `D'' = p D' + q D` with `q >= 0`, a solution that starts positive and
increasing stays so -/
theorem growing {a b : ℝ} {p q D v : ℝ → ℝ} (hp : ContinuousOn p (Icc a b)) (hq : ∀ t ∈ Icc a b, 0 ≤ q t)
    (hD : ContinuousOn D (Icc a b)) (hv : ContinuousOn v (Icc a b))
    (dD : ∀ t ∈ Ioo a b, HasDerivAt D (v t) t)
    (dv : ∀ t ∈ Ioo a b, HasDerivAt v (p t * v t + q t * D t) t) (hD0 : 0 < D a) (hv0 : 0 < v a) :
    ∀ t ∈ Icc a b, D a ≤ D t ∧ 0 < v t := by
  intro t ht
  have hab := ht.1.trans ht.2
  obtain ⟨E, hE, hEp, hEd⟩ := exists_factor hab (k := fun t => -p t) hp.neg
  have hP : ContinuousOn (fun t => E t * v t) (Icc a b) := hE.continuousOn.mul hv
  have hP0 : 0 < E a * v a := mul_pos (hEp a) hv0
  have hsub : Icc a b ⊆ {t | D a ≤ D t ∧ E a * v a ≤ E t * v t} := by
    refine IsClosed.Icc_subset_of_forall_mem_nhdsWithin ?_ ⟨le_rfl, le_rfl⟩ ?_
    · have h1 := ContinuousOn.preimage_isClosed_of_isClosed (hD.prodMk hP) isClosed_Icc
        (isClosed_Ici (a := D a) |>.prod (isClosed_Ici (a := E a * v a)))
      rw [inter_comm]
      exact h1
    · rintro x ⟨⟨hx1, hx2⟩, hx⟩
      have hxI := Ico_subset_Icc_self hx
      have e1 : ∀ᶠ t in 𝓝[Icc a b] x, 0 < D t := (hD x hxI).eventually (lt_mem_nhds (hD0.trans_le hx1))
      have e2 : ∀ᶠ t in 𝓝[Icc a b] x, 0 < E t * v t := (hP x hxI).eventually (lt_mem_nhds (hP0.trans_le hx2))
      obtain ⟨ε, hε, hb⟩ := Metric.mem_nhdsWithin_iff.1 (e1.and e2)
      obtain ⟨c, hxc, hcb, hce⟩ : ∃ c, x < c ∧ c ≤ b ∧ c < x + ε :=
        ⟨min b (x + ε / 2), lt_min hx.2 (by linarith), min_le_left _ _,
          lt_of_le_of_lt (min_le_right _ _) (by linarith)⟩
      have hpos : ∀ t ∈ Icc x c, 0 < D t ∧ 0 < E t * v t := fun t ht =>
        hb ⟨by rw [Metric.mem_ball, Real.dist_eq, abs_of_nonneg (by linarith [ht.1])]; linarith [ht.2],
          hx.1.trans ht.1, ht.2.trans hcb⟩
      have hss : Icc x c ⊆ Icc a b := Icc_subset_Icc hx.1 hcb
      have hso : Ioo x c ⊆ Ioo a b := Ioo_subset_Ioo hx.1 hcb
      have m1 : MonotoneOn D (Icc x c) := by
        refine monotoneOn_of_hasDerivWithinAt_nonneg (convex_Icc x c) (hD.mono hss) (f' := v)
          (fun y hy => ?_) (fun y hy => ?_)
        · rw [interior_Icc] at hy; exact (dD y (hso hy)).hasDerivWithinAt
        · rw [interior_Icc] at hy
          exact (pos_of_mul_pos_right (hpos y (Ioo_subset_Icc_self hy)).2 (hEp y).le).le
      have m2 : MonotoneOn (fun t => E t * v t) (Icc x c) := by
        refine monotoneOn_of_hasDerivWithinAt_nonneg (convex_Icc x c) (hP.mono hss)
          (f' := fun t => -p t * E t * v t + E t * (p t * v t + q t * D t))
          (fun y hy => ?_) (fun y hy => ?_)
        · rw [interior_Icc] at hy
          exact ((hEd y (hss (Ioo_subset_Icc_self hy))).mul (dv y (hso hy))).hasDerivWithinAt
        · rw [interior_Icc] at hy
          have hy' := Ioo_subset_Icc_self hy
          have : 0 ≤ E y * (q y * D y) := mul_nonneg (hEp y).le (mul_nonneg (hq y (hss hy')) (hpos y hy').1.le)
          nlinarith
      refine mem_of_superset (Ioc_mem_nhdsGT hxc) fun t ht => ?_
      have ht' : t ∈ Icc x c := ⟨ht.1.le, ht.2⟩
      exact ⟨hx1.trans (m1 (left_mem_Icc.2 hxc.le) ht' ht.1.le),
        hx2.trans (m2 (left_mem_Icc.2 hxc.le) ht' ht.1.le)⟩
  obtain ⟨h1, h2⟩ := hsub ht
  exact ⟨h1, pos_of_mul_pos_right (hP0.trans_le h2) (hEp t).le⟩

/-- the vector field is Lipschitz with one constant for all times -/
theorem lipschitz {P Q p q : ℝ} (hp : |p| ≤ P) (hq : |q| ≤ Q) (x y : ℝ × ℝ) :
    dist ((x.2, p * x.2 + q * x.1) : ℝ × ℝ) (y.2, p * y.2 + q * y.1) ≤ (1 + P + Q) * dist x y := by
  have hP := (abs_nonneg p).trans hp
  have hQ := (abs_nonneg q).trans hq
  have h1 : |x.1 - y.1| ≤ dist x y := by rw [Prod.dist_eq, ← Real.dist_eq]; exact le_max_left _ _
  have h2 : |x.2 - y.2| ≤ dist x y := by rw [Prod.dist_eq, ← Real.dist_eq]; exact le_max_right _ _
  have hd : 0 ≤ dist x y := dist_nonneg
  rw [Prod.dist_eq (α := ℝ) (β := ℝ)]
  refine max_le ?_ ?_
  · rw [Real.dist_eq]; nlinarith
  · rw [Real.dist_eq]
    have e : p * x.2 + q * x.1 - (p * y.2 + q * y.1) = p * (x.2 - y.2) + q * (x.1 - y.1) := by ring
    simp only [e]
    calc _ ≤ |p * (x.2 - y.2)| + |q * (x.1 - y.1)| := abs_add_le _ _
      _ = |p| * |x.2 - y.2| + |q| * |x.1 - y.1| := by rw [abs_mul, abs_mul]
      _ ≤ P * dist x y + Q * dist x y := by gcongr
      _ ≤ _ := by nlinarith

/-- the initial value problem has a solution on the whole interval -/
theorem exists_solution {a b : ℝ} (hab : a ≤ b) {p q : ℝ → ℝ} (hp : ContinuousOn p (Icc a b))
    (hq : ContinuousOn q (Icc a b)) (y₀ : ℝ × ℝ) :
    ∃ y : ℝ → ℝ × ℝ, y a = y₀ ∧ ∀ t ∈ Icc a b,
      HasDerivWithinAt y ((y t).2, p t * (y t).2 + q t * (y t).1) (Icc a b) t := by
  obtain ⟨P, hP⟩ := isCompact_Icc.exists_bound_of_continuousOn hp
  obtain ⟨Q, hQ⟩ := isCompact_Icc.exists_bound_of_continuousOn hq
  simp only [Real.norm_eq_abs] at hP hQ
  have hI : a ∈ Icc a b := left_mem_Icc.2 hab
  have hP0 := (abs_nonneg _).trans (hP a hI)
  have hQ0 := (abs_nonneg _).trans (hQ a hI)
  set K : ℝ := 1 + P + Q with hK
  have hK0 : 0 ≤ K := by linarith
  set R : ℝ := ‖y₀‖ * Real.exp (K * (b - a)) with hR
  have hR0 : 0 ≤ R := by positivity
  let cl : ℝ → ℝ := fun x => max (-R) (min x R)
  have cl_lip : ∀ x y, |cl x - cl y| ≤ |x - y| := by
    intro x y
    calc |max (-R) (min x R) - max (-R) (min y R)| ≤ |min x R - min y R| := by
          simpa using abs_max_sub_max_le_max (-R) (min x R) (-R) (min y R)
      _ ≤ |x - y| := by simpa using abs_min_sub_min_le_max x R y R
  have cl_le : ∀ x, |cl x| ≤ R := fun x => abs_le.2
    ⟨le_max_left _ _, max_le (by linarith) (min_le_right _ _)⟩
  have cl_self : ∀ x, |x| ≤ R → cl x = x := fun x hx => by
    show max (-R) (min x R) = x
    rw [min_eq_left (abs_le.1 hx).2, max_eq_right (abs_le.1 hx).1]
  have cl_zero : cl 0 = 0 := cl_self 0 (by simpa using hR0)
  let c2 : ℝ × ℝ → ℝ × ℝ := fun x => (cl x.1, cl x.2)
  have c2_lip : ∀ x y, dist (c2 x) (c2 y) ≤ dist x y := fun x y => by
    rw [Prod.dist_eq, Prod.dist_eq]
    exact max_le_max (by simpa [Real.dist_eq] using cl_lip x.1 y.1) (by simpa [Real.dist_eq] using cl_lip x.2 y.2)
  have c2_zero : c2 0 = 0 := by show (cl 0, cl 0) = (0 : ℝ × ℝ); rw [cl_zero]; rfl
  let f : ℝ → ℝ × ℝ → ℝ × ℝ := fun t x => ((c2 x).2, p t * (c2 x).2 + q t * (c2 x).1)
  have f_lip : ∀ t ∈ Icc a b, ∀ x y, dist (f t x) (f t y) ≤ K * dist x y := fun t ht x y =>
    (lipschitz (hP t ht) (hQ t ht) (c2 x) (c2 y)).trans (mul_le_mul_of_nonneg_left (c2_lip x y) hK0)
  have f_zero : ∀ t, f t 0 = 0 := fun t => by
    show ((c2 0).2, p t * (c2 0).2 + q t * (c2 0).1) = (0 : ℝ × ℝ)
    rw [c2_zero]; simp
  have f_norm : ∀ t ∈ Icc a b, ∀ x, ‖f t x‖ ≤ K * ‖x‖ := fun t ht x => by
    have := f_lip t ht x 0
    rwa [f_zero, dist_zero_right, dist_zero_right] at this
  have f_bdd : ∀ t ∈ Icc a b, ∀ x, ‖f t x‖ ≤ K * R := fun t ht x => by
    have := lipschitz (hP t ht) (hQ t ht) (c2 x) 0
    have h2 : ‖c2 x‖ ≤ R := by
      rw [Prod.norm_def]; exact max_le (cl_le _) (cl_le _)
    have e : (((0 : ℝ × ℝ).2, p t * (0 : ℝ × ℝ).2 + q t * (0 : ℝ × ℝ).1) : ℝ × ℝ) = 0 := by simp
    rw [e, dist_zero_right, dist_zero_right] at this
    exact this.trans (mul_le_mul_of_nonneg_left h2 hK0)
  have hKR : 0 ≤ K * R := mul_nonneg hK0 hR0
  have hpl : IsPicardLindelof f (tmin := a) (tmax := b) ⟨a, hI⟩ y₀ ⟨K * R * (b - a), mul_nonneg hKR (by linarith)⟩ 0
      ⟨K * R, hKR⟩ ⟨K, hK0⟩ :=
    { lipschitzOnWith := fun t ht => LipschitzOnWith.of_dist_le_mul fun x _ y _ => f_lip t ht x y
      continuousOn := fun x _ => by
        refine ContinuousOn.prodMk continuousOn_const ?_
        exact (hp.mul continuousOn_const).add (hq.mul continuousOn_const)
      norm_le := fun t ht x _ => f_bdd t ht x
      mul_max_le := by
        show K * R * max (b - a) (a - a) ≤ K * R * (b - a) - 0
        rw [sub_self, max_eq_left (by linarith), sub_zero] }
  obtain ⟨y, hy0, hy⟩ := hpl.exists_eq_forall_mem_Icc_hasDerivWithinAt₀
  have hyc : ContinuousOn y (Icc a b) := fun t ht => (hy t ht).continuousWithinAt
  have hgr := norm_le_gronwallBound_of_norm_deriv_right_le (f' := fun t => f t (y t)) (δ := ‖y₀‖) (K := K) (ε := 0) hyc
    (fun t ht => (hy t (Ico_subset_Icc_self ht)).mono_of_mem_nhdsWithin
      (Icc_mem_nhdsGE_of_mem ht)) (by rw [show y a = y₀ from hy0])
    (fun t ht => by rw [add_zero]; exact f_norm t (Ico_subset_Icc_self ht) (y t))
  refine ⟨y, hy0, fun t ht => ?_⟩
  have hb : ‖y t‖ ≤ R := by
    refine (hgr t ht).trans ?_
    rw [gronwallBound_ε0]
    refine mul_le_mul_of_nonneg_left (Real.exp_le_exp.2 ?_) (norm_nonneg _)
    exact mul_le_mul_of_nonneg_left (by linarith [ht.2]) hK0
  rw [Prod.norm_def] at hb
  have h := hy t ht
  have e : f t (y t) = ((y t).2, p t * (y t).2 + q t * (y t).1) := by
    show (cl (y t).2, p t * cl (y t).2 + q t * cl (y t).1) = _
    rw [cl_self _ ((le_max_left _ _).trans hb), cl_self _ ((le_max_right _ _).trans hb)]
  rwa [e] at h

/-- and only one -/
theorem unique_solution {a b : ℝ} {p q : ℝ → ℝ} (hp : ContinuousOn p (Icc a b)) (hq : ContinuousOn q (Icc a b))
    {y y' : ℝ → ℝ × ℝ}
    (hy : ∀ t ∈ Icc a b, HasDerivWithinAt y ((y t).2, p t * (y t).2 + q t * (y t).1) (Icc a b) t)
    (hy' : ∀ t ∈ Icc a b, HasDerivWithinAt y' ((y' t).2, p t * (y' t).2 + q t * (y' t).1) (Icc a b) t)
    (h0 : y a = y' a) : EqOn y y' (Icc a b) := by
  intro t ht
  obtain ⟨P, hP⟩ := isCompact_Icc.exists_bound_of_continuousOn hp
  obtain ⟨Q, hQ⟩ := isCompact_Icc.exists_bound_of_continuousOn hq
  simp only [Real.norm_eq_abs] at hP hQ
  have hI : a ∈ Icc a b := left_mem_Icc.2 (ht.1.trans ht.2)
  have hP0 := (abs_nonneg _).trans (hP a hI)
  have hQ0 := (abs_nonneg _).trans (hQ a hI)
  refine ODE_solution_unique_of_mem_Icc_right (K := ⟨1 + P + Q, by linarith⟩) (s := fun _ => univ)
    (v := fun t x => (x.2, p t * x.2 + q t * x.1))
    (fun t ht => LipschitzOnWith.of_dist_le_mul fun x _ z _ =>
      lipschitz (hP t (Ico_subset_Icc_self ht)) (hQ t (Ico_subset_Icc_self ht)) x z)
    (fun t ht => (hy t ht).continuousWithinAt)
    (fun t ht => (hy t (Ico_subset_Icc_self ht)).mono_of_mem_nhdsWithin (Icc_mem_nhdsGE_of_mem ht)) (fun _ _ => trivial)
    (fun t ht => (hy' t ht).continuousWithinAt)
    (fun t ht => (hy' t (Ico_subset_Icc_self ht)).mono_of_mem_nhdsWithin (Icc_mem_nhdsGE_of_mem ht)) (fun _ _ => trivial) h0 ht

end Verif.Lemmas.LinearOde

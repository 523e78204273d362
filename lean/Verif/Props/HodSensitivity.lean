import Verif.Props.HodBase
import Verif.Props.HodModels
import Verif.Lemmas.LikelihoodRatio

/-! Property C142: how number density, bias and host mass of a sample answer to the parameters that select it. -/

namespace Verif.Hod

open Verif.Lib Verif.Spec Base

/-! ### vocabulary -/

/-- the halos a sample is drawn from: fine positive mass grid, no negative counts, and a bias that does not fall with
mass -/
structure Halos (h : Base) (b j : ℕ) : Prop where
  grid : GentleGrid h.nm h.mass
  pos : ∀ m < h.nm, 0 < h.mass m
  counts : ∀ m < h.nm, 0 ≤ h.dndlnmInt b j m
  bias : ∀ m m', m ≤ m' → m' < h.nm → h.haloBiasInt b j m ≤ h.haloBiasInt b j m'

/-- `N'` prefers heavier halos than `N`: its share relative to `N` does not fall with mass -/
def Heavier (N N' : ℝ → ℝ) : Prop := ∀ M M', 0 < M → M ≤ M' → N' M * N M' ≤ N' M' * N M

/-- mean halo bias over the members of a population -/
noncomputable def popBias (h : Base) (N : ℕ → ℕ → ℕ → ℝ) (b j : ℕ) : ℝ :=
  h.massIntegral (fun b j m => N b j m * h.haloBiasInt b j m) b j / h.massIntegral N b j

/-- mean host halo mass over the members of a population -/
noncomputable def popMass (h : Base) (N : ℕ → ℕ → ℕ → ℝ) (b j : ℕ) : ℝ :=
  h.massIntegral (fun b j m => N b j m * h.mass m) b j / h.massIntegral N b j

/-- an occupation given as a function of halo mass, on the mass grid -/
def onGrid (h : Base) (N : ℝ → ℝ) : ℕ → ℕ → ℕ → ℝ := fun _ _ m => N (h.mass m)

/-- the same halos populated with other occupations -/
def populate (h : Base) (c s : ℝ → ℝ) : Base := { h with occCen := onGrid h c, occSat := onGrid h s }

/-! ### C142 -/

private theorem bias_num (h : Base) (N : ℕ → ℕ → ℕ → ℝ) (b j : ℕ) :
    simpson h.nm h.mass (fun m => N b j m * h.haloBiasInt b j m * h.dndlnmInt b j m / h.mass m)
      = h.massIntegral (fun b j m => N b j m * h.haloBiasInt b j m) b j := rfl

/-- C142: the bias the library publishes for a sample is the mean halo bias over its members; those published for
centrals and satellites are that of the members of the kind times their fraction, so that dividing by the fraction
recovers it -/
theorem C142_published_bias (h : Base) (b j : ℕ) (hn : h.ntot b j ≠ 0) :
    h.biasIntegral h.occ b j = popBias h h.occ b j ∧
      (h.ncen b j ≠ 0 → h.biasIntegral h.occCen b j / (h.ncen b j / h.ntot b j) = popBias h h.occCen b j) ∧
      (h.nsat b j ≠ 0 → h.biasIntegral h.occSat b j / (h.nsat b j / h.ntot b j) = popBias h h.occSat b j) := by
  refine ⟨rfl, fun hc => ?_, fun hs => ?_⟩
  · unfold biasIntegral popBias
    rw [bias_num]
    change _ = _ / h.ncen b j
    field_simp
  · unfold biasIntegral popBias
    rw [bias_num]
    change _ = _ / h.nsat b j
    field_simp

/-- C142: the published mean halo mass is the number density times the mean over the members, not the mean itself -/
theorem C142_published_mass (h : Base) (b j : ℕ) (hp : ∀ m < h.nm, 0 < h.mass m) (N : ℕ → ℕ → ℕ → ℝ)
    (hn : h.massIntegral N b j ≠ 0) : h.meanMassIntegral N b j = h.massIntegral N b j * popMass h N b j := by
  unfold popMass
  rw [mul_div_cancel₀ _ hn]
  unfold meanMassIntegral massIntegral
  refine simpson_congr_right fun m hm => ?_
  have := (hp m hm).ne'
  field_simp

/-- C142: of two populations of the same halos, the one that prefers heavier halos has the larger mean bias and the
larger mean host mass -/
theorem C142_order (h : Base) (b j : ℕ) (H : Halos h b j) (N N' : ℝ → ℝ) (hN : Heavier N N')
    (h0 : 0 < h.massIntegral (onGrid h N) b j) (h1 : 0 < h.massIntegral (onGrid h N') b j) :
    popBias h (onGrid h N) b j ≤ popBias h (onGrid h N') b j ∧
      popMass h (onGrid h N) b j ≤ popMass h (onGrid h N') b j := by
  have hmono : ∀ m m', m ≤ m' → m' < h.nm → h.mass m ≤ h.mass m' := fun m m' hm hm' =>
    (sortedOn_of_step fun i hi => sub_pos.1 (H.grid.step_pos i hi)).le hm hm'
  have hw : ∀ m < h.nm, 0 ≤ h.dndlnmInt b j m / h.mass m := fun m hm =>
    div_nonneg (H.counts m hm) (H.pos m hm).le
  have hl : ∀ m m', m ≤ m' → m' < h.nm → N' (h.mass m) * N (h.mass m') ≤ N' (h.mass m') * N (h.mass m) :=
    fun m m' hm hm' => hN _ _ (H.pos m (by omega)) (hmono m m' hm hm')
  have e : ∀ f : ℕ → ℕ → ℕ → ℝ, h.massIntegral f b j
      = simpson h.nm h.mass (fun m => f b j m * (h.dndlnmInt b j m / h.mass m)) := fun f => by
    unfold massIntegral
    congr 1; funext m; ring
  unfold popBias popMass
  constructor
  · rw [div_le_div_iff₀ h0 h1]
    simp only [e, onGrid]
    exact simpson_cross H.grid (fun m => N (h.mass m)) (fun m => N' (h.mass m)) (fun m => h.haloBiasInt b j m) _ hw hl H.bias
  · rw [div_le_div_iff₀ h0 h1]
    simp only [e, onGrid]
    exact simpson_cross H.grid (fun m => N (h.mass m)) (fun m => N' (h.mass m)) (fun m => h.mass m) _ hw hl hmono

/-- C142: fewer members at every mass, fewer in total, and a smaller published mean halo mass -/
theorem C142_fewer (h : Base) (b j : ℕ) (H : Halos h b j) (N N' : ℝ → ℝ) (hN : ∀ M > 0, N' M ≤ N M) :
    h.massIntegral (onGrid h N') b j ≤ h.massIntegral (onGrid h N) b j ∧
      h.meanMassIntegral (onGrid h N') b j ≤ h.meanMassIntegral (onGrid h N) b j := by
  constructor
  · refine simpson_mono H.grid fun m hm => ?_
    have := hN _ (H.pos m hm)
    exact div_le_div_of_nonneg_right (mul_le_mul_of_nonneg_right this (H.counts m hm)) (H.pos m hm).le
  · refine simpson_mono H.grid fun m hm => ?_
    exact mul_le_mul_of_nonneg_right (hN _ (H.pos m hm)) (H.counts m hm)

/-! #### thresholds -/

private theorem step_heavier {L L' : ℝ} (hL : L ≤ L') :
    Heavier (fun M => heaviside (M - (10 : ℝ) ^ L) 1) fun M => heaviside (M - (10 : ℝ) ^ L') 1 := by
  have hp : (10 : ℝ) ^ L ≤ (10 : ℝ) ^ L' := Real.rpow_le_rpow_of_exponent_le (by norm_num) hL
  intro M M' _ hM
  simp only
  rcases lt_or_ge (M - (10 : ℝ) ^ L') 0 with a | a
  · rw [heaviside_of_neg a, zero_mul]
    exact mul_nonneg (step_mem _).1 (step_mem _).1
  · rw [heaviside_one_of_nonneg a, heaviside_one_of_nonneg (show 0 ≤ M' - (10 : ℝ) ^ L by linarith),
      heaviside_one_of_nonneg (show 0 ≤ M' - (10 : ℝ) ^ L' by linarith),
      heaviside_one_of_nonneg (show 0 ≤ M - (10 : ℝ) ^ L by linarith)]

private theorem step_anti {L L' : ℝ} (hL : L ≤ L') (M : ℝ) :
    heaviside (M - (10 : ℝ) ^ L') 1 ≤ heaviside (M - (10 : ℝ) ^ L) 1 := by
  have hp : (10 : ℝ) ^ L ≤ (10 : ℝ) ^ L' := Real.rpow_le_rpow_of_exponent_le (by norm_num) hL
  rcases lt_or_ge (M - (10 : ℝ) ^ L) 0 with a | a
  · rw [heaviside_of_neg a, heaviside_of_neg (by linarith)]
  · rw [heaviside_one_of_nonneg a]; exact (step_mem _).2

private theorem log_div {M L : ℝ} (hM : 0 < M) : log10 (M / (10 : ℝ) ^ L) = log10 M - L := by
  unfold log10
  rw [Real.logb_div hM.ne' (by positivity), Real.logb_rpow (by norm_num) (by norm_num)]

/-- C142: raising the minimum mass of centrals, sharp or smooth at a fixed width, selects heavier halos and fewer
galaxies -/
theorem C142_centrals (L L' σ : ℝ) (hL : L ≤ L') (hσ : 0 ≤ σ) :
    Heavier (erfCen L σ) (erfCen L' σ) ∧ ∀ M > 0, erfCen L' σ M ≤ erfCen L σ M := by
  rcases eq_or_lt_of_le hσ with h0 | h0
  · have e : ∀ L, erfCen L σ = fun M => heaviside (M - (10 : ℝ) ^ L) 1 := fun L => by
      funext M; unfold erfCen; rw [if_pos h0.symm]
    rw [e, e]
    exact ⟨step_heavier hL, fun M _ => step_anti hL M⟩
  · have e : ∀ L M, 0 < M → erfCen L σ M = 0.5 * (1 + erf ((log10 M - L) / σ)) := fun L M hM => by
      unfold erfCen; rw [if_neg h0.ne', log_div hM]
    refine ⟨fun M M' hM hMM => ?_, fun M hM => ?_⟩
    · have hM' : 0 < M' := by linarith
      rw [e _ _ hM, e _ _ hM', e _ _ hM, e _ _ hM']
      have hlog : log10 M ≤ log10 M' := Real.logb_le_logb_of_le (by norm_num) hM hMM
      have key := erf_shift_ratio (x := (log10 M - L) / σ) (y := (log10 M' - L) / σ) (δ := (L' - L) / σ)
        (div_le_div_of_nonneg_right (by linarith) hσ) (div_nonneg (by linarith) hσ)
      have s1 : (log10 M - L) / σ - (L' - L) / σ = (log10 M - L') / σ := by rw [← sub_div]; ring_nf
      have s2 : (log10 M' - L) / σ - (L' - L) / σ = (log10 M' - L') / σ := by rw [← sub_div]; ring_nf
      rw [s1, s2] at key
      linarith
    · rw [e _ _ hM, e _ _ hM]
      have := erf_strictMono.monotone (div_le_div_of_nonneg_right (show log10 M - L' ≤ log10 M - L by linarith) hσ)
      linarith

/-! #### satellites -/

private theorem rpow_heavier {x y a a' : ℝ} (hx : 0 ≤ x) (hxy : x ≤ y) (ha : 0 ≤ a) (haa : a ≤ a') :
    x ^ a' * y ^ a ≤ y ^ a' * x ^ a := by
  rcases eq_or_lt_of_le hx with h | h
  · subst h
    rcases eq_or_lt_of_le (ha.trans haa) with h' | h'
    · have : a = 0 := by linarith
      rw [this, ← h']; simp
    · rw [Real.zero_rpow h'.ne', zero_mul]
      positivity
  · have hy : 0 < y := by linarith
    have e : ∀ z : ℝ, 0 < z → z ^ a' = z ^ (a' - a) * z ^ a := fun z hz => by
      rw [← Real.rpow_add hz]; ring_nf
    rw [e x h, e y hy]
    have := Real.rpow_le_rpow hx hxy (sub_nonneg.2 haa)
    have p : 0 ≤ x ^ a * y ^ a := by positivity
    nlinarith

private theorem heavier_dec {N N' : ℝ → ℝ} (A : Option ℝ) (h : Heavier N N') :
    Heavier (fun M => decorateSat A (N M)) fun M => decorateSat A (N' M) := by
  intro M M' hM hMM
  have := h M M' hM hMM
  cases A with
  | none => exact this
  | some a =>
    simp only [decorateSat]
    nlinarith [mul_le_mul_of_nonneg_left this (sq_nonneg (1 + a))]

private theorem cut_base {L M : ℝ} :
    heaviside (M - (10 : ℝ) ^ L) 1 * (M - (10 : ℝ) ^ L) = max 0 (M - (10 : ℝ) ^ L) := by
  rcases lt_or_ge (M - (10 : ℝ) ^ L) 0 with a | a
  · rw [heaviside_of_neg a, zero_mul, max_eq_left a.le]
  · rw [heaviside_one_of_nonneg a, one_mul, max_eq_right a]

/-- C142: a steeper satellite occupation selects heavier halos, in all four models -/
theorem C142_satellite_slope (p : StepParams) (q : ZhengParams) (r : ZhaiParams) (a : ℝ) :
    (p.alpha ≤ a → Heavier (zehaviSat p) (zehaviSat { p with alpha := a }) ∧
      Heavier (simpleSat p) (simpleSat { p with alpha := a })) ∧
    (0 ≤ q.alpha → q.alpha ≤ a → Heavier (zhengSat q) (zhengSat { q with alpha := a })) ∧
    (r.alpha ≤ a → Heavier (zhaiSat r) (zhaiSat { r with alpha := a })) := by
  have pw : ∀ {c : ℝ} {α : ℝ}, 0 < c → α ≤ a → ∀ M M', 0 < M → M ≤ M' →
      (M / c) ^ a * (M' / c) ^ α ≤ (M' / c) ^ a * (M / c) ^ α := by
    intro c α hc hα M M' hM hMM
    have h1 : 0 < M / c := by positivity
    have h2 : 0 < M' / c := div_pos (by linarith) hc
    have e : ∀ z : ℝ, 0 < z → z ^ a = z ^ (a - α) * z ^ α := fun z hz => by
      rw [← Real.rpow_add hz]; ring_nf
    rw [e _ h1, e _ h2]
    have := Real.rpow_le_rpow h1.le (div_le_div_of_nonneg_right hMM hc.le) (sub_nonneg.2 hα)
    have p : 0 ≤ (M / c) ^ α * (M' / c) ^ α := by positivity
    nlinarith
  refine ⟨fun hp => ⟨heavier_dec p.aSat ?_, heavier_dec p.aSat ?_⟩, fun h0 hq => heavier_dec q.aSat ?_,
    fun hr => heavier_dec r.aSat ?_⟩
  · exact pw (by positivity) hp
  · intro M M' hM hMM
    have k := pw (c := (10 : ℝ) ^ p.log10Msat) (by positivity) hp M M' hM hMM
    have e : ∀ M, simpleCen { p with alpha := a } M = simpleCen p M := fun _ => rfl
    have n : 0 ≤ simpleCen p M * simpleCen p M' := by
      unfold simpleCen decorateCen
      rcases heaviside_cases (M - (10 : ℝ) ^ p.log10Mmin) with u | u <;>
        rcases heaviside_cases (M' - (10 : ℝ) ^ p.log10Mmin) with v | v <;> rw [u, v] <;> cases p.aCen <;> simp
    simp only [e]
    nlinarith [mul_le_mul_of_nonneg_left k n]
  · intro M M' hM hMM
    simp only [cut_base]
    have e : ({ q with alpha := a } : ZhengParams).log10M0 = q.log10M0 := rfl
    refine rpow_heavier (div_nonneg (le_max_left _ _) (by positivity)) ?_ h0 hq
    exact div_le_div_of_nonneg_right (max_le_max le_rfl (by linarith)) (by positivity)
  · intro M M' hM hMM
    have k := pw (c := (10 : ℝ) ^ r.log10Msat) (by positivity) hr M M' hM hMM
    have n : 0 ≤ Real.exp (-(10 : ℝ) ^ r.log10Mcut / M) * Real.exp (-(10 : ℝ) ^ r.log10Mcut / M') := by positivity
    simp only
    nlinarith [mul_le_mul_of_nonneg_left k n]

/-- C142: raising the mass below which satellites are cut selects heavier halos and fewer satellites -/
theorem C142_satellite_cut (q : ZhengParams) (r : ZhaiParams) (L : ℝ) :
    (0 ≤ q.alpha → q.log10M0 ≤ L → Heavier (zhengSat q) (zhengSat { q with log10M0 := L }) ∧
      ((∀ a ∈ q.aSat, -1 ≤ a) → ∀ M > 0, zhengSat { q with log10M0 := L } M ≤ zhengSat q M)) ∧
    (r.log10Mcut ≤ L → Heavier (zhaiSat r) (zhaiSat { r with log10Mcut := L }) ∧
      ((∀ a ∈ r.aSat, -1 ≤ a) → ∀ M > 0, zhaiSat { r with log10Mcut := L } M ≤ zhaiSat r M)) := by
  have dm : ∀ {A : Option ℝ} {x y : ℝ}, (∀ a ∈ A, -1 ≤ a) → x ≤ y → decorateSat A x ≤ decorateSat A y := by
    intro A x y hA hxy
    cases A with
    | none => exact hxy
    | some a =>
      have := hA a rfl
      simp only [decorateSat]
      nlinarith
  refine ⟨fun h0 hL => ⟨heavier_dec q.aSat ?_, fun hA M hM => dm hA ?_⟩,
    fun hL => ⟨heavier_dec r.aSat ?_, fun hA M hM => dm hA ?_⟩⟩
  · intro M M' hM hMM
    simp only [cut_base]
    set c := (10 : ℝ) ^ q.log10M0
    set c' := (10 : ℝ) ^ L
    have hc : c ≤ c' := Real.rpow_le_rpow_of_exponent_le (by norm_num) hL
    have hd : (0 : ℝ) < (10 : ℝ) ^ q.log10M1 := by positivity
    have z : ∀ t : ℝ, 0 ≤ max 0 t / (10 : ℝ) ^ q.log10M1 := fun t => div_nonneg (le_max_left _ _) hd.le
    rw [← Real.mul_rpow (z _) (z _), ← Real.mul_rpow (z _) (z _)]
    refine Real.rpow_le_rpow (mul_nonneg (z _) (z _)) ?_ h0
    rw [div_mul_div_comm, div_mul_div_comm]
    refine div_le_div_of_nonneg_right ?_ (by positivity)
    rcases le_total (M - c') 0 with a | a
    · rw [max_eq_left a, zero_mul]
      exact mul_nonneg (le_max_left _ _) (le_max_left _ _)
    · rw [max_eq_right a, max_eq_right (show 0 ≤ M' - c by linarith), max_eq_right (show 0 ≤ M' - c' by linarith),
        max_eq_right (show 0 ≤ M - c by linarith)]
      nlinarith
  · simp only [cut_base]
    have hc : (10 : ℝ) ^ q.log10M0 ≤ (10 : ℝ) ^ L := Real.rpow_le_rpow_of_exponent_le (by norm_num) hL
    refine Real.rpow_le_rpow (div_nonneg (le_max_left _ _) (by positivity)) ?_ h0
    exact div_le_div_of_nonneg_right (max_le_max le_rfl (by linarith)) (by positivity)
  · intro M M' hM hMM
    have hM' : 0 < M' := by linarith
    simp only
    set c := (10 : ℝ) ^ r.log10Mcut
    set c' := (10 : ℝ) ^ L
    have hc : c ≤ c' := Real.rpow_le_rpow_of_exponent_le (by norm_num) hL
    have k : Real.exp (-c' / M) * Real.exp (-c / M') ≤ Real.exp (-c' / M') * Real.exp (-c / M) := by
      rw [← Real.exp_add, ← Real.exp_add, Real.exp_le_exp]
      have : (c' - c) / M' ≤ (c' - c) / M := div_le_div_of_nonneg_left (by linarith) hM hMM
      rw [sub_div, sub_div] at this
      rw [neg_div, neg_div, neg_div, neg_div]
      linarith
    have n : 0 ≤ (M / (10 : ℝ) ^ r.log10Msat) ^ r.alpha * (M' / (10 : ℝ) ^ r.log10Msat) ^ r.alpha := by
      have : 0 < M / (10 : ℝ) ^ r.log10Msat := by positivity
      positivity
    nlinarith [mul_le_mul_of_nonneg_left k n]
  · have hc : (10 : ℝ) ^ r.log10Mcut ≤ (10 : ℝ) ^ L := Real.rpow_le_rpow_of_exponent_le (by norm_num) hL
    refine mul_le_mul_of_nonneg_left ?_ (by positivity)
    rw [Real.exp_le_exp]
    exact div_le_div_of_nonneg_right (by simp only; linarith) hM.le

/-- C142: the normalisation mass of satellites rescales their number and changes neither their bias nor their hosts -/
theorem C142_satellite_normalisation (p : StepParams) (q : ZhengParams) (r : ZhaiParams) (L : ℝ) :
    (∀ M > 0, zehaviSat { p with log10Msat := L } M = (10 : ℝ) ^ ((p.log10Msat - L) * p.alpha) * zehaviSat p M ∧
      simpleSat { p with log10Msat := L } M = (10 : ℝ) ^ ((p.log10Msat - L) * p.alpha) * simpleSat p M ∧
      zhengSat { q with log10M1 := L } M = (10 : ℝ) ^ ((q.log10M1 - L) * q.alpha) * zhengSat q M ∧
      zhaiSat { r with log10Msat := L } M = (10 : ℝ) ^ ((r.log10Msat - L) * r.alpha) * zhaiSat r M) := by
  have pw : ∀ (x K α : ℝ), 0 ≤ x →
      (x / (10 : ℝ) ^ L) ^ α = (10 : ℝ) ^ ((K - L) * α) * (x / (10 : ℝ) ^ K) ^ α := by
    intro x K α hx
    rw [Real.rpow_mul (by norm_num), ← Real.mul_rpow (by positivity) (by positivity), Real.rpow_sub (by norm_num)]
    congr 1
    have : (0 : ℝ) < (10 : ℝ) ^ K := by positivity
    field_simp
  have dm : ∀ (A : Option ℝ) (k x : ℝ), decorateSat A (k * x) = k * decorateSat A x := by
    intro A k x; cases A <;> simp only [decorateSat]; ring
  intro M hM
  refine ⟨?_, ?_, ?_, ?_⟩
  · unfold zehaviSat
    rw [← dm]
    simp only [pw M p.log10Msat p.alpha hM.le]
  · unfold simpleSat
    rw [← dm]
    have e : simpleCen { p with log10Msat := L } M = simpleCen p M := rfl
    simp only [e, pw M p.log10Msat p.alpha hM.le]
    ring_nf
  · unfold zhengSat
    rw [← dm]
    have := @cut_base q.log10M0 M
    simp only [this, pw (max 0 (M - (10 : ℝ) ^ q.log10M0)) q.log10M1 q.alpha (le_max_left _ _)]
  · unfold zhaiSat
    rw [← dm]
    simp only [pw M r.log10Msat r.alpha hM.le]
    ring_nf

/-- C142: rescaling the number of members changes neither mean bias nor mean host mass -/
theorem C142_rescaled (h : Base) (b j : ℕ) (hp : ∀ m < h.nm, 0 < h.mass m) (N N' : ℝ → ℝ) (k : ℝ) (hk : k ≠ 0)
    (hN : ∀ M > 0, N' M = k * N M) :
    h.massIntegral (onGrid h N') b j = k * h.massIntegral (onGrid h N) b j ∧
      popBias h (onGrid h N') b j = popBias h (onGrid h N) b j ∧
      popMass h (onGrid h N') b j = popMass h (onGrid h N) b j := by
  have e : ∀ f : ℕ → ℝ, h.massIntegral (fun b j m => onGrid h N' b j m * f m) b j
      = k * h.massIntegral (fun b j m => onGrid h N b j m * f m) b j := by
    intro f
    unfold massIntegral
    rw [← simpson_smul]
    refine simpson_congr_right fun m hm => ?_
    simp only [onGrid, hN _ (hp m hm)]
    ring
  have e1 : h.massIntegral (onGrid h N') b j = k * h.massIntegral (onGrid h N) b j := by
    have := e fun _ => 1
    simpa only [mul_one] using this
  refine ⟨e1, ?_, ?_⟩
  · unfold popBias
    have := e fun m => h.haloBiasInt b j m
    have t : ∀ N, h.massIntegral (fun b j m => onGrid h N b j m * h.haloBiasInt b j m) b j
        = h.massIntegral (fun b' j' m => onGrid h N b' j' m * h.haloBiasInt b j m) b j := fun _ => rfl
    rw [t, this, e1, mul_div_mul_left _ _ hk]
    rfl
  · unfold popMass
    rw [e, e1, mul_div_mul_left _ _ hk]

/-! #### whole samples -/

private theorem simpleCen_eq (p : StepParams) (M : ℝ) : simpleCen p M = heaviside (M - (10 : ℝ) ^ p.log10Mmin) 1 := by
  unfold simpleCen decorateCen
  rcases heaviside_cases (M - (10 : ℝ) ^ p.log10Mmin) with u | u <;> rw [u] <;> cases p.aCen <;> simp

private theorem interp_mono {n : ℕ} (hn : 2 ≤ n) {x : ℕ → ℝ} (hx : SortedOn n x) {q : ℝ} (h0 : x 0 ≤ q)
    (h1 : q ≤ x (n - 1)) (fill : Fill) {y y' : ℕ → ℝ} (hy : ∀ j < n, y j ≤ y' j) :
    interp1d fill n x y q ≤ interp1d fill n x y' q := by
  rw [interp1d_inside h0 h1, interp1d_inside h0 h1]
  obtain ⟨j, t, hj1, hj2, ht0, ht1, -, hv⟩ := interpLinear_convex hn hx h0 h1
  rw [hv, hv]
  have a := hy (j - 1) (by omega)
  have b := hy j hj2
  nlinarith

/-- C142: raising the minimum mass of a threshold sample whose satellites need a central makes the whole sample more
biased and rarer at every redshift of the sample, while the mean halo mass the library publishes falls -/
theorem C142_threshold_sample (h : Base) (p : StepParams) (L : ℝ) (hL : p.log10Mmin ≤ L)
    (hA : ∀ a ∈ p.aSat, -1 ≤ a) (b i : ℕ) (hnz : 2 ≤ h.nz) (hz : SortedOn h.nz (h.z b))
    (h0 : h.z b 0 ≤ h.zVec i) (h1 : h.zVec i ≤ h.z b (h.nz - 1)) (H : ∀ j < h.nz, Halos h b j)
    (hn : ∀ j < h.nz, 0 < (populate h (simpleCen { p with log10Mmin := L }) (simpleSat { p with log10Mmin := L })).ntot b j) :
    (populate h (simpleCen p) (simpleSat p)).galaxyLinearBias b i
        ≤ (populate h (simpleCen { p with log10Mmin := L }) (simpleSat { p with log10Mmin := L })).galaxyLinearBias b i ∧
      (populate h (simpleCen { p with log10Mmin := L }) (simpleSat { p with log10Mmin := L })).numberDensity b i
        ≤ (populate h (simpleCen p) (simpleSat p)).numberDensity b i ∧
      (populate h (simpleCen { p with log10Mmin := L }) (simpleSat { p with log10Mmin := L })).avgHaloMass b i
        ≤ (populate h (simpleCen p) (simpleSat p)).avgHaloMass b i := by
  set p' : StepParams := { p with log10Mmin := L } with hp'
  set S : ℝ → ℝ := fun M => 1 + decorateSat p.aSat ((M / (10 : ℝ) ^ p.log10Msat) ^ p.alpha) with hS
  have dm : ∀ (A : Option ℝ) (k x : ℝ), decorateSat A (k * x) = k * decorateSat A x := by
    intro A k x; cases A <;> simp only [decorateSat]; ring
  have hSpos : ∀ M > 0, 0 ≤ S M := fun M hM => by
    have : 0 ≤ decorateSat p.aSat ((M / (10 : ℝ) ^ p.log10Msat) ^ p.alpha) :=
      decorateSat_nonneg hA (by positivity)
    simp only [hS]; linarith
  have tot : ∀ M, simpleCen p M + simpleSat p M = heaviside (M - (10 : ℝ) ^ p.log10Mmin) 1 * S M := fun M => by
    unfold simpleSat
    rw [dm, simpleCen_eq]; ring
  have tot' : ∀ M, simpleCen p' M + simpleSat p' M = heaviside (M - (10 : ℝ) ^ L) 1 * S M := fun M => by
    unfold simpleSat
    rw [dm, simpleCen_eq]; ring
  have hv : Heavier (fun M => simpleCen p M + simpleSat p M) fun M => simpleCen p' M + simpleSat p' M := by
    intro M M' hM hMM
    have k := step_heavier hL M M' hM hMM
    have n := mul_nonneg (hSpos M hM) (hSpos M' (by linarith))
    simp only [tot, tot'] at k ⊢
    nlinarith [mul_le_mul_of_nonneg_left k n]
  have hf : ∀ M > 0, simpleCen p' M + simpleSat p' M ≤ simpleCen p M + simpleSat p M := fun M hM => by
    rw [tot, tot']
    exact mul_le_mul_of_nonneg_right (step_anti hL M) (hSpos M hM)
  have fewer := fun j hj => C142_fewer h b j (H j hj) _ _ hf
  have hn0 : ∀ j < h.nz, 0 < h.massIntegral (onGrid h fun M => simpleCen p M + simpleSat p M) b j := fun j hj =>
    lt_of_lt_of_le (hn j hj) (fewer j hj).1
  refine ⟨?_, ?_, ?_⟩
  · exact interp_mono hnz hz h0 h1 .extrapolate fun j hj => (C142_order h b j (H j hj) _ _ hv (hn0 j hj) (hn j hj)).1
  · exact interp_mono hnz hz h0 h1 .extrapolate fun j hj => (fewer j hj).1
  · exact interp_mono hnz hz h0 h1 (.value 0) fun j hj => (fewer j hj).2

/-! #### bins of the observable -/

private theorem simpson_prod {n n' : ℕ} {x x' : ℕ → ℝ} (f f' : ℕ → ℝ) :
    simpson n' x' f' * simpson n x f = simpson n' x' fun o' => simpson n x fun o => f' o' * f o := by
  simp only [simpson_smul]
  rw [mul_comm, ← simpson_smul]
  congr 1; funext o'; ring

private theorem bins_heavier {K : ℝ → ℝ → ℝ} {n n' : ℕ} {obs obs' : ℕ → ℝ} (g : GentleGrid n obs)
    (g' : GentleGrid n' obs') (h : ∀ o < n, ∀ o' < n', ∀ M M', 0 < M → M ≤ M' →
      K M (obs' o') * K M' (obs o) ≤ K M' (obs' o') * K M (obs o)) :
    Heavier (fun M => simpson n obs fun o => K M (obs o)) fun M => simpson n' obs' fun o => K M (obs' o) := by
  intro M M' hM hMM
  simp only
  rw [simpson_prod, simpson_prod]
  exact simpson_mono g' fun o' ho' => simpson_mono g fun o ho => h o ho o' ho' M M' hM hMM

/-- C142: with the conditional observable function, a bin that lies above another in the observable selects heavier
halos, for centrals and for satellites -/
theorem C142_brighter (p : CacciatoParams) (h1 : 0 < p.g1) (h2 : 0 < p.g2) (n n' : ℕ) (obs obs' : ℕ → ℝ)
    (g : GentleGrid n obs) (g' : GentleGrid n' obs') (hp : ∀ o < n, 0 < obs o)
    (hb : ∀ o < n, ∀ o' < n', obs o ≤ obs' o') :
    (p.aCen = none → Heavier (p.hodCen n obs) (p.hodCen n' obs')) ∧
      (0 < p.normS → 0 ≤ p.betaS → Heavier (p.hodSat n obs) (p.hodSat n' obs')) := by
  have mono : ∀ M M', 0 < M → M ≤ M' → p.meanObsC M ≤ p.meanObsC M' := fun M M' hM hMM =>
    (p.C41_strictMono h1 h2).monotoneOn hM (lt_of_lt_of_le hM hMM) hMM
  constructor
  · intro hA
    have : Heavier (fun M => simpson n obs fun o => p.cofCen M (obs o))
        fun M => simpson n' obs' fun o => p.cofCen M (obs' o) := by
      refine bins_heavier g g' fun o ho o' ho' M M' hM hMM => ?_
      have hO := hp o ho
      have hO' : 0 < obs' o' := lt_of_lt_of_le hO (hb o ho o' ho')
      have hc := p.meanObsC_pos hM
      have hc' := p.meanObsC_pos (lt_of_lt_of_le hM hMM)
      have l : ∀ x y : ℝ, 0 < x → 0 < y → log10 (x / y) = log10 x - log10 y := fun x y hx hy =>
        Real.logb_div hx.ne' hy.ne'
      have lo : log10 (obs o) ≤ log10 (obs' o') := Real.logb_le_logb_of_le (by norm_num) hO (hb o ho o' ho')
      have lc : log10 (p.meanObsC M) ≤ log10 (p.meanObsC M') :=
        Real.logb_le_logb_of_le (by norm_num) hc (mono M M' hM hMM)
      unfold CacciatoParams.cofCen
      rw [l _ _ hO' hc, l _ _ hO hc', l _ _ hO' hc', l _ _ hO hc]
      set C := Real.sqrt (2 * Real.pi) * Real.log 10 * p.sigmaLog10Oc
      set s := 2 * p.sigmaLog10Oc ^ 2
      have k : Real.exp (-(log10 (obs' o') - log10 (p.meanObsC M)) ^ 2 / s)
            * Real.exp (-(log10 (obs o) - log10 (p.meanObsC M')) ^ 2 / s)
          ≤ Real.exp (-(log10 (obs' o') - log10 (p.meanObsC M')) ^ 2 / s)
            * Real.exp (-(log10 (obs o) - log10 (p.meanObsC M)) ^ 2 / s) := by
        rw [← Real.exp_add, ← Real.exp_add, Real.exp_le_exp, ← add_div, ← add_div]
        refine div_le_div_of_nonneg_right ?_ (by positivity)
        nlinarith [mul_nonneg (sub_nonneg.2 lo) (sub_nonneg.2 lc)]
      have q : 0 ≤ 1 / (C * obs' o') * (1 / (C * obs o)) := by
        rw [div_mul_div_comm]
        have : C * obs' o' * (C * obs o) = C ^ 2 * (obs' o' * obs o) := by ring
        rw [this]
        positivity
      nlinarith [mul_le_mul_of_nonneg_left k q]
    intro M M' hM hMM
    have := this M M' hM hMM
    simpa only [CacciatoParams.hodCen, hA, decorateCen] using this
  · intro hn hβ
    refine heavier_dec p.aSat (bins_heavier g g' fun o ho o' ho' M M' hM hMM => ?_)
    have hO := hp o ho
    have hO' : 0 < obs' o' := lt_of_lt_of_le hO (hb o ho o' ho')
    have hc := p.meanObsC_pos hM
    have hc' := p.meanObsC_pos (lt_of_lt_of_le hM hMM)
    unfold CacciatoParams.cofSat
    set a := p.normS * p.meanObsC M with ha
    set a' := p.normS * p.meanObsC M' with ha'
    have pa : 0 < a := mul_pos hn hc
    have pa' : 0 < a' := mul_pos hn hc'
    have aa : a ≤ a' := mul_le_mul_of_nonneg_left (mono M M' hM hMM) hn.le
    have k : Real.exp (-(obs' o' / a) ^ p.betaS) * Real.exp (-(obs o / a') ^ p.betaS)
        ≤ Real.exp (-(obs' o' / a') ^ p.betaS) * Real.exp (-(obs o / a) ^ p.betaS) := by
      rw [← Real.exp_add, ← Real.exp_add, Real.exp_le_exp, Real.div_rpow hO'.le pa.le, Real.div_rpow hO.le pa'.le,
        Real.div_rpow hO'.le pa'.le, Real.div_rpow hO.le pa.le]
      have u : obs o ^ p.betaS ≤ obs' o' ^ p.betaS := Real.rpow_le_rpow hO.le (hb o ho o' ho') hβ
      have v : (a' ^ p.betaS)⁻¹ ≤ (a ^ p.betaS)⁻¹ :=
        inv_anti₀ (by positivity) (Real.rpow_le_rpow pa.le aa hβ)
      simp only [div_eq_mul_inv]
      nlinarith [mul_nonneg (sub_nonneg.2 u) (sub_nonneg.2 v)]
    have w : (obs' o' / a) ^ p.alphaS * (obs o / a') ^ p.alphaS
        = (obs' o' / a') ^ p.alphaS * (obs o / a) ^ p.alphaS := by
      rw [← Real.mul_rpow (by positivity) (by positivity), ← Real.mul_rpow (by positivity) (by positivity)]
      congr 1; ring
    have f : ∀ M, 0 < p.phiStarS M := fun M => by unfold CacciatoParams.phiStarS; positivity
    have q : 0 ≤ p.phiStarS M / a * (p.phiStarS M' / a') * ((obs' o' / a) ^ p.alphaS * (obs o / a') ^ p.alphaS) := by
      have := f M; have := f M'; positivity
    calc p.phiStarS M / a * (obs' o' / a) ^ p.alphaS * Real.exp (-(obs' o' / a) ^ p.betaS)
          * (p.phiStarS M' / a' * (obs o / a') ^ p.alphaS * Real.exp (-(obs o / a') ^ p.betaS))
        = p.phiStarS M / a * (p.phiStarS M' / a') * ((obs' o' / a) ^ p.alphaS * (obs o / a') ^ p.alphaS)
          * (Real.exp (-(obs' o' / a) ^ p.betaS) * Real.exp (-(obs o / a') ^ p.betaS)) := by ring
      _ ≤ p.phiStarS M / a * (p.phiStarS M' / a') * ((obs' o' / a) ^ p.alphaS * (obs o / a') ^ p.alphaS)
          * (Real.exp (-(obs' o' / a') ^ p.betaS) * Real.exp (-(obs o / a) ^ p.betaS)) :=
        mul_le_mul_of_nonneg_left k q
      _ = _ := by rw [w]; ring

/-! #### examples, and where the expectation fails -/

theorem demo_haloBiasInt (j m : ℕ) : demo.haloBiasInt 0 j m = (m : ℝ) + 1 + j / 2 := by
  have h := interpLinear_affine (n := demo.nzv) (by decide) demo_sorted.2 ((m : ℝ) + 1) 1 ((j : ℝ) / 2)
  unfold haloBiasInt interp1d
  rw [show (fun i => demo.haloBias i m) = fun i => ((m : ℝ) + 1) + 1 * demo.zVec i by
    funext i; simp only [demo]; ring]
  change interpLinear demo.nzv demo.zVec _ ((j : ℝ) / 2) = _
  rw [h]; ring

theorem demo_gentle : GentleGrid demo.nm demo.mass := by
  constructor <;> intro i hi <;> simp only [demo] <;> push_cast <;> linarith

theorem demo_halos (j : ℕ) : Halos demo 0 j := by
  refine ⟨demo_gentle, fun m _ => ?_, fun m _ => ?_, fun m m' hm _ => ?_⟩
  · simp only [demo]; positivity
  · rw [demo_dndlnmInt]; positivity
  · rw [demo_haloBiasInt, demo_haloBiasInt]
    have : (m : ℝ) ≤ m' := by exact_mod_cast hm
    linarith

private theorem populate_ntot (h : Base) (c s : ℝ → ℝ) (b j : ℕ) : (populate h c s).ntot b j
    = simpson h.nm h.mass fun m => (c (h.mass m) + s (h.mass m)) * h.dndlnmInt b j m / h.mass m := rfl

private theorem populate_bias (h : Base) (c s : ℝ → ℝ) (b j : ℕ) :
    (populate h c s).biasIntegral (populate h c s).occ b j
      = simpson h.nm h.mass (fun m => (c (h.mass m) + s (h.mass m)) * h.haloBiasInt b j m * h.dndlnmInt b j m / h.mass m)
        / (populate h c s).ntot b j := rfl

private theorem demo_steps (k : ℝ) : heaviside (demo.mass 0 - k) 1 = (if k ≤ 1 then 1 else 0) ∧
    heaviside (demo.mass 1 - k) 1 = (if k ≤ 2 then 1 else 0) ∧
    heaviside (demo.mass 2 - k) 1 = (if k ≤ 3 then 1 else 0) := by
  have e : ∀ m (x : ℝ), demo.mass m = x → heaviside (demo.mass m - k) 1 = if k ≤ x then 1 else 0 := by
    intro m x hx
    split_ifs with h
    · exact heaviside_one_of_nonneg (by linarith)
    · have h := not_le.1 h
      exact heaviside_of_neg (by linarith) _
  exact ⟨e 0 1 (by simp [demo]), e 1 2 (by simp [demo]; norm_num), e 2 3 (by simp [demo]; norm_num)⟩

/-- the assumptions of `C142_threshold_sample` are met, for a threshold raised from the first mass to the second -/
example : ∃ (p : StepParams) (L : ℝ), p.log10Mmin < L ∧ (∀ a ∈ p.aSat, -1 ≤ a) ∧ 2 ≤ demo.nz ∧
    SortedOn demo.nz (demo.z 0) ∧ demo.z 0 0 ≤ demo.zVec 0 ∧ demo.zVec 0 ≤ demo.z 0 (demo.nz - 1) ∧
    (∀ j < demo.nz, Halos demo 0 j) ∧
    ∀ j < demo.nz,
      0 < (populate demo (simpleCen { p with log10Mmin := L }) (simpleSat { p with log10Mmin := L })).ntot 0 j := by
  refine ⟨⟨0, 0, 1, none, some (1 / 2)⟩, Real.logb 10 2, Real.logb_pos (by norm_num) (by norm_num), ?_, by decide,
    demo_sorted.1, by simp [demo], by simp [demo], fun j _ => demo_halos j, fun j _ => ?_⟩
  · intro a ha; cases ha; norm_num
  · have e : (10 : ℝ) ^ Real.logb 10 2 = 2 := Real.rpow_logb (by norm_num) (by norm_num) (by norm_num)
    rw [populate_ntot, demo_simpson]
    obtain ⟨v0, v1, v2⟩ := demo_steps 2
    simp only [demo_dndlnmInt, simpleSat, simpleCen_eq, decorateSat, e, v0, v1, v2]
    simp only [demo]
    norm_num
    positivity

/-- halos whose bias is flat above the second mass -/
noncomputable def flatHalos : Base := { demo with haloBias := fun _ m => if m = 0 then 1 else 2 }

theorem flatHalos_bias (j m : ℕ) : flatHalos.haloBiasInt 0 j m = if m = 0 then 1 else 2 :=
  interpLinear_const (n := demo.nzv) (by decide) demo_sorted.2 _ _

theorem flatHalos_halos (j : ℕ) : Halos flatHalos 0 j := by
  refine ⟨demo_gentle, (demo_halos j).pos, (demo_halos j).counts, fun m m' hm _ => ?_⟩
  rw [flatHalos_bias, flatHalos_bias]
  split_ifs with h1 h2 h2
  · exact le_rfl
  · norm_num
  · omega
  · exact le_rfl

/-- C142: where satellites do not need a central, raising the minimum mass can lower the bias of the whole sample: the
satellites of the light halos stay in it -/
theorem C142_zehavi_can_fall : ∃ (p : StepParams) (L : ℝ), p.log10Mmin < L ∧ 0 < p.alpha ∧ p.aCen = none ∧ p.aSat = none ∧
    (∀ j, Halos flatHalos 0 j) ∧
    0 < (populate flatHalos (zehaviCen { p with log10Mmin := L }) (zehaviSat { p with log10Mmin := L })).ntot 0 0 ∧
    (populate flatHalos (zehaviCen { p with log10Mmin := L }) (zehaviSat { p with log10Mmin := L })).galaxyLinearBias 0 0
      < (populate flatHalos (zehaviCen p) (zehaviSat p)).galaxyLinearBias 0 0 := by
  have e : ∀ x : ℝ, 0 < x → (10 : ℝ) ^ Real.logb 10 x = x := fun x hx =>
    Real.rpow_logb (by norm_num) (by norm_num) hx
  have node : ∀ c s : ℝ → ℝ, (populate flatHalos c s).galaxyLinearBias 0 0
      = (populate flatHalos c s).biasIntegral (populate flatHalos c s).occ 0 0 := by
    intro c s
    have hz : (populate flatHalos c s).zVec 0 = demo.z 0 0 := by simp [populate, flatHalos, demo]
    unfold galaxyLinearBias interpolate
    rw [hz]
    exact interp1d_node (n := demo.nz) (by decide) demo_sorted.1 _ _ (by decide)
  have d : ∀ j m, flatHalos.dndlnmInt 0 j m = demo.dndlnmInt 0 j m := fun _ _ => rfl
  have si : ∀ y, simpson flatHalos.nm flatHalos.mass y = (y 0 + 4 * y 1 + y 2) / 3 := demo_simpson
  have ma : ∀ m, flatHalos.mass m = demo.mass m := fun _ => rfl
  obtain ⟨u0, u1, u2⟩ := demo_steps 2
  obtain ⟨v0, v1, v2⟩ := demo_steps 3
  refine ⟨⟨Real.logb 10 2, 0, 1, none, none⟩, Real.logb 10 3, Real.logb_lt_logb (by norm_num) (by norm_num) (by norm_num),
    by norm_num, rfl, rfl, flatHalos_halos, ?_, ?_⟩
  · rw [populate_ntot, si]
    simp only [ma, d, demo_dndlnmInt, zehaviSat, zehaviCen, decorateSat, decorateCen, e 3 (by norm_num), v0, v1, v2]
    simp only [demo]
    norm_num
  · rw [node, node, populate_bias, populate_bias, populate_ntot, populate_ntot]
    simp only [si, ma, d, demo_dndlnmInt, flatHalos_bias, zehaviSat, zehaviCen, decorateSat, decorateCen,
      e 3 (by norm_num), e 2 (by norm_num), v0, v1, v2, u0, u1, u2]
    simp only [demo]
    norm_num

/-- the default parameters of the conditional observable function and two adjacent bins meet `C142_brighter` -/
example : ∃ p : CacciatoParams, 0 < p.g1 ∧ 0 < p.g2 ∧ p.aCen = none ∧ 0 < p.normS ∧ 0 ≤ p.betaS ∧
    GentleGrid 3 (fun o => (o : ℝ) + 1) ∧ GentleGrid 3 (fun o => (o : ℝ) + 3) ∧ (∀ o : ℕ, o < 3 → (0 : ℝ) < (o : ℝ) + 1) ∧
    ∀ o < 3, ∀ o' < 3, ((o : ℕ) : ℝ) + 1 ≤ ((o' : ℕ) : ℝ) + 3 := by
  refine ⟨⟨9.95, 11.24, 3.18, 0.245, 0.157, 0.562, 12, -1.18, 2, -1.17, 1.53, -0.217, none, none⟩,
    by norm_num, by norm_num, rfl, by norm_num, by norm_num, ?_, ?_, fun o _ => ?_, fun o ho o' _ => ?_⟩
  · constructor <;> intro i hi <;> push_cast <;> linarith
  · constructor <;> intro i hi <;> push_cast <;> linarith
  · have : (0 : ℝ) ≤ o := Nat.cast_nonneg _
    linarith
  · have h1 : (o : ℝ) ≤ 2 := by exact_mod_cast Nat.le_of_lt_succ ho
    have h2 : (0 : ℝ) ≤ o' := Nat.cast_nonneg _
    linarith

end Verif.Hod

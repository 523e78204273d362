import Verif.Props.BnlCosmo
import Verif.Props.BnlEnvelope
import Verif.Spec.Grid

/-! Properties C55, C56, C80, C82: filling, symmetry, linear limit and lookup of the non-linear bias table. -/

namespace Verif.Bnl

open Verif.Lib Verif.Spec

/-! ## C55 -/

theorem scatter_spec (len : ℕ) (kk ii jj : ℕ → ℕ) (v : ℕ → ℝ)
    (hinj : ∀ s t, s < len → t < len → kk s = kk t → ii s = ii t → jj s = jj t → s = t) :
    (∀ t < len, scatter len kk ii jj v (kk t) (ii t) (jj t) = v t) ∧
    (∀ k i j, (∀ t < len, ¬ (k = kk t ∧ i = ii t ∧ j = jj t)) → scatter len kk ii jj v k i j = 0) := by
  induction len with
  | zero => exact ⟨fun t h => absurd h (by omega), fun _ _ _ _ => rfl⟩
  | succ len ih =>
    obtain ⟨a1, a2⟩ := ih fun s t hs ht => hinj s t (by omega) (by omega)
    have e : ∀ k i j, scatter (len + 1) kk ii jj v k i j =
        if k = kk len ∧ i = ii len ∧ j = jj len then v len else scatter len kk ii jj v k i j := by
      intro k i j
      simp only [scatter, List.range_succ, List.foldl_append, List.foldl_cons, List.foldl_nil]
    refine ⟨fun t ht => ?_, fun k i j h => ?_⟩
    · rw [e]
      by_cases h : t = len
      · subst h; simp
      · rw [if_neg fun hh => h (hinj t len ht (by omega) hh.1 hh.2.1 hh.2.2), a1 t (by omega)]
    · rw [e, if_neg (h len (by omega)), a2 k i j fun t ht => h t (by omega)]

/-- flat position of a cell -/
theorem flat_index (n m p k i j : ℕ) (hk : k < p) (hi : i < n) (hj : j < m) :
    (k * (n * m) + i * m + j) < p * (n * m) ∧ (k * (n * m) + i * m + j) / (n * m) = k ∧
    ((k * (n * m) + i * m + j) % (n * m)) / m = i ∧ (k * (n * m) + i * m + j) % m = j := by
  have h1 : i * m + j < n * m := by
    have : (i + 1) * m ≤ n * m := Nat.mul_le_mul_right m hi
    rw [Nat.add_mul] at this; omega
  have hnm : 0 < n * m := by omega
  have e1 : k * (n * m) + i * m + j = (i * m + j) + k * (n * m) := by ring
  have e2 : (k * (n * m) + i * m + j) % (n * m) = i * m + j := by
    rw [e1, Nat.add_mul_mod_self_right, Nat.mod_eq_of_lt h1]
  refine ⟨?_, ?_, ?_, ?_⟩
  · have : (k + 1) * (n * m) ≤ p * (n * m) := Nat.mul_le_mul_right _ hk
    rw [Nat.add_mul] at this; omega
  · rw [e1, Nat.add_mul_div_right _ _ hnm, Nat.div_eq_of_lt h1, Nat.zero_add]
  · rw [e2, Nat.add_comm, Nat.add_mul_div_right _ _ (by omega), Nat.div_eq_of_lt hj, Nat.zero_add]
  · rw [show k * (n * m) + i * m + j = j + (k * n + i) * m by ring, Nat.add_mul_mod_self_right, Nat.mod_eq_of_lt hj]

theorem flat_recover (n m t : ℕ) : t / (n * m) * (n * m) + (t % (n * m)) / m * m + t % m = t := by
  have h1 : t % (n * m) % m = t % m := Nat.mod_mod_of_dvd t (Dvd.intro_left n rfl)
  have h2 := Nat.div_add_mod' t (n * m)
  have h3 := Nat.div_add_mod' (t % (n * m)) m
  rw [h1] at h3
  omega

theorem flat_bounds (n m p t : ℕ) (ht : t < p * (n * m)) : t / (n * m) < p ∧ (t % (n * m)) / m < n ∧ t % m < m := by
  have hnm : 0 < n * m := by
    rcases Nat.eq_zero_or_pos (n * m) with h | h
    · rw [h] at ht; omega
    · exact h
  have hm : 0 < m := Nat.pos_of_mul_pos_left hnm
  refine ⟨Nat.div_lt_of_lt_mul (by rw [Nat.mul_comm]; exact ht), ?_, Nat.mod_lt _ hm⟩
  exact Nat.div_lt_of_lt_mul (by rw [Nat.mul_comm m n]; exact Nat.mod_lt _ hnm)

/-- C55: for every mass and wavenumber grid the fill succeeds, and each cell `(k, i, j)` holds the interpolation
function's value at exactly the masses `i` and `j` and the wavenumber `k`. -/
theorem C55_fill (f : ℝ → ℝ → ℝ → ℝ) (n p : ℕ) (mass kVec : ℕ → ℝ) : ∃ T, fillTable f n p mass kVec = .ok T ∧
    ∀ k i j, T k i j = if k < p ∧ i < n ∧ j < n then
      f (Real.logb 10 (mass i)) (Real.logb 10 (mass j)) (Real.logb 10 (kVec k)) else 0 := by
  have l1 : n * n * p = p * (n * n) := by ring
  have l2 : n * (n * p) = p * (n * n) := by ring
  refine ⟨scatter (p * (n * n)) (fun t => t / (n * n)) (fun t => t % (n * n) / n) (fun t => t % n)
    fun t => f (log10 (mass (t % (n * n) / n))) (log10 (mass (t % n))) (log10 (kVec (t / (n * n)))), ?_, ?_⟩
  · simp only [fillTable, npRepeat, npTile, npArange, l1, l2, ne_eq, not_true_eq_false, or_self, if_false]
  · intro k i j
    have inj : ∀ s t, s < p * (n * n) → t < p * (n * n) → s / (n * n) = t / (n * n) →
        s % (n * n) / n = t % (n * n) / n → s % n = t % n → s = t := by
      intro s t _ _ h1 h2 h3
      rw [← flat_recover n n s, ← flat_recover n n t, h1, h2, h3]
    obtain ⟨a1, a2⟩ := scatter_spec (p * (n * n)) (fun t => t / (n * n)) (fun t => t % (n * n) / n) (fun t => t % n)
      (fun t => f (log10 (mass (t % (n * n) / n))) (log10 (mass (t % n))) (log10 (kVec (t / (n * n))))) inj
    split_ifs with h
    · obtain ⟨b1, b2, b3, b4⟩ := flat_index n n p k i j h.1 h.2.1 h.2.2
      have := a1 _ b1
      simp only [b2, b3, b4] at this
      exact this
    · apply a2
      rintro t ht ⟨rfl, rfl, rfl⟩
      exact h (flat_bounds n n p t ht)

/-- C55: the flat positions of the assignment visit every cell exactly once (nothing is overwritten and nothing is
left at its initial zero). -/
theorem C55_once (n p k i j : ℕ) (hk : k < p) (hi : i < n) (hj : j < n) :
    ∃! t, t < p * (n * n) ∧ (npRepeat (npArange p) (n * n)).2 t = k ∧
      (npTile (npRepeat (npArange n) n) p).2 t = i ∧ (npTile (npArange n) (n * p)).2 t = j := by
  obtain ⟨b1, b2, b3, b4⟩ := flat_index n n p k i j hk hi hj
  refine ⟨k * (n * n) + i * n + j, ⟨b1, b2, b3, b4⟩, ?_⟩
  rintro t ⟨-, h2, h3, h4⟩
  have h2 : t / (n * n) = k := h2
  have h3 : t % (n * n) / n = i := h3
  have h4 : t % n = j := h4
  rw [← flat_recover n n t, h2, h3, h4]

example : ∃ T, fillTable (fun x y l => x + 10 * y + 100 * l) 3 2 (fun i => 10 ^ i) (fun k => 10 ^ k) = .ok T ∧
    T 1 2 0 = 102 := by
  obtain ⟨T, h1, h2⟩ := C55_fill (fun x y l => x + 10 * y + 100 * l) 3 2 (fun i => 10 ^ i) (fun k => 10 ^ k)
  refine ⟨T, h1, ?_⟩
  have e2 : Real.logb 10 (10 ^ 2) = 2 := by
    have := Real.logb_pow 10 10 2
    rw [Real.logb_self_eq_one (by norm_num)] at this
    simpa using this
  rw [h2]
  simp only [show (1 < 2 ∧ 2 < 3 ∧ 0 < 3) from by norm_num, pow_one, pow_zero, Real.logb_one, e2]
  rw [Real.logb_self_eq_one (by norm_num)]
  norm_num

/-! ## C56 -/

theorem foldlM_betaStep (n1 : ℕ) (cell : ℕ → ℕ → Except PyErr (ℕ → ℝ)) (ps : List (ℕ × ℕ))
    (hps : ∀ q ∈ ps, q.1 ≤ q.2) (T0 T : ℕ → ℕ → ℕ → ℝ) (h : ps.foldlM (betaStep n1 cell) T0 = .ok T) :
    (∀ a b, (a, b) ∈ ps → b < n1 ∧ cell a b = .ok (T a b) ∧ T b a = T a b) ∧
    (∀ a b, a ≤ b → (a, b) ∉ ps → T a b = T0 a b ∧ T b a = T0 b a) := by
  induction ps generalizing T0 with
  | nil =>
    simp only [List.foldlM_nil, pure, Except.pure, Except.ok.injEq] at h
    subst h
    exact ⟨fun _ _ h => by simp at h, fun _ _ _ _ => ⟨rfl, rfl⟩⟩
  | cons q ps ih =>
    rw [List.foldlM_cons] at h
    unfold betaStep at h
    by_cases hn : n1 ≤ q.2
    · simp [hn, bind, Except.bind] at h
    · simp only [hn, if_false] at h
      cases hc : cell q.1 q.2 with
      | error e => simp [hc, bind, Except.bind] at h
      | ok v =>
        simp only [hc, bind, Except.bind] at h
        obtain ⟨a1, a2⟩ := ih (fun r hr => hps r (by simp [hr])) (writeSym T0 q.1 q.2 v) h
        have hq := hps q (by simp)
        refine ⟨fun a b hab => ?_, fun a b hle hab => ?_⟩
        · by_cases hin : (a, b) ∈ ps
          · exact a1 a b hin
          · have he : (a, b) = q := by simpa [hin] using hab
            have ha : a = q.1 := by rw [← he]
            have hb : b = q.2 := by rw [← he]
            obtain ⟨c1, c2⟩ := a2 a b (by rw [ha, hb]; exact hq) hin
            have e1 : T a b = v := by rw [c1, ha, hb]; simp [writeSym]
            have e2 : T b a = v := by
              rw [c2, ha, hb]
              by_cases hqq : q.2 = q.1
              · simp [writeSym, hqq]
              · simp [writeSym, hqq]
            refine ⟨by omega, ?_, by rw [e1, e2]⟩
            rw [e1, ha, hb, hc]
        · have hnin : (a, b) ∉ ps := fun hh => hab (by simp [hh])
          have hne : ¬ (a = q.1 ∧ b = q.2) := fun hh => hab (by rw [hh.1, hh.2]; simp)
          obtain ⟨c1, c2⟩ := a2 a b hle hnin
          constructor
          · rw [c1]; unfold writeSym
            rw [if_neg hne, if_neg]
            rintro ⟨h1, h2, h3⟩; omega
          · rw [c2]; unfold writeSym
            rw [if_neg, if_neg]
            · rintro ⟨h1, h2, h3⟩; exact hne ⟨h3, h2⟩
            · rintro ⟨h2, h3⟩; exact hne ⟨by omega, by omega⟩

theorem mem_pairs (n1 n2 a b : ℕ) : (a, b) ∈ pairs n1 n2 ↔ a < n1 ∧ a ≤ b ∧ b < n2 := by
  unfold pairs
  simp only [List.mem_flatMap, List.mem_range, List.mem_map, List.mem_range'_1, Prod.mk.injEq]
  constructor
  · rintro ⟨i, hi, j, hj, rfl, rfl⟩; omega
  · rintro ⟨h1, h2, h3⟩; exact ⟨a, h1, b, by omega, rfl, rfl⟩

/-- C56: for every emulator (also one that treats the two masses differently), every spline and every number of
masses, the table is symmetric under exchange of the masses, and each cell with i ≤ j is the value computed for
exactly the masses `i` and `j`. -/
theorem C56_symmetric (em : Emu) (quad : Quad) (z : ℝ) (n nk : ℕ) (logM k : ℕ → ℝ) (kmax : ℝ) (T : ℕ → ℕ → ℕ → ℝ)
    (h : computeBnl em quad z n n nk logM logM k kmax = .ok T) :
    (∀ i j, T i j = T j i) ∧
    (∀ i j, i ≤ j → j < n → betaCell em quad z nk k kmax (linearBias em z (10 ^ logM i)) (linearBias em z (10 ^ logM j))
      (10 ^ logM i) (10 ^ logM j) = .ok (T i j)) ∧
    (∀ i j, n ≤ i ∨ n ≤ j → T i j = fun _ => 0) := by
  obtain ⟨a1, a2⟩ := foldlM_betaStep n _ (pairs n n)
    (fun q hq => ((mem_pairs n n q.1 q.2).1 hq).2.1) _ T h
  have sym : ∀ i j, i ≤ j → T i j = T j i := by
    intro i j hij
    by_cases hin : (i, j) ∈ pairs n n
    · exact (a1 i j hin).2.2.symm
    · obtain ⟨c1, c2⟩ := a2 i j hij hin
      rw [c1, c2]
  refine ⟨fun i j => ?_, fun i j hij hj => (a1 i j ((mem_pairs n n i j).2 ⟨by omega, hij, hj⟩)).2.1, fun i j hij => ?_⟩
  · rcases le_total i j with hh | hh
    · exact sym i j hh
    · exact (sym j i hh).symm
  · rcases le_total i j with hh | hh
    · exact (a2 i j hh fun hin => by have := (mem_pairs n n i j).1 hin; omega).1
    · exact (a2 j i hh fun hin => by have := (mem_pairs n n j i).1 hin; omega).2

/-- C56: with more second masses than first ones the computation fails (the bias list is that of the first
masses), so the two mass grids must not differ that way. -/
theorem C56_unequal_grids (em : Emu) (quad : Quad) (z : ℝ) (n1 n2 nk : ℕ) (logM1 logM2 k : ℕ → ℝ) (kmax : ℝ)
    (h1 : 0 < n1) (hn : n1 < n2) (T : ℕ → ℕ → ℕ → ℝ) :
    computeBnl em quad z n1 n2 nk logM1 logM2 k kmax ≠ .ok T := by
  intro h
  obtain ⟨a1, -⟩ := foldlM_betaStep n1 _ (pairs n1 n2)
    (fun q hq => ((mem_pairs n1 n2 q.1 q.2).1 hq).2.1) _ T h
  have := (a1 0 n1 ((mem_pairs n1 n2 0 n1).2 ⟨h1, by omega, hn⟩)).1
  omega

/-! ## C80 -/

/-- C80: the non-linear bias vanishes at the linear scale 0.05 and its size never exceeds the change of the spline
between the linear scale and the wavenumber, for every emulator, spline and pair of masses. -/
theorem C80_linear_limit (em : Emu) (quad : Quad) (z : ℝ) (nk : ℕ) (k : ℕ → ℝ) (kmax b1 b2 M1 M2 : ℝ) (v : ℕ → ℝ)
    (h : betaCell em quad z nk k kmax b1 b2 M1 M2 = .ok v) :
    (∀ l, k l = 0.05 → v l = 0) ∧
    ∃ s : ℝ → ℝ, ∀ l, |v l| ≤ |s (k l) - s 0.05| := by
  unfold betaCell at h
  simp only [bind, Except.bind] at h
  split at h
  · simp at h
  split at h
  · simp at h
  rename_i s hs
  simp only [pure, Except.pure, Except.ok.injEq] at h
  subst h
  refine ⟨fun l hl => by simp [hl], s, fun l => ?_⟩
  obtain ⟨-, p1, p2, -, -, -, -⟩ := C57_complementary (k l) 0.05
  obtain ⟨-, -, -, q1, q2, -, -⟩ := C57_complementary (k l) (3 * kmax)
  dsimp only
  rw [abs_mul, abs_mul, abs_of_pos p1, abs_of_pos q1, show s (k l) - 1 - (s 0.05 - 1) = s (k l) - s 0.05 by ring]
  have h0 := abs_nonneg (s (k l) - s 0.05)
  calc |s (k l) - s 0.05| * lowK (k l) 0.05 * highK (k l) (3 * kmax)
      ≤ |s (k l) - s 0.05| * 1 * 1 := by
        apply mul_le_mul (mul_le_mul_of_nonneg_left p2.le h0) q2.le q1.le (by linarith)
    _ = _ := by ring

open Classical in
/-- C80 (disagreement found): the bias of a pair of masses can be computed exactly when the shot-noise corrected ratio
of halo and linear spectrum has at least three local maxima on the wavenumber grid; otherwise the computation
fails with ValueError, since the spline through the maxima needs three nodes. -/
theorem C80_needs_three_maxima (em : Emu) (quad : Quad) (z : ℝ) (nk : ℕ) (k : ℕ → ℝ) (kmax b1 b2 M1 M2 : ℝ) (R : ℕ → ℝ)
    (hR : R = fun l => |(em.phh (k l) M1 M2 z - shotNoise nk k fun l => em.phh (k l) M1 M2 z) /
      (b1 * b2 * em.pklin (k l) z) - 1 + 1|) :
    (3 ≤ ((Finset.range nk).filter fun i => 1 ≤ i ∧ i + 1 < nk ∧ R (i - 1) ≤ R i ∧ R (i + 1) ≤ R i ∧
      ¬ (R (i - 1) = R i ∧ R i = R (i + 1))).card → ∃ v, betaCell em quad z nk k kmax b1 b2 M1 M2 = .ok v) ∧
    (((Finset.range nk).filter fun i => 1 ≤ i ∧ i + 1 < nk ∧ R (i - 1) ≤ R i ∧ R (i + 1) ≤ R i ∧
      ¬ (R (i - 1) = R i ∧ R i = R (i + 1))).card < 3 →
      betaCell em quad z nk k kmax b1 b2 M1 M2 = .error .valueError) := by
  obtain ⟨lo, hi, a1, -, a2, -, a3⟩ := C58_extrema nk R
  have hlen : ((Finset.range nk).filter fun i => 1 ≤ i ∧ i + 1 < nk ∧ R (i - 1) ≤ R i ∧ R (i + 1) ≤ R i ∧
      ¬ (R (i - 1) = R i ∧ R i = R (i + 1))).card = hi.length := by
    rw [← List.toFinset_card_of_nodup (a2.imp fun h => ne_of_lt h)]
    congr 1
    ext i
    rw [List.mem_toFinset, a3, Finset.mem_filter, Finset.mem_range]
    constructor
    · exact fun h => h.2
    · exact fun h => ⟨by omega, h⟩
  rw [hlen]
  subst hR
  unfold betaCell
  simp only [bind, Except.bind, a1, quadratic, List.length_map]
  constructor
  · intro h
    rw [if_neg (by omega)]
    exact ⟨_, rfl⟩
  · intro h
    rw [if_pos h]

/-- C80 (disagreement found): in particular a smooth ratio, falling up to some wavenumber (where the shot noise takes
over) and rising afterwards, makes the computation fail. -/
theorem C80_smooth_fails (em : Emu) (quad : Quad) (z : ℝ) (nk : ℕ) (k : ℕ → ℝ) (kmax b1 b2 M1 M2 : ℝ) (R : ℕ → ℝ)
    (hR : R = fun l => |(em.phh (k l) M1 M2 z - shotNoise nk k fun l => em.phh (k l) M1 M2 z) /
      (b1 * b2 * em.pklin (k l) z) - 1 + 1|) (m : ℕ) (h1 : ∀ i < m, R (i + 1) < R i) (h2 : ∀ i, m ≤ i → R i < R (i + 1)) :
    betaCell em quad z nk k kmax b1 b2 M1 M2 = .error .valueError := by
  classical
  refine (C80_needs_three_maxima em quad z nk k kmax b1 b2 M1 M2 R hR).2 ?_
  rw [Finset.card_eq_zero.2]
  · norm_num
  · rw [Finset.filter_eq_empty_iff]
    rintro i - ⟨a, -, b, c, -⟩
    rcases le_or_gt m i with h | h
    · linarith [h2 i h]
    · have := h1 (i - 1) (by omega)
      rw [Nat.sub_add_cancel a] at this
      linarith

/-- C80: the shot noise is estimated from the wavenumbers between 100 and 200 and no others. -/
theorem C80_shot_noise_range (nk : ℕ) (k p q : ℕ → ℝ) (h : ∀ l < nk, 100 < k l → k l < 200 → p l = q l) :
    shotNoise nk k p = shotNoise nk k q := by
  classical
  unfold shotNoise
  have : ((List.range nk).filter fun l => 100 < k l ∧ k l < 200).map p =
      ((List.range nk).filter fun l => 100 < k l ∧ k l < 200).map q := by
    refine List.map_congr_left fun l hl => ?_
    rw [List.mem_filter, List.mem_range] at hl
    have := of_decide_eq_true hl.2
    exact h l hl.1 this.1 this.2
  simp only [this]

/-- C80: white noise `s` in the halo spectrum raises the estimate by `s`, if the grid reaches these wavenumbers. -/
theorem C80_shot_noise_shift (nk : ℕ) (k p : ℕ → ℝ) (s : ℝ) (h : ∃ l < nk, 100 < k l ∧ k l < 200) :
    shotNoise nk k (fun l => p l + s) = shotNoise nk k p + s := by
  classical
  unfold shotNoise
  set idx := (List.range nk).filter fun l => 100 < k l ∧ k l < 200 with hidx
  have hne : (idx.length : ℝ) ≠ 0 := by
    obtain ⟨l, hl, hk⟩ := h
    have : l ∈ idx := by
      rw [hidx, List.mem_filter, List.mem_range]
      exact ⟨hl, decide_eq_true hk⟩
    have := List.length_pos_of_mem this
    positivity
  have hsum : ∀ L : List ℕ, (L.map fun l => p l + s).sum = (L.map p).sum + L.length * s := by
    intro L
    induction L with
    | nil => simp
    | cons a L ih => simp only [List.map_cons, List.sum_cons, ih, List.length_cons]; push_cast; ring
  simp only [hsum]
  field_simp

/-- C80: the table entry of a pair of masses with given linear biases does not see white noise. -/
theorem C80_noise_removed (em : Emu) (quad : Quad) (z : ℝ) (nk : ℕ) (k : ℕ → ℝ) (kmax b1 b2 M1 M2 s : ℝ)
    (h : ∃ l < nk, 100 < k l ∧ k l < 200) :
    betaCell { em with phh := fun q m n z => em.phh q m n z + s } quad z nk k kmax b1 b2 M1 M2 =
      betaCell em quad z nk k kmax b1 b2 M1 M2 := by
  unfold betaCell
  have e : ∀ l, em.phh (k l) M1 M2 z + s - shotNoise nk k (fun l => em.phh (k l) M1 M2 z + s) =
      em.phh (k l) M1 M2 z - shotNoise nk k fun l => em.phh (k l) M1 M2 z := by
    intro l
    rw [C80_shot_noise_shift nk k _ s h]
    ring
  simp only [e]

/-- C80 (disagreement found): the linear biases themselves, by which the spectrum is divided, keep the noise: they are too
large with any positive noise. -/
theorem C80_noise_in_bias (em : Emu) (z M s : ℝ) (hs : 0 < s) (hl : 0 < em.pklin 0.05 z) (hp : 0 ≤ em.phh 0.05 M M z) :
    linearBias em z M < linearBias { em with phh := fun q m n z => em.phh q m n z + s } z M := by
  unfold linearBias
  refine Real.sqrt_lt_sqrt (by positivity) ?_
  exact (div_lt_div_iff_of_pos_right hl).mpr (by linarith)

/-- an emulator with three wiggles below k = 6 and no power at k = 150 -/
noncomputable def demoEmu : Emu := open Classical in
  ⟨fun q _ _ _ => if q = 1 ∨ q = 3 ∨ q = 5 then 2 else if q = 150 then 0 else 1, fun _ _ => 1⟩

/-- its wavenumber grid -/
noncomputable def demoK (l : ℕ) : ℝ := if l = 7 then 150 else l

example : ∃ l < 8, 100 < demoK l ∧ demoK l < 200 := ⟨7, by norm_num, by norm_num [demoK]⟩

/-- noise 3 doubles the linear bias of this emulator -/
example : linearBias demoEmu 0 1 = 1 ∧ linearBias { demoEmu with phh := fun q m n z => demoEmu.phh q m n z + 3 } 0 1 = 2 := by
  have h : ∀ x : ℝ, (0.05 : ℝ) = x → ¬ (x = 1 ∨ x = 3 ∨ x = 5) ∧ x ≠ 150 := by
    rintro x rfl; norm_num
  obtain ⟨h1, h2⟩ := h _ rfl
  constructor
  · simp [linearBias, demoEmu, h1, h2]
  · simp only [linearBias, demoEmu, h1, h2, if_false]
    rw [show (1 + 3 : ℝ) / 1 = 2 ^ 2 by norm_num, Real.sqrt_sq (by norm_num)]

theorem demo_shot (M1 M2 z : ℝ) : shotNoise 8 demoK (fun l => demoEmu.phh (demoK l) M1 M2 z) = 0 := by
  have : ∀ inst : (l : ℕ) → Decidable (100 < demoK l ∧ demoK l < 200),
      (List.range 8).filter (fun l => @decide (100 < demoK l ∧ demoK l < 200) (inst l)) = [7] := by
    intro inst
    rw [show List.range 8 = [0, 1, 2, 3, 4, 5, 6, 7] from rfl]
    norm_num [List.filter, demoK]
  unfold shotNoise
  simp only [this, List.map_cons, List.map_nil, List.sum_cons, List.sum_nil]
  norm_num [demoEmu, demoK]

/-- the computation succeeds for it: the hypotheses of C56 and C80 are met -/
theorem demo_cell (quad : Quad) (kmax M1 M2 : ℝ) : ∃ v, betaCell demoEmu quad 0 8 demoK kmax 1 1 M1 M2 = .ok v := by
  classical
  refine (C80_needs_three_maxima demoEmu quad 0 8 demoK kmax 1 1 M1 M2 _ rfl).1 ?_
  have hsub : ({1, 3, 5} : Finset ℕ) ⊆ ((Finset.range 8).filter fun i => 1 ≤ i ∧ i + 1 < 8 ∧
      (fun l => |(demoEmu.phh (demoK l) M1 M2 0 - shotNoise 8 demoK fun l => demoEmu.phh (demoK l) M1 M2 0) /
        (1 * 1 * demoEmu.pklin (demoK l) 0) - 1 + 1|) (i - 1) ≤
      (fun l => |(demoEmu.phh (demoK l) M1 M2 0 - shotNoise 8 demoK fun l => demoEmu.phh (demoK l) M1 M2 0) /
        (1 * 1 * demoEmu.pklin (demoK l) 0) - 1 + 1|) i ∧
      (fun l => |(demoEmu.phh (demoK l) M1 M2 0 - shotNoise 8 demoK fun l => demoEmu.phh (demoK l) M1 M2 0) /
        (1 * 1 * demoEmu.pklin (demoK l) 0) - 1 + 1|) (i + 1) ≤
      (fun l => |(demoEmu.phh (demoK l) M1 M2 0 - shotNoise 8 demoK fun l => demoEmu.phh (demoK l) M1 M2 0) /
        (1 * 1 * demoEmu.pklin (demoK l) 0) - 1 + 1|) i ∧ ¬ (
      (fun l => |(demoEmu.phh (demoK l) M1 M2 0 - shotNoise 8 demoK fun l => demoEmu.phh (demoK l) M1 M2 0) /
        (1 * 1 * demoEmu.pklin (demoK l) 0) - 1 + 1|) (i - 1) =
      (fun l => |(demoEmu.phh (demoK l) M1 M2 0 - shotNoise 8 demoK fun l => demoEmu.phh (demoK l) M1 M2 0) /
        (1 * 1 * demoEmu.pklin (demoK l) 0) - 1 + 1|) i ∧
      (fun l => |(demoEmu.phh (demoK l) M1 M2 0 - shotNoise 8 demoK fun l => demoEmu.phh (demoK l) M1 M2 0) /
        (1 * 1 * demoEmu.pklin (demoK l) 0) - 1 + 1|) i =
      (fun l => |(demoEmu.phh (demoK l) M1 M2 0 - shotNoise 8 demoK fun l => demoEmu.phh (demoK l) M1 M2 0) /
        (1 * 1 * demoEmu.pklin (demoK l) 0) - 1 + 1|) (i + 1))) := by
    simp only [demo_shot]
    intro i hi
    simp only [Finset.mem_insert, Finset.mem_singleton] at hi
    rw [Finset.mem_filter, Finset.mem_range]
    rcases hi with rfl | rfl | rfl <;> norm_num [demoEmu, demoK]
  exact (show 3 = ({1, 3, 5} : Finset ℕ).card from rfl) ▸ Finset.card_le_card hsub

theorem foldlM_ok (n1 : ℕ) (cell : ℕ → ℕ → Except PyErr (ℕ → ℝ)) (ps : List (ℕ × ℕ)) (T0 : ℕ → ℕ → ℕ → ℝ)
    (h : ∀ q ∈ ps, q.2 < n1 ∧ ∃ v, cell q.1 q.2 = .ok v) : ∃ T, ps.foldlM (betaStep n1 cell) T0 = .ok T := by
  induction ps generalizing T0 with
  | nil => exact ⟨T0, rfl⟩
  | cons q ps ih =>
    obtain ⟨h1, v, h2⟩ := h q (by simp)
    rw [List.foldlM_cons]
    simp only [betaStep, show ¬ n1 ≤ q.2 by omega, if_false, h2, bind, Except.bind]
    exact ih _ fun r hr => h r (by simp [hr])

example (quad : Quad) (n : ℕ) (logM : ℕ → ℝ) (kmax : ℝ) :
    ∃ T, computeBnl demoEmu quad 0 n n 8 logM logM demoK kmax = .ok T := by
  have hb : ∀ M, linearBias demoEmu 0 M = 1 := by intro M; norm_num [linearBias, demoEmu]
  unfold computeBnl
  refine foldlM_ok n _ _ _ fun q hq => ?_
  have := (mem_pairs n n q.1 q.2).1 hq
  refine ⟨this.2.2, ?_⟩
  simp only [hb]
  exact demo_cell quad kmax _ _

/-! ## C82 -/

theorem gridCell_spec (n : ℕ) (hn : 2 ≤ n) (g : ℕ → ℝ) (q : ℝ) :
    gridCell n g q + 1 < n ∧ (g 0 ≤ q → g (gridCell n g q) ≤ q) ∧ (q < g 0 → SortedOn n g → gridCell n g q = 0) ∧
    ∀ i, gridCell n g q < i → i + 1 < n → q < g i := by
  classical
  unfold gridCell
  have hle := Nat.findGreatest_le (P := fun i => g i ≤ q) (n - 2)
  refine ⟨by omega, fun h => Nat.findGreatest_spec (P := fun i => g i ≤ q) (Nat.zero_le _) h, fun h hs => ?_,
    fun i hi hi' => ?_⟩
  · rw [Nat.findGreatest_eq_zero_iff]
    intro i hi hin
    have := hs 0 i hi (by omega)
    linarith
  · have := Nat.findGreatest_is_greatest (P := fun i => g i ≤ q) hi (by omega)
    exact not_le.1 this

/-- C82: the node used by the lookup is always a node of the grid, and no node is closer to the query - also for
queries outside the grid, which get the end node. -/
theorem C82_nearest (n : ℕ) (hn : 2 ≤ n) (g : ℕ → ℝ) (hg : SortedOn n g) (q : ℝ) :
    nearestIdx n g q < n ∧ ∀ i < n, |q - g (nearestIdx n g q)| ≤ |q - g i| := by
  obtain ⟨h1, h2, h3, h4⟩ := gridCell_spec n hn g q
  set c := gridCell n g q with hc
  have hstep : g c < g (c + 1) := hg c (c + 1) (by omega) h1
  have hidx : nearestIdx n g q = if (q - g c) / (g (c + 1) - g c) ≤ 0.5 then c else c + 1 := rfl
  have hd : 0 < g (c + 1) - g c := by linarith
  have mono : ∀ i j, i ≤ j → j < n → g i ≤ g j := by
    intro i j hij hj
    rcases hij.lt_or_eq with h | h
    · exact (hg i j h hj).le
    · rw [h]
  rw [hidx]
  split_ifs with hh <;> rw [div_le_iff₀ hd] at hh
  · refine ⟨by omega, fun i hi => ?_⟩
    have hh' : q - g c ≤ g (c + 1) - q := by norm_num at hh; linarith
    rcases lt_or_ge q (g 0) with hq | hq
    · have hc0 := h3 hq hg
      rw [hc0, abs_of_neg (by linarith), abs_of_nonpos (by linarith [mono 0 i (by omega) hi])]
      linarith [mono 0 i (by omega) hi]
    · have hcq := h2 hq
      rw [abs_of_nonneg (by linarith)]
      rcases le_or_gt i c with hic | hic
      · rw [abs_of_nonneg (by linarith [mono i c hic (by omega)])]
        linarith [mono i c hic (by omega)]
      · have := mono (c + 1) i hic hi
        rw [abs_of_nonpos (by linarith)]
        linarith
  · refine ⟨h1, fun i hi => ?_⟩
    have hh' : g (c + 1) - q < q - g c := by norm_num at hh; linarith
    have hq0 : g 0 ≤ q := by
      by_contra hq
      have hc0 := h3 (not_le.1 hq) hg
      rw [hc0] at hh' hstep
      rw [hc0] at hd
      linarith [not_le.1 hq]
    rcases le_or_gt q (g (c + 1)) with hq | hq
    · rw [abs_of_nonpos (by linarith)]
      rcases le_or_gt i c with hic | hic
      · rw [abs_of_nonneg (by linarith [mono i c hic (by omega), h2 hq0])]
        linarith [mono i c hic (by omega)]
      · have := mono (c + 1) i hic hi
        rw [abs_of_nonpos (by linarith)]
        linarith
    · have hlast : c + 2 = n ∨ c + 2 < n := by omega
      have hlast : c + 2 = n := by
        rcases hlast with h | h
        · exact h
        · linarith [h4 (c + 1) (by omega) (by omega)]
      have := mono i (c + 1) (by omega) (by omega)
      rw [abs_of_nonneg (by linarith), abs_of_nonneg (by linarith)]
      linarith

/-- C82: at a node the lookup returns that node. -/
theorem C82_node (n : ℕ) (hn : 2 ≤ n) (g : ℕ → ℝ) (hg : SortedOn n g) (i : ℕ) (hi : i < n) :
    nearestIdx n g (g i) = i := by
  obtain ⟨h1, h2⟩ := C82_nearest n hn g hg (g i)
  have := h2 i hi
  rw [sub_self, abs_zero] at this
  have e := abs_nonpos_iff.1 this
  by_contra hne
  rcases lt_or_gt_of_ne hne with h | h
  · linarith [hg _ _ h hi]
  · linarith [hg _ _ h h1]

theorem mapM_ok {α β : Type} (f : α → Except PyErr β) (l : List α) (r : List β) (h : l.mapM f = .ok r) :
    r.length = l.length ∧ ∀ (i : ℕ) a, l[i]? = some a → ∃ b, r[i]? = some b ∧ f a = .ok b := by
  induction l generalizing r with
  | nil =>
    simp only [List.mapM_nil, pure, Except.pure, Except.ok.injEq] at h
    subst h
    exact ⟨rfl, fun i a h => by simp at h⟩
  | cons x l ih =>
    rw [List.mapM_cons] at h
    cases hx : f x with
    | error e => simp [hx, bind, Except.bind] at h
    | ok b =>
      cases hl : l.mapM f with
      | error e => simp [hx, hl, bind, Except.bind] at h
      | ok r' =>
        simp only [hx, hl, bind, Except.bind, pure, Except.pure, Except.ok.injEq] at h
        subst h
        obtain ⟨a1, a2⟩ := ih r' hl
        refine ⟨by simp [a1], fun i a hi => ?_⟩
        cases i with
        | zero =>
          simp only [List.getElem?_cons_zero, Option.some.injEq] at hi
          subst hi
          exact ⟨b, rfl, hx⟩
        | succ i => exact a2 i a (by simpa using hi)

theorem buildInterp_ok (em : Emu) (quad : Quad) (Om z : ℝ) (f : ℝ → ℝ → ℝ → ℝ) (h : buildInterp em quad Om z = .ok f) :
    ∃ T, computeBnl em quad z 5 5 1000 (massNodes Om) (massNodes Om) kNodes (minimumHaloMass Om).2 = .ok T ∧
      f = gridInterp Om T := by
  unfold buildInterp at h
  cases hT : computeBnl em quad z 5 5 1000 (massNodes Om) (massNodes Om) kNodes (minimumHaloMass Om).2 with
  | error e => simp [hT, bind, Except.bind] at h
  | ok T =>
    simp only [hT, bind, Except.bind, pure, Except.pure, Except.ok.injEq] at h
    exact ⟨T, rfl, h.symm⟩

/-- C82: the table handed to the power spectra, end to end.  With redshift dependence there is one plane per
redshift, computed at that redshift; without it there is a single plane computed at z = 0.01 whatever the
redshifts.  Each entry is an entry of the emulator table at the nodes nearest to its masses and wavenumber. -/
theorem C82_bnl (em : Emu) (quad : Quad) (Om : ℝ) (zDep : Bool) (zs : List ℝ) (n p : ℕ) (mass kVec : ℕ → ℝ)
    (B : List (ℕ → ℕ → ℕ → ℝ)) (h : bnl em quad Om zDep zs n p mass kVec = .ok B) :
    B.length = (if zDep then zs.length else 1) ∧
    ∀ (r : ℕ) P, B[r]? = some P → ∃ z T, (if zDep then zs[r]? = some z else z = 0.01) ∧
      computeBnl em quad z 5 5 1000 (massNodes Om) (massNodes Om) kNodes (minimumHaloMass Om).2 = .ok T ∧
      ∀ k i j, k < p → i < n → j < n → P k i j =
        T (nearestIdx 5 (massNodes Om) (Real.logb 10 (mass i))) (nearestIdx 5 (massNodes Om) (Real.logb 10 (mass j)))
          (nearestIdx 1000 (fun l => Real.logb 10 (kNodes l)) (Real.logb 10 (kVec k))) := by
  have fin : ∀ (T : ℕ → ℕ → ℕ → ℝ) P, fillTable (gridInterp Om T) n p mass kVec = .ok P →
      ∀ k i j, k < p → i < n → j < n → P k i j =
        T (nearestIdx 5 (massNodes Om) (Real.logb 10 (mass i))) (nearestIdx 5 (massNodes Om) (Real.logb 10 (mass j)))
          (nearestIdx 1000 (fun l => Real.logb 10 (kNodes l)) (Real.logb 10 (kVec k))) := by
    intro T P hP k i j hk hi hj
    obtain ⟨P', h1, h2⟩ := C55_fill (gridInterp Om T) n p mass kVec
    rw [hP] at h1
    injection h1 with h1
    subst h1
    rw [h2, if_pos ⟨hk, hi, hj⟩]
    rfl
  unfold bnl createInterp at h
  cases zDep with
  | false =>
    simp only [Bool.not_false, if_true, bind, Except.bind] at h
    cases hb : buildInterp em quad Om 0.01 with
    | error e => simp [hb] at h
    | ok f =>
      obtain ⟨T, hT, rfl⟩ := buildInterp_ok em quad Om 0.01 f hb
      simp only [hb, pure, Except.pure] at h
      cases hf : fillTable (gridInterp Om T) n p mass kVec with
      | error e => simp [hf, Except.map] at h
      | ok P =>
        simp only [hf, Except.map, Except.ok.injEq] at h
        subst h
        refine ⟨rfl, fun r P' hr => ?_⟩
        cases r with
        | zero =>
          simp only [List.getElem?_cons_zero, Option.some.injEq] at hr
          subst hr
          exact ⟨0.01, T, by simp, hT, fin T P hf⟩
        | succ r => simp at hr
  | true =>
    simp only [Bool.not_true, Bool.false_eq_true, if_false, bind, Except.bind] at h
    cases hb : zs.mapM (buildInterp em quad Om) with
    | error e => simp [hb] at h
    | ok fs =>
      simp only [hb, pure, Except.pure] at h
      obtain ⟨a1, a2⟩ := mapM_ok _ _ _ hb
      obtain ⟨b1, b2⟩ := mapM_ok _ _ _ h
      refine ⟨by simp [b1, a1], fun r P hr => ?_⟩
      have hrl : r < zs.length := by
        have := (List.getElem?_eq_some_iff.1 hr).1
        omega
      obtain ⟨f, hf, hfz⟩ := a2 r zs[r] (List.getElem?_eq_getElem hrl)
      obtain ⟨T, hT, rfl⟩ := buildInterp_ok em quad Om zs[r] f hfz
      obtain ⟨P', hP', hfill⟩ := b2 r _ hf
      rw [hr] at hP'
      injection hP' with hP'
      subst hP'
      exact ⟨zs[r], T, by simp [hrl], hT, fin T P hfill⟩

/-- C56: the table handed to the power spectra is symmetric in the two masses at every redshift and wavenumber. -/
theorem C56_bnl_symmetric (em : Emu) (quad : Quad) (Om : ℝ) (zDep : Bool) (zs : List ℝ) (n p : ℕ) (mass kVec : ℕ → ℝ)
    (B : List (ℕ → ℕ → ℕ → ℝ)) (h : bnl em quad Om zDep zs n p mass kVec = .ok B) (r : ℕ) (P : ℕ → ℕ → ℕ → ℝ)
    (hr : B[r]? = some P) (k i j : ℕ) (hk : k < p) (hi : i < n) (hj : j < n) : P k i j = P k j i := by
  obtain ⟨z, T, -, hT, hP⟩ := (C82_bnl em quad Om zDep zs n p mass kVec B h).2 r P hr
  rw [hP k i j hk hi hj, hP k j i hk hj hi, (C56_symmetric em quad z 5 1000 _ _ _ T hT).1]

end Verif.Bnl

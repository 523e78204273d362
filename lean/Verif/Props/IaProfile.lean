import Verif.Props.IaMultipoles

/-! Properties C48, C51, C53, C77: down-sampling, radial profile, parameter dictionary, multipole sum. -/

namespace Verif.Ia

open Verif.Lib

/-! ## C48 -/

theorem stride_getElem? (f : ℕ) (hf : 0 < f) (q : List ℝ) (i : ℕ) : (stride f q)[i]? = q[i * f]? := by
  have hk : ∀ i, i < (q.length + f - 1) / f ↔ i * f < q.length := by
    intro i
    rw [Nat.lt_iff_add_one_le, Nat.le_div_iff_mul_le hf, add_mul]
    omega
  have hs : stride f q = (List.range ((q.length + f - 1) / f)).map fun i => q.getD (i * f) 0 := by
    unfold stride
    rw [← List.filterMap_eq_map]
    refine List.filterMap_congr fun i hi => ?_
    have := (hk i).1 (List.mem_range.1 hi)
    simp [List.getD, this]
  rw [hs, List.getElem?_map]
  by_cases h : i * f < q.length
  · have := (hk i).2 h
    simp [this, List.getD, h]
  · have h' := mt (hk i).1 h
    rw [List.getElem?_eq_none (by simpa using h'), List.getElem?_eq_none (by omega)]
    rfl

theorem stride_length (f : ℕ) (hf : 0 < f) (q : List ℝ) : (stride f q).length = (q.length + f - 1) / f := by
  have hk : ∀ i, i < (q.length + f - 1) / f ↔ i * f < q.length := by
    intro i
    rw [Nat.lt_iff_add_one_le, Nat.le_div_iff_mul_le hf, add_mul]
    omega
  have h1 : ∀ i, i < (stride f q).length ↔ i < (q.length + f - 1) / f := by
    intro i
    rw [hk, ← not_iff_not, not_lt, not_lt, ← List.getElem?_eq_none_iff, stride_getElem? f hf,
      List.getElem?_eq_none_iff]
  exact le_antisymm (le_of_not_gt fun h => by have := (h1 _).1 h; omega)
    (le_of_not_gt fun h => by have := (h1 _).2 h; omega)

/-- index of the last strided element -/
theorem stride_last (f : ℕ) (hf : 0 < f) (q : List ℝ) (hq : q ≠ []) :
    (stride f q).getLast? = q[(q.length - 1) / f * f]? := by
  have hl : 0 < q.length := List.length_pos_of_ne_nil hq
  have : (stride f q).length - 1 = (q.length - 1) / f := by
    rw [stride_length f hf]
    have : q.length + f - 1 = (q.length - 1) + f := by omega
    rw [this, Nat.add_div_right _ hf, Nat.add_sub_cancel]
  rw [List.getLast?_eq_getElem?, this, stride_getElem? f hf]

/-- the arrays passed to the down-sampling when it takes place: radial transform with the Hankel method, more
masses than requested -/
theorem downsampleCase_factor (massSize nmass : ℕ) (h : nmass < massSize) :
    downsampleCase "hankel" massSize nmass = .ok (.factor (massSize / nmass)) := by
  have h1 : massSize ≠ nmass := by omega
  have h2 : ¬ massSize < nmass := by omega
  simp [downsampleCase, h1, h2]

/-- C48: down-sampling a one-dimensional array (mass, virial radius) of the right size never fails, keeps the
first and the last entry, is a subsequence of the input, and has between `nmass` and `2 nmass` entries. -/
theorem C48_endpoints (nmass : ℕ) (q : List ℝ) (hn : 0 < nmass) (h : nmass < q.length) :
    ∃ r, downsample1 "hankel" q.length nmass q = .ok r ∧ r.head? = q.head? ∧ r.getLast? = q.getLast? ∧
      List.Sublist r q ∧ nmass ≤ r.length ∧ r.length ≤ 2 * nmass := by
  set f := q.length / nmass with hfd
  have hf : 0 < f := Nat.div_pos h.le hn
  have hq : q ≠ [] := by intro e; simp [e] at h
  have hlen := stride_length f hf q
  have hdiv : nmass * f + q.length % nmass = q.length := Nat.div_add_mod _ _
  have hmod : q.length % nmass < nmass := Nat.mod_lt _ hn
  set rr := q.length % nmass
  have hlow : nmass ≤ (stride f q).length := by
    rw [hlen, Nat.le_div_iff_mul_le hf]; omega
  have hup : (stride f q).length ≤ nmass + (rr + f - 1) / f := by
    rw [hlen, show q.length + f - 1 = rr + f - 1 + nmass * f by omega, Nat.add_mul_div_right _ _ hf]; omega
  have hhead : (stride f q).head? = q.head? := by
    rw [List.head?_eq_getElem?, stride_getElem? f hf, List.head?_eq_getElem?, zero_mul]
  obtain ⟨l, hl⟩ : ∃ l, q.getLast? = some l := by
    cases e : q.getLast? with
    | none => exact absurd (List.getLast?_eq_none_iff.1 e) hq
    | some l => exact ⟨l, rfl⟩
  have hs : stride f q ≠ [] := by intro e; rw [e] at hlow; simp at hlow; omega
  obtain ⟨d, hd⟩ : ∃ d, (stride f q).getLast? = some d := by
    cases e : (stride f q).getLast? with
    | none => exact absurd (List.getLast?_eq_none_iff.1 e) hs
    | some l => exact ⟨l, rfl⟩
  have hceil : (rr + f - 1) / f ≤ rr := by
    rcases Nat.eq_zero_or_pos rr with h0 | h0
    · rw [h0, Nat.div_eq_of_lt (by omega)]
    · rw [Nat.div_le_iff_le_mul_add_pred hf]
      have : rr ≤ f * rr := Nat.le_mul_of_pos_left _ hf
      omega
  have hsub : List.Sublist (stride f q) q := by
    rw [List.sublist_iff_exists_orderEmbedding_getElem?_eq]
    refine ⟨OrderEmbedding.ofStrictMono (fun i => i * f) fun a b hab => Nat.mul_lt_mul_of_pos_right hab hf, ?_⟩
    intro i
    exact stride_getElem? f hf q i
  simp only [downsample1, downsampleCase_factor _ _ h, ← hfd, hd, hl]
  by_cases hdl : d = l
  · refine ⟨stride f q, by simp [hdl], hhead, by rw [hd, hdl], hsub, hlow, by omega⟩
  · refine ⟨stride f q ++ [l], by simp [hdl], ?_, by simp, ?_, by simp; omega, by simp; omega⟩
    · rw [List.head?_append_of_ne_nil _ hs, hhead]
    · rw [List.sublist_iff_exists_orderEmbedding_getElem?_eq]
      have hlast := stride_last f hf q hq
      have hne : (q.length - 1) / f * f ≠ q.length - 1 := by
        intro e
        rw [e, hd, ← List.getLast?_eq_getElem?, hl] at hlast
        exact hdl (by injection hlast)
      have hle : (q.length - 1) / f * f < q.length - 1 :=
        lt_of_le_of_ne (Nat.div_mul_le_self _ _) hne
      set k := (stride f q).length with hk
      have hk1 : k - 1 = (q.length - 1) / f := by
        rw [hlen]
        have : q.length + f - 1 = (q.length - 1) + f := by omega
        rw [this, Nat.add_div_right _ hf, Nat.add_sub_cancel]
      have hmono : StrictMono fun i => if i < k then i * f else q.length - 1 + (i - k) := by
        intro a b hab
        by_cases hb : b < k
        · have ha : a < k := by omega
          simp only [ha, hb, if_true]
          exact Nat.mul_lt_mul_of_pos_right hab hf
        · by_cases ha : a < k
          · simp only [ha, hb, if_true, if_false]
            have : a * f ≤ (k - 1) * f := Nat.mul_le_mul_right f (by omega)
            rw [hk1] at this
            omega
          · simp only [ha, hb, if_false]; omega
      refine ⟨OrderEmbedding.ofStrictMono _ hmono, ?_⟩
      intro i
      simp only [OrderEmbedding.coe_ofStrictMono]
      by_cases hi : i < k
      · rw [if_pos hi, List.getElem?_append_left hi, stride_getElem? f hf]
      · rw [if_neg hi, List.getElem?_append_right (by omega), ← hk]
        rcases Nat.eq_zero_or_pos (i - k) with h0 | h0
        · rw [h0, add_zero, ← List.getLast?_eq_getElem?, hl]; rfl
        · rw [List.getElem?_eq_none (by simp; omega), List.getElem?_eq_none (by omega)]

/-- C48: fewer masses than requested is refused. -/
theorem C48_too_few (nmass : ℕ) (q : List ℝ) (h : q.length < nmass) :
    downsample1 "hankel" q.length nmass q = .error .valueError := by
  have : q.length ≠ nmass := by omega
  simp [downsample1, downsampleCase, this, h]

example : downsample1 "hankel" ([1, 2, 3, 4, 5, 6] : List ℝ).length 2 [1, 2, 3, 4, 5, 6] = .ok [1, 4, 6] := by
  norm_num [downsample1, downsampleCase, stride, List.range_succ, List.filterMap]

/-- C48: a two-dimensional array (concentration, scale radius) is cut at the same columns as the mass, except
that the last column is added only if *every* row changes there. -/
theorem C48_two_dimensional (massSize nmass : ℕ) (rows : List (List ℝ)) (h : nmass < massSize) :
    let f := massSize / nmass
    downsample2 "hankel" massSize nmass rows = .ok (rows.map fun row => stride f row ++
      (if ∀ row ∈ rows, (stride f row).getLast? ≠ row.getLast? then row.getLast?.toList else [])) := by
  intro f
  simp only [downsample2, downsampleCase_factor _ _ h]
  split_ifs with hc
  · rfl
  · simp [f]

/-- C48 (disagreement found): if the step does not hit the last mass, and in one redshift row the last strided
concentration equals the last concentration (for instance a constant concentration), mass and concentration
come out with different lengths. -/
theorem C48_length_mismatch (nmass : ℕ) (mass : List ℝ) (rows : List (List ℝ)) (row : List ℝ)
    (hn : 0 < nmass) (h : nmass < mass.length) (hm : mass.Pairwise (· < ·))
    (hstep : (mass.length - 1) % (mass.length / nmass) ≠ 0)
    (hrows : ∀ r ∈ rows, r.length = mass.length) (hrow : row ∈ rows)
    (heq : row[(mass.length - 1) / (mass.length / nmass) * (mass.length / nmass)]? = row.getLast?) :
    ∃ m c, downsample1 "hankel" mass.length nmass mass = .ok m ∧
      downsample2 "hankel" mass.length nmass rows = .ok c ∧ c ≠ [] ∧
      ∀ r ∈ c, r.length + 1 = m.length := by
  set f := mass.length / nmass with hfd
  have hf : 0 < f := Nat.div_pos h.le hn
  have hq : mass ≠ [] := by intro e; simp [e] at h
  have hrow0 : row ≠ [] := by
    intro e; have := hrows row hrow; rw [e] at this; simp at this; rw [← this] at h; simp at h
  have hlen := hrows row hrow
  have hidx : (mass.length - 1) / f * f < mass.length - 1 := by
    refine lt_of_le_of_ne (Nat.div_mul_le_self _ _) fun e => hstep ?_
    have := Nat.div_add_mod (mass.length - 1) f
    rw [mul_comm] at this; omega
  have hcond : ¬ ∀ r ∈ rows, (stride f r).getLast? ≠ r.getLast? := by
    intro hc
    refine hc row hrow ?_
    rw [stride_last f hf row hrow0, hlen, heq]
  have hml : mass.length - 1 < mass.length := by omega
  refine ⟨stride f mass ++ [mass[mass.length - 1]], rows.map (stride f), ?_, ?_, ?_, ?_⟩
  · simp only [downsample1, downsampleCase_factor _ _ h, ← hfd]
    rw [stride_last f hf mass hq, List.getLast?_eq_getElem?, List.getElem?_eq_getElem (by omega),
      List.getElem?_eq_getElem hml]
    have : mass[(mass.length - 1) / f * f] ≠ mass[mass.length - 1] :=
      (List.pairwise_iff_getElem.1 hm _ _ _ _ hidx).ne
    simp [this]
  · simp only [downsample2, downsampleCase_factor _ _ h, ← hfd, hcond, if_false]
  · intro e
    rw [List.map_eq_nil_iff] at e
    rw [e] at hrow; simp at hrow
  · intro r hr
    obtain ⟨r', hr', rfl⟩ := List.mem_map.1 hr
    simp [stride_length f hf, hrows r' hr']

/-- an instance: six masses, two requested, constant concentration -/
example : ∃ m c, downsample1 "hankel" ([1, 2, 3, 4, 5, 6] : List ℝ).length 2 [1, 2, 3, 4, 5, 6] = .ok m ∧
    downsample2 "hankel" ([1, 2, 3, 4, 5, 6] : List ℝ).length 2 [[4, 4, 4, 4, 4, 4]] = .ok c ∧ c ≠ [] ∧
      ∀ r ∈ c, r.length + 1 = m.length :=
  C48_length_mismatch 2 _ _ [4, 4, 4, 4, 4, 4] (by norm_num) (by simp) (by norm_num) (by simp) (by simp) (by simp)
    (by simp)

/-! ## C51 -/

/-- C51: the alignment factor is clipped at 0.3: the profile never exceeds 0.3 times the NFW shape. -/
theorem C51_clip (r rs rvir a b rcore : ℝ) (hr : 0 < r) (hs : 0 < rs) (truncate : Bool) :
    gammaRNfwProfile r rs rvir a b rcore truncate ≤ 0.3 * (1 / (r / rs * (1 + r / rs) ^ 2)) := by
  have hp : 0 < 1 / (r / rs * (1 + r / rs) ^ 2) := by positivity
  unfold gammaRNfwProfile
  simp only
  set g := min (if r < rcore then a * (rcore / rvir) ^ b else a * (r / rvir) ^ b) 0.3
  have hg : g ≤ 0.3 := min_le_right _ _
  split_ifs
  · rw [mul_zero]; positivity
  · exact mul_le_mul_of_nonneg_right hg hp.le

/-- C51: with a non-negative amplitude the profile is non-negative. -/
theorem C51_nonneg (r rs rvir a b rcore : ℝ) (ha : 0 ≤ a) (hr : 0 < r) (hs : 0 < rs) (hv : 0 < rvir)
    (hc : 0 ≤ rcore) (truncate : Bool) : 0 ≤ gammaRNfwProfile r rs rvir a b rcore truncate := by
  unfold gammaRNfwProfile
  simp only
  refine mul_nonneg (le_min ?_ (by norm_num)) ?_
  · split_ifs <;> positivity
  · split_ifs
    · rfl
    · positivity

/-- C51: inside the core the alignment factor does not depend on the radius: the ratio to the NFW shape is the
same at any two radii. -/
theorem C51_flat_core (r r' rs rvir a b rcore : ℝ) (h : r < rcore) (h' : r' < rcore) (hv : rcore ≤ rvir)
    (truncate : Bool) (hr : 0 < r) (hr' : 0 < r') (hs : 0 < rs) :
    gammaRNfwProfile r rs rvir a b rcore truncate * (r / rs * (1 + r / rs) ^ 2) =
      gammaRNfwProfile r' rs rvir a b rcore truncate * (r' / rs * (1 + r' / rs) ^ 2) := by
  have t : ¬ (truncate = true ∧ r ≥ rvir) := by rintro ⟨-, h3⟩; linarith
  have t' : ¬ (truncate = true ∧ r' ≥ rvir) := by rintro ⟨-, h3⟩; linarith
  have e : ∀ x : ℝ, 0 < x → 1 / (x / rs * (1 + x / rs) ^ 2) * (x / rs * (1 + x / rs) ^ 2) = 1 := by
    intro x hx
    have : x / rs * (1 + x / rs) ^ 2 ≠ 0 := by positivity
    rw [div_mul_cancel₀ _ this]
  simp only [gammaRNfwProfile, h, h', t, t', if_true, if_false]
  rw [mul_assoc, mul_assoc, e r hr, e r' hr']

/-- C51: at the core radius the factor is continuous: the outer branch taken at `r = rcore` is the core value. -/
theorem C51_core_continuous (rs rvir a b rcore : ℝ) (h : rcore < rvir) (truncate : Bool) :
    gammaRNfwProfile rcore rs rvir a b rcore truncate =
      min (a * (rcore / rvir) ^ b) 0.3 * (1 / (rcore / rs * (1 + rcore / rs) ^ 2)) := by
  have t : ¬ (truncate = true ∧ rcore ≥ rvir) := by rintro ⟨-, h3⟩; linarith
  simp [gammaRNfwProfile, t]

/-- C51: with truncation the profile vanishes at and beyond the virial radius, without it it does not (for a
positive amplitude). -/
theorem C51_truncation (r rs rvir a b rcore : ℝ) (h : rvir ≤ r) :
    gammaRNfwProfile r rs rvir a b rcore true = 0 ∧
    (0 < a → 0 < rs → 0 < rvir → 0 < rcore → 0 < gammaRNfwProfile r rs rvir a b rcore false) := by
  refine ⟨by simp [gammaRNfwProfile, h], fun ha hs hv hc => ?_⟩
  have hr : 0 < r := by linarith
  unfold gammaRNfwProfile
  simp only [Bool.false_eq_true, false_and, if_false]
  refine mul_pos (lt_min ?_ (by norm_num)) (by positivity)
  split_ifs <;> positivity

/-- C51: for a decreasing slope the un-clipped factor is only ever lowered by the core and the clip. -/
theorem C51_below_power_law (r rs rvir a b rcore : ℝ) (ha : 0 ≤ a) (hb : b ≤ 0) (hr : 0 < r) (hs : 0 < rs)
    (hv : 0 < rvir) (truncate : Bool) :
    gammaRNfwProfile r rs rvir a b rcore truncate ≤ a * (r / rvir) ^ b * (1 / (r / rs * (1 + r / rs) ^ 2)) := by
  have hp : 0 < 1 / (r / rs * (1 + r / rs) ^ 2) := by positivity
  unfold gammaRNfwProfile
  simp only
  have hg : min (if r < rcore then a * (rcore / rvir) ^ b else a * (r / rvir) ^ b) 0.3 ≤ a * (r / rvir) ^ b := by
    refine (min_le_left _ _).trans ?_
    split_ifs with h
    · refine mul_le_mul_of_nonneg_left ?_ ha
      exact Real.rpow_le_rpow_of_nonpos (by positivity) (by gcongr) hb
    · exact le_rfl
  generalize min (if r < rcore then a * (rcore / rvir) ^ b else a * (r / rvir) ^ b) 0.3 = g at *
  split_ifs
  · rw [mul_zero]; positivity
  · exact mul_le_mul_of_nonneg_right hg hp.le

example : gammaRNfwProfile 1 1 2 1 (-2) 0.06 true = 0.3 * (1 / 4) := by
  have : ((1 : ℝ) / 2) ^ (-2 : ℝ) = 4 := by
    rw [Real.rpow_neg (by norm_num)]; norm_num
  simp only [gammaRNfwProfile]
  norm_num [this]

/-! ## C53 -/

/-- the six entries written by `alignment_class` -/
def gridKeys : List String := ["z_vec", "mass_in", "c_in", "r_s_in", "rvir_in", "method"]

/-- C53: a read overwrites the six grid entries, whatever the user had stored, and keeps every other entry;
`method` is always `fftlog` afterwards. -/
theorem C53_overwrites {V : Type} (zVec mass conc rs rvir fftlog : V) (d : Dict V) :
    (∀ k ∉ gridKeys, alignUpdate zVec mass conc rs rvir fftlog d k = d k) ∧
    (∀ d' : Dict V, (∀ k ∉ gridKeys, d k = d' k) →
      alignUpdate zVec mass conc rs rvir fftlog d = alignUpdate zVec mass conc rs rvir fftlog d') ∧
    alignUpdate zVec mass conc rs rvir fftlog d "method" = some fftlog ∧
    alignUpdate zVec mass conc rs rvir fftlog d "z_vec" = some zVec ∧
    alignUpdate zVec mass conc rs rvir fftlog d "mass_in" = some mass ∧
    alignUpdate zVec mass conc rs rvir fftlog d "c_in" = some conc ∧
    alignUpdate zVec mass conc rs rvir fftlog d "r_s_in" = some rs ∧
    alignUpdate zVec mass conc rs rvir fftlog d "rvir_in" = some rvir := by
  refine ⟨?_, ?_, by simp [alignUpdate], by simp [alignUpdate], by simp [alignUpdate], by simp [alignUpdate],
    by simp [alignUpdate], by simp [alignUpdate]⟩
  · intro k hk
    simp only [gridKeys, List.mem_cons, List.not_mem_nil, or_false, not_or] at hk
    simp [alignUpdate, hk]
  · intro d' h
    funext k
    by_cases hk : k ∈ gridKeys
    · simp only [gridKeys, List.mem_cons, List.not_mem_nil, or_false] at hk
      rcases hk with rfl | rfl | rfl | rfl | rfl | rfl <;> simp [alignUpdate]
    · have := h k hk
      simp only [gridKeys, List.mem_cons, List.not_mem_nil, or_false, not_or] at hk
      simp [alignUpdate, hk, this]

/-- C53: any number of further reads with the same halo model leaves the dictionary as the first read made it. -/
theorem C53_idempotent {V : Type} (zVec mass conc rs rvir fftlog : V) (d : Dict V) (n : ℕ) :
    (alignUpdate zVec mass conc rs rvir fftlog)^[n + 1] d = alignUpdate zVec mass conc rs rvir fftlog d := by
  induction n with
  | zero => rfl
  | succ n ih =>
    rw [Function.iterate_succ_apply', ih]
    refine (C53_overwrites zVec mass conc rs rvir fftlog _).2.1 _ fun k hk => ?_
    exact (C53_overwrites zVec mass conc rs rvir fftlog d).1 k hk

/-- C53: the caller's object is the one written to unless it is `None` or empty. -/
theorem C53_shared {V : Type} (d : Dict V) (k : String) (h : d k ≠ none) : storedDict (some d) = some d := by
  have : d ≠ fun _ => none := by rintro rfl; exact h rfl
  simp [storedDict, this]

example : alignUpdate 0 1 2 3 4 5 (fun k => if k = "method" then some 99 else if k = "beta_cen" then some 7 else none)
      "method" = some 5 ∧
    alignUpdate 0 1 2 3 4 5 (fun k => if k = "method" then some 99 else if k = "beta_cen" then some 7 else none)
      "beta_cen" = some 7 := by decide

/-! ## C77 -/

theorem calculateFEll_zero (g : ℝ) : calculateFEll 0 g = .ok 0 := by
  unfold calculateFEll
  split_ifs
  · exact tableAt_ok _ _ (by simp [table0])
  · exact tableAt_ok _ _ (by simp [tableM2])
  · rw [general_even 0 (by norm_num)]; simp

theorem wkmSum_congr (n : ℕ) (u u' : ℕ → ℝ) (g : ℝ) (l : List ℕ) (h : ∀ i, 1 ≤ i → u i = u' i)
    (hl : ∀ ell ∈ l, Even ell) : wkmSum n u g l = wkmSum n u' g l := by
  induction l with
  | nil => rfl
  | cons ell l ih =>
    have : wkmTerm n u g ell = wkmTerm n u' g ell := by
      rcases Nat.eq_zero_or_pos ell with rfl | h0
      · simp only [wkmTerm, calculateFEll_zero, mul_zero]
      · obtain ⟨k, hk⟩ := hl ell (by simp)
        simp only [wkmTerm, h (ell / 2) (by omega)]
    simp only [wkmSum, this, ih fun e he => hl e (by simp [he])]

/-- C77: the monopole of the radial profile never enters the alignment profile; in particular with
`ell_max` 0 or 1 there is no satellite alignment at all. -/
theorem C77_monopole_ignored (L : ℤ) (u u' : ℕ → ℝ) (g : ℝ) (h : ∀ i, 1 ≤ i → u i = u' i) :
    wkmFEll L u g = wkmFEll L u' g ∧ (L < 2 → wkmFEll L u g = .ok 0) := by
  refine ⟨?_, ?_⟩
  · unfold wkmFEll
    rw [wkmSum_congr _ u u' g _ h fun ell he => ((mem_ellValues L ell).1 he).1]
  · intro hL
    by_cases h0 : 0 ≤ L
    · have : ellValues L = [0] := by
        have : ((L + 2) / 2).toNat = 1 := by omega
        simp [ellValues, this]
      simp [wkmFEll, this, wkmSum, wkmTerm, calculateFEll_zero]
    · have : ellValues L = [] := by
        have : ((L + 2) / 2).toNat = 0 := by omega
        simp [ellValues, this]
      simp [wkmFEll, this, wkmSum]

/-- C77: the alignment profile is non-negative and scales with the absolute value of the radial profile. -/
theorem C77_nonneg_homogeneous (L : ℤ) (u : ℕ → ℝ) (g v : ℝ) (h : wkmFEll L u g = .ok v) (c : ℝ) :
    0 ≤ v ∧ wkmFEll L (fun i => c * u i) g = .ok (|c| * v) := by
  have key : ∀ (n : ℕ) (l : List ℕ) (s : ℝ), wkmSum n u g l = .ok s →
      wkmSum n (fun i => c * u i) g l = .ok (c * s) := by
    intro n l
    induction l with
    | nil => intro s hs; simp only [wkmSum, Except.ok.injEq] at hs ⊢; rw [← hs, mul_zero]
    | cons ell l ih =>
      intro s hs
      simp only [wkmSum] at hs ⊢
      have ht : ∀ t, wkmTerm n u g ell = .ok t → wkmTerm n (fun i => c * u i) g ell = .ok (c * t) := by
        intro t ht
        simp only [wkmTerm] at ht ⊢
        cases hf : calculateFEll ell g with
        | error e => rw [hf] at ht; simp at ht
        | ok f =>
          rw [hf] at ht
          simp only at ht ⊢
          split_ifs at ht ⊢ with hb
          rw [Except.ok.injEq] at ht ⊢
          rw [← ht]; ring
      cases h1 : wkmTerm n u g ell with
      | error e => rw [h1] at hs; simp at hs
      | ok t =>
        cases h2 : wkmSum n u g l with
        | error e => rw [h1, h2] at hs; simp at hs
        | ok s' =>
          rw [h1, h2] at hs
          rw [ht t h1, ih s' h2]
          simp only [Except.ok.injEq] at hs ⊢
          rw [← hs]; ring
  unfold wkmFEll at h ⊢
  cases h2 : wkmSum (ellValues L).length u g (ellValues L) with
  | error e => rw [h2] at h; simp at h
  | ok s =>
    rw [h2] at h
    rw [key _ _ s h2]
    simp only [Except.ok.injEq] at h ⊢
    rw [← h]
    exact ⟨abs_nonneg _, abs_mul _ _⟩

/-- the hypothesis is met and the profile is not trivially zero: quadrupole only, slope -2 -/
example : wkmFEll 2 (fun _ => 1) (-2) = .ok (|(-1) * 5 * 4.71238898|) := by
  have e : ellValues 2 = [0, 2] := by decide
  have t2 : calculateFEll 2 (-2) = .ok 4.71238898 := by
    simp [calculateFEll, tableAt, tableM2]
  simp only [wkmFEll, e, wkmSum, wkmTerm, calculateFEll_zero, t2]
  norm_num

end Verif.Ia

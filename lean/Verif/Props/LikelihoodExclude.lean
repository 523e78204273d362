import Verif.Model.LikelihoodExclude
import Verif.Props.Likelihood

/-! # Property C143: excluding points, and the numbers derived from the covariance -/

namespace Verif.Likelihood

open Verif.Lib

/-! ## Rows that stay -/

private theorem excludeIdx_cons (n : ℕ) (l : List ℕ) (ex : List ℤ) :
    excludeIdx (n :: l) ex = ex ++ (excludeIdx l ex).map fun i => (n : ℤ) + i := by
  unfold excludeIdx
  rw [List.length_cons, List.range_succ_eq_map, List.flatMap_cons]
  congr 1
  · simp [offset]
  · rw [List.flatMap_map, List.map_flatMap]
    refine List.flatMap_congr fun a _ => ?_
    rw [List.map_map]
    refine List.map_congr_left fun b _ => ?_
    simp only [Function.comp]
    rw [Nat.succ_eq_add_one, offset_cons]
    push_cast; ring

private theorem idx_nonneg {l : List ℕ} {ex : List ℤ} (h : ∀ b ∈ ex, 0 ≤ b) : ∀ i ∈ excludeIdx l ex, 0 ≤ i := by
  intro i hi
  unfold excludeIdx at hi
  simp only [List.mem_flatMap, List.mem_map] at hi
  obtain ⟨a, -, b, hb, rfl⟩ := hi
  have := h b hb
  omega

private theorem idx_lt {l : List ℕ} {ex : List ℤ} (h : ∀ b ∈ ex, ∀ n ∈ l, b < (n : ℤ)) :
    ∀ i ∈ excludeIdx l ex, i < (l.sum : ℤ) := by
  induction l with
  | nil => simp [excludeIdx]
  | cons n l ih =>
    intro i hi
    rw [excludeIdx_cons, List.mem_append, List.mem_map] at hi
    rw [List.sum_cons, Nat.cast_add]
    rcases hi with g | ⟨j, hj, rfl⟩
    · have := h i g n List.mem_cons_self
      omega
    · have := ih (fun b hb m hm => h b hb m (List.mem_cons_of_mem _ hm)) j hj
      omega

private theorem keep_points {α : Type} {ex : List ℤ} (h0 : ∀ b ∈ ex, 0 ≤ b) (r : List (List α))
    (h : ∀ b ∈ ex, ∀ u ∈ r, b < (u.length : ℤ)) :
    ((List.range r.flatten.length).filter fun (k : ℕ) => ∀ i ∈ excludeIdx (r.map List.length) ex, (k : ℤ) ≠ i).filterMap
      (fun k => r.flatten[k]?) = (r.map (keptPoints ex)).flatten := by
  induction r with
  | nil => simp
  | cons u r ih =>
    have ih := ih fun b hb w hw => h b hb w (List.mem_cons_of_mem _ hw)
    have hu : ∀ b ∈ ex, b < (u.length : ℤ) := fun b hb => h b hb u List.mem_cons_self
    rw [List.flatten_cons, List.length_append, List.range_add, List.filter_append, List.filterMap_append, List.map_cons,
      List.map_cons, List.flatten_cons, excludeIdx_cons]
    congr 1
    · unfold keptPoints
      rw [List.filterMap_filter]
      refine List.filterMap_congr fun k hk => ?_
      have hk := List.mem_range.1 hk
      have e : (∀ i ∈ ex ++ (excludeIdx (r.map List.length) ex).map (fun i => (u.length : ℤ) + i), (k : ℤ) ≠ i) ↔ (k : ℤ) ∉ ex := by
        constructor
        · intro g hm
          exact g _ (List.mem_append_left _ hm) rfl
        · intro g i hi e
          rcases List.mem_append.1 hi with hi | hi
          · rw [e] at g; exact g hi
          · obtain ⟨j, hj, rfl⟩ := List.mem_map.1 hi
            have := idx_nonneg h0 j hj
            omega
      rw [List.getElem?_append_left hk]
      by_cases g : (k : ℤ) ∈ ex
      · simp only [e, g, not_true_eq_false, decide_false, Bool.false_eq_true, if_false, if_true]
      · simp only [e, g, not_false_eq_true, decide_true, if_true, if_false]
    · rw [← ih, List.filter_map, List.filterMap_map]
      have e : ∀ k, (∀ i ∈ ex ++ (excludeIdx (r.map List.length) ex).map (fun i => (u.length : ℤ) + i),
          ((u.length + k : ℕ) : ℤ) ≠ i) ↔ ∀ i ∈ excludeIdx (r.map List.length) ex, (k : ℤ) ≠ i := by
        intro k
        constructor
        · intro g i hi e
          refine g _ (List.mem_append_right _ (List.mem_map.2 ⟨i, hi, rfl⟩)) ?_
          push_cast; omega
        · intro g i hi e
          rcases List.mem_append.1 hi with hi | hi
          · have := hu i hi
            push_cast at e; omega
          · obtain ⟨j, hj, rfl⟩ := List.mem_map.1 hi
            refine g j hj ?_
            push_cast at e; omega
      simp only [Function.comp_def, e]
      refine List.filterMap_congr fun k _ => ?_
      rw [List.getElem?_append_right (by omega)]
      congr 1; omega

/-! ## C143 -/

private theorem delete_ok {N : ℕ} {idx : List ℤ} (h0 : idx ≠ []) (h1 : ∀ i ∈ idx, 0 ≤ i) (h2 : ∀ i ∈ idx, i < (N : ℤ)) :
    delete N idx = .ok ((List.range N).filter fun r => ∀ i ∈ idx, (r : ℤ) ≠ i) := by
  unfold delete
  rw [if_neg]
  · congr 1
    refine List.filter_congr fun r _ => ?_
    refine decide_eq_decide.2 (forall₂_congr fun i hi => ?_)
    rw [if_neg (by have := h1 i hi; omega)]
  · rintro (h | ⟨i, hi, h⟩)
    · exact h0 h
    · have := h1 i hi; have := h2 i hi; omega

private theorem idx_ne_nil {l : List ℕ} {ex : List ℤ} (hl : l ≠ []) (he : ex ≠ []) : excludeIdx l ex ≠ [] := by
  cases l with
  | nil => exact absurd rfl hl
  | cons n l => rw [excludeIdx_cons]; simp [he]

private theorem kept_length {α : Type} (ex : List ℤ) (l : List α) :
    (keptPoints ex l).length = ((List.range l.length).filter fun (j : ℕ) => decide ((j : ℤ) ∉ ex)).length := by
  unfold keptPoints
  have : ∀ m ≤ l.length, ((List.range m).filterMap fun (j : ℕ) => if (j : ℤ) ∈ ex then Option.none else l[j]?).length =
      ((List.range m).filter fun (j : ℕ) => decide ((j : ℤ) ∉ ex)).length := by
    intro m hm
    induction m with
    | zero => rfl
    | succ m ih =>
      rw [List.range_succ, List.filterMap_append, List.filter_append, List.length_append, List.length_append, ih (by omega)]
      congr 1
      by_cases g : (m : ℤ) ∈ ex
      · simp [g]
      · simp [g, List.getElem?_eq_getElem (show m < l.length by omega)]
  exact this _ le_rfl

private theorem kept_count {α : Type} {ex : List ℤ} (h0 : ∀ b ∈ ex, 0 ≤ b) (l : List α) (h : ∀ b ∈ ex, b < (l.length : ℤ)) :
    (keptPoints ex l).length + ex.dedup.length = l.length := by
  rw [kept_length]
  have hp : (((List.range l.length).filter fun (j : ℕ) => decide ((j : ℤ) ∈ ex)).map fun (j : ℕ) => (j : ℤ)).Perm ex.dedup := by
    refine (List.perm_ext_iff_of_nodup ?_ (List.nodup_dedup _)).2 fun b => ?_
    · exact (List.nodup_range.filter _).map fun a b h => by exact_mod_cast h
    · rw [List.mem_dedup, List.mem_map]
      constructor
      · rintro ⟨j, hj, rfl⟩
        simpa using (List.mem_filter.1 hj).2
      · intro hb
        obtain ⟨j, rfl⟩ := Int.eq_ofNat_of_zero_le (h0 b hb)
        have := h _ hb
        refine ⟨j, List.mem_filter.2 ⟨List.mem_range.2 (by omega), by simpa using hb⟩, rfl⟩
  have hl := hp.length_eq
  rw [List.length_map] at hl
  rw [← hl]
  have := List.length_eq_length_filter_add (l := List.range l.length) fun (j : ℕ) => decide ((j : ℤ) ∈ ex)
  rw [List.length_range] at this
  have e : ((List.range l.length).filter fun (j : ℕ) => decide ((j : ℤ) ∉ ex)) =
      (List.range l.length).filter fun (j : ℕ) => !decide ((j : ℤ) ∈ ex) := by
    refine List.filter_congr fun j _ => ?_
    simp
  rw [e]; omega

private theorem newSize_eq {ex : List ℤ} (n : ℕ) (h : ∀ b ∈ ex, b < (n : ℤ)) : newSize ex n = (n : ℤ) - ex.length := by
  unfold newSize
  rw [if_neg]
  rw [not_not, List.length_eq_zero_iff, List.filter_eq_nil_iff]
  intro b hb
  have := h b hb
  simp; omega

/-- C143: for points that every bin has, the rows of the covariance that stay are those of the data points that stay, in the same order, for
the separations, the data and any other vector with one number per point -/
theorem C143_aligned {α : Type} (ex : List ℤ) (he : ex ≠ []) (h0 : ∀ b ∈ ex, 0 ≤ b) (r : List (List α)) (hr : r ≠ [])
    (h : ∀ b ∈ ex, ∀ u ∈ r, b < (u.length : ℤ)) :
    ∃ keep, covarianceExcluder r.flatten.length (r.map List.length) (.array ex) =
        .ok (keep, (r.map List.length).map (newSize ex)) ∧
      keep.Pairwise (· < ·) ∧ (∀ k ∈ keep, k < r.flatten.length) ∧
      keep.filterMap (fun k => r.flatten[k]?) = (r.map (keptPoints ex)).flatten := by
  have hi : ∀ i ∈ excludeIdx (r.map List.length) ex, i < (r.flatten.length : ℤ) := by
    rw [List.length_flatten]
    refine idx_lt fun b hb n hn => ?_
    obtain ⟨u, hu, rfl⟩ := List.mem_map.1 hn
    exact h b hb u hu
  have hd := delete_ok (idx_ne_nil (by simpa using hr) he) (idx_nonneg h0) hi
  refine ⟨_, ?_, ?_, ?_, keep_points h0 r h⟩
  · simp only [covarianceExcluder, hd, Bind.bind, Except.bind]
  · exact List.pairwise_lt_range.filter _
  · intro k hk
    exact List.mem_range.1 (List.mem_filter.1 hk).1

/-- C143: the sizes by which the covariance is then cut into blocks are those of the data exactly if no point is named twice -/
theorem C143_sizes {α : Type} (ex : List ℤ) (h0 : ∀ b ∈ ex, 0 ≤ b) (r : List (List α)) (hr : r ≠ [])
    (h : ∀ b ∈ ex, ∀ u ∈ r, b < (u.length : ℤ)) :
    (r.map List.length).map (newSize ex) = (r.map (keptPoints ex)).map (fun u => (u.length : ℤ)) ↔ ex.Nodup := by
  have key : ∀ u ∈ r, (newSize ex u.length = ((keptPoints ex u).length : ℤ) ↔ ex.Nodup) := by
    intro u hu
    have a := newSize_eq u.length fun b hb => h b hb u hu
    have b := kept_count h0 u fun b hb => h b hb u hu
    rw [a]
    have hd : ex.Nodup ↔ ex.dedup.length = ex.length := by
      rw [← List.dedup_eq_self]
      exact ⟨fun h => by rw [h], fun h => (List.dedup_sublist ex).eq_of_length h⟩
    rw [hd]
    omega
  rw [List.map_map, List.map_map]
  constructor
  · intro e
    obtain ⟨u, hu⟩ := List.exists_mem_of_ne_nil r hr
    exact (key u hu).1 (List.map_inj_left.1 e u hu)
  · intro hn
    exact List.map_inj_left.2 fun u hu => (key u hu).2 hn

/-- C143: numbers that are not repeated give the right sizes for all bins, also for a bin that does not have all of these points -/
theorem C143_sizes_outside {α : Type} (ex : List ℤ) (h0 : ∀ b ∈ ex, 0 ≤ b) (hn : ex.Nodup) (u : List α) :
    newSize ex u.length = ((keptPoints ex u).length : ℤ) := by
  have e : keptPoints ex u = keptPoints (ex.filter fun b => b < (u.length : ℤ)) u := by
    unfold keptPoints
    refine List.filterMap_congr fun j hj => ?_
    have : (j : ℤ) < u.length := by exact_mod_cast List.mem_range.1 hj
    simp [List.mem_filter, this]
  have c := kept_count (ex := ex.filter fun b => b < (u.length : ℤ)) (fun b hb => h0 b (List.mem_filter.1 hb).1) u
    fun b hb => by simpa using (List.mem_filter.1 hb).2
  rw [(hn.filter _).dedup, ← e] at c
  unfold newSize
  split_ifs with g
  · omega
  · rw [not_not, List.length_eq_zero_iff, List.filter_eq_nil_iff] at g
    have f : (ex.filter fun b => b < (u.length : ℤ)) = ex := by
      rw [List.filter_eq_self]
      intro b hb
      have := g b hb
      simpa using this
    rw [f] at c
    omega

example : newSize [1, 3] [(5 : ℕ), 6, 7].length = ((keptPoints [1, 3] [(5 : ℕ), 6, 7]).length : ℤ) ∧
    newSize [1, 3] [(5 : ℕ), 6, 7].length = 2 :=
  ⟨C143_sizes_outside _ (by simp) (by simp) _, by simp [newSize]⟩

/-- C143: a number beyond the end of a bin removes a point of the next bin from the covariance -/
theorem C143_next_bin (N : ℕ) (sizes : List ℕ) (ex : List ℤ) (keep : List ℕ) (sz : List ℤ)
    (ok : covarianceExcluder N sizes (.array ex) = .ok (keep, sz)) (a b : ℕ) (ha : a + 1 < sizes.length) (hb : (b : ℤ) ∈ ex)
    (hab : sizes[a] ≤ b) : offset sizes (a + 1) + (b - sizes[a]) ∉ keep := by
  simp only [covarianceExcluder] at ok
  unfold delete at ok
  split_ifs at ok with g
  · simp [Bind.bind, Except.bind] at ok
  · simp only [Bind.bind, Except.bind, Except.ok.injEq, Prod.mk.injEq] at ok
    rw [← ok.1]
    intro hm
    have hm := (List.mem_filter.1 hm).2
    simp only [decide_eq_true_eq] at hm
    have hi : ((offset sizes a : ℤ) + b) ∈ excludeIdx sizes ex := by
      unfold excludeIdx
      exact List.mem_flatMap.2 ⟨a, List.mem_range.2 (by omega), List.mem_map.2 ⟨b, hb, rfl⟩⟩
    refine hm _ hi ?_
    rw [if_neg (by omega)]
    have e : offset sizes (a + 1) = offset sizes a + sizes[a] := by
      unfold offset
      rw [List.take_add_one, List.getElem?_eq_getElem (by omega), List.sum_append]
      simp
    rw [e]
    push_cast [Nat.cast_sub hab]
    ring

/-- C143: a number beyond the end of the last bin is an `IndexError` -/
theorem C143_last_bin (l : List ℕ) (n : ℕ) (ex : List ℤ) (b : ℤ) (hb : b ∈ ex) (hn : (n : ℤ) ≤ b) :
    covarianceExcluder (l ++ [n]).sum (l ++ [n]) (.array ex) = .error .indexError := by
  simp only [covarianceExcluder]
  unfold delete
  rw [if_pos]
  · rfl
  · right
    refine ⟨(offset (l ++ [n]) l.length : ℤ) + b, ?_, .inr ?_⟩
    · unfold excludeIdx
      exact List.mem_flatMap.2 ⟨l.length, List.mem_range.2 (by simp), List.mem_map.2 ⟨b, hb, rfl⟩⟩
    · unfold offset
      simp only [List.take_left, List.sum_append, List.sum_singleton]
      push_cast; omega

/-- C143: a number or a list, as the documentation asks for, never works: only an array does -/
theorem C143_only_arrays (ncols : ℕ) (files : List DataFile) (N : ℕ) (C : ℕ → ℕ → ℝ) (b : ℤ) (l : List ℤ) :
    (loadData ncols files N C (.number b)).isOk = false ∧ (loadData ncols files N C (.list l)).isOk = false ∧
      (loadData ncols files N C (.array [])).isOk = false := by
  have e0 : ∀ s : List ℕ, excludeIdx s [] = [] := fun s => by simp [excludeIdx]
  unfold loadData
  refine ⟨?_, ?_, ?_⟩ <;> cases loadDatapoints ncols files with
  | error e => rfl
  | ok f =>
    simp only [Bind.bind, Except.bind, covarianceExcluder]
    first
    | (rw [e0]; simp [delete, Except.isOk, Except.toBool])
    | (cases delete N _ <;> rfl)

/-- C143: the data themselves can be cut with a list as well as with an array: exactly the points not listed stay, in order -/
theorem C143_lists {ncols : ℕ} {files f : List DataFile} (h : loadDatapoints ncols files = .ok f) (ex : List ℤ) :
    ∃ g, loadDatapointsExcept ncols files (.list ex) = .ok g ∧ loadDatapointsExcept ncols files (.array ex) = .ok g ∧ g.length = f.length ∧
      ∀ a (ha : a < f.length) (hg : a < g.length), g[a].name = f[a].name ∧
        g[a].x.length = ((List.range f[a].x.length).filter fun j : ℕ => (j : ℤ) ∉ ex).length ∧
        g[a].x = ((List.range f[a].x.length).filter fun j : ℕ => (j : ℤ) ∉ ex).map (fun j => f[a].x.getD j 0) ∧
        g[a].y = ((List.range f[a].y.length).filter fun j : ℕ => (j : ℤ) ∉ ex).map (fun j => f[a].y.getD j 0) := by
  have key : ∀ l : List ℝ, keptPoints ex l = ((List.range l.length).filter fun j : ℕ => (j : ℤ) ∉ ex).map (fun j => l.getD j 0) := fun l => by
    unfold keptPoints
    rw [← List.filterMap_eq_map, List.filterMap_filter]
    refine List.filterMap_congr fun j hj => ?_
    have hj := List.mem_range.1 hj
    by_cases hx : (j : ℤ) ∈ ex <;> simp [hx, hj]
  refine ⟨_, by simp only [loadDatapointsExcept, h, Bind.bind, Except.bind]; rfl, by simp only [loadDatapointsExcept, h, Bind.bind, Except.bind],
    by simp, fun a ha hg => ?_⟩
  simp only [List.getElem_map]
  exact ⟨trivial, by rw [key, List.length_map], key _, key _⟩

/-! ## The likelihood after exclusion -/

open Matrix in
private theorem quad_submatrix {M K : ℕ} (C : Matrix (Fin M) (Fin M) ℝ) (hC : C.PosDef) (e : Fin K → Fin M)
    (he : Function.Injective e) (v : Fin M → ℝ) :
    (v ∘ e) ⬝ᵥ (C.submatrix e e)⁻¹ *ᵥ (v ∘ e) ≤ v ⬝ᵥ C⁻¹ *ᵥ v := by
  set S := C.submatrix e e with hS
  have hSp : S.PosDef := hC.submatrix he
  set P : Matrix (Fin M) (Fin K) ℝ := (1 : Matrix (Fin M) (Fin M) ℝ).submatrix id e with hP
  set w := v ∘ e with hw
  set u := S⁻¹ *ᵥ w with hu
  have hPS : Pᵀ * C * P = S := by
    ext i j
    simp [hP, hS, Matrix.mul_apply, Matrix.one_apply]
  have hPv : Pᵀ *ᵥ v = w := by
    ext i
    simp [hP, hw, Matrix.mulVec, dotProduct, Matrix.one_apply]
  have hSu : S *ᵥ u = w := by
    rw [hu, Matrix.mulVec_mulVec, Matrix.mul_nonsing_inv _ ((Matrix.isUnit_iff_isUnit_det _).1 hSp.isUnit), Matrix.one_mulVec]
  have hCi : C *ᵥ (C⁻¹ *ᵥ v) = v := by
    rw [Matrix.mulVec_mulVec, Matrix.mul_nonsing_inv _ ((Matrix.isUnit_iff_isUnit_det _).1 hC.isUnit), Matrix.one_mulVec]
  have hCt : Cᵀ = C := by simpa [Matrix.IsSymm] using hC.isHermitian
  have pos : 0 ≤ (C⁻¹ *ᵥ v - P *ᵥ u) ⬝ᵥ C *ᵥ (C⁻¹ *ᵥ v - P *ᵥ u) := by
    simpa using hC.posSemidef.dotProduct_mulVec_nonneg (C⁻¹ *ᵥ v - P *ᵥ u)
  have a1 : (P *ᵥ u) ⬝ᵥ v = u ⬝ᵥ w := by
    rw [← hPv, Matrix.dotProduct_mulVec, Matrix.vecMul_transpose]
  have a2 : (P *ᵥ u) ⬝ᵥ C *ᵥ (P *ᵥ u) = u ⬝ᵥ w := by
    rw [← hSu, ← hPS, ← Matrix.mulVec_mulVec, ← Matrix.mulVec_mulVec, Matrix.dotProduct_mulVec u, Matrix.vecMul_transpose]
  have a3 : (C⁻¹ *ᵥ v) ⬝ᵥ C *ᵥ (P *ᵥ u) = u ⬝ᵥ w := by
    rw [Matrix.dotProduct_mulVec, ← Matrix.mulVec_transpose, hCt, hCi, dotProduct_comm, a1]
  rw [Matrix.mulVec_sub, hCi, sub_dotProduct, dotProduct_sub, dotProduct_sub, a1, a2, a3] at pos
  have s1 : (C⁻¹ *ᵥ v) ⬝ᵥ v = v ⬝ᵥ C⁻¹ *ᵥ v := dotProduct_comm _ _
  have s2 : w ⬝ᵥ u = u ⬝ᵥ w := dotProduct_comm _ _
  rw [s1] at pos
  rw [s2]
  linarith

/-- C143: excluding points never raises chi squared: for a positive definite covariance the result with points left out lies between zero and
the one with all of them -/
theorem C143_chi2 (M : ℕ) (C : ℕ → ℕ → ℝ) (hC : (toMatrix M C).PosDef) (ex : List ℤ) (he : ex ≠ []) (h0 : ∀ b ∈ ex, 0 ≤ b)
    (r : List (List ℝ)) (hr : r ≠ []) (h : ∀ b ∈ ex, ∀ u ∈ r, b < (u.length : ℤ)) (hM : r.flatten.length = M) :
    ∃ keep sz A A' c c', covarianceExcluder M (r.map List.length) (.array ex) = .ok (keep, sz) ∧ invert M C = .ok A ∧
      invert keep.length (fun i j => C (keep.getD i 0) (keep.getD j 0)) = .ok A' ∧ chi2 A r = .ok c ∧
      chi2 A' (r.map (keptPoints ex)) = .ok c' ∧ 0 ≤ c' ∧ c' ≤ c := by
  subst hM
  obtain ⟨keep, h1, h2, h3, h4⟩ := C143_aligned ex he h0 r hr h
  let e : Fin keep.length → Fin r.flatten.length := fun i => ⟨keep[i], h3 _ (List.getElem_mem _)⟩
  have hinj : Function.Injective e := by
    intro i j hij
    have : keep[i] = keep[j] := by simpa [e] using hij
    exact Fin.ext ((List.Nodup.getElem_inj_iff (h2.imp fun h => h.ne)).1 this)
  have hsub : (toMatrix r.flatten.length C).submatrix e e =
      toMatrix keep.length fun i j => C (keep.getD i 0) (keep.getD j 0) := by
    ext i j
    simp [toMatrix, e]
  have hs := hC.submatrix hinj
  rw [hsub] at hs
  have hdet : ∀ {K : ℕ} {D : Matrix (Fin K) (Fin K) ℝ}, D.PosDef → D.det ≠ 0 := fun hD =>
    ((Matrix.isUnit_iff_isUnit_det _).1 hD.isUnit).ne_zero
  have hk : (r.map (keptPoints ex)).flatten = keep.map fun k => r.flatten.getD k 0 := by
    rw [← h4, ← List.filterMap_eq_map]
    refine List.filterMap_congr fun k hk => ?_
    have := h3 k hk
    simp only [Function.comp, List.getElem?_eq_getElem this, List.getD_eq_getElem _ _ this]
  have c1 := chi2_square (toMatrix r.flatten.length C)⁻¹ r rfl (fun i => r.flatten.getD i 0) fun _ => rfl
  have c2 := chi2_square (toMatrix keep.length fun i j => C (keep.getD i 0) (keep.getD j 0))⁻¹ (r.map (keptPoints ex))
    (by rw [hk]; simp) ((fun i : Fin r.flatten.length => r.flatten.getD i 0) ∘ e) fun i => by
      rw [hk, List.getD_eq_getElem _ _ (by simp)]
      simp [e]
  refine ⟨keep, _, _, _, _, _, h1, ?_, ?_, c1, c2, ?_, ?_⟩
  · unfold invert; rw [if_neg (hdet hC)]
  · unfold invert; rw [if_neg (hdet hs)]
  · simpa using hs.inv.posSemidef.dotProduct_mulVec_nonneg _
  · rw [← hsub]
    exact quad_submatrix _ hC e hinj _

/-! ## Errors, correlations, normalisation -/

/-- C143: for a positive definite covariance the errors are positive, every correlation lies strictly between -1 and 1 except that of a
point with itself, which is 1, and the covariance is error times error times correlation -/
theorem C143_correlation (M : ℕ) (C : ℕ → ℕ → ℝ) (hC : (toMatrix M C).PosDef) (sizes : List ℕ) (i j a b : ℕ)
    (hr : offset sizes i + a < M) (hs : offset sizes j + b < M) :
    0 < signalErr sizes C i a ∧
      C (offset sizes i + a) (offset sizes j + b) = signalErr sizes C i a * signalErr sizes C j b * correlation sizes C i j a b ∧
      correlation sizes C i j a b = correlation sizes C j i b a ∧
      (offset sizes i + a = offset sizes j + b → correlation sizes C i j a b = 1) ∧
      (offset sizes i + a ≠ offset sizes j + b → |correlation sizes C i j a b| < 1) := by
  unfold signalErr correlation
  set r := offset sizes i + a
  set s := offset sizes j + b
  have diag : ∀ k, k < M → 0 < C k k := fun k hk => by
    have := hC.diag_pos (i := ⟨k, hk⟩)
    simpa [toMatrix] using this
  have dr := diag r hr
  have ds := diag s hs
  have symm : C s r = C r s := by
    have := hC.isHermitian.apply ⟨r, hr⟩ ⟨s, hs⟩
    simpa [toMatrix] using this
  refine ⟨Real.sqrt_pos.2 dr, ?_, ?_, fun e => ?_, fun e => ?_⟩
  · dsimp only
    rw [Real.sqrt_mul dr.le]
    have := (Real.sqrt_pos.2 dr).ne'
    have := (Real.sqrt_pos.2 ds).ne'
    field_simp
  · simp only [symm, mul_comm]
  · simp only [← e]
    rw [Real.sqrt_mul_self dr.le, div_self dr.ne']
  · have hd : 0 < (C r r * C s s - C r s * C s r) := by
      have hinj : Function.Injective (![⟨r, hr⟩, ⟨s, hs⟩] : Fin 2 → Fin M) := by
        intro x y hxy
        fin_cases x <;> fin_cases y <;> simp_all [Fin.ext_iff]
      have := (hC.submatrix hinj).det_pos
      rw [Matrix.det_fin_two] at this
      simpa [toMatrix] using this
    rw [symm] at hd
    have hp : 0 < C r r * C s s := by positivity
    rw [abs_div, abs_of_nonneg (Real.sqrt_nonneg _), div_lt_one (Real.sqrt_pos.2 hp)]
    rw [← Real.sqrt_sq_eq_abs]
    exact Real.sqrt_lt_sqrt (sq_nonneg _) (by nlinarith)

/-- C143: the normalisation returned with the covariance is that of normally distributed data exactly if the number of data points is the
square of the number of bins (shown for independent errors, where the density is a product of normal densities) -/
theorem C143_likenorm (nobsbins M : ℕ) (v : ℕ → NNReal) (hv : ∀ i < M, v i ≠ 0) (d mu : Fin M → ℝ) (r : List (List ℝ))
    (h : r.flatten = List.ofFn fun i => d i - mu i) :
    ∃ A c, invert M (fun i j => if i = j then (v i : ℝ) else 0) = .ok A ∧ chi2 A r = .ok c ∧
      (Real.exp (likenorm nobsbins M (fun i j => if i = j then (v i : ℝ) else 0) + logLike c) =
        ∏ i : Fin M, ProbabilityTheory.gaussianPDFReal (mu i) (v i) (d i) ↔ nobsbins ^ 2 = M) := by
  obtain ⟨A, c, h1, h2, h3⟩ := C114_gaussian M v hv d mu r h
  refine ⟨A, c, h1, h2, ?_⟩
  rw [← h3, Real.exp_add, mul_left_inj' (Real.exp_pos _).ne']
  have hD : toMatrix M (fun i j => if i = j then (v i : ℝ) else 0) = Matrix.diagonal fun i : Fin M => (v i : ℝ) := by
    ext i j
    simp [toMatrix, Matrix.diagonal_apply, Fin.ext_iff]
  have hpos : ∀ i : Fin M, 0 < (v i : ℝ) := fun i => by
    have := hv i i.2
    positivity
  have hpi := Real.pi_pos
  have h2pi : 0 < Real.log (2 * Real.pi) := Real.log_pos (by have := Real.two_le_pi; linarith)
  have e : (∏ i : Fin M, (√(2 * Real.pi * v i))⁻¹) =
      Real.exp (-((M : ℝ) * Real.log (2 * Real.pi) + ∑ i : Fin M, Real.log (v i)) / 2) := by
    rw [show -((M : ℝ) * Real.log (2 * Real.pi) + ∑ i : Fin M, Real.log (v i)) / 2 =
      ∑ i : Fin M, (-(Real.log (2 * Real.pi) + Real.log (v i)) / 2) by
        rw [← Finset.sum_div, Finset.sum_neg_distrib, Finset.sum_add_distrib]; simp, Real.exp_sum]
    refine Finset.prod_congr rfl fun i _ => ?_
    have := hpos i
    rw [← Real.log_mul (by positivity) this.ne', neg_div, Real.exp_neg, ← Real.log_sqrt (by positivity),
      Real.exp_log (Real.sqrt_pos.2 (by positivity))]
  rw [e, Real.exp_eq_exp]
  unfold likenorm
  rw [hD, Matrix.det_diagonal, Real.log_prod fun i _ => (hpos i).ne']
  constructor
  · intro g
    have : ((nobsbins : ℝ) ^ 2 - M) * Real.log (2 * Real.pi) = 0 := by linarith
    rcases mul_eq_zero.1 this with g | g
    · exact_mod_cast sub_eq_zero.1 g
    · exact absurd g h2pi.ne'
  · intro g
    rw [← g]; push_cast; ring

/-! ## Cases that meet the hypotheses -/

/-- two bins of two and three points, the second point of each excluded -/
example : covarianceExcluder 5 [2, 3] (.array [1]) = .ok ([0, 2, 4], [1, 2]) := by decide

example : (([[1, 2], [3, 4, 5]] : List (List ℕ)).map (keptPoints [1])) = [[1], [3, 5]] := by decide

/-- the third point is excluded, which only the second bin has: the first point of the second bin is lost from the covariance as well -/
example : covarianceExcluder 5 [2, 3] (.array [2]) = .ok ([0, 1, 3], [2, 2]) ∧
    (([[1, 2], [3, 4, 5]] : List (List ℕ)).map (keptPoints [2])) = [[1, 2], [3, 4]] := by decide

/-- a positive definite covariance, and residuals in two bins -/
example : (toMatrix 2 corr).PosDef ∧ (([[1], [2]] : List (List ℝ)).flatten).length = 2 ∧
    ∀ b ∈ ([0] : List ℤ), ∀ u ∈ ([[1], [2]] : List (List ℝ)), b < (u.length : ℤ) :=
  ⟨corr_posDef, rfl, by simp⟩

end Verif.Likelihood

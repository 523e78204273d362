import Verif.Model.Likelihood
import Verif.Lemmas.Interp
import Mathlib.LinearAlgebra.Matrix.PosDef
import Mathlib.Data.List.GetD
import Mathlib.Probability.Distributions.Gaussian.Real
import Mathlib.Data.String.Basic
import Mathlib.Tactic.IntervalCases
import Mathlib.Tactic.Ring
import Mathlib.Tactic.Linarith
import Mathlib.Tactic.FieldSimp

/-! # The likelihood modules: properties -/

namespace Verif.Likelihood

open Verif.Lib Finset

/-! ## The sum over pairs of bins -/

theorem mapM_ok {α β : Type} (f : α → β) (g : α → Except PyErr β) (l : List α) (h : ∀ a ∈ l, g a = .ok (f a)) :
    l.mapM g = .ok (l.map f) := by
  induction l with
  | nil => rfl
  | cons a l ih =>
    rw [List.mapM_cons, h a (by simp), ih fun b hb => h b (by simp [hb])]
    rfl

theorem mapM_error {α β : Type} (e : PyErr) (g : α → Except PyErr β) (l : List α)
    (h : ∀ a ∈ l, (∃ b, g a = .ok b) ∨ g a = .error e) (hx : ∃ a ∈ l, g a = .error e) : l.mapM g = .error e := by
  induction l with
  | nil => simp at hx
  | cons a l ih =>
    rw [List.mapM_cons]
    rcases h a (by simp) with ⟨b, hb⟩ | hb
    · obtain ⟨c, hc, hc'⟩ := hx
      rcases List.mem_cons.1 hc with rfl | hc
      · rw [hc'] at hb; cases hb
      · rw [hb, ih (fun a ha => h a (by simp [ha])) ⟨c, hc, hc'⟩]
        rfl
    · rw [hb]; rfl

theorem offset_cons (n : ℕ) (l : List ℕ) (m : ℕ) : offset (n :: l) (m + 1) = n + offset l m := by simp [offset]

theorem flatten_getD (r : List (List ℝ)) (m a : ℕ) (ha : a < (r.getD m []).length) :
    r.flatten.getD (offset (r.map List.length) m + a) 0 = (r.getD m []).getD a 0 := by
  induction r generalizing m with
  | nil => simp at ha
  | cons u r ih =>
    cases m with
    | zero =>
      simp only [List.getD_cons_zero] at ha ⊢
      simp only [offset, List.take_zero, List.sum_nil, zero_add, List.flatten_cons]
      rw [List.getD_append _ _ _ _ ha]
    | succ m =>
      simp only [List.getD_cons_succ] at ha ⊢
      rw [List.map_cons, offset_cons, List.flatten_cons, List.getD_append_right _ _ _ _ (by omega)]
      rw [show u.length + offset (r.map List.length) m + a - u.length = offset (r.map List.length) m + a by omega]
      exact ih m ha

theorem sum_flatten (r : List (List ℝ)) (f : ℕ → ℝ) : ∑ i ∈ range r.flatten.length, f i =
    ∑ m ∈ range r.length, ∑ a ∈ range (r.getD m []).length, f (offset (r.map List.length) m + a) := by
  induction r generalizing f with
  | nil => simp
  | cons u r ih =>
    rw [List.flatten_cons, List.length_append, sum_range_add, ih fun i => f (u.length + i), List.length_cons, sum_range_succ']
    rw [add_comm]
    congr 1
    · refine sum_congr rfl fun m _ => ?_
      simp only [List.getD_cons_succ, List.map_cons, offset_cons, add_assoc]
    · simp [offset]

theorem offset_le (r : List (List ℝ)) (m : ℕ) (hm : m < r.length) :
    offset (r.map List.length) m + (r.getD m []).length ≤ r.flatten.length := by
  induction r generalizing m with
  | nil => simp at hm
  | cons u r ih =>
    cases m with
    | zero => simp [offset]
    | succ m =>
      rw [List.map_cons, offset_cons, List.getD_cons_succ, List.flatten_cons, List.length_append]
      have := ih m (by simpa using hm)
      omega

/-- the last bin with data ends where the data end -/
theorem exists_last (r : List (List ℝ)) (h : 0 < r.flatten.length) : ∃ m < r.length, 0 < (r.getD m []).length ∧
    offset (r.map List.length) m + (r.getD m []).length = r.flatten.length := by
  induction r with
  | nil => simp at h
  | cons u r ih =>
    by_cases h0 : 0 < r.flatten.length
    · obtain ⟨m, h1, h2, h3⟩ := ih h0
      refine ⟨m + 1, by simpa using h1, by simpa using h2, ?_⟩
      rw [List.map_cons, offset_cons, List.getD_cons_succ, List.flatten_cons, List.length_append, ← h3]
      omega
    · refine ⟨0, by simp, ?_, ?_⟩
      · rw [List.flatten_cons, List.length_append] at h
        simp only [List.getD_cons_zero]; omega
      · rw [List.flatten_cons, List.length_append]
        simp only [offset, List.take_zero, List.sum_nil, List.getD_cons_zero]; omega

theorem sum_map_range (n : ℕ) (f : ℕ → ℝ) : ((List.range n).map f).sum = ∑ i ∈ range n, f i := by
  induction n with
  | zero => simp
  | succ n ih => rw [List.range_succ, List.map_append, List.sum_append, ih, sum_range_succ]; simp

theorem dot_eq (u v : List ℝ) : dot u v = ∑ i ∈ range u.length, u.getD i 0 * v.getD i 0 := sum_map_range _ _

theorem getD_map_range (n : ℕ) (f : ℕ → ℝ) (i : ℕ) (hi : i < n) : ((List.range n).map f).getD i 0 = f i := by
  rw [List.getD_eq_getElem _ _ (by simpa using hi)]; simp

theorem blockTerm_ok {M : ℕ} (A : Matrix (Fin M) (Fin M) ℝ) (r : List (List ℝ)) (h : r.flatten.length ≤ M) (m n : ℕ)
    (hm : m < r.length) (hn : n < r.length) : blockTerm A r m n = .ok (∑ a ∈ range (r.getD m []).length,
      ∑ b ∈ range (r.getD n []).length, r.flatten.getD (offset (r.map List.length) m + a) 0 *
        entry A (offset (r.map List.length) m + a) (offset (r.map List.length) n + b) *
          r.flatten.getD (offset (r.map List.length) n + b) 0) := by
  have e1 : ∀ m < r.length, sliceLen M (offset (r.map List.length) m) (r.getD m []).length = (r.getD m []).length := by
    intro m hm
    have := offset_le r m hm
    unfold sliceLen
    omega
  unfold blockTerm
  simp only [e1 m hm, e1 n hn, if_true]
  rw [dot_eq]
  congr 1
  refine sum_congr rfl fun a ha => ?_
  rw [getD_map_range _ _ _ (mem_range.1 ha), dot_eq, List.length_map, List.length_range, mul_sum]
  refine sum_congr rfl fun b hb => ?_
  rw [getD_map_range _ _ _ (mem_range.1 hb), flatten_getD r m a (mem_range.1 ha), flatten_getD r n b (mem_range.1 hb)]
  ring

/-- C114: the sum over pairs of bins is the quadratic form of all residuals one after the other if the covariance is at least as large
as the data; if it is smaller the call fails -/
theorem C114_chi2 {M : ℕ} (A : Matrix (Fin M) (Fin M) ℝ) (r : List (List ℝ)) :
    (r.flatten.length ≤ M → chi2 A r = .ok (∑ i ∈ range r.flatten.length, ∑ j ∈ range r.flatten.length,
      r.flatten.getD i 0 * entry A i j * r.flatten.getD j 0)) ∧
    (M < r.flatten.length → chi2 A r = .error .valueError) := by
  constructor
  · intro h
    unfold chi2
    rw [mapM_ok (fun m => (List.range r.length).map fun n => ∑ a ∈ range (r.getD m []).length,
      ∑ b ∈ range (r.getD n []).length, r.flatten.getD (offset (r.map List.length) m + a) 0 *
        entry A (offset (r.map List.length) m + a) (offset (r.map List.length) n + b) *
          r.flatten.getD (offset (r.map List.length) n + b) 0) _ _ fun m hm =>
            mapM_ok _ _ _ fun n hn => blockTerm_ok A r h m n (List.mem_range.1 hm) (List.mem_range.1 hn)]
    refine congrArg Except.ok ?_
    rw [List.map_map, sum_map_range, sum_flatten r]
    refine sum_congr rfl fun m _ => ?_
    simp only [Function.comp]
    rw [sum_map_range, sum_comm]
    refine sum_congr rfl fun a _ => ?_
    rw [sum_flatten r]
  · intro h
    obtain ⟨m, hm, h0, he⟩ := exists_last r (by omega)
    have he' : ∀ a b, (∃ c, blockTerm A r a b = .ok c) ∨ blockTerm A r a b = .error .valueError := by
      intro a b
      unfold blockTerm
      simp only
      split_ifs <;> simp
    have hbad : ∀ a, blockTerm A r a m = .error .valueError := by
      intro a
      unfold blockTerm
      simp only
      rw [if_neg]
      unfold sliceLen
      omega
    have hrow : ∀ a, (List.range r.length).mapM (fun n => blockTerm A r a n) = .error .valueError := fun a =>
      mapM_error _ _ _ (fun n _ => he' a n) ⟨m, List.mem_range.2 hm, hbad a⟩
    unfold chi2
    rw [mapM_error .valueError _ _ (fun a _ => Or.inr (hrow a)) ⟨m, List.mem_range.2 hm, hrow m⟩]
    rfl

theorem entry_fin {M : ℕ} (A : Matrix (Fin M) (Fin M) ℝ) (i j : Fin M) : entry A i j = A i j := by
  unfold entry
  rw [dif_pos ⟨i.2, j.2⟩]

theorem chi2_square {M : ℕ} (A : Matrix (Fin M) (Fin M) ℝ) (r : List (List ℝ)) (h : r.flatten.length = M) (v : Fin M → ℝ)
    (hv : ∀ i : Fin M, v i = r.flatten.getD i 0) : chi2 A r = .ok (v ⬝ᵥ A.mulVec v) := by
  rw [(C114_chi2 A r).1 h.le, h]
  congr 1
  rw [sum_range]
  unfold dotProduct Matrix.mulVec dotProduct
  refine sum_congr rfl fun i _ => ?_
  rw [sum_range, mul_sum]
  refine sum_congr rfl fun j _ => ?_
  rw [entry_fin, hv, hv]
  ring

/-- C114: the module with files and the one with vectors in the data block give the same number: the bins of the first joined to the
vectors of the second -/
theorem C114_both_modules {M : ℕ} (A : Matrix (Fin M) (Fin M) ℝ) (r : List (List ℝ)) (d mu : Fin M → ℝ)
    (h : r.flatten = List.ofFn fun i => d i - mu i) : chi2 A r = .ok (miniLike d mu A) := by
  refine chi2_square A r (by rw [h]; simp) (d - mu) fun i => ?_
  rw [h, List.getD_eq_getElem _ _ (by simp)]
  simp

/-- C114: for a positive definite covariance the result is not negative, and zero exactly if every residual of every bin is: the likelihood
is largest where theory and data agree, and only there -/
theorem C114_maximum (M : ℕ) (C : ℕ → ℕ → ℝ) (hC : (toMatrix M C).PosDef) (r : List (List ℝ)) (h : r.flatten.length = M) :
    ∃ A c, invert M C = .ok A ∧ chi2 A r = .ok c ∧ 0 ≤ c ∧ (c = 0 ↔ ∀ l ∈ r, ∀ x ∈ l, x = 0) ∧
      logLike c ≤ 0 ∧ (logLike c = 0 ↔ ∀ l ∈ r, ∀ x ∈ l, x = 0) := by
  have hA : (toMatrix M C)⁻¹.PosDef := hC.inv
  let v : Fin M → ℝ := fun i => r.flatten.getD i 0
  have hq := chi2_square (toMatrix M C)⁻¹ r h v fun _ => rfl
  have hdet : (toMatrix M C).det ≠ 0 := ((Matrix.isUnit_iff_isUnit_det _).1 hC.isUnit).ne_zero
  have hz : v = 0 ↔ ∀ l ∈ r, ∀ x ∈ l, x = 0 := by
    constructor
    · intro hv l hl x hx
      have hm : x ∈ r.flatten := List.mem_flatten.2 ⟨l, hl, hx⟩
      obtain ⟨i, hi, rfl⟩ := List.getElem_of_mem hm
      have := congrFun hv ⟨i, h ▸ hi⟩
      simp only [v, Pi.zero_apply] at this
      rwa [List.getD_eq_getElem _ _ hi] at this
    · intro hr
      funext i
      have hi : (i : ℕ) < r.flatten.length := h ▸ i.2
      simp only [v, Pi.zero_apply]
      rw [List.getD_eq_getElem _ _ hi]
      obtain ⟨l, hl, hx⟩ := List.mem_flatten.1 (List.getElem_mem hi)
      exact hr l hl _ hx
  have h0 : 0 ≤ v ⬝ᵥ (toMatrix M C)⁻¹.mulVec v := by
    simpa using hA.posSemidef.dotProduct_mulVec_nonneg v
  have hi : v ⬝ᵥ (toMatrix M C)⁻¹.mulVec v = 0 ↔ ∀ l ∈ r, ∀ x ∈ l, x = 0 := by
    rw [← hz]
    constructor
    · intro hv
      by_contra hne
      have := (Matrix.posDef_iff_dotProduct_mulVec.1 hA).2 hne
      simp only [star_trivial] at this
      linarith
    · intro hv
      rw [hv]; simp
  refine ⟨_, _, ?_, hq, h0, hi, ?_, ?_⟩
  · unfold invert; rw [if_neg hdet]
  · unfold logLike; norm_num; linarith
  · rw [← hi]; unfold logLike; constructor <;> intro h <;> norm_num at * <;> linarith

theorem sum_pad {N M : ℕ} (h : N ≤ M) (g : ℕ → ℝ) (hg : ∀ i, N ≤ i → g i = 0) :
    ∑ i : Fin M, g i = ∑ i : Fin N, g i := by
  rw [← sum_range, ← sum_range]
  exact (sum_subset (range_mono h) fun i _ hi => hg i (by simpa using hi)).symm

theorem getD_beyond (R : List ℝ) (i : ℕ) (h : R.length ≤ i) : R.getD i 0 = 0 := by
  rw [List.getD_eq_default _ _ h]

theorem chi2_padded {M : ℕ} (A : Matrix (Fin M) (Fin M) ℝ) (r : List (List ℝ)) (h : r.flatten.length ≤ M) :
    chi2 A r = .ok ((fun i : Fin M => r.flatten.getD i 0) ⬝ᵥ A.mulVec fun i : Fin M => r.flatten.getD i 0) := by
  rw [(C114_chi2 A r).1 h]
  congr 1
  unfold dotProduct Matrix.mulVec dotProduct
  set R := r.flatten
  have e : ∀ i : Fin M, ∑ j : Fin M, A i j * R.getD j 0 = ∑ j : Fin M, entry A i j * R.getD j 0 :=
    fun i => sum_congr rfl fun j _ => by rw [entry_fin]
  simp only [e]
  have e2 : ∀ i : ℕ, ∑ j : Fin M, entry A i j * R.getD j 0 = ∑ j ∈ range R.length, entry A i j * R.getD j 0 := by
    intro i
    rw [sum_pad h (fun j => entry A i j * R.getD j 0) fun j hj => by rw [getD_beyond R j hj, mul_zero],
      ← sum_range fun j => entry A i j * R.getD j 0]
  simp only [e2]
  rw [sum_pad h (fun i => R.getD i 0 * ∑ j ∈ range R.length, entry A i j * R.getD j 0)
    fun j hj => by rw [getD_beyond R j hj, zero_mul],
    ← sum_range fun i => R.getD i 0 * ∑ j ∈ range R.length, entry A i j * R.getD j 0]
  refine sum_congr rfl fun i _ => ?_
  rw [mul_sum]
  exact sum_congr rfl fun j _ => by ring

/-- C114: a covariance matrix with more rows than there are data is accepted.  The leading block of its inverse is used, which is the inverse
of the covariance of the data only if the rest is uncorrelated; the result is never smaller than with the covariance of the data -/
theorem C114_covariance_too_large (M : ℕ) (C : ℕ → ℕ → ℝ) (hC : (toMatrix M C).PosDef) (r : List (List ℝ))
    (h : r.flatten.length ≤ M) : ∃ A A' c c', invert M C = .ok A ∧ chi2 A r = .ok c ∧
      invert r.flatten.length C = .ok A' ∧ chi2 A' r = .ok c' ∧ c' ≤ c := by
  set R := r.flatten with hR
  set N := R.length with hN
  have hC' : (toMatrix N C).PosDef := by
    have := hC.submatrix (e := Fin.castLE h) (Fin.castLE_injective h)
    exact this
  have hd : (toMatrix M C).det ≠ 0 := ((Matrix.isUnit_iff_isUnit_det _).1 hC.isUnit).ne_zero
  have hd' : (toMatrix N C).det ≠ 0 := ((Matrix.isUnit_iff_isUnit_det _).1 hC'.isUnit).ne_zero
  refine ⟨_, _, _, _, by unfold invert; rw [if_neg hd], chi2_padded _ r h, by unfold invert; rw [if_neg hd'],
    chi2_padded _ r le_rfl, ?_⟩
  set v : Fin M → ℝ := fun i => R.getD i 0 with hv
  set v' : Fin N → ℝ := fun i => R.getD i 0 with hv'
  set w := (toMatrix M C)⁻¹.mulVec v with hw
  set w' := (toMatrix N C)⁻¹.mulVec v' with hw'
  let g : ℕ → ℝ := fun i => if hi : i < N then w' ⟨i, hi⟩ else 0
  let u : Fin M → ℝ := fun i => g i
  have hg : ∀ i, N ≤ i → g i = 0 := fun i hi => dif_neg (by omega)
  have hg' : ∀ i : Fin N, g i = w' i := fun i => dif_pos i.2
  have cw : (toMatrix M C).mulVec w = v := by
    rw [hw, Matrix.mulVec_mulVec, Matrix.mul_nonsing_inv _ (Ne.isUnit hd), Matrix.one_mulVec]
  have cw' : (toMatrix N C).mulVec w' = v' := by
    rw [hw', Matrix.mulVec_mulVec, Matrix.mul_nonsing_inv _ (Ne.isUnit hd'), Matrix.one_mulVec]
  have ht : (toMatrix M C).transpose = toMatrix M C := by
    have := hC.isHermitian
    unfold Matrix.IsHermitian at this
    rwa [Matrix.conjTranspose_eq_transpose_of_trivial] at this
  have uv : u ⬝ᵥ v = v' ⬝ᵥ w' := by
    unfold dotProduct
    rw [sum_pad h (fun i => g i * R.getD i 0) fun i hi => by rw [hg i hi, zero_mul]]
    exact sum_congr rfl fun i _ => by rw [hg', mul_comm]
  have cu : u ⬝ᵥ (toMatrix M C).mulVec u = v' ⬝ᵥ w' := by
    unfold dotProduct Matrix.mulVec dotProduct
    have e2 : ∀ i : ℕ, ∑ j : Fin M, C i j * g j = ∑ j : Fin N, C i j * g j := fun i =>
      sum_pad h (fun j => C i j * g j) fun j hj => by rw [hg j hj, mul_zero]
    have e3 : ∀ i : Fin M, ∑ j : Fin M, toMatrix M C i j * u j = ∑ j : Fin N, C i j * g j := fun i => e2 i
    simp only [e3]
    rw [sum_pad h (fun i => g i * ∑ j : Fin N, C i j * g j) fun i hi => by rw [hg i hi, zero_mul]]
    refine sum_congr rfl fun i _ => ?_
    have : ∑ j : Fin N, C i j * g j = v' i := by
      rw [← cw']
      exact sum_congr rfl fun j _ => by rw [hg']; rfl
    rw [this, hg', mul_comm]
  have cwu : w ⬝ᵥ (toMatrix M C).mulVec u = u ⬝ᵥ v := by
    rw [Matrix.dotProduct_mulVec, ← Matrix.mulVec_transpose, ht, cw, dotProduct_comm]
  have h0 : 0 ≤ (w - u) ⬝ᵥ (toMatrix M C).mulVec (w - u) := by
    simpa using hC.posSemidef.dotProduct_mulVec_nonneg (w - u)
  rw [Matrix.mulVec_sub, sub_dotProduct, dotProduct_sub, dotProduct_sub, cw, cwu, cu, uv] at h0
  have : v ⬝ᵥ w = w ⬝ᵥ v := dotProduct_comm _ _
  linarith

/-! ## The order of the files -/

instance : Std.Total fun a b : DataFile => a.name ≤ b.name := ⟨fun a b => le_total a.name b.name⟩

instance : IsTrans DataFile fun a b => a.name ≤ b.name := ⟨fun _ _ _ h g => le_trans h g⟩

theorem sortFiles_perm (l : List DataFile) : (sortFiles l).Perm l := List.perm_insertionSort _ l

theorem sortFiles_sorted (l : List DataFile) : (sortFiles l).Pairwise fun a b => a.name ≤ b.name :=
  List.pairwise_insertionSort _ l

/-- C114: the order in which `glob` lists the files does not matter -/
theorem C114_listing_order (l l' : List DataFile) (hp : l.Perm l') (hn : (l.map DataFile.name).Nodup) :
    sortFiles l = sortFiles l' := by
  have hp' : (sortFiles l).Perm (sortFiles l') := (sortFiles_perm l).trans (hp.trans (sortFiles_perm l').symm)
  refine hp'.eq_of_pairwise ?_ (sortFiles_sorted l) (sortFiles_sorted l')
  intro a b ha hb h1 h2
  have ha' : a ∈ l := (sortFiles_perm l).mem_iff.1 ha
  have hb' : b ∈ l := hp.mem_iff.2 ((sortFiles_perm l').mem_iff.1 hb)
  exact List.inj_on_of_nodup_map hn ha' hb' (le_antisymm h1 h2)

/-- files of bins 1, …, n whose names differ by the number of the bin -/
def numbered (pre suf : String) (x y : ℕ → List ℝ) (n : ℕ) : List DataFile :=
  (List.range n).map fun j => ⟨pre ++ toString (j + 1) ++ suf, x j, y j⟩

theorem cons_lt (c : Char) (a b : List Char) : c :: a < c :: b ↔ a < b := by
  constructor
  · intro h
    cases h with
    | rel h => exact absurd h (lt_irrefl c)
    | cons h => exact h
  · exact fun h => List.Lex.cons h

theorem append_lt (pre a b : List Char) : pre ++ a < pre ++ b ↔ a < b := by
  induction pre with
  | nil => rfl
  | cons c l ih => rw [List.cons_append, List.cons_append, cons_lt, ih]

theorem name_lt (pre suf : String) (c d : Char) (a b : List Char) (s t : String) (hs : s.toList = c :: a) (ht : t.toList = d :: b)
    (h : c < d) : pre ++ s ++ suf < pre ++ t ++ suf := by
  rw [String.lt_iff_toList_lt, String.toList_append, String.toList_append, String.toList_append, String.toList_append,
    List.append_assoc, List.append_assoc, append_lt, hs, ht]
  exact List.Lex.rel h

/-- C114: with up to nine files numbered in their names, the order of the names is the order of the bins -/
theorem C114_up_to_nine_files (pre suf : String) (x y : ℕ → List ℝ) (n : ℕ) (hn : n ≤ 9) (l : List DataFile)
    (hl : l.Perm (numbered pre suf x y n)) : sortFiles l = numbered pre suf x y n := by
  have hlt : ∀ i j : ℕ, i < j → j < 9 → pre ++ toString (i + 1) ++ suf < pre ++ toString (j + 1) ++ suf := by
    intro i j hij hj
    refine name_lt pre suf (Char.ofNat (49 + i)) (Char.ofNat (49 + j)) [] [] _ _ ?_ ?_ ?_
    · have : i < 9 := by omega
      clear hij
      interval_cases i <;> rfl
    · clear hij
      interval_cases j <;> rfl
    · interval_cases j <;> interval_cases i <;> decide
  have hs : (numbered pre suf x y n).Pairwise fun a b => a.name < b.name := by
    unfold numbered
    rw [List.pairwise_map]
    refine List.Pairwise.imp_of_mem ?_ (List.pairwise_lt_range (n := n))
    intro i j _ hj hij
    exact hlt i j hij (by have := List.mem_range.1 hj; omega)
  have hnd : ((numbered pre suf x y n).map DataFile.name).Nodup := by
    unfold List.Nodup
    rw [List.pairwise_map]
    exact hs.imp fun h => h.ne
  rw [C114_listing_order l _ hl ((hl.map _).nodup_iff.2 hnd)]
  exact List.Pairwise.insertionSort_eq (hs.imp fun h => h.le)

/-- C114: with ten or more files some bin gets the file of another bin, since "10" comes before "2" -/
theorem C114_ten_files (pre suf : String) (x y : ℕ → List ℝ) (n : ℕ) (hn : 10 ≤ n) (l : List DataFile)
    (hl : l.Perm (numbered pre suf x y n)) : ∃ i < n, (sortFiles l)[i]?.map DataFile.name ≠ some (pre ++ toString (i + 1) ++ suf) := by
  by_contra hc
  push Not at hc
  have hs := sortFiles_sorted l
  have hlen : (sortFiles l).length = n := by
    rw [((sortFiles_perm l).trans hl).length_eq]; simp [numbered]
  have h1 := hc 1 (by omega)
  have h9 := hc 9 (by omega)
  rw [List.getElem?_eq_getElem (by omega)] at h1 h9
  have hle := List.pairwise_iff_getElem.1 hs 1 9 (by omega) (by omega) (by omega)
  simp only [Option.map_some, Option.some.injEq] at h1 h9
  rw [h1, h9] at hle
  refine absurd hle (not_le.2 ?_)
  exact name_lt pre suf '1' '2' ['0'] [] _ _ rfl rfl (by decide)

/-! ## Theory at the data points -/

theorem interpLinear_between {n : ℕ} {x : ℕ → ℝ} (hx : Spec.SortedOn n x) (y : ℕ → ℝ) {i : ℕ} (hi : i + 1 < n) {q : ℝ}
    (h1 : x i ≤ q) (h2 : q ≤ x (i + 1)) :
    interpLinear n x y q = y i + (y (i + 1) - y i) * ((q - x i) / (x (i + 1) - x i)) := by
  rcases h1.eq_or_lt with rfl | h1
  · rw [interpLinear_node (by omega) hx y (by omega)]; simp
  · have hs : searchsorted n x q = i + 1 := searchsorted_eq (by omega)
      (fun k hk => (hx.le (by omega) (by omega) : x k ≤ x i).trans_lt h1) fun k hk hkn => h2.trans (hx.le hk hkn)
    unfold interpLinear Lib.segment
    rw [hs, show max 1 (min (i + 1) (n - 1)) = i + 1 by omega]
    simp only [Nat.add_sub_cancel]
    ring

theorem sorted_getD {x : List ℝ} (hx : x.Pairwise (· < ·)) {i j : ℕ} (hij : i < j) (hj : j < x.length) :
    x.getD i 0 < x.getD j 0 := by
  rw [List.getD_eq_getElem _ _ (by omega), List.getD_eq_getElem _ _ hj]
  exact List.pairwise_iff_getElem.1 hx i j (by omega) hj hij

theorem pos_getD {x : List ℝ} (hp : ∀ t ∈ x, 0 < t) {i : ℕ} (hi : i < x.length) : 0 < x.getD i 0 := by
  rw [List.getD_eq_getElem _ _ hi]
  exact hp _ (List.getElem_mem hi)

theorem nodes_getD {x y : List ℝ} (hl : x.length = y.length) {i : ℕ} (hi : i < x.length) :
    ((x.map Real.log).zip y).getD i (0, 0) = (Real.log (x.getD i 0), y.getD i 0) := by
  have h' : i < y.length := hl ▸ hi
  rw [List.getD_eq_getElem _ _ (by simp; omega), List.getD_eq_getElem _ _ hi, List.getD_eq_getElem _ _ h']
  simp

theorem sortNodes_sorted {x y : List ℝ} (hl : x.length = y.length) (hx : x.Pairwise (· < ·)) (hp : ∀ t ∈ x, 0 < t) :
    sortNodes ((x.map Real.log).zip y) = (x.map Real.log).zip y := by
  classical
  unfold sortNodes
  apply List.Pairwise.insertionSort_eq
  rw [List.pairwise_iff_getElem]
  intro i j hi hj hij
  simp only [List.length_zip, List.length_map] at hi hj
  simp only [List.getElem_zip, List.getElem_map]
  exact Real.log_le_log (hp _ (List.getElem_mem _)) (List.pairwise_iff_getElem.1 hx i j (by omega) (by omega) hij).le

/-- C114: the theory at the data points is the straight line in the logarithm of the separation between neighbouring points of the theory;
at a point of the theory it is its value; one data point outside the range of the theory and the call fails -/
theorem C114_interpolate (x y q : List ℝ) (hl : x.length = y.length) (hn : 2 ≤ x.length) (hx : x.Pairwise (· < ·))
    (hp : ∀ t ∈ x, 0 < t) (hq : ∀ t ∈ q, 0 < t) :
    ((∀ t ∈ q, x.getD 0 0 ≤ t ∧ t ≤ x.getD (x.length - 1) 0) → ∃ r, interpolated x y q = .ok r ∧ r.length = q.length ∧
      ∀ k < q.length, ∀ i, i + 1 < x.length → x.getD i 0 ≤ q.getD k 0 → q.getD k 0 ≤ x.getD (i + 1) 0 →
        r.getD k 0 = y.getD i 0 + (y.getD (i + 1) 0 - y.getD i 0) *
          (Real.log (q.getD k 0 / x.getD i 0) / Real.log (x.getD (i + 1) 0 / x.getD i 0))) ∧
    ((∃ t ∈ q, t < x.getD 0 0 ∨ x.getD (x.length - 1) 0 < t) → interpolated x y q = .error .valueError) := by
  have hne : ¬(x.length ≠ y.length ∨ x = []) := by
    rintro (h | h)
    · exact h hl
    · rw [h] at hn; simp at hn
  have hlen : ((x.map Real.log).zip y).length = x.length := by simp; omega
  have h0 : 0 < x.getD 0 0 := pos_getD hp (by omega)
  have hm : 0 < x.getD (x.length - 1) 0 := pos_getD hp (by omega)
  have e : interpolated x y q = q.mapM fun t => if t < x.getD 0 0 ∨ x.getD (x.length - 1) 0 < t then .error .valueError else
      .ok (interpList .extrapolate ((x.map Real.log).zip y) (Real.log t)) := by
    unfold interpolated
    rw [if_neg hne, sortNodes_sorted hl hx hp]
    simp only [hlen]
    rw [nodes_getD hl (by omega), nodes_getD hl (by omega)]
    have : ∀ l : List ℝ, (∀ t ∈ l, 0 < t) → ∀ f g : ℝ → Except PyErr ℝ, (∀ t, 0 < t → f t = g t) → l.mapM f = l.mapM g := by
      intro l hl f g hfg
      induction l with
      | nil => rfl
      | cons a l ih =>
        rw [List.mapM_cons, List.mapM_cons, hfg a (hl a (by simp)), ih fun t ht => hl t (by simp [ht])]
    refine this q hq _ _ fun t ht => ?_
    simp only [Real.log_lt_log_iff ht h0, Real.log_lt_log_iff hm ht]
  constructor
  · intro hin
    have := mapM_ok (fun t => interpList .extrapolate ((x.map Real.log).zip y) (Real.log t)) (fun t => if t < x.getD 0 0 ∨
      x.getD (x.length - 1) 0 < t then .error .valueError else
        .ok (interpList .extrapolate ((x.map Real.log).zip y) (Real.log t))) q fun t ht => by
          rw [if_neg]
          rintro (h | h)
          · exact absurd (hin t ht).1 (not_le.2 h)
          · exact absurd (hin t ht).2 (not_le.2 h)
    refine ⟨_, e.trans this, by simp, ?_⟩
    intro k hk i hi h1 h2
    have ht : 0 < q.getD k 0 := pos_getD hq hk
    have hi0 : 0 < x.getD i 0 := pos_getD hp (by omega)
    have hi1 : 0 < x.getD (i + 1) 0 := pos_getD hp (by omega)
    have hr : ∀ f : ℝ → ℝ, (q.map f).getD k 0 = f (q.getD k 0) := by
      intro f
      rw [List.getD_eq_getElem _ _ (by simpa using hk), List.getD_eq_getElem _ _ hk, List.getElem_map]
    rw [hr]
    unfold interpList interp1d
    simp only
    rw [hlen]
    have hs : Spec.SortedOn x.length fun i => (((x.map Real.log).zip y).getD i (0, 0)).1 := by
      intro a b hab hb
      simp only
      rw [nodes_getD hl (by omega), nodes_getD hl hb]
      exact Real.log_lt_log (pos_getD hp (by omega)) (sorted_getD hx hab hb)
    have e0 := nodes_getD hl (i := i) (by omega)
    have e1 := nodes_getD hl hi
    rw [interpLinear_between hs _ hi (by rw [e0]; exact Real.log_le_log hi0 h1)
      (by rw [e1]; exact Real.log_le_log ht h2)]
    rw [e0, e1, Real.log_div ht.ne' hi0.ne', Real.log_div hi1.ne' hi0.ne']
  · rintro ⟨t, ht, h⟩
    rw [e]
    refine mapM_error _ _ _ (fun a _ => ?_) ⟨t, ht, if_pos h⟩
    by_cases ha : a < x.getD 0 0 ∨ x.getD (x.length - 1) 0 < a
    · exact Or.inr (if_pos ha)
    · exact Or.inl ⟨_, if_neg ha⟩

theorem trapz_const (c : ℝ) (l : List (ℝ × ℝ)) (hc : ∀ p ∈ l, p.2 = c) (a b : ℝ) (ha : l.head?.map Prod.fst = some a)
    (hb : l.getLast?.map Prod.fst = some b) : trapz l = c * (b - a) := by
  induction l generalizing a with
  | nil => simp at ha
  | cons p l ih =>
    cases l with
    | nil =>
      simp only [List.head?_cons, Option.map_some, Option.some.injEq, List.getLast?_singleton] at ha hb
      rw [← ha, ← hb]; simp [trapz]
    | cons r l =>
      simp only [List.head?_cons, Option.map_some, Option.some.injEq] at ha
      have := ih (fun p hp => hc p (by simp [hp])) r.1 rfl (by rw [← hb]; simp [List.getLast?_cons_cons])
      rw [trapz, this, hc p (by simp), hc r (by simp), ha]
      ring

/-- C114: the mode `integrate` integrates and does not average.  A theory with the same value everywhere gives the value times the
distance between the first and the last point of the theory in the bin, and 0 if there is only one -/
theorem C114_integrate (x : List ℝ) (c lo hi a b : ℝ) (hx : x.Pairwise (· < ·))
    (ha : IsLeast {t | t ∈ x ∧ lo ≤ t ∧ t < hi} a) (hb : IsGreatest {t | t ∈ x ∧ lo ≤ t ∧ t < hi} b) :
    integrated x (List.replicate x.length c) lo hi = c * (b - a) := by
  classical
  unfold integrated
  set l := ((x.zip (List.replicate x.length c)).filter fun p => decide (lo ≤ p.1 ∧ p.1 < hi)) with hl
  have hz : x.zip (List.replicate x.length c) = x.map fun t => (t, c) := by
    apply List.ext_getElem (by simp)
    intro i h1 h2
    simp
  have hl' : l = (x.filter fun t => decide (lo ≤ t ∧ t < hi)).map fun t => (t, c) := by
    rw [hl, hz, List.filter_map]; rfl
  set m := x.filter fun t => decide (lo ≤ t ∧ t < hi) with hm
  have mem : ∀ t, t ∈ m ↔ t ∈ {t | t ∈ x ∧ lo ≤ t ∧ t < hi} := by
    intro t; rw [hm, List.mem_filter]; simp
  have hmp : m.Pairwise (· < ·) := hx.filter _
  have hne : m ≠ [] := List.ne_nil_of_mem ((mem a).2 ha.1)
  refine trapz_const c l ?_ a b ?_ ?_
  · intro p hp
    rw [hl'] at hp
    obtain ⟨t, _, rfl⟩ := List.mem_map.1 hp
    rfl
  · rw [hl', List.head?_map, List.head?_eq_some_head hne]
    simp only [Option.map_some, Option.some.injEq]
    apply le_antisymm
    · obtain ⟨i, hi, he⟩ := List.getElem_of_mem ((mem a).2 ha.1)
      rw [List.head_eq_getElem, ← he]
      rcases Nat.eq_zero_or_pos i with rfl | h
      · exact le_rfl
      · exact (List.pairwise_iff_getElem.1 hmp 0 i (by omega) hi h).le
    · exact ha.2 ((mem _).1 (List.head_mem hne))
  · rw [hl', List.getLast?_map, List.getLast?_eq_some_getLast hne]
    simp only [Option.map_some, Option.some.injEq]
    apply le_antisymm
    · exact hb.2 ((mem _).1 (List.getLast_mem hne))
    · obtain ⟨i, hi, he⟩ := List.getElem_of_mem ((mem b).2 hb.1)
      rw [List.getLast_eq_getElem, ← he]
      rcases Nat.lt_or_ge i (m.length - 1) with h | h
      · exact (List.pairwise_iff_getElem.1 hmp i (m.length - 1) hi (by omega) h).le
      · have : i = m.length - 1 := by omega
        subst this; exact le_rfl

/-- C114: the edges of the bins separate the data points: every point is strictly inside its own bin -/
theorem C114_edges (x : List ℝ) (hn : 2 ≤ x.length) (hx : x.Pairwise (· < ·)) (hp : ∀ t ∈ x, 0 < t) (i : ℕ) (hi : i < x.length) :
    (10 : ℝ) ^ logEdges x i < x.getD i 0 ∧ x.getD i 0 < (10 : ℝ) ^ logEdges x (i + 1) := by
  have hlog : ∀ a b, a < b → b < x.length → Real.logb 10 (x.getD a 0) < Real.logb 10 (x.getD b 0) := fun a b hab hb =>
    Real.logb_lt_logb (by norm_num) (pos_getD hp (by omega)) (sorted_getD hx hab hb)
  have hxi : (10 : ℝ) ^ Real.logb 10 (x.getD i 0) = x.getD i 0 :=
    Real.rpow_logb (by norm_num) (by norm_num) (pos_getD hp hi)
  have key : logEdges x i < Real.logb 10 (x.getD i 0) ∧ Real.logb 10 (x.getD i 0) < logEdges x (i + 1) := by
    unfold logEdges
    have h5 : (0.5 : ℝ) = 1 / 2 := by norm_num
    simp only [h5, Nat.add_sub_cancel, Nat.add_eq_zero_iff, one_ne_zero, and_false, if_false]
    constructor
    · by_cases h0 : i = 0
      · rw [if_pos h0, h0]
        have := hlog 0 1 (by omega) (by omega)
        linarith
      · rw [if_neg h0, if_neg (by omega)]
        have := hlog (i - 1) i (by omega) hi
        linarith
    · by_cases h1 : i + 1 = x.length
      · rw [if_pos h1, show x.length - 1 = i by omega]
        have := hlog (x.length - 2) i (by omega) hi
        linarith
      · rw [if_neg h1]
        have := hlog i (i + 1) (by omega) (by omega)
        linarith
  constructor
  · calc _ < (10 : ℝ) ^ Real.logb 10 (x.getD i 0) := Real.rpow_lt_rpow_of_exponent_lt (by norm_num) key.1
      _ = _ := hxi
  · calc _ = (10 : ℝ) ^ Real.logb 10 (x.getD i 0) := hxi.symm
      _ < _ := Real.rpow_lt_rpow_of_exponent_lt (by norm_num) key.2

/-- C114: the mode `integrate` takes the separations of the files as they are: the option `unit` has no effect -/
theorem C114_integrate_unit (unit unit' : ℝ) (name : String) (s : Section) (j : ℕ) (f : DataFile) :
    theoryBin .integrate unit name s j f = theoryBin .integrate unit' name s j f := by
  unfold theoryBin theoryPoint
  rfl

/-! ## The whole call -/

theorem theoryBins_ok (sections : List (String × Section)) (nb : Section → ℕ) (h : ∀ p ∈ sections, p.2.nbin = some (nb p.2)) :
    theoryBins sections = .ok (sections.flatMap fun p => (List.range (nb p.2)).map fun j => (p.1, p.2, j)) := by
  unfold theoryBins
  rw [mapM_ok (fun p => (nb p.2, p)) _ sections fun p hp => by rw [h p hp]; rfl]
  refine congrArg Except.ok ?_
  rw [List.flatMap_map]

theorem zip_sub_flatten (D T : List (List ℝ)) (h : D.map List.length = T.map List.length) :
    ((D.zip T).map fun p => List.zipWith (· - ·) p.1 p.2).flatten = List.zipWith (· - ·) D.flatten T.flatten := by
  induction D generalizing T with
  | nil => simp
  | cons d D ih =>
    cases T with
    | nil => simp at h
    | cons t T =>
      simp only [List.map_cons, List.cons.injEq] at h
      rw [List.zip_cons_cons, List.map_cons, List.flatten_cons, ih T h.2, List.flatten_cons, List.flatten_cons,
        List.zipWith_append h.1]

theorem getD_zipWith_sub (D T : List ℝ) (h : D.length = T.length) (i : ℕ) :
    (List.zipWith (· - ·) D T).getD i 0 = D.getD i 0 - T.getD i 0 := by
  by_cases hi : i < D.length
  · rw [List.getD_eq_getElem _ _ (by simp; omega), List.getD_eq_getElem _ _ hi, List.getD_eq_getElem _ _ (h ▸ hi)]
    simp
  · rw [getD_beyond _ _ (by simp; omega), getD_beyond _ _ (by omega), getD_beyond _ _ (by omega), sub_zero]

/-- C114: the whole call.  The sections in the order of the option, each with its bins in order, meet the files in the order of their names:
theory number `k` is taken at the points of file `k`.  The result is the quadratic form of data minus theory, all bins one after the
other, with the inverse of the covariance of the file -/
theorem C114_execute (ncols : ℕ) (hc : ncols ≠ 3) (files : List DataFile) (M : ℕ) (C : ℕ → ℕ → ℝ) (hC : (toMatrix M C).det ≠ 0)
    (mode : Mode) (unit : ℝ) (sections : List (String × Section)) (nb : Section → ℕ)
    (hs : ∀ p ∈ sections, p.2.nbin = some (nb p.2)) (bins : List (String × Section × ℕ))
    (hb : bins = sections.flatMap fun p => (List.range (nb p.2)).map fun j => (p.1, p.2, j)) (hn : bins.length = files.length)
    (T : (String × Section × ℕ) × DataFile → List ℝ)
    (hT : ∀ p ∈ bins.zip (sortFiles files), theoryBin mode unit p.1.1 p.1.2.1 p.1.2.2 p.2 = .ok (T p))
    (hl : ∀ p ∈ bins.zip (sortFiles files), (T p).length = p.2.y.length)
    (hM : ((sortFiles files).flatMap DataFile.y).length = M) (v : Fin M → ℝ)
    (hv : ∀ i : Fin M, v i = ((sortFiles files).flatMap DataFile.y).getD i 0 - ((bins.zip (sortFiles files)).flatMap T).getD i 0) :
    execute ncols files M C mode unit sections = .ok (v ⬝ᵥ (toMatrix M C)⁻¹.mulVec v) := by
  have hlen : (sortFiles files).length = files.length := (sortFiles_perm files).length_eq
  have hlen' : bins.length = (sortFiles files).length := hn.trans hlen.symm
  have e1 : ((sortFiles files).zip ((bins.zip (sortFiles files)).map T)).map (fun p => List.zipWith (· - ·) p.1.y p.2) =
      (((sortFiles files).map DataFile.y).zip ((bins.zip (sortFiles files)).map T)).map fun p =>
        List.zipWith (· - ·) p.1 p.2 := by
    rw [List.zip_map_left, List.map_map]; rfl
  have e2 : ((sortFiles files).map DataFile.y).map List.length = ((bins.zip (sortFiles files)).map T).map List.length := by
    apply List.ext_getElem (by simp; omega)
    intro i h1 h2
    simp only [List.length_map, List.length_zip] at h1 h2
    have hi : i < (bins.zip (sortFiles files)).length := by simp; omega
    have := hl _ (List.getElem_mem hi)
    simp only [List.getElem_map]
    rw [this]
    simp
  have e3 := congrArg List.sum e2
  have e4 : ((sortFiles files).flatMap DataFile.y).length = ((bins.zip (sortFiles files)).flatMap T).length := by
    rw [List.flatMap, List.flatMap, List.length_flatten, List.length_flatten]; exact e3
  have ht := theoryBins_ok sections nb hs
  rw [← hb] at ht
  unfold execute loadDatapoints invert
  rw [if_neg hc, if_neg hC, ht]
  show (if bins.length ≠ (sortFiles files).length then _ else _) = _
  rw [if_neg (by simpa using hlen'), mapM_ok T _ _ hT]
  show chi2 _ _ = _
  refine chi2_square _ _ ?_ v fun i => ?_
  · rw [e1, zip_sub_flatten _ _ e2, List.length_zipWith]
    rw [List.flatMap] at hM e4
    rw [List.flatMap] at e4
    omega
  · rw [e1, zip_sub_flatten _ _ e2, hv]
    exact (getD_zipWith_sub _ _ e4 i).symm

/-- C114: what stops the call: a third column, and a covariance without inverse, reach names that do not exist; a number of files other
than the number of bins of the theory is refused -/
theorem C114_errors (files : List DataFile) (M : ℕ) (C : ℕ → ℕ → ℝ) (mode : Mode) (unit : ℝ) (sections : List (String × Section)) :
    execute 3 files M C mode unit sections = .error .nameError ∧
    (∀ ncols, (toMatrix M C).det = 0 → execute ncols files M C mode unit sections = .error .nameError) ∧
    (∀ (ncols : ℕ) (nb : Section → ℕ), ncols ≠ 3 → (toMatrix M C).det ≠ 0 → (∀ p ∈ sections, p.2.nbin = some (nb p.2)) →
      (sections.map fun p => nb p.2).sum ≠ files.length → execute ncols files M C mode unit sections = .error .valueError) := by
  refine ⟨rfl, ?_, ?_⟩
  · intro ncols h
    unfold execute loadDatapoints invert
    rw [if_pos h]
    by_cases hc : ncols = 3
    · rw [if_pos hc]; rfl
    · rw [if_neg hc]; rfl
  · intro ncols nb hc hC hs hn
    unfold execute loadDatapoints invert
    rw [if_neg hc, if_neg hC, theoryBins_ok sections nb hs]
    show (if _ ≠ (sortFiles files).length then _ else _) = _
    rw [if_pos]
    rw [(sortFiles_perm files).length_eq, List.length_flatMap]
    simpa using hn

/-- C114: the theory of one bin: a separation of the data file is turned into Mpc by the unit for the samples `wp` and `ds`, and not for the
others, which are tabulated in mass or, without mass, in luminosity; there the theory is the straight line in the logarithm -/
theorem C114_theory (unit : ℝ) (name : String) (s : Section) (j : ℕ) (f : DataFile) (x y : List ℝ) (u : ℝ)
    (hu : (name = "wp" ∨ name = "ds") ∧ u = unit ∧ s.rp = some x ∨
      name ≠ "wp" ∧ name ≠ "ds" ∧ u = 1 ∧ (s.mass j = some x ∨ s.mass j = none ∧ s.luminosity j = some x))
    (hy : s.bin j = some y) (hl : x.length = y.length) (hn : 2 ≤ x.length) (hx : x.Pairwise (· < ·)) (hp : ∀ t ∈ x, 0 < t)
    (hq : ∀ t ∈ f.x, 0 < t * u ∧ x.getD 0 0 ≤ t * u ∧ t * u ≤ x.getD (x.length - 1) 0) :
    ∃ r, theoryBin .interpolate unit name s j f = .ok r ∧ r.length = f.x.length ∧
      ∀ k < f.x.length, ∀ i, i + 1 < x.length → x.getD i 0 ≤ f.x.getD k 0 * u → f.x.getD k 0 * u ≤ x.getD (i + 1) 0 →
        r.getD k 0 = y.getD i 0 + (y.getD (i + 1) 0 - y.getD i 0) *
          (Real.log (f.x.getD k 0 * u / x.getD i 0) / Real.log (x.getD (i + 1) 0 / x.getD i 0)) := by
  have e : theoryBin .interpolate unit name s j f = interpolated x y (f.x.map fun t => t * u) := by
    rcases hu with ⟨h1, h2, h3⟩ | ⟨h1, h2, h3, h4⟩
    · subst h2
      simp [theoryBin, h1, h3, hy, read, theoryPoint, bind, Except.bind]
    · subst h3
      rcases h4 with h4 | ⟨h4, h5⟩
      · simp [theoryBin, h1, h2, h4, hy, read, theoryPoint, bind, Except.bind]
      · simp [theoryBin, h1, h2, h4, h5, hy, read, theoryPoint, bind, Except.bind]
  obtain ⟨r, h1, h2, h3⟩ := (C114_interpolate x y (f.x.map fun t => t * u) hl hn hx hp (by
    intro t ht
    obtain ⟨a, ha, rfl⟩ := List.mem_map.1 ht
    exact (hq a ha).1)).1 (by
    intro t ht
    obtain ⟨a, ha, rfl⟩ := List.mem_map.1 ht
    exact (hq a ha).2)
  rw [List.length_map] at h2 h3
  refine ⟨r, e.trans h1, h2, fun k hk i hi ha hb => ?_⟩
  have hg : (f.x.map fun t => t * u).getD k 0 = f.x.getD k 0 * u := by
    rw [List.getD_eq_getElem _ _ (by simpa using hk), List.getD_eq_getElem _ _ hk, List.getElem_map]
  have := h3 k hk i hi (by rw [hg]; exact ha) (by rw [hg]; exact hb)
  rwa [hg] at this

/-- C114: for independent errors the likelihood is that of normally distributed data: it is the product of the normal densities of the data
points around the theory, up to a constant that does not depend on data and theory -/
theorem C114_gaussian (M : ℕ) (v : ℕ → NNReal) (hv : ∀ i < M, v i ≠ 0) (d mu : Fin M → ℝ) (r : List (List ℝ))
    (h : r.flatten = List.ofFn fun i => d i - mu i) :
    ∃ A c, invert M (fun i j => if i = j then (v i : ℝ) else 0) = .ok A ∧ chi2 A r = .ok c ∧
      (∏ i : Fin M, (√(2 * Real.pi * v i))⁻¹) * Real.exp (logLike c) =
        ∏ i : Fin M, ProbabilityTheory.gaussianPDFReal (mu i) (v i) (d i) := by
  have hD : toMatrix M (fun i j => if i = j then (v i : ℝ) else 0) = Matrix.diagonal fun i : Fin M => (v i : ℝ) := by
    ext i j
    simp [toMatrix, Matrix.diagonal_apply, Fin.ext_iff]
  have hne : ∀ i : Fin M, (v i : ℝ) ≠ 0 := fun i => by exact_mod_cast hv i i.2
  have hdet : (toMatrix M (fun i j => if i = j then (v i : ℝ) else 0)).det ≠ 0 := by
    rw [hD, Matrix.det_diagonal]
    exact prod_ne_zero_iff.2 fun i _ => hne i
  have hinv : (toMatrix M (fun i j => if i = j then (v i : ℝ) else 0))⁻¹ = Matrix.diagonal fun i : Fin M => (v i : ℝ)⁻¹ := by
    apply Matrix.inv_eq_right_inv
    rw [hD, Matrix.diagonal_mul_diagonal, ← Matrix.diagonal_one]
    congr 1
    funext i
    exact mul_inv_cancel₀ (hne i)
  refine ⟨_, _, by unfold invert; rw [if_neg hdet], chi2_square _ r (by rw [h]; simp) (d - mu) fun i => ?_, ?_⟩
  · rw [h, List.getD_eq_getElem _ _ (by simp)]
    simp
  · rw [hinv]
    simp only [ProbabilityTheory.gaussianPDFReal, prod_mul_distrib, ← Real.exp_sum]
    congr 2
    unfold logLike
    simp only [dotProduct, Matrix.mulVec_diagonal, Pi.sub_apply, mul_sum]
    refine sum_congr rfl fun i _ => ?_
    have := hne i
    field_simp
    ring

/-! ## Cases that meet the hypotheses -/

/-- unit variances, correlation 1/2 -/
noncomputable def corr (i j : ℕ) : ℝ := if i = j then 1 else 1 / 2

theorem corr_two : toMatrix 2 corr = !![1, 1 / 2; 1 / 2, 1] := by
  ext i j
  fin_cases i <;> fin_cases j <;> simp [toMatrix, corr]

theorem corr_posDef : (toMatrix 2 corr).PosDef := by
  rw [corr_two, Matrix.posDef_iff_dotProduct_mulVec]
  constructor
  · ext i j
    fin_cases i <;> fin_cases j <;> simp
  · intro v hv
    simp only [star_trivial, dotProduct, Matrix.mulVec, Fin.sum_univ_two, Matrix.of_apply, Matrix.cons_val_zero, Matrix.cons_val_one,
      Matrix.cons_val_fin_one]
    have h : v 0 ≠ 0 ∨ v 1 ≠ 0 := by
      by_contra hc
      push Not at hc
      refine hv (funext fun i => ?_)
      fin_cases i
      · exact hc.1
      · exact hc.2
    rcases h with h | h
    · have := sq_nonneg (v 0 + 2 * v 1)
      have := pow_pos (abs_pos.2 h) 2
      rw [sq_abs] at this
      nlinarith
    · have := sq_nonneg (2 * v 0 + v 1)
      have := pow_pos (abs_pos.2 h) 2
      rw [sq_abs] at this
      nlinarith

theorem corr_inv : (toMatrix 2 corr)⁻¹ = !![4 / 3, -(2 / 3); -(2 / 3), 4 / 3] := by
  apply Matrix.inv_eq_right_inv
  rw [corr_two]
  ext i j
  fin_cases i <;> fin_cases j <;> simp [Matrix.mul_apply, Fin.sum_univ_two] <;> norm_num

/-- one residual 1 and a second, correlated row of the covariance: 4/3 instead of 1 -/
example : ∃ A A', invert 2 corr = .ok A ∧ chi2 A [[1]] = .ok (4 / 3) ∧ invert 1 corr = .ok A' ∧ chi2 A' [[1]] = .ok 1 := by
  have hd : (toMatrix 2 corr).det ≠ 0 := by rw [corr_two, Matrix.det_fin_two]; norm_num
  have h1 : toMatrix 1 corr = 1 := by
    ext i j
    fin_cases i; fin_cases j; simp [toMatrix, corr]
  refine ⟨_, _, by unfold invert; rw [if_neg hd], ?_, by unfold invert; rw [if_neg (by rw [h1]; simp)], ?_⟩
  · rw [(C114_chi2 _ [[1]]).1 (by simp), corr_inv]
    simp [entry]
  · rw [(C114_chi2 _ [[1]]).1 (by simp), h1]
    simp [entry]

example : ∃ A c, invert 2 corr = .ok A ∧ chi2 A [[1], [-1]] = .ok c ∧ 0 < c := by
  obtain ⟨A, c, h1, h2, h3, h4, -⟩ := C114_maximum 2 corr corr_posDef [[1], [-1]] rfl
  refine ⟨A, c, h1, h2, lt_of_le_of_ne h3 fun h => ?_⟩
  have := h4.1 h.symm [1] (by simp) 1 (by simp)
  norm_num at this

/-- one section with one bin, data at the points of the theory -/
noncomputable def wpSection : Section where
  nbin := some 1
  rp := some [1, 2]
  mass := fun _ => none
  luminosity := fun _ => none
  bin := fun _ => some [3, 4]

def wpFile : DataFile := ⟨"wp_1.txt", [1, 2], [5, 7]⟩

theorem wp_theory : theoryBin .interpolate 1 "wp" wpSection 0 wpFile = .ok [3, 4] := by
  obtain ⟨r, h1, h2, h3⟩ := (C114_interpolate [1, 2] [3, 4] [1, 2] rfl (by simp) (by simp) (by simp) (by simp)).1 (by simp)
  have e : theoryBin .interpolate 1 "wp" wpSection 0 wpFile = interpolated [1, 2] [3, 4] [1, 2] := by
    show interpolated [1, 2] [3, 4] (wpFile.x.map fun t => t * 1) = _
    simp [wpFile]
  rw [e, h1]
  congr 1
  apply List.ext_getElem (by rw [h2]; simp)
  intro i hi hi'
  have h0 := h3 0 (by simp) 0 (by simp) (by simp) (by simp)
  have h1 := h3 1 (by simp) 0 (by simp) (by simp) (by simp)
  have hlog : Real.log 2 ≠ 0 := (Real.log_pos (by norm_num)).ne'
  simp only [List.getD_cons_zero, List.getD_cons_succ, div_one, Real.log_one, zero_div, mul_zero, add_zero, zero_add,
    div_self hlog, mul_one] at h0 h1
  simp only [List.length_cons, List.length_nil] at hi'
  rw [← List.getD_eq_getElem r 0 hi]
  interval_cases i
  · rw [h0]; rfl
  · rw [h1]; norm_num

example : execute 2 [wpFile] 2 corr .interpolate 1 [("wp", wpSection)] = .ok (28 / 3) := by
  have hd : (toMatrix 2 corr).det ≠ 0 := by rw [corr_two, Matrix.det_fin_two]; norm_num
  have := C114_execute 2 (by norm_num) [wpFile] 2 corr hd .interpolate 1 [("wp", wpSection)] (fun _ => 1) (by simp [wpSection])
    [("wp", wpSection, 0)] (by simp) rfl (fun _ => [3, 4]) (by
      intro p hp
      have : p = (("wp", wpSection, 0), wpFile) := by simpa [sortFiles] using hp
      rw [this]; exact wp_theory) (by
      intro p hp
      have : p = (("wp", wpSection, 0), wpFile) := by simpa [sortFiles] using hp
      rw [this]; rfl) rfl ![2, 3] (by
      intro i
      fin_cases i <;> simp [sortFiles, wpFile] <;> norm_num)
  rw [this, corr_inv]
  simp [dotProduct, Matrix.mulVec, Fin.sum_univ_two]
  norm_num

/-- a theory equal to 5 in a bin of the theory's points 1, 2, 4 gives 15 -/
example : integrated [1, 2, 4, 8] [5, 5, 5, 5] 1 8 = 15 := by
  refine (C114_integrate [1, 2, 4, 8] 5 1 8 1 4 (by norm_num) ?_ ?_).trans ?_
  rotate_left 2
  · norm_num
  · constructor
    · norm_num
    · rintro t ⟨ht, h1, h2⟩; exact h1
  · constructor
    · norm_num
    · rintro t ⟨ht, h1, h2⟩
      simp only [List.mem_cons, List.not_mem_nil, or_false] at ht
      rcases ht with rfl | rfl | rfl | rfl <;> norm_num at *

example : sortFiles (numbered "wp_" ".txt" (fun _ => [1, 2]) (fun _ => [3, 4]) 6).reverse =
    numbered "wp_" ".txt" (fun _ => [1, 2]) (fun _ => [3, 4]) 6 :=
  C114_up_to_nine_files _ _ _ _ 6 (by norm_num) _ (List.reverse_perm _)

example : ∃ i < 12, (sortFiles (numbered "wp_" ".txt" (fun _ => [1, 2]) (fun _ => [3, 4]) 12))[i]?.map DataFile.name ≠
    some ("wp_" ++ toString (i + 1) ++ ".txt") :=
  C114_ten_files _ _ _ _ 12 (by norm_num) _ (List.Perm.refl _)

example : (10 : ℝ) ^ logEdges [1, 10, 100] 1 < 10 := (C114_edges [1, 10, 100] (by simp) (by norm_num) (by norm_num) 1 (by simp)).1

/-- data in Mpc/h: the theory is taken at twice the separation -/
example : ∃ r, theoryBin .interpolate 2 "wp" wpSection 0 ⟨"wp_1.txt", [1 / 2, 1], [5, 7]⟩ = .ok r ∧ r.length = 2 ∧ r.getD 1 0 = 4 := by
  obtain ⟨r, h1, h2, h3⟩ := C114_theory 2 "wp" wpSection 0 ⟨"wp_1.txt", [1 / 2, 1], [5, 7]⟩ [1, 2] [3, 4] 2
    (Or.inl ⟨Or.inl rfl, rfl, rfl⟩) rfl rfl (by simp) (by simp) (by simp) (by norm_num)
  refine ⟨r, h1, h2, ?_⟩
  have := h3 1 (by simp) 0 (by simp) (by simp) (by simp)
  have hlog : Real.log 2 ≠ 0 := (Real.log_pos (by norm_num)).ne'
  simp only [List.getD_cons_zero, List.getD_cons_succ, div_one, zero_add, one_mul, div_self hlog, mul_one] at this
  rw [this]; norm_num

example : ∃ A c, invert 1 (fun i j => if i = j then (((fun _ => 4 : ℕ → NNReal) i : NNReal) : ℝ) else 0) = .ok A ∧ chi2 A [[1]] = .ok c ∧
    (√(2 * Real.pi * 4))⁻¹ * Real.exp (logLike c) = ProbabilityTheory.gaussianPDFReal 2 4 3 := by
  obtain ⟨A, c, h1, h2, h3⟩ := C114_gaussian 1 (fun _ => 4) (by simp) (fun _ => 3) (fun _ => 2) [[1]] (by norm_num)
  exact ⟨A, c, h1, h2, by simpa using h3⟩

end Verif.Likelihood

import Verif.Model.Bnl
import Mathlib.Tactic.Linarith
import Mathlib.Tactic.NormNum

/-! Property C58: envelope indices are extrema. -/

namespace Verif.Bnl

open Verif.Lib

/-! ## Turning points -/

theorem turn_pos_iff (data : ℕ → ℝ) (i : ℕ) : 0 < turn data i ↔
    data (i + 1) ≤ data i ∧ data (i + 1) ≤ data (i + 2) ∧ ¬ (data i = data (i + 1) ∧ data (i + 1) = data (i + 2)) := by
  unfold turn npSign
  constructor
  · intro h
    split_ifs at h <;> first | (exfalso; linarith) | (refine ⟨by linarith, by linarith, fun e => ?_⟩; linarith [e.1, e.2])
  · rintro ⟨h1, h2, h3⟩
    rcases h1.lt_or_eq with h1 | h1 <;> rcases h2.lt_or_eq with h2 | h2
    · rw [if_neg (by linarith), if_pos (by linarith), if_pos (by linarith)]; norm_num
    · rw [if_neg (by linarith), if_neg (by linarith), if_pos (by linarith)]; norm_num
    · rw [if_neg (by linarith), if_pos (by linarith), if_neg (by linarith), if_neg (by linarith)]; norm_num
    · exact absurd ⟨h1.symm, h2⟩ h3

theorem turn_neg_iff (data : ℕ → ℝ) (i : ℕ) : turn data i < 0 ↔
    data i ≤ data (i + 1) ∧ data (i + 2) ≤ data (i + 1) ∧ ¬ (data i = data (i + 1) ∧ data (i + 1) = data (i + 2)) := by
  unfold turn npSign
  constructor
  · intro h
    split_ifs at h <;> first | (exfalso; linarith) | (refine ⟨by linarith, by linarith, fun e => ?_⟩; linarith [e.1, e.2])
  · rintro ⟨h1, h2, h3⟩
    rcases h1.lt_or_eq with h1 | h1 <;> rcases h2.lt_or_eq with h2 | h2
    · rw [if_pos (by linarith), if_neg (by linarith), if_pos (by linarith)]; norm_num
    · rw [if_neg (by linarith), if_neg (by linarith), if_neg (by linarith), if_pos (by linarith)]; norm_num
    · rw [if_pos (by linarith), if_neg (by linarith), if_neg (by linarith)]; norm_num
    · exact absurd ⟨h1, h2.symm⟩ h3

theorem mem_localMin (n : ℕ) (data : ℕ → ℝ) (i : ℕ) : i ∈ localMin n data ↔ 1 ≤ i ∧ i + 1 < n ∧
    data i ≤ data (i - 1) ∧ data i ≤ data (i + 1) ∧ ¬ (data (i - 1) = data i ∧ data i = data (i + 1)) := by
  unfold localMin
  simp only [List.mem_map, List.mem_filter, List.mem_range, decide_eq_true_eq]
  constructor
  · rintro ⟨j, ⟨hj, ht⟩, rfl⟩
    exact ⟨by omega, by omega, (turn_pos_iff data j).1 ht⟩
  · rintro ⟨h1, h2, h3⟩
    obtain ⟨j, rfl⟩ := Nat.exists_eq_add_of_le' h1
    exact ⟨j, ⟨by omega, (turn_pos_iff data j).2 h3⟩, rfl⟩

theorem mem_localMax (n : ℕ) (data : ℕ → ℝ) (i : ℕ) : i ∈ localMax n data ↔ 1 ≤ i ∧ i + 1 < n ∧
    data (i - 1) ≤ data i ∧ data (i + 1) ≤ data i ∧ ¬ (data (i - 1) = data i ∧ data i = data (i + 1)) := by
  unfold localMax
  simp only [List.mem_map, List.mem_filter, List.mem_range, decide_eq_true_eq]
  constructor
  · rintro ⟨j, ⟨hj, ht⟩, rfl⟩
    exact ⟨by omega, by omega, (turn_neg_iff data j).1 ht⟩
  · rintro ⟨h1, h2, h3⟩
    obtain ⟨j, rfl⟩ := Nat.exists_eq_add_of_le' h1
    exact ⟨j, ⟨by omega, (turn_neg_iff data j).2 h3⟩, rfl⟩

theorem localMin_sorted (n : ℕ) (data : ℕ → ℝ) : (localMin n data).Pairwise (· < ·) := by
  unfold localMin
  rw [List.pairwise_map]
  exact (List.pairwise_lt_range.filter _).imp fun h => by omega

theorem localMax_sorted (n : ℕ) (data : ℕ → ℝ) : (localMax n data).Pairwise (· < ·) := by
  unfold localMax
  rw [List.pairwise_map]
  exact (List.pairwise_lt_range.filter _).imp fun h => by omega

/-! ## First smallest entry of a chunk -/

theorem argminFrom_spec (data : ℕ → ℝ) (whole l : List ℕ) (best bi pos : ℕ) (hb : whole[best]? = some bi)
    (hl : whole.drop pos = l) (hmin : ∀ j v, j < pos → whole[j]? = some v → data bi ≤ data v) (hbp : best < pos) :
    ∃ v, whole[argminFrom data best bi pos l]? = some v ∧ ∀ w ∈ whole, data v ≤ data w := by
  induction l generalizing best bi pos with
  | nil =>
    refine ⟨bi, by simpa [argminFrom] using hb, fun w hw => ?_⟩
    obtain ⟨j, hj, rfl⟩ := List.getElem_of_mem hw
    exact hmin j _ (by have := List.drop_eq_nil_iff.1 hl; omega) (List.getElem?_eq_getElem hj)
  | cons i l ih =>
    have hi : whole[pos]? = some i := by
      have := congrArg (·[0]?) hl
      simpa using this
    have hl' : whole.drop (pos + 1) = l := by
      rw [← List.drop_drop, hl]; rfl
    have hjcase : ∀ j v, j < pos + 1 → whole[j]? = some v → j < pos ∨ v = i := by
      intro j v hj hv
      rcases Nat.lt_succ_iff_lt_or_eq.1 hj with h | h
      · exact Or.inl h
      · subst h; rw [hi] at hv; injection hv with hv; exact Or.inr hv.symm
    unfold argminFrom
    split_ifs with h
    · refine ih pos i (pos + 1) hi hl' (fun j v hj hv => ?_) (by omega)
      rcases hjcase j v hj hv with h1 | h1
      · linarith [hmin j v h1 hv]
      · rw [h1]
    · refine ih best bi (pos + 1) hb hl' (fun j v hj hv => ?_) (by omega)
      rcases hjcase j v hj hv with h1 | h1
      · exact hmin j v h1 hv
      · rw [h1]; exact not_lt.1 h

theorem npArgmin_spec (data : ℕ → ℝ) (l : List ℕ) (hl : l ≠ []) :
    ∃ v, l[npArgmin data l]? = some v ∧ ∀ w ∈ l, data v ≤ data w := by
  obtain ⟨i, l', rfl⟩ := List.exists_cons_of_ne_nil hl
  refine argminFrom_spec data (i :: l') l' 0 i 1 rfl rfl (fun j v hj hv => ?_) (by norm_num)
  have : j = 0 := by omega
  subst this
  simp only [List.getElem?_cons_zero, Option.some.injEq] at hv
  rw [hv]

theorem npArgmax_spec (data : ℕ → ℝ) (l : List ℕ) (hl : l ≠ []) :
    ∃ v, l[npArgmax data l]? = some v ∧ ∀ w ∈ l, data w ≤ data v := by
  obtain ⟨v, h1, h2⟩ := npArgmin_spec (fun i => -data i) l hl
  exact ⟨v, h1, fun w hw => by linarith [h2 w hw]⟩

theorem gather_ok (l : List ℕ) (pos : List ℕ) (f : ℕ → ℕ) (h : ∀ i ∈ pos, l[i]? = some (f i)) :
    gather l pos = .ok (pos.map f) := by
  unfold gather
  induction pos with
  | nil => rfl
  | cons i pos ih =>
    rw [List.mapM_cons, ih fun j hj => h j (by simp [hj])]
    simp only [h i (by simp)]
    rfl

/-- the selection from chunks of size `d`: one index per chunk, picked by `arg` -/
theorem chunk_select (arg : List ℕ → ℕ) (R : ℕ → ℕ → Prop)
    (harg : ∀ l, l ≠ [] → ∃ v, l[arg l]? = some v ∧ ∀ w ∈ l, R v w) (d : ℕ) (hd : d ≠ 0) (l : List ℕ) :
    ∃ pos sel, chunkPositions arg d l = .ok pos ∧ gather l pos = .ok sel ∧
      sel.length = (l.length + d - 1) / d ∧
      ∀ c < sel.length, ∃ v, sel[c]? = some v ∧ v ∈ (l.drop (c * d)).take d ∧ ∀ w ∈ (l.drop (c * d)).take d, R v w := by
  have hchunk : ∀ c, c < (l.length + d - 1) / d → (l.drop (c * d)).take d ≠ [] := by
    intro c hc h
    have hlen := congrArg List.length h
    simp only [List.length_take, List.length_drop, List.length_nil] at hlen
    have h1 : (c + 1) * d ≤ l.length + d - 1 := by
      have := (Nat.le_div_iff_mul_le (Nat.pos_of_ne_zero hd)).1 (Nat.succ_le_of_lt hc)
      exact this
    rw [Nat.add_mul] at h1
    omega
  have hget : ∀ c, c < (l.length + d - 1) / d → ∃ v, l[c * d + arg ((l.drop (c * d)).take d)]? = some v ∧
      v ∈ (l.drop (c * d)).take d ∧ ∀ w ∈ (l.drop (c * d)).take d, R v w := by
    intro c hc
    obtain ⟨v, hv, hR⟩ := harg _ (hchunk c hc)
    refine ⟨v, ?_, List.mem_of_getElem? hv, hR⟩
    have hlt : arg ((l.drop (c * d)).take d) < d := by
      have := (List.getElem?_eq_some_iff.1 hv).1
      simp only [List.length_take, lt_min_iff] at this
      exact this.1
    rw [List.getElem?_take_of_lt hlt, List.getElem?_drop] at hv
    exact hv
  set pos := (List.range ((l.length + d - 1) / d)).map fun c => c * d + arg ((l.drop (c * d)).take d) with hpos
  have hg := gather_ok l pos (fun i => (l[i]?).getD 0) fun i hi => by
    rw [hpos, List.mem_map] at hi
    obtain ⟨c, hc, rfl⟩ := hi
    obtain ⟨v, hv, -⟩ := hget c (List.mem_range.1 hc)
    rw [hv]; rfl
  refine ⟨pos, _, by simp [chunkPositions, hd, hpos], hg, by simp [hpos], fun c hc => ?_⟩
  have hc' : c < (l.length + d - 1) / d := by simpa [hpos] using hc
  obtain ⟨v, hv, hm, hR⟩ := hget c hc'
  refine ⟨v, ?_, hm, hR⟩
  simp [hpos, hc', hv]

/-! ## C58 -/

/-- C58: with the default chunk size every index returned as low envelope is an interior point not above its
neighbours (and not part of a flat stretch of three), every such point is returned, once and in order; the same
for the high envelope with maxima. -/
theorem C58_extrema (n : ℕ) (data : ℕ → ℝ) : ∃ lo hi, hlEnvelopesIdx n data = .ok (lo, hi) ∧
    lo.Pairwise (· < ·) ∧ hi.Pairwise (· < ·) ∧
    (∀ i, i ∈ lo ↔ 1 ≤ i ∧ i + 1 < n ∧ data i ≤ data (i - 1) ∧ data i ≤ data (i + 1) ∧
      ¬ (data (i - 1) = data i ∧ data i = data (i + 1))) ∧
    (∀ i, i ∈ hi ↔ 1 ≤ i ∧ i + 1 < n ∧ data (i - 1) ≤ data i ∧ data (i + 1) ≤ data i ∧
      ¬ (data (i - 1) = data i ∧ data i = data (i + 1))) := by
  have one : ∀ (arg : List ℕ → ℕ) (l : List ℕ), (∀ x, arg [x] = 0) →
      ∃ pos, chunkPositions arg 1 l = .ok pos ∧ gather l pos = .ok l := by
    intro arg l ha
    have hp : chunkPositions arg 1 l = .ok (List.range l.length) := by
      simp only [chunkPositions, one_ne_zero, if_false, Nat.add_sub_cancel, Nat.div_one, mul_one, Except.ok.injEq]
      conv_rhs => rw [← List.map_id (List.range l.length)]
      apply List.map_congr_left
      intro c hc
      have hc := List.mem_range.1 hc
      have : (l.drop c).take 1 = [l[c]] := by
        rw [List.drop_eq_getElem_cons hc]; rfl
      rw [this, ha]; rfl
    refine ⟨_, hp, ?_⟩
    rw [gather_ok l _ (fun i => (l[i]?).getD 0) fun i hi => by
      rw [List.getElem?_eq_getElem (List.mem_range.1 hi)]; rfl]
    congr 1
    apply List.ext_getElem (by simp)
    intro i h1 h2
    simp [h2]
  obtain ⟨p, hp, hp'⟩ := one (npArgmin data) (localMin n data) fun _ => rfl
  obtain ⟨q, hq, hq'⟩ := one (npArgmax data) (localMax n data) fun _ => rfl
  refine ⟨localMin n data, localMax n data, ?_, localMin_sorted n data, localMax_sorted n data, mem_localMin n data,
    mem_localMax n data⟩
  simp only [hlEnvelopesIdx, hp, hp', hq, hq', bind, Except.bind]
  rfl

/-- C58: with chunks of `dmin` and `dmax` extrema the function returns one index per chunk: an extremum of the
chunk that is the smallest (largest) of its chunk. -/
theorem C58_chunks (n : ℕ) (data : ℕ → ℝ) (dmin dmax : ℕ) (h1 : dmin ≠ 0) (h2 : dmax ≠ 0) :
    ∃ lo hi, hlEnvelopesIdx n data dmin dmax = .ok (lo, hi) ∧
      lo.length = ((localMin n data).length + dmin - 1) / dmin ∧
      hi.length = ((localMax n data).length + dmax - 1) / dmax ∧
      (∀ c < lo.length, ∃ v, lo[c]? = some v ∧ v ∈ ((localMin n data).drop (c * dmin)).take dmin ∧
        ∀ w ∈ ((localMin n data).drop (c * dmin)).take dmin, data v ≤ data w) ∧
      (∀ c < hi.length, ∃ v, hi[c]? = some v ∧ v ∈ ((localMax n data).drop (c * dmax)).take dmax ∧
        ∀ w ∈ ((localMax n data).drop (c * dmax)).take dmax, data w ≤ data v) := by
  obtain ⟨p, lo, a1, a2, a3, a4⟩ := chunk_select (npArgmin data) (fun v w => data v ≤ data w) (npArgmin_spec data)
    dmin h1 (localMin n data)
  obtain ⟨q, hi, b1, b2, b3, b4⟩ := chunk_select (npArgmax data) (fun v w => data w ≤ data v) (npArgmax_spec data)
    dmax h2 (localMax n data)
  refine ⟨lo, hi, ?_, a3, b3, a4, b4⟩
  simp only [hlEnvelopesIdx, a1, a2, b1, b2, bind, Except.bind]
  rfl

/-- C58: a monotone signal has no envelope at all. -/
theorem C58_monotone_empty (n : ℕ) (data : ℕ → ℝ) (h : ∀ i, i + 1 < n → data i < data (i + 1)) :
    hlEnvelopesIdx n data = .ok ([], []) := by
  obtain ⟨lo, hi, h1, -, -, h2, h3⟩ := C58_extrema n data
  rw [h1]
  have e1 : lo = [] := List.eq_nil_iff_forall_not_mem.2 fun i hi => by
    obtain ⟨a, b, c, -, -⟩ := (h2 i).1 hi
    have := h (i - 1) (by omega)
    rw [Nat.sub_add_cancel a] at this
    linarith
  have e2 : hi = [] := List.eq_nil_iff_forall_not_mem.2 fun i hi' => by
    obtain ⟨a, b, -, c, -⟩ := (h3 i).1 hi'
    linarith [h i b]
  rw [e1, e2]

/-- a zig-zag: every interior point is an extremum -/
example : ∃ lo hi, hlEnvelopesIdx 5 (fun i => if i % 2 = 0 then (0 : ℝ) else 1) = .ok (lo, hi) ∧ 2 ∈ lo ∧ 1 ∈ hi ∧
    3 ∈ hi ∧ 2 ∉ hi := by
  obtain ⟨lo, hi, h1, -, -, h2, h3⟩ := C58_extrema 5 (fun i => if i % 2 = 0 then (0 : ℝ) else 1)
  refine ⟨lo, hi, h1, (h2 2).2 ?_, (h3 1).2 ?_, (h3 3).2 ?_, fun h => ?_⟩
  · norm_num
  · norm_num
  · norm_num
  · have := (h3 2).1 h
    norm_num at this

end Verif.Bnl

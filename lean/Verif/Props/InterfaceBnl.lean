import Verif.Model.Interface
import Mathlib.Tactic.Linarith
import Mathlib.Tactic.Ring

/-! # Schedule of the non-linear bias in the CosmoSIS module (C66) -/

namespace Verif.Interface

open Verif.Lib

variable {V : Type}

theorem bnlRun_append (c : BnlCache V) (l l' : List (Except PyErr V)) :
    bnlRun c (l ++ l') = bnlRun (bnlRun c l) l' := by
  unfold bnlRun; rw [List.foldl_append]

theorem bnlCall_update (c : BnlCache V) (x : Except PyErr V) : (bnlCall c x).1.update = c.update := by
  unfold bnlCall
  split_ifs
  · rfl
  · cases x <;> rfl
  · rfl

theorem bnlRun_update (c : BnlCache V) (l : List (Except PyErr V)) : (bnlRun c l).update = c.update := by
  induction l generalizing c with
  | nil => rfl
  | cons x l ih => show (bnlRun (bnlCall c x).1 l).update = _; rw [ih, bnlCall_update]

/-- the cache after `n` calls whose computations all succeed -/
theorem bnlRun_range (u : ℤ) (hu : u ≠ 0) (f : ℕ → V) (n : ℕ) :
    bnlRun ⟨0, none, u⟩ ((List.range n).map fun i => .ok (f i)) =
      ⟨n, if n = 0 then none else some (f (u.natAbs * ((n - 1) / u.natAbs))), u⟩ := by
  have hpos : 0 < u.natAbs := Int.natAbs_pos.mpr hu
  induction n with
  | zero => rfl
  | succ n ih =>
    rw [List.range_succ, List.map_append, bnlRun_append, ih]
    show (bnlCall _ (.ok (f n))).1 = _
    unfold bnlCall
    rw [if_neg hu]
    have hiff : ((n : ℤ) % u = 0) ↔ u.natAbs ∣ n := by
      rw [← Int.dvd_iff_emod_eq_zero, ← Int.natAbs_dvd_natAbs, Int.natAbs_natCast]
    by_cases hd : u.natAbs ∣ n
    · rw [if_pos (hiff.mpr hd)]
      simp only [Nat.add_sub_cancel, Nat.succ_ne_zero, if_false]
      rw [Nat.mul_div_cancel' hd]
    · rw [if_neg (fun h => hd (hiff.mp h))]
      have hn0 : n ≠ 0 := fun h => hd (h ▸ dvd_zero _)
      simp only [hn0, if_false, Nat.succ_ne_zero, Nat.add_sub_cancel]
      congr 3
      obtain ⟨m, rfl⟩ := Nat.exists_eq_succ_of_ne_zero hn0
      rw [Nat.succ_sub_one, Nat.succ_div_of_not_dvd (by simpa using hd)]

/-- C66: call `n` (counted from 0) uses the table computed in call `u * (n / u)`, `u` the absolute value of
`update_bnl`; in particular the first call computes one. -/
theorem C66_schedule (u : ℤ) (hu : u ≠ 0) (f : ℕ → V) (n : ℕ) :
    (bnlCall (bnlRun ⟨0, none, u⟩ ((List.range n).map fun i => .ok (f i))) (.ok (f n))).2 =
      .ok (some (f (u.natAbs * (n / u.natAbs)))) := by
  have h := bnlRun_range u hu f n
  have h' := bnlRun_range u hu f (n + 1)
  rw [List.range_succ, List.map_append, bnlRun_append] at h'
  rw [h] at h' ⊢
  have h'' : (bnlCall (⟨n, if n = 0 then none else some (f (u.natAbs * ((n - 1) / u.natAbs))), u⟩ : BnlCache V)
    (.ok (f n))).1.value = some (f (u.natAbs * (n / u.natAbs))) := by
    have := congrArg BnlCache.value h'
    simpa [bnlRun] using this
  revert h''
  unfold bnlCall
  rw [if_neg hu]
  split_ifs <;> simp_all

/-- C66: the age of the table is less than `u` calls, and it is never recomputed in between. -/
theorem C66_age (u : ℤ) (hu : u ≠ 0) (n : ℕ) :
    u.natAbs * (n / u.natAbs) ≤ n ∧ n - u.natAbs * (n / u.natAbs) < u.natAbs := by
  have hpos : 0 < u.natAbs := Int.natAbs_pos.mpr hu
  have h1 := Nat.div_add_mod n u.natAbs
  have h2 := Nat.mod_lt n hpos
  omega

/-- C66: with `update_bnl = 0` every call fails with ZeroDivisionError. -/
theorem C66_zero_interval (l : List (Except PyErr V)) (x : Except PyErr V) :
    (bnlCall (bnlRun ⟨0, none, 0⟩ l) x).2 = .error .zeroDivision := by
  have h := bnlRun_update (⟨0, none, 0⟩ : BnlCache V) l
  unfold bnlCall
  rw [if_pos h]

/-- what is in the cache: a table computed in some earlier call, and one exists after the first success -/
theorem bnlRun_value (u : ℤ) (l : List (Except PyErr V)) :
    (∀ v, (bnlRun ⟨0, none, u⟩ l).value = some v → Except.ok v ∈ l) ∧
    ((bnlRun ⟨0, none, u⟩ l).value = none → (bnlRun ⟨0, none, u⟩ l).numCalls = 0) := by
  induction l using List.reverseRecOn with
  | nil => exact ⟨fun v h => by simp [bnlRun] at h, fun _ => rfl⟩
  | append_singleton l x ih =>
    rw [bnlRun_append]
    show (∀ v, (bnlCall (bnlRun ⟨0, none, u⟩ l) x).1.value = some v → _) ∧
      ((bnlCall (bnlRun ⟨0, none, u⟩ l) x).1.value = none → (bnlCall (bnlRun ⟨0, none, u⟩ l) x).1.numCalls = 0)
    generalize hc : bnlRun ⟨0, none, u⟩ l = c at ih
    have hkeep : ∀ v, c.value = some v → Except.ok v ∈ l ++ [x] := fun v h => List.mem_append_left _ (ih.1 v h)
    unfold bnlCall
    split_ifs with h0 h1
    · exact ⟨hkeep, ih.2⟩
    · cases x with
      | error e => exact ⟨hkeep, ih.2⟩
      | ok w =>
        refine ⟨fun v h => ?_, fun h => by simp at h⟩
        simp only [Option.some.injEq] at h
        subst h; simp
    · refine ⟨hkeep, fun h => ?_⟩
      have := ih.2 h
      rw [this] at h1
      simp at h1

/-- C66: whatever fails, a call that gets past this point has a real table, computed by one of the calls so far. -/
theorem C66_never_none (u : ℤ) (l : List (Except PyErr V)) (x : Except PyErr V) (r : Option V)
    (h : (bnlCall (bnlRun ⟨0, none, u⟩ l) x).2 = .ok r) : ∃ v, r = some v ∧ Except.ok v ∈ l ++ [x] := by
  have hv := bnlRun_value u l
  generalize bnlRun ⟨0, none, u⟩ l = c at h hv
  unfold bnlCall at h
  split_ifs at h with h0 h1
  · cases x with
    | error e => simp at h
    | ok w => exact ⟨w, by simpa using h.symm, by simp⟩
  · simp only [Except.ok.injEq] at h
    cases hr : c.value with
    | none => rw [hv.2 hr] at h1; simp at h1
    | some v => exact ⟨v, by rw [← h, hr], List.mem_append_left _ (hv.1 v hr)⟩

/-- C66: a call that fails here leaves no trace, so the next call tries again. -/
theorem C66_failure_no_trace (c : BnlCache V) (l l' : List (Except PyErr V)) (x : Except PyErr V) (e : PyErr)
    (h : (bnlCall (bnlRun c l) x).2 = .error e) : bnlRun c (l ++ x :: l') = bnlRun c (l ++ l') := by
  have hx : (bnlCall (bnlRun c l) x).1 = bnlRun c l := by
    revert h
    unfold bnlCall
    split_ifs
    · simp
    · cases x <;> simp
    · simp
  rw [bnlRun_append, bnlRun_append]
  show bnlRun (bnlCall (bnlRun c l) x).1 l' = _
  rw [hx]

/-- update every third call, call 7 uses the table of call 6 -/
example : (bnlCall (bnlRun ⟨0, none, 3⟩ ((List.range 7).map fun i => .ok (10 * i))) (.ok 70)).2 =
    .ok (some 60) := C66_schedule 3 (by norm_num) (fun i => 10 * i) 7

/-- the first computation fails, the second call computes again -/
example : (bnlCall (bnlRun ⟨0, none, 3⟩ [.error .valueError]) (.ok 5)).2 = .ok (some 5) := rfl

end Verif.Interface

import Verif.Spec.Cache
import Mathlib.Tactic.NormNum
import Mathlib.Data.Real.Basic

/-! Property C24 and the general law behind C25, C62, C74: caching. -/

namespace Verif.Cache

variable {P V : Type} [DecidableEq P] {c : Cls P V}

theorem denProg_agree {σ σ' : P → V} {n : ℕ} {ev ev' : Fin n → V × Finset P} (pr : Prog P V n)
    (hσ : ∀ p ∈ (denProg σ ev pr).2, σ p = σ' p)
    (hev : ∀ q, (∀ p ∈ (ev q).2, σ p = σ' p) → ev q = ev' q) :
    denProg σ ev pr = denProg σ' ev' pr := by
  induction pr with
  | ret v => rfl
  | param p k ih =>
    simp only [denProg] at hσ ⊢
    have h1 : σ p = σ' p := hσ p (Finset.mem_insert_self ..)
    rw [ih (σ p) (fun x hx => hσ x (Finset.mem_insert_of_mem hx)), h1]
  | quant q k ih =>
    simp only [denProg] at hσ ⊢
    have h1 : ev q = ev' q := hev q fun p hp => hσ p (Finset.mem_union_left _ hp)
    rw [ih (ev q).1 (fun x hx => hσ x (Finset.mem_union_right _ hx)), h1]

/-- parameters that agree on what the evaluation looks at give the same evaluation -/
theorem den_agree {σ σ' : P → V} (q : ℕ) (h : ∀ p ∈ (den c σ q).2, σ p = σ' p) :
    den c σ q = den c σ' q := by
  induction q using Nat.strong_induction_on with
  | _ q ih =>
    rw [den] at h ⊢
    rw [den]
    exact denProg_agree _ h fun i hi => ih i i.2 hi

/-- the invariant: stored indexes are right, and unflagged stored values are what a fresh evaluation gives -/
def Inv (c : Cls P V) (S : Set ℕ) (o : Obj P V) : Prop :=
  ∀ q ∈ S, ∀ D, o.index q = some D → D = (den c o.params q).2 ∧
    (o.flagged q = false → o.memo q = (den c o.params q).1)

theorem runProg_inv {S : Set ℕ} {σ : P → V} {n : ℕ} (ev : Fin n → Obj P V → V × Finset P × Obj P V)
    (hev : ∀ i o, o.params = σ → Inv c S o → (ev i o).2.2.params = σ ∧ Inv c S (ev i o).2.2)
    (pr : Prog P V n) (o : Obj P V) (ho : o.params = σ) (hi : Inv c S o) :
    (runProg ev pr o).2.2.params = σ ∧ Inv c S (runProg ev pr o).2.2 := by
  induction pr generalizing o with
  | ret v => exact ⟨ho, hi⟩
  | param p k ih => exact ih _ o ho hi
  | quant q k ih =>
    obtain ⟨h1, h2⟩ := hev q o ho hi
    exact ih _ _ h1 h2

theorem runProg_den {S : Set ℕ} {σ : P → V} {n : ℕ} (ev : Fin n → Obj P V → V × Finset P × Obj P V)
    (hev : ∀ i o, o.params = σ → Inv c S o → (ev i o).2.2.params = σ ∧ Inv c S (ev i o).2.2)
    (hS : ∀ (i : Fin n) o, (i : ℕ) ∈ S → o.params = σ → Inv c S o →
      ((ev i o).1, (ev i o).2.1) = den c σ i)
    (pr : Prog P V n) (hr : ReadsOnly S pr) (o : Obj P V) (ho : o.params = σ) (hi : Inv c S o) :
    ((runProg ev pr o).1, (runProg ev pr o).2.1) = denProg σ (fun i => den c σ i) pr := by
  induction pr generalizing o with
  | ret v => rfl
  | param p k ih =>
    have := ih (σ p) (hr _) o ho hi
    simp only [runProg, denProg, ho]
    rw [← this]
  | quant q k ih =>
    obtain ⟨hq, hr⟩ := hr
    obtain ⟨h1, h2⟩ := hev q o ho hi
    have e := hS q o hq ho hi
    have := ih (ev q o).1 (hr _) _ h1 h2
    simp only [runProg, denProg]
    rw [← e]
    simp only
    rw [← this]

theorem readQ_inv {S : Set ℕ} (hc : Closed c S) (q : ℕ) (o : Obj P V) (hi : Inv c S o) :
    ((readQ c q o).2.2.params = o.params ∧ Inv c S (readQ c q o).2.2) ∧
      (q ∈ S → ((readQ c q o).1, (readQ c q o).2.1) = den c o.params q) := by
  induction q using Nat.strong_induction_on generalizing o with
  | _ q ih =>
    have hev : ∀ (i : Fin q) (o' : Obj P V), o'.params = o.params → Inv c S o' →
        (readQ c i o').2.2.params = o.params ∧ Inv c S (readQ c i o').2.2 := by
      intro i o' ho' hi'
      have := (ih i i.2 o' hi').1
      rw [ho'] at this
      exact this
    have hS : ∀ (i : Fin q) (o' : Obj P V), (i : ℕ) ∈ S → o'.params = o.params → Inv c S o' →
        ((readQ c i o').1, (readQ c i o').2.1) = den c o.params i := by
      intro i o' hm ho' hi'
      have := (ih i i.2 o' hi').2 hm
      rw [ho'] at this
      exact this
    have hrun := runProg_inv (c := c) (S := S) (fun i o => readQ c i o) hev (c.code q) o rfl hi
    have hden : q ∈ S → ((runProg (fun (i : Fin q) o => readQ c i o) (c.code q) o).1,
        (runProg (fun (i : Fin q) o => readQ c i o) (c.code q) o).2.1) = den c o.params q := by
      intro hq
      rw [den]
      exact runProg_den (c := c) (S := S) (fun i o => readQ c i o) hev hS (c.code q) (hc.reads q hq) o rfl hi
    generalize hR : runProg (fun (i : Fin q) o => readQ c i o) (c.code q) o = r at hrun hden
    rw [readQ, hR]
    cases hk : c.kind q with
    | frozen =>
      have hqS : q ∉ S := fun h => by rw [hc.tracked q h] at hk; cases hk
      refine ⟨?_, fun h => absurd h hqS⟩
      simp only
      split_ifs
      · exact ⟨rfl, hi⟩
      · refine ⟨hrun.1, fun q' hq' D hD => ?_⟩
        have hne : q' ≠ q := fun h => hqS (h ▸ hq')
        simp only [Function.update_of_ne hne]
        exact hrun.2 q' hq' D hD
    | tracked =>
      simp only
      cases hx : o.index q with
      | none =>
        simp only
        refine ⟨⟨hrun.1, fun q' hq' D hD => ?_⟩, hden⟩
        by_cases hne : q' = q
        · subst hne
          simp only [Function.update_self] at hD ⊢
          have hd := hden hq'
          rw [hrun.1, ← hd]
          injection hD with hD
          exact ⟨hD.symm, fun _ => rfl⟩
        · simp only [Function.update_of_ne hne] at hD ⊢
          exact hrun.2 q' hq' D hD
      | some D0 =>
        simp only
        split_ifs with hf
        · refine ⟨⟨hrun.1, fun q' hq' D hD => ?_⟩, fun hq => ?_⟩
          · by_cases hne : q' = q
            · subst hne
              have hd := hden hq'
              have := (hrun.2 q' hq' D hD).1
              simp only [Function.update_self]
              refine ⟨this, fun _ => ?_⟩
              rw [hrun.1, ← hd]
            · simp only [Function.update_of_ne hne] at hD ⊢
              exact hrun.2 q' hq' D hD
          · have hd := hden hq
            have hD := (hi q hq D0 hx).1
            rw [hD, ← hd]
            simp
        · refine ⟨⟨rfl, hi⟩, fun hq => ?_⟩
          have := hi q hq D0 hx
          rw [this.1, this.2 (by simpa using hf)]

theorem setP_inv {S : Set ℕ} (hd : SwitchDisciplined c S) (p : P) (v : V) (o : Obj P V) (hi : Inv c S o) :
    Inv c S (setP c p v o) := by
  unfold setP
  split_ifs with h1 h2
  · exact hi
  · -- switch
    intro q hq D hD
    simp only at hD ⊢
    cases hx : o.index q with
    | none => rw [hx] at hD; cases hD
    | some D0 =>
      rw [hx] at hD
      simp only at hD
      split_ifs at hD with hp
      injection hD with hD
      subst hD
      obtain ⟨e1, e2⟩ := hi q hq D0 hx
      have : den c o.params q = den c (Function.update o.params p v) q :=
        den_agree q fun x hx' => by
          rw [← e1] at hx'
          exact (Function.update_of_ne (fun h : x = p => hp (h ▸ hx')) ..).symm
      rw [← this]
      exact ⟨e1, e2⟩
  · intro q hq D hD
    simp only at hD ⊢
    obtain ⟨e1, e2⟩ := hi q hq D hD
    rw [hD]
    simp only
    by_cases hp : p ∈ D
    · refine ⟨?_, fun h => by simp [hp] at h⟩
      rw [e1]
      refine hd q hq _ _ fun x hx => (Function.update_of_ne (fun h => ?_) ..).symm
      subst h
      exact h2 hx
    · have : den c o.params q = den c (Function.update o.params p v) q :=
        den_agree q fun x hx' => by
          rw [← e1] at hx'
          exact (Function.update_of_ne (fun h : x = p => hp (h ▸ hx')) ..).symm
      rw [← this, if_neg hp]
      exact ⟨e1, e2⟩

theorem setP_params (p : P) (v : V) (o : Obj P V) :
    (setP c p v o).params = Function.update o.params p v := by
  unfold setP
  split_ifs with h1
  · rw [h1, Function.update_eq_self]
  · rfl
  · rfl

theorem run_inv {S : Set ℕ} (hc : Closed c S) (hd : SwitchDisciplined c S) (h : List (Op P V))
    (o : Obj P V) (hi : Inv c S o) :
    Inv c S (run c o h) ∧ (run c o h).params = finalParams o.params h := by
  induction h generalizing o with
  | nil => exact ⟨hi, rfl⟩
  | cons a h ih =>
    have e : run c o (a :: h) = run c (step c o a) h := rfl
    rw [e]
    cases a with
    | read q =>
      obtain ⟨⟨h1, h2⟩, -⟩ := readQ_inv hc q o hi
      have := ih (readQ c q o).2.2 h2
      rw [h1] at this
      exact this
    | set p v =>
      have := ih (setP c p v o) (setP_inv hd p v o hi)
      rw [setP_params] at this
      exact this

theorem new_inv [Inhabited V] (S : Set ℕ) (σ : P → V) : Inv c S (newObj σ) :=
  fun _ _ _ h => by cases h

/-- C24: for a set of cached quantities that read only parameters and each other, and whose choice of what
to read is governed by switches: after any history of reads and parameter changes, reading a quantity gives
what a newly built object with the present parameters gives, and that is the plain evaluation of its code. -/
theorem C24_reads_are_fresh [Inhabited V] (S : Set ℕ) (hc : Closed c S) (hd : SwitchDisciplined c S)
    (σ : P → V) (h : List (Op P V)) (q : ℕ) (hq : q ∈ S) :
    value c q (run c (newObj σ) h) = value c q (newObj (finalParams σ h)) ∧
      value c q (run c (newObj σ) h) = (den c (finalParams σ h) q).1 := by
  obtain ⟨h1, h2⟩ := run_inv hc hd h (newObj σ) (new_inv S σ)
  have e1 := (readQ_inv hc q _ h1).2 hq
  have e2 := (readQ_inv hc q _ (new_inv S (finalParams σ h))).2 hq
  rw [h2] at e1
  have e3 : value c q (run c (newObj σ) h) = (den c (finalParams σ h) q).1 := congrArg Prod.fst e1
  exact ⟨e3.trans (congrArg Prod.fst e2).symm, e3⟩

/-- C24 holds in particular, without condition on switches, if the quantities always look at the same
parameters. -/
theorem C24_straight_line [Inhabited V] (S : Set ℕ) (hc : Closed c S)
    (hs : ∀ q ∈ S, ∀ σ σ' : P → V, (den c σ q).2 = (den c σ' q).2)
    (σ : P → V) (h : List (Op P V)) (q : ℕ) (hq : q ∈ S) :
    value c q (run c (newObj σ) h) = value c q (newObj (finalParams σ h)) :=
  (C24_reads_are_fresh S hc (fun q hq σ σ' _ => hs q hq σ σ') σ h q hq).1

/-! ## frozen quantities -/

/-- everything already read from a frozen quantity stays, whatever happens later -/
theorem runProg_frozen {n : ℕ} (ev : Fin n → Obj P V → V × Finset P × Obj P V) (q : ℕ)
    (hev : ∀ i o, o.done q = true → (ev i o).2.2.done q = true ∧ (ev i o).2.2.memo q = o.memo q)
    (pr : Prog P V n) (o : Obj P V) (ho : o.done q = true) :
    (runProg ev pr o).2.2.done q = true ∧ (runProg ev pr o).2.2.memo q = o.memo q := by
  induction pr generalizing o with
  | ret v => exact ⟨ho, rfl⟩
  | param p k ih => exact ih _ o ho
  | quant i k ih =>
    obtain ⟨h1, h2⟩ := hev i o ho
    have := ih (ev i o).1 _ h1
    rw [h2] at this
    exact this

theorem readQ_frozen (q : ℕ) (hq : c.kind q = .frozen) (q' : ℕ) (o : Obj P V) (ho : o.done q = true) :
    (readQ c q' o).2.2.done q = true ∧ (readQ c q' o).2.2.memo q = o.memo q := by
  induction q' using Nat.strong_induction_on generalizing o with
  | _ q' ih =>
    have hr := runProg_frozen (fun (i : Fin q') o => readQ c i o) q
      (fun i o h => ih i i.2 o h) (c.code q') o ho
    generalize hR : runProg (fun (i : Fin q') o => readQ c i o) (c.code q') o = r at hr
    rw [readQ, hR]
    by_cases hne : q = q'
    · subst hne
      rw [hq]
      simp only [ho, if_true]
      exact ⟨trivial, trivial⟩
    · cases c.kind q' with
      | frozen =>
        simp only
        split_ifs
        · exact ⟨ho, rfl⟩
        · simpa only [Function.update_of_ne hne] using hr
      | tracked =>
        simp only
        cases o.index q' with
        | none => simpa only [Function.update_of_ne hne] using hr
        | some D =>
          simp only
          split_ifs
          · simpa only [Function.update_of_ne hne] using hr
          · exact ⟨ho, rfl⟩

theorem run_frozen (q : ℕ) (hq : c.kind q = .frozen) (h : List (Op P V)) (o : Obj P V)
    (ho : o.done q = true) : (run c o h).done q = true ∧ (run c o h).memo q = o.memo q := by
  induction h generalizing o with
  | nil => exact ⟨ho, rfl⟩
  | cons a h ih =>
    have e : run c o (a :: h) = run c (step c o a) h := rfl
    rw [e]
    have hs : (step c o a).done q = true ∧ (step c o a).memo q = o.memo q := by
      cases a with
      | read q' => exact readQ_frozen q hq q' o ho
      | set p v =>
        change (setP c p v o).done q = true ∧ (setP c p v o).memo q = o.memo q
        unfold setP
        split_ifs <;> exact ⟨ho, rfl⟩
    have := ih (step c o a) hs.1
    rw [hs.2] at this
    exact this

/-- the law of frozen quantities: once read, a frozen quantity returns that value after every further
history -/
theorem frozen_law (q : ℕ) (hq : c.kind q = .frozen) (o : Obj P V) (h : List (Op P V)) :
    value c q (run c (readQ c q o).2.2 h) = value c q o := by
  have hd : (readQ c q o).2.2.done q = true ∧ (readQ c q o).2.2.memo q = (readQ c q o).1 := by
    rw [readQ, hq]
    simp only
    split_ifs with hdn
    · exact ⟨hdn, rfl⟩
    · simp
  have := run_frozen q hq h _ hd.1
  unfold value
  rw [readQ, hq]
  simp only [this.1, if_true]
  rw [this.2, hd.2]

end Verif.Cache

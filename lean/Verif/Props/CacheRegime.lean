import Verif.Spec.Regime
import Verif.Props.Cache

/-! Property C24, second form: quantities whose choice of what to read depends on the parameters are still read
correctly if all reads happen in one regime.  This is how a chain of calls uses the class (C94). -/

namespace Verif.Cache

variable {P V : Type} [DecidableEq P] {c : Cls P V}

/-- the invariant: stored indexes are those of the regime; an unflagged stored value is that of parameters of the
regime which agree with the present ones where it matters -/
def InvR (c : Cls P V) (Good : (P → V) → Prop) (S : Set ℕ) (o : Obj P V) : Prop :=
  ∀ q ∈ S, ∀ D, o.index q = some D → (∀ τ, Good τ → D = (den c τ q).2) ∧
    (o.flagged q = false → ∃ τ, Good τ ∧ o.memo q = (den c τ q).1 ∧ ∀ p ∈ D, τ p = o.params p)

variable {Good : (P → V) → Prop} {S : Set ℕ}

theorem runProg_invR {σ : P → V} {n : ℕ} (ev : Fin n → Obj P V → V × Finset P × Obj P V)
    (hev : ∀ i o, o.params = σ → InvR c Good S o → (ev i o).2.2.params = σ ∧ InvR c Good S (ev i o).2.2)
    (pr : Prog P V n) (o : Obj P V) (ho : o.params = σ) (hi : InvR c Good S o) :
    (runProg ev pr o).2.2.params = σ ∧ InvR c Good S (runProg ev pr o).2.2 := by
  induction pr generalizing o with
  | ret v => exact ⟨ho, hi⟩
  | param p k ih => exact ih _ o ho hi
  | quant q k ih =>
    obtain ⟨h1, h2⟩ := hev q o ho hi
    exact ih _ _ h1 h2

theorem runProg_denR {σ : P → V} {n : ℕ} (ev : Fin n → Obj P V → V × Finset P × Obj P V)
    (hev : ∀ i o, o.params = σ → InvR c Good S o → (ev i o).2.2.params = σ ∧ InvR c Good S (ev i o).2.2)
    (hS : ∀ (i : Fin n) o, (i : ℕ) ∈ S → o.params = σ → InvR c Good S o →
      ((ev i o).1, (ev i o).2.1) = den c σ i)
    (pr : Prog P V n) (hr : ∀ i ∈ directQ σ (fun i => den c σ i) pr, i ∈ S) (o : Obj P V) (ho : o.params = σ)
    (hi : InvR c Good S o) :
    ((runProg ev pr o).1, (runProg ev pr o).2.1) = denProg σ (fun i => den c σ i) pr := by
  induction pr generalizing o with
  | ret v => rfl
  | param p k ih =>
    have := ih (σ p) hr o ho hi
    simp only [runProg, denProg, ho]
    rw [← this]
  | quant q k ih =>
    simp only [directQ, Finset.mem_insert, forall_eq_or_imp] at hr
    obtain ⟨h1, h2⟩ := hev q o ho hi
    have e := hS q o hr.1 ho hi
    have e1 : (ev q o).1 = (den c σ q).1 := congrArg Prod.fst e
    have := ih (ev q o).1 (by rw [e1]; exact hr.2) _ h1 h2
    simp only [runProg, denProg]
    rw [← e]
    simp only
    rw [← this]

theorem readQ_invR (hs : Stable c Good S) (q : ℕ) (o : Obj P V) (hg : Good o.params) (hi : InvR c Good S o) :
    ((readQ c q o).2.2.params = o.params ∧ InvR c Good S (readQ c q o).2.2) ∧
      (q ∈ S → ((readQ c q o).1, (readQ c q o).2.1) = den c o.params q) := by
  induction q using Nat.strong_induction_on generalizing o with
  | _ q ih =>
    have hev : ∀ (i : Fin q) (o' : Obj P V), o'.params = o.params → InvR c Good S o' →
        (readQ c i o').2.2.params = o.params ∧ InvR c Good S (readQ c i o').2.2 := by
      intro i o' ho' hi'
      have := (ih i i.2 o' (by rw [ho']; exact hg) hi').1
      rw [ho'] at this
      exact this
    have hS : ∀ (i : Fin q) (o' : Obj P V), (i : ℕ) ∈ S → o'.params = o.params → InvR c Good S o' →
        ((readQ c i o').1, (readQ c i o').2.1) = den c o.params i := by
      intro i o' hm ho' hi'
      have := (ih i i.2 o' (by rw [ho']; exact hg) hi').2 hm
      rw [ho'] at this
      exact this
    have hrun := runProg_invR (c := c) (Good := Good) (S := S) (fun i o => readQ c i o) hev (c.code q) o rfl hi
    have hden : q ∈ S → ((runProg (fun (i : Fin q) o => readQ c i o) (c.code q) o).1,
        (runProg (fun (i : Fin q) o => readQ c i o) (c.code q) o).2.1) = den c o.params q := by
      intro hq
      rw [den]
      exact runProg_denR (c := c) (Good := Good) (S := S) (fun i o => readQ c i o) hev hS (c.code q)
        (hs.closed o.params hg q hq) o rfl hi
    generalize hR : runProg (fun (i : Fin q) o => readQ c i o) (c.code q) o = r at hrun hden
    rw [readQ, hR]
    cases hk : c.kind q with
    | frozen =>
      have hqS : q ∉ S := fun h => by rw [hs.tracked q h] at hk; cases hk
      refine ⟨?_, fun h => absurd h hqS⟩
      simp only
      split_ifs
      · exact ⟨rfl, hi⟩
      · refine ⟨hrun.1, fun q' hq' D hD => ?_⟩
        have hne : q' ≠ q := fun h => hqS (h ▸ hq')
        simp only [Function.update_of_ne hne]
        exact hrun.2 q' hq' D hD
    | tracked =>
      simp only
      cases hx : o.index q with
      | none =>
        simp only
        refine ⟨⟨hrun.1, fun q' hq' D hD => ?_⟩, hden⟩
        by_cases hne : q' = q
        · subst hne
          simp only [Function.update_self] at hD ⊢
          have hd := hden hq'
          injection hD with hD
          have hd2 : r.2.1 = (den c o.params q').2 := congrArg Prod.snd hd
          refine ⟨fun τ hτ => ?_, fun _ => ⟨o.params, hg, congrArg Prod.fst hd, fun p _ => by rw [hrun.1]⟩⟩
          rw [← hD, hd2]
          exact hs.same _ _ hg hτ q' hq'
        · simp only [Function.update_of_ne hne] at hD ⊢
          exact hrun.2 q' hq' D hD
      | some D0 =>
        simp only
        split_ifs with hf
        · refine ⟨⟨hrun.1, fun q' hq' D hD => ?_⟩, fun hq => ?_⟩
          · by_cases hne : q' = q
            · subst hne
              have hd := hden hq'
              have := (hrun.2 q' hq' D hD).1
              simp only [Function.update_self]
              exact ⟨this, fun _ => ⟨o.params, hg, congrArg Prod.fst hd, fun p _ => by rw [hrun.1]⟩⟩
            · simp only [Function.update_of_ne hne] at hD ⊢
              exact hrun.2 q' hq' D hD
          · have hd := hden hq
            have hD := (hi q hq D0 hx).1 o.params hg
            rw [hD, ← hd]
            simp
        · refine ⟨⟨rfl, hi⟩, fun hq => ?_⟩
          obtain ⟨h1, h2⟩ := hi q hq D0 hx
          obtain ⟨τ, hτ, hm, ha⟩ := h2 (by simpa using hf)
          have e : den c τ q = den c o.params q := den_agree q fun p hp => ha p (by rw [h1 τ hτ]; exact hp)
          rw [← e, hm, h1 τ hτ]

theorem setP_invR (p : P) (v : V) (o : Obj P V) (hi : InvR c Good S o) : InvR c Good S (setP c p v o) := by
  unfold setP
  split_ifs with h1 h2
  · exact hi
  · intro q hq D hD
    simp only at hD ⊢
    cases hx : o.index q with
    | none => rw [hx] at hD; cases hD
    | some D0 =>
      rw [hx] at hD
      simp only at hD
      split_ifs at hD with hp
      injection hD with hD
      subst hD
      obtain ⟨e1, e2⟩ := hi q hq D0 hx
      refine ⟨e1, fun hf => ?_⟩
      obtain ⟨τ, hτ, hm, ha⟩ := e2 hf
      exact ⟨τ, hτ, hm, fun x hx' => by
        rw [ha x hx', Function.update_of_ne (fun h : x = p => hp (h ▸ hx'))]⟩
  · intro q hq D hD
    simp only at hD ⊢
    obtain ⟨e1, e2⟩ := hi q hq D hD
    refine ⟨e1, ?_⟩
    rw [hD]
    simp only
    by_cases hp : p ∈ D
    · intro h; simp [hp] at h
    · rw [if_neg hp]
      intro hf
      obtain ⟨τ, hτ, hm, ha⟩ := e2 hf
      exact ⟨τ, hτ, hm, fun x hx' => by
        rw [ha x hx', Function.update_of_ne (fun h : x = p => hp (h ▸ hx'))]⟩

theorem run_invR (hs : Stable c Good S) (h : List (Op P V)) (o : Obj P V) (hg : ReadsIn Good o.params h)
    (hi : InvR c Good S o) :
    InvR c Good S (run c o h) ∧ (run c o h).params = finalParams o.params h := by
  induction h generalizing o with
  | nil => exact ⟨hi, rfl⟩
  | cons a h ih =>
    have e : run c o (a :: h) = run c (step c o a) h := rfl
    rw [e]
    cases a with
    | read q =>
      obtain ⟨⟨h1, h2⟩, -⟩ := readQ_invR hs q o hg.1 hi
      have := ih (readQ c q o).2.2 (by rw [h1]; exact hg.2) h2
      rw [h1] at this
      exact this
    | set p v =>
      have := ih (setP c p v o) (by rw [setP_params]; exact hg) (setP_invR p v o hi)
      rw [setP_params] at this
      exact this

/-- C24: if all reads of a history happen while the parameters are in a regime in which the quantities `S` use only
each other and always look at the same parameters, then reading a quantity of `S` gives what a newly built object
with the present parameters gives, and that is the plain evaluation of its code.  The parameters may leave the
regime between reads. -/
theorem C24_fresh_in_regime [Inhabited V] (hs : Stable c Good S) (σ : P → V) (h : List (Op P V))
    (hr : ReadsIn Good σ h) (hg : Good (finalParams σ h)) (q : ℕ) (hq : q ∈ S) :
    value c q (run c (newObj σ) h) = value c q (newObj (finalParams σ h)) ∧
      value c q (run c (newObj σ) h) = (den c (finalParams σ h) q).1 := by
  obtain ⟨h1, h2⟩ := run_invR hs h (newObj σ) hr (fun _ _ _ h => by cases h)
  have e1 := (readQ_invR hs q _ (by rw [h2]; exact hg) h1).2 hq
  have e2 := (readQ_invR hs q (newObj (finalParams σ h)) hg (fun _ _ _ h => by cases h)).2 hq
  rw [h2] at e1
  have e3 : value c q (run c (newObj σ) h) = (den c (finalParams σ h) q).1 := congrArg Prod.fst e1
  exact ⟨e3.trans (congrArg Prod.fst e2).symm, e3⟩

/-- a class in which one quantity looks at parameter 1 or 2, depending on parameter 0, which is not a switch -/
def branching : Cls ℕ ℤ where
  isSwitch _ := false
  kind _ := .tracked
  code _ := .param 0 fun v => if v = 0 then .param 1 .ret else .param 2 .ret

theorem branching_stable : Stable branching (fun σ => σ 0 = 0) Set.univ where
  tracked _ _ := rfl
  closed _ _ _ _ _ _ := trivial
  same σ σ' h h' q _ := by
    rw [den, den]
    simp [branching, denProg, h, h']

/-- the hypotheses can be met: parameter 1 is changed between reads -/
example : value branching 0 (run branching (newObj fun _ => 0) [.set 1 5, .read 0, .set 2 3, .set 1 7]) = 7 := by
  rw [(C24_fresh_in_regime branching_stable _ _ (by simp [ReadsIn, Function.update])
    (by simp [finalParams, Function.update]) 0 trivial).2, den]
  simp [branching, denProg, finalParams, Function.update]

theorem branching_read (o : Obj ℕ ℤ) : readQ branching 0 o =
    match o.index 0 with
    | some D =>
      if o.flagged 0 then
        let r := runProg (fun i o => readQ branching i o) (branching.code 0) o
        (r.1, r.2.1 ∪ D, { r.2.2 with memo := Function.update r.2.2.memo 0 r.1,
                                       flagged := Function.update r.2.2.flagged 0 false })
      else (o.memo 0, D, o)
    | none =>
      let r := runProg (fun i o => readQ branching i o) (branching.code 0) o
      (r.1, r.2.1, { r.2.2 with memo := Function.update r.2.2.memo 0 r.1,
                                index := Function.update r.2.2.index 0 (some r.2.1),
                                flagged := Function.update r.2.2.flagged 0 false }) := by
  rw [readQ]
  have h : branching.kind 0 = .tracked := rfl
  rw [h]
  cases hi : o.index 0 <;> dsimp only

/-- outside the regime it fails: after parameter 0 has been changed and a read, parameter 2 is not known to matter -/
example : value branching 0
    (run branching (newObj fun _ => 0) [.read 0, .set 0 1, .read 0, .set 2 3]) = 0 := by
  simp only [value, run, List.foldl_cons, List.foldl_nil, step, branching_read, newObj]
  simp [setP, branching, runProg, Function.update]

end Verif.Cache

import Verif.Props.Inputs

/-! Property C98: changing options on a live object.  What a quantity is known to depend on is recorded when it is
read first (Lib/HmfCache); options that are not declared as switches can change what it looks at later. -/

namespace Verif.Cache

variable {P V : Type} [DecidableEq P] {c : Cls P V}

/-- an object in which everything stored belongs to the present parameters `σ` -/
structure Current (c : Cls P V) (σ : P → V) (o : Obj P V) : Prop where
  params : o.params = σ
  index : ∀ q D, o.index q = some D → D ⊆ (den c σ q).2
  fresh : ∀ q D, o.index q = some D → o.flagged q = false ∧ o.memo q = (den c σ q).1
  frozen : ∀ q, c.kind q = .frozen → o.done q = true → o.memo q = (den c σ q).1
  tracked : ∀ q D, o.index q = some D → c.kind q = .tracked

theorem runProg_current {σ : P → V} {n : ℕ} (ev : Fin n → Obj P V → V × Finset P × Obj P V)
    (hev : ∀ i o, Current c σ o →
      (ev i o).1 = (den c σ i).1 ∧ (ev i o).2.1 ⊆ (den c σ i).2 ∧ Current c σ (ev i o).2.2)
    (pr : Prog P V n) (o : Obj P V) (ho : Current c σ o) :
    (runProg ev pr o).1 = (denProg σ (fun i : Fin n => den c σ i) pr).1 ∧
      (runProg ev pr o).2.1 ⊆ (denProg σ (fun i : Fin n => den c σ i) pr).2 ∧ Current c σ (runProg ev pr o).2.2 := by
  induction pr generalizing o with
  | ret v => exact ⟨rfl, Finset.Subset.refl _, ho⟩
  | param p k ih =>
    obtain ⟨h1, h2, h3⟩ := ih (o.params p) o ho
    simp only [runProg, denProg]
    rw [ho.params] at h1 h2 h3 ⊢
    exact ⟨h1, Finset.insert_subset_insert _ h2, h3⟩
  | quant q k ih =>
    obtain ⟨e1, e2, e3⟩ := hev q o ho
    obtain ⟨h1, h2, h3⟩ := ih (ev q o).1 (ev q o).2.2 e3
    simp only [runProg, denProg]
    rw [e1] at h1 h2 h3 ⊢
    exact ⟨h1, Finset.union_subset_union e2 h2, h3⟩

theorem readQ_current {σ : P → V} (q : ℕ) (o : Obj P V) (ho : Current c σ o) :
    (readQ c q o).1 = (den c σ q).1 ∧ (readQ c q o).2.1 ⊆ (den c σ q).2 ∧ Current c σ (readQ c q o).2.2 ∧
      (c.kind q = .tracked → ∃ D, (readQ c q o).2.2.index q = some D) := by
  induction q using Nat.strong_induction_on generalizing o with
  | _ q ih =>
    have hrun := runProg_current (c := c) (σ := σ) (fun (i : Fin q) o => readQ c i o)
      (fun i o ho => ⟨(ih i i.2 o ho).1, (ih i i.2 o ho).2.1, (ih i i.2 o ho).2.2.1⟩) (c.code q) o ho
    have hden : den c σ q = denProg σ (fun i : Fin q => den c σ i) (c.code q) := by rw [den]
    rw [← hden] at hrun
    obtain ⟨r1, r2, r3⟩ := hrun
    rw [readQ]
    cases hk : c.kind q with
    | frozen =>
      simp only
      split_ifs with hd
      · exact ⟨ho.frozen q hk hd, Finset.empty_subset _, ho, fun h => by cases h⟩
      · refine ⟨r1, r2, ⟨r3.params, r3.index, fun x D hx => ?_, fun x hx hdx => ?_, r3.tracked⟩, fun h => by cases h⟩
        · have hne : x ≠ q := by
            rintro rfl
            have := r3.tracked x D hx
            rw [hk] at this
            cases this
          exact ⟨(r3.fresh x D hx).1, by simp only [Function.update_of_ne hne]; exact (r3.fresh x D hx).2⟩
        · by_cases hxq : x = q
          · subst hxq; simp only [Function.update_self]; exact r1
          · simp only [Function.update_of_ne hxq] at hdx ⊢
            exact r3.frozen x hx hdx
    | tracked =>
      simp only
      cases hD : o.index q with
      | some D =>
        simp only [(ho.fresh q D hD).1]
        exact ⟨(ho.fresh q D hD).2, ho.index q D hD, ho, fun _ => ⟨D, hD⟩⟩
      | none =>
        simp only
        refine ⟨r1, r2, ⟨r3.params, fun x D hx => ?_, fun x D hx => ?_, fun x hx hdx => ?_, fun x D hx => ?_⟩,
          fun _ => ⟨_, by simp only [Function.update_self]; rfl⟩⟩
        · by_cases hxq : x = q
          · subst hxq
            simp only [Function.update_self, Option.some.injEq] at hx
            rw [← hx]; exact r2
          · simp only [Function.update_of_ne hxq] at hx
            exact r3.index x D hx
        · by_cases hxq : x = q
          · subst hxq
            simp only [Function.update_self]
            exact ⟨trivial, r1⟩
          · simp only [Function.update_of_ne hxq] at hx ⊢
            exact r3.fresh x D hx
        · have hxq : x ≠ q := by rintro rfl; rw [hk] at hx; cases hx
          simp only [Function.update_of_ne hxq]
          exact r3.frozen x hx hdx
        · by_cases hxq : x = q
          · subst hxq; exact hk
          · simp only [Function.update_of_ne hxq] at hx
            exact r3.tracked x D hx

/-- reading leaves what is recorded about an indexed quantity alone -/
theorem runProg_index {n : ℕ} (ev : Fin n → Obj P V → V × Finset P × Obj P V) (q : ℕ) (D : Finset P)
    (hev : ∀ i o, o.index q = some D → (ev i o).2.2.index q = some D) (pr : Prog P V n) (o : Obj P V)
    (ho : o.index q = some D) : (runProg ev pr o).2.2.index q = some D := by
  induction pr generalizing o with
  | ret v => exact ho
  | param p k ih => exact ih _ o ho
  | quant i k ih => exact ih _ _ (hev i o ho)

theorem readQ_index (q : ℕ) (D : Finset P) (x : ℕ) (o : Obj P V) (ho : o.index q = some D) :
    (readQ c x o).2.2.index q = some D := by
  induction x using Nat.strong_induction_on generalizing o with
  | _ x ih =>
    have hrun := runProg_index (fun (i : Fin x) o => readQ c i o) q D (fun i o ho => ih i i.2 o ho) (c.code x) o ho
    rw [readQ]
    cases hk : c.kind x with
    | frozen =>
      simp only
      split_ifs
      · exact ho
      · exact hrun
    | tracked =>
      simp only
      cases hD : o.index x with
      | some D' =>
        simp only
        split_ifs
        · exact hrun
        · exact ho
      | none =>
        have hx : q ≠ x := by rintro rfl; rw [hD] at ho; cases ho
        simp only [Function.update_of_ne hx]
        exact hrun

/-- `q` is indexed with `D` and its stored value `v` is taken to be valid -/
def Settled (q : ℕ) (D : Finset P) (v : V) (o : Obj P V) : Prop :=
  o.index q = some D ∧ o.flagged q = false ∧ o.memo q = v

theorem settled_value (hq : c.kind q = .tracked) {D : Finset P} {v : V} {o : Obj P V} (h : Settled q D v o) :
    value c q o = v := by
  unfold value
  rw [readQ, hq]
  simp only [h.1, h.2.1]
  exact h.2.2

theorem runProg_settled {n : ℕ} (ev : Fin n → Obj P V → V × Finset P × Obj P V) (q : ℕ) (D : Finset P) (v : V)
    (hev : ∀ i o, Settled q D v o → Settled q D v (ev i o).2.2) (pr : Prog P V n) (o : Obj P V)
    (ho : Settled q D v o) : Settled q D v (runProg ev pr o).2.2 := by
  induction pr generalizing o with
  | ret v => exact ho
  | param p k ih => exact ih _ o ho
  | quant i k ih => exact ih _ _ (hev i o ho)

theorem readQ_settled (hq : c.kind q = .tracked) (D : Finset P) (v : V) (x : ℕ) (o : Obj P V) (ho : Settled q D v o) :
    Settled q D v (readQ c x o).2.2 := by
  induction x using Nat.strong_induction_on generalizing o with
  | _ x ih =>
    have hrun := runProg_settled (fun (i : Fin x) o => readQ c i o) q D v (fun i o ho => ih i i.2 o ho) (c.code x) o ho
    rw [readQ]
    cases hk : c.kind x with
    | frozen =>
      have hx : q ≠ x := by rintro rfl; rw [hk] at hq; cases hq
      simp only
      split_ifs
      · exact ho
      · exact ⟨hrun.1, hrun.2.1, by simp only [Function.update_of_ne hx]; exact hrun.2.2⟩
    | tracked =>
      simp only
      cases hD : o.index x with
      | some D' =>
        simp only
        split_ifs with hf
        · have hx : q ≠ x := by rintro rfl; rw [ho.2.1] at hf; cases hf
          exact ⟨hrun.1, by simp only [Function.update_of_ne hx]; exact hrun.2.1,
            by simp only [Function.update_of_ne hx]; exact hrun.2.2⟩
        · exact ho
      | none =>
        have hx : q ≠ x := by
          rintro rfl
          have h1 := ho.1
          rw [hD] at h1
          cases h1
        exact ⟨by simp only [Function.update_of_ne hx]; exact hrun.1,
          by simp only [Function.update_of_ne hx]; exact hrun.2.1,
          by simp only [Function.update_of_ne hx]; exact hrun.2.2⟩

theorem setP_settled {D : Finset P} {v : V} {o : Obj P V} (p : P) (w : V) (hp : p ∉ D) (ho : Settled q D v o) :
    Settled q D v (setP c p w o) := by
  unfold setP
  split_ifs
  · exact ho
  · exact ⟨by simp [ho.1, hp], ho.2.1, ho.2.2⟩
  · exact ⟨ho.1, by simp [ho.1, hp, ho.2.1], ho.2.2⟩

theorem setP_index {D : Finset P} {o : Obj P V} (p : P) (w : V) (hp : c.isSwitch p = false) (ho : o.index q = some D) :
    (setP c p w o).index q = some D := by
  unfold setP
  simp only [hp]
  split_ifs <;> first | exact ho | contradiction

/-- reading an indexed quantity settles it -/
theorem settle (hq : c.kind q = .tracked) {D : Finset P} {o : Obj P V} (ho : o.index q = some D) :
    Settled q D (value c q o) (readQ c q o).2.2 := by
  have h1 := readQ_index (c := c) q D q o ho
  refine ⟨h1, ?_, ?_⟩
  · rw [readQ, hq]
    simp only [ho]
    split_ifs with hf
    · simp
    · simpa using hf
  · unfold value
    rw [readQ, hq]
    simp only [ho]
    split_ifs with hf
    · simp
    · rfl

/-- C98: a quantity is read for the first time when it does not look at the parameters `N`.  Then anything may happen, as
long as no switch is set, including changes after which it does look at them.  Once it has been read again, no update of
the parameters `N` is noticed any more, whatever else is read. -/
theorem C98_unknown_inputs_ignored [Inhabited V] (hq : c.kind q = .tracked) (σ : P → V) (sets h t : List (Op P V))
    (hsets : ∀ x, Op.read x ∉ sets) (hh : ∀ p v, Op.set p v ∈ h → c.isSwitch p = false)
    (ht : ∀ p v, Op.set p v ∈ t → p ∉ (den c (finalParams σ sets) q).2) :
    value c q (run c (newObj σ) (sets ++ Op.read q :: h ++ Op.read q :: t)) =
      value c q (run c (newObj σ) (sets ++ Op.read q :: h)) := by
  have h0 : ∀ (l : List (Op P V)) (τ : P → V) (o : Obj P V), (∀ x, Op.read x ∉ l) → Current c τ o →
      (∀ x, o.index x = none) → (∀ x, o.done x = false) → Current c (finalParams τ l) (run c o l) := by
    intro l
    induction l with
    | nil => exact fun τ o _ ho _ _ => ho
    | cons a l ih =>
      intro τ o hl ho hi hd
      cases a with
      | read x => exact absurd List.mem_cons_self (hl x)
      | set p v =>
        have hpar : (setP c p v o).params = Function.update τ p v := by rw [setP_params, ho.params]
        have hidx : ∀ x, (setP c p v o).index x = none := by
          intro x; unfold setP; split_ifs <;> simp [hi]
        have hdn : ∀ x, (setP c p v o).done x = false := by
          intro x; unfold setP; split_ifs <;> exact hd x
        exact ih (Function.update τ p v) (setP c p v o) (fun x hx => hl x (List.mem_cons_of_mem _ hx))
          ⟨hpar, fun x D hx => absurd ((hidx x).symm.trans hx) (by simp),
            fun x D hx => absurd ((hidx x).symm.trans hx) (by simp),
            fun x _ hx => absurd ((hdn x).symm.trans hx) (by simp),
            fun x D hx => absurd ((hidx x).symm.trans hx) (by simp)⟩ hidx hdn
  have hcur := h0 sets σ (newObj σ) hsets
    ⟨rfl, fun x D hx => absurd hx (by simp [newObj]), fun x D hx => absurd hx (by simp [newObj]),
      fun x _ hx => absurd hx (by simp [newObj]), fun x D hx => absurd hx (by simp [newObj])⟩
    (fun _ => rfl) (fun _ => rfl)
  obtain ⟨-, -, k3, k4⟩ := readQ_current q _ hcur
  obtain ⟨D, hD⟩ := k4 hq
  have hsub := k3.index q D hD
  have hidx : ∀ (l : List (Op P V)) (o : Obj P V), o.index q = some D →
      (∀ p v, Op.set p v ∈ l → c.isSwitch p = false) → (run c o l).index q = some D := by
    intro l
    induction l with
    | nil => exact fun o ho _ => ho
    | cons a l ih =>
      intro o ho hl
      cases a with
      | read x => exact ih _ (readQ_index q D x o ho) fun p v hp => hl p v (List.mem_cons_of_mem _ hp)
      | set p v =>
        exact ih _ (setP_index p v (hl p v List.mem_cons_self) ho) fun p v hp => hl p v (List.mem_cons_of_mem _ hp)
  have hset : ∀ (l : List (Op P V)) (o : Obj P V) (v : V), Settled q D v o →
      (∀ p v, Op.set p v ∈ l → p ∉ D) → Settled q D v (run c o l) := by
    intro l
    induction l with
    | nil => exact fun o v ho _ => ho
    | cons a l ih =>
      intro o v ho hl
      cases a with
      | read x => exact ih _ _ (readQ_settled hq D v x o ho) fun p v hp => hl p v (List.mem_cons_of_mem _ hp)
      | set p w =>
        exact ih _ _ (setP_settled p w (hl p w List.mem_cons_self) ho) fun p v hp => hl p v (List.mem_cons_of_mem _ hp)
  have e1 : run c (newObj σ) (sets ++ Op.read q :: h) = run c (readQ c q (run c (newObj σ) sets)).2.2 h := by
    simp [run, step]
  have e2 : run c (newObj σ) (sets ++ Op.read q :: h ++ Op.read q :: t) =
      run c (readQ c q (run c (newObj σ) (sets ++ Op.read q :: h))).2.2 t := by
    simp [run, step]
  have hi := hidx h _ hD hh
  rw [← e1] at hi
  rw [e2]
  exact settled_value hq (hset t _ _ (settle hq hi) fun p v hp hpD => ht p v hp (hsub hpD))

/-! ## Switches -/

/-- a set of tracked quantities that use only each other while the parameters satisfy `Good`, a condition on parameters
other than switches, and that look at the same parameters as long as the switches are the same -/
structure StableSw (c : Cls P V) (Good : (P → V) → Prop) (S : Set ℕ) : Prop where
  tracked : ∀ q ∈ S, c.kind q = .tracked
  closed : ∀ σ, Good σ → ∀ q ∈ S, ∀ i ∈ direct c σ q, i ∈ S
  switch : ∀ σ p v, Good σ → c.isSwitch p = true → Good (Function.update σ p v)
  same : ∀ σ σ', Good σ → Good σ' → (∀ p, c.isSwitch p = true → σ p = σ' p) → ∀ q ∈ S, (den c σ q).2 = (den c σ' q).2

/-- the invariant: stored indexes are those of the regime with the present switches -/
def InvW (c : Cls P V) (Good : (P → V) → Prop) (S : Set ℕ) (o : Obj P V) : Prop :=
  ∀ q ∈ S, ∀ D, o.index q = some D →
    (∀ τ, Good τ → (∀ p, c.isSwitch p = true → τ p = o.params p) → D = (den c τ q).2) ∧
    (o.flagged q = false → ∃ τ, Good τ ∧ (∀ p, c.isSwitch p = true → τ p = o.params p) ∧ o.memo q = (den c τ q).1 ∧
      ∀ p ∈ D, τ p = o.params p)

variable {Good : (P → V) → Prop} {S : Set ℕ}

/-- the part of the regime with the same switches -/
def goodAt (c : Cls P V) (Good : (P → V) → Prop) (π τ : P → V) : Prop :=
  Good τ ∧ ∀ p, c.isSwitch p = true → τ p = π p

theorem stable_at (hs : StableSw c Good S) (π : P → V) : Stable c (goodAt c Good π) S where
  tracked := hs.tracked
  closed σ h := hs.closed σ h.1
  same σ σ' h h' := hs.same σ σ' h.1 h'.1 fun p hp => (h.2 p hp).trans (h'.2 p hp).symm

theorem invW_at (o : Obj P V) : InvW c Good S o ↔ InvR c (goodAt c Good o.params) S o := by
  refine forall_congr' fun q => forall_congr' fun hq => forall_congr' fun D => forall_congr' fun hD => ?_
  unfold goodAt
  refine and_congr (forall_congr' fun τ => ⟨fun h hτ => h hτ.1 hτ.2, fun h h1 h2 => h ⟨h1, h2⟩⟩)
    (forall_congr' fun _ => exists_congr fun τ => ?_)
  rw [and_assoc]

theorem readQ_invW (hs : StableSw c Good S) (q : ℕ) (o : Obj P V) (hg : Good o.params) (hi : InvW c Good S o) :
    ((readQ c q o).2.2.params = o.params ∧ InvW c Good S (readQ c q o).2.2) ∧
      (q ∈ S → ((readQ c q o).1, (readQ c q o).2.1) = den c o.params q) := by
  obtain ⟨⟨h1, h2⟩, h3⟩ := readQ_invR (stable_at hs o.params) q o ⟨hg, fun _ _ => rfl⟩ ((invW_at o).1 hi)
  exact ⟨⟨h1, (invW_at _).2 (by rw [h1]; exact h2)⟩, h3⟩

theorem setP_invW (hs : StableSw c Good S) (p : P) (v : V) (o : Obj P V) (hi : InvW c Good S o) :
    InvW c Good S (setP c p v o) := by
  by_cases hp : c.isSwitch p = true
  · unfold setP
    split_ifs with h1
    · exact hi
    intro q hq D hD
    simp only at hD ⊢
    cases hx : o.index q with
    | none => rw [hx] at hD; cases hD
    | some D0 =>
      rw [hx] at hD
      simp only at hD
      split_ifs at hD with hpD
      injection hD with hD
      subst hD
      obtain ⟨e1, e2⟩ := hi q hq D0 hx
      refine ⟨fun τ hτ ha => ?_, fun hf => ?_⟩
      · have e := e1 (Function.update τ p (o.params p)) (hs.switch τ p _ hτ hp) fun x hx' => by
          by_cases hxp : x = p
          · subst hxp; rw [Function.update_self]
          · rw [Function.update_of_ne hxp, ha x hx', Function.update_of_ne hxp]
        rw [e]
        refine congrArg Prod.snd (den_agree q fun x hx' => ?_)
        rw [← e] at hx'
        rw [Function.update_of_ne fun h : x = p => hpD (h ▸ hx')]
      · obtain ⟨τ, hτ, ha, hm, hD⟩ := e2 hf
        have e := e1 τ hτ ha
        refine ⟨Function.update τ p v, hs.switch τ p v hτ hp, fun x hx' => ?_, ?_, fun x hx' => ?_⟩
        · by_cases hxp : x = p
          · subst hxp; rw [Function.update_self, Function.update_self]
          · rw [Function.update_of_ne hxp, Function.update_of_ne hxp, ha x hx']
        · rw [hm]
          refine congrArg Prod.fst (den_agree q fun x hx' => ?_)
          rw [← e] at hx'
          rw [Function.update_of_ne fun h : x = p => hpD (h ▸ hx')]
        · have hxp : x ≠ p := fun h => hpD (h ▸ hx')
          rw [Function.update_of_ne hxp, Function.update_of_ne hxp, hD x hx']
  · have h := setP_invR p v o ((invW_at o).1 hi)
    have e : goodAt c Good (setP c p v o).params = goodAt c Good o.params := by
      funext τ
      unfold goodAt
      rw [setP_params]
      refine propext (and_congr Iff.rfl (forall_congr' fun x => forall_congr' fun hx => ?_))
      rw [Function.update_of_ne fun h : x = p => hp (h ▸ hx)]
    exact (invW_at _).2 (by rw [e]; exact h)

theorem run_invW (hs : StableSw c Good S) (h : List (Op P V)) (o : Obj P V) (hg : ReadsIn Good o.params h)
    (hi : InvW c Good S o) :
    InvW c Good S (run c o h) ∧ (run c o h).params = finalParams o.params h := by
  induction h generalizing o with
  | nil => exact ⟨hi, rfl⟩
  | cons a h ih =>
    have e : run c o (a :: h) = run c (step c o a) h := rfl
    rw [e]
    cases a with
    | read q =>
      obtain ⟨⟨h1, h2⟩, -⟩ := readQ_invW hs q o hg.1 hi
      have := ih (readQ c q o).2.2 (by rw [h1]; exact hg.2) h2
      rw [h1] at this
      exact this
    | set p v =>
      have := ih (setP c p v o) (by rw [setP_params]; exact hg) (setP_invW hs p v o hi)
      rw [setP_params] at this
      exact this

/-- C98: switches may change between reads.  All reads happen in a regime of the other parameters, in which the quantities
`S` use only each other and look at parameters decided by the switches; then a quantity of `S` is reported as by a newly
built object with the present parameters. -/
theorem C98_fresh_when_switching [Inhabited V] (hs : StableSw c Good S) (σ : P → V) (h : List (Op P V))
    (hr : ReadsIn Good σ h) (hg : Good (finalParams σ h)) (q : ℕ) (hq : q ∈ S) :
    value c q (run c (newObj σ) h) = value c q (newObj (finalParams σ h)) ∧
      value c q (run c (newObj σ) h) = (den c (finalParams σ h) q).1 := by
  obtain ⟨h1, h2⟩ := run_invW hs h (newObj σ) hr (fun _ _ _ h => by cases h)
  have e1 := (readQ_invW hs q _ (by rw [h2]; exact hg) h1).2 hq
  have e2 := (readQ_invW hs q (newObj (finalParams σ h)) hg (fun _ _ _ h => by cases h)).2 hq
  rw [h2] at e1
  have e3 : value c q (run c (newObj σ) h) = (den c (finalParams σ h) q).1 := congrArg Prod.fst e1
  exact ⟨e3.trans (congrArg Prod.fst e2).symm, e3⟩

end Verif.Cache

namespace Verif.ModeChange

open Verif.Cache Verif.SpectraDeps Verif.Chain Verif.Inputs

variable {V : Type} [Inhabited V] (S : Sem V)

/-- the two parameters declared as switches (pk.py:217, 277) -/
abbrev switches : List String := ["nonlinear_mode", "response"]

/-- all conditions on other parameters come out as for `τ` -/
def SameOptions (τ σ : String → V) : Prop := ∀ t : Test, t.param ∉ switches → outcome S σ t = outcome S τ t

/-- the value of `q` after the history `h` is not the one of a newly built object with the same parameters -/
def Stale (σ : String → V) (h : List (Op String V)) (q : ℕ) : Prop :=
  value (cls S) q (run (cls S) (newObj σ) h) ≠ value (cls S) q (newObj (finalParams σ h))

theorem stable_options (τ : String → V) (l : List (Test × Bool)) (hl : ∀ x ∈ l, outcome S τ x.1 = x.2)
    (hsw : ∀ x ∈ l, x.1.param ∉ switches) :
    StableSw (cls S) (SameOptions S τ) {q | mayReach (known l) omegaM q = false} where
  tracked q hq := by
    have : q ≠ omegaM := by
      rintro rfl
      rw [Set.mem_ofPred_eq, mayReach, pred_eq _ _ fun n => mayRead_lt (known l) (body n)] at hq
      simp at hq
    simp [cls, this]
  closed σ hσ q hq i hi := by
    rw [direct_cls, List.mem_toFinset] at hi
    have hf : Fits (known l) (outcome S σ) := fits fun x hx => (hσ x.1 (hsw x hx)).trans (hl x hx)
    rw [Set.mem_ofPred_eq, mayReach, pred_eq _ _ fun n => mayRead_lt (known l) (body n)] at hq
    simp only [Bool.or_eq_false_iff, List.any_eq_false] at hq
    have := hq.2 i (readB_may hf _ i hi)
    simpa [mayReach] using this
  switch σ p v hσ hp t ht := by
    have : t.param ≠ p := by
      rintro rfl
      apply ht
      simpa [cls, switches] using hp
    unfold outcome
    rw [Function.update_of_ne this]
    exact hσ t ht
  same σ σ' hσ hσ' ha q hq := by
    have hr : SameRegime S σ σ' := by
      intro t
      by_cases ht : t.param ∈ switches
      · unfold outcome
        rw [ha t.param (by simpa [cls, switches] using ht)]
      · exact (hσ t ht).trans (hσ' t ht).symm
    have hu : ∀ ρ, SameOptions S τ ρ → ¬ Uses (cls S) ρ q omegaM := fun ρ hρ =>
      not_uses (fits fun x hx => (hρ x.1 (hsw x hx)).trans (hl x hx)) hq
    rw [← den_pin_unused default q (hu σ hσ), ← den_pin_unused default q (hu σ' hσ')]
    exact deps_same S default hr q

/-- C98: changing the non-linear mode or the response option on a live object is safe.  A spectrum is reported as by a newly
built object with the present parameters, provided every read so far was made with the present outcome of all other
conditions, and profiles, point masses and the beta_nl argument do not bring in `omega_m`. -/
theorem C98_modes_are_safe (σ : String → V) (h : List (Op String V))
    (hr : ReadsIn (SameOptions S (finalParams σ h)) σ h)
    (hfb : outcome S (finalParams σ h) .feedback = false) (hfit : outcome S (finalParams σ h) .fit = false)
    (hpm : outcome S (finalParams σ h) .pointmass = false) (hb : outcome S (finalParams σ h) .betaNone = false) :
    ∀ q ∈ spectra, ¬ Stale S σ h q := by
  intro q hq
  have := stable_options S (finalParams σ h) [(.feedback, false), (.fit, false), (.pointmass, false), (.betaNone, false)]
    (by simp [hfb, hfit, hpm, hb]) (by simp [Test.param])
  exact not_not.2 (C98_fresh_when_switching this σ h hr (fun _ _ => rfl) q
    ((show ∀ q ∈ spectra, mayReach (known [(.feedback, false), (.fit, false), (.pointmass, false), (.betaNone, false)])
      omegaM q = false by decide +kernel) q hq)).1

/-- a history with a first read of `q`, any steps but a change of the two switches, another read of `q`, and then updates of
parameters in `ps` and any reads -/
structure Late (S : Sem V) (σ : String → V) (q : ℕ) (ps : List String) (first steps last : List (Op String V)) : Prop where
  first : ∀ x, Op.read x ∉ first
  steps : ∀ p v, Op.set p v ∈ steps → p ∉ switches
  last : ∀ p v, Op.set p v ∈ last → p ∈ ps

theorem late_ignored {σ : String → V} {q : ℕ} {ps : List String} {first steps last : List (Op String V)}
    (hL : Late S σ q ps first steps last) (hq : q ≠ omegaM)
    (hp : ∀ p ∈ ps, p ∉ (den (cls S) (finalParams σ first) q).2) :
    value (cls S) q (run (cls S) (newObj σ) (first ++ Op.read q :: steps ++ Op.read q :: last)) =
      value (cls S) q (run (cls S) (newObj σ) (first ++ Op.read q :: steps)) :=
  C98_unknown_inputs_ignored (by simp [cls, hq]) σ first steps last hL.first
    (fun p v h => by have := hL.steps p v h; simpa [cls, switches] using this) fun p v h => hp p (hL.last p v h)

theorem late_list {σ : String → V} {ps : List String} {first steps last : List (Op String V)} (l : List (Test × Bool))
    (hl : ∀ x ∈ l, outcome S (finalParams σ first) x.1 = x.2) (qs : List ℕ)
    (h : ∀ q ∈ qs, q ≠ omegaM ∧ ∀ p ∈ ps, mayLook (known l) p q = false) :
    ∀ q ∈ qs, Late S σ q ps first steps last →
      value (cls S) q (run (cls S) (newObj σ) (first ++ Op.read q :: steps ++ Op.read q :: last)) =
        value (cls S) q (run (cls S) (newObj σ) (first ++ Op.read q :: steps)) :=
  fun q hq hL => late_ignored S hL (h q hq).1 fun p hp => not_looks (fits hl) p q ((h q hq).2 p hp)

variable (σ : String → V) (first steps last : List (Op String V))

/-- C98: feedback is switched on after a first read without: the AGN temperature is then ignored -/
theorem C98_feedback_after_read (h : outcome S (finalParams σ first) .feedback = false) :
    ∀ q ∈ spectra, Late S σ q ["log10T_AGN"] first steps last →
      value (cls S) q (run (cls S) (newObj σ) (first ++ Op.read q :: steps ++ Op.read q :: last)) =
        value (cls S) q (run (cls S) (newObj σ) (first ++ Op.read q :: steps)) :=
  late_list S [(.feedback, false)] (by simp [h]) _ (by decide +kernel)

/-- C98: HMcode ingredients are replaced by others after a first read: the choices of mass definition, mass function, bias,
concentration, overdensity, threshold and bloating are then ignored -/
theorem C98_hmcode_before_read (h : outcome S (finalParams σ first) .mead = true) :
    ∀ q ∈ spectra, Late S σ q ["mdef_model", "hmf_model", "bias_model", "halo_concentration_model_dm",
        "halo_concentration_model_sat", "overdensity", "delta_c", "eta_cen", "eta_sat"] first steps last →
      value (cls S) q (run (cls S) (newObj σ) (first ++ Op.read q :: steps ++ Op.read q :: last)) =
        value (cls S) q (run (cls S) (newObj σ) (first ++ Op.read q :: steps)) :=
  late_list S [(.mead, true)] (by simp [h]) _ (by decide +kernel)

/-- C98: fitted profiles or point masses are switched on after a first read without them: the baryonic mass scale is then
ignored, and for the matter spectrum everything about galaxies -/
theorem C98_baryons_after_read (h : outcome S (finalParams σ first) .fit = false)
    (hp : outcome S (finalParams σ first) .pointmass = false) :
    (∀ q ∈ spectra, Late S σ q ["mb"] first steps last →
      value (cls S) q (run (cls S) (newObj σ) (first ++ Op.read q :: steps ++ Op.read q :: last)) =
        value (cls S) q (run (cls S) (newObj σ) (first ++ Op.read q :: steps))) ∧
    ∀ q ∈ [mmRaw, mm], Late S σ q ["mb", "hod_model", "hod_params", "hod_settings_mm"] first steps last →
      value (cls S) q (run (cls S) (newObj σ) (first ++ Op.read q :: steps ++ Op.read q :: last)) =
        value (cls S) q (run (cls S) (newObj σ) (first ++ Op.read q :: steps)) :=
  ⟨late_list S [(.fit, false), (.pointmass, false)] (by simp [h, hp]) _ (by decide +kernel),
    late_list S [(.fit, false), (.pointmass, false)] (by simp [h, hp]) _ (by decide +kernel)⟩

/-- C98: the linear spectrum is read while one is given, and the argument is then dropped (`None`): no cosmological
parameter changes the linear spectrum any more -/
theorem C98_linear_input_dropped (h : outcome S (finalParams σ first) .linNone = false)
    (hd : outcome S (finalParams σ first) .dewiggle = false) (hm : outcome S (finalParams σ first) .hmcode = false) :
    ∀ q ∈ [pkLin, powerSpectrumLin], Late S σ q ["h0", "omega_c", "omega_b", "w0", "wa", "n_s", "tcmb", "Neff", "m_nu",
        "sigma_8", "transfer_model", "transfer_params", "growth_model", "growth_params"] first steps last →
      value (cls S) q (run (cls S) (newObj σ) (first ++ Op.read q :: steps ++ Op.read q :: last)) =
        value (cls S) q (run (cls S) (newObj σ) (first ++ Op.read q :: steps)) :=
  late_list S [(.linNone, false), (.dewiggle, false), (.hmcode, false)] (by simp [h, hd, hm]) _ (by decide +kernel)

/-- C98: so reported values are wrong as soon as the parameter matters at all: if a newly built object tells two values of an
ignored parameter apart, one of the two updates leaves a stale value -/
theorem C98_one_is_stale {q : ℕ} {p : String} (hq : q ≠ omegaM) (hf : ∀ x, Op.read x ∉ first)
    (hs : ∀ p v, Op.set p v ∈ steps → p ∉ switches) (hp : p ∉ (den (cls S) (finalParams σ first) q).2) (v v' : V)
    (hne : value (cls S) q (newObj (Function.update (finalParams σ (first ++ steps)) p v)) ≠
      value (cls S) q (newObj (Function.update (finalParams σ (first ++ steps)) p v'))) :
    Stale S σ (first ++ Op.read q :: steps ++ [Op.read q, Op.set p v]) q ∨
      Stale S σ (first ++ Op.read q :: steps ++ [Op.read q, Op.set p v']) q := by
  have hfin : ∀ w, finalParams σ (first ++ Op.read q :: steps ++ [Op.read q, Op.set p w]) =
      Function.update (finalParams σ (first ++ steps)) p w := by
    intro w
    rw [finalParams_append, finalParams_append, finalParams_append]
    rfl
  have hig : ∀ w, value (cls S) q (run (cls S) (newObj σ) (first ++ Op.read q :: steps ++ [Op.read q, Op.set p w])) =
      value (cls S) q (run (cls S) (newObj σ) (first ++ Op.read q :: steps)) := fun w =>
    late_ignored S (ps := [p]) ⟨hf, hs, fun p' v' h => by simp at h; simp [h.1]⟩ hq (by simpa using hp)
  by_contra hc
  rw [not_or] at hc
  obtain ⟨h1, h2⟩ := hc
  unfold Stale at h1 h2
  rw [not_not, hfin, hig] at h1 h2
  exact hne (h1.symm.trans h2)

/-! ## An instance -/

/-- numbers as values, every quantity is the sum of what it reads; `hmcode_ingredients` is 0 for none and 1 for feedback -/
def modeSem : Sem ℕ where
  out _ l := l.sum
  holds t v := t == .feedback && v == 1

theorem denProg_mode (σ : String → ℕ) {n : ℕ} (ev : Fin n → ℕ × Finset String) (b : Body n) (acc : List ℕ) :
    (denProg σ ev (compile modeSem b acc)).1 = acc.sum + sumB (outcome modeSem σ) σ (fun i => (ev i).1) b := by
  induction b generalizing acc with
  | ret => rfl
  | read s k ih =>
    cases s with
    | p s => simp only [compile, denProg, sumB]; rw [ih]; simp [add_assoc]
    | q i h => simp only [compile, denProg, sumB]; rw [ih]; simp [add_assoc]
  | ite t a b iha ihb =>
    simp only [compile, denProg, sumB]
    by_cases h : outcome modeSem σ t = true
    · rw [if_pos h, if_pos (show modeSem.holds t (σ t.param) = true from h), iha]; simp [add_assoc]
    · rw [if_neg h, if_neg (show ¬ modeSem.holds t (σ t.param) = true from h), ihb]; simp [add_assoc]

theorem sumB_lt (R : Test → Bool) {σ σ' : String → ℕ} {p : String} (hσ : ∀ x, σ x ≤ σ' x) (hp : σ p < σ' p) {n : ℕ}
    (ev ev' : Fin n → ℕ) (D : Fin n → Finset String) (h : ∀ i, ev i ≤ ev' i ∧ (p ∈ D i → ev i < ev' i)) (b : Body n) :
    sumB R σ ev b ≤ sumB R σ' ev' b ∧ (p ∈ depsB R D b → sumB R σ ev b < sumB R σ' ev' b) := by
  induction b with
  | ret => exact ⟨le_refl _, fun h => by simp [depsB] at h⟩
  | read s k ih =>
    cases s with
    | p s =>
      simp only [sumB, depsB, Finset.mem_insert]
      have := hσ s
      refine ⟨by have := ih.1; omega, ?_⟩
      rintro (rfl | h)
      · have := ih.1; omega
      · have := ih.2 h; omega
    | q j hj =>
      simp only [sumB, depsB, Finset.mem_union]
      have := h ⟨j, hj⟩
      refine ⟨by have := ih.1; omega, ?_⟩
      rintro (h | h)
      · have := this.2 h; have := ih.1; omega
      · have := ih.2 h; omega
  | ite t a b iha ihb =>
    simp only [sumB, depsB, Finset.mem_insert]
    have := hσ t.param
    have key : (if R t = true then sumB R σ ev a else sumB R σ ev b) ≤
        (if R t = true then sumB R σ' ev' a else sumB R σ' ev' b) := by
      split_ifs
      · exact iha.1
      · exact ihb.1
    refine ⟨by omega, ?_⟩
    rintro (rfl | h)
    · omega
    · split_ifs at h ⊢
      · have := iha.2 h; omega
      · have := ihb.2 h; omega

theorem mode_lt {σ σ' : String → ℕ} {p : String} (hσ : ∀ x, σ x ≤ σ' x) (hp : σ p < σ' p)
    (hr : ∀ t, outcome modeSem σ t = outcome modeSem σ' t) (q : ℕ) :
    (den (cls modeSem) σ q).1 ≤ (den (cls modeSem) σ' q).1 ∧
      (p ∈ (den (cls modeSem) σ q).2 → (den (cls modeSem) σ q).1 < (den (cls modeSem) σ' q).1) := by
  induction q using Nat.strong_induction_on with
  | _ q ih =>
    rw [den, den]
    change (denProg σ _ (compile modeSem (body q) [])).1 ≤ (denProg σ' _ (compile modeSem (body q) [])).1 ∧
      (p ∈ (denProg σ _ (compile modeSem (body q) [])).2 →
        (denProg σ _ (compile modeSem (body q) [])).1 < (denProg σ' _ (compile modeSem (body q) [])).1)
    rw [denProg_mode, denProg_mode, denProg_compile, ← funext hr]
    simp only [List.sum_nil, Nat.zero_add]
    exact sumB_lt _ hσ hp _ _ _ (fun i : Fin q => ih i i.2) (body q)

omit [Inhabited V] in
/-- what a quantity reads itself is among what it depends on -/
theorem deps_direct {c : Cls String V} {σ : String → V} {q i : ℕ} (h : i ∈ direct c σ q) :
    (den c σ i).2 ⊆ (den c σ q).2 := by
  have e : den c σ q = denProg σ (fun i : Fin q => den c σ i) (c.code q) := by rw [den]
  rw [e]
  unfold direct at h
  generalize c.code q = pr at h
  induction pr with
  | ret v => simp [directQ] at h
  | param p k ih => exact (ih _ h).trans (Finset.subset_insert _ _)
  | quant j k ih =>
    simp only [directQ, Finset.mem_insert] at h
    simp only [denProg]
    rcases h with rfl | h
    · exact Finset.subset_union_left
    · exact (ih _ h).trans Finset.subset_union_right

omit [Inhabited V] in
theorem deps_uses {c : Cls String V} {σ : String → V} {q i : ℕ} (h : Uses c σ q i) : (den c σ i).2 ⊆ (den c σ q).2 := by
  induction h with
  | self q => exact Finset.Subset.refl _
  | step h1 _ ih => exact ih.trans (deps_direct h1)

/-- C98: it happens: read the matter spectrum, switch feedback on, read it again and change the AGN temperature; for one of
two temperatures the spectrum is not that of an object built with it -/
theorem C98_feedback_stale : ∃ T : ℕ,
    Stale modeSem (fun _ => 0)
      [.read mm, .set "hmcode_ingredients" 1, .read mm, .set "log10T_AGN" T] mm := by
  let τ : String → ℕ := Function.update (fun _ => 0) "hmcode_ingredients" 1
  have hfb : ∀ T, outcome modeSem (Function.update τ "log10T_AGN" T) .feedback = true := fun T => by
    simp [outcome, modeSem, Test.param, τ, Function.update]
  have hresp : ∀ T, outcome modeSem (Function.update τ "log10T_AGN" T) .response = false := fun T => by
    simp [outcome, modeSem]
  have hu : Uses (cls modeSem) (Function.update τ "log10T_AGN" 0) mm matterProfileFeedback :=
    uses (fits (l := [(.feedback, true), (.response, false)]) (by simp [hfb, hresp])) _ _ (by decide +kernel)
  have hin : "log10T_AGN" ∈ (den (cls modeSem) (Function.update τ "log10T_AGN" 0) matterProfileFeedback).2 := by
    rw [den]
    change _ ∈ (denProg _ _ (compile modeSem (body matterProfileFeedback) [])).2
    rw [denProg_compile]
    simp [body, reads, depsB]
  have hlt := (mode_lt (p := "log10T_AGN") (σ := Function.update τ "log10T_AGN" 0) (σ' := Function.update τ "log10T_AGN" 1)
    (fun x => by by_cases hx : x = "log10T_AGN" <;> simp [Function.update, hx]) (by simp [Function.update])
    (fun t => by cases t <;> simp [outcome, modeSem, Test.param, Function.update]) mm).2 (deps_uses hu hin)
  rcases C98_one_is_stale modeSem (fun _ => 0) [] [.set "hmcode_ingredients" 1] (q := mm) (p := "log10T_AGN") (by decide)
    (by simp) (by simp) (not_looks (fits (l := [(.feedback, false)]) (by simp [outcome, modeSem, finalParams]))
      _ _ (by decide +kernel)) 0 1 (by
        rw [value_new, value_new]
        exact ne_of_lt hlt) with h | h
  · exact ⟨0, h⟩
  · exact ⟨1, h⟩

/-- the hypotheses of `C98_modes_are_safe` are met with the mode changed twice between reads -/
example : ¬ Stale plainSem (fun _ => 0)
    [.read mm, .set "nonlinear_mode" 1, .read gg, .set "omega_c" 3, .set "response" 2, .read mm, .set "n_s" 1] gg :=
  C98_modes_are_safe plainSem _ _ (by simp [ReadsIn, SameOptions, plainSem, outcome]) rfl rfl rfl rfl gg (by simp)

example : Late modeSem (fun _ => 0) mm ["log10T_AGN"] [] [.set "hmcode_ingredients" 1] [.set "log10T_AGN" 7, .read gg] :=
  ⟨by simp, by simp, by simp⟩

end Verif.ModeChange

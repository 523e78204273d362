import Verif.Props.CacheRegime

/-! Property C95: what an object reports when one of its quantities is frozen.  Every quantity has the value of a plain
evaluation for the present parameters in which the frozen quantity is replaced by the value the object reports for it,
and that value is the one of the parameters at the first read that used it. -/

namespace Verif.Cache

variable {P V : Type} [DecidableEq P] {c : Cls P V} {Good : (P → V) → Prop} {f : ℕ} {w : V}

theorem denProg_congr (σ : P → V) {n : ℕ} {ev ev' : Fin n → V × Finset P} (h : ∀ i, ev i = ev' i)
    (pr : Prog P V n) : denProg σ ev pr = denProg σ ev' pr := by
  have : ev = ev' := funext h
  rw [this]

theorem denProg_fst_congr (σ : P → V) {n : ℕ} {ev ev' : Fin n → V × Finset P} (h : ∀ i, (ev i).1 = (ev' i).1)
    (pr : Prog P V n) : (denProg σ ev pr).1 = (denProg σ ev' pr).1 := by
  induction pr with
  | ret v => rfl
  | param p k ih => exact ih _
  | quant q k ih => simp only [denProg]; rw [h q]; exact ih _

theorem den_pin_self (σ : P → V) : den (pin c f w) σ f = (w, ∅) := by
  rw [den]
  simp [pin, denProg]

theorem den_pin_ne (σ : P → V) {q : ℕ} (hq : q ≠ f) :
    den (pin c f w) σ q = denProg σ (fun i => den (pin c f w) σ i) (c.code q) := by
  rw [den]
  simp [pin, hq]

theorem den_pin_below (σ : P → V) (i : ℕ) (hi : i < f) : den (pin c f w) σ i = den c σ i := by
  induction i using Nat.strong_induction_on with
  | _ i ih =>
    rw [den_pin_ne σ (Nat.ne_of_lt hi), den]
    exact denProg_congr σ (fun j => ih j j.2 (j.2.trans hi)) _

theorem den_pin_eq (σ : P → V) (hw : w = (den c σ f).1) (q : ℕ) : (den (pin c f w) σ q).1 = (den c σ q).1 := by
  induction q using Nat.strong_induction_on with
  | _ q ih =>
    by_cases hq : q = f
    · subst hq; rw [den_pin_self, hw]
    · rw [den_pin_ne σ hq, den]
      exact denProg_fst_congr σ (fun j => ih j j.2) _

/-- the invariant for a given value `w` of the frozen quantity -/
def InvP (c : Cls P V) (Good : (P → V) → Prop) (f : ℕ) (w : V) (o : Obj P V) : Prop :=
  (∀ q, q ≠ f → ∀ D, o.index q = some D → (∀ τ, Good τ → (den (pin c f w) τ q).2 ⊆ D) ∧
    (o.flagged q = false →
      ∃ τ, Good τ ∧ o.memo q = (den (pin c f w) τ q).1 ∧ ∀ p ∈ D, τ p = o.params p)) ∧
  (o.done f = true → o.memo f = w)

theorem runProg_pin {σ : P → V} {H : Prop} {n : ℕ} (ev : Fin n → Obj P V → V × Finset P × Obj P V)
    (hmono : ∀ i o, o.done f = true → (ev i o).2.2.done f = true)
    (hev : ∀ i o, o.params = σ → InvP c Good f w o → ((ev i o).2.2.done f = true → o.done f = true ∨ H) →
      (ev i o).2.2.params = σ ∧ InvP c Good f w (ev i o).2.2 ∧ (ev i o).1 = (den (pin c f w) σ i).1 ∧
        (den (pin c f w) σ i).2 ⊆ (ev i o).2.1)
    (pr : Prog P V n) (o : Obj P V) (ho : o.params = σ) (hi : InvP c Good f w o)
    (hH : (runProg ev pr o).2.2.done f = true → o.done f = true ∨ H) :
    (runProg ev pr o).2.2.params = σ ∧ InvP c Good f w (runProg ev pr o).2.2 ∧
      (runProg ev pr o).1 = (denProg σ (fun i => den (pin c f w) σ i) pr).1 ∧
      (denProg σ (fun i => den (pin c f w) σ i) pr).2 ⊆ (runProg ev pr o).2.1 := by
  have hrun : ∀ (pr : Prog P V n) (o : Obj P V), o.done f = true → (runProg ev pr o).2.2.done f = true := by
    intro pr
    induction pr with
    | ret v => exact fun o h => h
    | param p k ih => exact fun o h => ih _ o h
    | quant q k ih => exact fun o h => ih _ _ (hmono q o h)
  induction pr generalizing o with
  | ret v => exact ⟨ho, hi, rfl, subset_rfl⟩
  | param p k ih =>
    obtain ⟨h1, h2, h3, h4⟩ := ih (o.params p) o ho hi hH
    simp only [runProg, denProg]
    rw [← ho] at h3 h4 ⊢
    exact ⟨h1.trans ho.symm, h2, h3, Finset.insert_subset_insert _ h4⟩
  | quant q k ih =>
    obtain ⟨h1, h2, h3, h4⟩ := hev q o ho hi (fun h => hH (hrun (k (ev q o).1) _ h))
    have hH' : (runProg ev (k (ev q o).1) (ev q o).2.2).2.2.done f = true → (ev q o).2.2.done f = true ∨ H :=
      fun h => (hH h).imp (hmono q o) id
    obtain ⟨g1, g2, g3, g4⟩ := ih (ev q o).1 _ h1 h2 hH'
    simp only [runProg, denProg]
    rw [h3] at g1 g2 g3 g4 ⊢
    exact ⟨g1, g2, g3, Finset.union_subset_union h4 g4⟩

theorem readQ_pin (hf : OneFrozen c Good f) (q : ℕ) (o : Obj P V) (hg : Good o.params) (hi : InvP c Good f w o)
    (hH : (readQ c q o).2.2.done f = true → o.done f = true ∨ w = (den c o.params f).1) :
    (readQ c q o).2.2.params = o.params ∧ InvP c Good f w (readQ c q o).2.2 ∧
      (readQ c q o).1 = (den (pin c f w) o.params q).1 ∧ (den (pin c f w) o.params q).2 ⊆ (readQ c q o).2.1 := by
  have hfr : c.kind f = .frozen := (hf.only f).2 rfl
  induction q using Nat.strong_induction_on generalizing o with
  | _ q ih =>
    have hmono : ∀ (i : Fin q) (o : Obj P V), o.done f = true → (readQ c i o).2.2.done f = true :=
      fun i o h => (readQ_frozen f hfr i o h).1
    have hev : ∀ (i : Fin q) (o' : Obj P V), o'.params = o.params → InvP c Good f w o' →
        ((readQ c i o').2.2.done f = true → o'.done f = true ∨ w = (den c o.params f).1) →
        (readQ c i o').2.2.params = o.params ∧ InvP c Good f w (readQ c i o').2.2 ∧
        (readQ c i o').1 = (den (pin c f w) o.params i).1 ∧
          (den (pin c f w) o.params i).2 ⊆ (readQ c i o').2.1 := by
      intro i o' ho' hi' hH'
      have := ih i i.2 o' (by rw [ho']; exact hg) hi' (by rw [ho']; exact hH')
      rw [ho'] at this
      exact this
    have hrun := runProg_pin (c := c) (Good := Good) (f := f) (w := w) (H := w = (den c o.params f).1)
      (fun i o => readQ c i o) hmono hev (c.code q) o rfl hi
    generalize hR : runProg (fun (i : Fin q) o => readQ c i o) (c.code q) o = r at hrun
    rw [readQ, hR] at hH ⊢
    cases hk : c.kind q with
    | frozen =>
      have hq : q = f := (hf.only q).1 hk
      rw [hk] at hH
      simp only at hH ⊢
      subst hq
      by_cases hd : o.done q = true
      · simp only [hd, if_true] at hH ⊢
        exact ⟨trivial, hi, by rw [den_pin_self]; exact hi.2 hd, by rw [den_pin_self]⟩
      · simp only [hd] at hH ⊢
        have hw : w = (den c o.params q).1 := by simpa using hH
        obtain ⟨h1, h2, h3, h4⟩ := hrun (fun _ => Or.inr hw)
        have hval : r.1 = w := by
          rw [h3, hw, den]
          exact denProg_fst_congr _ (fun j => by rw [den_pin_below _ j j.2]) _
        simp only [Bool.false_eq_true, if_false]
        refine ⟨h1, ⟨fun q' hq' D hD => ?_, fun _ => ?_⟩, by rw [den_pin_self]; exact hval,
          by rw [den_pin_self]; exact Finset.empty_subset _⟩
        · simp only [Function.update_of_ne hq'] at hD ⊢
          exact h2.1 q' hq' D hD
        · simp only [Function.update_self]
          exact hval
    | tracked =>
      have hqf : q ≠ f := fun h => by rw [h, hfr] at hk; cases hk
      have hfq : f ≠ q := hqf.symm
      rw [hk] at hH
      simp only at hH ⊢
      cases hx : o.index q with
      | none =>
        rw [hx] at hH
        simp only at hH ⊢
        obtain ⟨h1, h2, h3, h4⟩ := hrun hH
        rw [← den_pin_ne _ hqf] at h3 h4
        refine ⟨h1, ⟨fun q' hq' D hD => ?_, fun hd => ?_⟩, h3, h4⟩
        · by_cases hne : q' = q
          · subst hne
            simp only [Function.update_self] at hD ⊢
            injection hD with hD
            refine ⟨fun τ hτ => ?_, fun _ => ⟨o.params, hg, h3, fun p _ => by rw [h1]⟩⟩
            rw [← hD, hf.same w τ o.params hτ hg]
            exact h4
          · simp only [Function.update_of_ne hne] at hD ⊢
            exact h2.1 q' hq' D hD
        · simp only [Function.update_of_ne hfq] at hd ⊢
          exact h2.2 hd
      | some D0 =>
        rw [hx] at hH
        simp only at hH ⊢
        by_cases hfl : o.flagged q = true
        · simp only [hfl, if_true] at hH ⊢
          obtain ⟨h1, h2, h3, h4⟩ := hrun hH
          rw [← den_pin_ne _ hqf] at h3 h4
          refine ⟨h1, ⟨fun q' hq' D hD => ?_, fun hd => ?_⟩, h3, h4.trans Finset.subset_union_left⟩
          · by_cases hne : q' = q
            · subst hne
              have := (h2.1 q' hq' D hD).1
              simp only [Function.update_self]
              exact ⟨this, fun _ => ⟨o.params, hg, h3, fun p _ => by rw [h1]⟩⟩
            · simp only [Function.update_of_ne hne] at hD ⊢
              exact h2.1 q' hq' D hD
          · simp only [Function.update_of_ne hfq] at hd ⊢
            exact h2.2 hd
        · have hfl' : o.flagged q = false := by simpa using hfl
          simp only [hfl', Bool.false_eq_true, if_false]
          obtain ⟨e1, e2⟩ := hi.1 q hqf D0 hx
          obtain ⟨τ, hτ, hm, ha⟩ := e2 hfl'
          have e : den (pin c f w) τ q = den (pin c f w) o.params q :=
            den_agree q fun p hp => ha p (e1 τ hτ hp)
          exact ⟨trivial, hi, by rw [hm, e], e1 _ hg⟩

theorem setP_pin (p : P) (v : V) (o : Obj P V) (hi : InvP c Good f w o) : InvP c Good f w (setP c p v o) := by
  unfold setP
  split_ifs with h1 h2
  · exact hi
  · refine ⟨fun q hq D hD => ?_, hi.2⟩
    simp only at hD ⊢
    cases hx : o.index q with
    | none => rw [hx] at hD; cases hD
    | some D0 =>
      rw [hx] at hD
      simp only at hD
      split_ifs at hD with hp
      injection hD with hD
      subst hD
      obtain ⟨e1, e2⟩ := hi.1 q hq D0 hx
      refine ⟨e1, fun hf => ?_⟩
      obtain ⟨τ, hτ, hm, ha⟩ := e2 hf
      exact ⟨τ, hτ, hm, fun x hx' => by
        rw [ha x hx', Function.update_of_ne (fun h : x = p => hp (h ▸ hx'))]⟩
  · refine ⟨fun q hq D hD => ?_, hi.2⟩
    simp only at hD ⊢
    obtain ⟨e1, e2⟩ := hi.1 q hq D hD
    refine ⟨e1, ?_⟩
    rw [hD]
    simp only
    by_cases hp : p ∈ D
    · intro h; simp [hp] at h
    · rw [if_neg hp]
      intro hf
      obtain ⟨τ, hτ, hm, ha⟩ := e2 hf
      exact ⟨τ, hτ, hm, fun x hx' => by
        rw [ha x hx', Function.update_of_ne (fun h : x = p => hp (h ▸ hx'))]⟩

theorem setP_done (p : P) (v : V) (o : Obj P V) : (setP c p v o).done = o.done ∧ (setP c p v o).memo = o.memo := by
  unfold setP
  split_ifs <;> exact ⟨rfl, rfl⟩

/-- before the frozen quantity is read the invariant holds for every value, afterwards for the one stored -/
def InvK (c : Cls P V) (Good : (P → V) → Prop) (f : ℕ) (o : Obj P V) : Prop :=
  ∀ w, (o.done f = true → w = o.memo f) → InvP c Good f w o

theorem readQ_K (hf : OneFrozen c Good f) (q : ℕ) (o : Obj P V) (hg : Good o.params) (hi : InvK c Good f o) :
    (readQ c q o).2.2.params = o.params ∧ InvK c Good f (readQ c q o).2.2 := by
  have hfr : c.kind f = .frozen := (hf.only f).2 rfl
  by_cases hd : o.done f = true
  · have hm := readQ_frozen f hfr q o hd
    have := readQ_pin hf q o hg (hi (o.memo f) fun _ => rfl) (fun _ => Or.inl hd)
    refine ⟨this.1, fun w hw => ?_⟩
    rw [hw hm.1, hm.2]
    exact this.2.1
  · have h0 := readQ_pin hf q o hg (hi (den c o.params f).1 fun h => absurd h hd) (fun _ => Or.inr rfl)
    refine ⟨h0.1, fun w hw => ?_⟩
    by_cases hd' : (readQ c q o).2.2.done f = true
    · rw [hw hd', h0.2.1.2 hd']
      exact h0.2.1
    · exact (readQ_pin hf q o hg (hi w fun h => absurd h hd) (fun h => absurd h hd')).2.1

theorem run_K (hf : OneFrozen c Good f) (h : List (Op P V)) (o : Obj P V) (hg : ReadsIn Good o.params h)
    (hi : InvK c Good f o) :
    InvK c Good f (run c o h) ∧ (run c o h).params = finalParams o.params h := by
  induction h generalizing o with
  | nil => exact ⟨hi, rfl⟩
  | cons a h ih =>
    have e : run c o (a :: h) = run c (step c o a) h := rfl
    rw [e]
    cases a with
    | read q =>
      obtain ⟨h1, h2⟩ := readQ_K hf q o hg.1 hi
      have := ih (readQ c q o).2.2 (by rw [h1]; exact hg.2) h2
      rw [h1] at this
      exact this
    | set p v =>
      have := ih (setP c p v o) (by rw [setP_params]; exact hg) (fun w hw => by
        rw [(setP_done p v o).1, (setP_done p v o).2] at hw
        exact setP_pin p v o (hi w hw))
      rw [setP_params] at this
      exact this

/-- what an object with the invariant reports -/
theorem value_K (hf : OneFrozen c Good f) (o : Obj P V) (hg : Good o.params) (hi : InvK c Good f o) (q : ℕ) :
    value c q o = (den (pin c f (value c f o)) o.params q).1 ∧
      (o.done f = false → value c f o = (den c o.params f).1) := by
  have hfr : c.kind f = .frozen := (hf.only f).2 rfl
  by_cases hd : o.done f = true
  · have hv : value c f o = o.memo f := by
      unfold value
      rw [readQ, hfr]
      simp [hd]
    refine ⟨?_, fun h => by rw [hd] at h; cases h⟩
    rw [hv]
    exact (readQ_pin hf q o hg (hi _ fun _ => rfl) (fun _ => Or.inl hd)).2.2.1
  · have h0 : ∀ q, _ := fun q =>
      (readQ_pin hf q o hg (hi (den c o.params f).1 fun h => absurd h hd) (fun _ => Or.inr rfl)).2.2.1
    have hv : value c f o = (den c o.params f).1 := by
      have := h0 f
      rw [den_pin_self] at this
      exact this
    refine ⟨?_, fun _ => hv⟩
    rw [hv]
    exact h0 q

/-- C95: whatever was read and set before, as long as all reads happen in the regime, every quantity of the object has
the value of a plain evaluation for the present parameters in which the frozen quantity has the value the object
reports for it -/
theorem C95_object_consistent [Inhabited V] (hf : OneFrozen c Good f) (σ : P → V) (h : List (Op P V))
    (hr : ReadsIn Good σ h) (hg : Good (finalParams σ h)) (q : ℕ) :
    value c q (run c (newObj σ) h) =
      (den (pin c f (value c f (run c (newObj σ) h))) (finalParams σ h) q).1 := by
  obtain ⟨h1, h2⟩ := run_K hf h (newObj σ) hr
    (fun w _ => ⟨(fun q _ D hD => by cases hD), (fun hd => by cases hd)⟩)
  have := (value_K hf _ (by rw [h2]; exact hg) h1 q).1
  rw [h2] at this
  exact this

/-- while the parameters stay the same, reading keeps the frozen quantity at the value of these parameters -/
theorem run_reads_frozen (hf : OneFrozen c Good f) (l : List ℕ) (o : Obj P V) (hg : Good o.params)
    (hi : InvK c Good f o) (hd : o.done f = true → o.memo f = (den c o.params f).1) :
    value c f (run c o (l.map Op.read)) = (den c o.params f).1 := by
  induction l generalizing o with
  | nil =>
    have hfr : c.kind f = .frozen := (hf.only f).2 rfl
    by_cases h : o.done f = true
    · have : value c f o = o.memo f := by
        unfold value
        rw [readQ, hfr]
        simp [h]
      exact this.trans (hd h)
    · exact (value_K hf o hg hi f).2 (by simpa using h)
  | cons q l ih =>
    obtain ⟨h1, h2⟩ := readQ_K hf q o hg hi
    have h3 := (readQ_pin hf q o hg (hi (den c o.params f).1 fun h => (hd h).symm) (fun _ => Or.inr rfl)).2.1.2
    have := ih (readQ c q o).2.2 (by rw [h1]; exact hg) h2 (by rw [h1]; exact h3)
    rw [h1] at this
    exact this

/-! ## When the frozen quantity gets its value -/

/-- before the frozen quantity is read nothing that uses it is stored -/
def InvA (c : Cls P V) (Good : (P → V) → Prop) (f : ℕ) (o : Obj P V) : Prop :=
  o.done f = false → ∀ q D, o.index q = some D → ∀ τ, Good τ → ¬ Uses c τ q f

theorem runProg_A {σ : P → V} {n : ℕ} (hfr : c.kind f = .frozen) (hf : OneFrozen c Good f) (hg : Good σ)
    (hev : ∀ (i : Fin n) o, o.params = σ → InvP c Good f (den c σ f).1 o → InvA c Good f o →
      InvA c Good f (readQ c i o).2.2 ∧ (Uses c σ i f → (readQ c i o).2.2.done f = true))
    (pr : Prog P V n) (o : Obj P V) (ho : o.params = σ) (hi : InvP c Good f (den c σ f).1 o) (ha : InvA c Good f o) :
    InvA c Good f (runProg (fun (i : Fin n) o => readQ c i o) pr o).2.2 ∧
      ((∃ i ∈ directQ σ (fun i => den c σ i) pr, Uses c σ i f) →
        (runProg (fun (i : Fin n) o => readQ c i o) pr o).2.2.done f = true) := by
  have hrun : ∀ (pr : Prog P V n) (o : Obj P V), o.done f = true →
      (runProg (fun (i : Fin n) o => readQ c i o) pr o).2.2.done f = true := fun pr o h =>
    (runProg_frozen _ f (fun i o h => readQ_frozen f hfr i o h) pr o h).1
  induction pr generalizing o with
  | ret v => exact ⟨ha, fun ⟨i, hi, _⟩ => by simp [directQ] at hi⟩
  | param p k ih =>
    have := ih (o.params p) o ho hi ha
    simp only [runProg, directQ]
    rw [← ho]
    rw [← ho] at this
    exact this
  | quant q k ih =>
    obtain ⟨h1, h2⟩ := hev q o ho hi ha
    have hp := readQ_pin hf q o (by rw [ho]; exact hg) hi (fun _ => Or.inr (by rw [ho]))
    have hv : (readQ c q o).1 = (den c σ q).1 := by rw [hp.2.2.1, ho]; exact den_pin_eq σ rfl q
    have := ih (readQ c q o).1 _ (hp.1.trans ho) hp.2.1 h1
    simp only [runProg, directQ, Finset.mem_insert]
    refine ⟨this.1, fun ⟨i, hi, hu⟩ => ?_⟩
    rcases hi with rfl | hi
    · exact hrun _ _ (h2 hu)
    · exact this.2 ⟨i, by rw [hv]; exact hi, hu⟩

theorem readQ_A (hf : OneFrozen c Good f) (q : ℕ) (o : Obj P V) (hg : Good o.params)
    (hi : InvP c Good f (den c o.params f).1 o) (ha : InvA c Good f o) :
    InvA c Good f (readQ c q o).2.2 ∧ (Uses c o.params q f → (readQ c q o).2.2.done f = true) := by
  have hfr : c.kind f = .frozen := (hf.only f).2 rfl
  induction q using Nat.strong_induction_on generalizing o with
  | _ q ih =>
    have hrun := runProg_A (c := c) (Good := Good) (f := f) hfr hf hg
      (fun (i : Fin q) o' ho' hi' ha' => by
        have := ih i i.2 o' (by rw [ho']; exact hg) (by rw [ho']; exact hi') ha'
        rw [ho'] at this
        exact this) (c.code q) o rfl hi ha
    have hdir : q ≠ f → Uses c o.params q f → ∃ i ∈ directQ o.params (fun i : Fin q => den c o.params i) (c.code q),
        Uses c o.params i f := by
      intro hq hu
      cases hu with
      | self => exact absurd rfl hq
      | step h1 h2 => exact ⟨_, h1, h2⟩
    generalize hR : runProg (fun (i : Fin q) o => readQ c i o) (c.code q) o = r at hrun
    rw [readQ, hR]
    cases hk : c.kind q with
    | frozen =>
      have hq : q = f := (hf.only q).1 hk
      subst hq
      simp only
      by_cases hd : o.done q = true
      · simp only [hd, if_true]
        exact ⟨ha, fun _ => trivial⟩
      · simp only [hd, Bool.false_eq_true, if_false]
        refine ⟨fun h => ?_, fun _ => by simp⟩
        simp at h
    | tracked =>
      have hqf : q ≠ f := fun h => by rw [h, hfr] at hk; cases hk
      simp only
      cases hx : o.index q with
      | none =>
        simp only
        refine ⟨fun hd q' D hD τ hτ hu => ?_, fun hu => hrun.2 (hdir hqf hu)⟩
        by_cases hne : q' = q
        · subst hne
          have := hrun.2 (hdir hqf (hf.uses τ o.params hτ hg q' hu))
          rw [hd] at this
          cases this
        · simp only [Function.update_of_ne hne] at hD
          exact hrun.1 hd q' D hD τ hτ hu
      | some D0 =>
        simp only
        by_cases hfl : o.flagged q = true
        · simp only [hfl, if_true]
          exact ⟨hrun.1, fun hu => hrun.2 (hdir hqf hu)⟩
        · have hfl' : o.flagged q = false := by simpa using hfl
          simp only [hfl', Bool.false_eq_true, if_false]
          refine ⟨ha, fun hu => ?_⟩
          by_contra hd
          exact ha (by simpa using hd) q D0 hx o.params hg hu

theorem run_A (hf : OneFrozen c Good f) (h : List (Op P V)) (o : Obj P V) (hg : ReadsIn Good o.params h)
    (hi : InvK c Good f o) (ha : InvA c Good f o) : InvA c Good f (run c o h) := by
  have hfr : c.kind f = .frozen := (hf.only f).2 rfl
  induction h generalizing o with
  | nil => exact ha
  | cons a h ih =>
    have e : run c o (a :: h) = run c (step c o a) h := rfl
    rw [e]
    cases a with
    | read q =>
      obtain ⟨h1, h2⟩ := readQ_K hf q o hg.1 hi
      refine ih (readQ c q o).2.2 (by rw [h1]; exact hg.2) h2 ?_
      by_cases hd : o.done f = true
      · intro hd'
        rw [(readQ_frozen f hfr q o hd).1] at hd'
        cases hd'
      · exact (readQ_A hf q o hg.1 (hi _ fun h => absurd h hd) ha).1
    | set p v =>
      refine ih (setP c p v o) (by rw [setP_params]; exact hg) (fun w hw => ?_) ?_
      · rw [(setP_done p v o).1, (setP_done p v o).2] at hw
        exact setP_pin p v o (hi w hw)
      · intro hd q D hD τ hτ hu
        rw [(setP_done p v o).1] at hd
        cases hx : o.index q with
        | none =>
          unfold setP at hD
          split_ifs at hD <;> simp [hx] at hD
        | some D0 => exact ha hd q D0 hx τ hτ hu

/-- C95: reading, in the regime, a quantity that uses the frozen quantity fixes the frozen quantity for good: after every
later history the object reports the value it had before that read.  If nothing that uses it was read before, that is its
plain value for the parameters of that moment. -/
theorem C95_frozen_at_first_use [Inhabited V] (hf : OneFrozen c Good f) (σ : P → V) (h₁ h₂ : List (Op P V)) (q : ℕ)
    (hr : ReadsIn Good σ h₁) (hg : Good (finalParams σ h₁)) (hu : Uses c (finalParams σ h₁) q f) :
    value c f (run c (newObj σ) (h₁ ++ .read q :: h₂)) = value c f (run c (newObj σ) h₁) ∧
      ((run c (newObj σ) h₁).done f = false →
        value c f (run c (newObj σ) h₁) = (den c (finalParams σ h₁) f).1) := by
  have hfr : c.kind f = .frozen := (hf.only f).2 rfl
  have hi0 : InvK c Good f (newObj σ) := fun w _ => ⟨(fun q _ D hD => by cases hD), (fun hd => by cases hd)⟩
  have ha0 : InvA c Good f (newObj σ) := fun _ q D hD => by cases hD
  obtain ⟨h1, h2⟩ := run_K hf h₁ (newObj σ) hr hi0
  have ha := run_A hf h₁ (newObj σ) hr hi0 ha0
  have e : run c (newObj σ) (h₁ ++ .read q :: h₂) = run c (readQ c q (run c (newObj σ) h₁)).2.2 h₂ := by
    simp [run, step]
  rw [e]
  generalize ho : run c (newObj σ) h₁ = o at h1 h2 ha
  rw [← ho, ho]
  have hg' : Good o.params := by rw [h2]; exact hg
  have hval := (value_K hf o hg' h1 f).2
  rw [h2] at hval
  refine ⟨?_, hval⟩
  have key : (readQ c q o).2.2.done f = true ∧ (readQ c q o).2.2.memo f = value c f o := by
    by_cases hd : o.done f = true
    · have := readQ_frozen f hfr q o hd
      refine ⟨this.1, this.2.trans ?_⟩
      unfold value
      rw [readQ, hfr]
      simp [hd]
    · have hd' : o.done f = false := by simpa using hd
      have hi' := h1 (den c o.params f).1 (fun h => absurd h hd)
      have hdone := (readQ_A hf q o hg' hi' ha).2 (by rw [h2]; exact hu)
      have := (readQ_pin hf q o hg' hi' (fun _ => Or.inr rfl)).2.1.2 hdone
      refine ⟨hdone, ?_⟩
      rw [this, hval hd', h2]
  have := run_frozen f hfr h₂ _ key.1
  have e2 : value c f (run c (readQ c q o).2.2 h₂) = (run c (readQ c q o).2.2 h₂).memo f := by
    unfold value
    rw [readQ, hfr]
    simp [this.1]
  rw [e2, this.2, key.2]

end Verif.Cache

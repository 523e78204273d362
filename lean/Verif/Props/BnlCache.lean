import Verif.Model.BnlCache
import Verif.Props.ModeChange
import Verif.Props.CacheRegime
import Mathlib.Data.Finset.Insert
import Mathlib.Data.Finset.Lattice.Lemmas
import Mathlib.Tactic.Tauto
import Mathlib.Logic.Equiv.List

/-! C130: which changes of a live `NonLinearBias` object are noticed. -/

namespace Verif.Cache

variable {P V : Type} [DecidableEq P] {c : Cls P V}

/-- every stored value of the quantities `T` that would be handed out is the right one -/
def Right (c : Cls P V) (T : Set ℕ) (o : Obj P V) : Prop :=
  ∀ q ∈ T, ∀ D, o.index q = some D → o.flagged q = false → o.memo q = (den c o.params q).1

variable {T : Set ℕ}

theorem runProg_right {n : ℕ} {σ : P → V} (ev : Fin n → Obj P V → V × Finset P × Obj P V)
    (hev : ∀ (i : Fin n) o, o.params = σ → Right c T o →
      ((i : ℕ) ∈ T → (ev i o).1 = (den c σ i).1) ∧ (ev i o).2.2.params = σ ∧ Right c T (ev i o).2.2)
    (pr : Prog P V n) (o : Obj P V) (ho : o.params = σ) (hr : Right c T o) :
    (ReadsOnly T pr → (runProg ev pr o).1 = (denProg σ (fun i : Fin n => den c σ i) pr).1) ∧
      (runProg ev pr o).2.2.params = σ ∧ Right c T (runProg ev pr o).2.2 := by
  induction pr generalizing o with
  | ret v => exact ⟨fun _ => rfl, ho, hr⟩
  | param p k ih =>
    obtain ⟨h1, h2, h3⟩ := ih (o.params p) o ho hr
    subst ho
    exact ⟨fun h => h1 (h _), h2, h3⟩
  | quant i k ih =>
    obtain ⟨h1, h2, h3⟩ := hev i o ho hr
    obtain ⟨e1, e2, e3⟩ := ih (ev i o).1 (ev i o).2.2 h2 h3
    refine ⟨fun h => ?_, e2, e3⟩
    have := e1 (h.2 _)
    rw [h1 h.1] at this
    simp only [runProg, denProg, h1 h.1]
    exact this

/-- reading from an object with right stored values gives the right value, and keeps stored values right -/
theorem readQ_right (ht : ∀ q, c.kind q = .tracked) (hT : ∀ q ∈ T, ReadsOnly T (c.code q)) (q : ℕ) (o : Obj P V)
    (hr : Right c T o) :
    (q ∈ T → (readQ c q o).1 = (den c o.params q).1) ∧ (readQ c q o).2.2.params = o.params ∧
      Right c T (readQ c q o).2.2 := by
  induction q using Nat.strong_induction_on generalizing o with
  | _ q ih =>
    have hrun := runProg_right (c := c) (T := T) (σ := o.params) (fun (i : Fin q) o => readQ c i o)
      (fun i o' ho' hr' => by
        obtain ⟨a, b, d⟩ := ih i i.2 o' hr'
        rw [ho'] at a b
        exact ⟨a, b, d⟩) (c.code q) o rfl hr
    have hden : (denProg o.params (fun i : Fin q => den c o.params i) (c.code q)).1 = (den c o.params q).1 := by rw [den]
    rw [hden] at hrun
    obtain ⟨h1, h2, h3⟩ := hrun
    rw [readQ, ht q]
    cases hD : o.index q with
    | none =>
      refine ⟨fun h => h1 (hT q h), h2, fun x hx D hxD hf => ?_⟩
      by_cases e : x = q
      · subst e
        simp only [Function.update_self, h2]
        exact h1 (hT x hx)
      · simp only [Function.update_of_ne e] at hxD hf ⊢
        rw [h3 x hx D hxD hf]
    | some D =>
      simp only
      by_cases hf : o.flagged q = true
      · simp only [hf, if_true]
        refine ⟨fun h => h1 (hT q h), h2, fun x hx D hxD hf => ?_⟩
        by_cases e : x = q
        · subst e
          simp only [Function.update_self, h2]
          exact h1 (hT x hx)
        · simp only [Function.update_of_ne e] at hxD hf ⊢
          rw [h3 x hx D hxD hf]
      · have hf' : o.flagged q = false := by simpa using hf
        simp only [hf']
        exact ⟨fun h => hr q h D hD hf', rfl, hr⟩

/-- setting a parameter keeps stored values right if the quantities it matters to have it in their index -/
theorem setP_right (hs : ∀ p, c.isSwitch p = false) (p : P) (v : V) (o : Obj P V)
    (hr : ∀ q ∈ T, ∀ D, o.index q = some D → p ∉ D → o.flagged q = false → o.memo q = (den c o.params q).1)
    (he : v = o.params p → Right c T o)
    (hp : ∀ q ∈ T, ∀ D, o.index q = some D → p ∉ D →
      (den c (Function.update o.params p v) q).1 = (den c o.params q).1) :
    Right c T (setP c p v o) := by
  unfold setP
  rw [hs p]
  split_ifs with h1 h2
  · exact he h1
  · exact absurd h2 (by simp)
  · intro q hq D hD hf
    simp only at hD hf ⊢
    rw [hD] at hf
    simp only at hf
    split_ifs at hf with hpD
    rw [hp q hq D hD hpD]
    exact hr q hq D hD hpD hf

/-- what a program collects at least when every quantity it reads contributes at least `base` -/
def Covers (σ : P → V) (base : ℕ → Finset P) (B : Finset P) {n : ℕ} : Finset P → Prog P V n → Prop
  | acc, .ret _ => B ⊆ acc
  | acc, .param p k => Covers σ base B (insert p acc) (k (σ p))
  | acc, .quant i k => ∀ v, Covers σ base B (acc ∪ base i) (k v)

/-- stored indexes contain `base` -/
def Lower (base : ℕ → Finset P) (o : Obj P V) : Prop := ∀ q D, o.index q = some D → base q ⊆ D

theorem runProg_lower {n : ℕ} {σ : P → V} {base : ℕ → Finset P} {B : Finset P} {Q : Obj P V → Prop}
    (ev : Fin n → Obj P V → V × Finset P × Obj P V)
    (hev : ∀ (i : Fin n) o, o.params = σ → Q o → base i ⊆ (ev i o).2.1 ∧ (ev i o).2.2.params = σ ∧ Q (ev i o).2.2)
    (pr : Prog P V n) (o : Obj P V) (ho : o.params = σ) (hq : Q o) :
    (runProg ev pr o).2.2.params = σ ∧ Q (runProg ev pr o).2.2 ∧
      ∀ acc, Covers σ base B acc pr → B ⊆ acc ∪ (runProg ev pr o).2.1 := by
  induction pr generalizing o with
  | ret v => exact ⟨ho, hq, fun acc h => h.trans Finset.subset_union_left⟩
  | param p k ih =>
    obtain ⟨h1, h2, h3⟩ := ih (o.params p) o ho hq
    refine ⟨h1, h2, fun acc h => ?_⟩
    have := h3 (insert p acc) (by subst ho; exact h)
    refine this.trans fun x hx => ?_
    simp only [runProg, Finset.mem_union, Finset.mem_insert] at hx ⊢
    tauto
  | quant i k ih =>
    obtain ⟨e1, e2, e3⟩ := hev i o ho hq
    obtain ⟨h1, h2, h3⟩ := ih (ev i o).1 (ev i o).2.2 e2 e3
    refine ⟨h1, h2, fun acc h => ?_⟩
    have := h3 _ (h (ev i o).1)
    refine this.trans ?_
    simp only [runProg]
    intro x hx
    simp only [Finset.mem_union] at hx ⊢
    rcases hx with (hx | hx) | hx
    · exact Or.inl hx
    · exact Or.inr (Or.inl (e1 hx))
    · exact Or.inr (Or.inr hx)

/-- reading keeps the lower bound of the indexes, if what is read for the first time now covers it -/
theorem readQ_lower (ht : ∀ q, c.kind q = .tracked) {base : ℕ → Finset P} (σ : P → V) (q : ℕ) (o : Obj P V) (ho : o.params = σ)
    (hl : Lower base o) (hc : ∀ x, Covers σ base (base x) ∅ (c.code x) ∨ o.index x ≠ none) :
    base q ⊆ (readQ c q o).2.1 ∧ (readQ c q o).2.2.params = σ ∧ Lower base (readQ c q o).2.2 ∧
      ∀ x, Covers σ base (base x) ∅ (c.code x) ∨ (readQ c q o).2.2.index x ≠ none := by
  have hpers : ∀ x, Covers σ base (base x) ∅ (c.code x) ∨ (readQ c q o).2.2.index x ≠ none := by
    intro x
    rcases hc x with h | h
    · exact Or.inl h
    · obtain ⟨D, hD⟩ := Option.ne_none_iff_exists'.1 h
      exact Or.inr (by rw [readQ_index x D q o hD]; simp)
  suffices h : base q ⊆ (readQ c q o).2.1 ∧ (readQ c q o).2.2.params = σ ∧ Lower base (readQ c q o).2.2 from
    ⟨h.1, h.2.1, h.2.2, hpers⟩
  clear hpers
  induction q using Nat.strong_induction_on generalizing o with
  | _ q ih =>
    have hrun := runProg_lower (σ := σ) (base := base) (B := base q)
      (Q := fun o => Lower base o ∧ ∀ x, Covers σ base (base x) ∅ (c.code x) ∨ o.index x ≠ none)
      (fun (i : Fin q) o => readQ c i o)
      (fun i o' ho' hq' => by
        obtain ⟨a, b, d⟩ := ih i i.2 o' ho' hq'.1 hq'.2
        refine ⟨a, b, d, fun x => ?_⟩
        rcases hq'.2 x with h | h
        · exact Or.inl h
        · obtain ⟨D, hD⟩ := Option.ne_none_iff_exists'.1 h
          exact Or.inr (by rw [readQ_index x D i o' hD]; simp)) (c.code q) o ho ⟨hl, hc⟩
    obtain ⟨h1, ⟨h2, -⟩, h3⟩ := hrun
    rw [readQ, ht q]
    cases hD : o.index q with
    | none =>
      have hcov : base q ⊆ (runProg (fun (i : Fin q) o => readQ c i o) (c.code q) o).2.1 := by
        rcases hc q with h | h
        · refine (h3 ∅ h).trans fun x hx => ?_
          simpa using hx
        · exact absurd hD h
      refine ⟨hcov, h1, fun x D hx => ?_⟩
      by_cases e : x = q
      · subst e
        simp only [Function.update_self, Option.some.injEq] at hx
        subst hx
        exact hcov
      · simp only [Function.update_of_ne e] at hx
        exact h2 x D hx
    | some D =>
      simp only
      by_cases hf : o.flagged q = true
      · simp only [hf, if_true]
        exact ⟨(hl q D hD).trans Finset.subset_union_right, h1, h2⟩
      · have hf' : o.flagged q = false := by simpa using hf
        simp only [hf']
        exact ⟨hl q D hD, ho, hl⟩

theorem setP_lower (hs : ∀ p, c.isSwitch p = false) {base : ℕ → Finset P} (p : P) (v : V) (o : Obj P V) (hl : Lower base o) :
    Lower base (setP c p v o) := by
  intro q D hD
  unfold setP at hD
  rw [hs p] at hD
  split_ifs at hD with h1 h2
  · exact hl q D hD
  · exact absurd h2 (by simp)
  · exact hl q D hD

/-- settings made before anything is read leave a newly built object -/
theorem run_sets [Inhabited V] (hs : ∀ p, c.isSwitch p = false) (sets : List (Op P V)) (hr : ∀ q, Op.read q ∉ sets) (σ : P → V) :
    run c (newObj σ) sets = newObj (finalParams σ sets) := by
  induction sets generalizing σ with
  | nil => rfl
  | cons a sets ih =>
    cases a with
    | read q => exact absurd List.mem_cons_self (hr q)
    | set p v =>
      have e : step c (newObj σ) (.set p v) = newObj (Function.update σ p v) := by
        simp only [step]
        unfold setP
        rw [hs p]
        split_ifs with h1 h2
        · have : v = σ p := h1
          subst this
          simp
        · exact absurd h2 (by simp)
        · rfl
      have := ih (fun q hq => hr q (List.mem_cons_of_mem _ hq)) (Function.update σ p v)
      rw [← e] at this
      exact this

end Verif.Cache

namespace Verif.BnlCache

open Verif.Cache

variable {V : Type} (S : Sem V)

/-- `A_s` or `sigma_8` is given -/
def Given (σ : Par → V) : Prop := S.isNone (σ .aS) = false ∨ S.isNone (σ .sigma8) = false

/-- the parameters a quantity always looks at -/
def base : ℕ → Finset Par
  | 0 => {.omegaB, .h0}
  | 1 => {.omegaC, .h0}
  | 2 => {.aS, .omegaB, .h0, .omegaC, .omegaLambda, .nS, .w0}
  | 3 => {.zVec, .zDep, .aS, .omegaB, .h0, .omegaC, .omegaLambda, .nS, .w0}
  | 4 => {.mass, .kVec, .zVec, .zDep, .aS, .omegaB, .h0, .omegaC, .omegaLambda, .nS, .w0}
  | _ => ∅

/-- those and `sigma_8` -/
def full (q : ℕ) : Finset Par := if 2 ≤ q ∧ q ≤ 4 then insert .sigma8 (base q) else base q

theorem covers_base (σ : Par → V) (hg : Given S σ) (q : ℕ) : Covers σ base (base q) ∅ ((cls S).code q) := by
  match q with
  | 0 | 1 => simp only [cls, code, Covers]; decide
  | 2 =>
    simp only [cls, code, Covers]
    rcases hg with h | h
    · simp only [h, Bool.false_eq_true, if_false, cosmology, Covers]
      intro _ _; decide
    · split_ifs
      · simp only [Covers, h, Bool.false_eq_true, if_false, cosmology]
        intro _ _; decide
      · simp only [cosmology, Covers]
        intro _ _; decide
  | 3 => simp only [cls, code, Covers]; intro _; decide
  | 4 =>
    simp only [cls, code, Covers]
    intro _
    split_ifs <;> simp only [Covers] <;> decide
  | n + 5 => simp only [cls, code, Covers, base]; decide

theorem covers_full (σ : Par → V) (hn : S.isNone (σ .aS) = true) (hg : S.isNone (σ .sigma8) = false) (q : ℕ) :
    Covers σ full (full q) ∅ ((cls S).code q) := by
  match q with
  | 0 | 1 => simp only [cls, code, Covers]; decide
  | 2 =>
    simp only [cls, code, Covers, hn, hg, if_true, Bool.false_eq_true, if_false, cosmology]
    intro _ _; decide
  | 3 => simp only [cls, code, Covers]; intro _; decide
  | 4 =>
    simp only [cls, code, Covers]
    intro _
    split_ifs <;> simp only [Covers] <;> decide
  | n + 5 =>
    simp only [cls, code, Covers]
    have : full (n + 5) = ∅ := by
      have h : ¬ (2 ≤ n + 5 ∧ n + 5 ≤ 4) := by omega
      rw [full, if_neg h]; rfl
    rw [this]

theorem covers_full' (σ : Par → V) (q : ℕ) (hq : q ≠ 2) : Covers σ full (full q) ∅ ((cls S).code q) := by
  match q with
  | 0 | 1 => simp only [cls, code, Covers]; decide
  | 2 => exact absurd rfl hq
  | 3 => simp only [cls, code, Covers]; intro _; decide
  | 4 =>
    simp only [cls, code, Covers]
    intro _
    split_ifs <;> simp only [Covers] <;> decide
  | n + 5 =>
    simp only [cls, code, Covers]
    have : full (n + 5) = ∅ := by
      have h : ¬ (2 ≤ n + 5 ∧ n + 5 ≤ 4) := by omega
      rw [full, if_neg h]; rfl
    rw [this]

/-- the value of the emulator for given parameters -/
def emuVal (σ : Par → V) : V :=
  let ob := S.out ombh2 [σ .omegaB, σ .h0]
  let oc := S.out omch2 [σ .omegaC, σ .h0]
  if S.isNone (σ .aS) = true then
    if S.isNone (σ .sigma8) = true then S.out emulator [σ .aS, σ .sigma8]
    else S.out emulator [σ .aS, σ .sigma8, ob, oc, σ .omegaLambda, σ .nS, σ .w0]
  else S.out emulator [σ .aS, ob, oc, σ .omegaLambda, σ .nS, σ .w0]

theorem den_zero (σ : Par → V) : (den (cls S) σ 0).1 = S.out ombh2 [σ .omegaB, σ .h0] := by
  rw [den]; rfl

theorem den_one (σ : Par → V) : (den (cls S) σ 1).1 = S.out omch2 [σ .omegaC, σ .h0] := by
  rw [den]; rfl

theorem den_two (σ : Par → V) : (den (cls S) σ 2).1 = emuVal S σ := by
  rw [den]
  have e : (cls S).code 2 = code S 2 := rfl
  simp only [e, code, denProg, emuVal]
  rw [← den_zero S σ, ← den_one S σ]
  by_cases h1 : S.isNone (σ .aS) = true
  · simp only [h1, if_true, denProg]
    by_cases h2 : S.isNone (σ .sigma8) = true
    · simp only [h2, if_true, denProg]
    · simp only [h2, cosmology]; rfl
  · simp only [h1, cosmology]; rfl

theorem den_three (σ : Par → V) : (den (cls S) σ 3).1 = S.out interpolation [σ .zVec, emuVal S σ, σ .zDep] := by
  rw [den, ← den_two]; rfl

theorem den_four (σ : Par → V) : (den (cls S) σ 4).1 =
    if S.truthy (σ .zDep) = true then
      S.out bnl [S.out interpolation [σ .zVec, emuVal S σ, σ .zDep], σ .mass, σ .kVec, σ .zDep, σ .zVec]
    else S.out bnl [S.out interpolation [σ .zVec, emuVal S σ, σ .zDep], σ .mass, σ .kVec, σ .zDep] := by
  rw [den, ← den_three]
  simp only [cls, code, denProg]
  split_ifs <;> rfl

theorem den_rest (σ : Par → V) (n : ℕ) : (den (cls S) σ (n + 5)).1 = S.out 5 [] := by
  rw [den]; rfl

/-- a parameter outside `base` does not matter, except `sigma_8` while `A_s` is `None` -/
theorem den_local (σ : Par → V) (p : Par) (v : V) (q : ℕ) (hp : p ∉ base q) (h8 : p = .sigma8 → S.isNone (σ .aS) = false) :
    (den (cls S) (Function.update σ p v) q).1 = (den (cls S) σ q).1 := by
  have emu : p ∉ base 2 → emuVal S (Function.update σ p v) = emuVal S σ := by
    intro hp
    cases p <;> first | exact absurd (by decide) hp | simp [emuVal, Function.update, h8]
  match q with
  | 0 | 1 => cases p <;> first | exact absurd (by decide) hp | simp [den_zero, den_one, Function.update]
  | 2 => rw [den_two, den_two, emu hp]
  | 3 =>
    rw [den_three, den_three]
    cases p <;> first | exact absurd (by decide) hp | (rw [emu (by decide)]; simp [Function.update])
  | 4 =>
    rw [den_four, den_four]
    cases p <;> first | exact absurd (by decide) hp | (rw [emu (by decide)]; simp [Function.update])
  | n + 5 => rw [den_rest, den_rest]

theorem only_all (q : ℕ) (pr : Prog Par V q) : ReadsOnly Set.univ pr := by
  induction pr with
  | ret v => trivial
  | param p k ih => exact ih
  | quant i k ih => exact ⟨trivial, ih⟩

theorem finalParams_append (σ : Par → V) (h t : List (Op Par V)) :
    finalParams σ (h ++ t) = finalParams (finalParams σ h) t := by
  induction h generalizing σ with
  | nil => rfl
  | cons a h ih => cases a <;> exact ih _

theorem readsIn_append {Good : (Par → V) → Prop} (σ : Par → V) (h t : List (Op Par V)) :
    ReadsIn Good σ (h ++ t) ↔ ReadsIn Good σ h ∧ ReadsIn Good (finalParams σ h) t := by
  induction h generalizing σ with
  | nil => simp [ReadsIn, finalParams]
  | cons a h ih =>
    cases a with
    | read q => simp only [List.cons_append, ReadsIn, ih, finalParams]; tauto
    | set p v => simp only [List.cons_append, ReadsIn, ih, finalParams]

theorem run_append (o : Obj Par V) (h t : List (Op Par V)) : run (cls S) o (h ++ t) = run (cls S) (run (cls S) o h) t := by
  simp [run, List.foldl_append]

theorem run_params (h : List (Op Par V)) (o : Obj Par V) : (run (cls S) o h).params = finalParams o.params h := by
  induction h generalizing o with
  | nil => rfl
  | cons a h ih =>
    have e : run (cls S) o (a :: h) = run (cls S) (step (cls S) o a) h := rfl
    rw [e, ih]
    cases a with
    | read q =>
      have : (readQ (cls S) q o).2.2.params = o.params :=
        (readQ_right (T := ∅) (fun _ => rfl) (fun _ h => h.elim) q o (fun _ h => h.elim)).2.1
      simp only [step, this, finalParams]
    | set p v => simp only [step, setP_params, finalParams]

/-- after any history that reads only when an amplitude is given, all indexes contain at least `base` -/
theorem run_lower (h : List (Op Par V)) (o : Obj Par V) (hg : ReadsIn (Given S) o.params h) (hl : Lower base o) :
    Lower base (run (cls S) o h) := by
  induction h generalizing o with
  | nil => exact hl
  | cons a h ih =>
    have e : run (cls S) o (a :: h) = run (cls S) (step (cls S) o a) h := rfl
    rw [e]
    cases a with
    | read q =>
      obtain ⟨-, h2, h3, -⟩ := readQ_lower (c := cls S) (fun _ => rfl) o.params q o rfl hl
        fun x => Or.inl (covers_base S o.params hg.1 x)
      exact ih _ (by simp only [step, h2]; exact hg.2) h3
    | set p v =>
      exact ih _ (by simp only [step, setP_params]; exact hg) (setP_lower (fun _ => rfl) p v o hl)

/-- every setting of `sigma_8` happens while `A_s` is given -/
def Sigma8Unused (σ : Par → V) (h : List (Op Par V)) : Prop :=
  ∀ h1 v h2, h = h1 ++ Op.set .sigma8 v :: h2 → S.isNone (finalParams σ h1 .aS) = false

theorem run_right (h : List (Op Par V)) (o : Obj Par V) (hg : ReadsIn (Given S) o.params h) (hl : Lower base o)
    (hr : Right (cls S) Set.univ o) (h8 : Sigma8Unused S o.params h) : Right (cls S) Set.univ (run (cls S) o h) := by
  induction h generalizing o with
  | nil => exact hr
  | cons a h ih =>
    have e : run (cls S) o (a :: h) = run (cls S) (step (cls S) o a) h := rfl
    rw [e]
    cases a with
    | read q =>
      obtain ⟨-, h2, h3, -⟩ := readQ_lower (c := cls S) (fun _ => rfl) o.params q o rfl hl
        fun x => Or.inl (covers_base S o.params hg.1 x)
      refine ih _ (by simp only [step, h2]; exact hg.2) h3
        (readQ_right (fun _ => rfl) (fun q _ => only_all q _) q o hr).2.2 ?_
      simp only [step, h2]
      exact fun h1 v t e => h8 (.read q :: h1) v t (by rw [e]; rfl)
    | set p v =>
      refine ih _ (by simp only [step, setP_params]; exact hg) (setP_lower (fun _ => rfl) p v o hl) ?_ ?_
      · refine setP_right (fun _ => rfl) p v o (fun q hq D hD _ => hr q hq D hD) (fun _ => hr) fun q _ D hD hpD => ?_
        exact den_local S o.params p v q (fun h => hpD (hl q D hD h)) fun e8 => by
          subst e8; exact h8 [] v h rfl
      · simp only [step, setP_params]
        exact fun h1 w t e => h8 (.set p v :: h1) w t (by rw [e]; rfl)

variable [Inhabited V]

theorem new_right (σ : Par → V) (T : Set ℕ) : Right (cls S) T (newObj σ) := fun _ _ _ h => by cases h

theorem new_lower (σ : Par → V) (b : ℕ → Finset Par) : Lower b (newObj σ) := fun _ _ h => by cases h

theorem new_value (σ : Par → V) (q : ℕ) : value (cls S) q (newObj σ) = (den (cls S) σ q).1 :=
  (readQ_right (T := Set.univ) (fun _ => rfl) (fun q _ => only_all q _) q _ (new_right S σ _)).1 trivial

theorem right_value {o : Obj Par V} (hr : Right (cls S) Set.univ o) (q : ℕ) :
    value (cls S) q o = value (cls S) q (newObj o.params) :=
  ((readQ_right (fun _ => rfl) (fun q _ => only_all q _) q o hr).1 trivial).trans (new_value S _ q).symm

/-- C130: after any settings and any history of reads and changes, in which `A_s` may come and go, every quantity of the object is
that of a newly built object with the present parameters, provided that once something has been read `sigma_8` is only set while
`A_s` is given. -/
theorem C130_fresh (σ : Par → V) (sets h : List (Op Par V)) (hs : ∀ q, Op.read q ∉ sets)
    (hg : ReadsIn (Given S) (finalParams σ sets) h) (h8 : Sigma8Unused S (finalParams σ sets) h) (q : ℕ) :
    value (cls S) q (run (cls S) (newObj σ) (sets ++ h)) = value (cls S) q (newObj (finalParams σ (sets ++ h))) := by
  rw [run_append, run_sets (fun _ => rfl) sets hs, finalParams_append]
  have := right_value S (run_right S h _ hg (new_lower _ _) (new_right S _ _) h8) q
  rw [run_params] at this
  exact this

omit [Inhabited V] in
/-- the emulator is indexed once it, the interpolation or the bias has been read -/
theorem read_indexes (o : Obj Par V) (hi : ∀ x, o.index x = none) (q : ℕ) (hq : q ∈ [emulator, interpolation, bnl]) :
    (readQ (cls S) q o).2.2.index 2 ≠ none := by
  have h2 : ∀ o : Obj Par V, (readQ (cls S) 2 o).2.2.index 2 ≠ none := by
    intro o
    obtain ⟨D, hD⟩ | hn : (∃ D, o.index 2 = some D) ∨ o.index 2 = none := by
      cases h : o.index 2 with
      | none => exact Or.inr rfl
      | some D => exact Or.inl ⟨D, rfl⟩
    · rw [readQ_index 2 D 2 o hD]; simp
    · rw [readQ]
      simp only [cls, hn]
      simp
  have h3 : ∀ o : Obj Par V, o.index 3 = none → (readQ (cls S) 3 o).2.2.index 2 ≠ none := by
    intro o hn
    rw [readQ]
    have e : (cls S).kind 3 = .tracked := rfl
    simp only [e, hn]
    rw [Function.update_of_ne (by decide)]
    exact h2 o
  simp only [List.mem_cons, List.not_mem_nil, or_false] at hq
  rcases hq with rfl | rfl | rfl
  · exact h2 o
  · exact h3 o (hi 3)
  · rw [readQ]
    have e : (cls S).kind 4 = .tracked := rfl
    simp only [e, hi 4]
    rw [Function.update_of_ne (by decide)]
    have : ∀ (f : V) (o : Obj Par V), o.index 2 ≠ none →
        (runProg (fun (i : Fin 4) o => readQ (cls S) i o) (.param .mass fun m => .param .kVec fun k => .param .zDep fun d =>
          if S.truthy d = true then .param .zVec fun z => .ret (S.out bnl [f, m, k, d, z])
          else .ret (S.out bnl [f, m, k, d])) o).2.2.index 2 ≠ none := by
      intro f o ho
      simp only [runProg]
      split_ifs <;> exact ho
    exact this _ _ (h3 o (hi 3))

omit [Inhabited V] in
theorem run_right_full (h : List (Op Par V)) (o : Obj Par V) (hl : Lower full o) (hi : o.index 2 ≠ none)
    (hr : Right (cls S) Set.univ o) : Right (cls S) Set.univ (run (cls S) o h) := by
  induction h generalizing o with
  | nil => exact hr
  | cons a h ih =>
    have e : run (cls S) o (a :: h) = run (cls S) (step (cls S) o a) h := rfl
    rw [e]
    cases a with
    | read q =>
      obtain ⟨-, h2, h3, -⟩ := readQ_lower (c := cls S) (fun _ => rfl) o.params q o rfl hl
        fun x => by
          by_cases hx : x = 2
          · subst hx; exact Or.inr hi
          · exact Or.inl (covers_full' S o.params x hx)
      obtain ⟨D, hD⟩ := Option.ne_none_iff_exists'.1 hi
      exact ih _ h3 (by simp only [step]; rw [readQ_index 2 D q o hD]; simp)
        (readQ_right (fun _ => rfl) (fun q _ => only_all q _) q o hr).2.2
    | set p v =>
      obtain ⟨D, hD⟩ := Option.ne_none_iff_exists'.1 hi
      refine ih _ (setP_lower (fun _ => rfl) p v o hl) (by simp only [step]; rw [setP_index p v rfl hD]; simp) ?_
      refine setP_right (fun _ => rfl) p v o (fun q hq D hD _ => hr q hq D hD) (fun _ => hr) fun q _ D hD hpD => ?_
      have hpf : p ∉ full q := fun h => hpD (hl q D hD h)
      by_cases e8 : p = .sigma8
      · subst e8
        match q with
        | 0 | 1 =>
          simp only [den_zero, den_one]
          simp [Function.update]
        | 2 | 3 | 4 => exact absurd (by decide) hpf
        | n + 5 => rw [den_rest, den_rest]
      · exact den_local S o.params p v q (fun hb => hpf (by unfold full; split_ifs <;> simp [hb])) fun e => absurd e e8

/-- C130: if the emulator was first needed while `A_s` was `None`, then whatever is read and set afterwards, every quantity is that
of a newly built object with the present parameters. -/
theorem C130_sigma8_first (σ : Par → V) (sets h : List (Op Par V)) (hs : ∀ q, Op.read q ∉ sets)
    (hn : S.isNone (finalParams σ sets .aS) = true) (hg : S.isNone (finalParams σ sets .sigma8) = false) (x : ℕ)
    (hx : x ∈ [emulator, interpolation, bnl]) (q : ℕ) :
    value (cls S) q (run (cls S) (newObj σ) (sets ++ Op.read x :: h)) =
      value (cls S) q (newObj (finalParams σ (sets ++ Op.read x :: h))) := by
  rw [run_append, run_sets (fun _ => rfl) sets hs, finalParams_append]
  obtain ⟨-, h2, h3, -⟩ := readQ_lower (c := cls S) (fun _ => rfl) _ x (newObj (finalParams σ sets)) rfl
    (new_lower _ full) fun y => Or.inl (covers_full S _ hn hg y)
  have hr := (readQ_right (c := cls S) (fun _ => rfl) (fun q _ => only_all q _) x (newObj (finalParams σ sets))
    (new_right S _ Set.univ)).2.2
  have := right_value S (run_right_full S h _ h3 (read_indexes S _ (fun _ => rfl) x hx) hr) q
  rw [run_params, h2] at this
  exact this

omit [Inhabited V] in
theorem den_deps_aS (σ : Par → V) (hn : S.isNone (σ .aS) = false) (q : ℕ) : .sigma8 ∉ (den (cls S) σ q).2 := by
  have h0 : .sigma8 ∉ (den (cls S) σ 0).2 := by
    rw [den]
    have e : (cls S).code 0 = code S 0 := rfl
    simp [e, code, denProg]
  have h1 : .sigma8 ∉ (den (cls S) σ 1).2 := by
    rw [den]
    have e : (cls S).code 1 = code S 1 := rfl
    simp [e, code, denProg]
  have h2 : .sigma8 ∉ (den (cls S) σ 2).2 := by
    rw [den]
    have e : (cls S).code 2 = code S 2 := rfl
    simp [e, code, denProg, hn, cosmology, h0, h1]
  have h3 : .sigma8 ∉ (den (cls S) σ 3).2 := by
    rw [den]
    have e : (cls S).code 3 = code S 3 := rfl
    simp [e, code, denProg, h2]
  match q with
  | 0 => exact h0
  | 1 => exact h1
  | 2 => exact h2
  | 3 => exact h3
  | 4 =>
    rw [den]
    have e : (cls S).code 4 = code S 4 := rfl
    simp only [e, code, denProg]
    split_ifs <;> simp [denProg, h3]
  | n + 5 =>
    rw [den]
    have e : (cls S).code (n + 5) = code S (n + 5) := rfl
    simp [e, code, denProg]

/-- C130: but if a quantity was first read while `A_s` was given, a later normalisation by `sigma_8` is not followed: once `A_s` is
set to `None` and the quantity is read, no setting of `sigma_8` changes it any more, whatever else is read.  It stays that of the
parameters at the time of that read. -/
theorem C130_sigma8_ignored (σ : Par → V) (sets h t : List (Op Par V)) (hs : ∀ q, Op.read q ∉ sets)
    (hn : S.isNone (finalParams σ sets .aS) = false) (q : ℕ)
    (hg : ReadsIn (Given S) (finalParams σ sets) (Op.read q :: h)) (h8 : Sigma8Unused S (finalParams σ sets) h)
    (ht : ∀ p v, Op.set p v ∈ t → p = .sigma8) :
    value (cls S) q (run (cls S) (newObj σ) (sets ++ Op.read q :: h ++ Op.read q :: t)) =
      value (cls S) q (newObj (finalParams σ (sets ++ h))) := by
  rw [C98_unknown_inputs_ignored (c := cls S) rfl σ sets h t hs (fun _ _ _ => rfl) fun p v hp => by
    rw [ht p v hp]; exact den_deps_aS S _ hn q]
  rw [C130_fresh S σ sets (Op.read q :: h) hs hg
    (fun h1 v h2 e => by
      cases h1 with
      | nil => cases e
      | cons a h1 =>
        simp only [List.cons_append, List.cons.injEq] at e
        obtain ⟨rfl, e⟩ := e
        exact h8 h1 v h2 e) q]
  simp only [finalParams_append, finalParams]

/-- C130: an object in that state is repaired by setting any parameter the emulator always looks at to another value: every quantity
is then again that of a newly built object. -/
theorem C130_repair (σ : Par → V) (h : List (Op Par V)) (hg : ReadsIn (Given S) σ h) (p : Par) (v : V)
    (hp : p ∈ [Par.aS, .h0, .omegaB, .omegaC, .omegaLambda, .nS, .w0]) (hv : v ≠ finalParams σ h p) (q : ℕ) :
    value (cls S) q (run (cls S) (newObj σ) (h ++ [Op.set p v])) =
      value (cls S) q (newObj (finalParams σ (h ++ [Op.set p v]))) := by
  have hl := run_lower S h (newObj σ) hg (new_lower σ base)
  -- the densities, which never look at `sigma_8`, are right throughout
  have hlow : Right (cls S) {x | x < 2 ∨ 4 < x} (run (cls S) (newObj σ) h) := by
    have key : ∀ (h : List (Op Par V)) (o : Obj Par V), ReadsIn (Given S) o.params h → Lower base o →
        Right (cls S) {x | x < 2 ∨ 4 < x} o → Right (cls S) {x | x < 2 ∨ 4 < x} (run (cls S) o h) := by
      intro h
      induction h with
      | nil => exact fun o _ _ hr => hr
      | cons a h ih =>
        intro o hg hl hr
        have e : run (cls S) o (a :: h) = run (cls S) (step (cls S) o a) h := rfl
        rw [e]
        cases a with
        | read x =>
          obtain ⟨-, h2, h3, -⟩ := readQ_lower (c := cls S) (fun _ => rfl) o.params x o rfl hl
            fun x => Or.inl (covers_base S o.params hg.1 x)
          refine ih _ (by simp only [step, h2]; exact hg.2) h3 (readQ_right (fun _ => rfl) ?_ x o hr).2.2
          intro q hq
          match q, hq with
          | 0, _ | 1, _ => exact fun _ _ => trivial
          | n + 5, _ => trivial
        | set p v =>
          refine ih _ (by simp only [step, setP_params]; exact hg) (setP_lower (fun _ => rfl) p v o hl) ?_
          refine setP_right (fun _ => rfl) p v o (fun q hq D hD _ => hr q hq D hD) (fun _ => hr) fun q hq D hD hpD => ?_
          have hpb : p ∉ base q := fun h => hpD (hl q D hD h)
          by_cases e8 : p = .sigma8
          · subst e8
            match q, hq with
            | 0, _ | 1, _ =>
              simp only [den_zero, den_one]
              simp [Function.update]
            | n + 5, _ => rw [den_rest, den_rest]
          · exact den_local S o.params p v q hpb fun e => absurd e e8
    exact key h (newObj σ) hg (new_lower σ base) (new_right S σ _)
  rw [run_append, finalParams_append]
  set o := run (cls S) (newObj σ) h with ho
  have hpar : o.params = finalParams σ h := run_params S h (newObj σ)
  have hin : ∀ x, 2 ≤ x → x ≤ 4 → p ∈ base x := by
    intro x h2 h4
    simp only [List.mem_cons, List.not_mem_nil, or_false] at hp
    match x, h2, h4 with
    | 2, _, _ | 3, _, _ | 4, _, _ => rcases hp with rfl | rfl | rfl | rfl | rfl | rfl | rfl <;> decide
  have hr : Right (cls S) Set.univ (setP (cls S) p v o) := by
    refine setP_right (fun _ => rfl) p v o (fun x _ D hD hpD hf => ?_) (fun e => absurd (by rw [← hpar]; exact e) hv)
      fun x _ D hD hpD => ?_
    · by_cases hx : x < 2 ∨ 4 < x
      · exact hlow x hx D hD hf
      · exact absurd (hl x D hD (hin x (by omega) (by omega))) hpD
    · refine den_local S o.params p v x (fun hb => hpD (hl x D hD hb)) fun e => ?_
      subst e
      simp at hp
  have := right_value S hr q
  rw [setP_params, hpar] at this
  exact this

/-- C130: and all of them matter.  If the formulas never give the same result for different inputs, a newly built object has another
non-linear bias when any one parameter is different, except that `sigma_8` matters exactly if `A_s` is `None`. -/
theorem C130_depends (hinj : ∀ q, Function.Injective (S.out q)) (σ : Par → V) (hg : Given S σ) (p : Par) (v : V)
    (hv : v ≠ σ p) (hg' : Given S (Function.update σ p v)) :
    value (cls S) bnl (newObj (Function.update σ p v)) ≠ value (cls S) bnl (newObj σ) ↔
      (p = .sigma8 → S.isNone (σ .aS) = true) := by
  have emu : emuVal S (Function.update σ p v) ≠ emuVal S σ ↔
      p ∉ [Par.mass, .zVec, .kVec, .zDep] ∧ (p = .sigma8 → S.isNone (σ .aS) = true) := by
    cases p with
    | mass | zVec | kVec | zDep => simp [emuVal, Function.update]
    | sigma8 =>
      have h1 : S.isNone v = false ∨ S.isNone (σ .aS) = false := by
        rcases hg' with h | h
        · exact Or.inr (by simpa using h)
        · exact Or.inl (by simpa using h)
      unfold Given at hg
      cases h : S.isNone (σ .aS)
      · simp [emuVal, Function.update, h]
      · have h2 : S.isNone v = false := by rcases h1 with h1 | h1 <;> simp_all
        have h3 : S.isNone (σ .sigma8) = false := by rcases hg with h1 | h1 <;> simp_all
        simp [emuVal, Function.update, h, h2, h3, (hinj _).eq_iff, hv]
    | aS =>
      unfold Given at hg hg'
      simp only [Function.update_self, ne_eq, reduceCtorEq, not_false_eq_true, Function.update_of_ne] at hg'
      simp only [emuVal, Function.update_self, ne_eq, reduceCtorEq, not_false_eq_true, Function.update_of_ne]
      cases h : S.isNone (σ .aS) <;> cases h' : S.isNone v <;> cases h'' : S.isNone (σ .sigma8) <;>
        simp_all [(hinj _).eq_iff]
    | h0 | omegaB | omegaC | omegaLambda | nS | w0 =>
      unfold Given at hg
      cases h : S.isNone (σ .aS) <;> cases h'' : S.isNone (σ .sigma8) <;>
        simp_all [emuVal, Function.update, (hinj _).eq_iff]
  rw [new_value, new_value, den_four, den_four]
  cases p with
  | zDep =>
    simp only [ne_eq, Function.update_self, reduceCtorEq, not_false_eq_true, Function.update_of_ne, IsEmpty.forall_iff,
      iff_true]
    split_ifs <;> simp [(hinj _).eq_iff, hv]
  | mass | kVec | zVec =>
    simp only [ne_eq, Function.update_self, reduceCtorEq, not_false_eq_true, Function.update_of_ne, IsEmpty.forall_iff,
      iff_true]
    split_ifs <;> simp [(hinj _).eq_iff, hv]
  | _ =>
    simp only [ne_eq, reduceCtorEq, not_false_eq_true, Function.update_of_ne] at emu ⊢
    split_ifs <;> simp [(hinj _).eq_iff] <;> simpa using emu

/-! ## Examples -/

/-- values are numbers, `0` stands for `None`, formulas code the values they read -/
def exSem : Sem ℕ := ⟨fun _ vs => Encodable.encode vs, fun v => v == 0, fun v => v == 7⟩

theorem exSem_injective (q : ℕ) : Function.Injective (exSem.out q) := Encodable.encode_injective

/-- built with both amplitudes, read, `A_s` taken away, read, `sigma_8` changed: the object still has the bias of the old
`sigma_8`, which is not that of a newly built object -/
example : value (cls exSem) bnl (run (cls exSem) (newObj fun _ => 1)
      ([] ++ Op.read bnl :: [Op.set .aS 0] ++ Op.read bnl :: [Op.set .sigma8 5])) ≠
    value (cls exSem) bnl (newObj (finalParams (fun _ => 1) [Op.set .aS 0, Op.set .sigma8 5])) := by
  rw [C130_sigma8_ignored exSem (fun _ => 1) [] [Op.set .aS 0] [Op.set .sigma8 5] (by simp) rfl bnl ⟨Or.inl rfl, trivial⟩
    (fun h1 v h2 e => by
      match h1, e with
      | [], e => simp at e
      | [_], e => simp at e
      | _ :: _ :: _, e => simp at e)
    (fun p v h => by simp at h; exact h.1)]
  exact (((C130_depends exSem exSem_injective (Function.update (fun _ => 1) .aS 0) (Or.inr rfl) .sigma8 5 (by decide)
    (Or.inr rfl)).2 fun _ => rfl)).symm

/-- setting `w0` repairs it -/
example : value (cls exSem) bnl (run (cls exSem) (newObj fun _ => 1)
      ([.read bnl, .set .aS 0, .read bnl, .set .sigma8 5] ++ [Op.set .w0 2])) =
    value (cls exSem) bnl (newObj (finalParams (fun _ => 1)
      ([.read bnl, .set .aS 0, .read bnl, .set .sigma8 5] ++ [Op.set .w0 2]))) :=
  C130_repair exSem (fun _ => 1) [.read bnl, .set .aS 0, .read bnl, .set .sigma8 5] ⟨Or.inl rfl, Or.inr rfl, trivial⟩ .w0 2 (by simp) (by decide) _

/-- an object first read with `sigma_8` follows it also after `A_s` came and went -/
example : value (cls exSem) bnl (run (cls exSem) (newObj fun p => if p = .aS then 0 else 1)
      ([] ++ Op.read bnl :: [.set .aS 3, .read bnl, .set .aS 0, .read bnl, .set .sigma8 5])) =
    value (cls exSem) bnl (newObj (finalParams (fun p => if p = .aS then 0 else 1)
      ([] ++ Op.read bnl :: [.set .aS 3, .read bnl, .set .aS 0, .read bnl, .set .sigma8 5]))) :=
  C130_sigma8_first exSem _ [] _ (by simp) rfl rfl bnl (by simp) bnl

/-- with `A_s` throughout, `sigma_8` may be set at any time -/
example : value (cls exSem) bnl (run (cls exSem) (newObj fun _ => 1)
      ([Op.set .nS 4] ++ [Op.read bnl, .set .sigma8 5, .read emulator, .set .zDep 7])) =
    value (cls exSem) bnl (newObj (finalParams (fun _ => 1)
      ([Op.set .nS 4] ++ [Op.read bnl, .set .sigma8 5, .read emulator, .set .zDep 7]))) :=
  C130_fresh exSem (fun _ => 1) [Op.set .nS 4] [Op.read bnl, .set .sigma8 5, .read emulator, .set .zDep 7] (by simp) ⟨Or.inl rfl, Or.inl rfl, trivial⟩
    (fun h1 v h2 e => by
      match h1, e with
      | [], e => simp at e
      | [_], e => simp at e; rw [← e.1]; rfl
      | [_, _], e => simp at e
      | [_, _, _], e => simp at e
      | _ :: _ :: _ :: _ :: _, e => simp at e) _

end Verif.BnlCache

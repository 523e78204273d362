import Mathlib.Data.List.GetD
import Verif.Lemmas.SpectraDeps

/-! Reachability in the graph of quantities when some of the conditions are known, as tables that the kernel can
compute, and their soundness. -/

namespace Verif.SpectraDeps

open Verif.Cache

/-- what is known about the conditions -/
abbrev Known := Test → Option Bool

/-- the outcomes `R` agree with what is known -/
def Fits (K : Known) (R : Test → Bool) : Prop := ∀ t b, K t = some b → R t = b

/-- the conditions of a list are known -/
def known (l : List (Test × Bool)) : Known := fun t => l.lookup t

theorem fits {l : List (Test × Bool)} {R : Test → Bool} (h : ∀ x ∈ l, R x.1 = x.2) : Fits (known l) R := by
  intro t b hb
  unfold known at hb
  induction l with
  | nil => cases hb
  | cons x l ih =>
    obtain ⟨t', b'⟩ := x
    rw [List.lookup_cons] at hb
    by_cases he : t = t'
    · subst he
      simp at hb
      rw [← hb]
      exact h (t, b') List.mem_cons_self
    · have he' : (t == t') = false := by simpa using he
      rw [he'] at hb
      exact ih (fun x hx => h x (List.mem_cons_of_mem _ hx)) hb

/-- quantities that may be read -/
def mayRead (K : Known) {n : ℕ} : Body n → List ℕ
  | .ret => []
  | .read (.p _) k => mayRead K k
  | .read (.q i _) k => i :: mayRead K k
  | .ite t a b => match K t with
    | some true => mayRead K a
    | some false => mayRead K b
    | none => mayRead K a ++ mayRead K b

/-- quantities that are certainly read -/
def mustRead (K : Known) {n : ℕ} : Body n → List ℕ
  | .ret => []
  | .read (.p _) k => mustRead K k
  | .read (.q i _) k => i :: mustRead K k
  | .ite t a b => match K t with
    | some true => mustRead K a
    | some false => mustRead K b
    | none => (mustRead K a).filter fun i => (mustRead K b).contains i

/-- parameters that may be looked at by the code itself -/
def mayOwn (K : Known) {n : ℕ} : Body n → List String
  | .ret => []
  | .read (.p s) k => s :: mayOwn K k
  | .read (.q _ _) k => mayOwn K k
  | .ite t a b => t.param :: match K t with
    | some true => mayOwn K a
    | some false => mayOwn K b
    | none => mayOwn K a ++ mayOwn K b

/-- the table of the least predicate that holds where `base` holds or where it holds for something read -/
def tab (base : ℕ → Bool) (rd : (n : ℕ) → List ℕ) : ℕ → List Bool
  | 0 => []
  | n + 1 => let t := tab base rd n; t ++ [base n || (rd n).any fun i => t.getD i false]

theorem tab_length (base : ℕ → Bool) (rd : (n : ℕ) → List ℕ) (n : ℕ) : (tab base rd n).length = n := by
  induction n with
  | zero => rfl
  | succ n ih => simp [tab, ih]

/-- the predicate -/
def pred (base : ℕ → Bool) (rd : (n : ℕ) → List ℕ) (q : ℕ) : Bool := (tab base rd (q + 1)).getD q false

theorem tab_getD (base : ℕ → Bool) (rd : (n : ℕ) → List ℕ) (n q : ℕ) (h : q < n) :
    (tab base rd n).getD q false = pred base rd q := by
  induction n with
  | zero => omega
  | succ n ih =>
    rcases Nat.lt_succ_iff_lt_or_eq.1 h with h' | rfl
    · rw [← ih h']
      simp only [tab]
      rw [List.getD_append _ _ _ _ (by rw [tab_length]; exact h')]
    · rfl

theorem pred_eq (base : ℕ → Bool) (rd : (n : ℕ) → List ℕ) (hlt : ∀ n, ∀ i ∈ rd n, i < n) (q : ℕ) :
    pred base rd q = (base q || (rd q).any (pred base rd)) := by
  have h1 : pred base rd q = (base q || (rd q).any fun i => (tab base rd q).getD i false) := by
    rw [pred, tab]
    rw [List.getD_append_right _ _ _ _ (by rw [tab_length])]
    simp [tab_length]
  rw [h1]
  congr 1
  rw [Bool.eq_iff_iff, List.any_eq_true, List.any_eq_true]
  constructor
  · rintro ⟨i, hi, h⟩
    exact ⟨i, hi, by rw [tab_getD _ _ _ _ (hlt q i hi)] at h; exact h⟩
  · rintro ⟨i, hi, h⟩
    exact ⟨i, hi, by rw [tab_getD _ _ _ _ (hlt q i hi)]; exact h⟩

theorem mayRead_lt (K : Known) {n : ℕ} (b : Body n) : ∀ i ∈ mayRead K b, i < n := by
  induction b with
  | ret => intro i hi; simp [mayRead] at hi
  | read s k ih =>
    cases s with
    | p s => exact ih
    | q j h =>
      intro i hi
      simp only [mayRead, List.mem_cons] at hi
      rcases hi with rfl | hi
      · exact h
      · exact ih i hi
  | ite t a b iha ihb =>
    intro i hi
    simp only [mayRead] at hi
    split at hi
    · exact iha i hi
    · exact ihb i hi
    · rcases List.mem_append.1 hi with hi | hi
      · exact iha i hi
      · exact ihb i hi

theorem mustRead_may (K : Known) {n : ℕ} (b : Body n) : ∀ i ∈ mustRead K b, i ∈ mayRead K b := by
  induction b with
  | ret => intro i hi; simp [mustRead] at hi
  | read s k ih =>
    cases s with
    | p s => exact ih
    | q j h =>
      intro i hi
      simp only [mustRead, mayRead, List.mem_cons] at hi ⊢
      exact hi.imp id (ih i)
  | ite t a b iha ihb =>
    intro i hi
    simp only [mustRead, mayRead] at hi ⊢
    cases hK : K t with
    | none =>
      rw [hK] at hi
      simp only at hi ⊢
      exact List.mem_append.2 (Or.inl (iha i (List.mem_filter.1 hi).1))
    | some x =>
      rw [hK] at hi
      cases x
      · exact ihb i hi
      · exact iha i hi

theorem readB_may {K : Known} {R : Test → Bool} (hK : Fits K R) {n : ℕ} (b : Body n) :
    ∀ i ∈ readB R b, i ∈ mayRead K b := by
  induction b with
  | ret => intro i hi; simp [readB] at hi
  | read s k ih =>
    cases s with
    | p s => exact ih
    | q j h =>
      intro i hi
      simp only [readB, mayRead, List.mem_cons] at hi ⊢
      exact hi.imp id (ih i)
  | ite t a b iha ihb =>
    intro i hi
    simp only [readB, mayRead] at hi ⊢
    cases hx : K t with
    | none =>
      simp only [List.mem_append]
      split_ifs at hi
      · exact Or.inl (iha i hi)
      · exact Or.inr (ihb i hi)
    | some x =>
      rw [hK t x hx] at hi
      cases x
      · exact ihb i (by simpa using hi)
      · exact iha i (by simpa using hi)

theorem must_readB {K : Known} {R : Test → Bool} (hK : Fits K R) {n : ℕ} (b : Body n) :
    ∀ i ∈ mustRead K b, i ∈ readB R b := by
  induction b with
  | ret => intro i hi; simp [mustRead] at hi
  | read s k ih =>
    cases s with
    | p s => exact ih
    | q j h =>
      intro i hi
      simp only [readB, mustRead, List.mem_cons] at hi ⊢
      exact hi.imp id (ih i)
  | ite t a b iha ihb =>
    intro i hi
    simp only [readB, mustRead] at hi ⊢
    cases hx : K t with
    | none =>
      rw [hx] at hi
      simp only [List.mem_filter, List.contains_iff_mem] at hi
      split_ifs
      · exact iha i hi.1
      · exact ihb i hi.2
    | some x =>
      rw [hx] at hi
      rw [hK t x hx]
      cases x
      · simpa using ihb i hi
      · simpa using iha i hi

theorem depsB_own {K : Known} {R : Test → Bool} (hK : Fits K R) {n : ℕ} (D : Fin n → Finset String) (b : Body n)
    (p : String) (hp : p ∈ depsB R D b) : p ∈ mayOwn K b ∨ ∃ i, ∃ h : i < n, i ∈ readB R b ∧ p ∈ D ⟨i, h⟩ := by
  induction b with
  | ret => simp [depsB] at hp
  | read s k ih =>
    cases s with
    | p s =>
      simp only [depsB, Finset.mem_insert] at hp
      simp only [mayOwn, readB, List.mem_cons]
      rcases hp with rfl | hp
      · exact Or.inl (Or.inl rfl)
      · rcases ih hp with h | h
        · exact Or.inl (Or.inr h)
        · exact Or.inr h
    | q j h =>
      simp only [depsB, Finset.mem_union] at hp
      simp only [mayOwn, readB, List.mem_cons]
      rcases hp with hp | hp
      · exact Or.inr ⟨j, h, Or.inl rfl, hp⟩
      · rcases ih hp with h' | ⟨i, hi, h1, h2⟩
        · exact Or.inl h'
        · exact Or.inr ⟨i, hi, Or.inr h1, h2⟩
  | ite t a b iha ihb =>
    simp only [depsB, Finset.mem_insert] at hp
    simp only [mayOwn, readB, List.mem_cons]
    rcases hp with rfl | hp
    · exact Or.inl (Or.inl rfl)
    · cases hx : K t with
      | none =>
        simp only [List.mem_append]
        split_ifs at hp ⊢
        · exact (iha hp).imp (fun h => Or.inr (Or.inl h)) id
        · exact (ihb hp).imp (fun h => Or.inr (Or.inr h)) id
      | some x =>
        rw [hK t x hx] at hp ⊢
        cases x
        · simp only [Bool.false_eq_true, if_false] at hp ⊢
          exact (ihb hp).imp Or.inr id
        · simp only [if_true] at hp ⊢
          exact (iha hp).imp Or.inr id

/-- may the quantity be reached, knowing `K` -/
def mayReach (K : Known) (j q : ℕ) : Bool := pred (fun n => n == j) (fun n => mayRead K (body n)) q

/-- is it certainly reached -/
def mustReach (K : Known) (j q : ℕ) : Bool := pred (fun n => n == j) (fun n => mustRead K (body n)) q

/-- may the parameter be looked at -/
def mayLook (K : Known) (p : String) (q : ℕ) : Bool :=
  pred (fun n => (mayOwn K (body n)).contains p) (fun n => mayRead K (body n)) q

/-- may a parameter outside the list be looked at -/
def mayLookOut (K : Known) (L : List String) (q : ℕ) : Bool :=
  pred (fun n => !((mayOwn K (body n)).all fun p => L.contains p)) (fun n => mayRead K (body n)) q

variable {V : Type} {S : Sem V} {K : Known}

theorem not_uses {σ : String → V} (hK : Fits K (outcome S σ)) {q j : ℕ} (h : mayReach K j q = false) :
    ¬ Uses (cls S) σ q j := by
  intro hu
  induction hu with
  | self q =>
    rw [mayReach, pred_eq _ _ fun n => mayRead_lt K (body n)] at h
    simp at h
  | @step q i j h1 _ ih =>
    rw [mayReach, pred_eq _ _ fun n => mayRead_lt K (body n)] at h
    simp only [Bool.or_eq_false_iff, List.any_eq_false] at h
    rw [direct_cls, List.mem_toFinset] at h1
    exact ih (by
      have := h.2 i (readB_may hK _ i h1)
      simpa [mayReach] using this)

theorem uses {σ : String → V} (hK : Fits K (outcome S σ)) (j q : ℕ) (h : mustReach K j q = true) :
    Uses (cls S) σ q j := by
  induction q using Nat.strong_induction_on with
  | _ q ih =>
    have hlt : ∀ n, ∀ i ∈ mustRead K (body n), i < n := fun n i hi => mayRead_lt K _ i (mustRead_may K _ i hi)
    rw [mustReach, pred_eq _ _ hlt] at h
    simp only [Bool.or_eq_true, beq_iff_eq, List.any_eq_true] at h
    rcases h with rfl | ⟨i, hi, h⟩
    · exact .self q
    · refine .step (i := i) ?_ (ih i (hlt q i hi) h)
      rw [direct_cls, List.mem_toFinset]
      exact must_readB hK _ i hi

theorem not_looks {σ : String → V} (hK : Fits K (outcome S σ)) (p : String) (q : ℕ) (h : mayLook K p q = false) :
    p ∉ (den (cls S) σ q).2 := by
  induction q using Nat.strong_induction_on with
  | _ q ih =>
    intro hp
    rw [den] at hp
    change p ∈ (denProg σ _ (compile S (body q) [])).2 at hp
    rw [denProg_compile] at hp
    rw [mayLook, pred_eq _ _ fun n => mayRead_lt K (body n)] at h
    simp only [Bool.or_eq_false_iff, List.any_eq_false] at h
    rcases depsB_own hK _ _ p hp with h' | ⟨i, hi, h1, h2⟩
    · have := h.1
      rw [← Bool.not_eq_true, List.contains_iff_mem] at this
      exact this h'
    · refine ih i hi ?_ h2
      have := h.2 i (readB_may hK _ i h1)
      simpa [mayLook] using this

theorem looks_in {σ : String → V} (hK : Fits K (outcome S σ)) (L : List String) (q : ℕ)
    (h : mayLookOut K L q = false) : ∀ p ∈ (den (cls S) σ q).2, p ∈ L := by
  induction q using Nat.strong_induction_on with
  | _ q ih =>
    intro p hp
    rw [den] at hp
    change p ∈ (denProg σ _ (compile S (body q) [])).2 at hp
    rw [denProg_compile] at hp
    rw [mayLookOut, pred_eq _ _ fun n => mayRead_lt K (body n)] at h
    simp only [Bool.or_eq_false_iff, List.any_eq_false, Bool.not_eq_false', List.all_eq_true,
      List.contains_iff_mem] at h
    rcases depsB_own hK _ _ p hp with h' | ⟨i, hi, h1, h2⟩
    · exact h.1 p h'
    · refine ih i hi ?_ p h2
      have := h.2 i (readB_may hK _ i h1)
      simpa [mayLookOut] using this

end Verif.SpectraDeps

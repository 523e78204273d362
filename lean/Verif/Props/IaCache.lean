import Verif.Model.IaCache
import Verif.Props.ModeChange

/-! Property C127: results of a live alignment object after its parameters, options and plain attributes are changed. -/

namespace Verif.Cache

variable {P V : Type} [DecidableEq P] {c : Cls P V}

/-- the program reads the parameter `p` itself on every path -/
def Must (p : P) {n : ℕ} : Prog P V n → Prop
  | .ret _ => False
  | .param p' k => p = p' ∨ ∀ v, Must p (k v)
  | .quant _ k => ∀ v, Must p (k v)

theorem runProg_must {p : P} {n : ℕ} (ev : Fin n → Obj P V → V × Finset P × Obj P V) (pr : Prog P V n) (o : Obj P V)
    (h : Must p pr) : p ∈ (runProg ev pr o).2.1 := by
  induction pr generalizing o with
  | ret v => exact h.elim
  | param p' k ih =>
    simp only [runProg]
    rcases h with rfl | h
    · exact Finset.mem_insert_self _ _
    · exact Finset.mem_insert_of_mem (ih _ o (h _))
  | quant q k ih =>
    simp only [runProg]
    exact Finset.mem_union_right _ (ih _ _ (h _))

/-- what is recorded about `q` contains `p` -/
def Records (q : ℕ) (p : P) (o : Obj P V) : Prop := ∀ D, o.index q = some D → p ∈ D

theorem runProg_records {q : ℕ} {p : P} {n : ℕ} (ev : Fin n → Obj P V → V × Finset P × Obj P V)
    (hev : ∀ i o, Records q p o → Records q p (ev i o).2.2) (pr : Prog P V n) (o : Obj P V) (ho : Records q p o) :
    Records q p (runProg ev pr o).2.2 := by
  induction pr generalizing o with
  | ret v => exact ho
  | param p' k ih => exact ih _ o ho
  | quant i k ih => exact ih _ _ (hev i o ho)

theorem readQ_records {q : ℕ} {p : P} (hm : Must p (c.code q)) (x : ℕ) (o : Obj P V) (ho : Records q p o) :
    Records q p (readQ c x o).2.2 := by
  induction x using Nat.strong_induction_on generalizing o with
  | _ x ih =>
    have hrun := runProg_records (fun (i : Fin x) o => readQ c i o) (fun i o ho => ih i i.2 o ho) (c.code x) o ho
    rw [readQ]
    cases hk : c.kind x with
    | frozen =>
      simp only
      split_ifs
      · exact ho
      · exact hrun
    | tracked =>
      simp only
      cases hD : o.index x with
      | some D =>
        simp only
        split_ifs
        · exact hrun
        · exact ho
      | none =>
        simp only
        intro D hD'
        simp only at hD'
        by_cases hx : q = x
        · subst hx
          rw [Function.update_self] at hD'
          injection hD' with hD'
          rw [← hD']
          exact runProg_must _ _ _ hm
        · rw [Function.update_of_ne hx] at hD'
          exact hrun D hD'

theorem setP_records {q : ℕ} {p : P} (p' : P) (v : V) (o : Obj P V) (ho : Records q p o) :
    Records q p (setP c p' v o) := by
  unfold setP
  split_ifs
  · exact ho
  · intro D hD
    simp only at hD
    cases hi : o.index q with
    | none => rw [hi] at hD; cases hD
    | some D' =>
      rw [hi] at hD
      simp only at hD
      split_ifs at hD
      injection hD with hD
      rw [← hD]
      exact ho D' hi
  · exact ho

/-- a tracked quantity that is not known or flagged is computed from what its code reads -/
theorem value_recomputed {q : ℕ} {o : Obj P V} (hq : c.kind q = .tracked)
    (h : ∀ D, o.index q = some D → o.flagged q = true) :
    value c q o = (runProg (fun (i : Fin q) o => readQ c i o) (c.code q) o).1 := by
  unfold value
  rw [readQ, hq]
  cases hi : o.index q with
  | none => rfl
  | some D => simp only [h D hi, if_true]

end Verif.Cache

namespace Verif.IaCache

open Verif.Cache

variable {V : Type} (S : Sem V) (at_ : Attr → V) (σ : String → V)

/-- how a condition comes out for the parameters `σ` -/
def outcome (t : Test) : Bool := S.holds t (σ t.param)

/-- the parameters quantity `q` looks at, directly or through others, when the conditions come out as `R` -/
def table (R : Test → Bool) : ℕ → Finset String
  | 0 | 1 => {"z_loglum_file_centrals", "z_vec"}
  | 2 | 3 => {"z_loglum_file_satellites", "z_vec"}
  | 4 => if R .cenConstant then {"central_ia_depends_on", "gamma_2h_amplitude", "z_vec"}
    else if R .cenLuminosity then
      {"central_ia_depends_on", "gamma_2h_amplitude", "z_vec", "lpivot_cen", "beta_cen", "z_loglum_file_centrals"}
    else {"central_ia_depends_on", "gamma_2h_amplitude", "z_vec", "mpivot_cen"}
  | 5 => amplitude
  | 6 => {"ell_max"}
  | 7 => kvec
  | 8 => insert "mass_in" down
  | 9 => insert "c_in" down
  | 10 => insert "r_s_in" down
  | 11 => insert "rvir_in" down
  | 12 => hank
  | 13 => uel
  | 14 => insert "gamma_1h_slope" (insert "ell_max" uel)
  | 15 => insert "gamma_1h_slope" (insert "ell_max" uel)
  | _ => ∅
where
  amplitude := if R .satConstant then {"satellite_ia_depends_on", "gamma_1h_amplitude", "z_vec"}
    else if R .satLuminosity then
      {"satellite_ia_depends_on", "gamma_1h_amplitude", "z_vec", "lpivot_sat", "beta_sat", "z_loglum_file_satellites"}
    else {"satellite_ia_depends_on", "gamma_1h_amplitude", "z_vec", "mpivot_sat"}
  kvec := if R .fftlog then {"method"} else {"method", "nk"}
  down := if R .hankel then {"method", "mass_in", "nmass"} else {"method"}
  hank := if R .hankel then {"method", "ell_max", "n_hankel"} else {"method"}
  base := {"r_s_in", "c_in", "ell_max", "z_vec", "mass_in", "method"} ∪ down ∪ kvec
  uel := if R .hankel then base ∪ {"rvir_in", "gamma_1h_slope", "truncate"} ∪ hank ∪ amplitude
    else if R .fftlog then base ∪ {"rvir_in", "gamma_1h_slope", "truncate"} ∪ amplitude else base

theorem den_deps (q : ℕ) : (den (cls S at_) σ q).2 = table (outcome S σ) q := by
  have hd : ∀ q, den (cls S at_) σ q = denProg σ (fun i : Fin q => den (cls S at_) σ i) (compile S at_ (body q) []) := by
    intro q; rw [den]; rfl
  have d0 : (den (cls S at_) σ 0).2 = table (outcome S σ) 0 := by rw [hd]; rfl
  have d1 : (den (cls S at_) σ 1).2 = table (outcome S σ) 1 := by rw [hd]; rfl
  have d2 : (den (cls S at_) σ 2).2 = table (outcome S σ) 2 := by rw [hd]; rfl
  have d3 : (den (cls S at_) σ 3).2 = table (outcome S σ) 3 := by rw [hd]; rfl
  have d4 : (den (cls S at_) σ 4).2 = table (outcome S σ) 4 := by
    rw [hd]
    simp only [body, reads, compile, denProg, table, outcome, Test.param]
    rcases Bool.eq_false_or_eq_true (S.holds .cenConstant (σ "central_ia_depends_on")) with h1 | h1 <;>
      rcases Bool.eq_false_or_eq_true (S.holds .cenLuminosity (σ "central_ia_depends_on")) with h2 | h2 <;>
      rcases Bool.eq_false_or_eq_true (S.isNone (at_ .betaTwo)) with h3 | h3 <;>
      simp only [h1, h2, h3, Bool.false_eq_true, if_true, if_false, denProg, d0, d1, table] <;>
      decide +kernel
  have d5 : (den (cls S at_) σ 5).2 = table (outcome S σ) 5 := by
    rw [hd]
    simp only [body, reads, compile, denProg, table, table.amplitude, outcome, Test.param]
    rcases Bool.eq_false_or_eq_true (S.holds .satConstant (σ "satellite_ia_depends_on")) with h1 | h1 <;>
      rcases Bool.eq_false_or_eq_true (S.holds .satLuminosity (σ "satellite_ia_depends_on")) with h2 | h2 <;>
      simp only [h1, h2, Bool.false_eq_true, if_true, if_false, denProg, d2, d3, table] <;>
      decide +kernel
  have d6 : (den (cls S at_) σ 6).2 = table (outcome S σ) 6 := by rw [hd]; rfl
  have d7 : (den (cls S at_) σ 7).2 = table (outcome S σ) 7 := by
    rw [hd]
    simp only [body, compile, denProg, table, table.kvec, outcome, Test.param]
    rcases Bool.eq_false_or_eq_true (S.holds .fftlog (σ "method")) with h1 | h1 <;>
      simp only [h1, Bool.false_eq_true, if_true, if_false, denProg] <;> rfl
  have dd : ∀ n s, (denProg σ (fun i : Fin n => den (cls S at_) σ i) (compile S at_ (.read (.p s) downsample) [])).2
      = insert s (table.down (outcome S σ)) := by
    intro n s
    simp only [downsample, reads, compile, denProg, table.down, outcome, Test.param]
    rcases Bool.eq_false_or_eq_true (S.holds .hankel (σ "method")) with h1 | h1 <;>
      simp only [h1, Bool.false_eq_true, if_true, if_false, denProg] <;> rfl
  have d8 : (den (cls S at_) σ 8).2 = table (outcome S σ) 8 := by rw [hd]; exact dd _ _
  have d9 : (den (cls S at_) σ 9).2 = table (outcome S σ) 9 := by rw [hd]; exact dd _ _
  have d10 : (den (cls S at_) σ 10).2 = table (outcome S σ) 10 := by rw [hd]; exact dd _ _
  have d11 : (den (cls S at_) σ 11).2 = table (outcome S σ) 11 := by rw [hd]; exact dd _ _
  have d12 : (den (cls S at_) σ 12).2 = table (outcome S σ) 12 := by
    rw [hd]
    simp only [body, reads, compile, denProg, table, table.hank, outcome, Test.param]
    rcases Bool.eq_false_or_eq_true (S.holds .hankel (σ "method")) with h1 | h1 <;>
      simp only [h1, Bool.false_eq_true, if_true, if_false, denProg, d6, table] <;> decide +kernel
  have d13 : (den (cls S at_) σ 13).2 = table (outcome S σ) 13 := by
    rw [hd]
    simp only [body, reads, compile, denProg, d10, d9, d6, d8, d7]
    simp only [table, table.uel, table.base, table.down, table.kvec, table.hank, outcome, Test.param]
    rcases Bool.eq_false_or_eq_true (S.holds .hankel (σ "method")) with h1 | h1 <;>
      rcases Bool.eq_false_or_eq_true (S.holds .fftlog (σ "method")) with h2 | h2 <;>
      rcases Bool.eq_false_or_eq_true (S.holds .satConstant (σ "satellite_ia_depends_on")) with h3 | h3 <;>
      rcases Bool.eq_false_or_eq_true (S.holds .satLuminosity (σ "satellite_ia_depends_on")) with h4 | h4 <;>
      simp only [h1, h2, h3, h4, Bool.false_eq_true, if_true, if_false, denProg, d5, d12, d10, d11, d7, table, table.down,
        table.kvec, table.hank, table.amplitude, outcome, Test.param] <;>
      decide +kernel
  have d14 : (den (cls S at_) σ 14).2 = table (outcome S σ) 14 := by
    rw [hd]
    simp only [body, reads, compile, denProg, d13, d6, table]
    ext x
    simp only [Finset.mem_union, Finset.mem_insert, Finset.mem_singleton, Finset.notMem_empty]
    tauto
  have d15 : (den (cls S at_) σ 15).2 = table (outcome S σ) 15 := by
    have hz : ∀ R, ({"z_vec"} ∪ (table R 8 ∪ table R 7) : Finset String) ⊆ table.uel R := by
      intro R
      simp only [table, table.uel, table.base, table.down, table.kvec, table.hank, table.amplitude]
      cases R .hankel <;> cases R .fftlog <;> cases R .satConstant <;> cases R .satLuminosity <;> decide +kernel
    rw [hd]
    simp only [body, reads, compile, denProg, d14, d8, d7]
    have := hz (outcome S σ)
    ext x
    have hx := @this x
    simp only [table, Finset.mem_union, Finset.mem_insert, Finset.mem_singleton, Finset.notMem_empty] at hx ⊢
    tauto
  match q with
  | 0 => exact d0
  | 1 => exact d1
  | 2 => exact d2
  | 3 => exact d3
  | 4 => exact d4
  | 5 => exact d5
  | 6 => exact d6
  | 7 => exact d7
  | 8 => exact d8
  | 9 => exact d9
  | 10 => exact d10
  | 11 => exact d11
  | 12 => exact d12
  | 13 => exact d13
  | 14 => exact d14
  | 15 => exact d15
  | n + 16 => rw [hd]; rfl

/-- the code neither reads an attribute nor one of the quantities that do -/
def plain {n : ℕ} : Body n → Bool
  | .ret => true
  | .read (.p _) k => plain k
  | .read (.q i _) k => decide (i ∉ [alignmentGi, wkmFEll, wkm]) && plain k
  | .read (.a _) _ => false
  | .ite _ a b => plain a && plain b
  | .betaTwo _ _ => false

/-- the quantities that do not depend on attributes -/
abbrev free : Set ℕ := {q | q ∉ [alignmentGi, wkmFEll, wkm]}

theorem plain_compile {n : ℕ} (at' : Attr → V) (b : Body n) (h : plain b = true) (acc : List V) :
    compile S at_ b acc = compile S at' b acc := by
  induction b generalizing acc with
  | ret => rfl
  | read s k ih =>
    cases s with
    | p s => simp only [compile]; congr 1; funext v; exact ih h _
    | q i hi =>
      simp only [plain, Bool.and_eq_true] at h
      simp only [compile]; congr 1; funext v; exact ih h.2 _
    | a x => simp [plain] at h
  | ite t a b iha ihb =>
    simp only [plain, Bool.and_eq_true] at h
    simp only [compile]; congr 1; funext v
    rw [iha h.1, ihb h.2]
  | betaTwo a b _ _ => simp [plain] at h

theorem plain_reads {n : ℕ} (b : Body n) (h : plain b = true) (acc : List V) :
    ReadsOnly free (compile S at_ b acc) := by
  induction b generalizing acc with
  | ret => trivial
  | read s k ih =>
    cases s with
    | p s => exact fun v => ih h _
    | q i hi =>
      simp only [plain, Bool.and_eq_true, decide_eq_true_eq] at h
      exact ⟨h.1, fun v => ih h.2 _⟩
    | a x => simp [plain] at h
  | ite t a b iha ihb =>
    simp only [plain, Bool.and_eq_true] at h
    intro v
    show ReadsOnly free (if S.holds t v = true then _ else _)
    split_ifs
    · exact iha h.1 _
    · exact ihb h.2 _
  | betaTwo a b _ _ => simp [plain] at h

theorem denProg_congr {P : Type} [DecidableEq P] {σ : P → V} {n : ℕ} {T : Set ℕ} {ev ev' : Fin n → V × Finset P}
    (pr : Prog P V n) (hr : ReadsOnly T pr) (h : ∀ i : Fin n, (i : ℕ) ∈ T → ev i = ev' i) :
    denProg σ ev pr = denProg σ ev' pr := by
  induction pr with
  | ret v => rfl
  | param p k ih => simp only [denProg]; rw [ih _ (hr _)]
  | quant q k ih => simp only [denProg]; rw [h q hr.1, ih _ (hr.2 _)]

theorem plain_body (q : ℕ) (hq : q ∈ free) : plain (body q) = true := by
  match q with
  | 0 | 1 | 2 | 3 | 5 | 6 | 7 | 8 | 9 | 10 | 11 | 12 | 13 => rfl
  | 4 | 14 | 15 => simp at hq
  | n + 16 => rfl

theorem den_free (at' : Attr → V) (q : ℕ) (hq : q ∈ free) : den (cls S at_) σ q = den (cls S at') σ q := by
  induction q using Nat.strong_induction_on with
  | _ q ih =>
    rw [den, den]
    show denProg σ _ (compile S at_ (body q) []) = denProg σ _ (compile S at' (body q) [])
    rw [plain_compile S at_ at' _ (plain_body q hq)]
    exact denProg_congr _ (plain_reads S at' _ (plain_body q hq) []) fun i hi => ih i i.2 hi

/-- the options come out as for `τ` -/
def SameOptions (τ σ : String → V) : Prop := ∀ t, outcome S σ t = outcome S τ t

/-- every read of the history is made while the options come out as for `τ` -/
def ReadsWith (τ σ : String → V) : List (Act V) → Prop
  | [] => True
  | .read _ :: h => SameOptions S τ σ ∧ ReadsWith τ σ h
  | .set p v :: h => ReadsWith τ (Function.update σ p v) h
  | .assign _ _ :: h => ReadsWith τ σ h

theorem stable_free (τ : String → V) : Stable (cls S at_) (SameOptions S τ) free where
  tracked _ _ := rfl
  closed σ hσ q hq i hi := by
    have hr : ∀ {n : ℕ} (ev : Fin n → V × Finset String) (pr : Prog String V n), ReadsOnly free pr →
        ∀ i ∈ directQ σ ev pr, i ∈ free := by
      intro n ev pr
      induction pr with
      | ret v => intro _ i hi; simp [directQ] at hi
      | param p k ih => exact fun h i hi => ih _ (h _) i hi
      | quant q k ih =>
        intro h i hi
        simp only [directQ, Finset.mem_insert] at hi
        rcases hi with rfl | hi
        · exact h.1
        · exact ih _ (h.2 _) i hi
    exact hr _ _ (plain_reads S at_ _ (plain_body q hq) []) i hi
  same σ σ' hσ hσ' q hq := by
    rw [den_deps, den_deps]
    congr 1
    funext t
    exact (hσ t).trans (hσ' t).symm

theorem stable_all (τ : String → V) : Stable (cls S at_) (SameOptions S τ) Set.univ where
  tracked _ _ := rfl
  closed _ _ _ _ _ _ := trivial
  same σ σ' hσ hσ' q hq := by
    rw [den_deps, den_deps]
    congr 1
    funext t
    exact (hσ t).trans (hσ' t).symm

/-- the luminosity tables never look at an option -/
theorem stable_lum : Stable (cls S at_) (fun _ => True) {q | q < 4} where
  tracked _ _ := rfl
  closed σ _ q hq i hi := by
    match q, hq with
    | 0, _ | 1, _ | 2, _ | 3, _ => simp [direct, directQ, cls, body, reads, compile] at hi
  same σ σ' _ _ q hq := by
    rw [den_deps, den_deps]
    match q, hq with
    | 0, _ | 1, _ | 2, _ | 3, _ => rfl

theorem readQ_params (q : ℕ) (o : Obj String V) : (readQ (cls S at_) q o).2.2.params = o.params :=
  (readQ_invR (c := cls S at_) (Good := fun _ => True) (S := ∅) ⟨fun _ h => h.elim, fun _ _ _ h => h.elim, fun _ _ _ _ _ h => h.elim⟩ q o
    trivial fun _ h => h.elim).1.1

/-- the code reads the parameter `p` itself on every path -/
def mustB (p : String) {n : ℕ} : Body n → Bool
  | .ret => false
  | .read (.p s) k => decide (p = s) || mustB p k
  | .read (.q _ _) k => mustB p k
  | .read (.a _) k => mustB p k
  | .ite t a b => decide (p = t.param) || (mustB p a && mustB p b)
  | .betaTwo a b => mustB p a && mustB p b

theorem must_compile {p : String} {n : ℕ} (b : Body n) (h : mustB p b = true) (acc : List V) :
    Must p (compile S at_ b acc) := by
  induction b generalizing acc with
  | ret => simp [mustB] at h
  | read s k ih =>
    cases s with
    | p s =>
      simp only [mustB, Bool.or_eq_true, decide_eq_true_eq] at h
      exact h.imp id fun h v => ih h _
    | q i hi => exact fun v => ih h _
    | a x => exact ih h _
  | ite t a b iha ihb =>
    simp only [mustB, Bool.or_eq_true, decide_eq_true_eq, Bool.and_eq_true] at h
    refine h.imp id fun h v => ?_
    show Must p (if S.holds t v = true then _ else _)
    split_ifs
    · exact iha h.1 _
    · exact ihb h.2 _
  | betaTwo a b iha ihb =>
    simp only [mustB, Bool.and_eq_true] at h
    simp only [compile]
    split_ifs
    · exact ihb h.2 _
    · exact iha h.1 _

/-- the code reads only quantities that satisfy `T` -/
def onlyB (T : ℕ → Bool) {n : ℕ} : Body n → Bool
  | .ret => true
  | .read (.p _) k => onlyB T k
  | .read (.q i _) k => T i && onlyB T k
  | .read (.a _) k => onlyB T k
  | .ite _ a b => onlyB T a && onlyB T b
  | .betaTwo a b => onlyB T a && onlyB T b

theorem only_compile {T : ℕ → Bool} {n : ℕ} (b : Body n) (h : onlyB T b = true) (acc : List V) :
    ReadsOnly {q | T q = true} (compile S at_ b acc) := by
  induction b generalizing acc with
  | ret => trivial
  | read s k ih =>
    cases s with
    | p s => exact fun v => ih h _
    | q i hi =>
      simp only [onlyB, Bool.and_eq_true] at h
      exact ⟨h.1, fun v => ih h.2 _⟩
    | a x => exact ih h _
  | ite t a b iha ihb =>
    simp only [onlyB, Bool.and_eq_true] at h
    intro v
    show ReadsOnly _ (if S.holds t v = true then _ else _)
    split_ifs
    · exact iha h.1 _
    · exact ihb h.2 _
  | betaTwo a b iha ihb =>
    simp only [onlyB, Bool.and_eq_true] at h
    simp only [compile]
    split_ifs
    · exact ihb h.2 _
    · exact iha h.1 _

theorem run_cons (w : World V) (x : Act V) (h : List (Act V)) : run S w (x :: h) = run S (step S w x) h := rfl

theorem run_append (w : World V) (h t : List (Act V)) : run S w (h ++ t) = run S (run S w h) t := by
  simp [run]

theorem run_state (w : World V) (h : List (Act V)) :
    (run S w h).obj.params = params w.obj.params h ∧ (run S w h).attrs = attrs w.attrs h := by
  induction h generalizing w with
  | nil => exact ⟨rfl, rfl⟩
  | cons x h ih =>
    obtain ⟨h1, h2⟩ := ih (step S w x)
    rw [run_cons, h1, h2]
    cases x with
    | read q => exact ⟨by simp only [step, params, readQ_params], rfl⟩
    | set p v => exact ⟨by simp only [step, params, setP_params], rfl⟩
    | assign x v => exact ⟨rfl, rfl⟩

/-- reading a tracked quantity settles it -/
theorem settle_any {P : Type} [DecidableEq P] {c : Cls P V} {q : ℕ} (hq : c.kind q = .tracked) (o : Obj P V) :
    ∃ D, Settled q D (Cache.value c q o) (readQ c q o).2.2 := by
  cases hi : o.index q with
  | some D => exact ⟨D, settle hq hi⟩
  | none =>
    refine ⟨(runProg (fun (i : Fin q) o => readQ c i o) (c.code q) o).2.1, ?_⟩
    unfold Cache.value
    rw [readQ, hq]
    simp only [hi]
    exact ⟨Function.update_self .., Function.update_self .., Function.update_self ..⟩

theorem run_settled {q : ℕ} {D : Finset String} {v : V} (w : World V) (h : List (Act V)) (hw : Settled q D v w.obj)
    (hh : ∀ p u, Act.set p u ∈ h → p ∉ D) : Settled q D v (run S w h).obj := by
  induction h generalizing w with
  | nil => exact hw
  | cons x h ih =>
    refine ih (step S w x) ?_ fun p u hp => hh p u (List.mem_cons_of_mem _ hp)
    cases x with
    | read i => exact readQ_settled rfl D v i w.obj hw
    | set p u => exact setP_settled p u (hh p u List.mem_cons_self) hw
    | assign x u => exact hw

theorem run_index {q : ℕ} {D : Finset String} (w : World V) (h : List (Act V)) (hw : w.obj.index q = some D) :
    (run S w h).obj.index q = some D := by
  induction h generalizing w with
  | nil => exact hw
  | cons x h ih =>
    refine ih (step S w x) ?_
    cases x with
    | read i => exact readQ_index q D i w.obj hw
    | set p u => exact setP_index p u rfl hw
    | assign x u => exact hw

theorem run_records {q : ℕ} {p : String} (hm : ∀ at_, Must p ((cls S at_).code q)) (w : World V) (h : List (Act V))
    (hw : Records q p w.obj) : Records q p (run S w h).obj := by
  induction h generalizing w with
  | nil => exact hw
  | cons x h ih =>
    refine ih (step S w x) ?_
    cases x with
    | read i => exact readQ_records (hm _) i w.obj hw
    | set p' u => exact setP_records p' u w.obj hw
    | assign x u => exact hw

/-- quantities that do not depend on attributes stay right in a regime, whatever is assigned -/
theorem run_inv {Good : (String → V) → Prop} {T : Set ℕ} (hst : ∀ at_, Stable (cls S at_) Good T)
    (hfr : ∀ a a' σ, ∀ q ∈ T, den (cls S a) σ q = den (cls S a') σ q) (w : World V) (h : List (Act V))
    (hg : ∀ h1 q h2, h = h1 ++ Act.read q :: h2 → Good (params w.obj.params h1))
    (hw : InvR (cls S w.attrs) Good T w.obj) : InvR (cls S (run S w h).attrs) Good T (run S w h).obj := by
  induction h generalizing w with
  | nil => exact hw
  | cons x h ih =>
    refine ih (step S w x) ?_ ?_
    · intro h1 q h2 e
      have := hg (x :: h1) q h2 (by rw [e]; rfl)
      cases x with
      | read i => simpa only [step, params, readQ_params] using this
      | set p u => simpa only [step, params, setP_params] using this
      | assign x u => exact this
    · cases x with
      | read i => exact (readQ_invR (hst _) i w.obj (hg [] i h rfl) hw).1.2
      | set p u => exact setP_invR p u w.obj hw
      | assign x u =>
        intro q hq D hD
        obtain ⟨h1, h2⟩ := hw q hq D hD
        refine ⟨fun τ hτ => ?_, fun hf => ?_⟩
        · simp only [step, hfr _ w.attrs τ q hq]
          exact h1 τ hτ
        · obtain ⟨τ, k1, k2, k3⟩ := h2 hf
          refine ⟨τ, k1, ?_, k3⟩
          simp only [step, hfr _ w.attrs τ q hq]
          exact k2

variable [Inhabited V]

theorem new_inv {Good : (String → V) → Prop} {T : Set ℕ} : InvR (cls S at_) Good T (newObj σ) :=
  fun _ _ _ h => by cases h

theorem new_value (q : ℕ) : value S q (new at_ σ) = (den (cls S at_) σ q).1 :=
  (readQ_current q (newObj σ) ⟨rfl, fun x D hx => absurd hx (by simp [newObj]), fun x D hx => absurd hx (by simp [newObj]),
      fun x _ hx => absurd hx (by simp [newObj]), fun x D hx => absurd hx (by simp [newObj])⟩).1

/-- C127: assigning `beta_two`, `theta_k` or `phi_k` changes no result that has been read before: in every history, once a
quantity is read it keeps its value through all later reads and assignments, until a declared parameter is set. -/
theorem C127_assignment_ignored (q : ℕ) (h t : List (Act V)) (ht : ∀ p v, Act.set p v ∉ t) :
    value S q (run S (new at_ σ) (h ++ Act.read q :: t)) = value S q (run S (new at_ σ) h) := by
  rw [run_append, run_cons]
  obtain ⟨D, hD⟩ := settle_any (c := cls S (run S (new at_ σ) h).attrs) (q := q) rfl (run S (new at_ σ) h).obj
  exact settled_value rfl (run_settled S (step S (run S (new at_ σ) h) (.read q)) t hD fun p u hp => absurd hp (ht p u))

theorem refreshed {Good : (String → V) → Prop} {T : Set ℕ} (hst : ∀ at_, Stable (cls S at_) Good T)
    (hfr : ∀ a a' σ, ∀ q ∈ T, den (cls S a) σ q = den (cls S a') σ q) {q : ℕ} {p : String}
    (hm : ∀ at_, Must p ((cls S at_).code q)) (hr : ∀ at_, ReadsOnly T ((cls S at_).code q)) (h : List (Act V)) (u : V)
    (hu : u ≠ params σ h p) (hg : ∀ h1 q h2, h = h1 ++ Act.read q :: h2 → Good (params σ h1))
    (hf : Good (params σ (h ++ [Act.set p u]))) :
    value S q (run S (new at_ σ) (h ++ [Act.set p u])) = value S q (new (attrs at_ h) (params σ (h ++ [Act.set p u]))) := by
  rw [new_value, run_append]
  set w := run S (new at_ σ) h with hw
  obtain ⟨hp, ha⟩ := run_state S (new at_ σ) h
  have hp' : (run S w [Act.set p u]).obj.params = params σ (h ++ [Act.set p u]) := by
    rw [hw, ← run_append]; exact (run_state S (new at_ σ) _).1
  have hinv := run_inv S hst hfr (new at_ σ) h hg (new_inv S at_ σ)
  have hrec : Records q p w.obj := run_records S hm (new at_ σ) h fun D hD => by simp [new, newObj] at hD
  have hinv' : InvR (cls S w.attrs) Good T (run S w [Act.set p u]).obj := setP_invR p u _ hinv
  have hfl : ∀ D, (run S w [Act.set p u]).obj.index q = some D → (run S w [Act.set p u]).obj.flagged q = true := by
    intro D hD
    have hne : ¬ u = w.obj.params p := by rw [hw, hp]; exact hu
    have e : (run S w [Act.set p u]).obj = setP (cls S w.attrs) p u w.obj := rfl
    rw [e] at hD ⊢
    unfold setP at hD ⊢
    rw [if_neg hne, if_neg (by simp [cls])] at hD ⊢
    simp only at hD ⊢
    rw [hD]
    simp only [hrec D hD, if_true]
  have hat : attrs at_ h = w.attrs := ha.symm
  rw [hat]
  show Cache.value (cls S w.attrs) q (run S w [Act.set p u]).obj = _
  rw [value_recomputed rfl hfl]
  have hS : ∀ (i : Fin q) o, (i : ℕ) ∈ T → o.params = (run S w [Act.set p u]).obj.params → InvR (cls S w.attrs) Good T o →
      ((readQ (cls S w.attrs) i o).1, (readQ (cls S w.attrs) i o).2.1)
        = den (cls S w.attrs) (run S w [Act.set p u]).obj.params i := by
    intro i o hi ho hio
    rw [← ho]
    exact (readQ_invR (hst _) i o (by rw [ho, hp']; exact hf) hio).2 hi
  have hev : ∀ (i : Fin q) o, o.params = (run S w [Act.set p u]).obj.params → InvR (cls S w.attrs) Good T o →
      (readQ (cls S w.attrs) i o).2.2.params = (run S w [Act.set p u]).obj.params ∧
        InvR (cls S w.attrs) Good T (readQ (cls S w.attrs) i o).2.2 := by
    intro i o ho hio
    exact ⟨(readQ_params S _ i o).trans ho, (readQ_invR (hst _) i o (by rw [ho, hp']; exact hf) hio).1.2⟩
  have hdir : ∀ i ∈ directQ (run S w [Act.set p u]).obj.params
      (fun i : Fin q => den (cls S w.attrs) (run S w [Act.set p u]).obj.params i) ((cls S w.attrs).code q), i ∈ T := by
    have : ∀ {n : ℕ} (σ : String → V) (ev : Fin n → V × Finset String) (pr : Prog String V n), ReadsOnly T pr →
        ∀ i ∈ directQ σ ev pr, i ∈ T := by
      intro n σ ev pr
      induction pr with
      | ret v => intro _ i hi; simp [directQ] at hi
      | param p k ih => exact fun h i hi => ih _ (h _) i hi
      | quant q k ih =>
        intro h i hi
        simp only [directQ, Finset.mem_insert] at hi
        rcases hi with rfl | hi
        · exact h.1
        · exact ih _ (h.2 _) i hi
    exact this _ _ _ (hr _)
  have hden := runProg_denR (c := cls S w.attrs) (Good := Good) (S := T) (fun i o => readQ (cls S w.attrs) i o) hev hS
    ((cls S w.attrs).code q) hdir (run S w [Act.set p u]).obj rfl hinv'
  rw [hp'] at hden
  rw [den, ← hden]

/-- C127: the amplitude of central alignments does take up a new `beta_two` when the amplitude parameter is set to another value:
after any history, whatever options, files and attributes were changed in between, it is then that of a newly built object. -/
theorem C127_amplitude_refreshes (h : List (Act V)) (u : V) (hu : u ≠ params σ h "gamma_2h_amplitude") :
    value S alignmentGi (run S (new at_ σ) (h ++ [Act.set "gamma_2h_amplitude" u])) =
      value S alignmentGi (new (attrs at_ h) (params σ (h ++ [Act.set "gamma_2h_amplitude" u]))) := by
  refine refreshed S at_ σ (Good := fun _ => True) (T := {q | q < 4}) (stable_lum S) ?_
    (fun at_ => must_compile S at_ _ (by decide +kernel) _) ?_ h u hu (fun _ _ _ _ => trivial) trivial
  · intro a a' σ q hq
    refine den_free S a σ a' q ?_
    match q, hq with
    | 0, _ | 1, _ | 2, _ | 3, _ => simp
  · intro at_
    have := only_compile S at_ (T := fun i => decide (i < 4)) (body alignmentGi) (by decide +kernel) []
    have e : {q | decide (q < 4) = true} = {q : ℕ | q < 4} := by ext; simp
    rw [e] at this
    exact this

omit [Inhabited V] in
theorem reads_good {τ σ : String → V} {h : List (Act V)} (hr : ReadsWith S τ σ h) (h1 : List (Act V)) (q : ℕ)
    (h2 : List (Act V)) (e : h = h1 ++ Act.read q :: h2) : SameOptions S τ (params σ h1) := by
  induction h1 generalizing h σ with
  | nil => subst e; exact hr.1
  | cons x h1 ih =>
    subst e
    cases x with
    | read i => exact ih hr.2 rfl
    | set p u => exact ih (σ := Function.update σ p u) hr rfl
    | assign x u => exact ih (σ := σ) (h := h1 ++ Act.read q :: h2) hr rfl

/-- C127: the satellite profile takes up new angles when the slope is set to another value, as long as all reads are made with the
same options: it is then that of a newly built object. -/
theorem C127_slope_refreshes (h : List (Act V)) (u : V) (hu : u ≠ params σ h "gamma_1h_slope")
    (hr : ReadsWith S (params σ h) σ h) :
    value S wkmFEll (run S (new at_ σ) (h ++ [Act.set "gamma_1h_slope" u])) =
      value S wkmFEll (new (attrs at_ h) (params σ (h ++ [Act.set "gamma_1h_slope" u]))) := by
  have hf : ∀ (h : List (Act V)) (σ : String → V), params σ (h ++ [Act.set "gamma_1h_slope" u]) =
      Function.update (params σ h) "gamma_1h_slope" u := by
    intro h
    induction h with
    | nil => exact fun _ => rfl
    | cons x h ih => intro σ; cases x <;> exact ih _
  refine refreshed S at_ σ (Good := SameOptions S (params σ h)) (T := free) (fun a => stable_free S a _)
    (fun a a' σ q hq => den_free S a σ a' q hq) (fun at_ => must_compile S at_ _ (by decide +kernel) _) ?_ h u hu
    (reads_good S hr) ?_
  · intro at_
    have := only_compile S at_ (T := fun i => decide (i ∉ [alignmentGi, wkmFEll, wkm])) (body wkmFEll) (by decide +kernel) []
    have e : {q | decide (q ∉ [alignmentGi, wkmFEll, wkm]) = true} = free := by ext; simp
    rw [e] at this
    exact this
  · intro t
    rw [hf]
    unfold outcome
    rw [Function.update_of_ne]
    cases t <;> simp [Test.param]

/-- C127: results that involve no attribute are those of a newly built object with the present parameters, whatever is assigned, as
long as all reads are made with the present options. -/
theorem C127_fresh (h : List (Act V)) (hr : ReadsWith S (params σ h) σ h) (q : ℕ) (hq : q ∉ [alignmentGi, wkmFEll, wkm]) :
    value S q (run S (new at_ σ) h) = value S q (new (attrs at_ h) (params σ h)) := by
  obtain ⟨hp, ha⟩ := run_state S (new at_ σ) h
  have hinv := run_inv S (Good := SameOptions S (params σ h)) (T := free) (fun a => stable_free S a _)
    (fun a a' σ q hq => den_free S a σ a' q hq) (new at_ σ) h (reads_good S hr) (new_inv S at_ σ)
  have := (readQ_invR (stable_free S _ _) q _ (by rw [hp]; exact fun _ => rfl) hinv).2 hq
  rw [new_value]
  have e := congrArg Prod.fst this
  rw [hp] at e
  unfold value Cache.value
  have ha' : attrs at_ h = (run S (new at_ σ) h).attrs := ha.symm
  rw [ha']
  exact e

/-- C127: if no attribute is assigned, every result is that of a newly built object, as long as all reads are made with the present
options. -/
theorem C127_fresh_without_assignment (h : List (Act V)) (hr : ReadsWith S (params σ h) σ h)
    (ha : ∀ x v, Act.assign x v ∉ h) (q : ℕ) :
    value S q (run S (new at_ σ) h) = value S q (new at_ (params σ h)) := by
  have key : ∀ (τ : String → V) (h : List (Act V)) (w : World V), (∀ x v, Act.assign x v ∉ h) →
      ReadsWith S τ w.obj.params h → InvR (cls S w.attrs) (SameOptions S τ) Set.univ w.obj →
      (run S w h).attrs = w.attrs ∧ InvR (cls S w.attrs) (SameOptions S τ) Set.univ (run S w h).obj := by
    intro τ h
    induction h with
    | nil => exact fun w _ _ hw => ⟨rfl, hw⟩
    | cons x h ih =>
      intro w ha hr hw
      have ha' : ∀ x v, Act.assign x v ∉ h := fun x v hx => ha x v (List.mem_cons_of_mem _ hx)
      cases x with
      | read i =>
        exact ih (step S w (.read i)) ha' (by simp only [step, readQ_params]; exact hr.2)
          (readQ_invR (stable_all S _ _) i w.obj hr.1 hw).1.2
      | set p u => exact ih (step S w (.set p u)) ha' (by simp only [step, setP_params]; exact hr) (setP_invR p u w.obj hw)
      | assign x u => exact absurd List.mem_cons_self (ha x u)
  obtain ⟨k1, k2⟩ := key (params σ h) h (new at_ σ) ha hr (new_inv S at_ σ)
  have hp := (run_state S (new at_ σ) h).1
  have := (readQ_invR (stable_all S _ _) q _ (by rw [hp]; exact fun _ => rfl) k2).2 trivial
  rw [new_value]
  have e := congrArg Prod.fst this
  rw [hp] at e
  unfold value Cache.value
  rw [k1]
  exact e

/-- C127: options are not safe.  A quantity is read first when the options make it look at certain parameters only.  Then anything
may happen, also a change of options after which it looks at others.  Once it has been read again, no update of those others is
noticed, whatever else is read, set among them or assigned. -/
theorem C127_options_ignored (q : ℕ) (sets h t : List (Act V)) (hs : ∀ x, Act.read x ∉ sets)
    (ht : ∀ p v, Act.set p v ∈ t → p ∉ table (outcome S (params σ sets)) q) :
    value S q (run S (new at_ σ) (sets ++ Act.read q :: h ++ Act.read q :: t)) =
      value S q (run S (new at_ σ) (sets ++ Act.read q :: h)) := by
  have h0 : ∀ (l : List (Act V)) (w : World V), (∀ x, Act.read x ∉ l) → (∀ x, w.obj.index x = none) →
      (∀ x, w.obj.done x = false) → (∀ x, (run S w l).obj.index x = none) ∧ ∀ x, (run S w l).obj.done x = false := by
    intro l
    induction l with
    | nil => exact fun w _ h1 h2 => ⟨h1, h2⟩
    | cons a l ih =>
      intro w hl hi hd
      have hl' : ∀ x, Act.read x ∉ l := fun x hx => hl x (List.mem_cons_of_mem _ hx)
      cases a with
      | read x => exact absurd List.mem_cons_self (hl x)
      | assign x v => exact ih (step S w (.assign x v)) hl' hi hd
      | set p v =>
        refine ih (step S w (.set p v)) hl' (fun x => ?_) fun x => ?_
        · simp only [step]; unfold setP; split_ifs <;> simp [hi]
        · simp only [step]; unfold setP; split_ifs <;> exact hd x
  obtain ⟨hi, hd⟩ := h0 sets (new at_ σ) hs (fun _ => rfl) fun _ => rfl
  obtain ⟨hp, ha⟩ := run_state S (new at_ σ) sets
  set w := run S (new at_ σ) sets with hw
  have hcur : Current (cls S w.attrs) (params σ sets) w.obj :=
    ⟨hp, fun x D hx => absurd ((hi x).symm.trans hx) (by simp), fun x D hx => absurd ((hi x).symm.trans hx) (by simp),
      fun x _ hx => absurd ((hd x).symm.trans hx) (by simp), fun x D hx => absurd ((hi x).symm.trans hx) (by simp)⟩
  obtain ⟨-, -, k3, k4⟩ := readQ_current q _ hcur
  obtain ⟨D, hD⟩ := k4 rfl
  have hsub := k3.index q D hD
  rw [den_deps] at hsub
  have hidx := run_index S (step S w (.read q)) h hD
  rw [run_append S (new at_ σ) (sets ++ Act.read q :: h), run_append S (new at_ σ) sets, ← hw, run_cons, run_cons]
  exact settled_value rfl (run_settled S (step S (run S (step S w (.read q)) h) (.read q)) t (settle rfl hidx)
    fun p u hpu hpD => ht p u hpu (hsub hpD))

/-- C127: read first with a constant amplitude of centrals, the luminosity scaling chosen later ignores updates of its slope, its
pivot and its file; read first with the mass scaling likewise -/
theorem C127_central_option (sets h t : List (Act V)) (hs : ∀ x, Act.read x ∉ sets)
    (h0 : outcome S (params σ sets) .cenLuminosity = false)
    (ht : ∀ p v, Act.set p v ∈ t → p ∈ ["lpivot_cen", "beta_cen", "z_loglum_file_centrals"]) :
    value S alignmentGi (run S (new at_ σ) (sets ++ Act.read alignmentGi :: h ++ Act.read alignmentGi :: t)) =
      value S alignmentGi (run S (new at_ σ) (sets ++ Act.read alignmentGi :: h)) := by
  refine C127_options_ignored S at_ σ alignmentGi sets h t hs fun p v hp => ?_
  have := ht p v hp
  simp only [List.mem_cons, List.not_mem_nil, or_false] at this
  simp only [table, h0]
  cases outcome S (params σ sets) .cenConstant <;> rcases this with rfl | rfl | rfl <;> decide +kernel

/-- C127: the same for satellites, including the profile computed from their amplitude -/
theorem C127_satellite_option (q : ℕ) (hq : q ∈ [gamma1hAmp, uell, wkmFEll, wkm]) (sets h t : List (Act V))
    (hs : ∀ x, Act.read x ∉ sets) (h0 : outcome S (params σ sets) .satLuminosity = false)
    (ht : ∀ p v, Act.set p v ∈ t → p ∈ ["lpivot_sat", "beta_sat", "z_loglum_file_satellites"]) :
    value S q (run S (new at_ σ) (sets ++ Act.read q :: h ++ Act.read q :: t)) =
      value S q (run S (new at_ σ) (sets ++ Act.read q :: h)) := by
  refine C127_options_ignored S at_ σ q sets h t hs fun p v hp => ?_
  have := ht p v hp
  simp only [List.mem_cons, List.not_mem_nil, or_false] at this hq
  have key : ∀ R : Test → Bool, R .satLuminosity = false → p ∉ table R q := by
    intro R hR
    rcases hq with rfl | rfl | rfl | rfl <;>
    simp only [table, table.uel, table.base, table.down, table.kvec, table.hank, table.amplitude, hR] <;>
    cases R .satConstant <;> cases R .hankel <;> cases R .fftlog <;>
    rcases this with rfl | rfl | rfl <;> decide +kernel
  exact key _ h0

/-- C127: read first with the method `fftlog`, the method `hankel` chosen later ignores updates of its resolution: the number of
wavenumbers, of masses and of integration steps -/
theorem C127_method (q : ℕ) (sets h t : List (Act V)) (hs : ∀ x, Act.read x ∉ sets)
    (h0 : outcome S (params σ sets) .hankel = false) (h1 : outcome S (params σ sets) .fftlog = true)
    (ht : ∀ p v, Act.set p v ∈ t → p ∈ ["nk", "nmass", "n_hankel"]) :
    value S q (run S (new at_ σ) (sets ++ Act.read q :: h ++ Act.read q :: t)) =
      value S q (run S (new at_ σ) (sets ++ Act.read q :: h)) := by
  refine C127_options_ignored S at_ σ q sets h t hs fun p v hp => ?_
  have := ht p v hp
  simp only [List.mem_cons, List.not_mem_nil, or_false] at this
  have key : ∀ R : Test → Bool, R .hankel = false → R .fftlog = true → ∀ q, p ∉ table R q := by
    intro R hR hR' q
    match q with
    | 0 | 1 | 2 | 3 | 6 => rcases this with rfl | rfl | rfl <;> simp only [table] <;> decide +kernel
    | 4 => rcases this with rfl | rfl | rfl <;> simp only [table] <;> cases R .cenConstant <;> cases R .cenLuminosity <;> decide +kernel
    | 5 | 7 | 8 | 9 | 10 | 11 | 12 | 13 | 14 | 15 =>
      rcases this with rfl | rfl | rfl <;>
      simp only [table, table.uel, table.base, table.down, table.kvec, table.hank, table.amplitude, hR, hR'] <;>
      cases R .satConstant <;> cases R .satLuminosity <;> decide +kernel
    | n + 16 => exact Finset.notMem_empty _
  exact key _ h0 h1 q

omit [Inhabited V] in
theorem params_append (h t : List (Act V)) : params σ (h ++ t) = params (params σ h) t := by
  induction h generalizing σ with
  | nil => rfl
  | cons x h ih => cases x <;> exact ih _

omit [Inhabited V] in
theorem attrs_append (h t : List (Act V)) : attrs at_ (h ++ t) = attrs (attrs at_ h) t := by
  induction h generalizing at_ with
  | nil => rfl
  | cons x h ih => cases x <;> exact ih _

/-- C127: so results are wrong as soon as the attribute matters at all: if newly built objects tell two values of an attribute apart,
then after any history that ends with reading the result, one of the two assignments leaves a value that is not the one of a newly
built object. -/
theorem C127_one_is_stale (q : ℕ) (h : List (Act V)) (x : Attr) (v v' : V)
    (hne : value S q (new (Function.update (attrs at_ h) x v) (params σ h)) ≠
      value S q (new (Function.update (attrs at_ h) x v') (params σ h))) :
    ∃ u, u ∈ [v, v'] ∧ value S q (run S (new at_ σ) (h ++ [Act.read q, Act.assign x u])) ≠
      value S q (new (attrs at_ (h ++ [Act.read q, Act.assign x u])) (params σ (h ++ [Act.read q, Act.assign x u]))) := by
  have hig : ∀ u, value S q (run S (new at_ σ) (h ++ [Act.read q, Act.assign x u])) = value S q (run S (new at_ σ) h) :=
    fun u => C127_assignment_ignored S at_ σ q h [Act.assign x u] (by simp)
  by_contra hc
  push Not at hc
  have h1 := hc v (by simp)
  have h2 := hc v' (by simp)
  rw [hig, params_append, attrs_append] at h1 h2
  exact hne (h1.symm.trans h2)

/-- C127: with the luminosity scaling and the second slope `b` given, a later assignment of another slope `b'` leaves the amplitude
that was computed with `b`, while a newly built object uses `b'`. -/
theorem C127_beta_two_stale (b' : V) (h1 : outcome S σ .cenConstant = false) (h2 : outcome S σ .cenLuminosity = true)
    (hb : S.isNone (at_ .betaTwo) = false) (hb' : S.isNone b' = false) :
    let lum := S.out lumCentrals [σ "z_loglum_file_centrals", σ "z_vec"]
    let pdf := S.out lumPdfCentrals [σ "z_loglum_file_centrals", σ "z_vec"]
    let amplitude := fun b => S.out alignmentGi [σ "central_ia_depends_on", σ "central_ia_depends_on", σ "lpivot_cen", σ "z_vec",
      lum, pdf, σ "gamma_2h_amplitude", σ "lpivot_cen", σ "beta_cen", b]
    value S alignmentGi (run S (new at_ σ) [Act.read alignmentGi, Act.assign .betaTwo b']) = amplitude (at_ .betaTwo) ∧
      value S alignmentGi (new (Function.update at_ .betaTwo b') σ) = amplitude b' := by
  intro lum pdf amplitude
  have key : ∀ a : Attr → V, S.isNone (a .betaTwo) = false → value S alignmentGi (new a σ) = amplitude (a .betaTwo) := by
    intro a ha
    have e0 : den (cls S a) σ 0 = (lum, {"z_loglum_file_centrals", "z_vec"}) := by rw [den]; rfl
    have e1 : den (cls S a) σ 1 = (pdf, {"z_loglum_file_centrals", "z_vec"}) := by rw [den]; rfl
    have k1 : S.holds .cenConstant (σ "central_ia_depends_on") = false := h1
    have k2 : S.holds .cenLuminosity (σ "central_ia_depends_on") = true := h2
    rw [new_value, den]
    show (denProg σ _ (compile S a (body alignmentGi) [])).1 = _
    simp only [body, reads, compile, denProg, Test.param, k1, k2, ha, Bool.false_eq_true, if_true, if_false, e0, e1]
    rfl
  refine ⟨?_, ?_⟩
  · rw [← key at_ hb]
    exact C127_assignment_ignored S at_ σ alignmentGi [] [Act.assign .betaTwo b'] (by simp)
  · have := key (Function.update at_ .betaTwo b') (by simpa using hb')
    simpa using this

/-- C127: the angles are plain attributes as well.  Assigned after the profile has been read, other angles `φ`, `θ` leave the profile
of the old ones, while a newly built object uses the new ones. -/
theorem C127_angles_stale (φ θ : V) :
    let u := value S uell (new at_ σ)
    let ell := value S ellValues (new at_ σ)
    let profile := fun φ θ => S.out wkmFEll [u, ell, σ "gamma_1h_slope", φ, θ]
    value S wkmFEll (run S (new at_ σ) [Act.read wkmFEll, Act.assign .phiK φ, Act.assign .thetaK θ]) = profile (at_ .phiK) (at_ .thetaK) ∧
      value S wkmFEll (new (Function.update (Function.update at_ .phiK φ) .thetaK θ) σ) = profile φ θ := by
  intro u ell profile
  have key : ∀ a : Attr → V, value S wkmFEll (new a σ) = profile (a .phiK) (a .thetaK) := by
    intro a
    have e0 : (den (cls S a) σ uell).1 = u := by
      show _ = value S uell (new at_ σ)
      rw [new_value, den_free S a σ at_ uell (by simp)]
    have e1 : (den (cls S a) σ ellValues).1 = ell := by
      show _ = value S ellValues (new at_ σ)
      rw [new_value, den_free S a σ at_ ellValues (by simp)]
    rw [new_value, den]
    show (denProg σ _ (compile S a (body wkmFEll) [])).1 = _
    simp only [body, reads, compile, denProg, e0, e1]
    rfl
  refine ⟨?_, ?_⟩
  · rw [← key at_]
    exact C127_assignment_ignored S at_ σ wkmFEll [] [Act.assign .phiK φ, Act.assign .thetaK θ] (by simp)
  · have := key (Function.update (Function.update at_ .phiK φ) .thetaK θ)
    simpa [Function.update] using this

/-! ## An instance -/

/-- numbers as values, every quantity is the sum of what it reads; options are 0 for `constant` and `fftlog`, 1 for `luminosity`
and `hankel`; 0 is `None` -/
def demoSem : Sem ℕ where
  out _ l := l.sum
  holds t v := match t with
    | .cenConstant | .satConstant | .fftlog => v == 0
    | .cenLuminosity | .satLuminosity | .hankel => v == 1
  isNone v := v == 0

/-- all parameters 1 -/
def demoParams : String → ℕ := fun _ => 1

/-- the second slope is 2 -/
def demoAttrs : Attr → ℕ
  | .betaTwo => 2
  | _ => 1

/-- the hypotheses of `C127_beta_two_stale` are met and the two values differ: 15 against 18 -/
example : value demoSem alignmentGi (run demoSem (new demoAttrs demoParams) [Act.read alignmentGi, Act.assign .betaTwo 5]) ≠
    value demoSem alignmentGi (new (Function.update demoAttrs .betaTwo 5) demoParams) := by
  obtain ⟨h1, h2⟩ := C127_beta_two_stale demoSem demoAttrs demoParams 5 rfl rfl rfl rfl
  rw [h1, h2]
  decide

/-- `C127_angles_stale`: new angles are not noticed -/
example : value demoSem wkmFEll (run demoSem (new demoAttrs demoParams) [Act.read wkmFEll, Act.assign .phiK 4, Act.assign .thetaK 5]) ≠
    value demoSem wkmFEll (new (Function.update (Function.update demoAttrs .phiK 4) .thetaK 5) demoParams) := by
  obtain ⟨h1, h2⟩ := C127_angles_stale demoSem demoAttrs demoParams 4 5
  rw [h1, h2]
  show List.sum [_, _, 1, 1, 1] ≠ List.sum [_, _, 1, 4, 5]
  simp

/-- `C127_amplitude_refreshes` after this history: the amplitude is set from 1 to 3 -/
example : value demoSem alignmentGi (run demoSem (new demoAttrs demoParams)
      ([Act.read alignmentGi, Act.assign .betaTwo 5] ++ [Act.set "gamma_2h_amplitude" 3])) =
    value demoSem alignmentGi (new (attrs demoAttrs [Act.read alignmentGi, Act.assign .betaTwo 5])
      (params demoParams ([Act.read alignmentGi, Act.assign .betaTwo 5] ++ [Act.set "gamma_2h_amplitude" 3]))) :=
  C127_amplitude_refreshes demoSem demoAttrs demoParams _ 3 (by decide)

/-- a history in which all reads are made with the final options, with an assignment and a changed slope -/
example : ReadsWith demoSem (params demoParams [Act.read wkmFEll, Act.assign .thetaK 7, Act.set "gamma_1h_slope" 4]) demoParams
    [Act.read wkmFEll, Act.assign .thetaK 7, Act.set "gamma_1h_slope" 4] :=
  ⟨fun t => by cases t <;> rfl, trivial⟩

/-- the hypotheses of `C127_central_option`: first read with a constant amplitude, luminosity chosen later -/
example : value demoSem alignmentGi (run demoSem (new demoAttrs demoParams)
      ([Act.set "central_ia_depends_on" 0] ++ Act.read alignmentGi :: [Act.set "central_ia_depends_on" 1] ++
        Act.read alignmentGi :: [Act.set "beta_cen" 9])) =
    value demoSem alignmentGi (run demoSem (new demoAttrs demoParams)
      ([Act.set "central_ia_depends_on" 0] ++ Act.read alignmentGi :: [Act.set "central_ia_depends_on" 1])) :=
  C127_central_option demoSem demoAttrs demoParams _ _ _ (by simp) rfl (by
    intro p v h
    simp only [List.mem_singleton, Act.set.injEq] at h
    simp [h.1])

end Verif.IaCache

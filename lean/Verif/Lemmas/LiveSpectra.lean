import Verif.Model.LiveSpectra
import Verif.Lemmas.SpectraGraph

/-! The code of a quantity of a live object, run without caches, sees exactly the values of the names it reads. -/

namespace Verif.LiveSpectra

open Verif.Lib Verif.Cache Verif.SpectraDeps Verif.Pk

variable {X : Type} (ext : ℕ → Env X → Val X) (σ : String → Val X) (E : ℕ → Val X)

/-- the values read, in order -/
def trace {n : ℕ} : Body n → List (Val X)
  | .ret => []
  | .read (.p s) k => σ s :: trace k
  | .read (.q i _) k => E i :: trace k
  | .ite t a b => σ t.param :: if holds t (σ t.param) = true then trace a else trace b

/-- the names read with their values -/
def seen {n : ℕ} : Body n → Env X → Env X
  | .ret, e => e
  | .read (.p s) k, e => seen k (e.setP s (σ s))
  | .read (.q i _) k, e => seen k (e.setQ i (E i))
  | .ite t a b, e => if holds t (σ t.param) = true then seen a (e.setP t.param (σ t.param))
      else seen b (e.setP t.param (σ t.param))

theorem replay_trace {n : ℕ} (b : Body n) (e : Env X) : replay b (trace σ E b) e = seen σ E b e := by
  induction b generalizing e with
  | ret => rfl
  | read s k ih => cases s with
    | p s => exact ih _
    | q i h => exact ih _
  | ite t a b iha ihb =>
    simp only [trace, replay, seen]
    split_ifs with h
    · exact iha _
    · exact ihb _

theorem denProg_out {n : ℕ} (ev : Fin n → Val X × Finset String) (hev : ∀ i, (ev i).1 = E i) (b : Body n)
    (acc : List (Val X)) :
    (denProg σ ev (compile (sem ext) b acc)).1 = (sem ext).out n (acc ++ trace σ E b) := by
  induction b generalizing acc with
  | ret => simp [compile, denProg, trace]
  | read s k ih => cases s with
    | p s => simp only [compile, denProg, trace, ih, List.append_assoc, List.singleton_append]
    | q i h => simp only [compile, denProg, trace, ih, hev, List.append_assoc, List.singleton_append]
  | ite t a b iha ihb =>
    simp only [compile, denProg, trace]
    by_cases h : holds t (σ t.param) = true
    · rw [if_pos h, if_pos (show (sem ext).holds t (σ t.param) = true from h), iha, List.append_assoc,
        List.singleton_append]
    · rw [if_neg h, if_neg (show ¬ (sem ext).holds t (σ t.param) = true from h), ihb, List.append_assoc,
        List.singleton_append]

/-- `E` are values of all quantities, each computed from the others, except that `omega_m` may be anything -/
def Consistent : Prop := ∀ n, n ≠ omegaM → E n = formula ext n (seen σ E (body n) (Env.empty X))

theorem consistent_den : Consistent ext σ fun n => (den (cls (sem ext)) σ n).1 := by
  intro n _
  show (den (cls (sem ext)) σ n).1 = _
  rw [den]
  have := denProg_out ext σ (fun n => (den (cls (sem ext)) σ n).1) (fun i : Fin n => den (cls (sem ext)) σ i)
    (fun _ => rfl) (body n) []
  rw [List.nil_append] at this
  rw [← replay_trace]
  exact this

theorem consistent_pin (w : Val X) :
    Consistent ext σ fun n => (den (pin (cls (sem ext)) omegaM w) σ n).1 := by
  intro n hn
  show (den (pin (cls (sem ext)) omegaM w) σ n).1 = _
  rw [den]
  have := denProg_out ext σ (fun n => (den (pin (cls (sem ext)) omegaM w) σ n).1)
    (fun i : Fin n => den (pin (cls (sem ext)) omegaM w) σ i) (fun _ => rfl) (body n) []
  rw [List.nil_append] at this
  rw [← replay_trace]
  simp only [pin, if_neg hn]
  exact this

/-! ## The conditions -/

theorem holds_bnl (v : Val X) : holds .bnl v = decide (v.mode = .bnl) := by
  simp only [holds, Val.mode]; split_ifs <;> simp_all
theorem str_ne {s t : String} (v : Val X) (h : s ≠ t) (hv : v.isStr s = true) : v.isStr t = false := by
  cases v <;> simp_all [Val.isStr]
theorem holds_hmcode (v : Val X) : holds .hmcode v = decide (v.mode = .hmcode) := by
  simp only [holds, Val.mode]; split_ifs with h1 h2 h3 <;> simp_all [str_ne (s := "bnl") (t := "hmcode")]
theorem holds_fortuna (v : Val X) : holds .fortuna v = decide (v.mode = .fortuna) := by
  simp only [holds, Val.mode]
  split_ifs with h1 h2 h3 <;> simp_all [str_ne (s := "bnl") (t := "fortuna"), str_ne (s := "hmcode") (t := "fortuna")]
theorem holds_feedback (v : Val X) : holds .feedback v = decide (v.ingr = .mead2020Feedback) := by
  simp only [holds, Val.ingr]; split_ifs <;> simp_all
theorem holds_mead2020 (v : Val X) : holds .mead2020 v = decide (v.ingr = .mead2020) := by
  simp only [holds, Val.ingr]
  split_ifs with h1 h2 h3 <;> simp_all [str_ne (s := "mead2020_feedback") (t := "mead2020")]
theorem holds_fit (v : Val X) : holds .fit v = decide (v.ingr = .fit) := by
  simp only [holds, Val.ingr]
  split_ifs with h1 h2 h3 <;> simp_all [str_ne (s := "mead2020_feedback") (t := "fit"), str_ne (s := "mead2020") (t := "fit")]
theorem holds_mead (v : Val X) : holds .mead v = decide (v.ingr = .mead2020Feedback ∨ v.ingr = .mead2020) := by
  have h1 := holds_feedback v
  have h2 := holds_mead2020 v
  simp only [holds] at h1 h2 ⊢
  rw [h1, h2]
  simp

/-! ## What has certainly been read -/

theorem keep_qty {n : ℕ} (b : Body n) (e : Env X) (j : ℕ) (h : e.qty j = E j) : (seen σ E b e).qty j = E j := by
  induction b generalizing e with
  | ret => exact h
  | read s k ih => cases s with
    | p s => exact ih _ h
    | q i hi =>
      refine ih _ ?_
      simp only [Env.setQ, Function.update_apply]
      split_ifs with hj
      · rw [hj]
      · exact h
  | ite t a b iha ihb =>
    simp only [seen]
    split_ifs
    · exact iha _ h
    · exact ihb _ h

theorem keep_par {n : ℕ} (b : Body n) (e : Env X) (s : String) (h : e.par s = σ s) : (seen σ E b e).par s = σ s := by
  have set : ∀ (e : Env X) (t : String), e.par s = σ s → (e.setP t (σ t)).par s = σ s := by
    intro e t h
    simp only [Env.setP, Function.update_apply]
    split_ifs with hj
    · rw [hj]
    · exact h
  induction b generalizing e with
  | ret => exact h
  | read s k ih => cases s with
    | p t => exact ih _ (set _ _ h)
    | q i hi => exact ih _ h
  | ite t a b iha ihb =>
    simp only [seen]
    split_ifs
    · exact iha _ (set _ _ h)
    · exact ihb _ (set _ _ h)

theorem seen_qty {K : Known} (hK : Fits K fun t => holds t (σ t.param)) {n : ℕ} (b : Body n) (e : Env X) (j : ℕ)
    (h : j ∈ mustRead K b) : (seen σ E b e).qty j = E j := by
  induction b generalizing e with
  | ret => simp [mustRead] at h
  | read s k ih => cases s with
    | p s => exact ih _ h
    | q i hi =>
      simp only [mustRead, List.mem_cons] at h
      rcases h with rfl | h
      · exact keep_qty σ E _ (e.setQ _ (E _)) _ (Function.update_self ..)
      · exact ih _ h
  | ite t a b iha ihb =>
    simp only [seen]
    simp only [mustRead] at h
    cases hx : K t with
    | none =>
      rw [hx] at h
      simp only [List.mem_filter, List.contains_iff_mem] at h
      split_ifs
      · exact iha _ h.1
      · exact ihb _ h.2
    | some x =>
      rw [hx] at h
      have := hK t x hx
      simp only at this
      rw [this]
      cases x
      · simpa using ihb _ h
      · simpa using iha _ h

/-- parameters that are certainly looked at by the code itself -/
def mustPar (K : Known) {n : ℕ} : Body n → List String
  | .ret => []
  | .read (.p s) k => s :: mustPar K k
  | .read (.q _ _) k => mustPar K k
  | .ite t a b => t.param :: match K t with
    | some true => mustPar K a
    | some false => mustPar K b
    | none => (mustPar K a).filter fun i => (mustPar K b).contains i

theorem seen_par {K : Known} (hK : Fits K fun t => holds t (σ t.param)) {n : ℕ} (b : Body n) (e : Env X) (s : String)
    (h : s ∈ mustPar K b) : (seen σ E b e).par s = σ s := by
  induction b generalizing e with
  | ret => simp [mustPar] at h
  | read x k ih => cases x with
    | p t =>
      simp only [mustPar, List.mem_cons] at h
      rcases h with rfl | h
      · exact keep_par σ E _ (e.setP _ (σ _)) _ (Function.update_self ..)
      · exact ih _ h
    | q i hi => exact ih _ h
  | ite t a b iha ihb =>
    simp only [mustPar, List.mem_cons] at h
    rcases h with rfl | h
    · simp only [seen]
      split_ifs
      · exact keep_par σ E _ (e.setP _ (σ _)) _ (Function.update_self ..)
      · exact keep_par σ E _ (e.setP _ (σ _)) _ (Function.update_self ..)
    · simp only [seen]
      cases hx : K t with
      | none =>
        rw [hx] at h
        simp only [List.mem_filter, List.contains_iff_mem] at h
        split_ifs
        · exact iha _ h.1
        · exact ihb _ h.2
      | some x =>
        rw [hx] at h
        have := hK t x hx
        simp only at this
        rw [this]
        cases x
        · simpa using ihb _ h
        · simpa using iha _ h

end Verif.LiveSpectra

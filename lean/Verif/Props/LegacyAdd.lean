import Verif.Model.LegacyAdd
import Verif.Props.InterfaceExecute
import Mathlib.Tactic.Linarith
import Mathlib.Tactic.NormNum
import Mathlib.Tactic.LinearCombination
import Mathlib.Data.List.Infix

/-! # C119: the legacy module that adds and extrapolates spectra, and the rewritten library -/

namespace Verif.LegacyAdd

open Verif.Lib Verif.Spec Finset

/-! ## The change of sign -/

theorem interpLinear_line (n : ℕ) (x y : ℕ → ℝ) (q : ℝ) :
    interpLinear n x y q =
      (1 - (q - x (Lib.segment n x q - 1)) / (x (Lib.segment n x q) - x (Lib.segment n x q - 1))) * y (Lib.segment n x q - 1) +
      (q - x (Lib.segment n x q - 1)) / (x (Lib.segment n x q) - x (Lib.segment n x q - 1)) * y (Lib.segment n x q) := by
  unfold interpLinear
  ring

theorem interp1d_lin {fill : Fill} (hf : fill = .extrapolate ∨ fill = .value 0) (n : ℕ) (x y w : ℕ → ℝ) (c d q : ℝ) :
    interp1d fill n x (fun i => c * y i + d * w i) q = c * interp1d fill n x y q + d * interp1d fill n x w q := by
  rcases hf with rfl | rfl
  · simp only [interp1d, interpLinear_line]; ring
  · simp only [interp1d]
    split_ifs
    · ring
    · simp only [interpLinear_line]; ring

/-- the interpolation is linear in the spectrum -/
theorem interpolate_lin {fill : Fill} (hf : fill = .extrapolate ∨ fill = .value 0) (s out : Sect) (p q : ℕ → ℕ → ℝ)
    (c d : ℝ) (i j : ℕ) :
    interpolate { s with p := fun m l => c * p m l + d * q m l } out fill i j =
      c * interpolate { s with p := p } out fill i j + d * interpolate { s with p := q } out fill i j := by
  simp only [interpolate]
  simp only [interp1d_lin hf]
  exact interp1d_lin (Or.inl rfl) _ _ _ _ c d _

theorem fillOf_ok (b : Bool) : fillOf b = .extrapolate ∨ fillOf b = .value 0 := by
  cases b
  · exact Or.inr rfl
  · exact Or.inl rfl

/-- C119: the change of sign before and after the interpolation has no effect, for every spectrum and both fill values
the module uses: the stored number is the interpolated one. -/
theorem C119_sign {fill : Fill} (hf : fill = .extrapolate ∨ fill = .value 0) (s out : Sect) (i j : ℕ) :
    signed s out fill i j =
      interp1d .extrapolate s.nk (fun l => Real.logb 10 (s.k l))
        (fun l => interp1d fill s.nz s.z (fun m => s.p m l) (out.z i)) (Real.logb 10 (out.k j)) := by
  have e : interpolate s out fill i j = interp1d .extrapolate s.nk (fun l => Real.logb 10 (s.k l))
      (fun l => interp1d fill s.nz s.z (fun m => s.p m l) (out.z i)) (Real.logb 10 (out.k j)) := rfl
  rw [← e]
  unfold signed
  split_ifs with h
  · have := interpolate_lin hf s out s.p s.p (-1) 0 i j
    have e2 : (fun m l => s.p m l * -1) = fun m l => (-1 : ℝ) * s.p m l + 0 * s.p m l := by
      funext m l; ring
    rw [e2, this]
    ring
  · rfl

theorem stored_eq {fill : Fill} (hf : fill = .extrapolate ∨ fill = .value 0) (s out : Sect) :
    stored s out fill = ⟨out.nz, out.z, out.nk, out.k, interpolate s out fill⟩ := by
  unfold stored
  congr 1
  funext i j
  exact C119_sign hf s out i j

/-! ## Calls one after another -/

/-- a call that depends only on the sections it reads -/
def Step.Faithful (s : Step) : Prop := ∀ B B' : Pk, (∀ n ∈ s.reads, B n = B' n) → s.value B = s.value B'

/-- `s` writes nothing `t` reads or writes -/
def Step.Before (s t : Step) : Prop := s.target ∉ t.reads ∧ s.target ≠ t.target

theorem run_spec (l : List Step) (B : Pk) (hl : ∀ s ∈ l, s.Faithful) (hp : l.Pairwise Step.Before) :
    ((∃ B', run l B = .ok B') ↔ ∀ s ∈ l, ∃ v, s.value B = .ok v) ∧
    ∀ B', run l B = .ok B' → (∀ s ∈ l, ∃ v, s.value B = .ok v ∧ B' s.target = some v) ∧
      ∀ n, (∀ s ∈ l, n ≠ s.target) → B' n = B n := by
  induction l generalizing B with
  | nil =>
    refine ⟨⟨fun _ s hs => absurd hs (by simp), fun _ => ⟨B, rfl⟩⟩, fun B' h => ?_⟩
    cases h
    exact ⟨fun s hs => absurd hs (by simp), fun _ _ => rfl⟩
  | cons s l ih =>
    have hp' := List.pairwise_cons.mp hp
    have hsame : ∀ v, ∀ t ∈ l, t.value (put B s.target v) = t.value B := fun v t ht => by
      refine hl t (by simp [ht]) _ _ fun n hn => ?_
      have : n ≠ s.target := fun h => (hp'.1 t ht).1 (h ▸ hn)
      simp [put, this]
    unfold run
    cases hv : s.value B with
    | error e =>
      refine ⟨⟨fun ⟨B', h⟩ => by simp at h, fun h => ?_⟩, fun B' h => by simp at h⟩
      obtain ⟨v, h⟩ := h s (by simp)
      rw [hv] at h; cases h
    | ok v =>
      obtain ⟨h1, h2⟩ := ih (put B s.target v) (fun t ht => hl t (by simp [ht])) hp'.2
      simp only
      refine ⟨⟨fun h t ht => ?_, fun h => h1.mpr fun t ht => ?_⟩, fun B' h => ⟨fun t ht => ?_, fun n hn => ?_⟩⟩
      · rcases List.mem_cons.mp ht with rfl | ht
        · exact ⟨v, hv⟩
        · obtain ⟨w, hw⟩ := h1.mp h t ht
          exact ⟨w, by rw [← hsame v t ht]; exact hw⟩
      · obtain ⟨w, hw⟩ := h t (by simp [ht])
        exact ⟨w, by rw [hsame v t ht]; exact hw⟩
      · rcases List.mem_cons.mp ht with rfl | ht
        · refine ⟨v, hv, ?_⟩
          rw [(h2 B' h).2 t.target fun u hu => (hp'.1 u hu).2]
          simp [put]
        · obtain ⟨w, hw, hw'⟩ := (h2 B' h).1 t ht
          exact ⟨w, by rw [← hsame v t ht]; exact hw, hw'⟩
      · rw [(h2 B' h).2 n fun u hu => hn u (by simp [hu])]
        simp [put, hn s (by simp)]

theorem extrapolateStep_faithful (a b c : String) (out : Sect) (fill : Fill) :
    (extrapolateStep a b c out fill).Faithful := fun B B' h => by
  have := h (c ++ b) (by simp [extrapolateStep])
  simp only [extrapolateStep, this]

theorem addStep_faithful (a b c d : String) (f : ℝ → ℝ) (out : Sect) (fill : Fill) :
    (addStep a b c d f out fill).Faithful := fun B B' h => by
  have h1 := h (d ++ a) (by simp [addStep])
  have h2 := h (d ++ b) (by simp [addStep])
  simp only [addStep, h1, h2]

/-! ## Names of sections -/

/-- all sections the module writes, without suffixes -/
def allSections : List String := "matter_power_nl" :: sections

theorem no_prefix : ∀ a ∈ allSections, ∀ b ∈ allSections, a.toList <+: b.toList → a = b := by decide

theorem sec_unique {a b : String} (ha : a ∈ allSections) (hb : b ∈ allSections) {s t : String} (h : a ++ s = b ++ t) :
    a = b := by
  have h' := congrArg String.toList h
  rw [String.toList_append, String.toList_append] at h'
  rcases List.prefix_or_prefix_of_prefix (List.prefix_append a.toList s.toList)
    (h' ▸ List.prefix_append b.toList t.toList) with h | h
  · exact no_prefix a ha b hb h
  · exact (no_prefix b hb a ha h).symm

theorem append_left_cancel {a s t : String} (h : a ++ s = a ++ t) : s = t := by
  have h' := congrArg String.toList h
  rw [String.toList_append, String.toList_append] at h'
  exact String.toList_inj.mp (List.append_cancel_left h')

/-- a suffix as `setup` makes it -/
def IsSuffix (s : String) : Prop := s = "" ∨ ∃ name, s = "_" ++ name

theorem suffix0_isSuffix (name : String) : IsSuffix (suffix0 name) := by
  unfold suffix0
  split_ifs
  · exact Or.inr ⟨name, rfl⟩
  · exact Or.inl rfl

/-- the number of the bin an output has can be read off an input -/
theorem bin_unique {s : String} (hs : IsSuffix s) {n a b : ℕ} (ha : a < n) (hb : b < n)
    (h : Interface.binSuffix n a = s ++ Interface.binSuffix n b) : a = b := by
  unfold Interface.binSuffix at h
  split_ifs at h with h1
  · rcases hs with rfl | ⟨name, rfl⟩
    · rw [String.empty_append] at h
      have := Interface.toString_inj (append_left_cancel h)
      omega
    · exfalso
      rw [String.append_assoc] at h
      have := congrArg String.toList (append_left_cancel h)
      rw [String.toList_append, String.toList_append] at this
      have hu : '_' ∈ (toString (a + 1)).toList := by rw [this]; simp
      have := Interface.digits_toString (a + 1) '_' hu
      simp at this
  · omega

theorem isSuffix_empty : IsSuffix "" := Or.inl rfl

theorem mem_all {s : String} (h : s ∈ sections) : s ∈ allSections := List.mem_cons_of_mem _ h

theorem pairwise_bins {n : ℕ} {secs : List String} {mk : ℕ → String → Step}
    (hnd : secs.Nodup)
    (h : ∀ a < n, ∀ b < n, ∀ s ∈ secs, ∀ t ∈ secs, (a, s) ≠ (b, t) → (mk a s).Before (mk b t)) :
    ((List.range n).flatMap fun a => secs.map (mk a)).Pairwise Step.Before := by
  rw [List.pairwise_flatMap]
  refine ⟨fun a ha => ?_, ?_⟩
  · rw [List.pairwise_map]
    refine List.Pairwise.imp_of_mem ?_ hnd
    intro s t hs ht hst
    exact h a (List.mem_range.mp ha) a (List.mem_range.mp ha) s hs t ht fun e => hst (by simpa using e)
  · refine List.Pairwise.imp_of_mem ?_ (List.pairwise_lt_range (n := n))
    intro a b ha hb hab x hx y hy
    obtain ⟨s, hs, rfl⟩ := List.mem_map.mp hx
    obtain ⟨t, ht, rfl⟩ := List.mem_map.mp hy
    exact h a (List.mem_range.mp ha) b (List.mem_range.mp hb) s hs t ht fun e => by
      have : a = b := congrArg Prod.fst e
      omega

/-- an output of one bin and section is neither an input nor an output of another one -/
theorem target_ne {a b n : ℕ} {s t u : String} (hs : s ∈ sections) (ht : t ∈ sections) (hu : IsSuffix u) (ha : a < n)
    (hb : b < n) (hne : (a, s) ≠ (b, t)) : s ++ Interface.binSuffix n a ≠ t ++ (u ++ Interface.binSuffix n b) := fun h => by
  have e := sec_unique (mem_all hs) (mem_all ht) h
  subst e
  exact hne (by rw [bin_unique hu ha hb (append_left_cancel h)])

theorem sections_nodup : sections.Nodup := by decide

theorem extrapolateSteps_ok (opt : String → String) {suf : String} (hs : IsSuffix suf) (n : ℕ) (out : Sect) (fill : Fill) :
    (∀ s ∈ extrapolateSteps opt suf n out fill, s.Faithful) ∧ (extrapolateSteps opt suf n out fill).Pairwise Step.Before := by
  constructor
  · intro s h
    obtain ⟨nb, -, h⟩ := List.mem_flatMap.mp h
    obtain ⟨sec, -, rfl⟩ := List.mem_map.mp h
    exact extrapolateStep_faithful _ _ _ _ _
  · refine pairwise_bins (sections_nodup.filter _) ?_
    intro a ha b hb s h1 t h2 hne
    have h1 := (List.mem_filter.mp h1).1
    have h2 := (List.mem_filter.mp h2).1
    refine ⟨?_, ?_⟩
    · simpa [extrapolateStep] using target_ne h1 h2 hs ha hb hne
    · simpa [extrapolateStep] using target_ne h1 h2 isSuffix_empty ha hb hne

theorem addSteps_ok (opt : String → String) {red blue : String} (hr : IsSuffix red) (hb : IsSuffix blue) (T : Table) (n : ℕ)
    (out : Sect) (fill : Fill) :
    (∀ s ∈ addSteps opt red blue T n out fill, s.Faithful) ∧ (addSteps opt red blue T n out fill).Pairwise Step.Before := by
  constructor
  · intro s h
    obtain ⟨nb, -, h⟩ := List.mem_flatMap.mp h
    obtain ⟨sec, -, rfl⟩ := List.mem_map.mp h
    exact addStep_faithful _ _ _ _ _ _ _
  · refine pairwise_bins (sections_nodup.filter _) ?_
    intro a ha b hb' s h1 t h2 hne
    have h1 := (List.mem_filter.mp h1).1
    have h2 := (List.mem_filter.mp h2).1
    refine ⟨?_, ?_⟩
    · have := target_ne h1 h2 hr ha hb' hne
      have := target_ne h1 h2 hb ha hb' hne
      simp_all [addStep]
    · simpa [addStep] using target_ne h1 h2 isSuffix_empty ha hb' hne

theorem mem_extrapolateSteps {opt : String → String} {suf : String} {n : ℕ} {out : Sect} {fill : Fill} {s : Step} :
    s ∈ extrapolateSteps opt suf n out fill ↔ ∃ nb < n, ∃ sec ∈ sections, opt sec = "extrapolate" ∧
      s = extrapolateStep (Interface.binSuffix n nb) (suf ++ Interface.binSuffix n nb) sec out fill := by
  simp only [extrapolateSteps, List.mem_flatMap, List.mem_range, List.mem_map, List.mem_filter, beq_iff_eq]
  constructor
  · rintro ⟨nb, h, sec, ⟨h1, h2⟩, rfl⟩; exact ⟨nb, h, sec, h1, h2, rfl⟩
  · rintro ⟨nb, h, sec, h1, h2, rfl⟩; exact ⟨nb, h, sec, ⟨h1, h2⟩, rfl⟩

theorem mem_addSteps {opt : String → String} {red blue : String} {T : Table} {n : ℕ} {out : Sect} {fill : Fill} {s : Step} :
    s ∈ addSteps opt red blue T n out fill ↔ ∃ nb < n, ∃ sec ∈ sections, opt sec = "add_and_extrapolate" ∧
      s = addStep (red ++ Interface.binSuffix n nb) (blue ++ Interface.binSuffix n nb) (Interface.binSuffix n nb) sec
        (fun z => interp1d .extrapolate T.n T.z T.f z) out fill := by
  simp only [addSteps, List.mem_flatMap, List.mem_range, List.mem_map, List.mem_filter, beq_iff_eq]
  constructor
  · rintro ⟨nb, h, sec, ⟨h1, h2⟩, rfl⟩; exact ⟨nb, h, sec, h1, h2, rfl⟩
  · rintro ⟨nb, h, sec, h1, h2, rfl⟩; exact ⟨nb, h, sec, ⟨h1, h2⟩, rfl⟩

/-! ## Execution -/

/-- a spectrum on another grid: linear in redshift, then linear in log10 of the wavenumber -/
noncomputable def regridded (s out : Sect) (fill : Fill) : Sect :=
  ⟨out.nz, out.z, out.nk, out.k, fun i j =>
    interp1d .extrapolate s.nk (fun l => Real.logb 10 (s.k l))
      (fun l => interp1d fill s.nz s.z (fun m => s.p m l) (out.z i)) (Real.logb 10 (out.k j))⟩

theorem stored_regridded {fill : Fill} (hf : fill = .extrapolate ∨ fill = .value 0) (s out : Sect) :
    stored s out fill = regridded s out fill := stored_eq hf s out

theorem matter_spec (mm : String) (out : Sect) (B : Pk) :
    ((∃ B1, matter mm out B = .ok B1) ↔ (mm = "extrapolate" → ∃ s, B "matter_power_nl" = some s)) ∧
    ∀ B1, matter mm out B = .ok B1 →
      (mm = "extrapolate" → ∃ s, B "matter_power_nl" = some s ∧ B1 "matter_power_nl" = some (regridded s out .extrapolate)) ∧
      (mm = "extrapolate" → B1 "matter_power_nl_mead" =
        (B "matter_power_nl_mead").map fun s => regridded s out .extrapolate) ∧
      ∀ n, (mm = "extrapolate" → n ≠ "matter_power_nl" ∧ n ≠ "matter_power_nl_mead") → B1 n = B n := by
  have hst := fun s => stored_regridded (Or.inl rfl : (Fill.extrapolate = .extrapolate ∨ _)) s out
  unfold matter
  by_cases hm : mm = "extrapolate"
  · simp only [hm, if_true, run, extrapolateStep, String.append_empty, hst]
    cases h1 : B "matter_power_nl" with
    | none => simp
    | some s =>
      have hne : ("matter_power_nl_mead" : String) ≠ "matter_power_nl" := by decide
      have e : put B "matter_power_nl" (regridded s out .extrapolate) "matter_power_nl_mead" = B "matter_power_nl_mead" := by
        simp [put]
      simp only [e]
      cases h2 : B "matter_power_nl_mead" with
      | none =>
        refine ⟨by simp, fun B1 h => ?_⟩
        simp only [Except.ok.injEq] at h
        subst h
        refine ⟨fun _ => ⟨s, rfl, by simp [put]⟩, fun _ => by simp [put, h2], fun n hn => ?_⟩
        obtain ⟨a, b⟩ := hn trivial
        simp [put, a]
      | some s2 =>
        refine ⟨by simp, fun B1 h => ?_⟩
        simp only [Except.ok.injEq] at h
        subst h
        refine ⟨fun _ => ⟨s, rfl, by simp [put]⟩, fun _ => by simp [put], fun n hn => ?_⟩
        obtain ⟨a, b⟩ := hn trivial
        simp [put, a, b]
  · simp only [hm, if_false, false_implies, iff_true]
    refine ⟨⟨B, rfl⟩, fun B1 h => ?_⟩
    simp only [Except.ok.injEq] at h
    subst h
    exact ⟨trivial, trivial, fun _ _ => rfl⟩

theorem matter_name {sec : String} (hs : sec ∈ sections) (t : String) :
    sec ++ t ≠ "matter_power_nl" ∧ sec ++ t ≠ "matter_power_nl_mead" := by
  have h0 : "matter_power_nl" ∉ sections := by decide
  constructor
  · intro h
    have := sec_unique (t := "") (mem_all hs) (by decide : "matter_power_nl" ∈ allSections) (by rw [h]; decide)
    exact h0 (this ▸ hs)
  · intro h
    have := sec_unique (t := "_mead") (mem_all hs) (by decide : "matter_power_nl" ∈ allSections) (by rw [h]; decide)
    exact h0 (this ▸ hs)

theorem anyOption_iff (opt : String → String) (o : String) : anyOption opt o = true ↔ ∃ s ∈ sections, opt s = o := by
  simp [anyOption]

/-- the inputs of the first loop are there -/
def CanExtrapolate (o : Options) (X : Block) : Prop :=
  ∃ n oz, X.nbins o.hodExtrap = some n ∧ X.observableZ o.hodExtrap = some oz ∧
    ∀ nb < n, ∀ sec ∈ sections, o.opt sec = "extrapolate" →
      ∃ s, X.pk (sec ++ (suffix0 o.nameExtrap ++ Interface.binSuffix n nb)) = some s

/-- the inputs of the second loop are there, with the same bins and shapes for red and blue -/
def CanAdd (o : Options) (X : Block) : Prop :=
  ∃ n oz, X.nbins o.hodRed = some n ∧ X.nbins o.hodBlue = some n ∧ X.observableZ o.hodRed = some oz ∧
    ∀ nb < n, ∀ sec ∈ sections, o.opt sec = "add_and_extrapolate" →
      ∃ r b, X.pk (sec ++ (suffix0 o.nameRed ++ Interface.binSuffix n nb)) = some r ∧
        X.pk (sec ++ (suffix0 o.nameBlue ++ Interface.binSuffix n nb)) = some b ∧ r.nz = b.nz ∧ r.nk = b.nk

theorem setup_ok {o : Options} {c : Config} (h : setup o = .ok c) :
    c.mm = o.mm ∧ c.opt = o.opt ∧ c.sufExtrap = suffix0 o.nameExtrap ∧ c.sufRed = suffix0 o.nameRed ∧
    c.sufBlue = suffix0 o.nameBlue ∧ c.hodExtrap = o.hodExtrap ∧ c.hodRed = o.hodRed ∧ c.hodBlue = o.hodBlue ∧
    (anyOption o.opt "add_and_extrapolate" = true → c.fRed = o.fRedFile ∧ ∃ t, o.fRedFile = some t) := by
  unfold setup at h
  simp only at h
  split_ifs at h with ha
  · cases hf : o.fRedFile with
    | none => rw [hf] at h; simp at h
    | some t =>
      rw [hf] at h
      simp only [Except.ok.injEq] at h
      subst h
      exact ⟨rfl, rfl, rfl, rfl, rfl, rfl, rfl, rfl, fun _ => ⟨rfl, t, rfl⟩⟩
  · simp only [Except.ok.injEq] at h
    subst h
    exact ⟨rfl, rfl, rfl, rfl, rfl, rfl, rfl, rfl, fun h => absurd h ha⟩

theorem extrapolatePhase_spec {o : Options} {c : Config} (hc : setup o = .ok c) (X : Block) (out : Sect) (B : Pk)
    (hB : ∀ sec ∈ sections, ∀ t, B (sec ++ t) = X.pk (sec ++ t)) :
    ((∃ B2, extrapolatePhase c X out B = .ok B2) ↔ ((∃ s ∈ sections, o.opt s = "extrapolate") → CanExtrapolate o X)) ∧
    ∀ B2, extrapolatePhase c X out B = .ok B2 →
      (∀ sec ∈ sections, o.opt sec = "extrapolate" → ∃ n oz, X.nbins o.hodExtrap = some n ∧
        X.observableZ o.hodExtrap = some oz ∧ ∀ nb < n, ∃ s,
          X.pk (sec ++ (suffix0 o.nameExtrap ++ Interface.binSuffix n nb)) = some s ∧
          B2 (sec ++ Interface.binSuffix n nb) = some (regridded s out (fillOf oz))) ∧
      ∀ name, (∀ sec ∈ sections, o.opt sec = "extrapolate" → ∀ t, name ≠ sec ++ t) → B2 name = B name := by
  obtain ⟨-, h2, h3, -, -, h6, -⟩ := setup_ok hc
  have hsuf := suffix0_isSuffix o.nameExtrap
  unfold extrapolatePhase
  rw [h2, h3, h6]
  by_cases ha : anyOption o.opt "extrapolate" = true
  · have ha' := (anyOption_iff _ _).mp ha
    simp only [ha, if_true]
    cases hn : X.nbins o.hodExtrap with
    | none =>
      refine ⟨⟨by rintro ⟨_, h⟩; simp at h, fun h => ?_⟩, fun B2 h => by simp at h⟩
      obtain ⟨n, _, h, _⟩ := h ha'
      rw [hn] at h; cases h
    | some n => cases ho : X.observableZ o.hodExtrap with
      | none =>
        refine ⟨⟨by rintro ⟨_, h⟩; simp at h, fun h => ?_⟩, fun B2 h => by simp at h⟩
        obtain ⟨_, oz, _, h, _⟩ := h ha'
        rw [ho] at h; cases h
      | some oz =>
        simp only
        obtain ⟨hf, hp⟩ := extrapolateSteps_ok o.opt hsuf n out (fillOf oz)
        obtain ⟨r1, r2⟩ := run_spec _ B hf hp
        refine ⟨?_, fun B2 h => ⟨fun sec hs hopt => ⟨n, oz, rfl, rfl, fun nb hnb => ?_⟩, fun name hname => ?_⟩⟩
        · rw [r1]
          constructor
          · intro h _
            refine ⟨n, oz, hn, ho, fun nb hnb sec hs hopt => ?_⟩
            obtain ⟨v, hv⟩ := h _ (mem_extrapolateSteps.mpr ⟨nb, hnb, sec, hs, hopt, rfl⟩)
            simp only [extrapolateStep, hB sec hs] at hv
            cases hx : X.pk (sec ++ (suffix0 o.nameExtrap ++ Interface.binSuffix n nb)) with
            | none => rw [hx] at hv; simp at hv
            | some s => exact ⟨s, rfl⟩
          · intro h s hs
            obtain ⟨n', oz', e1, e2, h⟩ := h ha'
            rw [hn] at e1; cases e1
            obtain ⟨nb, hnb, sec, hsec, hopt, rfl⟩ := mem_extrapolateSteps.mp hs
            obtain ⟨s, hs⟩ := h nb hnb sec hsec hopt
            exact ⟨stored s out (fillOf oz), by simp only [extrapolateStep, hB sec hsec, hs]⟩
        · obtain ⟨v, hv, ht⟩ := (r2 B2 h).1 _ (mem_extrapolateSteps.mpr ⟨nb, hnb, sec, hs, hopt, rfl⟩)
          simp only [extrapolateStep, hB sec hs] at hv ht
          cases hx : X.pk (sec ++ (suffix0 o.nameExtrap ++ Interface.binSuffix n nb)) with
          | none => rw [hx] at hv; simp at hv
          | some s =>
            rw [hx] at hv
            simp only [Except.ok.injEq] at hv
            exact ⟨s, rfl, by rw [ht, ← hv, stored_regridded (fillOf_ok oz)]⟩
        · refine (r2 B2 h).2 name fun s hs => ?_
          obtain ⟨nb, hnb, sec, hsec, hopt, rfl⟩ := mem_extrapolateSteps.mp hs
          exact hname sec hsec hopt _
  · have ha' : ¬ ∃ s ∈ sections, o.opt s = "extrapolate" := fun h => ha ((anyOption_iff _ _).mpr h)
    simp only [ha]
    refine ⟨⟨fun _ h => absurd h ha', fun _ => ⟨B, rfl⟩⟩, fun B2 h => ?_⟩
    simp only [Bool.false_eq_true, if_false, Except.ok.injEq] at h
    subst h
    exact ⟨fun sec hs hopt => absurd ⟨sec, hs, hopt⟩ ha', fun _ _ => rfl⟩

theorem addPhase_spec {o : Options} {c : Config} (hc : setup o = .ok c) (X : Block) (out : Sect) (B : Pk)
    (hB : ∀ sec ∈ sections, o.opt sec = "add_and_extrapolate" → ∀ t, B (sec ++ t) = X.pk (sec ++ t)) :
    ((∃ B2, addPhase c X out B = .ok B2) ↔ ((∃ s ∈ sections, o.opt s = "add_and_extrapolate") → CanAdd o X)) ∧
    ∀ B2, addPhase c X out B = .ok B2 →
      (∀ sec ∈ sections, o.opt sec = "add_and_extrapolate" → ∃ n oz T, X.nbins o.hodRed = some n ∧
        X.nbins o.hodBlue = some n ∧ X.observableZ o.hodRed = some oz ∧ o.fRedFile = some T ∧ ∀ nb < n, ∃ r b,
          X.pk (sec ++ (suffix0 o.nameRed ++ Interface.binSuffix n nb)) = some r ∧
          X.pk (sec ++ (suffix0 o.nameBlue ++ Interface.binSuffix n nb)) = some b ∧
          B2 (sec ++ Interface.binSuffix n nb) = some (regridded
            (mixed sec (fun m => interp1d .extrapolate T.n T.z T.f (r.z m)) r b) out (fillOf oz))) ∧
      ∀ name, (∀ sec ∈ sections, o.opt sec = "add_and_extrapolate" → ∀ t, name ≠ sec ++ t) → B2 name = B name := by
  obtain ⟨-, h2, -, h4, h5, -, h7, h8, h9⟩ := setup_ok hc
  have hr := suffix0_isSuffix o.nameRed
  have hbl := suffix0_isSuffix o.nameBlue
  unfold addPhase
  rw [h2, h4, h5, h7, h8]
  by_cases ha : anyOption o.opt "add_and_extrapolate" = true
  · have ha' := (anyOption_iff _ _).mp ha
    obtain ⟨h9, T, hT⟩ := h9 ha
    simp only [ha, if_true, h9, hT]
    cases hn : X.nbins o.hodRed with
    | none =>
      refine ⟨⟨by rintro ⟨_, h⟩; simp at h, fun h => ?_⟩, fun B2 h => by simp at h⟩
      obtain ⟨n, _, h, _⟩ := h ha'
      rw [hn] at h; cases h
    | some n => cases hn' : X.nbins o.hodBlue with
      | none =>
        refine ⟨⟨by rintro ⟨_, h⟩; simp at h, fun h => ?_⟩, fun B2 h => by simp at h⟩
        obtain ⟨n, _, _, h, _⟩ := h ha'
        rw [hn'] at h; cases h
      | some n' =>
        by_cases hnn : n = n'
        · subst hnn
          simp only [ne_eq, not_true_eq_false, if_false]
          cases ho : X.observableZ o.hodRed with
          | none =>
            refine ⟨⟨by rintro ⟨_, h⟩; simp at h, fun h => ?_⟩, fun B2 h => by simp at h⟩
            obtain ⟨_, oz, _, _, h, _⟩ := h ha'
            rw [ho] at h; cases h
          | some oz =>
            simp only
            obtain ⟨hf, hp⟩ := addSteps_ok o.opt hr hbl T n out (fillOf oz)
            obtain ⟨r1, r2⟩ := run_spec _ B hf hp
            have hval : ∀ nb sec, sec ∈ sections → o.opt sec = "add_and_extrapolate" → ∀ v,
                (addStep (suffix0 o.nameRed ++ Interface.binSuffix n nb) (suffix0 o.nameBlue ++ Interface.binSuffix n nb)
                  (Interface.binSuffix n nb) sec (fun z => interp1d .extrapolate T.n T.z T.f z) out (fillOf oz)).value B = .ok v ↔
                ∃ r b, X.pk (sec ++ (suffix0 o.nameRed ++ Interface.binSuffix n nb)) = some r ∧
                  X.pk (sec ++ (suffix0 o.nameBlue ++ Interface.binSuffix n nb)) = some b ∧ (r.nz = b.nz ∧ r.nk = b.nk) ∧
                  regridded (mixed sec (fun m => interp1d .extrapolate T.n T.z T.f (r.z m)) r b) out (fillOf oz) = v := by
              intro nb sec hs hopt v
              simp only [addStep, hB sec hs hopt, stored_regridded (fillOf_ok oz)]
              cases X.pk (sec ++ (suffix0 o.nameRed ++ Interface.binSuffix n nb)) with
              | none => simp
              | some r => cases X.pk (sec ++ (suffix0 o.nameBlue ++ Interface.binSuffix n nb)) with
                | none => simp
                | some b =>
                  simp only [Option.some.injEq]
                  split_ifs with hsh
                  · simp only [false_iff]
                    rintro ⟨r', b', rfl, rfl, h, _⟩
                    rcases hsh with h' | h'
                    · exact h' h.1
                    · exact h' h.2
                  · simp only [not_or, not_not] at hsh
                    simp only [Except.ok.injEq]
                    exact ⟨fun h => ⟨r, b, rfl, rfl, hsh, h⟩, by rintro ⟨r', b', rfl, rfl, _, h⟩; exact h⟩
            refine ⟨?_, fun B2 h => ⟨fun sec hs hopt => ⟨n, oz, T, rfl, rfl, rfl, rfl, fun nb hnb => ?_⟩, fun name hname => ?_⟩⟩
            · rw [r1]
              constructor
              · intro h _
                refine ⟨n, oz, hn, hn', ho, fun nb hnb sec hs hopt => ?_⟩
                obtain ⟨v, hv⟩ := h _ (mem_addSteps.mpr ⟨nb, hnb, sec, hs, hopt, rfl⟩)
                obtain ⟨r, b, e1, e2, e3, -⟩ := (hval nb sec hs hopt v).mp hv
                exact ⟨r, b, e1, e2, e3.1, e3.2⟩
              · intro h s hs
                obtain ⟨m, oz', e1, _, _, h⟩ := h ha'
                rw [hn] at e1; cases e1
                obtain ⟨nb, hnb, sec, hsec, hopt, rfl⟩ := mem_addSteps.mp hs
                obtain ⟨r, b, e1, e2, e3, e4⟩ := h nb hnb sec hsec hopt
                exact ⟨_, (hval nb sec hsec hopt _).mpr ⟨r, b, e1, e2, ⟨e3, e4⟩, rfl⟩⟩
            · obtain ⟨v, hv, ht⟩ := (r2 B2 h).1 _ (mem_addSteps.mpr ⟨nb, hnb, sec, hs, hopt, rfl⟩)
              obtain ⟨r, b, e1, e2, -, e4⟩ := (hval nb sec hs hopt v).mp hv
              exact ⟨r, b, e1, e2, by rw [e4]; exact ht⟩
            · refine (r2 B2 h).2 name fun s hs => ?_
              obtain ⟨nb, hnb, sec, hsec, hopt, rfl⟩ := mem_addSteps.mp hs
              exact hname sec hsec hopt _
        · simp only [ne_eq, hnn, not_false_eq_true, if_true]
          refine ⟨⟨by rintro ⟨_, h⟩; simp at h, fun h => ?_⟩, fun B2 h => by simp at h⟩
          obtain ⟨m, _, e1, e2, _⟩ := h ha'
          rw [hn] at e1; rw [hn'] at e2
          cases e1; cases e2
          exact absurd rfl hnn
  · have ha' : ¬ ∃ s ∈ sections, o.opt s = "add_and_extrapolate" := fun h => ha ((anyOption_iff _ _).mpr h)
    simp only [ha]
    refine ⟨⟨fun _ h => absurd h ha', fun _ => ⟨B, rfl⟩⟩, fun B2 h => ?_⟩
    simp only [Bool.false_eq_true, if_false, Except.ok.injEq] at h
    subst h
    exact ⟨fun sec hs hopt => absurd ⟨sec, hs, hopt⟩ ha', fun _ _ => rfl⟩

/-- C119: `setup` needs the file with the red fraction exactly when one of the five spectra (not matter) is to be
added. -/
theorem C119_setup (o : Options) :
    (∃ c, setup o = .ok c) ↔ ((∃ s ∈ sections, o.opt s = "add_and_extrapolate") → o.fRedFile ≠ none) := by
  rw [← anyOption_iff]
  unfold setup
  simp only
  split_ifs with ha
  · cases o.fRedFile <;> simp [ha]
  · simp [ha]

/-- C119: after `setup`, `execute` runs exactly when the linear spectrum is there (for the grid), the matter spectrum if
it is to be extrapolated, and for every spectrum to be extrapolated or added the sections of all bins, with equal
numbers of bins and equal shapes for red and blue. -/
theorem C119_runs (o : Options) (c : Config) (hc : setup o = .ok c) (X : Block) :
    (∃ B, execute c X = .ok B) ↔ (∃ lin, X.pk "matter_power_lin" = some lin) ∧
      (o.mm = "extrapolate" → ∃ s, X.pk "matter_power_nl" = some s) ∧
      ((∃ s ∈ sections, o.opt s = "extrapolate") → CanExtrapolate o X) ∧
      ((∃ s ∈ sections, o.opt s = "add_and_extrapolate") → CanAdd o X) := by
  have hmm := (setup_ok hc).1
  unfold execute
  cases hl : X.pk "matter_power_lin" with
  | none => simp
  | some lin =>
    obtain ⟨m1, m2⟩ := matter_spec c.mm lin X.pk
    dsimp only
    cases hM : matter c.mm lin X.pk with
    | error e =>
      refine ⟨by rintro ⟨_, h⟩; simp at h, ?_⟩
      rintro ⟨-, h, -⟩
      obtain ⟨B1, h1⟩ := m1.mpr (by rw [hmm]; exact h)
      rw [hM] at h1; cases h1
    | ok B1 =>
      have hm := m1.mp ⟨B1, hM⟩
      rw [hmm] at hm
      have hB1 : ∀ sec ∈ sections, ∀ t, B1 (sec ++ t) = X.pk (sec ++ t) := fun sec hs t =>
        (m2 B1 hM).2.2 _ fun _ => matter_name hs t
      obtain ⟨e1, e2⟩ := extrapolatePhase_spec hc X lin B1 hB1
      dsimp only
      cases hE : extrapolatePhase c X lin B1 with
      | error e =>
        refine ⟨by rintro ⟨_, h⟩; simp at h, ?_⟩
        rintro ⟨-, -, h, -⟩
        obtain ⟨B2, h1⟩ := e1.mpr h
        rw [hE] at h1; cases h1
      | ok B2 =>
        have he := e1.mp ⟨B2, hE⟩
        have hB2 : ∀ sec ∈ sections, o.opt sec = "add_and_extrapolate" → ∀ t, B2 (sec ++ t) = X.pk (sec ++ t) := by
          intro sec hs hopt t
          rw [(e2 B2 hE).2 _ fun sec' hs' hopt' t' h => ?_, hB1 sec hs]
          have := sec_unique (mem_all hs) (mem_all hs') h
          subst this
          rw [hopt] at hopt'
          exact absurd hopt' (by decide)
        dsimp only
        rw [(addPhase_spec hc X lin B2 hB2).1]
        exact ⟨fun h => ⟨⟨lin, rfl⟩, hm, he, h⟩, fun h => h.2.2.2⟩

/-- the mixture of two populations: linear in the fraction where one field is a galaxy property, quadratic where both
are -/
noncomputable def mixture (sec : String) (x r b : ℝ) : ℝ :=
  if sec = "matter_galaxy_power" ∨ sec = "matter_intrinsic_power" then x * r + (1 - x) * b
  else x ^ 2 * r + (1 - x) ^ 2 * b

/-- C119: what a run of the module leaves in the block, for every choice of options and names.  Every output is made from
the inputs as they were before the call, whatever names the inputs have and in whatever order the bins are done: the
matter spectrum regridded with extrapolation; each spectrum to be extrapolated regridded bin by bin, with extrapolation
in redshift or zero outside; each spectrum to be added as the regridded mixture, weighted by the red fraction at the
redshifts of the halo model; every other section as before. -/
theorem C119_execute (o : Options) (c : Config) (hc : setup o = .ok c) (X : Block) (B : Pk) (h : execute c X = .ok B) :
    ∃ lin, X.pk "matter_power_lin" = some lin ∧
      (o.mm = "extrapolate" → ∃ s, X.pk "matter_power_nl" = some s ∧
        B "matter_power_nl" = some (regridded s lin .extrapolate) ∧
        B "matter_power_nl_mead" = (X.pk "matter_power_nl_mead").map fun s => regridded s lin .extrapolate) ∧
      (∀ sec ∈ sections, o.opt sec = "extrapolate" → ∃ n oz, X.nbins o.hodExtrap = some n ∧
        X.observableZ o.hodExtrap = some oz ∧ ∀ nb < n, ∃ s,
          X.pk (sec ++ (suffix0 o.nameExtrap ++ Interface.binSuffix n nb)) = some s ∧
          B (sec ++ Interface.binSuffix n nb) =
            some (regridded s lin (if oz then .extrapolate else .value 0))) ∧
      (∀ sec ∈ sections, o.opt sec = "add_and_extrapolate" → ∃ n oz T, X.nbins o.hodRed = some n ∧
        X.nbins o.hodBlue = some n ∧ X.observableZ o.hodRed = some oz ∧ o.fRedFile = some T ∧ ∀ nb < n, ∃ r b,
          X.pk (sec ++ (suffix0 o.nameRed ++ Interface.binSuffix n nb)) = some r ∧
          X.pk (sec ++ (suffix0 o.nameBlue ++ Interface.binSuffix n nb)) = some b ∧
          B (sec ++ Interface.binSuffix n nb) = some (regridded
            { r with p := fun m l => mixture sec (interp1d .extrapolate T.n T.z T.f (r.z m)) (r.p m l) (b.p m l) } lin
            (if oz then .extrapolate else .value 0))) ∧
      ∀ name, (o.mm = "extrapolate" → name ≠ "matter_power_nl" ∧ name ≠ "matter_power_nl_mead") →
        (∀ sec ∈ sections, o.opt sec = "extrapolate" ∨ o.opt sec = "add_and_extrapolate" → ∀ t, name ≠ sec ++ t) →
        B name = X.pk name := by
  have hmm := (setup_ok hc).1
  have hfill : ∀ oz : Bool, fillOf oz = if oz then Fill.extrapolate else .value 0 := fun oz => by cases oz <;> rfl
  unfold execute at h
  cases hl : X.pk "matter_power_lin" with
  | none => rw [hl] at h; simp at h
  | some lin =>
    rw [hl] at h
    obtain ⟨-, m2⟩ := matter_spec c.mm lin X.pk
    cases hM : matter c.mm lin X.pk with
    | error e => simp only [hM, reduceCtorEq] at h
    | ok B1 =>
      simp only [hM] at h
      obtain ⟨k1, k2, k3⟩ := m2 B1 hM
      rw [hmm] at k1 k2 k3
      have hB1 : ∀ sec ∈ sections, ∀ t, B1 (sec ++ t) = X.pk (sec ++ t) := fun sec hs t =>
        k3 _ fun _ => matter_name hs t
      obtain ⟨-, e2⟩ := extrapolatePhase_spec hc X lin B1 hB1
      cases hE : extrapolatePhase c X lin B1 with
      | error e => simp only [hE, reduceCtorEq] at h
      | ok B2 =>
        simp only [hE] at h
        obtain ⟨l1, l2⟩ := e2 B2 hE
        have hB2 : ∀ sec ∈ sections, o.opt sec = "add_and_extrapolate" → ∀ t, B2 (sec ++ t) = X.pk (sec ++ t) := by
          intro sec hs hopt t
          rw [l2 _ fun sec' hs' hopt' t' h => ?_, hB1 sec hs]
          have := sec_unique (mem_all hs) (mem_all hs') h
          subst this
          rw [hopt] at hopt'
          exact absurd hopt' (by decide)
        obtain ⟨-, a2⟩ := addPhase_spec hc X lin B2 hB2
        obtain ⟨a3, a4⟩ := a2 B h
        have hnl : ∀ name, name = "matter_power_nl" ∨ name = "matter_power_nl_mead" → B name = B1 name := by
          intro name hname
          have hno : ∀ sec ∈ sections, ∀ t, name ≠ sec ++ t := by
            intro sec hs t e
            rcases hname with rfl | rfl
            · exact (matter_name hs t).1 e.symm
            · exact (matter_name hs t).2 e.symm
          rw [a4 name fun sec hs _ t => hno sec hs t, l2 name fun sec hs _ t => hno sec hs t]
        refine ⟨lin, rfl, fun hx => ?_, fun sec hs hopt => ?_, fun sec hs hopt => ?_, fun name h1 h2 => ?_⟩
        · obtain ⟨s, s1, s2⟩ := k1 hx
          exact ⟨s, s1, by rw [hnl _ (Or.inl rfl), s2], by rw [hnl _ (Or.inr rfl), k2 hx]⟩
        · obtain ⟨n, oz, q1, q2, q3⟩ := l1 sec hs hopt
          refine ⟨n, oz, q1, q2, fun nb hnb => ?_⟩
          obtain ⟨s, s1, s2⟩ := q3 nb hnb
          refine ⟨s, s1, ?_⟩
          rw [a4 _ fun sec' hs' hopt' t' h => ?_, s2, hfill]
          have := sec_unique (mem_all hs) (mem_all hs') h
          subst this
          rw [hopt] at hopt'
          exact absurd hopt' (by decide)
        · obtain ⟨n, oz, T, q1, q2, q3, q4, q5⟩ := a3 sec hs hopt
          refine ⟨n, oz, T, q1, q2, q3, q4, fun nb hnb => ?_⟩
          obtain ⟨r, b, s1, s2, s3⟩ := q5 nb hnb
          refine ⟨r, b, s1, s2, ?_⟩
          rw [s3, hfill]
          congr 2
          unfold mixed
          congr 1
          funext m l
          unfold weighted mixture
          simp only [sections, List.mem_cons, List.not_mem_nil, or_false] at hs
          rcases hs with rfl | rfl | rfl | rfl | rfl <;> simp
        · rw [a4 name fun sec hs hopt t => h2 sec hs (Or.inr hopt) t, l2 name fun sec hs hopt t => h2 sec hs (Or.inl hopt) t,
            k3 name h1]

/-! ## The rewritten library -/

/-- the mode of `UpsampledSpectra` for a section (onepower_interface.py:1074-1202) -/
def modeOf (sec : String) : String :=
  if sec = "galaxy_power" then "gg" else if sec = "matter_galaxy_power" then "gm"
  else if sec = "matter_intrinsic_power" then "mi" else if sec = "intrinsic_power" then "ii" else "gi"

/-- a halo model has the section's spectrum as component `comp` of bin `b` -/
def Holds (o : Add.Obj) (mode comp : String) (b : ℕ) (s : Sect) : Prop :=
  o.nz = s.nz ∧ o.z = s.z ∧ o.nk = s.nk ∧ o.k = s.k ∧ comp ∈ ["1h", "2h", "tot"] ∧
    ∃ d a, o.spec mode = some d ∧ d comp = some a ∧ a b = s.p

theorem holds_upsampled {P : Type} {p : Add.Params P} {o : Add.Obj} {mode comp : String} {b : ℕ} {s out : Sect}
    (h : Holds o mode comp b s) (hz : p.z.val = out.z) (hk : p.k = out.k) :
    ∃ x, Add.upsampled p o mode comp = .ok x ∧ ∀ i j, x.val b i j = interpolate s out p.extrapolate i j := by
  obtain ⟨h1, h2, h3, h4, h5, d, a, h6, h7, h8⟩ := h
  refine ⟨⟨p.z.n, Add.extrapolateSpectra p.z.val p.k o a p.extrapolate⟩, ?_, fun i j => ?_⟩
  · simp only [Add.upsampled, Add.component, h6, h7, h5, if_true]
  · simp only [Add.extrapolateSpectra, interpolate, h1, h2, h3, h4, hz, hk, h8]

/-- C119: what the rewritten library stores for two populations with the same red fraction, in the same terms: each
population is regridded first, then they are mixed with the fraction at the *output* redshift. -/
theorem C119_new {P : Type} (env : Add.Env P) (p : Add.Params P) (sec comp : String) (hs : sec ∈ sections) (T : Table)
    (o1 : Add.Obj) (p2 : P) (b : ℕ) (r bl out : Sect) (modes comps : List String)
    (hm : p.model = some o1) (hm2 : p.model2 = some p2) (hf : p.fraction = some ⟨T.n, T.f⟩)
    (hfz : p.fractionZ = some ⟨T.n, T.z⟩) (hzn : p.z.n = out.nz) (hz : p.z.val = out.z) (hk : p.k = out.k)
    (h1 : Holds o1 (modeOf sec) comp b r) (h2 : Holds (env.cloneUpdate o1 p2) (modeOf sec) comp b bl)
    (hmode : modeOf sec ∈ modes) (hcomp : comp ∈ comps) (hok : (Add.results env comps modes (Add.fresh p)).2 = .ok ()) :
    ∃ d v, (Add.results env comps modes (Add.fresh p)).1.attrs (modeOf sec) = some d ∧ d comp = some v ∧
      ∀ i j, i < out.nz → v.val b i j = weighted sec (interp1d .extrapolate T.n T.z T.f (out.z i))
        (interpolate r out p.extrapolate i j) (interpolate bl out p.extrapolate i j) := by
  obtain ⟨x1, hx1, v1⟩ := holds_upsampled (p := p) (out := out) h1 hz hk
  obtain ⟨x2, hx2, v2⟩ := holds_upsampled (p := p) (out := out) h2 hz hk
  obtain ⟨d, v, hd, hv, hn, hval⟩ := Add.C59_mixing env p modes comps (modeOf sec) comp o1 (some (env.cloneUpdate o1 p2))
    (fun i => interp1d .extrapolate T.n T.z T.f (p.z.val i)) x1 x2 (by rw [hm]) (by rw [hm2])
    (Or.inr ⟨_, _, hf, hfz, rfl, rfl⟩) hx1 hx2 hok hmode hcomp
  refine ⟨d, v, hd, hv, fun i j hi => ?_⟩
  rw [hval b i j (by rw [hzn]; exact hi), v1, v2, hz]
  simp only [sections, List.mem_cons, List.not_mem_nil, or_false] at hs
  rcases hs with rfl | rfl | rfl | rfl | rfl <;> simp [modeOf, weighted]

/-- red and blue spectra on the same grid -/
structure SameGrid (r b : Sect) : Prop where
  nz : r.nz = b.nz
  nk : r.nk = b.nk
  z : r.z = b.z
  k : r.k = b.k
  two : 2 ≤ r.nz
  sorted : SortedOn r.nz r.z

/-- what the legacy module stores for two populations -/
noncomputable def legacyMix (sec : String) (F : ℝ → ℝ) (r b out : Sect) (fill : Fill) (i j : ℕ) : ℝ :=
  (regridded (mixed sec (fun m => F (r.z m)) r b) out fill).p i j

/-- what the rewritten library stores for two populations -/
noncomputable def newMix (sec : String) (F : ℝ → ℝ) (r b out : Sect) (fill : Fill) (i j : ℕ) : ℝ :=
  weighted sec (F (out.z i)) (interpolate r out fill i j) (interpolate b out fill i j)

/-- weights of red and blue power -/
noncomputable def wRed (sec : String) (x : ℝ) : ℝ :=
  if sec ∈ ["intrinsic_power", "galaxy_power", "galaxy_intrinsic_power"] then x ^ 2 else x

theorem weighted_eq (sec : String) (x r b : ℝ) : weighted sec x r b = wRed sec x * r + wRed sec (1 - x) * b := by
  unfold weighted wRed
  split_ifs <;> rfl

/-- a spectrum on the same grid -/
theorem interpolate_grid {r b : Sect} (h : SameGrid r b) (out : Sect) (fill : Fill) (i j : ℕ) :
    interpolate b out fill i j = interpolate { r with p := b.p } out fill i j := by
  simp only [interpolate, h.nz, h.nk, h.z, h.k]

/-- C119: a fraction that does not depend on redshift: both give the same, for every output redshift and wavenumber. -/
theorem C119_constant_fraction (sec : String) (f : ℝ) (r b out : Sect) (h : SameGrid r b) {fill : Fill}
    (hf : fill = .extrapolate ∨ fill = .value 0) (i j : ℕ) :
    legacyMix sec (fun _ => f) r b out fill i j = newMix sec (fun _ => f) r b out fill i j := by
  unfold legacyMix newMix
  rw [weighted_eq, interpolate_grid h, ← interpolate_lin hf]
  simp only [mixed, weighted_eq]
  rfl

/-- C119: at an output redshift that is a redshift of the halo model both give the same, for every fraction, every fill
value and every wavenumber. -/
theorem C119_nodes (sec : String) (F : ℝ → ℝ) (r b out : Sect) (h : SameGrid r b) (fill : Fill) (i j m : ℕ) (hm : m < r.nz)
    (hz : out.z i = r.z m) : legacyMix sec F r b out fill i j = newMix sec F r b out fill i j := by
  have e : ∀ (p : ℕ → ℕ → ℝ) l, interp1d fill r.nz r.z (fun m => p m l) (out.z i) = p m l := fun p l => by
    rw [hz]; exact interp1d_node h.two h.sorted fill (fun m => p m l) hm
  unfold legacyMix newMix
  rw [interpolate_grid h, weighted_eq]
  have e1 := interp1d_lin (Or.inl rfl : (Fill.extrapolate = .extrapolate ∨ _)) r.nk (fun l => Real.logb 10 (r.k l))
    (fun l => r.p m l) (fun l => b.p m l) (wRed sec (F (out.z i))) (wRed sec (1 - F (out.z i))) (Real.logb 10 (out.k j))
  have e2 := e fun m l => wRed sec (F (r.z m)) * r.p m l + wRed sec (1 - F (r.z m)) * b.p m l
  simp only [regridded, mixed, interpolate, weighted_eq, e2, e r.p, e b.p, Add.log10]
  rw [← e1, hz]

/-- C119: between the redshifts of the halo model (and beyond them, with extrapolation) the two differ.  The output
redshift lies on the line through two neighbouring redshifts, at the parameter `t`; if the fraction is linear there, the
difference of the stored spectra is `-t (1 - t)` times the interpolation in wavenumber of products of *changes* between
the two redshifts: of the fraction and the difference of the spectra for matter-galaxy and matter-intrinsic power, of the
squared weights for the others. -/
theorem C119_difference (sec : String) (F : ℝ → ℝ) (r b out : Sect) (h : SameGrid r b) (fill : Fill) (i j : ℕ)
    (hq : fill = .extrapolate ∨ r.z 0 ≤ out.z i ∧ out.z i ≤ r.z (r.nz - 1)) :
    ∃ a t, a + 1 < r.nz ∧ out.z i = (1 - t) * r.z a + t * r.z (a + 1) ∧
      (r.z 0 ≤ out.z i → out.z i ≤ r.z (r.nz - 1) → 0 ≤ t ∧ t ≤ 1) ∧
      (F (out.z i) = (1 - t) * F (r.z a) + t * F (r.z (a + 1)) →
        newMix sec F r b out fill i j - legacyMix sec F r b out fill i j =
          -(t * (1 - t)) * interp1d .extrapolate r.nk (fun l => Real.logb 10 (r.k l)) (fun l =>
            let f0 := F (r.z a)
            let f1 := F (r.z (a + 1))
            let dr := r.p (a + 1) l - r.p a l
            let db := b.p (a + 1) l - b.p a l
            if sec ∈ ["intrinsic_power", "galaxy_power", "galaxy_intrinsic_power"] then
              (f1 ^ 2 - f0 ^ 2) * dr + ((1 - f1) ^ 2 - (1 - f0) ^ 2) * db +
                (f1 - f0) ^ 2 * ((r.p a l + t * dr) + (b.p a l + t * db))
            else (f1 - f0) * (dr - db)) (Real.logb 10 (out.k j))) := by
  have hs1 := segment_pos r.nz r.z (out.z i)
  have hs2 := segment_lt h.two r.z (out.z i)
  obtain ⟨a, ha⟩ : ∃ a, Lib.segment r.nz r.z (out.z i) = a + 1 := ⟨Lib.segment r.nz r.z (out.z i) - 1, by omega⟩
  have hlt : r.z a < r.z (a + 1) := h.sorted a (a + 1) (by omega) (by omega)
  have hpos : 0 < r.z (a + 1) - r.z a := by linarith
  set t := (out.z i - r.z a) / (r.z (a + 1) - r.z a) with ht
  have hlin : ∀ y : ℕ → ℝ, interp1d fill r.nz r.z y (out.z i) = (1 - t) * y a + t * y (a + 1) := fun y => by
    have e : interp1d fill r.nz r.z y (out.z i) = interpLinear r.nz r.z y (out.z i) := by
      rcases hq with rfl | hq
      · rfl
      · exact interp1d_inside hq.1 hq.2 fill y
    rw [e, interpLinear_line, ha]
    simp only [Nat.add_sub_cancel]
    rfl
  have hz : out.z i = (1 - t) * r.z a + t * r.z (a + 1) := by
    rw [ht]; field_simp; ring
  refine ⟨a, t, by omega, hz, fun h0 h1 => ?_, fun hF => ?_⟩
  · have := segment_bracket h.two h.sorted h0 h1
    rw [ha] at this
    simp only [Nat.add_sub_cancel] at this
    exact ⟨div_nonneg (by linarith) hpos.le, (div_le_one hpos).mpr (by linarith)⟩
  · have K := fun y w c d => interp1d_lin (Or.inl rfl : (Fill.extrapolate = .extrapolate ∨ _)) r.nk
      (fun l => Real.logb 10 (r.k l)) y w c d (Real.logb 10 (out.k j))
    unfold newMix legacyMix
    rw [interpolate_grid h]
    simp only [weighted_eq, interpolate, regridded, mixed, hlin, Add.log10]
    rw [← K, ← one_mul (interp1d _ _ _ (fun l => (1 - t) * _ + t * _) _), sub_eq_add_neg, ← neg_mul, ← one_mul
      (interp1d .extrapolate r.nk _ (fun l => wRed sec (F (out.z i)) * _ + _) _), ← K]
    have K0 := fun y c => K y y c 0
    simp only [zero_mul, add_zero] at K0
    rw [← K0]
    congr 1
    funext l
    unfold wRed
    split_ifs
    · rw [hF]; ring
    · rw [hF]; ring

/-- C119: outside the redshifts of the halo model.  If the sample has no redshift-dependent observable the legacy module
stores zeros there, and so would the rewritten library with the fill value 0; with extrapolation, which its CosmoSIS
module always uses, the rewritten library mixes two straight lines instead. -/
theorem C119_outside (sec : String) (hs : sec ∈ sections) (F : ℝ → ℝ) (r b out : Sect) (h : SameGrid r b) (hk : 2 ≤ r.nk)
    (hks : SortedOn r.nk (fun l => Real.logb 10 (r.k l))) (i j : ℕ) (hq : out.z i < r.z 0 ∨ r.z (r.nz - 1) < out.z i) :
    legacyMix sec F r b out (.value 0) i j = 0 ∧ newMix sec F r b out (.value 0) i j = 0 ∧
    newMix sec F r b out .extrapolate i j =
      mixture sec (F (out.z i))
        (interpLinear r.nk (fun l => Real.logb 10 (r.k l)) (fun l => interpLinear r.nz r.z (fun m => r.p m l) (out.z i))
          (Real.logb 10 (out.k j)))
        (interpLinear r.nk (fun l => Real.logb 10 (r.k l)) (fun l => interpLinear r.nz r.z (fun m => b.p m l) (out.z i))
          (Real.logb 10 (out.k j))) := by
  have e : ∀ y : ℕ → ℝ, interp1d (.value 0) r.nz r.z y (out.z i) = 0 := fun y => by simp [interp1d, hq]
  have z : interp1d .extrapolate r.nk (fun l => Real.logb 10 (r.k l)) (fun _ => 0) (Real.logb 10 (out.k j)) = 0 :=
    interpLinear_const hk hks 0 _
  refine ⟨?_, ?_, ?_⟩
  · simp only [legacyMix, regridded, mixed, e, z]
  · unfold newMix
    rw [interpolate_grid h]
    simp only [interpolate, e, Add.log10, z, weighted_eq]
    ring
  · unfold newMix
    rw [interpolate_grid h]
    simp only [interpolate, interp1d, Add.log10]
    unfold weighted mixture
    simp only [sections, List.mem_cons, List.not_mem_nil, or_false] at hs
    rcases hs with rfl | rfl | rfl | rfl | rfl <;> simp

/-- C119: the rewritten CosmoSIS module: for the two alignment samples it passes a fraction that is 1 everywhere and
extrapolation, so at every output redshift and wavenumber it stores the first sample alone, extrapolated; the legacy
module stored the mixture with the fraction of the file. -/
theorem C119_interface {P : Type} (env : Add.Env P) (sec comp : String) (hs : sec ∈ sections) (o1 : Add.Obj) (p1 p2 : P)
    (b : ℕ) (r bl out : Sect) (modes comps : List String) (hn : 2 ≤ out.nz) (hso : SortedOn out.nz out.z)
    (h1 : Holds o1 (modeOf sec) comp b r) (h2 : Holds (env.cloneUpdate o1 p2) (modeOf sec) comp b bl)
    (hmode : modeOf sec ∈ modes) (hcomp : comp ∈ comps)
    (hok : (Add.results env comps modes
      (Add.fresh (Interface.splitParams ⟨out.nz, out.z⟩ out.k o1 p1 p2))).2 = .ok ()) :
    ∃ d v, (Add.results env comps modes (Add.fresh (Interface.splitParams ⟨out.nz, out.z⟩ out.k o1 p1 p2))).1.attrs
      (modeOf sec) = some d ∧ d comp = some v ∧
      ∀ i j, i < out.nz → v.val b i j = (regridded r out .extrapolate).p i j := by
  obtain ⟨d, v, hd, hv, hval⟩ := C119_new env (Interface.splitParams ⟨out.nz, out.z⟩ out.k o1 p1 p2) sec comp hs
    ⟨out.nz, out.z, fun _ => 1⟩ o1 p2 b r bl out modes comps rfl rfl rfl rfl rfl rfl rfl h1 h2 hmode hcomp hok
  refine ⟨d, v, hd, hv, fun i j hi => ?_⟩
  have e : interp1d .extrapolate out.nz out.z (fun _ => (1 : ℝ)) (out.z i) = 1 := interpLinear_const hn hso 1 _
  rw [hval i j hi, e, weighted_eq]
  have w1 : wRed sec 1 = 1 := by simp [wRed]
  have w0 : wRed sec (1 - 1) = 0 := by simp [wRed]
  rw [w1, w0, zero_mul, add_zero, one_mul]
  rfl

/-! ## Examples -/

/-- a spectrum that does not depend on redshift or wavenumber, at two redshifts and two wavenumbers -/
noncomputable def flat (c : ℝ) : Sect := ⟨2, fun i => i, 2, fun i => (i : ℝ) + 1, fun _ _ => c⟩

/-- an output grid with a redshift half way -/
noncomputable def half : Sect := ⟨3, fun i => (i : ℝ) / 2, 2, fun i => (i : ℝ) + 1, fun _ _ => 0⟩

theorem flat_grid (c d : ℝ) : SameGrid (flat c) (flat d) :=
  ⟨rfl, rfl, rfl, rfl, le_rfl, fun i j h _ => by show (i : ℝ) < j; exact_mod_cast h⟩

theorem flat_logk (c : ℝ) : SortedOn (flat c).nk (fun l => Real.logb 10 ((flat c).k l)) := fun i j h _ => by
  show Real.logb 10 ((i : ℝ) + 1) < Real.logb 10 ((j : ℝ) + 1)
  have : (i : ℝ) < j := by exact_mod_cast h
  exact Real.logb_lt_logb (by norm_num) (by positivity) (by linarith)

theorem interp_half (y : ℕ → ℝ) : interp1d .extrapolate 2 (fun i => (i : ℝ)) y (1 / 2) = (y 0 + y 1) / 2 := by
  have hs : Lib.segment 2 (fun i => (i : ℝ)) (1 / 2 : ℝ) = 1 := by
    have := segment_pos 2 (fun i => (i : ℝ)) (1 / 2)
    have := segment_lt (le_refl 2) (fun i => (i : ℝ)) (1 / 2)
    omega
  simp only [interp1d, interpLinear, hs]
  norm_num
  ring

/-- the two modules differ by a factor of two: red galaxies with power 1, no blue power, a red fraction that rises from
0 to 1; half way the legacy galaxy power is 1/2, the rewritten one 1/4 (the matter-galaxy power agrees, as the spectra
do not change) -/
example : legacyMix "galaxy_power" (fun z => z) (flat 1) (flat 0) half .extrapolate 1 0 = 1 / 2 ∧
    newMix "galaxy_power" (fun z => z) (flat 1) (flat 0) half .extrapolate 1 0 = 1 / 4 ∧
    legacyMix "matter_galaxy_power" (fun z => z) (flat 1) (flat 0) half .extrapolate 1 0 = 1 / 2 ∧
    newMix "matter_galaxy_power" (fun z => z) (flat 1) (flat 0) half .extrapolate 1 0 = 1 / 2 := by
  have hz : half.z 1 = 1 / 2 := by norm_num [half]
  have hk : ∀ c : ℝ, interp1d .extrapolate 2 (fun l => Real.logb 10 ((l : ℝ) + 1)) (fun _ => c) (Real.logb 10 (half.k 0)) = c :=
    fun c => interpLinear_const le_rfl (flat_logk 0) c _
  have hz2 : ∀ y : ℕ → ℝ, interp1d .extrapolate 2 (fun i => (i : ℝ)) y (half.z 1) = (y 0 + y 1) / 2 := fun y => by
    rw [hz]; exact interp_half y
  refine ⟨?_, ?_, ?_, ?_⟩
  · simp only [legacyMix, regridded, mixed, flat, hz2, hk, weighted]
    norm_num
  · simp only [newMix, interpolate, flat, hz2, Add.log10, hk, weighted]
    norm_num [hz]
  · simp only [legacyMix, regridded, mixed, flat, hz2, hk, weighted]
    norm_num
  · simp only [newMix, interpolate, flat, hz2, Add.log10, hk, weighted]
    norm_num [hz]
    decide

/-- the fraction of the example is linear, as C119_difference asks -/
example (t x y : ℝ) : (fun z : ℝ => z) ((1 - t) * x + t * y) = (1 - t) * (fun z : ℝ => z) x + t * (fun z : ℝ => z) y := rfl

/-- options of the examples: galaxy power is added, matter-galaxy power only extrapolated -/
def demoOptions (T : Option Table) : Options where
  mm := "extrapolate"
  opt := fun s => if s = "galaxy_power" then "add_and_extrapolate" else if s = "matter_galaxy_power" then "extrapolate" else ""
  fRedFile := T

/-- a block of the examples with two bins: all spectra are there, none named like an output except the matter one -/
noncomputable def demoBlock (blueBins : ℕ) : Block where
  pk := fun _ => some (flat 3)
  nbins := fun s => if s = "hod_blue" then some blueBins else some 2
  observableZ := fun _ => some false

/-- the module runs on the block of the examples -/
example : ∃ c B, setup (demoOptions (some ⟨2, fun i => i, fun i => i⟩)) = .ok c ∧ execute c (demoBlock 2) = .ok B := by
  obtain ⟨c, hc⟩ := (C119_setup (demoOptions (some ⟨2, fun i => i, fun i => i⟩))).mpr fun _ => by simp [demoOptions]
  obtain ⟨B, hB⟩ := (C119_runs _ c hc (demoBlock 2)).mpr ⟨⟨_, rfl⟩, fun _ => ⟨_, rfl⟩,
    fun _ => ⟨2, false, by simp [demoBlock, demoOptions], rfl, fun _ _ _ _ _ => ⟨_, rfl⟩⟩,
    fun _ => ⟨2, false, by simp [demoBlock, demoOptions], by simp [demoBlock, demoOptions], rfl,
      fun _ _ _ _ _ => ⟨_, _, rfl, rfl, rfl, rfl⟩⟩⟩
  exact ⟨c, B, hc, hB⟩

/-- with another number of blue bins it stops; without the file `setup` stops -/
example : (∀ c, setup (demoOptions (some ⟨2, fun i => i, fun i => i⟩)) = .ok c → ¬ ∃ B, execute c (demoBlock 3) = .ok B) ∧
    ¬ ∃ c, setup (demoOptions none) = .ok c := by
  have hadd : ∀ T, ∃ s ∈ sections, (demoOptions T).opt s = "add_and_extrapolate" := fun T =>
    ⟨"galaxy_power", by decide, by simp [demoOptions]⟩
  constructor
  · intro c hc h
    obtain ⟨-, -, -, h⟩ := (C119_runs _ c hc (demoBlock 3)).mp h
    obtain ⟨n, _, h1, h2, _⟩ := h (hadd _)
    simp [demoBlock, demoOptions] at h1 h2
    omega
  · intro h
    exact (C119_setup (demoOptions none)).mp h (hadd none) rfl

/-- the half-way redshift is not outside the grid, the last one of this output grid is -/
example : (⟨2, fun i => 2 * i, 2, fun i => (i : ℝ) + 1, fun _ _ => 0⟩ : Sect).z 1 > (flat 1).z ((flat 1).nz - 1) := by
  norm_num [flat]

end Verif.LegacyAdd

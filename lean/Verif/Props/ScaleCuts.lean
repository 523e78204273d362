import Verif.Model.ScaleCuts
import Mathlib.Data.List.GetD
import Mathlib.Data.List.Range
import Mathlib.Algebra.BigOperators.Group.List.Basic
import Mathlib.Tactic.NormNum
import Mathlib.Tactic.Linarith

/-!
# C123 — data, covariance and theory after the legacy scale cuts
-/

namespace Verif.ScaleCuts

open Verif.Lib

/-- one entry of a data vector: the name, the bins and the angle (none for one-point functions), and the value -/
abbrev Entr := String × Option Key × ℝ

/-- the entries of a measurement in the order of the data vector -/
def entries (t : TP) : List Entr :=
  (t.specs.flatMap fun s => s.pts.map fun p => (s.name, some p.key, p.value)) ++
    t.nobs.flatMap fun o => o.vals.map fun v => (o.name, none, v)

/-- the covariance belongs to the entries -/
def CovFits (t : TP) : Prop := ∀ C, t.cov = some C → C.n = (entries t).length

/-! ## masks -/

theorem sel_map {α β : Type} (f : α → β) (m : List Bool) (l : List α) : sel m (l.map f) = (sel m l).map f := by
  induction m generalizing l with
  | nil => cases l <;> rfl
  | cons b m ih =>
    cases l with
    | nil => cases b <;> rfl
    | cons x l => cases b <;> simp [sel, ih]

theorem sel_append {α : Type} {m m' : List Bool} {l l' : List α} (h : m.length = l.length) :
    sel (m ++ m') (l ++ l') = sel m l ++ sel m' l' := by
  induction m generalizing l with
  | nil =>
    have : l = [] := List.length_eq_zero_iff.1 h.symm
    subst this
    cases m' <;> cases l' <;> simp [sel]
  | cons b m ih =>
    cases l with
    | nil => simp at h
    | cons x l => cases b <;> simp [sel, ih (by simpa using h)]

theorem sel_sublist {α : Type} (m : List Bool) (l : List α) : (sel m l).Sublist l := by
  induction m generalizing l with
  | nil => cases l <;> simp [sel]
  | cons b m ih =>
    cases l with
    | nil => cases b <;> simp [sel]
    | cons x l =>
      cases b
      · exact (ih l).cons x
      · exact (ih l).cons_cons x

theorem sel_true {α : Type} (l : List α) : sel (l.map fun _ => true) l = l := by
  induction l with
  | nil => rfl
  | cons x l ih => rw [List.map_cons, sel, ih]

theorem sel_filter {α : Type} (p : α → Bool) (l : List α) : sel (l.map p) l = l.filter p := by
  induction l with
  | nil => rfl
  | cons x l ih =>
    cases h : p x <;> simp [sel, h, ih]

theorem map_getD_range {α : Type} (l : List α) (d : α) : (List.range l.length).map (l.getD · d) = l := by
  apply List.ext_getElem
  · simp
  · intro i h1 h2
    simp [List.getElem?_eq_getElem h2]

theorem sel_range {α : Type} (m : List Bool) (l : List α) (d : α) :
    sel m l = (sel m (List.range l.length)).map (l.getD · d) := by
  rw [← sel_map, map_getD_range]

theorem specMask_length {op : Op} {name : String} {ks : List Key} {m : List Bool} (h : specMask op name ks = .ok m) :
    m.length = ks.length := by
  unfold specMask at h
  cases op with
  | cross => cases h; simp
  | pairs l => cases h; simp
  | ranges d => cases h; simp
  | bins t idx =>
    simp only at h
    split_ifs at h <;> cases h <;> simp
  | scale t lo hi =>
    simp only at h
    split_ifs at h <;> cases h <;> simp

/-- what a mask method does to one spectrum -/
noncomputable def cut1 (op : Op) (s : Spec) : Spec :=
  ⟨s.name, sel ((specMask op s.name (s.pts.map Point.key)).toOption.getD []) s.pts⟩

/-- what the methods do to one spectrum -/
noncomputable def cutAll (ops : List Op) (s : Spec) : Spec := ops.foldl (fun s op => cut1 op s) s

theorem cut1_name (op : Op) (s : Spec) : (cut1 op s).name = s.name := rfl

theorem cutAll_name (ops : List Op) (s : Spec) : (cutAll ops s).name = s.name := by
  induction ops generalizing s with
  | nil => rfl
  | cons op l ih => exact ih (cut1 op s)

theorem specMasks_ok {op : Op} {l : List Spec} {ms : List (List Bool)} (h : specMasks op l = .ok ms) :
    applyMasks l ms = l.map (cut1 op) ∧
    ms.flatten.length = (l.flatMap fun s => s.pts).length ∧
    ∀ f : Spec → Point → Entr, (∀ s p, f (cut1 op s) p = f s p) →
      sel ms.flatten (l.flatMap fun s => s.pts.map (f s)) = (l.map (cut1 op)).flatMap fun s => s.pts.map (f s) := by
  induction l generalizing ms with
  | nil => cases h; exact ⟨rfl, rfl, fun _ _ => rfl⟩
  | cons s l ih =>
    simp only [specMasks] at h
    cases hm : specMask op s.name (s.pts.map Point.key) with
    | error e => simp [hm] at h
    | ok m =>
      cases hl : specMasks op l with
      | error e => simp [hm, hl] at h
      | ok ms' =>
        simp only [hm, hl, Except.ok.injEq] at h
        subst h
        obtain ⟨h1, h2, h3⟩ := ih hl
        have hlen := specMask_length hm
        have hc : cut1 op s = ⟨s.name, sel m s.pts⟩ := by simp [cut1, hm, Except.toOption]
        refine ⟨by simp [applyMasks, h1, hc], ?_, fun f hf => ?_⟩
        · simp only [List.flatten_cons, List.length_append, List.flatMap_cons, h2]
          simp only [List.length_map] at hlen
          rw [hlen]
        · rw [List.flatten_cons, List.flatMap_cons, sel_append (by simpa using hlen), h3 f hf, List.map_cons, List.flatMap_cons,
            sel_map]
          congr 1
          have hff : f (cut1 op s) = f s := funext fun p => hf s p
          rw [hff, hc]

theorem applyOp_ok {op : Op} {t t' : TP} (h : applyOp op t = .ok t') :
    t'.specs = t.specs.map (cut1 op) ∧ t'.nobs = t.nobs ∧
    ∃ mask : List Bool, mask.length = (entries t).length ∧ entries t' = sel mask (entries t) ∧ maskCov t.cov mask = .ok t'.cov := by
  unfold applyOp at h
  split_ifs at h
  cases hm : specMasks op t.specs with
  | error e => simp [hm] at h
  | ok ms =>
    simp only [hm] at h
    cases hc : maskCov t.cov (ms.flatten ++ onesOf t.nobs) with
    | error e => simp [hc] at h
    | ok c =>
      simp only [hc, Except.ok.injEq] at h
      subst h
      obtain ⟨h1, h2, h3⟩ := specMasks_ok hm
      have hones : onesOf t.nobs = (t.nobs.flatMap fun o => o.vals.map fun v => ((o.name, none, v) : Entr)).map fun _ => true := by
        simp [onesOf, List.map_flatMap, Function.comp_def]
      refine ⟨h1, rfl, ms.flatten ++ onesOf t.nobs, ?_, ?_, hc⟩
      · rw [hones]
        simp [entries, h2, List.length_flatMap]
      · rw [hones]
        unfold entries
        rw [sel_append (by simp [h2, List.length_flatMap]), sel_true, h3 _ fun s p => rfl, h1]

/-- A list of positions picks the entries and the rows and columns of the covariance. -/
def Picks (t t' : TP) (kept : List ℕ) : Prop :=
  kept.Pairwise (· < ·) ∧ (∀ k ∈ kept, k < (entries t).length) ∧
  (∀ d, entries t' = kept.map ((entries t).getD · d)) ∧
  (t.cov = none → t'.cov = none) ∧
  ∀ C, t.cov = some C → ∃ C', t'.cov = some C' ∧ C'.n = kept.length ∧
    ∀ i (hi : i < kept.length) j (hj : j < kept.length), C'.a i j = C.a kept[i] kept[j]

theorem Picks.refl {t : TP} (h : CovFits t) : Picks t t (List.range (entries t).length) :=
  ⟨List.pairwise_lt_range, fun k hk => by simpa using hk, fun d => (map_getD_range _ d).symm, id, fun C hC =>
    ⟨C, hC, by simp [h C hC], fun i hi j hj => by simp⟩⟩

theorem Picks.fits {t t' : TP} {kept : List ℕ} (h : Picks t t' kept) : CovFits t' := fun C' hC' => by
  obtain ⟨-, -, he, hn, hc⟩ := h
  cases hC : t.cov with
  | none => rw [hn hC] at hC'; cases hC'
  | some C =>
    obtain ⟨C'', h1, h2, -⟩ := hc C hC
    rw [h1] at hC'
    cases hC'
    rw [h2, he ("", none, 0), List.length_map]

theorem Picks.trans {t t' t'' : TP} {k k' : List ℕ} (h : Picks t t' k) (h' : Picks t' t'' k') :
    Picks t t'' (k'.map (k.getD · 0)) := by
  obtain ⟨hs, hlt, he, hn, hc⟩ := h
  obtain ⟨hs', hlt', he', hn', hc'⟩ := h'
  have hlen : (entries t').length = k.length := by rw [he ("", none, 0), List.length_map]
  rw [hlen] at hlt'
  have hget : ∀ i, i < k.length → k.getD i 0 ∈ k := fun i hi => by
    rw [List.getD_eq_getElem _ _ hi]; exact List.getElem_mem _
  refine ⟨?_, ?_, fun d => ?_, fun h => hn' (hn h), fun C hC => ?_⟩
  · rw [List.pairwise_map]
    refine hs'.imp_of_mem fun {a b} ha hb hab => ?_
    rw [List.getD_eq_getElem _ _ (hlt' a ha), List.getD_eq_getElem _ _ (hlt' b hb)]
    exact (List.pairwise_iff_getElem.1 hs) a b (hlt' a ha) (hlt' b hb) hab
  · intro x hx
    obtain ⟨i, hi, rfl⟩ := List.mem_map.1 hx
    exact hlt _ (hget i (hlt' i hi))
  · rw [he' d, List.map_map]
    refine List.map_congr_left fun i hi => ?_
    have hik := hlt' i hi
    rw [he d, Function.comp, List.getD_eq_getElem _ _ (by simpa using hik), List.getElem_map, List.getD_eq_getElem _ _ hik]
  · obtain ⟨C', h1, h2, h3⟩ := hc C hC
    obtain ⟨C'', h1', h2', h3'⟩ := hc' C' h1
    refine ⟨C'', h1', by simpa using h2', fun i hi j hj => ?_⟩
    simp only [List.length_map] at hi hj
    rw [h3' i hi j hj, h3 _ (hlt' _ (List.getElem_mem _)) _ (hlt' _ (List.getElem_mem _))]
    rw [List.getElem_map, List.getElem_map, List.getD_eq_getElem _ _ (hlt' _ (List.getElem_mem _)),
      List.getD_eq_getElem _ _ (hlt' _ (List.getElem_mem _))]

theorem picks_of_mask {t t' : TP} {mask : List Bool} (hl : mask.length = (entries t).length)
    (he : entries t' = sel mask (entries t)) (hc : maskCov t.cov mask = .ok t'.cov) :
    Picks t t' (sel mask (List.range (entries t).length)) := by
  have hsub := sel_sublist mask (List.range (entries t).length)
  refine ⟨List.Pairwise.sublist hsub List.pairwise_lt_range, fun k hk => by simpa using hsub.subset hk, fun d => by rw [he, ← sel_range],
    fun h => ?_, fun C hC => ?_⟩
  · rw [h] at hc
    simp only [maskCov, Except.ok.injEq] at hc
    exact hc.symm
  · rw [hC] at hc
    simp only [maskCov] at hc
    split_ifs at hc with hn
    simp only [Except.ok.injEq] at hc
    rw [hl] at hn
    refine ⟨_, hc.symm, by rw [hn]; rfl, fun i hi j hj => ?_⟩
    simp only [Mat.sub, ← hn]
    rw [List.getD_eq_getElem _ _ hi, List.getD_eq_getElem _ _ hj]

theorem applyOps_ok {ops : List Op} {t t' : TP} (h : applyOps ops t = .ok t') :
    t'.specs = t.specs.map (cutAll ops) ∧ t'.nobs = t.nobs ∧ (CovFits t → ∃ kept, Picks t t' kept) := by
  induction ops generalizing t with
  | nil =>
    cases h
    refine ⟨?_, rfl, fun hf => ⟨_, Picks.refl hf⟩⟩
    have : cutAll [] = id := rfl
    rw [this, List.map_id]
  | cons op l ih =>
    simp only [applyOps] at h
    cases h1 : applyOp op t with
    | error e => simp [h1] at h
    | ok t1 =>
      simp only [h1] at h
      obtain ⟨a1, a2, mask, a3, a4, a5⟩ := applyOp_ok h1
      obtain ⟨b1, b2, b3⟩ := ih h
      refine ⟨?_, b2.trans a2, fun hf => ?_⟩
      · rw [b1, a1, List.map_map]
        rfl
      · have hp := picks_of_mask a3 a4 a5
        obtain ⟨k, hk⟩ := b3 hp.fits
        exact ⟨_, hp.trans hk⟩

theorem flatMap_filter {α β : Type} (l : List α) (f : α → List β) (p : β → Bool) (q : α → Bool) (h : ∀ a, ∀ e ∈ f a, p e = q a) :
    (l.filter q).flatMap f = (l.flatMap f).filter p := by
  induction l with
  | nil => rfl
  | cons s l ih =>
    rw [List.flatMap_cons, List.filter_append, ← ih]
    cases hs : q s with
    | true =>
      rw [List.filter_cons_of_pos hs, List.flatMap_cons]
      congr 1
      exact (List.filter_eq_self.2 fun e he => by rw [h s e he, hs]).symm
    | false =>
      have hn : (f s).filter p = [] := List.filter_eq_nil_iff.2 fun e he => by rw [h s e he, hs]; simp
      rw [List.filter_cons_of_neg (by simp [hs]), hn, List.nil_append]

theorem choose_ok {names : List String} {t t' : TP} (h : choose names t = .ok t') :
    t'.specs = t.specs.filter (fun s => decide ((lower s.name) ∈ names.map lower)) ∧
    t'.nobs = t.nobs.filter (fun o => decide ((lower o.name) ∈ names.map lower)) ∧
    Picks t t' (sel ((entries t).map fun e => decide (lower e.1 ∈ names.map lower)) (List.range (entries t).length)) := by
  unfold choose at h
  simp only at h
  split_ifs at h
  set w := names.map lower with hw
  have hmask : (t.specs.flatMap fun s => s.pts.map fun _ => decide ((lower s.name) ∈ w)) ++
      (t.nobs.flatMap fun o => o.vals.map fun _ => decide ((lower o.name) ∈ w)) = (entries t).map fun e => decide (lower e.1 ∈ w) := by
    simp only [entries, List.map_append, List.map_flatMap, List.map_map, Function.comp_def]
  rw [hmask] at h
  cases hc : maskCov t.cov ((entries t).map fun e => decide (lower e.1 ∈ w)) with
  | error e => simp [hc] at h
  | ok c =>
    simp only [hc, Except.ok.injEq] at h
    subst h
    refine ⟨rfl, rfl, picks_of_mask (by simp) ?_ hc⟩
    rw [sel_filter]
    unfold entries
    rw [List.filter_append]
    congr 1
    · exact flatMap_filter _ _ _ _ fun s e he => by
        obtain ⟨p, -, rfl⟩ := List.mem_map.1 he
        rfl
    · exact flatMap_filter _ _ _ _ fun s e he => by
        obtain ⟨p, -, rfl⟩ := List.mem_map.1 he
        rfl

/-! ## data and covariance stay together -/

/-- The mean vector is the values of the entries in order. -/
theorem C123_mean (t : TP) : (∃ v, mean t = .ok v) ∧ mean t = .ok ((entries t).map fun e => e.2.2) ∨
    t.specs = [] ∧ t.nobs = [] ∧ mean t = .error .valueError := by
  by_cases h : t.specs = [] ∧ t.nobs = []
  · exact Or.inr ⟨h.1, h.2, if_pos h⟩
  · have hm : mean t = .ok ((entries t).map fun e => e.2.2) := by
      unfold mean
      rw [if_neg h]
      simp [entries, List.map_flatMap, Function.comp_def]
    exact Or.inl ⟨⟨_, hm⟩, hm⟩

/-- Whatever cuts are made and whatever statistics are chosen, the data vector is made of entries of the file in their order, and
the covariance of the result is the covariance of the file at the same positions: entry `(i, j)` belongs to entries `i` and `j` of
the data vector. -/
theorem C123_data_and_covariance {lab : String → Option String} {a : Args} {t t' : TP} (h : setupData lab a t = .ok t')
    (hf : CovFits t) : ∃ kept : List ℕ, kept.Pairwise (· < ·) ∧ (∀ k ∈ kept, k < (entries t).length) ∧
      (∀ d, entries t' = kept.map ((entries t).getD · d)) ∧
      ∀ C, t.cov = some C → ∃ C', t'.cov = some C' ∧ C'.n = (entries t').length ∧
        ∀ i (hi : i < kept.length) j (hj : j < kept.length), C'.a i j = C.a kept[i] kept[j] := by
  unfold setupData at h
  cases h1 : applyOps (opsOf a) t with
  | error e => simp [h1, bind, Except.bind] at h
  | ok t1 =>
    simp only [h1, bind, Except.bind] at h
    cases h2 : a.stats with
    | none => simp [h2] at h
    | some st =>
      simp only [h2] at h
      split_ifs at h
      obtain ⟨k, hk⟩ := (applyOps_ok h1).2.2 hf
      have hp := hk.trans (choose_ok h).2.2
      refine ⟨_, hp.1, hp.2.1, hp.2.2.1, fun C hC => ?_⟩
      obtain ⟨C', c1, c2, c3⟩ := hp.2.2.2.2 C hC
      exact ⟨C', c1, hp.fits C' c1, c3⟩

/-! ## which entries are kept -/

/-- the words of the manual: does an entry pass a cut (the cut by positions has no such description) -/
def Passes : Op → Entr → Prop
  | .cross, (_, some k, _) => k.bin1 = k.bin2
  | .pairs l, (n, some k, _) => (n, k.bin1, k.bin2) ∉ l
  | .ranges d, (n, some k, _) => ∀ r, d (n, k.bin1, k.bin2) = some r → r.1 ≤ k.angle ∧ k.angle ≤ r.2
  | .scale t lo hi, (n, some k, _) => t = "all" ∨ n.toList <:+: t.toList → lo < k.angle ∧ k.angle < hi
  | _, _ => True

/-- the cut by positions -/
def Op.isBins : Op → Bool
  | .bins _ _ => true
  | _ => false

open Classical in
theorem cut1_entries {op : Op} (h : op.isBins = false) (s : Spec) :
    (cut1 op s).pts.map (fun p => ((s.name, some p.key, p.value) : Entr)) =
      (s.pts.map fun p => ((s.name, some p.key, p.value) : Entr)).filter fun e => decide (Passes op e) := by
  rw [← sel_filter, sel_map]
  congr 1
  unfold cut1
  simp only
  cases op with
  | cross =>
    simp only [specMask, Except.toOption, Option.getD_some, List.map_map, Function.comp_def]
    congr 1
    exact List.map_congr_left fun p _ => decide_eq_decide.2 Iff.rfl
  | pairs l =>
    simp only [specMask, Except.toOption, Option.getD_some, List.map_map, Function.comp_def]
    congr 1
    exact List.map_congr_left fun p _ => decide_eq_decide.2 Iff.rfl
  | ranges d =>
    simp only [specMask, Except.toOption, Option.getD_some, List.map_map, Function.comp_def]
    congr 1
    refine List.map_congr_left fun p _ => ?_
    cases hd : d (s.name, p.key.bin1, p.key.bin2) with
    | none => simp [Passes, hd]
    | some r =>
      simp only [Passes, hd, Option.some.injEq, forall_eq']
      refine decide_eq_decide.2 ?_
      rw [not_or, not_lt, not_lt]
  | scale t lo hi =>
    unfold specMask
    simp only
    split_ifs with hc
    · simp only [Except.toOption, Option.getD_some, List.map_map, Function.comp_def]
      congr 1
      refine List.map_congr_left fun p _ => ?_
      symm
      refine decide_eq_true ?_
      intro h
      rcases h with h | h
      · exact absurd h hc.1
      · exact absurd h hc.2
    · simp only [Except.toOption, Option.getD_some, List.map_map, Function.comp_def]
      congr 1
      refine List.map_congr_left fun p _ => decide_eq_decide.2 ⟨fun h _ => h, fun h => h ?_⟩
      by_contra hn
      rw [not_or] at hn
      exact hc hn
  | bins t idx => cases h

open Classical in
/-- Without cuts by position the cut measurement is made of exactly the entries that pass every cut, in their order; cuts never
touch a one-point function. -/
theorem C123_kept {ops : List Op} {t t' : TP} (hb : ∀ op ∈ ops, op.isBins = false) (h : applyOps ops t = .ok t') :
    entries t' = (entries t).filter (fun e => decide (∀ op ∈ ops, Passes op e)) ∧ t'.nobs = t.nobs := by
  induction ops generalizing t with
  | nil => cases h; simp
  | cons op l ih =>
    simp only [applyOps] at h
    cases h1 : applyOp op t with
    | error e => simp [h1] at h
    | ok t1 =>
      simp only [h1] at h
      obtain ⟨a1, a2, -⟩ := applyOp_ok h1
      obtain ⟨b1, b2⟩ := ih (fun o ho => hb o (List.mem_cons_of_mem _ ho)) h
      refine ⟨?_, b2.trans a2⟩
      have hop : entries t1 = (entries t).filter fun e => decide (Passes op e) := by
        unfold entries
        rw [a1, a2, List.filter_append]
        congr 1
        · generalize t.specs = sp
          induction sp with
          | nil => rfl
          | cons s sp ihs =>
            rw [List.map_cons, List.flatMap_cons, List.flatMap_cons, List.filter_append, ihs, ← cut1_entries (hb op List.mem_cons_self)]
            rfl
        · symm
          refine List.filter_eq_self.2 fun e he => ?_
          obtain ⟨o, -, he⟩ := List.mem_flatMap.1 he
          obtain ⟨v, -, rfl⟩ := List.mem_map.1 he
          refine decide_eq_true ?_
          cases op <;> trivial
      rw [b1, hop, List.filter_filter]
      refine List.filter_congr fun e _ => ?_
      rw [← Bool.decide_and]
      refine decide_eq_decide.2 ?_
      simp [and_comm]

/-- Without cuts by position, cutting a measurement whose covariance has the right size never raises. -/
theorem C123_no_exception {ops : List Op} {t : TP} (hb : ∀ op ∈ ops, op.isBins = false) (hf : CovFits t) :
    ∃ t', applyOps ops t = .ok t' := by
  induction ops generalizing t with
  | nil => exact ⟨t, rfl⟩
  | cons op l ih =>
    have hmask : ∀ (n : String) (ks : List Key), ∃ m, specMask op n ks = .ok m := fun n ks => by
      have := hb op List.mem_cons_self
      unfold specMask
      cases op with
      | bins t idx => cases this
      | scale t lo hi => simp only; split_ifs <;> exact ⟨_, rfl⟩
      | cross => exact ⟨_, rfl⟩
      | pairs l => exact ⟨_, rfl⟩
      | ranges d => exact ⟨_, rfl⟩
    have hmasks : ∀ sp : List Spec, ∃ ms, specMasks op sp = .ok ms := fun sp => by
      induction sp with
      | nil => exact ⟨[], rfl⟩
      | cons s sp ihs =>
        obtain ⟨m, hm⟩ := hmask s.name (s.pts.map Point.key)
        obtain ⟨ms, hms⟩ := ihs
        exact ⟨m :: ms, by simp only [specMasks, hm, hms]⟩
    obtain ⟨ms, hms⟩ := hmasks t.specs
    have hlen : (ms.flatten ++ onesOf t.nobs).length = (entries t).length := by
      obtain ⟨-, h2, -⟩ := specMasks_ok hms
      simp [entries, onesOf, h2, List.length_flatMap]
    have hfound : found op t.specs := by
      have := hb op List.mem_cons_self
      cases op <;> trivial
    have hcov : ∃ c, maskCov t.cov (ms.flatten ++ onesOf t.nobs) = .ok c := by
      unfold maskCov
      cases hC : t.cov with
      | none => exact ⟨_, rfl⟩
      | some C => exact ⟨_, if_pos (by rw [hlen, hf C hC])⟩
    obtain ⟨c, hc⟩ := hcov
    have h1 : applyOp op t = .ok ⟨applyMasks t.specs ms, t.nobs, c⟩ := by
      unfold applyOp
      rw [if_pos hfound]
      simp only [hms, hc]
    obtain ⟨-, -, mask, m1, m2, m3⟩ := applyOp_ok h1
    obtain ⟨t', ht'⟩ := ih (fun o ho => hb o (List.mem_cons_of_mem _ ho)) (picks_of_mask m1 m2 m3).fits
    exact ⟨t', by simp only [applyOps, h1, ht']⟩

theorem sel_zipIdx {α : Type} (f : ℕ → Bool) (l : List α) (k : ℕ) :
    sel ((List.range' k l.length).map f) l = ((l.zipIdx k).filter fun p => f p.2).map Prod.fst := by
  induction l generalizing k with
  | nil => rfl
  | cons x l ih =>
    rw [List.length_cons, List.range'_succ, List.map_cons, List.zipIdx_cons]
    cases h : f k
    · rw [sel, ih, List.filter_cons_of_neg (by simp [h])]
    · rw [sel, ih, List.filter_cons_of_pos (by simpa using h), List.map_cons]

/-- A cut by position takes the listed positions out of the one spectrum of that name, where the positions count the entries that
earlier cuts have left and negative ones count from the end; everything else stays. -/
theorem C123_bins {n : String} {idx : List ℤ} {t t' : TP} (h : applyOp (.bins n idx) t = .ok t') :
    t'.nobs = t.nobs ∧ t'.specs = t.specs.map fun s => if s.name = n then
      ⟨s.name, (s.pts.zipIdx.filter fun p => decide ((p.2 : ℤ) ∉ idx ∧ (p.2 : ℤ) - s.pts.length ∉ idx)).map Prod.fst⟩ else s := by
  obtain ⟨h1, h2, -⟩ := applyOp_ok h
  refine ⟨h2, ?_⟩
  unfold applyOp at h
  split_ifs at h with hf
  cases hms : specMasks (.bins n idx) t.specs with
  | error e => simp [hms] at h
  | ok ms =>
    have hall : ∀ (l : List Spec) (ms : List (List Bool)), specMasks (.bins n idx) l = .ok ms →
        ∀ s ∈ l, ∃ m, specMask (.bins n idx) s.name (s.pts.map Point.key) = .ok m := by
      intro l
      induction l with
      | nil => intro _ _ s hs; cases hs
      | cons x l ih =>
        intro ms hms s hs
        simp only [specMasks] at hms
        cases hx : specMask (.bins n idx) x.name (x.pts.map Point.key) with
        | error e => simp [hx] at hms
        | ok m =>
          cases hl : specMasks (.bins n idx) l with
          | error e => simp [hx, hl] at hms
          | ok ms' =>
            rcases List.mem_cons.1 hs with rfl | hs
            · exact ⟨m, hx⟩
            · exact ih ms' hl s hs
    rw [h1]
    refine List.map_congr_left fun s hs => ?_
    obtain ⟨m, hm⟩ := hall _ _ hms s hs
    have hc : cut1 (.bins n idx) s = ⟨s.name, sel m s.pts⟩ := by simp [cut1, hm, Except.toOption]
    rw [hc]
    unfold specMask at hm
    by_cases hn : s.name = n
    · simp only [if_pos hn] at hm
      split_ifs at hm with hi
      cases hm
      rw [if_pos hn, List.length_map, List.range_eq_range', sel_zipIdx]
      congr 3
      funext p
      have : hit s.pts.length idx p.2 = decide ((p.2 : ℤ) ∈ idx ∨ (p.2 : ℤ) - s.pts.length ∈ idx) := by
        unfold hit
        rw [Bool.eq_iff_iff, List.any_eq_true, decide_eq_true_iff]
        constructor
        · rintro ⟨i, hi, h⟩
          rcases (by simpa using h : i = (p.2 : ℤ) ∨ i + s.pts.length = (p.2 : ℤ)) with h | h
          · exact Or.inl (h ▸ hi)
          · exact Or.inr (by rw [← h]; simpa using hi)
        · rintro (h | h)
          · exact ⟨_, h, by simp⟩
          · exact ⟨_, h, by simp⟩
      rw [this, ← decide_not]
      exact decide_eq_decide.2 not_or
    · simp only [if_neg hn] at hm
      cases hm
      rw [if_neg hn, List.map_map]
      have := sel_true s.pts
      rw [show ((fun _ => true) ∘ Point.key : Point → Bool) = fun _ => true from rfl, this]

/-- A cut by position of a statistic that the measurement does not have raises: the theory, which only has the statistics in use,
cannot be cut although the data could. -/
theorem C123_bins_of_absent_statistic (n : String) (idx : List ℤ) (l : List Op) (t : TP) (h : ∀ s ∈ t.specs, s.name ≠ n) :
    applyOps (.bins n idx :: l) t = .error .valueError := by
  have : ¬ found (.bins n idx) t.specs := by
    show ¬ (t.specs.countP (fun s => decide (s.name = n)) = 1)
    rw [List.countP_eq_zero.2 fun s hs => by simpa using h s hs]
    simp
  simp only [applyOps, applyOp, if_neg this]

/-- Without cuts by position the setup runs through whenever the covariance has the size of the data and the statistics in use are
in the file. -/
theorem C123_setup_runs {lab : String → Option String} {a : Args} {t : TP} {st : List String} (hb : a.bins = []) (hf : CovFits t)
    (hs : a.stats = some st) (hl : ∀ s ∈ st, ∃ c, lab (lower s) = some c ∧
      ((∃ x ∈ t.specs, (lower x.name) = (lower c)) ∨ ∃ o ∈ t.nobs, (lower o.name) = (lower c))) :
    ∃ t', setupData lab a t = .ok t' := by
  obtain ⟨t1, h1⟩ := C123_no_exception (ops := opsOf a) (fun op hop => by
    unfold opsOf at hop
    rw [hb] at hop
    simp only [List.map_nil, List.append_nil, List.mem_append, List.mem_map] at hop
    rcases hop with ((hop | hop) | hop) | ⟨p, -, rfl⟩
    · split_ifs at hop
      · rw [List.mem_singleton.1 hop]; rfl
      · cases hop
    · split_ifs at hop
      · cases hop
      · rw [List.mem_singleton.1 hop]; rfl
    · split_ifs at hop
      · cases hop
      · rw [List.mem_singleton.1 hop]; rfl
    · rfl) hf
  obtain ⟨b1, b2, b3⟩ := applyOps_ok h1
  obtain ⟨k, hk⟩ := b3 hf
  have hf1 := hk.fits
  unfold setupData
  simp only [h1, bind, Except.bind, hs]
  rw [if_pos fun s hs => by obtain ⟨c, hc, -⟩ := hl s hs; simp [hc]]
  unfold choose
  simp only
  rw [if_pos]
  · have hc : ∀ m : List Bool, m.length = (entries t1).length → ∃ c, maskCov t1.cov m = .ok c := fun m hm => by
      unfold maskCov
      cases hC : t1.cov with
      | none => exact ⟨_, rfl⟩
      | some C => exact ⟨_, if_pos (by rw [hm, hf1 C hC])⟩
    obtain ⟨c, hc⟩ := hc ((t1.specs.flatMap fun s => s.pts.map fun _ =>
        decide ((lower s.name) ∈ (st.map fun s => (lab (lower s)).getD "").map lower)) ++
      t1.nobs.flatMap fun o => o.vals.map fun _ =>
        decide ((lower o.name) ∈ (st.map fun s => (lab (lower s)).getD "").map lower)) (by
      simp [entries, List.length_flatMap])
    simp only [hc]
    exact ⟨_, rfl⟩
  · intro d hd
    obtain ⟨x, hx, rfl⟩ := List.mem_map.1 hd
    obtain ⟨s, hs, rfl⟩ := List.mem_map.1 hx
    obtain ⟨c, hc, h⟩ := hl s hs
    rw [hc, Option.getD_some, b1, b2]
    rcases h with ⟨y, hy, he⟩ | h
    · exact Or.inl ⟨_, List.mem_map_of_mem hy, by rw [cutAll_name]; exact he⟩
    · exact Or.inr h

/-! ## data and theory stay together -/

/-- the name and the keys of a spectrum -/
def Spec.labels (s : Spec) : String × List Key := (s.name, s.pts.map Point.key)

theorem cut1_labels {op : Op} {s s' : Spec} (h : s.labels = s'.labels) : (cut1 op s).labels = (cut1 op s').labels := by
  simp only [Spec.labels, Prod.mk.injEq] at h ⊢
  refine ⟨by rw [cut1_name, cut1_name, h.1], ?_⟩
  unfold cut1
  simp only
  rw [← sel_map, ← sel_map, h.1, h.2]

theorem cutAll_labels {ops : List Op} {s s' : Spec} (h : s.labels = s'.labels) : (cutAll ops s).labels = (cutAll ops s').labels := by
  induction ops generalizing s s' with
  | nil => exact h
  | cons op l ih => exact ih (cut1_labels h)

/-- If before the cuts the statistics in use of the data and the statistics of the theory have the same names, bins and angles in
the same order, they have after the cuts, cuts by position included.  The values may differ, the data may have further statistics
anywhere, and the one-point functions of both are left as they are. -/
theorem C123_data_and_theory {lab : String → Option String} {a : Args} {t t' th th' : TP} {st : List String}
    (hd : setupData lab a t = .ok t') (hs : a.stats = some st) (hth : applyOps (opsOf a) th = .ok th')
    (hsame : (t.specs.filter fun s => decide ((lower s.name) ∈ (st.map fun s => (lab (lower s)).getD "").map lower)).map
      Spec.labels = th.specs.map Spec.labels) :
    t'.specs.map Spec.labels = th'.specs.map Spec.labels ∧
    t'.specs.flatMap (fun s => s.pts.map fun p => (s.name, p.key)) = th'.specs.flatMap (fun s => s.pts.map fun p => (s.name, p.key)) ∧
    th'.nobs = th.nobs ∧
    t'.nobs = t.nobs.filter fun o => decide ((lower o.name) ∈ (st.map fun s => (lab (lower s)).getD "").map lower) := by
  unfold setupData at hd
  cases h1 : applyOps (opsOf a) t with
  | error e => simp [h1, bind, Except.bind] at hd
  | ok t1 =>
    simp only [h1, bind, Except.bind, hs] at hd
    split_ifs at hd
    obtain ⟨c1, c2, -⟩ := choose_ok hd
    obtain ⟨b1, b2, -⟩ := applyOps_ok h1
    obtain ⟨e1, e2, -⟩ := applyOps_ok hth
    have key : ∀ l l' : List Spec, l.map Spec.labels = l'.map Spec.labels →
        (l.map (cutAll (opsOf a))).map Spec.labels = (l'.map (cutAll (opsOf a))).map Spec.labels := by
      intro l
      induction l with
      | nil => intro l' h; cases l' with
        | nil => rfl
        | cons _ _ => simp at h
      | cons x l ih => intro l' h; cases l' with
        | nil => simp at h
        | cons y l' =>
          simp only [List.map_cons, List.cons.injEq] at h ⊢
          exact ⟨cutAll_labels h.1, ih l' h.2⟩
    have hlab : t'.specs.map Spec.labels = th'.specs.map Spec.labels := by
      rw [c1, b1, e1, List.filter_map]
      rw [← key _ _ hsame]
      congr 2
      refine List.filter_congr fun s _ => ?_
      simp only [Function.comp, cutAll_name]
    refine ⟨hlab, ?_, e2, by rw [c2, b2]⟩
    have hfl : ∀ l : List Spec, l.flatMap (fun s => s.pts.map fun p => (s.name, p.key)) =
        (l.map Spec.labels).flatMap fun q => q.2.map fun k => (q.1, k) := fun l => by
      rw [List.flatMap_map]
      simp only [Spec.labels, List.map_map, Function.comp_def]
    rw [hfl, hfl, hlab]

/-! ## names -/

theorem gather_names {use : List String} {B : String → Option Section} {ls : List Line} {r : List Spec}
    (h : gather use B ls = .ok r) : r.map Spec.name = (ls.map Line.ext).filter fun e => decide (e ∈ use) := by
  induction ls generalizing r with
  | nil => cases h; rfl
  | cons l ls ih =>
    unfold gather at h
    by_cases hu : l.ext ∈ use
    · rw [if_neg (by simpa using hu)] at h
      rw [List.map_cons, List.filter_cons_of_pos (by simpa using hu)]
      cases hB : B l.sect with
      | none => simp [hB] at h
      | some S =>
        simp only [hB] at h
        cases ho : outer S l.ggl 1000 0 with
        | nil => simp [ho] at h
        | cons p ps =>
          simp only [ho] at h
          cases hg : gather use B ls with
          | error e => simp [hg] at h
          | ok r' =>
            simp only [hg, Except.ok.injEq] at h
            subst h
            rw [List.map_cons, ih hg]
    · rw [if_pos (by simpa using hu)] at h
      rw [List.map_cons, List.filter_cons_of_neg (by simpa using hu)]
      exact ih h

/-- The theory has exactly the extensions that are literally in `use_stats`, in the fixed order of the sections. -/
theorem C123_theory_statistics {a : Args} {ls : List Line} {oe : String} {B : String → Option Section} {one : Option (List ℝ)}
    {th : TP} (h : theory a ls oe B one = .ok th) :
    th.specs.map Spec.name = (ls.map Line.ext).filter fun e => decide (e ∈ a.stats.getD []) := by
  unfold theory at h
  cases h1 : gather (a.stats.getD []) B ls with
  | error e => simp [h1, bind, Except.bind] at h
  | ok sp =>
    cases h2 : gatherOne (a.stats.getD []) oe one with
    | error e => simp [h1, h2, bind, Except.bind] at h
    | ok ob =>
      simp only [h1, h2, bind, Except.bind] at h
      rw [(applyOps_ok h).1, List.map_map, ← gather_names h1]
      exact List.map_congr_left fun s _ => cutAll_name _ s

/-- The data keep the extensions whose names agree, up to case, with the extensions which the tags in `use_stats` stand for, in the
order of the file. -/
theorem C123_data_statistics {lab : String → Option String} {a : Args} {t t' : TP} {st : List String}
    (h : setupData lab a t = .ok t') (hs : a.stats = some st) :
    t'.specs.map Spec.name = (t.specs.map Spec.name).filter fun n =>
      decide (∃ s ∈ st, ∃ c, lab (lower s) = some c ∧ (lower c) = (lower n)) := by
  unfold setupData at h
  cases h1 : applyOps (opsOf a) t with
  | error e => simp [h1, bind, Except.bind] at h
  | ok t1 =>
    simp only [h1, bind, Except.bind, hs] at h
    split_ifs at h with hl
    obtain ⟨c1, -, -⟩ := choose_ok h
    obtain ⟨b1, -, -⟩ := applyOps_ok h1
    rw [c1, b1, List.filter_map, List.map_map, List.filter_map]
    have hn : Spec.name ∘ cutAll (opsOf a) = Spec.name := funext fun s => cutAll_name _ s
    rw [hn]
    congr 1
    refine List.filter_congr fun s _ => ?_
    simp only [Function.comp, cutAll_name]
    refine decide_eq_decide.2 ?_
    rw [List.map_map, List.mem_map]
    constructor
    · rintro ⟨x, hx, he⟩
      obtain ⟨c, hc⟩ := Option.isSome_iff_exists.1 (hl x hx)
      refine ⟨x, hx, c, hc, ?_⟩
      simpa [hc] using he
    · rintro ⟨x, hx, c, hc, he⟩
      exact ⟨x, hx, by simpa [hc] using he⟩

/-- A statistic of `use_stats` which is in none of the lines (`gammax`, `PneB`, `PeeB`, `Bn`) and of which the file has entries is
in the data and not in the theory: the two vectors differ in the statistic even when no cut is made. -/
theorem C123_statistic_without_theory {lab : String → Option String} {a : Args} {t t' th : TP} {st : List String} {s c : String}
    {ls : List Line} {oe : String} {B : String → Option Section} {one : Option (List ℝ)}
    (hd : setupData lab a t = .ok t') (hst : a.stats = some st) (hth : theory a ls oe B one = .ok th)
    (hs : s ∈ st) (hc : lab (lower s) = some c) (ht : c ∈ t.specs.map Spec.name) (hl : c ∉ ls.map Line.ext) :
    c ∈ t'.specs.map Spec.name ∧ c ∉ th.specs.map Spec.name := by
  rw [C123_data_statistics hd hst, C123_theory_statistics hth]
  exact ⟨List.mem_filter.2 ⟨ht, decide_eq_true ⟨s, hs, c, hc, rfl⟩⟩, fun h => hl (List.mem_filter.1 h).1⟩

/-! ## the order of the covariance -/

theorem covPositions_getD (c : CovInfo) (l : List ℕ) (a p : ℕ) (ha : a < l.length) (hp : p < c.lengths.getD (l.getD a 0) 0) :
    (covPositions c l).getD (((l.take a).map fun i => c.lengths.getD i 0).sum + p) 0 = c.start (l.getD a 0) + p := by
  induction l generalizing a with
  | nil => simp at ha
  | cons i l ih =>
    cases a with
    | zero =>
      have hp' : p < c.lengths.getD i 0 := hp
      simp only [covPositions, List.take_zero, List.map_nil, List.sum_nil, zero_add]
      rw [List.getD_append _ _ _ _ (by simpa using hp')]
      rw [List.getD_eq_getElem _ _ (by simpa using hp')]
      simp
    | succ a =>
      have := ih a (by simpa using ha) hp
      simp only [covPositions, List.take_succ_cons, List.map_cons, List.sum_cons]
      rw [List.getD_append_right _ _ _ _ (by simp; omega)]
      simp only [List.length_map, List.length_range]
      rw [show c.lengths.getD i 0 + ((l.take a).map fun i => c.lengths.getD i 0).sum + p - c.lengths.getD i 0 =
        ((l.take a).map fun i => c.lengths.getD i 0).sum + p by omega, this]
      rfl

theorem covPositions_length (c : CovInfo) (l : List ℕ) :
    (covPositions c l).length = (l.map fun i => c.lengths.getD i 0).sum := by
  induction l with
  | nil => rfl
  | cons i l ih => simp [covPositions, ih]

theorem getD_lt_sum (f : ℕ → ℕ) (l : List ℕ) (a p : ℕ) (ha : a < l.length) (hp : p < f (l.getD a 0)) :
    ((l.take a).map f).sum + p < (l.map f).sum := by
  induction l generalizing a with
  | nil => simp at ha
  | cons i l ih =>
    cases a with
    | zero =>
      have hp' : p < f i := hp
      simp only [List.take_zero, List.map_nil, List.sum_nil, zero_add, List.map_cons, List.sum_cons]
      omega
    | succ a =>
      have := ih a (by simpa using ha) hp
      simp only [List.take_succ_cons, List.map_cons, List.sum_cons]
      omega

/-- where the block of statistic `a` begins in the data vector, when its length is the one of the covariance -/
def offset (c : CovInfo) (names : List String) (a : ℕ) : ℕ :=
  ((names.take a).map fun n => c.lengths.getD (c.names.idxOf n) 0).sum

/-- Whatever the order of the statistics in the covariance of the file, the covariance that is used has the block of statistics `a`
and `b` of the measurement at the places of these statistics, entry by entry: element `p` of `a` and `q` of `b` get the element of
the file for the blocks of the same names. -/
theorem C123_covariance_order {c : CovInfo} {names : List String} {M : Mat} (hn : c.names.Nodup)
    (hlen : c.lengths.length = c.names.length) (h : covStart c names = .ok M)
    (a b p q : ℕ) (ha : a < names.length) (hb : b < names.length)
    (hp : p < c.lengths.getD (c.names.idxOf (names.getD a "")) 0) (hq : q < c.lengths.getD (c.names.idxOf (names.getD b "")) 0) :
    M.a (offset c names a + p) (offset c names b + q) =
      c.cov.a (c.start (c.names.idxOf (names.getD a "")) + p) (c.start (c.names.idxOf (names.getD b "")) + q) := by
  unfold covStart at h
  split_ifs at h with h1 h2 h3
  · cases h
    subst h1
    have key : ∀ a, a < c.names.length → offset c c.names a = c.start (c.names.idxOf (c.names.getD a "")) := fun a ha => by
      have hidx : ∀ i, (hi : i < c.names.length) → c.names.idxOf c.names[i] = i := fun i hi => hn.idxOf_getElem i hi
      rw [List.getD_eq_getElem _ _ ha, hidx a ha]
      unfold offset CovInfo.start
      congr 1
      apply List.ext_getElem
      · simp [hlen]
      · intro i h1 h2
        have hi : i < c.names.length := by simp at h1; omega
        have hi' : i < c.lengths.length := by omega
        simp only [List.getElem_map, List.getElem_take, hidx i hi]
        exact List.getD_eq_getElem _ _ hi'
    rw [key a ha, key b hb]
  · cases h
    have key : ∀ a p, a < names.length → p < c.lengths.getD (c.names.idxOf (names.getD a "")) 0 →
        (covPositions c (names.map fun n => c.names.idxOf n)).getD (offset c names a + p) 0 =
          c.start (c.names.idxOf (names.getD a "")) + p := fun a p ha hp => by
      have hg : (names.map fun n => c.names.idxOf n).getD a 0 = c.names.idxOf (names.getD a "") := by
        rw [List.getD_eq_getElem _ _ (by simpa using ha), List.getD_eq_getElem _ _ ha, List.getElem_map]
      have := covPositions_getD c (names.map fun n => c.names.idxOf n) a p (by simpa using ha) (by rw [hg]; exact hp)
      rw [hg] at this
      rw [← this]
      congr 1
      unfold offset
      rw [← List.map_take, List.map_map]
      rfl
    simp only [Mat.sub]
    rw [key a p ha hp, key b q hb hq]

/-- … and it has the size of the data vector when the lengths noted in the covariance are those of the measurement. -/
theorem C123_covariance_size {c : CovInfo} {names : List String} {M : Mat} (hn : c.names.Nodup)
    (hlen : c.lengths.length = c.names.length) (hcov : c.cov.n = c.lengths.sum) (h : covStart c names = .ok M) :
    M.n = offset c names names.length := by
  unfold covStart at h
  unfold offset
  rw [List.take_length]
  split_ifs at h with h1 h2 h3
  · cases h
    subst h1
    rw [hcov]
    congr 1
    apply List.ext_getElem
    · simp [hlen]
    · intro i h1 h2
      simp only [List.getElem_map]
      rw [hn.idxOf_getElem i (by simpa using h2), List.getD_eq_getElem _ _ h1]
  · cases h
    show (covPositions c _).length = _
    rw [covPositions_length, List.map_map]
    rfl

/-! ## the options -/

theorem parseOne_cross {S : Str} {a a' : Args} {e : Entry} (h : parseOne S a e = .ok a') :
    a'.cross = if e.key = ["cut", "cross"] then !e.empty else a.cross := by
  unfold parseOne at h
  by_cases h1 : e.key = ["use", "stats"]
  · rw [if_pos h1] at h
    cases h
    rw [if_neg (by rw [h1]; decide)]
  rw [if_neg h1] at h
  by_cases h2 : e.key = ["cut", "cross"]
  · rw [if_pos h2] at h
    cases h
    rw [if_pos h2]
  rw [if_neg h2] at h
  rw [if_neg h2]
  split_ifs at h
  · cases h3 : tagOf S e.key with
    | error x => simp [h3, bind, Except.bind] at h
    | ok t => cases h4 : pairsOf S t e.words with
      | error x => simp [h3, h4, bind, Except.bind] at h
      | ok r => simp only [h3, h4, bind, Except.bind, Except.ok.injEq] at h; subst h; rfl
  · cases h3 : tagOf S e.key with
    | error x => simp [h3, bind, Except.bind] at h
    | ok t => cases h4 : intsOf S e.words with
      | error x => simp [h3, h4, bind, Except.bind] at h
      | ok r => simp only [h3, h4, bind, Except.bind, Except.ok.injEq] at h; subst h; rfl
  · cases h3 : tagOf S e.key with
    | error x => simp [h3, bind, Except.bind] at h
    | ok t => cases h4 : intAt S e.key 3 with
      | error x => simp [h3, h4, bind, Except.bind] at h
      | ok i => cases h5 : intAt S e.key 4 with
        | error x => simp [h3, h4, h5, bind, Except.bind] at h
        | ok j => cases h6 : floatAt S e.words 0 with
          | error x => simp [h3, h4, h5, h6, bind, Except.bind] at h
          | ok lo => cases h7 : floatAt S e.words 1 with
            | error x => simp [h3, h4, h5, h6, h7, bind, Except.bind] at h
            | ok hi => simp only [h3, h4, h5, h6, h7, bind, Except.bind, Except.ok.injEq] at h; subst h; rfl
  · cases h3 : tagOf S e.key with
    | error x => simp [h3, bind, Except.bind] at h
    | ok t => cases h6 : floatAt S e.words 0 with
      | error x => simp [h3, h6, bind, Except.bind] at h
      | ok lo => cases h7 : floatAt S e.words 1 with
        | error x => simp [h3, h6, h7, bind, Except.bind] at h
        | ok hi => simp only [h3, h6, h7, bind, Except.bind, Except.ok.injEq] at h; subst h; rfl
  · cases h; rfl

theorem parseAll_cross {S : Str} {a a' : Args} {l : List Entry} (hk : (l.map Entry.key).Nodup) (h : parseAll S a l = .ok a') :
    a'.cross = true ↔ (∃ e ∈ l, e.key = ["cut", "cross"] ∧ e.empty = false) ∨
      (a.cross = true ∧ ∀ e ∈ l, e.key ≠ ["cut", "cross"]) := by
  induction l generalizing a with
  | nil => cases h; simp
  | cons e l ih =>
    rw [List.map_cons, List.nodup_cons] at hk
    simp only [parseAll] at h
    cases h1 : parseOne S a e with
    | error x => simp [h1] at h
    | ok a1 =>
      simp only [h1] at h
      rw [ih hk.2 h, parseOne_cross h1]
      by_cases he : e.key = ["cut", "cross"]
      · have hno : ∀ x ∈ l, x.key ≠ ["cut", "cross"] := fun x hx hc => hk.1 (by rw [he, ← hc]; exact List.mem_map_of_mem hx)
        rw [if_pos he]
        constructor
        · rintro (⟨x, hx, hc, -⟩ | ⟨hc, -⟩)
          · exact absurd hc (hno x hx)
          · exact Or.inl ⟨e, List.mem_cons_self, he, by simpa using hc⟩
        · rintro (⟨x, hx, hc, hc'⟩ | ⟨-, hc⟩)
          · rcases List.mem_cons.1 hx with rfl | hx
            · exact Or.inr ⟨by simpa using hc', hno⟩
            · exact absurd hc (hno x hx)
          · exact absurd he (hc e List.mem_cons_self)
      · rw [if_neg he]
        simp only [List.mem_cons, exists_eq_or_imp, forall_eq_or_imp, he, false_and, false_or, ne_eq, not_false_eq_true, true_and]

/-- The cross bins are cut exactly when there is an option `cut_cross` with any text at all — also with the text `False`. -/
theorem C123_cut_cross {S : Str} {l : List Entry} {a : Args} (hk : (l.map Entry.key).Nodup) (h : parse S l = .ok a) :
    Op.cross ∈ opsOf a ↔ ∃ e ∈ l, e.key = ["cut", "cross"] ∧ e.empty = false := by
  have hc : Op.cross ∈ opsOf a ↔ a.cross = true := by
    unfold opsOf
    cases a.cross <;> simp
  rw [hc, parseAll_cross hk h]
  simp

/-- The options for `Psi_gm` and `Psi_gg`, whose names contain an underscore: the angular range of the whole statistic is ignored
without a word, and the other options raise. -/
theorem C123_options_with_underscore (S : Str) (a : Args) (x : String) (hx : x = "gm" ∨ x = "gg") (em : Bool) (w : List String)
    (hS : S.lab "psi" = none) (i j : String) (hi : ¬ "cut".toList <:+ i.toList) :
    parseOne S a ⟨["keep", "ang", "psi", x], em, w⟩ = .ok a ∧
    parseOne S a ⟨["keep", "ang", "psi", x, i, j], em, w⟩ = .error .keyError ∧
    parseOne S a ⟨["cut", "pair", "psi", x], em, w⟩ = .error .keyError ∧
    parseOne S a ⟨["cut", "bin", "psi", x], em, w⟩ = .error .keyError := by
  have hc : contains "cut" "pair" ["keep", "ang", "psi", x, i, j] = false ∧ contains "cut" "bin" ["keep", "ang", "psi", x, i, j] = false ∧
      contains "keep" "ang" ["keep", "ang", "psi", x, i, j] = true := by
    have hx' : ("cut".toList.isSuffixOf x.toList) = false := by rcases hx with rfl | rfl <;> decide
    have hx'' : ¬ "cut".toList <:+ x.toList := by rcases hx with rfl | rfl <;> decide
    have h1 : ¬ "cut".toList <:+ "keep".toList := by decide
    have h2 : ¬ "cut".toList <:+ "ang".toList := by decide
    have h3 : ¬ "cut".toList <:+ "psi".toList := by decide
    have h4 : "keep".toList <:+ "keep".toList ∧ "ang".toList <+: "ang".toList := by decide
    refine ⟨?_, ?_, ?_⟩
    · simp only [contains, decide_eq_false h1, decide_eq_false h2, decide_eq_false h3, decide_eq_false hx'', decide_eq_false hi,
        Bool.false_and, Bool.or_false]
    · simp only [contains, decide_eq_false h1, decide_eq_false h2, decide_eq_false h3, decide_eq_false hx'', decide_eq_false hi,
        Bool.false_and, Bool.or_false]
    · simp only [contains, decide_eq_true h4.1, decide_eq_true h4.2, Bool.true_and, Bool.true_or]
  refine ⟨?_, ?_, ?_, ?_⟩
  · rcases hx with rfl | rfl <;> exact (by
      unfold parseOne
      dsimp only
      rw [if_neg (by decide), if_neg (by decide), if_neg (by decide), if_neg (by decide), if_neg (by decide), if_neg (by decide)])
  · unfold parseOne
    rw [if_neg (by simp), if_neg (by simp), if_neg (by rw [hc.1]; decide), if_neg (by rw [hc.2.1]; decide),
      if_pos ⟨hc.2.2, by simp⟩]
    simp [tagOf, hS, bind, Except.bind]
  · have h4 : "cut".toList <:+ "cut".toList ∧ "pair".toList <+: "pair".toList := by decide
    unfold parseOne
    rw [if_neg (by simp), if_neg (by simp), if_pos (by
      simp only [contains, decide_eq_true h4.1, decide_eq_true h4.2, Bool.true_and, Bool.true_or])]
    simp [tagOf, hS, bind, Except.bind]
  · have h4 : "cut".toList <:+ "cut".toList ∧ "bin".toList <+: "bin".toList := by decide
    rcases hx with rfl | rfl <;> exact (by
      unfold parseOne
      dsimp only
      rw [if_neg (by simp), if_neg (by simp), if_neg (by decide), if_pos (by decide)]
      simp [tagOf, hS, bind, Except.bind])

/-! ## the theory vector -/

theorem inner_ggl (S : Section) (i ns : ℕ) (n j : ℕ) (hj : j ≤ ns) (hn : ns - j < n) {v : ℕ → List ℝ}
    (hv : ∀ j, j < ns → S.val (i + 1) (j + 1) = some (v j)) (hend : S.val (i + 1) (ns + 1) = none) :
    inner S true i n j = (List.range' j (ns - j)).flatMap fun j => tomo S i j (v j) := by
  induction n generalizing j with
  | zero => omega
  | succ n ih =>
    unfold inner
    rcases Nat.lt_or_ge j ns with h | h
    · simp only [if_true, hv j h]
      rw [ih (j + 1) h (by omega), show ns - j = (ns - (j + 1)) + 1 by omega, List.range'_succ, List.flatMap_cons]
    · have : j = ns := by omega
      subst this
      simp [hend]

theorem inner_auto (S : Section) (i nb : ℕ) (n j : ℕ) (hj : j ≤ nb) (hn : nb - j < n) {v : ℕ → List ℝ}
    (hv : ∀ j, i ≤ j → j < nb → S.val (j + 1) (i + 1) = some (v j)) (hij : i ≤ j) (hend : S.val (nb + 1) (i + 1) = none) :
    inner S false i n j = (List.range' j (nb - j)).flatMap fun j => tomo S i j (v j) := by
  induction n generalizing j with
  | zero => omega
  | succ n ih =>
    unfold inner
    rcases Nat.lt_or_ge j nb with h | h
    · simp only [Bool.false_eq_true, if_false, hv j hij h]
      rw [ih (j + 1) h (by omega) (by omega), show nb - j = (nb - (j + 1)) + 1 by omega, List.range'_succ, List.flatMap_cons]
    · have : j = nb := by omega
      subst this
      simp [hend]

theorem outer_ggl (S : Section) (nl ns : ℕ) (n i : ℕ) (hi : i ≤ nl) (hn : nl - i < n) {v : ℕ → ℕ → List ℝ} (h0 : 0 < ns) (h1 : ns < 1000)
    (hv : ∀ i j, i < nl → j < ns → S.val (i + 1) (j + 1) = some (v i j)) (hrow : ∀ i, i < nl → S.val (i + 1) (ns + 1) = none)
    (hend : S.val (nl + 1) 1 = none) :
    outer S true n i = (List.range' i (nl - i)).flatMap fun i => (List.range ns).flatMap fun j => tomo S i j (v i j) := by
  induction n generalizing i with
  | zero => omega
  | succ n ih =>
    unfold outer
    rcases Nat.lt_or_ge i nl with h | h
    · have hv0 := hv i 0 h h0
      simp only [zero_add] at hv0
      simp only [if_true, hv0]
      rw [ih (i + 1) h (by omega), show nl - i = (nl - (i + 1)) + 1 by omega, List.range'_succ, List.flatMap_cons,
        inner_ggl S i ns 1000 0 (by omega) (by omega) (fun j hj => hv i j h hj) (hrow i h), Nat.sub_zero, ← List.range_eq_range']
    · have : i = nl := by omega
      subst this
      simp [hend]

theorem outer_auto (S : Section) (nb : ℕ) (n i : ℕ) (hi : i ≤ nb) (hn : nb - i < n) {v : ℕ → ℕ → List ℝ} (h1 : nb < 1000)
    (hv : ∀ i j, i ≤ j → j < nb → S.val (j + 1) (i + 1) = some (v i j)) (hend : ∀ i, i ≤ nb → S.val (nb + 1) (i + 1) = none) :
    outer S false n i = (List.range' i (nb - i)).flatMap fun i => (List.range' i (nb - i)).flatMap fun j => tomo S i j (v i j) := by
  induction n generalizing i with
  | zero => omega
  | succ n ih =>
    unfold outer
    rcases Nat.lt_or_ge i nb with h | h
    · simp only [Bool.false_eq_true, if_false, hv i i le_rfl h]
      rw [ih (i + 1) h (by omega), show nb - i = (nb - (i + 1)) + 1 by omega, List.range'_succ, List.flatMap_cons,
        inner_auto S i nb (1000 - i) i h.le (by omega) (fun j hij hj => hv i j hij hj) le_rfl (hend i h.le),
        show nb - i = (nb - (i + 1)) + 1 by omega, List.range'_succ]
    · have : i = nb := by omega
      subst this
      simp [hend i le_rfl]

/-- The order of the theory.  Galaxy-galaxy lensing: for every lens bin all source bins.  The other statistics: for every bin `i`
the bins `j ≥ i`, taken from `bin_j_i` and labelled `(i, j)`. -/
theorem C123_theory_order (S : Section) :
    (∀ (nl ns : ℕ) (v : ℕ → ℕ → List ℝ), 0 < ns → ns < 1000 → nl < 1000 →
      (∀ i j, i < nl → j < ns → S.val (i + 1) (j + 1) = some (v i j)) → (∀ i, i < nl → S.val (i + 1) (ns + 1) = none) →
      S.val (nl + 1) 1 = none →
      outer S true 1000 0 = (List.range nl).flatMap fun i => (List.range ns).flatMap fun j =>
        (S.angle.zip (v i j)).map fun p => ⟨⟨i + 1, j + 1, p.1⟩, p.2⟩) ∧
    (∀ (nb : ℕ) (v : ℕ → ℕ → List ℝ), nb < 1000 → (∀ i j, i ≤ j → j < nb → S.val (j + 1) (i + 1) = some (v i j)) →
      (∀ i, i ≤ nb → S.val (nb + 1) (i + 1) = none) →
      outer S false 1000 0 = (List.range nb).flatMap fun i => (List.range' i (nb - i)).flatMap fun j =>
        (S.angle.zip (v i j)).map fun p => ⟨⟨i + 1, j + 1, p.1⟩, p.2⟩) := by
  refine ⟨fun nl ns v h0 h1 h2 hv hrow hend => ?_, fun nb v h1 hv hend => ?_⟩
  · rw [outer_ggl S nl ns 1000 0 (by omega) (by omega) h0 h1 hv hrow hend, Nat.sub_zero, ← List.range_eq_range']
    rfl
  · rw [outer_auto S nb 1000 0 (by omega) (by omega) h1 hv hend, Nat.sub_zero, ← List.range_eq_range']
    rfl

/-! ## mock data -/

theorem split_flatten (l : List ℕ) (d : List ℝ) (h : l.sum = d.length) : (split l d).flatten = d ∧ (split l d).length = l.length ∧
    (split l d).map List.length = l := by
  induction l generalizing d with
  | nil =>
    have : d = [] := List.length_eq_zero_iff.1 (by simpa using h.symm)
    subst this
    exact ⟨rfl, rfl, rfl⟩
  | cons n l ih =>
    rw [List.sum_cons] at h
    obtain ⟨h1, h2, h3⟩ := ih (d.drop n) (by rw [List.length_drop]; omega)
    refine ⟨?_, by simp [split, h2], ?_⟩
    · rw [split, List.flatten_cons, h1, List.take_append_drop]
    · rw [split, List.map_cons, h3, List.length_take]
      congr 1
      omega

/-- Mock data: without one-point functions the measurement gets exactly the mock vector. -/
theorem C123_mock (vals : List (List ℝ)) (data : List ℝ) (h : (vals.map List.length).sum = data.length) :
    ∃ v, replaceMean vals [] data = .ok (v, []) ∧ meanOf v [] = data ∧ v.map List.length = vals.map List.length := by
  obtain ⟨h1, h2, h3⟩ := split_flatten (vals.map List.length) data h
  have ht : (split (vals.map List.length) data).take vals.length = split (vals.map List.length) data :=
    List.take_of_length_le (by rw [h2, List.length_map])
  refine ⟨split (vals.map List.length) data, ?_, by simp [meanOf, h1], h3⟩
  simp only [replaceMean, List.map_nil, List.append_nil, h, ne_eq, not_true_eq_false, if_false, setNobs, ht]

/-- With one one-point function, its first bin gets all of its mock values and the other bins keep the old ones: the measurement
that is written is longer than the mock vector, unless there is one bin only. -/
theorem C123_mock_one_point (vals : List (List ℝ)) (b : List ℝ) (o : List (List ℝ)) (data : List ℝ)
    (h : (vals.map List.length).sum + (b ++ o.flatten).length = data.length) :
    ∃ v r, replaceMean vals [b :: o] data = .ok (v, [r :: o]) ∧ meanOf v [r :: o] = data ++ o.flatten ∧
      (meanOf v [r :: o] = data ↔ o.flatten = []) := by
  have hidx : vals.map List.length ++ [b :: o].map (fun o => o.flatten.length) = vals.map List.length ++ [(b ++ o.flatten).length] := by
    simp
  obtain ⟨h1, h2, h3⟩ := split_flatten (vals.map List.length ++ [(b ++ o.flatten).length]) data (by rw [List.sum_append, List.sum_singleton]; exact h)
  obtain ⟨v, r, hvr, hv⟩ : ∃ v r, split (vals.map List.length ++ [(b ++ o.flatten).length]) data = v ++ [r] ∧ v.length = vals.length := by
    generalize (b ++ o.flatten).length = nb at h2 ⊢
    rw [List.length_append, List.length_map, List.length_singleton] at h2
    refine ⟨_, (split (vals.map List.length ++ [nb]) data).getLast (List.ne_nil_of_length_pos (by omega)),
      (List.dropLast_append_getLast _).symm, ?_⟩
    rw [List.length_dropLast, h2, Nat.add_sub_cancel]
  have hm : meanOf v [r :: o] = data ++ o.flatten := by
    rw [hvr] at h1
    simp only [List.flatten_append, List.flatten_cons, List.flatten_nil, List.append_nil] at h1
    simp only [meanOf, List.map_cons, List.map_nil, List.flatten_cons, List.flatten_nil, List.append_nil]
    rw [← List.append_assoc, h1]
  refine ⟨v, r, ?_, hm, by rw [hm]; simp⟩
  simp only [replaceMean, hidx, hvr]
  rw [if_neg (by rw [List.sum_append, List.sum_singleton, not_not]; exact h)]
  simp [← hv, setNobs]

/-! ## an example -/

/-- a file with two bins of `xip`, one of `xim` and a one-point function, with a covariance -/
def exampleFile : TP where
  specs := [⟨"xip", [⟨⟨1, 1, 2⟩, 10⟩, ⟨⟨1, 1, 60⟩, 11⟩, ⟨⟨1, 2, 2⟩, 12⟩, ⟨⟨1, 2, 60⟩, 13⟩]⟩, ⟨"xim", [⟨⟨1, 1, 2⟩, 14⟩]⟩]
  nobs := [⟨"1pt", [15, 16]⟩]
  cov := some ⟨7, fun i j => 100 * i + j⟩

/-- the names by default -/
def exampleLab (s : String) : Option String := if s = "xip" ∨ s = "xim" ∨ s = "1pt" then some s else none

/-- `use_stats = xip`, `keep_ang_xip = 1 50` -/
def exampleArgs : Args := ⟨some ["xip"], false, [], [], [], [("xip", (1, 50))]⟩

theorem exampleFits : CovFits exampleFile := fun C hC => by
  cases hC
  simp [entries, exampleFile]

/-- The data keep the two entries of `xip` at 2 arcmin. -/
example : ∃ t', setupData exampleLab exampleArgs exampleFile = .ok t' ∧ (entries t').map (fun e => e.2.2) = [10, 12] ∧
    ∃ C, t'.cov = some C ∧ C.a 0 1 = 2 ∧ C.a 1 1 = 202 := by
  have hl : lower "xip" = "xip" := by decide
  have hm : lower "xim" = "xim" := by decide
  have hone : lower "1pt" = "1pt" := by decide
  have h1 : ("xim" : String) ≠ "xip" := by decide
  have h2 : ("1pt" : String) ≠ "xip" := by decide
  simp [setupData, exampleArgs, opsOf, applyOps, applyOp, found, specMasks, specMask, exampleFile, maskCov, onesOf,
    choose, exampleLab, bind, Except.bind, hl, entries, Mat.sub, List.range_succ]
  norm_num [sel, applyMasks, hl, hm, hone, h1, h2, List.replicate, List.range_succ]

/-- The hypotheses of the theorem on running through hold for it. -/
example : ∃ t', setupData exampleLab exampleArgs exampleFile = .ok t' :=
  C123_setup_runs rfl exampleFits rfl fun s hs => by
    have hs : s = "xip" := List.mem_singleton.1 hs
    subst hs
    have hl : lower "xip" = "xip" := by decide
    exact ⟨"xip", by simp [exampleLab, hl], Or.inl ⟨_, List.mem_cons_self, rfl⟩⟩

/-- A theory for the same file: one line, two bins. -/
def exampleBlock : String → Option Section := fun s =>
  if s = "shear_xi_plus" then some ⟨[2, 60], fun a b => if (a = 1 ∧ b = 1) ∨ (a = 2 ∧ b = 1) then some [5, 6] else none⟩ else none

/-- … of which the spectrum has the labels of the file. -/
example : ∃ sp, gather ["xip"] exampleBlock [⟨"shear_xi_plus", "xip", false⟩, ⟨"shear_xi_minus", "xim", false⟩] = .ok sp ∧
    sp.map Spec.labels = (exampleFile.specs.filter fun s => decide (lower s.name ∈ ["xip"].map lower)).map Spec.labels := by
  have hl : lower "xip" = "xip" := by decide
  have hm : lower "xim" = "xim" := by decide
  have h1 : ("xim" : String) ≠ "xip" := by decide
  have ho : outer ⟨[2, 60], fun a b => if (a = 1 ∧ b = 1) ∨ (a = 2 ∧ b = 1) then some [5, 6] else none⟩ false 1000 0 =
      [⟨⟨1, 1, 2⟩, 5⟩, ⟨⟨1, 1, 60⟩, 6⟩, ⟨⟨1, 2, 2⟩, 5⟩, ⟨⟨1, 2, 60⟩, 6⟩] := by
    simp [outer, inner, tomo]
  refine ⟨[⟨"xip", [⟨⟨1, 1, 2⟩, 5⟩, ⟨⟨1, 1, 60⟩, 6⟩, ⟨⟨1, 2, 2⟩, 5⟩, ⟨⟨1, 2, 60⟩, 6⟩]⟩], ?_, ?_⟩
  · simp [gather, exampleBlock, h1, ho]
  · simp [exampleFile, Spec.labels, hl, hm, h1]

/-- A statistic whose name is part of another one is cut with it. -/
example (v : ℝ) : ¬ Passes (.scale "xip_new" 1 50) ("xip", some ⟨1, 1, 60⟩, v) := by
  simp only [Passes]
  intro h
  have := h (Or.inr (by decide))
  norm_num at this

/-- `cut_bin_xim` with a theory that has only `xip` raises. -/
example (l : List Op) : applyOps (.bins "xim" [0] :: l) ⟨[⟨"xip", [⟨⟨1, 1, 2⟩, 5⟩]⟩], [], none⟩ = .error .valueError :=
  C123_bins_of_absent_statistic _ _ _ _ fun s hs => by
    rw [List.mem_singleton.1 hs]
    exact (by decide : ("xip" : String) ≠ "xim")

/-- The last entry of `xip` is taken out by position, without a covariance. -/
example : ∃ t', applyOp (.bins "xip" [-1]) ⟨[⟨"xip", [⟨⟨1, 1, 2⟩, 5⟩, ⟨⟨1, 1, 60⟩, 6⟩]⟩], [], none⟩ = .ok t' ∧
    t'.specs = [⟨"xip", [⟨⟨1, 1, 2⟩, 5⟩]⟩] := by
  simp [applyOp, found, specMasks, specMask, maskCov, applyMasks, hit, List.range_succ, sel]

/-- A covariance with the statistics in another order. -/
example : ∃ M, covStart ⟨["b", "a"], [1, 2], ⟨3, fun i j => 10 * i + j⟩⟩ ["a", "b"] = .ok M ∧ M.a 0 0 = 11 ∧ M.a 1 2 = 20 := by
  simp [covStart, Mat.sub, covPositions, CovInfo.start, List.idxOf, List.findIdx, List.findIdx.go, List.range_succ]
  norm_num

/-- `cut_cross = False` cuts the cross bins. -/
example (S : Str) : ∃ a, parse S [⟨["cut", "cross"], false, ["False"]⟩] = .ok a ∧ Op.cross ∈ opsOf a := by
  have h : parse S [⟨["cut", "cross"], false, ["False"]⟩] = .ok ⟨none, true, [], [], [], []⟩ := by
    simp [parse, parseAll, parseOne]
  exact ⟨_, h, (C123_cut_cross (by simp) h).2 ⟨_, List.mem_cons_self, rfl, rfl⟩⟩

/-- Mock data with a one-point function of two bins. -/
example : ∃ v r, replaceMean [[1, 2]] [[[3], [4]]] [7, 8, 9, 10] = .ok (v, [r :: [[4]]]) ∧ meanOf v [r :: [[4]]] ≠ [7, 8, 9, 10] := by
  obtain ⟨v, r, h1, -, h3⟩ := C123_mock_one_point [[1, 2]] [3] [[4]] [7, 8, 9, 10] rfl
  exact ⟨v, r, h1, fun h => by simpa using h3.1 h⟩

/-! ## more about mock data, the order of the covariance and the options -/

/-- With two one-point functions the first gets its mock values in its first bin, the second in its *second* bin, whatever the number
of bins: if the second has one bin only the script stops. -/
theorem C123_mock_two (vals : List (List ℝ)) (b c : List ℝ) (o : List (List ℝ)) (data : List ℝ) :
    ((vals.map List.length).sum + ((b ++ o.flatten).length + c.length) = data.length →
      replaceMean vals [b :: o, [c]] data = .error .indexError) ∧
    (∀ (c' : List ℝ) (o' : List (List ℝ)),
      (vals.map List.length).sum + ((b ++ o.flatten).length + (c ++ (c' ++ o'.flatten)).length) = data.length →
      ∃ v r r', replaceMean vals [b :: o, c :: c' :: o'] data = .ok (v, [r :: o, c :: r' :: o']) ∧
        v.flatten ++ (r ++ r') = data ∧ r.length = (b ++ o.flatten).length ∧ r'.length = (c ++ (c' ++ o'.flatten)).length) := by
  have key : ∀ n m : ℕ, (vals.map List.length).sum + (n + m) = data.length →
      ∃ v r r', split (vals.map List.length ++ [n, m]) data = v ++ [r, r'] ∧ v.length = vals.length ∧
        v.flatten ++ (r ++ r') = data ∧ r.length = n ∧ r'.length = m := by
    intro n m hnm
    obtain ⟨h1, h2, h3⟩ := split_flatten (vals.map List.length ++ [n, m]) data (by simpa using hnm)
    generalize split (vals.map List.length ++ [n, m]) data = L at h1 h2 h3
    have hlen : L.length = vals.length + 2 := by simpa using h2
    obtain ⟨v, w, rfl, hv⟩ : ∃ v w, L = v ++ w ∧ v.length = vals.length :=
      ⟨L.take vals.length, L.drop vals.length, (List.take_append_drop _ _).symm, by simp [hlen]⟩
    have hw : w.length = 2 := by rw [List.length_append] at hlen; omega
    obtain ⟨r, r', rfl⟩ := List.length_eq_two.1 hw
    refine ⟨v, r, r', rfl, hv, by simpa using h1, ?_, ?_⟩
    all_goals
      have h4 : v.map List.length ++ [r.length, r'.length] = vals.map List.length ++ [n, m] := by simpa using h3
      have h5 := (List.append_inj h4 (by simp [hv])).2
      simp only [List.cons.injEq, and_true] at h5
    · exact h5.1
    · exact h5.2
  constructor
  · intro h
    obtain ⟨v, r, r', e1, e2, -, -, -⟩ := key _ _ h
    have hidx : vals.map List.length ++ [b :: o, [c]].map (fun o => o.flatten.length) =
        vals.map List.length ++ [(b ++ o.flatten).length, c.length] := by simp
    simp only [replaceMean, hidx, e1]
    rw [if_neg (by rw [not_not]; simpa using h)]
    simp [← e2, setNobs]
  · intro c' o' h
    obtain ⟨v, r, r', e1, e2, e3, e4, e5⟩ := key _ _ h
    refine ⟨v, r, r', ?_, e3, e4, e5⟩
    have hidx : vals.map List.length ++ [b :: o, c :: c' :: o'].map (fun o => o.flatten.length) =
        vals.map List.length ++ [(b ++ o.flatten).length, (c ++ (c' ++ o'.flatten)).length] := by simp
    simp only [replaceMean, hidx, e1]
    rw [if_neg (by rw [not_not]; simpa using h)]
    simp [← e2, setNobs]

/-- The covariance of the file can be brought into the order of the measurement exactly if it is in that order already or its lengths
add up to its size and it knows all statistics of the measurement. -/
theorem C123_covariance_usable (c : CovInfo) (names : List String) :
    (∃ M, covStart c names = .ok M) ↔ c.names = names ∨ (c.lengths.sum = c.cov.n ∧ ∀ n ∈ names, n ∈ c.names) := by
  unfold covStart
  split_ifs with h1 h2 h3
  · simp [h1]
  · simp [h1, h2]
  · rw [not_not] at h2
    simp only [Except.ok.injEq, exists_eq', true_iff]
    exact .inr ⟨h2, h3⟩
  · simp [h1, h3]

theorem parseOne_pairs {S : Str} {a a' : Args} {e : Entry} (h : parseOne S a e = .ok a') :
    (contains "cut" "pair" e.key = true ∧ e.key ≠ ["cut", "cross"] ∧ e.key ≠ ["use", "stats"] ∧
      ∃ t r, tagOf S e.key = .ok t ∧ pairsOf S t e.words = .ok r ∧ a'.pairs = a.pairs ++ r) ∨
    (¬ (contains "cut" "pair" e.key = true ∧ e.key ≠ ["cut", "cross"] ∧ e.key ≠ ["use", "stats"]) ∧ a'.pairs = a.pairs) := by
  unfold parseOne at h
  split_ifs at h with h1 h2 h3 h4 h5 h6
  · cases h; exact .inr ⟨fun hc => hc.2.2 h1, rfl⟩
  · cases h; exact .inr ⟨fun hc => hc.2.1 h2, rfl⟩
  · refine .inl ⟨h3, h2, h1, ?_⟩
    cases h7 : tagOf S e.key with
    | error x => simp [h7, bind, Except.bind] at h
    | ok t => cases h8 : pairsOf S t e.words with
      | error x => simp [h7, h8, bind, Except.bind] at h
      | ok r => simp only [h7, h8, bind, Except.bind, Except.ok.injEq] at h; subst h; exact ⟨t, r, rfl, h8, rfl⟩
  all_goals refine .inr ⟨fun hc => h3 hc.1, ?_⟩
  · cases h7 : tagOf S e.key with
    | error x => simp [h7, bind, Except.bind] at h
    | ok t => cases h8 : intsOf S e.words with
      | error x => simp [h7, h8, bind, Except.bind] at h
      | ok r => simp only [h7, h8, bind, Except.bind, Except.ok.injEq] at h; subst h; rfl
  · cases h3 : tagOf S e.key with
    | error x => simp [h3, bind, Except.bind] at h
    | ok t => cases h4 : intAt S e.key 3 with
      | error x => simp [h3, h4, bind, Except.bind] at h
      | ok i => cases h5 : intAt S e.key 4 with
        | error x => simp [h3, h4, h5, bind, Except.bind] at h
        | ok j => cases h6 : floatAt S e.words 0 with
          | error x => simp [h3, h4, h5, h6, bind, Except.bind] at h
          | ok lo => cases h7 : floatAt S e.words 1 with
            | error x => simp [h3, h4, h5, h6, h7, bind, Except.bind] at h
            | ok hi => simp only [h3, h4, h5, h6, h7, bind, Except.bind, Except.ok.injEq] at h; subst h; rfl
  · cases h3 : tagOf S e.key with
    | error x => simp [h3, bind, Except.bind] at h
    | ok t => cases h6 : floatAt S e.words 0 with
      | error x => simp [h3, h6, bind, Except.bind] at h
      | ok lo => cases h7 : floatAt S e.words 1 with
        | error x => simp [h3, h6, h7, bind, Except.bind] at h
        | ok hi => simp only [h3, h6, h7, bind, Except.bind, Except.ok.injEq] at h; subst h; rfl
  · cases h; rfl

/-- The pairs that are cut are those of all the options `cut_pair_…` together: an option adds to the pairs of the options before. -/
theorem C123_pairs {S : Str} {l : List Entry} {a : Args} (h : parse S l = .ok a) (p : String × ℤ × ℤ) :
    p ∈ a.pairs ↔ ∃ e ∈ l, contains "cut" "pair" e.key = true ∧ e.key ≠ ["cut", "cross"] ∧ e.key ≠ ["use", "stats"] ∧
      ∃ t r, tagOf S e.key = .ok t ∧ pairsOf S t e.words = .ok r ∧ p ∈ r := by
  have key : ∀ (l : List Entry) (a0 : Args), parseAll S a0 l = .ok a → (p ∈ a.pairs ↔ p ∈ a0.pairs ∨
      ∃ e ∈ l, contains "cut" "pair" e.key = true ∧ e.key ≠ ["cut", "cross"] ∧ e.key ≠ ["use", "stats"] ∧
        ∃ t r, tagOf S e.key = .ok t ∧ pairsOf S t e.words = .ok r ∧ p ∈ r) := by
    intro l
    induction l with
    | nil => intro a0 h; cases h; simp
    | cons e l ih =>
      intro a0 h
      simp only [parseAll] at h
      cases h1 : parseOne S a0 e with
      | error x => simp [h1] at h
      | ok a1 =>
        simp only [h1] at h
        rw [ih a1 h]
        rcases parseOne_pairs h1 with ⟨g1, g2, g3, t, r, g4, g5, g6⟩ | ⟨g1, g2⟩
        · rw [g6, List.mem_append]
          constructor
          · rintro ((hp | hp) | ⟨x, hx, hr⟩)
            · exact .inl hp
            · exact .inr ⟨e, List.mem_cons_self, g1, g2, g3, t, r, g4, g5, hp⟩
            · exact .inr ⟨x, List.mem_cons_of_mem _ hx, hr⟩
          · rintro (hp | ⟨x, hx, k1, k2, k3, t', r', k4, k5, k6⟩)
            · exact .inl (.inl hp)
            · rcases List.mem_cons.1 hx with rfl | hx
              · rw [g4] at k4
                cases k4
                rw [g5] at k5
                cases k5
                exact .inl (.inr k6)
              · exact .inr ⟨x, hx, k1, k2, k3, t', r', k4, k5, k6⟩
        · rw [g2]
          constructor
          · rintro (hp | ⟨x, hx, hr⟩)
            · exact .inl hp
            · exact .inr ⟨x, List.mem_cons_of_mem _ hx, hr⟩
          · rintro (hp | ⟨x, hx, k⟩)
            · exact .inl hp
            · rcases List.mem_cons.1 hx with rfl | hx
              · exact absurd ⟨k.1, k.2.1, k.2.2.1⟩ g1
              · exact .inr ⟨x, hx, k⟩
  simpa using key l _ h

/-- two options `cut_pair_…` -/
example : ∃ a, parse ⟨fun w => if w = "1" then some 1 else if w = "2" then some 2 else none, fun _ => none,
      fun w => if w = "1+1" then ["1", "1"] else ["1", "2"], some⟩
      [⟨["cut", "pair", "xip"], false, ["1+1"]⟩, ⟨["cut", "pair", "xim"], false, ["1+2"]⟩] = .ok a ∧
      ("xip", 1, 1) ∈ a.pairs ∧ ("xim", 1, 2) ∈ a.pairs := by
  have h1 : contains "cut" "pair" ["cut", "pair", "xip"] = true := by decide
  have h2 : contains "cut" "pair" ["cut", "pair", "xim"] = true := by decide
  have h : ∃ a, parse ⟨fun w => if w = "1" then some 1 else if w = "2" then some 2 else none, fun _ => none,
      fun w => if w = "1+1" then ["1", "1"] else ["1", "2"], some⟩
      [⟨["cut", "pair", "xip"], false, ["1+1"]⟩, ⟨["cut", "pair", "xim"], false, ["1+2"]⟩] = .ok a := by
    simp [parse, parseAll, parseOne, h1, h2, tagOf, pairsOf, intAt, bind, Except.bind]
  obtain ⟨a, ha⟩ := h
  refine ⟨a, ha, (C123_pairs ha _).2 ⟨_, List.mem_cons_self, h1, by decide, by decide, "xip", [("xip", 1, 1)], rfl, ?_, by simp⟩,
    (C123_pairs ha _).2 ⟨_, List.mem_cons_of_mem _ List.mem_cons_self, h2, by decide, by decide, "xim", [("xim", 1, 2)], rfl, ?_,
      by simp⟩⟩ <;> simp [pairsOf, intAt, bind, Except.bind]

/-! ## options for the same statistic -/

theorem dictSet_keys {κ ν : Type} [DecidableEq κ] (k : κ) (v : ν) (d : List (κ × ν)) (x : κ) :
    x ∈ (dictSet k v d).map Prod.fst ↔ x = k ∨ x ∈ d.map Prod.fst := by
  induction d with
  | nil => simp [dictSet]
  | cons p d ih =>
    unfold dictSet
    split_ifs with h
    · simp only [List.map_cons, List.mem_cons, h]; tauto
    · simp only [List.map_cons, List.mem_cons, ih]; tauto

theorem dictSet_nodup {κ ν : Type} [DecidableEq κ] (k : κ) (v : ν) (d : List (κ × ν)) (h : (d.map Prod.fst).Nodup) :
    ((dictSet k v d).map Prod.fst).Nodup := by
  induction d with
  | nil => simp [dictSet]
  | cons p d ih =>
    rw [List.map_cons, List.nodup_cons] at h
    unfold dictSet
    split_ifs with e
    · rw [List.map_cons, List.nodup_cons]; exact ⟨e ▸ h.1, h.2⟩
    · rw [List.map_cons, List.nodup_cons, dictSet_keys]
      exact ⟨fun x => x.elim e h.1, ih h.2⟩

theorem mem_dictSet {κ ν : Type} [DecidableEq κ] (k : κ) (v : ν) (d : List (κ × ν)) (h : (d.map Prod.fst).Nodup) (x : κ) (y : ν) :
    (x, y) ∈ dictSet k v d ↔ (x = k ∧ y = v) ∨ (x ≠ k ∧ (x, y) ∈ d) := by
  induction d with
  | nil => simp [dictSet]
  | cons p d ih =>
    rw [List.map_cons, List.nodup_cons] at h
    obtain ⟨a, b⟩ := p
    unfold dictSet
    split_ifs with e
    · simp only at e
      subst e
      have : ∀ y, (a, y) ∉ d := fun y hy => h.1 (List.mem_map.2 ⟨_, hy, rfl⟩)
      simp only [List.mem_cons, Prod.mk.injEq]
      constructor
      · rintro (g | g)
        · exact .inl g
        · exact .inr ⟨fun e => this y (e ▸ g), .inr g⟩
      · rintro (g | ⟨g1, g | g⟩)
        · exact .inl g
        · exact absurd g.1 g1
        · exact .inr g
    · simp only [List.mem_cons, ih h.2, Prod.mk.injEq]
      constructor
      · rintro (⟨rfl, rfl⟩ | g | g)
        · exact .inr ⟨e, .inl ⟨rfl, rfl⟩⟩
        · exact .inl g
        · exact .inr ⟨g.1, .inr g.2⟩
      · rintro (g | ⟨g1, g | g⟩)
        · exact .inr (.inl g)
        · exact .inl g
        · exact .inr (.inr ⟨g1, g⟩)

/-- the last option of a kind for `k` in a list gives `v` -/
def LastGives {κ ν : Type} (G : Entry → κ → ν → Prop) (l : List Entry) (k : κ) (v : ν) : Prop :=
  ∃ l1 e l2, l = l1 ++ e :: l2 ∧ G e k v ∧ ∀ e' ∈ l2, ∀ v', ¬ G e' k v'

theorem parse_last {κ ν : Type} [DecidableEq κ] {S : Str} (F : Args → List (κ × ν)) (G : Entry → κ → ν → Prop)
    (step : ∀ a a' e, parseOne S a e = .ok a' →
      (∃ k v, G e k v ∧ (∀ k' v', G e k' v' → k' = k ∧ v' = v) ∧ F a' = dictSet k v (F a)) ∨ ((∀ k v, ¬ G e k v) ∧ F a' = F a)) :
    ∀ (l : List Entry) (a0 a : Args), parseAll S a0 l = .ok a → ((F a0).map Prod.fst).Nodup →
      ((F a).map Prod.fst).Nodup ∧
      ∀ k v, (k, v) ∈ F a ↔ LastGives G l k v ∨ ((k, v) ∈ F a0 ∧ ∀ e ∈ l, ∀ v', ¬ G e k v') := by
  intro l
  induction l with
  | nil =>
    intro a0 a h hn
    cases h
    refine ⟨hn, fun k v => ⟨fun h => .inr ⟨h, by simp⟩, ?_⟩⟩
    rintro (⟨l1, e, l2, h, -⟩ | h)
    · simp at h
    · exact h.1
  | cons e l ih =>
    intro a0 a h hn
    simp only [parseAll] at h
    cases h1 : parseOne S a0 e with
    | error x => simp [h1] at h
    | ok a1 =>
      simp only [h1] at h
      have cons : ∀ k v, LastGives G (e :: l) k v ↔ LastGives G l k v ∨ (G e k v ∧ ∀ e' ∈ l, ∀ v', ¬ G e' k v') := by
        intro k v
        constructor
        · rintro ⟨l1, x, l2, hl, hx, hx'⟩
          cases l1 with
          | nil => rw [List.nil_append, List.cons.injEq] at hl; obtain ⟨rfl, rfl⟩ := hl; exact .inr ⟨hx, hx'⟩
          | cons y l1 => rw [List.cons_append, List.cons.injEq] at hl; exact .inl ⟨l1, x, l2, hl.2, hx, hx'⟩
        · rintro (⟨l1, x, l2, hl, hx, hx'⟩ | ⟨hx, hx'⟩)
          · exact ⟨e :: l1, x, l2, by rw [hl]; rfl, hx, hx'⟩
          · exact ⟨[], e, l, rfl, hx, hx'⟩
      rcases step a0 a1 e h1 with ⟨k0, v0, g1, g2, g3⟩ | ⟨g1, g2⟩
      · obtain ⟨i1, i2⟩ := ih a1 a h (by rw [g3]; exact dictSet_nodup _ _ _ hn)
        refine ⟨i1, fun k v => ?_⟩
        rw [i2, g3, mem_dictSet _ _ _ hn, cons, List.forall_mem_cons]
        constructor
        · rintro (h | ⟨⟨rfl, rfl⟩ | ⟨hk, hm⟩, hl⟩)
          · exact .inl (.inl h)
          · exact .inl (.inr ⟨g1, hl⟩)
          · exact .inr ⟨hm, fun v' hv => hk (g2 _ _ hv).1, hl⟩
        · rintro ((h | ⟨hg, hl⟩) | ⟨hm, hv, hl⟩)
          · exact .inl h
          · exact .inr ⟨.inl (g2 _ _ hg), hl⟩
          · exact .inr ⟨.inr ⟨fun e => hv v0 (e ▸ g1), hm⟩, hl⟩
      · obtain ⟨i1, i2⟩ := ih a1 a h (by rw [g2]; exact hn)
        refine ⟨i1, fun k v => ?_⟩
        rw [i2, g2, cons, List.forall_mem_cons]
        constructor
        · rintro (h | ⟨hm, hl⟩)
          · exact .inl (.inl h)
          · exact .inr ⟨hm, g1 k, hl⟩
        · rintro ((h | ⟨hg, -⟩) | ⟨hm, -, hl⟩)
          · exact .inl h
          · exact absurd hg (g1 k v)
          · exact .inr ⟨hm, hl⟩

/-- `cut_bin_<statistic> = 1 2 …` -/
def GivesBins (S : Str) (e : Entry) (t : String) (r : List ℤ) : Prop :=
  contains "cut" "bin" e.key = true ∧ contains "cut" "pair" e.key = false ∧ e.key ≠ ["use", "stats"] ∧ e.key ≠ ["cut", "cross"] ∧
    tagOf S e.key = .ok t ∧ intsOf S e.words = .ok r

/-- an option `keep_ang_…` that is none of the options before -/
def KeepsAngles (e : Entry) : Prop :=
  contains "keep" "ang" e.key = true ∧ contains "cut" "bin" e.key = false ∧ contains "cut" "pair" e.key = false ∧
    e.key ≠ ["use", "stats"] ∧ e.key ≠ ["cut", "cross"]

/-- `keep_ang_<statistic> = low high` -/
def GivesScale (S : Str) (e : Entry) (t : String) (r : ℝ × ℝ) : Prop :=
  KeepsAngles e ∧ e.key.length < 4 ∧ tagOf S e.key = .ok t ∧ floatAt S e.words 0 = .ok r.1 ∧ floatAt S e.words 1 = .ok r.2

/-- `keep_ang_<statistic>_<i>_<j> = low high` -/
def GivesRange (S : Str) (e : Entry) (k : String × ℤ × ℤ) (r : ℝ × ℝ) : Prop :=
  KeepsAngles e ∧ 4 < e.key.length ∧ tagOf S e.key = .ok k.1 ∧ intAt S e.key 3 = .ok k.2.1 ∧ intAt S e.key 4 = .ok k.2.2 ∧
    floatAt S e.words 0 = .ok r.1 ∧ floatAt S e.words 1 = .ok r.2

theorem step_bins {S : Str} (a a' : Args) (e : Entry) (h : parseOne S a e = .ok a') :
    (∃ k v, GivesBins S e k v ∧ (∀ k' v', GivesBins S e k' v' → k' = k ∧ v' = v) ∧ a'.bins = dictSet k v a.bins) ∨
      ((∀ k v, ¬ GivesBins S e k v) ∧ a'.bins = a.bins) := by
  unfold parseOne at h
  split_ifs at h with h1 h2 h3 h4 h5 h6
  · cases h; exact .inr ⟨fun k v g => g.2.2.1 h1, rfl⟩
  · cases h; exact .inr ⟨fun k v g => g.2.2.2.1 h2, rfl⟩
  · refine .inr ⟨fun k v g => by simp [g.2.1] at h3, ?_⟩
    simp only [bind, Except.bind] at h
    split at h <;> (try split at h) <;> first | cases h; rfl | cases h
  · cases h7 : tagOf S e.key with
    | error x => simp [h7, bind, Except.bind] at h
    | ok t => cases h8 : intsOf S e.words with
      | error x => simp [h7, h8, bind, Except.bind] at h
      | ok r =>
        simp only [h7, h8, bind, Except.bind, Except.ok.injEq] at h
        subst h
        refine .inl ⟨t, r, ⟨h4, by simpa using h3, h1, h2, h7, h8⟩, fun k' v' g => ?_, rfl⟩
        have e1 := g.2.2.2.2.1
        have e2 := g.2.2.2.2.2
        rw [h7] at e1
        rw [h8] at e2
        exact ⟨(Except.ok.inj e1).symm, (Except.ok.inj e2).symm⟩
  all_goals refine .inr ⟨fun k v g => h4 g.1, ?_⟩
  · simp only [bind, Except.bind] at h
    repeat' split at h
    all_goals first | cases h; rfl | cases h
  · simp only [bind, Except.bind] at h
    repeat' split at h
    all_goals first | cases h; rfl | cases h
  · cases h; rfl

theorem step_ranges {S : Str} (a a' : Args) (e : Entry) (h : parseOne S a e = .ok a') :
    (∃ k v, GivesRange S e k v ∧ (∀ k' v', GivesRange S e k' v' → k' = k ∧ v' = v) ∧ a'.ranges = dictSet k v a.ranges) ∨
      ((∀ k v, ¬ GivesRange S e k v) ∧ a'.ranges = a.ranges) := by
  unfold parseOne at h
  split_ifs at h with h1 h2 h3 h4 h5 h6
  · cases h; exact .inr ⟨fun k v g => g.1.2.2.2.1 h1, rfl⟩
  · cases h; exact .inr ⟨fun k v g => g.1.2.2.2.2 h2, rfl⟩
  · refine .inr ⟨fun k v g => by simp [g.1.2.2.1] at h3, ?_⟩
    simp only [bind, Except.bind] at h
    repeat' split at h
    all_goals first | cases h; rfl | cases h
  · refine .inr ⟨fun k v g => by simp [g.1.2.1] at h4, ?_⟩
    simp only [bind, Except.bind] at h
    repeat' split at h
    all_goals first | cases h; rfl | cases h
  · cases g1 : tagOf S e.key with
    | error x => simp [g1, bind, Except.bind] at h
    | ok t => cases g2 : intAt S e.key 3 with
      | error x => simp [g1, g2, bind, Except.bind] at h
      | ok i => cases g3 : intAt S e.key 4 with
        | error x => simp [g1, g2, g3, bind, Except.bind] at h
        | ok j => cases g4 : floatAt S e.words 0 with
          | error x => simp [g1, g2, g3, g4, bind, Except.bind] at h
          | ok lo => cases g5 : floatAt S e.words 1 with
            | error x => simp [g1, g2, g3, g4, g5, bind, Except.bind] at h
            | ok hi =>
              simp only [g1, g2, g3, g4, g5, bind, Except.bind, Except.ok.injEq] at h
              subst h
              refine .inl ⟨(t, i, j), (lo, hi), ⟨⟨h5.1, by simpa using h4, by simpa using h3, h1, h2⟩, h5.2, g1, g2, g3, g4, g5⟩, ?_, rfl⟩
              rintro ⟨t', i', j'⟩ ⟨lo', hi'⟩ ⟨-, -, e1, e2, e3, e4, e5⟩
              rw [g1] at e1
              rw [g2] at e2
              rw [g3] at e3
              rw [g4] at e4
              rw [g5] at e5
              simp only [Except.ok.injEq] at e1 e2 e3 e4 e5
              simp [e1, e2, e3, e4, e5]
  · refine .inr ⟨fun k v g => h5 ⟨g.1.1, g.2.1⟩, ?_⟩
    simp only [bind, Except.bind] at h
    repeat' split at h
    all_goals first | cases h; rfl | cases h
  · refine .inr ⟨fun k v g => h5 ⟨g.1.1, g.2.1⟩, ?_⟩
    cases h; rfl

theorem step_scales {S : Str} (a a' : Args) (e : Entry) (h : parseOne S a e = .ok a') :
    (∃ k v, GivesScale S e k v ∧ (∀ k' v', GivesScale S e k' v' → k' = k ∧ v' = v) ∧ a'.scales = dictSet k v a.scales) ∨
      ((∀ k v, ¬ GivesScale S e k v) ∧ a'.scales = a.scales) := by
  unfold parseOne at h
  split_ifs at h with h1 h2 h3 h4 h5 h6
  · cases h; exact .inr ⟨fun k v g => g.1.2.2.2.1 h1, rfl⟩
  · cases h; exact .inr ⟨fun k v g => g.1.2.2.2.2 h2, rfl⟩
  · refine .inr ⟨fun k v g => by simp [g.1.2.2.1] at h3, ?_⟩
    simp only [bind, Except.bind] at h
    repeat' split at h
    all_goals first | cases h; rfl | cases h
  · refine .inr ⟨fun k v g => by simp [g.1.2.1] at h4, ?_⟩
    simp only [bind, Except.bind] at h
    repeat' split at h
    all_goals first | cases h; rfl | cases h
  · refine .inr ⟨fun k v g => by have := g.2.1; omega, ?_⟩
    simp only [bind, Except.bind] at h
    repeat' split at h
    all_goals first | cases h; rfl | cases h
  · cases g1 : tagOf S e.key with
    | error x => simp [g1, bind, Except.bind] at h
    | ok t => cases g4 : floatAt S e.words 0 with
      | error x => simp [g1, g4, bind, Except.bind] at h
      | ok lo => cases g5 : floatAt S e.words 1 with
        | error x => simp [g1, g4, g5, bind, Except.bind] at h
        | ok hi =>
          simp only [g1, g4, g5, bind, Except.bind, Except.ok.injEq] at h
          subst h
          refine .inl ⟨t, (lo, hi), ⟨⟨h6.1, by simpa using h4, by simpa using h3, h1, h2⟩, h6.2, g1, g4, g5⟩, ?_, rfl⟩
          rintro t' ⟨lo', hi'⟩ ⟨-, -, e1, e4, e5⟩
          rw [g1] at e1
          rw [g4] at e4
          rw [g5] at e5
          simp only [Except.ok.injEq] at e1 e4 e5
          simp [e1, e4, e5]
  · refine .inr ⟨fun k v g => h6 ⟨g.1.1, g.2.1⟩, ?_⟩
    cases h; rfl

/-- C123: for the bins to cut, the angles to keep of a statistic and those of a pair of bins the last option for the same statistic (and
pair) counts; a statistic is listed once. -/
theorem C123_last_option {S : Str} {l : List Entry} {a : Args} (h : parse S l = .ok a) :
    ((a.bins.map Prod.fst).Nodup ∧ ∀ t r, (t, r) ∈ a.bins ↔ LastGives (GivesBins S) l t r) ∧
    ((a.ranges.map Prod.fst).Nodup ∧ ∀ k r, (k, r) ∈ a.ranges ↔ LastGives (GivesRange S) l k r) ∧
    ((a.scales.map Prod.fst).Nodup ∧ ∀ t r, (t, r) ∈ a.scales ↔ LastGives (GivesScale S) l t r) := by
  have A := parse_last (S := S) Args.bins (GivesBins S) step_bins l _ a h (by simp)
  have B := parse_last (S := S) Args.ranges (GivesRange S) step_ranges l _ a h (by simp)
  have C := parse_last (S := S) Args.scales (GivesScale S) step_scales l _ a h (by simp)
  exact ⟨⟨A.1, fun t r => by simpa using A.2 t r⟩, ⟨B.1, fun k r => by simpa using B.2 k r⟩, ⟨C.1, fun t r => by simpa using C.2 t r⟩⟩

/-- the bins of one statistic given twice: the second counts -/
example : ∃ a, parse ⟨fun w => if w = "1" then some 1 else if w = "2" then some 2 else none, fun _ => none, fun w => [w], some⟩
      [⟨["cut", "bin", "xip"], false, ["1"]⟩, ⟨["cut", "bin", "xip"], false, ["2"]⟩] = .ok a ∧ ("xip", [2]) ∈ a.bins := by
  have h1 : contains "cut" "bin" ["cut", "bin", "xip"] = true := by decide
  have h2 : contains "cut" "pair" ["cut", "bin", "xip"] = false := by decide
  have h : ∃ a, parse ⟨fun w => if w = "1" then some 1 else if w = "2" then some 2 else none, fun _ => none, fun w => [w], some⟩
      [⟨["cut", "bin", "xip"], false, ["1"]⟩, ⟨["cut", "bin", "xip"], false, ["2"]⟩] = .ok a := by
    simp [parse, parseAll, parseOne, h1, h2, tagOf, intsOf, bind, Except.bind]
  obtain ⟨a, ha⟩ := h
  exact ⟨a, ha, ((C123_last_option ha).1.2 _ _).2 ⟨[⟨["cut", "bin", "xip"], false, ["1"]⟩], ⟨["cut", "bin", "xip"], false, ["2"]⟩, [],
    rfl, ⟨h1, h2, by decide, by decide, rfl, by simp [intsOf]⟩, by simp⟩⟩

example : ∃ v r r', replaceMean [[1, 2]] [[[3], [4]], [[5], [6]]] [7, 8, 9, 10, 11, 12] = .ok (v, [r :: [[4]], [5] :: r' :: []]) ∧
    v.flatten ++ (r ++ r') = [7, 8, 9, 10, 11, 12] := by
  obtain ⟨v, r, r', h1, h2, -⟩ := (C123_mock_two [[1, 2]] [3] [5] [[4]] [7, 8, 9, 10, 11, 12]).2 [6] [] (by simp)
  exact ⟨v, r, r', h1, h2⟩

end Verif.ScaleCuts

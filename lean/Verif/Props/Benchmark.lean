import Verif.Model.Benchmark
import Verif.Props.PkInl
import Verif.Props.Convergence

/-! Property C132: the benchmarks change the parameters they share, and the trapezoidal class tends to the same integrals. -/

namespace Verif.Benchmark

open Verif.Lib Verif.Spec Filter Topology Set MeasureTheory

/-! ## The shared parameters -/

variable {V R : Type} [DecidableEq V] (F : Library V R)

/-- the parameters with one of them given a value, everything else as it is: what a user wants the library to be run with -/
def With (q : Quantity) (v : V) (p p' : Params V) : Prop :=
  match q with
  | .mass => p'.hod = p.hod ∧ p'.flat "dlog10m" = some v ∧ ∀ k ≠ "dlog10m", p'.flat k = p.flat k
  | .k => p'.hod = p.hod ∧ p'.flat "dlnk" = some v ∧ ∀ k ≠ "dlnk", p'.flat k = p.flat k
  | .nobs => p'.flat = p.flat ∧ ∃ d d', p.hod = some d ∧ p'.hod = some d' ∧ d' "nobs" = some v ∧
      ∀ k ≠ "nobs", d' k = d k
  | .other => p' = p

/-- two sets of parameters that differ at most in `hod_settings["nobs"]` -/
def SameButNobs (p p' : Params V) : Prop :=
  p'.flat = p.flat ∧ (p' = p ∨ ∃ v, With .nobs v p p')

omit [DecidableEq V] in
theorem modify_spec {q : Quantity} {v : V} {p c p' : Params V} (h : modify q v p = .ok (c, p')) :
    With q v p c ∧ (q ≠ .nobs → p' = p) ∧ (q = .nobs → p' = c) := by
  cases q with
  | mass =>
    simp only [modify, Except.ok.injEq, Prod.mk.injEq] at h
    obtain ⟨rfl, rfl⟩ := h
    exact ⟨⟨rfl, by simp [Dict.set], fun k hk => by simp [Dict.set, hk]⟩, fun _ => rfl, by simp⟩
  | k =>
    simp only [modify, Except.ok.injEq, Prod.mk.injEq] at h
    obtain ⟨rfl, rfl⟩ := h
    exact ⟨⟨rfl, by simp [Dict.set], fun k hk => by simp [Dict.set, hk]⟩, fun _ => rfl, by simp⟩
  | nobs =>
    cases hd : p.hod with
    | none => simp [modify, hd] at h
    | some d =>
      simp only [modify, hd, Except.ok.injEq, Prod.mk.injEq] at h
      obtain ⟨rfl, rfl⟩ := h
      exact ⟨⟨rfl, d, d.set "nobs" v, hd, rfl, by simp [Dict.set], fun k hk => by simp [Dict.set, hk]⟩, by simp, fun _ => rfl⟩
  | other =>
    simp only [modify, Except.ok.injEq, Prod.mk.injEq] at h
    obtain ⟨rfl, rfl⟩ := h
    exact ⟨rfl, fun _ => rfl, by simp⟩

omit [DecidableEq V] in
theorem With.unique {q : Quantity} {v : V} {p a b : Params V} (ha : With q v p a) (hb : With q v p b) : a = b := by
  obtain ⟨af, ah⟩ := a
  obtain ⟨bf, bh⟩ := b
  cases q with
  | mass =>
    obtain ⟨h1, h2, h3⟩ := ha
    obtain ⟨g1, g2, g3⟩ := hb
    simp only at h1 h2 h3 g1 g2 g3
    simp only [Params.mk.injEq, h1, g1, and_true]
    funext x
    by_cases hx : x = "dlog10m"
    · rw [hx]; exact h2.trans g2.symm
    · rw [h3 x hx, g3 x hx]
  | k =>
    obtain ⟨h1, h2, h3⟩ := ha
    obtain ⟨g1, g2, g3⟩ := hb
    simp only at h1 h2 h3 g1 g2 g3
    simp only [Params.mk.injEq, h1, g1, and_true]
    funext x
    by_cases hx : x = "dlnk"
    · rw [hx]; exact h2.trans g2.symm
    · rw [h3 x hx, g3 x hx]
  | nobs =>
    obtain ⟨h1, d, d1, hd, h2, h3, h4⟩ := ha
    obtain ⟨g1, d', d2, hd', g2, g3, g4⟩ := hb
    simp only at h1 h2 h3 h4 g1 g2 g3 g4
    obtain rfl : d = d' := by simpa [hd] using hd'
    simp only [Params.mk.injEq, h1, g1, h2, g2, true_and, Option.some.injEq]
    funext x
    by_cases hx : x = "nobs"
    · rw [hx, h3, g3]
    · rw [h4 x hx, g4 x hx]
  | other => exact Eq.trans ha hb.symm

omit [DecidableEq V] in
theorem With.trans {v w : V} {p a b : Params V} (ha : With .nobs v p a) (hb : With .nobs w a b) : With .nobs w p b := by
  obtain ⟨h1, d, d1, hd, h2, h3, h4⟩ := ha
  obtain ⟨g1, d', d2, hd', g2, g3, g4⟩ := hb
  obtain rfl : d1 = d' := by simpa [h2] using hd'
  exact ⟨g1.trans h1, d, d2, hd, g2, g3, fun k hk => (g4 k hk).trans (h4 k hk)⟩

theorem lookup_put {K E : Type} [DecidableEq K] (k k' : K) (e : E) (l : List (K × E)) :
    lookup k (put k' e l) = if k = k' then some e else lookup k l := by
  induction l with
  | nil => simp [put, lookup, eq_comm]
  | cons a l ih =>
    obtain ⟨a, x⟩ := a
    by_cases h : a = k'
    · subst h
      by_cases h2 : k = a
      · subst h2; simp [put, lookup]
      · simp [put, lookup, h2, Ne.symm h2]
    · by_cases h2 : a = k
      · subst h2; simp [put, lookup, h]
      · simp [put, lookup, h, h2, ih]

/-- the loop when the quantity is not `nobs` -/
theorem loop_clean {q : Quantity} (hq : q ≠ .nobs) (types : List String) (vs : List V) (p : Params V) :
    ∀ acc, (testLoop F q types vs acc p).1 = p := by
  induction vs with
  | nil => intro acc; rfl
  | cons v vs ih =>
    intro acc
    simp only [testLoop]
    cases h : modify q v p with
    | error e => rfl
    | ok r =>
      obtain ⟨c, p'⟩ := r
      obtain rfl := (modify_spec h).2.1 hq
      simp only
      cases valueResults F q types c with
      | error e => rfl
      | ok r => exact ih _

/-- the loop when the quantity is `nobs` -/
theorem loop_nobs (types : List String) (vs : List V) : ∀ (p : Params V) acc,
    let r := testLoop F .nobs types vs acc p
    (r.1 = p ∧ (r.2.isOk = true → vs = [])) ∨
      ∃ l v, l ++ [v] <+: vs ∧ With .nobs v p r.1 ∧ (r.2.isOk = true → vs = l ++ [v]) := by
  induction vs with
  | nil => intro p acc; left; simp [testLoop]
  | cons v vs ih =>
    intro p acc
    simp only [testLoop]
    cases h : modify Quantity.nobs v p with
    | error e => left; simp [Except.isOk, Except.toBool]
    | ok r =>
      obtain ⟨c, p'⟩ := r
      obtain ⟨hw, -, hc⟩ := modify_spec h
      obtain rfl := hc rfl
      simp only
      cases hv : valueResults F .nobs types p' with
      | error e => right; exact ⟨[], v, by simp, hw, by simp [Except.isOk, Except.toBool]⟩
      | ok r =>
        simp only
        rcases ih p' (put v r acc) with ⟨h1, h2⟩ | ⟨l, w, h1, h2, h3⟩
        · right
          refine ⟨[], v, by simp, by rw [h1]; exact hw, fun h => by rw [h2 h]; rfl⟩
        · right
          refine ⟨v :: l, w, ?_, hw.trans h2, fun h => by rw [h3 h]; rfl⟩
          rw [List.cons_append]
          exact List.prefix_cons_inj v |>.2 h1

/-- C132: testing the mass or wavenumber resolution leaves the parameters of the benchmark as they were, also if the library raises
half way -/
theorem C132_clean {q : Quantity} (hq : q ≠ .nobs) (types : List String) (vs : List V) (p : Params V) :
    (testConvergence F q types vs p).1 = p := loop_clean F hq types vs p []

/-- C132: testing the resolution in the observable changes the parameters of the benchmark for good: afterwards `nobs` is the last
value that was tried (the last of the list, if the library never raised), not the value the benchmark was set up with -/
theorem C132_nobs_stays (types : List String) (vs : List V) (p : Params V) :
    let r := testConvergence F .nobs types vs p
    (r.1 = p ∧ (r.2.isOk = true → vs = [])) ∨
      ∃ l v, l ++ [v] <+: vs ∧ With .nobs v p r.1 ∧ (r.2.isOk = true → vs = l ++ [v]) :=
  loop_nobs F types vs p []

/-- the values of `nobs` tried in a session -/
def tried : List (Act V) → List V
  | [] => []
  | .test .nobs _ vs :: h => vs ++ tried h
  | _ :: h => tried h

/-- C132: whatever is done with a benchmark, its parameters stay as they were except for `nobs`, which is the original value or one
of those tried; a session without tests of `nobs` changes nothing -/
theorem C132_session (h : List (Act V)) (p : Params V) :
    session F p h = p ∨ ∃ v ∈ tried h, With .nobs v p (session F p h) := by
  induction h generalizing p with
  | nil => left; rfl
  | cons a h ih =>
    have key : ∀ t : List V, (after F p a = p ∨ ∃ v ∈ t, With .nobs v p (after F p a)) → (∀ v ∈ t, v ∈ tried (a :: h)) →
        (∀ v ∈ tried h, v ∈ tried (a :: h)) →
        session F p (a :: h) = p ∨ ∃ v ∈ tried (a :: h), With .nobs v p (session F p (a :: h)) := by
      intro t ht h1 h2
      change session F (after F p a) h = p ∨ ∃ v ∈ tried (a :: h), With .nobs v p (session F (after F p a) h)
      rcases ih (after F p a) with e | ⟨w, hw, e⟩ <;> rcases ht with g | ⟨v, hv, g⟩
      · left; rw [e, g]
      · right; exact ⟨v, h1 v hv, by rw [e]; exact g⟩
      · right; exact ⟨w, h2 w hw, by rw [g] at e ⊢; exact e⟩
      · right; exact ⟨w, h2 w hw, g.trans e⟩
    cases a with
    | create c => exact key [] (.inl rfl) (by simp) fun v hv => hv
    | test q types vs =>
      by_cases hq : q = .nobs
      · subst hq
        refine key vs ?_ (fun v hv => by simp [tried, hv]) (fun v hv => by simp [tried, hv])
        rcases C132_nobs_stays F types vs p with ⟨h1, -⟩ | ⟨l, v, h1, h2, -⟩
        · exact .inl h1
        · exact .inr ⟨v, h1.subset (by simp), h2⟩
      · refine key [] (.inl (C132_clean F hq types vs p)) (by simp) fun v hv => ?_
        cases q <;> simp_all [tried]

theorem loop_results {q : Quantity} (types : List String) (vs : List V) : ∀ (p p0 : Params V) acc res p',
    (p = p0 ∨ q = .nobs ∧ ∃ v, With .nobs v p0 p) → testLoop F q types vs acc p = (p', .ok res) →
    ∀ v, (v ∈ vs → ∃ c e, With q v p0 c ∧ valueResults F q types c = .ok e ∧ lookup v res = some e) ∧
      (v ∉ vs → lookup v res = lookup v acc) := by
  induction vs with
  | nil =>
    intro p p0 acc res p' _ h v
    simp only [testLoop, Prod.mk.injEq, Except.ok.injEq] at h
    simp [h.2]
  | cons w vs ih =>
    intro p p0 acc res p' hp h v
    simp only [testLoop] at h
    cases hm : modify q w p with
    | error e => simp [hm] at h
    | ok r =>
      obtain ⟨c, p1⟩ := r
      simp only [hm] at h
      obtain ⟨hw, hc1, hc2⟩ := modify_spec hm
      have hwc : With q w p0 c := by
        rcases hp with rfl | ⟨rfl, x, hx⟩
        · exact hw
        · exact hx.trans hw
      cases hv : valueResults F q types c with
      | error e => simp [hv] at h
      | ok r =>
        simp only [hv] at h
        have hp1 : p1 = p0 ∨ q = .nobs ∧ ∃ v, With .nobs v p0 p1 := by
          by_cases hq : q = .nobs
          · subst hq
            rw [hc2 rfl]
            exact .inr ⟨rfl, w, hwc⟩
          · rw [hc1 hq]
            rcases hp with rfl | ⟨h, -⟩
            · exact .inl rfl
            · exact absurd h hq
        obtain ⟨i1, i2⟩ := ih p1 p0 (put w r acc) res p' hp1 h v
        refine ⟨fun hmem => ?_, fun hmem => ?_⟩
        · by_cases hin : v ∈ vs
          · exact i1 hin
          · obtain rfl : v = w := by simpa [hin] using hmem
            exact ⟨c, r, hwc, hv, by rw [i2 hin, lookup_put, if_pos rfl]⟩
        · rw [List.mem_cons, not_or] at hmem
          rw [i2 hmem.2, lookup_put, if_neg hmem.1]

/-- C132: what a test returns for a value is what the library gives for the parameters with this value and nothing else changed:
neither the order of the values nor the other values matter -/
theorem C132_results {q : Quantity} {types : List String} {vs : List V} {p p' : Params V}
    {res : List (V × List (String × Entry V R))} (h : testConvergence F q types vs p = (p', .ok res)) (v : V) :
    (v ∈ vs → ∃ c, With q v p c ∧ ∃ e, valueResults F q types c = .ok e ∧ lookup v res = some e) ∧
      (v ∉ vs → lookup v res = none) := by
  obtain ⟨h1, h2⟩ := loop_results F types vs p p [] res p' (.inl rfl) h v
  refine ⟨fun hv => ?_, fun hv => h2 hv⟩
  obtain ⟨c, e, a, b, d⟩ := h1 hv
  exact ⟨c, a, e, b, d⟩

omit [DecidableEq V] in
private theorem mem_put {K E : Type} [DecidableEq K] (k : K) (e : E) (l : List (K × E)) :
    (∀ x ∈ put k e l, x = (k, e) ∨ x ∈ l) ∧ (k, e) ∈ put k e l ∧ ∀ x ∈ l, x.1 ≠ k → x ∈ put k e l := by
  induction l with
  | nil => simp [put]
  | cons a l ih =>
    obtain ⟨k', e'⟩ := a
    unfold put
    split_ifs with h
    · subst h
      refine ⟨fun x hx => ?_, by simp, fun x hx hk => ?_⟩
      · rcases List.mem_cons.1 hx with h | h
        · exact .inl h
        · exact .inr (List.mem_cons_of_mem _ h)
      · rcases List.mem_cons.1 hx with rfl | h
        · exact absurd rfl hk
        · exact List.mem_cons_of_mem _ h
    · refine ⟨fun x hx => ?_, List.mem_cons_of_mem _ ih.2.1, fun x hx hk => ?_⟩
      · rcases List.mem_cons.1 hx with rfl | h
        · exact .inr List.mem_cons_self
        · rcases ih.1 x h with g | g
          · exact .inl g
          · exact .inr (List.mem_cons_of_mem _ g)
      · rcases List.mem_cons.1 hx with rfl | h
        · exact List.mem_cons_self
        · exact List.mem_cons_of_mem _ (ih.2.2 x h hk)

/-- what is noted beside a spectrum: the parameter that is varied, with the value it has -/
def NotedOf (q : Quantity) (v : V) : Option (String × V) → Prop
  | none => q = .nobs ∨ q = .other
  | some (n, w) => w = v ∧ ((q = .mass ∧ n = "dlog10m") ∨ (q = .k ∧ n = "dlnk"))

omit [DecidableEq V] in
private theorem entry_of {q : Quantity} {s : Spectra R} {v : V} {p c : Params V} (hc : With q v p c) {t : String}
    {e : Entry V R} (h : spectrumEntry q s c t = .ok e) : getPowerSpectrum s t = .ok e.data ∧ NotedOf q v e.noted := by
  unfold spectrumEntry at h
  cases hg : getPowerSpectrum s t with
  | error x => rw [hg] at h; simp [Bind.bind, Except.bind] at h
  | ok r =>
    rw [hg] at h
    cases q with
    | mass =>
      obtain ⟨-, h2, -⟩ := hc
      simp only [Bind.bind, Except.bind, get, h2, Except.ok.injEq] at h
      subst h
      exact ⟨rfl, rfl, .inl ⟨rfl, rfl⟩⟩
    | k =>
      obtain ⟨-, h2, -⟩ := hc
      simp only [Bind.bind, Except.bind, get, h2, Except.ok.injEq] at h
      subst h
      exact ⟨rfl, rfl, .inr ⟨rfl, rfl⟩⟩
    | nobs =>
      simp only [Bind.bind, Except.bind, Except.ok.injEq] at h
      subst h
      exact ⟨rfl, .inl rfl⟩
    | other =>
      simp only [Bind.bind, Except.bind, Except.ok.injEq] at h
      subst h
      exact ⟨rfl, .inr rfl⟩

omit [DecidableEq V] in
private theorem entries_of {q : Quantity} {s : Spectra R} {v : V} {p c : Params V} (hc : With q v p c) (types : List String)
    (acc e : List (String × Entry V R)) (h : spectraEntries q s c types acc = .ok e)
    (ha : ∀ x ∈ acc, getPowerSpectrum s x.1 = .ok x.2.data ∧ NotedOf q v x.2.noted) :
    (∀ x ∈ e, getPowerSpectrum s x.1 = .ok x.2.data ∧ NotedOf q v x.2.noted) ∧
      (∀ t, (t ∈ types ∨ ∃ x ∈ acc, x.1 = t) → ∃ x ∈ e, x.1 = t) ∧ ∀ x ∈ e, x.1 ∈ types ∨ ∃ y ∈ acc, y.1 = x.1 := by
  induction types generalizing acc with
  | nil =>
    simp only [spectraEntries, Except.ok.injEq] at h
    subst h
    exact ⟨ha, fun t ht => by simpa using ht, fun x hx => .inr ⟨x, hx, rfl⟩⟩
  | cons t ts ih =>
    unfold spectraEntries at h
    cases he : spectrumEntry q s c t with
    | error x => rw [he] at h; simp [Bind.bind, Except.bind] at h
    | ok w =>
      rw [he] at h
      simp only [Bind.bind, Except.bind] at h
      have hw := entry_of hc he
      obtain ⟨m1, m2, m3⟩ := mem_put t w acc
      obtain ⟨i1, i2, i3⟩ := ih (put t w acc) h fun x hx => by
        rcases m1 x hx with rfl | g
        · exact hw
        · exact ha x g
      refine ⟨i1, fun t' ht' => i2 t' ?_, fun x hx => ?_⟩
      · by_cases e : t' = t
        · exact .inr ⟨_, m2, e.symm⟩
        · rcases ht' with g | ⟨x, hx, g⟩
          · rcases List.mem_cons.1 g with g | g
            · exact absurd g e
            · exact .inl g
          · exact .inr ⟨x, m3 x hx (by rw [g]; exact e), g⟩
      · rcases i3 x hx with g | ⟨y, hy, g⟩
        · exact .inl (List.mem_cons_of_mem _ g)
        · rcases m1 y hy with rfl | g'
          · left; rw [← g]; exact List.mem_cons_self
          · exact .inr ⟨y, g', g⟩

omit [DecidableEq V] in
private theorem spectrum_named {s : Spectra R} {t : String} {r : R} (h : getPowerSpectrum s t = .ok r) :
    (t = "mm" → s.mm = .ok r) ∧ (t = "gg" → s.gg = .ok r) ∧ (t = "gm" → s.gm = .ok r) := by
  obtain ⟨a, b, d, _, _⟩ := s
  refine ⟨fun g => ?_, fun g => ?_, fun g => ?_⟩ <;> subst g <;> cases a <;> cases b <;> cases d <;>
    simp_all [getPowerSpectrum, Bind.bind, Except.bind]

/-- C132: the spectra collected for a value are those asked for, each the one of its name from the library, and what is noted beside
them is the resolution that was varied, with the value it was given -/
theorem C132_noted {q : Quantity} {types : List String} {vs : List V} {p p' : Params V}
    {res : List (V × List (String × Entry V R))} (h : testConvergence F q types vs p = (p', .ok res)) (hs : "smf" ∉ types)
    (hh : "hod" ∉ types) (v : V) (hv : v ∈ vs) :
    ∃ c s e, With q v p c ∧ F c = .ok s ∧ lookup v res = some e ∧ (∀ t, t ∈ types ↔ ∃ x ∈ e, x.1 = t) ∧
      ∀ x ∈ e, NotedOf q v x.2.noted ∧ (x.1 = "mm" → s.mm = .ok x.2.data) ∧ (x.1 = "gg" → s.gg = .ok x.2.data) ∧
        (x.1 = "gm" → s.gm = .ok x.2.data) := by
  obtain ⟨c, hc, e, he, hl⟩ := (C132_results F h v).1 hv
  unfold valueResults at he
  cases hF : F c with
  | error x => rw [hF] at he; simp [Bind.bind, Except.bind] at he
  | ok s =>
    rw [hF] at he
    simp only [Bind.bind, Except.bind, if_neg hs, if_neg hh] at he
    obtain ⟨a1, a2, a3⟩ := entries_of hc types [] e he (by simp)
    refine ⟨c, s, e, hc, hF, hl, fun t => ⟨fun ht => a2 t (.inl ht), ?_⟩, fun x hx => ⟨(a1 x hx).2, ?_⟩⟩
    · rintro ⟨x, hx, rfl⟩
      rcases a3 x hx with g | ⟨y, hy, -⟩
      · exact g
      · simp at hy
    · exact spectrum_named (a1 x hx).1

private theorem loop_ok {q : Quantity} {types : List String} (p0 : Params V) (hhod : q = .nobs → p0.hod ≠ none)
    (hF : ∀ v c, With q v p0 c → ∃ e, valueResults F q types c = .ok e) (vs : List V) : ∀ p acc,
    (p = p0 ∨ q = .nobs ∧ ∃ v, With .nobs v p0 p) → ∃ r, (testLoop F q types vs acc p).2 = .ok r := by
  induction vs with
  | nil => exact fun p acc _ => ⟨acc, rfl⟩
  | cons w vs ih =>
    intro p acc hp
    have hm : ∃ r, modify q w p = .ok r := by
      cases q
      case nobs =>
        cases hd : p.hod with
        | none =>
          rcases hp with rfl | ⟨-, v, hv⟩
          · exact absurd hd (hhod rfl)
          · obtain ⟨-, d, d', -, h2, -⟩ := hv
            rw [hd] at h2
            exact absurd h2 (by simp)
        | some d => exact ⟨(⟨p.flat, some (d.set "nobs" w)⟩, ⟨p.flat, some (d.set "nobs" w)⟩), by simp only [modify, hd]⟩
      all_goals exact ⟨_, rfl⟩
    obtain ⟨⟨c, p1⟩, hm⟩ := hm
    obtain ⟨hw, hc1, hc2⟩ := modify_spec hm
    have hwc : With q w p0 c := by
      rcases hp with rfl | ⟨rfl, x, hx⟩
      · exact hw
      · exact hx.trans hw
    have hp1 : p1 = p0 ∨ q = .nobs ∧ ∃ v, With .nobs v p0 p1 := by
      by_cases hq : q = .nobs
      · subst hq
        rw [hc2 rfl]
        exact .inr ⟨rfl, w, hwc⟩
      · rw [hc1 hq]
        rcases hp with rfl | ⟨h, -⟩
        · exact .inl rfl
        · exact absurd h hq
    obtain ⟨e, he⟩ := hF w c hwc
    obtain ⟨r, hr⟩ := ih p1 (put w e acc) hp1
    exact ⟨r, by simp only [testLoop, hm, he]; exact hr⟩

/-- C132: the tests of the stellar mass function and of the occupation never fail by themselves: if the library can be run for the
parameters with each value, the test returns, because it has set the entry it later notes -/
theorem C132_named_tests_return (vs : List V) (p : Params V) :
    ((∀ v c, With .mass v p c → ∃ s r, F c = .ok s ∧ s.smf = .ok r) →
        (testConvergence F .mass ["smf"] vs p).2.isOk = true) ∧
      ((p.hod ≠ none ∧ ∀ v c, With .nobs v p c → ∃ s r, F c = .ok s ∧ s.hod = .ok r) →
        (testConvergence F .nobs ["hod"] vs p).2.isOk = true) := by
  refine ⟨fun h => ?_, fun ⟨hh, h⟩ => ?_⟩
  · obtain ⟨r, hr⟩ := loop_ok F (q := .mass) (types := ["smf"]) p (by simp) (fun v c hc => by
      obtain ⟨s, r, h1, h2⟩ := h v c hc
      have : c.flat "dlog10m" = some v := hc.2.1
      exact ⟨[("smf", ⟨r, some ("dlog10m", v)⟩)], by simp [valueResults, h1, h2, Bind.bind, Except.bind, get, this]⟩)
      vs p [] (.inl rfl)
    unfold testConvergence
    rw [hr]; rfl
  · obtain ⟨r, hr⟩ := loop_ok F (q := .nobs) (types := ["hod"]) p (fun _ => hh) (fun v c hc => by
      obtain ⟨s, r, h1, h2⟩ := h v c hc
      obtain ⟨-, d, d', -, g1, g2, -⟩ := hc
      exact ⟨[("hod", ⟨r, some ("nobs", v)⟩)], by simp [valueResults, h1, h2, Bind.bind, Except.bind, get, g1, g2]⟩)
      vs p [] (.inl rfl)
    unfold testConvergence
    rw [hr]; rfl

/-- C132: a stellar mass function asked for in the test of another resolution fails with a `KeyError` after the library has run, if the
benchmark was set up without its own `dlog10m`, although the library has a default for it -/
theorem C132_smf_needs_step (vs : List V) (v : V) (p c : Params V) (s : Spectra R) (r : R) (hp : p.flat "dlog10m" = none)
    (hc : With .k v p c) (hF : F c = .ok s) (hs : s.smf = .ok r) (types : List String) (ht : "smf" ∈ types) :
    (testConvergence F .k types (v :: vs) p).2 = .error .keyError := by
  obtain ⟨⟨c', p'⟩, hm⟩ : ∃ r, modify .k v p = .ok r := ⟨_, rfl⟩
  have hw := (modify_spec hm).1
  have e : c' = c := hw.unique hc
  subst e
  have hk : c'.flat "dlog10m" = none := by
    rw [hw.2.2 "dlog10m" (by decide)]; exact hp
  unfold testConvergence
  simp [testLoop, hm, valueResults, hF, hs, Bind.bind, Except.bind, get, hk, ht]

/-- C132: a test made after others gives what it gives on a new benchmark, provided no test of `nobs` was made before -/
theorem C132_order (h : List (Act V)) (hn : tried h = []) (p : Params V) (q : Quantity) (types : List String) (vs : List V) :
    testConvergence F q types vs (session F p h) = testConvergence F q types vs p := by
  rcases C132_session F h p with e | ⟨v, hv, -⟩
  · rw [e]
  · simp [hn] at hv

/-- C132: after a test of `nobs` that went through, every later test or benchmark file is made with the last of its values: the same
as on a new benchmark set up with this value -/
theorem C132_order_nobs {types : List String} {l : List V} {v : V} {p c : Params V}
    (ok : (testConvergence F .nobs types (l ++ [v]) p).2.isOk = true) (hc : With .nobs v p c) :
    session F p [.test .nobs types (l ++ [v])] = c := by
  rcases C132_nobs_stays F types (l ++ [v]) p with ⟨-, h⟩ | ⟨l', v', -, h2, h3⟩
  · exact absurd (h ok) (by simp)
  · obtain ⟨-, e⟩ := List.append_inj' (h3 ok) rfl
    obtain rfl : v = v' := by simpa using e
    exact h2.unique hc

omit [DecidableEq V] in
/-- C132: asking for the matter spectrum alone needs all three: it is returned exactly if none of them raises -/
theorem C132_all_three (s : Spectra R) (r : R) :
    getPowerSpectrum s "mm" = .ok r ↔ s.mm = .ok r ∧ s.gg.isOk = true ∧ s.gm.isOk = true := by
  obtain ⟨a, b, c, -, -⟩ := s
  cases a <;> cases b <;> cases c <;> simp [getPowerSpectrum, Except.isOk, Except.toBool, Bind.bind, Except.bind]

omit [DecidableEq V] in
/-- C132: the benchmark file holds the three spectra of the library for parameters that are those given where given and those of
the benchmark otherwise; without `precision_params` there is no file -/
theorem C132_create (prec : Option (Params V)) (p high : Params V) (mm gg gm : R) :
    createBenchmark F prec p = .ok (high, mm, gg, gm) ↔
      ∃ c, prec = some c ∧
        (∀ k v, c.flat k = some v → high.flat k = some v) ∧ (∀ k, c.flat k = none → high.flat k = p.flat k) ∧
        (∀ d, c.hod = some d → high.hod = some d) ∧ (c.hod = none → high.hod = p.hod) ∧
        ∃ s, F high = .ok s ∧ s.mm = .ok mm ∧ s.gg = .ok gg ∧ s.gm = .ok gm := by
  cases prec with
  | none => simp [createBenchmark]
  | some c =>
    simp only [createBenchmark, Bind.bind, Except.bind, Option.some.injEq, exists_eq_left']
    set H : Params V := ⟨fun k => (c.flat k).or (p.flat k), c.hod.or p.hod⟩ with hH
    have uniq : ((∀ k v, c.flat k = some v → high.flat k = some v) ∧ (∀ k, c.flat k = none → high.flat k = p.flat k) ∧
        (∀ d, c.hod = some d → high.hod = some d) ∧ (c.hod = none → high.hod = p.hod)) ↔ high = H := by
      constructor
      · rintro ⟨h1, h2, h3, h4⟩
        obtain ⟨hf, hh⟩ := high
        simp only at h1 h2 h3 h4
        rw [hH, Params.mk.injEq]
        constructor
        · funext k
          cases e : c.flat k with
          | none => simp [h2 k e]
          | some v => simp [h1 k v e]
        · cases e : c.hod with
          | none => simp [h4 e]
          | some d => simp [h3 d e]
      · rintro rfl
        refine ⟨fun k v e => by simp [hH, e], fun k e => by simp [hH, e], fun d e => by simp [hH, e], fun e => by simp [hH, e]⟩
    constructor
    · intro h
      cases hF : F H with
      | error e => simp [hF] at h
      | ok s =>
        cases h1 : s.mm <;> cases h2 : s.gg <;> cases h3 : s.gm <;> simp [hF, h1, h2, h3] at h
        obtain ⟨rfl, rfl, rfl, rfl⟩ := h
        obtain ⟨a, b, c, d⟩ := uniq.2 rfl
        exact ⟨a, b, c, d, s, hF, h1, h2, h3⟩
    · rintro ⟨a, b, c, d, s, hs, h1, h2, h3⟩
      obtain rfl := uniq.1 ⟨a, b, c, d⟩
      simp [hs, h1, h2, h3]

/-! ## The trapezoidal rule -/

theorem trapezoid_eq (n : ℕ) (x y : ℕ → ℝ) : trapezoid n x y = trapezoidArea n x y := by
  refine Finset.sum_congr rfl fun i _ => ?_
  ring

/-- if the function changes by at most `ε` on every interval the trapezoidal rule misses the integral by at most `2 ε` per length -/
theorem trapezoid_bound {x : ℕ → ℝ} {f : ℝ → ℝ} {ε : ℝ} {n : ℕ} (hx : ∀ i, i + 1 < n → x i < x (i + 1))
    (hf : ContinuousOn f (Icc (x 0) (x (n - 1))))
    (hs : ∀ i, i + 1 < n → ∀ s ∈ Icc (x i) (x (i + 1)), ∀ t ∈ Icc (x i) (x (i + 1)), |f s - f t| ≤ ε) (hn : n ≠ 0) :
    |trapezoid n x (fun i => f (x i)) - ∫ t in x 0..x (n - 1), f t| ≤ 2 * ε * (x (n - 1) - x 0) := by
  have mono : ∀ i j, i ≤ j → j < n → x i ≤ x j := by
    intro i j hij hj
    induction j, hij using Nat.le_induction with
    | base => exact le_rfl
    | succ j hij ih => exact (ih (by omega)).trans (hx j hj).le
  have hint : ∀ i j, i ≤ j → j < n → IntervalIntegrable f volume (x i) (x j) := by
    intro i j hij hj
    refine (hf.mono ?_).intervalIntegrable_of_Icc (mono i j hij hj)
    exact Icc_subset_Icc (mono 0 i (Nat.zero_le i) (by omega)) (mono j _ (by omega) (by omega))
  have key : ∀ m, m < n →
      |(∑ i ∈ Finset.range m, (x (i + 1) - x i) * (f (x (i + 1)) + f (x i)) / 2) - ∫ t in x 0..x m, f t| ≤ 2 * ε * (x m - x 0) := by
    intro m hm
    induction m with
    | zero => simp
    | succ m ih =>
      have hle := (hx m hm).le
      have i1 := ih (by omega)
      have i2 := integral_bound (c := f (x m)) (ε := ε) hle (hint m (m + 1) (by omega) hm) fun t ht =>
        hs m hm t ht (x m) ⟨le_rfl, hle⟩
      have i3 := hs m hm (x (m + 1)) ⟨hle, le_rfl⟩ (x m) ⟨le_rfl, hle⟩
      rw [Finset.sum_range_succ, ← intervalIntegral.integral_add_adjacent_intervals (hint 0 m (by omega) (by omega))
        (hint m (m + 1) (by omega) hm)]
      have hd : 0 ≤ x (m + 1) - x m := sub_nonneg.2 hle
      rw [abs_le] at i1 i2 i3 ⊢
      constructor <;> nlinarith [mul_nonneg hd (sub_nonneg.2 i3.1), mul_nonneg hd (sub_nonneg.2 i3.2)]
  have := key (n - 1) (by omega)
  exact this

/-- C132: on any increasing grid with steps at most `δ`, the trapezoidal rule misses the integral of a function with Lipschitz
constant `L` by at most `2 L δ` times the length; on the grids of the library Simpson's rule, which the library uses, and the
trapezoidal rule, which the benchmark puts in its place, differ by at most `8 L δ` times the length -/
theorem C132_trapezoid_error {n : ℕ} {x : ℕ → ℝ} {f : ℝ → ℝ} {L δ : ℝ} (hn : n ≠ 0) (hx : ∀ i, i + 1 < n → x i < x (i + 1))
    (hL : 0 ≤ L) (hstep : ∀ i, i + 1 < n → x (i + 1) - x i ≤ δ)
    (hf : ∀ s ∈ Icc (x 0) (x (n - 1)), ∀ t ∈ Icc (x 0) (x (n - 1)), |f s - f t| ≤ L * |s - t|) :
    |trapezoid n x (fun i => f (x i)) - ∫ t in x 0..x (n - 1), f t| ≤ 2 * L * δ * (x (n - 1) - x 0) ∧
      (GentleGrid n x → 0 ≤ δ →
        |simpson n x (fun i => f (x i)) - trapezoid n x (fun i => f (x i))| ≤ 8 * L * δ * (x (n - 1) - x 0)) := by
  have hc : ContinuousOn f (Icc (x 0) (x (n - 1))) := by
    refine (LipschitzOnWith.of_dist_le_mul (K := ⟨L, hL⟩) fun s hs t ht => ?_).continuousOn
    exact hf s hs t ht
  have mono : ∀ i j, i ≤ j → j < n → x i ≤ x j := by
    intro i j hij hj
    induction j, hij using Nat.le_induction with
    | base => exact le_rfl
    | succ j hij ih => exact (ih (by omega)).trans (hx j hj).le
  have h1 : |trapezoid n x (fun i => f (x i)) - ∫ t in x 0..x (n - 1), f t| ≤ 2 * (L * δ) * (x (n - 1) - x 0) := by
    refine trapezoid_bound hx hc (fun i hi s hs t ht => ?_) hn
    have hsub : Icc (x i) (x (i + 1)) ⊆ Icc (x 0) (x (n - 1)) :=
      Icc_subset_Icc (mono 0 i (Nat.zero_le i) (by omega)) (mono _ _ (by omega) (by omega))
    refine (hf s (hsub hs) t (hsub ht)).trans (mul_le_mul_of_nonneg_left ?_ hL)
    have := hstep i hi
    rw [abs_le]
    exact ⟨by linarith [hs.1, ht.2], by linarith [hs.2, ht.1]⟩
  refine ⟨by linarith, fun g hδ => ?_⟩
  have h2 := Convergence.C100_error_bound hn g hδ hL hstep hf
  rw [abs_le] at h1 h2 ⊢
  constructor <;> linarith [h1.1, h1.2, h2.1, h2.2]

/-- the trapezoidal rule converges to the integral -/
theorem trapezoid_converges {ι : Type} {l : Filter ι} {n : ι → ℕ} {x : ι → ℕ → ℝ} {a b : ℝ} {f : ℝ → ℝ}
    (hf : ContinuousOn f (Icc a b)) (hn : ∀ᶠ k in l, n k ≠ 0) (hg : ∀ᶠ k in l, GentleGrid (n k) (x k))
    (h0 : ∀ᶠ k in l, x k 0 = a) (h1 : ∀ᶠ k in l, x k (n k - 1) ≤ b)
    (hlast : Tendsto (fun k => x k (n k - 1)) l (𝓝 b))
    (hmesh : ∀ δ > 0, ∀ᶠ k in l, ∀ i, i + 1 < n k → x k (i + 1) - x k i ≤ δ) :
    Tendsto (fun k => trapezoid (n k) (x k) (fun i => f (x k i))) l (𝓝 (∫ t in a..b, f t)) := by
  rcases l.eq_or_neBot with rfl | hne
  · exact tendsto_bot
  have hab : a ≤ b := by
    refine ge_of_tendsto hlast ?_
    filter_upwards [hn, hg, h0] with k hk gk h0k
    rw [← h0k]
    exact GentleGrid.le gk (Nat.zero_le _) (by omega)
  have hs := Convergence.C100_simpson_converges hf hn hg h0 h1 hlast hmesh
  have hdiff : Tendsto (fun k => trapezoid (n k) (x k) (fun i => f (x k i)) - simpson (n k) (x k) (fun i => f (x k i))) l (𝓝 0) := by
    rw [Metric.tendsto_nhds]
    intro η hη
    have huc : UniformContinuousOn f (Icc a b) := isCompact_Icc.uniformContinuousOn_of_continuous hf
    have hpos : 0 < b - a + 1 := by linarith [sub_nonneg.2 hab]
    have hε : 0 < η / (8 * (b - a + 1)) := by positivity
    obtain ⟨δ, hδ, hu⟩ := Metric.uniformContinuousOn_iff_le.1 huc _ hε
    filter_upwards [hn, hg, h0, h1, hmesh (δ / 3) (by positivity)] with k hk gk h0k h1k hm
    have hsub : Icc (x k 0) (x k (n k - 1)) ⊆ Icc a b := Icc_subset_Icc h0k.ge h1k
    have hb := simpson_bound (ε := η / (8 * (b - a + 1))) hk gk (hf.mono hsub)
      (Convergence.smooth_of_dist gk (by positivity) hm fun s hs t ht hst => hu s (hsub hs) t (hsub ht) (by
        rw [Real.dist_eq]; linarith))
    have ht := trapezoid_bound (ε := η / (8 * (b - a + 1))) (fun i hi => sub_pos.1 (gk.step_pos i hi)) (hf.mono hsub)
      (fun i hi s hs t ht => by
        have hss : Icc (x k i) (x k (i + 1)) ⊆ Icc (x k 0) (x k (n k - 1)) :=
          Icc_subset_Icc (GentleGrid.le gk (Nat.zero_le i) (by omega)) (GentleGrid.le gk (by omega) (by omega))
        refine hu s (hsub (hss hs)) t (hsub (hss ht)) ?_
        have := hm i hi
        rw [Real.dist_eq, abs_le]
        exact ⟨by linarith [hs.1, ht.2], by linarith [hs.2, ht.1]⟩) hk
    rw [h0k] at hb ht
    rw [Real.dist_eq, sub_zero]
    have hlen : x k (n k - 1) - a ≤ b - a := by linarith
    have h2 : 2 * (η / (8 * (b - a + 1))) * (x k (n k - 1) - a) ≤ 2 * (η / (8 * (b - a + 1))) * (b - a) :=
      mul_le_mul_of_nonneg_left hlen (by positivity)
    have h3 : 2 * (η / (8 * (b - a + 1))) * (b - a) < η / 2 := by
      rw [show 2 * (η / (8 * (b - a + 1))) * (b - a) = η / 2 * ((b - a) / (2 * (b - a + 1))) by field_simp; ring]
      have : (b - a) / (2 * (b - a + 1)) < 1 := by rw [div_lt_one (by positivity)]; linarith [sub_nonneg.2 hab]
      nlinarith
    rw [abs_le] at hb ht
    rw [abs_lt]
    constructor <;> linarith [hb.1, hb.2, ht.1, ht.2]
  simpa using hdiff.add hs

/-- C132: on the mass grid of the library the trapezoidal rule converges to the integral from `10^Mmin` to `10^Mmax` as `dlog10m` goes
to zero, the limit Simpson's rule has as well: a difference between the two classes is an effect of the resolution -/
theorem C132_same_limit {lo hi : ℝ} (h : lo < hi) {f : ℝ → ℝ} (hf : ContinuousOn f (Icc ((10 : ℝ) ^ lo) ((10 : ℝ) ^ hi))) :
    Tendsto (fun d => trapezoid (Convergence.arangeLen lo hi d) (Convergence.massGrid lo d) (fun i => f (Convergence.massGrid lo d i)))
        (𝓝[>] 0) (𝓝 (∫ M in (10 : ℝ) ^ lo..(10 : ℝ) ^ hi, f M)) ∧
      Tendsto (fun d => simpson (Convergence.arangeLen lo hi d) (Convergence.massGrid lo d) (fun i => f (Convergence.massGrid lo d i)) -
        trapezoid (Convergence.arangeLen lo hi d) (Convergence.massGrid lo d) (fun i => f (Convergence.massGrid lo d i)))
        (𝓝[>] 0) (𝓝 0) := by
  obtain ⟨h1, h2, h3, h4, h5, h6⟩ := Convergence.massGrid_facts h
  have t := trapezoid_converges hf h1 h2 h3 h4 h5 h6
  refine ⟨t, ?_⟩
  simpa using (Convergence.C100_mass_grid h hf).sub t

/-- C132: the class of the benchmark differs from the library in nothing but the rule: its four integrals are the areas under the
polygons through the integrands of the library -/
theorem C132_integrands (s : Pk.Spectra) (hn : 2 ≤ s.nm) (u v profile : ℕ → ℝ) (z k : ℕ) :
    oneHaloTerm s u v z = s.trapezoidalIntegrator (fun m => u m * v m * s.dndlnm z m / s.mass m) ∧
      computeIm s z k = s.trapezoidalIntegrator (fun m => s.haloBias z m * s.dndlnm z m * s.uDm z k m / s.meanDensity0 z) ∧
      computeIg s profile z = s.trapezoidalIntegrator (fun m => profile m * s.haloBias z m * s.dndlnm z m / s.mass m) ∧
      aValue s z = 1 - s.trapezoidalIntegrator (fun m => s.haloBias z m * s.dndlnm z m / s.meanDensity0 z) := by
  simp only [Pk.C13_trapezoid s hn, oneHaloTerm, computeIm, computeIg, aValue, trapezoid_eq, mul_one_div]
  simp

/-- C132: the correction for the mass below the grid raises `NameError` exactly if it is negative at some redshift, where the library
only warns (`warnings` is not imported) -/
theorem C132_negative_correction (s : Pk.Spectra) (nz : ℕ) :
    (computeA s nz = .error .nameError ↔ ∃ z < nz, aValue s z < 0) ∧
      (∀ a, computeA s nz = .ok a → ∀ z < nz, 0 ≤ a z) := by
  unfold computeA
  constructor
  · split_ifs with h <;> simp [h]
  · intro a ha z hz
    split_ifs at ha with h
    simp only [Except.ok.injEq] at ha
    push Not at h
    rw [← ha]
    exact h z hz

/-- C132: with the trapezoidal rule too, the matter integral is one at the first wavenumber, for every grid (see C01) -/
theorem C132_first_wavenumber (s : Pk.Spectra) (raw : ℕ → ℕ → ℕ → ℝ) (hu : s.uDm = Hmi.uDm raw) (nz z : ℕ)
    (hraw : ∀ m < s.nm, raw z 0 m ≠ 0) (I : ℕ → ℕ → ℝ) (h : imTerm s nz = .ok I) : I z 0 = 1 := by
  have e : I = fun z k => computeIm s z k + aValue s z := by
    simp only [imTerm, computeA, Bind.bind, Except.bind] at h
    split_ifs at h with hz
    simpa using h.symm
  have : computeIm s z 0 = trapezoid s.nm s.mass (fun m => s.haloBias z m * s.dndlnm z m * (1 / s.meanDensity0 z)) := by
    unfold computeIm trapezoid
    refine Finset.sum_congr rfl fun i hi => ?_
    have hi := Finset.mem_range.1 hi
    beta_reduce
    rw [hu, (Pk.C02_profiles_normalised raw z i (hraw i (by omega))).1,
      (Pk.C02_profiles_normalised raw z (i + 1) (hraw (i + 1) (by omega))).1, mul_one, mul_one]
  rw [e]
  simp only [this, aValue]
  ring

/-! ## Examples -/

/-- a library whose every result is `nobs`, and which raises without it -/
def echo : Library ℕ ℕ := fun p =>
  match p.hod with
  | none => .error .keyError
  | some d => match d "nobs" with
    | none => .error .keyError
    | some v => .ok ⟨.ok v, .ok v, .ok v, .ok v, .ok v⟩

/-- a benchmark with `nobs` 300 -/
def start : Params ℕ := ⟨fun k => if k = "dlog10m" then some 5 else none, some fun k => if k = "nobs" then some 300 else none⟩

/-- the number in the results of a test of the mass resolution -/
def massNumber (p : Params ℕ) : Option ℕ :=
  match (testConvergence echo .mass ["mm"] [1] p).2 with
  | .ok r => ((lookup 1 r).bind (lookup "mm")).map Entry.data
  | .error _ => none

-- the same test of the mass resolution gives another result after a test of `nobs` (`C132_order_nobs`)
example : massNumber start = some 300 := by decide
example : massNumber (session echo start [.test .nobs ["hod"] [300, 500]]) = some 500 := by decide
-- but not after tests of the other quantities (`C132_order`)
example : massNumber (session echo start [.test .mass ["smf"] [7], .create none, .test .k ["gg"] [2]]) = some 300 := by decide
-- `C132_nobs_stays`, `C132_results`: the test goes through and gives one entry per value
example : (testConvergence echo .nobs ["hod"] [300, 500] start).2.isOk = true := by decide
example : (match (testConvergence echo .nobs ["hod"] [300, 500, 300] start).2 with
    | .ok r => r.map fun a => (a.1, (lookup "hod" a.2).map Entry.data)
    | .error _ => []) = [(300, some 300), (500, some 500)] := by decide
-- `C132_named_tests_return`, `C132_smf_needs_step`
example : (testConvergence echo .mass ["smf"] [7, 8] start).2.isOk = true := by decide
example : (testConvergence echo .k ["smf"] [7, 8] ⟨fun _ => none, start.hod⟩).2 = .error .keyError :=
  C132_smf_needs_step echo [8] 7 ⟨fun _ => none, start.hod⟩ ⟨fun k => if k = "dlnk" then some 7 else none, start.hod⟩
    ⟨.ok 300, .ok 300, .ok 300, .ok 300, .ok 300⟩ 300 rfl ⟨rfl, rfl, fun _ h => if_neg h⟩ rfl rfl ["smf"] (by simp)
-- `C132_all_three`: the matter spectrum cannot be had if the galaxy spectrum raises
example : getPowerSpectrum (⟨.ok 1, .error .valueError, .ok 2, .ok 3, .ok 4⟩ : Spectra ℕ) "mm" = .error .valueError := rfl
-- `C132_create`
example : (createBenchmark echo (some ⟨fun k => if k = "dlnk" then some 1 else none, none⟩) start).isOk = true := by decide

-- `C132_trapezoid_error` on the grid 0, 1, 2 with the function `t ↦ t`: the rule is exact
example : trapezoid 3 (fun i => i) (fun i => i) = 2 := by
  simp [trapezoid, Finset.sum_range_succ]; norm_num

/-- three masses -/
noncomputable def three (b : ℝ) : Pk.Spectra :=
  { Pk.demo with
    nm := 3, mass := fun i => (i : ℝ) + 1, dndlnm := fun _ _ => 1, haloBias := fun _ _ => b, meanDensity0 := fun _ => 1 }

-- `C132_negative_correction`: both cases occur
example : computeA (three 1) 1 = .error .nameError := by
  rw [(C132_negative_correction _ _).1]
  refine ⟨0, by norm_num, ?_⟩
  norm_num [aValue, trapezoid, three, Finset.sum_range_succ]
example : ∃ a, computeA (three (1 / 4)) 1 = .ok a ∧ a 0 = 1 / 2 := by
  have : ¬ ∃ z < 1, aValue (three (1 / 4)) z < 0 := by
    rintro ⟨z, -, h⟩
    norm_num [aValue, trapezoid, three, Finset.sum_range_succ] at h
  refine ⟨_, by rw [computeA, if_neg this], ?_⟩
  norm_num [aValue, trapezoid, three, Finset.sum_range_succ]
-- `C132_first_wavenumber`
example : ∃ I, imTerm (three (1 / 4)) 1 = .ok I ∧ (three (1 / 4)).uDm = Hmi.uDm Pk.demoRaw ∧ Pk.demoRaw 0 0 1 ≠ 0 := by
  have : ¬ ∃ z < 1, aValue (three (1 / 4)) z < 0 := by
    rintro ⟨z, -, h⟩
    norm_num [aValue, trapezoid, three, Finset.sum_range_succ] at h
  refine ⟨_, by simp only [imTerm, computeA, if_neg this]; rfl, rfl, by simp only [Pk.demoRaw]; positivity⟩

end Verif.Benchmark

import Verif.Model.Add
import Verif.Lemmas.Interp
import Mathlib.Tactic.Linarith
import Mathlib.Tactic.NormNum

/-! Properties C59 - C63: combining two populations, upsampling, frozen values, stored results. -/

namespace Verif.Add

open Verif.Lib Verif.Spec

variable {P : Type} (env : Env P)

/-! ## What a read returns -/

/-- the value a read of `frac_1` returns now -/
noncomputable def effF (s : State P) : Except PyErr Arr :=
  match s.frac1 with
  | some v => .ok v
  | none => frac1Val s.par

/-- the value a read of `power_1` returns now -/
def effP1 (s : State P) : Obj :=
  match s.power1 with
  | some v => v
  | none => match s.par.model with
    | none => env.make s.par.model1
    | some m => m

/-- the value a read of `power_2` returns now -/
def effP2 (s : State P) : Option Obj :=
  match s.power2 with
  | some v => v
  | none => match s.par.model2 with
    | none => none
    | some p2 => some (env.cloneUpdate (effP1 env s) p2)

/-- `s'` is `s` after some reads -/
structure Ext (s s' : State P) : Prop where
  par : s'.par = s.par
  attrs : s'.attrs = s.attrs
  p1 : effP1 env s' = effP1 env s
  p2 : effP2 env s' = effP2 env s
  f : effF s' = effF s
  c1 : ∀ v, s.frac1 = some v → s'.frac1 = some v
  c2 : ∀ v, s.frac2 = some v → s'.frac2 = some v
  c3 : ∀ v, s.power1 = some v → s'.power1 = some v
  c4 : ∀ v, s.power2 = some v → s'.power2 = some v

theorem Ext.refl (s : State P) : Ext env s s :=
  ⟨rfl, rfl, rfl, rfl, rfl, fun _ h => h, fun _ h => h, fun _ h => h, fun _ h => h⟩

theorem Ext.trans {s s' s'' : State P} (h : Ext env s s') (h' : Ext env s' s'') : Ext env s s'' :=
  ⟨h'.par.trans h.par, h'.attrs.trans h.attrs, h'.p1.trans h.p1, h'.p2.trans h.p2, h'.f.trans h.f,
    fun v hv => h'.c1 v (h.c1 v hv), fun v hv => h'.c2 v (h.c2 v hv), fun v hv => h'.c3 v (h.c3 v hv),
    fun v hv => h'.c4 v (h.c4 v hv)⟩

theorem readFrac1_spec (s : State P) : (readFrac1 s).2 = effF s ∧ Ext env s (readFrac1 s).1 ∧
    ∀ v, effF s = .ok v → (readFrac1 s).1.frac1 = some v := by
  unfold readFrac1 effF
  cases h : s.frac1 with
  | some v => exact ⟨rfl, Ext.refl env s, fun w hw => by injection hw with hw; rw [← hw]; exact h⟩
  | none =>
    cases h2 : frac1Val s.par with
    | error e => exact ⟨rfl, Ext.refl env s, fun w hw => by simp at hw⟩
    | ok v =>
      refine ⟨rfl, ⟨rfl, rfl, rfl, rfl, ?_, ?_, fun _ h => h, fun _ h => h, fun _ h => h⟩, ?_⟩
      · simp [effF, h, h2]
      · intro w hw; rw [h] at hw; cases hw
      · intro w hw; injection hw with hw; rw [← hw]

theorem readPower1_spec (s : State P) : (readPower1 env s).2 = effP1 env s ∧ Ext env s (readPower1 env s).1 ∧
    (readPower1 env s).1.power1 = some (effP1 env s) := by
  unfold readPower1 effP1
  cases h : s.power1 with
  | some v => exact ⟨rfl, Ext.refl env s, h⟩
  | none =>
    refine ⟨rfl, ⟨rfl, rfl, ?_, ?_, rfl, fun _ h => h, fun _ h => h, ?_, fun _ h => h⟩, rfl⟩
    · simp only [effP1, h]; rfl
    · simp only [effP2, effP1, h]; rfl
    · intro w hw; rw [h] at hw; cases hw

theorem readPower2_spec (s : State P) : (readPower2 env s).2 = effP2 env s ∧ Ext env s (readPower2 env s).1 ∧
    (readPower2 env s).1.power2 = some (effP2 env s) := by
  unfold readPower2
  cases h : s.power2 with
  | some v => exact ⟨by simp [effP2, h], Ext.refl env s, by simp [effP2, h]⟩
  | none =>
    cases h2 : s.par.model2 with
    | none =>
      refine ⟨by simp [effP2, h, h2], ⟨rfl, rfl, rfl, ?_, rfl, fun _ h => h, fun _ h => h, fun _ h => h, ?_⟩, ?_⟩
      · simp [effP2, h, h2]
      · intro w hw; rw [h] at hw; cases hw
      · simp [effP2, h, h2]
    | some p2 =>
      obtain ⟨e1, e2, e3⟩ := readPower1_spec env s
      simp only [e1]
      refine ⟨by simp [effP2, h, h2], ⟨e2.par, e2.attrs, e2.p1, ?_, e2.f, e2.c1, e2.c2, e2.c3, ?_⟩, ?_⟩
      · simp [effP2, h, h2]
      · intro w hw; rw [h] at hw; cases hw
      · simp [effP2, h, h2]

theorem readFrac2_ext (s : State P) : Ext env s (readFrac2 s).1 := by
  unfold readFrac2
  cases h : s.frac2 with
  | some v => exact Ext.refl env s
  | none =>
    cases h2 : s.par.fraction with
    | none =>
      exact ⟨rfl, rfl, rfl, rfl, rfl, fun _ h => h, fun w hw => (by rw [h] at hw; exact absurd hw (by simp)),
        fun _ h => h, fun _ h => h⟩
    | some f =>
      obtain ⟨-, e2, -⟩ := readFrac1_spec env s
      cases h3 : readFrac1 s with
      | mk s' r =>
        rw [h3] at e2
        cases r with
        | error e => exact e2
        | ok v =>
          exact ⟨e2.par, e2.attrs, e2.p1, e2.p2, e2.f, e2.c1, fun w hw => (by rw [h] at hw; exact absurd hw (by simp)),
            e2.c3, e2.c4⟩

/-- the value of one component -/
noncomputable def pureComp (p : Params P) (o1 : Obj) (o2 : Option Obj) (f : Except PyErr Arr) (mode comp : String) :
    Except PyErr Arr3 :=
  match upsampled p o1 mode comp with
  | .error e => .error e
  | .ok x1 => match upsampled2 p o2 mode comp with
    | .error e => .error e
    | .ok x2 => if mode = "mm" then .ok x1 else
      match f with
      | .error e => .error e
      | .ok f => combine mode f x1 x2

/-- the value of one component now -/
noncomputable def valueNow (s : State P) (mode comp : String) : Except PyErr Arr3 :=
  pureComp s.par (effP1 env s) (effP2 env s) (effF s) mode comp

theorem oneComponent_spec (mode comp : String) (s : State P) :
    (oneComponent env mode comp s).2 = valueNow env s mode comp ∧ Ext env s (oneComponent env mode comp s).1 ∧
    (∀ v, (oneComponent env mode comp s).2 = .ok v →
      (oneComponent env mode comp s).1.power1 = some (effP1 env s) ∧
      (oneComponent env mode comp s).1.power2 = some (effP2 env s) ∧
      (mode ≠ "mm" → ∃ f, effF s = .ok f ∧ (oneComponent env mode comp s).1.frac1 = some f)) := by
  unfold oneComponent valueNow pureComp
  obtain ⟨a1, a2, a3⟩ := readPower1_spec env s
  simp only [a1, a2.par]
  cases hc : upsampled s.par (effP1 env s) mode comp with
  | error e => exact ⟨rfl, a2, fun v hv => by simp at hv⟩
  | ok x1 =>
    obtain ⟨b1, b2, b3⟩ := readPower2_spec env (readPower1 env s).1
    simp only [b1, a2.p2]
    have b12 := Ext.trans env a2 b2
    set s2 := (readPower2 env (readPower1 env s).1).1
    rw [a2.p2] at b3
    have hp1 : s2.power1 = some (effP1 env s) := b2.c3 _ a3
    cases upsampled2 s.par (effP2 env s) mode comp with
    | error e => exact ⟨rfl, b12, fun v hv => by simp at hv⟩
    | ok x2 =>
      simp only
      by_cases hm : mode = "mm"
      · simp only [hm, if_true]
        exact ⟨trivial, b12, fun v _ => ⟨hp1, b3, fun h => absurd rfl h⟩⟩
      · simp only [hm, if_false]
        obtain ⟨d1, d2, d3⟩ := readFrac1_spec env s2
        rw [b12.f] at d1 d3
        have d12 := Ext.trans env b12 d2
        cases hr : readFrac1 s2 with
        | mk s3 r =>
          rw [hr] at d1 d2 d3 d12
          simp only at d1 d2 d3 d12
          rw [← d1]
          cases r with
          | error e => exact ⟨rfl, d12, fun v hv => by simp at hv⟩
          | ok f =>
            refine ⟨rfl, d12, fun v _ => ⟨d2.c3 _ hp1, d2.c4 _ b3, fun _ => ⟨f, rfl, d3 f d1.symm⟩⟩⟩

theorem valueNow_ext {s s' : State P} (h : Ext env s s') : valueNow env s' = valueNow env s := by
  funext m c
  simp only [valueNow, h.par, h.p1, h.p2, h.f]

theorem collect_spec (mode : String) (comps : List String) (s : State P) :
    Ext env s (collect env mode comps s).1 ∧
    ∀ d, (collect env mode comps s).2 = .ok d → ∀ c,
      (c ∈ comps → ∃ v, valueNow env s mode c = .ok v ∧ d c = some v) ∧ (c ∉ comps → d c = none) := by
  induction comps generalizing s with
  | nil =>
    refine ⟨Ext.refl env s, fun d hd c => ⟨fun h => by simp at h, fun _ => ?_⟩⟩
    simp only [collect, Except.ok.injEq] at hd
    rw [← hd]
  | cons comp comps ih =>
    obtain ⟨a1, a2, -⟩ := oneComponent_spec env mode comp s
    simp only [collect]
    cases hr : oneComponent env mode comp s with
    | mk s1 r =>
      rw [hr] at a1 a2
      simp only at a1 a2
      cases r with
      | error e => exact ⟨a2, fun d hd => by simp at hd⟩
      | ok v =>
        obtain ⟨b1, b2⟩ := ih s1
        cases hr2 : collect env mode comps s1 with
        | mk s2 r2 =>
          rw [hr2] at b1 b2
          simp only [hr2] at b1 b2 ⊢
          cases r2 with
          | error e => exact ⟨Ext.trans env a2 b1, fun d hd => by simp at hd⟩
          | ok d2 =>
            refine ⟨Ext.trans env a2 b1, fun d hd c => ?_⟩
            simp only [Except.ok.injEq] at hd
            obtain ⟨e1, e2⟩ := b2 d2 rfl c
            rw [valueNow_ext env a2] at e1
            by_cases hc : c ∈ comps
            · obtain ⟨w, hw, hdw⟩ := e1 hc
              refine ⟨fun _ => ⟨w, hw, ?_⟩, fun h => absurd (List.mem_cons_of_mem _ hc) h⟩
              rw [← hd]; simp only [hdw]
            · by_cases hcc : c = comp
              · refine ⟨fun _ => ⟨v, by rw [hcc]; exact a1.symm, ?_⟩, fun h => absurd (by rw [hcc]; simp) h⟩
                subst hcc; rw [← hd]; simp only [e2 hc, if_true]
              · refine ⟨fun h => absurd h (by simp [hcc, hc]), fun _ => ?_⟩
                rw [← hd]; simp only [e2 hc, hcc, if_false]

/-- reads that may also have set result attributes -/
structure Ext' (s s' : State P) : Prop where
  par : s'.par = s.par
  p1 : effP1 env s' = effP1 env s
  p2 : effP2 env s' = effP2 env s
  f : effF s' = effF s
  c1 : ∀ v, s.frac1 = some v → s'.frac1 = some v
  c2 : ∀ v, s.frac2 = some v → s'.frac2 = some v
  c3 : ∀ v, s.power1 = some v → s'.power1 = some v
  c4 : ∀ v, s.power2 = some v → s'.power2 = some v

theorem results_spec (comps modes : List String) (s : State P) :
    Ext' env s (results env comps modes s).1 ∧
    (∀ m, m ∉ modes → (results env comps modes s).1.attrs m = s.attrs m) ∧
    ((results env comps modes s).2 = .ok () → ∀ m ∈ modes, ∃ d, (results env comps modes s).1.attrs m = some d ∧
      ∀ c, (c ∈ comps → ∃ v, valueNow env s m c = .ok v ∧ d c = some v) ∧ (c ∉ comps → d c = none)) := by
  induction modes generalizing s with
  | nil =>
    exact ⟨⟨rfl, rfl, rfl, rfl, fun _ h => h, fun _ h => h, fun _ h => h, fun _ h => h⟩, fun _ _ => rfl,
      fun _ m hm => by simp at hm⟩
  | cons mode modes ih =>
    obtain ⟨a1, a2⟩ := collect_spec env mode comps s
    simp only [results]
    cases hr : collect env mode comps s with
    | mk s1 r =>
      rw [hr] at a1 a2
      simp only at a1 a2
      cases r with
      | error e =>
        refine ⟨⟨a1.par, a1.p1, a1.p2, a1.f, a1.c1, a1.c2, a1.c3, a1.c4⟩, fun m _ => ?_, fun h => by simp at h⟩
        simp only [a1.attrs]
      | ok d =>
        set s2 : State P := { s1 with attrs := fun m => if m = mode then some d else s1.attrs m } with hs2
        obtain ⟨b1, b2, b3⟩ := ih s2
        have hv : valueNow env s2 = valueNow env s := by
          rw [← valueNow_ext env a1]; rfl
        have p1 : effP1 env s2 = effP1 env s := a1.p1
        have p2 : effP2 env s2 = effP2 env s := a1.p2
        have pf : effF s2 = effF s := a1.f
        simp only
        refine ⟨⟨b1.par.trans a1.par, b1.p1.trans p1, b1.p2.trans p2, b1.f.trans pf,
          fun v h => b1.c1 v (a1.c1 v h), fun v h => b1.c2 v (a1.c2 v h), fun v h => b1.c3 v (a1.c3 v h),
          fun v h => b1.c4 v (a1.c4 v h)⟩, ?_, ?_⟩
        · intro m hm
          simp only [List.mem_cons, not_or] at hm
          rw [b2 m hm.2, hs2]
          simp only [hm.1, if_false, a1.attrs]
        · intro hok m hm
          by_cases hmm : m ∈ modes
          · rw [hv] at b3; exact b3 hok m hmm
          · have he : m = mode := by simpa [hmm] using hm
            subst he
            refine ⟨d, ?_, a2 d rfl⟩
            rw [b2 m hmm, hs2]; simp

/-! ## C59, C60 -/

theorem effF_fresh (p : Params P) : effF (fresh p) = frac1Val p := rfl

/-- the halo models of a fresh object -/
theorem effP1_fresh (p : Params P) : effP1 env (fresh p) = (match p.model with
  | none => env.make p.model1
  | some m => m) := rfl

/-- C59: what `results` stores for a new object, mode by mode: the matter spectrum of the first population; the
linear mix for galaxy-matter and matter-intrinsic; the quadratic mix (without cross terms) for all others.  The
weights are the interpolated fraction at the output redshift; without a fraction they are 1 and 0. -/
theorem C59_mixing (p : Params P) (modes comps : List String) (mode comp : String) (o1 : Obj) (o2 : Option Obj)
    (F : ℕ → ℝ) (x1 x2 : Arr3)
    (ho1 : o1 = match p.model with | none => env.make p.model1 | some m => m)
    (ho2 : o2 = match p.model2 with | none => none | some p2 => some (env.cloneUpdate o1 p2))
    (hF : (p.fraction = none ∧ F = fun _ => 1) ∨
      ∃ f fz, p.fraction = some f ∧ p.fractionZ = some fz ∧ fz.n = f.n ∧
        F = fun i => interp1d .extrapolate fz.n fz.val f.val (p.z.val i))
    (h1 : upsampled p o1 mode comp = .ok x1) (h2 : upsampled2 p o2 mode comp = .ok x2)
    (hok : (results env comps modes (fresh p)).2 = .ok ()) (hm : mode ∈ modes) (hc : comp ∈ comps) :
    ∃ d v, (results env comps modes (fresh p)).1.attrs mode = some d ∧ d comp = some v ∧ v.nz = p.z.n ∧
      ∀ b i j, i < p.z.n → v.val b i j =
        if mode = "mm" then x1.val b i j
        else if mode = "gm" ∨ mode = "mi" then F i * x1.val b i j + (1 - F i) * x2.val b i j
        else F i ^ 2 * x1.val b i j + (1 - F i) ^ 2 * x2.val b i j := by
  obtain ⟨d, hd, hdc⟩ := (results_spec env comps modes (fresh p)).2.2 hok mode hm
  obtain ⟨v, hv, hdv⟩ := (hdc comp).1 hc
  have hn1 : x1.nz = p.z.n := by
    unfold upsampled at h1
    split at h1 <;> simp only [Except.ok.injEq, reduceCtorEq] at h1
    rw [← h1]
  have e1 : effP1 env (fresh p) = o1 := ho1.symm
  have e2 : effP2 env (fresh p) = o2 := by
    rw [ho2]; simp only [effP2, fresh]
    have : effP1 env (fresh p) = o1 := e1
    simp only [fresh] at this
    rw [this]
  have eF : frac1Val p = .ok ⟨p.z.n, F⟩ := by
    rcases hF with ⟨h, rfl⟩ | ⟨f, fz, hf, hfz, hn, rfl⟩
    · simp [frac1Val, h]
    · simp [frac1Val, hf, hfz, hn]
  refine ⟨d, v, hd, hdv, ?_⟩
  simp only [valueNow, pureComp, e1, e2, effF_fresh, eF] at hv
  have hp : (fresh p).par = p := rfl
  rw [hp, h1] at hv
  simp only [h2] at hv
  by_cases hmm : mode = "mm"
  · simp only [hmm, if_true, Except.ok.injEq] at hv ⊢
    rw [← hv]; exact ⟨hn1, fun b i j _ => rfl⟩
  · simp only [hmm, if_false] at hv ⊢
    have hnz : ¬ (p.z.n ≠ x1.nz ∧ p.z.n ≠ 1 ∧ x1.nz ≠ 1) := by rw [hn1]; simp
    simp only [combine, hnz, if_false, Except.ok.injEq] at hv
    rw [← hv]
    refine ⟨by simp [hn1], fun b i j hi => ?_⟩
    have hb : bidx p.z.n i = i := by unfold bidx; split_ifs with h <;> omega
    simp only [hn1, hb, List.mem_cons, List.not_mem_nil, or_false]

/-- C59: without a fraction, and with fraction 1 everywhere, only the first population counts, in every mode;
with fraction 0 everywhere only the second one counts in every mode but matter-matter. -/
theorem C59_pure_populations (mode : String) (f : Arr) (x1 x2 : Arr3) (v : Arr3) (hn : f.n = x1.nz)
    (h : combine mode f x1 x2 = .ok v) :
    ((∀ i < f.n, f.val i = 1) → ∀ b i j, i < f.n → v.val b i j = x1.val b i j) ∧
    ((∀ i < f.n, f.val i = 0) → ∀ b i j, i < f.n → v.val b i j = x2.val b i j) := by
  have hnz : ¬ (f.n ≠ x1.nz ∧ f.n ≠ 1 ∧ x1.nz ≠ 1) := by simp [hn]
  simp only [combine, hnz, if_false, Except.ok.injEq] at h
  subst h
  have hb : ∀ i, i < f.n → bidx f.n i = i := by
    intro i hi; unfold bidx; split_ifs with h <;> omega
  constructor
  · intro hf b i j hi
    simp only [← hn, hb i hi, hf i hi]
    split_ifs <;> ring
  · intro hf b i j hi
    simp only [← hn, hb i hi, hf i hi]
    split_ifs <;> ring

/-- C59 (disagreement found): with a fraction but no second model the missing population is counted as empty, not as
absent: gm and mi are multiplied by f and gg, gi, ii by f². -/
theorem C59_no_second_model (mode : String) (f : Arr) (x1 : Arr3) (v : Arr3) (hn : f.n = x1.nz)
    (h : combine mode f x1 ⟨x1.nz, fun _ _ _ => 0⟩ = .ok v) (b i j : ℕ) (hi : i < f.n) :
    v.val b i j = (if mode = "gm" ∨ mode = "mi" then f.val i else f.val i ^ 2) * x1.val b i j := by
  have hnz : ¬ (f.n ≠ x1.nz ∧ f.n ≠ 1 ∧ x1.nz ≠ 1) := by simp [hn]
  simp only [combine, hnz, if_false, Except.ok.injEq] at h
  subst h
  have hb : bidx f.n i = i := by unfold bidx; split_ifs with h <;> omega
  simp only [← hn, hb, List.mem_cons, List.not_mem_nil, or_false]
  split_ifs <;> ring

/-- C60: mixing a population with itself.  Nothing changes for gm and mi; for every other mode that is mixed
(gg, gi, ii and also the linear spectrum) the result is multiplied by f² + (1-f)², which is between 1/2 and 1
and is 1 only for f = 0 or f = 1. -/
theorem C60_self_mixing (mode : String) (f : Arr) (x v : Arr3) (hn : f.n = x.nz)
    (h : combine mode f x x = .ok v) (b i j : ℕ) (hi : i < f.n) (hf : 0 ≤ f.val i ∧ f.val i ≤ 1) :
    (mode = "gm" ∨ mode = "mi" → v.val b i j = x.val b i j) ∧
    (¬ (mode = "gm" ∨ mode = "mi") → v.val b i j = (f.val i ^ 2 + (1 - f.val i) ^ 2) * x.val b i j) ∧
    1 / 2 ≤ f.val i ^ 2 + (1 - f.val i) ^ 2 ∧ f.val i ^ 2 + (1 - f.val i) ^ 2 ≤ 1 ∧
    (f.val i ^ 2 + (1 - f.val i) ^ 2 = 1 ↔ f.val i = 0 ∨ f.val i = 1) := by
  have hnz : ¬ (f.n ≠ x.nz ∧ f.n ≠ 1 ∧ x.nz ≠ 1) := by simp [hn]
  simp only [combine, hnz, if_false, Except.ok.injEq] at h
  subst h
  have hb : bidx f.n i = i := by unfold bidx; split_ifs with h <;> omega
  refine ⟨fun hm => ?_, fun hm => ?_, ?_, ?_, ?_⟩
  · simp only [← hn, hb, List.mem_cons, List.not_mem_nil, or_false, hm, if_true]; ring
  · simp only [← hn, hb, List.mem_cons, List.not_mem_nil, or_false, hm, if_false]; ring
  · nlinarith [sq_nonneg (f.val i - 1 / 2)]
  · nlinarith [hf.1, hf.2]
  · constructor
    · intro h
      have : f.val i * (f.val i - 1) = 0 := by nlinarith
      rcases mul_eq_zero.1 this with h | h
      · exact Or.inl h
      · exact Or.inr (by linarith)
    · rintro (h | h) <;> rw [h] <;> norm_num

/-- both cases occur: an even split halves gg and leaves gm -/
example : combine "gg" ⟨2, fun _ => 1 / 2⟩ ⟨2, fun _ _ _ => 1⟩ ⟨2, fun _ _ _ => 1⟩ = .ok ⟨2, fun _ _ _ => 1 / 2⟩ ∧
    combine "gm" ⟨2, fun _ => 1 / 2⟩ ⟨2, fun _ _ _ => 1⟩ ⟨2, fun _ _ _ => 1⟩ = .ok ⟨2, fun _ _ _ => 1⟩ := by
  have h1 : ("gg" : String) ≠ "gm" := by decide
  have h2 : ("gg" : String) ≠ "mi" := by decide
  norm_num [combine, h1, h2]

/-! ## C61 -/

/-- well-formed input grids: at least two redshifts and positive wavenumbers, increasing -/
structure Obj.Ok (o : Obj) : Prop where
  nz : 2 ≤ o.nz
  nk : 2 ≤ o.nk
  z : SortedOn o.nz o.z
  kpos : ∀ l < o.nk, 0 < o.k l
  k : SortedOn o.nk o.k

theorem Obj.Ok.logk {o : Obj} (h : o.Ok) : SortedOn o.nk (fun l => log10 (o.k l)) := by
  intro i j hij hj
  exact Real.logb_lt_logb (by norm_num) (h.kpos i (by omega)) (h.k i j hij hj)

theorem interp1d_ext (n : ℕ) (x y : ℕ → ℝ) (q : ℝ) : interp1d .extrapolate n x y q = interpLinear n x y q := rfl

/-- C61: on the input grid points the upsampled spectrum is the input, whatever the extrapolation option. -/
theorem C61_nodes (o : Obj) (h : o.Ok) (pw : ℕ → ℕ → ℕ → ℝ) (fill : Fill) (zExt kExt : ℕ → ℝ) (b i j m l : ℕ)
    (hm : m < o.nz) (hl : l < o.nk) (hz : zExt i = o.z m) (hk : kExt j = o.k l) :
    extrapolateSpectra zExt kExt o pw fill b i j = pw b m l := by
  unfold extrapolateSpectra
  rw [hz, hk]
  have : ∀ l, interp1d fill o.nz o.z (fun m => pw b m l) (o.z m) = pw b m l := fun l =>
    interp1d_node h.nz h.z fill _ hm
  simp only [this]
  exact interp1d_node h.nk h.logk .extrapolate (fun l => pw b m l) hl

/-- C61: upsampling preserves sums (so tot = 1h + 2h survives) when extrapolating or filling with zero. -/
theorem C61_linear (o : Obj) (pw qw : ℕ → ℕ → ℕ → ℝ) (c : ℝ) (fill : Fill) (hf : fill = .extrapolate ∨ fill = .value 0)
    (zExt kExt : ℕ → ℝ) (b i j : ℕ) :
    extrapolateSpectra zExt kExt o (fun b m l => pw b m l + c * qw b m l) fill b i j =
      extrapolateSpectra zExt kExt o pw fill b i j + c * extrapolateSpectra zExt kExt o qw fill b i j := by
  unfold extrapolateSpectra
  have h1 : ∀ l, interp1d fill o.nz o.z (fun m => pw b m l + c * qw b m l) (zExt i) =
      interp1d fill o.nz o.z (fun m => pw b m l) (zExt i) + c * interp1d fill o.nz o.z (fun m => qw b m l) (zExt i) := by
    intro l
    rcases hf with rfl | rfl
    · simp only [interp1d, interpLinear_add, interpLinear_smul]
    · simp only [interp1d]
      split_ifs
      · ring
      · rw [interpLinear_add, interpLinear_smul]
  simp only [h1]
  rw [interp1d_ext, interp1d_ext, interp1d_ext, interpLinear_add, interpLinear_smul]

/-- C61: with a non-zero fill value the sum law fails outside the redshift range: 1h and 2h each take the fill
value, and so does the total. -/
theorem C61_fill_not_additive (o : Obj) (h : o.Ok) (pw qw : ℕ → ℕ → ℕ → ℝ) (c : ℝ) (zExt kExt : ℕ → ℝ) (b i j : ℕ)
    (hz : o.z (o.nz - 1) < zExt i) :
    extrapolateSpectra zExt kExt o pw (.value c) b i j + extrapolateSpectra zExt kExt o qw (.value c) b i j = 2 * c ∧
    extrapolateSpectra zExt kExt o (fun b m l => pw b m l + qw b m l) (.value c) b i j = c := by
  unfold extrapolateSpectra
  simp only [interp1d, hz, or_true, if_true, interpLinear_const h.nk h.logk]
  exact ⟨by ring, trivial⟩

/-- C61: inside the input range the upsampled spectrum stays between the bounds of the input. -/
theorem C61_bounds (o : Obj) (h : o.Ok) (pw : ℕ → ℕ → ℕ → ℝ) (fill : Fill) (zExt kExt : ℕ → ℝ) (b i j : ℕ) (lo hi : ℝ)
    (hp : ∀ m < o.nz, ∀ l < o.nk, lo ≤ pw b m l ∧ pw b m l ≤ hi)
    (hz : o.z 0 ≤ zExt i ∧ zExt i ≤ o.z (o.nz - 1)) (hk : o.k 0 ≤ kExt j ∧ kExt j ≤ o.k (o.nk - 1)) :
    lo ≤ extrapolateSpectra zExt kExt o pw fill b i j ∧ extrapolateSpectra zExt kExt o pw fill b i j ≤ hi := by
  unfold extrapolateSpectra
  have hnk := h.nk
  have hk0 := h.kpos 0 (by omega)
  have hk1 := h.kpos (o.nk - 1) (by omega)
  rw [interp1d_ext]
  have a0 : log10 (o.k 0) ≤ log10 (kExt j) := Real.logb_le_logb_of_le (by norm_num) hk0 hk.1
  have a1 : log10 (kExt j) ≤ log10 (o.k (o.nk - 1)) :=
    Real.logb_le_logb_of_le (by norm_num) (lt_of_lt_of_le hk0 hk.1) hk.2
  refine interpLinear_mem_Icc (x := fun l => log10 (o.k l)) h.nk h.logk a0 a1 fun l hl => ?_
  rw [interp1d_inside hz.1 hz.2]
  exact interpLinear_mem_Icc h.nz h.z hz.1 hz.2 fun m hm => hp m hm l hl

/-- a two-point grid for the examples -/
noncomputable def demoObj (c : ℝ) : Obj :=
  ⟨2, fun i => i, 2, fun i => (i : ℝ) + 1, fun m => if m = "gg" then some fun cp => if cp = "tot" then
    some fun _ _ _ => c else none else none⟩

theorem demoObj_ok (c : ℝ) : (demoObj c).Ok := by
  refine ⟨le_rfl, le_rfl, ?_, ?_, ?_⟩
  · intro i j h _; show (i : ℝ) < j; exact_mod_cast h
  · intro l _; show (0 : ℝ) < l + 1; positivity
  · intro i j h _; show (i : ℝ) + 1 < j + 1; have : (i : ℝ) < j := by exact_mod_cast h
    linarith

/-! ## C62 -/

theorem step_frozen (s : State P) (op : Op P) :
    (∀ v, s.frac1 = some v → (step env s op).frac1 = some v) ∧
    (∀ v, s.frac2 = some v → (step env s op).frac2 = some v) ∧
    (∀ v, s.power1 = some v → (step env s op).power1 = some v) ∧
    (∀ v, s.power2 = some v → (step env s op).power2 = some v) := by
  cases op with
  | setParams p => exact ⟨fun _ h => h, fun _ h => h, fun _ h => h, fun _ h => h⟩
  | readFrac1 => have := (readFrac1_spec env s).2.1; exact ⟨this.c1, this.c2, this.c3, this.c4⟩
  | readFrac2 => have := readFrac2_ext env s; exact ⟨this.c1, this.c2, this.c3, this.c4⟩
  | readPower1 => have := (readPower1_spec env s).2.1; exact ⟨this.c1, this.c2, this.c3, this.c4⟩
  | readPower2 => have := (readPower2_spec env s).2.1; exact ⟨this.c1, this.c2, this.c3, this.c4⟩
  | results modes comps => have := (results_spec env comps modes s).1; exact ⟨this.c1, this.c2, this.c3, this.c4⟩

/-- C62: a value once read stays for the life of the object: no history of updates, reads and results calls
changes `frac_1`, `frac_2`, `power_1`, `power_2`. -/
theorem C62_frozen (s : State P) (ops : List (Op P)) :
    (∀ v, s.frac1 = some v → (run env s ops).frac1 = some v) ∧
    (∀ v, s.frac2 = some v → (run env s ops).frac2 = some v) ∧
    (∀ v, s.power1 = some v → (run env s ops).power1 = some v) ∧
    (∀ v, s.power2 = some v → (run env s ops).power2 = some v) := by
  induction ops generalizing s with
  | nil => exact ⟨fun _ h => h, fun _ h => h, fun _ h => h, fun _ h => h⟩
  | cons op ops ih =>
    obtain ⟨a1, a2, a3, a4⟩ := step_frozen env s op
    obtain ⟨b1, b2, b3, b4⟩ := ih (step env s op)
    exact ⟨fun v h => b1 v (a1 v h), fun v h => b2 v (a2 v h), fun v h => b3 v (a3 v h), fun v h => b4 v (a4 v h)⟩

theorem results_caches (modes comps : List String) (s : State P) (hok : (results env comps modes s).2 = .ok ())
    (mode : String) (hm : mode ∈ modes) (hmm : mode ≠ "mm") (hc : comps ≠ []) :
    (results env comps modes s).1.power1 = some (effP1 env s) ∧
    (results env comps modes s).1.power2 = some (effP2 env s) ∧
    ∃ f, effF s = .ok f ∧ (results env comps modes s).1.frac1 = some f := by
  induction modes generalizing s with
  | nil => simp at hm
  | cons m0 modes ih =>
    simp only [results] at hok ⊢
    obtain ⟨a1, a2⟩ := collect_spec env m0 comps s
    have hcc : m0 ≠ "mm" → ∀ d, (collect env m0 comps s).2 = .ok d →
        (collect env m0 comps s).1.power1 = some (effP1 env s) ∧
        (collect env m0 comps s).1.power2 = some (effP2 env s) ∧
        ∃ f, effF s = .ok f ∧ (collect env m0 comps s).1.frac1 = some f := by
      intro h0 d hd
      obtain ⟨comp, cs, rfl⟩ := List.exists_cons_of_ne_nil hc
      obtain ⟨c1, c2, c3⟩ := oneComponent_spec env m0 comp s
      simp only [collect] at hd ⊢
      cases hr : oneComponent env m0 comp s with
      | mk s1 r =>
        rw [hr] at hd c1 c2 c3
        cases r with
        | error e => simp at hd
        | ok v =>
          obtain ⟨d1, d2, d3⟩ := c3 v rfl
          obtain ⟨f, hf, hf'⟩ := d3 h0
          have e1 := (collect_spec env m0 cs s1).1
          cases hr2 : collect env m0 cs s1 with
          | mk s2 r2 =>
            rw [hr2] at e1
            simp only at e1
            cases r2 with
            | error e => simp only [hr2] at hd; simp at hd
            | ok d2' =>
              simp only [hr2]
              exact ⟨e1.c3 _ d1, e1.c4 _ d2, f, hf, e1.c1 _ hf'⟩
    cases hr : collect env m0 comps s with
    | mk s1 r =>
      rw [hr] at a1 a2 hcc hok
      simp only at a1 a2 hcc
      cases r with
      | error e => simp at hok
      | ok d =>
        simp only at hok ⊢
        set s2 : State P := { s1 with attrs := fun m => if m = m0 then some d else s1.attrs m } with hs2
        obtain ⟨r1, -, -⟩ := results_spec env comps modes s2
        by_cases hin : mode ∈ modes
        · obtain ⟨q1, q2, f, q3, q4⟩ := ih s2 hok hin
          have p1 : effP1 env s2 = effP1 env s := a1.p1
          have p2 : effP2 env s2 = effP2 env s := a1.p2
          have pf : effF s2 = effF s := a1.f
          rw [p1] at q1; rw [p2] at q2; rw [pf] at q3
          exact ⟨q1, q2, f, q3, q4⟩
        · have he : mode = m0 := by simpa [hin] using hm
          subst he
          obtain ⟨q1, q2, f, q3, q4⟩ := hcc hmm d rfl
          exact ⟨r1.c3 _ q1, r1.c4 _ q2, f, q3, r1.c1 _ q4⟩

/-- C62 (disagreement found): after one successful `results` call that includes any mode other than
matter-matter, every later `results` call - whatever was updated in between - is computed with the fraction and
the two halo models of the first call; only the output grid and the extrapolation option follow the update. -/
theorem C62_stale (p : Params P) (modes comps : List String) (hok : (results env comps modes (fresh p)).2 = .ok ())
    (mode0 : String) (hm0 : mode0 ∈ modes) (hmm : mode0 ≠ "mm") (hc : comps ≠ []) (ops : List (Op P))
    (modes' comps' : List String)
    (hok' : (results env comps' modes' (run env (results env comps modes (fresh p)).1 ops)).2 = .ok ())
    (mode comp : String) (hm : mode ∈ modes') (hcomp : comp ∈ comps') :
    ∃ d v, (results env comps' modes' (run env (results env comps modes (fresh p)).1 ops)).1.attrs mode = some d ∧
      d comp = some v ∧
      pureComp (run env (results env comps modes (fresh p)).1 ops).par (effP1 env (fresh p)) (effP2 env (fresh p))
        (frac1Val p) mode comp = .ok v := by
  obtain ⟨q1, q2, f, q3, q4⟩ := results_caches env modes comps (fresh p) hok mode0 hm0 hmm hc
  obtain ⟨r1, -, r3, r4⟩ := C62_frozen env (results env comps modes (fresh p)).1 ops
  obtain ⟨d, hd, hdc⟩ := (results_spec env comps' modes' _).2.2 hok' mode hm
  obtain ⟨v, hv, hdv⟩ := (hdc comp).1 hcomp
  refine ⟨d, v, hd, hdv, ?_⟩
  rw [← hv]
  simp only [valueNow, effP1, effP2, effF, r1 f q4, r3 _ q1, r4 _ q2]
  rw [effF_fresh] at q3
  rw [q3]

/-- C62 (disagreement found): once the fraction has been read, an update to an output grid with another number of
redshifts (neither being 1) makes every mode but matter-matter fail with ValueError. -/
theorem C62_new_grid_fails (s : State P) (f : Arr) (hf : s.frac1 = some f) (p : Params P) (mode comp : String)
    (hmm : mode ≠ "mm") (hn : f.n ≠ p.z.n) (hn1 : f.n ≠ 1) (hz1 : p.z.n ≠ 1) (x1 x2 : Arr3)
    (h1 : upsampled p (effP1 env { s with par := p }) mode comp = .ok x1)
    (h2 : upsampled2 p (effP2 env { s with par := p }) mode comp = .ok x2) (comps modes : List String) :
    (results env (comp :: comps) (mode :: modes) (step env s (.setParams p))).2 = .error .valueError := by
  have hn1' : x1.nz = p.z.n := by
    unfold upsampled at h1
    split at h1 <;> simp only [Except.ok.injEq, reduceCtorEq] at h1
    rw [← h1]
  have hv := (oneComponent_spec env mode comp (step env s (.setParams p))).1
  have hv2 : valueNow env (step env s (.setParams p)) mode comp = .error .valueError := by
    change pureComp p (effP1 env { s with par := p }) (effP2 env { s with par := p }) (effF { s with par := p })
      mode comp = _
    unfold pureComp
    rw [h1]
    dsimp only
    rw [h2]
    simp only [hmm, if_false, effF, hf, combine, hn1', hn, hn1, hz1, ne_eq, not_false_eq_true, and_self, if_true]
  rw [hv2] at hv
  simp only [results, collect]
  cases hr : oneComponent env mode comp (step env s (.setParams p)) with
  | mk s1 r =>
    rw [hr] at hv
    simp only at hv
    rw [hv]

/-! ## C63 -/

theorem step_attrs (s : State P) (op : Op P) (m : String)
    (h : ∀ modes comps, op = .results modes comps → m ∉ modes) : (step env s op).attrs m = s.attrs m := by
  cases op with
  | setParams p => rfl
  | readFrac1 => exact congrFun (readFrac1_spec env s).2.1.attrs m
  | readFrac2 => exact congrFun (readFrac2_ext env s).attrs m
  | readPower1 => exact congrFun (readPower1_spec env s).2.1.attrs m
  | readPower2 => exact congrFun (readPower2_spec env s).2.1.attrs m
  | results modes comps => exact (results_spec env comps modes s).2.1 m (h modes comps rfl)

theorem run_attrs (s : State P) (ops : List (Op P)) (m : String)
    (h : ∀ modes comps, Op.results modes comps ∈ ops → m ∉ modes) : (run env s ops).attrs m = s.attrs m := by
  induction ops generalizing s with
  | nil => rfl
  | cons op ops ih =>
    rw [show run env s (op :: ops) = run env (step env s op) ops from rfl,
      ih (step env s op) fun modes comps hmem => h modes comps (by simp [hmem])]
    exact step_attrs env s op m fun modes comps he => h modes comps (by simp [he])

/-- C63: a mode that no `results` call of a history requested has no stored result. -/
theorem C63_absent (p : Params P) (ops : List (Op P)) (m : String)
    (h : ∀ modes comps, Op.results modes comps ∈ ops → m ∉ modes) : (run env (fresh p) ops).attrs m = none :=
  run_attrs env (fresh p) ops m h

/-- C63: after any history, the stored result of a mode has exactly the components of the last call that
requested the mode (given that this call succeeded): earlier components are lost. -/
theorem C63_last_call_only (p : Params P) (before after : List (Op P)) (modes comps : List String) (m : String)
    (hm : m ∈ modes) (hok : (results env comps modes (run env (fresh p) before)).2 = .ok ())
    (hafter : ∀ modes' comps', Op.results modes' comps' ∈ after → m ∉ modes') :
    ∃ d, (run env (fresh p) (before ++ .results modes comps :: after)).attrs m = some d ∧
      ∀ c, (∃ v, d c = some v) ↔ c ∈ comps := by
  have e : run env (fresh p) (before ++ .results modes comps :: after) =
      run env (results env comps modes (run env (fresh p) before)).1 after := by
    simp [run, List.foldl_append, step]
  obtain ⟨d, hd, hdc⟩ := (results_spec env comps modes (run env (fresh p) before)).2.2 hok m hm
  refine ⟨d, by rw [e, run_attrs env _ after m hafter, hd], fun c => ⟨?_, ?_⟩⟩
  · rintro ⟨v, hv⟩
    by_contra hc
    rw [(hdc c).2 hc] at hv
    cases hv
  · intro hc
    obtain ⟨v, -, hv⟩ := (hdc c).1 hc
    exact ⟨v, hv⟩

/-! ## A concrete object, and staleness seen from outside -/

/-- two populations with constant spectra 1 and 3, equal fractions of which the first is `f` everywhere -/
noncomputable def demoPar (f : ℝ) : Params ℝ where
  z := ⟨1, fun _ => 0.5⟩
  k := fun _ => 1.5
  fractionZ := some ⟨2, fun i => i⟩
  fraction := some ⟨2, fun _ => f⟩
  model := none
  model1 := 1
  model2 := some 3
  extrapolate := .extrapolate

/-- environment of the example -/
noncomputable def demoEnv : Env ℝ := ⟨demoObj, fun _ c => demoObj c⟩

theorem sorted_id : SortedOn 2 (fun i => (i : ℝ)) := fun i j h _ => by
  show (i : ℝ) < j
  exact_mod_cast h

theorem demo_value (c : ℝ) (p : Params ℝ) : ∃ x, upsampled p (demoObj c) "gg" "tot" = .ok x ∧ x.nz = p.z.n ∧
    (p.extrapolate = .extrapolate → ∀ b i j, x.val b i j = c) := by
  refine ⟨⟨p.z.n, extrapolateSpectra p.z.val p.k (demoObj c) (fun _ _ _ => c) p.extrapolate⟩, ?_, rfl, ?_⟩
  · simp [upsampled, component, demoObj]
  · intro he b i j
    have h := demoObj_ok c
    simp only [extrapolateSpectra, he, interp1d, interpLinear_const h.nz h.z, interpLinear_const h.nk h.logk]

theorem demo_frac (f : ℝ) : ∃ F, frac1Val (demoPar f) = .ok F ∧ F.n = 1 ∧ ∀ i, F.val i = f := by
  refine ⟨⟨1, fun i => interp1d .extrapolate 2 (fun i => (i : ℝ)) (fun _ => f) ((demoPar f).z.val i)⟩, ?_, rfl, ?_⟩
  · simp [frac1Val, demoPar]
  · intro i
    exact interpLinear_const (by norm_num) sorted_id f _

theorem demo_results (s : State ℝ) (v : Arr3) (h : valueNow demoEnv s "gg" "tot" = .ok v) :
    (results demoEnv ["tot"] ["gg"] s).2 = .ok () := by
  have := (oneComponent_spec demoEnv "gg" "tot" s).1
  rw [h] at this
  simp only [results, collect]
  cases hr : oneComponent demoEnv "gg" "tot" s with
  | mk s1 r =>
    rw [hr] at this
    simp only at this
    rw [this]

/-- the hypotheses of `C59_mixing`, `C62_stale` and `C63_last_call_only` are met by the example -/
example (f : ℝ) : (results demoEnv ["tot"] ["gg"] (fresh (demoPar f))).2 = .ok () := by
  obtain ⟨F, hF, hn, hv⟩ := demo_frac f
  obtain ⟨x1, hx1, hnz, -⟩ := demo_value 1 (demoPar f)
  obtain ⟨x2, hx2, hnz2, -⟩ := demo_value 3 (demoPar f)
  have hN : x1.nz = 1 := hnz
  refine demo_results _ ⟨max F.n x1.nz, fun b i j => F.val (bidx F.n i) ^ 2 * x1.val b (bidx x1.nz i) j +
      (1 - F.val (bidx F.n i)) ^ 2 * x2.val b (bidx x1.nz i) j⟩ ?_
  have h1 : upsampled (fresh (demoPar f)).par (effP1 demoEnv (fresh (demoPar f))) "gg" "tot" = .ok x1 := hx1
  have h2 : upsampled2 (fresh (demoPar f)).par (effP2 demoEnv (fresh (demoPar f))) "gg" "tot" = .ok x2 := hx2
  simp only [valueNow, pureComp, h1, h2, effF_fresh, hF]
  simp [combine, hn, hN]

/-- C62 (disagreement found), seen from outside: compute the galaxy spectrum, change the fraction from 1 to 0
with `update`, compute again: the object still returns the first population, a new object returns the second. -/
theorem C62_witness : ∃ (env : Env ℝ) (p p' : Params ℝ) (v w : Arr3),
    (results env ["tot"] ["gg"] (run env (fresh p) [.results ["gg"] ["tot"], .setParams p'])).1.attrs "gg" =
      some (fun c => if c = "tot" then some v else none) ∧
    (results env ["tot"] ["gg"] (fresh p')).1.attrs "gg" = some (fun c => if c = "tot" then some w else none) ∧
    v.val 0 0 0 = 1 ∧ w.val 0 0 0 = 3 := by
  obtain ⟨F1, hF1, hn1, hv1⟩ := demo_frac 1
  obtain ⟨F0, hF0, hn0, hv0⟩ := demo_frac 0
  have val : ∀ (s : State ℝ) (f : ℝ) (F : Arr), s.par = demoPar f → effP1 demoEnv s = demoObj 1 →
      effP2 demoEnv s = some (demoObj 3) → effF s = .ok F → F.n = 1 →
      ∃ v, valueNow demoEnv s "gg" "tot" = .ok v ∧ v.val 0 0 0 = F.val 0 ^ 2 * 1 + (1 - F.val 0) ^ 2 * 3 := by
    intro s f F hp h1 h2 h3 hn
    obtain ⟨x1, hx1, hnz, hxv⟩ := demo_value 1 s.par
    obtain ⟨x2, hx2, hnz2, hxv2⟩ := demo_value 3 s.par
    have hN : x1.nz = 1 := by rw [hnz, hp]; rfl
    have hxv := hxv (by rw [hp]; rfl)
    have hxv2 := hxv2 (by rw [hp]; rfl)
    refine ⟨⟨max F.n x1.nz, fun b i j => F.val (bidx F.n i) ^ 2 * x1.val b (bidx x1.nz i) j +
      (1 - F.val (bidx F.n i)) ^ 2 * x2.val b (bidx x1.nz i) j⟩, ?_, ?_⟩
    · simp only [valueNow, pureComp, h1, h2, hx1, upsampled2, hx2, h3]
      simp [combine, hn, hN]
    · simp [hxv, hxv2, bidx, hn]
  have tab : ∀ (s : State ℝ) (v : Arr3), valueNow demoEnv s "gg" "tot" = .ok v →
      (results demoEnv ["tot"] ["gg"] s).1.attrs "gg" = some (fun c => if c = "tot" then some v else none) := by
    intro s v hv
    obtain ⟨d, hd, hdc⟩ := (results_spec demoEnv ["tot"] ["gg"] s).2.2 (demo_results s v hv) "gg" (by simp)
    rw [hd]
    congr 1
    funext c
    by_cases hc : c = "tot"
    · subst hc
      obtain ⟨w, hw, hdw⟩ := (hdc "tot").1 (by simp)
      rw [hv] at hw
      injection hw with hw
      simp [hdw, hw]
    · simp only [hc, if_false]
      exact (hdc c).2 (by simp [hc])
  -- the updated object
  obtain ⟨v, hv, hvv⟩ := val (fresh (demoPar 1)) 1 F1 rfl rfl rfl hF1 hn1
  have hres := demo_results _ v hv
  obtain ⟨q1, q2, f, q3, q4⟩ := results_caches demoEnv ["gg"] ["tot"] (fresh (demoPar 1)) hres "gg" (by simp)
    (by decide) (by simp)
  rw [effF_fresh, hF1] at q3
  injection q3 with q3
  subst q3
  obtain ⟨v', hv', hvv'⟩ := val (run demoEnv (fresh (demoPar 1)) [.results ["gg"] ["tot"], .setParams (demoPar 0)])
    0 F1 rfl (by simp only [effP1, run, List.foldl_cons, List.foldl_nil, step, q1]; rfl)
    (by simp only [effP2, run, List.foldl_cons, List.foldl_nil, step, q2]; rfl)
    (by simp only [effF, run, List.foldl_cons, List.foldl_nil, step, q4]) hn1
  obtain ⟨w, hw, hww⟩ := val (fresh (demoPar 0)) 0 F0 rfl rfl rfl hF0 hn0
  refine ⟨demoEnv, demoPar 1, demoPar 0, v', w, tab _ _ hv', tab _ _ hw, ?_, ?_⟩
  · rw [hvv', hv1]; norm_num
  · rw [hww, hv0]; norm_num

/-! ## C59: the two fractions, one population, one fraction -/

theorem readPower1_frac2 (s : State P) : (readPower1 env s).1.frac2 = s.frac2 := by
  unfold readPower1; split <;> rfl

theorem readPower2_frac2 (s : State P) : (readPower2 env s).1.frac2 = s.frac2 := by
  unfold readPower2
  split
  · rfl
  · split
    · rfl
    · exact readPower1_frac2 env s

theorem readFrac1_frac2 (s : State P) : (readFrac1 s).1.frac2 = s.frac2 := by
  unfold readFrac1
  split
  · rfl
  · split <;> rfl

theorem oneComponent_frac2 (mode comp : String) (s : State P) : (oneComponent env mode comp s).1.frac2 = s.frac2 := by
  unfold oneComponent
  dsimp only
  split
  · exact readPower1_frac2 env s
  · split
    · rw [readPower2_frac2, readPower1_frac2]
    · split
      · rw [readPower2_frac2, readPower1_frac2]
      · have h := readFrac1_frac2 (readPower2 env (readPower1 env s).1).1
        rw [readPower2_frac2, readPower1_frac2] at h
        split <;> rename_i hh <;> rw [hh] at h <;> exact h

theorem collect_frac2 (mode : String) (comps : List String) (s : State P) :
    (collect env mode comps s).1.frac2 = s.frac2 := by
  induction comps generalizing s with
  | nil => rfl
  | cons comp comps ih =>
    have h := oneComponent_frac2 env mode comp s
    unfold collect
    split
    · rename_i hh; rw [hh] at h; exact h
    · rename_i s1 v hh
      rw [hh] at h
      have h2 := ih s1
      split <;> rename_i hh2 <;> rw [hh2] at h2 <;> exact h2.trans h

theorem results_frac2 (comps modes : List String) (s : State P) : (results env comps modes s).1.frac2 = s.frac2 := by
  induction modes generalizing s with
  | nil => rfl
  | cons m modes ih =>
    have h := collect_frac2 env m comps s
    unfold results
    split
    · rename_i hh; rw [hh] at h; exact h
    · rename_i s1 d hh; rw [hh] at h
      rw [ih]; exact h

/-- every stored second fraction is the complement of the first -/
def Complement (p : Params P) (s : State P) : Prop :=
  s.par = p ∧ effF s = frac1Val p ∧
  ∀ v, s.frac2 = some v → ∃ f, frac1Val p = .ok f ∧ v.n = f.n ∧ ∀ i, v.val i = 1 - f.val i

include env in
theorem readFrac2_spec (p : Params P) (s : State P) (h : Complement p s) : Complement p (readFrac2 s).1 ∧
    ∀ v, (readFrac2 s).2 = .ok v → ∃ f, frac1Val p = .ok f ∧ v.n = f.n ∧ ∀ i, v.val i = 1 - f.val i := by
  obtain ⟨hp, hf, hc⟩ := h
  have hx := readFrac2_ext env s
  suffices H : (∀ v, (readFrac2 s).1.frac2 = some v → ∃ f, frac1Val p = .ok f ∧ v.n = f.n ∧ ∀ i, v.val i = 1 - f.val i) ∧
      ∀ v, (readFrac2 s).2 = .ok v → ∃ f, frac1Val p = .ok f ∧ v.n = f.n ∧ ∀ i, v.val i = 1 - f.val i from
    ⟨⟨hx.par.trans hp, hx.f.trans hf, H.1⟩, H.2⟩
  have g1 := (readFrac1_spec env s).1
  rw [hf] at g1
  have g2 := readFrac1_frac2 s
  unfold readFrac2
  split
  · rename_i v hv
    exact ⟨hc, fun w hw => hc w (by injection hw with hw; rw [hv, hw])⟩
  · rename_i hv
    split
    · rename_i hn
      have : frac1Val p = .ok ⟨s.par.z.n, fun _ => 1⟩ := by rw [← hp]; simp [frac1Val, hn]
      constructor <;> intro w hw <;> injection hw with hw <;>
        exact ⟨_, this, by rw [← hw], fun i => by rw [← hw]; norm_num⟩
    · split
      · rename_i hh
        rw [hh] at g1 g2
        exact ⟨fun w hw => hc w (by rw [← g2]; exact hw), fun w hw => by simp at hw⟩
      · rename_i hh
        rw [hh] at g1 g2
        constructor <;> intro w hw <;> injection hw with hw <;>
          exact ⟨_, g1.symm, by rw [← hw], fun i => by rw [← hw]⟩

theorem step_complement (p : Params P) (s : State P) (op : Op P) (hop : ∀ q, op ≠ .setParams q) (h : Complement p s) :
    Complement p (step env s op) := by
  have key : ∀ s', Ext env s s' → s'.frac2 = s.frac2 → Complement p s' := fun s' hx h2 =>
    ⟨hx.par.trans h.1, hx.f.trans h.2.1, fun v hv => h.2.2 v (by rw [← h2]; exact hv)⟩
  cases op with
  | setParams q => exact absurd rfl (hop q)
  | readFrac1 => exact key _ (readFrac1_spec env s).2.1 (readFrac1_frac2 s)
  | readFrac2 => exact (readFrac2_spec env p s h).1
  | readPower1 => exact key _ (readPower1_spec env s).2.1 (readPower1_frac2 env s)
  | readPower2 => exact key _ (readPower2_spec env s).2.1 (readPower2_frac2 env s)
  | results modes comps =>
    have hx := results_spec env comps modes s
    exact ⟨hx.1.par.trans h.1, hx.1.f.trans h.2.1, fun v hv => h.2.2 v (by rw [← results_frac2 env comps modes s]; exact hv)⟩

/-- C59: the two fractions.  Whatever has been read or computed before, in any order, the two fractions a user reads
add up to one at every output redshift; without a fraction the first population is everything. -/
theorem C59_fractions (p : Params P) (ops : List (Op P)) (hops : ∀ op ∈ ops, ∀ q, op ≠ .setParams q) (v1 v2 : Arr)
    (h1 : (readFrac1 (run env (fresh p) ops)).2 = .ok v1) (h2 : (readFrac2 (run env (fresh p) ops)).2 = .ok v2) :
    v1.n = p.z.n ∧ v2.n = p.z.n ∧ (∀ i, v1.val i + v2.val i = 1) ∧ (p.fraction = none → ∀ i, v2.val i = 0) ∧
    ∀ f fz, p.fraction = some f → p.fractionZ = some fz → SortedOn fz.n fz.val → 2 ≤ fz.n →
      ∀ i j, j < fz.n → p.z.val i = fz.val j → v1.val i = f.val j := by
  have hJ : ∀ (ops : List (Op P)) (s : State P), (∀ op ∈ ops, ∀ q, op ≠ .setParams q) → Complement p s →
      Complement p (run env s ops) := by
    intro ops
    induction ops with
    | nil => exact fun s _ h => h
    | cons op ops ih =>
      intro s ho h
      exact ih _ (fun o h' => ho o (by simp [h'])) (step_complement env p s op (ho op (by simp)) h)
  have hJ' := hJ ops (fresh p) hops ⟨rfl, rfl, fun v hv => by simp [fresh] at hv⟩
  obtain ⟨f, hf, hn, hv⟩ := (readFrac2_spec env p _ hJ').2 v2 h2
  rw [(readFrac1_spec env _).1, hJ'.2.1] at h1
  rw [hf] at h1
  injection h1 with h1
  subst h1
  have hz : f.n = p.z.n := by
    unfold frac1Val at hf
    split at hf
    · injection hf with hf; rw [← hf]
    · split at hf
      · simp at hf
      · split at hf
        · simp at hf
        · injection hf with hf; rw [← hf]
  refine ⟨hz, hn.trans hz, fun i => by rw [hv]; ring, fun hno i => ?_, fun g gz hg hgz hs h2n i j hj he => ?_⟩
  · rw [hv]
    simp only [frac1Val, hno, Except.ok.injEq] at hf
    rw [← hf]; norm_num
  · simp only [frac1Val, hg, hgz] at hf
    split at hf
    · simp at hf
    · injection hf with hf
      rw [← hf]
      show interp1d .extrapolate gz.n gz.val g.val (p.z.val i) = g.val j
      rw [interp1d_ext, he]
      exact interpLinear_node h2n hs g.val hj

/-- C59: with one population only, what is computed is the fraction of it (its square for pairs of galaxies). -/
theorem C59_single_population (p : Params P) (modes comps : List String) (mode comp : String) (o1 : Obj)
    (F : ℕ → ℝ) (x1 : Arr3) (hm2 : p.model2 = none)
    (ho1 : o1 = match p.model with | none => env.make p.model1 | some m => m)
    (hF : (p.fraction = none ∧ F = fun _ => 1) ∨
      ∃ f fz, p.fraction = some f ∧ p.fractionZ = some fz ∧ fz.n = f.n ∧
        F = fun i => interp1d .extrapolate fz.n fz.val f.val (p.z.val i))
    (h1 : upsampled p o1 mode comp = .ok x1)
    (hok : (results env comps modes (fresh p)).2 = .ok ()) (hm : mode ∈ modes) (hc : comp ∈ comps) :
    ∃ d v, (results env comps modes (fresh p)).1.attrs mode = some d ∧ d comp = some v ∧
      ∀ b i j, i < p.z.n → v.val b i j =
        if mode = "mm" then x1.val b i j
        else if mode = "gm" ∨ mode = "mi" then F i * x1.val b i j
        else F i ^ 2 * x1.val b i j := by
  obtain ⟨d, v, e1, e2, -, e3⟩ := C59_mixing env p modes comps mode comp o1 none F x1
    ⟨p.z.n, fun _ _ _ => 0⟩ ho1 (by rw [hm2]) hF h1 rfl hok hm hc
  refine ⟨d, v, e1, e2, fun b i j hi => ?_⟩
  rw [e3 b i j hi]
  simp

/-- C59: one fraction serves any number of output redshifts: the result has all of them. -/
theorem C59_broadcast (mode : String) (f : Arr) (x1 x2 : Arr3) (hf : f.n = 1) (hz : 1 ≤ x1.nz) :
    ∃ v, combine mode f x1 x2 = .ok v ∧ v.nz = x1.nz ∧ ∀ b i j, i < x1.nz → v.val b i j =
      if mode = "gm" ∨ mode = "mi" then f.val 0 * x1.val b i j + (1 - f.val 0) * x2.val b i j
      else f.val 0 ^ 2 * x1.val b i j + (1 - f.val 0) ^ 2 * x2.val b i j := by
  refine ⟨_, by unfold combine; rw [if_neg (by simp [hf])], by simp [hf, hz], fun b i j hi => ?_⟩
  have hb : bidx x1.nz i = i := by
    unfold bidx; split_ifs with h
    · omega
    · rfl
  have hb1 : bidx f.n i = 0 := by simp [bidx, hf]
  simp only [hb, hb1]
  by_cases h : mode = "gm" ∨ mode = "mi" <;> simp [h]

/-- both reads succeed on an object with a fraction, here after `power_2` and `frac_1` were read -/
example (f : ℝ) : ∃ v1 v2, (readFrac1 (run demoEnv (fresh (demoPar f)) [.readPower2, .readFrac1])).2 = .ok v1 ∧
    (readFrac2 (run demoEnv (fresh (demoPar f)) [.readPower2, .readFrac1])).2 = .ok v2 := by
  obtain ⟨F, hF, -, -⟩ := demo_frac f
  have e : ∀ s : State ℝ, s.frac1 = none → frac1Val s.par = .ok F →
      readFrac1 s = ({ s with frac1 := some F }, .ok F) := by
    intro s h1 h2; simp [readFrac1, h1, h2]
  have e1 : run demoEnv (fresh (demoPar f)) [.readPower2, .readFrac1] =
      { (readPower2 demoEnv (fresh (demoPar f))).1 with frac1 := some F } := by
    simp only [run, List.foldl_cons, List.foldl_nil, step]
    rw [e _ rfl hF]
  rw [e1]
  exact ⟨F, ⟨F.n, fun i => 1 - F.val i⟩, rfl, rfl⟩

end Verif.Add

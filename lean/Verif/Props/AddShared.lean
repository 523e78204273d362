import Verif.Model.AddShared
import Verif.Props.Add

/-! Property C126: upsampled spectra that share their halo model with the caller. -/

namespace Verif.AddShared

open Verif.Lib Verif.Add Verif.Spec

variable {M P : Type} (A : Api M P)

/-! ## What a read returns -/

/-- the references an upsampled object holds exist -/
structure Up.Wf (h : Heap M) (u : Up P) : Prop where
  model : ∀ r, u.par.model = some r → r < h.next
  p1 : ∀ r, u.power1 = some r → r < h.next
  p2 : ∀ r, u.power2 = some (some r) → r < h.next

/-- the first halo model a read would find now -/
def eff1 (h : Heap M) (u : Up P) : M :=
  match u.power1 with
  | some r => h.obj r
  | none => match u.par.model with
    | none => A.make u.par.par.model1
    | some r => h.obj r

/-- the second halo model a read would find now -/
def eff2 (h : Heap M) (u : Up P) : Option M :=
  match u.power2 with
  | some o => o.map h.obj
  | none => u.par.par.model2.map fun p => A.update (eff1 A h u) p

/-- the fraction a read would find now -/
noncomputable def effF (u : Up P) : Except PyErr Arr :=
  match u.frac1 with
  | some v => .ok v
  | none => frac1Val u.par.par

/-- the value of one component now -/
noncomputable def valueNow (h : Heap M) (u : Up P) (mode comp : String) : Except PyErr Arr3 :=
  pureComp u.par.par (A.view (eff1 A h u)) ((eff2 A h u).map A.view) (effF u) mode comp

/-- a heap after some reads: nothing that existed has changed -/
structure Grow (h h' : Heap M) : Prop where
  next : h.next ≤ h'.next
  obj : ∀ r < h.next, h'.obj r = h.obj r

theorem Grow.refl (h : Heap M) : Grow h h := ⟨le_rfl, fun _ _ => rfl⟩

theorem Grow.trans {h h' h'' : Heap M} (a : Grow h h') (b : Grow h' h'') : Grow h h'' :=
  ⟨a.next.trans b.next, fun r hr => (b.obj r (lt_of_lt_of_le hr a.next)).trans (a.obj r hr)⟩

theorem grow_alloc (h : Heap M) (m : M) : Grow h (h.alloc m).1 :=
  ⟨Nat.le_succ _, fun r hr => by
    have : r ≠ h.next := Nat.ne_of_lt hr
    simp [Heap.alloc, this]⟩

/-- an upsampled object and the heap after some reads -/
structure Ext (h : Heap M) (u : Up P) (h' : Heap M) (u' : Up P) : Prop where
  grow : Grow h h'
  wf : u'.Wf h'
  par : u'.par = u.par
  e1 : eff1 A h' u' = eff1 A h u
  e2 : eff2 A h' u' = eff2 A h u
  f : effF u' = effF u
  c1 : ∀ r, u.power1 = some r → u'.power1 = some r
  c2 : ∀ r, u.power2 = some r → u'.power2 = some r
  c3 : ∀ v, u.frac1 = some v → u'.frac1 = some v
  o1 : ∀ r, u.par.model = some r → (∀ q, u.power1 = some q → q = r) → ∀ q, u'.power1 = some q → q = r
  o2 : u.par.par.model2 = none → (∀ o, u.power2 = some o → o = none) → ∀ o, u'.power2 = some o → o = none
  n2 : u.power2 = none → ∀ q, u'.power2 = some (some q) → h.next ≤ q

theorem Ext.refl (h : Heap M) (u : Up P) (w : u.Wf h) : Ext A h u h u :=
  ⟨Grow.refl h, w, rfl, rfl, rfl, rfl, fun _ x => x, fun _ x => x, fun _ x => x, fun _ _ x => x, fun _ x => x,
    fun x q y => by rw [x] at y; exact absurd y (by simp)⟩

theorem Ext.trans {h h' h'' : Heap M} {u u' u'' : Up P} (a : Ext A h u h' u') (b : Ext A h' u' h'' u'') : Ext A h u h'' u'' :=
  ⟨a.grow.trans b.grow, b.wf, b.par.trans a.par, b.e1.trans a.e1, b.e2.trans a.e2, b.f.trans a.f,
    fun r x => b.c1 r (a.c1 r x), fun r x => b.c2 r (a.c2 r x), fun r x => b.c3 r (a.c3 r x),
    fun r x y => b.o1 r (by rw [a.par]; exact x) (a.o1 r x y), fun x y => b.o2 (by rw [a.par]; exact x) (a.o2 x y), fun x q y => by
      cases h : u'.power2 with
      | none => exact a.grow.next.trans (b.n2 h q y)
      | some o =>
        have := b.c2 o h
        rw [y] at this
        injection this with this
        exact a.n2 x q (by rw [h, this])⟩

theorem Ext.value {h h' : Heap M} {u u' : Up P} (a : Ext A h u h' u') : valueNow A h' u' = valueNow A h u := by
  funext m c
  simp only [valueNow, a.par, a.e1, a.e2, a.f]

theorem readPower1_spec (h : Heap M) (u : Up P) (w : u.Wf h) :
    Ext A h u (readPower1 A h u).1 (readPower1 A h u).2.1 ∧
    (readPower1 A h u).1.obj (readPower1 A h u).2.2 = eff1 A h u ∧
    (readPower1 A h u).2.1.power1 = some (readPower1 A h u).2.2 ∧
    (readPower1 A h u).2.2 < (readPower1 A h u).1.next ∧
    (readPower1 A h u).2.1.power2 = u.power2 ∧ (readPower1 A h u).2.1.frac1 = u.frac1 ∧
    (readPower1 A h u).2.1.attrs = u.attrs := by
  unfold readPower1
  cases h1 : u.power1 with
  | some r => exact ⟨Ext.refl A h u w, by simp [eff1, h1], h1, w.p1 r h1, rfl, rfl, rfl⟩
  | none =>
    cases h2 : u.par.model with
    | some r =>
      have he : eff1 A h u = h.obj r := by simp [eff1, h1, h2]
      refine ⟨⟨Grow.refl h, ⟨w.model, ?_, w.p2⟩, rfl, ?_, ?_, rfl, ?_, fun _ x => x, fun _ x => x, ?_, fun _ x => x, ?_⟩, he.symm, rfl, w.model r h2,
        rfl, rfl, rfl⟩
      · intro r' hr'
        simp only [Option.some.injEq] at hr'
        exact hr' ▸ w.model r h2
      · simp [eff1, h1, h2]
      · have : eff1 A h { u with power1 := some r } = eff1 A h u := by simp [eff1, h1, h2]
        simp only [eff2, this]
      · intro r' hr'; rw [h1] at hr'; exact absurd hr' (by simp)
      · intro r' hr' _ q hq
        rw [h2] at hr'
        simp only [Option.some.injEq] at hr' hq
        exact hq.symm.trans hr'
      · intro x q y
        rw [show u.power2 = _ from y] at x
        exact absurd x (by simp)
    | none =>
      have g := grow_alloc h (A.make u.par.par.model1)
      set a := h.alloc (A.make u.par.par.model1) with ha
      have hobj : a.1.obj a.2 = A.make u.par.par.model1 := by simp [ha, Heap.alloc]
      have hlt : a.2 < a.1.next := by simp [ha, Heap.alloc]
      have he : eff1 A h u = A.make u.par.par.model1 := by simp [eff1, h1, h2]
      have he' : eff1 A a.1 { u with power1 := some a.2 } = eff1 A h u := by rw [he, ← hobj]; rfl
      refine ⟨⟨g, ⟨fun r x => lt_of_lt_of_le (w.model r x) g.next, ?_, fun r x => lt_of_lt_of_le (w.p2 r x) g.next⟩, rfl, he', ?_,
        rfl, ?_, fun _ x => x, fun _ x => x, ?_, fun _ x => x, ?_⟩, ?_, rfl, hlt, rfl, rfl, rfl⟩
      · intro r' hr'
        simp only [Option.some.injEq] at hr'
        exact hr' ▸ hlt
      · simp only [eff2, he']
        cases h3 : u.power2 with
        | none => rfl
        | some o => cases o with
          | none => rfl
          | some r => simp only [Option.map_some, g.obj r (w.p2 r h3)]
      · intro r' hr'; rw [h1] at hr'; exact absurd hr' (by simp)
      · intro r' hr'; rw [h2] at hr'; exact absurd hr' (by simp)
      · intro x q y
        rw [show u.power2 = _ from y] at x
        exact absurd x (by simp)
      · rw [he]; exact hobj

theorem readPower2_spec (h : Heap M) (u : Up P) (w : u.Wf h) :
    Ext A h u (readPower2 A h u).1 (readPower2 A h u).2.1 ∧
    (readPower2 A h u).2.2.map (readPower2 A h u).1.obj = eff2 A h u ∧
    (readPower2 A h u).2.1.power2 = some (readPower2 A h u).2.2 ∧
    (readPower2 A h u).2.1.attrs = u.attrs := by
  unfold readPower2
  cases h1 : u.power2 with
  | some r => exact ⟨Ext.refl A h u w, by simp [eff2, h1], h1, rfl⟩
  | none =>
    cases h2 : u.par.par.model2 with
    | none =>
      refine ⟨⟨Grow.refl h, ⟨w.model, w.p1, by simp⟩, rfl, rfl, ?_, rfl, fun _ x => x, ?_, fun _ x => x, fun _ _ x => x, ?_,
        fun _ q y => by simp at y⟩, ?_, rfl, rfl⟩
      · simp [eff2, h1, h2]
      · intro r' hr'; rw [h1] at hr'; exact absurd hr' (by simp)
      · intro _ _ o ho
        simp only [Option.some.injEq] at ho
        exact ho.symm
      · simp [eff2, h1, h2]
    | some p2 =>
      obtain ⟨a1, a2, a3, a4, a5, a6, a7⟩ := readPower1_spec A h u w
      obtain ⟨h1', u1, r, hr⟩ : ∃ h' u' r, readPower1 A h u = (h', u', r) := ⟨_, _, _, rfl⟩
      rw [hr] at a1 a2 a3 a4 a5 a6 a7
      simp only [hr] at a1 a2 a3 a4 a5 a6 a7 ⊢
      set c := h1'.alloc (h1'.obj r) with hc
      have hobj : c.1.obj c.2 = h1'.obj r := by simp [hc, Heap.alloc]
      set h2' := c.1.set c.2 (A.update (c.1.obj c.2) p2) with hh2
      have hnext : h2'.next = h1'.next + 1 := rfl
      have hnew : h2'.obj h1'.next = A.update (eff1 A h u) p2 := by
        show (if h1'.next = h1'.next then A.update (c.1.obj c.2) p2 else _) = _
        rw [if_pos rfl, hobj, a2]
      have hold : ∀ s < h1'.next, h2'.obj s = h1'.obj s := by
        intro s hs
        have : s ≠ h1'.next := Nat.ne_of_lt hs
        simp [hh2, hc, Heap.set, Heap.alloc, this]
      have g : Grow h1' h2' := ⟨Nat.le_succ _, hold⟩
      have hcs : c.2 = h1'.next := rfl
      have he1 : eff1 A h2' { u1 with power2 := some (some c.2) } = eff1 A h u := by
        have : eff1 A h2' { u1 with power2 := some (some c.2) } = h2'.obj r := by simp [eff1, a3]
        rw [this, hold r a4, a2]
      have he2 : eff2 A h u = some (A.update (eff1 A h u) p2) := by simp [eff2, h1, h2]
      refine ⟨⟨a1.grow.trans g, ⟨fun s x => lt_of_lt_of_le (a1.wf.model s x) g.next, fun s x => lt_of_lt_of_le (a1.wf.p1 s x) g.next, ?_⟩,
        a1.par, he1, ?_, a1.f, a1.c1, ?_, a1.c3, a1.o1, ?_, ?_⟩, ?_, trivial, a7⟩
      · intro s hs
        simp only [Option.some.injEq] at hs
        rw [← hs, hcs, hnext]; exact Nat.lt_succ_self _
      · rw [he2]; simp only [eff2, Option.map_some, hcs, hnew]
      · intro r' hr'; rw [h1] at hr'; exact absurd hr' (by simp)
      · intro x; rw [h2] at x; exact absurd x (by simp)
      · intro _ q y
        simp only [Option.some.injEq] at y
        rw [← y, hcs]; exact a1.grow.next
      · rw [he2]; simp only [Option.map_some, hcs, hnew]

theorem readFrac1_spec (h : Heap M) (u : Up P) (w : u.Wf h) :
    Ext A h u h (readFrac1 u).1 ∧ (readFrac1 u).2 = effF u ∧ (readFrac1 u).1.attrs = u.attrs ∧
    (readFrac1 u).1.power1 = u.power1 ∧ (readFrac1 u).1.power2 = u.power2 := by
  unfold readFrac1
  cases h1 : u.frac1 with
  | some v => exact ⟨Ext.refl A h u w, by simp [effF, h1], rfl, rfl, rfl⟩
  | none =>
    cases h2 : frac1Val u.par.par with
    | error e => exact ⟨Ext.refl A h u w, by simp [effF, h1, h2], rfl, rfl, rfl⟩
    | ok v =>
      refine ⟨⟨Grow.refl h, ⟨w.model, w.p1, w.p2⟩, rfl, rfl, rfl, by simp [effF, h1, h2], fun _ x => x, fun _ x => x, ?_, fun _ _ x => x,
        fun _ x => x, fun x q y => ?_⟩, by simp [effF, h1, h2], rfl, rfl, rfl⟩
      · intro r' hr'; rw [h1] at hr'; exact absurd hr' (by simp)
      · rw [show u.power2 = _ from y] at x
        exact absurd x (by simp)

theorem oneComponent_spec (mode comp : String) (h : Heap M) (u : Up P) (w : u.Wf h) :
    Ext A h u (oneComponent A mode comp h u).1.1 (oneComponent A mode comp h u).1.2 ∧
    (oneComponent A mode comp h u).2 = valueNow A h u mode comp ∧
    (oneComponent A mode comp h u).1.2.attrs = u.attrs ∧
    ((∃ v, (oneComponent A mode comp h u).2 = .ok v) →
      (∃ r, (oneComponent A mode comp h u).1.2.power1 = some r) ∧ ∃ r, (oneComponent A mode comp h u).1.2.power2 = some r) := by
  obtain ⟨a1, a2, a3, a4, a5, a6, a7⟩ := readPower1_spec A h u w
  unfold oneComponent valueNow pureComp
  obtain ⟨h1, u1, r1, hr1⟩ : ∃ h' u' r, readPower1 A h u = (h', u', r) := ⟨_, _, _, rfl⟩
  simp only [hr1] at a1 a2 a3 a4 a5 a6 a7 ⊢
  rw [a2, a1.par]
  cases hc : upsampled u.par.par (A.view (eff1 A h u)) mode comp with
  | error e => exact ⟨a1, rfl, a7, fun ⟨v, hv⟩ => by simp at hv⟩
  | ok x1 =>
    obtain ⟨b1, b2, b3, b4⟩ := readPower2_spec A h1 u1 a1.wf
    obtain ⟨h2, u2, r2, hr2⟩ : ∃ h' u' r, readPower2 A h1 u1 = (h', u', r) := ⟨_, _, _, rfl⟩
    simp only [hr2] at b1 b2 b3 b4 ⊢
    have b12 := Ext.trans A a1 b1
    have hv2 : (r2.map fun r => A.view (h2.obj r)) = (eff2 A h u).map A.view := by
      rw [← a1.e2, ← b2, Option.map_map]; rfl
    rw [hv2, b12.par]
    have hp1 : u2.power1 = some r1 := b1.c1 _ a3
    cases hc2 : upsampled2 u.par.par ((eff2 A h u).map A.view) mode comp with
    | error e => exact ⟨b12, rfl, b4.trans a7, fun ⟨v, hv⟩ => by simp at hv⟩
    | ok x2 =>
      by_cases hm : mode = "mm"
      · simp only [hm, if_true]
        exact ⟨b12, trivial, b4.trans a7, fun _ => ⟨⟨r1, hp1⟩, r2, b3⟩⟩
      · simp only [hm, if_false]
        obtain ⟨d1, d2, d3, d4, d5⟩ := readFrac1_spec A h2 u2 b12.wf
        rw [b12.f] at d2
        obtain ⟨u3, f, hf⟩ : ∃ u' f, readFrac1 u2 = (u', f) := ⟨_, _, rfl⟩
        simp only [hf] at d1 d2 d3 d4 d5 ⊢
        rw [← d2]
        cases f with
        | error e => exact ⟨Ext.trans A b12 d1, rfl, d3.trans (b4.trans a7), fun ⟨v, hv⟩ => by simp at hv⟩
        | ok f => exact ⟨Ext.trans A b12 d1, rfl, d3.trans (b4.trans a7), fun _ => ⟨⟨r1, d4.trans hp1⟩, r2, d5.trans b3⟩⟩

theorem collect_spec (mode : String) (comps : List String) (h : Heap M) (u : Up P) (w : u.Wf h) :
    Ext A h u (collect A mode comps h u).1.1 (collect A mode comps h u).1.2 ∧
    (collect A mode comps h u).1.2.attrs = u.attrs ∧
    ((∀ c ∈ comps, ∃ v, valueNow A h u mode c = .ok v) → ∃ d, (collect A mode comps h u).2 = .ok d) ∧
    ∀ d, (collect A mode comps h u).2 = .ok d →
      (comps ≠ [] → (∃ r, (collect A mode comps h u).1.2.power1 = some r) ∧ ∃ r, (collect A mode comps h u).1.2.power2 = some r) ∧
      ∀ c, (c ∈ comps → ∃ v, valueNow A h u mode c = .ok v ∧ d c = some v) ∧ (c ∉ comps → d c = none) := by
  induction comps generalizing h u with
  | nil =>
    refine ⟨Ext.refl A h u w, rfl, fun _ => ⟨_, rfl⟩, fun d hd => ⟨fun h => absurd rfl h, fun c => ⟨fun h => by simp at h, fun _ => ?_⟩⟩⟩
    simp only [collect, Except.ok.injEq] at hd
    rw [← hd]
  | cons comp comps ih =>
    obtain ⟨a1, a2, a3, a4⟩ := oneComponent_spec A mode comp h u w
    simp only [collect]
    obtain ⟨⟨h1, u1⟩, r, hr⟩ : ∃ s r, oneComponent A mode comp h u = (s, r) := ⟨_, _, rfl⟩
    simp only [hr] at a1 a2 a3 a4 ⊢
    cases r with
    | error e =>
      refine ⟨a1, a3, fun hall => ?_, fun d hd => by simp at hd⟩
      obtain ⟨v, hv⟩ := hall comp (by simp)
      rw [hv] at a2; simp at a2
    | ok v =>
      obtain ⟨b1, b2, b3, b4⟩ := ih h1 u1 a1.wf
      obtain ⟨⟨h2, u2⟩, r2, hr2⟩ : ∃ s r, collect A mode comps h1 u1 = (s, r) := ⟨_, _, rfl⟩
      simp only [hr2, a1.value] at b1 b2 b3 b4 ⊢
      obtain ⟨⟨q1, hq1⟩, q2, hq2⟩ := a4 ⟨v, rfl⟩
      cases r2 with
      | error e =>
        refine ⟨Ext.trans A a1 b1, b2.trans a3, fun hall => ?_, fun d hd => by simp at hd⟩
        obtain ⟨d, hd⟩ := b3 fun c hc => hall c (List.mem_cons_of_mem _ hc)
        simp at hd
      | ok d2 =>
        refine ⟨Ext.trans A a1 b1, b2.trans a3, fun _ => ⟨_, rfl⟩, fun d hd => ⟨fun _ => ⟨⟨q1, b1.c1 _ hq1⟩, q2, b1.c2 _ hq2⟩, fun c => ?_⟩⟩
        simp only [Except.ok.injEq] at hd
        obtain ⟨e1, e2⟩ := (b4 d2 rfl).2 c
        by_cases hc : c ∈ comps
        · obtain ⟨w', hw, hdw⟩ := e1 hc
          refine ⟨fun _ => ⟨w', hw, ?_⟩, fun h => absurd (List.mem_cons_of_mem _ hc) h⟩
          rw [← hd]; simp only [hdw]
        · by_cases hcc : c = comp
          · refine ⟨fun _ => ⟨v, by rw [hcc]; exact a2.symm, ?_⟩, fun h => absurd (by rw [hcc]; simp) h⟩
            subst hcc; rw [← hd]; simp only [e2 hc, if_true]
          · refine ⟨fun h => absurd h (by simp [hcc, hc]), fun _ => ?_⟩
            rw [← hd]; simp only [e2 hc, hcc, if_false]

/-- every requested component of every requested mode is stored with the value `val`, and no other component -/
def Stored (u : Up P) (modes comps : List String) (val : String → String → Except PyErr Arr3) : Prop :=
  ∀ m ∈ modes, ∃ d, u.attrs m = some d ∧ ∀ c, (c ∈ comps → ∃ v, val m c = .ok v ∧ d c = some v) ∧ (c ∉ comps → d c = none)

theorem results_spec (comps modes : List String) (h : Heap M) (u : Up P) (w : u.Wf h) :
    Ext A h u (results A comps modes h u).1.1 (results A comps modes h u).1.2 ∧
    (∀ m ∉ modes, (results A comps modes h u).1.2.attrs m = u.attrs m) ∧
    ((∀ m ∈ modes, ∀ c ∈ comps, ∃ v, valueNow A h u m c = .ok v) → (results A comps modes h u).2 = .ok ()) ∧
    ((results A comps modes h u).2 = .ok () →
      (modes ≠ [] → comps ≠ [] → (∃ r, (results A comps modes h u).1.2.power1 = some r) ∧
        ∃ r, (results A comps modes h u).1.2.power2 = some r) ∧
      Stored (results A comps modes h u).1.2 modes comps (valueNow A h u)) := by
  induction modes generalizing h u with
  | nil =>
    exact ⟨Ext.refl A h u w, fun _ _ => rfl, fun _ => rfl, fun _ => ⟨fun h => absurd rfl h, fun m hm => by simp at hm⟩⟩
  | cons mode modes ih =>
    obtain ⟨a1, a2, a3, a4⟩ := collect_spec A mode comps h u w
    simp only [results]
    obtain ⟨⟨h1, u1⟩, r, hr⟩ : ∃ s r, collect A mode comps h u = (s, r) := ⟨_, _, rfl⟩
    simp only [hr] at a1 a2 a3 a4 ⊢
    cases r with
    | error e =>
      refine ⟨a1, fun m _ => by rw [a2], fun hall => ?_, fun hh => by simp at hh⟩
      obtain ⟨d, hd⟩ := a3 fun c hc => hall mode (by simp) c hc
      simp at hd
    | ok d =>
      have x : Ext A h u h1 (u1.store mode d) :=
        ⟨a1.grow, ⟨a1.wf.model, a1.wf.p1, a1.wf.p2⟩, a1.par, a1.e1, a1.e2, a1.f, a1.c1, a1.c2, a1.c3, a1.o1, a1.o2, a1.n2⟩
      obtain ⟨b1, b2, b3, b4⟩ := ih h1 (u1.store mode d) x.wf
      rw [x.value] at b3 b4
      obtain ⟨c1, c2⟩ := a4 d rfl
      refine ⟨Ext.trans A x b1, ?_, fun hall => b3 fun m hm => hall m (List.mem_cons_of_mem _ hm), ?_⟩
      · intro m hm
        simp only [List.mem_cons, not_or] at hm
        rw [b2 m hm.2]
        simp only [Up.store, hm.1, if_false, a2]
      · intro hok
        obtain ⟨d1, d2⟩ := b4 hok
        refine ⟨fun _ hcomps => ?_, fun m hm => ?_⟩
        · obtain ⟨⟨q1, hq1⟩, q2, hq2⟩ := c1 hcomps
          exact ⟨⟨q1, b1.c1 _ hq1⟩, q2, b1.c2 _ hq2⟩
        · by_cases hmm : m ∈ modes
          · exact d2 m hmm
          · have he : m = mode := by simpa [hmm] using hm
            subst he
            refine ⟨d, ?_, c2⟩
            rw [b2 m hmm]; simp [Up.store]

/-! ## Histories -/

/-- a step refers to objects that exist -/
def Op.Valid (w : World M P) : Op P → Prop
  | .newModel _ => True
  | .update r _ => r < w.heap.next
  | .newUp p => ∀ r, p.model = some r → r < w.heap.next
  | .results i _ _ => i < w.nup

/-- so does every step of a history -/
def Valid : World M P → List (Op P) → Prop
  | _, [] => True
  | w, op :: l => op.Valid w ∧ Valid (step A w op) l

/-- the references of all upsampled objects exist -/
def World.Wf (w : World M P) : Prop := ∀ i < w.nup, (w.up i).Wf w.heap

theorem Up.Wf.mono {h h' : Heap M} {u : Up P} (w : u.Wf h) (g : h.next ≤ h'.next) : u.Wf h' :=
  ⟨fun r x => lt_of_lt_of_le (w.model r x) g, fun r x => lt_of_lt_of_le (w.p1 r x) g, fun r x => lt_of_lt_of_le (w.p2 r x) g⟩

theorem fresh_wf {h : Heap M} {p : Pars P} (hp : ∀ r, p.model = some r → r < h.next) : (Up.fresh p).Wf h :=
  ⟨hp, fun r x => by simp [Up.fresh] at x, fun r x => by simp [Up.fresh] at x⟩

/-- one step: the world stays well formed, objects stay, and only `update` changes a halo model, only `results` an upsampled object -/
theorem step_spec (w : World M P) (hw : w.Wf) (op : Op P) (hv : op.Valid w) :
    (step A w op).Wf ∧ w.heap.next ≤ (step A w op).heap.next ∧ w.nup ≤ (step A w op).nup ∧
    (∀ r < w.heap.next, (∀ q, op ≠ .update r q) → (step A w op).heap.obj r = w.heap.obj r) ∧
    ∀ i < w.nup, (∀ ms cs, op ≠ .results i ms cs) → (step A w op).up i = w.up i := by
  cases op with
  | newModel p =>
    have g := grow_alloc w.heap (A.make p)
    exact ⟨fun i hi => (hw i hi).mono g.next, g.next, le_rfl, fun r hr _ => g.obj r hr, fun _ _ _ => rfl⟩
  | update r p =>
    refine ⟨fun i hi => (hw i hi).mono le_rfl, le_rfl, le_rfl, fun s hs hne => ?_, fun _ _ _ => rfl⟩
    have : s ≠ r := fun e => hne p (by rw [e])
    simp [step, Heap.set, this]
  | newUp p =>
    refine ⟨fun i hi => ?_, le_rfl, Nat.le_succ _, fun _ _ _ => rfl, fun i hi _ => ?_⟩
    · by_cases e : i = w.nup
      · simp only [step, e, if_true]; exact fresh_wf hv
      · have : i < w.nup := by simp only [step] at hi; omega
        simp only [step, e, if_false]; exact hw i this
    · have : i ≠ w.nup := Nat.ne_of_lt hi
      simp [step, this]
  | results i ms cs =>
    obtain ⟨a, -⟩ := results_spec A cs ms w.heap (w.up i) (hw i hv)
    refine ⟨fun j hj => ?_, a.grow.next, le_rfl, fun r hr _ => a.grow.obj r hr, fun j hj hne => ?_⟩
    · by_cases e : j = i
      · simp only [step, World.setUp, e, if_true]; exact a.wf
      · simp only [step, World.setUp, e, if_false]
        exact (hw j hj).mono a.grow.next
    · have : j ≠ i := fun e => hne ms cs (by rw [e])
      simp [step, World.setUp, this]

/-- a history -/
theorem run_spec (w : World M P) (hw : w.Wf) (ops : List (Op P)) (hv : Valid A w ops) :
    (run A w ops).Wf ∧ w.heap.next ≤ (run A w ops).heap.next ∧ w.nup ≤ (run A w ops).nup ∧
    (∀ r < w.heap.next, (∀ q, .update r q ∉ ops) → (run A w ops).heap.obj r = w.heap.obj r) ∧
    ∀ i < w.nup, (∀ ms cs, .results i ms cs ∉ ops) → (run A w ops).up i = w.up i := by
  induction ops generalizing w with
  | nil => exact ⟨hw, le_rfl, le_rfl, fun _ _ _ => rfl, fun _ _ _ => rfl⟩
  | cons op ops ih =>
    obtain ⟨a1, a2, a3, a4, a5⟩ := step_spec A w hw op hv.1
    obtain ⟨b1, b2, b3, b4, b5⟩ := ih (step A w op) a1 hv.2
    refine ⟨b1, a2.trans b2, a3.trans b3, fun r hr hne => ?_, fun i hi hne => ?_⟩
    · exact (b4 r (lt_of_lt_of_le hr a2) fun q hq => hne q (List.mem_cons_of_mem _ hq)).trans
        (a4 r hr fun q hq => hne q (by rw [hq]; simp))
    · exact (b5 i (lt_of_lt_of_le hi a3) fun ms cs hq => hne ms cs (List.mem_cons_of_mem _ hq)).trans
        (a5 i hi fun ms cs hq => hne ms cs (by rw [hq]; simp))

/-- C126: only `update` changes a halo model and only `results` of an upsampled object that object, in every history: computing
upsampled spectra, with or without a second population, leaves the halo model of the caller and every other upsampled object made
from it as they are. -/
theorem C126_no_interference (w : World M P) (hw : w.Wf) (ops : List (Op P)) (hv : Valid A w ops) :
    (∀ r < w.heap.next, (∀ q, .update r q ∉ ops) → (run A w ops).heap.obj r = w.heap.obj r) ∧
    ∀ i < w.nup, (∀ ms cs, .results i ms cs ∉ ops) → (run A w ops).up i = w.up i :=
  ⟨(run_spec A w hw ops hv).2.2.2.1, (run_spec A w hw ops hv).2.2.2.2⟩

/-- what stays true of an upsampled object made with arguments `p` -/
structure Inv (p : Pars P) (u : Up P) : Prop where
  par : u.par = p
  f : effF u = frac1Val p.par
  o1 : ∀ r, p.model = some r → ∀ q, u.power1 = some q → q = r
  o2 : p.par.model2 = none → ∀ o, u.power2 = some o → o = none

theorem inv_fresh (p : Pars P) : Inv p (Up.fresh p) :=
  ⟨rfl, rfl, fun _ _ q x => by simp [Up.fresh] at x, fun _ o x => by simp [Up.fresh] at x⟩

theorem inv_ext {p : Pars P} {h h' : Heap M} {u u' : Up P} (a : Ext A h u h' u') (i : Inv p u) : Inv p u' :=
  ⟨a.par.trans i.par, a.f.trans i.f, fun r hr => a.o1 r (by rw [i.par]; exact hr) (i.o1 r hr),
    fun hm => a.o2 (by rw [i.par]; exact hm) (i.o2 hm)⟩

theorem run_inv (p : Pars P) (i : ℕ) (w : World M P) (hw : w.Wf) (ops : List (Op P)) (hv : Valid A w ops) (hi : i < w.nup)
    (h : Inv p (w.up i)) : Inv p ((run A w ops).up i) := by
  induction ops generalizing w with
  | nil => exact h
  | cons op ops ih =>
    obtain ⟨a1, a2, a3, a4, a5⟩ := step_spec A w hw op hv.1
    refine ih (step A w op) a1 hv.2 (lt_of_lt_of_le hi a3) ?_
    by_cases hne : ∃ ms cs, op = .results i ms cs
    · obtain ⟨ms, cs, rfl⟩ := hne
      have e := (results_spec A cs ms w.heap (w.up i) (hw i hi)).1
      simp only [step, World.setUp, if_true]
      exact inv_ext A e h
    · rw [a5 i hi fun ms cs e => hne ⟨ms, cs, e⟩]; exact h

/-- the second halo model, once made, is the same object for ever -/
theorem run_power2 (i : ℕ) (o : Option Ref) (w : World M P) (hw : w.Wf) (ops : List (Op P)) (hv : Valid A w ops) (hi : i < w.nup)
    (h : (w.up i).power2 = some o) : ((run A w ops).up i).power2 = some o := by
  induction ops generalizing w with
  | nil => exact h
  | cons op ops ih =>
    obtain ⟨a1, a2, a3, a4, a5⟩ := step_spec A w hw op hv.1
    refine ih (step A w op) a1 hv.2 (lt_of_lt_of_le hi a3) ?_
    by_cases hne : ∃ ms cs, op = .results i ms cs
    · obtain ⟨ms, cs, rfl⟩ := hne
      have e := (results_spec A cs ms w.heap (w.up i) (hw i hi)).1
      simp only [step, World.setUp, if_true]
      exact e.c2 _ h
    · rw [a5 i hi fun ms cs e => hne ⟨ms, cs, e⟩]; exact h

theorem Inv.eff1 {p : Pars P} {u : Up P} (h : Heap M) (i : Inv p u) {r : Ref} (hr : p.model = some r) : eff1 A h u = h.obj r := by
  unfold AddShared.eff1
  cases hu : u.power1 with
  | some q => simp only [i.o1 r hr q hu]
  | none => simp only [i.par, hr]

theorem Inv.eff2 {p : Pars P} {u : Up P} (h : Heap M) (i : Inv p u) (hm : p.par.model2 = none) : eff2 A h u = none := by
  unfold AddShared.eff2
  cases hu : u.power2 with
  | some q => simp only [i.o2 hm q hu]; rfl
  | none => simp only [i.par, hm]; rfl

theorem stored_ext {u u' : Up P} {modes comps : List String} {val : String → String → Except PyErr Arr3}
    (a : Stored u modes comps val) (b : Stored u' modes comps val) (m : String) (hm : m ∈ modes) : u.attrs m = u'.attrs m := by
  obtain ⟨d, hd, hdc⟩ := a m hm
  obtain ⟨e, he, hec⟩ := b m hm
  rw [hd, he]
  congr 1
  funext c
  by_cases hc : c ∈ comps
  · obtain ⟨v, hv, hv'⟩ := (hdc c).1 hc
    obtain ⟨x, hx, hx'⟩ := (hec c).1 hc
    rw [hv] at hx
    injection hx with hx
    rw [hv', hx', hx]
  · rw [(hdc c).2 hc, (hec c).2 hc]

theorem results_ok_iff (comps modes : List String) (h : Heap M) (u : Up P) (w : u.Wf h) :
    (results A comps modes h u).2 = .ok () ↔ ∀ m ∈ modes, ∀ c ∈ comps, ∃ v, valueNow A h u m c = .ok v := by
  obtain ⟨-, -, a, b⟩ := results_spec A comps modes h u w
  refine ⟨fun hok m hm c hc => ?_, a⟩
  obtain ⟨d, hd, hdc⟩ := (b hok).2 m hm
  obtain ⟨v, hv, -⟩ := (hdc c).1 hc
  exact ⟨v, hv⟩

/-- C126: an upsampled object made from a halo model of the caller follows that model.  After any history - updates of the model, earlier
results of this object, other objects sharing the model - its results are those of an upsampled object made anew from the model as it is
now.  (The interface relies on it: onepower_interface.py:1035-1043, 1127, 1149.) -/
theorem C126_follows_model (w : World M P) (hw : w.Wf) (p : Pars P) (r : Ref) (hr : p.model = some r) (h2 : p.par.model2 = none)
    (ops : List (Op P)) (hv : Valid A w (.newUp p :: ops)) (modes comps : List String) :
    let w' := run A w (.newUp p :: ops)
    let old := results A comps modes w'.heap (w'.up w.nup)
    let new := results A comps modes w'.heap (Up.fresh p)
    (old.2 = .ok () ↔ new.2 = .ok ()) ∧ (old.2 = .ok () → ∀ m ∈ modes, old.1.2.attrs m = new.1.2.attrs m) := by
  intro w' old new
  obtain ⟨a1, a2, a3, -, -⟩ := step_spec A w hw _ hv.1
  have hlt : w.nup < (step A w (.newUp p)).nup := Nat.lt_succ_self _
  have hi : Inv p (w'.up w.nup) := by
    refine run_inv A p w.nup (step A w (.newUp p)) a1 ops hv.2 hlt ?_
    simp only [step, if_true]; exact inv_fresh p
  obtain ⟨b1, b2, b3, -, -⟩ := run_spec A (step A w (.newUp p)) a1 ops hv.2
  have hwf : (w'.up w.nup).Wf w'.heap := b1 _ (lt_of_lt_of_le hlt b3)
  have hwn : (Up.fresh p).Wf w'.heap := fresh_wf fun s hs => lt_of_lt_of_le (hv.1 s hs) b2
  have hval : valueNow A w'.heap (w'.up w.nup) = valueNow A w'.heap (Up.fresh p) := by
    funext m c
    simp only [valueNow, hi.par, hi.eff1 A _ hr, hi.eff2 A _ h2, hi.f, (inv_fresh p).eff1 A _ hr, (inv_fresh p).eff2 A _ h2,
      (inv_fresh p).par, (inv_fresh p).f]
  have hiff : old.2 = .ok () ↔ new.2 = .ok () := by
    rw [results_ok_iff A comps modes _ _ hwf, results_ok_iff A comps modes _ _ hwn, hval]
  refine ⟨hiff, fun hok m hm => ?_⟩
  have s1 := ((results_spec A comps modes _ _ hwf).2.2.2 hok).2
  have s2 := ((results_spec A comps modes _ _ hwn).2.2.2 (hiff.1 hok)).2
  rw [hval] at s1
  exact stored_ext s1 s2 m hm

theorem add_collect_ok (env : Env P) (mode : String) (comps : List String) (s : State P)
    (h : ∀ c ∈ comps, ∃ v, Add.valueNow env s mode c = .ok v) : ∃ d, (Add.collect env mode comps s).2 = .ok d := by
  induction comps generalizing s with
  | nil => exact ⟨_, rfl⟩
  | cons comp comps ih =>
    obtain ⟨a1, a2, -⟩ := Add.oneComponent_spec env mode comp s
    obtain ⟨v, hv⟩ := h comp (by simp)
    rw [hv] at a1
    simp only [Add.collect]
    obtain ⟨s1, r, hr⟩ : ∃ s1 r, Add.oneComponent env mode comp s = (s1, r) := ⟨_, _, rfl⟩
    simp only [hr] at a1 a2 ⊢
    subst a1
    obtain ⟨d, hd⟩ := ih s1 fun c hc => by rw [Add.valueNow_ext env a2]; exact h c (List.mem_cons_of_mem _ hc)
    obtain ⟨s2, r2, hr2⟩ : ∃ s2 r, Add.collect env mode comps s1 = (s2, r) := ⟨_, _, rfl⟩
    simp only [hr2] at hd ⊢
    subst hd
    exact ⟨_, rfl⟩

theorem add_results_ok (env : Env P) (comps modes : List String) (s : State P)
    (h : ∀ m ∈ modes, ∀ c ∈ comps, ∃ v, Add.valueNow env s m c = .ok v) : (Add.results env comps modes s).2 = .ok () := by
  induction modes generalizing s with
  | nil => rfl
  | cons mode modes ih =>
    obtain ⟨a1, -⟩ := Add.collect_spec env mode comps s
    obtain ⟨d, hd⟩ := add_collect_ok env mode comps s fun c hc => h mode (by simp) c hc
    simp only [Add.results]
    obtain ⟨s1, r, hr⟩ : ∃ s1 r, Add.collect env mode comps s = (s1, r) := ⟨_, _, rfl⟩
    simp only [hr] at a1 hd ⊢
    subst hd
    refine ih _ fun m hm c hc => ?_
    have : Add.valueNow env { s1 with attrs := fun m => if m = mode then some d else s1.attrs m } = Add.valueNow env s := by
      rw [← Add.valueNow_ext env a1]; rfl
    rw [this]
    exact h m (List.mem_cons_of_mem _ hm) c hc

/-- C126: what an upsampled object made now stores is what the model with halo models as values (C59 - C63) says of the state of the
shared halo model. -/
theorem C126_value (h : Heap M) (p : Pars P) (r : Ref) (hr : p.model = some r) (hlt : r < h.next) (env : Env P)
    (henv : ∀ q, env.cloneUpdate (A.view (h.obj r)) q = A.view (A.update (h.obj r) q)) (modes comps : List String)
    (hok : (results A comps modes h (Up.fresh p)).2 = .ok ()) :
    (Add.results env comps modes (Add.fresh { p.par with model := some (A.view (h.obj r)) })).2 = .ok () ∧
    ∀ m ∈ modes, (results A comps modes h (Up.fresh p)).1.2.attrs m =
      (Add.results env comps modes (Add.fresh { p.par with model := some (A.view (h.obj r)) })).1.attrs m := by
  have hwf : (Up.fresh p).Wf h := fresh_wf fun s hs => by rw [hr] at hs; injection hs with hs; exact hs ▸ hlt
  have s1 := ((results_spec A comps modes h _ hwf).2.2.2 hok).2
  have hval : valueNow A h (Up.fresh p) = Add.valueNow env (Add.fresh { p.par with model := some (A.view (h.obj r)) }) := by
    funext m c
    have e2 : (AddShared.eff2 A h (Up.fresh p)).map A.view = effP2 env (Add.fresh { p.par with model := some (A.view (h.obj r)) }) := by
      simp only [AddShared.eff2, Up.fresh, AddShared.eff1, hr, effP2, Add.fresh, effP1]
      cases p.par.model2 with
      | none => rfl
      | some q => simp [henv]
    simp only [valueNow, Add.valueNow, e2, (inv_fresh p).eff1 A h hr]
    rfl
  have hok' : (Add.results env comps modes (Add.fresh { p.par with model := some (A.view (h.obj r)) })).2 = .ok () := by
    refine add_results_ok env comps modes _ fun m hm c hc => ?_
    rw [← hval]
    exact (results_ok_iff A comps modes h _ hwf).1 hok m hm c hc
  refine ⟨hok', fun m hm => ?_⟩
  have s2 := (Add.results_spec env comps modes (Add.fresh { p.par with model := some (A.view (h.obj r)) })).2.2 hok'
  rw [hval] at s1
  obtain ⟨d, hd, hdc⟩ := s2 m hm
  have s3 : Stored ⟨p, none, none, none, fun x => if x = m then some d else none⟩ [m] comps
      (Add.valueNow env (Add.fresh { p.par with model := some (A.view (h.obj r)) })) := by
    intro x hx
    simp only [List.mem_singleton] at hx
    exact ⟨d, by simp [hx], by rw [hx]; exact hdc⟩
  have s4 : Stored (results A comps modes h (Up.fresh p)).1.2 [m] comps
      (Add.valueNow env (Add.fresh { p.par with model := some (A.view (h.obj r)) })) := by
    intro x hx
    simp only [List.mem_singleton] at hx
    exact s1 x (hx ▸ hm)
  rw [stored_ext s4 s3 m (by simp), hd]
  simp

/-- C126 (disagreement found): the two populations are taken at two moments.  The second one is a copy of the shared halo model made by
the first call of `results`; whatever the caller does to the model afterwards (short of finding the copy and changing it), later calls
mix the first population as it is then with the second one as it was. -/
theorem C126_second_stays (w : World M P) (hw : w.Wf) (p : Pars P) (r : Ref) (hr : p.model = some r) (p2 : P)
    (h2 : p.par.model2 = some p2) (before : List (Op P)) (hv : Valid A w (.newUp p :: before))
    (hb : ∀ ms cs, .results w.nup ms cs ∉ before) (modes comps : List String) (hm : modes ≠ []) (hc : comps ≠ [])
    (hok : (results A comps modes (run A w (.newUp p :: before)).heap ((run A w (.newUp p :: before)).up w.nup)).2 = .ok ()) :
    let w1 := run A w (.newUp p :: before)
    let w2 := step A w1 (.results w.nup modes comps)
    ∃ copy, w1.heap.next ≤ copy ∧ ∀ after, Valid A w2 after → (∀ q, .update copy q ∉ after) → ∀ modes' comps',
      let w3 := run A w2 after
      let mixed := pureComp p.par (A.view (w3.heap.obj r)) (some (A.view (A.update (w1.heap.obj r) p2))) (frac1Val p.par)
      ((results A comps' modes' w3.heap (w3.up w.nup)).2 = .ok () ↔ ∀ m ∈ modes', ∀ c ∈ comps', ∃ v, mixed m c = .ok v) ∧
      ((results A comps' modes' w3.heap (w3.up w.nup)).2 = .ok () →
        Stored (results A comps' modes' w3.heap (w3.up w.nup)).1.2 modes' comps' mixed) := by
  intro w1 w2
  obtain ⟨a1, a2, a3, -, -⟩ := step_spec A w hw _ hv.1
  have hlt : w.nup < (step A w (.newUp p)).nup := Nat.lt_succ_self _
  obtain ⟨b1, b2, b3, -, b5⟩ := run_spec A (step A w (.newUp p)) a1 before hv.2
  have hu1 : w1.up w.nup = Up.fresh p := by
    show (run A (step A w (.newUp p)) before).up w.nup = _
    rw [b5 w.nup hlt hb]; simp [step]
  have hlt1 : w.nup < w1.nup := lt_of_lt_of_le hlt b3
  have hwf1 : (w1.up w.nup).Wf w1.heap := b1 _ hlt1
  obtain ⟨e, -, -, es⟩ := results_spec A comps modes w1.heap (w1.up w.nup) hwf1
  obtain ⟨-, o, ho⟩ := (es hok).1 hm hc
  have hu2 : w2.up w.nup = (results A comps modes w1.heap (w1.up w.nup)).1.2 := by simp [w2, step, World.setUp]
  have hh2 : w2.heap = (results A comps modes w1.heap (w1.up w.nup)).1.1 := rfl
  have he2 : AddShared.eff2 A w1.heap (w1.up w.nup) = some (A.update (w1.heap.obj r) p2) := by
    rw [hu1]; simp [AddShared.eff2, Up.fresh, AddShared.eff1, hr, h2]
  have he2' : AddShared.eff2 A w2.heap (w2.up w.nup) = some (A.update (w1.heap.obj r) p2) := by
    rw [hu2, hh2, e.e2, he2]
  have hp2 : (w2.up w.nup).power2 = some o := by rw [hu2]; exact ho
  cases o with
  | none => simp [AddShared.eff2, hp2] at he2'
  | some copy =>
    have hobj : w2.heap.obj copy = A.update (w1.heap.obj r) p2 := by simpa [AddShared.eff2, hp2] using he2'
    have hnew : w1.heap.next ≤ copy := e.n2 (by rw [hu1]; rfl) copy ho
    have hwf2 : w2.Wf ∧ w1.heap.next ≤ w2.heap.next ∧ w1.nup ≤ w2.nup := by
      obtain ⟨x, y, z, -⟩ := step_spec A w1 b1 (.results w.nup modes comps) hlt1
      exact ⟨x, y, z⟩
    refine ⟨copy, hnew, ?_⟩
    intro after hv3 hne modes' comps' w3 mixed
    obtain ⟨c1, c2, c3, c4, -⟩ := run_spec A w2 hwf2.1 after hv3
    have hlt2 : w.nup < w2.nup := lt_of_lt_of_le hlt1 hwf2.2.2
    have hi : Inv p (w3.up w.nup) := by
      refine run_inv A p w.nup w2 hwf2.1 after hv3 hlt2 ?_
      rw [hu2]
      exact inv_ext A e (by rw [hu1]; exact inv_fresh p)
    have hcopy : copy < w2.heap.next := (hwf2.1 w.nup hlt2).p2 copy hp2
    have hp3 : (w3.up w.nup).power2 = some (some copy) := run_power2 A w.nup (some copy) w2 hwf2.1 after hv3 hlt2 hp2
    have hval : valueNow A w3.heap (w3.up w.nup) = mixed := by
      funext m c
      have : AddShared.eff2 A w3.heap (w3.up w.nup) = some (A.update (w1.heap.obj r) p2) := by
        simp only [AddShared.eff2, hp3, Option.map_some, ← hobj, c4 copy hcopy hne, w3]
      simp only [valueNow, hi.par, hi.eff1 A _ hr, this, hi.f, Option.map_some, mixed]
    rw [← hval]
    exact ⟨results_ok_iff A comps' modes' _ _ (c1 _ (lt_of_lt_of_le hlt2 c3)),
      fun hok3 => ((results_spec A comps' modes' _ _ (c1 _ (lt_of_lt_of_le hlt2 c3))).2.2.2 hok3).2⟩

/-- C126: with a halo model given, the parameters of the first population (`model_1_params`) are not looked at: whatever they are, the
same is stored.  (The text of the parameter, add.py:66-74, suggests an update if they differ from those of the model.) -/
theorem C126_first_parameters_ignored (h : Heap M) (p : Pars P) (r : Ref) (hr : p.model = some r) (hlt : r < h.next) (q : P)
    (modes comps : List String) :
    let a := results A comps modes h (Up.fresh p)
    let b := results A comps modes h (Up.fresh ⟨{ p.par with model1 := q }, p.model⟩)
    (a.2 = .ok () ↔ b.2 = .ok ()) ∧ (a.2 = .ok () → ∀ m ∈ modes, a.1.2.attrs m = b.1.2.attrs m) := by
  intro a b
  have hp : ∀ s, p.model = some s → s < h.next := fun s hs => by rw [hr] at hs; injection hs with hs; exact hs ▸ hlt
  have hwf : (Up.fresh p).Wf h := fresh_wf hp
  have hwf' : (Up.fresh (⟨{ p.par with model1 := q }, p.model⟩ : Pars P)).Wf h := fresh_wf hp
  have hval : valueNow A h (Up.fresh p) = valueNow A h (Up.fresh ⟨{ p.par with model1 := q }, p.model⟩) := by
    funext m c
    simp only [valueNow, AddShared.eff2, AddShared.eff1, Up.fresh, hr]
    rfl
  have hiff : a.2 = .ok () ↔ b.2 = .ok () := by
    rw [results_ok_iff A comps modes _ _ hwf, results_ok_iff A comps modes _ _ hwf', hval]
  refine ⟨hiff, fun hok m hm => ?_⟩
  have s1 := ((results_spec A comps modes _ _ hwf).2.2.2 hok).2
  have s2 := ((results_spec A comps modes _ _ hwf').2.2.2 (hiff.1 hok)).2
  rw [hval] at s1
  exact stored_ext s1 s2 m hm

/-- C126: one call of the interface (onepower_interface.py:1025-1170).  The shared halo model is updated with the parameters of the call
and read through an upsampled object; for the alignments its occupation settings are replaced and the same upsampled object (no second
population) or a new one (with a second population) is read again.  The spectra of the first stage are those of the model of the call and
stay; those of the second stage are those of the model with the settings of the alignment sample, both with the upsampled object made
before the settings were replaced and, for the two populations, with the one made after. -/
theorem C126_interface (w : World M P) (hw : w.Wf) (r : Ref) (hlt : r < w.heap.next) (kw ia p2 : P) (p p' : Pars P)
    (hp : p.model = some r) (hn : p.par.model2 = none) (hp' : p'.model = some r) (hn' : p'.par.model2 = some p2)
    (ms ms' comps : List String) (hdis : ∀ m ∈ ms, m ∉ ms')
    (ok1 : (results A comps ms (run A w [.update r kw, .newUp p]).heap ((run A w [.update r kw, .newUp p]).up w.nup)).2 = .ok ()) :
    let m1 := A.update (w.heap.obj r) kw
    let m2 := A.update m1 ia
    let w1 := run A w [.update r kw, .newUp p, .results w.nup ms comps, .update r ia]
    let same := results A comps ms' w1.heap (w1.up w.nup)
    let w2 := step A w1 (.newUp p')
    let split := results A comps ms' w2.heap (w2.up (w.nup + 1))
    Stored (w1.up w.nup) ms comps (pureComp p.par (A.view m1) none (frac1Val p.par)) ∧
    (same.2 = .ok () → Stored same.1.2 ms comps (pureComp p.par (A.view m1) none (frac1Val p.par)) ∧
      Stored same.1.2 ms' comps (pureComp p.par (A.view m2) none (frac1Val p.par))) ∧
    (split.2 = .ok () →
      Stored split.1.2 ms' comps (pureComp p'.par (A.view m2) (some (A.view (A.update m2 p2))) (frac1Val p'.par))) ∧
    split.1.1.obj r = m2 := by
  intro m1 m2 w1 same w2 split
  have hvA : Op.Valid w (.update r kw : Op P) := hlt
  obtain ⟨a1, a2, a3, -, -⟩ := step_spec A w hw (.update r kw) hvA
  set wA := step A w (.update r kw) with hA
  have hAr : wA.heap.obj r = m1 := by simp [hA, step, Heap.set, m1]
  have hAn : wA.heap.next = w.heap.next := rfl
  have hvB : Op.Valid wA (.newUp p : Op P) := fun s hs => by
    rw [hp] at hs; injection hs with hs; rw [hAn]; exact hs ▸ hlt
  obtain ⟨b1, b2, b3, -, -⟩ := step_spec A wA a1 (.newUp p) hvB
  set wB := step A wA (.newUp p) with hB
  have hBu : wB.up w.nup = Up.fresh p := by simp [hB, hA, step]
  have hBr : wB.heap.obj r = m1 := hAr
  have hBn : w.nup < wB.nup := Nat.lt_succ_self _
  obtain ⟨e, -, -, es⟩ := results_spec A comps ms wB.heap (wB.up w.nup) (b1 _ hBn)
  have st := (es ok1).2
  have hvalB : valueNow A wB.heap (wB.up w.nup) = pureComp p.par (A.view m1) none (frac1Val p.par) := by
    funext m c
    have i : Inv p (wB.up w.nup) := by rw [hBu]; exact inv_fresh p
    simp only [valueNow, i.par, i.eff1 A _ hp, i.eff2 A _ hn, i.f, hBr, Option.map_none]
  rw [hvalB] at st
  obtain ⟨c1, c2, c3, c4, -⟩ := step_spec A wB b1 (.results w.nup ms comps) hBn
  set wC := step A wB (.results w.nup ms comps) with hC
  have hCu : wC.up w.nup = (results A comps ms wB.heap (wB.up w.nup)).1.2 := by simp [hC, step, World.setUp]
  have hCr : wC.heap.obj r = m1 := (c4 r hlt fun q hq => by simp at hq).trans hBr
  have hrC : r < wC.heap.next := lt_of_lt_of_le hlt c2
  obtain ⟨d1, d2, d3, -, -⟩ := step_spec A wC c1 (.update r ia) hrC
  have hw1 : w1 = step A wC (.update r ia) := rfl
  rw [← hw1] at d1 d2 d3
  have hDu : w1.up w.nup = (results A comps ms wB.heap (wB.up w.nup)).1.2 := hCu
  have hDr : w1.heap.obj r = m2 := by simp [hw1, step, Heap.set, hCr, m2]
  have hrD : r < w1.heap.next := hrC
  have stD : Stored (w1.up w.nup) ms comps (pureComp p.par (A.view m1) none (frac1Val p.par)) := by rw [hDu]; exact st
  have iD : Inv p (w1.up w.nup) := by rw [hDu]; exact inv_ext A e (by rw [hBu]; exact inv_fresh p)
  have hDn : w.nup < w1.nup := hBn
  obtain ⟨f, fa, -, fs⟩ := results_spec A comps ms' w1.heap (w1.up w.nup) (d1 _ hDn)
  have hvE : Op.Valid w1 (.newUp p' : Op P) := fun s hs => by
    rw [hp'] at hs; injection hs with hs; exact hs ▸ hrD
  obtain ⟨g1, -, -, -, -⟩ := step_spec A w1 d1 (.newUp p') hvE
  have hEu : w2.up (w.nup + 1) = Up.fresh p' := by
    have : w1.nup = w.nup + 1 := rfl
    simp [w2, step, this]
  have hEn : w.nup + 1 < w2.nup := Nat.lt_succ_self _
  have iE : Inv p' (w2.up (w.nup + 1)) := by rw [hEu]; exact inv_fresh p'
  obtain ⟨q, -, -, qs⟩ := results_spec A comps ms' w2.heap (w2.up (w.nup + 1)) (g1 _ hEn)
  have hEr : w2.heap.obj r = m2 := hDr
  refine ⟨stD, fun hok => ⟨fun m hm => ?_, ?_⟩, fun hok => ?_, (q.grow.obj r hrD).trans hEr⟩
  · obtain ⟨d, hd, hdc⟩ := stD m hm
    exact ⟨d, (fa m (hdis m hm)).trans hd, hdc⟩
  · have hv : valueNow A w1.heap (w1.up w.nup) = pureComp p.par (A.view m2) none (frac1Val p.par) := by
      funext m c
      simp only [valueNow, iD.par, iD.eff1 A _ hp, iD.eff2 A _ hn, iD.f, hDr, Option.map_none]
    rw [← hv]
    exact (fs hok).2
  · have hv : valueNow A w2.heap (w2.up (w.nup + 1)) =
        pureComp p'.par (A.view m2) (some (A.view (A.update m2 p2))) (frac1Val p'.par) := by
      funext m c
      have h2 : AddShared.eff2 A w2.heap (w2.up (w.nup + 1)) = some (A.update m2 p2) := by
        rw [hEu]; simp [AddShared.eff2, Up.fresh, AddShared.eff1, hp', hn', hEr]
      simp only [valueNow, iE.par, iE.eff1 A _ hp', h2, iE.f, hEr, Option.map_some]
    rw [← hv]
    exact (qs hok).2

/-! ## A concrete program -/

/-- halo models with one number, which is the constant value of their galaxy and alignment spectra; an update adds to it -/
noncomputable def demoApi : Api ℝ ℝ where
  make := id
  update := fun m p => m + p
  view := fun c => ⟨2, fun i => i, 2, fun i => (i : ℝ) + 1, fun m => if m = "gg" ∨ m = "ii" then some fun cp =>
    if cp = "tot" then some fun _ _ _ => c else none else none⟩

/-- equal fractions of the two populations, sharing halo model 0 -/
noncomputable def demoP (m2 : Option ℝ) : Pars ℝ := ⟨{ demoPar (1 / 2) with model2 := m2 }, some 0⟩

/-- one halo model with the number 1, no upsampled object -/
noncomputable def demoW : World ℝ ℝ := ⟨⟨1, fun _ => 1⟩, 0, fun _ => Up.fresh (demoP none)⟩

theorem demoW_wf : demoW.Wf := fun i hi => absurd hi (Nat.not_lt_zero i)

theorem demo_up (p : Params ℝ) (hp : p.extrapolate = .extrapolate) (c : ℝ) (mode : String) (hm : mode = "gg" ∨ mode = "ii") :
    ∃ x, upsampled p (demoApi.view c) mode "tot" = .ok x ∧ x.nz = p.z.n ∧ ∀ b i j, x.val b i j = c := by
  refine ⟨⟨p.z.n, extrapolateSpectra p.z.val p.k (demoApi.view c) (fun _ _ _ => c) p.extrapolate⟩, ?_, rfl, ?_⟩
  · simp [upsampled, component, demoApi, hm]
  · intro b i j
    have h := demoObj_ok c
    have h1 : interpLinear (demoApi.view c).nz (demoApi.view c).z (fun _ => c) (p.z.val i) = c := interpLinear_const h.nz h.z _ _
    simp only [extrapolateSpectra, hp, interp1d, h1]
    exact interpLinear_const h.nk h.logk _ _

theorem demo_pure (m2 : Option ℝ) (a : ℝ) (b : Option ℝ) (mode : String) (hm : mode = "gg" ∨ mode = "ii") :
    ∃ v, pureComp (demoP m2).par (demoApi.view a) (b.map demoApi.view) (frac1Val (demoP m2).par) mode "tot" = .ok v ∧
      v.val 0 0 0 = (a + b.getD 0) / 4 := by
  obtain ⟨F, hF, hn, hv⟩ := demo_frac (1 / 2)
  have hF' : frac1Val (demoP m2).par = .ok F := hF
  have hmm : mode ≠ "mm" := by rcases hm with rfl | rfl <;> decide
  have hgm : ¬ mode ∈ ["gm", "mi"] := by rcases hm with rfl | rfl <;> decide
  obtain ⟨x1, hx1, hn1, hv1⟩ := demo_up (demoP m2).par rfl a mode hm
  have hN : x1.nz = 1 := hn1
  obtain ⟨x2, hx2, hv2⟩ : ∃ x, upsampled2 (demoP m2).par (b.map demoApi.view) mode "tot" = .ok x ∧
      ∀ i j k, x.val i j k = b.getD 0 := by
    cases b with
    | none => exact ⟨_, rfl, fun _ _ _ => rfl⟩
    | some b =>
      obtain ⟨x, hx, -, hxv⟩ := demo_up (demoP m2).par rfl b mode hm
      exact ⟨x, hx, hxv⟩
  refine ⟨⟨max F.n x1.nz, fun b i j => F.val (bidx F.n i) ^ 2 * x1.val b (bidx x1.nz i) j +
      (1 - F.val (bidx F.n i)) ^ 2 * x2.val b (bidx x1.nz i) j⟩, ?_, ?_⟩
  · simp only [pureComp, hx1, hx2, hF', hmm, if_false]
    simp [combine, hn, hN, hgm]
  · simp only [hv, hv1, hv2]; ring

/-- the hypotheses of `C126_follows_model` are met by a history in which the object is read, the model updated and read again -/
example : Valid demoApi demoW (.newUp (demoP none) :: [.results 0 ["gg"] ["tot"], .update 0 4, .newModel 2, .update 1 1]) := by
  have hp : ∀ r, (demoP none).model = some r → r < demoW.heap.next := fun r hr => by
    simp only [demoP, Option.some.injEq] at hr; rw [← hr]; exact Nat.one_pos
  refine ⟨hp, Nat.one_pos, ?_, trivial, ?_, trivial⟩
  · obtain ⟨a1, -⟩ := step_spec demoApi demoW demoW_wf (.newUp (demoP none)) hp
    obtain ⟨-, b, -⟩ := step_spec demoApi _ a1 (.results 0 ["gg"] ["tot"]) Nat.one_pos
    exact lt_of_lt_of_le Nat.one_pos b
  · obtain ⟨a1, -⟩ := step_spec demoApi demoW demoW_wf (.newUp (demoP none)) hp
    obtain ⟨-, b, -⟩ := step_spec demoApi _ a1 (.results 0 ["gg"] ["tot"]) Nat.one_pos
    exact Nat.succ_lt_succ b

/-- a call of the interface on this program: its first stage succeeds, as `C126_interface` assumes -/
example : (results demoApi ["tot"] ["gg"] (run demoApi demoW [.update 0 2, .newUp (demoP none)]).heap
    ((run demoApi demoW [.update 0 2, .newUp (demoP none)]).up demoW.nup)).2 = .ok () := by
  have hwf : (Up.fresh (demoP none)).Wf (run demoApi demoW [.update 0 2, .newUp (demoP none)]).heap := fresh_wf fun r hr => by
    simp only [demoP, Option.some.injEq] at hr; rw [← hr]; exact Nat.one_pos
  refine (results_ok_iff demoApi ["tot"] ["gg"] _ _ hwf).2 fun m hm c hc => ?_
  simp only [List.mem_singleton] at hm hc
  subst hm hc
  obtain ⟨v, hv, -⟩ := demo_pure none ((1 : ℝ) + 2) none "gg" (.inl rfl)
  exact ⟨v, hv⟩

/-- the stored spectrum -/
def World.stored (w : World M P) (i : ℕ) (mode comp : String) : Option Arr3 := ((w.up i).attrs mode).bind fun d => d comp

theorem stored_of {u : Up P} {mode comp : String} {val : String → String → Except PyErr Arr3} (h : Stored u [mode] [comp] val) {v : Arr3}
    (hv : val mode comp = .ok v) : (u.attrs mode).bind (fun d => d comp) = some v := by
  obtain ⟨d, hd, hdc⟩ := h mode (by simp)
  obtain ⟨x, hx, hx'⟩ := (hdc comp).1 (by simp)
  rw [hv] at hx
  injection hx with hx
  rw [hd, Option.bind_some, hx', hx]

/-- C126 (disagreement found), on a concrete program: galaxy spectra of two populations, an update of the shared halo model, galaxy
spectra again.  The object then mixes 5 with the old 4, a new object 5 with 8. -/
theorem C126_witness : ∃ (A : Api ℝ ℝ) (w : World ℝ ℝ) (p : Pars ℝ) (v v' : Arr3), w.Wf ∧ w.nup = 0 ∧
    Valid A w [.newUp p, .results 0 ["gg"] ["tot"], .update 0 4] ∧
    (run A w [.newUp p, .results 0 ["gg"] ["tot"], .update 0 4, .results 0 ["gg"] ["tot"]]).stored 0 "gg" "tot" = some v ∧
    (run A w [.newUp p, .results 0 ["gg"] ["tot"], .update 0 4, .newUp p, .results 1 ["gg"] ["tot"]]).stored 1 "gg" "tot" = some v' ∧
    v.val 0 0 0 = (5 + 4) / 4 ∧ v'.val 0 0 0 = (5 + 8) / 4 := by
  set p := demoP (some 3) with hp
  have hm : ∀ h : Heap ℝ, 0 < h.next → ∀ r, p.model = some r → r < h.next := fun h h0 r hr => by
    simp only [hp, demoP, Option.some.injEq] at hr; rw [← hr]; exact h0
  obtain ⟨a1, a2, -⟩ := step_spec demoApi demoW demoW_wf (.newUp p) (hm _ Nat.one_pos)
  set w1 := step demoApi demoW (.newUp p) with hw1
  have hwf1 : (w1.up 0).Wf w1.heap := a1 0 Nat.one_pos
  have hu1 : w1.up 0 = Up.fresh p := rfl
  have ok1 : (results demoApi ["tot"] ["gg"] w1.heap (w1.up 0)).2 = .ok () := by
    refine (results_ok_iff demoApi _ _ _ _ hwf1).2 fun m hm c hc => ?_
    simp only [List.mem_singleton] at hm hc
    subst hm hc
    obtain ⟨v, hv, -⟩ := demo_pure (some 3) (1 : ℝ) (some (1 + 3)) "gg" (.inl rfl)
    exact ⟨v, hv⟩
  obtain ⟨b1, b2, b3, b4, -⟩ := step_spec demoApi w1 a1 (.results 0 ["gg"] ["tot"]) Nat.one_pos
  obtain ⟨copy, hcopy, hall⟩ := C126_second_stays demoApi demoW demoW_wf p 0 rfl 3 rfl [] ⟨hm _ Nat.one_pos, trivial⟩ (by simp)
    ["gg"] ["tot"] (by simp) (by simp) ok1
  set w2 := step demoApi w1 (.results 0 ["gg"] ["tot"]) with hw2
  have h0 : 0 < w2.heap.next := lt_of_lt_of_le Nat.one_pos b2
  have hne : copy ≠ 0 := Nat.ne_of_gt (lt_of_lt_of_le Nat.one_pos hcopy)
  have hv2 : Valid demoApi w2 [.update 0 4] := ⟨h0, trivial⟩
  have hall := hall [.update 0 4] hv2 (fun q hq => by simp at hq; exact hne hq.1) ["gg"] ["tot"]
  obtain ⟨c1, c2, c3, -⟩ := step_spec demoApi w2 b1 (.update 0 4) h0
  set w3 := step demoApi w2 (.update 0 4) with hw3
  have hobj : w3.heap.obj 0 = 5 := by
    have : w2.heap.obj 0 = 1 := b4 0 Nat.one_pos fun q hq => by simp at hq
    simp only [hw3, step, Heap.set, if_true, this, demoApi]; norm_num
  obtain ⟨v, hv, hvv⟩ := demo_pure (some 3) (5 : ℝ) (some 4) "gg" (.inl rfl)
  obtain ⟨v', hv', hvv'⟩ := demo_pure (some 3) (5 : ℝ) (some 8) "gg" (.inl rfl)
  have h13 : demoApi.update (w1.heap.obj 0) 3 = 4 := by
    show (1 : ℝ) + 3 = 4; norm_num
  have hlt3 : 0 < w3.nup := Nat.one_pos
  refine ⟨demoApi, demoW, p, v, v', demoW_wf, rfl, ⟨hm _ Nat.one_pos, Nat.one_pos, h0, trivial⟩, ?_, ?_, hvv, hvv'⟩
  · have hmix : pureComp p.par (demoApi.view (w3.heap.obj 0)) (some (demoApi.view (demoApi.update (w1.heap.obj 0) 3))) (frac1Val p.par)
        "gg" "tot" = .ok v := by rw [hobj, h13]; exact hv
    have ok3 : (results demoApi ["tot"] ["gg"] w3.heap (w3.up 0)).2 = .ok () := by
      refine hall.1.2 fun m hm c hc => ?_
      simp only [List.mem_singleton] at hm hc
      subst hm hc
      exact ⟨v, hmix⟩
    exact stored_of (hall.2 ok3) hmix
  · have hwf : (Up.fresh p).Wf w3.heap := fresh_wf (hm _ (lt_of_lt_of_le h0 c2))
    have hval : valueNow demoApi w3.heap (Up.fresh p) "gg" "tot" = .ok v' := by
      have e1 : AddShared.eff1 demoApi w3.heap (Up.fresh p) = 5 := hobj
      have e2 : AddShared.eff2 demoApi w3.heap (Up.fresh p) = some 8 := by
        show some (w3.heap.obj 0 + 3) = _
        rw [hobj]; norm_num
      simp only [valueNow, e1, e2]
      exact hv'
    have ok3 : (results demoApi ["tot"] ["gg"] w3.heap (Up.fresh p)).2 = .ok () := by
      refine (results_ok_iff demoApi _ _ _ _ hwf).2 fun m hm c hc => ?_
      simp only [List.mem_singleton] at hm hc
      subst hm hc
      exact ⟨v', hval⟩
    exact stored_of ((results_spec demoApi ["tot"] ["gg"] w3.heap (Up.fresh p) hwf).2.2.2 ok3).2 hval

end Verif.AddShared

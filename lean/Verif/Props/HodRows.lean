import Verif.Model.HodRows

/-!
# Several galaxy bins in the occupation models (C133)
-/

namespace Verif.HodRows

open Verif.Lib Verif.Hod

/-! ## what a parameter says about a galaxy bin -/

/-- the number a parameter has for bin `b`: a single number holds for all bins, a list has one for every bin -/
inductive Gives : Val → ℕ → ℝ → Prop
  | number (x : ℝ) (b : ℕ) : Gives (.number x) b x
  | single (x : ℝ) (b : ℕ) : Gives (.list [x]) b x
  | many (l : List ℝ) (b : ℕ) (x : ℝ) : l[b]? = some x → Gives (.list l) b x

/-- how many numbers are given; none for an array without axes -/
def Val.len : Val → Option ℕ
  | .number _ => some 1
  | .list l => some l.length
  | .array0 _ => none

/-- the lengths go together: all of them are `n` or one, and one of them is `n` -/
def Common (lens : List (Option ℕ)) (n : ℕ) : Prop := (∀ l ∈ lens, l = some 1 ∨ l = some n) ∧ some n ∈ lens

/-! ## broadcasting -/

/-- the row an array contributes to row `i` of the result -/
def ent {α : Type} (l : List α) (i : ℕ) : Option α := l[if l.length = 1 then 0 else i]?

section
variable {α β γ : Type} {f : α → β → γ} {a : List α} {b : List β} {c : List γ}

theorem bzip_ok (f : α → β → γ) (a : List α) (b : List β) (n : ℕ) :
    (∃ c, bzip f a b = .ok c ∧ c.length = n) ↔
      (a.length = 1 ∨ a.length = n) ∧ (b.length = 1 ∨ b.length = n) ∧ (a.length = n ∨ b.length = n) := by
  unfold bzip
  by_cases h : a.length = b.length
  · rw [if_pos h]
    simp only [Except.ok.injEq, exists_eq_left', List.length_zipWith]
    omega
  · rw [if_neg h]
    match a, b, h with
    | [x], b, h =>
      change (∃ c, (Except.ok (b.map (f x)) : Except PyErr (List γ)) = .ok c ∧ c.length = n) ↔ _
      simp only [Except.ok.injEq, exists_eq_left', List.length_map, List.length_singleton]
      have h' : ¬ 1 = b.length := h
      simp only [true_or, true_and]
      omega
    | [], [y], h => simp; omega
    | x :: x' :: l, [y], h => simp; omega
    | [], [], h => simp at h
    | [], y :: y' :: l, h => simp; omega
    | x :: x' :: l, [], h => simp; omega
    | x :: x' :: l, y :: y' :: l', h =>
      simp only [reduceCtorEq, false_and, exists_false, List.length_cons, false_iff]
      simp only [List.length_cons] at h
      omega

theorem bzip_error (h : ¬ ∃ c, bzip f a b = .ok c) : bzip f a b = .error .valueError := by
  unfold bzip at h ⊢
  split_ifs with h1
  · simp [h1] at h
  · rw [if_neg h1] at h
    split
    · simp at h
    · simp at h
    · rfl

theorem bzip_get (h : bzip f a b = .ok c) (i : ℕ) (hi : i < c.length) :
    ∃ x y, ent a i = some x ∧ ent b i = some y ∧ c[i]? = some (f x y) := by
  unfold bzip at h
  by_cases h1 : a.length = b.length
  · rw [if_pos h1] at h
    cases h
    rw [List.length_zipWith] at hi
    have ha : i < a.length := by omega
    have hb : i < b.length := by omega
    have hx : (if a.length = 1 then 0 else i) = i := by split_ifs <;> omega
    have hy : (if b.length = 1 then 0 else i) = i := by split_ifs <;> omega
    refine ⟨a[i], b[i], ?_, ?_, ?_⟩
    · rw [ent, hx, List.getElem?_eq_getElem ha]
    · rw [ent, hy, List.getElem?_eq_getElem hb]
    · rw [List.getElem?_zipWith, List.getElem?_eq_getElem ha, List.getElem?_eq_getElem hb]
  · rw [if_neg h1] at h
    match a, b, h1, h with
    | [x], b, h1, h =>
      cases h
      rw [List.length_map] at hi
      have hb : b.length ≠ 1 := fun h => h1 (by simp [h])
      refine ⟨x, b[i], by simp [ent], ?_, ?_⟩
      · rw [ent, if_neg hb, List.getElem?_eq_getElem hi]
      · simp [List.getElem?_eq_getElem hi]
    | [], [y], h1, h => cases h; simp at hi
    | x :: x' :: l, [y], h1, h =>
      cases h
      rw [List.length_map] at hi
      refine ⟨(x :: x' :: l)[i], y, ?_, by simp [ent], ?_⟩
      · rw [ent, if_neg (by simp), List.getElem?_eq_getElem hi]
      · rw [List.getElem?_map, List.getElem?_eq_getElem hi]; rfl

theorem bzip_length (h : bzip f a b = .ok c) :
    (a.length = 1 ∨ a.length = c.length) ∧ (b.length = 1 ∨ b.length = c.length) ∧ (a.length = c.length ∨ b.length = c.length) :=
  (bzip_ok f a b c.length).1 ⟨c, h, rfl⟩

end

theorem ent_map {α β : Type} (f : α → β) (l : List α) (i : ℕ) : ent (l.map f) i = (ent l i).map f := by
  simp [ent]

theorem ent_of_get {α : Type} {c : List α} {i : ℕ} {x : α} (h : c[i]? = some x) : ent c i = some x := by
  have hi : i < c.length := (List.getElem?_eq_some_iff.1 h).1
  have : (if c.length = 1 then 0 else i) = i := by split_ifs <;> omega
  rw [ent, this, h]

/-- an inner result: row `i` of the outer one uses row `i` of the inner one or its only row -/
theorem bzip_ent {α β γ : Type} {f : α → β → γ} {a : List α} {b : List β} {c : List γ} (h : bzip f a b = .ok c) {i : ℕ} {z : γ}
    (hz : ent c i = some z) : ∃ x y, ent a i = some x ∧ ent b i = some y ∧ z = f x y := by
  by_cases h1 : c.length = 1
  · rw [ent, if_pos h1] at hz
    obtain ⟨x, y, e1, e2, e3⟩ := bzip_get h 0 (by omega)
    have hl := bzip_length h
    have ha : a.length = 1 := by omega
    have hb : b.length = 1 := by omega
    refine ⟨x, y, ?_, ?_, ?_⟩
    · simpa [ent, ha] using e1
    · simpa [ent, hb] using e2
    · rw [e3] at hz; exact (Option.some.inj hz).symm
  · rw [ent, if_neg h1] at hz
    obtain ⟨x, y, e1, e2, e3⟩ := bzip_get h i (List.getElem?_eq_some_iff.1 hz).1
    exact ⟨x, y, e1, e2, by rw [e3] at hz; exact (Option.some.inj hz).symm⟩

theorem column_ok {v : Val} {l : List ℝ} (h : column v = .ok l) : v.len = some l.length ∧ ∀ i x, ent l i = some x → Gives v i x := by
  cases v with
  | number x =>
    cases h
    exact ⟨rfl, fun i y hy => by simp [ent] at hy; subst hy; exact .number _ _⟩
  | list l' =>
    cases h
    refine ⟨rfl, fun i y hy => ?_⟩
    by_cases h1 : l.length = 1
    · obtain ⟨z, rfl⟩ := List.length_eq_one_iff.1 h1
      simp [ent] at hy
      subst hy
      exact .single _ _
    · rw [ent, if_neg h1] at hy
      exact .many _ _ _ hy
  | array0 x => cases h

theorem column_of_len {v : Val} {n : ℕ} (h : v.len = some n) : ∃ l, column v = .ok l ∧ l.length = n := by
  cases v with
  | number x => cases h; exact ⟨[x], rfl, rfl⟩
  | list l => cases h; exact ⟨l, rfl, rfl⟩
  | array0 x => cases h

/-! ## the rows of the occupations -/

theorem stepCen_ok {p : Step} {rows : List (ℝ → ℝ)} (h : stepCen p = .ok rows) :
    p.log10Mmin.len = some rows.length ∧
    ∀ i N, ent rows i = some N → ∃ x, Gives p.log10Mmin i x ∧ N = fun M => decorateCen p.aCen (heaviside (M - (10 : ℝ) ^ x) 1) := by
  unfold stepCen at h
  cases h1 : column p.log10Mmin with
  | error e => simp [h1, bind, Except.bind] at h
  | ok l =>
    simp only [h1, bind, Except.bind, Except.ok.injEq] at h
    subst h
    obtain ⟨h2, h3⟩ := column_ok h1
    refine ⟨by rw [h2, List.length_map], fun i N hN => ?_⟩
    rw [ent_map] at hN
    obtain ⟨x, hx, rfl⟩ := Option.map_eq_some_iff.1 hN
    exact ⟨x, h3 _ _ hx, rfl⟩

theorem powerLaw_ok {s a : Val} {rows : List (ℝ → ℝ)} (h : powerLaw s a = .ok rows) :
    Common [s.len, a.len] rows.length ∧
    ∀ i N, ent rows i = some N → ∃ x y, Gives s i x ∧ Gives a i y ∧ N = fun M => (M / (10 : ℝ) ^ x) ^ y := by
  unfold powerLaw at h
  cases h1 : column s with
  | error e => simp [h1, bind, Except.bind] at h
  | ok ls => cases h2 : column a with
    | error e => simp [h1, h2, bind, Except.bind] at h
    | ok la =>
      simp only [h1, h2, bind, Except.bind] at h
      obtain ⟨a1, a2⟩ := column_ok h1
      obtain ⟨b1, b2⟩ := column_ok h2
      obtain ⟨c1, c2, c3⟩ := bzip_length h
      refine ⟨⟨by simpa [a1, b1] using ⟨c1, c2⟩, by simpa [a1, b1, eq_comm] using c3⟩, fun i N hN => ?_⟩
      obtain ⟨x, y, hx, hy, rfl⟩ := bzip_ent h hN
      exact ⟨x, y, a2 _ _ hx, b2 _ _ hy, rfl⟩

theorem bind_ok {α β : Type} {x : Except PyErr α} {f : α → Except PyErr β} {r : β} :
    (x >>= f) = .ok r ↔ ∃ a, x = .ok a ∧ f a = .ok r := by
  cases x with
  | error e => simp [bind, Except.bind]
  | ok a => simp [bind, Except.bind]

theorem simpleSat_ok {p : Step} {rows : List (ℝ → ℝ)} (h : simpleSat p = .ok rows) :
    Common [p.log10Mmin.len, p.log10Msat.len, p.alpha.len] rows.length ∧
    ∀ i N, ent rows i = some N → ∃ x y w, Gives p.log10Mmin i x ∧ Gives p.log10Msat i y ∧ Gives p.alpha i w ∧
      N = Hod.simpleSat ⟨x, y, w, p.aCen, p.aSat⟩ := by
  simp only [simpleSat, bind_ok, Except.ok.injEq] at h
  obtain ⟨cen, h1, law, h2, n, h3, rfl⟩ := h
  obtain ⟨a1, a2⟩ := stepCen_ok h1
  obtain ⟨⟨b0, b1⟩, b2⟩ := powerLaw_ok h2
  obtain ⟨c1, c2, c3⟩ := bzip_length h3
  rw [List.length_map]
  constructor
  · simp only [List.mem_cons, List.not_mem_nil, or_false, forall_eq_or_imp, forall_eq] at b0 b1
    refine ⟨?_, ?_⟩
    · simp only [List.mem_cons, List.not_mem_nil, or_false, forall_eq_or_imp, forall_eq, a1, Option.some.injEq]
      refine ⟨c1, ?_, ?_⟩
      · rcases b0.1 with h | h
        · exact .inl h
        · rcases c2 with h' | h' <;> rw [h, h'] <;> simp
      · rcases b0.2 with h | h
        · exact .inl h
        · rcases c2 with h' | h' <;> rw [h, h'] <;> simp
    · simp only [List.mem_cons, List.not_mem_nil, or_false, a1, Option.some.injEq]
      rcases c3 with h | h
      · exact .inl h.symm
      · rw [← h]; exact .inr b1
  · intro i N hN
    rw [ent_map] at hN
    obtain ⟨g, hg, rfl⟩ := Option.map_eq_some_iff.1 hN
    obtain ⟨u, v, hu, hv, rfl⟩ := bzip_ent h3 hg
    obtain ⟨x, hx, rfl⟩ := a2 _ _ hu
    obtain ⟨y, w, hy, hw, rfl⟩ := b2 _ _ hv
    exact ⟨x, y, w, hx, hy, hw, rfl⟩

theorem zehaviSat_ok {p : Step} {rows : List (ℝ → ℝ)} (h : zehaviSat p = .ok rows) :
    Common [p.log10Msat.len, p.alpha.len] rows.length ∧
    ∀ i N, ent rows i = some N → ∃ y w, Gives p.log10Msat i y ∧ Gives p.alpha i w ∧
      ∀ x, N = Hod.zehaviSat ⟨x, y, w, p.aCen, p.aSat⟩ := by
  simp only [zehaviSat, bind_ok, Except.ok.injEq] at h
  obtain ⟨law, h2, rfl⟩ := h
  obtain ⟨b1, b2⟩ := powerLaw_ok h2
  rw [List.length_map]
  refine ⟨b1, fun i N hN => ?_⟩
  rw [ent_map] at hN
  obtain ⟨g, hg, rfl⟩ := Option.map_eq_some_iff.1 hN
  obtain ⟨y, w, hy, hw, rfl⟩ := b2 _ _ hg
  exact ⟨y, w, hy, hw, fun _ => rfl⟩

theorem erfCenRows_ok {m s : Val} {a : Option ℝ} {rows : List (ℝ → ℝ)} (h : erfCenRows m s a = .ok rows) :
    Common [m.len, s.len] rows.length ∧
    ∀ i N, ent rows i = some N → ∃ x y, Gives m i x ∧ Gives s i y ∧ N = fun M => decorateCen a (erfCen x y M) := by
  simp only [erfCenRows, bind_ok, Except.ok.injEq] at h
  obtain ⟨ls, h1, lm, h2, sm, h3, pr, h4, n, h5, rfl⟩ := h
  obtain ⟨a1, a2⟩ := column_ok h1
  obtain ⟨b1, b2⟩ := column_ok h2
  have c := bzip_length h3
  have d := bzip_length h4
  have e := bzip_length h5
  rw [List.length_map] at d ⊢
  constructor
  · simp only [Common, List.mem_cons, List.not_mem_nil, or_false, forall_eq_or_imp, forall_eq, a1, b1, Option.some.injEq]
    omega
  · intro i N hN
    rw [ent_map] at hN
    obtain ⟨g, hg, rfl⟩ := Option.map_eq_some_iff.1 hN
    obtain ⟨y, ab, hy, hab, rfl⟩ := bzip_ent h5 hg
    obtain ⟨u, v, hu, hv, rfl⟩ := bzip_ent h4 hab
    rw [ent_map] at hu
    obtain ⟨x, hx, rfl⟩ := Option.map_eq_some_iff.1 hu
    obtain ⟨x', y', hx', hy', rfl⟩ := bzip_ent h3 hv
    rw [hx] at hx'
    rw [hy] at hy'
    cases hx'
    cases hy'
    exact ⟨x, y, b2 _ _ hx, a2 _ _ hy, rfl⟩

theorem zhengSat_ok {p : Zheng} {rows : List (ℝ → ℝ)} (h : zhengSat p = .ok rows) :
    Common [p.log10M0.len, p.log10M1.len, p.alpha.len] rows.length ∧
    ∀ i N, ent rows i = some N → ∃ y w a, Gives p.log10M0 i y ∧ Gives p.log10M1 i w ∧ Gives p.alpha i a ∧
      ∀ x t, N = Hod.zhengSat ⟨x, y, w, t, a, p.aCen, p.aSat⟩ := by
  simp only [zhengSat, bind_ok, Except.ok.injEq] at h
  obtain ⟨m0, h1, m1, h2, q, h3, al, h4, n, h5, rfl⟩ := h
  obtain ⟨a1, a2⟩ := column_ok h1
  obtain ⟨b1, b2⟩ := column_ok h2
  obtain ⟨c1, c2⟩ := column_ok h4
  have c := bzip_length h3
  have d := bzip_length h5
  rw [List.length_map]
  constructor
  · simp only [Common, List.mem_cons, List.not_mem_nil, or_false, forall_eq_or_imp, forall_eq, a1, b1, c1, Option.some.injEq]
    omega
  · intro i N hN
    rw [ent_map] at hN
    obtain ⟨g, hg, rfl⟩ := Option.map_eq_some_iff.1 hN
    obtain ⟨r, a, hr, ha, rfl⟩ := bzip_ent h5 hg
    obtain ⟨y, w, hy, hw, rfl⟩ := bzip_ent h3 hr
    exact ⟨y, w, a, a2 _ _ hy, b2 _ _ hw, c2 _ _ ha, fun _ _ => rfl⟩

theorem zhaiSat_ok {p : Zhai} {rows : List (ℝ → ℝ)} (h : zhaiSat p = .ok rows) :
    Common [p.log10Msat.len, p.alpha.len, p.log10Mcut.len] rows.length ∧
    ∀ i N, ent rows i = some N → ∃ y w a, Gives p.log10Msat i y ∧ Gives p.log10Mcut i w ∧ Gives p.alpha i a ∧
      ∀ x t, N = Hod.zhaiSat ⟨x, y, w, t, a, p.aCen, p.aSat⟩ := by
  simp only [zhaiSat, powerLaw, bind_ok, Except.ok.injEq] at h
  obtain ⟨q, ⟨m0, h1, al, h2, h3⟩, cu, h4, n, h5, rfl⟩ := h
  obtain ⟨a1, a2⟩ := column_ok h1
  obtain ⟨b1, b2⟩ := column_ok h2
  obtain ⟨c1, c2⟩ := column_ok h4
  have c := bzip_length h3
  have d := bzip_length h5
  rw [List.length_map]
  constructor
  · simp only [Common, List.mem_cons, List.not_mem_nil, or_false, forall_eq_or_imp, forall_eq, a1, b1, c1, Option.some.injEq]
    omega
  · intro i N hN
    rw [ent_map] at hN
    obtain ⟨g, hg, rfl⟩ := Option.map_eq_some_iff.1 hN
    obtain ⟨r, a, hr, ha, rfl⟩ := bzip_ent h5 hg
    obtain ⟨y, w, hy, hw, rfl⟩ := bzip_ent h3 hr
    exact ⟨y, a, w, a2 _ _ hy, c2 _ _ ha, b2 _ _ hw, fun _ _ => rfl⟩

/-! ### how many rows there are -/

/-- the occupation has rows exactly if the lengths of the parameters go together, and then as many as the longest -/
def Counted (occ : Occ) (lens : List (Option ℕ)) : Prop := ∀ n, (∃ rows, occ = .ok rows ∧ rows.length = n) ↔ Common lens n

theorem common_len {lens : List (Option ℕ)} {n : ℕ} (h : Common lens n) {l : Option ℕ} (hl : l ∈ lens) : ∃ k, l = some k ∧ (k = 1 ∨ k = n) := by
  rcases h.1 l hl with h | h
  · exact ⟨1, h, .inl rfl⟩
  · exact ⟨n, h, .inr rfl⟩

/-- C133: each of the six occupations can be computed exactly if each of the parameters it uses has one value or as many as the
longest of them, and has that many rows. The satellites of `Zehavi`, `Zheng` and `Zhai` do not ask for the parameters of the
centrals, those of `Simple` do. -/
theorem C133_row_numbers (p : Step) (q : Zheng) (r : Zhai) :
    Counted (stepCen p) [p.log10Mmin.len] ∧
    Counted (simpleSat p) [p.log10Mmin.len, p.log10Msat.len, p.alpha.len] ∧
    Counted (zehaviSat p) [p.log10Msat.len, p.alpha.len] ∧
    (∀ m s a, Counted (erfCenRows m s a) [m.len, s.len]) ∧
    Counted (zhengSat q) [q.log10M0.len, q.log10M1.len, q.alpha.len] ∧
    Counted (zhaiSat r) [r.log10Msat.len, r.alpha.len, r.log10Mcut.len] := by
  have hstep : ∀ {n}, p.log10Mmin.len = some n → ∃ rows, stepCen p = .ok rows ∧ rows.length = n := fun {n} h => by
    obtain ⟨l, h1, h2⟩ := column_of_len h
    refine ⟨_, by simp only [stepCen, h1, bind, Except.bind]; rfl, ?_⟩
    rw [List.length_map, h2]
  refine ⟨fun n => ⟨?_, fun h => ?_⟩, fun n => ⟨?_, fun h => ?_⟩, fun n => ⟨?_, fun h => ?_⟩, fun m s a n => ⟨?_, fun h => ?_⟩,
    fun n => ⟨?_, fun h => ?_⟩, fun n => ⟨?_, fun h => ?_⟩⟩
  · rintro ⟨rows, h, rfl⟩
    have := (stepCen_ok h).1
    simp [Common, this]
  · have := h.2
    simp only [List.mem_singleton] at this
    exact hstep this.symm
  · rintro ⟨rows, h, rfl⟩; exact (simpleSat_ok h).1
  · obtain ⟨k1, e1, g1⟩ := common_len h List.mem_cons_self
    obtain ⟨k2, e2, g2⟩ := common_len h (List.mem_cons_of_mem _ List.mem_cons_self)
    obtain ⟨k3, e3, g3⟩ := common_len h (List.mem_cons_of_mem _ (List.mem_cons_of_mem _ List.mem_cons_self))
    obtain ⟨cen, f1, f2⟩ := hstep e1
    obtain ⟨ls, u1, u2⟩ := column_of_len e2
    obtain ⟨la, v1, v2⟩ := column_of_len e3
    have hn := h.2
    simp only [e1, e2, e3, List.mem_cons, List.not_mem_nil, or_false, Option.some.injEq] at hn
    obtain ⟨law, w1, w2⟩ := (bzip_ok (fun s a M => (M / (10 : ℝ) ^ s) ^ a) ls la (if k2 = 1 then k3 else k2)).2
      (by rw [u2, v2]; split_ifs <;> omega)
    obtain ⟨N, x1, x2⟩ := (bzip_ok (fun (c l : ℝ → ℝ) (M : ℝ) => c M * l M) cen law n).2
      (by rw [f2, w2]; split_ifs <;> omega)
    refine ⟨_, by simp only [simpleSat, powerLaw, f1, u1, v1, w1, x1, bind, Except.bind]; rfl, ?_⟩
    rw [List.length_map, x2]
  · rintro ⟨rows, h, rfl⟩; exact (zehaviSat_ok h).1
  · obtain ⟨k2, e2, g2⟩ := common_len h List.mem_cons_self
    obtain ⟨k3, e3, g3⟩ := common_len h (List.mem_cons_of_mem _ List.mem_cons_self)
    obtain ⟨ls, u1, u2⟩ := column_of_len e2
    obtain ⟨la, v1, v2⟩ := column_of_len e3
    have hn := h.2
    simp only [e2, e3, List.mem_cons, List.not_mem_nil, or_false, Option.some.injEq] at hn
    obtain ⟨law, w1, w2⟩ := (bzip_ok (fun s a M => (M / (10 : ℝ) ^ s) ^ a) ls la n).2 (by rw [u2, v2]; omega)
    refine ⟨_, by simp only [zehaviSat, powerLaw, u1, v1, w1, bind, Except.bind]; rfl, ?_⟩
    rw [List.length_map, w2]
  · rintro ⟨rows, h, rfl⟩; exact (erfCenRows_ok h).1
  · obtain ⟨k2, e2, g2⟩ := common_len h List.mem_cons_self
    obtain ⟨k3, e3, g3⟩ := common_len h (List.mem_cons_of_mem _ List.mem_cons_self)
    obtain ⟨lm, u1, u2⟩ := column_of_len e2
    obtain ⟨ls, v1, v2⟩ := column_of_len e3
    have hn := h.2
    simp only [e2, e3, List.mem_cons, List.not_mem_nil, or_false, Option.some.injEq] at hn
    obtain ⟨sm, w1, w2⟩ := (bzip_ok (fun x s M => 0.5 * (1 + erf (log10 (M / (10 : ℝ) ^ x) / s))) lm ls n).2 (by rw [u2, v2]; omega)
    obtain ⟨pr, x1, x2⟩ := (bzip_ok (fun (a b : ℝ → ℝ) => (a, b)) (lm.map fun x M => heaviside (M - (10 : ℝ) ^ x) 1) sm n).2
      (by rw [List.length_map, u2, w2]; omega)
    obtain ⟨N, y1, y2⟩ := (bzip_ok (fun s (ab : (ℝ → ℝ) × (ℝ → ℝ)) M => open Classical in if s = 0 then ab.1 M else ab.2 M) ls pr n).2
      (by rw [v2, x2]; omega)
    refine ⟨_, by simp only [erfCenRows, u1, v1, w1, x1, y1, bind, Except.bind]; rfl, ?_⟩
    rw [List.length_map, y2]
  · rintro ⟨rows, h, rfl⟩; exact (zhengSat_ok h).1
  · obtain ⟨k1, e1, g1⟩ := common_len h List.mem_cons_self
    obtain ⟨k2, e2, g2⟩ := common_len h (List.mem_cons_of_mem _ List.mem_cons_self)
    obtain ⟨k3, e3, g3⟩ := common_len h (List.mem_cons_of_mem _ (List.mem_cons_of_mem _ List.mem_cons_self))
    obtain ⟨l0, f1, f2⟩ := column_of_len e1
    obtain ⟨l1, u1, u2⟩ := column_of_len e2
    obtain ⟨la, v1, v2⟩ := column_of_len e3
    have hn := h.2
    simp only [e1, e2, e3, List.mem_cons, List.not_mem_nil, or_false, Option.some.injEq] at hn
    obtain ⟨Q, w1, w2⟩ := (bzip_ok (fun x y M => heaviside (M - (10 : ℝ) ^ x) 1 * (M - (10 : ℝ) ^ x) / (10 : ℝ) ^ y) l0 l1
      (if k1 = 1 then k2 else k1)).2 (by rw [f2, u2]; split_ifs <;> omega)
    obtain ⟨N, x1, x2⟩ := (bzip_ok (fun (q : ℝ → ℝ) (a M : ℝ) => (q M) ^ a) Q la n).2
      (by rw [v2, w2]; split_ifs <;> omega)
    refine ⟨_, by simp only [zhengSat, f1, u1, v1, w1, x1, bind, Except.bind]; rfl, ?_⟩
    rw [List.length_map, x2]
  · rintro ⟨rows, h, rfl⟩; exact (zhaiSat_ok h).1
  · obtain ⟨k1, e1, g1⟩ := common_len h List.mem_cons_self
    obtain ⟨k2, e2, g2⟩ := common_len h (List.mem_cons_of_mem _ List.mem_cons_self)
    obtain ⟨k3, e3, g3⟩ := common_len h (List.mem_cons_of_mem _ (List.mem_cons_of_mem _ List.mem_cons_self))
    obtain ⟨l0, f1, f2⟩ := column_of_len e1
    obtain ⟨l1, u1, u2⟩ := column_of_len e2
    obtain ⟨la, v1, v2⟩ := column_of_len e3
    have hn := h.2
    simp only [e1, e2, e3, List.mem_cons, List.not_mem_nil, or_false, Option.some.injEq] at hn
    obtain ⟨Q, w1, w2⟩ := (bzip_ok (fun s a M => (M / (10 : ℝ) ^ s) ^ a) l0 l1
      (if k1 = 1 then k2 else k1)).2 (by rw [f2, u2]; split_ifs <;> omega)
    obtain ⟨N, x1, x2⟩ := (bzip_ok (fun (l : ℝ → ℝ) c M => l M * Real.exp (-(10 : ℝ) ^ c / M)) Q la n).2
      (by rw [v2, w2]; split_ifs <;> omega)
    refine ⟨_, by simp only [zhaiSat, powerLaw, f1, u1, v1, w1, x1, bind, Except.bind]; rfl, ?_⟩
    rw [List.length_map, x2]

/-! ## what is computed from the rows -/

theorem pick_ok {α : Type} {Z : ℕ} {l r : List α} (h : pick Z l = .ok r) : Z ≤ l.length ∧ r = l.take Z := by
  unfold pick at h
  split_ifs at h with h1
  cases h
  exact ⟨h1, rfl⟩

theorem interpolated_ok {Z : ℕ} {occ : Occ} {out : List (ℝ → ℝ)} (h : interpolated Z occ = .ok out) :
    ∃ rows, occ = .ok rows ∧ out.length = Z ∧ ∀ b < Z, ∃ N, out[b]? = some N ∧ ent rows b = some N := by
  simp only [interpolated, bind_ok] at h
  obtain ⟨rows, h1, h2⟩ := h
  obtain ⟨h3, rfl⟩ := pick_ok h2
  refine ⟨rows, h1, by simp [h3], fun b hb => ⟨rows[b], ?_, ?_⟩⟩
  · rw [List.getElem?_take_of_lt hb, List.getElem?_eq_getElem]
  · exact ent_of_get (List.getElem?_eq_getElem _)

theorem integrated_ok {D E : Type} {I : (ℝ → ℝ) → D → E} {bins : List D} {occ : Occ} {out : List E} (h : integrated I bins occ = .ok out) :
    ∃ rows, occ = .ok rows ∧ out.length = bins.length ∧
      ∀ b < bins.length, ∃ N d, bins[b]? = some d ∧ out[b]? = some (I N d) ∧ ent rows b = some N := by
  simp only [integrated, bind_ok] at h
  obtain ⟨rows, h1, v, h2, h3⟩ := h
  obtain ⟨h4, rfl⟩ := pick_ok h3
  refine ⟨rows, h1, by simp [h4], fun b hb => ?_⟩
  obtain ⟨N, d, e1, e2, e3⟩ := bzip_get h2 b (by omega)
  refine ⟨N, d, ?_, by rw [List.getElem?_take_of_lt hb, e3], e1⟩
  have : ent bins b = some bins[b] := ent_of_get (List.getElem?_eq_getElem hb)
  rw [this] at e2
  rw [List.getElem?_eq_getElem hb, e2]

/-- C133: whenever `hod_cen` or `hod_sat` of `Simple`, `Zehavi`, `Zheng` and `Zhai` can be had for `Z` redshift bins there is one
occupation for each bin, and it is the formula of the model with the parameters of that bin. -/
theorem C133_occupations (Z : ℕ) (p : Step) (q : Zheng) (r : Zhai) (out : List (ℝ → ℝ)) :
    (interpolated Z (stepCen p) = .ok out → out.length = Z ∧ ∀ b < Z, ∃ x, Gives p.log10Mmin b x ∧
      ∀ y w, out[b]? = some (Hod.simpleCen ⟨x, y, w, p.aCen, p.aSat⟩) ∧ out[b]? = some (Hod.zehaviCen ⟨x, y, w, p.aCen, p.aSat⟩)) ∧
    (interpolated Z (simpleSat p) = .ok out → out.length = Z ∧ ∀ b < Z, ∃ x y w, Gives p.log10Mmin b x ∧ Gives p.log10Msat b y ∧
      Gives p.alpha b w ∧ out[b]? = some (Hod.simpleSat ⟨x, y, w, p.aCen, p.aSat⟩)) ∧
    (interpolated Z (zehaviSat p) = .ok out → out.length = Z ∧ ∀ b < Z, ∃ y w, Gives p.log10Msat b y ∧ Gives p.alpha b w ∧
      ∀ x, out[b]? = some (Hod.zehaviSat ⟨x, y, w, p.aCen, p.aSat⟩)) ∧
    (interpolated Z (erfCenRows q.log10Mmin q.sigma q.aCen) = .ok out → out.length = Z ∧ ∀ b < Z, ∃ x s, Gives q.log10Mmin b x ∧
      Gives q.sigma b s ∧ ∀ y w a, out[b]? = some (Hod.zhengCen ⟨x, y, w, s, a, q.aCen, q.aSat⟩)) ∧
    (interpolated Z (zhengSat q) = .ok out → out.length = Z ∧ ∀ b < Z, ∃ y w a, Gives q.log10M0 b y ∧ Gives q.log10M1 b w ∧
      Gives q.alpha b a ∧ ∀ x s, out[b]? = some (Hod.zhengSat ⟨x, y, w, s, a, q.aCen, q.aSat⟩)) ∧
    (interpolated Z (erfCenRows r.log10Mmin r.sigma r.aCen) = .ok out → out.length = Z ∧ ∀ b < Z, ∃ x s, Gives r.log10Mmin b x ∧
      Gives r.sigma b s ∧ ∀ y w a, out[b]? = some (Hod.zhaiCen ⟨x, y, w, s, a, r.aCen, r.aSat⟩)) ∧
    (interpolated Z (zhaiSat r) = .ok out → out.length = Z ∧ ∀ b < Z, ∃ y w a, Gives r.log10Msat b y ∧ Gives r.log10Mcut b w ∧
      Gives r.alpha b a ∧ ∀ x s, out[b]? = some (Hod.zhaiSat ⟨x, y, w, s, a, r.aCen, r.aSat⟩)) := by
  refine ⟨?_, ?_, ?_, ?_, ?_, ?_, ?_⟩ <;> intro h <;> obtain ⟨rows, h1, h2, h3⟩ := interpolated_ok h <;> refine ⟨h2, fun b hb => ?_⟩ <;>
    obtain ⟨N, e1, e2⟩ := h3 b hb
  · obtain ⟨x, g1, rfl⟩ := (stepCen_ok h1).2 b N e2
    exact ⟨x, g1, fun y w => ⟨e1, e1⟩⟩
  · obtain ⟨x, y, w, g1, g2, g3, rfl⟩ := (simpleSat_ok h1).2 b N e2
    exact ⟨x, y, w, g1, g2, g3, e1⟩
  · obtain ⟨y, w, g1, g2, g3⟩ := (zehaviSat_ok h1).2 b N e2
    exact ⟨y, w, g1, g2, fun x => by rw [e1, g3 x]⟩
  · obtain ⟨x, s, g1, g2, rfl⟩ := (erfCenRows_ok h1).2 b N e2
    exact ⟨x, s, g1, g2, fun y w a => e1⟩
  · obtain ⟨y, w, a, g1, g2, g3, g4⟩ := (zhengSat_ok h1).2 b N e2
    exact ⟨y, w, a, g1, g2, g3, fun x s => by rw [e1, g4 x s]⟩
  · obtain ⟨x, s, g1, g2, rfl⟩ := (erfCenRows_ok h1).2 b N e2
    exact ⟨x, s, g1, g2, fun y w a => e1⟩
  · obtain ⟨y, w, a, g1, g2, g3, g4⟩ := (zhaiSat_ok h1).2 b N e2
    exact ⟨y, w, a, g1, g2, g3, fun x s => by rw [e1, g4 x s]⟩

/-- C133: whenever a number density (or a mean mass) of these models can be had there is one for each bin, and it is the integral of
the formula of the model with the parameters of that bin and the mass function of that bin. -/
theorem C133_densities {D E : Type} (I : (ℝ → ℝ) → D → E) (bins : List D) (p : Step) (q : Zheng) (r : Zhai) (out : List E) :
    (integrated I bins (stepCen p) = .ok out → out.length = bins.length ∧ ∀ b < bins.length, ∃ d x, bins[b]? = some d ∧
      Gives p.log10Mmin b x ∧ ∀ y w, out[b]? = some (I (Hod.simpleCen ⟨x, y, w, p.aCen, p.aSat⟩) d)) ∧
    (integrated I bins (simpleSat p) = .ok out → out.length = bins.length ∧ ∀ b < bins.length, ∃ d x y w, bins[b]? = some d ∧
      Gives p.log10Mmin b x ∧ Gives p.log10Msat b y ∧ Gives p.alpha b w ∧
      out[b]? = some (I (Hod.simpleSat ⟨x, y, w, p.aCen, p.aSat⟩) d)) ∧
    (integrated I bins (zehaviSat p) = .ok out → out.length = bins.length ∧ ∀ b < bins.length, ∃ d y w, bins[b]? = some d ∧
      Gives p.log10Msat b y ∧ Gives p.alpha b w ∧ ∀ x, out[b]? = some (I (Hod.zehaviSat ⟨x, y, w, p.aCen, p.aSat⟩) d)) ∧
    (integrated I bins (erfCenRows q.log10Mmin q.sigma q.aCen) = .ok out → out.length = bins.length ∧ ∀ b < bins.length, ∃ d x s,
      bins[b]? = some d ∧ Gives q.log10Mmin b x ∧ Gives q.sigma b s ∧
      ∀ y w a, out[b]? = some (I (Hod.zhengCen ⟨x, y, w, s, a, q.aCen, q.aSat⟩) d)) ∧
    (integrated I bins (zhengSat q) = .ok out → out.length = bins.length ∧ ∀ b < bins.length, ∃ d y w a, bins[b]? = some d ∧
      Gives q.log10M0 b y ∧ Gives q.log10M1 b w ∧ Gives q.alpha b a ∧
      ∀ x s, out[b]? = some (I (Hod.zhengSat ⟨x, y, w, s, a, q.aCen, q.aSat⟩) d)) ∧
    (integrated I bins (zhaiSat r) = .ok out → out.length = bins.length ∧ ∀ b < bins.length, ∃ d y w a, bins[b]? = some d ∧
      Gives r.log10Msat b y ∧ Gives r.log10Mcut b w ∧ Gives r.alpha b a ∧
      ∀ x s, out[b]? = some (I (Hod.zhaiSat ⟨x, y, w, s, a, r.aCen, r.aSat⟩) d)) := by
  refine ⟨?_, ?_, ?_, ?_, ?_, ?_⟩ <;> intro h <;> obtain ⟨rows, h1, h2, h3⟩ := integrated_ok h <;> refine ⟨h2, fun b hb => ?_⟩ <;>
    obtain ⟨N, d, e0, e1, e2⟩ := h3 b hb
  · obtain ⟨x, g1, rfl⟩ := (stepCen_ok h1).2 b N e2
    exact ⟨d, x, e0, g1, fun y w => e1⟩
  · obtain ⟨x, y, w, g1, g2, g3, rfl⟩ := (simpleSat_ok h1).2 b N e2
    exact ⟨d, x, y, w, e0, g1, g2, g3, e1⟩
  · obtain ⟨y, w, g1, g2, g3⟩ := (zehaviSat_ok h1).2 b N e2
    exact ⟨d, y, w, e0, g1, g2, fun x => by rw [e1, g3 x]⟩
  · obtain ⟨x, s, g1, g2, rfl⟩ := (erfCenRows_ok h1).2 b N e2
    exact ⟨d, x, s, e0, g1, g2, fun y w a => e1⟩
  · obtain ⟨y, w, a, g1, g2, g3, g4⟩ := (zhengSat_ok h1).2 b N e2
    exact ⟨d, y, w, a, e0, g1, g2, g3, fun x s => by rw [e1, g4 x s]⟩
  · obtain ⟨y, w, a, g1, g2, g3, g4⟩ := (zhaiSat_ok h1).2 b N e2
    exact ⟨d, y, w, a, e0, g1, g2, g3, fun x s => by rw [e1, g4 x s]⟩

/-! ## when it works -/

theorem common_unique {lens : List (Option ℕ)} {n m : ℕ} (h : Common lens n) (h' : Common lens m) : n = m := by
  rcases h.1 _ h'.2 with a | a <;> rcases h'.1 _ h.2 with b | b <;> simp only [Option.some.injEq] at a b <;> omega

/-- C133: for two or more bins, occupations and number densities can both be had exactly if every parameter that is used has one value
or one for each bin, and at least one of them has one for each bin. -/
theorem C133_supported {D E : Type} (I : (ℝ → ℝ) → D → E) {occ : Occ} {lens : List (Option ℕ)} (h : Counted occ lens) (bins : List D)
    (hZ : 2 ≤ bins.length) :
    ((∃ out, interpolated bins.length occ = .ok out) ∧ ∃ out, integrated I bins occ = .ok out) ↔ Common lens bins.length := by
  constructor
  · rintro ⟨⟨o1, h1⟩, o2, h2⟩
    simp only [interpolated, bind_ok] at h1
    simp only [integrated, bind_ok] at h2
    obtain ⟨rows, a1, a2⟩ := h1
    obtain ⟨rows', b1, v, b2, b3⟩ := h2
    rw [a1] at b1
    cases b1
    have := (pick_ok a2).1
    have hl := bzip_length b2
    exact (h _).1 ⟨rows, a1, by omega⟩
  · intro hc
    obtain ⟨rows, h1, h2⟩ := (h _).2 hc
    obtain ⟨v, h3, h4⟩ := (bzip_ok I rows bins bins.length).2 (by omega)
    constructor
    · exact ⟨rows.take bins.length, by simp [interpolated, h1, bind, Except.bind, pick, h2]⟩
    · exact ⟨v.take bins.length, by simp [integrated, h1, h3, bind, Except.bind, pick, h4]⟩

/-- C133: if all parameters are single values, as the defaults are, and there are two or more bins, the occupations raise an
`IndexError`, though the number densities can be had. -/
theorem C133_scalars {D E : Type} (I : (ℝ → ℝ) → D → E) {occ : Occ} {lens : List (Option ℕ)} (h : Counted occ lens) (bins : List D)
    (hZ : 2 ≤ bins.length) (hs : Common lens 1) :
    interpolated bins.length occ = .error .indexError ∧ ∃ out, integrated I bins occ = .ok out := by
  obtain ⟨rows, h1, h2⟩ := (h _).2 hs
  obtain ⟨v, h3, h4⟩ := (bzip_ok I rows bins bins.length).2 (by omega)
  constructor
  · simp only [interpolated, h1, bind, Except.bind, pick]
    rw [if_neg (by omega)]
  · exact ⟨v.take bins.length, by simp [integrated, h1, h3, bind, Except.bind, pick, h4]⟩

/-- C133: with `n ≥ 2` values for another number of bins (two or more) the number densities raise a `ValueError`; the occupations raise
an `IndexError` if there are too few values, and drop the last ones without a word if there are too many. -/
theorem C133_wrong_length {D E : Type} (I : (ℝ → ℝ) → D → E) {occ : Occ} {lens : List (Option ℕ)} (h : Counted occ lens) (bins : List D)
    (hZ : 2 ≤ bins.length) {n : ℕ} (hn : 2 ≤ n) (hne : n ≠ bins.length) (hs : Common lens n) :
    integrated I bins occ = .error .valueError ∧
    (n < bins.length → interpolated bins.length occ = .error .indexError) ∧
    (bins.length < n → ∃ rows, occ = .ok rows ∧ interpolated bins.length occ = .ok (rows.take bins.length)) := by
  obtain ⟨rows, h1, h2⟩ := (h _).2 hs
  refine ⟨?_, fun hlt => ?_, fun hlt => ⟨rows, h1, ?_⟩⟩
  · have : bzip I rows bins = .error .valueError := bzip_error fun ⟨c, hc⟩ => by
      have := bzip_length hc
      omega
    simp only [integrated, h1, this, bind, Except.bind]
  · simp only [interpolated, h1, bind, Except.bind, pick]
    rw [if_neg (by omega)]
  · simp only [interpolated, h1, bind, Except.bind, pick]
    rw [if_pos (by omega)]

/-- C133: for one bin all works as soon as there are values that go together, and the first of them is used. -/
theorem C133_one_bin {D E : Type} (I : (ℝ → ℝ) → D → E) {occ : Occ} {lens : List (Option ℕ)} (h : Counted occ lens) (d : D) {n : ℕ}
    (hn : 1 ≤ n) (hs : Common lens n) :
    ∃ N rest, occ = .ok (N :: rest) ∧ interpolated 1 occ = .ok [N] ∧ integrated I [d] occ = .ok [I N d] := by
  obtain ⟨rows, h1, h2⟩ := (h _).2 hs
  match rows, h2 with
  | [], h2 => simp at h2; omega
  | N :: rest, h2 =>
    refine ⟨N, rest, h1, by simp [interpolated, h1, bind, Except.bind, pick], ?_⟩
    cases rest with
    | nil => simp [integrated, h1, bind, Except.bind, pick, bzip]
    | cons N' rest => simp [integrated, h1, bind, Except.bind, pick, bzip]

/-- C133: the total occupation can be had exactly if all parameters of centrals and satellites go together and there are at least as
many values as bins, and it is the sum of the two: it may be had although one of the two cannot. -/
theorem C133_total {cen sat : Occ} {lc ls : List (Option ℕ)} (hc : Counted cen lc) (hs : Counted sat ls) (Z : ℕ) :
    ((∃ out, hod Z cen sat = .ok out) ↔ ∃ n, Z ≤ n ∧ Common (lc ++ ls) n ∧ (∃ a, Common lc a) ∧ ∃ a, Common ls a) ∧
    ∀ out, hod Z cen sat = .ok out → ∃ c s, cen = .ok c ∧ sat = .ok s ∧ out.length = Z ∧
      ∀ b < Z, ∃ Nc Ns, ent c b = some Nc ∧ ent s b = some Ns ∧ out[b]? = some fun M => Nc M + Ns M := by
  have hmem : ∀ {a b n : ℕ}, Common lc a → Common ls b →
      (Common (lc ++ ls) n ↔ (a = 1 ∨ a = n) ∧ (b = 1 ∨ b = n) ∧ (a = n ∨ b = n)) := by
    intro a b n ha hb
    constructor
    · intro h
      have h1 := h.1 _ (List.mem_append_left _ ha.2)
      have h2 := h.1 _ (List.mem_append_right _ hb.2)
      have h3 : a = n ∨ b = n := by
        rcases List.mem_append.1 h.2 with h3 | h3
        · rcases ha.1 _ h3 with h4 | h4 <;> simp only [Option.some.injEq] at h1 h2 h4 <;> omega
        · rcases hb.1 _ h3 with h4 | h4 <;> simp only [Option.some.injEq] at h1 h2 h4 <;> omega
      simp only [Option.some.injEq] at h1 h2
      exact ⟨h1, h2, h3⟩
    · rintro ⟨h1, h2, h3⟩
      refine ⟨fun l hl => ?_, ?_⟩
      · rcases List.mem_append.1 hl with hl | hl
        · rcases ha.1 _ hl with h4 | h4
          · exact .inl h4
          · rcases h1 with h1 | h1 <;> rw [h4, h1] <;> simp
        · rcases hb.1 _ hl with h4 | h4
          · exact .inl h4
          · rcases h2 with h2 | h2 <;> rw [h4, h2] <;> simp
      · rcases h3 with rfl | rfl
        · exact List.mem_append_left _ ha.2
        · exact List.mem_append_right _ hb.2
  refine ⟨⟨?_, ?_⟩, ?_⟩
  · rintro ⟨out, h⟩
    simp only [hod, bind_ok] at h
    obtain ⟨c, h1, s, h2, t, h3, h4⟩ := h
    have h5 := (hc _).1 ⟨c, h1, rfl⟩
    have h6 := (hs _).1 ⟨s, h2, rfl⟩
    exact ⟨t.length, (pick_ok h4).1, (hmem h5 h6).2 (bzip_length h3), ⟨_, h5⟩, ⟨_, h6⟩⟩
  · rintro ⟨n, hn, h, ⟨a, ha⟩, b, hb⟩
    obtain ⟨c, h1, rfl⟩ := (hc _).2 ha
    obtain ⟨s, h2, rfl⟩ := (hs _).2 hb
    obtain ⟨t, h3, h4⟩ := (bzip_ok (fun (c s : ℝ → ℝ) (M : ℝ) => c M + s M) c s n).2 ((hmem ha hb).1 h)
    exact ⟨t.take Z, by simp only [hod, h1, h2, h3, bind, Except.bind, pick]; rw [if_pos (by omega)]⟩
  · intro out h
    simp only [hod, bind_ok] at h
    obtain ⟨c, h1, s, h2, t, h3, h4⟩ := h
    obtain ⟨h5, rfl⟩ := pick_ok h4
    refine ⟨c, s, h1, h2, by simp [h5], fun b hb => ?_⟩
    obtain ⟨x, y, e1, e2, e3⟩ := bzip_get h3 b (by omega)
    exact ⟨x, y, e1, e2, by rw [List.getElem?_take_of_lt hb, e3]⟩

/-- C133: the fractions are those of the number densities, bin by bin. -/
theorem C133_fractions {D : Type} (I : (ℝ → ℝ) → D → ℝ) (bins : List D) {cen sat part : Occ} {out : List ℝ}
    (h : fraction I bins cen sat part = .ok out) :
    ∃ c s p, cen = .ok c ∧ sat = .ok s ∧ part = .ok p ∧ out.length = bins.length ∧
      ∀ b < bins.length, ∃ Nc Ns N d, ent c b = some Nc ∧ ent s b = some Ns ∧ ent p b = some N ∧ bins[b]? = some d ∧
        out[b]? = some (I N d / I (fun M => Nc M + Ns M) d) := by
  simp only [fraction, bind_ok] at h
  obtain ⟨p, h1, n, h2, c, h3, s, h4, t, h5, t', h6, f, h7, h8⟩ := h
  obtain ⟨h9, rfl⟩ := pick_ok h8
  refine ⟨c, s, p, h3, h4, h1, by simp [h9], fun b hb => ?_⟩
  obtain ⟨u, v, e1, e2, e3⟩ := bzip_get h7 b (by omega)
  obtain ⟨N, d, f1, f2, rfl⟩ := bzip_ent h2 e1
  obtain ⟨T, d', g1, g2, rfl⟩ := bzip_ent h6 e2
  obtain ⟨x, y, k1, k2, rfl⟩ := bzip_ent h5 g1
  rw [f2] at g2
  cases g2
  have : ent bins b = some bins[b] := ent_of_get (List.getElem?_eq_getElem hb)
  rw [this] at f2
  exact ⟨x, y, N, d, k1, k2, f1, by rw [List.getElem?_eq_getElem hb, f2], by rw [List.getElem?_take_of_lt hb, e3]⟩

/-! ## the defaults and an example -/

/-- the defaults of `Simple` and `Zehavi` (hod.py:1068-1074, 1185-1191) -/
noncomputable def stepDefaults : Step := ⟨.number 12, .number 13, .number 1, none, none⟩

/-- the defaults of `Zheng` (hod.py:1302-1310) -/
noncomputable def zhengDefaults : Zheng := ⟨.number 12, .number 12, .number 13, .number 0.15, .number 1, none, none⟩

/-- the defaults of `Zhai` (hod.py:1464-1472) -/
noncomputable def zhaiDefaults : Zhai := ⟨.number 13.68, .number 14.87, .number 12.32, .number 0.82, .number 0.41, none, none⟩

/-- C133: with the default parameters and two or more bins none of the occupations of the four models can be had, and all of the
number densities can. -/
theorem C133_defaults {D E : Type} (I : (ℝ → ℝ) → D → E) (bins : List D) (hZ : 2 ≤ bins.length) (occ : Occ)
    (h : occ ∈ [stepCen stepDefaults, simpleSat stepDefaults, zehaviSat stepDefaults,
      erfCenRows zhengDefaults.log10Mmin zhengDefaults.sigma none, zhengSat zhengDefaults,
      erfCenRows zhaiDefaults.log10Mmin zhaiDefaults.sigma none, zhaiSat zhaiDefaults]) :
    interpolated bins.length occ = .error .indexError ∧ ∃ out, integrated I bins occ = .ok out := by
  obtain ⟨h1, h2, h3, h4, h5, h6⟩ := C133_row_numbers stepDefaults zhengDefaults zhaiDefaults
  simp only [List.mem_cons, List.not_mem_nil, or_false] at h
  rcases h with rfl | rfl | rfl | rfl | rfl | rfl | rfl
  · exact C133_scalars I h1 bins hZ (by simp [Common, stepDefaults, Val.len])
  · exact C133_scalars I h2 bins hZ (by simp [Common, stepDefaults, Val.len])
  · exact C133_scalars I h3 bins hZ (by simp [Common, stepDefaults, Val.len])
  · exact C133_scalars I (h4 _ _ _) bins hZ (by simp [Common, zhengDefaults, Val.len])
  · exact C133_scalars I h5 bins hZ (by simp [Common, zhengDefaults, Val.len])
  · exact C133_scalars I (h4 _ _ _) bins hZ (by simp [Common, zhaiDefaults, Val.len])
  · exact C133_scalars I h6 bins hZ (by simp [Common, zhaiDefaults, Val.len])

/-- one threshold for all bins but satellites of two bins: `hod` and `hod_sat` of `Zehavi` can be had, `hod_cen` cannot -/
example : (∃ out, hod 2 (stepCen ⟨.number 12, .list [13, 14], .number 1, none, none⟩)
      (zehaviSat ⟨.number 12, .list [13, 14], .number 1, none, none⟩) = .ok out) ∧
    (∃ out, interpolated 2 (zehaviSat ⟨.number 12, .list [13, 14], .number 1, none, none⟩) = .ok out) ∧
    interpolated 2 (stepCen ⟨.number 12, .list [13, 14], .number 1, none, none⟩) = .error .indexError := by
  obtain ⟨h1, -, h3, -⟩ := C133_row_numbers ⟨.number 12, .list [13, 14], .number 1, none, none⟩ zhengDefaults zhaiDefaults
  refine ⟨(C133_total h1 h3 2).1.2 ⟨2, le_rfl, by simp [Common, Val.len], ⟨1, by simp [Common, Val.len]⟩, 2, by simp [Common, Val.len]⟩,
    ((C133_supported (fun _ (_ : ℕ) => (0 : ℝ)) h3 [0, 1] le_rfl).2 (by simp [Common, Val.len])).1,
    (C133_scalars (fun _ (_ : ℕ) => (0 : ℝ)) h1 [0, 1] le_rfl (by simp [Common, Val.len])).1⟩

/-- three thresholds for two bins -/
example : ∃ out, interpolated 2 (stepCen ⟨.list [11, 12, 13], .number 13, .number 1, none, none⟩) = .ok out ∧ out.length = 2 := by
  obtain ⟨h1, -⟩ := C133_row_numbers ⟨.list [11, 12, 13], .number 13, .number 1, none, none⟩ zhengDefaults zhaiDefaults
  obtain ⟨rows, -, h⟩ := (C133_wrong_length (fun _ (_ : ℕ) => (0 : ℝ)) h1 [0, 1] le_rfl (n := 3) (by norm_num) (by simp)
    (by simp [Common, Val.len])).2.2 (by simp)
  exact ⟨_, h, ((C133_occupations 2 _ zhengDefaults zhaiDefaults _).1 h).1⟩

/-- an array without axes cannot be used -/
example (Z : ℕ) (x : ℝ) : ¬ ∃ out, interpolated Z (stepCen ⟨.array0 x, .number 13, .number 1, none, none⟩) = .ok out := by
  rintro ⟨out, h⟩
  obtain ⟨rows, h1, -⟩ := interpolated_ok h
  have := (stepCen_ok h1).1
  simp [Val.len] at this

end Verif.HodRows

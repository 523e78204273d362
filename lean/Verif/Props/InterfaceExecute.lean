import Verif.Props.InterfaceSetup
import Verif.Props.Add
import Verif.Lemmas.Interp

/-! # Execution of the CosmoSIS module: parameters, alignment samples, output sections (C68, C69, C73, C84, C85,
C90, C91) -/

namespace Verif.Interface

open Verif.Lib

/-! ## Alignment options -/

theorem readPair_ok {b : Block} {sec slope dep : String} {r : Option ℝ × Option ℝ} (h : readPair b sec slope dep = .ok r) :
    (dep = "halo_mass" → ∃ x m, readNum b sec slope = .ok x ∧ readNum b sec "M_pivot" = .ok m ∧ r = (some x, some m)) ∧
    (dep ≠ "halo_mass" → r = (none, none)) := by
  unfold readPair at h
  split_ifs at h with hd
  · obtain ⟨x, hx, h⟩ := bind_eq_ok h
    obtain ⟨m, hm, h⟩ := bind_eq_ok h
    cases h
    exact ⟨fun _ => ⟨x, m, hx, hm, rfl⟩, fun h => absurd hd h⟩
  · cases h
    exact ⟨fun h => absurd h hd, fun _ => rfl⟩

/-- C68: which entries are set: the satellite slope and pivot depend on the central option and the central slope
and pivot on the satellite option. -/
theorem C68_exchanged (b : Block) (pop central satellite : String) (a : AlignParams)
    (h : alignParams b pop central satellite = .ok a) :
    (a.mpivotSat ≠ none ↔ central = "halo_mass") ∧ (a.betaSat ≠ none ↔ central = "halo_mass") ∧
    (a.mpivotCen ≠ none ↔ satellite = "halo_mass") ∧ (a.betaCen ≠ none ↔ satellite = "halo_mass") := by
  unfold alignParams at h
  obtain ⟨s, hs, h⟩ := bind_eq_ok h
  obtain ⟨c, hc, h⟩ := bind_eq_ok h
  obtain ⟨sl, -, h⟩ := bind_eq_ok h
  obtain ⟨g1, -, h⟩ := bind_eq_ok h
  obtain ⟨g2, -, h⟩ := bind_eq_ok h
  cases h
  obtain ⟨hs1, hs2⟩ := readPair_ok hs
  obtain ⟨hc1, hc2⟩ := readPair_ok hc
  constructor
  · by_cases hd : central = "halo_mass"
    · obtain ⟨x, m, -, -, rfl⟩ := hs1 hd; simp [hd]
    · rw [hs2 hd]; simp [hd]
  constructor
  · by_cases hd : central = "halo_mass"
    · obtain ⟨x, m, -, -, rfl⟩ := hs1 hd; simp [hd]
    · rw [hs2 hd]; simp [hd]
  constructor
  · by_cases hd : satellite = "halo_mass"
    · obtain ⟨x, m, -, -, rfl⟩ := hc1 hd; simp [hd]
    · rw [hc2 hd]; simp [hd]
  · by_cases hd : satellite = "halo_mass"
    · obtain ⟨x, m, -, -, rfl⟩ := hc1 hd; simp [hd]
    · rw [hc2 hd]; simp [hd]

/-- C68: with both options 'halo_mass' the entries come from the sample's own section. -/
theorem C68_values (b : Block) (pop : String) (a : AlignParams)
    (h : alignParams b pop "halo_mass" "halo_mass" = .ok a) :
    ∃ bs bc m, readNum b ("intrinsic_alignment_parameters" ++ pop) "beta_sat" = .ok bs ∧
      readNum b ("intrinsic_alignment_parameters" ++ pop) "beta" = .ok bc ∧
      readNum b ("intrinsic_alignment_parameters" ++ pop) "M_pivot" = .ok m ∧
      a.betaSat = some bs ∧ a.betaCen = some bc ∧ a.mpivotSat = some m ∧ a.mpivotCen = some m ∧
      readNum b ("intrinsic_alignment_parameters" ++ pop) "gamma_1h_radial_slope" = .ok a.gamma1hSlope ∧
      readNum b ("intrinsic_alignment_parameters" ++ pop) "gamma_1h_amplitude" = .ok a.gamma1h ∧
      readNum b ("intrinsic_alignment_parameters" ++ pop) "gamma_2h_amplitude" = .ok a.gamma2h := by
  unfold alignParams at h
  obtain ⟨s, hs, h⟩ := bind_eq_ok h
  obtain ⟨c, hc, h⟩ := bind_eq_ok h
  obtain ⟨sl, h1, h⟩ := bind_eq_ok h
  obtain ⟨g1, h2, h⟩ := bind_eq_ok h
  obtain ⟨g2, h3, h⟩ := bind_eq_ok h
  cases h
  obtain ⟨x, m, hx, hm, rfl⟩ := (readPair_ok hs).1 rfl
  obtain ⟨x', m', hx', hm', rfl⟩ := (readPair_ok hc).1 rfl
  rw [hm] at hm'
  cases hm'
  exact ⟨x, x', m, hx, hx', hm, rfl, rfl, rfl, rfl, h1, h2, h3⟩

/-- C68: the amplitude object then behaves as for option 'halo_mass' whatever was requested: the central amplitude
is available exactly when the *satellite* option is 'halo_mass' and the satellite amplitude exactly when the
*central* option is; otherwise ValueError.  Hence the options 'constant' and 'luminosity' never work. -/
theorem C68_amplitudes (b : Block) (pop central satellite : String) (a : AlignParams) (nz : ℕ) (z : ℕ → ℝ)
    (h : alignParams b pop central satellite = .ok a) :
    (satellite = "halo_mass" → (amplitudes nz z a).alignmentGi = .ok (some fun _ => a.gamma2h)) ∧
    (satellite ≠ "halo_mass" → (amplitudes nz z a).alignmentGi = .error .valueError) ∧
    (central = "halo_mass" → (amplitudes nz z a).gamma1hAmp = .ok (some fun _ => a.gamma1h)) ∧
    (central ≠ "halo_mass" → (amplitudes nz z a).gamma1hAmp = .error .valueError) := by
  obtain ⟨h1, -, h3, -⟩ := C68_exchanged b pop central satellite a h
  have hc : ("halo_mass" = "constant") = False := by simp
  have hl : ("halo_mass" = "luminosity") = False := by simp
  refine ⟨fun hs => ?_, fun hs => ?_, fun hs => ?_, fun hs => ?_⟩
  · obtain ⟨m, hm⟩ := Option.ne_none_iff_exists'.mp (h3.mpr hs)
    simp [Ia.Amplitudes.alignmentGi, amplitudes, hm, Ia.setPivot]
  · have hm : a.mpivotCen = none := by
      by_contra hne; exact hs (h3.mp hne)
    simp [Ia.Amplitudes.alignmentGi, amplitudes, hm, Ia.setPivot]
  · obtain ⟨m, hm⟩ := Option.ne_none_iff_exists'.mp (h1.mpr hs)
    simp [Ia.Amplitudes.gamma1hAmp, amplitudes, hm, Ia.setPivot]
  · have hm : a.mpivotSat = none := by
      by_contra hne; exact hs (h1.mp hne)
    simp [Ia.Amplitudes.gamma1hAmp, amplitudes, hm, Ia.setPivot]

/-- an alignment section -/
def demoIaBlock : Block := fun s k =>
  if s = "intrinsic_alignment_parameters" then
    if k = "gamma_1h_radial_slope" then some (.num (-2))
    else if k = "gamma_1h_amplitude" then some (.num 0.001)
    else if k = "gamma_2h_amplitude" then some (.num 5.33)
    else if k = "M_pivot" then some (.num 13.5)
    else if k = "beta" then some (.num 0.44)
    else if k = "beta_sat" then some (.num 0.5) else none
  else none

/-- constant amplitude for centrals, mass dependence for satellites: the satellites fail, the centrals do not -/
example : ∃ a, alignParams demoIaBlock "" "constant" "halo_mass" = .ok a ∧
    (amplitudes 2 (fun i => i) a).gamma1hAmp = .error .valueError ∧
    (amplitudes 2 (fun i => i) a).alignmentGi = .ok (some fun _ => a.gamma2h) := by
  have h : alignParams demoIaBlock "" "constant" "halo_mass" =
      .ok ⟨none, none, some 0.44, some 13.5, -2, 0.001, 5.33⟩ := by
    simp [alignParams, readPair, readNum, getDouble, demoIaBlock, bind, Except.bind, pure, Except.pure]
  exact ⟨_, h, (C68_amplitudes _ _ _ _ _ 2 (fun i => i) h).2.2.2 (by simp),
    (C68_amplitudes _ _ _ _ _ 2 (fun i => i) h).1 rfl⟩

/-! ## Two alignment samples -/

/-- C69: with split samples every spectrum that is written is the upsampled spectrum of the first sample; the
parameters `p2` of the second sample do not occur in it. -/
theorem C69_second_sample_ignored {P : Type} (env : Add.Env P) (z : Add.Arr) (k : ℕ → ℝ) (power : Add.Obj) (p1 p2 : P)
    (hz : Spec.SortedOn z.n z.val) (hn : 2 ≤ z.n) (modes comps : List String)
    (hok : (Add.results env comps modes (Add.fresh (splitParams z k power p1 p2))).2 = .ok ())
    (mode comp : String) (hm : mode ∈ modes) (hc : comp ∈ comps) :
    ∃ d v a, (Add.results env comps modes (Add.fresh (splitParams z k power p1 p2))).1.attrs mode = some d ∧
      d comp = some v ∧ Add.component power mode comp = .ok a ∧ v.nz = z.n ∧
      ∀ b i j, i < z.n → v.val b i j = Add.extrapolateSpectra z.val k power a .extrapolate b i j := by
  obtain ⟨d0, hd0, hdc⟩ := (Add.results_spec env comps modes _).2.2 hok mode hm
  obtain ⟨v0, hv0, -⟩ := (hdc comp).1 hc
  set p := splitParams z k power p1 p2 with hp
  have e1 : Add.effP1 env (Add.fresh p) = power := rfl
  have e2 : Add.effP2 env (Add.fresh p) = some (env.cloneUpdate power p2) := rfl
  unfold Add.valueNow Add.pureComp at hv0
  rw [e1, e2] at hv0
  have hpar : (Add.fresh p).par = p := rfl
  rw [hpar] at hv0
  cases h1 : Add.upsampled p power mode comp with
  | error e => simp [h1] at hv0
  | ok x1 =>
    simp only [h1] at hv0
    cases h2 : Add.upsampled2 p (some (env.cloneUpdate power p2)) mode comp with
    | error e => simp [h2] at hv0
    | ok x2 =>
      obtain ⟨d, v, hd, hdv, hnz, hval⟩ := Add.C59_mixing env p modes comps mode comp power
        (some (env.cloneUpdate power p2)) (fun _ => 1) x1 x2 rfl rfl
        (Or.inr ⟨⟨z.n, fun _ => 1⟩, z, rfl, rfl, rfl, by
          funext i
          exact (interpLinear_const hn hz 1 _).symm⟩) h1 h2 hok hm hc
      unfold Add.upsampled at h1
      cases ha : Add.component power mode comp with
      | error e => simp [ha] at h1
      | ok a =>
        simp only [ha, Except.ok.injEq] at h1
        refine ⟨d, v, a, hd, hdv, rfl, hnz, fun b i j hi => ?_⟩
        rw [hval b i j hi, ← h1]
        show (if mode = "mm" then _ else _) = Add.extrapolateSpectra z.val k power a .extrapolate b i j
        split_ifs <;> simp [hp, splitParams]

/-- C69: two second samples give the same output. -/
theorem C69_same_output {P : Type} (env : Add.Env P) (z : Add.Arr) (k : ℕ → ℝ) (power : Add.Obj) (p1 p2 p2' : P)
    (hz : Spec.SortedOn z.n z.val) (hn : 2 ≤ z.n) (modes comps : List String)
    (hok : (Add.results env comps modes (Add.fresh (splitParams z k power p1 p2))).2 = .ok ())
    (hok' : (Add.results env comps modes (Add.fresh (splitParams z k power p1 p2'))).2 = .ok ())
    (mode comp : String) (hm : mode ∈ modes) (hc : comp ∈ comps) :
    ∃ d v d' v', (Add.results env comps modes (Add.fresh (splitParams z k power p1 p2))).1.attrs mode = some d ∧
      (Add.results env comps modes (Add.fresh (splitParams z k power p1 p2'))).1.attrs mode = some d' ∧
      d comp = some v ∧ d' comp = some v' ∧ ∀ b i j, i < z.n → v.val b i j = v'.val b i j := by
  obtain ⟨d, v, a, h1, h2, h3, -, h5⟩ := C69_second_sample_ignored env z k power p1 p2 hz hn modes comps hok mode comp hm hc
  obtain ⟨d', v', a', h1', h2', h3', -, h5'⟩ :=
    C69_second_sample_ignored env z k power p1 p2' hz hn modes comps hok' mode comp hm hc
  refine ⟨d, v, d', v', h1, h1', h2, h2', fun b i j hi => ?_⟩
  rw [h3] at h3'
  cases h3'
  rw [h5 b i j hi, h5' b i j hi]

/-- a halo model whose intrinsic-intrinsic spectrum is the constant `c` -/
noncomputable def demoIi (c : ℝ) : Add.Obj :=
  ⟨2, fun i => i, 2, fun i => (i : ℝ) + 1, fun m => if m = "ii" then some fun cp => if cp = "tot" then
    some fun _ _ _ => c else none else none⟩

/-- two samples on the redshifts 0, 1, 2 where the second one is a hundred times stronger: the run succeeds -/
example : (Add.results (P := ℝ) ⟨fun _ => demoIi 1, fun _ c => demoIi c⟩ ["tot"] ["ii"]
    (Add.fresh (splitParams ⟨3, fun i => i⟩ (fun i => (i : ℝ) + 1) (demoIi 1) 1 100))).2 = .ok () := by
  simp [Add.results, Add.collect, Add.oneComponent, Add.readPower1, Add.readPower2, Add.fresh, splitParams,
    Add.upsampled, Add.upsampled2, Add.component, demoIi, Add.readFrac1, Add.frac1Val, Add.combine]

/-! ## Output sections -/

theorem split_digits {l m d e : List Char} (hl : ∀ c ∈ l, ¬ c.isDigit) (hm : ∀ c ∈ m, ¬ c.isDigit)
    (hd : ∀ c ∈ d, c.isDigit) (he : ∀ c ∈ e, c.isDigit) (h : l ++ d = m ++ e) : l = m ∧ d = e := by
  induction l generalizing m with
  | nil => cases m with
    | nil => exact ⟨rfl, by simpa using h⟩
    | cons c m =>
      exfalso
      have : c ∈ d := by rw [List.nil_append] at h; rw [h]; simp
      exact hm c (by simp) (hd c this)
  | cons a l ih => cases m with
    | nil =>
      exfalso
      have : a ∈ e := by rw [List.nil_append] at h; rw [← h]; simp
      exact hl a (by simp) (he a this)
    | cons c m =>
      simp only [List.cons_append, List.cons.injEq] at h
      obtain ⟨h1, h2⟩ := ih (fun c hc => hl c (by simp [hc])) (fun c hc => hm c (by simp [hc])) h.2
      exact ⟨by rw [h.1, h1], h2⟩

theorem digits_toString (n : ℕ) : ∀ c ∈ (toString n).toList, c.isDigit := by
  intro c hc
  rw [Nat.toString_eq_repr, Nat.toList_repr] at hc
  exact Nat.isDigit_of_mem_toDigits (by norm_num) (by norm_num) hc

theorem toString_inj {m n : ℕ} (h : toString m = toString n) : m = n := by
  have := congrArg String.toList h
  rw [Nat.toString_eq_repr, Nat.toString_eq_repr, Nat.toList_repr, Nat.toList_repr] at this
  rw [← Nat.ofDigitChars_ten_toDigits (n := m), this, Nat.ofDigitChars_ten_toDigits]

/-- a name without digits that does not end in an underscore -/
def PlainName (b : String) : Prop := (∀ c ∈ b.toList, ¬ c.isDigit) ∧ b.toList.getLast? ≠ some '_'

/-- names of bins are different: from `base ++ suffix` one can recover the base and (unless there is only one bin)
the bin, even when the bin counts differ -/
theorem suffix_inj {b b' : String} (hb : PlainName b) (hb' : PlainName b') {n n' nb nb' : ℕ}
    (h : b ++ binSuffix n nb = b' ++ binSuffix n' nb') :
    b = b' ∧ binSuffix n nb = binSuffix n' nb' ∧ (n ≠ 1 → nb = nb') := by
  have key : ∀ {x y : String}, PlainName x → PlainName y → ∀ s : ℕ, x ≠ y ++ ("_" ++ toString s) := by
    intro x y hx hy s he
    have := congrArg String.toList he
    rw [String.toList_append, String.toList_append] at this
    have hd : (toString s).toList ≠ [] := by
      rw [Nat.toString_eq_repr, Nat.toList_repr]; exact Nat.toDigits_ne_nil
    obtain ⟨c, l, hcl⟩ := List.exists_cons_of_ne_nil hd
    have hc : c ∈ x.toList := by rw [this, hcl]; simp
    exact hx.1 c hc (digits_toString s c (by rw [hcl]; simp))
  unfold binSuffix at h ⊢
  split_ifs at h ⊢ with h1 h2 h2
  · have := congrArg String.toList h
    rw [← String.append_assoc, ← String.append_assoc] at this
    rw [String.toList_append, String.toList_append (s := b' ++ "_")] at this
    have hl : ∀ x : String, PlainName x → ∀ c ∈ (x ++ "_").toList, ¬ c.isDigit := by
      intro x hx c hc
      rw [String.toList_append] at hc
      rcases List.mem_append.mp hc with hc | hc
      · exact hx.1 c hc
      · simp at hc; subst hc; simp
    obtain ⟨e1, e2⟩ := split_digits (hl b hb) (hl b' hb') (digits_toString _) (digits_toString _) this
    rw [String.toList_append, String.toList_append] at e1
    have eb : b = b' := String.toList_inj.mp (List.append_cancel_right e1)
    have en := toString_inj (String.toList_inj.mp e2)
    have : nb = nb' := by omega
    subst this
    exact ⟨eb, rfl, fun _ => rfl⟩
  · exact absurd (by simpa using h.symm) (key hb' hb (nb + 1))
  · exact absurd (by simpa using h) (key hb hb' (nb' + 1))
  · exact ⟨by simpa using h, rfl, fun h => absurd h (by simpa using h1)⟩

/-- the base names of the output sections -/
def baseNames : List String := ["galaxy_power", "galaxy_linear_bias", "matter_galaxy_power",
  "galaxy_matter_linear_bias", "intrinsic_power", "galaxy_intrinsic_power", "matter_intrinsic_power",
  "matter_power_nl"]

theorem baseNames_plain : ∀ b ∈ baseNames, PlainName b := by
  unfold PlainName baseNames; decide

/-- C73: each spectrum of each bin has a section of its own: no section is written twice, for any selection of
spectra and any numbers of bins of the two samples. -/
theorem C73_no_collision (p : Pipeline) (n m : ℕ) : (spectraSections p n m).Nodup := by
  -- every entry of the list carries its base name
  have hbin : ∀ (bases : List String) (n : ℕ), (∀ b ∈ bases, b ∈ baseNames) → bases.Nodup →
      (binSections bases n).Nodup := by
    intro bases n hb hnd
    unfold binSections
    rw [List.nodup_flatMap]
    refine ⟨fun nb _ => ?_, ?_⟩
    · refine (List.nodup_map_iff_inj_on hnd).mpr ?_
      intro x hx y hy h
      exact (suffix_inj (baseNames_plain x (hb x hx)) (baseNames_plain y (hb y hy)) h).1
    · have hp : (List.range n).Pairwise (fun a b => a < b ∧ b < n) := by
        rw [List.pairwise_iff_getElem]
        intro i j hi hj hij
        simp at hi hj ⊢
        omega
      refine hp.imp ?_
      intro a c hac
      simp only [Function.onFun, List.disjoint_left, List.mem_map, not_exists, not_and]
      rintro s ⟨x, hx, rfl⟩ y hy h
      obtain ⟨-, -, h3⟩ := suffix_inj (baseNames_plain y (hb y hy)) (baseNames_plain x (hb x hx)) h
      have := h3 (by omega)
      omega
  have hmem : ∀ {bases : List String} {n : ℕ} {s : String}, s ∈ binSections bases n →
      ∃ b ∈ bases, ∃ nb, s = b ++ binSuffix n nb := by
    intro bases n s hs
    unfold binSections at hs
    simp only [List.mem_flatMap, List.mem_map] at hs
    obtain ⟨nb, -, b, hb, rfl⟩ := hs
    exact ⟨b, hb, nb, rfl⟩
  have hdisj : ∀ (B C : List String) (n m : ℕ), (∀ b ∈ B, b ∈ baseNames) → (∀ b ∈ C, b ∈ baseNames) →
      (∀ b ∈ B, b ∉ C) → ∀ s ∈ binSections B n, s ∉ binSections C m := by
    intro B C n m hB hC hBC s hs hs'
    obtain ⟨b, hb, nb, rfl⟩ := hmem hs
    obtain ⟨c, hc, nc, he⟩ := hmem hs'
    obtain ⟨e, -⟩ := suffix_inj (baseNames_plain b (hB b hb)) (baseNames_plain c (hC c hc)) he
    exact hBC b hb (e ▸ hc)
  have hnl : ∀ (B : List String) (n : ℕ), (∀ b ∈ B, b ∈ baseNames) → "matter_power_nl" ∉ B →
      "matter_power_nl" ∉ binSections B n := by
    intro B n hB hnB hs
    obtain ⟨b, hb, nb, he⟩ := hmem hs
    have he' : "matter_power_nl" ++ binSuffix 1 0 = b ++ binSuffix n nb := by rw [← he]; rfl
    obtain ⟨e, -⟩ := suffix_inj (baseNames_plain _ (by unfold baseNames; decide)) (baseNames_plain b (hB b hb)) he'
    exact hnB (e ▸ hb)
  -- each group is nodup and groups have different bases
  have hif : ∀ (c : Bool) (l : List String), l.Nodup → (if c = true then l else []).Nodup := by
    intro c l h; cases c <;> simp [h]
  have hifm : ∀ (c : Bool) (l : List String) (s : String), s ∈ (if c = true then l else []) → s ∈ l := by
    intro c l s h; cases c <;> simp_all
  unfold spectraSections
  refine List.Nodup.append (List.Nodup.append (List.Nodup.append ?_ ?_ ?_) ?_ ?_) ?_ ?_
  · exact hif _ _ (by simp)
  · exact hif _ _ (hbin _ _ (by decide) (by decide))
  · rw [List.disjoint_left]
    intro s hs hs'
    have := hifm _ _ _ hs
    simp only [List.mem_singleton] at this
    subst this
    exact hnl _ _ (by decide) (by decide) (hifm _ _ _ hs')
  · exact hif _ _ (hbin _ _ (by decide) (by decide))
  · rw [List.disjoint_left]
    intro s hs hs'
    have hs' := hifm _ _ _ hs'
    rcases List.mem_append.mp hs with hs | hs
    · have := hifm _ _ _ hs
      simp only [List.mem_singleton] at this
      subst this
      exact hnl _ _ (by decide) (by decide) hs'
    · exact hdisj _ _ _ _ (by decide) (by decide) (by decide) s (hifm _ _ _ hs) hs'
  · refine hif _ _ (List.Nodup.append (List.Nodup.append ?_ ?_ ?_) ?_ ?_)
    · exact hif _ _ (hbin _ _ (by decide) (by decide))
    · exact hif _ _ (hbin _ _ (by decide) (by decide))
    · rw [List.disjoint_left]
      intro s hs hs'
      exact hdisj _ _ _ _ (by decide) (by decide) (by decide) s (hifm _ _ _ hs) (hifm _ _ _ hs')
    · exact hif _ _ (hbin _ _ (by decide) (by decide))
    · rw [List.disjoint_left]
      intro s hs hs'
      have hs' := hifm _ _ _ hs'
      rcases List.mem_append.mp hs with hs | hs
      · exact hdisj _ _ _ _ (by decide) (by decide) (by decide) s (hifm _ _ _ hs) hs'
      · exact hdisj _ _ _ _ (by decide) (by decide) (by decide) s (hifm _ _ _ hs) hs'
  · rw [List.disjoint_left]
    intro s hs hs'
    have hs' := hifm _ _ _ hs'
    have hs'' : s ∈ binSections ["intrinsic_power"] m ∨ s ∈ binSections ["galaxy_intrinsic_power"] m ∨
        s ∈ binSections ["matter_intrinsic_power"] m := by
      rcases List.mem_append.mp hs' with h | h
      · rcases List.mem_append.mp h with h | h
        · exact Or.inl (hifm _ _ _ h)
        · exact Or.inr (Or.inl (hifm _ _ _ h))
      · exact Or.inr (Or.inr (hifm _ _ _ h))
    rcases List.mem_append.mp hs with hs | hs
    · rcases List.mem_append.mp hs with hs | hs
      · have := hifm _ _ _ hs
        simp only [List.mem_singleton] at this
        subst this
        rcases hs'' with h | h | h <;> exact hnl _ _ (by decide) (by decide) h
      · have hs := hifm _ _ _ hs
        rcases hs'' with h | h | h <;> exact hdisj _ _ _ _ (by decide) (by decide) (by decide) s hs h
    · have hs := hifm _ _ _ hs
      rcases hs'' with h | h | h <;> exact hdisj _ _ _ _ (by decide) (by decide) (by decide) s hs h

/-- C73: with one bin the names have no suffix. -/
theorem C73_one_bin (p : Pipeline) : ∀ s ∈ spectraSections p 1 1, s ∈ baseNames := by
  obtain ⟨a, b, c, d, e, f, r, sp, _, _, _⟩ := p
  cases a <;> cases b <;> cases c <;> cases d <;> cases e <;> cases f <;> cases r <;>
    simp [spectraSections, binSections, binSuffix, Pipeline.alignment, baseNames]

/-- C73: the number of sections: one for the matter spectrum, two per galaxy bin and requested galaxy spectrum, one
per alignment bin and requested alignment spectrum. -/
theorem C73_count (p : Pipeline) (n m : ℕ) : (spectraSections p n m).length =
    (if p.pmm && !p.response then 1 else 0) + (p.pgg.toNat + p.pgm.toNat) * (2 * n) +
      (p.pII.toNat + p.pgI.toNat + p.pmI.toNat) * m := by
  have h : ∀ (B : List String) (n : ℕ), (binSections B n).length = n * B.length := by
    intro B n; simp [binSections, List.length_flatMap]
  obtain ⟨a, b, c, d, e, f, r, sp, _, _, _⟩ := p
  cases a <;> cases b <;> cases c <;> cases d <;> cases e <;> cases f <;> cases r <;>
    simp [spectraSections, Pipeline.alignment, h] <;> ring

/-- galaxy-galaxy and galaxy-intrinsic spectra with three galaxy bins and two alignment bins -/
example : spectraSections ⟨true, true, false, true, false, false, false, false, .none, .none, ""⟩ 3 2 =
    ["matter_power_nl", "galaxy_power_1", "galaxy_linear_bias_1", "galaxy_power_2", "galaxy_linear_bias_2",
      "galaxy_power_3", "galaxy_linear_bias_3", "galaxy_intrinsic_power_1", "galaxy_intrinsic_power_2"] := by
  decide

/-! ## Poisson parameters -/

/-- C84: if `poisson_type` is not given, every call with galaxy or alignment spectra fails with a missing key. -/
theorem C84_default_fails (o : Options) (p : Pipeline) (hp : setupPipeline o = .ok p) (h : o "poisson_type" = none)
    (b : Block) : poissonParams b p.poissonType = .error .keyError := by
  unfold setupPipeline at hp
  obtain ⟨_, -, hp⟩ := bind_eq_ok hp
  obtain ⟨_, -, hp⟩ := bind_eq_ok hp
  obtain ⟨_, -, hp⟩ := bind_eq_ok hp
  obtain ⟨_, -, hp⟩ := bind_eq_ok hp
  obtain ⟨_, -, hp⟩ := bind_eq_ok hp
  obtain ⟨_, -, hp⟩ := bind_eq_ok hp
  obtain ⟨_, -, hp⟩ := bind_eq_ok hp
  obtain ⟨_, -, hp⟩ := bind_eq_ok hp
  obtain ⟨_, -, hp⟩ := bind_eq_ok hp
  obtain ⟨_, -, hp⟩ := bind_eq_ok hp
  obtain ⟨t, ht, hp⟩ := bind_eq_ok hp
  cases hp
  rw [h] at ht
  cases ht
  rfl

theorem poissonLoop_ok (b : Block) (ps : List String) (d : String → Option SN) (h : poissonLoop b ps = .ok d) :
    ∀ k, (k ∈ ps → ∃ v x, b "pk_parameters" k = some v ∧ getStringOrNone (some v) none = .ok x ∧ d k = some x) ∧
      (k ∉ ps → d k = none) := by
  induction ps generalizing d with
  | nil => cases h; intro k; simp
  | cons p ps ih =>
    unfold poissonLoop at h
    cases hv : b "pk_parameters" p with
    | none => simp [hv] at h
    | some v =>
      simp only [hv] at h
      cases hx : getStringOrNone (some v) none with
      | error e => simp [hx] at h
      | ok x =>
        simp only [hx] at h
        cases hd : poissonLoop b ps with
        | error e => simp [hd] at h
        | ok d' =>
          simp only [hd, Except.ok.injEq] at h
          subst h
          intro k
          obtain ⟨h1, h2⟩ := ih d' hd k
          refine ⟨fun hk => ?_, fun hk => ?_⟩
          · by_cases hkm : k ∈ ps
            · obtain ⟨w, y, hw, hy, hdy⟩ := h1 hkm
              exact ⟨w, y, hw, hy, by simp [hdy]⟩
            · have : k = p := by simpa [hkm] using hk
              subst this
              exact ⟨v, x, hv, hx, by simp [h2 hkm]⟩
          · simp only [List.mem_cons, not_or] at hk
            simp [h2 hk.2, hk.1]

/-- C84: the two known options return exactly their parameters, with the values of the block. -/
theorem C84_known_options (b : Block) (t : String) (d : String → Option SN) (h : poissonParams b t = .ok d) :
    (t = "constant" ∨ t = "power_law") ∧
    (∃ v x, b "pk_parameters" "poisson" = some v ∧ getStringOrNone (some v) none = .ok x ∧ d "poisson" = some x) ∧
    (t = "power_law" → ∀ k ∈ ["pivot", "slope"], ∃ v x, b "pk_parameters" k = some v ∧
      getStringOrNone (some v) none = .ok x ∧ d k = some x) ∧
    (t = "constant" → ∀ k, k ≠ "poisson" → d k = none) := by
  unfold poissonParams poissonParameters at h
  split_ifs at h with h1 h2
  · have hl := poissonLoop_ok b _ d h
    refine ⟨Or.inl h1, (hl "poisson").1 (by simp), fun h => absurd (h1.symm.trans h) (by simp), fun _ k hk => (hl k).2 (by simpa using hk)⟩
  · have hl := poissonLoop_ok b _ d h
    exact ⟨Or.inr h2, (hl "poisson").1 (by simp), fun _ k hk => (hl k).1 (by simp at hk ⊢; tauto), fun h => absurd h h1⟩
  · cases h

/-- C84: the only failures: an unknown option, a missing parameter, an unreadable value. -/
theorem C84_failures (b : Block) (t : String) (e : PyErr) (h : poissonParams b t = .error e) :
    (e = .keyError ∧ t ≠ "constant" ∧ t ≠ "power_law") ∨
    (∃ k ∈ ["poisson", "pivot", "slope"], b "pk_parameters" k = none ∧ e = .generic) ∨
    (∃ k ∈ ["poisson", "pivot", "slope"], ∃ v, b "pk_parameters" k = some v ∧ getStringOrNone (some v) none = .error e) := by
  have hl : ∀ ps, poissonLoop b ps = .error e → (∃ k ∈ ps, b "pk_parameters" k = none ∧ e = .generic) ∨
      (∃ k ∈ ps, ∃ v, b "pk_parameters" k = some v ∧ getStringOrNone (some v) none = .error e) := by
    intro ps
    induction ps with
    | nil => intro h; cases h
    | cons p ps ih =>
      intro h
      unfold poissonLoop at h
      cases hv : b "pk_parameters" p with
      | none => simp only [hv, Except.error.injEq] at h; exact Or.inl ⟨p, by simp, hv, h.symm⟩
      | some v =>
        simp only [hv] at h
        cases hx : getStringOrNone (some v) none with
        | error e' =>
          simp only [hx, Except.error.injEq] at h
          subst h
          exact Or.inr ⟨p, by simp, v, hv, hx⟩
        | ok x =>
          simp only [hx] at h
          cases hd : poissonLoop b ps with
          | error e' =>
            simp only [hd, Except.error.injEq] at h
            subst h
            rcases ih hd with ⟨k, hk, h⟩ | ⟨k, hk, h⟩
            · exact Or.inl ⟨k, by simp [hk], h⟩
            · exact Or.inr ⟨k, by simp [hk], h⟩
          | ok d => simp [hd] at h
  unfold poissonParams poissonParameters at h
  split_ifs at h with h1 h2
  · rcases hl _ h with ⟨k, hk, h⟩ | ⟨k, hk, h⟩
    · exact Or.inr (Or.inl ⟨k, by simp at hk ⊢; tauto, h⟩)
    · exact Or.inr (Or.inr ⟨k, by simp at hk ⊢; tauto, h⟩)
  · rcases hl _ h with ⟨k, hk, h⟩ | ⟨k, hk, h⟩
    · exact Or.inr (Or.inl ⟨k, hk, h⟩)
    · exact Or.inr (Or.inr ⟨k, hk, h⟩)
  · simp only [Except.bind, Except.error.injEq] at h
    exact Or.inl ⟨h.symm, h1, h2⟩

/-- options asking for the galaxy spectrum only -/
example : ∃ p, setupPipeline (fun k => if k = "p_gg" then some (.bool true) else none) = .ok p ∧ p.galaxy = true ∧
    ∀ b, poissonParams b p.poissonType = .error .keyError :=
  ⟨_, rfl, rfl, fun b => C84_default_fails (fun k => if k = "p_gg" then some (.bool true) else none) _ rfl rfl b⟩

/-- a constant Poisson parameter of 1 -/
example : ∃ d, poissonParams (fun s k => if s = "pk_parameters" ∧ k = "poisson" then some (.num 1) else none)
    "constant" = .ok d ∧ d "poisson" = some (.num 1) := by
  refine ⟨_, rfl, ?_⟩
  simp

/-! ## Parameters of the halo occupation model -/

theorem loadBins_ok (b : Block) (sec param : String) (n : ℕ) (l : List ℕ) (vs : List OVal)
    (h : loadBins b sec param n l = .ok vs) : vs.map some = l.map fun nb => b sec (param ++ binSuffix n nb) := by
  induction l generalizing vs with
  | nil => cases h; rfl
  | cons nb l ih =>
    unfold loadBins at h
    cases hv : b sec (param ++ binSuffix n nb) with
    | none => simp [hv] at h
    | some v =>
      simp only [hv] at h
      cases hr : loadBins b sec param n l with
      | error e => simp [hr] at h
      | ok ws =>
        simp only [hr, Except.ok.injEq] at h
        subst h
        simp [hv, ih ws hr]

theorem loadBins_total (b : Block) (sec param : String) (n : ℕ) (l : List ℕ)
    (h : ∀ nb ∈ l, b sec (param ++ binSuffix n nb) ≠ none) : ∃ vs, loadBins b sec param n l = .ok vs := by
  induction l with
  | nil => exact ⟨[], rfl⟩
  | cons nb l ih =>
    obtain ⟨vs, hvs⟩ := ih fun nb hnb => h nb (by simp [hnb])
    obtain ⟨v, hv⟩ := Option.ne_none_iff_exists'.mp (h nb (by simp))
    exact ⟨v :: vs, by simp [loadBins, hv, hvs]⟩

theorem loadParams_spec (b : Block) (sec model : String) (n : ℕ) (ps : List String) (hnd : ps.Nodup)
    (d d' : String → Option HVal) (h : loadParams b sec model n ps d = .ok d') :
    (∀ k ∈ ps, ∃ v, loadParam b sec model n k = .ok v ∧ d' k = some v) ∧ ∀ k ∉ ps, d' k = d k := by
  induction ps generalizing d with
  | nil => cases h; simp
  | cons p ps ih =>
    unfold loadParams at h
    cases hv : loadParam b sec model n p with
    | error e => simp [hv] at h
    | ok v =>
      simp only [hv] at h
      rw [List.nodup_cons] at hnd
      obtain ⟨h1, h2⟩ := ih hnd.2 _ h
      refine ⟨fun k hk => ?_, fun k hk => ?_⟩
      · rcases List.mem_cons.mp hk with rfl | hk
        · exact ⟨v, hv, by rw [h2 k hnd.1]; simp⟩
        · exact h1 k hk
      · simp only [List.mem_cons, not_or] at hk
        rw [h2 k hk.2]; simp [hk.1]

theorem loadParams_total (b : Block) (sec model : String) (n : ℕ) (ps : List String)
    (h : ∀ k ∈ ps, ∃ v, loadParam b sec model n k = .ok v) (d : String → Option HVal) :
    ∃ d', loadParams b sec model n ps d = .ok d' := by
  induction ps generalizing d with
  | nil => exact ⟨d, rfl⟩
  | cons p ps ih =>
    obtain ⟨v, hv⟩ := h p (by simp)
    simp only [loadParams, hv]
    exact ih (fun k hk => h k (by simp [hk])) _

/-- C85: for the models with one parameter set per bin (Zheng, Zhai) every parameter becomes an array with one
entry per bin, entry `nb` read from `name_{nb+1}` (from `name` for a single bin). -/
theorem C85_per_bin (b : Block) (sec model : String) (hm : model = "Zheng" ∨ model = "Zhai") (n : ℕ)
    (d : String → Option HVal) (h : hodParams b sec model n = .ok d) :
    ∃ ps, parametersModels model = .ok ps ∧ ps.length = 5 ∧ ∀ k ∈ ps, ∃ vs, d k = some (.arr vs) ∧ vs.length = n ∧
      ∀ nb < n, b sec (k ++ if n = 1 then "" else "_" ++ toString (nb + 1)) = vs[nb]? := by
  obtain ⟨ps, hps, hlen, hnd, hC⟩ : ∃ ps, parametersModels model = .ok ps ∧ ps.length = 5 ∧ ps.Nodup ∧
      model ≠ "Cacciato" := by
    rcases hm with rfl | rfl
    · exact ⟨_, rfl, rfl, by decide, by decide⟩
    · exact ⟨_, rfl, rfl, by decide, by decide⟩
  refine ⟨ps, hps, hlen, fun k hk => ?_⟩
  unfold hodParams at h
  rw [hps] at h
  obtain ⟨v, hv, hd⟩ := (loadParams_spec b sec model n ps hnd _ d h).1 k hk
  unfold loadParam at hv
  rw [if_neg hC] at hv
  cases hb : loadBins b sec k n (List.range n) with
  | error e => rw [hb] at hv; cases hv
  | ok vs =>
    rw [hb] at hv
    cases hv
    have hmap := loadBins_ok b sec k n _ vs hb
    have hl : vs.length = n := by simpa using congrArg List.length hmap
    refine ⟨vs, hd, hl, fun nb hnb => ?_⟩
    have := congrArg (fun l => l[nb]?) hmap
    simp only [List.getElem?_map, List.getElem?_range hnb, Option.map_some] at this
    rw [show (if n = 1 then "" else "_" ++ toString (nb + 1)) = binSuffix n nb by
      unfold binSuffix; split_ifs <;> simp_all]
    have hlt : nb < vs.length := by omega
    rw [List.getElem?_eq_getElem hlt] at this ⊢
    simpa using this.symm

/-- C85: it succeeds exactly when all of these names are present; otherwise a plain Exception. -/
theorem C85_needs_all (b : Block) (sec model : String) (ps : List String) (hps : parametersModels model = .ok ps)
    (hC : model ≠ "Cacciato") (n : ℕ) :
    (∃ d, hodParams b sec model n = .ok d) ↔ ∀ k ∈ ps, ∀ nb < n, b sec (k ++ binSuffix n nb) ≠ none := by
  have hnd : ps.Nodup := by
    unfold parametersModels at hps
    split_ifs at hps <;> cases hps <;> decide
  constructor
  · rintro ⟨d, h⟩ k hk nb hnb
    unfold hodParams at h
    rw [hps] at h
    obtain ⟨v, hv, -⟩ := (loadParams_spec b sec model n ps hnd _ d h).1 k hk
    unfold loadParam at hv
    rw [if_neg hC] at hv
    cases hb : loadBins b sec k n (List.range n) with
    | error e => rw [hb] at hv; cases hv
    | ok vs =>
      have hmap := loadBins_ok b sec k n _ vs hb
      intro hnone
      have : none ∈ (List.range n).map fun nb => b sec (k ++ binSuffix n nb) :=
        List.mem_map.mpr ⟨nb, List.mem_range.mpr hnb, hnone⟩
      rw [← hmap] at this
      simp at this
  · intro h
    unfold hodParams
    rw [hps]
    refine loadParams_total b sec model n ps (fun k hk => ?_) _
    obtain ⟨vs, hvs⟩ := loadBins_total b sec k n (List.range n) fun nb hnb => h k hk nb (List.mem_range.mp hnb)
    exact ⟨.arr vs, by simp [loadParam, hC, hvs, Except.map]⟩

/-- C85: without galaxy spectra the bin count is 0; the parameters of these models are then empty arrays whatever
the data block contains, and nothing is reported. -/
theorem C85_alignment_only (b : Block) (sec model : String) (hm : model = "Zheng" ∨ model = "Zhai") (o : Options)
    (g : Settings × Settings × ℕ) (hg : galaxySettings o false = .ok g) :
    ∃ d ps, hodParams b sec model g.2.2 = .ok d ∧ parametersModels model = .ok ps ∧ ∀ k ∈ ps, d k = some (.arr []) := by
  have h0 : g.2.2 = 0 := by cases hg; rfl
  rw [h0]
  obtain ⟨ps, hps, hC⟩ : ∃ ps, parametersModels model = .ok ps ∧ model ≠ "Cacciato" := by
    rcases hm with rfl | rfl
    · exact ⟨_, rfl, by decide⟩
    · exact ⟨_, rfl, by decide⟩
  obtain ⟨d, hd⟩ := (C85_needs_all b sec model ps hps hC 0).mpr (fun _ _ nb hnb => absurd hnb (by omega))
  obtain ⟨ps', hps', -, hall⟩ := C85_per_bin b sec model hm 0 d hd
  refine ⟨d, ps', hd, hps', fun k hk => ?_⟩
  obtain ⟨vs, h1, h2, -⟩ := hall k hk
  rw [List.length_eq_zero_iff.mp h2] at h1
  exact h1

/-- C85: the conditional observable function (Cacciato) has one parameter set for all bins; the bin count plays no
role. -/
theorem C85_cacciato (b : Block) (sec : String) (n m : ℕ) :
    hodParams b sec "Cacciato" n = hodParams b sec "Cacciato" m ∧
    ∀ d ps, hodParams b sec "Cacciato" n = .ok d → parametersModels "Cacciato" = .ok ps → ∀ k ∈ ps, ∃ v,
      b sec k = some v ∧ d k = some (.raw v) := by
  have e : ∀ ps d, loadParams b sec "Cacciato" n ps d = loadParams b sec "Cacciato" m ps d := by
    intro ps
    induction ps with
    | nil => intro d; rfl
    | cons p ps ih =>
      intro d
      have : loadParam b sec "Cacciato" n p = loadParam b sec "Cacciato" m p := by simp [loadParam]
      unfold loadParams
      rw [this]
      cases loadParam b sec "Cacciato" m p with
      | error e => rfl
      | ok v => exact ih _
  constructor
  · unfold hodParams
    cases parametersModels "Cacciato" with
    | error e => rfl
    | ok ps => exact e ps _
  · intro d ps hd hps k hk
    have hnd : ps.Nodup := by cases hps; decide
    unfold hodParams at hd
    rw [hps] at hd
    obtain ⟨v, hv, hdk⟩ := (loadParams_spec b sec _ n ps hnd _ d hd).1 k hk
    unfold loadParam at hv
    rw [if_pos rfl] at hv
    cases hb : b sec k with
    | none => simp [hb] at hv
    | some w => simp only [hb, Except.ok.injEq] at hv; exact ⟨w, rfl, hv ▸ hdk⟩

/-- two bins of the Zheng model where `sigma_2` is missing -/
example : ¬ ∃ d, hodParams (fun _ k => if k = "sigma_2" then none else some (.num 1)) "hod_parameters" "Zheng" 2 =
    .ok d := by
  rw [C85_needs_all _ _ _ _ rfl (by decide)]
  intro h
  exact h "sigma" (by decide) 1 (by norm_num) rfl

example : ∃ d, hodParams (fun _ _ => some (.num 1)) "hod_parameters" "Zheng" 2 = .ok d :=
  (C85_needs_all _ _ _ _ rfl (by decide) 2).mpr (fun _ _ _ _ => by simp)

/-! ## Option `output_suffix`, halo occupation output -/

/-- C90: the option `output_suffix` has no influence on the sections that are written: two instances of the module
that differ only in it overwrite each other's results. -/
theorem C90_suffix_ignored (V : Type) (emu : Bool) (o o' : Options) (hne : ∀ k, k ≠ "output_suffix" → o' k = o k)
    (s' : String) (hs' : o' "output_suffix" = some (.str s')) (p : Pipeline) (h : HodSetup) (m : ℝ × ℝ × ℝ)
    (c : Option (BnlCache V)) (hset : setup V emu o = .ok (p, h, m, c)) :
    ∃ h', setup V emu o' = .ok (p, h', m, c) ∧ h'.pop = popName s' ∧ hodSections p h' = hodSections p h := by
  have e : ∀ k, k ≠ "output_suffix" → o' k = o k := hne
  have hpipe : setupPipeline o' = setupPipeline o := by
    unfold setupPipeline
    rw [e "p_mm" (by decide), e "p_gg" (by decide), e "p_gm" (by decide), e "p_gI" (by decide), e "p_mI" (by decide),
      e "p_II" (by decide), e "response" (by decide), e "split_ia" (by decide), e "hmcode_ingredients" (by decide),
      e "nonlinear_mode" (by decide), e "poisson_type" (by decide)]
  have hmass : massGrid o' = massGrid o := by
    unfold massGrid
    rw [e "log_mass_min" (by decide), e "log_mass_max" (by decide), e "nmass" (by decide)]
  have hsf : ∀ sfx ∈ ["hod", "ia", "ia_1", "ia_2", "smf"], setupHodSettings o' sfx = setupHodSettings o sfx := by
    intro sfx hsfx
    have e1 : o' ("observables_file_" ++ sfx) = o ("observables_file_" ++ sfx) := e _ (by
      simp only [List.mem_cons, List.not_mem_nil, or_false] at hsfx; rcases hsfx with rfl | rfl | rfl | rfl | rfl <;> decide)
    have e2 : o' ("log10_obs_min_" ++ sfx) = o ("log10_obs_min_" ++ sfx) := e _ (by
      simp only [List.mem_cons, List.not_mem_nil, or_false] at hsfx; rcases hsfx with rfl | rfl | rfl | rfl | rfl <;> decide)
    have e3 : o' ("log10_obs_max_" ++ sfx) = o ("log10_obs_max_" ++ sfx) := e _ (by
      simp only [List.mem_cons, List.not_mem_nil, or_false] at hsfx; rcases hsfx with rfl | rfl | rfl | rfl | rfl <;> decide)
    have e4 : o' ("zmin_" ++ sfx) = o ("zmin_" ++ sfx) := e _ (by
      simp only [List.mem_cons, List.not_mem_nil, or_false] at hsfx; rcases hsfx with rfl | rfl | rfl | rfl | rfl <;> decide)
    have e5 : o' ("zmax_" ++ sfx) = o ("zmax_" ++ sfx) := e _ (by
      simp only [List.mem_cons, List.not_mem_nil, or_false] at hsfx; rcases hsfx with rfl | rfl | rfl | rfl | rfl <;> decide)
    have e6 : o' ("nz_" ++ sfx) = o ("nz_" ++ sfx) := e _ (by
      simp only [List.mem_cons, List.not_mem_nil, or_false] at hsfx; rcases hsfx with rfl | rfl | rfl | rfl | rfl <;> decide)
    have e7 : o' ("nobs_" ++ sfx) = o ("nobs_" ++ sfx) := e _ (by
      simp only [List.mem_cons, List.not_mem_nil, or_false] at hsfx; rcases hsfx with rfl | rfl | rfl | rfl | rfl <;> decide)
    unfold setupHodSettings fileSettings binSettings
    rw [e1, e2, e3, e4, e5, e6, e7, e "observable_h_unit" (by decide)]
  have hnames : ∀ al sp, iaNames o' al sp = iaNames o al sp := by
    intro al sp
    unfold iaNames
    rw [e "central_IA_depends_on" (by decide), e "satellite_IA_depends_on" (by decide),
      e "hod_section_name_ia_1" (by decide), e "output_suffix_ia_1" (by decide), e "hod_section_name_ia_2" (by decide),
      e "output_suffix_ia_2" (by decide), e "hod_section_name_ia" (by decide), e "output_suffix_ia" (by decide)]
  have hgal : ∀ g, galaxySettings o' g = galaxySettings o g := by
    intro g; unfold galaxySettings; rw [hsf "hod" (by simp)]
  have hia : ∀ al sp, iaSettings o' al sp = iaSettings o al sp := by
    intro al sp; unfold iaSettings; rw [hsf "ia" (by simp), hsf "ia_1" (by simp), hsf "ia_2" (by simp)]
  have hobs : obsSettings o' = obsSettings o := by
    unfold obsSettings
    rw [hsf "smf" (by simp), e "save_observable" (by decide), e "observable_section_name" (by decide)]
  unfold setup at hset
  obtain ⟨p0, hp0, hset⟩ := bind_eq_ok hset
  obtain ⟨h0, hh0, hset⟩ := bind_eq_ok hset
  obtain ⟨m0, hm0, hset⟩ := bind_eq_ok hset
  obtain ⟨c0, hc0, hset⟩ := bind_eq_ok hset
  cases hset
  unfold setupHod at hh0
  obtain ⟨s1, h1, hh0⟩ := bind_eq_ok hh0
  obtain ⟨s2, h2, hh0⟩ := bind_eq_ok hh0
  obtain ⟨s3, h3, hh0⟩ := bind_eq_ok hh0
  obtain ⟨s4, h4, hh0⟩ := bind_eq_ok hh0
  obtain ⟨s5, h5, hh0⟩ := bind_eq_ok hh0
  obtain ⟨g, h6, hh0⟩ := bind_eq_ok hh0
  obtain ⟨ia, h7, hh0⟩ := bind_eq_ok hh0
  obtain ⟨ob, h8, hh0⟩ := bind_eq_ok hh0
  cases hh0
  refine ⟨⟨s1, s2.toLower, popName s', s5, g.1, g.2.1, ob, g.2.2, ia.1, ia.2, s4⟩, ?_, rfl, rfl⟩
  have hhod : setupHod o' p.galaxy p.alignment p.splitIa =
      .ok ⟨s1, s2.toLower, popName s', s5, g.1, g.2.1, ob, g.2.2, ia.1, ia.2, s4⟩ := by
    unfold setupHod
    rw [e "hod_section_name" (by decide), e "values_name" (by decide), hs', hnames, e "hod_model" (by decide), hgal, hia,
      hobs, h1, h2, h4, h5, h6, h7, h8]
    rfl
  unfold setup
  rw [hpipe, hp0, bind_ok, hhod, bind_ok, hmass, hm0, bind_ok]
  have hbnl : setupBnl V emu o' p.nonlinear = setupBnl V emu o p.nonlinear := by
    unfold setupBnl; rw [e "update_bnl" (by decide)]
  rw [hbnl, hc0]
  rfl

/-- C91: the halo occupation of the galaxy sample is saved exactly when a galaxy spectrum is requested or the
matter spectrum is not. -/
theorem C91_flag (p : Pipeline) : p.hod = true ↔ (p.pgg = true ∨ p.pgm = true) ∨ p.pmm = false := by
  obtain ⟨a, b, c, d, e, f, r, sp, _, _, _⟩ := p
  cases a <;> cases b <;> cases c <;> simp [Pipeline.hod, Pipeline.matter, Pipeline.galaxy]

/-- C91: with alignment spectra only, the halo occupation of a galaxy sample that was never configured (empty
settings, 0 bins) is saved as well; asking for the matter spectrum in addition removes it. -/
theorem C91_unrequested_output (o : Options) (p : Pipeline) (h : HodSetup)
    (hg : p.pgg = false ∧ p.pgm = false) (hs : setupHod o p.galaxy p.alignment p.splitIa = .ok h) :
    (∀ k, h.settings k = none) ∧ h.nbins = 0 ∧
    (p.pmm = false → h.hodSection ∈ hodSections p h) ∧
    (p.pmm = true → h.names.section1 ≠ some h.hodSection → h.hodSection ∉ hodSections p h) := by
  have hgal : p.galaxy = false := by simp [Pipeline.galaxy, hg.1, hg.2]
  rw [hgal] at hs
  unfold setupHod at hs
  obtain ⟨s1, h1, hs⟩ := bind_eq_ok hs
  obtain ⟨s2, h2, hs⟩ := bind_eq_ok hs
  obtain ⟨s3, h3, hs⟩ := bind_eq_ok hs
  obtain ⟨s4, h4, hs⟩ := bind_eq_ok hs
  obtain ⟨s5, h5, hs⟩ := bind_eq_ok hs
  obtain ⟨g, h6, hs⟩ := bind_eq_ok hs
  obtain ⟨ia, h7, hs⟩ := bind_eq_ok hs
  obtain ⟨ob, h8, hs⟩ := bind_eq_ok hs
  cases hs
  cases h6
  refine ⟨fun _ => rfl, rfl, fun hm => ?_, fun hm hne => ?_⟩
  · have : p.hod = true := (C91_flag p).mpr (Or.inr hm)
    simp [hodSections, this]
  · have : p.hod = false := by
      simp [Pipeline.hod, Pipeline.matter, hm, hgal]
    simp only [hodSections, this, Bool.false_eq_true, if_false, List.nil_append]
    split_ifs
    · simp only [Option.mem_toList]
      exact hne
    · simp

/-- intrinsic-intrinsic spectrum only -/
example : (⟨false, false, false, false, false, true, false, false, .none, .none, "constant"⟩ : Pipeline).hod = true := rfl

/-- the same together with the matter spectrum -/
example : (⟨true, false, false, false, false, true, false, false, .none, .none, "constant"⟩ : Pipeline).hod = false := rfl

example : ∃ r, setup Unit true (fun k => if k = "p_mm" then some (.bool true) else none) = .ok r := ⟨_, rfl⟩

end Verif.Interface

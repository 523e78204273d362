import Verif.Model.LegacyIa
import Verif.Props.IaProfile
import Verif.Props.IaMultipoles
import Verif.Props.IaNormalisation

/-! # C120: the legacy alignment modules and the rewritten library

Both compute the amplitude of centrals and satellites and the Fourier transform of the radial satellite alignment.  The
theorems say for which inputs they give the same and where they differ. -/

namespace Verif.LegacyIa

open Verif.Lib

/-! ## Amplitudes -/

/-- the parameters of the rewritten class for the options and values of the legacy module: the redshifts are the legacy ones, and
the one pivot of each kind is used for centrals and satellites -/
noncomputable def rewritten (o : AmpOptions) (v : AmpValues) : Ia.Amplitudes where
  nz := o.nz
  zVec := linspace o.zmin o.zmax o.nz
  centralDep := o.central
  satelliteDep := o.satellite
  gamma2h := v.gamma2h.getD 0
  betaCen := v.beta.getD 0
  betaTwo := v.betaTwo
  gamma1h := v.gamma1h.getD 0
  betaSat := v.betaSat.getD 0
  mpivotCen := Ia.setPivot v.mPivot
  mpivotSat := Ia.setPivot v.mPivot
  lpivotCen := Ia.setPivot v.lPivot
  lpivotSat := Ia.setPivot v.lPivot
  lumFileCen := o.fileCen
  lumFileSat := o.fileSat

theorem lumBin_eq (o : AmpOptions) (v : AmpValues) (gals : List (ℝ × ℝ)) (i : ℕ) :
    lumBin gals o.zmin o.zmax o.nz i = ((rewritten o v).loglumBin gals i).map fun l => (10 : ℝ) ^ l := by
  unfold lumBin Ia.Amplitudes.loglumBin
  rw [List.map_map]
  rfl

theorem table_eq (o : AmpOptions) (v : AmpValues) (gals : List (ℝ × ℝ)) (nl i j : ℕ) :
    (rewritten o v).lumAndPdf gals nl i j = (bincen gals o.zmin o.zmax o.nz nl i j, lumPdf gals o.zmin o.zmax o.nz nl i j) := by
  unfold Ia.Amplitudes.lumAndPdf bincen lumPdf
  rw [lumBin_eq o v]
  cases ((rewritten o v).loglumBin gals i).map fun l => (10 : ℝ) ^ l <;> rfl

/-- the tables of the two codes -/
theorem lum_ok (o : AmpOptions) (v : AmpValues) (file : Option (List (ℝ × ℝ))) :
    (∃ gals, file = some gals ∧ 2 ≤ o.nz ∧
        lumTable "luminosity" o.zmin o.zmax o.nz file
          = .ok ⟨10000, bincen gals o.zmin o.zmax o.nz 10000, lumPdf gals o.zmin o.zmax o.nz 10000⟩ ∧
        (rewritten o v).initLum file
          = .ok (bincen gals o.zmin o.zmax o.nz 10000, lumPdf gals o.zmin o.zmax o.nz 10000)) ∨
      ((∃ e, lumTable "luminosity" o.zmin o.zmax o.nz file = .error e) ∧ ∃ e, (rewritten o v).initLum file = .error e) := by
  cases file with
  | none => exact .inr ⟨⟨_, rfl⟩, _, rfl⟩
  | some gals =>
    by_cases h : o.nz < 2
    · exact .inr ⟨⟨.indexError, by simp [lumTable, h]⟩, .indexError, by
        simp [Ia.Amplitudes.initLum, Ia.Amplitudes.computeLuminosityPdf, rewritten, h]⟩
    · refine .inl ⟨gals, rfl, by omega, by simp [lumTable, h], ?_⟩
      have h' : ¬ (rewritten o v).nz < 2 := h
      simp only [Ia.Amplitudes.initLum, Ia.Amplitudes.computeLuminosityPdf, h', if_false, Ia.Amplitudes.nlbins]
      congr 1
      ext1 <;> (funext i j; dsimp only; rw [table_eq])

/-- every value which the legacy module reads is there -/
def ValuesPresent (o : AmpOptions) (v : AmpValues) : Prop :=
  v.gamma2h ≠ none ∧ v.gamma1h ≠ none ∧ (o.central ≠ "constant" → v.beta ≠ none) ∧
    (o.satellite ≠ "constant" → v.betaSat ≠ none)

theorem lumTable_other {dep : String} (h : dep ≠ "luminosity") (a b : ℝ) (n : ℕ) (f : Option (List (ℝ × ℝ))) :
    lumTable dep a b n f = .ok ⟨100000, fun _ _ => 1, fun _ _ => 1⟩ := by simp [lumTable, h]

/-- the centrals of the two codes -/
theorem centrals_agree (o : AmpOptions) (v : AmpValues) (hc : o.central ∈ ["constant", "luminosity", "halo_mass"])
    (hg : v.gamma2h ≠ none) (hb : o.central ≠ "constant" → v.beta ≠ none) :
    (∃ t, lumTable o.central o.zmin o.zmax o.nz o.fileCen = .ok t ∧ ∃ amp m b, ∀ s,
        centrals ⟨t, s, o.nz, o.central, o.satellite⟩ v = .ok ⟨amp, m, b, o.central⟩ ∧
        (rewritten o v).alignmentGi = .ok (some amp)) ∨
      ((∀ t, lumTable o.central o.zmin o.zmax o.nz o.fileCen = .ok t →
        ∀ s, ∃ e, centrals ⟨t, s, o.nz, o.central, o.satellite⟩ v = .error e) ∧ ∃ e, (rewritten o v).alignmentGi = .error e) := by
  obtain ⟨g, hg⟩ := Option.ne_none_iff_exists'.1 hg
  simp only [List.mem_cons, List.not_mem_nil, or_false] at hc
  rcases hc with hc | hc | hc
  · exact .inl ⟨_, lumTable_other (by simp [hc]) .., fun _ => g * 1, none, none, fun s =>
      ⟨by simp only [centrals, get, hg, hc]; rfl, by simp [Ia.Amplitudes.alignmentGi, rewritten, hg, hc]⟩⟩
  · obtain ⟨b, hb⟩ := Option.ne_none_iff_exists'.1 (hb (by simp [hc]))
    cases hl : v.lPivot with
    | none =>
      exact .inr ⟨fun t _ s => ⟨_, by simp only [centrals, get, hg, hc, hl]; rfl⟩, _, by
        simp only [Ia.Amplitudes.alignmentGi, rewritten, hc, hl]; rfl⟩
    | some l =>
      rcases lum_ok o v o.fileCen with ⟨gals, hf, hn, h1, h2⟩ | ⟨⟨e, h1⟩, e', h2⟩
      · have hA : (rewritten o v).alignmentGi = match v.betaTwo with
            | some b2 => match (rewritten o v).initLum o.fileCen with
              | .error e => .error e
              | .ok (lum, pdf) => .ok (some fun i => Ia.brokenPowerlaw 10000 (lum i) (pdf i) g ((10 : ℝ) ^ l) b b2)
            | none => match (rewritten o v).initLum o.fileCen with
              | .error e => .error e
              | .ok (lum, pdf) => .ok (some fun i => g * Ia.meanLL0ToBeta 10000 (lum i) (pdf i) ((10 : ℝ) ^ l) b) := by
          have e1 : (rewritten o v).centralDep = "luminosity" := hc
          have e2 : (rewritten o v).lpivotCen = some ((10 : ℝ) ^ l) := by simp [rewritten, Ia.setPivot, hl]
          have e3 : (rewritten o v).betaCen = b := by simp [rewritten, hb]
          have e4 : (rewritten o v).gamma2h = g := by simp [rewritten, hg]
          unfold Ia.Amplitudes.alignmentGi
          rw [e1, e2, e3, e4]
          rfl
        rw [hA, h2]
        refine .inl ⟨_, by rw [hc]; exact h1, ?_⟩
        cases h2 : v.betaTwo with
        | none => exact ⟨_, none, none, fun s => ⟨by simp only [centrals, get, hg, hc, hl, hb, h2]; rfl, rfl⟩⟩
        | some b2 => exact ⟨_, none, none, fun s => ⟨by simp only [centrals, get, hg, hc, hl, hb, h2]; rfl, rfl⟩⟩
      · refine .inr ⟨fun t ht => (by rw [hc, h1] at ht; cases ht), e', ?_⟩
        have e1 : (rewritten o v).centralDep = "luminosity" := hc
        have e2 : (rewritten o v).lpivotCen = some ((10 : ℝ) ^ l) := by simp [rewritten, Ia.setPivot, hl]
        have e3 : (rewritten o v).lumFileCen = o.fileCen := rfl
        unfold Ia.Amplitudes.alignmentGi
        rw [e1, e2, e3, h2]
        cases (rewritten o v).betaTwo <;> rfl
  · obtain ⟨b, hb⟩ := Option.ne_none_iff_exists'.1 (hb (by simp [hc]))
    cases hl : v.mPivot with
    | none =>
      exact .inr ⟨fun t _ s => ⟨_, by simp only [centrals, get, hg, hc, hl]; rfl⟩, _, by
        simp only [Ia.Amplitudes.alignmentGi, rewritten, hc, hl]; rfl⟩
    | some l =>
      cases h2 : v.betaTwo with
      | some b2 =>
        exact .inr ⟨fun t _ s => ⟨_, by simp only [centrals, get, hg, hc, hl, hb, h2]; rfl⟩, _, by
          simp only [Ia.Amplitudes.alignmentGi, rewritten, hc, hl, h2]; rfl⟩
      | none =>
        exact .inl ⟨_, lumTable_other (by simp [hc]) .., fun _ => g * 1, some ((10 : ℝ) ^ l), some b, fun s =>
          ⟨by simp only [centrals, get, hg, hc, hl, hb, h2]; rfl, by
            simp only [Ia.Amplitudes.alignmentGi, rewritten, hc, hl, h2, hg]; rfl⟩⟩

/-- the satellites of the two codes -/
theorem satellites_agree (o : AmpOptions) (v : AmpValues) (hc : o.satellite ∈ ["constant", "luminosity", "halo_mass"])
    (hg : v.gamma1h ≠ none) (hb : o.satellite ≠ "constant" → v.betaSat ≠ none) :
    (∃ t, lumTable o.satellite o.zmin o.zmax o.nz o.fileSat = .ok t ∧ ∃ amp m b, ∀ s,
        satellites ⟨s, t, o.nz, o.central, o.satellite⟩ v = .ok ⟨amp, m, b, o.satellite⟩ ∧
        (rewritten o v).gamma1hAmp = .ok (some amp)) ∨
      ((∀ t, lumTable o.satellite o.zmin o.zmax o.nz o.fileSat = .ok t →
        ∀ s, ∃ e, satellites ⟨s, t, o.nz, o.central, o.satellite⟩ v = .error e) ∧ ∃ e, (rewritten o v).gamma1hAmp = .error e) := by
  obtain ⟨g, hg⟩ := Option.ne_none_iff_exists'.1 hg
  simp only [List.mem_cons, List.not_mem_nil, or_false] at hc
  rcases hc with hc | hc | hc
  · exact .inl ⟨_, lumTable_other (by simp [hc]) .., fun _ => g * 1, none, none, fun s =>
      ⟨by simp only [satellites, get, hg, hc]; rfl, by simp [Ia.Amplitudes.gamma1hAmp, rewritten, hg, hc]⟩⟩
  · obtain ⟨b, hb⟩ := Option.ne_none_iff_exists'.1 (hb (by simp [hc]))
    cases hl : v.lPivot with
    | none =>
      exact .inr ⟨fun t _ s => ⟨_, by simp only [satellites, get, hg, hc, hl]; rfl⟩, _, by
        simp only [Ia.Amplitudes.gamma1hAmp, rewritten, hc, hl]; rfl⟩
    | some l =>
      have e1 : (rewritten o v).satelliteDep = "luminosity" := hc
      have e2 : (rewritten o v).lpivotSat = some ((10 : ℝ) ^ l) := by simp [rewritten, Ia.setPivot, hl]
      have e3 : (rewritten o v).lumFileSat = o.fileSat := rfl
      rcases lum_ok o v o.fileSat with ⟨gals, hf, hn, h1, h2⟩ | ⟨⟨e, h1⟩, e', h2⟩
      · refine .inl ⟨_, by rw [hc]; exact h1, _, none, none, fun s =>
          ⟨by simp only [satellites, get, hg, hc, hl, hb]; rfl, ?_⟩⟩
        have e4 : (rewritten o v).betaSat = b := by simp [rewritten, hb]
        have e5 : (rewritten o v).gamma1h = g := by simp [rewritten, hg]
        unfold Ia.Amplitudes.gamma1hAmp
        rw [e1, e2, e3, e4, e5, h2]
        rfl
      · refine .inr ⟨fun t ht => (by rw [hc, h1] at ht; cases ht), e', ?_⟩
        unfold Ia.Amplitudes.gamma1hAmp
        rw [e1, e2, e3, h2]
        rfl
  · obtain ⟨b, hb⟩ := Option.ne_none_iff_exists'.1 (hb (by simp [hc]))
    cases hl : v.mPivot with
    | none =>
      exact .inr ⟨fun t _ s => ⟨_, by simp only [satellites, get, hg, hc, hl]; rfl⟩, _, by
        simp only [Ia.Amplitudes.gamma1hAmp, rewritten, hc, hl]; rfl⟩
    | some l =>
      exact .inl ⟨_, lumTable_other (by simp [hc]) .., fun _ => g * 1, some ((10 : ℝ) ^ l), some b, fun s =>
        ⟨by simp only [satellites, get, hg, hc, hl, hb]; rfl, by
          simp only [Ia.Amplitudes.gamma1hAmp, rewritten, hc, hl, hg]; rfl⟩⟩

/-- C120: for dependences which both accept and with the values which the legacy module reads present, the two codes give the
same amplitudes of centrals and satellites at every redshift, or both raise an exception. -/
theorem C120_amplitudes (o : AmpOptions) (v : AmpValues) (hc : o.central ∈ ["constant", "luminosity", "halo_mass"])
    (hs : o.satellite ∈ ["constant", "luminosity", "halo_mass"]) (hv : ValuesPresent o v) :
    (∃ cen sat, amplitudes o v = .ok (cen, sat) ∧ (rewritten o v).alignmentGi = .ok (some cen.amplitude) ∧
        (rewritten o v).gamma1hAmp = .ok (some sat.amplitude)) ∨
      ((∃ e, amplitudes o v = .error e) ∧
        ((∃ e, (rewritten o v).alignmentGi = .error e) ∨ ∃ e, (rewritten o v).gamma1hAmp = .error e)) := by
  obtain ⟨g2, g1, b, bs⟩ := hv
  have A := centrals_agree o v hc g2 b
  have B := satellites_agree o v hs g1 bs
  have hset : ampSetup o = match lumTable o.central o.zmin o.zmax o.nz o.fileCen with
      | .error e => .error e
      | .ok c => match lumTable o.satellite o.zmin o.zmax o.nz o.fileSat with
        | .error e => .error e
        | .ok s => .ok ⟨c, s, o.nz, o.central, o.satellite⟩ := by
    unfold ampSetup
    rw [if_neg (not_not.2 hc), if_neg (not_not.2 hs)]
    cases lumTable o.central o.zmin o.zmax o.nz o.fileCen with
    | error e => rfl
    | ok c => cases lumTable o.satellite o.zmin o.zmax o.nz o.fileSat <;> rfl
  unfold amplitudes
  rw [hset]
  rcases A with ⟨t, ht, amp, m, sl, hA⟩ | ⟨hA, e, hA'⟩
  · rcases B with ⟨t', ht', amp', m', sl', hB⟩ | ⟨hB, e, hB'⟩
    · rw [ht, ht']
      refine .inl ⟨⟨amp, m, sl, o.central⟩, ⟨amp', m', sl', o.satellite⟩, ?_, (hA t').2, (hB t).2⟩
      simp only [bind, Except.bind, (hA t').1, (hB t).1]
    · rw [ht]
      refine .inr ⟨?_, .inr ⟨e, hB'⟩⟩
      cases ht' : lumTable o.satellite o.zmin o.zmax o.nz o.fileSat with
      | error e => exact ⟨e, rfl⟩
      | ok t' =>
        obtain ⟨e, he⟩ := hB t' ht' t
        exact ⟨e, by simp only [bind, Except.bind, (hA t').1, he]⟩
  · refine .inr ⟨?_, .inl ⟨e, hA'⟩⟩
    cases ht : lumTable o.central o.zmin o.zmax o.nz o.fileCen with
    | error e => exact ⟨e, rfl⟩
    | ok t =>
      cases ht' : lumTable o.satellite o.zmin o.zmax o.nz o.fileSat with
      | error e => exact ⟨e, rfl⟩
      | ok t' =>
        obtain ⟨e, he⟩ := hA t ht t'
        exact ⟨e, by simp only [bind, Except.bind, he]⟩

theorem bind_ok {α β : Type} {x : Except PyErr α} {f : α → Except PyErr β} {b : β} (h : x >>= f = .ok b) :
    ∃ a, x = .ok a ∧ f a = .ok b := by
  cases x with
  | error e => cases h
  | ok a => exact ⟨a, rfl, h⟩

theorem get_ok {x : Option ℝ} {a : ℝ} (h : get x = .ok a) : x = some a := by
  cases x with
  | none => cases h
  | some y => exact congrArg some (Except.ok.inj h)

theorem setup_ok {o : AmpOptions} {c : AmpConfig} (h : ampSetup o = .ok c) : c.central = o.central ∧ c.satellite = o.satellite ∧
    o.central ∈ ["constant", "luminosity", "halo_mass"] ∧ o.satellite ∈ ["constant", "luminosity", "halo_mass"] := by
  unfold ampSetup at h
  split_ifs at h with h1 h2
  cases ha : lumTable o.central o.zmin o.zmax o.nz o.fileCen with
  | error e => rw [ha] at h; cases h
  | ok a =>
    rw [ha] at h
    cases hb : lumTable o.satellite o.zmin o.zmax o.nz o.fileSat with
    | error e => rw [hb] at h; cases h
    | ok b =>
      rw [hb] at h
      cases h
      exact ⟨rfl, rfl, h1, h2⟩

/-- C120: the pivot mass and slope handed on to the spectra are those of the population whose own option is the halo mass; the
rewritten interface exchanges the options of the two populations (`C68_exchanged`). -/
theorem C120_pivots (o : AmpOptions) (v : AmpValues) (cen sat : AmpSection) (h : amplitudes o v = .ok (cen, sat)) :
    (cen.inst = o.central ∧ sat.inst = o.satellite) ∧
    (o.central = "halo_mass" → ∃ m b, v.mPivot = some m ∧ v.beta = some b ∧ cen.mPivot = some ((10 : ℝ) ^ m) ∧ cen.slope = some b) ∧
    (o.central ≠ "halo_mass" → cen.mPivot = none ∧ cen.slope = none) ∧
    (o.satellite = "halo_mass" → ∃ m b, v.mPivot = some m ∧ v.betaSat = some b ∧ sat.mPivot = some ((10 : ℝ) ^ m) ∧ sat.slope = some b) ∧
    (o.satellite ≠ "halo_mass" → sat.mPivot = none ∧ sat.slope = none) := by
  unfold amplitudes at h
  obtain ⟨c, hc, h⟩ := bind_ok h
  obtain ⟨x, hx, h⟩ := bind_ok h
  obtain ⟨y, hy, h⟩ := bind_ok h
  cases h
  obtain ⟨e1, e2, m1, m2⟩ := setup_ok hc
  unfold centrals at hx
  unfold satellites at hy
  rw [e1] at hx
  rw [e2] at hy
  obtain ⟨g, -, hx⟩ := bind_ok hx
  obtain ⟨g', -, hy⟩ := bind_ok hy
  have A : cen.inst = o.central ∧
      (o.central = "halo_mass" → ∃ m b, v.mPivot = some m ∧ v.beta = some b ∧ cen.mPivot = some ((10 : ℝ) ^ m) ∧ cen.slope = some b) ∧
      (o.central ≠ "halo_mass" → cen.mPivot = none ∧ cen.slope = none) := by
    simp only [List.mem_cons, List.not_mem_nil, or_false] at m1
    rcases m1 with m1 | m1 | m1 <;> rw [m1] at hx ⊢
    · cases hx; simp
    · simp only [String.reduceEq, if_false, if_true] at hx
      cases hl : v.lPivot with
      | none => rw [hl] at hx; cases hx
      | some l =>
        rw [hl] at hx
        obtain ⟨b, -, hx⟩ := bind_ok hx
        cases h2 : v.betaTwo with
        | none => rw [h2] at hx; cases hx; simp
        | some b2 => rw [h2] at hx; cases hx; simp
    · simp only [String.reduceEq, if_false] at hx
      cases hl : v.mPivot with
      | none => rw [hl] at hx; cases hx
      | some l =>
        rw [hl] at hx
        obtain ⟨b, hb, hx⟩ := bind_ok hx
        cases h2 : v.betaTwo with
        | some b2 => rw [h2] at hx; cases hx
        | none => rw [h2] at hx; cases hx; simp [get_ok hb]
  have B : sat.inst = o.satellite ∧
      (o.satellite = "halo_mass" → ∃ m b, v.mPivot = some m ∧ v.betaSat = some b ∧ sat.mPivot = some ((10 : ℝ) ^ m) ∧ sat.slope = some b) ∧
      (o.satellite ≠ "halo_mass" → sat.mPivot = none ∧ sat.slope = none) := by
    simp only [List.mem_cons, List.not_mem_nil, or_false] at m2
    rcases m2 with m2 | m2 | m2 <;> rw [m2] at hy ⊢
    · cases hy; simp
    · simp only [String.reduceEq, if_false, if_true] at hy
      obtain ⟨l, -, hy⟩ := bind_ok hy
      obtain ⟨b, -, hy⟩ := bind_ok hy
      cases hy; simp
    · simp only [String.reduceEq, if_false] at hy
      obtain ⟨l, hl, hy⟩ := bind_ok hy
      obtain ⟨b, hb, hy⟩ := bind_ok hy
      cases hy; simp [get_ok hb, get_ok hl]
  exact ⟨⟨A.1, B.1⟩, A.2.1, A.2.2, B.2⟩

/-! ## Angular part -/

/-- C120: the legacy angular part has the slopes 0 and -2 only; for any other slope it raises TypeError at the first multipole, while
the rewritten function evaluates the general expression. -/
theorem C120_slopes (l : ℕ) (g : ℝ) :
    (g = 0 ∨ g = -2 → ∀ v, Ia.calculateFEll l g = .ok v → fEll (Real.pi / 2) 0 l g = .ok (v : ℂ)) ∧
    (g ≠ 0 → g ≠ -2 → fEll (Real.pi / 2) 0 l g = .error .typeError ∧ (l ≤ 11 → ∃ v, Ia.calculateFEll l g = .ok v)) := by
  have hph : phase 0 = 1 := by
    apply Complex.ext <;> simp [phase]
  constructor
  · intro hg v hv
    unfold fEll
    rw [if_pos rfl]
    have key : ∀ t : List ℝ, Ia.tableAt t l = .ok v → (match t[l]? with
        | none => (.error .indexError : Except PyErr ℂ)
        | some v => .ok (v * phase 0)) = .ok (v : ℂ) := by
      intro t ht
      unfold Ia.tableAt at ht
      cases h : t[l]? with
      | none => rw [h] at ht; cases ht
      | some w => rw [h] at ht; cases ht; simp [hph]
    rcases hg with rfl | rfl
    · rw [if_pos rfl]
      refine key pre0 ?_
      unfold Ia.calculateFEll at hv
      rwa [if_pos rfl] at hv
    · rw [if_neg (by norm_num), if_pos rfl]
      refine key preM2 ?_
      unfold Ia.calculateFEll at hv
      rwa [if_neg (by norm_num), if_pos rfl] at hv
  · intro h0 h2
    refine ⟨?_, fun hl => ?_⟩
    · unfold fEll
      rw [if_pos rfl, if_neg h0, if_neg h2]
    · unfold Ia.calculateFEll
      rw [if_neg h0, if_neg h2]
      exact ⟨_, Ia.fEllGeneral_eq l (by omega) g⟩

/-! ## Radial part -/

/-- the radial profile of the two codes -/
theorem profile_eq (r rs rvir a b rcore : ℝ) (t : Bool) :
    profile r rs rvir a b rcore t = Ia.gammaRNfwProfile r rs rvir a b rcore t := by
  unfold profile Ia.gammaRNfwProfile
  cases t <;> simp [ge_iff_le]

/-- C120: the multipoles of the radial profile are those of the rewritten `hankel` method and of its `fftlog` method. -/
theorem C120_multipoles (J : ℝ → ℝ → ℝ) (rs c rvir a slope : ℝ) (i : ℕ) (k : ℝ) (hk : 0 < k) :
    uell J rs c rvir a slope i k
        = Ia.uellHankel J (fun r => Ia.gammaRNfwProfile r rs rvir a slope 0.06 false) (Ia.mnfw rs c) (2 * i) k ∧
      uell J rs c rvir a slope i k
        = Ia.uellFftlog J (fun r => Ia.gammaRNfwProfile r rs rvir a slope 0.06 false) (Ia.mnfw rs c) (2 * i) k := by
  have h : uell J rs c rvir a slope i k
      = Ia.uellHankel J (fun r => Ia.gammaRNfwProfile r rs rvir a slope 0.06 false) (Ia.mnfw rs c) (2 * i) k := by
    unfold uell Ia.uellHankel
    simp only [profile_eq]
    rfl
  refine ⟨h, ?_⟩
  obtain ⟨h1, h2⟩ := Ia.C103_methods_agree J (fun r => Ia.gammaRNfwProfile r rs rvir a slope 0.06 false) (Ia.mnfw rs c) (2 * i) k hk
  rw [h, h1, h2]

/-- the complex product written out (ia_radial_lib.py:207-210) is the product -/
theorem term_eq (u : ℕ → ℝ) (l : ℕ) (a : ℂ) : term u l a = Complex.I ^ l * (2 * l + 1) * u (l / 2) * a := by
  apply Complex.ext <;> simp only [term, Complex.mul_re, Complex.mul_im]

theorem term_even (u : ℕ → ℝ) (i : ℕ) (f : ℝ) :
    term u (2 * i) (f : ℂ) = (((-1) ^ i * (2 * (2 * i : ℕ) + 1) * u i * f : ℝ) : ℂ) := by
  rw [term_eq, pow_mul, Complex.I_sq, Nat.mul_div_cancel_left _ (by norm_num)]
  push_cast
  ring

/-- the loop over the multipoles of the two codes -/
theorem loop_eq (n : ℕ) (u : ℕ → ℝ) (g : ℝ) (hg : g = 0 ∨ g = -2) (is : List ℕ) (s : ℝ)
    (h : Ia.wkmSum n u g (is.map fun i => 2 * i) = .ok s) :
    ∃ as, angulars (Real.pi / 2) 0 g (is.map fun i => 2 * i) = .ok as ∧
      (as.map fun a => term u a.1 a.2).sum = (s : ℂ) := by
  induction is generalizing s with
  | nil => cases h; exact ⟨[], rfl, by simp⟩
  | cons i is ih =>
    simp only [List.map_cons, Ia.wkmSum] at h
    cases ht : Ia.wkmTerm n u g (2 * i) with
    | error e => rw [ht] at h; cases h
    | ok v =>
      rw [ht] at h
      cases hr : Ia.wkmSum n u g (is.map fun i => 2 * i) with
      | error e => rw [hr] at h; cases h
      | ok r =>
        rw [hr] at h
        cases h
        obtain ⟨as, ha, hs⟩ := ih r hr
        unfold Ia.wkmTerm at ht
        cases hf : Ia.calculateFEll (2 * i) g with
        | error e => rw [hf] at ht; cases ht
        | ok f =>
          rw [hf] at ht
          have ht : (if 2 * i / 2 < n then (Except.ok ((-1) ^ (2 * i / 2) * (2 * ((2 * i : ℕ) : ℝ) + 1) * u (2 * i / 2) * f)
              : Except PyErr ℝ) else .error .indexError) = .ok v := ht
          split_ifs at ht with hn
          have hv := Except.ok.inj ht
          refine ⟨(2 * i, (f : ℂ)) :: as, ?_, ?_⟩
          · simp only [List.map_cons, angulars, (C120_slopes (2 * i) g).1 hg f hf, ha]
          · rw [List.map_cons, List.sum_cons, hs, term_even, ← hv, Nat.mul_div_cancel_left _ (by norm_num)]
            push_cast
            ring

/-- C120: for the two tabulated slopes and every accepted `ell_max` the legacy sum over the multipoles is the rewritten one. -/
theorem C120_sum (L : ℤ) (hL : L ≤ 11) (u : ℕ → ℝ) (g : ℝ) (hg : g = 0 ∨ g = -2) :
    ∃ as, angulars (Real.pi / 2) 0 g (ells L) = .ok as ∧ Ia.wkmFEll L u g = .ok (wkm u as) := by
  obtain ⟨-, -, -, v, hv⟩ := Ia.C46_lookups_in_range L L (by unfold Ia.setEllMax; rw [if_neg (by omega)]) u g
  unfold Ia.wkmFEll at hv ⊢
  cases hs : Ia.wkmSum (Ia.ellValues L).length u g (Ia.ellValues L) with
  | error e => rw [hs] at hv; cases hv
  | ok s =>
    obtain ⟨as, ha, hsum⟩ := loop_eq _ u g hg _ s hs
    refine ⟨as, ha, ?_⟩
    simp only [wkm, hsum, Complex.ofReal_re, Complex.ofReal_im]
    rw [show s ^ 2 + 0 ^ 2 = s ^ 2 by ring, Real.sqrt_sq_eq_abs]

/-! ## Down-sampling -/

/-- the shapes of the halo parameters: all have the masses as last axis -/
def Shapes (h : Halo) : Prop :=
  (∀ r ∈ h.c, r.length = h.mass.length) ∧ (∀ r ∈ h.rs, r.length = h.mass.length) ∧ h.rvir.length = h.mass.length

/-- the last column is appended: the step does not reach it -/
def Misses (nmass n : ℕ) : Prop := (n - 1) % (n / nmass) ≠ 0

instance (a b : ℕ) : Decidable (Misses a b) := inferInstanceAs (Decidable (_ ≠ _))

theorem stride_getLast_ne {nmass : ℕ} (q : List ℝ) (hn : 0 < nmass) (h : nmass < q.length) (hq : q.Pairwise (· < ·)) :
    (Ia.stride (q.length / nmass) q).getLast? ≠ q.getLast? ↔ Misses nmass q.length := by
  have hf : 0 < q.length / nmass := Nat.div_pos h.le hn
  have hq0 : q ≠ [] := by intro e; simp [e] at h
  have hle : (q.length - 1) / (q.length / nmass) * (q.length / nmass) ≤ q.length - 1 := Nat.div_mul_le_self _ _
  have hmod := Nat.div_add_mod (q.length - 1) (q.length / nmass)
  rw [mul_comm] at hmod
  rw [Ia.stride_last _ hf q hq0, List.getLast?_eq_getElem?]
  unfold Misses
  constructor
  · intro hne he
    rw [he, add_zero] at hmod
    exact hne (by rw [hmod])
  · intro hm he
    have hlt : (q.length - 1) / (q.length / nmass) * (q.length / nmass) < q.length - 1 := by omega
    have h1 : q.length - 1 < q.length := by omega
    rw [List.getElem?_eq_getElem (hlt.trans h1), List.getElem?_eq_getElem h1, Option.some.injEq] at he
    exact absurd he (List.pairwise_iff_getElem.1 hq _ _ (hlt.trans h1) h1 hlt).ne

theorem stride_getLast_some {f : ℕ} (hf : 0 < f) (q : List ℝ) (hq : q ≠ []) : ∃ d, (Ia.stride f q).getLast? = some d := by
  rw [Ia.stride_last f hf q hq]
  have : (q.length - 1) / f * f ≤ q.length - 1 := Nat.div_mul_le_self _ _
  have := List.length_pos_of_ne_nil hq
  exact ⟨_, List.getElem?_eq_getElem (by omega)⟩

/-- the columns kept -/
def columns (nmass n : ℕ) : List ℕ :=
  (List.range ((n + n / nmass - 1) / (n / nmass))).map (· * (n / nmass)) ++ if (n - 1) % (n / nmass) = 0 then [] else [n - 1]

theorem filterMap_some {α β : Type} (g : α → Option β) (l : List α) (h : ∀ a ∈ l, g a ≠ none) :
    (l.filterMap g).map some = l.map g := by
  induction l with
  | nil => rfl
  | cons a l ih =>
    obtain ⟨b, hb⟩ := Option.ne_none_iff_exists'.1 (h a (by simp))
    rw [List.filterMap_cons_some hb, List.map_cons, List.map_cons, hb, ih fun x hx => h x (by simp [hx])]

theorem count_eq {n f : ℕ} (hn : 0 < n) (hf : 0 < f) : (n + f - 1) / f = (n - 1) / f + 1 := by
  rw [show n + f - 1 = (n - 1) + f by omega, Nat.add_div_right _ hf]

theorem stride_cols {n f : ℕ} (hn : 0 < n) (hf : 0 < f) (r : List ℝ) (hr : r.length = n) :
    (Ia.stride f r).map some = ((List.range ((n + f - 1) / f)).map (· * f)).map (r[·]?) := by
  unfold Ia.stride
  rw [hr, filterMap_some, List.map_map]
  · rfl
  · intro i hi
    rw [List.mem_range, count_eq hn hf] at hi
    have h1 : i * f ≤ (n - 1) / f * f := Nat.mul_le_mul_right f (by omega)
    have h2 : (n - 1) / f * f ≤ n - 1 := Nat.div_mul_le_self _ _
    rw [List.getElem?_eq_getElem (by omega)]
    simp

theorem cols_of {nmass n : ℕ} (hn : 0 < nmass) (hl : nmass < n) (r : List ℝ) (hr : r.length = n) :
    ((if Misses nmass n then Ia.stride (n / nmass) r ++ r.getLast?.toList else Ia.stride (n / nmass) r).map some)
      = (columns nmass n).map (r[·]?) := by
  have hf : 0 < n / nmass := Nat.div_pos hl.le hn
  have hlast : r.getLast?.toList.map some = [r[n - 1]?] := by
    rw [List.getLast?_eq_getElem?, hr, List.getElem?_eq_getElem (by omega)]
    rfl
  unfold columns
  rw [List.map_append, ← stride_cols (by omega) hf r hr]
  by_cases h : (n - 1) % (n / nmass) = 0
  · rw [if_neg (show ¬ Misses nmass n from not_not.2 h), if_pos h]
    simp
  · rw [if_pos (show Misses nmass n from h), if_neg h, List.map_append, hlast]
    rfl

theorem columns_ok {nmass n : ℕ} (hn : 0 < nmass) (hl : nmass < n) :
    (columns nmass n).Pairwise (· < ·) ∧ (columns nmass n).head? = some 0 ∧ (columns nmass n).getLast? = some (n - 1) := by
  have hf : 0 < n / nmass := Nat.div_pos hl.le hn
  have hmod := Nat.div_add_mod (n - 1) (n / nmass)
  rw [mul_comm] at hmod
  have hc := count_eq (n := n) (f := n / nmass) (by omega) hf
  have hle : (n - 1) / (n / nmass) * (n / nmass) ≤ n - 1 := Nat.div_mul_le_self _ _
  have hp : ((List.range ((n + n / nmass - 1) / (n / nmass))).map (· * (n / nmass))).Pairwise (· < ·) :=
    List.pairwise_map.2 (List.pairwise_lt_range.imp fun hab => Nat.mul_lt_mul_of_pos_right hab hf)
  unfold columns
  refine ⟨?_, ?_, ?_⟩
  · rw [List.pairwise_append]
    refine ⟨hp, by split_ifs <;> simp, fun a ha b hb => ?_⟩
    split_ifs at hb with h0
    · simp at hb
    · obtain rfl := List.mem_singleton.1 hb
      obtain ⟨i, hi, rfl⟩ := List.mem_map.1 ha
      rw [List.mem_range, hc] at hi
      have : i * (n / nmass) ≤ (n - 1) / (n / nmass) * (n / nmass) := Nat.mul_le_mul_right _ (by omega)
      omega
  · rw [hc, List.range_succ_eq_map]
    simp
  · rw [hc, List.range_succ, List.map_append]
    split_ifs with h0
    · simp only [List.map_cons, List.map_nil, List.append_nil, List.getLast?_append, List.getLast?_singleton, Option.some_or]
      rw [h0, add_zero] at hmod
      rw [hmod]
    · simp

/-- the legacy arrays written out -/
theorem downsample_eq (nmass : ℕ) (h : Halo) (hn : 0 < nmass) (hl : nmass < h.mass.length) (hm : h.mass.Pairwise (· < ·)) :
    downsample nmass h = .ok (if Misses nmass h.mass.length then
      ⟨Ia.stride (h.mass.length / nmass) h.mass ++ h.mass.getLast?.toList,
        h.c.map fun r => Ia.stride (h.mass.length / nmass) r ++ r.getLast?.toList,
        h.rs.map fun r => Ia.stride (h.mass.length / nmass) r ++ r.getLast?.toList,
        Ia.stride (h.mass.length / nmass) h.rvir ++ h.rvir.getLast?.toList⟩
      else ⟨Ia.stride (h.mass.length / nmass) h.mass, h.c.map (Ia.stride (h.mass.length / nmass)),
        h.rs.map (Ia.stride (h.mass.length / nmass)), Ia.stride (h.mass.length / nmass) h.rvir⟩) := by
  have hf : 0 < h.mass.length / nmass := Nat.div_pos hl.le hn
  have hq0 : h.mass ≠ [] := by intro e; simp [e] at hl
  obtain ⟨d, hd⟩ := stride_getLast_some hf h.mass hq0
  obtain ⟨l, hlast⟩ : ∃ l, h.mass.getLast? = some l := by
    cases e : h.mass.getLast? with
    | none => exact absurd (List.getLast?_eq_none_iff.1 e) hq0
    | some l => exact ⟨l, rfl⟩
  have hiff := stride_getLast_ne h.mass hn hl hm
  rw [hd, hlast] at hiff
  unfold downsample
  rw [if_neg (by omega), if_neg (by omega), if_neg (by omega)]
  dsimp only
  rw [hd, hlast]
  dsimp only
  by_cases hM : Misses nmass h.mass.length
  · have : d ≠ l := fun e => hiff.2 hM (by rw [e])
    rw [if_pos this, if_pos hM]
    rfl
  · have : ¬ d ≠ l := fun e => hM (hiff.1 (by simpa using e))
    rw [if_neg this, if_neg hM]

/-- C120: for increasing masses the four arrays of the legacy module come out with the same length, and every column of the output is
one column of the input, the last column included; the rewritten function decides for each array by its values and can give arrays of
different lengths (`C48_length_mismatch`). -/
theorem C120_downsample (nmass : ℕ) (h : Halo) (hn : 0 < nmass) (hl : nmass < h.mass.length) (hm : h.mass.Pairwise (· < ·))
    (hs : Shapes h) :
    ∃ (d : Halo) (cols : List ℕ), downsample nmass h = .ok d ∧ cols.Pairwise (· < ·) ∧ cols.head? = some 0 ∧
      cols.getLast? = some (h.mass.length - 1) ∧
      d.mass.map some = cols.map (h.mass[·]?) ∧ d.rvir.map some = cols.map (h.rvir[·]?) ∧
      d.c.map (List.map some) = h.c.map (fun r => cols.map (r[·]?)) ∧
      d.rs.map (List.map some) = h.rs.map (fun r => cols.map (r[·]?)) := by
  obtain ⟨p1, p2, p3⟩ := columns_ok hn hl
  obtain ⟨s1, s2, s3⟩ := hs
  refine ⟨_, columns nmass h.mass.length, downsample_eq nmass h hn hl hm, p1, p2, p3, ?_⟩
  have A : ∀ r : List ℝ, r.length = h.mass.length → _ := fun r hr => cols_of hn hl r hr
  by_cases hM : Misses nmass h.mass.length
  · simp only [if_pos hM] at A ⊢
    refine ⟨A _ rfl, A _ s3, ?_, ?_⟩
    · rw [List.map_map]; exact List.map_congr_left fun r hr => A r (s1 r hr)
    · rw [List.map_map]; exact List.map_congr_left fun r hr => A r (s2 r hr)
  · simp only [if_neg hM] at A ⊢
    refine ⟨A _ rfl, A _ s3, ?_, ?_⟩
    · rw [List.map_map]; exact List.map_congr_left fun r hr => A r (s1 r hr)
    · rw [List.map_map]; exact List.map_congr_left fun r hr => A r (s2 r hr)

/-- C120: the two functions give the same arrays if masses and virial radii increase and, when the last column is not hit by the step,
every row of concentration and scale radius changes between the last column hit and the last column. -/
theorem C120_downsample_agree (nmass : ℕ) (h : Halo) (hn : 0 < nmass) (hl : nmass < h.mass.length)
    (hm : h.mass.Pairwise (· < ·)) (hv : h.rvir.Pairwise (· < ·)) (hs : Shapes h)
    (hrow : Misses nmass h.mass.length → ∀ r ∈ h.c ++ h.rs, (Ia.stride (h.mass.length / nmass) r).getLast? ≠ r.getLast?) :
    ∃ d, downsample nmass h = .ok d ∧
      Ia.downsample1 "hankel" h.mass.length nmass h.mass = .ok d.mass ∧
      Ia.downsample1 "hankel" h.mass.length nmass h.rvir = .ok d.rvir ∧
      Ia.downsample2 "hankel" h.mass.length nmass h.c = .ok d.c ∧
      Ia.downsample2 "hankel" h.mass.length nmass h.rs = .ok d.rs := by
  have hf : 0 < h.mass.length / nmass := Nat.div_pos hl.le hn
  obtain ⟨s1, s2, s3⟩ := hs
  have one : ∀ q : List ℝ, q.length = h.mass.length → q.Pairwise (· < ·) →
      Ia.downsample1 "hankel" h.mass.length nmass q = .ok (if Misses nmass h.mass.length then
        Ia.stride (h.mass.length / nmass) q ++ q.getLast?.toList else Ia.stride (h.mass.length / nmass) q) := by
    intro q hq hp
    have hq0 : q ≠ [] := by intro e; rw [e] at hq; simp at hq; omega
    obtain ⟨d, hd⟩ := stride_getLast_some hf q hq0
    obtain ⟨l, hlast⟩ : ∃ l, q.getLast? = some l := by
      cases e : q.getLast? with
      | none => exact absurd (List.getLast?_eq_none_iff.1 e) hq0
      | some l => exact ⟨l, rfl⟩
    have hiff := stride_getLast_ne q hn (by omega) hp
    rw [hq, hd, hlast] at hiff
    simp only [Ia.downsample1, Ia.downsampleCase_factor _ _ hl, hd, hlast]
    by_cases hM : Misses nmass h.mass.length
    · have : d ≠ l := fun e => hiff.2 hM (by rw [e])
      rw [if_pos this, if_pos hM]
      rfl
    · have : ¬ d ≠ l := fun e => hM (hiff.1 (by simpa using e))
      rw [if_neg this, if_neg hM]
  have two : ∀ q : List (List ℝ), (∀ r ∈ q, r.length = h.mass.length) →
      (Misses nmass h.mass.length → ∀ r ∈ q, (Ia.stride (h.mass.length / nmass) r).getLast? ≠ r.getLast?) →
      Ia.downsample2 "hankel" h.mass.length nmass q = .ok (if Misses nmass h.mass.length then
        q.map fun r => Ia.stride (h.mass.length / nmass) r ++ r.getLast?.toList
        else q.map (Ia.stride (h.mass.length / nmass))) := by
    intro q hq hr
    simp only [Ia.downsample2, Ia.downsampleCase_factor _ _ hl]
    by_cases hM : Misses nmass h.mass.length
    · rw [if_pos (hr hM), if_pos hM]
    · rw [if_neg hM]
      cases q with
      | nil => simp
      | cons r q =>
        have hr0 : r ≠ [] := by
          intro e
          have := hq r (by simp)
          rw [e] at this; simp at this; omega
        have heq : (Ia.stride (h.mass.length / nmass) r).getLast? = r.getLast? := by
          rw [Ia.stride_last _ hf r hr0, hq r (by simp), List.getLast?_eq_getElem?, hq r (by simp)]
          have hmod := Nat.div_add_mod (h.mass.length - 1) (h.mass.length / nmass)
          rw [mul_comm, not_not.1 hM, add_zero] at hmod
          rw [hmod]
        exact if_neg fun hall => hall r (by simp) heq
  refine ⟨_, downsample_eq nmass h hn hl hm, ?_, ?_, ?_, ?_⟩
  · rw [one _ rfl hm]; split_ifs <;> rfl
  · rw [one _ s3 hv]; split_ifs <;> rfl
  · rw [two _ s1 fun hM r hr => hrow hM r (by simp [hr])]; split_ifs <;> rfl
  · rw [two _ s2 fun hM r hr => hrow hM r (by simp [hr])]; split_ifs <;> rfl

/-! ## The module -/

/-- C120: the radial module runs exactly for the slopes 0 and -2 (or no multipole at all), `ell_max` up to 11 and enough masses. -/
theorem C120_radial_runs (J : ℝ → ℝ → ℝ) (o : RadialOptions) (slope : ℝ) (amp : ℕ → ℝ) (h : Halo) (hn : 0 < o.nmass)
    (hm : h.mass.Pairwise (· < ·)) :
    (∃ w, radial J o slope amp h = .ok w) ↔
      o.ellMax ≤ 11 ∧ o.nmass ≤ h.mass.length ∧ (o.ellMax < 0 ∨ slope = 0 ∨ slope = -2) := by
  unfold radial
  by_cases h11 : o.ellMax > 11
  · rw [if_pos h11]
    exact ⟨fun ⟨w, hw⟩ => (by cases hw), fun ⟨h, _⟩ => absurd h11 (by omega)⟩
  rw [if_neg h11]
  by_cases hl : h.mass.length < o.nmass
  · have : downsample o.nmass h = .error .valueError := by unfold downsample; rw [if_pos hl]
    rw [this]
    exact ⟨fun ⟨w, hw⟩ => (by cases hw), fun ⟨_, h, _⟩ => absurd hl (by omega)⟩
  obtain ⟨d, hd⟩ : ∃ d, downsample o.nmass h = .ok d := by
    by_cases he : h.mass.length = o.nmass
    · exact ⟨h, by unfold downsample; rw [if_neg hl, if_pos he]⟩
    · exact ⟨_, downsample_eq o.nmass h hn (by omega) hm⟩
  rw [hd]
  have key : (∃ as, angulars (Real.pi / 2) 0 slope (ells o.ellMax) = .ok as) ↔ (o.ellMax < 0 ∨ slope = 0 ∨ slope = -2) := by
    constructor
    · rintro ⟨as, ha⟩
      by_contra hc
      push Not at hc
      obtain ⟨hc0, hc1, hc2⟩ := hc
      obtain ⟨n, hn⟩ : ∃ n, ((o.ellMax + 2) / 2).toNat = n + 1 := ⟨((o.ellMax + 2) / 2).toNat - 1, by omega⟩
      unfold ells at ha
      rw [hn, List.range_succ_eq_map] at ha
      simp only [List.map_cons, angulars, ((C120_slopes (2 * 0) slope).2 hc1 hc2).1] at ha
      cases ha
    · rintro (hneg | hs)
      · have : ells o.ellMax = [] := by
          unfold ells
          rw [show ((o.ellMax + 2) / 2).toNat = 0 by omega]
          rfl
        rw [this]
        exact ⟨[], rfl⟩
      · obtain ⟨as, ha, -⟩ := C120_sum o.ellMax (by omega) (fun _ => 0) slope hs
        exact ⟨as, ha⟩
  constructor
  · rintro ⟨w, hw⟩
    obtain ⟨d', hd', hw⟩ := bind_ok hw
    obtain ⟨as, ha, hw⟩ := bind_ok hw
    exact ⟨by omega, by omega, key.1 ⟨as, ha⟩⟩
  · rintro ⟨-, -, hs⟩
    obtain ⟨as, ha⟩ := key.2 hs
    rw [ha]
    exact ⟨_, rfl⟩

/-- C120: every value of the profile written by the legacy module is the value of the rewritten class at the same mass, redshift and
wavenumber, for the arrays after the down-sampling. -/
theorem C120_radial (J : ℝ → ℝ → ℝ) (o : RadialOptions) (slope : ℝ) (amp : ℕ → ℝ) (h d : Halo) (w : Wkm)
    (hs : slope = 0 ∨ slope = -2) (hd : downsample o.nmass h = .ok d) (hw : radial J o slope amp h = .ok w) :
    w.mass = d.mass ∧ ∀ jz im ik, Ia.wkmFEll o.ellMax
      (fun i => Ia.uellHankel J (fun r => Ia.gammaRNfwProfile r (at2 d.rs jz im) (d.rvir.getD im 0) (amp jz) slope 0.06 false)
        (Ia.mnfw (at2 d.rs jz im) (at2 d.c jz im)) (2 * i) (kVec o ik)) slope = .ok (w.w jz im ik) := by
  unfold radial at hw
  split_ifs at hw with h11
  rw [hd] at hw
  obtain ⟨d', hd', hw⟩ := bind_ok hw
  cases hd'
  obtain ⟨as, ha, hw⟩ := bind_ok hw
  cases hw
  refine ⟨rfl, fun jz im ik => ?_⟩
  have hk : 0 < kVec o ik := Real.rpow_pos_of_pos (by norm_num) _
  have hu : (fun i => Ia.uellHankel J (fun r => Ia.gammaRNfwProfile r (at2 d.rs jz im) (d.rvir.getD im 0) (amp jz) slope 0.06 false)
      (Ia.mnfw (at2 d.rs jz im) (at2 d.c jz im)) (2 * i) (kVec o ik))
      = fun i => uell J (at2 d.rs jz im) (at2 d.c jz im) (d.rvir.getD im 0) (amp jz) slope i (kVec o ik) :=
    funext fun i => (C120_multipoles J _ _ _ _ _ i _ hk).1.symm
  rw [hu]
  obtain ⟨as', ha', hv⟩ := C120_sum o.ellMax (by omega) _ slope hs
  rw [ha] at ha'
  cases ha'
  exact hv

/-- C120: the interpolation to the grid of the spectra is the one of the rewritten `hankel` method, and with the default limits the
wavenumbers are the same. -/
theorem C120_upsampled (o : RadialOptions) (w : Wkm) (jz : ℕ) (k mass : ℝ) :
    satelliteAlignment o w jz k mass
        = Ia.upsampledHankel o.nk w.mass.length (kVec o) (fun j => w.mass.getD j 0) (w.w jz) k mass ∧
      (o.kmin = 1e-3 → o.kmax = 1e3 → kVec o = Ia.kGrid o.nk) := by
  refine ⟨rfl, fun h1 h2 => funext fun i => ?_⟩
  have e1 : log10 (1e-3 : ℝ) = -3 := by
    rw [show (1e-3 : ℝ) = (10 : ℝ) ^ (-3 : ℝ) by rw [Real.rpow_neg (by norm_num)]; norm_num]
    exact Real.logb_rpow (by norm_num) (by norm_num)
  have e2 : log10 (1e3 : ℝ) = 3 := by
    rw [show (1e3 : ℝ) = (10 : ℝ) ^ (3 : ℝ) by norm_num]
    exact Real.logb_rpow (by norm_num) (by norm_num)
  unfold kVec Ia.kGrid logspace linspace
  rw [h1, h2, e1, e2]
  norm_num

/-! ## The hypotheses are met -/

/-- luminosity dependence of both populations: a narrow sample at two redshifts -/
noncomputable def demoOptions : AmpOptions where
  central := "luminosity"
  satellite := "halo_mass"
  zmin := 0
  zmax := 0.5
  nz := 2
  fileCen := some [(0.1, 10), (0.4, 10.5)]
  fileSat := none

/-- values with one pivot of each kind -/
noncomputable def demoValues : AmpValues where
  gamma2h := some 5
  gamma1h := some 0.001
  lPivot := some 10
  mPivot := some 13
  beta := some 1.2
  betaTwo := none
  betaSat := some 0.5

example : ∃ cen sat, amplitudes demoOptions demoValues = .ok (cen, sat) ∧
    (rewritten demoOptions demoValues).alignmentGi = .ok (some cen.amplitude) ∧ cen.mPivot = none ∧
    sat.mPivot = some ((10 : ℝ) ^ (13 : ℝ)) ∧ sat.slope = some 0.5 := by
  rcases C120_amplitudes demoOptions demoValues (by simp [demoOptions]) (by simp [demoOptions])
    (by simp [ValuesPresent, demoOptions, demoValues]) with ⟨cen, sat, h1, h2, -⟩ | ⟨⟨e, he⟩, -⟩
  · obtain ⟨-, -, p, q, -⟩ := C120_pivots _ _ cen sat h1
    obtain ⟨m, b, hm, hb, e1, e2⟩ := q rfl
    cases hm
    cases hb
    exact ⟨cen, sat, h1, h2, (p (by simp [demoOptions])).1, e1, e2⟩
  · exfalso
    simp [amplitudes, ampSetup, lumTable, demoOptions, demoValues, centrals, satellites, get, bind, Except.bind] at he

/-- a satellite option without its file stops both codes -/
example : (∃ e, amplitudes { demoOptions with satellite := "luminosity" } demoValues = .error e) := by
  rcases C120_amplitudes { demoOptions with satellite := "luminosity" } demoValues (by simp [demoOptions]) (by simp)
    (by simp [ValuesPresent, demoValues]) with ⟨cen, sat, h1, -, h3⟩ | ⟨h, -⟩
  · cases h3
  · exact h

/-- slope -1 : TypeError in the legacy function, a value in the rewritten one -/
example : fEll (Real.pi / 2) 0 2 (-1) = .error .typeError ∧ ∃ v, Ia.calculateFEll 2 (-1) = .ok v :=
  let h := (C120_slopes 2 (-1)).2 (by norm_num) (by norm_num)
  ⟨h.1, h.2 (by norm_num)⟩

/-- six masses, two of them asked for; the concentration of the second redshift is constant -/
noncomputable def demoHalo : Halo where
  mass := [1, 2, 3, 4, 5, 6]
  c := [[6, 5, 4, 3, 2, 1], [4, 4, 4, 4, 4, 4]]
  rs := [[1, 2, 3, 4, 5, 6], [2, 3, 4, 5, 6, 7]]
  rvir := [1, 2, 3, 4, 5, 6]

theorem demo_sorted : demoHalo.mass.Pairwise (· < ·) := by norm_num [demoHalo]

/-- the legacy arrays keep the same three columns; the rewritten concentrations lose the last one -/
example : ∃ d, downsample 2 demoHalo = .ok d ∧ d.mass = [1, 4, 6] ∧ d.c = [[6, 3, 1], [4, 4, 4]] ∧
    Ia.downsample2 "hankel" 6 2 demoHalo.c = .ok [[6, 3], [4, 4]] := by
  refine ⟨_, downsample_eq 2 demoHalo (by norm_num) (by simp [demoHalo]) demo_sorted, ?_, ?_, ?_⟩
  · simp [demoHalo, Misses, Ia.stride, List.range_succ, List.filterMap]
  · simp [demoHalo, Misses, Ia.stride, List.range_succ, List.filterMap]
  · norm_num [Ia.downsample2, Ia.downsampleCase, demoHalo, Ia.stride, List.range_succ, List.filterMap]

example : ∃ (d : Halo) (cols : List ℕ), downsample 2 demoHalo = .ok d ∧ cols.Pairwise (· < ·) ∧ cols.head? = some 0 ∧
    cols.getLast? = some 5 ∧ d.c.map (List.map some) = demoHalo.c.map (fun r => cols.map (r[·]?)) := by
  obtain ⟨d, cols, h1, h2, h3, h4, -, -, h5, -⟩ := C120_downsample 2 demoHalo (by norm_num) (by simp [demoHalo]) demo_sorted
    (by simp [Shapes, demoHalo])
  exact ⟨d, cols, h1, h2, h3, h4, h5⟩

/-- without the constant row the two agree -/
example : ∃ d, downsample 2 { demoHalo with c := demoHalo.rs } = .ok d ∧
    Ia.downsample2 "hankel" 6 2 demoHalo.rs = .ok d.c := by
  obtain ⟨d, h1, -, -, h2, -⟩ := C120_downsample_agree 2 { demoHalo with c := demoHalo.rs } (by norm_num) (by simp [demoHalo])
    demo_sorted demo_sorted (by simp [Shapes, demoHalo])
    (fun _ => by simp [demoHalo, Ia.stride, List.range_succ])
  exact ⟨d, h1, h2⟩

/-- the module runs on these masses for the default slope -2 and not for -1 -/
example (J : ℝ → ℝ → ℝ) : (∃ w, radial J { nmass := 2 } (-2) (fun _ => 0.001) demoHalo = .ok w) ∧
    ¬ ∃ w, radial J { nmass := 2 } (-1) (fun _ => 0.001) demoHalo = .ok w :=
  ⟨(C120_radial_runs J _ _ _ _ (by norm_num) demo_sorted).2 ⟨by norm_num, by simp [demoHalo], by norm_num⟩,
    fun h => by
      have := ((C120_radial_runs J _ _ _ _ (by norm_num) demo_sorted).1 h).2.2
      norm_num at this⟩

end Verif.LegacyIa

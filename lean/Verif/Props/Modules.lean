import Verif.Model.Modules
import Verif.Props.InterfaceExecute
import Verif.Props.Ogata
import Verif.Props.RealSpaceCosmo

/-!
# From power spectra to correlation functions in another cosmology (C107)
-/

namespace Verif.Modules

open Verif.Lib Verif.Spec Verif.RealSpace Verif.Interface

theorem find_binEntries {base : String} (hb : PlainName base) (n : ℕ) (sp : ℕ → Spectrum) {nb : ℕ} (hn : nb < n) :
    (binEntries base n sp).find? (fun e => e.1 == base ++ binSuffix n nb) = some (base ++ binSuffix n nb, sp nb) := by
  have key : ∀ l : List ℕ, nb ∈ l → (∀ i ∈ l, i < n) →
      (l.map fun nb => (base ++ binSuffix n nb, sp nb)).find? (fun e => e.1 == base ++ binSuffix n nb) =
        some (base ++ binSuffix n nb, sp nb) := by
    intro l
    induction l with
    | nil => intro h; cases h
    | cons a l ih =>
      intro h hl
      rw [List.map_cons, List.find?_cons]
      by_cases ha : a = nb
      · subst ha; simp
      · have hne : (base ++ binSuffix n a == base ++ binSuffix n nb) = false := by
          rw [beq_eq_false_iff_ne]
          intro he
          by_cases h1 : n = 1
          · have := hl a (List.mem_cons_self ..); omega
          · exact ha ((suffix_inj hb hb he).2.2 h1)
        simp only [hne]
        exact ih ((List.mem_cons.mp h).resolve_left fun e => ha e.symm) fun i hi => hl i (List.mem_cons_of_mem _ hi)
  exact key _ (List.mem_range.mpr hn) fun i hi => List.mem_range.mp hi

theorem find_none {base b : String} (n : ℕ) (sp : ℕ → Spectrum) (h : ∀ nb, base ++ binSuffix n nb ≠ b) :
    (binEntries base n sp).find? (fun e => e.1 == b) = none := by
  rw [List.find?_eq_none]
  intro e he
  obtain ⟨nb, -, rfl⟩ := List.mem_map.mp he
  simpa using h nb

theorem ne_of_plain {b b' : String} (hb : PlainName b) (hb' : PlainName b') (hne : b ≠ b') (n n' nb nb' : ℕ) :
    b ++ binSuffix n nb ≠ b' ++ binSuffix n' nb' := fun h => hne (suffix_inj hb hb' h).1

theorem plain (b : String) (h : b ∈ baseNames) : PlainName b := baseNames_plain b h

/-- what each type of correlation function reads -/
def base : CorrType → String
  | .wp => "galaxy_power"
  | .ds => "matter_galaxy_power"

def flag (p : Pipeline) : CorrType → Bool
  | .wp => p.pgg
  | .ds => p.pgm

def pick (R : Results) : CorrType → ℕ → Spectrum
  | .wp => R.gg
  | .ds => R.gm

theorem base_mem (c : CorrType) : base c ∈ baseNames := by cases c <;> decide

/-- the other entries do not matter -/
theorem read_of_other (p : Pipeline) (nG nI : ℕ) (R : Results) (c : CorrType) (sec : String)
    (h : ∀ b ∈ baseNames, b ≠ base c → ∀ n nb, b ++ binSuffix n nb ≠ sec) :
    readSection (written p nG nI R) sec =
      if flag p c then ((binEntries (base c) nG (pick R c)).find? fun e => e.1 == sec).map (·.2) else none := by
  have hmm : "matter_power_nl" ≠ sec := by
    have h1 : "matter_power_nl" ≠ base c := by cases c <;> decide
    have := h "matter_power_nl" (by decide) h1 1 0
    simpa [binSuffix] using this
  have other : ∀ b ∈ baseNames, b ≠ base c → ∀ n sp, (binEntries b n sp).find? (fun e => e.1 == sec) = none :=
    fun b hb hne n sp => find_none n sp (h b hb hne n)
  have e1 : (if p.pmm && !p.response then [("matter_power_nl", R.mm)] else []).find? (fun e => e.1 == sec) = none := by
    split_ifs
    · simp [hmm]
    · rfl
  have fif : ∀ (q : Bool) (l : List (String × Spectrum)), l.find? (fun e => e.1 == sec) = none →
      (if q = true then l else []).find? (fun e => e.1 == sec) = none := by
    intro q l hl; split_ifs
    · exact hl
    · rfl
  have e2 : (if p.alignment then
    (if p.pII then binEntries "intrinsic_power" nI R.ii else []) ++
    (if p.pgI then binEntries "galaxy_intrinsic_power" nI R.gi else []) ++
    (if p.pmI then binEntries "matter_intrinsic_power" nI R.mi else []) else []).find? (fun e => e.1 == sec) = none := by
    apply fif
    rw [List.find?_append, List.find?_append, fif _ _ (other _ (by decide) (by cases c <;> decide) _ _),
      fif _ _ (other _ (by decide) (by cases c <;> decide) _ _), fif _ _ (other _ (by decide) (by cases c <;> decide) _ _)]
    rfl
  unfold readSection written
  rw [List.find?_append, List.find?_append, List.find?_append, e1, e2, Option.none_or, Option.or_none]
  cases c with
  | wp =>
    rw [fif p.pgm _ (other _ (by decide) (by decide) _ _), Option.or_none]
    unfold flag base pick
    cases p.pgg <;> rfl
  | ds =>
    rw [fif p.pgg _ (other _ (by decide) (by decide) _ _), Option.none_or]
    unfold flag base pick
    cases p.pgm <;> rfl

/-- C107: what `pk_to_real` finds under the name of its default section: with one bin the spectrum of that bin, with
several bins nothing. -/
theorem C107_plain_section (p : Pipeline) (nG nI : ℕ) (R : Results) (c : CorrType) (hf : flag p c = true) :
    readSection (written p 1 nI R) (base c) = some (pick R c 0) ∧
    (nG ≠ 1 → readSection (written p nG nI R) (base c) = none) := by
  have hother : ∀ b ∈ baseNames, b ≠ base c → ∀ n nb, b ++ binSuffix n nb ≠ base c := by
    intro b hb hne n nb h
    have := ne_of_plain (plain b hb) (plain _ (base_mem c)) hne n 1 nb 0
    exact this (by rw [h]; simp [binSuffix])
  constructor
  · rw [read_of_other p 1 nI R c _ hother, if_pos hf]
    have := find_binEntries (plain _ (base_mem c)) 1 (pick R c) (nb := 0) one_pos
    have e : base c ++ binSuffix 1 0 = base c := by simp [binSuffix]
    rw [e] at this
    rw [this]; rfl
  · intro hn
    rw [read_of_other p nG nI R c _ hother, if_pos hf, find_none]
    · rfl
    · intro nb h
      have h' : base c ++ binSuffix nG nb = base c ++ binSuffix 1 0 := by rw [h]; simp [binSuffix]
      have := (suffix_inj (plain _ (base_mem c)) (plain _ (base_mem c)) h').2.1
      unfold binSuffix at this
      rw [if_pos hn, if_neg (by simp)] at this
      have h2 := congrArg String.toList this
      simp at h2

/-- C107: what it finds under a name with a suffix: with one bin nothing, with several bins the spectrum of bin `b` for
the suffix that is the number `b + 1`, and nothing for any other suffix. -/
theorem C107_suffix_section (p : Pipeline) (nG nI : ℕ) (R : Results) (c : CorrType) (hf : flag p c = true) (s : String) :
    (nG = 1 → readSection (written p nG nI R) (base c ++ "_" ++ s) = none) ∧
    (nG ≠ 1 → ∀ b < nG, s = toString (b + 1) → readSection (written p nG nI R) (base c ++ "_" ++ s) = some (pick R c b)) ∧
    (nG ≠ 1 → (∀ b < nG, s ≠ toString (b + 1)) → readSection (written p nG nI R) (base c ++ "_" ++ s) = none) := by
  have hother : ∀ b ∈ baseNames, b ≠ base c → ∀ n nb, b ++ binSuffix n nb ≠ base c ++ "_" ++ s := by
    intro b hb hne n nb h
    have := congrArg String.toList h
    rw [String.toList_append, String.toList_append, String.toList_append] at this
    cases c <;> simp only [baseNames, base, List.mem_cons, List.not_mem_nil, or_false] at hb hne this <;>
      rcases hb with rfl | rfl | rfl | rfl | rfl | rfl | rfl | rfl <;> simp at this hne
  have hcancel : ∀ x y : String, base c ++ x = base c ++ y → x = y := by
    intro x y h
    have := congrArg String.toList h
    rw [String.toList_append, String.toList_append] at this
    exact String.toList_inj.mp (List.append_cancel_left this)
  rw [read_of_other p nG nI R c _ hother, if_pos hf]
  refine ⟨?_, ?_, ?_⟩
  · rintro rfl
    rw [find_none]
    · rfl
    · intro nb h
      rw [String.append_assoc] at h
      have := hcancel _ _ h
      unfold binSuffix at this
      rw [if_neg (by simp)] at this
      have h2 := congrArg String.toList this
      rw [String.toList_append] at h2
      simp at h2
  · rintro hn b hb rfl
    have := find_binEntries (plain _ (base_mem c)) nG (pick R c) hb
    have e : base c ++ binSuffix nG b = base c ++ "_" ++ toString (b + 1) := by
      unfold binSuffix; rw [if_pos hn, String.append_assoc]
    rw [e] at this
    rw [this]; rfl
  · intro hn hs
    rw [List.find?_eq_none.mpr]
    · rfl
    · intro e he
      obtain ⟨nb, hnb, rfl⟩ := List.mem_map.mp he
      simp only [beq_iff_eq]
      intro h
      rw [String.append_assoc] at h
      have := hcancel _ _ h
      unfold binSuffix at this
      rw [if_pos hn] at this
      have h2 := congrArg String.toList this
      rw [String.toList_append, String.toList_append] at h2
      exact hs nb (List.mem_range.mp hnb) (String.toList_inj.mp (List.append_cancel_left h2)).symm

/-- the FFTLog grid of the module -/
noncomputable def fftGrid (s : Ogata.Settings) (kr : ℝ) (fht : (ℕ → ℝ) → ℕ → ℝ) : Transformer :=
  ⟨s.n, s.kMin, s.kMax, s.rpMin, s.rpMax, kr, fht⟩

/-- the density factor: the mean matter density for lensing, none for clustering -/
noncomputable def densityOf (c : CorrType) (rho : ℝ) : ℝ := if c = .ds then rho else 1

theorem pkToReal_eq (s : Ogata.Settings) (kr : ℝ) (fht : (ℕ → ℝ) → ℕ → ℝ) (rho : ℝ) (p : Pipeline) (nG nI : ℕ)
    (R : Results) (nb : Option ℕ) (kernels : ℕ → Option Kernel) :
    pkToReal s kr fht rho p nG nI R nb kernels =
      match Ogata.countBins s nb with
      | .error e => .error e
      | .ok n => match RealSpace.transform (fftGrid s kr fht) s.corr (densityOf s.corr rho) s.inputSection s.suffixes nb
          (readSection (written p nG nI R)) kernels with
        | .error e => .error e
        | .ok r => .ok ⟨r.1, r.2, n, s.sample, Ogata.fftlogSaveName s.corr⟩ := by
  unfold pkToReal Ogata.fftlogTransform fftGrid densityOf
  cases s.corr <;> rfl

/-- C107: the set-up of either transform module without an input section looks under the name that the power spectrum module
writes for that statistic: clustering finds the galaxy spectrum of the bin, lensing the galaxy-matter spectrum. -/
theorem C107_default_names (d : ℤ) (o : Ogata.Options) (s : Ogata.Settings) (h : Ogata.setup d o = .ok s)
    (ho : o.inputSection = none ∨ o.inputSection = some "") (p : Pipeline) (nG nI : ℕ) (R : Results) :
    (o.corrType = some "wp" → p.pgg = true →
      readSection (written p 1 nI R) s.inputSection = some (R.gg 0) ∧
      (nG ≠ 1 → ∀ b < nG, readSection (written p nG nI R) (s.inputSection ++ "_" ++ toString (b + 1)) = some (R.gg b))) ∧
    (o.corrType = some "ds" → p.pgm = true →
      readSection (written p 1 nI R) s.inputSection = some (R.gm 0) ∧
      (nG ≠ 1 → ∀ b < nG, readSection (written p nG nI R) (s.inputSection ++ "_" ++ toString (b + 1)) = some (R.gm b))) := by
  obtain ⟨h1, h2, -, -, h3, -⟩ := Ogata.C106_settings d o s h
  have h3 := h3 ho
  constructor
  · intro hc hp
    rw [h1.2 hc, if_pos rfl] at h3
    rw [h3]
    exact ⟨(C107_plain_section p nG nI R .wp hp).1,
      fun hG b hb => (C107_suffix_section p nG nI R .wp hp _).2.1 hG b hb rfl⟩
  · intro hc hp
    rw [h2.2 hc, if_neg (by simp)] at h3
    rw [h3]
    exact ⟨(C107_plain_section p nG nI R .ds hp).1,
      fun hG b hb => (C107_suffix_section p nG nI R .ds hp _).2.1 hG b hb rfl⟩

example : ∃ s, Ogata.setup 250 ⟨some "ds", none, none, none, some "nz_lens", none, none, none, none, none⟩ = .ok s := by
  simp [Ogata.setup, Ogata.readCorrType, Ogata.readCount]

/-- C107: several bins, suffixes given (any list).  The transform of the spectra just written succeeds exactly when the list is not
empty, every suffix is the number of an existing bin and the redshift distributions number 1 to the length of the list
exist.  The output at position `t` is made from the spectrum of the bin that the suffix names and the redshift distribution
number `t + 1`. -/
theorem C107_suffixes (s : Ogata.Settings) (kr : ℝ) (fht : (ℕ → ℝ) → ℕ → ℝ) (rho : ℝ) (p : Pipeline) (nG nI : ℕ)
    (R : Results) (nb : Option ℕ) (kernels : ℕ → Option Kernel) (hf : flag p s.corr = true) (hG : nG ≠ 1)
    (hin : s.inputSection = base s.corr) (l : List String) (hl : s.suffixes = some l) :
    ((∃ o, pkToReal s kr fht rho p nG nI R nb kernels = .ok o) ↔
      l ≠ [] ∧ ∀ i (hi : i < l.length), (∃ b < nG, l[i] = toString (b + 1)) ∧ (kernels i).isSome) ∧
    ∀ o, pkToReal s kr fht rho p nG nI R nb kernels = .ok o → o.bins.length = l.length ∧ o.nbin = l.length ∧
      o.saveName = (if s.corr = .wp then "wp" else "ds") ∧
      ∀ i (hi : i < l.length) b kn, b < nG → l[i] = toString (b + 1) → kernels i = some kn →
        o.bins[i]? = some (binOutput (fftGrid s kr fht) s.corr (densityOf s.corr rho) (pick R s.corr b) kn) := by
  have hsome : ∀ x : String, (readSection (written p nG nI R) (base s.corr ++ "_" ++ x)).isSome ↔
      ∃ b < nG, x = toString (b + 1) := by
    intro x
    obtain ⟨-, h2, h3⟩ := C107_suffix_section p nG nI R s.corr hf x
    constructor
    · intro h
      by_contra hc
      push Not at hc
      rw [h3 hG hc] at h
      cases h
    · rintro ⟨b, hb, hx⟩
      rw [h2 hG b hb hx]; rfl
  have hb := C92_bins (fftGrid s kr fht) s.corr (densityOf s.corr rho) (base s.corr) l nb
    (readSection (written p nG nI R)) kernels
  have hc : Ogata.countBins s nb = .ok l.length := by unfold Ogata.countBins; rw [hl]
  rw [pkToReal_eq, hc, hl, hin]
  simp only
  cases ht : RealSpace.transform (fftGrid s kr fht) s.corr (densityOf s.corr rho) (base s.corr) (some l) nb
      (readSection (written p nG nI R)) kernels with
  | error e =>
    rw [ht] at hb
    refine ⟨⟨fun ⟨_, h⟩ => (by cases h), fun ⟨h1, h2⟩ => ?_⟩, fun o h => by cases h⟩
    obtain ⟨_, h⟩ := hb.1.mpr ⟨h1, fun i hi =>
      ⟨⟨l[i], List.getElem?_eq_getElem hi, (hsome _).mpr (h2 i hi).1⟩, (h2 i hi).2⟩⟩
    cases h
  | ok r =>
    rw [ht] at hb
    obtain ⟨h1, h2⟩ := hb.1.mp ⟨_, rfl⟩
    obtain ⟨g1, -, g3⟩ := hb.2 r rfl
    refine ⟨⟨fun _ => ⟨h1, fun i hi => ?_⟩, fun _ => ⟨_, rfl⟩⟩, fun o h => ?_⟩
    · obtain ⟨⟨x, hx, hs⟩, hk⟩ := h2 i hi
      rw [List.getElem?_eq_getElem hi] at hx
      cases hx
      exact ⟨(hsome _).mp hs, hk⟩
    · cases h
      refine ⟨g1, rfl, by cases s.corr <;> rfl, fun i hi b kn hb' hlb hkn => ?_⟩
      exact g3 i l[i] _ kn (List.getElem?_eq_getElem hi) ((C107_suffix_section p nG nI R s.corr hf l[i]).2.1 hG b hb' hlb) hkn

/-- C107: with several bins and no suffixes, and with one bin and suffixes, the transform never succeeds. -/
theorem C107_mismatch (s : Ogata.Settings) (kr : ℝ) (fht : (ℕ → ℝ) → ℕ → ℝ) (rho : ℝ) (p : Pipeline) (nG nI : ℕ)
    (R : Results) (nb : Option ℕ) (kernels : ℕ → Option Kernel) (hf : flag p s.corr = true)
    (hin : s.inputSection = base s.corr) (h : nG = 1 ↔ s.suffixes ≠ none) :
    ∃ e, pkToReal s kr fht rho p nG nI R nb kernels = .error e := by
  rw [pkToReal_eq, hin]
  cases hc : Ogata.countBins s nb with
  | error e => exact ⟨e, rfl⟩
  | ok n =>
    simp only
    cases hs : s.suffixes with
    | some l =>
      have hG : nG = 1 := h.mpr (by rw [hs]; simp)
      have hb := (C92_bins (fftGrid s kr fht) s.corr (densityOf s.corr rho) (base s.corr) l nb
        (readSection (written p nG nI R)) kernels).1
      cases ht : RealSpace.transform (fftGrid s kr fht) s.corr (densityOf s.corr rho) (base s.corr) (some l) nb
        (readSection (written p nG nI R)) kernels with
      | error e => exact ⟨e, rfl⟩
      | ok r =>
        obtain ⟨h1, h2⟩ := hb.mp ⟨r, ht⟩
        obtain ⟨x, -, hx⟩ := (h2 0 (List.length_pos_of_ne_nil h1)).1
        rw [(C107_suffix_section p nG nI R s.corr hf x).1 hG] at hx
        cases hx
    | none =>
      have hG : nG ≠ 1 := fun h1 => (h.mp h1) hs
      have hr := (C107_plain_section p nG nI R s.corr hf).2 hG
      unfold RealSpace.transform
      cases nb with
      | none => exact ⟨_, rfl⟩
      | some m =>
        simp only
        cases m with
        | zero => exact ⟨_, rfl⟩
        | succ m =>
          rw [List.range_succ_eq_map]
          unfold transformLoop inputSection
          simp only [hr]
          exact ⟨_, rfl⟩

/-- C107: one bin and no suffixes: all redshift distributions of the sample are combined with the one spectrum. -/
theorem C107_one_bin (s : Ogata.Settings) (kr : ℝ) (fht : (ℕ → ℝ) → ℕ → ℝ) (rho : ℝ) (p : Pipeline) (nI : ℕ)
    (R : Results) (n : ℕ) (hn : 0 < n) (kn : ℕ → Kernel) (hf : flag p s.corr = true)
    (hin : s.inputSection = base s.corr) (hs : s.suffixes = none) :
    ∃ o, pkToReal s kr fht rho p 1 nI R (some n) (fun i => some (kn i)) = .ok o ∧ o.nbin = n ∧
      o.bins = (List.range n).map fun i =>
        binOutput (fftGrid s kr fht) s.corr (densityOf s.corr rho) (pick R s.corr 0) (kn i) := by
  obtain ⟨r, h1, h2⟩ := C92_shared_spectrum (fftGrid s kr fht) s.corr (densityOf s.corr rho) (base s.corr) n hn
    (readSection (written p 1 nI R)) _ (C107_plain_section p 1 nI R s.corr hf).1 kn
  have hc : Ogata.countBins s (some n) = .ok n := by unfold Ogata.countBins; rw [hs]
  rw [pkToReal_eq, hc, hs, hin, h1]
  exact ⟨_, rfl, rfl, h2⟩

/-- the numbers of the bins -/
def allBins (n : ℕ) : List String := (List.range n).map fun b => toString (b + 1)

/-- C107: the whole chain.  With at least two bins, the suffixes `1 2 ... n`, a redshift distribution for each and one
effective redshift per bin, all three modules succeed.  Function number `b` is the Hankel transform of the spectrum of bin
`b` averaged over its own redshift distribution, times the ratio of cosmologies at its own redshift; for lensing it
carries the mean density in units of 1e12.  The separations carry the product of the ratios of all bins. -/
theorem C107_chain (s : Ogata.Settings) (kr : ℝ) (fht : (ℕ → ℝ) → ℕ → ℝ) (rho : ℝ) (p : Pipeline) (nG nI : ℕ)
    (R : Results) (nb : Option ℕ) (kn : ℕ → Kernel) (hf : flag p s.corr = true) (hG : 2 ≤ nG)
    (hin : s.inputSection = base s.corr) (hs : s.suffixes = some (allBins nG)) (run data : Cosmo) (z : List ℝ)
    (hz : z.length = nG) :
    ∃ o c, pkToReal s kr fht rho p nG nI R nb (fun i => some (kn i)) = .ok o ∧
      correctAfter o (fftGrid s kr fht).rp run data z = .ok c ∧
      (∀ b x, z[b]? = some x → ∀ t, c.bin b t =
        (if s.corr = .wp
          then simpson (R.gg b).nz (R.gg b).z (fun j => loadKernel (kn b) ((R.gg b).z j) *
            (fftGrid s kr fht).xi (R.gg b).nk (R.gg b).k ((R.gg b).pk j) t)
          else rho / 10 ^ 12 * simpson (R.gm b).nz (R.gm b).z (fun j => loadKernel (kn b) ((R.gm b).z j) *
            (fftGrid s kr fht).xi (R.gm b).nk (R.gm b).k ((R.gm b).pk j) t)) *
        corrFactor run data (if s.corr = .wp then "wp" else "ds") x) ∧
      ∀ t, c.rp t = (fftGrid s kr fht).rp t * (z.map fun x => run.comoving x / data.comoving x * (run.h / data.h)).prod := by
  have hlen : (allBins nG).length = nG := by simp [allBins]
  have hget : ∀ i (hi : i < (allBins nG).length), (allBins nG)[i] = toString (i + 1) := by
    intro i hi; simp [allBins]
  obtain ⟨h1, h2⟩ := C107_suffixes s kr fht rho p nG nI R nb (fun i => some (kn i)) hf (by omega) hin _ hs
  obtain ⟨o, ho⟩ := h1.mpr ⟨fun h => by rw [h] at hlen; simp at hlen; omega, fun i hi =>
    ⟨⟨i, by omega, hget i hi⟩, rfl⟩⟩
  obtain ⟨-, g2, g3, g4⟩ := h2 o ho
  have hname : o.saveName = "wp" ∨ o.saveName = "ds" := by
    rw [g3]; split_ifs
    · exact Or.inl rfl
    · exact Or.inr rfl
  obtain ⟨c, c1, c2, c3, -⟩ := C70_product run data o.saveName hname z
    ⟨(fftGrid s kr fht).rp, fun b => (o.bins[b]?).getD fun _ => 0⟩
  refine ⟨o, c, ho, ?_, fun b x hb t => ?_, fun t => c2 t⟩
  · unfold correctAfter
    rw [g2, hlen, ← hz]
    exact c1
  · have hbl : b < nG := by
      rw [← hz]
      exact (List.getElem?_eq_some_iff.mp hb).1
    rw [c3 b x hb t, g3]
    congr 1
    have := g4 b (by omega) b (kn b) hbl (hget b (by omega)) rfl
    simp only [this, Option.getD_some]
    unfold binOutput densityOf
    cases s.corr with
    | wp => simp [pick]
    | ds =>
      simp only [pick, if_true, reduceCtorEq, if_false]
      rw [simpson_smul_right]
      norm_num
      ring

/-- three bins of clustering: a list of suffixes in another order pairs spectra with the wrong redshift distributions, without a
message -/
example (kr : ℝ) (fht : (ℕ → ℝ) → ℕ → ℝ) (R : Results) (kn : ℕ → Kernel) :
    ∃ o, pkToReal ⟨.wp, "galaxy_power", "wp", some ["2", "1"], "nz", 4, 1, 1000, 1, 10⟩ kr fht 1
      ⟨true, true, false, false, false, false, false, false, .none, .none, ""⟩ 3 0 R none (fun i => some (kn i)) = .ok o ∧
      o.bins[0]? = some (binOutput (fftGrid ⟨.wp, "galaxy_power", "wp", some ["2", "1"], "nz", 4, 1, 1000, 1, 10⟩ kr fht)
        .wp 1 (R.gg 1) (kn 0)) := by
  set s : Ogata.Settings := ⟨.wp, "galaxy_power", "wp", some ["2", "1"], "nz", 4, 1, 1000, 1, 10⟩ with hs
  obtain ⟨h1, h2⟩ := C107_suffixes s kr fht 1 ⟨true, true, false, false, false, false, false, false, .none, .none, ""⟩ 3 0 R
    none (fun i => some (kn i)) rfl (by norm_num) rfl ["2", "1"] rfl
  obtain ⟨o, ho⟩ := h1.mpr ⟨by simp, fun i hi => by
    obtain rfl | rfl : i = 0 ∨ i = 1 := by simp at hi; omega
    · exact ⟨⟨1, by norm_num, by rfl⟩, rfl⟩
    · exact ⟨⟨0, by norm_num, by rfl⟩, rfl⟩⟩
  exact ⟨o, ho, (h2 o ho).2.2.2 0 (by simp) 1 (kn 0) (by norm_num) rfl rfl⟩

end Verif.Modules

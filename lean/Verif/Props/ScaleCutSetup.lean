import Verif.Model.ScaleCutSetup
import Verif.Props.ScaleCuts

/-! Property C154: names of statistics in the options of the legacy scale cuts. -/

namespace Verif.ScaleCuts

open Verif.Lib

/-- the names by which statistics are known to the scale cuts -/
def tags : List String :=
  ["wtheta", "gammat", "gammax", "xip", "xim", "pnn", "pnee", "pneb", "peee", "peeb", "en", "bn", "psi_gm", "psi_gg", "1pt", "all"]

theorem label_keys (o : Opts) : (labels o).map Prod.fst = tags := rfl

theorem lookup_isSome {α : Type} (l : List (String × α)) (k : String) : (l.lookup k).isSome ↔ k ∈ l.map Prod.fst := by
  induction l with
  | nil => simp
  | cons p l ih =>
    rw [List.lookup_cons, List.map_cons, List.mem_cons]
    by_cases h : k = p.1
    · simp [h]
    · have : (k == p.1) = false := by simpa using h
      rw [this]
      simp only [h, false_or]
      exact ih

theorem label_isSome (o : Opts) (k : String) : (label o k).isSome ↔ k ∈ tags := by
  rw [label, lookup_isSome, label_keys]

theorem setup_ok {S : Str} {o : Opts} {d : Disk} {inline : List Entry} {a : Args} {t' : TP} (h : setup S o d inline = .ok (a, t')) :
    ∃ f t l, o "data_and_covariance_fits_filename" = some f ∧ d.fits f = some t ∧ cutOptions o d inline = .ok l ∧ parse { S with lab := label o } l = .ok a ∧
      setupData (label o) a t = .ok t' := by
  unfold setup at h
  cases h1 : o "data_and_covariance_fits_filename" with
  | none => simp [h1] at h
  | some f =>
    cases h2 : cutOptions o d inline with
    | error e => simp [h1, h2, bind, Except.bind] at h
    | ok l =>
      cases h3 : d.fits f with
      | none => simp [h1, h2, h3, bind, Except.bind] at h
      | some t =>
        cases h4 : parse { S with lab := label o } l with
        | error e => simp [h1, h2, h3, h4, bind, Except.bind] at h
        | ok a0 =>
          cases h5 : setupData (label o) a0 t with
          | error e => simp [h1, h2, h3, h4, h5, bind, Except.bind] at h
          | ok t0 =>
            simp only [h1, h2, h3, h4, h5, bind, Except.bind, Except.ok.injEq, Prod.mk.injEq] at h
            obtain ⟨rfl, rfl⟩ := h
            exact ⟨f, t, l, rfl, h3, rfl, h4, h5⟩

theorem setupData_stats {lab : String → Option String} {a : Args} {t t' : TP} (h : setupData lab a t = .ok t') :
    ∃ st, a.stats = some st ∧ ∀ s ∈ st, (lab (lower s)).isSome := by
  unfold setupData at h
  cases h1 : applyOps (opsOf a) t with
  | error e => simp [h1, bind, Except.bind] at h
  | ok t1 =>
    cases h2 : a.stats with
    | none => simp [h1, h2, bind, Except.bind] at h
    | some st =>
      simp only [h1, h2, bind, Except.bind] at h
      split_ifs at h with hl
      exact ⟨st, rfl, hl⟩

/-- C154: once `setup` has passed, every statistic of the theory is named by one of the fixed tags up to case.  A statistic whose extension
has been given another name, which the options offer, is in no theory vector, whatever `use_stats` says. -/
theorem C154_theory_names {S : Str} {o : Opts} {d : Disk} {inline : List Entry} {a : Args} {t' th : TP} {B : String → Option Section}
    {one : Option (List ℝ)} (h : setup S o d inline = .ok (a, t')) (hth : executeTheory o a B one = .ok th) :
    ∀ n ∈ th.specs.map Spec.name, lower n ∈ tags := by
  obtain ⟨f, t, l, -, -, -, -, h5⟩ := setup_ok h
  obtain ⟨st, h1, h2⟩ := setupData_stats h5
  intro n hn
  rw [C123_theory_statistics hth, List.mem_filter] at hn
  have : n ∈ st := by simpa [h1] using hn.2
  exact (label_isSome o _).1 (h2 n this)

/-- C154: a statistic with another name.  The data have it if it is asked for by its tag; the theory does not. -/
theorem C154_renamed {S : Str} {o : Opts} {d : Disk} {inline : List Entry} {a : Args} {t' th : TP} {B : String → Option Section}
    {one : Option (List ℝ)} (h : setup S o d inline = .ok (a, t')) (hth : executeTheory o a B one = .ok th) {f : String} {t : TP}
    (hf : o "data_and_covariance_fits_filename" = some f) (ht : d.fits f = some t) {s c : String} (hs : s ∈ a.stats.getD [])
    (hc : label o (lower s) = some c) (hn : lower c ∉ tags) (hm : c ∈ t.specs.map Spec.name) :
    c ∈ t'.specs.map Spec.name ∧ c ∉ th.specs.map Spec.name := by
  obtain ⟨f', t0, l, hf', ht', -, -, h5⟩ := setup_ok h
  rw [hf, Option.some.injEq] at hf'
  subst hf'
  rw [ht, Option.some.injEq] at ht'
  subst ht'
  obtain ⟨st, h1, h2⟩ := setupData_stats h5
  refine ⟨?_, fun hx => hn (C154_theory_names h hth c hx)⟩
  rw [C123_data_statistics h5 h1, List.mem_filter]
  rw [h1] at hs
  exact ⟨hm, decide_eq_true ⟨s, hs, c, hc, rfl⟩⟩

/-- C154: spelling.  The data take a statistic whatever the case in `use_stats`, the theory only if it is spelt like the extension.  A tag
spelt otherwise is in the data and not in the theory. -/
theorem C154_spelling {S : Str} {o : Opts} {d : Disk} {inline : List Entry} {a : Args} {t' th : TP} {B : String → Option Section}
    {one : Option (List ℝ)} (h : setup S o d inline = .ok (a, t')) (hth : executeTheory o a B one = .ok th) {f : String} {t : TP}
    (hf : o "data_and_covariance_fits_filename" = some f) (ht : d.fits f = some t) {c : String} (hm : c ∈ t.specs.map Spec.name)
    (hl : c ∈ (sections o).map Line.ext) :
    (c ∈ t'.specs.map Spec.name ↔ ∃ s ∈ a.stats.getD [], ∃ c', label o (lower s) = some c' ∧ lower c' = lower c) ∧
    (c ∈ th.specs.map Spec.name ↔ c ∈ a.stats.getD []) := by
  obtain ⟨f', t0, l, hf', ht', -, -, h5⟩ := setup_ok h
  rw [hf, Option.some.injEq] at hf'
  subst hf'
  rw [ht, Option.some.injEq] at ht'
  subst ht'
  obtain ⟨st, h1, h2⟩ := setupData_stats h5
  constructor
  · rw [C123_data_statistics h5 h1, List.mem_filter, h1]
    simp only [Option.getD_some, decide_eq_true_eq]
    exact ⟨fun x => x.2, fun x => ⟨hm, x⟩⟩
  · rw [C123_theory_statistics hth, List.mem_filter]
    simp only [decide_eq_true_eq]
    exact ⟨fun x => x.2, fun x => ⟨hl, x⟩⟩

/-- C154: with the names left alone, a statistic of the list spelt like its extension is in data and theory. -/
theorem C154_default_names {S : Str} {o : Opts} {d : Disk} {inline : List Entry} {a : Args} {t' th : TP} {B : String → Option Section}
    {one : Option (List ℝ)} (ho : ∀ n, o (n ++ "_extension_name") = none) (h : setup S o d inline = .ok (a, t'))
    (hth : executeTheory o a B one = .ok th) {f : String} {t : TP} (hf : o "data_and_covariance_fits_filename" = some f) (ht : d.fits f = some t)
    {c : String} (hc : c ∈ ["wtheta", "gammat", "xip", "xim", "Pnn", "PneE", "PeeE", "Psi_gg", "Psi_gm", "En"]) (hs : c ∈ a.stats.getD [])
    (hm : c ∈ t.specs.map Spec.name) : c ∈ t'.specs.map Spec.name ∧ c ∈ th.specs.map Spec.name := by
  have e : (sections o).map Line.ext = ["wtheta", "gammat", "xip", "xim", "Pnn", "PneE", "PeeE", "Psi_gg", "Psi_gm", "En"] := by
    have h1 := ho "wt"; have h2 := ho "gt"; have h3 := ho "xi_plus"; have h4 := ho "xi_minus"; have h5 := ho "bandpower_clustering"
    have h6 := ho "bandpower_ggl"; have h7 := ho "bandpower_e_cosmic_shear"; have h8 := ho "psi_stats_gg"; have h9 := ho "psi_stats_gm"
    have h10 := ho "cosebis"
    simp only [String.reduceAppend] at h1 h2 h3 h4 h5 h6 h7 h8 h9 h10
    simp only [sections, Opts.get, List.map_cons, List.map_nil, h1, h2, h3, h4, h5, h6, h7, h8, h9, h10, Option.getD_none]
  obtain ⟨i, j⟩ := C154_spelling h hth hf ht hm (by rw [e]; exact hc)
  refine ⟨i.2 ⟨c, hs, ?_⟩, j.2 hs⟩
  have l : labels o = labels fun _ => none := by
    have h1 := ho "wt"; have h2 := ho "gt"; have h3 := ho "xi_plus"; have h4 := ho "xi_minus"; have h5 := ho "bandpower_clustering"
    have h6 := ho "bandpower_ggl"; have h7 := ho "bandpower_e_cosmic_shear"; have h8 := ho "psi_stats_gg"; have h9 := ho "psi_stats_gm"
    have h10 := ho "cosebis"; have h11 := ho "onepoint"
    simp only [String.reduceAppend] at h1 h2 h3 h4 h5 h6 h7 h8 h9 h10 h11
    simp only [labels, Opts.get, h1, h2, h3, h4, h5, h6, h7, h8, h9, h10, h11]
  rw [label, l]
  simp only [List.mem_cons, List.not_mem_nil, or_false] at hc
  rcases hc with rfl | rfl | rfl | rfl | rfl | rfl | rfl | rfl | rfl | rfl 
  · exact ⟨"wtheta", by decide, rfl⟩
  · exact ⟨"gammat", by decide, rfl⟩
  · exact ⟨"xip", by decide, rfl⟩
  · exact ⟨"xim", by decide, rfl⟩
  · exact ⟨"Pnn", by decide, rfl⟩
  · exact ⟨"PneE", by decide, rfl⟩
  · exact ⟨"PeeE", by decide, rfl⟩
  · exact ⟨"Psi_gg", by decide, rfl⟩
  · exact ⟨"Psi_gm", by decide, rfl⟩
  · exact ⟨"En", by decide, rfl⟩

/-- C154: where the cuts come from.  A file of scale cuts replaces all inline options.  A file that does not exist is not noticed as such:
like a section that does not exist it gives a KeyError. -/
theorem C154_source {o : Opts} {d : Disk} {inline : List Entry} :
    (∀ f, o "scale_cuts_filename" = some f → ∀ inline', cutOptions o d inline = cutOptions o d inline') ∧
    (∀ f, o "scale_cuts_filename" = some f → d.cuts f = none → cutOptions o d inline = .error .keyError) ∧
    (o "scale_cuts_filename" = none → ∀ d', ∃ l, cutOptions o d inline = .ok l ∧ cutOptions o d' inline = .ok l ∧
      ∀ e, e ∈ l ↔ e ∈ inline ∧ ∃ w ∈ ["use", "cut", "keep"], ∃ r, e.key = w :: r) := by
  refine ⟨fun f hf inline' => by simp [cutOptions, hf], fun f hf hd => by simp [cutOptions, hf, hd], fun hf d' => ?_⟩
  refine ⟨inline.filter fun e => decide (e.key.headD "" ∈ ["use", "cut", "keep"]), by simp only [cutOptions, hf], by simp only [cutOptions, hf],
    fun e => ?_⟩
  rw [List.mem_filter, decide_eq_true_eq]
  refine and_congr_right fun _ => ?_
  cases hk : e.key with
  | nil => simp
  | cons w r => simp

/-- C154: options that are read and change nothing: the names for B-modes of cosmic shear. -/
theorem C154_b_modes {S : Str} {o o' : Opts} {d : Disk} {inline : List Entry}
    (h : ∀ n, n ≠ "bandpower_b_cosmic_shear_extension_name" → n ≠ "bandpower_b_cosmic_shear_section_name" → o n = o' n) :
    setup S o d inline = setup S o' d inline ∧ executeTheory o = executeTheory o' := by
  have e : ∀ n, n ≠ "bandpower_b_cosmic_shear_extension_name" → n ≠ "bandpower_b_cosmic_shear_section_name" → ∀ x, o.get n x = o'.get n x :=
    fun n h1 h2 x => by rw [Opts.get, Opts.get, h n h1 h2]
  have l : label o = label o' := by
    funext t
    simp only [label, labels]
    rw [e "wt_extension_name" (by decide) (by decide), e "gt_extension_name" (by decide) (by decide), e "xi_plus_extension_name" (by decide) (by decide),
      e "xi_minus_extension_name" (by decide) (by decide), e "bandpower_clustering_extension_name" (by decide) (by decide),
      e "bandpower_ggl_extension_name" (by decide) (by decide), e "bandpower_e_cosmic_shear_extension_name" (by decide) (by decide),
      e "cosebis_extension_name" (by decide) (by decide), e "psi_stats_gm_extension_name" (by decide) (by decide),
      e "psi_stats_gg_extension_name" (by decide) (by decide), e "onepoint_extension_name" (by decide) (by decide)]
  have s : sections o = sections o' := by
    simp only [sections]
    rw [e "wt_extension_name" (by decide) (by decide), e "gt_extension_name" (by decide) (by decide), e "xi_plus_extension_name" (by decide) (by decide),
      e "xi_minus_extension_name" (by decide) (by decide), e "bandpower_clustering_extension_name" (by decide) (by decide),
      e "bandpower_ggl_extension_name" (by decide) (by decide), e "bandpower_e_cosmic_shear_extension_name" (by decide) (by decide),
      e "cosebis_extension_name" (by decide) (by decide), e "psi_stats_gm_extension_name" (by decide) (by decide),
      e "psi_stats_gg_extension_name" (by decide) (by decide), e "wt_section_name" (by decide) (by decide), e "gt_section_name" (by decide) (by decide),
      e "xi_plus_section_name" (by decide) (by decide), e "xi_minus_section_name" (by decide) (by decide),
      e "bandpower_clustering_section_name" (by decide) (by decide), e "bandpower_ggl_section_name" (by decide) (by decide),
      e "bandpower_e_cosmic_shear_section_name" (by decide) (by decide), e "cosebis_section_name" (by decide) (by decide),
      e "psi_stats_gm_section_name" (by decide) (by decide), e "psi_stats_gg_section_name" (by decide) (by decide)]
  constructor
  · simp only [setup, cutOptions, l, h "data_and_covariance_fits_filename" (by decide) (by decide), h "scale_cuts_filename" (by decide) (by decide),
      e "scale_cuts_option" (by decide) (by decide)]
  · funext a B one
    simp only [executeTheory, s, oneName, e "onepoint_extension_name" (by decide) (by decide)]

/-! ## examples -/

/-- the string functions do not matter for `use_stats` -/
def exampleStr : Str := ⟨fun _ => none, fun _ => none, fun w => [w], fun _ => none⟩

/-- `xip` in one bin -/
def oneBin (name : String) : TP := ⟨[⟨name, [⟨⟨1, 1, 2⟩, 10⟩]⟩], [], none⟩

/-- a file of measurements and no file of scale cuts -/
def exampleDisk (name : String) : Disk := ⟨fun _ => none, fun f => if f = "data.fits" then some (oneBin name) else none⟩

/-- the options: the file of measurements, and another name for `xip` if wanted -/
def exampleOpts (name : Option String) : Opts := fun n =>
  if n = "data_and_covariance_fits_filename" then some "data.fits" else if n = "xi_plus_extension_name" then name else none

/-- `use_stats = s` and an option that does not concern the cuts -/
def exampleInline (s : String) : List Entry := [⟨["simulate"], false, ["F"]⟩, ⟨["use", "stats"], false, [s]⟩]

/-- theory for `xip` in one bin -/
def exampleTheory : String → Option Section := fun s =>
  if s = "shear_xi_plus" then some ⟨[2], fun a b => if a = 1 ∧ b = 1 then some [5] else none⟩ else none

theorem example_setup (name : Option String) (c s : String) (hc : lower c = lower (name.getD "xip")) (hs : lower s = "xip") :
    setup exampleStr (exampleOpts name) (exampleDisk c) (exampleInline s) = .ok (⟨some [s], false, [], [], [], []⟩, oneBin c) := by
  have h1 : exampleOpts name "data_and_covariance_fits_filename" = some "data.fits" := by simp [exampleOpts]
  have h2 : cutOptions (exampleOpts name) (exampleDisk c) (exampleInline s) = .ok [⟨["use", "stats"], false, [s]⟩] := by
    simp [cutOptions, exampleOpts, exampleInline]
  have h3 : (exampleDisk c).fits "data.fits" = some (oneBin c) := by simp [exampleDisk]
  have h4 : ∀ S : Str, parse S [⟨["use", "stats"], false, [s]⟩] = .ok ⟨some [s], false, [], [], [], []⟩ := fun S => by
    simp [parse, parseAll, parseOne]
  have hl : label (exampleOpts name) "xip" = some (name.getD "xip") := by
    simp [label, labels, Opts.get, exampleOpts, List.lookup]
  have h5 : setupData (label (exampleOpts name)) ⟨some [s], false, [], [], [], []⟩ (oneBin c) = .ok (oneBin c) := by
    simp [setupData, opsOf, applyOps, choose, oneBin, bind, Except.bind, hs, hl, hc, maskCov]
  simp only [setup, h1, h2, h3, h4, h5, bind, Except.bind]

/-- with the default name, spelt as it is, data and theory have the statistic -/
example : ∃ th, executeTheory (exampleOpts none) ⟨some ["xip"], false, [], [], [], []⟩ exampleTheory none = .ok th ∧
    "xip" ∈ th.specs.map Spec.name := by
  have ho : outer ⟨[2], fun a b => if a = 1 ∧ b = 1 then some [5] else none⟩ false 1000 0 = [⟨⟨1, 1, 2⟩, 5⟩] := by
    simp [outer, inner, tomo]
  refine ⟨⟨[⟨"xip", [⟨⟨1, 1, 2⟩, 5⟩]⟩], [], none⟩, ?_, by simp⟩
  simp [executeTheory, theory, sections, oneName, Opts.get, exampleOpts, gather, gatherOne, exampleTheory, ho, bind, Except.bind, opsOf, applyOps]

/-- renamed, or spelt in another case, only the data have it -/
example : ∃ a t' th, setup exampleStr (exampleOpts (some "xi_p")) (exampleDisk "xi_p") (exampleInline "xip") = .ok (a, t') ∧
    executeTheory (exampleOpts (some "xi_p")) a exampleTheory none = .ok th ∧ "xi_p" ∈ t'.specs.map Spec.name ∧ "xi_p" ∉ th.specs.map Spec.name := by
  have h := example_setup (some "xi_p") "xi_p" "xip" rfl (by decide)
  have hth : executeTheory (exampleOpts (some "xi_p")) ⟨some ["xip"], false, [], [], [], []⟩ exampleTheory none = .ok ⟨[], [], none⟩ := by
    simp [executeTheory, theory, sections, oneName, Opts.get, exampleOpts, gather, gatherOne, bind, Except.bind, opsOf, applyOps]
  refine ⟨_, _, _, h, hth, ?_⟩
  refine C154_renamed h hth (f := "data.fits") (t := oneBin "xi_p") (by simp [exampleOpts]) (by simp [exampleDisk]) (s := "xip") (by simp) ?_ (by decide)
    (by simp [oneBin])
  have : lower "xip" = "xip" := by decide
  rw [this]
  simp [label, labels, Opts.get, exampleOpts, List.lookup]

example : ∃ a t' th, setup exampleStr (exampleOpts none) (exampleDisk "xip") (exampleInline "xiP") = .ok (a, t') ∧
    executeTheory (exampleOpts none) a exampleTheory none = .ok th ∧ "xip" ∈ t'.specs.map Spec.name ∧ "xip" ∉ th.specs.map Spec.name := by
  have h := example_setup none "xip" "xiP" rfl (by decide)
  have hth : executeTheory (exampleOpts none) ⟨some ["xiP"], false, [], [], [], []⟩ exampleTheory none = .ok ⟨[], [], none⟩ := by
    simp [executeTheory, theory, sections, oneName, Opts.get, exampleOpts, gather, gatherOne, bind, Except.bind, opsOf, applyOps]
  exact ⟨_, _, _, h, hth, by simp [oneBin], by simp⟩

end Verif.ScaleCuts

import Verif.Model.Config
import Verif.Props.PkDemo

/-! Properties C26, C27: validation and rejected updates. -/

namespace Verif.Config

open Verif.Lib

/-- the modes a user may ask for -/
def SupportedMode (m : Option String) : Prop :=
  m = none ∨ m = some "bnl" ∨ m = some "hmcode" ∨ m = some "fortuna"

/-- the ingredients a user may ask for -/
def SupportedIngr (i : Option String) : Prop :=
  i = none ∨ i = some "mead2020" ∨ i = some "mead2020_feedback" ∨ i = some "fit"

theorem mem_modes (m : Option String) : m ∈ NONLINEAR_MODES ↔ SupportedMode m := by
  simp only [NONLINEAR_MODES, SupportedMode, List.mem_cons, List.not_mem_nil, or_false]
  tauto

theorem mem_ingr (m : Option String) : m ∈ VALID_HMCODE_INGREDIENTS ↔ SupportedIngr m := by
  simp only [VALID_HMCODE_INGREDIENTS, SupportedIngr, List.mem_cons, List.not_mem_nil, or_false]
  tauto

theorem validate_ok_iff (c : Conf) (hi : SupportedIngr c.ingr) :
    validate c = .ok () ↔
      (c.mode = some "hmcode" → c.ingr = some "mead2020" ∨ c.ingr = some "mead2020_feedback") := by
  unfold validate
  by_cases hm : c.mode = some "hmcode"
  · rcases hi with h | h | h | h <;> simp [hm, h]
  · simp [hm]

theorem validate_err (c : Conf) : validate c = .ok () ∨ validate c = .error .valueError := by
  unfold validate
  split_ifs <;> simp

/-- C26: construction succeeds exactly for supported values with `hmcode` mode only on top of mead2020
ingredients; the object stores the given values, and every refusal is a ValueError. -/
theorem C26_accepted_iff (m i : Option String) :
    (construct m i = .ok ⟨m, i⟩ ↔ SupportedMode m ∧ SupportedIngr i ∧
      (m = some "hmcode" → i = some "mead2020" ∨ i = some "mead2020_feedback")) ∧
    (construct m i = .ok ⟨m, i⟩ ∨ construct m i = .error .valueError) := by
  unfold construct setIngr setMode
  by_cases hi : i ∈ VALID_HMCODE_INGREDIENTS
  · by_cases hm : m ∈ NONLINEAR_MODES
    · have hi' := (mem_ingr i).1 hi
      have hm' := (mem_modes m).1 hm
      have hv := validate_ok_iff ⟨m, i⟩ hi'
      rcases validate_err ⟨m, i⟩ with h | h
      · simp only [h, true_iff] at hv
        simp [hi, hm, h, bind, Except.bind, pure, Except.pure, hi', hm']
        simpa using hv
      · have hv' := hv.not.1 (by simp [h])
        simp [hi, hm, h, bind, Except.bind, hi', hm']
        simpa using hv'
    · have hm' := (mem_modes m).not.1 hm
      simp [hi, hm, bind, Except.bind, hm']
  · have hi' := (mem_ingr i).not.1 hi
    simp [hi, bind, Except.bind, hi']

example : construct (some "hmcode") (some "mead2020_feedback") = .ok ⟨some "hmcode", some "mead2020_feedback"⟩ ∧
    construct (some "hmcode") (some "fit") = .error .valueError ∧
    construct (some "HMcode") none = .error .valueError := by decide

theorem raw_ok_iff (c : Conf) (s : Pk.Spectra) (hm : SupportedMode c.mode) (hi : SupportedIngr c.ingr) :
    ((c.mode = some "hmcode" → c.ingr = some "mead2020" ∨ c.ingr = some "mead2020_feedback") →
      ∃ r, (withConf c s).powerSpectrumMmRaw = .ok r) ∧
    (¬ (c.mode = some "hmcode" → c.ingr = some "mead2020" ∨ c.ingr = some "mead2020_feedback") →
      (withConf c s).powerSpectrumMmRaw = .error .unboundLocal) := by
  obtain ⟨m, i⟩ := c
  rcases hm with h | h | h | h <;> rcases hi with h' | h' | h' | h' <;> simp only at h h' <;> subst h h' <;>
    simp [withConf, modeOf, ingrOf, Pk.Spectra.powerSpectrumMmRaw]

/-- C26: for every accepted configuration, whatever the rest of the object, the matter spectrum is computed. -/
theorem C26_accepted_computes (m i : Option String) (c : Conf) (h : construct m i = .ok c) (s : Pk.Spectra) :
    (∃ r, (withConf c s).powerSpectrumMmRaw = .ok r) ∧ ∃ r, (withConf c s).powerSpectrumMm = .ok r := by
  have h1 := C26_accepted_iff m i
  have hc : c = ⟨m, i⟩ := by
    rcases h1.2 with h2 | h2 <;> rw [h2] at h
    · injection h with h; exact h.symm
    · cases h
  subst hc
  obtain ⟨hm, hi, hv⟩ := h1.1.1 h
  have := (raw_ok_iff ⟨m, i⟩ s hm hi).1 hv
  refine ⟨this, ?_⟩
  unfold Pk.Spectra.powerSpectrumMm
  split_ifs
  · exact ⟨_, rfl⟩
  · exact this

/-- C26: every accepted option takes effect: the two-halo matter power and the matter-alignment power are those of the mode asked
for, and the profile in the one-halo matter power is that of the ingredients asked for. -/
theorem C26_option_takes_effect (m i : Option String) (c : Conf) (h : construct m i = .ok c) (s : Pk.Spectra)
    (hs : s.response = false) :
    ∃ mm mi, (withConf c s).powerSpectrumMm = .ok mm ∧ (withConf c s).powerSpectrumMi = .ok mi ∧ ∀ b z k,
      (m = some "bnl" → mm.pk2h b z k = s.pkLin z k * (s.imTerm z k ^ 2
        + s.iNL (s.matterProfile2h z k) (s.matterProfile2h z k) z k)) ∧
      (m = some "hmcode" → mm.pk2h b z k = s.pkLin z k * s.twoHaloTruncationMead z k ∧
        mm.pkTot b z k = s.transitionSmoothing z k (mm.pk1h b z k) (mm.pk2h b z k)) ∧
      (m = none ∨ m = some "fortuna" → mm.pk2h b z k = s.pkLin z k * s.imTerm z k ^ 2 * s.twoHaloTruncation k) ∧
      (m = some "fortuna" →
        mi.pk2h b z k = s.fC b z * ((1 - s.tEff) * s.pkNl z k + s.tEff * s.pkLin z k) * s.alignmentAmplitude2h z
          * s.twoHaloTruncationIa k) ∧
      (m = none ∨ m = some "hmcode" → mi.pk2h b z k =
        -(s.pkLin z k * (s.icAlignTerm b z k + s.isAlignTerm b z k) * s.imTerm z k * s.twoHaloTruncationIa k)) ∧
      ∃ u : ℕ → ℝ, mm.pk1h b z k = simpson s.nm s.mass (fun j => u j * u j * s.dndlnm z j / s.mass j)
          * (if m = some "hmcode" then s.oneHaloTruncationMead z k else s.oneHaloTruncation k) ∧
        (i = none ∨ i = some "mead2020" → u = s.matterProfile z k) ∧
        (i = some "mead2020_feedback" → u = s.matterProfileWithFeedback z k) ∧
        (i = some "fit" → u = s.matterProfileFit (fun _ => s.fstarMm) 0 z k) := by
  have h1 := C26_accepted_iff m i
  have hc : c = ⟨m, i⟩ := by
    rcases h1.2 with h2 | h2 <;> rw [h2] at h
    · injection h with h; exact h.symm
    · cases h
  subst hc
  obtain ⟨hm, hi, hv⟩ := h1.1.1 h
  have e1 : (withConf ⟨m, i⟩ s).response = false := hs
  obtain ⟨mm, hmm⟩ := (raw_ok_iff ⟨m, i⟩ s hm hi).1 hv
  refine ⟨mm, (withConf ⟨m, i⟩ s).powerSpectrumMiRaw, ?_, ?_, fun b z k => ?_⟩
  · unfold Pk.Spectra.powerSpectrumMm
    rw [e1]; exact hmm
  · unfold Pk.Spectra.powerSpectrumMi Pk.Spectra.applyResponse
    rw [e1]; rfl
  · have hu : ∃ u, u = (withConf ⟨m, i⟩ s).matterProfile1hMm z k ∧
        (i = none ∨ i = some "mead2020" → u = s.matterProfile z k) ∧
        (i = some "mead2020_feedback" → u = s.matterProfileWithFeedback z k) ∧
        (i = some "fit" → u = s.matterProfileFit (fun _ => s.fstarMm) 0 z k) := by
      refine ⟨_, rfl, ?_⟩
      rcases hi with h' | h' | h' | h' <;> subst h' <;> refine ⟨fun g => ?_, fun g => ?_, fun g => ?_⟩ <;>
        first | rfl | (exfalso; revert g; decide)
    obtain ⟨u, hu, hu'⟩ := hu
    rcases hm with h' | h' | h' | h' <;> subst h'
    · cases hmm
      refine ⟨fun g => absurd g (by decide), fun g => absurd g (by decide), fun _ => ?_, fun g => absurd g (by decide), fun _ => ?_, u, ?_, hu'⟩
      · show s.pkLin z k * s.imTerm z k * s.imTerm z k * s.twoHaloTruncation k = _
        ring
      · show -1 * s.pkLin z k * s.icAlignTerm b z k * s.imTerm z k * s.twoHaloTruncationIa k
          + -1 * s.pkLin z k * s.isAlignTerm b z k * s.imTerm z k * s.twoHaloTruncationIa k = _
        ring
      · rw [hu, if_neg (by decide)]; rfl
    · cases hmm
      refine ⟨fun _ => ?_, fun g => absurd g (by decide), fun g => absurd g (by decide), fun g => absurd g (by decide), fun g => absurd g (by decide), u, ?_, hu'⟩
      · show s.pkLin z k * s.imTerm z k * s.imTerm z k
          + s.pkLin z k * s.iNL (s.matterProfile2h z k) (s.matterProfile2h z k) z k = _
        ring
      · rw [hu, if_neg (by decide)]; rfl
    · rcases hv rfl with h' | h' <;> subst h' <;> cases hmm
      all_goals
        refine ⟨fun g => absurd g (by decide), fun _ => ⟨rfl, rfl⟩, fun g => absurd g (by decide), fun g => absurd g (by decide), fun _ => ?_, u, ?_, hu'⟩
        · show -1 * s.pkLin z k * s.icAlignTerm b z k * s.imTerm z k * s.twoHaloTruncationIa k
            + -1 * s.pkLin z k * s.isAlignTerm b z k * s.imTerm z k * s.twoHaloTruncationIa k = _
          ring
        · rw [hu, if_pos rfl]; rfl
    · cases hmm
      refine ⟨fun g => absurd g (by decide), fun g => absurd g (by decide), fun _ => ?_, fun _ => ?_, fun g => absurd g (by decide), u, ?_, hu'⟩
      · show s.pkLin z k * s.imTerm z k * s.imTerm z k * s.twoHaloTruncation k = _
        ring
      · have : (withConf ⟨some "fortuna", i⟩ s).peffVal z k = (1 - s.tEff) * s.pkNl z k + s.tEff * s.pkLin z k := by
          unfold Pk.Spectra.peffVal Pk.Spectra.peff
          rw [if_pos (show (withConf ⟨some "fortuna", i⟩ s).nonlinearMode = .fortuna from rfl)]; rfl
        rw [← this]; rfl
      · rw [hu, if_neg (by decide)]; rfl

example : construct (some "fortuna") (some "fit") = .ok ⟨some "fortuna", some "fit"⟩ ∧ Pk.demo.response = false :=
  ⟨by decide, rfl⟩

/-- C26: every refused combination of supported values is one for which the matter spectrum would read a
variable that was never assigned, so the validation refuses nothing that would have worked. -/
theorem C26_rejected_would_fail (m i : Option String) (hm : SupportedMode m) (hi : SupportedIngr i)
    (h : construct m i ≠ .ok ⟨m, i⟩) (s : Pk.Spectra) :
    (withConf ⟨m, i⟩ s).powerSpectrumMmRaw = .error .unboundLocal := by
  refine (raw_ok_iff ⟨m, i⟩ s hm hi).2 fun hv => h ?_
  exact (C26_accepted_iff m i).1.2 ⟨hm, hi, hv⟩

example : construct (some "hmcode") none ≠ .ok ⟨some "hmcode", none⟩ := by decide

/-! ## C27 -/

/-- the values stored by assignments that the setters accept, last one wins -/
def applyAll (c : Conf) : List Assign → Conf
  | [] => c
  | .mode v :: as => applyAll { c with mode := v } as
  | .ingr v :: as => applyAll { c with ingr := v } as
  | .other :: as => applyAll c as

/-- the setters accept the value -/
def Supported : Assign → Prop
  | .mode v => SupportedMode v
  | .ingr v => SupportedIngr v
  | .other => True

theorem update_supported (as : List Assign) : ∀ (c : Conf), (∀ a ∈ as, Supported a) →
    update c as = (applyAll c as, validate (applyAll c as)) := by
  induction as with
  | nil => intro c _; rfl
  | cons a as ih =>
    intro c h
    have ha := h a (by simp)
    have := fun c => ih c fun a h' => h a (by simp [h'])
    cases a with
    | mode v => simp [update, assign, setMode, (mem_modes v).2 ha, this, applyAll]
    | ingr v => simp [update, assign, setIngr, (mem_ingr v).2 ha, this, applyAll]
    | other => simp [update, assign, this, applyAll]

/-- C27: whether or not an update of supported values is refused, the object afterwards holds all the values
that were passed. -/
theorem C27_not_rolled_back (c : Conf) (as : List Assign) (h : ∀ a ∈ as, Supported a) :
    (update c as).1 = applyAll c as := by
  rw [update_supported as c h]

/-- C27: whenever such an update raises, the object left behind is one whose matter spectrum fails with an
unassigned variable (no ValueError any more), for every object and every update. -/
theorem C27_object_left_broken (m i : Option String) (c : Conf) (hc : construct m i = .ok c)
    (as : List Assign) (h : ∀ a ∈ as, Supported a) (e : PyErr) (he : (update c as).2 = .error e)
    (s : Pk.Spectra) :
    e = .valueError ∧ (withConf (update c as).1 s).powerSpectrumMmRaw = .error .unboundLocal := by
  have key : ∀ (as : List Assign) (c : Conf), SupportedMode c.mode → SupportedIngr c.ingr →
      (∀ a ∈ as, Supported a) → SupportedMode (applyAll c as).mode ∧ SupportedIngr (applyAll c as).ingr := by
    intro as
    induction as with
    | nil => intro c h1 h2 _; exact ⟨h1, h2⟩
    | cons a as ih =>
      intro c h1 h2 h
      have ha := h a (by simp)
      have hr : ∀ a ∈ as, Supported a := fun a h' => h a (by simp [h'])
      cases a with
      | mode v => exact ih _ ha h2 hr
      | ingr v => exact ih _ h1 ha hr
      | other => exact ih _ h1 h2 hr
  have h1 := C26_accepted_iff m i
  have hc' : c = ⟨m, i⟩ := by
    rcases h1.2 with h2 | h2 <;> rw [h2] at hc
    · injection hc with h; exact h.symm
    · cases hc
  subst hc'
  obtain ⟨hm, hi, -⟩ := h1.1.1 hc
  obtain ⟨k1, k2⟩ := key as ⟨m, i⟩ hm hi h
  rw [update_supported as _ h] at he ⊢
  simp only at he ⊢
  constructor
  · rcases validate_err (applyAll ⟨m, i⟩ as) with h | h <;> rw [h] at he
    · cases he
    · injection he with he; exact he.symm
  · refine (raw_ok_iff _ s k1 k2).2 fun hv => ?_
    rw [(validate_ok_iff _ k2).2 hv] at he
    cases he

/-- a plain object, `update(nonlinear_mode='hmcode')`: refused, and the matter spectrum is now broken -/
example : construct none none = .ok ⟨none, none⟩ ∧
    (update ⟨none, none⟩ [.mode (some "hmcode")]).2 = .error .valueError ∧
    (withConf (update ⟨none, none⟩ [.mode (some "hmcode")]).1 Pk.demo).powerSpectrumMm
      = .error .unboundLocal := by
  refine ⟨by decide, by decide, ?_⟩
  simp [update, assign, setMode, NONLINEAR_MODES, withConf, modeOf, ingrOf, Pk.demo,
    Pk.Spectra.powerSpectrumMm, Pk.Spectra.powerSpectrumMmRaw]

/-- C27: an update with an unsupported value stores the arguments before it and not the ones from it on. -/
theorem C27_setter_refusal (c : Conf) (as bs : List Assign) (a : Assign) (h : ∀ a ∈ as, Supported a)
    (ha : ¬ Supported a) :
    update c (as ++ a :: bs) = (applyAll c as, .error .valueError) := by
  induction as generalizing c with
  | nil =>
    cases a with
    | mode v => simp [update, assign, setMode, (mem_modes v).not.2 ha, applyAll]
    | ingr v => simp [update, assign, setIngr, (mem_ingr v).not.2 ha, applyAll]
    | other => exact absurd trivial ha
  | cons x as ih =>
    have hx := h x (by simp)
    have ih' := fun c => ih c fun a h' => h a (by simp [h'])
    cases x with
    | mode v => simp [update, assign, setMode, (mem_modes v).2 hx, ih', applyAll]
    | ingr v => simp [update, assign, setIngr, (mem_ingr v).2 hx, ih', applyAll]
    | other => simp [update, assign, ih', applyAll]

/-- here the ingredients stay assigned although the call raised -/
example : update ⟨none, none⟩ [.ingr (some "mead2020"), .mode (some "HMCode"), .ingr none]
    = (⟨none, some "mead2020"⟩, .error .valueError) := by decide

/-- C27: an object that has only seen successful updates never has the problem: after any sequence of
updates, each of which returned normally, the matter spectrum is computed. -/
theorem C27_successful_updates_safe (m i : Option String) (c : Conf) (hc : construct m i = .ok c)
    (us : List (List Assign)) :
    let final := us.foldl (fun r u => (r.bind fun c => if (update c u).2 = .ok () then some (update c u).1 else none))
      (some c)
    ∀ c', final = some c' → ∀ s : Pk.Spectra, ∃ r, (withConf c' s).powerSpectrumMmRaw = .ok r := by
  intro final c' hf s
  let Good : Conf → Prop := fun c => SupportedMode c.mode ∧ SupportedIngr c.ingr ∧
    (c.mode = some "hmcode" → c.ingr = some "mead2020" ∨ c.ingr = some "mead2020_feedback")
  have hstep : ∀ (u : List Assign) (c : Conf), SupportedMode c.mode → SupportedIngr c.ingr →
      (update c u).2 = .ok () → Good (update c u).1 := by
    intro u
    induction u with
    | nil => intro c h1 h2 h; exact ⟨h1, h2, (validate_ok_iff c h2).1 h⟩
    | cons a as ih =>
      intro c h1 h2 h
      cases a with
      | mode v =>
        by_cases hv : v ∈ NONLINEAR_MODES
        · simp only [update, assign, setMode, hv, if_true] at h ⊢
          exact ih _ ((mem_modes v).1 hv) h2 h
        · simp [update, assign, setMode, hv] at h
      | ingr v =>
        by_cases hv : v ∈ VALID_HMCODE_INGREDIENTS
        · simp only [update, assign, setIngr, hv, if_true] at h ⊢
          exact ih _ h1 ((mem_ingr v).1 hv) h
        · simp [update, assign, setIngr, hv] at h
      | other => exact ih _ h1 h2 h
  have hall : ∀ (us : List (List Assign)) (o : Option Conf), (∀ c, o = some c → Good c) →
      ∀ c', us.foldl (fun r u => (r.bind fun c => if (update c u).2 = .ok () then some (update c u).1 else none)) o
        = some c' → Good c' := by
    intro us
    induction us with
    | nil => intro o h c' h'; exact h c' h'
    | cons u us ih =>
      intro o h c' h'
      refine ih _ ?_ c' h'
      intro c hc
      cases o with
      | none => cases hc
      | some c0 =>
        simp only [Option.bind_some] at hc
        split_ifs at hc with hu
        injection hc with hc
        subst hc
        exact hstep u c0 (h c0 rfl).1 (h c0 rfl).2.1 hu
  have h1 := C26_accepted_iff m i
  have hc' : c = ⟨m, i⟩ := by
    rcases h1.2 with h2 | h2 <;> rw [h2] at hc
    · injection hc with h; exact h.symm
    · cases hc
  subst hc'
  have hg := hall us (some ⟨m, i⟩) (fun c h => by injection h with h; subst h; exact h1.1.1 hc) c' hf
  exact (raw_ok_iff c' s hg.1 hg.2.1).1 hg.2.2

end Verif.Config

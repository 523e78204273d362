import Verif.Props.MassDependence
import Verif.Props.PkIdentities

/-!
Property C168: what the growth factor, and its normalisation, does to the spectra.
-/

namespace Verif.Pk.GrowthNormalisation

open Verif.Lib Verif.Pk.Spectra Verif.Pk.MassDependence

/-- the object with another growth factor -/
def grown (s : Spectra) (D : ℕ → ℝ) : Spectra := { s with growthFactor := D }

variable {s : Spectra}

section
variable (D D' : ℕ → ℝ) (b z : ℕ)

theorem cen (m : ℝ) (h : D z ≠ 0) (h' : D' z ≠ 0) (k : ℕ) :
    (grown s D').centralAlignmentProfile b z k = (aligned (D z / D' z) m (grown s D)).centralAlignmentProfile b z k := by
  funext i
  rw [central_aligned]
  beta_reduce
  have e : ∀ D : ℕ → ℝ, (grown s D).centralAlignmentProfile b z k i =
      s.fC b z * (s.c1 z / D z) * s.mass i * additionalTerm s.betaCen s.mpivotCen (s.massAvg b z) := fun _ => rfl
  rw [e, e]
  field_simp

theorem icA (m : ℝ) (h : D z ≠ 0) (h' : D' z ≠ 0) (k : ℕ) :
    (grown s D').icAlignTerm b z k = (aligned (D z / D' z) m (grown s D)).icAlignTerm b z k := by
  unfold icAlignTerm
  rw [cen D D' b z m h h' k]
  rfl

theorem sat (l : ℝ) (k : ℕ) : (grown s D').satelliteAlignmentProfile b z k = (aligned l 1 (grown s D)).satelliteAlignmentProfile b z k := by
  rw [satellite_aligned]
  funext i
  rw [one_mul]
  rfl

theorem isA (l : ℝ) (k : ℕ) : (grown s D').isAlignTerm b z k = (aligned l 1 (grown s D)).isAlignTerm b z k := by
  unfold isAlignTerm
  rw [sat D D' b z l k]
  rfl

theorem raws (h : D z ≠ 0) (h' : D' z ≠ 0) : ∀ f ∈ [powerSpectrumMiRaw, powerSpectrumIiRaw, powerSpectrumGiRaw],
    SameAt (f (grown s D')) (f (aligned (D z / D' z) 1 (grown s D))) b z := by
  have hmX : (grown s D').nonlinearMode = s.nonlinearMode := rfl
  have hmY : ∀ l m, (aligned l m (grown s D)).nonlinearMode = s.nonlinearMode := fun _ _ => rfl
  have a1 : (aligned (D z / D' z) 1 (grown s D)).alignmentAmplitude2h z = (grown s D').alignmentAmplitude2h z := by
    simp only [alignmentAmplitude2h, c1, aligned, grown]
    field_simp
  have a2 : (aligned (D z / D' z) 1 (grown s D)).alignmentAmplitude2hII z = (grown s D').alignmentAmplitude2hII z := by
    simp only [alignmentAmplitude2hII, c1, aligned, grown]
    congr 1
    field_simp
  have h1 := sat (s := s) D D' b z (D z / D' z)
  have h2 := cen (s := s) D D' b z 1 h h'
  have h3 := isA (s := s) D D' b z (D z / D' z)
  have h4 := icA (s := s) D D' b z 1 h h'
  simp only [List.forall_mem_cons, List.not_mem_nil, false_implies, implies_true, and_true, SameAt]
  cases hm : s.nonlinearMode with
  | none | hmcode | bnl | fortuna =>
    rw [hm] at hmX
    simp only [hm] at hmY
    refine ⟨fun k => ?_, fun k => ?_, fun k => ?_⟩
    · simp only [powerSpectrumMiRaw, hmX, hmY, h1, h2, h3, h4, a1]
      exact ⟨rfl, rfl, rfl⟩
    · simp only [powerSpectrumIiRaw, hmX, hmY, h1, h2, h3, h4, a2]
      exact ⟨rfl, rfl, rfl⟩
    · simp only [powerSpectrumGiRaw, hmX, hmY, h1, h2, h3, h4, a1]
      exact ⟨rfl, rfl, rfl⟩

end

/-- C168: given the other ingredients the growth factor is seen by the alignment of the centrals only, as the inverse of an amplitude: at each redshift the alignment
spectra made with the growth factor `D'` are those made with `D` and the central amplitude multiplied by `D / D'`, in every mode and with or without response; matter,
clustering and lensing do not see it. -/
theorem C168_amplitude (D D' : ℕ → ℝ) :
    (∀ f ∈ [powerSpectrumMm, powerSpectrumGg, powerSpectrumGm], f (grown s D') = f (grown s D)) ∧
    (∀ f ∈ [powerSpectrumMi, powerSpectrumIi, powerSpectrumGi], ∀ b z, D z ≠ 0 → D' z ≠ 0 → ∀ r, f (grown s D') = .ok r →
      ∃ r', f (aligned (D z / D' z) 1 (grown s D)) = .ok r' ∧ SameAt r r' b z) := by
  constructor
  · simp only [List.forall_mem_cons, List.not_mem_nil, false_implies, implies_true, and_true]
    exact ⟨rfl, rfl, rfl⟩
  · have key : ∀ b z, ∀ q q' : PkResult, SameAt q q' b z → ∀ r, (grown s D').applyResponse q = .ok r →
        ∀ l m, ∃ r', (aligned l m (grown s D)).applyResponse q' = .ok r' ∧ SameAt r r' b z := by
      intro b z q q' hq r hr l m
      obtain ⟨f, e, h⟩ := respond_eq (grown s D') q r hr
      refine ⟨_, h q', fun k => ?_⟩
      rw [e]
      obtain ⟨u, v, w⟩ := hq k
      exact ⟨by simp only [u], by simp only [v], by simp only [w]⟩
    have hraw := fun b z h h' => raws (s := s) D D' b z h h'
    simp only [List.forall_mem_cons, List.not_mem_nil, false_implies, implies_true, and_true] at hraw ⊢
    exact ⟨fun b z h h' r hr => key b z _ _ (hraw b z h h').1 r hr _ _, fun b z h h' r hr => key b z _ _ (hraw b z h h').2.1 r hr _ _,
      fun b z h h' r hr => key b z _ _ (hraw b z h h').2.2 r hr _ _⟩

/-- C168: the normalisation of the growth factor is a convention: with `c` times the growth factor all alignment spectra are those of the central amplitude divided by
`c`, in all bins and at all redshifts at once. -/
theorem C168_normalisation {D : ℕ → ℝ} {c : ℝ} (hc : c ≠ 0) (hD : ∀ z, D z ≠ 0) :
    ∀ f ∈ [powerSpectrumMi, powerSpectrumIi, powerSpectrumGi], ∀ r, f (grown s fun z => c * D z) = .ok r →
      ∃ r', f (aligned (1 / c) 1 (grown s D)) = .ok r' ∧ ∀ b z, SameAt r r' b z := by
  intro f hf r hr
  have e : ∀ z, D z / (c * D z) = 1 / c := fun z => by
    have := hD z
    field_simp
  have h := fun b z => (C168_amplitude (s := s) D fun z => c * D z).2 f hf b z (hD z) (mul_ne_zero hc (hD z)) r hr
  simp only [e] at h
  obtain ⟨r', h', _⟩ := h 0 0
  refine ⟨r', h', fun b z => ?_⟩
  obtain ⟨r'', h'', w⟩ := h b z
  rw [h'] at h''
  cases h''
  exact w

/-- C168: alignments are frozen in. If the linear power grows with the square of the growth factor and only centrals are aligned, the 2-halo power of the shapes of
centrals in the plain mode does not grow at all: it is the initial power times the squared amplitude, whatever the growth; that of matter and shapes grows like
the growth factor. -/
theorem C168_frozen (hmode : s.nonlinearMode = .none) (hresp : s.response = false) {D : ℕ → ℝ} {P0 : ℕ → ℝ} (hD : ∀ z, D z ≠ 0)
    (hm : ∀ m < s.nm, s.mass m ≠ 0) (hnm : 0 < s.nm) (hρ : ∀ z, s.meanDensity0 z ≠ 0) (hs : ∀ z k m, s.wkmSat z k m = 0) :
    let t : Spectra := { grown s D with pkLin := fun z k => D z ^ 2 * P0 k }
    let A := fun b z => s.fC b z * (5e-14 * s.alignmentGi z) * s.meanDensity0 z * factor s s.betaCen s.mpivotCen b z
    (∃ r, t.powerSpectrumIi = .ok r ∧ ∀ b z k, r.pk2h b z k = P0 k * A b z ^ 2 * s.twoHaloTruncationIa k) ∧
    (∃ r, t.powerSpectrumMi = .ok r ∧ ∀ b z k, r.pk2h b z k = -(D z * (P0 k * A b z * s.imTerm z k * s.twoHaloTruncationIa k))) := by
  intro t A
  have hr : t.response = false := hresp
  have hM : t.nonlinearMode = .none := hmode
  have zero : ∀ b z k, t.isAlignTerm b z k = 0 := fun b z k => by
    have e : t.satelliteAlignmentProfile b z k = fun _ => 0 := funext fun m => by
      have : t.wkmSat z k m = 0 := hs z k m
      rw [satelliteAlignmentProfile, this]
      simp
    rw [isAlignTerm, e, computeIgTerm]
    simp [simpson_zero]
  have cenA : ∀ b z k, t.icAlignTerm b z k = A b z / D z := fun b z k => by
    rw [C08_central_alignment_exact t b z k hm hnm (hρ z)]
    have : additionalTerm t.betaCen t.mpivotCen (t.massAvg b z) = factor s s.betaCen s.mpivotCen b z := factor_eq s s.betaCen s.mpivotCen b z
    rw [this]
    simp only [A, t, grown]
    ring
  have im : ∀ z k, t.imTerm z k = s.imTerm z k := fun _ _ => rfl
  have tr : ∀ k, t.twoHaloTruncationIa k = s.twoHaloTruncationIa k := fun _ => rfl
  have pl : ∀ z k, t.pkLin z k = D z ^ 2 * P0 k := fun _ _ => rfl
  refine ⟨⟨t.powerSpectrumIiRaw, by unfold powerSpectrumIi applyResponse; rw [hr]; rfl, fun b z k => ?_⟩,
    ⟨t.powerSpectrumMiRaw, by unfold powerSpectrumMi applyResponse; rw [hr]; rfl, fun b z k => ?_⟩⟩
  · have := hD z
    simp only [powerSpectrumIiRaw, hM, zero, cenA, tr, pl]
    field_simp
    ring
  · have := hD z
    simp only [powerSpectrumMiRaw, hM, zero, cenA, tr, pl, im]
    field_simp
    ring

/-! ## Non-vacuity -/

/-- the demonstration object with half the growth -/
example : ∃ r', (aligned (1 / (1 / 2)) 1 (grown demo fun _ => 1)).powerSpectrumIi = .ok r' := by
  obtain ⟨r', h, _⟩ := C168_normalisation (s := demo) (D := fun _ => 1) (c := 1 / 2) (by norm_num) (fun _ => one_ne_zero) powerSpectrumIi (by simp) _ rfl
  exact ⟨r', h⟩

/-- the demonstration object with unaligned satellites and a growth factor that falls with redshift -/
example : let s : Spectra := { demo with wkmSat := fun _ _ _ => 0 }
    s.nonlinearMode = .none ∧ s.response = false ∧ (∀ z : ℕ, (1 : ℝ) / (z + 1) ≠ 0) ∧ (∀ m < s.nm, s.mass m ≠ 0) ∧ 0 < s.nm ∧
    (∀ z, s.meanDensity0 z ≠ 0) ∧ ∀ z k m, s.wkmSat z k m = 0 := by
  refine ⟨rfl, rfl, fun z => by positivity, fun m _ => ?_, by simp [demo], fun z => by simp [demo], fun _ _ _ => rfl⟩
  simp only [demo]
  positivity

end Verif.Pk.GrowthNormalisation

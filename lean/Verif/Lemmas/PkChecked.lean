import Verif.Lemmas.Checked
import Verif.Model.PkChecked

/-! # The checked spectra against the spectra over the reals -/

namespace Verif.PkChecked

open Verif.Lib Verif.Lib.Ck Verif.Pk

/-- one step down an expression -/
macro "refine_expr" : tactic => `(tactic| repeat' first
  | exact Refines.num _ | assumption
  | apply Refines.add | apply Refines.sub | apply Refines.mul | apply Refines.div | apply Refines.neg
  | apply Refines.pow | apply Refines.exp | apply Refines.rpow | apply Refines.sqrt)

variable (s : Pk.Spectra)

theorem r_matterProfile (z k m : ℕ) : (matterProfile s z k m).Refines (s.matterProfile z k m) := by
  unfold matterProfile computeMatterProfile Spectra.matterProfile Spectra.computeMatterProfile
  refine_expr

theorem r_matterProfileWithFeedback (z k m : ℕ) :
    (matterProfileWithFeedback s z k m).Refines (s.matterProfileWithFeedback z k m) := by
  unfold matterProfileWithFeedback fg fs Spectra.matterProfileWithFeedback
    Spectra.computeMatterProfileWithFeedback Spectra.fg
  refine_expr

theorem r_matterProfileFit (f : ℕ → ℕ → ℕ → ℝ) (b z k m : ℕ) :
    (matterProfileFit s f b z k m).Refines (s.matterProfileFit f b z k m) := by
  unfold matterProfileFit fgFit Spectra.matterProfileFit Spectra.computeMatterProfileFit Spectra.fgFit
  refine_expr

theorem r_oneHaloTruncation (k : ℕ) : (oneHaloTruncation s k).Refines (s.oneHaloTruncation k) := by
  unfold oneHaloTruncation Spectra.oneHaloTruncation
  cases s.oneHaloKtrunc <;> dsimp only <;> refine_expr

theorem r_twoHaloTruncation (k : ℕ) : (twoHaloTruncation s k).Refines (s.twoHaloTruncation k) := by
  unfold twoHaloTruncation Spectra.twoHaloTruncation
  cases s.twoHaloKtrunc <;> dsimp only <;> refine_expr

theorem r_oneHaloTruncationIa (k : ℕ) : (oneHaloTruncationIa s k).Refines (s.oneHaloTruncationIa k) := by
  unfold oneHaloTruncationIa Spectra.oneHaloTruncationIa
  cases s.oneHaloKtruncIa <;> dsimp only <;> refine_expr

theorem r_twoHaloTruncationIa (k : ℕ) : (twoHaloTruncationIa s k).Refines (s.twoHaloTruncationIa k) := by
  unfold twoHaloTruncationIa Spectra.twoHaloTruncationIa
  cases s.twoHaloKtruncIa <;> dsimp only <;> refine_expr

theorem r_oneHaloTruncationMead (z k : ℕ) :
    (oneHaloTruncationMead s z k).Refines (s.oneHaloTruncationMead z k) := by
  unfold oneHaloTruncationMead Spectra.oneHaloTruncationMead
  refine_expr

theorem r_twoHaloTruncationMead (z k : ℕ) :
    (twoHaloTruncationMead s z k).Refines (s.twoHaloTruncationMead z k) := by
  unfold twoHaloTruncationMead Spectra.twoHaloTruncationMead
  refine_expr

theorem r_transitionSmoothing {z k : ℕ} {x y : Ck} {a b : ℝ} (hx : x.Refines a) (hy : y.Refines b) :
    (transitionSmoothing s z k x y).Refines (s.transitionSmoothing z k a b) := by
  unfold transitionSmoothing Spectra.transitionSmoothing
  refine_expr

theorem r_compute1hTerm {u v : ℕ → Ck} {f g : ℕ → ℝ} (hu : ∀ m, (u m).Refines (f m))
    (hv : ∀ m, (v m).Refines (g m)) (z : ℕ) : (compute1hTerm s u v z).Refines (s.compute1hTerm f g z) := by
  unfold compute1hTerm Spectra.compute1hTerm
  refine Refines.simpson fun m => ?_
  have h1 := hu m
  have h2 := hv m
  refine_expr

theorem r_aTerm (z : ℕ) : (aTerm s z).Refines (s.aTerm z) := by
  unfold aTerm Spectra.aTerm
  refine (Refines.num _).sub (Refines.simpson fun m => ?_)
  refine_expr

theorem r_imTerm (z k : ℕ) : (imTerm s z k).Refines (s.imTerm z k) := by
  unfold imTerm Spectra.imTerm Spectra.computeImTerm
  refine (Refines.simpson fun m => ?_).add (r_aTerm s z)
  refine_expr

theorem r_i22 (z k m1 m2 : ℕ) : (i22 s z k m1 m2).Refines (s.i22 z k m1 m2) := by
  unfold i22 Spectra.i22
  refine_expr

theorem r_i12 (z k m : ℕ) : (i12 s z k m).Refines (s.i12 z k m) := by
  unfold i12 Spectra.i12
  refine_expr

theorem r_i21 (z k m : ℕ) : (i21 s z k m).Refines (s.i21 z k m) := by
  unfold i21 Spectra.i21
  refine_expr

theorem r_trapezoidal {f : ℕ → Ck} {g : ℕ → ℝ} (h : ∀ m, (f m).Refines (g m)) :
    (trapezoidalIntegrator s f).Refines (s.trapezoidalIntegrator g) :=
  Refines.sum fun i => (h i).mul (Refines.num _)

theorem r_iNL {W1 W2 : ℕ → Ck} {f g : ℕ → ℝ} (h1 : ∀ m, (W1 m).Refines (f m))
    (h2 : ∀ m, (W2 m).Refines (g m)) (z k : ℕ) : (iNL s W1 W2 z k).Refines (s.iNL f g z k) := by
  unfold iNL Spectra.iNL
  have hA := r_aTerm s z
  have h10 := h1 0
  have h20 := h2 0
  have t1 := r_trapezoidal s (f := fun m => i12 s z k m * W2 m) fun m => (r_i12 s z k m).mul (h2 m)
  have t2 := r_trapezoidal s (f := fun m => i21 s z k m * W1 m) fun m => (r_i21 s z k m).mul (h1 m)
  have t3 := r_trapezoidal s
    (f := fun m1 => trapezoidalIntegrator s (fun m2 => i22 s z k m1 m2 * W2 m2) * W1 m1)
    fun m1 => (r_trapezoidal s (f := fun m2 => i22 s z k m1 m2 * W2 m2)
      fun m2 => (r_i22 s z k m1 m2).mul (h2 m2)).mul (h1 m1)
  refine_expr

theorem r_matterProfile1hMm (z k m : ℕ) : (matterProfile1hMm s z k m).Refines (s.matterProfile1hMm z k m) := by
  unfold matterProfile1hMm Spectra.matterProfile1hMm
  cases s.hmcodeIngredients
  · exact r_matterProfile s z k m
  · exact r_matterProfile s z k m
  · exact r_matterProfileWithFeedback s z k m
  · exact r_matterProfileFit s _ 0 z k m

theorem r_matterProfile1hG (b z k m : ℕ) : (matterProfile1hG s b z k m).Refines (s.matterProfile1hG b z k m) := by
  unfold matterProfile1hG Spectra.matterProfile1hG
  cases s.hmcodeIngredients <;> dsimp only
  · split_ifs
    · exact r_matterProfileFit s _ b z k m
    · exact r_matterProfile s z k m
  · exact r_matterProfile s z k m
  · exact r_matterProfileWithFeedback s z k m
  · exact r_matterProfileFit s _ b z k m

theorem r_massAvg (b z : ℕ) : (massAvg s b z).Refines (s.massAvg b z) := by
  unfold massAvg Spectra.massAvg
  refine_expr

theorem r_centralGalaxyProfile (b z k m : ℕ) :
    (centralGalaxyProfile s b z k m).Refines (s.centralGalaxyProfile b z k m) := by
  unfold centralGalaxyProfile Spectra.centralGalaxyProfile
  refine_expr

theorem r_satelliteGalaxyProfile (b z k m : ℕ) :
    (satelliteGalaxyProfile s b z k m).Refines (s.satelliteGalaxyProfile b z k m) := by
  unfold satelliteGalaxyProfile Spectra.satelliteGalaxyProfile
  refine_expr

theorem r_computeIgTerm {u : ℕ → Ck} {f : ℕ → ℝ} (hu : ∀ m, (u m).Refines (f m)) (z : ℕ) :
    (computeIgTerm s u z).Refines (s.computeIgTerm f z) := by
  unfold computeIgTerm Spectra.computeIgTerm
  refine Refines.simpson fun m => ?_
  have h1 := hu m
  refine_expr

theorem r_icTerm (b z k : ℕ) : (icTerm s b z k).Refines (s.icTerm b z k) :=
  r_computeIgTerm s (r_centralGalaxyProfile s b z k) z

theorem r_isTerm (b z k : ℕ) : (isTerm s b z k).Refines (s.isTerm b z k) :=
  r_computeIgTerm s (r_satelliteGalaxyProfile s b z k) z

theorem r_c1 (z : ℕ) : (c1 s z).Refines (s.c1 z) := by
  unfold c1 Spectra.c1
  refine_expr

theorem r_alignmentAmplitude2h (z : ℕ) : (alignmentAmplitude2h s z).Refines (s.alignmentAmplitude2h z) := by
  have h := r_c1 s z
  unfold alignmentAmplitude2h Spectra.alignmentAmplitude2h
  refine_expr

theorem r_alignmentAmplitude2hII (z : ℕ) : (alignmentAmplitude2hII s z).Refines (s.alignmentAmplitude2hII z) := by
  have h := r_c1 s z
  unfold alignmentAmplitude2hII Spectra.alignmentAmplitude2hII
  refine_expr

theorem r_additionalTerm (beta piv : Option ℝ) {x : Ck} {a : ℝ} (h : x.Refines a) :
    (additionalTerm beta piv x).Refines (Spectra.additionalTerm beta piv a) := by
  unfold additionalTerm Spectra.additionalTerm
  cases beta <;> cases piv <;> dsimp only <;> refine_expr

theorem r_centralAlignmentProfile (b z k m : ℕ) :
    (centralAlignmentProfile s b z k m).Refines (s.centralAlignmentProfile b z k m) := by
  have h := r_c1 s z
  have h' := r_additionalTerm s.betaCen s.mpivotCen (r_massAvg s b z)
  unfold centralAlignmentProfile Spectra.centralAlignmentProfile
  refine_expr

theorem r_satelliteAlignmentProfile (b z k m : ℕ) :
    (satelliteAlignmentProfile s b z k m).Refines (s.satelliteAlignmentProfile b z k m) := by
  have h' := r_additionalTerm s.betaSat s.mpivotSat (r_massAvg s b z)
  unfold satelliteAlignmentProfile Spectra.satelliteAlignmentProfile
  refine_expr

theorem r_icAlignTerm (b z k : ℕ) : (icAlignTerm s b z k).Refines (s.icAlignTerm b z k) := by
  have h := r_computeIgTerm s (r_centralAlignmentProfile s b z k) z
  have h0 := r_centralAlignmentProfile s b z k 0
  have hA := r_aTerm s z
  unfold icAlignTerm Spectra.icAlignTerm
  refine_expr

theorem r_isAlignTerm (b z k : ℕ) : (isAlignTerm s b z k).Refines (s.isAlignTerm b z k) := by
  have h := r_computeIgTerm s (r_satelliteAlignmentProfile s b z k) z
  have h0 := r_satelliteAlignmentProfile s b z k 0
  have hA := r_aTerm s z
  unfold isAlignTerm Spectra.isAlignTerm
  refine_expr

/-- a checked result against a result over the reals: wherever an entry is a number, it is the real entry -/
def Agrees (r : Result) (q : PkResult) : Prop :=
  (∀ b z k, (r.pk1h b z k).Refines (q.pk1h b z k)) ∧ (∀ b z k, (r.pk2h b z k).Refines (q.pk2h b z k))
    ∧ (∀ b z k, (r.pkTot b z k).Refines (q.pkTot b z k))
    ∧ match r.galaxyLinearBias, q.galaxyLinearBias with
      | some f, some g => ∀ b z k, (f b z k).Refines (g b z k)
      | none, none => True
      | _, _ => False

/-- the same for computations that may raise -/
def AgreesE : Except PyErr Result → Except PyErr PkResult → Prop
  | .ok r, .ok q => Agrees r q
  | .error e, .error f => e = f
  | _, _ => False

theorem agrees_mmRaw : AgreesE (powerSpectrumMmRaw s) s.powerSpectrumMmRaw := by
  have h1 : ∀ z k, (compute1hTerm s (matterProfile1hMm s z k) (matterProfile1hMm s z k) z).Refines
      (s.compute1hTerm (s.matterProfile1hMm z k) (s.matterProfile1hMm z k) z) := fun z k =>
    r_compute1hTerm s (r_matterProfile1hMm s z k) (r_matterProfile1hMm s z k) z
  have g1 : ∀ z k, (compute1hTerm s (matterProfile1hMm s z k) (matterProfile1hMm s z k) z
      * oneHaloTruncation s k).Refines
      (s.compute1hTerm (s.matterProfile1hMm z k) (s.matterProfile1hMm z k) z * s.oneHaloTruncation k) :=
    fun z k => (h1 z k).mul (r_oneHaloTruncation s k)
  have g2 : ∀ z k, ((s.pkLin z k : Ck) * imTerm s z k * imTerm s z k * twoHaloTruncation s k).Refines
      (s.pkLin z k * s.imTerm z k * s.imTerm z k * s.twoHaloTruncation k) := fun z k =>
    (((Refines.num _).mul (r_imTerm s z k)).mul (r_imTerm s z k)).mul (r_twoHaloTruncation s k)
  unfold powerSpectrumMmRaw Spectra.powerSpectrumMmRaw
  cases s.nonlinearMode <;> dsimp only
  · exact ⟨fun _ => g1, fun _ => g2, fun _ z k => (g1 z k).add (g2 z k), trivial⟩
  · have g3 : ∀ z k, ((s.pkLin z k : Ck) * imTerm s z k * imTerm s z k
        + (s.pkLin z k : Ck) * iNL s (matterProfile s z k) (matterProfile s z k) z k).Refines
        (s.pkLin z k * s.imTerm z k * s.imTerm z k
          + s.pkLin z k * s.iNL (s.matterProfile2h z k) (s.matterProfile2h z k) z k) := fun z k =>
      (((Refines.num _).mul (r_imTerm s z k)).mul (r_imTerm s z k)).add
        ((Refines.num _).mul (r_iNL s (r_matterProfile s z k) (r_matterProfile s z k) z k))
    exact ⟨fun _ => g1, fun _ => g3, fun _ z k => (g1 z k).add (g3 z k), trivial⟩
  · split_ifs
    · have g3 : ∀ z k, ((s.pkLin z k : Ck) * twoHaloTruncationMead s z k).Refines
          (s.pkLin z k * s.twoHaloTruncationMead z k) := fun z k =>
        (Refines.num _).mul (r_twoHaloTruncationMead s z k)
      have g4 := fun z k => (h1 z k).mul (r_oneHaloTruncationMead s z k)
      exact ⟨fun _ => g4, fun _ => g3, fun _ z k => r_transitionSmoothing s (g4 z k) (g3 z k), trivial⟩
    · rfl
  · exact ⟨fun _ => g1, fun _ => g2, fun _ z k => (g1 z k).add (g2 z k), trivial⟩

theorem agrees_mm : AgreesE (powerSpectrumMm s) s.powerSpectrumMm := by
  unfold powerSpectrumMm Spectra.powerSpectrumMm
  split_ifs
  · exact ⟨fun _ _ _ => Refines.num _, fun _ _ _ => Refines.num _, fun _ _ _ => Refines.num _, trivial⟩
  · exact agrees_mmRaw s

theorem agrees_response {r : Result} {q : PkResult} (h : Agrees r q) :
    AgreesE (applyResponse s r) (s.applyResponse q) := by
  unfold applyResponse Spectra.applyResponse
  split_ifs
  · have hm := agrees_mmRaw s
    revert hm
    cases powerSpectrumMmRaw s <;> cases s.powerSpectrumMmRaw <;> intro hm
    · exact hm
    · exact hm.elim
    · exact hm.elim
    · rename_i r' q'
      have hR : ∀ z k, ((s.pkNl z k : Ck) / r'.pkTot 0 z k).Refines (s.pkNl z k / q'.pkTot 0 z k) := fun z k =>
        (Refines.num _).div (hm.2.2.1 0 z k)
      exact ⟨fun b z k => (h.1 b z k).mul (hR z k), fun b z k => (h.2.1 b z k).mul (hR z k),
        fun b z k => (h.2.2.1 b z k).mul (hR z k), h.2.2.2⟩
  · exact h

theorem agrees_ggRaw : Agrees (powerSpectrumGgRaw s) s.powerSpectrumGgRaw := by
  have hc := r_icTerm s
  have hs := r_isTerm s
  have ht := r_twoHaloTruncation s
  have h1 : ∀ b z k, ((powerSpectrumGgRaw s).pk1h b z k).Refines (s.powerSpectrumGgRaw.pk1h b z k) := by
    intro b z k
    exact ((Refines.num _).mul ((r_compute1hTerm s (r_centralGalaxyProfile s b z k)
      (r_satelliteGalaxyProfile s b z k) z).mul (r_oneHaloTruncation s k))).add
      ((r_compute1hTerm s (fun m => (r_satelliteGalaxyProfile s b z k m).mul (Refines.num _))
      (r_satelliteGalaxyProfile s b z k) z).mul (r_oneHaloTruncation s k))
  have h2 : ∀ b z k, ((powerSpectrumGgRaw s).pk2h b z k).Refines (s.powerSpectrumGgRaw.pk2h b z k) := by
    intro b z k
    have hc := hc b z k
    have hs := hs b z k
    have ht := ht k
    have hI := r_iNL s (fun m => (r_centralGalaxyProfile s b z k m).add (r_satelliteGalaxyProfile s b z k m))
      (fun m => (r_centralGalaxyProfile s b z k m).add (r_satelliteGalaxyProfile s b z k m)) z k
    unfold powerSpectrumGgRaw Spectra.powerSpectrumGgRaw
    dsimp only
    split_ifs <;> refine_expr
  refine ⟨h1, h2, fun b z k => (h1 b z k).add (h2 b z k), ?_⟩
  change ∀ b z k, _
  intro b z k
  have hc := hc b z k
  have hs := hs b z k
  refine_expr

theorem agrees_gmRaw : Agrees (powerSpectrumGmRaw s) s.powerSpectrumGmRaw := by
  have h1 : ∀ b z k, ((powerSpectrumGmRaw s).pk1h b z k).Refines (s.powerSpectrumGmRaw.pk1h b z k) := by
    intro b z k
    exact ((r_compute1hTerm s (r_centralGalaxyProfile s b z k)
      (r_matterProfile1hG s b z k) z).mul (r_oneHaloTruncation s k)).add
      ((r_compute1hTerm s (r_satelliteGalaxyProfile s b z k)
      (r_matterProfile1hG s b z k) z).mul (r_oneHaloTruncation s k))
  have h2 : ∀ b z k, ((powerSpectrumGmRaw s).pk2h b z k).Refines (s.powerSpectrumGmRaw.pk2h b z k) := by
    intro b z k
    have hc := r_icTerm s b z k
    have hs := r_isTerm s b z k
    have hm := r_imTerm s z k
    have ht := r_twoHaloTruncation s k
    have hI := r_iNL s (fun m => (r_centralGalaxyProfile s b z k m).add (r_satelliteGalaxyProfile s b z k m))
      (r_matterProfile s z k) z k
    unfold powerSpectrumGmRaw Spectra.powerSpectrumGmRaw
    dsimp only
    split_ifs <;> refine_expr
  refine ⟨h1, h2, fun b z k => (h1 b z k).add (h2 b z k), ?_⟩
  change ∀ b z k, _
  intro b z k
  have hc := r_icTerm s b z k
  have hs := r_isTerm s b z k
  have hm := r_imTerm s z k
  refine_expr

theorem agrees_miRaw : Agrees (powerSpectrumMiRaw s) s.powerSpectrumMiRaw := by
  have key : ∀ b z k, ((powerSpectrumMiRaw s).pk1h b z k).Refines (s.powerSpectrumMiRaw.pk1h b z k)
      ∧ ((powerSpectrumMiRaw s).pk2h b z k).Refines (s.powerSpectrumMiRaw.pk2h b z k)
      ∧ ((powerSpectrumMiRaw s).pkTot b z k).Refines (s.powerSpectrumMiRaw.pkTot b z k) := by
    intro b z k
    have h1 := r_compute1hTerm s (r_matterProfile1hG s b z k) (r_satelliteAlignmentProfile s b z k) z
    have ho := r_oneHaloTruncationIa s k
    have ht := r_twoHaloTruncationIa s k
    have hc := r_icAlignTerm s b z k
    have hs := r_isAlignTerm s b z k
    have hm := r_imTerm s z k
    have ha := r_alignmentAmplitude2h s z
    have hI := r_iNL s (fun m => (r_centralAlignmentProfile s b z k m).add (r_satelliteAlignmentProfile s b z k m))
      (r_matterProfile s z k) z k
    unfold powerSpectrumMiRaw Spectra.powerSpectrumMiRaw
    cases s.nonlinearMode <;> dsimp only <;> refine ⟨?_, ?_, ?_⟩ <;> refine_expr
  refine ⟨fun b z k => (key b z k).1, fun b z k => (key b z k).2.1, fun b z k => (key b z k).2.2, ?_⟩
  unfold powerSpectrumMiRaw Spectra.powerSpectrumMiRaw
  cases s.nonlinearMode <;> exact trivial

theorem agrees_iiRaw : Agrees (powerSpectrumIiRaw s) s.powerSpectrumIiRaw := by
  have key : ∀ b z k, ((powerSpectrumIiRaw s).pk1h b z k).Refines (s.powerSpectrumIiRaw.pk1h b z k)
      ∧ ((powerSpectrumIiRaw s).pk2h b z k).Refines (s.powerSpectrumIiRaw.pk2h b z k)
      ∧ ((powerSpectrumIiRaw s).pkTot b z k).Refines (s.powerSpectrumIiRaw.pkTot b z k) := by
    intro b z k
    have pc := r_centralAlignmentProfile s b z k
    have ps := r_satelliteAlignmentProfile s b z k
    have h1 := r_compute1hTerm s ps ps z
    have ho := r_oneHaloTruncationIa s k
    have ht := r_twoHaloTruncationIa s k
    have hc := r_icAlignTerm s b z k
    have hs := r_isAlignTerm s b z k
    have ha := r_alignmentAmplitude2hII s z
    have i1 := r_iNL s ps ps z k
    have i2 := r_iNL s pc pc z k
    have i3 := r_iNL s pc ps z k
    unfold powerSpectrumIiRaw Spectra.powerSpectrumIiRaw
    cases s.nonlinearMode <;> dsimp only <;> refine ⟨?_, ?_, ?_⟩ <;> refine_expr
  refine ⟨fun b z k => (key b z k).1, fun b z k => (key b z k).2.1, fun b z k => (key b z k).2.2, ?_⟩
  unfold powerSpectrumIiRaw Spectra.powerSpectrumIiRaw
  cases s.nonlinearMode <;> exact trivial

theorem agrees_giRaw : Agrees (powerSpectrumGiRaw s) s.powerSpectrumGiRaw := by
  have key : ∀ b z k, ((powerSpectrumGiRaw s).pk1h b z k).Refines (s.powerSpectrumGiRaw.pk1h b z k)
      ∧ ((powerSpectrumGiRaw s).pk2h b z k).Refines (s.powerSpectrumGiRaw.pk2h b z k)
      ∧ ((powerSpectrumGiRaw s).pkTot b z k).Refines (s.powerSpectrumGiRaw.pkTot b z k) := by
    intro b z k
    have pc := r_centralAlignmentProfile s b z k
    have ps := r_satelliteAlignmentProfile s b z k
    have gc := r_centralGalaxyProfile s b z k
    have h1 := r_compute1hTerm s gc ps z
    have ho := r_oneHaloTruncationIa s k
    have ht := r_twoHaloTruncationIa s k
    have hg := r_icTerm s b z k
    have hc := r_icAlignTerm s b z k
    have hs := r_isAlignTerm s b z k
    have ha := r_alignmentAmplitude2h s z
    have i1 := r_iNL s pc gc z k
    have i2 := r_iNL s ps gc z k
    unfold powerSpectrumGiRaw Spectra.powerSpectrumGiRaw
    cases s.nonlinearMode <;> dsimp only <;> refine ⟨?_, ?_, ?_⟩ <;> refine_expr
  refine ⟨fun b z k => (key b z k).1, fun b z k => (key b z k).2.1, fun b z k => (key b z k).2.2, ?_⟩
  unfold powerSpectrumGiRaw Spectra.powerSpectrumGiRaw
  cases s.nonlinearMode <;> exact trivial

end Verif.PkChecked

import Verif.Model.LegacyPk
import Verif.Props.PkInl

/-! Property C117: the rewritten library computes the spectra of the legacy modules; where it does not, and by how much. -/

namespace Verif.LegacyPk

open Finset Verif.Lib Verif.Spec
open Verif.Pk (NLMode HMIngr Spectra PkResult)

/-- The switches of the legacy module mean one `nonlinear_mode`: `fortuna` alone, and no HMCode correction with `bnl`
unless the linear spectrum is dewiggled anyway. -/
structure Opts.SameMode (o : Opts) : Prop where
  fortuna : o.fortuna = true → o.bnl = false ∧ o.mead2020 = false
  bnl : o.bnl = true → o.mead2020 = true → o.dewiggle = true

/-- the part of `beta` that the integrals with one missing mass read is symmetric -/
def Block.SymmetricEdge (B : Block) : Prop := ∀ z k, ∀ m < B.nm, B.beta z m 0 k = B.beta z 0 m k

/-- the three stored arrays agree at a bin -/
def Agree (b : ℕ) (n : PkResult) (l : Out) : Prop :=
  ∀ z k, n.pk1h b z k = l.pk1h z k ∧ n.pk2h b z k = l.pk2h z k ∧ n.pkTot b z k = l.pkTot z k

/-- the one-halo part and the total agree at a bin -/
def AgreeTot (b : ℕ) (n : PkResult) (l : Out) : Prop :=
  ∀ z k, n.pk1h b z k = l.pk1h z k ∧ n.pkTot b z k = l.pkTot z k

section

variable {o : Opts} {B : Block} {p : ℕ → ℝ} {nd am : ℕ → ℕ → ℝ} {b : ℕ}

private theorem mode_bnl (h : o.bnl = true) : o.mode = .bnl := by simp [Opts.mode, h]

private theorem mode_fortuna (h : o.fortuna = true) (hb : o.bnl = false) : o.mode = .fortuna := by
  simp [Opts.mode, h, hb]

private theorem mode_hmcode (hf : o.fortuna = false) (hb : o.bnl = false) (h : o.mead2020 = true) :
    o.mode = .hmcode := by simp [Opts.mode, h, hb, hf]

private theorem mode_none (hf : o.fortuna = false) (hb : o.bnl = false) (h : o.mead2020 = false) :
    o.mode = .none := by simp [Opts.mode, h, hb, hf]

private theorem mode_ne_bnl (hb : o.bnl = false) : o.mode ≠ .bnl := by
  unfold Opts.mode
  rw [hb]
  cases o.fortuna <;> cases o.mead2020 <;> simp

private theorem plin_eq (hs : o.SameMode) (z k : ℕ) : (toSpectra o B p nd am).pkLin z k = plin o B z k := by
  simp only [toSpectra, plin]
  rcases hb : o.bnl with _ | _ <;> rcases hf : o.fortuna with _ | _ <;> rcases hm : o.mead2020 with _ | _ <;>
    rcases hd : o.dewiggle with _ | _ <;>
    first
    | (simp [Opts.mode, hb, hf, hm]; done)
    | (exfalso; have := hs.fortuna; have := hs.bnl; simp_all)

private theorem trapezoid_eq (hn : 2 ≤ B.nm) (f : ℕ → ℝ) :
    trapezoid B.nm f B.mass = (toSpectra o B p nd am).trapezoidalIntegrator f := by
  rw [Pk.C13_trapezoid _ hn]
  refine sum_congr rfl fun i _ => ?_
  rw [add_comm (f (i + 1))]
  rfl

private theorem integrator_smul (s : Spectra) (c : ℝ) (f : ℕ → ℝ) :
    s.trapezoidalIntegrator (fun m => c * f m) = c * s.trapezoidalIntegrator f := by
  unfold Spectra.trapezoidalIntegrator
  rw [mul_sum]
  exact sum_congr rfl fun i _ => by ring

private theorem integrator_sub (s : Spectra) (f g : ℕ → ℝ) :
    s.trapezoidalIntegrator (fun m => f m - g m) = s.trapezoidalIntegrator f - s.trapezoidalIntegrator g := by
  unfold Spectra.trapezoidalIntegrator
  rw [← sum_sub_distrib]
  exact sum_congr rfl fun i _ => by ring

/-- what the exchange of the two mass arguments of `beta` changes in the integral over one profile -/
noncomputable def edgeGap (B : Block) (W : ℕ → ℝ) (z k : ℕ) : ℝ :=
  trapezoid B.nm (fun m => (B.beta z m 0 k - B.beta z 0 m k) * (B.bDm z m * B.dndlnm z m / B.mass m) * W m) B.mass

/-- C117: the two versions of the integral over the non-linear halo bias read the row and the column of `beta` at the
lowest mass in exchanged roles; this is the difference, for every `beta` and all profiles -/
theorem C117_inl (hn : 2 ≤ B.nm) (W1 W2 : ℕ → ℝ) (z k : ℕ) :
    iNL B W1 W2 z k = (toSpectra o B p nd am).iNL W1 W2 z k
      + aTerm B z * B.meanDensity0 / B.mass 0 * (W1 0 * edgeGap B W2 z k - W2 0 * edgeGap B W1 z k) := by
  have hA : (toSpectra o B p nd am).aTerm z = aTerm B z := rfl
  have h22 : trapezoid B.nm
        (fun m2 => trapezoid B.nm (fun m1 => i22 B z m1 m2 k * W1 m1 * W2 m2) B.mass) B.mass
      = (toSpectra o B p nd am).trapezoidalIntegrator (fun m1 =>
          (toSpectra o B p nd am).trapezoidalIntegrator
            (fun m2 => (toSpectra o B p nd am).i22 z k m1 m2 * W2 m2) * W1 m1) := by
    rw [trapezoid_eq (o := o) (p := p) (nd := nd) (am := am) hn]
    simp only [trapezoid_eq (o := o) (p := p) (nd := nd) (am := am) hn]
    simp only [Spectra.trapezoidalIntegrator, sum_mul]
    rw [sum_comm]
    refine sum_congr rfl fun m1 _ => sum_congr rfl fun m2 _ => ?_
    simp only [Spectra.i22, i22, toSpectra]
    rw [div_eq_mul_inv, mul_inv, one_div, one_div]
    ring
  have g2 : edgeGap B W2 z k
      = trapezoid B.nm (fun m => i12 B z m k * W2 m) B.mass
        - (toSpectra o B p nd am).trapezoidalIntegrator (fun m => (toSpectra o B p nd am).i12 z k m * W2 m) := by
    rw [edgeGap, trapezoid_eq (o := o) (p := p) (nd := nd) (am := am) hn,
      trapezoid_eq (o := o) (p := p) (nd := nd) (am := am) hn, ← integrator_sub]
    congr 1
    funext m
    simp only [Spectra.i12, i12, toSpectra]
    ring
  have g1 : edgeGap B W1 z k
      = (toSpectra o B p nd am).trapezoidalIntegrator (fun m => (toSpectra o B p nd am).i21 z k m * W1 m)
        - trapezoid B.nm (fun m => i21 B z m k * W1 m) B.mass := by
    rw [edgeGap, trapezoid_eq (o := o) (p := p) (nd := nd) (am := am) hn,
      trapezoid_eq (o := o) (p := p) (nd := nd) (am := am) hn, ← integrator_sub]
    congr 1
    funext m
    simp only [Spectra.i21, i21, toSpectra]
    ring
  rw [g1, g2]
  unfold iNL Spectra.iNL
  rw [h22, hA]
  simp only [show (toSpectra o B p nd am).meanDensity0 z = B.meanDensity0 from rfl,
    show (toSpectra o B p nd am).mass 0 = B.mass 0 from rfl,
    show (toSpectra o B p nd am).betaNl z k 0 0 = B.beta z 0 0 k from rfl]
  rw [div_eq_mul_inv _ (B.mass 0 * B.mass 0), mul_inv, one_div]
  ring

/-- C117: for equal profiles (matter with matter, galaxies with galaxies, centrals with centrals) the integrals agree
whatever `beta` is -/
theorem C117_inl_same_profile (hn : 2 ≤ B.nm) (W : ℕ → ℝ) (z k : ℕ) :
    iNL B W W z k = (toSpectra o B p nd am).iNL W W z k := by
  rw [C117_inl (o := o) (p := p) (nd := nd) (am := am) hn]; ring

/-- C117: with a symmetric edge of `beta` they agree for all profiles -/
theorem C117_inl_symmetric (hn : 2 ≤ B.nm) (hB : B.SymmetricEdge) (W1 W2 : ℕ → ℝ) (z k : ℕ) :
    iNL B W1 W2 z k = (toSpectra o B p nd am).iNL W1 W2 z k := by
  have g : ∀ W, edgeGap B W z k = 0 := by
    intro W
    unfold edgeGap trapezoid
    refine sum_eq_zero fun i hi => ?_
    have hi := mem_range.1 hi
    simp only [hB z k i (by omega), hB z k (i + 1) (by omega)]
    ring
  rw [C117_inl (o := o) (p := p) (nd := nd) (am := am) hn, g, g]; ring

/-! ### matter -/

private theorem profile_mm (hν : B.fnu = 0) (z k m : ℕ) :
    (toSpectra o B p nd am).matterProfile1hMm z k m = matterProfile1hMm o B z k m := by
  unfold Spectra.matterProfile1hMm matterProfile1hMm
  simp only [toSpectra, Opts.ingredients]
  cases o.mead <;> simp only <;>
    simp only [Spectra.matterProfile, Spectra.computeMatterProfile, matterProfile, Spectra.matterProfileWithFeedback,
      Spectra.computeMatterProfileWithFeedback, matterProfileWithFeedback, Spectra.matterProfileFit,
      Spectra.computeMatterProfileFit, matterProfileFit, hν, sub_zero, mul_one, Spectra.fs, fs, Spectra.fg, fg,
      Spectra.fgFit, fgFit, Spectra.mbAgn]

private theorem profile_2h (z k m : ℕ) :
    (toSpectra o B p nd am).matterProfile2h z k m = matterProfile2h B z k m := by
  simp [Spectra.matterProfile2h, Spectra.computeMatterProfile, matterProfile2h, matterProfile, toSpectra]

private theorem profile_2h_fun (z k : ℕ) :
    (toSpectra o B p nd am).matterProfile2h z k = matterProfile2h B z k := funext (profile_2h z k)

private theorem profile_mm_fun (hν : B.fnu = 0) (z k : ℕ) :
    (toSpectra o B p nd am).matterProfile1hMm z k = matterProfile1hMm o B z k := funext (profile_mm hν z k)

private theorem im_eq (z k : ℕ) : (toSpectra o B p nd am).imTerm z k = imTerm B z k := rfl

private theorem one_eq (u v : ℕ → ℝ) (z : ℕ) :
    (toSpectra o B p nd am).compute1hTerm u v z = compute1hTerm B u v z := rfl

private theorem t1_eq (k : ℕ) :
    (toSpectra o B p nd am).oneHaloTruncation k = oneHaloTruncation (B.kVec k) o.oneHaloKtrunc := by
  unfold Spectra.oneHaloTruncation oneHaloTruncation
  simp only [toSpectra]
  cases o.oneHaloKtrunc <;> rfl

private theorem t2_eq (k : ℕ) :
    (toSpectra o B p nd am).twoHaloTruncation k = twoHaloTruncation (B.kVec k) o.twoHaloKtrunc := by
  unfold Spectra.twoHaloTruncation twoHaloTruncation
  simp only [toSpectra]
  cases o.twoHaloKtrunc <;> rfl

private theorem t1i_eq (k : ℕ) :
    (toSpectra o B p nd am).oneHaloTruncationIa k = oneHaloTruncationIa (B.kVec k) o.oneHaloKtruncIa := by
  unfold Spectra.oneHaloTruncationIa oneHaloTruncationIa
  simp only [toSpectra]
  cases o.oneHaloKtruncIa <;> rfl

private theorem t2i_eq (k : ℕ) :
    (toSpectra o B p nd am).twoHaloTruncationIa k = twoHaloTruncationIa (B.kVec k) o.twoHaloKtruncIa := by
  unfold Spectra.twoHaloTruncationIa twoHaloTruncationIa
  simp only [toSpectra]
  cases o.twoHaloKtruncIa <;> rfl

private theorem mode_eq : (toSpectra o B p nd am).nonlinearMode = o.mode := rfl

/-- C117: the matter spectrum, without neutrinos: the same one-halo part, two-halo part and total in all modes -/
theorem C117_mm (hs : o.SameMode) (hν : B.fnu = 0) (hn : 2 ≤ B.nm) :
    ∃ n, (toSpectra o B p nd am).powerSpectrumMmRaw = .ok n ∧ ∀ b, Agree b n (pMm o B) := by
  unfold Spectra.powerSpectrumMmRaw pMm
  rw [mode_eq]
  rcases hb : o.bnl with _ | _
  · rcases hf : o.fortuna with _ | _
    · rcases hm : o.mead2020 with _ | _
      · rw [mode_none hf hb hm]
        refine ⟨_, rfl, fun b z k => ?_⟩
        simp only [Bool.false_eq_true, if_false, plin_eq hs, im_eq, t1_eq, t2_eq, one_eq, profile_mm_fun hν,
          and_self]
      · rw [mode_hmcode hf hb hm]
        have hi : (toSpectra o B p nd am).hmcodeIngredients = .mead2020Feedback ∨
            (toSpectra o B p nd am).hmcodeIngredients = .mead2020 := by
          revert hm
          simp only [toSpectra, Opts.ingredients, Opts.mead2020]
          cases o.mead <;> simp
        simp only [if_pos hi]
        refine ⟨_, rfl, fun b z k => ?_⟩
        simp only [Bool.false_eq_true, if_false, if_true, plin_eq hs, one_eq, profile_mm_fun hν]
        exact ⟨rfl, rfl, rfl⟩
    · rw [mode_fortuna hf hb, (hs.fortuna hf).2]
      refine ⟨_, rfl, fun b z k => ?_⟩
      simp only [Bool.false_eq_true, if_false, plin_eq hs, im_eq, t1_eq, t2_eq, one_eq, profile_mm_fun hν, and_self]
  · rw [mode_bnl hb]
    refine ⟨_, rfl, fun b z k => ?_⟩
    simp only [if_true, plin_eq hs, im_eq, t1_eq, one_eq, profile_mm_fun hν, profile_2h_fun,
      C117_inl_same_profile (o := o) (p := p) (nd := nd) (am := am) hn, and_self]

/-- C117: with neutrinos and no feedback the legacy one-halo part of the matter spectrum is `(1 - fnu)²` times the
rewritten one; the two-halo parts agree -/
theorem C117_neutrino (hs : o.SameMode) (hn : 2 ≤ B.nm) (hm : o.mead = .none ∨ o.mead = .noFeedback) :
    ∃ n, (toSpectra o B p nd am).powerSpectrumMmRaw = .ok n ∧ ∀ b z k,
      (pMm o B).pk1h z k = (1 - B.fnu) ^ 2 * n.pk1h b z k ∧ (pMm o B).pk2h z k = n.pk2h b z k := by
  obtain ⟨n, h1, h2⟩ := C117_mm (o := o) (B := { B with fnu := 0 }) (p := p) (nd := nd) (am := am) hs rfl hn
  refine ⟨n, h1, fun b z k => ?_⟩
  obtain ⟨e1, e2, -⟩ := h2 b z k
  rw [e1, e2]
  have hp : ∀ m, matterProfile1hMm o B z k m = (1 - B.fnu) * matterProfile1hMm o { B with fnu := 0 } z k m := by
    intro m
    rcases hm with h | h <;> simp [matterProfile1hMm, h, matterProfile] <;> ring
  have hi : compute1hTerm B (matterProfile1hMm o B z k) (matterProfile1hMm o B z k) z =
      (1 - B.fnu) ^ 2 * compute1hTerm { B with fnu := 0 } (matterProfile1hMm o { B with fnu := 0 } z k)
        (matterProfile1hMm o { B with fnu := 0 } z k) z := by
    unfold compute1hTerm
    rw [← Lib.simpson_smul]
    congr 1
    funext m
    rw [hp m]
    ring
  unfold pMm
  split_ifs
  · exact ⟨by simp only [hi]; ring, rfl⟩
  · exact ⟨by simp only [hi]; ring, rfl⟩
  · exact ⟨by simp only [hi]; ring, rfl⟩

/-! ### galaxies -/

private theorem ic_eq (z k : ℕ) : (toSpectra o B p nd am).icTerm b z k = iC B b z k := rfl

private theorem is_eq (z k : ℕ) : (toSpectra o B p nd am).isTerm b z k = iS B b z k := rfl

private theorem cprof_eq (z k : ℕ) : (toSpectra o B p nd am).centralGalaxyProfile b z k = profileC B b z k := rfl

private theorem sprof_eq (z k : ℕ) : (toSpectra o B p nd am).satelliteGalaxyProfile b z k = profileS B b z k := rfl

/-- C117: the galaxy spectrum and its bias are the same in all modes, with and without neutrinos, for every `beta` -/
theorem C117_gg (hs : o.SameMode) (hn : 2 ≤ B.nm) (b : ℕ) :
    Agree b (toSpectra o B p nd am).powerSpectrumGgRaw (pGg o B p b).1 ∧
      ∀ z k, ((toSpectra o B p nd am).powerSpectrumGgRaw.galaxyLinearBias.map fun f => f b z k)
        = some ((pGg o B p b).2 z k) := by
  constructor
  · intro z k
    unfold Spectra.powerSpectrumGgRaw pGg
    rw [mode_eq]
    rcases hb : o.bnl with _ | _
    · simp only [mode_ne_bnl hb, Bool.false_eq_true, if_false, plin_eq hs, ic_eq, is_eq, t1_eq, t2_eq, one_eq,
        cprof_eq, sprof_eq]
      exact ⟨rfl, trivial, rfl⟩
    · simp only [mode_bnl hb, if_true, plin_eq hs, ic_eq, is_eq, t1_eq, one_eq, cprof_eq, sprof_eq, mul_one,
        C117_inl_same_profile (o := o) (p := p) (nd := nd) (am := am) hn]
      exact ⟨rfl, trivial, rfl⟩
  · intro z k
    simp only [Spectra.powerSpectrumGgRaw, pGg, Option.map_some, ic_eq, is_eq]
    congr 2
    ring

/-- the matter profile used with galaxies and alignments is the same when there are no neutrinos and `point_mass` is not
combined with the HMCode corrections -/
private theorem profile_g (hν : B.fnu = 0) (hpm : o.pointMass = true → o.mead2020 = false)
    {prof : ℕ → ℕ → ℕ → ℝ} (hp : profile1h o B b = .ok prof) (z k : ℕ) :
    (toSpectra o B p nd am).matterProfile1hG b z k = prof z k := by
  funext m
  have hmm := profile_mm (o := o) (B := B) (p := p) (nd := nd) (am := am) hν z k m
  have hfit : (toSpectra o B p nd am).matterProfileFit (toSpectra o B p nd am).fstar b z k m =
      matterProfileFit B (B.fstar b) z k m := by
    simp only [Spectra.matterProfileFit, Spectra.computeMatterProfileFit, matterProfileFit, hν, sub_zero, mul_one,
      Spectra.fgFit, fgFit, toSpectra]
  have hl : ∀ f, localProfile1hMm o B = some f → f = matterProfile1hMm o B := by
    intro f hf
    unfold localProfile1hMm at hf
    split at hf
    · exact (Option.some.inj hf).symm
    · cases hf
  unfold profile1h at hp
  unfold Spectra.matterProfile1hMm at hmm
  unfold Spectra.matterProfile1hG
  have e1 : (toSpectra o B p nd am).hmcodeIngredients = o.ingredients := rfl
  have e2 : (toSpectra o B p nd am).pointmass = o.pointMass := rfl
  rw [e1] at hmm ⊢
  rw [e2]
  rcases hm : o.mead with _ | _ | _ | _ <;> rcases ho : o.pointMass with _ | _ <;>
    simp only [Opts.ingredients, Opts.mead2020, hm, ho, Bool.or_true, Bool.or_false, if_true, reduceCtorEq,
      decide_false, decide_true, Bool.false_eq_true, if_false, Bool.or_self, forall_const] at hp hmm hpm ⊢
  case none.true => cases hp; exact hfit
  case fit.true => cases hp; exact hfit
  case fit.false => cases hp; exact hfit
  all_goals
    split at hp
    · cases hp
    · rename_i f hf
      cases hp
      rw [hl _ hf]
      exact hmm

/-- C117: the galaxy-matter spectrum and its bias, without neutrinos -/
theorem C117_gm (hs : o.SameMode) (hν : B.fnu = 0) (hn : 2 ≤ B.nm) (hB : o.bnl = true → B.SymmetricEdge)
    (hpm : o.pointMass = true → o.mead2020 = false)
    {prof : ℕ → ℕ → ℕ → ℝ} (hp : profile1h o B b = .ok prof) :
    Agree b (toSpectra o B p nd am).powerSpectrumGmRaw (pGm o B prof b).1 ∧
      ∀ z k, ((toSpectra o B p nd am).powerSpectrumGmRaw.galaxyLinearBias.map fun f => f b z k)
        = some ((pGm o B prof b).2 z k) := by
  constructor
  · intro z k
    unfold Spectra.powerSpectrumGmRaw pGm
    rw [mode_eq]
    rcases hb : o.bnl with _ | _
    · simp only [mode_ne_bnl hb, Bool.false_eq_true, if_false, plin_eq hs, ic_eq, is_eq, im_eq, t1_eq, t2_eq, one_eq,
        cprof_eq, sprof_eq, profile_g hν hpm hp, and_self]
    · simp only [mode_bnl hb, if_true, plin_eq hs, ic_eq, is_eq, im_eq, t1_eq, one_eq, cprof_eq, sprof_eq, mul_one,
        C117_inl_symmetric (o := o) (p := p) (nd := nd) (am := am) hn (hB hb), profile_g hν hpm hp, profile_2h_fun,
        and_self]
  · intro z k
    simp only [Spectra.powerSpectrumGmRaw, pGm, Option.map_some, ic_eq, is_eq, im_eq]

/-- C117: with `point_mass` and the HMCode corrections together the legacy module takes the profile with the stellar
fraction of the sample; the rewritten library ignores `pointmass` -/
theorem C117_point_mass (hpm : o.pointMass = true) (hm : o.mead2020 = true) (z k m : ℕ) :
    profile1h o B b = .ok (matterProfileFit B (B.fstar b)) ∧
      (toSpectra o B p nd am).matterProfile1hG b z k m =
        (toSpectra { o with pointMass := false } B p nd am).matterProfile1hG b z k m := by
  refine ⟨by simp [profile1h, hpm], ?_⟩
  revert hm
  simp only [Spectra.matterProfile1hG, toSpectra, Opts.ingredients, Opts.mead2020]
  cases o.mead <;> simp <;> rfl

/-! ### alignments -/

private theorem salign (hM : ∀ z, B.massAvg b z = am b z / nd b z) {sA : ℕ → ℕ → ℕ → ℝ} (h : sAlign B b = .ok sA)
    (z k : ℕ) : (toSpectra o B p nd am).satelliteAlignmentProfile b z k = sA z k := by
  funext m
  unfold sAlign at h
  rcases hx : B.satHaloMass with _ | ⟨be, mp⟩
  · simp [hx, satelliteAlignmentProfile] at h
  · simp only [hx, satelliteAlignmentProfile, Except.ok.injEq] at h
    subst h
    simp only [Spectra.satelliteAlignmentProfile, toSpectra, hx, Option.map_some, Spectra.additionalTerm,
      additionalTerm, Spectra.massAvg, hM]

private theorem calign (hM : ∀ z, B.massAvg b z = am b z / nd b z) {cA : ℕ → ℕ → ℕ → ℝ} (h : cAlign B b = .ok cA)
    (z k : ℕ) : (toSpectra o B p nd am).centralAlignmentProfile b z k = cA z k := by
  funext m
  unfold cAlign at h
  rcases hx : B.cenHaloMass with _ | ⟨be, mp⟩
  · simp [hx, centralAlignmentProfile] at h
  · simp only [hx, centralAlignmentProfile, Except.ok.injEq] at h
    subst h
    simp only [Spectra.centralAlignmentProfile, toSpectra, hx, Option.map_some, Spectra.additionalTerm,
      additionalTerm, Spectra.massAvg, hM, Spectra.c1, c1]

private theorem isa (hM : ∀ z, B.massAvg b z = am b z / nd b z) {sA : ℕ → ℕ → ℕ → ℝ} (h : sAlign B b = .ok sA)
    (z k : ℕ) : (toSpectra o B p nd am).isAlignTerm b z k = igAlignTerm B (sA z k) z := by
  rw [Spectra.isAlignTerm, salign hM h]; rfl

private theorem ica (hM : ∀ z, B.massAvg b z = am b z / nd b z) {cA : ℕ → ℕ → ℕ → ℝ} (h : cAlign B b = .ok cA)
    (z k : ℕ) : (toSpectra o B p nd am).icAlignTerm b z k = igAlignTerm B (cA z k) z := by
  rw [Spectra.icAlignTerm, calign hM h]; rfl

private theorem amp_eq (z : ℕ) : (toSpectra o B p nd am).alignmentAmplitude2h z = alignmentAmplitude2h B z := by
  simp only [Spectra.alignmentAmplitude2h, alignmentAmplitude2h, Spectra.c1, toSpectra]; ring

private theorem amp2_eq (z : ℕ) : (toSpectra o B p nd am).alignmentAmplitude2hII z = alignmentAmplitude2hII B z := by
  simp only [Spectra.alignmentAmplitude2hII, alignmentAmplitude2hII, Spectra.c1, toSpectra]; ring

private theorem peff_eq (hs : o.SameMode) (hf : o.fortuna = true) (z k : ℕ) :
    (toSpectra o B p nd am).peffVal z k = pkEff o B z k := by
  have hb := (hs.fortuna hf).1
  simp only [Spectra.peffVal, Spectra.peff, mode_eq, mode_fortuna hf hb, if_true, Option.getD_some, plin_eq hs, pkEff]
  rfl

variable {sA cA prof : ℕ → ℕ → ℕ → ℝ}

private theorem mode_cases (hs : o.SameMode) :
    (o.fortuna = true ∧ o.bnl = false ∧ o.mode = .fortuna) ∨ (o.fortuna = false ∧ o.bnl = true ∧ o.mode = .bnl) ∨
      (o.fortuna = false ∧ o.bnl = false ∧ (o.mode = .hmcode ∨ o.mode = .none)) := by
  rcases hf : o.fortuna with _ | _
  · rcases hb : o.bnl with _ | _
    · rcases hm : o.mead2020 with _ | _
      · exact .inr (.inr ⟨rfl, rfl, .inr (mode_none hf hb hm)⟩)
      · exact .inr (.inr ⟨rfl, rfl, .inl (mode_hmcode hf hb hm)⟩)
    · exact .inr (.inl ⟨rfl, rfl, mode_bnl hb⟩)
  · have hb := (hs.fortuna hf).1
    exact .inl ⟨rfl, hb, mode_fortuna hf hb⟩

/-- C117: the galaxy-intrinsic spectrum -/
theorem C117_gi (hs : o.SameMode) (hn : 2 ≤ B.nm) (hB : o.bnl = true → B.SymmetricEdge)
    (hM : ∀ z, B.massAvg b z = am b z / nd b z) (hsA : sAlign B b = .ok sA) (hcA : cAlign B b = .ok cA) :
    Agree b (toSpectra o B p nd am).powerSpectrumGiRaw (pGI o B sA cA b) := by
  intro z k
  unfold Spectra.powerSpectrumGiRaw pGI
  rw [mode_eq]
  rcases mode_cases hs with ⟨hf, hb, hm⟩ | ⟨hf, hb, hm⟩ | ⟨hf, hb, hm⟩
  · simp only [hm, hf, if_true, t1i_eq, t2i_eq, one_eq, cprof_eq, salign hM hsA, peff_eq hs hf, ic_eq, amp_eq, and_self]
  · simp only [hm, hf, hb, if_true, Bool.false_eq_true, if_false, t1i_eq, one_eq, cprof_eq, salign hM hsA,
      calign hM hcA, ic_eq, isa hM hsA, ica hM hcA, plin_eq hs,
      C117_inl_symmetric (o := o) (p := p) (nd := nd) (am := am) hn (hB hb), true_and, and_true]
    ring
  · rcases hm with hm | hm <;>
      simp only [hm, hf, hb, Bool.false_eq_true, if_false, t1i_eq, t2i_eq, one_eq, cprof_eq, salign hM hsA,
        ic_eq, isa hM hsA, ica hM hcA, plin_eq hs, true_and, and_true] <;> ring

/-- C117: the intrinsic-intrinsic spectrum: one-halo part and total agree -/
theorem C117_ii (hs : o.SameMode) (hn : 2 ≤ B.nm) (hB : o.bnl = true → B.SymmetricEdge)
    (hM : ∀ z, B.massAvg b z = am b z / nd b z) (hsA : sAlign B b = .ok sA) (hcA : cAlign B b = .ok cA) :
    AgreeTot b (toSpectra o B p nd am).powerSpectrumIiRaw (pII o B sA cA b) := by
  intro z k
  unfold Spectra.powerSpectrumIiRaw pII
  rw [mode_eq]
  rcases mode_cases hs with ⟨hf, hb, hm⟩ | ⟨hf, hb, hm⟩ | ⟨hf, hb, hm⟩
  · simp only [hm, hf, if_true, t1i_eq, t2i_eq, one_eq, salign hM hsA, peff_eq hs hf, amp2_eq]
    exact ⟨trivial, rfl⟩
  · simp only [hm, hf, hb, if_true, Bool.false_eq_true, if_false, t1i_eq, one_eq, salign hM hsA,
      calign hM hcA, isa hM hsA, ica hM hcA, plin_eq hs,
      C117_inl_symmetric (o := o) (p := p) (nd := nd) (am := am) hn (hB hb), true_and]
    ring
  · rcases hm with hm | hm <;>
      simp only [hm, hf, hb, Bool.false_eq_true, if_false, t1i_eq, t2i_eq, one_eq, salign hM hsA,
        isa hM hsA, ica hM hcA, plin_eq hs, and_self]

/-- C117: the matter-intrinsic spectrum: one-halo part and total agree -/
theorem C117_mi (hs : o.SameMode) (hν : B.fnu = 0) (hn : 2 ≤ B.nm) (hB : o.bnl = true → B.SymmetricEdge)
    (hpm : o.pointMass = true → o.mead2020 = false) (hp : profile1h o B b = .ok prof)
    (hM : ∀ z, B.massAvg b z = am b z / nd b z) (hsA : sAlign B b = .ok sA) (hcA : cAlign B b = .ok cA) :
    AgreeTot b (toSpectra o B p nd am).powerSpectrumMiRaw (pMI o B prof sA cA b) := by
  intro z k
  unfold Spectra.powerSpectrumMiRaw pMI
  rw [mode_eq]
  rcases mode_cases hs with ⟨hf, hb, hm⟩ | ⟨hf, hb, hm⟩ | ⟨hf, hb, hm⟩
  · simp only [hm, hf, if_true, t1i_eq, t2i_eq, one_eq, salign hM hsA, profile_g hν hpm hp, peff_eq hs hf, amp_eq]
    exact ⟨trivial, rfl⟩
  · simp only [hm, hf, hb, if_true, Bool.false_eq_true, if_false, t1i_eq, one_eq, salign hM hsA,
      calign hM hcA, isa hM hsA, ica hM hcA, plin_eq hs, im_eq, profile_g hν hpm hp, profile_2h_fun,
      C117_inl_symmetric (o := o) (p := p) (nd := nd) (am := am) hn (hB hb), true_and]
    ring
  · rcases hm with hm | hm <;>
      simp only [hm, hf, hb, Bool.false_eq_true, if_false, t1i_eq, t2i_eq, one_eq, salign hM hsA,
        profile_g hν hpm hp, isa hM hsA, ica hM hcA, plin_eq hs, im_eq, true_and] <;> ring

/-- C117: the stored two-halo part of the legacy intrinsic-intrinsic spectrum counts the central-satellite term twice and
omits the satellite-satellite term, so the parts do not add up to the total; they do in the rewritten library -/
theorem C117_ii_parts (hf : o.fortuna = false) (hb : o.bnl = false) (s : Spectra) (z k : ℕ) :
    (pII o B sA cA b).pk1h z k + (pII o B sA cA b).pk2h z k - (pII o B sA cA b).pkTot z k =
        plin o B z k * igAlignTerm B (sA z k) z * (igAlignTerm B (cA z k) z - igAlignTerm B (sA z k) z)
          * twoHaloTruncationIa (B.kVec k) o.twoHaloKtruncIa ∧
      s.powerSpectrumIiRaw.pk1h b z k + s.powerSpectrumIiRaw.pk2h b z k = s.powerSpectrumIiRaw.pkTot b z k := by
  constructor
  · simp only [pII, hf, hb, Bool.false_eq_true, if_false]; ring
  · unfold Spectra.powerSpectrumIiRaw
    cases s.nonlinearMode <;> simp only <;> ring

/-- C117: the stored two-halo part of the legacy matter-intrinsic spectrum with `bnl` lacks the term of the non-linear
halo bias, which its total has -/
theorem C117_mi_parts (hf : o.fortuna = false) (hb : o.bnl = true) (s : Spectra) (z k : ℕ) :
    (pMI o B prof sA cA b).pk1h z k + (pMI o B prof sA cA b).pk2h z k - (pMI o B prof sA cA b).pkTot z k =
        plin o B z k * iNL B (fun m => cA z k m + sA z k m) (matterProfile2h B z k) z k ∧
      s.powerSpectrumMiRaw.pk1h b z k + s.powerSpectrumMiRaw.pk2h b z k = s.powerSpectrumMiRaw.pkTot b z k := by
  constructor
  · simp only [pMI, hf, hb, Bool.false_eq_true, if_false, if_true]; ring
  · unfold Spectra.powerSpectrumMiRaw
    cases s.nonlinearMode <;> simp only <;> ring

/-- C117: the average mass.  The legacy module reads the mean halo mass of centrals; the rewritten library divides the
same integral by the density of all galaxies, so that its mass is smaller by the fraction of centrals, and the alignment of
satellites by a power of it -/
theorem C117_mass_avg {beta mp : ℝ} (hx : B.satHaloMass = some (beta, mp)) (hsA : sAlign B b = .ok sA) (z k m : ℕ)
    (hc : B.numdenCen b z ≠ 0) (hfc : B.fCen b z = B.numdenCen b z / nd b z)
    (ham : B.massAvg b z = am b z / B.numdenCen b z) (hf0 : 0 ≤ B.fCen b z) (hM0 : 0 ≤ B.massAvg b z) (hmp : 0 < mp) :
    (toSpectra o B p nd am).massAvg b z = B.fCen b z * B.massAvg b z ∧
      (toSpectra o B p nd am).satelliteAlignmentProfile b z k m = B.fCen b z ^ beta * sA z k m := by
  have e : (toSpectra o B p nd am).massAvg b z = B.fCen b z * B.massAvg b z := by
    rw [hfc, ham]
    change am b z / nd b z = _
    rw [div_mul_div_comm, mul_comm (nd b z), mul_div_mul_left _ _ hc]
  refine ⟨e, ?_⟩
  simp only [sAlign, hx, satelliteAlignmentProfile, Except.ok.injEq] at hsA
  subst hsA
  simp only [Spectra.satelliteAlignmentProfile, e, additionalTerm]
  have e1 : (toSpectra o B p nd am).betaSat = some beta := by simp [toSpectra, hx]
  have e2 : (toSpectra o B p nd am).mpivotSat = some mp := by simp [toSpectra, hx]
  rw [e1, e2]
  simp only [Spectra.additionalTerm]
  rw [mul_div_assoc (B.fCen b z), Real.mul_rpow hf0 (div_nonneg hM0 hmp.le)]
  change B.fSat b z * B.nSat b z m * B.wkm z m k / B.numdenSat b z * _ = _
  ring

/-! ### `execute` -/

private theorem bind_ok {α β : Type} {x : Except PyErr α} {f : α → Except PyErr β} {y : β} :
    x.bind f = .ok y ↔ ∃ a, x = .ok a ∧ f a = .ok y := by
  cases x <;> simp [Except.bind]

private theorem guarded_ok {α : Type} {c : Bool} {x : Except PyErr α} {r : Option α} :
    guarded c x = .ok r ↔ (c = true ∧ ∃ a, x = .ok a ∧ r = some a) ∨ (c = false ∧ r = none) := by
  cases c <;> cases x <;> simp [guarded, eq_comm]

private theorem guarded_get {α : Type} {c : Bool} {x : Except PyErr α} {r : Option α} (h : guarded c x = .ok r)
    (hc : c = true) : ∃ a, x = .ok a ∧ r = some a := by
  rcases guarded_ok.1 h with h | h
  · exact h.2
  · rw [hc] at h; cases h.1

/-- the arguments of `poisson_func` suffice -/
def PoissonOk (o : Opts) (B : Block) : Prop :=
  match o.poissonType with
  | .other => True
  | .scalar => B.poisson ≠ none
  | .powerLaw => B.poisson ≠ none ∧ B.m0 ≠ none ∧ B.slope ≠ none

private theorem poisson_ok : (∃ p, poissonFunc o B = .ok p) ↔ PoissonOk o B := by
  unfold poissonFunc PoissonOk
  cases o.poissonType <;> cases B.poisson <;> cases B.m0 <;> cases B.slope <;> simp

private theorem respond_ok (r : Out) : (∃ l, respond o B r = .ok l) ↔ (o.response = true → o.matter = true) := by
  unfold respond localPkMm
  cases o.response <;> cases o.matter <;> simp

private theorem salign_ok : (∃ l, sAlign B b = .ok l) ↔ B.satHaloMass ≠ none := by
  unfold sAlign satelliteAlignmentProfile
  rcases B.satHaloMass with _ | ⟨_, _⟩ <;> simp

private theorem calign_ok : (∃ l, cAlign B b = .ok l) ↔ B.cenHaloMass ≠ none := by
  unfold cAlign centralAlignmentProfile
  rcases B.cenHaloMass with _ | ⟨_, _⟩ <;> simp

private theorem prof_ok :
    (∃ l, profile1h o B b = .ok l) ↔ o.mead = .fit ∨ o.pointMass = true ∨ o.matter = true := by
  unfold profile1h localProfile1hMm
  cases o.pointMass <;> cases o.matter <;> by_cases h : o.mead = .fit <;> simp [h]

private theorem ex_guarded {α : Type} {c : Bool} {x : Except PyErr α} :
    (∃ r, guarded c x = .ok r) ↔ (c = true → ∃ a, x = .ok a) := by
  cases c <;> cases x <;> simp [guarded]

/-- C117: one turn of the loop of the legacy module ends without an exception exactly when a matter spectrum is requested
or the profile does not need one, both alignment instances are `halo_mass` if alignments are requested, the Poisson
parameters are there if galaxies are requested, and the response has a matter spectrum to divide by -/
theorem C117_runs (hg : o.galaxy = true) :
    (∃ out, bin o B b = .ok out) ↔
      (o.mead = .fit ∨ o.pointMass = true ∨ o.matter = true) ∧
      (o.alignment = true → B.satHaloMass ≠ none ∧ B.cenHaloMass ≠ none) ∧
      (o.pGg = true → PoissonOk o B) ∧ (o.response = true → o.matter = true) := by
  constructor
  · rintro ⟨out, h⟩
    unfold bin at h
    obtain ⟨prof, h1, h⟩ := bind_ok.1 h
    obtain ⟨sA, h2, h⟩ := bind_ok.1 h
    obtain ⟨cA, h3, h⟩ := bind_ok.1 h
    obtain ⟨gg, h4, h⟩ := bind_ok.1 h
    obtain ⟨gm, h5, h⟩ := bind_ok.1 h
    obtain ⟨ii, h6, h⟩ := bind_ok.1 h
    obtain ⟨gi, h7, h⟩ := bind_ok.1 h
    obtain ⟨mi, h8, h⟩ := bind_ok.1 h
    refine ⟨prof_ok.1 ⟨_, h1⟩, fun ha => ⟨?_, ?_⟩, fun hq => ?_, ?_⟩
    · obtain ⟨a, ha, -⟩ := guarded_get h2 ha
      exact salign_ok.1 ⟨a, ha⟩
    · obtain ⟨a, ha, -⟩ := guarded_get h3 ha
      exact calign_ok.1 ⟨a, ha⟩
    · obtain ⟨a, ha, -⟩ := guarded_get h4 hq
      obtain ⟨p, hp, -⟩ := bind_ok.1 ha
      exact poisson_ok.1 ⟨p, hp⟩
    · have hg' : (o.pGg = true ∨ o.pII = true ∨ o.pGI = true) ∨ o.pGm = true ∨ o.pMI = true := by
        revert hg
        unfold Opts.galaxy
        cases o.pGg <;> cases o.pII <;> cases o.pGI <;> cases o.pGm <;> cases o.pMI <;> simp
      rcases hg' with (hq | hq | hq) | hq | hq
      · obtain ⟨a, ha, -⟩ := guarded_get h4 hq
        obtain ⟨p, -, ha⟩ := bind_ok.1 ha
        exact (respond_ok _).1 ⟨_, ha⟩
      · obtain ⟨a, ha, -⟩ := guarded_get h6 hq
        exact (respond_ok _).1 ⟨_, ha⟩
      · obtain ⟨a, ha, -⟩ := guarded_get h7 hq
        exact (respond_ok _).1 ⟨_, ha⟩
      · obtain ⟨a, ha, -⟩ := guarded_get h5 hq
        exact (respond_ok _).1 ⟨_, ha⟩
      · obtain ⟨a, ha, -⟩ := guarded_get h8 hq
        exact (respond_ok _).1 ⟨_, ha⟩
  · rintro ⟨h1, h2, h3, h4⟩
    obtain ⟨prof, e1⟩ := (prof_ok (o := o) (B := B) (b := b)).2 h1
    obtain ⟨sA, e2⟩ := ex_guarded.2 fun ha => (salign_ok (B := B) (b := b)).2 (h2 ha).1
    obtain ⟨cA, e3⟩ := ex_guarded.2 fun ha => (calign_ok (B := B) (b := b)).2 (h2 ha).2
    have hr := fun r => (respond_ok (o := o) (B := B) r).2 h4
    obtain ⟨gg, e4⟩ := ex_guarded (c := o.pGg)
      (x := (poissonFunc o B).bind fun p => respond o B (pGg o B p b).1) |>.2 fun hq => by
        obtain ⟨p, hp⟩ := poisson_ok.2 (h3 hq)
        obtain ⟨l, hl⟩ := hr (pGg o B p b).1
        exact ⟨l, bind_ok.2 ⟨p, hp, hl⟩⟩
    obtain ⟨gm, e5⟩ := ex_guarded (c := o.pGm) |>.2 fun _ => hr (pGm o B prof b).1
    obtain ⟨ii, e6⟩ := ex_guarded (c := o.pII) |>.2 fun _ => hr (pII o B (sA.getD 0) (cA.getD 0) b)
    obtain ⟨gi, e7⟩ := ex_guarded (c := o.pGI) |>.2 fun _ => hr (pGI o B (sA.getD 0) (cA.getD 0) b)
    obtain ⟨mi, e8⟩ := ex_guarded (c := o.pMI) |>.2 fun _ => hr (pMI o B prof (sA.getD 0) (cA.getD 0) b)
    exact ⟨_, bind_ok.2 ⟨_, e1, bind_ok.2 ⟨_, e2, bind_ok.2 ⟨_, e3, bind_ok.2 ⟨_, e4, bind_ok.2 ⟨_, e5,
      bind_ok.2 ⟨_, e6, bind_ok.2 ⟨_, e7, bind_ok.2 ⟨_, e8, rfl⟩⟩⟩⟩⟩⟩⟩⟩⟩

/-- C117: requested alone, the galaxy spectrum stops the legacy module with an `UnboundLocalError` -/
theorem C117_galaxies_alone (hm : o.matter = false) (hf : o.mead ≠ .fit) (hp : o.pointMass = false) :
    bin o B b = .error .unboundLocal := by
  simp [bin, profile1h, localProfile1hMm, hm, hf, hp, Except.bind]

/-- C117: an alignment that is not `halo_mass` stops it with a `TypeError` -/
theorem C117_alignment_instance (ha : o.alignment = true) (hm : o.mead = .fit ∨ o.pointMass = true ∨ o.matter = true)
    (hx : B.satHaloMass = none ∨ B.cenHaloMass = none) : bin o B b = .error .typeError := by
  obtain ⟨prof, e1⟩ := (prof_ok (o := o) (B := B) (b := b)).2 hm
  rcases hs : B.satHaloMass with _ | ⟨_, _⟩
  · simp [bin, e1, Except.bind, guarded, ha, sAlign, hs, satelliteAlignmentProfile]
  · rw [hs] at hx
    have hc : B.cenHaloMass = none := by simpa using hx
    simp [bin, e1, Except.bind, guarded, ha, sAlign, cAlign, hs, hc, satelliteAlignmentProfile,
      centralAlignmentProfile]

private theorem respond_agree (hs : o.SameMode) (hν : B.fnu = 0) (hn : 2 ≤ B.nm) {n : PkResult} {r l : Out}
    (h : respond o B r = .ok l) :
    ∃ n', (toSpectra o B p nd am).applyResponse n = .ok n' ∧
      (Agree b n r → Agree b n' l) ∧ (AgreeTot b n r → AgreeTot b n' l) := by
  obtain ⟨mm, e1, e2⟩ := C117_mm (p := p) (nd := nd) (am := am) hs hν hn
  unfold respond at h
  unfold Spectra.applyResponse
  have e3 : (toSpectra o B p nd am).response = o.response := rfl
  have e4 : (toSpectra o B p nd am).pkNl = B.pnl := rfl
  rw [e3, e1, e4]
  rcases hr : o.response with _ | _
  · simp only [hr, Bool.false_eq_true, if_false, Except.ok.injEq] at h ⊢
    subst h
    exact ⟨n, rfl, id, id⟩
  · simp only [hr, if_true] at h ⊢
    split at h
    · cases h
    · rename_i mm' hmm
      have : mm' = pMm o B := by
        unfold localPkMm at hmm
        split at hmm
        · exact (Option.some.inj hmm).symm
        · cases hmm
      subst this
      cases h
      refine ⟨_, rfl, fun ha z k => ?_, fun ha z k => ?_⟩
      · obtain ⟨a1, a2, a3⟩ := ha z k
        obtain ⟨-, -, a4⟩ := e2 0 z k
        simp only [a1, a2, a3, a4]
        refine ⟨?_, ?_, ?_⟩ <;> ring
      · obtain ⟨a1, a3⟩ := ha z k
        obtain ⟨-, -, a4⟩ := e2 0 z k
        simp only [a1, a3, a4]
        refine ⟨?_, ?_⟩ <;> ring

/-- C117: what the legacy module stores for a bin is what the rewritten library returns on the same inputs, with and
without the response, in every mode: all parts of the galaxy, galaxy-matter and galaxy-intrinsic spectra, and the
one-halo part and the total of the other two -/
theorem C117_same (hs : o.SameMode) (hν : B.fnu = 0) (hn : 2 ≤ B.nm) (hB : o.bnl = true → B.SymmetricEdge)
    (hpm : o.pointMass = true → o.mead2020 = false)
    (hM : o.alignment = true → ∀ z, B.massAvg b z = am b z / nd b z)
    (hp : o.pGg = true → poissonFunc o B = .ok p) {out : BinOut} (h : bin o B b = .ok out) :
    (o.pGg = true → ∃ l n, out.gg = some l ∧ (toSpectra o B p nd am).powerSpectrumGg = .ok n ∧ Agree b n l) ∧
    (o.pGm = true → ∃ l n, out.gm = some l ∧ (toSpectra o B p nd am).powerSpectrumGm = .ok n ∧ Agree b n l) ∧
    (o.pGI = true → ∃ l n, out.gi = some l ∧ (toSpectra o B p nd am).powerSpectrumGi = .ok n ∧ Agree b n l) ∧
    (o.pII = true → ∃ l n, out.ii = some l ∧ (toSpectra o B p nd am).powerSpectrumIi = .ok n ∧ AgreeTot b n l) ∧
    (o.pMI = true → ∃ l n, out.mi = some l ∧ (toSpectra o B p nd am).powerSpectrumMi = .ok n ∧ AgreeTot b n l) := by
  unfold bin at h
  obtain ⟨prof, h1, h⟩ := bind_ok.1 h
  obtain ⟨sA, h2, h⟩ := bind_ok.1 h
  obtain ⟨cA, h3, h⟩ := bind_ok.1 h
  obtain ⟨gg, h4, h⟩ := bind_ok.1 h
  obtain ⟨gm, h5, h⟩ := bind_ok.1 h
  obtain ⟨ii, h6, h⟩ := bind_ok.1 h
  obtain ⟨gi, h7, h⟩ := bind_ok.1 h
  obtain ⟨mi, h8, h⟩ := bind_ok.1 h
  cases h
  refine ⟨fun hq => ?_, fun hq => ?_, fun hq => ?_, fun hq => ?_, fun hq => ?_⟩
  · obtain ⟨l, hl, rfl⟩ := guarded_get h4 hq
    obtain ⟨p', hp', hl⟩ := bind_ok.1 hl
    rw [hp hq] at hp'
    cases hp'
    obtain ⟨n, e1, e2, -⟩ := respond_agree (p := p) (nd := nd) (am := am) (b := b) hs hν hn hl
    exact ⟨l, n, rfl, e1, e2 (C117_gg hs hn b).1⟩
  · obtain ⟨l, hl, rfl⟩ := guarded_get h5 hq
    obtain ⟨n, e1, e2, -⟩ := respond_agree (p := p) (nd := nd) (am := am) (b := b) hs hν hn hl
    exact ⟨l, n, rfl, e1, e2 (C117_gm hs hν hn hB hpm h1).1⟩
  · have ha : o.alignment = true := by simp [Opts.alignment, hq]
    obtain ⟨sA', hsA, rfl⟩ := guarded_get h2 ha
    obtain ⟨cA', hcA, rfl⟩ := guarded_get h3 ha
    obtain ⟨l, hl, rfl⟩ := guarded_get h7 hq
    obtain ⟨n, e1, e2, -⟩ := respond_agree (p := p) (nd := nd) (am := am) (b := b) hs hν hn hl
    exact ⟨l, n, rfl, e1, e2 (C117_gi hs hn hB (hM ha) hsA hcA)⟩
  · have ha : o.alignment = true := by simp [Opts.alignment, hq]
    obtain ⟨sA', hsA, rfl⟩ := guarded_get h2 ha
    obtain ⟨cA', hcA, rfl⟩ := guarded_get h3 ha
    obtain ⟨l, hl, rfl⟩ := guarded_get h6 hq
    obtain ⟨n, e1, -, e2⟩ := respond_agree (p := p) (nd := nd) (am := am) (b := b) hs hν hn hl
    exact ⟨l, n, rfl, e1, e2 (C117_ii hs hn hB (hM ha) hsA hcA)⟩
  · have ha : o.alignment = true := by simp [Opts.alignment, hq]
    obtain ⟨sA', hsA, rfl⟩ := guarded_get h2 ha
    obtain ⟨cA', hcA, rfl⟩ := guarded_get h3 ha
    obtain ⟨l, hl, rfl⟩ := guarded_get h8 hq
    obtain ⟨n, e1, -, e2⟩ := respond_agree (p := p) (nd := nd) (am := am) (b := b) hs hν hn hl
    exact ⟨l, n, rfl, e1, e2 (C117_mi hs hν hn hB hpm h1 (hM ha) hsA hcA)⟩

end

/-! ### Concrete cases -/

/-- two masses, constant halo functions, a `beta` that depends on the first mass only if `a` -/
noncomputable def exampleBlock (a : Bool) : Block where
  nm := 2
  zVec := fun z => z
  kVec := fun k => k + 1
  mass := fun m => m + 1
  dndlnm := fun _ _ => 1
  bDm := fun _ _ => 1
  meanDensity0 := 2
  fnu := 0
  omegaC := 0.25
  omegaM := 0.3
  omegaB := 0.05
  log10TAGN := 7.8
  mb := 10
  uDm := fun _ _ _ => 1
  uSat := fun _ _ _ => 1
  sigma8z := fun _ => 1
  neff := fun _ => -1
  growthFactor := fun _ => 1
  plinRead := fun _ _ => 3
  plinDewiggled := fun _ _ => 2
  pnl := fun _ _ => 5
  beta := fun _ m1 m2 _ => if a then m1 else m1 + m2
  fstarMm := fun _ _ => 0.01
  nCen := fun _ _ _ => 1
  nSat := fun _ _ m => m
  numdenCen := fun _ _ => 1
  numdenSat := fun _ _ => 1
  fCen := fun _ _ => 0.5
  fSat := fun _ _ => 0.5
  massAvg := fun _ _ => 4
  fstar := fun _ _ _ => 0.01
  alignmentGi := fun _ => 1
  wkm := fun _ _ _ => 1
  satHaloMass := some (1, 2)
  cenHaloMass := some (1, 2)
  poisson := none
  m0 := none
  slope := none
  tEff := 0

/-- all spectra with the non-linear halo bias and the response -/
def exampleOpts : Opts :=
  ⟨true, true, true, true, true, true, true, false, true, false, false, .none, .other, none, none, none, none⟩

example : exampleOpts.SameMode ∧ (exampleBlock false).fnu = 0 ∧ 2 ≤ (exampleBlock false).nm ∧
    (exampleBlock false).SymmetricEdge ∧ (exampleOpts.pointMass = true → exampleOpts.mead2020 = false) ∧
    (∀ z, (exampleBlock false).massAvg 0 z = (fun _ _ => 8 : ℕ → ℕ → ℝ) 0 z / (fun _ _ => 2 : ℕ → ℕ → ℝ) 0 z) ∧
    poissonFunc exampleOpts (exampleBlock false) = .ok (fun _ => 1) ∧
    ∃ out, bin exampleOpts (exampleBlock false) 0 = .ok out := by
  refine ⟨⟨by simp [exampleOpts], by simp [exampleOpts, Opts.mead2020]⟩, rfl, le_refl 2, ?_, by simp [exampleOpts],
    ?_, rfl, ?_⟩
  · intro z k m _; simp [exampleBlock]
  · intro z; simp only [exampleBlock]; norm_num
  · refine (C117_runs (by simp [exampleOpts, Opts.galaxy])).2 ⟨?_, ?_, ?_, ?_⟩ <;>
      simp [exampleOpts, exampleBlock, PoissonOk, Opts.matter]

/-- with a `beta` that is not symmetric the integrals over two different profiles differ -/
example : iNL (exampleBlock true) (fun _ => 1) (fun m => m + 1) 0 0 ≠
    (toSpectra exampleOpts (exampleBlock true) (fun _ => 1) (fun _ _ => 1) (fun _ _ => 1)).iNL (fun _ => 1)
      (fun m => m + 1) 0 0 := by
  rw [C117_inl (o := exampleOpts) (p := fun _ => 1) (nd := fun _ _ => 1) (am := fun _ _ => 1) (le_refl 2)]
  intro h
  have := add_eq_left.1 h
  norm_num [edgeGap, trapezoid, exampleBlock, aTerm, simpson, sum_range_succ] at this

/-- half of the galaxies are centrals: the average mass is half as large -/
example (o : Opts) (p : ℕ → ℝ) : (toSpectra o (exampleBlock false) p (fun _ _ => 2) (fun _ _ => 4)).massAvg 0 0 = 2 ∧
    (exampleBlock false).massAvg 0 0 = 4 := by
  obtain ⟨sA, h⟩ := (salign_ok (B := exampleBlock false) (b := 0)).2 (by simp [exampleBlock])
  refine ⟨?_, rfl⟩
  rw [(C117_mass_avg (nd := fun _ _ => 2) (am := fun _ _ => 4) (beta := 1) (mp := 2) rfl h 0 0 0 (by simp [exampleBlock])
    (by norm_num [exampleBlock]) (by norm_num [exampleBlock]) (by norm_num [exampleBlock]) (by norm_num [exampleBlock])
    (by norm_num)).1]
  norm_num [exampleBlock]

/-- only the galaxy spectrum -/
def galaxiesOnly : Opts :=
  ⟨false, true, false, false, false, false, false, false, false, false, false, .none, .other, none, none, none, none⟩

/-- the galaxy spectrum alone: the legacy module stops, the rewritten library gives a number -/
example : bin galaxiesOnly (exampleBlock false) 0 = .error .unboundLocal ∧
    ∃ n, (toSpectra galaxiesOnly (exampleBlock false) (fun _ => 1) (fun _ _ => 1) (fun _ _ => 1)).powerSpectrumGg
      = .ok n :=
  ⟨C117_galaxies_alone rfl (by simp [galaxiesOnly]) rfl, _, rfl⟩

/-- the stored parts of the legacy intrinsic-intrinsic spectrum need not add up to its total -/
example : (pII galaxiesOnly (exampleBlock false) (fun _ _ _ => 1) (fun _ _ _ => 2) 0).pk1h 0 0
      + (pII galaxiesOnly (exampleBlock false) (fun _ _ _ => 1) (fun _ _ _ => 2) 0).pk2h 0 0
    ≠ (pII galaxiesOnly (exampleBlock false) (fun _ _ _ => 1) (fun _ _ _ => 2) 0).pkTot 0 0 := by
  intro h
  have h2 := (C117_ii_parts (o := galaxiesOnly) (B := exampleBlock false) (b := 0) (sA := fun _ _ _ => 1)
    (cA := fun _ _ _ => 2) rfl rfl (toSpectra galaxiesOnly (exampleBlock false) (fun _ => 1) (fun _ _ => 1)
    (fun _ _ => 1)) 0 0).1
  rw [h, sub_self] at h2
  norm_num [plin, galaxiesOnly, Opts.mead2020, exampleBlock, igAlignTerm, igTerm, aTerm, simpson, sum_range_succ,
    twoHaloTruncationIa, show ¬(Mead.none = Mead.feedback) by decide,
    show ¬(Mead.none = Mead.noFeedback) by decide] at h2

end Verif.LegacyPk

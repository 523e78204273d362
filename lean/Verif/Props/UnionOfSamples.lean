import Verif.Props.PkTextbook
import Verif.Props.PkSigns
import Verif.Props.PkRounded
import Verif.Props.PkDemo
import Verif.Model.Add

/-! Property C155: two samples in the same halos, their union, and the mixture computed by `UpsampledSpectra`. -/

namespace Verif.Pk.Samples

open Verif.Lib Verif.Spec Verif.Pk Verif.Pk.Spectra

/-- a population of galaxies: mean numbers of centrals and satellites, and number densities -/
structure Population where
  cen : ℕ → ℕ → ℕ → ℝ
  sat : ℕ → ℕ → ℕ → ℝ
  nCen : ℕ → ℕ → ℝ
  nSat : ℕ → ℕ → ℝ

/-- all galaxies of two populations -/
def Population.union (p q : Population) : Population :=
  ⟨fun b z m => p.cen b z m + q.cen b z m, fun b z m => p.sat b z m + q.sat b z m, fun b z => p.nCen b z + q.nCen b z,
    fun b z => p.nSat b z + q.nSat b z⟩

/-- number density of all galaxies of a population -/
def Population.n (p : Population) (b z : ℕ) : ℝ := p.nCen b z + p.nSat b z

/-- these galaxies in the halos of `s` -/
noncomputable def populate (s : Spectra) (p : Population) : Spectra :=
  { s with
    hodCen := p.cen
    hodSat := p.sat
    numberDensity := p.n
    numberDensityCen := p.nCen
    numberDensitySat := p.nSat
    fC := fun b z => p.nCen b z / p.n b z
    fS := fun b z => p.nSat b z / p.n b z }

/-- there are centrals and satellites -/
structure Population.Present (p : Population) (b z : ℕ) : Prop where
  cen : 0 < p.nCen b z
  sat : 0 < p.nSat b z

variable {s : Spectra} {p q : Population} {b z k : ℕ}

theorem Population.Present.n (h : p.Present b z) : 0 < p.n b z := add_pos h.cen h.sat

theorem Population.Present.union (h : p.Present b z) (h' : q.Present b z) : (p.union q).Present b z := ⟨add_pos h.cen h'.cen, add_pos h.sat h'.sat⟩

theorem union_n (p q : Population) (b z : ℕ) : (p.union q).n b z = p.n b z + q.n b z := by
  simp only [Population.n, Population.union]; ring

theorem occupied (s : Spectra) (h : p.Present b z) : Occupied (populate s p) b z :=
  ⟨h.n.ne', h.cen.ne', h.sat.ne', rfl, rfl⟩

/-- the part of the galaxies of the union that are of the first population -/
noncomputable def share (p q : Population) (b z : ℕ) : ℝ := p.n b z / (p.n b z + q.n b z)

theorem share_mem (h : p.Present b z) (h' : q.Present b z) : 0 < share p q b z ∧ share p q b z < 1 := by
  have a := h.n
  have c := h'.n
  refine ⟨div_pos a (add_pos a c), ?_⟩
  rw [share, div_lt_one (add_pos a c)]; linarith

theorem union_weight (s : Spectra) (h : p.Present b z) (h' : q.Present b z) (m : ℕ) :
    galaxyWeight (populate s (p.union q)) b z k m =
      share p q b z * galaxyWeight (populate s p) b z k m + (1 - share p q b z) * galaxyWeight (populate s q) b z k m := by
  have a := h.n
  have c := h'.n
  have e := add_pos a c
  simp only [galaxyWeight, HaloModel.galaxies, populate, union_n, share]
  simp only [Population.union]
  field_simp
  ring

theorem union_bias (s : Spectra) (h : p.Present b z) (h' : q.Present b z) :
    (haloes s z k).bias1 (galaxyWeight (populate s (p.union q)) b z k) =
      share p q b z * (haloes s z k).bias1 (galaxyWeight (populate s p) b z k) +
      (1 - share p q b z) * (haloes s z k).bias1 (galaxyWeight (populate s q) b z k) := by
  simp only [HaloModel.bias1]
  change simpson s.nm s.mass _ = share p q b z * simpson s.nm s.mass _ + (1 - share p q b z) * simpson s.nm s.mass _
  rw [← simpson_smul, ← simpson_smul, ← simpson_add]
  refine congrArg _ (funext fun m => ?_)
  rw [union_weight s h h']
  ring

theorem union_cross (s : Spectra) (h : p.Present b z) (h' : q.Present b z) (V : ℕ → ℝ) :
    (haloes s z k).oneHalo (galaxyWeight (populate s (p.union q)) b z k) V =
      share p q b z * (haloes s z k).oneHalo (galaxyWeight (populate s p) b z k) V +
      (1 - share p q b z) * (haloes s z k).oneHalo (galaxyWeight (populate s q) b z k) V := by
  simp only [HaloModel.oneHalo]
  change simpson s.nm s.mass _ = share p q b z * simpson s.nm s.mass _ + (1 - share p q b z) * simpson s.nm s.mass _
  rw [← simpson_smul, ← simpson_smul, ← simpson_add]
  refine congrArg _ (funext fun m => ?_)
  rw [union_weight s h h']
  ring

/-- C155: galaxies and matter.  The spectra of all galaxies of two samples with matter are the mixture which `UpsampledSpectra` computes, if the
fraction is that of the numbers of galaxies. -/
theorem C155_galaxies_matter (hs : Sampled s) (hmode : s.nonlinearMode ≠ .bnl) (hresp : s.response = false) (h : p.Present b z) (h' : q.Present b z) :
    ∃ u r1 r2, (populate s (p.union q)).powerSpectrumGm = .ok u ∧ (populate s p).powerSpectrumGm = .ok r1 ∧ (populate s q).powerSpectrumGm = .ok r2 ∧
      u.pk1h b z k = share p q b z * r1.pk1h b z k + (1 - share p q b z) * r2.pk1h b z k ∧
      u.pk2h b z k = share p q b z * r1.pk2h b z k + (1 - share p q b z) * r2.pk2h b z k ∧
      ∀ (nz i : ℕ) (c : String), c = "gm" ∨ c = "mi" → ∀ m, Add.combine c ⟨nz, fun _ => share p q b z⟩ ⟨nz, fun _ _ _ => r1.pk1h b z k⟩
        ⟨nz, fun _ _ _ => r2.pk1h b z k⟩ = .ok m → m.val b i k = u.pk1h b z k := by
  obtain ⟨u, u1, u2⟩ := C97_galaxies_matter (s := populate s (p.union q)) ⟨hs.mass, hs.some⟩ hmode hresp
  obtain ⟨r1, a1, a2⟩ := C97_galaxies_matter (s := populate s p) ⟨hs.mass, hs.some⟩ hmode hresp
  obtain ⟨r2, b1, b2⟩ := C97_galaxies_matter (s := populate s q) ⟨hs.mass, hs.some⟩ hmode hresp
  have U := u2 b z k (occupied s (h.union h'))
  have A := a2 b z k (occupied s h)
  have B := b2 b z k (occupied s h')
  have c1 := union_cross (k := k) s h h' (s.matterProfile1hG b z k)
  have c2 := union_bias (k := k) s h h'
  have e1 : u.pk1h b z k = share p q b z * r1.pk1h b z k + (1 - share p q b z) * r2.pk1h b z k := by
    rw [U.1, A.1, B.1]
    change (haloes s z k).oneHalo _ (s.matterProfile1hG b z k) * s.oneHaloTruncation k = _ * ((haloes s z k).oneHalo _ (s.matterProfile1hG b z k) * s.oneHaloTruncation k)
      + _ * ((haloes s z k).oneHalo _ (s.matterProfile1hG b z k) * s.oneHaloTruncation k)
    rw [c1]; ring
  refine ⟨u, r1, r2, u1, a1, b1, e1, ?_, ?_⟩
  · rw [U.2, A.2, B.2]
    change (haloes s z k).linear * (haloes s z k).bias1 _ * ((haloes s z k).bias1 ((haloes s z k).matter (s.uDm z k)) + (haloes s z k).missing) * s.twoHaloTruncation k =
      _ * ((haloes s z k).linear * (haloes s z k).bias1 _ * ((haloes s z k).bias1 ((haloes s z k).matter (s.uDm z k)) + (haloes s z k).missing) * s.twoHaloTruncation k)
      + _ * ((haloes s z k).linear * (haloes s z k).bias1 _ * ((haloes s z k).bias1 ((haloes s z k).matter (s.uDm z k)) + (haloes s z k).missing) * s.twoHaloTruncation k)
    rw [c2]; ring
  · intro nz i c hc m hm
    have : c ∈ ["gm", "mi"] := by simpa using hc
    simp only [Add.combine, this, if_true] at hm
    split_ifs at hm
    cases hm
    exact e1.symm

/-- pairs of a galaxy of one population with a galaxy of the other in the same halo, per unit of both densities -/
noncomputable def mixedPairs (s : Spectra) (p q : Population) (b z k : ℕ) : ℝ :=
  simpson s.nm s.mass fun m => (p.cen b z m * (q.sat b z m * s.uSat z k m) + q.cen b z m * (p.sat b z m * s.uSat z k m)
    + s.poissonFunc m * ((p.sat b z m * s.uSat z k m) * (q.sat b z m * s.uSat z k m))) / (p.n b z * q.n b z) * (s.dndlnm z m / s.mass m)

theorem union_pairs (s : Spectra) (h : p.Present b z) (h' : q.Present b z) :
    simpson s.nm s.mass (fun m => (2 * (p.union q).cen b z m * (p.union q).sat b z m * s.uSat z k m
        + s.poissonFunc m * ((p.union q).sat b z m * s.uSat z k m) ^ 2) / (p.union q).n b z ^ 2 * (s.dndlnm z m / s.mass m)) =
    share p q b z ^ 2 * simpson s.nm s.mass (fun m => (2 * p.cen b z m * p.sat b z m * s.uSat z k m
        + s.poissonFunc m * (p.sat b z m * s.uSat z k m) ^ 2) / p.n b z ^ 2 * (s.dndlnm z m / s.mass m)) +
    (1 - share p q b z) ^ 2 * simpson s.nm s.mass (fun m => (2 * q.cen b z m * q.sat b z m * s.uSat z k m
        + s.poissonFunc m * (q.sat b z m * s.uSat z k m) ^ 2) / q.n b z ^ 2 * (s.dndlnm z m / s.mass m)) +
    2 * share p q b z * (1 - share p q b z) * mixedPairs s p q b z k := by
  have a := h.n
  have c := h'.n
  have e := add_pos a c
  rw [mixedPairs, ← simpson_smul, ← simpson_smul, ← simpson_smul, ← simpson_add, ← simpson_add]
  refine congrArg _ (funext fun m => ?_)
  have e1 : share p q b z = p.n b z / (p.n b z + q.n b z) := rfl
  have e2 : 1 - share p q b z = q.n b z / (p.n b z + q.n b z) := by rw [e1]; field_simp; ring
  rw [e2, e1, union_n]
  simp only [Population.union]
  generalize s.dndlnm z m / s.mass m = w
  field_simp
  ring

/-- C155: galaxies with galaxies.  The power of all galaxies of two samples is the mixture `x² P₁ + (1 - x)² P₂` which `UpsampledSpectra`
computes, plus the pairs of a galaxy of one sample with one of the other, inside halos and between halos. -/
theorem C155_galaxies (hmode : s.nonlinearMode ≠ .bnl) (hresp : s.response = false) (h : p.Present b z) (h' : q.Present b z) :
    ∃ u r1 r2, (populate s (p.union q)).powerSpectrumGg = .ok u ∧ (populate s p).powerSpectrumGg = .ok r1 ∧ (populate s q).powerSpectrumGg = .ok r2 ∧
      u.pk1h b z k = share p q b z ^ 2 * r1.pk1h b z k + (1 - share p q b z) ^ 2 * r2.pk1h b z k
        + 2 * share p q b z * (1 - share p q b z) * mixedPairs s p q b z k * s.oneHaloTruncation k ∧
      u.pk2h b z k = share p q b z ^ 2 * r1.pk2h b z k + (1 - share p q b z) ^ 2 * r2.pk2h b z k
        + 2 * share p q b z * (1 - share p q b z) * (s.pkLin z k * ((haloes s z k).bias1 (galaxyWeight (populate s p) b z k) *
          (haloes s z k).bias1 (galaxyWeight (populate s q) b z k)) * s.twoHaloTruncation k) ∧
      ∀ (nz i : ℕ) m, Add.combine "gg" ⟨nz, fun _ => share p q b z⟩ ⟨nz, fun _ _ _ => r1.pk1h b z k⟩ ⟨nz, fun _ _ _ => r2.pk1h b z k⟩ = .ok m →
        u.pk1h b z k - m.val b i k = 2 * share p q b z * (1 - share p q b z) * mixedPairs s p q b z k * s.oneHaloTruncation k := by
  obtain ⟨u, u1, u2⟩ := C97_galaxies (s := populate s (p.union q)) hmode hresp
  obtain ⟨r1, a1, a2⟩ := C97_galaxies (s := populate s p) hmode hresp
  obtain ⟨r2, b1, b2⟩ := C97_galaxies (s := populate s q) hmode hresp
  have U := u2 b z k (occupied s (h.union h'))
  have A := a2 b z k (occupied s h)
  have B := b2 b z k (occupied s h')
  have c1 := union_pairs (k := k) s h h'
  have c2 := union_bias (k := k) s h h'
  have e1 : u.pk1h b z k = share p q b z ^ 2 * r1.pk1h b z k + (1 - share p q b z) ^ 2 * r2.pk1h b z k
        + 2 * share p q b z * (1 - share p q b z) * mixedPairs s p q b z k * s.oneHaloTruncation k := by
    have x : u.pk1h b z k = simpson s.nm s.mass (fun m => (2 * (p.union q).cen b z m * (p.union q).sat b z m * s.uSat z k m
        + s.poissonFunc m * ((p.union q).sat b z m * s.uSat z k m) ^ 2) / (p.union q).n b z ^ 2 * (s.dndlnm z m / s.mass m)) * s.oneHaloTruncation k := U.1
    have y : r1.pk1h b z k = simpson s.nm s.mass (fun m => (2 * p.cen b z m * p.sat b z m * s.uSat z k m
        + s.poissonFunc m * (p.sat b z m * s.uSat z k m) ^ 2) / p.n b z ^ 2 * (s.dndlnm z m / s.mass m)) * s.oneHaloTruncation k := A.1
    have w : r2.pk1h b z k = simpson s.nm s.mass (fun m => (2 * q.cen b z m * q.sat b z m * s.uSat z k m
        + s.poissonFunc m * (q.sat b z m * s.uSat z k m) ^ 2) / q.n b z ^ 2 * (s.dndlnm z m / s.mass m)) * s.oneHaloTruncation k := B.1
    rw [x, y, w, c1]; ring
  refine ⟨u, r1, r2, u1, a1, b1, e1, ?_, ?_⟩
  · have x : u.pk2h b z k = s.pkLin z k * (haloes s z k).bias1 (galaxyWeight (populate s (p.union q)) b z k) ^ 2 * s.twoHaloTruncation k := U.2
    have y : r1.pk2h b z k = s.pkLin z k * (haloes s z k).bias1 (galaxyWeight (populate s p) b z k) ^ 2 * s.twoHaloTruncation k := A.2
    have w : r2.pk2h b z k = s.pkLin z k * (haloes s z k).bias1 (galaxyWeight (populate s q) b z k) ^ 2 * s.twoHaloTruncation k := B.2
    rw [x, y, w, c2]; ring
  · intro nz i m hm
    have : ("gg" : String) ∉ ["gm", "mi"] := by decide
    simp only [Add.combine, this, if_false] at hm
    split_ifs at hm
    cases hm
    change u.pk1h b z k - (share p q b z ^ 2 * r1.pk1h b z k + (1 - share p q b z) ^ 2 * r2.pk1h b z k) = _
    rw [e1]; ring

/-- C155: how much is left out.  With nothing negative the mixture is never above the power of all galaxies; between halos it is at least half of
it, and as little as half when both samples contribute alike to the bias. -/
theorem C155_bounds (hmode : s.nonlinearMode ≠ .bnl) (hresp : s.response = false) (h : p.Present b z) (h' : q.Present b z) (g : GentleGrid s.nm s.mass)
    (hm : ∀ m < s.nm, 0 < s.mass m ∧ 0 ≤ s.dndlnm z m ∧ 0 ≤ s.haloBias z m ∧ 0 ≤ s.uSat z k m ∧ 0 ≤ s.poissonFunc m)
    (hp : ∀ m < s.nm, 0 ≤ p.cen b z m ∧ 0 ≤ p.sat b z m ∧ 0 ≤ q.cen b z m ∧ 0 ≤ q.sat b z m) (hl : 0 ≤ s.pkLin z k)
    (hk : 0 < s.kVec k) :
    ∃ u r1 r2, (populate s (p.union q)).powerSpectrumGg = .ok u ∧ (populate s p).powerSpectrumGg = .ok r1 ∧ (populate s q).powerSpectrumGg = .ok r2 ∧
      share p q b z ^ 2 * r1.pk1h b z k + (1 - share p q b z) ^ 2 * r2.pk1h b z k ≤ u.pk1h b z k ∧
      share p q b z ^ 2 * r1.pk2h b z k + (1 - share p q b z) ^ 2 * r2.pk2h b z k ≤ u.pk2h b z k ∧
      u.pk2h b z k ≤ 2 * (share p q b z ^ 2 * r1.pk2h b z k + (1 - share p q b z) ^ 2 * r2.pk2h b z k) ∧
      (share p q b z * (haloes s z k).bias1 (galaxyWeight (populate s p) b z k) =
          (1 - share p q b z) * (haloes s z k).bias1 (galaxyWeight (populate s q) b z k) →
        u.pk2h b z k = 2 * (share p q b z ^ 2 * r1.pk2h b z k + (1 - share p q b z) ^ 2 * r2.pk2h b z k)) := by
  obtain ⟨u, r1, r2, u1, a1, b1, e1, e2, -⟩ := C155_galaxies (k := k) hmode hresp h h'
  obtain ⟨x0, x1⟩ := share_mem h h'
  have y0 : 0 < 1 - share p q b z := by linarith
  have ht : 0 ≤ s.twoHaloTruncation k ∧ 0 ≤ s.oneHaloTruncation k := ⟨(PkRounded.twoHaloTruncation_pos k hk).le, oneHaloTruncation_nonneg s k⟩
  have w : ∀ o : Population, o.Present b z → (∀ m < s.nm, 0 ≤ o.cen b z m ∧ 0 ≤ o.sat b z m) →
      0 ≤ (haloes s z k).bias1 (galaxyWeight (populate s o) b z k) := fun o ho hh => by
    refine simpson_nonneg g fun m hmm => ?_
    obtain ⟨m0, d0, bb, uu, -⟩ := hm m hmm
    have n0 := ho.n
    have := hh m hmm
    exact mul_nonneg (mul_nonneg (div_nonneg (add_nonneg this.1 (mul_nonneg this.2 uu)) n0.le) bb) (div_nonneg d0 m0.le)
  have B1 := w p h fun m hmm => ⟨(hp m hmm).1, (hp m hmm).2.1⟩
  have B2 := w q h' fun m hmm => ⟨(hp m hmm).2.2.1, (hp m hmm).2.2.2⟩
  have mp : 0 ≤ mixedPairs s p q b z k := by
    refine simpson_nonneg g fun m hmm => ?_
    obtain ⟨m0, d0, -, uu, pp⟩ := hm m hmm
    obtain ⟨c1, s1, c2, s2⟩ := hp m hmm
    have n1 := h.n
    have n2 := h'.n
    positivity
  have r1e : r1.pk2h b z k = s.pkLin z k * (haloes s z k).bias1 (galaxyWeight (populate s p) b z k) ^ 2 * s.twoHaloTruncation k := by
    obtain ⟨r, e, f⟩ := C97_galaxies (s := populate s p) hmode hresp
    rw [a1, Except.ok.injEq] at e; subst e
    exact (f b z k (occupied s h)).2
  have r2e : r2.pk2h b z k = s.pkLin z k * (haloes s z k).bias1 (galaxyWeight (populate s q) b z k) ^ 2 * s.twoHaloTruncation k := by
    obtain ⟨r, e, f⟩ := C97_galaxies (s := populate s q) hmode hresp
    rw [b1, Except.ok.injEq] at e; subst e
    exact (f b z k (occupied s h')).2
  refine ⟨u, r1, r2, u1, a1, b1, ?_, ?_, ?_, fun heq => ?_⟩
  · rw [e1]
    have := mul_nonneg (mul_nonneg (mul_nonneg (mul_nonneg zero_le_two x0.le) y0.le) mp) ht.2
    linarith
  · rw [e2]
    have := mul_nonneg (mul_nonneg (mul_nonneg zero_le_two x0.le) y0.le) (mul_nonneg (mul_nonneg hl (mul_nonneg B1 B2)) ht.1)
    linarith
  · rw [e2, r1e, r2e]
    generalize (haloes s z k).bias1 (galaxyWeight (populate s p) b z k) = β at *
    generalize (haloes s z k).bias1 (galaxyWeight (populate s q) b z k) = γ at *
    generalize share p q b z = x at *
    have := mul_nonneg (mul_nonneg hl ht.1) (sq_nonneg (x * β - (1 - x) * γ))
    nlinarith
  · rw [e2, r1e, r2e]
    generalize (haloes s z k).bias1 (galaxyWeight (populate s p) b z k) = β at *
    generalize (haloes s z k).bias1 (galaxyWeight (populate s q) b z k) = γ at *
    generalize share p q b z = x at *
    have : s.pkLin z k * s.twoHaloTruncation k * (x * β - (1 - x) * γ) ^ 2 = 0 := by rw [heq]; ring
    linarith

/-- alignments do not depend on the mean mass of halos -/
structure MassBlind (s : Spectra) : Prop where
  cen : s.betaCen = none ∨ s.mpivotCen = none
  sat : s.betaSat = none ∨ s.mpivotSat = none

theorem additionalTerm_blind {β M : Option ℝ} (h : β = none ∨ M = none) (a : ℝ) : additionalTerm β M a = 1 := by
  rcases h with h | h
  · subst h; rfl
  · subst h; cases β <;> rfl

theorem union_central_alignment (hb : MassBlind s) (h : p.Present b z) (h' : q.Present b z) (m : ℕ) :
    (populate s (p.union q)).centralAlignmentProfile b z k m = share p q b z * (populate s p).centralAlignmentProfile b z k m
      + (1 - share p q b z) * (populate s q).centralAlignmentProfile b z k m := by
  have a := h.n
  have c := h'.n
  have e := add_pos a c
  simp only [centralAlignmentProfile, populate, additionalTerm_blind hb.cen, c1, union_n, share]
  simp only [Population.union]
  generalize 5e-14 * s.alignmentGi z / s.growthFactor z = w
  field_simp
  ring

theorem union_satellite_alignment (hb : MassBlind s) (h : p.Present b z) (h' : q.Present b z) (m : ℕ) :
    (populate s (p.union q)).satelliteAlignmentProfile b z k m = share p q b z * (populate s p).satelliteAlignmentProfile b z k m
      + (1 - share p q b z) * (populate s q).satelliteAlignmentProfile b z k m := by
  have a := h.n
  have c := h'.n
  have e := add_pos a c
  have s1 := h.sat
  have s2 := h'.sat
  have s3 := add_pos s1 s2
  simp only [satelliteAlignmentProfile, populate, additionalTerm_blind hb.sat, union_n, share]
  simp only [Population.union]
  field_simp
  ring

theorem union_align_terms (hb : MassBlind s) (h : p.Present b z) (h' : q.Present b z) :
    (populate s (p.union q)).icAlignTerm b z k = share p q b z * (populate s p).icAlignTerm b z k
      + (1 - share p q b z) * (populate s q).icAlignTerm b z k ∧
    (populate s (p.union q)).isAlignTerm b z k = share p q b z * (populate s p).isAlignTerm b z k
      + (1 - share p q b z) * (populate s q).isAlignTerm b z k := by
  have key : ∀ f g w : ℕ → ℝ, (∀ m, f m = share p q b z * g m + (1 - share p q b z) * w m) →
      s.computeIgTerm f z = share p q b z * s.computeIgTerm g z + (1 - share p q b z) * s.computeIgTerm w z := fun f g w e => by
    simp only [computeIgTerm]
    rw [← simpson_smul, ← simpson_smul, ← simpson_add]
    refine congrArg _ (funext fun m => ?_)
    rw [e]; ring
  constructor
  · have e := key _ _ _ (union_central_alignment (k := k) hb h h')
    have e0 := union_central_alignment (k := k) hb h h' 0
    unfold icAlignTerm
    rw [e0]
    change s.computeIgTerm _ z + s.aTerm z * _ * s.meanDensity0 z / s.mass 0 = _ * (s.computeIgTerm _ z + s.aTerm z * _ * s.meanDensity0 z / s.mass 0)
      + _ * (s.computeIgTerm _ z + s.aTerm z * _ * s.meanDensity0 z / s.mass 0)
    rw [e]; ring
  · have e := key _ _ _ (union_satellite_alignment (k := k) hb h h')
    have e0 := union_satellite_alignment (k := k) hb h h' 0
    unfold isAlignTerm
    rw [e0]
    change s.computeIgTerm _ z + s.aTerm z * _ * s.meanDensity0 z / s.mass 0 = _ * (s.computeIgTerm _ z + s.aTerm z * _ * s.meanDensity0 z / s.mass 0)
      + _ * (s.computeIgTerm _ z + s.aTerm z * _ * s.meanDensity0 z / s.mass 0)
    rw [e]; ring

theorem union_central_fraction (s : Spectra) (h : p.Present b z) (h' : q.Present b z) :
    (populate s (p.union q)).fC b z = share p q b z * (populate s p).fC b z + (1 - share p q b z) * (populate s q).fC b z := by
  have a := h.n
  have c := h'.n
  have e := add_pos a c
  simp only [populate, union_n, share]
  simp only [Population.union]
  field_simp
  ring

theorem union_align_pairs (s : Spectra) (hb : MassBlind s) (h : p.Present b z) (h' : q.Present b z) (V : ℕ → ℝ) :
    s.compute1hTerm V ((populate s (p.union q)).satelliteAlignmentProfile b z k) z =
      share p q b z * s.compute1hTerm V ((populate s p).satelliteAlignmentProfile b z k) z +
      (1 - share p q b z) * s.compute1hTerm V ((populate s q).satelliteAlignmentProfile b z k) z := by
  simp only [compute1hTerm]
  rw [← simpson_smul, ← simpson_smul, ← simpson_add]
  refine congrArg _ (funext fun m => ?_)
  rw [union_satellite_alignment hb h h']; ring

/-- C155: alignments with matter.  If alignments do not depend on the mean mass of halos, the mixture is the power of all galaxies. -/
theorem C155_alignments_matter (hmode : s.nonlinearMode ≠ .bnl) (hresp : s.response = false) (hb : MassBlind s) (h : p.Present b z)
    (h' : q.Present b z) :
    ∃ u r1 r2, (populate s (p.union q)).powerSpectrumMi = .ok u ∧ (populate s p).powerSpectrumMi = .ok r1 ∧ (populate s q).powerSpectrumMi = .ok r2 ∧
      u.pk1h b z k = share p q b z * r1.pk1h b z k + (1 - share p q b z) * r2.pk1h b z k ∧
      u.pk2h b z k = share p q b z * r1.pk2h b z k + (1 - share p q b z) * r2.pk2h b z k := by
  have R : ∀ o, (populate s o).powerSpectrumMi = .ok (populate s o).powerSpectrumMiRaw := fun o => by
    simp only [powerSpectrumMi, applyResponse, populate, hresp]; rfl
  obtain ⟨ec, es⟩ := union_align_terms (k := k) hb h h'
  have ef := union_central_fraction s h h'
  have e1 := union_align_pairs (k := k) s hb h h' (s.matterProfile1hG b z k)
  have one : ∀ o, (populate s o).powerSpectrumMiRaw.pk1h b z k =
      -1 * s.compute1hTerm (s.matterProfile1hG b z k) ((populate s o).satelliteAlignmentProfile b z k) z * s.oneHaloTruncationIa k := fun o => by
    have : (populate s o).nonlinearMode = s.nonlinearMode := rfl
    unfold powerSpectrumMiRaw
    rw [this]
    cases hm : s.nonlinearMode <;> rfl
  refine ⟨_, _, _, R _, R _, R _, ?_, ?_⟩
  · rw [one, one, one, e1]; ring
  · have two : (∀ o, (populate s o).powerSpectrumMiRaw.pk2h b z k = (populate s o).fC b z * s.peffVal z k * s.alignmentAmplitude2h z * s.twoHaloTruncationIa k) ∨
        ∀ o, (populate s o).powerSpectrumMiRaw.pk2h b z k = -1 * s.pkLin z k * (populate s o).icAlignTerm b z k * s.imTerm z k * s.twoHaloTruncationIa k
          + -1 * s.pkLin z k * (populate s o).isAlignTerm b z k * s.imTerm z k * s.twoHaloTruncationIa k := by
      have : ∀ o, (populate s o).nonlinearMode = s.nonlinearMode := fun _ => rfl
      unfold powerSpectrumMiRaw
      simp only [this]
      cases hm : s.nonlinearMode
      case bnl => exact absurd hm hmode
      case fortuna => exact .inl fun _ => rfl
      all_goals exact .inr fun _ => rfl
    rcases two with two | two
    · rw [two, two, two, ef]; ring
    · rw [two, two, two, ec, es]; ring

/-- C155: alignments with alignments.  As for galaxies, the pairs of one sample with the other are missing in the mixture. -/
theorem C155_alignments (hmode : s.nonlinearMode = .none ∨ s.nonlinearMode = .hmcode) (hresp : s.response = false) (hb : MassBlind s)
    (h : p.Present b z) (h' : q.Present b z) :
    ∃ u r1 r2, (populate s (p.union q)).powerSpectrumIi = .ok u ∧ (populate s p).powerSpectrumIi = .ok r1 ∧ (populate s q).powerSpectrumIi = .ok r2 ∧
      u.pk1h b z k = share p q b z ^ 2 * r1.pk1h b z k + (1 - share p q b z) ^ 2 * r2.pk1h b z k + 2 * share p q b z * (1 - share p q b z) *
        (simpson s.nm s.mass (fun m => (p.sat b z m * s.wkmSat z k m / p.n b z) * (q.sat b z m * s.wkmSat z k m / q.n b z)
          * (s.dndlnm z m / s.mass m)) * s.oneHaloTruncationIa k) ∧
      u.pk2h b z k = share p q b z ^ 2 * r1.pk2h b z k + (1 - share p q b z) ^ 2 * r2.pk2h b z k + 2 * share p q b z * (1 - share p q b z) *
        (s.pkLin z k * ((populate s p).icAlignTerm b z k * (populate s q).icAlignTerm b z k
          + (populate s p).isAlignTerm b z k * (populate s q).isAlignTerm b z k
          + ((populate s p).icAlignTerm b z k * (populate s q).isAlignTerm b z k
            + (populate s q).icAlignTerm b z k * (populate s p).isAlignTerm b z k) / 2) * s.twoHaloTruncationIa k) := by
  have R : ∀ o, (populate s o).powerSpectrumIi = .ok (populate s o).powerSpectrumIiRaw := fun o => by
    simp only [powerSpectrumIi, applyResponse, populate, hresp]; rfl
  obtain ⟨ec, es⟩ := union_align_terms (k := k) hb h h'
  have one : ∀ o, (populate s o).powerSpectrumIiRaw.pk1h b z k = s.compute1hTerm ((populate s o).satelliteAlignmentProfile b z k)
      ((populate s o).satelliteAlignmentProfile b z k) z * s.oneHaloTruncationIa k := fun o => by
    have : (populate s o).nonlinearMode = s.nonlinearMode := rfl
    unfold powerSpectrumIiRaw
    rw [this]
    cases hm : s.nonlinearMode <;> rfl
  have two : ∀ o, (populate s o).powerSpectrumIiRaw.pk2h b z k =
      s.pkLin z k * (populate s o).icAlignTerm b z k * (populate s o).icAlignTerm b z k * s.twoHaloTruncationIa k
        + s.pkLin z k * (populate s o).isAlignTerm b z k * (populate s o).isAlignTerm b z k * s.twoHaloTruncationIa k
        + s.pkLin z k * (populate s o).icAlignTerm b z k * (populate s o).isAlignTerm b z k * s.twoHaloTruncationIa k := fun o => by
    have : (populate s o).nonlinearMode = s.nonlinearMode := rfl
    unfold powerSpectrumIiRaw
    rw [this]
    rcases hmode with e | e <;> rw [e] <;> rfl
  have prof : ∀ o : Population, o.Present b z → ∀ m, (populate s o).satelliteAlignmentProfile b z k m = o.sat b z m * s.wkmSat z k m / o.n b z := fun o ho m => by
    have a := ho.n
    have c := ho.sat
    simp only [satelliteAlignmentProfile, populate, additionalTerm_blind hb.sat]
    field_simp
  refine ⟨_, _, _, R _, R _, R _, ?_, ?_⟩
  · have e1 : s.compute1hTerm ((populate s (p.union q)).satelliteAlignmentProfile b z k) ((populate s (p.union q)).satelliteAlignmentProfile b z k) z =
        share p q b z ^ 2 * s.compute1hTerm ((populate s p).satelliteAlignmentProfile b z k) ((populate s p).satelliteAlignmentProfile b z k) z +
        (1 - share p q b z) ^ 2 * s.compute1hTerm ((populate s q).satelliteAlignmentProfile b z k) ((populate s q).satelliteAlignmentProfile b z k) z +
        2 * share p q b z * (1 - share p q b z) * simpson s.nm s.mass (fun m => (p.sat b z m * s.wkmSat z k m / p.n b z) *
          (q.sat b z m * s.wkmSat z k m / q.n b z) * (s.dndlnm z m / s.mass m)) := by
      simp only [compute1hTerm]
      rw [← simpson_smul, ← simpson_smul, ← simpson_smul, ← simpson_add, ← simpson_add]
      refine congrArg _ (funext fun m => ?_)
      rw [union_satellite_alignment hb h h', prof p h, prof q h']
      ring
    rw [one, one, one, e1]; ring
  · rw [two, two, two, ec, es]; ring

theorem union_central (s : Spectra) (h : p.Present b z) (h' : q.Present b z) (m : ℕ) :
    (populate s (p.union q)).centralGalaxyProfile b z k m = share p q b z * (populate s p).centralGalaxyProfile b z k m
      + (1 - share p q b z) * (populate s q).centralGalaxyProfile b z k m := by
  have a := h.n
  have c := h'.n
  have e := add_pos a c
  have s1 := h.cen
  have s2 := h'.cen
  have s3 := add_pos s1 s2
  simp only [centralGalaxyProfile, populate, union_n, share]
  simp only [Population.union]
  field_simp
  ring

/-- C155: galaxies with alignments.  The pairs of a central of one sample with the shapes of the other are missing in the mixture. -/
theorem C155_galaxies_alignments (hmode : s.nonlinearMode = .none ∨ s.nonlinearMode = .hmcode) (hresp : s.response = false) (hb : MassBlind s)
    (h : p.Present b z) (h' : q.Present b z) :
    ∃ u r1 r2, (populate s (p.union q)).powerSpectrumGi = .ok u ∧ (populate s p).powerSpectrumGi = .ok r1 ∧ (populate s q).powerSpectrumGi = .ok r2 ∧
      u.pk1h b z k = share p q b z ^ 2 * r1.pk1h b z k + (1 - share p q b z) ^ 2 * r2.pk1h b z k + share p q b z * (1 - share p q b z) *
        (simpson s.nm s.mass (fun m => (p.cen b z m * q.sat b z m + q.cen b z m * p.sat b z m) * s.wkmSat z k m / (p.n b z * q.n b z)
          * (s.dndlnm z m / s.mass m)) * s.oneHaloTruncationIa k) ∧
      u.pk2h b z k = share p q b z ^ 2 * r1.pk2h b z k + (1 - share p q b z) ^ 2 * r2.pk2h b z k + share p q b z * (1 - share p q b z) *
        (s.pkLin z k * ((populate s p).icTerm b z k * ((populate s q).icAlignTerm b z k + (populate s q).isAlignTerm b z k)
          + (populate s q).icTerm b z k * ((populate s p).icAlignTerm b z k + (populate s p).isAlignTerm b z k)) * s.twoHaloTruncationIa k) := by
  have R : ∀ o, (populate s o).powerSpectrumGi = .ok (populate s o).powerSpectrumGiRaw := fun o => by
    simp only [powerSpectrumGi, applyResponse, populate, hresp]; rfl
  obtain ⟨ec, es⟩ := union_align_terms (k := k) hb h h'
  have eg : (populate s (p.union q)).icTerm b z k = share p q b z * (populate s p).icTerm b z k + (1 - share p q b z) * (populate s q).icTerm b z k := by
    change s.computeIgTerm _ z = _ * s.computeIgTerm _ z + _ * s.computeIgTerm _ z
    simp only [computeIgTerm]
    rw [← simpson_smul, ← simpson_smul, ← simpson_add]
    refine congrArg _ (funext fun m => ?_)
    rw [union_central s h h']; ring
  have one : ∀ o, (populate s o).powerSpectrumGiRaw.pk1h b z k = s.compute1hTerm ((populate s o).centralGalaxyProfile b z k)
      ((populate s o).satelliteAlignmentProfile b z k) z * s.oneHaloTruncationIa k := fun o => by
    have : (populate s o).nonlinearMode = s.nonlinearMode := rfl
    unfold powerSpectrumGiRaw
    rw [this]
    cases hm : s.nonlinearMode <;> rfl
  have two : ∀ o, (populate s o).powerSpectrumGiRaw.pk2h b z k =
      s.pkLin z k * (populate s o).icTerm b z k * (populate s o).isAlignTerm b z k * s.twoHaloTruncationIa k
        + s.pkLin z k * (populate s o).icTerm b z k * (populate s o).icAlignTerm b z k * s.twoHaloTruncationIa k := fun o => by
    have : (populate s o).nonlinearMode = s.nonlinearMode := rfl
    unfold powerSpectrumGiRaw
    rw [this]
    rcases hmode with e | e <;> rw [e] <;> rfl
  have prof : ∀ o : Population, o.Present b z → ∀ m, (populate s o).satelliteAlignmentProfile b z k m = o.sat b z m * s.wkmSat z k m / o.n b z := fun o ho m => by
    have a := ho.n
    have c := ho.sat
    simp only [satelliteAlignmentProfile, populate, additionalTerm_blind hb.sat]
    field_simp
  have cprof : ∀ o : Population, o.Present b z → ∀ m, (populate s o).centralGalaxyProfile b z k m = o.cen b z m / o.n b z := fun o ho m => by
    have a := ho.n
    have c := ho.cen
    simp only [centralGalaxyProfile, populate]
    field_simp
  refine ⟨_, _, _, R _, R _, R _, ?_, ?_⟩
  · have e1 : s.compute1hTerm ((populate s (p.union q)).centralGalaxyProfile b z k) ((populate s (p.union q)).satelliteAlignmentProfile b z k) z =
        share p q b z ^ 2 * s.compute1hTerm ((populate s p).centralGalaxyProfile b z k) ((populate s p).satelliteAlignmentProfile b z k) z +
        (1 - share p q b z) ^ 2 * s.compute1hTerm ((populate s q).centralGalaxyProfile b z k) ((populate s q).satelliteAlignmentProfile b z k) z +
        share p q b z * (1 - share p q b z) * simpson s.nm s.mass (fun m => (p.cen b z m * q.sat b z m + q.cen b z m * p.sat b z m) * s.wkmSat z k m
          / (p.n b z * q.n b z) * (s.dndlnm z m / s.mass m)) := by
      have a := h.n.ne'
      have c := h'.n.ne'
      simp only [compute1hTerm]
      rw [← simpson_smul, ← simpson_smul, ← simpson_smul, ← simpson_add, ← simpson_add]
      refine congrArg _ (funext fun m => ?_)
      rw [union_satellite_alignment hb h h', union_central s h h', prof p h, prof q h', cprof p h, cprof q h']
      have : (p.cen b z m * q.sat b z m + q.cen b z m * p.sat b z m) * s.wkmSat z k m / (p.n b z * q.n b z) =
        p.cen b z m / p.n b z * (q.sat b z m * s.wkmSat z k m / q.n b z) + q.cen b z m / q.n b z * (p.sat b z m * s.wkmSat z k m / p.n b z) := by
          field_simp
      rw [this]
      ring
    rw [one, one, one, e1]; ring
  · rw [two, two, two, ec, es, eg]; ring

/-- mostly centrals -/
noncomputable def red : Population := ⟨fun _ _ _ => 1, fun _ _ m => m, fun _ _ => 2, fun _ _ => 1⟩

/-- mostly satellites -/
noncomputable def blue : Population := ⟨fun _ _ _ => 0, fun _ _ m => (m : ℝ) + 1, fun _ _ => 1, fun _ _ => 5⟩

theorem red_present : red.Present 0 0 := ⟨by norm_num [red], by norm_num [red]⟩

theorem blue_present : blue.Present 0 0 := ⟨by norm_num [blue], by norm_num [blue]⟩

example : share red blue 0 0 = 1 / 3 := by norm_num [share, red, blue, Population.n]

example := C155_galaxies_matter (s := demo) (b := 0) (z := 0) (k := 1) demo_sampled (by simp [demo]) rfl red_present blue_present

/-- the hypotheses of the bounds are met, and what is missing is not zero -/
example : ∃ u r1 r2, (populate demo (red.union blue)).powerSpectrumGg = .ok u ∧ (populate demo red).powerSpectrumGg = .ok r1 ∧
    (populate demo blue).powerSpectrumGg = .ok r2 ∧
    u.pk2h 0 0 0 ≤ 2 * (share red blue 0 0 ^ 2 * r1.pk2h 0 0 0 + (1 - share red blue 0 0) ^ 2 * r2.pk2h 0 0 0) :=
  let ⟨u, r1, r2, h1, h2, h3, _, _, h4, _⟩ := C155_bounds (s := demo) (b := 0) (z := 0) (k := 0) (p := red) (q := blue) (by simp [demo]) rfl
    red_present blue_present demo_gentle
    (fun m _ => ⟨by simp only [demo]; positivity, by simp only [demo]; positivity, by simp [demo], by simp only [demo, Hmi.uSat, demoRaw]; positivity,
      by simp [demo]⟩)
    (fun m _ => ⟨by simp [red], by simp [red], by simp [blue], by simp only [blue]; positivity⟩) (by simp [demo]) (by simp [demo])
  ⟨u, r1, r2, h1, h2, h3, h4⟩

example : 0 < mixedPairs demo red blue 0 0 0 := by
  rw [mixedPairs, demo_simpson]
  simp [demo, red, blue, Hmi.uSat, demoRaw, Population.n]
  norm_num

theorem demo_blind : MassBlind { demo with mpivotCen := none } := ⟨.inr rfl, .inl rfl⟩

example := C155_alignments_matter (s := { demo with mpivotCen := none }) (k := 1) (by simp [demo]) rfl demo_blind red_present blue_present

example := C155_alignments (s := { demo with mpivotCen := none }) (k := 1) (.inl rfl) rfl demo_blind red_present blue_present

example := C155_galaxies_alignments (s := { demo with mpivotCen := none }) (k := 1) (.inl rfl) rfl demo_blind red_present blue_present

end Verif.Pk.Samples

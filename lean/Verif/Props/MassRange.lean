import Verif.Props.BinSplit
import Verif.Props.UnionOfSamples
import Verif.Props.HodBase

/-! Property C160: the range of halo masses, divided in two or made wider. -/

namespace Verif.Pk.MassRange

open Verif.Lib Verif.Spec Verif.Pk Verif.Pk.Spectra Verif.Pk.Samples

/-- the same model with the halos up to point `2 a` of the mass grid -/
def below (a : ℕ) (s : Spectra) : Spectra := { s with nm := 2 * a + 1 }

/-- and with the `n` masses from that point on -/
def above (a n : ℕ) (s : Spectra) : Spectra :=
  { s with
    nm := n
    mass := fun m => s.mass (2 * a + m)
    dndlnm := fun z m => s.dndlnm z (2 * a + m)
    haloBias := fun z m => s.haloBias z (2 * a + m)
    uDm := fun z k m => s.uDm z k (2 * a + m)
    uSat := fun z k m => s.uSat z k (2 * a + m)
    betaNl := fun z k m m' => s.betaNl z k (2 * a + m) (2 * a + m')
    hodCen := fun b z m => s.hodCen b z (2 * a + m)
    hodSat := fun b z m => s.hodSat b z (2 * a + m)
    fstar := fun b z m => s.fstar b z (2 * a + m)
    fstarMm := fun z m => s.fstarMm z (2 * a + m)
    poissonFunc := fun m => s.poissonFunc (2 * a + m)
    wkmSat := fun z k m => s.wkmSat z k (2 * a + m) }

variable {s : Spectra} {a n b z k : ℕ}

theorem split (hs : s.nm = 2 * a + n) (hn : 3 ≤ n) (y : ℕ → ℝ) :
    simpson s.nm s.mass y = simpson (below a s).nm (below a s).mass y + simpson (above a n s).nm (above a n s).mass fun m => y (2 * a + m) := by
  rw [hs]
  exact BinSplit.simpson_split a hn s.mass y

theorem gentle_below (hs : s.nm = 2 * a + n) (hn : 3 ≤ n) (g : GentleGrid s.nm s.mass) : GentleGrid (below a s).nm (below a s).mass where
  step_pos i hi := g.step_pos i (by change i + 1 < 2 * a + 1 at hi; omega)
  up i hi := g.up i (by change i + 2 < 2 * a + 1 at hi; omega)
  down i hi := g.down i (by change i + 2 < 2 * a + 1 at hi; omega)

theorem gentle_above (hs : s.nm = 2 * a + n) (g : GentleGrid s.nm s.mass) : GentleGrid (above a n s).nm (above a n s).mass where
  step_pos i hi := g.step_pos (2 * a + i) (by change i + 1 < n at hi; omega)
  up i hi := g.up (2 * a + i) (by change i + 2 < n at hi; omega)
  down i hi := g.down (2 * a + i) (by change i + 2 < n at hi; omega)

theorem oneHalo_split (hs : s.nm = 2 * a + n) (hn : 3 ≤ n) (u v : ℕ → ℝ) :
    s.compute1hTerm u v z = (below a s).compute1hTerm u v z + (above a n s).compute1hTerm (fun m => u (2 * a + m)) (fun m => v (2 * a + m)) z :=
  split hs hn _

theorem profile_above (m : ℕ) : (above a n s).matterProfile1hMm z k m = s.matterProfile1hMm z k (2 * a + m) := by
  unfold matterProfile1hMm
  have hi : (above a n s).hmcodeIngredients = s.hmcodeIngredients := rfl
  rw [hi]
  cases s.hmcodeIngredients <;> rfl

theorem profile_below (m : ℕ) : (below a s).matterProfile1hMm z k m = s.matterProfile1hMm z k m := by
  unfold matterProfile1hMm
  have hi : (below a s).hmcodeIngredients = s.hmcodeIngredients := rfl
  rw [hi]
  cases s.hmcodeIngredients <;> rfl

theorem profileG_above (m : ℕ) : (above a n s).matterProfile1hG b z k m = s.matterProfile1hG b z k (2 * a + m) := by
  unfold matterProfile1hG
  have hi : (above a n s).hmcodeIngredients = s.hmcodeIngredients := rfl
  have hp : (above a n s).pointmass = s.pointmass := rfl
  rw [hi, hp]
  cases s.hmcodeIngredients <;> rfl

theorem profileG_below (m : ℕ) : (below a s).matterProfile1hG b z k m = s.matterProfile1hG b z k m := by
  unfold matterProfile1hG
  have hi : (below a s).hmcodeIngredients = s.hmcodeIngredients := rfl
  have hp : (below a s).pointmass = s.pointmass := rfl
  rw [hi, hp]
  cases s.hmcodeIngredients <;> rfl

/-- the damping of the one-halo term of matter -/
noncomputable def damped (s : Spectra) (z k : ℕ) : ℝ := if s.nonlinearMode = .hmcode then s.oneHaloTruncationMead z k else s.oneHaloTruncation k

theorem mm_form (s : Spectra) (hresp : s.response = false) {r : PkResult} (h : s.powerSpectrumMm = .ok r) (b z k : ℕ) :
    r.pk1h b z k = s.compute1hTerm (s.matterProfile1hMm z k) (s.matterProfile1hMm z k) z * damped s z k ∧
      (s.nonlinearMode ≠ .bnl → s.nonlinearMode ≠ .hmcode → r.pk2h b z k = s.pkLin z k * s.imTerm z k ^ 2 * s.twoHaloTruncation k) := by
  unfold powerSpectrumMm at h
  rw [hresp, if_neg (by decide)] at h
  unfold powerSpectrumMmRaw at h
  have e : s.pkLin z k * s.imTerm z k ^ 2 * s.twoHaloTruncation k = s.pkLin z k * s.imTerm z k * s.imTerm z k * s.twoHaloTruncation k := by ring
  rw [e]
  unfold damped
  cases hm : s.nonlinearMode <;> rw [hm] at h <;> simp only at h
  case hmcode =>
    split_ifs at h
    cases h
    exact ⟨by simp, fun _ h => absurd rfl h⟩
  case bnl =>
    cases h
    exact ⟨by simp, fun h => absurd rfl h⟩
  all_goals
    cases h
    exact ⟨by simp, fun _ _ => rfl⟩

/-- C160: the mass in resolved halos is that of both ranges. -/
theorem C160_resolved (hs : s.nm = 2 * a + n) (hn : 3 ≤ n) :
    1 - s.aTerm z = (1 - (below a s).aTerm z) + (1 - (above a n s).aTerm z) := by
  simp only [aTerm, sub_sub_cancel]
  exact split hs hn _

/-- C160: the one-halo power of matter is the sum of that of both ranges, in all modes. -/
theorem C160_one_halo (hs : s.nm = 2 * a + n) (hn : 3 ≤ n) (hresp : s.response = false) {r r1 r2 : PkResult}
    (h : s.powerSpectrumMm = .ok r) (h1 : (below a s).powerSpectrumMm = .ok r1) (h2 : (above a n s).powerSpectrumMm = .ok r2) :
    r.pk1h b z k = r1.pk1h b z k + r2.pk1h b z k := by
  rw [(mm_form s hresp h b z k).1, (mm_form (below a s) hresp h1 b z k).1, (mm_form (above a n s) hresp h2 b z k).1, oneHalo_split hs hn,
    funext (profile_below (s := s) (a := a) (z := z) (k := k)), funext (profile_above (s := s) (a := a) (n := n) (z := z) (k := k)), add_mul]
  rfl

/-- what the profiles of the halos of one range take away, weighted with the bias -/
noncomputable def spread (s : Spectra) (z k : ℕ) : ℝ :=
  simpson s.nm s.mass fun m => s.haloBias z m * s.dndlnm z m * (1 - s.uDm z k m) * (1 / s.meanDensity0 z)

/-- the matter integral is one minus what the profiles take away -/
theorem im_eq (s : Spectra) (z k : ℕ) : s.imTerm z k = 1 - spread s z k := by
  have : simpson s.nm s.mass (fun m => s.haloBias z m * s.dndlnm z m * (1 / s.meanDensity0 z)) = s.computeImTerm z k + spread s z k := by
    unfold computeImTerm spread
    rw [← simpson_add]
    exact congrArg _ (funext fun m => by ring)
  unfold imTerm aTerm
  rw [this]
  ring

/-- C160: resolving more halos never raises the two-halo power of matter: it falls by what their profiles take away, and not at all on
scales where their profiles are one. -/
theorem C160_two_halo (hs : s.nm = 2 * a + n) (hn : 3 ≤ n) (hresp : s.response = false) (hb : s.nonlinearMode ≠ .bnl)
    (hh : s.nonlinearMode ≠ .hmcode) {r r1 r2 : PkResult}
    (h : s.powerSpectrumMm = .ok r) (h1 : (below a s).powerSpectrumMm = .ok r1) (h2 : (above a n s).powerSpectrumMm = .ok r2) :
    s.imTerm z k = (below a s).imTerm z k - spread (above a n s) z k ∧ s.imTerm z k = (above a n s).imTerm z k - spread (below a s) z k ∧
    ((∀ m < s.nm, s.uDm z k m = 1) → r.pk2h b z k = r1.pk2h b z k ∧ r.pk2h b z k = r2.pk2h b z k) ∧
    (GentleGrid s.nm s.mass → (∀ m < s.nm, 0 ≤ s.haloBias z m ∧ 0 ≤ s.dndlnm z m ∧ s.uDm z k m ≤ 1) → 0 < s.meanDensity0 z →
      0 ≤ s.imTerm z k → 0 ≤ s.pkLin z k → 0 < s.kVec k → r.pk2h b z k ≤ r1.pk2h b z k ∧ r.pk2h b z k ≤ r2.pk2h b z k) := by
  have e : spread s z k = spread (below a s) z k + spread (above a n s) z k := split hs hn _
  have i1 : s.imTerm z k = (below a s).imTerm z k - spread (above a n s) z k := by rw [im_eq, im_eq, e]; ring
  have i2 : s.imTerm z k = (above a n s).imTerm z k - spread (below a s) z k := by rw [im_eq, im_eq, e]; ring
  have q := (mm_form s hresp h b z k).2 hb hh
  have q1 : r1.pk2h b z k = s.pkLin z k * (below a s).imTerm z k ^ 2 * s.twoHaloTruncation k := (mm_form (below a s) hresp h1 b z k).2 hb hh
  have q2 : r2.pk2h b z k = s.pkLin z k * (above a n s).imTerm z k ^ 2 * s.twoHaloTruncation k := (mm_form (above a n s) hresp h2 b z k).2 hb hh
  refine ⟨i1, i2, fun hu => ?_, fun g hm hρ hI hP hk => ?_⟩
  · have z1 : spread (below a s) z k = 0 := by
      rw [← simpson_zero (below a s).nm (below a s).mass]
      refine simpson_congr_right fun m hm => ?_
      have : s.uDm z k m = 1 := hu m (by change m < 2 * a + 1 at hm; omega)
      change s.haloBias z m * s.dndlnm z m * (1 - s.uDm z k m) * _ = 0
      rw [this]
      ring
    have z2 : spread (above a n s) z k = 0 := by
      rw [← simpson_zero (above a n s).nm (above a n s).mass]
      refine simpson_congr_right fun m hm => ?_
      have : s.uDm z k (2 * a + m) = 1 := hu _ (by change m < n at hm; omega)
      change s.haloBias z (2 * a + m) * s.dndlnm z (2 * a + m) * (1 - s.uDm z k (2 * a + m)) * _ = 0
      rw [this]
      ring
    rw [z2, sub_zero] at i1
    rw [z1, sub_zero] at i2
    rw [q, q1, q2, ← i1, ← i2]
    exact ⟨rfl, rfl⟩
  · have n1 : 0 ≤ spread (below a s) z k := simpson_nonneg (gentle_below hs hn g) fun m hmm => by
      obtain ⟨x, y, u⟩ := hm m (by change m < 2 * a + 1 at hmm; omega)
      exact mul_nonneg (mul_nonneg (mul_nonneg x y) (sub_nonneg.2 u)) (one_div_nonneg.2 hρ.le)
    have n2 : 0 ≤ spread (above a n s) z k := simpson_nonneg (gentle_above hs g) fun m hmm => by
      obtain ⟨x, y, u⟩ := hm (2 * a + m) (by change m < n at hmm; omega)
      exact mul_nonneg (mul_nonneg (mul_nonneg x y) (sub_nonneg.2 u)) (one_div_nonneg.2 hρ.le)
    have T := (PkRounded.twoHaloTruncation_pos (s := s) k hk).le
    rw [q, q1, q2]
    exact ⟨mul_le_mul_of_nonneg_right (mul_le_mul_of_nonneg_left (pow_le_pow_left₀ hI (by linarith) 2) hP) T,
      mul_le_mul_of_nonneg_right (mul_le_mul_of_nonneg_left (pow_le_pow_left₀ hI (by linarith) 2) hP) T⟩

/-! ## Galaxies -/

/-- galaxies in the halos of the lower range -/
def low (p : Population) (nc ns : ℕ → ℕ → ℝ) : Population := ⟨p.cen, p.sat, nc, ns⟩

/-- galaxies in the halos of the upper range -/
def high (a : ℕ) (p : Population) (nc ns : ℕ → ℕ → ℝ) : Population :=
  ⟨fun b z m => p.cen b z (2 * a + m), fun b z m => p.sat b z (2 * a + m), nc, ns⟩

/-- their number densities add up -/
def whole (p : Population) (nc ns nc' ns' : ℕ → ℕ → ℝ) : Population :=
  ⟨p.cen, p.sat, fun b z => nc b z + nc' b z, fun b z => ns b z + ns' b z⟩

variable {p : Population} {nc ns nc' ns' : ℕ → ℕ → ℝ}

theorem whole_present (h : (low p nc ns).Present b z) (h' : (high a p nc' ns').Present b z) : (whole p nc ns nc' ns').Present b z :=
  ⟨add_pos h.cen h'.cen, add_pos h.sat h'.sat⟩

theorem whole_n : (whole p nc ns nc' ns').n b z = (low p nc ns).n b z + (high a p nc' ns').n b z := by
  simp only [Population.n, whole, low, high]
  ring

/-- the part of the galaxies that is in the lower range -/
noncomputable def part (a : ℕ) (p : Population) (nc ns nc' ns' : ℕ → ℕ → ℝ) (b z : ℕ) : ℝ :=
  (low p nc ns).n b z / ((low p nc ns).n b z + (high a p nc' ns').n b z)

theorem weight_low (h : (low p nc ns).Present b z) (h' : (high a p nc' ns').Present b z) (m : ℕ) :
    galaxyWeight (populate s (whole p nc ns nc' ns')) b z k m
      = part a p nc ns nc' ns' b z * galaxyWeight (populate (below a s) (low p nc ns)) b z k m := by
  have x := h.n
  have y := h'.n
  simp only [galaxyWeight, HaloModel.galaxies, populate, whole_n (a := a), part]
  simp only [whole, low, high, below] at *
  field_simp

theorem weight_high (h : (low p nc ns).Present b z) (h' : (high a p nc' ns').Present b z) (m : ℕ) :
    galaxyWeight (populate s (whole p nc ns nc' ns')) b z k (2 * a + m)
      = (1 - part a p nc ns nc' ns' b z) * galaxyWeight (populate (above a n s) (high a p nc' ns')) b z k m := by
  have x := h.n
  have y := h'.n
  have e := add_pos x y
  have e1 : 1 - part a p nc ns nc' ns' b z = (high a p nc' ns').n b z / ((low p nc ns).n b z + (high a p nc' ns').n b z) := by
    unfold part
    field_simp
    ring
  rw [e1]
  simp only [galaxyWeight, HaloModel.galaxies, populate, whole_n (a := a)]
  simp only [whole, low, high, above] at *
  field_simp

theorem bias_split (hs : s.nm = 2 * a + n) (hn : 3 ≤ n) (h : (low p nc ns).Present b z) (h' : (high a p nc' ns').Present b z) :
    (haloes s z k).bias1 (galaxyWeight (populate s (whole p nc ns nc' ns')) b z k) =
      part a p nc ns nc' ns' b z * (haloes (below a s) z k).bias1 (galaxyWeight (populate (below a s) (low p nc ns)) b z k) +
      (1 - part a p nc ns nc' ns' b z) * (haloes (above a n s) z k).bias1 (galaxyWeight (populate (above a n s) (high a p nc' ns')) b z k) := by
  simp only [HaloModel.bias1]
  change simpson s.nm s.mass _ = _ * simpson (below a s).nm (below a s).mass _ + _ * simpson (above a n s).nm (above a n s).mass _
  rw [← simpson_smul, ← simpson_smul, split hs hn]
  congr 1
  · refine congrArg _ (funext fun m => ?_)
    rw [weight_low (k := k) h h', mul_assoc, mul_assoc, mul_assoc]
    rfl
  · refine congrArg _ (funext fun m => ?_)
    rw [weight_high (n := n) (k := k) h h', mul_assoc, mul_assoc, mul_assoc]
    rfl

theorem cross_split (hs : s.nm = 2 * a + n) (hn : 3 ≤ n) (h : (low p nc ns).Present b z) (h' : (high a p nc' ns').Present b z) (V : ℕ → ℝ) :
    (haloes s z k).oneHalo (galaxyWeight (populate s (whole p nc ns nc' ns')) b z k) V =
      part a p nc ns nc' ns' b z * (haloes (below a s) z k).oneHalo (galaxyWeight (populate (below a s) (low p nc ns)) b z k) V +
      (1 - part a p nc ns nc' ns' b z) * (haloes (above a n s) z k).oneHalo (galaxyWeight (populate (above a n s) (high a p nc' ns')) b z k)
        (fun m => V (2 * a + m)) := by
  simp only [HaloModel.oneHalo]
  change simpson s.nm s.mass _ = _ * simpson (below a s).nm (below a s).mass _ + _ * simpson (above a n s).nm (above a n s).mass _
  rw [← simpson_smul, ← simpson_smul, split hs hn]
  congr 1
  · refine congrArg _ (funext fun m => ?_)
    rw [weight_low (k := k) h h', mul_assoc, mul_assoc, mul_assoc]
    rfl
  · refine congrArg _ (funext fun m => ?_)
    rw [weight_high (n := n) (k := k) h h', mul_assoc, mul_assoc, mul_assoc]
    rfl

/-- C160: the one-halo power of galaxies with matter is the mean of that of both ranges, weighted with their galaxies. -/
theorem C160_galaxies_matter (hm : Sampled s) (hs : s.nm = 2 * a + n) (hn : 3 ≤ n) (hmode : s.nonlinearMode ≠ .bnl)
    (hresp : s.response = false) (h : (low p nc ns).Present b z) (h' : (high a p nc' ns').Present b z) :
    ∃ r r1 r2, (populate s (whole p nc ns nc' ns')).powerSpectrumGm = .ok r ∧ (populate (below a s) (low p nc ns)).powerSpectrumGm = .ok r1 ∧
      (populate (above a n s) (high a p nc' ns')).powerSpectrumGm = .ok r2 ∧
      r.pk1h b z k = part a p nc ns nc' ns' b z * r1.pk1h b z k + (1 - part a p nc ns nc' ns' b z) * r2.pk1h b z k := by
  have m1 : Sampled (populate (below a s) (low p nc ns)) := ⟨fun m h => hm.mass m (by change m < 2 * a + 1 at h; omega), Nat.succ_pos _⟩
  obtain ⟨r, e, f⟩ := C97_galaxies_matter (s := populate s (whole p nc ns nc' ns')) ⟨hm.mass, hm.some⟩ hmode hresp
  obtain ⟨r1, e1, f1⟩ := C97_galaxies_matter (s := populate (below a s) (low p nc ns)) m1 hmode hresp
  obtain ⟨r2, e2, f2⟩ := C97_galaxies_matter (s := populate (above a n s) (high a p nc' ns')) ⟨fun m h => hm.mass (2 * a + m) (by change m < n at h; omega), by
    change 0 < n
    omega⟩ hmode hresp
  refine ⟨r, r1, r2, e, e1, e2, ?_⟩
  have F := (f b z k (occupied s (whole_present h h'))).1
  have F1 := (f1 b z k (occupied (below a s) h)).1
  have F2 := (f2 b z k (occupied (above a n s) h')).1
  change r.pk1h b z k = (haloes s z k).oneHalo _ (s.matterProfile1hG b z k) * s.oneHaloTruncation k at F
  change r1.pk1h b z k = (haloes (below a s) z k).oneHalo _ ((below a s).matterProfile1hG b z k) * s.oneHaloTruncation k at F1
  change r2.pk1h b z k = (haloes (above a n s) z k).oneHalo _ ((above a n s).matterProfile1hG b z k) * s.oneHaloTruncation k at F2
  rw [funext (profileG_below (s := s) (a := a) (b := b) (z := z) (k := k))] at F1
  rw [funext (profileG_above (s := s) (a := a) (n := n) (b := b) (z := z) (k := k))] at F2
  rw [F, F1, F2, cross_split (a := a) (n := n) hs hn h h']
  ring

/-- C160: galaxies of the two ranges share no halo: the one-halo power of galaxies is that of both ranges with the squares of their parts of
the galaxies, with nothing in between; the two-halo power has the mean of their biases. -/
theorem C160_galaxies (hs : s.nm = 2 * a + n) (hn : 3 ≤ n) (hmode : s.nonlinearMode ≠ .bnl) (hresp : s.response = false)
    (h : (low p nc ns).Present b z) (h' : (high a p nc' ns').Present b z) :
    ∃ r r1 r2, (populate s (whole p nc ns nc' ns')).powerSpectrumGg = .ok r ∧ (populate (below a s) (low p nc ns)).powerSpectrumGg = .ok r1 ∧
      (populate (above a n s) (high a p nc' ns')).powerSpectrumGg = .ok r2 ∧
      r.pk1h b z k = part a p nc ns nc' ns' b z ^ 2 * r1.pk1h b z k + (1 - part a p nc ns nc' ns' b z) ^ 2 * r2.pk1h b z k ∧
      r.pk2h b z k = s.pkLin z k * (part a p nc ns nc' ns' b z * (haloes (below a s) z k).bias1 (galaxyWeight (populate (below a s) (low p nc ns)) b z k) +
        (1 - part a p nc ns nc' ns' b z) * (haloes (above a n s) z k).bias1 (galaxyWeight (populate (above a n s) (high a p nc' ns')) b z k)) ^ 2
        * s.twoHaloTruncation k := by
  obtain ⟨r, e, f⟩ := C97_galaxies (s := populate s (whole p nc ns nc' ns')) hmode hresp
  obtain ⟨r1, e1, f1⟩ := C97_galaxies (s := populate (below a s) (low p nc ns)) hmode hresp
  obtain ⟨r2, e2, f2⟩ := C97_galaxies (s := populate (above a n s) (high a p nc' ns')) hmode hresp
  refine ⟨r, r1, r2, e, e1, e2, ?_, ?_⟩
  · have F := (f b z k (occupied s (whole_present h h'))).1
    have F1 := (f1 b z k (occupied (below a s) h)).1
    have F2 := (f2 b z k (occupied (above a n s) h')).1
    have x := h.n
    have y := h'.n
    have xy := add_pos x y
    have p1 : part a p nc ns nc' ns' b z = (low p nc ns).n b z / ((low p nc ns).n b z + (high a p nc' ns').n b z) := rfl
    have p2 : 1 - part a p nc ns nc' ns' b z = (high a p nc' ns').n b z / ((low p nc ns).n b z + (high a p nc' ns').n b z) := by
      rw [p1]
      field_simp
      ring
    change r.pk1h b z k = simpson s.nm s.mass (fun m => (2 * p.cen b z m * p.sat b z m * s.uSat z k m
      + s.poissonFunc m * (p.sat b z m * s.uSat z k m) ^ 2) / (whole p nc ns nc' ns').n b z ^ 2 * (s.dndlnm z m / s.mass m)) * s.oneHaloTruncation k at F
    change r1.pk1h b z k = simpson (below a s).nm (below a s).mass (fun m => (2 * p.cen b z m * p.sat b z m * s.uSat z k m
      + s.poissonFunc m * (p.sat b z m * s.uSat z k m) ^ 2) / (low p nc ns).n b z ^ 2 * (s.dndlnm z m / s.mass m)) * s.oneHaloTruncation k at F1
    change r2.pk1h b z k = simpson (above a n s).nm (above a n s).mass (fun m => (2 * p.cen b z (2 * a + m) * p.sat b z (2 * a + m) * s.uSat z k (2 * a + m)
      + s.poissonFunc (2 * a + m) * (p.sat b z (2 * a + m) * s.uSat z k (2 * a + m)) ^ 2) / (high a p nc' ns').n b z ^ 2
      * (s.dndlnm z (2 * a + m) / s.mass (2 * a + m))) * s.oneHaloTruncation k at F2
    rw [F, F1, F2, ← mul_assoc, ← mul_assoc, ← add_mul]
    congr 1
    rw [← simpson_smul, ← simpson_smul, split hs hn, whole_n (a := a), p2, p1]
    congr 1
    · refine congrArg _ (funext fun m => ?_)
      generalize s.dndlnm z m / s.mass m = w
      field_simp
    · refine congrArg _ (funext fun m => ?_)
      generalize s.dndlnm z (2 * a + m) / s.mass (2 * a + m) = w
      field_simp
  · have F := (f b z k (occupied s (whole_present h h'))).2
    change r.pk2h b z k = s.pkLin z k * (haloes s z k).bias1 _ ^ 2 * s.twoHaloTruncation k at F
    rw [F, bias_split (a := a) (n := n) hs hn h h']

/-! ## Numbers of galaxies -/

/-- occupation model with the halos of the lower range -/
def hodBelow (a : ℕ) (h : Hod.Base) : Hod.Base := { h with nm := 2 * a + 1 }

/-- and of the upper range -/
def hodAbove (a n : ℕ) (h : Hod.Base) : Hod.Base :=
  { h with
    nm := n
    mass := fun m => h.mass (2 * a + m)
    dndlnm := fun i m => h.dndlnm i (2 * a + m)
    haloBias := fun i m => h.haloBias i (2 * a + m)
    occCen := fun b j m => h.occCen b j (2 * a + m)
    occSat := fun b j m => h.occSat b j (2 * a + m) }

/-- C160: the galaxies counted in both ranges add up, centrals and satellites, and so do the masses of their halos. -/
theorem C160_counts {h : Hod.Base} (hs : h.nm = 2 * a + n) (hn : 3 ≤ n) (b j : ℕ) :
    h.ncen b j = (hodBelow a h).ncen b j + (hodAbove a n h).ncen b j ∧
    h.nsat b j = (hodBelow a h).nsat b j + (hodAbove a n h).nsat b j ∧
    h.ntot b j = (hodBelow a h).ntot b j + (hodAbove a n h).ntot b j ∧
    h.meanMassIntegral h.occ b j = (hodBelow a h).meanMassIntegral (hodBelow a h).occ b j
      + (hodAbove a n h).meanMassIntegral (hodAbove a n h).occ b j := by
  have key : ∀ y : ℕ → ℝ, simpson h.nm h.mass y = simpson (2 * a + 1) h.mass y + simpson n (fun m => h.mass (2 * a + m)) fun m => y (2 * a + m) :=
    fun y => by rw [hs]; exact BinSplit.simpson_split a hn h.mass y
  exact ⟨key _, key _, key _, key _⟩

/-! ## Concrete cases -/

/-- the demonstration object on a grid of five masses -/
noncomputable def five : Spectra := { demo with nm := 5 }

theorem five_gentle : GentleGrid five.nm five.mass where
  step_pos i _ := by simp only [five, demo]; push_cast; linarith
  up i _ := by simp only [five, demo]; push_cast; linarith
  down i _ := by simp only [five, demo]; push_cast; linarith

example : five.nm = 2 * 1 + 3 ∧ five.response = false ∧ five.nonlinearMode = .none ∧ (∃ r, five.powerSpectrumMm = .ok r) ∧
    (∃ r, (below 1 five).powerSpectrumMm = .ok r) ∧ ∃ r, (above 1 3 five).powerSpectrumMm = .ok r :=
  ⟨rfl, rfl, rfl, ⟨_, rfl⟩, ⟨_, rfl⟩, ⟨_, rfl⟩⟩

/-- the hypotheses on the ingredients are met -/
example : (∀ m < five.nm, 0 ≤ five.haloBias 0 m ∧ 0 ≤ five.dndlnm 0 m ∧ five.uDm 0 1 m ≤ 1) ∧ 0 < five.meanDensity0 0 ∧ 0 ≤ five.pkLin 0 1 ∧
    0 < five.kVec 1 := by
  refine ⟨fun m _ => ⟨by simp [five, demo], by simp only [five, demo]; positivity, ?_⟩, by simp [five, demo], by simp [five, demo], by
    simp only [five, demo]; norm_num⟩
  simp only [five, demo, Hmi.uDm, demoRaw]
  rw [div_le_one (by positivity)]
  push_cast
  gcongr <;> norm_num

theorem red_low : (low red (fun _ _ => 2) (fun _ _ => 1)).Present 0 0 := ⟨by norm_num [low], by norm_num [low]⟩

theorem red_high : (high 1 red (fun _ _ => 3) (fun _ _ => 4)).Present 0 0 := ⟨by norm_num [high], by norm_num [high]⟩

example := C160_galaxies (s := five) (a := 1) (n := 3) (k := 1) rfl le_rfl (by simp [five, demo]) rfl red_low red_high

example := C160_counts (h := { Hod.demo with nm := 6 }) (a := 1) (n := 4) rfl (by norm_num) 0 0

end Verif.Pk.MassRange

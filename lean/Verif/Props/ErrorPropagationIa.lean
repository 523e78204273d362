import Verif.Props.ErrorPropagation
import Verif.Props.PkIdentities

/-! Property C151, continued: how errors of the ingredients carry over to the alignment spectra. -/

namespace Verif.Pk.ErrorPropagation

open Verif.Lib Verif.Spec Verif.Pk Verif.Pk.Spectra

/-- the factor of the mass dependence: a power law of the mean halo mass around the pivot, given both options -/
noncomputable def tilt (s : Spectra) (slope pivot : Option ℝ) (t z : ℕ) : ℝ :=
  (slope.bind fun β => pivot.map fun M => (s.avgHaloMassCen t z / s.numberDensity t z / M) ^ β).getD 1

theorem tilt_eq (s : Spectra) (slope pivot : Option ℝ) (t z : ℕ) : additionalTerm slope pivot (s.massAvg t z) = tilt s slope pivot t z := by
  cases slope <;> cases pivot <;> rfl

/-- the aligned satellites of a halo, per galaxy -/
noncomputable def shapes (s : Spectra) (t z k m : ℕ) : ℝ := s.hodSat t z m * s.wkmSat z k m / s.numberDensity t z * tilt s s.betaSat s.mpivotSat t z

/-- the linear alignment of the centrals -/
noncomputable def linear (s : Spectra) (t z : ℕ) : ℝ :=
  s.fC t z * (5e-14 * s.alignmentGi z) * s.meanDensity0 z / s.growthFactor z * tilt s s.betaCen s.mpivotCen t z

/-- samples and shapes that differ by factors: centrals `o`, satellites times their alignment `g` (with the mass dependence), mean number density `ν`, linear
alignment of the centrals `h` -/
structure Shapes (s s' : Spectra) (t z k : ℕ) (o ν g h : ℝ) : Prop where
  cen : ∀ m < s.nm, Within o (s.hodCen t z m) (s'.hodCen t z m)
  sat : ∀ m < s.nm, Within g (s.hodSat t z m * s.wkmSat z k m * tilt s s.betaSat s.mpivotSat t z)
    (s'.hodSat t z m * s'.wkmSat z k m * tilt s' s'.betaSat s'.mpivotSat t z)
  number : Within ν (s.numberDensity t z) (s'.numberDensity t z)
  linear : Within h (linear s t z) (linear s' t z)
  occ : Occupied s t z
  occ' : Occupied s' t z
  one : s'.oneHaloTruncationIa k = s.oneHaloTruncationIa k
  two : s'.twoHaloTruncationIa k = s.twoHaloTruncationIa k
  mode : s.nonlinearMode = .none ∨ s.nonlinearMode = .hmcode
  mode' : s'.nonlinearMode = .none ∨ s'.nonlinearMode = .hmcode
  resp : s.response = false
  resp' : s'.response = false

section
variable {s s' : Spectra} {t z k : ℕ} {a d o ν g h : ℝ}

theorem Shapes.pos (H : Shapes s s' t z k o ν g h) : 0 < s.numberDensity t z ∧ 0 < s'.numberDensity t z :=
  ⟨H.number.1.lt_of_ne' H.occ.tot, H.number.2.1.lt_of_ne' H.occ'.tot⟩

theorem shapes_eq (h : Occupied s t z) (k m : ℕ) : s.satelliteAlignmentProfile t z k m = shapes s t z k m := by
  have h1 := h.sat
  have h2 := h.tot
  rw [satelliteAlignmentProfile, tilt_eq, h.fSat, shapes]
  field_simp

theorem centrals_eq (h : Occupied s t z) (k m : ℕ) : s.centralGalaxyProfile t z k m = s.hodCen t z m / s.numberDensity t z := by
  have h1 := h.cen
  have h2 := h.tot
  rw [centralGalaxyProfile, h.fCen]
  field_simp

theorem Shapes.weight (H : Shapes s s' t z k o ν g h) {m : ℕ} (hm : m < s.nm) :
    Within (g * ν) (s.satelliteAlignmentProfile t z k m) (s'.satelliteAlignmentProfile t z k m) := by
  rw [shapes_eq H.occ, shapes_eq H.occ']
  have := (H.sat m hm).div H.number H.pos.1 H.pos.2
  unfold shapes
  convert this using 1 <;> ring

theorem Shapes.centrals (H : Shapes s s' t z k o ν g h) {m : ℕ} (hm : m < s.nm) :
    Within (o * ν) (s.centralGalaxyProfile t z k m) (s'.centralGalaxyProfile t z k m) := by
  rw [centrals_eq H.occ, centrals_eq H.occ']
  exact (H.cen m hm).div H.number H.pos.1 H.pos.2

theorem pair_within {u v u' v' : ℕ → ℝ} {x y : ℝ} (P : Proper s z k) (E : Same s s' z k)
    (hn : ∀ m < s.nm, Within a (s.dndlnm z m) (s'.dndlnm z m)) (hu : ∀ m < s.nm, Within x (u m) (u' m)) (hv : ∀ m < s.nm, Within y (v m) (v' m)) :
    Within (x * y * a) (s.compute1hTerm u v z) (s'.compute1hTerm u' v' z) := by
  unfold compute1hTerm
  rw [E.nm, E.mass]
  refine Within.simpson P.grid fun m hm => ?_
  have := (((hu m hm).mul (hv m hm)).mul (hn m hm)).div (Within.same (P.mass m hm).le) (P.mass m hm) (P.mass m hm)
  exact this.mono (le_of_eq (by ring))

theorem biased_within {u u' : ℕ → ℝ} {x : ℝ} (P : Proper s z k) (E : Same s s' z k)
    (hn : ∀ m < s.nm, Within a (s.dndlnm z m) (s'.dndlnm z m)) (hb : ∀ m < s.nm, Within d (s.haloBias z m) (s'.haloBias z m))
    (hu : ∀ m < s.nm, Within x (u m) (u' m)) : Within (x * d * a) (s.computeIgTerm u z) (s'.computeIgTerm u' z) := by
  unfold computeIgTerm
  rw [E.nm, E.mass]
  refine Within.simpson P.grid fun m hm => ?_
  have := (((hu m hm).mul (hb m hm)).mul (hn m hm)).div (Within.same (P.mass m hm).le) (P.mass m hm) (P.mass m hm)
  exact this.mono (le_of_eq (by ring))

theorem ii_raw_eq (hm : s.nonlinearMode = .none ∨ s.nonlinearMode = .hmcode) (t z k : ℕ) :
    s.powerSpectrumIiRaw.pk1h t z k = s.compute1hTerm (s.satelliteAlignmentProfile t z k) (s.satelliteAlignmentProfile t z k) z * s.oneHaloTruncationIa k ∧
    s.powerSpectrumIiRaw.pk2h t z k = s.pkLin z k * (s.icAlignTerm t z k * s.icAlignTerm t z k + s.isAlignTerm t z k * s.isAlignTerm t z k +
      s.icAlignTerm t z k * s.isAlignTerm t z k) * s.twoHaloTruncationIa k := by
  unfold powerSpectrumIiRaw
  rcases hm with hm | hm <;> simp only [hm] <;> exact ⟨trivial, by ring⟩

theorem gi_raw_eq (hm : s.nonlinearMode = .none ∨ s.nonlinearMode = .hmcode) (t z k : ℕ) :
    s.powerSpectrumGiRaw.pk1h t z k = s.compute1hTerm (s.centralGalaxyProfile t z k) (s.satelliteAlignmentProfile t z k) z * s.oneHaloTruncationIa k ∧
    s.powerSpectrumGiRaw.pk2h t z k = s.pkLin z k * (s.icTerm t z k * (s.icAlignTerm t z k + s.isAlignTerm t z k)) * s.twoHaloTruncationIa k := by
  unfold powerSpectrumGiRaw
  rcases hm with hm | hm <;> simp only [hm] <;> exact ⟨trivial, by ring⟩

theorem mi_raw_eq (hm : s.nonlinearMode = .none ∨ s.nonlinearMode = .hmcode) (t z k : ℕ) :
    s.powerSpectrumMiRaw.pk1h t z k = -(s.compute1hTerm (s.matterProfile1hG t z k) (s.satelliteAlignmentProfile t z k) z * s.oneHaloTruncationIa k) ∧
    s.powerSpectrumMiRaw.pk2h t z k =
      -((s.icAlignTerm t z k + s.isAlignTerm t z k) * s.imTerm z k * (s.pkLin z k * s.twoHaloTruncationIa k)) := by
  unfold powerSpectrumMiRaw
  rcases hm with hm | hm <;> simp only [hm] <;> exact ⟨by ring, by ring⟩

theorem ii_ok (hr : s.response = false) : s.powerSpectrumIi = .ok s.powerSpectrumIiRaw := by
  unfold powerSpectrumIi applyResponse; rw [hr]; rfl

theorem gi_ok (hr : s.response = false) : s.powerSpectrumGi = .ok s.powerSpectrumGiRaw := by
  unfold powerSpectrumGi applyResponse; rw [hr]; rfl

theorem mi_ok (hr : s.response = false) : s.powerSpectrumMi = .ok s.powerSpectrumMiRaw := by
  unfold powerSpectrumMi applyResponse; rw [hr]; rfl

theorem damp1_nonneg (s : Spectra) (k : ℕ) : 0 ≤ s.oneHaloTruncationIa k := by
  unfold oneHaloTruncationIa; split
  · norm_num
  · rw [sub_nonneg, Real.exp_le_one_iff, Left.neg_nonpos_iff]; positivity

theorem damp2_nonneg (s : Spectra) (k : ℕ) : 0 ≤ s.twoHaloTruncationIa k := by
  unfold twoHaloTruncationIa; split
  · norm_num
  · exact (Real.exp_pos _).le

/-- C151, shapes in one halo: with aligned satellites known up to the factor `g`, centrals up to `o`, mean number density up to `ν`, mass function up to `a` and
matter profile up to `c` the 1-halo power of shapes is known up to `(g ν)² a`, that of galaxies and shapes up to `o g ν² a`, that of matter and shapes, which is
negative, up to `c g ν a`. -/
theorem C151_shapes_one_halo {c : ℝ} (P : Proper s z k) (E : Same s s' z k)
    (hi : s.hmcodeIngredients = .mead2020 ∨ (s.hmcodeIngredients = .none ∧ s.pointmass = false))
    (hi' : s'.hmcodeIngredients = .mead2020 ∨ (s'.hmcodeIngredients = .none ∧ s'.pointmass = false))
    (hn : ∀ m < s.nm, Within a (s.dndlnm z m) (s'.dndlnm z m)) (hu : ∀ m < s.nm, Within c (s.uDm z k m) (s'.uDm z k m))
    (H : Shapes s s' t z k o ν g h) :
    (∃ r r', s.powerSpectrumIi = .ok r ∧ s'.powerSpectrumIi = .ok r' ∧ Within ((g * ν) ^ 2 * a) (r.pk1h t z k) (r'.pk1h t z k)) ∧
    (∃ r r', s.powerSpectrumGi = .ok r ∧ s'.powerSpectrumGi = .ok r' ∧ Within (o * g * ν ^ 2 * a) (r.pk1h t z k) (r'.pk1h t z k)) ∧
    (∃ r r', s.powerSpectrumMi = .ok r ∧ s'.powerSpectrumMi = .ok r' ∧ Within (c * g * ν * a) (-r.pk1h t z k) (-r'.pk1h t z k)) := by
  have T := Within.same (damp1_nonneg s k)
  refine ⟨⟨_, _, ii_ok H.resp, ii_ok H.resp', ?_⟩, ⟨_, _, gi_ok H.resp, gi_ok H.resp', ?_⟩, ⟨_, _, mi_ok H.resp, mi_ok H.resp', ?_⟩⟩
  · rw [(ii_raw_eq H.mode t z k).1, (ii_raw_eq H.mode' t z k).1, H.one]
    exact ((pair_within P E hn (fun m hm => H.weight hm) fun m hm => H.weight hm).mul T).mono (le_of_eq (by ring))
  · rw [(gi_raw_eq H.mode t z k).1, (gi_raw_eq H.mode' t z k).1, H.one]
    exact ((pair_within P E hn (fun m hm => H.centrals hm) fun m hm => H.weight hm).mul T).mono (le_of_eq (by ring))
  · rw [(mi_raw_eq H.mode t z k).1, (mi_raw_eq H.mode' t z k).1, H.one, neg_neg, neg_neg]
    have w : ∀ m < s.nm, Within (1 * c) (s.matterProfile1hG t z k m) (s'.matterProfile1hG t z k m) := fun m hm => by
      rw [C97_plain_weight hi, C97_plain_weight hi']
      simp only [HaloModel.matter, haloes, E.mass, E.density]
      exact (Within.same (div_nonneg (P.mass m hm).le P.density.le)).mul (hu m hm)
    exact ((pair_within P E hn w fun m hm => H.weight hm).mul T).mono (le_of_eq (by ring))

/-- C151, shapes in two halos: let the lightest halos of the grid have no satellites. The alignment of the centrals does not depend on mass function and bias at
all, that of the satellites is known up to `a d g ν`; if `l` is a bound for both errors, the 2-halo power of shapes is known up to `l²`, that of galaxies and shapes
up to `a d o ν l`, and in that of matter and shapes errors of the matter enter through the part `J` that is not seen only. -/
theorem C151_shapes_two_halo {w l : ℝ} (P : Proper s z k) (E : Same s s' z k)
    (hn : ∀ m < s.nm, Within a (s.dndlnm z m) (s'.dndlnm z m)) (hb : ∀ m < s.nm, Within d (s.haloBias z m) (s'.haloBias z m))
    (hw : ∀ m < s.nm, Within w (1 - s.uDm z k m) (1 - s'.uDm z k m)) (H : Shapes s s' t z k o ν g h)
    (h0 : s.hodSat t z 0 = 0) (h0' : s'.hodSat t z 0 = 0) (hl : h ≤ l) (hl' : a * d * g * ν ≤ l) :
    let S := simpson s.nm s.mass fun m => shapes s t z k m * s.haloBias z m * s.dndlnm z m / s.mass m
    let J := simpson s.nm s.mass fun m => s.mass m / s.meanDensity0 z * (1 - s.uDm z k m) * s.haloBias z m * (s.dndlnm z m / s.mass m)
    let δ := (a * d * w - 1) * J
    (∃ r r', s.powerSpectrumIi = .ok r ∧ s'.powerSpectrumIi = .ok r' ∧ Within (l ^ 2) (r.pk2h t z k) (r'.pk2h t z k)) ∧
    (∃ r r', s.powerSpectrumGi = .ok r ∧ s'.powerSpectrumGi = .ok r' ∧ Within (a * d * o * ν * l) (r.pk2h t z k) (r'.pk2h t z k)) ∧
    (∃ r r', s.powerSpectrumMi = .ok r ∧ s'.powerSpectrumMi = .ok r' ∧
      r.pk2h t z k = -((linear s t z + S) * (1 - J) * (s.pkLin z k * s.twoHaloTruncationIa k)) ∧
      |r'.pk2h t z k - r.pk2h t z k| ≤
        ((l - 1) * |1 - J| + l * δ) * (linear s t z + S) * (s.pkLin z k * s.twoHaloTruncationIa k)) := by
  intro S J δ
  have lin : ∀ {x : Spectra}, Proper x z k → x.icAlignTerm t z k = linear x t z := fun {x} p => by
    rw [C08_central_alignment_exact x t z k (fun m hm => (p.mass m hm).ne') p.some p.density.ne', tilt_eq]
    rfl
  have sat : ∀ {x : Spectra}, Occupied x t z → x.hodSat t z 0 = 0 → x.isAlignTerm t z k = x.computeIgTerm (x.satelliteAlignmentProfile t z k) z :=
    fun {x} q e => by
      have : x.satelliteAlignmentProfile t z k 0 = 0 := by rw [satelliteAlignmentProfile, e]; simp
      rw [isAlignTerm, this]
      simp
  have C : Within l (s.icAlignTerm t z k) (s'.icAlignTerm t z k) := by
    rw [lin P, lin (P.same E)]
    exact H.linear.mono hl
  have A : Within l (s.isAlignTerm t z k) (s'.isAlignTerm t z k) := by
    rw [sat H.occ h0, sat H.occ' h0']
    exact (biased_within P E hn hb fun m hm => H.weight hm).mono (le_trans (le_of_eq (by ring)) hl')
  have eS : s.isAlignTerm t z k = S := by
    rw [sat H.occ h0]
    exact simpson_congr_right fun m _ => by rw [shapes_eq H.occ]
  have T := Within.same (damp2_nonneg s k)
  have Q := Within.same P.linear
  refine ⟨⟨_, _, ii_ok H.resp, ii_ok H.resp', ?_⟩, ⟨_, _, gi_ok H.resp, gi_ok H.resp', ?_⟩, ⟨_, _, mi_ok H.resp, mi_ok H.resp', ?_, ?_⟩⟩
  · rw [(ii_raw_eq H.mode t z k).2, (ii_raw_eq H.mode' t z k).2, H.two, E.linear]
    exact ((Q.mul (((C.mul C).add (A.mul A)).add (C.mul A))).mul T).mono (le_of_eq (by ring))
  · rw [(gi_raw_eq H.mode t z k).2, (gi_raw_eq H.mode' t z k).2, H.two, E.linear]
    have B : Within (o * ν * d * a) (s.icTerm t z k) (s'.icTerm t z k) := biased_within P E hn hb fun m hm => H.centrals hm
    exact ((Q.mul (B.mul (C.add A))).mul T).mono (le_of_eq (by ring))
  · rw [(mi_raw_eq H.mode t z k).2, lin P, eS, matterBias_eq P.sampled, factor_eq]
    rfl
  · have W : Within (a * d * w) J (unseen s' z k) := unseen_within P E hn hb hw
    have V := C.add A
    rw [(mi_raw_eq H.mode t z k).2, (mi_raw_eq H.mode' t z k).2, H.two, E.linear, matterBias_eq P.sampled, matterBias_eq (P.same E).sampled, factor_eq,
      factor_eq, ← lin P, ← eS]
    generalize hB : s.icAlignTerm t z k + s.isAlignTerm t z k = B at V ⊢
    generalize hB' : s'.icAlignTerm t z k + s'.isAlignTerm t z k = B' at V ⊢
    have hJ : unseen s z k = J := rfl
    rw [hJ]
    have hq : 0 ≤ s.pkLin z k * s.twoHaloTruncationIa k := mul_nonneg P.linear (damp2_nonneg s k)
    have e' : -(B' * (1 - unseen s' z k) * (s.pkLin z k * s.twoHaloTruncationIa k)) - -(B * (1 - J) * (s.pkLin z k * s.twoHaloTruncationIa k)) =
        -((B' * (1 - unseen s' z k) - B * (1 - J)) * (s.pkLin z k * s.twoHaloTruncationIa k)) := by ring
    rw [e', abs_neg, abs_mul, abs_of_nonneg hq]
    refine mul_le_mul_of_nonneg_right ?_ hq
    calc |B' * (1 - unseen s' z k) - B * (1 - J)| = |(B' - B) * (1 - J) + B' * (J - unseen s' z k)| := by congr 1; ring
      _ ≤ |(B' - B) * (1 - J)| + |B' * (J - unseen s' z k)| := abs_add_le _ _
      _ = |B' - B| * |1 - J| + B' * |unseen s' z k - J| := by rw [abs_mul, abs_mul, abs_of_nonneg V.2.1, abs_sub_comm J]
      _ ≤ (l - 1) * B * |1 - J| + l * B * δ :=
        add_le_add (mul_le_mul_of_nonneg_right V.difference (abs_nonneg _))
          (mul_le_mul V.2.2.2 W.difference (abs_nonneg _) (V.2.1.trans V.2.2.2))
      _ = ((l - 1) * |1 - J| + l * δ) * B := by ring

end

/-! ## examples -/

/-- the demonstration object without satellites in the lightest halos -/
noncomputable def settled : Spectra := { demo with hodSat := fun _ _ m => m }

/-- the same with a mass function a tenth too large and an alignment of the satellites a third too large -/
noncomputable def misaligned : Spectra :=
  { settled with dndlnm := fun z m => 11 / 10 * settled.dndlnm z m, wkmSat := fun z k m => 4 / 3 * settled.wkmSat z k m }

theorem settled_proper : Proper settled 0 1 where
  grid := demo_proper.grid
  mass := demo_proper.mass
  some := demo_proper.some
  density := demo_proper.density
  linear := demo_proper.linear
  one := demo_proper.one
  two := demo_proper.two

theorem settled_shapes : Shapes settled misaligned 0 0 1 1 1 (4 / 3) 1 where
  cen m _ := Within.same (x := settled.hodCen 0 0 m) (by simp [settled, demo])
  sat m _ := by
    have := Within.scaled (a := 4 / 3) (by norm_num) (x := settled.hodSat 0 0 m * settled.wkmSat 0 1 m * tilt settled settled.betaSat settled.mpivotSat 0 0)
      (by simp [settled, demo, tilt])
    have e : misaligned.hodSat 0 0 m * misaligned.wkmSat 0 1 m * tilt misaligned misaligned.betaSat misaligned.mpivotSat 0 0 =
        4 / 3 * (settled.hodSat 0 0 m * settled.wkmSat 0 1 m * tilt settled settled.betaSat settled.mpivotSat 0 0) := by
      simp only [misaligned, settled, demo, tilt]
      ring
    rw [e]
    exact this
  number := Within.same (x := settled.numberDensity 0 0) (by simp [settled, demo])
  linear := by
    have : 0 ≤ linear settled 0 0 := by
      simp only [linear, tilt, settled, demo]
      norm_num
    exact Within.same this
  occ := ⟨(demo_occupied 0 0).tot, (demo_occupied 0 0).cen, (demo_occupied 0 0).sat, (demo_occupied 0 0).fCen, (demo_occupied 0 0).fSat⟩
  occ' := ⟨(demo_occupied 0 0).tot, (demo_occupied 0 0).cen, (demo_occupied 0 0).sat, (demo_occupied 0 0).fCen, (demo_occupied 0 0).fSat⟩
  one := rfl
  two := rfl
  mode := .inl rfl
  mode' := .inl rfl
  resp := rfl
  resp' := rfl

example : ∃ r r', settled.powerSpectrumIi = .ok r ∧ misaligned.powerSpectrumIi = .ok r' ∧
    Within ((4 / 3 * 1) ^ 2 * (11 / 10)) (r.pk1h 0 0 1) (r'.pk1h 0 0 1) :=
  (C151_shapes_one_halo (s' := misaligned) (a := 11 / 10) (c := 1) settled_proper ⟨rfl, rfl, rfl, rfl, rfl, rfl⟩ (.inr ⟨rfl, rfl⟩) (.inr ⟨rfl, rfl⟩)
    (fun m _ => Within.scaled (x := settled.dndlnm 0 m) (by norm_num) (by simp only [settled, demo]; positivity))
    (fun m _ => Within.same (x := demo.uDm 0 1 m) (by rw [demo_uDm_one]; norm_num)) settled_shapes).1

example : ∃ r r', settled.powerSpectrumIi = .ok r ∧ misaligned.powerSpectrumIi = .ok r' ∧
    Within ((22 / 15 : ℝ) ^ 2) (r.pk2h 0 0 1) (r'.pk2h 0 0 1) :=
  (C151_shapes_two_halo (s' := misaligned) (a := 11 / 10) (d := 1) (w := 1) (l := 22 / 15) settled_proper ⟨rfl, rfl, rfl, rfl, rfl, rfl⟩
    (fun m _ => Within.scaled (x := settled.dndlnm 0 m) (by norm_num) (by simp only [settled, demo]; positivity))
    (fun m _ => Within.same (x := demo.haloBias 0 m) (by simp [demo]))
    (fun m _ => Within.same (x := 1 - demo.uDm 0 1 m) (by rw [demo_uDm_one]; norm_num)) settled_shapes (by simp [settled]) (by simp [misaligned, settled])
    (by norm_num) (by norm_num)).1

end Verif.Pk.ErrorPropagation

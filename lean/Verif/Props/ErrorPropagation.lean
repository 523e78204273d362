import Verif.Props.PkTextbook
import Verif.Props.HodBase

/-! Property C151: how errors of the ingredients carry over to the spectra. -/

namespace Verif.Pk.ErrorPropagation

open Verif.Lib Verif.Spec Verif.Pk Verif.Pk.Spectra

/-! ## numbers known up to a factor -/

/-- two numbers that are not negative and differ by at most the factor `a` -/
def Within (a x y : ℝ) : Prop := 0 ≤ x ∧ 0 ≤ y ∧ x ≤ a * y ∧ y ≤ a * x

theorem Within.same {x : ℝ} (hx : 0 ≤ x) : Within 1 x x := ⟨hx, hx, by simp, by simp⟩

theorem Within.mono {a b x y : ℝ} (h : Within a x y) (hab : a ≤ b) : Within b x y :=
  ⟨h.1, h.2.1, h.2.2.1.trans (mul_le_mul_of_nonneg_right hab h.2.1), h.2.2.2.trans (mul_le_mul_of_nonneg_right hab h.1)⟩

theorem Within.mul {a b x y p q : ℝ} (h : Within a x y) (g : Within b p q) : Within (a * b) (x * p) (y * q) := by
  obtain ⟨h1, h2, h3, h4⟩ := h
  obtain ⟨g1, g2, g3, g4⟩ := g
  refine ⟨mul_nonneg h1 g1, mul_nonneg h2 g2, ?_, ?_⟩
  · calc x * p ≤ (a * y) * (b * q) := mul_le_mul h3 g3 g1 (h1.trans h3)
      _ = _ := by ring
  · calc y * q ≤ (a * x) * (b * p) := mul_le_mul h4 g4 g2 (h2.trans h4)
      _ = _ := by ring

theorem Within.add {a x y p q : ℝ} (h : Within a x y) (g : Within a p q) : Within a (x + p) (y + q) := by
  obtain ⟨h1, h2, h3, h4⟩ := h
  obtain ⟨g1, g2, g3, g4⟩ := g
  exact ⟨add_nonneg h1 g1, add_nonneg h2 g2, by linarith, by linarith⟩

theorem Within.div {a b x y p q : ℝ} (h : Within a x y) (g : Within b p q) (hp : 0 < p) (hq : 0 < q) :
    Within (a * b) (x / p) (y / q) := by
  obtain ⟨h1, h2, h3, h4⟩ := h
  obtain ⟨-, -, g3, g4⟩ := g
  refine ⟨div_nonneg h1 hp.le, div_nonneg h2 hq.le, ?_, ?_⟩
  · rw [div_le_iff₀ hp]
    calc x ≤ a * y := h3
      _ = (a * y) / q * q := by field_simp
      _ ≤ (a * y) / q * (b * p) := mul_le_mul_of_nonneg_left g4 (div_nonneg (h1.trans h3) hq.le)
      _ = _ := by ring
  · rw [div_le_iff₀ hq]
    calc y ≤ a * x := h4
      _ = (a * x) / p * p := by field_simp
      _ ≤ (a * x) / p * (b * q) := mul_le_mul_of_nonneg_left g3 (div_nonneg (h2.trans h4) hp.le)
      _ = _ := by ring

theorem Within.simpson {n : ℕ} {x y w : ℕ → ℝ} {a : ℝ} (g : GentleGrid n x) (h : ∀ i < n, Within a (y i) (w i)) :
    Within a (simpson n x y) (simpson n x w) := by
  refine ⟨simpson_nonneg g fun i hi => (h i hi).1, simpson_nonneg g fun i hi => (h i hi).2.1, ?_, ?_⟩
  · rw [← simpson_smul]
    exact simpson_mono g fun i hi => (h i hi).2.2.1
  · rw [← simpson_smul]
    exact simpson_mono g fun i hi => (h i hi).2.2.2

theorem Within.difference {a x y : ℝ} (h : Within a x y) : |y - x| ≤ (a - 1) * x := by
  obtain ⟨h1, h2, h3, h4⟩ := h
  have e : x - y ≤ (a - 1) * x := by
    rcases h1.eq_or_lt with e | hx
    · rw [← e]; linarith
    · have ha : 0 < a := by
        by_contra hn
        have := mul_nonpos_of_nonpos_of_nonneg (not_lt.1 hn) h2
        linarith
      have hx2 : x / a ≤ y := by rw [div_le_iff₀ ha]; linarith
      have : 2 - a ≤ 1 / a := by
        rw [le_div_iff₀ ha]; nlinarith [sq_nonneg (a - 1)]
      have := mul_le_mul_of_nonneg_right this h1
      have e : 1 / a * x = x / a := by ring
      linarith
  rw [abs_le]
  constructor <;> linarith

/-! ## matter -/

/-- two objects on the same grids, with the same damping -/
structure Same (s s' : Spectra) (z k : ℕ) : Prop where
  nm : s'.nm = s.nm
  mass : s'.mass = s.mass
  density : s'.meanDensity0 z = s.meanDensity0 z
  linear : s'.pkLin z k = s.pkLin z k
  one : s'.oneHaloTruncation k = s.oneHaloTruncation k
  two : s'.twoHaloTruncation k = s.twoHaloTruncation k

/-- what is usual: increasing positive masses on a gentle grid, a positive density, damping factors that are not negative -/
structure Proper (s : Spectra) (z k : ℕ) : Prop where
  grid : GentleGrid s.nm s.mass
  mass : ∀ m < s.nm, 0 < s.mass m
  some : 0 < s.nm
  density : 0 < s.meanDensity0 z
  linear : 0 ≤ s.pkLin z k
  one : 0 ≤ s.oneHaloTruncation k
  two : 0 ≤ s.twoHaloTruncation k

theorem Proper.sampled {s : Spectra} {z k : ℕ} (h : Proper s z k) : Sampled s := ⟨fun m hm => (h.mass m hm).ne', h.some⟩

theorem Proper.same {s s' : Spectra} {z k : ℕ} (h : Proper s z k) (e : Same s s' z k) : Proper s' z k where
  grid := by rw [e.nm, e.mass]; exact h.grid
  mass := by rw [e.nm, e.mass]; exact h.mass
  some := by rw [e.nm]; exact h.some
  density := by rw [e.density]; exact h.density
  linear := by rw [e.linear]; exact h.linear
  one := by rw [e.one]; exact h.one
  two := by rw [e.two]; exact h.two

/-- modes in which the matter power is that of the halo model -/
structure Plain (s : Spectra) : Prop where
  mode : s.nonlinearMode = .none ∨ s.nonlinearMode = .fortuna
  response : s.response = false
  ingredients : s.hmcodeIngredients = .none ∨ s.hmcodeIngredients = .mead2020

/-- C151, matter in one halo: mass functions that differ by at most the factor `a` and profiles that differ by at most the factor
`c` give 1-halo matter powers that differ by at most the factor `a c²`. -/
theorem C151_matter {s s' : Spectra} {z k : ℕ} {a c : ℝ} (P : Proper s z k) (E : Same s s' z k) (hs : Plain s) (hs' : Plain s')
    (hn : ∀ m < s.nm, Within a (s.dndlnm z m) (s'.dndlnm z m)) (hu : ∀ m < s.nm, Within c (s.uDm z k m) (s'.uDm z k m)) :
    ∃ r r', s.powerSpectrumMm = .ok r ∧ s'.powerSpectrumMm = .ok r' ∧ ∀ t,
      Within (a * c ^ 2) (r.pk1h t z k) (r'.pk1h t z k) := by
  obtain ⟨r, h1, h2⟩ := C97_matter P.sampled hs.mode hs.response hs.ingredients
  obtain ⟨r', h1', h2'⟩ := C97_matter (P.same E).sampled hs'.mode hs'.response hs'.ingredients
  refine ⟨r, r', h1, h1', fun t => ?_⟩
  rw [(h2 t z k).1, (h2' t z k).1, E.one]
  rw [show a * c ^ 2 = a * c ^ 2 * 1 by ring]
  refine Within.mul ?_ (Within.same P.one)
  simp only [HaloModel.oneHalo, HaloModel.matter, haloes, E.nm, E.mass, E.density]
  refine Within.simpson P.grid fun m hm => ?_
  have w : Within (1 * c) (s.mass m / s.meanDensity0 z * s.uDm z k m) (s.mass m / s.meanDensity0 z * s'.uDm z k m) :=
    (Within.same (div_nonneg (P.mass m hm).le P.density.le)).mul (hu m hm)
  have q : Within (a * 1) (s.dndlnm z m / s.mass m) (s'.dndlnm z m / s.mass m) :=
    (hn m hm).div (Within.same (P.mass m hm).le) (P.mass m hm) (P.mass m hm)
  exact ((w.mul w).mul q).mono (le_of_eq (by ring))

/-- the part of the biased matter that is not seen -/
noncomputable def unseen (s : Spectra) (z k : ℕ) : ℝ :=
  simpson s.nm s.mass fun m => s.mass m / s.meanDensity0 z * (1 - s.uDm z k m) * s.haloBias z m * (s.dndlnm z m / s.mass m)

theorem factor_eq (s : Spectra) (z k : ℕ) :
    (haloes s z k).bias1 ((haloes s z k).matter (s.uDm z k)) + (haloes s z k).missing = 1 - unseen s z k := by
  simp only [HaloModel.bias1, HaloModel.matter, HaloModel.missing, haloes, unseen]
  have : simpson s.nm s.mass (fun m => s.mass m / s.meanDensity0 z * s.haloBias z m * (s.dndlnm z m / s.mass m)) =
      simpson s.nm s.mass (fun m => s.mass m / s.meanDensity0 z * s.uDm z k m * s.haloBias z m * (s.dndlnm z m / s.mass m)) +
      simpson s.nm s.mass (fun m => s.mass m / s.meanDensity0 z * (1 - s.uDm z k m) * s.haloBias z m * (s.dndlnm z m / s.mass m)) := by
    rw [← simpson_add]
    exact congrArg _ (funext fun m => by ring)
  rw [this]
  ring

theorem unseen_within {s s' : Spectra} {z k : ℕ} {a d w : ℝ} (P : Proper s z k) (E : Same s s' z k)
    (hn : ∀ m < s.nm, Within a (s.dndlnm z m) (s'.dndlnm z m)) (hb : ∀ m < s.nm, Within d (s.haloBias z m) (s'.haloBias z m))
    (hw : ∀ m < s.nm, Within w (1 - s.uDm z k m) (1 - s'.uDm z k m)) : Within (a * d * w) (unseen s z k) (unseen s' z k) := by
  simp only [unseen, E.nm, E.mass, E.density]
  refine Within.simpson P.grid fun m hm => ?_
  have q : Within (a * 1) (s.dndlnm z m / s.mass m) (s'.dndlnm z m / s.mass m) :=
    (hn m hm).div (Within.same (P.mass m hm).le) (P.mass m hm) (P.mass m hm)
  exact ((((Within.same (div_nonneg (P.mass m hm).le P.density.le)).mul (hw m hm)).mul (hb m hm)).mul q).mono (le_of_eq (by ring))

theorem square_error {x y e : ℝ} (h : |y - x| ≤ e) : |y ^ 2 - x ^ 2| ≤ (2 * |x| + e) * e := by
  have h1 : y ^ 2 - x ^ 2 = (2 * x + (y - x)) * (y - x) := by ring
  rw [h1, abs_mul]
  refine mul_le_mul ?_ h (abs_nonneg _) ?_
  · calc |2 * x + (y - x)| ≤ |2 * x| + |y - x| := abs_add_le _ _
      _ ≤ _ := by rw [abs_mul, abs_two]; linarith
  · linarith [abs_nonneg x, (abs_nonneg _).trans h]

/-- C151, matter between halos: errors of the mass function, the bias and the profile enter the 2-halo matter power through the part
`J` of the biased matter that is not seen only.  Where halos are points there is no error at all. -/
theorem C151_matter_two_halo {s s' : Spectra} {z k : ℕ} {a d w : ℝ} (P : Proper s z k) (E : Same s s' z k) (hs : Plain s)
    (hs' : Plain s') (hn : ∀ m < s.nm, Within a (s.dndlnm z m) (s'.dndlnm z m))
    (hb : ∀ m < s.nm, Within d (s.haloBias z m) (s'.haloBias z m))
    (hw : ∀ m < s.nm, Within w (1 - s.uDm z k m) (1 - s'.uDm z k m)) :
    let J := simpson s.nm s.mass fun m => s.mass m / s.meanDensity0 z * (1 - s.uDm z k m) * s.haloBias z m * (s.dndlnm z m / s.mass m)
    let δ := (a * d * w - 1) * J
    ∃ r r', s.powerSpectrumMm = .ok r ∧ s'.powerSpectrumMm = .ok r' ∧ 0 ≤ J ∧ ∀ t,
      r.pk2h t z k = s.pkLin z k * (1 - J) ^ 2 * s.twoHaloTruncation k ∧
      |r'.pk2h t z k - r.pk2h t z k| ≤ (2 * |1 - J| + δ) * δ * (s.pkLin z k * s.twoHaloTruncation k) := by
  intro J δ
  obtain ⟨r, h1, h2⟩ := C97_matter P.sampled hs.mode hs.response hs.ingredients
  obtain ⟨r', h1', h2'⟩ := C97_matter (P.same E).sampled hs'.mode hs'.response hs'.ingredients
  have W := unseen_within P E hn hb hw
  refine ⟨r, r', h1, h1', W.1, fun t => ?_⟩
  have e : r.pk2h t z k = s.pkLin z k * (1 - J) ^ 2 * s.twoHaloTruncation k := by
    rw [(h2 t z k).2, factor_eq]; rfl
  refine ⟨e, ?_⟩
  have D : |(1 - unseen s' z k) - (1 - J)| ≤ δ := by
    rw [show (1 - unseen s' z k) - (1 - J) = -(unseen s' z k - J) by ring, abs_neg]
    exact W.difference
  have e' : r'.pk2h t z k - r.pk2h t z k =
      ((1 - unseen s' z k) ^ 2 - (1 - J) ^ 2) * (s.pkLin z k * s.twoHaloTruncation k) := by
    rw [e, (h2' t z k).2, factor_eq, E.two]
    simp only [haloes, E.linear]
    ring
  rw [e', abs_mul, abs_of_nonneg (mul_nonneg P.linear P.two)]
  exact mul_le_mul_of_nonneg_right (square_error D) (mul_nonneg P.linear P.two)

/-! ## galaxies -/

/-- galaxies that differ by factors: occupation with centrals, with satellites times their profile, mean number density, pairs -/
structure Galaxies (s s' : Spectra) (t z k : ℕ) (o ν p : ℝ) : Prop where
  cen : ∀ m < s.nm, Within o (s.hodCen t z m) (s'.hodCen t z m)
  sat : ∀ m < s.nm, Within o (s.hodSat t z m * s.uSat z k m) (s'.hodSat t z m * s'.uSat z k m)
  number : Within ν (s.numberDensity t z) (s'.numberDensity t z)
  pairs : ∀ m < s.nm, Within p (s.poissonFunc m) (s'.poissonFunc m)
  occ : Occupied s t z
  occ' : Occupied s' t z
  factor : 1 ≤ p

theorem Galaxies.pos {s s' : Spectra} {t z k : ℕ} {o ν p : ℝ} (H : Galaxies s s' t z k o ν p) :
    0 < s.numberDensity t z ∧ 0 < s'.numberDensity t z :=
  ⟨H.number.1.lt_of_ne' H.occ.tot, H.number.2.1.lt_of_ne' H.occ'.tot⟩

theorem Galaxies.weight {s s' : Spectra} {t z k : ℕ} {o ν p : ℝ} (H : Galaxies s s' t z k o ν p) {m : ℕ} (hm : m < s.nm) :
    Within (o * ν) (galaxyWeight s t z k m) (galaxyWeight s' t z k m) := by
  simp only [galaxyWeight, HaloModel.galaxies]
  exact ((H.cen m hm).add (H.sat m hm)).div H.number H.pos.1 H.pos.2

theorem bias_within {s s' : Spectra} {t z k : ℕ} {a d o ν p : ℝ} (P : Proper s z k) (E : Same s s' z k)
    (hn : ∀ m < s.nm, Within a (s.dndlnm z m) (s'.dndlnm z m)) (hb : ∀ m < s.nm, Within d (s.haloBias z m) (s'.haloBias z m))
    (H : Galaxies s s' t z k o ν p) :
    Within (a * d * o * ν) ((haloes s z k).bias1 (galaxyWeight s t z k)) ((haloes s' z k).bias1 (galaxyWeight s' t z k)) := by
  simp only [HaloModel.bias1, haloes, E.nm, E.mass]
  refine Within.simpson P.grid fun m hm => ?_
  have q : Within (a * 1) (s.dndlnm z m / s.mass m) (s'.dndlnm z m / s.mass m) :=
    (hn m hm).div (Within.same (P.mass m hm).le) (P.mass m hm) (P.mass m hm)
  exact (((H.weight hm).mul (hb m hm)).mul q).mono (le_of_eq (by ring))

/-- C151, galaxies: with occupations known up to the factor `o`, mean number density up to `ν`, pairs up to `p`, mass function up to
`a` and bias up to `d` the 1-halo galaxy power is known up to `p o² ν² a`, the 2-halo power up to `(o ν a d)²`. -/
theorem C151_galaxies {s s' : Spectra} {t z k : ℕ} {a d o ν p : ℝ} (P : Proper s z k) (E : Same s s' z k)
    (hm : s.nonlinearMode ≠ .bnl) (hm' : s'.nonlinearMode ≠ .bnl) (hr : s.response = false) (hr' : s'.response = false)
    (hn : ∀ m < s.nm, Within a (s.dndlnm z m) (s'.dndlnm z m)) (hb : ∀ m < s.nm, Within d (s.haloBias z m) (s'.haloBias z m))
    (H : Galaxies s s' t z k o ν p) :
    ∃ r r', s.powerSpectrumGg = .ok r ∧ s'.powerSpectrumGg = .ok r' ∧
      Within (p * o ^ 2 * ν ^ 2 * a) (r.pk1h t z k) (r'.pk1h t z k) ∧
      Within ((a * d * o * ν) ^ 2) (r.pk2h t z k) (r'.pk2h t z k) := by
  obtain ⟨r, h1, h2⟩ := C97_galaxies (s := s) hm hr
  obtain ⟨r', h1', h2'⟩ := C97_galaxies (s := s') hm' hr'
  obtain ⟨e1, e2⟩ := h2 t z k H.occ
  obtain ⟨e1', e2'⟩ := h2' t z k H.occ'
  refine ⟨r, r', h1, h1', ?_, ?_⟩
  · rw [e1, e1', E.one, show p * o ^ 2 * ν ^ 2 * a = p * o ^ 2 * ν ^ 2 * a * 1 by ring]
    refine Within.mul ?_ (Within.same P.one)
    simp only [haloes, E.nm, E.mass]
    refine Within.simpson P.grid fun m hm => ?_
    have q : Within (a * 1) (s.dndlnm z m / s.mass m) (s'.dndlnm z m / s.mass m) :=
      (hn m hm).div (Within.same (P.mass m hm).le) (P.mass m hm) (P.mass m hm)
    have c := (Within.same (zero_le_two (α := ℝ))).mul ((H.cen m hm).mul (H.sat m hm))
    have t2 := (H.pairs m hm).mul ((H.sat m hm).mul (H.sat m hm))
    have c' : Within (p * (o * o)) _ _ := c.mono (mul_le_mul_of_nonneg_right H.factor (mul_self_nonneg o))
    have n2 := H.number.mul H.number
    have f := ((c'.add t2).div n2 (mul_pos H.pos.1 H.pos.1) (mul_pos H.pos.2 H.pos.2)).mul q
    refine (show Within (p * (o * o) * (ν * ν) * (a * 1)) _ _ from ?_).mono (le_of_eq (by ring))
    convert f using 1 <;> ring
  · rw [e2, e2', E.two]
    have B := bias_within P E hn hb H
    have f := (((Within.same P.linear).mul (B.mul B)).mul (Within.same P.two)).mono
      (b := (a * d * o * ν) ^ 2) (le_of_eq (by ring))
    simp only [pow_two] at f ⊢
    simpa only [haloes, E.linear] using f

/-- C151, galaxies and matter: the 1-halo power is known up to `o ν c a`.  Errors of the bias of the galaxies enter the 2-halo power in
full, those of matter through the part `J` that is not seen only. -/
theorem C151_galaxies_matter {s s' : Spectra} {t z k : ℕ} {a c d w o ν p : ℝ} (P : Proper s z k) (E : Same s s' z k)
    (hm : s.nonlinearMode ≠ .bnl) (hm' : s'.nonlinearMode ≠ .bnl) (hr : s.response = false) (hr' : s'.response = false)
    (hi : s.hmcodeIngredients = .mead2020 ∨ (s.hmcodeIngredients = .none ∧ s.pointmass = false))
    (hi' : s'.hmcodeIngredients = .mead2020 ∨ (s'.hmcodeIngredients = .none ∧ s'.pointmass = false))
    (hn : ∀ m < s.nm, Within a (s.dndlnm z m) (s'.dndlnm z m)) (hb : ∀ m < s.nm, Within d (s.haloBias z m) (s'.haloBias z m))
    (hu : ∀ m < s.nm, Within c (s.uDm z k m) (s'.uDm z k m)) (hw : ∀ m < s.nm, Within w (1 - s.uDm z k m) (1 - s'.uDm z k m))
    (H : Galaxies s s' t z k o ν p) :
    let B := simpson s.nm s.mass fun m => (s.hodCen t z m + s.hodSat t z m * s.uSat z k m) / s.numberDensity t z * s.haloBias z m *
      (s.dndlnm z m / s.mass m)
    let J := simpson s.nm s.mass fun m => s.mass m / s.meanDensity0 z * (1 - s.uDm z k m) * s.haloBias z m * (s.dndlnm z m / s.mass m)
    let β := a * d * o * ν
    let δ := (a * d * w - 1) * J
    ∃ r r', s.powerSpectrumGm = .ok r ∧ s'.powerSpectrumGm = .ok r' ∧
      Within (o * ν * c * a) (r.pk1h t z k) (r'.pk1h t z k) ∧
      r.pk2h t z k = s.pkLin z k * B * (1 - J) * s.twoHaloTruncation k ∧ 0 ≤ B ∧ 0 ≤ J ∧
      |r'.pk2h t z k - r.pk2h t z k| ≤ ((β - 1) * |1 - J| + β * δ) * B * (s.pkLin z k * s.twoHaloTruncation k) := by
  intro B J β δ
  obtain ⟨r, h1, h2⟩ := C97_galaxies_matter (s := s) P.sampled hm hr
  obtain ⟨r', h1', h2'⟩ := C97_galaxies_matter (s := s') (P.same E).sampled hm' hr'
  obtain ⟨e1, e2⟩ := h2 t z k H.occ
  obtain ⟨e1', e2'⟩ := h2' t z k H.occ'
  have W : Within (a * d * w) J (unseen s' z k) := unseen_within P E hn hb hw
  have V : Within β B ((haloes s' z k).bias1 (galaxyWeight s' t z k)) := bias_within P E hn hb H
  have e : r.pk2h t z k = s.pkLin z k * B * (1 - J) * s.twoHaloTruncation k := by rw [e2, factor_eq]; rfl
  refine ⟨r, r', h1, h1', ?_, e, V.1, W.1, ?_⟩
  · rw [e1, e1', E.one, C97_plain_weight hi, C97_plain_weight hi', show o * ν * c * a = o * ν * c * a * 1 by ring]
    refine Within.mul ?_ (Within.same P.one)
    simp only [HaloModel.oneHalo, HaloModel.matter, haloes, E.nm, E.mass, E.density]
    refine Within.simpson P.grid fun m hm => ?_
    have q : Within (a * 1) (s.dndlnm z m / s.mass m) (s'.dndlnm z m / s.mass m) :=
      (hn m hm).div (Within.same (P.mass m hm).le) (P.mass m hm) (P.mass m hm)
    have x : Within (1 * c) (s.mass m / s.meanDensity0 z * s.uDm z k m) (s.mass m / s.meanDensity0 z * s'.uDm z k m) :=
      (Within.same (div_nonneg (P.mass m hm).le P.density.le)).mul (hu m hm)
    exact (((H.weight hm).mul x).mul q).mono (le_of_eq (by ring))
  · generalize hB' : (haloes s' z k).bias1 (galaxyWeight s' t z k) = B' at V
    have e' : r'.pk2h t z k - r.pk2h t z k =
        (B' * (1 - unseen s' z k) - B * (1 - J)) * (s.pkLin z k * s.twoHaloTruncation k) := by
      rw [e, e2', factor_eq, hB', E.two]
      simp only [haloes, E.linear]
      ring
    rw [e', abs_mul, abs_of_nonneg (mul_nonneg P.linear P.two)]
    refine mul_le_mul_of_nonneg_right ?_ (mul_nonneg P.linear P.two)
    calc |B' * (1 - unseen s' z k) - B * (1 - J)| = |(B' - B) * (1 - J) + B' * (J - unseen s' z k)| := by congr 1; ring
      _ ≤ |(B' - B) * (1 - J)| + |B' * (J - unseen s' z k)| := abs_add_le _ _
      _ = |B' - B| * |1 - J| + B' * |unseen s' z k - J| := by rw [abs_mul, abs_mul, abs_of_nonneg V.2.1, abs_sub_comm J]
      _ ≤ (β - 1) * B * |1 - J| + β * B * δ :=
        add_le_add (mul_le_mul_of_nonneg_right V.difference (abs_nonneg _))
          (mul_le_mul V.2.2.2 W.difference (abs_nonneg _) (V.2.1.trans V.2.2.2))
      _ = _ := by ring

/-! ## number density and bias of the galaxies -/

theorem Within.interp {n : ℕ} {x y w : ℕ → ℝ} {a q : ℝ} (hn : 2 ≤ n) (hx : SortedOn n x) (h0 : x 0 ≤ q) (h1 : q ≤ x (n - 1))
    (fill : Fill) (h : ∀ i < n, Within a (y i) (w i)) : Within a (interp1d fill n x y q) (interp1d fill n x w q) := by
  rw [interp1d_inside h0 h1, interp1d_inside h0 h1]
  obtain ⟨j, t, hj1, hj2, ht0, ht1, -, hv⟩ := interpLinear_convex hn hx h0 h1
  rw [hv, hv]
  have A := (Within.same (sub_nonneg.2 ht1)).mul (h (j - 1) (by omega))
  have B := (Within.same ht0).mul (h j hj2)
  exact (A.add B).mono (le_of_eq (one_mul a))

open Verif.Hod (Base)

/-- two samples on the same grids; the redshifts of the bin lie inside those of the spectra -/
structure Samples (h h' : Base) (b : ℕ) (a d o : ℝ) : Prop where
  nzv : h'.nzv = h.nzv
  zVec : h'.zVec = h.zVec
  nm : h'.nm = h.nm
  mass : h'.mass = h.mass
  nz : h'.nz = h.nz
  z : h'.z = h.z
  grid : GentleGrid h.nm h.mass
  positive : ∀ m < h.nm, 0 < h.mass m
  many : 2 ≤ h.nzv ∧ 2 ≤ h.nz
  sorted : SortedOn h.nzv h.zVec ∧ SortedOn h.nz (h.z b)
  inside : ∀ j < h.nz, h.zVec 0 ≤ h.z b j ∧ h.z b j ≤ h.zVec (h.nzv - 1)
  number : ∀ i < h.nzv, ∀ m < h.nm, Within a (h.dndlnm i m) (h'.dndlnm i m)
  bias : ∀ i < h.nzv, ∀ m < h.nm, Within d (h.haloBias i m) (h'.haloBias i m)
  cen : ∀ j < h.nz, ∀ m < h.nm, Within o (h.occCen b j m) (h'.occCen b j m)
  sat : ∀ j < h.nz, ∀ m < h.nm, Within o (h.occSat b j m) (h'.occSat b j m)

namespace Samples

variable {h h' : Base} {b : ℕ} {a d o : ℝ}

theorem dndlnmInt (S : Samples h h' b a d o) {j m : ℕ} (hj : j < h.nz) (hm : m < h.nm) :
    Within a (h.dndlnmInt b j m) (h'.dndlnmInt b j m) := by
  simp only [Base.dndlnmInt, S.nzv, S.zVec, S.z]
  exact Within.interp S.many.1 S.sorted.1 (S.inside j hj).1 (S.inside j hj).2 _ fun i hi => S.number i hi m hm

theorem haloBiasInt (S : Samples h h' b a d o) {j m : ℕ} (hj : j < h.nz) (hm : m < h.nm) :
    Within d (h.haloBiasInt b j m) (h'.haloBiasInt b j m) := by
  simp only [Base.haloBiasInt, S.nzv, S.zVec, S.z]
  exact Within.interp S.many.1 S.sorted.1 (S.inside j hj).1 (S.inside j hj).2 _ fun i hi => S.bias i hi m hm

theorem occ (S : Samples h h' b a d o) {j m : ℕ} (hj : j < h.nz) (hm : m < h.nm) : Within o (h.occ b j m) (h'.occ b j m) :=
  (S.cen j hj m hm).add (S.sat j hj m hm)

theorem massIntegral (S : Samples h h' b a d o) {N N' : ℕ → ℕ → ℕ → ℝ} {j : ℕ} (hj : j < h.nz)
    (hN : ∀ m < h.nm, Within o (N b j m) (N' b j m)) : Within (a * o) (h.massIntegral N b j) (h'.massIntegral N' b j) := by
  simp only [Base.massIntegral, S.nm, S.mass]
  refine Within.simpson S.grid fun m hm => ?_
  exact (((hN m hm).mul (S.dndlnmInt hj hm)).div (Within.same (S.positive m hm).le) (S.positive m hm) (S.positive m hm)).mono
    (le_of_eq (by ring))

theorem biasIntegral (S : Samples h h' b a d o) {N N' : ℕ → ℕ → ℕ → ℝ} {j : ℕ} (hj : j < h.nz)
    (hN : ∀ m < h.nm, Within o (N b j m) (N' b j m)) (p : 0 < h.ntot b j) (p' : 0 < h'.ntot b j) :
    Within (a ^ 2 * d * o ^ 2) (h.biasIntegral N b j) (h'.biasIntegral N' b j) := by
  have t : Within (a * o) (h.ntot b j) (h'.ntot b j) := S.massIntegral hj fun m hm => S.occ hj hm
  refine (Within.div (a := o * d * a) ?_ t p p').mono (le_of_eq (by ring))
  simp only [S.nm, S.mass]
  refine Within.simpson S.grid fun m hm => ?_
  exact ((((hN m hm).mul (S.haloBiasInt hj hm)).mul (S.dndlnmInt hj hm)).div (Within.same (S.positive m hm).le) (S.positive m hm)
    (S.positive m hm)).mono (le_of_eq (by ring))

end Samples

/-- C151, samples: with a mass function known up to the factor `a` and occupations up to `o` the number densities are known up to
`a o`; with a halo bias known up to `d` the galaxy bias is known up to `a² d o²`, at all redshifts inside those of the bin. -/
theorem C151_samples {h h' : Base} {b : ℕ} {a d o : ℝ} (S : Samples h h' b a d o) {i : ℕ} (h0 : h.z b 0 ≤ h.zVec i)
    (h1 : h.zVec i ≤ h.z b (h.nz - 1)) :
    Within (a * o) (h.numberDensityCen b i) (h'.numberDensityCen b i) ∧
    Within (a * o) (h.numberDensitySat b i) (h'.numberDensitySat b i) ∧
    Within (a * o) (h.numberDensity b i) (h'.numberDensity b i) ∧
    ((∀ j < h.nz, 0 < h.ntot b j ∧ 0 < h'.ntot b j) →
      Within ((a * o) ^ 2) (h.fC b i) (h'.fC b i) ∧ Within ((a * o) ^ 2) (h.fS b i) (h'.fS b i) ∧
      Within (a ^ 2 * d * o ^ 2) (h.galaxyLinearBiasCen b i) (h'.galaxyLinearBiasCen b i) ∧
      Within (a ^ 2 * d * o ^ 2) (h.galaxyLinearBiasSat b i) (h'.galaxyLinearBiasSat b i) ∧
      Within (a ^ 2 * d * o ^ 2) (h.galaxyLinearBias b i) (h'.galaxyLinearBias b i)) := by
  have I : ∀ {e : ℝ} {f f' : ℕ → ℕ → ℝ} (fill : Fill), (∀ j < h.nz, Within e (f b j) (f' b j)) →
      Within e (h.interpolate fill f b i) (h'.interpolate fill f' b i) := by
    intro e f f' fill hf
    simp only [Base.interpolate, S.nz, S.z, S.zVec]
    exact Within.interp S.many.2 S.sorted.2 h0 h1 fill hf
  have c : ∀ j < h.nz, Within (a * o) (h.ncen b j) (h'.ncen b j) := fun j hj => S.massIntegral hj (S.cen j hj)
  have s : ∀ j < h.nz, Within (a * o) (h.nsat b j) (h'.nsat b j) := fun j hj => S.massIntegral hj (S.sat j hj)
  have t : ∀ j < h.nz, Within (a * o) (h.ntot b j) (h'.ntot b j) := fun j hj => S.massIntegral hj fun m hm => S.occ hj hm
  refine ⟨I _ c, I _ s, I _ t, fun p => ⟨I _ fun j hj => ?_, I _ fun j hj => ?_, I _ fun j hj => ?_, I _ fun j hj => ?_,
    I _ fun j hj => ?_⟩⟩
  · exact ((c j hj).div (t j hj) (p j hj).1 (p j hj).2).mono (le_of_eq (by ring))
  · exact ((s j hj).div (t j hj) (p j hj).1 (p j hj).2).mono (le_of_eq (by ring))
  · exact S.biasIntegral hj (S.cen j hj) (p j hj).1 (p j hj).2
  · exact S.biasIntegral hj (S.sat j hj) (p j hj).1 (p j hj).2
  · exact S.biasIntegral hj (fun m hm => S.occ hj hm) (p j hj).1 (p j hj).2

/-! ## examples -/

theorem Within.scaled {a x : ℝ} (ha : 1 ≤ a) (hx : 0 ≤ x) : Within a x (a * x) := by
  have e : x ≤ a * x := le_mul_of_one_le_left hx ha
  exact ⟨hx, hx.trans e, e.trans (le_mul_of_one_le_left (hx.trans e) ha), le_refl _⟩

/-- a mass function that is a tenth too large, a bias that is a fifth too large, a third more satellites than there are -/
noncomputable def wrong : Spectra :=
  { demo with
    dndlnm := fun z m => 11 / 10 * demo.dndlnm z m, haloBias := fun z m => 6 / 5 * demo.haloBias z m
    hodSat := fun b z m => 4 / 3 * demo.hodSat b z m }

theorem demo_proper : Proper demo 0 1 where
  grid := demo_gentle
  mass m _ := by simp only [demo]; positivity
  some := by simp [demo]
  density := by simp [demo]
  linear := by simp [demo]
  one := by
    simp only [oneHaloTruncation, demo]
    norm_num
    try positivity
  two := by
    simp only [twoHaloTruncation, demo]
    norm_num
    have X : (0 : ℝ) ≤ (200000 / 5699) ^ (2853 / 1000 : ℝ) := by positivity
    rw [div_le_one (by positivity)]
    linarith

theorem demo_same : Same demo wrong 0 1 := ⟨rfl, rfl, rfl, rfl, rfl, rfl⟩

theorem demo_uDm_one (m : ℕ) : demo.uDm 0 1 m = 1 / 2 := by
  simp only [demo, Hmi.uDm, demoRaw]
  push_cast
  field_simp
  norm_num

theorem wrong_number (m : ℕ) : Within (11 / 10) (demo.dndlnm 0 m) (wrong.dndlnm 0 m) :=
  Within.scaled (by norm_num) (by simp only [demo]; positivity)

theorem wrong_bias (m : ℕ) : Within (6 / 5) (demo.haloBias 0 m) (wrong.haloBias 0 m) :=
  Within.scaled (by norm_num) (by simp [demo])

theorem demo_plain : Plain demo ∧ Plain wrong := ⟨⟨.inl rfl, rfl, .inl rfl⟩, ⟨.inl rfl, rfl, .inl rfl⟩⟩

example : ∃ r r', demo.powerSpectrumMm = .ok r ∧ wrong.powerSpectrumMm = .ok r' ∧ ∀ t,
    Within (11 / 10 * 1 ^ 2) (r.pk1h t 0 1) (r'.pk1h t 0 1) :=
  C151_matter demo_proper demo_same demo_plain.1 demo_plain.2 (fun m _ => wrong_number m)
    fun m _ => Within.same (by rw [demo_uDm_one]; norm_num)

example : ∃ r r', demo.powerSpectrumMm = .ok r ∧ wrong.powerSpectrumMm = .ok r' ∧ ∃ J, 0 ≤ J ∧
    r.pk2h 0 0 1 = demo.pkLin 0 1 * (1 - J) ^ 2 * demo.twoHaloTruncation 1 := by
  obtain ⟨r, r', h1, h2, h3, h4⟩ := C151_matter_two_halo (a := 11 / 10) (d := 6 / 5) (w := 1) demo_proper demo_same demo_plain.1
    demo_plain.2 (fun m _ => wrong_number m) (fun m _ => wrong_bias m)
    (fun m _ => by
      have := Within.same (x := 1 - demo.uDm 0 1 m) (by rw [demo_uDm_one]; norm_num)
      exact this)
  exact ⟨r, r', h1, h2, _, h3, (h4 0).1⟩

theorem demo_wrong_galaxies : Galaxies demo wrong 0 0 1 (4 / 3) 1 1 where
  cen m _ := (Within.same (x := demo.hodCen 0 0 m) (by simp [demo])).mono (by norm_num)
  sat m _ := by
    have u : 0 ≤ demo.uSat 0 1 m := by simp only [demo, Hmi.uSat, demoRaw]; positivity
    have n : 0 ≤ demo.hodSat 0 0 m := by simp only [demo]; positivity
    exact ((Within.scaled (a := 4 / 3) (by norm_num) n).mul (Within.same u)).mono (by norm_num)
  number := Within.same (x := demo.numberDensity 0 0) (by simp [demo])
  pairs m _ := Within.same (x := demo.poissonFunc m) (by simp [demo])
  occ := demo_occupied 0 0
  occ' := ⟨(demo_occupied 0 0).tot, (demo_occupied 0 0).cen, (demo_occupied 0 0).sat, (demo_occupied 0 0).fCen,
    (demo_occupied 0 0).fSat⟩
  factor := le_refl _

example : ∃ r r', demo.powerSpectrumGg = .ok r ∧ wrong.powerSpectrumGg = .ok r' ∧
    Within (1 * (4 / 3) ^ 2 * 1 ^ 2 * (11 / 10)) (r.pk1h 0 0 1) (r'.pk1h 0 0 1) ∧
    Within ((11 / 10 * (6 / 5) * (4 / 3) * 1) ^ 2) (r.pk2h 0 0 1) (r'.pk2h 0 0 1) :=
  C151_galaxies demo_proper demo_same (by simp [demo]) (by simp [wrong, demo]) rfl rfl (fun m _ => wrong_number m)
    (fun m _ => wrong_bias m) demo_wrong_galaxies

example : ∃ r r', demo.powerSpectrumGm = .ok r ∧ wrong.powerSpectrumGm = .ok r' ∧
    Within (4 / 3 * 1 * 1 * (11 / 10)) (r.pk1h 0 0 1) (r'.pk1h 0 0 1) := by
  obtain ⟨r, r', h1, h2, h3, -⟩ := C151_galaxies_matter (c := 1) (w := 1) demo_proper demo_same (by simp [demo])
    (by simp [wrong, demo]) rfl rfl (.inr ⟨rfl, rfl⟩) (.inr ⟨rfl, rfl⟩) (fun m _ => wrong_number m) (fun m _ => wrong_bias m)
    (fun m _ => Within.same (x := demo.uDm 0 1 m) (by rw [demo_uDm_one]; norm_num))
    (fun m _ => Within.same (x := 1 - demo.uDm 0 1 m) (by rw [demo_uDm_one]; norm_num)) demo_wrong_galaxies
  exact ⟨r, r', h1, h2, h3⟩

/-- a sample with twice the satellites -/
noncomputable def crowded : Base := { Hod.demo with occSat := fun b j m => 2 * Hod.demo.occSat b j m }

theorem demo_crowded : Samples Hod.demo crowded 0 1 1 2 where
  nzv := rfl
  zVec := rfl
  nm := rfl
  mass := rfl
  nz := rfl
  z := rfl
  grid := by refine ⟨fun i _ => ?_, fun i _ => ?_, fun i _ => ?_⟩ <;> (simp [Hod.demo]; try norm_num)
  positive m _ := by simp only [Hod.demo]; positivity
  many := ⟨by simp [Hod.demo], by simp [Hod.demo]⟩
  sorted := ⟨Hod.demo_sorted.2, Hod.demo_sorted.1⟩
  inside j hj := by
    have : j < 2 := hj
    have hj' : (j : ℝ) ≤ 1 := by exact_mod_cast (by omega : j ≤ 1)
    simp only [Hod.demo]
    constructor
    · push_cast; positivity
    · norm_num; linarith
  number i _ m _ := Within.same (x := Hod.demo.dndlnm i m) (by simp only [Hod.demo]; positivity)
  bias i _ m _ := Within.same (x := Hod.demo.haloBias i m) (by simp only [Hod.demo]; positivity)
  cen j _ m _ := (Within.same (x := Hod.demo.occCen 0 j m) (by simp only [Hod.demo]; split_ifs <;> norm_num)).mono (by norm_num)
  sat j _ m _ := Within.scaled (x := Hod.demo.occSat 0 j m) (a := 2) (by norm_num) (by simp only [Hod.demo]; positivity)

example : Within (1 * 2) (Hod.demo.numberDensity 0 0) (crowded.numberDensity 0 0) :=
  (C151_samples demo_crowded (i := 0) (by simp [Hod.demo]) (by simp [Hod.demo])).2.2.1

end Verif.Pk.ErrorPropagation

import Verif.Props.Accuracy
import Verif.Props.HodTextbook
import Verif.Props.UnionOfSamples
import Verif.Props.HodBase

/-! Property C156: a bin of the observable, and the two bins it is made of. -/

namespace Verif.BinSplit

open Verif.Lib Verif.Hod Verif.Accuracy Finset Filter Topology

/-- Simpson's rule on a grid cut at an even point -/
theorem simpson_split (a : ℕ) {n : ℕ} (hn : 3 ≤ n) (x y : ℕ → ℝ) :
    simpson (2 * a + n) x y = simpson (2 * a + 1) x y + simpson n (fun i => x (2 * a + i)) (fun i => y (2 * a + i)) := by
  have odd : ∀ b, simpson (2 * b + 1) x y = basicSimpson b x y := fun b => by
    rw [simpson, if_pos (by omega), show (2 * b + 1) / 2 = b by omega]
  have cut : ∀ b, basicSimpson (a + b) x y = basicSimpson a x y + basicSimpson b (fun i => x (2 * a + i)) (fun i => y (2 * a + i)) := fun b => by
    unfold basicSimpson
    rw [Finset.sum_range_add]
    refine congrArg _ (Finset.sum_congr rfl fun i _ => ?_)
    rw [show 2 * (a + i) = 2 * a + 2 * i by ring]
    rfl
  rw [odd]
  rcases Nat.even_or_odd' n with ⟨b, rfl | rfl⟩
  · have h1 : ∀ u v : ℕ → ℝ, simpson (2 * b) u v = basicSimpson (b - 1) u v
        + simpsonLast (u (2 * b - 2) - u (2 * b - 3)) (u (2 * b - 1) - u (2 * b - 2)) (v (2 * b - 3)) (v (2 * b - 2)) (v (2 * b - 1)) := fun u v => by
      rw [simpson, if_neg (by omega), if_neg (by omega), if_neg (by omega), show 2 * b / 2 - 1 = b - 1 by omega]
    have h2 : simpson (2 * a + 2 * b) x y = basicSimpson (a + (b - 1)) x y
        + simpsonLast (x (2 * a + (2 * b - 2)) - x (2 * a + (2 * b - 3))) (x (2 * a + (2 * b - 1)) - x (2 * a + (2 * b - 2)))
          (y (2 * a + (2 * b - 3))) (y (2 * a + (2 * b - 2))) (y (2 * a + (2 * b - 1))) := by
      rw [simpson, if_neg (by omega), if_neg (by omega), if_neg (by omega), show (2 * a + 2 * b) / 2 - 1 = a + (b - 1) by omega,
        show 2 * a + 2 * b - 2 = 2 * a + (2 * b - 2) by omega, show 2 * a + 2 * b - 3 = 2 * a + (2 * b - 3) by omega,
        show 2 * a + 2 * b - 1 = 2 * a + (2 * b - 1) by omega]
    rw [h1, h2, cut]; ring
  · have h1 : ∀ u v : ℕ → ℝ, simpson (2 * b + 1) u v = basicSimpson b u v := fun u v => by
      rw [simpson, if_pos (by omega), show (2 * b + 1) / 2 = b by omega]
    rw [h1, show 2 * a + (2 * b + 1) = 2 * (a + b) + 1 by ring, odd, cut]

theorem obsRow_eq (lo hi : ℝ) (n i : ℕ) : obsRow lo hi n i = (10 : ℝ) ^ (lo + i * ((hi - lo) / ((n : ℝ) - 1))) := rfl

/-- grids with the same spacing -/
theorem grid_split (lo d : ℝ) {a n : ℕ} (ha : 0 < a) (hn : 3 ≤ n) :
    (∀ i, obsRow lo (lo + (2 * a + n - 1) * d) (2 * a + n) i = (10 : ℝ) ^ (lo + i * d)) ∧
    (∀ i, obsRow lo (lo + 2 * a * d) (2 * a + 1) i = (10 : ℝ) ^ (lo + i * d)) ∧
    ∀ i, obsRow (lo + 2 * a * d) (lo + (2 * a + n - 1) * d) n i = (10 : ℝ) ^ (lo + (2 * a + i : ℕ) * d) := by
  have a0 : (0 : ℝ) < a := by exact_mod_cast ha
  have n0 : (3 : ℝ) ≤ n := by exact_mod_cast hn
  have e1 : (2 * (a : ℝ) + n - 1) ≠ 0 := by linarith
  have e2 : (2 * (a : ℝ)) ≠ 0 := by linarith
  have e3 : ((n : ℝ) - 1) ≠ 0 := by linarith
  refine ⟨fun i => ?_, fun i => ?_, fun i => ?_⟩ <;> rw [obsRow_eq] <;> congr 1 <;> push_cast
  · rw [add_sub_cancel_left, mul_div_cancel_left₀ _ e1]
  · rw [add_sub_cancel_left, add_sub_cancel_right, mul_div_cancel_left₀ _ e2]
  · rw [show lo + (2 * (a : ℝ) + n - 1) * d - (lo + 2 * a * d) = (n - 1) * d by ring, mul_div_cancel_left₀ _ e3]; ring

/-- integral over a bin of the observable -/
noncomputable def binned (f : ℝ → ℝ) (n : ℕ) (lo hi : ℝ) : ℝ := simpson n (obsRow lo hi n) fun o => f (obsRow lo hi n o)

theorem binned_split (f : ℝ → ℝ) (lo d : ℝ) {a n : ℕ} (ha : 0 < a) (hn : 3 ≤ n) :
    binned f (2 * a + n) lo (lo + (2 * a + n - 1) * d) =
      binned f (2 * a + 1) lo (lo + 2 * a * d) + binned f n (lo + 2 * a * d) (lo + (2 * a + n - 1) * d) := by
  obtain ⟨h1, h2, h3⟩ := grid_split lo d ha hn
  unfold binned
  rw [simpson_split a hn]
  congr 1
  · rw [funext h1, funext h2]
  · rw [funext h3]; simp only [h1]

/-- C156: bins with the same spacing.  Cut a bin at an odd point of its grid: the galaxies of both parts, each on a grid of the same spacing, are
exactly those of the bin, centrals and satellites, and so are the stellar masses; decorated satellites as well. -/
theorem C156_same_spacing (p : CacciatoParams) (hc : p.aCen = none) (lo d M : ℝ) {a n : ℕ} (ha : 0 < a) (hn : 3 ≤ n) :
    let hi := lo + (2 * a + n - 1) * d
    let mid := lo + 2 * a * d
    let N := 2 * a + n
    p.hodCen N (obsRow lo hi N) M = p.hodCen (2 * a + 1) (obsRow lo mid (2 * a + 1)) M + p.hodCen n (obsRow mid hi n) M ∧
    p.hodSat N (obsRow lo hi N) M = p.hodSat (2 * a + 1) (obsRow lo mid (2 * a + 1)) M + p.hodSat n (obsRow mid hi n) M ∧
    p.stellar N (obsRow lo hi N) M = p.stellar (2 * a + 1) (obsRow lo mid (2 * a + 1)) M + p.stellar n (obsRow mid hi n) M := by
  have B := fun f => binned_split f lo d ha hn
  unfold binned at B
  refine ⟨?_, ?_, ?_⟩
  · simp only [CacciatoParams.hodCen, decorateCen, hc]
    exact B (p.cofCen M)
  · simp only [CacciatoParams.hodSat]
    rw [B (p.cofSat M)]
    unfold decorateSat
    cases p.aSat <;> simp only
    ring
  · simp only [CacciatoParams.stellar]
    rw [B fun O => p.cof M O * O, add_div]

/-- C156: the same number of points.  The code uses the same number of points for every bin.  Then the parts give the bin in the limit of many
points. -/
theorem C156_many_points (p : CacciatoParams) (hc : p.aCen = none) {lo mid hi M : ℝ} (h1 : lo < mid) (h2 : mid < hi) (hM : 0 < M) (hn : 0 < p.normS) :
    Tendsto (fun n => p.hodCen n (obsRow lo mid n) M + p.hodCen n (obsRow mid hi n) M - p.hodCen n (obsRow lo hi n) M) atTop (𝓝 0) ∧
    Tendsto (fun n => p.hodSat n (obsRow lo mid n) M + p.hodSat n (obsRow mid hi n) M - p.hodSat n (obsRow lo hi n) M) atTop (𝓝 0) := by
  have pos : ∀ x : ℝ, (0 : ℝ) < (10 : ℝ) ^ x := fun x => Real.rpow_pos_of_pos (by norm_num) x
  have key : ∀ f : ℝ → ℝ, ContinuousOn f (Set.Ioi 0) → Tendsto (fun n => binned f n lo mid + binned f n mid hi - binned f n lo hi) atTop (𝓝 0) := fun f hf => by
    have c : ∀ x y : ℝ, ContinuousOn f (Set.Icc ((10 : ℝ) ^ x) ((10 : ℝ) ^ y)) := fun x y => hf.mono fun O hO => lt_of_lt_of_le (pos x) hO.1
    have t1 := Convergence.C100_observable_grid h1 (c _ _)
    have t2 := Convergence.C100_observable_grid h2 (c _ _)
    have t3 := Convergence.C100_observable_grid (h1.trans h2) (c _ _)
    have le : ∀ x y : ℝ, x < y → (10 : ℝ) ^ x ≤ (10 : ℝ) ^ y := fun x y h => Real.rpow_le_rpow_of_exponent_le (by norm_num) h.le
    have ii : ∀ x y : ℝ, x < y → IntervalIntegrable f MeasureTheory.volume ((10 : ℝ) ^ x) ((10 : ℝ) ^ y) := fun x y h =>
      (c x y).intervalIntegrable_of_Icc (le x y h)
    have := (t1.add t2).sub t3
    rwa [intervalIntegral.integral_add_adjacent_intervals (ii _ _ h1) (ii _ _ h2), sub_self] at this
  constructor
  · simp only [CacciatoParams.hodCen, decorateCen, hc]
    exact key _ (p.cofCen_continuousOn M hM)
  · have := key _ (p.cofSat_continuousOn M hM hn)
    cases hA : p.aSat with
    | none => simp only [CacciatoParams.hodSat, decorateSat, hA]; exact this
    | some A =>
      simp only [CacciatoParams.hodSat, decorateSat, hA]
      have := this.const_mul (1 + A)
      rw [mul_zero] at this
      refine this.congr fun n => ?_
      unfold binned
      ring

theorem obsRow_geometric {lo hi : ℝ} (h : lo < hi) {n : ℕ} (hn : 3 ≤ n) (h2 : (10 : ℝ) ^ ((hi - lo) / ((n : ℝ) - 1)) ≤ 2) :
    Geometric n (obsRow lo hi n) ((10 : ℝ) ^ ((hi - lo) / ((n : ℝ) - 1))) where
  pos := Real.rpow_pos_of_pos (by norm_num) _
  step := fun i _ => by
    rw [obsRow_eq, obsRow_eq, ← Real.rpow_add (by norm_num)]
    congr 1
    push_cast
    ring
  gt := by
    have : (3 : ℝ) ≤ n := by exact_mod_cast hn
    exact Real.one_lt_rpow (by norm_num) (div_pos (by linarith) (by linarith))
  le := h2

theorem obsRow_ends (lo hi : ℝ) {n : ℕ} (hn : 3 ≤ n) : obsRow lo hi n 0 = (10 : ℝ) ^ lo ∧ obsRow lo hi n (n - 1) = (10 : ℝ) ^ hi := by
  have : (3 : ℝ) ≤ n := by exact_mod_cast hn
  have h1 : (n : ℝ) - 1 ≠ 0 := by linarith
  constructor
  · rw [obsRow_eq]; simp
  · rw [obsRow_eq, Nat.cast_sub (by omega : 1 ≤ n)]
    congr 1
    push_cast
    field_simp
    ring

/-- C156: the same number of points, in numbers.  Where the conditional function of the observable is gradual, the galaxies of both parts differ from
those of the bin by no more than the tolerances of the three grids. -/
theorem C156_accuracy {f : ℝ → ℝ} {k : Slopes} {lo mid hi : ℝ} (h1 : lo < mid) (h2 : mid < hi) {n : ℕ} (hn : 3 ≤ n)
    (hq : (10 : ℝ) ^ ((hi - lo) / ((n : ℝ) - 1)) ≤ 2) (hf : Gradual f k ((10 : ℝ) ^ lo) ((10 : ℝ) ^ hi)) :
    |simpson n (obsRow lo mid n) (fun o => f (obsRow lo mid n o)) + simpson n (obsRow mid hi n) (fun o => f (obsRow mid hi n o))
        - simpson n (obsRow lo hi n) (fun o => f (obsRow lo hi n o))| ≤
      tolerance k ((10 : ℝ) ^ ((mid - lo) / ((n : ℝ) - 1))) * (∫ O in (10 : ℝ) ^ lo..(10 : ℝ) ^ mid, f O)
      + tolerance k ((10 : ℝ) ^ ((hi - mid) / ((n : ℝ) - 1))) * (∫ O in (10 : ℝ) ^ mid..(10 : ℝ) ^ hi, f O)
      + tolerance k ((10 : ℝ) ^ ((hi - lo) / ((n : ℝ) - 1))) * ∫ O in (10 : ℝ) ^ lo..(10 : ℝ) ^ hi, f O := by
  have n3 : (3 : ℝ) ≤ n := by exact_mod_cast hn
  have n1 : (0 : ℝ) < (n : ℝ) - 1 := by linarith
  have le : ∀ x y : ℝ, x ≤ y → (10 : ℝ) ^ x ≤ (10 : ℝ) ^ y := fun x y h => Real.rpow_le_rpow_of_exponent_le (by norm_num) h
  have key : ∀ x y, lo ≤ x → x < y → y ≤ hi → |simpson n (obsRow x y n) (fun o => f (obsRow x y n o)) - ∫ O in (10 : ℝ) ^ x..(10 : ℝ) ^ y, f O| ≤
      tolerance k ((10 : ℝ) ^ ((y - x) / ((n : ℝ) - 1))) * ∫ O in (10 : ℝ) ^ x..(10 : ℝ) ^ y, f O := fun x y hx hxy hy => by
    have G := obsRow_geometric hxy hn ((le _ _ (div_le_div_of_nonneg_right (by linarith) n1.le)).trans hq)
    obtain ⟨e0, e1⟩ := obsRow_ends x y hn
    have g : Gradual f k (obsRow x y n 0) (obsRow x y n (n - 1)) := by
      rw [e0, e1]; exact hf.mono (le _ _ hx) (le _ _ hy)
    have := C148_relative_error G hn g
    rwa [e0, e1] at this
  have a := key lo mid le_rfl h1 h2.le
  have b := key mid hi h1.le h2 le_rfl
  have c := key lo hi le_rfl (h1.trans h2) le_rfl
  have ii : ∀ x y, lo ≤ x → x < y → y ≤ hi → IntervalIntegrable f MeasureTheory.volume ((10 : ℝ) ^ x) ((10 : ℝ) ^ y) := fun x y hx hxy hy =>
    (hf.continuousOn.mono (Set.Icc_subset_Icc (le _ _ hx) (le _ _ hy))).intervalIntegrable_of_Icc (le _ _ hxy.le)
  have s := intervalIntegral.integral_add_adjacent_intervals (ii lo mid le_rfl h1 h2.le) (ii mid hi h1.le h2 le_rfl)
  rw [abs_le] at a b c ⊢
  constructor <;> linarith [a.1, a.2, b.1, b.2, c.1, c.2]

/-- C156: decorated centrals.  Assembly bias is applied to each bin by itself.  With positive strength the decorated centrals of both parts are at
least those of the bin, and equal exactly if one part is empty or the bin has at most half a central. -/
theorem C156_decorated {A x y : ℝ} (hA : 0 < A) (hx : 0 ≤ x) (hy : 0 ≤ y) :
    decorateCen (some A) (x + y) ≤ decorateCen (some A) x + decorateCen (some A) y ∧
    (decorateCen (some A) (x + y) = decorateCen (some A) x + decorateCen (some A) y ↔ x = 0 ∨ y = 0 ∨ x + y ≤ 1 / 2) := by
  have key : ¬ (x = 0 ∨ y = 0 ∨ x + y ≤ 1 / 2) → min (x + y) (1 - (x + y)) < min x (1 - x) + min y (1 - y) := fun hne => by
    push Not at hne
    obtain ⟨x0, y0, xy⟩ := hne
    have x1 := lt_of_le_of_ne hx (Ne.symm x0)
    have y1 := lt_of_le_of_ne hy (Ne.symm y0)
    rw [min_eq_right (by linarith)]
    rcases le_total x (1 - x) with a | a <;> rcases le_total y (1 - y) with b | b <;>
      simp only [min_eq_left, min_eq_right, a, b] <;> linarith
  have eq : x = 0 ∨ y = 0 ∨ x + y ≤ 1 / 2 → min (x + y) (1 - (x + y)) = min x (1 - x) + min y (1 - y) := by
    rintro (rfl | rfl | h)
    · simp
    · simp
    · rw [min_eq_left (by linarith), min_eq_left (by linarith), min_eq_left (by linarith)]
  simp only [decorateCen]
  by_cases hc : x = 0 ∨ y = 0 ∨ x + y ≤ 1 / 2
  · have := eq hc
    rw [this]
    exact ⟨by linarith, iff_of_true (by ring) hc⟩
  · have := mul_lt_mul_of_pos_left (key hc) hA
    exact ⟨by linarith, iff_of_false (by linarith) hc⟩

/-- C156: decorated centrals of two bins can be more than one per halo, although each bin and both in one have at most one. -/
theorem C156_more_than_one {A x : ℝ} (hA : 0 < A) (hA' : A ≤ 1) (h1 : 1 / (2 * (1 + A)) < x) (h2 : x ≤ 1 / 2) :
    decorateCen (some A) x ≤ 1 ∧ decorateCen (some A) (x + x) ≤ 1 ∧ 1 < decorateCen (some A) x + decorateCen (some A) x := by
  have : 1 < 2 * (1 + A) * x := by rwa [div_lt_iff₀ (by positivity), mul_comm] at h1
  simp only [decorateCen]
  refine ⟨?_, ?_, ?_⟩
  · have := mul_le_mul_of_nonneg_left (min_le_right x (1 - x)) hA.le
    nlinarith
  · have := mul_le_mul_of_nonneg_left (min_le_right (x + x) (1 - (x + x))) hA.le
    nlinarith
  · rw [min_eq_left (by linarith)]; nlinarith

/-- the galaxies that an occupation model hands to the spectra -/
noncomputable def population (h : Base) : Pk.Samples.Population := ⟨h.hodCen, h.hodSat, h.numberDensityCen, h.numberDensitySat⟩

/-- the same model with the galaxies of both -/
noncomputable def together (h g : Base) : Base :=
  { h with
    occCen := fun b j m => h.occCen b j m + g.occCen b j m
    occSat := fun b j m => h.occSat b j m + g.occSat b j m }

/-- the same halos and redshifts, other galaxies -/
def SameHalos (h g : Base) : Prop := g = { h with occCen := g.occCen, occSat := g.occSat }

/-- C156: densities.  Two parts in the same halos: number densities and halo masses add, the number-weighted bias adds, and the galaxies handed to
the spectra are the union of C155. -/
theorem C156_together {h g : Base} (H : SameHalos h g) :
    population (together h g) = (population h).union (population g) ∧
    (∀ b i, (together h g).numberDensity b i = h.numberDensity b i + g.numberDensity b i) ∧
    (∀ b i, (together h g).avgHaloMass b i = h.avgHaloMass b i + g.avgHaloMass b i) ∧
    ∀ b j, 0 < h.ntot b j → 0 < g.ntot b j →
      (together h g).biasIntegral (together h g).occ b j * (h.ntot b j + g.ntot b j) =
        h.biasIntegral h.occ b j * h.ntot b j + g.biasIntegral g.occ b j * g.ntot b j := by
  obtain ⟨oc, os, rfl⟩ : ∃ oc os, g = { h with occCen := oc, occSat := os } := ⟨_, _, H⟩
  have mi : ∀ (N N' : ℕ → ℕ → ℕ → ℝ) b j, h.massIntegral (fun b j m => N b j m + N' b j m) b j = h.massIntegral N b j + h.massIntegral N' b j :=
    fun N N' b j => by
      unfold Base.massIntegral
      rw [← simpson_add]
      refine congrArg _ (funext fun m => ?_); ring
  have mm : ∀ (N N' : ℕ → ℕ → ℕ → ℝ) b j, h.meanMassIntegral (fun b j m => N b j m + N' b j m) b j = h.meanMassIntegral N b j + h.meanMassIntegral N' b j :=
    fun N N' b j => by
      unfold Base.meanMassIntegral
      rw [← simpson_add]
      refine congrArg _ (funext fun m => ?_); ring
  set g : Base := { h with occCen := oc, occSat := os } with hg
  have hocc : (together h g).occ = fun b j m => h.occ b j m + g.occ b j m := by
    funext b j m
    simp only [together, Base.occ]
    ring
  have tot : ∀ b j, (together h g).ntot b j = h.ntot b j + g.ntot b j := fun b j => by
    unfold Base.ntot
    rw [hocc]
    exact mi h.occ g.occ b j
  have cen : (together h g).numberDensityCen = fun b i => h.numberDensityCen b i + g.numberDensityCen b i := by
    funext b i
    have : (together h g).ncen = fun b j => h.ncen b j + g.ncen b j := funext fun b => funext fun j => mi h.occCen oc b j
    unfold Base.numberDensityCen
    rw [this]
    exact interpolate_add h h.ncen g.ncen b i
  have sat : (together h g).numberDensitySat = fun b i => h.numberDensitySat b i + g.numberDensitySat b i := by
    funext b i
    have : (together h g).nsat = fun b j => h.nsat b j + g.nsat b j := funext fun b => funext fun j => mi h.occSat os b j
    unfold Base.numberDensitySat
    rw [this]
    exact interpolate_add h h.nsat g.nsat b i
  refine ⟨?_, fun b i => ?_, fun b i => ?_, fun b j h0 g0 => ?_⟩
  · unfold population Pk.Samples.Population.union
    rw [cen, sat]
    congr 1
    · funext b i m; exact interpolate_add h (fun b j => h.occCen b j m) (fun b j => oc b j m) b i
    · funext b i m; exact interpolate_add h (fun b j => h.occSat b j m) (fun b j => os b j m) b i
  · have : (together h g).ntot = fun b j => h.ntot b j + g.ntot b j := funext fun b => funext fun j => tot b j
    unfold Base.numberDensity
    rw [this]
    exact interpolate_add h h.ntot g.ntot b i
  · have : (together h g).meanMassIntegral (together h g).occ = fun b j => h.meanMassIntegral h.occ b j + g.meanMassIntegral g.occ b j := by
      rw [hocc]
      exact funext fun b => funext fun j => mm h.occ g.occ b j
    unfold Base.avgHaloMass
    rw [this]
    exact interpolate_zero_add h (h.meanMassIntegral h.occ) (g.meanMassIntegral g.occ) b i
  · have e : ∀ (f : Base) (N : ℕ → ℕ → ℕ → ℝ), 0 < f.ntot b j → f.biasIntegral N b j * f.ntot b j =
        simpson f.nm f.mass (fun m => N b j m * f.haloBiasInt b j m * f.dndlnmInt b j m / f.mass m) := fun f N f0 => by
      unfold Base.biasIntegral; rw [div_mul_cancel₀ _ f0.ne']
    have t := tot b j
    rw [e h _ h0, e g _ g0, ← t, e (together h g) _ (by rw [t]; linarith), hocc]
    change simpson h.nm h.mass (fun m => (h.occ b j m + g.occ b j m) * h.haloBiasInt b j m * h.dndlnmInt b j m / h.mass m) =
      simpson h.nm h.mass (fun m => h.occ b j m * h.haloBiasInt b j m * h.dndlnmInt b j m / h.mass m) +
      simpson h.nm h.mass (fun m => g.occ b j m * h.haloBiasInt b j m * h.dndlnmInt b j m / h.mass m)
    rw [← simpson_add]
    refine congrArg _ (funext fun m => ?_); ring

/-- a bin of one dex on 41 points, cut in the middle -/
example (p : CacciatoParams) (hc : p.aCen = none) : p.hodCen 41 (obsRow 9 10 41) 1 = p.hodCen 21 (obsRow 9 (19 / 2) 21) 1 + p.hodCen 21 (obsRow (19 / 2) 10 21) 1 := by
  have := (C156_same_spacing p hc 9 (1 / 40) 1 (a := 10) (n := 21) (by norm_num) (by norm_num)).1
  norm_num at this
  exact this

example : ∃ p : CacciatoParams, p.aCen = none ∧ 0 < p.normS := ⟨⟨10, 12, 3, 1 / 3, 1 / 5, 1 / 2, 12, -1, 2, -1, 1, 0, none, some (1 / 2)⟩, rfl, by norm_num⟩

example := C156_accuracy (f := fun t => t ^ (-1 : ℝ)) (lo := 9) (mid := 9.5) (hi := 10) (n := 5) (by norm_num) (by norm_num) (by norm_num)
  (by
    have : (10 : ℝ) ^ (((10 : ℝ) - 9) / (((5 : ℕ) : ℝ) - 1)) = (10 : ℝ) ^ ((1 : ℝ) / 4) := by norm_num
    rw [this, ← Real.rpow_le_rpow_iff (z := 4) (by positivity) (by norm_num) (by norm_num), ← Real.rpow_mul (by norm_num)]
    norm_num)
  (Gradual.power (-1) (Real.rpow_pos_of_pos (by norm_num) _))

example := C156_more_than_one (A := 1) (x := 1 / 2) (by norm_num) (by norm_num) (by norm_num) (by norm_num)

example : SameHalos Verif.Hod.demo { Verif.Hod.demo with occCen := fun _ _ _ => 1 / 2 } := rfl

end Verif.BinSplit

import Verif.Model.InputFiles
import Verif.Props.IaLuminosity

/-! C131: making the input files from a catalogue. -/

namespace Verif.InputFiles

open Verif.Lib Finset

/-- C131: the script never writes anything: it stops with `NameError` (`z_bins` is not bound; the variable is called `zbins`)
before the first file, whatever the catalogue, and with `ValueError` if the catalogue is empty. -/
theorem C131_no_output (cat : List Galaxy) :
    script names cat = ([], .error (if cat = [] then .valueError else .nameError)) := by
  cases cat with
  | nil => rfl
  | cons g gs =>
    have h : lookup names "z_bins" = .error .nameError := by
      unfold lookup
      rw [if_neg (by decide)]
    simp [script, h]

theorem range_le (g : Galaxy) (gs : List Galaxy) (x : Galaxy) (hx : x ∈ g :: gs) :
    (zRange g gs).1 ≤ x.z ∧ x.z ≤ (zRange g gs).2 := by
  have h1 := Ia.foldl_min_le (gs.map Galaxy.z) g.z
  have h2 := Ia.le_foldl_max (gs.map Galaxy.z) g.z
  rcases List.mem_cons.1 hx with rfl | hx
  · exact ⟨h1.1, h2.1⟩
  · exact ⟨h1.2 _ (List.mem_map_of_mem hx), h2.2 _ (List.mem_map_of_mem hx)⟩

theorem edge_zero (r : ℝ × ℝ) : edge r 0 = r.1 := by simp [edge]

theorem edge_last (r : ℝ × ℝ) : edge r nzbins = r.2 := by
  have : ((nzbins : ℕ) : ℝ) ≠ 0 := by norm_num [nzbins]
  simp only [edge]; field_simp; ring

theorem edge_step (r : ℝ × ℝ) (i : ℕ) : edge r (i + 1) - edge r i = (r.2 - r.1) / nzbins := by
  simp only [edge]; push_cast; ring

/-- C131: nor would binding the name help: the first turn of the loop for the limits takes galaxies below the smallest redshift, of which
there are none, so the script would stop with `ValueError` after the red fraction. -/
theorem C131_first_turn (g : Galaxy) (gs : List Galaxy) (red : Bool) :
    selection (zRange g gs) red (g :: gs) 0 = [] ∧ limits (zRange g gs) red (g :: gs) = .error .valueError := by
  have h : selection (zRange g gs) red (g :: gs) 0 = [] := by
    unfold selection
    rw [List.filter_eq_nil_iff]
    intro x hx
    have := (range_le g gs x hx).1
    simp only [edge_zero, decide_eq_true_eq, not_and]
    intro h
    exact absurd h (not_lt.2 this)
  refine ⟨h, ?_⟩
  have e : List.range nzbins = 0 :: (List.range 29).map Nat.succ := by decide
  unfold limits
  rw [e, List.mapM_cons]
  have : limit (zRange g gs) red (g :: gs) 0 = .error .valueError := by
    unfold limit
    rw [h]; rfl
  rw [this]; rfl

/-- C131: so with the name bound only the red fraction is written -/
theorem C131_with_name (bound : List String) (hb : "z_bins" ∈ bound) (g : Galaxy) (gs : List Galaxy) :
    script bound (g :: gs) = ([.fRed (((List.range nzbins).map (zbin (zRange g gs))).zip
      ((List.range nzbins).map (redFraction (zRange g gs) (g :: gs))))], .error .valueError) := by
  have h : lookup bound "z_bins" = .ok () := by unfold lookup; rw [if_pos hb]
  simp only [script, h, (C131_first_turn g gs true).2]

/-- C131: the other turns are one bin off: turn `i` takes the galaxies of bin `i - 1` of the red fraction, all of which lie below
bin `i`, under whose redshift the limits are reported; the galaxies of the last bin are never taken. -/
theorem C131_shifted (r : ℝ × ℝ) (hr : r.1 < r.2) (red : Bool) (cat : List Galaxy) (i : ℕ) (hi : i + 1 < nzbins) (g : Galaxy) :
    (g ∈ selection r red cat (i + 1) ↔ g ∈ cat ∧ InBin r i g.z ∧ (Red g ↔ red = true) ∧ g.flag = 0) ∧
      (g ∈ selection r red cat (i + 1) → ¬ InBin r (i + 1) g.z ∧ g.z < zbin r (i + 1)) ∧
      (InBin r (nzbins - 1) g.z → g ∉ selection r red cat (i + 1)) := by
  have hw : 0 < (r.2 - r.1) / nzbins := div_pos (by linarith) (by norm_num [nzbins])
  have hmem : g ∈ selection r red cat (i + 1) ↔
      g ∈ cat ∧ g.z < edge r (i + 1) ∧ g.z ≥ edge r i ∧ (Red g ↔ red = true) ∧ g.flag = 0 := by
    classical
    rw [selection, List.mem_filter, decide_eq_true_iff]; rfl
  refine ⟨?_, ?_, ?_⟩
  · rw [hmem]
    unfold InBin
    have : ¬ (i + 1 = nzbins) := by omega
    simp only [this, false_and, or_false]
    tauto
  · rw [hmem]
    intro h
    have := edge_step r (i + 1)
    refine ⟨fun hb => absurd hb.1 (not_le.2 h.2.1), ?_⟩
    unfold zbin
    have := h.2.1
    linarith
  · intro hb hs
    rw [hmem] at hs
    have h1 := hb.1
    have h2 := hs.2.1
    have h3 : edge r (i + 1) ≤ edge r (nzbins - 1) := by
      unfold edge
      have : ((i + 1 : ℕ) : ℝ) ≤ ((nzbins - 1 : ℕ) : ℝ) := by exact_mod_cast (by omega)
      nlinarith
    linarith

theorem bin_once (r : ℝ × ℝ) (hr : r.1 ≤ r.2) (z : ℝ) (h1 : r.1 ≤ z) (h2 : z ≤ r.2) :
    open Classical in (∑ i ∈ range nzbins, if InBin r i z then 1 else 0) = 1 := by
  classical
  have hn : nzbins = 29 + 1 := rfl
  have hstep : ∀ i, edge r i ≤ edge r (i + 1) := by
    intro i
    have : 0 ≤ (r.2 - r.1) / nzbins := div_nonneg (by linarith) (by norm_num [nzbins])
    linarith [edge_step r i]
  rw [hn, sum_range_succ]
  have e1 : ∀ i ∈ range 29, (if InBin r i z then 1 else 0) = if edge r i ≤ z ∧ z < edge r (i + 1) then 1 else 0 := by
    intro i hi
    have : i + 1 ≠ nzbins := by have := mem_range.1 hi; rw [hn]; omega
    simp only [InBin, this, false_and, or_false]
  rw [sum_congr rfl e1, Ia.indicator_telescope 29 (edge r) (fun i _ => hstep i) z, edge_zero]
  have e2 : edge r (29 + 1) = r.2 := edge_last r
  unfold InBin
  rw [e2]
  by_cases hz : z < edge r 29
  · simp [h1, hz, not_le.2 hz]
  · simp [hz, not_lt.1 hz, h2, hn]

seal nzbins in
/-- C131: every galaxy of the catalogue is counted in exactly one bin of the red fraction, also those at both ends: the counts add up to
the numbers of red and of blue galaxies. -/
theorem C131_all_counted (g : Galaxy) (gs : List Galaxy) :
    open Classical in
    (∑ i ∈ range nzbins, nRed (zRange g gs) (g :: gs) i = (g :: gs).countP fun x => decide (Red x)) ∧
      ∑ i ∈ range nzbins, nBlue (zRange g gs) (g :: gs) i = (g :: gs).countP fun x => decide (¬ Red x) := by
  classical
  have key : ∀ C : Galaxy → Prop, ∑ i ∈ range nzbins, (g :: gs).countP (fun x => decide (InBin (zRange g gs) i x.z ∧ C x)) =
      (g :: gs).countP fun x => decide (C x) := by
    intro C
    refine Ia.sum_countP nzbins (fun i x => InBin (zRange g gs) i x.z ∧ C x) C (g :: gs) fun x hx => ?_
    obtain ⟨h1, h2⟩ := range_le g gs x hx
    by_cases hc : C x
    · rw [if_pos hc]
      refine Eq.trans (sum_congr rfl fun i _ => ?_) (bin_once _ (h1.trans h2) x.z h1 h2)
      by_cases hb : InBin (zRange g gs) i x.z
      · rw [if_pos ⟨hb, hc⟩, if_pos hb]
      · rw [if_neg fun h => hb h.1, if_neg hb]
    · rw [if_neg hc]
      exact sum_eq_zero fun i _ => if_neg fun h => hc h.2
  exact ⟨by unfold nRed; exact key Red, by unfold nBlue; convert key fun x => ¬ Red x⟩

/-- C131: the two fractions lie between 0 and 1 and add up to 1 in a bin with galaxies; in a bin without there is no number -/
theorem C131_fractions (r : ℝ × ℝ) (cat : List Galaxy) (i : ℕ) :
    ((∃ g ∈ cat, InBin r i g.z) ∧ ∃ f, redFraction r cat i = some f ∧ blueFraction r cat i = some (1 - f) ∧ 0 ≤ f ∧ f ≤ 1) ∨
      ((∀ g ∈ cat, ¬ InBin r i g.z) ∧ redFraction r cat i = none ∧ blueFraction r cat i = none) := by
  classical
  by_cases h : nBlue r cat i + nRed r cat i = 0
  · right
    refine ⟨fun g hg hb => ?_, by simp [redFraction, h], by simp [blueFraction, h]⟩
    have h1 : nBlue r cat i = 0 := by omega
    have h2 : nRed r cat i = 0 := by omega
    unfold nBlue at h1
    unfold nRed at h2
    rw [List.countP_eq_zero] at h1 h2
    have a := h1 g hg
    have b := h2 g hg
    simp only [hb, true_and, decide_eq_true_eq, not_not] at a b
    exact b a
  · left
    have hpos : (0 : ℝ) < ((nBlue r cat i + nRed r cat i : ℕ) : ℝ) := by exact_mod_cast Nat.pos_of_ne_zero h
    refine ⟨?_, (nRed r cat i : ℝ) / ((nBlue r cat i + nRed r cat i : ℕ) : ℝ), by simp only [redFraction, h, if_false], ?_, by positivity, ?_⟩
    · by_contra hno
      push Not at hno
      apply h
      have h1 : nBlue r cat i = 0 := by
        unfold nBlue; rw [List.countP_eq_zero]; intro g hg; simp [hno g hg]
      have h2 : nRed r cat i = 0 := by
        unfold nRed; rw [List.countP_eq_zero]; intro g hg; simp [hno g hg]
      omega
    · simp only [blueFraction, h, if_false, Option.some.injEq]
      rw [eq_sub_iff_add_eq, ← add_div, div_eq_one_iff_eq hpos.ne']
      push_cast; ring
    · rw [div_le_one hpos]
      push_cast
      have : (0 : ℝ) ≤ nBlue r cat i := Nat.cast_nonneg _
      linarith

/-- C131: the red fraction of a bin times the number of its galaxies is the number of its red galaxies -/
theorem C131_red_share (r : ℝ × ℝ) (cat : List Galaxy) (i : ℕ) (f : ℝ) (hf : redFraction r cat i = some f) :
    open Classical in
    f * (cat.filter fun g => decide (InBin r i g.z)).length =
      ((cat.filter fun g => decide (InBin r i g.z)).filter fun g => decide (g.u - g.r > 1.75)).length := by
  classical
  have hsum : (cat.filter fun g => decide (InBin r i g.z)).length = nBlue r cat i + nRed r cat i := by
    unfold nBlue nRed
    clear hf
    induction cat with
    | nil => rfl
    | cons x cat ih =>
      by_cases hb : InBin r i x.z <;> by_cases hr : Red x <;> simp [hb, hr] at ih ⊢ <;> omega
  have hred : ((cat.filter fun g => decide (InBin r i g.z)).filter fun g => decide (g.u - g.r > 1.75)).length = nRed r cat i := by
    rw [List.filter_filter, nRed, List.countP_eq_length_filter]
    congr 1
    refine List.filter_congr fun g _ => ?_
    unfold Red splitValue
    by_cases hb : InBin r i g.z <;> simp [hb]
  rw [hsum, hred]
  unfold redFraction at hf
  simp only at hf
  split_ifs at hf with h
  simp only [Option.some.injEq] at hf
  rw [← hf]
  have hpos : ((nBlue r cat i + nRed r cat i : ℕ) : ℝ) ≠ 0 := by exact_mod_cast h
  field_simp

/-- C131: the bins have equal width, from the smallest to the largest redshift, and are reported by their middle -/
theorem C131_bins (g : Galaxy) (gs : List Galaxy) (i : ℕ) :
    let r := zRange g gs
    edge r 0 = r.1 ∧ edge r 30 = r.2 ∧ edge r (i + 1) - edge r i = (r.2 - r.1) / 30 ∧
      zbin r i - edge r i = edge r (i + 1) - zbin r i ∧
      (∀ x ∈ g :: gs, edge r 0 ≤ x.z ∧ x.z ≤ edge r 30) ∧
      (∃ x ∈ g :: gs, edge r 0 = x.z) ∧ ∃ x ∈ g :: gs, edge r 30 = x.z := by
  intro r
  have h30 : edge r 30 = r.2 := edge_last r
  have hmin : ∀ (l : List Galaxy) (z : ℝ), (l.map Galaxy.z).foldl min z = z ∨ ∃ x ∈ l, (l.map Galaxy.z).foldl min z = x.z := by
    intro l
    induction l with
    | nil => exact fun z => Or.inl rfl
    | cons a l ih =>
      intro z
      simp only [List.map_cons, List.foldl_cons]
      rcases ih (min z a.z) with h | ⟨x, hx, h⟩
      · rcases min_choice z a.z with e | e
        · exact Or.inl (h.trans e)
        · exact Or.inr ⟨a, List.mem_cons_self, h.trans e⟩
      · exact Or.inr ⟨x, List.mem_cons_of_mem _ hx, h⟩
  have hmax : ∀ (l : List Galaxy) (z : ℝ), (l.map Galaxy.z).foldl max z = z ∨ ∃ x ∈ l, (l.map Galaxy.z).foldl max z = x.z := by
    intro l
    induction l with
    | nil => exact fun z => Or.inl rfl
    | cons a l ih =>
      intro z
      simp only [List.map_cons, List.foldl_cons]
      rcases ih (max z a.z) with h | ⟨x, hx, h⟩
      · rcases max_choice z a.z with e | e
        · exact Or.inl (h.trans e)
        · exact Or.inr ⟨a, List.mem_cons_self, h.trans e⟩
      · exact Or.inr ⟨x, List.mem_cons_of_mem _ hx, h⟩
  refine ⟨edge_zero r, h30, ?_, by unfold zbin; ring, fun x hx => ?_, ?_, ?_⟩
  · rw [edge_step]; norm_num [nzbins]
  · rw [edge_zero, h30]; exact range_le g gs x hx
  · rw [edge_zero]
    rcases hmin gs g.z with h | ⟨x, hx, h⟩
    · exact ⟨g, List.mem_cons_self, h⟩
    · exact ⟨x, List.mem_cons_of_mem _ hx, h⟩
  · rw [h30]
    rcases hmax gs g.z with h | ⟨x, hx, h⟩
    · exact ⟨g, List.mem_cons_self, h⟩
    · exact ⟨x, List.mem_cons_of_mem _ hx, h⟩

/-- C131: a turn with galaxies gives the smallest and the largest of their luminosities -/
theorem C131_limit (r : ℝ × ℝ) (red : Bool) (cat : List Galaxy) (i : ℕ) (hne : selection r red cat i ≠ []) :
    ∃ lo hi, limit r red cat i = .ok (lo, hi) ∧ (∀ g ∈ selection r red cat i, lo ≤ lum g ∧ lum g ≤ hi) ∧
      (∃ g ∈ selection r red cat i, lo = lum g) ∧ ∃ g ∈ selection r red cat i, hi = lum g := by
  unfold limit
  obtain ⟨a, l, e⟩ := List.exists_cons_of_ne_nil hne
  rw [e]
  refine ⟨_, _, rfl, fun g hg => ?_, ?_, ?_⟩
  · have h1 := Ia.foldl_min_le (l.map lum) (lum a)
    have h2 := Ia.le_foldl_max (l.map lum) (lum a)
    rcases List.mem_cons.1 hg with rfl | hg
    · exact ⟨h1.1, h2.1⟩
    · exact ⟨h1.2 _ (List.mem_map_of_mem hg), h2.2 _ (List.mem_map_of_mem hg)⟩
  · clear e hne
    have : ∀ (l : List Galaxy) (z : ℝ), (l.map lum).foldl min z = z ∨ ∃ x ∈ l, (l.map lum).foldl min z = lum x := by
      intro l
      induction l with
      | nil => exact fun z => Or.inl rfl
      | cons a l ih =>
        intro z
        simp only [List.map_cons, List.foldl_cons]
        rcases ih (min z (lum a)) with h | ⟨x, hx, h⟩
        · rcases min_choice z (lum a) with e | e
          · exact Or.inl (h.trans e)
          · exact Or.inr ⟨a, List.mem_cons_self, h.trans e⟩
        · exact Or.inr ⟨x, List.mem_cons_of_mem _ hx, h⟩
    rcases this l (lum a) with h | ⟨x, hx, h⟩
    · exact ⟨a, List.mem_cons_self, h⟩
    · exact ⟨x, List.mem_cons_of_mem _ hx, h⟩
  · clear e hne
    have : ∀ (l : List Galaxy) (z : ℝ), (l.map lum).foldl max z = z ∨ ∃ x ∈ l, (l.map lum).foldl max z = lum x := by
      intro l
      induction l with
      | nil => exact fun z => Or.inl rfl
      | cons a l ih =>
        intro z
        simp only [List.map_cons, List.foldl_cons]
        rcases ih (max z (lum a)) with h | ⟨x, hx, h⟩
        · rcases max_choice z (lum a) with e | e
          · exact Or.inl (h.trans e)
          · exact Or.inr ⟨a, List.mem_cons_self, h.trans e⟩
        · exact Or.inr ⟨x, List.mem_cons_of_mem _ hx, h⟩
    rcases this l (lum a) with h | ⟨x, hx, h⟩
    · exact ⟨a, List.mem_cons_self, h⟩
    · exact ⟨x, List.mem_cons_of_mem _ hx, h⟩

/-- C131: the rows of a luminosity table are the galaxies of its colour and flag, each with its own redshift, and its logarithm of
luminosity is linear in its magnitude -/
theorem C131_table (red : Bool) (flag : ℤ) (cat : List Galaxy) :
    open Classical in
    table red flag cat = (cat.filter fun g => decide ((Red g ↔ red = true) ∧ g.flag = flag)).map fun g =>
      (g.z, -0.4 * (g.r - 4.76)) := by
  classical
  have hl : ∀ g : Galaxy, Real.logb 10 (lum g) = -0.4 * (g.r - 4.76) := by
    intro g
    unfold lum
    exact Real.logb_rpow (by norm_num) (by norm_num)
  unfold table
  simp only [List.map_map]
  generalize (cat.filter fun g => decide ((Red g ↔ red = true) ∧ g.flag = flag)) = m
  induction m with
  | nil => rfl
  | cons a m ih =>
    simp only [List.map_cons, List.zip_cons_cons, Function.comp_apply, hl, List.cons.injEq, true_and]
    exact ih

/-- C131: each of the three files made at the end holds the galaxies of the colour and flag it is named after -/
theorem C131_tables_named (cat : List Galaxy) (red : Bool) (flag : ℤ) (rows : List (ℝ × ℝ))
    (h : File.table red flag rows ∈ tables cat) :
    open Classical in
    rows = (cat.filter fun g => decide ((Red g ↔ red = true) ∧ g.flag = flag)).map fun g => (g.z, -0.4 * (g.r - 4.76)) := by
  rw [← C131_table]
  simp only [tables, List.mem_cons, File.table.injEq, List.not_mem_nil, or_false] at h
  rcases h with ⟨rfl, rfl, h⟩ | ⟨rfl, rfl, h⟩ | ⟨rfl, rfl, h⟩ <;> exact h

/-- C131: the three tables and the blue centrals, for which there is no table, together have one row per galaxy, if every flag is
0 or 1 -/
theorem C131_tables_cover (cat : List Galaxy) (hf : ∀ g ∈ cat, g.flag = 0 ∨ g.flag = 1) :
    (table false 1 cat).length + (table true 1 cat).length + (table true 0 cat).length + (table false 0 cat).length =
      cat.length := by
  classical
  simp only [C131_table, List.length_map]
  induction cat with
  | nil => rfl
  | cons g cat ih =>
    have ih := ih fun x hx => hf x (List.mem_cons_of_mem _ hx)
    simp only [List.filter_cons, List.length_cons]
    rcases hf g List.mem_cons_self with h | h <;> by_cases hr : Red g <;> simp [h, hr] at ih ⊢ <;> omega

/-! ## Examples -/

/-- a catalogue of a red and a blue central and a blue satellite -/
noncomputable def exCat : List Galaxy := [⟨0.1, -18, -21, 0⟩, ⟨0.4, -20, -21, 0⟩, ⟨0.7, -20, -20.5, 1⟩]

example : script names exCat = ([], .error .nameError) := by
  rw [C131_no_output]; simp [exCat]

example : ∃ f, (script ("z_bins" :: names) exCat) = ([.fRed f], .error .valueError) :=
  ⟨_, C131_with_name ("z_bins" :: names) (by simp) _ _⟩

/-- the blue satellite is in its table -/
example : table false 1 exCat = [(0.7, -0.4 * (-20.5 - 4.76))] := by
  rw [C131_table]
  have a : Red ⟨0.1, -18, -21, 0⟩ := by norm_num [Red, splitValue]
  have b : ¬ Red ⟨0.4, -20, -21, 0⟩ := by norm_num [Red, splitValue]
  have c : ¬ Red ⟨0.7, -20, -20.5, 1⟩ := by norm_num [Red, splitValue]
  simp [exCat, a, b, c]

/-- with redshifts from 0 to 3, a blue central at 0.05 lies in bin 0 and is taken in turn 1, whose redshift is 0.15 -/
example : (⟨0.05, -20, -21, 0⟩ : Galaxy) ∈ selection (0, 3) false [⟨0.05, -20, -21, 0⟩] 1 := by
  refine (C131_shifted (0, 3) (by norm_num) false _ 0 (by decide) _).1.2 ⟨by simp, ?_, ?_, rfl⟩
  · constructor
    · norm_num [edge, nzbins]
    · left; norm_num [edge, nzbins]
  · norm_num [Red, splitValue]

end Verif.InputFiles

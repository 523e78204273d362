import Verif.Model.RealSpace
import Mathlib.Algebra.BigOperators.Group.List.Basic
import Mathlib.Algebra.Order.BigOperators.Group.List

/-!
# Change of cosmology and angular units (C70, C72)
-/

namespace Verif.RealSpace

open Verif.Lib

/-! ## C70 -/

theorem correctLoop_ok (run data : Cosmo) (corr : String) (z : List ℝ) (rc : ℝ → ℝ)
    (hrc : ∀ x, corrRatio run data corr x = .ok (rc x)) (l : List ℕ) (hl : ∀ i ∈ l, i < z.length) (hnd : l.Nodup)
    (s : Corr) : ∃ s', correctLoop run data corr z l s = .ok s' ∧
      (∀ t, s'.rp t = s.rp t * (l.map fun i => rpRatio run data (z.getD i 0)).prod) ∧
      (∀ b t, s'.bin b t = if b ∈ l then s.bin b t * rc (z.getD b 0) else s.bin b t) := by
  induction l generalizing s with
  | nil => exact ⟨s, rfl, fun t => by simp, fun b t => by simp⟩
  | cons i l ih =>
    have hi : z[i]? = some (z.getD i 0) := by
      have := hl i List.mem_cons_self
      simp [List.getElem?_eq_getElem this]
    have hst : correctStep run data corr z i s = .ok ⟨fun t => s.rp t * rpRatio run data (z.getD i 0),
        fun b t => if b = i then s.bin b t * rc (z.getD i 0) else s.bin b t⟩ := by
      simp only [correctStep, hi, hrc]
    obtain ⟨s', h1, h2, h3⟩ := ih (fun j hj => hl j (List.mem_cons_of_mem _ hj)) (List.nodup_cons.mp hnd).2
      ⟨fun t => s.rp t * rpRatio run data (z.getD i 0),
        fun b t => if b = i then s.bin b t * rc (z.getD i 0) else s.bin b t⟩
    refine ⟨s', by simp only [correctLoop, hst]; exact h1, fun t => ?_, fun b t => ?_⟩
    · rw [h2, List.map_cons, List.prod_cons, mul_assoc]
    · rw [h3]
      have hni := (List.nodup_cons.mp hnd).1
      by_cases hb : b = i
      · subst hb; simp [hni]
      · simp [hb]

/-- the factor applied to the correlation function, for the two known types -/
noncomputable def corrFactor (run data : Cosmo) (corr : String) (z : ℝ) : ℝ :=
  if corr = "wp" then data.efunc z / run.efunc z * (data.h / run.h)
  else (data.angular zSource * run.angular12 z zSource * run.angular z) /
      (run.angular zSource * data.angular12 z zSource * data.angular z) * (run.h / data.h)

theorem corrRatio_known (run data : Cosmo) {corr : String} (hc : corr = "wp" ∨ corr = "ds") (x : ℝ) :
    corrRatio run data corr x = .ok (corrFactor run data corr x) := by
  rcases hc with rfl | rfl
  · simp [corrRatio, corrFactor]
  · simp [corrRatio, corrFactor]

/-- C70: what the module computes for `n` bins at redshifts `z`: each correlation function gets the factor of its own
redshift, but the separations shared by all bins get the product of all `n` factors. -/
theorem C70_product (run data : Cosmo) (corr : String) (hc : corr = "wp" ∨ corr = "ds") (z : List ℝ) (s : Corr) :
    ∃ s', correct run data corr z z.length s = .ok s' ∧
      (∀ t, s'.rp t = s.rp t * (z.map fun x => run.comoving x / data.comoving x * (run.h / data.h)).prod) ∧
      (∀ b x, z[b]? = some x → ∀ t, s'.bin b t = s.bin b t * corrFactor run data corr x) ∧
      ∀ b, z.length ≤ b → s'.bin b = s.bin b := by
  obtain ⟨s', h1, h2, h3⟩ := correctLoop_ok run data corr z _ (corrRatio_known run data hc) (List.range z.length)
    (fun i hi => List.mem_range.mp hi) List.nodup_range s
  refine ⟨s', by simp [correct, h1], fun t => ?_, fun b x hb t => ?_, fun b hb => ?_⟩
  · rw [h2]
    congr 2
    apply List.ext_getElem (by simp)
    intro i h h'
    simp at h'
    simp [h', rpRatio]
  · obtain ⟨hlt, rfl⟩ := List.getElem?_eq_some_iff.mp hb
    rw [h3, if_pos (List.mem_range.mpr hlt)]
    simp [hlt]
  · funext t
    rw [h3, if_neg (by simpa using hb)]

theorem pow_eq_self {r : ℝ} (hr : 0 < r) {n : ℕ} (hn : 2 ≤ n) (h : r ^ n = r) : r = 1 := by
  obtain ⟨m, rfl⟩ : ∃ m, n = m + 2 := ⟨n - 2, by omega⟩
  have : r ^ (m + 1) = 1 := by
    have h' : r ^ (m + 1) * r = 1 * r := by rw [← pow_succ, one_mul]; exact h
    exact mul_right_cancel₀ hr.ne' h'
  exact (pow_eq_one_iff_of_nonneg hr.le (by omega)).mp this

/-- C70: the separations are right for every bin exactly when there is a single bin or all factors are 1. -/
theorem C70_correct_iff (run data : Cosmo) (corr : String) (hc : corr = "wp" ∨ corr = "ds") (z : List ℝ) (hz : z ≠ [])
    (hpos : ∀ x ∈ z, 0 < run.comoving x / data.comoving x * (run.h / data.h)) (s : Corr) (t : ℕ) (ht : 0 < s.rp t) :
    ∃ s', correct run data corr z z.length s = .ok s' ∧
      ((∀ x ∈ z, s'.rp t = s.rp t * (run.comoving x / data.comoving x * (run.h / data.h))) ↔
        z.length = 1 ∨ ∀ x ∈ z, run.comoving x / data.comoving x * (run.h / data.h) = 1) := by
  obtain ⟨s', h1, h2, -⟩ := C70_product run data corr hc z s
  refine ⟨s', h1, ?_⟩
  rw [h2]
  generalize hf : (fun x => run.comoving x / data.comoving x * (run.h / data.h)) = f
  have hf' : ∀ x, run.comoving x / data.comoving x * (run.h / data.h) = f x := fun x => congrFun hf x
  simp only [hf'] at hpos ⊢
  constructor
  · intro h
    have h' : ∀ x ∈ z, (z.map f).prod = f x := fun x hx => mul_left_cancel₀ ht.ne' (h x hx)
    by_cases hl : z.length = 1
    · exact Or.inl hl
    right
    intro x hx
    have hrep : z.map f = List.replicate z.length (f x) := by
      rw [List.eq_replicate_iff]
      refine ⟨by simp, fun y hy => ?_⟩
      obtain ⟨w, hw, rfl⟩ := List.mem_map.mp hy
      rw [← h' w hw, h' x hx]
    have hlen : 2 ≤ z.length := by
      have : z.length ≠ 0 := fun h => hz (List.length_eq_zero_iff.mp h)
      omega
    have hp := h' x hx
    rw [hrep, List.prod_replicate] at hp
    exact pow_eq_self (hpos x hx) hlen hp
  · rintro (h | h) x hx
    · obtain ⟨a, rfl⟩ := List.length_eq_one_iff.mp h
      simp at hx
      simp [hx]
    · have : z.map f = List.replicate z.length 1 := by
        rw [List.eq_replicate_iff]
        refine ⟨by simp, fun y hy => ?_⟩
        obtain ⟨w, hw, rfl⟩ := List.mem_map.mp hy
        exact h w hw
      rw [this, h x hx]; simp

/-- C70: if the two cosmologies agree (and no distance vanishes) nothing changes, for any number of bins. -/
theorem C70_same_cosmology (c : Cosmo) (corr : String) (hc : corr = "wp" ∨ corr = "ds") (z : List ℝ) (hh : c.h ≠ 0)
    (hs : c.angular zSource ≠ 0)
    (h0 : ∀ x ∈ z, c.comoving x ≠ 0 ∧ c.angular x ≠ 0 ∧ c.angular12 x zSource ≠ 0 ∧ c.efunc x ≠ 0) (s : Corr) :
    correct c c corr z z.length s = .ok s := by
  obtain ⟨s', h1, h2, h3, h4⟩ := C70_product c c corr hc z s
  have e : s' = s := by
    obtain ⟨rp, bin⟩ := s
    obtain ⟨rp', bin'⟩ := s'
    congr 1
    · funext t
      refine (h2 t).trans ?_
      have : (z.map fun x => c.comoving x / c.comoving x * (c.h / c.h)) = List.replicate z.length 1 := by
        rw [List.eq_replicate_iff]
        refine ⟨by simp, fun y hy => ?_⟩
        obtain ⟨w, hw, rfl⟩ := List.mem_map.mp hy
        rw [div_self (h0 w hw).1, div_self hh, one_mul]
      rw [this]; simp
    · funext b t
      rcases lt_or_ge b z.length with hb | hb
      · have hx : z[b]? = some z[b] := List.getElem?_eq_getElem hb
        refine (h3 b _ hx t).trans ?_
        obtain ⟨-, ha, h12, he⟩ := h0 _ (List.getElem_mem hb)
        have : corrFactor c c corr z[b] = 1 := by
          unfold corrFactor
          split_ifs
          · rw [div_self he, div_self hh, one_mul]
          · rw [div_self (mul_ne_zero (mul_ne_zero hs h12) ha), div_self hh, one_mul]
        rw [this, mul_one]
      · exact congrFun (h4 b hb) t
  rw [h1, e]

/-- C70: correcting from one cosmology to another and back restores everything, so the factors are at least
consistent; also for the accumulated product. -/
theorem C70_inverse (a b : Cosmo) (corr : String) (hc : corr = "wp" ∨ corr = "ds") (z : List ℝ) (ha : a.h ≠ 0)
    (hb : b.h ≠ 0) (hsa : a.angular zSource ≠ 0) (hsb : b.angular zSource ≠ 0)
    (h0 : ∀ c, c = a ∨ c = b → ∀ x ∈ z, c.comoving x ≠ 0 ∧ c.angular x ≠ 0 ∧ c.angular12 x zSource ≠ 0 ∧ c.efunc x ≠ 0)
    (s : Corr) : ∃ s', correct a b corr z z.length s = .ok s' ∧ correct b a corr z z.length s' = .ok s := by
  obtain ⟨s', h1, h2, h3, h4⟩ := C70_product a b corr hc z s
  obtain ⟨s'', g1, g2, g3, g4⟩ := C70_product b a corr hc z s'
  refine ⟨s', h1, ?_⟩
  have e : s'' = s := by
    obtain ⟨rp, bin⟩ := s
    obtain ⟨rp', bin'⟩ := s''
    congr 1
    · funext t
      refine (g2 t).trans ?_
      rw [h2, mul_assoc, ← List.prod_map_mul]
      have : (z.map fun x => a.comoving x / b.comoving x * (a.h / b.h) * (b.comoving x / a.comoving x * (b.h / a.h))) =
          List.replicate z.length 1 := by
        rw [List.eq_replicate_iff]
        refine ⟨by simp, fun y hy => ?_⟩
        obtain ⟨w, hw, rfl⟩ := List.mem_map.mp hy
        have ca := (h0 a (Or.inl rfl) w hw).1
        have cb := (h0 b (Or.inr rfl) w hw).1
        field_simp
      rw [this]; simp
    · funext i t
      rcases lt_or_ge i z.length with hi | hi
      · have hx : z[i]? = some z[i] := List.getElem?_eq_getElem hi
        refine (g3 i _ hx t).trans ?_
        rw [h3 i _ hx t, mul_assoc]
        obtain ⟨-, a1, a2, a3⟩ := h0 a (Or.inl rfl) _ (List.getElem_mem hi)
        obtain ⟨-, b1, b2, b3⟩ := h0 b (Or.inr rfl) _ (List.getElem_mem hi)
        have : corrFactor a b corr z[i] * corrFactor b a corr z[i] = 1 := by
          unfold corrFactor
          split_ifs <;> field_simp
        rw [this, mul_one]
      · refine (congrFun (g4 i hi) t).trans (congrFun (h4 i hi) t)
  rw [g1, e]

/-- C70: a list of redshifts of another length is refused; so is an unknown correlation type, unless there are no bins. -/
theorem C70_errors (run data : Cosmo) (corr : String) (z : List ℝ) (n : ℕ) (s : Corr) :
    (z.length ≠ n → correct run data corr z n s = .error .valueError) ∧
    (corr ≠ "wp" → corr ≠ "ds" → z ≠ [] → correct run data corr z n s = .error .valueError) := by
  refine ⟨fun h => by simp [correct, h], fun h1 h2 hz => ?_⟩
  unfold correct
  split_ifs with h
  · rfl
  · push Not at h
    subst h
    obtain ⟨x, l, rfl⟩ := List.exists_cons_of_ne_nil hz
    rw [List.length_cons, List.range_succ_eq_map]
    simp [correctLoop, correctStep, corrRatio, h1, h2]

/-- a cosmology with all distances proportional to `d` -/
noncomputable def demoCosmo (d : ℝ) : Cosmo := ⟨fun z => d * z, fun z => d * z, fun z w => d * (w - z), fun z => 1 + z, 7 / 10⟩

/-- three bins, distances 10% larger: the separations end up larger by 33% instead of 10% -/
example (s : Corr) : ∃ s', correct (demoCosmo 1.1) (demoCosmo 1) "wp" [0.1, 0.2, 0.3] 3 s = .ok s' ∧
    ∀ t, s'.rp t = s.rp t * 1.331 := by
  obtain ⟨s', h1, h2, -⟩ := C70_product (demoCosmo 1.1) (demoCosmo 1) "wp" (Or.inl rfl) [0.1, 0.2, 0.3] s
  refine ⟨s', h1, fun t => ?_⟩
  rw [h2]
  norm_num [demoCosmo]

example : ∃ s', correct (demoCosmo 1.1) (demoCosmo 1) "ds" [0.1, 0.2, 0.3] 3 ⟨fun _ => 1, fun _ _ => 1⟩ = .ok s' ∧
    ¬ ∀ x ∈ [(0.1 : ℝ), 0.2, 0.3], s'.rp 0 = 1 * ((demoCosmo 1.1).comoving x / (demoCosmo 1).comoving x *
      ((demoCosmo 1.1).h / (demoCosmo 1).h)) := by
  obtain ⟨s', h1, h2⟩ := C70_correct_iff (demoCosmo 1.1) (demoCosmo 1) "ds" (Or.inr rfl) [0.1, 0.2, 0.3] (by simp)
    (by intro x hx; simp at hx; rcases hx with rfl | rfl | rfl <;> norm_num [demoCosmo]) ⟨fun _ => 1, fun _ _ => 1⟩ 0
    (by norm_num)
  refine ⟨s', h1, fun h => ?_⟩
  rcases h2.mp h with h | h
  · simp at h
  · have := h 0.1 (by simp)
    norm_num [demoCosmo] at this

/-! ## C72 -/

/-- the unit name after the two aliases are replaced -/
def canonical (u : String) : String := if u = "radian" ∨ u = "radians" then "rad" else u

theorem unitSize_pos {u : String} (h : u ∈ outputUnits) : ∃ a, unitSize u = .ok a ∧ 0 < a := by
  have := Real.pi_pos
  simp only [outputUnits, List.mem_cons, List.not_mem_nil, or_false] at h
  rcases h with rfl | rfl | rfl | rfl
  · exact ⟨1, by simp [unitSize], one_pos⟩
  · exact ⟨Real.pi / 180, by simp [unitSize], by positivity⟩
  · exact ⟨Real.pi / 180 / 60, by simp [unitSize], by positivity⟩
  · exact ⟨Real.pi / 180 / 3600, by simp [unitSize], by positivity⟩

theorem canonical_mem {u : String} (h : u ∈ outputUnits) : canonical u = u := by
  simp only [outputUnits, List.mem_cons, List.not_mem_nil, or_false] at h
  rcases h with rfl | rfl | rfl | rfl <;> decide

theorem thetaExecute_eq {v : String} {t : Theta} {a b : ℝ} (ha : unitSize (canonical t.unit) = .ok a)
    (hb : unitSize v = .ok b) : thetaExecute v t = .ok ⟨fun i => t.val i * (a / b), v⟩ := by
  unfold thetaExecute
  unfold canonical at ha
  simp only [ha, hb]

/-- C72: exactly four output units pass setup. -/
theorem C72_setup (u : String) : (∃ v, thetaSetup u = .ok v) ↔ u = "rad" ∨ u = "deg" ∨ u = "arcmin" ∨ u = "arcsec" := by
  unfold thetaSetup outputUnits
  split_ifs with h <;> simpa using h

/-- C72: the sizes of the angles in radian are kept by any conversion: degrees, arcminutes and arcseconds are
1/180, 1/10800 and 1/648000 of π. -/
theorem C72_preserves (v : String) (hv : v ∈ outputUnits) (t : Theta) (hu : canonical t.unit ∈ outputUnits) :
    ∃ t', thetaExecute v t = .ok t' ∧ t'.unit = v ∧
      (∀ size : String → ℝ, size "rad" = 1 → size "deg" = Real.pi / 180 → size "arcmin" = Real.pi / 10800 →
        size "arcsec" = Real.pi / 648000 → ∀ i, t'.val i * size v = t.val i * size (canonical t.unit)) := by
  obtain ⟨a, ha, ha0⟩ := unitSize_pos hu
  obtain ⟨b, hb, hb0⟩ := unitSize_pos hv
  refine ⟨_, thetaExecute_eq ha hb, rfl, fun size s1 s2 s3 s4 i => ?_⟩
  have key : ∀ u c, u ∈ outputUnits → unitSize u = .ok c → size u = c := by
    intro u c hu hc
    simp only [outputUnits, List.mem_cons, List.not_mem_nil, or_false] at hu
    rcases hu with rfl | rfl | rfl | rfl
    · simp [unitSize] at hc; rw [s1, hc]
    · simp [unitSize] at hc; rw [s2, hc]
    · simp [unitSize] at hc; rw [s3, ← hc]; ring
    · simp [unitSize] at hc; rw [s4, ← hc]; ring
  rw [key v b hv hb, key _ a hu ha]
  simp only
  field_simp

/-- C72: converting twice to the same unit is converting once. -/
theorem C72_idempotent (v : String) (hv : v ∈ outputUnits) (t t' : Theta) (h : thetaExecute v t = .ok t') :
    thetaExecute v t' = .ok t' := by
  obtain ⟨b, hb, hb0⟩ := unitSize_pos hv
  have hu : t'.unit = v := by
    unfold thetaExecute at h
    simp only [hb] at h
    split at h <;> cases h
    rfl
  have hc : unitSize (canonical t'.unit) = .ok b := by rw [hu, canonical_mem hv, hb]
  rw [thetaExecute_eq hc hb, div_self hb0.ne']
  obtain ⟨val, unit⟩ := t'
  simp only at hu
  simp [hu]

/-- C72: converting through another unit is converting directly. -/
theorem C72_composition (v w : String) (hv : v ∈ outputUnits) (hw : w ∈ outputUnits) (t t' : Theta)
    (h : thetaExecute v t = .ok t') : thetaExecute w t' = thetaExecute w t := by
  obtain ⟨b, hb, hb0⟩ := unitSize_pos hv
  obtain ⟨d, hd, hd0⟩ := unitSize_pos hw
  cases ha : unitSize (canonical t.unit) with
  | error e =>
    unfold thetaExecute at h
    unfold canonical at ha
    simp [ha] at h
  | ok a =>
    rw [thetaExecute_eq ha hb] at h
    cases h
    rw [thetaExecute_eq ha hd, thetaExecute_eq (a := b) (by rw [canonical_mem hv]; exact hb) hd]
    congr 2
    funext i
    field_simp

/-- C72: converting back to the original unit restores the angles. -/
theorem C72_round_trip (v : String) (hv : v ∈ outputUnits) (t : Theta) (hu : t.unit ∈ outputUnits) :
    ∃ t', thetaExecute v t = .ok t' ∧ thetaExecute t.unit t' = .ok t := by
  obtain ⟨a, ha, ha0⟩ := unitSize_pos hu
  obtain ⟨b, hb, hb0⟩ := unitSize_pos hv
  have hc : unitSize (canonical t.unit) = .ok a := by rw [canonical_mem hu, ha]
  refine ⟨_, thetaExecute_eq hc hb, ?_⟩
  rw [C72_composition v t.unit hv hu t _ (thetaExecute_eq hc hb), thetaExecute_eq hc ha, div_self ha0.ne']
  simp

/-- C72: an input unit that is not an angle known here is refused, whatever the output unit. -/
theorem C72_bad_input (v : String) (t : Theta) (h : canonical t.unit ∉ outputUnits) :
    thetaExecute v t = .error .valueError := by
  have : unitSize (canonical t.unit) = .error .valueError := by
    simp only [outputUnits, List.mem_cons, List.not_mem_nil, or_false, not_or] at h
    simp [unitSize, h]
  unfold thetaExecute
  unfold canonical at this
  simp only [this]

/-- 180 degrees given in "radians" as π -/
example : ∃ t', thetaExecute "deg" ⟨fun _ => Real.pi, "radians"⟩ = .ok t' ∧ t'.val 0 = 180 := by
  refine ⟨_, thetaExecute_eq (a := 1) (b := Real.pi / 180) (by simp [canonical, unitSize]) (by simp [unitSize]), ?_⟩
  have := Real.pi_ne_zero
  field_simp

end Verif.RealSpace

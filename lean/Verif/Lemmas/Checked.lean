import Verif.Lib.Checked
import Verif.Lemmas.Simpson

/-! # Calculating with `Ck`: when an expression is a number, and which -/

namespace Verif.Lib.Ck

variable {x y : Ck} {a b : ℝ}

/-- if `x` is a number at all, it is `a` -/
def Refines (x : Ck) (a : ℝ) : Prop := x.Ok → x.val = a

@[simp] theorem ok_num (a : ℝ) : (num a).Ok := trivial
@[simp] theorem not_ok_bad : ¬ bad.Ok := fun h => h
@[simp] theorem val_num (a : ℝ) : (num a).val = a := rfl

theorem eq_num_iff : x = num a ↔ x.Ok ∧ x.val = a := by
  cases x <;> simp

theorem refines_iff : x.Refines a ↔ (x = bad ∨ x = num a) := by
  cases x <;> simp [Refines]

theorem Refines.num (a : ℝ) : (Ck.num a).Refines a := fun _ => rfl

@[simp] theorem ok_add : (x + y).Ok ↔ x.Ok ∧ y.Ok := by
  cases x <;> cases y <;> simp [HAdd.hAdd, Add.add, lift2]

@[simp] theorem ok_sub : (x - y).Ok ↔ x.Ok ∧ y.Ok := by
  cases x <;> cases y <;> simp [HSub.hSub, Sub.sub, lift2]

@[simp] theorem ok_mul : (x * y).Ok ↔ x.Ok ∧ y.Ok := by
  cases x <;> cases y <;> simp [HMul.hMul, Mul.mul, lift2]

@[simp] theorem ok_neg : (-x).Ok ↔ x.Ok := by
  cases x <;> simp [Neg.neg]

@[simp] theorem ok_pow (n : ℕ) : (x ^ n).Ok ↔ x.Ok := by
  cases x with
  | num a => exact ⟨fun _ => trivial, fun _ => trivial⟩
  | bad => exact ⟨fun h => h, fun h => h⟩

@[simp] theorem ok_exp : x.exp.Ok ↔ x.Ok := by
  cases x <;> simp [exp]

theorem ok_div : (x / y).Ok ↔ x.Ok ∧ y.Ok ∧ y.val ≠ 0 := by
  cases x with
  | bad => cases y <;> simp [HDiv.hDiv, Div.div, div]
  | num a =>
    cases y with
    | bad => simp [HDiv.hDiv, Div.div, div]
    | num b =>
      by_cases h : b = 0 <;> simp [HDiv.hDiv, Div.div, div, h]

theorem ok_rpow : (x.rpow y).Ok ↔ x.Ok ∧ y.Ok ∧ PowOk x.val y.val := by
  cases x with
  | bad => cases y <;> simp [rpow]
  | num a =>
    cases y with
    | bad => simp [rpow]
    | num b =>
      by_cases h : PowOk a b <;> simp [rpow, h]

theorem ok_sqrt : x.sqrt.Ok ↔ x.Ok ∧ 0 ≤ x.val := by
  cases x with
  | bad => simp [sqrt]
  | num a => by_cases h : a < 0 <;> simp [sqrt, h]; exact not_lt.mp h

theorem Refines.add (hx : x.Refines a) (hy : y.Refines b) : (x + y).Refines (a + b) := by
  intro h
  obtain ⟨h1, h2⟩ := ok_add.mp h
  rw [← hx h1, ← hy h2]
  cases x with
  | bad => exact h1.elim
  | num _ => cases y with
    | bad => exact h2.elim
    | num _ => rfl

theorem Refines.sub (hx : x.Refines a) (hy : y.Refines b) : (x - y).Refines (a - b) := by
  intro h
  obtain ⟨h1, h2⟩ := ok_sub.mp h
  rw [← hx h1, ← hy h2]
  cases x with
  | bad => exact h1.elim
  | num _ => cases y with
    | bad => exact h2.elim
    | num _ => rfl

theorem Refines.mul (hx : x.Refines a) (hy : y.Refines b) : (x * y).Refines (a * b) := by
  intro h
  obtain ⟨h1, h2⟩ := ok_mul.mp h
  rw [← hx h1, ← hy h2]
  cases x with
  | bad => exact h1.elim
  | num _ => cases y with
    | bad => exact h2.elim
    | num _ => rfl

theorem Refines.neg (hx : x.Refines a) : (-x).Refines (-a) := by
  intro h
  rw [← hx (ok_neg.mp h)]
  cases x with
  | bad => exact (ok_neg.mp h).elim
  | num _ => rfl

theorem Refines.pow (hx : x.Refines a) (n : ℕ) : (x ^ n).Refines (a ^ n) := by
  intro h
  rw [← hx ((ok_pow n).mp h)]
  cases x with
  | bad => exact ((ok_pow n).mp h).elim
  | num _ => rfl

theorem Refines.exp (hx : x.Refines a) : x.exp.Refines (Real.exp a) := by
  intro h
  rw [← hx (ok_exp.mp h)]
  cases x with
  | bad => exact (ok_exp.mp h).elim
  | num _ => rfl

theorem Refines.div (hx : x.Refines a) (hy : y.Refines b) : (x / y).Refines (a / b) := by
  intro h
  obtain ⟨h1, h2, h3⟩ := ok_div.mp h
  rw [← hx h1, ← hy h2]
  cases x with
  | bad => exact h1.elim
  | num u => cases y with
    | bad => exact h2.elim
    | num v =>
      have h3' : v ≠ 0 := h3
      simp [HDiv.hDiv, Div.div, Ck.div, h3']

theorem Refines.rpow (hx : x.Refines a) (hy : y.Refines b) : (x.rpow y).Refines (a ^ b) := by
  intro h
  obtain ⟨h1, h2, h3⟩ := ok_rpow.mp h
  rw [← hx h1, ← hy h2]
  cases x with
  | bad => exact h1.elim
  | num u => cases y with
    | bad => exact h2.elim
    | num v =>
      have h3' : PowOk u v := h3
      simp [Ck.rpow, h3']

theorem Refines.sqrt (hx : x.Refines a) : x.sqrt.Refines (Real.sqrt a) := by
  intro h
  obtain ⟨h1, h3⟩ := ok_sqrt.mp h
  rw [← hx h1]
  cases x with
  | bad => exact h1.elim
  | num u =>
    have h3' : ¬ u < 0 := not_lt.mpr h3
    simp [Ck.sqrt, h3']

theorem ok_simpson {n : ℕ} {g : ℕ → ℝ} {f : ℕ → Ck} : (simpsonCk n g f).Ok ↔ ∀ i < n, (f i).Ok := by
  unfold simpsonCk
  split_ifs with h
  · simpa using h
  · simpa using h

theorem Refines.simpson {n : ℕ} {g : ℕ → ℝ} {f : ℕ → Ck} {r : ℕ → ℝ} (h : ∀ i, (f i).Refines (r i)) :
    (simpsonCk n g f).Refines (Lib.simpson n g r) := by
  intro hok
  have hf := ok_simpson.mp hok
  unfold simpsonCk
  rw [if_pos hf]
  exact simpson_congr_right fun i hi => h i (hf i hi)

theorem ok_sum {n : ℕ} {f : ℕ → Ck} : (sumCk n f).Ok ↔ ∀ i < n, (f i).Ok := by
  induction n with
  | zero => simp [sumCk]
  | succ n ih =>
    simp only [sumCk, ok_add, ih]
    constructor
    · rintro ⟨h1, h2⟩ i hi
      rcases Nat.lt_succ_iff_lt_or_eq.mp hi with h | rfl
      · exact h1 i h
      · exact h2
    · exact fun h => ⟨fun i hi => h i (Nat.lt_succ_of_lt hi), h n (Nat.lt_succ_self n)⟩

theorem Refines.sum {n : ℕ} {f : ℕ → Ck} {r : ℕ → ℝ} (h : ∀ i, (f i).Refines (r i)) :
    (sumCk n f).Refines (∑ i ∈ Finset.range n, r i) := by
  induction n with
  | zero => exact Refines.num 0
  | succ n ih => rw [Finset.sum_range_succ]; exact ih.add (h n)

/-- positive bases are always fine -/
theorem PowOk.pos (h : 0 < a) : PowOk a b := Or.inl h

/-- with an exponent that is not an integer, a power is valid for a positive base, and for zero with a positive exponent -/
theorem powOk_iff_of_not_int (hb : ∀ n : ℤ, b ≠ n) : PowOk a b ↔ 0 < a ∨ (a = 0 ∧ 0 < b) := by
  have hb0 : b ≠ 0 := by simpa using hb 0
  constructor
  · rintro (h | ⟨h, h'⟩ | ⟨_, n, hn⟩)
    · exact .inl h
    · exact .inr ⟨h, lt_of_le_of_ne h' (Ne.symm hb0)⟩
    · exact (hb n hn).elim
  · rintro (h | ⟨h, h'⟩)
    · exact .inl h
    · exact .inr (.inl ⟨h, h'.le⟩)

end Verif.Lib.Ck

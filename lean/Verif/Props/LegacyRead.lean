import Verif.Model.LegacyRead
import Verif.Props.InterfaceInterp

/-! Property C137: what the legacy spectra read from the data block. -/

namespace Verif.LegacyRead

open Verif.Lib Verif.Spec

/-- some redshift of the ingredients lies outside the redshifts of a table -/
def Outside (n : ℕ) (z : ℕ → ℝ) (m : ℕ) (q : ℕ → ℝ) : Prop := ∃ i < m, q i < z 0 ∨ z (n - 1) < q i

/-- the profiles are on other masses than the mass function -/
def OtherMasses (S : Sections) : Prop := S.nmProfile ≠ S.nm ∨ ∃ m < S.nm, S.massProfile m ≠ S.mass m

/-- what the spectra need: the tables cover the redshifts of the mass function, the profiles are on its masses -/
def Readable (response : Bool) (S : Sections) : Prop :=
  ¬ OtherMasses S ∧ ¬ Outside S.lin.nz S.lin.z S.nz S.z ∧ ¬ Outside S.nGrowth S.zGrowth S.nz S.z ∧
    (response = true → ¬ Outside S.nl.nz S.nl.z S.nz S.z)

/-- the power of a table at redshift `q` and wavenumber `k`: straight lines in redshift, then power laws in wavenumber -/
noncomputable def tableAt (s : LegacyAdd.Sect) (q k : ℝ) : ℝ :=
  Interface.logLinearK s.nk s.k (fun l => interpLinear s.nz s.z (fun j => s.p j l) q) k

theorem readPower_eq (s : LegacyAdd.Sect) (m : ℕ) (q k : ℕ → ℝ) :
    (Outside s.nz s.z m q → readPower s m q k = .error .valueError) ∧
    (¬ Outside s.nz s.z m q → readPower s m q k = .ok fun i j => tableAt s (q i) (k j)) := by
  constructor <;> intro h
  · have e : interpolateInZ s.nz s.z s.p m q = .error .valueError := if_pos h
    simp only [readPower, e, bind, Except.bind]
  · have e : interpolateInZ s.nz s.z s.p m q = .ok fun i l => interpLinear s.nz s.z (fun j => s.p j l) (q i) := if_neg h
    simp only [readPower, e, bind, Except.bind]
    rfl

/-- the module runs exactly if the profiles are on the masses of the mass function and the tables cover its redshifts; what is
then loaded: the mass function, bias and profiles as stored, the powers and the growth factor interpolated -/
theorem C137_read (response : Bool) (S : Sections) :
    (¬ Readable response S → read response S = .error .valueError) ∧
    (Readable response S → read response S = .ok
      { nm := S.nm, mass := S.mass, nz := S.nz, zVec := S.z, kVec := S.kProfile, dndlnm := S.dndlnm, bDm := S.bias, uDm := S.ukm
        uSat := S.uksat, plin := fun i j => tableAt S.lin (S.z i) (S.kProfile j)
        growthFactor := fun i => interpLinear S.nGrowth S.zGrowth S.dGrowth (S.z i), scaleFactor := fun i => 1 / (1 + S.z i)
        pkMmIn := if response then some fun i j => tableAt S.nl (S.z i) (S.kProfile j) else none }) := by
  by_cases h1 : OtherMasses S
  · refine ⟨fun _ => ?_, fun h => absurd h1 h.1⟩
    have e1 : getNormalisedProfile S S.nm S.mass = .error .valueError := if_pos h1
    simp only [read, e1, bind, Except.bind]
  have e1 : getNormalisedProfile S S.nm S.mass = .ok (S.ukm, S.uksat, S.kProfile) := if_neg h1
  by_cases h2 : Outside S.lin.nz S.lin.z S.nz S.z
  · refine ⟨fun _ => ?_, fun h => absurd h2 h.2.1⟩
    simp only [read, e1, bind, Except.bind, (readPower_eq _ _ _ _).1 h2]
  by_cases h3 : Outside S.nGrowth S.zGrowth S.nz S.z
  · refine ⟨fun _ => ?_, fun h => absurd h3 h.2.2.1⟩
    have e3 : interpolateInZ S.nGrowth S.zGrowth (fun j _ => S.dGrowth j) S.nz S.z = .error .valueError := if_pos h3
    simp only [read, e1, e3, bind, Except.bind, (readPower_eq _ _ _ _).2 h2]
  have e3 : interpolateInZ S.nGrowth S.zGrowth (fun j _ => S.dGrowth j) S.nz S.z =
      .ok fun i _ => interpLinear S.nGrowth S.zGrowth S.dGrowth (S.z i) := if_neg h3
  cases response with
  | false =>
    refine ⟨fun h => absurd ⟨h1, h2, h3, fun h => by cases h⟩ h, fun _ => ?_⟩
    simp only [read, e1, e3, bind, Except.bind, (readPower_eq _ _ _ _).2 h2]
    rfl
  | true =>
    by_cases h4 : Outside S.nl.nz S.nl.z S.nz S.z
    · refine ⟨fun _ => ?_, fun h => absurd h4 (h.2.2.2 rfl)⟩
      simp only [read, e1, e3, bind, Except.bind, (readPower_eq _ _ _ _).2 h2, (readPower_eq _ _ _ _).1 h4]
      rfl
    · refine ⟨fun h => absurd ⟨h1, h2, h3, fun _ => h4⟩ h, fun _ => ?_⟩
      simp only [read, e1, e3, bind, Except.bind, (readPower_eq _ _ _ _).2 h2, (readPower_eq _ _ _ _).2 h4]
      rfl

/-- the powers are the same as those the rewritten module hands to its library -/
theorem C137_same_power (s : LegacyAdd.Sect) (m : ℕ) (q k : ℕ → ℝ) (r : ℕ → ℕ → ℝ) (h : readPower s m q k = .ok r) :
    ∃ c : ℕ → ℕ → ℝ, (∀ l, Interface.interpolateInZ s.nz s.z (fun j => s.p j l) m q = .ok (c l)) ∧
      ∀ i j, r i j = Interface.logLinearK s.nk s.k (fun l => c l i) (k j) := by
  by_cases o : Outside s.nz s.z m q
  · rw [(readPower_eq s m q k).1 o] at h
    cases h
  · rw [(readPower_eq s m q k).2 o] at h
    cases h
    exact ⟨fun l i => interpLinear s.nz s.z (fun j => s.p j l) (q i), fun l => if_neg o, fun _ _ => rfl⟩

/-- at the redshifts and wavenumbers of a positive table its own entries are read; a power law in wavenumber is continued as a
power law outside the wavenumbers of the table -/
theorem C137_nodes (s : LegacyAdd.Sect) (hz : 2 ≤ s.nz) (hk : 2 ≤ s.nk) (sz : SortedOn s.nz s.z) (sk : SortedOn s.nk s.k)
    (pk : ∀ l < s.nk, 0 < s.k l) {j : ℕ} (hj : j < s.nz) :
    ((∀ l < s.nk, 0 < s.p j l) → ∀ l < s.nk, tableAt s (s.z j) (s.k l) = s.p j l) ∧
    (∀ A n : ℝ, 0 < A → (∀ l < s.nk, s.p j l = A * s.k l ^ n) → ∀ k, 0 < k → tableAt s (s.z j) k = A * k ^ n) := by
  have e : ∀ l, interpLinear s.nz s.z (fun j => s.p j l) (s.z j) = s.p j l := fun l => interpLinear_node hz sz _ hj
  constructor
  · intro hp l hl
    unfold tableAt
    simp only [e]
    exact Interface.C86_nodes hk sk pk hp hl
  · intro A n hA hp k hkp
    unfold tableAt
    simp only [e]
    have : Interface.logLinearK s.nk s.k (fun l => s.p j l) k = Interface.logLinearK s.nk s.k (fun l => A * s.k l ^ n) k := by
      unfold Interface.logLinearK interp1d
      dsimp only
      rw [interpLinear_congr hk fun l hl => by rw [hp l hl]]
    rw [this]
    exact Interface.C86_power_law hk sk pk hA hkp

/-- the grids of the bias and the redshifts of the profiles are not looked at: whatever they are, the same is read -/
theorem C137_unchecked (response : Bool) (S : Sections) (massBias zBias zProfile : ℕ → ℝ) :
    read response { S with massBias := massBias, zBias := zBias, zProfile := zProfile } = read response S := rfl

/-- so a bias tabulated on grids of its own is read correctly exactly where these grids are those of the mass function -/
theorem C137_bias_grid (response : Bool) (S : Sections) (h : Readable response S) (i m : ℕ) :
    (∀ f : ℝ → ℝ → ℝ, ∀ L, read response { S with bias := fun i m => f (S.zBias i) (S.massBias m) } = .ok L →
      L.bDm i m = f (L.zVec i) (L.mass m)) ↔ S.zBias i = S.z i ∧ S.massBias m = S.mass m := by
  have r : ∀ f : ℝ → ℝ → ℝ, ∃ L, read response { S with bias := fun i m => f (S.zBias i) (S.massBias m) } = .ok L ∧
      L.bDm i m = f (S.zBias i) (S.massBias m) ∧ L.zVec = S.z ∧ L.mass = S.mass := fun f =>
    ⟨_, (C137_read response { S with bias := fun i m => f (S.zBias i) (S.massBias m) }).2 h, rfl, rfl, rfl⟩
  constructor
  · intro H
    constructor
    · obtain ⟨L, e, b, z, _⟩ := r fun x _ => x
      have := H (fun x _ => x) L e
      rw [b, z] at this
      exact this
    · obtain ⟨L, e, b, _, z⟩ := r fun _ y => y
      have := H (fun _ y => y) L e
      rw [b, z] at this
      exact this
  · rintro ⟨h1, h2⟩ f L e
    obtain ⟨L', e', b, z, q⟩ := r f
    rw [e] at e'
    cases e'
    rw [b, z, q, h1, h2]

/-- and profiles exactly where their redshifts are those of the mass function: the docstring promises a check -/
theorem C137_profile_redshift (response : Bool) (S : Sections) (h : Readable response S) (i : ℕ) :
    (∀ f : ℝ → ℕ → ℕ → ℝ, ∀ L, read response { S with ukm := fun i => f (S.zProfile i) } = .ok L →
      L.uDm i = f (L.zVec i)) ↔ S.zProfile i = S.z i := by
  have r : ∀ f : ℝ → ℕ → ℕ → ℝ, ∃ L, read response { S with ukm := fun i => f (S.zProfile i) } = .ok L ∧
      L.uDm i = f (S.zProfile i) ∧ L.zVec = S.z := fun f =>
    ⟨_, (C137_read response { S with ukm := fun i => f (S.zProfile i) }).2 h, rfl, rfl⟩
  constructor
  · intro H
    obtain ⟨L, e, b, z⟩ := r fun x _ _ => x
    have := H (fun x _ _ => x) L e
    rw [b, z] at this
    exact congrFun (congrFun this 0) 0
  · rintro h1 f L e
    obtain ⟨L', e', b, z⟩ := r f
    rw [e] at e'
    cases e'
    rw [b, z, h1]

/-- a block: linear power on redshifts 0, 1, 2, ingredients at 0 and 1, bias tabulated at 1 and 2 -/
noncomputable def demo : Sections where
  lin := ⟨3, fun i => i, 2, fun l => l + 1, fun i l => 1 / ((i : ℝ) + 1) * ((l : ℝ) + 1)⟩
  nl := ⟨1, fun _ => 0, 2, fun l => l + 1, fun _ _ => 1⟩
  nGrowth := 3
  zGrowth := fun i => i
  dGrowth := fun i => 1 / (1 + i)
  nm := 3
  mass := fun m => m + 1
  nz := 2
  z := fun i => i
  dndlnm := fun _ m => m + 1
  massBias := fun m => m + 1
  zBias := fun i => i + 1
  bias := fun i _ => i + 1
  nmProfile := 3
  massProfile := fun m => m + 1
  zProfile := fun i => i
  kProfile := fun k => k + 1
  ukm := fun _ _ _ => 1
  uksat := fun _ _ _ => 1

/-- it is read without response; with response the non-linear power does not reach its redshifts -/
example : Readable false demo ∧ ¬ Readable true demo ∧ ¬ demo.zBias 0 = demo.z 0 := by
  have a : ¬ OtherMasses demo := by
    rintro (h | ⟨m, _, h⟩)
    · exact h rfl
    · exact h rfl
  have b : ¬ Outside 3 (fun i => (i : ℝ)) demo.nz demo.z := by
    rintro ⟨i, hi, h | h⟩
    · simp only [demo, Nat.cast_zero] at h
      exact absurd h (not_lt.2 (Nat.cast_nonneg i))
    · have : i ≤ 1 := Nat.le_of_lt_succ hi
      simp only [demo] at h
      have h' : (2 : ℕ) < i := by exact_mod_cast h
      omega
  refine ⟨⟨a, b, b, fun h => by cases h⟩, fun h => h.2.2.2 rfl ⟨1, by decide, .inr ?_⟩, ?_⟩
  · simp [demo]
  · simp [demo]

end Verif.LegacyRead

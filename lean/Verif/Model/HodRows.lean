import Verif.Model.Hod

/-!
# Several galaxy bins in the occupation models (`/repo/src/onepower/hod.py:1049-1595`)

The models `Simple`, `Zehavi`, `Zheng` and `Zhai` take each parameter as one number or as a list with one number per galaxy bin.
Here the first axis of the arrays is modelled: an array is the list of its rows, numpy's broadcasting decides how rows are put
together, and `_interpolate` (hod.py:323-347) takes as many rows as there are redshift bins.

Simplifications: the occupation does not depend on redshift in these models (`np.tile`, hod.py:1144 and the like) and interpolating a
constant gives the constant, so a row is a function of the halo mass; what is computed from a row and the mass function of a
redshift bin is an arbitrary function.
-/

namespace Verif.HodRows

open Verif.Lib Verif.Hod

/-- what a user may give for a parameter -/
inductive Val
  | number (x : ℝ)
  | list (l : List ℝ)
  /-- a numpy array without axes, such as `np.array(12.0)`: it has the attribute `__len__` -/
  | array0 (x : ℝ)

/-- the accessors of the parameters (hod.py:1076-1133, 1193-1250, 1313-1406, 1475-1568): a number becomes a list of one; an array
without axes is left alone and `[:, np.newaxis, np.newaxis]` raises -/
def column : Val → Except PyErr (List ℝ)
  | .number x => .ok [x]
  | .list l => .ok l
  | .array0 _ => .error .indexError

/-- an elementwise operation of two arrays on their first axes (numpy broadcasting) -/
def bzip {α β γ : Type} (f : α → β → γ) (a : List α) (b : List β) : Except PyErr (List γ) :=
  if a.length = b.length then .ok (List.zipWith f a b)
  else match a, b with
    | [x], b => .ok (b.map (f x))
    | a, [y] => .ok (a.map fun x => f x y)
    | _, _ => .error .valueError

/-- the parameters of `Simple` and `Zehavi` (hod.py:1068-1074, 1185-1191) -/
structure Step where
  log10Mmin : Val
  log10Msat : Val
  alpha : Val
  aCen : Option ℝ
  aSat : Option ℝ

/-- the parameters of `Zheng` (hod.py:1302-1310) -/
structure Zheng where
  log10Mmin : Val
  log10M0 : Val
  log10M1 : Val
  sigma : Val
  alpha : Val
  aCen : Option ℝ
  aSat : Option ℝ

/-- the parameters of `Zhai` (hod.py:1464-1472) -/
structure Zhai where
  log10Mmin : Val
  log10Msat : Val
  log10Mcut : Val
  sigma : Val
  alpha : Val
  aCen : Option ℝ
  aSat : Option ℝ

/-- rows of an occupation -/
abbrev Occ := Except PyErr (List (ℝ → ℝ))

/-- `_compute_hod_cen` of `Simple` and `Zehavi` (hod.py:1135-1144, 1252-1261) -/
noncomputable def stepCen (p : Step) : Occ := do
  let mmin ← column p.log10Mmin
  .ok (mmin.map fun x M => decorateCen p.aCen (heaviside (M - (10 : ℝ) ^ x) 1))

/-- `(self.mass / self.Msat) ** self.alpha` (hod.py:1150, 1267, 1590) -/
noncomputable def powerLaw (msat alpha : Val) : Occ := do
  let s ← column msat
  let a ← column alpha
  bzip (fun s a M => (M / (10 : ℝ) ^ s) ^ a) s a

/-- `Simple._compute_hod_sat` (hod.py:1146-1155) -/
noncomputable def simpleSat (p : Step) : Occ := do
  let cen ← stepCen p
  let law ← powerLaw p.log10Msat p.alpha
  let n ← bzip (fun c l M => c M * l M) cen law
  .ok (n.map fun N M => decorateSat p.aSat (N M))

/-- `Zehavi._compute_hod_sat` (hod.py:1263-1272) -/
noncomputable def zehaviSat (p : Step) : Occ := do
  let law ← powerLaw p.log10Msat p.alpha
  .ok (law.map fun N M => decorateSat p.aSat (N M))

/-- `_compute_hod_cen` of `Zheng` and `Zhai` (hod.py:1408-1421, 1570-1583): `np.where` puts together three arrays -/
noncomputable def erfCenRows (log10Mmin sigma : Val) (aCen : Option ℝ) : Occ := do
  let s ← column sigma
  let m ← column log10Mmin
  let step : List (ℝ → ℝ) := m.map fun x M => heaviside (M - (10 : ℝ) ^ x) 1
  let smooth ← bzip (fun x s M => 0.5 * (1 + erf (log10 (M / (10 : ℝ) ^ x) / s))) m s
  let pair ← bzip (fun (a b : ℝ → ℝ) => (a, b)) step smooth
  let n ← bzip (fun s (ab : (ℝ → ℝ) × (ℝ → ℝ)) M => open Classical in if s = 0 then ab.1 M else ab.2 M) s pair
  .ok (n.map fun N M => decorateCen aCen (N M))

/-- `Zheng._compute_hod_sat` (hod.py:1423-1434) -/
noncomputable def zhengSat (p : Zheng) : Occ := do
  let m0 ← column p.log10M0
  let m1 ← column p.log10M1
  let q ← bzip (fun x y M => heaviside (M - (10 : ℝ) ^ x) 1 * (M - (10 : ℝ) ^ x) / (10 : ℝ) ^ y) m0 m1
  let a ← column p.alpha
  let n ← bzip (fun q a M => (q M) ^ a) q a
  .ok (n.map fun N M => decorateSat p.aSat (N M))

/-- `Zhai._compute_hod_sat` (hod.py:1585-1595) -/
noncomputable def zhaiSat (p : Zhai) : Occ := do
  let law ← powerLaw p.log10Msat p.alpha
  let c ← column p.log10Mcut
  let n ← bzip (fun l c M => l M * Real.exp (-(10 : ℝ) ^ c / M)) law c
  .ok (n.map fun N M => decorateSat p.aSat (N M))

/-- `_interpolate` (hod.py:340-347) for `Z` redshift bins: `data[i]` for every one of them -/
def pick {α : Type} (Z : ℕ) (rows : List α) : Except PyErr (List α) :=
  if Z ≤ rows.length then .ok (rows.take Z) else .error .indexError

/-- `hod_cen`, `hod_sat` (hod.py:567-589) -/
def interpolated (Z : ℕ) (occ : Occ) : Occ := do pick Z (← occ)

/-- `hod` (hod.py:591-601, 671-676) -/
noncomputable def hod (Z : ℕ) (cen sat : Occ) : Occ := do
  let c ← cen
  let s ← sat
  pick Z (← bzip (fun c s M => c M + s M) c s)

/-- `number_density_cen`, `number_density_sat`, `avg_halo_mass_cen`, `avg_halo_mass_sat` (hod.py:272-304, 349-398, 433-453, 495-515):
`integral` is the mass integral of an occupation with the mass function of a redshift bin, `bins` holds the latter -/
def integrated {D E : Type} (integral : (ℝ → ℝ) → D → E) (bins : List D) (occ : Occ) : Except PyErr (List E) := do
  pick bins.length (← bzip integral (← occ) bins)

/-- `f_c`, `f_s` (hod.py:469-493): fractions of the integrals -/
noncomputable def fraction {D : Type} (integral : (ℝ → ℝ) → D → ℝ) (bins : List D) (cen sat part : Occ) : Except PyErr (List ℝ) := do
  let n ← bzip integral (← part) bins
  let c ← cen
  let s ← sat
  let t ← bzip integral (← bzip (fun c s M => c M + s M) c s) bins
  pick bins.length (← bzip (fun a b => a / b) n t)

end Verif.HodRows

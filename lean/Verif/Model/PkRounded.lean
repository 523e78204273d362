import Verif.Lib.Rounded
import Verif.Model.Pk

/-!
# `/repo/src/onepower/pk.py` in floating-point numbers

The formulas of `Model/Pk` in the default treatment of non-linearities (the `else` branches), written once more over `Fl`:
every operation of the source is rounded, in the order of the source.  `s` holds the stored inputs.  The matter profile is
the one without feedback (`matter_profile`).  The citations are those of `Model/Pk`.
-/

namespace Verif.PkRounded

open Verif.Lib Verif.Pk

variable {R : Rounding} (s : Pk.Spectra)

/-- `matter_profile` (pk.py:673-743) -/
noncomputable def matterProfile (z k m : ℕ) : Fl R :=
  ((s.mass m : ℝ) : Fl R) / ((s.meanDensity0 z : ℝ) : Fl R) * ((s.uDm z k m : ℝ) : Fl R)

/-- `central_galaxy_profile` (pk.py:1795-1810) -/
noncomputable def centralGalaxyProfile (b z : ℕ) (_k m : ℕ) : Fl R :=
  ((s.fC b z : ℝ) : Fl R) * ((s.hodCen b z m : ℝ) : Fl R) * ((1 : ℝ) : Fl R) / ((s.numberDensityCen b z : ℝ) : Fl R)

/-- `satellite_galaxy_profile` (pk.py:1812-1827) -/
noncomputable def satelliteGalaxyProfile (b z k m : ℕ) : Fl R :=
  ((s.fS b z : ℝ) : Fl R) * ((s.hodSat b z m : ℝ) : Fl R) * ((s.uSat z k m : ℝ) : Fl R)
    / ((s.numberDensitySat b z : ℝ) : Fl R)

/-- `C1` (pk.py:2154-2159) -/
noncomputable def c1 (z : ℕ) : Fl R := ((5e-14 : ℝ) : Fl R) * ((s.alignmentGi z : ℝ) : Fl R)

/-- `mass_avg` (pk.py:1689-1699) -/
noncomputable def massAvg (b z : ℕ) : Fl R := ((s.avgHaloMassCen b z : ℝ) : Fl R) / ((s.numberDensity b z : ℝ) : Fl R)

/-- the mass dependence of the alignment profiles (pk.py:2205-2208, 2241-2244) -/
noncomputable def additionalTerm (beta mpivot : Option ℝ) (massAvg : Fl R) : Fl R :=
  match beta, mpivot with
  | some b, some m => (massAvg / ((m : ℝ) : Fl R)).rpow b
  | _, _ => ((1 : ℝ) : Fl R)

/-- `central_alignment_profile` (pk.py:2177-2211, 2247-2271) -/
noncomputable def centralAlignmentProfile (b z : ℕ) (_k m : ℕ) : Fl R :=
  ((s.fC b z : ℝ) : Fl R) * (c1 s z / ((s.growthFactor z : ℝ) : Fl R)) * ((s.mass m : ℝ) : Fl R)
    * additionalTerm s.betaCen s.mpivotCen (massAvg s b z)

/-- `satellite_alignment_profile` (pk.py:2213-2245, 2273-2297) -/
noncomputable def satelliteAlignmentProfile (b z k m : ℕ) : Fl R :=
  ((s.fS b z : ℝ) : Fl R) * ((s.hodSat b z m : ℝ) : Fl R) * ((s.wkmSat z k m : ℝ) : Fl R)
    / ((s.numberDensitySat b z : ℝ) : Fl R) * additionalTerm s.betaSat s.mpivotSat (massAvg s b z)

/-- `one_halo_truncation` (pk.py:873-891) -/
noncomputable def oneHaloTruncation (k : ℕ) : Fl R :=
  match s.oneHaloKtrunc with
  | none => ((1 : ℝ) : Fl R)
  | some kt => (((s.kVec k : ℝ) : Fl R) / ((kt : ℝ) : Fl R)).rpow 4
      / (((1 : ℝ) : Fl R) + (((s.kVec k : ℝ) : Fl R) / ((kt : ℝ) : Fl R)).rpow 4)

/-- `two_halo_truncation` (pk.py:893-913) -/
noncomputable def twoHaloTruncation (k : ℕ) : Fl R :=
  match s.twoHaloKtrunc with
  | none => ((1 : ℝ) : Fl R)
  | some _ => ((1 : ℝ) : Fl R)
      - ((0.05 : ℝ) : Fl R) * (((s.kVec k : ℝ) : Fl R) / ((0.05699 : ℝ) : Fl R)).rpow 2.853
        / (((1 : ℝ) : Fl R) + (((s.kVec k : ℝ) : Fl R) / ((0.05699 : ℝ) : Fl R)).rpow 2.853)

/-- `one_halo_truncation_ia` (pk.py:915-932); the change of sign is exact -/
noncomputable def oneHaloTruncationIa (k : ℕ) : Fl R :=
  match s.oneHaloKtruncIa with
  | none => ((1 : ℝ) : Fl R)
  | some kt => ((1 : ℝ) : Fl R)
      - Fl.exp ⟨-((((s.kVec k : ℝ) : Fl R) / ((kt : ℝ) : Fl R)).rpow 2).val⟩

/-- `two_halo_truncation_ia` (pk.py:934-951) -/
noncomputable def twoHaloTruncationIa (k : ℕ) : Fl R :=
  match s.twoHaloKtruncIa with
  | none => ((1 : ℝ) : Fl R)
  | some kt => Fl.exp ⟨-((((s.kVec k : ℝ) : Fl R) / ((kt : ℝ) : Fl R)).rpow 2).val⟩

/-- `compute_1h_term` (pk.py:1033-1078) -/
noncomputable def compute1hTerm (u v : ℕ → Fl R) (z : ℕ) : Fl R :=
  Fl.simpson s.nm (fun m => ((s.mass m : ℝ) : Fl R))
    (fun m => u m * v m * ((s.dndlnm z m : ℝ) : Fl R) / ((s.mass m : ℝ) : Fl R))

/-- `A_term` (pk.py:1080-1155) -/
noncomputable def aTerm (z : ℕ) : Fl R :=
  ((1 : ℝ) : Fl R) - Fl.simpson s.nm (fun m => ((s.mass m : ℝ) : Fl R))
    (fun m => ((s.haloBias z m : ℝ) : Fl R) * ((s.dndlnm z m : ℝ) : Fl R)
      * (((1 : ℝ) : Fl R) / ((s.meanDensity0 z : ℝ) : Fl R)))

/-- `compute_Im_term` (pk.py:1180-1203) -/
noncomputable def computeImTerm (z k : ℕ) : Fl R :=
  Fl.simpson s.nm (fun m => ((s.mass m : ℝ) : Fl R))
    (fun m => ((s.haloBias z m : ℝ) : Fl R) * ((s.dndlnm z m : ℝ) : Fl R) * ((s.uDm z k m : ℝ) : Fl R)
      * (((1 : ℝ) : Fl R) / ((s.meanDensity0 z : ℝ) : Fl R)))

/-- `Im_term` (pk.py:1157-1178) -/
noncomputable def imTerm (z k : ℕ) : Fl R := computeImTerm s z k + aTerm s z

/-- `compute_Ig_term` (pk.py:1829-1850) -/
noncomputable def computeIgTerm (profile : ℕ → Fl R) (z : ℕ) : Fl R :=
  Fl.simpson s.nm (fun m => ((s.mass m : ℝ) : Fl R))
    (fun m => profile m * ((s.haloBias z m : ℝ) : Fl R) * ((s.dndlnm z m : ℝ) : Fl R) / ((s.mass m : ℝ) : Fl R))

/-- `Ic_term`, `Is_term` (pk.py:1852-1886) -/
noncomputable def icTerm (b z k : ℕ) : Fl R := computeIgTerm s (centralGalaxyProfile s b z k) z

/-- see `icTerm` (pk.py:1870-1886) -/
noncomputable def isTerm (b z k : ℕ) : Fl R := computeIgTerm s (satelliteGalaxyProfile s b z k) z

/-- `Ic_align_term` (pk.py:2299-2321) -/
noncomputable def icAlignTerm (b z k : ℕ) : Fl R :=
  computeIgTerm s (centralAlignmentProfile s b z k) z
    + aTerm s z * centralAlignmentProfile s b z k 0 * ((s.meanDensity0 z : ℝ) : Fl R) / ((s.mass 0 : ℝ) : Fl R)

/-- `Is_align_term` (pk.py:2323-2345) -/
noncomputable def isAlignTerm (b z k : ℕ) : Fl R :=
  computeIgTerm s (satelliteAlignmentProfile s b z k) z
    + aTerm s z * satelliteAlignmentProfile s b z k 0 * ((s.meanDensity0 z : ℝ) : Fl R) / ((s.mass 0 : ℝ) : Fl R)

/-- the linear spectrum as stored -/
noncomputable def pkLin (z k : ℕ) : Fl R := ((s.pkLin z k : ℝ) : Fl R)

/-- `_power_spectrum_mm` (pk.py:1543-1630), 1-halo term -/
noncomputable def mm1h (z k : ℕ) : Fl R :=
  compute1hTerm s (matterProfile s z k) (matterProfile s z k) z * oneHaloTruncation s k

/-- `_power_spectrum_mm` (pk.py:1543-1630), 2-halo term -/
noncomputable def mm2h (z k : ℕ) : Fl R := pkLin s z k * imTerm s z k * imTerm s z k * twoHaloTruncation s k

/-- `power_spectrum_gg` (pk.py:1888-1966), 1-halo term -/
noncomputable def gg1h (b z k : ℕ) : Fl R :=
  ((2 : ℝ) : Fl R) * (compute1hTerm s (centralGalaxyProfile s b z k) (satelliteGalaxyProfile s b z k) z
      * oneHaloTruncation s k)
    + compute1hTerm s (fun m => satelliteGalaxyProfile s b z k m * ((s.poissonFunc m : ℝ) : Fl R))
        (satelliteGalaxyProfile s b z k) z * oneHaloTruncation s k

/-- `power_spectrum_gg` (pk.py:1888-1966), 2-halo term -/
noncomputable def gg2h (b z k : ℕ) : Fl R :=
  pkLin s z k * icTerm s b z k * icTerm s b z k * twoHaloTruncation s k
    + pkLin s z k * isTerm s b z k * isTerm s b z k * twoHaloTruncation s k
    + ((2 : ℝ) : Fl R) * (pkLin s z k * icTerm s b z k * isTerm s b z k * twoHaloTruncation s k)

/-- `power_spectrum_gm` (pk.py:1980-2059), 1-halo term -/
noncomputable def gm1h (b z k : ℕ) : Fl R :=
  compute1hTerm s (centralGalaxyProfile s b z k) (matterProfile s z k) z * oneHaloTruncation s k
    + compute1hTerm s (satelliteGalaxyProfile s b z k) (matterProfile s z k) z * oneHaloTruncation s k

/-- `power_spectrum_gm` (pk.py:1980-2059), 2-halo term -/
noncomputable def gm2h (b z k : ℕ) : Fl R :=
  pkLin s z k * icTerm s b z k * imTerm s z k * twoHaloTruncation s k
    + pkLin s z k * isTerm s b z k * imTerm s z k * twoHaloTruncation s k

/-- `power_spectrum_mi` (pk.py:2347-2432), 1-halo term -/
noncomputable def mi1h (b z k : ℕ) : Fl R :=
  ((-1 : ℝ) : Fl R) * compute1hTerm s (matterProfile s z k) (satelliteAlignmentProfile s b z k) z
    * oneHaloTruncationIa s k

/-- `power_spectrum_mi` (pk.py:2347-2432), 2-halo term of the satellites -/
noncomputable def mi2hSat (b z k : ℕ) : Fl R :=
  ((-1 : ℝ) : Fl R) * pkLin s z k * isAlignTerm s b z k * imTerm s z k * twoHaloTruncationIa s k

/-- `power_spectrum_mi` (pk.py:2347-2432), 2-halo term of the centrals -/
noncomputable def mi2hCen (b z k : ℕ) : Fl R :=
  ((-1 : ℝ) : Fl R) * pkLin s z k * icAlignTerm s b z k * imTerm s z k * twoHaloTruncationIa s k

/-- `power_spectrum_ii` (pk.py:2443-2555), 1-halo term -/
noncomputable def ii1h (b z k : ℕ) : Fl R :=
  compute1hTerm s (satelliteAlignmentProfile s b z k) (satelliteAlignmentProfile s b z k) z * oneHaloTruncationIa s k

/-- `power_spectrum_gi` (pk.py:2566-2653), 1-halo term -/
noncomputable def gi1h (b z k : ℕ) : Fl R :=
  compute1hTerm s (centralGalaxyProfile s b z k) (satelliteAlignmentProfile s b z k) z * oneHaloTruncationIa s k

/-- `power_spectrum_ii` (pk.py:2443-2555), 2-halo term of the centrals -/
noncomputable def ii2hCc (b z k : ℕ) : Fl R :=
  pkLin s z k * icAlignTerm s b z k * icAlignTerm s b z k * twoHaloTruncationIa s k

/-- `power_spectrum_ii` (pk.py:2443-2555), 2-halo term of the satellites -/
noncomputable def ii2hSs (b z k : ℕ) : Fl R :=
  pkLin s z k * isAlignTerm s b z k * isAlignTerm s b z k * twoHaloTruncationIa s k

/-- `power_spectrum_ii` (pk.py:2443-2555), 2-halo term of centrals and satellites -/
noncomputable def ii2hCs (b z k : ℕ) : Fl R :=
  pkLin s z k * icAlignTerm s b z k * isAlignTerm s b z k * twoHaloTruncationIa s k

/-- `power_spectrum_gi` (pk.py:2566-2653), 2-halo term of the centrals -/
noncomputable def gi2hCc (b z k : ℕ) : Fl R :=
  pkLin s z k * icTerm s b z k * icAlignTerm s b z k * twoHaloTruncationIa s k

/-- `power_spectrum_gi` (pk.py:2566-2653), 2-halo term of centrals and aligned satellites -/
noncomputable def gi2hCs (b z k : ℕ) : Fl R :=
  pkLin s z k * icTerm s b z k * isAlignTerm s b z k * twoHaloTruncationIa s k

/-- `pk_tot` of mm (pk.py:1626) -/
noncomputable def mmTot (z k : ℕ) : Fl R := mm1h s z k + mm2h s z k

/-- `pk_tot` of gg (pk.py:1961) -/
noncomputable def ggTot (b z k : ℕ) : Fl R := gg1h s b z k + gg2h s b z k

/-- `pk_tot` of gm (pk.py:2056) -/
noncomputable def gmTot (b z k : ℕ) : Fl R := gm1h s b z k + gm2h s b z k

/-- `pk_tot` of mi (pk.py:2432) -/
noncomputable def miTot (b z k : ℕ) : Fl R := mi1h s b z k + mi2hCen s b z k + mi2hSat s b z k

/-- `pk_tot` of ii (pk.py:2555) -/
noncomputable def iiTot (b z k : ℕ) : Fl R := ii1h s b z k + ii2hCc s b z k + ii2hSs s b z k + ii2hCs s b z k

/-- `pk_tot` of gi (pk.py:2653) -/
noncomputable def giTot (b z k : ℕ) : Fl R := gi1h s b z k + gi2hCs s b z k + gi2hCc s b z k

end Verif.PkRounded

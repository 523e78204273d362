import Verif.Model.ScaleCuts

/-!
# Options of the legacy scale cuts (`/repo/cosmosis_modules/legacy/scale_cuts/scale_cuts.py`, `wrapper_twopoint.py`)

Simplifications: the options read by `get_string` are strings where they are given (another type is an error of CosmoSIS); a file of
scale cuts is a dictionary of its sections, or absent; a file which `configparser` cannot read (OSError) is not modelled; the options
of mock data, which are passed on, are left out.  `OSError` is `generic`.
-/

namespace Verif.ScaleCuts

open Verif.Lib

/-- the options of type string -/
abbrev Opts := String → Option String

/-- `options.get_string(option_section, name, default=d)` -/
def Opts.get (o : Opts) (name d : String) : String := (o name).getD d

/-- `labDict` (wrapper_twopoint.py:50-67) of the `LabelConvention` made by `setup` (scale_cuts.py:78-88): four of the names cannot be
chosen.  The keys are different, so that reading it is finding the first one. -/
def labels (o : Opts) : List (String × String) :=
  [("wtheta", o.get "wt_extension_name" "wtheta"),
   ("gammat", o.get "gt_extension_name" "gammat"),
   ("gammax", "gammax"),
   ("xip", o.get "xi_plus_extension_name" "xip"),
   ("xim", o.get "xi_minus_extension_name" "xim"),
   ("pnn", o.get "bandpower_clustering_extension_name" "Pnn"),
   ("pnee", o.get "bandpower_ggl_extension_name" "PneE"),
   ("pneb", "PneB"),
   ("peee", o.get "bandpower_e_cosmic_shear_extension_name" "PeeE"),
   ("peeb", "PeeB"),
   ("en", o.get "cosebis_extension_name" "En"),
   ("bn", "Bn"),
   ("psi_gm", o.get "psi_stats_gm_extension_name" "Psi_gm"),
   ("psi_gg", o.get "psi_stats_gg_extension_name" "Psi_gg"),
   ("1pt", o.get "onepoint_extension_name" "1pt"),
   ("all", "all")]

/-- `labDict[tag]` -/
def label (o : Opts) (tag : String) : Option String := (labels o).lookup tag

/-- `sectionNameList` (scale_cuts.py:136-147) with the names of the options and their defaults (scale_cuts.py:22-45) -/
def sections (o : Opts) : List Line :=
  [⟨o.get "wt_section_name" "galaxy_xi", o.get "wt_extension_name" "wtheta", false⟩,
   ⟨o.get "gt_section_name" "galaxy_shear_xi", o.get "gt_extension_name" "gammat", true⟩,
   ⟨o.get "xi_plus_section_name" "shear_xi_plus", o.get "xi_plus_extension_name" "xip", false⟩,
   ⟨o.get "xi_minus_section_name" "shear_xi_minus", o.get "xi_minus_extension_name" "xim", false⟩,
   ⟨o.get "bandpower_clustering_section_name" "bandpower_clustering", o.get "bandpower_clustering_extension_name" "Pnn", false⟩,
   ⟨o.get "bandpower_ggl_section_name" "bandpower_ggl", o.get "bandpower_ggl_extension_name" "PneE", true⟩,
   ⟨o.get "bandpower_e_cosmic_shear_section_name" "bandpower_e_cosmic_shear",
     o.get "bandpower_e_cosmic_shear_extension_name" "PeeE", false⟩,
   ⟨o.get "psi_stats_gg_section_name" "psi_gg", o.get "psi_stats_gg_extension_name" "Psi_gg", false⟩,
   ⟨o.get "psi_stats_gm_section_name" "psi_gm", o.get "psi_stats_gm_extension_name" "Psi_gm", true⟩,
   ⟨o.get "cosebis_section_name" "cosebis", o.get "cosebis_extension_name" "En", false⟩]

/-- the extension of the one-point functions (scale_cuts.py:33) -/
def oneName (o : Opts) : String := o.get "onepoint_extension_name" "1pt"

/-- what is on disk: files of scale cuts by section, and files of measurements -/
structure Disk where
  cuts : String → Option (String → Option (List Entry))
  fits : String → Option TP

/-- the options of the scale cuts (scale_cuts.py:47-70).  `ConfigParser.read` passes over a file that does not exist, so that the
section is missing afterwards. -/
def cutOptions (o : Opts) (d : Disk) (inline : List Entry) : Except PyErr (List Entry) :=
  match o "scale_cuts_filename" with
  | some f => match (d.cuts f).bind fun s => s (o.get "scale_cuts_option" "scale_cuts_none") with
    | none => .error .keyError
    | some l => .ok l
  | none => .ok (inline.filter fun e => decide (e.key.headD "" ∈ ["use", "cut", "keep"]))

/-- `setup` (scale_cuts.py:10-118): the arguments of the cuts, and data and covariance after them -/
noncomputable def setup (S : Str) (o : Opts) (d : Disk) (inline : List Entry) : Except PyErr (Args × TP) := do
  match o "data_and_covariance_fits_filename" with
  | none => .error .nameError
  | some f =>
    let l ← cutOptions o d inline
    match d.fits f with
    | none => .error .generic
    | some t =>
      let a ← parse { S with lab := label o } l
      let t' ← setupData (label o) a t
      .ok (a, t')

/-- `execute` up to the theory vector (scale_cuts.py:120-230), with the names of these options -/
noncomputable def executeTheory (o : Opts) (a : Args) (B : String → Option Section) (one : Option (List ℝ)) : Except PyErr TP :=
  theory a (sections o) (oneName o) B one

end Verif.ScaleCuts

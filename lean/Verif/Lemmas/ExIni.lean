import Verif.Props.Contact

/-!
An ini-file used in the examples beside the theorems about whole ini-files.
-/

namespace Hyvr

open Py

/-- A section with the given options. -/
def table (l : List (String × String)) : Dict := fun k =>
  (l.find? fun p => decide (p.1 = k)).map fun p => .leaf (.text p.2.toList)

/-- Whether a computation succeeds. -/
def isOk {β : Type} : Except PyErr β → Bool
  | .ok _ => true
  | .error _ => false

theorem isOk_iff {β : Type} {r : Except PyErr β} : isOk r = true ↔ ∃ b, r = .ok b := by
  cases r <;> simp [isOk]

/-- Options of the example: two strata, a trough and a sheet. -/
def exSections : List (String × List (String × String)) :=
  [("run", [("numsim", "2"), ("outputs", "[vtr, npz]")]),
   ("model", [("dx", "5"), ("dz", "1"), ("lx", "100"), ("ly", "50"), ("lz", "10")]),
   ("strata", [("strata", "[clay, gravel]"), ("strata_contact_models", "[[random, 4, 1, 20, 20]]"),
      ("ae", "[sheets, scour]"), ("ae_in_strata", "[[sheets], [sheets, scour]]"), ("ae_prob", "[[1], [1, 2]]"),
      ("ae_z_mean", "[[2], [2, 3]]"), ("avul_prob", "[[0], [1]]"), ("avul", "[[0, 1], [1, 2]]"),
      ("bg_facies", "[silt, sand]"), ("bg_azim", "0"), ("bg_dip", "[0, 3]")]),
   ("hydraulics", [("hydrofacies", "[silt, sand, cobbles]"), ("k_h", "[1, 2, 3]"), ("sig_y", "1"), ("k_ratio", "2"),
      ("n", "1"), ("sig_n", "0"), ("ycorlengths", "[1, 2, 3]"), ("ncorlengths", "[1, 2, 3]")]),
   ("sheets", [("geometry", "sheet"), ("structure", "massive"), ("contact_model", "[flat]"), ("facies", "[silt, sand]"),
      ("lens_thickness", "1"), ("altfacies", "[[sand], [silt, cobbles]]")]),
   ("scour", [("geometry", "trough"), ("structure", "dip"), ("dipset_dist", "1"), ("contact_model", "[random, 1, 9, 9]"),
      ("facies", "[cobbles]"), ("bg_facies", "sand"), ("agg", "1"), ("lag_height", "1"), ("lag_facies", "cobbles"),
      ("length", "10"), ("width", "5"), ("depth", "2"), ("trough_density", "1"), ("paleoflow", "[0, 45]")])]

/-- The ini-file with the given sections. -/
def iniOf (l : List (String × List (String × String))) : Ini where
  sections := l.map (·.1)
  get s := match l.find? fun p => decide (p.1 = s) with
    | some p => table p.2
    | none => fun _ => none

/-- The example. -/
def exIni : Ini := iniOf exSections

theorem exIni_ok : ∃ P, parseInifile exConvs exIni = .ok P := isOk_iff.1 (by decide +kernel)

end Hyvr

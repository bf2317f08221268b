import Verif.Props.OldFormat

/-!
When an ini-file of the new format says the same as one of the old format (C113).
-/

namespace Hyvr.Spec

open Py

/-- What a section gives under the first of several names that is present. -/
def firstOf (d : Dict) (names : List String) : Option Val := names.findSome? d

/-- Every option of the table is written the same in both sections: in the new one under its name, in the old one under the first of its old names
that is present. -/
def Renames (table : List (String × List String)) (old new : Dict) : Prop := ∀ r ∈ table, new r.1 = firstOf old r.2

/-- Options of the section `model` and their old names. -/
def modelNames : List (String × List String) :=
  [("x0", ["x0"]), ("y0", ["y0"]), ("z0", ["z0"]), ("dx", ["dx"]), ("dy", ["dy"]), ("dz", ["dz"]), ("lx", ["lx"]), ("ly", ["ly"]), ("lz", ["lz"]),
    ("periodic", ["periodic", "flag_periodic"]), ("heterogeneity_level", ["hetlev"])]

/-- Options of the section `strata` and their old names. -/
def strataNames : List (String × List String) :=
  [("strata", ["ssm", "l_ssm", "l_seq"]), ("ae", ["ae", "l_ae"]), ("ae_in_strata", ["ssm_ae", "ll_ssm_ae"]), ("ae_prob", ["ae_prob", "ll_ae_prob"]),
    ("ae_z_mean", ["ae_z_mean", "ll_ae_z_mean"]), ("avul_prob", ["avul_prob", "ll_avul_prob"]), ("avul", ["avul", "ll_avul"])]

/-- Options of the section `hydraulics` and their old names. -/
def hydraulicsNames : List (String × List String) :=
  [("hydrofacies", ["hydro", "l_hydro"]), ("k_h", ["k_h", "r_k_h"]), ("sig_y", ["sig_y", "r_sig_y"]), ("k_ratio", ["k_ratio", "r_k_ratio"]), ("n", ["n", "r_n"]),
    ("sig_n", ["sig_n", "r_sig_n"]), ("ycorlengths", ["ycorlengths", "ll_ycorlengths"]), ("ncorlengths", ["ncorlengths", "ll_ncorlengths"]),
    ("k_ztrend", ["k_ztrend", "r_k_ztrend"]), ("k_xtrend", ["k_xtrend", "r_k_xtrend"]), ("n_ztrend", ["n_ztrend", "r_n_ztrend"]),
    ("n_xtrend", ["n_xtrend", "r_n_xtrend"])]

/-- Options of sheets and troughs and their old names. -/
def elementNames : List (String × List String) :=
  [("structure", ["structure"]), ("size_ztrend", ["geo_ztrend", "r_geo_ztrend"]), ("k_ztrend", ["k_ztrend", "r_k_ztrend"]),
    ("k_xtrend", ["k_xtrend", "r_k_xtrend"]), ("dip", ["dip", "r_dip"]), ("azimuth", ["azimuth", "r_azimuth"]), ("dipset_dist", ["dipset_d"])]

/-- Options of sheets only and their old names. -/
def sheetNames : List (String × List String) := [("lens_thickness", ["lens_thickness"])]

/-- Options of troughs only and their old names. -/
def troughNames : List (String × List String) :=
  [("agg", ["agg"]), ("buffer", ["buffer"]), ("width", ["width"]), ("depth", ["depth"]), ("length", ["length"]), ("trough_density", ["el_z"]),
    ("paleoflow", ["paleoflow", "r_paleoflow"]), ("bulbset_dist", ["bulbset_d"]), ("te_xyz", ["te_xyz", "ll_te_xyz"]), ("migrate", ["migrate", "r_migrate"])]

/-- An element section of the new format says the same as one of the old format. Options that are written differently in the two formats are compared
after parsing (`x` for the old section, `y` for the new one). Facies are numbers in the old format. A background needs equal azimuth and dip, since the
conversion of old files confuses them (C51). -/
structure SameSection (old new x : Dict) (y : Element) : Prop where
  options : Renames elementNames old new
  geometry : (written old "geometry" "sheet" ∧ written new "geometry" "sheet" ∧ Renames sheetNames old new) ∨
    (written old "geometry" "trunc_ellip" ∧ written new "geometry" "trough" ∧ Renames troughNames old new ∧
      ((x "lag" = some (.leaf .none) ∧ y.dict "lag_height" = some (.leaf (.num 0)) ∧ y.dict "lag_facies" = some (.leaf (.num (-1)))) ∨
        ∃ h f, x "lag" = some (.node [h, f]) ∧ y.dict "lag_height" = some h ∧ y.dict "lag_facies" = some f))
  facies : y.dict "facies" = x "facies"
  altfacies : y.dict "altfacies" = x "altfacies"
  background : (x "bg" = some (.leaf .none) ∧ y.dict "bg_facies" = some (.leaf (.num (-1))) ∧ y.dict "bg_azim" = some (.leaf .nan) ∧
      y.dict "bg_dip" = some (.leaf .nan)) ∨
    ∃ f a, x "bg" = some (.node [f, a, a]) ∧ y.dict "bg_facies" = some f ∧ y.dict "bg_azim" = some a ∧ y.dict "bg_dip" = some a
  contact : ∃ mode, x "contact" = some (.leaf (.text mode)) ∧ OldContact mode none (x "contact_model") y.contact

/-- The new-format ini-file `q`, read as `Q`, says the same as the old-format ini-file `p`, read as `o`: it has the same elements; options are written the
same under the new names; options that are written differently in the two formats stand for the same values. -/
structure Translation (p : Ini) (o : OldParsed) (q : Ini) (Q : Parsed) : Prop where
  model : Renames modelNames (p.get "model") (q.get "model")
  hydraulicsOn : q.get "model" "hydraulics" = firstOf (p.get "hydraulics") ["gen", "flag_gen"]
  heterogeneity : q.get "model" "heterogeneity" = firstOf (p.get "run") ["het", "flag_het"]
  strata : Renames strataNames (p.get "strata") (q.get "strata")
  background : ∃ (names : List Val) (f : ℤ) (a x : Val), o.strata "ssm" = some (.node names) ∧ o.strata "bg" = some (.node [.leaf (.num f), a, x]) ∧
    Q.strata "bg_facies" = some (.node (List.replicate names.length (.leaf (.num f)))) ∧
    Q.strata "bg_azim" = some (.node (List.replicate names.length a)) ∧ Q.strata "bg_dip" = some (.node (List.replicate names.length x))
  contacts : ∀ (i : ℕ) c, Q.contacts[i]? = some c → ∃ mode tops z, o.strata "ssm_contact" = some (.leaf (.text mode)) ∧ o.strata "ssm_top" = some tops ∧
    entry tops i = some (.leaf z) ∧ OldContact mode (some z) ((o.strata "ssm_contact_model").bind fun v => entry v i) c
  hydraulics : Renames hydraulicsNames (p.get "hydraulics") (q.get "hydraulics")
  names : ∃ ts : List (List Char), o.hydraulics "hydro" = some (.node (ts.map fun t => .leaf (.text t)))
  sections : elementSections q = oldElementSections p
  elements : ∀ s x y, (s, x) ∈ o.elements → (s, y) ∈ Q.elements → SameSection (p.get s) (q.get s) x y

end Hyvr.Spec

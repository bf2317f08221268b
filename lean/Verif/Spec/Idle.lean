import Verif.Model.IniFile

/-!
The options that a realisation uses (C110).
-/

namespace Hyvr.Spec

/-- Options of the section `model` that a realisation uses: all documented ones but `anisotropy`. -/
def modelUsed : List String := ["x0", "y0", "z0", "dx", "dy", "dz", "lx", "ly", "lz", "periodic", "hydraulics", "heterogeneity", "heterogeneity_level"]

/-- Options of the section `strata` that a realisation uses: all documented ones. -/
def strataUsed : List String :=
  ["strata", "strata_contact_models", "ae", "ae_in_strata", "ae_prob", "ae_z_mean", "avul_prob", "avul", "bg_facies", "bg_azim", "bg_dip"]

/-- Options of the section `hydraulics` that a realisation uses: all documented ones and `hydro`. -/
def hydraulicsUsed : List String :=
  ["hydrofacies", "k_h", "sig_y", "k_ratio", "n", "sig_n", "ycorlengths", "ncorlengths", "k_ztrend", "k_xtrend", "n_ztrend", "n_xtrend", "hydro"]

/-- Options of all element sections that a realisation uses: all documented ones but `n_ztrend` and `n_xtrend`. -/
def commonUsed : List String :=
  ["geometry", "contact_model", "facies", "altfacies", "size_ztrend", "k_ztrend", "k_xtrend", "dip", "azimuth", "bg_facies", "bg_azim", "bg_dip", "structure",
    "dipset_dist"]

/-- Options of sections of troughs and channels that a realisation uses: all documented ones but `lag`. -/
def erosiveUsed : List String := ["agg", "buffer", "lag_height", "lag_facies", "width", "depth"]

/-- Options that a realisation uses of a section of each geometry. -/
def elementUsed (geometry : List Char) : List String :=
  if geometry = "trough".toList then commonUsed ++ erosiveUsed ++ ["bulbset_dist", "length", "trough_density", "paleoflow", "te_xyz", "migrate"]
  else if geometry = "channel".toList then commonUsed ++ erosiveUsed ++ ["h", "k", "ds", "eps_factor", "channel_no", "mig", "flow_angle"]
  else commonUsed ++ ["lens_thickness"]

/-- A realisation uses option `k` of section `s`. -/
inductive Used (p : Ini) : String → String → Prop
  | model {k : String} : k ∈ modelUsed → Used p "model" k
  | strata {k : String} : k ∈ strataUsed → Used p "strata" k
  | hydraulics {k : String} : k ∈ hydraulicsUsed → Used p "hydraulics" k
  | element {s : String} {g : List Char} {k : String} : s ∈ elementSections p → p.get s "geometry" = some (.leaf (.text g)) → k ∈ elementUsed g → Used p s k

/-- Two ini-files that have the same element sections and write the same in the options that a realisation uses. -/
structure SameUsed (p p' : Ini) : Prop where
  sections : elementSections p = elementSections p'
  options : ∀ s k, Used p s k → p.get s k = p'.get s k

end Hyvr.Spec

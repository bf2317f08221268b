import Verif.Model.Options

/-!
The options of the sections of an ini-file, hyvr/input/options.py (new format) and hyvr/input/options_deprecated.py (old
format). Default numbers are exact; `float('NaN')` is the value `nan`.
-/

namespace Hyvr

open Py

/-- Python's converters `int` and `float`, about which nothing is assumed. hyvr/input/options.py:24-171. -/
structure Convs where
  int : List Char → Except PyErr Atom
  float : List Char → Except PyErr Atom

/-- The converter `str`: keeps the text. hyvr/input/options.py:29. -/
def Convs.str (_ : Convs) (s : List Char) : Except PyErr Atom := .ok (.text s)

/-- The validation functions `lambda x: x in [...]`. hyvr/input/options.py:33. -/
def oneOf (l : List String) (a : Atom) : Bool := l.any fun s => decide (a = .text s.toList)

/-! ### New format -/

/-- `options['run']`. hyvr/input/options.py:28-35. -/
def optsRun (C : Convs) : List Opt :=
  [
    { name := "runname", kind := .scalar C.str, isOptional := true },
    { name := "modeldir", kind := .scalar C.str, isOptional := true },
    { name := "numsim", kind := .scalar C.int, isOptional := true, default := .leaf (.num 1) },
    { name := "outputs", kind := .list C.str (.dims [.num (-1)]), isOptional := true, default := .node [], valid := oneOf ["vtr", "py", "mat", "npz", "h5", "mf", "mf6", "hgs"] },
    { name := "overwrite_old_output", kind := .bool, isOptional := true, default := .leaf (.bool false) }]

/-- `options['model']`. hyvr/input/options.py:40-56. -/
def optsModel (C : Convs) : List Opt :=
  [
    { name := "x0", kind := .scalar C.float, isOptional := true, default := .leaf (.num 0) },
    { name := "y0", kind := .scalar C.float, isOptional := true, default := .leaf (.num 0) },
    { name := "z0", kind := .scalar C.float, isOptional := true, default := .leaf (.num 0) },
    { name := "dx", kind := .scalar C.float },
    { name := "dy", kind := .scalar C.float, isOptional := true },
    { name := "dz", kind := .scalar C.float, isOptional := true },
    { name := "lx", kind := .scalar C.float },
    { name := "ly", kind := .scalar C.float },
    { name := "lz", kind := .scalar C.float },
    { name := "periodic", kind := .bool, isOptional := true, default := .leaf (.bool false) },
    { name := "hydraulics", kind := .bool, isOptional := true, default := .leaf (.bool true) },
    { name := "anisotropy", kind := .bool, isOptional := true, default := .leaf (.bool true) },
    { name := "heterogeneity", kind := .bool, isOptional := true, default := .leaf (.bool true) },
    { name := "heterogeneity_level", kind := .scalar C.str, isOptional := true, default := .leaf (.text "internal".toList), valid := oneOf ["facies", "internal"] }]

/-- `options['strata']`. hyvr/input/options.py:61-73. -/
def optsStrata (C : Convs) : List Opt :=
  [
    { name := "strata", kind := .list C.str (.dims [.num (-1)]) },
    { name := "strata_contact_models", kind := .list C.str (.dims [.num (-1), .num (-1)]) },
    { name := "ae", kind := .list C.str (.dims [.num (-1)]) },
    { name := "ae_in_strata", kind := .list C.str (.dims [.len "strata", .num (-1)]) },
    { name := "ae_prob", kind := .list C.float (.same "ae_in_strata") },
    { name := "ae_z_mean", kind := .list C.float (.same "ae_in_strata") },
    { name := "avul_prob", kind := .list C.float (.dims [.len "strata", .num 1]) },
    { name := "avul", kind := .list C.float (.dims [.len "strata", .num 2]) },
    { name := "bg_facies", kind := .list C.str (.same "strata") },
    { name := "bg_azim", kind := .list C.float (.same "strata") },
    { name := "bg_dip", kind := .list C.float (.same "strata") }]

/-- `element_options`. hyvr/input/options.py:78-95. -/
def optsElement (C : Convs) : List Opt :=
  [
    { name := "geometry", kind := .scalar C.str, valid := oneOf ["trough", "channel", "sheet"] },
    { name := "contact_model", kind := .list C.str (.dims [.num (-1)]), isOptional := true },
    { name := "facies", kind := .list C.str (.dims [.num (-1)]) },
    { name := "altfacies", kind := .list C.str (.dims [.len "facies", .num (-1)]), isOptional := true },
    { name := "size_ztrend", kind := .list C.float (.num 2), isOptional := true },
    { name := "k_ztrend", kind := .list C.float (.num 2), isOptional := true },
    { name := "k_xtrend", kind := .list C.float (.num 2), isOptional := true },
    { name := "n_xtrend", kind := .list C.float (.num 2), isOptional := true },
    { name := "n_ztrend", kind := .list C.float (.num 2), isOptional := true },
    { name := "dip", kind := .list C.float (.num 2), isOptional := true, default := .node [.leaf (.num 0), .leaf (.num 0)] },
    { name := "azimuth", kind := .list C.float (.num 2), isOptional := true, default := .node [.leaf (.num 0), .leaf (.num 0)] },
    { name := "bg_facies", kind := .scalar C.str, isOptional := true },
    { name := "bg_azim", kind := .scalar C.float, isOptional := true, default := .leaf .nan },
    { name := "bg_dip", kind := .scalar C.float, isOptional := true, default := .leaf .nan }]

/-- `erosive_element_options`. hyvr/input/options.py:97-103. -/
def optsErosive (C : Convs) : List Opt :=
  [
    { name := "agg", kind := .scalar C.float },
    { name := "buffer", kind := .scalar C.float, isOptional := true, default := .leaf (.num 0) },
    { name := "lag", kind := .list C.float (.num 2), isOptional := true },
    { name := "lag_height", kind := .scalar C.float, isOptional := true, default := .leaf (.num 0) },
    { name := "lag_facies", kind := .scalar C.str, isOptional := true }]

/-- `options['sheet']`. hyvr/input/options.py:105-110. -/
def optsSheet (C : Convs) : List Opt :=
  optsElement C ++ [
    { name := "structure", kind := .scalar C.str, valid := oneOf ["massive", "dip"] },
    { name := "dipset_dist", kind := .scalar C.float, isOptional := true },
    { name := "lens_thickness", kind := .scalar C.float }]

/-- `options['trough']`. hyvr/input/options.py:113-125. -/
def optsTrough (C : Convs) : List Opt :=
  optsElement C ++ optsErosive C ++ [
    { name := "structure", kind := .scalar C.str, valid := oneOf ["massive", "dip", "bulb", "bulb_sets", "random", "flat"] },
    { name := "dipset_dist", kind := .scalar C.float, isOptional := true },
    { name := "bulbset_dist", kind := .scalar C.float, isOptional := true },
    { name := "length", kind := .scalar C.float },
    { name := "width", kind := .scalar C.float },
    { name := "depth", kind := .scalar C.float },
    { name := "trough_density", kind := .scalar C.float },
    { name := "paleoflow", kind := .list C.float (.num 2) },
    { name := "te_xyz", kind := .list C.float (.dims [.num (-1), .num 3]), isOptional := true },
    { name := "migrate", kind := .list C.float (.num 4), isOptional := true }]

/-- `options['channel']`. hyvr/input/options.py:128-141. -/
def optsChannel (C : Convs) : List Opt :=
  optsElement C ++ optsErosive C ++ [
    { name := "structure", kind := .scalar C.str, valid := oneOf ["massive", "dip"] },
    { name := "dipset_dist", kind := .scalar C.float, isOptional := true },
    { name := "width", kind := .scalar C.float },
    { name := "depth", kind := .scalar C.float },
    { name := "h", kind := .scalar C.float },
    { name := "k", kind := .scalar C.float },
    { name := "ds", kind := .scalar C.float },
    { name := "eps_factor", kind := .scalar C.float },
    { name := "channel_no", kind := .scalar C.int },
    { name := "mig", kind := .scalar C.float, isOptional := true, default := .leaf (.num 0) },
    { name := "flow_angle", kind := .scalar C.float, isOptional := true, default := .leaf (.num 0) }]

/-- `options['hydraulics']`. hyvr/input/options.py:146-159. -/
def optsHydraulics (C : Convs) : List Opt :=
  [
    { name := "hydrofacies", kind := .list C.str (.dims [.num (-1)]) },
    { name := "k_h", kind := .list C.float (.same "hydrofacies") },
    { name := "sig_y", kind := .list C.float (.same "hydrofacies") },
    { name := "k_ratio", kind := .list C.float (.same "hydrofacies") },
    { name := "n", kind := .list C.float (.same "hydrofacies") },
    { name := "sig_n", kind := .list C.float (.same "hydrofacies") },
    { name := "ycorlengths", kind := .list C.float (.dims [.len "hydrofacies", .num 3]) },
    { name := "ncorlengths", kind := .list C.float (.dims [.len "hydrofacies", .num 3]) },
    { name := "k_ztrend", kind := .list C.float (.num 2), isOptional := true },
    { name := "k_xtrend", kind := .list C.float (.num 2), isOptional := true },
    { name := "n_ztrend", kind := .list C.float (.num 2), isOptional := true },
    { name := "n_xtrend", kind := .list C.float (.num 2), isOptional := true }]

/-- `options['flowtrans']`. hyvr/input/options.py:164-171. -/
def optsFlowtrans (C : Convs) : List Opt :=
  [
    { name := "hin", kind := .list C.float (.num 3), isOptional := true },
    { name := "hout", kind := .list C.float (.num 3), isOptional := true },
    { name := "gradh", kind := .scalar C.float, isOptional := true },
    { name := "q_in", kind := .scalar C.float, isOptional := true },
    { name := "kw_gradh", kind := .scalar C.float, isOptional := true },
    { name := "kw_q_in", kind := .scalar C.float, isOptional := true }]

/-! ### Old format -/

/-- `options['run']`. hyvr/input/options_deprecated.py:17-32. -/
def oldOptsRun (C : Convs) : List Opt :=
  [
    { name := "runname", kind := .scalar C.str, isOptional := true },
    { name := "modeldir", kind := .scalar C.str, isOptional := true },
    { name := "numsim", kind := .scalar C.int, isOptional := true, default := .leaf (.num 1) },
    { name := "anisotropy", kind := .bool, isOptional := true, default := .leaf (.bool true), alternatives := ["flag_anisotropy"] },
    { name := "het", kind := .bool, isOptional := true, default := .leaf (.bool true), alternatives := ["flag_het"] },
    { name := "dataoutputs", kind := .list C.str (.dims [.num (-1)]), isOptional := true, default := .node [], valid := oneOf ["vtr", "py", "mat", "npz", "h5"], alternatives := ["l_dataoutputs"] },
    { name := "modeloutputs", kind := .list C.str (.dims [.num (-1)]), isOptional := true, default := .node [], valid := oneOf ["mf", "mf6", "hgs"], alternatives := ["l_modeloutputs"] },
    { name := "flag_ow", kind := .bool, isOptional := true, default := .leaf (.bool false) }]

/-- `options['model']`. hyvr/input/options_deprecated.py:37-53. -/
def oldOptsModel (C : Convs) : List Opt :=
  [
    { name := "x0", kind := .scalar C.float, isOptional := true, default := .leaf (.num 0) },
    { name := "y0", kind := .scalar C.float, isOptional := true, default := .leaf (.num 0) },
    { name := "z0", kind := .scalar C.float, isOptional := true, default := .leaf (.num 0) },
    { name := "dx", kind := .scalar C.float },
    { name := "dy", kind := .scalar C.float, isOptional := true },
    { name := "dz", kind := .scalar C.float, isOptional := true },
    { name := "lx", kind := .scalar C.float },
    { name := "ly", kind := .scalar C.float },
    { name := "lz", kind := .scalar C.float },
    { name := "periodic", kind := .bool, isOptional := true, default := .leaf (.bool false), alternatives := ["flag_periodic"] },
    { name := "display", kind := .bool, isOptional := true, default := .leaf (.bool false), alternatives := ["flag_display"] },
    { name := "hetlev", kind := .scalar C.str, valid := oneOf ["ae", "facies", "internal"] }]

/-- `options['strata']`. hyvr/input/options_deprecated.py:58-82. -/
def oldOptsStrata (C : Convs) : List Opt :=
  [
    { name := "ssm", kind := .list C.str (.dims [.num (-1)]), alternatives := ["l_ssm", "l_seq"] },
    { name := "ssm_top", kind := .list C.float (.same "ssm"), alternatives := ["r_ssm_top"] },
    { name := "ssm_contact_model", kind := .list C.float (.dims [.len "ssm", .num 3]), isOptional := true, alternatives := ["ll_ssm_contact_model"] },
    { name := "ssm_contact", kind := .scalar C.str, isOptional := true, default := .leaf (.text "flat".toList), valid := oneOf ["flat", "random", "user"] },
    { name := "ae_table", kind := .scalar C.str, isOptional := true },
    { name := "save_aelu", kind := .bool, isOptional := true, default := .leaf (.bool false) },
    { name := "ae", kind := .list C.str (.dims [.num (-1)]), alternatives := ["l_ae"] },
    { name := "ssm_ae", kind := .list C.str (.dims [.len "ssm", .num (-1)]), alternatives := ["ll_ssm_ae"] },
    { name := "ae_prob", kind := .list C.float (.same "ssm_ae"), alternatives := ["ll_ae_prob"] },
    { name := "ae_z_mean", kind := .list C.float (.same "ssm_ae"), alternatives := ["ll_ae_z_mean"] },
    { name := "avul_prob", kind := .list C.float (.dims [.len "ssm", .num 1]), alternatives := ["ll_avul_prob"] },
    { name := "avul", kind := .list C.float (.dims [.len "ssm", .num 2]), alternatives := ["ll_avul"] },
    { name := "bg", kind := .list C.float (.num 3) }]

/-- `element_options`. hyvr/input/options_deprecated.py:87-110. -/
def oldOptsElement (C : Convs) : List Opt :=
  [
    { name := "geometry", kind := .scalar C.str, valid := oneOf ["trunc_ellip", "ext_par", "sheet"] },
    { name := "structure", kind := .scalar C.str },
    { name := "contact", kind := .scalar C.str, valid := oneOf ["flat", "random"] },
    { name := "contact_model", kind := .list C.float (.dims [.num 3]), isOptional := true, alternatives := ["r_contact_model"] },
    { name := "facies", kind := .list C.int (.dims [.num (-1)]), alternatives := ["l_facies"] },
    { name := "altfacies", kind := .list C.int (.dims [.len "facies", .num (-1)]), isOptional := true, alternatives := ["ll_altfacies"] },
    { name := "geo_ztrend", kind := .list C.float (.num 2), isOptional := true, alternatives := ["r_geo_ztrend"] },
    { name := "k_ztrend", kind := .list C.float (.num 2), isOptional := true, alternatives := ["r_k_ztrend"] },
    { name := "k_xtrend", kind := .list C.float (.num 2), isOptional := true, alternatives := ["r_k_xtrend"] },
    { name := "n_xtrend", kind := .list C.float (.num 2), isOptional := true, alternatives := ["r_n_xtrend"] },
    { name := "n_ztrend", kind := .list C.float (.num 2), isOptional := true, alternatives := ["r_n_ztrend"] },
    { name := "bg", kind := .list C.float (.num 3), isOptional := true }]

/-- `erosive_element_options`. hyvr/input/options_deprecated.py:112-123. -/
def oldOptsErosive (C : Convs) : List Opt :=
  [
    { name := "agg", kind := .scalar C.float },
    { name := "buffer", kind := .scalar C.float, isOptional := true, default := .leaf (.num 0) },
    { name := "dipset_d", kind := .scalar C.float, isOptional := true },
    { name := "migrate", kind := .list C.float (.num 4), isOptional := true, alternatives := ["r_migrate"] },
    { name := "lag", kind := .list C.float (.num 2), isOptional := true, alternatives := ["r_lag"] },
    { name := "dip", kind := .list C.float (.num 2), alternatives := ["r_dip"] }]

/-- `options['sheet']`. hyvr/input/options_deprecated.py:125-134. -/
def oldOptsSheet (C : Convs) : List Opt :=
  oldOptsElement C ++ [
    { name := "structure", kind := .scalar C.str, valid := oneOf ["massive", "dip"] },
    { name := "lens_thickness", kind := .scalar C.float },
    { name := "dipset_d", kind := .scalar C.float, isOptional := true },
    { name := "dip", kind := .list C.float (.num 2), isOptional := true, default := .node [.leaf (.num 0), .leaf (.num 0)], alternatives := ["r_dip"] },
    { name := "azimuth", kind := .list C.float (.num 2), isOptional := true, default := .node [.leaf (.num 0), .leaf (.num 0)], alternatives := ["r_azimuth"] }]

/-- `options['trunc_ellip']`. hyvr/input/options_deprecated.py:137-151. -/
def oldOptsTruncEllip (C : Convs) : List Opt :=
  oldOptsElement C ++ oldOptsErosive C ++ [
    { name := "structure", kind := .scalar C.str, valid := oneOf ["massive", "dip", "bulb", "bulb_l", "random", "flat"] },
    { name := "length", kind := .scalar C.float },
    { name := "width", kind := .scalar C.float },
    { name := "depth", kind := .scalar C.float },
    { name := "el_z", kind := .scalar C.float },
    { name := "paleoflow", kind := .list C.float (.num 2), alternatives := ["r_paleoflow"] },
    { name := "azimuth", kind := .list C.float (.num 2), alternatives := ["r_azimuth"] },
    { name := "bulbset_d", kind := .scalar C.float, isOptional := true },
    { name := "te_xyz", kind := .list C.float (.dims [.num (-1), .num 3]), isOptional := true, alternatives := ["ll_te_xyz"] }]

/-- `options['ext_par']`. hyvr/input/options_deprecated.py:154-164. -/
def oldOptsExtPar (C : Convs) : List Opt :=
  oldOptsElement C ++ oldOptsErosive C ++ [
    { name := "structure", kind := .scalar C.str, valid := oneOf ["massive", "dip"] },
    { name := "width", kind := .scalar C.float },
    { name := "depth", kind := .scalar C.float },
    { name := "h", kind := .scalar C.float },
    { name := "k", kind := .scalar C.float },
    { name := "ds", kind := .scalar C.float },
    { name := "eps_factor", kind := .scalar C.float },
    { name := "channel_no", kind := .scalar C.float }]

/-- `options['hydraulics']`. hyvr/input/options_deprecated.py:169-195. -/
def oldOptsHydraulics (C : Convs) : List Opt :=
  [
    { name := "gen", kind := .bool, isOptional := true, default := .leaf (.bool true), alternatives := ["flag_gen"] },
    { name := "hydro", kind := .list C.str (.dims [.num (-1)]), alternatives := ["l_hydro"] },
    { name := "k_h", kind := .list C.float (.same "hydro"), alternatives := ["r_k_h"] },
    { name := "sig_y", kind := .list C.float (.same "hydro"), alternatives := ["r_sig_y"] },
    { name := "k_ratio", kind := .list C.float (.same "hydro"), alternatives := ["r_k_ratio"] },
    { name := "n", kind := .list C.float (.same "hydro"), alternatives := ["r_n"] },
    { name := "sig_n", kind := .list C.float (.same "hydro"), alternatives := ["r_sig_n"] },
    { name := "ycorlengths", kind := .list C.float (.dims [.len "hydro", .num 3]), alternatives := ["ll_ycorlengths"] },
    { name := "ncorlengths", kind := .list C.float (.dims [.len "hydro", .num 3]), alternatives := ["ll_ncorlengths"] },
    { name := "k_ztrend", kind := .list C.float (.num 2), isOptional := true, alternatives := ["r_k_ztrend"] },
    { name := "k_xtrend", kind := .list C.float (.num 2), isOptional := true, alternatives := ["r_k_xtrend"] },
    { name := "n_ztrend", kind := .list C.float (.num 2), isOptional := true, alternatives := ["r_n_ztrend"] },
    { name := "n_xtrend", kind := .list C.float (.num 2), isOptional := true, alternatives := ["r_n_xtrend"] }]

/-- `options['flowtrans']`. hyvr/input/options_deprecated.py:200-207. -/
def oldOptsFlowtrans (C : Convs) : List Opt :=
  [
    { name := "hin", kind := .list C.float (.num 3), isOptional := true },
    { name := "hout", kind := .list C.float (.num 3), isOptional := true },
    { name := "gradh", kind := .scalar C.float, isOptional := true },
    { name := "q_in", kind := .scalar C.float, isOptional := true },
    { name := "kw_gradh", kind := .scalar C.float, isOptional := true },
    { name := "kw_q_in", kind := .scalar C.float, isOptional := true }]

end Hyvr

{
 "claims": [
  {
   "property": "C01",
   "status": "proved",
   "theorems": [
    "Hyvr.C01_axes",
    "Hyvr.C01_counts",
    "Hyvr.C01_inside"
   ],
   "note": "Axis arrays are the cell centres, for exact reals; counts equal the requested cell numbers; centres inside the box."
  },
  {
   "property": "C02",
   "status": "proved",
   "theorems": [
    "Hyvr.C02_unique_cell",
    "Hyvr.C02_meshgrid",
    "Hyvr.C02_centered"
   ],
   "note": "Every interior coordinate is in exactly one half-open cell; coordinate arrays agree with the axes."
  },
  {
   "property": "C03",
   "status": "proved",
   "theorems": [
    "Hyvr.C03_lower",
    "Hyvr.C03_higher",
    "Hyvr.C03_succeeds",
    "Hyvr.C03_idempotent"
   ],
   "note": ""
  },
  {
   "property": "C04",
   "status": "proved",
   "theorems": [
    "Hyvr.C04_bounds",
    "Hyvr.C04_attained"
   ],
   "note": ""
  },
  {
   "property": "C05",
   "status": "proved",
   "theorems": [
    "Hyvr.C05_strata"
   ],
   "note": ""
  },
  {
   "property": "C06",
   "status": "proved",
   "theorems": [
    "Hyvr.C06_aes",
    "Hyvr.C06_surfaces_kept"
   ],
   "note": ""
  },
  {
   "property": "C07",
   "status": "partial",
   "theorems": [
    "Hyvr.C07_top_partial",
    "Hyvr.C07_top_refuted",
    "Hyvr.C07_cells_above"
   ],
   "note": "The code puts the model top at lz instead of z0+lz: true exactly for z0 = 0. C07_cells_above shows the consequence: if all elements are unlayered sheets, every cell above lz is left without AE, in every realisation."
  },
  {
   "property": "C08",
   "status": "proved",
   "theorems": [
    "Hyvr.C08_terminates",
    "Hyvr.C08_count",
    "Hyvr.C08_count_ceil",
    "Hyvr.C08_diverges"
   ],
   "note": ""
  },
  {
   "property": "C09",
   "status": "proved",
   "theorems": [
    "Hyvr.C09_extents",
    "Hyvr.C09_skip"
   ],
   "note": ""
  },
  {
   "property": "C10",
   "status": "proved",
   "theorems": [
    "Hyvr.C10_consistent"
   ],
   "note": ""
  },
  {
   "property": "C100",
   "status": "proved",
   "theorems": [
    "Hyvr.C100_elements"
   ],
   "note": "New-format ini-files. Normal and uniform random numbers are arguments (uniform in [0,1)); random fields, facies of sheets and objects of troughs and channels are arbitrary."
  },
  {
   "property": "C101",
   "status": "proved",
   "theorems": [
    "Hyvr.C101_count",
    "Hyvr.C101_types",
    "Hyvr.C101_bottoms",
    "Hyvr.C101_ini"
   ],
   "note": "C101_ini for new-format ini-files, the others for any input of generate_model."
  },
  {
   "property": "C102",
   "status": "partial",
   "theorems": [
    "Hyvr.C102_cells_partial",
    "Hyvr.C102_declared_partial",
    "Hyvr.C28_refuted"
   ],
   "note": "Proved for every cell except those for which the layer index falls outside of the table of layers; that is possible for sheets and channels with structure dip and for layered troughs without positive sizes or with a trend. Missing: those cells; the code then reads what lies beside the table (C28_refuted, C33)."
  },
  {
   "property": "C103",
   "status": "proved",
   "theorems": [
    "Hyvr.C103_declared",
    "Hyvr.C103_dips"
   ],
   "note": ""
  },
  {
   "property": "C104",
   "status": "proved",
   "theorems": [
    "Hyvr.C104_no_exception",
    "Hyvr.C104_finishes"
   ],
   "note": "The conditions are on the parsed ini-file and on the texts of list options (Spec.Placeable, Spec.WellFilled, Spec.ThickEnough). Dipping sheets (C33), channels with a trend (C70) and missing layer distances are excluded because the code can raise for them."
  },
  {
   "property": "C105",
   "status": "proved",
   "theorems": [
    "Hyvr.C105_troughs"
   ],
   "note": "Periodic copies are claimed for troughs smaller than the domain whose centre is at most one and a half lengths away; levels for a positive agg."
  },
  {
   "property": "C106",
   "status": "proved",
   "theorems": [
    "Hyvr.C106_channels"
   ],
   "note": "Cells that the distance test skips are given by an argument of the model (C30); centrelines for |h| <= 1."
  },
  {
   "property": "C107",
   "status": "proved",
   "theorems": [
    "Hyvr.C107_sheets"
   ],
   "note": "For lens_thickness times factor > 0; otherwise generation does not end (C33, C70 family)."
  },
  {
   "property": "C108",
   "status": "proved",
   "theorems": [
    "Hyvr.C108_no_exception",
    "Hyvr.C108_finishes",
    "Hyvr.C108_facies"
   ],
   "note": "From the accepted ini-file to the hydraulic parameters of one realisation; sections with possible stray reads (see C102) are excluded in the statement."
  },
  {
   "property": "C109",
   "status": "partial",
   "theorems": [
    "Hyvr.C109_partial",
    "Hyvr.C109_positive",
    "Hyvr.C109_background",
    "Hyvr.C109_refuted",
    "Hyvr.C109_cell_refuted"
   ],
   "note": "Holds for cells with ha other than 0 and for all cells of an AE whose facies is the background facies of the AE; refuted for all models: cells in objects have ha 0 and get the parameters of the AE's background facies. C109_cell_refuted is a cell of a concrete ini-file."
  },
  {
   "property": "C11",
   "status": "proved",
   "theorems": [
    "Hyvr.C11_monotone"
   ],
   "note": "AE number part needs ordered numbering, which C17 proves for generated models"
  },
  {
   "property": "C110",
   "status": "proved",
   "theorems": [
    "Hyvr.C110_unused",
    "Hyvr.C110_documented"
   ],
   "note": "Noninterference for all pairs of accepted new-format ini-files."
  },
  {
   "property": "C111",
   "status": "proved",
   "theorems": [
    "Hyvr.C111_complete",
    "Hyvr.C111_interrupted",
    "Hyvr.C111_alone"
   ],
   "note": "The writers are arbitrary functions of the realisation; stray reads are excluded as in C108."
  },
  {
   "property": "C112",
   "status": "proved",
   "theorems": [
    "Hyvr.C112_success",
    "Hyvr.C112_failure",
    "Hyvr.C112_rejected",
    "Hyvr.C112_complete"
   ],
   "note": "argparse and signals are not modelled."
  },
  {
   "property": "C113",
   "status": "proved",
   "theorems": [
    "Hyvr.C113_same",
    "Hyvr.C113_no_exception",
    "Hyvr.C113_finishes"
   ],
   "note": "Restricted as stated: heterogeneity on (off always fails in the new format, C36), sheets and truncated ellipsoids (old channels never become channels, C51_channel_refuted), element backgrounds with equal azimuth and dip (C51_refuted)."
  },
  {
   "property": "C114",
   "status": "partial",
   "theorems": [
    "Hyvr.C114_fine_partial",
    "Hyvr.C114_choice",
    "Hyvr.C114_no_exception"
   ],
   "note": "equal to testing every cell for dy <= 1 (C114_fine_partial); for any dy equal to some choice of tests left out (C114_choice), hence no exception for well-formed ini-files (C114_no_exception). For dy > 1 a skipped test can matter (C27_refuted)."
  },
  {
   "property": "C115",
   "status": "proved",
   "theorems": [
    "Hyvr.C115_parsed",
    "Hyvr.C115_run"
   ],
   "note": "defaults as documented in docs/inout.rst; same parameters or same exception; runs equal with the text of the backup as a parameter. The default of runname is C53."
  },
  {
   "property": "C116",
   "status": "proved",
   "theorems": [
    "Hyvr.C116_files",
    "Hyvr.C116_refuted"
   ],
   "note": "Complete runs with the writers of output.py; the libraries that write files are arbitrary functions that accept consistent input. C116_refuted: without the condition on hydraulics (option off, hgs or mf6 listed) an accepted ini-file ends in a KeyError. Directories that writers make are not modelled, only files."
  },
  {
   "property": "C117",
   "status": "partial",
   "theorems": [
    "Hyvr.C117_partial",
    "Hyvr.C117_refuted"
   ],
   "note": "Refuted for the documented names fac and ani_rat: the arrays are called facies and anirat."
  },
  {
   "property": "C118",
   "status": "proved",
   "theorems": [
    "Hyvr.C118_sheets",
    "Hyvr.C118_strata",
    "Hyvr.C118_cake"
   ],
   "note": "For domains with z0 <= 0 (C07: the model top is at lz; with z0 > 0 the uppermost cells are above it). Example: exCake in Props/Cake.lean, with realisations, 4 of 10 cell layers in the lower stratum."
  },
  {
   "property": "C119",
   "status": "partial",
   "theorems": [
    "Hyvr.C119_tensor",
    "Hyvr.C119_axes",
    "Hyvr.C119_partial",
    "Hyvr.C119_refuted"
   ],
   "note": "Proved for dx = dy and whole layers (half a turn about the x-axis and a shift). C119_refuted: for dx other than dy no map that keeps distances takes the cells to those of MODFLOW 6, as widths of rows and columns are exchanged."
  },
  {
   "property": "C12",
   "status": "proved",
   "theorems": [
    "Hyvr.C12_memoryless",
    "Hyvr.C12_unordered_refuted"
   ],
   "note": "C12_unordered_refuted shows that the ordering condition is needed"
  },
  {
   "property": "C120",
   "status": "proved",
   "theorems": [
    "Hyvr.C120_realisation",
    "Hyvr.C120_run"
   ],
   "note": "Ini-files in the new format. Which exception is raised for a file with several mistakes may depend on the order of its sections; that both fail is part of the theorem. The order of the options inside a section is not part of the model of a ConfigParser."
  },
  {
   "property": "C121",
   "status": "partial",
   "theorems": [
    "Hyvr.C121_partial",
    "Hyvr.C121_tensor",
    "Hyvr.C121_mirror",
    "Hyvr.C121_dip_refuted",
    "Hyvr.C121_width_refuted"
   ],
   "note": "For cells as long as wide, and heights that are whole numbers of cells, the MODFLOW-2005 model is a mirror image of the generated model (it is the only way to match the cells), and the tensors of anisotropic cells agree exactly where the bedding is horizontal. Refuted: azimuth and dip are not exported; widths of rows and columns are exchanged."
  },
  {
   "property": "C122",
   "status": "partial",
   "theorems": [
    "Hyvr.C122_partial",
    "Hyvr.C122_sheets_refuted",
    "Hyvr.C122_channels_refuted"
   ],
   "note": "Proved for ini-files whose elements are massive sheets and troughs with drawn centres. False for layered sheets (number of layers depends on the distance from the origin of the coordinates) and for channels (start moves only half of the way)."
  },
  {
   "property": "C123",
   "status": "partial",
   "theorems": [
    "Hyvr.C123_cells_partial",
    "Hyvr.C123_parameters_partial",
    "Hyvr.C123_refuted"
   ],
   "note": "Proved for all cells that belong to an AE, generation ends the same way. False for the others: they keep the facies number 0, which is whatever facies is listed first (C123_refuted)."
  },
  {
   "property": "C124",
   "status": "proved",
   "theorems": [
    "Hyvr.C124_types"
   ],
   "note": ""
  },
  {
   "property": "C125",
   "status": "partial",
   "theorems": [
    "Hyvr.C125_partial",
    "Hyvr.C125_specsim_partial",
    "Hyvr.C125_elevations",
    "Hyvr.C125_parameters",
    "Hyvr.C125_channels_refuted"
   ],
   "note": "Proved for all ini-files with sheets and troughs, all positive factors and all random numbers; random fields of specsim proved to convert. Channels are refuted: the hard-coded resampling distance 0.1 in ferguson_curve makes the number of points of a centreline depend on the unit."
  },
  {
   "property": "C126",
   "status": "proved",
   "theorems": [
    "Hyvr.C126"
   ],
   "note": "All geometries, levels of heterogeneity and trends; any factor."
  },
  {
   "property": "C127",
   "status": "partial",
   "theorems": [
    "Hyvr.C127_structure",
    "Hyvr.C127_partial",
    "Hyvr.C127_sheets",
    "Hyvr.C127_refuted",
    "Hyvr.C127_channels_refuted"
   ],
   "note": "Strata, elements and objects proved equal for all geometries. Cells with the same centre proved equal for models of sheets (without conditions on the columns) and of sheets and drawn troughs in columns off the contacts. Refuted for cells centred on contacts and for objects that reach below their element."
  },
  {
   "property": "C128",
   "status": "proved",
   "theorems": [
    "Hyvr.C128"
   ],
   "note": "The conditions of the statement are needed: see C13_contact_refuted, C12_unordered_refuted, C127_refuted."
  },
  {
   "property": "C129",
   "status": "proved",
   "theorems": [
    "Hyvr.C129_surely",
    "Hyvr.C129_endless",
    "Hyvr.C129_still"
   ],
   "note": "The distributions are those numpy documents, as hypotheses (Spec.RandomNumbers); exRandom_numbers shows that such random numbers exist. C129_still: an accepted ini-file that neither ends nor raises."
  },
  {
   "property": "C13",
   "status": "partial",
   "theorems": [
    "Hyvr.C13_assigned_partial",
    "Hyvr.C13_off_contacts_partial",
    "Hyvr.C13_contact_refuted"
   ],
   "note": "False for cells centred on a contact between non-sheet AEs, which also loses all cells below."
  },
  {
   "property": "C130",
   "status": "proved",
   "theorems": [
    "Hyvr.C130_probability",
    "Hyvr.C130_frequency"
   ],
   "note": "The realisations are assumed to have the element in question; the example shows this for the uppermost element of the lower stratum of an ini-file with troughs and channels."
  },
  {
   "property": "C131",
   "status": "proved",
   "theorems": [
    "Hyvr.C131_complete",
    "Hyvr.C131_status",
    "Hyvr.C131_files"
   ],
   "note": ""
  },
  {
   "property": "C132",
   "status": "proved",
   "theorems": [
    "Hyvr.C132_roundtrip",
    "Hyvr.C132_rerun",
    "Hyvr.C132_copy",
    "Hyvr.C132_left",
    "Hyvr.C132_again"
   ],
   "note": "Reader and writer of Python's configparser are modelled in Model/IniText."
  },
  {
   "property": "C133",
   "status": "proved",
   "theorems": [
    "Hyvr.C133_layout",
    "Hyvr.C133_values",
    "Hyvr.C133_bom",
    "Hyvr.C133_comments",
    "Hyvr.C133_last",
    "Hyvr.C133_percent",
    "Hyvr.C133_lone",
    "Hyvr.C133_missing",
    "Hyvr.C133_references",
    "Hyvr.C133_rejected",
    "Hyvr.C133_twice",
    "Hyvr.C133_repeated"
   ],
   "note": "Layout described in Spec/IniText, values in Spec/IniValues."
  },
  {
   "property": "C134",
   "status": "proved",
   "theorems": [
    "Hyvr.C134_endless",
    "Hyvr.C134_silent",
    "Hyvr.C134_thin"
   ],
   "note": "A finding: such ini-files are accepted without a warning."
  },
  {
   "property": "C135",
   "status": "proved",
   "theorems": [
    "Hyvr.C135",
    "Hyvr.C135_channels"
   ],
   "note": "for flat contacts; with channels (C135_channels) if cells are at most one unit wide in y, for wider cells see C27_refuted"
  },
  {
   "property": "C136",
   "status": "proved",
   "theorems": [
    "Hyvr.C136",
    "Hyvr.C136_density",
    "Hyvr.C136_number"
   ],
   "note": "C136 for realisations from ini-files, C136_density for one element, C136_number for the law of the number of troughs. Hypothesis RandomPlaces states what numpy promises of its Poisson and uniform numbers. Averages are over realisations in which the AE's top has the same mean and its bottom the same highest point."
  },
  {
   "property": "C137",
   "status": "proved",
   "theorems": [
    "Hyvr.C137_values",
    "Hyvr.C137_law"
   ],
   "note": "C137_values: each object gives its cells one facies, azimuth and dip, computed from its section and its own draws (Spec.OwnValues), or lag values. C137_law: distribution and independence of facies and dips, under Spec.RandomChoices and Spec.RandomDips (what numpy promises of choice and uniform)."
  },
  {
   "property": "C138",
   "status": "proved",
   "theorems": [
    "Hyvr.C138",
    "Hyvr.C138_clear"
   ],
   "note": "C138 for the AEs of realisations of an ini-file; C138_clear for the troughs placed for one section between two given surfaces. That the surfaces bound all realisations alike (mean of the top, highest point of the bottom) is a hypothesis, fulfilled between flat contacts; cells nearer to the lateral edges than half of the greatest axis, migrating troughs and periodic domains are not covered by the formula."
  },
  {
   "property": "C139",
   "status": "proved",
   "theorems": [
    "Hyvr.C139",
    "Hyvr.C139_layers"
   ],
   "note": "noninterference of what is inside the layers with the layers; the random numbers for layers and objects are separate inputs of the model"
  },
  {
   "property": "C14",
   "status": "proved",
   "theorems": [
    "Hyvr.C14_priority"
   ],
   "note": ""
  },
  {
   "property": "C140",
   "status": "proved",
   "theorems": [
    "Hyvr.C140_more"
   ],
   "note": "two ini-files that differ in numsim only; the example compares one realisation with two of the river model"
  },
  {
   "property": "C141",
   "status": "proved",
   "theorems": [
    "Hyvr.C141_anew",
    "Hyvr.C141_again"
   ],
   "note": "for disks on which every entry is a file or a directory; other entries survive an overwriting run, see C54"
  },
  {
   "property": "C142",
   "status": "proved",
   "theorems": [
    "Hyvr.C142_layout"
   ],
   "note": "Two layouts of the same sections and options: equal ends, and the same at every path but for the text of the ini-file. Layouts are those of C133."
  },
  {
   "property": "C143",
   "status": "proved",
   "theorems": [
    "Hyvr.C143_formats"
   ],
   "note": "Every path of a realisation (the copy of the ini-file aside) holds the file of the longer list if one of the formats asked for writes it, and nothing else. That no two formats use the same name is a hypothesis on the writers."
  },
  {
   "property": "C144",
   "status": "proved",
   "theorems": [
    "Hyvr.C144_moved"
   ],
   "note": "Acceptance, run name and, for runs that end normally, every path of a realisation relative to the run directory (for a single realisation: but for the copy of the ini-file)."
  },
  {
   "property": "C145",
   "status": "proved",
   "theorems": [
    "Hyvr.C145_renamed"
   ],
   "note": "Writers are arbitrary functions whose files depend on the run name by their names only (Spec.NamedAfter); the formats modflow and mf6, which write the name into files, are not covered."
  },
  {
   "property": "C146",
   "status": "proved",
   "theorems": [
    "Hyvr.C146_outside",
    "Hyvr.C146_kept",
    "Hyvr.C146_beside",
    "Hyvr.C146_order"
   ],
   "note": "Files are written at the paths the writers name, below the directory of the realisation (see the model of writeOutputs). C146_beside assumes that the first run, which may end in an error, leaves a tree of files and directories; C146_order is for runs that end normally and whose outputs are single files, for which that is proved (tree_after)."
  },
  {
   "property": "C15",
   "status": "partial",
   "theorems": [
    "Hyvr.C15_background",
    "Hyvr.C15_written",
    "Hyvr.C51_background",
    "Hyvr.C51_refuted"
   ],
   "note": "Selection proved for all generated models, and that element values survive parsing of a new-format ini-file. False for the old format, which reads the dip from the azimuth (C51_background for all sections, C51_refuted)."
  },
  {
   "property": "C16",
   "status": "partial",
   "theorems": [
    "Hyvr.C16_object_numbers_partial",
    "Hyvr.C16_ha_zero",
    "Hyvr.C16_ha_refuted"
   ],
   "note": "Object numbers are assigned after they were copied, so ha is 0 for every object of every model."
  },
  {
   "property": "C17",
   "status": "partial",
   "theorems": [
    "Hyvr.C17_ae_numbers",
    "Hyvr.C16_object_numbers_partial",
    "Hyvr.C17_hat",
    "Hyvr.C17_hat_error",
    "Hyvr.C16_ha_refuted"
   ],
   "note": "Numbering of AEs and hat proved; numbers of objects too, but they do not reach the cells (C16_ha_refuted)."
  },
  {
   "property": "C18",
   "status": "proved",
   "theorems": [
    "Hyvr.C18_columns",
    "Hyvr.C18_cells",
    "Hyvr.C18_local"
   ],
   "note": ""
  },
  {
   "property": "C19",
   "status": "proved",
   "theorems": [
    "Hyvr.C19_membership",
    "Hyvr.C19_range"
   ],
   "note": ""
  },
  {
   "property": "C20",
   "status": "partial",
   "theorems": [
    "Hyvr.C20_wrap_partial",
    "Hyvr.C20_far_refuted",
    "Hyvr.C20_wide_refuted"
   ],
   "note": "The claim is false for centres further than one and a half domain lengths away (migrating troughs) and for troughs wider than the domain; both witnesses are proved."
  },
  {
   "property": "C21",
   "status": "proved",
   "theorems": [
    "Hyvr.C21_trough",
    "Hyvr.C21_trough_no_lag",
    "Hyvr.C21_channel",
    "Hyvr.C21_channel_no_lag"
   ],
   "note": "Lag layer for troughs and channels: exactly the points less than lag_height above the object's lowest point."
  },
  {
   "property": "C22",
   "status": "proved",
   "theorems": [
    "Hyvr.C22_table"
   ],
   "note": ""
  },
  {
   "property": "C23",
   "status": "partial",
   "theorems": [
    "Hyvr.C23_bounds",
    "Hyvr.C23_axis",
    "Hyvr.C23_normal_partial",
    "Hyvr.C23_dip_sign_refuted",
    "Hyvr.C23_rotation_refuted"
   ],
   "note": "Bounds and behaviour on the axis are proved. The assigned angles describe the gradient only up to the sign of the dip and only for unrotated troughs; both violations are proved by witnesses."
  },
  {
   "property": "C24",
   "status": "proved",
   "theorems": [
    "Hyvr.C24_positions",
    "Hyvr.C24_migration",
    "Hyvr.C24_within",
    "Hyvr.C24_troughs"
   ],
   "note": ""
  },
  {
   "property": "C25",
   "status": "proved",
   "theorems": [
    "Hyvr.C25_trend"
   ],
   "note": ""
  },
  {
   "property": "C26",
   "status": "proved",
   "theorems": [
    "Hyvr.C26_parabola",
    "Hyvr.C26_range"
   ],
   "note": "Membership with a fresh cache is the documented parabola around the nearest centreline point; accepted points lie between the object's zmin and zmax."
  },
  {
   "property": "C27",
   "status": "partial",
   "theorems": [
    "Hyvr.C27_cache_partial",
    "Hyvr.C27_refuted"
   ],
   "note": "Proved for all histories when dy <= 1; refuted for dy > 1 because the number of cells in y-direction is computed without dividing by dy."
  },
  {
   "property": "C28",
   "status": "partial",
   "theorems": [
    "Hyvr.C28_lookup_partial",
    "Hyvr.C28_refuted"
   ],
   "note": "The index never exceeds the table; it can become negative near the upstream end below the top (refuted with a concrete channel)."
  },
  {
   "property": "C29",
   "status": "proved",
   "theorems": [
    "Hyvr.C29_levels",
    "Hyvr.C29_descending",
    "Hyvr.C29_terminates"
   ],
   "note": "Levels, number per level, order and termination of channel generation."
  },
  {
   "property": "C30",
   "status": "proved",
   "theorems": [
    "Hyvr.C30_chain",
    "Hyvr.C30_isometry",
    "Hyvr.C30_trim"
   ],
   "note": "Chain of equal steps, mean direction, isometry, trimming."
  },
  {
   "property": "C31",
   "status": "proved",
   "theorems": [
    "Hyvr.C31_terminates",
    "Hyvr.C31_picks",
    "Hyvr.C31_spacing",
    "Hyvr.C31_success"
   ],
   "note": "Termination, greedy picks, spacing and success of curve resampling."
  },
  {
   "property": "C32",
   "status": "partial",
   "theorems": [
    "Hyvr.C32_sheets_partial",
    "Hyvr.C32_outside_refuted",
    "Hyvr.C32_massive",
    "Hyvr.C32_thickness",
    "Hyvr.C32_boundaries",
    "Hyvr.C32_between"
   ],
   "note": "Exact boundaries of all sheets are proved. The claim that no sheet lies outside the AE is false over an uneven AE bottom (C32_outside_refuted)."
  },
  {
   "property": "C33",
   "status": "partial",
   "theorems": [
    "Hyvr.C33_table_partial",
    "Hyvr.C33_thick_refuted",
    "Hyvr.C33_failure_refuted"
   ],
   "note": "The table is long enough only under a condition on the distance of the cell from the zero plane; violations proved by witnesses."
  },
  {
   "property": "C34",
   "status": "proved",
   "theorems": [
    "Hyvr.C34_sequence",
    "Hyvr.C34_errors"
   ],
   "note": ""
  },
  {
   "property": "C35",
   "status": "proved",
   "theorems": [
    "Hyvr.C35_lookup",
    "Hyvr.C35_total"
   ],
   "note": "All tables covering the occurring facies; tensor consistent with the stored values."
  },
  {
   "property": "C36",
   "status": "partial",
   "theorems": [
    "Hyvr.C36_lookup_partial",
    "Hyvr.C36_total_partial",
    "Hyvr.C36_refuted",
    "Hyvr.C36_ini_refuted"
   ],
   "note": "Holds for old-format tables (key hydro present); every homogeneous run with a new-format section ends in a KeyError, shown from the ini-file on."
  },
  {
   "property": "C37",
   "status": "partial",
   "theorems": [
    "Hyvr.C37_object_partial",
    "Hyvr.C37_background",
    "Hyvr.C37_positive",
    "Hyvr.C37_total",
    "Hyvr.C37_refuted"
   ],
   "note": "Positivity and centring proved without trends; cells of objects numbered 0 get the background facies' parameters (refuted)."
  },
  {
   "property": "C38",
   "status": "partial",
   "theorems": [
    "Hyvr.C38_factor",
    "Hyvr.C38_vertical_partial",
    "Hyvr.C38_longitudinal_lost",
    "Hyvr.C38_refuted"
   ],
   "note": "Vertical trends proved; longitudinal trends are never stored and make stored k and tensors inconsistent (refuted in general and concretely)."
  },
  {
   "property": "C39",
   "status": "proved",
   "theorems": [
    "Hyvr.C39_formula",
    "Hyvr.C39_array",
    "Hyvr.C39_rot_orthogonal"
   ],
   "note": "Bare sin/cos in optimized.py read as np.sin/np.cos."
  },
  {
   "property": "C40",
   "status": "proved",
   "theorems": [
    "Hyvr.C40_symmetric",
    "Hyvr.C40_posDef",
    "Hyvr.C40_det_trace",
    "Hyvr.C40_normal",
    "Hyvr.C40_plane",
    "Hyvr.C40_isotropic",
    "Hyvr.C40_zero_dip"
   ],
   "note": "All parts."
  },
  {
   "property": "C41",
   "status": "proved",
   "theorems": [
    "Hyvr.C41_scatter",
    "Hyvr.C41_empty",
    "Hyvr.C41_unique"
   ],
   "note": "All masks, all fields; the empty selection raises."
  },
  {
   "property": "C42",
   "status": "proved",
   "theorems": [
    "Hyvr.C42_mean",
    "Hyvr.C42_total"
   ],
   "note": "Exact mean for every draw, via the inverse discrete Fourier transform."
  },
  {
   "property": "C43",
   "status": "proved",
   "theorems": [
    "Hyvr.C43_roundtrip",
    "Hyvr.C43_strings",
    "Hyvr.C43_empty"
   ],
   "note": "Scalars, flat lists and lists of lists with arbitrary spaces; '[]' raises IndexError."
  },
  {
   "property": "C44",
   "status": "partial",
   "theorems": [
    "Hyvr.C44_fixed_partial",
    "Hyvr.C44_perEntry_partial",
    "Hyvr.C44_table_partial",
    "Hyvr.C44_matrix_partial",
    "Hyvr.C44_like_partial",
    "Hyvr.C44_accepts",
    "Hyvr.C44_length",
    "Hyvr.C44_any",
    "Hyvr.C44_refuted"
   ],
   "note": "Inner structure holds for texts that are scalars, flat lists or lists of flat lists with entries of equal depth; the outer length (C44_length) holds for all texts. False in general: only the last element decides the depth of a list (C44_refuted)."
  },
  {
   "property": "C45",
   "status": "partial",
   "theorems": [
    "Hyvr.C45_scalar_partial",
    "Hyvr.C45_inner",
    "Hyvr.C45_like",
    "Hyvr.C45_letters",
    "Hyvr.C45_scalar_table",
    "Hyvr.C45_refuted"
   ],
   "note": "One-dimensional shapes, and inner lists of two-dimensional shapes; a length that refers to a plain text is the number of its letters (C45_letters). False for a scalar given for a shape of two dimensions (ShapeError) and for three dimensions (C45_refuted)."
  },
  {
   "property": "C46",
   "status": "proved",
   "theorems": [
    "Hyvr.C46_present",
    "Hyvr.C46_required",
    "Hyvr.C46_missing",
    "Hyvr.C46_kept",
    "Hyvr.C46_alternative_removed"
   ],
   "note": "For tables of options with distinct names that are not alternatives of another option."
  },
  {
   "property": "C47",
   "status": "proved",
   "theorems": [
    "Hyvr.C47_true",
    "Hyvr.C47_false",
    "Hyvr.C47_error",
    "Hyvr.C47_option"
   ],
   "note": ""
  },
  {
   "property": "C48",
   "status": "partial",
   "theorems": [
    "Hyvr.C48_accepted",
    "Hyvr.C48_usable_partial",
    "Hyvr.C48_refuted"
   ],
   "note": "Acceptance and values proved for all lists; every accepted model with a lower-case mode can be used. False: a mode with capital letters is accepted but cannot be used."
  },
  {
   "property": "C49",
   "status": "proved",
   "theorems": [
    "Hyvr.C49_numbers",
    "Hyvr.C49_undeclared",
    "Hyvr.C49_names",
    "Hyvr.C49_names_numbers",
    "Hyvr.C49_positions",
    "Hyvr.C49_element",
    "Hyvr.C49_element_names"
   ],
   "note": ""
  },
  {
   "property": "C50",
   "status": "partial",
   "theorems": [
    "Hyvr.C50_partial",
    "Hyvr.C50_bulb",
    "Hyvr.C50_others",
    "Hyvr.C50_error",
    "Hyvr.C50_refuted"
   ],
   "note": "dip and random as claimed. False: bulb_sets is accepted without bulbset_dist, and bulb, which has no layers, is rejected without it."
  },
  {
   "property": "C51",
   "status": "partial",
   "theorems": [
    "Hyvr.C51_element_partial",
    "Hyvr.C51_background",
    "Hyvr.C51_trough",
    "Hyvr.C51_element_contact",
    "Hyvr.C51_strata",
    "Hyvr.C51_strata_contacts",
    "Hyvr.C51_run",
    "Hyvr.C51_model",
    "Hyvr.C51_display",
    "Hyvr.C51_refuted",
    "Hyvr.C51_channel_refuted",
    "Hyvr.C51_numbers"
   ],
   "note": "Proved: every value is carried over for all sections, and a file that asks for a display is rejected (C51_display), except two defects of the code: the background dip of an element is read from the azimuth (C51_refuted, C51_background), and geometry ext_par is not renamed to channel, so it cannot be generated (C51_channel_refuted)."
  },
  {
   "property": "C52",
   "status": "proved",
   "theorems": [
    "Hyvr.C52_options",
    "Hyvr.C52_contacts",
    "Hyvr.C52_contact_texts",
    "Hyvr.C52_tables",
    "Hyvr.C52_surfaces",
    "Hyvr.C52_formats",
    "Hyvr.C15_background"
   ],
   "note": "C52_formats covers both ini-file formats. Inner lengths of the per-element tables: C52_tables, for well-written texts."
  },
  {
   "property": "C53",
   "status": "partial",
   "theorems": [
    "Hyvr.C53_name",
    "Hyvr.C53_given",
    "Hyvr.C53_rundir_partial",
    "Hyvr.C53_backup",
    "Hyvr.C53_modeldir_refuted",
    "Hyvr.C53_extension_refuted",
    "Hyvr.C53_dot_refuted",
    "Hyvr.C53_underscore_refuted"
   ],
   "note": "Run name = file name up to the last dot; run directory below the ini-file's directory; re-running from the backup gives the same run name and directory. Violated: a given modeldir always ends in a TypeError; a file name without a dot gives an empty run name and the run directory is the ini-file's own directory, as for the run name \".\"; \"<s>autogenerated_backup.ini\" without an underscore loses a character."
  },
  {
   "property": "C54",
   "status": "partial",
   "theorems": [
    "Hyvr.C54_outside",
    "Hyvr.C54_refused",
    "Hyvr.C54_replaced_partial",
    "Hyvr.C54_succeeds",
    "Hyvr.C54_special_refuted"
   ],
   "note": "All clauses proved for all file systems and all intermediate states; violated only for entries of an old run directory that are neither files nor directories (pipes, sockets), which survive overwriting."
  },
  {
   "property": "C55",
   "status": "partial",
   "theorems": [
    "Hyvr.C55_partial",
    "Hyvr.C55_ignored",
    "Hyvr.C55_refuted",
    "Hyvr.C55_command_line"
   ],
   "note": "Holds if no argument is passed or it equals the option. Violated: the argument is never used, so --overwrite / flag_ow has no effect, shown for the program as a whole."
  },
  {
   "property": "C56",
   "status": "partial",
   "theorems": [
    "Hyvr.C56_partial",
    "Hyvr.C56_gap_refuted",
    "Hyvr.C56_refuted"
   ],
   "note": "Holds for ini-files outside the run directory, at every intermediate state. Violated when running from a backup file with overwriting: there is a moment at which the text is nowhere."
  },
  {
   "property": "C57",
   "status": "proved",
   "theorems": [
    "Hyvr.C57_names",
    "Hyvr.C57_distinct",
    "Hyvr.C57_complete",
    "Hyvr.C57_interrupted"
   ],
   "note": "All numbers of realisations; also if a later realisation raises. File systems without special files in the old run directory."
  },
  {
   "property": "C58",
   "status": "proved",
   "theorems": [
    "Hyvr.C58_missing",
    "Hyvr.C58_failure",
    "Hyvr.C58_unknown",
    "Hyvr.C58_reported"
   ],
   "note": "Writers of the loop are parameters: functions on the state of the written files with an optional exception. C58_reported: the writers of HyVR pass on exceptions of their libraries."
  },
  {
   "property": "C59",
   "status": "partial",
   "theorems": [
    "Hyvr.C59_midway",
    "Hyvr.C59_count_iff",
    "Hyvr.C59_partial",
    "Hyvr.C59_refuted"
   ],
   "note": "Centres are midway between nodes on every grid. The numbers of nodes agree exactly when the length is not a fraction in (0, 1/2] of a cell too long; refuted for length 5, spacing 2."
  },
  {
   "property": "C60",
   "status": "partial",
   "theorems": [
    "Hyvr.C60_layers",
    "Hyvr.C60_values",
    "Hyvr.C60_partial",
    "Hyvr.C60_refuted"
   ],
   "note": "Both outputs are upside down: the array layer k (from the bottom) is written as MODFLOW layer k (from the top). Right only for the middle layer."
  },
  {
   "property": "C61",
   "status": "partial",
   "theorems": [
    "Hyvr.C61_widths",
    "Hyvr.C61_widths_refuted",
    "Hyvr.C61_bottoms_partial",
    "Hyvr.C61_bottoms_refuted",
    "Hyvr.C61_heads_partial",
    "Hyvr.C61_heads_refuted",
    "Hyvr.C61_faces_refuted"
   ],
   "note": "delr and delc are exchanged, so widths are right only for dx = dy; MODFLOW 6 has too many bottoms if lz is not a whole number of cells; heads are right for at least two cells in x; MODFLOW fixes heads at the y faces."
  },
  {
   "property": "C62",
   "status": "proved",
   "theorems": [
    "Hyvr.C62_rows",
    "Hyvr.C62_bijection"
   ],
   "note": "Rounding of the written numbers to three decimals is not modelled."
  },
  {
   "property": "C63",
   "status": "proved",
   "theorems": [
    "Hyvr.C63_independent"
   ],
   "note": ""
  },
  {
   "property": "C64",
   "status": "proved",
   "theorems": [
    "Hyvr.C64_interval",
    "Hyvr.C64_choice",
    "Hyvr.C64_relative",
    "Hyvr.C64_errors"
   ],
   "note": "Each type is chosen on an interval of length weight/sum; zero weights never; only proportions matter; error cases."
  },
  {
   "property": "C65",
   "status": "proved",
   "theorems": [
    "Hyvr.C65_zero",
    "Hyvr.C65_linear",
    "Hyvr.C65_bounded",
    "Hyvr.C65_decay"
   ],
   "note": "Direction recurrence: zero without noise, linear, bounded by E/(1-exp(-kh))^2, geometric decay after the noise stops."
  },
  {
   "property": "C66",
   "status": "partial",
   "theorems": [
    "Hyvr.C66_outside",
    "Hyvr.C66_partial",
    "Hyvr.C66_refuted"
   ],
   "note": "Nothing outside the temporary directory is touched at any time; if no realisation raises the file system afterwards equals the one before. Violated if a realisation raises: the directory is left behind."
  },
  {
   "property": "C67",
   "status": "proved",
   "theorems": [
    "Hyvr.C67_sheets_terminate",
    "Hyvr.C67_sheets_diverge"
   ],
   "note": ""
  },
  {
   "property": "C68",
   "status": "partial",
   "theorems": [
    "Hyvr.C68_trough_partial",
    "Hyvr.C68_sheet_partial",
    "Hyvr.C68_trough_refuted",
    "Hyvr.C68_sheet_refuted"
   ],
   "note": "Layer numbers proved; refuted: truncation towards zero makes the layer around the zero plane twice as thick."
  },
  {
   "property": "C69",
   "status": "partial",
   "theorems": [
    "Hyvr.C69_trough",
    "Hyvr.C69_sheet_partial",
    "Hyvr.C69_sheet_refuted",
    "Hyvr.C69_channel_refuted"
   ],
   "note": "Holds for troughs; sheets dip the opposite way, channels count the azimuth counter-clockwise."
  },
  {
   "property": "C70",
   "status": "partial",
   "theorems": [
    "Hyvr.C70_trend_partial",
    "Hyvr.C70_refuted"
   ],
   "note": "With a size_ztrend generation always fails (np.interp gets the factors as separate arguments); the scaling inside the loop is right."
  },
  {
   "property": "C71",
   "status": "partial",
   "theorems": [
    "Hyvr.C71_refuted"
   ],
   "note": "Refuted for all inputs with ds below the channel width: no point of the centreline reaches the downstream edge. What does hold about the centreline is C30."
  },
  {
   "property": "C72",
   "status": "partial",
   "theorems": [
    "Hyvr.C72_azimuth_partial",
    "Hyvr.C72_massive_refuted"
   ],
   "note": "Flow direction proved for dipping layers; massive channels always get azimuth 0 whatever the configured range."
  },
  {
   "property": "C73",
   "status": "partial",
   "theorems": [
    "Hyvr.C73_start_partial",
    "Hyvr.C73_refuted"
   ],
   "note": "Proved for domains whose origin is at (0, 0); refuted otherwise because (x0+lx)/2 is used as centre."
  },
  {
   "property": "C74",
   "status": "proved",
   "theorems": [
    "Hyvr.C74_names",
    "Hyvr.C74_structures",
    "Hyvr.C74_accepts"
   ],
   "note": "Structure names and what each structure gives."
  },
  {
   "property": "C75",
   "status": "partial",
   "theorems": [
    "Hyvr.C75_everywhere",
    "Hyvr.C75_refuted"
   ],
   "note": "Violated: an element's vertical trend multiplies the whole array."
  },
  {
   "property": "C76",
   "status": "partial",
   "theorems": [
    "Hyvr.C76_lines",
    "Hyvr.C76_refuted",
    "Hyvr.C76_internal_lines",
    "Hyvr.C76_internal_refuted"
   ],
   "note": "Violated: syy[0] = 0 clears a whole slab of the spectrum, so every line along x has constant average and models one cell wide in x have no variation."
  },
  {
   "property": "C77",
   "status": "partial",
   "theorems": [
    "Hyvr.C77_cosine",
    "Hyvr.C77_exact",
    "Hyvr.C77_near_partial",
    "Hyvr.C77_internal",
    "Hyvr.C77_stationary_partial",
    "Hyvr.C77_periodic",
    "Hyvr.C77_refuted"
   ],
   "note": "Stationarity and the exact covariance of random surfaces (C77_exact) and of fields of internal heterogeneity (C77_internal) proved for all white-noise inputs and regular grids. On odd grids whose waves have no negative share, cells of a surface less than half the grid apart have the requested covariance less its average along x (C77_near_partial). The requested model itself is missed: the field is periodic, so opposite ends are as correlated as neighbours (C77_refuted). Missing: a closed form for even grids and negative shares."
  },
  {
   "property": "C78",
   "status": "partial",
   "theorems": [
    "Hyvr.C78_chain_partial",
    "Hyvr.C78_refuted"
   ],
   "note": "False: depth three mangles or rejects most lists (C78_refuted); single-entry chains of any depth are read back."
  },
  {
   "property": "C79",
   "status": "partial",
   "theorems": [
    "Hyvr.C79_wellformed_partial",
    "Hyvr.C79_unterminated",
    "Hyvr.C79_refuted"
   ],
   "note": "False: an unterminated list loses its last character (C79_refuted). Proved: when the text ends with the closing bracket nothing is dropped, and what the unterminated case returns."
  },
  {
   "property": "C80",
   "status": "proved",
   "theorems": [
    "Hyvr.C80_models",
    "Hyvr.C80_invalid"
   ],
   "note": ""
  },
  {
   "property": "C81",
   "status": "proved",
   "theorems": [
    "Hyvr.C81_valid",
    "Hyvr.C81_accepts",
    "Hyvr.C81_section",
    "Hyvr.C81_outputs",
    "Hyvr.C81_structure"
   ],
   "note": ""
  },
  {
   "property": "C82",
   "status": "partial",
   "theorems": [
    "Hyvr.C82_partial",
    "Hyvr.C82_refuted",
    "Hyvr.C82_old_single",
    "Hyvr.C52_formats"
   ],
   "note": "For every n >= 2, every accepted new-format ini-file becomes an accepted one with n strata by changing its section strata alone (C82_partial). False for one stratum in the new format: no accepted new-format ini-file has a single stratum (C82_refuted, for all ini-files). The old format accepts one stratum (C82_old_single)."
  },
  {
   "property": "C83",
   "status": "partial",
   "theorems": [
    "Hyvr.C83_partial",
    "Hyvr.C83_refuted"
   ],
   "note": "A list of one-element lists is accepted and assigned as expected. The documented flat list is rejected or, with one entry, repeated."
  },
  {
   "property": "C84",
   "status": "partial",
   "theorems": [
    "Hyvr.C84_partial",
    "Hyvr.C84_unknown",
    "Hyvr.C84_refuted"
   ],
   "note": "Exact element lists if all names have sections. False: unknown names are accepted by the parser and stop the generation with KeyError."
  },
  {
   "property": "C85",
   "status": "proved",
   "theorems": [
    "Hyvr.C17_hat",
    "Hyvr.C17_hat_error"
   ],
   "note": ""
  },
  {
   "property": "C86",
   "status": "proved",
   "theorems": [
    "Hyvr.C86_spacing",
    "Hyvr.C86_any"
   ],
   "note": ""
  },
  {
   "property": "C87",
   "status": "proved",
   "theorems": [
    "Hyvr.C87_section",
    "Hyvr.C87_optional"
   ],
   "note": ""
  },
  {
   "property": "C88",
   "status": "proved",
   "theorems": [
    "Hyvr.C88_tables",
    "Hyvr.C88_covers"
   ],
   "note": ""
  },
  {
   "property": "C89",
   "status": "partial",
   "theorems": [
    "Hyvr.C89_partial",
    "Hyvr.C89_refuted",
    "Hyvr.C51_channel_refuted"
   ],
   "note": "Proved for the new format. Refuted for the old format: geometry ext_par and structure bulb_l are accepted but raise ValueError when generated."
  },
  {
   "property": "C90",
   "status": "partial",
   "theorems": [
    "Hyvr.C90_partial",
    "Hyvr.C90_refuted"
   ],
   "note": "Holds for run names that are not empty. Violated for every ini-file name without a dot when overwriting is enabled: the ini-file and everything beside it are deleted."
  },
  {
   "property": "C91",
   "status": "proved",
   "theorems": [
    "Hyvr.C91_missing",
    "Hyvr.C91_elements",
    "Hyvr.C91_refused",
    "Hyvr.C91_any"
   ],
   "note": "Both formats; a missing run section is a KeyError rather than a MissingSectionError."
  },
  {
   "property": "C92",
   "status": "partial",
   "theorems": [
    "Hyvr.C92_partial",
    "Hyvr.C92_start_partial",
    "Hyvr.C92_heads_refuted",
    "Hyvr.C92_unset_refuted",
    "Hyvr.C92_inflow_refuted"
   ],
   "note": "Holds if heads and inflow are given. Without heads the writers raise, also if a gradient or an inflow is given (C92_unset_refuted: from the ini-file); without inflow wells of 0.01 are written."
  },
  {
   "property": "C93",
   "status": "partial",
   "theorems": [
    "Hyvr.C93_partial",
    "Hyvr.C93_refuted"
   ],
   "note": "Holds if hydraulic parameters were generated; otherwise a KeyError."
  },
  {
   "property": "C94",
   "status": "partial",
   "theorems": [
    "Hyvr.C94_partial",
    "Hyvr.C94_outside_partial",
    "Hyvr.C94_origin",
    "Hyvr.C94_default_refuted",
    "Hyvr.C94_refuted"
   ],
   "note": "Right for spacing 1. Otherwise the position is compared with the wrong index (a misplaced parenthesis): with origin 0 the slice shown does not depend on the spacing, and for spacings of at least 3 the default section through the centre is reported to lie outside the domain."
  },
  {
   "property": "C95",
   "status": "partial",
   "theorems": [
    "Hyvr.C95_ignored",
    "Hyvr.C95_refuted"
   ],
   "note": "The option log is not used."
  },
  {
   "property": "C96",
   "status": "proved",
   "theorems": [
    "Hyvr.C96_rejected",
    "Hyvr.C96_untouched"
   ],
   "note": "For file systems without special entries (pipes, devices). C96_untouched: mistakes found while parsing or building the model leave no trace at all."
  },
  {
   "property": "C97",
   "status": "partial",
   "theorems": [
    "Hyvr.C97_partial",
    "Hyvr.C97_refuted"
   ],
   "note": "Holds for new-format files in which every element used in a stratum has a section. Refuted: a misspelled element name is noticed only after the old results have been deleted."
  },
  {
   "property": "C98",
   "status": "proved",
   "theorems": [
    "Hyvr.C98_run",
    "Hyvr.C98_strata",
    "Hyvr.C98_normal"
   ],
   "note": "Generation of strata and writing are arbitrary functions that raise nothing; everything else of the run is modelled. C98_normal is the converse: a run without exception was accepted, and no realisation raised anything."
  },
  {
   "property": "C99",
   "status": "partial",
   "theorems": [
    "Hyvr.C99_no_exception",
    "Hyvr.C99_finishes",
    "Hyvr.C99_ini_partial",
    "Hyvr.C99_ini_finishes_partial",
    "Hyvr.C99_weights_refuted",
    "Hyvr.C99_thickness_refuted"
   ],
   "note": "Proved for all well filled new-format ini-files (element names known, lists well written, modes of contact models in small letters, no negative weights or thicknesses, a positive weight in each stratum), if placing objects and filling sheets raises nothing (hypothesis Quiet); that generation ends, if a positive rest of every mean thickness remains after the greatest avulsion and placing objects ends (hypothesis Ends). Placing objects is an argument here and is part of the generation in C104, which discharges both hypotheses. Refuted: weights that are all zero and negative thicknesses are accepted and raise ValueError. Old-format files that have a translation to the new format (sheets and truncated ellipsoids) are covered by C113. Missing: other old-format files."
  }
 ]
}

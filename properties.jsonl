{"id": "C01", "title": "Grid has exactly the cells the ini-file asks for", "statement": "For every origin x0, spacing dx>0 and extent lx, the grid built along an axis has ceil(lx/dx - 1/2) cells; when lx = n*dx (n a natural number) it has exactly n cells. Cell i is centred at x0 + (i+1/2)*dx, every centre lies strictly inside (x0, x0+lx), and the next centre would not.", "quantifier": "all real origins, all positive spacings, all extents; each of the three axes", "why_tests_cant": "A test tries a handful of origins/spacings; the claim ranges over all real triples, including extents that are not a multiple of the spacing.", "anchors": ["hyvr/geo/grid.py:Grid.__init__"]}
{"id": "C02", "title": "Grid cells partition the domain and coordinate arrays agree with axes", "statement": "If the extent is n*dx, then every point x of [x0, x0+lx) lies in exactly one cell [x0+i*dx, x0+(i+1)*dx); the 3-d coordinate arrays satisfy X[i,j,k]=x[i], Y[i,j,k]=y[j], Z[i,j,k]=z[k] with shape (nx,ny,nz); the centred arrays are antisymmetric under index reversal.", "quantifier": "all grids, all points of the domain, all index triples", "why_tests_cant": "Universal over uncountably many points and all grid sizes.", "anchors": ["hyvr/geo/grid.py:Grid.__init__"]}
{"id": "C03", "title": "Clipping a contact surface is exactly pointwise minimum / maximum", "statement": "After clipping surface S from above by T every value of S is min(old S, T) and T is unchanged; after clipping from below it is max(old S, T). Clipping twice by the same surface changes nothing, and after clipping from above (below) the surface lies nowhere above (below) T.", "quantifier": "all surfaces of all sizes, all other surfaces (including the surface itself)", "why_tests_cant": "All surface values on all grids.", "anchors": ["hyvr/geo/contact_surface.py:ContactSurface.use_lower_surface_value", "hyvr/geo/contact_surface.py:ContactSurface.use_higher_surface_value"]}
{"id": "C04", "title": "Reported zmin/zmax of a contact surface always bound it", "statement": "For a contact surface of either kind and after any sequence of clipping operations, zmin <= surface value <= zmax at every cell; after a clip from above zmin is attained, after a clip from below zmax is attained.", "quantifier": "all initial surfaces, all finite histories of clipping operations with arbitrary other surfaces", "why_tests_cant": "zmin and zmax are refreshed by different operations; only an invariant over all histories shows that the stale one is still a bound.", "anchors": ["hyvr/geo/contact_surface.py:ContactSurface"]}
{"id": "C05", "title": "Strata are stacked without crossing and tile the domain column", "statement": "In a generated model the bottom surface of every stratum lies nowhere above its top surface, the top of each stratum is the bottom of the previous one, the first top is the flat domain top and the last bottom is nowhere above the domain bottom. Hence in every column every elevation between the lowest and the highest surface lies in some stratum.", "quantifier": "all numbers of strata, all contact models (flat or random with any realised field), all columns, all elevations", "why_tests_cant": "Random surfaces may cross anywhere; a test sees finitely many realisations.", "anchors": ["hyvr/geo/model.py:Model.generate_model"]}
{"id": "C06", "title": "Architectural elements tile their stratum", "statement": "Within a generated stratum, every AE's bottom lies nowhere above its top and nowhere below the stratum bottom, the first AE starts at the stratum top, each AE starts where the previous ended, and the last AE ends at the stratum bottom; generating AEs does not change the stratum's own surfaces.", "quantifier": "all stratum surfaces with bottom <= top, all sequences of random draws (types, heights, avulsions, random surfaces) for which generation finishes", "why_tests_cant": "Depends on an unbounded number of random draws.", "anchors": ["hyvr/geo/stratum.py:Stratum.__init__", "hyvr/geo/model.py:Model.generate_model"]}
{"id": "C07", "title": "The model top is the top of the grid", "statement": "The uppermost stratum reaches exactly the top of the grid, z0 + lz, so that every cell centre of the grid lies below it.", "quantifier": "all grids", "why_tests_cant": "Holds for the default z0 = 0 used in tests; fails for other origins.", "anchors": ["hyvr/geo/model.py:Model.generate_model"]}
{"id": "C08", "title": "Stratum generation terminates", "statement": "If every drawn AE thickness (after avulsion) is at least delta > 0, the generation of a stratum stops after at most ceil((top mean - bottom mean)/delta) AEs (at least one if the stratum has positive mean thickness). Without such a bound it need not stop.", "quantifier": "all strata, all delta > 0, all draw sequences", "why_tests_cant": "Termination for all random histories.", "anchors": ["hyvr/geo/stratum.py:Stratum.__init__"]}
{"id": "C09", "title": "Vertical extents of AEs and strata enclose everything inside", "statement": "The vertical range reported for an AE contains the vertical range of its bounding surfaces and of every object placed in it (also where objects erode below the AE), and the range of a stratum contains the range of all its AEs; therefore skipping a stratum/AE/object because the cell is below its reported minimum never skips a container of that cell.", "quantifier": "all object lists, all surfaces, all cells", "why_tests_cant": "Quantifies over all configurations of objects.", "anchors": ["hyvr/geo/ae_realization.py:AERealization._add_object", "hyvr/geo/ae_realization.py:AERealization.__init__", "hyvr/geo/stratum.py:Stratum.__init__", "hyvr/assign_points.py"]}
{"id": "C10", "title": "Every cell record is all-or-nothing and consistent", "statement": "After point assignment every cell either is unassigned and holds the defaults (facies 0, stratum 0, ae/ha/hat -1, angles 0), or all seven arrays describe one and the same place: facies and angles are those returned by one object test (or the background) of one AE, ae and hat are that AE's number and type, ha is that object's number (-1 for background), and strata is the index of the stratum containing that AE.", "quantifier": "all models (strata, AEs, objects with arbitrary membership tests), all grids, all cells", "why_tests_cant": "Mixing of fields across cells could occur for any history of searches.", "anchors": ["hyvr/assign_points.py:assign_points", "hyvr/assign_points.py:maybe_assign_points_to_stratum", "hyvr/assign_points.py:maybe_assign_points_to_ae"]}
{"id": "C11", "title": "Strata and AE numbers never decrease going down a column", "statement": "In every column, going from the top cell downwards, the stratum index and the AE number of the assigned cells never decrease.", "quantifier": "all models and all columns, with arbitrary (even inconsistent) object tests", "why_tests_cant": "All geometries.", "anchors": ["hyvr/assign_points.py:assign_points"]}
{"id": "C12", "title": "Remembering the last stratum/AE/object never changes the result", "statement": "If, searching each cell of a column from scratch from the uppermost unit, no lower cell is first claimed by an earlier unit (stratum, AE, object) than a higher cell, then the column sweep (which resumes from the previously found stratum, AE and object) assigns to every cell exactly what the search from scratch for that cell alone would assign, as long as every cell above it could be assigned. Without that condition the results can differ.", "quantifier": "all models with ordered, downward-closed objects; all columns", "why_tests_cant": "Refinement between an optimised and a memoryless search over all inputs.", "anchors": ["hyvr/assign_points.py"]}
{"id": "C13", "title": "Every cell of the domain is assigned", "statement": "Every cell whose centre lies between the model bottom and the model top is assigned to some stratum and AE.", "quantifier": "all generated models, all cells", "why_tests_cant": "Cells exactly on a contact surface are measure-zero for random tests but occur for user-given flat contacts.", "anchors": ["hyvr/assign_points.py:maybe_assign_points_to_ae", "hyvr/assign_points.py:assign_points"]}
{"id": "C14", "title": "Overlap priority: top-most unit, object before background", "statement": "If a cell is contained in several objects of an AE it receives the first (uppermost) one; it receives the background only if no object of that AE contains it; and among AEs it receives the uppermost AE claiming it, so erosive objects cut into AEs below but never into AEs above.", "quantifier": "all models and cells (objects ordered by descending top)", "why_tests_cant": "All overlap patterns.", "anchors": ["hyvr/assign_points.py:maybe_assign_points_to_ae", "hyvr/assign_points.py:maybe_assign_points_to_stratum"]}
{"id": "C15", "title": "Background values: element setting wins, stratum is the fallback", "statement": "The background facies (azimuth, dip) of an AE is the element's own value if given, otherwise that of its stratum, independently for the three values; element values survive unchanged from the ini-file.", "quantifier": "all elements and strata, all combinations of given/missing", "why_tests_cant": "Eight combinations times all values, also through the deprecated format where one is dropped.", "anchors": ["hyvr/geo/ae_realization.py:AERealization.__init__", "hyvr/input/parameters.py:parse_inifile", "hyvr/input/parameters.py:get_new_parameters_from_deprecated"]}
{"id": "C16", "title": "ha identifies geometrical objects uniquely", "statement": "Two cells carry the same ha >= 0 if and only if they belong to the same geometrical object.", "quantifier": "all generated models, all pairs of cells", "why_tests_cant": "Tests compare against a stored reference that has the same defect.", "anchors": ["hyvr/geo/model.py:Model.generate_model", "hyvr/geo/ae_realization.py:AERealization._create_common_object_arrays"]}
{"id": "C17", "title": "AE numbers are consecutive from the top and hat names the element type", "statement": "AEs are numbered 0,1,2,... from the top of the first stratum to the bottom of the last without gaps or repeats, so an ae value determines the AE; object numbers likewise; and for every element section, the `ae` list entry at index hat is that element's name.", "quantifier": "all models, all ini-files whose element sections all occur in `ae`", "why_tests_cant": "All list lengths.", "anchors": ["hyvr/geo/model.py:Model.generate_model", "hyvr/input/parameters.py:setup_from_inifile"]}
{"id": "C18", "title": "Columns are visited exactly once each and do not influence each other", "statement": "The sweep visits every column (i,j) of the grid exactly once and every cell of it exactly once from top to bottom; the values of a column depend only on that column (object tests without state).", "quantifier": "all grid sizes", "why_tests_cant": "All nx, ny, nz.", "anchors": ["hyvr/assign_points.py:assign_points"]}
{"id": "C19", "title": "Trough membership is exactly the lower half of the rotated ellipsoid", "statement": "In a non-periodic domain a point belongs to a trough iff it is not above the trough's top plane and lies inside the ellipsoid with half-axes length/2, width/2, depth rotated by the paleoflow angle; the quick bounding-box rejection never rejects an inside point, and every inside point lies in the trough's reported vertical range.", "quantifier": "all positive axes, all angles, all points", "why_tests_cant": "Uncountable domain; the box test must be sound for every rotation.", "anchors": ["hyvr/geo/trough_ae.pyx:TroughAE.maybe_assign_points_to_object", "hyvr/geo/trough.pyx:Trough.__init__", "hyvr/geo/trough_utils.py:rand_trough_params"]}
{"id": "C20", "title": "Periodic domains wrap troughs", "statement": "In a periodic domain a point belongs to a trough iff it belongs to some copy of the trough shifted by integer multiples of the domain size.", "quantifier": "all troughs, all points of the domain, all integer shifts", "why_tests_cant": "Infinitely many copies.", "anchors": ["hyvr/geo/trough_ae.pyx:TroughAE.maybe_assign_points_to_object"]}
{"id": "C21", "title": "Lag layer", "statement": "Inside a trough or channel, a cell gets the lag facies (with zero angles) iff it is within lag_height of the object's lowest point; with lag_height = 0 no cell ever gets the lag facies.", "quantifier": "all troughs/channels and points", "why_tests_cant": "Boundary cases for all real inputs.", "anchors": ["hyvr/geo/trough_ae.pyx:TroughAE.maybe_assign_points_to_object", "hyvr/geo/channel_ae.pyx:ChannelAE.maybe_assign_points_to_object"]}
{"id": "C22", "title": "Trough layer lookups never leave the facies table", "statement": "For every point inside a trough with dipping layers or bulb sets, the index used to look up its facies is within the table generated for that trough (bounds checks are compiled out, so this is memory safety).", "quantifier": "all axes, layer distances > 0, shifts, dips, azimuths, all inside points", "why_tests_cant": "Off-by-one at extreme points of the ellipsoid.", "anchors": ["hyvr/geo/trough.pyx:Trough.__init__", "hyvr/geo/trough_ae.pyx:TroughAE.maybe_assign_points_to_object"]}
{"id": "C23", "title": "Bulb angles: bounded and normal to the ellipsoid", "statement": "For bulb structures the dip never exceeds the object's maximum dip in magnitude, the azimuth is within [-90, 90] degrees, both are 0 at the centre and on the vertical axis, and before limiting, (azimuth, dip) describe the outward normal of the concentric ellipsoid through the point.", "quantifier": "all troughs with non-negative maximum dip, all inside points", "why_tests_cant": "Uncountable domain; the rotation sign only matters for rotated troughs.", "anchors": ["hyvr/geo/trough_ae.pyx:TroughAE.maybe_assign_points_to_object", "hyvr/optimized.py:sign"]}
{"id": "C24", "title": "Trough placement: descending levels within the AE, migration keeps the count", "statement": "Generated trough centres are on levels spaced by `agg` starting at the AE's mean top, all levels are above the AE bottom's maximum (plus buffer), levels are visited in descending order; without migration each centre lies in the domain; with migration every level has as many troughs as the first, each displaced from the one above.", "quantifier": "all parameters with agg > 0, all random draws", "why_tests_cant": "All draws and counts.", "anchors": ["hyvr/geo/trough_utils.py:generate_trough_positions"]}
{"id": "C25", "title": "Size trend interpolates linearly with elevation", "statement": "With size_ztrend = (f0, f1) the trough axes at the domain bottom are multiplied by f0, at the top by f1, linearly in between, the axis ratios staying constant; without a trend they equal length/2, width/2, depth.", "quantifier": "all elevations and parameters (lz != 0)", "why_tests_cant": "Real quantification.", "anchors": ["hyvr/geo/trough_utils.py:rand_trough_params"]}
{"id": "C26", "title": "Channel membership is exactly the documented parabola", "statement": "With a fresh cache, a point at or below the channel top belongs to the channel iff D^2 <= w^2/4 + w^2 (z - z_ch)/(4 d), D being its horizontal distance to the nearest centreline point.", "quantifier": "all centrelines, widths, depths > 0, all points", "why_tests_cant": "Uncountable domain.", "anchors": ["hyvr/geo/channel_ae.pyx:ChannelAE.maybe_assign_points_to_object", "hyvr/geo/channel.pyx:Channel.__init__"]}
{"id": "C27", "title": "The channel skip-cache never changes the result", "statement": "Whatever cells were examined before, in any order that visits each column downwards, a cell is assigned to a channel iff the fresh-cache test would do so.", "quantifier": "all histories of examined cells, all grids", "why_tests_cant": "Depends on the whole history of previous queries.", "anchors": ["hyvr/geo/channel_ae.pyx:ChannelAE.maybe_assign_points_to_object"]}
{"id": "C28", "title": "Channel layer lookups never leave the facies table", "statement": "For every point inside a channel with dipping layers the facies index is within the table generated for that channel.", "quantifier": "all channels with positive layer distance, dips in [0, 90], all inside points", "why_tests_cant": "Fails only near the upstream end and the channel bottom.", "anchors": ["hyvr/geo/channel.pyx:Channel.__init__", "hyvr/geo/channel_ae.pyx:ChannelAE.maybe_assign_points_to_object"]}
{"id": "C29", "title": "Channel levels: number, order and range", "statement": "Channels are placed on levels ztop - dz, ztop - 2dz, ... strictly above the AE's mean bottom (plus buffer), channel_no per level, so the object list is ordered by descending top; the loop terminates for agg > 0.", "quantifier": "all parameters with agg > 0, channel_no >= 0", "why_tests_cant": "Unbounded number of levels.", "anchors": ["hyvr/geo/channel_ae.pyx:ChannelAE.generate_objects"]}
{"id": "C30", "title": "Channel centreline construction", "statement": "Before trimming every centreline is a chain of steps of equal length ds + 1e-10 beginning at the requested start point, with step directions whose mean is the flow angle, and every point's velocity is the step to the next point; rotation and shift preserve all distances; the points kept are exactly those within one channel width of the domain's x-range, in upstream-to-downstream order.", "quantifier": "all direction sequences, rotation angles, start points", "why_tests_cant": "All random direction sequences.", "anchors": ["hyvr/geo/channel_utils.py:ferguson_curve"]}
{"id": "C31", "title": "Curve resampling terminates with strictly increasing valid indices", "statement": "Resampling a curve terminates for all curves and spacings; whenever it returns, the result consists of points of the interpolated curve at strictly increasing positions beginning with the first, and between two consecutive picks the travelled path length exceeds the spacing; it does return for every non-empty curve starting at 0 and every spacing in (0, 10].", "quantifier": "all curves of length >= 1 and all spacings", "why_tests_cant": "Loop with data-dependent jumps.", "anchors": ["hyvr/optimized.py:curve_interp"]}
{"id": "C32", "title": "Sheets tile their AE", "statement": "The sheets of a sheet AE are stacked without gaps from the AE's top to its bottom; no sheet lies outside the AE, and every cell between the AE's surfaces belongs to some sheet.", "quantifier": "all AE surfaces, all lens thicknesses > 0 or massive", "why_tests_cant": "Only fails for non-flat AE bottoms.", "anchors": ["hyvr/geo/sheet_ae.py:SheetAE.generate_objects", "hyvr/geo/sheet_ae.py:SheetAE.maybe_assign_points_to_object"]}
{"id": "C33", "title": "Sheet layer lookups never leave the facies table", "statement": "For every cell inside a sheet with dipping layers the facies index is within the generated table.", "quantifier": "all grids, layer distances, dips, azimuths", "why_tests_cant": "Depends on domain proportions absent from tests.", "anchors": ["hyvr/geo/sheet.py:Sheet.__init__", "hyvr/geo/sheet_ae.py:SheetAE.maybe_assign_points_to_object"]}
{"id": "C34", "title": "Alternating facies obey the user's transition table", "statement": "A generated layer sequence has the requested length, starts with one of the element's facies and every layer is drawn from the alternatives listed for the facies of the layer before it (or from the element's facies if no table is given); every entry is a facies of the element if the table is closed; it fails with an error exactly if a drawn facies has no table row or the length is 0.", "quantifier": "all facies lists, tables, lengths >= 1 and random choices", "why_tests_cant": "All random choices.", "anchors": ["hyvr/utils.py:get_alternating_facies"]}
{"id": "C35", "title": "Facies-level parameters are table lookups", "statement": "With facies-level heterogeneity every cell's k, porosity and anisotropy ratio equal the table values of the cell's facies, whatever the ha values are.", "quantifier": "all facies/ha arrays, all tables covering the occurring facies", "why_tests_cant": "All array contents.", "anchors": ["hyvr/geo/model.py:Model.generate_hydraulic_parameters"]}
{"id": "C36", "title": "Homogeneous parameters are table lookups", "statement": "With heterogeneity switched off every cell's k, porosity and anisotropy ratio equal the table values of the cell's facies, for ini-files in either format.", "quantifier": "all facies arrays, both formats", "why_tests_cant": "Feature not covered by tests; the new format lacks a key.", "anchors": ["hyvr/geo/model.py:Model.generate_hydraulic_parameters", "hyvr/input/parameters.py:get_new_parameters_from_deprecated"]}
{"id": "C37", "title": "Internal heterogeneity keeps k positive and centred on the cell's own facies", "statement": "With internal heterogeneity every cell's k is positive if all table values are, its logarithm minus the random field equals log of the table value of the cell's facies (background cells: the AE's background facies), and its anisotropy ratio is that of the cell's facies.", "quantifier": "all arrays, all random fields", "why_tests_cant": "All random fields; the background selection is by ha.", "anchors": ["hyvr/geo/model.py:Model.generate_hydraulic_parameters"]}
{"id": "C38", "title": "Trends are applied to the stored conductivity and porosity", "statement": "A vertical (longitudinal) trend multiplies every stored k or porosity value by the linearly interpolated factor of its layer (column), the first layer by the first factor and the last by the last; the stored k and the conductivity tensors stay consistent.", "quantifier": "all arrays, all trends", "why_tests_cant": "All array contents; aliasing of arrays.", "anchors": ["hyvr/geo/model.py:Model.generate_hydraulic_parameters"]}
{"id": "C39", "title": "Conductivity tensor equals the documented rotation", "statement": "For every cell the stored tensor is k * R M R^T with M = diag(1, 1, 1/anirat) and R the documented rotation by azimuth and dip.", "quantifier": "all k, angles, anisotropy ratios != 0, all cells", "why_tests_cant": "Trigonometric identity for all angles.", "anchors": ["hyvr/optimized.py:set_anisotropic_ktensor"]}
{"id": "C40", "title": "Conductivity tensors are symmetric positive definite", "statement": "For k > 0 and anirat > 0 every stored tensor is symmetric and positive definite, with determinant k^3/anirat and trace k(2 + 1/anirat); its smallest/other principal conductivity k/anirat is along the bedding normal and k in the bedding plane; anirat = 1 gives k times the identity; zero dip makes it independent of azimuth.", "quantifier": "all k > 0, anirat > 0, all angles", "why_tests_cant": "All reals.", "anchors": ["hyvr/optimized.py:set_anisotropic_ktensor"]}
{"id": "C41", "title": "Masked random fields land on the right cells", "statement": "Random values generated for a set of selected cells are returned one per selected cell, in the same order in which writing them back through the mask consumes them: the cell at (i,j,k) receives the field value at its offset in the smallest box containing the selection.", "quantifier": "all non-empty masks on all grids, all fields", "why_tests_cant": "All masks.", "anchors": ["hyvr/utils.py:specsim", "hyvr/geo/model.py:Model.generate_hydraulic_parameters"]}
{"id": "C42", "title": "Random contact surfaces have the requested mean elevation", "statement": "A random contact surface has mean elevation exactly z (in exact arithmetic), for every realisation.", "quantifier": "all grids, all random draws, all covariance parameters", "why_tests_cant": "All random draws.", "anchors": ["hyvr/utils.py:specsim", "hyvr/geo/contact_surface.py:ContactSurface.__init__"]}
{"id": "C43", "title": "Lists in the ini-file are read back as written", "statement": "Writing a scalar, a non-empty list, or a non-empty list of non-empty lists of tokens with brackets, commas and arbitrary spaces and parsing it yields the same nested list; other nesting depths are not supported.", "quantifier": "all token values without brackets/commas/spaces, all list lengths, all spacings", "why_tests_cant": "All strings.", "anchors": ["hyvr/input/option_parsing.py:parse_list"]}
{"id": "C44", "title": "Accepted lists have the declared shape", "statement": "If an option declared with a shape is accepted, the resulting nested list has exactly this shape: e.g. for `shape=2` two scalars, for `shape='hydrofacies'` one scalar per hydrofacies, for `['hydrofacies', 3]` one triple per hydrofacies.", "quantifier": "all option strings, all referenced options", "why_tests_cant": "All input strings.", "anchors": ["hyvr/input/option_parsing.py:Option.parse", "hyvr/input/option_parsing.py:compare_shapes"]}
{"id": "C45", "title": "Scalars and inner lists are expanded to the declared shape", "statement": "A single value given for an option with a declared shape (without -1) is replicated to that shape; a list given for the innermost dimension is replicated along the outer ones.", "quantifier": "all shapes and values", "why_tests_cant": "All shapes; documented for any number of dimensions.", "anchors": ["hyvr/input/option_parsing.py:expand_shape", "hyvr/input/option_parsing.py:expand_to_shape", "hyvr/input/option_parsing.py:Option.parse"]}
{"id": "C46", "title": "After parsing a section every declared option is present", "statement": "Parsing a section either raises or returns a dictionary containing every declared option: with the parsed value if given, with the value of the first given alternative name if only that is given (which is then removed), with the default otherwise; a missing required option raises; undeclared options are kept unchanged.", "quantifier": "all section contents and option lists (distinct names)", "why_tests_cant": "All dictionaries.", "anchors": ["hyvr/input/option_parsing.py:Section.parse", "hyvr/input/option_parsing.py:Option.parse"]}
{"id": "C47", "title": "Boolean options", "statement": "A boolean option is accepted iff (ignoring case) it is true/yes/false/no or a string of digits; it is true for true/yes and for digit strings denoting a nonzero number.", "quantifier": "all strings", "why_tests_cant": "All strings.", "anchors": ["hyvr/input/option_parsing.py:parse_bool"]}
{"id": "C48", "title": "Contact model parsing", "statement": "A contact model list is accepted iff it is [flat(, z)] or [random(, z), var, corlx, corly] with numbers in place (z exactly for strata), and the result carries exactly those values; accepted models can be used to build a surface.", "quantifier": "all string lists", "why_tests_cant": "All lists; includes case variants of the mode.", "anchors": ["hyvr/geo/contact_surface_utils.py:parse_contact_model", "hyvr/geo/contact_surface.py:ContactSurface.__init__"]}
{"id": "C49", "title": "Facies names and numbers correspond", "statement": "Facies names are translated to indices of the hydrofacies list such that looking the index up returns the name; translation fails iff a name is not declared; all facies numbers used by an element are valid indices.", "quantifier": "all facies lists", "why_tests_cant": "All lists.", "anchors": ["hyvr/input/parameters.py:parse_facies", "hyvr/input/parameters.py:get_new_facies_list"]}
{"id": "C50", "title": "Structures require their layer distance", "statement": "An element section is rejected if its structure needs a layer distance that is not given: dip needs dipset_dist, bulb_sets needs bulbset_dist, random needs both; otherwise it is accepted.", "quantifier": "all structure/option combinations", "why_tests_cant": "Combination not in tests.", "anchors": ["hyvr/input/parameters.py:parse_inifile"]}
{"id": "C51", "title": "Old-format ini-files are converted without loss", "statement": "Converting an old-format element or strata section yields a new-format section with the same background facies/azimuth/dip, lag, layer distances, trends, contact model and density.", "quantifier": "all old-format sections", "why_tests_cant": "All values.", "anchors": ["hyvr/input/parameters.py:get_new_parameters_from_deprecated"]}
{"id": "C52", "title": "Strata options are matched to strata bottom-up", "statement": "The k-th stratum from the top is generated with the k-th-from-last entry of every strata option, and its bottom contact is the top contact of the stratum listed before it; all these accesses by stratum are in range for every accepted ini-file.", "quantifier": "all numbers of strata", "why_tests_cant": "All lengths; negative indexing.", "anchors": ["hyvr/geo/model.py:Model.generate_model", "hyvr/input/parameters.py:parse_inifile"]}
{"id": "C53", "title": "Run name and run directory", "statement": "Without a given runname it is the ini-file name without its last extension; the run directory is <modeldir or ini directory>/<runname>. Re-running from the automatically written backup file uses the same run name and the same run directory.", "quantifier": "all file names and directories", "why_tests_cant": "All names, including several dots.", "anchors": ["hyvr/input/parameters.py:parameters", "hyvr/input/parameters.py:set_up_directories"]}
{"id": "C54", "title": "Existing results are only deleted with permission", "statement": "If the run directory exists and overwriting is not enabled the run stops with an error and no existing file is changed; if enabled, afterwards the run directory contains exactly the backup ini-file; files outside the run directory are never changed.", "quantifier": "all file systems, all run settings", "why_tests_cant": "All directory contents.", "anchors": ["hyvr/input/parameters.py:set_up_directories"]}
{"id": "C55", "title": "The overwrite argument takes precedence over the ini-file", "statement": "If the caller passes an overwrite flag it decides; only if none is passed the ini-file option decides.", "quantifier": "all combinations of flag, option, existing directory", "why_tests_cant": "The code reads the other variable.", "anchors": ["hyvr/input/parameters.py:set_up_directories", "hyvr/sim.py:run", "hyvr/__main__.py"]}
{"id": "C56", "title": "An interrupted set-up never loses the ini-file", "statement": "Whatever point set-up is interrupted at, the ini-file the run was started from, or its backup with the same content, still exists.", "quantifier": "all crash points, all file systems", "why_tests_cant": "All crash points.", "anchors": ["hyvr/input/parameters.py:set_up_directories"]}
{"id": "C57", "title": "Realisations are stored separately and completely", "statement": "A run with numsim = n > 1 writes realisation s into its own directory real_<s> (names distinct for distinct s, also beyond 999), with n = 1 directly into the run directory; the outputs of each realisation are never overwritten by another.", "quantifier": "all n", "why_tests_cant": "All n.", "anchors": ["hyvr/sim.py:run"]}
{"id": "C58", "title": "A missing optional library only skips its own format", "statement": "Whatever subset of output formats fails for a missing library, all other requested formats are still written, in order; any other failure stops at that format with all earlier formats written; an unknown format raises.", "quantifier": "all format lists, all failure patterns", "why_tests_cant": "All failure patterns.", "anchors": ["hyvr/postprocess/output.py:create_outputs"]}
{"id": "C59", "title": "VTR nodes enclose the cells", "statement": "The VTR grid has exactly one more node than cells per axis and cell i's centre is midway between nodes i and i+1.", "quantifier": "all grids", "why_tests_cant": "Extents that are not multiples of the spacing.", "anchors": ["hyvr/postprocess/output.py:to_vtr", "hyvr/geo/grid.py:Grid.__init__"]}
{"id": "C60", "title": "MODFLOW output puts every conductivity at its elevation", "statement": "In the MODFLOW and MODFLOW 6 output the value of grid cell (i,j,k) is assigned to the layer whose elevation range contains the cell's centre.", "quantifier": "all grids, all cells", "why_tests_cant": "Never executed in tests (needs flopy).", "anchors": ["hyvr/postprocess/output.py:to_modflow", "hyvr/postprocess/output.py:to_mf6"]}
{"id": "C61", "title": "MODFLOW 6 discretisation and boundary conditions", "statement": "Column widths and row widths given to MODFLOW match the grid spacings of the axes that were mapped to columns and rows, layer bottoms number nz, and the constant-head list contains each inlet cell with hin and each outlet cell with hout exactly once.", "quantifier": "all grids", "why_tests_cant": "Never executed in tests.", "anchors": ["hyvr/postprocess/output.py:to_modflow", "hyvr/postprocess/output.py:to_mf6"]}
{"id": "C62", "title": "HydroGeoSphere rows correspond one-to-one to grid cells", "statement": "Row r (numbered from 1) of the HGS files describes cell (i,j,k) with r = (i*ny + j)*nz + k + 1; this is a bijection between rows and cells and all six tensor components and the porosity of a row belong to the same cell.", "quantifier": "all grid sizes", "why_tests_cant": "All sizes.", "anchors": ["hyvr/postprocess/output.py:to_hgs"]}
{"id": "C63", "title": "Realisations do not depend on earlier realisations", "statement": "The model generated in the n-th realisation depends only on the parameters and the random numbers drawn in it, not on earlier realisations (shared, mutated parameter dictionaries notwithstanding).", "quantifier": "all histories of earlier realisations", "why_tests_cant": "All histories.", "anchors": ["hyvr/geo/stratum.py:Stratum.__init__", "hyvr/geo/ae_types.py:AEType.__init__", "hyvr/sim.py:run"]}
{"id": "C64", "title": "AE type probabilities are relative weights", "statement": "The probabilities used for choosing AE types are non-negative, sum to one and are proportional to the given weights whenever these are non-negative with positive sum; a type of weight 0 is never chosen and a chosen type is one of the stratum's types.", "quantifier": "all weight vectors", "why_tests_cant": "All vectors.", "anchors": ["hyvr/geo/stratum.py:prob_choose"]}
{"id": "C65", "title": "Undisturbed meander directions decay and vanish without noise", "statement": "Without noise the centreline directions are all zero; the direction recurrence is linear in the noise; for k*h > 0, bounded noise gives bounded directions, and after the noise stops the directions decay geometrically (times a linear factor).", "quantifier": "all noise sequences, all steps", "why_tests_cant": "Unbounded sequences.", "anchors": ["hyvr/geo/channel_utils.py:thetaAR2", "hyvr/geo/channel_utils.py:ferguson_theta"]}
{"id": "C66", "title": "The built-in test case leaves nothing behind", "statement": "Running the built-in test case creates a fresh temporary directory, writes only there and removes it: the file system afterwards equals the one before.", "quantifier": "all file systems", "why_tests_cant": "All file systems.", "anchors": ["hyvr/sim.py:run", "hyvr/input/parameters.py:set_up_directories"]}
{"id": "C67", "title": "Cutting an AE into sheets terminates exactly for positive thickness", "statement": "For every positive sheet thickness (or massive sheets) the sheets of an AE are generated in finitely many steps, at most height range / thickness + 1; for a thickness of zero or below (other than the marker -1) generation never ends if the AE has a positive height range.", "quantifier": "all AE surfaces, all thicknesses", "why_tests_cant": "Termination for all surfaces and thicknesses, and non-termination, cannot be observed by a test.", "anchors": ["hyvr/geo/sheet_ae.py:SheetAE.generate_objects"]}
{"id": "C68", "title": "Thickness of dipping layers", "statement": "In troughs and sheets with structure 'dip', every layer has thickness dipset_dist measured perpendicular to the layers.", "quantifier": "all troughs and sheets with dipping layers, all inside points", "why_tests_cant": "Needs pairs of arbitrarily close points on both sides of a layer boundary.", "anchors": ["hyvr/geo/trough_ae.pyx:TroughAE.maybe_assign_points_to_object", "hyvr/geo/sheet_ae.py:SheetAE.maybe_assign_points_to_object"]}
{"id": "C69", "title": "Layers are parallel to the recorded bedding", "statement": "Two cells of an object with dipping layers that lie in one plane having the azimuth and dip recorded for both cells (in the sense used for the conductivity tensor) get the same facies.", "quantifier": "all objects with dipping layers, all pairs of inside points above the lag", "why_tests_cant": "Relation between pairs of points of a continuum.", "anchors": ["hyvr/geo/trough.pyx:Trough.__init__", "hyvr/geo/sheet.py:Sheet.__init__", "hyvr/geo/channel_ae.pyx:ChannelAE.maybe_assign_points_to_object", "hyvr/optimized.py:set_anisotropic_ktensor"]}
{"id": "C70", "title": "Channel size trend", "statement": "With a configured size_ztrend the channels of an AE are generated, with width and depth scaled by the factor interpolated linearly between the domain's bottom and top.", "quantifier": "all parameters and draws", "why_tests_cant": "All elevations and parameter values.", "anchors": ["hyvr/geo/channel_ae.pyx:ChannelAE.generate_objects"]}
{"id": "C71", "title": "Channels cross the domain", "statement": "The centreline of a channel that starts upstream of the domain reaches the downstream edge of the domain.", "quantifier": "all grids, flow angles, step lengths below the channel width, all noise", "why_tests_cant": "All random direction sequences.", "anchors": ["hyvr/geo/channel_utils.py:ferguson_curve", "hyvr/optimized.py:curve_interp", "hyvr/geo/channel_ae.pyx:ChannelAE.generate_objects"]}
{"id": "C72", "title": "Azimuth of channel cells", "statement": "Cells of a channel with dipping layers get as azimuth a (weighted) flow direction of the centreline; cells of massive channels get an azimuth from the configured range.", "quantifier": "all centrelines and inside points", "why_tests_cant": "Uncountable domain.", "anchors": ["hyvr/geo/channel_ae.pyx:ChannelAE.maybe_assign_points_to_object", "hyvr/geo/channel.pyx:Channel.__init__"]}
{"id": "C73", "title": "Channels start just upstream of the domain", "statement": "A channel's centreline starts half a channel width upstream of the domain, measured along the flow direction, at the drawn lateral offset from the domain's centre.", "quantifier": "all grids, flow angles, widths and offsets", "why_tests_cant": "Uncountable domain; the default origin 0 hides the dependence on the origin.", "anchors": ["hyvr/geo/channel_ae.pyx:ChannelAE.generate_objects"]}
{"id": "C74", "title": "Internal structure is the one configured", "statement": "A trough accepts exactly the structures massive, dip, bulb, bulb_sets and random; above the lag, massive troughs have one configured facies, azimuth and dip, dipping ones one azimuth and dip and facies from the layer table, bulbs one facies, bulb sets one facies per shell.", "quantifier": "all troughs, all inside points", "why_tests_cant": "All real inputs and draws.", "anchors": ["hyvr/geo/trough.pyx:Trough.__init__", "hyvr/geo/trough_ae.pyx:TroughAE.maybe_assign_points_to_object"]}
{"id": "C75", "title": "Trends of an architectural element stay inside it", "statement": "A conductivity trend given for one architectural element changes the conductivity of cells of that element only.", "quantifier": "all arrays, all elements, all trends", "why_tests_cant": "All array contents and element layouts; the code multiplies whole arrays.", "anchors": ["hyvr/geo/model.py:Model.generate_hydraulic_parameters"]}
{"id": "C76", "title": "Random fields vary in every direction", "statement": "With positive variance a random contact surface undulates, and internal heterogeneity varies, whatever the number of cells in each direction: no direction is forced to a constant average by construction.", "quantifier": "all grids, all random draws, all covariance parameters", "why_tests_cant": "All random draws; a degenerate spectrum looks random on the grids used in tests.", "anchors": ["hyvr/utils.py:specsim"]}
{"id": "C77", "title": "Random fields have the requested stationary covariance", "statement": "For uncorrelated standard random numbers the covariance of the simulated field at two cells depends only on their offset and equals the requested covariance model at that offset.", "quantifier": "all grids, all covariance parameters, all pairs of cells, expectation over all random draws", "why_tests_cant": "A statement about expectations over all random numbers.", "anchors": ["hyvr/utils.py:specsim"]}
{"id": "C78", "title": "Lists of three or more dimensions are read back as written", "statement": "The documentation of parse_list allows nested lists of any depth: writing a list of lists of lists (and deeper) of tokens and parsing it yields the same nested list.", "quantifier": "all nested lists of depth three or more", "why_tests_cant": "All nestings and all tokens; the failing inputs do not raise but return other values.", "anchors": ["hyvr/input/option_parsing.py:parse_list"]}
{"id": "C79", "title": "A text that is not a list is not read as one", "statement": "If an option text starting with a bracket is accepted, it is a properly closed list and the result contains every character written between the separators: nothing the user wrote is silently dropped.", "quantifier": "all texts", "why_tests_cant": "All strings; a typo in the ini-file changes a number instead of raising.", "anchors": ["hyvr/input/option_parsing.py:parse_list"]}
{"id": "C80", "title": "The covariance models have the requested variance and correlation length", "statement": "The Gaussian and the exponential covariance equal the variance at distance zero, variance/e at one correlation length, are positive, even and strictly decreasing with distance; any other model name is rejected.", "quantifier": "all variances, all distances, all model names", "why_tests_cant": "Real-valued functions over all distances.", "anchors": ["hyvr/utils.py:specsim"]}
{"id": "C81", "title": "Only valid values are accepted", "statement": "Every value of an accepted section passes the validity test declared for its option (inside lists: every entry), or is the declared default of an optional option that was left out; a single value that passes is accepted. In particular the outputs are documented formats and the structure of an element is one its geometry knows.", "quantifier": "all texts, all option tables with distinct names, all converters", "why_tests_cant": "All texts and all nestings of lists.", "anchors": ["hyvr/input/option_parsing.py:Option.parse", "hyvr/input/options.py", "hyvr/input/option_parsing.py:all_true"]}
{"id": "C82", "title": "Any positive number of strata can be described", "statement": "For every n >= 1 there is an accepted ini-file with n strata; in particular a model with one stratum needs no contact models.", "quantifier": "all n", "why_tests_cant": "All n; the boundary case n = 1 depends on how empty lists are parsed.", "anchors": ["hyvr/input/parameters.py:parse_inifile", "hyvr/input/option_parsing.py:parse_list"]}
{"id": "C83", "title": "The documented form of avul_prob is accepted", "statement": "A flat list with one avulsion probability per stratum, as documented, is accepted for avul_prob and gives stratum i the i-th probability.", "quantifier": "all numbers of strata, all probabilities", "why_tests_cant": "All lengths; interaction of broadcasting with the declared shape.", "anchors": ["hyvr/input/options.py", "hyvr/input/option_parsing.py:Option.parse", "docs/inout.rst"]}
{"id": "C84", "title": "Strata refer to existing elements", "statement": "If an ini-file is accepted, every stratum gets exactly the elements listed for it, in order; a name without an element section is rejected when the file is read.", "quantifier": "all accepted ini-files, all strata", "why_tests_cant": "All names and all lists; the failure occurs after existing output was deleted.", "anchors": ["hyvr/input/parameters.py:parse_inifile", "hyvr/geo/model.py:Model.generate_model"]}
{"id": "C85", "title": "Element numbers are total and injective on listed sections", "statement": "Every element section listed in `ae` gets exactly one number; setting up fails (ValueError) iff some element section is not listed; different element sections get different numbers.", "quantifier": "all accepted ini-files", "why_tests_cant": "All lists of sections.", "anchors": ["hyvr/input/parameters.py:setup_from_inifile"]}
{"id": "C86", "title": "Grid spacing defaults", "statement": "dx is the number written in the ini-file; dy and dz are the numbers written or, if left out, equal to dx.", "quantifier": "all model sections, all combinations of given and missing", "why_tests_cant": "All texts.", "anchors": ["hyvr/input/parameters.py:parse_inifile"]}
{"id": "C87", "title": "Flow output needs the flowtrans section", "statement": "An accepted ini-file asking for MODFLOW, MODFLOW 6 or HGS output has a flowtrans section that was accepted; other ini-files may leave it out; a missing section is reported as such.", "quantifier": "all ini-files, all lists of outputs", "why_tests_cant": "All combinations.", "anchors": ["hyvr/input/parameters.py:parse_inifile"]}
{"id": "C88", "title": "Hydraulic tables have one row per facies", "statement": "Whatever form the hydraulic options of an accepted ini-file have (single value, list, nested list), each table has exactly one row per hydrofacies, so every facies number assigned by the parser has a row in each table.", "quantifier": "all texts, all numbers of facies", "why_tests_cant": "All texts including irregular nestings.", "anchors": ["hyvr/input/options.py", "hyvr/input/option_parsing.py:Option.parse", "hyvr/geo/model.py:Model.generate_hydraulic_parameters"]}
{"id": "C89", "title": "Every accepted element can be generated", "statement": "For every accepted ini-file, the geometry of each element is one that is generated (trough, channel, sheet) and the structure of each trough is one the generation knows, for every random draw.", "quantifier": "all accepted ini-files of both formats, all draws", "why_tests_cant": "All combinations of accepted option values and draws.", "anchors": ["hyvr/input/parameters.py:get_new_parameters_from_deprecated", "hyvr/geo/ae_types.py:AEType", "hyvr/geo/trough.pyx:Trough.__init__", "hyvr/input/options_deprecated.py"]}
{"id": "C90", "title": "Starting a run keeps the files beside the ini-file", "statement": "For every ini-file that is not a backup file, setting up the run directory leaves the ini-file and everything beside it untouched, except for the subdirectory named after the run.", "quantifier": "all ini-file names, all file systems, all crash points", "why_tests_cant": "All file names including those without extension, all directory contents and all points of interruption.", "anchors": ["hyvr/input/parameters.py:parameters", "hyvr/input/parameters.py:set_up_directories"]}
{"id": "C91", "title": "Every section of the ini-file has an effect", "statement": "An ini-file without one of the sections run, model, strata, hydraulics is refused; in an accepted one the elements are exactly the remaining sections other than flowtrans, with their names and in file order.", "quantifier": "all ini-files", "why_tests_cant": "All sets of sections.", "anchors": ["hyvr/input/parameters.py:parse_inifile"]}
{"id": "C92", "title": "MODFLOW 6 boundary conditions are those of the flowtrans section", "statement": "The boundary conditions written for MODFLOW and MODFLOW 6 are the ones given in the flowtrans section: given heads at inlet and outlet, or a given gradient, or a given inflow at the inlet cells, and nothing that was not given.", "quantifier": "all grids, all combinations of given options", "why_tests_cant": "All combinations of options; the writers are never executed in tests (need flopy).", "anchors": ["hyvr/postprocess/output.py:to_modflow", "hyvr/postprocess/output.py:to_mf6", "hyvr/input/options.py"]}
{"id": "C93", "title": "Every listed output can be written for every generated model", "statement": "Whichever formats a user lists and whether or not hydraulic parameters were generated, every listed format whose library is installed is written.", "quantifier": "all models with and without hydraulic parameters, all format lists", "why_tests_cant": "All combinations of formats and generated arrays; needs libraries that tests do not have.", "anchors": ["hyvr/postprocess/output.py:to_modflow", "hyvr/postprocess/output.py:to_mf6", "hyvr/postprocess/output.py:to_hgs", "hyvr/geo/model.py"]}
{"id": "C94", "title": "Cross sections show the requested slice", "statement": "cross_section_pcolor plots, for every requested y or x position inside the domain, the slice of cells that contains the position, with the cell coordinates; without a position it plots the slice through the centre of the domain; only positions outside the domain are reported as such.", "quantifier": "all grids (origins, spacings, lengths), all positions, all fields", "why_tests_cant": "All real positions and spacings; plotting is never tested, and the usual spacing 1 hides the mistake.", "anchors": ["hyvr/postprocess/plotting.py:cross_section_pcolor"]}
{"id": "C95", "title": "The log option of the plots", "statement": "cross_section_pcolor with log=True plots the logarithm of the field.", "quantifier": "all grids, all fields, all positions", "why_tests_cant": "Plotting is never executed in tests.", "anchors": ["hyvr/postprocess/plotting.py:cross_section_pcolor"]}
{"id": "C96", "title": "A rejected ini-file leaves existing files alone", "statement": "If setup_from_inifile raises, whatever the reason (file not found, missing or invalid options, an unusable grid, a run directory that may not be overwritten), then at no time has a file or directory that existed before been changed or deleted, even if overwriting is enabled.", "quantifier": "all ini-files in both formats, all converters, all file systems of files and directories, all overwrite settings, all intermediate states", "why_tests_cant": "All ini-files and all intermediate states of the file system; needs the order of parsing, model construction and deletion.", "anchors": ["hyvr/input/parameters.py:setup_from_inifile", "hyvr/input/parameters.py:parameters", "hyvr/input/parameters.py:set_up_directories", "hyvr/geo/model.py:__init__"]}
{"id": "C97", "title": "Mistakes in an ini-file do not cost earlier results", "statement": "If a run ends with an exception because of the contents of the ini-file, the results of an earlier run in the run directory are still there.", "quantifier": "all ini-files, all file systems of files and directories, all intermediate states, all behaviours of strata generation and writers that raise nothing themselves", "why_tests_cant": "All ini-files, all generators, all file systems; deletion happens before the mistake is noticed.", "anchors": ["hyvr/sim.py:run", "hyvr/input/parameters.py:setup_from_inifile", "hyvr/geo/model.py:generate_model"]}
{"id": "C98", "title": "A run from the ini-file to the files", "statement": "Running <s>.<ext> (no runname, no modeldir, accepted, all used elements have sections, run directory new or to be overwritten) ends without exception if generation of strata and writers raise none; the files of realisation i of n are in <s>/real_<i> beside the ini-file (in <s> for one realisation), n being the number in the ini-file; for several realisations the copy of the ini-file is in <s>; nothing outside <s> changes at any time.", "quantifier": "all names, all accepted new-format ini-files, all numbers of realisations, all generators and writers, all file systems of files and directories, all intermediate states", "why_tests_cant": "Composition of parsing, naming, set-up and the loop for all inputs and all intermediate states.", "anchors": ["hyvr/sim.py:run", "hyvr/input/parameters.py:parameters", "hyvr/input/parameters.py:set_up_directories", "hyvr/geo/model.py:generate_model"]}
{"id": "C99", "title": "Accepted ini-files can be generated", "statement": "If an ini-file is accepted, generating the strata, architectural elements and sheets of the model raises no exception, whatever the random numbers are; and if the mean thicknesses, reduced by the least normal number drawn, exceed the greatest avulsion by a positive bound and sheets have a positive thickness, generation ends, with one stratum for each name in the option strata, the same for every larger number of passes granted to the loops.", "quantifier": "all accepted ini-files, all random numbers and random fields, all grids", "why_tests_cant": "Whether an exception or an endless loop can occur depends on every option and on an unbounded sequence of random numbers.", "anchors": ["hyvr/geo/model.py:Model.generate_model", "hyvr/geo/stratum.py:Stratum.__init__", "hyvr/geo/stratum.py:prob_choose", "hyvr/geo/ae_realization.py:AERealization.__init__", "hyvr/geo/sheet_ae.py:SheetAE.generate_objects", "hyvr/input/parameters.py:parse_inifile"]}
{"id": "C100", "title": "AEs are those of the ini-file", "statement": "Every architectural element (AE) of a model generated from an ini-file belongs to an element listed in ae_in_strata for its stratum (strata counted from the top, options from the bottom): the one whose interval of cumulated ae_prob weights contains the uniform number drawn for that AE, never one of weight zero. Its type number is the position of its name in the option ae, it consists of sheets exactly if the element's geometry is sheet, and its background facies, azimuth and dip are those of the element's section, or those of the stratum where the section has none.", "quantifier": "all accepted new-format ini-files, all random numbers, every model that generation ends with, all its strata and AEs", "why_tests_cant": "Composes parsing, name look-ups, the choice and the generation loops for every ini-file and unboundedly many random numbers.", "anchors": ["hyvr/geo/model.py:Model.generate_model", "hyvr/geo/stratum.py:Stratum.__init__", "hyvr/geo/stratum.py:prob_choose", "hyvr/geo/ae_realization.py:AERealization.__init__", "hyvr/input/parameters.py:parse_inifile"]}
{"id": "C101", "title": "AEs are stacked as the ini-file says", "statement": "In a model generated from an ini-file: the grid has as many columns as cells of size dx and dy fill lx and ly; the bottom of each stratum is the contact surface between it and the stratum listed before it (z plus random field, or flat), cut off by its top, and flat at z0 for the lowest stratum; the thickness of an AE is mean*(1+normal/10), less a uniform number between the two entries of avul if the avulsion number is at most avul_prob, the mean being that given in ae_z_mean for the AE's name; AEs are added, no fewer and no more, until the summed thicknesses reach from the mean level of the stratum's top to that of its bottom; the bottom of an AE other than the last is the contact surface of the next AE's element at the level reached, cut off by the AE's top and the stratum's bottom.", "quantifier": "all accepted new-format ini-files, all random numbers and fields, every model that generation ends with, all its strata, AEs and columns", "why_tests_cant": "Surfaces are shared and changed by later steps; the statement is about the final heap after unboundedly many passes.", "anchors": ["hyvr/geo/stratum.py:Stratum.__init__", "hyvr/geo/model.py:Model.generate_model", "hyvr/geo/contact_surface.py:ContactSurface", "hyvr/geo/grid.py:Grid.__init__"]}
{"id": "C102", "title": "Cells hold what the ini-file declares", "statement": "In a model generated from an ini-file, every cell is either untouched (outside all AEs) or lies in an AE of its stratum and has the background facies, azimuth and dip of that AE, or values that the AE's section of the ini-file allows for its objects: a facies of the option facies (in layered objects also one of altfacies, in lags lag_facies), azimuths and dips within the ranges given (relative to the direction of the trough, within 90 degrees for bulbs, 0 in lags). In particular every facies number is that of a facies declared in hydrofacies.", "quantifier": "all accepted new-format ini-files, all random numbers, every model that generation ends with, all cells", "why_tests_cant": "A single wrong index in one of three geometries writes undeclared values in rare cells; the claim covers all cells of all models of all ini-files.", "anchors": ["hyvr/assign_points.py:assign_points", "hyvr/geo/trough_ae.pyx:TroughAE.maybe_assign_points_to_object", "hyvr/geo/channel_ae.pyx:ChannelAE.maybe_assign_points_to_object", "hyvr/geo/sheet.py:Sheet", "hyvr/utils.py:get_alternating_facies", "hyvr/input/parameters.py:parse_inifile"]}
{"id": "C103", "title": "Models without layered sheets and channels hold declared values only", "statement": "If no section of sheets or channels has structure dip, and sections of layered troughs have positive sizes and layer distances and no size trend, then every facies number in the model is that of a facies declared in hydrofacies, and no dip in the model is larger than the largest dip in the ini-file.", "quantifier": "all accepted new-format ini-files of this kind, all random numbers, every model that generation ends with, all cells", "why_tests_cant": "Universal over random numbers, sizes and cells; depends on the index arithmetic of layers near the boundary of objects.", "anchors": ["hyvr/assign_points.py:assign_points", "hyvr/geo/trough_ae.pyx:TroughAE.maybe_assign_points_to_object", "hyvr/geo/model.py:Model.generate_model"]}
{"id": "C104", "title": "Placing objects from an ini-file raises nothing and ends", "statement": "For a well filled ini-file (as in C99) whose lists of numbers are well written, with a domain of positive length and width, sheets without dipping layers, troughs of positive size, aggradation and layer distance without trend and with no negative density, and channels of positive width, aggradation and step without trend, with h at most 1 in size and no negative depth and number, generation including the placing of all troughs, channels and sheets raises no exception. If moreover a positive rest of every mean thickness remains after the greatest avulsion, it ends, with one stratum for every name in the option strata.", "quantifier": "all such new-format ini-files, all random numbers (uniform ones in [0,1)), any number of levels, troughs and channels", "why_tests_cant": "Exceptions and endless loops depend on unboundedly many random numbers: centrelines of channels are drawn until they leave the domain.", "anchors": ["hyvr/geo/trough_ae.pyx:TroughAE.generate_objects", "hyvr/geo/trough_utils.py:generate_trough_positions", "hyvr/geo/channel_ae.pyx:ChannelAE.generate_objects", "hyvr/geo/channel_utils.py:ferguson_curve", "hyvr/geo/sheet_ae.py:SheetAE.generate_objects", "hyvr/geo/model.py:Model.generate_model"]}
{"id": "C105", "title": "Troughs of the ini-file are where and as large as their section says", "statement": "In a model generated from an ini-file, every trough AE holds exactly one trough for each centre that its section prescribes, in order: the points of te_xyz or, without it, points on levels agg apart, from the mean level of the AE's top down to depth*buffer above the highest point of its bottom, placed anew on each level or displaced by the option migrate. The cells of a trough are those whose centres lie in the half ellipsoid below its centre with diameters length and width and depth depth, all times the linear factor of size_ztrend at the centre, turned by an angle within paleoflow; in periodic domains also those in copies shifted by the lengths of the domain. Cells less than lag_height above its bottom have lag_facies and angles 0.", "quantifier": "all accepted new-format ini-files, all random numbers (uniform ones in [0,1)), every model that generation ends with, all strata, trough AEs, troughs and cells", "why_tests_cant": "Composes parsing, stacking of surfaces, placing and the inclusion test over unboundedly many objects, cells and random numbers.", "anchors": ["hyvr/geo/trough_ae.pyx:TroughAE.generate_objects", "hyvr/geo/trough_utils.py:generate_trough_positions", "hyvr/geo/trough.pyx:Trough.__init__", "hyvr/geo/trough_ae.pyx:TroughAE.maybe_assign_points_to_object", "hyvr/input/parameters.py:parse_inifile"]}
{"id": "C106", "title": "Channels of the ini-file are where and as large as their section says", "statement": "In a model generated from an ini-file, every channel AE holds channel_no channels on each level; the levels are agg apart, from agg below the mean level of the AE's top down to depth*buffer above the mean level of its bottom. The cells of a channel are those below its top whose centres lie above the parabola over the nearest point of its centreline that is width wide and depth deep, except those the distance test skips. The centreline is a chain of steps of length ds whose directions follow Ferguson's process with the options h, k and eps_factor and have the mean flow_angle; it starts upstream of the domain, moved sideways by at most mig per level. Cells less than lag_height above its bottom have lag_facies and angles 0. Sections with size_ztrend or a negative channel_no give no model.", "quantifier": "all accepted new-format ini-files, all random numbers, every model that generation ends with, all strata, channel AEs, channels and cells (centrelines for |h| <= 1)", "why_tests_cant": "Composes parsing, stacking of surfaces, a stochastic process of unbounded length and the inclusion test over all cells.", "anchors": ["hyvr/geo/channel_ae.pyx:ChannelAE.generate_objects", "hyvr/geo/channel_utils.py:ferguson_curve", "hyvr/geo/channel_utils.py:ferguson_theta", "hyvr/geo/channel_ae.pyx:ChannelAE.maybe_assign_points_to_object", "hyvr/input/parameters.py:parse_inifile"]}
{"id": "C107", "title": "Sheets of the ini-file are as thick as their section says", "statement": "In a model generated from an ini-file, a sheet AE with lens_thickness -1 is a single sheet from its bottom to its top surface. Otherwise it is cut by horizontal planes that are lens_thickness, times the factor of size_ztrend at the middle of the AE (constant outside of the domain), apart, and every sheet holds exactly the cells between two neighbouring planes and between the AE's surfaces. The planes are counted down from the highest point of the AE's top, except for the first AE below a stratum without AEs, where they are counted from an elevation that is at least as high.", "quantifier": "all accepted new-format ini-files, all random numbers, every model that generation ends with, all strata, sheet AEs, sheets and cells", "why_tests_cant": "The cutting mutates surfaces that neighbouring AEs share; universal over all surfaces, thicknesses and numbers of sheets.", "anchors": ["hyvr/geo/sheet_ae.py:SheetAE.generate_objects", "hyvr/geo/contact_surface.py:ContactSurface.use_higher_surface_value", "hyvr/geo/stratum.py:Stratum.__init__", "hyvr/input/parameters.py:parse_inifile"]}
{"id": "C108", "title": "A well-formed ini-file at facies level gives every cell the parameters listed for its facies", "statement": "For a new-format ini-file that is accepted, whose element sections can be placed and whose tables in the section hydraulics have an entry for every facies, a realisation (generating the model, assigning the cells, generating the hydraulic parameters) raises no exception and ends. With heterogeneity on at the level facies, conductivity, porosity and anisotropy ratio of every cell are the numbers that k_h, n and k_ratio list for the facies of the cell, and the conductivity tensor of a cell with both angles is the documented one.", "quantifier": "all accepted new-format ini-files with well written tables and without sections whose objects read beside their tables of layers, all random numbers, all cells", "why_tests_cant": "Composes the parser, the strata and AE loops, placing, the search and the look-up; universal over ini-files and random numbers.", "anchors": ["hyvr/sim.py:run", "hyvr/geo/model.py:Model.generate_hydraulic_parameters", "hyvr/geo/model.py:Model.generate_model", "hyvr/assign_points.py:assign_points", "hyvr/input/options.py"]}
{"id": "C109", "title": "A well-formed ini-file at internal level varies the parameters listed for the facies of each cell", "statement": "With heterogeneity on at the level internal and no trends, conductivity and porosity of every cell are those listed in the section hydraulics for the facies of the cell, varied by random fields with the variances and correlation lengths listed for that facies; the anisotropy ratio is that of the facies; conductivities are positive if the listed ones are.", "quantifier": "all accepted new-format ini-files with well written tables and without trends, all random numbers, all random fields, all cells", "why_tests_cant": "Values depend on random fields; which table entry is used depends on numbers assigned during generation.", "anchors": ["hyvr/geo/model.py:Model.generate_hydraulic_parameters", "hyvr/utils.py:specsim", "hyvr/geo/ae_realization.py", "hyvr/sim.py:run"]}
{"id": "C110", "title": "A realisation depends only on the options that are used", "statement": "Two accepted ini-files with the same element sections that write the same in the options a realisation uses (an explicit list) give the same realisation from the same random numbers: same model, same cells, same hydraulic parameters, or the same exception. In particular the sections run and flowtrans, unknown options, and the documented options anisotropy, n_ztrend and n_xtrend of the elements, and lag have no effect on it.", "quantifier": "all pairs of accepted new-format ini-files, all random numbers", "why_tests_cant": "Noninterference: a statement on all pairs of inputs; a test can only show that some pairs agree.", "anchors": ["hyvr/sim.py:run", "hyvr/input/parameters.py:parse_inifile", "hyvr/input/options.py", "hyvr/geo/model.py:Model.__init__", "docs/inout.rst", "docs/methods.rst"]}
{"id": "C111", "title": "A well-formed ini-file runs to the end and stores every realisation", "statement": "For a new-format ini-file that is accepted, whose element sections can be placed and whose tables are well written, and whose listed outputs have writers that fail at most for a missing library: run() raises no exception and ends; the directory of every realisation then holds exactly the files that the writers of the listed outputs make of it; each realisation is the one that its random numbers give in a run of their own, although all realisations share one model object; the backup of the ini-file is there; nothing outside of the run directory is touched at any moment. If a realisation raises, the run ends with its exception, the realisations before it are stored completely, and there is no directory for it.", "quantifier": "all such ini-files, all random numbers and random fields of all realisations, any number of realisations, all writers, all file systems in which the run directory does not exist or may be overwritten", "why_tests_cant": "Composes parsing, directory set-up, the stateful generation of all realisations, hydraulic parameters and the output loop; universal over ini-files, random numbers, numbers of realisations and file systems.", "anchors": ["hyvr/sim.py:run", "hyvr/input/parameters.py:setup_from_inifile", "hyvr/geo/model.py:Model", "hyvr/assign_points.py:assign_points", "hyvr/postprocess/output.py:create_outputs"]}
{"id": "C112", "title": "The exit status of the program tells whether the run succeeded", "statement": "`python -m hyvr file` ends with status 0 only if the ini-file was accepted, every realisation was generated without exception and the writers of all listed outputs were run to the end (a missing library excepted); then nothing is printed as an error. Otherwise the status is 1 and the exception that ended the run is reported. If there is no such file or it is rejected, the file system is untouched. A well-formed ini-file (as in C111) ends with status 0.", "quantifier": "all ini-files, random numbers, writers and file systems", "why_tests_cant": "An 'only if' over all ways in which a run can end, including exceptions in any realisation or writer.", "anchors": ["hyvr/__main__.py", "hyvr/sim.py:run", "hyvr/postprocess/output.py:create_outputs"]}
{"id": "C113", "title": "An old-format ini-file and its translation to the new format give the same realisation", "statement": "Take an accepted ini-file of the old format with heterogeneity, with sheets and truncated ellipsoids whose backgrounds have equal azimuth and dip, and an accepted ini-file of the new format that says the same: the same options under their new names, facies by name instead of by number, contact models and lags in the new notation, the background of the strata repeated for each stratum. Then both give, from the same random numbers, the same element numbers, the same model, the same cells, and the same hydraulic parameters or the same exception. So old-format files raise no exception and end whenever their translations do (C104).", "quantifier": "all such pairs of ini-files, all random numbers and random fields", "why_tests_cant": "A relation between two programs' inputs through two option tables, a conversion and the whole simulation; universal over ini-files and random numbers.", "anchors": ["hyvr/input/parameters.py:get_new_parameters_from_deprecated", "hyvr/input/parameters.py:parse_deprecated_inifile", "hyvr/input/options_deprecated.py", "hyvr/input/options.py"]}
{"id": "C114", "title": "Noting columns that need not be tested only saves time", "statement": "During assignment the test of a channel notes, in an array of the channel, neighbouring cells that need not be tested any more. A realisation with this array is the same as one in which every cell is tested: same cells, same hydraulic parameters, same exceptions. Whatever the array does, the result is one in which some tests of channels are left out, so everything that holds for any choice of such tests (no exception, valid facies, numbering, ...) holds for the program.", "quantifier": "all accepted ini-files with positive cell sizes and channels of positive width and depth, all random numbers and random fields", "why_tests_cant": "The array carries state through the whole sweep over all cells; whether a skipped test matters depends on the history of all cells before and on the random channels.", "anchors": ["hyvr/geo/channel_ae.pyx:ChannelAE.maybe_assign_points_to_object", "hyvr/geo/channel.pyx:Channel.__init__", "hyvr/assign_points.py:assign_points", "hyvr/sim.py:run"]}
{"id": "C115", "title": "Leaving out an option is the same as writing its documented default", "statement": "An ini-file in which documented defaults are written out (numsim = 1, overwrite_old_output = false, grid origin 0, dy and dz as the text of dx, periodic = false, anisotropy/hydraulics/heterogeneity = true, heterogeneity_level = internal, dip and azimuth = [0, 0], buffer and lag_height = 0, flow_angle = 0) gives the same settings, the same files and the same exceptions as the file in which these options are left out.", "quantifier": "all ini-files of the new format, accepted or not, any subset of the options left out, all texts that are read as the default value, all random numbers and states of the disk", "why_tests_cant": "There are more subsets of options than can be tested, and a default may be applied before or after another option (dx, lag_facies, the geometry) is looked at.", "anchors": ["hyvr/input/options.py:options", "hyvr/input/parameters.py:parse_inifile", "hyvr/input/option_parsing.py:Section.parse", "docs/inout.rst"]}
{"id": "C116", "title": "Every listed output format leaves its own complete files", "statement": "If the ini-file gives what its output formats need (hydraulic parameters for mf, mf6 and hgs, heads for mf and mf6, whole numbers of cells for vtr and mf6), the run ends without an exception, and afterwards the directory of every realisation has the files of the listed formats, in whatever order and however often they are listed, and no others: <run>.mat, .pickle, .npz and .h5 with the arrays of this realisation, <run>.vtr with these arrays (without tensors) on nodes one more than cells, HGS/ktensors.txt and HGS/porosity.txt with one numbered row per cell, MODFLOW/... and mf6/... with what flopy makes of the conductivities, heads and layers of this realisation. No format overwrites a file of another one; a format whose library is not installed has no file and does not disturb the others.", "quantifier": "all accepted and placeable ini-files, all lists of formats, all numbers of realisations, all random numbers and random fields, all subsets of installed libraries, all states of the disk", "why_tests_cant": "The combinations of formats, missing libraries and realisations are too many, and whether a writer raises depends on the grid and on options of other sections.", "anchors": ["hyvr/postprocess/output.py:create_outputs", "hyvr/postprocess/output.py:to_vtr", "hyvr/postprocess/output.py:to_modflow", "hyvr/postprocess/output.py:to_mf6", "hyvr/postprocess/output.py:to_hgs", "hyvr/sim.py:run"]}
{"id": "C117", "title": "Output arrays have their documented names", "statement": "With hydraulic parameters, the arrays of a realisation include all that the documentation lists, under the documented names (strata, ae, ha, hat, fac, k_iso, dip, azim, ani_rat, poros, ktensors).", "quantifier": "all ini-files with hydraulic parameters and all their realisations", "why_tests_cant": "A test of one run does not show that the arrays exist for every combination of options.", "anchors": ["hyvr/geo/model.py:Model.generate_hydraulic_parameters", "hyvr/assign_points.py:assign_points", "docs/inout.rst"]}
{"id": "C118", "title": "A layer cake is what the ini-file draws", "statement": "Let every architectural element be a sheet without layers (lens_thickness -1, no dipping structure) in a domain that starts at or below elevation 0. Then every cell of a realisation belongs to the first AE from the top whose bottom is not above the cell's centre, carries that AE's number, type and stratum, a facies that its section allows and angles in the ranges of its section: no cell is left at the initial values or at background values. If the contacts between strata are flat and inside of the domain, the stratum of a cell is determined by its elevation alone, as the number of contacts above its centre; with one element per stratum, one facies and ranges of one value, facies, azimuth and dip of every cell are the ones that the ini-file writes for this stratum, whatever the random numbers.", "quantifier": "all such ini-files, all random numbers, all cells", "why_tests_cant": "It is about every cell of every realisation; a test sees single seeds, for which the number and thickness of AEs are fixed.", "anchors": ["hyvr/assign_points.py:assign_points", "hyvr/geo/sheet_ae.py:SheetAE.maybe_assign_points_to_object", "hyvr/geo/sheet_ae.py:SheetAE.generate_objects", "hyvr/geo/model.py:Model.generate_model"]}
{"id": "C119", "title": "The MODFLOW 6 model is the generated model, up to a motion of space", "statement": "MODFLOW 6 places the cells of its input (layers downwards, rows against y, columns along x) and forms the conductivity tensor of each cell from k, k33 and the angles. One and the same rigid motion of space takes the centre of every generated cell to the middle of the MODFLOW 6 cell that carries its values, and the stored tensor of the cell to the tensor that MODFLOW 6 forms: flow in the exported model is flow in the generated model, seen in other coordinates.", "quantifier": "all realisations with hydraulic parameters, all cells, all angles and ratios", "why_tests_cant": "It relates arrays and angles to the convention of another program, for every cell and every pair of angles; comparing written files with stored files shows no error if the convention is misread.", "anchors": ["hyvr/postprocess/output.py:to_mf6", "hyvr/optimized.py:set_anisotropic_ktensor", "hyvr/geo/grid.py"]}
{"id": "C120", "title": "The order of the sections of an ini-file does not matter", "statement": "Two ini-files with the same sections in different orders are the same to HyVR: both are accepted or neither, with the same run directory and the same options, every realisation made with the same random numbers is the same (strata, elements, objects, facies, angles and parameters), and a run of either leaves exactly the same files behind.", "quantifier": "all ini-files in the new format, all orders of their sections, all random numbers, all states of the file system", "why_tests_cant": "The architectural elements are found by going through the sections in the order of the file, so their order reaches the parser, the numbering, the facies tables and the generator; a test compares a few orders of one file, while there are factorially many for each of infinitely many files.", "anchors": ["hyvr/input/parameters.py:parse_inifile", "hyvr/input/parameters.py:setup_from_inifile", "hyvr/geo/model.py:Model.generate_model", "hyvr/sim.py:run"]}
{"id": "C121", "title": "The MODFLOW-2005 model is the generated model, up to a motion of space", "statement": "MODFLOW-2005 places the cells of its input (layers downwards, rows against y, columns along x) and uses in each cell the horizontal conductivity and, vertically, that over the given ratio. One and the same rigid motion of space takes the centre of every generated cell to the MODFLOW cell that carries its values, and the stored tensor of the cell to the tensor that MODFLOW uses.", "quantifier": "all realisations with hydraulic parameters, all cells, all angles and ratios", "why_tests_cant": "It relates arrays to the convention of another program, for every cell and every pair of angles; a test of the written files compares arrays with arrays and cannot see that the picture is mirrored or that angles are missing.", "anchors": ["hyvr/postprocess/output.py:to_modflow", "hyvr/optimized.py:set_anisotropic_ktensor", "hyvr/geo/grid.py"]}
{"id": "C122", "title": "The horizontal origin does not matter", "statement": "x0 and y0 only name the place of the domain. Two accepted ini-files that differ in nothing but x0 and y0 give, from the same random numbers, the same contact surfaces, the same facies, numbers and angles in every cell and the same hydraulic parameters, or stop in the same way.", "quantifier": "all pairs of accepted ini-files that differ in x0 and y0 only, all random numbers", "why_tests_cant": "It relates two runs for every pair of origins; the default origin 0 of the examples hides every dependence on it, and random positions must be drawn the same in both runs.", "anchors": ["hyvr/geo/grid.py", "hyvr/geo/sheet.py:Sheet.__init__", "hyvr/geo/trough_utils.py:generate_trough_positions", "hyvr/geo/trough_ae.pyx:TroughAE.maybe_assign_points_to_object", "hyvr/geo/channel_ae.pyx:ChannelAE.generate_objects"]}
{"id": "C123", "title": "The order of the facies does not matter", "statement": "The option hydrofacies only lists names, and the position in the list only stands for the name. Two accepted ini-files that differ in nothing but the order of the facies, with the tables of the section hydraulics in the matching order, give from the same random numbers the same contact surfaces, the same facies by name in every cell, the same numbers and angles and the same hydraulic parameters, or stop in the same way.", "quantifier": "all pairs of accepted ini-files that differ in the order of the facies only, all random numbers, all cells", "why_tests_cant": "It relates two runs for every permutation of every list; a run cannot show that no number is used where a name is meant, and cells without an architectural element, which keep the number 0, do not occur in the usual examples.", "anchors": ["hyvr/input/parameters.py:parse_facies", "hyvr/assign_points.py:assign_points", "hyvr/geo/model.py:Model.generate_hydraulic_parameters"]}
{"id": "C124", "title": "The order of the element types only numbers them", "statement": "The option ae only lists names. Two accepted ini-files that differ in nothing but the order in ae give from the same random numbers the same contact surfaces, the same facies, numbers, angles and hydraulic parameters, or stop in the same way; only the array with the numbers of the element types differs, and it is renumbered accordingly.", "quantifier": "all pairs of accepted ini-files that differ in the order in ae only, all random numbers, all cells", "why_tests_cant": "It relates two runs for every permutation of every list of element types, with the same random numbers; the choice of the types is random, and a mixed up number shows only in some of the runs.", "anchors": ["hyvr/input/parameters.py:setup_from_inifile", "hyvr/geo/stratum.py:Stratum.__init__", "hyvr/geo/ae_realization.py:AERealization.__init__", "hyvr/assign_points.py:assign_points"]}
{"id": "C125", "title": "The unit of length does not matter", "statement": "Lengths in an ini-file have no unit, so any can be used. Two accepted ini-files that describe the same model in two units of length (every length multiplied by the same factor, variances of elevations by its square, densities of troughs divided by it) give from the same random numbers the same facies, numbers, angles and hydraulic parameters in every cell and the same contact surfaces expressed in the two units, or stop in the same way.", "quantifier": "all pairs of accepted ini-files that differ in the unit of length only, all positive factors, all random numbers, all cells", "why_tests_cant": "It relates two runs for every ini-file and every factor with the same random numbers. A fixed length hidden in the code is harmless in the unit of the examples and shows only in another unit, and floating point noise hides exact equality.", "anchors": ["hyvr/geo/grid.py", "hyvr/geo/contact_surface.py", "hyvr/geo/sheet_ae.py:SheetAE.generate_objects", "hyvr/geo/trough_ae.pyx:TroughAE.generate_objects", "hyvr/geo/channel_utils.py:ferguson_curve", "hyvr/optimized.py:curve_interp", "hyvr/utils.py:specsim"]}
{"id": "C126", "title": "The unit of conductivity does not matter", "statement": "Conductivities in an ini-file have no unit, so any can be used. Two accepted ini-files that write the same but for the conductivities `k_h` of the facies, all multiplied by the same number, give from the same random numbers the same contact surfaces, facies, numbers, angles, porosities and anisotropies in every cell, and conductivities and conductivity tensors multiplied by that number, for every level of heterogeneity and with all trends; or they stop in the same way.", "quantifier": "all pairs of accepted ini-files that differ in k_h by a common factor, all factors, all random numbers and random fields, all levels of heterogeneity, all cells", "why_tests_cant": "It relates two runs for every ini-file and every factor with the same random numbers. A fixed conductivity hidden in one of the branches, for instance a default for cells without facies or a factor that is applied to the logarithm, is invisible with the numbers of an example, and rounding hides exact proportionality.", "anchors": ["hyvr/geo/model.py:Model.generate_hydraulic_parameters", "hyvr/optimized.py:set_anisotropic_ktensor", "hyvr/input/parameters.py:parse_inifile", "hyvr/sim.py:run"]}
{"id": "C127", "title": "The vertical resolution does not matter", "statement": "Two accepted ini-files that write the same but for the height `dz` of the cells give from the same random numbers the same strata, architectural elements and objects, and cells of the two grids that have the same centre get the same stratum, element, object, facies and angles: a coarser grid samples the same model.", "quantifier": "all pairs of accepted ini-files that differ in dz only, all random numbers, all pairs of cells with the same centre", "why_tests_cant": "It relates two runs for every ini-file and every pair of heights with the same random numbers. The search of a cell starts where the search of the cell above it ended, so the cells in between decide; whether they can change the result depends on all shapes the objects may have.", "anchors": ["hyvr/assign_points.py", "hyvr/geo/grid.py", "hyvr/geo/trough_utils.py:generate_trough_positions", "hyvr/geo/channel_ae.pyx:ChannelAE.generate_objects"]}
{"id": "C128", "title": "Models of sheets and troughs: every cell gets the uppermost unit that claims it", "statement": "In every realisation of an accepted ini-file whose elements are sheets or troughs drawn by the program (with positive size, aggradation and no negative buffer, no trend of sizes), with a domain that does not start above elevation 0 and no empty stratum, every cell of a column without a cell centre on a contact of a trough element is assigned, and holds the values of the first unit from the top (stratum, element, object, background) that claims its centre: what the search remembers from the cells above has no influence.", "quantifier": "all accepted ini-files of sheets and drawn troughs, all random numbers, all cells of columns off the contacts", "why_tests_cant": "The search resumes where it found the cell above. That this is harmless depends on the shapes and positions of all objects that can be drawn, not on examples.", "anchors": ["hyvr/assign_points.py", "hyvr/geo/trough_ae.pyx:TroughAE.generate_objects", "hyvr/geo/trough_utils.py:generate_trough_positions", "hyvr/geo/sheet_ae.py:SheetAE.generate_objects"]}
{"id": "C129", "title": "A realisation ends with probability one", "statement": "If in each stratum of an accepted, well filled ini-file the mean thickness of its elements, weighted by ae_prob, exceeds avul_prob times the middle of the interval avul, then with probability one a realisation ends, with one stratum for each name in the option strata, although thicknesses are drawn from a normal distribution and may be negative. The condition is needed: an accepted ini-file whose mean thicknesses are zero never ends and never raises an exception.", "quantifier": "all accepted well filled new-format ini-files, all probability spaces with the distributions numpy promises (normal and uniform numbers, independent), all ways of drawing the rest", "why_tests_cant": "A test run draws one sequence of numbers. That the set of sequences for which the loop over elements does not end has probability zero is a statement about infinite sequences.", "anchors": ["hyvr/geo/stratum.py:Stratum.__init__", "hyvr/geo/stratum.py:prob_choose", "hyvr/geo/model.py:Model.generate_model"]}
{"id": "C130", "title": "Types of elements occur as often as ae_prob says", "statement": "The probability that an architectural element of a stratum is of a given type is the share of that type in the weights ae_prob of its stratum (added up if the type is listed more than once in ae_in_strata), and with probability one the fraction of independent realisations in which it is of that type tends to this share.", "quantifier": "all accepted new-format ini-files, all strata, all positions of an element that is there in every realisation, all probability spaces with the distributions numpy promises, all ways of drawing the rest", "why_tests_cant": "Frequencies in finitely many runs can only be compared with a tolerance; the limit and the exact probability are statements about all sequences of random numbers.", "anchors": ["hyvr/geo/stratum.py:prob_choose", "hyvr/geo/stratum.py:Stratum.__init__"]}
{"id": "C131", "title": "Complete runs end with probability one", "statement": "Let an ini-file be accepted, well filled and ask only for what the code can do, and let AEs be thicker on average than avulsions are deep, although single thicknesses may come out negative. Then with probability one the whole run ends: the program ends with status 0 and no message, every realisation has the files of the listed formats and no others in its own directory, holding the arrays and parameters of its cells, the backup is there and nothing outside of the run directory is touched at any moment.", "quantifier": "all accepted well filled new-format ini-files as described, all numbers of realisations, all lists of formats, all file systems in which the run directory may be made or overwritten, all probability spaces with the distributions numpy promises", "why_tests_cant": "A test sees one sequence of random numbers and cannot wait for a run that does not end; that all realisations of a run end together is a statement about a set of sequences of probability one.", "anchors": ["hyvr/sim.py:run", "hyvr/geo/stratum.py:Stratum.__init__", "hyvr/geo/model.py:Model.generate_model", "hyvr/postprocess/output.py:create_outputs"]}
{"id": "C132", "title": "The copy of an ini-file can be run again", "statement": "The copy of the ini-file that a run leaves in its directory is read exactly as the ini-file was: the same sections in the same order, with the same options and values, whatever layout, comments, line ends, values of several lines, percent signs or defaults the ini-file has. Every run that ends normally leaves this copy, unless an output has its name. Running the copy therefore does what running the ini-file does: same run name, model and run directory, and with the same random numbers the same effects on all files and the same end.", "quantifier": "all texts of ini-files that are accepted, all directories, file systems, writers of outputs and random numbers", "why_tests_cant": "Layouts, names and values are texts of unbounded length, and a test can compare the copy with the original only for the files it contains.", "anchors": ["hyvr/input/parameters.py:set_up_directories", "hyvr/input/parameters.py:parameters", "hyvr/sim.py:run"]}
{"id": "C133", "title": "The text of an ini-file means what it shows", "statement": "An ini-file made of sections with options, none indented more than one before it in its section, `=` or `:` between name and value, further lines of values indented more than the name, comment lines and empty lines, with line ends of any system, with or without a byte order mark and with or without an end of the last line, is accepted and gives the sections and options it shows, in order, names in lower case and values without the blanks around their lines; options of a section DEFAULT hold in all sections that do not give them. A comment line can be added or removed anywhere, in any file, without effect. `%%` stands for a percent sign and `%(name)s`, in any case, for the value of another option of the section or of DEFAULT, up to nine references below each other. A file with a value that stands for nothing (a single percent sign, a reference to nothing, references in a circle), with a section or an option given twice, or that does not exist is rejected before anything is changed on disk.", "quantifier": "all ini-files of this layout, all texts for the statements on byte order marks, comments and last lines, all file systems", "why_tests_cant": "There are unboundedly many layouts of the same settings; tests contain a few of them.", "anchors": ["hyvr/input/parameters.py:parameters", "hyvr/input/parameters.py:parse_inifile", "hyvr/sim.py:run"]}
{"id": "C134", "title": "Ini-files with deep avulsions may run for ever", "statement": "If in some stratum between flat surfaces the mean thickness of the elements, weighted by ae_prob, is less than avul_prob times the middle of the interval avul, then with positive probability a realisation never ends, although the ini-file is accepted: there is no result however long one waits, and no exception either. Together with C129 this decides whether one can rely on the end of a run, except where the two averages are equal.", "quantifier": "all accepted ini-files, all strata between flat surfaces, all probability spaces with the distributions numpy promises, all other random numbers, any number of passes of the loops", "why_tests_cant": "A test that waits cannot tell an endless run from a slow one, and meets one only with some probability.", "anchors": ["hyvr/geo/stratum.py:Stratum.__init__", "hyvr/geo/model.py:Model.generate_model", "hyvr/input/parameters.py:parse_inifile"]}
{"id": "C135", "title": "The width of the cells does not change the geology", "statement": "Take two ini-files that differ in `dx` and `dy` only (with `dz` the same), where all contacts are flat and elements are sheets and troughs. With the same random numbers, the same facies, stratum, AE, object, object type, azimuth and dip are stored in cells whose centres have the same coordinates: the same geology is sampled at other points. With channels this holds too, if the cells of both grids are at most one unit wide in y and the width and depth of channels are positive. Refining the grid horizontally neither moves nor adds nor removes objects, also where the extent of the domain is not a multiple of the width of the cells.", "quantifier": "all pairs of accepted ini-files that differ in dx and dy, all random numbers, all realisations, all pairs of cells with the same centre", "why_tests_cant": "There are infinitely many resolutions and random numbers; a comparison of two grids shows nothing about a third, and randomly generated models of two runs differ unless all draws are controlled.", "anchors": ["hyvr/geo/model.py:Model.generate_model", "hyvr/geo/grid.py:Grid.__init__", "hyvr/geo/trough_ae.pyx:TroughAE.generate_objects", "hyvr/assign_points.py:assign_points", "hyvr/geo/channel_ae.pyx:ChannelAE.generate_objects"]}
{"id": "C136", "title": "Troughs are spread evenly at the requested density", "statement": "Without `te_xyz` and `migrate`, on each level of an AE of a trough section the number of troughs has the Poisson distribution with mean `trough_density` times the area of the domain, and the mean number of troughs with centres in any rectangle inside the domain is `trough_density` times the area of the rectangle. So no part of the domain is preferred, not even its edges, on no level. This holds for the troughs of realisations from ini-files, averaged over realisations between the same surfaces.", "quantifier": "all accepted ini-files with a trough section without te_xyz and migrate, all levels, all rectangles in the domain; averages over all random numbers", "why_tests_cant": "It is a statement about averages over all random numbers and about all rectangles; tests estimate a few averages from finitely many realisations, with statistical error.", "anchors": ["hyvr/geo/trough_utils.py:generate_trough_positions", "hyvr/geo/trough_ae.pyx:TroughAE.generate_objects"]}
{"id": "C137", "title": "Objects are homogeneous and get facies and angles from the numbers drawn for them", "statement": "In an AE whose section has the structure `massive` or `flat`, every cell assigned to one object (sheet, trough or channel) gets the same facies, azimuth and dip, except in the lag of troughs and channels, which has the facies `lag_facies` and angles 0. The facies is chosen from the listed facies, each with the share it has in the list, independently for different objects; the dip is the object's own number, equally likely everywhere between the two given ones and independent for different objects; the azimuth of sheets is drawn likewise, that of troughs is relative to the direction of the trough, that of channels is 0.", "quantifier": "all accepted ini-files, all realisations, all strata, AEs with that structure, objects and cells; probabilities over all random numbers", "why_tests_cant": "It speaks about all objects and cells of all realisations, and about probabilities and independence, which tests can only estimate.", "anchors": ["hyvr/geo/trough.pyx:Trough.__init__", "hyvr/geo/channel.pyx:Channel.__init__", "hyvr/geo/sheet.py:Sheet.__init__"]}
{"id": "C138", "title": "The share of background between troughs follows from density and size", "statement": "The probability that a cell of an AE of troughs is in none of its troughs and therefore gets the background values is exp(-trough_density * S), where S is the sum of the areas of the horizontal sections of a trough at the elevation of the cell, one from each of the levels `agg` apart on which troughs start: the section at the depth h below the top is an ellipse of area pi/4 * length * width * (1 - (h/depth)^2), all sizes times the factor of `size_ztrend`. It is the same for all cells of a layer away from the lateral edges of the domain and does not depend on `paleoflow`.", "quantifier": "all accepted ini-files with troughs at random places that do not migrate and without periodic boundaries, all AEs whose top has the same mean and whose bottom the same highest point in all realisations, all cells at least half of the greatest length or width away from the lateral edges; probabilities over all random numbers", "why_tests_cant": "It is an exact probability, over infinitely many numbers and positions of troughs; tests can only estimate it for single cells and parameters.", "anchors": ["hyvr/geo/trough_utils.py:generate_trough_positions", "hyvr/geo/trough_utils.py:rand_trough_params", "hyvr/geo/trough_ae.pyx:TroughAE.maybe_assign_points_to_object"]}
{"id": "C139", "title": "What is inside the architectural elements does not move the layers", "statement": "The strata and architectural elements of a realisation (their order, names, type ids, numbers, and the elevations of their bottom and top contacts in every column) depend on the grid, the section `strata`, the contact models of the element sections and the random numbers drawn for the layers only. Changing the geometry, sizes, density, structure, facies, angles or trends of the elements, the height of the cells, the hydraulic properties, or the random numbers drawn for the objects leaves all layers as they are. (Single cells may still change their unit, since troughs and channels of a unit cut into the units below, C14.)", "quantifier": "all pairs of accepted ini-files that agree in dx, dy, lx, ly, z0, lz, the section `strata`, the names of the facies, the names of the element sections and their option contact_model; all random numbers and fields, the same for the layers and any two for the objects; all realisations that finish", "why_tests_cant": "It is a noninterference statement over all pairs of ini-files and all random numbers; a test compares single pairs, and the one random stream of the program hides the comparison, since other objects use up other numbers.", "anchors": ["hyvr/geo/model.py:generate_model", "hyvr/geo/stratum.py:Stratum", "hyvr/geo/ae_types.py:generate_realization", "hyvr/geo/ae_realization.py:AERealization", "hyvr/geo/sheet_ae.pyx:create_object_arrays"]}
{"id": "C140", "title": "Asking for more realisations keeps the ones there are", "statement": "If two ini-files differ in `numsim` only, then whatever the run with more realisations leaves for realisation i, the run with fewer realisations leaves for realisation i as well: if the longer run ends without an exception, so does the shorter one, and from the same random numbers every file of realisation i is there in both with the same name and contents, in real_<i>, or in the run directory itself if there is only one realisation. So a study can be started with a few realisations and repeated with more without losing comparability.", "quantifier": "all pairs of ini-files in the new format that agree in all sections and all options but numsim, all numbers n <= m of realisations, all disks, output writers, random numbers and fields (the same ones for realisation i in both runs); all file names, but for the copy of the ini-file if there is only one realisation", "why_tests_cant": "It compares runs for all pairs of numbers of realisations and all models, and the realisations share one model object and one disk: a test sees single numbers and models, and cannot fix the random numbers of later realisations.", "anchors": ["hyvr/sim.py:run", "hyvr/input/parameters.py:set_up_directories", "hyvr/input/parameters.py:parse_inifile", "hyvr/postprocess/output.py:create_outputs"]}
{"id": "C141", "title": "Overwriting an old run is as good as running afresh", "statement": "With `overwrite_old_output` enabled, what a run does does not depend on what earlier runs have left in its run directory, nor on whether the directory exists: from two disks that agree outside of the run directory and the directories above it the same run ends in both with the same exception or without one (or does not end in both), and afterwards the same entry with the same contents is found at every path of the two disks. No file of an old run can survive beside the new ones, be mistaken for one of them, or get in the way of one. In particular, after a run that has ended normally, running the ini-file again leaves the disk as if the first run had not been: twice is once.", "quantifier": "all accepted ini-files with overwrite_old_output enabled, all pairs of disks that agree outside of the run directory, on which the run directory and the directories above it are missing or are directories and nothing is neither file nor directory; all output writers (for running again: that write single files), random numbers and fields; run directories other than the root", "why_tests_cant": "It quantifies over everything an earlier run, or anybody else, may have left in the run directory, at any depth and under any name, together with all models and outputs; tests try single leftovers.", "anchors": ["hyvr/input/parameters.py:set_up_directories", "hyvr/sim.py:run", "hyvr/postprocess/output.py:create_outputs"]}
{"id": "C142", "title": "The layout of an ini-file does not matter", "statement": "Two texts of an ini-file that show the same sections and options in the same order with the same values, but differ in comments, blank lines, indentation, blanks around names and values, the delimiter (= or :), the case of the option names, or the ends of the lines (Unix, Windows, old Mac), give the same run from the same random numbers: both never end, or both end with the same exception or without one, and afterwards the same entry with the same contents is found at every path of the disk, up to the text of the ini-file itself. In particular the copies of both ini-files in the run directory are the same.", "quantifier": "all pairs of texts in the layout of C133 (options not indented more than those before them, comments on lines of their own) with the same sections and options, accepted or rejected; all disks, all output writers, random numbers and fields, all values of the argument for overwriting", "why_tests_cant": "It compares whole runs for all pairs of texts with the same contents, whatever is on disk and whatever the model is; tests compare single pairs.", "anchors": ["hyvr/input/parameters.py:parse_inifile", "hyvr/input/parameters.py:set_up_directories", "hyvr/sim.py:run"]}
{"id": "C143", "title": "Asking for more output formats keeps the others", "statement": "If two accepted ini-files differ in the list `outputs` only and every format of the first list is in the second, then from the same disk and random numbers the run of the first ends without an exception if that of the second does, and every file of its formats is there after both runs with the same name and contents, for every realisation; beside these files it leaves nothing for a realisation. So adding a format neither changes the realisations nor the files of the other formats, wherever in the list it is put.", "quantifier": "all pairs of accepted ini-files in the new format that agree in all sections and options but outputs, all lists of outputs in any order, all disks of files and directories, all output writers no two of whose formats use the same file name (those of the program: C116), all random numbers and fields, all numbers of realisations", "why_tests_cant": "It compares the complete results of two runs for all models, all subsets and orders of the formats and everything the writers may do, missing libraries included; tests compare single runs.", "anchors": ["hyvr/postprocess/output.py:create_outputs", "hyvr/sim.py:run", "hyvr/input/parameters.py:parse_inifile"]}
{"id": "C144", "title": "A study can be moved", "statement": "An ini-file that is accepted in one directory is accepted in every other directory, with the same run name. If its run ends without an exception in one place, then from the same random numbers also in every other place where a run can start, on the same disk or on another one, and for every realisation the same files with the same contents are found below the two run directories. So a study can be copied to another computer, or repeated beside the old one, without changing its results.", "quantifier": "all accepted ini-files in the new format, all pairs of directories of the ini-file (and of directories typed in), all disks of files and directories for the first run; for the second all disks on which the way to the run directory is free and the run directory is missing or may be overwritten; all output writers, random numbers, fields and numbers of realisations; all file names except that of the copy of the ini-file for a single realisation", "why_tests_cant": "It compares whole runs for all models, all pairs of places and everything that may be on the two disks; tests compare single runs in single directories.", "anchors": ["hyvr/input/parameters.py:parameters", "hyvr/input/parameters.py:set_up_directories", "hyvr/sim.py:run"]}
{"id": "C145", "title": "Renaming an ini-file renames the outputs only", "statement": "An ini-file that is accepted under one file name (not that of the copy made by a run) is accepted under every other one. If its run ends without an exception under one name, then from the same random numbers also under the other name, in every place where a run can start. If the output writers use the run name for the names of their files only, then for every realisation a file of the second run holds exactly what the file of the corresponding name of the first run holds. So the default run name, which is taken from the file name, labels the results and does not change them.", "quantifier": "all accepted ini-files in the new format, all pairs of file names (the first not that of a copy) and of directories, all disks of files and directories for the first run; for the second all disks on which the way to the run directory is free and the run directory is missing or may be overwritten; all output writers that use the run name for file names only, all random numbers, fields and numbers of realisations; all files except the copy of the ini-file for a single realisation", "why_tests_cant": "It compares whole runs for all models, all pairs of names and all writers; tests compare single runs under fixed names.", "anchors": ["hyvr/input/parameters.py:parameters", "hyvr/input/parameters.py:set_up_directories", "hyvr/postprocess/output.py:create_outputs", "hyvr/sim.py:run"]}
{"id": "C146", "title": "Studies side by side do not disturb each other", "statement": "However a run ends, and at every moment at which it may be interrupted, everything outside its run directory is as it was before, except that missing directories on the way to the run directory may have been made; an ini-file that is not accepted changes nothing at all. So if neither of the run directories of two studies contains the other (for instance two ini-files with different names in one directory), running one of them leaves the results of the other untouched, and the results of the second do not depend on whether the first has been run before: the same run ends normally, and the same files with the same contents are found for every realisation. Two such studies can be run in any order.", "quantifier": "all ini-files, disks, output writers, random numbers and fields, all ways in which a run may end, all states of the disk during the run; for the comparison all pairs of accepted ini-files (the second in the new format) with run directories of which neither contains the other, all disks on which the second may start and on which the first leaves a tree of files and directories (as all normally ended runs do whose outputs are single files)", "why_tests_cant": "It is about everything that may be on a disk and about every moment of a run; tests look at single files after single runs.", "anchors": ["hyvr/sim.py:run", "hyvr/input/parameters.py:set_up_directories", "hyvr/postprocess/output.py:create_outputs"]}

# Formal model of HyVR: design

Source: `/repo` (hyvr). The code is read as text only; nothing is built or run.
Prover: Lean 4.33.0 with Mathlib. Project: `/verif/lean`.

## Layout

* `Verif/Py/*`     - the few Python/numpy primitives the code relies on (errors as values,
                     `list.index`, `int()`, `np.arange`, `np.linspace`, negative indexing, ...).
* `Verif/Model/*`  - the model, function by function; every definition cites file and lines.
* `Verif/Spec/*`   - small independent specifications (geometry, order, sets, file trees ...).
* `Verif/Lemmas/*` - helper lemmas.
* `Verif/Props/*`  - the property theorems `C01_...` and, beside each, an `example` showing a concrete
                     non-trivial case that meets the hypotheses. Where the code violates a property there is a
                     `Cnn_..._refuted` theorem (the negation, with a concrete witness) and a
                     `Cnn_..._partial` theorem saying what does hold.

## Trusted base

* Lean's kernel; the axioms `propext`, `Classical.choice`, `Quot.sound` (the three of Lean's library and Mathlib). No own axioms, no `sorry`,
  no `native_decide`, no `bv_decide`. The axioms of every theorem named in `MANIFEST.json` are listed in `AXIOMS.txt`
  (output of `#print axioms`).
* That the definitions in `Verif/Model` and `Verif/Py` render the cited code. Each definition cites file and lines and states its
  simplifications; the general ones follow.

### General simplifications

1. **Arithmetic.** Floating point numbers are exact reals (or rationals where a run is computed; or, where the code only compares, elements
   of an arbitrary linear order - then the result also covers floats other than NaN). Rounding, overflow, NaN and infinities in computations are not
   modelled; NaN as a *value* (unset background angles) is. Statements such as "the number of cells is lx/dx" are therefore claims about the formulas, not about
   rounding in them. int32 overflow is not modelled.
2. **Randomness.** Every `np.random.*` result is an explicit argument (a list or function of draws); theorems hold for all draws, subject to
   stated range facts of numpy's generators (`uniform(a, b)` lies in `[a, b]`). Statements on covariances (C77) assume white noise:
   uncorrelated draws of unit variance, as a hypothesis.
   For C129–C131, C134 and C136–C138 the draws are random variables on an arbitrary probability space; that the numbers of one AE are independent with
   the documented distributions, and those of different AEs and realisations independent, is a hypothesis (`Spec.RandomNumbers`,
   `Spec.RandomRuns`, `Spec.RandomChances`, `Spec.RandomPlaces`, `Spec.RandomChoices`, `Spec.RandomDips`, `Spec.RandomTroughs`), shown to be satisfiable. That numpy's generator has these properties is not proved; numbers drawn one after the
   other from a stream are independent of how many were drawn before, so indexing them by stratum and AE is justified.
3. **FFT.** `fftn`, `ifftn`, `fftshift` are their defining sums over the complex numbers (C42, C76, C77) or an arbitrary field (elsewhere).
4. **Runtime variant.** In this revision several modules are in transition from Cython to Python (`.pyx` beside `.py`, undefined names such as
   bare `sin`, `sqrt` in `optimized.py`, `np.float`, a class used in its own annotation in `contact_surface.py`, typed attributes without values in
   `sheet.py`). The model follows the text of the functions and reads those names as the functions they obviously denote; object
   attributes that are never set have the Cython default 0 (as in `trough.pyx`, `channel.pyx`, `sheet.pyx`). The reference output in
   `tests/simple_testcases/made_simple_no_random_reference/made_simple.npz` (contents read, not regenerated) agrees with this reading, e.g. its `ha`
   array only contains -1 and 0. Undefined names that make a branch fail whatever one reads into them (`flowtrans` in `to_mf6`, `inifile` in `parse_deprecated_inifile`)
   are modelled as `NameError`.
5. **Converters.** `int()` and `float()` on texts are parameters (`Convs`); theorems hold for all converters. `str.lower`, `str.isdigit`, `strip` are
   those for ASCII.
6. **Ini-files.** For most claims an ini-file is a list of section names and a map from section and option to text (`Ini`). `Model/IniText` models how
   `configparser.ConfigParser()` makes this of a text, and how it writes the copy, after `configparser.py` of Python 3.11 (not part of the repository): header and
   option lines, comments, values of several lines, `DEFAULT`, interpolation, duplicates. Assumed: UTF-8, ASCII lower case for names of options, interpolation
   errors raised before anything else, one exception (`configError`) for all of configparser's.
7. **File system.** A finite map from absolute paths (lists of names without slashes, `.` or `..`) to nodes: directory, file with contents,
   or special entry. No links, no permissions, no other process. Primitive operations (`mkdir`, `unlink`, `rmdir`, write) are atomic; every
   intermediate state is recorded, so statements about interruptions quantify over all of them.
8. **Output libraries.** The arguments handed to evtk and flopy and the rows written for HydroGeoSphere are modelled; what the libraries
   do with them, the binary formats (mat, pickle, npz, h5) and the rounding of printed numbers are not.
9. **MODFLOW.** C119 compares with what MODFLOW 6 does with its input (cells of DIS, angles of NPF), C121 with what MODFLOW-2005 does (DIS, LPF). These conventions
   are written down in `Spec/Exported` and `Spec/Mirrored` from the input guides and are trusted.
10. **Python objects.** Contact surfaces are shared mutable objects: the strata model has an explicit heap. In `generate_hydraulic_parameters` the
   array a local name denotes and the stored array are kept apart (`write`, `rebind` in `Model/Hydraulics`).

### Modelled code

| code | model |
|------|-------|
| `hyvr/geo/grid.py` | `Model/Grid` |
| `hyvr/geo/contact_surface.py` | `Model/Surface` |
| `hyvr/geo/contact_surface_utils.py` | `Model/IniFile` |
| `hyvr/geo/model.py`: `__init__`, `generate_ae_types`, `generate_model` | `Model/Strata`, `Model/IniFile` (names), `Model/Grid`, `Model/Generate` (reading the parsed ini-file; draws of the AE loop from normal and uniform numbers) |
| `hyvr/geo/model.py`: `generate_hydraulic_parameters` | `Model/Hydraulics`, `Model/Parameters` (reading the section `hydraulics`, the level of heterogeneity, the background data of AEs) |
| `hyvr/geo/stratum.py` | `Model/Strata`, `Model/Choose` |
| `hyvr/geo/ae_types.py`, `ae_realization.py` | `Model/Strata`, `Model/OldFormat` (`aeTypeInit`) |
| `hyvr/geo/sheet.py`, `sheet_ae.py` | `Model/Strata` (placing), `Model/Sheet` (filling), `Model/Objects` (reading the element sections, random numbers) |
| `hyvr/geo/trough.pyx`, `trough_ae.pyx`, `trough_utils.py` | `Model/Trough`, `Model/Objects` (reading, random numbers, exceptions of numpy) |
| `hyvr/geo/channel.pyx`, `channel_ae.pyx` | `Model/Channel`, `Model/Objects` (reading, random numbers) |
| `hyvr/geo/channel_utils.py`, `hyvr/optimized.py:curve_interp` | `Model/Ferguson` |
| `hyvr/optimized.py:set_anisotropic_ktensor` | `Model/KTensor` |
| `hyvr/assign_points.py` | `Model/Assign`, `Model/Cached` (the sweep with the arrays `dont_check`) |
| `hyvr/utils.py:get_alternating_facies` | `Model/Facies` |
| `hyvr/utils.py:specsim` | `Model/Masks` (selection), `Model/Specsim` (field) |
| `hyvr/input/option_parsing.py` | `Model/ParseList`, `Model/Shapes`, `Model/Options` |
| `hyvr/input/options.py`, `options_deprecated.py` | `Model/OptionTables` |
| `hyvr/input/parameters.py` | `Model/IniText` (text of ini-files), `Model/IniFile`, `Model/OldFormat`, `Model/Dirs`, `Model/Setup` |
| `hyvr/sim.py` | `Model/Dirs` (directories, order, clean-up), `Model/Setup` (from the ini-file on), `Model/Parameters` (one realisation), `Model/Complete` (all of them, with the model object they share, and the outputs) |
| `hyvr/__main__.py` | `Model/Main` (without `argparse`) |
| `hyvr/postprocess/plotting.py` | `Model/Plotting` (which slice is plotted) |
| `hyvr/postprocess/output.py` | `Model/Output` (loop over formats, arrays and lists for the libraries), `Model/Files` (names of the files, what is handed to the libraries) |

Not modelled: printing and warnings, the libraries that write files (parameters: `Libs`), `Model.print_model`,
commented-out code, `deploy.py`, `setup.py`, `profile/`, the generated `.c` files, the `.pyx` copies of files that also exist as
`.py` (`grid`, `sheet`, `sheet_ae`).

### Statements and their vocabulary

Theorems are stated with the data types of the model (grids, surfaces, dictionaries, file systems) and specifications in the namespace `Hyvr.Spec`, which do not use
the model's functions. `Verif/Spec` holds those that several files need; the others stand directly before the theorem using them.

### Mutation testing

`seeded/LOG.jsonl` has one line per wrong program tried. A mutation counts as noticed if any declaration of `Verif` no longer compiles. The log names
the declarations that failed and the property theorems that depend on them. So "killed" can mean that the proof of a lemma broke while the
theorem stated with it is still true; this was not examined mutation by mutation. In the scratch copy the concrete runs of whole ini-files
(`decide +kernel`, slow) are replaced by `sorry`: they cannot notice a mutation there, though they may in the real build.

## Plan per property

| id | model | proof |
|----|-------|-------|
| C01 | `Grid` axis via `np.arange` over reals | ceil arithmetic |
| C02 | cells of an axis, meshgrid as function of indices | floor arithmetic |
| C03 | surface as function on `Fin nx x Fin ny` computed by the double loop | loop = pointwise min/max, by induction over the loop |
| C04 | surface record with zmin/zmax/zmean and history of clips | invariant by induction over history |
| C05 | strata loop over contact models (explicit list of realised surfaces), heap of surfaces for aliasing | invariant by induction over strata |
| C06 | AE loop with draws as arguments, heap of surfaces | loop invariant |
| C07 | top surface at `grid.lz` | refuted for z0 != 0; partial for z0 = 0 |
| C08 | znow loop | measure argument; non-termination witness |
| C09 | `_add_object` fold | induction |
| C10 | full three level search and column sweep, object tests arbitrary functions | induction |
| C11 | same | monotone state invariant |
| C12 | same, against memoryless search | refinement / simulation |
| C13 | same | refuted on contacts; partial for cells off contacts |
| C14 | same | characterisation of result by `find?`-like spec |
| C15 | bg selection | case analysis; old format refuted (dip) |
| C16 | numbering after array creation | refuted; numbering itself proved unique |
| C17 | numbering loops, `list.index` | induction |
| C18 | `divmod` column enumeration, column sweep | arithmetic bijection, frame property |
| C19 | trough test over reals | real algebra |
| C20 | wrap | minimum image argument; refuted for far centres, partial |
| C21 | lag branch | real algebra |
| C22 | table length and index with truncation | ceil/floor arithmetic and Cauchy-Schwarz |
| C23 | bulb branch with sqrt, acos, atan | bounds; normal direction refuted for rotated troughs, partial for unrotated |
| C24 | position generation with draws | induction over levels |
| C25 | size trend | algebra |
| C26 | distance loop, parabola | induction over centreline, algebra |
| C27 | cache as state; any history | invariant with triangle inequality; refuted for dy > 1, partial for dy <= 1 |
| C28 | table length and index | refuted (negative index); partial upper bound |
| C29 | level loop | induction |
| C30 | chain, rotation, shift, filter | induction, algebra |
| C31 | index loop | strong induction |
| C32 | sheet loop with heap aliasing | invariant; refuted for sheet below AE bottom, partial |
| C33 | table length and index | refuted; partial under size condition |
| C34 | facies loop with draws | induction |
| C35 | mask loops over unique values | induction over the loops |
| C36 | mask loop over facies list | induction; refuted for new format |
| C37 | loops with fields, background override | induction; refuted centring |
| C38 | trends with aliasing of arrays | refuted for x-trend, partial for z-trend |
| C39 | tensor formula | trigonometric identities |
| C40 | tensor formula | quadratic form as sum of squares |
| C41 | `np.where`, boxes, boolean gather/scatter | list lemma on filtered enumerations |
| C42 | inverse DFT with zeroed first slab | geometric sum of roots of unity |
| C43 | `parse_list` on character lists | string induction |
| C44 | `Option.parse` on nested values | shape algebra; refuted for ragged depth, partial |
| C45 | `expand_shape`, `expand_to_shape` | shape algebra; refuted for 3 dims and for scalars with 2 dims, partial |
| C46 | section fold | induction over option list |
| C47 | `parse_bool` | case analysis |
| C48 | `parse_contact_model` | case analysis |
| C49 | `list.index` | induction |
| C50 | validation condition | refuted for bulb_sets, partial |
| C51 | conversion of records | refuted for bg dip, partial |
| C52 | negative indexing | arithmetic |
| C53 | names as character lists, paths as lists | list lemmas; exact failing name forms stated |
| C54 | file system operations | induction over directory entries |
| C55 | same | refuted; theorem that flag is ignored |
| C56 | same, prefixes of operation list | refuted when run from backup file; partial otherwise |
| C57 | `real_{:03d}` formatting, run loop | injectivity of decimal rendering, frame property |
| C58 | output loop | induction |
| C59 | `np.arange` | ceil arithmetic; refuted for non-multiples, partial |
| C60 | transposes and layer elevations | refuted; exact description of the flip |
| C61 | discretisation records, chd list | refuted for spacing when dx != dy; partial |
| C62 | flattening | arithmetic bijection |
| C63 | parameter dictionary as state | state independence |
| C64 | normalisation | algebra |
| C65 | AR(2) recurrence | Chebyshev bound, induction |
| C66 | file system operations | equality of maps |
| C67 | sheet loop with fuel | termination iff thickness positive |
| C68, C69 | layer index from plane distance | floor arithmetic, vector algebra; refuted near the zero plane and for sheets and channels |
| C70 | `np.interp` call as written | refuted: always raises |
| C71, C73 | centreline start and trimming | real algebra; refuted with all inputs / for shifted origins |
| C72 | azimuth branch of channels | case analysis |
| C74 | structure number | case analysis |
| C75 | trend loop over elements | refuted with witness |
| C76, C77 | spectrum, inverse DFT | character sums; the magnitude of the transform does not see the shift and sines cancel about the middle of the grid, which gives the exact covariance in terms of variance and correlation lengths (`Props/Requested`, `Props/Requested3`); refuted: zero slab, periodicity |
| C78, C79 | `parse_list` | string induction; refuted with witnesses |
| C80 | covariance functions | real analysis |
| C81 | `Option.parse` | induction over nested lists |
| C82, C83 | strata section | lengths; a section with n strata is rendered and read back (C43, C45) for every n from 2 on; refuted for all files with one stratum |
| C84, C85 | names of elements and strata | list lemmas |
| C86, C87, C88, C91 | whole ini-file | composition of section lemmas, both formats |
| C89 | element tables, `aeTypeInit`, structure numbers | composition; refuted for the old format |
| C90 | run directory | frame property; refuted for names without dot |
| C92, C93 | boundary lists, arrays | membership in loops; refuted with missing options or arrays |
| C94, C95 | index of a cross section | rounding lemmas; refuted for spacings other than 1 |
| C96, C97, C98 | `run` from the ini-file on, for arbitrary strata generation and writers | composition of the theorems on parsing, names, set-up and the loop |
| C100, C101 | generation from the parsed ini-file | what every value read is in the parsed dictionaries (inversion of the readers), invariant of the AE loop: types, levels reached, bottoms in the final heap |
| C102, C103 | generation from the parsed ini-file with placing of objects | C100 composed with the description of the search (C14) and of each geometry's assignment; what may be read beside tables of layers is an argument |
| C104 | same | what parsing guarantees about the options of objects, then totality of each constructor; measure for the centrelines of channels |
| C105, C106, C107 | same | each AE is traced back to the state of the surfaces in which `genAE` ran for it (`Lemmas/Run.lean`, invariant of the AE and strata loops); then the theorems on positions, centrelines and shapes (C25–C33, C65–C70) with every parameter traced to its option |
| C108, C109 | one realisation from the parsed ini-file: model, cells, hydraulic parameters | totality of the readers of the tables; every facies number in the model indexes the tables; then C35, C37 with every entry traced to its option; refuted for cells in objects at level `internal` |
| C110 | same | noninterference: each reader reads listed options only; parsing a listed option depends on listed options only (`closedB`, checked by evaluation over the option tables); relational lemmas over the loops |
| C111 | the whole of `run` | C108 for each realisation; the contact dictionaries that realisations leave differ in `z` only (C63), so the loop with one model object equals the loop over independent realisations; then C57, C58, C98 |
| C112 | `__main__` | inversion of the loop over realisations, C111 |
| C113 | old format, whole simulation | both option tables give the same values for renamed options (`option_same`); conversion = new parse on the options that a realisation reads; then C110's noninterference lemmas |
| C114 | the sweep with the arrays `dont_check` as state (`Model/Cached`), whole realisation | invariant: what is noted is not inside, for the cells still to come (C27); for any cell size: the array at the moment of each test defines a choice of tests left out, generation commutes with it |
| C115 | reading a file with any subset of documented defaults left out or written out; whole run | relation of the two dictionaries through the fold over the options (absent/text of default, then equal), separate relation for `dy`, `dz` through the two later defaults |
| C116 | complete run with the writers of `output.py`, libraries as parameters | writers never fail but for missing libraries (C59, C60, C61, C62 on the data of the realisation), places of formats are disjoint, so each file is that of its own writer; C111 |
| C117 | names of the arrays of a realisation | from the definition; refuted for two documented names |
| C118 | whole realisation of models of unlayered sheets | C32 (the search finds the AE at the centre) with the fact that a sheet without layers fills its AE; flat contacts are the bottoms of strata (C101), so the stratum counts contacts; C105 for the values |
| C119 | arguments of the DIS and NPF packages of `to_mf6`, against the convention of MODFLOW 6 (`Spec/Exported`) | matrix identity: the tensor of MODFLOW 6 is the stored one after half a turn about the x-axis; rows and layers make the same turn of the places (C60, C61, C34); refuted for dx other than dy, where no map that keeps distances exists |
| C120 | `settings`, `simulateAfter`, `realisations`, `runHyvr` of two ini-files with permuted sections | a permutation of the element sections is carried through the parser (mapPy of a permutation), the numbering by the list `ae`, and every lookup by name; names distinct |
| C121 | arguments of the DIS and LPF packages of `to_modflow`, against the convention of MODFLOW-2005 (`Spec/Mirrored`) | as C119, with a map that exchanges left and right; uniqueness of this map from the places of four cells; the tensors agree exactly for horizontal bedding |
| C122 | `simulate` on two parsed ini-files that differ in the origin (`Spec/Moved`) | relation between runs: objects with the same range and the same answers in the columns of the grid, carried through generation, numbering, assignment and parameters (`Lemmas/Near`); troughs move with the grid by equivariance of the placing loops (`Lemmas/Moved`) |
| C123 | `simulate` on two parsed ini-files with another order of `hydrofacies` (`Spec/Renumber`) | equivariance under renumbering: what parsing, reading, the objects' constructors, generation and assignment of points do with a facies commutes with an injective renumbering that keeps -1 (`Lemmas/Renumber`, `RenumberObjects`, `RenumberIni`); parameters through C108 |
| C124 | `simulate` on two parsed ini-files with another order of `ae` | the same lemmas, for the numbers of the element types; the parameters do not use these numbers |
| C125 | `simulate` on two parsed ini-files in two units of length (`Spec/Scaled`) | every reader, every step of generation, every object and the search for cells commute with multiplication of lengths (`Lemmas/Scaled`, `Lemmas/ScaledObjects`, `Lemmas/ScaledRead`); random fields from `specsim` scale (`C125_elevations`, `C125_parameters`) |
| C126 | `simulate` on two parsed ini-files that differ in `k_h` (`Spec/Conductivity`) | every step of the hydraulic parameters is linear in the table of conductivities and the array of conductivities together (`Lemmas/Conductivity`); the rest does not read the table |
| C127 | `simulate` on two parsed ini-files that differ in `dz` (`Spec/Resolution`) | generation does not read `dz` (`Lemmas/Resolution`); cells through C128; refuted for centres on contacts and for objects that reach below their element |
| C128 | `simulate` on a parsed ini-file of sheets and drawn troughs | drawn troughs hang from levels above the bottom of their element and are closed upwards (`Props/Hanging`), so results of the search from scratch descend (`Lemmas/Hanging`) and C12 applies |
| C129 | `simulate` with random numbers as random variables on any probability space (`Spec/Surely`) | the thickness of an AE is a measurable function of the four numbers drawn for it, with mean = weighted mean thickness less avul_prob times mean avulsion (integrals over the product measure); strong law of large numbers, so the level sinks below the bottom almost surely; then the termination lemmas of C99. Need for the condition: `C129_endless`, `C129_still` |
| C130 | as C129, for a sequence of independent realisations | the type is a step function of the number drawn for it (C100) whose integral is the share of the weights; strong law of large numbers |
| C131 | `runHyvr`, `mainHyvr` with random numbers as random variables | countably many realisations end together almost surely (C129); the lemma behind C111 asks only that every realisation of the run ends, so all of C111 and C116 follows on that set |
| C132 | `readIni`, `writeIni`, `settings`, `runPath` | invariant of the reader: what it has read could be written in the layout of the copy; that layout is one of C133; the settings of the copy are those of the ini-file (C53); induction over the realisations for the copy being left |
| C133 | `readIni`, `toIni`, `runPath` | induction over a description of the layout, line by line through the reader; induction over texts for line ends and percent signs; values against an inductive relation (Spec/IniValues) for references |
| C134 | `simulate` with random numbers as random variables, `Spec/Endless` | the sums of thicknesses tend to minus infinity almost surely (strong law), so they have a last maximum; hence from some AE on they stay below with positive probability, which is independent of the numbers before it (`Lemmas/Stay`); a stratum that was generated is one whose sums reached its height. Equal averages are left open, except for thickness zero (C129) |
| C135 | `simulate` on two parsed ini-files, `Spec/Width` | relation between two generations in lockstep: flat surfaces have the same level on both grids, objects the same geometry, tests at equal coordinates the same answer (`Lemmas/Width`, `Lemmas/WidthIni`). Channels differ only in `min_dx_dy`, which their test uses for `dont_check`; `C135_channels` combines this with C114 for `simulateC`. Not for random contacts (the field is drawn per cell) nor for channels in cells wider than one unit |
| C136 | `placeTroughs`, `generateObjects`, `Spec/Density` | the numbers drawn are random variables (`RandomPlaces`: numpy's Poisson numbers have the Poisson law for the mean asked for, uniform numbers are uniform, number and position of a trough are independent); the troughs on a level are the drawn points (C24, C105), so the mean number in a rectangle is the mean of a sum of a random number of indicators (Wald's identity by `lintegral_tsum`). Averages over realisations with the same mean top and highest bottom of the AE |
| C137 | `generateObjects`, `Trough.new`, `Channel.new`, `SheetObj.new`, `Spec/Own` | object number `k` of an AE was made with the random numbers number `k` (as in C102), unfolding its constructor for structures without layers; the law of the facies is a finite sum over the listed entries, independence is passed through functions of single draws |
| C138 | `generateObjects`, `placeTroughs`, `Trough.test`, `Spec/Share` | a trough misses a point iff its direction and centre are not in a set given by C19; for given numbers and directions the centres are independent and the sets have the probability area / (lx * ly), as the image of a disc under a linear map; the mean of (1 - q)^N for Poisson numbers N is exp(-mean * q), and the levels are independent |
| C139 | `settings`, `simulate`, `generateObjects`, `Spec/Frame` | two runs of the generating loops keep the same surfaces (induction over the AEs of a stratum and over the strata, contacts kept by later steps); reading and drawing of layers use the section `strata`, the grid and the contact models only; `contact_model` is parsed the same for all geometries |
| C140 | `settings`, `runHyvr`, `Spec.SameButNumsim`, `Spec.placeOf` | the section `run` is read the same but for `numsim`, which no other option refers to; what a realisation is and writes does not depend on the number of realisations (C98, C104); the contents of its directory are what it has written last (C57), for both numbers |
| C141 | `settings`, `runHyvr`, `Spec.SameOutside`, `Spec.WayFree` | set-up leaves, at every path, something that depends on the disk outside of the run directory only (`setUp_get`, from C54); the loop over the realisations keeps two disks the same at every path (induction over the realisations and the files written). For running again: the loop keeps a tree of files and directories (`Kept`). Entries that are neither files nor directories are excluded: they survive (C54) |
| C142 | `readIni`, `toIni`, `runPath`, `Spec.IniDoc`, `Spec.SameShown`, `Spec.retext` | both texts are read as the same sections and options (C133), so the two runs differ in the disk they start from only, and this in the text of one file; every operation on disks keeps that (no decision of a run looks at the text of a file), by induction over the entries, the directories and the realisations |
| C143 | `settings`, `runHyvr`, `Spec.SameButOutputs`, `Spec.OwnNames`, `Spec.placeOf` | the parsed files agree up to the list of outputs (`settings_outputs`), so the realisations are the same; the files of a run that ended normally are those of its formats one after the other (`createOutputs_all`), so the last text of a name is that of its format (`lastText_format`), wherever this is in the list |
| C144 | `settings`, `setUp`, `runHyvr`, `Spec.PlaceFree`, `Spec.placeOf` | only the directories depend on where the ini-file is (`settings_dir`); set-up raises nothing in a free place (`setUp_free`); both runs are the loop over the same realisations, whose files are those of C57, relative to the run directory |
| C145 | `settings`, `outputsOf`, `runHyvr`, `Spec.NamedAfter` | only the names and directories depend on the file name (`settings_file`); by induction over the formats the files of the two runs are the same list under two injective namings (`createOutputs_named`), so the last text of corresponding files is the same; the rest as for C144. Formats that write the run name into their files (`modflow` and `mf6`, which list their files) do not meet `NamedAfter` |
| C146 | `runHyvr`, `realisations`, `setUp`, `World.states` | invariant over all elementary changes of a run (`runHyvr_steps`): each is in the run directory or makes a missing directory above it; so a free place stays free (`free_beside`), and C144 compares the two runs of the second study; runs in free places leave trees (`tree_after`), which gives both orders |
| C99 | generation from the parsed ini-file | what parsing guarantees about every option that generation reads (shape, number, range), then induction over the loops; refuted for zero weights and negative thicknesses |

Statements changed while proving (the present ones are in `properties.jsonl`):

* C12 has the condition that from-scratch results descend in order; without it the claim is false (`C12_unordered_refuted`).
* C30, C31 and C65 were made precise (step length `ds + 1e-10`, path length exceeding the spacing, bounds of the recurrence).
* C46 and the theorems on tables need options with distinct names (`Spec.WellNamed`), which holds for all tables of the new format.

## Known disagreements between code and property

All proved as `_refuted` theorems (or as theorems for all inputs), with what does hold in the `_partial` theorems.

| id | what the code does |
|----|--------------------|
| C07 | the model top is at `lz`, not at `z0 + lz` |
| C13 | a cell centred exactly on a contact between elements is not assigned, and neither are the cells below it |
| C15, C51 | old format: background dip of an element is read from the azimuth |
| C16, C17 | objects are numbered after their numbers were copied: `ha` is 0 for every object |
| C20 | periodic wrapping fails for centres more than 1.5 domain lengths away and for troughs wider than the domain |
| C23 | bulb dips have the wrong sign, and directions are wrong for rotated troughs |
| C27 | the channel cache skips cells wrongly for `dy > 1` |
| C127 | a cell centred on a contact empties the cells below it, so a grid without that cell shows more; objects of an upper element that reach into a lower one are found or not, depending on the cells in between |
| C114 | same as C27, for a realisation; the rest of C114 does not depend on `dy` |
| C28, C33 | facies look-ups of channels and sheets can leave the table |
| C32 | sheets over an uneven bottom lie partly below their element |
| C36 | homogeneous parameters with a new-format section: `KeyError`; so `heterogeneity = false` ends every run of a new-format file (`C36_ini_refuted`) |
| C37, C38, C75 | objects numbered 0 get background parameters; longitudinal trends are not stored; an element's vertical trend changes the whole model |
| C44, C45, C78, C79 | irregular, deep and unterminated lists |
| C48 | contact models with capital letters are accepted and fail later |
| C50 | `bulb_sets` without layer distance is accepted; `bulb` without it is rejected |
| C51, C89 | old format: `ext_par` and `bulb_l` are accepted and cannot be generated |
| C53 | any `modeldir` raises a `TypeError`; names without extension and the run name `.` (the run directory is that of the ini-file); backup names without underscore |
| C54 | special entries of an old run directory survive overwriting |
| C55 | the `overwrite` argument is ignored, and so is `--overwrite` of the program |
| C56 | re-running from the backup inside the run directory has a moment in which the text of the ini-file is nowhere |
| C59 | VTR files have too many nodes if a length is not a whole number of cells |
| C60 | MODFLOW and MODFLOW 6 models are upside down |
| C61 | `delr`/`delc` exchanged; bottoms; one cell in x; MODFLOW fixes the heads on the y faces |
| C66 | the test case leaves its directory behind if a realisation raises |
| C68, C69 | layer around the zero plane twice as thick; sheets dip the opposite way; azimuths of channels counted the other way round |
| C70 | `size_ztrend` for channels always raises |
| C71, C73 | channels end before the downstream edge; start is wrong for shifted origins |
| C72 | massive channels have azimuth 0 |
| C76, C77 | the average of a random field along every line in x-direction is the same; fields are periodic |
| C82, C83 | a single stratum is impossible in the new format; the documented form of `avul_prob` is rejected |
| C84 | unknown element names are accepted by the parser |
| C90 | an ini-file without a dot in its name, with overwriting: everything beside it is deleted |
| C92 | without heads the MODFLOW writers raise; without inflow 0.01 is used |
| C93, C116 | flow outputs without hydraulic parameters raise `KeyError`, which ends the run (`C116_refuted`) |
| C94, C95 | cross sections show the wrong slice unless the spacing is 1; `log` is ignored |
| C97 | a misspelled element name is noticed only after the old results have been deleted |
| C99 | ini-files with weights `ae_prob` that are all zero, or with a negative `ae_z_mean`, are accepted; generation then raises `ValueError` |
| C109 | with level `internal`, every cell of an object whose facies is not the AE's background facies gets the parameters of the AE's background facies (a consequence of C16; `C109_cell_refuted` is a cell of a concrete ini-file) |
| C119 | the MODFLOW 6 model is the generated one after half a turn about the x-axis (so upside down, with gravity irrelevant for confined cells); angles read in the axes of the grid would be wrong unless the dip is 0 or the azimuth is 90 (`C119_axes`); for dx other than dy it is distorted |
| C121 | the MODFLOW-2005 model is a mirror image of the generated one (`C121_mirror`), its rows are x; azimuth and dip are left out, so anisotropic cells whose bedding dips get a wrong tensor (`C121_dip_refuted`); for dx other than dy it is distorted (`C121_width_refuted`) |
| C122 | layered sheets: the number of layers is calculated from the distance between the domain's centre and the origin of the coordinates, so a domain far from the origin can raise `ValueError` (`C122_sheets_refuted`); channels move only half of the way (`C122_channels_refuted`, see C73); proved for massive sheets and troughs |
| C125 | channels: `curve_interp(s, theta, 0.1)` resamples the centreline in steps of 0.1 units, whatever the unit is, so the number of points and with it the length of a channel depends on the unit (`C125_channels_refuted`); proved for sheets and troughs |
| C123 | a cell that belongs to no AE (for example above the elevation `lz`, if `z0` is positive, see C07) keeps the facies number 0: it counts as the facies that is listed first, and gets its parameters (`C123_refuted`: conductivity 1 or 2 in the same cell, depending on the order) |
| C117 | the documented arrays `fac` and `ani_rat` do not exist (`facies`, `anirat`) |

Documented options without any effect (`C110_documented`): `anisotropy` (docs/inout.rst:143), `n_ztrend` and `n_xtrend` of elements
(docs/inout.rst:253-256), `lag` (docs/methods.rst:300).

The documented output format `dat` (docs/inout.rst:419) is rejected (C81); the Python pickle is written by the format `py`.

Smaller observations, stated at the definitions: an invalid `bg_facies` of a stratum is a `TypeError` instead of a `ValueError`; an element without
`contact_model` is accepted as optional and then a `TypeError`; `ae_table` in old files is a `NameError`; a missing section `run` is a `KeyError`.

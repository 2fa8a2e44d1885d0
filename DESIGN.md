# Formal model of craterstats: design

Source: `/repo` (ggmichael/craterstats at the pinned commit), read as text, never executed.
Model and proofs: `/verif/lean` (Lean 4.33.0 + Mathlib). Build: `cd lean && lake build`.

## 1. Trusted base

* Lean's kernel. No axioms of our own, no `sorry`/`admit`, no `native_decide`/`bv_decide`.
  Every theorem named in `MANIFEST.json` depends at most on `propext`, `Classical.choice`, `Quot.sound`.
* The hand translation Python → Lean. Each definition under `Verif/Model` cites the file and lines it mirrors and states its
  simplifications. Python exceptions are values: `Verif.Py.Exc` (index, key, type, value, unbound, name, attribute, system exit,
  non-finite number) and `Verif.Cratercount.Err`.
* The meaning given to library calls, collected in `Verif/Py`:
  `searchsorted`, `interp`, `cumsum`, `histogram`, `linspace`, `clip`; `str.split/strip/join/replace/splitlines`; dictionaries as
  association lists in insertion order; decimal texts and `int`/`float` of texts; a backtracking regular-expression matcher.

### Numbers
Floats are idealised: exact reals where `log10`, `sqrt`, `exp`, `sin`, `arccos` occur, exact rationals where numbers are formatted or
parsed (every double is a rational; Python formats its exact value, rounding half to even). Rounding of arithmetic, overflow and
signed zeros are **not modelled**; where the code can produce `nan` or an infinity (logarithm of a non-positive number, division by
zero) the model makes it an explicit error value. `inf` as a range limit is an extended real.

### Text
Strings are `List Char`. `Verif.Py.Re` is a syntax of regular expressions with literals, classes, greedy and lazy repetition, bounded
repetition, groups, lookahead and anchors; its matcher explores alternatives in the order of Python's engine (first success wins,
a repetition stops when its body matched nothing). Unicode character classes (`\w`, `\s`, `\d`) are a parameter `Classes` required
to agree with ASCII; case folding is a parameter. A file is the list of characters its bytes encode as UTF-8; text mode translates
line endings; the byte order mark is a character.

### Assumptions about external code (each a parameter or hypothesis of the theorems)
* scipy `curve_fit`: `CurveFitSpec`, it returns a minimiser of the weighted squared residuals (shown satisfiable). scipy `simpson`: any function.
  `scipy.stats.poisson.pmf`, `math.erf`: their formulae.
* spherely / astropy_healpix (`Verif.Rand.Sphere`): distance symmetric where stated; the cone search returns every cell holding a
  point within the radius, without repetition. shapely `within`: any relation; constructing polygons succeeds.
* random generator: an arbitrary stream of draws, or a state passed on. Worker pool: tasks handed out first-in first-out, results in
  order of submission; with the fork start method every worker begins with the same generator state.
* an interrupted write leaves a prefix of the file.
* matplotlib `get_legend_handles_labels`: lines in order of drawing with a non-empty label not beginning with an underscore.
* `shlex` as documented (POSIX mode); `str.isdigit` a parameter; `os.path` functions parameters.
* numbers read by `int`/`float` carry no white space or underscores.

### Not modelled at all
Drawing by matplotlib, file-system and OS calls beyond the above, reading shapefiles, the graphical interface, the progress bar library,
the desktop icon, rounding errors of floating-point arithmetic, performance.

## 2. Layout

| directory | content |
|---|---|
| `Verif/Py` | semantics of Python and library functions used by the code |
| `Verif/Model` | function-by-function model, one file per group of functions |
| `Verif/Spec` | small independent specifications, not using the model |
| `Verif/Lemmas` | auxiliary lemmas |
| `Verif/Props` | the theorems named in `MANIFEST.json`, with examples meeting their hypotheses, and their lemmas |
| `seeded/LOG.jsonl` | mutation tests: an edit of the model, the claim it breaks, the theorems which then fail |

Specifications which need only a line or two stand directly before the theorem in `Verif/Props` (their comment begins
"Specification:").

## 3. Properties

Status `proved`: the statement in full; `partial`: the theorem names end in `_partial`, and what is missing is false of the code
(refuted by a theorem with suffix `_counterexample`) or not covered, as said in the comment of the theorem and in the manifest.

| id | property | status | model | proof |
|---|---|---|---|---|
| C01 | Bins cover every crater | proved | `Cratercount.generate_bins`: decades × mantissas for pseudo-log, arithmetic progression in log10 otherwise, slicing by `searchsorted` | bounds on floor/ceil and on the slice; sorted-list lemmas |
| C02 | Binning conserves craters | proved | `histogram` (half-open, last bin closed), `apply_binning` | induction over craters; every crater in exactly one bin (C01) |
| C03 | Cumulative counts mean 'diameter at least D' | proved | bin table: `n`, `ncum`, event columns, `dMean`; binning none | suffix sums = weight of craters ≥ boundary, induction over bins |
| C04 | Crater order is irrelevant | proved | as C02, and `getplotdata` | histogram is a sum over a multiset; sort of a permutation |
| C05 | Plot data does not depend on call history | proved | object state = cached binning name + table; operations decode_range, getplotdata, WriteStatFile | invariant of all histories: cached table = table of the cached name; refinement to a stateless function; counterexample: re-binning at another offset |
| C06 | A diameter range selects exactly its bins | proved | `getplotdata` selection | filter characterisation; sums over aligned ranges |
| C07 | Error bars are y/sqrt(N) | partial | `getplotdata` value and error columns | algebra; differential refuted, exact relation proved |
| C08 | Presentations agree with each other | proved | same | algebra, suffix sums over filtered lists |
| C09 | Snapped ranges are bin boundaries enclosing the request | proved | `decode_range` snapping | searchsorted characterisation, tolerance arithmetic, for every contiguous table |
| C10 | Bin addressing bN selects bins N..M | partial | `decode_range`, bN branch | index arithmetic on strictly increasing means; refuted for binning none and for tiny craters |
| C100 | Random positions are uniform on the sphere | proved | `random_points_pp` as a function of two random numbers | volume of the set of pairs of random numbers; zone area as an integral |
| C101 | The range covers the counted area | partial | `find_enclosing_polygon`, `sprinkle_discs_pp` | cases of the poles covered; counterexamples by trigonometry |
| C102 | Ages from cumulative fits with resurfacing correction | partial | `calculate_age` with `resurf_adj` and `getplotdata`; the curve fit is a parameter | the two point sets compared bin by bin; induction on the iterations; counterexample for all densities below the stopping tolerance; `C102_none_counterexample`: `None` gives the points of 1 |
| C103 | Crater files as texts | partial | `Cratercount.__init__` and `ReadDiamFile` on the characters of the file; the `_ra.txt` file read before and shape files are inputs | C33 for the text, C12 for the values; case analysis of the handlers |
| C104 | Age scale of the uncertainty plot | proved | MiniPlot.ageScale, ageLabels with Plotting.ticks, Text.strAge, Text.gStr (Craterpdf.py:137, 156-167); ticks are real numbers, the text formatting is applied to the rational number equal to them (they are nice number times power of ten); the logarithmic axis is not modelled, it is not reachable from the program | ticks of C45 from zero are multiples of 1, 2, 5, 10 times a power of ten; six digits print them exactly; the text of the last tick splits at its only blank; max_age: the greatest age looked up is that of 99.7 % (bound of erf) |
| C105 | Distance of the uncertainty plot from the age text | proved | MiniPlot.offset, halfEdges, boxLeft; matplotlib is assumed to extend the axis to the last tick (set_xticks); the text length is a parameter | the samples above half maximum are characterised as least and greatest of a set; the axis of the plot and that used for the offset end at the same tick; the rest cancels |
| C106 | Violins of sequence plots | partial | MiniPlot.violin, pySlice | searchsorted characterised by the ordering; slices as ranges of sample numbers; C66 for the rows |
| C107 | Crater numbers in the legend | partial | LegendText.cratersItem (Craterplot.py:246-254) on the numbers of Cratercount.plotData; whether n_event is an integer is a parameter (true for counts binned here, false for .stat files); formatting applied to the floating point number ρ of a real | C06 totals; six digits of a natural number below 10^6 are its decimal digits (fixDigits_shift); rounding to a tenth via roundEven_spec |
| C108 | Diameter range in the legend | partial | LegendText.rangeItem, fitRange, rangeText (Craterplot.py:255-259) with Cratercount.generateBins and Text.diameterRange | generateBins_aligned for snapped ranges, generate_grid and bounds on 10^0.001 for other limits, C38 for the text |
| C109 | Functions of the user extend the list | partial | Cli.loadFunctions, setUserFunctions, sectionOf, nameOf (miscellaneous.py:65-94, cli.py:491-494); files as a map from paths to contents; printing not modelled | textOf_append: texts of definitions ending with a line end can be joined (induction over the text); C33 for the reading, C60 for the lookup, C31 for the configuration file |
| C11 | Stat export/import preserves the table | partial | `WriteStatFile`/`ReadStatFile` rows as numbers, and as text (columns not read again are given texts) | filter and suffix sums; widths of number texts; gap, event and single-row witnesses |
| C110 | The count plot shows the results of the randomness analysis of the count | partial | `read_ra_file`, data of `oplot_n_sigma` on the file written by the model of C56 | table value of C34 through the file of C56; `IsRounded` for names and values; monotone scale of C64 |
| C111 | Every figure is written in every format asked for, under one name | partial | `write_output_files`, `randomness_analysis` (names and contents), end of `main`; the analysis is an arbitrary function of the run number and the results found | induction over the formats; file names by C30 |
| C112 | Epoch regions on crater count plots | partial | `oplot`, `decode_formatting`; the fill and plot calls are recorded as data | strict monotony of `a0` (C14), scaling (C16), index arithmetic on the outline; membership in the truncated isochrons (C22) |
| C113 | Epochs on chronology and rate plots | partial | `chronology_oplot`; the matplotlib calls are recorded as data; the number formatted for an age is any function of it | C69 for the curve, interpolation stays on the polygonal line, C36-type rounding for the ages |
| C114 | Command files typed by hand are read as written | proved | `loadArgs` (line filter, join, `shlex.split` as a character automaton) of Model/CommandFile.lean; the grammar of typed lines (`TypedLine`, `TypedArgs`, `Typed`, `Piece`, `InDouble`) is an independent inductive specification | induction over the grammar with an invariant for the lexer between arguments (`Done`), then over the lines, skipped lines included |
| C115 | Settings of plots and plot sets | proved | `update`, `create`, `createSet` of Model/PlotObject.lean; opening a count and decoding a range are parameters; infinities and nan as texts of numbers count as errors | the merged dictionary has the last given value (induction over the dictionaries), invariant of the loop over its entries, then the three fill-in steps; `removeCrater_one` by induction over the part before the word; conversely the loop succeeds if every conversion does (`C115_created`) |
| C116 | Craters written as shapes keep number, position and size | partial | `find_rims`, `polygon_to_pts`, `writeSHPfiles`; the projections of pyproj are pairs of functions, one per origin | invariant of the remembered projections; rounding; shoelace area of a regular polygon; bounds of the sine |
| C117 | The counting area of a crater shapefile is found by its name | partial | `Spatialcount.__init__` (names), with `filename` (C30) and `convert_format` (C88) | replacement from left to right by induction; parts of file names |
| C118 | Chronology and rate plots for a reference diameter | partial | the chronology and rate branches of `draw`, with `getplotdata` (C69), `evaluate` (C16) and `N1`, `phi` (C14) | scaling of production functions; derivative of a product with a constant |
| C119 | The time axis of sequence plots shows every age at one place | proved | `create_time_axis_plotspace` (places and limits of the axes) with `calculate_time_axis_params` (C49) | piecewise linear and logarithmic maps: monotonicity, end values, inverses |
| C12 | Reading a crater file keeps every crater | proved | `ReadDiamFile`, `ReadSCCfile` column handling (parsed values as input) | sort is a permutation |
| C120 | Epochs on sequence plots | proved | `sequence_oplot`, with `decode_formatting` (C112) | uniqueness of sorted lists; arithmetic and geometric mean; induction over names |
| C121 | What is drawn for a count on a count plot | proved | `overplot` on count plots as a function from the settings to the points, bars, curves and age text handed to matplotlib, with `getplotdata`, `get_age` (C81, C82) and `getplotdata`/`getisochron` of the production function (C22) | case analysis along the code; clipping of ranges; the curve theorem C22 |
| C122 | Offset of age texts in twentieths of a decade | partial | the age branch of `overplot` with the change from data to axes coordinates | algebra of the two affine maps |
| C123 | Isochrons and their labels | partial | `plot_isochrons` as a function from the list of isochrons (C44) to curves and labels handed to matplotlib, with `getisochron` of the production function (C22) | the abscissae averaged are increasing, so their mean lies between two sampled points; monotone curves; some point of a grid of 400 lies near every place |
| C124 | Panel of deviations in the randomness figures | partial | `plot_n_sigma` of the randomness analysis as a function from the statistics to points, axis limits, bands, captions and ticks; `Hartmann_bins` with its minor ticks (C93) | monotonicity of the scale of the axis (C64); minimum and maximum of the positions; the first tick is the least power of two in the axis |
| C125 | The map shows the whole area and every crater | partial | `Spatialcount.plot`: projection of every ring, growth of the range with each polygon and rim, margins; the projection is a parameter, or the orthographic one written out | induction over the polygons and rims: the range contains what was added and its ends are attained |
| C126 | The map leaves room for the histogram | partial | regions are sets of points with bounds; `scale`, `translate` and `overlaps` as in shapely; the loop with fuel; the frames of map and histogram in the panel | the normalised map reduced below 0.4 ends left of the corner; induction over the number of reductions |
| C127 | Colours of the uncertainty plots | partial | the values given to `imshow`, the limits taken from the image, the list of colours and the ticks of the colour bar; matplotlib's division of the range into equal parts is assumed | real arithmetic; the index of a colour is a floor, compared for cells and labels |
| C128 | Sizes of symbols and text | partial | table of font factors, table of marker sizes as state changed by every drawing | unfolding one and two drawings |
| C129 | Measures of randomness depend only on where the craters are | proved | `evaluate_randomness` and `sdaa`; the Voronoi cells of scipy and spherely are a parameter whose value does not depend on the order of the points | from C52: the k-th distance is determined by the distances alone; sums over permutations; variance is 0 iff all deviations are |
| C13 | Resurfacing correction always finishes | proved | `resurf_adj` loop, the fit an arbitrary function | measure (number of points) and fuel |
| C130 | Every presentation offered can be drawn | partial | `draw` as titles, function legend and list of parts; a missing title is a KeyError, a missing function an AttributeError | case distinction over the presentations |
| C131 | Order of the parts of a figure, and the function legend | partial | `draw` as the list of its parts in order; the text of the legend | pairwise order of the list; the text split at line feeds |
| C132 | Functions have the numbers of their definitions | partial | Cli.sourceStructure, definitionOf, makeChronology, makeProduction (Chronologyfn.py:22-59, Productionfn.py:14-69) on the characters of the text | C33 for the reading of the text, with the entry `null` appended to a text (textOf_append); C60 for the lookup; C19 for tables |
| C133 | Command files are read in place | partial | `Model/CommandLine.lean`: the table of options, `parseWords` (argparse with options spelled in full), `applyOption` (storing, appending `-p`, reading files with the change of directory), over a file system given as functions; `optionValue` (conversion to numbers and choices; numbers written plainly), Python's limit of nested calls is the parameter `depth` | `C133_grammar` (both directions, against the inductive grammar `CommandOf`), `C133_in_place_partial` (induction over `Expands`, the relation which splices files in place), `C133_replay` (with C39), `C133_rejected`, `C133_wrong_value` (a value of the wrong kind ends the program); false for `-i` with a relative path holding a directory: `C133_relative_counterexample` |
| C134 | What a command does, and the file it leaves behind | partial | `Model/Main.lean`: `mainEvents` gives the actions of a command as a list of events; the construction of the plots is a parameter, the loading of the function list before most actions is left out; `demoWords` | `C134_request`, `C134_plots`, `C134_demo` over the expanded options of C133; false for `main([])`, which saves the command of the process (`C134_empty_counterexample`), and for files saved in another directory, where `-i` changes the directory so that relative names of counts are those of other files (`C134_moved_counterexample`) |
| C135 | Every age has its own row in a sequence plot | partial | `Model/SequenceElement.lean`: `sequenceMarks` records what is drawn; ages as in C82/C121 (`Model/Age.lean`), violins as in C106; the legend label is data; of the unused differential data only the binning and the bin range (which may raise) are modelled | `C135_rows_partial`, `C135_poisson`, `C135_fit`, `C135_apart`, `C135_hidden`, `C135_defined`, by induction over the plots; a plot without a count which is not of type data keeps an empty row (`C135_blank_counterexample`) |
| C136 | What is drawn over the maps of a randomness analysis shows the craters' neighbours and cells | partial | Model/MapDetail.lean: `oplot_voronoi` (pieces, fractions of an edge, edges of a ring with the one from last to first, projection), `oplot_neighbours`, and the lines for a bin from `get_bin_craters` (both forms) and the neighbour search. `pyproj.Geod`, the projection and the search grid are data; places that cannot be projected are `none`. Widths and colours left out. | Induction over the edges with the specification `Shortest` of a geodesic calculation (symmetric distance with triangle inequality, points at distance t along the line); neighbours from C52 and C98. Instance: the plane, with the argument of complex numbers as azimuth; a square frame shows that holes are not outlined. |
| C137 | Maps are drawn with a labelled grid | partial | Model/MapGrid.lean: range of what is shown (372-385), corners by the inverse projection, ticks (model of C45, at most six), parallels and meridians with labels. The projection is data (orthographic projection of Model/MapPlot.lean for the counterexamples), its inverse is specified by `InvertsOrtho` (an inverse on the disc, nothing outside; shown to exist). Infinite coordinates lead to the ValueError of `np.arange`. | Lower bound for the number of ticks from the step of the pass before; extent of what is shown unique; counterexamples with exact trigonometry for areas 60 degrees wide, at the pole, and across the 180 degree meridian. |
| C138 | Printed maps have the size asked for and one scale | proved | Model/MapSpace.lean: figure and axes in cm (990-1014); equal scales by matplotlib's box rule. | Division of the room by the wider direction; places inside by C125 (outermost places and margins). |
| C139 | The differential form of tabular functions is free of bin bias | partial | Model/Production.lean (`slopes`, `tabFs`, `tabF10`), Model/Cratercount.lean (`binBiasCorrection`). | Value at the interpolation nodes; the power law through the edges has density k/(2^(k/4)-2^(-k/4)) times count over centre. Strict convexity of sinh for the counterexample. |
| C14 | Chronology functions are increasing and consistent with their rate | proved | `Chronologyfn` constructor, `N1`, `phi` | HasDerivAt, strict monotonicity |
| C140 | Functions are selected by their full names | partial | Model/Abbrev.lean: `'.*'.join(v)` as a text, read by a model of the pattern syntax (characters, full stop, star, groups; errors for stars and unmatched brackets), search by the model of `re`. The special characters `\ [ + ? | ^ $` are not modelled | induction over the abbreviation with a stack of open groups; items of a pattern (characters and gaps); greedy embedding for the supplied list |
| C141 | What a command draws | partial | `Model/Run.lean`: `prepareRun`, the composition of `constructSettings`, `plotSpecs`, `constructPlotDicts`, `setDefaultName`, `legendStep`, `createSet` and `create` in the order of cli.py:518-533, from the options left by `runCommand`; values of options converted by `optionValue` | `Props/Run.lean`: composition of C133 (in place), C59 (settings), C40/C42 (specifications) and C115 (attributes); number of values of every option by induction over `Expands`; specifications `Shown`, `standardOf`, `PresentedAs`, `ItemsOf`, `Appears`, `InputOf` |
| C142 | The files a command leaves, and the analysis it asks for | partial | `Model/RunFiles.lean`: `raTrials`, `raCheck`, `raPrepare`, `overviewOf`, `writeRun` put together `Run` (settings), `Output` (files) and `Randomness` (session); the order of sets, whether there are ages, and the results of trials are parameters | on C133 (options), C58 (names and formats), C111 (files), C43 (selection) and `session_get` (what a session leaves for each measure) |
| C143 | Shading, texts and captions of uncertainty plots | partial | Shade (AgeArea): polygon, texts and caption of age_area_plot; drawing itself left out | inside of a polygon stated by the parity of ray crossings, evaluated for the three shapes; position on the axis by C87; caption by the value of printed numbers |
| C144 | From the text of a crater file to the age | partial | `Cratercount` as used by `Craterpdf` and by the binning, after opening a file (`FileAge.source`, `FileAge.object`) | C103 for the text, C04 for plot data, C81 for the expected numbers; `countK` invariant under permutation |
| C145 | Likelihoods of separate evaluations combine | proved | `Craterpdf.__init__` (C23), `source` of an opened count (C144), `mergeCounts` (C50) | shape of the likelihood (C23) with expected numbers as constants times powers of ten; a finite product of Poisson probabilities; telescoping over the range, sums over the merged list; resolution by C25 |
| C146 | From crater files to the rows of the summary table | partial | `TableRow.rowOf`, `table`: attributes of the plots and calculated ages to the texts of the rows (`summaryTable`, C48); formats of C36-C38, C89; rows of fits: C147 | rows by induction over the plots; every formatted text fits into one field; the layout by C48; the number, area and likelihood by C144, the quantiles by C24; plots created from settings (C115) are plots of this kind (`C146_created`) |
| C147 | Rows of the summary table for ages of all kinds | partial | `TableRow.rowOf`, `calculate`, `table` of Model/TableRow.lean as for C146; the fitting routine of scipy is a parameter; default texts of floating point numbers are assumed to contain no comma or line break | `Props/TableFits.lean`: induction over the plots with the specification `Found` of what each method gives; layout by C48; converse (`C147_written`): the table is made whenever the ages are found, the ranges can be written and fits are not mixed with Poisson ages before a fit |
| C148 | Ages of a count exported as a .stat table | partial | `applyBinning`, `statRows`, `readStat` of Model/Cratercount.lean; `ageOf` of Model/FileAge.lean; `fitAge` of Model/Age.lean; numbers are exchanged exactly, without the rounding of printing; with printing, `statText` and `openCount` of Model/CountFile.lean | `Props/StatAge.lean`: bins read back have the lower boundaries and numbers of the occupied bins and reach to the next occupied bin; a count over a range with limits at occupied bins is the sum over the same bins (`exported_count`); points of the cumulative plot bin by bin. `Props/StatTextAge.lean`: boundaries of the pseudo-log binning have two digits and counts at most five, so they are printed exactly, and only the area changes |
| C149 | Comparing the ages of crater files | partial | `openCount` of Model/CountFile.lean and `ageOf` of Model/FileAge.lean, as for C144 | `Props/FileOrder.lean`: the count is `numberIn` of the listed diameters; order of the percentiles by C25; the ends of the time scale by C81 (`ScaleReaches`) |
| C15 | Age inversion is accurate, ordered and bounded | proved | `t` by interpolation on the 1000-point table | interp lemmas, error bound between nodes |
| C150 | Ages of converted and merged spatial counts | partial | `writeScc` of Model/Scc.lean, `openCount` and `mergedText` of Model/CountFile.lean, `mergeCounts` of Model/Reading.lean, `ageOf` of Model/FileAge.lean | `Props/SpatialAge.lean`: composition of C78, C50, C79, C81 and C144; induction over the merged counts |
| C151 | Ages of counts drawn as polygons in shapefiles | partial | `readShp` of Model/ShapeCount.lean (areas and overlaps of polygons are data), `readShapes` of Model/Spatial.lean, `openCount` of Model/CountFile.lean, `ageOf` of Model/FileAge.lean | `Props/ShapeAge.lean`: the diameter is strictly increasing in the polygon area (C99), so limits of diameters are limits of areas; without buffering ages depend on the number counted and the area only (`age_congr`); rounding moves no diameter across a limit from which it is apart |
| C152 | From the words of a command to the rows of the table of ages | partial | `runCommand`, `prepareRun` (C133, C141), `decodeOf` of Model/RunAges.lean for `decode_range` with texts, `table` of Model/TableRow.lean (C147) | `Props/RunAges.lean`: what is asked for each plot is a specification on the items of the command (`AskedPlot`); each plot of the prepared run answers it (C141 and the defaults), the rows of the table are those of the plots (C147), the count is that of the file (C146); the range is related to C09 and C10. A worked command goes from the words to the number 3 in the table |
| C153 | Ages in the table are those of the chronology system asked for | partial | `systemsOf`, `systemFunctions`, `runTable` of Model/FunctionRun.lean on top of Model/Functions.lean (C132), Model/Run.lean (C141) and Model/TableRow.lean (C147) | `Props/FunctionRun.lean`: the systems are the entries of the text (C109), the name is that of C60 carried through the settings of the run (C141), the functions those of C132, the rows those of C152; worked example with a list of two systems, from its text and the words of a command to the number 3 in the table; a second one with a list of the user and a table of increments |
| C154 | What the lists on the screen show can be typed | partial | `printFunctions`, `printSymbols`, `printHighlights`, `requestOutput` of Model/Listing.lean with `bright` and `print` as texts; choice of the request from Model/Main.lean (C134) | `Props/Listing.lean`: the lines of the text printed are computed with `split '\n'` from the entries of the list (C109); selection from C153_system, where a name abbreviates itself (C140), so that only another name at most as long can win; symbols and colours from C73; example with a list read from its text |
| C155 | The epochs and the equilibrium function of a command are those defined under the names asked for | partial | Model/EpochRun.lean: the making of an epoch system from its definition with all its entries (makeEpochs), the names kept in the settings (optionalName), the epoch system and the equilibrium function of a command (runEpochs, runEquilibrium); on top of the models of the settings, of the list of functions and of the plots of epochs. | C155_listed: the definition with listed ages, whatever the functions; C155_densities_partial: boundaries by density, with the curves of polynomials and tables specified by the numbers of the list; C155_choice: which definition is used, from the words of the command; C155_drawn: what is then on chronology, rate and sequence plots. |
| C156 | The row of a cumulative fit shows the density of least deviation for the craters in the file | partial | no further definitions: the run of a command (C152, C153), `getplotdata`, `fit` and the chronology of the list of functions are put together | `C156_fit`: the points of the fit are the selected bins of the grid (C03, C06), each with the craters of at least its lower edge; the fit is the weighted mean of the logarithms (C20), so the unique minimiser; the limits and ages follow from the closed forms (C15, C21). `C156_exists`: the fit exists for every list of craters. `C156_command_partial`: the row of the table of a command, with the functions made of the list (C153, C155) |
| C157 | The row of a differential fit shows the density of least deviation for the craters in the file | partial | no further definitions: the run of a command (C152, C153), `getplotdata`, `bin_bias_correction`, `fit` and the chronology of the list of functions are put together; the curve which `getplotdata` evaluates for the correction is a parameter of the model, taken to be that of the production function | `C157_fit`: the points of the fit are the selected bins of the grid (C03, C06); `bias_chord` shows the correction to be the mean over the bin (C28), for every multiple of the curve; the fit is the weighted mean of the logarithms (C20), so the unique minimiser; the limits are in closed form, and the lower one exists exactly for 0.98 B < 1 (compare C21). `C157_exists`: the fit exists for every list of craters if the curve falls in the bins. `C157_command_partial`: the row of the table of a command; the differential curve is minus the derivative of the polynomial of the list (C17) |
| C158 | The row of a cumulative fit with resurfacing correction shows the density found by repeated fitting | partial | no further definitions: `resurf_adj`, `getplotdata`, `fit` and the run of a command (C13, C102, C152, C153) are put together. That the production function used by `getplotdata` is the one fitted is the hypothesis `PlotOf`, shown satisfiable by `plotOf_exists` | `C158_fit`: induction over the rounds with the invariant that the raised value of the largest bin is positive: it lies on the fitted curve, and all other bins have at least as many craters; so each round is a fit as in C156 to raised values. `C158_exists`: the fit exists for every list of craters. `C158_command_partial`: the row of the table of a command |
| C159 | The diameter limits in the row of a fit over all diameters enclose its craters, or are 0 and inf | partial | no further definitions: `generate_bins`, `apply_binning`, `getplotdata` (C01, C68) and the table of a command (C147, C152) are put together | `C159_range`: the first and last edge of the table of bins, for both kinds of fit, with and without correction for resurfacing. `C159_command_partial`: fields 4 and 5 of the row of a fit |
| C16 | Production curves scale with a0 | proved | `Productionfn` polynomial, tabular; all presentations | powers of ten |
| C160 | The row of a fit to the differential distribution follows the table of the production function | partial | no further definitions: the table of increments (C17), the fit (C157) and the table of ages of a command (C152) are put together; `TableDensity` is the specification of the density | `C160_density`: the density of a table at each diameter, for each multiple. `C160_command_partial`: the row of a differential fit for systems whose production function is a table. `C160_single`: a table of one increment has no differential curve |
| C161 | The strip of deviations stays above the data and within the plot | partial | `SigmaStrip.lean`: the highest ordinate kept by `autoscale`, and the rectangle given to `add_axes`; what is drawn in it is modelled in `SigmaPlot.lean` | `C161_strip`: place of the strip relative to all data and to the axes, using that squaring extends the lower end at most one decade more than the upper. `C161_offset`: the setting. `C161_forced_counterexample`: a y range given by the user |
| C162 | Fits scale with the number of craters and the area | partial | no new model: `fitAge` of `Age.lean`, with the objects made by the readers; `copies` and `Scaled` are the specification | `C162_cumulative`, `C162_differential`: the bins of both lists are the same, the sum of squared deviations of the one is a multiple of that of the other shifted by log10(m/s), and by C156 and C157 each fit is the only least of its sum. `C162_resurfacing`: equal factors; the rounds of the correction are determined by the densities, which are the same |
| C163 | Fitted ages for larger areas and for more craters | partial | no new model: `fitAge` of `Age.lean`, with the objects made by the readers | `C163_area_cumulative`, `C163_area_differential`: C162 with a single copy, and the monotonicity of the age in the density (C15). `C163_craters_counterexample`: bins, minimum and ages of two lists are computed, for every optimiser which finds the minimum |
| C17 | Differential form is the derivative of the cumulative form | proved | `polynomial_cumulative/differential` | HasDerivAt |
| C18 | Evaluating a production function honours the given a0 | partial | `evaluate` | case split; a0 = 0 refuted |
| C19 | Tabular production functions are self-consistent | proved | tabular constructor, `hartmann_calc` | suffix sums, interp at nodes |
| C20 | Isochron fit is the weighted mean offset and recovers exact data | proved | `fit`; scipy `curve_fit` by its specification `CurveFitSpec` (shown satisfiable) | completing the square |
| C21 | Fit uncertainty brackets the fit | partial | `fit` uncertainty | monotone logarithms; refuted for differential fits |
| C22 | Plotted curves stay in the function's validity range | partial | `getplotdata`, `getisochron` | clip, linspace, filter; index −1 wrap refuted |
| C23 | Age likelihood is a probability distribution | proved | `Craterpdf.__init__` | sums of lists |
| C24 | Age percentiles are ordered | proved | `t`, `median1sigma` | interp monotone |
| C25 | More craters mean older, more area means younger | partial | same | monotone likelihood ratio ⇒ stochastic order, by induction; Stirling bound shows that the grid resolves counts up to a million; counterexample with two samples where one of two likelihoods has the artificial peak |
| C26 | Sequence probabilities are complementary | partial | `calculate_sequence_probability` | double sums; exact defect |
| C27 | Gaussian percentiles are symmetric and increasing | proved | `gaussian_percentiles`; erf by its integral | integral estimates |
| C28 | Bin bias correction is the power-law bin average | partial | `bin_bias_correction` | integral of a power; |k| < 1e-5 refuted |
| C29 | Fractional crater transform is a proper inverse | proved | `fractional_crater_transform` | integral for the disc segment, strict monotonicity, interp |
| C30 | File name splitting loses nothing | proved | `gm.filename` on the regular-expression matcher | matcher characterisation (first successful split) |
| C31 | Text files round-trip | partial | `read_textfile`, `write_textfile` | induction over characters and lines |
| C32 | Comment stripping only removes comments | partial | comment pattern on the matcher | induction over the line with quote state |
| C33 | Repeated keys become arrays in file order | partial | `read_textstructure`: `definitionRe`, `evaluate`, `merge` | inductive relation `Definitions` (grammar of texts); matcher lemmas for each construct; `TextOf` states the grammar and the meaning of names, values and structures without the functions of the reader |
| C34 | Tables read as rectangular columns | partial | table branch of `simple_value` | induction over rows |
| C35 | Quoted splitting keeps quoted fields whole | partial | `quoted_split` | `findall` over joined fields |
| C36 | Significant-figure strings denote the rounded number | proved | `sigfigs` over exact rationals | decimal digit strings; rounding half to even |
| C37 | Age strings use the right unit | proved | `str_age` | case analysis on unit and form |
| C38 | Diameter range strings use km above 1 km and m below | proved | `diameter_range` | case analysis |
| C39 | Saved command files replay the same command | partial | `cs_content`, `LoadFromFile`, `shlex.quote/split` | state machine induction |
| C40 | Plot specifications parse back to their key/value pairs | proved | `AppendPlotDict` | regex split = unique decomposition |
| C41 | Abbreviations resolve by case-insensitive subsequence | proved | `decode_abbreviation` | pattern = subsequence; stable minimum |
| C42 | Unspecified plot properties carry over from the previous plot | partial | `construct_plot_dicts` | fold invariant |
| C43 | Bin selection lists parse robustly | proved | `ra_decode_selection` | `findall` = integer fields |
| C44 | Isochron lists accept the documented suffixes | partial | `plot_isochrons` items, float parser a parameter | case analysis |
| C45 | Tick computation ends and covers the axis | partial | `gm.ticks`, fuel for the loop | termination measure; witness of non-termination |
| C46 | Autoscaled axes contain the data with equal decades | partial | `autoscale` | integer arithmetic |
| C47 | Legend shows every data series once | partial | legend labels, `draw` aggregation; matplotlib label rule | fold over the drawn lines |
| C48 | Summary table ranks and lists every age | partial | `create_summary_table` | rank lemma for stable sort; join/split |
| C49 | Time axis parameters are sane | proved | `calculate_time_axis_params` | real arithmetic |
| C50 | Merging adds counts and areas | partial | `merge_cratercounts` | sums/append |
| C51 | Random crater placement meets its constraints | proved | `sprinkle_discs_pp`, arbitrary draws, `Sphere` parameters | loop invariant; termination given room |
| C52 | Neighbour search is exact | proved | `kth_nearest_neighbour_pp` | selection lemma: cone at the provisional distance is complete |
| C53 | Randomness percentile is the fraction of smaller trials | proved | `calculate_stats` | counting |
| C54 | Interrupted analyses resume without loss | partial | `run_montecarlo`, write, restart | invariant over all sequences of interrupted sessions; interrupted write refuted |
| C55 | Monte Carlo results do not depend on scheduling | partial | pool as an arbitrary schedule | refinement to the serial run; shared generator state refuted |
| C56 | Randomness file round-trips | partial | `write`/`read` of the randomness file | through C31–C34 |
| C57 | Area outlines survive conversion | partial | `writeSCCfile`/`readSCCfile` | through C31–C34; ring numbering, sorted set, later rings within the outline |
| C58 | Output names and formats follow the options | partial | output name and format options | case analysis |
| C59 | Display settings given by the user are kept | partial | `construct_cps_dict` | fold over options |
| C60 | Function lookup finds the first definition of that name | partial | lookup by name | list lemma |
| C61 | Epoch boundary times are ordered like their densities | proved | `Epochs.__init__` times | composition of monotone maps |
| C62 | Range helpers | partial | `gm.range`, `gm.mag` | min/max of a list |
| C63 | Rescaling stays in range and keeps order | partial | `gm.scl` | clip, affine map, truncation |
| C64 | n-sigma axis scaling keeps sign and order | proved | `n_sigma_scaling` | real powers |
| C65 | Panel layout never overlaps | proved | panel layout | div/mod arithmetic |
| C66 | Sequence plot rows are distinct and ordered | proved | sequence rows | arithmetic |
| C67 | Progress reporting is transparent | proved | `iterator_with_progress` | list induction |
| C68 | Reported bin range is the snapped range | proved | `calculate_age` bin range | as C09 |
| C69 | Plotted chronology curve | proved | `Chronologyfn.getplotdata` | list membership |
| C70 | Sequence-probability table is produced | partial | `Craterpdf` with a given array; `create_sequence_table` (Model/SequenceTable.lean) | evaluation of the truth test; negation proved, for the whole table function and every plot set |
| C71 | Minor tick limit | partial | minor ticks | searchsorted; negation proved |
| C72 | The name part of a path is the base name | partial | `gm.filename` code n | as C30 |
| C73 | Colours and symbols can be chosen by name, code or index | partial | colour and symbol values | case analysis over the fixed tables |
| C74 | Each requested format is written, with the same set of figures | partial | `write_output_files` | fold over formats |
| C75 | Epoch labels sit in the visible part of their epoch | proved | label positions of epochs | sorted list with two inserted limits |
| C76 | Captions of the summary table stand over their columns | partial | captions of the summary table | columns of the two fixed caption lines; negation proved for every table |
| C77 | Converted spatial counts keep their craters | partial | `writeSCCfile`/`readSCCfile` | as C57; number texts read back exactly as rounded |
| C78 | A converted count is opened with its area | partial | `writeSCCfile`, `Cratercount.__init__`, `ReadSCCfile` | as C57; where `g` writes an exponent; negation for large areas |
| C79 | A file of merged counts can be used like any count | partial | file of `merge_cratercounts`, `ReadDiamFile` | through C33/C34; `str` of a number a parameter read back exactly |
| C80 | Adjacent diameter ranges add up | proved | `Craterpdf.__init__`: crater number and expected numbers | case split on the limits, C16 |
| C81 | Expected crater numbers follow the isochron of the age | proved | `Craterpdf.__init__`: expected numbers, standard and buffered | C16 scaling; `simpson` a homogeneous parameter |
| C82 | Reported ages are ordered and consistent | proved | `calculate_age`, Poisson types | C24, strict monotony of interpolation |
| C83 | The density shown as N(d) is the density at d | partial | `calculate_age`, legend and summary table densities | C16 at 1 km, C15; counterexample for 10 km |
| C84 | Likelihood ratio relative to the median | proved | `calculate_instantaneous_probability_ratio` | non-negativity of interpolation |
| C85 | The cells of the uncertainty plot carry the ages of the time axis | proved | `gridSize`, `logAges`, `axisPos` (the two matplotlib axes as fractions of the width); Python `round` (halves to even) modelled | index arithmetic, rounding bounds |
| C86 | Cells of the uncertainty plot | proved | `cell`, `grid`; the random number generator is a parameter | scaling of isochrons (C16), C23, C24 |
| C87 | Shading beyond saturation and beyond the whole body | partial | `wholeGlobe`, `saturationAge`, `saturationX` | partial: nothing is shaded when the limit lies below the axis, i.e. when everything is beyond it (counterexamples); otherwise strict monotony of `axisPos` |
| C88 | Conversion writes the file it reports, under the name asked for | partial | `convert_format`, `outfile`, names of `Spatialcount` and `Cratercount` | parts of file names by `reName_search` (C30); case distinction over formats; counterexamples where the report or the name is wrong |
| C89 | Numbers in scientific notation | proved | `scientific_notation`, both notations | rounding lemmas of C41; the text before and after `e` read back as a number |
| C90 | Percentiles are shown with two significant figures of the distance to 0 or 100 | partial | `percentile_sigfigs` | partial: false between 99.9999 and 100 (counterexample); rounding lemmas |
| C91 | Plots have the requested print size | partial | `CreatePlotSpace` dimensions, `calculate_time_axis_params` size; fonts and the randomness panel apart from its height not modelled | field arithmetic, case split on the presentation; counterexamples |
| C92 | Ticks of the natural diameter axis | proved | natural ticks of `CreatePlotSpace` | integers between ceiling and floor; text of powers of ten read back |
| C93 | Ticks of the root-2 diameter axis | partial | `Hartmann_bins` | explicit label table, monotony of the logarithm; counterexamples |
| C94 | Title of chronology plots names the reference diameter | partial | axis title of chronology and rate plots | C89 text lemmas; counterexample |
| C95 | Overlay of bin boundaries | proved | overlay of bin boundaries in `CreatePlotSpace`; matplotlib calls are recorded as marks | C01, induction on the boundaries |
| C96 | Histogram of the trials | partial | `plot_histogram`: `np.histogram`, outline, shaded part, limits, ticks; colours and texts not | every value in exactly one bar; half a bar is below the standard deviation, so a boundary lies in the shaded range; interpolation in a chain of steps |
| C97 | Resolution of the search grid | partial | `establish_hpx`; the grid library itself is not modelled | bounds of rounding, powers of two |
| C98 | Craters and trials of a bin | proved | `get_bin_craters`, `montecarlo_split`; the floating point value of the logarithm is any function with an error up to 0.01 | C01, C03; three digits separate half-integers below 99.9 |
| C99 | Craters digitised as shapes | proved | `readSHPfiles` from the areas and coverings reported by the geometry library on; reading of the shape files, projection and the library are not modelled | cap area as an integral; C29 |

## 4. Findings

Behaviour of the code found while modelling; those marked † are proved in Lean (theorem `Cxx_…_counterexample` or in the statement).

Counting and binning
* † Re-binning an object at another offset is not noticed by the cache (C05).
* † `bN` addressing without binning excludes the craters N and M themselves; with craters below 0.1 mm the selected bins shift (C10).
* † A written stat file loses widths before empty bins and event counts; a single-row file cannot be read (C11).
* † Error bars of differential plots are not divided by the bias factor (C07); merging `.diam` counts always fails (C50).

Functions and ages
* † An explicit `a0` of 0 is treated as missing (C18); points below the first equilibrium sample are compared with the last (C22).
* † A differential fit with one crater can leave its own uncertainty interval (C21).
* † The two sequence probabilities do not sum to 1, because `np.roll` wraps (C26); the sequence-probability table never completes (C70).
* † Legend and summary table show N(1) under the name N(d) for every reference diameter d; the value computed for d is not used (C83).
* † Bias correction returns 1 near slope 0 instead of the limit (C28).
* † `gm.range([])` with magnitude gives a pair (C62); `scl` with both `tname` and `out_range` fails (C63).

Plotting
* † `ticks` never ends for two ticks and zero inside the range (C45); the minor tick limit acts as a lower bound (C71).
* † Autoscaling is lost when the first plot has no data, fails when none has a range (C46).
* † `-legend na` loses a data series followed by a fit; a series named "fit" or beginning with an underscore is mis-handled (C47).
* † Summary table: a Poisson age followed by a fit is a TypeError; a comma in a name shifts columns; one extra field per row (C48);
  captions stand one column too far left (C76).

Command line
* † `-text_halo 0` and axis ranges of Hartmann plots are overridden (C59); `-o x.pdf -f png` loses pdf, `-o directory` is a NameError (C58).
* † Uncertainty plots with two image formats: the second gets one bare file; csv for uncertainty plots or without ages writes nothing (C74).
* † Documented indices of colours and symbols do not work (C73); the manual's isochron suffix `n` is not recognised (C44).
* † The type is carried over although the source changes; a relative directory of `-i` is prepended repeatedly (C42).
* † Saved command files: empty arguments are an IndexError, option-like arguments are written unquoted (C39).
* † A source of functions with a single definition fails with a TypeError (C60). Definitions of the user cannot override built-in ones;
  the user's text is appended without a line break; an unreadable user file is a NameError.
* The manual lists the symbol `ft` for the filled triangle; `psym=ft` selects "filled star4".

Files
* † A single empty line, or a leading byte order mark, does not survive writing and reading (C31).
* † An unclosed apostrophe truncates the line when comments are stripped (C32).
* † Structured text: a repeated key whose last value is a list is flattened; an empty value swallows the next key; a tab before the
  equals sign hides a definition (C33); a blank row in a table is an IndexError (C34); a quoted field ending in a backslash swallows
  the next field (C35).
* † Paths with brackets or other unusual characters are split wrongly; `max_ext_length` is ignored for lists (C72).
* † Spatial counts: fractions are never read back (C77); separate parts of one shape are lost, islands become holes (C57).
* † An area of 10^6 km² or more in a .scc file is read as less than 10 km² (C78); merged files cannot be merged again (C79).

Randomness analysis
* † Forked workers repeat the same trials; results depend on the schedule (C55).
* † Placement never ends when there is no room (C51).
* † A measure without bins makes the file unreadable (C56); an interrupted write loses completed measures or makes every later run fail (C54).
* With two image formats the analysis text is written to `X_ra_ra.txt`.
* `density=48` (a single number) in an epoch definition is read digit by digit.
* † Uncertainty plot: when the saturation age is younger than the whole time axis, or the body smaller than every area of the axis, nothing
  is shaded although everything should be (C87).
* † The table of sequence probabilities is never produced (C70); besides, the option `-st` is not used by `main` at all.
* † `--convert` to stat or scc ignores the output name (only its directory is used); conversions to scc, shp or an image from a source
  of the wrong kind report a file which was not written; maps are written to a directory whose name lacks the word CRATER (C88).
* `[]` in a text structure is an array of one empty text (C33).
* Of two blocks of text between quotation marks with no opening brace between them only the first is kept, and it contains the second (C33).
* † A percentile above 99.9999 is shown as 100.000 (C90).
* † Print dimensions: the height of `AxB` is ignored for Hartmann plots; boxes and scales below 1 cm are not obeyed; a chronology plot
  can be higher than the box (C91).  A root-2 axis beginning above 1 km shows no unit, one with fewer than two powers of two is an
  error (C93).  The titles of chronology and rate plots round the reference diameter to whole km (C94).
* † With one trial, or if all trials agree, the histogram raises an exception instead of being drawn (C96).
* † For a count of the whole body and fewer than 60 trials the side of the search grid is a fraction, not a power of two (C97).
* † The range of the random positions is that of the vertices of the area. It misses parts of the area if both poles are covered or if an edge between distant vertices bulges towards a pole; for an area across longitude 180° no random position ever falls in it, so the analysis never ends (C101).
* † The rule to stop the resurfacing correction is an absolute density of 0.0001 per km²: for densities below that it stops after a single fit with an incomplete correction (C102).
* † C106: the slices `ts[p[i]:p[j]]` use the index of the last sample below the percentile for both ends, so the zone starts one sample early and ends one sample early (sample i is included when its successor is in the range).  If the first sampled age already holds 16 % of the probability the start index is -1 and nothing is shaded (C106_first_sample_counterexample); this needs counts far outside the usual ones.
* † C107: `f'{n:0g}'` shows six digits: 1234567 craters become `1.23457e+06 craters` (C107_million_counterexample).  `f'{n_event:d}'` is not defined for the floats read from a .stat file: a fit to an exported count with fractions ends with ValueError if the legend shows crater numbers, which is the default (C107_stat_counterexample).
* † C108: for fits (and Poisson evaluations of .stat files) the legend takes the logarithm of the limits without replacing 0 and infinity by the ends of the count, unlike getplotdata: `int(floor(-inf))` raises OverflowError.  With the default range (0 to infinity) and the default legend (`fnacr`) a fit cannot be drawn (C108_unconstrained_counterexample).
* † C109: a list of the user that cannot be read is not ignored: the message names an undefined variable (`functions_user`), so that the program ends with NameError.  As the functions are loaded before any option is treated, `--functions_user` cannot be used to repair this (C109_missing_counterexample).  A configuration file with nothing but comments is an IndexError (C109_comment_counterexample).
* † C110: an analysis in which no bin has enough craters leaves a results file with an empty table; every later plot of the count then ends with a ValueError (`min` of an empty list), until the file is removed (C110_no_bins_counterexample).
* † C111: with more than one image format, uncertainty plots have their three diagrams only in the first format treated, the others get an empty plot (C111_uncertainty_counterexample); a randomness analysis is run again for each image format under a name with a further `_ra` (C111_randomness_counterexample); with an age table its name depends on the order of the set of formats, which differs between processes (C111_order_counterexample).
* † C112: the oldest boundary is never drawn as a line on count plots, also if it is marked (C112_oldest_counterexample); a boundary of exactly one crater per km² uses the default a0 (C18).
* † C113: if the oldest boundary lies up to 0.06 Ga beyond the end of the time axis, the name of the oldest epoch is written over the epoch before (C113_oldest_name_counterexample).
* † C114: a path with backslashes typed without quotes loses every backslash (`C:\data\x.scc` is read as `C:datax.scc`): `C114_backslash_counterexample`, for all such paths. Within double quotes the backslashes stay.
* † C115: `UpdateSettings(source=…)` on an existing plot reports the new source but keeps the old count and name: `C115_stale_counterexample`, for all plots and sources. (Also, `k in ('offset_age')` is a substring test, so any further setting named like a part of that word, e.g. `age`, is converted to a list of numbers.)
* † C116: outlines are inscribed polygons of 100 corners: a crater of up to a sixth of the planetary radius written to a shapefile and read again is smaller than before, by up to 0.04 % (C116_read_back), so that a crater on a bin boundary changes its bin.  A counting area of several separate parts cannot be written: AttributeError after the crater file has been written (C116_parts_counterexample).
* † C117: converted under a name which contains CRATER, the pair of files is not found again (C117_pair_counterexample); a crater file without the word in its name is itself taken for the counting area (C117_same_file_counterexample).
* † C118: on a chronology or rate plot without production function the curve labelled with another reference diameter is the one for 1 km (C118_no_function_counterexample).
* † C120: an epoch whose geometric middle is younger than the change of scale and whose arithmetic middle is older is named on both parts of the axis (C120_named_once_counterexample), e.g. one from 2 to 4.2 Ga.
* † C122: the upward offset is divided by the decades of the horizontal axis; unless both axes have equally many decades it is not in twentieths of a decade (C122_upward_counterexample).
* † C123: an isochron that lies wholly above 0.8 of the equilibrium density ends the program with IndexError, also with its label hidden (`C123_empty_counterexample`). If a curve rises and falls, as on R plots, the label is put at the average of the places where the curve is near the upper end, which may lie outside the axes (`C123_turning_counterexample`). The direction of a label is taken from its own place, 0.05 decades below the curve, to the curve, so labels are not parallel to their curves; with the option `a` only the alignment changes, the place stays below the curve (`C123_label_partial`).
* † C124: the panel needs two successive powers of two in its axis. An analysis with craters in one root-2 bin only, or in two neighbouring bins of which the first does not begin at a power of two, ends with an error while the figure is made (`C124_narrow_counterexample`).
* † C125: the map is an orthographic view of one hemisphere. If a point of the area or of a rim is more than 90° from the middle of the area the range becomes infinite and the figure ends with an error (`C125_hemisphere_counterexample`).
* † C126: (1) `overlaps` is false if the map covers the place of the histogram completely, so that square areas are not made smaller and the histogram lies on the map (`C126_square_counterexample`). (2) The search looks at the lower right corner and at a map reduced about its middle, but the histogram is drawn 0.1275 higher and the map at the upper left (`C126_offset_counterexample`).
* † C127: the colour bar of the number of craters is placed as if the image contained cells with 0 and with at least 8 craters; the limits of the colours are taken from the image. Otherwise the labels stand at colours of other numbers (`C127_few_craters_counterexample`, `C127_many_craters_counterexample`).
* † C128: (1) each drawing multiplies the marker sizes kept in the plot set by 0.8·width/7.5 cm, so that symbols shrink when a figure is drawn again (`C128_redraw_counterexample`). (2) Fonts other than seven end with a KeyError (`C128_font_counterexample`).
* † C130: `map`, `sdaa` and `m2cnd` can be chosen by `-pr` but end with a KeyError when drawn as a plot set (`C130_offered_counterexample`).
* † C131: the legend names the equilibrium function on chronology and rate plots (`C131_chronology_counterexample`), and the epochs on uncertainty plots (`C131_uncertainty_counterexample`), although neither is drawn there.
* † A chronology defined by `n1_code` cannot be made (its evaluation is commented out; AttributeError), and the chronology system "Vesta, Marchi & O'Brien (2014)" of the shipped list names its chronology with a second quotation mark, which is not found (C132).
* † C133: with `-i` and a relative path holding a directory (`-i sub/a.cs`) the program first goes to that directory and then opens the path from there, so the file is not found although it exists.  With `-i a.cs -inc s.txt` the output is named after `s.txt`, the file read last.
* † C134: a command saved in another directory (`-o /d/plot`) is not repeated by `-i /d/plot.cs`: it is carried out in `/d`, so relative names of counts refer to other files.  `main([])` saves the arguments of the process instead of the empty command.
* † C135: a plot with an age but without a count (no source) keeps an empty row in sequence plots, although it draws nothing.
* † Partial: the boundaries of holes in a cell (where the counting area has a hole) are not drawn, only the outer boundaries are, although a comment in the code says that holes should be outlined.
* † False of the code in three cases: (1) if a corner of the bounding rectangle of what is shown lies beyond the edge of the visible disc (e.g. an area reaching 60 degrees from its middle), the conversion to an image ends with an error; (2) likewise if the bounding rectangle is centred at a pole, as both corners then have the same latitude; (3) across the 180 degree meridian the meridians drawn are those of the far side, none of them between the corners of the map.
* † False of the code for slopes below 1e-5 (nearly no craters in a bin): there the correction is left out and the value is too small by 0.5 percent.
* † C140: brackets in a name are not looked for: if the list has the same name without brackets, this one is taken (`C140_bracket_counterexample`). A star or an unmatched bracket (`-cs "Moon*"`) ends with an error of the pattern matcher instead of the message `Invalid abbreviation` (`C140_malformed`).
* † C102: `getplotdata(resurfacing=None)` is documented as giving no correction but gives the points of `resurfacing=1` (`C102_none_counterexample`); with fewer than two points or without cumulative values there is no difference.
* † `-trials 0` makes 1000 trials (`C142_trials_counterexample`); `-ra` with only csv makes no analysis at all (`C142_table_counterexample`).
* † C25: where the grid does not resolve the likelihood (raw sum below 1e-30, with 5000 samples only beyond a million craters) an artificial peak is inserted; then one crater more can give a smaller age, if its likelihood is just resolved (`C25_more_craters_counterexample`, two samples, 61 and 62 craters).
* † C143: the caption of the colour scale of uncertainty plots lacks its closing bracket from a smallest diameter of 1 km on (`C143_bracket_counterexample`).
* † A file with reference areas for its craters (a buffered count) gets the Poisson ages of its craters on 1 km², whatever the areas (C144_reference_counterexample); for .diam files no buffered Poisson age can be calculated even if they contain a perimeter, as merged files do (C144_buffered_counterexample).
* † C146: the columns `d_min`, `d_max` and `Range` of Poisson ages show the requested range, also where the craters were counted in the narrower range of the production function (`C146_range_counterexample`: four craters in the range shown, three counted).
* † C147: if the last age is a fit without resurfacing correction and any other age is a Poisson age, no table is written: an error is raised whatever the counts (`C147_mixed_counterexample`).
* † C148: a range ending at the upper boundary of an occupied bin which is followed by an empty one loses that bin after export: the list has craters there, the exported table none (`C148_gap_counterexample`). In all presentations but the cumulative one the bin before a gap is plotted at a larger diameter (`C148_presentation_counterexample`).
* † C150: the age of a converted count with an area of a million km² or more is calculated with an area below ten km² (`C150_large_area_counterexample`); no buffered age is available for merged counts (last part of `C150_merged_partial`).
* † C154: if the list of functions has only one equilibrium function (chronology system, system of epochs), -lcs fails, since a single definition is not a list: C154_single_counterexample.
* † C157: a differential fit gives more weight to bins with a larger error bar (`sigma = 1/sqrt(err)`), and its lower limit is not a number if the first bin has a single crater and the correction exceeds 1/0.98 (C21).
* † With a y range given by the user the place of the strip still follows the highest data point, also if that lies outside the axes: the strip is then drawn over the title or outside the figure (`C161_forced_counterexample`).
* † A cumulative fit can give a smaller age for more craters: with craters of 1 km and 1024 km on 4 km² (production function 1/D, N(1) = 2t) the fitted density is 4, with a further crater of 1 km it is below 3.25, and the age decreases by more than 0.3 Ga (`C163_craters_counterexample`). The weights of the fit are the densities themselves.

## 5. Axioms per theorem

As printed by `#print axioms`, for every theorem of `MANIFEST.json` (prefix `Verif.Props.`).

No axioms (1): C60_single_counterexample.

`propext` (5): C120_abbreviation, C31_roundtrip_partial, C31_empty_counterexample, C40_collect, C55_schedule_counterexample.

`Quot.sound`, `propext` (9): C114_typed, C114_open_quotation, C31_options, C35_writable, C54_resume_partial, C54_once, C60_lookup_partial, C65_selected, C67_progress.

`Classical.choice`, `Quot.sound`, `propext` (552): C01_bins_cover, C01_nonpositive_rejected, C01_binning_succeeds, C02_conservation, C03_bin_contents, C03_cumulative_monotone, C03_none_contents, C04_order_irrelevant, C04_plot_order_irrelevant, C05_history_independent, C05_prebinned, C05_offset_counterexample, C06_selection, C06_no_range, C06_aligned_totals, C06_succeeds, C07_error_bars_partial, C07_differential_counterexample, C08_presentations_agree, C08_cumulative_differences, C08_succeeds, C09_snapping, C09_applies, C10_bin_addressing_partial, C10_applies, C10_none_counterexample, C10_micro_counterexample, C100_uniform, C100_range, C100_batch, C101_reach_partial, C101_both_poles_counterexample, C101_bulge_counterexample, C101_across_counterexample, C102_fit_partial, C102_density_counterexample, C102_none_counterexample, C103_diam_partial, C103_reference_partial, C103_unreadable, C104_scale, C105_gap, C106_violin_partial, C106_rows, C106_first_sample_counterexample, C107_whole_partial, C107_fractions, C107_buffered, C107_million_counterexample, C107_stat_counterexample, C108_fit_partial, C108_fit_limits, C108_poisson, C108_unconstrained_counterexample, C109_functions, C109_lookup, C109_set, C109_builtin, C109_missing_counterexample, C109_comment_counterexample, C11_stat_roundtrip_partial, C11_text_partial, C11_applies, C11_gap_counterexample, C11_events_counterexample, C11_single_row_counterexample, C110_panel_partial, C110_centre, C110_direction, C110_band, C110_no_bins_counterexample, C111_plots, C111_uncertainty_partial, C111_randomness_partial, C111_uncertainty_counterexample, C111_randomness_counterexample, C111_order_counterexample, C112_regions_partial, C112_defined, C112_equilibrium_partial, C112_equilibrium_defined, C112_oldest_counterexample, C113_regions, C113_texts, C113_defined, C113_oldest_name_counterexample, C114_backslash_counterexample, C115_settings, C115_complete, C115_count, C115_nothing, C115_source, C115_name, C115_set, C115_created, C115_stale_counterexample, C116_rims, C116_area, C116_read_back, C116_written, C116_parts_counterexample, C117_area_file, C117_pair_partial, C117_pair_counterexample, C117_same_file_counterexample, C118_chronology, C118_rate, C118_no_function_counterexample, C119_time_axis, C12_diam, C12_diam_accepted, C12_diam_buffered, C12_scc, C12_scc_accepted, C120_regions, C120_name_inside, C120_every_epoch_named, C120_named_once_counterexample, C120_defined, C121_hidden, C121_points, C121_poisson_curve, C121_fit_curve, C121_defined, C122_age_place_partial, C122_upward_counterexample, C123_curves, C123_label_partial, C123_labelled, C123_defined, C123_empty_counterexample, C123_turning_counterexample, C124_points, C124_heights, C124_captions, C124_grid, C124_defined_partial, C124_narrow_counterexample, C125_shown, C125_defined_partial, C125_hemisphere_counterexample, C126_size, C126_clear_partial, C126_square_counterexample, C126_offset_counterexample, C127_counts_partial, C127_few_craters_counterexample, C127_many_craters_counterexample, C127_ratio, C127_ratio_labels, C128_symbols_partial, C128_redraw_counterexample, C128_text_partial, C128_font_counterexample, C129_order, C129_m2cnd, C129_sdaa, C129_unknown, C13_resurfacing_finishes, resurf_fuel_enough, C13_same_shift, C130_drawn_partial, C130_hartmann, C130_offered_counterexample, C131_order, C131_counts, C131_lines, C131_legend_partial, C131_chronology_counterexample, C131_uncertainty_counterexample, C132_chronology, C132_polynomial, C132_table, C132_code_counterexample, C132_vesta_counterexample, C133_grammar, C133_in_place_partial, C133_replay, C133_rejected, C133_wrong_value, C133_relative_counterexample, C133_name_counterexample, C134_request, C134_plots, C134_demo, C134_empty_counterexample, C134_moved_counterexample, C135_rows_partial, C135_poisson, C135_fit, C135_apart, C135_hidden, C135_defined, C135_blank_counterexample, C136_neighbours, C136_elsewhere, C136_defined, C136_outlines_partial, C136_holes_counterexample, C137_grid_partial, C137_map_partial, C137_corner_counterexample, C137_wide_counterexample, C137_pole_counterexample, C137_dateline_counterexample, C138_size, C138_numbers, C138_scale, C138_inside, C139_density_partial, C139_flat_counterexample, C14_construct, C14_increasing_and_rate, C140_full_name_partial, C140_supplied, C140_malformed, C140_bracket_counterexample, C141_display_partial, C141_plots, C141_legend, C142_plots, C142_analysis_partial, C142_measure, C142_trials_counterexample, C142_table_counterexample, C143_shading_partial, C143_texts, C143_caption_partial, C143_bracket_counterexample, C144_age_partial, C144_same_partial, C144_fractions_partial, C144_reference_counterexample, C144_buffered_counterexample, C145_ranges, C145_areas, C145_ranges_partial, C145_areas_partial, C146_rows_partial, C146_written, C146_file_partial, C146_range_counterexample, C146_created, C147_rows_partial, C147_written, C147_mixed_counterexample, C148_poisson_partial, C148_cumulative_partial, C148_fit_partial, C148_text_partial, C148_gap_counterexample, C148_presentation_counterexample, C149_outside_partial, C149_more_craters_partial, C149_more_area_partial, C15_age_inversion, C150_converted_partial, C150_buffered_partial, C150_merged_partial, C150_large_area_counterexample, C151_age_partial, C151_buffered_partial, C151_plots_partial, C151_order_partial, C151_converted_partial, C151_radii, C152_plots, C152_table_partial, C152_file_partial, C152_whole, C152_unsnapped, C152_snapped, C153_list, C153_system, C153_file_partial, C153_table_partial, C154_functions, C154_typed_partial, C154_symbols, C154_printed, C154_single_counterexample, C155_listed, C155_densities_partial, C155_choice, C155_drawn, C156_fit, C156_exists, C156_command_partial, C157_fit, C157_exists, C157_command_partial, C158_fit, C158_exists, C158_command_partial, C159_range, C159_command_partial, C16_scaling, C16_at_1km, C160_density, C160_command_partial, C160_single, C161_strip, C161_offset, C161_forced_counterexample, C162_cumulative, C162_differential, C162_resurfacing, C163_area_cumulative, C163_area_differential, C163_craters_counterexample, C17_derivative, C17_nonpositive, C18_evaluate_partial, C18_zero_counterexample, C19_tabular_cumulative, C19_tabular_hartmann, C19_tabular_differential, C20_fit_minimises, C20_fit_recovers, C20_fit_scales, C20_empty, C20_cumulative_applies, curveFitSpec_satisfiable, C21_cumulative_fit, C21_brackets_partial, C21_cumulative_applies, C21_differential_counterexample, C22_curve, C22_curve_defined, C22_default_range, C22_isochron_partial, C22_isochron_defined, C22_wrap_counterexample, C23_likelihood, C23_shape, C23_defined, C23_defined_buffered, likelihood_example, C24_percentiles_ordered, C24_reported_age, C25_more_craters, C25_more_area, C25_more_area_buffered, C25_resolved, C25_more_craters_partial, C25_more_area_partial, C25_applies, C25_more_craters_counterexample, C26_sum_partial, C26_not_complementary_counterexample, C27_percentiles, C28_bin_average_partial, C28_symmetric, C28_zero_slope_counterexample, C29_geometric, C29_area_fraction, C29_inverse, C30_split, C30_parent, C31_mark_counterexample, C32_content, C32_comment, C32_unchanged_partial, C32_idempotent, C32_apostrophe_counterexample, C33_read_partial, C33_blank, C33_repeats_partial, C33_value_partial, C33_list_counterexample, C33_empty_counterexample, C33_tab_counterexample, C33_empty_array_counterexample, C33_blocks_counterexample, C34_table_partial, C34_blank_counterexample, C35_fields_partial, C35_backslash_counterexample, C36_sigfigs, C37_age, C37_errors, C38_diameter_range, C39_replay_partial, C39_empty_counterexample, C39_joined_counterexample, C39_linebreak_counterexample, C40_items, C40_roundtrip, C41_abbreviation, C41_full_name, C42_carried, C42_own, C42_source_partial, C42_accepted, C42_type_counterexample, C42_source_counterexample, C43_selection, C44_suffixes_partial, C44_manual_counterexample, C45_ticks_partial, C45_two_ticks_counterexample, C46_autoscale_partial, C46_order_irrelevant_partial, C46_empty_plot_counterexample, C46_no_ranges_counterexample, C47_legend_partial, C47_lost_series_counterexample, C47_suppressed, C48_table_partial, C48_mixture_counterexample, C48_comma_counterexample, C49_time_axis, C50_merge_partial, C50_merge_order, C50_refused, C50_diam_counterexample, C51_configuration, C51_no_room, C51_ends, C52_exact, C52_found, C52_filed, C53_stats, C53_exists, C53_order, C53_monotone, C54_write_counterexample, C55_streams_partial, C55_one_worker, C55_repeated_counterexample, C55_distinct_counterexample, C56_roundtrip_partial, C56_no_bins_counterexample, C57_rings_partial, C57_every_ring_partial, C57_multipart_counterexample, C57_island_counterexample, C58_options_partial, C58_default, C58_order, C58_name, C58_format_counterexample, C58_directory_counterexample, C59_settings_partial, C59_presentation, C59_legend, C59_hartmann, C59_halo_counterexample, C59_hartmann_counterexample, C60_system, C60_body, C61_boundary_times, C61_definition, C62_range_partial, C62_empty_counterexample, C63_scl, C63_reversed, C63_default_input, C63_named_types, C63_both_counterexample, C64_n_sigma, C65_panels, C65_reading_order, C66_rows, C68_bin_range, C68_open_ends, C69_plotted_chronology, C70_forced_array_counterexample, C70_never_written_counterexample, C70_error_counterexample, C70_buffered_ignored_counterexample, C71_minor_limit_counterexample, C72_base_name_partial, C72_bracket_counterexample, C72_list_counterexample, C73_names, C73_hex, C73_accepted, C73_index_counterexample, C74_files_partial, C74_uncertainty_counterexample, C74_table_counterexample, C75_epoch_labels, C76_captions_counterexample, C77_craters_partial, C77_fraction_counterexample, C78_converted_partial, C78_large_area_counterexample, C79_merged_partial, C79_merge_again_counterexample, C80_counted, C80_adjacent_ranges, C81_expected, C81_expected_buffered, C82_reported, C82_defined, C83_poisson_partial, C83_fit_partial, C83_other_diameter_counterexample, C84_ratio, C85_age_axis, C85_grid, C86_cell, C86_monotone, C86_defined, C86_grid, C87_whole_globe_partial, C87_small_body_counterexample, C87_saturation_partial, C87_early_saturation_counterexample, C87_saturation_age, C88_default_partial, C88_name_counterexample, C88_shapefiles, C88_map_partial, C88_nothing_written_counterexample, C88_refused, C88_directory_counterexample, C89_value, C89_limits, C89_refused, C90_percentile_partial, C90_percentile_counterexample, C91_box_partial, C91_proportions, C91_scale_partial, C91_time_axis, C91_text, C91_hartmann_counterexample, C91_small_counterexample, C92_natural, C93_root2_partial, C93_unit_counterexample, C93_few_counterexample, C94_title_partial, C94_title_counterexample, C95_boundaries, C95_none, C96_bars, C96_shading, C96_axes, C96_ticks, C96_equal_counterexample, C97_resolution, C97_side_partial, C97_few_trials_counterexample, C98_selection, C98_trials, C99_diameter, C99_increasing, C99_craters, C99_radii.

{"id": "C01", "title": "Bins cover every crater", "statement": "For every non-empty crater list and every named binning other than 'none', the bin boundaries are strictly increasing, the smallest diameter is not below the first boundary, the largest diameter is strictly below the last boundary, and so each crater falls in exactly one half-open bin.", "quantifier": "all non-empty lists of positive diameters, all six log-type binnings, all bin offsets", "why_tests_cant": "Edge effects appear only for particular diameters near a decade or bin edge; a test samples a few lists, the claim is over a continuum of diameters.", "anchors": ["src/craterstats/Cratercount.py:Cratercount.generate_bins", "src/craterstats/Cratercount.py:Cratercount.apply_binning"]}
{"id": "C02", "title": "Binning conserves craters", "statement": "After binning, the per-bin event counts sum to the number of craters in the file and the per-bin crater numbers sum to the sum of the crater fractions: no crater is lost or counted twice.", "quantifier": "all crater lists with any fractions, all binnings including 'none'", "why_tests_cant": "Loss at the open/closed end of a histogram range shows only on exact boundary diameters.", "anchors": ["src/craterstats/Cratercount.py:Cratercount.apply_binning", "src/craterstats/Cratercount.py:Cratercount.generate_bins"]}
{"id": "C03", "title": "Cumulative counts mean 'diameter at least D'", "statement": "In the binned table the cumulative number at a bin with lower edge D is the total weight of craters of diameter >= D, the cumulative event number is the number of craters of diameter >= D, and both are non-increasing with D. For binning 'none' this holds at the first of equal diameters.", "quantifier": "all crater lists, all binnings, every bin", "why_tests_cant": "The relation ties every bin to every crater in the list; tests check selected table rows.", "anchors": ["src/craterstats/Cratercount.py:Cratercount.apply_binning"]}
{"id": "C04", "title": "Crater order is irrelevant", "statement": "Permuting the craters (together with their fractions) in an input list changes neither the binned table nor any plot data derived from it.", "quantifier": "all crater lists, all permutations, all binnings", "why_tests_cant": "There are n! permutations per input.", "anchors": ["src/craterstats/Cratercount.py:Cratercount.apply_binning", "src/craterstats/Cratercount.py:Cratercount.ReadDiamFile", "src/craterstats/Cratercount.py:Cratercount.ReadSCCfile"]}
{"id": "C05", "title": "Plot data does not depend on call history", "statement": "A crater count object returns the same plot data and decoded range for given arguments whatever sequence of range decodings, plot-data requests and stat-file exports (with any binnings) preceded the call, and for a pre-binned source the binning argument is ignored.", "quantifier": "all finite sequences of public calls, all arguments", "why_tests_cant": "The object caches one binning lazily; stale-cache faults depend on the order of calls.", "anchors": ["src/craterstats/Cratercount.py:Cratercount.getplotdata", "src/craterstats/Cratercount.py:Cratercount.decode_range", "src/craterstats/Cratercount.py:Cratercount.WriteStatFile", "src/craterstats/Cratercount.py:Cratercount.apply_binning"]}
{"id": "C06", "title": "A diameter range selects exactly its bins", "statement": "With a diameter range, plot data contains exactly the non-empty bins whose geometric mean lies strictly inside the range, in ascending order, and the reported crater number and event number are the totals over exactly these bins.", "quantifier": "all binned tables, all ranges, all presentations, showall on or off", "why_tests_cant": "Selection is a filter over arbitrary tables; off-by-one and strictness faults need boundary inputs.", "anchors": ["src/craterstats/Cratercount.py:Cratercount.getplotdata"]}
{"id": "C07", "title": "Error bars are y/sqrt(N)", "statement": "In every presentation the error bar of a point equals its plotted value divided by the square root of the number of craters behind it (cumulative number for the cumulative presentation, bin number otherwise).", "quantifier": "all binned tables, all presentations", "why_tests_cant": "The relation is per point over a continuum of values.", "anchors": ["src/craterstats/Cratercount.py:Cratercount.getplotdata"]}
{"id": "C08", "title": "Presentations agree with each other", "statement": "For a given table and range the R, Hartmann, differential and incremental values of a bin are the same density expressed in different units: R = D^3 x (n/width/area), Hartmann = D(sqrt2-1) x (n/width/area), differential = (n/width/area)/bias correction; the cumulative value of a bin minus that of the next non-empty bin equals the incremental value.", "quantifier": "all binned tables produced by binning a crater list", "why_tests_cant": "Needs all tables, including empty bins between occupied ones.", "anchors": ["src/craterstats/Cratercount.py:Cratercount.getplotdata"]}
{"id": "C09", "title": "Snapped ranges are bin boundaries enclosing the request", "statement": "With snapping, a requested diameter range is replaced by one whose ends are bin boundaries (unless 0, or beyond the last boundary), which is never inverted, never starts above the requested minimum (a minimum below the table becomes its first boundary) and never ends below the requested maximum by more than the built-in tolerance, and decoding an already decoded range changes nothing.", "quantifier": "all tables obtained by binning crater lists whose largest bin is at least 0.1 mm wide, all requested ranges with non-negative lower limit", "why_tests_cant": "Tolerance factors make the behaviour at boundaries subtle; only a proof covers every real request.", "anchors": ["src/craterstats/Cratercount.py:Cratercount.decode_range"]}
{"id": "C10", "title": "Bin addressing bN selects bins N..M", "statement": "range=[bN,bM] refers to the N-th and M-th non-empty bins (1-based, negative from the end, clipped to the available bins); the fit then uses exactly the non-empty bins N to M inclusive.", "quantifier": "all binned tables, all integers N, M", "why_tests_cant": "All indices including negative, zero, out of range; empty bins in between.", "anchors": ["src/craterstats/Cratercount.py:Cratercount.decode_range", "src/craterstats/Cratercount.py:Cratercount.getplotdata"]}
{"id": "C11", "title": "Stat export/import preserves the table", "statement": "Writing a crater count as a .stat file and reading it back gives, up to the printed precision, the same area and the same non-empty bins (lower edge, number, event number, cumulative number, geometric mean diameter and width).", "quantifier": "all crater lists, all binnings", "why_tests_cant": "Depends on where empty bins fall.", "anchors": ["src/craterstats/Cratercount.py:Cratercount.WriteStatFile", "src/craterstats/Cratercount.py:Cratercount.ReadStatFile", "src/craterstats/Cratercount.py:Cratercount.MakeBinGeometricMean"]}
{"id": "C12", "title": "Reading a crater file keeps every crater", "statement": "Reading a .diam or .scc crater table keeps exactly the multiset of (diameter, fraction) pairs of the file, sorted by diameter; buffered files weight each crater by the reciprocal of its reference area.", "quantifier": "all crater tables", "why_tests_cant": "Sorting two parallel arrays can silently mis-pair; needs all lists.", "anchors": ["src/craterstats/Cratercount.py:Cratercount.ReadDiamFile", "src/craterstats/Cratercount.py:Cratercount.ReadSCCfile", "src/craterstats/Spatialcount.py:Spatialcount.readSCCfile"]}
{"id": "C13", "title": "Resurfacing correction always finishes", "statement": "The iterative resurfacing correction ends after at most 21 fits for every input, returns 0 for fewer than two points, and adds the same amount to every cumulative value.", "quantifier": "all data, all fit outcomes", "why_tests_cant": "Iteration count depends on data; a test cannot show termination.", "anchors": ["src/craterstats/Cratercount.py:Cratercount.resurf_adj", "src/craterstats/Cratercount.py:Cratercount.getplotdata"]}
{"id": "C14", "title": "Chronology functions are increasing and consistent with their rate", "statement": "For positive coefficients, N(1) is 0 at age 0, strictly increasing with age, and the impact rate returned is exactly its derivative and positive.", "quantifier": "all positive coefficient triples, all ages", "why_tests_cant": "A derivative identity and monotonicity over a continuum.", "anchors": ["src/craterstats/Chronologyfn.py:n1_coeff", "src/craterstats/Chronologyfn.py:phi_coeff", "src/craterstats/Chronologyfn.py:Chronologyfn.N1"]}
{"id": "C15", "title": "Age inversion is accurate, ordered and bounded", "statement": "Converting a crater density to an age always gives a value in [0,5] Ga, is monotone in the density, is exact at the 1000 tabulated ages, and for every age in [0,5] returns a value not above it and less than 5/999 Ga below it.", "quantifier": "all positive coefficients, all densities, all ages in [0,5]", "why_tests_cant": "Error bound over a continuum of ages and coefficient sets.", "anchors": ["src/craterstats/Chronologyfn.py:Chronologyfn.t", "src/craterstats/Chronologyfn.py:Chronologyfn.__init__"]}
{"id": "C16", "title": "Production curves scale with a0", "statement": "Shifting a0 by x multiplies every presentation of a production function by 10^x at every diameter, and the cumulative curve at 1 km is 10^a0.", "quantifier": "all coefficient lists, all tabular functions, all diameters, all a0", "why_tests_cant": "Algebraic law over continuous inputs.", "anchors": ["src/craterstats/Productionfn.py:Productionfn.polynomial_C", "src/craterstats/Productionfn.py:Productionfn.polynomial_F", "src/craterstats/Productionfn.py:Productionfn.hartmann_calc"]}
{"id": "C17", "title": "Differential form is the derivative of the cumulative form", "statement": "For polynomial production functions the differential curve is minus the derivative of the cumulative curve with respect to diameter, R = D^3 F, and Hartmann = F D (2^1/4 - 2^-1/4), at every positive diameter.", "quantifier": "all coefficient lists, all positive diameters, all a0", "why_tests_cant": "Derivative identity.", "anchors": ["src/craterstats/Productionfn.py:Productionfn.polynomial_F", "src/craterstats/Productionfn.py:Productionfn.polynomial_R", "src/craterstats/Productionfn.py:Productionfn.polynomial_H"]}
{"id": "C18", "title": "Evaluating a production function honours the given a0", "statement": "Evaluating a production function with an explicit a0 uses that a0, for every real value; without a0 it uses the function's own first coefficient.", "quantifier": "all a0", "why_tests_cant": "The failing value is a single point of a continuum.", "anchors": ["src/craterstats/Productionfn.py:Productionfn.evaluate"]}
{"id": "C19", "title": "Tabular production functions are self-consistent", "statement": "For a tabulated root-2 function the cumulative curve equals 10^a0 at 1 km, equals at each lower bin edge the sum of the incremental values of that and all larger bins, is non-increasing, and is constant outside the table.", "quantifier": "all positive incremental tables, all a0, all diameters", "why_tests_cant": "Needs all tables.", "anchors": ["src/craterstats/Productionfn.py:Productionfn.hartmann_calc", "src/craterstats/Productionfn.py:Productionfn.__init__"]}
{"id": "C20", "title": "Isochron fit is the weighted mean offset and recovers exact data", "statement": "Fitting an isochron to points that lie exactly on a production curve returns exactly that curve's a0; in general the fit is the unique minimiser of the weighted squared log residuals, and scaling all data by c>0 shifts it by log10 c.", "quantifier": "all non-empty data sets with positive values, cumulative and differential", "why_tests_cant": "Tests check two functions and one range.", "anchors": ["src/craterstats/Productionfn.py:Productionfn.fit"]}
{"id": "C21", "title": "Fit uncertainty brackets the fit", "statement": "The a0 triple returned by a fit satisfies lower <= fit <= upper whenever the first data point has an error not larger than its value, as is the case for y/sqrt(N) errors.", "quantifier": "all data with error bars produced by this program", "why_tests_cant": "Failure occurs only for single-crater bins under particular bin widths.", "anchors": ["src/craterstats/Productionfn.py:Productionfn.fit", "src/craterstats/Cratercount.py:Cratercount.getplotdata"]}
{"id": "C22", "title": "Plotted curves stay in the function's validity range", "statement": "A plotted production curve consists of 400 points all inside the function's stated diameter range, with non-decreasing diameters, whatever range is requested; an isochron drawn with an equilibrium function is a sub-list of that curve and each kept point lies below 80% of the equilibrium value at the next lower equilibrium sample.", "quantifier": "all ranges, all functions", "why_tests_cant": "Universally quantified range requests, including outside the range.", "anchors": ["src/craterstats/Productionfn.py:Productionfn.getplotdata", "src/craterstats/Productionfn.py:Productionfn.getisochron"]}
{"id": "C23", "title": "Age likelihood is a probability distribution", "statement": "The Poisson age likelihood is non-negative, its density times step sums to 1, and the cumulative fraction is non-decreasing, between 0 and 1 and ends at exactly 1.", "quantifier": "all counts, areas, production/chronology functions giving increasing expectations, all sample numbers", "why_tests_cant": "Normalisation is needed for every input incl. under-resolved peaks.", "anchors": ["src/craterstats/Craterpdf.py:Craterpdf.__init__"]}
{"id": "C24", "title": "Age percentiles are ordered", "statement": "Times returned for percentiles are monotone in the percentile and lie in [0,5] Ga, hence lower bound <= median <= upper bound for the reported age.", "quantifier": "all likelihoods, all percentile pairs", "why_tests_cant": "Order must hold for every data set.", "anchors": ["src/craterstats/Craterpdf.py:Craterpdf.t", "src/craterstats/Craterpdf.py:Craterpdf.median1sigma", "src/craterstats/Craterpdf.py:Craterpdf.gaussian_percentiles"]}
{"id": "C25", "title": "More craters mean older, more area means younger", "statement": "With everything else equal, a larger crater count never gives a smaller age at any percentile, and a larger counting area never gives a larger age.", "quantifier": "all counts k, all areas, all percentiles", "why_tests_cant": "A stochastic-order statement over all inputs.", "anchors": ["src/craterstats/Craterpdf.py:Craterpdf.__init__", "src/craterstats/Craterpdf.py:Craterpdf.t"]}
{"id": "C26", "title": "Sequence probabilities are complementary", "statement": "The probability that unit A is older than unit B lies in [0,1], and the probabilities for (A,B) and (B,A) add up to 1.", "quantifier": "all pairs of likelihoods on the same time grid", "why_tests_cant": "An identity of double sums over arbitrary likelihoods.", "anchors": ["src/craterstats/Craterpdf.py:Craterpdf.calculate_sequence_probability", "src/craterstats/Craterplotset.py:Craterplotset.create_sequence_table"]}
{"id": "C27", "title": "Gaussian percentiles are symmetric and increasing", "statement": "The n-sigma percentile list has 2n+1 strictly increasing entries strictly between 0 and 1, centred at 0.5, symmetric about it.", "quantifier": "all n", "why_tests_cant": "All n; involves the error function.", "anchors": ["src/craterstats/Craterpdf.py:Craterpdf.gaussian_percentiles"]}
{"id": "C28", "title": "Bin bias correction is the power-law bin average", "statement": "The bias correction factor for bin ratio beta and cumulative slope k equals the mean of the power-law density over the bin divided by its value at the geometric mean; it is symmetric in k and equals 1 at k=1 and k=-1, for every k including 0.", "quantifier": "all beta > 1, all real k", "why_tests_cant": "An integral identity; the exception is a small interval around one k.", "anchors": ["src/craterstats/miscellaneous.py:bin_bias_correction"]}
{"id": "C29", "title": "Fractional crater transform is a proper inverse", "statement": "The area fraction of a disc cut by a chord is 0 at depth 0, 1 at depth 1, strictly increasing, symmetric; its tabulated inverse maps [0,1] monotonically into [0,1], is exact at the table values and maps 0, 1/2, 1 to 0, 1/2, 1.", "quantifier": "all fractions in [0,1]", "why_tests_cant": "Continuum of fractions.", "anchors": ["src/craterstats/miscellaneous.py:fractional_crater_transform"]}
{"id": "C30", "title": "File name splitting loses nothing", "statement": "For every file name without line breaks, path+name+extension reproduces the name; the extension is empty or a dot followed by 1..max word characters; the path is empty or ends in a character that cannot be part of a name; parent path + parent directory + name + extension also reproduce it when a parent exists.", "quantifier": "all strings", "why_tests_cant": "Regex with lazy quantifiers over all strings.", "anchors": ["src/craterstats/gm/file/filename.py:filename"]}
{"id": "C31", "title": "Text files round-trip", "statement": "Writing a list of lines and reading it back returns the same list, for every list of lines that contain no line break.", "quantifier": "all lists of lines", "why_tests_cant": "Blank-line and last-line cases.", "anchors": ["src/craterstats/gm/file/read_textfile.py:read_textfile", "src/craterstats/gm/file/write_textfile.py:write_textfile"]}
{"id": "C32", "title": "Comment stripping only removes comments", "statement": "Stripping ';' comments from a line returns a prefix of it, keeps ';' inside matched quotes, removes everything from the first unquoted ';', and leaves a line without ';' unchanged; stripping twice is the same as once.", "quantifier": "all lines", "why_tests_cant": "Regex with nested quantifiers over all strings.", "anchors": ["src/craterstats/gm/file/read_textfile.py:read_textfile"]}
{"id": "C33", "title": "Repeated keys become arrays in file order", "statement": "Reading a text structure, a key that occurs once maps to its value and a key that occurs several times maps to the list of its values in file order, whatever other keys are interleaved.", "quantifier": "all sequences of key/value definitions", "why_tests_cant": "All interleavings and multiplicities.", "anchors": ["src/craterstats/gm/file/read_textstructure.py:merge", "src/craterstats/gm/file/read_textstructure.py:evaluate"]}
{"id": "C34", "title": "Tables read as rectangular columns", "statement": "An ascii table with distinct column tags reads as one column per tag, all of length equal to the number of rows before the closing brace, short rows being padded with empty strings and surplus fields ignored.", "quantifier": "all tables", "why_tests_cant": "All shapes of ragged input.", "anchors": ["src/craterstats/gm/file/read_textstructure.py:simple_value"]}
{"id": "C35", "title": "Quoted splitting keeps quoted fields whole", "statement": "Splitting a line built by joining fields with white space (fields containing spaces being quoted) returns exactly the fields.", "quantifier": "all field lists", "why_tests_cant": "All combinations of quotes, spaces and escapes.", "anchors": ["src/craterstats/gm/string/quoted_split.py:quoted_split", "src/craterstats/gm/string/strip_quotes.py:strip_quotes"]}
{"id": "C36", "title": "Significant-figure strings denote the rounded number", "statement": "The string produced for a number and a digit count denotes, read as a plain decimal, exactly the number rounded to that many significant digits, for every magnitude and sign.", "quantifier": "all numbers, all digit counts >= 1", "why_tests_cant": "All magnitudes/exponents.", "anchors": ["src/craterstats/gm/string/sigfigs.py:sigfigs"]}
{"id": "C37", "title": "Age strings use the right unit", "statement": "An age is shown in the largest of Ga, Ma, ka, a not exceeding it (a otherwise), and the shown mantissa times the unit is the age to the requested significant figures; a forced unit is obeyed.", "quantifier": "all positive ages", "why_tests_cant": "All magnitudes.", "anchors": ["src/craterstats/miscellaneous.py:str_age"]}
{"id": "C38", "title": "Diameter range strings use km above 1 km and m below", "statement": "A diameter range is written in km if its upper limit is at least 1 km, in m otherwise, or as 'unconstrained' if infinite, both numbers in the same unit and denoting the limits to the requested figures.", "quantifier": "all ranges", "why_tests_cant": "All magnitudes.", "anchors": ["src/craterstats/gm/string/diameter_range.py:diameter_range"]}
{"id": "C39", "title": "Saved command files replay the same command", "statement": "The .cs file saved with every plot, read back through -i, yields exactly the original argument list.", "quantifier": "all argument lists", "why_tests_cant": "All strings, quoting and line structure.", "anchors": ["src/craterstats/cli.py:main", "src/craterstats/cli.py:LoadFromFile"]}
{"id": "C40", "title": "Plot specifications parse back to their key/value pairs", "statement": "A -p specification written as comma separated key=value items parses to exactly these pairs, values may contain commas and spaces, and an item without exactly one '=' is rejected.", "quantifier": "all key/value lists", "why_tests_cant": "All strings.", "anchors": ["src/craterstats/cli.py:AppendPlotDict"]}
{"id": "C41", "title": "Abbreviations resolve by case-insensitive subsequence", "statement": "An abbreviation made of ordinary characters matches a list entry iff its characters occur in the entry in order, ignoring case; the shortest matching entry (first among equals) is chosen, ambiguous or unmatched abbreviations are rejected unless allowed.", "quantifier": "all abbreviations, all entry lists", "why_tests_cant": "All strings.", "anchors": ["src/craterstats/cli.py:decode_abbreviation"]}
{"id": "C42", "title": "Unspecified plot properties carry over from the previous plot", "statement": "In a sequence of -p items each carried-over property (symbol, snap, isochron, error bars, colour, binning, and the type as long as the source is unchanged) equals the last value given for it in the sequence so far (default if none), other properties revert to default, and a plot without source uses the file of its predecessor.", "quantifier": "all sequences of plot specifications", "why_tests_cant": "History property over all sequences.", "anchors": ["src/craterstats/cli.py:construct_plot_dicts"]}
{"id": "C43", "title": "Bin selection lists parse robustly", "statement": "A selection string yields the ascending list of exactly those comma-separated fields that are integers, other fields being ignored; an absent or empty string means no selection.", "quantifier": "all strings", "why_tests_cant": "All strings.", "anchors": ["src/craterstats/miscellaneous.py:ra_decode_selection"]}
{"id": "C44", "title": "Isochron lists accept the documented suffixes", "statement": "Each item of the isochron list consisting of a number and the documented suffix letters n (suppress label), a (above), s (small) yields that isochron with those attributes.", "quantifier": "all isochron lists", "why_tests_cant": "All strings.", "anchors": ["src/craterstats/Craterplotset.py:Craterplotset.plot_isochrons"]}
{"id": "C45", "title": "Tick computation ends and covers the axis", "statement": "For every axis range of positive length and every tick limit the tick computation ends, the ticks are multiples of 1, 2, 5 or 10 times a power of ten, the first is at or below the range minimum, the last at or above its maximum, and there are at most the allowed number.", "quantifier": "all ranges, all tick limits", "why_tests_cant": "Termination of an unbounded loop.", "anchors": ["src/craterstats/gm/plotting/ticks.py:ticks"]}
{"id": "C46", "title": "Autoscaled axes contain the data with equal decades", "statement": "Autoscaled axis limits contain all data with the minimum margins, and the plot is square in decades (one y decade per x decade; two per x decade for the differential plot); user ranges override.", "quantifier": "all data ranges, all presentations", "why_tests_cant": "All combinations of ranges and parities.", "anchors": ["src/craterstats/Craterplotset.py:Craterplotset.autoscale"]}
{"id": "C47", "title": "Legend shows every data series once", "statement": "Every visible data series with a legend text appears exactly once in the legend, in plot order, and each fit appears once together with its own text, whatever legend codes are chosen.", "quantifier": "all plot sequences, all legend code strings", "why_tests_cant": "All sequences of plots and legend settings.", "anchors": ["src/craterstats/Craterplotset.py:Craterplotset.draw", "src/craterstats/Craterplot.py:Craterplot.make_legend_label"]}
{"id": "C48", "title": "Summary table ranks and lists every age", "statement": "The summary table has one row per age measurement in plot order, sort_order is the rank by age (oldest 0, ties in plot order), each row has one field per header column, and it is produced for every mixture of fit types.", "quantifier": "all sequences of age measurements", "why_tests_cant": "All mixtures and orders.", "anchors": ["src/craterstats/Craterplotset.py:Craterplotset.create_summary_table"]}
{"id": "C49", "title": "Time axis parameters are sane", "statement": "For every requested time range the axis parameters are computed without failure: t_max is in [3,4.5], 0 <= t_min < t_max, the linear fraction of the axis lies in [0,1] and is 0 only if the axis does not reach beyond the 3 Ga crossover, there is at least one labelled tick, and all labelled ticks lie on the linear part.", "quantifier": "all ranges", "why_tests_cant": "Continuum of ranges.", "anchors": ["src/craterstats/Craterplotset.py:Craterplotset.calculate_time_axis_params"]}
{"id": "C50", "title": "Merging adds counts and areas", "statement": "Merging crater count files gives a file whose craters are the union (with multiplicity) of the inputs, whose area and perimeter are the sums, independent of file order up to crater order; fewer than two files or a pre-binned file are rejected.", "quantifier": "all lists of files", "why_tests_cant": "All lists.", "anchors": ["src/craterstats/miscellaneous.py:merge_cratercounts"]}
{"id": "C51", "title": "Random crater placement meets its constraints", "statement": "A generated random configuration has exactly n craters, all inside the polygon, each filed under its own grid cell, and any two at least half the bin diameter apart, whatever the random numbers drawn.", "quantifier": "all random streams, all polygons, all n", "why_tests_cant": "All random streams; deletions change counts mid-loop.", "anchors": ["src/craterstats/Randomnessanalysis.py:sprinkle_discs_pp"]}
{"id": "C52", "title": "Neighbour search is exact", "statement": "The k-th nearest neighbour distance found via grid cells equals the k-th smallest distance to all points, whatever the grid resolution.", "quantifier": "all point sets, all grids whose cone search is complete", "why_tests_cant": "All configurations near cell borders.", "anchors": ["src/craterstats/Randomnessanalysis.py:kth_nearest_neighbour_pp"]}
{"id": "C53", "title": "Randomness percentile is the fraction of smaller trials", "statement": "The reported percentile is 100 times the fraction of trials with a strictly smaller measure, between 0 and 100, monotone in the measure and independent of trial order, as are mean and standard deviation.", "quantifier": "all trial lists, all orders", "why_tests_cant": "Permutation invariance.", "anchors": ["src/craterstats/Randomnessanalysis.py:Randomnessanalysis.calculate_stats"]}
{"id": "C54", "title": "Interrupted analyses resume without loss", "statement": "A randomness analysis interrupted at any point and rerun any number of times never recomputes or loses a completed measure and ends with every requested measure having at least the requested number of trials.", "quantifier": "all interruption points, all numbers of restarts", "why_tests_cant": "Crash-point quantification.", "anchors": ["src/craterstats/cli.py:randomness_analysis", "src/craterstats/Randomnessanalysis.py:Randomnessanalysis.run_montecarlo", "src/craterstats/Randomnessanalysis.py:Randomnessanalysis.write", "src/craterstats/Randomnessanalysis.py:Randomnessanalysis.read"]}
{"id": "C55", "title": "Monte Carlo results do not depend on scheduling", "statement": "With the fixed random seed, the list of trial results is the same for every assignment of trials to worker processes, in submission order, and different trials use different random numbers.", "quantifier": "all schedules, all worker numbers", "why_tests_cant": "Schedule quantification.", "anchors": ["src/craterstats/Randomnessanalysis.py:montecarlo_pp", "src/craterstats/Randomnessanalysis.py:Randomnessanalysis.run_montecarlo"]}
{"id": "C56", "title": "Randomness file round-trips", "statement": "The randomness file written by an analysis reads back, through the program's own reader, with the same measures, trial numbers, bins and trial values (to the printed precision).", "quantifier": "all analyses with at least one completed measure", "why_tests_cant": "All sets of measures and bins.", "anchors": ["src/craterstats/Randomnessanalysis.py:Randomnessanalysis.write", "src/craterstats/Randomnessanalysis.py:Randomnessanalysis.read"]}
{"id": "C57", "title": "Area outlines survive conversion", "statement": "Converting an area shapefile to .scc and reading the .scc gives the same rings, the first ring of each shape exterior and the others interior, with consecutive duplicate vertices removed, each interior ring attached as a hole to the exterior ring containing it.", "quantifier": "all lists of rings", "why_tests_cant": "All ring structures.", "anchors": ["src/craterstats/Spatialcount.py:Spatialcount.writeSCCfile", "src/craterstats/Spatialcount.py:Spatialcount.readSCCfile"]}
{"id": "C58", "title": "Output names and formats follow the options", "statement": "The output name is the given -o name without extension, or inside the given -o directory, or a name derived from the sources; the written formats are those given with -f plus the extension of -o, default png and csv.", "quantifier": "all option combinations", "why_tests_cant": "All combinations.", "anchors": ["src/craterstats/cli.py:construct_cps_dict", "src/craterstats/cli.py:set_default_filename"]}
{"id": "C59", "title": "Display settings given by the user are kept", "statement": "Every display option given on the command line is used unchanged; options not given take the documented default for the presentation.", "quantifier": "all option combinations", "why_tests_cant": "All combinations.", "anchors": ["src/craterstats/cli.py:construct_cps_dict"]}
{"id": "C60", "title": "Function lookup finds the first definition of that name", "statement": "Selecting a chronology, production, equilibrium or epoch function by name uses the first definition in the functions file(s) with exactly that name, and an unknown name is an error.", "quantifier": "all function files, all names", "why_tests_cant": "All files.", "anchors": ["src/craterstats/Productionfn.py:Productionfn.__init__", "src/craterstats/Chronologyfn.py:Chronologyfn.__init__", "src/craterstats/Epochs.py:Epochs.__init__"]}
{"id": "C61", "title": "Epoch boundary times are ordered like their densities", "statement": "Epoch boundary ages derived from reference crater densities start at 0 and, for boundaries at a common reference diameter, are in the same order as the densities; each lies in [0,5] Ga.", "quantifier": "all epoch tables", "why_tests_cant": "All tables.", "anchors": ["src/craterstats/Epochs.py:Epochs.__init__"]}
{"id": "C62", "title": "Range helpers", "statement": "The range of a non-empty vector is its exact minimum and maximum, its magnitude is their difference, the outer range is the smallest integer interval containing it, and the magnitude of an empty vector is undefined (nan).", "quantifier": "all vectors", "why_tests_cant": "All vectors.", "anchors": ["src/craterstats/gm/maths/range.py:range", "src/craterstats/gm/maths/range.py:mag"]}
{"id": "C63", "title": "Rescaling stays in range and keeps order", "statement": "Rescaling maps the input range onto the output range, clipping outside values, keeping order; every output lies in the output range.", "quantifier": "all vectors and ranges", "why_tests_cant": "All vectors.", "anchors": ["src/craterstats/gm/maths/scl.py:scl"]}
{"id": "C64", "title": "n-sigma axis scaling keeps sign and order", "statement": "The n-sigma axis transform is odd, strictly increasing, fixes -1, 0 and 1, and enlarges the central zone (|f(v)| >= |v| for |v| <= 1).", "quantifier": "all real values", "why_tests_cant": "Continuum.", "anchors": ["src/craterstats/miscellaneous.py:n_sigma_scaling"]}
{"id": "C65", "title": "Panel layout never overlaps", "statement": "In the randomness multi-panel figure every selected bin and the n-sigma panel occupy distinct cells of the grid, all within it, in reading order from the top left with the n-sigma panel at the bottom right, and out-of-range selections are ignored.", "quantifier": "all numbers of bins, all selections", "why_tests_cant": "All numbers of bins.", "anchors": ["src/craterstats/Randomnessanalysis.py:Randomnessanalysis.plot_montecarlo_split"]}
{"id": "C66", "title": "Sequence plot rows are distinct and ordered", "statement": "In a sequence plot the visible age measurements occupy equally spaced distinct rows strictly inside the axis, the first at the top.", "quantifier": "all plot sequences", "why_tests_cant": "All sequences.", "anchors": ["src/craterstats/Craterplot.py:Craterplot.overplot_sequence_element"]}
{"id": "C67", "title": "Progress reporting is transparent", "statement": "Wrapping an iteration with progress reporting yields exactly the original items in order and reports 1..n.", "quantifier": "all iterables", "why_tests_cant": "All lengths.", "anchors": ["src/craterstats/gm/misc/iterator_with_progress.py:iterator_with_progress"]}
{"id": "C68", "title": "Reported bin range is the snapped range", "statement": "When each end of the plotted diameter range lies on a bin boundary (as it does after snapping) or is open (0 below, infinity above), the bin range reported with the plot data (and printed in the summary) runs exactly between these boundaries, an open end being reported as the outer boundary of the first or last bin: the internal shift by a thousandth of a decade never gains or loses a bin.", "quantifier": "all crater lists, all binnings other than 'none', all pairs of bins", "why_tests_cant": "Depends on rounding of logarithms against the narrowest bin of each binning; every pair of boundaries of an unbounded grid.", "anchors": ["src/craterstats/Cratercount.py:Cratercount.getplotdata", "src/craterstats/Cratercount.py:Cratercount.generate_bins"]}
{"id": "C69", "title": "Plotted chronology curve", "statement": "The chronology curve drawn for any constructed chronology has 1000 points with strictly increasing ages, running from the lower end (0 for a linear axis, 1e-9 Ga for a logarithmic one) to 5 Ga inclusive, and each point carries the chronology's own crater density for that age.", "quantifier": "all coefficients accepted by the constructor, both axis types", "why_tests_cant": "Covers every parameter set a user may define in the functions file.", "anchors": ["src/craterstats/Chronologyfn.py:Chronologyfn.getplotdata"]}
{"id": "C70", "title": "Sequence-probability table is produced", "statement": "Whenever a plot set holds Poisson age evaluations, the requested table of sequence probabilities is produced: evaluating a likelihood for an explicitly given list of expected crater numbers succeeds whenever the evaluation from the counting area does.", "quantifier": "all production functions, chronologies, counts, and lists of expected numbers with at least two entries", "why_tests_cant": "The path is only reached for combinations of output options and plot types which the tests never exercise; truthiness of arrays depends on their length.", "anchors": ["src/craterstats/Craterplotset.py:Craterplotset.create_sequence_table", "src/craterstats/Craterpdf.py:Craterpdf.__init__"]}
{"id": "C71", "title": "Minor tick limit", "statement": "When a maximum number of minor ticks is given, the number of minor ticks in total (number of ticks times the returned minor tick count) does not exceed it.", "quantifier": "all ranges, all tick limits, all minor tick limits", "why_tests_cant": "Depends on the interplay of the tick search and the table of divisors for every range.", "anchors": ["src/craterstats/gm/plotting/ticks.py:ticks"]}
{"id": "C72", "title": "The name part of a path is the base name", "statement": "For a path dir/base.ext the name part is exactly 'base' and the path part is 'dir/', so output files are placed next to their source with the same base name; applied to a list of paths it gives the results for each of them.", "quantifier": "all directories, base names and extensions", "why_tests_cant": "The set of characters allowed in a name is hidden in a regular expression; tests use plain names and cannot show for which base names the split is right.", "anchors": ["src/craterstats/gm/file/filename.py:filename"]}
{"id": "C73", "title": "Colours and symbols can be chosen by name, code or index", "statement": "Each colour name, each symbol name and each symbol code selects its own entry of the colour and symbol tables, the documented numeric indices 0-31 and 0-14 select the entry with that number, and '#' with six hexadecimal digits is used as given.", "quantifier": "all values of the colour and psym keys", "why_tests_cant": "The value goes through an abbreviation matcher in which any text can match several entries; tests try a few names.", "anchors": ["src/craterstats/cli.py:construct_plot_dicts", "src/craterstats/constants.py:PALETTE", "src/craterstats/constants.py:MARKERS"]}
{"id": "C74", "title": "Each requested format is written, with the same set of figures", "statement": "For a set of requested formats exactly the corresponding output files are written: for each image format the same figures, named after the output name, and for csv one table.", "quantifier": "all presentations, all sets of formats in every iteration order", "why_tests_cant": "All format sets and the arbitrary order of set iteration.", "anchors": ["src/craterstats/cli.py:write_output_files"]}
{"id": "C75", "title": "Epoch labels sit in the visible part of their epoch", "statement": "On a sequence plot every epoch gets exactly one label: an epoch visible on the time axis is labelled in the middle of its visible part (arithmetic middle on the linear axis, geometric middle on the logarithmic one), and the label of an epoch not visible lies outside the axis.", "quantifier": "all increasing boundary times starting at 0, all axis limits", "why_tests_cant": "The positions come from one sorted list of boundaries and axis limits, with an index shift that must be right for every relative position.", "anchors": ["src/craterstats/Epochs.py:Epochs.sequence_oplot"]}
{"id": "C76", "title": "Captions of the summary table stand over their columns", "statement": "The caption line of the summary table puts 'MathML' over the first MathML column and 'Latex' over the first Latex column.", "quantifier": "all sets of plots giving a table", "why_tests_cant": "Column positions must agree for every table.", "anchors": ["src/craterstats/Craterplotset.py:Craterplotset.create_summary_table"]}
{"id": "C77", "title": "Converted spatial counts keep their craters", "statement": "Writing a spatial count to .scc and reading the file gives the same craters, with diameters to seven significant digits, coordinates to 15 decimals and their fractions, ordered by diameter, and the same body radius to six digits.", "quantifier": "all craters, diameters, positions, fractions, and outlines with at least one point", "why_tests_cant": "The text formats and the table reader have to agree for every number.", "anchors": ["src/craterstats/Spatialcount.py:Spatialcount.writeSCCfile", "src/craterstats/Spatialcount.py:Spatialcount.readSCCfile"]}
{"id": "C78", "title": "A converted count is opened with its area", "statement": "A spatial count written as .scc and opened as a crater count has all its craters with diameters to seven and fractions to three significant digits, in ascending order, and its area and perimeter to six significant digits.", "quantifier": "all craters, areas and perimeters", "why_tests_cant": "The area is extracted by a regular expression from formatted text; whether it fits depends on the magnitude of the number.", "anchors": ["src/craterstats/Spatialcount.py:Spatialcount.writeSCCfile", "src/craterstats/Cratercount.py:Cratercount.ReadSCCfile"]}
{"id": "C79", "title": "A file of merged counts can be used like any count", "statement": "The file written by merging counts, opened as a crater count, has all the craters of the merged counts with their fractions (to six digits) in descending order, and the merged area and perimeter; it can itself be merged again.", "quantifier": "all lists of counts, all numbers of craters", "why_tests_cant": "The written text has to be accepted by the general table reader for every number and every count.", "anchors": ["src/craterstats/miscellaneous.py:merge_cratercounts", "src/craterstats/Cratercount.py:Cratercount.ReadDiamFile"]}
{"id": "C80", "title": "Adjacent diameter ranges add up", "statement": "A Poisson age counts exactly the craters with lower limit ≤ diameter < upper limit (for binned counts: the bins lying between the limits); splitting a diameter range at any diameter splits both the number of craters and the expected number at every age, with nothing lost or counted twice.", "quantifier": "all crater lists, ranges, splitting diameters, production functions, chronologies", "why_tests_cant": "Needs every list and every limit, including craters exactly on a limit.", "anchors": ["src/craterstats/Craterpdf.py:Craterpdf.__init__"]}
{"id": "C81", "title": "Expected crater numbers follow the isochron of the age", "statement": "At every sampled age the expected number used by the likelihood is the number per area between the limits on the isochron of that age times the counting area; for buffered counts it is the integral of the differential density times the area grown by the crater radius (A + P·d/2 + π·d²/4).", "quantifier": "all production functions, chronologies, areas, perimeters, ranges, samples", "why_tests_cant": "All function parameters and all samples.", "anchors": ["src/craterstats/Craterpdf.py:Craterpdf.__init__"]}
{"id": "C82", "title": "Reported ages are ordered and consistent", "statement": "A reported Poisson age is a triple 0 < lower ≤ median ≤ upper ≤ 5 Ga taken at the 16, 50 and 84 per cent points of the likelihood; the reported a0 are the chronology's values at these ages; the crater number reported is that of the likelihood; and once the likelihood exists an age is reported.", "quantifier": "all counts, ranges (also infinite), production functions, chronologies", "why_tests_cant": "All counts and functions.", "anchors": ["src/craterstats/Craterplot.py:Craterplot.calculate_age"]}
{"id": "C83", "title": "The density shown as N(d) is the density at d", "statement": "The value shown as N(d) in the legend and in the summary table is the cumulative density at the reference diameter d on the isochron of the reported age.", "quantifier": "all reference diameters, production functions, ages", "why_tests_cant": "All functions and diameters.", "anchors": ["src/craterstats/Craterplot.py:Craterplot.calculate_age", "src/craterstats/Craterplot.py:Craterplot.make_legend_label", "src/craterstats/Craterplotset.py:Craterplotset.create_summary_table"]}
{"id": "C84", "title": "Likelihood ratio relative to the median", "statement": "The ratio of the likelihood of an age to that of the median age is not negative, is 1 at the median, and compares ages like the likelihood itself.", "quantifier": "all likelihoods, all ages", "why_tests_cant": "All likelihoods.", "anchors": ["src/craterstats/Craterpdf.py:Craterpdf.calculate_instantaneous_probability_ratio"]}
{"id": "C85", "title": "The cells of the uncertainty plot carry the ages of the time axis", "statement": "For every time axis and number of samples the age-area grid has the requested number of ages; they are positive, strictly increasing, lie between the youngest and the oldest age of the axis, include the ends, and every cell is drawn where the axis shows its age, to within half a cell; cells are square.", "quantifier": "all time ranges, all numbers of samples, all aspect ratios", "why_tests_cant": "Any range and number of samples, including rounding of the number of cells between the two parts of the axis.", "anchors": ["src/craterstats/Craterplotset.py:Craterplotset.compute_age_area", "src/craterstats/Craterplotset.py:Craterplotset.calculate_time_axis_params", "src/craterstats/Craterplotset.py:Craterplotset.calculate_time_axis_params"]}
{"id": "C86", "title": "Cells of the uncertainty plot", "statement": "In every cell the expected crater number is the cumulative density between the smallest diameter and 1000 km on the isochron of the cell's age times the cell's area, it increases with age and with area; the crater number is drawn for it; the error and the ratio shown come from the age distribution of that number on that area; the error is not negative and the ratio positive.", "quantifier": "all chronologies of the standard form, production functions, ages, areas and random draws", "why_tests_cant": "All functions and all draws of the random number generator.", "anchors": ["src/craterstats/Craterplotset.py:Craterplotset.compute_age_area"]}
{"id": "C87", "title": "Shading beyond saturation and beyond the whole body", "statement": "In the uncertainty plot exactly the part of the plot is shaded in which the area exceeds that of the body or the age exceeds the age at which craters of the smallest diameter reach the equilibrium density.", "quantifier": "all axes, bodies, equilibrium functions", "why_tests_cant": "All positions of the limits relative to the axes.", "anchors": ["src/craterstats/Craterplotset.py:Craterplotset.age_area_plot"]}
{"id": "C88", "title": "Conversion writes the file it reports, under the name asked for", "statement": "A conversion of a count file to another format writes the converted file with the output name asked for (or, without one, the base name of the source in the current directory) and the extension of the format, and reports that file; a conversion which is not possible writes nothing and says so.", "quantifier": "all source names and directories, all output names, all pairs of formats", "why_tests_cant": "The pairs of formats and the forms of names combine freely, and the report is printed whether or not a file was written; a test would have to look for every file that should not be there.", "anchors": ["src/craterstats/cli.py:convert_format", "src/craterstats/Spatialcount.py:Spatialcount.__init__", "src/craterstats/gm/file/filename.py:filename"]}
{"id": "C89", "title": "Numbers in scientific notation", "statement": "A number is shown as digits and, unless the exponent is 0, a power of ten, followed by the unit; digits times power are the number rounded to the requested significant figures; 0 and, unless forced, the numbers from 0.01 to 10000 have no power, others one figure before the point; limits are shown as differences with the same power and one figure less.", "quantifier": "all numbers, limits, figures, notations and units", "why_tests_cant": "The rounding can carry into the next power of ten, at every power and number of figures.", "anchors": ["src/craterstats/gm/string/scientific_notation.py:scientific_notation"]}
{"id": "C90", "title": "Percentiles are shown with two significant figures of the distance to 0 or 100", "statement": "A percentile below 50 is shown with two significant figures; from 50 on, what is missing to 100 has two significant figures, so no percentile other than 100 appears as 100.", "quantifier": "all percentiles from 0 to 100", "why_tests_cant": "The number of decimals depends on the magnitude of the distance to 100, down to arbitrarily small distances.", "anchors": ["src/craterstats/gm/string/percentile_sigfigs.py:percentile_sigfigs"]}
{"id": "C91", "title": "Plots have the requested print size", "statement": "With print dimensions AxB the axes fit into a box of A by B cm and fill its width or height, with equal decades (twice as long in x for differential plots, square for Hartmann, chronology and rate plots) and a margin around; a single number is the length of a decade in cm; texts which are no numbers are refused.", "quantifier": "all presentations, axis ranges, font sizes and dimensions", "why_tests_cant": "Ranges, dimensions and presentations combine freely; the result is a size on paper.", "anchors": ["src/craterstats/Craterplotset.py:Craterplotset.CreatePlotSpace", "src/craterstats/Craterplotset.py:Craterplotset.calculate_time_axis_params"]}
{"id": "C92", "title": "Ticks of the natural diameter axis", "statement": "The labelled ticks of the diameter axis are exactly the powers of ten within its limits, each labelled with its diameter, in km from 1 km on and in m below.", "quantifier": "all axis limits", "why_tests_cant": "All limits, also on and just beside a power of ten.", "anchors": ["src/craterstats/Craterplotset.py:Craterplotset.CreatePlotSpace"]}
{"id": "C93", "title": "Ticks of the root-2 diameter axis", "statement": "The labelled ticks of a root-2 axis are exactly the powers of two from 2^-10 to 2^10 km within its limits, each labelled with its diameter, and the unit appears on the axis.", "quantifier": "all axis limits", "why_tests_cant": "All limits, also those with few or no powers of two.", "anchors": ["src/craterstats/miscellaneous.py:Hartmann_bins", "src/craterstats/Craterplotset.py:Craterplotset.CreatePlotSpace"]}
{"id": "C94", "title": "Title of chronology plots names the reference diameter", "statement": "The title of the density axis of a chronology or rate plot names the reference diameter for which the densities hold.", "quantifier": "all reference diameters", "why_tests_cant": "All diameters, whole or not.", "anchors": ["src/craterstats/Craterplotset.py:Craterplotset.CreatePlotSpace"]}
{"id": "C95", "title": "Overlay of bin boundaries", "statement": "When bin boundaries are shown, exactly the boundaries of the binning within the axis are labelled, the bins are coloured in turn, and a shaded bin reaches from its lower to its upper boundary without another boundary in between; with binning none nothing is drawn.", "quantifier": "all binnings and axis limits", "why_tests_cant": "All limits relative to all boundaries.", "anchors": ["src/craterstats/Craterplotset.py:Craterplotset.CreatePlotSpace"]}
{"id": "C96", "title": "Histogram of the trials", "statement": "The histogram of the random trials has bars of equal width from the smallest to the largest trial value; each bar is as high as the number of trials in it, and the heights add up to the number of trials. The shaded part reaches exactly from one standard deviation below to one above the mean and follows the bars in between. The axes extend beyond all bars and the measured value, and carry at least one tick.", "quantifier": "all lists of trial values, measured values and axis ranges", "why_tests_cant": "Values on bar boundaries, few or many trials, and limits anywhere relative to the bars.", "anchors": ["src/craterstats/Randomnessanalysis.py:Randomnessanalysis.plot_histogram"]}
{"id": "C97", "title": "Resolution of the search grid", "statement": "The grid used to find neighbouring craters has about one cell per ten trials within the counted area (within a factor of two), and its side is a power of two, as the grid library demands.", "quantifier": "all planetary radii, areas and numbers of trials", "why_tests_cant": "The rounding of a logarithm for all areas and trials.", "anchors": ["src/craterstats/Randomnessanalysis.py:Randomnessanalysis.establish_hpx"]}
{"id": "C98", "title": "Craters and trials of a bin", "statement": "In the randomness analysis every bin has its own name; the craters measured or drawn for it are exactly those with diameters in the bin, in the order of the file; the trials of a bin with enough craters are found under its name and no others.", "quantifier": "all counts with diameters between 2^-98 and 2^98 km, any floating point error of the logarithm up to 0.01", "why_tests_cant": "Names are rounded texts; their being different is a statement about all bins.", "anchors": ["src/craterstats/Randomnessanalysis.py:Randomnessanalysis.get_bin_craters", "src/craterstats/Randomnessanalysis.py:Randomnessanalysis.montecarlo_split"]}
{"id": "C99", "title": "Craters digitised as shapes", "statement": "A crater given as a polygon on the sphere gets the diameter of the spherical cap (circle along the surface) with the area of the polygon; larger polygons get larger diameters. A crater inside the area counts fully, one cut by its boundary gets the fraction of its width belonging to its fraction of area, one outside is dropped; order and positions are kept. Crater and area layers on bodies of different radius are refused.", "quantifier": "all radii, polygon areas up to the whole sphere, all lists of crater shapes", "why_tests_cant": "An inverse of the cap area for all sizes, and every mixture of inner, cut and outer craters.", "anchors": ["src/craterstats/Spatialcount.py:Spatialcount.readSHPfiles"]}
{"id": "C100", "title": "Random positions are uniform on the sphere", "statement": "The random positions of the trials are spread evenly over the surface: a zone of the range receives a share of the points equal to its share of the area of the range. All points lie in the range, and every point of the range can be drawn.", "quantifier": "all ranges of longitude and latitude, all zones within them, all pairs of random numbers", "why_tests_cant": "Uniformity is a statement about a measure; a sample can only suggest it.", "anchors": ["src/craterstats/Randomnessanalysis.py:random_points_pp"]}
{"id": "C101", "title": "The range covers the counted area", "statement": "Every point of the counted area can be drawn as a random position, and placing the random craters ends.", "quantifier": "all counted areas", "why_tests_cant": "Areas of every shape and position, including poles, long edges and longitude 180°.", "anchors": ["src/craterstats/Spatialcount.py:Spatialcount.find_enclosing_polygon", "src/craterstats/Randomnessanalysis.py:sprinkle_discs_pp"]}
{"id": "C102", "title": "Ages from cumulative fits with resurfacing correction", "statement": "With the resurfacing correction, a cumulative fit uses the same points as without it, each raised by one and the same amount, which is reached by repeated fitting so that the corrected value at the largest diameter lies on a fitted curve; the reported crater numbers are those without the correction. Without the option the points are fitted as they are. The correction is carried to convergence. With `resurfacing=None` there is no correction.", "quantifier": "all counts, binnings, ranges, fitting procedures and production functions", "why_tests_cant": "The number of iterations and the amount depend on the data, on the fitting procedure and on the scale of the densities.", "anchors": ["src/craterstats/Cratercount.py:Cratercount.resurf_adj", "src/craterstats/Craterplot.py:Craterplot.calculate_age"]}
{"id": "C103", "title": "Crater files as texts", "statement": "A .diam file with a table of craters, with its columns in any order and among other columns, definitions and comment lines, is opened with exactly the craters of the table in descending order: with their fractions (or 1) and the given area, or, if there is a column of reference areas, each weighted by the reciprocal of its reference area with nominal area 1 whether or not an area is given. A file which cannot be read, or with an extension which is not known, ends the program with a message; no other exception escapes.", "quantifier": "all file texts of the documented form, all tables and numbers; for the failures all texts and extensions", "why_tests_cant": "Texts with any number of rows, columns, comments and definitions; all malformed files.", "anchors": ["src/craterstats/Cratercount.py:Cratercount.__init__", "src/craterstats/Cratercount.py:Cratercount.ReadDiamFile", "src/craterstats/gm/file/read_textstructure.py:read_textstructure"]}
{"id": "C104", "title": "Age scale of the uncertainty plot", "statement": "The axis of the small likelihood plot beside an age starts at 0, has equally spaced ticks (at most the allowed number) of which the last is the first to reach the 99.7 % age, and every label is a number that, in the unit written behind the last label, is exactly the age of its tick.", "quantifier": "all age likelihoods with positive ages, all tick limits up to 100000", "why_tests_cant": "The labels are rescaled by reading back a formatted text; whether the digits printed are exact depends on every possible age.", "anchors": ["src/craterstats/Craterpdf.py:Craterpdf.plot", "src/craterstats/gm/plotting/ticks.py:ticks", "src/craterstats/miscellaneous.py:str_age"]}
{"id": "C105", "title": "Distance of the uncertainty plot from the age text", "statement": "The small likelihood plot is placed so that the half-maximum edge of its peak next to the age text always has the same distance from the end of the text (0.03 plus a tenth of the plot width), whatever the age, its uncertainty and the side of the text.", "quantifier": "all constructed age likelihoods, text lengths, positions and plot widths", "why_tests_cant": "Three separately written computations (axis ticks, offset and box position) have to agree for every likelihood.", "anchors": ["src/craterstats/Craterpdf.py:Craterpdf.offset", "src/craterstats/Craterplot.py:Craterplot.overplot"]}
{"id": "C106", "title": "Violins of sequence plots", "statement": "The violin of an age is symmetric about its row, at every age as wide as the likelihood there, 0.9 of the half row height at the maximum, so that violins of different rows never touch and stay inside the axis; the shaded zone is the 16 % to 84 % range and the line is at the median, to one sample.", "quantifier": "all age likelihoods, all numbers of rows", "why_tests_cant": "Index arithmetic on sampled likelihoods of any shape; Python's negative indices do not fail but select other samples.", "anchors": ["src/craterstats/Craterpdf.py:Craterpdf.violin_plot", "src/craterstats/Craterplot.py:Craterplot.overplot_sequence_element"]}
{"id": "C107", "title": "Crater numbers in the legend", "statement": "For a fit the legend shows how many craters it used: the number of craters in the diameter range in plain digits, followed by 'craters'; with fractional craters the total of the fractions to a tenth and the number of craters; a buffered count is marked as such.", "quantifier": "all crater lists, binnings, ranges between bin boundaries and presentations", "why_tests_cant": "The numbers are collected over bins in one place and formatted in another with a general number format; the digits have to be right for every count.", "anchors": ["src/craterstats/Craterplot.py:Craterplot.make_legend_label", "src/craterstats/Craterplot.py:Craterplot.calculate_age", "src/craterstats/Cratercount.py:Cratercount.ReadStatFile"]}
{"id": "C108", "title": "Diameter range in the legend", "statement": "For a fit, or a Poisson evaluation of binned counts, the legend shows the diameters of the nearest bin boundaries enclosing its range (exactly the range if it was snapped to bins), for a Poisson evaluation of a crater list the limits given; a range without upper limit is shown as 'unconstrained'.", "quantifier": "all crater lists, binnings and ranges", "why_tests_cant": "The legend recomputes the boundaries from the limits with a different rounding margin than the binning; agreement for every range and binning and the treatment of open ends is not testable by samples.", "anchors": ["src/craterstats/Craterplot.py:Craterplot.make_legend_label", "src/craterstats/Cratercount.py:Cratercount.generate_bins", "src/craterstats/gm/string/diameter_range.py:diameter_range"]}
{"id": "C109", "title": "Functions of the user extend the list", "statement": "When the path of a list of functions was given once, every later run uses the functions which come with the program followed by those of that list; a function is found by its name, first among those of the program, then among those of the user; without a list, or if the configuration file is missing, the functions of the program are used alone; a list that cannot be read is ignored.", "quantifier": "all lists of functions (texts of definitions), paths and names", "why_tests_cant": "Two files are joined as text and parsed as one; that definitions never run into each other and keep their order holds for every pair of files or not at all.", "anchors": ["src/craterstats/miscellaneous.py:Functionslist.__init__", "src/craterstats/miscellaneous.py:Functionslist.set_user_functions_config", "src/craterstats/cli.py:main"]}
{"id": "C110", "title": "The count plot shows the results of the randomness analysis of the count", "statement": "The results file which a randomness analysis writes is found by a later plot of the same count (in the directory of the run, else beside the count).  The panel of the plot then has one curve per measure of the file, with one point per bin at the logarithm of the geometric mean of the bin's boundaries; the height is the number of standard deviations in the file (rounded to four digits) on the panel's scale, above the zero line exactly if the craters are more separated than random (m2cnd positive, sdaa negative), below exactly if they are more clustered, and inside the drawn band of k standard deviations exactly if the number is at most k in size; bins which a measure does not have give a gap.  The bands extend from the lower boundary of the smallest to the upper boundary of the largest bin.", "quantifier": "for all analyses (any measures, bins, numbers of trials, values), all system line endings, all counts with diameters between 2^-98 and 2^98 km", "why_tests_cant": "the chain crosses a text file: any table of bins and values must survive formatting, parsing and the mapping to the panel; tests see a few sample files", "anchors": ["src/craterstats/Cratercount.py:Cratercount.read_ra_file", "src/craterstats/Craterplot.py:Craterplot.oplot_n_sigma", "src/craterstats/Randomnessanalysis.py:Randomnessanalysis.write"]}
{"id": "C111", "title": "Every figure is written in every format asked for, under one name", "statement": "A run writes under its output name each figure in each image format asked for (png, pdf, svg, tif), the table of ages if csv is asked for and there are ages, and the command line unless it was itself read from a file; nothing else.  The figures are: the plot; for uncertainty plots the three diagrams k, err and age; for a randomness analysis one image per measure, beside the file of results.  All formats show the same data, and the names do not depend on the order in which the formats are treated.", "quantifier": "for all jobs (output names, sets of formats in any order, measures, kinds of presentation) and all contents of earlier results files", "why_tests_cant": "the interaction of options is combinatorial and the order of a set differs from process to process", "anchors": ["src/craterstats/cli.py:write_output_files", "src/craterstats/cli.py:randomness_analysis", "src/craterstats/cli.py:main"]}
{"id": "C112", "title": "Epoch regions on crater count plots", "statement": "On a crater count plot with an epoch system, the strip between the isochrons of two successive epoch boundaries is filled with the grey given by the format code of the epoch between them: the isochron of every age of the epoch runs strictly inside its strip at every diameter.  A boundary whose epoch is marked with b is drawn as a line along its isochron.  With an equilibrium function the strip follows the two isochrons as far as they lie below 80 % of the equilibrium curve and nowhere else.", "quantifier": "for all production functions, equilibrium functions, chronologies, presentations, boundary times and format codes", "why_tests_cant": "the indices of boundaries, strips and codes are shifted against each other, which shows only in a picture; the ordering of curves needs monotonicity of chronology and scaling of the production function", "anchors": ["src/craterstats/Epochs.py:Epochs.oplot", "src/craterstats/Epochs.py:Epochs.decode_formatting"]}
{"id": "C113", "title": "Epochs on chronology and rate plots", "statement": "On a chronology or rate plot with an epoch system every epoch between two boundaries is a region under the plotted curve, from boundary to boundary, with the grey of its format code; at every boundary except the present there is a dividing line up to the curve, strong if marked with b, and its age is written rounded to three digits; every epoch is named once, beside the middle of its extent.", "quantifier": "for all chronologies, boundary times, names, format codes and axis limits", "why_tests_cant": "the lists of boundaries, codes and names are combined with different index shifts; errors show only in a picture", "anchors": ["src/craterstats/Epochs.py:Epochs.chronology_oplot", "src/craterstats/Epochs.py:Epochs.decode_formatting"]}
{"id": "C114", "title": "Command files typed by hand are read as written", "statement": "A file given to -i whose lines are comments (first non-blank character #), blank lines, or arguments separated by spaces and tabs - each argument made of ordinary characters, escaped characters, and single- or double-quoted stretches in any mixture - yields exactly the written arguments in order, with the quotations and escapes taken off; a quotation left open on the last line is an error instead of an argument.", "quantifier": "every number of lines, every mixture of comment, blank and argument lines, every argument text built from the four kinds of pieces, every class of white space characters agreeing with ASCII", "why_tests_cant": "the file is free text; quoting, comments and blanks combine in unboundedly many ways", "anchors": ["src/craterstats/cli.py:LoadFromFile.__call__"]}
{"id": "C115", "title": "Settings of plots and plot sets", "statement": "Creating a Craterplot or a Craterplotset from dictionaries and keywords gives every setting the value of the last dictionary which has it (defaults first, keywords last), switches as whole numbers, ranges and sizes as numbers, everything else unchanged. A plot has the count given or else the count read from its source, the source given or else the file of its count, the name given or else the base name of its source without the word CRATER of shape file names; a plot with neither count nor source is refused. A plot is created whenever its settings can be read as numbers, its source can be opened and its range decoded.", "quantifier": "any number of dictionaries with any keys and values, any environment (files, counts)", "why_tests_cant": "precedence concerns every sequence of dictionaries and every key; the fill-in rules depend on each other", "anchors": ["src/craterstats/Craterplot.py:Craterplot.__init__", "src/craterstats/Craterplot.py:Craterplot.UpdateSettings", "src/craterstats/Craterplotset.py:Craterplotset.__init__", "src/craterstats/Craterplotset.py:Craterplotset.UpdateSettings"]}
{"id": "C116", "title": "Craters written as shapes keep number, position and size", "statement": "Writing a spatial count as shapefiles gives one record per crater, in order, with its diameter and position, and a closed outline whose corners lie on a circle of the crater's diameter around its centre, in an equal-area projection whose origin is within 2.5 degrees of the centre; the area file holds the outline and the holes of the counting area. A crater read back from its outline has the same diameter but for a known loss.", "quantifier": "all lists of craters, positions and diameters, all numbers of corners, all projections, all counting areas", "why_tests_cant": "positions and diameters are continuous; the projections remembered from earlier craters matter only for particular sequences; the loss of size is below the usual tolerances of tests but moves craters across bin boundaries", "anchors": ["src/craterstats/Spatialcount.py:Spatialcount.find_rims", "src/craterstats/Spatialcount.py:Spatialcount.writeSHPfiles", "src/craterstats/Spatialcount.py:Spatialcount.polygon_to_pts"]}
{"id": "C117", "title": "The counting area of a crater shapefile is found by its name", "statement": "If no area file is given, the counting area of a crater shapefile is read from the file whose name has AREA in place of CRATER; a pair of shapefiles written by a conversion is found again in this way.", "quantifier": "all directories and file names, all output names", "why_tests_cant": "names are arbitrary; the failing ones (with the word twice or not at all) are not tried", "anchors": ["src/craterstats/Spatialcount.py:Spatialcount.__init__", "src/craterstats/Spatialcount.py:Spatialcount.writeSHPfiles"]}
{"id": "C118", "title": "Chronology and rate plots for a reference diameter", "statement": "A chronology plot for a reference diameter shows, at every age from 0 to 5 Ga, the density of craters larger than that diameter which the production function gives when its density above 1 km is that of the chronology function; a rate plot shows the derivative of that density with respect to age. If the diameter is not 1 km the curve is labelled with it and the curve for 1 km is drawn as well.", "quantifier": "all chronology functions, all production functions, all positive reference diameters, all plotted ages", "why_tests_cant": "functions, diameters and ages are continuous, and the derivative cannot be observed at sampled points", "anchors": ["src/craterstats/Craterplotset.py:Craterplotset.draw"]}
{"id": "C119", "title": "The time axis of sequence plots shows every age at one place", "statement": "The linear and the logarithmic part of the time axis of sequence and uncertainty plots together show every age between the limits of the plot at exactly one place, older ages further left, the oldest at the left margin and the youngest at the right margin, and no part of the width is without an age.", "quantifier": "all age ranges for which the axis is defined, all sizes and margins of the plot, all ages between the limits", "why_tests_cant": "the claim is about a continuum of ages and ranges; an error at the crossover is visible for some ranges only", "anchors": ["src/craterstats/Craterplotset.py:Craterplotset.create_time_axis_plotspace", "src/craterstats/Craterplotset.py:Craterplotset.calculate_time_axis_params"]}
{"id": "C120", "title": "Epochs on sequence plots", "statement": "On each part of the time axis every epoch but the youngest and the oldest is shaded from its beginning to its end in the shade of its formatting code and every boundary is a line. Each epoch is abbreviated to its initials; every epoch of which a part is between the limits of the plot is named, and every name shown is at an age inside its epoch.", "quantifier": "all epoch systems with increasing boundaries from 0, all limits of the time axis, all formatting codes and greys", "why_tests_cant": "the place of a name depends on how the boundaries interleave with the limits of the plot, in infinitely many ways", "anchors": ["src/craterstats/Epochs.py:Epochs.sequence_oplot"]}
{"id": "C121", "title": "What is drawn for a count on a count plot", "statement": "On cumulative, differential, R and Hartmann plots, a plot that is hidden or has no count draws nothing. Otherwise its points are those of the count for the presentation, binning and range of the plot, with error bars as long as the errors if asked for, and with the resurfacing correction for cumulative fits only. A plot of type data has no curve and no age. The curve of a Poisson age is that of the production function for the density which the chronology gives for the reported age, over the range of the fit, and the curve of a fitted age is that of the fitted function; the age written beside it is the reported one, with its distances to the upper and lower bound.", "quantifier": "all counts, plot settings, production functions, chronology functions with the usual shape, ranges and reference diameters", "why_tests_cant": "the claim relates the drawn curve to the age for a continuum of counts, functions and ranges", "anchors": ["src/craterstats/Craterplot.py:Craterplot.overplot"]}
{"id": "C122", "title": "Offset of age texts in twentieths of a decade", "statement": "The age of a plot is written at the beginning of its curve, 2 % of the axes to the right and above (to the left and below if age_left is set), and offset_age moves it by the given numbers of twentieths of a decade, in both directions.", "quantifier": "all plots with an age, all axis ranges of at least one decade, all offsets", "why_tests_cant": "offsets and axis ranges are continuous; on axes of equal decades no difference shows", "anchors": ["src/craterstats/Craterplot.py:Craterplot.overplot", "src/craterstats/cli.py:get_parser"]}
{"id": "C123", "title": "Isochrons and their labels", "statement": "For every isochron asked for, in this order, the curve of the production function is drawn for the density which the chronology function gives for its age. An isochron given with h has no label; every other one has a label if the production function reaches into the axes. A label carries the age, stands 0.05 decades below its curve and not left of the axis, and is near the upper end of the axis or at the left end of the curve.", "quantifier": "all lists of isochrons, production and chronology functions, presentations, axes and aspects", "why_tests_cant": "the place of a label is an average over those of 400 sampled points which satisfy an inequality, for a continuum of functions and axes", "anchors": ["src/craterstats/Craterplotset.py:Craterplotset.plot_isochrons"]}
{"id": "C124", "title": "Panel of deviations in the randomness figures", "statement": "The last panel of the figure of a randomness analysis has one point per bin, in order, over the logarithmic middle of the bin, and shows every bin whole. Points above the middle are bins more separated than the average trial, points below are more clustered, for both measures; a point lies in the band of n standard deviations exactly if the measured value is no more than n standard deviations from the average. The grid lines are the limits of the root-2 bins.", "quantifier": "all measures, bins and statistics of the trials", "why_tests_cant": "the claim is about real-valued positions for a continuum of values and any set of bins", "anchors": ["src/craterstats/Randomnessanalysis.py:Randomnessanalysis.plot_n_sigma", "src/craterstats/miscellaneous.py:Hartmann_bins"]}
{"id": "C125", "title": "The map shows the whole area and every crater", "statement": "The map of a spatial count shows every point of the outlines of the area and of the drawn crater rims, with the same margin at all sides: one tenth of the extent of what is shown, or two hundredths in the panels of a randomness analysis. There is such a map for every count.", "quantifier": "all projections, areas of any number of polygons, and craters", "why_tests_cant": "the claim is about all outlines and rims, in particular craters reaching beyond the area", "anchors": ["src/craterstats/Spatialcount.py:Spatialcount.plot"]}
{"id": "C126", "title": "The map leaves room for the histogram", "statement": "In the panels of a randomness analysis the map is made smaller just so far that it does not lie under the histogram.", "quantifier": "all areas with a positive extent", "why_tests_cant": "the loop has no bound in the code, and the areas are arbitrary regions of the plane", "anchors": ["src/craterstats/Randomnessanalysis.py:Randomnessanalysis.get_plot_reduction_factor", "src/craterstats/Randomnessanalysis.py:Randomnessanalysis.plot_map_and_histogram"]}
{"id": "C127", "title": "Colours of the uncertainty plots", "statement": "In the image of the number of craters the colour of each cell is the one labelled with its number on the colour bar (\"7+\" for seven or more). In the images of age ratios a cell is drawn exactly if the ratio is between 1/5 and 5, with one of nine colours for equal ranges of its logarithm, and the labels of the bar are at the ratios they name.", "quantifier": "all images (lists of numbers of craters) and all ratios", "why_tests_cant": "the claim is about every image; those with particular maxima are wrong", "anchors": ["src/craterstats/Craterplotset.py:Craterplotset.age_area_plot"]}
{"id": "C128", "title": "Sizes of symbols and text", "statement": "Symbols are in proportion to the width of the axes, and drawing the same plot set again gives the same sizes. The size of the text is the given size times a factor between 0.83 and 1 of the font; every font can be used.", "quantifier": "all presentations, ranges, sizes and fonts; any number of drawings", "why_tests_cant": "the claim is about repeated drawings and all fonts", "anchors": ["src/craterstats/Craterplotset.py:Craterplotset.EstablishFontandScaling", "src/craterstats/Craterplotset.py:Craterplotset.CreatePlotSpace"]}
{"id": "C129", "title": "Measures of randomness depend only on where the craters are", "statement": "The value of a measure is the same for every order of the craters and for every grid used in the search. The mean second closest neighbour distance is the mean of the distances with index 2; it scales with the radius of the planet. The standard deviation of adjacent area is not negative, is 0 exactly if all cells have the same area, and scales with the areas. There are two measures; another name is an error.", "quantifier": "all lists of craters and their permutations, all grids of any resolution", "why_tests_cant": "permutations and grids are without bound", "anchors": ["src/craterstats/Randomnessanalysis.py:evaluate_randomness", "src/craterstats/Randomnessanalysis.py:sdaa", "src/craterstats/Randomnessanalysis.py:kth_nearest_neighbour_pp", "src/craterstats/Randomnessanalysis.py:Randomnessanalysis.get_bin_craters"]}
{"id": "C130", "title": "Every presentation offered can be drawn", "statement": "Every presentation that can be chosen is drawn, with the titles of its axes: ages on chronology and rate plots, diameters on the other plots with axes of this kind.", "quantifier": "all presentations, functions, epoch systems and counts", "why_tests_cant": "the claim is about all combinations of what is to be drawn", "anchors": ["src/craterstats/Craterplotset.py:Craterplotset.draw", "src/craterstats/Craterplotset.py:Craterplotset.CreatePlotSpace"]}
{"id": "C131", "title": "Order of the parts of a figure, and the function legend", "statement": "Epochs lie below the equilibrium function, this below the isochrons, these below the counts, and the first count is on top. Every count is drawn, except, where bins are needed, those without bins. The function legend names the epoch system and the equilibrium function if and only if they are drawn, then the production and the chronology function.", "quantifier": "all presentations, functions, epoch systems and lists of counts", "why_tests_cant": "lists of counts without bound and all combinations of settings", "anchors": ["src/craterstats/Craterplotset.py:Craterplotset.draw", "src/craterstats/Craterplotset.py:Craterplotset.age_area_plot"]}
{"id": "C132", "title": "Functions have the numbers of their definitions", "statement": "A chronology, production or equilibrium function made from the list of functions of the program, with or without that of the user, a file or a text has the coefficients, table and range written in the first definition with its name: the chronology p0 (exp(p1 t) - 1) + p3 t with its rate, the production function 10 to the power of the polynomial in the logarithm of the diameter, or the normalised sums of the table, straight in logarithms between the limits of its bins and valid between the middles of the first and last of them; every chronology and every chronology system of the list can be used.", "quantifier": "all lists, files and texts of definitions, all names, all coefficients, tables and ranges, all ages and diameters", "why_tests_cant": "Users add their own functions; a numeral or a name read wrongly for some text gives wrong ages without any message.", "anchors": ["src/craterstats/Chronologyfn.py:Chronologyfn.__init__", "src/craterstats/Productionfn.py:Productionfn.__init__", "src/craterstats/config/functions.txt"]}
{"id": "C133", "title": "Command files are read in place", "statement": "A command line is accepted exactly if it is a sequence of known options, each with the right number of values, numbers, switches, choices and plot specifications being what they should be.  The options in a file named after `-i` or `-inc` act as if they stood in the command at that place, files within files included: each setting has the value met last, wherever it stands, and overplots are kept in the order in which they are met.  The file is found from the current directory, or by its absolute path; after `-i` with an absolute path relative names refer to the directory of the file.  The file saved by a command, given to `-i`, leads to the same settings.  A file which is missing or is no list of options is rejected.", "quantifier": "all command lines, file systems, nested files and current directories", "why_tests_cant": "any command file can include any other, to any depth, before or after any other option; tests try some arrangements only", "anchors": ["src/craterstats/cli.py:LoadFromFile.__call__", "src/craterstats/cli.py:get_parser", "src/craterstats/cli.py:AppendPlotDict.__call__"]}
{"id": "C134", "title": "What a command does, and the file it leaves behind", "statement": "A command with an option asking for something else than plots (desktop icon, functions of the user, lists, version, merging, demonstration) does that, and nothing else; of several such options the first in a fixed order is met.  Otherwise the plots (or the conversion) are made, and the command is saved as `<output name>.cs`, from which it can be read back, unless it was read itself from a file named after `-i`.  A demonstration is the command on its line with an output name of its own.  The saved file, given to `-i`, repeats the command.", "quantifier": "all commands, with any nesting of command files, and all lines of demonstrations", "why_tests_cant": "options can be combined arbitrarily and can come from included files", "anchors": ["src/craterstats/cli.py:main", "src/craterstats/cli.py:demo", "src/craterstats/cli.py:SpacedString.__call__"]}
{"id": "C135", "title": "Every age has its own row in a sequence plot", "statement": "A sequence plot shows exactly the plots with a count which measure an age and are not hidden, each on a row of its own, in the order of the plots from top to bottom, with the name of the plot beside it on the left and its label on the right.  A Poisson age is a figure symmetric about the row, as wide as the likelihood of the reported age; a fitted age is a box from the lower to the upper bound of the reported age with a line at the age.  Nothing drawn for one plot touches what is drawn for another or the ends of the axis.  No row is empty, and hidden plots have no influence.", "quantifier": "all sets of plots of any types, counts, production functions and chronology functions with the usual shape", "why_tests_cant": "rows depend on the settings of all other plots of the set, of which there can be any number", "anchors": ["src/craterstats/Craterplot.py:Craterplot.overplot_sequence_element", "src/craterstats/Craterplot.py:Craterplot.overplot", "src/craterstats/Craterplotset.py:Craterplotset.draw"]}
{"id": "C136", "title": "What is drawn over the maps of a randomness analysis shows the craters' neighbours and cells", "statement": "On the map of a bin for the measure of second closest neighbours there is one line for each crater of the bin, in their order, from the crater to a crater of the same bin whose distance has index 2 among all distances from it (index 0 being the crater itself); it leads elsewhere unless three craters share a place. With three or more craters in the bin and a connected search grid the lines are drawn. On the map for the measure of adjacent areas there is one outline for each piece of each cell, in the order of the cells: the outline is closed, passes all corners of the boundary in order, stays on its edges, and neighbouring places on it are at most a twentieth of the edge or 0.2 degrees apart, so that edges curve as they should on the map. All boundaries of a cell are outlined, those of holes too.", "quantifier": "all counts with diameters between 2^-98 and 2^98, all bins, all distances, grids and projections; all cells with closed boundaries, all geometries with shortest lines", "why_tests_cant": "A drawing is looked at for a few counts; whether lines and craters stay in step, and whether all boundaries are drawn, for every count cannot be seen from them.", "anchors": ["src/craterstats/Randomnessanalysis.py:66-114", "src/craterstats/Randomnessanalysis.py:306-311", "src/craterstats/Randomnessanalysis.py:171-186"]}
{"id": "C137", "title": "Maps are drawn with a labelled grid", "statement": "The map of a count (conversion of a spatial count to an image) can be drawn with its grid whenever the area and craters can be projected. The grid shows the parallels of all round latitudes, and the meridians of all round longitudes, strictly between those of the south-west and north-east corners of what is shown: at least one and at most four of each. Each line is the projection of 50 places of one latitude (longitude), reaches beyond the corners, and is labelled with its value to seven figures, the label standing within the axes.", "quantifier": "all areas and crater rims, all projections and inverse projections, all corners of different longitude and latitude", "why_tests_cant": "A few maps of small areas away from the poles show nothing about areas that are wide, at a pole, or across the 180 degree meridian.", "anchors": ["src/craterstats/Spatialcount.py:334-413", "src/craterstats/cli.py:334-342", "src/craterstats/gm/plotting/ticks.py:10-49"]}
{"id": "C138", "title": "Printed maps have the size asked for and one scale", "statement": "The axes of the map of a spatial count have exactly the room asked for by the print dimensions (a square of five times the length for one number, the box for two numbers), with a margin of a fifth of the point size around them. On paper the map has one scale in both directions, the largest with which it fits into that room; it fills the room in one direction and is in the middle in the other. Every place of the area and the crater rims is inside that room.", "quantifier": "all point sizes, all dimensions, all areas, rims and projections, all limits of the axes", "why_tests_cant": "One map on paper shows nothing about other sizes, or about areas wider than high.", "anchors": ["src/craterstats/Craterplotset.py:990-1014", "src/craterstats/Spatialcount.py:334-413"]}
{"id": "C139", "title": "The differential form of tabular functions is free of bin bias", "statement": "For a tabular production function (increments per root-2 bin), the differential form at every bin centre is the density of the power law which has the increment of the table as its number of craters in the bin and the slope of the cumulative table at both edges of the bin (for the last bin, the slope of the bin before).", "quantifier": "all tables of at least two positive increments, all positions of the 1 km bin, all bins, all a0", "why_tests_cant": "A table in use shows one set of slopes; the bias depends on the slope of each bin, and the last bin has no slope of its own.", "anchors": ["src/craterstats/Productionfn.py:152-185", "src/craterstats/miscellaneous.py:19-32"]}
{"id": "C140", "title": "Functions are selected by their full names", "statement": "A chronology system, equilibrium function or set of epochs whose full name is given (including brackets and full stops) is the one used; an abbreviation that cannot be understood is rejected with a message.", "quantifier": "all lists of functions (those supplied and those of the user), all names", "why_tests_cant": "The name is made into a regular expression in which brackets, full stops and stars have a meaning; which entry is found depends on all other entries of the list.", "anchors": ["src/craterstats/cli.py:decode_abbreviation", "src/craterstats/config/functions.txt"]}
{"id": "C141", "title": "What a command draws", "statement": "Whatever files a command loads its options from, the figure is drawn in the presentation named last, with each display option at its last values and each option not given at its default; the legend shows what its letters ask for, with the perimeter beside the area when there is a buffered fit; and there is one plot for each `-p`, in the order in which they are met, each with the properties last given up to it or in its own specification, its crater count read from the last source, and its colour from the palette which belongs to the background.", "quantifier": "all command lines, command files, directories, and crater counts", "why_tests_cant": "the result depends on every option of the command and of nested files at once; tests check single options", "anchors": ["src/craterstats/cli.py:main", "src/craterstats/cli.py:construct_cps_dict", "src/craterstats/cli.py:construct_plot_dicts", "src/craterstats/Craterplotset.py:Craterplotset.UpdateSettings"]}
{"id": "C142", "title": "The files a command leaves, and the analysis it asks for", "statement": "A command writes under the name given after -o (without its extension; otherwise, read from a file, that of the file): the plot in each image format given last after -f (by default png, and the extension of the name), the table of ages if csv is among the formats and there are ages, and the command itself unless it was read from a file; nothing else.  With a randomness analysis it writes the results, with at least the number of trials asked for (1000 by default) for each measure asked for (both by default), and an image of each measure; earlier results with enough trials are used as they are.  An unknown measure stops the command.", "quantifier": "all command lines of the grammar, with any nesting of files of options, all orders in which Python traverses its sets, all earlier results, all results of trials", "why_tests_cant": "the name, the formats, the measures and the trials each come from several options and files of options, with defaults and orders of precedence, and the order of a set differs from process to process", "anchors": ["src/craterstats/cli.py:401-468", "src/craterstats/cli.py:534-541", "src/craterstats/cli.py:193-210", "src/craterstats/Randomnessanalysis.py:162-169", "src/craterstats/Randomnessanalysis.py:435-451"]}
{"id": "C143", "title": "Shading, texts and captions of uncertainty plots", "statement": "On an uncertainty plot the place of an age and an area is shaded exactly if the surface would be saturated or the area larger than the whole body; the words saturation and whole globe stand at these limits, and the caption of the colour scale states the quantity and the smallest diameter with its unit, as a complete text.", "quantifier": "all time axes, ranges of areas, body sizes, saturation ages, places of the plot and smallest diameters", "why_tests_cant": "The shaded region is one of three polygons chosen by truth values of floats, and its inside is a set of infinitely many places.", "anchors": ["src/craterstats/Craterplotset.py:Craterplotset.age_area_plot"]}
{"id": "C144", "title": "From the text of a crater file to the age", "statement": "The Poisson age of a .diam crater file is that of the number of listed craters whose diameters lie in the requested range (within the range of the production function) on the area written in the file: the expected number at every sampled age is the density between the limits on the isochron of that age times this area. Files listing the same craters, with the same fractions and area, in any order and among any other columns, definitions and comments, give the same plot data, the same bins of the diameter range and the same ages; fractions do not change Poisson ages. Where a file gives for each crater the area on which it could be seen, the age uses these areas; where it gives a perimeter, buffered ages can be calculated.", "quantifier": "for every text of a .diam file of the described form, every list of diameters, fractions and reference areas, every production function and chronology, every diameter range", "why_tests_cant": "A test reads a few files; the claim is about every order of the lines, every surrounding text and every age model", "anchors": ["src/craterstats/Cratercount.py:16-48", "src/craterstats/Cratercount.py:123-148", "src/craterstats/Craterpdf.py:42-65", "src/craterstats/Craterplot.py:69-97"]}
{"id": "C145", "title": "Likelihoods of separate evaluations combine", "statement": "Dividing the diameter range of a Poisson age at any places, or counting several areas separately and merging the counts, loses nothing and counts nothing twice: the likelihood of the whole is, at every sampled age and up to one common factor, the product of the likelihoods of the parts, the impact rate (which every likelihood contains) being counted once.", "quantifier": "for all production functions and chronologies with positive linear term of at least 0.0001, all crater lists, all divisions of the range, all lists of counts that can be merged; standard Poisson evaluations with up to a million craters whose count lies within the expected numbers of the age grid", "why_tests_cant": "a relation between arbitrarily many evaluations at all 5000 sampled ages; it rests on the Poisson law, the common grid and exact bookkeeping of craters and expected numbers", "anchors": ["src/craterstats/Craterpdf.py:Craterpdf.__init__", "src/craterstats/miscellaneous.py:merge_cratercounts"]}
{"id": "C146", "title": "From crater files to the rows of the summary table", "statement": "The summary table written for a set of plots has one row for each age, in the order of the plots, and its figures are those of the crater files: the area written in the file, the number of listed craters used, the age with its limits as calculated from that number, area and production function, the densities belonging to these ages, each to the stated number of digits, and as rank the number of older ages. The diameter range listed beside them is the one in which the craters were counted. Plots created with type poisson and a source have the count opened from that source and the range decoded for it.", "quantifier": "for all plots of data and Poisson ages, all texts of .diam files listing craters on an area, all production functions and chronologies with positive linear term, all diameter ranges and all names without commas and line breaks", "why_tests_cant": "it ties arbitrary file texts, through reading, counting, likelihood and number formats, to the fields of a text table for any number of plots; tests compare single tables", "anchors": ["src/craterstats/Craterplotset.py:create_summary_table", "src/craterstats/Craterplot.py:calculate_age"]}
{"id": "C147", "title": "Rows of the summary table for ages of all kinds", "statement": "The summary table of a set of plots lists every age - Poisson ages, ages with buffered areas, fits to cumulative and to differential counts - in one row, in the order of the plots, with the method, the name and source of the plot, the area of its count, the numbers of craters, the age and density with their limits as found by that method with the settings of that plot, both as numbers and as formatted texts, and as rank the number of older ages. The diameter limits are those of the bins used if the last age is a fit without resurfacing correction, otherwise those requested. Plots of other types have no row; the densities are captioned with the reference diameter.", "quantifier": "for all lists of plots of any types with any crater counts, settings, chronology systems and fitting routines, and all names without commas and line breaks", "why_tests_cant": "the columns depend on the last age while the values depend on each plot; any mixture, number and order of plots must be covered", "anchors": ["src/craterstats/Craterplotset.py:create_summary_table", "src/craterstats/Craterplot.py:calculate_age"]}
{"id": "C148", "title": "Ages of a count exported as a .stat table", "statement": "A list of craters binned and exported as a .stat table, then opened again, has the same Poisson age (all numbers of the result) as the list itself over every diameter range whose limits are boundaries of bins with craters or lie beyond all craters. For complete craters the cumulative plot has the same points and the cumulative fit gives the same age, limits, density and numbers of craters over such ranges.", "quantifier": "for all crater lists with craters in at least two bins, all named binnings, areas, production and chronology functions, fitting routines, and all ranges with limits at bins with craters", "why_tests_cant": "the exported table leaves out empty bins and re-creates the upper boundaries on reading, so agreement depends on the position of every gap relative to every range", "anchors": ["src/craterstats/Cratercount.py:WriteStatFile", "src/craterstats/Cratercount.py:ReadStatFile", "src/craterstats/Craterplot.py:calculate_age", "src/craterstats/Craterpdf.py:__init__"]}
{"id": "C149", "title": "Comparing the ages of crater files", "statement": "The Poisson age of a .diam file depends on its craters only through their number in the diameter range (within the range of the production function) and on its area: files agreeing in these have identical results. Of two files with the same area the one with more craters in the range has no smaller age and limits; of two files with the same number of craters in the range, the one with the larger area has no greater age and limits.", "quantifier": "for all texts of .diam files, areas, production and chronology functions and diameter ranges for which the time scale of the calculation reaches from below to above the expected numbers", "why_tests_cant": "every pair of files, range and chronology system must be compared; the order of the ages follows from the shape of the likelihood", "anchors": ["src/craterstats/Cratercount.py:ReadDiamFile", "src/craterstats/Craterpdf.py:__init__", "src/craterstats/Craterplot.py:calculate_age"]}
{"id": "C150", "title": "Ages of converted and merged spatial counts", "statement": "A spatial count converted to an .scc file has the same Poisson ages, plot data and snapped ranges as a .diam file listing the same craters, as printed by the conversion, on the same area; its buffered age uses the printed area grown by half a diameter along the printed perimeter. Converted counts merged into one file have the Poisson ages of one file listing all craters on the sum of the areas.", "quantifier": "for all spatial counts with areas printed without exponent, numbers of merged counts, production and chronology functions and ranges", "why_tests_cant": "conversion, reading, merging and age calculation are separate programs connected only by text files; agreement must hold for all contents", "anchors": ["src/craterstats/Spatialcount.py:writeSCCfile", "src/craterstats/Cratercount.py:ReadSCCfile", "src/craterstats/miscellaneous.py:merge_cratercounts", "src/craterstats/Craterpdf.py:__init__"]}
{"id": "C151", "title": "Ages of counts drawn as polygons in shapefiles", "statement": "The Poisson age of a count opened from crater and area shapefiles is that of the number of crater polygons which overlap the counting area and whose areas lie between those of the spherical caps with the diameters at the ends of the range, on the counting area; with buffering the counting area is grown along its perimeter. Plots are those of a list of these polygons with their diameters and fractions. The order of the polygons in the file and polygons outside the counting area have no effect on ages, plots and diameter ranges. Converted to an .scc file the count has the same ages, on an area which agrees to five parts in a million, for ranges without a crater at the limits. Shapefiles on spheres of different radius are refused.", "quantifier": "for all lists of valid polygons on spheres of any radius, all areas and perimeters, production and chronology functions and diameter ranges; conversion: for all counts whose craters are not within seven printed digits of the range limits", "why_tests_cant": "the number counted depends on the position of every polygon area relative to the caps at both limits, and on the rounding of every diameter on conversion", "anchors": ["src/craterstats/Cratercount.py:ReadSHPfile", "src/craterstats/Spatialcount.py:readSHPfiles", "src/craterstats/Spatialcount.py:writeSCCfile", "src/craterstats/Craterpdf.py:__init__"]}
{"id": "C152", "title": "From the words of a command to the rows of the table of ages", "statement": "The table of ages which a command gives has one row for each age plot asked for on the command line, in the order of the command. The row is that of the crater count in the file last given up to this plot, of the binning, snapping and type last given up to it, and of the diameter range, name and resurfacing correction given for this plot itself. For a Poisson age of a .diam file the row shows the name, the area of the file and the number of those diameters listed in the file which are in the range asked for, cut at the limits of the production function, and the median and the two bounds of the likelihood for this number on this area. A plot without a range uses all craters; without snapping the limits are those given; with snapping they are moved outwards to bin boundaries.", "quantifier": "for all command lines of any length with any files of options, all items after -p in any order and abbreviation, all crater files, production and chronology functions", "why_tests_cant": "which file, range and binning a row belongs to depends on all options before it, on abbreviations and on option files; the number counted on every digit of the file and of the limits", "anchors": ["src/craterstats/cli.py:main", "src/craterstats/cli.py:construct_plot_dicts", "src/craterstats/Craterplot.py:__init__", "src/craterstats/Cratercount.py:decode_range", "src/craterstats/Craterplotset.py:create_summary_table"]}
{"id": "C153", "title": "Ages in the table are those of the chronology system asked for", "statement": "The table of ages of a command is made with the chronology and the production function of the first chronology system in the list of functions which has the name asked for: with -cs the first of the shortest names which contain the characters given in this order, without it the Moon system of 1983. The chronology systems to choose from are those defined in the list of the program and then those in the list of the user, in their order. The reference diameter of the table is the one given last, by default 1 km, and uncertainties are written with the age function unless -mu 0 was given last. For a Poisson age of a .diam file the number of craters in the row is counted within the range of the production function of this system, and the likelihood is that of the numbers of craters expected from the polynomial or the table of increments written in its definition on the area of the file, for densities scaled with that of the chronology written in the list.", "quantifier": "for all command lines, option files, lists of functions with any numbers, names and order, crater files", "why_tests_cant": "the numbers in the table depend on an abbreviated name resolved in a text of definitions, on two further names resolved in it, and on all coefficients; tests compare ages for a few built-in systems", "anchors": ["src/craterstats/cli.py:construct_cps_dict", "src/craterstats/Functionslist.py", "src/craterstats/Chronologyfn.py:__init__", "src/craterstats/Productionfn.py:__init__", "src/craterstats/Craterplotset.py:create_summary_table"]}
{"id": "C154", "title": "What the lists on the screen show can be typed", "statement": "A command with -lcs prints, under three headings, one per line and in the order of the list of functions (the program's list followed by the user's), the names of all chronology systems, equilibrium functions and systems of epochs, and nothing else is done. A line printed under the first heading and given after -cs makes the table of ages use the chronology system of this name, the first of them if there are several, provided that no other name of at most the same length contains its characters in this order. -lpc prints all plot symbols, each with its code, and all colours; the code or the name of a symbol and the name of a colour, in small or capital letters, select the symbol or colour printed at this place. -about prints the description of the program line by line, and -v the first five of its lines. A request of higher precedence is answered instead.", "quantifier": "for all lists of functions of the program and of the user with at least two entries of each kind, command lines, option files", "why_tests_cant": "the names come from texts written by the program's authors and the user, and whether a name printed selects its own entry depends on all the other names; tests look at a few shipped names", "anchors": ["src/craterstats/miscellaneous.py:Functionslist.print", "src/craterstats/cli.py:list_symbols_and_colours", "src/craterstats/cli.py:print_with_highlights", "src/craterstats/cli.py:main"]}
{"id": "C155", "title": "The epochs and the equilibrium function of a command are those defined under the names asked for", "statement": "A command with `-ep NAME` works with the epoch system of the list of functions (built-in and user's) whose name NAME abbreviates: its epochs and formatting codes are the texts written in the first definition of that name, its boundaries are the ages listed there, or, if the definition lists reference diameters and densities instead, 0 followed by the ages at which the chronology system of the command, with the numbers of its chronology and production function in the list, reaches each density, read down to the step of the table of ages and limited to 5 Ga. On chronology, rate and sequence plots exactly these names, boundaries and shades are drawn. The equilibrium function of `-ef NAME` is made likewise from the definition of the name; without the options there are none.", "quantifier": "for all commands, plot files, working directories, lists of functions in the text format with at least two definitions of each kind, names, abbreviations, epoch systems with listed ages or with positive whole reference diameters and positive densities, chronologies with nonnegative exponential and positive linear part, polynomial and tabulated production functions", "why_tests_cant": "The result depends on the text of the list, the abbreviation, the chronology and production function named by another option; only a proof covers every combination.", "anchors": ["src/craterstats/Epochs.py:17-44", "src/craterstats/cli.py:213-225", "src/craterstats/Productionfn.py:29-71", "src/craterstats/Chronologyfn.py:24-41"]}
{"id": "C156", "title": "The row of a cumulative fit shows the density of least deviation for the craters in the file", "statement": "If a command asks for a fit to the cumulative distribution ('c-fit') of a file which lists craters with their area, without correction for resurfacing, its row in the table of ages shows the density at 1 km for which the craters per area deviate least from the curve of the production function of the chronology system asked for. The curve and the chronology are those written in the list of functions. The deviation is the sum of the squared differences of the logarithms at the lower edges of the bins, weighted with the craters per area, over the bins of the binning asked for which contain craters and whose geometric mean is in the range asked for; no other density deviates as little. The limits of the density are those of 0.98/sqrt(M) for the M craters of at least the diameter of the first bin. The ages are those of the chronology, to less than a step of 5 Ma and up to 5 Ga. The numbers are the sum of the fractions and the number of the craters in these bins.", "quantifier": "for all commands, command files, lists of functions with at least two definitions of each kind, polynomial and tabular production functions, chronologies, files of craters with positive fractions and area, binnings and ranges of diameters", "why_tests_cant": "the fitted value depends on every crater, on the edges of an infinite grid and on the numbers in a list of functions; a test compares a few commands with stored numbers", "anchors": ["src/craterstats/Craterplot.py:83-97", "src/craterstats/Cratercount.py:372-451", "src/craterstats/Productionfn.py:187-213", "src/craterstats/Craterplotset.py:660-743"]}
{"id": "C157", "title": "The row of a differential fit shows the density of least deviation for the craters in the file", "statement": "If a command asks for a fit to the differential distribution ('d-fit') of a file which lists craters with their area, and the production function of the chronology system asked for is a polynomial, its row in the table of ages shows the density at 1 km for which the craters per diameter and area deviate least from minus the derivative of the cumulative curve. The polynomial and the chronology are those written in the list of functions. The number of each bin is divided by the mean of the derivative of a power law over the bin relative to its value at the geometric mean; the slope of the power law is that of the cumulative curve between the edges of the bin. The deviation is the sum of the squared differences of the logarithms at the geometric means of the bins, weighted with the uncorrected number per diameter and area divided by the square root of the number of craters, over the bins of the binning asked for which contain craters and whose geometric mean is in the range asked for; no other density deviates as little. With B the correction of the first bin divided by the square root of its number of craters, the limits of the density are the factors 1-0.98 B and 1+0.98 B; the lower one exists if and only if 0.98 B < 1. The ages are those of the chronology, to less than a step of 5 Ma and up to 5 Ga. The numbers are the sum of the fractions and the number of the craters in these bins. An option for the correction for resurfacing has no effect.", "quantifier": "for all commands, command files, lists of functions with at least two definitions of each kind, polynomials decreasing in the bins, chronologies, files of craters with positive fractions and area, binnings and ranges of diameters", "why_tests_cant": "the fitted value depends on every crater, on the edges of an infinite grid, on the derivative of a curve and on the numbers in a list of functions; a test compares a few commands with stored numbers", "anchors": ["src/craterstats/Craterplot.py:83-97", "src/craterstats/Cratercount.py:372-451", "src/craterstats/Productionfn.py:101-120", "src/craterstats/Productionfn.py:187-213", "src/craterstats/miscellaneous.py:19-32"]}
{"id": "C158", "title": "The row of a cumulative fit with resurfacing correction shows the density found by repeated fitting", "statement": "If a command asks for a fit to the cumulative distribution ('c-fit') with correction for resurfacing of a file which lists craters with their area, the craters per area of all bins of the fit are raised by one common amount. The amount starts at 0; each round fits the raised values and takes the amount which puts the largest bin on the fitted curve; it ends when two amounts differ by less than 0.0001, or after 21 rounds; for a single bin it is 0. All raised values are positive, so that every round can be done. The row in the table of ages shows the density at 1 km for which the raised values deviate least from the curve of the production function of the chronology system asked for, with weights equal to the raised values; no other density deviates as little. The limits of the density are those of 0.98/sqrt(M) for the M craters of at least the diameter of the first bin, the ages those of the chronology, and the numbers those of the craters in the bins, not raised.", "quantifier": "for all commands, command files, lists of functions with at least two definitions of each kind, polynomial and tabular production functions, chronologies, files of craters with positive fractions and area, binnings and ranges of diameters", "why_tests_cant": "the amount is the result of up to 21 fits, each of which depends on every crater and on the numbers in a list of functions, and a logarithm of a negative value in any round would end the program; a test compares a few commands with stored numbers", "anchors": ["src/craterstats/Craterplot.py:83-97", "src/craterstats/Cratercount.py:354-451", "src/craterstats/Productionfn.py:187-213", "src/craterstats/Craterplotset.py:660-743"]}
{"id": "C159", "title": "The diameter limits in the row of a fit over all diameters enclose its craters, or are 0 and inf", "statement": "If a command asks for a fit ('c-fit' or 'd-fit') without limits of diameter to a file which lists craters, the limits of diameter in its row of the table of ages are, to two digits, either edges of the bins of the binning asked for, or 0 and 'inf'. Which of both is decided by the last age of the table alone: edges if it is a fit whose item 'resurf' is not 1. The edges enclose all craters of the file; no edge lies strictly between the lower one and the smallest crater, and each edge below the upper one is less than 10^0.001 times the diameter of the largest crater. The production function, the chronology and the correction for resurfacing of the fit itself make no difference.", "quantifier": "for all commands, command files, files of craters, binnings, kinds of fit, production functions, chronologies and tables of several ages", "why_tests_cant": "the edges depend on the smallest and largest crater and their place among the edges of the binning, and the form shown depends on another plot of the same command; a test compares a few commands with stored tables", "anchors": ["src/craterstats/Cratercount.py:234-270", "src/craterstats/Cratercount.py:400-451", "src/craterstats/Craterplotset.py:660-743"]}
{"id": "C160", "title": "The row of a fit to the differential distribution follows the table of the production function", "statement": "If the production function of the system chosen by a command is given by a table of two or more increments, the row of each 'd-fit' on a file which lists craters states the density at 1 km, the age and its limits of that multiple of the function which deviates least, in logarithms and weighted by the number of craters, from the craters per diameter and area in the bins of the fit. The density of a table is, at the middle of each of its bins, the increment divided by the cumulative number at 1 km, by the diameter and by the width of the bin as it enters for a power law with the slope of the cumulative numbers of this bin and the next; between the middles of bins it is a straight line in logarithms, and beyond the first and last it is constant. It is positive everywhere, so that the fit needs no further condition. A table of a single increment gives a cumulative curve, but its differential and relative curves cannot be evaluated at any diameter (IndexError).", "quantifier": "for all tables with two or more increments, places of the bin at 1 km, diameters, files of craters, binnings, ranges of diameter, chronologies and commands", "why_tests_cant": "the density between the middles of bins and the slope of each bin depend on all increments; a test evaluates the tables of the list of functions at a few diameters", "anchors": ["src/craterstats/Productionfn.py:152-184", "src/craterstats/Craterplot.py:83-97", "src/craterstats/Cratercount.py:354-451", "src/craterstats/Craterplotset.py:660-743"]}
{"id": "C161", "title": "The strip of deviations stays above the data and within the plot", "statement": "If the results of a randomness analysis are shown in a plot of counts, with the automatic y axis and without 'ra_offset', their strip is as wide as the axes and a sixteenth of their height; it lies a sixteenth of the height above the highest point of all plots, error bars included, and does not reach beyond the axes. A range of diameters given by the user changes nothing. 'ra_offset' moves the strip by twentieths of a decade. If the user gives a y range which ends below the data, the strip is drawn outside the axes.", "quantifier": "for all presentations of counts, numbers of plots, ranges of their data, ranges of diameters given by the user, and places of the axes in the figure", "why_tests_cant": "the room above the data is computed before the axes are made square, and the strip grows with the squared axis; whether it still fits depends on the extent of the data in both directions and on rounding to decades", "anchors": ["src/craterstats/Craterplotset.py:595-658", "src/craterstats/Craterplotset.py:270-287"]}
{"id": "C162", "title": "Fits scale with the number of craters and the area", "statement": "If the same craters are counted on an area s times as large and each is listed m times, the density of the fitted isochron is m/s times as large, the numbers of craters and of events in the fit are m times as large, and the relative distance of the upper limit of the density from the best value is smaller by the square root of m. In particular, m copies of a count on m times the area have the same age. The order of the craters in the file has no effect. This holds for cumulative fits without resurfacing correction and for differential fits; with resurfacing correction it holds for m copies on m times the area.", "quantifier": "for all lists of craters with positive fractions, positive areas, numbers of copies, factors of the area, orders of the list, binnings, ranges of diameters, production and chronology functions", "why_tests_cant": "it relates two runs of the whole fit for every list and factor; a test fixes one list, one factor and a numerical tolerance", "anchors": ["src/craterstats/Craterplot.py:83-97", "src/craterstats/Cratercount.py:354-451", "src/craterstats/Productionfn.py:187-213"]}
{"id": "C163", "title": "Fitted ages for larger areas and for more craters", "statement": "If the same craters are counted on a larger area, the density of a cumulative or differential fit is smaller in the ratio of the areas and the age is not larger. For more craters on the same area the corresponding statement is false: an additional small crater can make the surface younger in a cumulative fit, because it raises the weight of a bin which lies below the fitted curve.", "quantifier": "for all lists of craters with positive fractions, pairs of areas, orders of the lists, binnings, ranges of diameters, production and chronology functions", "why_tests_cant": "it compares the ages of two runs for every list and every pair of areas, through a weighted least-squares fit and a table lookup of the age", "anchors": ["src/craterstats/Craterplot.py:83-97", "src/craterstats/Productionfn.py:187-213", "src/craterstats/Chronologyfn.py:72-89"]}

{
 "claims": [
  {
   "property": "C01",
   "status": "proved",
   "theorems": [
    "Verif.Props.C01_bins_cover",
    "Verif.Props.C01_nonpositive_rejected",
    "Verif.Props.C01_binning_succeeds"
   ],
   "note": "exact reals; covers all six log-type binnings and all offsets"
  },
  {
   "property": "C02",
   "status": "proved",
   "theorems": [
    "Verif.Props.C02_conservation"
   ],
   "note": ""
  },
  {
   "property": "C03",
   "status": "proved",
   "theorems": [
    "Verif.Props.C03_bin_contents",
    "Verif.Props.C03_cumulative_monotone",
    "Verif.Props.C03_none_contents"
   ],
   "note": ""
  },
  {
   "property": "C04",
   "status": "proved",
   "theorems": [
    "Verif.Props.C04_order_irrelevant",
    "Verif.Props.C04_plot_order_irrelevant"
   ],
   "note": ""
  },
  {
   "property": "C05",
   "status": "proved",
   "theorems": [
    "Verif.Props.C05_history_independent",
    "Verif.Props.C05_prebinned",
    "Verif.Props.C05_offset_counterexample"
   ],
   "note": "Histories without direct re-binning at another offset; with one, the cache key lacks the offset (counterexample)."
  },
  {
   "property": "C06",
   "status": "proved",
   "theorems": [
    "Verif.Props.C06_selection",
    "Verif.Props.C06_no_range",
    "Verif.Props.C06_aligned_totals",
    "Verif.Props.C06_succeeds"
   ],
   "note": ""
  },
  {
   "property": "C07",
   "status": "partial",
   "theorems": [
    "Verif.Props.C07_error_bars_partial",
    "Verif.Props.C07_differential_counterexample"
   ],
   "note": "False for 'differential': error bar is not divided by the bias factor."
  },
  {
   "property": "C08",
   "status": "proved",
   "theorems": [
    "Verif.Props.C08_presentations_agree",
    "Verif.Props.C08_cumulative_differences",
    "Verif.Props.C08_succeeds"
   ],
   "note": ""
  },
  {
   "property": "C09",
   "status": "proved",
   "theorems": [
    "Verif.Props.C09_snapping",
    "Verif.Props.C09_applies"
   ],
   "note": "Limits become bin boundaries that hold the same plotted bins; holds for contiguous tables (every binned list, C09_applies)."
  },
  {
   "property": "C10",
   "status": "partial",
   "theorems": [
    "Verif.Props.C10_bin_addressing_partial",
    "Verif.Props.C10_applies",
    "Verif.Props.C10_none_counterexample",
    "Verif.Props.C10_micro_counterexample"
   ],
   "note": "True for binned tables of ordinary sizes; false without binning and for craters below 0.1 mm."
  },
  {
   "property": "C100",
   "status": "proved",
   "theorems": [
    "Verif.Props.C100_uniform",
    "Verif.Props.C100_range",
    "Verif.Props.C100_batch"
   ],
   "note": "numpy's generator is taken as uniform and independent (volume of the unit square)."
  },
  {
   "property": "C101",
   "status": "partial",
   "theorems": [
    "Verif.Props.C101_reach_partial",
    "Verif.Props.C101_both_poles_counterexample",
    "Verif.Props.C101_bulge_counterexample",
    "Verif.Props.C101_across_counterexample"
   ],
   "note": "Holds for areas within the limits of their vertices covering at most one pole; false otherwise (three counterexamples)."
  },
  {
   "property": "C102",
   "status": "partial",
   "theorems": [
    "Verif.Props.C102_fit_partial",
    "Verif.Props.C102_density_counterexample",
    "Verif.Props.C102_none_counterexample"
   ],
   "note": "Points, numbers and the form of the correction for all inputs; the convergence is false of the code (counterexample for every density below 0.0001), and resurfacing=None gives corrected points although it is documented as no correction (counterexample)."
  },
  {
   "property": "C103",
   "status": "partial",
   "theorems": [
    "Verif.Props.C103_diam_partial",
    "Verif.Props.C103_reference_partial",
    "Verif.Props.C103_unreadable"
   ],
   "note": "Missing: texts before the table which C33 excludes; the randomness file read before the guarded part."
  },
  {
   "property": "C104",
   "status": "proved",
   "theorems": [
    "Verif.Props.C104_scale"
   ],
   "note": "For every likelihood whose percentile ages are ordered and positive (init_age_pos: every constructed one)."
  },
  {
   "property": "C105",
   "status": "proved",
   "theorems": [
    "Verif.Props.C105_gap"
   ],
   "note": "Over every successful construction of a likelihood."
  },
  {
   "property": "C106",
   "status": "partial",
   "theorems": [
    "Verif.Props.C106_violin_partial",
    "Verif.Props.C106_rows",
    "Verif.Props.C106_first_sample_counterexample"
   ],
   "note": "Partial: the zones hold up to one sample, and only if the first sample lies below the 0.01 % age."
  },
  {
   "property": "C107",
   "status": "partial",
   "theorems": [
    "Verif.Props.C107_whole_partial",
    "Verif.Props.C107_fractions",
    "Verif.Props.C107_buffered",
    "Verif.Props.C107_million_counterexample",
    "Verif.Props.C107_stat_counterexample"
   ],
   "note": "Holds for counts below a million read from crater lists; fails for larger ones and for .stat files with fractions (counterexamples)."
  },
  {
   "property": "C108",
   "status": "partial",
   "theorems": [
    "Verif.Props.C108_fit_partial",
    "Verif.Props.C108_fit_limits",
    "Verif.Props.C108_poisson",
    "Verif.Props.C108_unconstrained_counterexample"
   ],
   "note": "Ranges with positive finite limits (fits, and Poisson evaluations of binned counts), and Poisson evaluations of crater lists; fits with open ranges fail (counterexample)."
  },
  {
   "property": "C109",
   "status": "partial",
   "theorems": [
    "Verif.Props.C109_functions",
    "Verif.Props.C109_lookup",
    "Verif.Props.C109_set",
    "Verif.Props.C109_builtin",
    "Verif.Props.C109_missing_counterexample",
    "Verif.Props.C109_comment_counterexample"
   ],
   "note": "All but the last clause, which is false (counterexamples)."
  },
  {
   "property": "C11",
   "status": "partial",
   "theorems": [
    "Verif.Props.C11_stat_roundtrip_partial",
    "Verif.Props.C11_text_partial",
    "Verif.Props.C11_applies",
    "Verif.Props.C11_gap_counterexample",
    "Verif.Props.C11_events_counterexample",
    "Verif.Props.C11_single_row_counterexample"
   ],
   "note": "Round trip keeps area, lower boundaries and numbers, exactly for exact numbers and as a text with the printed digits (area to 6 parts in 10000); widths before gaps, cumulative event numbers and single-bin files do not survive."
  },
  {
   "property": "C110",
   "status": "partial",
   "theorems": [
    "Verif.Props.C110_panel_partial",
    "Verif.Props.C110_centre",
    "Verif.Props.C110_direction",
    "Verif.Props.C110_band",
    "Verif.Props.C110_no_bins_counterexample"
   ],
   "note": "partial: file names with quotation marks or line breaks as in C56; fails for analyses without bins (counterexample).  Text positions, colours and the white background are not modelled."
  },
  {
   "property": "C111",
   "status": "partial",
   "theorems": [
    "Verif.Props.C111_plots",
    "Verif.Props.C111_uncertainty_partial",
    "Verif.Props.C111_randomness_partial",
    "Verif.Props.C111_uncertainty_counterexample",
    "Verif.Props.C111_randomness_counterexample",
    "Verif.Props.C111_order_counterexample"
   ],
   "note": "proved for plots; for uncertainty plots and randomness analyses only with one image format (counterexamples otherwise)."
  },
  {
   "property": "C112",
   "status": "partial",
   "theorems": [
    "Verif.Props.C112_regions_partial",
    "Verif.Props.C112_defined",
    "Verif.Props.C112_equilibrium_partial",
    "Verif.Props.C112_equilibrium_defined",
    "Verif.Props.C112_oldest_counterexample"
   ],
   "note": "without and with an equilibrium function, without boundaries of exactly one crater per km² (C18); lines of marked boundaries except the oldest, for which it is false (counterexample)."
  },
  {
   "property": "C113",
   "status": "partial",
   "theorems": [
    "Verif.Props.C113_regions",
    "Verif.Props.C113_texts",
    "Verif.Props.C113_defined",
    "Verif.Props.C113_oldest_name_counterexample"
   ],
   "note": "the name of the oldest epoch is beside the middle of its visible extent only if its boundary is on the axis (counterexample otherwise)."
  },
  {
   "property": "C114",
   "status": "proved",
   "theorems": [
    "Verif.Props.C114_typed",
    "Verif.Props.C114_open_quotation",
    "Verif.Props.C114_backslash_counterexample"
   ],
   "note": "the tokenizer of Python's shlex is modelled character by character; quotations containing line breaks are outside the grammar"
  },
  {
   "property": "C115",
   "status": "proved",
   "theorems": [
    "Verif.Props.C115_settings",
    "Verif.Props.C115_complete",
    "Verif.Props.C115_count",
    "Verif.Props.C115_nothing",
    "Verif.Props.C115_source",
    "Verif.Props.C115_name",
    "Verif.Props.C115_set",
    "Verif.Props.C115_created",
    "Verif.Props.C115_stale_counterexample"
   ],
   "note": "values are none, whole numbers, numbers, texts, lists of texts, lists of numbers, counts"
  },
  {
   "property": "C116",
   "status": "partial",
   "theorems": [
    "Verif.Props.C116_rims",
    "Verif.Props.C116_area",
    "Verif.Props.C116_read_back",
    "Verif.Props.C116_written",
    "Verif.Props.C116_parts_counterexample"
   ],
   "note": "false for counting areas of several parts (negation proved); diameters read back are smaller (bounds proved)"
  },
  {
   "property": "C117",
   "status": "partial",
   "theorems": [
    "Verif.Props.C117_area_file",
    "Verif.Props.C117_pair_partial",
    "Verif.Props.C117_pair_counterexample",
    "Verif.Props.C117_same_file_counterexample"
   ],
   "note": "false for names which contain the word twice or not at all (negations proved)"
  },
  {
   "property": "C118",
   "status": "partial",
   "theorems": [
    "Verif.Props.C118_chronology",
    "Verif.Props.C118_rate",
    "Verif.Props.C118_no_function_counterexample"
   ],
   "note": "proved with a production function; false without one (negation proved)"
  },
  {
   "property": "C119",
   "status": "proved",
   "theorems": [
    "Verif.Props.C119_time_axis"
   ],
   "note": ""
  },
  {
   "property": "C12",
   "status": "proved",
   "theorems": [
    "Verif.Props.C12_diam",
    "Verif.Props.C12_diam_accepted",
    "Verif.Props.C12_diam_buffered",
    "Verif.Props.C12_scc",
    "Verif.Props.C12_scc_accepted"
   ],
   "note": "Readers keep every crater; parsed values are the starting point."
  },
  {
   "property": "C120",
   "status": "proved",
   "theorems": [
    "Verif.Props.C120_regions",
    "Verif.Props.C120_abbreviation",
    "Verif.Props.C120_name_inside",
    "Verif.Props.C120_every_epoch_named",
    "Verif.Props.C120_named_once_counterexample",
    "Verif.Props.C120_defined"
   ],
   "note": "an epoch may be named on both parts of the axis (shown)"
  },
  {
   "property": "C121",
   "status": "proved",
   "theorems": [
    "Verif.Props.C121_hidden",
    "Verif.Props.C121_points",
    "Verif.Props.C121_poisson_curve",
    "Verif.Props.C121_fit_curve",
    "Verif.Props.C121_defined"
   ],
   "note": "existence of the plot is proved for polynomial production functions and Poisson ages"
  },
  {
   "property": "C122",
   "status": "partial",
   "theorems": [
    "Verif.Props.C122_age_place_partial",
    "Verif.Props.C122_upward_counterexample"
   ],
   "note": "proved to the right; upward the unit is a twentieth of a decade times the ratio of the decades of the axes (negation proved)"
  },
  {
   "property": "C123",
   "status": "partial",
   "theorems": [
    "Verif.Props.C123_curves",
    "Verif.Props.C123_label_partial",
    "Verif.Props.C123_labelled",
    "Verif.Props.C123_defined",
    "Verif.Props.C123_empty_counterexample",
    "Verif.Props.C123_turning_counterexample"
   ],
   "note": "place of labels for curves that only rise or only fall; false for others and for isochrons above equilibrium"
  },
  {
   "property": "C124",
   "status": "partial",
   "theorems": [
    "Verif.Props.C124_points",
    "Verif.Props.C124_heights",
    "Verif.Props.C124_captions",
    "Verif.Props.C124_grid",
    "Verif.Props.C124_defined_partial",
    "Verif.Props.C124_narrow_counterexample"
   ],
   "note": "what the panel shows is proved for every panel drawn; no panel is drawn for narrow counts"
  },
  {
   "property": "C125",
   "status": "partial",
   "theorems": [
    "Verif.Props.C125_shown",
    "Verif.Props.C125_defined_partial",
    "Verif.Props.C125_hemisphere_counterexample"
   ],
   "note": "true of every map drawn; areas beyond one hemisphere have no map"
  },
  {
   "property": "C126",
   "status": "partial",
   "theorems": [
    "Verif.Props.C126_size",
    "Verif.Props.C126_clear_partial",
    "Verif.Props.C126_square_counterexample",
    "Verif.Props.C126_offset_counterexample"
   ],
   "note": "the search always ends, with the first factor for which its test is false; that the histogram is clear of the map is proved for factors up to 0.7 and false otherwise"
  },
  {
   "property": "C127",
   "status": "partial",
   "theorems": [
    "Verif.Props.C127_counts_partial",
    "Verif.Props.C127_few_craters_counterexample",
    "Verif.Props.C127_many_craters_counterexample",
    "Verif.Props.C127_ratio",
    "Verif.Props.C127_ratio_labels"
   ],
   "note": "proved for images with empty cells and cells of 8 or more craters, false otherwise; proved for ratios"
  },
  {
   "property": "C128",
   "status": "partial",
   "theorems": [
    "Verif.Props.C128_symbols_partial",
    "Verif.Props.C128_redraw_counterexample",
    "Verif.Props.C128_text_partial",
    "Verif.Props.C128_font_counterexample"
   ],
   "note": "true of the first drawing and of seven fonts"
  },
  {
   "property": "C129",
   "status": "proved",
   "theorems": [
    "Verif.Props.C129_order",
    "Verif.Props.C129_m2cnd",
    "Verif.Props.C129_sdaa",
    "Verif.Props.C129_unknown"
   ],
   "note": "assumed: the cone search returns every cell with a point within its radius, once; Voronoi cells do not depend on the order of the points"
  },
  {
   "property": "C13",
   "status": "proved",
   "theorems": [
    "Verif.Props.C13_resurfacing_finishes",
    "Verif.Props.resurf_fuel_enough",
    "Verif.Props.C13_same_shift"
   ],
   "note": "Loop bound, no fit below two points, same shift for all values."
  },
  {
   "property": "C130",
   "status": "partial",
   "theorems": [
    "Verif.Props.C130_drawn_partial",
    "Verif.Props.C130_hartmann",
    "Verif.Props.C130_offered_counterexample"
   ],
   "note": "eight presentations are drawn, three of those offered are not"
  },
  {
   "property": "C131",
   "status": "partial",
   "theorems": [
    "Verif.Props.C131_order",
    "Verif.Props.C131_counts",
    "Verif.Props.C131_lines",
    "Verif.Props.C131_legend_partial",
    "Verif.Props.C131_chronology_counterexample",
    "Verif.Props.C131_uncertainty_counterexample"
   ],
   "note": "order and counts are proved; that legend and figure agree is proved for count and sequence plots and false for the others"
  },
  {
   "property": "C132",
   "status": "partial",
   "theorems": [
    "Verif.Props.C132_chronology",
    "Verif.Props.C132_polynomial",
    "Verif.Props.C132_table",
    "Verif.Props.C132_code_counterexample",
    "Verif.Props.C132_vesta_counterexample"
   ],
   "note": "The numbers of the definition for every list, file and text in the grammar of C33. That every chronology of the list can be used is false (counterexamples, one with the lines of the shipped list). float32 rounding of the range not modelled."
  },
  {
   "property": "C133",
   "status": "partial",
   "theorems": [
    "Verif.Props.C133_grammar",
    "Verif.Props.C133_in_place_partial",
    "Verif.Props.C133_replay",
    "Verif.Props.C133_rejected",
    "Verif.Props.C133_wrong_value",
    "Verif.Props.C133_relative_counterexample",
    "Verif.Props.C133_name_counterexample"
   ],
   "note": "Proved for -inc and for -i with plain names or absolute paths; false of the code for -i with a relative path holding a directory, and the output of -i a.cs -inc s.txt is named after s.txt (counterexamples). Abbreviated options and values joined to options are not modelled; numbers are those written plainly."
  },
  {
   "property": "C134",
   "status": "partial",
   "theorems": [
    "Verif.Props.C134_request",
    "Verif.Props.C134_plots",
    "Verif.Props.C134_demo",
    "Verif.Props.C134_empty_counterexample",
    "Verif.Props.C134_moved_counterexample"
   ],
   "note": "Actions, their order, and the saved command are proved for all commands; repetition from another directory and main([]) are false of the code (counterexamples)."
  },
  {
   "property": "C135",
   "status": "partial",
   "theorems": [
    "Verif.Props.C135_rows_partial",
    "Verif.Props.C135_poisson",
    "Verif.Props.C135_fit",
    "Verif.Props.C135_apart",
    "Verif.Props.C135_hidden",
    "Verif.Props.C135_defined",
    "Verif.Props.C135_blank_counterexample"
   ],
   "note": "Rows, texts and drawn ages are proved for all sets of plots; the claim that no row is empty is false of the code (counterexample)."
  },
  {
   "property": "C136",
   "status": "partial",
   "theorems": [
    "Verif.Props.C136_neighbours",
    "Verif.Props.C136_elsewhere",
    "Verif.Props.C136_defined",
    "Verif.Props.C136_outlines_partial",
    "Verif.Props.C136_holes_counterexample"
   ],
   "note": "Lines to neighbours fully proved; outlines proved for the outer boundary of every piece. Missing: holes are not outlined (counterexample)."
  },
  {
   "property": "C137",
   "status": "partial",
   "theorems": [
    "Verif.Props.C137_grid_partial",
    "Verif.Props.C137_map_partial",
    "Verif.Props.C137_corner_counterexample",
    "Verif.Props.C137_wide_counterexample",
    "Verif.Props.C137_pole_counterexample",
    "Verif.Props.C137_dateline_counterexample"
   ],
   "note": "Proved when both corners have a place on the body, of different longitude and latitude. Missing (counterexamples): wide areas, areas centred at a pole, areas across the 180 degree meridian."
  },
  {
   "property": "C138",
   "status": "proved",
   "theorems": [
    "Verif.Props.C138_size",
    "Verif.Props.C138_numbers",
    "Verif.Props.C138_scale",
    "Verif.Props.C138_inside"
   ],
   "note": "For positive dimensions. The figure is larger than the room asked for by the margins; with three or more numbers there is an error."
  },
  {
   "property": "C139",
   "status": "partial",
   "theorems": [
    "Verif.Props.C139_density_partial",
    "Verif.Props.C139_flat_counterexample"
   ],
   "note": "Slopes of at least 1e-5; below, the value is smaller than the density (counterexample)."
  },
  {
   "property": "C14",
   "status": "proved",
   "theorems": [
    "Verif.Props.C14_construct",
    "Verif.Props.C14_increasing_and_rate"
   ],
   "note": "all coefficient lists accepted by the constructor; real arithmetic"
  },
  {
   "property": "C140",
   "status": "partial",
   "theorems": [
    "Verif.Props.C140_full_name_partial",
    "Verif.Props.C140_supplied",
    "Verif.Props.C140_malformed",
    "Verif.Props.C140_bracket_counterexample"
   ],
   "note": "Every name of the supplied list selects itself; names of other lists do unless an entry not longer has the same characters, brackets apart (counterexample). Malformed texts are an uncaught error, without the message."
  },
  {
   "property": "C141",
   "status": "partial",
   "theorems": [
    "Verif.Props.C141_display_partial",
    "Verif.Props.C141_plots",
    "Verif.Props.C141_legend"
   ],
   "note": "All display options, the legend and all properties of plots; the axis ranges of Hartmann plots and a text halo of 0 are not used as given (C59 counterexamples). The source of a plot is stated for -i files given without directory or with an absolute one, as in C42."
  },
  {
   "property": "C142",
   "status": "partial",
   "theorems": [
    "Verif.Props.C142_plots",
    "Verif.Props.C142_analysis_partial",
    "Verif.Props.C142_measure",
    "Verif.Props.C142_trials_counterexample",
    "Verif.Props.C142_table_counterexample"
   ],
   "note": "Plots other than uncertainty plots: complete, for every command.  Analyses: one image format (C111 shows what happens with several), names without anything like an extension, a number of trials other than 0.  The default name without -o and -i is C58."
  },
  {
   "property": "C143",
   "status": "partial",
   "theorems": [
    "Verif.Props.C143_shading_partial",
    "Verif.Props.C143_texts",
    "Verif.Props.C143_caption_partial",
    "Verif.Props.C143_bracket_counterexample"
   ],
   "note": "shading proved for limits on the axes (limits outside: C87); caption proved but for its closing bracket, which is missing from 1 km on"
  },
  {
   "property": "C144",
   "status": "partial",
   "theorems": [
    "Verif.Props.C144_age_partial",
    "Verif.Props.C144_same_partial",
    "Verif.Props.C144_fractions_partial",
    "Verif.Props.C144_reference_counterexample",
    "Verif.Props.C144_buffered_counterexample"
   ],
   "note": "Counted craters, expected numbers and order independence proved for all .diam texts covered by C33/C103; the last sentence is false of the code: reference areas and perimeters of .diam files are not used by Poisson ages (counterexamples)."
  },
  {
   "property": "C145",
   "status": "proved",
   "theorems": [
    "Verif.Props.C145_ranges",
    "Verif.Props.C145_areas",
    "Verif.Props.C145_ranges_partial",
    "Verif.Props.C145_areas_partial"
   ],
   "note": "The theorems with the suffix _partial hold for every number of samples and craters but assume that no artificial peak is inserted (raw likelihood at least 1e-30); the others derive this for 5000 samples."
  },
  {
   "property": "C146",
   "status": "partial",
   "theorems": [
    "Verif.Props.C146_rows_partial",
    "Verif.Props.C146_written",
    "Verif.Props.C146_file_partial",
    "Verif.Props.C146_range_counterexample",
    "Verif.Props.C146_created"
   ],
   "note": "Missing: rows of fits and of buffered counts; counts from .stat tables, whose numbers are shown with the default text of a float; names with commas (C48). The last sentence of the statement is false."
  },
  {
   "property": "C147",
   "status": "partial",
   "theorems": [
    "Verif.Props.C147_rows_partial",
    "Verif.Props.C147_written",
    "Verif.Props.C147_mixed_counterexample"
   ],
   "note": "partial: names without commas and line breaks, plots with a name; false for mixtures ending in a fit (counterexample)"
  },
  {
   "property": "C148",
   "status": "partial",
   "theorems": [
    "Verif.Props.C148_poisson_partial",
    "Verif.Props.C148_cumulative_partial",
    "Verif.Props.C148_fit_partial",
    "Verif.Props.C148_text_partial",
    "Verif.Props.C148_gap_counterexample",
    "Verif.Props.C148_presentation_counterexample"
   ],
   "note": "partial: printed digits for pseudo-log binning and fewer than 100000 whole craters (the age is that on the area stated by the file, which is correct to 6 parts in 10000), otherwise exact numbers instead of printed digits; ranges with limits at occupied bins; fits for cumulative presentation and complete craters. False at gaps and in other presentations (counterexamples)"
  },
  {
   "property": "C149",
   "status": "partial",
   "theorems": [
    "Verif.Props.C149_outside_partial",
    "Verif.Props.C149_more_craters_partial",
    "Verif.Props.C149_more_area_partial"
   ],
   "note": "partial: files of the form of C103; the order for resolved likelihoods only (at most a million craters, expected numbers reaching from one or the number counted to that number) - beyond it is false, see C25_more_craters_counterexample"
  },
  {
   "property": "C15",
   "status": "proved",
   "theorems": [
    "Verif.Props.C15_age_inversion"
   ],
   "note": "interpolation on the 1000-point grid, error bound included in the statement"
  },
  {
   "property": "C150",
   "status": "partial",
   "theorems": [
    "Verif.Props.C150_converted_partial",
    "Verif.Props.C150_buffered_partial",
    "Verif.Props.C150_merged_partial",
    "Verif.Props.C150_large_area_counterexample"
   ],
   "note": "partial: areas and perimeters printed without exponent; false for areas of a million km² or more (counterexample)"
  },
  {
   "property": "C151",
   "status": "partial",
   "theorems": [
    "Verif.Props.C151_age_partial",
    "Verif.Props.C151_buffered_partial",
    "Verif.Props.C151_plots_partial",
    "Verif.Props.C151_order_partial",
    "Verif.Props.C151_converted_partial",
    "Verif.Props.C151_radii"
   ],
   "note": "partial: polygons with positive area and consistent overlap; geometry of polygons (spherely) and map projection are data; diameter ranges up to half the circumference of the body; conversion for ages without buffering"
  },
  {
   "property": "C152",
   "status": "partial",
   "theorems": [
    "Verif.Props.C152_plots",
    "Verif.Props.C152_table_partial",
    "Verif.Props.C152_file_partial",
    "Verif.Props.C152_whole",
    "Verif.Props.C152_unsnapped",
    "Verif.Props.C152_snapped"
   ],
   "note": "partial: names, sources and binnings without comma, quotes or line break, as in C48; input file with an absolute or empty directory (PlainInput); the resurfacing correction and curve fits are external functions (C84); C152_file for lists of craters in .diam files; which tables cannot be made is in C147"
  },
  {
   "property": "C153",
   "status": "partial",
   "theorems": [
    "Verif.Props.C153_list",
    "Verif.Props.C153_system",
    "Verif.Props.C153_file_partial",
    "Verif.Props.C153_table_partial"
   ],
   "note": "partial: C153_file for polynomials with 0 < range, C153_table for tables of positive increments, chronologies with nonnegative coefficients and N(1 Ga) ≠ 1, .diam files, and names as in C152; the list needs two definitions of each kind (C60); names of systems without line break"
  },
  {
   "property": "C154",
   "status": "partial",
   "theorems": [
    "Verif.Props.C154_functions",
    "Verif.Props.C154_typed_partial",
    "Verif.Props.C154_symbols",
    "Verif.Props.C154_printed",
    "Verif.Props.C154_single_counterexample"
   ],
   "note": "partial: at least two entries of each kind (one entry: counterexample); C154_typed for names without star and with closed brackets, and without another name at most as long having the same characters in this order (C140_bracket_counterexample shows that this is needed); names of equilibrium functions and epochs are printed, their selection is C60 and C140; lines printed before an error are not modelled"
  },
  {
   "property": "C155",
   "status": "partial",
   "theorems": [
    "Verif.Props.C155_listed",
    "Verif.Props.C155_densities_partial",
    "Verif.Props.C155_choice",
    "Verif.Props.C155_drawn"
   ],
   "note": "C155_densities_partial: exact arithmetic, the least-squares fit to one point assumed to find the minimum (CurveFitSpec), and ages only given for densities which some age of the chronology reaches."
  },
  {
   "property": "C156",
   "status": "partial",
   "theorems": [
    "Verif.Props.C156_fit",
    "Verif.Props.C156_exists",
    "Verif.Props.C156_command_partial"
   ],
   "note": "C156_fit and C156_exists are stated for all lists of craters. C156_command_partial leaves out names of plots which do not fit in a field of the table (C48, C152: the code writes commas as they are), names of input files which change the defaults of the plots (C141), fits with correction for resurfacing (C11) and chronologies with negative numbers (C15)."
  },
  {
   "property": "C157",
   "status": "partial",
   "theorems": [
    "Verif.Props.C157_fit",
    "Verif.Props.C157_exists",
    "Verif.Props.C157_command_partial"
   ],
   "note": "C157_fit and C157_exists are stated for all lists of craters. C157_command_partial leaves out what C156_command_partial leaves out, production functions given by tables (C160), and curves which do not fall in a bin of the fit (the code takes the logarithm of a negative number)."
  },
  {
   "property": "C158",
   "status": "partial",
   "theorems": [
    "Verif.Props.C158_fit",
    "Verif.Props.C158_exists",
    "Verif.Props.C158_command_partial"
   ],
   "note": "C158_fit and C158_exists are stated for all lists of craters. If the logarithm of the fitted density is exactly 0, the code takes the curve of the function's own first number instead (C18); the statement says so. C158_command_partial leaves out names of plots which do not fit in a field of the table (C48, C152), names of input files which change the defaults of the plots (C141) and chronologies with negative numbers (C15). That the amount need not be the converged one is shown in C102."
  },
  {
   "property": "C159",
   "status": "partial",
   "theorems": [
    "Verif.Props.C159_range",
    "Verif.Props.C159_command_partial"
   ],
   "note": "C159_range is stated for all lists of craters. C159_command_partial leaves out names of plots which do not fit in a field of the table (C48, C152) and names of input files which change the defaults of the plots (C141)."
  },
  {
   "property": "C16",
   "status": "proved",
   "theorems": [
    "Verif.Props.C16_scaling",
    "Verif.Props.C16_at_1km"
   ],
   "note": "polynomial and tabular functions, all presentations"
  },
  {
   "property": "C160",
   "status": "partial",
   "theorems": [
    "Verif.Props.C160_density",
    "Verif.Props.C160_command_partial",
    "Verif.Props.C160_single"
   ],
   "note": "C160_density is stated for all tables of two or more positive increments. C160_command_partial leaves out names of plots which do not fit in a field of the table (C48, C152), names of input files which change the defaults of the plots (C141), chronologies with negative numbers (C15) and tables of a single increment (the code has no slope for them, C160_single)."
  },
  {
   "property": "C161",
   "status": "partial",
   "theorems": [
    "Verif.Props.C161_strip",
    "Verif.Props.C161_offset",
    "Verif.Props.C161_forced_counterexample"
   ],
   "note": "Stated for plots which all have data points, with the automatic y axis; with a y range given by the user it is false (counterexample). Plots without data points are treated in C46."
  },
  {
   "property": "C162",
   "status": "partial",
   "theorems": [
    "Verif.Props.C162_cumulative",
    "Verif.Props.C162_differential",
    "Verif.Props.C162_resurfacing"
   ],
   "note": "Stated for files with lists of craters; prebinned files are not covered. With resurfacing correction only equal factors of craters and area are covered, as the rounds of the correction end at an absolute difference (C102_density_counterexample). The differential statement needs a production function which falls in every bin with craters."
  },
  {
   "property": "C163",
   "status": "partial",
   "theorems": [
    "Verif.Props.C163_area_cumulative",
    "Verif.Props.C163_area_differential",
    "Verif.Props.C163_craters_counterexample"
   ],
   "note": "Larger areas: stated for files with lists of craters, without resurfacing correction for cumulative fits, and for production functions which fall in every bin with craters for differential fits. More craters: false for cumulative fits (counterexample)."
  },
  {
   "property": "C17",
   "status": "proved",
   "theorems": [
    "Verif.Props.C17_derivative",
    "Verif.Props.C17_nonpositive"
   ],
   "note": "polynomial functions: HasDerivAt"
  },
  {
   "property": "C18",
   "status": "partial",
   "theorems": [
    "Verif.Props.C18_evaluate_partial",
    "Verif.Props.C18_zero_counterexample"
   ],
   "note": "an explicit a0 of exactly 0 is treated as missing (Productionfn.py:83); counterexample proved"
  },
  {
   "property": "C19",
   "status": "proved",
   "theorems": [
    "Verif.Props.C19_tabular_cumulative",
    "Verif.Props.C19_tabular_hartmann",
    "Verif.Props.C19_tabular_differential"
   ],
   "note": "every accepted table"
  },
  {
   "property": "C20",
   "status": "proved",
   "theorems": [
    "Verif.Props.C20_fit_minimises",
    "Verif.Props.C20_fit_recovers",
    "Verif.Props.C20_fit_scales",
    "Verif.Props.C20_empty",
    "Verif.Props.C20_cumulative_applies",
    "Verif.Props.curveFitSpec_satisfiable"
   ],
   "note": "scipy curve_fit is a parameter assumed to return the minimiser (CurveFitSpec, shown satisfiable)"
  },
  {
   "property": "C21",
   "status": "partial",
   "theorems": [
    "Verif.Props.C21_cumulative_fit",
    "Verif.Props.C21_brackets_partial",
    "Verif.Props.C21_cumulative_applies",
    "Verif.Props.C21_differential_counterexample"
   ],
   "note": "every cumulative fit is bracketed; false for differential fits with a single crater in the first bin (counterexample proved)"
  },
  {
   "property": "C22",
   "status": "partial",
   "theorems": [
    "Verif.Props.C22_curve",
    "Verif.Props.C22_curve_defined",
    "Verif.Props.C22_default_range",
    "Verif.Props.C22_isochron_partial",
    "Verif.Props.C22_isochron_defined",
    "Verif.Props.C22_wrap_counterexample"
   ],
   "note": "points below the first equilibrium sample are compared with the last one (index -1 wraps); counterexample proved"
  },
  {
   "property": "C23",
   "status": "proved",
   "theorems": [
    "Verif.Props.C23_likelihood",
    "Verif.Props.C23_shape",
    "Verif.Props.C23_defined",
    "Verif.Props.C23_defined_buffered",
    "Verif.Props.likelihood_example"
   ],
   "note": "list sums over the discretised likelihood"
  },
  {
   "property": "C24",
   "status": "proved",
   "theorems": [
    "Verif.Props.C24_percentiles_ordered",
    "Verif.Props.C24_reported_age"
   ],
   "note": "interp monotone in cumulative fraction; reported triple ordered"
  },
  {
   "property": "C25",
   "status": "partial",
   "theorems": [
    "Verif.Props.C25_more_craters",
    "Verif.Props.C25_more_area",
    "Verif.Props.C25_more_area_buffered",
    "Verif.Props.C25_resolved",
    "Verif.Props.C25_more_craters_partial",
    "Verif.Props.C25_more_area_partial",
    "Verif.Props.C25_applies",
    "Verif.Props.C25_more_craters_counterexample"
   ],
   "note": "proved for counts up to a million expected for ages within the grid, and for all likelihoods whose raw sum is at least 1e-30; false where only one of two likelihoods is resolved and the other has the artificial peak (witness: two samples, 61 and 62 craters)"
  },
  {
   "property": "C26",
   "status": "partial",
   "theorems": [
    "Verif.Props.C26_sum_partial",
    "Verif.Props.C26_not_complementary_counterexample"
   ],
   "note": "false of the code: np.roll wraps, the two probabilities sum to 1+(p0+q0)/2; exact defect proved"
  },
  {
   "property": "C27",
   "status": "proved",
   "theorems": [
    "Verif.Props.C27_percentiles"
   ],
   "note": "erf defined by its integral"
  },
  {
   "property": "C28",
   "status": "partial",
   "theorems": [
    "Verif.Props.C28_bin_average_partial",
    "Verif.Props.C28_symmetric",
    "Verif.Props.C28_zero_slope_counterexample"
   ],
   "note": "for |k|<1e-5 the code returns 1, the true value at k=0 is ln(beta)/(sqrt(beta)-1/sqrt(beta)) < 1"
  },
  {
   "property": "C29",
   "status": "proved",
   "theorems": [
    "Verif.Props.C29_geometric",
    "Verif.Props.C29_area_fraction",
    "Verif.Props.C29_inverse"
   ],
   "note": "area fraction proved equal to the integral for the disc segment"
  },
  {
   "property": "C30",
   "status": "proved",
   "theorems": [
    "Verif.Props.C30_split",
    "Verif.Props.C30_parent"
   ],
   "note": "filename() modelled on the regular expression engine; all strings without line break, all Unicode class tables agreeing with ASCII"
  },
  {
   "property": "C31",
   "status": "partial",
   "theorems": [
    "Verif.Props.C31_roundtrip_partial",
    "Verif.Props.C31_options",
    "Verif.Props.C31_empty_counterexample",
    "Verif.Props.C31_mark_counterexample"
   ],
   "note": "holds except for the single empty line and a first line beginning with a byte order mark (witnesses)"
  },
  {
   "property": "C32",
   "status": "partial",
   "theorems": [
    "Verif.Props.C32_content",
    "Verif.Props.C32_comment",
    "Verif.Props.C32_unchanged_partial",
    "Verif.Props.C32_idempotent",
    "Verif.Props.C32_apostrophe_counterexample"
   ],
   "note": "prefix, quoted semicolons, removal from the first unquoted semicolon and idempotence hold for all lines; a line without semicolon is unchanged only if its quotations are closed (witness)"
  },
  {
   "property": "C33",
   "status": "partial",
   "theorems": [
    "Verif.Props.C33_read_partial",
    "Verif.Props.C33_blank",
    "Verif.Props.C33_repeats_partial",
    "Verif.Props.C33_value_partial",
    "Verif.Props.C33_list_counterexample",
    "Verif.Props.C33_empty_counterexample",
    "Verif.Props.C33_tab_counterexample",
    "Verif.Props.C33_empty_array_counterexample",
    "Verif.Props.C33_blocks_counterexample"
   ],
   "note": "Every text of definitions (simple values, quoted texts, arrays, tables, starred values, pointers, blocks of text, nested structures, any indentation and blank lines; the grammar TextOf is stated without the reader's functions) reads as the dictionary of its definitions: a name occurring once gives its value and a repeated name the list of its values in file order. Missing: repeated names whose last value is an array (false, shown), empty values, empty arrays and tabs before the equals sign (false, shown); of several blocks of text with no structure between them only the first is kept (false, shown)."
  },
  {
   "property": "C34",
   "status": "partial",
   "theorems": [
    "Verif.Props.C34_table_partial",
    "Verif.Props.C34_blank_counterexample"
   ],
   "note": "Every table with distinct column names and rows of simple fields gives the columns in order, one entry per row. Missing: blank rows (IndexError, shown)."
  },
  {
   "property": "C35",
   "status": "partial",
   "theorems": [
    "Verif.Props.C35_fields_partial",
    "Verif.Props.C35_writable",
    "Verif.Props.C35_backslash_counterexample"
   ],
   "note": "Every row of fields without line ends, quoted when needed, splits back into the fields. Missing: quoted fields ending in a backslash (false, shown)."
  },
  {
   "property": "C36",
   "status": "proved",
   "theorems": [
    "Verif.Props.C36_sigfigs"
   ],
   "note": "exact rationals stand for floats; the text denotes the number rounded (ties to even) to the given significant digits"
  },
  {
   "property": "C37",
   "status": "proved",
   "theorems": [
    "Verif.Props.C37_age",
    "Verif.Props.C37_errors"
   ],
   "note": "all ages and units, with and without errors, plain, simple and MathML forms; one figure with errors is excluded (sigfigs then fails)"
  },
  {
   "property": "C38",
   "status": "proved",
   "theorems": [
    "Verif.Props.C38_diameter_range"
   ],
   "note": "exact rationals stand for floats"
  },
  {
   "property": "C39",
   "status": "partial",
   "theorems": [
    "Verif.Props.C39_replay_partial",
    "Verif.Props.C39_empty_counterexample",
    "Verif.Props.C39_joined_counterexample",
    "Verif.Props.C39_linebreak_counterexample"
   ],
   "note": "holds for arguments which are not empty and have no line breaks, option-like ones without white space, quotes or backslashes; fails otherwise (witnesses)"
  },
  {
   "property": "C40",
   "status": "proved",
   "theorems": [
    "Verif.Props.C40_items",
    "Verif.Props.C40_roundtrip",
    "Verif.Props.C40_collect"
   ],
   "note": "every text has exactly one decomposition into items; round trip for word keys and values without '='"
  },
  {
   "property": "C41",
   "status": "proved",
   "theorems": [
    "Verif.Props.C41_abbreviation",
    "Verif.Props.C41_full_name"
   ],
   "note": "Every abbreviation without stars and unmatched brackets; full stops stand for any character, brackets are ignored (C140). The special characters \\ [ + ? | ^ $ of patterns are not modelled."
  },
  {
   "property": "C42",
   "status": "partial",
   "theorems": [
    "Verif.Props.C42_carried",
    "Verif.Props.C42_own",
    "Verif.Props.C42_source_partial",
    "Verif.Props.C42_accepted",
    "Verif.Props.C42_type_counterexample",
    "Verif.Props.C42_source_counterexample"
   ],
   "note": "the type is carried over even when the source changes; a relative -i directory is put in front of a carried source repeatedly"
  },
  {
   "property": "C43",
   "status": "proved",
   "theorems": [
    "Verif.Props.C43_selection"
   ],
   "note": "all selection strings"
  },
  {
   "property": "C44",
   "status": "partial",
   "theorems": [
    "Verif.Props.C44_suffixes_partial",
    "Verif.Props.C44_manual_counterexample"
   ],
   "note": "the suffix letters of the help text (h, a, s) work; the manual's n does not, the item is dropped silently"
  },
  {
   "property": "C45",
   "status": "partial",
   "theorems": [
    "Verif.Props.C45_ticks_partial",
    "Verif.Props.C45_two_ticks_counterexample"
   ],
   "note": "loop never ends for max_ticks<=2 (not None/0) with zero strictly inside the range; otherwise proved"
  },
  {
   "property": "C46",
   "status": "partial",
   "theorems": [
    "Verif.Props.C46_autoscale_partial",
    "Verif.Props.C46_order_irrelevant_partial",
    "Verif.Props.C46_empty_plot_counterexample",
    "Verif.Props.C46_no_ranges_counterexample"
   ],
   "note": "false when a plot without data points comes first or no plot delivers a range"
  },
  {
   "property": "C47",
   "status": "partial",
   "theorems": [
    "Verif.Props.C47_legend_partial",
    "Verif.Props.C47_lost_series_counterexample",
    "Verif.Props.C47_suppressed"
   ],
   "note": "Correct when the legend shows craters, range or N, or no fit is drawn; otherwise a data series followed by a fit is lost (counterexample)."
  },
  {
   "property": "C48",
   "status": "partial",
   "theorems": [
    "Verif.Props.C48_table_partial",
    "Verif.Props.C48_mixture_counterexample",
    "Verif.Props.C48_comma_counterexample"
   ],
   "note": "Proved: rows, order, ranks and fields for comma-free texts when the range chosen from the last age exists for every age. False otherwise: TypeError for a Poisson age followed by a fit; a comma in a name adds a field; every row has one field more than the headings."
  },
  {
   "property": "C49",
   "status": "proved",
   "theorems": [
    "Verif.Props.C49_time_axis"
   ],
   "note": "real arithmetic; label texts not modelled"
  },
  {
   "property": "C50",
   "status": "partial",
   "theorems": [
    "Verif.Props.C50_merge_partial",
    "Verif.Props.C50_merge_order",
    "Verif.Props.C50_refused",
    "Verif.Props.C50_diam_counterexample"
   ],
   "note": "Merging works for counts with perimeter; .diam sources always fail."
  },
  {
   "property": "C51",
   "status": "proved",
   "theorems": [
    "Verif.Props.C51_configuration",
    "Verif.Props.C51_no_room",
    "Verif.Props.C51_ends"
   ],
   "note": "Placement of random craters on a sphere given by any symmetric distance and complete search by cone: exactly the requested circles, in order, none overlapping an earlier one; without room the search never ends, with room left it ends as soon as candidates hit it."
  },
  {
   "property": "C52",
   "status": "proved",
   "theorems": [
    "Verif.Props.C52_exact",
    "Verif.Props.C52_found",
    "Verif.Props.C52_filed"
   ],
   "note": "Distances to the k-th neighbours equal those by exhaustive comparison, for every complete, duplicate-free search by cone; the widening search finds them whenever there are k neighbours."
  },
  {
   "property": "C53",
   "status": "proved",
   "theorems": [
    "Verif.Props.C53_stats",
    "Verif.Props.C53_exists",
    "Verif.Props.C53_order",
    "Verif.Props.C53_monotone"
   ],
   "note": "Percentile, mean and standard deviations: independent of the order of trials, count of smaller trials, monotone."
  },
  {
   "property": "C54",
   "status": "partial",
   "theorems": [
    "Verif.Props.C54_resume_partial",
    "Verif.Props.C54_once",
    "Verif.Props.C54_write_counterexample"
   ],
   "note": "Resuming over any sequence of interrupted runs between measures; a run stopped while the file is being written loses everything or makes later runs fail (counterexample)."
  },
  {
   "property": "C55",
   "status": "partial",
   "theorems": [
    "Verif.Props.C55_streams_partial",
    "Verif.Props.C55_one_worker",
    "Verif.Props.C55_repeated_counterexample",
    "Verif.Props.C55_distinct_counterexample",
    "Verif.Props.C55_schedule_counterexample"
   ],
   "note": "With separate streams (or one worker) the trials are those of a serial run; as started by the program (forked workers sharing the generator state) trials repeat, and results depend on the schedule."
  },
  {
   "property": "C56",
   "status": "partial",
   "theorems": [
    "Verif.Props.C56_roundtrip_partial",
    "Verif.Props.C56_no_bins_counterexample"
   ],
   "note": "Write then read, through the line reader, comment stripper and structured text reader; values to seven significant digits. Fails for a measure without bins (counterexample)."
  },
  {
   "property": "C57",
   "status": "partial",
   "theorems": [
    "Verif.Props.C57_rings_partial",
    "Verif.Props.C57_every_ring_partial",
    "Verif.Props.C57_multipart_counterexample",
    "Verif.Props.C57_island_counterexample"
   ],
   "note": "Round trip through the text of the file, for shapes whose further rings lie within the first ring and whose later shapes do not lie within an earlier outline. False without these conditions: a second separate part of a shape is lost, an island inside a hole becomes a hole of the surrounding area as well."
  },
  {
   "property": "C58",
   "status": "partial",
   "theorems": [
    "Verif.Props.C58_options_partial",
    "Verif.Props.C58_default",
    "Verif.Props.C58_order",
    "Verif.Props.C58_name",
    "Verif.Props.C58_format_counterexample",
    "Verif.Props.C58_directory_counterexample"
   ],
   "note": "names and formats as stated, except: with -f the extension of -o is lost, and -o naming an existing directory always ends in a NameError"
  },
  {
   "property": "C59",
   "status": "partial",
   "theorems": [
    "Verif.Props.C59_settings_partial",
    "Verif.Props.C59_presentation",
    "Verif.Props.C59_legend",
    "Verif.Props.C59_hartmann",
    "Verif.Props.C59_halo_counterexample",
    "Verif.Props.C59_hartmann_counterexample"
   ],
   "note": "all display options and presentations; -text_halo 0 is overridden by the default, axis ranges of Hartmann plots are always replaced; a buffered fit adds p to a legend with a"
  },
  {
   "property": "C60",
   "status": "partial",
   "theorems": [
    "Verif.Props.C60_lookup_partial",
    "Verif.Props.C60_system",
    "Verif.Props.C60_body",
    "Verif.Props.C60_single_counterexample"
   ],
   "note": "first definition by name for sources with several named definitions, and the body's surface area; a source with a single definition of the kind fails with a TypeError"
  },
  {
   "property": "C61",
   "status": "proved",
   "theorems": [
    "Verif.Props.C61_boundary_times",
    "Verif.Props.C61_definition"
   ],
   "note": "Boundary times derived from densities; order is strict except beyond the end of the chronology (5 Ga)."
  },
  {
   "property": "C62",
   "status": "partial",
   "theorems": [
    "Verif.Props.C62_range_partial",
    "Verif.Props.C62_empty_counterexample"
   ],
   "note": "empty vector: magnitude is the pair (nan,nan)"
  },
  {
   "property": "C63",
   "status": "partial",
   "theorems": [
    "Verif.Props.C63_scl",
    "Verif.Props.C63_reversed",
    "Verif.Props.C63_default_input",
    "Verif.Props.C63_named_types",
    "Verif.Props.C63_both_counterexample"
   ],
   "note": "input and output ranges in either direction; tname together with out_range always fails"
  },
  {
   "property": "C64",
   "status": "proved",
   "theorems": [
    "Verif.Props.C64_n_sigma"
   ],
   "note": ""
  },
  {
   "property": "C65",
   "status": "proved",
   "theorems": [
    "Verif.Props.C65_panels",
    "Verif.Props.C65_selected",
    "Verif.Props.C65_reading_order"
   ],
   "note": ""
  },
  {
   "property": "C66",
   "status": "proved",
   "theorems": [
    "Verif.Props.C66_rows"
   ],
   "note": ""
  },
  {
   "property": "C67",
   "status": "proved",
   "theorems": [
    "Verif.Props.C67_progress"
   ],
   "note": "branch with a progress queue; the progressbar library is not modelled"
  },
  {
   "property": "C68",
   "status": "proved",
   "theorems": [
    "Verif.Props.C68_bin_range",
    "Verif.Props.C68_open_ends"
   ],
   "note": "aligned ranges and open ends (0, infinity, resurfacing)"
  },
  {
   "property": "C69",
   "status": "proved",
   "theorems": [
    "Verif.Props.C69_plotted_chronology"
   ],
   "note": "both axis types"
  },
  {
   "property": "C70",
   "status": "partial",
   "theorems": [
    "Verif.Props.C70_forced_array_counterexample",
    "Verif.Props.C70_never_written_counterexample",
    "Verif.Props.C70_error_counterexample",
    "Verif.Props.C70_buffered_ignored_counterexample"
   ],
   "note": "False of the code, for every plot set: 'if not lam' raises for arrays with two or more entries, so create_sequence_table never completes; buffered plots are not selected (their type is 'b-poisson', the code asks for 'buffered-poisson'); and main never calls it (option -st has no effect)."
  },
  {
   "property": "C71",
   "status": "partial",
   "theorems": [
    "Verif.Props.C71_minor_limit_counterexample"
   ],
   "note": "false of the code for every successful call: the limit acts as a lower bound"
  },
  {
   "property": "C72",
   "status": "partial",
   "theorems": [
    "Verif.Props.C72_base_name_partial",
    "Verif.Props.C72_bracket_counterexample",
    "Verif.Props.C72_list_counterexample"
   ],
   "note": "holds when the base name consists of the characters the pattern allows; brackets and other characters break it"
  },
  {
   "property": "C73",
   "status": "partial",
   "theorems": [
    "Verif.Props.C73_names",
    "Verif.Props.C73_hex",
    "Verif.Props.C73_accepted",
    "Verif.Props.C73_index_counterexample"
   ],
   "note": "names, codes and hexadecimal values; the documented indices do not work"
  },
  {
   "property": "C74",
   "status": "partial",
   "theorems": [
    "Verif.Props.C74_files_partial",
    "Verif.Props.C74_uncertainty_counterexample",
    "Verif.Props.C74_table_counterexample"
   ],
   "note": "Also with randomness analysis; uncertainty plots write another set for the second image format, and no table; no table without ages."
  },
  {
   "property": "C75",
   "status": "proved",
   "theorems": [
    "Verif.Props.C75_epoch_labels"
   ],
   "note": "All increasing boundary lists and axis limits, linear and logarithmic axis."
  },
  {
   "property": "C76",
   "status": "partial",
   "theorems": [
    "Verif.Props.C76_captions_counterexample"
   ],
   "note": "The property is false of the code: for every table the captions stand one column too far left (proved negation)."
  },
  {
   "property": "C77",
   "status": "partial",
   "theorems": [
    "Verif.Props.C77_craters_partial",
    "Verif.Props.C77_fraction_counterexample"
   ],
   "note": "All craters survive with the printed digits, in order of diameter. The fractions do not: the reader looks for them in the wrong dictionary and gives every crater the fraction 1."
  },
  {
   "property": "C78",
   "status": "partial",
   "theorems": [
    "Verif.Props.C78_converted_partial",
    "Verif.Props.C78_large_area_counterexample"
   ],
   "note": "Holds for areas and perimeters that the format writes without an exponent. An area of a million square kilometres or more is written with an exponent and read as less than ten."
  },
  {
   "property": "C79",
   "status": "partial",
   "theorems": [
    "Verif.Props.C79_merged_partial",
    "Verif.Props.C79_merge_again_counterexample"
   ],
   "note": "Craters, fractions and area survive. The perimeter is written but never read, so that a merged file cannot be merged again."
  },
  {
   "property": "C80",
   "status": "proved",
   "theorems": [
    "Verif.Props.C80_counted",
    "Verif.Props.C80_adjacent_ranges"
   ],
   "note": "Additivity for crater lists; for binned counts the number is that of the bins between the limits."
  },
  {
   "property": "C81",
   "status": "proved",
   "theorems": [
    "Verif.Props.C81_expected",
    "Verif.Props.C81_expected_buffered"
   ],
   "note": "Density of a 1 Ga surface not exactly 1 (evaluate treats a0 = 0 as missing, C18); quadrature rule assumed homogeneous for buffered counts."
  },
  {
   "property": "C82",
   "status": "proved",
   "theorems": [
    "Verif.Props.C82_reported",
    "Verif.Props.C82_defined"
   ],
   "note": "Chronologies with non-negative exponential and positive linear part."
  },
  {
   "property": "C83",
   "status": "partial",
   "theorems": [
    "Verif.Props.C83_poisson_partial",
    "Verif.Props.C83_fit_partial",
    "Verif.Props.C83_other_diameter_counterexample"
   ],
   "note": "Holds for reference diameter 1 km only: legend and table always show 10^a0, i.e. N(1), under the name N(d)."
  },
  {
   "property": "C84",
   "status": "proved",
   "theorems": [
    "Verif.Props.C84_ratio"
   ],
   "note": ""
  },
  {
   "property": "C85",
   "status": "proved",
   "theorems": [
    "Verif.Props.C85_age_axis",
    "Verif.Props.C85_grid"
   ],
   "note": "time axes from C49; drawing itself not modelled"
  },
  {
   "property": "C86",
   "status": "proved",
   "theorems": [
    "Verif.Props.C86_cell",
    "Verif.Props.C86_monotone",
    "Verif.Props.C86_defined",
    "Verif.Props.C86_grid"
   ],
   "note": "exact reals; numpy's poisson is a parameter; ages with N(1 km) = 1 exactly are excluded (a0 = 0 means 'not given', C18)"
  },
  {
   "property": "C87",
   "status": "partial",
   "theorems": [
    "Verif.Props.C87_whole_globe_partial",
    "Verif.Props.C87_small_body_counterexample",
    "Verif.Props.C87_saturation_partial",
    "Verif.Props.C87_early_saturation_counterexample",
    "Verif.Props.C87_saturation_age"
   ],
   "note": "no shading when everything is beyond the limit"
  },
  {
   "property": "C88",
   "status": "partial",
   "theorems": [
    "Verif.Props.C88_default_partial",
    "Verif.Props.C88_name_counterexample",
    "Verif.Props.C88_shapefiles",
    "Verif.Props.C88_map_partial",
    "Verif.Props.C88_nothing_written_counterexample",
    "Verif.Props.C88_refused",
    "Verif.Props.C88_directory_counterexample"
   ],
   "note": "Without an output name the converted file is written under the base name of the source and reported; shapefile pairs and maps take the name asked for; formats not known are refused. False, shown: stat and scc files ignore the name asked for (only its directory is used); conversions to scc, shp and images from a source of the wrong kind write nothing but are reported as written; the word CRATER is removed from directory names as well. Missing: names containing CRATER."
  },
  {
   "property": "C89",
   "status": "proved",
   "theorems": [
    "Verif.Props.C89_value",
    "Verif.Props.C89_limits",
    "Verif.Props.C89_refused"
   ],
   "note": "both notations, all numbers and figures"
  },
  {
   "property": "C90",
   "status": "partial",
   "theorems": [
    "Verif.Props.C90_percentile_partial",
    "Verif.Props.C90_percentile_counterexample"
   ],
   "note": "false for percentiles between 99.9999 and 100"
  },
  {
   "property": "C91",
   "status": "partial",
   "theorems": [
    "Verif.Props.C91_box_partial",
    "Verif.Props.C91_proportions",
    "Verif.Props.C91_scale_partial",
    "Verif.Props.C91_time_axis",
    "Verif.Props.C91_text",
    "Verif.Props.C91_hartmann_counterexample",
    "Verif.Props.C91_small_counterexample"
   ],
   "note": "Hartmann plots ignore the height; boxes and scales below 1 cm are not obeyed; chronology plots can exceed the height"
  },
  {
   "property": "C92",
   "status": "proved",
   "theorems": [
    "Verif.Props.C92_natural"
   ],
   "note": ""
  },
  {
   "property": "C93",
   "status": "partial",
   "theorems": [
    "Verif.Props.C93_root2_partial",
    "Verif.Props.C93_unit_counterexample",
    "Verif.Props.C93_few_counterexample"
   ],
   "note": "no unit if the axis begins above 1 km; error with fewer than two powers of two"
  },
  {
   "property": "C94",
   "status": "partial",
   "theorems": [
    "Verif.Props.C94_title_partial",
    "Verif.Props.C94_title_counterexample"
   ],
   "note": "the diameter is rounded to whole km"
  },
  {
   "property": "C95",
   "status": "proved",
   "theorems": [
    "Verif.Props.C95_boundaries",
    "Verif.Props.C95_none"
   ],
   "note": "axis limits given as an array (as after autoscaling)"
  },
  {
   "property": "C96",
   "status": "partial",
   "theorems": [
    "Verif.Props.C96_bars",
    "Verif.Props.C96_shading",
    "Verif.Props.C96_axes",
    "Verif.Props.C96_ticks",
    "Verif.Props.C96_equal_counterexample"
   ],
   "note": "Proved for trials which are not all equal; if all are equal (e.g. one trial) the drawing fails, shown by the counterexample."
  },
  {
   "property": "C97",
   "status": "partial",
   "theorems": [
    "Verif.Props.C97_resolution",
    "Verif.Props.C97_side_partial",
    "Verif.Props.C97_few_trials_counterexample"
   ],
   "note": "The side is a power of two for at least sixty trials; for the whole body and fewer trials it is a fraction (counterexample)."
  },
  {
   "property": "C98",
   "status": "proved",
   "theorems": [
    "Verif.Props.C98_selection",
    "Verif.Props.C98_trials"
   ],
   "note": "The range of diameters is that of the statement; beyond it three digits do not separate the bins."
  },
  {
   "property": "C99",
   "status": "proved",
   "theorems": [
    "Verif.Props.C99_diameter",
    "Verif.Props.C99_increasing",
    "Verif.Props.C99_craters",
    "Verif.Props.C99_radii"
   ],
   "note": "Area, covering and centroid of each polygon are inputs."
  }
 ]
}
{"id": "C01", "title": "Event equalization keeps exactly the common cases", "statement": "event_equalize returns exactly the input rows whose case key (valid time, lead and, when requested, independent value) occurs in the rows selected by every permutation of the series/fixed variable values; no common case is lost and no row of a non-common case survives.", "quantifier": "every input frame (any number of rows, duplicate keys, missing values), every list of series values and every number of series/fixed variables", "why_tests_cant": "The result depends on the joint occurrence pattern of every case across a product of value lists; a test fixes one pattern.", "anchors": ["metcalcpy/event_equalize.py:event_equalize"]}
{"id": "C02", "title": "Event equalization preserves order, never invents rows and is idempotent", "statement": "The rows returned by event_equalize are a subsequence of the input rows in their original order, and equalizing the result again with the same settings changes nothing.", "quantifier": "every frame and every set of series variables/values", "why_tests_cant": "Idempotence is a statement about the output of arbitrary runs fed back in; enumerating inputs cannot settle it.", "anchors": ["metcalcpy/event_equalize.py:event_equalize"]}
{"id": "C03", "title": "Event equalization does not depend on the order in which series are listed", "statement": "Reordering the values listed for a series variable, or reordering the rows inside the frame, does not change which rows are kept.", "quantifier": "every permutation of every value list and every permutation of the rows", "why_tests_cant": "There are factorially many orderings; equality of the outcomes must hold for all of them.", "anchors": ["metcalcpy/event_equalize.py:event_equalize"]}
{"id": "C04", "title": "Equalization against stored cases keeps exactly the listed cases", "statement": "event_equalize_against_values keeps a row iff its 'valid lead' key is in the given case list, in the original order, and returns an empty frame when the valid-time column is missing or nothing matches.", "quantifier": "every frame and every list of stored cases", "why_tests_cant": "Membership filtering has to be exact for every frame/case list pair.", "anchors": ["metcalcpy/event_equalize_against_values.py:event_equalize_against_values"]}
{"id": "C05", "title": "Equalization against stored cases can be repeated on the same frame", "statement": "Calling event_equalize_against_values a second time with the same frame object succeeds and gives the same rows as the first call.", "quantifier": "every frame with the needed columns and every case list, every number of calls", "why_tests_cant": "It is a property of call histories on a shared mutable frame; each unit test builds a fresh frame.", "anchors": ["metcalcpy/event_equalize_against_values.py:event_equalize_against_values", "metcalcpy/agg_stat_eqz.py:AggStatEventEqz.perform_ee_on_axis"]}
{"id": "C06", "title": "round_half_up rounds to the nearest grid point, ties upward", "statement": "round_half_up(x, d) returns a multiple of 10^-d that is within half a unit of x; an exact tie goes to the larger neighbour; it is monotone, and rounding an already rounded number changes nothing.", "quantifier": "every real x and every number of decimals d", "why_tests_cant": "Monotonicity and idempotence range over all pairs of reals.", "anchors": ["metcalcpy/util/utils.py:round_half_up"]}
{"id": "C07", "title": "Column sums: missing data is reported, never silently ignored", "statement": "sum_column_data_by_name returns no value when the column does not exist, when the column has only missing values, or (with rm_none switched off) when any value is missing; otherwise it returns the sum of the non-missing values.", "quantifier": "every table, every column name (including duplicates) and every pattern of missing values", "why_tests_cant": "All 2^n missing patterns and all column layouts must be covered.", "anchors": ["metcalcpy/util/utils.py:sum_column_data_by_name", "metcalcpy/util/utils.py:column_data_by_name"]}
{"id": "C08", "title": "Contingency-table scores do not depend on how the counts are split over rows", "statement": "Each CTC statistic computed from several CTC rows equals the statistic of the single row whose counts are the column sums; in particular permuting rows or merging two rows does not change the score.", "quantifier": "every table with complete CTC columns, any number of rows", "why_tests_cant": "Quantifies over all tables and all partitions of the same counts.", "anchors": ["metcalcpy/util/ctc_statistics.py:calculate_baser", "metcalcpy/util/ctc_statistics.py:calculate_pody", "metcalcpy/util/ctc_statistics.py:calculate_csi"]}
{"id": "C09", "title": "Contingency-table proportions lie in [0,1]", "statement": "BASER, ACC, FMEAN, PODY, PODN, POFD, FAR and CSI, when a value is returned for non-negative counts that add up to the total, lie between 0 and 1 also after rounding.", "quantifier": "every table of non-negative counts whose four cells sum to the total in every row", "why_tests_cant": "Range claims must hold for all count combinations.", "anchors": ["metcalcpy/util/ctc_statistics.py"]}
{"id": "C10", "title": "A contingency-table score is missing exactly when its denominator vanishes", "statement": "For complete data, each CTC ratio score returns a number iff its defining denominator is non-zero, and then it is the rounded textbook ratio.", "quantifier": "every table with complete CTC columns", "why_tests_cant": "The set of degenerate tables is infinite (every table with a zero margin).", "anchors": ["metcalcpy/util/ctc_statistics.py"]}
{"id": "C11", "title": "Skill scores are 1 for a perfect forecast and never exceed 1", "statement": "GSS, HSS and HK of a table without misses and false alarms are 1 (when defined), and no table of non-negative counts yields a value above 1; HK equals PODY minus POFD.", "quantifier": "every table of non-negative counts summing to the total", "why_tests_cant": "Upper bounds need an argument for all count quadruples.", "anchors": ["metcalcpy/util/ctc_statistics.py:calculate_gss", "metcalcpy/util/ctc_statistics.py:calculate_hss", "metcalcpy/util/ctc_statistics.py:calculate_hk"]}
{"id": "C12", "title": "Complementary contingency scores add up", "statement": "PODN and POFD computed from the same data add up to 1 and the odds ratio skill score, HK and CSI/FAR/PODY identities hold, up to the documented rounding.", "quantifier": "every table of counts with the needed margins non-zero", "why_tests_cant": "Identities between separately coded functions must hold for all inputs.", "anchors": ["metcalcpy/util/ctc_statistics.py:calculate_podn", "metcalcpy/util/ctc_statistics.py:calculate_pofd", "metcalcpy/util/ctc_statistics.py:calculate_hk", "metcalcpy/util/ctc_statistics.py:calculate_orss"]}
{"id": "C13", "title": "Economic value peaks at the base rate and never exceeds the maximum value", "statement": "calculate_economic_value returns, for every cost/loss ratio in (0,1), a value not larger than the reported maximum value (hit rate minus false alarm rate) whenever hit rate >= 0 and false-alarm rate >= 0, and the curve attains it at cost/loss = base rate.", "quantifier": "every 2x2 table with non-degenerate margins and every list of cost/loss ratios", "why_tests_cant": "Cost/loss ratios range over a continuum and tables over all counts.", "anchors": ["metcalcpy/util/ctc_statistics.py:calculate_economic_value"]}
{"id": "C14", "title": "ROC area lies between 0 and 1", "statement": "The area under the ROC curve computed from non-negative per-bin yes/no counts lies in [0,1], and it is 1 when all events fall in higher bins than all non-events.", "quantifier": "every number of probability bins and every non-negative count vector with at least one event and one non-event", "why_tests_cant": "Number of bins is unbounded; needs induction over the curve.", "anchors": ["metcalcpy/util/pstd_statistics.py:calculate_pstd_roc_auc", "metcalcpy/util/pstd_statistics.py:_calc_pct_roc"]}
{"id": "C15", "title": "Scalar partial sums give the statistics of the underlying matched pairs", "statement": "When each SL1L2 row holds the partial means of a batch of matched pairs, then the aggregated FBAR, OBAR, ME, MSE, BCMSE equal the values computed directly from all pairs pooled together (before rounding).", "quantifier": "every number of batches, every batch size >= 1, all forecast/observation values", "why_tests_cant": "Refinement between batch-wise and pooled computation for unbounded batches.", "anchors": ["metcalcpy/util/sl1l2_statistics.py", "metcalcpy/agg_stat.py:AggStat._prepare_sl1l2_data"]}
{"id": "C16", "title": "MSE and BCMSE of genuine data are never negative", "statement": "For partial sums that come from real matched pairs MSE >= 0, BCMSE >= 0 and MSE = BCMSE + ME^2; RMSE and BCRMSE are therefore defined.", "quantifier": "every non-empty multiset of matched pairs", "why_tests_cant": "A sum-of-squares argument over arbitrarily many pairs.", "anchors": ["metcalcpy/util/sl1l2_statistics.py:calculate_mse", "metcalcpy/util/sl1l2_statistics.py:calculate_bcmse", "metcalcpy/util/sl1l2_statistics.py:calculate_rmse"]}
{"id": "C17", "title": "Pearson and anomaly correlation lie in [-1,1]", "statement": "calculate_pr_corr and calculate_anom_corr return either nothing or a number between -1 and 1 for partial sums that come from real matched pairs.", "quantifier": "every non-empty multiset of matched pairs", "why_tests_cant": "Needs Cauchy-Schwarz for arbitrarily many pairs.", "anchors": ["metcalcpy/util/sl1l2_statistics.py:calculate_pr_corr", "metcalcpy/util/sal1l2_statistics.py:calculate_anom_corr"]}
{"id": "C18", "title": "Group aggregation of partial sums is the total-weighted mean and is associative", "statement": "aggregate_field_values/calc_series_sums replaces a group of SL1L2/SAL1L2/VL1L2/VAL1L2/GRAD rows by one row whose total is the sum of totals and whose fields are total-weighted means; aggregating in two stages gives the same as aggregating at once.", "quantifier": "every group size and every grouping of rows into sub-groups with non-zero totals", "why_tests_cant": "Quantifies over all two-stage groupings.", "anchors": ["metcalcpy/util/utils.py:calc_series_sums", "metcalcpy/util/utils.py:aggregate_field_values"]}
{"id": "C19", "title": "Group aggregation of contingency tables adds the counts", "statement": "calc_series_sums on CTC/NBRCTC rows puts into every count column the sum of that column over the group.", "quantifier": "every group of CTC rows", "why_tests_cant": "Must hold for every table, not the one in the test.", "anchors": ["metcalcpy/util/utils.py:calc_series_sums"]}
{"id": "C20", "title": "Neighbourhood statistics of an aggregated group are total-weighted", "statement": "In aggregation runs NBR_F_RATE and NBR_O_RATE are the total-weighted means of the row rates, and NBR_FSS/AFSS are computed from weighted means.", "quantifier": "every table with positive totals, any number of rows", "why_tests_cant": "The weighting error is invisible when all totals are equal or there is a single row, which is what tests use.", "anchors": ["metcalcpy/agg_stat.py:AggStat._prepare_nbr_cnt_data", "metcalcpy/util/nbrcnt_statistics.py"]}
{"id": "C21", "title": "Ensemble statistics of an aggregated group use each field's own weighted mean", "statement": "In aggregation runs the ECNT spread, spread_oerr and spread_plus_oerr statistics are the square roots of the total-weighted mean of the squares of the column with the same name.", "quantifier": "every table with positive totals", "why_tests_cant": "A field mix-up only shows on inputs where the columns differ; all inputs must be covered.", "anchors": ["metcalcpy/agg_stat.py:AggStat._prepare_ecnt_data", "metcalcpy/util/ecnt_statistics.py"]}
{"id": "C22", "title": "Fractions skill scores stay in range", "statement": "For rates in [0,1], NBR_AFSS lies in [0,1], NBR_UFSS in [1/2,1], and NBR_FSS is at most 1 whenever FBS >= 0.", "quantifier": "all tables of rates in [0,1]", "why_tests_cant": "Continuous ranges.", "anchors": ["metcalcpy/util/nbrcnt_statistics.py"]}
{"id": "C23", "title": "Longitude conversion is a bijection onto [-180,180) up to sorting", "statement": "convert_lon_360_to_180 returns a sorted list of the same length whose entries lie in [-180,180) and are congruent modulo 360 to the input entries.", "quantifier": "every list of real longitudes of any length", "why_tests_cant": "Quantifies over all reals and all list lengths.", "anchors": ["metcalcpy/util/utils.py:convert_lon_360_to_180"]}
{"id": "C24", "title": "Longitude re-indexing returns a permutation that sorts the new longitudes", "statement": "convert_lons_indices returns sorted longitudes in [-|minlon|, range-|minlon|) together with an index vector that is a permutation of 0..n-1 and maps old to new positions.", "quantifier": "every list of longitudes, every minimum longitude and positive range", "why_tests_cant": "Permutation validity must hold for all lists including ties.", "anchors": ["metcalcpy/util/utils.py:convert_lons_indices"]}
{"id": "C25", "title": "create_permutations enumerates the full cartesian product exactly once", "statement": "create_permutations returns every combination taking one element from each list, in the order of the lists, the number of combinations being the product of the sizes; duplicates occur only when an input list has duplicates.", "quantifier": "every list of lists", "why_tests_cant": "Unbounded number of lists and sizes.", "anchors": ["metcalcpy/util/utils.py:create_permutations"]}
{"id": "C26", "title": "create_permutations_mv enumerates every combination", "statement": "create_permutations_mv applied to two or more lists (or a dictionary with empty entries removed) returns exactly all combinations with one element from each list.", "quantifier": "every sequence of at least two lists", "why_tests_cant": "Recursion over an unbounded number of variables.", "anchors": ["metcalcpy/util/utils.py:create_permutations_mv"]}
{"id": "C27", "title": "Circular block bootstrap resamples are valid and made of contiguous blocks", "statement": "Each circular-block-bootstrap resample has as many cases as the data, each taken from the data, and consecutive draws inside a block are cyclically consecutive cases.", "quantifier": "every sample size, block length and vector of random start points", "why_tests_cant": "Index wrap-around has to be safe for all starts/lengths, tests see a few seeds.", "anchors": ["metcalcpy/bootstrap.py:_generate_distributions_cbb"]}
{"id": "C28", "title": "The bootstrap performs the requested number of replicates", "statement": "The serial bootstrap evaluates exactly num_iterations replicates for any batch size, and the multi-threaded one evaluates num_iterations replicates as well.", "quantifier": "every num_iterations, batch size, number of threads", "why_tests_cant": "Depends on all remainders of divisions.", "anchors": ["metcalcpy/bootstrap.py:_bootstrap_distribution_cbb", "metcalcpy/bootstrap.py:_bootstrap_sim_cbb"]}
{"id": "C29", "title": "Parallel bootstrap results do not depend on the completion order of the workers", "statement": "The replicate vector returned by the multi-threaded bootstrap is the concatenation of the workers' results in submission order whatever the schedule.", "quantifier": "every interleaving/completion order of the worker processes", "why_tests_cant": "Schedules are not controllable in a test.", "anchors": ["metcalcpy/bootstrap.py:_bootstrap_distribution_cbb"]}
{"id": "C30", "title": "Bootstrap results always have ordered bounds", "statement": "A BootstrapResults object with both bounds present has lower_bound <= upper_bound after construction and after any sequence of arithmetic operations on it.", "quantifier": "every value/bounds and every sequence of +,-,*,/ operations", "why_tests_cant": "Property of arbitrary operation histories, e.g. multiplying by negative numbers.", "anchors": ["metcalcpy/bootstrap.py:BootstrapResults"]}
{"id": "C31", "title": "Confidence intervals are ordered and computed only from replicates that have a value", "statement": "With the percentile method the returned lower bound is not larger than the upper bound, both lie between the smallest and the largest available replicate, and no bounds are given when the statistic is missing or all replicates agree.", "quantifier": "every replicate vector (with missing values) and every alpha in (0,1)", "why_tests_cant": "Percentile interpolation over arbitrary vectors.", "anchors": ["metcalcpy/bootstrap.py:_get_confidence_interval_and_value"]}
{"id": "C32", "title": "ECLV confidence limits are produced at each cost/loss ratio", "statement": "With bootstrapping switched on, ECLV confidence limits are produced at each cost/loss ratio from the values which the replicates have there: none where all replicates agree, else an ordered pair within the range of the replicates, whatever the interval method.", "quantifier": "every replicate matrix, point estimate, level alpha and interval method", "why_tests_cant": "The guard around the percentile calls a function of the module in place of the builtin; whether limits are given must be settled for all replicate matrices.", "anchors": ["metcalcpy/bootstrap.py:_get_confidence_interval_and_value_eclv"]}
{"id": "C33", "title": "Derived curve values are element-wise and refuse mismatched input", "statement": "calc_derived_curve_value returns nothing if either list is missing, has a missing element or the lengths differ; otherwise DIFF is element-wise subtraction, RATIO element-wise division (only if no divisor is zero), SS is (a-b)/a (only if no a is zero).", "quantifier": "all pairs of lists and operations", "why_tests_cant": "All lengths and zero patterns.", "anchors": ["metcalcpy/util/utils.py:calc_derived_curve_value"]}
{"id": "C34", "title": "Difference-significance sign adjustment only changes the sign", "statement": "perfect_score_adjustment returns nothing for statistics without a perfect score, otherwise plus or minus the given p-value, minus exactly when the first mean is farther from the perfect score than the second.", "quantifier": "all means, p-values and statistic names", "why_tests_cant": "All reals.", "anchors": ["metcalcpy/util/utils.py:perfect_score_adjustment"]}
{"id": "C35", "title": "The paired TOST always reports a combined outcome", "statement": "tost_paired returns one of the four documented combined outcomes for all admissible inputs, consistent with the two p-values.", "quantifier": "all admissible means, deviations, correlations, bounds, alpha and all p-values they can produce", "why_tests_cant": "The gap is a measure-zero boundary (p = alpha) no random test hits.", "anchors": ["metcalcpy/util/tost_paired.py:tost_paired", "metcalcpy/util/utils.py:tost_paired"]}
{"id": "C36", "title": "Invalid TOST input is rejected before any computation", "statement": "tost_paired terminates the program for a sample smaller than 2, an alpha outside (0,1), a non-positive deviation or a correlation outside [-1,1], and for no other input; the deviation of the difference is then real.", "quantifier": "all argument tuples", "why_tests_cant": "All reals; needs sd1^2+sd2^2-2 r sd1 sd2 >= 0.", "anchors": ["metcalcpy/util/tost_paired.py:tost_paired"]}
{"id": "C37", "title": "The variance inflation factor never deflates the standard error", "statement": "compute_std_err_from_mean uses a variance inflation factor that is at least 1, equal to 1 for weak or almost perfect autocorrelation, so the adjusted standard error is at least the classical one.", "quantifier": "every data list and every lag-1 autocorrelation value", "why_tests_cant": "Continuous parameter with several threshold branches.", "anchors": ["metcalcpy/util/utils.py:compute_std_err_from_mean"]}
{"id": "C38", "title": "Threshold sorting orders by value, then by operator", "statement": "sort_by_thresh returns the rows sorted by numeric threshold value and, for equal values, in the order <, <=, ==, >=, >, losing no rows.", "quantifier": "every list of threshold strings", "why_tests_cant": "Sorting correctness for all lists.", "anchors": ["metcalcpy/util/ctc_statistics.py:sort_by_thresh"]}
{"id": "C39", "title": "The forecast difficulty index stays in its documented range", "statement": "forecast_difficulty lies in [0,1.5] for admissible input.", "quantifier": "every sigma/mu/threshold/field combination accepted by the input check", "why_tests_cant": "Real-valued fields of any size.", "anchors": ["metcalcpy/calc_difficulty_index.py:_difficulty_index", "metcalcpy/calc_difficulty_index.py:_input_check"]}
{"id": "C40", "title": "Piecewise-linear functions reject unsorted domains and interpolate within bounds", "statement": "PiecewiseLinear raises UnsortedArray for a decreasing x_domain, and otherwise its value inside the domain lies between the neighbouring range values and equals the range value at each knot.", "quantifier": "every domain/range pair and every evaluation point", "why_tests_cant": "The missing rejection needs all unsorted domains.", "anchors": ["metcalcpy/piecewise_linear.py:PiecewiseLinear"]}
{"id": "C41", "title": "Statistics leave the process-wide warning filter as they found or documented", "statement": "After any sequence of statistic calls, the Python warning filter is the lenient one ('ignore'), so that unrelated later code does not start raising exceptions on warnings.", "quantifier": "every sequence of statistic calls with arbitrary data", "why_tests_cant": "It is a property of call histories and hidden global state.", "anchors": ["metcalcpy/util/ctc_statistics.py:calculate_fbias", "metcalcpy/util/sal1l2_statistics.py:calculate_anom_corr", "metcalcpy/util/pstd_statistics.py:calculate_pstd_roc_auc"]}
{"id": "C42", "title": "Vertical interpolation is a convex combination of the two bracketing layers", "statement": "For a target level between two layers vertical_interp returns the linear interpolation of the field between them; below the lowest or above the highest layer it returns that layer's value.", "quantifier": "every number of layers with increasing heights, every target level, every field", "why_tests_cant": "Levels are a continuum; the top-layer overwrite only shows for particular targets.", "anchors": ["metcalcpy/vertical_interp.py:vertical_interp"]}
{"id": "C43", "title": "Meridional mean averages the requested latitude band", "statement": "meridional_mean(dat, lat1, lat2) averages exactly the values with lat1 <= latitude <= lat2 and rejects lat1 >= lat2.", "quantifier": "every grid of latitudes, every band and every field", "why_tests_cant": "Tests use the one band that is hard-coded.", "anchors": ["metcalcpy/pre_processing/directional_means.py:meridional_mean"]}
{"id": "C44", "title": "Matched and unmatched object percentages add up to one", "statement": "For each group of MODE objects (all simple, simple forecast, simple observation) the count- and area-weighted percentage of matched plus that of unmatched objects is 1, and each percentage is at most 1.", "quantifier": "every table of MODE objects with 0/1 flags", "why_tests_cant": "All object populations; a filter mistake in one of ~120 near-identical functions is easily missed.", "anchors": ["metcalcpy/util/mode_ratio_statistics.py", "metcalcpy/util/mode_arearat_statistics.py"]}
{"id": "C45", "title": "Object bootstrap writes one result per requested statistic", "statement": "AggStatBootstrap stores the result of each (series point, independent value, statistic) in the output row of that very combination.", "quantifier": "every number of series values, independent values and statistics", "why_tests_cant": "With one statistic (the tested case) the mistake is invisible; all counts must be covered.", "anchors": ["metcalcpy/agg_stat_bootstrap.py:AggStatBootstrap._proceed_with_axis"]}
{"id": "C46", "title": "Object bootstrap replicates weight a case by how often it was drawn", "statement": "In a resample in which a case was drawn k times, the rows of this case count k times in the statistic.", "quantifier": "every multiset of drawn cases", "why_tests_cant": "A distributional property, not observable from one seeded run.", "anchors": ["metcalcpy/agg_stat_bootstrap.py:AggStatBootstrap._calc_stats"]}
{"id": "C47", "title": "EMC scorecard classification is total and symmetric", "statement": "For every finite difference score the EMC significance classification returns one of -1,-0.99,-0.95,0,0.95,0.99,1, is monotone in the score and antisymmetric under swapping the models.", "quantifier": "all scores and all numbers of days", "why_tests_cant": "Threshold chains over reals; the gap is a single point.", "anchors": ["metcalcpy/scorecard.py:Scorecard._calculate_diff_sig_emc"]}
{"id": "C48", "title": "Runs test counts are consistent", "statement": "runs_test reports a number of runs between 1 and 2*min(n1,n2)+1, mean value 1+2 n1 n2/(n1+n2) and a non-negative variance, ignoring values equal to the threshold and missing values.", "quantifier": "every list with at least one value on each side of the threshold", "why_tests_cant": "Counting argument over arbitrary sequences.", "anchors": ["metcalcpy/util/wald_wolfowitz_runs_test.py:runs_test"]}
{"id": "C49", "title": "Autocorrelation at lag 0 is 1 and all others are bounded by 1", "statement": "acf(x) of a non-constant complete series has first entry 1 and every entry in [-1,1]; the number of entries is one more than the (clipped) maximal lag.", "quantifier": "every complete series with non-zero variance and every lag", "why_tests_cant": "Needs Cauchy-Schwarz for arbitrary length and lag.", "anchors": ["metcalcpy/util/correlation.py:acf", "metcalcpy/util/correlation.py:autocovariance"]}
{"id": "C50", "title": "Paired missing-value removal keeps pairs aligned", "statement": "remove_na(x, y, paired=True) removes exactly the positions where either value is missing, so the outputs have equal length, contain no missing values and stay aligned in order.", "quantifier": "every pair of equally long vectors with any missing pattern", "why_tests_cant": "All missing patterns.", "anchors": ["metcalcpy/util/correlation.py:remove_na", "metcalcpy/util/correlation.py:remove_none"]}
{"id": "C51", "title": "Derived series names are always recognised as derived", "statement": "A name produced by get_derived_curve_name for a known operation is recognised by is_derived_point, and the operation found is the one that produced it.", "quantifier": "all series names and operations", "why_tests_cant": "String prefix reasoning for all names (DIFF vs DIFF_SIG).", "anchors": ["metcalcpy/util/utils.py:get_derived_curve_name", "metcalcpy/util/utils.py:is_derived_point"]}
{"id": "C52", "title": "Derived curves are refused when a case has several values", "statement": "The aggregation refuses (raises) to compute a derived curve iff some component has a number of rows different from the number of distinct (valid, lead, statistic) combinations times the allowed number of values.", "quantifier": "every series data set", "why_tests_cant": "All multisets of keys.", "anchors": ["metcalcpy/agg_stat.py:AggStat._validate_series_cases_for_derived_operation", "metcalcpy/scorecard.py:Scorecard._get_stats_for_derived"]}
{"id": "C53", "title": "Number-like strings are classified uniquely", "statement": "A string is never both an integer and strictly a float according to is_string_integer / is_string_strictly_float, so filters convert it in exactly one way.", "quantifier": "all strings", "why_tests_cant": "Infinite string space.", "anchors": ["metcalcpy/util/utils.py:is_string_integer", "metcalcpy/util/utils.py:is_string_strictly_float"]}
{"id": "C54", "title": "Equalization of an axis honours all series variables", "statement": "equalize_axis_data keeps only rows that match the requested values of every series variable.", "quantifier": "every number of series variables and every frame", "why_tests_cant": "With one series variable (tested) the defect is invisible.", "anchors": ["metcalcpy/util/utils.py:equalize_axis_data"]}
{"id": "C55", "title": "Probability-table Brier score is computable for valid input", "statement": "calculate_pstd_brier returns a number or a missing marker for every well-formed probability table.", "quantifier": "every well-formed PSTD table", "why_tests_cant": "Crash happens for every input of a certain shape; a universally quantified claim.", "anchors": ["metcalcpy/util/pstd_statistics.py:calculate_pstd_brier"]}
{"id": "C56", "title": "Wind decomposition preserves the wind speed", "statement": "compute_wind_components rotates the wind: at each point radial^2 + tangential^2 = u^2 + v^2.", "quantifier": "every azimuth and wind field", "why_tests_cant": "Continuum of angles.", "anchors": ["metcalcpy/process_tcrmw.py:compute_wind_components"]}
{"id": "C57", "title": "Renaming a file adds the postfix only before the extension", "statement": "replace_name inserts '_postfix' directly before the extension and leaves the rest of the name unchanged.", "quantifier": "all file names with an extension", "why_tests_cant": "Names with several dots are not in the tests.", "anchors": ["metcalcpy/validate_mv_python.py:replace_name"]}
{"id": "C58", "title": "The testing period is always a valid interval", "statement": "get_testing_period returns dates with start <= end or raises, defaulting to yesterday/today.", "quantifier": "all parameter dictionaries and all current times", "why_tests_cant": "Depends on the clock.", "anchors": ["metcalcpy/validate_mv_python.py:get_testing_period"]}
{"id": "C59", "title": "Base-rate option of the ECLV aggregation is honoured", "statement": "AggEclv adds the base-rate point to the cost/loss ratios iff the parameter add_base_rate is 1.", "quantifier": "all parameter values", "why_tests_cant": "Constructor logic over all values.", "anchors": ["metcalcpy/agg_eclv.py:AggEclv.__init__"]}
{"id": "C60", "title": "Multi-category HSS_EC equals its textbook form and is 1 for a perfect forecast", "statement": "calculate_mcts_hss_ec returns (diag - ec*total)/(total - ec*total), is 1 for a diagonal table and never above 1 for ec < 1.", "quantifier": "every number of categories and every non-negative table", "why_tests_cant": "Unbounded table size.", "anchors": ["metcalcpy/util/mcts_statistics.py:calculate_mcts_hss_ec"]}
{"id": "C61", "title": "The CTC statistic for the economic value returns the value curve", "statement": "calculate_eclv on a CTC table with non-zero total returns the relative economic value at the requested cost/loss ratios.", "quantifier": "every CTC table and every list of cost/loss ratios", "why_tests_cant": "A test that only checks that the call does not fail cannot see that the result is never produced for any input.", "anchors": ["metcalcpy/util/ctc_statistics.py:calculate_economic_value", "metcalcpy/util/ctc_statistics.py:calculate_eclv"]}
{"id": "C62", "title": "Economic value of probability (PCT) data is computable", "statement": "The ECLV aggregation of PCT line type data returns one value curve per threshold row for every valid input.", "quantifier": "every PCT frame accepted by the aggregation", "why_tests_cant": "The failure depends on the library version for all inputs; a test on a development machine with another NumPy passes.", "anchors": ["metcalcpy/util/eclv_statistics.py:calculate_eclv", "metcalcpy/agg_eclv.py:AggEclv"]}
{"id": "C63", "title": "ESTDEV of an aggregated group is the standard deviation of the pooled errors", "statement": "In an aggregation run calculate_estdev returns the sample standard deviation of the forecast errors of all pairs behind the aggregated SL1L2 rows.", "quantifier": "every list of non-empty batches of matched pairs with at least two pairs", "why_tests_cant": "A test compares one number; whether nested calls honour the aggregation flag shows only for weighted data of arbitrary shape.", "anchors": ["metcalcpy/util/sl1l2_statistics.py:calculate_estdev", "metcalcpy/agg_stat.py:AggStat._calc_stats"]}
{"id": "C64", "title": "FE of an aggregated group is computed from total-weighted means", "statement": "In an aggregation run calculate_fe returns (mean forecast - mean observation)/mean forecast of the pooled pairs.", "quantifier": "every list of non-empty batches of matched pairs with non-zero mean forecast", "why_tests_cant": "With equal totals the unweighted and the weighted result agree; only arbitrary batch sizes separate them.", "anchors": ["metcalcpy/util/sl1l2_statistics.py:calculate_fe", "metcalcpy/agg_stat.py:AggStat.STATISTIC_TO_FIELDS"]}
{"id": "C65", "title": "The scatter index is a number or missing, never an exception", "statement": "calculate_si returns a number or nothing for every SL1L2 input that stems from matched pairs.", "quantifier": "every list of non-empty batches of matched pairs", "why_tests_cant": "The failure needs a mean observation that rounds to zero.", "anchors": ["metcalcpy/util/sl1l2_statistics.py:calculate_si"]}
{"id": "C66", "title": "Aggregated RPS statistics are weighted means and RPSS is one minus the ratio of means", "statement": "In an aggregation run the RPS, its components and its climatological reference are the total-weighted means of the rows, and RPSS = 1 - RPS/RPS_climo of those means.", "quantifier": "every table of RPS rows with positive totals", "why_tests_cant": "The result depends on all rows; rows with a perfect score make the reference of that row disappear.", "anchors": ["metcalcpy/util/rps_statistics.py", "metcalcpy/agg_stat.py:AggStat._prepare_rps_data"]}
{"id": "C67", "title": "Conditional ensemble mean errors are weighted by their own counts", "statement": "The ME of forecasts at or above (below) the observation of a group is weighted by the number of such forecasts, not by the total.", "quantifier": "every table of ECNT rows with positive conditional counts", "why_tests_cant": "Equal counts make both weightings agree.", "anchors": ["metcalcpy/util/ecnt_statistics.py:calculate_ecnt_me_ge_obs", "metcalcpy/util/ecnt_statistics.py:calculate_ecnt_me_lt_obs", "metcalcpy/agg_stat.py:AggStat._prepare_ecnt_data"]}
{"id": "C68", "title": "Vector wind statistics of a group are those of the pooled wind pairs", "statement": "MSVE, RMSVE, the vector variances and the speeds of an aggregated group equal the value for the concatenation of all pairs behind the rows.", "quantifier": "every list of non-empty batches of wind pairs", "why_tests_cant": "Equal batch sizes hide a missing weight.", "anchors": ["metcalcpy/util/vl1l2_statistics.py", "metcalcpy/util/vcnt_statistics.py"]}
{"id": "C69", "title": "Vector anomaly correlations lie between -1 and 1", "statement": "The VAL1L2 and VCNT anomaly correlations of a group are missing or lie in [-1,1]; for genuine anomalies the uncentred one is exactly the pooled uncentred correlation.", "quantifier": "every list of non-empty batches of wind anomalies", "why_tests_cant": "It is a Cauchy-Schwarz statement about arbitrary samples.", "anchors": ["metcalcpy/util/val1l2_statistics.py:calculate_val1l2_anom_corr", "metcalcpy/util/vcnt_statistics.py:calculate_vcnt_anom_corr", "metcalcpy/util/vcnt_statistics.py:calculate_vcnt_anom_corr_uncntr"]}
{"id": "C70", "title": "Wind directions are degrees between 0 and 360", "statement": "The forecast and observed mean wind directions are meteorological directions in degrees in [0,360).", "quantifier": "every mean wind vector", "why_tests_cant": "The unit of the result shows only off the axes and the range needs all vectors.", "anchors": ["metcalcpy/util/utils.py:calc_direction", "metcalcpy/util/vcnt_statistics.py:calculate_vcnt_fdir"]}
{"id": "C71", "title": "The wind direction error depends only on the mean vectors", "statement": "The direction error of a group is the angle between the pooled mean forecast and observed vectors, whatever the number of pairs in the group.", "quantifier": "every list of non-empty batches of wind pairs", "why_tests_cant": "It fails only for groups with very many pairs.", "anchors": ["metcalcpy/util/vcnt_statistics.py:calculate_vcnt_dir_err"]}
{"id": "C72", "title": "Gradient scores are those of the pooled gradients and S1 lies in [0,200]", "statement": "S1, S1_OG and the gradient ratio of a group equal the score of the pooled gradients and S1 is never outside [0,200].", "quantifier": "every list of non-empty batches of gradient pairs", "why_tests_cant": "Needs all samples and all batch sizes.", "anchors": ["metcalcpy/util/grad_statistics.py", "metcalcpy/agg_stat.py:AggStat._prepare_grad_data"]}
{"id": "C73", "title": "A significant bootstrap result needs an interval that leaves out zero", "statement": "get_result of a BootstrapResults object whose value lies inside its interval is +1 exactly when the whole interval is positive, -1 exactly when it is negative, and 0 exactly when the interval contains zero.", "quantifier": "every interval and every value inside it", "why_tests_cant": "Boundary cases (bounds equal to zero) and all sign combinations have to be covered.", "anchors": ["metcalcpy/bootstrap.py:BootstrapResults.is_significant", "metcalcpy/bootstrap.py:BootstrapResults.get_result"]}
{"id": "C74", "title": "Reliability, resolution and uncertainty decompose the Brier score", "statement": "For the pooled bins of a probability table, calc_reliability - calc_resolution + calc_uncertainty, evaluated with the overall base rate, is the mean squared difference between forecast probability and outcome.", "quantifier": "every list of non-empty probability bins", "why_tests_cant": "An algebraic identity over unboundedly many bins; the public Brier statistic raises before it can be observed (see C55).", "anchors": ["metcalcpy/util/pstd_statistics.py:calc_reliability", "metcalcpy/util/pstd_statistics.py:calc_resolution", "metcalcpy/util/pstd_statistics.py:calc_uncertainty"]}
{"id": "C75", "title": "The TOST used by the aggregation reports an outcome whenever p-values exist", "statement": "The tost_paired of utils agrees with the stand-alone tost_paired for every admissible input with a varying difference; in particular a p-value of 0 is reported as significant.", "quantifier": "all admissible argument tuples and any t-distribution", "why_tests_cant": "Relates two implementations over all real arguments; p = 0 only arises by rounding for extreme statistics.", "anchors": ["metcalcpy/util/utils.py:tost_paired", "metcalcpy/util/tost_paired.py:tost_paired"]}
{"id": "C76", "title": "autocor_coef is the least-squares lag-1 slope", "statement": "autocor_coef(data) is the slope of the least-squares line of each value on its predecessor, and is therefore independent of the unit of measurement.", "quantifier": "every series without missing values for which a number is returned", "why_tests_cant": "All series lengths and values; the stored expected values of a unit test reproduce whatever formula is coded.", "anchors": ["metcalcpy/util/utils.py:autocor_coef"]}
{"id": "C77", "title": "The ROC table has one point per threshold, in threshold order", "statement": "calculate_ctc_roc returns exactly one line per distinct threshold, with POD and POFD of the pooled rows of that threshold, in increasing (or, on request, decreasing) order of the thresholds.", "quantifier": "every non-empty frame of contingency counts with numeric thresholds", "why_tests_cant": "All row sets and thresholds; single-digit test thresholds hide that strings are compared.", "anchors": ["metcalcpy/util/ctc_statistics.py:calculate_ctc_roc", "metcalcpy/util/ctc_statistics.py:sort_by_thresh"]}
{"id": "C78", "title": "Thresholds that are not numeric are ordered by text, then by operator", "statement": "sort_by_thresh orders frames whose thresholds are an operator followed by a text by the text and then by <, <=, ==, >=, >, losing no rows; mixtures of numeric and text thresholds are handled.", "quantifier": "every list of threshold strings", "why_tests_cant": "All strings; depends on the backtracking of a regular expression.", "anchors": ["metcalcpy/util/ctc_statistics.py:sort_by_thresh"]}
{"id": "C79", "title": "MODE percentages and ratios are the ones their descriptions announce", "statement": "Every MODE ratio statistic, by number and by area, is the number (total area) of the objects of its first group divided by that of its second group, e.g. 'percentage of all simple forecast objects that are matched', rounded to 7 decimals and missing when the denominator is zero.", "quantifier": "every frame of MODE objects with 0/1 fcst, simple and matched flags", "why_tests_cant": "All object sets; tests compare a few statistics on one data set.", "anchors": ["metcalcpy/util/mode_ratio_statistics.py", "metcalcpy/util/mode_arearat_statistics.py", "metcalcpy/util/utils.py:nrow_column_data_by_name_value", "metcalcpy/util/utils.py:column_data_by_name_value"]}
{"id": "C80", "title": "Object-based hits, misses, false alarms, CSI, PODY and FAR follow their definitions", "statement": "With hits = half the number (area) of matched simple objects, misses = unmatched simple observations and false alarms = unmatched simple forecasts: CSI = hits/(hits+misses+false alarms), PODY = hits/(hits+misses), FAR = false alarms/(hits+false alarms).", "quantifier": "every frame of MODE objects with 0/1 flags", "why_tests_cant": "All object sets.", "anchors": ["metcalcpy/util/mode_ratio_statistics.py:calculate_objcsi", "metcalcpy/util/mode_arearat_statistics.py:calculate_objacsi"]}
{"id": "C81", "title": "2d and 3d variants are the general statistics of the objects of that dimension", "statement": "The 2d and 3d variants of the MODE statistics equal the general statistic computed on the rows with that object type, the 3d volume variants with volume in the role of area.", "quantifier": "every frame with an object_type column and every MODE statistic", "why_tests_cant": "All frames; None is a legal result of these statistics, so a test that accepts None cannot see that the volume is never read.", "anchors": ["metcalcpy/util/mode_2d_ratio_statistics.py", "metcalcpy/util/mode_3d_ratio_statistics.py", "metcalcpy/util/mode_2d_arearat_statistics.py", "metcalcpy/util/mode_3d_volrat_statistics.py"]}
{"id": "C82", "title": "get_test_xml selects exactly the XML files of the testing period", "statement": "get_test_xml returns exactly the file names with extension xml whose modification date lies within the testing period, in sorted order, and the result does not depend on the order in which the directory is listed.", "quantifier": "every directory listing, every assignment of modification dates and every period", "why_tests_cant": "All directory contents and all listing orders.", "anchors": ["metcalcpy/validate_mv_python.py:get_test_xml", "metcalcpy/validate_mv_python.py:get_testing_period"]}
{"id": "C83", "title": "Numeric series variables can be equalized", "statement": "equalize_axis_data keeps every row that has one of the requested values of the series variables and a case common to all series, also when the column of the series variable holds numbers (levels, lead times).", "quantifier": "every frame and every series variable", "why_tests_cant": "The tested frames use model names; an empty result is a legal outcome, so it takes a comparison with the equalization itself over all frames.", "anchors": ["metcalcpy/util/utils.py:equalize_axis_data", "metcalcpy/event_equalize.py:event_equalize"]}
{"id": "C84", "title": "Equalization of two axes honours the series of both axes", "statement": "When a plot has two axes, perform_event_equalization keeps only cases that are present for every series value of the first and of the second axis.", "quantifier": "every pair of series definitions and every frame", "why_tests_cant": "Depends on whether both axes use the same series variable; the tested configurations use equal values.", "anchors": ["metcalcpy/util/utils.py:perform_event_equalization"]}
{"id": "C85", "title": "Aggregating a list of regions gives one row per valid time and lead", "statement": "aggregate_field_values with a series value listing several regions (\"EAST;NMT\") leaves the rows of other regions unchanged and in order and replaces the rows of the listed regions by exactly one row per valid time and lead, carrying the aggregated name, the summed total and the pooled (total-weighted) fields; the total number of matched pairs of the table is preserved.", "quantifier": "every frame, every series variable and listed value, every line type", "why_tests_cant": "The result is built by a loop that mutates the frame by index label; correctness depends on an invariant over all passes, not on one table.", "anchors": ["metcalcpy/util/utils.py:aggregate_field_values", "metcalcpy/util/utils.py:calc_series_sums"]}
{"id": "C86", "title": "Aggregation copes with missing leads", "statement": "aggregate_field_values returns a table, with rows only for the times that have data, also when some lead is missing at some valid time in all the listed regions.", "quantifier": "every frame with a missing (valid time, lead) combination, every line type", "why_tests_cant": "Test data are complete; the failure depends on which combinations occur.", "anchors": ["metcalcpy/util/utils.py:aggregate_field_values"]}
{"id": "C87", "title": "Several aggregated values do not disturb each other", "statement": "When the series lists several aggregated values or several aggregated variables, aggregate_field_values gives the rows of each of them, whatever their order.", "quantifier": "every frame and every list of series values", "why_tests_cant": "Row labels collide only for particular positions and orders of values.", "anchors": ["metcalcpy/util/utils.py:aggregate_field_values"]}
{"id": "C88", "title": "The pooled neighbourhood scores are those of the pooled sample", "statement": "calc_series_sums of NBRCNT lines gives the summed number of points, the pooled mean Brier score and rates, and the fractions skill score of the pooled sample, 1 - (pooled score)/(pooled reference).", "quantifier": "every list of NBRCNT lines with every number of points", "why_tests_cant": "An identity between a formula on group sums and the score of the pooled sample over all real inputs; perfect lines are a boundary case.", "anchors": ["metcalcpy/util/utils.py:calc_series_sums"]}
{"id": "C89", "title": "All scores of an aggregated row describe the aggregated sample", "statement": "Every score column of a row made by aggregate_field_values is a function of the whole group of rows it replaces, not of its first row.", "quantifier": "every group, line types ECNT and RPS", "why_tests_cant": "A wrong value in a column is plausible; it takes a dependence argument over all groups.", "anchors": ["metcalcpy/util/utils.py:aggregate_field_values", "metcalcpy/util/utils.py:calc_series_sums"]}
{"id": "C90", "title": "Equalization of attribute statistics against stored cases keeps each requested row once", "statement": "AggStatEventEqz writes exactly the rows that have a requested forecast variable, a requested value of every series variable and a stored case, each once, unchanged and in order per forecast variable.", "quantifier": "every table of attributes, every file of stored cases, every list of forecast and series variables", "why_tests_cant": "Tests use one series variable; duplication and wrong selection appear only with several.", "anchors": ["metcalcpy/agg_stat_eqz.py:AggStatEventEqz.calculate_values", "metcalcpy/agg_stat_eqz.py:AggStatEventEqz.perform_ee_on_axis"]}
{"id": "C91", "title": "Equalization of attribute statistics leaves the same cases on both axes", "statement": "AggStatEventEqualize writes exactly the rows of the listed series whose case is present for every series value of both axes, each once.", "quantifier": "every table of attributes and every pair of series definitions", "why_tests_cant": "Depends on which cases the axes share; the tested configurations use one axis or equal series.", "anchors": ["metcalcpy/agg_stat_event_equalize.py:AggStatEventEqualize.calculate_values", "metcalcpy/agg_stat_event_equalize.py:AggStatEventEqualize.run_ee_on_axis"]}
{"id": "C92", "title": "EDS and SEDS are the extremal dependency scores of the summed counts, within [-1, 1]", "statement": "For a CTC table of non-negative counts, EDS and SEDS of the sums over all rows are 2 ln((h+m)/n)/ln(h/n) - 1 and ln((h+f)(h+m)/n^2)/ln(h/n) - 1, rounded; they are missing exactly when there is no hit or every event is a hit; they lie in [-1, 1]; EDS is 1 without misses, SEDS is 1 for a perfect forecast and 0 for a random one.", "quantifier": "every CTC table with any number of rows of non-negative counts", "why_tests_cant": "The ranges, the missing cases and the reference values are statements about all tables; tests check a few.", "anchors": ["metcalcpy/util/ctc_statistics.py:calculate_eds", "metcalcpy/util/ctc_statistics.py:calculate_seds"]}
{"id": "C93", "title": "EDI and SEDI are the extremal dependency indices of the hit rate and false alarm rate", "statement": "For a CTC table of non-negative counts, EDI and SEDI are the published indices of the false alarm rate f/(f+c) and the hit rate h/(h+m), present whenever these are strictly between 0 and 1; they lie in [-1, 1] and are positive exactly when the hit rate exceeds the false alarm rate.", "quantifier": "every CTC table with any number of rows of non-negative counts", "why_tests_cant": "The indices are meant for rare events; the failure needs hit rates below 5e-8, which no test has.", "anchors": ["metcalcpy/util/ctc_statistics.py:calculate_edi", "metcalcpy/util/ctc_statistics.py:calculate_sedi", "metcalcpy/util/ctc_statistics.py:calculate_pody"]}
{"id": "C94", "title": "BAGSS is the Gilbert score after moving the forecast to bias 1", "statement": "With hits, misses and false alarms, BAGSS is the Gilbert skill score of a forecast with bias 1 whose hits lie on the curve hits = O(1 - exp(-b * false alarms)) through the actual forecast; without hits, misses or false alarms it is missing.", "quantifier": "every CTC table of non-negative counts and every function solving w exp w = x for positive x (Lambert W)", "why_tests_cant": "The adjusted forecast is not part of the output; tests compare one number.", "anchors": ["metcalcpy/util/ctc_statistics.py:calculate_bagss"]}
{"id": "C95", "title": "Spread, bias, MAE and MSE skill of aggregated SL1L2 lines are those of the pooled pairs", "statement": "FSTDEV and OSTDEV of aggregated SL1L2 lines are the sample standard deviations of all pooled forecasts and observations (missing for one pair), MBIAS is the ratio of the pooled means (missing when the observed mean is 0), ME2 the square of the mean error, MAE the mean absolute error of all pairs, and MSESS is 1 - MSE / OSTDEV^2, never above 1 and equal to 1 for perfect forecasts.", "quantifier": "every list of non-empty groups of forecast-observation pairs, each given by its partial sums", "why_tests_cant": "Pooling is a statement about all ways of splitting data into lines.", "anchors": ["metcalcpy/util/sl1l2_statistics.py:calculate_fstdev", "metcalcpy/util/sl1l2_statistics.py:calculate_ostdev", "metcalcpy/util/sl1l2_statistics.py:calculate_mbias", "metcalcpy/util/sl1l2_statistics.py:calculate_me2", "metcalcpy/util/sl1l2_statistics.py:calculate_mae", "metcalcpy/util/sl1l2_statistics.py:calculate_msess", "metcalcpy/agg_stat.py:AggStat._prepare_sl1l2_data"]}
{"id": "C96", "title": "RMSFA, RMSOA and uncentred anomaly correlation of aggregated SAL1L2 lines are those of the pooled pairs", "statement": "RMSFA and RMSOA of aggregated SAL1L2 lines are the root mean squares of all pooled forecast and observed anomalies; ANOM_CORR_RAW is the mean product divided by the square root of the product of the mean squares, missing exactly when one of them is 0.", "quantifier": "every list of non-empty groups of anomaly pairs, each given by its partial sums", "why_tests_cant": "Pooling is a statement about all ways of splitting data into lines.", "anchors": ["metcalcpy/util/sal1l2_statistics.py:calculate_rmsfa", "metcalcpy/util/sal1l2_statistics.py:calculate_rmsoa", "metcalcpy/util/sal1l2_statistics.py:calculate_anom_corr_raw", "metcalcpy/agg_stat.py:AggStat._prepare_sal1l2_data"]}
{"id": "C97", "title": "Ensemble skill scores, member counts and bias ratio are those of the pooled rows", "statement": "In an aggregation run ECNT_CRPSS and ECNT_CRPSS_EMP are one minus the ratio of the total-weighted mean score and the total-weighted mean climatological score, and have no value exactly when the latter is zero; ECNT_N_GE_OBS and ECNT_N_LT_OBS are sums; ECNT_BIAS_RATIO is the count-weighted mean error above the observation over the absolute count-weighted mean error below it.", "quantifier": "every table of ECNT rows with a positive total", "why_tests_cant": "With equal totals a mean of row scores, or a ratio of unweighted sums, gives nearly the same numbers; a swapped numerator shows only for particular rows.", "anchors": ["metcalcpy/util/ecnt_statistics.py:calculate_ecnt_crpss", "metcalcpy/util/ecnt_statistics.py:calculate_ecnt_crpss_emp", "metcalcpy/util/ecnt_statistics.py:calculate_ecnt_n_ge_obs", "metcalcpy/util/ecnt_statistics.py:calculate_ecnt_bias_ratio", "metcalcpy/agg_stat.py:AggStat._prepare_ecnt_data"]}
{"id": "C98", "title": "The confidence intervals of the paired equivalence test agree with its p-values", "statement": "In a report of tost_paired, equivalence is called significant exactly when the (1 - 2 alpha) interval lies inside the equivalence bounds, and a difference is called significant exactly when zero lies outside the (1 - alpha) interval (up to the rounding of the reported numbers); both intervals are centred at the difference of the means, the first lies in the second, and the axis limits enclose interval and bounds.", "quantifier": "all admissible arguments with a varying difference, and any increasing symmetric distribution function with an inverse", "why_tests_cant": "Tests compare printed numbers for a few samples; a wrong tail, sign or half alpha in one interval only contradicts the p-value for inputs near the decision boundary.", "anchors": ["metcalcpy/util/tost_paired.py:tost_paired", "metcalcpy/util/tost_paired.py:qt", "metcalcpy/util/tost_paired.py:pt"]}
{"id": "C99", "title": "An aggregation table has one row per requested combination, computed from exactly the matching input rows", "statement": "In an AggStat run without bootstrapping the table lists every combination of requested series values, independent value and statistic once (and only these, followed by the derived curves). The value of a row is the statistic of exactly the input rows whose columns have the requested values (one of the values of a group; numbers compare as numbers) and whose forecast variable is the first requested one; nstats is their number; the value is missing when there are none. Without derived curves the run cannot fail unless the statistic does.", "quantifier": "every input table, plot description and statistic", "why_tests_cant": "A test compares one output file; rows that are pooled into the wrong point, dropped by a type mismatch or counted twice show only for inputs with groups, numeric texts or missing columns.", "anchors": ["metcalcpy/agg_stat.py:AggStat._proceed_with_axis", "metcalcpy/agg_stat.py:AggStat._init_out_frame", "metcalcpy/agg_stat.py:AggStat._get_bootstrapped_stats"]}
{"id": "C100", "title": "No input row is lost or counted twice over the points of an aggregation table", "statement": "When no two requested values of a field stand for a common value, the nstats of the plain rows of the table add up to the number of input rows that match some requested combination (and the first forecast variable).", "quantifier": "every input table and plot description with disjoint requests", "why_tests_cant": "Conservation is a statement about all rows of all points; tests look at a few values.", "anchors": ["metcalcpy/agg_stat.py:AggStat._proceed_with_axis"]}
{"id": "C101", "title": "All requested forecast variables of an axis are aggregated", "statement": "If the plot asks for several forecast variables on an axis, the table has rows of each of them.", "quantifier": "every plot description with several forecast variables", "why_tests_cant": "Sample configurations name one variable per axis.", "anchors": ["metcalcpy/agg_stat.py:AggStat._proceed_with_axis"]}
{"id": "C102", "title": "A derived curve is computed from the two series it is named after", "statement": "The value of a row of a derived curve is the difference, ratio or skill score of the values of the two series its name spells out (with the same independent value), and is missing when one of them has no data.", "quantifier": "every input table and plot description with derived curves, without bootstrapping", "why_tests_cant": "The two results are looked up by set inclusion of words; wrong hits need particular combinations of series values that no sample plot has.", "anchors": ["metcalcpy/agg_stat.py:AggStat._get_derived_points", "metcalcpy/agg_stat.py:AggStat._get_bootstrapped_stats_for_derived", "metcalcpy/util/utils.py:calc_derived_curve_value"]}
{"id": "C103", "title": "Every requested derived curve appears in the table", "statement": "If a plot asks for a derived curve of two series of the plot, the table has rows of this curve.", "quantifier": "every plot description with derived curves, groups included", "why_tests_cant": "A curve that silently vanishes raises no error; it depends on which variable holds the group.", "anchors": ["metcalcpy/agg_stat.py:AggStat._get_derived_points", "metcalcpy/agg_stat.py:AggStat.calculate_stats_and_ci"]}
{"id": "C104", "title": "Vector anomaly correlations of a group are the centred correlation of the pooled anomaly vectors", "statement": "VAL1L2_ANOM_CORR and VCNT_ANOM_CORR of a group of rows are the correlation of the pooled forecast and observed anomaly vectors about their mean vectors, and missing exactly when one of the two variances is zero.", "quantifier": "every non-empty group of anomaly vector pairs split into any rows", "why_tests_cant": "Centring by the mean speeds instead of the mean vectors gives plausible numbers in [-1, 1] that differ only when directions vary.", "anchors": ["metcalcpy/util/val1l2_statistics.py:calculate_val1l2_anom_corr", "metcalcpy/util/vcnt_statistics.py:calculate_vcnt_anom_corr"]}
{"id": "C105", "title": "The bootstrap of a derived curve evaluates both series at the same cases", "statement": "With bootstrapping, the value of a derived curve is the difference, ratio or skill score of the statistics of its two series; in every replicate both series are resampled at the same cases (time and lead), whatever the order of the input rows; the limits are those of the requested method and alpha. Series with different cases are refused.", "quantifier": "every pair of series, statistic, operation, block length and draw of random positions", "why_tests_cant": "Tests only look at limits within a tolerance because the draws are random; a bootstrap that pairs rows by position instead of case gives limits that look alike but are too wide.", "anchors": ["metcalcpy/agg_stat.py:AggStat._get_bootstrapped_stats_for_derived", "metcalcpy/agg_stat.py:AggStat._calc_stats_derived", "metcalcpy/util/utils.py:sort_data", "metcalcpy/bootstrap.py:bootstrap_and_value"]}
{"id": "C106", "title": "Bootstrap limits of a series are those for the requested alpha", "statement": "The confidence limits of a plain series are the limits of the requested method for the alpha given in the plot description, over the statistics of resamples of its rows.", "quantifier": "every series, statistic, method, alpha and draw of random positions", "why_tests_cant": "All sample descriptions use alpha 0.05, which is also the default that is used when the parameter is not passed on.", "anchors": ["metcalcpy/agg_stat.py:AggStat._get_bootstrapped_stats", "metcalcpy/bootstrap.py:bootstrap_and_value"]}
{"id": "C107", "title": "A summary table holds for every row the statistic of that row", "statement": "The table a summary writes has one row per input row, in the same order, with the other columns unchanged (the fields of the line type are removed); its stat_value is the statistic named in the row, computed from the fields of that row.", "quantifier": "every table with distinct columns and labels, every line type and statistic", "why_tests_cant": "Tests compare a few rows of one file with stored values; whether every row, whatever the others contain, gets its own statistic is not a matter of samples.", "anchors": ["metcalcpy/sum_stat.py:SumStat.calculate_stats", "metcalcpy/sum_stat.py:SumStat.process_rows", "metcalcpy/sum_stat.py:calculate_statistic"]}
{"id": "C108", "title": "Values joined with ';' are aggregated before a summary is computed", "statement": "When a requested series or independent value joins several values with ';' (EAST;NMT), the rows of these values are aggregated into one and the summary has the statistic of the aggregate.", "quantifier": "every table and every request with a joined value", "why_tests_cant": "Tests run requests without joined values, or with date-times that switch the aggregation on by accident.", "anchors": ["metcalcpy/sum_stat.py:SumStat.aggregate_special_fields"]}
{"id": "C109", "title": "A summary of two axes keeps the rows of both", "statement": "A summary of a request with two axes has the rows requested on the first axis and those requested on the second.", "quantifier": "every table and every request with two axes", "why_tests_cant": "Tests use one axis, or independent values for which no row is filtered.", "anchors": ["metcalcpy/sum_stat.py:SumStat.aggregate_special_fields", "metcalcpy/sum_stat.py:SumStat.calculate_stats"]}
{"id": "C110", "title": "A scorecard has a row for every comparison with data", "statement": "For every requested comparison of two series and every independent value at which both series have input rows, the scorecard has a row that carries the name of the comparison, its lead, the other labels of the first series, and the value of the operation on exactly the rows of the two series named; it has no other rows.", "quantifier": "every table and every request with series, comparisons and independent values", "why_tests_cant": "Tests run one request with two models; which of many comparisons find their own rows depends on all value names at once.", "anchors": ["metcalcpy/scorecard.py:Scorecard.calculate_scorecard_data", "metcalcpy/scorecard.py:Scorecard._get_stats_for_derived"]}
{"id": "C111", "title": "DIFF is the difference of means and SINGLE the mean", "statement": "The value of a DIFF comparison is the mean of the first series minus the mean of the second, the value of a SINGLE row is the mean of the series; a missing input value makes it missing, and series with different numbers of values are refused.", "quantifier": "all row sets of any size, in any order", "why_tests_cant": "Tests compare a few sample means; independence of the row order and the behaviour for every mismatch are statements about all tables.", "anchors": ["metcalcpy/scorecard.py:Scorecard._get_stats_for_derived", "metcalcpy/util/utils.py:calc_derived_curve_value"]}
{"id": "C112", "title": "Significance pairs the values of the same case", "statement": "The significance of a comparison is computed from pairs of values that belong to the same valid time and lead; series with different cases are refused.", "quantifier": "all row sets of both series", "why_tests_cant": "Sample files have the same cases in the same order in both series.", "anchors": ["metcalcpy/scorecard.py:Scorecard._get_stats_for_derived", "metcalcpy/util/utils.py:sort_data"]}
{"id": "C113", "title": "NCAR significance is the signed confidence of the paired t-test", "statement": "The NCAR significance of two paired series is the confidence 1 - p of the two-sided paired t-test, negative exactly when the first series is farther from the perfect score; it lies in [-1, 1], and exchanging the series negates it.", "quantifier": "all paired series of at least two values, all t distributions", "why_tests_cant": "Sign, range and antisymmetry are statements about all pairs of series; samples miss ties and constant differences.", "anchors": ["metcalcpy/scorecard.py:Scorecard._calculate_diff_sig_ncar", "metcalcpy/util/utils.py:perfect_score_adjustment", "metcalcpy/util/utils.py:pt"]}
{"id": "C114", "title": "Significance is judged by the perfect score of the compared statistic", "statement": "The sign of the significance of a comparison is decided by the perfect score of the statistic compared.", "quantifier": "all lists of requested statistics and all series", "why_tests_cant": "Tests request one statistic, for which the first one is the right one.", "anchors": ["metcalcpy/scorecard.py:Scorecard._calculate_diff_sig_ncar", "metcalcpy/scorecard.py:Scorecard._calculate_diff_sig_emc"]}
{"id": "C115", "title": "The table of economic values has the curve of every series", "statement": "For contingency counts, the run writes, for every combination of requested series values and every multiple of the step between 0 and 1, the relative economic value of the counts summed over exactly the rows with those values, together with the number of those rows; a series without data has no effect on the others. For probabilistic counts a run gives a curve for every threshold.", "quantifier": "all input tables, all requested series values, all steps", "why_tests_cant": "Tests request series that all have data, of one line type, with one step; which rows enter a sum, what a missing series does to the rest, and the installed NumPy decide the table.", "anchors": ["metcalcpy/agg_eclv.py:AggEclv.__init__", "metcalcpy/agg_eclv.py:AggEclv._proceed_with_axis", "metcalcpy/agg_eclv.py:AggEclv._get_bootstrapped_stats", "metcalcpy/util/eclv_statistics.py:calculate_eclv"]}
{"id": "C116", "title": "Spread/skill statistics of a group of bins are those of all their points", "statement": "In an aggregation run over spread/skill lines (one line per bin of points), the mean forecast, mean observation, mean error, mean squared error and correlation are those of all points of all bins pooled together (rounded), and the spread is the root of the mean ensemble variance of all points; every other scalar statistic equals the scalar statistic of the same rows with the bin counts as totals.", "quantifier": "all tables of bins, any number of bins and points", "why_tests_cant": "Weights come from a renamed column; only particular tables are tried, and the equality with the pooled statistics is over all partitions into bins.", "anchors": ["metcalcpy/util/ssvar_statistics.py:calculate_ssvar_spread", "metcalcpy/util/ssvar_statistics.py:calculate_ssvar_me", "metcalcpy/util/ssvar_statistics.py:calculate_ssvar_pr_corr", "metcalcpy/agg_stat.py:AggStat._prepare_ssvar_data"]}
{"id": "C117", "title": "Every spread/skill statistic is available for every way of naming the columns", "statement": "The anomaly correlation of spread/skill lines depends on the data only, and not on how the array of column names was made; in an aggregation run it, like the total number of pairs, can be requested.", "quantifier": "all tables and both kinds of name arrays", "why_tests_cant": "A test uses one array of names; whether the new names fit depends on the longest name in it.", "anchors": ["metcalcpy/util/ssvar_statistics.py:calculate_ssvar_anom_corr", "metcalcpy/util/ssvar_statistics.py:calculate_ssvar_total", "metcalcpy/agg_stat.py:AggStat._prepare_ssvar_data"]}
{"id": "C118", "title": "The biweight midcorrelation is a robust correlation", "statement": "bicor(x, y) is undefined exactly when there are no cases or one variable has median absolute deviation 0; otherwise it is the normalized product of Tukey's biweights, lies in [-1, 1], is the same for exchanged variables and reordered cases, is 1 for x against itself, is unchanged by positive and reversed by negative linear rescaling, and does not move when a value beyond c deviations from the median moves further out. Its p-value is a probability that falls as the coefficient grows.", "quantifier": "all lists of pairs of any length, all tuning constants above 2, all linear maps", "why_tests_cant": "Tests compare a few samples with reference numbers; invariance under reordering, scaling and outliers concerns all samples.", "anchors": ["metcalcpy/util/correlation.py:bicor"]}
{"id": "C119", "title": "The percentage bend correlation is a robust correlation", "statement": "percbend(x, y, beta) is the normalized product of the values standardized by the bend location and scale and cut off at -1 and 1; it lies in [-1, 1], is the same for exchanged variables and reordered cases, is 1 for x against itself and follows linear rescaling by its sign. Without cases it raises IndexError. With bend scale 0 it is undefined if some value equals the mean, and otherwise it is computed from the signs of the deviations from the mean.", "quantifier": "all lists of pairs of any length, all beta in [0, 1]", "why_tests_cant": "Tests compare a few samples with reference numbers; the claims are about every sample, including those with a zero scale.", "anchors": ["metcalcpy/util/correlation.py:percbend"]}
{"id": "C120", "title": "The row returned by corr() describes the complete pairs", "statement": "corr(x, y) gives the same row for the data and for its complete pairs; n is their number; the coefficient lies in [-1, 1]; r2 is its square and adj_r2 never exceeds it; the one-sided p-value is half the two-sided one; without a coefficient every other entry is missing; for the robust methods neither the order of the cases nor that of the variables matters; unequal lengths, unknown tails and unknown methods are refused; the columns are the documented ones.", "quantifier": "all arrays with missing values, both tails, all methods, any behaviour of the scipy coefficients", "why_tests_cant": "A test fixes one table; how missing members interact with n, the adjusted coefficient and the interval depends on the data.", "anchors": ["metcalcpy/util/correlation.py:corr", "metcalcpy/util/correlation.py:_postprocess_dataframe"]}
{"id": "C121", "title": "Confidence intervals of correlations and standardized differences", "statement": "compute_esci returns, for a coefficient strictly between -1 and 1 and more than three cases, ordered bounds in [-1, 1] that contain the coefficient, are symmetric on Fisher's scale, never widen with more cases or a lower level, and are mirrored when the sign of the coefficient is reversed. For standardized differences the interval is centred at the statistic.", "quantifier": "all coefficients, sample sizes, levels and numbers of decimals", "why_tests_cant": "Containment and monotonicity after rounding are statements about every coefficient and every size.", "anchors": ["metcalcpy/util/correlation.py:compute_esci"]}
{"id": "C122", "title": "The power of a correlation test is a probability", "statement": "power_corr(r, n, alpha=...) is a probability for more than four cases and missing otherwise, is the same for r and -r, is 1 for |r| = 1, and in the one-sided case never falls as |r| grows; coefficients outside [-1, 1] and levels outside (0, 1] are refused.", "quantifier": "all coefficients, sample sizes, levels and both tails, any symmetric distribution function for the normal one", "why_tests_cant": "Sampled values of the power say nothing about the sum of the two tails staying below 1 for all sizes.", "anchors": ["metcalcpy/util/correlation.py:power_corr"]}
{"id": "C123", "title": "Aggregating a list of leads gives one row per valid time", "statement": "aggregate_field_values with a lead value listing several leads (\"12;24\") leaves the rows of other leads unchanged and in order and replaces the rows of the listed leads by exactly one row per valid time, carrying the list as its lead and the pooled fields; a listed lead that is not an integer is rejected.", "quantifier": "every frame, every list of leads, every line type", "why_tests_cant": "The loop mutates the frame by index label while grouping by valid time only; correctness depends on an invariant over all passes.", "anchors": ["metcalcpy/util/utils.py:aggregate_field_values", "metcalcpy/util/utils.py:calc_series_sums"]}
{"id": "C124", "title": "Blocked longitudes close to each other form groups around the latitude circle", "statement": "run_Calc_GIBL marks on every day exactly the longitudes inside a group of blocked longitudes that covers at least the required number of degrees (IBL_in_GIBL), neighbouring blocked longitudes of a group being at most the allowed distance (IBL_DIST) apart, where the circle has no preferred starting longitude.", "quantifier": "every day of blocking flags on 360 longitudes, every required extent from 2 to 360", "why_tests_cant": "The circle is read twice and folded back with index arithmetic; a test fixes a handful of days out of 2^360, and groups across longitude 0 are rare in them.", "anchors": ["metcalcpy/contributed/blocking_weather_regime/Blocking.py:BlockingCalculation.run_Calc_GIBL"]}
{"id": "C125", "title": "A longitude is blocked when heights north of the central latitude exceed those south of it", "statement": "run_mod_blocking1d with method PH marks a longitude as blocked exactly when, for at least one of the offsets of the central blocking latitude, the mean height of the band to the north exceeds the mean height of the band to the south, and the index is the largest of these differences.", "quantifier": "every height column, every central latitude, band width and list of offsets", "why_tests_cant": "Bands are selected by index arithmetic on the latitude grid; errors at the grid end or at odd widths depend on the central latitude of the data.", "anchors": ["metcalcpy/contributed/blocking_weather_regime/Blocking.py:BlockingCalculation.run_mod_blocking1d"]}
{"id": "C126", "title": "The central blocking latitude is smoothed around the circle", "statement": "run_CBL smooths the latitude of the largest variance by the mean over the given number of longitudes centred at each longitude, read around the circle, cut to an integer; turning the circle turns the result, a constant profile is unchanged, and the result stays in the range of the latitudes.", "quantifier": "every profile of latitudes on any number of longitudes, every window whose half width fits the circle", "why_tests_cant": "Wrap-around at both ends is built from slices; a one-off there changes two longitudes out of hundreds.", "anchors": ["metcalcpy/contributed/blocking_weather_regime/Blocking.py:BlockingCalculation.run_CBL"]}
{"id": "C127", "title": "Weather regimes are numbered by decreasing frequency", "statement": "After clustering, run_K_means numbers the regimes from 1 by decreasing frequency; labels of days, patterns and frequencies use the same numbering, days share a label exactly when they shared a cluster, every frequency is the fraction of days with that label, and the frequencies sum to 1.", "quantifier": "every clustering of every non-empty set of days, any argsort that sorts", "why_tests_cant": "Labels, patterns and fractions are reordered by separate index computations; agreement for all clusterings is not visible in samples, and ties allow several orders.", "anchors": ["metcalcpy/contributed/blocking_weather_regime/WeatherRegime.py:WeatherRegimeCalculation.run_K_means"]}
{"id": "C128", "title": "Forecast regimes are renumbered consistently", "statement": "reorder_fcst_regimes and reorder_fcst_regimes_correlate renumber forecast regimes: every day gets a label, and the pattern and frequency at the new label are those of its old regime; with correlation, every observed regime is given the forecast regime that correlates best with it.", "quantifier": "every set of patterns, frequencies, days and order", "why_tests_cant": "Whether the best matches form a permutation depends on the data; otherwise the result contains whatever memory held.", "anchors": ["metcalcpy/contributed/blocking_weather_regime/Blocking_WeatherRegime_util.py:reorder_fcst_regimes", "metcalcpy/contributed/blocking_weather_regime/Blocking_WeatherRegime_util.py:reorder_fcst_regimes_correlate"]}
{"id": "C129", "title": "Regime frequencies count the days of every window", "statement": "compute_wr_freq gives, for every window of the given length inside a year, the number of days of every regime, and these numbers sum to the length of the window.", "quantifier": "every year of labels, every window length and number of regimes", "why_tests_cant": "The number and ends of windows are computed by index arithmetic; short years and full-length windows are boundary cases.", "anchors": ["metcalcpy/contributed/blocking_weather_regime/WeatherRegime.py:WeatherRegimeCalculation.compute_wr_freq"]}
{"id": "C130", "title": "Detrending removes the trend of every grid point", "statement": "weights_detrend returns weighted height anomalies whose linear trend over the years is zero at every grid point.", "quantifier": "every series of heights without missing values, every weight", "why_tests_cant": "Whether a fitted line was removed is a statement about all series; a test that looks at shapes or at stationary data cannot see it.", "anchors": ["metcalcpy/contributed/blocking_weather_regime/WeatherRegime.py:WeatherRegimeCalculation.weights_detrend"]}
{"id": "C131", "title": "The elbow is the point farthest below the chord", "statement": "run_elbow returns exactly the numbers of clusters whose point on the curve of inertias is farthest below the straight line from the first to the last point, whatever the scale of the inertias.", "quantifier": "every curve of at least two real numbers", "why_tests_cant": "The distance is computed from angles and norms; equality with the chord criterion is an identity over the reals.", "anchors": ["metcalcpy/contributed/blocking_weather_regime/WeatherRegime.py:WeatherRegimeCalculation.run_elbow"]}
{"id": "C132", "title": "The lead label of a field gives hours, minutes and seconds of the lead", "statement": "The lead returned by read_nc_met for a field is the text of the hours followed by two digits of minutes and two digits of seconds, which add up to the time from initialisation to valid time; different leads have different labels.", "quantifier": "every number of seconds, also negative", "why_tests_cant": "Injectivity and the padding of all numbers are statements about infinitely many leads.", "anchors": ["metcalcpy/contributed/blocking_weather_regime/Blocking_WeatherRegime_util.py:read_nc_met"]}
{"id": "C133", "title": "A matched pair file has one line of 37 columns per point, under a name of its own", "statement": "write_mpr_file writes for every day with a forecast a file of its own with one line per point, numbered from 1; read as blank-separated columns, every line has the 37 columns of the MPR format with forecast before observation.", "quantifier": "every set of names, times, values and points", "why_tests_cant": "Whether columns shift depends on every text being present and free of blanks; widths are computed from the texts.", "anchors": ["metcalcpy/contributed/blocking_weather_regime/Blocking_WeatherRegime_util.py:write_mpr_file"]}
{"id": "C134", "title": "The autocorrelation of revisions uses pairs of values of the same revision", "statement": "auto_cor_r returned by calculate_mtd_revision_stats is computed from pairs of values of one revision only, never from values of different revisions; it does not depend on the names of the revisions nor on level and unit of the values.", "quantifier": "every frame of revisions and values, every largest lag", "why_tests_cant": "The revisions are joined with a single missing value between them; which pairs meet at a lag depends on all lengths.", "anchors": ["metcalcpy/util/utils.py:calculate_mtd_revision_stats", "metcalcpy/util/correlation.py:acf"]}
{"id": "C135", "title": "The runs test of revisions is the test of the values joined revision after revision", "statement": "ww_run returned by calculate_mtd_revision_stats is the left-sided p-value, rounded to two decimals, of the Wald-Wolfowitz test of all present values joined revision after revision in the order of first appearance; separators and the subtraction of the mean play no role, and nothing is reported without rows or columns.", "quantifier": "every frame of revisions and values", "why_tests_cant": "Invariance under centring and separators is a statement about all data.", "anchors": ["metcalcpy/util/utils.py:calculate_mtd_revision_stats", "metcalcpy/util/wald_wolfowitz_runs_test.py:runs_test"]}
{"id": "C136", "title": "The p-value of the autocorrelation of revisions measures the autocorrelation", "statement": "auto_cor_p returned by calculate_mtd_revision_stats is the p-value of the reported autocorrelation: it depends on the values, and strong autocorrelation has a smaller p-value than weak autocorrelation.", "quantifier": "every frame of revisions and values", "why_tests_cant": "That the number ignores the data is a statement about all pairs of data sets.", "anchors": ["metcalcpy/util/utils.py:calculate_mtd_revision_stats"]}
{"id": "C137", "title": "Heights of pressure levels follow the hypsometric equation from the surface", "statement": "height_from_pressure gives every pressure level above the surface the height obtained by adding to the surface height the layer from the surface to the first level above it and the layers between the levels, each of thickness (R/g) Tv log(p1/p2).", "quantifier": "every column of decreasing positive pressures, every surface pressure and geopotential, every virtual temperature that is not negative", "why_tests_cant": "Where the surface lies relative to the levels is a continuum; the first layer above the surface is the only one that shows an error, and it shifts the whole column.", "anchors": ["metcalcpy/vertical_interp.py:height_from_pressure"]}
{"id": "C138", "title": "Levels below the surface have no height, and heights increase upwards", "statement": "height_from_pressure marks a level as missing exactly when it is not above the surface, and the heights of the other levels increase upwards.", "quantifier": "every column of decreasing positive pressures, every surface pressure", "why_tests_cant": "The mask is a conjunction of strict comparisons with the neighbouring levels; equality is a measure-zero case that real-valued tests miss.", "anchors": ["metcalcpy/vertical_interp.py:height_from_pressure"]}
{"id": "C139", "title": "A requested level means the same height whatever its unit", "statement": "vertical_interp returns the same values when the requested levels, with vertical_level_units, are expressed in another unit of length.", "quantifier": "every column, every list of levels, all units of length", "why_tests_cant": "The factor is 1 whenever both units agree, as in all configurations shipped with the package.", "anchors": ["metcalcpy/vertical_interp.py:vertical_interp"]}
{"id": "C140", "title": "References to environment variables in a configuration are replaced by their values", "statement": "parse_config replaces every ${NAME} in a tagged value by the value of the environment variable NAME, or by NAME itself if it is not defined, and leaves the rest of the text alone; the order in which variables are mentioned does not matter.", "quantifier": "every environment, every configuration value", "why_tests_cant": "Replacements are applied one after the other to the whole text, so a value that itself contains a reference is expanded or not depending on the order of mention; tests use plain values.", "anchors": ["metcalcpy/util/read_env_vars_in_config.py:parse_config"]}
{"id": "C141", "title": "Flipping longitudes keeps data at their places", "statement": "lonFlip relabels a field between longitudes -180..180 and 0..360: every value stays with its longitude (modulo 360), the labels come out ascending, and flipping twice returns the original field.", "quantifier": "every field on ascending longitudes that are all in -180..180 or all in 0..360", "why_tests_cant": "The data are rolled by a count of longitudes that is right only when as many longitudes lie west as east of Greenwich; the global grids used in examples have that symmetry.", "anchors": ["metcalcpy/contributed/tropical_diagnostics/utils.py:lonFlip", "metcalcpy/contributed/spacetime/spacetime_utils.py:lonFlip"]}
{"id": "C142", "title": "The mean of the previous 120 days is removed", "statement": "rem_120day_mean subtracts from every value the mean of the values of the last 120 days, itself included; before 120 days have passed, the mean of all values so far.", "quantifier": "every series, every number of times per day", "why_tests_cant": "The window is counted in times, with the spacing taken from the first two; only regularly spaced test data are used.", "anchors": ["metcalcpy/contributed/rmm_omi/compute_mjo_indices.py:rem_120day_mean"]}
{"id": "C143", "title": "The OMI filter keeps exactly the eastward intraseasonal band", "statement": "perform_3dim_spectral_filtering, used by omi, keeps the spectral components whose period and zonal wavenumber lie in the band and zeroes the others, whatever the number of times and longitudes.", "quantifier": "every number of times and of longitudes, every band, every component", "why_tests_cant": "With an odd number of times the axis of frequencies is shifted by one against the data, which is a small change of a smooth curve.", "anchors": ["metcalcpy/contributed/rmm_omi/compute_mjo_indices.py:perform_3dim_spectral_filtering"]}
{"id": "C144", "title": "Tapering brings both ends to zero and leaves the middle alone", "statement": "taper_vector_to_zero makes the first and the last value zero, multiplies the others within the window of either end by factors in [0, 1], leaves the values between unchanged, and treats a reversed series as the reverse of the series; a window longer than the series is refused.", "quantifier": "every series, every length of the ramp", "why_tests_cant": "A claim about all lengths and ramps, including ramps longer than half of the series.", "anchors": ["metcalcpy/contributed/rmm_omi/compute_mjo_indices.py:taper_vector_to_zero"]}
{"id": "C145", "title": "Fields on different grids are refused", "statement": "rmm and omi raise an error when the data and the EOFs are not on the same longitudes (and latitudes).", "quantifier": "all grids of data and EOFs", "why_tests_cant": "The comparison is made after the labels have been aligned, so that it never fails; a test with equal grids cannot see this.", "anchors": ["metcalcpy/contributed/rmm_omi/compute_mjo_indices.py:omi", "metcalcpy/contributed/rmm_omi/compute_mjo_indices.py:rmm"]}
{"id": "C146", "title": "The indices are the least squares coefficients of the EOFs", "statement": "The two principal components of a day are the coefficients that minimise the squared distance of the field to a combination of the two EOFs of that day of the year; a field that is such a combination gives back its coefficients; leap years use 366 days.", "quantifier": "every field, every pair of linearly independent EOFs, every day", "why_tests_cant": "Optimality is a statement about all other pairs of coefficients.", "anchors": ["metcalcpy/contributed/rmm_omi/compute_mjo_indices.py:regress_vector_onto_eofs", "metcalcpy/contributed/rmm_omi/compute_mjo_indices.py:regress_3dim_data_onto_eofs", "metcalcpy/contributed/rmm_omi/compute_mjo_indices.py:rmm"]}
{"id": "C147", "title": "Wave activity is computed from departures from the annual cycle", "statement": "From every value the climatological mean of its calendar day is removed: the departures of each calendar day average to zero, and adding any annual cycle to the data makes no difference. A record without a repeated calendar day uses departures from the overall mean instead.", "quantifier": "every record, with missing values anywhere, every annual cycle", "why_tests_cant": "Whether days repeat is decided by day of the year, while the climatology goes by month and day; these differ only across leap years.", "anchors": ["metcalcpy/contributed/tropical_diagnostics/ccew_activity.py:rem_seas_cyc", "metcalcpy/contributed/tropical_diagnostics/ccew_activity.py:rem_seas_mean", "metcalcpy/contributed/tropical_diagnostics/ccew_activity.py:wave_activity"]}
{"id": "C148", "title": "Activity skill is the correlation with the observed line", "statement": "wave_skill returns, for every forecast hour and every forecast line, the correlation of that line with the observed line of the same hour, and leaves the activities passed to it unchanged.", "quantifier": "every array of activities, any number of hours, lines and times", "why_tests_cant": "The result shares memory with the argument and loses axes of length one; the value returned looks right for usual shapes.", "anchors": ["metcalcpy/contributed/tropical_diagnostics/ccew_activity.py:wave_skill"]}
{"id": "C153", "title": "The window applied to time segments is symmetric and positive", "statement": "window_cosbell returns one weight for each value, in (0, 1], symmetric about the middle, and equal to 1 but for about half of the given percentage of values at either end.", "quantifier": "every length of at least two, every fraction between 0 and 1", "why_tests_cant": "A claim about all lengths and fractions.", "anchors": ["metcalcpy/contributed/spacetime/spacetime.py:window_cosbell"]}
{"id": "C152", "title": "The 1-2-1 smoother conserves the sum", "statement": "smooth121_1D returns as many values as it is given, with the same sum, and every smoothed value lies between the smallest and the largest value; values next to a missing one are smoothed with the neighbour they have, and the others do not depend on it.", "quantifier": "every series, of any length, with or without missing values", "why_tests_cant": "The conservation of the sum is a claim about all series; tests have series of usual length without missing values.", "anchors": ["metcalcpy/contributed/spacetime/spacetime.py:smooth121_1D"]}
{"id": "C154", "title": "Every segment that fits into the data is used", "statement": "mjo_cross uses every segment of the given length that lies within the data, the first at the first time, each following one overlapping the one before it by the number of values given, and ends.", "quantifier": "every number of times, segment length and overlap", "why_tests_cant": "One missing segment at the end changes averages slightly; endless loops are not tested.", "anchors": ["metcalcpy/contributed/spacetime/spacetime.py:mjo_cross"]}
{"id": "C155", "title": "Frequencies and wavenumbers of cross spectra are labelled correctly", "statement": "In the spectra of mjo_cross, the column labelled with a wavenumber holds the coefficients of eastward waves of this wavenumber, and the row labelled with a frequency holds those of this frequency in cycles per time step.", "quantifier": "every number of longitudes and every segment length", "why_tests_cant": "Labels go wrong depending on segment lengths modulo four; a test has one length.", "anchors": ["metcalcpy/contributed/spacetime/spacetime.py:mjo_cross", "metcalcpy/contributed/spacetime/spacetime.py:mjo_cross_segment_realfft"]}
{"id": "C156", "title": "Coherence squared lies between 0 and 1", "statement": "For any two signals the coherence squared of mjo_cross lies in [0, 1] wherever there is one and the phase components are minus the sine and the cosine of the phase; signals that differ by a complex factor at all frequencies have coherence 1 and the phase of this factor; the time mean has none.", "quantifier": "all signals, numbers of segments, latitudes and frequencies", "why_tests_cant": "It is an inequality over all signals, which averaging over latitudes and segments and smoothing have to preserve.", "anchors": ["metcalcpy/contributed/spacetime/spacetime.py:mjo_cross", "metcalcpy/contributed/spacetime/spacetime.py:mjo_cross_coh2pha", "metcalcpy/contributed/spacetime/spacetime.py:smooth121"]}
{"id": "C157", "title": "Symmetric and antisymmetric parts about the equator", "statement": "get_symmasymm returns, for the latitudes of the data that are not negative (positive for the antisymmetric part) and in their order, half of the sum (difference) of the values at this and at the opposite latitude.", "quantifier": "all data on latitudes that are symmetric about the equator, in ascending or descending order, with or without the equator", "why_tests_cant": "It depends on the order of latitudes and on their number being even or odd.", "anchors": ["metcalcpy/contributed/spacetime/spacetime.py:get_symmasymm"]}
{"id": "C158", "title": "The two functions for the spectra of a segment agree", "statement": "mjo_cross_segment and mjo_cross_segment_realfft give the same powers, co- and quadrature spectra at the frequencies they share, and mjo_cross_segment repeats the lowest frequency as the highest one for all of them if the number of times is even.", "quantifier": "all coefficients, latitudes, even and odd numbers of times and longitudes", "why_tests_cant": "Only one of the two is tested, with one parity of the axes.", "anchors": ["metcalcpy/contributed/spacetime/spacetime.py:mjo_cross_segment", "metcalcpy/contributed/spacetime/spacetime.py:mjo_cross_segment_realfft"]}
{"id": "C159", "title": "The wave filter keeps the waves in the given ranges", "statement": "kf_filter without equivalent depths returns an eastward wave unchanged if its wavenumber lies between kMin and kMax and its period between tMin and tMax, removes it otherwise, and returns data of the size of its input.", "quantifier": "all numbers of times and longitudes, wavenumbers, numbers of cycles and limits", "why_tests_cant": "A shift by one wavenumber leaves plausible filtered fields; the claim ranges over all waves.", "anchors": ["metcalcpy/contributed/spacetime/spacetime.py:kf_filter", "metcalcpy/contributed/spacetime/spacetime.py:kf_filter_mask"]}
{"id": "C163", "title": "The wave filter keeps the waves of the given equivalent depths", "statement": "kf_filter with equivalent depths keeps, of the waves in the given ranges, those that lie between the dispersion curves of the given wave type for the two depths; the result depends on its arguments only.", "quantifier": "all wavenumbers, frequencies, depths, one or both of them given", "why_tests_cant": "Uninitialised memory is usually zero in tests, and dispersion curves are not checked wave by wave.", "anchors": ["metcalcpy/contributed/spacetime/spacetime.py:kf_filter", "metcalcpy/contributed/spacetime/spacetime.py:kf_filter_mask"]}
{"id": "C149", "title": "Amplitudes and phases of zonal waves", "statement": "zonal_wave_ampl_phase of data that are a mean and a sum of zonal waves returns at every wavenumber the amplitude of the wave of this wavenumber (zero if there is none) and its phase, in radians or degrees.", "quantifier": "every number of longitudes, all amplitudes and phases, all wavenumbers that the longitudes resolve", "why_tests_cant": "It is a statement about all superpositions of waves; tests use one field.", "anchors": ["metcalcpy/pre_processing/waves.py:zonal_wave_ampl_phase", "metcalcpy/pre_processing/waves.py:zonal_wave_coeffs"]}
{"id": "C150", "title": "The contributions of the waves add up to the data", "statement": "zonal_wave_contributions returns for every wavenumber asked for the part of the data with this wavenumber; the parts of all wavenumbers add up to the data.", "quantifier": "all data, even and odd numbers of longitudes, all selections of waves, both packages", "why_tests_cant": "Tests do not cover odd numbers of longitudes or selections; the sum is a claim about all data.", "anchors": ["metcalcpy/pre_processing/waves.py:zonal_wave_contributions"]}
{"id": "C151", "title": "Covariances by wavenumber", "statement": "zonal_wave_covariance returns for all pairs of fields of equal shape the covariance of the two fields at every wavenumber.", "quantifier": "all pairs of fields", "why_tests_cant": "No test calls it.", "anchors": ["metcalcpy/pre_processing/waves.py:zonal_wave_covariance"]}
{"id": "C164", "title": "The Kelvin dispersion curve", "statement": "kelvin_mode returns the asked for number of evenly spread wavenumbers from -max_wn to max_wn, mirrored about zero, and gives exactly the eastward ones a frequency: the cycles per day of waves of this number around the circle of latitude that move at the speed sqrt(g he).", "quantifier": "all equivalent depths, latitudes between the poles, ranges and numbers of wavenumbers", "why_tests_cant": "It is an identity for all depths, latitudes and wavenumbers, units included; no test calls the function.", "anchors": ["metcalcpy/contributed/spacetime/matsuno_plot.py:kelvin_mode", "metcalcpy/contributed/spacetime/matsuno_plot.py:wn_array", "metcalcpy/contributed/spacetime/matsuno_plot.py:wn2k", "metcalcpy/contributed/spacetime/matsuno_plot.py:afreq2freq", "metcalcpy/contributed/spacetime/matsuno_plot.py:beta_parameters"]}
{"id": "C165", "title": "The curves of meridional mode zero solve the dispersion relation", "statement": "mrg_mode gives exactly the westward and eig_n_0 exactly the eastward wavenumbers a frequency, and it is the only positive solution of the dispersion relation of mode 0 without the false solution w = -c k; the westward ones stay below and the eastward ones above sqrt(beta c).", "quantifier": "all positive equivalent depths, latitudes between the poles, all wavenumbers", "why_tests_cant": "Existence and uniqueness of solutions for all wavenumbers.", "anchors": ["metcalcpy/contributed/spacetime/matsuno_plot.py:mrg_mode", "metcalcpy/contributed/spacetime/matsuno_plot.py:eig_n_0"]}
{"id": "C166", "title": "Rossby and gravity curves are the right solutions", "statement": "er_n, wig_n and eig_n give exactly their own side of wavenumber zero a frequency. If the numerical search ends in the positive zero next to its start, er_n is the smaller and wig_n the larger of exactly two positive solutions of Matsuno's relation, below and above the Kelvin wave of the same length, eig_n is the only positive solution and lies above the Kelvin wave, and curves of different mode numbers do not cross.", "quantifier": "all modes n >= 1, positive equivalent depths, latitudes between the poles, all wavenumbers, all searches of this kind", "why_tests_cant": "That the start of the search lies on the right side of the right solution has to hold for a continuum of wavenumbers and depths.", "anchors": ["metcalcpy/contributed/spacetime/matsuno_plot.py:er_n", "metcalcpy/contributed/spacetime/matsuno_plot.py:wig_n", "metcalcpy/contributed/spacetime/matsuno_plot.py:eig_n", "metcalcpy/contributed/spacetime/matsuno_plot.py:dispersion"]}
{"id": "C167", "title": "The frame of all modes keeps rows and columns apart", "statement": "matsuno_dataframe and matsuno_modes_wk have one row per wavenumber, in order, and per mode exactly the values of the mode's own function, in the order Kelvin, MRG, EIG(n=0), and ER, EIG, WIG of each mode number.", "quantifier": "all lists of mode numbers, ranges and numbers of wavenumbers", "why_tests_cant": "The frame is built by repeated joins on float wavenumbers; that they never lose or multiply rows is a statement about all ranges.", "anchors": ["metcalcpy/contributed/spacetime/matsuno_plot.py:matsuno_dataframe", "metcalcpy/contributed/spacetime/matsuno_plot.py:matsuno_modes_wk"]}
{"id": "C160", "title": "The wind power weights currents with the Kelvin wave", "statement": "calc_wpower_MJO multiplies both current anomalies of a latitude with one weight that depends on the latitude only, a positive discrete Gaussian that decays away from the equator, and adds the products with the stresses; it returns for every grid of latitudes that spans the equator.", "quantifier": "all grids of latitudes, all fields", "why_tests_cant": "The recurrences run outward from the row nearest to the equator; whether each row is filled, stays positive and decays depends on the whole grid.", "anchors": ["metcalcpy/contributed/mjo_enso/compute_mjo_enso.py:calc_wpower_MJO"]}
{"id": "C161", "title": "Monthly indices belong to their months", "statement": "make_maki gives a month the smallest daily value of the 90 days from the first of the month on (as its comment says), divided by the standard deviation of all these, and returns for every daily record of more than 90 days.", "quantifier": "all daily records and values", "why_tests_cant": "The values are collected by a date that walks month by month with the day of the 91st day, the labels by another rule; only the calendar as a whole shows when the two agree.", "anchors": ["metcalcpy/contributed/mjo_enso/compute_mjo_enso.py:make_maki"]}
{"id": "C168", "title": "The MJO stress follows the stress", "statement": "calc_tau_MJO projects onto the MJO: multiplying the stress with a positive number multiplies the result with this number; it returns for all records of more than 10 days and filters that fit.", "quantifier": "all stresses, patterns and filters, all sizes", "why_tests_cant": "Homogeneity is a statement about all fields and factors; exceptions depend on the number of points that are not missing.", "anchors": ["metcalcpy/contributed/mjo_enso/compute_mjo_enso.py:calc_tau_MJO"]}
{"id": "C169", "title": "Missing stresses stay where they are", "statement": "A missing value of the stress makes only results of its own point missing, and points without data have no result.", "quantifier": "all stresses, patterns and filters", "why_tests_cant": "The missing value runs through two convolutions and a projection; one must follow every later sum.", "anchors": ["metcalcpy/contributed/mjo_enso/compute_mjo_enso.py:calc_tau_MJO"]}
{"id": "C170", "title": "Indices do not depend on units", "statement": "Daily MaKE and MaKI values do not change when sea surface temperatures and wind power are multiplied by positive numbers; both exist on the same days and MaKE is never below MaKI.", "quantifier": "all fields, patterns, positive factors, numbers of days and longitudes", "why_tests_cant": "An invariance over all fields and factors.", "anchors": ["metcalcpy/contributed/mjo_enso/compute_mjo_enso.py:make_maki"]}
{"id": "C171", "title": "A missing value affects its own day only", "statement": "A day whose fields are complete has index values, whatever is missing on other days.", "quantifier": "all fields, patterns, days, longitudes", "why_tests_cant": "It needs the way of every missing value through the sums of the projection and the standard deviation.", "anchors": ["metcalcpy/contributed/mjo_enso/compute_mjo_enso.py:make_maki"]}
{"id": "C172", "title": "DIFF_SIG is the signed confidence of the bootstrapped difference", "statement": "With bootstrapping, the value of a DIFF_SIG curve is, up to its sign, the share of the replicates of the difference that are no farther from their mean than the difference is from zero; it is negative exactly if the first series is farther from the perfect score, and missing exactly if a series or all replicates are missing or the statistic has no perfect score. Every replicate evaluates both series at the same cases. A statistic that cannot be computed gives an empty result.", "quantifier": "all statistics, pairs of series with the same cases, numbers of iterations and draws", "why_tests_cant": "The draws are random, so tests can only check a seed; the pairing of the cases and the share have to hold for all draws and all series.", "anchors": ["metcalcpy/agg_stat.py:AggStat._get_bootstrapped_stats_for_derived", "metcalcpy/util/utils.py:perfect_score_adjustment"]}
{"id": "C173", "title": "Swapping the series changes only the sign of DIFF_SIG", "statement": "DIFF_SIG of B and A is the negative of DIFF_SIG of A and B for the same draws.", "quantifier": "all replicates, values and statistics with a perfect score", "why_tests_cant": "A symmetry over all values, including ties.", "anchors": ["metcalcpy/agg_stat.py:AggStat._get_bootstrapped_stats_for_derived", "metcalcpy/util/utils.py:perfect_score_adjustment"]}
{"id": "C174", "title": "MCTC lines with different expected-correct values are refused", "statement": "Aggregating multi-category lines raises a ValueError unless all lines have the same, present EC_VALUE; otherwise HSS_EC is the textbook score of the pooled counts for that common value.", "quantifier": "all tables of MCTC lines with any number of lines and categories", "why_tests_cant": "Any single line among arbitrarily many can be the deviating or missing one; the score has to use the value of all lines, not of a chosen one.", "anchors": ["metcalcpy/agg_stat.py:AggStat._prepare_mctc_data", "metcalcpy/agg_stat.py:AggStat._get_bootstrapped_stats", "metcalcpy/util/mcts_statistics.py:calculate_mcts_hss_ec"]}
{"id": "C175", "title": "The aggregated multi-category HSS does not depend on the order of the lines", "statement": "Permuting the MCTC lines of a case does not change HSS_EC.", "quantifier": "all permutations of all tables of MCTC lines", "why_tests_cant": "Number of categories, expected-correct value and category pairs are read from the first line only; that this is harmless has to hold for every order.", "anchors": ["metcalcpy/util/mcts_statistics.py:calculate_mcts_hss_ec", "metcalcpy/agg_stat.py:AggStat._prepare_mctc_data"]}
{"id": "C176", "title": "Blocks are sequences of whole groups, close in time and overlapping in space", "statement": "Whatever run_Calc_Blocks returns for an array of grouped blocking is the sum of blocks: each block has at least five groups, each group is a whole run of marked longitudes of its day (read around the circle), consecutive groups are one or two days apart in the same year and have more than GIBL_OVERLAP longitudes in common, groups not going over longitude 0 have middles within BLOCK_TRAVEL of the first one, and no group is in two blocks.", "quantifier": "all arrays of any number of years and days whose days come from run_Calc_GIBL and are not wholly marked, all settings with IBL_IN_GIBL at least 2 and non-negative overlap and travel", "why_tests_cant": "Groups are found by counting around the circle, matched by position in three separate arrays, and chained greedily with removal; any number of groups a day and days a year.", "anchors": ["metcalcpy/contributed/blocking_weather_regime/Blocking.py:BlockingCalculation.run_Calc_Blocks", "metcalcpy/contributed/blocking_weather_regime/Blocking.py:BlockingCalculation.run_Calc_GIBL"]}
{"id": "C177", "title": "Blocks are marked by 0 and 1, only inside grouped blocking", "statement": "Every value run_Calc_Blocks returns is 0 or 1, and 1 only at longitudes of that day that are marked in the grouped blocking given.", "quantifier": "as C176, all years, days and longitudes", "why_tests_cant": "The result is accumulated by additions of rows of possibly several blocks; that they never overlap needs disjointness of the groups of each day and of the blocks.", "anchors": ["metcalcpy/contributed/blocking_weather_regime/Blocking.py:BlockingCalculation.run_Calc_Blocks"]}
{"id": "C178", "title": "A persistent, overlapping, nearly stationary sequence of groups is found", "statement": "When the groups of a record form one sequence in one year, one or two days apart, at least five and at least BLOCK_TIME of them, each overlapping the next by more than GIBL_OVERLAP longitudes, not going over longitude 0 and with middles within BLOCK_TRAVEL of the first, run_Calc_Blocks succeeds and marks exactly their longitudes on their days.", "quantifier": "all such records of any number of years and days, all sequences, all settings", "why_tests_cant": "Sequence length, gaps, positions and widths are arbitrary; no group at either end may be lost.", "anchors": ["metcalcpy/contributed/blocking_weather_regime/Blocking.py:BlockingCalculation.run_Calc_Blocks"]}
{"id": "C179", "title": "A block lasts at least BLOCK_TIME", "statement": "Every block run_Calc_Blocks marks has at least BLOCK_TIME groups.", "quantifier": "all arrays and settings", "why_tests_cant": "Needs a record in which another sequence of the same year brings the number of groups up to BLOCK_TIME.", "anchors": ["metcalcpy/contributed/blocking_weather_regime/Blocking.py:BlockingCalculation.run_Calc_Blocks"]}
{"id": "C180", "title": "Blocks do not depend on where longitude 0 is", "statement": "Turning all days of the grouped blocking around the latitude circle turns the blocks by the same angle.", "quantifier": "all arrays and all turns", "why_tests_cant": "The limit of travel uses a median of longitude indices; only groups going over longitude 0 with particular widths show the difference.", "anchors": ["metcalcpy/contributed/blocking_weather_regime/Blocking.py:BlockingCalculation.run_Calc_Blocks"]}
{"id": "C181", "title": "A record without blocks gives zeros", "statement": "run_Calc_Blocks returns an array of zeros when no group persists.", "quantifier": "all arrays without a block", "why_tests_cant": "Quiet records are an edge case of every stage (no group, isolated groups only, days entirely marked).", "anchors": ["metcalcpy/contributed/blocking_weather_regime/Blocking.py:BlockingCalculation.run_Calc_Blocks"]}
{"id": "C162", "title": "Wave activity is the length of the projection of the anomalies on the EOFs", "statement": "waveact returns for each time the square root of the sum over the EOF patterns (those of the month, or the annual ones) of the squared sum over the grid of pattern times anomaly, the anomaly being the deviation from the mean of that calendar day (or from the time mean when no day repeats).", "quantifier": "all data fields, times, grids and EOF patterns, including missing values, data given from north to south and grids not containing the EOF grid", "why_tests_cant": "Anomalies, label selection, alignment of labels and the reduction skipping missing values interact; grids, times and numbers of EOFs are arbitrary.", "anchors": ["metcalcpy/contributed/tropical_diagnostics/ccew_activity.py:waveact", "metcalcpy/contributed/tropical_diagnostics/ccew_activity.py:waveproj"]}
{"id": "C182", "title": "Wave activity ignores a constant background and scales with the data", "statement": "Adding to the data a field that does not change in time leaves the result of waveact unchanged; multiplying the data by a number multiplies it by the absolute value of that number; exceptions and missing values included.", "quantifier": "all data fields with any missing values, all times, grids, EOF patterns, background fields and factors", "why_tests_cant": "A relation between two runs over arbitrary grids, times and missing patterns.", "anchors": ["metcalcpy/contributed/tropical_diagnostics/ccew_activity.py:waveact", "metcalcpy/contributed/tropical_diagnostics/ccew_activity.py:waveproj"]}
{"id": "C183", "title": "Neighborhood contingency statistics are the scores of the pooled counts", "statement": "Each nbr_* statistic of a table of neighborhood contingency counts is the textbook score (base rate, accuracy, bias, POD, POFD, FAR, CSI, GSS, HSS, Hanssen-Kuipers, odds ratio) of the pooled counts, rounded to seven places, and empty exactly when its denominator is zero.", "quantifier": "all tables of any number of rows with counts of hits, false alarms, misses, correct negatives and totals", "why_tests_cant": "Each statistic is a delegation; a wrong delegation shows only on tables where two scores differ, and the number of rows is arbitrary.", "anchors": ["metcalcpy/util/nbrctc_statistics.py:calculate_nbr_*", "metcalcpy/util/ctc_statistics.py"]}
{"id": "C184", "title": "Images of a comparison can be saved in any order and number", "statement": "After a comparison of two readable images, any sequence of calls saving or showing the difference, the threshold image and either image with boxes succeeds and produces the image the call names.", "quantifier": "all pairs of images, all call sequences of any length, all image libraries", "why_tests_cant": "Lazily computed images are kept between the calls; tests call every method once, in one order.", "anchors": ["metcalcpy/compare_images.py:CompareImages"]}
{"id": "C185", "title": "Every statistic of a line type is found by its name", "statement": "For every line type, agg_stat and sum_stat call for the name of a statistic the function of the module of that line type, with the flag telling aggregation from summary when the function takes one; a name no module has is a KeyError.", "quantifier": "all line types and statistics of both programs, all unknown names", "why_tests_cant": "The function is looked up in the global names after a list of star imports: a missing import or a name shared by two modules shows only for the statistic concerned.", "anchors": ["metcalcpy/sum_stat.py:calculate_statistic", "metcalcpy/sum_stat.py:SumStat.process_rows", "metcalcpy/agg_stat.py:AggStat._calc_stats"]}
{"id": "C186", "title": "Resampling does not change the curves of economic value", "statement": "For all draws of the bootstrap, a successful run of agg_eclv with resampling writes the rows of the run without resampling, in the same order; the limits of a row are both absent or both present and ordered, and with the percentile method they are the percentiles of the values of the resamples at this cost/loss ratio.", "quantifier": "all input tables, series, line types, steps, interval methods and all draws of the random generator", "why_tests_cant": "Draws are random; tables, thresholds and series points are arbitrary.", "anchors": ["metcalcpy/agg_eclv.py:AggEclv._calc_stats", "metcalcpy/agg_eclv.py:AggEclv._get_bootstrapped_stats", "metcalcpy/agg_eclv.py:AggEclv._proceed_with_axis", "metcalcpy/bootstrap.py:bootstrap_and_value"]}
{"id": "C187", "title": "A validation run changes no file outside of its output directories", "statement": "If the METviewer scripts write only below the four output directories (xml, plots, data, scripts), then whatever the selected plots are and however the run ends, every file whose path begins with none of the four directories has after the run the content it had before.", "quantifier": "all contents of the disk, all lists of selected XML files, all image libraries, all outcomes of METviewer including failures", "why_tests_cant": "The run deletes files found by directory listings and by globs built from names in the XML files; any combination of names may occur.", "anchors": ["metcalcpy/validate_mv_python.py:main", "metcalcpy/validate_mv_python.py:clean", "metcalcpy/validate_mv_python.py:delete_similar_files"]}
{"id": "C188", "title": "A validation run judges every selected plot", "statement": "A run gives for every selected XML file, in order, the verdict of its original and its new image: both missing, identical (similarity 1), different, or one missing.", "quantifier": "all lists of plots, all images", "why_tests_cant": "The verdict is printed or left as files; exceptions of the image library depend on the pair of images; the number of plots is arbitrary.", "anchors": ["metcalcpy/validate_mv_python.py:main", "metcalcpy/compare_images.py:CompareImages"]}
{"id": "C189", "title": "The files of a differing plot are kept for inspection", "statement": "After a validation run the files made for a plot that differs from its original (image, data, scripts) are still there.", "quantifier": "all lists of plots and names", "why_tests_cant": "Files of identical plots are deleted by a pattern; whether the pattern hits files of another plot depends on the names.", "anchors": ["metcalcpy/validate_mv_python.py:main", "metcalcpy/validate_mv_python.py:delete_similar_files"]}
{"id": "C190", "title": "The band-pass filter keeps the periods between its limits", "statement": "bandpass_filter_3D lets an oscillation pass unchanged when its period is between the limits given in days and removes it otherwise.", "quantifier": "all periods that fit a whole number of times into the padded series, all limits, all time steps", "why_tests_cant": "The mask is applied to packed coefficients of the transform; tests compare arrays, not the pass band.", "anchors": ["metcalcpy/contributed/rmm_omi/compute_mjo_indices.py:bandpass_filter_3D"]}
{"id": "C191", "title": "Computing the OMI index leaves the data as they are", "statement": "The array of outgoing longwave radiation handed to omi has after the call the values it had before.", "quantifier": "all arrays, all grids, all numbers of times", "why_tests_cant": "The arrays are changed in place inside a library call; a test looks at the returned index.", "anchors": ["metcalcpy/contributed/rmm_omi/compute_mjo_indices.py:omi", "metcalcpy/contributed/rmm_omi/compute_mjo_indices.py:perform_3dim_spectral_filtering"]}
{"id": "C192", "title": "The OMI index does not depend on linear trends of the data", "statement": "Adding to the series of every grid point a linear function of time, different for every point, leaves the two components returned by omi as they were; exceptions stay the same too.", "quantifier": "all data, grids, EOFs, times and all linear functions at each grid point", "why_tests_cant": "Real data, unlimited many trends; follows from the composition of detrending, tapering, transform and projection.", "anchors": ["metcalcpy/contributed/rmm_omi/compute_mjo_indices.py:omi", "metcalcpy/contributed/rmm_omi/compute_mjo_indices.py:perform_3dim_spectral_filtering"]}
{"id": "C193", "title": "The OMI index does not depend on the unit of the data", "statement": "Multiplying the data by a positive number leaves the index returned by omi as it was, by a negative number changes its sign; whenever an index is returned its first component has standard deviation one.", "quantifier": "all data, grids, EOFs, times and all numbers other than zero", "why_tests_cant": "Real data; needs linearity of every step and the normalisation at the end.", "anchors": ["metcalcpy/contributed/rmm_omi/compute_mjo_indices.py:omi", "metcalcpy/contributed/rmm_omi/compute_mjo_indices.py:perform_3dim_spectral_filtering", "metcalcpy/contributed/rmm_omi/compute_mjo_indices.py:regress_3dim_data_onto_eofs"]}
{"id": "C194", "title": "The RMM index responds linearly to the last 120 days of the data and not to a constant background", "statement": "Adding to each field a background that does not change in time, different at every longitude, leaves the index returned by rmm as it was; its value at a time depends on no data after that time and on none more than 120 days before; the index of the sum of two records is the sum of their indices; the first value is zero.", "quantifier": "all records of the three fields, all numbers of times and longitudes, all time steps, EOFs and norms", "why_tests_cant": "Statements about pairs of records of any length; a test compares one record with stored numbers.", "anchors": ["metcalcpy/contributed/rmm_omi/compute_mjo_indices.py:rmm", "metcalcpy/contributed/rmm_omi/compute_mjo_indices.py:rem_120day_mean", "metcalcpy/contributed/rmm_omi/compute_mjo_indices.py:regress_2dim_data_onto_eofs"]}
{"id": "C195", "title": "Shepherd's pi leaves out exactly the pairs that are far away by their Mahalanobis distance", "statement": "shepherd(x, y) returns the rank correlation of exactly those pairs whose Mahalanobis distance from the resamples, averaged over the resamples, is less than 6, and marks the others; the marks do not depend on the units of the variables.", "quantifier": "all pairs, all numbers and outcomes of the random resamples", "why_tests_cant": "The resamples are random; that the triangular system gives the distance is algebra; degenerate resamples have small probability.", "anchors": ["metcalcpy/util/correlation.py:shepherd", "metcalcpy/util/correlation.py:bsmahal"]}
{"id": "C196", "title": "The Bayes factor of a correlation is the documented formula and grows with the strength of the correlation", "statement": "bayesfactor_pearson(r, n) is the documented formula (25) of Ly et al. with beta, gamma and hypergeometric functions; it is positive, is the same for r and -r and is strictly larger for a stronger correlation; it is NaN for fewer than two cases; impossible correlations and unknown alternatives are refused.", "quantifier": "all real correlations, sample sizes, alternatives and positive kappa", "why_tests_cant": "A statement about a function of real numbers given by an infinite series; tests evaluate single points.", "anchors": ["metcalcpy/util/correlation.py:bayesfactor_pearson"]}
{"id": "C197", "title": "power_corr finds the missing correlation, number of cases or level at which a test has the wanted power", "statement": "With exactly one of r, n and alpha missing, power_corr returns a value inside its search interval at which the test has exactly the wanted power, whenever the wanted power lies between the powers at the two ends of the interval, and NaN otherwise; a stronger correlation never has less power; calls with none or several of the four arguments missing are refused.", "quantifier": "all correlations, numbers of cases, levels and powers, all alternatives, every root finder that finds a root of a continuous function with a change of sign, every continuous distribution function", "why_tests_cant": "A statement about the roots of a real function for all arguments; tests compare a few numbers with an R package.", "anchors": ["metcalcpy/util/correlation.py:power_corr"]}
{"id": "C198", "title": "The object bootstrap computes each value from exactly the rows of its point and of the requested forecast variable", "statement": "With num_iterations = 1 the value AggStatBootstrap writes for an independent value, a statistic and a point is the statistic of exactly the input rows with that independent value, those series values and the forecast variable requested in fcst_var_val; nstats is the number of these rows.", "quantifier": "all input tables, series, groups, independent values, statistics and points", "why_tests_cant": "A statement about all tables; the test data hold a single forecast variable, so rows of another one never occur.", "anchors": ["metcalcpy/agg_stat_bootstrap.py:AggStatBootstrap._proceed_with_axis", "metcalcpy/agg_stat_bootstrap.py:AggStatBootstrap._get_bootstrapped_stats", "metcalcpy/agg_stat_bootstrap.py:AggStatBootstrap._calc_stats"]}
{"id": "C199", "title": "The object bootstrap of an independent value resamples the cases of that value", "statement": "The resamples from which AggStatBootstrap computes the confidence interval of an independent value are drawn from the distinct cases (valid time and independent value) of the rows with that value; each replicate is the statistic of the rows whose case was drawn.", "quantifier": "all input tables, lists of independent values, all outcomes of the random draws", "why_tests_cant": "The draws are random; tests fix the seed and compare with stored numbers, which hold whatever the pool was.", "anchors": ["metcalcpy/agg_stat_bootstrap.py:AggStatBootstrap._proceed_with_axis", "metcalcpy/bootstrap.py:bootstrap_and_value_mode"]}
{"id": "C200", "title": "The object bootstrap with event equalization writes the table of the equalized data", "statement": "AggStatBootstrap.calculate_values writes the table of the first axis followed by that of the second; with event_equal = True both are computed from the event-equalized data.", "quantifier": "all input tables, stored cases and parameters of both axes", "why_tests_cant": "No test runs the object bootstrap with event equalization; a statement about all inputs.", "anchors": ["metcalcpy/agg_stat_bootstrap.py:AggStatBootstrap.calculate_values", "metcalcpy/agg_stat_bootstrap.py:AggStatBootstrap._perform_event_equalization", "metcalcpy/agg_stat_eqz.py:AggStatEventEqz.calculate_values"]}
{"id": "C201", "title": "An aggregation with event equalization compares all series over the same cases", "statement": "With event_equal = True every value AggStat writes is the statistic of exactly the input rows of its point whose case (valid time, lead and independent value) exists for every combination of series and fixed values; hence for the same independent value and statistic all series use the same cases, and the same number of rows if no case is repeated within a series.", "quantifier": "all input tables, series variables and groups, fixed variables, independent values, statistics, and statistic functions", "why_tests_cant": "The result is a composition of filtering, equalization and aggregation over arbitrary tables; the tests compare one output file with stored numbers.", "anchors": ["metcalcpy/agg_stat.py:AggStat.calculate_stats_and_ci", "metcalcpy/agg_stat.py:AggStat._proceed_with_axis", "metcalcpy/util/utils.py:perform_event_equalization", "metcalcpy/util/utils.py:equalize_axis_data", "metcalcpy/event_equalize.py:event_equalize"]}
{"id": "C202", "title": "Event equalization never counts an input row twice", "statement": "The event-equalized data of an aggregation contains every input row at most as often as the input does, so nstats never exceeds the number of input rows of a point.", "quantifier": "all input tables, forecast variables with statistics, series, fixed variables, both axes", "why_tests_cant": "Depends on which columns the table has and how the parameters overlap; the test tables have a stat_name column and one axis.", "anchors": ["metcalcpy/util/utils.py:equalize_axis_data", "metcalcpy/util/utils.py:perform_event_equalization", "metcalcpy/agg_stat.py:AggStat.calculate_stats_and_ci"]}
{"id": "C203", "title": "Every group of series values has a name of its own", "statement": "In an aggregation the n-th series value that is a group (contains ':') on the first axis is known as Group_y1_n, on the second as Group_y2_n; all these names are different and each stands for its group.", "quantifier": "all series variables and values on both axes", "why_tests_cant": "Ranges over all numbers of groups; a test uses one or two.", "anchors": ["metcalcpy/agg_stat.py:AggStat.calculate_stats_and_ci", "metcalcpy/agg_stat.py:AggStat.group_to_value"]}
{"id": "C204", "title": "event_equal switches event equalization on and off", "statement": "With event_equal 'True' the data are equalized and with any text that says false ('False', 'false', 'no') they are not: the table is then that of the unchanged input.", "quantifier": "all input tables, parameters and texts of event_equal", "why_tests_cant": "The tests use the two exact texts 'True' and 'False' only.", "anchors": ["metcalcpy/util/utils.py:parse_bool", "metcalcpy/agg_stat.py:AggStat.calculate_stats_and_ci"]}
{"id": "C205", "title": "An aggregated score is the score of all matched pairs behind the compared cases", "statement": "When AggStat runs on SL1L2 lines, the FBAR, OBAR, FOBAR, FFBAR, OOBAR, ME and MSE it writes for a point are the mean forecast, mean observation, mean error etc. of all matched forecast/observation pairs of the point's lines taken together (with event equalization: of the lines of the common cases), rounded to seven decimals; BCMSE is that of the pool within the rounding of its parts; MBIAS is the ratio and ME2 the squared mean error of the pool, rounded likewise (MBIAS is missing if the mean observation is zero). The run completes on such input.", "quantifier": "all tables of SL1L2 lines made from arbitrary non-empty batches of pairs, series variables, groups, fixed variables, independent values; one axis, no bootstrapping", "why_tests_cant": "The end-to-end meaning (filtering, equalization, weighting by total, formula) for arbitrary data; a test compares a file of numbers that were produced by the same code.", "anchors": ["metcalcpy/agg_stat.py:AggStat.calculate_stats_and_ci", "metcalcpy/agg_stat.py:AggStat._get_bootstrapped_stats", "metcalcpy/agg_stat.py:AggStat._prepare_sl1l2_data", "metcalcpy/agg_stat.py:AggStat._calc_stats", "metcalcpy/util/utils.py:sort_data", "metcalcpy/util/sl1l2_statistics.py:calculate_me", "metcalcpy/util/sl1l2_statistics.py:calculate_mse"]}
{"id": "C206", "title": "Equalized models verified against the same observations show the same observed mean", "statement": "If all lines of one case were computed from the same observations and no case occurs twice in a series, then with event equalization AggStat writes the same OBAR (and OOBAR) for all series at each independent value.", "quantifier": "all tables of SL1L2 lines, series and fixed variables, independent values", "why_tests_cant": "A consistency claim between different rows of the output for arbitrary input.", "anchors": ["metcalcpy/agg_stat.py:AggStat.calculate_stats_and_ci", "metcalcpy/util/utils.py:perform_event_equalization", "metcalcpy/util/sl1l2_statistics.py:calculate_obar", "metcalcpy/util/sl1l2_statistics.py:calculate_oobar"]}
{"id": "C207", "title": "An aggregated contingency score is the score of the summed counts of the compared cases", "statement": "When AggStat runs on CTC lines, the BASER, ACC, FBIAS, FMEAN, PODY, POFD, PODN, FAR, CSI, ORSS, GSS and HSS it writes for a point are the textbook ratios of the hits, false alarms, misses and correct negatives added up over the point's lines (with event equalization: of the common cases), rounded to seven decimals, and missing if the denominator is zero. HK, ODDS and ODDS1 are composed of the rounded POD and POFD of the summed counts, and missing where these are.", "quantifier": "all tables of CTC lines with arbitrary counts, series variables, groups, fixed variables, independent values; one axis, no bootstrapping", "why_tests_cant": "The end-to-end meaning for arbitrary data.", "anchors": ["metcalcpy/agg_stat.py:AggStat.calculate_stats_and_ci", "metcalcpy/agg_stat.py:AggStat._prepare_ctc_data", "metcalcpy/agg_stat.py:AggStat._calc_stats", "metcalcpy/util/ctc_statistics.py:calculate_csi", "metcalcpy/util/ctc_statistics.py:calculate_gss"]}
{"id": "C208", "title": "CTC lines with different EC_VALUE are never aggregated into one score", "statement": "If AggStat delivers a table from CTC lines that carry EC_VALUE, all lines behind any one value of the table have the same EC_VALUE.", "quantifier": "all tables of CTC lines, series variables, groups, fixed variables, independent values; one axis", "why_tests_cant": "Says that no mixture of lines passes; a test can only try some.", "anchors": ["metcalcpy/agg_stat.py:AggStat._prepare_ctc_data", "metcalcpy/agg_stat.py:AggStat.calculate_stats_and_ci"]}
{"id": "C209", "title": "With event equalization an economic value curve is that of the common cases", "statement": "A run of AggEclv on CTC lines with event_equal = True lists, for every series and every multiple of cl_step between 0 and 1, the relative economic value of the counts summed over the input rows of that series whose case (valid time, lead, statistic name when equalize_by_indep) occurs for every combination of series and fixed values, and the number of these rows as nstats. If no case is common the table is empty; if cases are common but a series has no events or no non-events among them, the run raises. With event_equal = False the input is used as it is.", "quantifier": "all tables of CTC lines, series variables with single values, fixed variables, cl_step > 0; num_iterations = 1", "why_tests_cant": "The only test of the class runs with event_equal False; the claim ranges over all data and configurations.", "anchors": ["metcalcpy/agg_eclv.py:AggEclv.calculate_stats_and_ci", "metcalcpy/agg_eclv.py:AggEclv._proceed_with_axis", "metcalcpy/event_equalize.py:event_equalize"]}
{"id": "C210", "title": "Equalized economic value curves are compared over the same cases", "statement": "In a run of AggEclv with event_equal = True the rows behind the curves of any two series have the same cases; if no case occurs twice in a series, all series have the same nstats.", "quantifier": "all tables, series variables whose values are integers or texts, fixed variables, any two series", "why_tests_cant": "Relates different rows of the output for arbitrary input.", "anchors": ["metcalcpy/agg_eclv.py:AggEclv.calculate_stats_and_ci", "metcalcpy/event_equalize.py:event_equalize"]}
{"id": "C211", "title": "A group of values is a series of the economic values", "statement": "As in AggStat, a listed series value 'A:B' stands for the rows of A and B together: AggEclv gives the value curve of their summed counts.", "quantifier": "all tables and grouped series values", "why_tests_cant": "No test lists a group; the behaviour on all inputs is needed to see that it never works.", "anchors": ["metcalcpy/agg_eclv.py:AggEclv._proceed_with_axis"]}
{"id": "C212", "title": "The central blocking latitude is where the daily anomalies vary most", "statement": "run_CBL on files of one grid with 360 longitudes gives for every season and longitude the integer part of the mean, over the SMOOTHING_PTS longitudes around it, of the latitudes at which the standard deviation of the days present times sqrt(cos(latitude)) is largest (the first of the grid on ties). The result does not change when the values of a season are multiplied by a positive number, when an amount depending on the grid point is added, when days are reordered within a season or missing days are inserted; other numbers of longitudes are refused.", "quantifier": "all lists of files (some missing), numbers of seasons and days, smoothing widths up to the circle", "why_tests_cant": "Depends on all days of all seasons through an arg max of weighted deviations; invariance relates pairs of arbitrary inputs.", "anchors": ["metcalcpy/contributed/blocking_weather_regime/Blocking.py:BlockingCalculation.run_CBL", "metcalcpy/contributed/blocking_weather_regime/Blocking_WeatherRegime_util.py:read_nc_met"]}
{"id": "C213", "title": "A season without files does not change the central blocking latitude", "statement": "Files given as 'missing' are skipped: a season all of whose files are missing has no influence on the long-term central blocking latitude used by run_Calc_IBL.", "quantifier": "all lists of files with a season of missing files", "why_tests_cant": "Missing seasons are not part of any test; NaN is silently taken as the largest deviation.", "anchors": ["metcalcpy/contributed/blocking_weather_regime/Blocking.py:BlockingCalculation.run_CBL", "metcalcpy/contributed/blocking_weather_regime/Blocking.py:BlockingCalculation.run_Calc_IBL", "metcalcpy/contributed/blocking_weather_regime/Blocking_WeatherRegime_util.py:read_nc_met"]}
{"id": "C214", "title": "Instantaneous blocking depends on the heights of the day and the mean central latitude", "statement": "run_Calc_IBL gives one flag per season, day and longitude. The flag is 1 exactly when, for one of the offsets from the central latitude averaged over all seasons, the mean height of the northern band exceeds that of the southern band, and 0 otherwise; a missing day has flags 0. Heights in other units or with an amount added per day and longitude give the same flags, and so do the seasons of the central latitude in another order.", "quantifier": "all lists of files on a grid of whole latitudes from 90 southwards, band widths, offsets and central latitudes whose bands stay on the grid", "why_tests_cant": "Quantifies over all fields; the invariances relate pairs of runs.", "anchors": ["metcalcpy/contributed/blocking_weather_regime/Blocking.py:BlockingCalculation.run_Calc_IBL", "metcalcpy/contributed/blocking_weather_regime/Blocking.py:BlockingCalculation.run_mod_blocking1d", "metcalcpy/contributed/blocking_weather_regime/Blocking_WeatherRegime_util.py:read_nc_met"]}
{"id": "C215", "title": "The text file of regimes has one line per day", "statement": "write_K_means_file with output type text replaces the file by a header and one line per day, in the order of the days; read at blanks, a line has year, month and day of the valid time and the regime of the day. A day whose input file was missing has a line with the regime alone.", "quantifier": "all lists of valid times and regimes of the same length, any earlier file", "why_tests_cant": "Fixed width formats break for particular lengths; the claim is about all lists.", "anchors": ["metcalcpy/contributed/blocking_weather_regime/WeatherRegime.py:WeatherRegimeCalculation.write_K_means_file"]}
{"id": "C216", "title": "The time of the netCDF file of regimes leads back to the day", "statement": "write_K_means_file with output type netcdf writes for every day the number of days since the first day: going on from the first day of the calendar by that number (backwards when negative) meets the day, across months, years and leap years; the date variable holds year, month and day as decimal digits and the regimes keep their order.", "quantifier": "all lists of calendar days from year 1 to 9999, in any order", "why_tests_cant": "Calendar arithmetic over all pairs of days.", "anchors": ["metcalcpy/contributed/blocking_weather_regime/WeatherRegime.py:WeatherRegimeCalculation.write_K_means_file"]}
{"id": "C217", "title": "A regime file that cannot be written leaves the earlier file in place", "statement": "When write_K_means_file with output type netcdf fails because a valid time is no date (a missing day), the file of an earlier run is still there.", "quantifier": "all earlier files and lists with a valid time that is no date", "why_tests_cant": "Needs the order of deletion and conversion on failing inputs.", "anchors": ["metcalcpy/contributed/blocking_weather_regime/WeatherRegime.py:WeatherRegimeCalculation.write_K_means_file"]}
{"id": "C218", "title": "Heights rebuilt from patterns are the part that the patterns explain", "statement": "reconstruct_heights(eof, pc, ...), with uncorrelated components pc of the same mean square and eof their covariances with the heights, returns heights that differ from the given ones by a remainder uncorrelated with every component; if the heights are a combination of the components it returns them unchanged.", "quantifier": "all fields of numbers, numbers of days, components and grid points", "why_tests_cant": "An identity between matrices of all sizes.", "anchors": ["metcalcpy/contributed/blocking_weather_regime/WeatherRegime.py:WeatherRegimeCalculation.reconstruct_heights"]}
{"id": "C219", "title": "With event equalization the row statistics are those of the common cases", "statement": "SumStat(params).calculate_stats() with event_equal True and series on one axis writes exactly the input rows with a listed forecast variable and statistic whose case is common to all series, each with the statistic of this row alone in stat_value, the other columns unchanged and the fields of the line type removed; if no case is common, a table without rows. With event_equal False every row is written as without equalization.", "quantifier": "all tables with a time and lead column, all configurations with series on one axis without joined values, all functions for the statistics that are defined on the kept rows", "why_tests_cant": "Ranges over all tables, orders of the rows and sets of missing cases.", "anchors": ["metcalcpy/sum_stat.py:SumStat.calculate_stats", "metcalcpy/sum_stat.py:SumStat.process_rows", "metcalcpy/util/utils.py:perform_event_equalization"]}
{"id": "C220", "title": "A run that is to equalize never writes rows that were not equalized", "statement": "When SumStat(params).calculate_stats() is run with event_equal True, every row in its output file is a row whose case is common to all series, whatever goes wrong on the way.", "quantifier": "all tables and configurations with event_equal True", "why_tests_cant": "Needs the paths on which the equalization fails.", "anchors": ["metcalcpy/sum_stat.py:SumStat.calculate_stats"]}
{"id": "C221", "title": "The shares of eof_comp are what the patterns explain", "statement": "eof_comp(data, neof, opt) with the covariance matrix returns orthonormal patterns over the grid; share k is the sum of squares of the data projected onto pattern k divided by the sum of squares of the data; the shares are not negative, go down, and sum up to at most 1, exactly 1 for all patterns; the data summed up with time series k give a multiple of pattern k. More patterns than times or points are refused.", "quantifier": "all arrays of times, latitudes and longitudes that are not all 0, every singular value decomposition", "why_tests_cant": "An identity for matrices of all sizes and every choice of the decomposition.", "anchors": ["metcalcpy/contributed/tropical_diagnostics/ccew_activity.py:eof_comp"]}
{"id": "C222", "title": "EOF patterns do not depend on the mean state", "statement": "Adding a constant to the data of a grid point does not change what eof_comp returns; with the correlation matrix, neither do other units at a grid point.", "quantifier": "all arrays and all constants per grid point", "why_tests_cant": "Relates pairs of runs on all data.", "anchors": ["metcalcpy/contributed/tropical_diagnostics/ccew_activity.py:eof_comp"]}
{"id": "C223", "title": "zon_avg_variance measures the variability in time alone", "statement": "zon_avg_variance(data) is the mean over the longitudes of the variance of the values present there; it is not negative, 0 exactly when nothing varies at any longitude, unchanged by another mean at every longitude and multiplied by the square of a change of units, so that the field divided by its square root has the value 1.", "quantifier": "all arrays with at least one value at every longitude", "why_tests_cant": "Relates runs on all data and units.", "anchors": ["metcalcpy/contributed/rmm_omi/compute_mjo_indices.py:zon_avg_variance"]}
{"id": "C224", "title": "The filters of the MJO wind stress do not shift the signal in time", "statement": "With symmetric filters of odd length, calc_tau_MJO of the record in reversed order of time is the reversed result of the record, at every grid point and time (the points that take part being the same from both ends).", "quantifier": "every record, grid, number of modes, mode patterns, missing values and every pair of symmetric filters of odd length", "why_tests_cant": "A shift by one time step is a small change of a smooth curve; only the symmetry for all records fixes the alignment of the convolution.", "anchors": ["metcalcpy/contributed/mjo_enso/compute_mjo_enso.py:calc_tau_MJO"]}
{"id": "C225", "title": "A steady wind stress has no MJO part", "statement": "If the weights of the low-pass filter add up to one and the stress of every point is the same at all times, the result of calc_tau_MJO is zero (or nan) at all times at least half of the filter lengths away from both ends.", "quantifier": "every steady record, grid, modes, filters of all lengths and all times away from the ends", "why_tests_cant": "A test uses one filter and one record; that nothing of a steady part is left depends on all weights and on their position.", "anchors": ["metcalcpy/contributed/mjo_enso/compute_mjo_enso.py:calc_tau_MJO"]}
{"id": "C226", "title": "The OMI components are the best fit of the filtered field by the EOFs of the day", "statement": "Whenever omi returns an index, there is one positive factor so that on every day its two components times the factor minimise the squared distance of the filtered field to the combinations of the two EOFs of that day of the year, and are the smallest such pair if there are several.", "quantifier": "every record, every set of EOFs, every day", "why_tests_cant": "A test compares with stored numbers; that a pair of numbers is best among all pairs, for linearly dependent EOFs too, is a statement about infinitely many candidates.", "anchors": ["metcalcpy/contributed/rmm_omi/compute_mjo_indices.py:omi", "metcalcpy/contributed/rmm_omi/compute_mjo_indices.py:regress_3dim_data_onto_eofs", "metcalcpy/contributed/rmm_omi/compute_mjo_indices.py:regress_vector_onto_eofs"]}
{"id": "C227", "title": "The OMI filter passes waves of the band unchanged and removes all others", "statement": "For even numbers of times (padding included) and longitudes, transform, masking and inverse transform take a sum of waves of whole numbers of cycles, of any amplitudes and phases, to the sum of those waves whose period lies between the limits and whose wavenumber is at most the limit.", "quantifier": "every even number of times and longitudes, every band, every finite sum of waves, every time and longitude", "why_tests_cant": "There is a wave for every pair of cycles, phase and amplitude, and any sum of them is a field.", "anchors": ["metcalcpy/contributed/rmm_omi/compute_mjo_indices.py:perform_3dim_spectral_filtering"]}
{"id": "C228", "title": "MaKE and MaKI are built from two standardized projections", "statement": "For daily records without missing values, if an index exists on one day, then MaKI is on every day p+q and MaKE is p+|q|, where p and q are negative multiples of the projections of the standardized fields on the two EOFs and both have standard deviation one.", "quantifier": "every record, number of longitudes and pair of EOFs, every day", "why_tests_cant": "The standardization couples all days; a test sees the values of one record.", "anchors": ["metcalcpy/contributed/mjo_enso/compute_mjo_enso.py:make_maki"]}
{"id": "C229", "title": "What the validation clears before it starts", "statement": "Before any plot is validated, exactly the entries lying directly in the four output directories (XML, plots, data, scripts) are removed, whether or not the directory names end with a slash; every other file, those in subdirectories too, stays as it was.", "quantifier": "every disk, every parameter set, every path", "why_tests_cant": "The claim about every other path ranges over all paths and all ways to write the directories.", "anchors": ["metcalcpy/validate_mv_python.py:main", "metcalcpy/validate_mv_python.py:clean"]}
{"id": "C230", "title": "Nothing is left of a plot judged to be the same", "statement": "When the images of a plot are judged identical, or both are missing, then afterwards neither its new XML file nor its new image exists, nor any file in the scripts and data directories whose name begins with the name of the plot.", "quantifier": "every disk, METviewer behaviour, image library, file and plot names with one dot, and every ending of the names of scripts and data", "why_tests_cant": "METviewer may have left any number of files with any endings behind.", "anchors": ["metcalcpy/validate_mv_python.py:main", "metcalcpy/validate_mv_python.py:delete_similar_files"]}
{"id": "C231", "title": "The XML file METviewer is run on", "statement": "METviewer is run on stem_py.xml in the XML output directory, holding the texts of the original with _py before the extension of the plot, data and script names, R_tmpl and R_work of the METviewer home given, the output directories and the database user and password given, all else unchanged, the rest of the disk being as before; what METviewer would do on any other call has no influence.", "quantifier": "every disk, XML file, parameter set and METviewer behaviour", "why_tests_cant": "METviewer is not available in tests; its behaviour is arbitrary, so that the call can only be fixed for all behaviours.", "anchors": ["metcalcpy/validate_mv_python.py:main", "metcalcpy/validate_mv_python.py:replace_name"]}
{"id": "C232", "title": "Post-processing of a correlation table", "statement": "Post-processing the table of correlations changes no column but CI95% and BF10, keeps the labels of rows and columns, rounds the numbers and arrays of CI95% to two decimals in every row, and raises no error when BF10 holds numbers or texts.", "quantifier": "every table, every pair of row and column, every format", "why_tests_cant": "The claim about untouched columns ranges over all tables and labels.", "anchors": ["metcalcpy/util/correlation.py:_postprocess_dataframe"]}
{"id": "C233", "title": "Format of the Bayes factors", "statement": "In the post-processed table every Bayes factor is written in the requested form: fixed notation with three decimals between 0.0001 and 10000, scientific notation outside.", "quantifier": "every table with numbers in BF10, every row", "why_tests_cant": "corr() only makes tables of one row, so that tests see only the first.", "anchors": ["metcalcpy/util/correlation.py:_postprocess_dataframe", "metcalcpy/util/correlation.py:_format_bf"]}
{"id": "C234", "title": "Width of a bootstrap interval under arithmetic", "statement": "The width of the interval of a bootstrap result is the distance of its bounds in whatever order they were given; after any sequence of additions, subtractions and multiplications by numbers it is that distance times the absolute values of all factors; it is never negative.", "quantifier": "all bounds, all sequences of operations", "why_tests_cant": "Sequences of operations of any length with factors of any sign.", "anchors": ["metcalcpy/bootstrap.py:BootstrapResults.error_width", "metcalcpy/bootstrap.py:BootstrapResults._apply"]}
{"id": "C235", "title": "Relative width of a bootstrap interval", "statement": "The relative width of the interval of a bootstrap result is not negative and does not change when the result is multiplied by a number other than zero.", "quantifier": "all bounds, values and factors", "why_tests_cant": "Tests use positive values.", "anchors": ["metcalcpy/bootstrap.py:BootstrapResults.error_fraction"]}
{"id": "C236", "title": "A Dataset written to a file is found there", "statement": "write_dataset makes a file with the dimensions of the Dataset in the sizes of their coordinates, a variable for every coordinate and after them one for every field in order, with its type, dimensions, values and attributes, and the attributes of the Dataset.", "quantifier": "every Dataset", "why_tests_cant": "Any number of dimensions, fields, types and attributes.", "anchors": ["metcalcpy/vertical_interp.py:write_dataset"]}
{"id": "C237", "title": "Times survive the writing of a Dataset", "statement": "The times of a Dataset can be recovered from the file that write_dataset makes.", "quantifier": "every pair of Datasets", "why_tests_cant": "The claim compares all Datasets with each other.", "anchors": ["metcalcpy/vertical_interp.py:write_dataset"]}
{"id": "C238", "title": "Attributes when a dimension for the valid time is added", "statement": "With a dimension for the valid time, the file holds this dimension of size one, the lead time in seconds as its variable, and every other field with this dimension in front and with its own attributes.", "quantifier": "every Dataset and order of fields", "why_tests_cant": "Depends on the order of the fields in the Dataset.", "anchors": ["metcalcpy/vertical_interp.py:write_dataset"]}
{"id": "C239", "title": "Reference time from the name of the output file", "statement": "For an output file named prefix.YYYYMMDDHH.suffix the reference time written is the number of seconds from 1970-01-01 00:00 to that hour, on whatever machine and in whatever directory.", "quantifier": "every date from 1970 to 9999 and hour, every directory, prefix, suffix and local time", "why_tests_cant": "All dates, and tests run in one time zone.", "anchors": ["metcalcpy/vertical_interp.py:main"]}
{"id": "C240", "title": "Layers below the ground do not influence the interpolation", "statement": "For a column whose lowest layers have no height, vertical_interp gives at a level not below the first layer with a height the value of the column without those layers, and no value at a level not above any height; values of the field on layers without height have no influence.", "quantifier": "every column, every number of layers below the ground, every field and level", "why_tests_cant": "Any numbers of layers and any values below the ground.", "anchors": ["metcalcpy/vertical_interp.py:vertical_interp"]}
{"id": "C241", "title": "Where interpolated values are missing", "statement": "vertical_interp gives a value at a level exactly where the level lies between two neighbouring layers with heights whose values are present (linear interpolation), or below the lowest or above the top layer (the value of this layer).", "quantifier": "every column with missing heights and values anywhere, every level", "why_tests_cant": "Patterns of missing heights and values.", "anchors": ["metcalcpy/vertical_interp.py:vertical_interp"]}
{"id": "C242", "title": "From pressure levels to values at heights", "statement": "A field on pressure levels, interpolated to heights with the heights of height_from_pressure, has no values under the ground, is linear in height between neighbouring levels above the ground, and does not depend on the values of the field on levels below the ground.", "quantifier": "every column of decreasing pressures and positive temperatures, every surface, field and height", "why_tests_cant": "Composition of two programs over all columns.", "anchors": ["metcalcpy/vertical_interp.py:main", "metcalcpy/vertical_interp.py:height_from_pressure", "metcalcpy/vertical_interp.py:vertical_interp"]}
{"id": "C243", "title": "Ensemble scores of a table", "statement": "With event equalization, the ensemble means (CRPS, IGN, ME, MAE, ...) that an aggregation run computes from ECNT lines are the means over the common cases of the point weighted with their numbers of pairs, CRPSS is one minus the ratio of such means, member counts are sums, and the one-sided mean errors are weighted with the member counts.", "quantifier": "every input table, every configuration of one axis with event equalization, every point of the table", "why_tests_cant": "Composition of equalization, selection, sorting, preparation and score over all tables.", "anchors": ["metcalcpy/agg_stat.py:AggStat.calculate_stats_and_ci", "metcalcpy/agg_stat.py:AggStat._get_bootstrapped_stats", "metcalcpy/agg_stat.py:AggStat._prepare_ecnt_data", "metcalcpy/util/ecnt_statistics.py"]}
{"id": "C244", "title": "Neighborhood scores of a table", "statement": "With event equalization, FBS and the forecast rate that an aggregation run computes from NBRCNT lines are the means over the common cases of the point weighted with their numbers of pairs, and FSS is one minus the ratio of the weighted mean FBS and the weighted mean reference value if no common case is a perfect forecast.", "quantifier": "every input table, every configuration of one axis with event equalization, every point of the table", "why_tests_cant": "Composition of equalization, selection, sorting, preparation and score over all tables.", "anchors": ["metcalcpy/agg_stat.py:AggStat.calculate_stats_and_ci", "metcalcpy/agg_stat.py:AggStat._get_bootstrapped_stats", "metcalcpy/agg_stat.py:AggStat._prepare_nbr_cnt_data", "metcalcpy/util/nbrcnt_statistics.py"]}
{"id": "C245", "title": "Ranked probability scores of a table", "statement": "With event equalization, RPS and its complement that an aggregation run computes from RPS lines are the means over the common cases of the point weighted with their numbers of pairs, and RPSS is one minus the ratio of the weighted mean score and the weighted mean climatological score if no common case is a perfect forecast.", "quantifier": "every input table, every configuration of one axis with event equalization, every point of the table", "why_tests_cant": "Composition of equalization, selection, sorting, preparation and score over all tables.", "anchors": ["metcalcpy/agg_stat.py:AggStat.calculate_stats_and_ci", "metcalcpy/agg_stat.py:AggStat._get_bootstrapped_stats", "metcalcpy/agg_stat.py:AggStat._prepare_rps_data", "metcalcpy/util/rps_statistics.py"]}
{"id": "C246", "title": "Gradient scores of a table", "statement": "With event equalization, the gradient means, S1, S1_OG and the gradient ratio that an aggregation run computes from GRAD lines are those of all gradients behind the common cases of the point, pooled, and S1 lies between 0 and 200.", "quantifier": "every input table, every configuration of one axis with event equalization, every point of the table", "why_tests_cant": "Composition of equalization, selection, sorting, preparation and score over all tables.", "anchors": ["metcalcpy/agg_stat.py:AggStat.calculate_stats_and_ci", "metcalcpy/agg_stat.py:AggStat._get_bootstrapped_stats", "metcalcpy/agg_stat.py:AggStat._prepare_grad_data", "metcalcpy/util/grad_statistics.py"]}
{"id": "C247", "title": "A derived curve compares its two series over the same cases", "statement": "With event equalization, the row of a DIFF, RATIO, SS or SINGLE curve is computed from the scores of the two named series over the cases common to all series, and is missing if one series has no such case. For models verified against the same observations the DIFF of OBAR (or OOBAR) is 0 and the DIFF of ME is the difference of the mean forecasts over the common cases, up to rounding.", "quantifier": "every input table, every configuration of one axis with event equalization and every requested curve whose values belong to one variable each; no bootstrapping", "why_tests_cant": "Composition of equalization, selection, scores and the lookup of the two series by words, over all tables.", "anchors": ["metcalcpy/agg_stat.py:AggStat.calculate_stats_and_ci", "metcalcpy/agg_stat.py:AggStat._get_bootstrapped_stats_for_derived", "metcalcpy/util/utils.py:perform_event_equalization", "metcalcpy/util/utils.py:calc_derived_curve_value"]}
{"id": "C248", "title": "RMSE, spread and correlation in the table are those of the pooled pairs of the common cases", "statement": "With event equalization, RMSE, FSTDEV, OSTDEV, PR_CORR, MSESS, SI and MAE of SL1L2 lines are those of all matched pairs behind the common cases, pooled: RMSE within 1e-7 if MSE is at least 1 (within 3e-4 otherwise), PR_CORR between -1 and 1 and missing exactly if the forecasts or the observations do not vary, MSESS at most 1. BCRMSE is close to the root of the bias-corrected MSE if that exceeds the rounding error.", "quantifier": "every input table of such lines, every configuration of one axis with event equalization, every point of the table; no bootstrapping", "why_tests_cant": "Composition of equalization, selection, sorting, aggregation of partial sums and the final formula, over all tables and all ways the pairs are split into lines.", "anchors": ["metcalcpy/agg_stat.py:AggStat.calculate_stats_and_ci", "metcalcpy/agg_stat.py:AggStat._get_bootstrapped_stats", "metcalcpy/agg_stat.py:AggStat._calc_stats", "metcalcpy/util/utils.py:perform_event_equalization", "metcalcpy/agg_stat.py:AggStat._prepare_sl1l2_data", "metcalcpy/util/sl1l2_statistics.py:calculate_rmse", "metcalcpy/util/sl1l2_statistics.py:calculate_bcrmse", "metcalcpy/util/sl1l2_statistics.py:calculate_fstdev", "metcalcpy/util/sl1l2_statistics.py:calculate_ostdev", "metcalcpy/util/sl1l2_statistics.py:calculate_pr_corr", "metcalcpy/util/sl1l2_statistics.py:calculate_msess", "metcalcpy/util/sl1l2_statistics.py:calculate_si", "metcalcpy/util/sl1l2_statistics.py:calculate_mae"]}
{"id": "C249", "title": "Anomaly correlations in the table are those of the pooled anomalies of the common cases", "statement": "With event equalization, ANOM_CORR, ANOM_CORR_RAW, RMSFA and RMSOA of SAL1L2 lines are those of all anomalies behind the common cases, pooled; the correlations lie between -1 and 1 and are missing exactly if they are undefined.", "quantifier": "every input table of such lines, every configuration of one axis with event equalization, every point of the table; no bootstrapping", "why_tests_cant": "Composition of equalization, selection, sorting, aggregation of partial sums and the final formula, over all tables and all ways the pairs are split into lines.", "anchors": ["metcalcpy/agg_stat.py:AggStat.calculate_stats_and_ci", "metcalcpy/agg_stat.py:AggStat._get_bootstrapped_stats", "metcalcpy/agg_stat.py:AggStat._calc_stats", "metcalcpy/util/utils.py:perform_event_equalization", "metcalcpy/agg_stat.py:AggStat._prepare_sal1l2_data", "metcalcpy/util/sal1l2_statistics.py:calculate_anom_corr", "metcalcpy/util/sal1l2_statistics.py:calculate_anom_corr_raw", "metcalcpy/util/sal1l2_statistics.py:calculate_rmsfa", "metcalcpy/util/sal1l2_statistics.py:calculate_rmsoa"]}
{"id": "C250", "title": "Wind statistics in the table are those of the pooled vectors of the common cases", "statement": "With event equalization, the MSVE, RMSVE, speeds, speed errors and, if the recorded speeds are the lengths of the vectors, the variances of VL1L2 and VCNT lines are those of all wind vectors behind the common cases, pooled, and so is the anomaly correlation of VAL1L2 lines.", "quantifier": "every input table of such lines, every configuration of one axis with event equalization, every point of the table; no bootstrapping", "why_tests_cant": "Composition of equalization, selection, sorting, aggregation of partial sums and the final formula, over all tables and all ways the pairs are split into lines.", "anchors": ["metcalcpy/agg_stat.py:AggStat.calculate_stats_and_ci", "metcalcpy/agg_stat.py:AggStat._get_bootstrapped_stats", "metcalcpy/agg_stat.py:AggStat._calc_stats", "metcalcpy/util/utils.py:perform_event_equalization", "metcalcpy/agg_stat.py:AggStat._prepare_vl1l2_data", "metcalcpy/agg_stat.py:AggStat._prepare_vcnt_data", "metcalcpy/agg_stat.py:AggStat._prepare_val1l2_data", "metcalcpy/util/vl1l2_statistics.py", "metcalcpy/util/vcnt_statistics.py", "metcalcpy/util/val1l2_statistics.py"]}
{"id": "C251", "title": "Ensemble RMSE and spread in the table are roots of the weighted mean squares of the common cases", "statement": "With event equalization, ECNT_RMSE, ECNT_RMSE_OERR, ECNT_SPREAD and ECNT_SPREAD_OERR are the square roots of the means of the squared values of the common cases weighted with the number of pairs, within 1e-7 if the mean square is at least 1 and within 3e-4 otherwise.", "quantifier": "every input table of such lines, every configuration of one axis with event equalization, every point of the table; no bootstrapping", "why_tests_cant": "Composition of equalization, selection, sorting, aggregation of partial sums and the final formula, over all tables and all ways the pairs are split into lines.", "anchors": ["metcalcpy/agg_stat.py:AggStat.calculate_stats_and_ci", "metcalcpy/agg_stat.py:AggStat._get_bootstrapped_stats", "metcalcpy/agg_stat.py:AggStat._calc_stats", "metcalcpy/util/utils.py:perform_event_equalization", "metcalcpy/agg_stat.py:AggStat._prepare_ecnt_data", "metcalcpy/util/ecnt_statistics.py:calculate_ecnt_rmse", "metcalcpy/util/ecnt_statistics.py:calculate_ecnt_rmse_oerr", "metcalcpy/util/ecnt_statistics.py:calculate_ecnt_spread", "metcalcpy/util/ecnt_statistics.py:calculate_ecnt_spread_oerr"]}
{"id": "C252", "title": "Scores of probability forecasts in the table are those of the pooled bins of the common cases", "statement": "With event equalization, every score of PCT lines in an aggregation table (base rate, uncertainty, reliability, resolution, Brier score and its skill score, area under the ROC curve) is the score of the probability bins whose counts are those of the common cases added up, and missing without forecasts.", "quantifier": "every input table of such lines, every configuration of one axis with event equalization, every point of the table; no bootstrapping", "why_tests_cant": "Composition of equalization, selection, sorting, summation of counts over the lines and the final formula, over all tables and all ways the cases are split into lines.", "anchors": ["metcalcpy/agg_stat.py:AggStat.calculate_stats_and_ci", "metcalcpy/agg_stat.py:AggStat._get_bootstrapped_stats", "metcalcpy/agg_stat.py:AggStat._calc_stats", "metcalcpy/util/utils.py:perform_event_equalization", "metcalcpy/agg_stat.py:AggStat._proceed_with_axis", "metcalcpy/util/pstd_statistics.py:calculate_pstd_brier", "metcalcpy/util/pstd_statistics.py:calculate_pstd_bss_smpl", "metcalcpy/util/pstd_statistics.py:calculate_pstd_baser", "metcalcpy/util/pstd_statistics.py:calculate_pstd_reliability", "metcalcpy/util/pstd_statistics.py:calculate_pstd_resolution", "metcalcpy/util/pstd_statistics.py:calculate_pstd_uncertainty", "metcalcpy/util/pstd_statistics.py:calculate_pstd_roc_auc"]}
{"id": "C253", "title": "A reliability curve has a point for every threshold of the common cases", "statement": "With thresholds as independent variable of PCT lines and event equalization, the table has for every series and statistic a point at each threshold at which the series has a common case, whatever values were requested, and at no threshold that is not in the data. PSTD_NI there is the number of forecasts and PSTD_CALIBRATION the frequency of the event among them; runs for these statistics complete.", "quantifier": "every input table of PCT lines of single bins with decimal thresholds and natural counts, every configuration of one axis, every point", "why_tests_cant": "Composition of equalization, selection, sorting, summation of counts over the lines and the final formula, over all tables and all ways the cases are split into lines.", "anchors": ["metcalcpy/agg_stat.py:AggStat.calculate_stats_and_ci", "metcalcpy/agg_stat.py:AggStat._get_bootstrapped_stats", "metcalcpy/agg_stat.py:AggStat._calc_stats", "metcalcpy/util/utils.py:perform_event_equalization", "metcalcpy/agg_stat.py:AggStat._proceed_with_axis", "metcalcpy/util/pstd_statistics.py:calculate_pstd_ni", "metcalcpy/util/pstd_statistics.py:calculate_pstd_calibration"]}
{"id": "C254", "title": "Multi-category and neighborhood scores in the table are those of the pooled counts of the common cases", "statement": "With event equalization, MCTS_HSS_EC of MCTC lines is the skill score of the counts of the common cases of the point added up, against the expected-correct value that all its lines share (lines with different values make the run fail), and NBR_x of NBR_CTC lines is the score x of the pooled contingency table. Such runs complete.", "quantifier": "every input table of such lines, every configuration of one axis with event equalization, every point of the table; no bootstrapping", "why_tests_cant": "Composition of equalization, selection, sorting, summation of counts over the lines and the final formula, over all tables and all ways the cases are split into lines.", "anchors": ["metcalcpy/agg_stat.py:AggStat.calculate_stats_and_ci", "metcalcpy/agg_stat.py:AggStat._get_bootstrapped_stats", "metcalcpy/agg_stat.py:AggStat._calc_stats", "metcalcpy/util/utils.py:perform_event_equalization", "metcalcpy/agg_stat.py:AggStat._prepare_mctc_data", "metcalcpy/agg_stat.py:AggStat._prepare_nbr_ctc_data", "metcalcpy/util/mcts_statistics.py:calculate_mcts_hss_ec", "metcalcpy/util/nbrctc_statistics.py"]}
{"id": "C255", "title": "A derived curve of equivalence tests gets values in the aggregation table", "statement": "A plot description may ask for the derived curve ETB (equivalence testing bounds) of two series; the aggregation then completes and writes a value for every independent value at which both series have the same number of cases with a statistic, and a missing value elsewhere.", "quantifier": "every statistic, every two sets of rows, every result of the equivalence test", "why_tests_cant": "Whether any input at all gives a value is a statement about all inputs and all results of the test.", "anchors": ["metcalcpy/agg_stat.py:AggStat._get_bootstrapped_stats_for_derived", "metcalcpy/util/utils.py:calc_derived_curve_value", "metcalcpy/util/tost_paired.py:tost_paired"]}
{"id": "C256", "title": "A point for a list of independent values has the score of all lines of the list", "statement": "The independent values of an aggregation may be lists such as \"12;24\". The value of such a point is the statistic of all matched pairs behind the input lines of the listed values (and of the point's series), exactly as for a point with a single value.", "quantifier": "every frame of input lines, every plot description, every list of independent values, every statistic of the line type", "why_tests_cant": "The lines are first pooled per valid time (and lead) in a loop that edits the frame and the parameters; that the pooled lines carry the sums of all lines is a statement about all frames.", "anchors": ["metcalcpy/agg_stat.py:AggStat.calculate_stats_and_ci", "metcalcpy/util/utils.py:aggregate_field_values", "metcalcpy/util/utils.py:calc_series_sums"]}
{"id": "C257", "title": "Bootstrapping adds limits to the aggregation table and changes nothing else", "statement": "An aggregation run with num_iterations > 1 writes the same rows as the run with num_iterations = 1: the same points in the same order, the same forecast variable, number of cases and value in every row. Only the columns stat_btcl and stat_btcu are new. This does not depend on what is drawn at random.", "quantifier": "every frame of input lines, every plot description, every statistic, every sequence of random draws, any number of iterations", "why_tests_cant": "The two settings take different branches in every point and derived curve; that they agree for all inputs and all draws is a relation between two whole executions.", "anchors": ["metcalcpy/agg_stat.py:AggStat._proceed_with_axis", "metcalcpy/agg_stat.py:AggStat._get_bootstrapped_stats", "metcalcpy/agg_stat.py:AggStat._get_bootstrapped_stats_for_derived", "metcalcpy/bootstrap.py:bootstrap_and_value"]}
{"id": "C258", "title": "Bootstrap limits in the aggregation table come from resamples of the lines of the point", "statement": "In the table of an aggregation run with bootstrapping every requested combination of series values, independent value and statistic has one row. Its value is the statistic of the input lines of the point, its limits are the alpha/2 and 1 - alpha/2 percentiles (or their mirror images for the pivotal method) of the statistics of resamples of these lines, each as large as the point. For SL1L2 lines the value and every replicate are scores of the pooled matched pairs, for CTC lines scores of the summed counts.", "quantifier": "every frame of input lines, every plot description, every statistic, every sequence of random draws, any number of iterations", "why_tests_cant": "The draws are random and there is one matrix of them for every point; a test sees only some draws and some points.", "anchors": ["metcalcpy/agg_stat.py:AggStat.calculate_stats_and_ci", "metcalcpy/agg_stat.py:AggStat._proceed_with_axis", "metcalcpy/agg_stat.py:AggStat._get_bootstrapped_stats", "metcalcpy/bootstrap.py:bootstrap_and_value"]}
{"id": "C259", "title": "The direction of the vector difference is that of the pooled mean winds", "statement": "VCNT_VDIFF_DIR of a group of lines is the meteorological direction in degrees of the difference between the mean forecast and mean observed wind of all pairs behind the group; it is missing only if both components of the difference are below 0.00001.", "quantifier": "every list of non-empty batches of wind pairs", "why_tests_cant": "The unit shows only off the axes; that the batches may be split in any way needs all groups.", "anchors": ["metcalcpy/util/vcnt_statistics.py:calculate_vcnt_vdiff_dir", "metcalcpy/util/met_stats.py:calc_direction"]}
{"id": "C260", "title": "The absolute direction error is the size of the angle between the mean winds", "statement": "VCNT_DIR_ERR is positive if the mean forecast wind is turned counterclockwise from the mean observed wind and negative if it is turned clockwise; VCNT_DIR_ABSERR is its absolute value, the angle between both vectors, and does not change when forecast and observation are exchanged.", "quantifier": "every list of non-empty batches of wind pairs with mean vectors that are not zero", "why_tests_cant": "The two senses of rotation take different branches of the angle function; a test with one pair of vectors sees one of them.", "anchors": ["metcalcpy/util/vcnt_statistics.py:calculate_vcnt_dir_abser", "metcalcpy/util/vcnt_statistics.py:calculate_vcnt_dir_err", "metcalcpy/util/met_stats.py:calc_direction"]}
{"id": "C261", "title": "Limits of a derived curve come from paired resamples of the common cases", "statement": "In an aggregation run with event equalization and bootstrapping, every requested difference, ratio or skill-score curve has a row for every independent value. If no case occurs twice in its two series, every replicate behind its confidence limits evaluates both series on the same drawn cases (same time and lead), and the limits are those of the replicates for the requested alpha and method. Models verified against the same observations have an observed-mean difference of 0 without limits.", "quantifier": "every input table, plot description, statistic, number of replicates and matrix of drawn positions, with percentile or pivotal limits and with or without blocks", "why_tests_cant": "A resample that pairs different cases gives plausible limits; only the relation between both series over all draws shows the pairing.", "anchors": ["metcalcpy/agg_stat.py:AggStat._get_bootstrapped_stats_for_derived", "metcalcpy/agg_stat.py:AggStat._proceed_with_axis", "metcalcpy/agg_stat.py:AggStat.calculate_stats_and_ci"]}
{"id": "C262", "title": "Bootstrapping does not stop an aggregation run", "statement": "An aggregation run that produces its table without bootstrapping also produces it with bootstrapping, for every matrix of drawn positions and both methods of confidence limits. (False: with pivotal limits one replicate without a value stops the whole run, with percentile limits a point none of whose replicates has a value does. It holds exactly when no such point exists, in particular for statistics defined on every set of lines.)", "quantifier": "every input table, plot description without derived curves, statistic, number of replicates and matrix of drawn positions", "why_tests_cant": "Whether a draw leaves a replicate without a value depends on random positions; a test run with a fortunate draw completes.", "anchors": ["metcalcpy/agg_stat.py:AggStat._get_bootstrapped_stats", "metcalcpy/agg_stat.py:AggStat._proceed_with_axis", "metcalcpy/bootstrap.py:_get_confidence_interval_and_value", "metcalcpy/bootstrap.py:_all_the_same"]}
{"id": "C263", "title": "Spread/skill statistics of an aggregation table are those of all points of the common cases", "statement": "In an aggregation run on SSVAR lines with event equalization, the forecast and observed means, ME, ME2, MSE, RMSE, BCMSE, standard deviations, correlation, MSESS and spread in the table are those of all points of all bins of the cases common to all series, pooled (each point counted once, whatever bin it lies in), rounded to seven decimals; and such a run completes.", "quantifier": "every table of SSVAR lines (any number of bins, cases and series), every plot description on one axis", "why_tests_cant": "The weights are taken from a renamed column and the lines of a point from a filter after equalization; a test compares one table with numbers computed once.", "anchors": ["metcalcpy/agg_stat.py:AggStat._prepare_ssvar_data", "metcalcpy/agg_stat.py:AggStat._get_bootstrapped_stats", "metcalcpy/agg_stat.py:AggStat._proceed_with_axis", "metcalcpy/util/ssvar_statistics.py:calculate_ssvar_spread", "metcalcpy/util/ssvar_statistics.py:calculate_ssvar_rmse", "metcalcpy/util/ssvar_statistics.py:calculate_ssvar_msess"]}
{"id": "C264", "title": "Wind directions of an aggregation table are determined by the pooled mean winds of the common cases", "statement": "In an aggregation run on VCNT lines with event equalization, VCNT_FDIR, VCNT_ODIR and VCNT_VDIFF_DIR in the table depend only on the mean forecast wind, the mean observed wind and their difference over all pairs of the cases common to all series: the value is missing exactly if both components are below 0.00001, and otherwise is the angle the wind comes from (as calc_direction reports it, see C70 for its unit). A reported VCNT_DIR_ERR or VCNT_DIR_ABSER is determined by the angle between the two mean winds. Every direction in the table lies between 0 and 360, and such a run completes.", "quantifier": "every table of VCNT lines (any number of pairs, cases and series), every plot description on one axis", "why_tests_cant": "Directions are not linear in the lines: averaging directions or using all instead of the common cases gives plausible angles; a test compares one table with numbers computed once.", "anchors": ["metcalcpy/agg_stat.py:AggStat._prepare_vcnt_data", "metcalcpy/agg_stat.py:AggStat._get_bootstrapped_stats", "metcalcpy/agg_stat.py:AggStat._proceed_with_axis", "metcalcpy/util/vcnt_statistics.py:calculate_vcnt_fdir", "metcalcpy/util/vcnt_statistics.py:calculate_vcnt_odir", "metcalcpy/util/vcnt_statistics.py:calculate_vcnt_vdiff_dir", "metcalcpy/util/vcnt_statistics.py:calculate_vcnt_dir_err", "metcalcpy/util/vcnt_statistics.py:calculate_vcnt_dir_abser"]}
{"id": "C265", "title": "A requested curve of two series has a value at every independent value", "statement": "If every series of an aggregation run has at most one line per time and lead at each point and the statistic has a value for every set of lines, the run with requested curves (differences, ratios, skill scores) completes and each curve has, at every independent value, the value computed from those of its two series. (False: when the independent value is a time with colons, for instance 2022-01-01 00:00:00, it is counted as a group of three values, the check for repeated lines fails and the whole run stops with a NameError. It holds for texts without colons.)", "quantifier": "every input table, every plot description on one axis with curves of series, every statistic and set of independent values", "why_tests_cant": "Tests use curves against forecast leads; a curve against times is another kind of value of the same setting, and only a quantified statement says for which independent values curves exist.", "anchors": ["metcalcpy/agg_stat.py:AggStat._get_bootstrapped_stats_for_derived", "metcalcpy/agg_stat.py:AggStat._get_derived_points", "metcalcpy/agg_stat.py:AggStat._proceed_with_axis", "metcalcpy/agg_stat.py:AggStat._validate_series_cases_for_derived_operation"]}
{"id": "C266", "title": "Significance in an aggregation table is the signed confidence of the paired bootstrap of the common cases", "statement": "In a bootstrapped aggregation run with event equalization, a requested DIFF_SIG curve has a row for every independent value. If no case occurs twice in its two series, both series are evaluated at the same drawn cases of the common cases; the size of the value is the share of the drawn differences that are not farther from their mean than the difference of the two table values is from zero, it lies between 0 and 1, and it is negative exactly if the first series is farther from the perfect score of the statistic. For mean errors and mean squared errors of SL1L2 lines the scores are those of the pooled matched pairs.", "quantifier": "every input table, plot description on one axis, statistic with a number or a missing value for every set of lines, number of replicates and matrix of drawn positions", "why_tests_cant": "The value is a share of random draws; pairing other cases or judging by another perfect score gives plausible shares, and a test only compares one seeded run.", "anchors": ["metcalcpy/agg_stat.py:AggStat._get_bootstrapped_stats_for_derived", "metcalcpy/agg_stat.py:AggStat._calc_stats_derived", "metcalcpy/agg_stat.py:AggStat._proceed_with_axis", "metcalcpy/util/utils.py:perfect_score_adjustment"]}
{"id": "C267", "title": "The order of the lines of the input does not matter for an aggregation table", "statement": "An aggregation run, with or without event equalization, gives the same table, or fails with the same error, when the lines of the input are listed in another order. With bootstrapping and the same random draws the limits are the same too, if the lines of a series that are compared have different times or leads; with two lines of the same time and lead the limits can differ.", "quantifier": "every input table, reordering of its lines, plot description on one or two axes without ETB curves, and modelled statistic of SL1L2, CTC, ECNT, NBRCNT, RPS, GRAD, VL1L2, VCNT, SAL1L2 and SSVAR lines; for bootstrapped runs every statistic, number of replicates and matrix of drawn positions", "why_tests_cant": "There are as many orders as permutations of the lines, and a code path that keeps the first or last of duplicated lines would only show for the orders that a test happens to use.", "anchors": ["metcalcpy/agg_stat.py:AggStat.calculate_value_and_ci", "metcalcpy/agg_stat.py:AggStat._proceed_with_axis", "metcalcpy/agg_stat.py:AggStat.calculate_stats_and_ci", "metcalcpy/event_equalize.py:event_equalize", "metcalcpy/util/utils.py:sum_column_data_by_name"]}
{"id": "C268", "title": "Lines that a plot does not ask for do not change its table", "statement": "Adding to the input of an aggregation run (or removing from it) lines of series values, forecast variables, statistics or independent values that the plot does not ask for, or lines with another value of a fixed variable, leaves the table as it is, with its limits when bootstrapped with the same random draws.", "quantifier": "every input table, every other table with the same asked-for lines, plot description (one axis with event equalization, one or two without), statistic, kind of derived curve and matrix of drawn positions", "why_tests_cant": "Every selection works on the whole table; a test adds a few foreign lines and cannot exclude that others are pooled or make a case common to all series.", "anchors": ["metcalcpy/agg_stat.py:AggStat._proceed_with_axis", "metcalcpy/agg_stat.py:AggStat.calculate_stats_and_ci", "metcalcpy/util/utils.py:perform_event_equalization", "metcalcpy/util/utils.py:equalize_axis_data"]}
{"id": "C269", "title": "A statistic that does not exist leaves its rows empty with bootstrapping and ends the run without", "statement": "If a plot asks for a statistic that has no function for its name, a bootstrapped aggregation run still completes: its rows, and the rows of curves of it, are there with the number of lines and without value and limits, and the rows of the other statistics show their bootstrap. With one iteration the same plot ends with an error and no table as soon as one of its points has lines.", "quantifier": "every input table, one-axis plot description with event equalization, division of its statistics into those that do not exist and those with a number for every non-empty set of lines, curves with any operation of statistics that do not exist, and matrix of drawn positions", "why_tests_cant": "The error is handled in one of the two branches only, after the lines are selected and sorted; a test shows one mixture of statistics, lines and curves.", "anchors": ["metcalcpy/agg_stat.py:AggStat._get_bootstrapped_stats", "metcalcpy/agg_stat.py:AggStat._calc_stats", "metcalcpy/agg_stat.py:AggStat._get_bootstrapped_stats_for_derived", "metcalcpy/agg_stat.py:AggStat.calculate_stats_and_ci"]}
{"id": "C270", "title": "The order of PCT, MCTC and NBR_CTC lines does not matter for an aggregation table if they agree on thresholds and categories", "statement": "An aggregation run on PCT, MCTC or NBR_CTC lines gives the same table, or fails with the same error, when the lines of the input are listed in another order, if the lines have the same thresholds, number of categories and pairs of categories. With two PCT lines of the same time and lead and different thresholds the reliability depends on which of them is listed first.", "quantifier": "every input table whose lines agree on thresholds and categories, reordering of its lines, plot description without ETB curves (two axes without event equalization, one axis with), and statistic of PCT, MCTC and NBR_CTC lines (PCT plots over anything but the thresholds)", "why_tests_cant": "There are as many orders as permutations of the lines; the statistics read thresholds and categories from the first sorted line only, which a test notices only if it mixes lines of the same time and lead.", "anchors": ["metcalcpy/agg_stat.py:AggStat.calculate_stats_and_ci", "metcalcpy/agg_stat.py:AggStat._get_bootstrapped_stats", "metcalcpy/util/pstd_statistics.py:_calc_common_stats", "metcalcpy/util/mcts_statistics.py:calculate_mcts_hss_ec", "metcalcpy/util/nbrctc_statistics.py:calculate_nbr_csi"]}
{"id": "C271", "title": "A change of the unit of forecasts and observations only converts the scores of SL1L2 lines", "statement": "When the matched pairs behind a group of SL1L2 lines are expressed in another unit (x becomes a\u00b7x + b), the correlation and the skill score of the group are unchanged, the means are converted, ME, MAE, RMSE and the standard deviations are multiplied by |a| (ME by a) and the MSE by a\u00b2, up to the 7 decimals of the tables.", "quantifier": "every group of SL1L2 lines, every set of matched pairs behind it, and every scale a other than 0 and offset b", "why_tests_cant": "Tests compare scores of fixed data in one unit; an absolute rounding or a wrong treatment of the offset is seen only by comparing units over all data and scales.", "anchors": ["metcalcpy/util/sl1l2_statistics.py:calculate_rmse", "metcalcpy/util/sl1l2_statistics.py:calculate_msess", "metcalcpy/util/sl1l2_statistics.py:calculate_mse", "metcalcpy/util/sl1l2_statistics.py:calculate_me", "metcalcpy/util/sl1l2_statistics.py:calculate_pr_corr", "metcalcpy/util/sl1l2_statistics.py:calculate_fstdev", "metcalcpy/util/sl1l2_statistics.py:calculate_mae", "metcalcpy/agg_stat.py:AggStat._calc_stats"]}
{"id": "C272", "title": "Scores of a contingency table respect its symmetries", "statement": "Exchanging the roles of forecasts and observations leaves ACC, CSI, GSS, HSS, ORSS, LODDS, ODDS and SEDS unchanged, exchanges BASER and FMEAN, turns PODY into 1 \u2212 FAR and FBIAS into its reciprocal; exchanging events and non-events leaves ACC, HSS, HK, ORSS, LODDS and ODDS unchanged and exchanges PODY and PODN; multiplying all counts by the same positive number changes no score.", "quantifier": "every group of CTC lines, and the group with the counts exchanged or multiplied", "why_tests_cant": "Tests compare scores of fixed tables with stored numbers; a swapped count or a rounded intermediate value shows only when tables related by a symmetry are compared, for all counts.", "anchors": ["metcalcpy/util/ctc_statistics.py:calculate_acc", "metcalcpy/util/ctc_statistics.py:calculate_csi", "metcalcpy/util/ctc_statistics.py:calculate_gss", "metcalcpy/util/ctc_statistics.py:calculate_hss", "metcalcpy/util/ctc_statistics.py:calculate_orss", "metcalcpy/util/ctc_statistics.py:calculate_lodds", "metcalcpy/util/ctc_statistics.py:calculate_odds", "metcalcpy/util/ctc_statistics.py:calculate_seds", "metcalcpy/util/ctc_statistics.py:calculate_baser", "metcalcpy/util/ctc_statistics.py:calculate_fmean", "metcalcpy/util/ctc_statistics.py:calculate_hk"]}
{"id": "C273", "title": "Wind scores do not depend on the orientation of the coordinate axes", "statement": "When all wind vectors (forecasts, observations or anomalies) behind a group of VL1L2 or VAL1L2 lines are expressed in axes turned by one angle, the mean speeds, speed errors, vector errors, variances, standard deviations, direction errors and anomaly correlations of the group are unchanged.", "quantifier": "every group of VL1L2 or VAL1L2 lines, every set of wind pairs behind it, and every rotation with rational cosine and sine", "why_tests_cant": "Tests use winds in one orientation; a term with u and v confused or a sign error shows only when all orientations are compared.", "anchors": ["metcalcpy/util/vl1l2_statistics.py:calculate_vl1l2_msve", "metcalcpy/util/vl1l2_statistics.py:calculate_vl1l2_speed_err", "metcalcpy/util/vl1l2_statistics.py:calculate_vl1l2_bias", "metcalcpy/util/vcnt_statistics.py:calculate_vcnt_dir_err", "metcalcpy/util/vcnt_statistics.py:calculate_vcnt_vdiff_speed", "metcalcpy/util/vcnt_statistics.py:calculate_vcnt_anom_corr", "metcalcpy/util/val1l2_statistics.py:calculate_val1l2_anom_corr"]}
{"id": "C274", "title": "Exchanging forecasts and observations in SL1L2 lines", "statement": "When forecasts and observations are exchanged in all pairs behind a group of SL1L2 lines, the correlation, MSE, RMSE, MAE, ME2 and BCMSE are unchanged, the means and the standard deviations are exchanged, MBIAS becomes its reciprocal and ME changes its sign.", "quantifier": "every group of SL1L2 lines and every set of matched pairs behind it", "why_tests_cant": "Tests compare scores of fixed data with stored numbers; a confusion of the two sides or an asymmetric rounding shows only when every data set is compared with its exchange.", "anchors": ["metcalcpy/util/sl1l2_statistics.py:calculate_me", "metcalcpy/util/sl1l2_statistics.py:calculate_mse", "metcalcpy/util/sl1l2_statistics.py:calculate_rmse", "metcalcpy/util/sl1l2_statistics.py:calculate_mbias", "metcalcpy/util/sl1l2_statistics.py:calculate_pr_corr", "metcalcpy/util/sl1l2_statistics.py:calculate_fstdev", "metcalcpy/util/sl1l2_statistics.py:calculate_ostdev", "metcalcpy/util/sl1l2_statistics.py:calculate_bcmse", "metcalcpy/util/utils.py:round_half_up"]}
{"id": "C275", "title": "Mean error, mean absolute error and RMSE of one group are ordered", "statement": "For every group of SL1L2 lines the reported |ME| is at most the reported MAE, and the reported MAE is at most the reported RMSE.", "quantifier": "every group of SL1L2 lines and every set of matched pairs behind it", "why_tests_cant": "The order is a relation between three separately rounded numbers for every data set; examples with ordinary magnitudes never show where rounding breaks it.", "anchors": ["metcalcpy/util/sl1l2_statistics.py:calculate_me", "metcalcpy/util/sl1l2_statistics.py:calculate_mae", "metcalcpy/util/sl1l2_statistics.py:calculate_mse", "metcalcpy/util/sl1l2_statistics.py:calculate_rmse", "metcalcpy/util/utils.py:round_half_up"]}
{"id": "C276", "title": "A model compared with itself shows no difference", "statement": "When the lines of two series carry the same data for every case, the derived curve DIFF is 0, RATIO is 1, SS is 0 (missing where the score itself is 0), and DIFF_SIG reports no confidence in a difference.", "quantifier": "every input table with SL1L2 lines, every request with a derived curve of two series with equal data, every number of replicates and every draw", "why_tests_cant": "Needs equal data under two names, for all data and all random draws; a stored expected value of one run says nothing about the draws.", "anchors": ["metcalcpy/agg_stat.py:AggStat._get_bootstrapped_stats_for_derived", "metcalcpy/agg_stat.py:AggStat.calculate_stats_and_ci", "metcalcpy/util/utils.py:calc_derived_curve_value", "metcalcpy/util/utils.py:perfect_score_adjustment"]}
{"id": "C277", "title": "A line without pairs or without a value does not change the scores of its group", "statement": "Adding to a group of SL1L2 lines a line with TOTAL = 0, or a line in which the partial sum a score needs is missing, leaves the reported score of the group unchanged.", "quantifier": "every group of SL1L2 lines, every position and content of the added line, every SL1L2 score", "why_tests_cant": "The claim compares two runs for every group and every content of the added line; a test fixes one group and, as a rule, has no empty or incomplete line.", "anchors": ["metcalcpy/util/utils.py:sum_column_data_by_name", "metcalcpy/util/utils.py:get_total_values", "metcalcpy/util/sl1l2_statistics.py:calculate_fbar", "metcalcpy/util/sl1l2_statistics.py:calculate_me", "metcalcpy/util/sl1l2_statistics.py:calculate_rmse", "metcalcpy/agg_stat.py:AggStat._prepare_sl1l2_data"]}
{"id": "C278", "title": "Which exception a call with unusable input raises", "statement": "A call that cannot be answered raises one kind of exception, determined by what is unusable: for the bootstrap and its results, the runs test, contingency counts, preparation of lines, thresholds, dates, equalization against values and with fixed values, permutations, economic value steps, significance, zonal waves, wave activity, indices of the Madden-Julian oscillation, blocking and weather regimes, the kind is the one listed per call, and where the theorem is an equivalence nothing else is refused.", "quantifier": "every call of the listed functions whose input is unusable (missing column, empty list, lengths that differ, unknown option, step 0, absent wavenumber or day)", "why_tests_cant": "A test shows the exception of one call; that the kind depends only on what is unusable, and that no other input is refused, is about all inputs.", "anchors": ["metcalcpy/bootstrap.py:bootstrap_and_value", "metcalcpy/bootstrap.py:BootstrapResults", "metcalcpy/util/utils.py:create_permutations_mv", "metcalcpy/event_equalize.py:event_equalize", "metcalcpy/event_equalize_against_values.py:event_equalize_against_values", "metcalcpy/contributed/tropical_diagnostics/ccew_activity.py:waveact", "metcalcpy/contributed/tropical_diagnostics/ccew_activity.py:wave_skill", "metcalcpy/contributed/spacetime/spacetime.py:get_symmasymm", "metcalcpy/contributed/rmm_omi/compute_mjo_indices.py:regress_vector_onto_eofs", "metcalcpy/contributed/mjo_enso/compute_mjo_enso.py:calc_tau_MJO", "metcalcpy/contributed/blocking_weather_regime/Blocking_WeatherRegime_util.py:read_nc_met", "metcalcpy/contributed/blocking_weather_regime/WeatherRegime.py:WeatherRegimeCalculation.write_K_means_file"]}
{"id": "C279", "title": "In a matched pair file every value stands below the name of its column", "statement": "In the matched pair files of the weather regime and blocking calculations each of the 24 named columns begins at the same position in the header and in every line, and all lines of a file have each of their 37 values at the same position.", "quantifier": "every set of texts (model, description, variables, units, levels, mask), all times and all values of the points", "why_tests_cant": "A test looks at one set of texts; alignment depends on the length of every text against a width computed from the same or another text.", "anchors": ["metcalcpy/contributed/blocking_weather_regime/Blocking_WeatherRegime_util.py:write_mpr_file"]}
{"id": "C280", "title": "The weather regime patterns are those of departures from the trend over the seasons", "statement": "Calc_EOF decomposes, for every day of the season and grid point, the data less the linear function of the season that leaves neither mean nor trend over the seasons; so adding a linear change over the seasons, another one at every day and point, changes none of the results, and with one or two seasons nothing is left to decompose. The rows are the days in order, season by season.", "quantifier": "all numbers of seasons (at least one), days and points, all data, all linear changes and every solver", "why_tests_cant": "Invariance under every linear change at every day and point, whatever the solver does with the matrix, is a statement about infinitely many pairs of calls.", "anchors": ["metcalcpy/contributed/blocking_weather_regime/WeatherRegime.py:WeatherRegimeCalculation.Calc_EOF"]}
{"id": "C281", "title": "Calc_EOF leaves its argument as it is", "statement": "After Calc_EOF the array passed in holds the same data as before, so it can be used for further calculations, and calling again gives the same result.", "quantifier": "all numbers of seasons (at least one), days and points, all data, every solver", "why_tests_cant": "Tests look at what is returned for fixed data, not at the memory of the argument for all data.", "anchors": ["metcalcpy/contributed/blocking_weather_regime/WeatherRegime.py:WeatherRegimeCalculation.Calc_EOF"]}
{"id": "C282", "title": "Fields and times read by read_nc_met belong to the day of their file", "statement": "read_nc_met(files, var, nseasons, dseasons) returns at season s and day d the field, the initial and valid time and the lead label of file number s*dseasons+d; a file given as 'missing' has a field of NaN and empty times. It returns exactly when at least one file is there, all of them lie on the grid of the first and have readable times, and their number is nseasons*dseasons.", "quantifier": "all lists of files, present or missing, and all numbers of seasons and days", "why_tests_cant": "Any number of seasons and days with missing files anywhere.", "anchors": ["metcalcpy/contributed/blocking_weather_regime/Blocking_WeatherRegime_util.py:read_nc_met"]}
{"id": "C283", "title": "A point without a value in a file is missing in the array of read_nc_met", "statement": "A point that is masked in a netCDF file is NaN in the returned array, as the points of missing files are, so that means and variances leave it out.", "quantifier": "all files, points and fill values", "why_tests_cant": "Test files have no masked points.", "anchors": ["metcalcpy/contributed/blocking_weather_regime/Blocking_WeatherRegime_util.py:read_nc_met"]}
{"id": "C284", "title": "A run that appends adds its rows to those of the earlier runs", "statement": "With append_to_file set to True, the output file of an aggregation run reads back as the rows of the earlier runs followed by its own, each value below the name of its column; without it, as the rows of the run alone. No other file changes.", "quantifier": "all numbers of runs, all tables and files, the parameter given as a YAML boolean or as text", "why_tests_cant": "It concerns sequences of runs of any length and any earlier file; no test appends.", "anchors": ["metcalcpy/agg_stat.py:AggStat.calculate_stats_and_ci", "metcalcpy/agg_eclv.py:AggEclv.calculate_stats_and_ci", "metcalcpy/scorecard.py:Scorecard.calculate_scorecard_data"]}
{"id": "C285", "title": "After a scorecard run its file holds the rows of that run", "statement": "After Scorecard.calculate_scorecard_data returns, the output file holds exactly the rows calculated by that run (or, when appending, the earlier rows followed by them). No other file changes.", "quantifier": "all inputs, configurations and earlier files", "why_tests_cant": "Tests start from a fresh file and have data for every comparison.", "anchors": ["metcalcpy/scorecard.py:Scorecard.calculate_scorecard_data"]}
{"id": "C286", "title": "A scorecard run that fails leaves the earlier file in place", "statement": "A scorecard run that raises leaves the output file of an earlier run as it was.", "quantifier": "all inputs, configurations, earlier files and exceptions", "why_tests_cant": "Needs every failing input against every earlier file.", "anchors": ["metcalcpy/scorecard.py:Scorecard.__init__", "metcalcpy/scorecard.py:Scorecard.calculate_scorecard_data"]}
{"id": "C287", "title": "The steps of a blocking or regime run are those named in the environment", "statement": "parse_steps() returns the names joined by plus signs in FCST_STEPS and OBS_STEPS, in order, each list from its own variable; nothing is lost or made up; without the variable no step is named.", "quantifier": "all environments and texts", "why_tests_cant": "Any number of steps and any text in the variables.", "anchors": ["metcalcpy/contributed/blocking_weather_regime/Blocking_WeatherRegime_util.py:parse_steps"]}
{"id": "C288", "title": "Spectra that are saved can be read back", "statement": "The file written by save_Spectra holds the frequencies, wavenumbers and spectra it was given, each spectrum under its number and name.", "quantifier": "all arrays of spectra, frequencies and wavenumbers", "why_tests_cant": "Any number of spectra, rows and columns and any wavenumbers.", "anchors": ["metcalcpy/contributed/spacetime/spacetime_utils.py:save_Spectra", "metcalcpy/contributed/tropical_diagnostics/utils.py:save_Spectra"]}
{"id": "C289", "title": "Spectra are saved in the directory given", "statement": "save_Spectra(STC, freq, wnum, filename, filepath) writes the file filename.nc in the directory filepath.", "quantifier": "all directories and names", "why_tests_cant": "Tests use one directory, written with or without a slash at the end.", "anchors": ["metcalcpy/contributed/spacetime/spacetime_utils.py:save_Spectra", "metcalcpy/contributed/tropical_diagnostics/utils.py:save_Spectra"]}
{"id": "C290", "title": "Every object statistic can be asked for all, for 2d and for 3d objects", "statement": "In the aggregation of objects a statistic named ratio_xxx_yyy gives the objects of the group xxx over those of the group yyy as the letters say (by area with arearat, by volume with volrat), and the same name with 2d_ or 3d_ in front gives it for the 2d or 3d objects; no name hides another.", "quantifier": "all names of statistics and all data", "why_tests_cant": "About two hundred functions found by a name put together at run time; a missing one shows only when its name is asked for, and the claim is about every table of objects.", "anchors": ["metcalcpy/agg_stat_bootstrap.py:AggStatBootstrap._calc_stats", "metcalcpy/util/mode_ratio_statistics.py", "metcalcpy/util/mode_arearat_statistics.py", "metcalcpy/util/mode_2d_ratio_statistics.py", "metcalcpy/util/mode_2d_arearat_statistics.py", "metcalcpy/util/mode_3d_ratio_statistics.py", "metcalcpy/util/mode_3d_volrat_statistics.py"]}
{"id": "C291", "title": "The cross-spectra script reports different latitudes", "statement": "Running cross_spectra.py on precipitation and wind whose latitudes (within the configured band) differ prints the message that the latitudes must be the same; with the same latitudes nothing is printed.", "quantifier": "all latitudes of the two variables", "why_tests_cant": "The comparison depends on how labelled arrays are aligned before they are subtracted, for every pair of grids; the script itself has no tests.", "anchors": ["metcalcpy/contributed/spacetime/cross_spectra.py"]}
{"id": "C292", "title": "Segments of the cross spectra have the configured number of days", "statement": "Each spectrum written by cross_spectra.py is computed from segments of nperseg days: the number of values of a segment is nperseg times the number of values a day with which the frequencies of that spectrum are scaled.", "quantifier": "all configured numbers of observations a day, segment lengths and overlaps", "why_tests_cant": "One number is changed between two uses in the middle of a script; one configuration (two a day) hides it.", "anchors": ["metcalcpy/contributed/spacetime/cross_spectra.py"]}
{"id": "C293", "title": "The spectra of one run go to different files", "statement": "The three spectra of one run of cross_spectra.py are written to three different files, whatever the model is called and whatever symmetry and number of observations a day are configured.", "quantifier": "all names of models, symmetries and numbers of observations a day", "why_tests_cant": "Names are put together from free text; a collision would need a special name, and there are infinitely many.", "anchors": ["metcalcpy/contributed/spacetime/cross_spectra.py"]}
{"id": "C294", "title": "The phase diagram shows all records from the first to the last date", "statement": "phase_diagram_example.py plots exactly the records of the index file whose date lies between the first and the last date, both included.", "quantifier": "all index files in chronological order, with any number of records a day, and all pairs of dates in them", "why_tests_cant": "With one record a day, as in any small sample, the cut is right; the claim is about every file.", "anchors": ["metcalcpy/contributed/tropical_diagnostics/phase_diagram_example.py"]}
{"id": "C295", "title": "The index examples show every day with its own date", "statement": "compute_omi_example.py and compute_rmm_example.py plot the index of every day from the first to the last date, each value labelled with its own day.", "quantifier": "all computed indices, with or without missing days, and all pairs of dates", "why_tests_cant": "Values and labels come from two different selections that agree except at the end and at gaps; the scripts have no tests.", "anchors": ["metcalcpy/contributed/tropical_diagnostics/compute_omi_example.py", "metcalcpy/contributed/tropical_diagnostics/compute_rmm_example.py"]}
{"id": "C296", "title": "The zonal mean data set has all diagnostics its variables allow and no others", "statement": "For a data set with at least one of u, v, w, T and Z, create_zonal_mean_dataset returns the zonal means of the variables present, the eddy fluxes of the pairs present, with include_waves also the fluxes by wavenumber and the Fourier coefficients of T and Z, each described by a name and units, and nothing else (no intermediate fields).", "quantifier": "all data sets, with any subset of the variables, with and without waves", "why_tests_cant": "Every combination of present variables takes another path; intermediate fields are removed by a test on their names.", "anchors": ["metcalcpy/contributed/zonal_meridional/recipes.py:create_zonal_mean_dataset"]}
{"id": "C297", "title": "Eddy fluxes of the zonal mean data set are covariances", "statement": "The value of each eddy flux (uv, vT, uw, wT) returned by create_zonal_mean_dataset is the mean of the product of the two variables along the circle of latitude minus the product of their means, and the value of each variable is its mean.", "quantifier": "all circles of latitude with any number of longitudes and any values", "why_tests_cant": "An algebraic identity over all fields of all sizes.", "anchors": ["metcalcpy/contributed/zonal_meridional/recipes.py:create_zonal_mean_dataset"]}
{"id": "C298", "title": "The skill of the Kelvin wave example compares the model with the observations", "statement": "The skill computed by example_kelvin_activity.py is the skill of the model's Kelvin wave activity against the observed activity: it depends on the model data.", "quantifier": "all model and observed precipitation fields with any number of times, latitudes and longitudes, every projection onto the waves", "why_tests_cant": "The script prints numbers that look like correlations for any data; that they do not depend on the model data is a statement about all of it.", "anchors": ["metcalcpy/contributed/tropical_diagnostics/example_kelvin_activity.py", "metcalcpy/contributed/tropical_diagnostics/ccew_activity.py:wave_skill"]}

# Formal model of METcalcpy: design

Outcomes used below: *proved* means that the theorems listed in MANIFEST.json state the whole property
for all inputs.  *partial* means that the property is false of the code as written, or that a part of it is
missing: then a concrete `_counterexample` is proved together with the strongest `_partial` theorem that does
hold, and the property keeps its original statement in properties.jsonl.

## 1. Layout

    lean/Verif/Model/*.lean   shallow executable model, one Lean function per Python function
    lean/Verif/Spec/*.lean    small independent specifications used in theorem statements
    lean/Verif/Lemmas/*.lean  helper lemmas (never cited as property theorems)
    lean/Verif/Props/*.lean   the property theorems, one file per property group, each with
                              an `example` that exhibits a non-trivial instance of its hypotheses
    properties.jsonl          the list of properties
    MANIFEST.json             property -> theorem names, status
    seeded/LOG.jsonl          log of the mutation experiments

## 2. Modelling conventions

* Every model definition carries a doc comment `metcalcpy/<file>:<lines>` naming the code it models.
* **Numbers.** IEEE doubles are modelled by exact rationals (`Rat`), or by reals (`Real`) where the
  code uses `sqrt`, `log`, `cos`.  Rounding error, overflow, signed zero and infinities are
  *not* modelled.  `NaN`/`None`/`NA` cells are modelled by `Option.none`.
* **Exceptions** are values: `Option` where the code converts the exception into `None`,
  `Except PyErr` where it escapes to the caller.  Division is guarded by an explicit
  zero test (`pyDiv`, `pyDivE`); the totalised Lean division `x / 0 = 0` is never relied upon in a
  statement.
* **Data frames** are lists of rows; a statistic sees a `Table` = column names + rows of
  `Option Rat` cells.  Column lookup is the first matching name, as in the code.
* **Mutation** is modelled by returning the new value (frames, warning filter, output frame).
* **Randomness** is a parameter (vector of drawn start indices); schedules are an explicit list of
  completion events.
* External libraries (NumPy, pandas, SciPy, xarray) are modelled by the few operations
  used, written out in `Model/` with a comment; distribution functions (`t.cdf`, `norm.cdf`) are
  parameters of the model.

## 3. Properties: what is modelled, how it is proved, what is missing

| id | property | model modules | how it is proved | outcome |
|----|----|----|----|----|
| C01 | Event equalization keeps exactly the common cases | EventEqualize | induction over the permutation list; membership characterisation of the fold of filters | proved: Exact characterisation of the kept rows for every frame, plus the degenerate and error cases. |
| C02 | Event equalization preserves order, never invents rows and is idempotent | EventEqualize | sublist lemma for filter; idempotence from C01 | proved: Idempotence with the independent value in the key needs that the key determines it; shown for values without blanks. |
| C03 | Event equalization does not depend on the order in which series are listed | EventEqualize | C01 characterisation is symmetric in the permutations | proved |
| C04 | Equalization against stored cases keeps exactly the listed cases | EventEqualize | filter characterisation | proved |
| C05 | Equalization against stored cases can be repeated on the same frame | EventEqualize | second call raises because the key column already exists in the caller's frame | partial: False of the code: the first call adds the key column to the caller's frame and every further call on it raises ValueError. Partial: repeating on the returned frame works. |
| C06 | round_half_up rounds to the nearest grid point, ties upward | Round | floor inequalities | proved |
| C07 | Column sums: missing data is reported, never silently ignored | Table | case analysis on the column, list sums | proved |
| C08 | Contingency-table scores do not depend on how the counts are split over rows | Ctc | every score factors through the column sums; sums are additive/permutation invariant | proved |
| C09 | Contingency-table proportions lie in [0,1] | Ctc | ratio bounds + monotone rounding of 0 and 1 | proved |
| C10 | A contingency-table score is missing exactly when its denominator vanishes | Ctc | case analysis on the denominators | proved |
| C11 | Skill scores are 1 for a perfect forecast and never exceed 1 | Ctc | field arithmetic | proved |
| C12 | Complementary contingency scores add up | Ctc | field arithmetic + rounding error bound | proved |
| C13 | Economic value peaks at the base rate and never exceeds the maximum value | EconomicValue | field arithmetic over the list of ratios | proved |
| C14 | ROC area lies between 0 and 1 | Pstd | induction over the bins (trapezoids telescoping) | proved: ROC area is the rounded concordance probability of the pooled bins; hence in [0,1], 1 for perfect separation, 0 for reversed separation. Needs at least one event and one non-event. |
| C15 | Scalar partial sums give the statistics of the underlying matched pairs | Sl1l2 | refinement batches -> pooled pairs, induction on the batch list | proved: BCMSE holds up to the rounding of the intermediate ME and MSE, with an explicit bound. |
| C16 | MSE and BCMSE of genuine data are never negative | Sl1l2 | sum of squares; counterexample by kernel evaluation of one pair | partial: False for BCMSE/BCRMSE: rounding of ME and MSE before subtraction can make BCMSE negative and BCRMSE raises ValueError. MSE/RMSE part and the exact identity are proved. Exactly when BCMSE is negative (and BCRMSE raises) is proved. |
| C17 | Pearson and anomaly correlation lie in [-1,1] | Sl1l2 (reals) | Cauchy-Schwarz on lists | proved |
| C18 | Group aggregation of partial sums is the total-weighted mean and is associative | SeriesSums | weighted mean algebra, two stage | partial: Proved for SL1L2, VL1L2, VAL1L2 and GRAD (missing values included). For SAL1L2, proved for every group: the means are right but stored under other column names, so a second stage always fails. |
| C19 | Group aggregation of contingency tables adds the counts | SeriesSums | case analysis of the branch; counterexample frame | partial: False for every group: each count becomes the sum of the first column of the frame (proved for all inputs); only the total is right. |
| C20 | Neighbourhood statistics of an aggregated group are total-weighted | Ensemble | refinement of the preparation step to weighted means of the rows | partial: FBS and F_RATE are total-weighted. FSS is proved exactly: the reference values of perfect rows are missing from the denominator, so it holds when no row has a perfect FSS. O_RATE is not weighted (exact value proved). |
| C21 | Ensemble statistics of an aggregated group use each field's own weighted mean | Ensemble | refinement of the preparation step; one theorem per statistic | partial: Holds for every ECNT root and mean except SPREAD_PLUS_OERR, whose actual value and a counterexample are proved. |
| C22 | Fractions skill scores stay in range | Ensemble | inequalities on sums of squares | proved |
| C23 | Longitude conversion is a bijection onto [-180,180) up to sorting | Lon | floor-mod inequalities, insertion sort | proved |
| C24 | Longitude re-indexing returns a permutation that sorts the new longitudes | Lon | insertion sort: permutation and pairwise order | proved: For a positive range. |
| C25 | create_permutations enumerates the full cartesian product exactly once | Permutations | induction over the lists | proved |
| C26 | create_permutations_mv enumerates every combination | Permutations | induction over the lists | proved |
| C27 | Circular block bootstrap resamples are valid and made of contiguous blocks | Bootstrap | loop invariant of the index generator | proved |
| C28 | The bootstrap performs the requested number of replicates | Bootstrap | division algorithm for the serial chunks; count of the parallel jobs | partial: Serial case proved in full; with several threads every job runs ceil(num_iterations/num_threads) replicates, so the count is exact only if the number of threads divides it. |
| C29 | Parallel bootstrap results do not depend on the completion order of the workers | Bootstrap | labelled transition system of the pool, invariant over completion events | proved: Labelled transition model of the worker pool; every schedule, number of workers and worker generator state. |
| C30 | Bootstrap results always have ordered bounds | Bootstrap | invariant over sequences of arithmetic operations | proved: Division is not an operation of the class. |
| C31 | Confidence intervals are ordered and computed only from replicates that have a value | Bootstrap | linear interpolation percentile on sorted lists | partial: Everything claimed holds unless all replicates are missing while the statistic is not: then an IndexError escapes (C31_all_missing). |
| C32 | ECLV confidence limits are produced at each cost/loss ratio | Bootstrap | case analysis of the column of a ratio, percentile bounds; loop over the ratios by induction | partial: Holds for the percentile method; the pivotal method multiplies a dictionary and always fails. |
| C33 | Derived curve values are element-wise and refuse mismatched input | Derived | case analysis, zip | proved |
| C34 | Difference-significance sign adjustment only changes the sign | Derived | case analysis | proved: Relative to the listed perfect scores; ODDS, LODDS, NBR_ODDS and VL1L2_BIAS, whose listed perfect score is doubtful, are left out of the specification. |
| C35 | The paired TOST always reports a combined outcome | Tost | case analysis with the t distribution as a parameter | partial: False on the boundary p = alpha (UnboundLocalError) and for a constant difference (ZeroDivisionError); proved for every other admissible input, for any t-distribution. |
| C36 | Invalid TOST input is rejected before any computation | Tost | case analysis, quadratic form | partial: alpha = 0 is silently replaced by 0.05 instead of being rejected; everything else proved. |
| C37 | The variance inflation factor never deflates the standard error | StdErr | case analysis | proved: Holds whenever the function returns; a series that is constant up to its last value raises ZeroDivisionError (C37_zero_division). |
| C38 | Threshold sorting orders by value, then by operator | Thresh | sortedness of stable sort with lexicographic key | proved: For non-empty frames of numeric thresholds, with stability; an empty frame raises (C38_empty). Python's float() is a parameter. |
| C39 | The forecast difficulty index stays in its documented range | Difficulty | for negative sigma; partial for non-negative sigma | partial: False: the check only tests that spreads are non-zero, so a negative spread is accepted and the index leaves the range; proved for positive spreads and means. No index is above 1.5; when an index is non-negative is proved exactly. |
| C40 | Piecewise-linear functions reject unsorted domains and interpolate within bounds | Difficulty | induction over the knots | partial: The unsorted check can never fire (proved for all inputs); interpolation proved for increasing knots. |
| C41 | Statistics leave the process-wide warning filter as they found or documented | Filter | state (the filter) threaded through every function; case analysis over the returns | partial: Statistics restore the filter except for early returns and the ROC area, which leave it strict; the values themselves do not depend on it except for the two anomaly correlations. |
| C42 | Vertical interpolation is a convex combination of the two bracketing layers | VerticalInterp | position of the target among the layers, linear algebra | partial: Linear interpolation is proved strictly between layers below the top interval; false in the top interval, at exact hits and with a single layer. |
| C43 | Meridional mean averages the requested latitude band | Preproc | weighted mean over the selected latitudes | partial: The band limits are ignored (always 60 to 90); proved for that band. |
| C44 | Matched and unmatched object percentages add up to one | Mode | counts of disjoint filters add up | partial: False for simple forecasts by number and for groups without matched or unmatched objects by area. |
| C45 | Object bootstrap writes one result per requested statistic | ObjectBootstrap | position of the first matching output row in the product; last write wins (fold induction) | partial: False for several statistics: the first statistic's row holds the last statistic, the other rows stay empty (C45_rows, for all inputs). Proved for one statistic and plain values. |
| C46 | Object bootstrap replicates weight a case by how often it was drawn | ObjectBootstrap | filter by membership versus concatenation of the drawn cases | partial: False: a repeated case counts once. Proved for resamples without repetition. It holds exactly when every case drawn more than once has no rows. |
| C47 | EMC scorecard classification is total and symmetric | Scorecard | monotone odd rounding; case analysis of the chain | partial: False as stated: a score whose 99.9% value is exactly -100 gets no level, and for ME/BIAS exchanging the models keeps the sign when the means have equal magnitude. Levels, monotonicity and antisymmetry are proved for all other scores and for the whole function. |
| C48 | Runs test counts are consistent | Runs | induction on the sign list | proved: Run counts and group sizes equal those of the specification, for all lists. |
| C49 | Autocorrelation at lag 0 is 1 and all others are bounded by 1 | Acf | Cauchy-Schwarz for shifted lists | proved: Bounds for complete series as stated; with missing values the bound fails (counterexample). |
| C50 | Paired missing-value removal keeps pairs aligned | Acf | induction over the pairs | proved: Complete pairs are kept in order; the edge cases follow the code. |
| C51 | Derived series names are always recognised as derived | Derived | string prefix reasoning over character lists | partial: False for two-element derived series: the stored operation is the second series name. Exact extent proved: right exactly for two names with a known operation and for other numbers of entries ending in the word DIFF. |
| C52 | Derived curves are refused when a case has several values | DerivedValidate | number of distinct keys as a finite-set cardinality | partial: The equivalence is proved for the check and for the aggregation; the number of values allowed is wrong for two groups (sum instead of product), and the scorecard does not check the second component. |
| C53 | Number-like strings are classified uniquely | Strings | character list reasoning | proved |
| C54 | Equalization of an axis honours all series variables | EqualizeAxis | C01 applied to the selected frame, fold induction over (variable, statistic) | partial: False: only the last series variable is enforced. The exact result is proved for every number of variables. |
| C55 | Probability-table Brier score is computable for valid input | Pstd | attribute error for every table | partial: False as stated: Brier score, Brier skill score and resolution raise AttributeError for every well-formed non-empty table. Base rate, uncertainty and reliability are proved to be numbers in their ranges. |
| C56 | Wind decomposition preserves the wind speed | Preproc | cos^2 + sin^2 = 1 | proved: Over the real numbers. |
| C57 | Renaming a file adds the postfix only before the extension | Validate | character list induction | partial: False as stated: every dot of the name is replaced. It holds exactly for names without a dot before the last one. |
| C58 | The testing period is always a valid interval | Validate | case analysis over the two dates; calendar arithmetic | proved: For every pair of arguments and every current date. |
| C59 | Base-rate option of the ECLV aggregation is honoured | EconomicValue | case analysis of the constructor | partial: False of the code: the constructor resets the option whenever it is 0 or 1. |
| C60 | Multi-category HSS_EC equals its textbook form and is 1 for a perfect forecast | Mcts | arithmetic over the category lists | proved |
| C61 | The CTC statistic for the economic value returns the value curve | EconomicValue | every branch returns None | partial: False of the code: the result is always None because round_half_up is applied to an array. |
| C62 | Economic value of probability (PCT) data is computable | EconomicValue | every branch raises | partial: False with the pinned NumPy, which has no np.float. |
| C63 | ESTDEV of an aggregated group is the standard deviation of the pooled errors | Sl1l2 | counterexample; value of the non-aggregated call proved | partial: False in aggregation runs: ME and MSE are computed without the aggregation flag. The exact value is proved: missing if s < e^2, else the root of n(s - e^2)/(n-1), with e and s the sums of the errors and their squares. |
| C64 | FE of an aggregated group is computed from total-weighted means | Sl1l2 | counterexample | partial: False in aggregation runs: the statistic has no weighting entry; the exact value is the fractional error of the unweighted means of the lines. Exact extent proved; in particular right when all lines have the same total, or the observations are the same multiple of the forecasts in all lines. |
| C65 | The scatter index is a number or missing, never an exception | Sl1l2 | case analysis of the denominator | partial: False exactly when the rounded mean observation is zero: then always a ZeroDivisionError. |
| C66 | Aggregated RPS statistics are weighted means and RPSS is one minus the ratio of means | Ensemble | refinement of the preparation step | partial: Means hold always; RPSS is proved exactly: the reference values of perfect rows are missing from the denominator, so it holds when no row is perfect. |
| C67 | Conditional ensemble mean errors are weighted by their own counts | Ensemble | refinement of the preparation step | proved |
| C68 | Vector wind statistics of a group are those of the pooled wind pairs | Vector | refinement batches to pooled wind pairs | partial: VL1L2_FSPD and VL1L2_OSPD are not weighted (exact value proved for all groups); the other statistics are pooled. |
| C69 | Vector anomaly correlations lie between -1 and 1 | Vector (reals) | Cauchy-Schwarz and rounding clamp | proved |
| C70 | Wind directions are degrees between 0 and 360 | Vector (reals) | range of the arc tangent | partial: The range holds; the number is an angle in radians (wrapped at 360), shown by a counterexample. It is the direction in degrees exactly for u = 0 and v > 0. |
| C71 | The wind direction error depends only on the mean vectors | Vector (reals) | angle of the mean vectors | partial: A reported error is the right angle. Proved exactly when nothing is reported: the observed length is that of the sum of the vectors, so large groups report nothing. |
| C72 | Gradient scores are those of the pooled gradients and S1 lies in [0,200] | Vector | refinement batches to pooled gradients; triangle inequality | proved |
| C73 | A significant bootstrap result needs an interval that leaves out zero | Bootstrap | case analysis on the bounds | proved |
| C74 | Reliability, resolution and uncertainty decompose the Brier score | Pstd | algebra over the bins, sum exchange | proved |
| C75 | The TOST used by the aggregation reports an outcome whenever p-values exist | Tost | case analysis | partial: False: a p-value of exactly 0 suppresses all outcomes; agreement proved otherwise. |
| C76 | autocor_coef is the least-squares lag-1 slope | StdErr | least squares algebra; counterexample | partial: False: a term of the formula misses a square. Proved exactly when the coefficient is the slope (three special sums). |
| C77 | The ROC table has one point per threshold, in threshold order | Pstd, Thresh | fold over thresholds; counterexample for the order | partial: One point per threshold with the pooled rates proved; the order is that of the texts for every frame, so ">=10" precedes ">=2". |
| C78 | Thresholds that are not numeric are ordered by text, then by operator | Thresh | sortedness of the stable sort; counterexamples | partial: False for "<=" (read as "<" and a text beginning with "=") and for mixtures (ValueError); proved for the other operators. |
| C79 | MODE percentages and ratios are the ones their descriptions announce | Mode | filters as counting predicates | partial: Six of the statistics compute something else; what they compute is proved. |
| C80 | Object-based hits, misses, false alarms, CSI, PODY and FAR follow their definitions | Mode | filters as counting predicates | partial: CSI and PODY by number and FAR by area are wrong; what they compute is proved. |
| C81 | 2d and 3d variants are the general statistics of the objects of that dimension | Mode | the type filter commutes with the statistic filters | partial: Volume statistics are always missing. |
| C82 | get_test_xml selects exactly the XML files of the testing period | Validate | sorted filter, permutation invariance of sorting | proved: For every directory listing. |
| C83 | Numeric series variables can be equalized | EqualizeAxis | corollary of the exact result of C54 | partial: False: with numeric cells nothing is kept (proved for all frames). Proved for text cells. |
| C84 | Equalization of two axes honours the series of both axes | EqualizeAxis | dictionary update lemma; counterexample; for equal series a kept row is kept again (keptRows_stable), Props.C201_TwoAxes | partial: False for a variable used on both axes: the values of the first axis are dropped from the final equalization (proved for all definitions). C84_result says exactly which rows are kept. C84_same_series_partial: if both axes have the same series, the result is the equalized data of both axes put together. |
| C85 | Aggregating a list of regions gives one row per valid time and lead | AggregateField | loop invariant over the label-indexed row list; partition of the rows by time | partial: Proved for one aggregated value with complete (valid, lead) combinations; the other cases fail in the code (C86, C87). |
| C86 | Aggregation copes with missing leads | AggregateField | invariant that a missing group stays missing until its turn | partial: False: proved that the aggregation raises in every such case (line types that divide by total); contingency tables get a row without valid time. |
| C87 | Several aggregated values do not disturb each other | AggregateField | The state of the loop is the rows outside the groups done plus the new rows kept; a group with the row labelled 0 drops the kept rows (induction over the list of groups of all values); counterexamples by evaluation | partial: False: new rows share the label 0 and rows are removed by label. Proved exactly which values survive: for values of one variable that share no part, all of them unless the first row (label 0) belongs to one of them, and then this one and the values listed after it. Counterexamples for two values and two variables. |
| C88 | The pooled neighbourhood scores are those of the pooled sample | AggregateField | sums over lines, algebra of weighted means | partial: Proved for groups without perfect lines; with them the exact value is proved (their reference values are missing), and that the skill score is right exactly when no line is perfect. |
| C89 | All scores of an aggregated row describe the aggregated sample | AggregateField | lookup in the pooled fields | partial: False: proved that RMSE, CRPSS and RPSS stay those of the first row of every group. |
| C90 | Equalization of attribute statistics against stored cases keeps each requested row once | AggEqz | induction over the forecast variables on top of C04; counterexample; for several series variables induction over all pairs of forecast variable and series variable | partial: False with several series variables (rows repeated, unrequested rows kept). Proved for one series variable; for any number of them the exact result and how many times each row is returned. |
| C91 | Equalization of attribute statistics leaves the same cases on both axes | AggEqz | corollary of C01 (twice for two axes); counterexamples | partial: Proved for one axis with one series variable. False for two axes (the cases of the second axis are not checked against the first: what is kept is stated exactly) and for two series variables. |
| C92 | EDS and SEDS are the extremal dependency scores of the summed counts, within [-1, 1] | Ctc | logarithm inequalities over the summed counts | proved |
| C93 | EDI and SEDI are the extremal dependency indices of the hit rate and false alarm rate | Ctc | logarithm inequalities; counterexample with a rare event | partial: The code rounds the hit rate to 7 digits first, so very rare hits give a missing score; the theorems describe the indices of the rounded hit rate. For which counts the indices are present is proved exactly. |
| C94 | BAGSS is the Gilbert score after moving the forecast to bias 1 | Ctc | defining equation of Lambert W | proved: Lambert W is a parameter with its defining equation as hypothesis. |
| C95 | Spread, bias, MAE and MSE skill of aggregated SL1L2 lines are those of the pooled pairs | Sl1l2, Prepare | pooled sums, then field arithmetic | proved |
| C96 | RMSFA, RMSOA and uncentred anomaly correlation of aggregated SAL1L2 lines are those of the pooled pairs | Sl1l2, Prepare | pooled sums, then field arithmetic | proved |
| C97 | Ensemble skill scores, member counts and bias ratio are those of the pooled rows | Ensemble | refinement of the preparation of two columns, then unfolding the score | proved: For every table of complete ECNT rows; the bias ratio divides the two already rounded mean errors. |
| C98 | The confidence intervals of the paired equivalence test agree with its p-values | Tost | monotonicity of the distribution function turns p-value comparisons into interval comparisons | proved: For any symmetric increasing distribution function with an inverse in place of the t-distribution; the equivalences hold up to the rounding of the reported numbers. |
| C99 | An aggregation table has one row per requested combination, computed from exactly the matching input rows | AggPoints | loop invariant over the points; membership in the cartesian product; cells compared by the specification CellAmong | proved: For num_iterations = 1, no ";" lists among the independent values and a line type other than PCT. |
| C100 | No input row is lost or counted twice over the points of an aggregation table | AggPoints | from C99: a filtered list splits over a partition by pairwise exclusive requests | proved: Plain rows of the table (the first product-many rows). |
| C101 | All requested forecast variables of an axis are aggregated | AggPoints | the whole run is unchanged when rows of other variables change; counterexample run | partial: False: the table depends only on the rows of the first forecast variable; counterexample run. |
| C102 | A derived curve is computed from the two series it is named after | AggPoints | keys that lie within the components are unique when fields share no values; the first match is the named series | partial: Proved for two series that differ in one variable (or in the statistic only), fields without common values and components that are no group names. False when the series differ in two variables or fields share values: counterexample runs. |
| C103 | Every requested derived curve appears in the table | AggPoints | emptiness of a cartesian product; counterexample run | partial: Exact condition for the curve to have rows; false for two series that share a group: counterexample run. |
| C104 | Vector anomaly correlations of a group are the centred correlation of the pooled anomaly vectors | Vector | pooled sums of products; the centred sums by algebra; exact rounding of the rational part | partial: Proved for VAL1L2 (the square root is taken exactly). False for VCNT, which centres by mean speeds: what it computes is proved, with a counterexample. |
| C105 | The bootstrap of a derived curve evaluates both series at the same cases | AggBoot | sorting by an injective key makes permuted case lists equal; both halves of a joined row are recovered after resampling | partial: Proved for series with the same cases (any order, repetitions allowed) and the operations DIFF, DIFF_SIG, RATIO, SS, SINGLE; different numbers of rows are refused. False otherwise: as many different cases are paired silently. |
| C106 | Bootstrap limits of a series are those for the requested alpha | AggBoot | as C105 for one series; counterexample run | partial: False: alpha is not passed on for plain series, 0.05 is always used. Everything else is proved, and that the limits are right exactly when those for the requested alpha are those for 0.05; derived curves do use alpha (C105). |
| C107 | A summary table holds for every row the statistic of that row | SumStat | invariant of the loop over rows (what is written so far); columns kept by the removal of fields; counterexample run | partial: Proved for requests without ':' in independent values and known statistics in all rows, every line type and without event equalization (sal1l2: after renaming, C107_anomalies). False when a row names an unknown statistic: the error is logged, and that row and all later ones keep the stat_value of the input (proved for all inputs). |
| C108 | Values joined with ';' are aggregated before a summary is computed | SumStat | by cases on the trigger; counterexample run | partial: False: the test looks for ':' in the characters of independent values and variable names, so values joined with ';' are not noticed (proved for all inputs without ':'). |
| C109 | A summary of two axes keeps the rows of both | SumStat | invariant of the nested loops over values and points; counterexample run | partial: False: for date-time independent values the second axis is searched in what the first one left; with different values of one variable on the two axes nothing is left (proved for all inputs). Without ':' no row is filtered at all (C107, C108). |
| C110 | A scorecard has a row for every comparison with data | ScorecardRun | invariant of the loop over points; uniqueness of the points of a named curve; counterexample runs | partial: Proved for comparisons of two series that differ in at most one variable (and possibly in the statistic) when no two fields share a value and the run succeeds. False otherwise: series that differ in two variables are compared with other rows, and unless fcst_lead is a series variable there are no rows at all (proved for all inputs: a run with data fails with a KeyError). |
| C111 | DIFF is the difference of means and SINGLE the mean | ScorecardRun | permutation invariance of sums under the sort; case analysis of the operation | proved: For all row sets; exact arithmetic. C110_rows_partial carries the same values to the rows of the written table. |
| C112 | Significance pairs the values of the same case | ScorecardRun | sorted permutations of equal cases agree; counterexample runs | partial: Proved for series with the same cases in any order. Refusing different cases is false: only the first series is checked, so a second series with repeated and missing cases is accepted and its values are paired by position. |
| C113 | NCAR significance is the signed confidence of the paired t-test | ScorecardNcar | case analysis of the quotient (finite, infinite, nan); C34 for the sign | partial: Proved with the perfect score of the first requested statistic (see C114), over the reals, for any distribution function. Antisymmetry fails when both means are equally far from the perfect score (each series is then reported as better than the other); a single pair makes the run fail. For which series antisymmetry holds is proved exactly. |
| C114 | Significance is judged by the perfect score of the compared statistic | ScorecardNcar | the result does not depend on the other statistics; counterexample | partial: False: the first requested statistic decides for all comparisons (proved for all inputs); with RMSE and ACC requested the better ACC gets a negative significance. |
| C115 | The table of economic values has the curve of every series | AggEclv, EconomicValue | rows of a point = rows of the series; array of counts and its sums; the list of ratios is the unique increasing list of multiples; all points by mapM | partial: Contingency counts: the whole table is characterised when every series has events and non-events; a single series without (for example without rows) makes the run fail, and that is proved for all inputs. Probabilistic counts: no run gives a curve with the pinned NumPy. Without a series field among the columns the run fails. Runs with resampling are not part of this claim. |
| C116 | Spread/skill statistics of a group of bins are those of all their points | Ssvar, Sl1l2, Prepare | renaming keeps columns; prepared sums; statistics depend on the sums only | proved |
| C117 | Every spread/skill statistic is available for every way of naming the columns | Ssvar | names renamed twice; lengths of cut names | partial: True in aggregation runs for the anomaly correlation (it equals the correlation). False otherwise: with an array of texts of at most five letters the result is always missing, and the total always fails in an aggregation run. At the level of a run: C117_run_anom_corr, C117_run_total. |
| C118 | The biweight midcorrelation is a robust correlation | RobustCorr | median and deviation specified by sorted lists; Cauchy-Schwarz; replacing far values keeps the median | proved: Exact arithmetic for the data, real square roots; only symmetry and strict monotonicity of the t-distribution are used for the p-value. |
| C119 | The percentage bend correlation is a robust correlation | RobustCorr | order statistics of the deviations; case split on the cut-off | proved: A zero bend scale does not always make the coefficient undefined; C119_zero_scale says what is computed. |
| C120 | The row returned by corr() describes the complete pairs | CorrTable | remove_na of C50; branch by branch | partial: False for the columns: 'outliers' is never reported although documented for robust methods, and BF10 appears for other methods when the coefficient is missing (C120_columns). The Bayes factor and the coefficients taken from scipy are not modelled. |
| C121 | Confidence intervals of correlations and standardized differences | CorrTable | rounding specified by nearest integers; tanh and artanh monotone | partial: All parts hold except that the rounded interval need not contain the coefficient: it can miss it by half a unit of the last decimal (C121_reported), and does for 0.123 with many cases (C121_counterexample). |
| C122 | The power of a correlation test is a probability | CorrTable | sum of two tails by symmetry and monotonicity | proved: The normal distribution function enters with values at least 0, monotone and symmetric; the searches for n, r or alpha are C197; the two-sided monotonicity (C122_monotone_two_sided) uses that the distribution grows less further outside. One-sided levels above 1/2 give the power of the complementary level. |
| C123 | Aggregating a list of leads gives one row per valid time | AggregateField | same loop invariant as C85 with the grouping by valid time; counterexample for the label | partial: The rows are pooled per valid time as stated, but the pooled row carries the first listed lead only, so it cannot be told from rows of that lead. A listed lead that is not an integer raises ValueError. |
| C124 | Blocked longitudes close to each other form groups around the latitude circle | Blocking, Lemmas/Gibl | invariant of the group scan over the doubled circle, folded back modulo 360; counting of covered longitudes; counterexamples | partial: Exactly the longitudes in groups around the circle are marked provided the groups cover at least twice the required number of degrees of the circle read twice; this holds when no group straddles longitude 0. A group across longitude 0 may be dropped, and IBL_DIST has no effect (half the required extent is used). |
| C125 | A longitude is blocked when heights north of the central latitude exceed those south of it | Blocking | index arithmetic of the bands on the latitude grid; maximum over the offsets; counterexample near the pole | partial: Proved for even band widths on whole latitudes when every band stays on the grid. One offset whose northern band leaves the grid makes the index missing and the longitude unblocked. Other method names are accepted and never find blocking. |
| C126 | The central blocking latitude is smoothed around the circle | Blocking | window of the tripled profile as a sum around the circle; integer part characterised by inequalities | proved: Windows with a half width beyond the circle are rejected. |
| C127 | Weather regimes are numbered by decreasing frequency | WeatherRegime | relabelling along any sorting permutation; double counting for the sum | proved: For any argsort that sorts; the clustering itself is a parameter. |
| C128 | Forecast regimes are renumbered consistently | WeatherRegime | fold over the order; permutation gives consistent labels; counterexample for colliding matches | partial: Holds when the order is a permutation, in particular when the best matches are different. Proved in general: a repeated regime gets the number of its last place, and every order that repeats one loses another, whose days keep uninitialised labels. |
| C129 | Regime frequencies count the days of every window | WeatherRegime | slices of the year counted per regime; double counting | proved: A window longer than the year by two days or more is rejected. |
| C130 | Detrending removes the trend of every grid point | WeatherRegime | slope of the model result computed for all series | partial: False: the trend is computed from an array of zeros, so the result keeps the weighted trend of the data; only the mean is removed. The trend is zero exactly when the weight or the trend of the data is. |
| C131 | The elbow is the point farthest below the chord | WeatherRegime | distance to the chord as a positive multiple of the height below it | proved: Over the reals. |
| C132 | The lead label of a field gives hours, minutes and seconds of the lead | RegimeIO, Lemmas/IntText | digits of every natural number read back by strong induction; division with remainder | proved |
| C133 | A matched pair file has one line of 37 columns per point, under a name of its own | RegimeIO | splitting of padded columns by induction over the columns; counterexample for empty times | partial: Proved when all texts are present and without blanks. On a day without observation file the observation times are empty and the columns shift. |
| C134 | The autocorrelation of revisions uses pairs of values of the same revision | MtdRevision, Acf | invariance of autocovariances under affine maps; consecutive pairs of the separated list by induction over the revisions; for any lag the last entry of the list of autocorrelations of the separated list | partial: Proved for lag 1. At larger lags, in particular the default one, values of different revisions are paired across the single separator; which pairs enter is proved for every lag. |
| C135 | The runs test of revisions is the test of the values joined revision after revision | MtdRevision, Runs | median and signs under increasing affine maps; removal of missing values | proved |
| C136 | The p-value of the autocorrelation of revisions measures the autocorrelation | MtdRevision | length of the separated list by counting; rounding of the bound | partial: False: the number depends only on the numbers of rows and revisions, and is 0 from 159 rows and revisions on. |
| C137 | Heights of pressure levels follow the hypsometric equation from the surface | HeightPressure | induction over the levels above the surface; logarithm of quotients | partial: Proved when the surface lies below all levels. When it lies between two levels, all heights are too large by the thickness of the air between the lower level and the surface, stated exactly. A missing temperature makes its layer empty. |
| C138 | Levels below the surface have no height, and heights increase upwards | HeightPressure | induction over the levels with the order of the pressures | partial: Levels not above the surface are missing and present heights increase; when the surface pressure equals a level, all levels are missing. |
| C139 | A requested level means the same height whatever its unit | HeightPressure, VerticalInterp | invariance of the interpolation weights under a positive factor | partial: Proved for equal units. For different units the factor is inverted: a level e in units lu over surfaces in units su is read as e su^2 / lu meters. The levels are read rightly for all columns exactly when the units are the same. |
| C140 | References to environment variables in a configuration are replaced by their values | EnvConfig | induction over the parts of the text and over the list of replacements | partial: Proved when no value contains a dollar sign. With nested references the result depends on the order of mention. The YAML parser is not modelled; word characters are ASCII. |
| C141 | Flipping longitudes keeps data at their places | LonFlip | positions of western and eastern longitudes as filters; rolling as splitting and swapping | partial: Proved exactly: the data go with their longitudes when there are as many western as eastern longitudes or only one kind, and lon.values is a copy. Otherwise the data are rolled by the wrong count, and with shared memory the western longitudes are lost. |
| C142 | The mean of the previous 120 days is removed | MjoIndex | the window of n times is the window of 120 days, by the integer part of 120/dt; for other times the window is a number of steps, and a column with a single 1 tells two windows apart | partial: Proved for equally spaced times. Only the first spacing is looked at, so that other times average the wrong window; the exact window is proved for all times, and for exactly which times the result is right. |
| C143 | The OMI filter keeps exactly the eastward intraseasonal band | MjoIndex | fold over the loops as a set of zeroed positions; shift and roll as index arithmetic modulo the length | partial: Proved for even numbers of times and longitudes. With an odd number of times components are judged at the neighbouring frequency; exactly the components next to a limit of the band are treated wrongly. The transforms are not modelled. |
| C144 | Tapering brings both ends to zero and leaves the middle alone | Taper | closed form of the two loops; bounds of the cosine | proved |
| C145 | Fields on different grids are refused | MjoIndex | alignment keeps common labels only, on which the comparison is true | partial: False: no grid is ever refused. Fields on reversed latitudes are projected on the wrong patterns. Proved what is left: the projection on daily EOFs ends with a ValueError exactly if some field has another number of points. |
| C146 | The indices are the least squares coefficients of the EOFs | MjoIndex | normal equations; completion of squares for a positive definite form | proved: lstsq is modelled by the normal equations, for patterns that are not multiples of each other. |
| C147 | Wave activity is computed from departures from the annual cycle | CcewActivity | induction over the record; sums over the values of a calendar day | partial: The removal of the cycle is proved for all records. The choice between cycle and overall mean goes by day of the year: a record from 31 December 2019 to 30 December 2020 has zero activity. |
| C148 | Activity skill is the correlation with the observed line | CcewActivity | invariant of the loop over lines: line 0 is untouched | partial: Proved for at least two hours and two forecast lines. The activities of the caller are overwritten, and one hour or one line raises. The correlation is a parameter. |
| C153 | The window applied to time segments is symmetric and positive | Taper | invariant of the loop from both ends; bounds of the cosine | proved |
| C152 | The 1-2-1 smoother conserves the sum | Spacetime | the loop as assignments at each position; telescoping sum | partial: Proved for two or more values without missing ones. A single value raises IndexError; a missing value anywhere makes the first smoothed value missing. |
| C154 | Every segment that fits into the data is used | Spacetime | induction over the distance to the end of the data, with fuel for the loop | partial: The segments used are exactly those at multiples of length + overlap - 1 that end before the last time: one that ends with the data is not used, consecutive segments share one value more than asked for, and an overlap of 1 - length never ends. |
| C155 | Frequencies and wavenumbers of cross spectra are labelled correctly | Spacetime | arithmetic of indices modulo the number of longitudes | partial: Wavenumbers are right for all numbers of longitudes. Frequencies are right exactly for segment lengths that are multiples of four: otherwise labels are too small, the last row holds the time mean, or the arrays do not fit. |
| C156 | Coherence squared lies between 0 and 1 | Spacetime, Lemmas/Coherence | predicates on spectra closed under sums and positive multiples are kept by averaging and smoothing; Cauchy-Schwarz | proved: Over exact complex coefficients of the transforms of the segments. |
| C157 | Symmetric and antisymmetric parts about the equator | SpacetimeFilter | latitudes of a symmetric sorted list; reversal | partial: Proved for latitudes from north to south. From south to north the rows come in reverse order of their latitudes and the antisymmetric part has the wrong sign. |
| C158 | The two functions for the spectra of a segment agree | SpacetimeFilter | conjugation | partial: Powers and co-spectra agree; quadrature spectra have opposite signs, and for even numbers of times and longitudes only the power of X is repeated. The two agree exactly when the quadrature spectrum is zero. |
| C159 | The wave filter keeps the waves in the given ranges | SpacetimeFilter, Lemmas/Dft, Props/C163_WaveTypes | sums of roots of unity give the transform of a wave; the mask acts on its only coefficient | partial: At the level of data, through the two-dimensional transform and its inverse, for eastward and westward waves: the filter keeps wavenumbers kMin+1 to kMax+1 instead of kMin to kMax, all wavenumbers if the limits are equal, and loses the last of an odd number of times. |
| C163 | The wave filter keeps the waves of the given equivalent depths | SpacetimeFilter, Lemmas/Dft, Props/C163_WaveTypes | as C159, with monotony of the dispersion curve | partial: For all wave types and both directions a wave is compared with the dispersion curves (stated as equations with their constants) of the wavenumber before its own, instead of its own, so that Kelvin waves of wavenumber one are always removed; with one depth the result depends on uninitialised memory. |
| C149 | Amplitudes and phases of zonal waves | Waves, Lemmas/Dft | sums of roots of unity; the transform by its definition | partial: Proved for all superpositions of waves longer than two longitudes; the shortest wave of an even number of longitudes has twice its amplitude, and amplitudes of integer data are truncated. |
| C150 | The contributions of the waves add up to the data | Waves, Lemmas/Dft | inversion of the transform, folding of the conjugate half of the spectrum | partial: Proved for all waves of an even number of longitudes; an odd number of longitudes, a selection of waves and the second package raise. |
| C151 | Covariances by wavenumber | Waves | the names of the module | partial: The function reads a name that does not exist and raises for all data; nothing positive is left to prove. |
| C164 | The Kelvin dispersion curve | Matsuno | real arithmetic | proved |
| C165 | The curves of meridional mode zero solve the dispersion relation | Matsuno | quadratic relation: existence by the formula of the code, uniqueness by the signs | proved |
| C166 | Rossby and gravity curves are the right solutions | Matsuno | intermediate values and factoring of the cubic relation | proved: fsolve is a parameter with the assumption named in the statement; searchOK_exists shows that it can be met. |
| C167 | The frame of all modes keeps rows and columns apart | Matsuno | induction over the joins | partial: Proved for max_wn other than 0; with max_wn = 0 the joins multiply the rows. |
| C160 | The wind power weights currents with the Kelvin wave | MjoEnso | induction along the two recurrences | partial: Proved for increasing, fine enough latitudes that reach at least a row beyond the equator; otherwise IndexError, missing or negative weights. |
| C161 | Monthly indices belong to their months | MakiIndex | induction over the months; calendar arithmetic | partial: False as stated: the windows end with the month's first day, or in the month before; most records that do not begin 90 days before a month raise. The exact behaviour is proved. |
| C168 | The MJO stress follows the stress | MjoEnso | homogeneity of every step | partial: The result grows with the square of the factor; the exceptions are characterised exactly. Proportional exactly when the factor is one or the result zero. |
| C169 | Missing stresses stay where they are | MjoEnso | missing values through the sums; all sums over complete values for the positive part | partial: False: one missing value makes all results missing, and points missing on the eleventh day return the stress itself. Proved for records without missing values at the points that take part: the result of every point and time in closed form, and exactly when there is none; points missing at all times have no result. |
| C170 | Indices do not depend on units | MakiIndex | homogeneity of the standard deviation | proved |
| C171 | A missing value affects its own day only | MakiIndex | missing values through the sums | partial: False: one missing value leaves no day with an index. |
| C172 | DIFF_SIG is the signed confidence of the bootstrapped difference | DiffSig | as C105 (same cases in every replicate), then counting | partial: Proved for statistics that are numbers or missing. One replicate that is NaN makes the value 0, and a statistic that does not exist raises a TypeError instead of an empty result. |
| C173 | Swapping the series changes only the sign of DIFF_SIG | DiffSig | symmetry of the share; sign by cases | partial: Proved unless both series are equally far from the perfect score; then both orders give the same positive value. Exactly then, unless the value is zero. |
| C174 | MCTC lines with different expected-correct values are refused | MctcAgg | case split on the check; C60 for the value | proved |
| C175 | The aggregated multi-category HSS does not depend on the order of the lines | MctcAgg | column sums are invariant under permutation, first cells by agreement of the lines | partial: Proved for lines that agree on the number of categories and the category pairs of the columns; lines with different numbers of categories are pooled without complaint and then the order matters. |
| C176 | Blocks are sequences of whole groups, close in time and overlapping in space | CalcBlocks, Blocking | counts around the circle by induction on the loop; ends, starts and hits balance on each day, so the k-th of each belong together; invariant of the tracking passes (used positions, blocks disjoint, chains linked) | proved: C176_gibl_days shows that days produced by run_Calc_GIBL meet the hypothesis of the other two unless all 360 longitudes are marked. |
| C177 | Blocks are marked by 0 and 1, only inside grouped blocking | CalcBlocks | two runs of a day with a common longitude are the same run; blocks are disjoint (C176) | proved |
| C178 | A persistent, overlapping, nearly stationary sequence of groups is found | CalcBlocks | the groups in storage order are the sequence; first pass takes all of it, later passes nothing; centres of runs computed | proved |
| C179 | A block lasts at least BLOCK_TIME | CalcBlocks | no pass does anything when the year has too few groups; concrete record | partial: False: BLOCK_TIME is compared with the number of unused groups of the year, a block itself needs more than four groups whatever BLOCK_TIME is. Proved: a year with fewer groups than BLOCK_TIME has no block. Proved for BLOCK_TIME up to 5. |
| C180 | Blocks do not depend on where longitude 0 is | CalcBlocks | concrete records, evaluated after C176_groups; positive part: the groups of the turned days are the turned groups, overlaps and travel are kept, then C178 for both | partial: False: groups over longitude 0 get a centre from the median of the indices; a slowly moving sequence over longitude 0 is discarded, the same sequence elsewhere is kept. Proved for a season with one block whose groups do not go over longitude 0 before or after turning. |
| C181 | A record without blocks gives zeros | CalcBlocks | evaluation of the stages; concrete records | partial: False: without any group an IndexError is raised (for all such records), with groups of one year that are all more than two days apart a TypeError (for all such records), with a first day wholly marked an IndexError. |
| C162 | Wave activity is the length of the projection of the anomalies on the EOFs | WaveAct, CcewActivity | inner join of the labels is a permutation of the EOF labels; anomalies by C147; sums over permuted grids; concrete records for the failures | partial: False in full: data from north to south, data sharing no grid label with the EOFs, and times without data give activity 0 without any warning. Proved when data coordinates ascend, contain those of the EOFs, and no value on the EOF grid is missing. |
| C182 | Wave activity ignores a constant background and scales with the data | WaveAct, CcewActivity | removal of the annual cycle commutes with maps commuting with means and differences; linearity of the projection; square root of a square | proved |
| C183 | Neighborhood contingency statistics are the scores of the pooled counts | NbrCtc, CtcStats | delegation to the contingency statistics of C10 | proved |
| C184 | Images of a comparison can be saved in any order and number | CompareImages | invariant of the images kept (each is absent or the one of the comparison), induction over the calls; image functions are parameters | partial: False in full: the threshold image cannot be saved a second time or after an image with boxes, nor the second image with boxes twice (ValueError from testing an array). C184_calls_partial says exactly which sequences succeed and what they give. |
| C185 | Every statistic of a line type is found by its name | Dispatch, SumStat | the finite tables of the code checked by evaluation in the kernel; unknown names and the summary of sal1l2 for all inputs | partial: False in full: sum_stat does not import the anomaly statistics, so the summary of line type sal1l2 has no values. Proved for all line types of agg_stat and all others of sum_stat. The tables of functions and imports are data of the code. |
| C186 | Resampling does not change the curves of economic value | AggEclvBoot, AggEclv, Bootstrap | the value of bootstrap_and_value is the statistic of the original rows; limits by C32; relation carried through the loops | proved |
| C187 | A validation run changes no file outside of its output directories | ValidateRun | invariant over the loop of the run; every write and removal has a path that begins with one of the directories | proved |
| C188 | A validation run judges every selected plot | ValidateRun, CompareImages | induction over the selected files with C187: the originals stay; METviewer and the image library are parameters with stated assumptions | partial: False in full: images of different sizes make the similarity raise ValueError, which ends the run. Proved when the similarity of all pairs can be computed. |
| C189 | The files of a differing plot are kept for inspection | ValidateRun | induction over the selected files; failure by evaluation in the kernel of a run with two plots | partial: False in full: the files of an identical plot are deleted by the pattern stem*, which also matches data and scripts of a differing plot whose name begins with that stem. Proved for files whose path begins with no such stem. |
| C190 | The band-pass filter keeps the periods between its limits | OmiIndex | orthogonality of sines and cosines over a whole number of turns; one packed coefficient per wave | partial: False in full: the mask takes the packed order of scipy.fftpack.rfft for the order of fftfreq, so sine waves pass when half their period is between the limits. The two theorems say for every sine and cosine wave what happens; padding and tapering before are in C144, C192. |
| C191 | Computing the OMI index leaves the data as they are | OmiIndex | normal equations of the least squares line; detrending twice is detrending once | partial: False in full: detrend(..., overwrite_data=True) removes mean and trend in the array of the caller. Proved: what the array is after the call, that it is unchanged when there is neither mean nor trend, and that a second call returns the same index. |
| C192 | The OMI index does not depend on linear trends of the data | OmiIndex | the least squares line of a sum is the sum of the lines; congruence through the remaining steps | proved: Over the real numbers. |
| C193 | The OMI index does not depend on the unit of the data | OmiIndex | linearity of detrending, taper, transform, mask, inverse transform and projection; homogeneity of the standard deviation | proved: Over the real numbers; the transforms are given by their definitions. |
| C194 | The RMM index responds linearly to the last 120 days of the data and not to a constant background | RmmIndex, MjoIndex | the running mean of a sum is the sum of the means; windows of equal records are equal; prefix of a monadic map | proved: Exact arithmetic, no missing values; the value of the norms is arbitrary. |
| C195 | Shepherd's pi leaves out exactly the pairs that are far away by their Mahalanobis distance | Shepherd | the quadratic form of the adjugate solves the system of the covariance matrix; equality case of Cauchy-Schwarz: singular exactly if the points lie on a line; change of the scatter matrix under scaling | partial: False in full: a resample whose points lie on a line (for instance the same pair drawn every time) makes the call fail. Proved when no resample does. Exact arithmetic; Spearman's coefficient itself is a parameter. |
| C196 | The Bayes factor of a correlation is the documented formula and grows with the strength of the correlation | Shepherd | exponential of the sum of logarithms; termwise comparison of the hypergeometric series inside its radius of convergence | proved: Method 'ly', /r/ < 1, over the real numbers. C196_tail_ignored: one-sided alternatives are accepted (method 'wetzels' even switches to 'ly' for them) but give the two-sided factor. |
| C197 | power_corr finds the missing correlation, number of cases or level at which a test has the wanted power | PowerSearch, CorrTable | continuity of the power in each argument, intermediate value theorem; unimodality of the density for the two-sided monotonicity | partial: False in full for the level of a one-sided test: the search always returns NaN. Proved for the correlation, the number of cases and the level of a two-sided test. Real arithmetic; the t distribution and brenth are parameters with their specification. |
| C198 | The object bootstrap computes each value from exactly the rows of its point and of the requested forecast variable | ObjectRun, ObjectBootstrap, Mode | closed form of the loops by induction over independent values and points; every row of a point has its own case in the pool | partial: False in full: the requested forecast variable restricts the cases but not the rows, so objects of other forecast variables at the same cases are counted. Proved when the data hold the requested variable only; C198_extent says exactly which rows are counted. The table theorem is for one statistic (see C45). |
| C199 | The object bootstrap of an independent value resamples the cases of that value | ObjectRun, Bootstrap | induction over the independent values with the pool as invariant; sorting and removing repetitions is determined by membership | partial: False in full: the pool of cases is not emptied between independent values, so the bootstrap of the second value also draws the cases of the first. Proved for a single independent value; C199_pool gives the exact pool. One thread and one batch. |
| C200 | The object bootstrap with event equalization writes the table of the equalized data | ObjectRun, AggEqz | case distinction on the run | partial: False in full: the equalization returns nothing and every run with event_equal = True fails. Proved without event equalization. |
| C201 | An aggregation with event equalization compares all series over the same cases | AggRun, EqualizeAxis, AggPoints | composition of C54_result and C99_rows: the rows of a point in the equalized data are exactly its input rows with a common case; a choice of series values yields a row of the other series with the same case; two axes with the same series in Props.C201_TwoAxes | partial: Proved for one axis with any number of series and fixed variables, when the last series variable holds texts (C83: numeric ones leave nothing) and the input has fcst_var and stat_name. False for two axes: the series of the second axis are not restricted to the cases of the first (C201_counterexample). num_iterations = 1. C201_two_axes_partial: it holds on both axes if they have the same series and different statistics or forecast variables. |
| C202 | Event equalization never counts an input row twice | AggRun, EqualizeAxis | each row has one forecast variable and statistic, so it is kept for one pair only | partial: False in full: without a stat_name column the data are repeated once per statistic (C202_without_statistic_column), and a series shown on both axes is counted twice. Proved for one axis when both columns exist and no statistic is listed twice. |
| C203 | Every group of series values has a name of its own | AggRun | decimal texts of different numbers differ; lookup in a list with distinct keys | proved: For all parameters. |
| C204 | event_equal switches event equalization on and off | AggRun | case distinction on the text | partial: False in full: every text other than 'False' and the empty text, also 'false', switches equalization on (C204_on). Booleans read from the parameter file are not modelled. |
| C205 | An aggregated score is the score of all matched pairs behind the compared cases | AggValues, AggRun, Sl1l2, Prepare | C201/C99 give the rows behind a point; they form a table of partial sums (Sl1l2Data) to which C15 applies; sorting permutes the rows and pooled means do not depend on the order | proved: Same input conditions as C201 (one axis, last series variable holds texts, fcst_var and stat_name columns). Exact arithmetic; num_iterations = 1. C205_bias_scores adds the multiplicative bias and the squared mean error. |
| C206 | Equalized models verified against the same observations show the same observed mean | AggValues, AggRun | the cases behind two points agree (C201), hence the pooled observations are permutations of each other | proved: Same input conditions as C201. |
| C207 | An aggregated contingency score is the score of the summed counts of the compared cases | AggValues, AggRun, Ctc | as C205 with C10 | proved: Same input conditions as C201. C207_composed_scores adds HK, ODDS and ODDS1, which are composed of rounded POD and POFD. |
| C208 | CTC lines with different EC_VALUE are never aggregated into one score | AggValues, AggRun, MctcAgg | a value exists only if the EC_VALUE check succeeded on the rows behind it | proved: Same input conditions as C201. |
| C209 | With event equalization an economic value curve is that of the common cases | AggEclvRun, AggEclv, EventEqualize | composition of C01 (rows kept by the equalization) and C115 (table of the kept rows); the added key column changes neither rows of a series nor counts | proved: CTC lines without a thresh_i column; series values without ':'; exact arithmetic. |
| C210 | Equalized economic value curves are compared over the same cases | AggEclvRun, EventEqualize | every choice of values has a partner of the same case | proved: Series values that are integers or texts other than NA (decimals never match in the equalization, C01). |
| C211 | A group of values is a series of the economic values | AggEclvRun, AggEclv | the point of the absent value has no rows, hence no result; counterexample | partial: False: equalization splits groups, the aggregation does not; a run with a value that is no cell's value never gives a table. |
| C212 | The central blocking latitude is where the daily anomalies vary most | BlockingRun, Blocking | reading reduced to the values of each day; arg max specified by first maximum, invariance from scaling of the deviations; smoothing from C126 | proved: Exact arithmetic (reals for the square roots and the cosine); every file of the same shape. |
| C213 | A season without files does not change the central blocking latitude | BlockingRun | all deviations are NaN, whose arg max is position 0; concrete two-season run | partial: False: a season without values gets the first latitude of the grid (the pole) everywhere and pulls the mean towards it. |
| C214 | Instantaneous blocking depends on the heights of the day and the mean central latitude | BlockingRun, Blocking | every flag reduced to one call of the blocking index; C125 for its meaning; index is homogeneous in the heights | proved: Even band widths; bands that leave the grid are the subject of C125. |
| C215 | The text file of regimes has one line per day | RegimeFile, RegimeIO | columns of a padded line recovered by splitting at blanks (as C133) | proved: Regimes are whole numbers printed as floats (1.0). |
| C216 | The time of the netCDF file of regimes leads back to the day | RegimeFile | ordinal numbers grow by one from day to day and are different for different days | proved: datetime's ordinal numbers are part of the model; netCDF4 storage is not. |
| C217 | A regime file that cannot be written leaves the earlier file in place | RegimeFile | the only path to the error passes the removal; counterexample | partial: False: the earlier file is removed before the times are read. |
| C218 | Heights rebuilt from patterns are the part that the patterns explain | RegimeFile | exchange of sums with orthogonality | proved: The EOF solver is not modelled: its orthogonality and covariances are hypotheses. |
| C219 | With event equalization the row statistics are those of the common cases | SumStatRun | the result of the equalization from C201 fed into the row statistics of C107 | proved: One axis, without values joined with ':' in names or ';' (see C107 for these); the labels of the kept rows are numbered anew. |
| C220 | A run that is to equalize never writes rows that were not equalized | SumStatRun | the exact output for every failing equalization; counterexample | partial: False: a KeyError in the equalization (e.g. a fixed variable that is no column) is logged and all input rows are written, without statistics. C219_rows holds when the equalization ends without error. |
| C221 | The shares of eof_comp are what the patterns explain | EofComp | orthonormality of both sides of the decomposition, exchange of sums | proved: The decomposition is a parameter with its defining properties as hypotheses; dim = 0. |
| C222 | EOF patterns do not depend on the mean state | EofComp | mean and deviation under affine changes; counterexample with four times and two points | partial: False with the covariance matrix: the mean is not removed; there the result stays the same only if nothing is added or the data are constant in time (proved for every decomposition). Proved with the correlation matrix. |
| C223 | zon_avg_variance measures the variability in time alone | EofComp | sums of squares | proved: Exact rational arithmetic. |
| C224 | The filters of the MJO wind stress do not shift the signal in time | Model.MjoEnso, Props.C224_TauFilter | The same-size convolution commutes with the reversal of time when the weights are symmetric (sum over reflected indices); carried through amplitudes, patterns and the sum of the modes. | proved: missing values included |
| C225 | A steady wind stress has no MJO part | Model.MjoEnso, Props.C224_TauFilter | Away from the ends the convolution of a constant is the constant times the sum of the weights; the amplitudes then vanish. | proved |
| C226 | The OMI components are the best fit of the filtered field by the EOFs of the day | Model.OmiIndex, Props.C226_OmiParts | Normal equations for independent EOFs; for dependent ones the pseudoinverse formula is shown to solve them and to be orthogonal to their kernel. | proved |
| C227 | The OMI filter passes waves of the band unchanged and removes all others | Model.OmiIndex, Model.MjoIndex, Lemmas.Dft, Props.C226_OmiParts | Orthogonality of roots of unity in both directions; a real wave is two conjugate components, which C143 treats alike; linearity by induction on the list of waves. | proved: odd sizes: C143 |
| C228 | MaKE and MaKI are built from two standardized projections | Model.MakiIndex, Props.C228_MakiParts | The nan-aware means and deviations are evaluated for complete records; a component that exists has nonzero deviation, by which it is divided. | proved |
| C229 | What the validation clears before it starts | Model.ValidateRun, Props.C229_ValidateFiles | The prefix test on the scanned path is shown equivalent to being an entry of the directory; the four removals are then unfolded. | proved |
| C230 | Nothing is left of a plot judged to be the same | Model.ValidateRun, Props.C229_ValidateFiles | Last component of a path and stem of a name computed for all names with one dot; every removed or absent path stays absent through the later removals. | proved: names of files and plots with exactly one dot (C57) |
| C231 | The XML file METviewer is run on | Model.ValidateRun, Props.C229_ValidateFiles | The path and content of the new XML file are computed from C57; the run depends on METviewer only through its value there. | proved: names of files and plots with exactly one dot (C57) |
| C232 | Post-processing of a correlation table | Model.PostProcess, Props.C232_PostProcess | Invariants of the fold over all cells: other columns are untouched, and a cell of CI95% is treated exactly once. | proved |
| C233 | Format of the Bayes factors | Model.PostProcess, Props.C232_PostProcess | The fold is split at the first BF10 cell; after it the column holds texts, which stay. | partial: false in the code: only the first row is formatted |
| C234 | Width of a bootstrap interval under arithmetic | Model.BootWidth, Props.C234_BootWidth | Induction over the operations. | proved |
| C235 | Relative width of a bootstrap interval | Model.BootWidth, Props.C234_BootWidth | Direct computation on both orders of the bounds. | partial: false in the code for negative values; proved for positive values and factors For which values and factors it holds is proved exactly. |
| C236 | A Dataset written to a file is found there | Model.WriteDataset, Props.C236_WriteDataset | Induction over dimensions and fields with the file written so far. | partial: false in the code for types other than the signed and unsigned 32- and 64-bit integers and floats; proved for these |
| C237 | Times survive the writing of a Dataset | Model.WriteDataset, Props.C236_WriteDataset | The writing depends on times only through differences from the first. | partial: false in the code: the first time is lost; the differences are proved The times themselves are found in the file exactly when the first is the beginning of 1970. |
| C238 | Attributes when a dimension for the valid time is added | Model.WriteDataset, Props.C236_WriteDataset | As C236, with the field valid_time skipped. | partial: false in the code: attributes of valid_time go to another variable; proved when valid_time has none Where the attributes go, and when the file is right, is proved exactly. |
| C239 | Reference time from the name of the output file | Model.RefTime, Props.C239_RefTime | The path is split at its first dot; the date is computed with the calendar of C215. | partial: false in the code: local time is used and a dot in the directory fails; the exact value is proved for paths whose first dot stands before the date It is right exactly when local time is universal time; paths with an earlier dot or none are shown to fail. |
| C240 | Layers below the ground do not influence the interpolation | Model.VerticalMissing, Props.C240_VerticalMissing | The loop over the layers is shifted by the number of missing ones; weights of layers without height are zero by induction over the loop. | proved: over every ordered field |
| C241 | Where interpolated values are missing | Model.VerticalMissing, Props.C240_VerticalMissing | At most one pair of neighbours brackets the level; all weights are computed. | partial: false in the code in the top interval and on the layers (as C42); proved elsewhere, over every ordered field What the top interval gives, and when it is right, is proved exactly. |
| C242 | From pressure levels to values at heights | Model.VerticalMissing, Props.C240_VerticalMissing, Props.C137_HeightPressure | The heights above the ground increase (C138); C240 and C241 are applied to them. | partial: false in the code when all levels lie above the ground, and in the top interval; proved otherwise |
| C243 | Ensemble scores of a table | Model.AggEnsemble, Props.C243_AggEnsemble | The rows behind a point are the common cases (C201); the scores do not depend on their order, so the theorems on groups of lines (C20, C21, C66, C67, C72, C97) apply after the sorting. | proved: rational statistics; RMSE and spreads (square roots) are in C21 |
| C244 | Neighborhood scores of a table | Model.AggEnsemble, Props.C243_AggEnsemble | As C243. | proved: AFSS, UFSS and the observed rate are in C20 and C22 (the observed rate is not weighted) |
| C245 | Ranked probability scores of a table | Model.AggEnsemble, Props.C243_AggEnsemble | As C243. | proved |
| C246 | Gradient scores of a table | Model.AggEnsemble, Props.C243_AggEnsemble | As C243. | proved |
| C247 | A derived curve compares its two series over the same cases | Model.AggRun, Model.AggValues, Props.C247_DerivedRun | C102 applied to the equalized data; run_point shows that the rows it refers to have the values of C201; with the same observations the pools agree (C206). | proved: The curve is described by C102 (CurveRequest collects its hypotheses; C102 shows that they are needed). |
| C248 | RMSE, spread and correlation in the table are those of the pooled pairs of the common cases | Model.AggRoots, Props.C248_RootScores | C201 for the rows of a point; the values of these rows by C15, C17, C65, C95 applied to the sorted rows; scores of pools do not depend on the order; distance of rounded roots by |√a - √b|² ≤ |a - b|. | proved: MAE under the hypothesis that the lines have a column with the mean absolute errors. ESTDEV is not claimed (C65). |
| C249 | Anomaly correlations in the table are those of the pooled anomalies of the common cases | Model.AggRoots, Props.C248_RootScores | As C248 with C17 and C96. | proved |
| C250 | Wind statistics in the table are those of the pooled vectors of the common cases | Model.AggRoots, Props.C248_RootScores | As C248 with C68 and C104. | proved: VL1L2_FSPD and VL1L2_OSPD are not claimed: they are plain means over the lines (C68_fspd_counterexample). Not modelled: the directions and the unrounded VCNT anomaly correlations. |
| C251 | Ensemble RMSE and spread in the table are roots of the weighted mean squares of the common cases | Model.AggRoots, Props.C248_RootScores | As C248 with C21. | proved |
| C252 | Scores of probability forecasts in the table are those of the pooled bins of the common cases | Model.AggCounts, Props.C252_AggCounts | C201 for the rows of a point; the values of these rows by C14, C55 and C57 applied to the sorted rows; sums do not depend on the order. | partial: False for the Brier score, its skill score and the resolution: every run that asks for one of them at a point with forecasts fails (C252_brier_fails). Proved for the other four. |
| C253 | A reliability curve has a point for every threshold of the common cases | Model.AggCounts, Props.C252_AggCounts | The run is shown to be the run that asks for the thresholds of the equalized rows (decimal texts stand for themselves), then as C252. | proved |
| C254 | Multi-category and neighborhood scores in the table are those of the pooled counts of the common cases | Model.AggCounts, Props.C252_AggCounts | As C252 with C60, C174 and C183. | proved: NBR_HK and NBR_ODDS are not claimed here (C183). |
| C255 | A derived curve of equivalence tests gets values in the aggregation table | AggPoints, Derived | case analysis of the loop over single rows; counterexample run | partial: False: the result of the test is a dictionary, of which the first element is taken; the KeyError ends the run. Exact condition for the failure, and the value is missing otherwise. |
| C256 | A point for a list of independent values has the score of all lines of the list | AggLists, AggregateField, AggValues | refinement of the run with lists to the run over single points; sums of the pooled rows by permutation into groups | partial: Proved for SL1L2 lines (the scores without roots, and RMSE and the other scores with roots), GRAD lines and VL1L2 lines, for lists of leads and (with every valid time at every lead) of other values; lists among the series values alone are not pooled and change nothing. False for line types whose columns calc_series_sums does not know (NBRCNT), and for two lists at once (TypeError). |
| C257 | Bootstrapping adds limits to the aggregation table and changes nothing else | AggBootRun, AggPoints, AggBoot | simulation between the loops over the points with and without bootstrapping; relation on results, kept rows and output rows | partial: Proved when both runs complete (tables of an axis, runs with two axes, and one-axis runs with event equalization), for derived curves other than DIFF_SIG (their values agree up to the rounding to five decimals that only the run without bootstrapping does) and for the methods perc and pivotal. False for DIFF_SIG curves, and for any other name of a method, with which all values disappear without a message. |
| C258 | Bootstrap limits in the aggregation table come from resamples of the lines of the point | AggBootRun, AggBoot, AggValues | induction over the loop of points with the position in the table; percentile bounds of C31; pooled scores of C15 | partial: Proved with alpha = 0.05 for the rows of plain series: any statistic, runs with one or two axes, and down to the pooled data of every replicate for SL1L2, CTC, SAL1L2, VL1L2/VCNT (with directions), ECNT, SSVAR, NBRCNT, RPS, GRAD, MCTC, NBR_CTC and PCT lines. False for the requested alpha: it is not handed on for plain series, only for derived curves, so one table mixes two confidence levels. |
| C259 | The direction of the vector difference is that of the pooled mean winds | WindDirection, Vector | pooled means as in C68, direction by C70 | partial: The vector and the missing case are proved; false for the unit: the number is an angle in radians, increased by 360 if negative (see C70). |
| C260 | The absolute direction error is the size of the angle between the mean winds | WindDirection, Vector | the reduction modulo 360 leaves nothing for the absolute value to do; argument of a complex number by arccos on both half planes; C71 | partial: The value is characterised for every reported group: the angle in radians if the forecast is turned counterclockwise. False otherwise: a clockwise angle is reported as 360 minus radians, the error is never negative and the absolute error equals it always. |
| C261 | Limits of a derived curve come from paired resamples of the common cases | AggBootRun, AggBoot, AggRun | loop invariant: results belong to the plain points, one each; the two series are the only ones contained in the components (as C102); equalization makes their cases equal (C205), C105 pairs them | proved: Proved for any statistic; for SL1L2 lines down to the pooled pairs for CTC lines down to the summed counts of every replicate, and for root statistics, SAL1L2, VL1L2/VCNT (with directions), ECNT, SSVAR, NBRCNT, RPS, GRAD, PCT, MCTC and NBRCTC lines down to the pool of every replicate. Models verified against the same observations (events) have a difference of observed means (base rates) of 0 without limits. Same time and lead of lines with one case key follows from their texts (C261_case_fixes_time). |
| C262 | Bootstrapping does not stop an aggregation run | Model.AggBootRun, Model.AggBoot, Model.Bootstrap, Props.C262_BootCompletes | case analysis of the interval (exact condition); the loop over the points succeeds exactly if every point does, because a step depends on the state only through the number of rows written | partial: False as stated (C262_counterexample: multiplicative bias, one case with observations 0). C262_axis_iff says exactly when the table is completed; runs whose statistic has a number for every set of lines always are (means and errors of SL1L2 lines, RMSE, root mean square anomalies, wind statistics, ECNT means, counts, errors and spread, SSVAR, NBRCNT, RPS and GRAD means, and scores of PCT lines with counts). C262_curves_partial and the theorems ending in _curves: the same with requested differences and single series. |
| C263 | Spread/skill statistics of an aggregation table are those of all points of the common cases | Model.AggSpread, Model.Ssvar, Props.C263_SpreadRun | the prepared table of the sorted rows of a point has the sums of all its points (C116); run_scores carries this through equalization, filtering and the table | proved: BCMSE and BCRMSE within the rounding of their parts, RMSE the root of the rounded mean square; ESTDEV is not part of it (see C63). |
| C264 | Wind directions of an aggregation table are determined by the pooled mean winds of the common cases | AggDirections, AggRun, WindDirection, Vector | the prepared table of the sorted rows of a point has the sums of all its pairs, so the means are those of the pool; run_scores carries this through equalization, filtering and the table | proved: The unit is part of C70 and C259 (radians, 360 added to negative angles); whether VCNT_DIR_ERR is reported depends on the number of pairs (C71). |
| C265 | A requested curve of two series has a value at every independent value | AggRun, AggDerived, AggBootRun | the independent value is one of the texts whose colons are counted, so distinct cases are fewer than lines times the count; without colons the count is 1 and the check passes; loops over derived points by induction | partial: False as stated (C265_counterexample: mean error of two models against two times). C265_refused: every run with such a curve and a colon in an independent value with lines of both series fails, with and without bootstrapping (C265_refused_boot). C265_completes_partial and C265_values_partial: without colons the run completes and the curve has its value. |
| C266 | Significance in an aggregation table is the signed confidence of the paired bootstrap of the common cases | AggBootRun, DiffSig, AggBoot | curve_row: the two results found for the curve keep the lines and values of their points; C172 on the rows of both series, whose cases agree after equalization | proved: NaN as a value of the statistic is excluded (see C172). The limits of the row are those of the difference, so the value need not lie between them (example exSig_boot). |
| C267 | The order of the lines of the input does not matter for an aggregation table | AggRun, AggBootRun, EventEqualize, AggStatSl1l2 and the other line types | Alike relates two computations that end with related results or the same error; every step of the run (selection, equalization, sorting, preparation, sums) is shown to preserve "same lines in another order"; the sort of lines with distinct keys is unique | proved: Draws are positions in the sorted lines of a series, so equal times and leads within a series are excluded for the limits; C267_boot_counterexample shows that this is needed. ETB curves are excluded: such runs fail with a KeyError once a curve has values (C255). |
| C268 | Lines that a plot does not ask for do not change its table | AggRun, AggBootRun, EqualizeAxis | The table of an axis is a function of the lines of its points; without equalization these are among the asked-for lines; with it, the lines that make a case common are asked for too, because lines of one case share the independent value | partial: False for fixed variables: lines with other fixed values are pooled, with and without event equalization (C268_fixed_counterexample). Proved for all other lines, all curves and with bootstrapping. Also, an input without any line gives an empty table, one with foreign lines only a table of missing values (C268_empty_counterexample). |
| C269 | A statistic that does not exist leaves its rows empty with bootstrapping and ends the run without | AggBootRun, AggRun | Results of a statistic that raises KeyError keep no rows, an invariant of the loop over the points; so the curves find nothing to compare; with one iteration the step at the point never succeeds | proved: The run stops without bootstrapping only if the point has lines; points without lines are skipped. Assumes that the preparation of the lines does not raise the KeyError itself, as it does for SSVAR statistics without fields (agg_stat.py:535). |
| C270 | The order of PCT, MCTC and NBR_CTC lines does not matter for an aggregation table if they agree on thresholds and categories | AggCounts, Pstd, Mcts, NbrCtc, AggRun | Sums do not depend on the order, and the cells read from the first sorted line are the same in every line of the point; the loop over the points then keeps the same state (as in C267), for sets of lines of the (equalized) table only | proved: The dependence on the order for lines with different thresholds is C270_thresholds_counterexample. Reliability curves over the thresholds are not covered by this property (see C253 for their values). |
| C271 | A change of the unit of forecasts and observations only converts the scores of SL1L2 lines | Sl1l2 | Averages of converted pairs are converted averages, so the offset cancels in errors and deviations and the scale comes out of sums of squares; then the values of C15, C17 and C95 for both tables | partial: False for RMSE and MSESS, which are computed from the MSE rounded to 7 decimals: forecasts of specific humidity 0.0001 kg/kg too high have RMSE 0 and MSESS 1 in kg/kg, and RMSE 0.1 in g/kg (C271_humidity_counterexample). Proved for the correlation, the means, ME, MSE, MAE and standard deviations; RMSE converts up to 1/4000 of either unit, and up to 10^-7 of it when the MSE is at least 1 in both units. |
| C272 | Scores of a contingency table respect its symmetries | Ctc | The scores as rounded ratios of the four sums (C09 to C12), compared by field identities; logarithmic scores through the closed forms of the odds | partial: False for ODDS, which is computed from PODY and POFD rounded to 7 decimals: exchanging forecasts and observations turns a missing value into 1 while LODDS is the same (C272_odds_counterexample). Proved for every other score named; HK changes by at most 10^-7, and complements are exact up to the last decimal of rounding. |
| C273 | Wind scores do not depend on the orientation of the coordinate axes | Vector, WindDirection | Component sums turn like vectors, products and speeds stay; lengths, dot and cross products of the averaged vectors are invariant under k² + s² = 1 | proved: For rotations with rational cosine and sine (a dense set of angles), since the columns of lines are rational.  Directions themselves turn with the axes and are not claimed. |
| C274 | Exchanging forecasts and observations in SL1L2 lines | Sl1l2 | Averages of exchanged pairs, the values of C15, C17 and C95 for both tables, and the rounding of opposite numbers | partial: False for ME (and the scores computed from the rounded ME) when the mean error lies in the middle between two numbers with 7 decimals: round_half_up rounds 0.00000005 to 0.0000001 and -0.00000005 to 0. Proved for all other groups, and the difference on ties is one unit of the last decimal. |
| C275 | Mean error, mean absolute error and RMSE of one group are ordered | Sl1l2 | Triangle inequality and Cauchy-Schwarz for averages, monotone rounding, the values of C15 and C95 and the error of the RMSE of C271 | partial: /ME/ <= MAE is proved without exception. MAE <= RMSE is false for small errors, because the MSE is rounded to seven decimals before the root is taken (humidity error 0.0001: ME = MAE = 0.0001, RMSE = 0). Proved: it holds when the MSE is not rounded down, and MAE exceeds RMSE by at most 1/3900 in general and by at most 2 units of the last decimal for MSE >= 1. |
| C276 | A model compared with itself shows no difference | AggRun, AggBootRun, DiffSig | The values of C247 and C266 for series whose matched lines have the same pairs; equal pools have equal scores, all replicates of the difference are 0 | partial: DIFF = 0, RATIO = 1 and SS = 0 are proved for every run. False for DIFF_SIG for all inputs: the code counts the replicates with /d - mean/ <= /value/, so for equal data every replicate counts and the row shows 1, full confidence. |
| C277 | A line without pairs or without a value does not change the scores of its group | Sl1l2, Table, Prepare | Simulation of the preparation of both tables column by column (they keep differing by one line that holds 0 or nothing), then equality of the column sums; for missing values the exact sums of both tables | partial: Lines with TOTAL = 0 are proved harmless for eighteen scores, at any position and whatever they hold. False for lines with a missing partial sum, in all cases: the missing value is left out of the sum but the pairs of its line stay in the divisor, so the mean over n pairs is reported multiplied by n/(n+k). |
| C278 | Which exception a call with unusable input raises | Bootstrap, Runs, Ctc, Prepare, Thresh, Validate, EventEqualize, Permutations, AggEclv, DiffSig, Waves, SpacetimeFilter, WaveAct, MjoEnso, MakiIndex, OmiIndex, RegimeFile, BlockingRun | Case analysis along the branches of each call; induction over lists for loops that stop at the first unusable element | proved: One theorem per call, about the modelled call. Equivalences where the model has no other failure; otherwise the stated case only. Kinds raised by libraries (numpy, pandas, netCDF4) are those the model gives them and are part of the trusted base. |
| C279 | In a matched pair file every value stands below the name of its column | RegimeIO, MprHeader | The position of a column as the sum of the larger of width and text length plus one, by induction over the columns; then comparison of the sums of header and lines | partial: False for a description longer than the model name (or four characters) and one more: the width of DESC is computed from the model name, so all later values move right by the excess while the header does not (proved for all such descriptions). With shorter descriptions and times that fit, header and lines are aligned in all 24 columns; the lines among each other in all 37. |
| C280 | The weather regime patterns are those of departures from the trend over the seasons | RegimeEof | Normal equations of the least squares line: the residuals are orthogonal to constants and to the season number; a linear change is absorbed by the line; row s*nd+d of the matrix is read back by division | proved: Over the reals, no missing values; the eofs package solver is an arbitrary function of the matrix. |
| C281 | Calc_EOF leaves its argument as it is | RegimeEof | The residuals of data orthogonal to constants and season number are the data; with C280 this gives the equivalence and the second call | partial: False: the array is overwritten with the departures (WeatherRegime.py:109-110). Proved: what it holds afterwards, that it is unchanged exactly when it had neither mean nor trend over the seasons at any day and point, and that calling again with it gives the same result. |
| C282 | Fields and times read by read_nc_met belong to the day of their file | NcMasked | Entries of a mapM, and of a list cut into blocks of dseasons | proved: File contents are data of the model; repetition of fields with a single latitude or longitude is refused (numpy would repeat them). |
| C283 | A point without a value in a file is missing in the array of read_nc_met | NcMasked | From C282 | partial: False: the assignment to an array without a mask (line 118) takes the numbers below the mask, so the point holds the fill value, e.g. -9999. Proved exactly: it is missing if and only if the fill value is NaN; all other points keep their values. |
| C284 | A run that appends adds its rows to those of the earlier runs | OutputFile | Induction over the runs; cases of the parameter and the earlier file | partial: False: the parameter is compared with the text 'True', so the YAML word True overwrites the file; the first appending run writes no header; columns are not compared. Proved: any number of runs with the text 'True' after a first one accumulate, and the exact cases in which a run does what it is told. |
| C285 | After a scorecard run its file holds the rows of that run | OutputFile | Cases of the rows returned by the model of the scorecard | partial: False: a run without rows writes no file and leaves the rows of an earlier run. Proved exactly: the file holds the rows of the run if and only if there is one or the file had none before. |
| C286 | A scorecard run that fails leaves the earlier file in place | OutputFile | Cases of the input | partial: False: an input without rows replaces the file by a header before raising, also when appending. Proved exactly: the file stays as it was if and only if the input has rows and columns, or the file was that header. |
| C287 | The steps of a blocking or regime run are those named in the environment | Steps | Induction over the characters of the text | proved: Without the variable the list holds one empty text. |
| C288 | Spectra that are saved can be read back | SaveSpectra | Cases; numbers cut to integers | partial: False for wavenumbers that are not whole (they are cut to integers) and for other than eight spectra (eight names are always written). Proved: exactly those cases fail; spectra of mjo_cross are always read back. |
| C289 | Spectra are saved in the directory given | SaveSpectra | Cases of os.path.join | partial: Proved for the function in contributed/spacetime. False for the copy in contributed/tropical_diagnostics, exactly when the directory is given without a slash at the end. A name beginning with a slash is taken as an absolute path. |
| C290 | Every object statistic can be asked for all, for 2d and for 3d objects | ObjectStats | Table of functions, distinct names, lookup; letters of the name decoded by a separate specification | partial: False exactly for two 3d count ratios (oca_aca, aca_asa), which have no function and end in a KeyError, for the area and volume ratio fsu_asu, which has none either, and for the ratios with other filters than their names say (C79). Proved for all others. The volume ratios are always missing (C81). |
| C291 | The cross-spectra script reports different latitudes | CrossSpectra | Subtraction of labelled arrays with inner join; induction on the labels | partial: False: the subtraction keeps only the common latitudes, so the message is never printed, whatever the latitudes are; it is right exactly when they are the same. |
| C292 | Segments of the cross spectra have the configured number of days | CrossSpectra | The three calls as a list of settings; cancellation | partial: False for the third spectrum, whose segments keep the length computed with the configured number of values a day while its frequencies use two a day. Right exactly when two a day are configured; the first two spectra are always right. |
| C293 | The spectra of one run go to different files | CrossSpectra | Lengths of the names, then cancellation of equal endings | proved: For every model, symmetry and text of the number of values a day. |
| C294 | The phase diagram shows all records from the first to the last date | PhaseRecords | Positions of the first records with the two dates in a sorted list; filter as drop and take | partial: False exactly when the last date has more than one record: only its first record is shown. Proved for daily records; a date without records is an IndexError. |
| C295 | The index examples show every day with its own date | ExampleDays | Sorted lists with the same members are equal; zip of the two selections | partial: False: the last day is never shown, and after a missing day the labels are those of earlier days. Proved for an index with a value for every day: all days but the last, each with its own label. Labels, exactly: all right if and only if, for each day of the index between the dates, the index has every day from the first date up to it. |
| C296 | The zonal mean data set has all diagnostics its variables allow and no others | ZonalDataset | Cases on the presence of the five variables; the removal by name decided on all names | proved: Given the functions the module imports, which are not in the repository (the module itself cannot be imported as it stands). Without any of the variables an UnboundLocalError is raised. |
| C297 | Eddy fluxes of the zonal mean data set are covariances | ZonalDataset | Induction on the longitudes for the sum of products of deviations | proved: On one circle of latitude without missing values, exact arithmetic; the zonal mean is the mean over the longitudes. |
| C298 | The skill of the Kelvin wave example compares the model with the observations | KelvinExample | Rewriting with the results of the projections; the value from C148 | partial: False: the observed precipitation itself is passed, so the skill does not depend on the model data nor on any activity. Proved: what is computed (correlations of each latitude of the observations with the first one) and what is refused. |

## 4. Trusted base

* The Lean 4.33.0 kernel.
* Axioms: every theorem of `Metcalcpy.Props` depends at most on `propext`, `Classical.choice` and `Quot.sound`
  (checked with `#print axioms` over all listed theorems).  There are no own axioms, no `sorry`, no `native_decide`
  and no `bv_decide`.  Concrete cases use `decide`, `decide +kernel`, `rfl` or `norm_num`, all checked by the kernel.
* The reading of the Python source: the theorems are about the models, which cite the lines they model.  The code has
  not been run.
* The meaning given to NumPy, pandas, SciPy and Python built-ins in the models (section 2) and the simplifications
  listed in the doc comment of each definition.

## 5. What is modelled

| file of /repo/metcalcpy | modelled | model module |
|----|----|----|
| event_equalize.py | event_equalize (without printed warnings) | EventEqualize |
| event_equalize_against_values.py | event_equalize_against_values | EventEqualize |
| util/utils.py | rounding, string tests, column sums, longitudes, permutations, derived series names and values, row filters, series sums, aggregation of listed values, standard errors, equalization of axes | Round, Strings, Table, Lon, Permutations, Derived, Mode, SeriesSums, AggregateField, StdErr, EqualizeAxis |
| util/ctc_statistics.py | all scores, the economic value, threshold sorting and the ROC table | Ctc, CtcLog, EconomicValue, Thresh |
| util/eclv_statistics.py | economic value of CTC and PCT data | EconomicValue |
| util/sl1l2_statistics.py, sal1l2_statistics.py | all statistics | Sl1l2 |
| util/ssvar_statistics.py, agg_stat.py (`_prepare_ssvar_data`) | all statistics | Ssvar |
| util/vl1l2_statistics.py, val1l2_statistics.py, vcnt_statistics.py, grad_statistics.py | all statistics | Vector, WindDirection |
| util/ecnt_statistics.py, nbrcnt_statistics.py, rps_statistics.py | all statistics | Ensemble |
| util/pstd_statistics.py | probability tables, ROC | Pstd |
| util/mcts_statistics.py; agg_stat.py _prepare_mctc_data | HSS_EC; EC_VALUE check | Mcts, MctcAgg |
| util/mode_*_statistics.py | all ratio, area ratio and volume ratio statistics, and their names | Mode, ObjectStats |
| util/correlation.py | remove_na, acf; bicor, percbend; corr, compute_esci (all effect types), power_corr with power=None; shepherd, bsmahal, bayesfactor_pearson with method 'ly'; the searches of power_corr with the root finder as parameter; _postprocess_dataframe, _format_bf; not: method 'wetzels', skipped, coefficients of scipy | Acf, RobustCorr, CorrTable, Shepherd, PowerSearch |
| util/met_stats.py | wind speed and direction | Vector |
| util/tost_paired.py, util/utils.py (tost) | equivalence tests | Tost |
| util/wald_wolfowitz_runs_test.py | runs_test | Runs |
| util/utils.py (calculate_mtd_revision_stats) | all | MtdRevision |
| agg_stat.py | preparation of the aggregated columns, checks of derived curves, difference significance | Prepare, Sl1l2, Ensemble, Vector, DerivedValidate, Derived |
| agg_stat_bootstrap.py | the whole run: cases, rows of points, values, bootstrap, output rows | ObjectBootstrap, ObjectRun |
| agg_stat.py (points, input rows and output table; num_iterations = 1) | `_proceed_with_axis`, `_get_derived_points`, `_get_bootstrapped_stats_for_derived` | AggPoints |
| agg_stat.py, util/utils.py | `calculate_stats_and_ci` (num_iterations = 1, without the output file), `perform_event_equalization`, `parse_bool` | AggRun |
| agg_stat.py | `_get_bootstrapped_stats` and `_calc_stats` on SL1L2, SAL1L2, VL1L2, VAL1L2, VCNT, SSVAR, CTC, ECNT, NBRCNT, RPS, GRAD, PCT, MCTC and NBR_CTC lines (num_iterations = 1), `_prepare_ctc_data`, `_prepare_cts_data` | AggValues, AggEnsemble, AggRoots, AggDirections, AggSpread, AggCounts |
| agg_stat.py | `calculate_stats_and_ci` with independent values that are lists with ';' (num_iterations = 1, not PCT) | AggLists |
| agg_stat.py | `calculate_stats_and_ci`, `_proceed_with_axis`, `_get_bootstrapped_stats`, `_get_bootstrapped_stats_for_derived` with num_iterations > 1: the whole table with its limits, from the index matrices drawn at random (one thread, one batch) | AggBootRun |
| agg_stat.py (num_iterations > 1) | sorting, bootstrap of plain series and derived curves, DIFF_SIG | AggBoot, DiffSig |
| agg_stat_eqz.py, agg_stat_event_equalize.py | event equalization of attribute statistics | AggEqz |
| sum_stat.py | calculate_stats, aggregate_special_fields, process_rows, the run with event equalization | SumStat, SumStatRun |
| agg_stat.py, agg_eclv.py, scorecard.py | the output file: append_to_file, header, earlier contents (tables of cell texts; quoting and number formats left out) | OutputFile |
| agg_eclv.py | constructor, points, rows, thresholds and curves without and with resampling; the value of one resample; `calculate_stats_and_ci` without the output file (num_iterations = 1) | EconomicValue, AggEclv, AggEclvBoot, AggEclvRun |
| util/nbrctc_statistics.py | all | NbrCtc |
| compare_images.py | the class and the script; reading, similarity, threshold and boxes are parameters | CompareImages |
| agg_stat.py, sum_stat.py | choice of the statistic function by name | Dispatch |
| bootstrap.py | resampling, intervals, results, their widths, worker pool | Bootstrap, BootWidth |
| scorecard.py | EMC and NCAR significance, checks of derived curves, points, rows of the table | Scorecard, ScorecardNcar, ScorecardRun, DerivedValidate |
| piecewise_linear.py, calc_difficulty_index.py | all | Difficulty |
| vertical_interp.py | linear interpolation of one column, unit factor, height_from_pressure of one column (virtual temperature is a parameter), write_dataset, reference time; not: reading | VerticalInterp, VerticalMissing, HeightPressure, WriteDataset, RefTime |
| pre_processing/directional_means.py, process_tcrmw.py | meridional and zonal mean, wind decomposition | Preproc |
| validate_mv_python.py | file names, testing period, file selection, the run on a model of files; METviewer and the image library are parameters | Validate, ValidateRun |
| contributed/blocking_weather_regime/Blocking.py | run_CBL, run_mod_blocking1d, run_Calc_IBL, run_Calc_GIBL, run_Calc_Blocks | Blocking, BlockingRun, CalcBlocks |
| contributed/blocking_weather_regime/WeatherRegime.py | weights_detrend, run_elbow, numbering of run_K_means, reconstruct_heights, write_K_means_file, compute_wr_freq; the clustering and EOFs are parameters | WeatherRegime, RegimeFile |
| contributed/blocking_weather_regime/Blocking_WeatherRegime_util.py | parse_steps, reordering of regimes, read_nc_met on file contents with masked points and times, lead label, MPR lines and file names | Steps, WeatherRegime, RegimeIO, BlockingRun, NcMasked |
| contributed/rmm_omi/compute_mjo_indices.py | rem_120day_mean, grid checks, projections, the spectral filter, taper, detrending, omi and rmm from data to index, the band-pass filter behind the taper, zon_avg_variance | MjoIndex, Taper, OmiIndex, RmmIndex, EofComp |
| contributed/tropical_diagnostics/utils.py, contributed/spacetime/spacetime_utils.py | lonFlip; save_Spectra (path, contents of the file) | LonFlip, SaveSpectra |
| contributed/spacetime/cross_spectra.py | check of the latitudes, settings and files of the three spectra (reading of the files not modelled) | CrossSpectra |
| contributed/tropical_diagnostics/phase_diagram_example.py | dates and cut of the records (reading and plot not modelled) | PhaseRecords |
| contributed/tropical_diagnostics/example_kelvin_activity.py | the skill (the projection is a parameter) | KelvinExample |
| contributed/zonal_meridional/recipes.py | create_zonal_mean_dataset on one circle of latitude (the imported functions are a mean and parameters) | ZonalDataset |
| contributed/tropical_diagnostics/compute_omi_example.py, compute_rmm_example.py | days and labels of the phase diagram (reading and plot not modelled) | ExampleDays |
| contributed/tropical_diagnostics/ccew_activity.py | removal of the annual cycle, wave_skill, waveproj and waveact after reading of the EOF files, eof_comp; the correlation and the singular value decomposition are parameters; not: plotting | CcewActivity, WaveAct, EofComp |
| contributed/spacetime/spacetime.py | window_cosbell | Taper |
| contributed/spacetime/spacetime.py | smooth121, smooth121_1D, mjo_cross (segments, labels, averages), mjo_cross_segment_realfft (after the transform), mjo_cross_coh2pha | Spacetime |
| contributed/spacetime/spacetime.py | get_symmasymm, mjo_cross_segment (after the transform), kf_filter, kf_filter_mask (transforms by their definition) | SpacetimeFilter |
| pre_processing/waves.py | all, on one circle of longitudes (transforms by their definition; xrft taken to agree with scipy) | Waves |
| contributed/spacetime/matsuno_plot.py | all but plotting; scipy's fsolve is a parameter | Matsuno |
| contributed/mjo_enso/compute_mjo_enso.py | all three functions; float32 rounding, reading and stacking are not | MjoEnso, MakiIndex |
| util/read_env_vars_in_config.py | replacement of references in one value; not: the YAML parser | EnvConfig |
| util/utils.py (warning filters) | the filter state of every statistic | Filter |

Not modelled: read_file.py, the formats of files (CSV, NetCDF, YAML) and file input and output beyond the table above, command lines, logging, plotting,
the readers in util/read_*.py, the other diagnostics under contributed/ and diagnostics/ that rest on FFT, EOF or
k-means routines, and the numerical quality of floating point.

## 6. Disagreements found between the code and the properties

Each of these is a theorem (`*_counterexample`, or a theorem stating what the code computes for all inputs).

* Dispersion curves: with max_wn = 0 the joins multiply the rows of the frame (C167); the absolute value of max_wn is computed but not used,
  so that a negative one reverses the wavenumbers.
* MJO-ENSO: the Kelvin structure raises an IndexError for latitudes that end at the equator, is missing for decreasing latitudes and changes
  sign for coarse ones; its rows are the middles of equal cells, not the latitudes of the data (C160).  The MJO stress grows with the square
  of the stress (C168); one missing value removes all of it, and a point missing on day 11 keeps the unfiltered stress (C169).  The monthly
  indices use the 91 days up to the month instead of the 90 from it on, are labelled a month late for records that begin within a month,
  and most such records raise a ValueError (C161); one missing value removes all days (C171).
* DIFF_SIG with bootstrapping: one NaN among the replicates makes it 0; a statistic that does not exist raises a TypeError, while other
  derived curves return an empty result (C172); of two series on opposite sides of the perfect score the first one always wins (C173).
* Multi-category lines with different numbers of categories are pooled silently, counts of different category pairs being added up; the
  score then depends on which line comes first (C175).
* Blocks: BLOCK_TIME does not bound the length of a block (C179); the limit of travel discards slowly moving blocks over longitude 0
  (C180); records without groups, with isolated groups only or with a wholly marked day raise exceptions (C181).
* Wave activity: data given from north to south, data sharing no grid label with the EOFs and times without data give an activity of 0
  instead of an error or a missing value (C162).
* Image comparison: the threshold image cannot be saved twice or after an image with boxes, nor the second image with boxes twice;
  the truth value of an array is asked (C184).
* Summary statistics: sum_stat does not import sal1l2_statistics; the statistics of line type sal1l2 raise KeyError, which is caught and
  logged, and the table has no values (C185).
* Economic value: the percentile method gives limits where the replicates differ, the pivotal one always fails (C32, C186).
* validate_mv_python: two images of different sizes end the run with ValueError (C188); deleting the files of an identical plot `a`
  deletes data and scripts of a differing plot `a-b` (C189).
* bandpass_filter_3D keeps sine waves of twice the periods asked for, and removes every wave that turns more than n/4 times (C190).
* omi removes mean and trend from the array of its caller (C191).
* shepherd fails with LinAlgError when a random resample lies on a line (C195); bayesfactor_pearson ignores one-sided alternatives (C196).
* The first value of the RMM index is zero whatever the data (C194).
* power_corr never finds the level of a one-sided test: NaN for all arguments (C197).
* The object bootstrap (agg_stat_bootstrap.py) counts rows of other forecast variables (C198), draws the cases of an independent value from those of all values listed before it as well (C199), and fails whenever event equalization is switched on (C200).
* Aggregation runs with event equalization: without a stat_name column every row is repeated once per statistic, and a series shown on both axes is counted twice (C202); series of the second axis keep cases the first axis lacks (C201); event_equal 'false' (as text) switches equalization on (C204).
* Economic values: a group of series values 'A:B' is split by the equalization but not by the aggregation, so the run fails (C211).
* Blocking: a season without files is given the first latitude of the grid (the pole) as central latitude and counts in the
  mean of the seasons (C213); run_CBL works for 360 longitudes only (C212).
* Regime file: a missing day makes the netCDF output fail after the earlier file was removed (C217).
* SumStat: when the equalization fails with a KeyError, the input is written without equalization and without statistics (C220).
* EOFs: eof_comp with the covariance matrix does not remove the mean (C222).
* Post-processing of a correlation table formats only the Bayes factor of the first row (C233).  The relative width of a bootstrap
  interval is negative for negative values (C235).
* `write_dataset`: short types are written as unsigned numbers (C236); the beginning of the time axis is lost (C237); attributes of
  `valid_time` go to another variable (C238); the reference time is in local time, and a dot in the directory ends the program (C239).
* Interpolation to heights: over a surface below all levels, heights under the ground have the value of the lowest level (C242).
* Aggregation of PCT lines: a run that asks for PSTD_BRIER, PSTD_BSS_SMPL or PSTD_RESOLUTION fails with an
  AttributeError as soon as a point has forecasts (`C252_brier_fails`, from C55).
* Derived curves: a run that asks for an ETB curve of two series with complete statistics fails with a KeyError (C255).
* Lists of independent values: on NBRCNT lines a point for "12;24" has the score of the first lead; lists among the series values are never pooled before the statistic (the test looks at the names of the series), and together with a list of leads they end the run with a TypeError; the number of cases is the number of valid times (C256).
* Bootstrap tables: limits of plain series are for alpha = 0.05 and limits of derived curves for the requested alpha, in the same table (C258); with a method that is neither 'perc' nor 'pivotal' all values are missing without a message (C257).
* Wind direction error: never negative; a clockwise angle is reported as 360 minus its radians, and the absolute error is the same number (C260).
* Bootstrapping (C262): a replicate without a value stops the run with a TypeError under `pivotal` limits, and under `perc` limits if no replicate of the point has a value (`_all_the_same` is False for them and `np.percentile` gets an empty array, modelled as IndexError).  Only KeyError is caught.
* Curves against times (C265): `_get_bootstrapped_stats_for_derived` counts the values of groups by splitting every text of the point at colons, also the independent value.  A time such as `2022-01-01 00:00:00` counts as three values, `_validate_series_cases_for_derived_operation` then finds fewer distinct cases than expected and the run stops with a NameError.  Every difference, ratio or skill score against times with colons fails.
* Fixed variables: lines with other values of a fixed variable than the fixed ones are aggregated all the same (C268).
* Statistics that do not exist: their rows are empty with bootstrapping, but the run ends with a KeyError without it (C269).
* PCT lines: the thresholds of the first sorted line are used for the counts of all lines, so the table depends on the order of lines of one time and lead with different thresholds (C270).
* RMSE and MSESS of SL1L2 lines are computed from the MSE rounded to 7 decimals: errors of 0.0001 (specific humidity in kg/kg) give RMSE 0 and MSESS 1 (C271).
* ODDS of CTC lines is computed from PODY and POFD rounded to 7 decimals: it does not respect the exchange of forecasts and observations, while LODDS does (C272).
* RMSE smaller than MAE: the MSE is rounded to seven decimals before its root is taken, so errors below about 0.0002 give RMSE 0 (C275).
* DIFF_SIG of two series with the same data is 1, full confidence in a difference, for every data set and draw (C276).
* A line whose partial sum is missing is left out of the sum but counted in the divisor: the aggregated mean shrinks by n/(n+k) (C277).
* Matched pair files: the width of the DESC column is computed from the model name (Blocking_WeatherRegime_util.py:39); a long description moves the values out from under the header (C279).
* Weather regimes: Calc_EOF overwrites the array of its caller with departures from the trend (WeatherRegime.py:109-110) (C281).
* Blocking and regimes: points masked in an input file come out of read_nc_met as the fill value (C283).
* Output files: append_to_file given as the YAML word True overwrites the file, and the first appending run writes no header (C284). A scorecard run without rows leaves the file of an earlier run (C285); one without input deletes its rows (C286).
* Files of spectra: wavenumbers are cut to integers, eight names are written for any number of spectra (C288); the copy of save_Spectra in tropical_diagnostics writes beside the directory when it is given without a slash (C289).
* Object statistics by name: 3d_ratio_oca_aca, 3d_ratio_aca_asa and the area and volume ratio fsu_asu have no function; asking for them is a KeyError (C290).
* Script for cross spectra: the message about different latitudes is never printed (C291); the segments of the third spectrum have the length for the configured number of values a day, not for two a day (C292).
* Example of the phase diagram: of the last date only the first record is shown (C294).
* Examples of the indices: the last day is not shown, and after a missing day the labels are wrong (C295).
* Zonal mean data set: the module imports modules that are not in the repository; without any of the variables an UnboundLocalError is raised (C296).
* Kelvin example: the skill is computed from the observed precipitation, not from the activities (C298).
* Zonal waves: the amplitude of the shortest wave is doubled, amplitudes of integer data are truncated (C149); contributions exist only for all
  waves of an even number of longitudes with scipy (C150); the covariance always raises (C151).
* Space-time spectra: the smoother raises for one value and loses the first value if any is missing (C152); the last segment is not used
  and segments overlap by one value more than asked for (C154); frequencies are mislabelled unless the segment length is a multiple of four
  (C155); symmetric parts are in the wrong order, antisymmetric ones have the wrong sign for ascending latitudes (C157); the phases of the two
  segment functions are opposite (C158); the wave filter is shifted by one wavenumber (C159), removes all Kelvin waves of wavenumber one, and
  reads uninitialised memory when one depth is given (C163).
* Equalization: calling `event_equalize_against_values` twice on one frame raises (C05); `equalize_axis_data` enforces
  only the last series variable (C54), drops every row when that variable is numeric (C83); with two axes the series
  values of the first axis are forgotten (C84).  For attribute statistics, several series variables repeat rows and
  keep unrequested ones (C90), and two axes keep cases that only the second axis has (C91).
* Aggregation of listed values: a missing lead raises or adds a row without time (C86); several aggregated values or
  variables destroy each other's rows (C87); pooled FSS ignores perfect lines (C88); RMSE, CRPSS and RPSS of an
  aggregated row are those of its first row (C89).
* Aggregation runs: only the first forecast variable of an axis is used (C101); a derived curve of two series that differ
  in two variables, or whose fields share value names, is computed from other series (C102); a derived curve of two
  series with a common group vanishes (C103); a derived curve of series with different cases is bootstrapped as if the
  cases were paired (C105); alpha has no effect on plain series (C106).
* Summaries: after a row with an unknown statistic all rows keep their old values (C107); values joined with ';' are
  not aggregated (C108); with date-time values and two axes the rows of both are lost (C109).
* Scorecards: a comparison of series that differ in two variables uses other rows, and without a series variable
  fcst_lead every run with data fails (C110); the second series is not checked for its cases (C112); ties favour both
  series (C113); the sign of every significance is decided by the first requested statistic (C114).
* Contingency tables: CTC group sums add the first column of the frame (C19); `calculate_eclv` always returns None
  (C61); PCT economic values fail on the pinned NumPy (C62); the base-rate option is always reset (C59);
  one series without data makes the whole table of economic values fail (C115);
  EDI and SEDI of very rare hits are missing, because the hit rate is rounded to 7 digits first (C93).
* Continuous statistics: BCMSE can be negative and BCRMSE then raises (C16); SAL1L2 group means are lost (C18);
  ESTDEV and FE of aggregated groups are computed from unweighted fields (C63, C64); ESTDEV of one pair raises
  ValueError (C63); the scatter index divides by a
  rounded zero (C65).
* Spread/skill lines: the anomaly correlation is missing for short column names, and totals cannot be requested (C117).
* Neighbourhood and ensemble statistics: O_RATE mis-weighted and FSS/RPSS drop the reference of perfect rows (C20, C66);
  SPREAD_PLUS_OERR uses the wrong field (C21).
* Vector statistics: speeds are not weighted (C68); directions are radians (C70); VCNT_ANOM_CORR centres by mean speeds (C104); direction errors of large groups are
  missing (C71).
* Bootstrap: wrong replicate count with several threads (C28); an IndexError when all replicates are missing (C31);
  pivotal ECLV limits always fail (C32); the object bootstrap mixes up statistics and leaves the row
  of a grouped series value empty, writing its result into the row of the first member (C45), and ignores how often a case
  was drawn (C46).
* Aggregated leads are labelled with the first listed lead only (C123).
* Blocking: a group of blocked longitudes across longitude 0 may be dropped and the option IBL_DIST has no effect (C124);
  an offset whose band leaves the grid hides blocking at all other offsets, unknown methods are accepted (C125).
* Weather regimes: observed regimes with the same best forecast regime leave days with uninitialised labels (C128); the
  trend is never removed (C130); a missing observation file shifts the columns of the matched pair file (C133).
* Tests: TOST boundary and zero variance errors (C35), alpha 0 accepted (C36), p-value 0 suppresses the outcome (C75);
  autocor_coef misses a square (C76); the autocorrelation of revisions pairs values of different revisions (C134) and its
  p-value ignores the data (C136).
* Correlations: the interval reported by corr() is rounded to two decimals and may exclude the coefficient (C121); the
  documented column `outliers` is never reported (C120); percbend of data with bend scale 0 may still be a number (C119).
* Probability tables: Brier score, skill score and resolution raise (C55); ROC points in text order (C77); "<=" texts
  misread (C78).
* Heights: a surface between two pressure levels raises the whole column (C137), a surface on a level leaves no heights
  (C138), the unit factor of the levels is inverted (C139).
* Configuration: references inside the values of environment variables are replaced or not depending on the order of
  mention (C140).
* Tropical diagnostics: flipped longitudes lose their data unless east and west have equally many (C141); the 120-day mean
  assumes equal spacing (C142); the OMI filter judges components at the neighbouring frequency when the number of times is odd
  (C143); grids are never refused (C145); a record over a leap year may lose all its activity (C147); wave_skill overwrites
  its argument and refuses a single hour or line (C148).
* Others: forecast difficulty index and negative spreads (C39); unsorted piecewise-linear domains accepted (C40);
  warning filter left strict (C41); vertical interpolation at the top and at exact hits (C42); latitude band ignored
  (C43); MODE percentages and object scores (C44, C79, C80), volume statistics always missing (C81); EMC level
  missing at one score and not antisymmetric for ME/BIAS (C47); derived series with two parts (C51); the number of
  values allowed for two groups and the unchecked second component of the scorecard (C52); every dot of a file name
  is replaced (C57).

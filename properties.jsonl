{"id": "C01", "title": "Constructing a TimeSeriesData sorts by time and loses no row", "statement": "Building a TimeSeriesData from a non-empty DataFrame (default arguments) yields rows whose times are in non-decreasing order and which are exactly the input rows, each kept as often as it was given; with drop_duplicate_time=True exactly the first input row of every distinct timestamp survives and the times are strictly increasing.", "quantifier": "for every non-empty table of (time, value) rows in any order, with any duplicates, and for every sort routine pandas may use (stable or not)", "why_tests_cant": "A test fixes one table; duplicates, ties and orderings form an unbounded family and pandas' default sort is not even stable.", "anchors": ["kats/consts.py: TimeSeriesData.__init__", "kats/consts.py: TimeSeriesData._sort_by_time", "kats/consts.py: TimeSeriesData._extract_from_df"]}
{"id": "C02", "title": "Constructor accepts and rejects exactly the documented combinations", "statement": "TimeSeriesData(time=..., value=...) succeeds exactly when both series are empty, or both are non-empty, of equal length and numeric; a DataFrame without the time column is rejected; passing only one of time/value is rejected; passing nothing gives the empty series. Every rejection is a ValueError.", "quantifier": "for every combination of the df/time/value arguments and all lengths", "why_tests_cant": "The argument space is the product of presence, emptiness and length of three arguments.", "anchors": ["kats/consts.py: TimeSeriesData.__init__", "kats/consts.py: TimeSeriesData.validate_data"]}
{"id": "C03", "title": "A failed extend leaves the series unchanged", "statement": "ts.extend(other) either succeeds, and then ts holds its old points followed by other's points, or raises and leaves ts as it was.", "quantifier": "for every pair of series and for validate=True and False", "why_tests_cant": "Tests check that the error is raised, not what the object holds afterwards for every pair of inputs.", "anchors": ["kats/consts.py: TimeSeriesData.extend", "kats/consts.py: TimeSeriesData.validate_data"]}
{"id": "C04", "title": "exclude removes exactly the closed time range", "statement": "ts.exclude(start, end) contains exactly the points of ts whose time t does not satisfy start <= t <= end, each as often as in ts, sorted by time; excluding twice is the same as once, and ts itself is not modified.", "quantifier": "for every series and every start and end, including start > end and ranges outside the data", "why_tests_cant": "Boundary inclusivity and idempotence must hold for every range and duplicate pattern.", "anchors": ["kats/consts.py: TimeSeriesData.exclude"]}
{"id": "C05", "title": "Arithmetic between series is pointwise", "statement": "For two univariate series with equal time columns and the same value name, a op b (op in +,-,*,/) has the times of a and at each time the op of the two values; a series and a scalar likewise; unequal times raise ValueError; a scalar with a multivariate series raises NotImplementedError.", "quantifier": "for every pair of series with equal times, every length, every operation, including repeated timestamps", "why_tests_cant": "The operation is an outer join on time, whose behaviour on repeated timestamps only shows for particular data.", "anchors": ["kats/consts.py: TimeSeriesData._perform_op", "kats/consts.py: TimeSeriesData._get_binary_op_other_arg"]}
{"id": "C06", "title": "min and max always describe the current values", "statement": "After any sequence of constructions, value assignments and extends, ts.min and ts.max are the least and greatest non-NaN value currently held (NaN if there is none).", "quantifier": "for every sequence of value-changing operations on a univariate series", "why_tests_cant": "Stale caches show only after particular operation sequences.", "anchors": ["kats/consts.py: TimeSeriesData.value", "kats/consts.py: TimeSeriesData._calc_min_max_values", "kats/consts.py: TimeSeriesData.extend"]}
{"id": "C07", "title": "A TimeSeriesIterator can be iterated again", "statement": "Iterating a TimeSeriesIterator yields every column of the series exactly once in order, and each fresh `for` loop over it yields them again.", "quantifier": "for every multivariate series and any number of complete iterations", "why_tests_cant": "Needs the state left behind by an earlier iteration of any length.", "anchors": ["kats/consts.py: TimeSeriesIterator.__iter__", "kats/consts.py: TimeSeriesIterator.__next__"]}
{"id": "C08", "title": "infer_freq_robust returns the majority gap", "statement": "For at least two points, infer_freq_robust returns a gap between consecutive (sorted) timestamps that occurs at least as often as any other gap, and the smallest such gap; fewer than two points raise ValueError; the input order does not matter when the series was not sorted on construction.", "quantifier": "for every list of timestamps", "why_tests_cant": "Majority voting and tie breaking range over all multisets of gaps.", "anchors": ["kats/consts.py: TimeSeriesData.infer_freq_robust"]}
{"id": "C09", "title": "SimpleDataPartition: train is a prefix and test follows it directly", "statement": "For a split that is in range, train is the first train_size points, test is the test_size points directly after it, they do not overlap, and with no test argument train and test together are the whole series; conflicting or missing size arguments and arguments out of range are rejected with ValueError.", "quantifier": "for every series length, every fraction in (0,1) and every size", "why_tests_cant": "Rounding of fractions against every length cannot be enumerated by examples.", "anchors": ["kats/utils/datapartition.py: SimpleDataPartition", "kats/utils/datapartition.py: _get_absolute_size"]}
{"id": "C10", "title": "Timestamp partition selects exactly the closed time windows", "statement": "SimpleTimestampDataPartition on a sorted series returns as train exactly the points with train_start <= t <= train_end and as test exactly those with test_start <= t <= test_end, in order; if train_end < test_start no point is in both.", "quantifier": "for every sorted series (repeated timestamps allowed) and all timestamps", "why_tests_cant": "Inclusive bounds through binary search, for all tie patterns.", "anchors": ["kats/utils/datapartition.py: SimpleTimestampDataPartition._single_train_test_split", "kats/utils/datapartition.py: SimpleTimestampDataPartition._timestamp_check"]}
{"id": "C11", "title": "Rolling origin folds stay inside the data and advance to its end", "statement": "RollingOriginDataParition yields expanding_steps folds; in every fold the test block lies window points after the train block, never overlaps it, lies inside the series and has constant size; train either grows from the start or keeps constant size; offsets never decrease; the first fold starts at offset 0 and with two or more folds the last fold's test ends at the last point.", "quantifier": "for every series length, all fractions accepted by the constructor, every number of folds, both train modes", "why_tests_cant": "Depends on rounding of three fractions and a linspace for every length and fold count.", "anchors": ["kats/utils/datapartition.py: RollingOriginDataParition"]}
{"id": "C12", "title": "max_core is always set to a legal core number", "statement": "Constructing a data partition with multi=True and a max_core larger than the number of cores caps it at the number of cores; any max_core in [1, cores] is accepted; everything else is rejected; afterwards max_core is in [1, cores].", "quantifier": "for every number of cores and every max_core", "why_tests_cant": "The machine's core count is an environment parameter that a test run fixes.", "anchors": ["kats/utils/datapartition.py: DataPartitionBase.__init__", "kats/utils/backtesters.py: _check_max_core"]}
{"id": "C13", "title": "split on a list or dict splits every series independently", "statement": "split on a list or dictionary of series returns split_num folds; in fold i the entry under key k is exactly fold i of splitting series k alone; lists keep their order; this holds whatever order the worker pool evaluates series in.", "quantifier": "for every list or dictionary of series, every partition rule, with and without multiprocessing", "why_tests_cant": "Regrouping per fold over all keys; scheduling of the pool.", "anchors": ["kats/utils/datapartition.py: DataPartitionBase.split", "kats/utils/datapartition.py: DataPartitionBase._data_check"]}
{"id": "C14", "title": "Backtest folds never leak test data into training", "statement": "For BackTesterSimple, RollingOrigin and FixedWindow, whenever splits are produced every fold has 0 <= train_start < train_end <= test_start < test_end <= size, the gap test_start - train_end equals the window size, and otherwise ValueError is raised.", "quantifier": "for every series size, all percentages and any number of folds", "why_tests_cant": "Leakage at one rounding combination would invalidate evaluations silently.", "anchors": ["kats/utils/backtesters.py: BackTesterSimple._create_train_test_splits", "kats/utils/backtesters.py: BackTesterRollingOrigin._create_train_test_splits", "kats/utils/backtesters.py: BackTesterFixedWindow._create_train_test_splits", "kats/utils/backtesters.py: _get_absolute_size"]}
{"id": "C15", "title": "Rolling origin backtest: evenly spread folds ending at the last point", "statement": "With k >= 2 folds the fold offsets start at 0, never decrease, consecutive steps differ by at most one, there are exactly k of them, and the last test block ends at the last data point.", "quantifier": "for every data size, train and test size and every k >= 2", "why_tests_cant": "np.array_split remainder handling for every (size, k).", "anchors": ["kats/utils/backtesters.py: _return_fold_offsets", "kats/utils/backtesters.py: BackTesterRollingOrigin._create_train_test_splits"]}
{"id": "C16", "title": "Backtest error is the size-weighted mean of fold errors, also after re-running", "statement": "After run_backtest, each reported error equals the sum over folds of |fold|/total times the fold's metric; running the backtest again on the same object reports the same value.", "quantifier": "for every list of folds, every metric, any number of runs", "why_tests_cant": "Accumulation across runs is a history property.", "anchors": ["kats/utils/backtesters.py: BackTesterParent.calc_error", "kats/utils/backtesters.py: BackTesterParent.run_backtest", "kats/utils/backtesters.py: BackTesterParent._create_model"]}
{"id": "C17", "title": "Unsupported scorer names are reported", "statement": "Asking the generic backtester or BackTesterParent for an unknown error name raises instead of silently returning results without it.", "quantifier": "for every list of metric names", "why_tests_cant": "All mixtures of known and unknown names.", "anchors": ["kats/utils/backtesters.py: _get_scorer", "kats/utils/backtesters.py: BackTesterParent.__init__", "kats/metrics/metrics.py: core_metric"]}
{"id": "C18", "title": "Array metrics reject arrays of different lengths and divide safely", "statement": "error, absolute_error, percentage_error and absolute_percentage_error raise ValueError when the arrays differ in length, otherwise return an array of the same length; division never yields an infinity: x/0 becomes +1, -1 or 0 according to the sign of x.", "quantifier": "for all finite arrays of any lengths", "why_tests_cant": "Zero denominators at arbitrary positions and sign combinations.", "anchors": ["kats/metrics/metrics.py: _arrays", "kats/metrics/metrics.py: _safe_divide", "kats/metrics/metrics.py: _err", "kats/metrics/metrics.py: _abs_err", "kats/metrics/metrics.py: _pct_err", "kats/metrics/metrics.py: _abs_pct_err"]}
{"id": "C19", "title": "MAE, MSE and the scale metrics are non-negative and zero only on a perfect forecast", "statement": "mean_absolute_error, mean_squared_error and median_absolute_error of non-empty equal-length arrays are >= 0, symmetric in their arguments, and MAE and MSE are 0 exactly when the arrays are equal; MSE >= MAE^2; |mean_error| <= MAE; MAE <= max abs error.", "quantifier": "for all finite non-empty equal-length arrays", "why_tests_cant": "Inequalities over all real vectors.", "anchors": ["kats/metrics/metrics.py: mean_absolute_error", "kats/metrics/metrics.py: mean_squared_error", "kats/metrics/metrics.py: median_absolute_error", "kats/metrics/metrics.py: mean_error"]}
{"id": "C20", "title": "Percentage metrics stay within their advertised ranges", "statement": "The metric metadata advertises ranges: MAPE and MdAPE are >= 0, SMAPE is in [0,1], scaled SMAPE in [0,1], symmetric bias in [-2,2].", "quantifier": "for all finite non-empty equal-length arrays, any signs", "why_tests_cant": "Sign and zero patterns of both arrays.", "anchors": ["kats/metrics/metrics.py: mean_absolute_percentage_error", "kats/metrics/metrics.py: median_absolute_percentage_error", "kats/metrics/metrics.py: symmetric_mean_absolute_percentage_error", "kats/metrics/metrics.py: scaled_symmetric_mean_absolute_percentage_error", "kats/metrics/metrics.py: symmetric_bias", "kats/metrics/metadata.py: inspect"]}
{"id": "C21", "title": "Pinball loss is the documented piecewise function and a proper quantile loss", "statement": "pinball_loss equals the mean of t*(y-f) where y>f and (t-1)*(y-f) elsewhere, is >= 0, 0 on a perfect forecast, and raises ValueError exactly when t is outside [0,1]; at t = 1/2 it is half the MAE.", "quantifier": "for all arrays and all thresholds", "why_tests_cant": "Continuum of thresholds and arrays.", "anchors": ["kats/metrics/metrics.py: pinball_loss"]}
{"id": "C22", "title": "exceed and mult_exceed return the documented exceed rates", "statement": "For t <= 0.5 exceed(y_true, y_pred, t) is the fraction of points with y_pred < y_true, for t > 0.5 the fraction with y_pred > y_true; mult_exceed returns one such rate per threshold block.", "quantifier": "for all arrays and thresholds", "why_tests_cant": "Orientation must hold for all data.", "anchors": ["kats/metrics/metrics.py: exceed", "kats/metrics/metrics.py: mult_exceed"]}
{"id": "C23", "title": "Coverage and interval score characterise intervals", "statement": "coverage is the fraction of points inside the closed interval, in [0,1]; interval_score is at least the mean interval width, with equality exactly when every point is covered (alpha > 0), and the two per-point variants average to the scalar ones.", "quantifier": "for all arrays of any length and every alpha > 0", "why_tests_cant": "Inequalities over all real vectors.", "anchors": ["kats/metrics/metrics.py: coverage", "kats/metrics/metrics.py: mult_coverage", "kats/metrics/metrics.py: interval_score", "kats/metrics/metrics.py: mult_interval_score"]}
{"id": "C24", "title": "The run probability used for multiple-testing correction is exact", "statement": "The number IntervalDetectorModel uses as P(at least one run of m consecutive rejections among n independent tests each rejecting with probability p) equals the exact probability, i.e. the total weight of all length-n outcome sequences containing m consecutive rejections.", "quantifier": "for every n >= m >= 1 and every p", "why_tests_cant": "A matrix-power formula against a sum over 2^n sequences, for all n and m.", "anchors": ["kats/detectors/interval_detector.py: IntervalDetectorModel._probability_of_at_least_one_m_run_in_n_trials", "kats/detectors/interval_detector.py: IntervalDetectorModel._w_independent"]}
{"id": "C25", "title": "Automatic duration is the lowest admissible one", "statement": "With duration=None the chosen duration m is the least m >= 1 whose run probability is at most alpha*(1+r_tol), and corrected_alpha is that probability; if none exists up to the limit an exception is raised.", "quantifier": "for every alpha in [0,1], series length and r_tol >= 0", "why_tests_cant": "Search loop termination and minimality over all lengths.", "anchors": ["kats/detectors/interval_detector.py: IntervalDetectorModel._get_lowest_m", "kats/detectors/interval_detector.py: IntervalDetectorModel._get_critical_value"]}
{"id": "C26", "title": "The corrected alpha keeps the global error within tolerance", "statement": "With an explicit duration, whenever a corrected alpha is returned the global type-I error at that alpha is within a factor (1±r_tol) of alpha; duration > length is rejected; the bisection interval always lies within the initial bracket.", "quantifier": "for every duration, length, alpha, r_tol and iteration limit", "why_tests_cant": "All trajectories of a bisection loop.", "anchors": ["kats/detectors/interval_detector.py: IntervalDetectorModel._get_lowest_p"]}
{"id": "C27", "title": "Rejection intervals are exactly the maximal runs and predictions follow duration", "statement": "The reject intervals are exactly the maximal runs of consecutive rejected points, in order; together with the fail-to-reject intervals they partition all indices; a point is predicted anomalous iff it lies in a maximal run of length at least duration; anomaly and caution intervals partition the reject intervals.", "quantifier": "for every boolean decision sequence and every duration >= 1", "why_tests_cant": "All boolean sequences of all lengths.", "anchors": ["kats/detectors/interval_detector.py: IntervalDetectorModel._get_true_run_indices", "kats/detectors/interval_detector.py: IntervalDetectorModel._get_intervals", "kats/detectors/interval_detector.py: IntervalDetectorModel._convert_intervals_to_predictions", "kats/detectors/interval_detector.py: IntervalDetectorModel.anomaly_intervals"]}
{"id": "C28", "title": "Rejection is dual to the reported confidence limit", "statement": "For the absolute difference test a point is rejected exactly when the effect size lies outside (or on the edge of) the reported interval [lower, upper].", "quantifier": "for all values, positive standard errors and every alpha", "why_tests_cant": "Duality of test and interval for the whole continuum of alpha, including alpha > 1/2.", "anchors": ["kats/detectors/interval_detector.py: TwoSampleIntervalDetectorModel._absolute_difference_test_statistic", "kats/detectors/interval_detector.py: IntervalDetectorModel._get_test_decision", "kats/detectors/interval_detector.py: CriticalValue.absolute_critical_value"]}
{"id": "C29", "title": "fit_predict of an interval detector does not depend on earlier calls", "statement": "Calling fit_predict twice with the same data gives the same duration, corrected alpha and predictions, and a call with consolidate_into_intervals=False returns the all-zero placeholder.", "quantifier": "for every sequence of fit_predict calls", "why_tests_cant": "History property: attributes survive between calls.", "anchors": ["kats/detectors/interval_detector.py: IntervalDetectorModel.fit_predict", "kats/detectors/interval_detector.py: IntervalDetectorModel._get_critical_value"]}
{"id": "C30", "title": "BOCPD run-length recursion computes the exact posterior over segmentations", "statement": "At every time the unnormalised run-length message equals the sum, over all changepoint histories with that current run length, of prior times predictive likelihoods; each posterior row is non-negative and sums to 1.", "quantifier": "for every series, every positive predictive density family and every changepoint prior in (0,1)", "why_tests_cant": "Exponentially many histories; exactness is an identity, not an example.", "anchors": ["kats/detectors/bocpd.py: _BayesOnlineChangePoint._find_posterior"]}
{"id": "C31", "title": "BOCPD change probabilities are probabilities, aligned with the data, zero at the first point", "statement": "get_change_prob returns, per series, one value in [0,1] per data point, with 0 for the first point; without aggregation entry i is the posterior probability that the run length is lag at time i+lag; with aggregation entry i is the greatest posterior probability, over all later times, that the current run began at i; changepoints are exactly the points above threshold.", "quantifier": "for every posterior matrix, threshold and lag shorter than the series (longer lags raise IndexError)", "why_tests_cant": "Diagonal indexing over all sizes and lags.", "anchors": ["kats/detectors/bocpd.py: _BayesOnlineChangePoint._construct_output", "kats/detectors/bocpd.py: _BayesOnlineChangePoint._calc_agg_cppprob", "kats/detectors/bocpd.py: BOCPDetector.detector"]}
{"id": "C32", "title": "get_run_length_matrix returns the entire posterior", "statement": "After detector() the run-length matrix returned to the user has rows that sum to 1.", "quantifier": "for every series and both values of agg_cp", "why_tests_cant": "In-place edits of a shared array only show when outputs are combined.", "anchors": ["kats/detectors/bocpd.py: BOCPDetector.get_run_length_matrix", "kats/detectors/bocpd.py: _BayesOnlineChangePoint._calc_agg_cppprob"]}
{"id": "C33", "title": "CUSUM changepoint iteration stays in range and reports stability truthfully", "statement": "The changepoint index found by the CUSUM iteration always satisfies 0 <= index <= len-2 (and >= 1 after an iteration step) so both segments are non-empty; if the result is flagged stable it is a fixed point of the re-estimation step; the search does at most max_iter steps.", "quantifier": "for every series of length >= 3, both directions and every max_iter", "why_tests_cant": "All trajectories of the iteration.", "anchors": ["kats/detectors/cusum_detection.py: CUSUMDetector._get_change_point"]}
{"id": "C34", "title": "Vectorised CUSUM agrees with the univariate detector", "statement": "Running the vectorised detector on a multivariate series gives, for each column, the same changepoint as running the univariate detector on that column alone.", "quantifier": "for every matrix of columns, both directions, every max_iter", "why_tests_cant": "Columns converge at different steps; agreement must hold for all combinations.", "anchors": ["kats/detectors/cusum_detection.py: VectorizedCUSUMDetector", "kats/detectors/cusum_detection.py: CUSUMDetector._get_change_point"]}
{"id": "C35", "title": "CUSUM model state stays well formed over any stream", "statement": "After any sequence of fit steps at most 10 changepoints are remembered, in non-decreasing detection order; an alert is on only if a direction and at least one changepoint are recorded; an alert ends when the mean is back to normal or after the retention period.", "quantifier": "for every stream of data chunks", "why_tests_cant": "Invariant over unbounded operation histories.", "anchors": ["kats/detectors/cusum_model.py: CUSUMDetectorModel._fit", "kats/detectors/cusum_model.py: CUSUMDetectorModel._set_alert_on", "kats/detectors/cusum_model.py: CUSUMDetectorModel._set_alert_off", "kats/detectors/cusum_model.py: CUSUMDetectorModel._if_normal"]}
{"id": "C36", "title": "CUSUM model reports exactly one score per data point", "statement": "fit_predict returns a score series with the length and times of the input data: the step windows tile the data without gaps or overlaps.", "quantifier": "for every data length, history, step and scan window accepted by the validation", "why_tests_cant": "Tiling must hold for every alignment of windows and timestamps.", "anchors": ["kats/detectors/cusum_model.py: CUSUMDetectorModel.fit_predict", "kats/detectors/cusum_model.py: CUSUMDetectorModel._predict"]}
{"id": "C37", "title": "A serialized detector model restores to an equal model", "statement": "For CUSUMDetectorModel, StatSigDetectorModel, RollingStatsModel and BocpdDetectorModel, constructing from serialize() output gives a model with the same configuration.", "quantifier": "for every configuration", "why_tests_cant": "All combinations of configuration flags.", "anchors": ["kats/detectors/cusum_model.py: CUSUMDetectorModel.serialize", "kats/detectors/stat_sig_detector.py: StatSigDetectorModel.serialize", "kats/detectors/rolling_stats_model.py: RollingStatsModel.__init__", "kats/detectors/bocpd_model.py: BocpdDetectorModel.serialize"]}
{"id": "C38", "title": "Splitting a long series into chunks and joining the scores is lossless", "statement": "In the big-data path of StatSigDetectorModel every data point is scored from exactly the window of preceding points it would have in the unsplit series, and joining gives one score per data point in order.", "quantifier": "for every series length, chunk length and window length", "why_tests_cant": "Chunk boundary arithmetic for all residues, including exact multiples.", "anchors": ["kats/detectors/stat_sig_detector.py: StatSigDetectorModel._reorganize_big_data", "kats/detectors/stat_sig_detector.py: StatSigDetectorModel._reorganize_back"]}
{"id": "C39", "title": "Detectors do not modify the caller's history", "statement": "fit_predict(data, historical_data) leaves historical_data unchanged.", "quantifier": "for every data and history, for the StatSig, RollingStats, Interval, Bocpd and CUSUM models", "why_tests_cant": "Aliasing effects are invisible to tests of return values.", "anchors": ["kats/detectors/stat_sig_detector.py: StatSigDetectorModel.fit_predict", "kats/detectors/rolling_stats_model.py: RollingStatsModel.fit_predict", "kats/detectors/interval_detector.py: IntervalDetectorModel.fit_predict", "kats/detectors/bocpd_model.py: BocpdDetectorModel.fit_predict", "kats/detectors/cusum_model.py: CUSUMDetectorModel.fit_predict"]}
{"id": "C40", "title": "Rolling statistics score each point from exactly its window", "statement": "Point-based RollingStatsModel gives one score per new point; score i is the statistic of the point and the rolling_window points before it, or rolling_window-1 for IQR and MAD (padded with missing values at the start if expanding windows are allowed); too little history is rejected otherwise; the model gives the same answer when called again.", "quantifier": "for every series, window and statistic", "why_tests_cant": "Sliding windows over all lengths and repeated calls.", "anchors": ["kats/detectors/rolling_stats_model.py: RollingStatsModel._point_based_vectorized_data", "kats/detectors/rolling_stats_model.py: RollingStatsModel._fit_predict_point_based", "kats/detectors/rolling_stats_model.py: RollingStatsModel.fit_predict"]}
{"id": "C41", "title": "Post-processed anomaly intervals cover exactly the alert points", "statement": "The reported intervals are ordered and disjoint, each starts at an alert point whose predecessor is no alert, ends at the first following non-alert point (or the last point), and every alert point except an alert on the very last point lies in one.", "quantifier": "for every alert sequence", "why_tests_cant": "All boolean sequences.", "anchors": ["kats/detectors/anomaly_postprocessing.py: AnomalyPostProcessHandler._get_anomaly_intervals_prelim", "kats/detectors/anomaly_postprocessing.py: AnomalyPostProcessHandler._start_alert_function", "kats/detectors/anomaly_postprocessing.py: AnomalyPostProcessHandler._crossed_threshold_df"]}
{"id": "C42", "title": "Confidence score metrics of a change are coherent", "statement": "PercentageChange: perc_change is (ratio-1)*100, direction is up/down/flat by its sign, stat_sig holds exactly when 1 is outside the confidence interval, the interval is symmetric around the ratio, and the score is 0 whenever |perc_change| < min_perc_change.", "quantifier": "for all intervals of data with finite statistics", "why_tests_cant": "Continuum of values and sign cases.", "anchors": ["kats/detectors/detector_consts.py: PercentageChange"]}
{"id": "C43", "title": "AnomalyResponse sliding window keeps its length and aligned times", "statement": "Any sequence of update calls keeps all component series at their initial length with identical times, holding the most recent points; get_last_n(n) returns the last n points of every component.", "quantifier": "for every sequence of updates and every n", "why_tests_cant": "Invariant over operation histories.", "anchors": ["kats/detectors/detector_consts.py: AnomalyResponse"]}
{"id": "C44", "title": "Weighted-average ensemble is a convex combination", "statement": "The ensemble weights are non-negative, sum to 1, smaller backtest error gives at least as large a weight, and each forecast lies between the smallest and largest base forecast.", "quantifier": "for every number of models and every list of backtest errors", "why_tests_cant": "Inequalities over all error vectors, including negative errors from MAPE.", "anchors": ["kats/models/ensemble/weighted_avg_ensemble.py: WeightedAvgEnsemble", "kats/models/ensemble/ensemble.py: BaseEnsemble"]}
{"id": "C45", "title": "Median ensemble lies between base forecasts and ignores model order", "statement": "Each median-ensemble forecast lies between the smallest and largest base forecast at that step and does not change when the models are listed in another order.", "quantifier": "for every number of models >= 1 and every horizon", "why_tests_cant": "All permutations and values.", "anchors": ["kats/models/ensemble/median_ensemble.py: MedianEnsembleModel"]}
{"id": "C46", "title": "Hierarchical forecasts are coherent across levels", "statement": "For every reconciliation method, the forecast of level k at block j equals the sum of the k level-1 forecasts of that block, and level k gets steps//k values.", "quantifier": "for every set of levels, number of steps and base forecasts", "why_tests_cant": "All level sets and lengths.", "anchors": ["kats/models/reconciliation/thm.py: TemporalHierarchicalModel"]}
{"id": "C47", "title": "Reconciliation leaves coherent forecasts unchanged and is idempotent", "statement": "If the base forecasts are already coherent, the structural/weighted projection returns them unchanged.", "quantifier": "for every level set and every positive weight matrix", "why_tests_cant": "Linear algebra identity in all dimensions.", "anchors": ["kats/models/reconciliation/thm.py: TemporalHierarchicalModel._predict", "kats/models/reconciliation/thm.py: TemporalHierarchicalModel.get_S"]}
{"id": "C48", "title": "Padding of base forecasts does not influence reconciled output", "statement": "Values invented to fill the last incomplete period of a base forecast do not influence any forecast returned to the user.", "quantifier": "for every level set and number of steps", "why_tests_cant": "Depends on remainders of steps modulo the period.", "anchors": ["kats/models/reconciliation/thm.py: TemporalHierarchicalModel._predict_origin"]}
{"id": "C49", "title": "Seasonal-naive heuristic repeats the last period", "statement": "SimpleHeuristicModel with method last forecasts step i with the i-th of the last `steps` values; mean/median/percentile use all values at the same phase; all forecasts lie within the range of the history; any steps >= 1 is supported.", "quantifier": "for every series and every number of steps", "why_tests_cant": "Reshape arithmetic for all lengths and steps.", "anchors": ["kats/models/simple_heuristic_model.py: SimpleHeuristicModel.predict"]}
{"id": "C50", "title": "rename_columns_by_prefix renames exactly the matching columns", "statement": "On success every prefix matched exactly one non-time column and only those columns are renamed, order and all other names are preserved, and column names stay distinct; otherwise ValueError.", "quantifier": "for every list of column names and every prefix map", "why_tests_cant": "All string sets.", "anchors": ["kats/utils/dataframe_utils.py: rename_columns_by_prefix"]}
{"id": "C51", "title": "Generic backtester summary is an average of the available fold scores", "statement": "GenericBacktester._summarize returns for every metric the average (or test-size weighted average) of the scores of the folds; failed folds count with error_score, NaN scores are left out, and the summary lies within the range of the available scores.", "quantifier": "for every list of folds, any subset of which failed or has NaN scores", "why_tests_cant": "All subsets of failing folds.", "anchors": ["kats/utils/backtesters.py: GenericBacktester._summarize", "kats/utils/backtesters.py: GenericBacktester._get_fold_errors"]}
{"id": "C52", "title": "Core metrics are scalar two-argument metrics and all metrics have metadata", "statement": "core_metric(name) returns a metric that gives one number when called with (y_true, y_pred), unknown names raise ValueError, and inspect(name) knows every registered metric.", "quantifier": "for every name", "why_tests_cant": "The table is maintained by hand in two files; tests sample a few names.", "anchors": ["kats/metrics/metrics.py: core_metric", "kats/metrics/metrics.py: metric", "kats/metrics/metadata.py: inspect"]}
{"id": "C53", "title": "Missing values are ignored by the metrics", "statement": "Every pointwise-mean metric of arrays with NaN equals the metric of the arrays restricted to the positions where both values are present; weighted means stay within the range of the available errors.", "quantifier": "for all arrays with any pattern of missing values", "why_tests_cant": "All patterns of NaN positions.", "anchors": ["kats/metrics/metrics.py: _safe_divide", "kats/metrics/metrics.py: mean_absolute_percentage_error", "kats/metrics/metrics.py: mean_squared_error", "kats/metrics/metrics.py: mean_absolute_error"]}
{"id": "C54", "title": "Rolling coverage gives one window mean per point", "statement": "mult_coverage with a rolling window returns one rate per point, the mean of the coverage indicators in a window around the point.", "quantifier": "for every array length and window length", "why_tests_cant": "Edge behaviour of the convolution for all lengths.", "anchors": ["kats/metrics/metrics.py: mult_coverage", "kats/metrics/metrics.py: mult_interval_score"]}
{"id": "C55", "title": "MASE and tracking signal are normalised correctly", "statement": "MASE equals MAE over the mean absolute step of the true series, is >= 0 and 0 only on a perfect forecast; the tracking signal is the sum of errors over MAE and within [-n, n].", "quantifier": "for all finite arrays of equal length for which the value is defined", "why_tests_cant": "Universally quantified inequality.", "anchors": ["kats/metrics/metrics.py: mean_absolute_scaled_error", "kats/metrics/metrics.py: tracking_signal"]}
{"id": "C56", "title": "An interval detector leaves the data it is given unchanged", "statement": "fit_predict(data) leaves the caller's data object unchanged, so that a second identical call computes the same test statistics.", "quantifier": "for every data set, variance estimator and detector state", "why_tests_cant": "Existing tests build a fresh object per call.", "anchors": ["kats/detectors/interval_detector.py: TwoSampleIntervalDetectorModel._absolute_difference_test_statistic", "kats/detectors/interval_detector.py: TwoSampleIntervalDetectorModel._relative_difference_test_statistic", "kats/detectors/interval_detector.py: IntervalDetectorModel.fit_predict"]}
{"id": "C57", "title": "Automatic duration bounds the global type-I error", "statement": "With automatic duration, testing every point at the corrected alpha and requiring a run of the chosen duration has a global type-I error of at most alpha*(1+r_tol).", "quantifier": "for every alpha in [0,1], r_tol >= 0 and series length", "why_tests_cant": "Requires the exact error probability for all lengths.", "anchors": ["kats/detectors/interval_detector.py: IntervalDetectorModel._get_lowest_m", "kats/detectors/interval_detector.py: IntervalDetectorModel._get_critical_value"]}
{"id": "C58", "title": "The reported significance agrees with the rejection decision", "statement": "A point is rejected exactly when its reported stat_sig is at most the corrected alpha.", "quantifier": "for every test statistic, corrected alpha in (0,1) and test type", "why_tests_cant": "Universally quantified over reals.", "anchors": ["kats/detectors/interval_detector.py: TwoSampleIntervalDetectorModel._absolute_difference_test_statistic", "kats/detectors/interval_detector.py: IntervalDetectorModel._get_test_decision", "kats/detectors/interval_detector.py: IntervalDetectorModel._get_critical_value"]}
{"id": "C59", "title": "The normal predictive model uses the conjugate posterior of the run", "statement": "For every run length r, the normal model predicts the next point with mean m and variance 1/q + 1/known_prec, where N(m,1/q) is the posterior of the level given the prior N(mean_prior, 1/mean_prec_prior) and exactly the last r+1 points.", "quantifier": "for every series, prior mean, prior precision, known precision, time and run length", "why_tests_cant": "Existing tests only check that changepoints are found; buffers grow backwards for every length.", "anchors": ["kats/detectors/bocpd.py: _NormalKnownPrec.__init__", "kats/detectors/bocpd.py: _NormalKnownPrec.update_sufficient_stats", "kats/detectors/bocpd.py: _NormalKnownPrec.pred_prob"]}
{"id": "C60", "title": "The Poisson predictive model uses the exact Gamma posterior of the run", "statement": "For every run length r, the Poisson model predicts the next point with the negative binomial of the Gamma posterior with shape alpha plus the sum of the last r+1 points and rate beta + r + 1.", "quantifier": "for every series, prior and run length", "why_tests_cant": "Running sums over all suffixes of every series.", "anchors": ["kats/detectors/bocpd.py: _PoissonProcessModel.update_sufficient_stats", "kats/detectors/bocpd.py: _PoissonProcessModel.pred_prob"]}
{"id": "C61", "title": "The run-length posterior scores every point within its own segment", "statement": "The run-length posterior is the textbook posterior over segmentations: a point that starts a segment is scored by the prior predictive, every other point given the earlier points of its own segment.", "quantifier": "for every density family, series and prior", "why_tests_cant": "Needs the exact posterior of an exponentially large set.", "anchors": ["kats/detectors/bocpd.py: _BayesOnlineChangePoint._find_posterior"]}
{"id": "C62", "title": "The posterior predictive is the log probability of the series", "statement": "get_posterior_predictive returns the sum over t of log P(x_{t+1} | x_1..x_t), and for several series the sum over the series.", "quantifier": "for every series, set of series and prior", "why_tests_cant": "An identity between a running sum and a ratio of evidences.", "anchors": ["kats/detectors/bocpd.py: _BayesOnlineChangePoint._find_posterior", "kats/detectors/bocpd.py: _BayesOnlineChangePoint.get_posterior_predictive"]}
{"id": "C63", "title": "Grouping changepoints by series loses and invents nothing", "statement": "group_changepoints_by_timeseries gives every series of the data exactly its own changepoints, in order, with an empty list for series without any; a changepoint of an unknown series raises KeyError.", "quantifier": "for every list of changepoints and distinct series names", "why_tests_cant": "Unbounded lists and names.", "anchors": ["kats/detectors/bocpd.py: BOCPDetector.group_changepoints_by_timeseries"]}
{"id": "C64", "title": "A converged changepoint is flagged stable", "statement": "The stability flag is on exactly when the changepoint returned was reproduced by the last re-estimation step, in the univariate and the vectorised detector alike.", "quantifier": "for every series of length >= 3, direction, start point and max_iter", "why_tests_cant": "Only fails when convergence takes exactly max_iter steps.", "anchors": ["kats/detectors/cusum_detection.py: CUSUMDetector._get_change_point", "kats/detectors/cusum_detection.py: VectorizedCUSUMDetector._get_change_point_multiple_ts"]}
{"id": "C65", "title": "A re-estimation step never worsens the two-segment fit", "statement": "Moving the changepoint to the extreme of the cumulative sum around the midpoint of the two means does not increase the within-segment sum of squares and keeps the means ordered in the searched direction.", "quantifier": "for every series, direction and changepoint", "why_tests_cant": "An inequality between sums of squares for all series.", "anchors": ["kats/detectors/cusum_detection.py: CUSUMDetector._get_change_point"]}
{"id": "C66", "title": "The CUSUM likelihood ratio is a function of explained variance", "statement": "The log likelihood ratio is never negative, is larger for a split with smaller residual sum of squares, and does not change when the series is shifted or rescaled.", "quantifier": "for every series and changepoint, every affine map", "why_tests_cant": "A closed form over the reals with logarithms and square roots.", "anchors": ["kats/detectors/cusum_detection.py: CUSUMDetector._get_llr", "kats/detectors/cusum_detection.py: CUSUMDetector._log_llr"]}
{"id": "C67", "title": "The multivariate likelihood ratio measures the size of the change", "statement": "The multivariate log likelihood ratio is non-negative and grows with the Mahalanobis distance of the segment means, wherever the change lies.", "quantifier": "for every dimension, series, covariance and changepoint", "why_tests_cant": "Linear algebra identity in all dimensions; tests only have changes in the second half.", "anchors": ["kats/detectors/cusum_detection.py: MultiCUSUMDetector._get_llr", "kats/detectors/cusum_detection.py: MultiCUSUMDetector._log_llr_multi"]}
{"id": "C68", "title": "CUSUM reports exactly the changes that pass every test", "statement": "A reported change exceeds the significance quantile and the minimum absolute change in its direction, and more than delta_std_ratio deviations; an increase and a decrease reported for one series are at different points; with return_all_changepoints there is one changepoint per direction.", "quantifier": "for every series and argument values", "why_tests_cant": "All combinations of tests and directions.", "anchors": ["kats/detectors/cusum_detection.py: CUSUMDetector.detector", "kats/detectors/cusum_detection.py: CUSUMDetector._convert_cusum_changepoints"]}
{"id": "C69", "title": "The remaining scalar metrics equal their definitions", "statement": "Percentage, symmetric, exceedance and probability-space metrics equal the textbook mean over the available pairs, with the sign, the strictness and the zero-denominator convention the documentation gives.", "quantifier": "for every pair of arrays of equal length, weights and thresholds", "why_tests_cant": "Sign and strictness conventions differ only at ties and zeros, which samples seldom contain.", "anchors": ["kats/metrics/metrics.py: mean_percentage_error", "kats/metrics/metrics.py: symmetric_bias", "kats/metrics/metrics.py: frequency_exceeds_relative_threshold"]}
{"id": "C70", "title": "The two-sample statistics are antisymmetric in the groups", "statement": "Swapping test and control negates the difference and the test statistic and keeps its variance; the statistic is the Welch statistic of the two raw samples, with the variance of the configured distribution.", "quantifier": "for every pair of samples", "why_tests_cant": "Algebraic identity over all samples.", "anchors": ["kats/detectors/interval_detector.py: TwoSampleIntervalDetectorModel._get_test_statistic", "kats/detectors/interval_detector.py: TwoSampleRealValuedIntervalDetectorModel._get_variance"]}
{"id": "C71", "title": "The CUSUM model's smoothed scores are trailing means", "statement": "Each smoothed point is the mean of the last window points including itself, and the scores reported for the data points are those of the data points.", "quantifier": "for every series and window", "why_tests_cant": "Alignment holds for all window/series length combinations or not at all.", "anchors": ["kats/detectors/cusum_model.py: CUSUMDetectorModel.fit_predict"]}
{"id": "C72", "title": "Combining or updating an anomaly response is all or nothing", "statement": "extend rejects a response with other components before changing anything and otherwise extends every component; a call of update or extend that raises leaves the response unchanged.", "quantifier": "for every pair of responses and every update, valid or not", "why_tests_cant": "Failure in the middle of a multi-part mutation.", "anchors": ["kats/detectors/detector_consts.py: AnomalyResponse.extend", "kats/detectors/detector_consts.py: AnomalyResponse.update"]}
{"id": "C73", "title": "Comparing data with themselves shows no significant change", "statement": "When the current and the previous interval hold the same values, perc_change and score are 0 and stat_sig is False.", "quantifier": "for every data set", "why_tests_cant": "A degenerate interval; float noise hides it in samples.", "anchors": ["kats/detectors/detector_consts.py: PercentageChange.stat_sig", "kats/detectors/detector_consts.py: PercentageChange._delta_method"]}
{"id": "C74", "title": "The variance behind the ratio's confidence interval is a variance", "statement": "The delta-method variance of the ratio of means is non-negative for every pair of samples, and for equally long samples it is the squared standard error of the residual of the ratio.", "quantifier": "for every pair of samples with at least two points", "why_tests_cant": "Inequality over all samples.", "anchors": ["kats/detectors/detector_consts.py: PercentageChange._delta_method", "kats/detectors/detector_consts.py: PercentageChange._calc_cov"]}
{"id": "C75", "title": "The score of a change is Student's two-sample t statistic", "statement": "The score is the pooled two-sample t statistic and p_value its two-sided tail; it changes sign when current and previous are exchanged, is unaffected by shifting and rescaling the data, and exceeds the critical value exactly when the current mean leaves [ci_lower, ci_upper].", "quantifier": "for every pair of samples with positive pooled variance", "why_tests_cant": "Algebraic identities over all samples.", "anchors": ["kats/detectors/detector_consts.py: PercentageChange.score", "kats/detectors/detector_consts.py: PercentageChange._pooled_stddev", "kats/detectors/detector_consts.py: PercentageChange._ttest_manual", "kats/detectors/detector_consts.py: PercentageChange.ci_upper"]}
{"id": "C76", "title": "A changepoint interval holds the points in its time range and their spikes", "statement": "After setting and extending, data are exactly the given points with start_time <= time < end_time in order; spikes are exactly the current points at least spike_std_threshold standard deviations above the mean, at most (n-1)/threshold^2 of them.", "quantifier": "for every sequence of set, extend and query operations", "why_tests_cant": "Invariant over operation histories; a caching effect.", "anchors": ["kats/detectors/detector_consts.py: ChangePointInterval.data", "kats/detectors/detector_consts.py: ChangePointInterval.extend_data", "kats/detectors/detector_consts.py: ChangePointInterval.spikes"]}
{"id": "C77", "title": "Severity figures are coherent", "statement": "Every alert interval has one severity row: duration = end - start, average height = mean excess over the threshold, volume = average height times duration, never negative and positive when every score of the window must cross; the overall figures are count, sums, duration-weighted height and largest magnitude, also when there is no alert.", "quantifier": "for every score series at increasing times and every configuration", "why_tests_cant": "Arithmetic identities over all score series and windows.", "anchors": ["kats/detectors/anomaly_postprocessing.py: AnomalyPostProcessHandler.get_severity_score_df", "kats/detectors/anomaly_postprocessing.py: AnomalyPostProcessHandler.get_overall_severity_score", "kats/detectors/anomaly_postprocessing.py: AnomalyPostProcessHandler._get_anomaly_intervals_prelim"]}
{"id": "C78", "title": "Forecast dates are the step dates after the last date of the data", "statement": "predict(steps) returns exactly steps rows (plus the history when asked), at strictly increasing dates after every date of the data, the i-th being the i-th date of the frequency; ensembles return the dates of their members.", "quantifier": "for every data set, number of steps and frequency", "why_tests_cant": "Calendar frequencies anchored off the last date and steps of every size.", "anchors": ["kats/models/simple_heuristic_model.py: SimpleHeuristicModel.predict", "kats/models/ensemble/median_ensemble.py: MedianEnsembleModel.predict", "kats/models/ensemble/weighted_avg_ensemble.py: WeightedAvgEnsemble.predict"]}
{"id": "C79", "title": "Adding the season back continues it in phase and keeps bounds around the forecast", "statement": "The seasonal component is continued by repeating its last period in phase, undoing exactly what deseasonalize removed, and a base model's bounds around its forecast stay around it.", "quantifier": "for every seasonal component, period, number of steps and base forecast", "why_tests_cant": "Off-by-one phase errors only show for step counts and lengths that are not multiples of the period.", "anchors": ["kats/models/ensemble/kats_ensemble.py: KatsEnsemble.deseasonalize", "kats/models/ensemble/kats_ensemble.py: KatsEnsemble.reseasonalize"]}
{"id": "C80", "title": "fit followed by predict gives the same forecasts and weights as forecast", "statement": "For the same data and parameters fit().predict(steps) and forecast(steps) hold the same base forecasts and the same weights, keyed alike.", "quantifier": "for every set of base models, data set and number of steps", "why_tests_cant": "Two separately written paths must agree on every input.", "anchors": ["kats/models/ensemble/kats_ensemble.py: KatsEnsemble.fit", "kats/models/ensemble/kats_ensemble.py: KatsEnsemble.predict", "kats/models/ensemble/kats_ensemble.py: KatsEnsemble.forecast"]}
{"id": "C81", "title": "The aggregated interval contains the aggregated forecast", "statement": "When every base model's interval contains its forecast, the aggregated lower and upper bounds contain the aggregated forecast, for median and weighted aggregation.", "quantifier": "for every set of base forecasts and non-negative weights", "why_tests_cant": "Inequality over all base forecasts, including zero bounds.", "anchors": ["kats/models/ensemble/kats_ensemble.py: KatsEnsemble.aggregate", "kats/models/ensemble/kats_ensemble.py: KatsEnsemble.clean_dummy_CI"]}
{"id": "C82", "title": "Reconciled temporal forecasts are the closest coherent forecasts", "statement": "For every weight-based method of TemporalHierarchicalModel the weights are symmetric positive definite, and in every period the reconciled forecasts are the coherent forecasts closest to the base forecasts in the distance given by these weights; no forecast is NaN if base forecasts and residuals contain no NaN.", "quantifier": "all hierarchies, residuals, base forecasts, periods and competing coherent forecasts", "why_tests_cant": "Optimality quantifies over all coherent forecasts; tests compare with stored numbers only.", "anchors": ["kats/models/reconciliation/thm.py:255-308", "kats/models/reconciliation/thm.py:411-426"]}
{"id": "C83", "title": "Aggregated levels and forecasts carry the right times", "statement": "A series aggregated to level k consists of the sums of blocks of k rows counted from the end, each stamped with the time of its last row, and the forecasts of level k are stamped with the time of the last level-1 forecast they contain; every documented kind of frequency is accepted.", "quantifier": "all series, levels, steps, frequencies", "why_tests_cant": "Alignment must hold for every length that is not a multiple of the level and for every pair of levels.", "anchors": ["kats/models/reconciliation/base_models.py:113-146", "kats/models/reconciliation/thm.py:439-489"]}
{"id": "C84", "title": "median_validation reports only levels that deviate from the others", "statement": "median_validation returns distinct levels of the hierarchy, never more than half of them, and none if the forecasts of all levels agree.", "quantifier": "all hierarchies, forecasts, metrics and positive thresholds", "why_tests_cant": "Tests use one data set with an obviously bad level.", "anchors": ["kats/models/reconciliation/thm.py:491-534"]}
{"id": "C85", "title": "The residual matrix aligns all levels at the most recent period", "statement": "The residual matrix holds the largest number of complete periods that every level covers, column c holds residuals of the same period for all levels, counted from the end, and if the residuals are block sums of the level-1 residuals then every column is coherent.", "quantifier": "all hierarchies and residuals of any lengths", "why_tests_cant": "The lengths of the residuals of different models differ by arbitrary amounts.", "anchors": ["kats/models/reconciliation/thm.py:234-253"]}
{"id": "C86", "title": "Base models accepted by the constructor can be fitted", "statement": "If BaseTHModel and TemporalHierarchicalModel accept the base models and the series is at least as long as the largest level, fit succeeds.", "quantifier": "all lists of base models and all series lengths", "why_tests_cant": "The set of combinations of names, parameters, residuals and forecasts is open-ended.", "anchors": ["kats/models/reconciliation/base_models.py:57-87", "kats/models/reconciliation/thm.py:69-149"]}
{"id": "C87", "title": "StatSig windows are exact", "statement": "fit_predict of StatSigDetectorModel returns one row per data point; a point whose windows reach back before the first known point gets score 0, and every other point gets the comparison of the values in the n_test time units ending at it with those in the n_control units before them, history included.", "quantifier": "all series, histories, window sizes and time units", "why_tests_cant": "The windows move with every point and depend on the spacing of the series and on the cut between history and data.", "anchors": ["kats/detectors/stat_sig_detector.py:199-395", "kats/detectors/stat_sig_detector.py:671-777", "kats/detectors/stat_sig_detector.py:842-919"]}
{"id": "C88", "title": "StatSig is causal and does not depend on the cut between history and data", "statement": "The row of a point does not depend on later points, and a point gets the same row whether earlier points are passed as history or as data.", "quantifier": "all series and all cuts", "why_tests_cant": "All ways of cutting a stream into history and data.", "anchors": ["kats/detectors/stat_sig_detector.py:199-395", "kats/detectors/stat_sig_detector.py:671-777"]}
{"id": "C89", "title": "anomaly_scores_only gives the scores of the full computation", "statement": "With anomaly_scores_only=True, fit_predict returns the same scores as without it.", "quantifier": "all configurations and series", "why_tests_cant": "Two separate implementations must agree on all inputs.", "anchors": ["kats/detectors/stat_sig_detector.py:397-458", "kats/detectors/stat_sig_detector.py:199-395"]}
{"id": "C90", "title": "A StatSig model may be used again", "statement": "The result of a call of fit_predict does not depend on earlier calls on the same model.", "quantifier": "all pairs of calls", "why_tests_cant": "State kept between calls shows only in the second call, for series that differ from the first.", "anchors": ["kats/detectors/stat_sig_detector.py:199-260"]}
{"id": "C91", "title": "Rolling scores are the documented statistics", "statement": "The z-score is the distance of the point from the mean of the values before it in population standard deviations of those values, the modified z-scores use the median and the median absolute deviation or the interquartile range, percentiles and medians split the values as they should, missing values are left out, the scores do not depend on the unit of the data, and a jump after a constant history is not scored 0.", "quantifier": "for every window content, statistic and unit", "why_tests_cant": "Order statistics and missing values over all inputs.", "anchors": ["kats/detectors/rolling_stats_model.py: calculate_z_scores", "kats/detectors/rolling_stats_model.py: calculate_modified_z_scores_mad", "kats/detectors/rolling_stats_model.py: calculate_modified_z_scores_iqr", "kats/detectors/rolling_stats_model.py: calculate_iqr", "kats/detectors/rolling_stats_model.py: calculate_mad"]}
{"id": "C92", "title": "Time-based rolling statistics use the values in the time window", "statement": "With point_based=False every new point is scored, with the configured iqr_base, from the values whose time stamps lie in the rolling window that ends at the point, whether or not the series is regular.", "quantifier": "for every series, window length and statistic", "why_tests_cant": "Two code paths have to agree on all series.", "anchors": ["kats/detectors/rolling_stats_model.py: RollingStatsModel.fit_predict", "kats/detectors/rolling_stats_model.py: RollingStatsModel._check_window_sizes"]}
{"id": "C93", "title": "The IQR median deviation has the sign of the deviation", "statement": "calculate_iqr_median_deviation is 0 inside the band around the quartiles, positive above it and negative below it, and its size is the relative distance from the median.", "quantifier": "for every window content and iqr_base", "why_tests_cant": "Signs over all data, including negative data.", "anchors": ["kats/detectors/rolling_stats_model.py: calculate_iqr_median_deviation"]}
{"id": "C94", "title": "BOCPD detector models score the new points of the whole series", "statement": "BocpdDetectorModel.fit_predict returns one row per data point, whose score is the change probability that the detector gives to this point in history plus data; slow_drift selects the trend model; BocpdTrendDetectorModel uses its smoothing parameters and the history.", "quantifier": "for every data, history and configuration", "why_tests_cant": "All combinations of arguments and histories.", "anchors": ["kats/detectors/bocpd_model.py: BocpdDetectorModel.fit_predict", "kats/detectors/bocpd_model.py: BocpdTrendDetectorModel.fit_predict"]}
{"id": "C95", "title": "Dynamic time warping distance is the least alignment cost", "statement": "DTWDistance returns the square root of the least total squared difference over all monotone alignments of the two sequences within the Sakoe-Chiba band; it is zero for equal sequences, symmetric, and at most the Euclidean distance.", "quantifier": "all pairs of real sequences and all band widths", "why_tests_cant": "Tests check a few hand-computed pairs; optimality over exponentially many alignments, symmetry and the empty band of short windows are not sampled.", "anchors": ["kats/detectors/dtwcpd.py: DTWCPDDetector.DTWDistance"]}
{"id": "C96", "title": "LB_Keogh pruning never changes the closest subsequence", "statement": "For windows of the same length LB_Keogh never exceeds DTWDistance, so skipping candidates whose bound is not below the best distance so far gives the same closest subsequence as computing every distance.", "quantifier": "all windows of equal length of at least three points and all lists of candidates", "why_tests_cant": "A wrong bound only shows for the candidates whose pruning changes the minimum, which random tests rarely hit.", "anchors": ["kats/detectors/dtwcpd.py: DTWCPDDetector.LB_Keogh", "kats/detectors/dtwcpd.py: DTWCPDDetector._calculate_distances_for_all_subsequences"]}
{"id": "C97", "title": "The DTW detector reports dissimilar subsequences", "statement": "The DTW detector examines every window at a multiple of the skip size that is not flat, compares it with the windows of the other series (or, if allowed, disjoint windows of the same series), picks for each series the window farthest from its closest match, and reports the series whose distance stands out above the others; it raises no error on accepted settings and may be run again.", "quantifier": "all multivariate series, window sizes, skip sizes and thresholds", "why_tests_cant": "Needs the exact quantifier structure (max over windows of min over candidates) and settings that tests do not use: short windows, negative values, repeated runs, series that are too similar.", "anchors": ["kats/detectors/dtwcpd.py: DTWCPDDetector.detector", "kats/detectors/dtwcpd.py: DTWCPDDetector._get_nonzero_subsequences", "kats/detectors/dtwcpd.py: DTWCPDDetector._find_subsequences_anomalies"]}
{"id": "C98", "title": "Percentiles are turned into two probability vectors on a common grid", "statement": "_percentile_to_prob turns two lists of percentile values into two probability vectors on the values of the list with more distinct values: each repeated value carries its number of occurrences over the length, the other list contributes increments of its interpolated distribution function, both have the same length, are non-negative and sum to one (or at most one), equal lists give equal vectors, and the roles of the lists are interchangeable.", "quantifier": "all pairs of non-decreasing lists of rationals of equal length of at least two", "why_tests_cant": "Tests compare a few vectors; repeated values, disjoint ranges and swapped arguments need the invariant over all lists.", "anchors": ["kats/detectors/distribution_distance_model.py: _merge_percentile", "kats/detectors/distribution_distance_model.py: _percentile_to_prob"]}
{"id": "C99", "title": "The distribution distance model scores each time against the distribution one window earlier", "statement": "fit_predict of DistributionDistanceModel gives every time of the data a score: the distance between the values at that time and those of the earliest point within one window before it, provided that point is more than 0.9 windows older, and zero when there is none.", "quantifier": "all histories and data with increasing times, all windows and all distances", "why_tests_cant": "Alignment by time windows over irregular histories, with padding at the start, is tested for regular series only.", "anchors": ["kats/detectors/distribution_distance_model.py: DistributionDistanceModel.fit_predict", "kats/detectors/distribution_distance_model.py: DistributionDistanceModel._distance_func"]}
{"id": "C100", "title": "The residual translator fits a density to the residuals it is told to use and predicts a probability for each row", "statement": "KDEResidualTranslator accepts exactly the fractions with 0 <= ignore_below_frac <= ignore_above_frac <= 1, computes residuals y - yhat (divided by the width of the band when one is given), ignores only the residuals outside the two quantiles (none, for fractions 0 and 1), leaves the arguments of the caller unchanged, and predicts for each row of the input a probability.", "quantifier": "all series of outcomes, predictions, bands and residuals, all fractions, all fitted bandwidths", "why_tests_cant": "Open inequalities at the extremes, missing values and densities above one do not show in tests on smooth random data.", "anchors": ["kats/detectors/residual_translation.py: KDEResidualTranslator.__init__", "kats/detectors/residual_translation.py: KDEResidualTranslator.fit", "kats/detectors/residual_translation.py: KDEResidualTranslator.predict_proba", "kats/detectors/residual_translation.py: KDEResidualTranslator._get_residual"]}
{"id": "C101", "title": "The robust statistical detector reports separated significant jumps of the smoothed series", "statement": "RobustStatDetector.detector reports points whose smoothed difference has a z-score with tail probability below the cutoff; the reported points are in order and further apart than the smoothing window, no significant point is lost without a reported one shortly before, the result does not depend on the origin, the scale or the sign of the values, and series without a change (constant, straight line) have no change points.", "quantifier": "all series, all smoothing windows, comparison windows and cutoffs, all decreasing tail functions", "why_tests_cant": "Boundary effects of back-filling and invariance laws concern all series; tests use a few step functions.", "anchors": ["kats/detectors/robust_stat_detection.py: RobustStatDetector.detector"]}
{"id": "C102", "title": "The hourly ratio detector examines the complete dates and reports those with unusual hourly profiles", "statement": "HourlyRatioDetector accepts hourly data, and finer data with an aggregation method; a date counts as complete if it has one value for each of the 24 hours, the others are reported as incomplete; the ratios of a complete date are its values over their total and sum to one; each weekday's complete dates are compared with their centre, and the anomalies are complete dates with p-value at most 0.01.", "quantifier": "all rows of times and values, all frequencies, aggregation methods and test routines", "why_tests_cant": "Repeated or surplus hours, missing weekdays and the normalisation of the centre need a statement over all inputs.", "anchors": ["kats/detectors/hourly_ratio_detection.py: HourlyRatioDetector._valid_frequency", "kats/detectors/hourly_ratio_detection.py: HourlyRatioDetector._preprocess", "kats/detectors/hourly_ratio_detection.py: HourlyRatioDetector._mahalanobis_test", "kats/detectors/hourly_ratio_detection.py: HourlyRatioDetector.detector"]}
{"id": "C103", "title": "The seasonality detectors report the base cycle lengths", "statement": "ACFDetector reports the significantly positive lags that are not multiples of smaller ones, independent of polynomial trends up to the order of differencing; FFTDetector reports the periods of the spectral peaks above the threshold that are not near multiples of a selected lower one, for any scale of the data.", "quantifier": "all series, all autocorrelation routines and spectra, all numbers of lags, differencing orders and thresholds", "why_tests_cant": "Divisibility chains, the highest frequency and the scale of the threshold are not reached by tests with one sine wave.", "anchors": ["kats/detectors/seasonality.py: ACFDetector._get_seasonality_length", "kats/detectors/seasonality.py: ACFDetector.detector", "kats/detectors/seasonality.py: FFTDetector.detector", "kats/detectors/seasonality.py: FFTDetector.get_fft", "kats/detectors/seasonality.py: FFTDetector.get_fft_peaks"]}
{"id": "C104", "title": "The outlier detector marks the points outside the fences around the quartiles of the residual and the remover clears them", "statement": "OutlierDetector marks in each metric exactly the points of the residual of the decomposition outside quartile minus or plus iqr_mult times the interquartile range; the marks do not depend on origin and scale of the data; Detector.remover makes exactly the marked points missing, or interpolates them linearly between their neighbours, and changes nothing else.", "quantifier": "all series of one or more metrics, all decompositions, all positive multipliers", "why_tests_cant": "Which points lie exactly on a fence, residuals of other origins and several metrics require statements over all series.", "anchors": ["kats/detectors/outlier.py: OutlierDetector.__clean_ts__", "kats/detectors/outlier.py: OutlierDetector.detector", "kats/detectors/detector.py: Detector.remover"]}
{"id": "C105", "title": "The Mann-Kendall detector tests each window and reports the trends above the threshold", "statement": "MKDetector.detector tests every complete window of window_size smoothed values (or, with training_days, the window at the last day) and reports the times whose window has a trend in the requested direction with |Tau| above the threshold; mirrored data give mirrored trends; seasonal means are removed over 7, 30 or 365 days.", "quantifier": "all series of one or more metrics, all trend tests and smoothers, all window sizes, thresholds, directions and seasons", "why_tests_cant": "Off-by-one errors at the first window, missing values and unused parameters do not show for a long monotone sample series.", "anchors": ["kats/detectors/trend_mk.py: MKDetector.__init__", "kats/detectors/trend_mk.py: MKDetector._remove_seasonality", "kats/detectors/trend_mk.py: MKDetector.runDetector", "kats/detectors/trend_mk.py: MKDetector.detector", "kats/detectors/trend_mk.py: MKDetector.get_MK_results"]}
{"id": "C106", "title": "The multivariate anomaly detector scores each time after the training by its Mahalanobis distance and reports the significant ones", "statement": "MultivariateAnomalyDetector accepts evenly spaced data, scores exactly the times after the first training duration from a model fitted to the cleaned rows before, with the Mahalanobis distance of the forecast errors, its chi-squared tail as p-value and the standardised error of each metric; get_anomaly_timepoints lists the times below the level and get_anomalous_metrics the metrics with the highest scores; cleaning replaces values with large z-scores by interpolation.", "quantifier": "all series of several metrics, all autoregressive models, all training durations, levels and numbers of metrics", "why_tests_cant": "The wrong scale of the p-value, the sign of the errors and one-sided cleaning produce plausible numbers in every sample.", "anchors": ["kats/detectors/outlier.py: MultivariateAnomalyDetector.__init__", "kats/detectors/outlier.py: MultivariateAnomalyDetector._clean_data", "kats/detectors/outlier.py: MultivariateAnomalyDetector._generate_forecast", "kats/detectors/outlier.py: MultivariateAnomalyDetector._calc_anomaly_scores", "kats/detectors/outlier.py: MultivariateAnomalyDetector.detector", "kats/detectors/outlier.py: MultivariateAnomalyDetector.get_anomaly_timepoints", "kats/detectors/outlier.py: MultivariateAnomalyDetector.get_anomalous_metrics"]}
{"id": "C107", "title": "The detector models of the outlier detectors answer for exactly the data given", "statement": "OutlierDetectorModel, StaticThresholdModel and MultivariateAnomalyDetectorModel: fit_predict(data, history) returns for each time of data the score which the detector computes for this time on history and data together, whatever was fitted before; it leaves the history of the caller unchanged, and a serialized model restores to an equal one.", "quantifier": "all data and histories, all sequences of calls, all detectors", "why_tests_cant": "Sequences of calls, aliasing and shifted rows are not visible in a single call with one sample.", "anchors": ["kats/detectors/outlier_detector.py: OutlierDetectorModel.fit", "kats/detectors/outlier_detector.py: OutlierDetectorModel.predict", "kats/detectors/outlier_detector.py: OutlierDetectorModel.fit_predict", "kats/detectors/threshold_detector.py: StaticThresholdModel.fit_predict", "kats/detectors/multivariate_detector.py: MultivariateAnomalyDetectorModel.fit", "kats/detectors/multivariate_detector.py: MultivariateAnomalyDetectorModel.predict", "kats/detectors/multivariate_detector.py: MultivariateAnomalyDetectorModel.serialize"]}
{"id": "C108", "title": "TsFeatures returns exactly the requested features", "statement": "A TsFeatures instance returns for every column each requested feature exactly once and nothing else: without selected_features the features of the groups that are on and not switched off, with selected_features the selected features and groups. A contradiction between selected_features and keyword arguments, or an unknown name, is a ValueError; the order of selected_features and other instances play no role.", "quantifier": "all selections, keyword arguments and sequences of constructed instances", "why_tests_cant": "The number of selections is exponential in about ninety names, and interference between instances is not visible in a test with one instance.", "anchors": ["kats/tsfeatures/tsfeatures.py: TsFeatures.__init__", "kats/tsfeatures/tsfeatures.py: TsFeatures._set_defaults", "kats/tsfeatures/tsfeatures.py: TsFeatures._compile_methods", "kats/tsfeatures/tsfeatures.py: TsFeatures.transform", "kats/tsfeatures/tsfeatures.py: TsFeatures._transform_1d"]}
{"id": "C109", "title": "The statistics of TsFeatures measure what their names say", "statement": "Lumpiness and stability are the variance of the variances and of the means of consecutive nonempty windows of the given size; flat spots is the longest run of equal values within a segment; std1st_der is zero exactly on lines; crossing points counts the steps across the median; binarize_mean is the fraction above the mean; histogram_mode is the left edge of a fullest bin; linearity is the squared correlation with time, between 0 and 1 and 1 exactly on lines; the spectral entropy lies between 0 and 1.", "quantifier": "all series, window sizes, numbers of bins and periodograms", "why_tests_cant": "Universal bounds, invariances and characterisations of extreme cases need all inputs; ties and touching values are rare in samples.", "anchors": ["kats/tsfeatures/tsfeatures.py: TsFeatures.get_lumpiness", "kats/tsfeatures/tsfeatures.py: TsFeatures.get_stability", "kats/tsfeatures/tsfeatures.py: TsFeatures.get_flat_spots", "kats/tsfeatures/tsfeatures.py: TsFeatures.get_std1st_der", "kats/tsfeatures/tsfeatures.py: TsFeatures.get_crossing_points", "kats/tsfeatures/tsfeatures.py: TsFeatures.get_binarize_mean", "kats/tsfeatures/tsfeatures.py: TsFeatures.get_histogram_mode", "kats/tsfeatures/tsfeatures.py: TsFeatures.get_linearity", "kats/tsfeatures/tsfeatures.py: TsFeatures.get_spectral_entropy"]}
{"id": "C110", "title": "The structure features of TsFeatures follow their definitions", "statement": "The strengths of trend and seasonality lie between 0 and 1 and are 1 exactly for a constant remainder; spikiness is the variance of the leave-one-out variances; peak and trough are the first extremes of a period; the level shift is the largest difference of the means of consecutive windows, wherever two windows exist; the autocorrelation features are the autocorrelations at the stated lags, defined whenever the autocorrelation is; firstmin_ac and firstzero_ac are the lags of the first minimum and of the first zero crossing of the autocorrelation function.", "quantifier": "all series, decompositions, windows, lags and periods", "why_tests_cant": "Boundary lengths, exactly linear series and autocorrelations that start negative are seldom sampled; the identities are over all series.", "anchors": ["kats/tsfeatures/tsfeatures.py: TsFeatures.get_stl_features", "kats/tsfeatures/tsfeatures.py: TsFeatures.get_level_shift_features", "kats/tsfeatures/tsfeatures.py: TsFeatures.get_acfpacf_features", "kats/tsfeatures/tsfeatures.py: TsFeatures.get_acf_features", "kats/tsfeatures/tsfeatures.py: TsFeatures.get_pacf_features", "kats/tsfeatures/tsfeatures.py: TsFeatures._yule_walker_determinant", "kats/tsfeatures/tsfeatures.py: TsFeatures.get_special_ac"]}
{"id": "C111", "title": "The nowcasting features of TsFeatures are the documented averages", "statement": "_ewma returns the documented exponentially weighted mean of the values so far; the rate of change, momentum, moving average and lag are means over steps of the given window and are defined whenever the series is longer than the window; the MACD features are invariant under shifts and scale with the series.", "quantifier": "all series, windows and spans", "why_tests_cant": "The failure of the averages takes the other features with it only for certain combinations of length and spans.", "anchors": ["kats/tsfeatures/tsfeatures.py: TsFeatures._ewma", "kats/tsfeatures/tsfeatures.py: TsFeatures._get_nowcasting_np", "kats/tsfeatures/tsfeatures.py: TsFeatures.get_nowcasting"]}
{"id": "C112", "title": "The time, calendar and Fourier features follow their documentation", "statement": "The counts of get_time are the numbers of different years, months, weeks and days; they are consistent with each other, the length is the number of whole days between the first and the last time, and the weekday frequencies add up to one; minuteofday counts the minutes since midnight; the columns of TsFourierFeatures are the sines and cosines of the harmonics they are named after, with the stated period, and only positive offsets and periods are accepted.", "quantifier": "all series of times, calendars, periods, orders and offsets", "why_tests_cant": "The wrong count of days appears only for series over more than a month, and the order of the columns depends on all the periods and orders together.", "anchors": ["kats/tsfeatures/tsfeatures.py: TsFeatures.get_time", "kats/tsfeatures/tsfeatures.py: TsCalenderFeatures.get_features", "kats/tsfeatures/tsfeatures.py: TsFourierFeatures.__init__", "kats/tsfeatures/tsfeatures.py: TsFourierFeatures._get_columns", "kats/tsfeatures/tsfeatures.py: TsFourierFeatures.get_features", "kats/tsfeatures/tsfeatures.py: TsFourierFeatures._compute_fourier_order"]}
{"id": "C113", "title": "The features taken from detectors and decompositions summarise them as documented", "statement": "The CUSUM features describe one changepoint, counted 1 or 0, and are zero without one; the robust, BOCPD, outlier and trend features are the numbers of points found and the means and maxima of their scores, with the trend intensity above the threshold; the seasonality magnitude is the difference of the 95th and 5th percentiles of the seasonal component and the trend magnitude the slope of a simple linear regression on the trend component.", "quantifier": "all series, detector results and decompositions", "why_tests_cant": "A second changepoint, rounding to zero and the missing intercept need particular series; the relations between features hold for all results of the detectors.", "anchors": ["kats/tsfeatures/tsfeatures.py: TsFeatures.get_cusum_detector", "kats/tsfeatures/tsfeatures.py: TsFeatures.get_robust_stat_detector", "kats/tsfeatures/tsfeatures.py: TsFeatures.get_bocp_detector", "kats/tsfeatures/tsfeatures.py: TsFeatures.get_outlier_detector", "kats/tsfeatures/tsfeatures.py: TsFeatures.get_trend_detector", "kats/tsfeatures/tsfeatures.py: TsFeatures.get_seasonalities"]}
{"id": "C114", "title": "Empirical confidence intervals cover with the requested level", "statement": "EmpConfidenceInt takes training and test percentages in (0, 100] and a positive number of sliding steps; the standard error of a horizon is the standard deviation of the errors of all folds at that horizon; get_lr fits the least squares line to them; the interval at horizon h lies symmetrically about the forecast, has the requested confidence level, contains the forecast and does not narrow.", "quantifier": "all parameters, fold errors and forecasts", "why_tests_cant": "The level of the interval is a statement about a distribution, and a falling line of standard errors needs particular errors far from the usual ones.", "anchors": ["kats/utils/emp_confidence_int.py: EmpConfidenceInt"]}
{"id": "C115", "title": "The linear and quadratic models forecast with the least squares polynomial and its prediction interval", "statement": "For any number of steps, predict forecasts with the polynomial of degree one or two that has the least sum of squared residuals over the positions of the data, at the dates after the data (after the history if wanted), with bounds at the Student quantile times the root of the residual variance times one plus the leverage.", "quantifier": "all series with at least as many points as coefficients, all steps, both models", "why_tests_cant": "Optimality is against all polynomials; the failure needs a forecast of exactly one step.", "anchors": ["kats/models/linear_model.py: LinearModel", "kats/models/quadratic_model.py: QuadraticModel"]}
{"id": "C116", "title": "The Theta model is the mean of the least squares line and the smoothed second theta line", "statement": "ThetaModel tests seasonality by the autocorrelation at the seasonal lag; the forecast of a series is the mean of its least squares line and the simple exponential smoothing of twice the data less the line, on data divided by the season and times the season if it is seasonal; bounds lie at the normal quantile times sigma times sqrt(1 + (i-1) level^2).", "quantifier": "all series, seasonal periods, smoothing parameters and steps", "why_tests_cant": "The identity with the definition of the Theta method is algebraic in the data and parameters; the zero seasonal value is a rare case.", "anchors": ["kats/models/theta.py: ThetaModel"]}
{"id": "C117", "title": "Harmonic regression forecasts with the least squares sum of harmonics and reproduces harmonic data", "statement": "Only positive periods and orders are accepted and predict needs fit; the forecast is the sum of sines and cosines of the period (in hours) with the least sum of squares to the data, it repeats with the period, and data that are a level plus harmonics are reproduced.", "quantifier": "all series, periods, orders and dates", "why_tests_cant": "That the coefficients are the best and the only ones is a statement about all coefficients and needs that a sum of harmonics has few zeros; the lost level is invisible for data with mean zero.", "anchors": ["kats/models/harmonic_regression.py: HarmonicRegressionModel", "kats/models/harmonic_regression.py: HarmonicRegressionParams"]}
{"id": "C118", "title": "A decomposition makes up the data again", "statement": "TimeSeriesDecomposition takes univariate data (several columns only with seasonal_decompose); unknown names mean additive STL; a period that is given is used and otherwise data below a day get 2; trend, seasonality and remainder add up to the data in the additive and multiply to the data in the multiplicative model.", "quantifier": "all series with or without missing values, all decompositions that leave as residual what is left", "why_tests_cant": "The identity holds for whatever STL returns and through the logarithm; missing values and unknown names are rare in tests.", "anchors": ["kats/utils/decomposition.py: TimeSeriesDecomposition", "kats/consts.py: TimeSeriesData.infer_freq_robust"]}
{"id": "C119", "title": "The seasonality handler splits regular data without loss", "statement": "SeasonalityHandler needs seven points and a known period; data whose distances are multiples of their frequency are accepted and put on a grid from the first time, gaps filled by straight lines; the period is the number of points in the season but at most half the data; seasonality and deseasonalised data add up to the data at the original times in every column.", "quantifier": "all sorted series, columns, frequencies and seasonal periods", "why_tests_cant": "The refusal depends on the day of the month and the time of day; the split must hold for every decomposition and pattern of gaps.", "anchors": ["kats/utils/decomposition.py: SeasonalityHandler", "kats/consts.py: TimeSeriesData.interpolate"]}
{"id": "C120", "title": "STL forecasting takes the seasonality out, forecasts the rest and puts the seasonality back", "statement": "STLFParams accepts only the known methods and decompositions and the model refuses several columns and periods longer than the data; the forecast and its bounds are those of the inner model of the deseasonalised data (of the trend for the simple heuristic) with the last m seasonal values put back in turn; with a decomposition and an inner model that are exact, seasonal data plus a line are continued exactly.", "quantifier": "all series, decompositions, inner models, periods and numbers of steps", "why_tests_cant": "The alignment of the tiled seasonality depends on the length of the data modulo the period and on include_history; tests mostly use whole years.", "anchors": ["kats/models/stlf.py: STLFModel", "kats/models/stlf.py: STLFParams"]}
{"id": "C121", "title": "The Bayesian VAR model is the penalised least squares fit of a vector autoregression and forecasts with its own recursion", "statement": "The error covariance is that of the least squares residuals; the coefficients minimise the weighted squared residuals plus the distance from the random walk prior weighted by the prior variances; forecasts apply the autoregression with the forecasts as lags; parameters outside their ranges are refused; predict does not change the model.", "quantifier": "all data of any number of columns and rows, all lags, prior parameters and steps", "why_tests_cant": "Optimality is a statement about all coefficients; the time regressor of the forecasts and the aliasing of the list of fitted values do not show in the shape of the output.", "anchors": ["kats/models/bayesian_var.py: BayesianVAR", "kats/models/bayesian_var.py: BayesianVARParams"]}
{"id": "C122", "title": "Date, time and circular features describe the timestamp", "statement": "The calendar fields follow the Gregorian calendar; the season, the week of the month, weekend, leap day, month and quarter end, the quarter of the hour, the hour of the week and the part of the day are those of the local time; dst and offset are given for all zones; circular codes lie on the unit circle and determine the feature up to multiples of its period.", "quantifier": "all timestamps, time zones, tables without repeated keys and periods", "why_tests_cant": "Wrong quarter ends, seasons and weeks show only on some days of the year and in some time zones; the test compares with recorded output of the same code.", "anchors": ["kats/utils/feature_engineering.py: date_features", "kats/utils/feature_engineering.py: time_features", "kats/utils/feature_engineering.py: circle_encode"]}
{"id": "C123", "title": "The pipeline applies its steps to every series and keeps their outputs", "statement": "Each detector's output for each series is kept as metadata under the name of the step, outliers are removed only if asked, features replace the series only if asked, and the result for each series is the model fitted to that series; the list and the parameters of the caller are not changed.", "quantifier": "all steps, numbers of series, options and parameters", "why_tests_cant": "One shared step gives right results for a single series, which is all the tests use; missing attributes show only for classes the tests leave out.", "anchors": ["kats/utils/cupik.py: Pipeline"]}
{"id": "C124", "title": "The ensemble prediction interval projects block by block around the mean of its chains", "statement": "Block size and number of blocks are those given, or the largest the data allow, with at least 10 points in a block and 5 blocks; the error matrix holds, block by block, the next block minus its forecast; every chain forecasts block after block and adds a draw of the error distribution; the projection has a row for each step with the mean over the chains and bounds the same distance on both sides that grow with the level; for an exact model the projection is the series.", "quantifier": "all series, sizes, models, error draws, numbers of chains and steps, and levels", "why_tests_cant": "The draws are random, so the tests look only at the shape of the result.", "anchors": ["kats/utils/ensemble_predict_interval.py: ensemble_predict_interval"]}
{"id": "C125", "title": "The simulator makes series with the structure that was asked for", "statement": "ARIMA series follow the ARMA equation after their differences are taken; trend, noise and seasonality are added or multiplied as documented, in any order; level and trend shifts have their levels and trends between the change points, the seasonality of the period given, anomalies as many deviations away as asked, and a length adjusted to the change points; the same seed gives the same series; injected shifts and spikes change just the places named.", "quantifier": "all coefficients, dates, magnitudes, change points, levels, anomalies, seeds and series", "why_tests_cant": "The tests compare with recorded output of the same code, for a few seeds and lengths that avoid the change of length.", "anchors": ["kats/utils/simulator.py: Simulator"]}
{"id": "C126", "title": "Parameter tuning searches the space it was given and reports what it evaluated", "statement": "The search space is checked and its cardinality counted; every arm of a trial is evaluated once, and its row holds the metric, the mean and the standard error of the evaluation function; the list of scores holds all rows, or those of arms that meet the constraints; the conversion for Nevergrad keeps the space; the factory hands all its arguments to the method chosen; default spaces of the models hold values that the model accepts.", "quantifier": "all search spaces, evaluation functions, arms, metrics, constraints, numbers of processes, methods and arguments", "why_tests_cant": "The tests use single metrics, single constraints and one method at a time, and do not look at which arguments reach a search.", "anchors": ["kats/utils/time_series_parameter_tuning.py: TimeSeriesParameterTuning", "kats/utils/time_series_parameter_tuning.py: SearchMethodFactory", "kats/utils/parameter_tuning_utils.py: get_default_prophet_parameter_search_space"]}
{"id": "C127", "title": "Evaluation runs keep predictions, labels and results together", "statement": "A run is created under an unused name and deleted or found under a used one; evaluation keeps the labels and the value of each metric on predictions and labels, and leaves other runs alone; refused evaluations change nothing; anomalous intervals end after they start with a confidence between 0 and 1; the iterator over the points of a series gives each of them once, in order.", "quantifier": "all names, runs, predictions, labels, metrics, intervals, confidences and series", "why_tests_cant": "The tests check that an exception is raised, not what the run holds afterwards.", "anchors": ["kats/evaluation/evaluator.py: Evaluator.evaluate", "kats/consts.py: IntervalAnomaly", "kats/consts.py: TSIterator"]}
{"id": "C128", "title": "The Prophet wrapper builds the frames that Prophet needs and samples the trend as Prophet does", "statement": "Parameters are refused exactly when a growth, a bound or the keys of a seasonality or regressor are wrong; the training frame has a row for each time with the values, the regressors and the bounds; the frame for the forecast has the next steps of the series, with the history before them if asked for; a given frame must have what the parameters need; the vectorized intervals hold at least as many draws as asked for; sampled trends agree with the trend of the model on the history, change slope at new change points only after it, and do not jump; the uncertainty of a logistic trend has mean zero; the interval bounds are in order and at least the margin apart.", "quantifier": "all parameters, series, steps, frames, change points, rates, draws and margins", "why_tests_cant": "The tests run Prophet on a few data sets with fixed seeds; missing values together with include_history, two change points in one step, and multivariate data without a frame are not among them.", "anchors": ["kats/models/prophet.py: ProphetParams.validate_params", "kats/models/prophet.py: ProphetModel._future_validation", "kats/models/prophet.py: sample_linear_predictive_trend_vectorize", "kats/models/prophet.py: _logistic_uncertainty"]}
{"id": "C129", "title": "The Prophet detector trains on the points it was told to and scores each point against the forecast for its time", "statement": "Bad saturation ranges, growths and seasonalities are refused; the seasonalities that are not given get their documented defaults; an automatic weekend is dropped for short or coarse data; exactly the points in no excluded range and inside the outlier bounds are used for training, and the series passed in are left alone; there is one score for each point, the relative error or the error over the scaled width of the band, multiplied exactly on holidays; without samples the band is the forecast; the trend detector scores change points by the size of the change and nothing else.", "quantifier": "all arguments, series, ranges, seasonalities, holidays, forecasts and bands", "why_tests_cant": "The tests use sorted daily or hourly data without gaps, repeats or missing values and do not look at the series passed in after fitting.", "anchors": ["kats/detectors/prophet_detector.py: seasonalities_processing", "kats/detectors/prophet_detector.py: ProphetDetectorModel.fit", "kats/detectors/prophet_detector.py: ProphetDetectorModel.predict", "kats/detectors/prophet_detector.py: ProphetTrendDetectorModel.fit_predict"]}
{"id": "C130", "title": "The nowcasting features are the indicators they are named after, row by row", "statement": "Each function adds exactly its columns at the end of the frame and changes nothing else; a missing column or a name that is taken is refused. At row i the momentum, lag, rate of change and moving average are those of the values the documented number of rows back, with NaN where a value is missing; exponential averages weight by age, count only present values and stay between the bounds of the values; MACD, Bollinger bands, TSI, TRIX and RSI have their textbook values, TSI lies in [-1, 1] and RSI in [0, 100], whatever the labels of the rows.", "quantifier": "all frames, columns, windows, spans and values including NaN and infinities", "why_tests_cant": "The tests compare a few rows of one series with stored numbers, always with the default labels and without missing values.", "anchors": ["kats/models/nowcasting/feature_extraction.py: ROC", "kats/models/nowcasting/feature_extraction.py: MACD", "kats/models/nowcasting/feature_extraction.py: BBANDS", "kats/models/nowcasting/feature_extraction.py: TRIX", "kats/models/nowcasting/feature_extraction.py: RSI"]}
{"id": "C131", "title": "Nowcasting trains and predicts on the right rows", "statement": "After feature extraction exactly the rows are left whose features are all finite; the simple model is trained with the features of a row against the value `step` rows later and predicts from the last `step` rows of the data. The models with a season train on the change of the deseasonalised value over `step` rows and add the season `step` ahead, so that with exact predictions the forecast is exact; this holds for any names of the columns, with zeros and missing values, for any amount of data and every positive number of steps. Serialization restores the model.", "quantifier": "all series, values including NaN and infinities, steps, models and scalers", "why_tests_cant": "The tests use one series without zeros, with more than a day of data, a step of one and the column names the code expects.", "anchors": ["kats/models/nowcasting/nowcasting.py: NowcastingModel", "kats/models/nowcasting/nowcastingplus.py: NowcastingPlusModel", "kats/models/nowcasting/dynamic_nowcasting.py: NowcastingModel", "kats/models/nowcasting/model_io.py: serialize", "kats/models/nowcasting/model_io.py: deserialize"]}
{"id": "C132", "title": "The autoregressive boosting model trains and forecasts from the right rows", "statement": "For every series, target, horizon and origin with enough history there is one row: its inputs are the normalized lags, statistics and history covariates up to the origin and the calendar features and future covariates of the target time, and its output is the value `horizon` steps after the origin, normalized by the window at the origin; the model is trained on exactly the rows whose output is known. Denormalizing undoes normalizing, for every mode and default minimum. Forecasts are made from the last known value with the same features as in training, and asking for `steps` steps ends and gives forecasts for exactly those steps. Invalid parameters are refused, and automatic features exist for every frequency.", "quantifier": "all series, numbers of lags and horizons, windows, covariates, normalizations, regressors, requested steps", "why_tests_cant": "The tests check the shape of the forecasts for a few parameter sets with contiguous horizons; no test looks at the rows, iterates a model with gaps in its horizons or uses the default minimum.", "anchors": ["kats/models/ml_ar.py: MLARParams", "kats/models/ml_ar.py: MLARModel", "kats/models/ml_ar.py: embed", "kats/models/ml_ar.py: normalize", "kats/models/ml_ar.py: denormalize", "kats/models/ml_ar.py: find_first_missing_number"]}
{"id": "C133", "title": "The vectorised CUSUM model treats every series as the scalar model does", "statement": "`VectorizedCUSUMDetectorModel` on several series gives for each of them the scores and the state (changepoints, alert, baseline, direction, normal scans) that `CUSUMDetectorModel` with the same parameters gives for it alone: the masked means and deviations are those of the series, one scan changes each series as the scalar scan, scores are computed against the baseline after the changepoint and are zero before it and without an alert. The state is kept from call to call and survives serialization; the scores have the columns of the data; a single series is handed to the scalar model with the same parameters.", "quantifier": "all numbers of series, data, histories, windows, states, detectors that treat each column as the scalar one does", "why_tests_cant": "The tests compare the two models for a few simulated series without missing values, without adapted baselines and in single calls; none serializes the vectorised model or passes a single series without history.", "anchors": ["kats/detectors/cusum_model.py: VectorizedCUSUMDetectorModel._fit", "kats/detectors/cusum_model.py: VectorizedCUSUMDetectorModel._predict", "kats/detectors/cusum_model.py: VectorizedCUSUMDetectorModel._if_back_to_normal", "kats/detectors/cusum_model.py: VectorizedCUSUMDetectorModel.fit_predict"]}
{"id": "C134", "title": "`vectorized=True` does not change the results of the CUSUM model", "statement": "`CUSUMDetectorModel.fit_predict` with `vectorized=True` (windows of a regular series as columns, one call of the vectorised detector, the state taken through the columns, scores put back in order) returns the same scores and leaves the same state as the loop over the windows, for every series, history, windows and state of the model; if the windows cannot be made columns it falls back to the loop.", "quantifier": "all regular series, histories, windows and steps, model states, detectors that do not depend on the position in time", "why_tests_cant": "The tests compare the two paths for a few simulated daily series, new models only; no test continues a model with a live alert or with changepoints in the data, or has a window at the epoch.", "anchors": ["kats/detectors/cusum_model.py: CUSUMDetectorModel.fit_predict", "kats/detectors/cusum_model.py: CUSUMDetectorModel._fit_vec_row", "kats/detectors/cusum_model.py: CUSUMDetectorModel._reorganize_big_data", "kats/detectors/cusum_model.py: CUSUMDetectorModel._reorganize_back"]}
{"id": "C135", "title": "The preparation for global models keeps values, phase and series", "statement": "`fill_missing_value_na` keeps every value of a series and its order, gives a series whose rows have the phase of the season of their place, and leaves out only whole periods of missing rows; `split` divides a data set into parts that make it up (or their complements, with `overlap`), with validation series of the same keys; `gmpreprocess` keeps exactly the series that are long enough and cuts off a validation part of the right length; `pad_ts` increases the length of a series by `n`.", "quantifier": "all series, periods and frequencies; all data sets, keys and numbers of parts; all parameters", "why_tests_cant": "The tests check the lengths of one filled series with whole days, the filter of one mask, call `split` with one and two parts and `pad_ts` with one step without looking at the results; no test has off-grid times, keys of both kinds, more rest than a part or more than one step of padding.", "anchors": ["kats/models/globalmodel/utils.py: get_filters", "kats/models/globalmodel/utils.py: fill_missing_value_na", "kats/models/globalmodel/utils.py: split", "kats/models/globalmodel/utils.py: gmpreprocess", "kats/models/globalmodel/utils.py: pad_ts"]}
{"id": "C136", "title": "Batches of a global model hold every series once an epoch, in arrays that fit", "statement": "`get_batch` gives in each epoch every series exactly once, in batches of the asked size but one, for any mix of sizes; `_get_indices` gives training, validation and test windows that lie in the array (with its validation part), in order, as many as the parameters ask for; `_get_array` makes rows of one length that end with the end of the series, padded with the first period in phase, without missing values in the first period and, after the offset, with positive values in the ratio of `uplifting_ratio`; the initial seasonality is the value over the mean, within the bounds.", "quantifier": "all data sets, batch sizes, sequences of calls and random draws; all series lengths and parameters; all values and validation series", "why_tests_cant": "The tests call `get_batch` a few times on one data set with float values and positive ratios, never with integer values, a ratio below 1, a rejected size in the middle of an epoch, mixed keys, or a validation series of missing values.", "anchors": ["kats/models/globalmodel/data_processor.py: GMDataLoader.get_batch", "kats/models/globalmodel/data_processor.py: GMDataLoader._shuffle_batch_ids", "kats/models/globalmodel/data_processor.py: GMDataLoader._get_new_order", "kats/models/globalmodel/data_processor.py: GMBatch._get_indices", "kats/models/globalmodel/data_processor.py: GMBatch._get_array", "kats/models/globalmodel/data_processor.py: GMBatch._get_seasonality"]}
{"id": "C137", "title": "The losses and features of a global model are what their names say", "statement": "The pinball loss of a series is, for every quantile, the weighted mean over the steps that are not missing of max((y - f) q, (y - f)(q - 1)): not negative, zero only for exact forecasts, least at the quantile; the adjusted loss has the relative loss for the first quantile and, on either scale, the loss of the logarithms for the others; the losses do not change their inputs. The features of a window are one column for its weekday, pair of weeks, day, hour and month, as many columns as `get_feature_size` says, for any accepted combination; equal features have equal sizes.", "quantifier": "all forecasts, targets, missing values, quantiles, weights and reductions; all batches of windows of valid times and all lists of features", "why_tests_cant": "The tests evaluate the losses on one small tensor on the log scale and features on windows that do not end in December; they check only that no feature is NaN or infinite, and never ask for `tsfeatures` alone in a batch.", "anchors": ["kats/models/globalmodel/utils.py: PinballLoss.forward", "kats/models/globalmodel/utils.py: AdjustedPinballLoss.forward", "kats/models/globalmodel/utils.py: GMFeature.get_feature_size", "kats/models/globalmodel/utils.py: GMFeature._get_last_date_feature", "kats/models/globalmodel/utils.py: GMFeature._get_last_month_feature", "kats/models/globalmodel/utils.py: GMFeature.get_on_the_fly_features", "kats/models/globalmodel/data_processor.py: GMBatch.get_features"]}
{"id": "C138", "title": "The parameters of a global model are checked, copied and written faithfully", "statement": "An object of parameters exists exactly for valid arguments, and any others give a ValueError: windows and sizes are integers of at least one, the first quantile is 0.5 and the others lie between 0 and 1, schedules start at epoch 0 and have positive values, weights are as many as quantiles and positive, ratio, seasonality and smoothing parameters are positive numbers. Copying an object, or writing it as text and reading it again, gives an equal object; equal objects give networks of the same sizes; for every object the loss of the network can be built.", "quantifier": "all arguments of the constructor, with numbers that are integers, truth values, finite floats, NaN or infinite", "why_tests_cant": "The tests give a handful of wrong arguments, one at a time, and compare one object with itself and with its text: never a NaN, a bound in the wrong order, a repeated feature, training quantiles of another number, or a pair among the parameters of the optimizer.", "anchors": ["kats/models/globalmodel/utils.py: GMParam.__init__", "kats/models/globalmodel/utils.py: GMParam._valid_list", "kats/models/globalmodel/utils.py: GMParam._valid_union_dict", "kats/models/globalmodel/utils.py: GMParam.copy", "kats/models/globalmodel/utils.py: GMParam.to_string", "kats/models/globalmodel/utils.py: GMParam.__eq__", "kats/models/globalmodel/utils.py: gmparam_from_string", "kats/models/globalmodel/model.py: GMModel.build_rnn"]}
{"id": "C139", "title": "A pass of a global model looks only at the past, forecasts every window and follows the scale", "statement": "For series of positive values and every network, a pass of the recurrent global model over a batch succeeds for all accepted parameters: levels, seasonality and filled values stay positive, missing values repeat the level and the seasonality, and a purely seasonal series is reduced to ones. In training there are losses for the first and the last training window and for windows of validation a result each, in test one forecast for each window, a row for each series and a column for each step and quantile. What the network sees at an index depends only on the values before it, the losses of training on no value of validation. Multiplying each series by a positive factor of its own multiplies its forecasts by the factor.", "quantifier": "all batches of positive series with missing values, all networks, features, smoothing parameters, periods, windows, step sizes and positive factors, over any ordered field and for the real logarithm", "why_tests_cant": "The test trains one small model on a few series and checks the type of the forecasts: never that changing a later value leaves a loss as it was, never two scales, never a single training window, an input window shorter than the period or a smoothing above one.", "anchors": ["kats/models/globalmodel/model.py: GMModel._process", "kats/models/globalmodel/model.py: GMModel._single_pass_rnn", "kats/models/globalmodel/model.py: GMModel._single_pass_s2s", "kats/models/globalmodel/model.py: GMModel._calculate"]}
{"id": "C140", "title": "The encoder and decoder of a global model fill gaps with the last period, forecast every window and see only the past", "statement": "For series of positive values, every encoder, decoder and feature, a pass of the encoder and decoder over a batch succeeds for every period and input window: a missing value is the value one period before, the window is divided by the lower median of its last period, which is one of its values and positive, so that the median of what the encoder gets is one. In test there is one forecast for each window of the decoder, and these are the windows of validation of the batch; in training there is one loss for each step, the mean over its windows, and each forecast of validation is judged against the values at its own place. Every step up to the last window of training is visited. Forecasts depend on no value from the first window forecast on, losses on no value of validation, and the features used are those of the input windows and of the windows forecast. Multiplying each series by a positive factor multiplies its forecasts by the factor.", "quantifier": "all batches of positive series with missing values, all networks, features, periods, windows, numbers of encoder steps and positive factors, over any ordered field and for the real logarithm", "why_tests_cant": "The test trains one small model of this type on a few series and checks the type of the forecasts: never a period longer than the window, never two scales, never whether the last training window is visited, and never that a changed later value leaves the forecasts as they were.", "anchors": ["kats/models/globalmodel/model.py: GMModel._process_s2s", "kats/models/globalmodel/model.py: GMModel._single_pass_s2s", "kats/models/globalmodel/model.py: GMModel._calculate"]}
{"id": "C141", "title": "A global model forecasts every series it is given for every step asked, whatever its company, and evaluates each window once", "statement": "With networks of the right sizes, `predict` on series that can be used gives for every series one frame with a row for every step, one frequency apart from the time after its last value, and a column for every quantile. The value at a step is that of its place in its window after the adjustment. The adjustment keeps the first window, the first quantile and all differences within a window; every other quantile then goes on from one window to the next where it ended. It keeps each quantile on its side of the first one, the forecast of a series does not depend on the other series, and the batch size is used. `evaluate` gives one judgement for every window of every evaluated series, with the actual values of that window and missing values after the end. The validation function gives the metrics asked for, one for each quantile but the first. The schedule of learning rates and batch sizes uses in each epoch the last value given up to it, and every epoch is trained in training mode. An untrained model refuses to forecast and to be saved, and a model that is saved and loaded has its type and weights again.", "quantifier": "all numbers of steps, windows, quantiles and series, all networks of the right sizes, all series that can be used, all judgements, schedules and numbers of epochs, over any field", "why_tests_cant": "The tests forecast a few steps with one small network and compare no value with another: a step in the wrong window, a window evaluated against the wrong values or a mode never restored gives numbers that look like forecasts.", "anchors": ["kats/models/globalmodel/model.py: GMModel.predict", "kats/models/globalmodel/model.py: GMModel._format_fcst", "kats/models/globalmodel/model.py: GMModel._adjust_pi", "kats/models/globalmodel/model.py: GMModel.evaluate", "kats/models/globalmodel/model.py: GMModel.build_validation_function", "kats/models/globalmodel/model.py: GMModel.train", "kats/models/globalmodel/model.py: GMModel.save_model", "kats/models/globalmodel/model.py: load_gmmodel_from_file"]}
{"id": "C142", "title": "An ensemble of global models trains, combines, evaluates and keeps its models as it says", "statement": "An ensemble is made exactly for the known types, positive numbers of parts and copies and a number of cores that the computer has. Training divides the series into a test set of the size asked for, at least one and less than all, and the others; no series of the test set is among the data of any model. The model `i` gets the part `i` modulo the number of parts, whether trained in parallel or not, so every part trains as many models as copies are asked for. A forecast has one frame for every series, in order, with the columns and times that its models give, and its value at every step and quantile is the mean or median of the values of the models there; both do not depend on the order of the models, are between the least and the greatest value, keep the order of quantiles and follow a change of the unit. An ensemble of one model forecasts what that model does. Evaluation judges the combined forecast of every window of every series once. An ensemble that is saved and loaded, as a file or as JSON, has its type, attributes, weights, the information on its training and the keys of its test set again.", "quantifier": "all arguments, numbers of parts and copies, sets of series, test sizes, permutations, models with networks of the right sizes, steps and quantiles, over any ordered field", "why_tests_cant": "The tests train one small ensemble without a test set in JSON and check that files can be written; which series trained which model, and whether the combined value belongs to its step and quantile, is never compared.", "anchors": ["kats/models/globalmodel/ensemble.py: GMEnsemble.__init__", "kats/models/globalmodel/ensemble.py: GMEnsemble.train", "kats/models/globalmodel/ensemble.py: GMEnsemble.predict", "kats/models/globalmodel/ensemble.py: GMEnsemble._combine_fcst", "kats/models/globalmodel/ensemble.py: GMEnsemble.evaluate", "kats/models/globalmodel/ensemble.py: GMEnsemble.save_model", "kats/models/globalmodel/ensemble.py: load_gmensemble_from_file", "kats/models/globalmodel/serialize.py: global_model_to_json", "kats/models/globalmodel/serialize.py: load_global_model_from_json"]}
{"id": "C143", "title": "A global model for series without their seasonality takes the seasonality out and puts back its continuation", "statement": "An object is made exactly for the additive and the multiplicative decomposition, with a number of cores that the computer has and a period that is the given one, that of the frequency or 7. The seasonality of the steps is the last period of that of the series, again and again; it continues the seasonality if that repeats after a number of steps dividing the period. The global model is given the trend, the series, or the series without its seasonality, at the same times; the result has one frame for every series, in order, with the columns and times the global model gives and the seasonality of each step put on all its columns. So series that are something plus or times a seasonality are forecast exactly where the global model forecasts the rest exactly, and the order of quantiles is kept. The period is the one the decomposition used, also after a model is loaded, and a global model of the original series is used as it is.", "quantifier": "all arguments, periods, series, seasonalities, numbers of steps, decompositions and global models", "why_tests_cant": "The tests compare the shape of forecasts for a few daily series with weekly period; a seasonality out of phase, a period that is longer than the series or not that of the decomposition and the seasonality added twice with `fit_original` all give frames of the right shape.", "anchors": ["kats/models/globalmodel/stdmodel.py: STDGlobalModel.__init__", "kats/models/globalmodel/stdmodel.py: STDGlobalModel._get_period", "kats/models/globalmodel/stdmodel.py: STDGlobalModel.load_global_model", "kats/models/globalmodel/stdmodel.py: STDGlobalModel._deseasonal", "kats/models/globalmodel/stdmodel.py: STDGlobalModel._predict_seasonality", "kats/models/globalmodel/stdmodel.py: STDGlobalModel._reseasonal", "kats/models/globalmodel/stdmodel.py: STDGlobalModel.predict"]}
{"id": "C144", "title": "The dilated recurrent networks of global models compute what their cells say, from the right states and with the right sizes", "statement": "A network is made exactly for blocks that are not empty, a cell that exists with `h` below the state, and a positive output; with the parameters of a global model its input and output have exactly the sizes of the rows that a pass gives and needs, for the recurrent model and for the encoder and the decoder. A network that is made gives one row for each row, with as many columns as the adaptor, and never fails in a pass. Each cell computes its gates, states and outputs by its formulas, from the states of the previous time and of the time that the dilation names; other times and other rows do not matter. Blocks add up; the adaptor comes last. Whatever the weights, states and outputs of cells are between -1 and 1. A decoder whose dilations are at most those of the encoder computes from the states it is given what it would compute from all of them; other decoders, negative sizes and dilations that are not positive are refused.", "quantifier": "all cells, weights, activation functions with the bounds of the sigmoid and `tanh`, sizes, dilations, batches, states, numbers of times and parameters", "why_tests_cant": "The tests compare the shapes of outputs for a few networks and check that forecasts have no missing values; the wrong gate, a state one time off, rows that influence each other or a decoder that does not see the delayed states give outputs of the same shape, and training adapts to them.", "anchors": ["kats/models/globalmodel/utils.py: LSTM2Cell.forward", "kats/models/globalmodel/utils.py: S2Cell.forward", "kats/models/globalmodel/utils.py: DilatedRNNStack.__init__", "kats/models/globalmodel/utils.py: DilatedRNNStack._validate", "kats/models/globalmodel/utils.py: DilatedRNNStack.prepare_decoder", "kats/models/globalmodel/utils.py: DilatedRNNStack._forward_S2Cell", "kats/models/globalmodel/utils.py: DilatedRNNStack._forward_LSTM2Cell", "kats/models/globalmodel/utils.py: DilatedRNNStack.forward", "kats/models/globalmodel/model.py: GMModel.build_rnn", "kats/models/globalmodel/model.py: GMModel.build_s2s"]}
{"id": "C145", "title": "Backtests of global models evaluate with series and times that the models have not seen, and compare each forecast with its value", "statement": "A backtest is made exactly for timestamps, numbers of parts and copies, a number of test series and a number of cores that make sense, and series that can be filled. A run draws as many test series as asked for; at every timestamp each model is trained once, with its part of the training series that are long enough, cut before the timestamp; none of the test series and no value from the timestamp on is in the training parts. The result has for each test series, window and model one row, and one for the ensemble, with the forecast of the right model, series and window against the values of the same window. With an expanding window the model is asked once for all training parts; each fold compares the known values of its test part with the medians of the same places, and the errors are the weighted means over the folds. A second run does not change the results.", "quantifier": "all series, parameters, timestamps, shuffles, splits, numbers of models, predictors, metrics and percentages", "why_tests_cant": "The tests run one backtest with a model whose training is replaced and check the shape of the result; a test series among the training series, a model that is trained twice, a forecast compared with the wrong window or an argument without influence leave the shape as it is.", "anchors": ["kats/models/globalmodel/backtester.py: GMBackTester.__init__", "kats/models/globalmodel/backtester.py: GMBackTester._filter", "kats/models/globalmodel/backtester.py: GMBackTester.run_backtest", "kats/models/globalmodel/backtester.py: GMBackTester._evaluate", "kats/models/globalmodel/backtester.py: GMBackTesterExpandingWindow.__init__", "kats/models/globalmodel/backtester.py: GMBackTesterExpandingWindow._create_ts", "kats/models/globalmodel/backtester.py: GMBackTesterExpandingWindow._build_ts_and_get_prediction", "kats/models/globalmodel/backtester.py: GMBackTesterExpandingWindow.run_backtest"]}
{"id": "C146", "title": "Meta data of a series hold the model with the least error, for data that were judged and split once", "statement": "A series is accepted exactly if it has one value column, a time column named \"time\", enough values, two or more different values, all finite, a known error and models with parameters; the first four fifths are for training and the rest, never empty, for the test. Scaling keeps the order of the values, and the data have no NaN or infinity afterwards. The search gives for each model the first parameters with the least error among those whose error is a number, the error being that of the forecasts for the test part and infinity if the model fails; the best model is the first one with the least error, and it works.", "quantifier": "all series, models, parameter spaces, search methods, forecasts (with failures) and metrics", "why_tests_cant": "The tests compute meta data for two series and compare the type of the results; a search that keeps the last or the greatest error, a test part that was used for training or a series turned upside down by scaling give meta data of the same form.", "anchors": ["kats/models/metalearner/get_metadata.py: GetMetaData.__init__", "kats/models/metalearner/get_metadata.py: GetMetaData._validate_data", "kats/models/metalearner/get_metadata.py: GetMetaData._scale", "kats/models/metalearner/get_metadata.py: GetMetaData._tune_single", "kats/models/metalearner/get_metadata.py: GetMetaData.tune_executor", "kats/models/metalearner/get_metadata.py: GetMetaData.get_meta_data"]}
{"id": "C147", "title": "Model selection by meta-learning trains with aligned rows, tests with rows it has not seen and treats a new series as the meta data", "statement": "Meta data are accepted exactly if there are more than 30 entries that can be read, with features in columns of their names, zero for what is missing and two or more best models. Downsampling keeps the same number of different rows for each model, each with its features, errors and best model. Scaling gives each column the mean zero and the variance one (zero if it is constant). Training keeps the part asked for as test rows that the classifier does not see and reports the average errors of its choices and of each fixed model; a classifier that always finds the least error is not worse than any fixed model. For a new series the classifier gets the row it would have been trained with, whatever the preparation; the top classes are the most probable in their order, and the fuzzy choice names the second class exactly if the p-value of the bootstrap is at least the level.", "quantifier": "all meta data, random choices, deviations, classifiers, trees, samples and feature functions", "why_tests_cant": "The tests train the five classifiers on random features and check that predictions have the right length; features in the wrong column, means of other rows than those trained with, a missing value that means something else for a new series or a test row in the training set go unnoticed with random data.", "anchors": ["kats/models/metalearner/metalearner_modelselect.py: MetaLearnModelSelect.__init__", "kats/models/metalearner/metalearner_modelselect.py: MetaLearnModelSelect._reorganize_data", "kats/models/metalearner/metalearner_modelselect.py: MetaLearnModelSelect._validate_data", "kats/models/metalearner/metalearner_modelselect.py: MetaLearnModelSelect.preprocess", "kats/models/metalearner/metalearner_modelselect.py: MetaLearnModelSelect.train", "kats/models/metalearner/metalearner_modelselect.py: MetaLearnModelSelect.pred", "kats/models/metalearner/metalearner_modelselect.py: MetaLearnModelSelect.pred_by_feature", "kats/models/metalearner/metalearner_modelselect.py: MetaLearnModelSelect.pred_fuzzy", "kats/models/metalearner/metalearner_modelselect.py: RandomDownSampler.fit_resample"]}
{"id": "C148", "title": "Predictability by meta-learning labels by the error, keeps the recall asked for and reports the accuracy of its answers", "statement": "Meta data are accepted exactly if there are more than 30 entries that can be read and both labels occur; a row has the label 1, unpredictable, exactly if the error of its best model is greater than the threshold, and its features are in the columns of their names, zero where missing. Scaling gives each column the mean zero and the variance one (zero if it is constant). The rows are split into training, validation and test sets of the sizes asked for that have no row in common. The threshold for the probability has the greatest precision of all with the recall asked for in the validation set. The report has the part of the test rows for which the answer of a prediction is right. For a new series the classifier gets the row it would have been trained with, and the series is predictable exactly if the probability of the label 1 is below the threshold.", "quantifier": "all meta data, thresholds, arguments, random orders, deviations, classifiers and feature functions", "why_tests_cant": "The tests train on random features and check the type of the answers; a threshold without the recall, rows of the validation in the training set, a report that judges other answers than are given or labels that are not those of their rows need probabilities and orders made for them.", "anchors": ["kats/models/metalearner/metalearner_predictability.py: MetaLearnPredictability.__init__", "kats/models/metalearner/metalearner_predictability.py: MetaLearnPredictability._reorganize_data", "kats/models/metalearner/metalearner_predictability.py: MetaLearnPredictability._validate_data", "kats/models/metalearner/metalearner_predictability.py: MetaLearnPredictability.preprocess", "kats/models/metalearner/metalearner_predictability.py: MetaLearnPredictability.train", "kats/models/metalearner/metalearner_predictability.py: MetaLearnPredictability.pred", "kats/models/metalearner/metalearner_predictability.py: MetaLearnPredictability.pred_by_feature"]}
{"id": "C149", "title": "Recommendation of parameters by meta-learning keeps the values of the data, trains on each row once an epoch and recommends values that occurred", "statement": "Features and parameters are accepted exactly if there are more than 30 rows, each parameter named has a column and each column a name, and no categorical parameter has one value only; the codes of a categorical parameter stand for its values. Scaling gives each column the mean zero and the variance one (zero if it is constant). A network has an output for each value of each categorical parameter and one for each numerical one, with the hidden layers asked for or those of the default model. Training keeps the validation part apart; in an epoch the optimizer sees each other row once, in batches of at most the size asked for; the losses are the cross entropies, added, and the mean squared error; there are as many epochs as asked for unless the least loss of the validation is as many epochs old as the early stopping says. For each new row, scaled as in training, there is one recommendation with all parameters, the categorical ones with the value of the greatest output, which occurred in the data; a series gets that of its features.", "quantifier": "all data, sizes of layers, weights, arguments of the training, random orders, steps of the optimizer and feature functions", "why_tests_cant": "The tests train on random features and check the types of the recommendations and the errors; codes of other values, rows left out of an epoch, a stop too late or scaling other than in training need weights and losses made for them.", "anchors": ["kats/models/metalearner/metalearner_hpt.py: DefaultModelParams", "kats/models/metalearner/metalearner_hpt.py: DefaultModelNetworks", "kats/models/metalearner/metalearner_hpt.py: MetaLearnHPT.__init__", "kats/models/metalearner/metalearner_hpt.py: MetaLearnHPT._get_target_cat", "kats/models/metalearner/metalearner_hpt.py: MetaLearnHPT._validate_data", "kats/models/metalearner/metalearner_hpt.py: MetaLearnHPT.build_network", "kats/models/metalearner/metalearner_hpt.py: MetaLearnHPT._prepare_data", "kats/models/metalearner/metalearner_hpt.py: MetaLearnHPT._loss_function", "kats/models/metalearner/metalearner_hpt.py: MetaLearnHPT.train", "kats/models/metalearner/metalearner_hpt.py: MetaLearnHPT.pred", "kats/models/metalearner/metalearner_hpt.py: MetaLearnHPT.pred_by_feature", "kats/models/metalearner/metalearner_hpt.py: MultitaskNet.forward"]}
{"id": "C150", "title": "The detector recommended by meta-learning is learned from the data as they were, and each window is in days once", "statement": "Each row of raw data has the results of the searches and the features as dictionaries or texts of them; the durations named are divided by 86400 and nothing else is changed; the features are numbers. The tables for one algorithm have a row for each row of the data, with a column for each name that occurs, and the value missing where the row has none; they do not depend on what was read before. The synthetic data are read as other data. Meta data are accepted exactly if they are a frame with more than 30 rows and the columns needed; training hands the best models, errors and features to the classifier, the results are reported, training again gives the same results, and the labels fitted and predicted are those of the classifier for the features by their names, rounded for a series.", "quantifier": "all frames, algorithms, sets of durations, classifiers, random orders and feature functions", "why_tests_cant": "The tests read two algorithms from one frame with no duration to scale and check types and shapes; a second read with durations, features in another order, a missing algorithm and windows of other detectors do not occur.", "anchors": ["kats/detectors/meta_learning/metalearning_detection_model.py: change_str_to_dict", "kats/detectors/meta_learning/metalearning_detection_model.py: metadata_detect_preprocessor", "kats/detectors/meta_learning/metalearning_detection_model.py: MetaDetectModelSelect.__init__", "kats/detectors/meta_learning/metalearning_detection_model.py: MetaDetectModelSelect.train", "kats/detectors/meta_learning/metalearning_detection_model.py: MetaDetectModelSelect.report_metrics", "kats/detectors/meta_learning/metalearning_detection_model.py: MetaDetectModelSelect.predict", "kats/detectors/meta_learning/metalearning_detection_model.py: MetaDetectModelSelect.fit_results", "kats/detectors/meta_learning/metalearning_detection_model.py: MetaDetectModelSelect.pred_by_feature", "kats/detectors/meta_learning/hpt_tuning.py: metadata_detect_reader", "kats/detectors/meta_learning/synth_metadata_reader.py: SynthMetadataReader.get_metadata"]}
{"id": "C151", "title": "The parameters of a detector recommended by meta-learning are all parameters of the data, constants included", "statement": "Data are accepted exactly if the detector can be made with the parameters of each row but the thresholds and the like. Parameters with one value are put aside and come back in each recommendation with that value. Training succeeds exactly if no such parameter is named and the network can be trained; hidden layers for another number of categorical parameters are replaced by one of five units each, so that the network can always be built; after a failure the object is as it was. Each row of features gets one recommendation, with each parameter of the data once, a categorical one with a value that occurred; a series gets that of its features.", "quantifier": "all data, detectors, names, sizes of layers, arguments of the training, random orders and steps of the optimizer", "why_tests_cant": "The tests train on generated data without missing values and check the columns of the result; a constant missing in the first row, data with constants only and a series do not occur, and the batch is given.", "anchors": ["kats/detectors/meta_learning/hpt_tuning.py: MetaDetectHptSelect.__init__", "kats/detectors/meta_learning/hpt_tuning.py: MetaDetectHptSelect._check_valid_input", "kats/detectors/meta_learning/hpt_tuning.py: MetaDetectHptSelect._init_detection_model", "kats/detectors/meta_learning/hpt_tuning.py: MetaDetectHptSelect.get_const_params", "kats/detectors/meta_learning/hpt_tuning.py: MetaDetectHptSelect.train", "kats/detectors/meta_learning/hpt_tuning.py: MetaDetectHptSelect.get_hpt_from_ts", "kats/detectors/meta_learning/hpt_tuning.py: MetaDetectHptSelect.get_hpt_from_features"]}
{"id": "C152", "title": "The recurrent network is trained on every window once an epoch and forecasts from the last values, with an interval around the forecast", "statement": "The values are mapped to the numbers between -1 and 1 with their order, and the inverse map is the inverse. A series longer than the window gives one sequence for each value after the first window, in the order of time, and each epoch changes the weights once for each. A forecast has a row for each step at the dates after the last one; each is made from the last values and forecasts, from the hidden state zero, so that calls do not influence each other and a shorter horizon gives the first forecasts of a longer one. Another unit of the values gives the same forecasts in that unit. Each forecast lies between its bounds, a failed fit leaves the trained network, and every series that fit accepts can be forecast.", "quantifier": "all series, windows, numbers of epochs and steps, frequencies, networks and optimizers", "why_tests_cant": "The tests forecast two series of positive values, longer than the window, and compare with numbers of an earlier run; negative forecasts, short series, windows of zero and a second fit do not occur.", "anchors": ["kats/models/lstm.py: LSTMModel.__init__", "kats/models/lstm.py: LSTMModel.__setup_data", "kats/models/lstm.py: LSTMModel.fit", "kats/models/lstm.py: LSTMModel.predict", "kats/models/lstm.py: LSTMForecast.forward"]}
{"id": "C153", "title": "The ARIMA and SARIMA wrappers hand the parameters to statsmodels and give its means and intervals at the right dates", "statement": "Only one column of values is accepted and nothing is forecast before a fit. A fit uses the values, the orders, the trend and the regressors that were given. A forecast has a row for each step, at the dates of the frequency after the last one (for SARIMA without a frequency the most frequent difference of the times), with the mean and the interval of statsmodels for the level that was asked for; the lower bound is never above the upper one. With the history the rows of the past precede the same forecasts, at the times of the series, and only the rows at the start that a model of these orders cannot predict are missing. Regressors in the parameters need regressors for the forecast, and forecasts that are all missing are an error.", "quantifier": "all series, orders, trends, levels, horizons, frequencies and all results of statsmodels", "why_tests_cant": "The tests fit two series with one trend and the default level and compare with numbers of an earlier run; other trends, other levels, dates that statsmodels takes as an index, series shorter than the orders and the other arguments of fit do not occur.", "anchors": ["kats/models/arima.py: ARIMAModel.fit", "kats/models/arima.py: ARIMAModel.predict", "kats/models/sarima.py: SARIMAModel.fit", "kats/models/sarima.py: SARIMAModel.predict"]}
{"id": "C154", "title": "Holt-Winters and VAR give the forecasts of statsmodels at the right dates, with intervals of the level that was asked for", "statement": "Holt-Winters takes one column and the four names of components, VAR several columns; nothing is forecast before a fit. VAR uses the given number of lags, else 12 (n/100)^(1/4) rounded down for the series at hand, which is less than the number of values. A forecast has a row for each step (and for VAR a frame for each column), at the dates of the frequency after the last one, with the values of statsmodels. The interval is for the level that was asked for: with alpha, the interval of Holt-Winters has the probability 1 - alpha and its lower bound is not above the upper one. With the history the rows of the past precede the same forecasts, at the times of the series and in the order of time. The chart of VAR can be drawn after every forecast.", "quantifier": "all series, parameters, levels, horizons, frequencies and all results of statsmodels and of the backtests", "why_tests_cant": "The tests compare one forecast with numbers of an earlier run, which have daily dates for a monthly series and bounds in the wrong order; short series, shared parameters, last dates that are not of the frequency and other levels do not occur, and the failing chart is asserted to fail.", "anchors": ["kats/models/holtwinters.py: HoltWintersParams.validate_params", "kats/models/holtwinters.py: HoltWintersModel.fit", "kats/models/holtwinters.py: HoltWintersModel.predict", "kats/models/var.py: VARModel.fit", "kats/models/var.py: VARModel.predict", "kats/models/var.py: VARModel.plot"]}
{"id": "C155", "title": "The NeuralProphet wrapper checks its input and returns the documented forecast", "statement": "Parameters are accepted exactly if seasonalities have their three keys and regressors are dictionaries with a name and known keys, a series exactly if it has the column y and all regressors, or is a single column without regressors. The fit gets times, values and regressors row by row. A forecast needs a fit, and with regressors a frame that has them, the dates and at least as many rows as steps; everything else is a ValueError. NeuralProphet gets the rows in the order of dates, with the past values that a model with lags needs, and the frame of the caller stays as it is. The result has the documented columns (time, fcst, fcst_lower, fcst_upper) and a row for each step.", "quantifier": "all parameters, series, frames, horizons and all fits and forecasts of NeuralProphet", "why_tests_cant": "There are no tests of this wrapper among the tests of the package.", "anchors": ["kats/models/neuralprophet.py: NeuralProphetParams.validate_params", "kats/models/neuralprophet.py: NeuralProphetModel.__init__", "kats/models/neuralprophet.py: NeuralProphetModel._ts_to_df", "kats/models/neuralprophet.py: NeuralProphetModel.fit", "kats/models/neuralprophet.py: NeuralProphetModel.predict"]}
{"id": "C156", "title": "Anomalies are classified by what changes at them", "statement": "At each bound of an anomaly the values before it are compared with those from it on; together these groups are the whole series. A trend change is reported exactly if the trends before and after differ, a volatility change if the standard deviations differ by the coefficient, a level shift if the levels differ significantly and by the coefficient. None of these depends on the unit or the zero of the scale; with fewer than two values in a group nothing is reported. Trends and levels are those of the line of least squares. There is a row for each interval, in order.", "quantifier": "all series, intervals, coefficients and all p-values of the t-test", "why_tests_cant": "There are no tests of this class among the tests of the package; a few series would not meet constant parts, negative levels, other zeros of the scale and bounds between the times of the series.", "anchors": ["kats/detectors/anomaly_postprocessing.py: AnomalyPostProcessHandler._if_level_shift", "kats/detectors/anomaly_postprocessing.py: AnomalyPostProcessHandler._if_trend_change", "kats/detectors/anomaly_postprocessing.py: AnomalyPostProcessHandler._if_volatility_change", "kats/detectors/anomaly_postprocessing.py: AnomalyPostProcessHandler.get_each_anomaly_type"]}
{"id": "C157", "title": "The percentage change of several series is that of each series on its own", "statement": "Setting and extending the data, means, variances, ratio, change in percent, direction, the bands, significance, scores and p-values for several series are for each series those that it has on its own with the same options. Rescaled for multiple tests, a score keeps its sign, does not grow, and its p-value is the adjusted one, so that the level of the test stays the threshold. There is a list of spikes for each series.", "quantifier": "all intervals, data, numbers of series, options, and all adjustments that do not lower p-values", "why_tests_cant": "The tests compare p-values and scores with a threshold for a few series; the methods on means and spikes are named check_ and never run. Nothing compares a row of the result with the single series.", "anchors": ["kats/detectors/detector_consts.py: ChangePointInterval._detect_spikes", "kats/detectors/detector_consts.py: ChangePointInterval.variance_val", "kats/detectors/detector_consts.py: PercentageChange.score", "kats/detectors/detector_consts.py: PercentageChange._ttest_multivariate", "kats/detectors/detector_consts.py: PercentageChange._calc_cov", "kats/detectors/detector_consts.py: PercentageChange.stat_sig"]}
{"id": "C158", "title": "The regression model of BOCPD is the conjugate posterior of the points of a run", "statement": "For each run length the line expected is the only one with the least sum of squares over exactly the points of the run and the penalty for leaving the prior; the parameters of the inverse Gamma distribution grow by half this cost and by a half for each point of the run, and never fall back on the prior. Adding a line to series and prior adds it to the line expected and changes nothing else. The likelihood of a point is the mean of the densities of the samples and stays above zero. The prior is the line of least squares through the first points; adjusted, the variance has the mean and the variance asked for.", "quantifier": "all series, times, run lengths, priors, numbers of samples and points, and all random numbers", "why_tests_cant": "The tests run one simulated series with one setting and count change points. Posteriors, likelihoods of zero and the moments of the adjusted prior are not looked at.", "anchors": ["kats/detectors/bocpd.py: _BayesianLinReg.setup", "kats/detectors/bocpd.py: _BayesianLinReg.pred_prob", "kats/detectors/bocpd.py: _BayesianLinReg.update_sufficient_stats", "kats/detectors/bocpd.py: _BayesianLinReg._residual_variance", "kats/detectors/bocpd.py: _BayesianLinReg._sample_likelihood"]}
{"id": "C159", "title": "The priors of BOCPD are the best of those searched, or those of the data, or those given", "statement": "With the choice of priors, the prior used is that of the best of all values proposed, scored by the model for exactly these values, for each kind of model; the values are set in the parameters and all others stay. Without it the prior given is used, and that of the parameters by default. Empirical priors are the mean, the variance and the mean variance of ten points in a row and follow the units of the series; fewer than ten points are refused; priors that are given are used for each series, and all are needed. Parameters of another kind, several series for another model than the normal one, and other methods of search are refused.", "quantifier": "all series, parameters, kinds of models, methods, libraries of search and results of the detection", "why_tests_cant": "The tests choose priors for the normal model only, for a few series; whether the best was taken, and what the values searched change, is not checked.", "anchors": ["kats/detectors/bocpd.py: BOCPDetector.detector", "kats/detectors/bocpd.py: BOCPDetector._choose_priors", "kats/detectors/bocpd.py: BOCPDetector._get_eval_function", "kats/detectors/bocpd.py: NormalKnownParameters.set_prior", "kats/detectors/bocpd.py: _NormalKnownPrec._find_empirical_prior", "kats/detectors/bocpd.py: check_data"]}
{"id": "C160", "title": "The one-sample detector rejects with at most the probability it states", "statement": "A row is rejected exactly when the binomial distribution with the effect size as probability gives the number of successes a tail of at most alpha (half of it on either side for the two-sided test), so that under the hypothesis itself a row is rejected with probability at most alpha; the reported significance is at most alpha exactly for the rejected rows. The limits are those of Clopper and Pearson with the level of the decision, and are numbers. Predictions are the runs of rejected rows at least as long as the duration, and the variance column has no influence.", "quantifier": "all sample sizes, numbers of successes, effect sizes, levels, test types and series", "why_tests_cant": "The tests use two series with 1000 samples per row, effect size 0.5 and values 0.5, 0.999 and 0.001, and look only at the rows that differ from 0.5. Small samples, values 0 and 1, effect sizes at the ends and confidence limits do not occur.", "anchors": ["kats/detectors/interval_detector.py: OneSampleProportionIntervalDetectorModel._one_sample_test_statistic", "kats/detectors/interval_detector.py: OneSampleProportionIntervalDetectorModel._convert_alpha_to_critical_value", "kats/detectors/interval_detector.py: IntervalDetectorModel.fit_predict", "kats/detectors/interval_detector.py: IntervalDetectorModel._get_test_decision"]}
{"id": "C161", "title": "The interval detectors accept exactly the data they can use", "statement": "Data are accepted exactly when every column of the schema is present, nothing the detector reads is null, counts are positive whole numbers and variances are not negative; otherwise there is a ValueError, never a KeyError. The single classes accept exactly proportions between 0 and 1, counts that are not negative whole numbers, and positive arrival times.", "quantifier": "all frames with distinct column names, both schemas and all classes", "why_tests_cant": "The tests leave out a column, put in one null, one count of zero and the like, one frame each. Negative values for counts, nulls in other columns and nulls in the history are not tried.", "anchors": ["kats/detectors/interval_detector.py: Schema._validate_data", "kats/detectors/interval_detector.py: Schema._validate_names", "kats/detectors/interval_detector.py: Schema._validate_nullable", "kats/detectors/interval_detector.py: Schema._validate_proportion", "kats/detectors/interval_detector.py: TwoSampleCountIntervalDetectorModel._get_test_statistic_hook"]}
{"id": "C162", "title": "Interpolation puts a series on its grid and keeps its points", "statement": "`interpolate` gives a row for every multiple of the frequency from the first time to the last and keeps every known value. With the linear method a time between two known values gets the point on the straight line through them; forward filling gives the last row up to it and backward filling the next row from it on. A complete series comes back unchanged, the order of the rows makes no difference, repeated times raise unless they are to be removed, and without a frequency the most frequent difference is used. The argument `base` moves the grid by that amount.", "quantifier": "all series of any number of columns with missing values anywhere, all frequencies of fixed length, all origins and methods", "why_tests_cant": "The tests use daily series with a few missing days, on midnight, and two half-hourly series off the hour for which they expect that nothing but NaN comes back without a base. Regular series off the grid, bases that do not fit, missing values in the middle of given rows, rows out of order and repeated times are not compared.", "anchors": ["kats/consts.py: TimeSeriesData.interpolate", "kats/consts.py: TimeSeriesData._interpolate_new", "kats/consts.py: TimeSeriesData.infer_freq_robust"]}
{"id": "C163", "title": "The Hurst exponent is the growth rate of the lagged differences", "statement": "For a series of at least five points the exponent is the slope of the least squares line through the logarithms of the standard deviations of the lagged differences against the logarithms of the lags, over all lags from 2 below the limit that leave two differences; if the standard deviations are a multiple of a power of the lag, it is that power. Unit, level and a linear trend make no difference, and a limit beyond the series has no influence. The result lies between 0 and 1, and shorter series raise.", "quantifier": "all series, all limits of the lag, all changes of unit, level and trend", "why_tests_cant": "The tests compare the exponent of a few fixed series with stored numbers, several of them negative. Constant differences, short series, small limits and changed units are not tried.", "anchors": ["kats/tsfeatures/tsfeatures.py: TsFeatures.get_hurst"]}
{"id": "C164", "title": "The registry of detector models finds the classes that can be used", "statement": "Looking up a name gives the class with that name, for every class that was defined and is not abstract; abstract classes are not found, and a name that is not there raises an InternalError. Two classes never stand for the same name.", "quantifier": "all sequences of class definitions over any hierarchy, all names", "why_tests_cant": "The tests define one class with a constructor only, find it, look for one missing name, for one class that was imported and for the base class. Classes that inherit abstract methods are not recognised as abstract by the test, and equal names do not occur.", "anchors": ["kats/detectors/detector.py: DetectorModelRegistry.__new__", "kats/detectors/detector.py: DetectorModelRegistry.get_detector_model_by_name", "kats/detectors/detector.py: DetectorModelRegistry.get_registry"]}
{"id": "C165", "title": "Time zones change how times are shown, not which value belongs to them", "statement": "With the argument `tz` the series has that zone: texts and time stamps without a zone are clock times of it, unix times are instants. `set_timezone` of a series without a zone keeps for every row its value and what the clock shows, in order of the instants when sorted and in the old order otherwise; `convert_timezone` keeps the instants and the values. Each does nothing when the zone is there or missing, respectively. Clock times that occur twice or never raise unless NaT, a guess or a shift is asked for.", "quantifier": "all zones as functions from instants to offsets, all series, all policies and flags", "why_tests_cant": "The tests look at the name of the zone after the change, for four series, and at the unix times of one. They do not compare values before and after, nor combine the dropping of repeated times with unsorted rows, nor give `tz` for time stamps.", "anchors": ["kats/consts.py: TimeSeriesData._set_time_format", "kats/consts.py: TimeSeriesData.set_timezone", "kats/consts.py: TimeSeriesData.convert_timezone", "kats/consts.py: TimeSeriesData.to_dataframe", "kats/consts.py: TimeSeriesData._sort_by_time"]}
{"id": "C166", "title": "The compatibility layer orders versions and hides the differences of the libraries", "statement": "Versions are compared by epoch, release numbers (missing ones are 0) and stage, whether given as a version, as text or by the name of a package; this is a linear order and the six operators are its relations. The wrappers of the assertions of pandas pass each keyword exactly from the version on that knows it, turn a tolerance into the most digits that are not stricter, and check what they are asked to check. The wrappers of the errors of scikit-learn and of the exponential smoothing of statsmodels call every version with arguments it knows and give the same answer with each.", "quantifier": "all versions, tolerances, flags, errors of outputs, and pairs of series described by what agrees", "why_tests_cant": "The tests of the comparisons use version 0.12.2 and a few others; those of the pandas wrappers patch pandas and look at the keywords for some versions, with check_index=False only for 1.3; those of scikit-learn use versions 0.24 and 1.0 with a mocked error, not 0.24.2, which requirements.txt names as the least; the one of statsmodels only looks at the version. Tolerances above 1 are not used.", "anchors": ["kats/compat/compat.py: Version", "kats/compat/pandas.py: convert_precision", "kats/compat/pandas.py: assert_series_equal", "kats/compat/pandas.py: assert_frame_equal", "kats/compat/pandas.py: assert_index_equal", "kats/compat/sklearn.py: mean_squared_log_error", "kats/compat/sklearn.py: mean_squared_error", "kats/compat/statsmodels.py: ExponentialSmoothing.__init__"]}
{"id": "C167", "title": "The table of scores by arms holds every score and the parameters of every arm", "statement": "`_repivot_dataframe` turns the raw table of scores, one row for an arm and a metric, into one row for each arm of a trial, in order and once each, with a column for every value and metric; a cell is the value of the row of that arm and metric, and empty if there is none. Every arm has its parameters. A table results unless an arm has the same metric twice.", "quantifier": "all tables, keys and metrics in any linear order", "why_tests_cant": "The two tests with constraints, the only ones that reach this code, are commented out.", "anchors": ["kats/utils/time_series_parameter_tuning.py: TimeSeriesParameterTuning._repivot_dataframe", "kats/utils/time_series_parameter_tuning.py: TimeSeriesParameterTuning.list_parameter_value_scores"]}
{"id": "C168", "title": "The KPSS statistic, the lags of the ARCH test and the smoothing parameters are those of the series", "statement": "The KPSS feature of two or more observations is computed from the residuals of the best line; it is positive unless the series is a line, when it is NaN, and does not change when the series is scaled or a line is added. The ARCH test has a fifth of the length as lags, at most ten. The smoothing features are the parameters of the fitted model if they are not switched off, and NaN if the fit fails.", "quantifier": "all series of numbers of an ordered field and all lengths; all fits, dictionaries of switches and defaults", "why_tests_cant": "The tests compare the features of a few series with stored numbers, always through the class, which passes a dictionary of switches. They do not scale a series, use a line, or call the functions without switches, which is documented to disable nothing.", "anchors": ["kats/tsfeatures/tsfeatures.py: TsFeatures.get_unitroot_kpss", "kats/tsfeatures/tsfeatures.py: TsFeatures.get_het_arch", "kats/tsfeatures/tsfeatures.py: TsFeatures.get_holt_params", "kats/tsfeatures/tsfeatures.py: TsFeatures.get_hw_params"]}
{"id": "C169", "title": "Equality of change points is an equivalence that compares all fields and agrees with the hash", "statement": "Two change points are equal exactly if they are of the same class and all their fields are equal numbers; the comparison has an answer for all objects, does not depend on the order, and equal change points have equal hashes. The approximate comparison of CUSUM change points holds if the numbers differ by at most half a unit of the last place in relation to the first, and only if they do so or differ by at most one unit; it does not depend on the order and has an answer for all finite numbers.", "quantifier": "all change points, of all classes and with any fields, including NaN and arrays; all pairs of finite numbers and numbers of places", "why_tests_cant": "The tests use the approximate comparison only to show that two runs of the detector agree, in one order. A test of DTW compares with expected change points by ==, which ignores the name of the series they list. No test compares a CUSUM change point with one of another class, takes a hash, compares points that differ in one field only, or in reversed order.", "anchors": ["kats/consts.py: TimeSeriesChangePoint.__eq__", "kats/consts.py: TimeSeriesChangePoint.__hash__", "kats/detectors/cusum_detection.py: CUSUMChangePoint.__eq__", "kats/detectors/cusum_detection.py: CUSUMChangePoint._almost_equal", "kats/detectors/cusum_detection.py: CUSUMChangePoint.almost_equal"]}
{"id": "C170", "title": "Detectors are restored from their JSON, and repairing the text of a Prophet model only removes zones", "statement": "When the text of a saved Prophet model cannot be loaded because of time zones, the letter of the zone is removed from all times in it and nothing else is changed; doing it again changes nothing. A text that loads as it is gives its model, and other errors are raised; both Prophet detectors do so. An interval detector is made exactly with valid parameters, and saved and loaded it is the same, also after it was fitted.", "quantifier": "all texts, also such as no model gives; all parameters of interval detectors, all lengths of data", "why_tests_cant": "The tests save and load Prophet models of series without time zones, so the repair never runs. The interval detectors are loaded from one text, and one of them is compared with it, all with a given duration.", "anchors": ["kats/detectors/prophet_detector.py: load_model_from_json", "kats/detectors/prophet_detector.py: ProphetTrendDetectorModel.__init__", "kats/detectors/interval_detector.py: IntervalDetectorModel.__init__", "kats/detectors/interval_detector.py: IntervalDetectorModel.serialize", "kats/detectors/interval_detector.py: TwoSampleIntervalDetectorModel.__init__"]}
{"id": "C171", "title": "Categorical columns of ML-AR are encoded by numbers that tell the categories apart, in training and forecasts", "statement": "In training and in every forecast the categories of a series are encoded by numbers, with one-hot encoding by indicators of which one for each column is 1; two rows are encoded alike exactly if they have the same categories, and a forecast encodes a series as training did.", "quantifier": "all sets of series with any number of categorical columns, all labels, windows and origins of forecasts, also after the end of the data", "why_tests_cant": "The tests train on one series or on two copies of it, with one-hot encoding, and only check that forecasts are not missing. With categories they do not forecast more steps than the horizon, so no forecast starts from forecasts; no test looks at the features, and the row of zeros is accepted by the regressor.", "anchors": ["kats/models/ml_ar.py: categorical_encode", "kats/models/ml_ar.py: MLARModel._embed_categorical", "kats/models/ml_ar.py: MLARModel._get_all_cat_labels", "kats/models/ml_ar.py: MLARModel._predict"]}
{"id": "C172", "title": "The weights of runs with a covariance are the probabilities of runs of rejections", "statement": "With a covariance, the weight number j is the probability that the last of m statistics is not rejected and the j before it all are, and the last weight is the probability that all m are rejected, for tests of the upper, the lower and both sides. For independent statistics these are the weights that are used without a covariance, and the weights add up to one.", "quantifier": "all lengths m of runs, all levels p, all three sides of the test and all joint laws of the statistics with finitely many outcomes that do not hit the critical value exactly; all symmetric distributions for independent statistics", "why_tests_cant": "The tests compare the identity with no covariance for m up to 3 and three levels, and for correlated statistics only check an inequality of the final probability, for the upper side. A mistake in the corners of the two-sided regions for longer runs, or in the part of the covariance that is taken, is invisible with the identity.", "anchors": ["kats/detectors/interval_detector.py: IntervalDetectorModel._w_one_tailed", "kats/detectors/interval_detector.py: IntervalDetectorModel._w_two_tailed", "kats/detectors/interval_detector.py: IntervalDetectorModel._w"]}
{"id": "C173", "title": "With a covariance the run probability is exact and behaves like a probability", "statement": "The number that is used as the probability of at least one run of m rejections among n tests with a covariance is this probability. In particular it is the one without a covariance for independent statistics, it is the probability that all tests are rejected for n = m, it grows with n, is at most one, and at most n - m + 1 times its value for n = m; runs longer than n are refused.", "quantifier": "all n >= m >= 1, all levels, all sides of the test; all symmetric distributions for independent statistics, otherwise all joint laws with finitely many outcomes for which runs of rejections are as probable at every place", "why_tests_cant": "The tests compare the identity with no covariance for m up to 3, and check for a correlated process that the result is not smaller than the one for independent tests. The true probability with dependent statistics is never computed, so it goes unseen that only dependence within m tests can be given and that tests further apart are taken as independent.", "anchors": ["kats/detectors/interval_detector.py: IntervalDetectorModel._probability_of_at_least_one_m_run_in_n_trials", "kats/detectors/interval_detector.py: IntervalDetectorModel._w"]}
{"id": "C174", "title": "With the logarithm of the targets, ML-AR forecasts are positive, undo the transformation and do not depend on the unit", "statement": "With transform_data=\"log\" every forecast is positive; a regressor that predicts the output of training exactly gives the true value as forecast, and the logged training error then compares equal numbers; multiplying a series by a positive factor leaves the training rows as they are and multiplies the forecasts by the factor.", "quantifier": "all series of positive values, all modes of normalization, all windows, statistics and regressors", "why_tests_cant": "No test sets transform_data. The tests of ML-AR only use one unit for each series, and errors that are only logged are never compared.", "anchors": ["kats/models/ml_ar.py: MLARModel._embed_and_gen_past_features_single_series", "kats/models/ml_ar.py: MLARModel._predict", "kats/models/ml_ar.py: MLARModel._train", "kats/models/ml_ar.py: normalize", "kats/models/ml_ar.py: denormalize"]}

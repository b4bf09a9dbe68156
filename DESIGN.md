# Design: a Lean 4 model of Kats

## Conventions

* Values are exact rationals `ℚ` (a polymorphic linear ordered field or `ℝ` only where roots or
  limits are needed).  A missing value (NaN) is `none : Option ℚ`.  Float rounding is outside the
  model everywhere.
* Timestamps are integers `ℤ` (nanoseconds).  Time zones and calendar frequencies are outside.
* Python exceptions are values: functions that can raise return `Except Err α`.
* Objects that are mutated are modelled by functions from old state to new state (plus result).
* pandas' default `sort_values` is quicksort and not stable, so "the sort" is a parameter: any
  function returning a permutation that is ordered by time.  `List.mergeSort` is an instance.
* Third-party routines (scipy distributions, regression fits, forecasting models) are parameters;
  whatever is assumed about them appears as a hypothesis in the theorem statement.
* Mutable objects shared between caller and callee (C37, C39, C94) are positions in a store, a list
  of the contents of all objects made so far.
* Numpy special values (`inf`, NaN from `0/0`) are kept where the code's behaviour depends on them:
  `Fl` in `Model/Float.lean`.
* When the code violates a property, the model keeps the code's behaviour.  The negation is proved
  with a concrete witness (`..._violated`) and the strongest true part is proved as `..._partial`.

Layout: `lean/Verif/Model/*` are the definitions citing the code, `lean/Verif/Spec/*` (or the head
of a property file) the small independent specifications, `lean/Verif/Lemmas/*` helper lemmas, and
`lean/Verif/Props/*` only the property theorems with their examples.

## Properties: what is modelled and how it is proved

| id | model | proof |
|----|-------|-------|
| C01 | constructor as dedup-then-sort on row lists, sort abstract | permutation, pairwise order, membership of first occurrences |
| C02 | constructor decision tree, `Except` | case analysis giving an iff |
| C03 | extend as state transformer, frequency inference a parameter | violated for validate=True (mutation precedes the check); law for success |
| C04 | exclude as filter | perm/filter laws, idempotence |
| C05 | outer merge on time as join of lists | pointwise for distinct times; violated for duplicates |
| C06 | state with cached min/max, operation list | invariant by induction over operations |
| C07 | iterator state machine | violated (start never reset); single pass law |
| C08 | diff, mode | count comparison |
| C09 | sizes as floor of rational product, slices | list laws; range rejection violated |
| C10 | searchsorted left/right as counts on sorted lists | slice = filter |
| C11 | linspace truncated to int, slices | arithmetic on offsets |
| C12 | constructor decision | violated; partial |
| C13 | map over association list, regroup per fold | structural induction |
| C14, C15 | split functions, array_split | arithmetic, induction |
| C16 | accumulating error state | sum law for the first run; violated for the second |
| C17 | name filter | violated for `_get_scorer`; iff for the constructor |
| C18-C23 | metrics over `List ℚ` with NaN as `Option` | list induction, ordered-field inequalities |
| C24 | companion matrix power vs sum over all Boolean lists | recurrence on first failure position |
| C25, C26 | loops with fuel | loop invariants |
| C27 | run extraction from np.diff | characterisation of maximal runs |
| C28 | statistic, critical value | ordered-field algebra; violated for alpha > 1/2 |
| C29 | detector state across calls | violated; partial for fresh object |
| C30 | run-length recursion in the log domain, with the buffer growing from its end | refinement to enumeration of segmentations |
| C31, C32 | diagonal extraction, in-place fill | indexing; violated for matrix with agg_cp |
| C33, C34 | argmin/argmax iteration with fuel | invariant; simulation per column |
| C35, C36 | model state machine, window tiling | invariants over streams |
| C37 | configuration records and dictionaries | round trip, violations |
| C38 | chunking arithmetic | list laws, violation at residue 0 |
| C39 | caller-visible history as state | violations and frame theorems |
| C40 | sliding windows | list laws |
| C41 | interval state machine | loop invariant |
| C42, C43 | value records, window update | algebra; invariant |
| C44, C45 | weights, median | ordered-field inequalities, permutation invariance |
| C46-C48 | lcm, block sums, projection | induction and matrix algebra |
| C49 | phase lists | index laws |
| C50 | prefix matching | iff and preservation laws |
| C51 | fold results as optional scores, average | fold induction |
| C52 | registry as list, protocols as finite type | case analysis |
| C53 | `Option ℚ` arrays | filter laws |
| C54 | rolling window means | index laws |
| C55 | MASE, tracking signal | algebra |
| C56 | data frame as state | frame laws |
| C57 | `_get_lowest_m` with the run probability of C24 | loop invariant plus monotonicity |
| C58 | p-values through an abstract cdf | monotonicity |
| C59, C60 | sufficient statistics by run length | induction over the stream against the closed-form posterior |
| C61, C62 | run-length recursion, log domain | enumeration of segmentations |
| C63 | dictionary of lists | count laws |
| C64, C65 | changepoint iteration over an ordered field | invariant |
| C66, C67 | likelihood ratios over ℝ | algebra, log inequalities |
| C68 | decision as Boolean formula | iff |
| C69 | remaining metrics | closed forms |
| C70 | test statistics | algebra |
| C71 | rolling mean of scores | window law |
| C72 | response as a record of series | frame laws |
| C73-C75 | percentage change over `Fl` | algebra over ℝ, special values |
| C76 | interval data and spikes | filter laws |
| C77 | severity of anomalies | window laws |
| C78 | future dates | step laws |
| C79-C81 | KatsEnsemble data flow | index laws, ordered-field inequalities |
| C82 | projection onto the coherent space | matrix algebra, minimisation |
| C83-C86 | aggregation, residual matrix, constructor | index laws |
| C87-C90 | StatSig state machine | loop refinement to a direct window definition |
| C91-C93 | rolling statistics over ℝ | affine and permutation laws |
| C94 | BOCPD detector model, object store | frame and row laws |
| C95-C97 | DTW recurrence over ℝ ∪ {∞} | least cost over alignments, bound, argmax of argmin |
| C98-C99 | exact rationals, rows by time | loop invariants, alignment law |
| C100 | residuals as optional reals, density over ℝ | quantile bounds, case analysis |
| C101 | smoothed differences over ℝ | index laws, affine laws, extremal witness |
| C102 | rows by date and hour | counting, chunk alignment |
| C103 | lags, spectrum rows | sieve invariant, polynomial differences |
| C104 | rows, decomposition as parameter | quantile algebra, runs of missing values |
| C105 | frames of columns, tests as parameters | mapM over windows, symmetry |
| C106 | rows, model and chi-squared tail as parameters | induction on the loop, Samuelson's inequality |
| C107 | tables, models as values with history returned | alignment of tails |
| C108 | switches as functions to `Option Bool`, class dictionaries as state | fold over the selection, concrete instances |
| C109 | statistics over `List ℝ`, periodogram a parameter | list induction, Cauchy-Schwarz, Gibbs' inequality |
| C110 | components, autocorrelations over `List ℝ`; STL and partial autocorrelations as parameters | moments of leave-one-out samples, telescoping windows, Cauchy-Schwarz |
| C111 | the loop of the averages with NaN as `Option` | loop invariant against the documented sum |
| C112 | times as whole seconds, the calendar a parameter, reals for the Fourier columns | counting in finite sets, arithmetic modulo 7, invariants of the column loop |
| C113 | results of the detectors of C33-C68 and C105, lists of scores for the others | computation on a rational series carried over to the reals, least squares |
| C114 | errors of the folds and forecasts as lists of reals, quantile a parameter | least squares of a line, falling standard errors |
| C115 | normal equations over Mathlib matrices, quantile a parameter | Gram matrix, leverage as least bound, closed sums |
| C116 | smoothing parameters, seasonal component, quantile as parameters | linearity of exponential smoothing |
| C117 | rows of sines and cosines, least squares over matrices | polynomials on the unit circle have few roots, normal equations |
| C118 | STL, `seasonal_decompose` and interpolation as parameters | case analysis, exponential of a sum |
| C119 | whole seconds, day of the month a parameter, grid of the resampler | sorted lists, divisibility, interpolation lemmas of C104 |
| C120 | STL and the inner models as parameters, linear and quadratic as an instance | lists, tiling, exactness of C115 |
| C121 | real matrices, flattened arrays indexed by column and place, frequency a parameter | normal equations, positive definite forms, completing the square |
| C122 | timestamps as whole seconds with an offset for each zone, day of the week and civil date by the proleptic Gregorian calendar, sine and cosine over the reals | civil calendar by induction on days, case analysis, injectivity of the unit circle |
| C123 | detectors, transformers, models and features as parameters, one record of state for each step object | induction on steps and series, witnesses |
| C124 | model, error draws and t quantiles as parameters, numbers in the reals | floor division, lists by blocks, sums of squares, induction on chains |
| C125 | random numbers and dates as functions of the generator, values in the reals, change points as naturals | induction on lists and segments, iterated differences and sums, periodicity of the sine |
| C126 | what Ax and Nevergrad do as parameters, scores as rationals, a process pool as `map` | induction on lists, case analysis of the factory, finite witnesses |
| C127 | predictions and labels as lists or scalars, data and model of a run left out | association lists, induction on the metrics and on the points |
| C128 | Prophet itself (fit, seasonal components, percentiles) left out, random draws as parameters, reals for floats, times equally spaced in the future frame | lists and induction, sums over change points, recurrence of the offsets |
| C129 | Prophet as a parameter (forecast and bounds for each time), reals for floats, serialization and time zones left out | association lists, filters, sorted lists, field arithmetic |
| C130 | column `time` left out, integer labels, exact floats with NaN and infinities, pandas windows and exponential averages as definitions | closed form of the averages by induction, finite sums, lookups in association lists |
| C131 | models, scalers, the linear regression and pickle as parameters, state after an exception left out, integer row labels | tables as functions of the row, sorted lists determined by their elements, first position of the last seasonal value modulo a day |
| C132 | series on a common grid of integer times, row statistics, calendar features and regressor as parameters, categoricals and the log transform left out, iteration for one target and as a set of forecasts | rows as functions of the origin, first missing number by counting, invariants of the loop |
| C133 | frames as rows of functions of the column, complete data except for the means, the vectorised detector as a parameter that treats columns alike, whole times in nanoseconds | simulation of every column by the scalar model, invariant of the state, masks as prefixes and suffixes |
| C134 | times in nanoseconds, the detector of all columns as one parameter that does not depend on the position in time, integer baselines as in pandas before 1.4 | positions on a regular grid, simulation of the loop window by window, invariant on the last changepoint; witnesses by computation |
| C135 | series as rows with integer times and one value column, frequency given, integer or string keys, numpy keys as strings when mixed | induction over runs of missing values, divisibility on the grid, cuts of a list; witnesses by computation |
| C136 | exact rationals, times as integers with a fixed frequency, random orders and draws as parameters, the features of a window left out (C137) | permutations and chunks of the order, arithmetic of windows, induction over the filled period; witnesses by computation |
| C137 | exact ordered field, `exp` and `log` as parameters, no gradients, the fields of a time as numbers; the values of `TsFeatures` are parameters | sums over ranges for rows of the losses, convexity of the pinball loss, indices modulo the row length; witnesses by computation |
| C138 | numbers are integers, truth values, finite rationals, NaN and infinities; `nn_structure` is a list of lists of integers and is not checked, as in the code; `pd.to_timedelta` is a parameter; JSON as the map of its keys and values; other types of arguments only where the code asks for the type | the sequence of checks unfolded into one condition; each object passes its own checks again; witnesses built on the defaults |
| C139 | exact ordered field; `log`, `exp`, the sigmoid, the network with its state, the features and the losses are parameters; a tensor is a list of rows; of `_single_pass_s2s` only the order of its steps (the rest is C140); no gradients and no checks for debugging | invariant of the lists of a row over the loop; a pass as a fold over its steps, which are written in closed form; equivariance and causality row by row, then by induction on the steps; witnesses by computation |
| C140 | as C139; the decoder takes its state from the encoder by a function; `torch.median` is the lower of the middle values; no gradients and no checks for debugging | filled values characterised and shown unique; the median by counting in the sorted list; the steps in closed form, then the result of a pass from that of its steps; causality, features and scale by induction on the steps; the violation by computation |
| C141 | exact field; the networks, features and metrics are parameters; a frame is its columns, rows and times; weights are a value that fits a network or not; no gradients, optimizer, progress output, files | the adjustment by induction on the windows, and its characterisation shown unique; the frame by positions in the flattened windows; `predict` as a fold over batches whose keys are new; `evaluate` row by row; the passes by the theorems of C139 and C140; witnesses by computation |
| C142 | as C141; the training of one model, its random numbers and the text of the parameters are left out; the shuffle is any permutation; of what training gives only is known whether JSON can hold it | the keys of each part followed through the preparation and the split; the two ways to assign parts by positions; the average of frames by positions in the windows from C141; the median by counting in the sorted list; saving and loading model by model; violations by witness |
| C143 | the decompositions, `freq_to_period` and the global model are parameters; exact values; the seasonality has no missing value and the length of the series; no parallel work | positions in repeated lists; `predict` as maps over keys that are new; operators undone by field arithmetic; violations for every length and by witness |
| C144 | exact numbers; sigmoid and `tanh` are parameters; `torch.nn.Linear` and `torch.nn.LSTMCell` as documented; gradients, `jit` and random weights are left out; what an error leaves in the lists of states is left out | sizes through layers and blocks by induction; the cells value by value; row by row simulation of the folds over layers; states at equal positions; convex combinations for the bounds; the pass of C139 with a network that can fail; violations for every network and by witness |
| C145 | as C142; what training makes of the sets is a parameter that can fail, as are the metrics; timestamps are integers; `infer_freq_robust` is a parameter; parallel work gives what the loop gives | the loop over timestamps as a fold with its state; keys followed from the shuffle to the parts; rows by positions from C141 and C142; the sizes of folds from C14 and C15, the errors from C16; violations for every input and by witness |
| C146 | values are exact, NaN or infinite; the models, the metric, the features and the parameters the search tries are parameters that can fail; no parallel work; the search as a list of trials with their order | the loop over trials as the first minimum by induction; the split by integer arithmetic; violations for every series of the kind and for every model |
| C147 | exact features; `np.std`, the random choices, the features of a series and the classifiers are parameters; a classifier looks at each row by itself; no plots, correlations and files | acceptance as an equivalence; positions kept are counted class by class; column sums and sums of squares; the row of a prediction computed value by value; averages of C142 for the comparison with fixed models; violations for every input and by witness |
| C148 | exact features and probabilities; `np.std`, the random orders, the features of a series and the classifiers are parameters; a classifier looks at each row by itself; no files | acceptance as an equivalence; the points of the curve of precision and recall as a list of thresholds with counts, and the search as a first maximum; a permutation for the sets; scaling by C147; violations for every input and by witness |
| C149 | exact numbers; `np.std`, the order of the values, the initial weights, the cross entropy, the steps of the optimizer (without gradients), the random orders and the features of a series are parameters; no plots and files | acceptance as an equivalence; shapes of layers by induction; batches as slices of a permutation; the loop over epochs with the first least loss as its invariant; sums exchanged for the losses; scaling by C147; violations for every input |
| C150 | cells are dictionaries, texts (read by `ast.literal_eval`, a parameter) or others; exact numbers; the features of a series, the rounding and the classifiers are parameters; no files | the read as a relation cell by cell; composition of the relation for a second read; columns as first occurrences; training by C147; violations for every input and by witness |
| C151 | whether a detector can be made is a parameter; values as in the frame; the parameters of C149; no plots | acceptance as an equivalence; constants as columns with one value; a permutation of the names; training and recommendation by C149; violations for every input |
| C152 | the network, its gradients and Adam are parameters, its hidden state is modelled; exact numbers, no 32-bit rounding; no missing values; `pd.infer_freq` is a parameter | the scaler from the least and greatest value; induction over sequences, epochs and steps; an affine change of the values leaves the scaled values; violations for every input |
| C153 | what statsmodels estimates and forecasts is a parameter, with the arguments it is given; labels of its rows are positions or dates; of the arguments of `fit` that are only passed on there is one type; `pd.infer_freq` is a parameter | the calls and frames computed for every library; dates by C78; violations for every library |
| C154 | what statsmodels estimates and forecasts and the errors of the backtests are parameters; the empirical interval is that of C114; frames in the order of time for `TimeSeriesData`; of the chart only the columns and the lengths; names of columns differ | dates by C78; the fourth root by its powers; the interval by C114; violations for every library |
| C155 | fit, future frame and forecast of NeuralProphet are parameters; rows are functions from names of columns, dates are numbers; the name of a regressor is one text; parameters that are only passed on are one type | acceptance and calls characterised exactly; sorting by the theorems on merge sort; violations for every library |
| C156 | the p-value of the t-test is a parameter; `np.polyfit` of degree one is the line of least squares in closed form; coefficients are not zero; values are rationals | least squares and signs of slopes by sums over pairs; invariance under affine maps; violations for all series |
| C157 | arrays are functions of the position; both intervals have the same number of series; `ttest_ind` is Student's test in closed form for finite data; `multipletests` and the quantiles are parameters | reduction of every attribute to the single series; violations by concrete intervals |
| C158 | 2×2 matrices are written out; random numbers and the normal density are parameters; variances for standard deviations, likelihoods for logarithms; one point for the regression is an error | completing the square over lists; uniqueness of the least squares line; violations for all series |
| C159 | proposals, sorting and the detection are parameters; a series without variation is outside; priors given are one number | induction over the rounds with the parameters that are kept; affine maps of the series; violations for all data |
| C160 | the binomial distribution is written out, `beta.ppf` is a parameter that inverts the binomial tail at whole numbers; numbers of successes are whole in the statements; plotting and the state after an exception left out | least number reaching a level; splitting the total mass at the critical values; intermediate value theorem for the assumption; violations for all levels and sample sizes |
| C161 | a frame is a list of named columns with a flag for `int64` | loop over the names against membership; violations by frames with one row |
| C162 | times are seconds, frequencies are fixed lengths, the path for pandas before 1.1 left out; `resample` written out (bins from the origin, the shortcut of pandas for an index that has the frequency already), `inferred_freq` a parameter of which only the differences of neighbours are known; other methods are a parameter per column | membership of the grid by divisibility; lookup in ordered rows; the line by positions carried over to times |
| C163 | real numbers; `np.polyfit` of degree 1 written out (normal equations, least norm for one point, NaN if a logarithm is infinite) | sums of squares expanded, the difference of two errors is a positive form; spreads as finite sums; a family of five points that takes every value |
| C164 | a class is its name and the dictionaries in the order of resolution; bases are classes of the registry, `ABC` or `object`; `inspect.isabstract` for classes made by `type.__new__` | induction over the definitions from the last one |
| C165 | one column; times in seconds with labels of the index kept; zones are functions from instants to offsets, `infer` and the shifts are parameters; texts are given with what they are parsed to | unique preimages of the clock; lookup by label against positions; a series with a gap in the labels |
| C166 | versions are epoch, numbers and one integer for the stage; local labels left out; what each version of pandas, scikit-learn and statsmodels accepts is written out from their documentation; series are compared by what agrees | first differing number by `Nat.find`, tuples without trailing zeros; floor of a logarithm |
| C167 | trial and arm are one key of a linear order; columns other than the parameters by position; behaviour of `unstack` and `drop` written out | insertion into increasing lists; unique rows by key and metric |
| C168 | exact numbers; `kpss` of statsmodels with linear trend and one lag written out; the fit of the smoothing is a parameter; the statistic of the ARCH test itself is left out | normal equations; the long-run variance with one lag is half a sum of squares |
| C169 | exact numbers, NaN is `none`; a subclass that inherits the comparison is one constructor with a string for its fields; the order in which Python asks the operands is written out; sizes of arrays only matter as none, one, or more | case analysis; the distance of a number to its rounding is at most one half |
| C170 | bytes are characters; the regular expression is matched without backtracking, as there is one way to match; `model_from_json` and `tz_localize` are parameters; a dictionary stands for the JSON of an interval detector | the matcher is shown to find exactly the texts of the pattern, the rest is induction over the text |
| C171 | times on the common grid; names of columns left out; a series is used up to its last target, a time that is given; `pd.CategoricalDtype` refuses missing categories and `astype` makes other values missing | the labels are the distinct first values; blocks of indicators are compared one by one |
| C172 | the normal law is replaced by any finite joint law, and by any symmetric distribution for independent statistics; quantiles and box probabilities are parameters; the warning is left out | the sum over the corners is a product of sums; indicators multiply; the sum telescopes |
| C173 | as C172; the powers of the matrix are exact | the powers solve a recursion over the last failure, for any weights; bounds by induction over it. Exactness fails for dependent statistics, shown by two equal ones |
| C174 | real numbers, positive values; statistics of windows and the regressor are parameters; one target; writing the logarithms into a part of a frame does not change the frame | the logarithm turns a factor into a shift, which the normalization removes and the exponential gives back; division does not remove a shift |


## Violations found

Each is a theorem with a concrete witness; the model keeps the behaviour of the code.

* `C03_failed_extend_unchanged_violated`: C03 is violated: a rejected `extend` (`ValueError`) has already changed the series.
* `C05_pointwise_violated`: C05 is violated for repeated time stamps: adding a two-point series to itself gives four points.
* `C07_second_iteration_violated`: C07 is violated: a second `for` loop over the same iterator yields nothing.
* `C08_after_extend_violated`: C08 is violated for a sorted series extended by earlier points: the gap found is negative and is not a gap of the ordered times.
* `C09_out_of_range_rejected_violated`: C09 is violated: `train_frac=0` (documented as outside the range) is accepted, and then both train and test are the entire series.
* `C12_max_core_violated`: C12 is violated: a `max_core` above the number of cores is not capped, the attribute stays unset; and `max_core = cores` is rejected although the message allows it.
* `C16_rerun_doubles_violated`: C16 is violated: running the backtest again on the same object always reports twice the error of the first run (with or without multiprocessing), because `errors` is never reset.
* `C17_generic_violated`: C17 is violated for `GenericBacktester`: whatever unknown names are requested, no exception is raised and they are just absent from the scorers.
* `C20_smape_violated`: C20 is violated for SMAPE: the metadata advertise [0, 1], but the value 2 occurs.
* `C20_mape_violated`: C20 is violated for MAPE and MdAPE: the metadata advertise non-negative values, but with negative true values they are negative (the division is by `y_true` itself).
* `C22_orientation_violated`: C22 is violated: the documented rate for t <= 0.5 is `mean(y_pred < y_true)`, here 1, and the code returns 0; the documented rate for t > 0.5 is `mean(y_pred > y_true)`, here 0, and the code returns 1. The same happens for every single point off the forecast.
* `C28_duality_violated`: C28 is violated for one-sided tests with a corrected alpha above 1/2, whatever the normal distribution functions are: the sign of the critical value is lost in `absolute_critical_value`. Witness: no difference at all is rejected, while the hypothesised effect 0 is inside the reported interval.
* `C29_repeat_violated`: C29 is violated: calling `fit_predict` twice with the same data (left unchanged by the first call) on a detector with automatic duration gives a different corrected alpha and different predictions, because the automatic duration is stored as if it had been given.
* `C29_placeholder_violated`: C29 is violated: a call with `consolidate_into_intervals=False` returns the predictions of an earlier call instead of the all-zero placeholder.
* `C32_aggregated_violated`: C32 is violated in aggregated mode (the default): the first row of the matrix given to the user sums to 0, for every series and prior.
* `C35_constant_baseline_violated`: C35 is violated: with a constant baseline (deviation 0) and only increases watched the lower bound is `inf * 0`, the scan never counts as normal and the alert stays on although the mean is exactly the baseline mean.
* `C35_both_violated`: C35 is violated: with `change_directions = ["both"]`, which the detector accepts, any mean counts as normal and the alert ends at the next scan although the level is still far off.
* `C36_short_step_violated`: C36 is violated: hourly data whose 11 points reach exactly one history window (10 h) past the first, with a step of 2 h: the last point is left to the remainder, for which no point lies more than a history window back, and `fit_predict` fails with a ValueError from numpy.
* `C37_cusum_eq_violated`: C37: `==` is too coarse to check a restored model: it does not look at the baseline adaptation, the seasonality settings or the vectorised mode.
* `C37_bocpd_violated`: C37 is violated by `BocpdDetectorModel`: a threshold is not stored.
* `C37_rolling_violated`: C37 is violated by `RollingStatsModel`: no serialised model can be restored.
* `C37_statsig_violated`: C37 is violated by `StatSigDetectorModel`: `anomaly_scores_only=True` does not survive.
* `C37_multi_violated`: C37 is violated by `MultiStatSigDetectorModel`: the method, the rescaling flag and the use of corrected scores all fall back to the constructor defaults.
* `C38_multiple_violated`: C38 is violated whenever the number of scored points is a multiple of `max_split_ts_length`: `res[:-remaining]` with `remaining = 0` is empty, so every point gets the initial row with score 0.
* `C38_min_change_violated`: C38 is violated by a minimum percentage change: the long-series path ignores it.
* `C38_short_violated`: C38 is violated when only one point precedes the scored ones: the long-series path asks for the frequency of that one point and raises `ValueError`; a shorter series of the same kind is scored.
* `C38_season_violated`: C38 is violated with seasonality removal: the joined results are written to an object that is not the one returned, so every point of a long series gets score 0.
* `C39_interval_violated`: C39 is violated by the interval detector: whenever a call with history and non-empty data succeeds, the caller's history object has grown by the data.
* `C39_bocpd_violated`: C39 is violated by `BocpdDetectorModel`: the caller's history grows by the new data.
* `C39_rolling_violated`: C39 is violated by `RollingStatsModel`: the caller's history always grows by the new data.
* `C39_statsig_violated`: C39 is violated by `StatSigDetectorModel`: when the history is too short but history and data together are not, or when only scores are asked for, the data are appended to the caller's history.
* `C40_again_violated`: C40 is violated by a time-based model: on a regular series the first call replaces the window, in seconds, by a number of points, and the second call takes that number for seconds.
* `C40_no_history_violated`: C40 is violated for calls without history: a comment in the code (404-406) promises that part of the data is then used as history with zero scores, but the call is always rejected.
* `C42_flat_violated`: C42 is violated for no change: the direction of a zero change is `"down"`.
* `C43_last_n_violated`: C43 fails for `n = 0`: `get_last_n(0)` is the whole response, because `ts[-0:]` is `ts[0:]`. Missing from `C43_last_n_partial`: exactly this case.
* `C44_weights_violated`: C44 (violated): an error method with negative values (`err_method="me"`, the mean error) gives a negative weight to one model and a weight above 1 to another; the result leaves the range of the base forecasts.
* `C45_order_violated`: C45 (violated): of two models with the same name only the last one counts, so the order of the models changes the forecast.
* `C48_padding_violated`: C48 (violated): (1) a bottom-up forecast of 3 steps from 2 level-1 forecasts returns the padded value as the third forecast; (2) with enough level-1 forecasts, the third reconciled forecast depends on the value with which level 2 is padded: padding with 2 gives 1, a real forecast 6 gives 2.
* `C49_phase_violated`: C49 (violated): a horizon longer than the history is rejected, whatever the method and data; and the oldest values are ignored when the length of the history is no multiple of `steps`, although one of them has the phase of a forecast (here the mean of 100 and 2 would be 51).
* `C50_distinct_violated`: C50 (violated): the call can return two columns of the same name, even two called `time`.
* `C51_failed_fold_violated`: C51 is violated: with weighting, one failed fold makes the whole summary fail with `TypeError` although other folds succeeded (`error_score` has no effect).
* `C51_all_failed_violated`: C51 is violated: when every fold failed, `IndexError` instead of the intended report.
* `C51_nan_violated`: C51 is violated: with weighting, a NaN score distorts the rest. Two folds of lengths 1 and 3, scores NaN and 10: the summary is 15, outside of the range of all scores.
* `C52_core_violated`: C52 is violated: `CORE_METRICS` claims to hold metrics that "return a float and can be invoked with just (y_true, y_pred)", but `residual` returns an array and three others need a threshold.
* `C52_metadata_violated`: C52 is violated: registered metrics without metadata, one because of a misspelled key.
* `C53_percentage_violated`: C53 is violated by the percentage metrics: a missing forecast counts as a perfect one, so dropping forecasts improves MAPE, MdAPE, MPE and RMSPE.
* `C53_mape_dilution_violated`: In general: MAPE averages over all positions with a true value, a missing forecast adding 0.
* `C53_weighted_mse_violated`: C53 is violated by the weighted MSE: with a missing value the normalisation still uses all weights, so the result (1/2) is below every available squared error (1).
* `C54_edges_violated`: C54 is violated at the edges: with every point covered the first rolling coverage rate of a window of three is 2/3.
* `C54_length_violated`: C54 is violated when the window is longer than the data: more rates than points.
* `C56_data_violated`: C56 is violated: `fit_predict(data)` overwrites the variance columns of the caller's data (here by variance / count), so that the second of two identical calls with the same object and an explicit duration computes different test statistics.
* `C57_global_error_violated`: C57 is violated: `fit_predict`'s documentation says alpha is corrected to be no greater than `alpha * (1 + r_tol)`, but testing each of the 4 points at the corrected alpha 0.57475 with the automatic duration 2 has global error 0.6113... > 0.55 * 1.1.
* `C58_stat_sig_violated`: C58 is violated for the two-sided test: the reported significance is half of the p-value, so some point is not rejected although its significance is at most alpha.
* `C59_normal_violated`: C59 is violated: with prior mean 10 and precision 1 and one observation 10 of precision 1, the code predicts 5; the posterior of the mean is centred at 10.
* `C61_segments_violated`: C61 is violated: for coin flips with Laplace's rule, two equal flips and prior 1/2, the textbook posterior probability that the second flip started a new segment is 3/7; the code says 1/2.
* `C62_first_term_violated`: C62 is violated: for two points of density 1/2 the documented sum is `log (1/2)`, the code returns 0.
* `C62_two_series_violated`: C62 is violated for several series: two identical series whose points all have density 1 have log predictive probability 0 together, the code adds `log 2` per point.
* `C64_flag_violated`: C64 is violated: a start at the fixed point with one permitted iteration converges in that iteration, the vectorised detector says stable, the univariate one unstable.
* `C65_fit_violated`: C65 is violated by the clamping to index 1: for a series whose only change is after the first point, the search starts at the perfect fit, leaves it for a worse one, and reports that as stable.
* `C66_nonneg_violated`: C66 is violated: for a split that explains nothing the "ratio" is negative, since the two variances are not both maximum likelihood estimates.
* `C67_first_half_violated`: C67: with any positive semidefinite inverse covariance, a change in the first half or the middle gets a ratio of at most 0 and so can never be significant, however large it is.
* `C67_llr_violated`: C67 is violated: witness with a clear jump a third of the way in (`P` the identity).
* `C71_start_violated`: C71 is violated at the start: on a constant series the first `k - 1` smoothed values are not the constant (the sum of fewer than `k` values is still divided by `k`).
* `C71_scores_violated`: C71 is violated end to end: during an alert, data that equal the baseline mean exactly get scores different from 0 (score = value minus baseline) until the window is full.
* `C72_update_violated`: C72 is violated by `update`: a rejected update can leave the response changed, with components of different times. Witness: the score is fine, the lower bound is an array of two values.
* `C72_extend_violated`: C72 is violated by `extend` with validation: when the joined scores fail it, `ValueError` is raised with the scores extended and the other components not.
* `C73_significant_violated`: C73 is violated: data compared with themselves are always reported as a statistically significant change, because the confidence interval collapses to `[1, 1]`.
* `C73_undefined_violated`: C73 is violated without any change in data that are all zero, and generally whenever the previous mean is zero and so is the current: the interval is undefined and counts as significant.
* `C74_negative_violated`: C74 is violated: with samples of different lengths the variance can be negative; its absolute value is then used as if it were a variance.
* `C75_default_violated`: C75 is violated by the default `use_corrected_scores=False`: whenever the means differ, the score is not Student's t statistic (unless `1/n + 1/m = 1`), although the p-value is computed from it with the t distribution.
* `C76_stale_violated`: C76 is violated by a second query: the spikes are remembered, so after `extend_data` (or a new `data`) the answer is still that for the old data.
* `C77_overall_violated`: C77 (violated): with no alert there is no overall score but an error.
* `C77_sign_violated`: C77 (violated): watching one direction with `fraction < 1` an alert can have a negative volume; and the volume is not the area of the excess when the scores are unevenly spaced: an excess of 3 for one second followed by 1 for nine seconds has area 12 but volume 20.
* `C78_ensemble_violated`: C78 (violated): without the keyword the ensembles attach daily dates whatever the frequency of the data, so they differ from the dates of the base models whose forecasts they combine.
* `C78_dates_violated`: C78 (violated): if the last date is not a date of the frequency, one date too many is generated and the forecast fails.
* `C79_bounds_violated`: C79 (violated): a negative seasonal factor exchanges the bounds; and under the multiplicative decomposition a model without bounds gets the bounds [0, 0] around any forecast.
* `C80_agree_violated`: C80 (violated): with seasonality `fit` fits the extra seasonal models on the de-seasonalized data and `predict` does not add the season back, so their forecasts differ from those of `forecast`; and the error method passed to `fit` is ignored.
* `C81_median_violated`: C81 (violated): bounds that happen to be 0 are dropped as if missing: of two models with intervals [0, 2] and [4, 6] around the forecasts 1 and 5 the aggregate is 3 with lower bound 4.
* `C81_weighted_violated`: C81 (weighted, missing bounds): a missing bound is rejected; but the zero bounds that the multiplicative decomposition invents for a model without bounds (violation) go through and give an interval that does not contain the forecast.
* `C82_closest_violated`: C82 (violated): with a single complete period of residuals "mint_sample" and "mint_shrink" return NaN at every level, whatever the forecasts, although reconciled forecasts exist.
* `C83_times_violated`: C83 (violated): a frequency string, which the signature admits, always ends in a TypeError.
* `C84_validation_violated`: C84 (violated): for forecasts that agree perfectly at all levels the distances and their spread are 0, and every level is reported as bad, whatever the threshold; a level is also reported when its distance equals the bound.
* `C86_fit_violated`: C86 (violated): a base model with residuals and forecasts is accepted whatever its model name; a name that is not supported then raises KeyError in `fit`, although forecasts and residuals are given.
* `C89_min_change_violated`: C89 is violated by a minimum percentage change: the full computation sets the score of a small change to 0, the scores-only computation does not.
* `C90_repeat_violated`: C90 is violated without a time unit: the unit inferred from the first series stays, so a series of another frequency gets another answer than from a new model.
* `C91_constant_violated`: C91 is violated where the past is constant: every jump is scored 0, as if nothing had happened.
* `C92_iqr_base_violated`: C92 is violated by `iqr_base`, which the loop over irregular windows does not pass on: with 100 no point of the example is outside the quartiles by 100 times their distance, yet the last one is scored `7/3`.
* `C93_negative_violated`: C93 is violated for a negative median: a point above the band gets a negative score and a point below it a positive one.
* `C93_zero_violated`: C93 is violated for a zero median: every point is scored 0.
* `C94_slow_drift_violated`: C94 is violated by a threshold: trend detection then silently becomes level detection.
* `C94_trend_violated`: C94 is violated by `BocpdTrendDetectorModel`: the smoothing parameters and the history have no influence.
* `C95_short_violated`: C95 is violated for windows of one or two points: the band used by the detector, a third of the length, is then empty and every distance is infinite, even that of a window to itself.
* `C95_symm_violated`: C95 is violated: the band is not symmetric (the second sequence may lag behind the first, but not the other way round), so the distance depends on the order of the arguments.
* `C97_short_violated`: C97 is violated for windows of one or two points, which the constructor accepts: as soon as two series have windows to compare, the detector raises a `ValueError` (`min` of an empty list).
* `C97_negative_violated`: C97 is violated: values below the threshold are never examined, so series that are far below zero count as flat and nothing is reported, whatever happens in them.
* `C97_again_violated`: C97 is violated when the detector is run again: if one series is not flat, each run adds its changepoint once more.
* `C97_similar_violated`: C97 is violated: the score is the absolute deviation from the median, so a series that is unusually similar to the others is reported as an anomaly.
* `C98_shift_violated`: C98 is violated: if all of `l2` lies above all of `l1` (and `l2` has at most as many different values), the second result consists of zeros, which is no distribution: the Jensen-Shannon distance of the largest possible upward shift divides zero by zero.
* `C98_symm_violated`: C98 is violated: exchanging the arguments does not exchange the results, and mass above the largest value of the first argument is lost.
* `C99_overlap_violated`: C99 is violated if the history ends with the time at which the data begin: two rows have that time, and the scores no longer fit the data.
* `C99_gap_violated`: C99 is violated for irregular data: one point whose predecessor is missing makes the whole call fail, also for the points that could be scored.
* `C100_extremes_violated`: C100 is violated: whatever fractions are chosen, also 0 and 1 (ignore nothing), the smallest and the largest residuals are never used.
* `C100_two_values_violated`: C100 is violated: residuals with at most two different values cannot be fitted at all.
* `C100_missing_violated`: C100 is violated: a row whose residual is missing gets no prediction, though one is promised for each row of the input.
* `C100_caller_violated`: C100 is violated: a call changes the residuals of the caller: rows with missing values disappear from the series that was passed.
* `C100_probability_violated`: C100 is violated: the predictions are no probabilities. For each fit on `n` training values whose 5% and 95% quantiles are less than `10 / (3 n)` apart, every training value has a prediction above one.
* `C101_trend_violated`: C101 is violated: a straight line of 60 points, of any slope, gets change points at its first and its second to last point, because back-filling and `fillna(0)` make the differences zero there. The only facts used about the normal distribution are that the tail probability decreases, is below 0.01 at 3 and above 0.01 at 1.
* `C102_frequency_violated`: C102 is violated for strings: any string is accepted with an aggregation method, also a frequency coarser than hourly, for which an error is documented.
* `C102_surplus_violated`: C102 is violated: a date with more than 24 observations is neither examined nor reported as incomplete.
* `C102_repeated_violated`: C102 is violated for hourly data without aggregation: a date with a repeated hour and a missing one counts as complete.
* `C102_centre_violated`: C102 is violated: the centre of the test is scaled to the sum 24, while the observations sum to one.
* `C102_same_days_violated`: C102 is violated: even if all days have the same ratios, they do not lie at the centre but at a 24th of it.
* `C102_week_violated`: C102 is violated: the detector fails on data that have no complete date for some day of the week, for instance on less than a week of data.
* `C103_alpha_violated`: C103 is violated without a significance level, which the signature allows: the call fails.
* `C103_primes_violated`: C103 is violated for smooth series: if all autocorrelations are significantly positive, the "cycle lengths" are the prime numbers up to the largest lag.
* `C103_nyquist_violated`: C103 is violated: a cycle of two samples is never reported, whatever the data (for an even number of points its frequency is stored with a negative sign and dropped).
* `C103_scale_violated`: C103 is violated: cycles in data of small scale are never found: if no power exceeds one, nothing is reported.
* `C103_chain_violated`: C103 is violated: a peak can be removed though it is no harmonic of any selected peak. Of 200, 401 and 803 only 200 is selected: 401 is nearly twice 200, and 803 is nearly twice 401, but 803 / 200 = 4.015.
* `C104_multiplier_violated`: C104 is violated for a negative multiplier, which is accepted: below -1/2 every point is an outlier.
* `C104_quartiles_violated`: C104 is violated if the quartiles of the residuals coincide: every residual different from them is an outlier, however small the difference, and no point has a finite score.
* `C104_multiplicative_violated`: C104 is violated for the multiplicative model: trend and season are subtracted although they are factors. A series of two weeks or more that is exactly the product of its trend 10 and its weekly season (3/4 on six days, 5/2 on the seventh) has an outlier on every seventh day, for every multiplier.
* `C104_offgrid_violated`: C104 is violated if no frequency can be inferred: only times a whole number of days after the first one are examined; all other points are ignored.
* `C104_remover_violated`: C104 is violated: an outlier at a time that was missing in the data (and was filled in for the examination) makes the remover fail.
* `C105_first_violated`: C105 is violated: the first complete window (position `window_size - 1`) is never tested: no point is reported there.
* `C105_exact_violated`: C105 is violated: a series of exactly `window_size` points is accepted, but nothing is tested: whatever the data, no trend is reported for one metric, and several metrics raise `KeyError`.
* `C105_missing_violated`: C105 is violated: one missing value in a metric removes the whole metric: a single metric is reported to have no trend.
* `C105_flag_violated`: C105 is violated: with `multivariate=True` and one metric, which is only warned about, the detector fails.
* `C105_alpha_violated`: C105 is violated: the significance level has no influence.
* `C106_offgrid_violated`: C106 is violated if the training duration is no multiple of the step (fractions of a day are accepted): there is no row at the time of the forecast, and the detector fails.
* `C106_pvalue_violated`: C106 is violated: the p-value is the tail of the distance, although the square of the distance has the chi-squared distribution. Beyond distance 1 it is too large, so that with some significance level an anomaly is not reported; below it is too small.
* `C106_metric_violated`: C106 is violated otherwise: the forecast error is taken with the opposite sign of the residuals of the training, so that the most typical error, their mean, scores twice the mean.
* `C106_empty_violated`: C106 is violated: if no time could be scored, because the training takes all the data, there is no empty list but an `AttributeError`.
* `C106_metrics_violated`: C106 is violated, `get_anomalous_metrics`: the p-value is listed as one of the metrics; and if it exceeds all scores it comes first, in place of the most anomalous metric.
* `C106_clean_small_violated`: C106: with at most nine rows of training nothing is ever removed, however far a value is from the others.
* `C106_clean_low_violated`: C106 is violated: a fall is never removed, however deep and however long the training; the same value above the others is, from ten rows on.
* `C106_clean_missing_violated`: C106 is violated: a column that is constant, or in which one value is missing, is missing as a whole after the cleaning.
* `C107_outlier_stale_violated`: C107 is violated: `fit_predict` of a model that has been fitted does not fit again. The answer is what `predict` gives for the earlier data, whatever the new values are, and a time the earlier data do not have raises.
* `C107_outlier_history_violated`: C107 is violated: the history of the caller is extended by the data; a second model given the same history and data sees the data twice.
* `C107_static_violated`: C107 is violated: a static threshold model can neither predict nor be serialized.
* `C107_multi_shift_violated`: C107 is violated: `predict` for data that reach beyond those the model was fitted to gives the scores at wrong times. If the model was fitted up to the last but one time, each score appears one time too late.
* `C107_multi_short_violated`: C107 is violated: `predict` for the beginning of the data the model was fitted to raises, if enough of it is scored.
* `C107_multi_history_violated`: C107 is violated: the history of the caller is extended, even if the call fails.
* `C107_multi_serialize_violated`: C107 is violated: no multivariate model can be serialized.
* `C108_order_violated`: **C108 (order) is violated.** Whether a selection is accepted depends on its order: with the group switched off, a feature before its group is an error, after it is not.
* `C108_group_override_violated`: **C108 (contradiction) is violated.** Selecting a feature that is switched off is an error; selecting a group that is switched off silently overrides the switch, and all its features are returned.
* `C108_feature_on_violated`: **C108 (switching on) is violated.** A feature of a detector group that is switched on by name is not returned unless its group is switched on too, with no error.
* `C108_instances_violated`: **C108 (independence) is violated.** Constructing a second instance changes what the first one returns: a selected statistic disappears, a selected autocorrelation feature becomes NaN.
* `C108_static_violated`: **C108 (static methods) is violated.** The methods `get_<group>` are documented to disable no feature when `extra_args` is `None`; called so all except `get_statistics` return no value at all or raise an exception.
* `C109_chunk_length_violated`: **C109 (chunk length) is violated.** The chunks do not have the length of the window: a series of two windows is split into three chunks.
* `C109_window_one_violated`: **C109 (window of one point) is violated.** With a window of one point there are more chunks than points, and both features are NaN.
* `C109_flat_short_violated`: **C109 (flat spots of short series) is violated.** If a series has more points than bins but fewer than twice as many, every segment is a single point and the feature is one, even for a constant series.
* `C109_crossing_violated`: **C109 (crossing points) is violated.** A step away from the median line counts as a crossing even if the series came from the same side: this series passes from one side to the other once, and two crossings are counted.
* `C110_strength_violated`: **C110 (strength) is violated.** The strength can be negative: the maximum with zero of its definition is left out.
* `C110_level_shift_violated`: **C110 (level shift) is violated.** One point more than the window gives two consecutive windows, whose means can be compared, and the features are NaN.
* `C110_seasonal_lag_violated`: **C110 (seasonal lag) is violated.** With as many points as the period, `seas_acf1` is the autocorrelation one lag before the seasonal one.
* `C110_line_violated`: **C110 (lines and parabolas) is violated.** A series whose first or second differences are constant, so every line and every parabola, has an autocorrelation, but all features are NaN.
* `C110_first_zero_violated`: **C110 (first zero) is violated.** The autocorrelation of this series passes from one at lag zero to below zero at lag one; the first zero crossing is given as three.
* `C110_constant_violated`: **C110 (constant series) is violated.** A constant series has no autocorrelation, and the first minimum is given as lag one, the first zero as the length of the series.
* `C111_all_nan_violated`: **C111 (all or nothing) is violated.** With fewer points than `n_slow - 1`, or from 27 points on with fewer than `n_slow + 6`, the averages cannot be calculated and all seven features are NaN, the rate of change, momentum, moving average and lag, which need a few points only, among them.
* `C111_window_one_violated`: **C111 (window one) is violated.** A window of one step is accepted and makes all features NaN.
* `C111_roc_violated`: **C111 (rate of change) is violated.** The rate of change is described as comparing with `window` steps back, like the momentum; it compares with one step less.
* `C112_days_violated`: **C112 (days) is violated.** Two days of a year with the same day of the month, such as the first of January and of February, are counted as one.
* `C112_fourier_init_violated`: **C112 (Fourier arguments) is violated.** The offset and the periods should be positive; an offset of zero is accepted, by which all times are then divided, and so is every period, zero and negative ones too.
* `C113_cusum_violated`: **C113 (CUSUM) is violated.** The number of changepoints is documented to be 1 or 0; a rise followed by a fall gives 2, with any quantile up to 15 (that for the default threshold is 9.21).
* `C113_seasonality_violated`: **C113 (seasonality magnitude) is violated.** The magnitude is documented as the difference of the percentiles; it is rounded to a whole number, so that every seasonal component with values between 0 and 1/2 has magnitude 0.
* `C113_trend_mag_violated`: **C113 (trend magnitude) is violated.** It is documented as the slope of a simple linear regression; for a trend that rises and falls back the regression line is level, and the magnitude is not zero.
* `C114_init_violated`: C114 is violated by the check of the sliding steps, which logs "Non positive sliding steps" but lets 0 pass.
* `C114_level_violated`: C114 is violated as to the level: `ppf(confidence)` is a one-sided quantile. For any symmetric distribution function the interval from `-ppf(c)` to `ppf(c)` has probability `2 c - 1`, which is less than the confidence level `c` unless `c` is 1: the default level of 0.8 gives intervals with probability 0.6.
* `C114_order_violated`: C114 is violated as to the order of the bounds: standard errors that fall with the horizon are extrapolated below zero, and then the lower bound lies above the upper one. Two folds of three horizons with errors ±3, ±2, ±1 do this at the fifth step, whatever the forecast.
* `C115_one_step_violated`: C115 is violated for a forecast of one step: `sm.add_constant` takes the single row for a constant and adds no column, so `predict(1)` raises a `ValueError` for every series with as many points as coefficients, whatever the frequency; a forecast of no steps does too.
* `C116_zero_violated`: C116 is violated when a seasonal value is zero: the log announces the non-seasonal method and the data are not divided by the season, but forecasts and fitted values are still multiplied by it; a zero in the last season gives forecasts of zero.
* `C117_level_violated`: C117 is violated as to the level of the data: `fit` takes the mean off and `predict` never puts it back. Data that are a level plus harmonics are forecast by the harmonics alone, so every forecast is off by the level; in particular the forecasts of a constant series are 0.
* `C119_period_violated`: C119 is violated by the period of short data: a seasonal period of less than two points becomes 7 points, even if the data are fewer than 14, and then the period is longer than half of the data.
* `C119_accept_violated`: C119 is violated as to acceptance: the base counts from the start of the month but a base of 0 makes pandas count from midnight. If the base is 0 and the time of day of the first point is no multiple of the frequency, data are refused however regular they are.
* `C120_params_violated`: C120, violated: a decomposition that does not exist is accepted by the constructor when parameters of the method are given (the test is indented under the defaults), and the model then fails with an `AssertionError`, not a `ValueError`.
* `C120_history_violated`: C120, violated: with history the cycle is counted from the first row, so the row at position `i` gets the seasonality of position `n + i`. Unless the data are whole cycles, the forecast of the same future date differs from the one without history, and is wrong for data that follow the pattern exactly.
* `C121_time_violated`: C121, violated: the coefficients were fitted with time `t` at row `t`, so step `k` should be computed with time `T + k`. It is computed with `T - 1` more, so every forecast of a column with a trend is wrong by `T - 1` times its slope.
* `C121_again_violated`: C121, violated: a forecast with history appends the future values to the fitted values that the model keeps, so the next call with history fails with an `AssertionError`.
* `C121_params_violated`: C121, violated: the dataclass does not call `validate_params`, and the model does not either, so parameters that are not valid are accepted.
* `C122_season_violated`: C122, the comment beside the table of seasons, that it is `((month + 1) % 12) // 3`, does not hold: it fails exactly for May, August and November. And February is spring although December and January are winter.
* `C122_week_of_month_violated`: C122, with a time zone the week is counted from the first of the wrong month when it is already another month in UTC: one hour west of Greenwich, half an hour before midnight on 31 August 1970, the sixth week is reported as the fifth.
* `C122_quarter_violated`: C122, the end of the quarter is wrong but for the first quarter: 30 June, 30 September and 31 December are never flagged, 31 July and 30 November always.
* `C122_offset_violated`: C122, a zone that has no notion of daylight saving time (`dst()` is `None`, as for `datetime.timezone.utc`) loses its offset: it is reported as missing.
* `C123_models_violated`: C123, a model step on several series: the result has an entry for every series, but all entries are the one object of the step, and it is left fitted to the last series. `F d` is the step fitted to `d`.
* `C123_caller_violated`: C123, outlier detectors with removal write into the list and the parameters of the caller.
* `C123_attributes_violated`: C123, what the steps need: a detector without `__subtype__` raises `AttributeError` on the first univariate series, so does any step without `__type__` (that is not from scikit-learn); other types raise `KeyError`. (In Kats only `MKDetector` among the detectors has a `__subtype__`, and `TsFeatures` has no `__type__`.)
* `C123_single_violated`: C123, a pipeline that ends with a scikit-learn model cannot be fitted on a single series: the model is indexed.
* `C123_univariate_violated`: C123, `univariate` stays set: once a single series was fitted it is true after every later `fit`, also of lists.
* `C125_arima_violated`: C125, ARIMA: standard deviations that are not positive are refused; a negative order of differences gives zeros whatever the coefficients.
* `C125_anomaly_violated`: C125, level shifts, anomalies: one at the first position of a later segment is put on the level of the segment before, and one at position 0 on the last level.
* `C125_period_violated`: C125, the seasonality of the shift simulations: after `seasonal_period` positions it has changed its sign, and its period is twice that number.
* `C125_length_violated`: C125, the length of the series: it is said to be adjusted to the change points, but a change point at or after the end always raises, after the dates (not the values) have been replaced, and then `stl_sim` raises too.
* `C125_seed_violated`: C125, trend shifts, reproducing a series: `random_seed` has no effect, and two calls with the same seed may give different series, while those of level shifts are the same.
* `C125_trend_violated`: C125, trend shifts: a change point at 0 moves the whole series, which then does not start at the intercept; change points at or after the end are refused, also the default one on the default simulator.
* `C125_inject_violated`: C125, the documented form of the injections: one level or trend more than change points, as the simulations have, is always refused.
* `C126_cardinality_violated`: C126, the cardinality: a range of whole numbers is finite, but is counted as infinite.
* `C126_default_violated`: C126, the default for the parameters: it is always refused.
* `C126_constraints_violated`: C126, legitimate arms: with constraints on two different metrics no arm stays, also if every arm meets them all; a relative bound is compared as if it were absolute.
* `C126_score_violated`: C126, the score of a Nevergrad search: with a fixed parameter outside the space the row does not have it, and its mean is not the score of the parameters it shows.
* `C126_workers_violated`: C126, the workers of Nevergrad: -1, which stands for all processors elsewhere, gives one.
* `C126_factory_violated`: C126, the factory, Nevergrad: the name of the experiment and the constraints that were given are not used, the processes in the options are replaced by the argument also if that was not given, the seed reaches nothing, and the options of the caller are changed. With options, Bayesian searches do not use the other arguments, but refuse to be made without an evaluation function.
* `C126_multi_violated`: C126, several spaces: Bayesian search, though it is one of the methods, always raises.
* `C126_rates_violated`: C126, the default learning rates for LightGBM: what was meant as bounds (0.001 and 0.8) are exponents, so that all 50 rates are above 1.
* `C127_failed_violated`: C127, evaluation that fails: for labels of another length, and if a metric raises, the labels have been replaced but the results have not, so that they need not belong to the labels; only a `ValueError` of a metric is reported with the name of the metric, and other exceptions pass.
* `C128_data_violated`: C128, a series of one variable whose bounds are to be in the data: an `AttributeError` is raised instead of the `ValueError` that tells what is missing.
* `C128_history_violated`: C128, the dates of a forecast with the history: for a series with missing values, of which Prophet keeps the dates, as many of the last steps are missing as there are missing values.
* `C128_multivariate_violated`: C128, forecasts of a series of several variables: without a frame for the future a `ValueError` is raised, also if there are no regressors.
* `C128_given_violated`: C128, a frame of the caller: the number of steps is not compared with its rows.
* `C128_points_violated`: C128, new change points: a sample need not have as many as were drawn for it.
* `C128_grid_violated`: C128, change points of the history on the grid: of two in the same step the first is lost, and one at the end of the history may be an error.
* `C128_logistic_violated`: C128, the sampled logistic trend: where the rate is 0 it jumps: to half of the cap, whatever it was.
* `C129_init_violated`: C129, arguments: the name of a score that there is not is accepted, and the deviation taken.
* `C129_keys_violated`: C129, seasonalities: a dict with the names of seasonalities, which a list may hold, is not refused but ignored.
* `C129_weekend_violated`: C129, an automatic weekend: a repeated time in weekly data keeps it, and a time at the epoch may drop it though there are smaller gaps.
* `C129_outliers_violated`: C129, outliers: the bounds are those of the times in order, so that of a series that is not in order other points are removed: here a model that follows the values exactly removes both.
* `C129_fit_violated`: C129, training with a history: the history of the caller is changed, whether training works or not; so training once more with the same arguments fails, if repeated times have no frequency.
* `C129_predict_violated`: C129, scores: those of a series that is not in order are taken against forecasts for other times: a forecast without any error does not give zeros.
* `C129_days_violated`: C129, holidays: with a multiplier but no holidays, or with a list and a model that was loaded and not fitted, `predict` is an error, and not a warning.
* `C129_trend_violated`: C129, trends: positions are those among the values that are not missing, so that with missing values the scores are at other times than the change points: here the change is at 20, which is the first time with a value, and the score at 10.
* `C130_trix_violated`: C130, TRIX, violated: on a frame without the label 0 (such as the one left after the rows with NaN have been dropped) TRIX is a `KeyError`.
* `C130_rsi_violated`: C130, RSI, violated: with other labels the values are put into the wrong rows. If the labels are `1, 2, …`, each row has the RSI of the next row and the last row has NaN.
* `C130_names_violated`: C130, names, violated: `EMA`, `TRIX`, `TSI`, `RSI` and `BBANDS` take a column but do not put it into the name, so the feature of a second column with the same window is a `ValueError` (here for `EMA`), while `LAG` and the others accept it.
* `C130_roc_violated`: C130, rate of change, violated: `ROC` with `n` does not compare with the value `n` steps back: with 1 it compares each value with itself.
* `C131_current_violated`: With a zero among the values the newest row can be dropped, and the prediction is made from an older one.
* `C131_column_violated`: The value column has to be called `y`: with another name neither features nor labels can be made, and not even a prediction from a given frame with a given model.
* `C131_twice_violated`: The features cannot be extracted a second time.
* `C131_step_violated`: The labels can only be made for a positive number of steps.
* `C131_names_violated`: Without the names `time` and `y` there is no season.
* `C131_plus_train_violated`: After a zero, a model for one step is trained with a change over two steps.
* `C131_plus_missing_violated`: Labels are used as positions in the season, which has no place for missing values: one missing value, and the newest usable row lies outside.
* `C131_plus_rows_violated`: The rows before the last one get the season of the last row: if the predicted changes are the true ones, the forecast of row `i` is off by the difference between how the season changes there and at the last row.
* `C131_plus_predict_violated`: With a day of data or less there is no forecast at all.
* `C131_dynamic_violated`: The dynamic model is trained for one step whatever `step` is.
* `C132_roundtrip_violated`: C132, refuted with `use_default_min`: `normalize` adds the default minimum to the value and to the normalizer, and `denormalize` subtracts it from the normalized value and from the original normalizer, so the result of subtracting and adding back is off by twice the default minimum, and the result of dividing and multiplying back is wrong too.
* `C132_zero_violated`: C132, refuted for zero normalizers: a value over the normalizer zero is normalized to an infinity and does not come back.
* `C132_stat_violated`: C132, refuted for other statistics: an unknown `norm_sum_stat` is not refused but counts as the z-score, whatever `sub_div` says, even if that is invalid.
* `C132_infinite_violated`: C132, refuted for windows of zeros: with division, a positive value after a window whose normalizer is zero gives an infinite output, which is not NaN and therefore kept for training.
* `C132_future_zero_violated`: C132, refuted for future windows of 0: the constructor accepts them (`C132_init`), and training on a nonempty series always fails.
* `C132_future_violated`: C132, refuted for long future windows: if the window of a future covariate is longer than the number of lags plus the horizon, the prediction window is too short for it and all its features are NaN, although the data are there and a training row with the same origin and target time has their values.
* `C132_steps_fewer_violated`: C132, refuted: "`steps`: int for overwriting horizon". A model with the horizons 1 to 5, asked for 2 steps, returns the forecasts for all 5.
* `C132_steps_violated`: C132, refuted for other lists of horizons: the loop counts the horizons as if every pass started one contiguous run further, while the passes really start at the end of the first contiguous run of forecasts. A model with the horizons 1, 3 and 7, asked for 10 steps, stops after three iterations with no forecasts for the steps 9 and 10, but with ones for 11 and 12.
* `C132_auto_violated`: C132, refuted: "auto" features for the data frequency. The names that pandas infers for weekly, quarterly, yearly and minute data (`W-SUN`, `QS-OCT`, `AS-JAN`, `T`) are passed on unchanged, and none of them has calendar or Fourier features.
* `C133_mean_violated`: C133, baselines: a missing value counts as a zero, in contrast to the mean of the values that are there, which the scalar model takes.
* `C133_adapt_violated`: C133, one scan: a baseline adapted to nothing is kept, where the scalar model has NaN as the baseline and scores.
* `C133_epoch_violated`: C133, scores: a changepoint at the epoch counts as none; the scalar model has zeros up to it, the vectorised one scores the rows up to it as well.
* `C133_forgets_violated`: C133: the state of the vectorised model is thrown away. With less data than a historical window the scalar model scores them against the baseline of its alert, the vectorised model returns zeros and has no alert.
* `C133_columns_violated`: C133, result: with scores for rows before the first window the columns are those of the data; without, there is one column more.
* `C133_serialize_violated`: C133, serialization: a fitted object cannot be serialized, and what a new object is serialized to cannot be loaded.
* `C134_baseline_violated`: C134: with a live alert and no changepoint in any window, the baseline is cut to an integer, and the scores are those of another baseline.
* `C134_nan_violated`: C134: without an alert, but with a baseline that is NaN, and no changepoint in any window, the vectorised model fails.
* `C134_overlap_violated`: C134: an earlier changepoint inside the data is forgotten; the scalar loop scores zero up to it.
* `C134_epoch_violated`: C134: a changepoint at the row of its window that is at the epoch in the first window is not found again; the scalar loop scores zero at it.
* `C135_offgrid_violated`: C135 violated: a value whose time is not a whole number of steps after the first one is lost.
* `C135_name_violated`: C135 violated: the time column has to be called `time` as soon as there is a gap.
* `C135_nan_rows_violated`: C135 violated: whole periods of missing values stay if their rows were there.
* `C135_split_lost_violated`: C135 violated: if not, the last `n % splits` series are in no part.
* `C135_mixed_keys_violated`: C135 violated: a dictionary with keys of both kinds is not found again.
* `C135_test_length_violated`: C135 violated: in test mode a series is dropped for want of a validation part even if none is cut off.
* `C135_pad_violated`: C135 violated: whatever `n`, the length grows by one only.
* `C136_ratio_violated`: C136 violated: an uplifting ratio below 1, which `GMParam` accepts if it is not negative, makes all values negative if the series is not constant and not positive.
* `C136_ratio_one_violated`: C136 violated: a ratio of 1 has no offset.
* `C136_nan_valid_violated`: C136 violated: with a validation series of missing values there is no offset, whatever the values.
* `C136_integers_violated`: C136 violated: a series of integers cannot be used at all.
* `C136_nan_row_violated`: C136 violated: a series with no value left in the array is an `IndexError`.
* `C136_padded_times_violated`: C136 violated: padding repeats the times of the first period; they do not come before the series.
* `C136_magnitude_violated`: C136 violated: with test series and a magnitude that is not positive, no batch is made.
* `C136_rejected_violated`: C136 violated: a call with a wrong size in the middle of an epoch skips a batch: it fails, and the next one returns the batch after the one that was due.
* `C136_mixed_keys_violated`: C136 violated: a dictionary with keys of both kinds is refused with a KeyError.
* `C136_test_order_violated`: C136 violated: the test lengths are taken in the order of the test series; if that is another one, series of one length are not grouped by their test lengths. Here `a` has 9 test rows and `b` has 1, but `a` is put before `b` for every small magnitude.
* `C137_last_date_violated`: C137 violated: the weekday of a Sunday is not in the seven columns of the weekdays but in the first of the pairs of weeks; in the first two weeks the two fall together.
* `C137_month_violated`: C137 violated: a batch that ends with a series in December cannot be used, and with another series after it December is no month of its own series.
* `C137_ts2vec_violated`: C137 violated: with `ts2vec` the features of a batch cannot be computed, whatever the data.
* `C137_tsfeatures_violated`: C137 violated: the features of Kats alone are accepted but a batch cannot be used: nothing is computed on the fly, and nothing cannot be joined to the base features.
* `C137_eq_violated`: C137 violated: two features can be equal though they have different sizes.
* `C137_log_violated`: C137 violated: without `input_log`, the logarithm of the forecasts of the other quantiles is compared with the target itself: a forecast that meets the target is not without loss.
* `C137_target_violated`: C137 violated: the loss changes the target it is given: missing values become 1, and the loss of the same forecasts for the same target is another one the second time.
* `C138_accept_violated`: C138 violated: NaN is accepted as a ratio, as a quantile and as a bound of the seasonality, zero is accepted as a ratio, bounds in the wrong order or only one bound are accepted, and so are negative epochs.
* `C138_loss_violated`: C138 violated: training quantiles of another number than the quantiles are accepted, and then the loss of the network cannot be built.
* `C138_eq_violated`: C138 violated: an object with a NaN does not equal its own copy.
* `C138_eq_sizes_violated`: C138 violated: two equal objects can give networks of different sizes.
* `C138_text_violated`: C138 violated: objects that can be written but whose text cannot be read, or gives another object: a key `True` of the schedule; a pair among the parameters of the optimizer. An object with another value there cannot be written.
* `C138_errors_violated`: C138 violated: an empty list of quantiles gives an IndexError, and a number as the name of the optimizer an AttributeError.
* `C139_window_violated`: C139 violated: with an input window shorter than the period, which `GMParam` accepts, a pass over a batch whose first index is the input window is an error whatever the series.
* `C139_smoothing_violated`: C139 violated: for every first smoothing of the level above 1, which `GMParam` accepts, there are series of positive values with a negative level, whose logarithm does not exist.
* `C139_view_violated`: C139 violated: if the input window is shorter than a period, the first window is an error, for every series.
* `C139_valid_violated`: C139 violated: with one step for warming up and a series no longer than the input window, half of the windows of a long forecast are not visited.
* `C140_last_violated`: C140 violated: unlike the RNN, the encoder and decoder may leave out the last window of training: here every second one is visited, and the last, the only one that ends with the last value of training, is not.
* `C141_constant_violated`: C141 violated: with windows of one step the adjusted quantiles, all but the first, are constant: they have the value of the first step at every step, whatever the network gives.
* `C141_crossing_violated`: C141 violated: an upper quantile that is above the first one in every window may be below it after the adjustment. For windows of any length: if the forecasts are constant in a window, `m` and `u` in the first and `m'` and `u'` in the second, with `u < m'`, then after the adjustment the upper quantile of the second is `u`.
* `C141_no_steps_violated`: C141 violated: without a step there is no frame.
* `C141_two_quantiles_violated`: C141 violated: with two quantiles nothing is given for the second, though it is asked for.
* `C141_schedule_violated`: C141 violated: without a value for epoch 0 nothing is trained.
* `C141_modes_violated`: C141 violated: with test series all epochs but the first are trained in the mode for forecasts.
* `C141_batch_size_violated`: C141 violated: the batch size that is given is not used; every positive one gives the same result.
* `C141_company_violated`: C141 violated: the forecast of a series depends on the other series of its batch, which give the length to which it is padded. With a network that counts its calls, five values forecast alone are not those forecast beside nine.
* `C142_test_ids_violated`: C142 violated: the keys of the test set are saved, but a loaded ensemble has none of them.
* `C142_json_violated`: C142 violated: an ensemble whose models were trained with a test set, as is the default, cannot be turned into JSON: what its training gave holds the frames of the evaluations.
* `C142_all_test_violated`: C142 violated: a test size of 1 should be refused ("in [0,1)"), but it is accepted and leaves no series for the training.
* `C143_load_violated`: C143 violated: an object that is made without parameters keeps the period 7 when a model is loaded, though the frequency of that model has another one.
* `C143_phase_violated`: C143 violated: for data of a few minutes `freq_to_period` fails and the period is 7, but the decomposition, which is not told the period, uses 2; the seasonality of the steps begins with the wrong sign, whatever the length.
* `C143_quantiles_violated`: C143 violated: a multiplicative seasonality below zero turns the order of the quantiles around.
* `C143_original_violated`: C143 violated: with `fit_original` the global model forecasts the series itself, but the seasonality is still put on its forecasts: where the global model is right, the result is wrong by the whole seasonality.
* `C143_short_violated`: C143 violated: with a series shorter than the period the seasonality may have fewer steps than are asked for, and `predict` fails, unless it has just one, which is then used for every step.
* `C144_init_violated`: C144 violated: the text of the error says that `h` must be positive, but zero and negative sizes are accepted; so are dilations that are not positive.
* `C144_forward_violated`: C144 violated: with a negative `h`, or with a dilation in the first block that is not positive, a network that could be made fails for every input with a row.
* `C144_build_violated`: C144 violated: `GMParam` accepts parameters whose network cannot be made: a cell that does not exist, an own cell without `h`, no blocks.
* `C144_decoder_more_violated`: C144 violated: a decoder with more layers than the encoder is accepted and made, but fails for every input once it is given the states of the encoder.
* `C144_decoder_layers_violated`: C144: a decoder with more layers than the encoder finds no states for them, and fails for every input.
* `C144_decoder_violated`: C144: with a larger dilation, a layer of the decoder is at first not given the delayed states though the encoder had computed them.
* `C145_aligned_violated`: C145 violated: the forecast should be for the time of the value with which it is compared. The series has values at the times 0 to 4 and 11 to 15 and the period 2; filling leaves out six missing values; the forecast for the time 5 is compared with the value of the time 11.
* `C145_cores_violated`: C145 violated: the message says that all cores of the computer may be used, but that number is refused.
* `C145_small_violated`: C145 violated: a part of the series for the test is accepted even if it is less than one series (as the default, a tenth of fewer than ten series), but then every run fails.
* `C145_again_violated`: C145 violated: the test series should not be among those with which the evaluated models were trained. In the second run of the same backtest they are: the models are those of the first run, with other test series.
* `C145_ew_end_violated`: C145 violated: the end of the training parts should be at the given percentage of the data. It has no influence: with two folds or more, the last training part ends where the test part of the given size, at the end of the data, begins.
* `C145_ew_twice_violated`: C145 violated: running again should give the same errors; it gives the double.
* `C145_ew_gap_violated`: C145 violated: missing values should be left out. If all values of the test part of one fold are missing, the whole run fails, here for every predictor that works.
* `C146_scale_violated`: C146 violated: scaling should keep the form of a series. A series of negative values is turned upside down: what was greater becomes less.
* `C146_infinite_violated`: C146 violated: scaling should keep the form of a series. If its greatest value is zero, every negative value becomes minus infinity and every zero NaN.
* `C146_zero_violated`: C146 violated: series with NaN or infinity should be refused. A series whose greatest value is zero is accepted and then scaled: no value that is left is a number.
* `C146_none_violated`: C146 violated: the best model should be one that works. If no model works with any parameters, the first is called the best.
* `C147_twice_violated`: C147 violated: the features should have the mean zero after scaling. If `preprocess` scales twice, the mean of each column is the old mean, divided by the deviation, with the other sign; new series are still scaled once.
* `C147_none_violated`: C147 violated: without meta data there should be the error "Missing metadata!". The length is taken first: a `TypeError`.
* `C147_text_violated`: C147 violated: features may be texts, as from a file. If those of the first entry are, the meta data are refused.
* `C147_order_violated`: C147 violated: a feature should be in the column of its name. The values are taken by position: for an entry with the same features in another order they are in the wrong columns.
* `C147_frame_violated`: C147 violated: features may be given as a frame. A frame is refused with an error about its truth value.
* `C147_loaded_violated`: C147 violated: without a trained classifier there should be the error that tells so. For an object made to be loaded it is an `AttributeError`, though not for one with meta data.
* `C147_nan_violated`: C147 violated: a missing feature should be for a new series what it is in the meta data, zero. If features are scaled, it is the mean of the feature for a new series, so that there are classifiers for which the choice is not that for zero.
* `C147_rescale_violated`: C147 violated: the preparation may be made in two calls, first scaling and then downsampling. Then the means and deviations are those of the scaled features, and the features of a row of the meta data give the classifier something else than it was trained with.
* `C147_time_violated`: C147 violated: the choice should be possible for any series. The copy that is made loses the name of the time column: if it is not "time", the series is refused.
* `C148_twice_violated`: C148 violated: the features should have the mean zero after scaling. If they are scaled twice, the mean of each column is the old mean, divided by the deviation, with the other sign; new series are still scaled once.
* `C148_order_violated`: C148 violated: a feature should be read by its name. For a new series the values are taken in the order of its dictionary: the same features in another order can give the other answer.
* `C148_refused_violated`: C148 violated: features may be given as a frame, and any series may be asked for, and without a trained classifier there should be the error that tells so. A frame is refused; so is a series whose time column is not named "time"; an object made to be loaded has an `AttributeError`.
* `C148_leak_violated`: C148 violated: the validation set is for the choice of the threshold, and the test size may be zero. Without a test size (or with one that does not fit) all rows are for training, those of the validation as well.
* `C148_neighbors_violated`: C148 violated: `n_neighbors` is the number of neighbors. It has no influence: there are always five.
* `C148_tie_violated`: C148 violated: the report should judge the answers that are given. A probability equal to the threshold, as is found in validation, is taken for predictable by the report and for unpredictable by `pred_by_feature`: here the only answer is right, and the accuracy zero.
* `C148_nan_violated`: C148 violated: a series without a forecast should not count as predictable. A series whose error is NaN does, for every threshold.
* `C148_skip_violated`: C148 violated: an entry that cannot be read should be left out. If only its best model or the error of this is missing, its features are kept and no label: the data are accepted as others, but training is refused, with every classifier and all arguments.
* `C148_perfect_violated`: C148 violated: the best precision for the recall asked for should be found. If a threshold has the recall and the precision one, the search fails and a half is used, whatever the probabilities are: if they are all less, nothing is unpredictable and the recall is zero.
* `C148_recall_violated`: C148 violated: the recall should be at least the one asked for. The last threshold with the best precision is taken, whether or not it has the recall: here a half instead of seven tenths.
* `C149_numeric_violated`: C149 violated: there should be no need of a categorical parameter. If `categorical_idx` is missing, as it is by default, all data that would be accepted with an empty list are refused with a `TypeError`.
* `C149_untrained_violated`: C149 violated: an object that has not been trained should refuse to recommend. After `build_network` alone, all rows get a recommendation, of random weights.
* `C149_categorical_violated`: C149 violated: there should be no need of a numerical parameter. If `numerical_idx` is missing, as it is by default, data are accepted as with an empty list and networks built and trained, but no row ever gets a recommendation.
* `C149_refused_violated`: C149 violated: a feature of a frame should be read by its name, a series may have any time column, and an object made to be loaded should tell that it has no network. The columns of a frame are not looked at; a series whose time column is not named "time" is refused; there is an `AttributeError`.
* `C149_stop_violated`: C149 violated: training should stop if there was no improvement for `n_epochs_stop` epochs. There are never fewer than 22 epochs, if so many are asked for, whatever `n_epochs_stop` and the losses are.
* `C149_small_violated`: C149 violated: data that are accepted should be enough for training. With the arguments of `train` as they are by default, up to 143 rows are refused.
* `C149_rows_violated`: C149 violated: features and parameters should have as many rows. If there are fewer rows of parameters, the data are accepted as others (see `C149_init_partial`), but no training succeeds.
* `C149_missing_violated`: C149 violated: data that are accepted should do for training. A missing value of a categorical parameter is accepted, see `C149_init_partial`, but then no training with an epoch or more succeeds.
* `C150_twice_violated`: C150 violated: preprocessing should not depend on how often it is done. It changes the frame it is given, so the next time, for another algorithm or another training, the windows are divided once more: the table is another one unless there are only zeros to scale.
* `C150_other_violated`: C150 violated: what is read for an algorithm should not depend on what was read before. After reading the data for one algorithm, the same frame gives for each algorithm the windows in days, divided by 86400 once more.
* `C150_synth_violated`: C150 violated: the data of an algorithm should be there if all rows have it. If some other algorithm is in one row and not in another, the synthetic data give none for any algorithm, unlike the reader.
* `C150_windows_violated`: C150 violated: the two readers should give the same parameters. The synthetic data have `n_control` and `n_test` in days, the reader as it is by default has them as they were.
* `C150_report_violated`: C150 violated: without results the report should train first. The results are an empty dictionary, never None, so there is a `KeyError`.
* `C150_fit_violated`: C150 violated: the fitted labels should be those of the rows that were trained or tested with. Those rows have the features in the order of each dictionary, the fitted ones have them by their names: the second row, right in training, gets the wrong label.
* `C151_missing_violated`: C151 violated: a parameter with one value should get that value. If it is missing in the first row, each recommendation has a missing value for it.
* `C151_series_violated`: C151 violated: a series should get the recommendation of its features. It never gets one.
* `C151_small_violated`: C151 violated: data that are accepted should be enough for training. If all parameters have one value, no training succeeds, and so there is no recommendation of these values; with the parameters of the network as they are by default, up to 143 rows are not enough either.
* `C152_interval_violated`: C152 (interval, violated): a row has its forecast between its bounds exactly if the forecast is not negative; for a negative forecast the lower bound is above the upper one. A series of negative values is an example.
* `C152_short_violated`: C152 (short series, violated): a series shorter than the window cannot be forecast, though `fit` accepts it if there is at most one epoch; with two or more epochs `fit` fails with an `UnboundLocalError` for every series not longer than the window. With one epoch and a series as long as the window the forecasts come from a network that was not trained.
* `C152_refit_violated`: C152 (failed `fit`, violated): if the optimizer rejects the rate, `fit` raises, but the trained network has been replaced by a new one: `predict` then gives the forecasts of a network that was never trained, scaled with the scaler of before; after a first `fit` that failed in this way `predict` fails with an `AssertionError` instead of the error that asks for `fit`.
* `C152_infer_violated`: C152 (frequency, violated): the frequency is inferred also if it is given, so where `pd.infer_freq` fails (fewer than three dates) `predict` fails with any frequency.
* `C152_zero_violated`: C152 (window zero, violated): with a window of zero values, or less, nothing is checked when the parameters are made; the first sequence is empty and `fit` fails in the network.
* `C153_arima_trend_violated`: C153 (ARIMA, trend, violated): the trend is checked and then not used: all four give the same model.
* `C153_arima_alpha_violated`: C153 (ARIMA, level, violated): the level of the interval plays no part in the forecast; it is only kept.
* `C153_arima_history_violated`: C153 (ARIMA, history, violated): if statsmodels labels its rows by dates, as it does if it can use the dates of the series as an index, no row of the history is left and nothing is said.
* `C153_sarima_blank_violated`: C153 (SARIMA, missing rows, violated): the comment in the code says that the first `k` rows are not legitimate; one more is erased, and if the series has no more than `k` values the first forecasts are erased with them, all of them if the series and the forecasts are together not longer.
* `C153_sarima_alpha_violated`: C153 (SARIMA, level of the history, violated): the rows of the past do not depend on the level that is asked for.
* `C153_sarima_bounds_violated`: C153 (SARIMA, bounds, violated): the columns of the interval are ordered by their first row only: if its bounds are equal, or one is missing, the columns are exchanged in all rows, and every later row with a proper interval has its lower bound above the upper one.
* `C153_sarima_return_violated`: C153 (SARIMA, `return_params`, violated): a model fitted with this argument of `fit` counts as fitted, but `predict` fails with an `AttributeError`.
* `C153_sarima_differencing_violated`: C153 (SARIMA, length of the history, violated): with `simple_differencing` statsmodels drops the first rows of the sample; then the frame with the history cannot be made.
* `C154_hw_dates_violated`: C154 (Holt-Winters, dates with an interval, violated): the dates are the days after the last one, whatever the frequency of the series and whatever frequency is asked for, for which the forecast is the same.
* `C154_hw_level_violated`: C154 (Holt-Winters, level, violated): `alpha` is taken as the probability of each side. For errors with a symmetric distribution and the standard error that the line gives, the interval has the probability `1 - 2 alpha` and not `1 - alpha`; and if `alpha` is above one half, where the quantile is negative, the lower bound lies above the upper one.
* `C154_var_lags_violated`: C154 (VAR, number of lags, violated): the default is written into the parameters, also if the fit fails; another model with the same object is fitted with the number of lags of the first series, however long its own is. For a series of up to five values the default is not less than the number of values.
* `C154_var_dates_violated`: C154 (VAR, dates, violated): if the last date is not one of the frequency, the first date after it is left out, and the rows are one date too late; nothing is said (the other models fail then, C78).
* `C154_var_empty_violated`: C154 (VAR, no fitted values, violated): if the model has as many lags as there are values, the past cannot be joined: `iloc[-0:]` takes all times.
* `C154_var_plot_violated`: C154 (VAR, chart, violated): after a forecast with the history the chart fails, whatever the data.
* `C155_columns_violated`: C155 (columns, violated): the documented columns `time`, `fcst`, `fcst_lower` and `fcst_upper` are never returned: all columns are `ds` or begin with `yhat`.
* `C155_past_violated`: C155 (past values, violated): all values of `y` in the frame are replaced by zero before the forecast, also the past values that a model with lags starts from: the forecast is the same whatever they are, in a frame that is given and in the one that NeuralProphet makes.
* `C155_caller_violated`: C155 (the frame of the caller, violated): the frame that is given is changed: afterwards its rows are sorted and have zero as the value of `y`.
* `C155_rows_violated`: C155 (number of rows, violated): for a frame with more rows than steps there are more rows in the forecast than steps.
* `C155_dates_violated`: C155 (no dates, violated): a frame without the column `ds` is a `ValueError` with regressors, and a `KeyError` without them.
* `C156_groups_violated`: C156 (groups, violated): for a bound that is not a time of the series the value just before it is in no group.
* `C156_trend_violated`: C156 (trend, violated): a constant series before the anomaly never gives a change of the trend, however steep it is afterwards.
* `C156_volatility_violated`: C156 (volatility, violated): if the values are constant after the anomaly its volatility counts as changed, also if they are constant before it.
* `C156_level_violated`: C156 (level, violated): whether there is a level shift depends on the zero of the scale: for any groups that differ significantly, all values moved by the same amount give one for some amounts and none for others.
* `C156_negative_violated`: C156 (negative levels, violated): where the line through all values starts below zero, a significant difference is always a level shift, even if the two lines start at the same level.
* `C157_correction_violated`: C157 (correction, violated): for intervals of at least two rows `use_corrected_scores=False` is ignored: the score of a series with different means is not the one it has on its own.
* `C157_single_violated`: C157 (one value each, violated): every series then has the score plus infinity, also if it falls or does not change; a series on its own has none.
* `C157_spikes_violated`: C157 (spikes, violated): if a series has no spikes there are fewer lists than series, so that the position of a list does not tell the series it belongs to.
* `C158_shape_violated`: C158 violated: the first parameter should grow by a half for each point of the run. It grows by a half for each point before the new one, in the run or not, so that it is right for the longest run only.
* `C158_floor_violated`: C158 violated: the likelihood should be kept above zero. The bound is zero for fewer than 10⁸ samples, so that a point far from all lines drawn gets the likelihood zero.
* `C158_unset_violated`: C158 violated: the model should be usable as constructed. Before `setup` there is no prior for the line, and every prediction fails.
* `C158_variance_violated`: C158 violated: with the adjustment, the variance of the inverse Gamma distribution should be 1000. It is 1000 times the variance of the residuals.
* `C159_default_violated`: C159 violated: the prior of the parameters should be the default of the prior. It is never read: whatever it is, the result is the same.
* `C159_trend_violated`: C159 violated: priors should be chosen for each model. For the trend model with two points or more the choice, which is the default, fails always, whatever the parameters: the evaluation leaves out `setup`.
* `C159_multiplier_violated`: C159 violated: the multiplier should matter for the normal model. For priors that are given it does not: arms that differ in it have the same score.
* `C160_level_violated`: C160 is violated: under the hypothesis itself a row is rejected with probability at least alpha, and strictly more than alpha for the upper and the two-sided test, whatever the sample size and the effect size: alpha does not bound the false alarms.
* `C160_extreme_violated`: C160 is violated: no successes at all are always rejected by the lower test, and successes only by the upper test, even when the effect size says that nothing else can happen: with effect size 0 and value 0 all three tests reject.
* `C160_stat_sig_violated`: C160 is violated: the lower test rejects rows whose reported significance exceeds alpha, and the upper test reports significance 0 for successes only, although this has a positive probability.
* `C160_band_violated`: C160 is violated: the two-sided band uses all of alpha on either side, while the two-sided decision uses half of it; and the band has no number at the ends: no lower limit for no successes, no upper limit for successes only.
* `C161_count_violated`: C161 is violated: negative counts pass both checks of the class for counts, although the value is then used as a variance.
* `C161_null_violated`: C161 is violated: a null in a column the detector never reads makes it refuse the data, while the hooks, which alone see the history, accept nulls in the columns it does read.
* `C162_lost_violated`: C162 is violated: without a base the bins are counted from midnight; if no time of the series lies on such a bin and the series is not regular, linear interpolation loses every value.
* `C162_shift_violated`: C162 is violated: a regular series off the bins is not interpolated at all: its values are kept, but under times that are all earlier by the same amount.
* `C162_base_violated`: C162 is violated: every base other than zero means the same.
* `C163_unit_violated`: C163 is violated with a limit of 3: there is one lag only, no line is determined, and the result moves with the unit.
* `C163_constant_violated`: C163 is violated: if at one of the lags all differences are equal the result is zero, whatever happens at the other lags; so for a line and for every series with a short season, with a trend or without.
* `C163_range_violated`: C163 is violated: the exponent is not between 0 and 1; every number is the exponent of a series of five points.
* `C164_abstract_violated`: C164 is violated: a class that leaves an abstract method as it is, and adds none, is abstract and is found all the same.
* `C164_name_violated`: C164 is violated: of two classes with the same name, from two modules, only the one defined last can be found.
* `C165_stamps_violated`: C165 is violated: for a column of time stamps the argument `tz` is ignored, even if there is no such zone; the series has no zone when the stamps have none, and another one when they have another one.
* `C165_labels_violated`: C165 is violated: if repeated times are dropped and the rows are not sorted, the labels have gaps, and setting a zone shifts the values against the times: of three rows, the second with the time of the first, the value of the third is lost.
* `C166_digits_violated`: C166: tolerances above 1 are taken for their inverses: 1000 asks for three digits, 1 for none, so the wider tolerance makes the stricter comparison.
* `C166_series_violated`: C166: before pandas 1.3 the index is compared though it is not to be.
* `C166_errors_violated`: C166: after 0.24 and before 1.0 (as with 0.24.2, the least version in requirements.txt) the logarithmic error raises, with all arguments, since `squared` is passed and not yet known; from 1.6 on both errors raise; with 0.24 and outputs of errors 1 and 9 the root of the average is given instead of the average of roots.
* `C166_smoothing_violated`: C166: before statsmodels 0.12 an argument is passed that the constructor does not know, and the warning says that the period is not supported although it is passed.
* `C167_parameters_violated`: C167: an arm without the least metric of the table loses its parameters, though its rows have them.
* `C167_raises_violated`: C167: if no arm is left, as when none meets the constraints, the call raises instead of giving an empty table; so it does if a metric is called "parameters".
* `C168_parameters_violated`: C168: without a dictionary ("no feature is disabled") all smoothing parameters are NaN, also by default and after a successful fit.
* `C169_fields_violated`: C169: change points that differ in their class, model or series are equal, and the hash of all change points of these classes is the same.
* `C169_cusum_violated`: C169: change points of different p-values in the interest window are equal. Those of several series at once, whose means are arrays, cannot be compared, even with themselves. No CUSUM change point has a hash.
* `C169_mixed_violated`: C169: a comparison with a CUSUM change point raises, in both orders, if the other object is none and is a `TimeSeriesChangePoint` or of an unrelated type; a change point of another class may be equal to it, while it is not equal to that one but raises.
* `C169_almost_violated`: C169: the approximate comparison is not symmetric, and a Python float that is not almost 0 compared with 0 raises or does not by the order.
* `C170_digits_violated`: C170: the last digit of a time without a zone is removed, too; so a second repair changes what the first gave.
* `C170_trend_violated`: C170: the trend detector does not repair: it fails for a text that the other detector loads.
* `C170_duration_violated`: C170: a detector that finds its duration by itself keeps the one found for the first data, so that saved after a fit it is not the one that was made, and gives later data the duration of the first.
* `C171_iterated_violated`: C171: in a forecast from forecasts, beyond the data of the series, all indicators are 0, as if it were of no category; if the window of one series begins after its data, every forecast fails.
* `C171_labels_violated`: C171: a category that a series only has later is encoded as none, if no series begins with it. Without one-hot encoding, which is to give numbers, the features are the labels themselves.
* `C172_sum_violated`: C172: without the same probability at every place the weights need not add up to one: the first of two statistics is always rejected, the second never.
* `C173_exact_violated`: C173: for statistics that depend on each other the result is not the probability of a run: of two statistics that are always equal, one is rejected with probability one third, but the result is five ninths.
* `C174_roundtrip_violated`: With the smallest value the way back is off: the forecast of a right regressor is too small by a factor.
* `C174_scale_violated`: C174: with the logarithm and division, which is the default, the unit matters.
* `C174_report_violated`: C174: the error that training logs compares the logarithm of the value with the forecast of the value: even for right forecasts the two numbers are never equal.

## What the partial theorems leave out

A theorem named `_partial` proves less than the English statement of its property.  The comment beside each:

* `C03_extend_appends_partial`: C03, the true part: when `extend` reports no error the series holds its old points followed by the points of the other, and `validate=False` never fails. Missing for the full claim: the state after a failure (it is the same concatenation, see `C03_failed_extend_unchanged_violated`).
* `C05_pointwise_partial`: C05, the true part: if no time is repeated, a binary operation between series with the same times and the same columns gives a series with the times of the operands (sorted) whose value at each time is the operation applied to the two values, for every column. Missing for the full claim: repeated time stamps.
* `C05_scalar_partial`: C05: with a scalar the univariate series is transformed pointwise (distinct times).
* `C07_first_iteration_partial`: C07, the true part: the first `for` loop yields every column exactly once, in order. Missing for the full claim: any later loop.
* `C08_majority_gap_partial`: C08: for at least two points, on a series whose rows are in time order or which was built with `sort_by_time=False`, the result is the smallest of the most frequent gaps of the times listed in ascending order (`sorted` is any ascending arrangement of the times).
* `C09_train_prefix_test_next_partial`: C09, the true part: for arguments in the documented ranges accepted by the constructor, train is the first `k` points, test the `m` points directly after it (all remaining points when no test argument is given), where `k`, `m` are the requested numbers. Missing for the full claim: arguments out of range are not rejected (`C09_out_of_range_rejected_violated`).
* `C09_whole_series_partial`: C09: without a test argument train and test together are the whole series.
* `C12_max_core_partial`: C12, the true part: `max_core` in `[1, cores)` is used as given, `None` gives a number in `[1, cores]`, non-positive numbers are rejected, and without multiprocessing it is 1. Missing: `max_core ≥ cores`.
* `C16_first_run_partial`: C16 (first run): every reported error is the size-weighted mean of the metric over the folds, one fold per split in order, each computed from that split's own data.
* `C16_between_partial`: C16: the reported error never leaves the range of the fold errors.
* `C17_parent_partial`: C17 for `BackTesterParent`: construction succeeds exactly when every requested name is known.
* `C20_symmetric_partial`: C20: scaled SMAPE is always in [0, 1], SMAPE in [0, 2] and the symmetric bias in [-2, 2], also with NaN entries and any signs.
* `C20_mape_partial`: C20: MAPE and MdAPE are non-negative if no true value is negative.
* `C20_probability_partial`: C20: CRPS and LEPS are in [0, 1] and 0 on a perfect forecast.
* `C22_exceed_partial`: C22, what the code computes: for thresholds at most 1/2 the fraction of points with `y_true < y_pred`, for larger ones the fraction with `y_pred < y_true`; the value is in [0, 1] and arrays of different lengths are rejected.
* `C22_mult_partial`: C22: `mult_exceed` returns, for every threshold, the average over the rows of the rates that `exceed` gives for that threshold and its block of the row; wrong shapes are rejected.
* `C28_duality_partial`: C28, the part that holds: for a two-sided test, or a one-sided test at a corrected alpha of at most 1/2, a point is rejected exactly when the hypothesised effect is outside (or on the edge of) the reported interval - on the difference scale and on the ratio scale.
* `C29_partial`: C29, the part that holds: (1) with consolidation, the result depends only on alpha and duration (and the arguments), not on anything else remembered; (2) an explicit duration and alpha are kept, so a later call with equal arguments returns the same response; (3) on an object that never consolidated, `consolidate_into_intervals=False` gives all zeros.
* `C32_rows_partial`: C32, the true part: without aggregation the run-length matrix is the posterior, whose rows sum to 1; with aggregation row `i` sums to 1 minus the probability of "no change so far". Missing: rows summing to 1 in aggregated mode.
* `C35_alert_end_partial`: C35: when the alert goes off. With finite baseline statistics of positive deviation and both directions named (or none), a scan while the alert is on ends it exactly if the mean of the scan window is back in the normal band (from `delta_std_ratio` deviations on the side opposite to the change up to the baseline mean), or the changepoint is older than the retention period. Missing: zero deviation with one direction watched, and the spelling "both".
* `C36_one_score_partial`: C36: the windows tile the data and there is exactly one score per point: for a strictly sorted series at whole seconds, history before data, windows accepted by the validation, a detector that returns points of the series it is given, and a state whose changepoints are points of the series or older. Missing: the case that the data is shorter than one step and its first scored point is exactly one history window after the first point (`C36_short_step_violated`), the vectorised path, and removal of seasonality.
* `C37_bocpd_partial`: C37 for `BocpdDetectorModel`: the kind of change survives. Partial: the threshold is the constructor's, not the stored one.
* `C37_rolling_fields_partial`: What is true of C37: a model built again from the fields in its serialised form, as constructor arguments, is the same model.
* `C37_statsig_partial`: C37 for `StatSigDetectorModel`: a model built from `serialize()` output has the configuration of the serialised model, except that `anomaly_scores_only` is the constructor argument.
* `C38_same_partial`: C38: a regular series, however long, gets from the long-series path exactly the rows of the unsplit computation: one per data point in order, each from its own windows. Partial: the number of scored points must not be a multiple of `max_split_ts_length` (else see `C38_multiple_violated`), there must be no minimum percentage change and no seasonality removal, and no point may be compared from two windows of one value each.
* `C39_statsig_partial`: C39 for `StatSigDetectorModel`: the caller's history is left alone when the history is long enough for the windows (and the full response is asked for), or when nothing can be scored yet.
* `C40_point_partial`: C40, point-based: with too little history and no expanding windows the call is rejected; otherwise there is one score per new point, at its time, and it is `score_base` times the statistic of the point together with the `need` points before it, positions before the first point being missing. Partial: the seasonal decomposition is off.
* `C42_direction_partial`: C42 (change and direction): with a non-zero previous mean, the percentage change is the relative change of the means in percent and the direction is `"up"` exactly for a positive change. Missing: `"flat"` for no change (see `C42_flat_violated`).
* `C43_last_n_partial`: C43: for `n ≥ 1`, `get_last_n(n)` holds the last `n` points of every component (all of them if there are fewer).
* `C44_weights_partial`: C44 (weights), the part that holds: for non-negative errors there is one weight per model, all weights are positive, they sum to 1, and a model with smaller error has the larger weight (equal errors, equal weights).
* `C44_convex_partial`: C44 (forecast): for non-negative errors the ensemble gives one forecast per step, at the dates following the data, and each lies between the smallest and the largest base forecast of that step.
* `C45_order_partial`: C45 (order), the part that holds: with distinct names the order of the models does not matter.
* `C48_padding_partial`: C48 (padding), the part that holds: the forecasts of complete periods (the first `steps / m * m` steps) only depend on as many base forecasts as those periods need; models that agree on these agree on the returned forecasts, whatever else their forecasts contain or are padded with.
* `C49_phase_partial`: C49 (all methods), the part that holds: for `1 ≤ steps ≤ n` there is one forecast per step; the forecast of step `c` is the last value, the mean, the median or the percentile of the values one, two, …, `n / steps` periods before it, and it lies within the range of the history.
* `C50_distinct_partial`: C50 (distinct names), the part that holds: distinct columns stay distinct when the new names are distinct and none of them is the name of a column that is kept.
* `C51_average_partial`: C51 (`average`): as soon as one fold succeeded, every metric is summarised by the mean of its available scores, failed folds counting with the error score (ignored when it is NaN).
* `C51_weighted_partial`: C51 (`weighted`): if no fold failed and no score is NaN, the summary is the mean weighted by the lengths of the test blocks.
* `C52_core_partial`: C52: looking up a core metric succeeds exactly for the registered names that are not excluded, anything else is a `ValueError`, and apart from four names every core metric returns one number when called with `(y_true, y_pred)`.
* `C52_metadata_partial`: C52: every registered metric that returns one number has metadata.
* `C53_ignore_missing_partial`: C53: MAE, MSE, mean error, median absolute error, pinball loss, SMAPE and symmetric bias ignore every position where one of the two values is missing.
* `C53_weighted_mae_partial`: C53: the weighted MAE uses only the weights of available pairs: it stays within the range of the available absolute errors for non-negative weights.
* `C54_interior_partial`: C54: at the interior positions the rolling coverage is the mean of the window of `w` points around the point.
* `C56_data_partial`: C56, the part that holds: data passed together with a history is left alone, and otherwise only the two variance columns change; for real-valued data with all counts 1 nothing changes.
* `C57_global_error_partial`: C57, the part that holds: if the corrected alpha is not above alpha then the global error at the corrected alpha is at most the corrected alpha.
* `C58_stat_sig_partial`: C58: for the one-sided tests a point is rejected exactly when its reported significance is at most the corrected alpha; for the two-sided test exactly when it is at most half of it.
* `C59_normal_partial`: C59, the true part: for every run length the predictive distribution used by the code is the one of the conjugate posterior given exactly the run's points, but with prior mean 0 instead of `mean_prior`; its variance is right. Missing: the prior mean (`_mean_arr_num` starts as zeros).
* `C61_reset_partial`: C61, the true part: whatever the data, the posterior probability that the run has just been reset equals the changepoint prior. Missing: the point that starts a run is scored under the old run, not under the prior predictive.
* `C62_predictive_partial`: C62, the true part: for one series the posterior predictive is the sum of the log predictive probabilities of the points from the third on, each given all earlier points. Missing: the second point, and several series.
* `C64_flag_partial`: C64, the true part: the flag of the univariate detector is never wrongly on, and the loop ran into the limit when it is off. Missing: convergence in exactly `max_iter` steps.
* `C65_fit_partial`: C65: a step whose extreme point needs no clamping does not increase the residual sum of squares of the two-segment fit, and keeps the means ordered in the searched direction. Missing: clamped steps (`C65_fit_violated`).
* `C66_monotone_partial`: C66: of two splits with noise in them, the one with the smaller residual sum of squares has the greater likelihood ratio.
* `C66_lower_bound_partial`: C66: the part of "never negative" that holds: the ratio is at least `n log((n - 2) / n) + 2`.
* `C67_llr_partial`: C67: what the multivariate "likelihood ratio" is: twice the squared Mahalanobis distance of the segment means, times `n0 n1 (n0 - n1) / n²`. A significant change has to lie in the second half: missing is every other position (`C67_llr_violated`).
* `C71_smoothing_partial`: C71: the smoothing keeps the times; a window of at most one point changes nothing; with a window of `k ≥ 2` points the value at a position with at least `k - 1` predecessors is the mean of the last `k` values. Missing: the first `k - 1` positions.
* `C72_update_partial`: C72 (what remains true of a failing `update`): if the score itself is rejected nothing changes; in general every component is either unchanged or moved on by one point, and the two halves of the confidence band move together. Missing: all components move together.
* `C73_no_change_partial`: C73 (true part): data compared with themselves show no change and score 0 (unless constant).
* `C74_variance_partial`: C74 (true part): with equally many points on both sides, the variance used for the interval is the squared standard error of the mean of `x - ratio * y`, scaled by the previous mean; in particular it is never negative. Missing: samples of different lengths.
* `C75_student_partial`: C75 (true part): with `use_corrected_scores` the score (no minimum change set) is Student's two-sample t statistic, and the p-value is its two-sided tail. Without the correction it is the difference of the means in units of the pooled standard deviation.
* `C76_spikes_partial`: C76 (spikes): on data that are not constant, the first query of the spikes returns, in order, exactly the points at least `spike_std_threshold` sample standard deviations above the mean, each with its distance in standard deviations.
* `C77_overall_partial`: C77 (overall): when there is an alert, the overall figures are the number of alerts, the sum of the volumes, the sum of the durations, the duration-weighted mean of the heights, and the largest magnitude.
* `C77_sign_partial`: C77 (sign): watching both directions no volume is negative; when every score of the window must cross (`fraction = 1`, the default), every volume is positive, whatever the direction.
* `C78_dates_partial`: C78 (dates), the part that holds: if the last date of the data is a date of the frequency, the forecast dates are the `steps` dates of the frequency that follow it, strictly increasing.
* `C78_heuristic_partial`: C78 (heuristic model): `predict` gives one row per step, all after the latest time of the data and in order; with `include_history` the data come first, unchanged.
* `C79_bounds_partial`: C79 (bounds), the part that holds: bounds around the forecast stay around it when the seasonal component is added, and when it is multiplied by non-negative factors.
* `C80_agree_partial`: C80 (same results), the part that holds: without seasonality `fit().predict()` gives the frames of `forecast()`, and the same weights when the error method is the default; with seasonality (distinct names) both succeed and agree on the weights and on the frames of the listed models.
* `C81_median_partial`: C81 (median), the part that holds: when every model has numeric bounds around its forecast and no bound is exactly 0, the median bounds are numbers around the median forecast.
* `C81_weighted_partial`: C81 (weighted): with non-negative weights and numeric bounds around every base forecast, the weighted bounds are around the weighted forecast.
* `C82_closest_partial`: C82 (closest, partial: only if the weights contain no NaN): reconciling any matrix `Y` of base forecasts succeeds, the result is coherent, and in every column no coherent forecasts are closer to the base forecasts in the distance given by the weights.
* `C83_times_partial`: C83 (times, partial: only if the frequency is a time difference): row `j` of level `k` is stamped `k * (j + 1)` frequencies after the last time; it is the time of the last of the `k` level-1 rows that it is the sum of.
* `C84_validation_partial`: C84 (partial: for a positive margin): `median_validation` returns levels of the hierarchy whose distance is at least the margin above the median distance, and at most half of the levels.
* `C86_fit_partial`: C86 (partial: for supported names): base models that the constructors accept are fitted, if the series is long enough for every level.
* `C87_windows_partial`: C87: in the ordinary mode a call returns one row per data point. A point whose windows reach back before the first known point gets score 0. Every other point gets the comparison of the values in the `n_test` time units that end at the point with those in the `n_control` units before them, history included, and of nothing else.
* `C87_season_partial`: C87 with `remove_seasonality`, when the history fills the windows of the first point: data and history are freed of their seasonal parts separately, the points are scored as in the ordinary mode, and the seasonal part of the data goes back on both ends of the band and on the prediction.
* `C88_causal_partial`: C88: later points do not change the rows of earlier ones: the response for a longer series begins with the response for its first part.
* `C88_history_partial`: C88: it does not matter where the known series is cut into history and data: the response for data with a history is the end of the response for the whole series.
* `C89_scores_only_partial`: C89: with the corrected scores and no minimum change, computing only the anomaly scores gives the scores of the full computation, when the windows of every scored point hold at least two values each.
* `C90_repeat_partial`: C90: with an explicit time unit a call does not change the configuration, so it does not influence later calls.
* `C92_regular_partial`: C92, regular series: when the window is a multiple of the step, every new point with enough history is scored from the values observed in the time window that ends at the point. Partial: the seasonal decomposition is off.
* `C92_irregular_partial`: C92, other series: when the window is not a multiple of the step, every new point with at least two values in the time window that ends at it is scored from those values. Partial: the seasonal decomposition is off, and `iqr_base` has to be 1.5.
* `C93_sign_partial`: C93 for a positive median: the sign tells whether the point is above or below the band `[q1 - base·iqr, q3 + base·iqr)`, the size is the distance from the median relative to the median. Partial: the median of the past has to be positive.
* `C94_kind_partial`: C94: without a threshold the kind of change decides which model is used. Partial: with a threshold it does not.
* `C95_self_partial`: C95: a non-empty window is at distance zero from itself, if the band has at least the width one.
* `C95_symm_partial`: C95: with a band wider than both windows, the distance is symmetric. In general it is not.
* `C98_weights_partial`: C98, without the claim that both results sum to one: for non-decreasing percentile vectors of the same length, the two results have the same length, no negative entries and sums of at most one, and one of them sums to one.
* `C100_training_partial`: C100, default fractions: all values between the smallest and the largest residual are used, in order. What is missing: the smallest and the largest values are not used, see `C100_extremes_violated`.
* `C102_frequency_partial`: C102, frequency given as a time difference: accepted are one hour, and finer ones with one of the four aggregation methods. What is missing: strings, see `C102_frequency_violated`.
* `C102_hours_partial`: C102: after aggregation a complete date has each hour exactly once.
* `C105_points_partial`: C105, one metric without missing values, the whole series: reported are exactly the times, from position `window_size` on, at which the test on the last `window_size` smoothed values finds a trend whose Tau exceeds the threshold; with these results, in order of time.
* `C106_times_partial`: C106, `detector`, if the training duration is a multiple `j` of the step: scored are exactly the times after the first `j + 1`, in order, and each score is computed from the model fitted to the rows of the training duration up to the time before, and from the values at its time.
* `C106_metric_partial`: C106: the score of a metric is the distance of actual value and forecast in standard deviations, if the mean of the residuals of the training is zero.
* `C106_clean_partial`: C106, `_clean_data`: values whose z-score is below 3 are kept; all values stay within the range of the kept ones.
* `C107_outlier_partial`: C107: a model that has not been fitted answers with the scores of the detection on history and data together, at exactly the times of the data; the prediction is the cleaned series at these times.
* `C107_multi_partial`: C107: `fit_predict` answers with one row for each time of the data: the score of this time, or NaN if it is not scored, provided the scored times are the last ones of history and data.
* `C107_multi_detector_partial`: C107 with the detector of C106: on evenly spaced history and data `fit_predict` answers each time of the data with the score computed for it, and with NaN exactly for the times of the training.
* `C108_order_partial`: **C108 (order).** If a selection is accepted in two orders, both give the same instance.
* `C108_instances_partial`: **C108 (independence).** What an instance returns when another one was constructed after it: of the features it requests, those the other instance enables have their value; the others are missing or NaN.
* `C108_static_partial`: **C108 (static methods).** Called without `extra_args`, `get_statistics` disables no feature.
* `C109_crossing_partial`: **C109 (crossing points).** There are at most as many crossings as steps; shifting and scaling by a positive factor changes nothing; a constant series has none; and if no value equals the median, the crossings are exactly the steps from one side of the median to the other.
* `C110_strength_partial`: **C110 (strength).** The strength of trend and of seasonality is at most one, it is one exactly for a constant remainder, and it is not negative if the component and the remainder are not negatively correlated.
* `C110_level_shift_partial`: **C110 (level shift).** With at least two points more than the window, the index is the first at which the means of consecutive windows differ most, and the size is that difference, which is the change of the value across the window divided by the window; otherwise both are NaN.
* `C110_acf_features_partial`: **C110 (autocorrelation features).** If the features are calculated, the first one is the autocorrelation at lag one of the series, of its differences and of its second differences, the second one the sum of the squares at the first five lags (fewer if the period, or the lag for the differences, is less than five), and the seasonal one the autocorrelation at lag `period` if there are more points than that.
* `C110_first_zero_partial`: **C110 (first zero).** For a series that is not constant the first zero is the first lag with a negative autocorrelation just after a positive one, or the length of the series if there is none. If the autocorrelation starts positive and is never zero, this is the first lag with a negative autocorrelation.
* `C111_values_partial`: **C111 (values).** If there are enough points for the averages, the rate of change is the mean relative change over `window - 1` steps (zero where the earlier value is zero), the momentum the mean change over `window` steps, the lag the mean of all but the last `window` values, and all are defined if the series is longer than the window. The two signal features are defined exactly from 27 points on.
* `C112_days_partial`: **C112 (days).** Within a month the count of days is the number of different days.
* `C112_fourier_init_partial`: **C112 (Fourier arguments).** Lists of different lengths and a negative offset are rejected.
* `C113_cusum_partial`: **C113 (CUSUM).** There are at most two changepoints; without any, all features are zero or false; with some, the features are those of one changepoint strictly inside the series, whose test was significant, and its relative position is strictly between 0 and 1.
* `C113_seasonality_partial`: **C113 (seasonality magnitude).** It is within a half of the difference of the 95th and 5th percentiles.
* `C113_trend_mag_partial`: **C113 (trend magnitude).** It is the slope of the line through the first point with the least squared distance from the trend; it is the slope of a straight trend.
* `C114_init_partial`: C114, the constructor takes exactly percentages in (0, 100] and a number of sliding steps that is not negative.
* `C114_order_partial`: C114, ordered bounds as far as they hold: with a nonnegative quantile, a line that does not fall and a nonnegative value at the first horizon, every interval contains its forecast and none is narrower than the one before.
* `C115_forecast_partial`: C115, the forecast. With at least as many points as coefficients, `fit` and `predict` forecast with the polynomial of the class that has the least sum of squared residuals over the positions of the data, and only that one has it. The rows are the positions after the data at the dates after the last date, with the history in front if it is wanted, for two steps or more (or one with history, see `C115_one_step_violated`).
* `C115_exact_partial`: C115, an exact polynomial is continued: when the data lie on a polynomial of the class, so do all forecasts, and (with more points than coefficients) both bounds equal the forecast.
* `C115_interval_partial`: C115, the interval. With more points than coefficients the bounds lie at equal distance around the forecast: the Student quantile times the root of the residual variance times one plus the leverage of the position. With just as many points as coefficients the bounds are NaN.
* `C115_linear_partial`: C115, the intervals of the linear model: the usual formula, so they do not get narrower further ahead (for a nonnegative Student quantile).
* `C116_forecast_partial`: C116, the forecast of a series without season: every forecast is the mean of the least squares line, extended to that step, and the simple exponential smoothing of the second theta line (twice the data less the line), which is the definition of the Theta method; the forecasts are at the dates after the data. With the history, the fitted values are the smoothed levels before each point, at the times of the data.
* `C116_seasonal_partial`: C116, the forecast of a seasonal series without zero seasonal values: the Theta method on the data divided by the season, times the last `m` seasonal values over and over; the fitted values get the season of their own point.
* `C116_interval_partial`: C116, the intervals: for more than two points every bound of step `i` (from 0) lies `z * sigma * sqrt(1 + i * level²)` from the forecast, where `sigma²` is the sum of the squared errors of the smoothing over `n - 2` and `z` the upper quantile; so intervals contain the forecast and do not get narrower.
* `C116_history_partial`: C116, the history: with more than two points every fitted value has bounds at the distance `z * sigma`, the one of the first step, and the residuals are the data less the fitted values.
* `C117_exact_partial`: C117, reproduction as far as it holds: data that are a sum of harmonics with mean zero are continued exactly.
* `C119_period_partial`: C119, the period: with a frequency of `f` seconds it is the largest whole number of points that fits into the seasonal period and into half of the data, if that is 2 or more, and else 7.
* `C119_accept_partial`: C119, acceptance as far as it holds: seven points or more whose distances are multiples of the frequency found are accepted, if the frequency divides a day (or, more generally, unless the base is 0 and the time of day of the first point is no multiple of the frequency).
* `C120_forecast_partial`: C120, the forecast without history: step `j` is dated `j + 1` steps of the frequency after the last date (which must be a date of the frequency), and the inner forecast and both its bounds are put together with the seasonal value at the place of step `j` in the last cycle.
* `C120_history_partial`: C120, with history, when the data are whole cycles: the future rows are those of the forecast without history, if this is so for the inner model; and every row of a seasonality that repeats each cycle gets the value of its own position.
* `C120_exact_partial`: C120, an exact pattern is continued: a linear or quadratic trend put together with a seasonality that repeats each cycle, when the decomposition finds that seasonality, is forecast exactly, for any length of the data.
* `C121_forecast_partial`: C121, the forecasts, the part that holds: they are dated at the steps of the frequency after the last time, and each is what the coefficients expect from the data and the forecasts before it, but with `2 T - 1 + s` in the place of the time for step `s` (see `C121_time_violated`). The model is not changed.
* `C121_history_partial`: C121, the history, the part that holds: right after `fit`, the forecast with history has the fitted values of the times from `p` on (each with its own time), followed by the forecast without history.
* `C122_season_partial`: C122, seasons: December and January are winter, March to May spring, June to August summer, September to November autumn. February is missing from the winter.
* `C122_week_of_month_partial`: C122, the week of the month: when the date in UTC is the local one (always without a time zone) it is one more than the number of Mondays after the first of the month up to the day; so it counts from 1 to 6 and begins anew on Mondays.
* `C122_quarter_partial`: C122, and it is right for all other days.
* `C122_offset_partial`: C122, daylight saving time and offset in seconds are given when the zone knows daylight saving time and are both missing without a zone.
* `C123_detect_partial`: C123, a detector step with a subtype: the metadata hold the output of the detector for each series in order, with the extra parameters of the step (and `pipe` for outlier detectors); the series are passed on as they are, or without their outliers if that is asked for and the step is an outlier detector.
* `C123_chain_partial`: C123, a whole pipeline of such detectors followed by a model, on a single series: the result is the model fitted to the series, the metadata hold the output of each detector on the series, and the series and the parameters stay.
* `C124_chain_partial`: C124, a chain: it has as many forecasts as steps; it goes block by block, forecasting from the last block (or from all rows if rolling) and adding a draw of the error distribution to each block; the next training data are the block (or the block is appended).
* `C124_exact_partial`: C124, exact models: if from every stretch of at least a block of a series the model forecasts how the series goes on, and a draw from a distribution without variance is its mean, then the projection of the series is the series, with bounds that coincide with it.
* `C125_arima_partial`: C125, ARIMA: the series has `n` values on the dates asked for; its differences of order `d` are the values after the burn-in of a process that follows the ARMA equation with the coefficients, the constant `t` and errors with mean `mu` and deviation `sigma`.
* `C125_new_partial`: C125, a new simulator on growing dates: a linear trend of positive magnitude starts at 0, does not fall, and stays below the magnitude; a seasonality has the same value at dates that are a whole number of periods apart; whatever is multiplied leaves zeros.
* `C125_level_partial`: C125, level shifts: with one level more than change points, all of them inside the series, the simulation succeeds; its values are the level of their segment plus noise and seasonality, and those at an anomaly inside a segment are as many standard deviations away from the level as asked (the last of them if a place is given twice).
* `C125_trend_partial`: C125, trend shifts: with one trend more than change points, all of them after the start and before the end, the simulation succeeds; without noise and seasonality it starts at the intercept, grows by the trend of the segment from one position to the next, and does not change on entering a new segment; noise and seasonality are added, and at an anomaly the noise is as many standard deviations as asked.
* `C126_cardinality_partial`: C126, the cardinality: infinite if some parameter is a range, and otherwise the number of ways to choose a value for every parameter (at least that number, if values are repeated); a parameter without a type raises.
* `C126_constraints_partial`: C126, legitimate arms, constraints on one metric: the arms that stay are those with a score of it that meets them all.
* `C126_score_partial`: C126, the score of a Nevergrad search: the mean is what the evaluation function gives for the parameters of the row together with the fixed ones; so it is its value at the parameters of the row if none are fixed.
* `C126_workers_partial`: C126, the settings of Nevergrad: at least one worker and no more than processors, all of them for `True`, as many as asked for a positive number; the budget is the one given, or 100 for a negative one; the target stops it when the best loss is at most the target.
* `C126_factory_partial`: C126, the factory: grid, random and Bayesian searches without options have the names, the constraints and the processes that were given, and random and Bayesian ones the seed; names that are missing are made from the job; Bayesian searches need the evaluation function and evaluate arms at once.
* `C126_multi_partial`: C126, several spaces: for grid, random and Nevergrad searches there is a search of the method for every name; the list of scores is that of the name given, or of all for no name; unknown names raise.
* `C127_evaluate_partial`: C127, evaluation: for a run with predictions and labels of the same length, all metrics of which succeed, the results are the metrics of predictions and labels under their names, in order; labels and results are kept in the run; predictions and other runs stay.
* `C128_future_partial`: C128, the dates of a forecast: for a series on a grid, with values missing anywhere but not everywhere, they are the next steps after its end, whether Prophet knows of the dates of missing values or not.
* `C128_history_partial`: C128, the dates of a forecast with the history: for a series on a grid without missing values, those of the series and the next steps.
* `C128_points_partial`: C128, new change points: they are in order between the end of the history and the last time; a sample has none if none were drawn, and all if its number is the largest.
* `C128_linear_partial`: C128, samples of a linear trend: one row for each sample with an entry for each time: the trend of the model, on the scale of the data, to which the new change points of the sample add their changes of slope. These are between the end of the history (time 1) and the last time `T`, and are draws with the mean absolute change of the model as their scale; there are none if no sample has any. So up to time 1 the trend is that of the model.
* `C128_grid_partial`: C128, change points of the history on the grid of the trend: for a positive step and change points before the end of the history, each is at the first place of the grid after it; where only one change point is, its change is there, and there are no others.
* `C128_logistic_partial`: C128, the sampled logistic trend: if the rate is never 0, each row is a logistic curve with the rates `k` plus the changes so far, and offsets such that it does not jump where the rate changes.
* `C129_init_partial`: C129, arguments: they are accepted exactly if the saturation range is missing, empty or two numbers in order, and the growth is one of the three. The detector keeps the range, and then grows logistically, otherwise as asked for; it draws samples only for z-scores.
* `C129_weekend_partial`: C129, an automatic weekend: for times in order, none of them the epoch, it is dropped exactly if the data are shorter than two weeks or have no gap of less than a week.
* `C129_outliers_partial`: C129, outliers: for times in order exactly the values outside the bounds of the first model are removed; missing values stay.
* `C129_train_partial`: C129, training: for times in order, good ranges, seasonalities and holidays, the model is trained on exactly the rows outside the excluded ranges and, if asked for, without outliers; if all rows are excluded it is an error. The bounds are the saturation range, and the frame has the masks exactly if there is a seasonality of the weekend.
* `C129_fit_partial`: C129, training with a history: it is on the history and then the data, if their times have a frequency, and an error otherwise; without a history it is on the data.
* `C129_predict_partial`: C129, scores: for times in order there are as many scores, forecasts and bounds as data, at the same times. A score is that of the value against the forecast for its time, times the multiplier exactly on holidays; without samples the bounds are the forecast.
* `C129_days_partial`: C129, holidays: a multiplier works with a table of dates, as `fit` makes it of a list, or with those of a country; a date is a holiday whatever the time of the day.
* `C129_trend_partial`: C129, trends: for data without missing values the score at a change point is the size of its mean change of slope, and 0 at all other times.
* `C130_trix_partial`: C130, TRIX, on a frame with the default labels: with the threefold average `e3` the first row is 0 and row `i` the relative change of `e3` since the row before.
* `C130_rsi_partial`: C130, RSI, on a frame with the default labels and finite values: with Wilder's averages `U` and `D` of the rises and falls (both start at 0) the column is `100 U / (U + D)`, 100 if there was no fall, NaN before `n` rows; it lies between 0 and 100.
* `C131_current_partial`: Without a zero among the values the prediction is made from the last `step` rows of the data.
* `C131_plus_train_partial`: Without zeros the rows are consecutive: row `i` is trained with the deseasonalised change to row `i + step`.
* `C131_plus_predict_partial`: Forecast with a value per minute, more than a day of them, none zero, and a season that tells the minutes of the day apart: the value of the row less the season at the last row, less the predicted change, plus the season `step` minutes after the last row. So if the predicted change is the true one, the last forecast is the true value.
* `C132_roundtrip_partial`: C132: without `use_default_min`, denormalizing undoes normalizing, provided that the normalizers are finite and the divisor is not zero. Missing: zero divisors and `use_default_min`, see below.
* `C132_output_partial`: C132: if the normalizers of the window at the origin are finite and the divisor is not zero, the output of a row is a value exactly when the series has a value `h` steps after the origin, and denormalizing the output gives that value back. (Without `use_default_min`.)
* `C132_predict_partial`: C132: without new data, the model forecasts, for every series, target and horizon `h`, the time `h` steps after the last valid row, from the same features as the training rows have (lags, statistics, history and future covariates at that origin), and denormalizes the prediction. Missing: future windows longer than the number of lags plus the horizon (see `C132_future_violated`), and which calendar features are there (`C132_predict_calendar`).
* `C132_steps_partial`: C132: with the horizons 1 to `H` (an int horizon), asking for `n` steps ends with forecasts, all of them values, for exactly the steps 1 to some multiple `H j` of the horizon that covers `n`; `n` passes through the loop suffice. Missing: other lists of horizons, see `C132_steps_violated`.
* `C132_new_steps_partial`: C132: with new data that have a valid row, the steps are counted from its last one, whatever the old data are, and asking for `n` of them ends as in `C132_steps_partial`.
* `C133_mean_partial`: C133, baselines: the masked mean and deviation of complete data up to a changepoint are the mean and the population deviation of the values up to it.
* `C133_fit_partial`: C133, one scan: for complete data and a detector that treats each column as the scalar one does, every column is changed as the scalar model would change it: changepoints, alert, baseline, direction and normal scans. Missing: the adapted baseline when nothing is before the scan window.
* `C133_fit_predict_partial`: C133: with two or more columns of complete data after the first second of 1970, no adapted baseline and a detector that treats columns alike, whenever `fit_predict` returns, each column has the scores and the state that a new scalar model gives for it.
* `C133_univariate_partial`: C133, one column: a scalar model is made for it, but without the adapted baseline; it fails without historical data and for an object made from a serialized model.
* `C134_fit_predict_partial`: C134: on a regular series of whole seconds after the epoch, with a detector that does not depend on the position in time, and earlier changepoints before the new data, `vectorized=True` returns the scores and the state of the loop over the windows, provided that the model has no live alert, or that some window has a changepoint. Whether or not the windows can be made columns does not matter.
* `C135_fill_partial`: C135, the part that holds: for a series whose times are whole steps, `fill_missing_value_na` gives rows with increasing times from the first to the last one, the values that were there and missing values; row `i` is `i` steps after the first one up to whole periods. If rows were missing and the period is not 1, no whole period of missing values is left.
* `C135_split_all_partial`: C135, the part that holds: if `n % splits ≤ n / splits`, the parts make up the data set.
* `C135_preprocess_partial`: C135, the part that holds: for keys of one kind, `gmpreprocess` keeps the series that are, after filling, long enough for a training or test part and a validation part; it cuts off the validation part, `fcst_window * validation_step_num` rows (training) or `fcst_step_num * fcst_window` rows (test), and what is left has enough rows for one pass (training) or one period (test).
* `C135_pad_partial`: C135, the part that holds: `pad_ts` puts one row before the series, `n` steps earlier, with the first value that is not missing.
* `C136_offset_partial`: C136, the part that holds: with an uplifting ratio above 1 and some value in the series (and in the validation series, if there is one), the offset makes all values positive; it is 0 if they are already; otherwise it makes the largest value of the two series `uplifting_ratio` times the smallest one, or, if all are the same, makes them 1.
* `C136_row_partial`: C136, the part that holds: for values that are not integers, an array that has a whole period and a value, the row of a series ends with its last rows, with the offset added; padding repeats the first period in phase; only missing values of the first period are replaced, and after that none is left in it. The validation part has the first rows of the validation series, and then missing values at the times that follow; in a test without validation series it is missing values at the times after the series.
* `C136_positive_partial`: C136, the part that holds: all values of a row, those of the validation part included, are positive, if the ratio is above 1 and the validation series has a value.
* `C136_init_partial`: C136, the part that holds: for keys of one kind and a positive magnitude (or no test series), the new loader holds the data, and its first call makes new batches whatever their size.
* `C137_last_date_partial`: C137, the part that holds: the date feature of a row has ones at the weekday from 1 to 7, at 7 plus the pair of weeks and at 33 plus the day of the month, and nowhere else.
* `C137_month_partial`: C137, the part that holds: exactly what the month feature gives. It fails if the last series is in December; otherwise the row has a one at the month from 1 to 11, and column 0 tells that the series before it in the batch is in December.
* `C137_size_partial`: C137, the part that holds: with some on-the-fly feature and without `ts2vec`, the features of a batch of windows not ending in December have as many columns as `get_feature_size` tells the network.
* `C137_target_partial`: C137, the part that holds: a target without missing values is not changed.
* `C138_accept_partial`: C138, the part that holds: exactly the arguments that `GMParam` accepts.
* `C138_text_partial`: C138, the part that holds: the text of an object gives the same object, if the keys of the schedules are integers and the parameters of the optimizer are numbers, strings and lists.
* `C138_eq_partial`: C138, the part that holds: an object without NaN equals itself, and so its copy and its text.
* `C138_eq_sizes_partial`: C138, the part that holds: equal objects, whose features are without repetitions, give networks of the same sizes.
* `C138_loss_partial`: C138, the part that holds: without training quantiles the loss can be built.
* `C139_view_partial`: C139, the part that holds: if the input window is not shorter than a period, the network gets the values of the window divided by the last level and by their seasonality, the seasonality of the next period, its change from the period before, and the forecast is multiplied with the seasonality of the next period, repeated.
* `C139_forecasts_partial`: C139, the part that holds: with two training windows or more a pass over a batch gives a forecast for each window of validation, in order, each with a row for each series and a column for each quantile and step.
* `C139_steps_partial`: C139, the part that holds: with two training steps or more, the steps are the multiples of the step width before the last training step, and then all steps from the last training step on.
* `C139_valid_partial`: C139, the part that holds: in training, and in forecasting with two steps for warming up or more, every window of validation is visited.
* `C143_quantiles_partial`: C143: an additive seasonality keeps the order of the quantiles, and so does a multiplicative one that is not negative.
* `C145_aligned_partial`: C145, the part that holds: the forecasts of a global model begin one step after the last value of the training part (C141), and the `i`-th of them is compared with the `i`-th value of the validation part. In a filled series (C135) the times of both are the same up to whole periods; in a series without gaps they are the same.
* `C145_ew_aligned_partial`: C145, the part that holds: the forecasts of a fold begin one step after its training part; in filled data (C135) the times of the forecasts and of the values with which they are compared are the same up to whole periods, in data without gaps they are the same.
* `C146_scale_partial`: C146, the part that holds: a series with a positive value keeps its order when it is scaled, and its greatest value becomes one.
* `C147_same_partial`: C147, the part that holds: a classifier gets for the features of a row, if none is missing, what it was trained with for this row, whatever the preparation (made once).
* `C147_rows_partial`: C147, the part that holds: if an entry has the features of the first in the same order, each is in the column of its name.
* `C147_nan_partial`: C147, the part that holds: without scaling a missing feature is zero for a new series as well.
* `C148_sets_partial`: C148: with a test set, the rows are split into training, validation and test; the last two have the sizes asked for, rounded down, and none is empty.
* `C148_report_partial`: C148, the part that holds: without scaling, if no row of the test set has the threshold as its probability, the accuracy is the part of the test rows for which `pred_by_feature` gives the right answer, predictable for the label 0.
* `C148_init_partial`: C148, the part that holds: if all entries can be read, the meta data are accepted exactly if there are more than 30 and both labels occur. A row has the label 1 exactly if its error is greater than the threshold; every feature is in the column of its name, with zero where it is missing or NaN.
* `C148_threshold_partial`: C148, the part that holds: the threshold is one of the probabilities of the validation set, its precision is the greatest of all thresholds with the recall asked for, and it is the greatest threshold with this precision; it has the recall itself if no greater threshold than one with the recall has the same precision. This needs that no threshold with the recall has the precision one.
* `C149_init_partial`: C149, the part that holds: with names of categorical parameters (perhaps none of them), data are accepted exactly if there is a name, all names are columns, as many as there are, no categorical parameter has only one value, and there are more than 30 rows of features. Each categorical parameter has its different values as classes, and the code of a row stands for its value.
* `C149_pred_partial`: C149, the part that holds: whatever the rows are given as, with different names for the parameters, a list (perhaps empty) of numerical ones and a value for each categorical one, a network of the right sizes gives one recommendation for each row, with all parameters and nothing else; a categorical parameter has a value it has in the data.
* `C150_synth_partial`: C150, the part that holds: the tables of the synthetic data are those of the reader, if the same parameters are scaled.
* `C150_fit_partial`: C150, the part that holds: if the features of all rows have the same names in the same order, the fitted labels are those of the classifier for the rows it was trained or tested with; `pred_by_feature` gives the same for them.
* `C151_recommend_partial`: C151, the part that holds: after the start and a training with steps that keep the sizes of the layers, any rows of features get one recommendation each. It has each parameter of the data once: those with one value with that of the first row, a categorical one with a value it has in the data, a numerical one with a number.
* `C152_fit_partial`: C152 (training), the part that holds: for a series longer than the window the weights of a new network are changed once for each sequence, in the order of time and from the hidden state zero, and this for every epoch; what an earlier `fit` left plays no part.
* `C152_predict_partial`: C152 (forecasts), the part that holds: a fitted network on a series not shorter than the window gives a row for each step. The dates are the dates of the frequency after the last one; the forecast of a step is made by the network from the last `w` of the scaled values and the forecasts before it, always from the hidden state zero, whatever the network was used for before; and the interval is 5 % to each side.
* `C153_arima_partial`: C153 (ARIMA, forecasts), the part that holds: a row for each step, at the dates of the frequency after the last one, with the mean and the bounds of statsmodels for the level 0.05.
* `C153_arima_history_partial`: C153 (ARIMA, history), the part that holds: if statsmodels numbers its rows, the frame begins with the forecasts in the sample at the times from number `d` on, without bounds; the one row after the end of the series is dropped.
* `C153_sarima_partial`: C153 (SARIMA, forecasts), the part that holds: the dates are those of the frequency after the last one, one for each step; without a frequency they go on with the most frequent difference `δ` of the times; the means are those of statsmodels, and the bounds those of its interval for the level that was asked for, the smaller column of the first row as the lower ones.
* `C153_sarima_history_partial`: C153 (SARIMA, history), the part that holds: the frame has the times of the series, then the same dates as without the history; from row `k + 1` on, `k = max(p, d, q) + max(P, D, Q) * s + 1`, a row of the past has the mean and the interval of statsmodels (for the level 0.05), a row of the future is as without the history; the rows before are missing.
* `C154_hw_interval_partial`: C154 (Holt-Winters, interval), the part that holds: with an interval the forecasts are those of the model fitted to the values, and the bounds of step `h` lie `ppf(1 - alpha) * (a h + b)` to both sides, where `a h + b` is the line through the standard errors of backtests with the given percentages, and a fifth of the length as the number of sliding steps if none is given.
* `C154_var_forecast_partial`: C154 (VAR, forecasts), the part that holds: if the last date is one of the frequency, there is one frame for each column, with a row for each step at the dates after the last one, and with the mean and the interval of statsmodels for the level that was asked for.
* `C154_var_history_partial`: C154 (VAR, history), the part that holds: if there are `m` fitted values, `0 < m ≤ n`, each frame begins with them, at the last `m` times of the series and without bounds, and goes on with the rows of the forecast; the rows are in the order of time.
* `C154_var_plot_partial`: C154 (VAR, chart), the part that holds: before a forecast, and with given axes, the chart is refused; after a forecast without the history it shows the first two columns and no others.
* `C155_forecast_partial`: C155 (forecast), the part that holds: a forecast is made exactly after a fit, and with regressors only for a frame that has them; the frame needs the column `ds` and at least as many rows as steps. NeuralProphet gets its rows in the order of their dates, and what it says of them is returned row by row.
* `C156_groups_partial`: C156 (groups), the part that holds: if the bound of the interval is a time of the series, the groups are the values before and from the bound on, and together the whole series.
* `C156_trend_partial`: C156 (trend), the part that holds: if the values rise before the anomaly and fall from its end on, or the other way round, there is a change of the trend; if they never fall, or never rise, in both parts, there is none, and neither with fewer than two values in a part. Another unit or zero of the scale changes nothing.
* `C156_volatility_partial`: C156 (volatility), the part that holds: it changes exactly if at one of the two bounds both groups have two values and the standard deviation of one is at least the coefficient times that of the other. Another unit or zero of the scale changes nothing.
* `C156_level_partial`: C156 (level), the part that holds: a level shift needs, at one of the bounds, two values in each group, a p-value of at most 0.05, and a line through the first group that starts at a level different by the coefficient from that of the line through all values. If the t-test does not depend on the unit, the type does not depend on it either.
* `C157_scores_partial`: C157 (scores), the part that holds: without rescaling the score and the p-value of a series are those of the series on its own, with the correction if both intervals have at least two rows.
* `C157_rescaled_partial`: C157 (rescaling), the part that holds: for a t-distribution with distribution function `F` and quantiles `G`, and adjusted p-values that are not below the original ones, the rescaled score has the sign of the original one, the adjusted value as its p-value, and is not larger in absolute value; so a level `α` of the adjusted p-values is one of the scores.
* `C157_spikes_partial`: C157 (spikes): the lists are those of the single series, in their order, of the series that have spikes.
* `C158_floor_partial`: C158, the part of the bound that holds: with 10⁸ samples or more the likelihood is positive. Missing: all smaller numbers.
* `C160_stat_sig_partial`: C160: the reported significance agrees with the decision of the upper test; for the lower test a significance of at most alpha means rejection.
* `C164_concrete_partial`: C164, the part that holds of "only classes that are not abstract are found": a class that is found, and whose body has every method that is abstract further up, is not abstract.
* `C165_labels_partial`: C165: otherwise the labels are the positions after the construction.
* `C166_series_partial`: C166: two series pass if the values agree, the index if it is to be checked, the frequency if it is to be checked and both have one, and likewise the flags: from pandas 1.3 on, or if the index is to be checked.
* `C166_errors_partial`: C166: the errors are those asked for with scikit-learn from 1.0 to before 1.6; with versions up to 0.24 the logarithmic error is if it is squared, for single outputs or for one output.
* `C166_smoothing_partial`: C166: from statsmodels 0.12 on exactly the arguments the constructor knows are passed, without warning.
* `C167_parameters_partial`: C167: an arm that has the least metric of the table keeps the parameters of that row; so if every arm has every metric, and rows of the same arm have the same parameters, every arm has its parameters.
* `C168_parameters_partial`: C168: with a dictionary of switches, a smoothing parameter is that of the fitted model if its switch is on (by the dictionary, or by default), and NaN if it is off or the fit failed.
* `C169_cusum_partial`: C169: two CUSUM change points of single series are equal exactly if time, confidence, direction, index, means, difference, likelihood ratios, flags and p-value are equal numbers (the p-value in the interest window is not compared).
* `C169_almost_partial`: C169: numbers of which the first is not 0 are almost equal if they differ by at most half a unit of the last place in relation to the first, and only if they do so or differ by at most a unit of the last place.
* `C171_training_partial`: C171: if every series has one label in each categorical column, all rows can be encoded by indicators, of which one for each column is 1, and two rows, of the same or of different series, are encoded in the same way exactly if the series have the same labels.
* `C171_forecast_partial`: C171: in a forecast from an origin within the data of each series, the labels are those of training, and the row is one that training gave to the series.
* `C173_bounds_partial`: C173: for every joint law, with exactly as many tests as the run is long the probability is the one that all are rejected. If runs are as probable at every place, it lies between this one and one, grows with the number of tests, and is at most the sum over the places where a run can start.
* `C174_roundtrip_partial`: C174: a regressor that is right about the output of training is right about the value, without the smallest value and with divisors that are not zero.
* `C174_scale_partial`: C174: with the logarithm and subtraction or the z-score, a change of the unit of the series leaves the rows and the outputs of training as they are, and changes every forecast by the same factor.
* `C174_scale_plain_partial`: C174: without the logarithm, with division, no smallest value and a normalizer that has the unit of the series, the rows do not depend on the unit either and forecasts change with it.

## Modelled code

Generated from the comments of the definitions: the definitions of each model file, with the lines they cite.

* `Model/AnomalyResponse.lean`: `kats/detectors/detector_consts.py`: `AnomalyResponse`.  Every component series has the columns of `scores`, so a row of any of them is a list of `numSeries` values (`none` is NaN).
  `RSeries`, `ValArg` (588-597), `AResponse` (563-586), `AUpdate` (588-597), `ValArg.pdSeries` (625), `updateSlice` (619-652, 624-629, 630-652), `arStage`, `updateBand` (603-607), `updateScores` (601), `updatePredicted` (609-611), `updateMagnitude` (612-614), `updateStatSig` (615-617), `AResponse.update` (588-617), `AResponse.updates`, `inplaceTs` (679-690), `AResponse.inplaceUpdate` (654-677), `lastSlice` (554-558), `AResponse.getLastN` (692-713), `extendTs` (744-754, 655-692), `extendStage`, `AResponse.extend` (715-754).
* `Model/Arima.lean`: `kats/models/arima.py` and `kats/models/sarima.py`.  The wrappers around the two models of statsmodels. The estimation and the forecasts of statsmodels are parameters, and what is handed to them is modelled argument by argument; of the arguments of `fit` that are only passed on there is one type. Numbers are rationals or missing.
  `SmLabel`, `SmRow`, `FcRow`, `ArimaParams` (66-83), `ArimaCall`, `ArimaLib`, `ArimaModel`, `arimaInit` (134-142), `arimaFit` (144-232, 207, 210-218), `arimaHistory` (296-304), `smFrame`, `arimaPredict` (236-316, 261, 259, 263-267, 309-315), `SarimaParams` (74-110), `SarimaFitted`, `SarimaLib` (259-293, 370-372), `SarimaModel`, `sarimaInit` (158-168), `sarimaFit` (170-294), `nanLt`, `sarimaBounds` (353-358), `sarimaBurn` (403-407), `sarimaBlank` (409), `smZip`, `deltaFreq`, `sarimaPredict` (298-422, 369).
* `Model/Backtest.lean`: `kats/utils/backtesters.py`.  Percentages are exact rationals (no float rounding). Models, metrics and multiprocessing results are parameters.
  `btAbsSize` (1335-1341), `Split`, `checkPct` (723-736, 856-869, 1109-1122, 100), `checkSize` (750-758, 904-916, 1148-1156), `btSimpleSplits` (722-739, 420-424, 741-768), `arraySplitSizes`, `accOffsets` (1349-1354), `foldOffsets` (1344-1354), `btRollingSplits` (855-890, 420-424, 895-965, 968-1005, 1008-1044), `btFixedSplits` (1108-1136, 1138-1172), `FoldResult` (602-605), `BTState`, `BTState.fresh` (433-455), `createModel` (517-605), `calcFold` (486-515), `calcError` (469-515), `runBacktest` (607-640, 618, 624-627), `btInitErrors` (444-455), `getScorerNames` (113-137, 94-96), `GenFold` (241-252), `scaleO`, `genFoldErrors` (254-271, 261), `rowGet` (294), `foldLen` (290), `genSummarize` (273-304, 289-291).
* `Model/BayesVar.lean`: `kats/models/bayesian_var.py`.  `m` columns of reals. The flattened arrays of the code are indexed here by column and place, a place being the index into the vector `z` of regressors: `p` lags of each column, then the time, then the constant. The frequency that pandas infers is a parameter.
  `BvarParams` (34-53), `BvarParams.validate` (55-69), `BvarData`, `bvarInit` (107-128), `rowAt`, `bvarN` (127), `bvarZ` (245-257), `BvarIx`, `bvarZt` (259-270), `npInv`, `bvarXols` (272-280), `bvarYsuf`, `bvarSigma` (282-297), `bvarVariance` (328), `bvarLagVar` (299-322), `bvarPriorVar` (324-356), `bvarPriorMean` (188-191), `bvarGram` (195-224), `bvarPosterior` (183-241), `bvarStep` (358-382), `bvarHistory` (173-176), `bvarAhead` (431-445), `BvarModel`, `bvarFit`, `BvarRow`, `bvarPredict` (386-475).
* `Model/Bocpd.lean`: `kats/detectors/bocpd.py`: Bayesian online changepoint detection.  The run-length recursion, the output construction and the sufficient statistics of the normal and Poisson predictive models. The regression model is in `BocpdReg`, the search for priors and empirical priors are in `BocpdPrior`. Not modelled: plotting, debug arrays. Columns of a multivariate array never interact in the recursion (every operation is elementwise or reduces over axis 0), so one column is modelled; the one place where columns are pooled (`posterior_predictive`) is modelled for a list of columns. Log densities are real, so a density of zero (`-inf`) is outside.
  `lse`, `logaddexp`, `BocpdSt`, `bocpdInit` (852-865, 880), `bocpdStep` (868-956), `bocpdState`, `rtRow` (844, 958), `rtPosterior`, `predictiveTerm` (880-881), `posteriorPredictive` (864, 880-881), `npMax`, `fillDiag`, `offDiag`, `aggProb` (1085-1093), `lagProb` (1103-1107), `BocpdOut`, `whereAbove`, `constructOutput` (1095-1118), `BocpdCP` (78-122), `collectCPs` (434-457), `appendTo`, `groupCPs` (616-645), `NormalSt` (1258-1293), `normalInit` (1263-1289), `normalUpdate` (1384-1437), `normalState`, `normalPred` (1378-1382, 1371-1376), `poissonLoop` (1889-1933, 1911-1923), `poissonEvents`, `poissonPred` (1860).
* `Model/BocpdPrior.lean`: `kats/detectors/bocpd.py`: the priors (`_choose_priors`, empirical priors) and `BOCPDetector.detector`.  Numbers are elements of a field; a series without any variation, for which the code has an infinite precision, is outside. What the search library proposes, the sort of `pandas` and the detection itself are parameters. Priors that are given are one number for all series. Messages are left out.
  `BcKind` (66-74), `BcParams` (126-255), `bcDefault` (140-147, 185-196, 236-240, 254-255), `BcArm`, `bcSet` (149-162, 198-215), `bcMean`, `bcVar`, `bcWindows`, `BcModel`, `bcNormal` (1222-1293, 1143-1162, 1299-1337), `bcMake` (408-414, 597-603), `bcSetup` (415, 1295-1297, 1843-1845), `bcRuns`, `bcEval` (591-612), `bcRound`, `bcRounds` (566-569), `BcSearch`, `bcCount` (534-541), `bcChoose` (505-581), `BcArgs` (309-319), `bcDetector` (377-429).
* `Model/BocpdReg.lean`: `kats/detectors/bocpd.py`: the regression model (`_BayesianLinReg`).  The 2×2 matrices of `numpy` are written out; `np.linalg.inv` is the inverse in closed form. The random numbers are parameters: the seed is set before each draw, so that they are functions of the arguments. Variances stand for standard deviations, and the likelihood for its logarithm, so that a likelihood of zero (`-inf`) is inside. Plots and messages are left out.
  `BlrArgs` (219-240), `BlrPrior` (1461), `blrInit` (1489-1490), `blrFit`, `blrResidual` (1578-1588), `blrSetup` (1505-1559), `BlrSt`, `blrUpdate` (1787-1802), `blrState`, `BlrPost`, `blrPost` (1674-1712, 1495), `BlrDraw`, `blrFloor` (1498-1500), `blrLik` (1630-1650, 1714-1740), `blrPred` (1652-1747).
* `Model/Compat.lean`: `kats/compat/compat.py`, `kats/compat/pandas.py`, `kats/compat/sklearn.py`, `kats/compat/statsmodels.py`.  Comparisons of versions and the wrappers that hide differences between versions of pandas, scikit-learn and statsmodels. What each version of these libraries accepts and does is written out from their documentation (`cmPandas…`, `cmSk…`, `cmSm…`); it belongs to the trusted base.
  `CmVer`, `cmStrip`, `cmTupleLt`, `cmKeyLt`, `cmKeyEq`, `CmArg`, `CmWorld`, `cmParse` (51-65), `cmInit` (37-49), `CmOp`, `cmMethod` (67-89), `cmCompare` (91-99), `cmOp`, `cmRel`, `CmPrecise`, `cmConvert` (20-29), `cmFrameKw` (52-73), `cmSeriesKw` (111-143), `cmIndexKw` (194-210), `CmPair`, `cmPandasSeries`, `cmSeriesEqual` (92-174), `CmMulti`, `cmMean`, `cmAverage`, `cmSkMsle`, `cmSkMse`, `cmMse` (19-33), `cmMsle` (36-59), `cmSmoothKw` (78-131), `cmSmoothWarns` (101-104).
* `Model/CpEq.lean`: `kats/consts.py`, `TimeSeriesChangePoint`, and `kats/detectors/cusum_detection.py`, `CUSUMChangePoint`: equality.  Comparison of change points with `==`, their hashes, and the approximate comparison of two CUSUM change points.
  `CpBase`, `CpNum`, `CpCusum`, `CpObj`, `cpFeq`, `cpNumEq`, `cpAnd`, `cpBaseEq` (143-149), `cpCusumEq` (249-269), `cpEq` (250-252), `cpHash` (151-153), `cpHalfEven`, `cpRound`, `cpAlmost` (271-276), `cpAlmostAll` (278-306).
* `Model/Cupik.lean`: `kats/utils/cupik.py`.  A step is an object that is changed by what is done with it: its state is kept in a heap, indexed by the position of the step (no object occurs twice among the steps). What the steps do is a parameter. Data of no use after an exception (the states of the steps and the metadata at that point) are not modelled.
  `PipeItem`, `PipeData`, `PipeExtra`, `PipeStep`, `PipeOpts` (306-310), `PipeState`, `detectLoop` (89-131), `transformLoop` (133-164), `modelLoop` (166-199), `featsOf`, `fitSklearn` (201-227), `setAt`, `pipeStep` (229-267), `pipeSteps`, `Pipeline`, `PipeInput`, `PipeOut`, `Pipeline.fit` (269-329).
* `Model/Cusum.lean`: `kats/detectors/cusum_detection.py`.  The univariate, vectorised and multivariate CUSUM detectors: changepoint iteration, likelihood ratio, decision. Values are elements of an ordered field (exact arithmetic); where square roots and logarithms occur, reals. Not modelled: NaN data, the magnitude comparison with earlier days (`_magnitude_compare`, a Boolean parameter here), plotting, a start point outside the series.
  `Dir`, `mean`, `cumsumFrom`, `cusum`, `Dir.better` (353-358), `argBest`, `cusumStep` (377-382), `cusumLoop` (375-385), `cusumStart` (367-371), `CusumVal` (79-94), `windowOf` (362-365), `windowStart` (406), `deltaInt` (397, 405), `getChangePoint` (344-423), `prefixMask`, `maskMean`, `vecStepCol` (1365-1381), `vecLoop` (1364-1385), `vecChangePoints` (1309-1435), `logLlr` (453-475), `sqDev`, `npStd`, `getLlr` (425-451), `CusumArgs`, `regressionDetected` (635-656), `llrInt` (394-403), `cusumDetector` (595-661), `bilin`, `meanVec`, `logLlrMulti` (845-868), `multiLlr` (813-843, 792-799, 941, 823, 939-940).
* `Model/CusumModel.lean`: `kats/detectors/cusum_model.py`: `CUSUMDetectorModel`.  Times are nanoseconds (`Int`), values exact rationals, `none : Option Rat` is NaN. The changepoint detector is a parameter `detect` (it gets the series and the first index of the scan window and returns changepoints), the population standard deviation is a parameter `std`, the score function a parameter `score`. Not modelled: removal of seasonality (`remove_seasonality = False`), the vectorised path (`vectorized = False`), inference of the frequency (a parameter `freq`), the second score (absolute change), which is computed alongside in the same way.
  `Cp`, `CusumState` (202-207, 247-253), `CusumState.init` (247-253), `CusumCfg`, `maxChangepoint`, `normalTolerance`, `retention`, `nsPerSec`, `CusumState.alertOff` (319-321), `CusumState.alertOn` (323-329), `watches` (337-343), `aboveLower`, `belowUpper`, `ifNormal` (331-358), `earliest` (469), `pdMean`, `pdStd`, `pushCp` (470-473), `scanStart` (447-452), `fitAlertOn` (468-480), `adaptBaseline` (485-487), `countNormal` (491-496), `expire` (498-500), `fitAlertOff` (483-500), `cusumFit` (415-500), `cusumPredict` (502-548), `checkWindows` (560-592), `smoothed` (672-684), `idxRight` (1048-1049), `idxLeft` (1050-1051), `seg`, `fitAndScore` (909-928, 942-960), `cusumWindow` (880-928), `dateRange` (880-891), `cusumRemain` (930-960), `stepOf` (726-736), `predictOnly` (697, 718), `cusumScan` (704-960), `cusumFitPredict` (594-971, 962).
* `Model/CusumVec.lean`: `kats/detectors/cusum_model.py`: `VectorizedCUSUMDetectorModel` and `vectorized=True`.  The CUSUM model for several series at once, and the scalar model that cuts its series into windows and runs the vectorised detector on them. Times are nanoseconds (`Int`), values exact rationals, `none` is NaN, as in `Model/CusumModel`. A frame is a list of rows: a time and a function of the column number; a `Series` over the columns is a function of the column number; `n` is the number of columns. Parameters: `detectV`, the changepoints that `VectorizedCUSUMDetector.detector` finds in a column (its arithmetic is in `Model/Cusum`), `sqrt`, the frequency, the score function. The data are complete except in `vecMean` and `vecStd`. Not modelled: removal of seasonality, inference of the frequency, time zones, the second score (absolute change), computed alongside in the same way.
  `VRows`, `vcol`, `VecState` (1528-1536), `VecState.init` (1528-1536), `vecSum`, `vecCount`, `vecMean` (1338-1341, 1368-1371, 1375-1378), `vecStd` (1342-1350, 1380-1390), `vvals`, `vecNormal` (1225-1252), `VecState.alertOff` (1210-1212), `VecState.alertOn` (1214-1223), `vecFitOn` (1300-1358), `vecFitOff` (1360-1416), `vecFit` (1254-1416), `vecCpIndex` (1426-1440), `vecPredict` (1418-1459), `vecSmoothed` (1585-1599), `vseg`, `vecFitAndScore` (1676-1694, 1708-1726), `vecWindow` (1651-1694), `vecRemain` (1696-1726), `vecPredictOnly` (1604-1616, 1622-1637), `vecScan` (1617-1726), `vecFitPredict` (1490-1734, 1528-1536), `vecScoreColumns` (1461-1470, 1619, 677-691), `VecMade`, `vecUnivariate` (1517-1526, 1472-1488), `VecAttr`, `vecAttrs` (1176-1202), `vecFitted` (1528-1536), `vecSerialize` (312-317), `vecLoad` (1124-1174), `vecReorganize` (973-996), `vecFitRow` (360-413), `vecTrunc`, `vecColumns` (842-860), `vecPredictCol` (1418-1459), `vecMeta` (831-840), `vecLoopFlag` (777-877), `vecFlag` (738-775), `cusumScanVec` (704-960), `cusumFitPredictVec` (594-971).
* `Model/Decomposition.lean`: `kats/utils/decomposition.py`.  Times are whole seconds in increasing order, values are reals and `none` is NaN. STL, `seasonal_decompose`, polynomial interpolation, `pd.infer_freq` and the day of the month are parameters.
  `Comps`, `StlArgs` (100-111), `DecWorld`, `neighbourDiffs`, `smallestMode`, `inferFreqRobust` (968-989), `DecCfg`, `decInit` (67-111), `decClean` (113-138), `decPeriod` (140-158), `npLog`, `decompose` (160-236), `SeasonArg`, `seasonSeconds` (300-307, 323-334), `seasonFreq` (339-353), `resampleBase` (359-366), `resampleGrid` (1057-1059, 1093), `forwardInterp`, `interpColumn` (991-1111), `SeasonHandler`, `seasonPeriod` (377-384), `seasonInit` (309-395), `SeasonHandler.stlArgs` (399-411, 425-437), `SeasonHandler.decomp` (397-440), `atTimes`, `optAdd`, `SeasonHandler.removeSeasonality` (442-468), `SeasonHandler.getSeasonality` (470-492).
* `Model/DetectHpt.lean`: `kats/detectors/meta_learning/hpt_tuning.py`.  `MetaDetectHptSelect`, without plots; `get_ts_features` (45-62) is a parameter, `metadata_detect_reader` is in `MetaDetect`. Whether a detector can be made with some parameters is a parameter too; `hp.to_dict()` has the values as they are in the frame, where pandas may turn whole numbers into floats. The columns of `data_y` have different names.
  `Dh`, `dhRow` (179), `dhRemoved` (192-198), `dhCheck` (171-183, 186-204), `dhConst` (207-216), `dhInit` (144-168), `dhParams` (110-118), `dhTrain` (218-294), `dhFromFeatures` (307-319), `dhFromTs` (302-305).
* `Model/DetectorJson.lean`: `kats/detectors/prophet_detector.py` and `kats/detectors/interval_detector.py`: loading detectors from JSON.  The repair of the text of a Prophet model that was saved with time zones, and the saving and loading of the interval detectors. The text is a list of characters; `model_from_json` and `tz_localize` are parameters.
  `djDigit`, `djWord`, `djNum`, `djMatch` (323-324), `djSubN` (325-326), `djSub`, `djLoad` (317-329), `djTrendLoad` (791-794), `DjTest` (253-257), `DjStat` (247-250), `DjCfg`, `DjVal`, `DjTest.value`, `djTest`, `DjStat.value`, `djStat`, `djSet` (448-457, 496-502), `djNew` (428-431, 1458-1459), `djSave` (540-560, 1479-1481), `djGet`, `djRestore` (422-427, 1455-1457), `djFit` (700-712).
* `Model/DistDist.lean`: `kats/detectors/distribution_distance_model.py`: `DistributionDistanceModel`.  Values are exact rationals without NaN, times and the window are integers in one unit. The scipy distances are parameters.
  `mergeStep` (67-72), `mergePercentile` (59-73), `cumsumQ`, `cdfAt` (110-136), `cdfLoop` (98-136), `diffHead` (138-139), `percentileToProb` (76-144), `DDModel` (190-213), `ddMetrics` (32-55), `DDModel.init` (182-213, 215-219), `DDModel.serialize` (215-219), `DDRow`, `ddRef` (284-296), `ddRefs` (284-296), `rowMonotone` (242-244), `ddFitPredict` (257-346).
* `Model/Dtw.lean`: `kats/detectors/dtwcpd.py`: `DTWCPDDetector`.  Values are reals (no NaN), distances are reals or infinity. Logging is not modelled. Window and skip sizes are natural numbers.
  `Dist`, `pyMax`, `pyMin`, `subseqs` (186-194), `allSubseqs` (196-216), `dtwInit` (230-236), `dtwCell` (240-243), `dtwRow` (239-243), `dtwTable` (238-243), `dtwDistance` (218-244), `keoghSlice` (266-267), `keoghTerm` (266-272), `lbKeogh` (246-274), `Cand`, `dtwOverlap` (297-305), `dtwCands` (287-306), `searchStep` (307-333), `search` (285-333), `firstMinBy`, `firstMaxBy`, `DtwMatch` (75-81), `dtwBest` (283-338), `dtwAll` (276-347), `DtwCP`, `Dist.toReal`, `dtwAnomalies` (349-376), `DtwDet` (105-121), `DtwDet.init` (105-143), `DtwDet.detector` (146-184).
* `Model/EmpCi.lean`: `kats/utils/emp_confidence_int.py`.  The backtester's raw errors (`kats/utils/backtesters.py`) and the forecast of the model on all data are inputs.
  `EciParams` (62-99), `eciInit` (79-96), `sampleStd`, `horizonErrors` (152-155), `runCv` (123-155), `getLr` (157-175), `eciMargin` (203-207), `getEci` (177-218).
* `Model/Ensemble.lean`: `kats/models/ensemble/{ensemble,median_ensemble,weighted_avg_ensemble,kats_ensemble}.py`.  The base models are parameters: what a model forecasts for given data, and its backtest error. Not modelled: the process pools (each task is a pure function of its arguments), logging, custom executors, a backtest error of minus machine epsilon (division by zero), NaN and infinite errors.
  `dictSet`, `dictOf`, `dictUpdate`, `floatEps`, `errWeights` (116-123, 577-584, 852-858), `fcstRow`, `concatFcst`, `dotRow`, `BaseModel` (41-61), `predictAll` (105-126, 147-164), `daily`, `medianEnsemble` (51-93), `backtestWeights` (91-124), `weightedEnsemble` (129-170, 139).
* `Model/EnsembleInterval.lean`: `kats/utils/ensemble_predict_interval.py`.  A series is a list of rows of time and value. The forecasting model, the quantiles of Student's t and the draws from the multivariate normal distribution are parameters. With `multiprocessing` the same functions are mapped over the same numbers; it is not modelled.
  `EpiRows`, `EpiWorld`, `epiSizes` (101-144), `Epi`, `Epi.init` (86-169), `Epi.block`, `Epi.errorRow` (171-199), `Epi.errorMatrix` (201-224), `colMeans`, `colCov`, `Epi.chain` (254-278), `Epi.projectOne` (226-280), `Epi.project` (282-305), `meanInterval` (33-43), `bandTable` (318-325, 342-349), `Epi.getProjection` (307-329), `Epi.bandWithLevel` (331-353).
* `Model/Evaluator.lean`: `kats/evaluation/evaluator.py`.  Predictions and labels are lists of numbers, or something that is no array (`np.ndim` 0, such as `None`). The data and the model of a run are not read by the class, and are left out. Metrics are functions of predictions and labels that may raise.
  `EvArr`, `EvRun` (22-29), `EvName`, `EvRuns`, `evCheck` (44-53), `evCreate` (36-38), `evDelete` (40-42), `evGet` (55-57), `evPut`, `evMetrics` (96-106), `evEvaluate` (71-110), `IvAnomaly` (1287-1327), `IvAnomaly.init` (1298-1312), `IvAnomaly.secondLen` (1322-1327), `TsIter` (1241-1276), `TsIter.next` (1259-1276), `TsIter.toList`.
* `Model/FeatEng.lean`: `kats/utils/feature_engineering.py`.  Timestamps are whole microseconds since 1970-01-01 00:00 UTC; a time zone gives the offset from UTC. What pandas reads off a timestamp (year, month, day, weekday) is computed here with the Gregorian calendar, counted day by day from 1970-01-01.
  `CivDate`, `isLeap`, `daysIn`, `CivDate.next`, `CivDate.prev`, `civil` (1970-01), `dayOfWeek` (1970-01), `seasonMap` (15-32), `daytimeMap` (34-61), `mapArr` (64-83), `Zone`, `usDay`, `localTime`, `firstOfMonth`, `weekOfMonth` (115-125), `DateFeat`, `isMonthEnd`, `dateFeat` (86-141), `dateFeatures`, `TimeFeat`, `dstOffset` (174-186), `hourOfDay`, `timeFeat` (144-188), `timeFeatures`, `circleEncode` (224-251).
* `Model/Float.lean`: Floats with exact finite values.  IEEE special values over exact reals, for the numpy code whose behaviour depends on them: `inf`, `-inf` and NaN are kept, rounding, overflow and the sign of zero are not. No Kats code is modelled in this file.
  `Fl`, `infOf`, `div`, `lt`.
* `Model/GmBacktest.lean`: `kats/models/globalmodel/backtester.py`.  `GMBackTester` (32-457) and `GMBackTesterExpandingWindow` (460-638). Series are lists of times (integers) and values that may be missing; series of integers are left out (they fail in `GMBatch`). A trained model is what `fit` makes of the sets that it was trained with, oldest first: `GMModel.train` goes on with the networks that are there (`model.py` 86-95). The types of the arguments are those of the signature; timestamps that pandas cannot read are left out. `shuffle` is `np.random.shuffle`. Floating point numbers are exact.
  `GmBtArgs` (57-71), `GmBt` (76-168), `gmBtPrepare` (171-210), `gmBtTestSize` (133-143), `gmBtCores` (145-154), `gmBtInit` (57-168), `gmBtFresh` (157-160), `gmBtCut` (268-278), `gmBtFilter` (213-286), `GmBtRow`, `gmBtAt` (442, 449), `gmBtWindow` (441-456), `gmBtSeries` (434-456), `gmBtEvaluate` (401-457, 394), `gmBtTrained` (357-387), `gmBtStep` (341-396), `GmBtRun`, `gmBtRun` (321-399), `GmEwArgs` (481-494), `gmEwInit` (481-520, 439), `gmEwCut` (522-585), `gmEwColumn` (624), `gmEwResult` (618-627), `gmEwResults` (587-632), `gmEwRun` (634-638).
* `Model/GmBatch.lean`: `kats/models/globalmodel/data_processor.py`.  `GMDataLoader` and `GMBatch`. A draw of random numbers is a parameter: a list of rationals for `np.random.uniform(0, 1, n)`, a function on lists for `np.random.shuffle`, a natural number for `np.random.randint`. Sorting is stable here (numpy's need not be). The batch size is an integer. A series is as in `GmData`; `ints` says that its values have an integer type, with which `+=` a float is a TypeError. An offset that is not finite (`uplifting_ratio` 1) is `otherError`. Tensors, features and types of arguments are left out.
  `GmRand`, `GmLoader` (59-78), `gmValid` (80-106), `gmTestLengths` (51-62), `gmLoaderInit` (40-78), `gmNewOrder` (108-122), `gmShuffle` (124-156), `gmAt` (170-175), `gmGet` (159-178), `gmRandint`, `gmArange`, `GmIndices`, `gmIndices` (310-441), `gmMin`, `gmMax`, `gmMin2`, `gmMax2`, `gmOffset` (507-527), `gmTile` (539-541), `gmResize` (534-544), `gmFillNan` (626-632), `gmFirst` (547-548), `GmRow`, `gmAfter` (567-571, 589-593), `gmRow` (502-594), `gmSeason` (611-624, 266-273), `gmBatch` (241-249).
* `Model/GmData.lean`: `kats/models/globalmodel/utils.py`: the preparation of series for global models.  `get_filters`, `fill_missing_value_na`, `split`, `gmpreprocess`, `calc_min_input_length`, `calc_max_fcst_horizon` and `pad_ts`. A series is a list of rows, a time (`Int`, nanoseconds) and a value, `none` for NaN; it is sorted by time, as `TimeSeriesData` does. The frequency is a number of nanoseconds (its inference and parsing are left out). A data set is a list of keys with series, a list of series having the keys `0, 1, ...`; keys are integers or strings. Only the first value column counts. Errors outside the classes of `Err` (`ZeroDivisionError`) are `otherError`.
  `GmTs`, `GmKey`, `GmParams` (1193-1340), `gmRunEnd` (70-72), `gmFlips` (66-78), `gmClear`, `gmFilters` (53-82), `gmGrid` (126), `gmMerge` (130), `gmKeep` (134), `gmFill` (85-134, 126), `gmNpKeys` (161, 1625), `gmLookup`, `gmPick` (169-170, 194-211), `gmPickValid`, `gmSeps` (180-184), `gmPart` (185-189, 194, 206), `gmSplit` (138-215), `gmLength` (1603-1617), `gmPreprocess` (1584-1643), `gmMinInput` (1646-1659), `gmMaxHorizon` (1662-1672), `gmPad` (1675-1705).
* `Model/GmEnsemble.lean`: `kats/models/globalmodel/ensemble.py`.  `GMEnsemble`: its arguments, which series each of its models is trained with, how it combines the forecasts of its models, how it is evaluated, and how it is saved and loaded, also as JSON by `kats/models/globalmodel/serialize.py` (its lines are cited as S). The training of one model is not modelled here: a model is what `predict` uses of it, or its networks, and what training gives back is a value of which only is known whether JSON can hold it. The text of the parameters is left out (C138). Random numbers for the models that are trained in parallel are left out.
  `GmEnsArgs` (54-63), `GmEns` (66-107), `gmNotPositive`, `gmEnsInit` (54-113), `gmEnsTake` (194, 198), `GmSet`, `gmEnsData` (184-208), `gmEnsTestIds` (202, 208), `gmEnsJobs` (212-248), `gmEnsTrain` (169-253), `gmEnsMean`, `gmEnsMedian`, `gmEnsFunc` (68-76), `gmCombineAt` (269), `gmCombine` (268-271), `gmEnsRaw` (256-274, 376-384), `gmEnsFrame` (256-289, 376-384), `gmEnsWrap` (374-388), `gmEnsPredictWith` (292-389), `gmEnsPredict` (292-389), `gmEnsPredictRaw` (292-389), `gmEnsEvaluate` (450-527), `GmEnsModel`, `GmEnsSaved` (404-443), `gmStateDict`, `gmEnsDict` (405-422), `gmEnsSave` (391-448), `gmEntry`, `gmEnsArgs` (562-567, 99-107), `gmEnsCount` (543-547), `gmEnsLoad` (530-574, 57-61), `GmEnsJson` (51-68), `gmNnDict` (19-32), `gmEnsToJson` (50-78), `gmEnsFromJson` (81-111, 35-47), `GmInfo` (506-515), `GmInfo.json`, `gmTrainInfo` (431, 494-515).
* `Model/GmLoss.lean`: `kats/models/globalmodel/utils.py`.  `PinballLoss`, `AdjustedPinballLoss` and `GMFeature`. Numbers are of an ordered field `K`; a missing target is `none`; forecasts are not missing. `torch.exp` and `torch.log` are the parameters `ex` and `lg`. A tensor is its rows and the number of its columns. Gradients, types and devices are left out. `target[nans] = 1.0` changes the tensor of the caller: the new target is part of the result.
  `GmMat`, `gmPinInit` (665-693, 769-800), `gmPinCheck` (695-707, 802-814), `gmPin` (737, 845, 863), `gmRepeatEach` (732, 734, 860, 869), `gmNotNan` (726-727, 834-835), `gmMask` (738, 849, 864), `gmWeigh` (739-742, 870-871), `gmPinRow` (719-742), `gmAdjRow` (828-871), `gmReduce` (744-748, 873-878), `gmClean` (725, 833), `gmForward` (709-748, 816-878), `gmPinball`, `gmAdjusted`, `GmTime` (366), `gmAllFeatures` (40-48), `gmFeatureInit` (896-906), `gmFeatureSize` (908-930), `gmFeatureEq` (1149-1153), `gmLast`, `gmHot`, `gmOffsets`, `gmLastDate` (1002-1026), `gmLastHour` (1028-1042), `gmLastMonth` (1044-1057), `gmDate` (969-1000), `gmHourMinute` (1068-1082), `gmTsfeatures` (933-966), `gmCat`, `gmBase` (1084-1111), `gmFly1` (1140-1141), `gmFly` (1113-1147), `gmGetFeatures` (634-651).
* `Model/GmNet.lean`: `kats/models/globalmodel/utils.py`.  The networks of global models: `LSTM2Cell`, `S2Cell` and `DilatedRNNStack`, and from `model.py` the functions `build_rnn` and `build_s2s`. A tensor with one row for each series is a list of rows; numbers are exact; the sigmoid and `tanh` are parameters. `torch.nn.Linear` is its matrix and its bias, `torch.nn.LSTMCell` is what its documentation says. The states of a layer at one time are one pair for each row. A mismatch of sizes, for which torch raises a `RuntimeError`, is `otherError`. Gradients, `jit`, the random weights and what an error leaves in the lists of states are left out.
  `gmDot`, `gmLinear`, `GmAct`, `GmCellKind`, `GmCell` (231, 308), `gmCellIn` (262-270, 341-349), `gmGate`, `gmSplitOut` (285-287, 369-371), `gmSameLen`, `gmLstm2Carry` (554-566), `gmLstm2State` (276-282), `gmLstm2` (237-288), `gmS2Carry` (359-363), `gmS2State` (354-365), `gmS2` (315-372), `gmLstmCarry` (612-630), `gmLstmState`, `gmLstm`, `gmCellRow`, `gmStateRow`, `gmCellAll`, `GmStore`, `GmStack`, `gmStoreAt`, `gmDelayed` (505-568, 600-629), `gmCellAt`, `gmLayer` (591-635), `gmAddRows`, `gmBlock` (590-636), `GmStack.out` (471-490), `gmAdapt` (638-641), `gmNetForward` (570-642), `gmPrepare` (493-503), `GmStackArgs` (389-399), `GmStackShape`, `gmMaxOf`, `gmValidate` (471-490), `gmCellSize`, `gmStackInit` (389-469), `gmBuildRnn` (134-170), `gmFeatCols` (982-986, 1000-1004), `gmBuildS2s` (978-1021).
* `Model/GmParam.lean`: `kats/models/globalmodel/utils.py`.  `GMParam`: the checks of `__init__`, `copy`, `__eq__`, `to_string` and `gmparam_from_string`. Numbers are integers, booleans or floats with exact values; a dictionary is the list of its items. The arguments have the types they are documented with, except where the code looks at the type. A JSON text is the values it holds; `pd.to_timedelta` is a parameter.
  `GmFlt`, `GmNum`, `GmNum.val`, `gmLe`, `gmLt`, `gmNumEq`, `GmNum.isInt`, `GmNum.isFlt`, `GmPy`, `GmOpt`, `GmOptArg`, `GmUnion`, `GmFreq`, `GmFeatArg`, `GmMetricArg`, `GmArgs` (1198-1234), `GmObj`, `gmFreq` (1488-1508), `gmList` (1429-1443), `gmUnion` (1445-1478), `gmOpt` (1404-1417), `gmLossName` (1419-1427), `gmMetric` (1305-1320), `gmFeat` (1529-1543), `gmTrainQuantile` (1287-1291), `gmWeights` (1293-1303), `GmNum.toInt`, `gmMaxLen` (1333), `gmPositive` (1480-1486), `gmModelType` (1379-1386), `gmUplift` (1240-1243), `gmFirstQuantile` (1282-1285), `gmBatchDefault` (1258), `gmRateDefault` (1266), `gmQuantileDefault` (1277), `gmInit` (1235-1377), `gmArgsOf`, `gmCopy` (1545-1553), `GmTextKey`, `gmTextKey`, `gmReadKey`, `gmTextPy`, `gmTextOpt`, `gmKeys`, `GmObj.withDicts`, `gmToString` (1510-1517), `gmFromString` (1556-1580), `gmListEq`, `gmPyEq`, `gmDictEq`, `gmOptionEq`, `gmEq` (1520-1526), `gmSizes` (135-160).
* `Model/GmPass.lean`: `kats/models/globalmodel/model.py`.  A pass of `GMModel` over a batch: `_process`, `_single_pass_rnn`, `_calculate` and the order of the steps of `_single_pass_s2s`. A tensor of one row for each series is a list of rows, and what is done to every row is a function of one row. Numbers are exact; `log`, `exp` and the sigmoid, the networks, the features and the losses are parameters. A network has a state and gives one row for each row. The first value of a row is not missing (`GMBatch` fills it); that it is, and a mismatch of sizes, is `otherError` here. Gradients, types of numbers and the checks of `_valid_tensor` are left out, and so is `fcst_fill`, which is always false.
  `gmDelta` (718-727, 1087-1095), `gmRnnSteps` (735-743, 828-834), `gmFirstValid` (730-734, 1097-1101), `gmS2sSteps` (1103-1110, 1201-1208), `GmTrack`, `gmSeasons` (708-716), `gmStart` (288-294), `gmAdvance` (296-326), `gmTrack` (287-326), `GmView`, `gmJoin`, `gmAnchor` (328), `gmView` (327-351), `gmProcess` (264-361), `GmEnv`, `GmLoop`, `gmInput` (746-753, 782-793), `gmCol` (740), `gmLogFcst` (803-807), `gmRowProc` (757-780), `gmRowFcst` (797-807), `gmTurn` (744-807), `gmTurns`, `GmBatchIn`, `gmLoopInit` (700-716, 738), `GmPassRes`, `GmJudge`, `gmActual`, `gmRestore` (1243-1245), `gmCalc` (1211-1259, 809), `gmPassRnn` (676-837).
* `Model/GmPredict.lean`: `kats/models/globalmodel/model.py`.  What is around the passes: `_adjust_pi`, `_format_fcst`, `predict`, `evaluate`, the validation function, the schedule of the batch sizes and learning rates in `train`, and which networks there are in which mode. Numbers are exact, a time is an integer and a frequency a number of its units. The pass over a batch is a parameter of `predict` (the models of the passes give it, `gmSingleRnn` and `gmSingleS2s`), and so are the metrics of the validation function. A window is a list of rows, one for each series, and in a row the steps of the first quantile come first, then those of the next. That all rows of a batch have one length is numpy's; rows that can not be divided into the quantiles are a ValueError. The number of steps is a natural number. Optimizers, gradients, logging, and the monitors of the training are left out.
  `gmAdjustBlock` (973-975), `gmAdjustRow` (973-975), `gmAdjustFrom` (972-975), `gmAdjust` (966-976), `GmTable`, `gmColumn` (551-553), `gmDates`, `gmFrame` (547-565), `gmSeries`, `gmStepNum` (602-604), `gmPut`, `gmUpdate`, `gmFirstTime` (644), `GmPredictor`, `gmPredictBatch` (620-638), `gmFormatOne` (640-643, 557-565), `gmFormat` (520-569, 640-643), `gmRaw` (646-648), `gmPredictLoop` (619-649), `gmPredictWith` (602-618), `gmPredict` (572-652), `gmPredictRaw` (572-652), `gmSingleRnn` (840-877), `gmSingleS2s` (840-877), `GmColl`, `GmColl.entries` (594-595, 914-917, 923-927), `gmSameKind` (900-907), `gmWindow` (951-957), `gmEvalOne` (957-961), `gmEvalKey` (948-961), `gmEvaluate` (879-962), `GmMetrics`, `gmValidFn` (214-239), `gmSchedule` (428-429, 436-439), `gmEpochModes` (413, 431-500, 498, 593), `GmNet`, `GmNets` (66-71), `gmOn`, `gmReset` (73-84), `gmInitiate` (86-95), `gmSetMode` (111-132), `GmSaved` (661-670), `gmSave` (654-673), `gmLoadWeights`, `gmLoad` (1262-1293).
* `Model/GmS2s.lean`: `kats/models/globalmodel/model.py`.  A pass of the encoder and decoder over a batch: `_process_s2s`, `_single_pass_s2s`, and `_calculate` as it is called from there. As in the model of the recurrent network, a tensor of one row for each series is a list of rows, numbers are exact, and `log`, `exp`, the networks, the features and the losses are parameters. The decoder takes its state from the encoder (`prepare_decoder`). That a value before the first is needed, and an empty `torch.cat`, is `otherError` here. Gradients, types of numbers and the checks of `_valid_tensor` are left out.
  `gmS2sAdvance` (1036-1044), `gmMedian`, `gmS2sTrack` (1036-1044), `gmS2sProcess` (1023-1055), `GmS2sEnv`, `gmEncIn` (1115-1122, 1132-1140), `gmDecIn` (1158-1172), `gmDecode` (1157-1174), `GmS2sLoop`, `gmS2sRow` (1124-1130), `gmS2sTurn` (1109-1174), `gmS2sTurns`, `gmS2sRestore` (1243-1245), `gmS2sCalc` (1176-1199, 1237-1259), `gmS2sWindows` (1149-1156), `gmPassS2s` (1058-1209).
* `Model/GmStd.lean`: `kats/models/globalmodel/stdmodel.py`.  `STDGlobalModel`: a global model for series whose seasonality is taken out before and put back after. What is called is a parameter: the decompositions, `freq_to_period` and `predict` of the global model. Values are exact and may be missing; the seasonality has no missing value and as many values as the series (pandas would align them otherwise). The number of steps is a natural number. Parallel work, copies of objects and the parameters of the decomposition are left out.
  `GmStdWorld`, `GmStdArgs` (51-66), `GmStd` (67-102), `gmStdPeriod` (117-134), `gmStdCores` (77-85), `gmStdInit` (51-102), `gmStdLoad` (104-115), `gmStdTile` (217-222), `gmStdSeason` (136-180, 195-224), `gmStdOff`, `gmStdOn` (100), `gmStdSeries` (182-193), `gmStdPrepare` (226-232), `gmStdReseason` (234-241), `gmStdPredict` (243-299).
* `Model/Harmonic.lean`: `kats/models/harmonic_regression.py`.  Times are whole seconds since the epoch. The optimiser of `scipy` works on a function that is linear in the coefficients, so its optimum is the least squares solution (`lstsq`); a singular problem is left to `pinv`.
  `harmParams` (28-40), `harmRow` (154-165), `harmFit` (187-237), `harmPredict` (74-95), `harmRun` (64-70).
* `Model/Heuristic.lean`: `kats/models/simple_heuristic_model.py` and the future dates of forecasting models.  
  `DateFreq`, `pdDateRange`, `futureDates` (199-201), `mkFcst`, `percentileQ`, `HMethod` (38-44), `HMethod.validate` (46-62), `HMethod.apply` (107-140), `fittedPart` (188-190), `phaseColumn` (191), `heuristicFcst` (188-193), `maxTime`, `heuristicPredict` (162-229).
* `Model/HoltVar.lean`: `kats/models/holtwinters.py` and `kats/models/var.py`.  The wrappers around exponential smoothing and vector autoregression of statsmodels, whose estimates and forecasts are parameters. The backtests that the empirical interval of Holt-Winters needs are a parameter too; the interval itself is the one of `emp_confidence_int.py`. `TimeSeriesData(v)` of the frames of VAR (`var.py` 224), which are in the order of time, is the frame.
  `HwParams` (34-68), `hwNames`, `hwValidate` (80-99), `HwLib` (132-141, 211, 218), `HwModel`, `hwInit` (117-125), `hwFit` (127-142), `HwCi` (179-188), `hwFrame` (211-213), `hwPredict` (146-236, 208), `VarParams` (56-64), `VarLib` (113-123, 164), `VarModel`, `varInit` (93-101), `varMaxlags` (100, 109), `varFit` (103-128), `varColumn`, `varDates` (170-171), `varHistory` (192-211), `varPredict` (132-225, 191-219), `varPlot` (227-274).
* `Model/HourlyRatio.lean`: `kats/detectors/hourly_ratio_detection.py`: `HourlyRatioDetector`.  Times are seconds since the epoch, values are reals, `none` is NaN. The series is sorted by time and its columns are called `time` and `value`.
  `HRFreq`, `hourNs`, `hrValid` (75-117, 92-98), `hrInit` (48-73), `HRRow`, `hrRows` (126-131), `hrAgg`, `hrAggregate` (133-138), `hrHourly` (137), `hrCount` (149), `hrIncomplete` (143-148), `hrComplete` (155), `hrRatio` (154-155), `hrPreprocess` (119-157), `hrWeekday`, `chunk24`, `hrCentre` (219-220), `hrWeek` (208-226, 159-183), `hrDetector` (186-232).
* `Model/Hurst.lean`: `kats/tsfeatures/tsfeatures.py`: `TsFeatures.get_hurst`.  Numbers are real. `np.log` of zero is minus infinity, for which `np.polyfit` gives NaN.
  `huLags` (919), `huDiff` (922), `huStd`, `huSlope` (925), `huHurst` (906-928).
* `Model/Interval.lean`: `kats/detectors/interval_detector.py`: decisions, intervals and `fit_predict`.  The two-sample interval detectors. A data row has exactly the columns of `TwoSampleSchema`. Not modelled: the schema's checks of column names, dtypes and NaN, `np.timedelta64` units (the padding is an integer in time units), plotting, the one-sample detector's critical values.
  `locRunStart` (1241-1243), `nonzero`, `maskSelect`, `diffN`, `trueRunIndices` (1225-1247), `TestType` (253-257), `IntervalType` (240-244), `ABInterval` (297-354), `ABInterval.indices` (339-344), `mkInterval` (1141-1155, 1287-1327), `decisionMask` (1215-1223), `getIntervals` (1118-1155, 1204-1214), `anomalyIntervals` (504-511), `cautionIntervals` (513-520), `setTrue` (786-787), `intervalsToPredictions` (774-788), `NormDist`, `ABRow` (84-92), `VarKind` (1707-1820), `StatKind` (247-250), `getVariance` (1710-1722, 1731-1753, 1764-1783, 1794-1820), `relEps` (1576), `statDifference` (1534, 1594-1595), `statNull` (1535, 1597), `statStdError` (1536, 1601-1604), `testStatistic` (1537, 1605), `CriticalValue` (268-294, 1487-1488), `criticalValue` (731-753), `CriticalValue.absolute` (273-284), `reportScale` (1546-1547, 1617-1618), `upperLimit` (1546-1561, 1617-1633), `lowerLimit`, `statSig` (1548-1557), `rejected` (1178-1203), `IDState`, `IDConfig`, `IDCall` (562-572), `IDResult` (667-682), `validRows` (122-168), `hookOk` (1728-1729, 1759-1762, 1789-1792), `correctAlpha` (684-730, 465-474, 496-502), `cacheVariance` (1530-1532, 1589-1591), `IDCall.rows` (610-616), `idMask`, `idIntervals` (633-645), `idPredicted` (648-656), `idResult` (662-682), `IDState.fitPredict` (562-682).
* `Model/KatsEnsemble.lean`: `kats/models/ensemble/kats_ensemble.py`: `KatsEnsemble`.  Parameters of the model: the seasonality detector's answer, the seasonal component found by the decomposition, what a base model forecasts when fitted on given values, and its backtest error on the original data. A model's key is its name and whether it is an extra `_smodel` (names given by the user do not contain `_smodel`). The time column (C78) and custom executors are not modelled.
  `BasePred`, `FullPred`, `Decomp.op`, `Decomp.remove` (186-189), `seasonTile` (216-217), `reseasonOne` (219-282, 246-247, 278-279), `rawPred`, `dummyCI` (451-458, 563-570), `KCfg` (98-146), `KWorld`, `KKey`, `isSModel` (64-68), `KCfg.validate` (123-130), `KCfg.extraKeys` (373-377, 521-525), `KWorld.errors` (839-851), `KCfg.needPeriod` (348-351, 482-485, 216), `KResult`, `KWorld.fitPredict` (338-396, 400-460, 380-384, 434-441), `KWorld.forecast` (462-587), `AggRow` (680-710), `zeroToNan` (737-739), `aggregate` (650-713, 674).
* `Model/Kde.lean`: `kats/detectors/residual_translation.py`: `KDEResidualTranslator`.  Univariate series; values are reals, `none` is NaN.
  `USeries`, `quantileR`, `Kde`, `Kde.init` (32-74), `KdeArgs` (76-83, 126-133, 156-163), `KdeWorld`, `kdeRaw` (201-222), `dropMissing` (224-226), `kdeResidual` (193-227), `kdeCallerResidual` (224-226), `kdeTrain` (98-101), `kdeGrid` (104-107, 1000), `Kde.fit` (76-116), `kdeDensity`, `Kde.predictProba` (126-191).
* `Model/LeastSquares.lean`: Least squares.  `sm.add_constant`, `sm.OLS(y, X).fit()`, `np.linalg.lstsq` and `wls_prediction_std`, the library calls behind `kats/models/linear_model.py`, `kats/models/quadratic_model.py`, `kats/models/theta.py` and `kats/utils/emp_confidence_int.py`.
  `constColumn`, `addConstant`, `rowsMatrix`, `dataVec`, `gram`, `lstsq`, `rowDot`, `mseResid`, `leverage`, `predictionMargin`.
* `Model/Lstm.lean`: `kats/models/lstm.py`.  The model of a series by a recurrent network. The network (`LSTMForecast`, 63-105), its gradients and the optimizer Adam are parameters; that the network keeps its hidden state from one call to the next (101) is modelled. Numbers are exact rationals: the rounding of `torch.FloatTensor` to 32 bits and missing values are not modelled.
  `LstmNet` (194-195, 202, 211-212, 259-260, 89-105, 217-219), `LstmParams` (46-50), `LstmScaler`, `lstmScaler`, `LstmScaler.transform`, `LstmScaler.inverse`, `lstmWindows` (166-175), `LstmModel`, `lstmInit` (129-137), `lstmPass` (208-219), `lstmEpochs` (207-222), `lstmFit` (178-224), `lstmLoop` (255-262), `LstmRow`, `lstmPredict` (228-291, 248, 265).
* `Model/MetaData.lean`: `kats/models/metalearner/get_metadata.py`.  `GetMetaData`. A series is the list of its values in the order of time; the times are left out, as no line looks at them. Models, their parameter classes and features are parameters; a search is the list of the parameters that it tries. Floating point numbers are exact, but infinities and NaN are kept. The threads of `tune_executor` give what a loop gives; an executor of the caller is left out.
  `mdDiv`, `mdMax`, `mdScale` (211-216), `mdAllowed`, `MdArgs` (94-173), `MdData`, `mdValidate` (175-193), `mdInit` (94-173, 113, 280-282), `mdEvaluate` (232-251), `mdTried` (254-269), `mdBest` (270-276), `mdTune` (218-276), `mdTuneAll` (278-297), `mdLabel` (326), `mdMethodName` (328-338), `MdVal` (57-63), `mdGet` (299-346).
* `Model/MetaDetect.lean`: `kats/detectors/meta_learning/metalearning_detection_model.py`.  The preprocessing of meta data of detectors and `MetaDetectModelSelect`; also `metadata_detect_reader` of `hpt_tuning.py` and the tables of `synth_metadata_reader.py`, without reading its file. A text is what `ast.literal_eval` or `float` makes of it. A parameter is an exact number or a text; of a result of a search there are the parameters and the error. The preprocessing changes the frame and the dictionaries it is given, so it gives them back; what it leaves when it fails in the middle is not modelled, nor dictionaries that are in two rows. The features of a series, the rounding of `format(..., ".4f")` and what `MetaSelect` takes as parameters are parameters.
  `MeCell`, `MeCell.read` (50-60), `MeVal`, `MeVal.float`, `meFloats` (44-47), `MeParam`, `MeHpt`, `MeRow`, `meScale`, `meScaleRow` (80-85), `mePre` (63-87), `meRow`, `meCols`, `meRows`, `meReader` (65-85), `meDown`, `meSynthDown` (22-27), `meSynthOne` (66-82), `meSynth` (47-89), `MeFrame`, `MeSel`, `meInit` (115-140), `meEntry`, `meTrain` (147-171, 142-145), `meReport` (173-183), `meNames`, `mePredict` (185-196), `meFeatures` (203-210, 227-234), `meFit` (198-220), `mePredBy` (222-241).
* `Model/MetaHpt.lean`: `kats/models/metalearner/metalearner_hpt.py`.  `MetaLearnHPT` and `MultitaskNet`, without plots and files. Features, weights and losses are exact; `np.std`, the random orders and weights, the steps of the optimizer, the cross entropy of one row, the order of the categories and the features of a series are parameters. The names of the categorical parameters are different. Rows of one feature are refused where numpy would repeat them for the scaling; that the frame of the caller is filled with zeros is left out.
  `hpDefaults` (65-98), `hpNetworks` (128-152), `Hp`, `HpArgs` (190-201), `hpNames` (229-245), `hpDistinct`, `hpValidate` (313-331), `hpInit` (190-280, 282-302), `HpLayer`, `HpNet`, `hpRelu`, `hpLayers` (865-870, 876-879, 883-886), `hpNet` (857-886), `hpHead` (905-912, 918-922), `hpForward` (890-924), `hpSizes` (384-419), `hpBuild` (355-442, 334-344, 347-353), `HpRow` (444-492), `hpRow`, `hpCatRow`, `hpLoss` (494-519), `HpTrain` (521-531), `hpBatches` (585-586), `hpEpoch` (583-607), `HpState`, `hpStop` (619-628), `hpLoop` (582-628), `HpObj`, `hpModel`, `hpTrain` (521-628), `HpInput`, `HpInput.rows` (703-710), `hpScaleRow` (711-713), `hpAnswer` (718-738), `hpPredBy` (687-739), `hpPred` (630-685, 647).
* `Model/MetaPredict.lean`: `kats/models/metalearner/metalearner_predictability.py`.  `MetaLearnPredictability`, without the files. A text is what `ast.literal_eval` makes of it; of a result of a search only the error is kept. Features and probabilities are exact; `np.std`, the random orders, the features of a series and the classifiers are parameters; a classifier looks at each row by itself and gives the probability of the label 1. `precision_recall_curve` has a point for each different probability (older versions leave those below the first with full recall out; they have less precision), and the recall one if no label is 1. Rows of one feature are refused where numpy would repeat them for the scaling.
  `MpEntry`, `Mp` (88-96, 129-140), `mpRead` (115-123), `mpError` (126), `mpFeatures` (125), `mpErrors` (126, 127-128), `mpCols`, `mpRow` (131-133), `mpReorganize` (105-142), `mpInit` (56-103, 144-159), `mpPreprocess` (161-178), `mpCount`, `mpPrecision`, `mpRecall`, `mpThresholds`, `mpThreshold` (250-258), `mpSplit`, `MpReport` (260-270), `mpReport`, `MpMake`, `mpMake` (237-247), `MpClf`, `MpArgs` (180-189), `mpSets` (210-236), `mpTrain` (180-275), `MpObj`, `mpClf`, `mpScaleRow` (338-340), `mpPredBy` (315-342), `mpPred` (277-313, 294).
* `Model/MetaSelect.lean`: `kats/models/metalearner/metalearner_modelselect.py`.  `MetaLearnModelSelect` and `RandomDownSampler`, without plotting, the correlation matrix and the files. Of a result of a search only the error is kept. A text is what `ast.literal_eval` makes of it. Features are exact numbers or missing; `np.std`, the random choices, the features of a series and the classifiers are parameters; a classifier looks at each row by itself. Rows of one feature for several means, which numpy would repeat, are refused.
  `MsRaw`, `MsRaw.value` (113-123), `MsEntry`, `Ms` (93-101, 127-136), `msCol`, `msMean` (134), `msStd` (135-136), `msEntry` (112-125), `msNames` (127), `msFeatRow` (129-132), `msReorganize` (108-136), `msInit` (62-106, 139-155), `msClasses`, `msIndices` (564-566), `msMinCount` (562), `msPicked` (552-581), `msPreprocess` (166-195), `MsClf`, `msSplit`, `msErr`, `msError` (327-341), `MsReport`, `msMethods` (286), `msLabel` (335-341), `msTrain` (265-348), `MsInput`, `msScaleRow` (454-455), `msOrder`, `msTop` (459-462), `MsObj`, `msClf`, `msPredBy` (428-462), `msHead` (426), `msPred` (386-426, 405), `msBootstrap` (464-473), `MsFuzzy`, `msFuzzy` (475-527).
* `Model/Metrics.lean`: `kats/metrics/metrics.py`.  Arrays are one-dimensional lists of exact rationals with NaN as `none`. Not modelled: float rounding, overflow, infinite inputs, the sign of zero, two-dimensional arrays (except in `mult_exceed`), warnings.
  `Val`, `vsub`, `vlt`, `nansum`, `medianQ`, `nanmedian`, `boolMean`, `arraysOk` (110-134), `safeDiv` (137-174, 159), `err_` (185-194), `absErr_` (213-223), `pctErr_` (242-252), `absPctErr_` (271-281), `metError` (197-210), `metAbsError` (226-239), `metPctError` (255-268), `metAbsPctError` (284-297), `ecdf`, `withPred` (319-325, 366-372), `crps` (305-327), `leps` (352-374), `freqExceeds` (335-349), `mdae` (377-390), `mdape` (393-408), `mae` (411-445), `mape` (448-463), `vdiff`, `mase` (466-485), `meanError` (488-498), `mpe` (507-517), `mse` (520-545), `rmspeSq` (590-611), `scaledSmape` (614-630), `smape` (649-661), `sbias` (633-646), `vsum`, `trackingSignal` (664-679), `exceedMask` (726, 781), `exceedAt` (728, 782), `exceed` (762-783), `blockOf`, `vmean`, `multExceed` (682-729), `vmax`, `pinball` (732-759), `coveredAt` (799, 821), `coverage` (786-800), `convSameAt`, `rollingConv`, `multCoverage` (803-825), `intScoreAt` (844-851), `vIntScoreAt`, `intervalScore` (828-853), `multIntervalScore` (856-891), `CallKind`, `allMetrics` (924-973), `nonCore` (998-1006), `coreMetrics` (994-1007), `metricByName` (976-988), `coreMetricByName` (1010-1022), `Bounds` (57-61), `metricMetadata` (81-127), `inspectMetric` (130-146).
* `Model/MlAr.lean`: `kats/models/ml_ar.py`.  The autoregressive gradient-boosting model: parameters, normalization, embedding of the series into rows of lags and horizons, training rows, prediction and its iteration over further steps. Simplifications. Every series lives on the common grid of the data frequency: times are grid positions (`Int`) and adding `offset * h` is adding `h` (`_check_single_ts` reindexes every series onto such a grid). Values are `Fl`; the pandas row statistics, the calendar/Fourier features of a time stamp and the LightGBM regressor are parameters (`MlWorld`), and the regressor predicts row by row. Categorical columns (`MlArCat.lean`), `transform_data="log"` (`MlArLog.lean`), the logging of sMAPE and column names are left out. The frame columns of a series are a function from column names to values. Forecast frames are lists of (time, variable, value); the iteration in `predict` is modelled for one target variable.
  `mlFirstMissing` (37-44), `MlOp` (62-69, 90-97), `mlNormalize` (47-71), `mlDenormalize` (74-99), `mlEmbed` (123-133), `MlHorizon`, `MlParams` (187-331), `mlHorizon` (247-259), `mlInit` (242-366), `mlInferFreq` (416-429), `mlAutoCal` (714-745), `mlAutoFourier` (747-773), `MlWorld`, `MlSeries`, `MlSeries.col`, `MlSeries.at`, `mlLastValid`, `mlCut` (623), `mlOp` (523-542), `mlNormalizers` (523-534), `mlNormRow` (510-550), `MlPast`, `mlHist` (552-591), `mlStats` (669-676), `mlOneHot` (687-689), `mlPast` (615-712), `mlFutTable` (835-857), `mlFutAt` (848, 898-900), `MlRow`, `mlCalAt` (894-896), `mlSeriesRows` (862-946, 996-1031), `mlStamps` (497-507), `mlAllRows` (474-477, 970-1040), `mlTrainRows` (1072-1077), `mlTrain` (1288-1314, 1058-1145), `mlWindow` (1196-1207), `mlOwnWindow` (1160-1162), `mlNewWindow` (1182-1192, 1217-1228), `MlFc`, `mlForecast` (1042-1056, 1254-1270), `mlPredictOnce`, `mlIterOrigin` (1168-1180), `mlFcAt`, `mlIterWindow` (1164-1181, 1209-1216), `mlCombine` (1356-1366), `mlIterate` (1351-1366), `mlLoop` (1346-1372), `MlSteps`, `MlSteps.toList` (1339-1340), `mlPredict` (1316-1374).
* `Model/MlArCat.lean`: `kats/models/ml_ar.py`: categorical columns.  The encoding of categorical columns for training and forecasts. Times are positions on the grid of the frequency, as in `MlAr`; a category that is missing is `none`. The targets are present at the time `last` up to which a series is used.
  `McSeries`, `McCell`, `mcUnique`, `mcLabels` (948-968), `mcAll`, `mcRow` (593-608, 102-120), `mcEmbed` (610-613), `mcWindow` (1157-1209), `mcForecast` (1150-1248).
* `Model/MlArLog.lean`: `kats/models/ml_ar.py`: the logarithm of the targets.  One target of one series with `transform_data`: the transformation before the embedding, the normalization of a row, and the way back after the regressor, in training and in forecasts. Simplifications. Numbers are real, so the values are positive where the logarithm is taken and divisors are not zero where this matters. The statistics of a window and the regressor are parameters; covariates, categories and calendar features of the row are one list. Writing the logarithms into the part of the frame replaces its columns and leaves the frame of the series as it was.
  `MtModel` (218-222, 287-291, 523-534, 669-676), `mtTransform` (629-630), `mtBack` (1121-1124, 1272-1275), `mtStats` (523-534), `mtNormalize` (47-71), `mtDenormalize` (74-99), `mtRow` (648-692), `mtOutput` (660), `mtForecast` (1105-1124, 1252-1275), `mtReport` (1126-1141).
* `Model/ModelState.lean`: State of the CUSUM and BOCPD detector models.  `kats/detectors/cusum_model.py` (construction, serialisation, equality, object traffic of `fit_predict`) and `kats/detectors/bocpd_model.py`.
  `CusumAttrs` (200-289), `CusumJson` (225-245), `CusumAttrs.serialize` (312-317), `CModelArgs` (183-199, 266-267), `scoreFuncName` (130-135, 275-281), `CusumAttrs.init` (181-289), `CusumAttrs.eq` (291-310), `CusumAttrs.cfg` (624-625), `Store`, `Store.get`, `Store.new`, `Store.extend` (655-692), `Store.slice` (554-558), `cusumScanObjs` (904-927, 932-955, 445), `cusumObjs` (594-971, 633-644, 705-706), `BocpdKind`, `BMCfg` (43-64), `BMJson` (66-76), `BMCfg.serialize` (66-76), `BMCfg.init` (43-64), `BMWorld`, `BMCfg.call` (118-146), `BMRow`, `BMOut`, `bmAll` (106-116), `bmFitPredict` (78-168), `bmTrendFitPredict` (193-243).
* `Model/MultiOutlier.lean`: `kats/detectors/outlier.py`: `MultivariateAnomalyDetector`.  Times and durations are integers. The autoregressive model is a parameter; so is the survival function of the chi-squared distribution.
  `MvRow`, `timeDiffs`, `Mad`, `Mad.init` (184-209), `cleanCol` (221-227), `cleanData` (211-230), `MvFit`, `MvWorld`, `mahalanobis`, `MvScore`, `var1`, `metricScore` (312-318), `mvScores` (294-333, 310), `Mad.forecast` (251-292), `Mad.loop` (346-358), `mvFirst`, `Mad.detector` (335-361), `anomalyTimes` (363-383), `anomalousMetrics` (385-408, 402).
* `Model/NeuralProphet.lean`: `kats/models/neuralprophet.py`.  The wrapper around NeuralProphet, whose fit, future frame and forecasts are parameters. A data frame is a list of names of columns and a list of rows, which are functions from names to values; dates are numbers too. The parameters that are only passed on are one type.
  `NpFrame`, `NpSeason`, `NpReg`, `NpParams` (160-237), `npName` (282-294, 296-308), `npValidate` (265-308), `NpData`, `NpModel`, `npInit` (312-322, 324-343), `npFrame` (345-355), `NpLib` (396-436), `npFit` (357-437), `npLe`, `npPrepare` (495-497), `npKeep` (505-508), `npPredict` (442-511).
* `Model/NowcastFeatures.lean`: `kats/models/nowcasting/feature_extraction.py`.  A data frame has an index of distinct integers and float columns (the column `time` is left out: no function here reads it). Floats are exact apart from NaN and infinities. Window lengths are integers as in the code, where a negative one is accepted the model follows pandas. The functions after the `return` of `MACD` (180-304) are never reached and are left out.
  `NFrame`, `NFrame.col`, `NFrame.join`, `NFrame.own`, `rangeSeries`, `shiftFl`, `diffFl`, `Fl.toOpt`, `Fl.ofOpt`, `windowAt`, `rollWith`, `winMean`, `winStd`, `ewmGo`, `ewmAlpha`, `ewmSpan`, `nfPrefix`, `nfROC` (25-45), `nfMOM` (48-66), `nfMA` (69-92), `nfLAG` (95-114), `nfMACD` (117-178), `bband1` (330), `bband2` (334), `nfBBANDS` (308-337), `trixAt` (366), `nfTRIX` (341-371), `nfEMA` (375-398), `nfTSI` (402-428), `rsiUp` (453), `rsiDown` (454), `rsiAt` (100, 462), `nfRSI` (432-467).
* `Model/Nowcasting.lean`: `kats/models/nowcasting/nowcasting.py`, `nowcastingplus.py`, `dynamic_nowcasting.py`, `model_io.py`.  The frames are those of `NowcastFeatures`. The scikit-learn models, scalers and pickle are parameters. The value column is not called `hour`, `minute`, `x`, `label` or like a feature; times are nanoseconds without time zone. What an object looks like after an exception is not modelled, nor is the validation of the series in the base class.
  `Fl.isFin`, `NFrame.keepRows`, `NFrame.rowOk`, `NFrame.clean`, `NFrame.lastRows`, `NFrame.matrix`, `NFrame.setCol`, `addAll`, `NcData`, `NcData.frame`, `NcWorld`, `Nowcaster` (58-92), `Nowcaster.init` (71-92), `featNames`, `ncWindows` (121, 124), `Nowcaster.featureExtraction` (94-131), `Nowcaster.labelExtraction` (133-139), `Nowcaster.fit` (143-156), `ncPredict`, `Nowcaster.predict` (167-195), `ncSerialize` (27-39), `ncDeserialize` (42-57), `ncMinute` (130-132, 132-134), `polyRow` (138-140, 140-142), `ncPolyRows` (142-146, 144-148), `ncSeason` (130-166, 132-168), `NcPlus`, `NcPlus.init` (84-123, 86-125), `NcPlus.featureExtraction` (125-186), `hasZero`, `NcPlus.dynFeatures` (127-205), `NcPlus.labelExtraction` (188-190, 207-213), `ncSeasonAt`, `ncTargets` (209-211, 233-235, 259-261), `NcPlus.fit` (194-216), `NcPlus.dynFit` (217-266), `seasonNext` (244-246, 301-303, 309-311), `ncForecast` (248, 305, 314), `NcPlus.predict` (227-248), `NcPlus.dynPredict` (277-314).
* `Model/OneSample.lean`: `kats/detectors/interval_detector.py`: the one-sample detector and the checks of the schema.  The binomial distribution is written out; `beta.ppf` is a parameter. Plotting is not modelled.
  `OSRow` (76-81), `osPmf`, `osCdf`, `osSf`, `osPpf`, `osCritAt` (1850-1863), `osCrit` (731-753), `OSRow.k` (1883), `osRejected` (1178-1203, 1916), `osBeta`, `osLower` (1884-1890, 1900), `osUpper` (1891-1897, 1903), `osStatSig` (1898-1910), `osValid` (122-168, 212-237), `osHook` (1865-1868), `OSCall` (562-572), `OSCall.rows` (610-614), `OSResult` (667-682), `osIntervals` (633-645), `osResult` (657-682), `osFit` (562-682), `SchCol`, `SchSpec` (95-120), `schOne` (76-81, 212-237), `schTwo` (84-92, 180-209), `schGet`, `schNames` (134-137), `schNull` (139-143), `schLoop`, `schAny`, `schPositive` (145-152), `schNonNeg` (154-161), `schCount` (163-168), `schProportion` (170-177), `schData` (122-132), `schHookTwo` (1728-1729, 1759-1762, 1789-1792, 767-768), `schHookOne` (1865-1868).
* `Model/Outlier.lean`: `kats/detectors/outlier.py`: `OutlierDetector`, and `Detector.remover`.  Values are reals, `none` is NaN; times are seconds. Polynomial interpolation, the seasonal decomposition and `pd.infer_freq` are parameters.
  `lastKnown`, `nextKnown`, `fillAt`, `linInterp`, `OutDecomp`, `OutWorld`, `OutCfg` (52-62), `OutCfg.init` (52-62), `asfreqDay`, `outPrepare` (78-96), `outResid` (105-113), `outLimits` (114-116), `outScore` (118), `OutRes`, `cleanTs` (64-124), `outDetector` (127-158), `removeCol` (118), `remover` (101-131).
* `Model/OutlierModels.lean`: `kats/detectors/outlier_detector.py`, `threshold_detector.py`, `multivariate_detector.py`.  The detector models around the outlier detectors. A series is a table of rows; a model that has been fitted is represented by the data it was fitted to, or by its scores. The history is an object of the caller, so that each method returns its new contents.
  `OTab`, `extendHist`, `totalData`, `locOne`, `locRows`, `mkSeries`, `OResp`, `OMWorld`, `OModel`, `OModel.init` (41-53), `OModel.serialize` (55-64), `OModel.fit` (66-93), `OModel.respond` (123-148), `OModel.predict` (95-150), `OModel.fitPredict` (152-171), `staticSerialize` (32-39, 41-49), `staticFitPredict` (61-87), `staticPredict` (98-107), `MMWorld`, `MModel`, `JVal`, `jsonDumps`, `MModel.serialize` (62-77), `MModel.fit` (79-109), `MRow`, `minTimeOf`, `MModel.respond` (130-186), `MModel.predict` (111-186), `MModel.fitPredict` (188-209).
* `Model/Partition.lean`: `kats/utils/datapartition.py`.  Fractions are exact rationals: `int(size * frac)` is computed without float rounding.
  `pyInt`, `dpAbsSize` (43-44), `TSD.sliceO`, `Fold`, `dpMaxCore` (60-80), `btMaxCore` (99-110), `SDP` (200-203), `sdpParamCheck` (205-215), `SDP.init` (182-203), `truthyRat`, `truthyInt`, `SDP.split` (217-237), `STDP` (275-278), `STDP.init` (280-308), `searchLeft`, `searchRight`, `STDP.split` (310-332), `RODP` (371-376), `RODP.init` (356-406), `linspaceInt`, `RODP.split` (408-445), `starmap`, `slotResult`, `dictGet`, `pickFold` (156-157), `regroupDict` (153-163), `dictToList` (158-160), `splitDict` (122-163), `splitList` (105-106, 158-160).
* `Model/PctMulti.lean`: `kats/detectors/detector_consts.py`: `ChangePointInterval` and `PercentageChange` for several series.  The branches with `num_series > 1`. An array with an entry for each series is a function from positions; the intervals have the same number of series. `scipy.stats.ttest_ind` is Student's test with equal variances, for finite data; `multipletests` is a parameter.
  `MInterval` (42-53), `setData` (65-76), `extendData` (120-131), `len` (165-167), `meanVal` (146-150), `varianceVal` (158-163), `detectSpikes` (93-118), `MPct` (203-232), `ratio` (234-237), `percChange` (239-243), `direction` (263-266), `df` (363-371), `pooledStd` (373-397), `ttestManual` (399-414), `ttestInd`, `ttestStart` (444-471), `ppf`, `ttest` (444-493), `score` (300-319), `ciUpper` (338-349), `ciLower` (351-361), `calcCov` (495-518), `sigmaSqRatio` (533-547), `lower` (549-551), `upper` (552-554), `statSig` (272-290).
* `Model/PercentageChange.lean`: `kats/detectors/detector_consts.py`: `ChangePointInterval` and `PercentageChange`.  Values are floats with exact finite part (`Fl`). The data of an interval are finite numbers.
  `Spike` (29-38), `CPInterval` (42-53), `CPInterval.clip` (73-75, 129-131), `CPInterval.setData` (65-76), `CPInterval.extendData` (120-131), `CPInterval.data` (55-61), `CPInterval.len` (165-167), `npMean`, `npVar1`, `CPInterval.meanVal` (141-145), `CPInterval.varianceVal` (152-157), `CPInterval.detectSpikes` (83-92), `CPInterval.spikes` (169-175), `PctChange` (203-232), `ScipyT`, `ratio` (234-237), `percChange` (239-243), `direction` (263-270), `df` (363-371), `pooledStd` (373-397), `ttestManual` (399-414), `ttest` (416-442), `score` (300-309, 319), `pValue` (321-325), `ciUpper` (338-349), `ciLower` (351-361), `npCov`, `calcCov` (495-520), `sigmaSqRatio` (533-547), `lower` (549-551), `upper` (552-554), `percChangeUpper` (245-252), `percChangeLower` (254-261), `statSig` (272-298).
* `Model/PolyModel.lean`: `kats/models/linear_model.py` and `kats/models/quadratic_model.py`.  The two classes differ only in their regressors, so one model with a `PolyKind` stands for both. The times of the data do not enter the fit: the regressor is the position in the series.
  `PolyKind`, `PolyKind.features` (123-125, 91-92, 136), `PolyWorld`, `PolyFitted`, `FcstRow`, `polyFit` (83-96, 83-100), `polyPositions` (122-125, 131-134), `lastDate`, `polyDates` (143-151, 149-157), `polyForecast` (131-139, 138-145), `polyPredict` (100-163, 104-169), `polyRun`.
* `Model/PostTypes.lean`: `kats/detectors/anomaly_postprocessing.py`: the types of anomalies.  The classification at 345-480, which `Verif.Model.Postprocess` leaves out. The p-value of `scipy.stats.ttest_ind` is a parameter (`none` for `nan`); `np.polyfit` of degree one is the line of least squares, in closed form; the coefficients are not zero.
  `ptBefore` (365, 387, 416, 431, 447), `ptFrom` (366, 388, 422, 432, 448), `ptMean`, `ptMid`, `ptSlope` (420, 426), `ptIntercept` (373, 377, 395, 399), `ptVar`, `ptStd` (437-438, 453-454), `ptLevelAt` (367-383, 389-405), `ptLevel` (364-407), `ptTrend` (415-428), `ptSpreadAt` (434-442, 450-458), `ptSpread` (430-460), `PtType` (356-359, 473-476), `ptTypes` (345-361, 462-493).
* `Model/Postprocess.lean`: `kats/detectors/anomaly_postprocessing.py`: `AnomalyPostProcessHandler`.  Scores are finite rationals, times are integers (nanoseconds). The classification of anomalies (345-493) except `_if_individual_outlier` is in `Verif.Model.PostTypes`. Not modelled: plotting.
  `AlertDir` (123-133), `PostCfg` (67-114), `PostCfg.crossed` (116-133), `PostCfg.span`, `rollWindow` (148), `PostCfg.enough` (148-151), `PostCfg.startAlert` (135-158), `mkIntervalAnomaly` (1298-1311), `alertScan` (178-223), `alertIntervals` (182-229), `PostCfg.intervals` (160-167, 264-269), `scoresIn` (193, 230), `PostCfg.excess` (194-218), `listMax`, `PostCfg.highDen` (171-176), `PostCfg.magnitude` (194-221), `Severity` (271-313), `PostCfg.severity` (280-292), `PostCfg.severityTable` (271-313), `Overall` (333-341), `PostCfg.overall` (315-343), `isIndividual` (409-413).
* `Model/ProphetDetector.lean`: `kats/detectors/prophet_detector.py`.  The detector around Prophet: what is fitted and how the forecast is turned into scores. Prophet itself is a parameter: `F` gives the forecast and its bounds for a time, `pass1` the bounds of the model that removes outliers. Times are nanoseconds since the epoch, floats are reals, and `none` is a missing or infinite number. Serialization, silencing of the output and time zones are left out.
  `PdSeason` (189-193), `PdVal`, `PdKey`, `PdItem`, `pdSeasonOf`, `toSeasonality` (199-212), `PdSeasons`, `seasonsToDict` (215-231), `pdGet`, `pdPut`, `pdTruthy`, `pdDay`, `pdMinGap` (245-246), `pdShort` (247), `pdDefault` (250-259), `pdStep` (249-265), `seasonsProcess` (234-266), `pdWeekday`, `pdMasks` (269-291), `PdScore`, `PdGrowth`, `pdScoreOf` (422-427), `pdGrowthOf` (408-414), `PdSat`, `pdSaturation` (757-776, 404-406), `PdCore` (404-460), `pdInit` (355-460), `PdHol`, `pdFitHolidays` (550-568), `PdTime`, `PdTime.ns` (709-716), `pdExcludeOne` (697-719), `pdExclude` (689-720), `pdIsOutlier` (749-751), `pdRemoveOutliers` (722-755), `PdCfg`, `PdFit`, `pdTrain` (526-587), `pdFit` (501-587), `PdBand`, `pdDeviation` (121-129), `pdScaledStd` (139-154, 92-94), `pdZScore` (132-158), `pdHolidayDays` (294-314), `pdMultiplies` (657-660), `pdMultiply` (669-676), `PdResponse`, `pdScoreAt` (645-652), `pdHolidayScores` (656-678), `pdPredict` (589-687), `pdFitPredict` (472-499), `PdTrendFit`, `pdHistory`, `pdMeanDelta`, `pdTrendScores` (819-848).
* `Model/ProphetModel.lean`: `kats/models/prophet.py`.  What Prophet does is a parameter or is written down from its documentation where it is needed (`make_future_dataframe`). Steps of time have a fixed length. Numbers are reals, random draws are parameters. Bounds given as `None` and `False` are the same; other columns of the future frame of a caller are not modelled.
  `PmBound`, `PmReg`, `PmParams`, `pmRegs` (211-222, 223-225), `PmParams.capFloor` (227-231), `PmParams.validate` (188-231), `PmVals`, `pmBoundCheck` (276-284), `pmDataCheck` (258-285), `PmCol`, `pmSetBound` (296-301), `pmCol`, `pmFrame` (287-307), `pmTrailing` (318-321), `pmMakeFuture`, `pmMerge`, `pmFuture` (309-368), `pmAddCol` (341-344), `pmGivenFuture`, `pmHalfMargin` (546-551), `pmBand` (523-565), `pmPerIter` (825-831), `pmPosterior` (811-874), `pmYhat` (770-772), `pmSample` (776-808), `pmPiecewise` (958-967), `PmDraws`, `pmMax`, `pmCounts` (1003-1011), `pmNewPoints` (1013-1036), `pmScale`, `pmLinearTrend` (970-1041), `pmShiftRow` (700-715), `pmGrid` (886), `pmGridIdx` (888-889), `pmHistRow` (877-893), `pmFfill` (920-924), `pmRates` (939-942), `pmGammas` (944-948), `pmLogisticRow` (949-952), `pmCentre` (955), `pmTrendUncertainty` (622-697), `pmTrendRows` (568-619).
* `Model/Py.lean`: Shared vocabulary: Python exceptions and slicing.  Python semantics used by several modelled functions; no Kats code is modelled in this file.
  `Err`, `pyIdx`, `pySlice`, `pyFrom`, `pyTo`, `nanmean`.
* `Model/Registry.lean`: `kats/detectors/detector.py`: `DetectorModelRegistry`.  A class is its name, the attributes of its own body and those of the classes after it in the order of resolution, each with the flag `__isabstractmethod__`. The bases are classes of the registry, `ABC` or `object`. `InternalError` is `otherError`.
  `RgClass`, `rgIsAbstract`, `rgSet`, `rgNew` (50-62), `rgRegistry` (64-67), `rgByName` (69-79).
* `Model/Rename.lean`: `kats/utils/dataframe_utils.py`: `rename_columns_by_prefix`.  A data frame is represented by its list of column names (14-92 looks at nothing else and pandas copies the contents of each column along with its position). `prefix_map` is the list of its items.
  `pyStartsWith`, `matchedCols` (70-72), `buildRename` (68-90), `applyRename`, `renameByPrefix` (14-92).
* `Model/Repivot.lean`: `kats/utils/time_series_parameter_tuning.py`, `_repivot_dataframe`.  The table of scores with one row for an arm of a trial and one group of columns for a metric.
  `RpRow`, `RpOut`, `rpInsert`, `rpUniq`, `rpFind`, `rpFlat`, `rpPivot` (523-549, 534-538, 540-542, 543-547).
* `Model/RobustStat.lean`: `kats/detectors/robust_stat_detection.py`: `RobustStatDetector`.  Values are elements of a field (rationals or reals), `none` is NaN. The smoothing window is a natural number; a window of 0 gives NaN everywhere.
  `rollMean`, `backFill`, `seriesDiff`, `robustDiffs` (69-77), `meanOf`, `varOf`, `zscores`, `RobustPoint` (21-41), `robustStep` (89-96), `robustDetector` (56-107).
* `Model/RollingStats.lean`: `kats/detectors/rolling_stats_model.py`.  Values are reals, `none` is NaN. Times are integers in nanoseconds. `SeasonalityHandler` and `pd.infer_freq` are parameters.
  `NSeries`, `RSStat` (40-46), `nanVals`, `percentileR`, `medianR`, `nanRed`, `calcIqr` (58-65), `calcMad` (87-96), `deviation`, `lastEntry`, `calcZ` (68-84), `calcModZMad` (99-115), `calcModZIqr` (118-134), `iqrSign` (157-162), `calcIqrDev` (137-172), `RSStat.score` (176-183), `RSStat.extend` (279-282), `RSCfg` (230-282), `RSStat.name`, `RSJson` (284-288), `RSCfg.serialize` (284-288), `StatAttr`, `StatAttr.value` (279), `statOfName` (51-55, 245-254), `seasonPeriods` (30-37), `RSCfg.init` (218-282, 233), `strided` (290-313), `RSWorld`, `RSCfg.scored`, `rsPoint` (315-371), `rsMissing` (773-792), `rsNsPerSec`, `rsSlowScore` (436-462, 457, 152), `RSOut`, `rsTime` (420-476, 429), `rsFitPredict` (382-476).
* `Model/RunCov.lean`: `kats/detectors/interval_detector.py`: weights of runs with a covariance.  `_w_one_tailed`, `_w_two_tailed` and `_w`. `scipy`'s probability of a box is a parameter: it gets the first row of the part of the covariance that is used, and the intervals. The quantiles of the normal distribution are a parameter too. The warning for long runs is left out.
  `RcIv`, `rcOne` (971-1001), `rcRegions`, `rcRegion`, `rcTwo` (1003-1050), `rcW` (1052-1063, 975, 1010), `rcRunProb` (1066-1116).
* `Model/RunProb.lean`: `kats/detectors/interval_detector.py`: multiple-testing correction.  The run probability (967-969, 1066-1116), `_get_lowest_m` (790-829) and `_get_lowest_p` (831-906). Only the independent case `cov=None` is modelled here, which is the only one that `fit_predict` uses; `RunCov.lean` has the others. Numbers are exact (float rounding outside); roots are real powers.
  `wIndependent` (967-969), `companion` (1101-1106), `vecSolve` (1108-1111, 1116), `runProb` (1066-1116), `lowestMLoop` (817-829), `lowestM` (795-829), `lowestPLoop` (885-906), `lowestP` (836-906, 496-502).
* `Model/Seasonality.lean`: `kats/detectors/seasonality.py`: `ACFDetector` and `FFTDetector`.  The autocorrelation with its confidence interval and the power spectrum are parameters.
  `seasonLengths` (82-88), `npDiff`, `AcfOut` (119-136), `acfDetector` (93-136), `acfRemover` (158-182), `fftFreq`, `FftRow`, `decibel` (281), `getFft` (265-283, 275-276), `exceeds`, `peakIdx`, `fftThreshold` (301-308), `mod1`, `isHarmonic` (325-326), `markStep` (320-327), `fftPeaks` (285-330), `fftDetector` (204-231).
* `Model/Simulator.lean`: `kats/utils/simulator.py`.  Numbers are reals, positions and change points natural numbers (negative positions, which Python counts from the end, are not modelled), and series of the caller have values of type float. `pd.date_range`, the generator of normal numbers and its global state are parameters.
  `simCumsum`, `movingAverage` (33-45), `SimWorld`, `Sim`, `Sim.init` (60-81), `simSeries`, `simDot`, `armaNext` (152-159), `armaSim` (147-159), `arimaDrift` (162-173), `Sim.arima` (83-185), `Sim.addComponent` (276-298), `simSigmoid` (264-266), `Sim.addTrend` (187-212), `Sim.addNoise` (214-235), `Sim.addSeasonality` (237-262), `Sim.stl` (300-320), `Sim.adjust` (322-332), `levelSegments` (381-389), `anomalyLevel` (403-407), `levelAnomalies` (391-407), `addSeason` (409-412, 657-660), `ShiftArgs`, `levelValues` (334-414), `Sim.levelShift` (416-490), `Sim.levelShiftMulti` (492-560), `trendSegment` (645-655), `trendSegments` (645-655), `noiseAnomalies` (672-676), `Sim.trendShift` (562-682), `checkArr` (684-725), `addSlice`, `levelLoop` (753-756), `injectLevel` (727-758), `trendLoop` (785-792), `injectTrend` (760-794), `simStd`, `injectSpikes` (796-834).
* `Model/StatSig.lean`: `kats/detectors/stat_sig_detector.py`: `StatSigDetectorModel`.  The six component series of a response share their time stamps, so a response is one table. Time stamps and `Timedelta`s are integers. The seasonal decomposition and `scipy.stats.ttest_ind` are parameters.
  `SSeries`, `SSRow` (563-586), `SSResp`, `SSCfg` (92-180), `SSWorld` (442-482), `SSJson` (182-197, 111-127), `SSCfg.serialize` (182-197), `SSArgs` (92-104), `SSCfg.init` (105-180, 166-178), `MSCfg` (999-1024), `MSCfg.init` (1012-1024), `ssUnit` (671-690), `ssInitResp` (791-816), `SSCfg.numHist` (725-727, 741), `ssShouldUpdate` (705-728), `ssEnough` (744-753), `ssSplit` (730-777, 759), `ssPct` (842-866, 887-903), `ssRow` (825-840), `ssWrite` (654-690), `ssLoop` (309-319), `ssScoresOnly` (397-458), `bigStep` (485-489), `bigCount` (467-470), `bigRemaining` (470), `bigSeqs` (460-490), `bigPad` (490), `msRow` (452-475, 1225-1242), `msColumn` (1026-1189), `bigFlatten` (520-526), `bigBack` (504-599), `ssBig` (287-299), `ssIsBig` (276-278), `ssAddSeason` (322-393), `withValues` (450-456), `SSOut`, `ssScore` (250-319, 322-393), `ssAfterSplit` (250-395), `ssFitPredict` (199-395).
* `Model/Stlf.lean`: `kats/models/stlf.py`.  Values are reals, `none` is NaN. The decomposition is that of `Model/Decomposition.lean`; the forecasting model of the remaining component is a parameter, which `polyInner` gives for the linear and the quadratic model.
  `stlfModels`, `InnerFcst`, `InnerModel`, `StlfWorld`, `polyInner`, `StlfParams`, `StlfParams.validate` (124-148), `StlfModel`, `stlfInit` (194-217), `deseasonOp` (211, 216), `reseasonOp` (213, 217), `stlfDeseason` (219-260), `StlfFitted`, `stlfFit` (263-307), `stlfTile` (346-349, 357), `StlfRow`, `stlfPredict` (311-402), `stlfRun`.
* `Model/Theta.lean`: `kats/models/theta.py`.  The parameters of the exponential smoothing, the decomposition and the normal quantile are parameters; exponential smoothing with given parameters is computed.
  `ThetaWorld`, `sesLevel`, `sesFitted`, `sesSse`, `thetaSeasonal` (100-110), `zeroSeasonal` (119-120), `ThetaFitted`, `thetaDeseason` (112-130), `thetaFit` (133-155), `thetaTrend` (192-199), `thetaForecast` (200-209), `thetaSigma` (217-218), `thetaMargin` (219-222), `thetaPredict` (159-264), `thetaRun`.
* `Model/Thm.lean`: `kats/models/reconciliation/{base_models,thm}.py`.  Temporal hierarchical forecasts. Numbers are exact rationals, NaN is `none`. Parameters: the forecasts and residuals of a fitted base model, `np.linalg.solve` (with its defining law), `np.sqrt`, and the robust scale estimate of `median_validation`. Not modelled: logging, float rounding.
  `blockAt`, `blockSums`, `aggData` (168-175, 174), `aggSingle` (113-125), `aggAll` (127-146), `thBaseModels` (27-35), `BaseTH`, `absent`, `BaseTH.check` (57-87), `Src`, `THM`, `getM` (105-120), `checkLevels` (83-98), `THM.fit` (69-103, 122-149), `freq`, `rowIdx`, `sRow` (163-164), `getS` (151-166), `resMatrix` (234-253), `WMat`, `wEps` (255), `nanvar`, `allSome`, `covAt`, `offDiag` (294-295), `shrinkLam` (296, 297), `getW` (255-308, 304, 290), `LinSolve`, `matOf`, `periods` (326), `originOne` (331-364), `origins` (311-365), `at_`, `repeatEach`, `medianY` (404-410), `stackY` (413-416), `weightT` (420-423), `project` (417-424), `gather` (426), `projected` (411-426), `level1` (401-428), `Pred`, `predict_` (367-437), `FreqArg`, `predict` (439-489), `medianValidation` (491-534, 527-532).
* `Model/TimeSeries.lean`: `kats/consts.py`: `TimeSeriesData`.  A univariate or multivariate series is a list of rows `(time, values)`. Times are integers (nanoseconds since the epoch); the type `V` of the values is a parameter (a number, or a row of named columns). Time zones, date parsing and dtypes are not modelled.
  `Row`, `TimeSort` (948-960), `sortByTime` (948-960), `dropDupTime` (298, 377), `buildRows` (296-304, 374-382), `DfArg` (397-419), `CtorArgs` (240-258), `construct` (240-422, 265-304, 307-382, 385-388, 391-393, 397-419), `TSD` (422), `TSD.slice` (554-558), `TSD.exclude` (694-722), `TSD.extend` (655-692, 735-752, 674-689, 691-692), `diffs` (985, 987), `modeMin`, `TSD.inferFreqRobust` (968-989), `TSCache` (466-483), `nanExt` (762-771), `TSCache.calc` (760-771), `TSOp`, `TSCache.step`, `ColIter` (1210-1238), `ColIter.init` (1213-1216), `ColIter.iter` (1218-1225), `ColIter.next` (1227-1238), `ColIter.drain`, `ColIter.forLoop`, `Frame`, `OpArg` (871-896), `binaryOther` (871-896), `outerJoin` (905-912), `combine` (914-941), `performOp` (898-946).
* `Model/TimeZone.lean`: `kats/consts.py`: time zones in `TimeSeriesData`.  Times are seconds; a time with a zone is held as the instant, a time without as what the clock shows, and `none` is NaT. The labels of the index are held beside the times and the values, because the methods put them together by label. One column of values; `none` is NaN. The shift rules for times that do not exist and the rule `infer` are parameters.
  `TzWorld`, `TzAmb`, `TzNon`, `TzSeries`, `TzSort`, `tzReset`, `tzZone`, `tzLocal`, `tzLocalize`, `TzColumn`, `tzFormat` (583-653), `tzDrop`, `tzSortRows` (948-960), `tzExtract` (962-966), `tzBuild` (265-304), `tzFrame` (834-860), `tzConvert` (1175-1185), `tzSet` (1187-1207).
* `Model/TrendMk.lean`: `kats/detectors/trend_mk.py`: `MKDetector`.  Values are reals, `none` is NaN, times are seconds. The Mann-Kendall tests of `pymannkendall` (with its default significance level) and exponential smoothing are parameters. The window size is positive.
  `MkTrend`, `MkTest`, `MkWorld` (203-220), `MkCfg` (160-185), `MkCfg.init` (160-185), `MkFrame`, `mkColumns` (404), `seasonDays` (44-49), `mkSmoothed` (187-222), `applyThreshold` (261-264), `MkStat`, `mkWindow` (237), `mkMetric` (334-346), `mkRun` (351-369, 266-294, 296-349, 335), `MkPoint` (52-107), `mkResults` (478-514), `mkPoints` (516-533), `mkChecks` (409-435), `mkRecent` (442-443), `mkStatistics` (438-469), `mkDetector` (372-476), `mkBefore`, `mkTop` (542-592, 628-643).
* `Model/TsDetect.lean`: `kats/tsfeatures/tsfeatures.py`: features taken from detectors, and seasonalities.  The detectors are those of `Verif.Model.Cusum` and `Verif.Model.TrendMk`; of the others only the attributes used are kept. The switches are those of `tsEmit`, so all features are on here. Exceptions (all features NaN) are not modelled.
  `CusumPoint`, `CusumPoint.confidence` (682), `CusumFeatures`, `cusumFeatures` (1479-1517), `cusumDefault` (64-76, 518-661), `robustFeatures` (1548-1562), `bocpFeatures` (1597-1616), `outlierNum` (1651-1654), `trendFeatures` (1691-1714), `npRound`, `seasonalityMag` (1967-1973), `trendMag` (1977-1982).
* `Model/TsInterp.lean`: `kats/consts.py`: `TimeSeriesData.interpolate`.  Rows hold one optional number per column (`none` is NaN), times are seconds. The frequency is a fixed length of time; calendar frequencies (months, years) are not modelled. The path for pandas before 1.1 (1061-1081) is not modelled; `resample` is that of pandas 1.1 to 1.3, the newest allowed by `requirements.txt`.
  `TiOrigin` (995), `TiMethod` (996), `TiArgs` (991-999), `TiWorld`, `tiOriginAt`, `tiGrid`, `TiFill`, `tiPick`, `tiSort`, `tiUpsample`, `tiLinear`, `tiOther`, `tiNew` (1083-1111, 1111), `tiFreq` (1034-1035), `tiInterpolate` (991-1059).
* `Model/TsNowcast.lean`: `kats/tsfeatures/tsfeatures.py`: nowcasting features.  For a series without missing values and with all features enabled; NaN is `none`.
  `ewmaLoop` (1747-1750), `ewmaAll` (1740-1750), `ewmaQ` (1743), `ewmaFn` (1719-1754), `pyDropEnd`, `meanNan`, `nanMeanR`, `nanSub1`, `nanSub`, `nowRoc` (1789-1794), `nowMom` (1798-1801), `cumsumR`, `nowMa` (1805-1810), `nowLag` (1814-1817), `Nowcast`, `nowMacd` (1820-1822), `nowcastNp` (1756-1845), `getNowcasting` (1849-1907).
* `Model/TsRoot.lean`: `kats/tsfeatures/tsfeatures.py`, the KPSS statistic, the lags of the ARCH test and the smoothing parameters.  `statsmodels.tsa.stattools.kpss` with `regression="ct"` and its `_sigma_est_kpss` are written out for exact numbers; a series is a function from positions with its length. The fit of the exponential smoothing is a parameter.
  `ruMean`, `ruTime`, `ruSlope`, `ruResid`, `ruSigma`, `ruEta`, `ruKpss` (1238-1254), `ruArchLags` (1273), `RuFit`, `ruOn`, `ruHolt` (1365-1397), `ruHw` (1400-1441).
* `Model/TsSelect.lean`: `kats/tsfeatures/tsfeatures.py`: the selection of features by `TsFeatures`.  Which features an instance of `TsFeatures` calculates and returns. The values of the features are parameters (a group whose calculation fails returns NaN for its features); an exception of a `statistics` or `stl_features` calculation is not modelled. A Python dictionary from names to switches is a function to `Option Bool`; values given for switches are Booleans.
  `tsGroups` (127-243), `tsOrder` (109-125), `Kw`, `Kw.set`, `Kw.ofList`, `tsMembers` (346), `tsGroupOf` (365-368), `tsKnown` (371, 393), `SelState`, `selectMember` (402-404), `selectOne` (391-419), `TsF`, `TsF.init` (314-360, 362-423, 388, 390), `tsDefaultGroups` (425-444), `TsF.on` (425-444), `TsRegistry` (310-312, 467-487), `tsConstruct`, `tsSparse` (725-729, 766-800, 1887-1902), `tsEnabled` (768), `tsEmit`, `tsGet` (723-726, 962), `tsTransform1d` (557-583), `tsFinal` (527-551), `tsTransform` (489-555).
* `Model/TsStats.lean`: `kats/tsfeatures/tsfeatures.py`: the statistics of `TsFeatures`.  The features of the group `statistics` for a series without missing values. Values are reals, a result `none` is NaN. The periodogram is a parameter. The Hurst exponent is in `Hurst.lean`. Not modelled: the KPSS and the ARCH statistics.
  `argmaxIdx`, `splitSizes`, `tsChunks` (675, 695), `chunkVar`, `getLumpiness` (661-676), `getStability` (681-696), `groupLens`, `maxRun`, `tsSegments` (894), `getFlatSpots` (872-901), `npGradient`, `getStd1stDer` (1176-1189), `getCrossingPoints` (1194-1213), `getBinarizeMean` (1218-1233), `minOf`, `histRange`, `histEdge`, `histCount`, `getHistogramMode` (1278-1292), `sxy`, `getLinearity` (1349-1361), `getSpectralEntropy` (636-656).
* `Model/TsStruct.lean`: `kats/tsfeatures/tsfeatures.py`: decomposition, level shift and autocorrelation features.  For a series without missing values and with all features enabled. The STL decomposition and the partial autocorrelations are parameters.
  `argminIdx`, `stlStrength` (769-784), `stlSpikiness` (786-792), `stlPeak` (794-800), `slidingMeans` (855-858), `absDiffs` (859), `levelShift` (820-867), `autoCov`, `acfAt`, `acfList`, `diffsOf` (1104-1105), `yuleWalkerDet` (1158-1171), `sumSq5`, `nansumSq5`, `firstOf`, `AcfFeatures` (1081-1093), `acfFeatures` (932-997, 1000-1049), `acfPacf` (1051-1155), `nanGt`, `firstMinIdx` (1323-1330), `firstZeroIdx` (1336-1341), `specialAc` (1296-1344).
* `Model/TsTime.lean`: `kats/tsfeatures/tsfeatures.py`: time, calendar and Fourier features.  Times are whole seconds (UTC, no time zone) since 1970-01-01. The civil and the ISO calendar are parameters, functions of the number of the day; weekdays, hours and minutes are calculated. Numbers are reals.
  `Calendar`, `dayNum`, `weekdayOf` (1970-01), `nuniqueOf`, `TimeCounts` (1994-2124, 2071-2080), `timeCounts` (2041-2069, 2063), `timeLengthDays` (2082-2085), `timeFreq` (2087-2120), `hourOf`, `minuteOfDay` (2174-2176), `Fourier` (2187-2213), `Fourier.init` (2196-2216), `setEvery2`, `FourierName`, `fourierColumns` (2218-2228), `fourierStep` (2270-2274), `fourierPeriod` (2267-2269), `fourierRow` (2252-2275), `fourierFeatures` (2230-2250).
* `Model/Tuning.lean`: `kats/utils/time_series_parameter_tuning.py` and `parameter_tuning_utils.py`.  A parameter is the dict of its properties; keys other than the six below are not modelled. Scores are rationals (no NaN), values of parameters are of any type `V`. What Ax and Nevergrad do (generating arms, running trials, minimizing) is a parameter or left out. A process pool gives the results of `map`, as the evaluation function is a function; a second attempt after an exception gives the same exception.
  `AxParam`, `AxParam.isEmptyDict`, `anyRange`, `AxParam.factor` (68-70), `searchCardinality` (60-71), `TuneArg`, `validateItems`, `validateParams` (324-325, 376-422), `EvalOut`, `ArmScore`, `dictScore` (180-189), `evaluateArm` (158-211), `flattenScores`, `singleScores`, `fetchTrial` (214-254), `mpInt` (144-146, 350-352), `trialProcs` (225-235), `OutcomeC`, `ocMask` (600-613), `maskAnd`, `legitArms` (596-624), `listScores` (551-634), `NgParam`, `needKey`, `putKey`, `ngStep` (1240-1261), `ngParams` (1235-1262), `fixedStep`, `fixedParams` (1265-1269), `callArgs`, `tuneGet`, `NgRow` (1370-1381), `ngGenerate` (1359-1382), `ngWorkers` (1324-1330), `ngBudget` (1331-1333), `ngTargetReached` (1223-1232), `SearchMethod` (1346-1356), `TuneOpts` (637-645, 925-935, 1210-1216), `TuneArgs`, `SearchCfg`, `orName` (343-349), `baseCfg` (315-371), `createSearch` (658-757, 780-802, 855-898, 971-1040, 1076-1094, 1297-1357), `createMulti` (1385-1425), `listMulti` (1449-1475), `logspace`, `lightgbmRates` (412-418), `prophetScales` (45-51).

## Code that is not modelled

* `consts.py`: parsing of dates, dtypes, plotting, `interpolate` with pandas before 1.1 or with calendar frequencies.
* `detectors/`: `outlier` (plotting),
  `trend_mk` and `anomaly_postprocessing` (plotting), plots in `meta_learning/*`.
* `detectors/bocpd.py`: plotting.
* `detectors/cusum_model.py`: removal of seasonality, time zones; the transformation of one series
  (`_fit_vec_row`, `_reorganize_*`) is modelled, its times afterwards are not.
* `detectors/interval_detector.py`: plotting.
* `models/`: all except `ensemble/*`, `reconciliation/*`, `simple_heuristic_model`, `linear_model`, `quadratic_model`, `theta`, `harmonic_regression`, `stlf`, `bayesian_var` (without plotting), `nowcasting/*` (without plotting), `arima`, `sarima`, `holtwinters` and `var` (without statsmodels), `neuralprophet` (without NeuralProphet itself), `lstm` (without gradients and the optimizer), `ml_ar`, `globalmodel/utils` (the data preparation, losses, features, parameters and networks, without gradients and the random weights), `globalmodel/data_processor` (without tensors), `globalmodel/ensemble` and `globalmodel/serialize` (without the training of one model), `globalmodel/stdmodel` (without the decompositions), `globalmodel/backtester`, `globalmodel/model` (the passes over a batch, prediction, evaluation, the schedule of training, saving and loading), `metalearner/get_metadata`, `metalearner/metalearner_modelselect`, `metalearner/metalearner_predictability` (without plotting, files and the classifiers) and `metalearner/metalearner_hpt` (without plots, files, gradients and the random weights), `prophet` (the wrapper and the sampling of trends, not Prophet itself).
* `tsfeatures/*` except the selection of features (C108), the statistics (C109), the structure features (C110), nowcasting (C111), the time, calendar and Fourier features (C112; without time zones and the choice of calendar columns) and the features from detectors and seasonalities (C113; without the detection of the period and STL), the KPSS statistic, the lags of the ARCH test and the switches of the smoothing parameters (C168): the regression of the ARCH test, the fit of the smoothing.
* `graphics/*`, `compat/*` except the comparisons and the wrappers of C166 (without `HoltWintersResults`, the warnings and the frequency and flags of frames), `data/*`.
* `utils/`: all except `backtesters`, `datapartition`, `dataframe_utils`, `emp_confidence_int`, `decomposition` (without plotting), `feature_engineering`, `cupik`, `ensemble_predict_interval` (without plotting), `simulator`, `time_series_parameter_tuning` (without the running of Ax and Nevergrad), `parameter_tuning_utils` (only the logarithmic grids).

## Trusted base

* The Lean 4.33.0 kernel and the Mathlib definitions named in the statements.
* Axioms: at most `propext`, `Classical.choice`, `Quot.sound`; per theorem below.
* The reading of the Python text into the Lean definitions (each cites its lines); nothing was run.
* The stated behaviour of Python, numpy and pandas primitives (slicing, `searchsorted`, `sort_values`,
  `array_split`, dictionary order), written down as definitions in `Model/`.
* The assumptions on external routines, which appear as parameters and hypotheses.

### Axioms per theorem

* none: C03_failed_extend_unchanged_violated, C06_values_tracked, C52_core_violated, C103_remover, C108_order_violated, C108_short, C141_schedule_violated, C141_untrained, C141_mode, C141_load_refused, C146_evaluate, C149_names, C153_sarima_fit.
* `propext`: C03_extend_appends_partial, C05_rejections, C09_rejects_iff, C17_generic_violated, C39_cusum_units, C102_frequency_partial, C102_frequency_violated, C123_univariate_violated, C126_default_violated, C126_factory_partial, C126_factory_violated, C126_multi_violated, C128_data_violated, C128_given_violated, C129_init_violated, C129_weekend_violated, C132_freq, C132_auto_violated, C133_serialize_violated, C135_name_violated, C135_mixed_keys_violated, C135_mode, C141_modes, C141_modes_violated, C141_saved, C144_init_violated, C153_arima_trend_violated, C166_incomparable, C170_duration_violated.
* `Quot.sound`: C141_initiate.
* `propext`, `Quot.sound`: C01_construct_sorted_perm, C02_other_arguments, C02_time_value_result, C02_dataframe_accepted_iff, C05_pointwise_violated, C08_majority_gap_partial, C08_too_short, C08_order_irrelevant, C08_after_extend_violated, C12_max_core_violated, C12_max_core_partial, C17_parent_partial, C27_anomaly_caution, C31_long_lag_rejected, C31_reported, C37_distribution, C37_cusum_args, C37_cusum_new, C37_cusum_score, C43_aligned, C43_window, C43_last_n_partial, C43_last_n_violated, C43_inplace, C52_core_partial, C52_metadata_violated, C52_metadata_partial, C63_groups, C63_unknown_rejected, C72_extend, C72_update_partial, C72_extend_violated, C79_tile, C85_aligned, C86_fit_partial, C108_static_partial, C108_static_violated, C113_outlier, C122_season_violated, C123_models_violated, C123_detect_partial, C123_caller_violated, C123_attributes_violated, C123_transform, C123_sklearn, C123_single_violated, C123_chain_partial, C123_multivariate, C126_validate, C126_fetch, C126_score_partial, C126_workers_partial, C127_refused, C127_points, C128_params, C128_multivariate_violated, C129_seasons, C129_holidays, C129_days_partial, C135_nan_rows_violated, C135_preprocess_partial, C135_pad_violated, C136_min_input, C136_init_partial, C136_resize, C136_mixed_keys_violated, C137_hour, C137_tsfeatures_violated, C137_names, C137_shapes, C137_target_partial, C139_view_level, C139_view_violated, C139_process_past, C139_turns_past, C139_delta, C140_turns_past, C140_repeat, C140_first, C140_filled_unique, C140_process_past, C141_no_steps_violated, C141_kinds, C141_two_quantiles_violated, C142_test_ids_violated, C142_save_refused, C144_forward_violated, C144_lstm2, C144_s2, C144_lstm, C144_states, C144_residual, C144_one_block, C144_adaptor, C144_net_ok, C144_decoder, C144_decoder_layers_violated, C144_decoder_violated, C144_rows, C145_aligned_violated, C145_ew_aligned_partial, C147_none_violated, C147_frame_violated, C147_loaded_violated, C147_nan_partial, C148_no_data, C149_forward, C149_units, C150_pre, C150_refused, C150_reader, C150_synth_partial, C150_synth_violated, C150_report_violated, C151_series_violated, C154_var_forecast_partial, C154_var_dates_violated, C154_var_plot_partial, C154_var_plot_violated, C155_params, C158_rows, C158_unset_violated, C159_choice, C159_default_violated, C159_refused, C159_multiplier_violated, C159_normal, C168_parameters_partial, C168_parameters_violated, C169_plain, C169_fields_violated, C169_cusum_partial, C169_mixed_violated, C170_text, C170_history, C170_load, C171_labels_violated.
* `propext`, `Classical.choice`, `Quot.sound`: C01_drop_duplicates_first, C02_time_value_accepted_iff, C04_exclude_exact, C04_exclude_idempotent, C05_pointwise_partial, C05_scalar_partial, C06_min_max_current, C07_second_iteration_violated, C07_first_iteration_partial, C09_train_prefix_test_next_partial, C09_whole_series_partial, C09_out_of_range_rejected_violated, C10_closed_windows, C10_no_overlap, C10_accepts_iff, C11_rolling_folds, C11_accepts_iff, C12_backtester_core_bounds, C13_dict_regroup, C13_list_regroup, C14_simple, C14_rolling, C14_fixed, C14_exact, C15_offsets, C16_first_run_partial, C16_aligned, C16_rerun_doubles_violated, C16_between_partial, C18_mismatch, C18_length, C18_values, C18_weighted, C19_values, C19_mismatch, C19_relations, C19_mdae_median, C20_symmetric_partial, C20_smape_violated, C20_mape_partial, C20_mape_violated, C20_probability_partial, C21_value, C21_domain, C22_exceed_partial, C22_orientation_violated, C22_mult_partial, C23_coverage, C23_interval_score, C23_per_point, C24_exact, C24_rejects, C24_bounds, C25_lowest, C25_total, C26_tolerance, C26_too_long, C26_bracket_valid, C26_in_bracket, C26_converges, C27_runs, C27_intervals, C27_intervals_exist, C27_partition, C27_predictions, C28_duality_partial, C28_duality_violated, C29_repeat_violated, C29_placeholder_violated, C29_partial, C30_message, C30_posterior, C30_rows, C31_lag, C31_agg, C31_range, C31_probabilities, C32_rows_partial, C32_aggregated_violated, C33_range_and_stability, C33_window, C33_steps, C33_argBest, C34_vectorised, C35_state, C35_alert_end_partial, C35_constant_baseline_violated, C35_both_violated, C35_alert_start, C36_one_score_partial, C36_short_step_violated, C37_cusum, C37_cusum_eq, C37_cusum_eq_violated, C37_bocpd_partial, C37_bocpd_violated, C37_rolling_violated, C37_rolling_fields_partial, C37_statsig_partial, C37_statsig_violated, C37_multi_violated, C38_sequences, C38_same_partial, C38_multiple_violated, C38_min_change_violated, C38_short_violated, C38_season_violated, C39_interval_violated, C39_cusum, C39_bocpd_violated, C39_rolling_violated, C39_statsig_partial, C39_statsig_violated, C40_point_partial, C40_window, C40_again, C40_again_violated, C40_no_history_violated, C41_intervals, C41_alert_points, C42_direction_partial, C42_flat_violated, C42_interval, C42_score, C44_weights_partial, C44_weights_violated, C44_convex_partial, C44_formula, C45_between, C45_median, C45_order_partial, C45_order_violated, C46_period, C46_coherent, C46_S, C47_unchanged, C47_idempotent, C48_padding_partial, C48_padding_violated, C49_last, C49_phase_partial, C49_phase_violated, C50_accept, C50_result, C50_distinct_partial, C50_distinct_violated, C51_average_partial, C51_weighted_partial, C51_failed_fold_violated, C51_all_failed_violated, C51_nan_violated, C53_ignore_missing_partial, C53_percentage_violated, C53_mape_dilution_violated, C53_weighted_mse_violated, C53_weighted_mae_partial, C54_interior_partial, C54_edges_violated, C54_length_violated, C55_mase, C55_tracking, C56_data_violated, C56_data_partial, C57_global_error_violated, C57_global_error_partial, C58_stat_sig_partial, C58_stat_sig_violated, C59_normal_partial, C59_normal_violated, C60_poisson, C61_reset_partial, C61_segments_violated, C62_predictive_partial, C62_first_term_violated, C62_two_series_violated, C64_flag_partial, C64_flag_violated, C65_fit_partial, C65_fit_violated, C66_formula, C66_monotone_partial, C66_lower_bound_partial, C66_affine, C66_nonneg_violated, C67_llr_partial, C67_first_half_violated, C67_llr_violated, C68_reported, C68_directions_differ, C68_return_all, C69_percentage, C69_symmetric, C69_exceeds, C69_probability, C70_swap, C70_welch, C70_variance, C71_smoothing_partial, C71_start_violated, C71_scores_violated, C72_update_violated, C73_no_change_partial, C73_significant_violated, C73_undefined_violated, C74_variance_partial, C74_negative_violated, C75_student_partial, C75_default_violated, C75_invariance, C75_band, C76_data, C76_spikes_partial, C76_count, C76_stale_violated, C77_rows, C77_magnitude, C77_individual, C77_overall_partial, C77_overall_violated, C77_sign_partial, C77_sign_violated, C78_ensemble_violated, C78_dates_partial, C78_dates_violated, C78_heuristic_partial, C79_continuation, C79_inverse, C79_bounds_partial, C79_bounds_violated, C80_agree_partial, C80_agree_violated, C80_aligned, C81_median_partial, C81_median_violated, C81_weighted_partial, C81_weighted_violated, C82_weights, C82_closest_partial, C82_struc, C82_closest_violated, C83_domain, C83_aggregate, C83_times_partial, C83_times_violated, C84_validation_partial, C84_validation_violated, C85_coherent, C86_fit_violated, C87_windows_partial, C87_row, C87_season_partial, C88_causal_partial, C88_history_partial, C89_scores_only_partial, C89_min_change_violated, C90_repeat_partial, C90_repeat_violated, C90_unit, C91_percentile, C91_median, C91_perm, C91_affine, C91_z, C91_modified, C91_spread, C91_constant_violated, C91_interpolation, C91_missing, C92_regular_partial, C92_irregular_partial, C92_iqr_base_violated, C93_sign_partial, C93_negative_violated, C93_zero_violated, C94_rows, C94_kind_partial, C94_slow_drift_violated, C94_trend_violated, C95_least, C95_euclid, C95_self_partial, C95_short_violated, C95_symm_partial, C95_symm_violated, C96_bound, C96_pruning, C96_finite, C97_windows, C97_candidates, C97_farthest, C97_total, C97_short_violated, C97_negative_violated, C97_again_violated, C97_report, C97_similar_violated, C98_weights_partial, C98_cdf, C98_cdf_reversed, C98_same, C98_shift_violated, C98_symm_violated, C98_model, C99_scores, C99_no_history, C99_overlap_violated, C99_gap_violated, C100_fractions, C100_arguments, C100_residual, C100_training_partial, C100_extremes_violated, C100_two_values_violated, C100_unfitted, C100_times, C100_missing_violated, C100_caller_violated, C100_caller, C100_positive, C100_probability_violated, C101_metric, C101_flagged, C101_apart, C101_cover, C101_affine, C101_flat, C101_constant, C101_short, C101_trend_violated, C102_dates, C102_surplus_violated, C102_ratios, C102_hours_partial, C102_repeated_violated, C102_centre_violated, C102_same_days_violated, C102_matrix, C102_anomalies, C102_week_violated, C102_scale, C102_init, C102_aggregate, C102_result, C103_acf, C103_alpha_violated, C103_primes_violated, C103_trend, C103_trend_top, C103_fft_selected, C103_fft_none, C103_fft_periods, C103_nyquist_violated, C103_scale_violated, C103_chain_violated, C103_decibel, C103_threshold, C104_scores, C104_multiplier_violated, C104_quartiles_violated, C104_additive, C104_affine, C104_multiplicative_violated, C104_offgrid_violated, C104_times, C104_columns, C104_removed, C104_interpolated, C104_remover_violated, C104_config, C104_daily, C104_filled, C105_points_partial, C105_first_violated, C105_exact_violated, C105_missing_violated, C105_flag_violated, C105_alpha_violated, C105_direction, C105_invalid, C105_multi, C105_season, C105_mirror, C105_anchor, C105_short, C105_top, C105_flag, C105_metrics, C106_init, C106_times_partial, C106_offgrid_violated, C106_pvalue_violated, C106_metric_partial, C106_metric_violated, C106_variance, C106_overall, C106_timepoints, C106_empty_violated, C106_metrics_violated, C106_top, C106_clean_partial, C106_clean_small_violated, C106_clean_low_violated, C106_clean_missing_violated, C106_scores, C106_fails, C106_succeeds, C107_outlier_partial, C107_outlier_duplicate, C107_outlier_stale_violated, C107_outlier_history_violated, C107_outlier_serialize, C107_static, C107_static_violated, C107_multi_partial, C107_multi_detector_partial, C107_multi_shift_violated, C107_multi_short_violated, C107_multi_history_violated, C107_multi_serialize_violated, C107_multi_failed, C108_accepts, C108_selection, C108_order_partial, C108_group_override_violated, C108_feature_on_violated, C108_instances_partial, C108_instances_violated, C109_chunks, C109_chunk_length_violated, C109_lumpiness, C109_stability, C109_window_one_violated, C109_flat, C109_flat_nan, C109_flat_short_violated, C109_derivative, C109_crossing_partial, C109_crossing_violated, C109_binarize, C109_mode, C109_linearity, C109_entropy, C110_strength_partial, C110_strength_violated, C110_spikiness, C110_peak, C110_level_shift_partial, C110_level_shift_violated, C110_acf, C110_acf_features_partial, C110_seasonal_lag_violated, C110_line_violated, C110_acf_nan, C110_first_minimum, C110_first_zero_partial, C110_first_zero_violated, C110_constant_violated, C111_ewma, C111_values_partial, C111_all_nan_violated, C111_window_one_violated, C111_roc_violated, C111_macd, C112_counts, C112_days_partial, C112_days_violated, C112_length, C112_weekdays, C112_minute, C112_fourier, C112_fourier_period, C112_fourier_second, C112_fourier_init_partial, C112_fourier_init_violated, C113_cusum_partial, C113_cusum_violated, C113_robust, C113_bocp, C113_trend, C113_seasonality_partial, C113_seasonality_violated, C113_trend_mag_partial, C113_trend_mag_violated, C114_init_partial, C114_init_violated, C114_standard_errors, C114_line, C114_interval, C114_level_violated, C114_order_partial, C114_order_violated, C115_forecast_partial, C115_last_date, C115_exact_partial, C115_interval_partial, C115_linear_partial, C115_one_step_violated, C116_seasonality, C116_forecast_partial, C116_seasonal_partial, C116_zero_violated, C116_interval_partial, C116_history_partial, C117_params, C117_least_squares, C117_exact_partial, C117_level_violated, C117_shift, C117_periodic, C118_init, C118_frequency, C118_recompose, C118_period, C119_frequency, C119_checks, C119_period_partial, C119_period_violated, C119_split, C119_grid, C119_fill, C119_accept_partial, C119_accept_violated, C120_params, C120_params_violated, C120_init, C120_forecast_partial, C120_inverse, C120_bounds, C120_history_partial, C120_exact_partial, C120_history_violated, C120_refused, C121_sigma, C121_posterior, C121_fit, C121_short, C121_independent, C121_forecast_partial, C121_time_violated, C121_history_partial, C121_again_violated, C121_predict, C121_params_violated, C121_params, C121_data, C122_calendar, C122_leap, C122_map, C122_season_partial, C122_week_of_month_partial, C122_week_of_month_violated, C122_flags, C122_quarter_violated, C122_quarter_partial, C122_time, C122_offset_partial, C122_offset_violated, C122_circle, C124_sizes, C124_init, C124_errors, C124_interval, C124_chain_partial, C124_projection, C124_exact_partial, C124_moments, C125_moving_average, C125_arima_partial, C125_arima_violated, C125_components, C125_new_partial, C125_order, C125_level_partial, C125_anomaly_violated, C125_period_violated, C125_length_violated, C125_multi, C125_trend_partial, C125_seed_violated, C125_trend_violated, C125_inject_level, C125_inject_violated, C125_inject_trend, C125_spikes, C126_cardinality_partial, C126_cardinality_violated, C126_processes, C126_constraints_partial, C126_constraints_violated, C126_list, C126_space, C126_space_refused, C126_score_violated, C126_workers_violated, C126_multi_partial, C126_logspace, C126_scales, C126_rates_violated, C127_names, C127_evaluate_partial, C127_failed_violated, C127_interval, C128_data, C128_frame, C128_future_partial, C128_history_partial, C128_history_violated, C128_given, C128_band, C128_posterior, C128_sample, C128_piecewise, C128_points_partial, C128_points_violated, C128_linear_partial, C128_shifts, C128_grid_partial, C128_grid_violated, C128_logistic_partial, C128_logistic_violated, C128_centre, C128_uncertainty, C129_init_partial, C129_dict, C129_keys_violated, C129_weekend_partial, C129_masks, C129_exclude, C129_outliers_partial, C129_outliers_violated, C129_train_partial, C129_fit_partial, C129_fit_violated, C129_deviation, C129_zscore, C129_predict_partial, C129_refused, C129_predict_violated, C129_days_violated, C129_fit_predict, C129_trend_partial, C129_trend_violated, C130_changes, C130_refused, C130_ma, C130_ema, C130_macd, C130_bbands, C130_tsi, C130_trix_partial, C130_trix_violated, C130_rsi_partial, C130_rsi_violated, C130_names_violated, C130_roc_violated, C131_features, C131_train, C131_predict, C131_current_partial, C131_current_violated, C131_column_violated, C131_multivariate, C131_twice_violated, C131_step_violated, C131_model, C131_serialize, C131_season, C131_names_violated, C131_plus_features, C131_plus_train, C131_plus_train_partial, C131_plus_train_violated, C131_plus_missing_violated, C131_plus_predict_partial, C131_plus_rows_violated, C131_plus_predict_violated, C131_dynamic_violated, C131_dynamic_features, C131_dynamic_train, C131_dynamic_train_zero, C131_dynamic_predict, C131_dynamic_predict_zero, C132_first_missing, C132_roundtrip_partial, C132_roundtrip_violated, C132_zero_violated, C132_mode, C132_stat_violated, C132_embed, C132_init, C132_train, C132_output_partial, C132_infinite_violated, C132_calendar, C132_short, C132_future_zero_violated, C132_predict_partial, C132_future_violated, C132_predict_calendar, C132_new_data, C132_rows, C132_terminates, C132_iter_origin, C132_iterate, C132_steps_ignored, C132_steps_fewer_violated, C132_steps_partial, C132_new_steps_partial, C132_no_valid, C132_iter_window, C132_steps_violated, C132_auto, C133_mean_partial, C133_mean_violated, C133_fit_partial, C133_adapt_violated, C133_predict_ok, C133_predict, C133_fit_predict_partial, C133_epoch_violated, C133_forgets_violated, C133_columns_violated, C133_univariate_partial, C134_fit_predict_partial, C134_baseline_violated, C134_nan_violated, C134_overlap_violated, C134_epoch_violated, C135_filters, C135_fill_partial, C135_offgrid_violated, C135_split, C135_split_all_partial, C135_split_lost_violated, C135_test_length_violated, C135_preprocess_all, C135_pad_partial, C136_offset_partial, C136_ratio_violated, C136_ratio_one_violated, C136_nan_valid_violated, C136_row_partial, C136_positive_partial, C136_integers_violated, C136_nan_row_violated, C136_padded_times_violated, C136_season, C136_batch, C136_indices_ok, C136_train_indices, C136_test_indices, C136_epoch, C136_epochs, C136_magnitude_violated, C136_rejected_violated, C136_test_order_violated, C137_last_date_partial, C137_last_date_injective, C137_last_date_violated, C137_month_partial, C137_month_violated, C137_size_partial, C137_ts2vec_violated, C137_eq_violated, C137_eq_size, C137_pin_row, C137_pin_zero, C137_quantile, C137_weights, C137_reduction, C137_adj_row, C137_adj_bounded, C137_log_violated, C137_target_violated, C138_defaults, C138_accept_partial, C138_fields, C138_copy, C138_text_partial, C138_eq_partial, C138_eq_sizes_partial, C138_accept_violated, C138_loss_violated, C138_loss_partial, C138_eq_violated, C138_eq_sizes_violated, C138_text_violated, C138_errors, C138_errors_violated, C139_log, C139_inputs, C139_no_leak, C139_window_violated, C139_smoothing_violated, C139_real, C139_view_partial, C139_process_scale, C139_forecasts_partial, C139_training, C139_run_past, C139_pass_scale, C139_steps_partial, C139_valid_partial, C139_valid_violated, C139_s2s_steps, C139_track, C139_fill, C139_seasonal, C140_inputs, C140_log, C140_forecasts, C140_indices, C140_training, C140_mean, C140_last_violated, C140_causal, C140_no_leak, C140_fill, C140_median, C140_process, C140_unit, C140_process_scale, C140_pass_scale, C140_features, C140_real, C141_adjust, C141_adjust_unique, C141_constant_violated, C141_crossing_violated, C141_frame, C141_window, C141_evaluate, C141_evaluate_refused, C141_metrics, C141_schedule, C141_predict, C141_batch_size_violated, C141_rnn, C141_s2s, C141_company_violated, C142_mean, C142_median, C142_kind, C142_predict, C142_predict_refused, C142_quantiles, C142_single, C142_evaluate, C142_saved, C142_json, C142_json_violated, C142_init, C142_jobs, C142_hold_out, C142_no_test, C142_train, C142_all_test_violated, C143_init, C143_period, C143_load_violated, C143_tile, C143_continues, C143_phase_violated, C143_series, C143_prophet, C143_predict, C143_no_model, C143_exact, C143_series_ok, C143_ensemble, C143_quantiles_partial, C143_quantiles_violated, C143_original_violated, C143_short_violated, C144_forward, C144_bounded, C144_init, C144_build_rnn, C144_build_s2s, C144_build_violated, C144_decoder_more_violated, C144_pass, C144_depends, C145_rows, C145_evaluate, C145_aligned_partial, C145_init, C145_cores_violated, C145_filter, C145_longest, C145_small_violated, C145_run, C145_again, C145_again_violated, C145_ew_init, C145_ew, C145_ew_end_violated, C145_ew_twice_violated, C145_ew_gap_violated, C146_scale_partial, C146_scale_violated, C146_infinite_violated, C146_zero_violated, C146_init, C146_tune, C146_meta, C146_none_violated, C147_downsample, C147_scale, C147_twice_violated, C147_same_partial, C147_init, C147_text_violated, C147_order_violated, C147_rows_partial, C147_train, C147_oracle, C147_top, C147_nan_violated, C147_rescale_violated, C147_time_violated, C147_pred, C147_fuzzy, C148_scale, C148_twice_violated, C148_same, C148_order_violated, C148_refused_violated, C148_pred, C148_sets_partial, C148_leak_violated, C148_neighbors_violated, C148_train, C148_measures, C148_report_partial, C148_tie_violated, C148_init_partial, C148_nan_violated, C148_skip_violated, C148_threshold_partial, C148_perfect_violated, C148_recall_violated, C149_init_partial, C149_numeric_violated, C149_network, C149_default, C149_pred_partial, C149_best, C149_untrained_violated, C149_categorical_violated, C149_refused_violated, C149_series, C149_scale, C149_same, C149_epoch, C149_stop, C149_stop_violated, C149_split, C149_small_violated, C149_rows_violated, C149_missing_violated, C149_entropy, C149_error, C149_trained, C150_windows, C150_twice_violated, C150_other_violated, C150_windows_violated, C150_init, C150_train, C150_fit_partial, C150_predict, C150_report, C150_retrain, C150_fit_violated, C151_init, C151_train, C151_default, C151_errors, C151_recommend_partial, C151_missing_violated, C151_small_violated, C152_scale, C152_windows, C152_fit_partial, C152_predict_partial, C152_interval_violated, C152_repeat, C152_init, C152_units, C152_short_violated, C152_refit_violated, C152_infer_violated, C152_zero_violated, C153_arima_fit, C153_arima_partial, C153_arima_alpha_violated, C153_arima_history_partial, C153_arima_history_violated, C153_sarima_errors, C153_sarima_partial, C153_sarima_history_partial, C153_sarima_blank_violated, C153_sarima_alpha_violated, C153_sarima_bounds_violated, C153_sarima_return_violated, C153_sarima_differencing_violated, C154_hw_fit, C154_hw_forecast, C154_hw_history, C154_hw_interval_partial, C154_hw_dates_violated, C154_hw_level_violated, C154_var_fit, C154_var_lags_violated, C154_var_history_partial, C154_var_empty_violated, C155_fit, C155_forecast_partial, C155_columns_violated, C155_past_violated, C155_caller_violated, C155_rows_violated, C155_dates_violated, C155_errors, C156_line, C156_groups_partial, C156_groups_violated, C156_trend_partial, C156_trend_violated, C156_volatility_partial, C156_volatility_violated, C156_level_partial, C156_level_violated, C156_negative_violated, C156_table, C157_data, C157_estimates, C157_scores_partial, C157_correction_violated, C157_single_violated, C157_rescaled_partial, C157_spikes_partial, C157_spikes_violated, C158_mean, C158_scale, C158_shape_violated, C158_line, C158_likelihood, C158_floor_violated, C158_floor_partial, C158_setup, C158_variance_violated, C159_given, C159_trend_violated, C159_units, C159_empirical, C159_line, C160_decision, C160_level_violated, C160_extreme_violated, C160_stat_sig_partial, C160_stat_sig_violated, C160_band, C160_band_violated, C160_predictions, C160_accepted, C160_variance, C160_refused, C161_data, C161_columns, C161_hooks, C161_count_violated, C161_null_violated, C162_times, C162_fill, C162_linear, C162_complete, C162_order, C162_repeated, C162_lost_violated, C162_shift_violated, C162_base_violated, C162_frequency, C163_fit, C163_power, C163_invariant, C163_unit_violated, C163_short, C163_constant_violated, C163_range_violated, C164_lookup, C164_concrete_partial, C164_found, C164_abstract_violated, C164_name_violated, C165_set, C165_convert, C165_odd_times, C165_format, C165_stamps_violated, C165_labels_violated, C165_labels_partial, C166_order, C166_digits, C166_digits_violated, C166_keywords, C166_series_partial, C166_series_violated, C166_errors_partial, C166_errors_violated, C166_smoothing_partial, C166_smoothing_violated, C167_exists, C167_cells, C167_parameters_partial, C167_parameters_violated, C167_raises_violated, C168_residuals, C168_kpss, C168_invariant, C168_lags, C169_cusum_violated, C169_almost_partial, C169_almost_violated, C169_all, C170_digits_violated, C170_trend_violated, C170_new, C170_restore, C171_training_partial, C171_forecast_partial, C171_iterated_violated, C172_independent, C172_law, C172_sum, C172_sum_violated, C173_rejects, C173_independent, C173_bounds_partial, C173_exact_violated, C174_positive, C174_roundtrip_partial, C174_roundtrip_violated, C174_scale_partial, C174_scale_plain_partial, C174_scale_violated, C174_report_violated.

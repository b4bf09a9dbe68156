import Verif.Model.Py

/-!
# `kats/tsfeatures/tsfeatures.py`: the selection of features by `TsFeatures`

Which features an instance of `TsFeatures` calculates and returns.  The values of the features are parameters (a group
whose calculation fails returns NaN for its features); an exception of a `statistics` or `stl_features` calculation is
not modelled.  A Python dictionary from names to switches is a function to `Option Bool`; values given for switches are
Booleans.
-/

namespace Kats

/-- 127-243, `_FEATURE_GROUP_MAPPING`. -/
def tsGroups : List (String × List String) :=
  [("stl_features", ["trend_strength", "seasonality_strength", "spikiness", "peak", "trough"]),
   ("level_shift_features", ["level_shift_idx", "level_shift_size"]),
   ("acfpacf_features", ["y_acf1", "y_acf5", "diff1y_acf1", "diff1y_acf5", "diff2y_acf1", "diff2y_acf5",
      "y_pacf5", "diff1y_pacf5", "diff2y_pacf5", "seas_acf1", "seas_pacf1"]),
   ("special_ac", ["firstmin_ac", "firstzero_ac"]),
   ("holt_params", ["holt_alpha", "holt_beta"]),
   ("hw_params", ["hw_alpha", "hw_beta", "hw_gamma"]),
   ("statistics", ["length", "mean", "var", "entropy", "lumpiness", "stability", "flat_spots", "hurst",
      "std1st_der", "crossing_points", "binarize_mean", "unitroot_kpss", "heterogeneity", "histogram_mode",
      "linearity"]),
   ("cusum_detector", ["cusum_num", "cusum_conf", "cusum_cp_index", "cusum_delta", "cusum_llr",
      "cusum_regression_detected", "cusum_stable_changepoint", "cusum_p_value"]),
   ("robust_stat_detector", ["robust_num", "robust_metric_mean"]),
   ("bocp_detector", ["bocp_num", "bocp_conf_max", "bocp_conf_mean"]),
   ("outlier_detector", ["outlier_num"]),
   ("trend_detector", ["trend_num", "trend_num_increasing", "trend_avg_abs_tau"]),
   ("nowcasting", ["nowcast_roc", "nowcast_ma", "nowcast_mom", "nowcast_lag", "nowcast_macd", "nowcast_macdsign",
      "nowcast_macddiff"]),
   ("seasonalities", ["seasonal_period", "trend_mag", "seasonality_mag", "residual_std"]),
   ("time", ["time_years", "time_months", "time_monthsofyear", "time_weeks", "time_weeksofyear", "time_days",
      "time_daysofyear", "time_avg_timezone_offset", "time_length_days", "time_freq_Monday",
      "time_freq_Tuesday", "time_freq_Wednesday", "time_freq_Thursday", "time_freq_Friday",
      "time_freq_Saturday", "time_freq_Sunday"])]

/-- 109-125, `_ALL_TS_FEATURES`: the groups in the order of calculation. -/
def tsOrder : List String :=
  ["statistics", "stl_features", "level_shift_features", "acfpacf_features", "special_ac", "holt_params",
      "hw_params", "cusum_detector", "robust_stat_detector", "bocp_detector", "outlier_detector",
      "trend_detector", "nowcasting", "seasonalities", "time"]

/-- A dictionary of switches. -/
abbrev Kw := String → Option Bool

/-- `d[k] = v` -/
def Kw.set (d : Kw) (k : String) (v : Bool) : Kw := fun x => if x = k then some v else d x

/-- The keyword arguments of a call. -/
def Kw.ofList (l : List (String × Bool)) : Kw := fun k => l.lookup k

/-- 346, `g2f.get(name)`. -/
def tsMembers (name : String) : Option (List String) :=
  (tsGroups.find? fun p => p.1 == name).map fun p => p.2

/-- 365-368, `f2g.get(name)`: a later group would win. -/
def tsGroupOf (name : String) : Option String :=
  (tsGroups.reverse.find? fun p => p.2.contains name).map fun p => p.1

/-- 371, 393: the name is that of a feature or a group. -/
def tsKnown (name : String) : Bool := (tsGroupOf name).isSome || (tsMembers name).isSome

/-- The dictionaries changed by the loop over `selected_features`. -/
structure SelState where
  kw : Kw
  filter : Kw

/-- 402-404: one feature of a selected group. -/
def selectMember (s : SelState) (feature : String) : SelState :=
  ⟨s.kw.set feature ((s.kw feature).getD true), s.filter.set feature true⟩

/-- 391-419: one element of `selected_features`. -/
def selectOne (s : SelState) (f : String) : Except Err SelState :=
  if !tsKnown f then .error .valueError
  else
    match tsMembers f with
    | some fs => .ok (fs.foldl selectMember ⟨s.kw.set f true, s.filter⟩)
    | none =>
      match tsGroupOf f with
      | some g =>
        if !(s.kw g).getD true then .error .valueError
        else if !(s.kw f).getD true then .error .valueError
        else .ok ⟨(s.kw.set g true).set f true, s.filter.set f true⟩
      | none => .ok s

/-- An instance of `TsFeatures`, without the hyper-parameters: `__kwargs__`, `final_filter` and `default`. -/
structure TsF where
  kw : Kw
  filter : Kw
  default : Bool

/-- 314-360 and 362-423, `__init__` up to `_set_defaults`.  `selected` is `selected_features`, with `None` as `[]`
(388 and 390 use its truth value only). -/
def TsF.init (selected : List String) (kwargs : List (String × Bool)) : Except Err TsF :=
  if kwargs.any fun p => !tsKnown p.1 then .error .valueError
  else
    match selected.foldlM selectOne
        ⟨Kw.ofList kwargs, fun k => (tsGroupOf k).map fun _ => selected.isEmpty⟩ with
    | .error e => .error e
    | .ok s => .ok ⟨s.kw, fun k => (s.kw k).or (s.filter k), selected.isEmpty⟩

/-- 425-444, `_set_defaults`: the seven groups that are on by default. -/
def tsDefaultGroups : List String :=
  ["stl_features", "level_shift_features", "acfpacf_features", "special_ac", "holt_params", "hw_params", "statistics"]

/-- 425-444: the switch of a group. -/
def TsF.on (t : TsF) (group : String) : Bool :=
  (t.kw group).getD (if tsDefaultGroups.contains group then t.default else false)

/-- The class attributes `_ts_methods` and `_x_methods` (310-312): all instances share them, and each `_compile_methods`
(467-487) binds every method to the `__kwargs__` and `default` of the instance constructed last. -/
abbrev TsRegistry := Option (Kw × Bool)

/-- The constructor with its effect on the class. -/
def tsConstruct (reg : TsRegistry) (selected : List String) (kwargs : List (String × Bool)) :
    TsRegistry × Except Err TsF :=
  match TsF.init selected kwargs with
  | .error e => (reg, .error e)
  | .ok t => (some (t.kw, t.default), .ok t)

/-- The groups whose result lists the enabled features only (725-729, 766-800, 1887-1902); the others list all their
features, with NaN for those not enabled. -/
def tsSparse : List String := ["statistics", "stl_features", "nowcasting"]

/-- `extra_args is not None and extra_args.get(feature, default_status)` (768 and so on). -/
def tsEnabled (extra : Option Kw) (default : Bool) (feature : String) : Bool :=
  match extra with
  | none => false
  | some kw => (kw feature).getD default

/-- The result of a method `get_<group>` whose `extra_args` are given. -/
def tsEmit {V : Type} (extra : Option Kw) (default : Bool) (val : String → V) (nan : V) (group : String) :
    List (String × V) :=
  ((tsMembers group).getD []).filterMap fun f =>
    if tsEnabled extra default f then some (f, val f)
    else if tsSparse.contains group then none
    else some (f, nan)

/-- A method `get_<group>` called with or without `extra_args`: `get_statistics` (723-726) replaces `None` by the empty
dictionary, `get_acfpacf_features` passes it on to a function that calls `extra_args.get` (962; for a series that is
long enough and not constant).  `get_statistics` is given all its features. -/
def tsGet {V : Type} (extra : Option Kw) (default : Bool) (val : String → V) (nan : V) (group : String) :
    Except Err (List (String × V)) :=
  match extra with
  | some _ => .ok (tsEmit extra default val nan group)
  | none =>
    if group = "statistics" then .ok (tsEmit (some fun _ => none) default val nan group)
    else if group = "acfpacf_features" then .error .attributeError
    else .ok (tsEmit none default val nan group)

/-- 557-583, `_transform_1d`. -/
def tsTransform1d {V : Type} (reg : Kw × Bool) (t : TsF) (val : String → V) (nan : V) : List (String × V) :=
  tsOrder.flatMap fun g => if t.on g then tsEmit (some reg.1) reg.2 val nan g else []

/-- 527-551: the final filter (`KeyError` for an unknown feature). -/
def tsFinal {V : Type} (t : TsF) (l : List (String × V)) : Except Err (List (String × V)) :=
  if l.any fun p => (t.filter p.1).isNone then .error .keyError
  else .ok (l.filter fun p => (t.filter p.1).getD false)

/-- 489-555, `transform`, for the columns of a series of length `n`; `vals` are the calculated values per column. -/
def tsTransform {V : Type} (reg : TsRegistry) (t : TsF) (n : Nat) (vals : List (String → V)) (nan : V) :
    Except Err (List (List (String × V))) :=
  if n < 5 then .error .valueError
  else
    match reg with
    | none => .error .keyError
    | some r => vals.mapM fun val => tsFinal t (tsTransform1d r t val nan)

end Kats

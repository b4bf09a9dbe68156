import Verif.Model.Py
import Mathlib.Analysis.SpecialFunctions.Log.Base
import Mathlib.Analysis.SpecialFunctions.Pow.Real
import Mathlib.Algebra.Order.Floor.Ring

/-!
# `kats/compat/compat.py`, `kats/compat/pandas.py`, `kats/compat/sklearn.py`, `kats/compat/statsmodels.py`

Comparisons of versions and the wrappers that hide differences between versions of pandas, scikit-learn
and statsmodels. What each version of these libraries accepts and does is written out from their
documentation (`cmPandas…`, `cmSk…`, `cmSm…`); it belongs to the trusted base.
-/

namespace Kats

/-- A parsed version: epoch, release numbers and the rest of the key (pre-, post- and development
releases), which orders releases of equal numbers: negative before the release, 0 the release, positive
after it. Local labels are left out. -/
structure CmVer where
  epoch : ℕ
  release : List ℕ
  stage : ℤ

/-- `packaging.version._cmpkey`: trailing zeros of the release do not count. -/
def cmStrip (l : List ℕ) : List ℕ := (l.reverse.dropWhile (· == 0)).reverse

/-- Comparison `<` of two Python tuples of numbers. -/
def cmTupleLt : List ℕ → List ℕ → Bool
  | [], [] => false
  | [], _ :: _ => true
  | _ :: _, [] => false
  | a :: as, b :: bs => if a = b then cmTupleLt as bs else decide (a < b)

/-- `<` of two keys (tuples of epoch, release and the rest). -/
def cmKeyLt (a b : CmVer) : Bool :=
  if a.epoch = b.epoch then
    if cmStrip a.release = cmStrip b.release then decide (a.stage < b.stage)
    else cmTupleLt (cmStrip a.release) (cmStrip b.release)
  else decide (a.epoch < b.epoch)

/-- `==` of two keys. -/
def cmKeyEq (a b : CmVer) : Bool :=
  decide (a.epoch = b.epoch) && decide (cmStrip a.release = cmStrip b.release) && decide (a.stage = b.stage)

/-- What a version can be compared with or made of (`V` of compat.py:25, and objects of other types). -/
inductive CmArg where
  | text (s : String)
  | wrapped (v : CmVer)
  | packaging (v : CmVer)
  | other

/-- The interpreter: the versions of the two imported modules, what `importlib.metadata` finds, and
`packaging.version.parse` (which raises an InvalidVersion, a ValueError). -/
structure CmWorld where
  statsmodels : String
  sklearn : String
  metadata : String → Option String
  parse : String → Except Err CmVer

/-- `Version._parse` (compat.py:51-65). -/
def cmParse (w : CmWorld) (s : String) : Except Err CmVer :=
  if s = "statsmodels" then w.parse w.statsmodels
  else if s = "sklearn" then w.parse w.sklearn
  else match w.metadata s with
    | some t => w.parse t
    | none => w.parse s

/-- `Version.__init__` (compat.py:37-49). An object of another type is stored as it is (`none`). -/
def cmInit (w : CmWorld) : CmArg → Except Err (Option CmVer)
  | .text s => (cmParse w s).map some
  | .wrapped v => .ok (some v)
  | .packaging v => .ok (some v)
  | .other => .ok none

/-- The six comparisons. -/
inductive CmOp where
  | lt | le | eq | ge | gt | ne
  deriving DecidableEq

/-- The lambdas of compat.py:67-89 on keys. -/
def cmMethod : CmOp → CmVer → CmVer → Bool
  | .lt, s, o => cmKeyLt s o
  | .le, s, o => cmKeyLt s o || cmKeyEq s o
  | .eq, s, o => cmKeyEq s o
  | .ge, s, o => cmKeyLt o s || cmKeyEq s o
  | .gt, s, o => cmKeyLt o s
  | .ne, s, o => !cmKeyEq s o

/-- `Version._compare` (compat.py:91-99); `none` is NotImplemented. -/
def cmCompare (w : CmWorld) (self : CmVer) (other : CmArg) (m : CmVer → CmVer → Bool) :
    Except Err (Option Bool) :=
  match other with
  | .wrapped o => .ok (some (m self o))
  | .text s => (cmParse w s).map fun o => some (m self o)
  | .packaging o => .ok (some (m self o))
  | .other => .ok none

/-- The comparison of a version with something by an operator. After NotImplemented Python asks the other
object, which is taken not to know versions: `==` and `!=` then compare identities, the others raise. -/
def cmOp (w : CmWorld) (op : CmOp) (self : CmVer) (other : CmArg) : Except Err Bool :=
  match cmCompare w self other (cmMethod op) with
  | .error e => .error e
  | .ok (some b) => .ok b
  | .ok none => match op with
    | .eq => .ok false
    | .ne => .ok true
    | _ => .error .typeError

/-- The version of a release given by its numbers, as in the literals `"1.1"` or `"1.0.2"`. -/
def cmRel (l : List ℕ) : CmVer := ⟨0, l, 0⟩

/-- The argument `check_less_precise`. -/
inductive CmPrecise where
  | flag (b : Bool)
  | digits (n : ℤ)

/-- `convert_precision` (compat/pandas.py:20-29). Real numbers; `int` of a nonnegative float is the floor. -/
noncomputable def cmConvert (c : CmPrecise) (rtol : ℝ) : Except Err ℤ :=
  let precise : ℤ := match c with
    | .flag true => 3
    | .flag false => 5
    | .digits n => n
  if rtol ≤ 0 then .error .valueError
  else .ok (min precise ⌊|Real.logb 10 rtol|⌋)

/-- The keywords `assert_frame_equal` gives to pandas (compat/pandas.py:52-73). -/
def cmFrameKw (v : CmVer) : List String :=
  ["check_dtype", "check_index_type", "check_column_type", "check_frame_type", "check_names", "by_blocks",
    "check_exact", "check_datetimelike_compat", "check_categorical", "check_like", "obj"] ++
  (if cmKeyLt v (cmRel [1, 1]) then ["check_less_precise"]
   else ["check_freq", "rtol", "atol"] ++
    (if cmKeyLt v (cmRel [1, 2]) then [] else ["check_flags"]))

/-- The keywords `assert_series_equal` gives to pandas (compat/pandas.py:111-143). -/
def cmSeriesKw (v : CmVer) : List String :=
  ["check_dtype", "check_index_type", "check_series_type", "check_names", "check_exact",
    "check_datetimelike_compat", "check_categorical", "obj"] ++
  (if cmKeyLt v (cmRel [1, 0, 2]) then ["check_less_precise"]
   else if cmKeyLt v (cmRel [1, 1]) then ["check_less_precise", "check_category_order"]
   else if cmKeyLt v (cmRel [1, 2]) then ["check_category_order", "check_freq", "rtol", "atol"]
   else if cmKeyLt v (cmRel [1, 3]) then ["check_category_order", "check_freq", "check_flags", "rtol", "atol"]
   else ["check_category_order", "check_freq", "check_flags", "rtol", "atol", "check_index"])

/-- The keywords `assert_index_equal` gives to pandas (compat/pandas.py:194-210). -/
def cmIndexKw (v : CmVer) : List String :=
  ["exact", "check_names", "check_exact", "check_categorical", "obj"] ++
  (if cmKeyLt v (cmRel [1, 1]) then ["check_less_precise"]
   else if cmKeyLt v (cmRel [1, 2]) then ["rtol", "atol"]
   else ["check_order", "rtol", "atol"])

/-- How two series relate: whether values (with types and names) agree, whether the indices do, whether the
left index has times, whether both indices have a frequency and whether it is the same, whether both series
have flags and whether they are the same. -/
structure CmPair where
  values : Bool
  index : Bool
  timed : Bool
  hasFreq : Bool
  freq : Bool
  hasFlags : Bool
  flags : Bool

/-- `pandas.testing.assert_series_equal` with some keywords set: the values are compared, the index unless
`check_index` is passed as False, frequency and flags if their keyword is passed as True. (A version that
does not know a keyword does not do that check; before 1.3 the index is always compared.) -/
def cmPandasSeries (kw : List String) (checkIndex checkFreq checkFlags : Bool) (p : CmPair) : Bool :=
  p.values && (("check_index" ∈ kw && !checkIndex) || p.index) &&
    (!("check_freq" ∈ kw && checkFreq && p.timed && p.hasFreq) || p.freq) &&
    (!("check_flags" ∈ kw && checkFlags && p.hasFlags) || p.flags)

/-- `assert_series_equal` (compat/pandas.py:92-174): whether it returns; otherwise it raises an
AssertionError. The tolerances are those of `values` and `index`; `assert_index_equal` of the wrapper is
taken to agree with the comparison of indices in pandas. -/
def cmSeriesEqual (v : CmVer) (checkIndex checkFreq checkFlags : Bool) (p : CmPair) : Bool :=
  cmPandasSeries (cmSeriesKw v) checkIndex checkFreq checkFlags p &&
    (!(checkFreq && cmKeyLt v (cmRel [1, 1]) && p.timed && p.hasFreq) || p.freq) &&
    (!(checkFlags && cmKeyLt v (cmRel [1, 2]) && p.hasFlags) || p.flags) &&
    (!(checkIndex && cmKeyLt v (cmRel [1, 3])) || p.index)

/-- The two values of `multioutput` that are modelled. -/
inductive CmMulti where
  | raw | uniform

/-- The mean. -/
noncomputable def cmMean (l : List ℝ) : ℝ := l.sum / l.length

/-- The average over the outputs that `multioutput` asks for. -/
noncomputable def cmAverage (m : CmMulti) (l : List ℝ) : List ℝ :=
  match m with
  | .raw => l
  | .uniform => [cmMean l]

/-- `mean_squared_log_error` of scikit-learn: from the errors of the outputs; `squared` (`none`: not passed)
is known from 1.0 to before 1.6 and takes the roots before the average. -/
noncomputable def cmSkMsle (v : CmVer) (errors : List ℝ) (m : CmMulti) (squared : Option Bool) :
    Except Err (List ℝ) :=
  match squared with
  | none => .ok (cmAverage m errors)
  | some s =>
    if cmKeyLt v (cmRel [1, 0]) || !cmKeyLt v (cmRel [1, 6]) then .error .typeError
    else .ok (cmAverage m (if s then errors else errors.map Real.sqrt))

/-- `mean_squared_error` of scikit-learn: `squared` is known from 0.22 to before 1.6; the roots are taken
before the average since 0.24. -/
noncomputable def cmSkMse (v : CmVer) (errors : List ℝ) (m : CmMulti) (squared : Bool) :
    Except Err (List ℝ) :=
  if cmKeyLt v (cmRel [0, 22]) || !cmKeyLt v (cmRel [1, 6]) then .error .typeError
  else if squared then .ok (cmAverage m errors)
  else if cmKeyLt v (cmRel [0, 24]) then .ok ((cmAverage m errors).map Real.sqrt)
  else .ok (cmAverage m (errors.map Real.sqrt))

/-- `mean_squared_error` (compat/sklearn.py:19-33). -/
noncomputable def cmMse (v : CmVer) (errors : List ℝ) (m : CmMulti) (squared : Bool) :
    Except Err (List ℝ) :=
  cmSkMse v errors m squared

/-- `mean_squared_log_error` (compat/sklearn.py:36-59). -/
noncomputable def cmMsle (v : CmVer) (errors : List ℝ) (m : CmMulti) (squared : Bool) :
    Except Err (List ℝ) :=
  if !cmKeyLt (cmRel [0, 24]) v then do
    let r ← cmSkMsle v errors m none
    pure (if squared then r else r.map Real.sqrt)
  else cmSkMsle v errors m (some squared)

/-- The keywords `ExponentialSmoothing` gives to statsmodels (compat/statsmodels.py:78-131). -/
def cmSmoothKw (v : CmVer) : List String :=
  if cmKeyLt v (cmRel [0, 12]) then
    ["endog", "trend", "damped_trend", "seasonal", "seasonal_periods", "dates", "freq", "missing"]
  else
    ["endog", "trend", "damped_trend", "seasonal", "seasonal_periods", "initialization_method",
      "initial_level", "initial_trend", "initial_seasonal", "use_boxcox", "bounds", "dates", "freq", "missing"]

/-- The warning about `seasonal_periods` of the constructor (compat/statsmodels.py:101-104). -/
def cmSmoothWarns (v : CmVer) (seasonalPeriods : Option ℕ) : Bool :=
  cmKeyLt v (cmRel [0, 12]) && seasonalPeriods.isSome

end Kats

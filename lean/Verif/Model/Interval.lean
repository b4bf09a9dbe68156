import Verif.Model.RunProb
import Mathlib.Analysis.SpecialFunctions.Log.Basic
import Mathlib.Analysis.Real.Sqrt

/-!
# `kats/detectors/interval_detector.py`: decisions, intervals and `fit_predict`

The two-sample interval detectors.  A data row has exactly the columns of `TwoSampleSchema`.
Not modelled: the schema's checks of column names, dtypes and NaN, `np.timedelta64` units (the
padding is an integer in time units), plotting, the one-sample detector's critical values.
-/

namespace Kats

/-! ## Runs of `True` -/

/-- `loc_run_start` (1241-1243): the first position, and every position that differs from its
predecessor (`np.not_equal(x[:-1], x[1:])`). -/
def locRunStart (x : List Bool) : List Bool :=
  true :: List.zipWith (fun a b => a != b) x.dropLast x.tail

/-- `np.nonzero(mask)[0]`. -/
def nonzero (mask : List Bool) : List Nat :=
  (List.range mask.length).filter fun i => mask.getD i false

/-- Boolean-mask indexing `xs[mask]`. -/
def maskSelect {α : Type} (xs : List α) (mask : List Bool) : List α :=
  ((xs.zip mask).filter fun q => q.2).map fun q => q.1

/-- `np.diff` of natural numbers (increasing). -/
def diffN (l : List Nat) : List Nat := List.zipWith (fun b a => b - a) l.tail l

/-- `_get_true_run_indices` (1225-1247): starts and (inclusive) ends of the runs of `True`.
`IndexError` (assignment to `loc_run_start[0]`) for an empty array. -/
def trueRunIndices (x : List Bool) : Except Err (List Nat × List Nat) :=
  if x.isEmpty then .error .indexError
  else
    let loc := locRunStart x
    let starts := nonzero loc
    let values := maskSelect x loc
    let lengths := diffN (starts ++ [x.length])
    let ends := List.zipWith (fun s l => s + l - 1) starts lengths
    .ok (maskSelect starts values, maskSelect ends values)

/-! ## Test decisions -/

/-- `TestType` (253-257). -/
inductive TestType where
  | oneSidedLower | oneSidedUpper | twoSided
deriving DecidableEq, Repr

/-- `ABIntervalType` (240-244). -/
inductive IntervalType where
  | failToReject | reject
deriving DecidableEq, Repr

/-- `ABInterval` (297-354): padded time limits and inclusive indices. -/
structure ABInterval where
  kind : IntervalType
  start : Int
  stop : Int
  startIdx : Nat
  endIdx : Nat
deriving DecidableEq, Repr

/-- `ABInterval.indices` (339-344). -/
def ABInterval.indices (i : ABInterval) : List Nat :=
  (List.range (i.endIdx + 1 - i.startIdx)).map fun k => i.startIdx + k

/-- Lines 1141-1155 for one run: the padded interval; the `IntervalAnomaly` constructor
(`kats/consts.py` 1287-1327) raises `ValueError` unless `start < end`. -/
def mkInterval (kind : IntervalType) (time : List Int) (padding : Int) (s e : Nat) :
    Except Err ABInterval :=
  let st := time.getD s 0 - padding
  let en := time.getD e 0 + padding
  if en ≤ st then .error .valueError else .ok ⟨kind, st, en, s, e⟩

/-- End of `_get_test_decision` (1215-1223): the rejection mask, inverted for `FAIL_TO_REJECT`. -/
def decisionMask (kind : IntervalType) (mask : List Bool) : List Bool :=
  match kind with
  | .reject => mask
  | .failToReject => mask.map not

/-- `_get_intervals` (1118-1155), given the rejection mask.  `_get_test_decision` (1204-1214) raises
`ValueError` for an empty mask. -/
def getIntervals (kind : IntervalType) (time : List Int) (padding : Int) (mask : List Bool) :
    Except Err (List ABInterval) :=
  if mask.isEmpty then .error .valueError
  else do
    let se ← trueRunIndices (decisionMask kind mask)
    (se.1.zip se.2).mapM fun q => mkInterval kind time padding q.1 q.2

/-- `anomaly_intervals` (504-511), for a model with the given duration. -/
def anomalyIntervals (ivs : List ABInterval) (duration : Nat) : List ABInterval :=
  ivs.filter fun i => decide (duration ≤ i.indices.length)

/-- `caution_intervals` (513-520). -/
def cautionIntervals (ivs : List ABInterval) (duration : Nat) : List ABInterval :=
  ivs.filter fun i => decide (i.indices.length < duration)

/-- `values[idx] = True` for every `idx` (786-787); `IndexError` when out of range. -/
def setTrue (values : List Bool) (idxs : List Nat) : Except Err (List Bool) :=
  idxs.foldlM (fun v idx => if idx < v.length then .ok (v.set idx true) else .error .indexError)
    values

/-- `_convert_intervals_to_predictions` (774-788). -/
def intervalsToPredictions (n : Nat) (ivs : List ABInterval) (duration : Nat) :
    Except Err (List Bool) :=
  ivs.foldlM (fun values i =>
    if duration ≤ i.indices.length then setTrue values i.indices else .ok values)
    (List.replicate n false)

/-! ## Statistics -/

noncomputable section

/-- The scipy normal distribution functions the detector uses, as parameters (`norm.sf` is
`1 - norm.cdf`). -/
structure NormDist where
  ppf : ℝ → ℝ
  cdf : ℝ → ℝ

/-- A row of two-sample data (`TwoSampleColumns`, 84-92). -/
@[ext] structure ABRow where
  time : Int
  valueA : ℝ
  valueB : ℝ
  varianceA : ℝ
  varianceB : ℝ
  countA : Int
  countB : Int
  effect : ℝ

/-- The four concrete two-sample classes (1707-1820). -/
inductive VarKind where
  | realValued | proportion | count | arrivalTime
deriving DecidableEq

/-- `TestStatistic` (247-250). -/
inductive StatKind where
  | absolute | relative
deriving DecidableEq

/-- `_get_variance` of the four classes (1710-1722, 1731-1753, 1764-1783, 1794-1820). -/
def getVariance (k : VarKind) (r : ABRow) : ℝ × ℝ :=
  match k with
  | .realValued => (r.varianceA / r.countA, r.varianceB / r.countB)
  | .proportion => (r.valueA * (1 - r.valueA) / r.countA, r.valueB * (1 - r.valueB) / r.countB)
  | .count => (r.valueA / r.countA, r.valueB / r.countB)
  | .arrivalTime => (r.valueA ^ 2 / r.countA, r.valueB ^ 2 / r.countB)

/-- `_EPS` (1576). -/
def relEps : ℝ := 1 / 10 ^ 9

/-- Point estimate: 1534 (absolute) and 1594-1595 (log ratio). -/
def statDifference (s : StatKind) (r : ABRow) : ℝ :=
  match s with
  | .absolute => r.valueB - r.valueA
  | .relative => Real.log (max r.valueB relEps) - Real.log (max r.valueA relEps)

/-- What is subtracted under the null hypothesis: 1535 and 1597. -/
def statNull (s : StatKind) (r : ABRow) : ℝ :=
  match s with
  | .absolute => r.effect
  | .relative => Real.log (1 + r.effect)

/-- Standard error: 1536 and 1601-1604. -/
def statStdError (s : StatKind) (k : VarKind) (r : ABRow) : ℝ :=
  match s with
  | .absolute => Real.sqrt ((getVariance k r).1 + (getVariance k r).2)
  | .relative => Real.sqrt ((getVariance k r).1 / max (r.valueA ^ 2) (relEps ^ 2)
      + (getVariance k r).2 / max (r.valueB ^ 2) (relEps ^ 2))

/-- Test statistic: 1537 and 1605. -/
def testStatistic (s : StatKind) (k : VarKind) (r : ABRow) : ℝ :=
  (statDifference s r - statNull s r) / statStdError s k r

/-- `CriticalValue` (268-294); one number, because the two-sample classes use the same critical
value at every time (`_convert_alpha_to_critical_value`, 1487-1488). -/
structure CriticalValue where
  lower : Option ℝ
  upper : Option ℝ

/-- `_get_critical_value` (731-753), the part after the correction of alpha. -/
def criticalValue (N : NormDist) (t : TestType) (corrected : ℝ) : CriticalValue :=
  match t with
  | .oneSidedLower => ⟨some (N.ppf corrected), none⟩
  | .oneSidedUpper => ⟨none, some (N.ppf (1 - corrected))⟩
  | .twoSided => ⟨some (N.ppf (corrected / 2)), some (N.ppf (1 - corrected / 2))⟩

/-- `absolute_critical_value` (273-284); `none` stands for the `ValueError`. -/
def CriticalValue.absolute (c : CriticalValue) : Option ℝ :=
  match c.lower, c.upper with
  | some l, _ => some |l|
  | none, some u => some |u|
  | none, none => none

/-- A confidence limit transformed back to the reported scale: identity (1546-1547) or `exp`
(1617-1618). -/
def reportScale (s : StatKind) (x : ℝ) : ℝ :=
  match s with
  | .absolute => x
  | .relative => Real.exp x

/-- Reported upper limit (1546-1561, 1617-1633); `none` is `np.inf`. -/
def upperLimit (s : StatKind) (k : VarKind) (t : TestType) (z : ℝ) (r : ABRow) : Option ℝ :=
  match t with
  | .oneSidedUpper => none
  | _ => some (reportScale s (statDifference s r + z * statStdError s k r))

/-- Reported lower limit; `none` is `-np.inf`. -/
def lowerLimit (s : StatKind) (k : VarKind) (t : TestType) (z : ℝ) (r : ABRow) : Option ℝ :=
  match t with
  | .oneSidedLower => none
  | _ => some (reportScale s (statDifference s r - z * statStdError s k r))

/-- `stat_sig` (1548-1557). -/
def statSig (N : NormDist) (t : TestType) (x : ℝ) : ℝ :=
  match t with
  | .oneSidedLower => N.cdf x
  | .oneSidedUpper => 1 - N.cdf x
  | .twoSided => min (N.cdf x) (1 - N.cdf x)

open Classical in
/-- One entry of the rejection mask of `_get_test_decision` (1178-1203). -/
def rejected (t : TestType) (c : CriticalValue) (x : ℝ) : Bool :=
  match t with
  | .oneSidedLower => decide (x ≤ c.lower.getD 0)
  | .oneSidedUpper => decide (c.upper.getD 0 ≤ x)
  | .twoSided => decide (x ≤ c.lower.getD 0) || decide (c.upper.getD 0 ≤ x)

/-! ## `fit_predict` -/

/-- The attributes of the detector that matter for later calls. -/
structure IDState where
  alpha : ℝ
  duration : Option Nat
  corrected : Option ℝ := none
  rejectIntervals : Option (List ABInterval) := none
  failIntervals : Option (List ABInterval) := none

/-- Configuration that never changes. -/
structure IDConfig where
  N : NormDist
  kind : VarKind
  stat : StatKind
  test : TestType

/-- The arguments of one `fit_predict` call (562-572). -/
structure IDCall where
  data : List ABRow
  history : Option (List ABRow) := none
  consolidate : Bool := true
  padding : Int := 30
  rTol : ℝ := 1 / 10

/-- What one call returns (the `AnomalyResponse`, 667-682), and the caller's objects afterwards. -/
structure IDResult where
  scores : List ℝ
  upper : List (Option ℝ)
  lower : List (Option ℝ)
  predicted : List Bool
  statSig : List ℝ
  /-- the caller's `data` object after the call -/
  dataAfter : List ABRow
  /-- the caller's `historical_data` object after the call -/
  historyAfter : Option (List ABRow)

/-- `Schema._validate_data` (122-168): positive counts and non-negative variances. -/
def validRows (rows : List ABRow) : Prop :=
  ∀ r ∈ rows, 0 < r.countA ∧ 0 < r.countB ∧ 0 ≤ r.varianceA ∧ 0 ≤ r.varianceB

/-- The class-specific check `_get_test_statistic_hook` (1728-1729, 1759-1762, 1789-1792); the count
class checks a dtype, which is not modelled. -/
def hookOk (k : VarKind) (rows : List ABRow) : Prop :=
  match k with
  | .proportion => ∀ r ∈ rows, 0 ≤ r.valueA ∧ r.valueA ≤ 1 ∧ 0 ≤ r.valueB ∧ r.valueB ≤ 1
  | .arrivalTime => ∀ r ∈ rows, 0 < r.valueA ∧ 0 < r.valueB
  | _ => True

/-- `_get_critical_value` (684-730), the correction: new duration and corrected alpha.  The setters
(465-474, 496-502) accept the values by C25 and C26. -/
def correctAlpha (s : IDState) (n : Nat) (rTol : ℝ) : Except Err (Nat × ℝ) :=
  match s.duration with
  | none => lowestM s.alpha n rTol
  | some d => do
    let r ← lowestP d n s.alpha rTol
    return (d, r.1)

/-- Lines 1530-1532 / 1589-1591: `self.data.value.variance_a = _variance_a` overwrites the column of
the data frame that belongs to the caller. -/
def cacheVariance (k : VarKind) (r : ABRow) : ABRow :=
  { r with varianceA := (getVariance k r).1, varianceB := (getVariance k r).2 }

/-- Lines 610-616: the rows a call works on.  `historical_data.extend(data, validate=False)` is
`history ++ data` (both in time order). -/
def IDCall.rows (c : IDCall) : List ABRow :=
  match c.history with
  | none => c.data
  | some h => h ++ c.data

/-- The rejection mask (`_get_test_decision(REJECT)`) at a corrected alpha. -/
def idMask (cfg : IDConfig) (rows : List ABRow) (corrected : ℝ) : List Bool :=
  (rows.map (testStatistic cfg.stat cfg.kind)).map
    (rejected cfg.test (criticalValue cfg.N cfg.test corrected))

/-- Step 3 (633-645): new intervals, or those left over from an earlier call. -/
def idIntervals (s : IDState) (cfg : IDConfig) (c : IDCall) (corrected : ℝ) :
    Except Err (Option (List ABInterval) × Option (List ABInterval)) :=
  if c.consolidate then do
    let times := c.rows.map fun r => r.time
    let a ← getIntervals .reject times c.padding (idMask cfg c.rows corrected)
    let b ← getIntervals .failToReject times c.padding (idMask cfg c.rows corrected)
    return (some a, some b)
  else .ok (s.rejectIntervals, s.failIntervals)

/-- Step 4 (648-656): predictions from whatever `self.reject_intervals` holds, else zeros. -/
def idPredicted (n : Nat) (rej : Option (List ABInterval)) (duration : Nat) :
    Except Err (List Bool) :=
  match rej with
  | some l => intervalsToPredictions n l duration
  | none => .ok (List.replicate n false)

/-- The response (662-682) and the caller's objects after the call. -/
def idResult (cfg : IDConfig) (c : IDCall) (corrected : ℝ) (predicted : List Bool) : IDResult :=
  let crit := criticalValue cfg.N cfg.test corrected
  let z := crit.absolute.getD 0
  let stats := c.rows.map (testStatistic cfg.stat cfg.kind)
  let cached := c.rows.map (cacheVariance cfg.kind)
  { scores := stats
    upper := c.rows.map (upperLimit cfg.stat cfg.kind cfg.test z)
    lower := c.rows.map (lowerLimit cfg.stat cfg.kind cfg.test z)
    predicted := predicted
    statSig := stats.map (statSig cfg.N cfg.test)
    dataAfter := match c.history with
      | none => cached
      | some _ => c.data
    historyAfter := c.history.map fun _ => cached }

open Classical in
/-- `fit_predict` (562-682) with `mask_scores=False`.  The state after an exception is not
modelled. -/
def IDState.fitPredict (s : IDState) (cfg : IDConfig) (c : IDCall) :
    Except Err (IDState × IDResult) :=
  if ¬ validRows c.data then .error .valueError
  else do
    let dc ← correctAlpha s c.rows.length c.rTol
    if ¬ hookOk cfg.kind c.rows then .error .valueError
    else do
      let ivs ← idIntervals s cfg c dc.2
      let predicted ← idPredicted c.rows.length ivs.1 dc.1
      return ({ s with
        duration := some dc.1, corrected := some dc.2,
        rejectIntervals := ivs.1, failIntervals := ivs.2 },
        idResult cfg c dc.2 predicted)

end

end Kats

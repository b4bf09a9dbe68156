import Verif.Model.Outlier
import Mathlib.Analysis.SpecialFunctions.Log.Basic

/-!
# `kats/utils/decomposition.py`

Times are whole seconds in increasing order, values are reals and `none` is NaN.  STL, `seasonal_decompose`,
polynomial interpolation, `pd.infer_freq` and the day of the month are parameters.
-/

namespace Kats

open Classical

noncomputable section

/-- The three components of a decomposition. -/
structure Comps where
  trend : List (Option ℝ)
  seasonal : List (Option ℝ)
  resid : List (Option ℝ)

/-- The arguments of STL kept by the constructor, lines 100-111. -/
structure StlArgs where
  period : Option Int := none
  seasonal : Int := 7
  trend : Option Int := none
  lowPass : Option Int := none
  seasonalDeg : Int := 1
  trendDeg : Int := 1
  lowPassDeg : Int := 1
  robust : Bool := false
  seasonalJump : Int := 1
  trendJump : Int := 1
  lowPassJump : Int := 1

/-- What is called: polynomial interpolation, STL, `seasonal_decompose` (the flag is for the multiplicative model),
`pd.infer_freq` as a time difference (`none` if there is none, an exception for calendar frequencies such as months),
the most frequent difference (ties are up to the sorting of pandas), the day of the month. -/
structure DecWorld where
  poly : List (Option ℝ) → Except Err (List (Option ℝ))
  stl : StlArgs → List (Option ℝ) → Except Err Comps
  seasonalDecompose : Bool → Option Int → List (Option ℝ) → Except Err Comps
  inferFreq : List Int → Except Err (Option Int)
  topDiff : List Int → Int
  dayOfMonth : Int → Int

/-! ### `TimeSeriesDecomposition` -/

/-- `time.diff()` without its first entry. -/
def neighbourDiffs (times : List Int) : List Int := List.zipWith (fun a b => b - a) times times.tail

/-- `Series.mode()[0]`: the smallest of the most frequent entries. -/
def smallestMode (l : List Int) : Int :=
  ((l.filter fun x => l.all fun y => decide (l.count y ≤ l.count x)).min?).getD 0

/-- `infer_freq_robust`, `consts.py` 968-989. -/
def inferFreqRobust (times : List Int) : Except Err Int :=
  if times.length ≤ 1 then .error .valueError else .ok (smallestMode (neighbourDiffs times))

/-- The attributes of the decomposition: whether it is multiplicative, whether it uses `seasonal_decompose`. -/
structure DecCfg where
  mult : Bool
  useSd : Bool
  args : StlArgs

/-- `__init__`, lines 67-111: unknown names mean additive and STL; only `seasonal_decompose` takes several
columns. -/
def decInit (columns : Nat) (decomposition : String := "additive") (method : String := "STL") (args : StlArgs := {}) :
    Except Err DecCfg :=
  if columns ≠ 1 ∧ method ≠ "seasonal_decompose" then .error .valueError
  else .ok ⟨if decomposition ∈ ["additive", "multiplicative"] then decomposition = "multiplicative" else false,
    method = "seasonal_decompose", args⟩

/-- `__clean_ts`, lines 113-138, one column: missing values are interpolated.  The test `any(original.isna())` iterates
over the column names, so the linear interpolation always runs; both leave a complete column as it is. -/
def decClean (W : DecWorld) (values : List (Option ℝ)) : Except Err (List (Option ℝ)) :=
  if values.all Option.isSome then .ok values else do
    let y ← W.poly values
    pure (linInterp y)

/-- `_get_period`, lines 140-158: `freq` comes from `infer_freq_robust` and so is a time difference; its `days` is 0
below a day. -/
def decPeriod (period : Option Int) (freq : Int) : Option Int :=
  match period with
  | some p => some p
  | none => if 0 ≤ freq ∧ freq < 86400 then some 2 else none

/-- `np.log`: NaN or minus infinity without a positive argument, both as `none`. -/
def npLog (x : ℝ) : Option ℝ := if 0 < x then some (Real.log x) else none

/-- `decomposer`, lines 160-236, one column. -/
def decompose (W : DecWorld) (cfg : DecCfg) (times : List Int) (values : List (Option ℝ)) : Except Err Comps := do
  let freq ← inferFreqRobust times
  let y ← decClean W values
  let period := decPeriod cfg.args.period freq
  if cfg.useSd then W.seasonalDecompose cfg.mult period y
  else if cfg.mult then do
    let c ← W.stl { cfg.args with period := period } (y.map fun o => o.bind npLog)
    let ex := fun l : List (Option ℝ) => l.map fun o : Option ℝ => o.map Real.exp
    pure ⟨ex c.trend, ex c.seasonal, ex c.resid⟩
  else W.stl { cfg.args with period := period } y

/-! ### `SeasonalityHandler` -/

/-- The argument `seasonal_period`. -/
inductive SeasonArg where
  | name (s : String)
  | seconds (k : Int)
  | other

/-- `PERIOD_MAP` and its checks, lines 300-307 and 323-334. -/
def seasonSeconds : SeasonArg → Except Err Int
  | .name "hourly" => .ok (1 * 60 * 60)
  | .name "daily" => .ok (24 * 60 * 60)
  | .name "weekly" => .ok (7 * 24 * 60 * 60)
  | .name "biweekly" => .ok (14 * 24 * 60 * 60)
  | .name "monthly" => .ok (30 * 24 * 60 * 60)
  | .name "yearly" => .ok (365 * 24 * 60 * 60)
  | .name _ => .error .otherError
  | .seconds k => .ok k
  | .other => .error .otherError

/-- The frequency, lines 339-353. -/
def seasonFreq (W : DecWorld) (ignoreIrregular : Bool) (times : List Int) : Except Err Int :=
  if ignoreIrregular then inferFreqRobust times
  else do
    match ← W.inferFreq times with
    | some f => pure f
    | none =>
      let d := neighbourDiffs times
      if (((d.count (W.topDiff d) : Nat) : ℚ) ≥ (times.length : ℚ) * (1 / 2) - 1) then pure (W.topDiff d)
      else .error .otherError

/-- The remainder used as base, lines 359-366: it counts from the day of the month.  A frequency of 0 raises. -/
def resampleBase (W : DecWorld) (freq t0 : Int) : Except Err Int :=
  if freq = 0 then .error .otherError
  else .ok ((W.dayOfMonth t0 * 24 * 60 * 60 + t0 % 86400) % freq)

/-- The times of `df.resample(rule=freq, origin=origin)`, `consts.py` 1057-1059 and 1093: the bins start at the first
time if the base is not 0, and else are counted from the midnight before it. -/
def resampleGrid (freq base : Int) (times : List Int) : List Int :=
  match times.head?, times.getLast? with
  | some a, some b =>
    let start := if base = 0 then a - (a % 86400) % freq else a
    (List.range (((b - start) / freq).toNat + 1)).map fun k : Nat => start + freq * (k : Int)
  | _, _ => []

/-- `interpolate(method="linear")` with the default direction: entries before the first known one stay missing. -/
def forwardInterp (l : List (Option ℝ)) : List (Option ℝ) :=
  (List.range l.length).map fun i : Nat => if (lastKnown l i).isSome then fillAt i (lastKnown l i) (nextKnown l i) else none

/-- `interpolate`, `consts.py` 991-1111, one column: the values at the times of the grid, the others interpolated.
Repeated times raise.  (Values at times off the grid are ignored here; newer versions of pandas use them in the
interpolation, but then `SeasonalityHandler` raises anyway.) -/
def interpColumn (grid times : List Int) (values : List (Option ℝ)) : Except Err (List (Option ℝ)) :=
  if times.Nodup then
    .ok (forwardInterp (grid.map fun g : Int => ((times.zip values).find? fun r => decide (r.1 = g)).bind (·.2)))
  else .error .valueError

/-- The handler: the data, the input of the decomposition, the period, the factors of the jumps. -/
structure SeasonHandler where
  times : List Int
  columns : List (List (Option ℝ))
  grid : List Int
  inputs : List (List (Option ℝ))
  period : Int
  lpj : ℚ
  tj : ℚ

/-- The period, lines 377-384. -/
def seasonPeriod (seconds freq : Int) (n : Nat) : Int :=
  let p := min ((seconds : ℤ).tdiv freq) ((n / 2 : Nat) : Int)
  if p < 2 then 7 else p

/-- `__init__`, lines 309-395. -/
def seasonInit (W : DecWorld) (times : List Int) (columns : List (List (Option ℝ))) (arg : SeasonArg := .name "daily")
    (ignoreIrregular : Bool := false) (lpj : ℚ := 15 / 100) (tj : ℚ := 15 / 100) : Except Err SeasonHandler := do
  if times.length < 7 then .error .otherError
  else
    let secs ← seasonSeconds arg
    let freq ← seasonFreq W ignoreIrregular times
    let base ← resampleBase W freq (times.headD 0)
    let grid := resampleGrid freq base times
    let inputs ← columns.mapM (interpColumn grid times)
    if (grid.filter (· ∈ times)).length ≠ times.length then .error .otherError
    else pure ⟨times, columns, grid, inputs, seasonPeriod secs freq times.length, lpj, tj⟩

/-- The arguments of STL, lines 399-411 and 425-437. -/
def SeasonHandler.stlArgs (h : SeasonHandler) : StlArgs :=
  { period := some (max h.period 2), robust := true, seasonalDeg := 0, trendDeg := 1, lowPassDeg := 1,
    lowPassJump := max ⌊((h.period + 1 : Int) : ℚ) * h.lpj⌋ 1, seasonalJump := 1,
    trendJump := max ⌊((h.period + 1 : Int) : ℚ) * h.tj⌋ 1 }

/-- `_decompose` and `_decompose_multi`, lines 397-440: additive STL of every column. -/
def SeasonHandler.decomp (W : DecWorld) (h : SeasonHandler) : Except Err (List Comps) :=
  h.inputs.mapM fun y => do
    let cfg ← decInit 1 "additive" "STL" h.stlArgs
    decompose W cfg h.grid y

/-- The entries at the times of the data: `decomp["rem"][data_time_idx]`. -/
def atTimes (grid times : List Int) (l : List (Option ℝ)) : List (Option ℝ) :=
  ((grid.zip l).filter fun r => decide (r.1 ∈ times)).map (·.2)

/-- NaN is passed on. -/
def optAdd : Option ℝ → Option ℝ → Option ℝ
  | some a, some b => some (a + b)
  | _, _ => none

/-- `remove_seasonality`, lines 442-468, the columns (the times are those of the data). -/
def SeasonHandler.removeSeasonality (W : DecWorld) (h : SeasonHandler) : Except Err (List (List (Option ℝ))) := do
  let d ← h.decomp W
  pure (d.map fun c => List.zipWith optAdd (atTimes h.grid h.times c.resid) (atTimes h.grid h.times c.trend))

/-- `get_seasonality`, lines 470-492, the columns. -/
def SeasonHandler.getSeasonality (W : DecWorld) (h : SeasonHandler) : Except Err (List (List (Option ℝ))) := do
  let d ← h.decomp W
  pure (d.map fun c => atTimes h.grid h.times c.seasonal)

end

end Kats

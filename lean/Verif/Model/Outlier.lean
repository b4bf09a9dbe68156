import Verif.Model.RobustStat
import Verif.Model.Kde

/-!
# `kats/detectors/outlier.py`: `OutlierDetector`, and `Detector.remover`

Values are reals, `none` is NaN; times are seconds.  Polynomial interpolation, the seasonal decomposition and
`pd.infer_freq` are parameters.
-/

namespace Kats

noncomputable section

open Classical

/-! ### Linear interpolation -/

/-- The last known entry up to position `i`. -/
def lastKnown (l : List (Option ℝ)) (i : Nat) : Option (Nat × ℝ) :=
  ((List.range (i + 1)).filterMap fun j : Nat => (l.getD j none).map fun v => (j, v)).getLast?

/-- The first known entry from position `i`. -/
def nextKnown (l : List (Option ℝ)) (i : Nat) : Option (Nat × ℝ) :=
  ((List.range l.length).filterMap fun j : Nat => if i ≤ j then (l.getD j none).map fun v => (j, v) else none).head?

/-- The value on the line between two known entries, or the only known one. -/
def fillAt (i : Nat) : Option (Nat × ℝ) → Option (Nat × ℝ) → Option ℝ
  | some (j, a), some (k, b) => some (if j = k then a else a + (b - a) * ((i : ℝ) - j) / ((k : ℝ) - j))
  | some (_, a), none => some a
  | none, some (_, b) => some b
  | none, none => none

/-- `interpolate(method="linear", limit_direction="both")`: positions count as equally spaced; at the ends the
nearest value is repeated. -/
def linInterp (l : List (Option ℝ)) : List (Option ℝ) :=
  (List.range l.length).map fun i : Nat => fillAt i (lastKnown l i) (nextKnown l i)

/-! ### `OutlierDetector` -/

/-- The result of `seasonal_decompose`. -/
structure OutDecomp where
  trend : List ℝ
  seasonal : List ℝ
  resid : List ℝ

/-- What is called: whether a frequency can be inferred, polynomial interpolation, decomposition (the flag is
for the multiplicative model). -/
structure OutWorld where
  infers : List Int → Except Err Bool
  poly : List (Option ℝ) → Except Err (List (Option ℝ))
  decompose : Bool → List (Int × ℝ) → Except Err OutDecomp

/-- The attributes (52-62): the kind of decomposition and the multiplier. -/
structure OutCfg where
  mult : Bool := false
  iqrMult : ℝ := 3

/-- 52-62, `__init__`: an unknown name means additive. -/
def OutCfg.init (decomp : String := "additive") (iqrMult : ℝ := 3) : OutCfg :=
  ⟨if decomp ∈ ["additive", "multiplicative"] then decomp = "multiplicative" else false, iqrMult⟩

/-- 83, `asfreq("D")`: the days from the first to the last time; values at other times are dropped; repeated
times raise. -/
def asfreqDay (rows : List (Int × Option ℝ)) : Except Err (List (Int × Option ℝ)) :=
  if (rows.map (·.1)).Nodup then
    match rows.head?, rows.getLast? with
    | some a, some b =>
      .ok ((List.range (((b.1 - a.1) / 86400).toNat + 1)).map fun k : Nat =>
        (a.1 + 86400 * (k : Int), (rows.find? fun r => decide (r.1 = a.1 + 86400 * (k : Int))).bind (·.2)))
    | _, _ => .ok []
  else .error .valueError

/-- 78-96: the complete series that is decomposed; missing values that remain make `seasonal_decompose`
raise. -/
def outPrepare (W : OutWorld) (rows : List (Int × Option ℝ)) : Except Err (List (Int × ℝ)) := do
  let inf ← W.infers (rows.map (·.1))
  let rows ← if inf then pure rows else asfreqDay rows
  let y ← W.poly (rows.map (·.2))
  let y := if y.any fun x => x.isNone then linInterp y else y
  if y.any fun x => x.isNone then .error .valueError
  else pure ((rows.map (·.1)).zip (y.map fun x => x.getD 0))

/-- 105-113: the residuals that are classified. -/
def outResid (y : List ℝ) (d : OutDecomp) : List ℝ :=
  let detrend := y.zipWith (· - ·) d.trend
  let strong := varOf detrend ≠ 0 ∧ 1 - varOf d.resid / varOf detrend ≥ 6 / 10
  (if strong then y.zipWith (· - ·) d.seasonal else y).zipWith (· - ·) d.trend

/-- 114-116: the limits. -/
def outLimits (iqrMult : ℝ) (r : List ℝ) : ℝ × ℝ :=
  let q1 := quantileR (1 / 4) r
  let q3 := quantileR (3 / 4) r
  (q1 - iqrMult * (q3 - q1), q3 + iqrMult * (q3 - q1))

/-- 118, a score; `none` for a division by zero. -/
def outScore (lim : ℝ × ℝ) (x : ℝ) : Option ℝ :=
  if lim.2 - lim.1 = 0 then none else some ((x - lim.1) / (lim.2 - lim.1))

/-- What `__clean_ts__` returns: times of outliers, scores, times. -/
structure OutRes where
  outliers : List Int
  scores : List (Option ℝ)
  times : List Int

/-- 64-124, `__clean_ts__`. -/
def cleanTs (W : OutWorld) (c : OutCfg) (rows : List (Int × Option ℝ)) : Except Err OutRes := do
  let full ← outPrepare W rows
  let d ← W.decompose c.mult full
  let r := outResid (full.map (·.2)) d
  let lim := outLimits c.iqrMult r
  pure ⟨(((full.map (·.1)).zip r).filter fun p => decide (p.2 > lim.2 ∨ p.2 < lim.1)).map (·.1),
    r.map (outScore lim), full.map (·.1)⟩

/-- 127-158, `detector`: outliers of each column, and the scores by column; a column that fails has no
outliers and no scores. -/
def outDetector (W : OutWorld) (c : OutCfg) (cols : List (String × List (Int × Option ℝ))) :
    List (List Int) × List (String × List (Option ℝ)) :=
  (cols.map fun col => match cleanTs W c col.2 with
    | .ok r => r.outliers
    | .error _ => [],
   cols.filterMap fun col => match cleanTs W c col.2 with
    | .ok r => some (col.1, r.scores)
    | .error _ => none)

/-! ### `Detector.remover` (`kats/detectors/detector.py` 101-131) -/

/-- 118: one column; an unknown time raises `KeyError`. -/
def removeCol (outs : List Int) (rows : List (Int × Option ℝ)) : Except Err (List (Int × Option ℝ)) :=
  if outs.all fun t => decide (t ∈ rows.map (·.1)) then
    .ok (rows.map fun r => (r.1, if r.1 ∈ outs then none else r.2))
  else .error .keyError

/-- 101-131, `remover`: all columns (with distinct times), interpolated if requested. -/
def remover (interpolate : Bool) (outliers : List (List Int)) (cols : List (List (Int × Option ℝ))) :
    Except Err (List (List (Int × Option ℝ))) := do
  let out ← (outliers.zip cols).mapM fun p => removeCol p.1 p.2
  pure (if interpolate then out.map fun rows => (rows.map (·.1)).zip (linInterp (rows.map (·.2))) else out)

end

end Kats

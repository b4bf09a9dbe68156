import Verif.Model.Heuristic

/-!
# `kats/models/ensemble/{ensemble,median_ensemble,weighted_avg_ensemble,kats_ensemble}.py`

The base models are parameters: what a model forecasts for given data, and its backtest error.
Not modelled: the process pools (each task is a pure function of its arguments), logging, custom
executors, a backtest error of minus machine epsilon (division by zero), NaN and infinite errors.
-/

namespace Kats

/-- Python `d[k] = v`: a present key keeps its position. -/
def dictSet {K A : Type} [DecidableEq K] (d : List (K × A)) (k : K) (v : A) : List (K × A) :=
  if d.any (fun e => decide (e.1 = k)) then d.map fun e => if e.1 = k then (k, v) else e
  else d ++ [(k, v)]

/-- A dictionary filled by a loop over key-value pairs. -/
def dictOf {K A : Type} [DecidableEq K] (l : List (K × A)) : List (K × A) :=
  l.foldl (fun d e => dictSet d e.1 e.2) []

/-- `d.update(e)`. -/
def dictUpdate {K A : Type} [DecidableEq K] (d e : List (K × A)) : List (K × A) :=
  e.foldl (fun d x => dictSet d x.1 x.2) d

/-- `sys.float_info.epsilon`. -/
def floatEps : Rat := 1 / 2 ^ 52

/-- `weighted_avg_ensemble.py` 116-123 (also `kats_ensemble.py` 577-584 and 852-858): weights from
errors. -/
def errWeights {K : Type} (errs : List (K × Rat)) : List (K × Rat) :=
  let ow := errs.map fun e => (e.1, 1 / (e.2 + floatEps))
  ow.map fun e => (e.1, e.2 / (ow.map (·.2)).sum)

/-- Row `j` of the concatenated forecasts. -/
def fcstRow (fs : List (List Rat)) (j : Nat) : List Rat := fs.map fun f => f.getD j 0

/-- `pd.concat(..., axis=1)` of forecasts; simplification: base models forecast exactly `steps`
values, anything else is an error here; `pd.concat` of no frames is a ValueError. -/
def concatFcst (fs : List (List Rat)) (steps : Nat) : Except Err (List (List Rat)) :=
  if fs.isEmpty then .error .valueError
  else if fs.all fun f => decide (f.length = steps) then .ok ((List.range steps).map (fcstRow fs))
  else .error .valueError

/-- `DataFrame.dot(weights)` for one row. -/
def dotRow (row ws : List Rat) : Rat := (List.zipWith (· * ·) row ws).sum

/-- A base model in an ensemble: name and parameters (`BaseModelParams`, `ensemble.py` 41-61). -/
abbrev BaseModel (P : Type) := String × P

/-- `ensemble.py` 105-126 and 147-164, `fit` and `_predict_all`: forecasts by model name. -/
def predictAll {P : Type} (forecast : P → Nat → List Rat) (models : List (BaseModel P)) (steps : Nat) :
    List (String × List Rat) :=
  dictOf (models.map fun m => (m.1, forecast m.2 steps))

/-- The frequency `"D"`, on a time axis whose unit is one day. -/
def daily : DateFreq := ⟨id, (· + 1)⟩

/-- `median_ensemble.py` 51-93, `MedianEnsembleModel.predict`; 67: the frequency is the keyword
argument or daily. -/
def medianEnsemble {P : Type} (forecast : P → Nat → List Rat) (models : List (BaseModel P))
    (freq : Option DateFreq) (last : Int) (steps : Nat) : Except Err (List (Int × Rat)) := do
  let rows ← concatFcst ((predictAll forecast models steps).map (·.2)) steps
  mkFcst (futureDates (freq.getD daily) last steps) (rows.map medianQ)

/-- `weighted_avg_ensemble.py` 91-124, `_backtester_all`; `backtest` gives a model's error. -/
def backtestWeights {P : Type} (backtest : P → Rat) (models : List (BaseModel P)) :
    List (String × Rat) :=
  errWeights (dictOf (models.map fun m => (m.1, backtest m.2)))

/-- `weighted_avg_ensemble.py` 129-170, `WeightedAvgEnsemble.predict`; 139: the frequency is the
keyword argument or daily. -/
def weightedEnsemble {P : Type} (backtest : P → Rat) (forecast : P → Nat → List Rat)
    (models : List (BaseModel P)) (freq : Option DateFreq) (last : Int) (steps : Nat) :
    Except Err (List (Int × Rat)) := do
  let ws := backtestWeights backtest models
  let rows ← concatFcst ((predictAll forecast models steps).map (·.2)) steps
  mkFcst (futureDates (freq.getD daily) last steps) (rows.map fun r => dotRow r (ws.map (·.2)))

end Kats

import Verif.Model.Py
import Mathlib.Order.Defs.LinearOrder
import Mathlib.Data.List.Basic

/-!
# `kats/utils/time_series_parameter_tuning.py`, `_repivot_dataframe`

The table of scores with one row for an arm of a trial and one group of columns for a metric.
-/

namespace Kats

/-- A row of the raw table of scores: the pair of trial and arm (ordered by the trial, then by the name), the
metric, the values of the columns other than these and the parameters (`mean`, `sem`, …), and the parameters
of the arm. -/
structure RpRow (κ μ V P : Type) where
  key : κ
  metric : μ
  vals : List V
  params : P

/-- A row of the new table: trial and arm, one cell for each column and metric (`none`: NaN) and the
parameters (`none`: NaN). -/
structure RpOut (κ V P : Type) where
  key : κ
  cells : List (Option V)
  params : Option P

/-- Insertion into an increasing list without repetition. -/
def rpInsert {α : Type} [LinearOrder α] (a : α) : List α → List α
  | [] => [a]
  | b :: l => if a < b then a :: b :: l else if a = b then b :: l else b :: rpInsert a l

/-- The levels of an index after `unstack`: the distinct values in increasing order. -/
def rpUniq {α : Type} [LinearOrder α] (l : List α) : List α := l.foldr rpInsert []

/-- The row of a key and a metric. -/
def rpFind {κ μ V P : Type} [DecidableEq κ] [DecidableEq μ] (rows : List (RpRow κ μ V P)) (k : κ) (m : μ) :
    Option (RpRow κ μ V P) :=
  rows.find? fun r => decide (r.key = k) && decide (r.metric = m)

/-- The columns of the unstacked table besides those of the parameters: positions of columns with metrics. -/
def rpFlat {μ : Type} (n : ℕ) (ms : List μ) : List (ℕ × μ) :=
  (List.range n).flatMap fun c => ms.map fun m => (c, m)

/-- `TimeSeriesParameterTuning._repivot_dataframe` (time_series_parameter_tuning.py:523-549) for a table with
`n` columns besides trial, arm, metric and parameters, which is the last one; `special` is the metric of name
"parameters". `unstack` raises a ValueError if a pair of key and metric occurs twice (lines 534-538); the
parameters are those of the first column in whose name "parameters" occurs (540-542), an IndexError if there
is none; `drop(columns=…, level=0)` drops the parameters only, while the names of all columns with
"parameters" are dropped (543-547), a ValueError if the numbers differ. The result is the columns and the
rows. (A holder of values instead of parameters only occurs before this ValueError.) -/
def rpPivot {κ μ V P : Type} [LinearOrder κ] [LinearOrder μ] (special : μ) (n : ℕ)
    (rows : List (RpRow κ μ V P)) : Except Err (List (ℕ × μ) × List (RpOut κ V P)) :=
  if ¬ (rows.map fun r => (r.key, r.metric)).Nodup then .error .valueError
  else
    let ms := rpUniq (rows.map fun r => r.metric)
    let flat := rpFlat n ms
    match ms with
    | [] => .error .indexError
    | first :: _ =>
      let names := flat.filter fun cm => decide (cm.2 ≠ special)
      if names.length ≠ flat.length then .error .valueError
      else .ok (names, (rpUniq (rows.map fun r => r.key)).map fun k =>
        { key := k
          cells := flat.map fun cm => (rpFind rows k cm.2).bind fun r => r.vals[cm.1]?
          params := (rpFind rows k first).map fun r => r.params })

end Kats

import Mathlib.Algebra.Order.Field.Rat
import Verif.Model.Py

/-!
# `kats/evaluation/evaluator.py`

Predictions and labels are lists of numbers, or something that is no array (`np.ndim` 0, such as `None`).  The data and the model of
a run are not read by the class, and are left out.  Metrics are functions of predictions and labels that may raise.
-/

namespace Kats

/-- An array of numbers, or a scalar or `None`. -/
inductive EvArr where
  | arr (l : List ℚ)
  | scalar

/-- `EvaluationObject`, lines 22-29: predictions, labels and results (a table of one row). -/
structure EvRun (M : Type) where
  preds : EvArr := .scalar
  labels : EvArr := .scalar
  results : Option (List (String × M)) := none

/-- A name that a caller gives: a string or something else. -/
inductive EvName where
  | str (s : String)
  | other

/-- `self.runs`, line 34. -/
abbrev EvRuns (M : Type) := List (String × EvRun M)

/-- `_check_if_valid_run_name`, lines 44-53; the name if it is valid. -/
def evCheck {M : Type} (runs : EvRuns M) (name : EvName) (shouldExist : Bool) : Except Err String :=
  match name with
  | .other => .error .valueError
  | .str s => if shouldExist ≠ runs.any (fun r => r.1 = s) then .error .valueError else .ok s

/-- `create_evaluation_run`, lines 36-38. -/
def evCreate {M : Type} (runs : EvRuns M) (name : EvName) : EvRuns M × Option Err :=
  match evCheck runs name false with
  | .error e => (runs, some e)
  | .ok s => (runs ++ [(s, {})], none)

/-- `delete_evaluation_run`, lines 40-42. -/
def evDelete {M : Type} (runs : EvRuns M) (name : EvName) : EvRuns M × Option Err :=
  match evCheck runs name true with
  | .error e => (runs, some e)
  | .ok s => (runs.filter fun r => r.1 ≠ s, none)

/-- `get_evaluation_run`, lines 55-57. -/
def evGet {M : Type} (runs : EvRuns M) (name : EvName) : Except Err (EvRun M) :=
  match evCheck runs name true with
  | .error e => .error e
  | .ok s => match runs.lookup s with
    | none => .error .keyError
    | some r => .ok r

/-- `self.runs[s] = r` for a name that exists. -/
def evPut {M : Type} (runs : EvRuns M) (s : String) (r : EvRun M) : EvRuns M := runs.map fun e => if e.1 = s then (s, r) else e

/-- The loop over the metrics, lines 96-106: only a `ValueError` is caught, and raised again as one. -/
def evMetrics {M : Type} (p l : List ℚ) : List (String × (List ℚ → List ℚ → Except Err M)) → Except Err (List (String × M))
  | [] => .ok []
  | (n, f) :: fs =>
    match f p l with
    | .error .valueError => .error .valueError
    | .error e => .error e
    | .ok v => do
      let rest ← evMetrics p l fs
      pure ((n, v) :: rest)

/-- `evaluate`, lines 71-110. -/
def evEvaluate {M : Type} (runs : EvRuns M) (name : EvName) (fs : List (String × (List ℚ → List ℚ → Except Err M))) (labels : EvArr) :
    EvRuns M × Except Err (List (String × M)) :=
  match evCheck runs name true with
  | .error e => (runs, .error e)
  | .ok s => match runs.lookup s with
    | none => (runs, .error .keyError)
    | some r => match r.preds, labels with
      | .scalar, _ => (runs, .error .valueError)
      | .arr _, .scalar => (runs, .error .valueError)
      | .arr p, .arr l =>
        let r := { r with labels := .arr l }
        if p.length ≠ l.length then (evPut runs s r, .error .valueError)
        else match evMetrics p l fs with
          | .error e => (evPut runs s r, .error e)
          | .ok t => (evPut runs s { r with results := some t }, .ok t)

/-! ### `kats/consts.py` -/

/-- `IntervalAnomaly`, lines 1287-1327 of `kats/consts.py`: times in seconds. -/
structure IvAnomaly where
  start : ℚ
  stop : ℚ
  confidence : Option ℚ

/-- `IntervalAnomaly.__init__`, lines 1298-1312. -/
def IvAnomaly.init (start stop : ℚ) (confidence : Option ℚ) : Except Err IvAnomaly :=
  if stop ≤ start then .error .valueError
  else match confidence with
    | some c => if 0 ≤ c ∧ c ≤ 1 then .ok ⟨start, stop, some c⟩ else .error .valueError
    | none => .ok ⟨start, stop, none⟩

/-- `second_len`, lines 1322-1327. -/
def IvAnomaly.secondLen (a : IvAnomaly) : ℚ := a.stop - a.start

/-- `TSIterator`, lines 1241-1276 of `kats/consts.py`: the series and the position. -/
structure TsIter (V : Type) where
  ts : List (Int × V)
  curr : Nat := 0

/-- `TSIterator.__next__`, lines 1259-1276: a series with one point. -/
def TsIter.next {V : Type} (it : TsIter V) : TsIter V × Except Err (List (Int × V)) :=
  match it.ts[it.curr]? with
  | some p => ({ it with curr := it.curr + 1 }, .ok [p])
  | none => (it, .error .stopIteration)

/-- `list(it)`: what the calls of `__next__` give until it raises, and the iterator afterwards; `fuel` bounds their number. -/
def TsIter.toList {V : Type} : Nat → TsIter V → List (List (Int × V)) × TsIter V
  | 0, it => ([], it)
  | k + 1, it => match it.next with
    | (it', .ok x) => let r := TsIter.toList k it'; (x :: r.1, r.2)
    | (it', .error _) => ([], it')

end Kats

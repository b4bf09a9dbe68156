import Verif.Model.GmParam
import Verif.Model.Tuning

/-!
# `kats/models/metalearner/get_metadata.py`

`GetMetaData`.  A series is the list of its values in the order of time; the times are left out, as no line looks at them.
Models, their parameter classes and features are parameters; a search is the list of the parameters that it tries.
Floating point numbers are exact, but infinities and NaN are kept.  The threads of `tune_executor` give what a loop
gives; an executor of the caller is left out.
-/

namespace Kats

/-- `x / y` for floats, of which `y` is finite or not used. -/
def mdDiv : GmFlt → GmFlt → GmFlt
  | .fin x, .fin y => if y = 0 then (if 0 < x then .pinf else if x < 0 then .ninf else .nan) else .fin (x / y)
  | .nan, _ => .nan
  | _, .nan => .nan
  | .fin _, _ => .fin 0
  | .pinf, .fin y => if y < 0 then .ninf else .pinf
  | .ninf, .fin y => if y < 0 then .pinf else .ninf
  | _, _ => .nan

/-- `Series.max`: NaN is left out. -/
def mdMax (l : List GmFlt) : GmFlt :=
  l.foldl (fun m x => if m = .nan then x else if gmLt m x then x else m) .nan

/-- `_scale` (211-216): every value divided by the greatest. -/
def mdScale (l : List GmFlt) : List GmFlt := l.map fun x => mdDiv x (mdMax l)

/-- `ALLOWED_ERRORS` (54). -/
def mdAllowed : List String := ["mape", "smape", "mae", "mase", "mse", "rmse"]

/-- What `__init__` (94-173) is given: the name of the time column, the values (none for more than one column), the
names of the models and of the parameters. -/
structure MdArgs where
  timeCol : String
  values : Option (List GmFlt)
  models : List String
  params : List String
  minLength : Int
  scale : Bool
  errorMethod : String

/-- The attributes: `data`, `train_series` and `test_series`. -/
structure MdData where
  data : List GmFlt
  train : List GmFlt
  test : List GmFlt

/-- `_validate_data` (175-193); `nunique` leaves NaN out. -/
def mdValidate (minLength : Int) (v : List GmFlt) : Except Err Unit :=
  if (v.length : Int) < minLength then .error .valueError
  else if (v.filter fun x => x ≠ .nan).dedup.length ≤ 1 then .error .valueError
  else if v.any fun x => x = .pinf ∨ x = .ninf ∨ x = .nan then .error .valueError
  else .ok ()

/-- `__init__` (94-173).  The copy of the data (113) needs a time column of the name "time" (`consts.py` 280-282), unless
there are no rows. -/
def mdInit (a : MdArgs) : Except Err MdData :=
  if a.timeCol ≠ "time" ∧ a.values ≠ some [] then .error .valueError
  else
    match a.values with
    | none => .error .valueError
    | some v => do
      mdValidate a.minLength v
      if a.errorMethod ∉ mdAllowed then .error .valueError
      else if ¬ (∀ m ∈ a.models, m ∈ a.params) ∨ ¬ (∀ m ∈ a.params, m ∈ a.models) then .error .valueError
      else
        let d := if a.scale then mdScale v else v
        let s := d.length * 4 / 5
        return ⟨d, d.take s, d.drop s⟩

section
variable {P : Type}

/-- `_evaluation_function` (232-251): the error of the forecasts, infinity if anything fails. -/
def mdEvaluate (metric : List GmFlt → List GmFlt → Except Err GmFlt) (forecast : P → Nat → Except Err (List GmFlt)) (test : List GmFlt)
    (p : P) : GmFlt :=
  match (do let f ← forecast p test.length; metric test f : Except Err GmFlt) with
  | .ok e => e
  | .error _ => .pinf

/-- The parameters that the search tries (254-269); `gen i n` are those of the call `i` with `arm_count` `n`. -/
def mdTried (method : SearchMethod) (gen : Nat → Int → List P) (trials arms : Int) : List P :=
  if method = .grid then gen 0 (-1) else (List.range trials.toNat).flatMap fun i => gen i arms

/-- The selection (270-276): the first row with the smallest finite error; `none` is the empty dictionary. -/
def mdBest (scores : List (P × GmFlt)) : Option P × GmFlt :=
  let l := scores.filter fun x => x.2 ≠ .nan ∧ x.2 ≠ .pinf ∧ x.2 ≠ .ninf
  match l.find? fun x => l.all fun y => gmLe x.2 y.2 with
  | some x => (some x.1, x.2)
  | none => (none, .pinf)

/-- `_tune_single` (218-276). -/
def mdTune (method : SearchMethod) (gen : Nat → Int → List P) (trials arms : Int) (eval : P → GmFlt) : Option P × GmFlt :=
  mdBest ((mdTried method gen trials arms).map fun p => (p, eval p))

/-- `tune_executor` (278-297). -/
def mdTuneAll (models : List String) (tune : String → Option P × GmFlt) : List (String × (Option P × GmFlt)) :=
  models.map fun m => (m, tune m)

/-- `sorted(keys, key=...)[0]` (326). -/
def mdLabel (hpt : List (String × (Option P × GmFlt))) : Except Err String :=
  match hpt.find? fun x => hpt.all fun y => !gmLt y.2.2 x.2.2 with
  | some x => .ok x.1
  | none => .error .indexError

/-- The name of the search (328-338). -/
def mdMethodName (m : SearchMethod) : String :=
  if m = .grid then "GridSearch" else if m = .uniform ∨ m = .sobol then "RandomSearch"
  else if m = .bayes then "BayesOptimalSearch" else "Others"

/-- `GetMetaDataVal` (57-63). -/
structure MdVal (P F : Type) where
  hpt : List (String × (Option P × GmFlt))
  features : F
  best : String
  search : String
  error : String

/-- `get_meta_data` (299-346). -/
def mdGet {F : Type} (features : List GmFlt → Except Err F) (d : MdData) (models : List String)
    (tune : String → Option P × GmFlt) (method : SearchMethod) (errorMethod : String) : Except Err (MdVal P F) := do
  let f ← features d.data
  let hpt := mdTuneAll models tune
  let best ← mdLabel hpt
  return ⟨hpt, f, best, mdMethodName method, errorMethod⟩

end

end Kats

import Mathlib.Analysis.SpecialFunctions.Pow.Real
import Verif.Model.Py

/-!
# `kats/utils/time_series_parameter_tuning.py` and `parameter_tuning_utils.py`

A parameter is the dict of its properties; keys other than the six below are not modelled.  Scores are rationals (no NaN), values of
parameters are of any type `V`.  What Ax and Nevergrad do (generating arms, running trials, minimizing) is a parameter or left out.
A process pool gives the results of `map`, as the evaluation function is a function; a second attempt after an exception gives the
same exception.
-/

namespace Kats

variable {V : Type}

/-- One dict of the search space: the keys that the module reads. -/
structure AxParam (V : Type) where
  name : Option String := none
  type : Option String := none
  values : Option (List V) := none
  value : Option V := none
  bounds : Option (List V) := none
  valueType : Option String := none

/-- `len(parameter_dict) == 0` -/
def AxParam.isEmptyDict (p : AxParam V) : Bool :=
  p.name.isNone && p.type.isNone && p.values.isNone && p.value.isNone && p.bounds.isNone && p.valueType.isNone

/-- The generator in `any`, line 63, which stops at the first `range`. -/
def anyRange : List (AxParam V) → Except Err Bool
  | [] => .ok false
  | p :: ps => match p.type with
    | none => .error .keyError
    | some t => if t = "range" then .ok true else anyRange ps

/-- What a parameter multiplies the cardinality by, lines 68-70. -/
def AxParam.factor (p : AxParam V) : Nat :=
  match p.values with
  | some vs => vs.length
  | none => 1

/-- `compute_search_cardinality`, lines 60-71; `none` is infinity. -/
def searchCardinality (ps : List (AxParam V)) : Except Err (Option Nat) := do
  if ← anyRange ps then pure none
  else pure (some ((ps.map AxParam.factor).prod))

/-- What a caller may give as `parameters`. -/
inductive TuneArg (V : Type) where
  | missing
  | notList
  | list (l : List (Option (AxParam V)))

/-- The loop of `validate_parameters_format`; `none` is an item that is not a dict. -/
def validateItems : List (Option (AxParam V)) → Except Err (List (AxParam V))
  | [] => .ok []
  | none :: _ => .error .typeError
  | some p :: l => if p.isEmptyDict then .error .valueError else do
    let rest ← validateItems l
    pure (p :: rest)

/-- `parameters = [{}]` by default, lines 324-325, and `validate_parameters_format`, lines 376-422; the parameters if they are accepted. -/
def validateParams (a : TuneArg V) : Except Err (List (AxParam V)) :=
  match (match a with | .missing => .list [some {}] | a => a : TuneArg V) with
  | .list l => if l.isEmpty then .error .valueError else validateItems l
  | _ => .error .typeError

/-! ### Evaluation -/

/-- What the evaluation function may return: a dict of sequences, a number, a tuple (`none` is an item that is not a number), or
anything else. -/
inductive EvalOut where
  | dict (l : List (String × List ℚ))
  | num (x : ℚ)
  | tuple (l : List (Option ℚ))
  | other

/-- One row of the data of a trial, without its index. -/
structure ArmScore where
  metric : String
  arm : String
  mean : ℚ
  sem : ℚ
deriving DecidableEq

/-- One item of the list in `evaluate_arm`, lines 180-189: `value[0]` and `value[1]`. -/
def dictScore (arm : String) (kv : String × List ℚ) : Except Err ArmScore :=
  match kv.2 with
  | m :: s :: _ => .ok ⟨kv.1, arm, m, s⟩
  | _ => .error .indexError

/-- `evaluate_arm`, lines 158-211: a list of rows for a dict, otherwise one row. -/
def evaluateArm (metric : String) (f : V → Except Err EvalOut) (arm : String × V) : Except Err (List ArmScore ⊕ ArmScore) := do
  match ← f arm.2 with
  | .dict l => do
    let rows ← l.mapM (dictScore arm.1)
    pure (.inl rows)
  | .num x => pure (.inr ⟨metric, arm.1, x, 0⟩)
  | .tuple [some m, some s] => pure (.inr ⟨metric, arm.1, m, s⟩)
  | _ => .error .typeError

/-- `[metric for record in records for metric in record]` followed by `record.update`: a single row among lists gives strings, which
have no `update`. -/
def flattenScores : List (List ArmScore ⊕ ArmScore) → Except Err (List ArmScore)
  | [] => .ok []
  | .inl rows :: l => do
    let rest ← flattenScores l
    pure (rows ++ rest)
  | .inr _ :: _ => .error .attributeError

/-- `record.update` for single rows: a list has no `update`. -/
def singleScores : List (List ArmScore ⊕ ArmScore) → Except Err (List ArmScore)
  | [] => .ok []
  | .inr r :: l => do
    let rest ← singleScores l
    pure (r :: rest)
  | .inl _ :: _ => .error .attributeError

/-- `fetch_trial_data`, lines 214-254, with the rows and the index of the trial; every exception gives `Err`.  The check of the columns
of the table (which would refuse one without rows) is left out. -/
def fetchTrial (metric : String) (f : V → Except Err EvalOut) (arms : List (String × V)) (trial : Nat) : Option (List (Nat × ArmScore)) :=
  match arms.mapM (evaluateArm metric f) with
  | .error _ => none
  | .ok records =>
    match (match records with
      | [] => .error .indexError
      | .inl _ :: _ => flattenScores records
      | .inr _ :: _ => singleScores records : Except Err (List ArmScore)) with
    | .error _ => none
    | .ok rows => some (rows.map fun r => (trial, r))

/-- `multiprocessing` as an integer, lines 144-146 and 350-352: `bool` becomes -1 or 0. -/
def mpInt : Bool ⊕ Int → Int
  | .inl b => if b then -1 else 0
  | .inr k => k

/-- The number of processes of `fetch_trial_data`, lines 225-235: 1 if there is no pool. -/
def trialProcs (mp : Int) (arms cpus : Nat) : Nat :=
  let m : Int := min (min (arms : Int) (if mp < 0 then 150 else mp)) cpus
  if mp ≠ 0 ∧ 1 < m then m.toNat else 1

/-- An outcome constraint: `metric <= bound` or `metric >= bound`, absolute or in percent of the status quo. -/
structure OutcomeC where
  metric : String
  leq : Bool
  bound : ℚ
  relative : Bool := false
deriving DecidableEq

/-- The boolean series of one constraint, lines 600-613, on the rows of its metric (`none` on others). -/
def ocMask (oc : OutcomeC) (rows : List ArmScore) : List (Option Bool) :=
  rows.map fun r => if r.metric = oc.metric then some (if oc.leq then decide (r.mean ≤ oc.bound) else decide (oc.bound ≤ r.mean)) else none

/-- `x & y` for boolean series: on all rows that either has, and false where one is missing. -/
def maskAnd (x y : List (Option Bool)) : List (Option Bool) :=
  List.zipWith (fun a b => match a, b with
    | some u, some v => some (u && v)
    | none, none => none
    | _, _ => some false) x y

/-- `filter_violating_arms`, lines 596-624: the names of the arms that stay. -/
def legitArms (arms : List String) (rows : List ArmScore) (ocs : List OutcomeC) : Except Err (List String) :=
  match ocs.map fun oc => ocMask oc rows with
  | [] => .error .typeError
  | m :: ms =>
    let mask := ms.foldl maskAnd m
    let names := ((rows.zip mask).filter fun p => p.2 = some true).map fun p => p.1.arm
    .ok (arms.filter fun a => a ∈ names)

/-- `list_parameter_value_scores`, lines 551-634, up to `_repivot_dataframe`, which is left out: the cached table, no rows without
metrics, all rows without constraints, otherwise rows without repetition and, if asked, those of legitimate arms.  `all` is the data
that `fetch_data` gives. -/
def listScores {T : Type} (cached : Option T) (ofRows : List (Nat × ArmScore) → T) (metrics : Bool) (rows : List (Nat × ArmScore))
    (ocs : Option (List OutcomeC)) (legit : Bool) (arms : List String) (all : List ArmScore) : Except Err T :=
  match cached with
  | some t => .ok t
  | none =>
    if metrics = false then .ok (ofRows [])
    else match ocs with
      | none => .ok (ofRows rows)
      | some [] => .ok (ofRows rows)
      | some (c :: cs) => do
        let rows := (rows.reverse.dedup).reverse
        if legit then do
          let names ← legitArms arms all (c :: cs)
          pure (ofRows (rows.filter fun r => r.2.arm ∈ names))
        else pure (ofRows rows)

/-! ### Nevergrad -/

/-- What Nevergrad is given for a parameter. -/
inductive NgParam (V : Type) where
  | choice (vs : List V)
  | scalar (init lower upper : V) (int : Bool)
  | const (v : V)
deriving DecidableEq

/-- A key of a dict that is read. -/
def needKey {α : Type} : Option α → Except Err α
  | some x => .ok x
  | none => .error .keyError

/-- `d[k] = v` for a dict as an association list. -/
def putKey {α : Type} (d : List (String × α)) (k : String) (v : α) : List (String × α) :=
  if d.any (fun e => e.1 = k) then d.map fun e => if e.1 = k then (k, v) else e else d ++ [(k, v)]

/-- One pass of the loop of `get_nevergrad_param_from_ax`, lines 1240-1261.  The checks of Nevergrad itself are left out. -/
def ngStep (getFixed : Bool) (d : List (String × NgParam V)) (p : AxParam V) : Except Err (List (String × NgParam V)) := do
  let t ← needKey p.type
  if t = "choice" then do
    let n ← needKey p.name
    let vs ← needKey p.values
    pure (putKey d n (.choice vs))
  else if t = "range" then do
    let bounds ← (match p.bounds, p.values with
      | some b, _ => .ok b
      | none, some vs => if vs.length = 2 then .ok vs else .error .valueError
      | none, none => .error .valueError : Except Err (List V))
    match bounds with
    | lo :: hi :: _ => do
      let n ← needKey p.name
      pure (putKey d n (.scalar lo lo hi (decide (p.valueType = some "int"))))
    | _ => .error .indexError
  else if t = "fixed" then
    if getFixed then do
      let n ← needKey p.name
      let v ← needKey p.value
      pure (putKey d n (.const v))
    else pure d
  else .error .valueError

/-- `get_nevergrad_param_from_ax`, lines 1235-1262. -/
def ngParams (getFixed : Bool) (ps : List (AxParam V)) : Except Err (List (String × NgParam V)) := ps.foldlM (ngStep getFixed) []

/-- One pass of the comprehension in `get_fixed_param_from_ax`. -/
def fixedStep (d : List (String × V)) (p : AxParam V) : Except Err (List (String × V)) := do
  let t ← needKey p.type
  if t = "fixed" then do
    let n ← needKey p.name
    let v ← needKey p.value
    pure (putKey d n v)
  else pure d

/-- `get_fixed_param_from_ax`, lines 1265-1269. -/
def fixedParams (ps : List (AxParam V)) : Except Err (List (String × V)) := ps.foldlM fixedStep []

/-- `partial(f, **fixed)(**kw)`: the keyword arguments of the call, then those of the partial that it does not give. -/
def callArgs (fixed kw : String → Option V) : String → Option V := fun k => (kw k).or (fixed k)

/-- `d.get` -/
def tuneGet {α : Type} (d : List (String × α)) (k : String) : Option α := d.lookup k

/-- The table that `NevergradOptSearch` keeps, lines 1370-1381: one row. -/
structure NgRow (V : Type) where
  arm : Nat
  metric : Option String
  mean : ℚ
  params : String → Option V

/-- `NevergradOptSearch.generate_evaluate_new_parameter_values`, lines 1359-1382: `minimize` gives the keyword arguments of the
recommendation and its loss. -/
def ngGenerate (minimize : ((String → Option V) → ℚ) → (String → Option V) × ℚ) (objective : Option String) (fixed : Option (List (String × V)))
    (f : (String → Option V) → ℚ) (armCount : Nat) : NgRow V :=
  let f' := match fixed with
    | some (e :: l) => fun kw => f (callArgs (tuneGet (e :: l)) kw)
    | _ => f
  let r := minimize f'
  ⟨armCount, objective, r.2, r.1⟩

/-- `num_workers`, lines 1324-1330. -/
def ngWorkers (mp : Bool ⊕ Int) (cpus : Nat) : Int :=
  max (match mp with
    | .inl b => if b then (cpus : Int) else 1
    | .inr k => min (cpus : Int) k) 1

/-- The budget, lines 1331-1333. -/
def ngBudget (b : Int) : Int := if b < 0 then 100 else b

/-- `_LossTargetMetricCriterion.__call__`, lines 1223-1232, for a single objective. -/
def ngTargetReached (best : Option ℚ) (target : ℚ) : Bool :=
  match best with
  | none => false
  | some l => decide (l ≤ target)

/-! ### The factory -/

/-- `SearchMethodEnum`, `kats/consts.py` lines 1346-1356. -/
inductive SearchMethod where
  | grid | uniform | sobol | bayes | nevergrad
deriving DecidableEq

/-- `SearchMethodOptions` and what the subclasses add, lines 637-645, 925-935 and 1210-1216; `ng` says which subclass. -/
structure TuneOpts where
  experimentName : Option String := none
  objectiveName : Option String := some "objective"
  constraints : Option (List String) := none
  mp : Bool ⊕ Int := .inl false
  seed : Option Int := none
deriving DecidableEq

/-- The arguments of `create_search_method` but for the parameters and the method. -/
structure TuneArgs where
  experimentName : Option String := none
  objectiveName : Option String := none
  constraints : Option (List String) := none
  seed : Option Int := none
  evaluation : Bool := false
  mp : Bool := false
  options : Option TuneOpts := none

/-- What a search was set up with: the names, constraints, processes and the seed given to the generator of arms (`none` if there is
no seed for it); `strategy` is the generator, and `bootstrapped` says that arms have been evaluated. -/
structure SearchCfg where
  method : SearchMethod
  experimentName : String
  objectiveName : String
  constraints : Option (List String)
  mp : Int
  seed : Option Int
  bootstrapped : Bool
deriving DecidableEq

/-- `x if x else default`, lines 343-349. -/
def orName (o : Option String) (d : String) : String :=
  match o with
  | some s => if s = "" then d else s
  | none => d

/-- The constructor of the base class, lines 315-371, as far as the names go; `job` is `job_id`, `now` the time. -/
def baseCfg (job : String) (m : SearchMethod) (en on : Option String) (c : Option (List String)) (mp : Bool ⊕ Int) (seed : Option Int) (boot : Bool) : SearchCfg :=
  ⟨m, orName en ("parameter_tuning_" ++ job), orName on ("objective_" ++ job), c, mpInt mp, seed, boot⟩

/-- `SearchMethodFactory.create_search_method`, lines 658-757, with the constructors of the searches, lines 780-802, 855-898, 971-1040,
1076-1094 and 1297-1357: the search and what becomes of the options of the caller.  The parameters have been accepted. -/
def createSearch (job : String) (now : Int) (m : SearchMethod) (a : TuneArgs) : Except Err (SearchCfg × Option TuneOpts) :=
  match m with
  | .grid => .ok (baseCfg job .grid a.experimentName a.objectiveName a.constraints (.inl a.mp) none false, a.options)
  | .uniform => .ok (baseCfg job .uniform a.experimentName a.objectiveName a.constraints (.inl a.mp) (some (a.seed.getD now)) false, a.options)
  | .sobol => .ok (baseCfg job .sobol a.experimentName a.objectiveName a.constraints (.inl a.mp) (some (a.seed.getD now)) false, a.options)
  | .bayes =>
    if a.evaluation = false then .error .otherError
    else match a.options with
      | some o => .ok (baseCfg job .bayes o.experimentName o.objectiveName o.constraints o.mp none false, some { o with seed := some (o.seed.getD now) })
      | none => .ok (baseCfg job .bayes a.experimentName a.objectiveName a.constraints (.inl a.mp) (some (a.seed.getD now)) true, none)
  | .nevergrad =>
    let o := a.options.getD {}
    let o := { o with objectiveName := a.objectiveName.or o.objectiveName, mp := .inl a.mp, seed := a.seed.or o.seed }
    .ok (baseCfg job .nevergrad o.experimentName o.objectiveName o.constraints o.mp none false, a.options.map fun _ => o)

/-- The constructor of `SearchForMultipleSpaces`, lines 1385-1425: one search for each name. -/
def createMulti (job : String → String) (now : Int) (m : SearchMethod) (names : List String) (en on : Option String) (seed : Option Int) :
    Except Err (List (String × SearchCfg)) :=
  names.mapM fun n => do
    let r ← createSearch (job n) now m { experimentName := en, objectiveName := on, seed := seed }
    pure (n, r.1)

/-- `SearchForMultipleSpaces.list_parameter_value_scores`, lines 1449-1475: one table, or all of them. -/
def listMulti {T : Type} (d : List (String × T)) (selected : Option String) : Except Err (T ⊕ List (String × T)) :=
  match selected with
  | some s => if s = "" then .ok (.inr d) else (needKey (tuneGet d s)).map .inl
  | none => .ok (.inr d)

/-! ### Default search spaces -/

noncomputable section

/-- `np.logspace(a, b, n)` for `n ≥ 2`. -/
def logspace (a b : ℝ) (n : Nat) : List ℝ := (List.range n).map fun i : Nat => (10 : ℝ) ^ (a + i * ((b - a) / ((n : ℝ) - 1)))

/-- The learning rates of `get_default_lightgbm_parameter_search_space`, lines 412-418 of `parameter_tuning_utils.py` (`np.logspace`
gives 50 numbers by default). -/
def lightgbmRates : List ℝ := logspace (1 / 1000) (4 / 5) 50

/-- `seasonality_prior_scale` of `get_default_prophet_parameter_search_space`, lines 45-51. -/
def prophetScales : List ℝ := logspace (-2) 1 10

end

end Kats

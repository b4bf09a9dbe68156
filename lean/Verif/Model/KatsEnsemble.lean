import Verif.Model.Ensemble

/-!
# `kats/models/ensemble/kats_ensemble.py`: `KatsEnsemble`

Parameters of the model: the seasonality detector's answer, the seasonal component found by the
decomposition, what a base model forecasts when fitted on given values, and its backtest error on the
original data.  A model's key is its name and whether it is an extra `_smodel` (names given by the
user do not contain `_smodel`).  The time column (C78) and custom executors are not modelled.
-/

namespace Kats

/-- The forecast frame of a base model: `fcst` and, if the model has them, `fcst_lower`/`fcst_upper`. -/
structure BasePred where
  fcst : List Rat
  ci : Option (List Rat × List Rat)
deriving DecidableEq

/-- A frame of `self.predicted`: the bounds may be missing columns or contain NaN. -/
structure FullPred where
  fcst : List Rat
  ci : Option (List (Option Rat) × List (Option Rat))
deriving DecidableEq

inductive Decomp where
  | additive | multiplicative
deriving DecidableEq

/-- Adding or multiplying the seasonal component. -/
def Decomp.op : Decomp → Rat → Rat → Rat
  | .additive, a, b => a + b
  | .multiplicative, a, b => a * b

/-- 186-189: the de-seasonalized values. -/
def Decomp.remove : Decomp → List Rat → List Rat → List Rat
  | .additive, xs, sea => List.zipWith (· - ·) xs sea
  | .multiplicative, xs, sea => List.zipWith (· / ·) xs sea

/-- 216-217 and `np.tile(seasonality_unit, rep)[:steps]`. -/
def seasonTile (sea : List Rat) (m steps : Nat) : List Rat :=
  ((List.replicate (1 + steps / m) (pyFrom sea (-(m : Int)))).flatten).take steps

/-- 219-282: one frame.  Without bounds of its own the model gets NaN bounds (246-247) or, for the
multiplicative decomposition, zero bounds (278-279). -/
def reseasonOne (dm : Decomp) (s : List Rat) (p : BasePred) : FullPred :=
  { fcst := List.zipWith dm.op p.fcst s
    ci := some (match p.ci with
      | some (l, u) => ((List.zipWith dm.op l s).map some, (List.zipWith dm.op u s).map some)
      | none =>
        let d : Option Rat := match dm with
          | .additive => none
          | .multiplicative => some 0
        (p.fcst.map fun _ => d, p.fcst.map fun _ => d)) }

/-- A frame as the base model returned it. -/
def rawPred (p : BasePred) : FullPred :=
  { fcst := p.fcst, ci := p.ci.map fun c => (c.1.map some, c.2.map some) }

/-- 451-458, 563-570: NaN bounds for a model without bounds. -/
def dummyCI (p : FullPred) : FullPred :=
  match p.ci with
  | some _ => p
  | none => { p with ci := some (p.fcst.map fun _ => none, p.fcst.map fun _ => none) }

/-- The parameters (98-146). -/
structure KCfg (P : Type) where
  models : List (String × P)
  decomp : Decomp
  /-- `seasonality_length` -/
  period : Option Nat
  weighted : Bool

/-- The external parts. -/
structure KWorld (P : Type) where
  data : List Rat
  seasonal : Bool
  /-- seasonal component of the decomposition of `data` -/
  season : List Rat
  /-- forecast of a model fitted on the given values -/
  run : P → List Rat → Nat → BasePred
  /-- backtest error on `data` by error method (804-814) -/
  backtest : P → String → Rat

/-- Key of a model: name, and whether it is the extra seasonal model. -/
abbrev KKey := String × Bool

/-- 64-68: models that can fit seasonal data. -/
def isSModel (name : String) : Bool := decide (name.toLower ∈ ["prophet", "theta"])

/-- 123-130: validation of `seasonality_length`. -/
def KCfg.validate {P : Type} (c : KCfg P) (w : KWorld P) : Except Err Unit :=
  match c.period with
  | some m => if m > w.data.length / 2 then .error .valueError else .ok ()
  | none => .ok ()

def KCfg.plainKeys {P : Type} (c : KCfg P) : List (KKey × P) := c.models.map fun m => ((m.1, false), m.2)

/-- 373-377, 521-525: the extra models. -/
def KCfg.extraKeys {P : Type} (c : KCfg P) : List (KKey × P) :=
  (c.models.filter fun m => isSModel m.1).map fun m => ((m.1, true), m.2)

def KWorld.desea {P : Type} (w : KWorld P) (c : KCfg P) : List Rat := c.decomp.remove w.data w.season

/-- Errors by key as a dictionary (839-851). -/
def KWorld.errors {P : Type} (w : KWorld P) (method : String) (ks : List (KKey × P)) :
    List (KKey × Rat) := dictOf (ks.map fun k => (k.1, w.backtest k.2 method))

/-- 348-351, 482-485: the period a seasonal series needs; dividing by a zero period raises
ZeroDivisionError (216). -/
def KCfg.needPeriod {P : Type} (c : KCfg P) : Except Err Nat :=
  match c.period with
  | none => .error .valueError
  | some 0 => .error .otherError
  | some m => .ok m

/-- Result of `fit` or `forecast`: frames and weights. -/
structure KResult where
  predicted : List (KKey × FullPred)
  weights : Option (List (KKey × Rat))
deriving DecidableEq

/-- 338-396 and 400-460: `fit(err_method)` followed by `predict(steps)`.  In the seasonal case all
models, also the extra ones, are fitted on the de-seasonalized data (380-384), the call of the
executor does not pass `err_method`, and the extra models' forecasts are used as they are (434-441). -/
def KWorld.fitPredict {P : Type} (w : KWorld P) (c : KCfg P) (errMethod : String) (steps : Nat) :
    Except Err KResult :=
  if w.seasonal then do
    let m ← c.needPeriod
    let given := c.plainKeys ++ c.extraKeys
    let fitted := dictOf (given.map fun k => (k.1, w.run k.2 (w.desea c) steps))
    let weights := if c.weighted then some (errWeights (w.errors "mape" given)) else none
    let s := seasonTile w.season m steps
    let desea := (fitted.filter fun k => !k.1.2).map fun k => (k.1, reseasonOne c.decomp s k.2)
    let extra := (fitted.filter fun k => k.1.2).map fun k => (k.1, rawPred k.2)
    pure { predicted := dictUpdate desea extra, weights := weights }
  else
    let fitted := dictOf (c.plainKeys.map fun k => (k.1, w.run k.2 w.data steps))
    let weights := if c.weighted then some (errWeights (w.errors errMethod c.plainKeys)) else none
    .ok { predicted := fitted.map fun k => (k.1, dummyCI (rawPred k.2)), weights := weights }

/-- 462-587: `forecast(steps)`. -/
def KWorld.forecast {P : Type} (w : KWorld P) (c : KCfg P) (steps : Nat) : Except Err KResult :=
  if w.seasonal then do
    let m ← c.needPeriod
    let s := seasonTile w.season m steps
    let desea := (dictOf (c.plainKeys.map fun k => (k.1, w.run k.2 (w.desea c) steps))).map
      fun k => (k.1, reseasonOne c.decomp s k.2)
    let extra := (dictOf (c.extraKeys.map fun k => (k.1, w.run k.2 w.data steps))).map
      fun k => (k.1, rawPred k.2)
    let err := dictUpdate (w.errors "mape" c.plainKeys) (w.errors "mape" c.extraKeys)
    pure { predicted := dictUpdate desea extra
           weights := if c.weighted then some (errWeights err) else none }
  else
    let pred := dictOf (c.plainKeys.map fun k => (k.1, w.run k.2 w.data steps))
    .ok { predicted := pred.map fun k => (k.1, dummyCI (rawPred k.2))
          weights := if c.weighted then some (errWeights (w.errors "mape" c.plainKeys)) else none }

/-- One row of the aggregated forecast (680-710): `fcst`, `fcst_lower`, `fcst_upper`. -/
structure AggRow where
  fcst : Option Rat
  lower : Option Rat
  upper : Option Rat
deriving DecidableEq

/-- 737-739, `clean_dummy_CI(use_zero=False)`: zero becomes NaN. -/
def zeroToNan (x : Option Rat) : Option Rat := if x = some 0 then none else x

/-- 650-713, `aggregate`; a frame without bounds raises KeyError (674).  `wts = none` is the median
method. -/
def aggregate (predicted : List FullPred) (wts : Option (List Rat)) (steps : Nat) :
    Except Err (List AggRow) := do
  let cis ← predicted.mapM fun p => p.ci.elim (.error .keyError) .ok
  let f := fun j => predicted.map fun p => p.fcst.getD j 0
  let lo := fun j => cis.map fun c => c.1.getD j none
  let up := fun j => cis.map fun c => c.2.getD j none
  match wts with
  | none =>
    pure ((List.range steps).map fun j =>
      { fcst := nanmedian ((f j).map some), lower := nanmedian ((lo j).map zeroToNan)
        upper := nanmedian ((up j).map zeroToNan) })
  | some ws =>
    if (List.range steps).any fun j => (lo j).any (·.isNone) || (up j).any (·.isNone) then
      .error .valueError
    else if ws.length ≠ predicted.length then .error .valueError
    else
      pure ((List.range steps).map fun j =>
        { fcst := some (dotRow (f j) ws), lower := some (dotRow ((lo j).map (·.getD 0)) ws)
          upper := some (dotRow ((up j).map (·.getD 0)) ws) })

end Kats

import Verif.Model.Decomposition
import Verif.Model.PolyModel

/-!
# `kats/models/stlf.py`

Values are reals, `none` is NaN.  The decomposition is that of `Model/Decomposition.lean`; the forecasting model of the
remaining component is a parameter, which `polyInner` gives for the linear and the quadratic model.
-/

namespace Kats

open Classical

noncomputable section

/-- `MODELS`, line 54. -/
def stlfModels : List String := ["prophet", "linear", "quadratic", "theta", "simple"]

/-- The forecast of the model of the remaining component: its column `fcst` and, if it has both, its columns `fcst_lower`
and `fcst_upper`. -/
structure InnerFcst where
  fcst : List (Option ℝ)
  bounds : Option (List (Option ℝ) × List (Option ℝ))

/-- `fit` and `predict(steps, include_history)` of a forecasting model on times and values. -/
abbrev InnerModel := List Int → List (Option ℝ) → Nat → Bool → Except Err InnerFcst

/-- What the class calls: the decomposition and the forecasting models by name (with their parameters). -/
structure StlfWorld where
  dec : DecWorld
  inner : String → InnerModel

/-- The linear or quadratic model as the inner model; a NaN in the data makes all its forecasts NaN. -/
def polyInner (W : PolyWorld) (k : PolyKind) (alpha : ℝ) (f : DateFreq) : InnerModel := fun times vals steps hist =>
  if vals.all Option.isSome then
    (polyRun W k alpha f times (vals.map fun o => o.getD 0) steps hist).map fun rows =>
      ⟨rows.map fun r => some r.fcst, some (rows.map (·.lower), rows.map (·.upper))⟩
  else
    let nan := (polyDates f times steps hist).map fun _ => none
    .ok ⟨nan, some (nan, nan)⟩

/-- `STLFParams`; the parameters of the method are part of `StlfWorld.inner`.  `m` is not negative here: a negative
period is refused by STL. -/
structure StlfParams where
  method : String
  m : Nat
  methodParamsGiven : Bool := false
  decomposition : String := "multiplicative"
  args : StlArgs := {}

/-- `validate_params`, lines 124-148: the decomposition is looked at only if no parameters of the method are given. -/
def StlfParams.validate (p : StlfParams) : Except Err Unit :=
  if p.method ∉ stlfModels then .error .valueError
  else if p.methodParamsGiven then .ok ()
  else if p.decomposition ∉ ["additive", "multiplicative"] then .error .valueError
  else .ok ()

/-- The model after `__init__`: whether it is multiplicative. -/
structure StlfModel where
  params : StlfParams
  mult : Bool
  times : List Int
  values : List ℝ

/-- `STLFModel.__init__`, lines 194-217. -/
def stlfInit (p : StlfParams) (columns : Nat) (times : List Int) (values : List ℝ) : Except Err StlfModel :=
  if columns ≠ 1 then .error .valueError
  else if p.m > values.length then .error .valueError
  else if p.decomposition = "multiplicative" then .ok ⟨p, true, times, values⟩
  else if p.decomposition = "additive" then .ok ⟨p, false, times, values⟩
  else .error .otherError

/-- `deseasonal_operator`, lines 211 and 216.  (The components are exponentials in the multiplicative case, never 0.) -/
def deseasonOp (mult : Bool) : Option ℝ → Option ℝ → Option ℝ
  | some a, some b => some (if mult then a / b else a - b)
  | _, _ => none

/-- `reseasonal_operator`, lines 213 and 217. -/
def reseasonOp (mult : Bool) : Option ℝ → Option ℝ → Option ℝ
  | some a, some b => some (if mult then a * b else a + b)
  | _, _ => none

/-- `deseasonalize`, lines 219-260: the components and the deseasonalised data. -/
def stlfDeseason (W : StlfWorld) (s : StlfModel) : Except Err (Comps × List (Option ℝ)) := do
  let cfg ← decInit 1 s.params.decomposition "STL" { s.params.args with period := some (s.params.m : Int) }
  let c ← decompose W.dec cfg s.times (s.values.map some)
  pure (c, List.zipWith (deseasonOp s.mult) (s.values.map some) c.seasonal)

/-- The state after `fit`: the components and the data given to the inner model. -/
structure StlfFitted where
  comps : Comps
  inner : List (Option ℝ)

/-- `fit`, lines 263-307: the simple heuristic forecasts the trend, the others the deseasonalised data. -/
def stlfFit (W : StlfWorld) (s : StlfModel) : Except Err StlfFitted := do
  let (c, d) ← stlfDeseason W s
  pure ⟨c, if s.params.method = "simple" then c.trend else d⟩

/-- `np.tile(seasonality, rep)[: rows]`, lines 346-349 and 357: the last `m` seasonal values over and over. -/
def stlfTile (m : Nat) (seasonal : List (Option ℝ)) (rows : Nat) : List (Option ℝ) :=
  ((List.replicate (1 + rows / m) (pyFrom seasonal (-(m : Int)))).flatten).take rows

/-- A row of the forecast. -/
structure StlfRow where
  time : Int
  fcst : Option ℝ
  lower : Option ℝ
  upper : Option ℝ

/-- `predict`, lines 311-402.  The frequency is the one passed in or inferred; it is not passed on to the inner model.
`m = 0` divides by zero. -/
def stlfPredict (W : StlfWorld) (f : DateFreq) (s : StlfModel) (fitted : Option StlfFitted) (steps : Nat) (hist : Bool) :
    Except Err (List StlfRow) :=
  match fitted with
  | none => .error .valueError
  | some ft => do
    let fc ← W.inner s.params.method s.times ft.inner steps hist
    if s.params.m = 0 then .error .otherError
    else
      let tile := stlfTile s.params.m ft.comps.seasonal fc.fcst.length
      let re := fun col : List (Option ℝ) => List.zipWith (reseasonOp s.mult) col tile
      let nones := fc.fcst.map fun _ => (none : Option ℝ)
      let lower := (fc.bounds.map fun b => re b.1).getD nones
      let upper := (fc.bounds.map fun b => re b.2).getD nones
      let rows ← mkFcst (polyDates f s.times steps hist) ((re fc.fcst).zip (lower.zip upper))
      pure (rows.map fun r => ⟨r.1, r.2.1, r.2.2.1, r.2.2.2⟩)

/-- Parameters, model, `fit` and `predict`. -/
def stlfRun (W : StlfWorld) (f : DateFreq) (p : StlfParams) (columns : Nat) (times : List Int) (values : List ℝ)
    (steps : Nat) (hist : Bool) : Except Err (List StlfRow) := do
  p.validate
  let s ← stlfInit p columns times values
  let ft ← stlfFit W s
  stlfPredict W f s (some ft) steps hist

end

end Kats

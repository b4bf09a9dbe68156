import Verif.Model.EmpCi
import Verif.Model.Arima

/-!
# `kats/models/holtwinters.py` and `kats/models/var.py`

The wrappers around exponential smoothing and vector autoregression of statsmodels, whose estimates and forecasts are
parameters.  The backtests that the empirical interval of Holt-Winters needs are a parameter too; the interval itself is
the one of `emp_confidence_int.py`.  `TimeSeriesData(v)` of the frames of VAR (`var.py` 224), which are in the order of
time, is the frame.
-/

namespace Kats

noncomputable section

/-- `HoltWintersParams`, lines 34-68. -/
structure HwParams where
  trend : Option String
  damped : Bool
  seasonal : Option String
  periods : Option Nat
deriving DecidableEq

/-- The names of components in lines 89 and 95. -/
def hwNames : List (Option String) := [some "add", some "mul", some "additive", some "multiplicative", none]

/-- `HoltWintersParams.validate_params`, lines 80-99. -/
def hwValidate (p : HwParams) : Except Err HwParams :=
  if p.trend ∉ hwNames then .error .valueError
  else if p.seasonal ∉ hwNames then .error .valueError
  else .ok p

/-- What statsmodels does: `fit` is lines 132-141, `forecast` and `history` (with its first and last number) are lines
211 and 218. -/
structure HwLib (F : Type) where
  fit : List ℝ → HwParams → Except Err F
  forecast : F → Nat → List ℝ
  history : F → Nat → Nat → List ℝ

/-- A `HoltWintersModel`. -/
structure HwModel (F : Type) where
  times : List Int
  values : List ℝ
  params : HwParams
  model : Option F

variable {F : Type}

/-- `HoltWintersModel.__init__`, lines 117-125. -/
def hwInit (times : List Int) (columns : List (List ℝ)) (p : HwParams) : Except Err (HwModel F) :=
  match columns with
  | [v] => .ok ⟨times, v, p, none⟩
  | _ => .error .valueError

/-- `HoltWintersModel.fit`, lines 127-142. -/
def hwFit (L : HwLib F) (M : HwModel F) : Except Err (HwModel F) := do
  let f ← L.fit M.values M.params
  .ok { M with model := some f }

/-- The keyword arguments of `predict` for the interval, lines 179-188. -/
structure HwCi where
  alpha : ℝ
  errors : List String
  train : ℝ
  test : ℝ
  sliding : Option Int

/-- Lines 211-213: the forecasts at `dates`. -/
def hwFrame (L : HwLib F) (f : F) (dates : List Int) (steps : Nat) : Except Err (List (Int × ℝ)) :=
  mkFcst dates (L.forecast f steps)

/-- `HoltWintersModel.predict`, lines 146-236.  With an interval the model is fitted again by `get_eci`, which is called
without a frequency (208) and for which that is daily; its `predict` is the one without an interval. -/
def hwPredict (L : HwLib F) (infer : List Int → Except Err (Option DateFreq)) (ppf : ℝ → ℝ)
    (pinv : List (List ℝ) → List ℝ → List ℝ) (cv : List String → EciParams → Except Err (List (List ℝ)))
    (M : HwModel F) (steps : Nat) (history : Bool) (freq : Option (Option DateFreq)) (ci : Option HwCi) :
    Except Err (List FcstRow) :=
  match M.model with
  | none => .error .valueError
  | some f => do
    let fr ← (match freq with
      | none => infer M.times
      | some g => .ok g)
    let last := maxTime (M.times.map fun t => (t, 0))
    let fc ← (match ci with
      | none => do
        let rows ← hwFrame L f (futureDates (fr.getD daily) last steps) steps
        .ok (rows.map fun r => ⟨r.1, r.2, none, none⟩)
      | some a => do
        let p ← eciInit ⟨a.train, a.test, a.sliding.getD (M.times.length / 5 : Nat), 1 - a.alpha⟩
        let raw ← cv a.errors p
        let g ← L.fit M.values M.params
        let rows ← hwFrame L g (futureDates daily last steps) steps
        getEci ppf pinv p raw rows steps)
    if history = true then do
      let h ← mkFcst M.times (L.history f 0 (M.times.length - 1))
      .ok (h.map (fun r => ⟨r.1, r.2, none, none⟩) ++ fc)
    else .ok fc

/-! ## VAR -/

/-- `VARParams`, lines 56-64: `maxlags` and the rest. -/
structure VarParams (R : Type) where
  maxlags : Option Nat
  rest : R

/-- What statsmodels does: `fit` is lines 113-123, `interval` (for each step a row of the columns) line 164 and `fitted`
the rows of `fittedvalues`. -/
structure VarLib (R F : Type) where
  fit : List (List (Option Rat)) → Nat → R → Except Err F
  interval : F → Nat → Rat → Except Err (List (List SmRow))
  fitted : F → List (List (Option Rat))

/-- A `VARModel`: its data, its results and `fcst_dict` with `dates`.  The parameters are an object that can be shared, and
therefore not part of it. -/
structure VarModel (F : Type) where
  times : List Int
  names : List String
  values : List (List (Option Rat))
  model : Option F
  fcst : Option (List Int × List (String × List FcRow))

variable {R : Type}

/-- `VARModel.__init__`, lines 93-101; `frame` tells whether the values are a data frame. -/
def varInit (times : List Int) (frame : Bool) (names : List String) (values : List (List (Option Rat))) :
    Except Err (VarModel F) :=
  if frame = true then .ok ⟨times, names, values, none, none⟩ else .error .valueError

/-- `int(12 * (n / 100.0) ** (1.0 / 4))`, line 109. -/
def varMaxlags (n : Nat) : Nat := ⌊12 * ((n : ℝ) / 100) ^ (1 / 4 : ℝ)⌋₊

/-- `VARModel.fit`, lines 103-128: the object of parameters afterwards, and the model. -/
def varFit (L : VarLib R F) (p : VarParams R) (M : VarModel F) : VarParams R × Except Err (VarModel F) :=
  let m := p.maxlags.getD (varMaxlags M.times.length)
  ({ p with maxlags := some m }, do
    let f ← L.fit M.values m p.rest
    .ok { M with model := some f })

/-- Column `i` of rows. -/
def varColumn {α : Type} (d : α) (i : Nat) (rows : List (List α)) : List α := rows.map fun r => r.getD i d

/-- Lines 170-171: all dates of `date_range` but the first. -/
def varDates (f : DateFreq) (last : Int) (steps : Nat) : List Int := (pdDateRange f last (steps + 1)).drop 1

/-- Lines 192-211: the rows of the past of column `i`; the times are the last ones, as many as there are fitted values. -/
def varHistory (times : List Int) (fitted : List (List (Option Rat))) (i : Nat) : Except Err (List FcRow) := do
  let l ← mkFcst (pyFrom times (-(fitted.length : Int))) (varColumn none i fitted)
  .ok (l.map fun r => ⟨r.1, r.2, none, none⟩)

/-- `VARModel.predict`, lines 132-225; the errors of 191-219 are `ValueError`s anyway. -/
def varPredict (L : VarLib R F) (infer : List Int → Except Err (Option DateFreq)) (M : VarModel F) (steps : Nat)
    (history : Bool) (freq : Option (Option DateFreq)) (alpha : Rat) :
    Except Err (List (String × List FcRow) × VarModel F) :=
  match M.model with
  | none => .error .valueError
  | some f => do
    let inferred ← infer M.times
    let fc ← L.interval f steps alpha
    let dates := varDates ((freq.getD inferred).getD daily) (maxTime (M.times.map fun t => (t, 0))) steps
    let dict ← M.names.zipIdx.mapM fun x => do
      let df ← smFrame dates (varColumn ⟨none, none, none⟩ x.2 fc)
      if history = true then
        let h ← varHistory M.times (L.fitted f) x.2
        Except.ok (x.1, h ++ df)
      else .ok (x.1, df)
    .ok (dict, { M with fcst := some (dates, dict) })

/-- `VARModel.plot`, lines 227-274: the columns in the chart; it has two axes, and a line needs as many dates as values. -/
def varPlot (M : VarModel F) (ax : Bool) : Except Err (List String) :=
  match M.fcst with
  | none => .error .valueError
  | some (dates, dict) =>
    if ax = true then .error .valueError
    else (dict.take 2).mapM fun x => if dates.length = x.2.length then .ok x.1 else .error .valueError

end

end Kats

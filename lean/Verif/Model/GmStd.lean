import Verif.Model.GmPredict
import Verif.Model.GmParam

/-!
# `kats/models/globalmodel/stdmodel.py`

`STDGlobalModel`: a global model for series whose seasonality is taken out before and put back after.  What is called
is a parameter: the decompositions, `freq_to_period` and `predict` of the global model.  Values are exact and may be
missing; the seasonality has no missing value and as many values as the series (pandas would align them otherwise).
The number of steps is a natural number.  Parallel work, copies of objects and the parameters of the decomposition
are left out.
-/

namespace Kats

/-- What is called: `freq_to_period` of statsmodels; the trend and the seasonality of a series that
`TimeSeriesDecomposition` gives, by whether it is multiplicative and by its method; and of a Prophet model the trend
and the terms of the series and the terms of the steps after it. -/
structure GmStdWorld where
  freqToPeriod : Int → Except Err Int
  decompose : Bool → String → GmTs → Except Err (List (Option Rat) × List Rat)
  prophet : Bool → GmTs → Except Err (List (Option Rat) × List Rat × (Nat → List Rat))

/-- The arguments (51-66) without those that `__init__` only keeps; `freq` is the frequency of the parameters, if
there are any. -/
structure GmStdArgs where
  decomposition : String
  model : String
  fitTrend : Bool
  fitOriginal : Bool
  period : Option Int
  maxCore : Option GmNum
  freq : Option Int

/-- The attributes (67-102). -/
structure GmStd where
  mult : Bool
  model : String
  fitTrend : Bool
  fitOriginal : Bool
  period : Option Int
  maxCore : Nat
deriving DecidableEq

/-- `_get_period` (117-134). -/
def gmStdPeriod (W : GmStdWorld) (model : String) (freq : Option Int) (period : Option Int) : Option Int :=
  match period with
  | some p => some p
  | none =>
    if model = "stl" ∨ model = "seasonal_decompose" then
      match freq with
      | none => some 7
      | some f =>
        match W.freqToPeriod f with
        | .ok p => some p
        | .error _ => some 7
    else none

/-- The number of cores (77-85). -/
def gmStdCores (cores : Nat) (c : Option GmNum) : Nat :=
  let d := max ((cores - 1) / 2) 1
  match c with
  | none => d
  | some c => if c.isInt && gmLt (.fin 0) c.val && gmLe c.val (.fin cores) then c.toInt.toNat else d

/-- `__init__` (51-102); a failed `assert` is another error. -/
def gmStdInit (W : GmStdWorld) (cores : Nat) (a : GmStdArgs) : Except Err GmStd :=
  let d := a.decomposition.toLower
  let m := a.model.toLower
  if d = "multiplicative" ∨ d = "additive" then
    .ok ⟨d == "multiplicative", m, a.fitTrend, a.fitOriginal, gmStdPeriod W m a.freq a.period, gmStdCores cores a.maxCore⟩
  else .error .otherError

/-- `load_global_model` (104-115): the attributes stay as they are; the parameters are those of the loaded model. -/
def gmStdLoad (g : GmStd) (freq : Int) : GmStd × Option Int := (g, some freq)

/-- `np.tile(s[-period:], 1 + steps // period)[:steps]` (217-222). -/
def gmStdTile (period : Option Int) (steps : Nat) (s : List Rat) : Except Err (List Rat) :=
  match period with
  | none => .error .typeError
  | some p =>
    if p = 0 then .error .otherError
    else
      let rep := 1 + (steps : Int).fdiv p
      if rep < 0 then .error .valueError
      else .ok (((List.replicate rep.toNat (pyFrom s (-p))).flatten).take steps)

/-- `_decompose` (136-180) and `_predict_seasonality` (195-224): the trend, the seasonality and the seasonality of
the steps after the series. -/
def gmStdSeason (W : GmStdWorld) (g : GmStd) (steps : Nat) (ts : GmTs) :
    Except Err (List (Option Rat) × List Rat × Except Err (List Rat)) :=
  if g.model = "prophet" then do
    let r ← W.prophet g.mult ts
    let shift := fun x : Rat => if g.mult then x + 1 else x
    return (r.1, r.2.1.map shift, .ok ((r.2.2 steps).map shift))
  else do
    let r ← W.decompose g.mult g.model ts
    return (r.1, r.2, gmStdTile g.period steps r.2)

/-- `deseasonal_operator` (93, 98) on a value that may be missing. -/
def gmStdOff (mult : Bool) (v : Option Rat) (s : Rat) : Option Rat := v.map fun v => if mult then v / s else v - s

/-- `reseasonal_operator` (95, 100). -/
def gmStdOn (mult : Bool) (v s : Rat) : Rat := if mult then v * s else v + s

/-- `_deseasonal` (182-193): the series that the global model is given; its type is no longer that of integers if
its values are new. -/
def gmStdSeries (g : GmStd) (trend : List (Option Rat)) (seasonal : List Rat) (t : Bool × GmTs) : Bool × GmTs :=
  if g.fitTrend then (false, List.zipWith (fun r v => (r.1, v)) t.2 trend)
  else if g.fitOriginal then t
  else (false, List.zipWith (fun r s => (r.1, gmStdOff g.mult r.2 s)) t.2 seasonal)

/-- `_prepare_ts` (226-232). -/
def gmStdPrepare (W : GmStdWorld) (g : GmStd) (steps : Nat) (e : GmKey × Bool × GmTs) :
    Except Err (GmKey × (Bool × GmTs) × List Rat) := do
  let r ← gmStdSeason W g steps e.2.2
  let s ← r.2.2
  return (e.1, gmStdSeries g r.1 r.2.1 e.2, s)

/-- `_reseasonal` (234-241): the seasonality of a step is put on all columns; pandas uses the only row of an array
for every row of a frame. -/
def gmStdReseason (g : GmStd) (t : GmTable Rat) (s : List Rat) : Except Err (GmTable Rat) :=
  if t.names.isEmpty then .error .valueError
  else if s.length ≠ t.rows.length then
    match s with
    | [x] => .ok { t with rows := t.rows.map fun r => r.map fun v => gmStdOn g.mult v x }
    | _ => .error .valueError
  else .ok { t with rows := List.zipWith (fun r x => r.map fun v => gmStdOn g.mult v x) t.rows s }

/-- `predict` (243-299); `gm` is `predict` of the global model, if there is one. -/
def gmStdPredict (W : GmStdWorld) (g : GmStd)
    (gm : Option (List (GmKey × Bool × GmTs) → Nat → Except Err (List (GmKey × GmTable Rat)))) (data : GmColl)
    (steps : Nat) : Except Err (List (GmKey × GmTable Rat)) :=
  match gm with
  | none => .error .valueError
  | some f => do
    let prepared ← data.entries.mapM (gmStdPrepare W g steps)
    let fcsts ← f (gmUpdate [] (prepared.map fun e => (e.1, e.2.1))) steps
    let res ← prepared.mapM fun e => do
      let t ← gmLookup fcsts e.1
      let u ← gmStdReseason g t e.2.2
      return (e.1, u)
    return gmUpdate [] res

end Kats

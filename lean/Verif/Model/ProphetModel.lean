import Mathlib.Analysis.SpecialFunctions.Exp
import Mathlib.Data.List.Sort
import Verif.Model.Py

/-!
# `kats/models/prophet.py`

What Prophet does is a parameter or is written down from its documentation where it is needed (`make_future_dataframe`).  Steps of
time have a fixed length.  Numbers are reals, random draws are parameters.  Bounds given as `None` and `False` are the same; other
columns of the future frame of a caller are not modelled.
-/

namespace Kats

/-! ### Parameters and data -/

/-- `cap` and `floor`: `False` or `None`, `True` (a column of the data), or a number. -/
inductive PmBound where
  | off
  | fromData
  | value (x : ℚ)
deriving DecidableEq

/-- One dict of `extra_regressors`: its name and its other keys. -/
structure PmReg where
  name : Option String
  keys : List String

/-- `ProphetParams`: what is validated; a custom seasonality is the list of its keys, `none` is a regressor that is not a dict. -/
structure PmParams where
  growth : String := "linear"
  cap : PmBound := .off
  floor : PmBound := .off
  seasonalities : List (List String) := []
  regressors : List (Option PmReg) := []

/-- The loop over the regressors, lines 211-222, and the names, lines 223-225. -/
def pmRegs : List (Option PmReg) → Except Err (List String)
  | [] => .ok []
  | none :: _ => .error .valueError
  | some r :: l => match r.name with
    | none => .error .valueError
    | some n =>
      if r.keys.all (fun k => k = "prior_scale" ∨ k = "mode") then do
        let rest ← pmRegs l
        pure (n :: rest)
      else .error .valueError

/-- Lines 227-231. -/
def PmParams.capFloor (p : PmParams) : List String :=
  (if p.cap = .off then [] else ["cap"]) ++ (if p.floor = .off then [] else ["floor"])

/-- `validate_params`, lines 188-231: the names of the regressors that are required. -/
def PmParams.validate (p : PmParams) : Except Err (List String) :=
  if p.growth = "logistic" ∧ p.cap = .off then .error .valueError
  else if p.seasonalities.all (fun s => ["name", "period", "fourier_order"].all fun k => k ∈ s) then pmRegs p.regressors
  else .error .valueError

/-- The values of a series; NaN is `none`. -/
inductive PmVals where
  | uni (y : List (Option ℚ))
  | multi (cols : List (String × List (Option ℚ)))

/-- Lines 276-284, one bound; a series of one variable has no `columns`. -/
def pmBoundCheck (b : PmBound) (name : String) (v : PmVals) : Except Err Unit :=
  if b = .fromData then
    match v with
    | .uni _ => .error .attributeError
    | .multi cols => if cols.any (fun c => c.1 = name) then .ok () else .error .valueError
  else .ok ()

/-- `_data_params_validation`, lines 258-285. -/
def pmDataCheck (p : PmParams) (regs : List String) (v : PmVals) : Except Err Unit := do
  match v with
  | .uni _ => if regs ≠ [] then .error .valueError else pure ()
  | .multi cols =>
    if cols.any (fun c => c.1 = "y") = false then .error .valueError
    else if regs.all (fun r => cols.any fun c => c.1 = r) = false then .error .valueError
    else pure ()
  pmBoundCheck p.cap "cap" v
  pmBoundCheck p.floor "floor" v

/-- A column of the frame that Prophet is given. -/
inductive PmCol where
  | time
  | vals (y : List (Option ℚ))
  | const (x : ℚ)
deriving DecidableEq

/-- `df[name] = x` when the bound is a number, lines 296-301. -/
def pmSetBound (b : PmBound) (name : String) (df : List (String × PmCol)) : List (String × PmCol) :=
  match b with
  | .value x => (name, .const x) :: df.filter fun c => c.1 ≠ name
  | _ => df

/-- The lookup of a column. -/
def pmCol (df : List (String × PmCol)) (name : String) : Except Err (String × PmCol) :=
  match df.lookup name with
  | some c => .ok (name, c)
  | none => .error .keyError

/-- `_ts_to_df`, lines 287-307. -/
def pmFrame (p : PmParams) (regs : List String) (v : PmVals) : Except Err (List (String × PmCol)) :=
  let df : List (String × PmCol) := match v with
    | .uni y => [("ds", .time), ("y", .vals y)]
    | .multi cols => ("ds", .time) :: cols.map fun c => (c.1, .vals c.2)
  let df := pmSetBound p.floor "floor" (pmSetBound p.cap "cap" df)
  (regs ++ ["y", "ds"] ++ p.capFloor).mapM (pmCol df)

/-! ### The future frame -/

/-- Lines 318-321: the number of values at the end that are null; `iloc` raises if all are. -/
def pmTrailing (y : List (Option ℚ)) : Except Err Nat :=
  let c := (y.reverse.takeWhile Option.isNone).length
  if c = y.length then .error .indexError else .ok c

/-- `Prophet.make_future_dataframe` for steps of length `f`: `hist` are its `history_dates`. -/
def pmMakeFuture (hist : List Int) (periods : Nat) (f : Int) (withHistory : Bool) : List Int :=
  let last := hist.foldl max (hist.headD 0)
  let dates := (List.range periods).map fun i : Nat => last + f * ((i : Int) + 1)
  if withHistory then hist ++ dates else dates

/-- `future.merge(history, on=…, how="outer")`: the dates of both (the bounds agree). -/
def pmMerge (future history : List Int) : List Int := future ++ history.filter fun t => t ∉ future

/-- `_future_validation`, lines 309-368, when no frame is given; `times` and `v` are the series, `hist` the `history_dates`.
`isnull` of several columns has no truth value.  The dates of the frame. -/
def pmFuture (p : PmParams) (regs : List String) (times : List Int) (v : PmVals) (hist : List Int) (steps : Nat) (f : Int)
    (withHistory : Bool) : Except Err (List Int) :=
  match v with
  | .multi _ => .error .valueError
  | .uni y => do
    let c ← pmTrailing y
    let future := pmMakeFuture hist (steps + c) f withHistory
    if regs ≠ [] ∨ p.cap = .fromData ∨ p.floor = .fromData then .error .valueError
    else
      let known := ((times.zip y).filter fun r => r.2.isSome).map Prod.fst
      let future := if withHistory then pmMerge future known else future.filter fun t => times.foldl max (times.headD 0) < t
      let reqd := steps + (if withHistory then (y.filter Option.isSome).length else 0)
      if future.length < reqd then .error .valueError
      else pure ((future.insertionSort (· ≤ ·)).take reqd)

/-- `future[n] = b` when the bound is a number, lines 341-344: the columns. -/
def pmAddCol (b : PmBound) (n : String) (cols : List String) : List String :=
  match b with
  | .value _ => if n ∈ cols then cols else cols ++ [n]
  | _ => cols

/-- `_future_validation` for the frame of a caller: its columns, and its number of rows; the columns afterwards. -/
def pmGivenFuture (p : PmParams) (regs : List String) (_steps rows : Nat) (cols : List String) : Except Err (List String × Nat) :=
  if "ds" ∉ cols then .error .valueError
  else if regs.all (fun r => r ∈ cols) = false then .error .valueError
  else if p.cap = .fromData ∧ "cap" ∉ cols then .error .valueError
  else if p.floor = .fromData ∧ "floor" ∉ cols then .error .valueError
  else .ok (pmAddCol p.cap "cap" (pmAddCol p.floor "floor" cols), rows)

noncomputable section

/-! ### Uncertainty -/

/-- `half_margin`, lines 546-551: `None` and 0 give no margin. -/
def pmHalfMargin (scale : ℝ) (margin : Option ℝ) : ℝ := scale * margin.getD 0 / 2

/-- `predict_uncertainty`, lines 523-565, at one time: `pct` is `Prophet.percentile`, `col` are the draws. -/
def pmBand (pct : List ℝ → ℝ → ℝ) (width scale : ℝ) (margin : Option ℝ) (col : List ℝ) : ℝ × ℝ :=
  (pct col (100 * (1 - width) / 2) - pmHalfMargin scale margin, pct col (100 * (1 + width) / 2) + pmHalfMargin scale margin)

/-- `samp_per_iter`, lines 825-831. -/
def pmPerIter (samples iterations : Nat) : Nat := max 1 ⌈(samples : ℚ) / iterations⌉₊

/-- The rows of `sample_posterior_predictive`, lines 811-874, vectorized: those of `sample_model_vectorized`, for all iterations. -/
def pmPosterior (samples iterations : Nat) (draw : Nat → Nat → List ℝ) : List (List ℝ) :=
  (List.range iterations).flatMap fun i : Nat => (List.range (pmPerIter samples iterations)).map fun j : Nat => draw i j

/-- `predict`, lines 770-772: the forecast from trend and terms. -/
def pmYhat (trend multiplicative additive : ℝ) : ℝ := trend * (1 + multiplicative) + additive

/-- `sample_model_vectorized`, lines 776-808, one entry: `x` are the features, `beta` the coefficients, `sa` and `sm` say which
are additive and which multiplicative. -/
def pmSample (scale : ℝ) (x beta sa sm : List ℝ) (trend noise : ℝ) : ℝ :=
  let dot (s : List ℝ) : ℝ := (List.zipWith (· * ·) x (List.zipWith (· * ·) beta s)).sum
  trend * (1 + dot sm) + dot sa * scale + noise * scale

/-- `_piecewise_linear_vectorize`, lines 958-967, one entry: change points and their changes of slope. -/
def pmPiecewise (cps : List (ℝ × ℝ)) (k m t : ℝ) : ℝ :=
  let active := cps.filter fun c => decide (c.1 ≤ t)
  ((active.map Prod.snd).sum + k) * t + ((active.map fun c => c.2 * (-c.1)).sum + m)

/-- Random draws: `np.random.poisson`, `rand`, `uniform(0, 1)` and the Laplace distribution with scale 1. -/
structure PmDraws where
  poisson : ℝ → Nat → Nat
  rand : Nat → Nat → ℝ
  mask : Nat → Nat → ℝ
  laplace : Nat → Nat → ℝ

/-- The largest of the times, at least the first. -/
def pmMax (ts : List ℝ) : ℝ := ts.foldl max (ts.headD 0)

/-- The numbers of new change points, lines 1003-1011: one for each sample, and the largest. -/
def pmCounts (D : PmDraws) (s : Nat) (T : ℝ) (samples : Nat) : List Nat × Nat :=
  if 0 < (s : ℝ) * (T - 1) then
    let p := (List.range samples).map fun j : Nat => D.poisson (s * (T - 1)) j
    (p, p.foldl max 0)
  else ([], 0)

/-- Lines 1013-1036: the new change points of sample `j`: times in order, changes of slope muted by the mask. -/
def pmNewPoints (D : PmDraws) (T : ℝ) (lam : ℝ) (count most j : Nat) : List (ℝ × ℝ) :=
  let times := ((List.range most).map fun i : Nat => 1 + D.rand j i * (T - 1)).insertionSort (· ≤ ·)
  let deltas := (List.range most).map fun i : Nat => lam * D.laplace j i * (if D.mask j i * most < count then 1 else 0)
  times.zip deltas

/-- `np.mean(np.abs(deltas)) + 1e-8` -/
def pmScale (cps : List (ℝ × ℝ)) : ℝ := (cps.map fun c => |c.2|).sum / cps.length + 1 / 100000000

/-- `sample_linear_predictive_trend_vectorize`, lines 970-1041: one row of trend for each sample. -/
def pmLinearTrend (D : PmDraws) (cps : List (ℝ × ℝ)) (k m scale : ℝ) (ts floors : List ℝ) (samples : Nat) : List (List ℝ) :=
  let T := pmMax ts
  let counts := pmCounts D cps.length T samples
  (List.range samples).map fun j : Nat =>
    let all := if 0 < counts.2 then cps ++ pmNewPoints D T (pmScale cps) (counts.1.getD j 0) counts.2 j else cps
    List.zipWith (fun t fl => pmPiecewise all k m t * scale + fl) ts floors

/-- `_make_trend_shift_matrix`, lines 700-715, one row: shifts where a change was drawn, each spread over two steps. -/
def pmShiftRow (shift : Nat → ℝ) (change : Nat → Bool) (len : Nat) : List ℝ :=
  let s (i : Nat) : ℝ := if change i then shift i else 0
  (List.range len).map fun i : Nat => ((if i = 0 then 0 else s (i - 1)) + s i) / 2

/-- `np.arange(0, 1 + single_diff, single_diff)`, line 886. -/
def pmGrid (d : ℝ) : List ℝ := (List.range ⌈(1 + d) / d⌉₊).map fun i : Nat => (i : ℝ) * d

/-- `np.where(prev_time > changepoint)[0][0]`, lines 888-889. -/
def pmGridIdx (d c : ℝ) : Except Err Nat :=
  match (pmGrid d).findIdx? fun t => decide (c < t) with
  | some i => .ok i
  | none => .error .indexError

/-- `_make_historical_mat_time`, lines 877-893, one row: later change points overwrite earlier ones at the same place. -/
def pmHistRow (d : ℝ) (cps : List (ℝ × ℝ)) : Except Err (List ℝ) := do
  let idx ← cps.mapM fun c => pmGridIdx d c.1
  pure ((idx.zip (cps.map Prod.snd)).foldl (fun r p => r.set p.1 p.2) (List.replicate (pmGrid d).length 0))

/-- `_ffill`, lines 920-924: zeros are replaced by the last number that is not. -/
def pmFfill : ℝ → List ℝ → List ℝ
  | _, [] => []
  | last, x :: l => let y := if x = 0 then last else x; y :: pmFfill y l

/-- `k_cum`, lines 939-942: the rates after the changes, 0 where there is none. -/
def pmRates (k : ℝ) (mat : List ℝ) : List ℝ :=
  k :: (List.range mat.length).map fun i : Nat => if mat.getD i 0 = 0 then 0 else (mat.take (i + 1)).sum + k

/-- `gammas`, lines 944-948: `kb` are the filled rates, `acc` the sum so far. -/
def pmGammas (m : ℝ) : ℝ → List ℝ → List ℝ → List ℝ
  | acc, t :: ts, k0 :: k1 :: ks =>
    let g := (t - m - acc) * (1 - k0 / k1)
    g :: pmGammas m (acc + g) ts (k1 :: ks)
  | _, _, _ => []

/-- Lines 949-952 for one row: rate, offset and trend at the last `n` times. -/
def pmLogisticRow (k m : ℝ) (mat times caps : List ℝ) (n : Nat) : List ℝ :=
  let g := pmGammas m 0 times (pmFfill 0 (pmRates k mat))
  let kt := (List.range mat.length).map fun i : Nat => (mat.take (i + 1)).sum + k
  let mt := (List.range g.length).map fun i : Nat => (g.take (i + 1)).sum + m
  let last (l : List ℝ) : List ℝ := l.drop (l.length - n)
  List.zipWith (fun cap p => cap / (1 + Real.exp (-p.1 * (p.2.1 - p.2.2)))) caps ((last kt).zip ((last times).zip (last mt)))

/-- `sample_trends - sample_trends.mean(axis=0)`, line 955. -/
def pmCentre (n : Nat) (rows : List (List ℝ)) : List (List ℝ) :=
  rows.map fun r => (List.range n).map fun i : Nat => r.getD i 0 - (rows.map fun r => r.getD i 0).sum / rows.length

/-- `_sample_trend_uncertainty`, lines 622-697: `ts` are the times, `future` gives the rows for the times after 1. -/
def pmTrendUncertainty (ts : List ℝ) (samples : Nat) (future : List ℝ → List (List ℝ)) : List (List ℝ) :=
  if ts.getLastD 0 ≤ 1 then List.replicate samples (List.replicate ts.length 0)
  else
    let fut := ts.filter fun t => decide (1 < t)
    let u := future fut
    if 0 < ts.length - fut.length then u.map fun r => List.replicate (ts.length - fut.length) 0 ++ r else u

/-- `_sample_predictive_trend_vectorized`, lines 568-619, for logistic and flat growth. -/
def pmTrendRows (expected floors : List ℝ) (scale : ℝ) (u : List (List ℝ)) : List (List ℝ) :=
  u.map fun r => List.zipWith (fun e fl => e * scale + fl) (List.zipWith (· + ·) expected r) floors

end

end Kats

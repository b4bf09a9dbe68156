import Verif.Model.Py
import Mathlib.Analysis.Real.Sqrt

/-!
# `kats/utils/ensemble_predict_interval.py`

A series is a list of rows of time and value.  The forecasting model, the quantiles of Student's t and the draws from the
multivariate normal distribution are parameters.  With `multiprocessing` the same functions are mapped over the same
numbers; it is not modelled.
-/

namespace Kats

open Classical

noncomputable section

/-- A series: times and values. -/
abbrev EpiRows := List (Int × ℝ)

/-- What the class calls: `model(rows, params).fit()` and `predict(steps, freq)` with its times and forecasts; the quantile
`t.ppf(q, dof)`; a draw from the normal distribution with mean and covariance for chain and block. -/
structure EpiWorld where
  predict : EpiRows → Nat → Except Err EpiRows
  tq : ℝ → Nat → ℝ
  draw : List ℝ → List (List ℝ) → Nat → Nat → List ℝ

/-- `__init__`, lines 101-144: block size and number of blocks from the length of the series. -/
def epiSizes (len : Nat) (blockSize nBlock : Option Int) : Except Err (Nat × Nat) :=
  match blockSize, nBlock with
  | none, none => .error .valueError
  | none, some nb =>
    if nb < 5 then .error .valueError
    else if (len : Int) / (nb + 1) < 10 then .error .valueError
    else .ok (((len : Int) / (nb + 1)).toNat, nb.toNat)
  | some bs, none =>
    if bs < 10 then .error .valueError
    else if (len : Int) / bs - 1 < 5 then .error .valueError
    else .ok (bs.toNat, ((len : Int) / bs - 1).toNat)
  | some bs, some nb =>
    if bs < 10 then .error .valueError
    else if nb < 5 then .error .valueError
    else if (len : Int) < (nb + 1) * bs then .error .valueError
    else .ok (bs.toNat, nb.toNat)

/-- The attributes: sizes, the series that is used, the ensemble, the error matrix and the forecasts of the chains (`none`
before they are computed). -/
structure Epi where
  blockSize : Nat
  nBlock : Nat
  rows : EpiRows
  ensemble : Nat
  errors : Option (List (List ℝ)) := none
  fcsts : Option (List (List ℝ)) := none

/-- `__init__`, lines 86-169; the frequency is part of the forecasting model. -/
def Epi.init (rows : EpiRows) (blockSize nBlock : Option Int) (ensemble : Int) : Except Err Epi := do
  let (bs, nb) ← epiSizes rows.length blockSize nBlock
  if ensemble < 4 then .error .valueError
  else pure ⟨bs, nb, pyFrom rows (-(bs : Int) * ((nb : Int) + 1)), ensemble.toNat, none, none⟩

/-- The block with number `i`. -/
def Epi.block (s : Epi) (i : Nat) : EpiRows := (s.rows.drop (i * s.blockSize)).take s.blockSize

/-- `_get_error_matrix_single`, lines 171-199: the next block minus the forecast from this one.  (Arrays of different lengths
raise.) -/
def Epi.errorRow (W : EpiWorld) (s : Epi) (i : Nat) : Except Err (List ℝ) := do
  let fc ← W.predict (s.block i) s.blockSize
  let next := s.block (i + 1)
  if next.length ≠ fc.length then .error .valueError
  else pure (List.zipWith (fun a f => a.2 - f.2) next fc)

/-- `_get_error_matrix`, lines 201-224: computed once. -/
def Epi.errorMatrix (W : EpiWorld) (s : Epi) : Except Err (List (List ℝ)) :=
  match s.errors with
  | some e => .ok e
  | none => (List.range s.nBlock).mapM (s.errorRow W)

/-- `error_matrix.mean(0)` -/
def colMeans (width : Nat) (E : List (List ℝ)) : List ℝ :=
  (List.range width).map fun j => (E.map fun r => r.getD j 0).sum / E.length

/-- `np.cov(error_matrix.T)` -/
def colCov (width : Nat) (E : List (List ℝ)) : List (List ℝ) :=
  let m := colMeans width E
  (List.range width).map fun i => (List.range width).map fun j =>
    (E.map fun r => (r.getD i 0 - m.getD i 0) * (r.getD j 0 - m.getD j 0)).sum / ((E.length : ℝ) - 1)

/-- The loop of `_projection_single`, lines 254-278: forecast a block, add a draw, and go on with the block (or with it
appended to the training data). -/
def Epi.chain (W : EpiWorld) (s : Epi) (E : List (List ℝ)) (rolling : Bool) (c : Nat) : Nat → Nat → EpiRows → Except Err (List ℝ)
  | 0, _, _ => .ok []
  | k + 1, b, train => do
    let fc ← W.predict train s.blockSize
    let noise := W.draw (colMeans s.blockSize E) (colCov s.blockSize E) c b
    if fc.length ≠ noise.length then .error .valueError
    else
      let out := List.zipWith (fun r e => (r.1, r.2 + e)) fc noise
      let rest ← Epi.chain W s E rolling c k (b + 1) (if rolling then train ++ out else out)
      pure (out.map Prod.snd ++ rest)

/-- `_projection_single`, lines 226-280. -/
def Epi.projectOne (W : EpiWorld) (s : Epi) (E : List (List ℝ)) (step : Nat) (rolling : Bool) (c : Nat) : Except Err (List ℝ) := do
  let futureBlock := step / s.blockSize + if step % s.blockSize > 0 then 1 else 0
  let train := if rolling then s.rows else pyFrom s.rows (-(s.blockSize : Int))
  let f ← s.chain W E rolling c futureBlock 0 train
  pure (f.take step)

/-- `_projection`, lines 282-305: the error matrix if there is none yet, and the forecasts of all chains. -/
def Epi.project (W : EpiWorld) (s : Epi) (step : Nat) (rolling : Bool) : Except Err Epi := do
  let E ← s.errorMatrix W
  let f ← (List.range s.ensemble).mapM (s.projectOne W E step rolling)
  pure { s with errors := some E, fcsts := some f }

/-- `mean_confidence_interval`, lines 33-43. -/
def meanInterval (tq : ℝ → Nat → ℝ) (data : List ℝ) (confidence : ℝ) : ℝ × ℝ × ℝ :=
  let m := data.sum / data.length
  let se := Real.sqrt ((data.map fun x => (x - m) ^ 2).sum / data.length)
  let h := se * tq ((1 + confidence) / 2) (data.length - 1)
  (m, m - h, m + h)

/-- The table of forecasts and bounds, lines 318-325 and 342-349. -/
def bandTable (W : EpiWorld) (f : List (List ℝ)) (step : Nat) (confidence : ℝ) : List (ℝ × ℝ × ℝ) :=
  (List.range step).map fun i => meanInterval W.tq (f.map fun r => r.getD i 0) confidence

/-- `get_projection`, lines 307-329. -/
def Epi.getProjection (W : EpiWorld) (s : Epi) (step : Nat) (rolling : Bool) (confidence : ℝ) :
    Except Err (Epi × List (ℝ × ℝ × ℝ)) := do
  let s' ← s.project W step rolling
  pure (s', bandTable W (s'.fcsts.getD []) step confidence)

/-- `get_fcst_band_with_level`, lines 331-353: the number of steps is that of the last projection. -/
def Epi.bandWithLevel (W : EpiWorld) (s : Epi) (confidence : ℝ) : Except Err (List (ℝ × ℝ × ℝ)) :=
  match s.fcsts with
  | none => .error .valueError
  | some f => .ok (bandTable W f (f.headD []).length confidence)

end

end Kats

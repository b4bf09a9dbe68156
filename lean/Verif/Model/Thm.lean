import Verif.Model.Metrics
import Mathlib.LinearAlgebra.Matrix.NonsingularInverse

/-!
# `kats/models/reconciliation/{base_models,thm}.py`

Temporal hierarchical forecasts.  Numbers are exact rationals, NaN is `none`.  Parameters: the forecasts
and residuals of a fitted base model, `np.linalg.solve` (with its defining law), `np.sqrt`, and the
robust scale estimate of `median_validation`.  Not modelled: logging, float rounding.
-/

namespace Kats

/-! ## Aggregating data -/

/-- The `j`-th block of `k` values. -/
def blockAt {α : Type} (data : List α) (k j : Nat) : List α := (data.drop (j * k)).take k

/-- `data.reshape(-1, k).sum(axis=1)` of the first `(n // k) * k` values. -/
def blockSums (data : List Val) (k : Nat) : List Val :=
  (List.range (data.length / k)).map fun j => vsum (blockAt data k j)

/-- `thm.py` 168-175, `_aggregate_data`; level 0 divides by zero (174). -/
def aggData (data : List Val) (k : Nat) : Except Err (List Val) :=
  if k = 1 then .ok data
  else if k = 0 then .error .otherError
  else .ok (blockSums data k)

/-- `base_models.py` 113-125, `_aggregate_single`: (time, value) rows of level `k`; the rows of the
series are given in the order of time. -/
def aggSingle (ts : List (Int × Val)) (k : Nat) : Except Err (List (Int × Val)) :=
  if k = 1 then .ok ts
  else if ts.length < k then .error .valueError
  else
    let n := ts.length
    let m := n / k * k
    let vals := blockSums (pyFrom (ts.map (·.2)) (-(m : Int))) k
    let times := (List.range (n / k)).map fun j => (ts.map (·.1)).getD (n - m + k - 1 + j * k) 0
    .ok (List.zip times vals)

/-- `base_models.py` 127-146, `aggregate`. -/
def aggAll (ts : List (Int × Val)) (levels : List Int) : Except Err (List (Nat × List (Int × Val))) :=
  if levels.any fun k => decide (k < 1) then .error .valueError
  else levels.mapM fun k => (aggSingle ts k.toNat).map fun r => (k.toNat, r)

/-! ## Base models and the constructor -/

/-- The models that may be named, `base_models.py` 27-35. -/
def thBaseModels : List String :=
  ["arima", "holtwinters", "sarima", "prophet", "linear", "quadratic", "theta"]

/-- The arguments of `BaseTHModel`; the parameters object is only tested for presence. -/
structure BaseTH where
  level : Int
  name : Option String
  hasParams : Bool
  residuals : Option (List Val)
  fcsts : Option (List Rat)
deriving DecidableEq

/-- An array argument that is missing or empty. -/
def absent {α : Type} : Option (List α) → Bool
  | none => true
  | some l => l.isEmpty

/-- `base_models.py` 57-87, `BaseTHModel.__init__`. -/
def BaseTH.check (b : BaseTH) : Except Err Unit :=
  if b.level < 1 then .error .valueError
  else if absent b.residuals || absent b.fcsts then
    if b.name.getD "" = "" || !b.hasParams then .error .valueError
    else if b.name.getD "" ∈ thBaseModels then .ok () else .error .valueError
  else .ok ()

/-- Where the forecasts of a level come from: a fitted model that forecasts `f num i` at step `i` when
asked for `num` steps, or an array. -/
inductive Src where
  | model (f : Nat → Nat → Rat)
  | given (fcsts : List Rat)

/-- A fitted `TemporalHierarchicalModel`. -/
structure THM where
  /-- in descending order (`thm.py` 92) -/
  levels : List Nat
  m : Nat
  src : Nat → Src
  resid : Nat → List Val

/-- `thm.py` 105-120, `_get_m`. -/
def getM (ks : List Nat) : Nat := ks.foldl (fun base c => base * c / Nat.gcd base c) 1

/-- `thm.py` 83-98: the checks on the levels (the models have passed `BaseTH.check`). -/
def checkLevels (levels : List Nat) : Except Err Unit :=
  if 1 ∉ levels then .error .valueError
  else if !levels.Nodup then .error .valueError
  else .ok ()

/-- `thm.py` 69-103 and 122-149, `__init__` and `fit`, for a univariate series of `n` points.
`train` and `trainResid` give the forecasts and residuals of the named model fitted on a level. -/
def THM.fit (train : String → Nat → Nat → Nat → Rat) (trainResid : String → Nat → List Val)
    (n : Nat) (bms : List BaseTH) : Except Err THM := do
  let _ ← bms.mapM (·.check)
  let levels := bms.map (·.level.toNat)
  checkLevels levels
  -- 129: the series is aggregated for every level
  if levels.any fun k => decide (k ≠ 1 ∧ n < k) then .error .valueError
  else
    -- 140: an unknown name
    if bms.any fun b => b.name.any fun s => decide (s ∉ thBaseModels) then .error .keyError
    else
      let find (k : Nat) : Option BaseTH := bms.find? fun b => b.level.toNat = k
      .ok {
        levels := levels.insertionSort (fun a b => b ≤ a)
        m := getM levels
        src := fun k => match find k with
          | none => .given []
          | some b => match b.name with
            | none => .given (b.fcsts.getD [])
            | some s => .model (train s k)
        resid := fun k => match find k with
          | none => []
          | some b => match b.name with
            | none => b.residuals.getD []
            | some s => trainResid s k }

namespace THM

/-- `thm.py` 98: `freq[k]`. -/
def freq (t : THM) (k : Nat) : Nat := t.m / k

/-- The rows of all stacked matrices: level and position. -/
def rowIdx (t : THM) : List (Nat × Nat) :=
  t.levels.flatMap fun k => (List.range (t.freq k)).map fun i => (k, i)

/-- `thm.py` 163-164: one row of S. -/
def sRow (m k i : Nat) : List Rat :=
  (List.range m).map fun j => if i * k ≤ j ∧ j < i * k + k then 1 else 0

/-- `thm.py` 151-166, `get_S`. -/
def getS (t : THM) : List (List Rat) := t.rowIdx.map fun r => sRow t.m r.1 r.2

/-! ## Weights -/

/-- `thm.py` 234-253, `_get_residual_matrix`: rows in the order of `rowIdx`; without a complete
period `reshape(0, -1)` raises. -/
def resMatrix (t : THM) : Except Err (List (List Val)) :=
  let hs := t.levels.map fun k => (t.resid k).length / t.freq k
  let h := hs.foldl min (hs.headD 0)
  if h = 0 then .error .valueError
  else .ok (t.rowIdx.map fun r =>
    let part := pyFrom (t.resid r.1) (-((h * t.freq r.1 : Nat) : Int))
    (List.range h).map fun c => part.getD (c * t.freq r.1 + r.2) none)

/-- The matrix W: `get_W` returns the diagonal for diagonal ones. -/
inductive WMat where
  | diag (w : List Rat)
  | full (n : Nat) (w : Nat → Nat → Rat)

/-- `eps` (255). -/
def wEps : Rat := 1 / 100000

/-- `np.nanvar` of a row. -/
def nanvar (l : List Val) : Val :=
  let v := l.filterMap id
  if v.isEmpty then none
  else some ((v.map fun x => (x - v.sum / v.length) ^ 2).sum / v.length)

/-- All entries, unless one is NaN. -/
def allSome {α : Type} (l : List (Option α)) : Option (List α) := l.mapM id

/-- `np.cov` of the rows `R` with `h` observations each. -/
def covAt (R : List (List Rat)) (h i j : Nat) : Rat :=
  let x := R.getD i []
  let y := R.getD j []
  (List.zipWith (fun a b => (a - x.sum / h) * (b - y.sum / h)) x y).sum / ((h : Rat) - 1)

/-- The entries off the diagonal, `cor[mask]` (294-295). -/
def offDiag (n : Nat) (c : Nat → Nat → Rat) : List Rat :=
  ((List.range n).flatMap fun i => (List.range n).map fun j => (i, j)).filterMap fun p =>
    if p.1 = p.2 then none else some (c p.1 p.2)

/-- `thm.py` 296: the shrinkage intensity, NaN for 0/0; 297 has no effect on a non-negative number. -/
def shrinkLam (cor : List Rat) : Option Rat :=
  let s := (cor.map (· ^ 2)).sum
  if s = 0 then none
  else
    let mean := cor.sum / cor.length
    some (max 0 ((cor.map fun x => (x - mean) ^ 2).sum / cor.length / s))

inductive Recon where
  | bu | median | struc | svar | hvar | mintShrink | mintSample
  /-- any other string -/
  | other
deriving DecidableEq

/-- `thm.py` 255-308, `get_W`; `none` is a matrix containing NaN.  `np.cov` of one observation is NaN
(division by `h - 1 = 0`), and of one variable it has no dimensions, so that 304 raises TypeError and
290 ValueError. -/
def getW (sqrt : Rat → Rat) (t : THM) : Recon → Except Err (Option WMat)
  | .struc => .ok (some (.diag (t.levels.flatMap fun k => List.replicate (t.freq k) (k : Rat))))
  | .svar => .ok ((allSome (t.levels.flatMap fun k => List.replicate (t.freq k)
      (nanmean ((t.resid k).map fun x => vmul x x)))).map fun w => .diag (w.map (· + wEps)))
  | .hvar => do
    let R ← t.resMatrix
    .ok ((allSome (R.map nanvar)).map fun w => .diag (w.map (· + wEps)))
  | .mintSample => do
    let R ← t.resMatrix
    if R.length = 1 then .error .typeError
    else .ok ((R.mapM allSome).bind fun R =>
      let h := (R.headD []).length
      if h = 1 then none
      else some (.full R.length fun i j => covAt R h i j + if i = j then wEps else 0))
  | .mintShrink => do
    let R ← t.resMatrix
    if R.length = 1 then .error .valueError
    else .ok ((R.mapM allSome).bind fun R =>
      let h := (R.headD []).length
      let cov := covAt R h
      if h = 1 then none
      else if (List.range R.length).any fun i => decide (cov i i = 0) then none
      else
        let cor := fun i j => cov j i / sqrt (cov j j) / sqrt (cov i i)
        (shrinkLam (offDiag R.length cor)).map fun lam =>
          .full R.length fun i j =>
            (if i = j then cov i j else 0) * lam + (1 - lam) * cov i j + if i = j then wEps else 0)
  | _ => .error .valueError

/-! ## Forecasts -/

/-- `np.linalg.solve`: the solution of a regular system, LinAlgError for a singular matrix. -/
structure LinSolve where
  solve : {n p : Nat} → Matrix (Fin n) (Fin n) Rat → Matrix (Fin n) (Fin p) Rat →
    Option (Matrix (Fin n) (Fin p) Rat)
  sound : ∀ {n p : Nat} (A : Matrix (Fin n) (Fin n) Rat) (B X : Matrix (Fin n) (Fin p) Rat),
    solve A B = some X → A * X = B
  regular : ∀ {n p : Nat} (A : Matrix (Fin n) (Fin n) Rat) (B : Matrix (Fin n) (Fin p) Rat),
    A.det ≠ 0 → (solve A B).isSome
  singular : ∀ {n p : Nat} (A : Matrix (Fin n) (Fin n) Rat) (B : Matrix (Fin n) (Fin p) Rat),
    A.det = 0 → solve A B = none

/-- A list of rows as a matrix. -/
def matOf (n m : Nat) (rows : List (List Rat)) : Matrix (Fin n) (Fin m) Rat :=
  fun i j => (rows.getD i []).getD j 0

/-- `thm.py` 326: `int(np.ceil(steps / m))`. -/
def periods (t : THM) (steps : Nat) : Nat := (steps + t.m - 1) / t.m

/-- `thm.py` 331-364: the base forecasts of one level. -/
def originOne (t : THM) (steps : Nat) (method : Recon) (k : Nat) : Except Err (List Rat) :=
  let num := t.freq k * t.periods steps
  match t.src k with
  | .model f => .ok ((List.range num).map (f num))
  | .given fc =>
    if fc.length < num then
      if steps / t.m * t.freq k ≤ fc.length then
        match fc.getLast? with
        | none => .error .indexError
        | some x => .ok (fc ++ List.replicate (num - fc.length) x)
      else if method = .bu ∧ k ≠ 1 then .ok fc
      else .error .valueError
    else .ok (fc.take num)

/-- `thm.py` 311-365, `_predict_origin`. -/
def origins (t : THM) (steps : Nat) (method : Recon) : Except Err (List (Nat × List Rat)) :=
  t.levels.mapM fun k => (t.originOne steps method k).map fun l => (k, l)

/-- `orig_fcst[k]`. -/
def at_ (os : List (Nat × List Rat)) (k : Nat) : List Rat := (os.lookup k).getD []

/-- `np.repeat(a, k)`. -/
def repeatEach (l : List Rat) (k : Nat) : List Rat := l.flatMap fun x => List.replicate k x

/-- `thm.py` 404-410: the medians over the levels. -/
def medianY (t : THM) (steps : Nat) (os : List (Nat × List Rat)) : List Rat :=
  let tem := t.levels.map fun k => repeatEach ((at_ os k).map (· / (k : Rat))) k
  (List.range (t.m * t.periods steps)).map fun j => medianQ (tem.map fun r => r.getD j 0)

/-- `thm.py` 413-416: base forecasts stacked, one column for each period. -/
def stackY (t : THM) (steps : Nat) (os : List (Nat × List Rat)) : List (List Rat) :=
  t.rowIdx.map fun r => (List.range (t.periods steps)).map fun c =>
    (at_ os r.1).getD (c * t.freq r.1 + r.2) 0

/-- `thm.py` 420-423: the matrix T. -/
def weightT (L : LinSolve) (n m : Nat) (S : Matrix (Fin n) (Fin m) Rat) :
    WMat → Option (Matrix (Fin m) (Fin n) Rat)
  | .diag w => some fun j r => S r j / w.getD r 0
  | .full _ w => (L.solve (fun i j : Fin n => w i j) S).map Matrix.transpose

/-- `thm.py` 417-424: the reconciled matrix; `none` is LinAlgError. -/
def project (L : LinSolve) (n m h : Nat) (S : Matrix (Fin n) (Fin m) Rat) (W : WMat)
    (yh : Matrix (Fin n) (Fin h) Rat) : Option (Matrix (Fin n) (Fin h) Rat) := do
  let T ← weightT L n m S W
  let G ← L.solve (T * S) T
  some (S * G * yh)

/-- `thm.py` 426: the rows of level 1 (the last `m`), read column by column. -/
def gather {n h : Nat} (m steps : Nat) (P : Matrix (Fin n) (Fin h) Rat) : List Val :=
  ((List.range h).flatMap fun c => (List.range m).map fun i =>
    if hp : n - m + i < n ∧ c < h then some (P ⟨n - m + i, hp.1⟩ ⟨c, hp.2⟩) else none).take steps

/-- `thm.py` 411-426: level-1 forecasts of the projection methods; a W with NaN makes all of them
NaN. -/
def projected (L : LinSolve) (sqrt : Rat → Rat) (t : THM) (steps : Nat) (method : Recon)
    (os : List (Nat × List Rat)) : Except Err (List Val) :=
  -- 415: reshape(0, -1)
  if t.periods steps = 0 then .error .valueError
  else do
    let W ← t.getW sqrt method
    match W with
    | none => .ok (List.replicate steps none)
    | some W =>
      match project L t.rowIdx.length t.m (t.periods steps) (matOf t.rowIdx.length t.m t.getS) W
        (matOf t.rowIdx.length (t.periods steps) (t.stackY steps os)) with
      | none => .error .otherError
      | some P => .ok (gather t.m steps P)

/-- `thm.py` 401-428: level-1 forecasts. -/
def level1 (L : LinSolve) (sqrt : Rat → Rat) (t : THM) (steps : Nat) (method : Recon)
    (os : List (Nat × List Rat)) : Except Err (List Val) :=
  match method with
  | .bu => .ok ((at_ os 1).map some)
  | .median => .ok ((t.medianY steps os).map some)
  | .other => .error .valueError
  | .struc => projected L sqrt t steps .struc os
  | .svar => projected L sqrt t steps .svar os
  | .hvar => projected L sqrt t steps .hvar os
  | .mintShrink => projected L sqrt t steps .mintShrink os
  | .mintSample => projected L sqrt t steps .mintSample os

/-- The result of `_predict`. -/
structure Pred where
  fcst : List (Nat × List Val)
  origin : List (Nat × List Rat)

/-- `thm.py` 367-437, `_predict`. -/
def predict_ (L : LinSolve) (sqrt : Rat → Rat) (t : THM) (steps : Nat) (method : Recon)
    (fcstLevels : Option (List Nat)) : Except Err Pred := do
  let os ← t.origins steps method
  let y ← t.level1 L sqrt steps method os
  let f ← (fcstLevels.getD t.levels).mapM fun k =>
    (aggData y k).map fun l => (k, l.take (steps / k))
  .ok { fcst := f, origin := os.map fun o => (o.1, o.2.take (steps / o.1)) }

/-- The `freq` argument of `predict`. -/
inductive FreqArg where
  | infer
  | delta (d : Int)
  | str

/-- `thm.py` 439-489, `predict`; `inferred` is the result of `infer_freq_robust`, `last` the last time.
`pd.date_range` with a start, an end and a number of periods is evenly spaced; a string times an
integer is a string, which cannot be added to a timestamp. -/
def predict (L : LinSolve) (sqrt : Rat → Rat) (t : THM) (inferred : Except Err Int) (last : Int)
    (steps : Nat) (method : Recon) (fr : FreqArg) (fcstLevels : Option (List Nat)) :
    Except Err (List (Nat × List (Int × Val))) := do
  let d ← match fr with
    | .infer => inferred.map some
    | .delta d => .ok (some d)
    | .str => .ok none
  let p ← t.predict_ L sqrt steps method fcstLevels
  match d with
  | none => if p.fcst.isEmpty then .ok [] else .error .typeError
  | some d => .ok (p.fcst.map fun e =>
      (e.1, (List.range e.2.length).zipWith (fun (i : Nat) v => (last + d * e.1 * (i + 1), v)) e.2))

/-- `thm.py` 491-534, `median_validation`; `dist` is the metric (already divided by the level for
"mae"), `spread` the robust scale of the distances (527-532). -/
def medianValidation (L : LinSolve) (sqrt : Rat → Rat) (t : THM)
    (dist : Nat → List Val → List Rat → Rat) (spread : List Rat → Rat) (steps : Nat)
    (threshold : Rat) : Except Err (List Nat) := do
  let p ← t.predict_ L sqrt steps .median none
  let diffs := t.levels.map fun k => (k, dist k ((p.fcst.lookup k).getD []) (at_ p.origin k))
  let vals := diffs.map (·.2)
  let up := medianQ vals + spread vals * threshold
  .ok ((diffs.filter fun d => decide (up ≤ d.2)).map (·.1))

end THM

end Kats

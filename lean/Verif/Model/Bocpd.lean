import Verif.Model.Py
import Mathlib.Analysis.SpecialFunctions.Log.Basic

/-!
# `kats/detectors/bocpd.py`: Bayesian online changepoint detection

The run-length recursion, the output construction and the sufficient statistics of the normal and
Poisson predictive models.  The regression model is in `BocpdReg`, the search for priors and empirical
priors are in `BocpdPrior`.  Not modelled: plotting, debug arrays.  Columns of a
multivariate array never interact in the recursion (every operation is elementwise or reduces over
axis 0), so one column is modelled; the one place where columns are pooled (`posterior_predictive`)
is modelled for a list of columns.  Log densities are real, so a density of zero (`-inf`) is outside.
-/

namespace Kats

/-! ## `_find_posterior` (828-969) -/

/-- `np.logaddexp.reduce(xs, axis=0)` / `scipy.special.logsumexp`. -/
noncomputable def lse (l : List ℝ) : ℝ := Real.log ((l.map Real.exp).sum)

/-- `np.logaddexp(a, b)`. -/
noncomputable def logaddexp (a b : ℝ) : ℝ := Real.log (Real.exp a + Real.exp b)

/-- Loop state: the buffer `message` (length `T`, filled from the end), `ptr = -m_ptr`, and
`log_posterior`. -/
structure BocpdSt where
  buf : List ℝ
  ptr : Nat
  logPost : List ℝ

/-- Lines 852-865: `message = zeros`, `m_ptr = -1`, `log_posterior = 0.0` (a scalar; never read
before the first iteration overwrites it, as line 880 tests `i > 1`). -/
def bocpdInit (T : Nat) : BocpdSt := ⟨List.replicate T 0, 1, [0]⟩

/-- One iteration (868-956); `pred` is `model.pred_prob(t=i, x=this_pt)`, `c` the changepoint
prior. `message[T + m_ptr : T]` is `buf.drop (T - ptr)`. -/
noncomputable def bocpdStep (T : Nat) (c : ℝ) (pred : List ℝ) (s : BocpdSt) : BocpdSt :=
  let act := s.buf.drop (T - s.ptr)
  let lcp := lse ((List.zipWith (· + ·) pred act).map (· + Real.log c))
  let buf1 := s.buf.take (T - s.ptr) ++
    (List.zipWith (· + ·) pred act).map (· + Real.log (1 - c))
  let ptr1 := s.ptr + 1
  let buf2 := buf1.set (T - ptr1) lcp
  let lev := logaddexp lcp (lcp - Real.log c + Real.log (1 - c))
  ⟨buf2, ptr1, (buf2.drop (T - ptr1)).map (· - lev)⟩

/-- The loop after iteration `i`. `lp i r` is entry `r` of `model.pred_prob(t=i, x=data[i])`, an
array of `i` entries: the log predictive density of point `i` if the run length at time `i-1` is
`r`. -/
noncomputable def bocpdState (T : Nat) (c : ℝ) (lp : Nat → Nat → ℝ) : Nat → BocpdSt
  | 0 => bocpdInit T
  | i + 1 => bocpdStep T c ((List.range (i + 1)).map (lp (i + 1))) (bocpdState T c lp i)

/-- Row `i` of `rt_posterior`: line 844 for `i = 0`, line 958 otherwise. -/
noncomputable def rtRow (T : Nat) (c : ℝ) (lp : Nat → Nat → ℝ) (i : Nat) : List ℝ :=
  if i = 0 then 1 :: List.replicate (T - 1) 0
  else (bocpdState T c lp i).logPost.map Real.exp ++ List.replicate (T - (i + 1)) 0

/-- `rt_posterior[:, :, t]`. -/
noncomputable def rtPosterior (T : Nat) (c : ℝ) (lp : Nat → Nat → ℝ) : List (List ℝ) :=
  (List.range T).map (rtRow T c lp)

/-- The term added to `posterior_predictive` in iteration `i` (880-881): `logsumexp` without an
axis, so over all run lengths *and all series*. -/
noncomputable def predictiveTerm (T : Nat) (cols : List (ℝ × (Nat → Nat → ℝ))) (i : Nat) : ℝ :=
  lse (cols.flatMap fun q => List.zipWith (· + ·) ((List.range i).map (q.2 i))
    (bocpdState T q.1 q.2 (i - 1)).logPost)

/-- `posterior_predictive` (864, 880-881): the terms of the iterations with `i > 1`. -/
noncomputable def posteriorPredictive (T : Nat) (cols : List (ℝ × (Nat → Nat → ℝ))) : ℝ :=
  (((List.range T).filter fun i => 1 < i).map (predictiveTerm T cols)).sum

/-! ## `_construct_output` (1095-1118) -/

section
variable {K : Type} [Field K] [LinearOrder K]

/-- `np.max` of a non-empty array. -/
def npMax : List K → K
  | [] => 0
  | a :: l => l.foldl max a

/-- `np.fill_diagonal(m, 0.0)`, in place. -/
def fillDiag (M : List (List K)) : List (List K) := M.mapIdx fun i row => row.set i 0

/-- `m[i:, :(T - i)].diagonal()`. -/
def offDiag (M : List (List K)) (T i : Nat) : List K :=
  (List.range (T - i)).map fun j => (M.getD (i + j) []).getD j 0

/-- `_calc_agg_cppprob` (1085-1093): returns the probabilities and the (mutated) matrix, which is a
view of `self.rt_posterior`. -/
def aggProb (M : List (List K)) : List K × List (List K) :=
  let Z := fillDiag M
  ((List.range M.length).map fun i => npMax (offDiag Z M.length i), Z)

/-- Lines 1103-1107: column `lag` of the rows from `lag` on, padded with `lag` zeros, first entry
set to 0. `IndexError` when the column does not exist. -/
def lagProb (M : List (List K)) (lag : Nat) : Except Err (List K) :=
  if M.length ≤ lag then .error .indexError
  else .ok ((((M.drop lag).map fun row : List K => row.getD lag 0) ++ List.replicate lag 0).set 0 0)

/-- One entry of the output dictionary. -/
structure BocpdOut (K : Type) where
  changeProb : List K
  changePoints : List Nat
  runLengthProb : List (List K)
deriving DecidableEq, Repr

/-- `np.where(change_prob > threshold)[0]`. -/
def whereAbove (l : List K) (thr : K) : List Nat :=
  (List.range l.length).filter fun i => thr < l.getD i 0

/-- `_construct_output` (1095-1118) for one series. -/
def constructOutput (agg : Bool) (M : List (List K)) (lag : Nat) (thr : K) :
    Except Err (BocpdOut K) :=
  if agg then .ok ⟨(aggProb M).1, whereAbove (aggProb M).1 thr, (aggProb M).2⟩
  else do
    let p ← lagProb M lag
    pure ⟨p, whereAbove p thr, M⟩

/-- `BOCPDChangePoint` (78-122), without the model tag. -/
structure BocpdCP (K : Type) where
  startTime : Int
  endTime : Int
  confidence : K
  tsName : String
deriving DecidableEq, Repr

/-- `BOCPDetector.detector`, loop 434-457, over the items of the result dictionary. -/
def collectCPs (times : List Int) (outs : List (String × BocpdOut K)) : List (BocpdCP K) :=
  outs.flatMap fun q => q.2.changePoints.map fun i =>
    ⟨times.getD i 0, times.getD i 0, q.2.changeProb.getD i 0, q.1⟩

/-- `change_points_per_ts[cp.ts_name].append(cp)`; `KeyError` for an unknown name. -/
def appendTo (cp : BocpdCP K) :
    List (String × List (BocpdCP K)) → Except Err (List (String × List (BocpdCP K)))
  | [] => .error .keyError
  | (n, l) :: d =>
    if n = cp.tsName then .ok ((n, l ++ [cp]) :: d)
    else do pure ((n, l) :: (← appendTo cp d))

/-- `group_changepoints_by_timeseries` (616-645). -/
def groupCPs (names : List String) (cps : List (BocpdCP K)) :
    Except Err (List (String × List (BocpdCP K))) :=
  cps.foldlM (fun d cp => appendTo cp d) (names.map fun n => (n, []))

end

/-! ## Predictive models -/

section
variable {K : Type} [Field K]

/-- Buffers of `_NormalKnownPrec` (1258-1293). `std` is kept squared (the code stores the square
root of this number). -/
structure NormalSt (K : Type) where
  ptr : Nat
  prec : List K
  meanNum : List K
  mean : List K
  var : List K
deriving Repr

/-- `_NormalKnownPrec.__init__` (1263-1289): `_mean_arr_num` starts as zeros, `_mean_arr` as
`mu_0 * lambda_0`, `_prec_arr` as `lambda_0`. -/
def normalInit (T : Nat) (mu0 lam0 : K) : NormalSt K :=
  ⟨0, List.replicate T lam0, List.replicate T 0, List.replicate T (mu0 * lam0),
    List.replicate T 0⟩

/-- `_NormalKnownPrec.update_sufficient_stats` (1384-1437). -/
def normalUpdate (T : Nat) (lam x : K) (s : NormalSt K) : NormalSt K :=
  let ptr := s.ptr + 1
  let k := T - ptr
  let prec := s.prec.take k ++ (s.prec.drop k).map (· + lam)
  let meanNum := s.meanNum.take k ++ (s.meanNum.drop k).map (· + x * lam)
  let var := s.var.take k ++ (prec.drop k).map fun q => 1 / q + 1 / lam
  let mean := s.mean.take k ++ List.zipWith (· / ·) (meanNum.drop k) (prec.drop k)
  ⟨ptr, prec, meanNum, mean, var⟩

/-- State after the points `x 0, ..., x (i-1)`. -/
def normalState (T : Nat) (mu0 lam0 lam : K) (x : Nat → K) : Nat → NormalSt K
  | 0 => normalInit T mu0 lam0
  | i + 1 => normalUpdate T lam (x i) (normalState T mu0 lam0 lam x i)

/-- `pred_mean(t)` and the square of `pred_std(t)` (1378-1382), as used by `pred_prob` (1371-1376):
`arr[maxT + ptr : maxT + ptr + t]`. -/
def normalPred (T : Nat) (s : NormalSt K) (t : Nat) : List (K × K) :=
  ((s.mean.drop (T - s.ptr)).take t).zip ((s.var.drop (T - s.ptr)).take t)

/-- `_PoissonProcessModel.update_sufficient_stats` (1889-1933), the loop 1911-1923: pairs
`(n, p)` for `t = t0, t0 + 1, ...` given the remaining events (newest first). -/
def poissonLoop (alpha beta : K) : List K → Nat → K → List (K × K)
  | [], _, _ => []
  | e :: es, t, acc =>
    (alpha + (acc + e), ((t : K) + beta) / ((t : K) + 1 + beta)) ::
      poissonLoop alpha beta es (t + 1) (acc + e)

/-- `_events` after the points `x 0, ..., x (i-1)` (`insert(0, x)`). -/
def poissonEvents (x : Nat → K) : Nat → List K
  | 0 => []
  | i + 1 => x i :: poissonEvents x i

/-- `_n[i]`, `_p[i]` after `i` points: what `pred_prob(t=i)` (1860) reads. -/
def poissonPred (alpha beta : K) (x : Nat → K) (i : Nat) : List (K × K) :=
  poissonLoop alpha beta (poissonEvents x i) 1 0

end

end Kats

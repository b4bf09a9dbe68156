import Verif.Model.PercentageChange

/-!
# `kats/detectors/detector_consts.py`: `ChangePointInterval` and `PercentageChange` for several series

The branches with `num_series > 1`.  An array with an entry for each series is a function from positions; the intervals
have the same number of series.  `scipy.stats.ttest_ind` is Student's test with equal variances, for finite data;
`multipletests` is a parameter.
-/

namespace Kats

noncomputable section
open Classical

/-- A `ChangePointInterval` (42-53) of `k` series; a row of `df` is a time and the values. -/
structure MInterval where
  start : Int
  stop : Int
  k : Nat
  df : Option (List (Int × (Nat → ℝ))) := none
  threshold : ℝ := 2

namespace MInterval

variable (c : MInterval)

/-- 65-76, the `data` setter for data of several series. -/
def setData (rows : List (Int × (Nat → ℝ))) : MInterval :=
  { c with df := some (rows.filter fun r => decide (c.start ≤ r.1) && decide (r.1 < c.stop)) }

/-- 120-131, `extend_data`. -/
def extendData (rows : List (Int × (Nat → ℝ))) : MInterval :=
  { c with df := some ((match c.df with
      | none => rows
      | some d => d ++ rows).filter fun r => decide (c.start ≤ r.1) && decide (r.1 < c.stop)) }

/-- 165-167, `__len__`. -/
def len : Nat :=
  match c.df with
  | none => 0
  | some d => d.length

/-- 146-150, `mean_val`. -/
def meanVal : Nat → Fl :=
  match c.df with
  | none => fun _ => .fin 0
  | some d => fun j => npMean (d.map fun r => r.2 j)

/-- 158-163, `variance_val`. -/
def varianceVal : Nat → Fl :=
  match c.df with
  | none => fun _ => .fin 0
  | some d => if d.length = 1 then fun _ => .fin 0 else fun j => npVar1 (d.map fun r => r.2 j)

/-- 93-118, `_detect_spikes`: a list for each series that has spikes. -/
def detectSpikes : Except Err (List (List Spike)) :=
  match c.df with
  | none => .error .valueError
  | some d =>
    .ok (((List.range c.k).map fun j =>
      (d.filter fun r =>
        match (Fl.fin (r.2 j) - c.meanVal j) / Fl.sqrt (c.varianceVal j) with
        | .nan => false
        | s => !Fl.lt s (.fin c.threshold)).map
          fun r => (⟨r.1, r.2 j, (Fl.fin (r.2 j) - c.meanVal j) / Fl.sqrt (c.varianceVal j)⟩ : Spike)).filter
        fun l => !l.isEmpty)

end MInterval

/-- `PercentageChange.__init__`, 203-232; `alpha` is fixed to 0.05. -/
structure MPct where
  current : MInterval
  previous : MInterval
  skip : Bool := false
  corrected : Bool := false
  minPerc : ℝ := 0

namespace MPct

variable (p : MPct) (S : ScipyT)

/-- 234-237 -/
def ratio : Nat → Fl := fun j => p.current.meanVal j / p.previous.meanVal j

/-- 239-243 -/
def percChange : Nat → Fl := fun j => (p.ratio j - .fin 1) * .fin 100

/-- 263-266 -/
def direction : Nat → String := fun j => if Fl.lt (.fin 0) (p.percChange j) then "up" else "down"

/-- 363-371 -/
def df : Int := p.previous.len + p.current.len - 2

/-- 373-397, `_pooled_stddev`. -/
def pooledStd : Nat → Fl :=
  let n1 := p.previous.len
  let n2 := p.current.len
  if n1 = 0 ∨ n2 = 0 ∨ (n1 = 1 ∧ n2 = 1) then fun _ => .fin 0
  else fun j =>
    let sp := Fl.sqrt ((.fin (n1 - 1) * p.previous.varianceVal j + .fin (n2 - 1) * p.current.varianceVal j)
      / .fin (n1 + n2 - 2))
    if p.corrected then sp * Fl.sqrt (.fin (1 / n1 + 1 / n2)) else sp

/-- 399-414, `_ttest_manual`. -/
def ttestManual : Nat → Fl × Fl := fun j =>
  let t := (p.current.meanVal j - p.previous.meanVal j) / p.pooledStd j
  (t, S.tSf (Fl.abs t) p.df * .fin 2)

/-- `scipy.stats.ttest_ind(x, y, equal_var=True)`. -/
def ttestInd (x y : List ℝ) : Fl × Fl :=
  let v := (.fin (x.length - 1) * npVar1 x + .fin (y.length - 1) * npVar1 y) / .fin (x.length + y.length - 2)
  let t := (npMean x - npMean y) / Fl.sqrt (v * .fin (1 / x.length + 1 / y.length))
  (t, S.tSf (Fl.abs t) ((y.length : Int) + x.length - 2) * .fin 2)

/-- 444-471, `_ttest_multivariate` up to the rescaling; `none` for one value each, where the results are set at once. -/
def ttestStart : Except Err (Option (Nat → Fl × Fl)) :=
  let n1 := p.previous.len
  let n2 := p.current.len
  if n1 = 1 ∧ n2 = 1 then .ok none
  else if n1 = 1 ∨ n2 = 1 then .ok (some (p.ttestManual S))
  else match p.current.df, p.previous.df with
    | some c, some q => .ok (some fun j => ttestInd S (c.map fun r => r.2 j) (q.map fun r => r.2 j))
    | _, _ => .error .valueError

/-- `t.ppf(q, df)` of a float. -/
def ppf (q : Fl) (df : Int) : Fl :=
  match q with
  | .fin x => S.tPpf x df
  | _ => .nan

/-- 444-493, `_ttest_multivariate`: t-scores and p-values; `multi` is `multipletests` with the method. -/
def ttest (multi : List Fl → List Fl) : Except Err ((Nat → Fl) × (Nat → Fl)) := do
  match ← p.ttestStart S with
  | none => pure (fun _ => .pinf, fun _ => .fin 0)
  | some r =>
    if p.skip then pure (fun j => (r j).1, fun j => (r j).2)
    else
      let a := multi ((List.range p.current.k).map fun j => (r j).2)
      let pv : Nat → Fl := fun j => a.getD j .nan
      pure (fun j => if Fl.lt (r j).1 (.fin 0) then ppf S (pv j / .fin 2) p.df else ppf S (.fin 1 - pv j / .fin 2) p.df, pv)

/-- 300-319, `score`. -/
def score (multi : List Fl → List Fl) : Except Err (Nat → Fl) := do
  let r ← p.ttest S multi
  pure fun j => if Fl.lt (Fl.abs (p.percChange j)) (.fin p.minPerc) then .fin 0 else r.1 j

/-- 338-349 -/
def ciUpper : Nat → Fl := fun j => p.previous.meanVal j - S.tPpf (0.05 / 2) p.df * p.pooledStd j

/-- 351-361 -/
def ciLower : Nat → Fl := fun j => p.previous.meanVal j + S.tPpf (0.05 / 2) p.df * p.pooledStd j

/-- 495-518, `_calc_cov`. -/
def calcCov : Nat → Fl :=
  match p.current.df, p.previous.df with
  | some c, some q =>
    let n := min c.length q.length
    if n = 0 then fun _ => .nan
    else fun j => PctChange.npCov ((c.drop (c.length - n)).map fun r => r.2 j) ((q.drop (q.length - n)).map fun r => r.2 j) / .fin n
  | _, _ => fun _ => .nan

/-- 533-547, `sigma_sq_ratio`. -/
def sigmaSqRatio : Nat → Fl := fun j =>
  let tm := p.current.meanVal j
  let cm := p.previous.meanVal j
  p.current.varianceVal j / (.fin p.current.len * (cm * cm))
    - .fin 2 * (tm * p.calcCov j) / (cm * cm * cm)
    + (p.previous.varianceVal j * (tm * tm)) / (.fin p.previous.len * (cm * cm * cm * cm))

/-- 549-551, `lower`. -/
def lower : Nat → Fl := fun j => p.ratio j + .fin (S.normPpf (0.05 / 2)) * Fl.sqrt (Fl.abs (p.sigmaSqRatio j))

/-- 552-554, `upper`. -/
def upper : Nat → Fl := fun j => p.ratio j - .fin (S.normPpf (0.05 / 2)) * Fl.sqrt (Fl.abs (p.sigmaSqRatio j))

/-- 272-290, `stat_sig`. -/
def statSig : Nat → Bool := fun j => if Fl.lt (.fin 1) (p.upper S j) && Fl.lt (p.lower S j) (.fin 1) then false else true

end MPct

end

end Kats

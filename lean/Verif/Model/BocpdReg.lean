import Verif.Model.Py
import Mathlib.Algebra.Order.Field.Basic
import Mathlib.Data.Nat.Sqrt

/-!
# `kats/detectors/bocpd.py`: the regression model (`_BayesianLinReg`)

The 2×2 matrices of `numpy` are written out; `np.linalg.inv` is the inverse in closed form.  The random numbers are
parameters: the seed is set before each draw, so that they are functions of the arguments.  Variances stand for standard
deviations, and the likelihood for its logarithm, so that a likelihood of zero (`-inf`) is inside.  Plots and messages are
left out.
-/

namespace Kats

section
variable {K : Type} [Field K] [LinearOrder K]

/-- `TrendChangeParameters` (219-240), without the plot; at least one sample is drawn. -/
structure BlrArgs (K : Type) where
  mu : Option (K × K)
  samples : Nat
  points : Nat
  readjust : Bool

/-- `mu_prior`, `a_0` and `b_0`; `mu_prior` is `None` (1461) before `setup`. -/
structure BlrPrior (K : Type) where
  mu : Option (K × K)
  a : K
  b : K
deriving DecidableEq, Repr

/-- `__init__` (1489-1490). -/
def blrInit : BlrPrior K := ⟨none, 1 / 10, 200⟩

/-- `scipy.stats.linregress`: intercept and slope.  `ValueError` for no point; one point, for which the slope is NaN, is
an error too. -/
def blrFit (ts vs : List K) : Except Err (K × K) :=
  if ts.length < 2 then .error .valueError
  else
    let n : K := ts.length
    let mt := ts.sum / n
    let mv := vs.sum / n
    let sl := (List.zipWith (fun t v => (t - mt) * (v - mv)) ts vs).sum / (ts.map fun t => (t - mt) * (t - mt)).sum
    .ok (mv - sl * mt, sl)

/-- `_residual_variance` (1578-1588); for two points the code divides by zero. -/
def blrResidual (ts vs : List K) (ic sl : K) : K :=
  (List.zipWith (fun t v => (ic + sl * t - v) * (ic + sl * t - v)) ts vs).sum / ((ts.length : K) - 2)

/-- `setup` (1505-1559) for a model that has data. -/
def blrSetup (a : BlrArgs K) (vals : List K) : Except Err (BlrPrior K) :=
  match a.mu with
  | some m => .ok { (blrInit : BlrPrior K) with mu := some m }
  | none => do
    let ts := ((List.range vals.length).take a.points).map fun i : Nat => (i : K)
    let vs := vals.take a.points
    let r ← blrFit ts vs
    if a.readjust then
      let m := blrResidual ts vs r.1 r.2
      let a0 := 2 + m / 1000
      return ⟨some r, a0, m * (a0 - 1)⟩
    else return { (blrInit : BlrPrior K) with mu := some r }

/-- `_x`, `_y` and `t`. -/
structure BlrSt (K : Type) where
  xs : List (K × K)
  ys : List K
  t : Nat

/-- `update_sufficient_stats` (1787-1802). -/
def blrUpdate (s : BlrSt K) (x : K) : BlrSt K := ⟨s.xs ++ [(1, (s.t : K))], s.ys ++ [x], s.t + 1⟩

/-- After the points `x 0, …, x (i-1)`. -/
def blrState (x : Nat → K) : Nat → BlrSt K
  | 0 => ⟨[], [], 0⟩
  | i + 1 => blrUpdate (blrState x i) (x i)

/-- `lambda_n` (its three different entries), `mu_n`, `a_n` and `b_n`. -/
structure BlrPost (K : Type) where
  l11 : K
  l12 : K
  l22 : K
  m0 : K
  m1 : K
  a : K
  b : K
deriving DecidableEq, Repr

/-- The update (1674-1712) from the rows and values of a run; `2e-7` is `lambda_prior` (1495). -/
def blrPost (mu : K × K) (a0 b0 : K) (xs : List (K × K)) (ys : List K) (t : Nat) : BlrPost K :=
  let q : K := 2 / 10000000
  let l11 := (xs.map fun r => r.1 * r.1).sum + q
  let l12 := (xs.map fun r => r.1 * r.2).sum
  let l22 := (xs.map fun r => r.2 * r.2).sum + q
  let c0 := q * mu.1 + (List.zipWith (fun r y => r.1 * y) xs ys).sum
  let c1 := q * mu.2 + (List.zipWith (fun r y => r.2 * y) xs ys).sum
  let d := l11 * l22 - l12 * l12
  let m0 := (l22 * c0 - l12 * c1) / d
  let m1 := (l11 * c1 - l12 * c0) / d
  let a := a0 + (t : K) / 2
  let yty := (ys.map fun y => y * y).sum
  let b := b0 + 1 / 2 * (yty + q * (mu.1 * mu.1 + mu.2 * mu.2) - (l11 * m0 * m0 + 2 * l12 * m0 * m1 + l22 * m1 * m1))
  ⟨l11, l12, l22, m0, m1, if a < 0 then a0 else a, if b < 0 then b0 else b⟩

/-- The random numbers and the density: `invgamma.rvs(a, scale=b)`, `multivariate_normal(mean, cov, size)` with the three
different entries of the covariance after the first draw, and `norm.pdf(x, loc, scale)` with the variance for the scale. -/
structure BlrDraw (K : Type) where
  gamma : K → K → K
  normal : K → K → K × K → K × K × K → Nat → List (K × K)
  pdf : K → K → K → K

/-- `min_sum_samples` (1498-1500): `int(sqrt(n) / 10000)`. -/
def blrFloor (n : Nat) : Nat := Nat.sqrt n / 10000

/-- `_sample_likelihood` (1630-1650) with the two functions it calls, and 1714-1740: the likelihood of the new point at
time `t`, the mean and the variance predicted. -/
def blrLik (D : BlrDraw K) (n : Nat) (p : BlrPost K) (t : Nat) (y : K) : K × K × K :=
  let s := D.gamma p.a p.b
  let d := p.l11 * p.l22 - p.l12 * p.l12
  let betas := D.normal p.a p.b (p.m0, p.m1) (s * (p.l22 / d), s * (-p.l12 / d), s * (p.l11 / d)) n
  let pred := betas.map fun b => b.1 * 1 + b.2 * (t : K)
  let lik := max ((pred.map fun m => D.pdf y m s).sum) (blrFloor n : K)
  (lik / (n : K), pred.sum / (pred.length : K), s)

/-- `pred_prob` (1652-1747): for each run length the likelihood with what `pred_mean` and `pred_std` return.  A product
with `None` fails. -/
def blrPred (D : BlrDraw K) (n : Nat) (pr : BlrPrior K) (s : BlrSt K) (t : Nat) (y : K) : Except Err (List (K × K × K)) :=
  (List.range t).mapM fun rl =>
    match pr.mu with
    | none => .error .otherError
    | some mu =>
      let k := s.xs.length - rl - 1
      .ok (blrLik D n (blrPost mu pr.a pr.b (s.xs.drop k) (s.ys.drop k) t) t y)

end

end Kats

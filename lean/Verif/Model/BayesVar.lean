import Verif.Model.Heuristic
import Mathlib.LinearAlgebra.Matrix.NonsingularInverse
import Mathlib.Data.Real.Basic
import Mathlib.Analysis.SpecialFunctions.Pow.Real

/-!
# `kats/models/bayesian_var.py`

`m` columns of reals.  The flattened arrays of the code are indexed here by column and place, a place being the index
into the vector `z` of regressors: `p` lags of each column, then the time, then the constant.  The frequency that pandas
infers is a parameter.
-/

namespace Kats

open Classical Matrix

noncomputable section

/-- `BayesianVARParams`, lines 34-53. -/
structure BvarParams where
  p : Int := 5
  phi0 : ℝ := 2 / 100
  phi1 : ℝ := 25 / 100
  phi2 : ℝ := 20
  phi3 : ℝ := 3

/-- `validate_params`, lines 55-69. -/
def BvarParams.validate (q : BvarParams) : Except Err Unit :=
  if q.p ≤ 0 then .error .valueError
  else if q.phi0 ≤ 0 then .error .valueError
  else if q.phi1 ≤ 0 ∨ q.phi1 > 1 then .error .valueError
  else if q.phi2 ≤ 0 then .error .valueError
  else if q.phi3 ≤ 0 then .error .valueError
  else .ok ()

/-- The data: `m` columns, a row for each time. -/
structure BvarData (m : Nat) where
  times : List Int
  rows : List (Fin m → ℝ)
  /-- `pd.infer_freq` -/
  freq : Option DateFreq

/-- `__init__`, lines 107-128: the parameters come from a dataclass, whose constructor does not validate them, and they are
not validated here.  (The result is the frequency; a negative number of lags fails in `fit`.) -/
def bvarInit {m : Nat} (d : BvarData m) (_q : BvarParams) : Except Err DateFreq :=
  if m = 1 then .error .valueError
  else match d.freq with
    | none => .error .valueError
    | some f => .ok f

/-- Row `t` of the data; times beyond the data do not occur. -/
def rowAt {m : Nat} (rows : List (Fin m → ℝ)) (t : Nat) : Fin m → ℝ := rows.getD t fun _ => 0

/-- The length of `z`, line 127. -/
abbrev bvarN (m p : Nat) : Nat := m * p + 1 + 1

/-- `_construct_z`, lines 245-257: `np.fliplr(Y[:, t-p:t]).flatten()` has the lags 1 to `p` of the first column, then those of
the second and so on; then the exogenous value at `t` and 1. -/
def bvarZ {m : Nat} (p : Nat) (x : ℝ) (rows : List (Fin m → ℝ)) (t : Nat) (k : Fin (bvarN m p)) : ℝ :=
  if h : k.val < m * p then
    rowAt rows (t - 1 - k.val % p) ⟨k.val / p, Nat.div_lt_of_lt_mul (by rw [Nat.mul_comm]; exact h)⟩
  else if k.val = m * p then x else 1

/-- The places of all coefficients: column and place. -/
abbrev BvarIx (m p : Nat) := Fin m × Fin (bvarN m p)

/-- `_construct_Zt`, lines 259-270: `block_diag(z, …, z)`. -/
def bvarZt {m : Nat} (p : Nat) (x : ℝ) (rows : List (Fin m → ℝ)) (t : Nat) : Matrix (Fin m) (BvarIx m p) ℝ :=
  fun i q => if i = q.1 then bvarZ p x rows t q.2 else 0

/-- `numpy.linalg.inv`: a singular matrix raises. -/
def npInv {ι : Type} [Fintype ι] [DecidableEq ι] (A : Matrix ι ι ℝ) : Except Err (Matrix ι ι ℝ) :=
  if A.det = 0 then .error .otherError else .ok A⁻¹

/-- `_construct_X_OLS`, lines 272-280. -/
def bvarXols {m : Nat} (p : Nat) (rows : List (Fin m → ℝ)) : Matrix (Fin (bvarN m p)) (Fin (rows.length - p)) ℝ :=
  fun k s => bvarZ p ((p + s.val : Nat) : ℝ) rows (p + s.val) k

/-- `Y[:, p:]`. -/
def bvarYsuf {m : Nat} (p : Nat) (rows : List (Fin m → ℝ)) : Matrix (Fin m) (Fin (rows.length - p)) ℝ :=
  fun i s => rowAt rows (p + s.val) i

/-- `_compute_sigma_ols`, lines 282-297. -/
def bvarSigma {m : Nat} (p : Nat) (rows : List (Fin m → ℝ)) : Except Err (Matrix (Fin m) (Fin m) ℝ) :=
  if rows.length < p then .error .valueError
  else do
    let X := bvarXols p rows
    let Y := bvarYsuf p rows
    let G ← npInv (X * Xᵀ)
    let beta := (Y * Xᵀ) * G
    let sse := (Y - beta * X) * (Y - beta * X)ᵀ
    if rows.length > m * p + 1 then pure ((1 / ((rows.length : ℝ) - (m : ℝ) * p - 1)) • sse)
    else .error .otherError

/-- `np.var(Y, axis=1)`, line 328. -/
def bvarVariance {m : Nat} (rows : List (Fin m → ℝ)) (i : Fin m) : ℝ :=
  let mean := (rows.map fun r => r i).sum / rows.length
  (rows.map fun r => (r i - mean) ^ 2).sum / rows.length

/-- `_sigma_ijl`, lines 299-322, for lag `lag` of column `j` (a variance of 0 gives infinity in the code; the data are
refused before). -/
def bvarLagVar {m : Nat} (q : BvarParams) (v : Fin m → ℝ) (i j : Fin m) (lag : Nat) : ℝ :=
  if i = j then q.phi0 / (lag : ℝ) ^ q.phi3 else q.phi0 * (q.phi1 / (lag : ℝ) ^ q.phi3) * (v j / v i)

/-- The diagonal of `_construct_v_prior`, lines 324-356: lags in the order of `z`, then the exogenous variable and the
constant. -/
def bvarPriorVar {m : Nat} (p : Nat) (q : BvarParams) (rows : List (Fin m → ℝ)) (s : BvarIx m p) : ℝ :=
  if h : s.2.val < m * p then
    bvarLagVar q (bvarVariance rows) s.1 ⟨s.2.val / p, Nat.div_lt_of_lt_mul (by rw [Nat.mul_comm]; exact h)⟩ (s.2.val % p + 1)
  else q.phi0 * q.phi2

/-- `mu_prior`, lines 188-191. -/
def bvarPriorMean {m p : Nat} (s : BvarIx m p) : ℝ := if s.2.val = p * s.1.val then 1 else 0

/-- `Z_t.T @ inv(sigma) @ Z_t` and `Z_t.T @ inv(sigma) @ Y[:, t]` summed over the times from `p` on, lines 195-224. -/
def bvarGram {m : Nat} (p : Nat) (rows : List (Fin m → ℝ)) (S : Matrix (Fin m) (Fin m) ℝ) : Matrix (BvarIx m p) (BvarIx m p) ℝ :=
  ∑ s ∈ Finset.range (rows.length - p), (bvarZt p ((p + s : Nat) : ℝ) rows (p + s))ᵀ * S * bvarZt p ((p + s : Nat) : ℝ) rows (p + s)

def bvarCross {m : Nat} (p : Nat) (rows : List (Fin m → ℝ)) (S : Matrix (Fin m) (Fin m) ℝ) : BvarIx m p → ℝ :=
  ∑ s ∈ Finset.range (rows.length - p), ((bvarZt p ((p + s : Nat) : ℝ) rows (p + s))ᵀ * S) *ᵥ rowAt rows (p + s)

/-- The posterior mean, lines 183-241. -/
def bvarPosterior {m : Nat} (q : BvarParams) (p : Nat) (rows : List (Fin m → ℝ)) : Except Err (BvarIx m p → ℝ) := do
  let sigma ← bvarSigma p rows
  let S ← npInv sigma
  let P ← npInv (Matrix.diagonal (bvarPriorVar p q rows))
  let V ← npInv (P + bvarGram p rows S)
  pure (V *ᵥ (P *ᵥ bvarPriorMean + bvarCross p rows S))

/-- The one-step forecast `Z_t @ mu_posterior`, lines 358-382. -/
def bvarStep {m p : Nat} (mu : BvarIx m p → ℝ) (x : ℝ) (rows : List (Fin m → ℝ)) (t : Nat) : Fin m → ℝ :=
  bvarZt p x rows t *ᵥ mu

/-- The fitted values, lines 173-176. -/
def bvarHistory {m p : Nat} (mu : BvarIx m p → ℝ) (rows : List (Fin m → ℝ)) : List (Fin m → ℝ) :=
  (List.range (rows.length - p)).map fun s : Nat => bvarStep mu ((p + s : Nat) : ℝ) rows (p + s)

/-- Future forecasts, lines 431-445: `ahead_time` is the last exogenous value `T - 1`, and `ahead_time + step` the exogenous
value of `step`; each forecast is appended to the data. -/
def bvarAhead {m p : Nat} (mu : BvarIx m p → ℝ) (last : ℝ) : Nat → Nat → List (Fin m → ℝ) → List (Fin m → ℝ)
  | 0, _, _ => []
  | n + 1, step, rows =>
    let y := bvarStep mu (last + step) rows step
    y :: bvarAhead mu last n (step + 1) (rows ++ [y])

/-- The model after `fit`. -/
structure BvarModel (m p : Nat) where
  data : BvarData m
  freq : DateFreq
  mu : BvarIx m p → ℝ
  /-- `self.forecast_vals` -/
  fitVals : List (Fin m → ℝ)

/-- `__init__` and `fit`; a negative number of lags fails when arrays of negative size are made. -/
def bvarFit {m : Nat} (d : BvarData m) (q : BvarParams) : Except Err (BvarModel m q.p.toNat) := do
  let f ← bvarInit d q
  if q.p < 0 then .error .valueError
  else do
    let mu ← bvarPosterior q q.p.toNat d.rows
    pure ⟨d, f, mu, bvarHistory mu d.rows⟩

/-- A row of the forecast of a column. -/
structure BvarRow where
  time : Int
  fcst : ℝ
  lower : ℝ
  upper : ℝ

/-- `predict`, lines 386-475: the forecast of each column.  With history the list of fitted values is the attribute itself,
and the future forecasts are appended to it. -/
def bvarPredict {m p : Nat} (s : BvarModel m p) (steps : Nat) (hist : Bool) : BvarModel m p × Except Err (Fin m → List BvarRow) :=
  if steps = 0 ∧ hist = false then (s, .error .valueError)
  else
    let T := s.data.rows.length
    let past := if hist then s.data.times.drop p else []
    let vals := if hist then s.fitVals else []
    let aheadTimes := (pdDateRange s.freq (s.data.times.getLastD 0) (steps + 1)).drop 1
    let vals' := vals ++ bvarAhead s.mu ((T : ℝ) - 1) steps T s.data.rows
    let s' := if hist then { s with fitVals := vals' } else s
    let times := past ++ aheadTimes
    if times.length ≠ vals'.length then (s', .error .otherError)
    else (s', .ok fun i => List.zipWith (fun t v => ⟨t, v i, -1, -1⟩) times vals')

end

end Kats

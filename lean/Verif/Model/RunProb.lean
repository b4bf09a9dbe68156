import Verif.Model.Py
import Mathlib.LinearAlgebra.Matrix.Notation
import Mathlib.Analysis.SpecialFunctions.Pow.Real

/-!
# `kats/detectors/interval_detector.py`: multiple-testing correction

The run probability (967-969, 1066-1116), `_get_lowest_m` (790-829) and `_get_lowest_p` (831-906).
Only the independent case `cov=None` is modelled here, which is the only one that `fit_predict` uses; `RunCov.lean` has
the others.
Numbers are exact (float rounding outside); roots are real powers.
-/

namespace Kats

section
variable {K : Type} [Field K]

/-- `_w_independent` (967-969): `np.power(p, np.arange(m + 1)) * np.array([(1 - p)] * m + [1])`. -/
def wIndependent (m : Nat) (p : K) : List K :=
  List.zipWith (· * ·) ((List.range (m + 1)).map fun i => p ^ i) (List.replicate m (1 - p) ++ [1])

/-- `_A` (1101-1106).  The assignments in program order are: the superdiagonal of ones
`np.diag([1.0] * m, k=1)`, `A[:, 0] = w`, `A[-2, -1] = 0.0`, `A[-1, -1] = 1.0`; the last one that
touches an entry wins. -/
def companion (m : Nat) (w : List K) : Matrix (Fin (m + 1)) (Fin (m + 1)) K := fun i j =>
  if i.val = m ∧ j.val = m then 1
  else if i.val + 1 = m ∧ j.val = m then 0
  else if j.val = 0 then w.getD i.val 0
  else if j.val = i.val + 1 then 1
  else 0

/-- `_vec_solve` (1108-1111) followed by `[0]` (1116): first entry of
`r @ matrix_power(A, n - m + 1)` with `r = [0] * m + [1]`. -/
def vecSolve (m : Nat) (w : List K) (n : Nat) : K :=
  Matrix.vecMul (fun i : Fin (m + 1) => if i.val = m then 1 else 0)
    (companion m w ^ (n - m + 1)) 0

/-- `_probability_of_at_least_one_m_run_in_n_trials` (1066-1116) with `cov=None`. -/
def runProb (p : K) (n m : Nat) : Except Err K :=
  if m = 0 then .error .valueError
  else if n = 0 then .error .valueError
  else if n < m then .error .valueError
  else .ok (vecSolve m (wIndependent m p) n)

variable [LinearOrder K]

/-- The loop of `_get_lowest_m` (817-829).  `fuel` only makes the recursion structural: with
`fuel ≥ max_iter` the loop guard `m < max_iter` fails before it is used up. -/
def lowestMLoop (pGlobal rTol : K) (n maxIter : Nat) : Nat → Nat → K → Except Err (Nat × K)
  | 0, _, _ => .error .otherError
  | fuel + 1, m, p =>
    if m < maxIter ∧ pGlobal ≤ p ∧ m ≤ n then do
      let p' ← runProb pGlobal n m
      if p' ≤ pGlobal * (rTol + 1) then .ok (m, p')
      else lowestMLoop pGlobal rTol n maxIter fuel (m + 1) p'
    else .error .otherError

/-- `_get_lowest_m` (795-829): the pair `(LowestM.m, LowestM.p)`. -/
def lowestM (p : K) (n : Nat) (rTol : K) (maxIter : Nat := 1000) : Except Err (Nat × K) :=
  lowestMLoop p rTol n maxIter maxIter 1 p

end

noncomputable section

/-- The loop of `_get_lowest_p` (885-906): `fuel` is the number of values of `i` left, so it starts
at `max_iter + 1`. -/
def lowestPLoop (m n : Nat) (pGoal rTol : ℝ) : Nat → ℝ → ℝ → Except Err (ℝ × ℝ)
  | 0, _, _ => .error .otherError
  | fuel + 1, pLow, pHigh =>
    if pLow ≤ pHigh then do
      let pc := (pHigh + pLow) / 2
      let pg ← runProb pc n m
      if pg ≤ pGoal * (rTol + 1) ∧ pGoal * (1 - rTol) ≤ pg then .ok (pc, pg)
      else if pg < pGoal then lowestPLoop m n pGoal rTol fuel pc pHigh
      else if pGoal < pg then lowestPLoop m n pGoal rTol fuel pLow pc
      else lowestPLoop m n pGoal rTol fuel pLow pHigh
    else .error .otherError

/-- `_get_lowest_p` (836-906): the pair `(LowestP.p_corrected, LowestP.p_global)`.  The caller has a
positive duration `m` (setter, 496-502), so the divisions by `m` and `n // m` are fine. -/
def lowestP (m n : Nat) (pGoal rTol : ℝ) (maxIter : Nat := 1000) : Except Err (ℝ × ℝ) :=
  if n < m then .error .valueError
  else if n = m then .ok (pGoal ^ ((1 : ℝ) / m), pGoal)
  else if rTol < 1 / 10 ^ 9 then .error .valueError
  else lowestPLoop m n pGoal rTol (maxIter + 1)
    ((pGoal / n) ^ ((1 : ℝ) / m))
    ((1 - (1 - pGoal) ^ ((1 : ℝ) / ((n / m : Nat) : ℝ))) ^ ((1 : ℝ) / m))

end

end Kats

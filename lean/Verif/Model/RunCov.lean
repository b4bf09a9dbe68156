import Verif.Model.RunProb
import Mathlib.Algebra.Order.Field.Basic

/-!
# `kats/detectors/interval_detector.py`: weights of runs with a covariance

`_w_one_tailed`, `_w_two_tailed` and `_w`. `scipy`'s probability of a box is a parameter: it gets the first row of the
part of the covariance that is used, and the intervals. The quantiles of the normal distribution are a parameter too.
The warning for long runs is left out.
-/

namespace Kats

variable {K : Type} [Field K] [LinearOrder K]

/-- An interval of integration; `none` is infinite. -/
abbrev RcIv (K : Type) := Option K × Option K

/-- `_w_one_tailed` (971-1001): `upper` for `ONE_SIDED_UPPER`. -/
def rcOne (box : ℕ → List (RcIv K) → K) (upper : Bool) (z : K) (m : ℕ) : List K :=
  let reject : RcIv K := if upper then (some z, none) else (none, some (-z))
  let fail : RcIv K := if upper then (none, some z) else (some (-z), none)
  ((List.range m).map fun j => box (m - 1 - j) ((List.replicate (m - 1) reject ++ [fail]).drop (m - 1 - j))) ++
    [box 0 (List.replicate m reject)]

/-- `itertools.product("lh", repeat=n)`; True is `h`. -/
def rcRegions : ℕ → List (List Bool)
  | 0 => [[]]
  | n + 1 => (rcRegions n).map (false :: ·) ++ (rcRegions n).map (true :: ·)

/-- The interval of a region. -/
def rcRegion (z : K) (h : Bool) : RcIv K := if h then (some z, none) else (none, some (-z))

/-- `_w_two_tailed` (1003-1050). -/
def rcTwo (box : ℕ → List (RcIv K) → K) (z : K) (m : ℕ) : List K :=
  ((List.range m).map fun j =>
    ((rcRegions (m - 1 - (m - 1 - j))).map fun r =>
      box (m - 1 - j) (r.map (rcRegion z) ++ [(some (-z), some z)])).sum) ++
    [((rcRegions m).map fun r => box 0 (r.map (rcRegion z))).sum]

/-- `_w` (1052-1063): `cov` is `none` without a covariance, otherwise its probabilities of boxes; `side` is `none` for
`TWO_SIDED`, otherwise whether it is `ONE_SIDED_UPPER`; `ppf` are the quantiles (975, 1010). -/
def rcW (cov : Option (ℕ → List (RcIv K) → K)) (side : Option Bool) (ppf : K → K) (m : ℕ) (p : K) : List K :=
  match cov, side with
  | none, _ => wIndependent m p
  | some box, none => rcTwo box (ppf (1 - p / 2)) m
  | some box, some upper => rcOne box upper (ppf (1 - p)) m

/-- `_probability_of_at_least_one_m_run_in_n_trials` (1066-1116) with any `cov`. -/
def rcRunProb (cov : Option (ℕ → List (RcIv K) → K)) (side : Option Bool) (ppf : K → K) (p : K) (n m : ℕ) :
    Except Err K :=
  if m = 0 then .error .valueError
  else if n = 0 then .error .valueError
  else if n < m then .error .valueError
  else .ok (vecSolve m (rcW cov side ppf m p) n)

end Kats

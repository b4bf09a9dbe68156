import Verif.Model.Py
import Mathlib.Algebra.Order.Floor.Ring
import Mathlib.Data.Rat.Floor

/-!
# `kats/consts.py`, `TimeSeriesChangePoint`, and `kats/detectors/cusum_detection.py`, `CUSUMChangePoint`: equality

Comparison of change points with `==`, their hashes, and the approximate comparison of two CUSUM change points.
-/

namespace Kats

/-- The fields of every change point; `none` is NaN. -/
structure CpBase (F : Type) where
  start : ℤ
  stop : ℤ
  confidence : Option F

/-- A mean or difference of a CUSUM change point: a number or, for several series at once, an array. -/
inductive CpNum (F : Type) where
  | scalar (x : Option F)
  | array (l : List F)

/-- The further fields of a `CUSUMChangePoint`. -/
structure CpCusum (F : Type) where
  direction : String
  index : ℤ
  mu0 : CpNum F
  mu1 : CpNum F
  delta : CpNum F
  llrInt : Option F
  llr : Option F
  regression : Bool
  stable : Bool
  pValue : Option F
  pValueInt : Option F

/-- Objects that are compared: a `TimeSeriesChangePoint`, an object of a subclass that does not define `__eq__`
(BOCPD, robust, Mann-Kendall and DTW change points; `extra` stands for the class and its further fields), a
`CUSUMChangePoint`, or an object of an unrelated type that knows nothing of change points, by its identity. -/
inductive CpObj (F : Type) where
  | base (b : CpBase F)
  | sub (b : CpBase F) (extra : String)
  | cusum (b : CpBase F) (c : CpCusum F)
  | other (n : ℕ)

variable {F : Type} [DecidableEq F]

/-- `==` of two floats: NaN is not equal to anything. -/
def cpFeq : Option F → Option F → Bool
  | some x, some y => decide (x = y)
  | _, _ => false

/-- The truth value of `==` of two means: arrays of more than one element have none. (An array and a number are
compared elementwise; such pairs do not come from one detector and count as arrays of that size.) -/
def cpNumEq : CpNum F → CpNum F → Except Err Bool
  | .scalar x, .scalar y => .ok (cpFeq x y)
  | .array [x], .array [y] => .ok (decide (x = y))
  | .array [x], .scalar y => .ok (cpFeq (some x) y)
  | .scalar x, .array [y] => .ok (cpFeq x (some y))
  | .array [], _ => .ok false
  | _, .array [] => .ok false
  | _, _ => .error .valueError

/-- A chain of `and`: the first that is false ends it. -/
def cpAnd : List (Except Err Bool) → Except Err Bool
  | [] => .ok true
  | .error e :: _ => .error e
  | .ok false :: _ => .ok false
  | .ok true :: l => cpAnd l

/-- The three comparisons of `TimeSeriesChangePoint.__eq__` (consts.py:143-149) with another change point. -/
def cpBaseEq (a b : CpBase F) : Bool :=
  decide (a.start = b.start) && decide (a.stop = b.stop) && cpFeq a.confidence b.confidence

/-- `CUSUMChangePoint.__eq__` (cusum_detection.py:249-269) for two CUSUM change points. -/
def cpCusumEq (a : CpBase F) (c : CpCusum F) (b : CpBase F) (d : CpCusum F) : Except Err Bool :=
  cpAnd [.ok (decide (a.start = b.start)), .ok (decide (a.stop = b.stop)),
    .ok (cpFeq a.confidence b.confidence), .ok (decide (c.direction = d.direction)),
    .ok (decide (c.index = d.index)), cpNumEq c.delta d.delta, .ok (decide (c.regression = d.regression)),
    .ok (decide (c.stable = d.stable)), cpNumEq c.mu0 d.mu0, cpNumEq c.mu1 d.mu1, .ok (cpFeq c.llr d.llr),
    .ok (cpFeq c.llrInt d.llrInt), .ok (cpFeq c.pValue d.pValue)]

/-- `a == b`. If the type of `b` is a proper subclass of that of `a`, Python asks `b` first; an unrelated object
leaves the answer to the change point (`isinstance(other, TimeSeriesChangePoint)` is False then, and the CUSUM
change point raises a NotImplementedError, lines 250-252), two unrelated ones are compared by identity. -/
def cpEq : CpObj F → CpObj F → Except Err Bool
  | .base a, .base b => .ok (cpBaseEq a b)
  | .base a, .sub b _ => .ok (cpBaseEq b a)
  | .base _, .cusum _ _ => .error .notImplemented
  | .sub a _, .base b => .ok (cpBaseEq a b)
  | .sub a _, .sub b _ => .ok (cpBaseEq a b)
  | .sub a _, .cusum b _ => .ok (cpBaseEq a b)
  | .cusum a c, .cusum b d => cpCusumEq a c b d
  | .cusum _ _, _ => .error .notImplemented
  | .other m, .other n => .ok (decide (m = n))
  | .other _, .cusum _ _ => .error .notImplemented
  | .other _, _ => .ok false
  | _, .other _ => .ok false

/-- `hash(a)` (consts.py:151-153): of a string that is no f-string, the same for all (`text` is the hash of that
string). A class that defines `__eq__` and not `__hash__` cannot be hashed. Of unrelated objects the identity. -/
def cpHash (text : ℤ) : CpObj F → Except Err ℤ
  | .base _ => .ok text
  | .sub _ _ => .ok text
  | .cusum _ _ => .error .typeError
  | .other n => .ok n

/-- Rounding to the nearest integer, halves to even. -/
def cpHalfEven (q : ℚ) : ℤ :=
  if q - ⌊q⌋ < 1 / 2 then ⌊q⌋
  else if 1 / 2 < q - ⌊q⌋ then ⌊q⌋ + 1
  else if ⌊q⌋ % 2 = 0 then ⌊q⌋ else ⌊q⌋ + 1

/-- `round(x, r)` times `10 ** r`. -/
def cpRound (r : ℕ) (x : ℚ) : ℤ := cpHalfEven (x * 10 ^ r)

/-- `CUSUMChangePoint._almost_equal` (cusum_detection.py:271-276) for finite numbers. Python floats (`py`) raise a
ZeroDivisionError; a NumPy number divided by 0 is infinite, and so is its rounding. -/
def cpAlmost (py : Bool) (r : ℕ) (x y : ℚ) : Except Err Bool :=
  if x = y then .ok true
  else if cpRound r x = cpRound r y then .ok true
  else if x = 0 then (if py then .error .otherError else .ok false)
  else .ok (decide (cpRound r |(y - x) / x| = 0))

/-- `CUSUMChangePoint.almost_equal` (cusum_detection.py:278-306): `exact` are the comparisons by `==`, `pairs` the
pairs of numbers that are compared approximately; all are computed before `all`. -/
def cpAlmostAll (py : Bool) (r : ℕ) (exact : List Bool) (pairs : List (ℚ × ℚ)) : Except Err Bool := do
  let l ← pairs.mapM fun p => cpAlmost py r p.1 p.2
  return (exact ++ l).all id

end Kats

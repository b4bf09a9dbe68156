import Verif.Model.Py
import Mathlib.Algebra.Order.Ring.Rat

/-!
# `kats/detectors/prophet_detector.py` and `kats/detectors/interval_detector.py`: loading detectors from JSON

The repair of the text of a Prophet model that was saved with time zones, and the saving and loading of the interval
detectors. The text is a list of characters; `model_from_json` and `tz_localize` are parameters.
-/

namespace Kats

/-- `\d` in a pattern of bytes. -/
def djDigit (c : Char) : Bool := '0' ≤ c && c ≤ '9'

/-- `\w` in a pattern of bytes. -/
def djWord (c : Char) : Bool := djDigit c || ('a' ≤ c && c ≤ 'z') || ('A' ≤ c && c ≤ 'Z') || c == '_'

/-- `\d+` and a separator, at the beginning of `l`: what was matched and the rest. No separator is a digit, so there
is one way to match. -/
def djNum (sep : Char) (l : List Char) : Option (List Char × List Char) :=
  match l.dropWhile djDigit with
  | [] => none
  | c :: r => if l.takeWhile djDigit ≠ [] ∧ c = sep then some (l.takeWhile djDigit ++ [c], r) else none

/-- The pattern of `load_model_from_json` (prophet_detector.py:323-324) after its first quote: the group without that
quote, and the text after the match. `\d+\w` before a backslash is a run of word characters of which all but the last
are digits. -/
def djMatch (l : List Char) : Option (List Char × List Char) := do
  let (a, l) ← djNum '-' l
  let (b, l) ← djNum '-' l
  let (c, l) ← djNum 'T' l
  let (d, l) ← djNum ':' l
  let (e, l) ← djNum ':' l
  let (f, l) ← djNum '.' l
  let w := l.takeWhile djWord
  match l.dropWhile djWord with
  | '\\' :: '"' :: r =>
    if w.dropLast ≠ [] ∧ w.dropLast.all djDigit then some (a ++ (b ++ (c ++ (d ++ (e ++ (f ++ w.dropLast))))), r)
    else none
  | _ => none

/-- `re.sub` (prophet_detector.py:325-326), with at most `n` characters to read: the first match is replaced by the
group, a backslash and a quote (`\"` is no escape of the replacement and stays), then the search goes on after it. -/
def djSubN : ℕ → List Char → List Char
  | 0, l => l
  | _ + 1, [] => []
  | n + 1, c :: l =>
    if c = '"' then
      match djMatch l with
      | some (g, r) => '"' :: (g ++ '\\' :: '"' :: djSubN n r)
      | none => '"' :: djSubN n l
    else c :: djSubN n l

/-- `re.sub` on the whole text. -/
def djSub (l : List Char) : List Char := djSubN l.length l

/-- `load_model_from_json` (prophet_detector.py:317-329). -/
def djLoad {M : Type} (fromJson : List Char → Except Err M) (noZone : M → Except Err M) (t : List Char) :
    Except Err M :=
  match fromJson t with
  | .ok m => .ok m
  | .error .typeError => do
    let m ← fromJson (djSub t)
    noZone m
  | .error e => .error e

/-- `ProphetTrendDetectorModel.__init__` (prophet_detector.py:791-794) with a text. -/
def djTrendLoad {M : Type} (fromJson : List Char → Except Err M) (t : List Char) : Except Err M := fromJson t

/-- `TestType` (interval_detector.py:253-257). -/
inductive DjTest where
  | lower | upper | both
deriving DecidableEq

/-- `TestStatistic` (interval_detector.py:247-250). -/
inductive DjStat where
  | absolute | relative
deriving DecidableEq

/-- The parameters of an interval detector; one-sample detectors have no statistic. -/
structure DjCfg where
  alpha : ℚ
  duration : Option ℤ
  test : DjTest
  stat : Option DjStat
deriving DecidableEq

/-- A value of the dictionary. -/
inductive DjVal where
  | num (x : ℚ)
  | int (n : ℤ)
  | null
  | str (s : String)
deriving DecidableEq

/-- `test_type.value`. -/
def DjTest.value : DjTest → String
  | .lower => "one_sided_lower"
  | .upper => "one_sided_upper"
  | .both => "two_sided"

/-- `TestType(...)`. -/
def djTest : DjVal → Except Err DjTest
  | .str s => if s = "one_sided_lower" then .ok .lower else if s = "one_sided_upper" then .ok .upper
    else if s = "two_sided" then .ok .both else .error .valueError
  | _ => .error .valueError

/-- `test_statistic.value`. -/
def DjStat.value : DjStat → String
  | .absolute => "absolute_difference"
  | .relative => "relative_difference"

/-- `TestStatistic(...)`. -/
def djStat : DjVal → Except Err DjStat
  | .str s => if s = "absolute_difference" then .ok .absolute
    else if s = "relative_difference" then .ok .relative else .error .valueError
  | _ => .error .valueError

/-- The setters of `alpha` and `duration` (interval_detector.py:448-457 and 496-502). -/
def djSet (alpha : Option ℚ) (duration : Option ℤ) : Except Err (ℚ × Option ℤ) := do
  let a ← match alpha with
    | none => .error .valueError
    | some a => if a < 0 ∨ 1 < a then .error .valueError else .ok a
  let d ← match duration with
    | none => .ok none
    | some d => if d ≤ 0 then .error .valueError else .ok (some d)
  return (a, d)

/-- `__init__` without a serialized model (interval_detector.py:428-431; two samples: 1458-1459). -/
def djNew (alpha : Option ℚ) (duration : Option ℤ) (test : Option DjTest) (stat : Option (Option DjStat)) :
    Except Err DjCfg := do
  let (a, d) ← djSet alpha duration
  let t ← match test with
    | none => .error .valueError
    | some t => .ok t
  match stat with
  | none => return ⟨a, d, t, none⟩
  | some none => .error .valueError
  | some (some s) => return ⟨a, d, t, some s⟩

/-- `json` and `serialize` (interval_detector.py:540-560 and 1479-1481). -/
def djSave (c : DjCfg) : List (String × DjVal) :=
  [("alpha", .num c.alpha), ("duration", match c.duration with | none => .null | some d => .int d),
    ("test_type", .str c.test.value)] ++
  match c.stat with
  | none => []
  | some s => [("test_statistic", .str s.value)]

/-- `model_dict[key]`. -/
def djGet (m : List (String × DjVal)) (key : String) : Except Err DjVal :=
  match m.lookup key with
  | none => .error .keyError
  | some v => .ok v

/-- `__init__` with a serialized model (interval_detector.py:422-427; `two`: 1455-1457). A number that is a text, or a
duration that is no integer, does not come from `serialize`. -/
def djRestore (two : Bool) (m : List (String × DjVal)) : Except Err DjCfg := do
  let a ← match ← djGet m "alpha" with
    | .num x => .ok (some x)
    | .int n => .ok (some (n : ℚ))
    | .null => .ok none
    | .str _ => .error .typeError
  let d ← match ← djGet m "duration" with
    | .int n => .ok (some n)
    | .null => .ok none
    | _ => .error .typeError
  let (a, d) ← djSet a d
  let t ← djTest (← djGet m "test_type")
  if two then
    let s ← djStat (← djGet m "test_statistic")
    return ⟨a, d, t, some s⟩
  else return ⟨a, d, t, none⟩

/-- What `fit_predict` does to the parameters (interval_detector.py:700-712): `best` is the duration found for the
data, at least 1. -/
def djFit (best : ℕ → ℤ) (length : ℕ) (c : DjCfg) : DjCfg :=
  match c.duration with
  | none => { c with duration := some (best length) }
  | some _ => c

end Kats

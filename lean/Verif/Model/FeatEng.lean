import Verif.Model.Py
import Mathlib.Analysis.SpecialFunctions.Trigonometric.Basic
import Mathlib.Algebra.Order.Floor.Ring
import Mathlib.Logic.Function.Iterate

/-!
# `kats/utils/feature_engineering.py`

Timestamps are whole microseconds since 1970-01-01 00:00 UTC; a time zone gives the offset from UTC.  What pandas reads off
a timestamp (year, month, day, weekday) is computed here with the Gregorian calendar, counted day by day from 1970-01-01.
-/

namespace Kats

/-- A date of the Gregorian calendar. -/
structure CivDate where
  year : Int
  month : Nat
  day : Nat
deriving DecidableEq

/-- `DatetimeIndex.is_leap_year` -/
def isLeap (y : Int) : Prop := y % 4 = 0 ∧ (y % 100 ≠ 0 ∨ y % 400 = 0)

instance (y : Int) : Decidable (isLeap y) := inferInstanceAs (Decidable (_ ∧ _))

/-- The number of days of a month. -/
def daysIn (y : Int) (m : Nat) : Nat :=
  if m = 2 then (if isLeap y then 29 else 28) else if m = 4 ∨ m = 6 ∨ m = 9 ∨ m = 11 then 30 else 31

/-- The next day. -/
def CivDate.next (c : CivDate) : CivDate :=
  if c.day < daysIn c.year c.month then ⟨c.year, c.month, c.day + 1⟩
  else if c.month < 12 then ⟨c.year, c.month + 1, 1⟩ else ⟨c.year + 1, 1, 1⟩

/-- The day before. -/
def CivDate.prev (c : CivDate) : CivDate :=
  if 1 < c.day then ⟨c.year, c.month, c.day - 1⟩
  else if 1 < c.month then ⟨c.year, c.month - 1, daysIn c.year (c.month - 1)⟩ else ⟨c.year - 1, 12, 31⟩

/-- The date of a day counted from 1970-01-01. -/
def civil : Int → CivDate
  | .ofNat n => CivDate.next^[n] ⟨1970, 1, 1⟩
  | .negSucc n => CivDate.prev^[n + 1] ⟨1970, 1, 1⟩

/-- `dayofweek`, Monday is 0; 1970-01-01 was a Thursday. -/
def dayOfWeek (d : Int) : Int := (d + 3) % 7

/-- `_SEASON_MAP`, lines 15-32. -/
def seasonMap : List (Int × Int) :=
  [(0, 0), (1, 0), (2, 1), (3, 1), (4, 1), (5, 1), (6, 2), (7, 2), (8, 2), (9, 3), (10, 3), (11, 3), (12, 0)]

/-- `_DAYTIME_MAP`, lines 34-61. -/
def daytimeMap : List (Int × Int) :=
  [(0, 0), (1, 0), (2, 0), (3, 0), (4, 0), (5, 1), (6, 1), (7, 1), (8, 2), (9, 2), (10, 2), (11, 2), (12, 2), (13, 3),
   (14, 3), (15, 3), (16, 3), (17, 3), (18, 4), (19, 4), (20, 5), (21, 5), (22, 5), (23, 0)]

/-- `_map`, lines 64-83: for every entry of the dictionary the places where the original has the key are overwritten. -/
def mapArr (values : List Int) (m : List (Int × Int)) : List Int :=
  m.foldl (fun result kv => List.zipWith (fun v r => if v = kv.1 then kv.2 else r) values result) values

/-- A time zone: the offset from UTC in microseconds at a time, and what `dst()` gives (`none` for zones such as
`datetime.timezone`, whose `dst()` is `None`). -/
structure Zone where
  offset : Int → Int
  dst : Int → Option Int

/-- A day in microseconds. -/
def usDay : Int := 86400000000

/-- The local time of a timestamp; without a time zone it is the timestamp itself. -/
def localTime (z : Option Zone) (t : Int) : Int :=
  match z with
  | none => t
  | some z => t + z.offset t

/-- The day number of the first of the month of a day. -/
def firstOfMonth (d : Int) : Int := d - ((civil d).day - 1)

/-- `weekofmonth`, lines 115-125: the first of the month is that of the date in UTC, the day the local one. -/
def weekOfMonth (z : Option Zone) (t : Int) : Int :=
  let d := localTime z t / usDay
  let first := firstOfMonth (t / usDay)
  ⌈((dayOfWeek first + (civil d).day : Int) : ℚ) / 7⌉

/-- The date features (without the day of the year, the quarter and the ISO week, which pandas gives). -/
structure DateFeat where
  year : Int
  month : Int
  day : Int
  dayofweek : Int
  season : Int
  weekofmonth : Int
  isWeekend : Bool
  isLeapYear : Bool
  isLeapDay : Bool
  isMonthEnd : Bool
  isQuarterEnd : Bool

/-- `is_month_end`: the last day of its month. -/
def isMonthEnd (c : CivDate) : Bool := decide (c.day = daysIn c.year c.month)

/-- `date_features`, lines 86-141, for one row; `season` is the entry of its row. -/
def dateFeat (z : Option Zone) (season : Int) (t : Int) : DateFeat :=
  let d := localTime z t / usDay
  let c := civil d
  { year := c.year, month := c.month, day := c.day, dayofweek := dayOfWeek d
    season := season
    weekofmonth := weekOfMonth z t
    isWeekend := decide (dayOfWeek d ≥ 5)
    isLeapYear := decide (isLeap c.year)
    isLeapDay := decide (c.month = 2 ∧ c.day = 29)
    isMonthEnd := isMonthEnd c
    isQuarterEnd := isMonthEnd c && decide (c.month % 4 = 3) }

/-- `date_features` on an index. -/
def dateFeatures (z : Option Zone) (ts : List Int) : List DateFeat :=
  let months := ts.map fun t => ((civil (localTime z t / usDay)).month : Int)
  List.zipWith (dateFeat z) (mapArr months seasonMap) ts

/-- The time features. -/
structure TimeFeat where
  hour : Int
  minute : Int
  second : Int
  milliseconds : ℚ
  quarterhour : Int
  hourofweek : Int
  daytime : Int
  dst : Option ℚ
  utcoffset : Option ℚ

/-- `dst` and `utcoffset`, lines 174-186: `None.total_seconds()` raises, and then both are NaN. -/
def dstOffset (z : Option Zone) (t : Int) : Option ℚ × Option ℚ :=
  match z with
  | none => (none, none)
  | some z => match z.dst t with
    | none => (none, none)
    | some s => (some ((s : ℚ) / 1000000), some ((z.offset t : ℚ) / 1000000))

/-- The hour of a local time. -/
def hourOfDay (l : Int) : Int := l % usDay / 3600000000

/-- `time_features`, lines 144-188, for one row; `daytime` is the entry of its row. -/
def timeFeat (z : Option Zone) (daytime : Int) (t : Int) : TimeFeat :=
  let l := localTime z t
  let minute := l % 3600000000 / 60000000
  { hour := hourOfDay l, minute := minute, second := l % 60000000 / 1000000
    milliseconds := ((l % 1000000 : Int) : ℚ) / 1000
    quarterhour := minute / 15 + 1
    hourofweek := dayOfWeek (l / usDay) * 24 + hourOfDay l
    daytime := daytime
    dst := (dstOffset z t).1, utcoffset := (dstOffset z t).2 }

/-- `time_features` on an index. -/
def timeFeatures (z : Option Zone) (ts : List Int) : List TimeFeat :=
  List.zipWith (timeFeat z) (mapArr (ts.map fun t => hourOfDay (localTime z t)) daytimeMap) ts

/-- `circle_encode`, lines 224-251, for one feature: the columns `f_cos` and `f_sin`.  A period of 0 divides by zero.
`Int.fmod`-like remainder of pandas: `x - period * ⌊x / period⌋`. -/
noncomputable def circleEncode (xs : List ℝ) (period : Int) (modulo : Bool) : Except Err (List ℝ × List ℝ) :=
  if period = 0 then .error .otherError
  else
    let f := fun x : ℝ => (if modulo then x - period * ⌊x / period⌋ else x) * (Real.pi * 2 / period)
    .ok (xs.map fun x => Real.cos (f x), xs.map fun x => Real.sin (f x))

end Kats

import Verif.Model.Py
import Mathlib.Analysis.SpecialFunctions.Trigonometric.Basic
import Mathlib.Data.List.Dedup

/-!
# `kats/tsfeatures/tsfeatures.py`: time, calendar and Fourier features

Times are whole seconds (UTC, no time zone) since 1970-01-01.  The civil and the ISO calendar are parameters, functions of
the number of the day; weekdays, hours and minutes are calculated.  Numbers are reals.
-/

namespace Kats

/-- A calendar: year, month and day, ISO year and week, and the day of the year of the day with the given number. -/
structure Calendar where
  ymd : Int → Int × Nat × Nat
  iso : Int → Int × Nat
  doy : Int → Nat

/-- The number of the day of a time. -/
def dayNum (t : Int) : Int := t / 86400

/-- `index.weekday`: Monday is zero; 1970-01-01 was a Thursday. -/
def weekdayOf (t : Int) : Nat := ((dayNum t + 3) % 7).toNat

/-- `nunique` -/
def nuniqueOf {α : Type} [DecidableEq α] (l : List α) : Nat := l.dedup.length

/-- 1994-2124, `get_time`: the counts.  The time zone offset (2071-2080) is not modelled; the switches are those of
`tsEmit`. -/
structure TimeCounts where
  years : Nat
  months : Nat
  monthsofyear : Nat
  weeks : Nat
  weeksofyear : Nat
  days : Nat
  daysofyear : Nat

/-- 2041-2069 (2063 formats with `%Y-%d`). -/
def timeCounts (c : Calendar) (ts : List Int) : TimeCounts where
  years := nuniqueOf (ts.map fun t => (c.ymd (dayNum t)).1)
  months := nuniqueOf (ts.map fun t => ((c.ymd (dayNum t)).1, (c.ymd (dayNum t)).2.1))
  monthsofyear := nuniqueOf (ts.map fun t => (c.ymd (dayNum t)).2.1)
  weeks := nuniqueOf (ts.map fun t => c.iso (dayNum t))
  weeksofyear := nuniqueOf (ts.map fun t => (c.iso (dayNum t)).2)
  days := nuniqueOf (ts.map fun t => ((c.ymd (dayNum t)).1, (c.ymd (dayNum t)).2.2))
  daysofyear := nuniqueOf (ts.map fun t => c.doy (dayNum t))

/-- 2082-2085, `time_length_days`. -/
def timeLengthDays (ts : List Int) : Int :=
  (ts.foldr max (ts.headD 0) - ts.foldr min (ts.headD 0)) / 86400

/-- 2087-2120, `time_freq_<weekday>`. -/
def timeFreq (ts : List Int) (k : Nat) : ℚ := (ts.countP fun t => decide (weekdayOf t = k) : Nat) / (ts.length : ℚ)

/-- `hour` and `minute` of a time. -/
def hourOf (t : Int) : Int := t % 86400 / 3600

def minuteOf (t : Int) : Int := t % 3600 / 60

/-- 2174-2176, `minuteofday`. -/
def minuteOfDay (t : Int) : Int := hourOf t * 60 + minuteOf t

noncomputable section

/-- 2187-2213: an instance of `TsFourierFeatures`. -/
structure Fourier where
  period : List ℝ
  order : List Nat
  offset : ℝ

open Classical in
/-- 2196-2216, the constructor with lists for `fourier_period` and `fourier_order` (`otherError` is `AssertionError`). -/
def Fourier.init (period : List ℝ) (order : List Nat) (offset : ℝ) : Except Err Fourier :=
  if period.length ≠ order.length then .error .otherError
  else if offset < 0 then .error .otherError
  else .ok ⟨period, order, offset⟩

/-- The assignment of `v` to `l[start::2]`. -/
def setEvery2 {α : Type} (l : List α) (start : Nat) (v : List α) : List α :=
  (List.range v.length).foldl (fun acc i => match v[i]? with | some a => acc.set (start + 2 * i) a | none => acc) l

/-- A column name: period, order, and whether it is a sine; `none` is the empty string. -/
abbrev FourierName := Option (ℝ × Nat × Bool)

/-- 2218-2228, `_get_columns`. -/
def fourierColumns (f : Fourier) : List FourierName :=
  (f.period.zip f.order).flatMap fun pr =>
    let tmp := List.replicate (pr.2 * 2) none
    let tmp := setEvery2 tmp 0 ((List.range pr.2).map fun i : Nat => some (pr.1, i + 1, true))
    setEvery2 tmp 1 ((List.range pr.2).map fun i : Nat => some (pr.1, i + 1, false))

/-- 2270-2274: the columns for one order; the state is the row and the next column. -/
def fourierStep (val : ℝ) (s : List ℝ × Nat) (i : Nat) : List ℝ × Nat :=
  ((s.1.set s.2 (Real.sin (val * (i + 1 : Nat)))).set (s.2 + 1) (Real.cos (val * (i + 1 : Nat))), s.2 + 2)

/-- 2267-2269: the columns for one period. -/
def fourierPeriod (x : ℝ) (s : List ℝ × Nat) (pr : ℝ × Nat) : List ℝ × Nat :=
  (List.range pr.2).foldl (fourierStep (2 * Real.pi * x / pr.1)) s

/-- 2252-2275, `_compute_fourier_order`, for one entry of the data; the new array is zero here, and a division by zero
gives zero. -/
def fourierRow (f : Fourier) (x : ℝ) : List ℝ :=
  ((f.period.zip f.order).foldl (fourierPeriod x) (List.replicate (f.order.sum * 2) 0, 0)).1

/-- 2230-2250, `get_features` for one time in nanoseconds. -/
def fourierFeatures (f : Fourier) (ns : Int) : List ℝ := fourierRow f (((ns / 10 ^ 9 : Int) : ℝ) / f.offset)

end

end Kats

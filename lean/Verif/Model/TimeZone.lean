import Verif.Model.Py
import Mathlib.Logic.ExistsUnique

/-!
# `kats/consts.py`: time zones in `TimeSeriesData`

Times are seconds; a time with a zone is held as the instant, a time without as what the clock shows, and
`none` is NaT.  The labels of the index are held beside the times and the values, because the methods put
them together by label.  One column of values; `none` is NaN.  The shift rules for times that do not exist
and the rule `infer` are parameters.
-/

namespace Kats

noncomputable section
open Classical

/-- The zones by name: how far the clock is ahead, at every instant. -/
structure TzWorld where
  zone : String → Option (Int → Int)
  /-- `ambiguous="infer"`, for the clock times of a zone and a position. -/
  infer : (Int → Int) → List (Option Int) → Nat → Except Err (Option Int)
  /-- The shifts of times that do not exist. -/
  shift : (Int → Int) → Int → Int

/-- `tz_ambiguous`. -/
inductive TzAmb where
  | raise
  | infer
  | nat

/-- `tz_nonexistent`; both shifts are one. -/
inductive TzNon where
  | raise
  | shift
  | nat

/-- A series: the zone, and times and values with their labels. -/
structure TzSeries (V : Type) where
  zone : Option String
  time : List (Nat × Option Int)
  value : List (Nat × Option V)

/-- `sort_values` on the time column: NaT last. -/
structure TzSort (V : Type) where
  run : List (Option Int × Option V) → List (Option Int × Option V)
  perm : ∀ l, (run l).Perm l
  sorted : ∀ l, (run l).Pairwise fun a b => ∀ t, b.1 = some t → ∃ s, a.1 = some s ∧ s ≤ t

/-- `reset_index(drop=True)`. -/
def tzReset {α : Type} (l : List α) : List (Nat × α) := (List.range l.length).zip l

/-- A zone by its name; `pytz.UnknownTimeZoneError` is a KeyError. -/
def tzZone (W : TzWorld) (z : String) : Except Err (Int → Int) :=
  match W.zone z with
  | some off => .ok off
  | none => .error .keyError

/-- `tz_localize` of the clock time at one position.  The exceptions of pytz are not ValueErrors. -/
def tzLocal (W : TzWorld) (off : Int → Int) (amb : TzAmb) (non : TzNon) (l : List (Option Int)) (i : Nat) :
    Option Int → Except Err (Option Int)
  | none => .ok none
  | some w =>
    if h : ∃! u, u + off u = w then .ok (some h.choose)
    else if ∃ u, u + off u = w then match amb with
      | .raise => .error .otherError
      | .infer => W.infer off l i
      | .nat => .ok none
    else match non with
      | .raise => .error .otherError
      | .shift => .ok (some (W.shift off w))
      | .nat => .ok none

/-- `DatetimeIndex.tz_localize`. -/
def tzLocalize (W : TzWorld) (off : Int → Int) (amb : TzAmb) (non : TzNon) (l : List (Option Int)) :
    Except Err (List (Option Int)) :=
  (tzReset l).mapM fun e => tzLocal W off amb non l e.1 e.2

/-- The time column before `_set_time_format`. -/
inductive TzColumn where
  /-- Time stamps, with their zone. -/
  | stamps (zone : Option String) (l : List (Option Int))
  /-- Numbers. -/
  | numbers (l : List Int)
  /-- Texts, with what they are parsed to. -/
  | texts (l : List (Option Int))

/-- `_set_time_format` (583-653) with `unit` seconds in the unit of unix time: the zone and the times.
Texts as unix times, and numbers as dates in nanoseconds (rounded down to seconds), are not told apart
further. -/
def tzFormat (W : TzWorld) (unix : Bool) (unit : Int) (tz : Option String) (amb : TzAmb) (non : TzNon)
    (c : TzColumn) : Except Err (Option String × List (Option Int)) :=
  match c with
  | .stamps z l => .ok (z, l)
  | .numbers l =>
    let l := l.map fun n => some (if unix then n * unit else n / 1000000000)
    match tz with
    | none => .ok (none, l)
    | some z =>
      if z = "" then .ok (none, l)
      else do
        let off ← tzZone W z
        if unix then pure (some z, l)
        else do
          let l ← tzLocalize W off amb non l
          pure (some z, l)
  | .texts l =>
    if unix then .error .valueError
    else match tz with
    | none => .ok (none, l)
    | some z =>
      if z = "" then .ok (none, l)
      else do
        let off ← tzZone W z
        let l ← tzLocalize W off amb non l
        pure (some z, l)

/-- `drop_duplicates(subset=[time], keep="first")`, labels kept. -/
def tzDrop {V : Type} : List (Option Int) → List (Nat × Option Int × Option V) → List (Nat × Option Int × Option V)
  | _, [] => []
  | seen, r :: rs => if r.2.1 ∈ seen then tzDrop seen rs else r :: tzDrop (r.2.1 :: seen) rs

/-- `_sort_by_time` (948-960): only when the rows are sorted are they numbered again. -/
def tzSortRows {V : Type} (srt : TzSort V) (sort : Bool) (rows : List (Nat × Option Int × Option V)) :
    List (Nat × Option Int × Option V) :=
  if sort then tzReset (srt.run (rows.map (·.2))) else rows

/-- `_extract_from_df` (962-966). -/
def tzExtract {V : Type} (zone : Option String) (rows : List (Nat × Option Int × Option V)) : TzSeries V :=
  ⟨zone, rows.map fun r => (r.1, r.2.1), rows.map fun r => (r.1, r.2.2)⟩

/-- `__init__` with a frame (265-304). -/
def tzBuild {V : Type} (W : TzWorld) (srt : TzSort V) (unix : Bool) (unit : Int) (tz : Option String) (amb : TzAmb)
    (non : TzNon) (sort drop : Bool) (c : TzColumn) (vals : List (Option V)) : Except Err (TzSeries V) := do
  let f ← tzFormat W unix unit tz amb non c
  let rows := tzReset (f.2.zip vals)
  pure (tzExtract f.1 (tzSortRows srt sort (if drop then tzDrop [] rows else rows)))

/-- `to_dataframe` (834-860) with one column: the values are looked up by the labels of the times. -/
def tzFrame {V : Type} (s : TzSeries V) : List (Nat × Option Int × Option V) :=
  s.time.map fun e => (e.1, e.2, ((s.value.find? fun v => decide (v.1 = e.1)).map (·.2)).join)

/-- `convert_timezone` (1175-1185). -/
def tzConvert {V : Type} (W : TzWorld) (z : String) (s : TzSeries V) : Except Err (TzSeries V) :=
  if s.zone.isSome then do
    let _ ← tzZone W z
    pure { s with zone := some z, time := tzReset (s.time.map (·.2)) }
  else .ok s

/-- `set_timezone` (1187-1207). -/
def tzSet {V : Type} (W : TzWorld) (srt : TzSort V) (z : String) (amb : TzAmb) (non : TzNon) (sort : Bool)
    (s : TzSeries V) : Except Err (TzSeries V) :=
  if s.zone.isSome then .ok s
  else do
    let off ← tzZone W z
    let l ← tzLocalize W off amb non (s.time.map (·.2))
    pure (tzExtract (some z) (tzSortRows srt sort (tzFrame { s with zone := some z, time := tzReset l })))

end

end Kats

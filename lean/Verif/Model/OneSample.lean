import Verif.Model.Interval
import Mathlib.Data.Finset.Range
import Mathlib.Algebra.BigOperators.Group.Finset.Basic
import Mathlib.Data.Nat.Choose.Basic

/-!
# `kats/detectors/interval_detector.py`: the one-sample detector and the checks of the schema

The binomial distribution is written out; `beta.ppf` is a parameter.  Plotting is not modelled.
-/

namespace Kats

noncomputable section
open Classical

/-! ## The one-sample detector -/

/-- A row of one-sample data (`OneSampleColumns`, 76-81). -/
structure OSRow where
  time : Int
  value : ℝ
  variance : ℝ
  count : Int
  effect : ℝ

/-- `binom.pmf(i, n, p)`. -/
def osPmf (n : Nat) (p : ℝ) (i : Nat) : ℝ := (n.choose i : ℝ) * p ^ i * (1 - p) ^ (n - i)

/-- `binom.cdf(x, n, p)`: scipy rounds `x` down. -/
def osCdf (n : Nat) (p x : ℝ) : ℝ :=
  ∑ i ∈ (Finset.range (n + 1)).filter (fun i : ℕ => (i : ℝ) ≤ x), osPmf n p i

/-- `binom.sf(x, n, p)`. -/
def osSf (n : Nat) (p x : ℝ) : ℝ := 1 - osCdf n p x

/-- `binom.ppf(q, n, p)`: the least `k` with `q ≤ cdf k`; at the ends scipy answers `-1` and `n`. -/
def osPpf (q : ℝ) (n : Nat) (p : ℝ) : Int :=
  if q = 0 then -1
  else if q = 1 then n
  else
    match (List.range (n + 1)).find? (fun k : ℕ => decide (q ≤ osCdf n p (k : ℝ))) with
    | some k => k
    | none => n

/-- `_convert_alpha_to_critical_value` (1850-1863) at one row. -/
def osCritAt (q : ℝ) (r : OSRow) : ℝ := (osPpf q r.count.toNat r.effect : ℝ) / (r.count : ℝ)

/-- `_get_critical_value` (731-753) at one row. -/
def osCrit (t : TestType) (corrected : ℝ) (r : OSRow) : CriticalValue :=
  match t with
  | .oneSidedLower => ⟨some (osCritAt corrected r), none⟩
  | .oneSidedUpper => ⟨none, some (osCritAt (1 - corrected) r)⟩
  | .twoSided => ⟨some (osCritAt (corrected / 2) r), some (osCritAt (1 - corrected / 2) r)⟩

/-- 1883: `k = value * sample_count`. -/
def OSRow.k (r : OSRow) : ℝ := r.value * (r.count : ℝ)

/-- One entry of `_get_test_decision` (1178-1203); the test statistic is the value (1916). -/
def osRejected (t : TestType) (corrected : ℝ) (r : OSRow) : Bool :=
  rejected t (osCrit t corrected r) r.value

/-- `beta.ppf(q, a, b)`, NaN unless both parameters are positive. -/
def osBeta (B : ℝ → ℝ → ℝ → ℝ) (q a b : ℝ) : Option ℝ :=
  if 0 < a ∧ 0 < b then some (B q a b) else none

/-- The lower limit (1884-1890, 1900). -/
def osLower (B : ℝ → ℝ → ℝ → ℝ) (t : TestType) (corrected : ℝ) (r : OSRow) : Option ℝ :=
  match t with
  | .oneSidedLower => some 0
  | _ => osBeta B corrected r.k ((r.count : ℝ) - r.k + 1)

/-- The upper limit (1891-1897, 1903). -/
def osUpper (B : ℝ → ℝ → ℝ → ℝ) (t : TestType) (corrected : ℝ) (r : OSRow) : Option ℝ :=
  match t with
  | .oneSidedUpper => some 1
  | _ => osBeta B (1 - corrected) (r.k + 1) ((r.count : ℝ) - r.k)

/-- `stat_sig` (1898-1910). -/
def osStatSig (t : TestType) (r : OSRow) : ℝ :=
  match t with
  | .oneSidedLower => osCdf r.count.toNat r.effect r.k
  | .oneSidedUpper => osSf r.count.toNat r.effect r.k
  | .twoSided => min (osCdf r.count.toNat r.effect r.k) (osSf r.count.toNat r.effect r.k)

/-- One-sample `Schema._validate_data` (122-168, 212-237) on complete rows with integer counts. -/
def osValid (rows : List OSRow) : Prop := ∀ r ∈ rows, 0 < r.count ∧ 0 ≤ r.variance

/-- `_get_test_statistic_hook` (1865-1868). -/
def osHook (rows : List OSRow) : Prop :=
  ∀ r ∈ rows, 0 ≤ r.value ∧ r.value ≤ 1 ∧ 0 ≤ r.effect ∧ r.effect ≤ 1

/-- The arguments of `fit_predict` (562-572). -/
structure OSCall where
  data : List OSRow
  history : Option (List OSRow) := none
  consolidate : Bool := true
  padding : Int := 30
  rTol : ℝ := 1 / 10
  maskScores : Bool := false

/-- 610-614. -/
def OSCall.rows (c : OSCall) : List OSRow :=
  match c.history with
  | none => c.data
  | some h => h ++ c.data

/-- The `AnomalyResponse` (667-682). -/
structure OSResult where
  scores : List ℝ
  upper : List (Option ℝ)
  lower : List (Option ℝ)
  predicted : List Bool
  statSig : List ℝ

/-- Step 3 (633-645). -/
def osIntervals (s : IDState) (t : TestType) (c : OSCall) (corrected : ℝ) :
    Except Err (Option (List ABInterval) × Option (List ABInterval)) :=
  if c.consolidate then do
    let times := c.rows.map fun r => r.time
    let mask := c.rows.map (osRejected t corrected)
    let a ← getIntervals .reject times c.padding mask
    let b ← getIntervals .failToReject times c.padding mask
    return (some a, some b)
  else .ok (s.rejectIntervals, s.failIntervals)

/-- 657-682. -/
def osResult (B : ℝ → ℝ → ℝ → ℝ) (t : TestType) (c : OSCall) (corrected : ℝ)
    (predicted : List Bool) : OSResult :=
  { scores := if c.maskScores
      then c.rows.map fun r => if osRejected t corrected r then 1 else 0
      else c.rows.map fun r => r.value
    upper := c.rows.map (osUpper B t corrected)
    lower := c.rows.map (osLower B t corrected)
    predicted := predicted
    statSig := c.rows.map (osStatSig t) }

/-- `fit_predict` (562-682).  The state after an exception is not modelled. -/
def osFit (B : ℝ → ℝ → ℝ → ℝ) (t : TestType) (s : IDState) (c : OSCall) :
    Except Err (IDState × OSResult) :=
  if ¬ osValid c.data then .error .valueError
  else do
    let dc ← correctAlpha s c.rows.length c.rTol
    if ¬ osHook c.rows then .error .valueError
    else do
      let ivs ← osIntervals s t c dc.2
      let predicted ← idPredicted c.rows.length ivs.1 dc.1
      return ({ s with
        duration := some dc.1, corrected := some dc.2,
        rejectIntervals := ivs.1, failIntervals := ivs.2 },
        osResult B t c dc.2 predicted)

/-! ## The checks of the schema -/

/-- A column of the frame: name, whether the dtype is `int64`, values (`none` is null). -/
structure SchCol where
  name : String
  int : Bool
  vals : List (Option ℝ)

/-- A schema (95-120): the names, and the columns of each check. -/
structure SchSpec where
  names : List String
  positive : List String
  nonNegative : List String
  integer : List String
  proportion : List String

/-- 76-81 and 212-237. -/
def schOne : SchSpec where
  names := ["value", "variance", "sample_count", "effect_size"]
  positive := ["sample_count"]
  nonNegative := ["variance"]
  integer := ["sample_count"]
  proportion := ["value"]

/-- 84-92 and 180-209. -/
def schTwo : SchSpec where
  names := ["value_a", "value_b", "variance_a", "variance_b", "sample_count_a", "sample_count_b",
    "effect_size"]
  positive := ["sample_count_a", "sample_count_b"]
  nonNegative := ["variance_a", "variance_b"]
  integer := ["sample_count_a", "sample_count_b"]
  proportion := ["value_a", "value_b"]

/-- `df[name]`. -/
def schGet (df : List SchCol) (name : String) : Except Err SchCol :=
  match df.find? fun c => c.name == name with
  | some c => .ok c
  | none => .error .keyError

/-- `_validate_names` (134-137). -/
def schNames (names : List String) (df : List SchCol) : Except Err Unit :=
  if names.all fun n => df.any fun c => c.name == n then .ok () else .error .valueError

/-- `_validate_nullable` (139-143). -/
def schNull (df : List SchCol) : Except Err Unit :=
  if df.any fun c => c.vals.any fun v => v.isNone then .error .valueError else .ok ()

/-- The loop of the other checks: an entry of a named column that is `bad` is refused. -/
def schLoop (bad : SchCol → Bool) (df : List SchCol) : List String → Except Err Unit
  | [] => .ok ()
  | n :: ns =>
    match schGet df n with
    | .error e => .error e
    | .ok c => if bad c then .error .valueError else schLoop bad df ns

/-- A comparison of every entry; a null compares false. -/
def schAny (p : ℝ → Prop) (c : SchCol) : Bool :=
  c.vals.any fun v => match v with
    | none => false
    | some x => decide (p x)

/-- `_validate_postitive` (145-152). -/
def schPositive : List SchCol → List String → Except Err Unit := schLoop (schAny fun x => x ≤ 0)

/-- `_validate_non_negative` (154-161). -/
def schNonNeg : List SchCol → List String → Except Err Unit := schLoop (schAny fun x => x < 0)

/-- `_validate_count` (163-168). -/
def schCount : List SchCol → List String → Except Err Unit := schLoop fun c => !c.int

/-- `_validate_proportion` (170-177). -/
def schProportion : List SchCol → List String → Except Err Unit :=
  schLoop fun c => schAny (fun x => x < 0) c || schAny (fun x => 1 < x) c

/-- `_validate_data` (122-132). -/
def schData (s : SchSpec) (df : List SchCol) : Except Err Unit := do
  schNames s.names df
  schNull df
  schPositive df s.positive
  schNonNeg df s.nonNegative
  schCount df s.integer

/-- The hooks (1728-1729, 1759-1762, 1789-1792); the class for real values has none (767-768). -/
def schHookTwo (k : VarKind) (df : List SchCol) : Except Err Unit :=
  match k with
  | .realValued => .ok ()
  | .proportion => schProportion df schTwo.proportion
  | .count => schCount df ["value_a", "value_b"]
  | .arrivalTime => schPositive df ["value_a", "value_b"]

/-- The hook of the one-sample class (1865-1868). -/
def schHookOne (df : List SchCol) : Except Err Unit :=
  schProportion df (schOne.proportion ++ ["effect_size"])

end

end Kats

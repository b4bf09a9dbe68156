import Verif.Model.FeatEng
import Mathlib.Tactic.IntervalCases
import Mathlib.Tactic.LinearCombination
import Mathlib.Tactic.FieldSimp
import Mathlib.Tactic.Positivity

/-!
# C122: date, time and circular features
-/

namespace Kats

/-! ### The calendar -/

/-- A date that exists. -/
def CivDate.Valid (c : CivDate) : Prop := 1 ≤ c.month ∧ c.month ≤ 12 ∧ 1 ≤ c.day ∧ c.day ≤ daysIn c.year c.month

theorem daysIn_bounds (y : Int) (m : Nat) : 28 ≤ daysIn y m ∧ daysIn y m ≤ 31 := by
  unfold daysIn
  split_ifs <;> omega

theorem next_valid (c : CivDate) (h : c.Valid) : c.next.Valid := by
  obtain ⟨h1, h2, h3, h4⟩ := h
  unfold CivDate.next
  split_ifs with ha hb
  · exact ⟨h1, h2, by show 1 ≤ c.day + 1; omega, by show c.day + 1 ≤ daysIn c.year c.month; omega⟩
  · exact ⟨by show 1 ≤ c.month + 1; omega, by show c.month + 1 ≤ 12; omega, le_rfl, by
      have := daysIn_bounds c.year (c.month + 1); show 1 ≤ daysIn c.year (c.month + 1); omega⟩
  · exact ⟨le_rfl, by show 1 ≤ 12; omega, le_rfl, by have := daysIn_bounds (c.year + 1) 1; show 1 ≤ daysIn (c.year + 1) 1; omega⟩

theorem daysIn_december (y : Int) : daysIn y 12 = 31 := by unfold daysIn; norm_num

theorem prev_valid (c : CivDate) (h : c.Valid) : c.prev.Valid := by
  obtain ⟨h1, h2, h3, h4⟩ := h
  unfold CivDate.prev
  split_ifs with ha hb
  · exact ⟨h1, h2, by show 1 ≤ c.day - 1; omega, by show c.day - 1 ≤ daysIn c.year c.month; omega⟩
  · exact ⟨by show 1 ≤ c.month - 1; omega, by show c.month - 1 ≤ 12; omega, by
      have := daysIn_bounds c.year (c.month - 1); show 1 ≤ daysIn c.year (c.month - 1); omega, le_rfl⟩
  · exact ⟨by show 1 ≤ 12; omega, le_rfl, by show 1 ≤ 31; omega, by show 31 ≤ daysIn _ 12; rw [daysIn_december]⟩

theorem next_prev (c : CivDate) (h : c.Valid) : c.prev.next = c := by
  obtain ⟨y, m, d⟩ := c
  obtain ⟨h1, h2, h3, h4⟩ := h
  simp only at h1 h2 h3 h4
  unfold CivDate.prev
  simp only
  by_cases ha : 1 < d
  · rw [if_pos ha]
    unfold CivDate.next
    simp only
    rw [if_pos (by omega)]
    congr 1; omega
  · rw [if_neg ha]
    by_cases hb : 1 < m
    · rw [if_pos hb]
      unfold CivDate.next
      simp only
      rw [if_neg (by omega), if_pos (by omega)]
      congr 1 <;> omega
    · rw [if_neg hb]
      unfold CivDate.next
      simp only
      rw [daysIn_december, if_neg (by omega), if_neg (by omega)]
      congr 1 <;> omega

theorem epoch_valid : CivDate.Valid ⟨1970, 1, 1⟩ := by unfold CivDate.Valid; decide

theorem iter_next_valid (n : Nat) : (CivDate.next^[n] ⟨1970, 1, 1⟩).Valid := by
  induction n with
  | zero => exact epoch_valid
  | succ n ih => rw [Function.iterate_succ_apply']; exact next_valid _ ih

theorem iter_prev_valid (n : Nat) : (CivDate.prev^[n] ⟨1970, 1, 1⟩).Valid := by
  induction n with
  | zero => exact epoch_valid
  | succ n ih => rw [Function.iterate_succ_apply']; exact prev_valid _ ih

theorem civil_valid (d : Int) : (civil d).Valid := by
  cases d with
  | ofNat n => exact iter_next_valid n
  | negSucc n => exact iter_prev_valid (n + 1)

theorem civil_succ (d : Int) : civil (d + 1) = (civil d).next := by
  cases d with
  | ofNat n =>
    show civil (Int.ofNat (n + 1)) = _
    show CivDate.next^[n + 1] _ = (CivDate.next^[n] _).next
    rw [Function.iterate_succ_apply']
  | negSucc n =>
    cases n with
    | zero =>
      show civil (Int.ofNat 0) = _
      decide
    | succ n =>
      have e : Int.negSucc (n + 1) + 1 = Int.negSucc n := by simp only [Int.negSucc_eq]; push_cast; ring
      rw [e]
      show CivDate.prev^[n + 1] _ = (CivDate.prev^[n + 1 + 1] _).next
      rw [Function.iterate_succ_apply' _ (n + 1), next_prev _ (iter_prev_valid _)]

theorem civil_back (k : Nat) : ∀ d : Int, k < (civil d).day → civil (d - k) = ⟨(civil d).year, (civil d).month, (civil d).day - k⟩ := by
  induction k with
  | zero => intro d _; simp
  | succ k ih =>
    intro d h
    have h1 := ih d (by omega)
    have h2 := civil_succ (d - ((k + 1 : Nat) : Int))
    rw [show d - ((k + 1 : Nat) : Int) + 1 = d - (k : Int) by push_cast; ring, h1] at h2
    have hv := civil_valid (d - ((k + 1 : Nat) : Int))
    obtain ⟨c, hc⟩ : ∃ c, c = civil (d - ((k + 1 : Nat) : Int)) := ⟨_, rfl⟩
    rw [← hc] at h2 hv ⊢
    obtain ⟨y, m, dd⟩ := c
    unfold CivDate.next at h2
    simp only at h2
    split_ifs at h2 <;> simp only [CivDate.mk.injEq] at h2 ⊢ <;> omega

/-- C122, the calendar: day 0 is 1970-01-01, every day is followed by the next one (29 February in the leap years only) and
all dates exist. -/
theorem C122_calendar (d : Int) : civil 0 = ⟨1970, 1, 1⟩ ∧ civil (d + 1) = (civil d).next ∧ (civil d).Valid
    ∧ ((civil d).month = 2 → (civil d).day = 29 → isLeap (civil d).year)
    ∧ civil (firstOfMonth d) = ⟨(civil d).year, (civil d).month, 1⟩ := by
  refine ⟨rfl, civil_succ d, civil_valid d, ?_, ?_⟩
  · intro h1 h2
    obtain ⟨-, -, -, h⟩ := civil_valid d
    by_contra hl
    unfold daysIn at h
    rw [if_pos h1, if_neg hl] at h
    omega
  · have hv := civil_valid d
    obtain ⟨-, -, h3, -⟩ := hv
    have := civil_back ((civil d).day - 1) d (by omega)
    unfold firstOfMonth
    rw [show (((civil d).day : Int) - 1) = (((civil d).day - 1 : Nat) : Int) by omega, this]
    congr 1; omega

example : civil 59 = ⟨1970, 3, 1⟩ ∧ civil 789 = ⟨1972, 2, 29⟩ ∧ civil (-1) = ⟨1969, 12, 31⟩ := by decide +kernel

theorem civil_month (y : Int) (m : Nat) (d : Int) (h : civil d = ⟨y, m, 1⟩) (j : Nat) (hj : j < daysIn y m) : civil (d + j) = ⟨y, m, j + 1⟩ := by
  induction j with
  | zero => simpa using h
  | succ j ih =>
    have e : d + ((j + 1 : Nat) : Int) = d + j + 1 := by push_cast; ring
    rw [e, civil_succ, ih (by omega)]
    unfold CivDate.next
    rw [if_pos hj]

theorem civil_months (y : Int) (m : Nat) (d : Int) (h : civil d = ⟨y, m, 1⟩) :
    civil (d + daysIn y m) = if m < 12 then ⟨y, m + 1, 1⟩ else ⟨y + 1, 1, 1⟩ := by
  have hb := daysIn_bounds y m
  have e : d + (daysIn y m : Int) = d + ((daysIn y m - 1 : Nat) : Int) + 1 := by omega
  rw [e, civil_succ, civil_month y m d h _ (by omega)]
  unfold CivDate.next
  simp only
  rw [if_neg (by omega)]

/-- The length of a year. -/
def yearLength (y : Int) : Int := if y % 4 = 0 ∧ (y % 100 ≠ 0 ∨ y % 400 = 0) then 366 else 365

theorem civil_year (y : Int) (d : Int) (h : civil d = ⟨y, 1, 1⟩) : civil (d + yearLength y) = ⟨y + 1, 1, 1⟩ := by
  have h2 := civil_months y 1 d h
  have h3 := civil_months y 2 _ h2
  have h4 := civil_months y 3 _ h3
  have h5 := civil_months y 4 _ h4
  have h6 := civil_months y 5 _ h5
  have h7 := civil_months y 6 _ h6
  have h8 := civil_months y 7 _ h7
  have h9 := civil_months y 8 _ h8
  have h10 := civil_months y 9 _ h9
  have h11 := civil_months y 10 _ h10
  have h12 := civil_months y 11 _ h11
  have h13 := civil_months y 12 _ h12
  have e : d + yearLength y = d + daysIn y 1 + daysIn y 2 + daysIn y 3 + daysIn y 4 + daysIn y 5 + daysIn y 6 + daysIn y 7 + daysIn y 8
      + daysIn y 9 + daysIn y 10 + daysIn y 11 + daysIn y 12 := by
    unfold yearLength daysIn isLeap
    by_cases hl : y % 4 = 0 ∧ (y % 100 ≠ 0 ∨ y % 400 = 0)
    · simp [hl]; omega
    · simp [hl]; omega
  rw [e, h13]
  rfl

/-- Years after years. -/
theorem civil_years (k : Nat) (y d : Int) (h : civil d = ⟨y, 1, 1⟩) :
    civil (d + ((List.range k).map fun i : Nat => yearLength (y + i)).sum) = ⟨y + k, 1, 1⟩ := by
  induction k with
  | zero => simpa using h
  | succ k ih =>
    rw [List.range_succ, List.map_append, List.sum_append]
    simp only [List.map_cons, List.map_nil, List.sum_cons, List.sum_nil, add_zero]
    rw [← add_assoc, civil_year _ _ ih]
    push_cast
    rw [add_assoc]

theorem prev_next (c : CivDate) (h : c.Valid) : c.next.prev = c := by
  obtain ⟨y, m, d⟩ := c
  obtain ⟨h1, h2, h3, h4⟩ := h
  simp only at h1 h2 h3 h4
  unfold CivDate.next
  simp only
  by_cases ha : d < daysIn y m
  · rw [if_pos ha]
    unfold CivDate.prev
    simp only
    rw [if_pos (by omega)]
    congr 1
  · rw [if_neg ha]
    have hd : d = daysIn y m := by omega
    by_cases hb : m < 12
    · rw [if_pos hb]
      unfold CivDate.prev
      simp only
      rw [if_neg (by omega), if_pos (by omega)]
      simp only [Nat.add_sub_cancel, hd]
    · rw [if_neg hb]
      have hm : m = 12 := by omega
      subst hm
      rw [daysIn_december] at hd
      unfold CivDate.prev
      simp only
      rw [if_neg (by omega), if_neg (by omega)]
      simp only [hd, CivDate.mk.injEq, and_true]
      ring

theorem next_shift (c : CivDate) : (⟨c.year + 400, c.month, c.day⟩ : CivDate).next = ⟨c.next.year + 400, c.next.month, c.next.day⟩ := by
  have hl : isLeap (c.year + 400) ↔ isLeap c.year := by
    unfold isLeap
    omega
  have hd : daysIn (c.year + 400) c.month = daysIn c.year c.month := by
    unfold daysIn
    simp only [hl]
  unfold CivDate.next
  simp only [hd]
  split
  · rfl
  · split
    · rfl
    · simp only [CivDate.mk.injEq, and_true]
      ring

/-- C122, leap years: a year has 366 days if its number is divisible by 4, but not by 100 unless by 400, and 365 otherwise; the
calendar repeats after 400 years, which are 146097 days. -/
theorem C122_leap (d : Int) :
    (∀ y, civil d = ⟨y, 1, 1⟩ → civil (d + if y % 4 = 0 ∧ (y % 100 ≠ 0 ∨ y % 400 = 0) then 366 else 365) = ⟨y + 1, 1, 1⟩)
    ∧ civil (d + 146097) = ⟨(civil d).year + 400, (civil d).month, (civil d).day⟩ := by
  refine ⟨fun y h => civil_year y d h, ?_⟩
  have h0 : civil (0 + 146097) = ⟨1970 + 400, 1, 1⟩ := by
    have := civil_years 400 1970 0 rfl
    rw [show ((List.range 400).map fun i : Nat => yearLength (1970 + i)).sum = 146097 by decide +kernel] at this
    exact this
  have hup : ∀ d : Int, civil (d + 146097) = ⟨(civil d).year + 400, (civil d).month, (civil d).day⟩ →
      civil (d + 1 + 146097) = ⟨(civil (d + 1)).year + 400, (civil (d + 1)).month, (civil (d + 1)).day⟩ := by
    intro d h
    rw [show d + 1 + 146097 = d + 146097 + 1 by ring, civil_succ, h, next_shift, ← civil_succ]
  have hdown : ∀ d : Int, civil (d + 1 + 146097) = ⟨(civil (d + 1)).year + 400, (civil (d + 1)).month, (civil (d + 1)).day⟩ →
      civil (d + 146097) = ⟨(civil d).year + 400, (civil d).month, (civil d).day⟩ := by
    intro d h
    rw [show d + 1 + 146097 = d + 146097 + 1 by ring, civil_succ, civil_succ, ← next_shift] at h
    have hs : ∀ c : CivDate, c.Valid → (⟨c.year + 400, c.month, c.day⟩ : CivDate).Valid := by
      intro c hc
      have hl : isLeap (c.year + 400) ↔ isLeap c.year := by
        unfold isLeap
        omega
      have hd : daysIn (c.year + 400) c.month = daysIn c.year c.month := by
        unfold daysIn
        simp only [hl]
      obtain ⟨a1, a2, a3, a4⟩ := hc
      exact ⟨a1, a2, a3, by simpa only [hd] using a4⟩
    have h' := congrArg CivDate.prev h
    rwa [prev_next _ (civil_valid _), prev_next _ (hs _ (civil_valid _))] at h'
  have hpos : ∀ n : Nat, civil ((n : Int) + 146097) = ⟨(civil n).year + 400, (civil n).month, (civil n).day⟩ := by
    intro n
    induction n with
    | zero => exact h0
    | succ n ih =>
      have := hup n ih
      push_cast
      exact this
  have hneg : ∀ n : Nat, civil (-(n : Int) + 146097) = ⟨(civil (-(n : Int))).year + 400, (civil (-(n : Int))).month, (civil (-(n : Int))).day⟩ := by
    intro n
    induction n with
    | zero => exact h0
    | succ n ih =>
      refine hdown _ ?_
      rw [show -((n + 1 : Nat) : Int) + 1 = -(n : Int) by push_cast; ring]
      exact ih
  rcases Int.eq_nat_or_neg d with ⟨n, rfl | rfl⟩
  · exact hpos n
  · exact hneg n

example : civil 47482 = ⟨2100, 1, 1⟩ ∧ civil (47482 + 365) = ⟨2101, 1, 1⟩ := by
  have h : civil 47482 = ⟨2100, 1, 1⟩ := by
    have := civil_years 130 1970 0 rfl
    rw [show ((List.range 130).map fun i : Nat => yearLength (1970 + i)).sum = 47482 by decide +kernel] at this
    exact this
  exact ⟨h, (C122_leap 47482).1 2100 h⟩


/-! ### `_map` -/

theorem mapStep_length (values r : List Int) (kv : Int × Int) (h : r.length = values.length) :
    (List.zipWith (fun v r => if v = kv.1 then kv.2 else r) values r).length = values.length := by
  rw [List.length_zipWith, h, Nat.min_self]

theorem mapFold_get (values : List Int) (m : List (Int × Int)) (hm : (m.map Prod.fst).Nodup) : ∀ r : List Int,
    r.length = values.length → ∀ i (hi : i < values.length),
    (m.foldl (fun result kv => List.zipWith (fun v r => if v = kv.1 then kv.2 else r) values result) r)[i]?
      = some ((m.lookup values[i]).getD (r.getD i 0)) := by
  induction m with
  | nil =>
    intro r hr i hi
    simp [List.getElem?_eq_getElem (show i < r.length by omega)]
  | cons kv m ih =>
    intro r hr i hi
    rw [List.map_cons, List.nodup_cons] at hm
    rw [List.foldl_cons, ih hm.2 _ (mapStep_length _ _ _ hr) i hi]
    congr 1
    have hg : (List.zipWith (fun v r => if v = kv.1 then kv.2 else r) values r).getD i 0
        = if values[i] = kv.1 then kv.2 else r.getD i 0 := by
      rw [List.getD_eq_getElem?_getD, List.getElem?_zipWith, List.getElem?_eq_getElem hi,
        List.getElem?_eq_getElem (show i < r.length by omega), List.getD_eq_getElem?_getD,
        List.getElem?_eq_getElem (show i < r.length by omega)]
      rfl
    rw [hg]
    by_cases hk : values[i] = kv.1
    · have : m.lookup values[i] = none := by
        rw [List.lookup_eq_none_iff]
        intro p hp
        simp only [beq_eq_false_iff_ne, ne_eq, bne_iff_ne]
        intro e
        exact hm.1 (List.mem_map.2 ⟨p, hp, by rw [← hk]; exact e.symm⟩)
      rw [this, if_pos hk, List.lookup_cons]
      simp [hk]
    · have hb : (values[i] == kv.1) = false := by simpa using hk
      rw [if_neg hk, List.lookup_cons, hb]

theorem mapFold_length (values : List Int) (m : List (Int × Int)) : ∀ r : List Int, r.length = values.length →
    (m.foldl (fun result kv => List.zipWith (fun v r => if v = kv.1 then kv.2 else r) values result) r).length = values.length := by
  induction m with
  | nil => intro r h; exact h
  | cons kv m ih => intro r h; exact ih _ (mapStep_length _ _ _ h)

/-- C122, `_map`: every value is replaced by its entry in the dictionary, and stays if it has none; entries are not applied
to one another. -/
theorem C122_map (values : List Int) (m : List (Int × Int)) (hm : (m.map Prod.fst).Nodup) :
    mapArr values m = values.map fun v => (m.lookup v).getD v := by
  have hl : (mapArr values m).length = values.length := mapFold_length values m values rfl
  apply List.ext_getElem?
  intro i
  by_cases hi : i < values.length
  · unfold mapArr
    rw [mapFold_get values m hm values rfl i hi, List.getElem?_map, List.getElem?_eq_getElem hi, List.getD_eq_getElem?_getD,
      List.getElem?_eq_getElem hi]
    rfl
  · rw [List.getElem?_eq_none (by omega), List.getElem?_eq_none (by rw [List.length_map]; omega)]

example : mapArr [1, 2, 7] [(1, 2), (2, 3)] = [2, 3, 7] := C122_map _ _ (by decide)

/-! ### Date features -/

theorem zipWith_map_left {α β γ : Type} (f : β → α → γ) (g : α → β) (l : List α) :
    List.zipWith f (l.map g) l = l.map fun a => f (g a) a := by
  induction l with
  | nil => rfl
  | cons a l ih => simp [ih]

/-- The season of a month in the table. -/
def seasonAt (m : Int) : Int := (seasonMap.lookup m).getD m

theorem dateFeatures_eq (z : Option Zone) (ts : List Int) : dateFeatures z ts = ts.map fun t =>
    dateFeat z (seasonAt (civil (localTime z t / usDay)).month) t := by
  unfold dateFeatures
  simp only
  rw [C122_map _ _ (by decide)]
  simp only [List.map_map]
  exact zipWith_map_left (dateFeat z) (fun t => seasonAt (civil (localTime z t / usDay)).month) ts

theorem seasonAt_month (m : Nat) (h1 : 1 ≤ m) (h2 : m ≤ 12) :
    seasonAt m = if m = 2 then 1 else ((m % 12 / 3 : Nat) : Int) := by
  interval_cases m <;> decide

/-- C122, seasons: December and January are winter, March to May spring, June to August summer, September to November autumn.
February is missing from the winter. -/
theorem C122_season_partial (z : Option Zone) (ts : List Int) (i : Nat) (hi : i < ts.length) :
    ∃ f, (dateFeatures z ts)[i]? = some f
      ∧ (f.season = 0 ↔ f.month ∈ [12, 1]) ∧ (f.season = 1 ↔ f.month ∈ [2, 3, 4, 5]) ∧ (f.season = 2 ↔ f.month ∈ [6, 7, 8])
      ∧ (f.season = 3 ↔ f.month ∈ [9, 10, 11])
      ∧ (f.month ≠ 2 → f.season = f.month % 12 / 3) := by
  rw [dateFeatures_eq, List.getElem?_map, List.getElem?_eq_getElem hi]
  refine ⟨_, rfl, ?_⟩
  obtain ⟨h1, h2, -, -⟩ := civil_valid (localTime z ts[i] / usDay)
  have hs := seasonAt_month _ h1 h2
  simp only [dateFeat]
  rw [hs]
  obtain ⟨m, hm⟩ : ∃ m, m = (civil (localTime z ts[i] / usDay)).month := ⟨_, rfl⟩
  rw [← hm] at h1 h2 ⊢
  interval_cases m <;> decide

example : (dateFeatures none [0]).map (·.season) = [0] := by
  obtain ⟨f, h, -⟩ := C122_season_partial none [0] 0 (by simp)
  decide +kernel

/-- C122, the comment beside the table of seasons, that it is `((month + 1) % 12) // 3`, does not hold: it fails exactly for
May, August and November.  And February is spring although December and January are winter. -/
theorem C122_season_violated (m : Nat) (h1 : 1 ≤ m) (h2 : m ≤ 12) :
    (seasonAt m ≠ (((m + 1) % 12 / 3 : Nat) : Int) ↔ m ∈ [5, 8, 11]) ∧ (seasonAt m ≠ ((m % 12 / 3 : Nat) : Int) ↔ m = 2) := by
  interval_cases m <;> decide

example : seasonAt 11 ≠ 0 := by
  have h := (C122_season_violated 11 (by omega) (by omega)).1.2 (by simp)
  simpa using h

theorem mondays_count (a : Int) (n : Nat) (h0 : 0 ≤ a) (h6 : a < 7) :
    (((List.range n).filter fun k => decide ((a + (k + 1 : Nat)) % 7 = 0)).length : Int) = (a + n) / 7 := by
  induction n with
  | zero => simp; omega
  | succ n ih =>
    rw [List.range_succ, List.filter_append, List.length_append]
    rw [Nat.cast_add, ih]
    by_cases h : (a + ((n + 1 : Nat) : Int)) % 7 = 0
    · rw [List.filter_singleton, decide_eq_true h]
      simp only [Bool.cond_true, List.length_singleton]
      push_cast at h ⊢; omega
    · rw [List.filter_singleton, decide_eq_false h]
      simp only [Bool.cond_false, List.length_nil]
      push_cast at h ⊢; omega

theorem weekOfMonth_eq (z : Option Zone) (t : Int) : weekOfMonth z t
    = (dayOfWeek (firstOfMonth (t / usDay)) + (civil (localTime z t / usDay)).day + 6) / 7 := by
  unfold weekOfMonth
  simp only
  rw [Int.ceil_eq_iff]
  obtain ⟨n, hn⟩ : ∃ n : Int, n = dayOfWeek (firstOfMonth (t / usDay)) + (civil (localTime z t / usDay)).day := ⟨_, rfl⟩
  rw [← hn]
  have h1 : 7 * ((n + 6) / 7) ≤ n + 6 := by omega
  have h2 : n ≤ 7 * ((n + 6) / 7) := by omega
  have h1' : (7 : ℚ) * (((n + 6) / 7 : Int) : ℚ) ≤ n + 6 := by exact_mod_cast h1
  have h2' : (n : ℚ) ≤ 7 * (((n + 6) / 7 : Int) : ℚ) := by exact_mod_cast h2
  constructor
  · rw [lt_div_iff₀ (by norm_num)]; linarith
  · rw [div_le_iff₀ (by norm_num)]; linarith

/-- C122, the week of the month: when the date in UTC is the local one (always without a time zone) it is one more than the
number of Mondays after the first of the month up to the day; so it counts from 1 to 6 and begins anew on Mondays. -/
theorem C122_week_of_month_partial (z : Option Zone) (t : Int) (h : localTime z t / usDay = t / usDay) :
    weekOfMonth z t = 1 + (((List.range ((civil (t / usDay)).day - 1)).filter fun k : Nat =>
      decide (dayOfWeek (firstOfMonth (t / usDay) + (k + 1 : Nat)) = 0)).length : Int)
    ∧ 1 ≤ weekOfMonth z t ∧ weekOfMonth z t ≤ 6 := by
  have hv := civil_valid (t / usDay)
  obtain ⟨-, -, h3, h4⟩ := hv
  have hb := daysIn_bounds (civil (t / usDay)).year (civil (t / usDay)).month
  have hd : ∀ x : Int, 0 ≤ dayOfWeek x ∧ dayOfWeek x < 7 := fun x => by unfold dayOfWeek; omega
  rw [weekOfMonth_eq, h]
  obtain ⟨a, ha⟩ : ∃ a, a = firstOfMonth (t / usDay) := ⟨_, rfl⟩
  rw [← ha]
  have hm : ((List.range ((civil (t / usDay)).day - 1)).filter fun k : Nat => decide (dayOfWeek (a + (k + 1 : Nat)) = 0))
      = (List.range ((civil (t / usDay)).day - 1)).filter fun k : Nat => decide ((dayOfWeek a + (k + 1 : Nat)) % 7 = 0) := by
    apply List.filter_congr
    intro k _
    have : dayOfWeek (a + (k + 1 : Nat)) = (dayOfWeek a + (k + 1 : Nat)) % 7 := by unfold dayOfWeek; omega
    rw [this]
  rw [hm, mondays_count _ _ (hd a).1 (hd a).2]
  have := hd a
  refine ⟨?_, ?_, ?_⟩ <;> omega

example : weekOfMonth none (25 * usDay) = 5 ∧ weekOfMonth none (24 * usDay) = 4 := by
  constructor <;> (rw [weekOfMonth_eq]; decide +kernel)

/-- C122, with a time zone the week is counted from the first of the wrong month when it is already another month in UTC: one
hour west of Greenwich, half an hour before midnight on 31 August 1970, the sixth week is reported as the fifth. -/
theorem C122_week_of_month_violated : ∃ (z : Zone) (t : Int),
    civil (localTime (some z) t / usDay) = ⟨1970, 8, 31⟩ ∧ weekOfMonth (some z) t = 5
    ∧ weekOfMonth none (localTime (some z) t) = 6 := by
  refine ⟨⟨fun _ => -3600000000, fun _ => some 0⟩, 243 * usDay + 1800000000, ?_, ?_, ?_⟩
  · decide +kernel
  · rw [weekOfMonth_eq]; decide +kernel
  · rw [weekOfMonth_eq]; decide +kernel

/-- C122, the flags of a day: weekend is Saturday and Sunday, leap day 29 February, and the end of the month is the day before
a first. -/
theorem C122_flags (z : Option Zone) (ts : List Int) (i : Nat) (hi : i < ts.length) (d : Int)
    (hd : d = localTime z ts[i] / usDay) :
    ∃ f, (dateFeatures z ts)[i]? = some f ∧ f.year = (civil d).year ∧ f.month = (civil d).month ∧ f.day = (civil d).day
      ∧ 0 ≤ f.dayofweek ∧ f.dayofweek < 7 ∧ (f.dayofweek - 3) % 7 = d % 7
      ∧ (f.isWeekend = true ↔ f.dayofweek = 5 ∨ f.dayofweek = 6)
      ∧ (f.isLeapDay = true ↔ f.month = 2 ∧ f.day = 29) ∧ (f.isLeapDay = true → f.isLeapYear = true)
      ∧ (f.isMonthEnd = true ↔ (civil (d + 1)).day = 1)
      ∧ (f.isQuarterEnd = true ↔ (civil (d + 1)).day = 1 ∧ f.month ∈ [3, 7, 11]) := by
  rw [dateFeatures_eq, List.getElem?_map, List.getElem?_eq_getElem hi]
  refine ⟨_, rfl, ?_⟩
  simp only [dateFeat]
  rw [← hd]
  obtain ⟨h1, h2, h3, h4⟩ := civil_valid d
  have hw : dayOfWeek d = (d + 3) % 7 := rfl
  have hend : isMonthEnd (civil d) = true ↔ (civil (d + 1)).day = 1 := by
    unfold isMonthEnd
    rw [civil_succ, decide_eq_true_eq]
    unfold CivDate.next
    split_ifs with ha hb
    · constructor
      · intro h; omega
      · intro h
        have : (civil d).day + 1 = 1 := h
        omega
    · exact iff_of_true (by omega) rfl
    · exact iff_of_true (by omega) rfl
  refine ⟨rfl, rfl, rfl, by omega, by omega, by omega, ?_, ?_, ?_, hend, ?_⟩
  · rw [decide_eq_true_eq]; omega
  · rw [decide_eq_true_eq]; omega
  · rw [decide_eq_true_eq, decide_eq_true_eq]
    exact fun h => (C122_calendar d).2.2.2.1 h.1 h.2
  · rw [Bool.and_eq_true, hend, decide_eq_true_eq]
    refine and_congr_right fun _ => ?_
    simp only [List.mem_cons, List.not_mem_nil, or_false]
    omega

/-- The last day of a quarter. -/
def quarterEnds (c : CivDate) : Prop :=
  (c.month = 3 ∧ c.day = 31) ∨ (c.month = 6 ∧ c.day = 30) ∨ (c.month = 9 ∧ c.day = 30) ∨ (c.month = 12 ∧ c.day = 31)

/-- C122, the end of the quarter is wrong but for the first quarter: 30 June, 30 September and 31 December are never flagged,
31 July and 30 November always. -/
theorem C122_quarter_violated (z : Option Zone) (season t : Int) (c : CivDate) (hc : c = civil (localTime z t / usDay)) :
    ((c.month = 6 ∧ c.day = 30 ∨ c.month = 9 ∧ c.day = 30 ∨ c.month = 12 ∧ c.day = 31) →
      quarterEnds c ∧ (dateFeat z season t).isQuarterEnd = false)
    ∧ ((c.month = 7 ∧ c.day = 31 ∨ c.month = 11 ∧ c.day = 30) → ¬ quarterEnds c ∧ (dateFeat z season t).isQuarterEnd = true) := by
  simp only [dateFeat]
  rw [← hc]
  refine ⟨fun h => ⟨?_, ?_⟩, fun h => ⟨?_, ?_⟩⟩
  · unfold quarterEnds; omega
  · rw [Bool.and_eq_false_iff]
    exact .inr (by rw [decide_eq_false_iff_not]; omega)
  · unfold quarterEnds; omega
  · rw [Bool.and_eq_true, decide_eq_true_eq]
    refine ⟨?_, by omega⟩
    unfold isMonthEnd daysIn
    rw [decide_eq_true_eq, if_neg (by omega)]
    rcases h with h | h
    · rw [if_neg (by omega)]; exact h.2
    · rw [if_pos (by omega)]; exact h.2

example : (dateFeat none 0 (180 * usDay)).isQuarterEnd = false ∧ civil 180 = ⟨1970, 6, 30⟩ := by
  have h : civil 180 = ⟨1970, 6, 30⟩ := by decide +kernel
  exact ⟨((C122_quarter_violated none 0 (180 * usDay) _ rfl).1 (.inl (by
    have : localTime none (180 * usDay) / usDay = 180 := by decide
    rw [this, h]; exact ⟨rfl, rfl⟩))).2, h⟩

/-- C122, and it is right for all other days. -/
theorem C122_quarter_partial (z : Option Zone) (season t : Int) (c : CivDate) (hc : c = civil (localTime z t / usDay))
    (h : c.month ∉ [6, 7, 9, 11, 12]) : (dateFeat z season t).isQuarterEnd = true ↔ quarterEnds c := by
  have hv := civil_valid (localTime z t / usDay)
  rw [← hc] at hv
  obtain ⟨h1, h2, h3, h4⟩ := hv
  simp only [List.mem_cons, List.not_mem_nil, or_false, not_or] at h
  simp only [dateFeat]
  rw [← hc, Bool.and_eq_true, decide_eq_true_eq]
  unfold isMonthEnd quarterEnds
  rw [decide_eq_true_eq]
  constructor
  · rintro ⟨he, hm⟩
    have : c.month = 3 := by omega
    rw [this] at he
    exact .inl ⟨this, by rw [he]; rfl⟩
  · intro hq
    have h3 : c.month = 3 ∧ c.day = 31 := by omega
    rw [h3.1]
    exact ⟨by rw [h3.2]; rfl, rfl⟩

/-! ### Time features -/

/-- The part of the day of an hour. -/
def daytimeAt (h : Int) : Int := (daytimeMap.lookup h).getD h

theorem timeFeatures_eq (z : Option Zone) (ts : List Int) : timeFeatures z ts = ts.map fun t =>
    timeFeat z (daytimeAt (hourOfDay (localTime z t))) t := by
  unfold timeFeatures
  rw [C122_map _ _ (by decide)]
  simp only [List.map_map]
  exact zipWith_map_left (timeFeat z) (fun t => daytimeAt (hourOfDay (localTime z t))) ts

/-- C122, time features: hour, minute, second and millisecond make up the local time of day; the quarter of the hour goes from
1 to 4; the hour of the week is the number of whole hours since Monday midnight; the parts of the day are sleep from 23 to
5, breakfast to 8, work to 13, afternoon to 18, dinner to 20 and evening to 23. -/
theorem C122_time (z : Option Zone) (ts : List Int) (i : Nat) (hi : i < ts.length) (l : Int) (hl : l = localTime z ts[i]) :
    ∃ f, (timeFeatures z ts)[i]? = some f
      ∧ 0 ≤ f.hour ∧ f.hour < 24 ∧ 0 ≤ f.minute ∧ f.minute < 60 ∧ 0 ≤ f.second ∧ f.second < 60
      ∧ 0 ≤ f.milliseconds ∧ f.milliseconds < 1000
      ∧ ((l % usDay : Int) : ℚ) = f.hour * 3600000000 + f.minute * 60000000 + f.second * 1000000 + f.milliseconds * 1000
      ∧ (15 * (f.quarterhour - 1) ≤ f.minute ∧ f.minute < 15 * f.quarterhour)
      ∧ f.hourofweek = (l + 3 * usDay) % (7 * usDay) / 3600000000 ∧ 0 ≤ f.hourofweek ∧ f.hourofweek < 168
      ∧ (f.daytime = 0 ↔ 23 ≤ f.hour ∨ f.hour < 5) ∧ (f.daytime = 1 ↔ 5 ≤ f.hour ∧ f.hour < 8)
      ∧ (f.daytime = 2 ↔ 8 ≤ f.hour ∧ f.hour < 13) ∧ (f.daytime = 3 ↔ 13 ≤ f.hour ∧ f.hour < 18)
      ∧ (f.daytime = 4 ↔ 18 ≤ f.hour ∧ f.hour < 20) ∧ (f.daytime = 5 ↔ 20 ≤ f.hour ∧ f.hour < 23) := by
  rw [timeFeatures_eq, List.getElem?_map, List.getElem?_eq_getElem hi]
  refine ⟨_, rfl, ?_⟩
  simp only [timeFeat]
  rw [← hl]
  have hh0 : 0 ≤ hourOfDay l := by unfold hourOfDay usDay; omega
  have hh1 : hourOfDay l < 24 := by unfold hourOfDay usDay; omega
  refine ⟨hh0, hh1, by omega, by omega, by omega, by omega, ?_, ?_, ?_, ⟨by omega, by omega⟩, ?_, ?_, ?_, ?_⟩
  · apply div_nonneg _ (by norm_num)
    have : 0 ≤ l % 1000000 := by omega
    exact_mod_cast this
  · rw [div_lt_iff₀ (by norm_num)]
    have : l % 1000000 < 1000000 := by omega
    have h : ((l % 1000000 : Int) : ℚ) < 1000000 := by exact_mod_cast this
    linarith
  · have : l % usDay = hourOfDay l * 3600000000 + (l % 3600000000 / 60000000) * 60000000 + (l % 60000000 / 1000000) * 1000000
        + l % 1000000 := by unfold hourOfDay usDay; omega
    rw [this]
    push_cast
    ring
  · unfold dayOfWeek hourOfDay usDay; omega
  · unfold dayOfWeek usDay; omega
  · unfold dayOfWeek usDay; omega
  · obtain ⟨h, hh⟩ : ∃ h, h = hourOfDay l := ⟨_, rfl⟩
    rw [← hh] at hh0 hh1 ⊢
    interval_cases h <;> decide

example : ((timeFeatures none [90061 * 1000000]).map fun f => (f.hour, f.minute, f.hourofweek)) = [(1, 1, 97)] := by
  decide +kernel

/-- C122, daylight saving time and offset in seconds are given when the zone knows daylight saving time and are both missing
without a zone. -/
theorem C122_offset_partial (z : Option Zone) (season t : Int) :
    (z = none → (timeFeat z season t).dst = none ∧ (timeFeat z season t).utcoffset = none)
    ∧ ∀ y s, z = some y → y.dst t = some s →
      (timeFeat z season t).dst = some ((s : ℚ) / 1000000) ∧ (timeFeat z season t).utcoffset = some ((y.offset t : ℚ) / 1000000) := by
  constructor
  · rintro rfl
    exact ⟨rfl, rfl⟩
  · rintro y s rfl hs
    simp only [timeFeat, dstOffset, hs]
    exact ⟨trivial, trivial⟩

/-- C122, a zone that has no notion of daylight saving time (`dst()` is `None`, as for `datetime.timezone.utc`) loses its
offset: it is reported as missing. -/
theorem C122_offset_violated (y : Zone) (season t : Int) (h : y.dst t = none) : (timeFeat (some y) season t).utcoffset = none := by
  simp only [timeFeat, dstOffset, h]

example : (timeFeat (some ⟨fun _ => 0, fun _ => none⟩) 0 0).utcoffset = none := C122_offset_violated _ _ _ rfl

/-! ### Circular encoding -/

theorem getD_of_lt {l : List ℝ} {i : Nat} (h : i < l.length) : l.getD i 0 = l[i] := by
  rw [List.getD_eq_getElem?_getD, List.getElem?_eq_getElem h]
  rfl

/-- C122, circular encoding: a period of 0 is an error; otherwise each pair lies on the unit circle, reducing modulo the period
changes nothing, values a multiple of the period apart have the same code, and values with the same code are a multiple of
the period apart. -/
theorem C122_circle (xs : List ℝ) (period : Int) :
    (period = 0 → ∀ b, circleEncode xs period b = .error .otherError)
    ∧ (period ≠ 0 → ∃ cs ss, circleEncode xs period false = .ok (cs, ss) ∧ circleEncode xs period true = .ok (cs, ss)
      ∧ cs.length = xs.length ∧ ss.length = xs.length
      ∧ (∀ i < xs.length, cs.getD i 0 ^ 2 + ss.getD i 0 ^ 2 = 1)
      ∧ ∀ i < xs.length, ∀ j < xs.length, (cs.getD i 0 = cs.getD j 0 ∧ ss.getD i 0 = ss.getD j 0)
        ↔ ∃ k : Int, xs.getD i 0 = xs.getD j 0 + k * period) := by
  constructor
  · rintro rfl b
    unfold circleEncode
    rw [if_pos rfl]
  · intro hp
    have hpr : (period : ℝ) ≠ 0 := by exact_mod_cast hp
    have hpi : Real.pi ≠ 0 := Real.pi_ne_zero
    refine ⟨xs.map fun x => Real.cos (x * (Real.pi * 2 / period)), xs.map fun x => Real.sin (x * (Real.pi * 2 / period)), ?_, ?_,
      by simp, by simp, ?_, ?_⟩
    · unfold circleEncode
      rw [if_neg hp]
      rfl
    · unfold circleEncode
      rw [if_neg hp]
      simp only [if_true]
      have e : ∀ x : ℝ, (x - period * ⌊x / period⌋) * (Real.pi * 2 / period)
          = x * (Real.pi * 2 / period) - (⌊x / period⌋ : Int) * (2 * Real.pi) := by
        intro x
        field_simp
      congr 2 <;> refine List.map_congr_left fun x _ => ?_
      · rw [e, Real.cos_sub_int_mul_two_pi]
      · rw [e, Real.sin_sub_int_mul_two_pi]
    · intro i hi
      rw [getD_of_lt (show i < (xs.map _).length by simpa using hi), getD_of_lt (show i < (xs.map _).length by simpa using hi)]
      simp only [List.getElem_map]
      exact Real.cos_sq_add_sin_sq _
    · intro i hi j hj
      rw [getD_of_lt (show i < (xs.map _).length by simpa using hi), getD_of_lt (show i < (xs.map _).length by simpa using hi),
        getD_of_lt (show j < (xs.map _).length by simpa using hj), getD_of_lt (show j < (xs.map _).length by simpa using hj),
        getD_of_lt hi, getD_of_lt hj]
      simp only [List.getElem_map]
      obtain ⟨x, hx⟩ : ∃ x, x = xs[i] := ⟨_, rfl⟩
      obtain ⟨y, hy⟩ : ∃ y, y = xs[j] := ⟨_, rfl⟩
      rw [← hx, ← hy]
      constructor
      · rintro ⟨h1, h2⟩
        have hc : Real.cos (x * (Real.pi * 2 / period) - y * (Real.pi * 2 / period)) = 1 := by
          rw [Real.cos_sub, h1, h2]
          nlinarith [Real.cos_sq_add_sin_sq (y * (Real.pi * 2 / period))]
        rw [Real.cos_eq_one_iff] at hc
        obtain ⟨n, hn⟩ := hc
        refine ⟨n, ?_⟩
        have h3 : (x - y) * (Real.pi * 2) = n * (2 * Real.pi) * period := by
          rw [hn]; field_simp
        have h4 : (x - y - n * period) * (2 * Real.pi) = 0 := by linear_combination h3
        rcases mul_eq_zero.1 h4 with h | h
        · linarith
        · exact absurd h (by positivity)
      · rintro ⟨k, hk⟩
        have : x * (Real.pi * 2 / period) = y * (Real.pi * 2 / period) + k * (2 * Real.pi) := by
          rw [hk]; field_simp
        rw [this, Real.cos_add_int_mul_two_pi, Real.sin_add_int_mul_two_pi]
        exact ⟨rfl, rfl⟩

example : ∃ cs ss, circleEncode [10, 11, 12, 1, 13] 12 false = .ok (cs, ss) ∧ cs.getD 3 0 = cs.getD 4 0 := by
  obtain ⟨cs, ss, h, -, -, -, -, h2⟩ := (C122_circle [10, 11, 12, 1, 13] 12).2 (by norm_num)
  exact ⟨cs, ss, h, ((h2 3 (by simp) 4 (by simp)).2 ⟨-1, by simp; norm_num⟩).1⟩

end Kats

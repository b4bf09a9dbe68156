import Verif.Model.TsTime
import Mathlib.Data.Finset.Prod
import Mathlib.Data.Finset.Card
import Mathlib.Tactic.Linarith
import Mathlib.Tactic.Ring
import Mathlib.Tactic.FieldSimp
import Mathlib.Tactic.NormNum
import Mathlib.Tactic.IntervalCases
import Mathlib.Order.Interval.Finset.Basic
import Mathlib.Data.Int.Interval
import Mathlib.Data.List.GetD

/-!
# Time, calendar and Fourier features: C112
-/

namespace Kats

/-! ### Counts -/

theorem nunique_card {α : Type} [DecidableEq α] (l : List α) : nuniqueOf l = l.toFinset.card := by
  unfold nuniqueOf
  rw [List.card_toFinset]

theorem nunique_map_le {α β : Type} [DecidableEq α] [DecidableEq β] (f : α → β) (l : List α) :
    nuniqueOf (l.map f) ≤ nuniqueOf l := by
  rw [nunique_card, nunique_card]
  refine le_trans (Finset.card_le_card ?_) (Finset.card_image_le (s := l.toFinset) (f := f))
  intro b hb
  rw [List.mem_toFinset] at hb
  obtain ⟨a, ha, rfl⟩ := List.mem_map.1 hb
  exact Finset.mem_image_of_mem _ (List.mem_toFinset.2 ha)

theorem nunique_pair_le {α β γ : Type} [DecidableEq β] [DecidableEq γ] (f : α → β) (g : α → γ) (l : List α) :
    nuniqueOf (l.map fun t => (f t, g t)) ≤ nuniqueOf (l.map f) * nuniqueOf (l.map g) := by
  rw [nunique_card, nunique_card, nunique_card, ← Finset.card_product]
  apply Finset.card_le_card
  intro p hp
  rw [List.mem_toFinset] at hp
  obtain ⟨t, ht, rfl⟩ := List.mem_map.1 hp
  rw [Finset.mem_product, List.mem_toFinset, List.mem_toFinset]
  exact ⟨List.mem_map.2 ⟨t, ht, rfl⟩, List.mem_map.2 ⟨t, ht, rfl⟩⟩

theorem nunique_comp_le {α β γ : Type} [DecidableEq β] [DecidableEq γ] (f : α → β) (g : β → γ) (l : List α) :
    nuniqueOf (l.map fun t => g (f t)) ≤ nuniqueOf (l.map f) := by
  have := nunique_map_le g (l.map f)
  rw [List.map_map] at this
  exact this

/-- **C112 (counts).**  There are at least as many months as years and as months of the year, at most as many as years
times months of the year, and likewise for weeks; no count exceeds the number of distinct days or of points. -/
theorem C112_counts (c : Calendar) (ts : List Int) :
    let k := timeCounts c ts
    k.years ≤ k.months ∧ k.monthsofyear ≤ k.months ∧ k.months ≤ k.years * k.monthsofyear ∧
      k.weeksofyear ≤ k.weeks ∧ k.months ≤ nuniqueOf (ts.map dayNum) ∧ k.weeks ≤ nuniqueOf (ts.map dayNum) ∧
      k.days ≤ nuniqueOf (ts.map dayNum) ∧ k.daysofyear ≤ nuniqueOf (ts.map dayNum) ∧
      nuniqueOf (ts.map dayNum) ≤ ts.length ∧
      ((∀ d, 1 ≤ (c.ymd d).2.1 ∧ (c.ymd d).2.1 ≤ 12) → k.monthsofyear ≤ 12) := by
  dsimp only [timeCounts]
  refine ⟨?_, ?_, ?_, ?_, ?_, ?_, ?_, ?_, ?_, ?_⟩
  · exact nunique_comp_le (fun t => ((c.ymd (dayNum t)).1, (c.ymd (dayNum t)).2.1)) Prod.fst ts
  · exact nunique_comp_le (fun t => ((c.ymd (dayNum t)).1, (c.ymd (dayNum t)).2.1)) Prod.snd ts
  · exact nunique_pair_le _ _ ts
  · exact nunique_comp_le (fun t => c.iso (dayNum t)) Prod.snd ts
  · exact nunique_comp_le dayNum (fun d => ((c.ymd d).1, (c.ymd d).2.1)) ts
  · exact nunique_comp_le dayNum c.iso ts
  · exact nunique_comp_le dayNum (fun d => ((c.ymd d).1, (c.ymd d).2.2)) ts
  · exact nunique_comp_le dayNum c.doy ts
  · refine le_trans (List.dedup_sublist _).length_le ?_
    simp
  · intro h
    rw [nunique_card]
    have : (ts.map fun t => (c.ymd (dayNum t)).2.1).toFinset ⊆ Finset.Icc 1 12 := by
      intro m hm
      rw [List.mem_toFinset] at hm
      obtain ⟨t, _, rfl⟩ := List.mem_map.1 hm
      rw [Finset.mem_Icc]
      exact h _
    have h2 := Finset.card_le_card this
    simpa using h2

/-- Three times on two days. -/
example : nuniqueOf ([0, 5, 86400].map dayNum) = 2 := by decide

/-- **C112 (days).**  Within a month the count of days is the number of different days. -/
theorem C112_days_partial (c : Calendar) (ts : List Int) (hinj : Function.Injective c.ymd) (y : Int) (m : Nat)
    (h : ∀ t ∈ ts, (c.ymd (dayNum t)).1 = y ∧ (c.ymd (dayNum t)).2.1 = m) :
    (timeCounts c ts).days = nuniqueOf (ts.map dayNum) := by
  apply le_antisymm
  · exact nunique_comp_le dayNum (fun d => ((c.ymd d).1, (c.ymd d).2.2)) ts
  · have h1 : nuniqueOf (ts.map dayNum) ≤ nuniqueOf (ts.map fun t => c.ymd (dayNum t)) := by
      rw [nunique_card, nunique_card, ← Finset.card_image_of_injective _ hinj]
      apply Finset.card_le_card
      intro p hp
      obtain ⟨d, hd, rfl⟩ := Finset.mem_image.1 hp
      obtain ⟨t, ht, rfl⟩ := List.mem_map.1 (List.mem_toFinset.1 hd)
      exact List.mem_toFinset.2 (List.mem_map.2 ⟨t, ht, rfl⟩)
    refine h1.trans ?_
    have h2 : (ts.map fun t => c.ymd (dayNum t)) =
        ts.map fun t => (fun p : Int × Nat => (p.1, m, p.2)) ((c.ymd (dayNum t)).1, (c.ymd (dayNum t)).2.2) := by
      apply List.map_congr_left
      intro t ht
      have := (h t ht).2
      ext
      · rfl
      · exact this
      · rfl
    rw [h2]
    exact nunique_comp_le (fun t => ((c.ymd (dayNum t)).1, (c.ymd (dayNum t)).2.2))
      (fun p : Int × Nat => (p.1, m, p.2)) ts

example : Function.Injective fun d : Int => (d, 1, 1) := fun a b h => by
  simpa using h

/-- **C112 (days) is violated.**  Two days of a year with the same day of the month, such as the first of January and of
February, are counted as one. -/
theorem C112_days_violated (c : Calendar) (t t' : Int) (hy : (c.ymd (dayNum t)).1 = (c.ymd (dayNum t')).1)
    (hd : (c.ymd (dayNum t)).2.2 = (c.ymd (dayNum t')).2.2) (hm : (c.ymd (dayNum t)).2.1 ≠ (c.ymd (dayNum t')).2.1) :
    (timeCounts c [t, t']).days = 1 ∧ nuniqueOf ([t, t'].map dayNum) = 2 := by
  constructor
  · simp [timeCounts, nuniqueOf, hy, hd]
  · have : dayNum t ≠ dayNum t' := by
      intro h
      rw [h] at hm
      exact hm rfl
    simp [nuniqueOf, this]

/-- A calendar with months of 31 days. -/
example : ∃ c : Calendar, c.ymd (dayNum 0) = (1970, 1, 1) ∧ c.ymd (dayNum (31 * 86400)) = (1970, 2, 1) :=
  ⟨⟨fun d => (1970, (d / 31 + 1).toNat, (d % 31 + 1).toNat), fun _ => (0, 0), fun _ => 0⟩, by decide, by decide⟩

/-! ### Length -/

theorem foldr_max_int (l : List Int) (d : Int) : d ≤ l.foldr max d ∧ ∀ t ∈ l, t ≤ l.foldr max d := by
  induction l with
  | nil => simp
  | cons a l ih =>
    refine ⟨ih.1.trans (le_max_right _ _), ?_⟩
    intro t ht
    rcases List.mem_cons.1 ht with rfl | h
    · exact le_max_left _ _
    · exact (ih.2 t h).trans (le_max_right _ _)

theorem foldr_min_int (l : List Int) (d : Int) : l.foldr min d ≤ d ∧ ∀ t ∈ l, l.foldr min d ≤ t := by
  induction l with
  | nil => simp
  | cons a l ih =>
    refine ⟨(min_le_right _ _).trans ih.1, ?_⟩
    intro t ht
    rcases List.mem_cons.1 ht with rfl | h
    · exact min_le_left _ _
    · exact (min_le_right _ _).trans (ih.2 t h)

theorem foldr_max_int_mem (l : List Int) (d : Int) : l.foldr max d = d ∨ l.foldr max d ∈ l := by
  induction l with
  | nil => simp
  | cons a l ih =>
    rw [List.foldr_cons]
    rcases max_choice a (l.foldr max d) with h | h
    · right; rw [h]; exact List.mem_cons_self
    · rw [h]
      rcases ih with h1 | h1
      · left; exact h1
      · right; exact List.mem_cons_of_mem _ h1

theorem foldr_min_int_mem (l : List Int) (d : Int) : l.foldr min d = d ∨ l.foldr min d ∈ l := by
  induction l with
  | nil => simp
  | cons a l ih =>
    rw [List.foldr_cons]
    rcases min_choice a (l.foldr min d) with h | h
    · right; rw [h]; exact List.mem_cons_self
    · rw [h]
      rcases ih with h1 | h1
      · left; exact h1
      · right; exact List.mem_cons_of_mem _ h1

/-- **C112 (length).**  The length in days is the number of whole days between the earliest and the latest time, whatever
the order of the times; it is at least the number of different days less two. -/
theorem C112_length (ts : List Int) (hts : ts ≠ []) :
    (∃ a ∈ ts, ∃ b ∈ ts, (∀ t ∈ ts, a ≤ t ∧ t ≤ b) ∧ timeLengthDays ts * 86400 ≤ b - a ∧
      b - a < (timeLengthDays ts + 1) * 86400) ∧
    0 ≤ timeLengthDays ts ∧ (nuniqueOf (ts.map dayNum) : Int) ≤ timeLengthDays ts + 2 := by
  have hhead : ts.headD 0 ∈ ts := by
    cases ts with
    | nil => exact absurd rfl hts
    | cons a l => simp
  have hmax := foldr_max_int ts (ts.headD 0)
  have hmin := foldr_min_int ts (ts.headD 0)
  have hbm : ts.foldr max (ts.headD 0) ∈ ts := by
    rcases foldr_max_int_mem ts (ts.headD 0) with h | h
    · rw [h]; exact hhead
    · exact h
  have ham : ts.foldr min (ts.headD 0) ∈ ts := by
    rcases foldr_min_int_mem ts (ts.headD 0) with h | h
    · rw [h]; exact hhead
    · exact h
  have hle := hmin.2 _ hbm
  refine ⟨⟨_, ham, _, hbm, fun t ht => ⟨hmin.2 t ht, hmax.2 t ht⟩, ?_, ?_⟩, ?_, ?_⟩
  · unfold timeLengthDays
    omega
  · unfold timeLengthDays
    omega
  · unfold timeLengthDays
    omega
  · have hsub : (ts.map dayNum).toFinset ⊆
        Finset.Icc (dayNum (ts.foldr min (ts.headD 0))) (dayNum (ts.foldr max (ts.headD 0))) := by
      intro d hd
      rw [List.mem_toFinset] at hd
      obtain ⟨t, ht, rfl⟩ := List.mem_map.1 hd
      rw [Finset.mem_Icc]
      have h1 := hmin.2 t ht
      have h2 := hmax.2 t ht
      unfold dayNum
      omega
    have hc := Finset.card_le_card hsub
    rw [Int.card_Icc] at hc
    rw [nunique_card]
    have h1 : dayNum (ts.foldr max (ts.headD 0)) - dayNum (ts.foldr min (ts.headD 0)) ≤ timeLengthDays ts + 1 := by
      unfold timeLengthDays dayNum
      omega
    have h2 : dayNum (ts.foldr min (ts.headD 0)) ≤ dayNum (ts.foldr max (ts.headD 0)) := by
      unfold dayNum
      omega
    omega

example : timeLengthDays [86399, 86400, 0] = 1 ∧ nuniqueOf ([86399, 86400, 0].map dayNum) = 2 := by decide

/-! ### Weekdays -/

theorem weekdayOf_lt (t : Int) : weekdayOf t < 7 := by
  unfold weekdayOf
  omega

theorem count_weekdays (ts : List Int) :
    ((List.range 7).map fun k : Nat => ts.countP fun t => decide (weekdayOf t = k)).sum = ts.length := by
  induction ts with
  | nil => simp
  | cons t ts ih =>
    have h7 := weekdayOf_lt t
    have : ((List.range 7).map fun k : Nat => (t :: ts).countP fun t => decide (weekdayOf t = k)).sum =
        ((List.range 7).map fun k : Nat => ts.countP fun t => decide (weekdayOf t = k)).sum +
          ((List.range 7).map fun k : Nat => if weekdayOf t = k then 1 else 0).sum := by
      rw [← List.sum_map_add]
      congr 1
      apply List.map_congr_left
      intro k _
      rw [List.countP_cons]
      simp
    rw [this, ih, List.length_cons]
    congr 1
    generalize weekdayOf t = w at h7
    interval_cases w <;> rfl

theorem daily_weekday (t0 : Int) (i : Nat) : weekdayOf (t0 + 86400 * i) = (weekdayOf t0 + i) % 7 := by
  unfold weekdayOf dayNum
  omega

theorem count_mod (w k n : Nat) (hk : k < 7) :
    (List.range (7 * n)).countP (fun i : Nat => decide ((w + i) % 7 = k)) = n := by
  induction n with
  | zero => simp
  | succ n ih =>
    rw [show 7 * (n + 1) = 7 * n + 7 by ring, List.range_add, List.countP_append, ih, List.countP_map]
    have : (List.range 7).countP ((fun i : Nat => decide ((w + i) % 7 = k)) ∘ fun x => 7 * n + x) =
        (List.range 7).countP (fun i : Nat => decide ((w % 7 + i) % 7 = k)) := by
      apply List.countP_congr
      intro i _
      simp only [Function.comp, decide_eq_true_eq]
      omega
    rw [this]
    have hw : w % 7 < 7 := Nat.mod_lt _ (by omega)
    generalize w % 7 = v at hw
    have : (List.range 7).countP (fun i : Nat => decide ((v + i) % 7 = k)) = 1 := by
      interval_cases v <;> interval_cases k <;> rfl
    rw [this]

/-- **C112 (weekdays).**  The frequencies of the seven weekdays are the fractions of the points on them; they add up to
one, and over whole weeks of daily data each is one seventh. -/
theorem C112_weekdays (ts : List Int) (hts : ts ≠ []) :
    ((List.range 7).map (timeFreq ts)).sum = 1 ∧
      (∀ k, 0 ≤ timeFreq ts k ∧ timeFreq ts k ≤ 1 ∧
        (timeFreq ts k = 0 ↔ ∀ t ∈ ts, (dayNum t + 3) % 7 ≠ (k : Int))) ∧
      ∀ (t0 : Int) (n : Nat), 0 < n → ts = (List.range (7 * n)).map (fun i : Nat => t0 + 86400 * (i : Int)) →
        ∀ k, k < 7 → timeFreq ts k = 1 / 7 := by
  have hpos : (0 : ℚ) < ts.length := by exact_mod_cast List.length_pos_of_ne_nil hts
  refine ⟨?_, ?_, ?_⟩
  · have h := count_weekdays ts
    have h2 : ((List.range 7).map (timeFreq ts)).sum =
        (((List.range 7).map fun k : Nat => ts.countP fun t => decide (weekdayOf t = k)).sum : Nat) / (ts.length : ℚ) := by
      simp only [List.range_succ, List.range_zero, List.nil_append, List.cons_append, List.map_cons, List.map_nil,
        List.sum_cons, List.sum_nil, timeFreq]
      push_cast
      ring
    rw [h2, h, div_self hpos.ne']
  · intro k
    have hle : (ts.countP fun t => decide (weekdayOf t = k)) ≤ ts.length := List.countP_le_length
    refine ⟨by unfold timeFreq; positivity, ?_, ?_⟩
    · unfold timeFreq
      rw [div_le_one hpos]
      exact_mod_cast hle
    · unfold timeFreq
      rw [div_eq_zero_iff, or_iff_left hpos.ne', Nat.cast_eq_zero, List.countP_eq_zero]
      apply forall_congr'
      intro t
      apply forall_congr'
      intro _
      unfold weekdayOf
      rw [decide_eq_true_eq]
      apply not_congr
      omega
  · intro t0 n hn he k hk
    unfold timeFreq
    rw [he, List.countP_map, List.length_map, List.length_range]
    have : (List.range (7 * n)).countP ((fun t => decide (weekdayOf t = k)) ∘ fun i : Nat => t0 + 86400 * (i : Int)) = n := by
      refine Eq.trans ?_ (count_mod (weekdayOf t0) k n hk)
      apply List.countP_congr
      intro i _
      simp only [Function.comp, daily_weekday]
    rw [this]
    have hn' : (n : ℚ) ≠ 0 := by
      have : (0 : ℚ) < n := by exact_mod_cast hn
      exact this.ne'
    push_cast
    field_simp

/-- The first of January 1970 was a Thursday. -/
example : timeFreq [0, 86400] 3 = 1 / 2 ∧ timeFreq [0, 86400] 0 = 0 := by
  constructor <;> norm_num [timeFreq, weekdayOf, dayNum, List.countP_cons] <;> decide

/-- **C112 (minute of the day).**  Hour times sixty plus minute is the number of whole minutes since midnight. -/
theorem C112_minute (t : Int) : minuteOfDay t = t % 86400 / 60 ∧ 0 ≤ minuteOfDay t ∧ minuteOfDay t < 1440 := by
  unfold minuteOfDay hourOf minuteOf
  omega

example : minuteOfDay (-1) = 1439 := by decide

/-! ### Fourier features -/

/-- What the row of a period and an order should be. -/
noncomputable def fourierBlock (x : ℝ) (pr : ℝ × Nat) : List ℝ :=
  (List.range pr.2).flatMap fun i : Nat =>
    [Real.sin (2 * Real.pi * x / pr.1 * (i + 1 : Nat)), Real.cos (2 * Real.pi * x / pr.1 * (i + 1 : Nat))]

theorem set_append_two {α : Type} (a : List α) (u v x y : α) (b : List α) :
    ((a ++ u :: v :: b).set a.length x).set (a.length + 1) y = a ++ x :: y :: b := by
  rw [List.set_append_right _ _ (le_refl _), Nat.sub_self, List.set_cons_zero,
    List.set_append_right _ _ (by omega), show a.length + 1 - a.length = 1 by omega, List.set_cons_succ,
    List.set_cons_zero]

theorem foldl_fourierStep (v : ℝ) (l : List Nat) : ∀ (done rest : List ℝ), 2 * l.length ≤ rest.length →
    l.foldl (fourierStep v) (done ++ rest, done.length) =
      (done ++ (l.flatMap fun i : Nat => [Real.sin (v * (i + 1 : Nat)), Real.cos (v * (i + 1 : Nat))]) ++
        rest.drop (2 * l.length), done.length + 2 * l.length) := by
  induction l with
  | nil => intro done rest _; simp
  | cons i l ih =>
    intro done rest h
    match rest, h with
    | [], h => simp at h
    | [_], h => simp at h; omega
    | u :: w :: rest, h =>
      rw [List.foldl_cons]
      have hs : fourierStep v (done ++ u :: w :: rest, done.length) i =
          ((done ++ [Real.sin (v * (i + 1 : Nat)), Real.cos (v * (i + 1 : Nat))]) ++ rest,
            (done ++ [Real.sin (v * (i + 1 : Nat)), Real.cos (v * (i + 1 : Nat))]).length) := by
        unfold fourierStep
        dsimp only
        rw [set_append_two]
        simp
      rw [hs, ih _ _ (by simp at h; omega)]
      ext1
      · simp [List.flatMap_cons, show 2 * (l.length + 1) = 2 * l.length + 1 + 1 by ring]
      · simp
        ring

theorem fourierBlock_length (x : ℝ) (pr : ℝ × Nat) : (fourierBlock x pr).length = 2 * pr.2 := by
  unfold fourierBlock
  rw [List.length_flatMap]
  simp [mul_comm]

theorem foldl_fourierPeriod (x : ℝ) (l : List (ℝ × Nat)) : ∀ (done rest : List ℝ),
    2 * (l.map Prod.snd).sum = rest.length →
    (l.foldl (fourierPeriod x) (done ++ rest, done.length)).1 = done ++ l.flatMap (fourierBlock x) := by
  induction l with
  | nil =>
    intro done rest h
    have : rest = [] := List.eq_nil_of_length_eq_zero (by simpa using h.symm)
    simp [this]
  | cons pr l ih =>
    intro done rest h
    rw [List.map_cons, List.sum_cons] at h
    rw [List.foldl_cons]
    have hs : fourierPeriod x (done ++ rest, done.length) pr =
        ((done ++ fourierBlock x pr) ++ rest.drop (2 * pr.2), (done ++ fourierBlock x pr).length) := by
      unfold fourierPeriod
      rw [foldl_fourierStep _ _ _ _ (by rw [List.length_range]; omega), List.length_append, fourierBlock_length,
        List.length_range]
      rfl
    rw [hs, ih _ _ (by rw [List.length_drop]; omega), List.flatMap_cons, List.append_assoc]

theorem setEvery2_length {α : Type} (l : List α) (s : Nat) (v : List α) : (setEvery2 l s v).length = l.length := by
  unfold setEvery2
  generalize List.range v.length = is
  induction is generalizing l with
  | nil => rfl
  | cons i is ih =>
    rw [List.foldl_cons, ih]
    split
    · exact List.length_set
    · rfl

theorem setEvery2_get {α : Type} (v : List α) (s : Nat) : ∀ (n : Nat) (l : List α), n ≤ v.length → ∀ k : Nat,
    ((List.range n).foldl
      (fun acc i => match v[i]? with | some a => acc.set (s + 2 * i) a | none => acc) l)[k]? =
      if s ≤ k ∧ (k - s) % 2 = 0 ∧ (k - s) / 2 < n ∧ k < l.length then v[(k - s) / 2]? else l[k]? := by
  intro n
  induction n with
  | zero => intro l _ k; simp
  | succ n ih =>
    intro l hn k
    rw [List.range_succ, List.foldl_append, List.foldl_cons, List.foldl_nil]
    have hlen : ∀ m (l' : List α), ((List.range m).foldl
        (fun acc i => match v[i]? with | some a => acc.set (s + 2 * i) a | none => acc) l').length = l'.length := by
      intro m l'
      generalize List.range m = is
      induction is generalizing l' with
      | nil => rfl
      | cons i is ih2 =>
        rw [List.foldl_cons, ih2]
        split
        · exact List.length_set
        · rfl
    have hv : v[n]? = some v[n] := List.getElem?_eq_getElem (by omega)
    rw [hv]
    dsimp only
    rw [List.getElem?_set, ih l (by omega) k, hlen]
    by_cases hk : s + 2 * n = k
    · rw [if_pos hk]
      have h2 : (k - s) / 2 = n := by omega
      by_cases hl : k < l.length
      · rw [if_pos (by omega), if_pos ⟨by omega, by omega, by omega, hl⟩, h2, hv]
      · rw [if_neg (by omega), if_neg (by omega), List.getElem?_eq_none (by omega)]
    · rw [if_neg hk]
      by_cases hc : s ≤ k ∧ (k - s) % 2 = 0 ∧ (k - s) / 2 < n ∧ k < l.length
      · rw [if_pos hc, if_pos ⟨hc.1, hc.2.1, by omega, hc.2.2.2⟩]
      · rw [if_neg hc, if_neg]
        intro h
        apply hc
        exact ⟨h.1, h.2.1, by omega, h.2.2.2⟩

theorem setEvery2_getElem {α : Type} (v : List α) (s : Nat) (l : List α) (n : Nat) (hn : v.length = n) (k : Nat) :
    (setEvery2 l s v)[k]? =
      if s ≤ k ∧ (k - s) % 2 = 0 ∧ (k - s) / 2 < n ∧ k < l.length then v[(k - s) / 2]? else l[k]? := by
  subst hn
  exact setEvery2_get v s v.length l (le_refl _) k

/-- What the names for a period and an order should be. -/
def fourierNames (pr : ℝ × Nat) : List FourierName :=
  (List.range pr.2).flatMap fun i : Nat => [some (pr.1, i + 1, true), some (pr.1, i + 1, false)]

theorem flatMap_two_get {α : Type} (g h : Nat → α) (n k : Nat) (hk : k < 2 * n) :
    ((List.range n).flatMap fun i : Nat => [g i, h i])[k]? = some (if k % 2 = 0 then g (k / 2) else h (k / 2)) := by
  induction n with
  | zero => omega
  | succ n ih =>
    have hlen : ((List.range n).flatMap fun i : Nat => [g i, h i]).length = 2 * n := by
      rw [List.length_flatMap]
      simp [mul_comm]
    rw [List.range_succ, List.flatMap_append]
    by_cases hlt : k < 2 * n
    · rw [List.getElem?_append_left (by omega), ih hlt]
    · rw [List.getElem?_append_right (by omega), hlen]
      have : k = 2 * n ∨ k = 2 * n + 1 := by omega
      rcases this with rfl | rfl
      · simp
      · have h1 : (2 * n + 1) % 2 = 1 := by omega
        have h2 : (2 * n + 1) / 2 = n := by omega
        simp [h1, h2]

theorem names_block (pr : ℝ × Nat) :
    setEvery2 (setEvery2 (List.replicate (pr.2 * 2) none) 0 ((List.range pr.2).map fun i : Nat => some (pr.1, i + 1, true)))
      1 ((List.range pr.2).map fun i : Nat => some (pr.1, i + 1, false)) = fourierNames pr := by
  apply List.ext_getElem?
  intro k
  have hl := setEvery2_length (List.replicate (pr.2 * 2) (none : FourierName)) 0
    ((List.range pr.2).map fun i : Nat => some (pr.1, i + 1, true))
  rw [List.length_replicate] at hl
  rw [setEvery2_getElem _ _ _ pr.2 (by simp), setEvery2_getElem _ _ _ pr.2 (by simp), hl, List.length_replicate]
  unfold fourierNames
  by_cases hk : k < 2 * pr.2
  · rw [flatMap_two_get (fun i : Nat => some (pr.1, i + 1, true)) (fun i : Nat => some (pr.1, i + 1, false)) _ _ hk]
    rcases Nat.mod_two_eq_zero_or_one k with h2 | h2
    · rw [if_neg (by omega), if_pos ⟨by omega, by omega, by omega, by omega⟩, if_pos h2, Nat.sub_zero,
        List.getElem?_map, List.getElem?_range (by omega)]
      rfl
    · rw [if_pos ⟨by omega, by omega, by omega, by omega⟩, if_neg (by omega), List.getElem?_map,
        List.getElem?_range (by omega)]
      simp only [Option.map_some, Option.some.injEq]
      rw [show (k - 1) / 2 = k / 2 by omega]
  · rw [if_neg (by omega), if_neg (by omega), List.getElem?_eq_none (by simp; omega), List.getElem?_eq_none]
    rw [List.length_flatMap]
    simp
    omega

/-- The value a name stands for. -/
noncomputable def fourierValue (x : ℝ) : FourierName → ℝ
  | some (p, j, true) => Real.sin (2 * Real.pi * x * j / p)
  | some (p, j, false) => Real.cos (2 * Real.pi * x * j / p)
  | none => 0

/-- **C112 (Fourier features).**  There are two columns for each order of each period; every column has a name, its entry
is the sine or cosine of that harmonic of that period, and names and entries are in the same order. -/
theorem C112_fourier (period : List ℝ) (order : List Nat) (offset : ℝ) (f : Fourier)
    (h : Fourier.init period order offset = .ok f) (ns : Int) :
    (fourierColumns f).length = 2 * order.sum ∧ none ∉ fourierColumns f ∧
      fourierFeatures f ns = (fourierColumns f).map (fourierValue (((ns / 10 ^ 9 : Int) : ℝ) / offset)) ∧
      ∀ p j b, some (p, j, b) ∈ fourierColumns f ↔
        ∃ r, (p, r) ∈ period.zip order ∧ 1 ≤ j ∧ j ≤ r := by
  unfold Fourier.init at h
  split at h
  · exact absurd h (by simp)
  rename_i hlen
  rw [not_not] at hlen
  split at h
  · exact absurd h (by simp)
  injection h with h
  subst h
  have hcols : fourierColumns ⟨period, order, offset⟩ = (period.zip order).flatMap fourierNames := by
    unfold fourierColumns
    dsimp only
    congr 1
    funext pr
    exact names_block pr
  have hsnd : ((period.zip order).map Prod.snd) = order := List.map_snd_zip (by omega)
  have hnl : ∀ pr : ℝ × Nat, (fourierNames pr).length = 2 * pr.2 := by
    intro pr
    unfold fourierNames
    rw [List.length_flatMap]
    simp [mul_comm]
  refine ⟨?_, ?_, ?_, ?_⟩
  · rw [hcols, List.length_flatMap]
    have : (period.zip order).map (fun pr => (fourierNames pr).length) = ((period.zip order).map Prod.snd).map (2 * ·) := by
      rw [List.map_map]
      apply List.map_congr_left
      intro pr _
      exact hnl pr
    rw [this, hsnd, List.sum_map_mul_left, List.map_id']
  · rw [hcols]
    simp [fourierNames]
  · unfold fourierFeatures fourierRow
    dsimp only
    have := foldl_fourierPeriod (((ns / 10 ^ 9 : Int) : ℝ) / offset) (period.zip order) []
      (List.replicate (order.sum * 2) 0) (by rw [hsnd, List.length_replicate]; ring)
    rw [List.nil_append, List.nil_append] at this
    refine Eq.trans this ?_
    rw [hcols, List.map_flatMap]
    congr 1
    funext pr
    unfold fourierBlock fourierNames
    rw [List.map_flatMap]
    congr 1
    funext i
    simp only [List.map_cons, List.map_nil, fourierValue]
    rw [show ∀ x : ℝ, 2 * Real.pi * x / pr.1 * ((i + 1 : Nat) : ℝ) = 2 * Real.pi * x * ((i + 1 : Nat) : ℝ) / pr.1 from
      fun x => by ring]
  · intro p j b
    rw [hcols]
    simp only [List.mem_flatMap, fourierNames, List.mem_range, List.mem_cons, List.not_mem_nil, or_false,
      Option.some.injEq, Prod.mk.injEq, Prod.exists]
    constructor
    · rintro ⟨p', r, hm, i, hi, h | h⟩
      · exact ⟨r, h.1 ▸ hm, by omega, by omega⟩
      · exact ⟨r, h.1 ▸ hm, by omega, by omega⟩
    · rintro ⟨r, hm, h1, h2⟩
      refine ⟨p, r, hm, j - 1, by omega, ?_⟩
      have : j = j - 1 + 1 := by omega
      cases b
      · right; exact ⟨rfl, this, rfl⟩
      · left; exact ⟨rfl, this, rfl⟩

example : ∃ f, Fourier.init [7, 365] [3, 10] 86400 = .ok f := by
  refine ⟨⟨[7, 365], [3, 10], 86400⟩, ?_⟩
  norm_num [Fourier.init]

/-- **C112 (period).**  Every value repeats after its period, which is counted in units of `offset` seconds; parts of
seconds do not count, and the squares of a sine and the cosine of the same harmonic add up to one. -/
theorem C112_fourier_period (x p : ℝ) (hp : p ≠ 0) (j : Nat) (b : Bool) :
    fourierValue (x + p) (some (p, j, b)) = fourierValue x (some (p, j, b)) ∧
      fourierValue x (some (p, j, true)) ^ 2 + fourierValue x (some (p, j, false)) ^ 2 = 1 := by
  have h : 2 * Real.pi * (x + p) * j / p = 2 * Real.pi * x * j / p + j * (2 * Real.pi) := by
    field_simp
  refine ⟨?_, Real.sin_sq_add_cos_sq _⟩
  cases b
  · unfold fourierValue
    dsimp only
    rw [h, Real.cos_add_nat_mul_two_pi]
  · unfold fourierValue
    dsimp only
    rw [h, Real.sin_add_nat_mul_two_pi]

example : fourierValue 0 (some (7, 1, false)) = 1 := by simp [fourierValue]

/-- Two times in the same second have the same features. -/
theorem C112_fourier_second (f : Fourier) (ns ns' : Int) (h : ns / 10 ^ 9 = ns' / 10 ^ 9) :
    fourierFeatures f ns = fourierFeatures f ns' := by
  unfold fourierFeatures
  rw [h]

example : (1 : Int) / 10 ^ 9 = 999999999 / 10 ^ 9 := by norm_num

/-- **C112 (Fourier arguments).**  Lists of different lengths and a negative offset are rejected. -/
theorem C112_fourier_init_partial (period : List ℝ) (order : List Nat) (offset : ℝ) :
    (∃ f, Fourier.init period order offset = .ok f) ↔ period.length = order.length ∧ 0 ≤ offset := by
  unfold Fourier.init
  constructor
  · rintro ⟨f, h⟩
    split at h
    · exact absurd h (by simp)
    rename_i h1
    split at h
    · exact absurd h (by simp)
    rename_i h2
    exact ⟨not_not.1 h1, not_lt.1 h2⟩
  · rintro ⟨h1, h2⟩
    exact ⟨_, by rw [if_neg (not_not.2 h1), if_neg (not_lt.2 h2)]⟩

example : ([7, 365] : List ℝ).length = [3, 10].length := rfl

/-- **C112 (Fourier arguments) is violated.**  The offset and the periods should be positive; an offset of zero is
accepted, by which all times are then divided, and so is every period, zero and negative ones too. -/
theorem C112_fourier_init_violated (p : ℝ) (r : Nat) :
    (∃ f, Fourier.init [p] [r] 0 = .ok f ∧ f.offset = 0) ∧
      ∃ f, Fourier.init [0] [r] 1 = .ok f ∧ f.period = [0] := by
  constructor
  · refine ⟨⟨[p], [r], 0⟩, ?_, rfl⟩
    simp [Fourier.init]
  · refine ⟨⟨[0], [r], 1⟩, ?_, rfl⟩
    simp [Fourier.init]

end Kats

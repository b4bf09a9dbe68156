import Verif.Model.Heuristic
import Verif.Lemmas.Metrics
import Mathlib.Tactic.Linarith
import Mathlib.Tactic.Ring
import Mathlib.Tactic.FieldSimp
import Mathlib.Tactic.Positivity
import Mathlib.Tactic.NormNum
import Mathlib.Data.Rat.Floor

/-!
# Theorems about the seasonal-naive heuristic (C49) and forecast dates (C78)
-/

namespace Kats

/-! ## Helpers -/

theorem fittedPart_eq (xs : List Rat) (steps : Nat) (hs : 0 < steps) (hn : steps ≤ xs.length) :
    fittedPart xs steps = xs.drop (xs.length - xs.length / steps * steps) := by
  unfold fittedPart pyFrom pyIdx
  have h1 : 0 < xs.length / steps * steps := Nat.mul_pos (Nat.div_pos hn hs) hs
  have h2 := Nat.div_mul_le_self xs.length steps
  rw [if_pos (by omega)]
  congr 1
  omega

theorem fittedPart_length (xs : List Rat) (steps : Nat) (hs : 0 < steps) (hn : steps ≤ xs.length) :
    (fittedPart xs steps).length = xs.length / steps * steps := by
  rw [fittedPart_eq xs steps hs hn, List.length_drop]
  have h2 := Nat.div_mul_le_self xs.length steps
  omega

/-- The column of phase `c`: the value one period, two periods, … before the forecast time. -/
theorem phaseColumn_spec (xs : List Rat) (steps c : Nat) (hs : 0 < steps) (hn : steps ≤ xs.length)
    (hc : c < steps) :
    (phaseColumn (fittedPart xs steps) steps c).length = xs.length / steps
    ∧ ∀ r, r < xs.length / steps →
      (phaseColumn (fittedPart xs steps) steps c)[r]?
        = xs[xs.length + c - (xs.length / steps - r) * steps]? := by
  unfold phaseColumn
  rw [fittedPart_length xs steps hs hn, Nat.mul_div_cancel _ hs]
  refine ⟨by simp, ?_⟩
  intro r hr
  rw [List.getElem?_map, List.getElem?_range hr, Option.map_some, fittedPart_eq xs steps hs hn]
  set n := xs.length with hndef
  set k := n / steps with hk
  have h1 : k * steps ≤ n := Nat.div_mul_le_self n steps
  have h2 : (k - r) * steps = k * steps - r * steps := Nat.sub_mul ..
  have h3 : r * steps + steps ≤ k * steps := by
    have : (r + 1) * steps ≤ k * steps := Nat.mul_le_mul_right _ hr
    rwa [Nat.add_mul, one_mul] at this
  have hlt : n - k * steps + (r * steps + c) < n := by omega
  rw [List.getD_eq_getElem?_getD, List.getElem?_drop, List.getElem?_eq_getElem hlt]
  rw [show n + c - (k - r) * steps = n - k * steps + (r * steps + c) by omega,
    List.getElem?_eq_getElem hlt]
  rfl

theorem heuristicFcst_ok (m : HMethod) (xs : List Rat) (steps : Nat) (hs : 0 < steps)
    (hn : steps ≤ xs.length) :
    heuristicFcst m xs steps
      = .ok ((List.range steps).map fun c => m.apply (phaseColumn (fittedPart xs steps) steps c)) := by
  unfold heuristicFcst
  rw [if_neg (by omega)]
  dsimp only
  rw [fittedPart_length xs steps hs hn, Nat.mul_mod_left, if_neg (by simp)]

/-- Percentiles lie between the smallest and the largest value. -/
theorem percentileQ_bounds {l : List Rat} (hne : l ≠ []) {q : Nat} (hq : q ≤ 100) {lo hi : Rat}
    (h : ∀ x ∈ l, lo ≤ x ∧ x ≤ hi) : lo ≤ percentileQ q l ∧ percentileQ q l ≤ hi := by
  unfold percentileQ
  dsimp only
  set s := l.insertionSort (· ≤ ·) with hsd
  have hl : s.length = l.length := List.length_insertionSort _ l
  have hp : 0 < s.length := by rw [hl]; exact List.length_pos_iff.2 hne
  have hb : ∀ i, i < s.length → lo ≤ s.getD i 0 ∧ s.getD i 0 ≤ hi := by
    intro i hi
    rw [getD_lt hi]
    exact h _ ((List.perm_insertionSort _ l).mem_iff.1 (List.getElem_mem hi))
  set hh : Rat := ((s.length - 1 : Nat) : Rat) * q / 100 with hhd
  have h0 : 0 ≤ hh := by positivity
  have h1 : hh ≤ ((s.length - 1 : Nat) : Rat) := by
    rw [hhd, div_le_iff₀ (by norm_num)]
    have : (q : Rat) ≤ 100 := by exact_mod_cast hq
    have h2 : (0 : Rat) ≤ ((s.length - 1 : Nat) : Rat) := by positivity
    nlinarith
  have hf0 : 0 ≤ hh.floor := Rat.le_floor_iff.2 (by simpa using h0)
  have hfl : ((hh.floor.toNat : Nat) : Rat) ≤ hh := by
    have e : ((hh.floor.toNat : Nat) : Rat) = ((hh.floor : Int) : Rat) := by
      rw [← Int.cast_natCast, Int.toNat_of_nonneg hf0]
    rw [e]
    exact Rat.floor_le _
  have hfu : hh < ((hh.floor.toNat : Nat) : Rat) + 1 := by
    have e : ((hh.floor.toNat : Nat) : Rat) = ((hh.floor : Int) : Rat) := by
      rw [← Int.cast_natCast, Int.toNat_of_nonneg hf0]
    rw [e]
    have : hh - 1 < ((hh.floor : Int) : Rat) := Rat.lt_floor
    linarith
  have hi1 : hh.floor.toNat < s.length := by
    have : ((hh.floor.toNat : Nat) : Rat) ≤ ((s.length - 1 : Nat) : Rat) := hfl.trans h1
    have : hh.floor.toNat ≤ s.length - 1 := by exact_mod_cast this
    omega
  have hi2 : min (hh.floor.toNat + 1) (s.length - 1) < s.length := by omega
  obtain ⟨a1, a2⟩ := hb _ hi1
  obtain ⟨b1, b2⟩ := hb _ hi2
  generalize s.getD hh.floor.toNat 0 = a at *
  generalize s.getD (min (hh.floor.toNat + 1) (s.length - 1)) 0 = b at *
  generalize hg : hh - (hh.floor.toNat : Rat) = g
  have g0 : 0 ≤ g := by rw [← hg]; linarith
  have g1 : g ≤ 1 := by rw [← hg]; linarith
  have : a + g * (b - a) = (1 - g) * a + g * b := by ring
  rw [this]
  constructor <;> nlinarith

theorem floor_toNat_unique (h : Rat) (n : Nat) (h1 : (n : Rat) ≤ h) (h2 : h < n + 1) :
    h.floor.toNat = n := by
  have : h.floor = (n : Int) := by
    apply le_antisymm
    · have := Rat.floor_lt_iff.2 (show h < (((n : Int) + 1 : Int) : Rat) by push_cast; exact h2)
      omega
    · exact Rat.le_floor_iff.2 (by exact_mod_cast h1)
  omega

/-- The 50th percentile is the median. -/
theorem percentileQ_median {l : List Rat} (hne : l ≠ []) : percentileQ 50 l = medianQ l := by
  unfold percentileQ medianQ
  dsimp only
  set s := l.insertionSort (· ≤ ·) with hsd
  have hl : s.length = l.length := List.length_insertionSort _ l
  have hp : 0 < s.length := by rw [hl]; exact List.length_pos_iff.2 hne
  generalize hn : s.length = n at *
  have hh : ((n - 1 : Nat) : Rat) * (50 : Nat) / 100 = ((n - 1 : Nat) : Rat) / 2 := by
    push_cast; ring
  rw [hh]
  rcases Nat.even_or_odd' n with ⟨k, hk | hk⟩
  · have e1 : n - 1 = 2 * (k - 1) + 1 := by omega
    have hk1 : 1 ≤ k := by omega
    have ef : (((n - 1 : Nat) : Rat) / 2).floor.toNat = k - 1 := by
      apply floor_toNat_unique
      · rw [e1]; push_cast; linarith
      · rw [e1]; push_cast; linarith
    rw [ef, if_neg (by omega)]
    have : min (k - 1 + 1) (n - 1) = k := by omega
    rw [this, show n / 2 = k by omega, e1]
    push_cast
    ring
  · have e1 : n - 1 = 2 * k := by omega
    have ef : (((n - 1 : Nat) : Rat) / 2).floor.toNat = k := by
      apply floor_toNat_unique
      · rw [e1]; push_cast; linarith
      · rw [e1]; push_cast; linarith
    rw [ef, if_pos (by omega), show n / 2 = k by omega, e1]
    push_cast
    ring

theorem mean_bounds {l : List Rat} (hne : l ≠ []) {lo hi : Rat} (h : ∀ x ∈ l, lo ≤ x ∧ x ≤ hi) :
    lo ≤ l.sum / l.length ∧ l.sum / l.length ≤ hi := by
  have hp : (0 : Rat) < l.length := by exact_mod_cast List.length_pos_iff.2 hne
  rw [le_div_iff₀ hp, div_le_iff₀ hp]
  clear hne hp
  induction l with
  | nil => simp
  | cons x l ih =>
    obtain ⟨i1, i2⟩ := ih fun y hy => h y (List.mem_cons_of_mem _ hy)
    obtain ⟨j1, j2⟩ := h x (List.mem_cons_self ..)
    rw [List.sum_cons, List.length_cons]
    push_cast
    constructor <;> linarith

theorem HMethod.apply_bounds (m : HMethod) (hm : m.validate = .ok ()) {l : List Rat} (hne : l ≠ [])
    {lo hi : Rat} (h : ∀ x ∈ l, lo ≤ x ∧ x ≤ hi) : lo ≤ m.apply l ∧ m.apply l ≤ hi := by
  cases m with
  | last =>
    change lo ≤ l.getLastD 0 ∧ l.getLastD 0 ≤ hi
    rw [List.getLastD_eq_getLast?, List.getLast?_eq_some_getLast hne]
    exact h _ (List.getLast_mem hne)
  | mean => exact mean_bounds hne h
  | median => exact medianQ_bounds hne h
  | percentile q =>
    apply percentileQ_bounds hne _ h
    change (if q > 100 then Except.error Err.valueError else .ok ()) = _ at hm
    by_contra hcon
    rw [if_pos (by omega)] at hm
    cases hm

/-! ## C49 -/

/-- C49 (method `last`): for a horizon no longer than the history the forecast is the last `steps`
values in order. -/
theorem C49_last (xs : List Rat) (steps : Nat) (hs : 0 < steps) (hn : steps ≤ xs.length) :
    heuristicFcst .last xs steps = .ok (xs.drop (xs.length - steps)) := by
  rw [heuristicFcst_ok _ xs steps hs hn]
  congr 1
  apply List.ext_getElem?
  intro c
  by_cases hc : c < steps
  · obtain ⟨h1, h2⟩ := phaseColumn_spec xs steps c hs hn hc
    rw [List.getElem?_map, List.getElem?_range hc, Option.map_some, List.getElem?_drop]
    change some ((phaseColumn (fittedPart xs steps) steps c).getLastD 0) = _
    have hk : 0 < xs.length / steps := Nat.div_pos hn hs
    have h3 := h2 (xs.length / steps - 1) (by omega)
    rw [show xs.length / steps - (xs.length / steps - 1) = 1 by omega, one_mul] at h3
    rw [List.getLastD_eq_getLast?, List.getLast?_eq_getElem?, h1, h3,
      show xs.length + c - steps = xs.length - steps + c by omega,
      List.getElem?_eq_getElem (by omega)]
    rfl
  · rw [List.getElem?_eq_none (by simpa using hc), List.getElem?_eq_none (by rw [List.length_drop]; omega)]

example : heuristicFcst .last [1, 2, 3, 4, 5] 2 = .ok [4, 5] := by decide +kernel

/-- C49 (all methods), the part that holds: for `1 ≤ steps ≤ n` there is one forecast per step; the
forecast of step `c` is the last value, the mean, the median or the percentile of the values one, two,
…, `n / steps` periods before it, and it lies within the range of the history. -/
theorem C49_phase_partial (m : HMethod) (hm : m.validate = .ok ()) (xs : List Rat) (steps : Nat)
    (hs : 0 < steps) (hn : steps ≤ xs.length) :
    ∃ out, heuristicFcst m xs steps = .ok out ∧ out.length = steps
      ∧ ∀ c, c < steps → ∃ col : List Rat, ∃ f,
        out[c]? = some f
        ∧ col.length = xs.length / steps
        ∧ (∀ r, r < xs.length / steps →
            col[r]? = xs[xs.length + c - (xs.length / steps - r) * steps]?)
        ∧ (m = .last → some f = col.getLast?)
        ∧ (m = .mean → f * col.length = col.sum)
        ∧ (m = .median → f = medianQ col)
        ∧ (m = .percentile 50 → f = medianQ col)
        ∧ (∀ lo hi, (∀ x ∈ xs, lo ≤ x ∧ x ≤ hi) → lo ≤ f ∧ f ≤ hi) := by
  refine ⟨_, heuristicFcst_ok m xs steps hs hn, by simp, ?_⟩
  intro c hc
  obtain ⟨h1, h2⟩ := phaseColumn_spec xs steps c hs hn hc
  have hk : 0 < xs.length / steps := Nat.div_pos hn hs
  have hne : phaseColumn (fittedPart xs steps) steps c ≠ [] := by
    rw [← List.length_pos_iff, h1]; exact hk
  refine ⟨phaseColumn (fittedPart xs steps) steps c, m.apply (phaseColumn (fittedPart xs steps) steps c),
    ?_, h1, h2, ?_, ?_, ?_, ?_, ?_⟩
  · rw [List.getElem?_map, List.getElem?_range hc, Option.map_some]
  · rintro rfl
    change some (List.getLastD _ 0) = _
    rw [List.getLastD_eq_getLast?, List.getLast?_eq_some_getLast hne]
    rfl
  · rintro rfl
    change _ / _ * _ = _
    apply div_mul_cancel₀
    rw [h1]
    exact_mod_cast hk.ne'
  · rintro rfl; rfl
  · rintro rfl; exact percentileQ_median hne
  · intro lo hi hb
    apply m.apply_bounds hm hne
    intro x hx
    obtain ⟨r, hr, rfl⟩ := List.mem_iff_getElem.1 hx
    have := h2 r (by rw [← h1]; exact hr)
    rw [List.getElem?_eq_getElem hr] at this
    exact hb _ (List.mem_of_getElem? this.symm)

example : heuristicFcst .mean [1, 2, 3, 4] 2 = .ok [2, 3] := by decide +kernel
example : heuristicFcst (.percentile 25) [1, 10, 3, 4] 2 = .ok [3 / 2, 11 / 2] := by decide +kernel
example : (HMethod.percentile 95).validate = .ok () ∧ 0 < 2 ∧ 2 ≤ [1, 10, 3, (4 : Rat)].length := by
  decide

/-- C49 (violated): a horizon longer than the history is rejected, whatever the method and data; and
the oldest values are ignored when the length of the history is no multiple of `steps`, although one
of them has the phase of a forecast (here the mean of 100 and 2 would be 51). -/
theorem C49_phase_violated :
    (∀ m (xs : List Rat) (steps : Nat), xs ≠ [] → xs.length < steps →
      heuristicFcst m xs steps = .error .valueError)
    ∧ heuristicFcst .mean [100, 1, 2] 2 = .ok [1, 2] := by
  refine ⟨?_, by decide +kernel⟩
  intro m xs steps hne hlt
  have hp := List.length_pos_iff.2 hne
  unfold heuristicFcst
  rw [if_neg (by omega)]
  dsimp only
  have : fittedPart xs steps = xs := by
    unfold fittedPart pyFrom pyIdx
    rw [Nat.div_eq_of_lt hlt]
    simp
  rw [this, Nat.mod_eq_of_lt hlt, if_pos (by omega)]

/-! ## C78: forecast dates -/

theorem iterate_gt {f : Int → Int} (hf : ∀ t, t < f t) (t : Int) : ∀ n, 0 < n → t < f^[n] t
  | n + 1, _ => by
    rw [Function.iterate_succ_apply']
    rcases Nat.eq_zero_or_pos n with rfl | h
    · exact hf t
    · exact (iterate_gt hf t n h).trans (hf _)

/-- C78 (dates), the part that holds: if the last date of the data is a date of the frequency, the
forecast dates are the `steps` dates of the frequency that follow it, strictly increasing. -/
theorem C78_dates_partial (f : DateFreq) (hf : ∀ t, t < f.next t) (last : Int) (hr : f.roll last = last)
    (steps : Nat) :
    futureDates f last steps = (List.range steps).map (fun i => f.next^[i + 1] last)
    ∧ (futureDates f last steps).length = steps
    ∧ (futureDates f last steps).Pairwise (· < ·)
    ∧ ∀ d ∈ futureDates f last steps, last < d := by
  have e : futureDates f last steps = (List.range steps).map (fun i => f.next^[i + 1] last) := by
    unfold futureDates pdDateRange
    rw [hr, List.range_succ_eq_map, List.map_cons, List.filter_cons, if_neg (by simp), List.map_map,
      List.filter_eq_self.2]
    · rfl
    · intro d hd
      obtain ⟨i, -, rfl⟩ := List.mem_map.1 hd
      have := iterate_gt hf last (i + 1) (by omega)
      simp only [Function.comp_apply, decide_eq_true_eq]
      exact ne_of_gt this
  refine ⟨e, by rw [e]; simp, ?_, ?_⟩
  · rw [e, List.pairwise_map]
    apply List.Pairwise.imp _ List.pairwise_lt_range
    intro a b hab
    obtain ⟨d, rfl⟩ : ∃ d, b = d + 1 + a := ⟨b - a - 1, by omega⟩
    rw [show d + 1 + a + 1 = (d + 1) + (a + 1) by omega, Function.iterate_add_apply f.next (d + 1) (a + 1)]
    exact iterate_gt hf _ (d + 1) (by omega)
  · intro d hd
    rw [e] at hd
    obtain ⟨i, -, rfl⟩ := List.mem_map.1 hd
    exact iterate_gt hf last _ (by omega)

/-- Every third day, counted from 0. -/
def everyThird : DateFreq := ⟨fun t => (t + 2) / 3 * 3, (· + 3)⟩

example : futureDates everyThird 6 3 = [9, 12, 15] ∧ everyThird.roll 6 = 6 := by decide +kernel

/-- C78 (violated): if the last date is not a date of the frequency, one date too many is generated
and the forecast fails. -/
theorem C78_dates_violated :
    (∀ (f : DateFreq) (last : Int) (steps : Nat), (∀ t, t < f.next t) → last < f.roll last →
      ∀ {α : Type} (fc : List α), fc.length = steps →
        mkFcst (futureDates f last steps) fc = .error .valueError)
    ∧ heuristicPredict .last everyThird [(3, 1), (4, 2)] 2 false = .error .valueError := by
  refine ⟨?_, by decide +kernel⟩
  intro f last steps hf hl α fc hfc
  have : futureDates f last steps = pdDateRange f last (steps + 1) := by
    unfold futureDates
    rw [List.filter_eq_self]
    intro d hd
    obtain ⟨i, -, rfl⟩ := List.mem_map.1 hd
    simp only [decide_eq_true_eq]
    apply ne_of_gt
    rcases Nat.eq_zero_or_pos i with rfl | h
    · exact hl
    · exact hl.trans (iterate_gt hf _ _ h)
  unfold mkFcst
  rw [if_neg]
  rw [this, hfc]
  unfold pdDateRange
  simp

theorem maxTime_spec (r : Int × Rat) (l : List (Int × Rat)) :
    (∃ q ∈ r :: l, q.1 = maxTime (r :: l)) ∧ ∀ q ∈ r :: l, q.1 ≤ maxTime (r :: l) := by
  unfold maxTime
  dsimp only
  suffices h : ∀ (l : List (Int × Rat)) (x : Int),
      ((l.map (·.1)).foldl max x = x ∨ ∃ q ∈ l, q.1 = (l.map (·.1)).foldl max x)
      ∧ x ≤ (l.map (·.1)).foldl max x ∧ ∀ q ∈ l, q.1 ≤ (l.map (·.1)).foldl max x by
    obtain ⟨h1, h2, h3⟩ := h l r.1
    refine ⟨?_, ?_⟩
    · rcases h1 with h1 | ⟨q, hq, e⟩
      · exact ⟨r, List.mem_cons_self .., h1.symm⟩
      · exact ⟨q, List.mem_cons_of_mem _ hq, e⟩
    · intro q hq
      rcases List.mem_cons.1 hq with rfl | hq
      · exact h2
      · exact h3 q hq
  intro l
  induction l with
  | nil => intro x; simp
  | cons y l ih =>
    intro x
    rw [List.map_cons, List.foldl_cons]
    obtain ⟨h1, h2, h3⟩ := ih (max x y.1)
    refine ⟨?_, (le_max_left _ _).trans h2, ?_⟩
    · rcases h1 with h1 | ⟨q, hq, e⟩
      · rcases max_choice x y.1 with hm | hm
        · exact .inl (h1.trans hm)
        · exact .inr ⟨y, List.mem_cons_self .., by rw [h1, hm]⟩
      · exact .inr ⟨q, List.mem_cons_of_mem _ hq, e⟩
    · intro q hq
      rcases List.mem_cons.1 hq with rfl | hq
      · exact (le_max_right _ _).trans h2
      · exact h3 q hq

/-- C78 (heuristic model): `predict` gives one row per step, all after the latest time of the data and
in order; with `include_history` the data come first, unchanged. -/
theorem C78_heuristic_partial (m : HMethod) (f : DateFreq) (hf : ∀ t, t < f.next t)
    (data : List (Int × Rat)) (steps : Nat) (hs : 0 < steps) (hn : steps ≤ data.length)
    (hr : f.roll (maxTime data) = maxTime data) :
    ∃ out, heuristicPredict m f data steps false = .ok out
      ∧ heuristicPredict m f data steps true = .ok (data ++ out)
      ∧ out.length = steps
      ∧ heuristicFcst m (data.map (·.2)) steps = .ok (out.map (·.2))
      ∧ (out.map (·.1)).Pairwise (· < ·)
      ∧ ∀ r ∈ out, ∀ q ∈ data, q.1 < r.1 := by
  obtain ⟨-, d2, d3, d4⟩ := C78_dates_partial f hf (maxTime data) hr steps
  have hfc := heuristicFcst_ok m (data.map (·.2)) steps hs (by simpa using hn)
  set fc := (List.range steps).map fun c => m.apply (phaseColumn (fittedPart (data.map (·.2)) steps) steps c)
    with hfcd
  have hl : fc.length = steps := by simp [hfcd]
  refine ⟨(futureDates f (maxTime data) steps).zip fc, ?_, ?_, ?_, ?_, ?_, ?_⟩
  · unfold heuristicPredict
    rw [hfc]
    simp only [bind, Except.bind]
    rw [if_neg (by simp)]
    unfold mkFcst
    rw [if_pos (by rw [d2, hl])]
  · unfold heuristicPredict
    rw [hfc]
    simp only [bind, Except.bind]
    rw [if_pos trivial]
    unfold mkFcst
    rw [if_pos (by simp [d2, hl])]
    congr 1
    rw [List.zip_append (by simp)]
    congr 1
    rw [List.zip_map', List.map_id'' (fun x => rfl)]
  · rw [List.length_zip, d2, hl, min_self]
  · rw [hfc, List.map_snd_zip (by rw [d2, hl])]
  · rw [List.map_fst_zip (by rw [d2, hl])]
    exact d3
  · intro r hr q hq
    have h1 := d4 r.1 (List.of_mem_zip hr).1
    obtain ⟨r0, l, rfl⟩ : ∃ r0 l, data = r0 :: l := by
      cases data with
      | nil => simp at hq
      | cons a b => exact ⟨a, b, rfl⟩
    have := (maxTime_spec r0 l).2 q hq
    omega

example : heuristicPredict .last ⟨id, (· + 1)⟩ [(0, 5), (1, 7), (2, 6)] 2 false = .ok [(3, 7), (4, 6)] := by
  decide +kernel

end Kats

import Verif.Model.GmS2s
import Verif.Props.GmPass
import Verif.Props.GmParam
import Mathlib.Data.List.Sort

/-!
# C140: one row of a pass of the encoder and decoder
-/

namespace Kats

variable {K : Type} [Field K] [LinearOrder K] [IsStrictOrderedRing K]

/-! ## Missing values -/

/-- The first `n` values of a row, filled: a value that is not missing is kept, a missing one is the value one
period before, or the first value if there is none. -/
structure GmFilled (period n : Nat) (x : List (Option K)) (xs : List K) : Prop where
  len : xs.length = n
  keep : ∀ k v, k < n → x[k]? = some (some v) → xs[k]? = some v
  fill : ∀ k, k < n → x[k]? = some none → xs[k]? = xs[k - period]?
  pos : ∀ v ∈ xs, 0 < v

theorem s2s_advance (period : Nat) (hp : 1 ≤ period) (x : List (Option K)) (hx : GmRowPos x) (n : Nat)
    (hn : n < x.length) (xs : List K) (h : GmFilled period n x xs) :
    ∃ xs', gmS2sAdvance period x xs n = .ok xs' ∧ GmFilled period (n + 1) x xs' := by
  have key : ∀ w : K, 0 < w → (∀ v, x[n]? = some (some v) → v = w) →
      (x[n]? = some none → xs[n - period]? = some w ∧ n - period < n) → GmFilled period (n + 1) x (xs ++ [w]) := by
    intro w hw h1 h2
    have hg := append_get xs w n
    refine ⟨by simp [h.len], ?_, ?_, ?_⟩
    · intro k v hk hv
      rw [hg k h.len]
      by_cases hkn : k < n
      · rw [if_pos hkn]; exact h.keep k v hkn hv
      · have : k = n := by omega
        subst this
        rw [if_neg hkn, if_pos rfl, h1 v hv]
    · intro k hk hv
      rw [hg k h.len, hg (k - period) h.len]
      by_cases hkn : k < n
      · rw [if_pos hkn, if_pos (by omega)]; exact h.fill k hkn hv
      · have : k = n := by omega
        subst this
        obtain ⟨h3, h4⟩ := h2 hv
        rw [if_neg hkn, if_pos rfl, if_pos h4, h3]
    · intro v hv
      rcases List.mem_append.1 hv with hv | hv
      · exact h.pos v hv
      · simp only [List.mem_singleton] at hv
        rw [hv]; exact hw
  unfold gmS2sAdvance
  obtain ⟨o, ho⟩ : ∃ o, x[n]? = some o := ⟨_, List.getElem?_eq_getElem hn⟩
  rcases o with _ | v
  · have hn0 : n ≠ 0 := by
      intro h0
      obtain ⟨a, ha⟩ := hx.first
      rw [h0, ha] at ho
      cases ho
    obtain ⟨w, hw⟩ : ∃ w, xs[n - period]? = some w :=
      ⟨_, List.getElem?_eq_getElem (by rw [h.len]; omega)⟩
    rw [ho, hw]
    exact ⟨_, rfl, key w (h.pos w (List.mem_of_getElem? hw)) (fun v hv => by rw [ho] at hv; cases hv)
      (fun _ => ⟨hw, by omega⟩)⟩
  · rw [ho]
    refine ⟨_, rfl, key v (hx.pos v (List.mem_of_getElem? ho)) ?_ ?_⟩
    · intro v' hv'
      rw [ho] at hv'
      injection hv' with hv'
      injection hv' with hv'
      exact hv'.symm
    · intro hv
      rw [ho] at hv
      cases hv

/-- C140: the values of a row are filled as told, up to any index, and stay positive. -/
theorem C140_fill (period : Nat) (hp : 1 ≤ period) (x : List (Option K)) (hx : GmRowPos x) (prev cur : Nat)
    (hpc : prev ≤ cur) (hc : cur ≤ x.length) (xs : List K) (h : GmFilled period prev x xs) :
    ∃ xs', gmS2sTrack period x xs prev cur = .ok xs' ∧ GmFilled period cur x xs' := by
  obtain ⟨m, rfl⟩ : ∃ m, cur = prev + m := ⟨cur - prev, by omega⟩
  unfold gmS2sTrack
  rw [Nat.add_sub_cancel_left]
  clear hpc
  induction m generalizing prev xs with
  | zero => exact ⟨xs, rfl, h⟩
  | succ m ih =>
    obtain ⟨xs1, e1, h1⟩ := s2s_advance period hp x hx prev (by omega) xs h
    obtain ⟨xs2, e2, h2⟩ := ih (prev + 1) xs1 h1 (by omega)
    refine ⟨xs2, ?_, by rw [show prev + (m + 1) = prev + 1 + m by omega]; exact h2⟩
    rw [List.range'_succ, List.foldlM_cons, e1]
    exact e2

/-- C140: before the first value nothing is filled. -/
theorem filled_nil (period : Nat) (x : List (Option K)) : GmFilled period 0 x [] :=
  ⟨rfl, fun k v h => by omega, fun k h => by omega, fun v h => by simp at h⟩

/-- C140: a value is repeated period after period as long as the values at the same place are missing. -/
theorem C140_repeat (period n : Nat) (x : List (Option K)) (xs : List K) (h : GmFilled period n x xs) (k : Nat)
    (v : K) (hk : x[k]? = some (some v)) : ∀ m, k + m * period < n →
    (∀ j, 1 ≤ j → j ≤ m → x[k + j * period]? = some none) → xs[k + m * period]? = some v := by
  intro m
  induction m with
  | zero => intro h1 _; rw [Nat.zero_mul, Nat.add_zero] at h1 ⊢; exact h.keep k v h1 hk
  | succ m ih =>
    intro h1 h2
    have e : (m + 1) * period = m * period + period := by ring
    rw [h.fill _ h1 (h2 (m + 1) (by omega) (by omega)),
      show k + (m + 1) * period - period = k + m * period by omega]
    exact ih (by omega) fun j hj1 hj2 => h2 j hj1 (by omega)

/-- C140: a value missing in the first period is the first value. -/
theorem C140_first (period n : Nat) (x : List (Option K)) (xs : List K) (h : GmFilled period n x xs) (a : K)
    (ha : x[0]? = some (some a)) (k : Nat) (hk : k ≤ period) (hn : k < n) (hm : x[k]? = some none) :
    xs[k]? = some a := by
  rw [h.fill k hn hm, show k - period = 0 by omega]
  exact h.keep 0 a (by omega) ha

/-- C140: the filled values are determined by the row. -/
theorem C140_filled_unique (period : Nat) (hp : 1 ≤ period) (n : Nat) (x : List (Option K)) (hx : GmRowPos x)
    (hn : n ≤ x.length) (xs ys : List K) (h : GmFilled period n x xs) (h' : GmFilled period n x ys) : xs = ys := by
  have : ∀ k, k < n → xs[k]? = ys[k]? := by
    intro k
    induction k using Nat.strong_induction_on with
    | _ k ih =>
      intro hk
      obtain ⟨o, ho⟩ : ∃ o, x[k]? = some o := ⟨_, List.getElem?_eq_getElem (by omega)⟩
      rcases o with _ | v
      · rw [h.fill k hk ho, h'.fill k hk ho]
        have hk0 : k ≠ 0 := by
          intro h0
          obtain ⟨a, ha⟩ := hx.first
          rw [h0, ha] at ho
          cases ho
        exact ih (k - period) (by omega) (by omega)
      · rw [h.keep k v hk ho, h'.keep k v hk ho]
  apply List.ext_getElem?
  intro k
  by_cases hk : k < n
  · exact this k hk
  · rw [List.getElem?_eq_none (by rw [h.len]; omega), List.getElem?_eq_none (by rw [h'.len]; omega)]

example : GmFilled 2 5 [some 3, none, some 1, none, none] [3, 3, 1, 3, (1 : Rat)] := by
  refine ⟨rfl, ?_, ?_, ?_⟩
  · intro k v hk hv
    have : k = 0 ∨ k = 1 ∨ k = 2 ∨ k = 3 ∨ k = 4 := by omega
    rcases this with rfl | rfl | rfl | rfl | rfl <;> simp_all
  · intro k hk hv
    have : k = 0 ∨ k = 1 ∨ k = 2 ∨ k = 3 ∨ k = 4 := by omega
    rcases this with rfl | rfl | rfl | rfl | rfl <;> simp_all
  · intro v hv
    simp only [List.mem_cons, List.not_mem_nil, or_false] at hv
    rcases hv with rfl | rfl | rfl | rfl | rfl <;> norm_num

example : (gmS2sTrack 2 [some 3, none, some 1, none, none] [(3 : Rat), 3] 2 5).toOption = some [3, 3, 1, 3, 1] := by
  decide +kernel

/-! ## The median -/

/-- C140: the anchor of values is one of them, at least half of them are not above it, and fewer than half are
below it. -/
theorem C140_median (l : List K) (hl : l ≠ []) :
    ∃ v, gmMedian l = .ok v ∧ v ∈ l ∧ l.length ≤ 2 * l.countP (fun a => decide (a ≤ v)) ∧
      2 * l.countP (fun a => decide (a < v)) < l.length := by
  obtain ⟨s, hs⟩ : ∃ s, s = l.insertionSort (· ≤ ·) := ⟨_, rfl⟩
  have hperm : s.Perm l := by rw [hs]; exact List.perm_insertionSort _ l
  have hsort : s.Pairwise (· ≤ ·) := by rw [hs]; exact List.pairwise_insertionSort _ l
  have hlen : s.length = l.length := hperm.length_eq
  have hpos : 0 < l.length := List.length_pos_iff.2 hl
  obtain ⟨m, hm⟩ : ∃ m, m = (l.length - 1) / 2 := ⟨_, rfl⟩
  have hms : m < s.length := by omega
  obtain ⟨v, hv⟩ : ∃ v, v = s[m] := ⟨_, rfl⟩
  refine ⟨v, ?_, hperm.mem_iff.1 (by rw [hv]; exact List.getElem_mem _), ?_, ?_⟩
  · unfold gmMedian
    rw [← hs, ← hm, List.getElem?_eq_getElem hms, hv]
  · rw [← hperm.countP_eq, ← List.take_append_drop (m + 1) s, List.countP_append]
    have : (s.take (m + 1)).countP (fun a => decide (a ≤ v)) = (s.take (m + 1)).length := by
      rw [List.countP_eq_length]
      intro a ha
      obtain ⟨i, hi, rfl⟩ := List.getElem_of_mem ha
      rw [List.length_take] at hi
      rw [List.getElem_take, decide_eq_true_eq, hv]
      rcases Nat.lt_or_ge i m with h | h
      · exact List.pairwise_iff_getElem.1 hsort i m (by omega) hms h
      · have : i = m := by omega
        subst this
        exact le_refl _
    rw [this, List.length_take]
    omega
  · rw [← hperm.countP_eq, ← List.take_append_drop m s, List.countP_append]
    have h1 : (s.take m).countP (fun a => decide (a < v)) ≤ m :=
      le_trans List.countP_le_length (by rw [List.length_take]; omega)
    have h2 : (s.drop m).countP (fun a => decide (a < v)) = 0 := by
      rw [List.countP_eq_zero]
      intro a ha
      obtain ⟨i, hi, rfl⟩ := List.getElem_of_mem ha
      rw [List.length_drop] at hi
      rw [List.getElem_drop, decide_eq_true_eq, not_lt, hv]
      rcases Nat.eq_zero_or_pos i with h | h
      · subst h
        exact le_refl _
      · exact List.pairwise_iff_getElem.1 hsort m (m + i) hms (by omega) (by omega)
    omega

theorem median_times (c : K) (hc : 0 < c) (l : List K) :
    gmMedian (l.map (c * ·)) = (gmMedian l).map (c * ·) := by
  unfold gmMedian
  rw [← List.map_insertionSort (· ≤ ·) (· ≤ ·) (c * ·) l (by
    intro a _ b _
    exact (mul_le_mul_iff_right₀ hc).symm), List.getElem?_map, List.length_map]
  rcases (l.insertionSort (· ≤ ·))[(l.length - 1) / 2]? with _ | v <;> rfl

example : (gmMedian [(5 : Rat), 1, 4, 2]).toOption = some 2 := by decide +kernel

/-! ## The window -/

theorem s2s_window (iw cur : Nat) (hiw : iw ≤ cur) (xs : List K) (hl : xs.length = cur) :
    pySlice xs ((cur : Int) - iw) cur = xs.drop (cur - iw) := by
  obtain ⟨h1, h2⟩ := slice_nat xs (cur - iw) cur (by omega) (by omega)
  rw [show ((cur : Int) - iw) = ((cur - iw : Nat) : Int) by omega]
  apply List.ext_getElem?
  intro k
  by_cases hk : k < iw
  · rw [h2 k (by omega), List.getElem?_drop]
  · rw [List.getElem?_eq_none (by omega), List.getElem?_eq_none (by rw [List.length_drop]; omega)]

/-- C140: the network gets the last `iw` values, filled, divided by the median of the last period of them,
whatever the period, and the median is positive. -/
theorem C140_process (period iw : Nat) (hp : 1 ≤ period) (hiw : 1 ≤ iw) (x : List (Option K)) (hx : GmRowPos x)
    (prev cur : Nat) (hpc : prev ≤ cur) (hic : iw ≤ cur) (hc : cur ≤ x.length) (xs : List K)
    (h : GmFilled period prev x xs) :
    ∃ xs' a, gmS2sProcess period iw x xs prev cur = .ok (xs', (xs'.drop (cur - iw)).map (· / a), a) ∧
      GmFilled period cur x xs' ∧ (xs'.drop (cur - iw)).length = iw ∧ 0 < a ∧
      gmMedian (xs'.drop (cur - min iw period)) = .ok a := by
  obtain ⟨xs', e, hf⟩ := C140_fill period hp x hx prev cur hpc hc xs h
  have hw := s2s_window iw cur hic xs' hf.len
  have hlen : (xs'.drop (cur - iw)).length = iw := by rw [List.length_drop, hf.len]; omega
  have hdrop : (xs'.drop (cur - iw)).drop (iw - period) = xs'.drop (cur - min iw period) := by
    rw [List.drop_drop]
    congr 1
    omega
  obtain ⟨a, ea, hm, _⟩ := C140_median (xs'.drop (cur - min iw period)) (by
    rw [ne_eq, List.drop_eq_nil_iff, hf.len]; omega)
  refine ⟨xs', a, ?_, hf, hlen, hf.pos a (List.mem_of_mem_drop hm), ea⟩
  unfold gmS2sProcess
  rw [e]
  show (gmJoin (pySlice xs' _ _) >>= fun xi => _) = _
  rw [hw, join_ok _ iw hlen hiw]
  show (gmMedian ((xs'.drop (cur - iw)).drop ((xs'.drop (cur - iw)).length - period)) >>= fun a => _) = _
  rw [hlen, hdrop, ea]
  rfl

/-- C140: the window that the network gets has the median 1 over its last period. -/
theorem C140_unit (period iw : Nat) (x : List (Option K)) (xs : List K) (prev cur : Nat) (r : List K × List K × K)
    (h : gmS2sProcess period iw x xs prev cur = .ok r) (ha : 0 < r.2.2) :
    gmMedian (r.2.1.drop (r.2.1.length - period)) = .ok 1 := by
  unfold gmS2sProcess at h
  obtain ⟨xs1, e1, h⟩ := (gm_bind_ok _ _ _).1 h
  obtain ⟨xi, e2, h⟩ := (gm_bind_ok _ _ _).1 h
  obtain ⟨a, e3, h⟩ := (gm_bind_ok _ _ _).1 h
  injection h with h
  subst h
  show gmMedian ((xi.map (· / a)).drop ((xi.map (· / a)).length - period)) = .ok 1
  have ha : 0 < a := ha
  have e : xi.map (· / a) = xi.map (a⁻¹ * ·) := by
    apply List.map_congr_left
    intro v _
    rw [div_eq_inv_mul]
  rw [e, List.length_map, ← List.map_drop, median_times _ (inv_pos.2 ha), e3]
  show Except.ok (a⁻¹ * a) = _
  rw [inv_mul_cancel₀ ha.ne']

example : (gmS2sProcess 2 3 [some 3, none, some 1, none, none] [(3 : Rat), 3] 2 5).toOption =
    some ([3, 3, 1, 3, 1], [1, 3, 1], 1) := by
  decide +kernel

/-! ## Later values and scale -/

theorem s2s_fold_congr (period : Nat) (x y : List (Option K)) : ∀ (l : List Nat) (xs : List K),
    (∀ i ∈ l, x[i]? = y[i]?) → l.foldlM (gmS2sAdvance period x) xs = l.foldlM (gmS2sAdvance period y) xs := by
  intro l
  induction l with
  | nil => intro xs _; rfl
  | cons i l ih =>
    intro xs h
    rw [List.foldlM_cons, List.foldlM_cons]
    have : gmS2sAdvance period x xs i = gmS2sAdvance period y xs i := by
      unfold gmS2sAdvance
      rw [h i List.mem_cons_self]
    rw [this]
    congr 1
    funext a
    exact ih a fun j hj => h j (List.mem_cons_of_mem _ hj)

/-- C140: what is done to a row up to an index depends only on the values before it. -/
theorem C140_process_past (period iw : Nat) (x y : List (Option K)) (xs : List K) (prev cur : Nat)
    (h : ∀ k, k < cur → x[k]? = y[k]?) :
    gmS2sProcess period iw x xs prev cur = gmS2sProcess period iw y xs prev cur := by
  unfold gmS2sProcess gmS2sTrack
  rw [s2s_fold_congr period x y _ xs fun i hi => h i (by rw [List.mem_range'_1] at hi; omega)]

theorem s2s_advance_times (period : Nat) (c : K) (x : List (Option K)) (xs : List K) (i : Nat) :
    gmS2sAdvance period (gmTimes c x) (xs.map (c * ·)) i = (gmS2sAdvance period x xs i).map fun r => r.map (c * ·) := by
  unfold gmS2sAdvance gmTimes
  rw [List.getElem?_map, List.getElem?_map]
  rcases x[i]? with _ | _ | v
  · rfl
  · rcases xs[i - period]? with _ | w
    · rfl
    · show Except.ok _ = Except.ok _
      simp
  · show Except.ok _ = Except.ok _
    simp

theorem s2s_fold_times (period : Nat) (c : K) (x : List (Option K)) : ∀ (l : List Nat) (xs : List K),
    l.foldlM (gmS2sAdvance period (gmTimes c x)) (xs.map (c * ·)) =
      (l.foldlM (gmS2sAdvance period x) xs).map fun r => r.map (c * ·) := by
  intro l
  induction l with
  | nil => intro xs; rfl
  | cons i l ih =>
    intro xs
    rw [List.foldlM_cons, List.foldlM_cons, s2s_advance_times]
    rcases gmS2sAdvance period x xs i with e | xs1
    · rfl
    · exact ih xs1

/-- C140: a row multiplied by a positive number gives the same window and the anchor multiplied by it. -/
theorem C140_process_scale (period iw : Nat) (c : K) (hc : 0 < c) (x : List (Option K)) (xs : List K)
    (prev cur : Nat) :
    gmS2sProcess period iw (gmTimes c x) (xs.map (c * ·)) prev cur =
      (gmS2sProcess period iw x xs prev cur).map fun r => (r.1.map (c * ·), r.2.1, c * r.2.2) := by
  unfold gmS2sProcess gmS2sTrack
  rw [s2s_fold_times]
  rcases (List.range' prev (cur - prev)).foldlM (gmS2sAdvance period x) xs with e | xs1
  · rfl
  · show (gmJoin (pySlice (xs1.map (c * ·)) _ _) >>= fun xi => _) = Except.map _ (gmJoin (pySlice xs1 _ _) >>= fun xi => _)
    rw [slice_map]
    obtain ⟨w, hw⟩ : ∃ w, w = pySlice xs1 ((cur : Int) - iw) cur := ⟨_, rfl⟩
    rw [← hw]
    unfold gmJoin
    rw [List.isEmpty_map]
    by_cases hem : w.isEmpty
    · rw [if_pos hem, if_pos hem]; rfl
    · rw [if_neg hem, if_neg hem]
      show (gmMedian ((w.map (c * ·)).drop ((w.map (c * ·)).length - period)) >>= fun a => _) =
        Except.map _ (gmMedian (w.drop (w.length - period)) >>= fun a => _)
      rw [List.length_map, ← List.map_drop, median_times c hc]
      rcases gmMedian (w.drop (w.length - period)) with e | a
      · rfl
      · show Except.ok _ = Except.ok _
        congr 3
        rw [List.map_map]
        apply List.map_congr_left
        intro v _
        show c * v / (c * a) = v / a
        rw [mul_div_mul_left _ _ hc.ne']

end Kats

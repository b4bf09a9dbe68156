import Verif.Props.GmTrack
import Verif.Props.GmSteps
import Verif.Props.EnsembleInterval

/-!
# C139: the windows and the pass
-/

namespace Kats

variable {K : Type} [Field K] [LinearOrder K] [IsStrictOrderedRing K]

/-! ## The window -/

theorem slice_nat {α : Type} (l : List α) (a b : Nat) (hab : a ≤ b) (hb : b ≤ l.length) :
    (pySlice l (a : Int) (b : Int)).length = b - a ∧
    ∀ k, k < b - a → (pySlice l (a : Int) (b : Int))[k]? = l[a + k]? := by
  have e : ∀ c : Nat, c ≤ l.length → pyIdx l.length (c : Int) = c := by
    intro c hc
    unfold pyIdx
    rw [if_neg (by omega), Int.toNat_natCast]
    omega
  unfold pySlice
  rw [e a (by omega), e b hb]
  refine ⟨by simp; omega, ?_⟩
  intro k hk
  rw [List.getElem?_drop, List.getElem?_take_of_lt (by omega)]

theorem join_ok (l : List K) (n : Nat) (hl : l.length = n) (hn : 1 ≤ n) : gmJoin l = .ok l := by
  unfold gmJoin
  rw [if_neg]
  rcases l with _ | ⟨a, l⟩
  · simp at hl; omega
  · simp

/-- C139, the part that holds: if the input window is not shorter than a period, the network gets the values of
the window divided by the last level and by their seasonality, the seasonality of the next period, its change
from the period before, and the forecast is multiplied with the seasonality of the next period, repeated. -/
theorem C139_view_partial (period iw fw cur : Nat) (hp : 1 < period) (hpi : period ≤ iw) (hc : iw ≤ cur)
    (t : GmTrack K) (ht : TrackLen period cur t) :
    ∃ v l, gmView period iw fw t cur = .ok v ∧ t.levels[cur - 1]? = some l ∧ v.anchor = l ∧
      v.x.length = iw ∧ v.next.length = period ∧ v.diff.length = period ∧ v.fcst.length = fw ∧
      (∀ k, k < iw → ∃ a s, t.xs[cur - iw + k]? = some a ∧ t.seasons[cur - iw + k]? = some s ∧
        v.x[k]? = some (a / l / s)) ∧
      (∀ k, k < period → ∃ s s', t.seasons[cur + k]? = some s ∧ t.seasons[cur - period + k]? = some s' ∧
        v.next[k]? = some s ∧ v.diff[k]? = some (s - s')) ∧
      ∀ k, k < fw → v.fcst[k]? = t.seasons[cur + k % period]? := by
  obtain ⟨l, hl⟩ : ∃ l, t.levels[cur - 1]? = some l :=
    ⟨_, List.getElem?_eq_getElem (by rw [ht.levels]; omega)⟩
  have hsl := ht.seasons hp
  have e1 : (cur : Int) - (iw : Int) = ((cur - iw : Nat) : Int) := by omega
  have e2 : (cur : Int) - (period : Int) = ((cur - period : Nat) : Int) := by omega
  have e3 : (cur : Int) + (period : Int) = ((cur + period : Nat) : Int) := by omega
  obtain ⟨x1, x2⟩ := slice_nat t.xs (cur - iw) cur (by omega) (by rw [ht.xs])
  obtain ⟨s1, s2⟩ := slice_nat t.seasons (cur - iw) cur (by omega) (by omega)
  obtain ⟨n1, n2⟩ := slice_nat t.seasons cur (cur + period) (by omega) (by omega)
  obtain ⟨p1, p2⟩ := slice_nat t.seasons (cur - period) cur (by omega) (by omega)
  have hx : ∀ k, k < iw → ∃ a, t.xs[cur - iw + k]? = some a := fun k hk =>
    ⟨_, List.getElem?_eq_getElem (by rw [ht.xs]; omega)⟩
  have hs : ∀ k, k < cur + period → ∃ a, t.seasons[k]? = some a := fun k hk =>
    ⟨_, List.getElem?_eq_getElem (by rw [hsl]; omega)⟩
  refine ⟨⟨List.zipWith (fun x s => x / l / s) (pySlice t.xs ((cur - iw : Nat) : Int) cur)
    (pySlice t.seasons ((cur - iw : Nat) : Int) cur), l, pySlice t.seasons cur ((cur + period : Nat) : Int),
    List.zipWith (· - ·) (pySlice t.seasons cur ((cur + period : Nat) : Int))
      (pySlice t.seasons ((cur - period : Nat) : Int) cur),
    ((List.replicate (fw / period + 1) (pySlice t.seasons cur ((cur + period : Nat) : Int))).flatten).take fw⟩, l, ?_, hl, ?_, ?_⟩
  · unfold gmView gmAnchor
    rw [hl, e1, e2, e3]
    show (gmJoin _ >>= fun xi => _) = _
    rw [join_ok _ _ x1 (by omega)]
    show (if 1 < period then _ else _) = _
    rw [if_pos hp]
    show (gmJoin _ >>= fun s => gmJoin _ >>= fun n => gmJoin _ >>= fun p => _) = _
    rw [join_ok _ _ s1 (by omega), join_ok _ _ n1 (by omega), join_ok _ _ p1 (by omega)]
    rfl
  · rfl
  · have hf : fw < (fw / period + 1) * period := by
      have := Nat.div_add_mod fw period
      have h2 := Nat.mod_lt fw (show period > 0 by omega)
      have : (fw / period + 1) * period = period * (fw / period) + period := by ring
      omega
    have hnl : (pySlice t.seasons cur ((cur + period : Nat) : Int)).length = period := by omega
    refine ⟨by simp only [List.length_zipWith]; omega, by omega, by simp only [List.length_zipWith]; omega, ?_, ?_, ?_, ?_⟩
    · rw [List.length_take, List.length_flatten, List.map_replicate, List.sum_replicate, hnl]
      simp only [smul_eq_mul]
      omega
    · intro k hk
      obtain ⟨a, ha⟩ := hx k hk
      obtain ⟨s, hs⟩ := hs (cur - iw + k) (by omega)
      refine ⟨a, s, ha, hs, ?_⟩
      rw [List.getElem?_zipWith, x2 k (by omega), s2 k (by omega), ha, hs]
    · intro k hk
      obtain ⟨s, hs1⟩ := hs (cur + k) (by omega)
      obtain ⟨s', hs2⟩ := hs (cur - period + k) (by omega)
      refine ⟨s, s', hs1, hs2, ?_, ?_⟩
      · rw [n2 k (by omega), hs1]
      · rw [List.getElem?_zipWith, n2 k (by omega), p2 k (by omega), hs1, hs2]
    · intro k hk
      rw [List.getElem?_take_of_lt hk, flatten_replicate_get _ _ k (by rw [hnl]; omega), hnl,
        n2 (k % period) (by have := Nat.mod_lt k (show period > 0 by omega); omega)]

/-- C139: without a seasonality the network gets the values of the window divided by the last level. -/
theorem C139_view_level (iw fw cur : Nat) (h1 : 1 ≤ iw) (hc : iw ≤ cur) (t : GmTrack K) (ht : TrackLen 1 cur t) :
    ∃ v l, gmView 1 iw fw t cur = .ok v ∧ t.levels[cur - 1]? = some l ∧ v.anchor = l ∧ v.x.length = iw ∧
      ∀ k, k < iw → ∃ a, t.xs[cur - iw + k]? = some a ∧ v.x[k]? = some (a / l) := by
  obtain ⟨l, hl⟩ : ∃ l, t.levels[cur - 1]? = some l :=
    ⟨_, List.getElem?_eq_getElem (by rw [ht.levels]; omega)⟩
  have e1 : (cur : Int) - (iw : Int) = ((cur - iw : Nat) : Int) := by omega
  obtain ⟨x1, x2⟩ := slice_nat t.xs (cur - iw) cur (by omega) (by rw [ht.xs])
  refine ⟨⟨(pySlice t.xs ((cur - iw : Nat) : Int) cur).map (· / l), l, [1], [1], [1]⟩, l, ?_, hl, rfl, ?_, ?_⟩
  · unfold gmView gmAnchor
    rw [hl, e1]
    show (gmJoin _ >>= fun xi => _) = _
    rw [join_ok _ _ x1 (by omega)]
    rfl
  · simp only [List.length_map]; omega
  · intro k hk
    obtain ⟨a, ha⟩ : ∃ a, t.xs[cur - iw + k]? = some a := ⟨_, List.getElem?_eq_getElem (by rw [ht.xs]; omega)⟩
    refine ⟨a, ha, ?_⟩
    rw [List.getElem?_map, x2 k (by omega), ha]
    rfl

/-- C139 violated: if the input window is shorter than a period, the first window is an error, for every
series. -/
theorem C139_view_violated (period iw fw cur : Nat) (hc : 1 ≤ cur) (hci : iw ≤ cur) (hiw : 1 ≤ iw)
    (hcp : cur < period) (t : GmTrack K) (ht : TrackLen period cur t) :
    gmView period iw fw t cur = .error .otherError := by
  obtain ⟨l, hl⟩ : ∃ l, t.levels[cur - 1]? = some l :=
    ⟨_, List.getElem?_eq_getElem (by rw [ht.levels]; omega)⟩
  have hp : 1 < period := by omega
  have hsl := ht.seasons hp
  have e1 : (cur : Int) - (iw : Int) = ((cur - iw : Nat) : Int) := by omega
  have e3 : (cur : Int) + (period : Int) = ((cur + period : Nat) : Int) := by omega
  obtain ⟨x1, x2⟩ := slice_nat t.xs (cur - iw) cur (by omega) (by rw [ht.xs])
  obtain ⟨s1, s2⟩ := slice_nat t.seasons (cur - iw) cur (by omega) (by omega)
  obtain ⟨n1, n2⟩ := slice_nat t.seasons cur (cur + period) (by omega) (by omega)
  have hprev : pySlice t.seasons ((cur : Int) - period) (cur : Int) = [] := by
    unfold pySlice pyIdx
    rw [if_pos (show ((cur : Int) - period) < 0 by omega), if_neg (show ¬ (cur : Int) < 0 by omega), hsl]
    apply List.drop_eq_nil_of_le
    simp only [List.length_take]
    omega
  unfold gmView gmAnchor
  rw [hl, hprev, e1, e3]
  show (gmJoin _ >>= fun xi => _) = _
  rw [join_ok _ _ x1 (by omega)]
  show (if 1 < period then _ else _) = _
  rw [if_pos hp]
  show (gmJoin _ >>= fun s => gmJoin _ >>= fun n => gmJoin _ >>= fun p => _) = _
  rw [join_ok _ _ s1 (by omega), join_ok _ _ n1 (by omega)]
  rfl

example : (gmTrack 3 [some (2 : Rat), some 6] (1 / 2) (1 / 2) (gmFresh 3 [1, 2, 3]) 0 2).toOption.map
    (fun t => ((gmView 3 2 4 t 2).toOption, (gmView 3 1 4 t 2).toOption)) = some (none, none) := by
  decide +kernel

/-- Numbers for a window of two periods. -/
example : (gmTrack 2 [some (2 : Rat), some 6, none, some 4] (1 / 2) (1 / 2) (gmFresh 2 [1, 3]) 0 4 >>= fun t =>
    gmView 2 4 3 t 4).toOption =
    some ⟨[2 / (5 / 3), 2 / (5 / 3), 2 / (5 / 3), 4 / (5 / 3) / 3], 5 / 3, [1, 27 / 10], [0, -3 / 10], [1, 27 / 10, 1]⟩ := by
  decide +kernel

/-! ## Scale -/

/-- A row times a number. -/
def gmTimes (c : K) (x : List (Option K)) : List (Option K) := x.map fun v => v.map (c * ·)

/-- The lists of the row times a number. -/
def GmTrack.times (c : K) (t : GmTrack K) : GmTrack K := ⟨t.xs.map (c * ·), t.levels.map (c * ·), t.seasons⟩

theorem start_times (period : Nat) (c : K) (x : List (Option K)) (t : GmTrack K) :
    gmStart period (gmTimes c x) (t.times c) = (gmStart period x t).map (GmTrack.times c) := by
  unfold gmStart gmTimes GmTrack.times
  rcases x with _ | ⟨_ | v, x⟩
  · rfl
  · rfl
  · rcases hs : t.seasons with _ | ⟨s, r⟩
    · rfl
    · simp only [List.map_cons, List.head?_cons, Option.map_some, Except.map, List.map_append, List.map_nil]
      by_cases h : period ≤ 1
      · simp only [if_pos h, hs]
      · simp only [if_neg h, hs, mul_div_assoc]

theorem advance_times (period : Nat) (c : K) (hc : c ≠ 0) (x : List (Option K)) (ls ss : K) (t : GmTrack K)
    (i : Nat) : gmAdvance period (gmTimes c x) ls ss (t.times c) i =
      (gmAdvance period x ls ss t i).map (GmTrack.times c) := by
  unfold gmAdvance gmTimes GmTrack.times
  simp only [List.getElem?_map]
  rcases x[i]? with _ | v
  · rfl
  rcases t.levels[i - 1]? with _ | l
  · rfl
  simp only [Option.map_some]
  by_cases hp : period = 1
  · simp only [if_pos hp, Except.map, List.map_append, List.map_cons, List.map_nil]
    have : (v.map (c * ·)).getD (c * l) = c * v.getD l := by cases v <;> rfl
    rw [this]
    have : ls * (c * v.getD l) + (1 - ls) * (c * l) = c * (ls * v.getD l + (1 - ls) * l) := by ring
    rw [this]
  · simp only [if_neg hp]
    rcases t.seasons[i]? with _ | s
    · rfl
    simp only [Except.map, List.map_append, List.map_cons, List.map_nil]
    have e : (v.map (c * ·)).getD (c * l * s) = c * v.getD (l * s) := by
      cases v
      · simp [mul_assoc]
      · rfl
    rw [e]
    have e2 : ls * (c * v.getD (l * s)) / s + (1 - ls) * (c * l) =
        c * (ls * v.getD (l * s) / s + (1 - ls) * l) := by ring
    rw [e2]
    have e3 : ss * (c * v.getD (l * s)) / (c * (ls * v.getD (l * s) / s + (1 - ls) * l)) =
        ss * v.getD (l * s) / (ls * v.getD (l * s) / s + (1 - ls) * l) := by
      rw [show ss * (c * v.getD (l * s)) = c * (ss * v.getD (l * s)) by ring, mul_div_mul_left _ _ hc]
    rw [e3]

theorem fold_times (period : Nat) (c : K) (hc : c ≠ 0) (x : List (Option K)) (ls ss : K) : ∀ (l : List Nat)
    (t : GmTrack K), l.foldlM (gmAdvance period (gmTimes c x) ls ss) (t.times c) =
      (l.foldlM (gmAdvance period x ls ss) t).map (GmTrack.times c) := by
  intro l
  induction l with
  | nil => intro t; rfl
  | cons i l ih =>
    intro t
    rw [List.foldlM_cons, List.foldlM_cons, advance_times period c hc]
    rcases gmAdvance period x ls ss t i with e | t1
    · rfl
    · exact ih t1

theorem track_times (period : Nat) (c : K) (hc : c ≠ 0) (x : List (Option K)) (ls ss : K) (t : GmTrack K)
    (prev cur : Nat) : gmTrack period (gmTimes c x) ls ss (t.times c) prev cur =
      (gmTrack period x ls ss t prev cur).map (GmTrack.times c) := by
  unfold gmTrack
  by_cases h : prev = 0
  · rw [if_pos h, if_pos h, start_times]
    rcases gmStart period x t with e | t1
    · rfl
    · exact fold_times period c hc x ls ss _ t1
  · rw [if_neg h, if_neg h, fold_times period c hc]

/-- The window of the row times a number. -/
def GmView.times (c : K) (v : GmView K) : GmView K := { v with anchor := c * v.anchor }

theorem slice_map {α β : Type} (f : α → β) (l : List α) (a b : Int) :
    pySlice (l.map f) a b = (pySlice l a b).map f := by
  unfold pySlice
  rw [List.length_map, List.map_drop, List.map_take]

theorem view_times (period iw fw : Nat) (c : K) (hc : c ≠ 0) (t : GmTrack K) (cur : Nat) :
    gmView period iw fw (t.times c) cur = (gmView period iw fw t cur).map (GmView.times c) := by
  unfold gmView gmAnchor GmTrack.times
  simp only [List.getElem?_map, slice_map]
  rcases t.levels[cur - 1]? with _ | l
  · rfl
  simp only [Option.map_some]
  show (gmJoin _ >>= fun xi => _) = Except.map _ (gmJoin _ >>= fun xi => _)
  obtain ⟨xi, hxi⟩ : ∃ xi, xi = pySlice t.xs ((cur : Int) - iw) cur := ⟨_, rfl⟩
  rw [← hxi]
  have hj : gmJoin (xi.map (c * ·)) = (gmJoin xi).map (List.map (c * ·)) := by
    unfold gmJoin
    cases xi <;> rfl
  rw [hj]
  rcases hg : gmJoin xi with e | y
  · rfl
  show (if 1 < period then _ else _) = Except.map _ (if 1 < period then _ else _)
  by_cases hp : 1 < period
  · rw [if_pos hp, if_pos hp]
    rcases gmJoin (pySlice t.seasons ((cur : Int) - iw) cur) with e | s
    · rfl
    rcases gmJoin (pySlice t.seasons cur ((cur : Int) + period)) with e | n
    · rfl
    rcases gmJoin (pySlice t.seasons ((cur : Int) - period) cur) with e | q
    · rfl
    have : List.zipWith (fun x s => x / (c * l) / s) (y.map (c * ·)) s = List.zipWith (fun x s => x / l / s) y s := by
      rw [List.zipWith_map_left]
      congr 1
      funext a b
      rw [mul_div_mul_left _ _ hc]
    show Except.ok _ = Except.ok _
    rw [this]
    rfl
  · rw [if_neg hp, if_neg hp]
    have : (y.map (c * ·)).map (· / (c * l)) = y.map (· / l) := by
      rw [List.map_map]
      apply List.map_congr_left
      intro a _
      exact mul_div_mul_left _ _ hc
    show Except.ok _ = Except.ok _
    rw [this]
    rfl

/-- C139: a series times a number gives the same inputs for the network; only the level is multiplied. -/
theorem C139_process_scale (period iw fw : Nat) (c : K) (hc : c ≠ 0) (x : List (Option K)) (ls ss : K)
    (t : GmTrack K) (prev cur : Nat) :
    gmProcess period iw fw (gmTimes c x) ls ss (t.times c) prev cur =
      (gmProcess period iw fw x ls ss t prev cur).map fun r => (r.1.times c, r.2.times c) := by
  unfold gmProcess
  rw [track_times period c hc]
  rcases gmTrack period x ls ss t prev cur with e | t1
  · rfl
  show (gmView period iw fw (t1.times c) cur >>= fun v => _) = _
  rw [view_times period iw fw c hc]
  show _ = Except.map _ (gmView period iw fw t1 cur >>= fun v => _)
  rcases gmView period iw fw t1 cur with e | v <;> rfl

/-! ## Later values -/

theorem advance_congr (period : Nat) (x y : List (Option K)) (ls ss : K) (t : GmTrack K) (i : Nat)
    (h : x[i]? = y[i]?) : gmAdvance period x ls ss t i = gmAdvance period y ls ss t i := by
  unfold gmAdvance
  rw [h]

theorem fold_congr_adv (period : Nat) (x y : List (Option K)) (ls ss : K) : ∀ (l : List Nat) (t : GmTrack K),
    (∀ i ∈ l, x[i]? = y[i]?) →
    l.foldlM (gmAdvance period x ls ss) t = l.foldlM (gmAdvance period y ls ss) t := by
  intro l
  induction l with
  | nil => intro t _; rfl
  | cons i l ih =>
    intro t h
    rw [List.foldlM_cons, List.foldlM_cons, advance_congr period x y ls ss t i (h i List.mem_cons_self)]
    congr 1
    funext t1
    exact ih t1 fun j hj => h j (List.mem_cons_of_mem _ hj)

/-- C139: what the network gets at an index depends only on the values before it. -/
theorem C139_process_past (period iw fw : Nat) (x y : List (Option K)) (ls ss : K) (t : GmTrack K)
    (prev cur : Nat) (hc : 1 ≤ cur) (h : ∀ k, k < cur → x[k]? = y[k]?) :
    gmProcess period iw fw x ls ss t prev cur = gmProcess period iw fw y ls ss t prev cur := by
  unfold gmProcess
  have : gmTrack period x ls ss t prev cur = gmTrack period y ls ss t prev cur := by
    unfold gmTrack
    have hs : gmStart period x t = gmStart period y t := by
      unfold gmStart
      have : x.head? = y.head? := by rw [List.head?_eq_getElem?, List.head?_eq_getElem?, h 0 (by omega)]
      rw [this]
    rw [hs]
    by_cases hp : prev = 0
    · rw [if_pos hp, if_pos hp]
      congr 1
      funext t1
      refine fold_congr_adv period x y ls ss _ t1 fun i hi => h i ?_
      rw [List.mem_range'_1] at hi
      omega
    · rw [if_neg hp, if_neg hp]
      refine fold_congr_adv period x y ls ss _ t fun i hi => h i ?_
      rw [List.mem_range'_1] at hi
      omega
  rw [this]

end Kats

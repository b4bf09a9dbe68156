import Verif.Model.GmPass
import Verif.Props.GmBatch
import Mathlib.Algebra.Order.Field.Basic
import Mathlib.Tactic.FieldSimp
import Mathlib.Tactic.Ring
import Mathlib.Tactic.Linarith
import Mathlib.Tactic.Positivity
import Mathlib.Tactic.NormNum

/-!
# C139: levels and seasonality of one row
-/

namespace Kats

variable {K : Type} [Field K] [LinearOrder K] [IsStrictOrderedRing K]

/-- The lists have `n` values, and the seasonality a period more. -/
structure TrackLen (period n : Nat) (t : GmTrack K) : Prop where
  xs : t.xs.length = n
  levels : t.levels.length = n
  seasons : 1 < period → t.seasons.length = n + period

/-- All numbers are positive. -/
structure TrackPos (t : GmTrack K) : Prop where
  xs : ∀ v ∈ t.xs, 0 < v
  levels : ∀ v ∈ t.levels, 0 < v
  seasons : ∀ v ∈ t.seasons, 0 < v

theorem fold_track (period : Nat) (x : List (Option K)) (ls ss : K) (P : Nat → GmTrack K → Prop) :
    ∀ (m n : Nat) (t : GmTrack K), P n t →
    (∀ i t, n ≤ i → i < n + m → P i t → ∃ t', gmAdvance period x ls ss t i = .ok t' ∧ P (i + 1) t') →
    ∃ t', (List.range' n m).foldlM (gmAdvance period x ls ss) t = .ok t' ∧ P (n + m) t' := by
  intro m
  induction m with
  | zero => intro n t h _; exact ⟨t, rfl, h⟩
  | succ m ih =>
    intro n t h step
    obtain ⟨t1, e1, h1⟩ := step n t (le_refl _) (by omega) h
    obtain ⟨t2, e2, h2⟩ := ih (n + 1) t1 h1 (fun i t hi hi2 => step i t (by omega) (by omega))
    refine ⟨t2, ?_, by rw [show n + (m + 1) = n + 1 + m by omega]; exact h2⟩
    rw [List.range'_succ, List.foldlM_cons, e1]
    exact e2

theorem track_ind (period : Nat) (x : List (Option K)) (ls ss : K) (P : Nat → GmTrack K → Prop)
    (t : GmTrack K) (prev cur : Nat) (hpc : prev < cur)
    (h0 : prev = 0 → ∃ t1, gmStart period x t = .ok t1 ∧ P 1 t1) (h1 : prev ≠ 0 → P prev t)
    (step : ∀ i t, 1 ≤ i → prev ≤ i → i < cur → P i t →
      ∃ t', gmAdvance period x ls ss t i = .ok t' ∧ P (i + 1) t') :
    ∃ t', gmTrack period x ls ss t prev cur = .ok t' ∧ P cur t' := by
  unfold gmTrack
  by_cases hp : prev = 0
  · rw [if_pos hp]
    obtain ⟨t1, e1, h2⟩ := h0 hp
    obtain ⟨t2, e2, h3⟩ := fold_track period x ls ss P (cur - 1) 1 t1 h2
      (fun i t hi hi2 => step i t hi (by omega) (by omega))
    refine ⟨t2, ?_, by rw [show 1 + (cur - 1) = cur by omega] at h3; exact h3⟩
    rw [e1]
    exact e2
  · rw [if_neg hp]
    obtain ⟨t2, e2, h3⟩ := fold_track period x ls ss P (cur - prev) prev t (h1 hp)
      (fun i t hi hi2 => step i t (by omega) hi (by omega))
    exact ⟨t2, e2, by rw [show prev + (cur - prev) = cur by omega] at h3; exact h3⟩

/-- One turn for a given value: the level before it, the season of it, and the new lists. -/
theorem advance_spec (period n : Nat) (hp : 1 ≤ period) (hn : 1 ≤ n) (x : List (Option K)) (ls ss : K)
    (t : GmTrack K) (ht : TrackLen period n t) (v : Option K) (hv : x[n]? = some v) :
    ∃ l, t.levels[n - 1]? = some l ∧
      ((period = 1 ∧ gmAdvance period x ls ss t n =
          .ok { t with xs := t.xs ++ [v.getD l], levels := t.levels ++ [ls * v.getD l + (1 - ls) * l] }) ∨
       (1 < period ∧ ∃ s, t.seasons[n]? = some s ∧ gmAdvance period x ls ss t n =
          .ok ⟨t.xs ++ [v.getD (l * s)], t.levels ++ [ls * v.getD (l * s) / s + (1 - ls) * l],
            t.seasons ++ [ss * v.getD (l * s) / (ls * v.getD (l * s) / s + (1 - ls) * l) + (1 - ss) * s]⟩)) := by
  obtain ⟨l, hl⟩ : ∃ l, t.levels[n - 1]? = some l := ⟨_, List.getElem?_eq_getElem (by rw [ht.levels]; omega)⟩
  refine ⟨l, hl, ?_⟩
  unfold gmAdvance
  rw [hv, hl]
  by_cases h1 : period = 1
  · left
    exact ⟨h1, by simp [h1]⟩
  · right
    refine ⟨by omega, ?_⟩
    obtain ⟨s, hs⟩ : ∃ s, t.seasons[n]? = some s :=
      ⟨_, List.getElem?_eq_getElem (by rw [ht.seasons (by omega)]; omega)⟩
    exact ⟨s, hs, by simp [h1, hs]⟩

theorem advance_len (period n : Nat) (hp : 1 ≤ period) (hn : 1 ≤ n) (x : List (Option K)) (ls ss : K)
    (t t' : GmTrack K) (ht : TrackLen period n t) (h : gmAdvance period x ls ss t n = .ok t') :
    TrackLen period (n + 1) t' := by
  obtain ⟨v, hv⟩ : ∃ v, x[n]? = some v := by
    rcases hx : x[n]? with _ | v
    · unfold gmAdvance at h
      rw [hx] at h
      cases h
    · exact ⟨v, rfl⟩
  obtain ⟨l, hl, ⟨h1, e⟩ | ⟨h1, s, hs, e⟩⟩ := advance_spec period n hp hn x ls ss t ht v hv
  · rw [e] at h
    injection h with h
    subst h
    exact ⟨by simp [ht.xs], by simp [ht.levels], fun h => by omega⟩
  · rw [e] at h
    injection h with h
    subst h
    exact ⟨by simp [ht.xs], by simp [ht.levels], fun h => by simp [ht.seasons h]; omega⟩

theorem advance_pos (period n : Nat) (hp : 1 ≤ period) (hn : 1 ≤ n) (x : List (Option K)) (ls ss : K)
    (hls : 0 < ls ∧ ls < 1) (hss : 0 < ss ∧ ss < 1) (t : GmTrack K) (ht : TrackLen period n t)
    (hpos : TrackPos t) (v : Option K) (hv : x[n]? = some v) (hvp : ∀ a, v = some a → 0 < a) :
    ∃ t', gmAdvance period x ls ss t n = .ok t' ∧ TrackLen period (n + 1) t' ∧ TrackPos t' := by
  have key : ∃ t', gmAdvance period x ls ss t n = .ok t' ∧ TrackPos t' := by
    obtain ⟨l, hl, ⟨h1, e⟩ | ⟨h1, s, hs, e⟩⟩ := advance_spec period n hp hn x ls ss t ht v hv
    · have hl0 : 0 < l := hpos.levels l (List.mem_of_getElem? hl)
      have hnew : 0 < v.getD l := by
        rcases v with _ | a
        · exact hl0
        · exact hvp a rfl
      have h2 : 0 < 1 - ls := by linarith [hls.2]
      have hls1 := hls.1
      refine ⟨_, e, ?_, ?_, hpos.seasons⟩
      · intro a ha
        rcases List.mem_append.1 ha with ha | ha
        · exact hpos.xs a ha
        · rw [List.mem_singleton.1 ha]; exact hnew
      · intro a ha
        rcases List.mem_append.1 ha with ha | ha
        · exact hpos.levels a ha
        · rw [List.mem_singleton.1 ha]; positivity
    · have hl0 : 0 < l := hpos.levels l (List.mem_of_getElem? hl)
      have hs0 : 0 < s := hpos.seasons s (List.mem_of_getElem? hs)
      have hnew : 0 < v.getD (l * s) := by
        rcases v with _ | a
        · exact mul_pos hl0 hs0
        · exact hvp a rfl
      have h2 : 0 < 1 - ls := by linarith [hls.2]
      have h3 : 0 < 1 - ss := by linarith [hss.2]
      have hls1 := hls.1
      have hss1 := hss.1
      refine ⟨_, e, ?_, ?_, ?_⟩
      · intro a ha
        rcases List.mem_append.1 ha with ha | ha
        · exact hpos.xs a ha
        · rw [List.mem_singleton.1 ha]; exact hnew
      · intro a ha
        rcases List.mem_append.1 ha with ha | ha
        · exact hpos.levels a ha
        · rw [List.mem_singleton.1 ha]; positivity
      · intro a ha
        rcases List.mem_append.1 ha with ha | ha
        · exact hpos.seasons a ha
        · rw [List.mem_singleton.1 ha]; positivity
  obtain ⟨t', e, h⟩ := key
  exact ⟨t', e, advance_len period n hp hn x ls ss t t' ht e, h⟩

/-- The lists before the first value. -/
def gmFresh (period : Nat) (init : List K) : GmTrack K := ⟨[], [], gmSeasons period init⟩

theorem fresh_seasons (period : Nat) (init : List K) (hp : 1 < period) (hi : init.length = period) :
    (gmSeasons period init).length = 1 + period ∧
    ∀ k, k < 1 + period → (gmSeasons period init)[k]? = init[k % period]? := by
  unfold gmSeasons
  rw [if_pos hp]
  refine ⟨by simp; omega, ?_⟩
  intro k hk
  by_cases h : k < period
  · rw [List.getElem?_append_left (by simpa using h), List.getElem?_map, List.getElem?_range h,
      Nat.mod_eq_of_lt h, List.getElem?_eq_getElem (by omega : k < init.length)]
    simp [List.getD_eq_getElem?_getD, List.getElem?_eq_getElem (by omega : k < init.length)]
  · have : k = period := by omega
    subst this
    rw [List.getElem?_append_right (by simp)]
    simp only [List.length_map, List.length_range, Nat.sub_self, Nat.mod_self]
    rw [List.getElem?_eq_getElem (by omega : 0 < init.length)]
    simp [List.getD_eq_getElem?_getD, List.getElem?_eq_getElem (by omega : 0 < init.length)]

/-- The state from which the pass goes on: nothing yet, or the lists up to `prev`. -/
def GmReady (period prev : Nat) (t : GmTrack K) : Prop :=
  (prev = 0 ∧ ∃ init, (1 < period → init.length = period) ∧ (∀ v ∈ init, 0 < v) ∧ t = gmFresh period init) ∨
    (1 ≤ prev ∧ TrackLen period prev t ∧ TrackPos t)

theorem start_pos (period : Nat) (hp : 1 ≤ period) (x : List (Option K)) (a : K) (hx : x[0]? = some (some a))
    (ha : 0 < a) (init : List K) (hi : 1 < period → init.length = period) (hpos : ∀ v ∈ init, 0 < v) :
    ∃ t, gmStart period x (gmFresh period init) = .ok t ∧ TrackLen period 1 t ∧ TrackPos t := by
  have hh : x.head? = some (some a) := by rw [List.head?_eq_getElem?]; exact hx
  unfold gmStart gmFresh
  rw [hh]
  by_cases h1 : 1 < period
  · obtain ⟨hlen, hget⟩ := fresh_seasons period init h1 (hi h1)
    have hmem : ∀ v ∈ gmSeasons period init, 0 < v := by
      intro v hv
      obtain ⟨k, hk⟩ := List.mem_iff_getElem?.1 hv
      have hk2 : k < 1 + period := by
        rw [← hlen]; exact (List.getElem?_eq_some_iff.1 hk).1
      rw [hget k hk2] at hk
      exact hpos v (List.mem_of_getElem? hk)
    obtain ⟨s, hs⟩ : ∃ s, (gmSeasons period init)[0]? = some s := ⟨_, List.getElem?_eq_getElem (by omega)⟩
    rw [show (gmSeasons period init).head? = some s by rw [List.head?_eq_getElem?]; exact hs]
    have hs0 : 0 < s := hmem s (List.mem_of_getElem? hs)
    refine ⟨_, rfl, ⟨rfl, rfl, fun _ => hlen⟩, ?_, ?_, hmem⟩
    · intro v hv
      simp only [List.nil_append, List.mem_singleton] at hv
      rw [hv]; exact ha
    · intro v hv
      simp only [List.nil_append, List.mem_singleton] at hv
      rw [hv, if_neg (by omega)]; positivity
  · have : period = 1 := by omega
    subst this
    refine ⟨_, rfl, ⟨rfl, rfl, fun h => by omega⟩, ?_, ?_, ?_⟩
    · intro v hv
      simp only [List.nil_append, List.mem_singleton] at hv
      rw [hv]; exact ha
    · intro v hv
      simp only [List.nil_append, List.mem_singleton, le_refl, if_true] at hv
      rw [hv]; exact ha
    · intro v hv
      simp only [gmSeasons, lt_irrefl, if_false, List.mem_singleton] at hv
      rw [hv]; exact one_pos

/-- A row whose values are positive and whose first value is not missing. -/
structure GmRowPos (x : List (Option K)) : Prop where
  first : ∃ a, x[0]? = some (some a)
  pos : ∀ a, some a ∈ x → 0 < a

/-- C139: levels, seasonality and filled values of a row of positive values are positive, and there is one
for each value seen. -/
theorem C139_track (period prev cur : Nat) (hp : 1 ≤ period) (hpc : prev < cur) (x : List (Option K))
    (hx : GmRowPos x) (hc : cur ≤ x.length) (ls ss : K) (hls : 0 < ls ∧ ls < 1) (hss : 0 < ss ∧ ss < 1)
    (t : GmTrack K) (ht : GmReady period prev t) :
    ∃ t', gmTrack period x ls ss t prev cur = .ok t' ∧ TrackLen period cur t' ∧ TrackPos t' := by
  refine track_ind period x ls ss (fun n t => TrackLen period n t ∧ TrackPos t) t prev cur hpc ?_ ?_ ?_
  · intro h0
    rcases ht with ⟨_, init, hi, hpos, rfl⟩ | ⟨h1, _⟩
    · obtain ⟨a, ha⟩ := hx.first
      exact start_pos period hp x a ha (hx.pos a (List.mem_of_getElem? ha)) init hi hpos
    · omega
  · intro h0
    rcases ht with ⟨h, _⟩ | ⟨_, h⟩
    · omega
    · exact h
  · rintro i t hi _ hic ⟨h1, h2⟩
    obtain ⟨v, hv⟩ : ∃ v, x[i]? = some v := ⟨_, List.getElem?_eq_getElem (by omega)⟩
    exact advance_pos period i hp hi x ls ss hls hss t h1 h2 v hv
      (fun a ha => hx.pos a (ha ▸ List.mem_of_getElem? hv))

/-! ## Missing values -/

theorem append_get {α : Type} (l : List α) (a : α) (n k : Nat) (hn : l.length = n) :
    (l ++ [a])[k]? = if k < n then l[k]? else if k = n then some a else none := by
  subst hn
  by_cases h : k < l.length
  · rw [if_pos h, List.getElem?_append_left h]
  · rw [if_neg h]
    by_cases h2 : k = l.length
    · subst h2; rw [if_pos rfl]; simp
    · rw [if_neg h2, List.getElem?_eq_none]
      rw [List.length_append, List.length_singleton]; omega

/-- C139: over missing values the level stays as it is and the seasonality repeats itself, and the values are
filled with level times seasonality: so all windows of a forecast start from the level of the last value
known. -/
theorem C139_fill (period n cur : Nat) (hp : 1 ≤ period) (hn : 1 ≤ n) (hnc : n ≤ cur) (x : List (Option K))
    (hx : ∀ k, n ≤ k → k < cur → x[k]? = some none) (ls ss : K) (t : GmTrack K)
    (ht : TrackLen period n t) (hpos : TrackPos t) (l : K) (hl : t.levels[n - 1]? = some l) :
    ∃ t', gmTrack period x ls ss t n cur = .ok t' ∧ TrackLen period cur t' ∧
      (∀ k, k < n → t'.levels[k]? = t.levels[k]? ∧ t'.xs[k]? = t.xs[k]?) ∧
      (∀ k, n ≤ k → k < cur → t'.levels[k]? = some l) ∧
      (period = 1 → ∀ k, n ≤ k → k < cur → t'.xs[k]? = some l) ∧
      (1 < period → (∀ k, k < n → t'.seasons[k]? = t.seasons[k]?) ∧
        (∀ k, n ≤ k → k < cur + period → t'.seasons[k]? = t.seasons[n + (k - n) % period]?) ∧
        ∀ k, n ≤ k → k < cur → t'.xs[k]? = (t.seasons[n + (k - n) % period]?).map (l * ·)) := by
  obtain ⟨P, hP⟩ : ∃ P : Nat → GmTrack K → Prop, P = fun i t' => TrackLen period i t' ∧
      (∀ k, k < n → t'.levels[k]? = t.levels[k]? ∧ t'.xs[k]? = t.xs[k]?) ∧
      (∀ k, n ≤ k → k < i → t'.levels[k]? = some l) ∧
      (period = 1 → ∀ k, n ≤ k → k < i → t'.xs[k]? = some l) ∧
      (1 < period → (∀ k, k < n → t'.seasons[k]? = t.seasons[k]?) ∧
        (∀ k, n ≤ k → k < i + period → t'.seasons[k]? = t.seasons[n + (k - n) % period]?) ∧
        ∀ k, n ≤ k → k < i → t'.xs[k]? = (t.seasons[n + (k - n) % period]?).map (l * ·)) := ⟨_, rfl⟩
  have hl0 : 0 < l := hpos.levels l (List.mem_of_getElem? hl)
  have base : P n t := by
    subst hP
    refine ⟨ht, fun k _ => ⟨rfl, rfl⟩, fun k h1 h2 => by omega, fun _ k h1 h2 => by omega, fun h => ?_⟩
    refine ⟨fun k _ => rfl, fun k h1 h2 => ?_, fun k h1 h2 => by omega⟩
    rw [Nat.mod_eq_of_lt (by omega), show n + (k - n) = k by omega]
  have step : ∀ i u, n ≤ i → i < n + (cur - n) → P i u →
      ∃ u', gmAdvance period x ls ss u i = .ok u' ∧ P (i + 1) u' := by
    intro i u hi hi2 hu
    subst hP
    obtain ⟨h1, h2, h3, h4, h5⟩ := hu
    have hxi : x[i]? = some none := hx i hi (by omega)
    obtain ⟨l', hl', hcase⟩ := advance_spec period i hp (by omega) x ls ss u h1 none hxi
    have hll : l' = l := by
      by_cases hin : i = n
      · subst hin
        rw [(h2 (i - 1) (by omega)).1, hl] at hl'
        injection hl' with hl'; exact hl'.symm
      · rw [h3 (i - 1) (by omega) (by omega)] at hl'
        injection hl' with hl'; exact hl'.symm
    subst hll
    rcases hcase with ⟨hp1, e⟩ | ⟨hp1, s, hs, e⟩
    · refine ⟨_, e, advance_len period i hp (by omega) x ls ss u _ h1 e, ?_, ?_, ?_, fun h => by omega⟩
      · intro k hk
        simp only [append_get _ _ i k h1.levels, append_get _ _ i k h1.xs, if_pos (show k < i by omega)]
        exact h2 k hk
      · intro k hk hk2
        simp only [append_get _ _ i k h1.levels, Option.getD_none]
        by_cases hki : k < i
        · rw [if_pos hki]; exact h3 k hk hki
        · rw [if_neg hki, if_pos (show k = i by omega)]
          congr 1; ring
      · intro h k hk hk2
        simp only [append_get _ _ i k h1.xs, Option.getD_none]
        by_cases hki : k < i
        · rw [if_pos hki]; exact h4 h k hk hki
        · rw [if_neg hki, if_pos (show k = i by omega)]
    · obtain ⟨h6, h7, h8⟩ := h5 hp1
      have hs' : t.seasons[n + (i - n) % period]? = some s := by rw [← h7 i hi (by omega)]; exact hs
      have hs0 : 0 < s := hpos.seasons s (List.mem_of_getElem? hs')
      have hsl := h1.seasons hp1
      have e1 : ls * (l' * s) / s + (1 - ls) * l' = l' := by field_simp; ring
      refine ⟨_, e, advance_len period i hp (by omega) x ls ss u _ h1 e, ?_, ?_, fun h => by omega, fun _ => ⟨?_, ?_, ?_⟩⟩
      · intro k hk
        simp only [append_get _ _ i k h1.levels, append_get _ _ i k h1.xs, if_pos (show k < i by omega)]
        exact h2 k hk
      · intro k hk hk2
        simp only [append_get _ _ i k h1.levels, Option.getD_none]
        by_cases hki : k < i
        · rw [if_pos hki]; exact h3 k hk hki
        · rw [if_neg hki, if_pos (show k = i by omega), e1]
      · intro k hk
        simp only [append_get _ _ _ k hsl, if_pos (show k < i + period by omega)]
        exact h6 k hk
      · intro k hk hk2
        simp only [append_get _ _ _ k hsl, Option.getD_none, e1]
        by_cases hki : k < i + period
        · rw [if_pos hki]; exact h7 k hk hki
        · have hk3 : k = i + period := by omega
          rw [if_neg hki, if_pos hk3, hk3, show i + period - n = (i - n) + period by omega,
            Nat.add_mod_right, hs']
          congr 1
          field_simp
          ring
      · intro k hk hk2
        simp only [append_get _ _ i k h1.xs, Option.getD_none]
        by_cases hki : k < i
        · rw [if_pos hki]; exact h8 k hk hki
        · rw [if_neg hki, if_pos (show k = i by omega), show k = i by omega, hs']
          rfl
  have hne : ¬ n = 0 := by omega
  obtain ⟨t', e, h⟩ := fold_track period x ls ss P (cur - n) n t base step
  refine ⟨t', ?_, ?_⟩
  · unfold gmTrack
    rw [if_neg hne]
    exact e
  · rw [show n + (cur - n) = cur by omega] at h
    subst hP
    exact h

/-! ## A seasonal series -/

/-- C139: for a series that is a level times a seasonality, with values missing or not, the level is found at
once and neither changes. -/
theorem C139_seasonal (period cur : Nat) (hp : 1 ≤ period) (hc : 1 ≤ cur) (l : K) (hl : 0 < l) (s : Nat → K)
    (hs : ∀ k, 0 < s k) (hs1 : period = 1 → s 0 = 1) (x : List (Option K)) (hcx : cur ≤ x.length)
    (hx0 : x[0]? = some (some (l * s 0)))
    (hx : ∀ k, k < cur → x[k]? = some none ∨ x[k]? = some (some (l * s (k % period)))) (ls ss : K) :
    ∃ t, gmTrack period x ls ss (gmFresh period ((List.range period).map s)) 0 cur = .ok t ∧
      TrackLen period cur t ∧ TrackPos t ∧
      (∀ k, k < cur → t.levels[k]? = some l ∧ t.xs[k]? = some (l * s (k % period))) ∧
      (1 < period → ∀ k, k < cur + period → t.seasons[k]? = some (s (k % period))) := by
  have main : ∃ t, gmTrack period x ls ss (gmFresh period ((List.range period).map s)) 0 cur = .ok t ∧
      TrackLen period cur t ∧
      (∀ k, k < cur → t.levels[k]? = some l ∧ t.xs[k]? = some (l * s (k % period))) ∧
      (1 < period → ∀ k, k < cur + period → t.seasons[k]? = some (s (k % period))) ∧
      (period = 1 → t.seasons = [1]) := by
    refine track_ind period x ls ss (fun n t => TrackLen period n t ∧
      (∀ k, k < n → t.levels[k]? = some l ∧ t.xs[k]? = some (l * s (k % period))) ∧
      (1 < period → ∀ k, k < n + period → t.seasons[k]? = some (s (k % period))) ∧
      (period = 1 → t.seasons = [1])) _ 0 cur hc ?_ ?_ ?_
    · intro _
      have hh : x.head? = some (some (l * s 0)) := by rw [List.head?_eq_getElem?]; exact hx0
      unfold gmStart gmFresh
      rw [hh]
      by_cases h1 : 1 < period
      · obtain ⟨hlen, hget⟩ := fresh_seasons period ((List.range period).map s) h1 (by simp)
        have hg : ∀ k, k < 1 + period → (gmSeasons period ((List.range period).map s))[k]? = some (s (k % period)) := by
          intro k hk
          rw [hget k hk, List.getElem?_map, List.getElem?_range (Nat.mod_lt _ (by omega))]
          rfl
        have h0 := hg 0 (by omega)
        rw [Nat.zero_mod] at h0
        rw [show (gmSeasons period ((List.range period).map s)).head? = some (s 0) by
          rw [List.head?_eq_getElem?]; exact h0]
        refine ⟨_, rfl, ⟨rfl, rfl, fun _ => hlen⟩, ?_, fun _ => hg, fun h => by omega⟩
        intro k hk
        have : k = 0 := by omega
        subst this
        have := hs 0
        refine ⟨?_, by simp⟩
        simp only [List.nil_append, List.getElem?_cons_zero, if_neg (show ¬ period ≤ 1 by omega)]
        congr 1
        field_simp
      · have : period = 1 := by omega
        subst this
        refine ⟨_, rfl, ⟨rfl, rfl, fun h => by omega⟩, ?_, fun h => by omega, fun _ => by simp [gmSeasons]⟩
        intro k hk
        have : k = 0 := by omega
        subst this
        simp [hs1 rfl]
    · intro h; exact absurd rfl h
    · rintro i t hi _ hic ⟨h1, h2, h3, h4⟩
      rcases hpc : period with _ | p
      · omega
      rw [← hpc]
      obtain ⟨v, hv, hvv⟩ : ∃ v, x[i]? = some v ∧ (v = none ∨ v = some (l * s (i % period))) := by
        rcases hx i hic with h | h
        · exact ⟨_, h, Or.inl rfl⟩
        · exact ⟨_, h, Or.inr rfl⟩
      obtain ⟨l', hl', hcase⟩ := advance_spec period i hp hi x ls ss t h1 v hv
      rw [(h2 (i - 1) (by omega)).1] at hl'
      injection hl' with hl'
      subst hl'
      have hsi := hs (i % period)
      rcases hcase with ⟨hp1, e⟩ | ⟨hp1, s', hs', e⟩
      · have hv' : v.getD l = l := by
          rcases hvv with rfl | rfl
          · rfl
          · simp [hp1, Nat.mod_one, hs1 hp1]
        refine ⟨_, e, advance_len period i hp hi x ls ss t _ h1 e, ?_, fun h => by omega, h4⟩
        intro k hk
        simp only [append_get _ _ i k h1.levels, append_get _ _ i k h1.xs, hv']
        by_cases hki : k < i
        · simp only [if_pos hki]; exact h2 k hki
        · have hk1 : k = i := by omega
          simp only [if_neg hki, if_pos hk1]
          refine ⟨by congr 1; ring, ?_⟩
          rw [hp1, Nat.mod_one, hs1 hp1, mul_one]
      · rw [h3 hp1 i (by omega)] at hs'
        injection hs' with hs'
        subst hs'
        have hv' : v.getD (l * s (i % period)) = l * s (i % period) := by
          rcases hvv with rfl | rfl <;> rfl
        have e1 : ls * (l * s (i % period)) / s (i % period) + (1 - ls) * l = l := by field_simp; ring
        have hsl := h1.seasons hp1
        refine ⟨_, e, advance_len period i hp hi x ls ss t _ h1 e, ?_, fun _ => ?_, fun h => by omega⟩
        · intro k hk
          simp only [append_get _ _ i k h1.levels, append_get _ _ i k h1.xs, hv', e1]
          by_cases hki : k < i
          · simp only [if_pos hki]; exact h2 k hki
          · have hk1 : k = i := by omega
            simp only [hk1, lt_irrefl, if_false, if_true, and_self]
        · intro k hk
          simp only [append_get _ _ _ k hsl, hv', e1]
          by_cases hki : k < i + period
          · rw [if_pos hki]; exact h3 hp1 k hki
          · have hk1 : k = i + period := by omega
            rw [if_neg hki, if_pos hk1, hk1, Nat.add_mod_right]
            congr 1
            field_simp
            ring
  obtain ⟨t, e, h1, h2, h3, h4⟩ := main
  refine ⟨t, e, h1, ⟨?_, ?_, ?_⟩, h2, h3⟩
  · intro v hv
    obtain ⟨k, hk⟩ := List.mem_iff_getElem?.1 hv
    have hk2 : k < cur := by rw [← h1.xs]; exact (List.getElem?_eq_some_iff.1 hk).1
    rw [(h2 k hk2).2] at hk
    injection hk with hk
    rw [← hk]; exact mul_pos hl (hs _)
  · intro v hv
    obtain ⟨k, hk⟩ := List.mem_iff_getElem?.1 hv
    have hk2 : k < cur := by rw [← h1.levels]; exact (List.getElem?_eq_some_iff.1 hk).1
    rw [(h2 k hk2).1] at hk
    injection hk with hk
    rw [← hk]; exact hl
  · intro v hv
    by_cases hp1 : 1 < period
    · obtain ⟨k, hk⟩ := List.mem_iff_getElem?.1 hv
      have hk2 : k < cur + period := by rw [← h1.seasons hp1]; exact (List.getElem?_eq_some_iff.1 hk).1
      rw [h3 hp1 k hk2] at hk
      injection hk with hk
      rw [← hk]; exact hs _
    · rw [h4 (by omega), List.mem_singleton] at hv
      rw [hv]; exact one_pos

end Kats

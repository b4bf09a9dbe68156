import Verif.Model.GmData
import Mathlib.Data.List.Sort
import Mathlib.Data.List.Nodup
import Mathlib.Tactic.Linarith
import Mathlib.Tactic.Ring

/-!
# C135: the preparation of series for global models
-/

namespace Kats

/-! ## `get_filters` -/

theorem gmFlips_succ (s : Nat) (isna : List Bool) (fuel i : Nat) :
    gmFlips s isna (fuel + 1) i =
      if i < isna.length then
        if isna.getD i false then
          (if s ≤ gmRunEnd isna i - i then [(i + (gmRunEnd isna i - i) % s, gmRunEnd isna i)] else []) ++
            gmFlips s isna fuel (gmRunEnd isna i)
        else gmFlips s isna fuel (i + 1)
      else [] := rfl

theorem gmFlips_shift (s : Nat) (pre l : List Bool) : ∀ (fuel i : Nat),
    gmFlips s (pre ++ l) fuel (pre.length + i) =
      (gmFlips s l fuel i).map fun p => (pre.length + p.1, pre.length + p.2) := by
  intro fuel
  induction fuel with
  | zero => intro i; rfl
  | succ fuel ih =>
    intro i
    have hd : (pre ++ l).drop (pre.length + i) = l.drop i := by
      rw [List.drop_append]; simp
    have hg : (pre ++ l).getD (pre.length + i) false = l.getD i false := by
      rw [List.getD_eq_getElem?_getD, List.getD_eq_getElem?_getD, List.getElem?_append_right (by omega)]
      congr 2; omega
    have he : gmRunEnd (pre ++ l) (pre.length + i) = pre.length + gmRunEnd l i := by
      unfold gmRunEnd; rw [hd]; omega
    unfold gmFlips
    rw [hg, he, List.length_append]
    by_cases h1 : i < l.length
    · rw [if_pos (by omega : pre.length + i < pre.length + l.length), if_pos h1]
      by_cases h2 : l.getD i false = true
      · rw [if_pos h2, if_pos h2, ih, List.map_append]
        congr 1
        rw [show pre.length + gmRunEnd l i - (pre.length + i) = gmRunEnd l i - i by omega]
        split
        · simp [Nat.add_assoc]
        · rfl
      · rw [if_neg h2, if_neg h2, show pre.length + i + 1 = pre.length + (i + 1) by omega, ih]
    · rw [if_neg (by omega), if_neg h1]; rfl

theorem gmFlips_fuel (s : Nat) (l : List Bool) : ∀ (fuel fuel' i : Nat), l.length - i ≤ fuel →
    l.length - i ≤ fuel' → gmFlips s l fuel i = gmFlips s l fuel' i := by
  intro fuel
  induction fuel with
  | zero =>
    intro fuel' i h _
    cases fuel' with
    | zero => rfl
    | succ f => unfold gmFlips; rw [if_neg (by omega)]
  | succ fuel ih =>
    intro fuel' i h h'
    cases fuel' with
    | zero => unfold gmFlips; rw [if_neg (by omega)]
    | succ f =>
      unfold gmFlips
      by_cases h1 : i < l.length
      · rw [if_pos h1, if_pos h1]
        by_cases h2 : l.getD i false = true
        · rw [if_pos h2, if_pos h2]
          have : i < gmRunEnd l i := by
            unfold gmRunEnd
            rw [List.drop_eq_getElem_cons h1]
            rw [List.getD_eq_getElem?_getD, List.getElem?_eq_getElem h1, Option.getD_some] at h2
            simp [h2]
          rw [ih f _ (by omega) (by omega)]
        · rw [if_neg h2, if_neg h2, ih f _ (by omega) (by omega)]
      · rw [if_neg h1, if_neg h1]

theorem gmClear_length (f : List Bool) (p : Nat × Nat) : (gmClear f p).length = f.length := by
  simp [gmClear]

theorem gmClears_length (ps : List (Nat × Nat)) : ∀ f : List Bool,
    (ps.foldl gmClear f).length = f.length := by
  induction ps with
  | nil => intro f; rfl
  | cons p ps ih => intro f; rw [List.foldl_cons, ih, gmClear_length]

theorem gmFilters_length (s : Nat) (l : List Bool) : (gmFilters s l).length = l.length := by
  unfold gmFilters; rw [gmClears_length, List.length_replicate]

theorem gmClear_shift (pre f : List Bool) (p : Nat × Nat) :
    gmClear (pre ++ f) (pre.length + p.1, pre.length + p.2) = pre ++ gmClear f p := by
  unfold gmClear
  rw [List.mapIdx_append]
  congr 1
  · apply List.ext_getElem
    · simp
    · intro k h1 h2
      rw [List.getElem_mapIdx, if_neg (by omega)]
  · congr 1
    funext k b
    simp only [show (pre.length + p.1 ≤ k + pre.length ∧ k + pre.length < pre.length + p.2) ↔
      (p.1 ≤ k ∧ k < p.2) from by omega]

theorem gmClears_shift (pre : List Bool) (ps : List (Nat × Nat)) : ∀ f : List Bool,
    (ps.map fun p => (pre.length + p.1, pre.length + p.2)).foldl gmClear (pre ++ f) =
      pre ++ ps.foldl gmClear f := by
  induction ps with
  | nil => intro f; rfl
  | cons p ps ih => intro f; rw [List.map_cons, List.foldl_cons, gmClear_shift, ih, List.foldl_cons]

theorem gmFilters_false (s : Nat) (l : List Bool) :
    gmFilters s (false :: l) = true :: gmFilters s l := by
  have h : gmFlips s (false :: l) (false :: l).length 0 =
      (gmFlips s l l.length 0).map fun p => (1 + p.1, 1 + p.2) := by
    have := gmFlips_shift s [false] l l.length 0
    rw [List.length_singleton, Nat.add_zero] at this
    rw [← this, List.length_cons, gmFlips_succ]
    simp
  unfold gmFilters
  rw [h]
  exact gmClears_shift [true] _ _

theorem gmRunEnd_run (c : Nat) (rest : List Bool) (hr : rest.head? ≠ some true) :
    gmRunEnd (List.replicate c true ++ rest) 0 = c := by
  unfold gmRunEnd
  rw [List.drop_zero, List.takeWhile_append_of_pos (by simp)]
  cases rest with
  | nil => simp
  | cons b t =>
    have : b = false := by cases b <;> simp_all
    subst this; simp

theorem gmFilters_run (s c : Nat) (rest : List Bool) (hs : 0 < s) (hc : 0 < c)
    (hr : rest.head? ≠ some true) :
    gmFilters s (List.replicate c true ++ rest) =
      List.replicate (c % s) true ++ List.replicate (c - c % s) false ++ gmFilters s rest := by
  have hlen : (List.replicate c true ++ rest).length = c + rest.length := by simp
  have hflips : gmFlips s (List.replicate c true ++ rest) (c + rest.length) 0 =
      (if s ≤ c then [(c % s, c)] else []) ++
        (gmFlips s rest rest.length 0).map fun p => (c + p.1, c + p.2) := by
    obtain ⟨f, hf⟩ : ∃ f, c + rest.length = f + 1 := ⟨c + rest.length - 1, by omega⟩
    have h1 := gmFlips_shift s (List.replicate c true) rest f 0
    rw [List.length_replicate, Nat.add_zero] at h1
    rw [hf, gmFlips_succ, if_pos (by omega)]
    have hg : (List.replicate c true ++ rest).getD 0 false = true := by
      obtain ⟨c', rfl⟩ : ∃ c', c = c' + 1 := ⟨c - 1, by omega⟩
      simp [List.replicate_succ]
    rw [if_pos hg, gmRunEnd_run c rest hr, h1, gmFlips_fuel s rest f rest.length 0 (by omega) (by omega)]
    simp
  unfold gmFilters
  rw [hlen, hflips, List.foldl_append, ← List.replicate_append_replicate]
  have h2 : (if s ≤ c then [(c % s, c)] else []).foldl gmClear
      (List.replicate c true ++ List.replicate rest.length true) =
      (List.replicate (c % s) true ++ List.replicate (c - c % s) false) ++
        List.replicate rest.length true := by
    have hle : c % s ≤ c := Nat.mod_le _ _
    by_cases h : s ≤ c
    · rw [if_pos h, List.foldl_cons, List.foldl_nil]
      apply List.ext_getElem
      · simp [gmClear]; omega
      · intro k h1 h2
        simp only [gmClear, List.getElem_mapIdx, List.getElem_append, List.length_append,
          List.length_replicate, List.getElem_replicate]
        by_cases a : k < c % s
        · rw [if_neg (by omega), dif_pos (by omega), dif_pos a]; simp
        · by_cases b : k < c
          · rw [if_pos (by omega), dif_pos (by omega), dif_neg a]
          · rw [if_neg (by omega), dif_neg (by omega)]
            rw [dif_neg (by omega)]
    · rw [if_neg h, List.foldl_nil, Nat.mod_eq_of_lt (by omega)]; simp
  rw [h2]
  have h3 := gmClears_shift (List.replicate (c % s) true ++ List.replicate (c - c % s) false)
    (gmFlips s rest rest.length 0) (List.replicate rest.length true)
  rw [show (List.replicate (c % s) true ++ List.replicate (c - c % s) false).length = c by
    have hle : c % s ≤ c := Nat.mod_le _ _
    simp; omega] at h3
  exact h3

/-- Induction over the runs of missing values. -/
theorem gmRuns {P : List Bool → Prop} (h0 : P []) (h1 : ∀ l, P l → P (false :: l))
    (h2 : ∀ c rest, 0 < c → rest.head? ≠ some true → P rest → P (List.replicate c true ++ rest)) :
    ∀ l, P l := by
  intro l
  obtain ⟨n, hn⟩ : ∃ n, l.length ≤ n := ⟨_, le_refl _⟩
  induction n generalizing l with
  | zero => rw [List.length_eq_zero_iff.mp (by omega : l.length = 0)]; exact h0
  | succ n ih =>
    cases l with
    | nil => exact h0
    | cons b t =>
      cases b with
      | false => exact h1 t (ih t (by simpa using hn))
      | true =>
        have e : (true :: t) = List.replicate ((true :: t).takeWhile id).length true ++
            (true :: t).dropWhile id := by
          conv_lhs => rw [← List.takeWhile_append_dropWhile (p := id) (l := true :: t)]
          congr 1
          apply List.eq_replicate_of_mem
          intro b hb
          simpa using List.all_eq_true.mp (List.all_takeWhile (p := id) (l := true :: t)) b hb
        have hpos : 0 < ((true :: t).takeWhile id).length := by simp
        rw [e]
        apply h2 _ _ hpos
        · intro h
          have := List.head?_dropWhile_not (p := id) (true :: t)
          rw [h] at this
          simp at this
        · apply ih
          have := congrArg List.length e
          rw [List.length_append, List.length_replicate] at this
          rw [List.length_cons] at this hn
          omega

theorem gmKeep_append {α : Type} (l l' : List α) (f f' : List Bool) (h : l.length = f.length) :
    gmKeep (l ++ l') (f ++ f') = gmKeep l f ++ gmKeep l' f' := by
  unfold gmKeep; rw [List.zip_append h, List.filter_append, List.map_append]

theorem gmKeep_cons_true {α : Type} (x : α) (l : List α) (f : List Bool) :
    gmKeep (x :: l) (true :: f) = x :: gmKeep l f := rfl

theorem gmKeep_cons_false {α : Type} (x : α) (l : List α) (f : List Bool) :
    gmKeep (x :: l) (false :: f) = gmKeep l f := rfl

theorem gmKeep_run (s c : Nat) (rest : List Bool) (hs : 0 < s) (hc : 0 < c)
    (hr : rest.head? ≠ some true) :
    gmKeep (List.replicate c true ++ rest) (gmFilters s (List.replicate c true ++ rest)) =
      List.replicate (c % s) true ++ gmKeep rest (gmFilters s rest) := by
  have hle : c % s ≤ c := Nat.mod_le _ _
  rw [gmFilters_run s c rest hs hc hr, gmKeep_append _ _ _ _ (by simp; omega)]
  congr 1
  rw [show List.replicate c true = List.replicate (c % s) true ++ List.replicate (c - c % s) true by
    rw [List.replicate_append_replicate]; congr 1; omega, gmKeep_append _ _ _ _ (by simp)]
  have a : ∀ n, gmKeep (List.replicate n true) (List.replicate n true) = List.replicate n true := by
    intro n
    induction n with
    | zero => rfl
    | succ n ih => rw [List.replicate_succ, gmKeep_cons_true, ih]
  have b : ∀ n, gmKeep (List.replicate n true) (List.replicate n false) = [] := by
    intro n
    induction n with
    | zero => rfl
    | succ n ih => rw [List.replicate_succ, List.replicate_succ, gmKeep_cons_false, ih]
  rw [a, b, List.append_nil]

theorem filters_keep_values (s : Nat) (hs : 0 < s) (l : List Bool) :
    ∀ k : Nat, l[k]? = some false → (gmFilters s l)[k]? = some true := by
  induction l using gmRuns with
  | h0 => intro k h; simp at h
  | h1 l ih =>
    intro k h
    rw [gmFilters_false]
    cases k with
    | zero => rfl
    | succ k => rw [List.getElem?_cons_succ] at h ⊢; exact ih k h
  | h2 c rest hc hr ih =>
    intro k h
    have hle : c % s ≤ c := Nat.mod_le _ _
    by_cases hk : k < c
    · rw [List.getElem?_append_left (by simpa using hk), List.getElem?_replicate, if_pos hk] at h
      simp at h
    · rw [List.getElem?_append_right (by simp; omega), List.length_replicate] at h
      rw [gmFilters_run s c rest hs hc hr, List.getElem?_append_right (by simp; omega)]
      have := ih _ h
      rw [← this]
      congr 1
      simp; omega

theorem filters_runs (s : Nat) (hs : 0 < s) (l : List Bool) :
    ∀ a b, a < b → b ≤ l.length → (∀ k, a ≤ k → k < b → l[k]? = some true) →
      (a = 0 ∨ l[a - 1]? = some false) → l[b]? ≠ some true →
      ∀ k, a ≤ k → k < b → (gmFilters s l)[k]? = some (decide (k < a + (b - a) % s)) := by
  induction l using gmRuns with
  | h0 => intro a b hab hb; simp at hb; omega
  | h1 l ih =>
    intro a b hab hb hrun ha hb' k hk1 hk2
    have ha0 : 0 < a := by
      rcases Nat.eq_zero_or_pos a with h | h
      · have := hrun 0 (by omega) (by omega)
        simp at this
      · exact h
    obtain ⟨a, rfl⟩ : ∃ a', a = a' + 1 := ⟨a - 1, by omega⟩
    obtain ⟨b, rfl⟩ : ∃ b', b = b' + 1 := ⟨b - 1, by omega⟩
    obtain ⟨k, rfl⟩ : ∃ k', k = k' + 1 := ⟨k - 1, by omega⟩
    rw [gmFilters_false, List.getElem?_cons_succ,
      ih a b (by omega) (by simpa using hb) (fun k h1 h2 => by
        have := hrun (k + 1) (by omega) (by omega)
        rwa [List.getElem?_cons_succ] at this) ?_ (by rwa [List.getElem?_cons_succ] at hb') k
        (by omega) (by omega)]
    · congr 2
      rw [show b + 1 - (a + 1) = b - a by omega]
      apply propext; omega
    · rcases Nat.eq_zero_or_pos a with h | h
      · exact Or.inl h
      · right
        obtain ⟨a, rfl⟩ : ∃ a', a = a' + 1 := ⟨a - 1, by omega⟩
        rcases ha with h' | h'
        · omega
        · rwa [Nat.add_sub_cancel, List.getElem?_cons_succ] at h'
  | h2 c rest hc hr ih =>
    intro a b hab hb hrun ha hb' k hk1 hk2
    have hle : c % s ≤ c := Nat.mod_le _ _
    have hfr : (List.replicate (c % s) true ++ List.replicate (c - c % s) false).length = c := by
      simp; omega
    have hcs : (List.replicate c true ++ rest)[c]? ≠ some true := by
      rw [List.getElem?_append_right (by simp)]
      simpa [List.head?_eq_getElem?] using hr
    rw [gmFilters_run s c rest hs hc hr]
    by_cases h0 : a < c
    · have ha0 : a = 0 := by
        rcases ha with h | h
        · exact h
        · rw [List.getElem?_append_left (by simp; omega), List.getElem?_replicate, if_pos (by omega)] at h
          simp at h
      have hbc : b = c := by
        rcases Nat.lt_trichotomy b c with h | h | h
        · exact absurd (by rw [List.getElem?_append_left (by simpa using h), List.getElem?_replicate,
            if_pos h]) hb'
        · exact h
        · exact absurd (hrun c (by omega) h) hcs
      subst ha0 hbc
      rw [List.getElem?_append_left (by rw [hfr]; exact hk2), Nat.zero_add, Nat.sub_zero]
      by_cases h : k < b % s
      · rw [List.getElem?_append_left (by simpa using h), List.getElem?_replicate, if_pos h]
        simp [h]
      · rw [List.getElem?_append_right (by simp; omega), List.getElem?_replicate,
          if_pos (by simp; omega)]
        simp only [List.length_replicate, decide_eq_false h]
    · have ha1 : a ≠ c := fun h => by
        subst h; exact hcs (hrun a (le_refl _) hab)
      have hin : ∀ j, c ≤ j → (List.replicate c true ++ rest)[j]? = rest[j - c]? := by
        intro j hj
        rw [List.getElem?_append_right (by simpa using hj), List.length_replicate]
      rw [List.getElem?_append_right (by omega), hfr,
        ih (a - c) (b - c) (by omega) (by simp at hb; omega) (fun j h1 h2 => by
          have := hrun (j + c) (by omega) (by omega)
          rwa [hin _ (by omega), Nat.add_sub_cancel] at this) (Or.inr (by
            rcases ha with h | h
            · omega
            · rw [hin _ (by omega)] at h
              rw [← h]; congr 1; omega)) (by
            rw [hin _ (by omega)] at hb'; exact hb') (k - c) (by omega) (by omega)]
      congr 2
      rw [show b - c - (a - c) = b - a by omega]
      apply propext; omega

theorem filters_phase (s : Nat) (hs : 0 < s) (l : List Bool) :
    ∀ k, (gmFilters s l)[k]? = some true → s ∣ ((gmFilters s l).take k).count false := by
  induction l using gmRuns with
  | h0 => intro k h; simp [gmFilters, gmFlips] at h
  | h1 l ih =>
    intro k h
    rw [gmFilters_false] at h ⊢
    cases k with
    | zero => simp
    | succ k =>
      rw [List.getElem?_cons_succ] at h
      rw [List.take_succ_cons, List.count_cons_of_ne (by decide)]
      exact ih k h
  | h2 c rest hc hr ih =>
    intro k h
    have hle : c % s ≤ c := Nat.mod_le _ _
    rw [gmFilters_run s c rest hs hc hr] at h ⊢
    by_cases h1 : k < c % s
    · rw [List.append_assoc, List.take_append, List.count_append, List.length_replicate,
        show k - c % s = 0 by omega, List.take_zero, List.take_replicate, List.count_replicate]
      simp
    · by_cases h2 : k < c
      · rw [List.getElem?_append_left (by simp; omega), List.getElem?_append_right (by simp; omega),
          List.getElem?_replicate, if_pos (by simp; omega)] at h
        simp at h
      · rw [List.getElem?_append_right (by simp; omega)] at h
        rw [show (List.replicate (c % s) true ++ List.replicate (c - c % s) false).length = c by
          simp; omega] at h
        rw [List.take_append, List.count_append, List.take_of_length_le (by simp; omega),
          List.count_append, List.count_replicate, List.count_replicate,
          show (List.replicate (c % s) true ++ List.replicate (c - c % s) false).length = c by
          simp; omega]
        simp only [beq_self_eq_true, if_true, show (true == false) = false from rfl]
        rw [if_neg (by decide), Nat.zero_add]
        exact Nat.dvd_add (Nat.dvd_sub_mod c) (ih _ h)

theorem filters_windows (s : Nat) (hs : 0 < s) (l : List Bool) :
    ∀ a, a + s ≤ (gmKeep l (gmFilters s l)).length →
      ∃ k, a ≤ k ∧ k < a + s ∧ (gmKeep l (gmFilters s l))[k]? = some false := by
  induction l using gmRuns with
  | h0 => intro a h; simp [gmKeep] at h; omega
  | h1 l ih =>
    intro a h
    rw [gmFilters_false, gmKeep_cons_true] at h ⊢
    cases a with
    | zero => exact ⟨0, le_refl _, by omega, rfl⟩
    | succ a =>
      obtain ⟨k, h1, h2, h3⟩ := ih a (by simp at h; omega)
      exact ⟨k + 1, by omega, by omega, by rwa [List.getElem?_cons_succ]⟩
  | h2 c rest hc hr ih =>
    intro a h
    have hlt : c % s < s := Nat.mod_lt _ hs
    rw [gmKeep_run s c rest hs hc hr] at h ⊢
    rw [List.length_append, List.length_replicate] at h
    by_cases h1 : a < c % s
    · refine ⟨c % s, by omega, by omega, ?_⟩
      rw [List.getElem?_append_right (by simp)]
      cases rest with
      | nil => simp [gmKeep] at h; omega
      | cons b t =>
        have : b = false := by cases b <;> simp_all
        subst this
        rw [gmFilters_false, gmKeep_cons_true]; simp
    · obtain ⟨k, h1, h2, h3⟩ := ih (a - c % s) (by omega)
      exact ⟨k + c % s, by omega, by omega, by
        rw [List.getElem?_append_right (by simp), List.length_replicate, Nat.add_sub_cancel, h3]⟩

/-- C135: `get_filters` keeps every value that is there; of a run of `b - a` missing values it keeps
the first `(b - a) % seasonality`; so what is left out before an element that is kept is a whole
number of periods, and no whole period of missing values is left. -/
theorem C135_filters (s : Nat) (hs : 0 < s) (l : List Bool) :
    (gmFilters s l).length = l.length ∧
    (∀ k : Nat, l[k]? = some false → (gmFilters s l)[k]? = some true) ∧
    (∀ a b, a < b → b ≤ l.length → (∀ k, a ≤ k → k < b → l[k]? = some true) →
      (a = 0 ∨ l[a - 1]? = some false) → l[b]? ≠ some true →
      ∀ k, a ≤ k → k < b → (gmFilters s l)[k]? = some (decide (k < a + (b - a) % s))) ∧
    (∀ k, (gmFilters s l)[k]? = some true → s ∣ ((gmFilters s l).take k).count false) ∧
    (∀ a, a + s ≤ (gmKeep l (gmFilters s l)).length →
      ∃ k, a ≤ k ∧ k < a + s ∧ (gmKeep l (gmFilters s l))[k]? = some false) :=
  ⟨gmFilters_length s l, filters_keep_values s hs l, filters_runs s hs l, filters_phase s hs l,
    filters_windows s hs l⟩

/-- Five missing values with period 2 leave one; three with period 3 leave none. -/
example : gmFilters 2 [false, true, true, true, true, true, false] =
    [true, true, false, false, false, false, true] ∧
    gmFilters 3 [true, true, true, false, true] = [false, false, false, true, true] := by
  decide

/-! ## `fill_missing_value_na` -/

theorem gmKeep_get {α : Type} (l : List α) : ∀ (f : List Bool) (i : Nat) (x : α), l.length = f.length →
    (gmKeep l f)[i]? = some x →
    ∃ k, l[k]? = some x ∧ f[k]? = some true ∧ k = i + (f.take k).count false := by
  induction l with
  | nil => intro f i x _ h; simp [gmKeep] at h
  | cons y l ih =>
    intro f i x hl h
    cases f with
    | nil => simp at hl
    | cons b f =>
      cases b with
      | true =>
        rw [gmKeep_cons_true] at h
        cases i with
        | zero => exact ⟨0, by simpa using h, rfl, by simp⟩
        | succ i =>
          obtain ⟨k, h1, h2, h3⟩ := ih f i x (by simpa using hl) (by simpa using h)
          refine ⟨k + 1, by simpa using h1, by simpa using h2, ?_⟩
          rw [List.take_succ_cons, List.count_cons_of_ne (by decide)]
          omega
      | false =>
        rw [gmKeep_cons_false] at h
        obtain ⟨k, h1, h2, h3⟩ := ih f i x (by simpa using hl) h
        refine ⟨k + 1, by simpa using h1, by simpa using h2, ?_⟩
        rw [List.take_succ_cons, List.count_cons_self]
        omega

theorem gmKeep_filter {α : Type} (P : α → Bool) (l : List α) : ∀ (f : List Bool), l.length = f.length →
    (∀ (k : Nat) x, l[k]? = some x → P x = true → f[k]? = some true) →
    (gmKeep l f).filter P = l.filter P := by
  induction l with
  | nil => intro f _ _; rfl
  | cons y l ih =>
    intro f hl h
    cases f with
    | nil => simp at hl
    | cons b f =>
      have ih' := ih f (by simpa using hl) fun k x h1 h2 => by
        have := h (k + 1) x (by simpa using h1) h2
        simpa using this
      cases b with
      | true => rw [gmKeep_cons_true, List.filter_cons, List.filter_cons, ih']
      | false =>
        rw [gmKeep_cons_false, ih', List.filter_cons, if_neg]
        intro hp
        have := h 0 y rfl hp
        simp at this

theorem gmKeep_sublist {α : Type} (l : List α) : ∀ (f : List Bool), (gmKeep l f).Sublist l := by
  induction l with
  | nil => intro f; simp [gmKeep]
  | cons y l ih =>
    intro f
    cases f with
    | nil => simp [gmKeep]
    | cons b f =>
      cases b with
      | true => rw [gmKeep_cons_true]; exact (ih f).cons₂ y
      | false => rw [gmKeep_cons_false]; exact (ih f).cons y

theorem gmKeep_map {α β : Type} (g : α → β) (l : List α) : ∀ (f : List Bool),
    (gmKeep l f).map g = gmKeep (l.map g) f := by
  induction l with
  | nil => intro f; rfl
  | cons y l ih =>
    intro f
    cases f with
    | nil => rfl
    | cons b f =>
      cases b with
      | true => rw [gmKeep_cons_true, List.map_cons, List.map_cons, gmKeep_cons_true, ih]
      | false => rw [gmKeep_cons_false, List.map_cons, gmKeep_cons_false, ih]

/-- The times are increasing and whole steps after the first one. -/
def GmOnGrid (ts : GmTs) (freq : Int) : Prop :=
  ts.Pairwise (fun a b => a.1 < b.1) ∧
    ∀ r ∈ ts, ∀ a, ts.head? = some a → freq ∣ r.1 - a.1

/-- The value at a time. -/
def gmValueAt (ts : GmTs) (t : Int) : Option Rat := (ts.find? fun r => r.1 = t).bind (·.2)

theorem gmAt_filter (ts : GmTs) (hp : ts.Pairwise (fun a b => a.1 < b.1)) (t : Int) :
    (if (ts.filter fun r => r.1 = t).isEmpty then [(t, none)] else ts.filter fun r => r.1 = t) =
      [(t, gmValueAt ts t)] := by
  unfold gmValueAt
  induction ts with
  | nil => simp
  | cons r ts ih =>
    rw [List.pairwise_cons] at hp
    by_cases h : r.1 = t
    · have : ts.filter (fun r => decide (r.1 = t)) = [] := by
        rw [List.filter_eq_nil_iff]
        intro x hx
        have := hp.1 x hx
        simp; omega
      rw [List.filter_cons_of_pos (by simpa using h), this, List.find?_cons_of_pos (by simpa using h)]
      subst h
      simp
    · rw [List.filter_cons_of_neg (by simpa using h), List.find?_cons_of_neg (by simpa using h)]
      exact ih hp.2

theorem gmMerge_eq (ts : GmTs) (hp : ts.Pairwise (fun a b => a.1 < b.1)) (grid : List Int) :
    gmMerge grid ts = grid.map fun t => (t, gmValueAt ts t) := by
  unfold gmMerge
  induction grid with
  | nil => rfl
  | cons t grid ih => rw [List.flatMap_cons, ih, gmAt_filter ts hp t]; rfl

theorem gmValueAt_some (ts : GmTs) (hp : ts.Pairwise (fun a b => a.1 < b.1)) (t : Int) (v : Rat) :
    gmValueAt ts t = some v ↔ (t, some v) ∈ ts := by
  unfold gmValueAt
  induction ts with
  | nil => simp
  | cons r ts ih =>
    rw [List.pairwise_cons] at hp
    by_cases h : r.1 = t
    · rw [List.find?_cons_of_pos (by simpa using h)]
      subst h
      rw [Option.bind_some, List.mem_cons]
      constructor
      · intro h; left; rw [← h]
      · rintro (h | h)
        · rw [← h]
        · have := hp.1 _ h
          simp at this
    · rw [List.find?_cons_of_neg (by simpa using h), ih hp.2, List.mem_cons]
      constructor
      · exact Or.inr
      · rintro (h' | h')
        · exact absurd (by rw [← h']) h
        · exact h'

theorem gmGrid_get (a b freq : Int) (k : Nat) (t : Int) (h : (gmGrid a b freq)[k]? = some t) :
    t = a + (k : Int) * freq := by
  unfold gmGrid at h
  rw [List.getElem?_map] at h
  rcases h' : (List.range ((b - a) / freq + 1).toNat)[k]? with _ | j
  · rw [h'] at h; simp at h
  · rw [h'] at h
    rw [List.getElem?_range (by
      by_contra hc
      rw [List.getElem?_eq_none (by simpa using hc)] at h'
      simp at h')] at h'
    simp only [Option.map_some, Option.some.injEq] at h h'
    rw [← h, ← h']

theorem gmGrid_mem (a b freq t : Int) (hf : 0 < freq) :
    t ∈ gmGrid a b freq ↔ a ≤ t ∧ t ≤ b ∧ freq ∣ t - a := by
  unfold gmGrid
  rw [List.mem_map]
  constructor
  · rintro ⟨k, hk, rfl⟩
    rw [List.mem_range] at hk
    have h1 : (k : Int) ≤ (b - a) / freq := by omega
    have h2 : (k : Int) * freq ≤ b - a := le_trans (mul_le_mul_of_nonneg_right h1 hf.le)
      (Int.ediv_mul_le _ (by omega))
    have h3 : 0 ≤ (k : Int) * freq := mul_nonneg (by omega) hf.le
    exact ⟨by omega, by omega, ⟨k, by ring⟩⟩
  · rintro ⟨h1, h2, ⟨k, hk⟩⟩
    have hk0 : 0 ≤ k := by
      by_contra hc
      have : freq * k < 0 := mul_neg_of_pos_of_neg hf (by omega)
      omega
    have h3 : k ≤ (b - a) / freq := by
      rw [Int.le_ediv_iff_mul_le hf, mul_comm]
      omega
    refine ⟨k.toNat, List.mem_range.mpr (by omega), ?_⟩
    rw [Int.toNat_of_nonneg hk0, mul_comm]
    omega

theorem gmGrid_sorted (a b freq : Int) (hf : 0 < freq) : (gmGrid a b freq).Pairwise (· < ·) := by
  unfold gmGrid
  rw [List.pairwise_map]
  refine List.pairwise_lt_range.imp fun {i j} h => ?_
  have : (i : Int) * freq < (j : Int) * freq := mul_lt_mul_of_pos_right (by exact_mod_cast h) hf
  omega

theorem gmRows_unique (x y : GmTs) (hx : x.Pairwise (fun a b => a.1 < b.1))
    (hy : y.Pairwise (fun a b => a.1 < b.1)) (h : ∀ r, r ∈ x ↔ r ∈ y) : x = y := by
  have hp : x.Perm y := (List.perm_ext_iff_of_nodup
    (hx.imp fun h e => by rw [e] at h; exact lt_irrefl _ h)
    (hy.imp fun h e => by rw [e] at h; exact lt_irrefl _ h)).2 h
  exact hp.eq_of_pairwise (fun a b _ _ h1 h2 => absurd h1 (not_lt.2 h2.le)) hx hy

/-- A series without a gap has its times in the right places. -/
theorem gmComplete (freq : Int) (hf : 0 < freq) : ∀ (ts : GmTs) (a : Int × Option Rat),
    ts.head? = some a → GmOnGrid ts freq →
    (∀ (i : Nat) r, ts[i]? = some r → a.1 + (i : Int) * freq ≤ r.1) := by
  intro ts a ha hg
  have key : ∀ (i : Nat) r, ts[i]? = some r → a.1 + (i : Int) * freq ≤ r.1 := by
    intro i
    induction i with
    | zero =>
      intro r hr
      rw [List.head?_eq_getElem?] at ha
      rw [ha] at hr
      rw [← Option.some.inj hr]; simp
    | succ i ih =>
      intro r hr
      have hlt : i + 1 < ts.length := by
        by_contra hc
        rw [List.getElem?_eq_none (by omega)] at hr
        simp at hr
      have hr' : ts[i + 1] = r := by
        rw [List.getElem?_eq_getElem hlt] at hr; exact Option.some.inj hr
      have h1 := ih ts[i] (List.getElem?_eq_getElem (by omega))
      have h2 := List.pairwise_iff_getElem.mp hg.1 i (i + 1) (by omega) hlt (by omega)
      obtain ⟨c, hc⟩ := hg.2 _ (List.getElem_mem (by omega : i < ts.length)) a ha
      obtain ⟨d, hd⟩ := hg.2 _ (List.getElem_mem hlt) a ha
      rw [hr'] at h2 hd
      have hcd : c < d := by
        by_contra hn
        have : freq * d ≤ freq * c := mul_le_mul_of_nonneg_left (by omega) hf.le
        omega
      have h3 : freq * (c + 1) ≤ freq * d := mul_le_mul_of_nonneg_left (by omega) hf.le
      push_cast
      have e1 : freq * (c + 1) = freq * c + freq := by ring
      have e2 : ((i : Int) + 1) * freq = (i : Int) * freq + freq := by ring
      omega
  exact key

/-- C135, the part that holds: for a series whose times are whole steps, `fill_missing_value_na`
gives rows with increasing times from the first to the last one, the values that were there and
missing values; row `i` is `i` steps after the first one up to whole periods.  If rows were missing
and the period is not 1, no whole period of missing values is left. -/
theorem C135_fill_partial (ts : GmTs) (s : Nat) (freq : Int) (hs : 0 < s) (hf : 0 < freq)
    (a b : Int × Option Rat) (ha : ts.head? = some a) (hb : ts.getLast? = some b)
    (hg : GmOnGrid ts freq) :
    ∃ out, gmFill "time" ts s freq = .ok out ∧
      out.Pairwise (fun x y => x.1 < y.1) ∧
      out.filter (fun r => r.2.isSome) = ts.filter (fun r => r.2.isSome) ∧
      (∀ r ∈ out, a.1 ≤ r.1 ∧ r.1 ≤ b.1) ∧
      (∀ (i : Nat) r, out[i]? = some r →
        ((s : Int) * freq) ∣ r.1 - (a.1 + (i : Int) * freq)) ∧
      (((ts.length : Int) - 1) * freq ≠ b.1 - a.1 → s ≠ 1 →
        ∀ i, i + s ≤ out.length → ∃ k, i ≤ k ∧ k < i + s ∧ ∃ r, out[k]? = some r ∧ r.2 ≠ none) := by
  have hne : ts ≠ [] := by rintro rfl; simp at ha
  have hla : ∀ r ∈ ts, r.1 ≤ b.1 := by
    intro r hr
    rw [List.getLast?_eq_some_getLast hne] at hb
    have hb' := Option.some.inj hb
    obtain ⟨i, hi, rfl⟩ := List.mem_iff_getElem.mp hr
    rw [← hb', List.getLast_eq_getElem]
    rcases Nat.lt_or_ge i (ts.length - 1) with h | h
    · exact (List.pairwise_iff_getElem.mp hg.1 _ _ hi (by omega) h).le
    · have : i = ts.length - 1 := by omega
      subst this; exact le_refl _
  have hfa : ∀ r ∈ ts, a.1 ≤ r.1 := by
    intro r hr
    obtain ⟨i, hi, rfl⟩ := List.mem_iff_getElem.mp hr
    have := gmComplete freq hf ts a ha hg i _ (List.getElem?_eq_getElem hi)
    have h0 : 0 ≤ (i : Int) * freq := mul_nonneg (by omega) hf.le
    omega
  unfold gmFill
  rw [ha, hb]
  simp only []
  by_cases hc : ((ts.length : Int) - 1) * freq = b.1 - a.1 ∨ s = 1
  · rw [if_pos hc]
    refine ⟨ts, rfl, hg.1, rfl, fun r hr => ⟨hfa r hr, hla r hr⟩, ?_, ?_⟩
    · intro i r hr
      have hlt : i < ts.length := by
        by_contra hn
        rw [List.getElem?_eq_none (by omega)] at hr
        simp at hr
      have hr' : ts[i] = r := by
        rw [List.getElem?_eq_getElem hlt] at hr; exact Option.some.inj hr
      rcases hc with hc | hc
      · have h1 := gmComplete freq hf ts a ha hg i r hr
        have h2 : ∀ n, n < ts.length → ts[ts.length - 1 - n].1 ≤ b.1 - (n : Int) * freq := by
          intro n
          induction n with
          | zero =>
            intro _
            simpa using hla _ (List.getElem_mem _)
          | succ n ih =>
            intro hn
            have g1 := ih (by omega)
            have g2 := List.pairwise_iff_getElem.mp hg.1 (ts.length - 1 - (n + 1)) (ts.length - 1 - n)
              (by omega) (by omega) (by omega)
            obtain ⟨c, hc1⟩ := hg.2 _ (List.getElem_mem (by omega : ts.length - 1 - (n + 1) < ts.length)) a ha
            obtain ⟨d, hd⟩ := hg.2 _ (List.getElem_mem (by omega : ts.length - 1 - n < ts.length)) a ha
            have hcd : c < d := by
              by_contra hn
              have : freq * d ≤ freq * c := mul_le_mul_of_nonneg_left (by omega) hf.le
              omega
            have h3 : freq * (c + 1) ≤ freq * d := mul_le_mul_of_nonneg_left (by omega) hf.le
            push_cast
            have e1 : freq * (c + 1) = freq * c + freq := by ring
            have e2 : ((n : Int) + 1) * freq = (n : Int) * freq + freq := by ring
            omega
        have h3 := h2 (ts.length - 1 - i) (by omega)
        have h4 : ts[ts.length - 1 - (ts.length - 1 - i)] = r := by
          rw [← hr']; congr 1; omega
        rw [h4] at h3
        have e : ((ts.length - 1 - i : Nat) : Int) * freq =
            ((ts.length : Int) - 1) * freq - (i : Int) * freq := by
          rw [show ((ts.length - 1 - i : Nat) : Int) = (ts.length : Int) - 1 - (i : Int) by omega]
          ring
        rw [show r.1 - (a.1 + (i : Int) * freq) = 0 by omega]
        exact dvd_zero _
      · subst hc
        obtain ⟨c, hc⟩ := hg.2 r (hr' ▸ List.getElem_mem hlt) a ha
        exact ⟨c - i, by push_cast; rw [show r.1 - (a.1 + (i : Int) * freq) =
          freq * c - (i : Int) * freq by omega]; ring⟩
    · intro h1 h2
      rcases hc with h | h
      · exact absurd h h1
      · exact absurd h h2
  · rw [if_neg hc, if_neg (by decide)]
    obtain ⟨all, hall⟩ : ∃ all, all = gmMerge (gmGrid a.1 b.1 freq) ts := ⟨_, rfl⟩
    rw [← hall]
    have hall' := hall
    rw [gmMerge_eq ts hg.1] at hall
    obtain ⟨fl, hfl⟩ : ∃ fl, fl = gmFilters s (all.map fun r => r.2.isNone) := ⟨_, rfl⟩
    have hlen : all.length = fl.length := by rw [hfl, gmFilters_length, List.length_map]
    have hsorted : all.Pairwise (fun x y => x.1 < y.1) := by
      rw [hall, List.pairwise_map]
      exact gmGrid_sorted a.1 b.1 freq hf
    rw [← hfl]
    refine ⟨_, rfl, hsorted.sublist (gmKeep_sublist _ _), ?_, ?_, ?_, ?_⟩
    · rw [gmKeep_filter _ all fl hlen]
      · apply gmRows_unique
        · exact hsorted.sublist List.filter_sublist
        · exact hg.1.sublist List.filter_sublist
        · rintro ⟨t, v⟩
          rw [List.mem_filter, List.mem_filter, hall, List.mem_map]
          constructor
          · rintro ⟨⟨t', _, h2⟩, h3⟩
            rw [Prod.mk.injEq] at h2
            obtain ⟨rfl, h2⟩ := h2
            cases v with
            | none => simp at h3
            | some v => exact ⟨(gmValueAt_some ts hg.1 _ v).mp h2, rfl⟩
          · rintro ⟨h1, h2⟩
            cases v with
            | none => simp at h2
            | some v =>
              exact ⟨⟨t, (gmGrid_mem _ _ _ _ hf).mpr ⟨hfa _ h1, hla _ h1, hg.2 _ h1 a ha⟩,
                by rw [(gmValueAt_some ts hg.1 t v).mpr h1]⟩, rfl⟩
      · intro k x h1 h2
        rw [hfl]
        apply filters_keep_values s hs
        rw [List.getElem?_map, h1]
        cases hx : x.2 <;> simp_all
    · intro r hr
      have := (gmKeep_sublist all fl).subset hr
      rw [hall, List.mem_map] at this
      obtain ⟨t, ht, rfl⟩ := this
      have := (gmGrid_mem _ _ _ _ hf).mp ht
      exact ⟨this.1, this.2.1⟩
    · intro i r hr
      obtain ⟨k, h1, h2, h3⟩ := gmKeep_get all fl i r hlen hr
      rw [hfl] at h2
      obtain ⟨d, hd⟩ := filters_phase s hs _ k h2
      rw [← hfl] at hd
      rw [hall, List.getElem?_map] at h1
      rcases h4 : (gmGrid a.1 b.1 freq)[k]? with _ | t
      · rw [h4] at h1; simp at h1
      · rw [h4] at h1
        have h5 := gmGrid_get _ _ _ _ _ h4
        simp only [Option.map_some, Option.some.injEq] at h1
        rw [← h1]
        refine ⟨(d : Int), ?_⟩
        show t - (a.1 + (i : Int) * freq) = _
        rw [h5, h3, hd]
        push_cast
        ring
    · intro _ _ i hi
      obtain ⟨k, h1, h2, h3⟩ := filters_windows s hs (all.map fun r => r.2.isNone) i (by
        rw [← hfl, ← gmKeep_map, List.length_map]; exact hi)
      rw [← hfl, ← gmKeep_map, List.getElem?_map] at h3
      rcases h4 : (gmKeep all fl)[k]? with _ | r
      · rw [h4] at h3; simp at h3
      · rw [h4] at h3
        refine ⟨k, h1, h2, r, h4, ?_⟩
        simp only [Option.map_some, Option.some.injEq] at h3
        intro hn; rw [hn] at h3; simp at h3

/-- Days 0, 1, 5, 6 with period 2: day 2 is missing, days 3 and 4 are left out. -/
example : (gmFill "time" [(0, some 1), (1, some 2), (5, some 3), (6, some 4)] 2 1).toOption =
    some [(0, some 1), (1, some 2), (2, none), (5, some 3), (6, some 4)] ∧
    GmOnGrid [(0, some 1), (1, some 2), (5, some 3), (6, some 4)] 1 := by
  refine ⟨by decide +kernel, by simp, ?_⟩
  intro r _ a _
  exact one_dvd _

/-- C135 violated: a value whose time is not a whole number of steps after the first one is lost. -/
theorem C135_offgrid_violated :
    ∃ (ts : GmTs) (out : GmTs), gmFill "time" ts 2 10 = .ok out ∧ ts.Pairwise (fun a b => a.1 < b.1) ∧
      ts.filter (fun r => r.2.isSome) = ts ∧ out.filter (fun r => r.2.isSome) ≠ ts :=
  ⟨[(0, some 1), (10, some 2), (25, some 3), (40, some 4)], _, rfl, by simp, by decide +kernel,
    by decide +kernel⟩

/-- C135 violated: the time column has to be called `time` as soon as there is a gap. -/
theorem C135_name_violated (col : String) (hcol : col ≠ "time") (ts : GmTs) (s : Nat) (freq : Int)
    (a b : Int × Option Rat) (ha : ts.head? = some a) (hb : ts.getLast? = some b)
    (hgap : ((ts.length : Int) - 1) * freq ≠ b.1 - a.1) (hs : s ≠ 1) :
    gmFill col ts s freq = .error .attributeError := by
  unfold gmFill
  rw [ha, hb]
  simp only []
  rw [if_neg (by rintro (h | h); exacts [hgap h, hs h]), if_pos hcol]

example : (3 - 1 : Int) * 1 ≠ 3 - 0 ∧ ("ds" ≠ "time") := by decide

/-- C135 violated: whole periods of missing values stay if their rows were there. -/
theorem C135_nan_rows_violated :
    ∃ (ts ts' : GmTs) (out out' : GmTs), ts.filter (fun r => r.2.isSome) = ts' ∧
      gmFill "time" ts 2 1 = .ok out ∧ gmFill "time" ts' 2 1 = .ok out' ∧
      out.length = 5 ∧ out'.length = 3 :=
  ⟨[(0, some 1), (1, none), (2, none), (3, none), (4, some 2)], [(0, some 1), (4, some 2)], _, _,
    by decide +kernel, rfl, rfl, by decide +kernel, by decide +kernel⟩

end Kats

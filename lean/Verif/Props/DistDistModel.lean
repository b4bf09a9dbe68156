import Verif.Model.DistDist
import Mathlib.Data.List.GetD
import Mathlib.Tactic.Linarith
import Mathlib.Tactic.NormNum

/-!
# Distribution distance model: C99, C37
-/

namespace Kats

/-- Padding the scores of the rows from `start` on with zeros scores every row. -/
theorem pad_scores {α S : Type} [Zero S] (key : α → Int) (g : α → S) (start : Int) (l : List α)
    (hl : (l.map key).Pairwise (· < ·)) :
    List.replicate (l.length - ((l.filter fun r => decide (start ≤ key r)).map g).length) 0 ++
        (l.filter fun r => decide (start ≤ key r)).map g =
      l.map fun r => if start ≤ key r then g r else 0 := by
  induction l with
  | nil => rfl
  | cons a l ih =>
    rw [List.map_cons, List.pairwise_cons] at hl
    by_cases h : start ≤ key a
    · have hall : ∀ r ∈ l, start ≤ key r := by
        intro r hr
        have := hl.1 (key r) (List.mem_map.2 ⟨r, hr, rfl⟩)
        omega
      have hf : (a :: l).filter (fun r => decide (start ≤ key r)) = a :: l := by
        rw [List.filter_eq_self]
        intro r hr
        rcases List.mem_cons.1 hr with rfl | hr
        · simpa using h
        · simpa using hall r hr
      rw [hf, List.length_map, Nat.sub_self, List.replicate_zero, List.nil_append]
      apply List.map_congr_left
      intro r hr
      rcases List.mem_cons.1 hr with rfl | hr
      · rw [if_pos h]
      · rw [if_pos (hall r hr)]
    · rw [List.filter_cons_of_neg (by simpa using h), List.map_cons, if_neg h, ← ih hl.2, ← List.cons_append,
        ← List.replicate_succ]
      congr 2
      rw [List.length_map, List.length_cons]
      have := List.length_filter_le (fun r => decide (start ≤ key r)) l
      omega

theorem ddRefs_getElem (w : Int) (total : List DDRow) (i : Nat) (h : i < total.length) :
    (ddRefs w total)[i]? = some (total[i], ddRef w (total.take (i + 1)) total[i].1) := by
  unfold ddRefs
  rw [List.getElem?_map, List.getElem?_range h, Option.map_some, List.getD_eq_getElem _ _ h]

/-- What the reference of a row is. -/
theorem ddRef_spec (w : Int) (hw : 0 ≤ w) (total : List DDRow) (hs : (total.map (·.1)).Pairwise (· < ·)) (i : Nat)
    (h : i < total.length) :
    (∃ r ∈ total, total[i].1 - w ≤ r.1 ∧ 10 * (total[i].1 - r.1) > 9 * w ∧
        (∀ r' ∈ total, total[i].1 - w ≤ r'.1 → r.1 ≤ r'.1) ∧
        ddRef w (total.take (i + 1)) total[i].1 = some r.2) ∨
      ((∀ r ∈ total, total[i].1 - w ≤ r.1 → ¬ 10 * (total[i].1 - r.1) > 9 * w) ∧
        ddRef w (total.take (i + 1)) total[i].1 = none) := by
  have hmono : ∀ a b (ha : a < total.length) (hb : b < total.length), a < b → total[a].1 < total[b].1 := by
    intro a b ha hb hab
    have := List.pairwise_iff_getElem.1 hs a b (by simpa using ha) (by simpa using hb) hab
    simpa using this
  unfold ddRef
  cases hf : (total.take (i + 1)).find? fun r => decide (total[i].1 - w ≤ r.1) with
  | none =>
    rw [List.find?_eq_none] at hf
    have := hf total[i] (by
      rw [List.mem_take_iff_getElem]
      exact ⟨i, by omega, rfl⟩)
    simp at this
    omega
  | some r =>
    rw [List.find?_eq_some_iff_getElem] at hf
    obtain ⟨hp, k, hk, e, hlt⟩ := hf
    have hk' : k ≤ i ∧ k < total.length := by
      rw [List.length_take] at hk
      omega
    have hr : r = total[k] := by rw [← e, List.getElem_take]
    have hmin : ∀ r' ∈ total, total[i].1 - w ≤ r'.1 → r.1 ≤ r'.1 := by
      intro r' hr' hle
      obtain ⟨j, hj, rfl⟩ := List.getElem_of_mem hr'
      rcases Nat.lt_or_ge j k with h1 | h1
      · have := hlt j h1
        rw [List.getElem_take] at this
        simp at this
        omega
      · rcases Nat.lt_or_ge k j with h2 | h2
        · have := hmono k j hk'.2 hj h2
          rw [hr]
          omega
        · obtain rfl : j = k := by omega
          rw [hr]
    have hp' : total[i].1 - w ≤ r.1 := by simpa using hp
    by_cases hc : 10 * (total[i].1 - r.1) > 9 * w
    · left
      refine ⟨r, ?_, hp', hc, hmin, ?_⟩
      · rw [hr]; exact List.getElem_mem _
      · simp only [if_pos hc]
    · right
      refine ⟨?_, by simp only [if_neg hc]⟩
      intro r' hr' hle hgt
      have := hmin r' hr' hle
      omega

/-- C99: when the times of history and data increase, every time of the data gets a score; it is the
distance between the values at that time and those of the earliest point at most a window before it, if
that point is more than 0.9 windows before it, and zero if there is no such point. -/
theorem C99_scores {S : Type} [Zero S] (m : DDModel) (hw : 0 ≤ m.window) (dist : List Rat → List Rat → S)
    (data hist : List DDRow) (hs : ((hist ++ data).map (·.1)).Pairwise (· < ·)) (res : List (Int × S))
    (h : ddFitPredict m dist data (some hist) false true = .ok res) :
    res.length = data.length ∧ ∀ i (hi : i < data.length), ∃ s, res[i]? = some (data[i].1, s) ∧
      ((∃ r ∈ hist ++ data, data[i].1 - m.window ≤ r.1 ∧ 10 * (data[i].1 - r.1) > 9 * m.window ∧
          (∀ r' ∈ hist ++ data, data[i].1 - m.window ≤ r'.1 → r.1 ≤ r'.1) ∧ s = dist r.2 data[i].2) ∨
        ((∀ r ∈ hist ++ data, data[i].1 - m.window ≤ r.1 → ¬ 10 * (data[i].1 - r.1) > 9 * m.window) ∧ s = 0)) := by
  unfold ddFitPredict at h
  simp only [Bool.false_eq_true, if_false, Bool.not_true] at h
  set total := hist ++ data with htot
  cases hl : total.getLast? with
  | none => rw [hl] at h; simp at h
  | some l =>
  cases hf : total.head? with
  | none => rw [hl, hf] at h; simp at h
  | some f =>
  cases hd : data.head? with
  | none => rw [hl, hf, hd] at h; simp at h
  | some d0 =>
  rw [hl, hf, hd] at h
  simp only at h
  split_ifs at h with h1 h2 h3
  cases hr : (ddRefs m.window total).find? fun r => r.2.isSome with
  | none => rw [hr] at h; simp at h
  | some r0 =>
  rw [hr] at h
  simp only at h
  set start := max r0.1.1 d0.1 with hstart
  split_ifs at h with h4 h5
  obtain rfl := (Except.ok.inj h)
  -- the rows of the data
  set refsD := (List.range data.length).map fun i =>
    (data.getD i (0, []), ddRef m.window (total.take (hist.length + i + 1)) (data.getD i (0, [])).1) with hrefsD
  set refsH := (List.range hist.length).map fun i =>
    (hist.getD i (0, []), ddRef m.window (total.take (i + 1)) (hist.getD i (0, [])).1) with hrefsH
  have hsplit : ddRefs m.window total = refsH ++ refsD := by
    unfold ddRefs
    rw [htot, List.length_append, List.range_add, List.map_append, List.map_map]
    congr 1
    · apply List.map_congr_left
      intro i hi
      rw [List.mem_range] at hi
      rw [List.getD_append _ _ _ _ hi]
    · apply List.map_congr_left
      intro i hi
      simp only [Function.comp]
      rw [List.getD_append_right _ _ _ _ (by omega), Nat.add_sub_cancel_left]
  have hpw := hs
  rw [htot, List.map_append, List.pairwise_append] at hpw
  have hd0 : d0 ∈ data := List.mem_of_mem_head? hd
  have hH : refsH.filter (fun r => decide (start ≤ r.1.1)) = [] := by
    rw [List.filter_eq_nil_iff]
    intro r hr
    obtain ⟨i, hi, rfl⟩ := List.mem_map.1 hr
    rw [List.mem_range] at hi
    simp only [decide_eq_true_eq, List.getD_eq_getElem _ _ hi]
    have := hpw.2.2 hist[i].1 (List.mem_map.2 ⟨_, List.getElem_mem hi, rfl⟩) d0.1
      (List.mem_map.2 ⟨_, hd0, rfl⟩)
    have := le_max_right r0.1.1 d0.1
    omega
  have hD : refsD.map (fun r => r.1) = data := by
    apply List.ext_getElem
    · simp [hrefsD]
    · intro i h1 h2
      simp [hrefsD, h2]
  have hDlen : refsD.length = data.length := by simp [hrefsD]
  have hDsorted : (refsD.map fun r => r.1.1).Pairwise (· < ·) := by
    have : (refsD.map fun r => r.1.1) = data.map (·.1) := by
      have h9 : (refsD.map fun r => r.1.1) = (refsD.map fun r => r.1).map (·.1) := (List.map_map ..).symm
      rw [h9, hD]
    rw [this]
    exact hpw.2.1
  have hpad := pad_scores (S := S) (fun r : DDRow × Option (List Rat) => r.1.1)
    (fun r => dist (r.2.getD []) r.1.2) start refsD hDsorted
  rw [hDlen] at hpad
  rw [hsplit, List.filter_append, hH, List.nil_append] at h4 ⊢
  rw [hpad]
  refine ⟨by simp [hDlen], ?_⟩
  intro i hi
  have hDi : refsD[i]? = some (data[i], ddRef m.window (total.take (hist.length + i + 1)) data[i].1) := by
    simp [hrefsD, hi]
  refine ⟨if start ≤ data[i].1 then
    dist ((ddRef m.window (total.take (hist.length + i + 1)) data[i].1).getD []) data[i].2 else 0, ?_, ?_⟩
  · have : ((refsD.map fun r => if start ≤ r.1.1 then dist (r.2.getD []) r.1.2 else 0))[i]? =
        some (if start ≤ data[i].1 then
          dist ((ddRef m.window (total.take (hist.length + i + 1)) data[i].1).getD []) data[i].2 else 0) := by
      rw [List.getElem?_map, hDi, Option.map_some]
    have h2 : (data.map (·.1))[i]? = some data[i].1 := by simp [hi]
    exact List.getElem?_zip_eq_some.2 ⟨h2, this⟩
  · have hlen : hist.length + i < total.length := by rw [htot, List.length_append]; omega
    have hti : total[hist.length + i] = data[i] := by simp [htot]
    have hspec := ddRef_spec m.window hw total hs (hist.length + i) hlen
    rw [hti] at hspec
    rcases hspec with ⟨r, hr1, hr2, hr3, hr4, hr5⟩ | ⟨hn1, hn2⟩
    · left
      refine ⟨r, hr1, hr2, hr3, hr4, ?_⟩
      rw [hr5, if_pos]
      · rfl
      -- the first row with a reference is not later
      have hd0le : d0.1 ≤ data[i].1 := by
        obtain ⟨d1, ds, e⟩ : ∃ d1 ds, data = d1 :: ds := by
          cases data with
          | nil => simp at hd
          | cons d1 ds => exact ⟨d1, ds, rfl⟩
        subst e
        simp only [List.head?_cons, Option.some.injEq] at hd
        subst hd
        cases i with
        | zero => simp
        | succ i =>
          have h9 := hpw.2.1
          rw [List.map_cons, List.pairwise_cons] at h9
          have := h9.1
          simp only [List.getElem_cons_succ]
          exact (this _ (List.mem_map.2 ⟨_, List.getElem_mem _, rfl⟩)).le
      have hr0le : r0.1.1 ≤ data[i].1 := by
        rw [List.find?_eq_some_iff_getElem] at hr
        obtain ⟨-, k, hk, e, hlt⟩ := hr
        have hkt : k < total.length := by simpa [ddRefs] using hk
        have hge := ddRefs_getElem m.window total k hkt
        rw [List.getElem?_eq_getElem hk, Option.some.injEq] at hge
        rw [e] at hge
        rw [hge]
        rcases Nat.lt_or_ge (hist.length + i) k with h | h
        · exfalso
          have h6 := hlt _ h
          have h7 := ddRefs_getElem m.window total _ hlen
          rw [List.getElem?_eq_getElem (by omega), Option.some.injEq] at h7
          rw [h7, hti, hr5] at h6
          simp at h6
        · rcases Nat.lt_or_ge k (hist.length + i) with h8 | h8
          · have := List.pairwise_iff_getElem.1 hs k (hist.length + i) (by simpa using hkt) (by simpa using hlen) h8
            simp only [List.getElem_map, hti] at this
            exact this.le
          · obtain rfl : k = hist.length + i := by omega
            simp only [hti]
            exact le_rfl
      rw [hstart]
      exact max_le hr0le hd0le
    · right
      refine ⟨hn1, ?_⟩
      by_cases hc : start ≤ data[i].1
      · exfalso
        apply h4
        rw [List.any_eq_true]
        refine ⟨_, List.mem_filter.2 ⟨List.mem_of_getElem? hDi, by simpa using hc⟩, ?_⟩
        rw [hn2]
        rfl
      · rw [if_neg hc]

example : ddFitPredict ⟨10, "euclidean", 2, false⟩ (fun a b => (a.sum - b.sum : Rat)) [(20, [5, 6]), (30, [7, 9])]
    (some [(0, [1, 1]), (10, [2, 3])]) false true = .ok [(20, -6), (30, -5)] := by decide +kernel

/-- C99, without history: the same, with the data as its own history. -/
theorem C99_no_history {S : Type} [Zero S] (m : DDModel) (dist : List Rat → List Rat → S) (data : List DDRow)
    (uni dimOk : Bool) :
    ddFitPredict m dist data none uni dimOk = ddFitPredict m dist data (some []) uni dimOk := rfl

/-- C99 is violated if the history ends with the time at which the data begin: two rows have that time, and
the scores no longer fit the data. -/
theorem C99_overlap_violated :
    ddFitPredict ⟨10, "euclidean", 2, false⟩ (fun a b => (a.sum - b.sum : Rat)) [(10, [5, 6]), (20, [7, 9])]
      (some [(0, [1, 1]), (10, [2, 3])]) false true = .error .valueError := by decide +kernel

/-- C99 is violated for irregular data: one point whose predecessor is missing makes the whole call fail,
also for the points that could be scored. -/
theorem C99_gap_violated :
    ddFitPredict ⟨10, "euclidean", 2, false⟩ (fun a b => (a.sum - b.sum : Rat)) [(20, [5, 6]), (35, [7, 9]), (45, [1, 1])]
      (some [(0, [1, 1]), (10, [2, 3])]) false true = .error .otherError := by decide +kernel

/-- C37 for `DistributionDistanceModel`: a model restored from its serialised form has all its attributes,
whatever arguments the constructor gets. -/
theorem C37_distribution (m : DDModel) (window : Int) (metric : String) (base : Rat) (mono : Option Bool) :
    DDModel.init window (some m.serialize) metric base mono = .ok m := rfl

/-- A new model has a known metric, a base of at least two, and monotonic rows are required for the Jensen-Shannon
distance. -/
theorem C98_model (window : Int) (metric : String) (base : Rat) (mono : Option Bool) (m : DDModel)
    (h : DDModel.init window none metric base mono = .ok m) :
    m.window = window ∧ m.metric = metric ∧ m.metric ∈ ddMetrics ∧ 2 ≤ m.base ∧ base ≤ m.base ∧
      (m.base = 2 ∨ m.base = base) ∧ (metric = "jensenshannon" → m.monotonic = true) := by
  unfold DDModel.init at h
  dsimp only at h
  by_cases h1 : metric ∈ ddMetrics
  · rw [if_neg (by simpa using h1)] at h
    rw [← Except.ok.inj h]
    refine ⟨rfl, rfl, h1, le_max_left _ _, le_max_right _ _, max_choice 2 base, ?_⟩
    intro e
    simp [e]
  · rw [if_pos h1] at h
    simp at h

example : ∃ m, DDModel.init 86400 none "jensenshannon" (3 / 2) = .ok m ∧ m.base = 2 ∧ m.monotonic = true := by
  refine ⟨⟨86400, "jensenshannon", 2, true⟩, ?_, rfl, rfl⟩
  decide +kernel

end Kats

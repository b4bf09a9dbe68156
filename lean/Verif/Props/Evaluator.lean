import Mathlib.Tactic.Linarith
import Mathlib.Tactic.NormNum
import Verif.Model.Evaluator

/-!
# C127: evaluation runs

`kats/evaluation/evaluator.py`, and `IntervalAnomaly` and `TSIterator` of `kats/consts.py`
-/

namespace Kats

variable {M : Type}

theorem evCheck_ok (runs : EvRuns M) (name : EvName) (b : Bool) (s : String) :
    evCheck runs name b = .ok s ↔ name = .str s ∧ (s ∈ runs.map Prod.fst ↔ b = true) := by
  unfold evCheck
  cases name with
  | other => simp
  | str t =>
    have h : (runs.any fun r => decide (r.1 = t)) = true ↔ t ∈ runs.map Prod.fst := by simp
    simp only [EvName.str.injEq]
    by_cases hb : b ≠ runs.any (fun r => decide (r.1 = t))
    · rw [if_pos hb]
      simp only [reduceCtorEq, false_iff, not_and]
      rintro rfl
      rw [← h]
      cases b <;> cases hr : runs.any (fun r => decide (r.1 = t)) <;> simp_all
    · rw [if_neg hb]
      simp only [Except.ok.injEq]
      constructor
      · rintro rfl
        refine ⟨rfl, ?_⟩
        rw [← h]
        cases b <;> cases hr : runs.any (fun r => decide (r.1 = t)) <;> simp_all
      · exact fun g => g.1

theorem evCheck_err (runs : EvRuns M) (name : EvName) (b : Bool) (e : Err) (h : evCheck runs name b = .error e) : e = .valueError := by
  unfold evCheck at h
  cases name with
  | other => cases h; rfl
  | str t =>
    simp only at h
    split_ifs at h
    cases h
    rfl

theorem lookup_of_mem (runs : EvRuns M) (s : String) (h : s ∈ runs.map Prod.fst) : ∃ r, runs.lookup s = some r ∧ (s, r) ∈ runs := by
  induction runs with
  | nil => simp at h
  | cons e runs ih =>
    obtain ⟨n, r⟩ := e
    rw [List.lookup_cons]
    by_cases hn : s = n
    · subst hn
      exact ⟨r, by simp, by simp⟩
    · have hb : (s == n) = false := by simpa using hn
      rw [hb]
      obtain ⟨r', h1, h2⟩ := ih (by simpa [hn] using h)
      exact ⟨r', h1, by simp [h2]⟩

theorem lookup_notMem (runs : EvRuns M) (s : String) (h : s ∉ runs.map Prod.fst) : runs.lookup s = none := by
  rw [List.lookup_eq_none_iff]
  intro p hp
  simp only [beq_iff_eq, bne_iff_ne, ne_eq]
  rintro rfl
  exact h (List.mem_map.mpr ⟨p, hp, rfl⟩)

theorem lookup_evPut (runs : EvRuns M) (s t : String) (r : EvRun M) :
    (evPut runs s r).lookup t = if t = s ∧ s ∈ runs.map Prod.fst then some r else runs.lookup t := by
  induction runs with
  | nil => simp [evPut]
  | cons e runs ih =>
    obtain ⟨n, u⟩ := e
    unfold evPut at ih ⊢
    by_cases hn : n = s
    · subst hn
      simp only [List.map_cons, if_true, List.lookup_cons, List.mem_cons, true_or, and_true]
      by_cases ht : t = n
      · simp [ht]
      · have : (t == n) = false := by simpa using ht
        simp only [this]
        rw [ih]
        simp [ht]
    · simp only [List.map_cons, if_neg hn, List.lookup_cons, List.mem_cons]
      by_cases ht : t = n
      · subst ht
        simp [hn]
      · have : (t == n) = false := by simpa using ht
        simp only [this]
        rw [ih]
        have h3 : ¬ s = n := fun e => hn e.symm
        have h4 : (s = n ∨ s ∈ runs.map Prod.fst) ↔ s ∈ runs.map Prod.fst := by simp [h3]
        simp only [h4]

/-- C127, the names of runs: a run is created if its name is a string that is not in use, and starts without predictions, labels and
results; it is deleted, and found, if its name is in use; otherwise a `ValueError` is raised and nothing changes.  Names are in use
once, and other runs are not touched. -/
theorem C127_names (runs : EvRuns M) (hnd : (runs.map Prod.fst).Nodup) (name : EvName) :
    (∀ s, name = .str s → s ∉ runs.map Prod.fst →
      ∃ runs', evCreate runs name = (runs', none) ∧ (runs'.map Prod.fst).Nodup ∧ evGet runs' name = .ok {} ∧ ∀ t, t ≠ s → runs'.lookup t = runs.lookup t)
    ∧ ((name = .other ∨ ∃ s, name = .str s ∧ s ∈ runs.map Prod.fst) → evCreate runs name = (runs, some .valueError))
    ∧ (∀ s, name = .str s → s ∈ runs.map Prod.fst →
      (∃ r, evGet runs name = .ok r ∧ (s, r) ∈ runs)
      ∧ ∃ runs', evDelete runs name = (runs', none) ∧ (runs'.map Prod.fst).Nodup ∧ s ∉ runs'.map Prod.fst ∧ ∀ t, t ≠ s → runs'.lookup t = runs.lookup t)
    ∧ ((name = .other ∨ ∃ s, name = .str s ∧ s ∉ runs.map Prod.fst) →
      evDelete runs name = (runs, some .valueError) ∧ evGet runs name = .error .valueError) := by
  have herr : ∀ b, (¬ ∃ s, name = .str s ∧ (s ∈ runs.map Prod.fst ↔ b = true)) → evCheck runs name b = .error .valueError := by
    intro b h
    cases hc : evCheck runs name b with
    | ok s => exact absurd ⟨s, (evCheck_ok runs name b s).mp hc⟩ h
    | error e => rw [evCheck_err _ _ _ _ hc]
  refine ⟨?_, ?_, ?_, ?_⟩
  · rintro s rfl hs
    have h1 := (evCheck_ok runs (.str s) false s).mpr ⟨rfl, by simpa using hs⟩
    have hlk : (runs ++ [(s, ({} : EvRun M))]).lookup s = some {} := by
      rw [List.lookup_append, lookup_notMem runs s hs]
      simp
    refine ⟨runs ++ [(s, ({} : EvRun M))], by unfold evCreate; rw [h1], ?_, ?_, ?_⟩
    · rw [List.map_append, List.nodup_append]
      refine ⟨hnd, by simp, ?_⟩
      intro a ha b hb e
      simp only [List.map_cons, List.map_nil, List.mem_singleton] at hb
      exact hs (hb ▸ e ▸ ha)
    · unfold evGet
      rw [(evCheck_ok _ (.str s) true s).mpr ⟨rfl, by simp⟩]
      simp only
      rw [hlk]
    · intro t ht
      rw [List.lookup_append]
      have : (t == s) = false := by simpa using ht
      simp [List.lookup_cons, this]
  · intro h
    unfold evCreate
    rw [herr false]
    rintro ⟨s, e, g⟩
    rcases h with rfl | ⟨t, rfl, ht⟩
    · cases e
    · cases e
      simp only [Bool.false_eq_true, iff_false] at g
      exact g ht
  · rintro s rfl hs
    have h1 := (evCheck_ok runs (.str s) true s).mpr ⟨rfl, by simpa using hs⟩
    refine ⟨?_, ?_⟩
    · obtain ⟨r, h2, h3⟩ := lookup_of_mem runs s hs
      exact ⟨r, by unfold evGet; rw [h1]; simp only; rw [h2], h3⟩
    · refine ⟨runs.filter (fun r => r.1 ≠ s), by unfold evDelete; rw [h1], ?_, ?_, ?_⟩
      · exact hnd.sublist (List.filter_sublist.map _)
      · simp
      · intro t ht
        clear h1 hs hnd herr
        induction runs with
        | nil => rfl
        | cons e runs ih =>
          obtain ⟨n, r⟩ := e
          by_cases hn : n = s
          · subst hn
            have : (t == n) = false := by simpa using ht
            rw [List.filter_cons_of_neg (by simp), ih, List.lookup_cons, this]
          · rw [List.filter_cons_of_pos (by simpa using hn), List.lookup_cons, List.lookup_cons, ih]
  · intro h
    have : evCheck runs name true = .error .valueError := by
      apply herr
      rintro ⟨s, e, g⟩
      rcases h with rfl | ⟨t, rfl, ht⟩
      · cases e
      · cases e
        simp only [iff_true] at g
        exact ht g
    unfold evDelete evGet
    rw [this]
    exact ⟨rfl, rfl⟩

example : evCreate [("a", ({} : EvRun ℚ))] (.str "a") = ([("a", {})], some .valueError) ∧ (evCreate [("a", ({} : EvRun ℚ))] (.str "b")).2 = none := by
  refine ⟨(C127_names _ (by simp) _).2.1 (.inr ⟨"a", rfl, by simp⟩), ?_⟩
  obtain ⟨r, h, -⟩ := (C127_names [("a", ({} : EvRun ℚ))] (by simp) (.str "b")).1 "b" rfl (by simp)
  rw [h]

theorem evMetrics_ok (p l : List ℚ) (fs : List (String × (List ℚ → List ℚ → Except Err M))) (t : List (String × M)) :
    evMetrics p l fs = .ok t ↔ List.Forall₂ (fun f r => r.1 = f.1 ∧ f.2 p l = .ok r.2) fs t := by
  induction fs generalizing t with
  | nil =>
    cases t with
    | nil => simp [evMetrics]
    | cons r t => exact ⟨fun h => (by cases h), fun h => (by cases h)⟩
  | cons f fs ih =>
    obtain ⟨n, f⟩ := f
    unfold evMetrics
    cases hf : f p l with
    | error e =>
      cases t with
      | nil => cases e <;> exact ⟨fun h => (by cases h), fun h => (by cases h)⟩
      | cons r t => cases e <;> simp [hf]
    | ok v =>
      simp only [bind, Except.bind, pure, Except.pure]
      cases t with
      | nil =>
        cases evMetrics p l fs <;> exact ⟨fun h => (by cases h), fun h => (by cases h)⟩
      | cons r t =>
        rw [List.forall₂_cons, ← ih t]
        cases hm : evMetrics p l fs with
        | error e => simp
        | ok t' =>
          simp only [Except.ok.injEq, List.cons.injEq, hf]
          constructor
          · rintro ⟨rfl, rfl⟩
            exact ⟨⟨rfl, rfl⟩, rfl⟩
          · rintro ⟨⟨h1, h2⟩, rfl⟩
            exact ⟨by rw [h2, ← h1], rfl⟩

/-- C127, evaluation: for a run with predictions and labels of the same length, all metrics of which succeed, the results are the
metrics of predictions and labels under their names, in order; labels and results are kept in the run; predictions and other runs
stay. -/
theorem C127_evaluate_partial (runs : EvRuns M) (s : String) (r : EvRun M) (hr : runs.lookup s = some r) (hs : s ∈ runs.map Prod.fst)
    (p l : List ℚ) (hp : r.preds = .arr p) (hl : p.length = l.length) (fs : List (String × (List ℚ → List ℚ → Except Err M)))
    (t : List (String × M)) (ht : List.Forall₂ (fun f r => r.1 = f.1 ∧ f.2 p l = .ok r.2) fs t) :
    ∃ runs', evEvaluate runs (.str s) fs (.arr l) = (runs', .ok t)
      ∧ runs'.lookup s = some ⟨.arr p, .arr l, some t⟩ ∧ ∀ u, u ≠ s → runs'.lookup u = runs.lookup u := by
  refine ⟨evPut runs s { r with labels := .arr l, results := some t }, ?_, ?_, ?_⟩
  · unfold evEvaluate
    rw [(evCheck_ok runs (.str s) true s).mpr ⟨rfl, by simpa using hs⟩]
    simp only
    rw [hr]
    simp only
    rw [hp]
    simp only
    rw [if_neg (by simpa using hl), (evMetrics_ok p l fs t).mpr ht]
  · rw [lookup_evPut, if_pos ⟨rfl, hs⟩, ← hp]
  · intro u hu
    rw [lookup_evPut, if_neg (fun h => hu h.1)]

/-- C127, evaluation that is refused: without predictions, with labels that are no array, and for unknown names, a `ValueError` is
raised and nothing changes. -/
theorem C127_refused (runs : EvRuns M) (name : EvName) (labels : EvArr) (fs : List (String × (List ℚ → List ℚ → Except Err M)))
    (h : name = .other ∨ (∃ s, name = .str s ∧ (s ∉ runs.map Prod.fst ∨ ∃ r, runs.lookup s = some r ∧ (r.preds = .scalar ∨ labels = .scalar)))) :
    evEvaluate runs name fs labels = (runs, .error .valueError) := by
  unfold evEvaluate
  cases hc : evCheck runs name true with
  | error e =>
    rw [evCheck_err _ _ _ _ hc]
  | ok s =>
    obtain ⟨rfl, h2⟩ := (evCheck_ok runs name true s).mp hc
    rcases h with h | ⟨t, ht, h | ⟨r, h3, h4⟩⟩
    · cases h
    · cases ht
      simp only [iff_true] at h2
      exact absurd h2 h
    · cases ht
      simp only
      rw [h3]
      simp only
      cases hp : r.preds with
      | scalar => rfl
      | arr p =>
        rcases h4 with h4 | h4
        · rw [hp] at h4; cases h4
        · rw [h4]

/-- C127, evaluation that fails: for labels of another length, and if a metric raises, the labels have been replaced but the results
have not, so that they need not belong to the labels; only a `ValueError` of a metric is reported with the name of the metric,
and other exceptions pass. -/
theorem C127_failed_violated (runs : EvRuns M) (s : String) (r : EvRun M) (hr : runs.lookup s = some r) (hs : s ∈ runs.map Prod.fst)
    (p l : List ℚ) (hp : r.preds = .arr p) (fs : List (String × (List ℚ → List ℚ → Except Err M))) :
    (p.length ≠ l.length → ∃ runs', evEvaluate runs (.str s) fs (.arr l) = (runs', .error .valueError)
      ∧ runs'.lookup s = some ⟨.arr p, .arr l, r.results⟩)
    ∧ (p.length = l.length → ∀ pre n f post e, fs = pre ++ (n, f) :: post → (∀ g ∈ pre, ∃ v, g.2 p l = .ok v) → f p l = .error e →
      ∃ runs', evEvaluate runs (.str s) fs (.arr l) = (runs', .error e) ∧ runs'.lookup s = some ⟨.arr p, .arr l, r.results⟩) := by
  have hlk : (evPut runs s { r with labels := .arr l }).lookup s = some ⟨.arr p, .arr l, r.results⟩ := by
    rw [lookup_evPut, if_pos ⟨rfl, hs⟩, ← hp]
  have hstart : evEvaluate runs (.str s) fs (.arr l) = if p.length ≠ l.length then (evPut runs s { r with labels := .arr l }, .error .valueError)
      else match evMetrics p l fs with
        | .error e => (evPut runs s { r with labels := .arr l }, .error e)
        | .ok t => (evPut runs s { r with labels := .arr l, results := some t }, .ok t) := by
    unfold evEvaluate
    rw [(evCheck_ok runs (.str s) true s).mpr ⟨rfl, by simpa using hs⟩]
    simp only
    rw [hr]
    simp only
    rw [hp]
    by_cases h : p.length ≠ l.length
    · simp only [if_pos h]
    · simp only [if_neg h]
      cases evMetrics p l fs <;> rfl
  refine ⟨?_, ?_⟩
  · intro h
    exact ⟨_, by rw [hstart, if_pos h], hlk⟩
  · intro h pre n f post e hfs hpre hf
    have hm : evMetrics p l fs = .error e := by
      subst hfs
      clear hstart
      induction pre with
      | nil =>
        simp only [List.nil_append]
        unfold evMetrics
        rw [hf]
        cases e <;> rfl
      | cons g pre ih =>
        obtain ⟨m, g⟩ := g
        obtain ⟨v, hv⟩ := hpre (m, g) (by simp)
        simp only [List.cons_append]
        unfold evMetrics
        simp only at hv
        rw [hv]
        simp only [bind, Except.bind]
        rw [ih fun g hg => hpre g (by simp [hg])]
    exact ⟨_, by rw [hstart, if_neg (by simpa using h), hm], hlk⟩

/-- A run with predictions and results. -/
def evRunEx : EvRun ℚ := ⟨.arr [1, 2], .arr [1, 4], some [("sum", 2)]⟩

example : ∃ runs', evEvaluate [("a", evRunEx)] (.str "a") [("sum", fun p l => .ok (l.sum - p.sum))] (.arr [5, 6]) = (runs', .ok [("sum", 8)]) := by
  obtain ⟨r, h, -⟩ := C127_evaluate_partial [("a", evRunEx)] "a" evRunEx rfl (by simp) [1, 2] [5, 6] rfl rfl
    [("sum", fun p l => .ok (l.sum - p.sum))] [("sum", 8)] (.cons ⟨rfl, by norm_num⟩ .nil)
  exact ⟨r, h⟩

example : ∃ runs', evEvaluate [("a", evRunEx)] (.str "a") [] (.arr [7]) = (runs', .error .valueError)
    ∧ runs'.lookup "a" = some ⟨.arr [1, 2], .arr [7], some [("sum", 2)]⟩ :=
  (C127_failed_violated [("a", evRunEx)] "a" evRunEx rfl (by simp) [1, 2] [7] rfl []).1 (by simp)

/-! ### `consts.py` -/

/-- C127, anomalous intervals: they end after they start, their confidence is between 0 and 1, and their length in seconds is positive;
all else raises a `ValueError`. -/
theorem C127_interval (start stop : ℚ) (c : Option ℚ) :
    ((∃ a, IvAnomaly.init start stop c = .ok a) ↔ start < stop ∧ ∀ x, c = some x → 0 ≤ x ∧ x ≤ 1)
    ∧ (∀ a, IvAnomaly.init start stop c = .ok a → a = ⟨start, stop, c⟩ ∧ 0 < a.secondLen ∧ a.start + a.secondLen = a.stop)
    ∧ ∀ e, IvAnomaly.init start stop c = .error e → e = .valueError := by
  unfold IvAnomaly.init
  by_cases h : stop ≤ start
  · rw [if_pos h]
    refine ⟨by simp [not_lt.mpr h], by simp, by simp⟩
  · rw [if_neg h]
    have hlt : start < stop := not_le.mp h
    have key : ∀ a : IvAnomaly, a = ⟨start, stop, c⟩ → 0 < a.secondLen ∧ a.start + a.secondLen = a.stop := by
      rintro a rfl
      unfold IvAnomaly.secondLen
      exact ⟨by simpa using hlt, add_sub_cancel _ _⟩
    cases c with
    | none =>
      refine ⟨by simp [hlt], ?_, by simp⟩
      intro a ha
      cases ha
      exact ⟨rfl, key _ rfl⟩
    | some x =>
      simp only
      by_cases hx : 0 ≤ x ∧ x ≤ 1
      · rw [if_pos hx]
        refine ⟨by simp [hlt, hx], ?_, by simp⟩
        intro a ha
        cases ha
        exact ⟨rfl, key _ rfl⟩
      · rw [if_neg hx]
        refine ⟨by simp only [reduceCtorEq, exists_false, Option.some.injEq, forall_eq', false_iff]; exact fun g => hx g.2, by simp, by simp⟩

example : IvAnomaly.init 5 5 none = .error .valueError := by
  cases h : IvAnomaly.init 5 5 none with
  | error e => rw [(C127_interval 5 5 none).2.2 e h]
  | ok a => exact absurd ((C127_interval 5 5 none).1.mp ⟨a, h⟩).1 (lt_irrefl _)

theorem toList_drop {V : Type} (ts : List (Int × V)) (k fuel : Nat) (hk : k ≤ ts.length) (hf : ts.length ≤ k + fuel) :
    TsIter.toList (fuel + 1) ⟨ts, k⟩ = ((ts.drop k).map fun p => [p], ⟨ts, ts.length⟩) := by
  induction fuel generalizing k with
  | zero =>
    have : k = ts.length := by omega
    subst this
    simp [TsIter.toList, TsIter.next]
  | succ fuel ih =>
    unfold TsIter.toList TsIter.next
    by_cases h : k < ts.length
    · simp only
      rw [List.getElem?_eq_getElem h]
      simp only
      rw [ih (k + 1) (by omega) (by omega), List.drop_eq_getElem_cons h]
      rfl
    · have : k = ts.length := by omega
      subst this
      simp

/-- C127, the iterator over the points of a series: one series of one point for each, in order, so that together they are the series;
after that it is exhausted, also for a second loop. -/
theorem C127_points {V : Type} (ts : List (Int × V)) :
    ∃ it, TsIter.toList (ts.length + 1) ⟨ts, 0⟩ = (ts.map fun p => [p], it) ∧ (ts.map fun p => [p]).flatten = ts
      ∧ it.next = (it, .error .stopIteration) := by
  refine ⟨⟨ts, ts.length⟩, ?_, ?_, ?_⟩
  · have := toList_drop ts 0 ts.length (by omega) (by omega)
    simpa using this
  · induction ts with
    | nil => rfl
    | cons p ts ih => simp [ih]
  · simp [TsIter.next]

example : (TsIter.toList 3 ⟨[(1, 'a'), (2, 'b')], 0⟩).1 = [[(1, 'a')], [(2, 'b')]] := rfl

end Kats

import Verif.Props.PercentageChange

/-!
# Theorems about the data and spikes of a `ChangePointInterval` (C76)
-/

namespace Kats

noncomputable section
open Classical

/-- C76 (data): after setting and extending, in any number of steps, the interval holds exactly the
points given whose time lies in `[start, end)`, in the order given. -/
theorem C76_data (c : CPInterval) (rows : List (Int × ℝ)) (more : List (List (Int × ℝ))) :
    (more.foldl CPInterval.extendData (c.setData rows)).df
      = some ((rows ++ more.flatten).filter fun r => c.start ≤ r.1 ∧ r.1 < c.stop) := by
  have hclip : ∀ (c : CPInterval) l, c.clip l = l.filter fun r => decide (c.start ≤ r.1 ∧ r.1 < c.stop) := by
    intro c l
    unfold CPInterval.clip
    apply List.filter_congr
    intro r _
    simp
  have gen : ∀ (c : CPInterval) (acc : List (Int × ℝ)), c.df = some (c.clip acc) →
      (more.foldl CPInterval.extendData c).df = some (c.clip (acc ++ more.flatten)) := by
    induction more with
    | nil => intro c acc h; simpa using h
    | cons m more ih =>
      intro c acc h
      rw [List.foldl_cons]
      have e : (c.extendData m).df = some ((c.extendData m).clip (acc ++ m)) := by
        unfold CPInterval.extendData
        rw [h]
        simp [CPInterval.clip]
      rw [ih (c.extendData m) (acc ++ m) e, List.flatten_cons, ← List.append_assoc]
      unfold CPInterval.extendData
      rw [h]
      rfl
  have := gen (c.setData rows) rows rfl
  rw [this, hclip]
  rfl

example : (([[(5, 1), (12, 2)]] : List (List (Int × ℝ))).foldl CPInterval.extendData
    (({ start := 0, stop := 10 } : CPInterval).setData [(1, 3)])).df = some [(1, 3), (5, 1)] := by
  rw [C76_data]
  simp

/-- The points at least `threshold` standard deviations above the mean. -/
def highPoints (threshold : ℝ) (rows : List (Int × ℝ)) : List (Int × ℝ) :=
  let v := rows.map (·.2)
  rows.filter fun r => mean v + threshold * Real.sqrt (sampleVar v) ≤ r.2

theorem detectSpikes_of (c : CPInterval) (rows : List (Int × ℝ)) (hd : c.df = some rows)
    (hv : 0 < sampleVar (rows.map (·.2))) :
    ∃ s, c.detectSpikes = .ok s ∧ s.map (fun k => (k.time, k.value)) = highPoints c.threshold rows
      ∧ ∀ k ∈ s, k.nSigma
        = .fin ((k.value - mean (rows.map (·.2))) / Real.sqrt (sampleVar (rows.map (·.2)))) := by
  have hdata : c.data = some (rows.map (·.2)) := by unfold CPInterval.data; rw [hd]; rfl
  have hne : rows.map (·.2) ≠ [] := by
    intro h
    rw [h] at hv
    norm_num [sampleVar, sqDev] at hv
  have hs := Real.sqrt_pos.2 hv
  have hz : ∀ x : ℝ, (Fl.fin x - c.meanVal) / Fl.sqrt c.varianceVal
      = .fin ((x - mean (rows.map (·.2))) / Real.sqrt (sampleVar (rows.map (·.2)))) := by
    intro x
    rw [meanVal_of c _ hdata hne, varianceVal_of c _ hdata hne, Fl.sqrt_fin _ hv.le, Fl.fin_sub,
      Fl.fin_div _ _ hs.ne']
  unfold CPInterval.detectSpikes
  rw [hd]
  simp only [hz]
  refine ⟨_, rfl, ?_, ?_⟩
  · rw [List.map_map]
    unfold highPoints
    have e : ((fun k : Spike => (k.time, k.value)) ∘ fun r : Int × ℝ =>
        ({ time := r.1, value := r.2, nSigma := .fin ((r.2 - mean (rows.map (·.2))) /
          Real.sqrt (sampleVar (rows.map (·.2)))) } : Spike)) = id := by
      funext r; rfl
    rw [e, List.map_id]
    apply List.filter_congr
    intro r _
    rw [Bool.eq_iff_iff, Bool.not_eq_true', decide_eq_true_iff, ← Bool.not_eq_true, Fl.lt_fin, not_lt,
      le_div_iff₀ hs]
    constructor <;> intro h <;> linarith
  · intro k hk
    obtain ⟨r, -, rfl⟩ := List.mem_map.1 hk
    rfl

/-- C76 (spikes): on data that are not constant, the first query of the spikes returns, in order,
exactly the points at least `spike_std_threshold` sample standard deviations above the mean, each
with its distance in standard deviations. -/
theorem C76_spikes_partial (c : CPInterval) (rows : List (Int × ℝ)) (hd : c.df = some rows)
    (hv : 0 < sampleVar (rows.map (·.2))) (hc : c.cache = none) :
    ∃ s c', c.spikes = .ok (s, c')
      ∧ s.map (fun k => (k.time, k.value)) = highPoints c.threshold rows
      ∧ ∀ k ∈ s, k.nSigma
        = .fin ((k.value - mean (rows.map (·.2))) / Real.sqrt (sampleVar (rows.map (·.2)))) := by
  obtain ⟨s, h1, h2, h3⟩ := detectSpikes_of c rows hd hv
  refine ⟨s, { c with cache := some s }, ?_, h2, h3⟩
  unfold CPInterval.spikes
  rw [hc, h1]
  rfl

theorem sum_filter_le (v : List ℝ) (m b : ℝ) (P : ℝ → Prop) (h : ∀ x ∈ v, P x → b ≤ (x - m) ^ 2) :
    ((v.filter fun x => decide (P x)).length : ℝ) * b ≤ sqDev v m := by
  unfold sqDev
  induction v with
  | nil => simp
  | cons x v ih =>
    have := ih (fun y hy => h y (List.mem_cons_of_mem _ hy))
    rw [List.filter_cons, List.map_cons, List.sum_cons]
    by_cases hx : P x
    · rw [if_pos (by simpa using hx)]
      have := h x (List.mem_cons_self ..) hx
      push_cast [List.length_cons]
      linarith
    · rw [if_neg (by simpa using hx)]
      nlinarith [sq_nonneg (x - m)]

/-- C76 (how many spikes there can be): with a non-negative threshold `k`, at most `(n-1)/k²` of the
`n` points are spikes. -/
theorem C76_count (c : CPInterval) (rows : List (Int × ℝ)) (hd : c.df = some rows)
    (hv : 0 < sampleVar (rows.map (·.2))) (hk : 0 ≤ c.threshold) (s : List Spike)
    (hs : c.detectSpikes = .ok s) :
    (s.length : ℝ) * c.threshold ^ 2 ≤ rows.length - 1 := by
  obtain ⟨s', h1, h2, -⟩ := detectSpikes_of c rows hd hv
  rw [hs] at h1
  injection h1 with h1
  subst h1
  have hne : rows.map (·.2) ≠ [] := by
    intro h
    rw [h] at hv
    norm_num [sampleVar, sqDev] at hv
  set v := rows.map (·.2) with hvdef
  have hlen : s.length = (v.filter fun x => decide (mean v + c.threshold * Real.sqrt (sampleVar v) ≤ x)).length := by
    have := congrArg List.length h2
    rw [List.length_map] at this
    rw [this]
    unfold highPoints
    simp only [← hvdef]
    generalize mean v + c.threshold * Real.sqrt (sampleVar v) = b
    rw [hvdef, List.filter_map, List.length_map]
    congr 1
  have key := sum_filter_le v (mean v) (c.threshold ^ 2 * sampleVar v)
    (fun x => mean v + c.threshold * Real.sqrt (sampleVar v) ≤ x) (by
      intro x _ hx
      have h1 : c.threshold * Real.sqrt (sampleVar v) ≤ x - mean v := by linarith
      have h0 : 0 ≤ c.threshold * Real.sqrt (sampleVar v) := mul_nonneg hk (Real.sqrt_nonneg _)
      calc c.threshold ^ 2 * sampleVar v = (c.threshold * Real.sqrt (sampleVar v)) ^ 2 := by
            rw [mul_pow, Real.sq_sqrt hv.le]
        _ ≤ _ := by nlinarith)
  rw [← hlen, ← sampleVar_mul v hne, ← mul_assoc] at key
  have := le_of_mul_le_mul_right key hv
  rwa [hvdef, List.length_map] at this

/-- C76 is violated by a second query: the spikes are remembered, so after `extend_data` (or a new
`data`) the answer is still that for the old data. -/
theorem C76_stale_violated (c : CPInterval) (s : List Spike) (c' : CPInterval)
    (h : c.spikes = .ok (s, c')) (rows : List (Int × ℝ)) :
    (c'.extendData rows).spikes = .ok (s, c'.extendData rows)
    ∧ (c'.setData rows).spikes = .ok (s, c'.setData rows) := by
  have hc : c'.cache = some s := by
    unfold CPInterval.spikes at h
    split at h
    · rename_i heq
      injection h with h
      injection h with h h'
      rw [← h', heq, h]
    · revert h
      simp only [bind, Except.bind, pure, Except.pure]
      split
      · simp
      · intro h
        injection h with h
        injection h with h h'
        rw [← h', h]
  constructor
  · unfold CPInterval.spikes CPInterval.extendData
    split
    · rename_i heq
      split at heq <;> simp_all
    · rename_i heq
      split at heq <;> simp_all
  · unfold CPInterval.spikes CPInterval.setData
    simp [hc]

/-- Non-constant data without remembered spikes exist. -/
example : ∃ (c : CPInterval) (rows : List (Int × ℝ)), c.df = some rows ∧
    0 < sampleVar (rows.map (·.2)) ∧ c.cache = none ∧ 0 ≤ c.threshold := by
  refine ⟨{ start := 0, stop := 9, df := some [(1, 3), (2, 5)] }, [(1, 3), (2, 5)], rfl, ?_, rfl, ?_⟩
  · norm_num [sampleVar, sqDev, mean]
  · norm_num

/-- The stale answer is wrong: a point added later far above the others is not reported. -/
example : ∃ (c : CPInterval) (s : List Spike) (c' : CPInterval), c.spikes = .ok (s, c') ∧
    s = [] := by
  let rows : List (Int × ℝ) := [(1, 3), (2, 5)]
  let c : CPInterval := { start := 0, stop := 9, df := some rows }
  have hv : 0 < sampleVar (rows.map (·.2)) := by norm_num [rows, sampleVar, sqDev, mean]
  obtain ⟨s, c', h1, h2, -⟩ := C76_spikes_partial c rows rfl hv rfl
  refine ⟨c, s, c', h1, ?_⟩
  have h3 : c.detectSpikes = .ok s := by
    revert h1
    simp only [CPInterval.spikes, c, bind, Except.bind, pure, Except.pure]
    split
    · simp
    · rename_i heq
      intro h; injection h with h; injection h with h _; rw [← h]; exact heq
  have := C76_count c rows rfl hv (by norm_num [c]) s h3
  norm_num [c, rows] at this
  rcases s with _ | ⟨k, s⟩
  · rfl
  · exfalso
    push_cast [List.length_cons] at this
    have : (0 : ℝ) ≤ s.length := Nat.cast_nonneg _
    linarith

end

end Kats

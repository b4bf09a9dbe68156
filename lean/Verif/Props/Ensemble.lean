import Verif.Model.Ensemble
import Verif.Props.Heuristic
import Mathlib.Algebra.Order.BigOperators.Group.List

/-!
# Theorems about the median and weighted-average ensembles (C44, C45)
-/

namespace Kats

/-! ## Dictionaries -/

theorem dictSet_map {K A B : Type} [DecidableEq K] (g : A → B) (d : List (K × A)) (k : K) (v : A) :
    dictSet (d.map fun e => (e.1, g e.2)) k (g v) = (dictSet d k v).map fun e => (e.1, g e.2) := by
  unfold dictSet
  rw [List.any_map]
  have : ((fun e : K × B => decide (e.1 = k)) ∘ fun e : K × A => (e.1, g e.2))
      = fun e : K × A => decide (e.1 = k) := rfl
  rw [this]
  split_ifs with h
  · rw [List.map_map, List.map_map]
    apply List.map_congr_left
    intro e _
    simp only [Function.comp_apply]
    split_ifs <;> rfl
  · simp

theorem dictOf_map {K A B : Type} [DecidableEq K] (g : A → B) (l : List (K × A)) :
    dictOf (l.map fun e => (e.1, g e.2)) = (dictOf l).map fun e => (e.1, g e.2) := by
  unfold dictOf
  suffices h : ∀ d : List (K × A),
      (l.map fun e => (e.1, g e.2)).foldl (fun d e => dictSet d e.1 e.2) (d.map fun e => (e.1, g e.2))
        = (l.foldl (fun d e => dictSet d e.1 e.2) d).map fun e => (e.1, g e.2) from h []
  induction l with
  | nil => intro d; rfl
  | cons x l ih =>
    intro d
    rw [List.map_cons, List.foldl_cons, List.foldl_cons, dictSet_map]
    exact ih _

theorem dictSet_new {K A : Type} [DecidableEq K] {d : List (K × A)} {k : K} {v : A}
    (h : k ∉ d.map (·.1)) : dictSet d k v = d ++ [(k, v)] := by
  unfold dictSet
  rw [if_neg]
  rw [List.any_eq_true]
  rintro ⟨e, he, hk⟩
  exact h (List.mem_map.2 ⟨e, he, by simpa using hk⟩)

/-- Distinct keys: the dictionary is the list. -/
theorem dictOf_nodup {K A : Type} [DecidableEq K] (l : List (K × A)) (h : (l.map (·.1)).Nodup) :
    dictOf l = l := by
  unfold dictOf
  suffices hs : ∀ d : List (K × A), ((d ++ l).map (·.1)).Nodup →
      l.foldl (fun d e => dictSet d e.1 e.2) d = d ++ l by simpa using hs [] (by simpa using h)
  clear h
  induction l with
  | nil => intro d _; simp
  | cons x l ih =>
    intro d hd
    have hx : x.1 ∉ d.map (·.1) := by
      rw [List.map_append, List.nodup_append] at hd
      intro hmem
      exact hd.2.2 _ hmem _ (List.mem_map_of_mem (List.mem_cons_self ..)) rfl
    rw [List.foldl_cons, dictSet_new hx, ih]
    · simp
    · simpa using hd

theorem dictSet_mem {K A : Type} [DecidableEq K] {d : List (K × A)} {k : K} {v : A} {e : K × A}
    (h : e ∈ dictSet d k v) : e ∈ d ∨ e = (k, v) := by
  unfold dictSet at h
  split_ifs at h
  · obtain ⟨x, hx, rfl⟩ := List.mem_map.1 h
    split_ifs
    · exact .inr rfl
    · exact .inl hx
  · simpa using h

theorem dictSet_ne_nil {K A : Type} [DecidableEq K] (d : List (K × A)) (k : K) (v : A) :
    dictSet d k v ≠ [] := by
  unfold dictSet
  split_ifs with h
  · intro hc
    rw [List.map_eq_nil_iff] at hc
    subst hc
    simp at h
  · simp

theorem dictOf_mem {K A : Type} [DecidableEq K] {l : List (K × A)} {e : K × A} (h : e ∈ dictOf l) :
    e ∈ l := by
  unfold dictOf at h
  suffices hs : ∀ (l d : List (K × A)), e ∈ l.foldl (fun d e => dictSet d e.1 e.2) d → e ∈ d ∨ e ∈ l by
    simpa using hs l [] h
  intro l
  induction l with
  | nil => intro d hd; exact .inl hd
  | cons x l ih =>
    intro d hd
    rw [List.foldl_cons] at hd
    rcases ih _ hd with h1 | h1
    · rcases dictSet_mem h1 with h2 | h2
      · exact .inl h2
      · exact .inr (by rw [h2]; exact List.mem_cons_self ..)
    · exact .inr (List.mem_cons_of_mem _ h1)

theorem dictOf_ne_nil {K A : Type} [DecidableEq K] {l : List (K × A)} (h : l ≠ []) : dictOf l ≠ [] := by
  unfold dictOf
  obtain ⟨x, l, rfl⟩ := List.exists_cons_of_ne_nil h
  rw [List.foldl_cons]
  have hs : ∀ (l d : List (K × A)), d ≠ [] → l.foldl (fun d e => dictSet d e.1 e.2) d ≠ [] := by
    intro l
    induction l with
    | nil => intro d hd; exact hd
    | cons y l ih => intro d _; exact ih _ (dictSet_ne_nil d y.1 y.2)
  exact hs l _ (dictSet_ne_nil [] x.1 x.2)

/-! ## Weights -/

theorem floatEps_pos : 0 < floatEps := by unfold floatEps; norm_num

theorem errWeights_map {K : Type} (errs : List (K × Rat)) :
    errWeights errs = errs.map fun e => (e.1, 1 / (e.2 + floatEps)
      / (errs.map fun e => 1 / (e.2 + floatEps)).sum) := by
  unfold errWeights
  dsimp only
  rw [List.map_map, List.map_map]
  rfl

theorem invSum_pos {K : Type} (errs : List (K × Rat)) (hne : errs ≠ []) (h : ∀ e ∈ errs, 0 ≤ e.2) :
    0 < (errs.map fun e => 1 / (e.2 + floatEps)).sum := by
  have hp : ∀ e ∈ errs, 0 < 1 / (e.2 + floatEps) := by
    intro e he
    have := h e he
    have := floatEps_pos
    positivity
  obtain ⟨x, l, rfl⟩ := List.exists_cons_of_ne_nil hne
  rw [List.map_cons, List.sum_cons]
  have h1 := hp x (List.mem_cons_self ..)
  have h2 : 0 ≤ (l.map fun e => 1 / (e.2 + floatEps)).sum := by
    apply List.sum_nonneg
    intro y hy
    obtain ⟨e, he, rfl⟩ := List.mem_map.1 hy
    exact (hp e (List.mem_cons_of_mem _ he)).le
  linarith

theorem sum_map_div (l : List Rat) (c : Rat) : (l.map fun x => x / c).sum = l.sum / c := by
  induction l with
  | nil => simp
  | cons x l ih => simp [ih, add_div]

/-- C44 (weights), the part that holds: for non-negative errors there is one weight per model, all
weights are positive, they sum to 1, and a model with smaller error has the larger weight (equal
errors, equal weights). -/
theorem C44_weights_partial {K : Type} (errs : List (K × Rat)) (hne : errs ≠ [])
    (h : ∀ e ∈ errs, 0 ≤ e.2) :
    (errWeights errs).map (·.1) = errs.map (·.1)
    ∧ (∀ w ∈ errWeights errs, 0 < w.2)
    ∧ ((errWeights errs).map (·.2)).sum = 1
    ∧ ∀ i j (hi : i < errs.length) (hj : j < errs.length) (hi' : i < (errWeights errs).length)
        (hj' : j < (errWeights errs).length),
        (errs[i].2 < errs[j].2 ↔ (errWeights errs)[j].2 < (errWeights errs)[i].2) := by
  have hS := invSum_pos errs hne h
  have he := floatEps_pos
  refine ⟨by rw [errWeights_map, List.map_map]; rfl, ?_, ?_, ?_⟩
  · intro w hw
    rw [errWeights_map] at hw
    obtain ⟨e, hm, rfl⟩ := List.mem_map.1 hw
    have := h e hm
    dsimp only
    positivity
  · rw [errWeights_map, List.map_map]
    have : (errs.map ((fun x : K × Rat => x.2) ∘ fun e => (e.1, 1 / (e.2 + floatEps)
        / (errs.map fun e => 1 / (e.2 + floatEps)).sum)))
        = (errs.map fun e => 1 / (e.2 + floatEps)).map fun x => x / (errs.map fun e => 1 / (e.2 + floatEps)).sum := by
      rw [List.map_map]; rfl
    rw [this, sum_map_div, div_self hS.ne']
  · intro i j hi hj hi' hj'
    have a := h _ (List.getElem_mem hi)
    have b := h _ (List.getElem_mem hj)
    simp only [errWeights_map, List.getElem_map]
    rw [div_lt_div_iff_of_pos_right hS, one_div_lt_one_div (by linarith) (by linarith)]
    constructor <;> intro h <;> linarith

example : errWeights [("a", 1 - floatEps), ("b", 3 - floatEps)] = [("a", 3 / 4), ("b", 1 / 4)] := by
  decide +kernel

/-- C44 (violated): an error method with negative values (`err_method="me"`, the mean error) gives a
negative weight to one model and a weight above 1 to another; the result leaves the range of the base
forecasts. -/
theorem C44_weights_violated :
    (∃ w ∈ errWeights [("a", -1 - floatEps), ("b", 2 - floatEps)], w.2 < 0)
    ∧ ∃ out, weightedEnsemble (P := Rat × Rat) (·.1) (fun p n => List.replicate n p.2)
        [("linear", (-1 - floatEps, 0)), ("quadratic", (2 - floatEps, 1))] (some daily) 0 1 = .ok out
      ∧ ∀ r ∈ out, r.2 < 0 := by
  refine ⟨⟨("b", -1), by decide +kernel, by norm_num⟩, [(1, -1)], by decide +kernel, ?_⟩
  intro r hr
  simp at hr
  subst hr
  norm_num

theorem dot_bounds (lo hi : Rat) : ∀ (row ws : List Rat), row.length = ws.length →
    (∀ w ∈ ws, 0 ≤ w) → (∀ x ∈ row, lo ≤ x ∧ x ≤ hi) →
    lo * ws.sum ≤ dotRow row ws ∧ dotRow row ws ≤ hi * ws.sum
  | [], [], _, _, _ => by simp [dotRow]
  | [], _ :: _, h, _, _ => by simp at h
  | _ :: _, [], h, _, _ => by simp at h
  | x :: row, w :: ws, h, hw, hx => by
    obtain ⟨i1, i2⟩ := dot_bounds lo hi row ws (by simpa using h)
      (fun v hv => hw v (List.mem_cons_of_mem _ hv)) (fun y hy => hx y (List.mem_cons_of_mem _ hy))
    obtain ⟨j1, j2⟩ := hx x (List.mem_cons_self ..)
    have j3 := hw w (List.mem_cons_self ..)
    unfold dotRow at *
    rw [List.zipWith_cons_cons, List.sum_cons, List.sum_cons]
    constructor <;> nlinarith

theorem concatFcst_ok {fs : List (List Rat)} {steps : Nat} (hne : fs ≠ [])
    (hl : ∀ f ∈ fs, f.length = steps) :
    concatFcst fs steps = .ok ((List.range steps).map (fcstRow fs)) := by
  unfold concatFcst
  rw [if_neg (by simpa using hne), if_pos (by simpa using hl)]

/-- C44 (forecast): for non-negative errors the ensemble gives one forecast per step, at the dates
following the data, and each lies between the smallest and the largest base forecast of that step. -/
theorem C44_convex_partial {P : Type} (backtest : P → Rat) (forecast : P → Nat → List Rat)
    (models : List (BaseModel P)) (f : DateFreq) (hf : ∀ t, t < f.next t) (last : Int)
    (hr : f.roll last = last) (steps : Nat) (hne : models ≠ [])
    (he : ∀ m ∈ models, 0 ≤ backtest m.2) (hl : ∀ m ∈ models, (forecast m.2 steps).length = steps) :
    ∃ out, weightedEnsemble backtest forecast models (some f) last steps = .ok out
      ∧ out.map (·.1) = (List.range steps).map (fun i => f.next^[i + 1] last)
      ∧ ∀ j (hj : j < out.length) (lo hi : Rat),
          (∀ m ∈ models, ∃ x, (forecast m.2 steps)[j]? = some x ∧ lo ≤ x ∧ x ≤ hi) →
          lo ≤ out[j].2 ∧ out[j].2 ≤ hi := by
  obtain ⟨d1, d2, -, -⟩ := C78_dates_partial f hf last hr steps
  have hD := dictOf_ne_nil hne
  have hw : backtestWeights backtest models
      = errWeights ((dictOf models).map fun m => (m.1, backtest m.2)) := by
    unfold backtestWeights; rw [dictOf_map]
  have hp : (predictAll forecast models steps).map (·.2)
      = (dictOf models).map fun m => forecast m.2 steps := by
    unfold predictAll; rw [dictOf_map (fun p => forecast p steps), List.map_map]; rfl
  obtain ⟨-, w2, w3, -⟩ := C44_weights_partial ((dictOf models).map fun m => (m.1, backtest m.2))
    (by simpa using hD) (by
      intro e hem
      obtain ⟨m, hm, rfl⟩ := List.mem_map.1 hem
      exact he m (dictOf_mem hm))
  set ws := (errWeights ((dictOf models).map fun m => (m.1, backtest m.2))).map (·.2) with hws
  have hwl : ws.length = (dictOf models).length := by rw [hws, errWeights_map]; simp
  have hc := concatFcst_ok (fs := (dictOf models).map fun m => forecast m.2 steps) (steps := steps)
    (by simpa using hD) (by
      intro g hg
      obtain ⟨m, hm, rfl⟩ := List.mem_map.1 hg
      exact hl m (dictOf_mem hm))
  refine ⟨(futureDates f last steps).zip ((List.range steps).map fun j =>
      dotRow (fcstRow ((dictOf models).map fun m => forecast m.2 steps) j) ws), ?_, ?_, ?_⟩
  · unfold weightedEnsemble
    rw [hp, hc, hw]
    simp only [bind, Except.bind]
    unfold mkFcst
    rw [if_pos (by simp [d2]), List.map_map]
    rfl
  · rw [List.map_fst_zip (by simp [d2]), d1]
  · intro j hj lo hi hb
    have hjs : j < steps := by
      rw [List.length_zip] at hj; simp at hj; omega
    rw [List.getElem_zip]
    simp only [List.getElem_map, List.getElem_range]
    have := dot_bounds lo hi (fcstRow ((dictOf models).map fun m => forecast m.2 steps) j) ws
      (by unfold fcstRow; simp [hwl])
      (by
        intro w hw'
        obtain ⟨e, he', rfl⟩ := List.mem_map.1 (hws ▸ hw')
        exact (w2 e he').le)
      (by
        intro x hx
        unfold fcstRow at hx
        rw [List.map_map] at hx
        obtain ⟨m, hm, rfl⟩ := List.mem_map.1 hx
        obtain ⟨x, hx1, hx2⟩ := hb m (dictOf_mem hm)
        simp only [Function.comp_apply, List.getD_eq_getElem?_getD, hx1]
        exact hx2)
    rw [w3, mul_one, mul_one] at this
    exact this

example : weightedEnsemble (P := Rat × Rat) (·.1) (fun p n => List.replicate n p.2)
    [("linear", (1 - floatEps, 4)), ("quadratic", (3 - floatEps, 8))] (some daily) 0 2
    = .ok [(1, 5), (2, 5)] := by decide +kernel

/-- C44 (formula): with distinct model names the forecast is the average of the base forecasts weighted
with the inverse errors. -/
theorem C44_formula {P : Type} (backtest : P → Rat) (forecast : P → Nat → List Rat)
    (models : List (BaseModel P)) (f : DateFreq) (last : Int) (steps : Nat)
    (hn : (models.map (·.1)).Nodup) (hne : models ≠ []) (he : ∀ m ∈ models, 0 ≤ backtest m.2)
    (out : List (Int × Rat)) (h : weightedEnsemble backtest forecast models (some f) last steps = .ok out)
    (j : Nat) (hj : j < out.length) :
    out[j].2 * (models.map fun m => 1 / (backtest m.2 + floatEps)).sum
      = (models.map fun m => (forecast m.2 steps).getD j 0 / (backtest m.2 + floatEps)).sum := by
  have hd := dictOf_nodup models hn
  have hw : backtestWeights backtest models
      = errWeights (models.map fun m => (m.1, backtest m.2)) := by
    unfold backtestWeights; rw [dictOf_map, hd]
  have hp : (predictAll forecast models steps).map (·.2) = models.map fun m => forecast m.2 steps := by
    unfold predictAll; rw [dictOf_map (fun p => forecast p steps), hd, List.map_map]; rfl
  have hS := invSum_pos (models.map fun m => (m.1, backtest m.2)) (by simpa using hne) (by
      intro e hem
      obtain ⟨m, hm, rfl⟩ := List.mem_map.1 hem
      exact he m hm)
  rw [List.map_map] at hS
  unfold weightedEnsemble at h
  rw [hw, hp] at h
  unfold concatFcst at h
  simp only [bind, Except.bind] at h
  split_ifs at h
  dsimp only at h
  unfold mkFcst at h
  split_ifs at h with hlen
  have ho := (Except.ok.inj h).symm
  have hjs : j < steps := by
    rw [ho, List.length_zip] at hj
    simp at hj
    omega
  have e : out[j].2 = dotRow (models.map fun m => (forecast m.2 steps).getD j 0)
      (models.map fun m => 1 / (backtest m.2 + floatEps)
        / (models.map fun m => 1 / (backtest m.2 + floatEps)).sum) := by
    simp only [ho, List.getElem_zip, List.getElem_map, List.getElem_range, errWeights_map]
    unfold fcstRow
    simp only [List.map_map]
    rfl
  rw [e]
  set S := (models.map fun m => 1 / (backtest m.2 + floatEps)).sum with hSd
  have hS' : 0 < S := hS
  clear_value S
  clear * - hS'
  induction models with
  | nil => simp [dotRow]
  | cons m l ih =>
    unfold dotRow at ih ⊢
    rw [List.map_cons, List.map_cons, List.zipWith_cons_cons, List.sum_cons, add_mul, ih, List.map_cons,
      List.sum_cons]
    congr 1
    field_simp

/-! ## C45 -/

/-- C45: the median ensemble gives one forecast per step, at the dates following the data, and each
lies between the smallest and the largest base forecast of that step. -/
theorem C45_between {P : Type} (forecast : P → Nat → List Rat)
    (models : List (BaseModel P)) (f : DateFreq) (hf : ∀ t, t < f.next t) (last : Int)
    (hr : f.roll last = last) (steps : Nat) (hne : models ≠ [])
    (hl : ∀ m ∈ models, (forecast m.2 steps).length = steps) :
    ∃ out, medianEnsemble forecast models (some f) last steps = .ok out
      ∧ out.map (·.1) = (List.range steps).map (fun i => f.next^[i + 1] last)
      ∧ ∀ j (hj : j < out.length) (lo hi : Rat),
          (∀ m ∈ models, ∃ x, (forecast m.2 steps)[j]? = some x ∧ lo ≤ x ∧ x ≤ hi) →
          lo ≤ out[j].2 ∧ out[j].2 ≤ hi := by
  obtain ⟨d1, d2, -, -⟩ := C78_dates_partial f hf last hr steps
  have hD := dictOf_ne_nil hne
  have hp : (predictAll forecast models steps).map (·.2)
      = (dictOf models).map fun m => forecast m.2 steps := by
    unfold predictAll; rw [dictOf_map (fun p => forecast p steps), List.map_map]; rfl
  have hc := concatFcst_ok (fs := (dictOf models).map fun m => forecast m.2 steps) (steps := steps)
    (by simpa using hD) (by
      intro g hg
      obtain ⟨m, hm, rfl⟩ := List.mem_map.1 hg
      exact hl m (dictOf_mem hm))
  refine ⟨(futureDates f last steps).zip ((List.range steps).map fun j =>
      medianQ (fcstRow ((dictOf models).map fun m => forecast m.2 steps) j)), ?_, ?_, ?_⟩
  · unfold medianEnsemble
    rw [hp, hc]
    simp only [bind, Except.bind]
    unfold mkFcst
    rw [if_pos (by simp [d2]), List.map_map]
    rfl
  · rw [List.map_fst_zip (by simp [d2]), d1]
  · intro j hj lo hi hb
    rw [List.getElem_zip]
    simp only [List.getElem_map, List.getElem_range]
    apply medianQ_bounds
    · unfold fcstRow; simpa using hD
    · intro x hx
      unfold fcstRow at hx
      rw [List.map_map] at hx
      obtain ⟨m, hm, rfl⟩ := List.mem_map.1 hx
      obtain ⟨x, hx1, hx2⟩ := hb m (dictOf_mem hm)
      simp only [Function.comp_apply, List.getD_eq_getElem?_getD, hx1]
      exact hx2

example : medianEnsemble (P := Rat) (fun p n => List.replicate n p)
    [("linear", 1), ("quadratic", 10), ("arima", 4)] (some daily) 0 2 = .ok [(1, 4), (2, 4)] := by decide +kernel

/-- C45 (which value): with distinct model names the forecast of step `j` is the median of the base
forecasts: at least half of them are at or below it and at least half at or above it. -/
theorem C45_median {P : Type} (forecast : P → Nat → List Rat)
    (models : List (BaseModel P)) (hn : (models.map (·.1)).Nodup) (f : DateFreq) (last : Int) (steps : Nat)
    (out : List (Int × Rat)) (h : medianEnsemble forecast models (some f) last steps = .ok out)
    (j : Nat) (hj : j < out.length) :
    models.length ≤ 2 * models.countP (fun m => decide ((forecast m.2 steps).getD j 0 ≤ out[j].2))
    ∧ models.length ≤ 2 * models.countP (fun m => decide (out[j].2 ≤ (forecast m.2 steps).getD j 0)) := by
  have hd := dictOf_nodup models hn
  have hp : (predictAll forecast models steps).map (·.2) = models.map fun m => forecast m.2 steps := by
    unfold predictAll; rw [dictOf_map (fun p => forecast p steps), hd, List.map_map]; rfl
  unfold medianEnsemble at h
  rw [hp] at h
  unfold concatFcst at h
  simp only [bind, Except.bind] at h
  split_ifs at h with h1
  dsimp only at h
  unfold mkFcst at h
  split_ifs at h with hlen
  have ho := (Except.ok.inj h).symm
  have hjs : j < steps := by
    rw [ho, List.length_zip] at hj
    simp at hj
    omega
  have e : out[j].2 = medianQ (models.map fun m => (forecast m.2 steps).getD j 0) := by
    simp only [ho, List.getElem_zip, List.getElem_map, List.getElem_range]
    unfold fcstRow
    rw [List.map_map]
    rfl
  rw [e]
  obtain ⟨m1, m2⟩ := medianQ_halves (l := models.map fun m => (forecast m.2 steps).getD j 0)
    (by rintro h0; rw [List.map_eq_nil_iff] at h0; subst h0; simp at h1)
  rw [List.length_map, List.countP_map] at m1 m2
  exact ⟨m1, m2⟩

/-- C45 (order), the part that holds: with distinct names the order of the models does not matter. -/
theorem C45_order_partial {P : Type} (forecast : P → Nat → List Rat)
    (models models' : List (BaseModel P)) (hperm : models.Perm models')
    (hn : (models.map (·.1)).Nodup) (f : DateFreq) (last : Int) (steps : Nat) :
    medianEnsemble forecast models (some f) last steps = medianEnsemble forecast models' (some f) last steps := by
  have hn' : (models'.map (·.1)).Nodup := (hperm.map _).nodup_iff.1 hn
  have hp : ∀ l : List (BaseModel P), (l.map (·.1)).Nodup →
      (predictAll forecast l steps).map (·.2) = l.map fun m => forecast m.2 steps := by
    intro l hl
    unfold predictAll
    rw [dictOf_map (fun p => forecast p steps), dictOf_nodup l hl, List.map_map]; rfl
  unfold medianEnsemble
  rw [hp _ hn, hp _ hn']
  have hq := hperm.map fun m => forecast m.2 steps
  unfold concatFcst
  have e1 : (models.map fun m => forecast m.2 steps).isEmpty
      = (models'.map fun m => forecast m.2 steps).isEmpty := by
    rw [Bool.eq_iff_iff, List.isEmpty_iff, List.isEmpty_iff, ← List.length_eq_zero_iff,
      ← List.length_eq_zero_iff, hq.length_eq]
  have e2 : ((models.map fun m => forecast m.2 steps).all fun f => decide (f.length = steps))
      = ((models'.map fun m => forecast m.2 steps).all fun f => decide (f.length = steps)) :=
    hq.all_eq
  rw [e1, e2]
  simp only [bind, Except.bind]
  split_ifs
  · rfl
  · dsimp only
    congr 1
    rw [List.map_map, List.map_map]
    apply List.map_congr_left
    intro j _
    exact medianQ_perm (hq.map _)
  · rfl

example : ([("linear", 1), ("quadratic", 10)] : List (BaseModel Rat)).Perm [("quadratic", 10), ("linear", 1)]
    ∧ (([("linear", 1), ("quadratic", 10)] : List (BaseModel Rat)).map (·.1)).Nodup := by decide

/-- C45 (violated): of two models with the same name only the last one counts, so the order of the
models changes the forecast. -/
theorem C45_order_violated :
    ∃ models models' : List (BaseModel Rat), models.Perm models'
      ∧ medianEnsemble (fun p n => List.replicate n p) models none 0 1
        ≠ medianEnsemble (fun p n => List.replicate n p) models' none 0 1 :=
  ⟨[("sarima", 1), ("sarima", 2)], [("sarima", 2), ("sarima", 1)], by decide, by decide +kernel⟩

/-- C78 (violated): without the keyword the ensembles attach daily dates whatever the frequency of the
data, so they differ from the dates of the base models whose forecasts they combine. -/
theorem C78_ensemble_violated :
    (∀ {P : Type} (forecast : P → Nat → List Rat) (models : List (BaseModel P)) (last : Int)
        (steps : Nat) (out : List (Int × Rat)),
      medianEnsemble forecast models none last steps = .ok out →
      out.map (·.1) = (List.range steps).map fun i => last + (i + 1 : Nat))
    ∧ ∃ rows : List (Int × Rat), heuristicPredict .last everyThird [(0, 4), (3, 5), (6, 6)] 2 false = .ok rows
      ∧ rows.map (·.1) = [9, 12]
      ∧ medianEnsemble (P := List Rat) (fun p _ => p) [("m", rows.map (·.2))] none 6 2
        = .ok [(7, 5), (8, 6)] := by
  refine ⟨?_, [(9, 5), (12, 6)], by decide +kernel, by decide +kernel, by decide +kernel⟩
  intro P forecast models last steps out h
  unfold medianEnsemble at h
  cases hc : concatFcst ((predictAll forecast models steps).map (·.2)) steps with
  | error e => rw [hc] at h; cases h
  | ok rows =>
    rw [hc] at h
    simp only [bind, Except.bind] at h
    unfold mkFcst at h
    split_ifs at h with hlen
    rw [← Except.ok.inj h, List.map_fst_zip hlen.le, Option.getD_none,
      (C78_dates_partial daily (fun t => by change t < t + 1; omega) last rfl steps).1]
    apply List.map_congr_left
    intro i _
    have : ∀ n : Nat, daily.next^[n] last = last + n := by
      intro n
      induction n with
      | zero => simp
      | succ n ih => rw [Function.iterate_succ_apply', ih]; change last + n + 1 = _; push_cast; ring
    exact this _

end Kats

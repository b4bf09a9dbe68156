import Verif.Model.MultiOutlier
import Verif.Props.Outlier
import Mathlib.Algebra.BigOperators.Fin
import Mathlib.Data.List.GetD
import Mathlib.Tactic.Linarith
import Mathlib.Tactic.Ring
import Mathlib.Tactic.NormNum
import Mathlib.Tactic.Positivity
import Mathlib.Tactic.FieldSimp

/-!
# Multivariate anomaly detector: C106
-/

namespace Kats

noncomputable section

open Classical

/-! ### Times -/

/-- The times of an evenly spaced series. -/
def evenTimes (t0 g : Int) (n : Nat) : List Int := (List.range n).map fun k : Nat => t0 + g * (k : Int)

theorem timeDiffs_getElem (ts : List Int) (i : Nat) (h : i + 1 < ts.length) :
    (timeDiffs ts)[i]? = some (ts[i + 1] - ts[i]) := by
  unfold timeDiffs
  rw [List.getElem?_zipWith, List.getElem?_drop, List.getElem?_eq_getElem (by omega : 1 + i < ts.length),
    List.getElem?_eq_getElem (by omega : i < ts.length)]
  simp [Nat.add_comm]

theorem timeDiffs_length (ts : List Int) : (timeDiffs ts).length = ts.length - 1 := by
  simp [timeDiffs]

/-- C106, `__init__`: accepted are exactly the data with at least two rows whose sorted times are evenly spaced; the
spacing is the step. -/
theorem C106_init (srt : List Int → List Int) (hs : ∀ l, (srt l).length = l.length) (names : List String) (rows : List MvRow)
    (lookBack : Int) (m : Mad) :
    Mad.init srt names rows lookBack = .ok m ↔
      m.names = names ∧ m.rows = rows ∧ m.lookBack = lookBack ∧ 2 ≤ rows.length ∧
        ∃ t0, srt (rows.map (·.1)) = evenTimes t0 m.step rows.length := by
  set ts := srt (rows.map (·.1)) with hts
  have hlen : ts.length = rows.length := by rw [hts, hs, List.length_map]
  have key : ∀ g, (timeDiffs ts).dedup = [g] ↔ 2 ≤ rows.length ∧ ∃ t0, ts = evenTimes t0 g rows.length := by
    intro g
    constructor
    · intro h
      have hmem : ∀ x, x ∈ timeDiffs ts ↔ x = g := by
        intro x
        rw [← List.mem_dedup, h, List.mem_singleton]
      have hpos : 0 < (timeDiffs ts).length := List.length_pos_of_mem ((hmem g).2 rfl)
      rw [timeDiffs_length] at hpos
      refine ⟨by omega, ts.headD 0, ?_⟩
      have hstep : ∀ i (hi : i < ts.length), ts[i] = ts.headD 0 + g * (i : Int) := by
        intro i
        induction i with
        | zero =>
          intro hi
          have : ∀ (l : List Int) (h : 0 < l.length), l[0] = l.headD 0 := by
            intro l h
            cases l with
            | nil => simp at h
            | cons a l => rfl
          rw [this]
          simp
        | succ i ih =>
          intro hi
          have h1 := timeDiffs_getElem ts i hi
          have h2 := (hmem _).1 (List.mem_of_getElem? h1)
          have h3 := ih (by omega)
          push_cast
          linarith
      apply List.ext_getElem
      · simp [evenTimes, hlen]
      · intro i h1 h2
        rw [hstep i h1]
        simp [evenTimes]
    · rintro ⟨h2, t0, e⟩
      have hall : ∀ x ∈ timeDiffs ts, x = g := by
        intro x hx
        obtain ⟨i, hi, e2⟩ := List.getElem_of_mem hx
        rw [timeDiffs_length] at hi
        have h3 := timeDiffs_getElem ts i (by omega)
        rw [List.getElem?_eq_getElem (by rw [timeDiffs_length]; omega), e2, Option.some.injEq] at h3
        rw [h3]
        have hv : ∀ j (hj : j < ts.length), ts[j] = t0 + g * (j : Int) := by
          intro j hj
          have : ts[j]? = some (t0 + g * (j : Int)) := by
            rw [e]
            simp [evenTimes, ← hlen, hj]
          rw [List.getElem?_eq_getElem hj] at this
          exact Option.some.inj this
        rw [hv, hv]
        push_cast
        ring
      have e3 : timeDiffs ts = List.replicate (ts.length - 1) g := List.eq_replicate_iff.2 ⟨timeDiffs_length ts, hall⟩
      rw [e3, List.replicate_dedup (by omega)]
  unfold Mad.init
  rw [← hts]
  constructor
  · intro h
    split at h
    · rename_i g hg
      rw [Except.ok.injEq] at h
      subst h
      exact ⟨rfl, rfl, rfl, (key g).1 hg⟩
    · simp at h
  · rintro ⟨h1, h2, h3, h4⟩
    rw [(key m.step).2 h4]
    cases m
    simp only at h1 h2 h3
    rw [h1, h2, h3]

theorem evenTimes_first (t0 g : Int) (hg : 0 < g) (n : Nat) (hn : 0 < n) :
    (evenTimes t0 g n).foldl min ((evenTimes t0 g n).headD 0) = t0 := by
  have hh : (evenTimes t0 g n).headD 0 = t0 := by
    obtain ⟨k, rfl⟩ := Nat.exists_eq_succ_of_ne_zero hn.ne'
    simp [evenTimes, List.range_succ_eq_map]
  rw [hh]
  have : ∀ l : List Int, (∀ x ∈ l, t0 ≤ x) → l.foldl min t0 = t0 := by
    intro l
    induction l with
    | nil => intro _; rfl
    | cons a l ih =>
      intro h
      rw [List.foldl_cons, min_eq_left (h a (by simp))]
      exact ih fun x hx => h x (by simp [hx])
  apply this
  intro x hx
  obtain ⟨k, -, rfl⟩ := List.mem_map.1 hx
  have : 0 ≤ g * (k : Int) := by positivity
  omega

theorem evenTimes_last (t0 g : Int) (hg : 0 < g) (n : Nat) (hn : 0 < n) :
    (evenTimes t0 g n).foldl max ((evenTimes t0 g n).headD 0) = t0 + g * ((n - 1 : Nat) : Int) := by
  have hh : (evenTimes t0 g n).headD 0 = t0 := by
    obtain ⟨k, rfl⟩ := Nat.exists_eq_succ_of_ne_zero hn.ne'
    simp [evenTimes, List.range_succ_eq_map]
  rw [hh]
  induction n with
  | zero => omega
  | succ n ih =>
    unfold evenTimes
    rw [List.range_succ, List.map_append, List.foldl_append]
    rcases Nat.eq_zero_or_pos n with h0 | h0
    · subst h0; simp
    · have hh' : (evenTimes t0 g n).headD 0 = t0 := by
        obtain ⟨k, rfl⟩ := Nat.exists_eq_succ_of_ne_zero h0.ne'
        simp [evenTimes, List.range_succ_eq_map]
      have := ih h0 hh'
      unfold evenTimes at this
      rw [this]
      simp only [List.map_cons, List.map_nil, List.foldl_cons, List.foldl_nil]
      apply max_eq_right
      have : ((n - 1 : Nat) : Int) ≤ (n : Int) := by omega
      have := mul_le_mul_of_nonneg_left this hg.le
      omega

/-- What a score at time `x.time` is computed from. -/
def scoreFrom (W : MvWorld) (m : Mad) (x : MvScore) : Prop :=
  ∃ f r, W.fit (cleanData m.names.length (m.rows.filter fun r =>
        decide (x.time - m.step - m.lookBack ≤ r.1) && decide (r.1 ≤ x.time - m.step))) = .ok f ∧ f.posDef = true ∧
    r ∈ m.rows ∧ r.1 = x.time ∧ x = mvScores W m.names f (r.2.map fun v => v.getD 0) x.time

theorem madLoop_spec (W : MvWorld) (m : Mad) (t0 : Int) (n : Nat) (hg : 0 < m.step) :
    ∀ (fuel i : Nat) (s : List MvScore), n - 1 - i ≤ fuel →
      m.loop W (t0 + m.step * ((n - 1 : Nat) : Int)) fuel (t0 + m.step * (i : Int)) = .ok s →
      s.map (·.time) = (List.range (n - 1 - i)).map (fun k : Nat => t0 + m.step * ((i + 1 + k : Nat) : Int)) ∧
        ∀ x ∈ s, scoreFrom W m x := by
  intro fuel
  induction fuel with
  | zero =>
    intro i s hi h
    simp only [Mad.loop, Except.ok.injEq] at h
    subst h
    rw [show n - 1 - i = 0 by omega]
    simp
  | succ fuel ih =>
    intro i s hi h
    unfold Mad.loop at h
    by_cases hlt : i < n - 1
    · have hlt' : t0 + m.step * (i : Int) < t0 + m.step * ((n - 1 : Nat) : Int) := by
        have : (i : Int) < ((n - 1 : Nat) : Int) := by exact_mod_cast hlt
        have := mul_lt_mul_of_pos_left this hg
        omega
      rw [if_pos hlt'] at h
      cases hf : m.forecast W (t0 + m.step * (i : Int)) with
      | error e => simp [hf, bind, Except.bind] at h
      | ok fa =>
        obtain ⟨f, actual⟩ := fa
        have hnext : t0 + m.step * (i : Int) + m.step = t0 + m.step * ((i + 1 : Nat) : Int) := by push_cast; ring
        simp only [hf, bind, Except.bind, hnext] at h
        cases hr : m.loop W (t0 + m.step * ((n - 1 : Nat) : Int)) fuel (t0 + m.step * ((i + 1 : Nat) : Int)) with
        | error e => simp only [hr, reduceCtorEq] at h
        | ok rest =>
          simp only [hr, pure, Except.pure, Except.ok.injEq] at h
          obtain ⟨h1, h2⟩ := ih (i + 1) rest (by omega) hr
          subst h
          constructor
          · rw [List.map_cons, h1, show n - 1 - i = (n - 1 - (i + 1)) + 1 by omega, List.range_succ_eq_map,
              List.map_cons, List.map_map]
            congr 1
            apply List.map_congr_left
            intro k _
            simp only [Function.comp]
            push_cast
            ring
          · intro x hx
            rcases List.mem_cons.1 hx with rfl | hx
            · unfold Mad.forecast at hf
              cases hfit : W.fit (cleanData m.names.length (m.rows.filter fun r =>
                  decide (t0 + m.step * (i : Int) - m.lookBack ≤ r.1) && decide (r.1 ≤ t0 + m.step * (i : Int)))) with
              | error e => simp only [hfit, bind, Except.bind, reduceCtorEq] at hf
              | ok f' =>
                simp only [hfit, bind, Except.bind, hnext] at hf
                cases hp : f'.posDef with
                | false => simp [hp] at hf
                | true =>
                  simp only [hp, Bool.not_true, Bool.false_eq_true, if_false] at hf
                  cases hfd : m.rows.find? (fun r => decide (r.1 = t0 + m.step * ((i + 1 : Nat) : Int))) with
                  | none => simp only [hfd, reduceCtorEq] at hf
                  | some r =>
                    simp only [hfd, pure, Except.pure, Except.ok.injEq, Prod.mk.injEq] at hf
                    obtain ⟨rfl, rfl⟩ := hf
                    refine ⟨f', r, ?_, hp, List.mem_of_find?_eq_some hfd, ?_, rfl⟩
                    · rw [← hfit]
                      have : (mvScores W m.names f' (r.2.map fun x => x.getD 0) (t0 + m.step * ((i + 1 : Nat) : Int))).time - m.step =
                          t0 + m.step * (i : Int) := by
                        show t0 + m.step * ((i + 1 : Nat) : Int) - m.step = _
                        push_cast
                        ring
                      rw [this]
                    · have := List.find?_some hfd
                      rw [decide_eq_true_eq] at this
                      exact this
            · exact h2 x hx
    · have hlt' : ¬ t0 + m.step * (i : Int) < t0 + m.step * ((n - 1 : Nat) : Int) := by
        have : ((n - 1 : Nat) : Int) ≤ (i : Int) := by exact_mod_cast not_lt.1 hlt
        have := mul_le_mul_of_nonneg_left this hg.le
        omega
      rw [if_neg hlt', Except.ok.injEq] at h
      subst h
      rw [show n - 1 - i = 0 by omega]
      simp

/-- C106, `detector`, if the training duration is a multiple `j` of the step: scored are exactly the times after the first
`j + 1`, in order, and each score is computed from the model fitted to the rows of the training duration up to the time before,
and from the values at its time. -/
theorem C106_times_partial (W : MvWorld) (m : Mad) (t0 : Int) (hg : 0 < m.step) (hn : 0 < m.rows.length)
    (ht : m.rows.map (·.1) = evenTimes t0 m.step m.rows.length) (j : Nat) (hj : m.lookBack = m.step * (j : Int))
    (s : List MvScore) (h : m.detector W = .ok s) :
    s.map (·.time) = (m.rows.map (·.1)).drop (j + 1) ∧ ∀ x ∈ s, scoreFrom W m x := by
  unfold Mad.detector at h
  have h1 : mvFirst m.rows = t0 := by
    unfold mvFirst
    rw [ht]
    exact evenTimes_first t0 m.step hg _ hn
  have h2 : mvLast m.rows = t0 + m.step * ((m.rows.length - 1 : Nat) : Int) := by
    unfold mvLast
    rw [ht]
    exact evenTimes_last t0 m.step hg _ hn
  rw [h1, h2, hj] at h
  have hfuel : m.rows.length - 1 - j ≤ (t0 + m.step * ((m.rows.length - 1 : Nat) : Int) - (t0 + m.step * (j : Int))).toNat := by
    have e : t0 + m.step * ((m.rows.length - 1 : Nat) : Int) - (t0 + m.step * (j : Int)) =
        m.step * (((m.rows.length - 1 : Nat) : Int) - (j : Int)) := by ring
    rw [e]
    rcases le_or_gt (m.rows.length - 1) j with hc | hc
    · omega
    · have h3 : (0 : Int) < ((m.rows.length - 1 : Nat) : Int) - (j : Int) := by omega
      have h4 : ((m.rows.length - 1 : Nat) : Int) - (j : Int) ≤ m.step * (((m.rows.length - 1 : Nat) : Int) - (j : Int)) :=
        le_mul_of_one_le_left h3.le (by omega)
      omega
  obtain ⟨h3, h4⟩ := madLoop_spec W m t0 m.rows.length hg _ j s hfuel h
  refine ⟨?_, h4⟩
  rw [h3, ht]
  apply List.ext_getElem
  · simp [evenTimes]
    omega
  · intro k h5 h6
    simp [evenTimes]

/-- C106 is violated if the training duration is no multiple of the step (fractions of a day are accepted): there is no row at
the time of the forecast, and the detector fails. -/
theorem C106_offgrid_violated (W : MvWorld) (m : Mad) (t0 : Int) (hg : 0 < m.step) (hn : 0 < m.rows.length)
    (ht : m.rows.map (·.1) = evenTimes t0 m.step m.rows.length) (hL : ¬ m.step ∣ m.lookBack)
    (hlt : m.lookBack < m.step * ((m.rows.length - 1 : Nat) : Int)) : ∃ e, m.detector W = .error e := by
  unfold Mad.detector
  have h1 : mvFirst m.rows = t0 := by
    unfold mvFirst
    rw [ht]
    exact evenTimes_first t0 m.step hg _ hn
  have h2 : mvLast m.rows = t0 + m.step * ((m.rows.length - 1 : Nat) : Int) := by
    unfold mvLast
    rw [ht]
    exact evenTimes_last t0 m.step hg _ hn
  rw [h1, h2]
  obtain ⟨k, hk⟩ := Nat.exists_eq_succ_of_ne_zero
    (show (t0 + m.step * ((m.rows.length - 1 : Nat) : Int) - (t0 + m.lookBack)).toNat ≠ 0 by omega)
  rw [hk]
  unfold Mad.loop
  rw [if_pos (by omega)]
  have hfc : ∃ e, m.forecast W (t0 + m.lookBack) = .error e := by
    unfold Mad.forecast
    cases hfit : W.fit (cleanData m.names.length (m.rows.filter fun r =>
        decide (t0 + m.lookBack - m.lookBack ≤ r.1) && decide (r.1 ≤ t0 + m.lookBack))) with
    | error e => exact ⟨e, by simp only [hfit, bind, Except.bind]⟩
    | ok f =>
      simp only [hfit, bind, Except.bind]
      cases hp : f.posDef with
      | false => exact ⟨.otherError, rfl⟩
      | true =>
        have hnone : m.rows.find? (fun r => decide (r.1 = t0 + m.lookBack + m.step)) = none := by
          rw [List.find?_eq_none]
          intro r hr
          rw [decide_eq_true_eq]
          intro e
          have hmem : r.1 ∈ evenTimes t0 m.step m.rows.length := ht ▸ List.mem_map_of_mem hr
          obtain ⟨k, -, e2⟩ := List.mem_map.1 hmem
          apply hL
          refine ⟨(k : Int) - 1, ?_⟩
          rw [mul_sub, mul_one]
          omega
        simp only [hnone]
        exact ⟨.keyError, rfl⟩
  obtain ⟨e, he⟩ := hfc
  exact ⟨e, by simp [he, bind, Except.bind]⟩

/-! ### Scores -/

/-- C106 is violated: the p-value is the tail of the distance, although the square of the distance has the chi-squared
distribution.  Beyond distance 1 it is too large, so that with some significance level an anomaly is not reported; below it
is too small. -/
theorem C106_pvalue_violated (W : MvWorld) (hW : ∀ k, StrictAntiOn (W.chi2sf k) (Set.Ici 0)) (names : List String) (f : MvFit)
    (actual : List ℝ) (t : Int) (x : MvScore) (hx : x = mvScores W names f actual t) :
    (1 < x.overall → W.chi2sf names.length (x.overall ^ 2) < x.p ∧
      ∃ alpha, W.chi2sf names.length (x.overall ^ 2) < alpha ∧ anomalyTimes (some [x]) alpha = .ok []) ∧
    (0 < x.overall → x.overall < 1 → x.p < W.chi2sf names.length (x.overall ^ 2) ∧
      ∃ alpha, alpha ≤ W.chi2sf names.length (x.overall ^ 2) ∧ anomalyTimes (some [x]) alpha = .ok [x.time]) := by
  have hp : x.p = W.chi2sf names.length x.overall := by rw [hx]; rfl
  constructor
  · intro h
    have h1 : W.chi2sf names.length (x.overall ^ 2) < x.p := by
      rw [hp]
      exact hW _ (Set.mem_Ici.2 (by linarith)) (Set.mem_Ici.2 (by positivity)) (by nlinarith)
    refine ⟨h1, x.p, h1, ?_⟩
    simp [anomalyTimes]
  · intro h0 h
    have h1 : x.p < W.chi2sf names.length (x.overall ^ 2) := by
      rw [hp]
      exact hW _ (Set.mem_Ici.2 (by positivity)) (Set.mem_Ici.2 h0.le) (by nlinarith)
    refine ⟨h1, _, le_rfl, ?_⟩
    simp [anomalyTimes, h1]

/-- C106: the score of a metric is the distance of actual value and forecast in standard deviations, if the mean of the
residuals of the training is zero. -/
theorem C106_metric_partial (resid : List ℝ) (hm : meanOf resid = 0) (v est actual : ℝ) (hv : var1 resid = some v) (h0 : v ≠ 0) :
    metricScore resid (est - actual) = some (|actual - est| / Real.sqrt v) := by
  simp [metricScore, hv, h0, hm, abs_sub_comm]

/-- C106 is violated otherwise: the forecast error is taken with the opposite sign of the residuals of the training, so that
the most typical error, their mean, scores twice the mean. -/
theorem C106_metric_violated (resid : List ℝ) (v est actual : ℝ) (hv : var1 resid = some v) (h0 : v ≠ 0)
    (he : actual - est = meanOf resid) :
    metricScore resid (est - actual) = some (2 * |meanOf resid| / Real.sqrt v) := by
  have : est - actual - meanOf resid = -(2 * meanOf resid) := by linarith
  simp [metricScore, hv, h0, this, abs_mul]

/-- C106: the standard deviation in the score is the unbiased one, from at least two residuals. -/
theorem C106_variance (resid : List ℝ) : (resid.length ≤ 1 → var1 resid = none) ∧
    (2 ≤ resid.length → ∃ v, var1 resid = some v ∧ ((resid.length : ℝ) - 1) * v = resid.length * varOf resid) := by
  constructor
  · intro h
    simp [var1, h]
  · intro h
    have h1 : ((resid.length : ℝ) - 1) ≠ 0 := by
      have : (2 : ℝ) ≤ resid.length := by exact_mod_cast h
      linarith
    have h2 : (resid.length : ℝ) ≠ 0 := by
      have : (2 : ℝ) ≤ resid.length := by exact_mod_cast h
      linarith
    refine ⟨_, by rw [var1, if_neg (by omega)], ?_⟩
    have : varOf resid = (resid.map fun x => (x - meanOf resid) ^ 2).sum / resid.length := by
      rw [varOf]
      conv_lhs => rw [meanOf]
      rw [List.length_map]
    rw [this]
    generalize (resid.map fun x => (x - meanOf resid) ^ 2).sum = A
    field_simp

example : var1 [1, 3] = some 2 := by norm_num [var1, meanOf]

/-- C106: for zero mean residuals the overall score is the Mahalanobis norm of the forecast errors, and does not depend on
their sign. -/
theorem C106_overall (inv : List (List ℝ)) (d : List ℝ) : mahalanobis inv (d.map (-·)) = mahalanobis inv d := by
  unfold mahalanobis
  congr 2
  have h1 : ∀ row : List ℝ, (row.zipWith (· * ·) (d.map (-·))).sum = -(row.zipWith (· * ·) d).sum := by
    intro row
    rw [List.zipWith_map_right]
    induction row generalizing d with
    | nil => simp
    | cons a row ih =>
      cases d with
      | nil => simp
      | cons b d =>
        simp only [List.zipWith_cons_cons, List.sum_cons, ih]
        ring
  rw [List.zipWith_map_right]
  congr 1
  funext row x
  rw [h1]
  ring

/-! ### Reports -/

/-- C106, `get_anomaly_timepoints`: exactly the scored times whose p-value is below the level, in order; a larger level gives
more. -/
theorem C106_timepoints (s : List MvScore) (hs : s ≠ []) (alpha : ℝ) :
    ∃ ts, anomalyTimes (some s) alpha = .ok ts ∧ ts.Sublist (s.map (·.time)) ∧ (∀ t, t ∈ ts ↔ ∃ x ∈ s, x.time = t ∧ x.p < alpha) ∧
      ∀ beta, alpha ≤ beta → ∃ ts', anomalyTimes (some s) beta = .ok ts' ∧ ts.Sublist ts' := by
  have hd : ∀ a, anomalyTimes (some s) a = .ok ((s.filter fun x => decide (x.p < a)).map (·.time)) := by
    intro a
    cases s with
    | nil => exact absurd rfl hs
    | cons x s => rfl
  refine ⟨_, hd alpha, List.filter_sublist.map _, ?_, ?_⟩
  · intro t
    rw [List.mem_map]
    constructor
    · rintro ⟨x, hx, rfl⟩
      rw [List.mem_filter, decide_eq_true_eq] at hx
      exact ⟨x, hx.1, rfl, hx.2⟩
    · rintro ⟨x, hx, rfl, hp⟩
      exact ⟨x, List.mem_filter.2 ⟨hx, by rw [decide_eq_true_eq]; exact hp⟩, rfl⟩
  · intro beta hb
    refine ⟨_, hd beta, ?_⟩
    apply List.Sublist.map
    apply List.monotone_filter_right
    intro x hx
    rw [decide_eq_true_eq] at hx ⊢
    linarith

/-- C106 is violated: if no time could be scored, because the training takes all the data, there is no empty list but an
`AttributeError`. -/
theorem C106_empty_violated (W : MvWorld) (m : Mad) (t0 : Int) (hg : 0 < m.step) (hn : 0 < m.rows.length)
    (ht : m.rows.map (·.1) = evenTimes t0 m.step m.rows.length) (hL : m.step * ((m.rows.length - 1 : Nat) : Int) ≤ m.lookBack)
    (alpha : ℝ) : m.detector W = .ok [] ∧ anomalyTimes (some []) alpha = .error .attributeError := by
  refine ⟨?_, rfl⟩
  unfold Mad.detector
  have h1 : mvFirst m.rows = t0 := by
    unfold mvFirst
    rw [ht]
    exact evenTimes_first t0 m.step hg _ hn
  have h2 : mvLast m.rows = t0 + m.step * ((m.rows.length - 1 : Nat) : Int) := by
    unfold mvLast
    rw [ht]
    exact evenTimes_last t0 m.step hg _ hn
  rw [h1, h2]
  have : (t0 + m.step * ((m.rows.length - 1 : Nat) : Int) - (t0 + m.lookBack)).toNat = 0 := by omega
  rw [this]
  rfl

/-- C106 is violated, `get_anomalous_metrics`: the p-value is listed as one of the metrics; and if it exceeds all scores it
comes first, in place of the most anomalous metric. -/
theorem C106_metrics_violated (srt : List (String × Option ℝ) → List (String × Option ℝ)) (hp : ∀ l, (srt l).Perm l)
    (ho : ∀ l, (srt l).Pairwise fun a b => ∀ u v, a.2 = some u → b.2 = some v → v ≤ u)
    (s : List MvScore) (x : MvScore) (hx : s.find? (fun y => decide (y.time = x.time)) = some x) :
    (∃ l, anomalousMetrics srt (some s) x.time none = .ok l ∧ ("p_value", some x.p) ∈ l ∧ l.length = x.metrics.length + 1) ∧
    ((∀ m ∈ x.metrics, ∃ u, m.2 = some u ∧ u < x.p) →
      anomalousMetrics srt (some s) x.time (some 1) = .ok [("p_value", some x.p)]) := by
  constructor
  · refine ⟨srt (x.metrics ++ [("p_value", some x.p)]), by unfold anomalousMetrics; simp only [hx], ?_, ?_⟩
    · exact (hp _).mem_iff.2 (by simp)
    · rw [(hp _).length_eq]; simp
  · intro hm
    unfold anomalousMetrics
    simp only [hx]
    congr 1
    have hperm := hp (x.metrics ++ [("p_value", some x.p)])
    have hord := ho (x.metrics ++ [("p_value", some x.p)])
    cases hl : srt (x.metrics ++ [("p_value", some x.p)]) with
    | nil =>
      rw [hl] at hperm
      have := hperm.length_eq
      simp at this
    | cons a l =>
      rw [hl] at hperm hord
      rw [List.take_succ_cons, List.take_zero]
      have ha : a ∈ x.metrics ++ [("p_value", some x.p)] := hperm.mem_iff.1 (by simp)
      rcases List.mem_append.1 ha with ha | ha
      · exfalso
        obtain ⟨u, hu, hlt⟩ := hm a ha
        have hpm : ("p_value", some x.p) ∈ a :: l := hperm.mem_iff.2 (by simp)
        rcases List.mem_cons.1 hpm with e | e
        · rw [← e] at hu
          simp at hu
          linarith
        · have := (List.pairwise_cons.1 hord).1 _ e u x.p hu rfl
          linarith
      · rw [List.mem_singleton.1 ha]

/-- C106, `get_anomalous_metrics`: listed are the `top_k` entries with the highest scores. -/
theorem C106_top (srt : List (String × Option ℝ) → List (String × Option ℝ)) (hp : ∀ l, (srt l).Perm l)
    (ho : ∀ l, (srt l).Pairwise fun a b => ∀ u v, a.2 = some u → b.2 = some v → v ≤ u)
    (s : List MvScore) (t : Int) (k : Nat) (l : List (String × Option ℝ)) (h : anomalousMetrics srt (some s) t (some k) = .ok l) :
    ∃ x ∈ s, x.time = t ∧ ∃ rest, (l ++ rest).Perm (x.metrics ++ [("p_value", some x.p)]) ∧
      l.length = min k (x.metrics.length + 1) ∧
      ∀ a ∈ l, ∀ b ∈ rest, ∀ u v, a.2 = some u → b.2 = some v → v ≤ u := by
  unfold anomalousMetrics at h
  dsimp only at h
  cases hx : s.find? (fun x => decide (x.time = t)) with
  | none => simp [hx] at h
  | some x =>
    simp only [hx, Except.ok.injEq] at h
    have ht := List.find?_some hx
    rw [decide_eq_true_eq] at ht
    refine ⟨x, List.mem_of_find?_eq_some hx, ht, (srt (x.metrics ++ [("p_value", some x.p)])).drop k, ?_, ?_, ?_⟩
    · rw [← h, List.take_append_drop]
      exact hp _
    · rw [← h, List.length_take, (hp _).length_eq]
      simp
    · intro a ha b hb
      have ho' := ho (x.metrics ++ [("p_value", some x.p)])
      rw [← List.take_append_drop k (srt _), List.pairwise_append] at ho'
      rw [← h] at ha
      exact ho'.2.2 a ha b hb

/-! ### Cleaning of the training data -/

theorem cleanCol_some (v : List ℝ) (hv : varOf v ≠ 0) :
    cleanCol (v.map some) = linInterp (v.map fun x => if (x - meanOf v) / Real.sqrt (varOf v) < 3 then some x else none) := by
  have h1 : (v.map some).any (fun x => x.isNone) = false := by
    rw [List.any_eq_false]
    intro x hx
    obtain ⟨y, -, rfl⟩ := List.mem_map.1 hx
    simp
  have h2 : (v.map some).map (fun x : Option ℝ => x.getD 0) = v := by
    rw [List.map_map]
    exact List.map_id v
  unfold cleanCol
  simp only [h1, h2, Bool.false_eq_true, if_false, hv]

/-- C106, `_clean_data`: values whose z-score is below 3 are kept; all values stay within the range of the kept ones. -/
theorem C106_clean_partial (v : List ℝ) (hv : varOf v ≠ 0) (i : Nat) (x : ℝ) (hx : v[i]? = some x) :
    (x - meanOf v < 3 * Real.sqrt (varOf v) → (cleanCol (v.map some)).getD i none = some x) ∧
    ∃ y, (cleanCol (v.map some)).getD i none = some y ∧ (∃ a ∈ v, a ≤ y) ∧ y < meanOf v + 3 * Real.sqrt (varOf v) := by
  have hpos : 0 < Real.sqrt (varOf v) := by
    apply Real.sqrt_pos.2
    refine lt_of_le_of_ne ?_ (Ne.symm hv)
    unfold varOf meanOf
    apply div_nonneg _ (by positivity)
    apply List.sum_nonneg
    intro y hy
    obtain ⟨z, -, rfl⟩ := List.mem_map.1 hy
    positivity
  obtain ⟨hi, hxi⟩ := List.getElem?_eq_some_iff.1 hx
  rw [cleanCol_some v hv]
  set l := v.map fun x => if (x - meanOf v) / Real.sqrt (varOf v) < 3 then some x else none with hl
  constructor
  · intro h
    apply linInterp_known
    rw [List.getD_eq_getElem _ _ (by simpa [hl] using hi)]
    simp only [hl, List.getElem_map, hxi]
    rw [if_pos]
    rw [div_lt_iff₀ hpos]
    exact h
  · have hkept : ∀ y, some y ∈ l → y ∈ v ∧ y < meanOf v + 3 * Real.sqrt (varOf v) := by
      intro y hy
      obtain ⟨z, hz, e⟩ := List.mem_map.1 hy
      split_ifs at e with h3
      rw [Option.some.injEq] at e
      subst e
      rw [div_lt_iff₀ hpos] at h3
      exact ⟨hz, by linarith⟩
    -- a value not above the mean is kept
    have hlow : ∃ y ∈ v, y ≤ meanOf v := by
      by_contra hc
      have hc : ∀ y ∈ v, meanOf v < y := fun y hy => not_le.1 fun h => hc ⟨y, hy, h⟩
      have hlen : (0 : ℝ) < v.length := by exact_mod_cast (by omega : 0 < v.length)
      have hsum : v.sum = meanOf v * v.length := by
        unfold meanOf
        field_simp
      have : (v.map fun _ => meanOf v).sum < (v.map fun y => y).sum := by
        apply List.sum_lt_sum
        · intro y hy; exact (hc y hy).le
        · exact ⟨x, List.mem_of_getElem? hx, hc x (List.mem_of_getElem? hx)⟩
      rw [List.map_const', List.sum_replicate, List.map_id', nsmul_eq_mul] at this
      nlinarith
    obtain ⟨y0, hy0, hle⟩ := hlow
    have hne : ∃ y, some y ∈ l := by
      refine ⟨y0, List.mem_map.2 ⟨y0, hy0, ?_⟩⟩
      rw [if_pos]
      rw [div_lt_iff₀ hpos]
      linarith
    -- extremes of the kept values
    have hfin : ∀ l : List (Option ℝ), (∃ y, some y ∈ l) → ∃ m M, some m ∈ l ∧ some M ∈ l ∧ ∀ y, some y ∈ l → m ≤ y ∧ y ≤ M := by
      intro l
      induction l with
      | nil => rintro ⟨y, hy⟩; simp at hy
      | cons a l ih =>
        intro h
        by_cases hl : ∃ y, some y ∈ l
        · obtain ⟨m, M, h1, h2, h3⟩ := ih hl
          cases a with
          | none =>
            refine ⟨m, M, by simp [h1], by simp [h2], ?_⟩
            intro y hy
            exact h3 y (by simpa using hy)
          | some a =>
            refine ⟨min a m, max a M, ?_, ?_, ?_⟩
            · rcases min_choice a m with e | e <;> rw [e] <;> simp [h1]
            · rcases max_choice a M with e | e <;> rw [e] <;> simp [h2]
            · intro y hy
              rcases List.mem_cons.1 hy with e | e
              · rw [Option.some.injEq] at e
                subst e
                exact ⟨min_le_left _ _, le_max_left _ _⟩
              · exact ⟨(min_le_right _ _).trans (h3 y e).1, (h3 y e).2.trans (le_max_right _ _)⟩
        · obtain ⟨y, hy⟩ := h
          rcases List.mem_cons.1 hy with e | e
          · subst e
            refine ⟨y, y, by simp, by simp, ?_⟩
            intro z hz
            rcases List.mem_cons.1 hz with e | e
            · rw [Option.some.injEq] at e
              subst e
              exact ⟨le_rfl, le_rfl⟩
            · exact absurd ⟨z, e⟩ hl
          · exact absurd ⟨y, e⟩ hl
    obtain ⟨m, M, h1, h2, h3⟩ := hfin l hne
    obtain ⟨y, hy1, hy2, hy3⟩ := linInterp_bounds l m M h3 hne i (by simpa [hl] using hi)
    exact ⟨y, hy1, ⟨m, (hkept m h1).1, hy2⟩, lt_of_le_of_lt hy3 (hkept M h2).2⟩

theorem sq_sum_le (w : List ℝ) : w.sum ^ 2 ≤ w.length * (w.map fun d => d ^ 2).sum := by
  have h0 : ∀ (w : List ℝ) (m : ℝ), 0 ≤ (w.map fun d => d ^ 2).sum - 2 * m * w.sum + w.length * m ^ 2 := by
    intro w m
    induction w with
    | nil => simp
    | cons a w ih =>
      simp only [List.map_cons, List.sum_cons, List.length_cons]
      push_cast
      nlinarith [sq_nonneg (a - m)]
  induction w with
  | nil => simp
  | cons a w ih =>
    have := h0 w a
    simp only [List.map_cons, List.sum_cons, List.length_cons]
    push_cast
    nlinarith

/-- Samuelson's inequality: a value is at most `sqrt (n - 1)` standard deviations above the mean. -/
theorem samuelson (v : List ℝ) (x : ℝ) (hx : x ∈ v) : (x - meanOf v) ^ 2 ≤ ((v.length : ℝ) - 1) * varOf v := by
  obtain ⟨a, b, rfl⟩ := List.append_of_mem hx
  set v := a ++ x :: b with hv
  set μ := meanOf v with hμ
  have hlen : (v.length : ℝ) = a.length + b.length + 1 := by
    rw [hv]
    simp only [List.length_append, List.length_cons]
    push_cast
    ring
  have hlpos : (0 : ℝ) < v.length := by rw [hlen]; positivity
  set w := (a ++ b).map fun y => y - μ with hw
  have hsum : (x - μ) + w.sum = 0 := by
    have h1 : v.sum = μ * v.length := by
      rw [hμ]
      unfold meanOf
      field_simp
    have h2 : ∀ l : List ℝ, (l.map fun y => y - μ).sum = l.sum - μ * l.length := by
      intro l
      induction l with
      | nil => simp
      | cons c l ih =>
        simp only [List.map_cons, List.sum_cons, ih, List.length_cons]
        push_cast
        ring
    rw [hw, h2]
    have h3 : v.sum = a.sum + (x + b.sum) := by rw [hv]; simp
    rw [hlen, h3] at h1
    simp only [List.sum_append, List.length_append]
    push_cast
    linarith
  have hvar : varOf v * v.length = (x - μ) ^ 2 + (w.map fun d => d ^ 2).sum := by
    have h0 : varOf v * v.length = (v.map fun y => (y - μ) ^ 2).sum := by
      unfold varOf
      rw [← hμ]
      unfold meanOf
      rw [List.length_map]
      field_simp
    rw [h0, hw, hv, List.map_map]
    simp only [List.map_append, List.map_cons, List.sum_append, List.sum_cons, Function.comp_def]
    ring
  have hcs := sq_sum_le w
  have hwl : (w.length : ℝ) = v.length - 1 := by
    rw [hlen, hw]
    simp only [List.length_map, List.length_append]
    push_cast
    ring
  rw [hwl] at hcs
  have h4 : w.sum = -(x - μ) := by linarith
  rw [h4] at hcs
  have h5 : (w.map fun d => d ^ 2).sum = varOf v * v.length - (x - μ) ^ 2 := by linarith
  rw [h5] at hcs
  nlinarith

theorem linInterp_length (l : List (Option ℝ)) : (linInterp l).length = l.length := by simp [linInterp]

theorem varOf_nonneg' (v : List ℝ) : 0 ≤ varOf v := by
  unfold varOf meanOf
  apply div_nonneg _ (by positivity)
  apply List.sum_nonneg
  intro y hy
  obtain ⟨z, -, rfl⟩ := List.mem_map.1 hy
  positivity

/-- C106: with at most nine rows of training nothing is ever removed, however far a value is from the others. -/
theorem C106_clean_small_violated (v : List ℝ) (hv : varOf v ≠ 0) (hn : v.length ≤ 9) : cleanCol (v.map some) = v.map some := by
  have hpos : 0 < varOf v := lt_of_le_of_ne (varOf_nonneg' v) (Ne.symm hv)
  have hlen : (cleanCol (v.map some)).length = v.length := by
    rw [cleanCol_some v hv, linInterp_length, List.length_map]
  apply List.ext_getElem (by simpa using hlen)
  intro i h1 h2
  have hi : i < v.length := by rwa [hlen] at h1
  have h3 := (C106_clean_partial v hv i v[i] (List.getElem?_eq_getElem hi)).1 (by
    have h4 := samuelson v v[i] (List.getElem_mem hi)
    have h5 : ((v.length : ℝ) - 1) ≤ 8 := by
      have : (v.length : ℝ) ≤ 9 := by exact_mod_cast hn
      linarith
    have h6 : Real.sqrt (varOf v) ^ 2 = varOf v := Real.sq_sqrt hpos.le
    have h7 : 0 < Real.sqrt (varOf v) := Real.sqrt_pos.2 hpos
    by_contra hc
    rw [not_lt] at hc
    nlinarith)
  rw [List.getD_eq_getElem _ _ h1] at h3
  rw [h3, List.getElem_map]

theorem spike_stats (n : Nat) (a b : ℝ) : meanOf (List.replicate n a ++ [b]) = a + (b - a) / (n + 1) ∧
    varOf (List.replicate n a ++ [b]) = n * ((b - a) / (n + 1)) ^ 2 := by
  have hp : (n : ℝ) + 1 ≠ 0 := by positivity
  have h1 : meanOf (List.replicate n a ++ [b]) = a + (b - a) / (n + 1) := by
    unfold meanOf
    simp only [List.sum_append, List.sum_replicate, List.length_append, List.length_replicate, List.sum_cons, List.sum_nil,
      List.length_cons, List.length_nil, nsmul_eq_mul]
    push_cast
    field_simp
    ring
  refine ⟨h1, ?_⟩
  unfold varOf
  rw [h1]
  unfold meanOf
  simp only [List.map_append, List.map_replicate, List.map_cons, List.map_nil, List.sum_append, List.sum_replicate,
    List.length_append, List.length_replicate, List.sum_cons, List.sum_nil, List.length_cons, List.length_nil, nsmul_eq_mul]
  push_cast
  field_simp
  ring

theorem cleanCol_spike_kept (n : Nat) (hn : 0 < n) (a b : ℝ) (hab : b ≠ a)
    (h : (b - a) - (b - a) / (n + 1) < 3 * (Real.sqrt n * |(b - a) / (n + 1)|)) :
    (cleanCol ((List.replicate n a ++ [b]).map some)).getD n none = some b := by
  obtain ⟨hm, hvar⟩ := spike_stats n a b
  have hp : (0 : ℝ) < (n : ℝ) + 1 := by positivity
  have hn' : (0 : ℝ) < n := by exact_mod_cast hn
  have hd : (b - a) / ((n : ℝ) + 1) ≠ 0 := div_ne_zero (sub_ne_zero.2 hab) hp.ne'
  have hv : varOf (List.replicate n a ++ [b]) ≠ 0 := by
    rw [hvar]
    positivity
  refine (C106_clean_partial _ hv n b (by simp)).1 ?_
  rw [hvar, hm, Real.sqrt_mul hn'.le, Real.sqrt_sq_eq_abs]
  linarith

/-- C106 is violated: a fall is never removed, however deep and however long the training; the same value above the others
is, from ten rows on. -/
theorem C106_clean_low_violated (n : Nat) (hn : 9 ≤ n) (a b : ℝ) :
    (b < a → (cleanCol ((List.replicate n a ++ [b]).map some)).getD n none = some b) ∧
    (a < b → (cleanCol ((List.replicate n a ++ [b]).map some)).getD n none = some a) := by
  have hp : (0 : ℝ) < (n : ℝ) + 1 := by positivity
  have hn' : (9 : ℝ) ≤ n := by exact_mod_cast hn
  constructor
  · intro hab
    apply cleanCol_spike_kept n (by omega) a b hab.ne
    have h1 : (b - a) - (b - a) / ((n : ℝ) + 1) = (b - a) * (n / ((n : ℝ) + 1)) := by field_simp; ring
    have h2 : (b - a) * (n / ((n : ℝ) + 1)) < 0 := mul_neg_of_neg_of_pos (by linarith) (by positivity)
    have h3 : 0 ≤ 3 * (Real.sqrt n * |(b - a) / ((n : ℝ) + 1)|) := by positivity
    linarith
  · intro hab
    obtain ⟨hm, hvar⟩ := spike_stats n a b
    have hd : 0 < (b - a) / ((n : ℝ) + 1) := div_pos (by linarith) hp
    have hv : varOf (List.replicate n a ++ [b]) ≠ 0 := by
      rw [hvar]
      positivity
    have hs3 : 3 ≤ Real.sqrt n := Real.le_sqrt_of_sq_le (by norm_num; linarith)
    have hsd : Real.sqrt (varOf (List.replicate n a ++ [b])) = Real.sqrt n * ((b - a) / (n + 1)) := by
      rw [hvar, Real.sqrt_mul (by positivity), Real.sqrt_sq hd.le]
    have hsp : 0 < Real.sqrt (varOf (List.replicate n a ++ [b])) := by rw [hsd]; positivity
    rw [cleanCol_some _ hv]
    set l := (List.replicate n a ++ [b]).map fun x =>
      if (x - meanOf (List.replicate n a ++ [b])) / Real.sqrt (varOf (List.replicate n a ++ [b])) < 3 then some x else none with hl
    have hza : (a - meanOf (List.replicate n a ++ [b])) / Real.sqrt (varOf (List.replicate n a ++ [b])) < 3 := by
      rw [div_lt_iff₀ hsp, hm]
      linarith
    have hzb : ¬ (b - meanOf (List.replicate n a ++ [b])) / Real.sqrt (varOf (List.replicate n a ++ [b])) < 3 := by
      rw [not_lt, le_div_iff₀ hsp, hm, hsd]
      have e : b - (a + (b - a) / ((n : ℝ) + 1)) = n * ((b - a) / (n + 1)) := by field_simp; ring
      rw [e]
      have : 3 * Real.sqrt n ≤ n := by
        nlinarith [Real.sq_sqrt (by positivity : (0 : ℝ) ≤ n), Real.sqrt_nonneg (n : ℝ)]
      nlinarith
    have hall : ∀ y, some y ∈ l → a ≤ y ∧ y ≤ a := by
      intro y hy
      obtain ⟨z, hz, e⟩ := List.mem_map.1 hy
      rcases List.mem_append.1 hz with hz | hz
      · rw [(List.mem_replicate.1 hz).2, if_pos hza, Option.some.injEq] at e
        rw [e]
        exact ⟨le_rfl, le_rfl⟩
      · rw [List.mem_singleton.1 hz, if_neg hzb] at e
        simp at e
    have hne : ∃ y, some y ∈ l :=
      ⟨a, List.mem_map.2 ⟨a, List.mem_append_left _ (List.mem_replicate.2 ⟨by omega, rfl⟩), if_pos hza⟩⟩
    obtain ⟨y, h1, h2, h3⟩ := linInterp_bounds l a a hall hne n (by simp [hl])
    rw [h1, le_antisymm h3 h2]

/-- C106 is violated: a column that is constant, or in which one value is missing, is missing as a whole after the cleaning. -/
theorem C106_clean_missing_violated (l : List (Option ℝ)) (h : none ∈ l ∨ ∃ x, ∀ y ∈ l, y = some x) :
    ∀ y ∈ cleanCol l, y = none := by
  unfold cleanCol
  by_cases hn : l.any (fun x => x.isNone) = true
  · rw [if_pos hn]
    intro y hy
    obtain ⟨z, -, rfl⟩ := List.mem_map.1 hy
    rfl
  · rw [if_neg hn]
    rcases h with h | ⟨x, hx⟩
    · exact absurd (List.any_eq_true.2 ⟨none, h, rfl⟩) hn
    · have hv : varOf (l.map fun x => x.getD 0) = 0 := by
        apply varOf_const _ x
        intro y hy
        obtain ⟨z, hz, rfl⟩ := List.mem_map.1 hy
        rw [hx z hz]
        rfl
      intro y hy
      simp only [hv, if_true] at hy
      set w := (l.map fun x : Option ℝ => x.getD 0).map (fun _ => (none : Option ℝ)) with hw
      have hwn : ∀ i, w.getD i none = none := by
        intro i
        rcases Nat.lt_or_ge i w.length with hi | hi
        · rw [List.getD_eq_getElem _ _ hi]
          simp [hw]
        · rw [List.getD_eq_default _ _ hi]
      obtain ⟨i, hi, e⟩ := List.getElem_of_mem hy
      have hi' : i < w.length := by rwa [linInterp_length] at hi
      have h1 := linInterp_getD w i hi'
      rw [List.getD_eq_getElem _ _ hi, e] at h1
      rw [h1]
      cases h2 : lastKnown w i with
      | some p =>
        exfalso
        obtain ⟨j, -, e⟩ := List.mem_filterMap.1 (List.mem_of_getLast? h2)
        rw [hwn] at e
        simp at e
      | none =>
        cases h3 : nextKnown w i with
        | some p =>
          exfalso
          obtain ⟨k, b⟩ := p
          have := (nextKnown_some w i k b h3).2
          rw [hwn] at this
          simp at this
        | none => rfl

/-! ### The scores of a forecast -/

/-- C106: the overall score is the Mahalanobis distance: with inverse covariance `A`, means `μ`, forecasts `e` and actual values
`v`, the root of the quadratic form of `e - v - μ`; the score of a metric is that of the same difference; the p-value is that
of the distance with as many degrees of freedom as metrics. -/
theorem C106_scores (W : MvWorld) (k : Nat) (names : Fin k → String) (resid : Fin k → List ℝ) (A : Fin k → Fin k → ℝ)
    (e v : Fin k → ℝ) (t : Int) (x : MvScore)
    (hx : x = mvScores W (List.ofFn names) ⟨List.ofFn resid, true, List.ofFn fun i => List.ofFn (A i), List.ofFn e⟩ (List.ofFn v) t) :
    x.time = t ∧
    x.metrics = List.ofFn (fun i => (names i, (var1 (resid i)).bind fun s =>
      if s = 0 then none else some (|e i - v i - meanOf (resid i)| / Real.sqrt s))) ∧
    x.overall = Real.sqrt (∑ i, ∑ j, (e i - v i - meanOf (resid i)) * A i j * (e j - v j - meanOf (resid j))) ∧
    x.p = W.chi2sf k x.overall := by
  have hz : ∀ {α β γ : Type} (n : Nat) (g : α → β → γ) (a : Fin n → α) (b : Fin n → β),
      (List.ofFn a).zipWith g (List.ofFn b) = List.ofFn fun i => g (a i) (b i) := by
    intro α β γ n g a b
    apply List.ext_getElem (by simp)
    intro i h1 h2
    simp
  subst hx
  refine ⟨rfl, ?_, ?_, ?_⟩
  · unfold mvScores
    simp only [hz, List.zip]
    rfl
  · unfold mvScores mahalanobis
    simp only [hz, List.map_ofFn, List.sum_ofFn]
    congr 1
    apply Finset.sum_congr rfl
    intro i _
    rw [Finset.mul_sum]
    apply Finset.sum_congr rfl
    intro j _
    simp only [Function.comp]
    ring
  · unfold mvScores
    simp only [List.length_ofFn]

/-- C106: one window in which the covariance is not positive definite, or the model cannot be fitted, loses all scores. -/
theorem C106_fails (W : MvWorld) (m : Mad) (t0 : Int) (hg : 0 < m.step) (hn : 0 < m.rows.length)
    (ht : m.rows.map (·.1) = evenTimes t0 m.step m.rows.length) (j : Nat) (hj : m.lookBack = m.step * (j : Int))
    (i : Nat) (hi : j ≤ i) (hin : i + 1 < m.rows.length)
    (hbad : ∀ f, W.fit (cleanData m.names.length (m.rows.filter fun r =>
        decide (t0 + m.step * (i : Int) - m.lookBack ≤ r.1) && decide (r.1 ≤ t0 + m.step * (i : Int)))) = .ok f → f.posDef = false) :
    ∃ e, m.detector W = .error e := by
  cases h : m.detector W with
  | error e => exact ⟨e, rfl⟩
  | ok s =>
    exfalso
    obtain ⟨h1, h2⟩ := C106_times_partial W m t0 hg hn ht j hj s h
    have hmem : t0 + m.step * ((i + 1 : Nat) : Int) ∈ s.map (·.time) := by
      rw [h1, ht]
      have e : (evenTimes t0 m.step m.rows.length).drop (j + 1) =
          (List.range (m.rows.length - (j + 1))).map fun k : Nat => t0 + m.step * ((j + 1 + k : Nat) : Int) := by
        apply List.ext_getElem
        · simp [evenTimes]
        · intro k _ _
          simp [evenTimes]
      rw [e, List.mem_map]
      exact ⟨i - j, List.mem_range.2 (by omega), by rw [show j + 1 + (i - j) = i + 1 by omega]⟩
    obtain ⟨x, hx, hxt⟩ := List.mem_map.1 hmem
    obtain ⟨f, r, hf, hp, -⟩ := h2 x hx
    have e2 : x.time - m.step = t0 + m.step * (i : Int) := by
      rw [hxt]
      push_cast
      ring
    rw [e2] at hf
    rw [hbad f hf] at hp
    exact Bool.false_ne_true hp

/-- C106: otherwise there are scores. -/
theorem C106_succeeds (W : MvWorld) (m : Mad) (t0 : Int) (hg : 0 < m.step) (hn : 0 < m.rows.length)
    (ht : m.rows.map (·.1) = evenTimes t0 m.step m.rows.length) (j : Nat) (hj : m.lookBack = m.step * (j : Int))
    (hfit : ∀ i : Nat, j ≤ i → i + 1 < m.rows.length → ∃ f, W.fit (cleanData m.names.length (m.rows.filter fun r =>
        decide (t0 + m.step * (i : Int) - m.lookBack ≤ r.1) && decide (r.1 ≤ t0 + m.step * (i : Int)))) = .ok f ∧ f.posDef = true) :
    ∃ s, m.detector W = .ok s := by
  have hloop : ∀ (fuel i : Nat), j ≤ i →
      ∃ s, m.loop W (t0 + m.step * ((m.rows.length - 1 : Nat) : Int)) fuel (t0 + m.step * (i : Int)) = .ok s := by
    intro fuel
    induction fuel with
    | zero => intro i _; exact ⟨[], rfl⟩
    | succ fuel ih =>
      intro i hi
      unfold Mad.loop
      by_cases hlt : t0 + m.step * (i : Int) < t0 + m.step * ((m.rows.length - 1 : Nat) : Int)
      · rw [if_pos hlt]
        have hi2 : i + 1 < m.rows.length := by
          have h3 : m.step * (i : Int) < m.step * ((m.rows.length - 1 : Nat) : Int) := by omega
          have := lt_of_mul_lt_mul_left h3 hg.le
          omega
        obtain ⟨f, hf, hp⟩ := hfit i hi hi2
        have hnext : t0 + m.step * (i : Int) + m.step = t0 + m.step * ((i + 1 : Nat) : Int) := by push_cast; ring
        have hmem : t0 + m.step * ((i + 1 : Nat) : Int) ∈ m.rows.map (·.1) := by
          rw [ht]
          exact List.mem_map.2 ⟨i + 1, List.mem_range.2 hi2, rfl⟩
        obtain ⟨r, hr, hr1⟩ := List.mem_map.1 hmem
        cases hfd : m.rows.find? (fun r => decide (r.1 = t0 + m.step * ((i + 1 : Nat) : Int))) with
        | none =>
          have := List.find?_eq_none.1 hfd r hr
          rw [decide_eq_true_eq] at this
          exact absurd hr1 this
        | some q =>
          have hfc : m.forecast W (t0 + m.step * (i : Int)) = .ok (f, q.2.map fun x => x.getD 0) := by
            unfold Mad.forecast
            simp only [hf, bind, Except.bind, hp, hnext, hfd, pure, Except.pure, Bool.not_true, Bool.false_eq_true, if_false]
          obtain ⟨s, hs⟩ := ih (i + 1) (by omega)
          simp only [hfc, hnext, hs, bind, Except.bind, pure, Except.pure]
          exact ⟨_, rfl⟩
      · rw [if_neg hlt]
        exact ⟨[], rfl⟩
  unfold Mad.detector
  have h1 : mvFirst m.rows = t0 := by
    unfold mvFirst
    rw [ht]
    exact evenTimes_first t0 m.step hg _ hn
  have h2 : mvLast m.rows = t0 + m.step * ((m.rows.length - 1 : Nat) : Int) := by
    unfold mvLast
    rw [ht]
    exact evenTimes_last t0 m.step hg _ hn
  rw [h1, h2, hj]
  exact hloop _ j le_rfl

/-! ### Examples -/

example : Mad.init id ["a"] [(0, [some 1]), (3, [some 2]), (6, [some 5])] 3 = .ok ⟨["a"], [(0, [some 1]), (3, [some 2]), (6, [some 5])], 3, 3⟩ :=
  (C106_init id (fun _ => rfl) _ _ _ _).2 ⟨rfl, rfl, rfl, by decide, 0, by decide⟩

example : ∃ s, Mad.detector ⟨fun _ => .ok ⟨[[1, -1]], true, [[1]], [0]⟩, fun _ x => 1 / (1 + x)⟩
    ⟨["a"], [(0, [some 1]), (3, [some 2]), (6, [some 5])], 3, 3⟩ = .ok s ∧ s.map (·.time) = [6] := by
  obtain ⟨s, hs⟩ := C106_succeeds ⟨fun _ => .ok ⟨[[1, -1]], true, [[1]], [0]⟩, fun _ x => 1 / (1 + x)⟩
    ⟨["a"], [(0, [some 1]), (3, [some 2]), (6, [some 5])], 3, 3⟩ 0 (by decide) (by decide) (by decide) 1 rfl
    (fun i _ _ => ⟨_, rfl, rfl⟩)
  refine ⟨s, hs, ?_⟩
  rw [(C106_times_partial _ _ 0 (by decide) (by decide) (by decide) 1 rfl s hs).1]
  rfl

example : ∃ e, Mad.detector ⟨fun _ => .ok ⟨[[1, -1]], true, [[1]], [0]⟩, fun _ x => 1 / (1 + x)⟩
    ⟨["a"], [(0, [some 1]), (3, [some 2]), (6, [some 5])], 3, 4⟩ = .error e :=
  C106_offgrid_violated _ _ 0 (by decide) (by decide) (by decide) (by decide) (by decide)

example : ∃ e, Mad.detector ⟨fun _ => .ok ⟨[[1, -1]], false, [[1]], [0]⟩, fun _ x => 1 / (1 + x)⟩
    ⟨["a"], [(0, [some 1]), (3, [some 2]), (6, [some 5])], 3, 3⟩ = .error e :=
  C106_fails _ _ 0 (by decide) (by decide) (by decide) 1 rfl 1 le_rfl (by decide) (by
    intro f h
    rw [Except.ok.injEq] at h
    rw [← h])

example : StrictAntiOn (fun x : ℝ => 1 / (1 + x)) (Set.Ici 0) := by
  intro a ha b hb h
  rw [Set.mem_Ici] at ha hb
  exact one_div_lt_one_div_of_lt (by linarith) (by linarith)

example : metricScore [3, 1] (-2) = some (2 * |2| / Real.sqrt 2) := by
  have hv : var1 [3, 1] = some 2 := by norm_num [var1, meanOf]
  have := C106_metric_violated [3, 1] 2 0 2 hv (by norm_num) (by norm_num [meanOf])
  rw [show meanOf [3, 1] = 2 by norm_num [meanOf]] at this
  simpa using this

example : anomalyTimes (some [⟨5, [("a", some 2)], 2, 1 / 100⟩, ⟨6, [("a", some 1)], 1, 1 / 2⟩]) (5 / 100) = .ok [5] := by
  norm_num [anomalyTimes]

example : (cleanCol ((List.replicate 50 (7 : ℝ) ++ [-1000]).map some)).getD 50 none = some (-1000) :=
  (C106_clean_low_violated 50 (by norm_num) 7 (-1000)).1 (by norm_num)

example : cleanCol [some 1, some 1, some 1000000] = [some 1, some 1, some 1000000] := by
  have := C106_clean_small_violated [1, 1, 1000000] (by norm_num [varOf, meanOf]) (by simp)
  simpa using this

example : ∀ y ∈ cleanCol [some 4, none, some 5], y = none := C106_clean_missing_violated _ (Or.inl (by simp))

end

end Kats

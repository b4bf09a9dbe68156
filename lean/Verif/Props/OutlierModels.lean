import Verif.Model.OutlierModels
import Verif.Lemmas.MapM
import Verif.Props.MultiOutlier
import Mathlib.Data.List.GetD
import Mathlib.Tactic.Linarith
import Mathlib.Tactic.Ring
import Mathlib.Tactic.NormNum

/-!
# Detector models of the outlier detectors: C107
-/

namespace Kats

noncomputable section

open Classical

theorem locRows_spec (t : OTab) (hnd : (t.map (·.1)).Nodup) (times : List Int) (h : ∀ x ∈ times, x ∈ t.map (·.1)) :
    ∃ rows, locRows t times = .ok rows ∧ rows.map (·.1) = times ∧ ∀ r ∈ rows, r ∈ t := by
  induction times with
  | nil => exact ⟨[], rfl, rfl, by simp⟩
  | cons x times ih =>
    obtain ⟨rows, h1, h2, h3⟩ := ih fun y hy => h y (by simp [hy])
    obtain ⟨r, hr, hrx⟩ := List.mem_map.1 (h x (by simp))
    have hf : t.filter (fun r => decide (r.1 = x)) = [r] := by
      have hp : (t.filter (fun r => decide (r.1 = x))).Nodup := (List.Nodup.of_map _ hnd).filter _
      have hall : ∀ q ∈ t.filter (fun r => decide (r.1 = x)), q = r := by
        intro q hq
        rw [List.mem_filter, decide_eq_true_eq] at hq
        exact List.inj_on_of_nodup_map hnd hq.1 hr (hq.2.trans hrx.symm)
      have hmem : r ∈ t.filter (fun r => decide (r.1 = x)) := List.mem_filter.2 ⟨hr, by rw [decide_eq_true_eq]; exact hrx⟩
      have he := List.eq_replicate_iff.2 ⟨rfl, hall⟩
      have hl : (t.filter (fun r => decide (r.1 = x))).length = 1 := by
        rcases hn : (t.filter (fun r => decide (r.1 = x))).length with _ | _ | k
        · rw [List.length_eq_zero_iff] at hn
          rw [hn] at hmem
          simp at hmem
        · omega
        · rw [he, hn] at hp
          simp [List.replicate_succ] at hp
      rw [he, hl]
      rfl
    have hone : locOne t x = .ok [r] := by
      unfold locOne
      rw [hf]
    unfold locRows at h1 ⊢
    rw [List.mapM_cons, hone]
    cases hm : times.mapM (locOne t) with
    | error e => rw [hm] at h1; simp [bind, Except.bind] at h1
    | ok parts =>
      rw [hm] at h1
      simp only [bind, Except.bind, pure, Except.pure, Except.ok.injEq] at h1
      refine ⟨r :: rows, ?_, by simp [h2, hrx], ?_⟩
      · simp only [bind, Except.bind, pure, Except.pure, Except.ok.injEq, List.flatten_cons, h1]
        rfl
      · intro q hq
        rcases List.mem_cons.1 hq with rfl | hq
        · exact hr
        · exact h3 q hq

theorem locRows_missing (t : OTab) (times : List Int) (x : Int) (hx : x ∈ times) (h : x ∉ t.map (·.1)) :
    locRows t times = .error .keyError := by
  have hf : t.filter (fun r => decide (r.1 = x)) = [] := by
    rw [List.filter_eq_nil_iff]
    intro r hr
    rw [decide_eq_true_eq]
    intro e
    exact h (e ▸ List.mem_map_of_mem hr)
  have hone : locOne t x = .error .keyError := by
    unfold locOne
    rw [hf]
  have : times.mapM (locOne t) = .error .keyError := by
    induction times with
    | nil => simp at hx
    | cons y times ih =>
      rw [List.mapM_cons]
      rcases List.mem_cons.1 hx with rfl | hx
      · rw [hone]
        rfl
      · rw [ih hx]
        unfold locOne
        split <;> rfl
  unfold locRows
  rw [this]
  rfl

/-- The extended history. -/
theorem totalData_eq (h : Option OTab) (data : OTab) : totalData h data = (h.getD []) ++ data := by
  cases h <;> rfl

/-! ### `OutlierDetectorModel` -/

/-- C107: a model that has not been fitted answers with the scores of the detection on history and data together, at exactly
the times of the data; the prediction is the cleaned series at these times. -/
theorem C107_outlier_partial (W : OMWorld) (m : OModel) (hm : m.model = none) (interpolate : Bool) (data : OTab) (hist : Option OTab)
    (s cleaned : OTab) (hs : W.scores m.decomp m.iqrMult (hist.getD [] ++ data) = some s)
    (hc : W.remover m.decomp m.iqrMult interpolate (hist.getD [] ++ data) = .ok cleaned) (hnd : (s.map (·.1)).Nodup)
    (hsub : ∀ r ∈ data, r.1 ∈ s.map (·.1)) :
    ∃ m' r, (m.fitPredict W interpolate data hist) = ((m', hist.map (· ++ data)), .ok r) ∧
      r.scores.map (·.1) = data.map (·.1) ∧ (∀ x ∈ r.scores, x ∈ s) ∧
      r.magnitude.map (·.1) = data.map (·.1) ∧ (∀ x ∈ r.magnitude, ∀ v ∈ x.2, v = some 0) ∧
      ∃ p, r.predicted = some p ∧ ∀ x, x ∈ p ↔ x ∈ cleaned ∧ x.1 ∈ data.map (·.1) := by
  obtain ⟨rows, h1, h2, h3⟩ := locRows_spec s hnd (data.map (·.1)) (by
    intro x hx
    obtain ⟨r, hr, rfl⟩ := List.mem_map.1 hx
    exact hsub r hr)
  have hz : (data.map (·.1)).zip (rows.map (·.2)) = rows := by
    rw [← h2]
    exact (List.zip_of_prod rfl rfl).symm
  have hlen : (data.map (·.1)).length = rows.length := by rw [← h2, List.length_map]
  refine ⟨{ m with model := some (totalData hist data) },
    ⟨rows, some (cleaned.filter fun r => decide (r.1 ∈ data.map (·.1))),
      (data.map (·.1)).zip (rows.map fun r => r.2.map fun _ => some 0)⟩, ?_, h2, h3, ?_, ?_, _, rfl, ?_⟩
  · unfold OModel.fitPredict OModel.predict
    simp only [hm, Option.isNone_none, if_true, OModel.fit]
    refine Prod.ext rfl ?_
    unfold OModel.respond
    simp only [totalData_eq, hs, hc, h1, bind, Except.bind, mkSeries, List.length_map, ← hlen, if_true, pure, Except.pure]
    rw [hz]
  · exact List.map_fst_zip (by simp [← hlen])
  · intro x hx v hv
    have := (List.of_mem_zip (show (x.1, x.2) ∈ _ from hx)).2
    obtain ⟨r, -, e⟩ := List.mem_map.1 this
    rw [← e] at hv
    obtain ⟨w, -, rfl⟩ := List.mem_map.1 hv
    rfl
  · intro x
    rw [List.mem_filter, decide_eq_true_eq]

/-- C107: if the scores hold a time of the data twice, there are more rows than times and the constructor of the
series of the scores raises `ValueError`. -/
theorem C107_outlier_duplicate (W : OMWorld) (m : OModel) (hm : m.model = none) (interpolate : Bool) (data : OTab)
    (hist : Option OTab) (s cleaned : OTab) (hs : W.scores m.decomp m.iqrMult (hist.getD [] ++ data) = some s)
    (hc : W.remover m.decomp m.iqrMult interpolate (hist.getD [] ++ data) = .ok cleaned)
    (hsub : ∀ r ∈ data, r.1 ∈ s.map (·.1)) (x : Int × List (Option ℝ)) (hx : x ∈ data)
    (hdup : 2 ≤ (s.filter fun r => decide (r.1 = x.1)).length) :
    (m.fitPredict W interpolate data hist).2 = .error .valueError := by
  have hone : ∀ t, t ∈ s.map (·.1) → locOne s t = .ok (s.filter fun r => decide (r.1 = t)) ∧
      1 ≤ (s.filter fun r => decide (r.1 = t)).length := by
    intro t ht
    obtain ⟨r, hr, rfl⟩ := List.mem_map.1 ht
    have : r ∈ s.filter fun r' => decide (r'.1 = r.1) := List.mem_filter.2 ⟨hr, by simp⟩
    unfold locOne
    cases hl : s.filter fun r' => decide (r'.1 = r.1) with
    | nil => rw [hl] at this; simp at this
    | cons a l => exact ⟨rfl, by simp⟩
  have hloc : ∀ times : List Int, (∀ t ∈ times, t ∈ s.map (·.1)) → ∃ parts, times.mapM (locOne s) = .ok parts ∧
      times.length ≤ parts.flatten.length ∧ (x.1 ∈ times → times.length < parts.flatten.length) := by
    intro times
    induction times with
    | nil => intro _; exact ⟨[], rfl, by simp, by simp⟩
    | cons t times ih =>
      intro h
      obtain ⟨parts, h1, h2, h3⟩ := ih fun u hu => h u (by simp [hu])
      obtain ⟨h4, h5⟩ := hone t (h t (by simp))
      refine ⟨_, by rw [List.mapM_cons, h4, h1]; rfl, ?_, ?_⟩
      · rw [List.flatten_cons, List.length_append, List.length_cons]
        omega
      · intro hmem
        rw [List.flatten_cons, List.length_append, List.length_cons]
        rcases List.mem_cons.1 hmem with e | e
        · rw [e] at hdup
          omega
        · have := h3 e
          omega
  obtain ⟨parts, h1, -, h3⟩ := hloc (data.map (·.1)) (by
    intro t ht
    obtain ⟨r, hr, rfl⟩ := List.mem_map.1 ht
    exact hsub r hr)
  have h4 := h3 (List.mem_map.2 ⟨x, hx, rfl⟩)
  rw [List.length_map] at h4
  unfold OModel.fitPredict OModel.predict
  simp only [hm, Option.isNone_none, if_true, OModel.fit]
  unfold OModel.respond locRows
  simp only [totalData_eq, hs, hc, h1, bind, Except.bind, pure, Except.pure, mkSeries, List.length_map]
  rw [if_neg (show ¬ data.length = parts.flatten.length by omega)]

/-- Two rows of scores for the one time of the data. -/
example : 2 ≤ ([(0, [some 1]), (0, [some 2])] : OTab).length := by simp

/-- C107 is violated: `fit_predict` of a model that has been fitted does not fit again.  The answer is what `predict` gives for
the earlier data, whatever the new values are, and a time the earlier data do not have raises. -/
theorem C107_outlier_stale_violated (W : OMWorld) (m : OModel) (old : OTab) (hm : m.model = some old) (interpolate : Bool)
    (data : OTab) (hist : Option OTab) :
    (∀ data' hist', data'.map (·.1) = data.map (·.1) →
      (m.fitPredict W interpolate data' hist').2 = (m.fitPredict W interpolate data hist).2) ∧
    (∀ x ∈ data, (∀ s, W.scores m.decomp m.iqrMult old = some s → x.1 ∉ s.map (·.1)) →
      ∃ e, (m.fitPredict W interpolate data hist).2 = .error e) := by
  have hp : ∀ data hist, (m.fitPredict W interpolate data hist).2 = m.respond W interpolate data := by
    intro data hist
    unfold OModel.fitPredict OModel.predict
    simp [hm]
  constructor
  · intro data' hist' h
    rw [hp, hp]
    unfold OModel.respond
    simp only [hm, h]
  · intro x hx hno
    rw [hp]
    unfold OModel.respond
    simp only [hm]
    cases hc : W.remover m.decomp m.iqrMult interpolate old with
    | error e => exact ⟨e, by simp [bind, Except.bind]⟩
    | ok cleaned =>
      cases hs : W.scores m.decomp m.iqrMult old with
      | none => exact ⟨.otherError, by simp [bind, Except.bind]⟩
      | some s =>
        refine ⟨.keyError, ?_⟩
        simp only [bind, Except.bind]
        rw [locRows_missing s (data.map (·.1)) x.1 (List.mem_map_of_mem hx) (hno s hs)]

/-- C107 is violated: the history of the caller is extended by the data; a second model given the same history and data sees
the data twice. -/
theorem C107_outlier_history_violated (W : OMWorld) (m m2 : OModel) (hm : m.model = none) (hm2 : m2.model = none)
    (interpolate : Bool) (data h : OTab) (hd : data ≠ []) :
    ∃ h', (m.fitPredict W interpolate data (some h)).1.2 = some h' ∧ h' ≠ h ∧
      (m2.fitPredict W interpolate data (some h')).1.1.model = some (h ++ data ++ data) := by
  refine ⟨h ++ data, ?_, ?_, ?_⟩
  · unfold OModel.fitPredict OModel.predict
    simp [hm, OModel.fit, extendHist]
  · intro e
    have := congrArg List.length e
    simp at this
    exact hd this
  · unfold OModel.fitPredict OModel.predict
    simp [hm2, OModel.fit, totalData, extendHist]

/-- C107: a serialized model restores to a model with the same configuration, which has not been fitted. -/
theorem C107_outlier_serialize (m : OModel) (d : String) (q : ℝ) : OModel.init d q (some m.serialize) = { m with model := none } ∧
    OModel.init d q none = { decomp := d, iqrMult := q, model := none } := ⟨rfl, rfl⟩

/-! ### `StaticThresholdModel` -/

/-- C107: the scores of the static threshold model are the values of the data at their times, and all magnitudes are zero. -/
theorem C107_static (data : OTab) (hist : Option OTab) :
    (staticFitPredict data hist).scores = data ∧ (staticFitPredict data hist).magnitude.map (·.1) = data.map (·.1) ∧
      ∀ r ∈ (staticFitPredict data hist).magnitude, ∀ v ∈ r.2, v = some 0 := by
  refine ⟨rfl, ?_, ?_⟩
  · unfold staticFitPredict
    simp
  · intro r hr v hv
    obtain ⟨q, -, rfl⟩ := List.mem_map.1 hr
    obtain ⟨w, -, rfl⟩ := List.mem_map.1 hv
    rfl

/-- C107 is violated: a static threshold model can neither predict nor be serialized. -/
theorem C107_static_violated (data : OTab) (hist : Option OTab) :
    (∃ e, staticPredict data hist = .error e) ∧ ∃ e, staticSerialize none = .error e := ⟨⟨_, rfl⟩, ⟨_, rfl⟩⟩

/-! ### `MultivariateAnomalyDetectorModel` -/

theorem minTimeOf_spec (r : Int × List (Option ℝ)) (data : OTab) (h : (r :: data).Pairwise fun a b => a.1 < b.1) :
    minTimeOf (r :: data) = r.1 := by
  unfold minTimeOf
  simp only [List.map_cons, List.headD_cons, List.foldl_cons, min_self]
  have : ∀ l : List Int, (∀ x ∈ l, r.1 ≤ x) → l.foldl min r.1 = r.1 := by
    intro l
    induction l with
    | nil => intro _; rfl
    | cons a l ih =>
      intro h
      rw [List.foldl_cons, min_eq_left (h a (by simp))]
      exact ih fun x hx => h x (by simp [hx])
  apply this
  intro x hx
  obtain ⟨q, hq, rfl⟩ := List.mem_map.1 hx
  exact ((List.pairwise_cons.1 h).1 q hq).le

theorem mfit_ok (W : MMWorld) (m : MModel) (data : OTab) (hist : Option OTab) (s : List MvScore)
    (hv : hist ≠ none → W.valid (hist.getD [] ++ data) = .ok ()) (hk : W.make m.trainingDays (hist.getD [] ++ data) = .ok ())
    (hs : W.detect m.trainingDays (hist.getD [] ++ data) = .ok s) :
    m.fit W data hist = (({ m with model := some (some s) }, hist.map (· ++ data)), .ok ()) := by
  unfold MModel.fit
  cases hist with
  | none =>
    simp only [totalData_eq, hk, hs, Option.isSome_none, Bool.false_eq_true, if_false]
    rfl
  | some h =>
    simp only [totalData_eq, hv (by simp), hk, hs, Option.isSome_some, if_true]
    rfl

/-- C107: `fit_predict` answers with one row for each time of the data: the score of this time, or NaN if it is not scored,
provided the scored times are the last ones of history and data. -/
theorem C107_multi_partial (W : MMWorld) (m : MModel) (r0 : Int × List (Option ℝ)) (data : OTab) (hist : Option OTab) (s : List MvScore)
    (hv : hist ≠ none → W.valid (hist.getD [] ++ r0 :: data) = .ok ()) (hk : W.make m.trainingDays (hist.getD [] ++ r0 :: data) = .ok ())
    (hs : W.detect m.trainingDays (hist.getD [] ++ r0 :: data) = .ok s) (hne : s ≠ [])
    (hinc : (hist.getD [] ++ r0 :: data).Pairwise fun a b => a.1 < b.1) (j : Nat)
    (htimes : s.map (·.time) = ((hist.getD [] ++ r0 :: data).map (·.1)).drop j) :
    ∃ st rows, m.fitPredict W (r0 :: data) hist = (st, .ok rows) ∧ rows.map (·.1) = (r0 :: data).map (·.1) ∧
      ∀ r ∈ rows, r.2 = s.find? (fun x => decide (x.time = r.1)) := by
  have hfit := mfit_ok W m (r0 :: data) hist s hv hk hs
  set h := hist.getD [] with hh
  obtain ⟨hinc1, hinc2, hinc3⟩ := List.pairwise_append.1 hinc
  have hmin := minTimeOf_spec r0 data hinc2
  -- the scores of the data
  have hfil : s.filter (fun x => decide (minTimeOf (r0 :: data) ≤ x.time)) = s.drop (h.length - j) := by
    conv_lhs => rw [← List.take_append_drop (h.length - j) s]
    rw [List.filter_append]
    have e1 : (s.take (h.length - j)).filter (fun x => decide (minTimeOf (r0 :: data) ≤ x.time)) = [] := by
      rw [List.filter_eq_nil_iff]
      intro x hx
      rw [decide_eq_true_eq, not_le, hmin]
      have hm : x.time ∈ (s.map (·.time)).take (h.length - j) := by
        rw [← List.map_take]
        exact List.mem_map_of_mem hx
      rw [htimes, List.map_append, List.drop_append, List.take_append_of_le_length (by simp)] at hm
      have hm2 := List.mem_of_mem_drop (List.mem_of_mem_take hm)
      obtain ⟨q, hq, e⟩ := List.mem_map.1 hm2
      rw [← e]
      exact hinc3 q hq r0 (by simp)
    have e2 : (s.drop (h.length - j)).filter (fun x => decide (minTimeOf (r0 :: data) ≤ x.time)) = s.drop (h.length - j) := by
      rw [List.filter_eq_self]
      intro x hx
      rw [decide_eq_true_eq, hmin]
      have hm : x.time ∈ (s.map (·.time)).drop (h.length - j) := by
        rw [← List.map_drop]
        exact List.mem_map_of_mem hx
      rw [htimes, List.drop_drop, List.map_append, List.drop_append] at hm
      have hz : (h.map (·.1)).drop (j + (h.length - j)) = [] := by
        rw [List.drop_eq_nil_iff, List.length_map]
        omega
      rw [hz, List.nil_append] at hm
      obtain ⟨q, hq, e⟩ := List.mem_map.1 (List.mem_of_mem_drop hm)
      rw [← e]
      rcases List.mem_cons.1 hq with rfl | hq
      · exact le_rfl
      · exact ((List.pairwise_cons.1 hinc2).1 q hq).le
    rw [e1, e2, List.nil_append]
  set s' := s.drop (h.length - j) with hs'
  have hs't : s'.map (·.time) = ((r0 :: data).map (·.1)).drop (j - h.length) := by
    rw [hs', List.map_drop, htimes, List.drop_drop, List.map_append, List.drop_append]
    have hz : (h.map (·.1)).drop (j + (h.length - j)) = [] := by
      rw [List.drop_eq_nil_iff, List.length_map]
      omega
    rw [hz, List.nil_append, List.length_map]
    congr 1
    omega
  have hs'l : s'.length = (r0 :: data).length - (j - h.length) := by
    rw [← List.length_map (f := (·.time)), hs't, List.length_drop, List.length_map]
  have hres : ({ m with model := some (some s) } : MModel).respond (r0 :: data) =
      .ok (((r0 :: data).map (·.1)).zip (List.replicate ((r0 :: data).length - s'.length) none ++ s'.map some)) := by
    unfold MModel.respond
    cases hsc : s with
    | nil => exact absurd hsc hne
    | cons a b =>
      simp only
      rw [← hsc, hfil, if_neg (by omega)]
  refine ⟨({ m with model := some (some s) }, hist.map (· ++ r0 :: data)),
    ((r0 :: data).map (·.1)).zip (List.replicate ((r0 :: data).length - s'.length) none ++ s'.map some), ?_, ?_, ?_⟩
  · unfold MModel.fitPredict
    rw [hfit]
    simp only
    unfold MModel.predict
    simp only [Option.isNone_some, Bool.false_eq_true, if_false, hres]
  · apply List.map_fst_zip
    simp only [List.length_map, List.length_append, List.length_replicate]
    omega
  · intro r hr
    obtain ⟨i, hi, e⟩ := List.getElem_of_mem hr
    rw [List.getElem_zip] at e
    have hil : i < (r0 :: data).length := by
      rw [List.length_zip, List.length_map] at hi
      omega
    have hsnd : ∀ (a b : Nat) (hab : a < b) (hb : b < (r0 :: data).length), ((r0 :: data)[a]'(by omega)).1 < ((r0 :: data)[b]).1 := by
      intro a b hab hb
      exact List.pairwise_iff_getElem.1 hinc2 a b (by omega) hb hab
    obtain ⟨e1, e2⟩ := Prod.ext_iff.1 e
    simp only at e1 e2
    rw [List.getElem_map] at e1
    -- times of `s'`
    have htime : ∀ k (hk : k < s'.length), ∃ hk2 : (j - h.length) + k < (r0 :: data).length,
        s'[k].time = ((r0 :: data)[(j - h.length) + k]).1 := by
      intro k hk
      have hk2 : (j - h.length) + k < (r0 :: data).length := by omega
      refine ⟨hk2, ?_⟩
      have h1 : (s'.map (·.time))[k]? = (((r0 :: data).map (·.1)).drop (j - h.length))[k]? := by rw [hs't]
      rw [List.getElem?_map, List.getElem?_eq_getElem hk, List.getElem?_drop, List.getElem?_map, List.getElem?_eq_getElem hk2] at h1
      simpa using h1
    have hpre : ∀ x ∈ s.take (h.length - j), x.time < r0.1 := by
      intro x hx
      have hm : x.time ∈ (s.map (·.time)).take (h.length - j) := by
        rw [← List.map_take]
        exact List.mem_map_of_mem hx
      rw [htimes, List.map_append, List.drop_append, List.take_append_of_le_length (by simp)] at hm
      have hm2 := List.mem_of_mem_drop (List.mem_of_mem_take hm)
      obtain ⟨q, hq, e⟩ := List.mem_map.1 hm2
      rw [← e]
      exact hinc3 q hq r0 (by simp)
    have hr0 : r0.1 ≤ r.1 := by
      rw [← e1]
      rcases Nat.eq_zero_or_pos i with rfl | hi0
      · exact le_rfl
      · exact (hsnd 0 i hi0 hil).le
    have hsplit : s.find? (fun x => decide (x.time = r.1)) = s'.find? (fun x => decide (x.time = r.1)) := by
      conv_lhs => rw [← List.take_append_drop (h.length - j) s]
      rw [List.find?_append]
      have : (s.take (h.length - j)).find? (fun x => decide (x.time = r.1)) = none := by
        rw [List.find?_eq_none]
        intro x hx
        rw [decide_eq_true_eq]
        have := hpre x hx
        omega
      rw [this]
      rfl
    rw [hsplit]
    rcases Nat.lt_or_ge i ((r0 :: data).length - s'.length) with hc | hc
    · -- padding
      rw [List.getElem_append_left (by simpa using hc), List.getElem_replicate] at e2
      rw [← e2]
      symm
      rw [List.find?_eq_none]
      intro x hx
      rw [decide_eq_true_eq]
      obtain ⟨k, hk, rfl⟩ := List.getElem_of_mem hx
      obtain ⟨hk2, e3⟩ := htime k hk
      rw [e3, ← e1]
      have := hsnd i ((j - h.length) + k) (by omega) hk2
      omega
    · rw [List.getElem_append_right (by simpa using hc)] at e2
      simp only [List.length_replicate, List.getElem_map] at e2
      rw [← e2]
      symm
      set k := i - ((r0 :: data).length - s'.length) with hkdef
      have hkl : k < s'.length := by omega
      obtain ⟨hk2, e3⟩ := htime k hkl
      have hik : (j - h.length) + k = i := by omega
      rw [List.find?_eq_some_iff_getElem]
      refine ⟨?_, k, hkl, rfl, ?_⟩
      · rw [decide_eq_true_eq, e3, ← e1]
        simp only [hik]
      · intro a ha
        have := htime a (by omega)
        obtain ⟨ha2, e4⟩ := this
        have := hsnd ((j - h.length) + a) i (by omega) hil
        rw [Bool.not_eq_true', decide_eq_false_iff_not, e4, ← e1]
        omega

/-- C107 with the detector of C106: on evenly spaced history and data `fit_predict` answers each time of the data with the score
computed for it, and with NaN exactly for the times of the training. -/
theorem C107_multi_detector_partial (V : MvWorld) (names : List String) (step : Int) (W : MMWorld) (m : MModel)
    (r0 : Int × List (Option ℝ)) (data : OTab) (hist : Option OTab)
    (hv : hist ≠ none → W.valid (hist.getD [] ++ r0 :: data) = .ok ()) (hk : W.make m.trainingDays (hist.getD [] ++ r0 :: data) = .ok ())
    (hW : W.detect m.trainingDays (hist.getD [] ++ r0 :: data) =
      (Mad.mk names (hist.getD [] ++ r0 :: data) step m.trainingDays).detector V)
    (hg : 0 < step) (t0 : Int) (ht : (hist.getD [] ++ r0 :: data).map (·.1) = evenTimes t0 step (hist.getD [] ++ r0 :: data).length)
    (j : Nat) (hj : m.trainingDays = step * (j : Int)) (hlong : j + 1 < (hist.getD [] ++ r0 :: data).length)
    (s : List MvScore) (hs : (Mad.mk names (hist.getD [] ++ r0 :: data) step m.trainingDays).detector V = .ok s) :
    ∃ st rows, m.fitPredict W (r0 :: data) hist = (st, .ok rows) ∧ rows.map (·.1) = (r0 :: data).map (·.1) ∧
      ∀ r ∈ rows, (r.2 = none ↔ r.1 ≤ t0 + m.trainingDays) ∧
        ∀ x, r.2 = some x → x.time = r.1 ∧ scoreFrom V (Mad.mk names (hist.getD [] ++ r0 :: data) step m.trainingDays) x := by
  set total := hist.getD [] ++ r0 :: data with htot
  have hpos : 0 < total.length := by simp [htot]
  obtain ⟨h1, h2⟩ := C106_times_partial V (Mad.mk names total step m.trainingDays) t0 hg hpos ht j hj s hs
  have hlen : s.length = total.length - (j + 1) := by
    have := congrArg List.length h1
    simpa using this
  have hinc : total.Pairwise fun a b => a.1 < b.1 := by
    rw [← List.pairwise_map (f := fun r : Int × List (Option ℝ) => r.1) (R := (· < ·)), ht]
    unfold evenTimes
    rw [List.pairwise_map]
    refine List.pairwise_lt_range.imp ?_
    intro a b hab
    have : (a : Int) < (b : Int) := by exact_mod_cast hab
    have := mul_lt_mul_of_pos_left this hg
    omega
  obtain ⟨st, rows, e1, e2, e3⟩ := C107_multi_partial W m r0 data hist s hv hk (hW.trans hs)
    (by intro e; rw [e] at hlen; simp only [List.length_nil] at hlen; omega) hinc (j + 1) h1
  refine ⟨st, rows, e1, e2, ?_⟩
  intro r hr
  have hmem : r.1 ∈ evenTimes t0 step total.length := by
    rw [← ht, htot, List.map_append]
    apply List.mem_append_right
    rw [← e2]
    exact List.mem_map_of_mem hr
  obtain ⟨k, hk1, hk2⟩ := List.mem_map.1 hmem
  rw [List.mem_range] at hk1
  rw [e3 r hr]
  constructor
  · rw [List.find?_eq_none]
    have hiff : (∃ x ∈ s, x.time = r.1) ↔ j < k := by
      have : (∃ x ∈ s, x.time = r.1) ↔ r.1 ∈ s.map (·.time) := by rw [List.mem_map]
      have h1' : s.map (·.time) = (evenTimes t0 step total.length).drop (j + 1) := h1.trans (congrArg (List.drop (j + 1)) ht)
      rw [this, h1']
      have e : (evenTimes t0 step total.length).drop (j + 1) =
          (List.range (total.length - (j + 1))).map fun k : Nat => t0 + step * ((j + 1 + k : Nat) : Int) := by
        apply List.ext_getElem
        · simp [evenTimes]
        · intro k _ _
          simp [evenTimes]
      rw [e, List.mem_map, ← hk2]
      constructor
      · rintro ⟨a, -, ha⟩
        have : step * ((j + 1 + a : Nat) : Int) = step * (k : Int) := by linarith
        have := mul_left_cancel₀ hg.ne' this
        omega
      · intro hjk
        exact ⟨k - (j + 1), List.mem_range.2 (by omega), by rw [show j + 1 + (k - (j + 1)) = k by omega]⟩
    constructor
    · intro h
      have hkj : k ≤ j := by
        by_contra hc
        obtain ⟨x, hx, e⟩ := hiff.2 (by omega)
        exact h x hx (by rw [decide_eq_true_eq]; exact e)
      rw [← hk2, hj]
      have : (k : Int) ≤ (j : Int) := by exact_mod_cast hkj
      have := mul_le_mul_of_nonneg_left this hg.le
      linarith
    · intro h x hx
      rw [decide_eq_true_eq]
      intro e
      have hjk := hiff.1 ⟨x, hx, e⟩
      rw [← hk2, hj] at h
      have : (j : Int) < (k : Int) := by exact_mod_cast hjk
      have := mul_lt_mul_of_pos_left this hg
      linarith
  · intro x hx
    have h3 := List.find?_some hx
    rw [decide_eq_true_eq] at h3
    exact ⟨h3, h2 x (List.mem_of_find?_eq_some hx)⟩

/-- C107 is violated: `predict` for data that reach beyond those the model was fitted to gives the scores at wrong times.  If
the model was fitted up to the last but one time, each score appears one time too late. -/
theorem C107_multi_shift_violated (W : MMWorld) (m : MModel) (s : List MvScore) (hne : s ≠ []) (hm : m.model = some (some s))
    (data : OTab) (r : Int × List (Option ℝ)) (hist : Option OTab) (ht : s.map (·.time) = data.map (·.1))
    (hinc : (data ++ [r]).Pairwise fun a b => a.1 < b.1) :
    ∃ rows, (m.predict W (data ++ [r]) hist).2 = .ok rows ∧ rows.map (·.1) = data.map (·.1) ++ [r.1] ∧
      rows.map (·.2) = none :: s.map some ∧
      ∀ i x, s[i]? = some x → ∃ y, rows[i + 1]? = some y ∧ y.2 = some x ∧ x.time < y.1 := by
  have hlen : s.length = data.length := by simpa using congrArg List.length ht
  have hfil : s.filter (fun x => decide (minTimeOf (data ++ [r]) ≤ x.time)) = s := by
    rw [List.filter_eq_self]
    intro x hx
    rw [decide_eq_true_eq]
    cases data with
    | nil => simp at hlen; exact absurd hlen hne
    | cons r0 data =>
      rw [List.cons_append] at hinc ⊢
      rw [minTimeOf_spec r0 _ hinc]
      have : x.time ∈ (r0 :: data).map (·.1) := ht ▸ List.mem_map_of_mem hx
      obtain ⟨q, hq, e⟩ := List.mem_map.1 this
      rw [← e]
      rcases List.mem_cons.1 hq with rfl | hq
      · exact le_rfl
      · exact ((List.pairwise_cons.1 hinc).1 q (by simp [hq])).le
  have hres : m.respond (data ++ [r]) = .ok (((data ++ [r]).map (·.1)).zip (none :: s.map some)) := by
    unfold MModel.respond
    cases hsc : s with
    | nil => exact absurd hsc hne
    | cons a b =>
      simp only [hm, hsc]
      rw [← hsc, hfil, if_neg (by simp [hlen]), List.length_append, hlen]
      simp [List.replicate]
  have hl : ((data ++ [r]).map (·.1)).length = (none :: s.map some).length := by simp [hlen]
  refine ⟨((data ++ [r]).map (·.1)).zip (none :: s.map some), ?_, ?_, ?_, ?_⟩
  · unfold MModel.predict
    simp [hm, hres]
  · rw [List.map_fst_zip hl.le]
    simp
  · rw [List.map_snd_zip hl.ge]
  · intro i x hx
    obtain ⟨hi, e⟩ := List.getElem?_eq_some_iff.1 hx
    have hi2 : i + 1 < (data ++ [r]).length := by simp; omega
    refine ⟨((data ++ [r])[i + 1].1, some x), ?_, rfl, ?_⟩
    · rw [List.getElem?_zip_eq_some]
      refine ⟨?_, ?_⟩
      · rw [List.getElem?_map, List.getElem?_eq_getElem hi2]
        rfl
      · simp [hx]
    · have h1 : (s.map (·.time))[i]? = (data.map (·.1))[i]? := by rw [ht]
      rw [List.getElem?_map, hx, List.getElem?_map, List.getElem?_eq_getElem (by omega)] at h1
      simp only [Option.map_some, Option.some.injEq] at h1
      rw [h1]
      have := List.pairwise_iff_getElem.1 hinc i (i + 1) (by omega) hi2 (by omega)
      rwa [List.getElem_append_left (by omega)] at this

/-- C107 is violated: `predict` for the beginning of the data the model was fitted to raises, if enough of it is scored. -/
theorem C107_multi_short_violated (W : MMWorld) (m : MModel) (s : List MvScore) (hm : m.model = some (some s))
    (data : OTab) (hist : Option OTab) (h : ∀ x ∈ s, minTimeOf data ≤ x.time) (hlen : data.length < s.length) :
    (m.predict W data hist).2 = .error .valueError := by
  unfold MModel.predict
  simp only [hm, Option.isNone_some, Bool.false_eq_true, if_false]
  unfold MModel.respond
  cases hsc : s with
  | nil => simp [hsc] at hlen
  | cons a b =>
    simp only [hm, hsc]
    rw [← hsc, List.filter_eq_self.2 (by intro x hx; rw [decide_eq_true_eq]; exact h x hx), if_pos hlen]

/-- C107 is violated: the history of the caller is extended, even if the call fails. -/
theorem C107_multi_history_violated (W : MMWorld) (m : MModel) (data h : OTab) (hd : data ≠ []) :
    ∃ h', (m.fitPredict W data (some h)).1.2 = some h' ∧ h' ≠ h := by
  refine ⟨h ++ data, ?_, ?_⟩
  · have hf : (m.fit W data (some h)).1.2 = some (h ++ data) := by
      unfold MModel.fit
      dsimp only
      split
      · rfl
      · split
        · rfl
        · split <;> rfl
    unfold MModel.fitPredict
    rcases hfit : m.fit W data (some h) with ⟨st, e | u⟩
    · rw [hfit] at hf
      exact hf
    · rw [hfit] at hf
      exact hf
  · intro e
    have := congrArg List.length e
    simp at this
    exact hd this

/-- C107 is violated: no multivariate model can be serialized. -/
theorem C107_multi_serialize_violated (m : MModel) : m.serialize = .error .typeError := rfl

/-- C107: after a detection that raised the model is of no use: `predict` raises for all data. -/
theorem C107_multi_failed (W : MMWorld) (m : MModel) (data : OTab) (hist : Option OTab)
    (hv : hist ≠ none → W.valid (hist.getD [] ++ data) = .ok ()) (hk : W.make m.trainingDays (hist.getD [] ++ data) = .ok ()) (e : Err)
    (hs : W.detect m.trainingDays (hist.getD [] ++ data) = .error e) :
    ∃ st, m.fitPredict W data hist = (st, .error e) ∧ ∀ data' hist', ∃ e', (st.1.predict W data' hist').2 = .error e' := by
  have hfit : m.fit W data hist = (({ m with model := some none }, hist.map (· ++ data)), .error e) := by
    unfold MModel.fit
    cases hist with
    | none =>
      simp only [totalData_eq, hk, hs, Option.isSome_none, Bool.false_eq_true, if_false]
      rfl
    | some h =>
      simp only [totalData_eq, hv (by simp), hk, hs, Option.isSome_some, if_true]
      rfl
  refine ⟨_, by unfold MModel.fitPredict; rw [hfit], ?_⟩
  intro data' hist'
  exact ⟨.otherError, rfl⟩

/-! ### Examples -/

/-- A world for examples: the scores are the values. -/
def demoOM : OMWorld := ⟨fun _ _ t => some t, fun _ _ _ t => .ok t⟩

example : ∃ r, (OModel.init.fitPredict demoOM false [(2, [some 5])] (some [(1, [some 4])])).2 = .ok r ∧ r.scores.map (·.1) = [2] := by
  obtain ⟨m', r, h1, h2, -⟩ := C107_outlier_partial demoOM OModel.init rfl false [(2, [some 5])] (some [(1, [some 4])])
    [(1, [some 4]), (2, [some 5])] [(1, [some 4]), (2, [some 5])] rfl rfl (by simp) (by simp)
  exact ⟨r, by rw [h1], h2⟩

example : ∃ e, ((OModel.init.fitPredict demoOM false [(2, [some 5])] none).1.1.fitPredict demoOM false [(3, [some 5])] none).2 =
    .error e := by
  refine (C107_outlier_stale_violated demoOM _ [(2, [some 5])] rfl false [(3, [some 5])] none).2 (3, [some 5]) (by simp) ?_
  intro s hs
  have : s = [(2, [some 5])] := (Option.some.inj hs).symm
  rw [this]
  simp

/-- All rows but the first are scored. -/
def demoMM : MMWorld := ⟨fun _ => .ok (), fun _ _ => .ok (), fun _ t => .ok ((t.drop 1).map fun r => ⟨r.1, [], 0, 0⟩)⟩

example : ∃ st rows, (MModel.mk 1 none).fitPredict demoMM [(2, [some 5]), (3, [some 7])] none = (st, .ok rows) ∧
    rows.map (·.1) = [2, 3] := by
  obtain ⟨st, rows, h1, h2, -⟩ := C107_multi_partial demoMM ⟨1, none⟩ (2, [some 5]) [(3, [some 7])] none
    [⟨3, [], 0, 0⟩] (by simp) rfl rfl (by simp) (by simp) 1 rfl
  exact ⟨st, rows, h1, h2⟩

example : ∃ rows, ((MModel.mk 1 (some (some [⟨3, [], 0, 1 / 2⟩]))).predict demoMM [(3, [some 5]), (4, [some 7])] none).2 = .ok rows ∧
    rows.map (·.1) = [3, 4] := by
  obtain ⟨rows, h1, h2, -⟩ := C107_multi_shift_violated demoMM ⟨1, some (some [⟨3, [], 0, 1 / 2⟩])⟩ [⟨3, [], 0, 1 / 2⟩] (by simp) rfl
    [(3, [some 5])] (4, [some 7]) none rfl (by simp)
  exact ⟨rows, h1, h2⟩

end

end Kats

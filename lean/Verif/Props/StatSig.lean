import Verif.Model.StatSig
import Verif.Lemmas.TimeSeries
import Verif.Props.PercentageChange

/-!
# Theorems about `StatSigDetectorModel` (C37, C39, C87-C90)
-/

namespace Kats

noncomputable section
open Classical

/-! ## Specification -/

/-- Times are strictly increasing. -/
def Inc (l : SSeries) : Prop := l.Pairwise fun a b => a.1 < b.1

/-- The values in the `n_test` time units that end at `t`. -/
def testVals (c : SSCfg) (u : Int) (rows : SSeries) (t : Int) : List ℝ :=
  (rows.filter fun r => decide (t - ((c.nTest : Int) - 1) * u ≤ r.1 ∧ r.1 ≤ t)).map (·.2)

/-- The values in the `n_control` time units before those. -/
def controlVals (c : SSCfg) (u : Int) (rows : SSeries) (t : Int) : List ℝ :=
  (rows.filter fun r => decide (t - ((c.nTest : Int) + c.nControl - 1) * u ≤ r.1
    ∧ r.1 < t - ((c.nTest : Int) - 1) * u)).map (·.2)

/-- A `PercentageChange` object of two samples. -/
def pctOf (corrected : Bool) (minPerc : ℝ) (test control : List ℝ) : PctChange :=
  { current := { start := 0, stop := 1, df := some (test.map fun x => (0, x)) }
    previous := { start := 0, stop := 1, df := some (control.map fun x => (0, x)) }
    corrected := corrected, minPerc := minPerc }

/-- The row for a point without enough history: score 0, the value itself as prediction. -/
def zeroRow (x : ℝ) : SSRow := ⟨.fin 0, .fin x, .fin x, .fin x, .fin 0, .fin 0⟩

/-- First time stamp of a series. -/
def firstTime (l : SSeries) : Int := (l.head?.getD (0, 0)).1

/-- The row that point `r` of the series `all` should get: if the two windows do not reach back
before the first point, the comparison of the test window with the control window. -/
def ssSpec (W : SSWorld) (c : SSCfg) (u : Int) (all : SSeries) (r : Int × ℝ) : Int × SSRow :=
  (r.1, if firstTime all + ((c.nControl : Int) + c.nTest - 1) * u ≤ r.1 then
      ssRow W (pctOf c.corrected c.minPerc (testVals c u all r.1) (controlVals c u all r.1))
    else zeroRow r.2)

/-! ## Helpers -/

theorem inc_run (W : SSWorld) {l : SSeries} (h : Inc l) : buildRows W.srt true false l = l :=
  W.srt.run_eq_self l h

theorem filter_le_of_inc (p : Int × ℝ) (seen ps : SSeries) (h : Inc (seen ++ p :: ps)) :
    (seen ++ p :: ps).filter (fun r => decide (r.1 ≤ p.1)) = seen ++ [p] := by
  have h' := List.pairwise_append.1 h
  have h2 := List.pairwise_cons.1 h'.2.1
  rw [List.filter_append, List.filter_cons_of_pos (by simp)]
  rw [List.filter_eq_self.2, List.filter_eq_nil_iff.2]
  · intro a ha
    have := h2.1 a ha
    simp; omega
  · intro a ha
    have := h'.2.2 a ha p (by simp)
    simp; omega

theorem ssLoop_eq (W : SSWorld) (rowOf : PctChange → SSRow) (c : SSCfg) (u : Int) :
    ∀ (data seen : SSeries) (resp : SSResp), Inc (seen ++ data) →
      ssLoop W rowOf c u seen data resp = resp.map fun r =>
        if r.1 ∈ data.map (·.1) then
          (r.1, rowOf (ssPct c u ((seen ++ data).filter fun q => decide (q.1 ≤ r.1)) r.1))
        else r
  | [], _, resp, _ => by simp [ssLoop]
  | p :: ps, seen, resp, h => by
    have e : seen ++ p :: ps = (seen ++ [p]) ++ ps := by simp
    have h' : Inc ((seen ++ [p]) ++ ps) := e ▸ h
    have hs : Inc (seen ++ [p]) := (List.pairwise_append.1 h').1
    unfold ssLoop
    dsimp only
    rw [inc_run W hs, ssLoop_eq W rowOf c u ps _ _ h', ← e, ssWrite, List.map_map]
    apply List.map_congr_left
    intro r _
    have h2 := List.pairwise_cons.1 (List.pairwise_append.1 h).2.1
    simp only [Function.comp]
    by_cases hr : r.1 = p.1
    · simp only [hr, if_true]
      have hn : ¬ p.1 ∈ ps.map (·.1) := by
        intro hm
        obtain ⟨q, hq, hqe⟩ := List.mem_map.1 hm
        have := h2.1 q hq
        omega
      rw [if_neg hn, if_pos (by simp), filter_le_of_inc p seen ps h]
    · simp only [hr, if_false]
      simp only [List.map_cons, List.mem_cons, hr, false_or]

theorem ssRow_congr (W : SSWorld) (p q : PctChange) (hc : p.current.data = q.current.data)
    (hp : p.previous.data = q.previous.data) (hcl : p.current.len = q.current.len)
    (hpl : p.previous.len = q.previous.len) (h1 : p.corrected = q.corrected)
    (h2 : p.minPerc = q.minPerc) : ssRow W p = ssRow W q ∧ msRow W p = msRow W q := by
  have m1 : p.current.meanVal = q.current.meanVal := by unfold CPInterval.meanVal; rw [hc]
  have m2 : p.previous.meanVal = q.previous.meanVal := by unfold CPInterval.meanVal; rw [hp]
  have v1 : p.current.varianceVal = q.current.varianceVal := by unfold CPInterval.varianceVal; rw [hc]
  have v2 : p.previous.varianceVal = q.previous.varianceVal := by unfold CPInterval.varianceVal; rw [hp]
  have s : p.pooledStd = q.pooledStd := by
    unfold PctChange.pooledStd; rw [hcl, hpl, v1, v2, h1]
  have d : p.df = q.df := by unfold PctChange.df; rw [hcl, hpl]
  have r : p.ratio = q.ratio := by unfold PctChange.ratio; rw [m1, m2]
  have pc : p.percChange = q.percChange := by unfold PctChange.percChange; rw [r]
  have tm : p.ttestManual W.S = q.ttestManual W.S := by unfold PctChange.ttestManual; rw [s, d, m1, m2]
  have cc : p.calcCov = q.calcCov := by unfold PctChange.calcCov; rw [hc, hp]
  have sg : p.sigmaSqRatio = q.sigmaSqRatio := by
    unfold PctChange.sigmaSqRatio; rw [m1, m2, v1, v2, hcl, hpl, cc]
  have row : ssRow W p = ssRow W q := by
    unfold ssRow PctChange.score PctChange.ttest PctChange.ciUpper PctChange.ciLower PctChange.statSig
      PctChange.upper PctChange.lower
    rw [pc, h2, hcl, hpl, tm, s, d, m1, m2, r, sg]
  refine ⟨row, ?_⟩
  unfold msRow
  rw [row, hcl, hpl, tm, hc, hp, pc, h2]

theorem clip_test (c : SSCfg) (u : Int) (hu : 0 < u) (rows : SSeries) (t : Int) :
    (ssPct c u (rows.filter fun q => decide (q.1 ≤ t)) t).current.data = some (testVals c u rows t) := by
  simp only [ssPct, CPInterval.setData, CPInterval.data, CPInterval.clip, testVals, Option.map_some,
    List.filter_filter]
  congr 2
  apply List.filter_congr
  intro r _
  rw [Bool.eq_iff_iff]
  have e : t - ((c.nTest : Int) - 1) * u = t + u - c.nTest * u := by ring
  rw [e]
  simp only [Bool.and_eq_true, decide_eq_true_eq]
  omega

theorem clip_control (c : SSCfg) (u : Int) (hu : 0 < u) (hn : 1 ≤ c.nTest) (rows : SSeries) (t : Int) :
    (ssPct c u (rows.filter fun q => decide (q.1 ≤ t)) t).previous.data
      = some (controlVals c u rows t) := by
  simp only [ssPct, CPInterval.setData, CPInterval.data, CPInterval.clip, controlVals, Option.map_some,
    List.filter_filter]
  congr 2
  apply List.filter_congr
  intro r _
  rw [Bool.eq_iff_iff]
  have e : t - ((c.nTest : Int) - 1) * u = t + u - c.nTest * u := by ring
  have e2 : t - ((c.nTest : Int) + c.nControl - 1) * u = t + u - ((c.nTest : Int) + c.nControl) * u := by
    ring
  rw [e, e2]
  have h3 : u ≤ (c.nTest : Int) * u := by nlinarith [show (1 : Int) ≤ c.nTest by exact_mod_cast hn]
  simp only [Bool.and_eq_true, decide_eq_true_eq]
  omega

theorem pctOf_data (b : Bool) (m : ℝ) (x y : List ℝ) :
    (pctOf b m x y).current.data = some x ∧ (pctOf b m x y).previous.data = some y := by
  simp [pctOf, CPInterval.data, Function.comp_def]

/-- The row written for a point depends only on the two windows of values. -/
theorem ssPct_rows (W : SSWorld) (c : SSCfg) (u : Int) (hu : 0 < u) (hn : 1 ≤ c.nTest)
    (rows : SSeries) (t : Int) :
    let p := ssPct c u (rows.filter fun q => decide (q.1 ≤ t)) t
    let q := pctOf c.corrected c.minPerc (testVals c u rows t) (controlVals c u rows t)
    ssRow W p = ssRow W q ∧ msRow W p = msRow W q := by
  intro p q
  have a := clip_test c u hu rows t
  have b := clip_control c u hu hn rows t
  have a' := pctOf_data c.corrected c.minPerc (testVals c u rows t) (controlVals c u rows t)
  apply ssRow_congr
  · exact a.trans a'.1.symm
  · exact b.trans a'.2.symm
  · rw [len_of _ _ a, len_of _ _ a'.1]
  · rw [len_of _ _ b, len_of _ _ a'.2]
  · rfl
  · rfl

theorem inc_filter_append : ∀ (l : SSeries) (b : Int), Inc l →
    (l.filter fun r => decide (r.1 < b)) ++ (l.filter fun r => !decide (r.1 < b)) = l
  | [], _, _ => rfl
  | a :: l, b, h => by
    have h' := List.pairwise_cons.1 h
    by_cases hb : a.1 < b
    · rw [List.filter_cons_of_pos (by simpa using hb), List.filter_cons_of_neg (by simpa using hb),
        List.cons_append, inc_filter_append l b h'.2]
    · rw [List.filter_cons_of_neg (by simpa using hb), List.filter_cons_of_pos (by simpa using hb)]
      rw [List.filter_eq_nil_iff.2, List.filter_eq_self.2]
      · rfl
      · intro x hx
        have := h'.1 x hx
        simp; omega
      · intro x hx
        have := h'.1 x hx
        simp; omega

theorem firstTime_le : ∀ (l : SSeries), Inc l → ∀ r ∈ l, firstTime l ≤ r.1
  | a :: l, h, r, hr => by
    rcases List.mem_cons.1 hr with rfl | hr
    · exact le_refl _
    · exact le_of_lt ((List.pairwise_cons.1 h).1 r hr)

theorem le_last : ∀ (l : SSeries), Inc l → ∀ r ∈ l, ∀ x, l.getLast? = some x → r.1 ≤ x.1 := by
  intro l h r hr x hx
  rw [List.getLast?_eq_some_iff] at hx
  obtain ⟨ys, rfl⟩ := hx
  rcases List.mem_append.1 hr with hr | hr
  · exact le_of_lt ((List.pairwise_append.1 h).2.2 r hr x (by simp))
  · simp at hr; rw [hr]

/-- What the split does to an increasing series. -/
theorem ssSplit_spec (W : SSWorld) (c : SSCfg) (u : Int) (data : SSeries) (hist : Option SSeries)
    (hi : Inc (hist.getD [] ++ data)) (hd : data ≠ []) (hnum : 0 < c.numHist * u) :
    let s := ssSplit W c u data hist
    let first := firstTime (hist.getD [] ++ data)
    s.2.1.getD [] ++ s.1 = hist.getD [] ++ data ∧ s.2.1.getD [] ≠ [] ∧
    (∀ r ∈ data, r ∈ s.1 ↔ first + c.numHist * u ≤ r.1) ∧ (∀ r ∈ s.1, r ∈ data) := by
  intro s first
  have hi' := List.pairwise_append.1 hi
  simp only [s, ssSplit]
  by_cases h : ssEnough c u hist = true
  · rw [if_pos h]
    unfold ssEnough at h
    cases hh : (hist.getD []).head? with
    | none => simp [hh] at h
    | some f =>
      cases hl : (hist.getD []).getLast? with
      | none => simp [hh, hl] at h
      | some l =>
        simp only [hh, hl, decide_eq_true_eq] at h
        have hne : hist.getD [] ≠ [] := by intro e; simp [e] at hh
        have hf : first = f.1 := by
          simp [first, firstTime, List.head?_append, hh]
        refine ⟨rfl, hne, fun r hr => ⟨fun _ => ?_, fun _ => hr⟩, fun r hr => hr⟩
        have hlm : l ∈ hist.getD [] := List.mem_of_getLast? hl
        have := hi'.2.2 l hlm r hr
        omega
  · rw [if_neg h]
    have hff : ∀ r ∈ hist.getD [], r.1 < first + c.numHist * u := by
      intro r hr
      have hne : hist.getD [] ≠ [] := List.ne_nil_of_mem hr
      obtain ⟨f, hh⟩ : ∃ f, (hist.getD []).head? = some f := by
        cases hs : hist.getD [] with
        | nil => exact absurd hs hne
        | cons a _ => exact ⟨a, rfl⟩
      have hl := List.getLast?_eq_some_getLast hne
      unfold ssEnough at h
      simp only [hh, hl, decide_eq_true_eq] at h
      have hf : first = f.1 := by
        simp [first, firstTime, List.head?_append, hh]
      have := le_last _ hi'.1 r hr _ hl
      omega
    have i1 : ∀ p : Int × ℝ → Bool, Inc ((hist.getD [] ++ data).filter p) := fun p =>
      List.Pairwise.filter p hi
    simp only [Option.getD_some]
    rw [inc_run W (i1 _), inc_run W (i1 _)]
    refine ⟨inc_filter_append _ _ hi, ?_, ?_, ?_⟩
    · have hne : hist.getD [] ++ data ≠ [] := by simp [hd]
      obtain ⟨a, l, e⟩ := List.exists_cons_of_ne_nil hne
      rw [e]
      apply List.ne_nil_of_mem (a := a)
      rw [List.mem_filter]
      simp
      omega
    · intro r hr
      rw [List.mem_filter]
      simp only [List.mem_append, hr, or_true, true_and, Bool.not_eq_true', decide_eq_false_iff_not,
        not_lt]
      rfl
    · intro r hr
      rw [List.mem_filter] at hr
      rcases List.mem_append.1 hr.1 with h1 | h1
      · have := hff r h1
        have h2 := hr.2
        simp only [Bool.not_eq_true', decide_eq_false_iff_not, not_lt] at h2
        exact absurd this (not_lt.2 h2)
      · exact h1

/-- The scored response: every point with enough history gets its row, the others keep theirs. -/
theorem ssLoop_closed (W : SSWorld) (rowOf : PctChange → SSRow) (c : SSCfg) (u : Int) (data : SSeries)
    (hist : Option SSeries) (hi : Inc (hist.getD [] ++ data)) (hd : data ≠ [])
    (hnum : 0 < c.numHist * u) (d' h' : SSeries) (h1 : h' ++ d' = hist.getD [] ++ data)
    (h2 : ∀ r ∈ data, r ∈ d' ↔ firstTime (hist.getD [] ++ data) + c.numHist * u ≤ r.1)
    (h3 : ∀ r ∈ d', r ∈ data) :
    ssLoop W rowOf c u h' d' (ssInitResp data) = data.map fun r =>
      (r.1, if firstTime (hist.getD [] ++ data) + c.numHist * u ≤ r.1 then
          rowOf (ssPct c u ((hist.getD [] ++ data).filter fun q => decide (q.1 ≤ r.1)) r.1)
        else zeroRow r.2) := by
  rw [ssLoop_eq W rowOf c u d' h' _ (h1 ▸ hi), h1, ssInitResp, List.map_map]
  apply List.map_congr_left
  intro r hr
  simp only [Function.comp]
  by_cases hb : firstTime (hist.getD [] ++ data) + c.numHist * u ≤ r.1
  · rw [if_pos (List.mem_map_of_mem ((h2 r hr).2 hb)), if_pos hb]
  · rw [if_neg, if_neg hb]
    · rfl
    · intro hm
      obtain ⟨q, hq, e⟩ := List.mem_map.1 hm
      have := (h2 q (h3 q hq)).1 hq
      rw [e] at this
      exact hb this

theorem shouldUpdate_eq (c : SSCfg) (u : Int) (data : SSeries) (hist : Option SSeries)
    (hd : data ≠ []) :
    ssShouldUpdate c u data hist = .ok (decide
      (firstTime (hist.getD [] ++ data) + c.numHist * u ≤ (data.getLast hd).1)) := by
  obtain ⟨a, l, rfl⟩ := List.exists_cons_of_ne_nil hd
  unfold ssShouldUpdate
  rw [List.getLast?_eq_some_getLast hd]
  simp only [List.head?_cons]
  cases hist with
  | none => simp [firstTime]; exact decide_eq_decide.2 Iff.rfl
  | some h =>
    cases h with
    | nil => simp [firstTime]; exact decide_eq_decide.2 Iff.rfl
    | cons b h => simp [firstTime]; exact decide_eq_decide.2 Iff.rfl

theorem isBig_false (c : SSCfg) (hist data : SSeries) (h : c.corrected = false ∨ data.length ≤ c.maxSplit) :
    ssIsBig c hist data = .ok false := by
  unfold ssIsBig
  rcases h with h | h
  · rw [if_neg (by simp [h])]; rfl
  · split
    · rw [if_neg (by omega)]; rfl
    · rfl

theorem pyFrom_length {α : Type} (l : List α) : pyFrom l (-(l.length : Int)) = l := by
  unfold pyFrom pyIdx
  split
  · simp
  · have : l.length = 0 := by omega
    simp [this]

theorem fit_unfold (W : SSWorld) (c : SSCfg) (u : Int) (data : SSeries) (hist : Option SSeries)
    (hu : c.unit = some u) (hd : data ≠ []) :
    (ssFitPredict W c data hist).result =
      if firstTime (hist.getD [] ++ data) + c.numHist * u ≤ (data.getLast hd).1 then
        if c.scoresOnly then .ok (ssScoresOnly W c u data hist)
        else ssAfterSplit W c u (ssSplit W c u data hist).1
          ((ssSplit W c u data hist).2.1.getD []) (ssInitResp data) data.length
      else .ok (ssInitResp data) := by
  unfold ssFitPredict ssUnit
  rw [hu]
  dsimp only
  rw [shouldUpdate_eq c u data hist hd]
  by_cases hup : firstTime (hist.getD [] ++ data) + c.numHist * u ≤ (data.getLast hd).1
  · rw [decide_eq_true hup, if_pos hup]
    dsimp only
    split <;> rfl
  · rw [decide_eq_false hup, if_neg hup]

/-! ## C87 -/

/-- C87: in the ordinary mode a call returns one row per data point. A point whose windows reach
back before the first known point gets score 0. Every other point gets the comparison of the values
in the `n_test` time units that end at the point with those in the `n_control` units before them,
history included, and of nothing else. -/
theorem C87_windows_partial (W : SSWorld) (c : SSCfg) (u : Int) (data : SSeries) (hist : Option SSeries)
    (hu : c.unit = some u) (hpos : 0 < u) (hc : 1 ≤ c.nControl) (ht : 1 ≤ c.nTest)
    (hi : Inc (hist.getD [] ++ data)) (hd : data ≠ []) (hs : c.remSeason = false)
    (ho : c.scoresOnly = false) (hb : c.corrected = false ∨ data.length ≤ c.maxSplit) :
    (ssFitPredict W c data hist).result = .ok (data.map (ssSpec W c u (hist.getD [] ++ data))) := by
  have hnum : 0 < c.numHist * u := by
    apply mul_pos _ hpos
    unfold SSCfg.numHist
    omega
  obtain ⟨h1, h2, h3, h4⟩ := ssSplit_spec W c u data hist hi hd hnum
  have hN : ((c.nControl : Int) + c.nTest - 1) * u = c.numHist * u := rfl
  have hlen : (ssSplit W c u data hist).1.length ≤ data.length := by
    have := congrArg List.length h1
    simp only [List.length_append] at this
    have hsub : ((ssSplit W c u data hist).1).Nodup := by
      have : Inc (ssSplit W c u data hist).1 := (List.pairwise_append.1 (h1 ▸ hi)).2.1
      exact this.imp (fun {a b} hab e => by rw [e] at hab; exact lt_irrefl _ hab)
    exact (List.subperm_of_subset hsub h4).length_le
  unfold ssFitPredict ssUnit
  rw [hu]
  dsimp only
  rw [shouldUpdate_eq c u data hist hd]
  by_cases hup : firstTime (hist.getD [] ++ data) + c.numHist * u ≤ (data.getLast hd).1
  · rw [decide_eq_true hup]
    dsimp only
    rw [if_neg (by simp [ho])]
    dsimp only
    unfold ssAfterSplit
    rw [if_neg (by simp [hs])]
    unfold ssScore
    rw [isBig_false c _ _ (hb.imp_right fun h => hlen.trans h)]
    simp only [bind, Except.bind, pure, Except.pure, Bool.false_eq_true, if_false]
    rw [if_neg (by simpa using h2)]
    dsimp only
    rw [ssLoop_closed W _ c u data hist hi hd hnum _ _ h1 h3 h4]
    have hl : ∀ f : (Int × ℝ) → Int × SSRow, (data.length : Int) = ((data.map f).length : Int) := by
      intro f; simp
    rw [hl, pyFrom_length]
    congr 1
    apply List.map_congr_left
    intro r _
    unfold ssSpec
    rw [hN]
    congr 1
    split
    · exact (ssPct_rows W c u hpos ht _ r.1).1
    · rfl
  · rw [decide_eq_false hup]
    dsimp only
    congr 1
    unfold ssInitResp
    apply List.map_congr_left
    intro r hr
    unfold ssSpec
    rw [if_neg]
    · rfl
    · intro hle
      apply hup
      have hdi := (List.pairwise_append.1 hi).2.1
      have := le_last data hdi r hr _ (List.getLast?_eq_some_getLast hd)
      rw [hN] at hle
      omega

/-- A world for examples: merge sort, the textbook t statistic, no seasonal part, constant quantiles. -/
def demoSS : SSWorld where
  srt := mergeTimeSort ℝ
  S := ⟨fun _ => 0, fun _ _ => .fin 0, fun _ _ => .fin 0⟩
  ttestInd x y := (.fin (mean x) - .fin (mean y))
    / .fin (Real.sqrt (pooledVar x y * (1 / x.length + 1 / y.length)))
  season _ s := .ok (s.map fun _ => 0, s.map (·.2))

/-- Hourly data with a history of three points. -/
example : (ssFitPredict demoSS { nControl := 2, nTest := 2, unit := some 1 } [(3, 7), (4, 9)]
    (some [(0, 1), (1, 2), (2, 4)])).result
    = .ok [(3, ssRow demoSS (pctOf true 0 [4, 7] [1, 2])), (4, ssRow demoSS (pctOf true 0 [7, 9] [2, 4]))] := by
  rw [C87_windows_partial demoSS _ 1 _ _ rfl (by norm_num) (by norm_num) (by norm_num)
    (by simp [Inc]) (by simp) rfl rfl (Or.inr (by simp))]
  simp [ssSpec, firstTime, testVals, controlVals]

/-- C87 (what a row contains), for windows of at least two values that are not constant and a control
mean other than zero: the prediction is the control mean, the magnitude the difference of the means,
the score this difference over the pooled standard error (or 0 below the minimum change), the band is
centred at the prediction, and the point is significant if and only if 1 is outside the confidence
interval of the ratio of the means. -/
theorem C87_row (W : SSWorld) (corrected : Bool) (minPerc : ℝ) (x y : List ℝ) (hx : 2 ≤ x.length)
    (hy : 2 ≤ y.length) (hm : mean y ≠ 0) (hv : 0 < pooledVar x y)
    (hz : W.S.normPpf (0.05 / 2) < 0) (q : ℝ)
    (hq : W.S.tPpf (0.05 / 2) ((y.length : Int) + x.length - 2) = .fin q) :
    let row := ssRow W (pctOf corrected minPerc x y)
    let se := scoreScale corrected x y
    row.pred = .fin (mean y) ∧ row.mag = .fin (mean x - mean y)
    ∧ row.score = .fin (if |mean x / mean y - 1| * 100 < minPerc then 0 else (mean x - mean y) / se)
    ∧ row.upper = .fin (mean y - q * se) ∧ row.lower = .fin (mean y + q * se)
    ∧ ∃ lo up : ℝ, lo + up = 2 * (mean x / mean y) ∧ lo ≤ up
      ∧ (up - lo) ^ 2 = 4 * W.S.normPpf (0.05 / 2) ^ 2 * |deltaVar x y|
      ∧ row.sig = .fin (if lo < 1 ∧ 1 < up then 0 else 1) := by
  intro row se
  obtain ⟨d1, d2⟩ := pctOf_data corrected minPerc x y
  have x0 : x ≠ [] := by rintro rfl; simp at hx
  have y0 : y ≠ [] := by rintro rfl; simp at hy
  have m1 := meanVal_of _ x d1 x0
  have m2 := meanVal_of _ y d2 y0
  have sp : (pctOf corrected minPerc x y).pooledStd = .fin se := pooledStd_of _ x y d1 d2 x0 y0 (by omega)
  have se0 : se ≠ 0 := (scoreScale_pos corrected x y x0 y0 hv).ne'
  have hdf : (pctOf corrected minPerc x y).df = (y.length : Int) + x.length - 2 := by
    unfold PctChange.df
    rw [len_of _ _ d1, len_of _ _ d2]
  obtain ⟨-, hpc⟩ := percChange_of _ x y d1 d2 x0 y0 hm
  have ha : |(mean x / mean y - 1) * 100| = |mean x / mean y - 1| * 100 := by
    rw [abs_mul]; norm_num
  refine ⟨m2, ?_, ?_, ?_, ?_, ?_⟩
  · change (pctOf corrected minPerc x y).current.meanVal - (pctOf corrected minPerc x y).previous.meanVal = _
    rw [m1, m2, Fl.fin_sub]
  · change (pctOf corrected minPerc x y).score W.S = _
    unfold PctChange.score PctChange.ttest PctChange.ttestManual
    rw [hpc, Fl.abs_fin, ha, len_of _ _ d1, len_of _ _ d2, if_neg (by omega : ¬ (y.length = 1 ∧ x.length = 1))]
    dsimp only
    rw [m1, m2, sp, Fl.fin_sub, Fl.fin_div _ _ se0, show (pctOf corrected minPerc x y).minPerc = minPerc from rfl]
    by_cases h : |mean x / mean y - 1| * 100 < minPerc
    · rw [if_pos ((Fl.lt_fin _ _).2 h), if_pos h]
    · rw [if_neg (fun h' => h ((Fl.lt_fin _ _).1 h')), if_neg h]
  · change (pctOf corrected minPerc x y).ciUpper W.S = _
    unfold PctChange.ciUpper
    rw [hdf, hq, m2, sp, Fl.fin_mul, Fl.fin_sub]
  · change (pctOf corrected minPerc x y).ciLower W.S = _
    unfold PctChange.ciLower
    rw [hdf, hq, m2, sp, Fl.fin_mul, Fl.fin_add]
  · obtain ⟨lo, up, -, -, h1, h2, h3, -, -, h4⟩ := C42_interval _ W.S x y d1 d2 hx hy hm hz
    refine ⟨lo, up, h2, h1, h3, ?_⟩
    change (if (pctOf corrected minPerc x y).statSig W.S then Fl.fin 1 else .fin 0) = _
    by_cases h : lo < 1 ∧ 1 < up
    · rw [if_pos h, if_neg]
      rw [h4]
      exact fun h' => h' h
    · rw [if_neg h, if_pos (h4.2 h)]

/-- The hypotheses of `C87_row` are met by `[3, 5]` against `[1, 2]`. -/
example : mean ([1, 2] : List ℝ) ≠ 0 ∧ 0 < pooledVar [3, 5] [1, 2] := by
  constructor <;> norm_num [mean, pooledVar, sqDev]

/-! ## C88 -/

theorem vals_causal (c : SSCfg) (u : Int) (rows more : SSeries) (t : Int) (ht : 1 ≤ c.nTest)
    (hu : 0 < u) (h : ∀ r ∈ more, t < r.1) :
    testVals c u (rows ++ more) t = testVals c u rows t
    ∧ controlVals c u (rows ++ more) t = controlVals c u rows t := by
  have h3 : 0 ≤ ((c.nTest : Int) - 1) * u :=
    mul_nonneg (by have : (1 : Int) ≤ c.nTest := by exact_mod_cast ht
                   omega) hu.le
  have hnil : ∀ p : Int × ℝ → Bool, (∀ r ∈ more, ¬ p r = true) → more.filter p = [] := fun p hp =>
    List.filter_eq_nil_iff.2 hp
  constructor
  · unfold testVals
    rw [List.filter_append, hnil _ ?_, List.append_nil]
    intro r hr
    have := h r hr
    simp; omega
  · unfold controlVals
    rw [List.filter_append, hnil _ ?_, List.append_nil]
    intro r hr
    have := h r hr
    simp; omega

/-- C88: later points do not change the rows of earlier ones: the response for a longer series
begins with the response for its first part. -/
theorem C88_causal_partial (W : SSWorld) (c : SSCfg) (u : Int) (d1 d2 : SSeries) (hist : Option SSeries)
    (hu : c.unit = some u) (hpos : 0 < u) (hc : 1 ≤ c.nControl) (ht : 1 ≤ c.nTest)
    (hi : Inc (hist.getD [] ++ (d1 ++ d2))) (hd : d1 ≠ []) (hs : c.remSeason = false)
    (ho : c.scoresOnly = false) (hb : c.corrected = false ∨ (d1 ++ d2).length ≤ c.maxSplit) :
    ∃ r1 r2 : SSResp, (ssFitPredict W c d1 hist).result = .ok r1
      ∧ (ssFitPredict W c (d1 ++ d2) hist).result = .ok (r1 ++ r2)
      ∧ r1.length = d1.length ∧ r2.length = d2.length := by
  have hi1 : Inc (hist.getD [] ++ d1) := by
    rw [← List.append_assoc] at hi
    exact (List.pairwise_append.1 hi).1
  have hb1 : c.corrected = false ∨ d1.length ≤ c.maxSplit := by
    rw [List.length_append] at hb
    exact hb.imp_right (by omega)
  rw [C87_windows_partial W c u d1 hist hu hpos hc ht hi1 hd hs ho hb1,
    C87_windows_partial W c u (d1 ++ d2) hist hu hpos hc ht hi (by simp [hd]) hs ho hb]
  refine ⟨_, d2.map (ssSpec W c u (hist.getD [] ++ (d1 ++ d2))), rfl, ?_, by simp, by simp⟩
  · rw [List.map_append]
    congr 2
    apply List.map_congr_left
    intro r hr
    have hf : firstTime (hist.getD [] ++ (d1 ++ d2)) = firstTime (hist.getD [] ++ d1) := by
      obtain ⟨a, l, rfl⟩ := List.exists_cons_of_ne_nil hd
      cases hh : hist.getD [] <;> simp [firstTime]
    have := vals_causal c u (hist.getD [] ++ d1) d2 r.1 ht hpos (fun q hq => by
      rw [← List.append_assoc] at hi
      exact (List.pairwise_append.1 hi).2.2 r (by simp [hr]) q hq)
    unfold ssSpec
    rw [hf, ← List.append_assoc, this.1, this.2]

/-- C88: it does not matter where the known series is cut into history and data: the response for
data with a history is the end of the response for the whole series. -/
theorem C88_history_partial (W : SSWorld) (c : SSCfg) (u : Int) (h d : SSeries)
    (hu : c.unit = some u) (hpos : 0 < u) (hc : 1 ≤ c.nControl) (ht : 1 ≤ c.nTest)
    (hi : Inc (h ++ d)) (hd : d ≠ []) (hs : c.remSeason = false)
    (ho : c.scoresOnly = false) (hb : c.corrected = false ∨ (h ++ d).length ≤ c.maxSplit) :
    ∃ r1 r2 : SSResp, (ssFitPredict W c d (some h)).result = .ok r2
      ∧ (ssFitPredict W c (h ++ d) none).result = .ok (r1 ++ r2) ∧ r2.length = d.length := by
  have hb1 : c.corrected = false ∨ d.length ≤ c.maxSplit := by
    rw [List.length_append] at hb
    exact hb.imp_right (by omega)
  rw [C87_windows_partial W c u d (some h) hu hpos hc ht hi hd hs ho hb1,
    C87_windows_partial W c u (h ++ d) none hu hpos hc ht (by simpa using hi) (by simp [hd]) hs ho hb]
  exact ⟨h.map (ssSpec W c u (h ++ d)), _, rfl, by simp, by simp⟩

/-- Both theorems apply to a short series. -/
example : Inc ((some [(0, 1), (1, 2)] : Option SSeries).getD [] ++ ([(2, 4)] ++ [(3, 7), (5, (9 : ℝ))])) := by
  simp [Inc]

/-! ## C89 -/

/-- What `scipy.stats.ttest_ind(a, b, equal_var=True)` computes for two samples of at least two
values. -/
def TtestSpec (W : SSWorld) : Prop :=
  ∀ x y : List ℝ, 2 ≤ x.length → 2 ≤ y.length →
    W.ttestInd x y = (.fin (mean x) - .fin (mean y))
      / .fin (Real.sqrt (pooledVar x y * (1 / x.length + 1 / y.length)))

theorem demoSS_ttest : TtestSpec demoSS := fun _ _ _ _ => rfl

theorem ttest_manual_eq (W : SSWorld) (hW : TtestSpec W) (m : ℝ) (x y : List ℝ) (hx : 2 ≤ x.length)
    (hy : 2 ≤ y.length) : ((pctOf true m x y).ttestManual W.S).1 = W.ttestInd x y := by
  obtain ⟨h1, h2⟩ := pctOf_data true m x y
  have x0 : x ≠ [] := by rintro rfl; simp at hx
  have y0 : y ≠ [] := by rintro rfl; simp at hy
  unfold PctChange.ttestManual
  dsimp only
  rw [hW x y hx hy, meanVal_of _ x h1 x0, meanVal_of _ y h2 y0,
    pooledStd_of _ x y h1 h2 x0 y0 (by omega)]
  congr 2
  unfold scoreScale
  rw [if_pos (show (pctOf true m x y).corrected = true from rfl), ← Real.sqrt_mul (pooledVar_nonneg x y x0 y0), add_comm]

theorem abs_lt_zero (a : Fl) : Fl.lt (Fl.abs a) (.fin 0) = false := by
  cases a with
  | fin x =>
    rw [Fl.abs_fin]
    apply Bool.eq_false_iff.2
    rw [ne_eq, Fl.lt_fin]
    exact not_lt.2 (abs_nonneg x)
  | pinf => rfl
  | ninf => rfl
  | nan => rfl

theorem filter_drop_end : ∀ (l : SSeries) (a b : Int), Inc l → a ≤ b → (∃ q ∈ l, q.1 = b) →
    ∃ q : Int × ℝ, (l.filter fun r => decide (a ≤ r.1) && decide (r.1 ≤ b))
      = (l.filter fun r => decide (a ≤ r.1 ∧ r.1 < b)) ++ [q]
  | [], _, _, _, _, h => by simp at h
  | p :: l, a, b, hi, hab, h => by
    have h' := List.pairwise_cons.1 hi
    by_cases hp : p.1 = b
    · refine ⟨p, ?_⟩
      rw [List.filter_cons_of_pos (by simp [hp, hab]), List.filter_cons_of_neg (by simp [hp]),
        List.filter_eq_nil_iff.2, List.filter_eq_nil_iff.2]
      · rfl
      · intro x hx
        have := h'.1 x hx
        simp; omega
      · intro x hx
        have := h'.1 x hx
        simp; omega
    · obtain ⟨q, hq, e⟩ := h
      have hq' : q ∈ l := by
        rcases List.mem_cons.1 hq with rfl | hq
        · exact absurd e hp
        · exact hq
      obtain ⟨z, hz⟩ := filter_drop_end l a b h'.2 hab ⟨q, hq', e⟩
      refine ⟨z, ?_⟩
      have hlt : p.1 < b := by have := h'.1 q hq'; omega
      by_cases hc : a ≤ p.1
      · rw [List.filter_cons_of_pos (by simp [hc]; omega), List.filter_cons_of_pos (by simp [hc, hlt]), hz]
        rfl
      · rw [List.filter_cons_of_neg (by simp [hc]), List.filter_cons_of_neg (by simp [hc]), hz]

theorem scoresOnly_control (c : SSCfg) (u : Int) (total : SSeries) (t : Int) (hi : Inc total)
    (hu : 0 < u) :
    (let testStart := t - ((c.nTest : Int) - 1) * u
     let s := (total.filter fun r => decide (testStart - c.nControl * u ≤ r.1)
        && decide (r.1 ≤ testStart)).map (·.2)
     if total.any (fun q => decide (q.1 = testStart)) then pyTo s (-1) else s)
      = controlVals c u total t := by
  dsimp only
  have e : t - ((c.nTest : Int) + c.nControl - 1) * u = t - ((c.nTest : Int) - 1) * u - c.nControl * u := by
    ring
  unfold controlVals
  rw [e]
  generalize t - ((c.nTest : Int) - 1) * u = b
  have hab : b - c.nControl * u ≤ b := by
    have : 0 ≤ (c.nControl : Int) * u := mul_nonneg (by omega) hu.le
    omega
  generalize b - c.nControl * u = a at hab
  split
  · rename_i h
    obtain ⟨q, hq, e⟩ := List.any_eq_true.1 h
    obtain ⟨z, hz⟩ := filter_drop_end total a b hi hab ⟨q, hq, by simpa using e⟩
    rw [hz, List.map_append]
    simp [pyTo, pyIdx]
  · rename_i h
    congr 1
    apply List.filter_congr
    intro r hr
    have : r.1 ≠ b := by
      intro e
      exact h (List.any_eq_true.2 ⟨r, hr, by simpa using e⟩)
    rw [Bool.eq_iff_iff]
    simp only [Bool.and_eq_true, decide_eq_true_eq]
    omega

/-- C89: with the corrected scores and no minimum change, computing only the anomaly scores gives
the scores of the full computation, when the windows of every scored point hold at least two values
each. -/
theorem C89_scores_only_partial (W : SSWorld) (hW : TtestSpec W) (c : SSCfg) (u : Int) (data : SSeries)
    (hist : Option SSeries) (hu : c.unit = some u) (hpos : 0 < u) (hc : 1 ≤ c.nControl)
    (ht : 1 ≤ c.nTest) (hi : Inc (hist.getD [] ++ data)) (hd : data ≠ []) (hs : c.remSeason = false)
    (hb : data.length ≤ c.maxSplit) (hcor : c.corrected = true) (hmin : c.minPerc = 0)
    (h2 : ∀ r ∈ data, firstTime (hist.getD [] ++ data) + ((c.nControl : Int) + c.nTest - 1) * u ≤ r.1 →
      2 ≤ (testVals c u (hist.getD [] ++ data) r.1).length
        ∧ 2 ≤ (controlVals c u (hist.getD [] ++ data) r.1).length) :
    ∃ r1 r2 : SSResp, (ssFitPredict W { c with scoresOnly := true } data hist).result = .ok r1
      ∧ (ssFitPredict W { c with scoresOnly := false } data hist).result = .ok r2
      ∧ r1.map (fun r => (r.1, r.2.score)) = r2.map (fun r => (r.1, r.2.score)) := by
  have h87 := C87_windows_partial W { c with scoresOnly := false } u data hist hu hpos hc ht hi hd hs rfl
    (Or.inr hb)
  have hN : ((c.nControl : Int) + c.nTest - 1) * u = c.numHist * u := rfl
  rw [h87, fit_unfold W { c with scoresOnly := true } u data hist hu hd]
  have hnum : ({ c with scoresOnly := true } : SSCfg).numHist = c.numHist := rfl
  rw [hnum]
  by_cases hup : firstTime (hist.getD [] ++ data) + c.numHist * u ≤ (data.getLast hd).1
  · rw [if_pos hup, if_pos rfl]
    refine ⟨_, _, rfl, rfl, ?_⟩
    unfold ssScoresOnly
    rw [List.map_map, List.map_map]
    apply List.map_congr_left
    intro r hr
    simp only [Function.comp, ssSpec]
    congr 1
    have e1 : ((hist.getD [] ++ data).head?.getD r).1 = firstTime (hist.getD [] ++ data) := by
      have hne : hist.getD [] ++ data ≠ [] := by simp [hd]
      obtain ⟨a, l, e⟩ := List.exists_cons_of_ne_nil hne
      simp [firstTime, e]
    rw [e1]
    have e2 : (firstTime (hist.getD [] ++ data) ≤ r.1 - ((c.nTest : Int) - 1) * u - c.nControl * u)
        ↔ firstTime (hist.getD [] ++ data) + ((c.nControl : Int) + c.nTest - 1) * u ≤ r.1 := by
      have : ((c.nControl : Int) + c.nTest - 1) * u = ((c.nTest : Int) - 1) * u + c.nControl * u := by ring
      omega
    by_cases hz : firstTime (hist.getD [] ++ data) + ((c.nControl : Int) + c.nTest - 1) * u ≤ r.1
    · rw [if_pos (e2.2 hz), if_pos hz]
      obtain ⟨k1, k2⟩ := h2 r hr hz
      have ec := scoresOnly_control c u (hist.getD [] ++ data) r.1 hi hpos
      dsimp only at ec
      rw [ec]
      have et : ((hist.getD [] ++ data).filter fun q =>
          decide (r.1 - ((c.nTest : Int) - 1) * u ≤ q.1) && decide (q.1 ≤ r.1)).map (·.2)
          = testVals c u (hist.getD [] ++ data) r.1 := by
        unfold testVals
        congr 1
        apply List.filter_congr
        intro q _
        simp
      rw [et]
      rw [← ttest_manual_eq W hW c.minPerc _ _ k1 k2]
      show _ = (ssRow W (pctOf c.corrected c.minPerc _ _)).score
      unfold ssRow PctChange.score
      dsimp only
      have hm0 : ∀ x y : List ℝ, (pctOf c.corrected c.minPerc x y).minPerc = 0 := fun _ _ => hmin
      rw [hm0, abs_lt_zero]
      simp only [Bool.false_eq_true, if_false]
      unfold PctChange.ttest
      rw [if_neg, hcor]
      · rfl
      · rw [len_of _ _ (pctOf_data _ _ _ _).1, len_of _ _ (pctOf_data _ _ _ _).2]
        change ¬ ((controlVals c u _ r.1).length = 1 ∧ (testVals c u _ r.1).length = 1)
        omega
    · rw [if_neg (fun h => hz (e2.1 h)), if_neg hz]
      rfl
  · rw [if_neg hup]
    refine ⟨_, _, rfl, rfl, ?_⟩
    rw [ssInitResp, List.map_map, List.map_map]
    apply List.map_congr_left
    intro r hr
    simp only [Function.comp, ssSpec]
    rw [if_neg]
    · rfl
    · intro hle
      apply hup
      have hdi := (List.pairwise_append.1 hi).2.1
      have := le_last data hdi r hr _ (List.getLast?_eq_some_getLast hd)
      change _ + ((c.nControl : Int) + c.nTest - 1) * u ≤ _ at hle
      rw [hN] at hle
      omega

/-- The hypotheses of C89 hold for a short series. -/
example : ∃ r1 r2 : SSResp,
    (ssFitPredict demoSS { nControl := 2, nTest := 2, unit := some 1, scoresOnly := true }
      [(3, 7), (4, 9)] (some [(0, 1), (1, 2), (2, 4)])).result = .ok r1
    ∧ (ssFitPredict demoSS { nControl := 2, nTest := 2, unit := some 1, scoresOnly := false }
      [(3, 7), (4, 9)] (some [(0, 1), (1, 2), (2, 4)])).result = .ok r2
    ∧ r1.map (fun r => (r.1, r.2.score)) = r2.map (fun r => (r.1, r.2.score)) := by
  apply C89_scores_only_partial demoSS demoSS_ttest { nControl := 2, nTest := 2, unit := some 1 } 1
    _ _ rfl (by norm_num) (by norm_num) (by norm_num) (by simp [Inc]) (by simp) rfl (by simp) rfl rfl
  simp [testVals, controlVals, firstTime]

theorem mean_pair (a b : ℝ) : mean [a, b] = (a + b) / 2 := by
  simp [mean]

/-- C89 is violated by a minimum percentage change: the full computation sets the score of a small
change to 0, the scores-only computation does not. -/
theorem C89_min_change_violated (W : SSWorld) (hW : TtestSpec W) : ∃ (c : SSCfg) (data : SSeries)
    (r1 r2 : SSResp), c.minPerc ≠ 0 ∧
      (ssFitPredict W { c with scoresOnly := true } data none).result = .ok r1
      ∧ (ssFitPredict W { c with scoresOnly := false } data none).result = .ok r2
      ∧ r1.map (fun r => (r.1, r.2.score)) ≠ r2.map (fun r => (r.1, r.2.score)) := by
  refine ⟨{ nControl := 2, nTest := 2, unit := some 1, minPerc := 1000 },
    [(0, 1), (1, 2), (2, 3), (3, 4)], _, _, by norm_num,
    fit_unfold W _ 1 _ none rfl (by simp) |>.trans (by rw [if_pos (by simp [firstTime, SSCfg.numHist]), if_pos rfl]),
    C87_windows_partial W _ 1 _ none rfl (by norm_num) (by norm_num) (by norm_num) (by simp [Inc])
      (by simp) rfl rfl (Or.inr (by simp)), ?_⟩
  intro h
  have h3 := congrArg (fun l => l.getLast?) h
  simp [ssScoresOnly, ssSpec, firstTime, testVals, controlVals, pyTo, pyIdx, ssRow] at h3
  have e1 : (pctOf true 1000 [3, 4] [1, 2]).score W.S = .fin 0 := by
    unfold PctChange.score
    obtain ⟨d1, d2⟩ := pctOf_data true 1000 [3, 4] [1, 2]
    rw [(percChange_of _ _ _ d1 d2 (by simp) (by simp) (by rw [mean_pair]; norm_num)).2]
    rw [Fl.abs_fin, if_pos]
    rw [Fl.lt_fin, mean_pair, mean_pair]
    show _ < (1000 : ℝ)
    rw [abs_lt]
    constructor <;> norm_num
  rw [e1, hW _ _ (by simp) (by simp), mean_pair, mean_pair] at h3
  have hp : pooledVar [3, 4] [1, 2] = 1 / 2 := by
    unfold pooledVar sqDev
    simp only [mean_pair]
    norm_num
  rw [hp, Fl.fin_sub, Fl.fin_div] at h3
  · injection h3 with h3
    rw [div_eq_zero_iff] at h3
    rcases h3 with h3 | h3
    · norm_num at h3
    · rw [Real.sqrt_eq_zero'] at h3
      norm_num at h3
  · rw [Real.sqrt_ne_zero']
    norm_num

/-! ## C37 -/

/-- C37 for `StatSigDetectorModel`: a model built from `serialize()` output has the configuration of
the serialised model, except that `anomaly_scores_only` is the constructor argument. -/
theorem C37_statsig_partial (c : SSCfg) (a : SSArgs) :
    SSCfg.init a (some c.serialize) = .ok { c with scoresOnly := a.scoresOnly } := rfl

/-- C37 is violated by `StatSigDetectorModel`: `anomaly_scores_only=True` does not survive. -/
theorem C37_statsig_violated (c : SSCfg) (h : c.scoresOnly = true) :
    SSCfg.init {} (some c.serialize) ≠ .ok c := by
  rw [C37_statsig_partial]
  intro e
  injection e with e
  have := congrArg SSCfg.scoresOnly e
  simp [h] at this

/-- C37 is violated by `MultiStatSigDetectorModel`: the method, the rescaling flag and the use of
corrected scores all fall back to the constructor defaults. -/
theorem C37_multi_violated (m : MSCfg)
    (h : m.method ≠ "fdr_bh" ∨ m.skipRescaling = true ∨ m.base.corrected = true) :
    MSCfg.init {} "fdr_bh" false false (some m.base.serialize) ≠ .ok m := by
  intro e
  have e' : MSCfg.init {} "fdr_bh" false false (some m.base.serialize) =
    .ok { base := { m.base with scoresOnly := false, corrected := false }, method := "fdr_bh",
          skipRescaling := false } := rfl
  rw [e'] at e
  injection e with e
  rcases h with h | h | h
  · exact h (congrArg MSCfg.method e).symm
  · have := congrArg MSCfg.skipRescaling e
    simp [h] at this
  · have := congrArg (fun m => m.base.corrected) e
    simp [h] at this

/-- Serialising and restoring a scores-only model gives a model of full responses. -/
example : SSCfg.init {} (some (SSCfg.serialize
    { nControl := 3, nTest := 2, unit := some 5, minPerc := 7, scoresOnly := true }))
    = .ok { nControl := 3, nTest := 2, unit := some 5, minPerc := 7, scoresOnly := false } := rfl

/-! ## C39 -/

/-- C39 for `StatSigDetectorModel`: the caller's history is left alone when the history is long
enough for the windows (and the full response is asked for), or when nothing can be scored yet. -/
theorem C39_statsig_partial (W : SSWorld) (c : SSCfg) (u : Int) (data h : SSeries)
    (hu : c.unit = some u) (hd : data ≠ [])
    (hok : (c.scoresOnly = false ∧ h ≠ [] ∧
        ∀ f ∈ h.head?, ∀ l ∈ h.getLast?, f.1 + ((c.nControl : Int) + c.nTest - 1) * u ≤ l.1)
      ∨ (data.getLast hd).1 < firstTime (h ++ data) + ((c.nControl : Int) + c.nTest - 1) * u) :
    (ssFitPredict W c data (some h)).callerHist = some h := by
  unfold ssFitPredict ssUnit
  rw [hu]
  dsimp only
  rw [shouldUpdate_eq c u data (some h) hd]
  by_cases hup : firstTime ((some h).getD [] ++ data) + c.numHist * u ≤ (data.getLast hd).1
  · rw [decide_eq_true hup]
    rcases hok with ⟨ho, hne, hl⟩ | hlt
    · dsimp only
      rw [if_neg (by simp [ho])]
      dsimp only
      have he : ssEnough c u (some h) = true := by
        unfold ssEnough
        obtain ⟨a, l, rfl⟩ := List.exists_cons_of_ne_nil hne
        have hg := List.getLast?_eq_some_getLast hne
        simp only [Option.getD_some, List.head?_cons, hg, decide_eq_true_eq]
        exact hl a (by simp) _ (by rw [hg]; rfl)
      unfold ssSplit
      rw [if_pos he]
    · have hN : ((c.nControl : Int) + c.nTest - 1) * u = c.numHist * u := rfl
      simp only [Option.getD_some] at hup
      rw [hN] at hlt
      omega
  · rw [decide_eq_false hup]

/-- C39 is violated by `StatSigDetectorModel`: when the history is too short but history and data
together are not, or when only scores are asked for, the data are appended to the caller's history. -/
theorem C39_statsig_violated (W : SSWorld) (c : SSCfg) (u : Int) (data h : SSeries)
    (hu : c.unit = some u) (hd : data ≠ [])
    (hup : firstTime (h ++ data) + ((c.nControl : Int) + c.nTest - 1) * u ≤ (data.getLast hd).1)
    (hbad : c.scoresOnly = true ∨ h = [] ∨ ∃ f l, h.head? = some f ∧ h.getLast? = some l ∧
        l.1 < f.1 + ((c.nControl : Int) + c.nTest - 1) * u) :
    (ssFitPredict W c data (some h)).callerHist = some (h ++ data) := by
  have hN : ((c.nControl : Int) + c.nTest - 1) * u = c.numHist * u := rfl
  unfold ssFitPredict ssUnit
  rw [hu]
  dsimp only
  rw [shouldUpdate_eq c u data (some h) hd, decide_eq_true (by exact hup)]
  dsimp only
  by_cases ho : c.scoresOnly = true
  · rw [if_pos ho]; rfl
  · rw [if_neg ho]
    dsimp only
    have he : ¬ ssEnough c u (some h) = true := by
      unfold ssEnough
      rcases hbad with h1 | rfl | ⟨f, l, hf, hl, hlt⟩
      · exact absurd h1 ho
      · simp
      · simp only [Option.getD_some, hf, hl, decide_eq_true_eq]
        rw [hN] at hlt
        omega
    unfold ssSplit
    rw [if_neg he]
    rfl

/-- A history of one point, too short for windows of two units each. -/
example : (ssFitPredict demoSS { nControl := 2, nTest := 2, unit := some 1 } [(1, 7), (2, 8), (3, 9)]
    (some [(0, 1)])).callerHist = some [(0, 1), (1, 7), (2, 8), (3, 9)] :=
  C39_statsig_violated demoSS _ 1 _ _ rfl (by simp) (by simp [firstTime])
    (Or.inr (Or.inr ⟨(0, 1), (0, 1), rfl, rfl, by simp⟩))

/-! ## C90 -/

/-- C90: with an explicit time unit a call does not change the configuration, so it does not
influence later calls. -/
theorem C90_repeat_partial (W : SSWorld) (c : SSCfg) (u : Int) (d1 d2 : SSeries)
    (h1 h2 : Option SSeries) (hu : c.unit = some u) :
    ssFitPredict W { c with unit := (ssFitPredict W c d1 h1).unit } d2 h2 = ssFitPredict W c d2 h2 := by
  have : (ssFitPredict W c d1 h1).unit = c.unit := by
    unfold ssFitPredict ssUnit
    rw [hu]
    dsimp only
    cases ssShouldUpdate c u d1 h1 with
    | error e => rfl
    | ok b =>
      cases b
      · rfl
      · dsimp only
        split <;> rfl
  rw [this]

/-- C90 is violated without a time unit: the unit inferred from the first series stays, so a series
of another frequency gets another answer than from a new model. -/
theorem C90_repeat_violated (W : SSWorld) : ∃ (c : SSCfg) (d1 d2 : SSeries), c.unit = none ∧
    (ssFitPredict W { c with unit := (ssFitPredict W c d1 none).unit } d2 none).result
      ≠ (ssFitPredict W c d2 none).result := by
  refine ⟨{ nControl := 2, nTest := 2 }, [(0, 1), (1, 2), (2, 4)], [(0, 1), (10, 2), (20, 5)], rfl, ?_⟩
  have i1 : TSD.inferFreqRobust ⟨[((0 : Int), (1 : ℝ)), (1, 2), (2, 4)], true⟩ = .ok 1 := by
    unfold TSD.inferFreqRobust
    have : modeMin (diffs [0, 1, 2]) = some 1 := by decide
    simp [this]
  have i2 : TSD.inferFreqRobust ⟨[((0 : Int), (1 : ℝ)), (10, 2), (20, 5)], true⟩ = .ok 10 := by
    unfold TSD.inferFreqRobust
    have : modeMin (diffs [0, 10, 20]) = some 10 := by decide
    simp [this]
  have hu1 : (ssFitPredict W { nControl := 2, nTest := 2 } [(0, 1), (1, 2), (2, 4)] none).unit = some 1 := by
    unfold ssFitPredict ssUnit
    simp only [List.length_cons, List.length_nil]
    rw [if_pos (by norm_num), i1]
    dsimp only
    rw [shouldUpdate_eq _ _ _ _ (by simp), decide_eq_false (by simp [firstTime, SSCfg.numHist])]
  rw [hu1, C87_windows_partial W _ 1 _ none rfl (by norm_num) (by norm_num) (by norm_num) (by simp [Inc])
    (by simp) rfl rfl (Or.inr (by simp))]
  have h2 : (ssFitPredict W { nControl := 2, nTest := 2 } [(0, 1), (10, 2), (20, 5)] none).result
      = .ok (ssInitResp [(0, 1), (10, 2), (20, 5)]) := by
    unfold ssFitPredict ssUnit
    simp only [List.length_cons, List.length_nil]
    rw [if_pos (by norm_num), i2]
    dsimp only
    rw [shouldUpdate_eq _ _ _ _ (by simp), decide_eq_false (by simp [firstTime, SSCfg.numHist])]
  rw [h2]
  intro h
  injection h with h
  have h3 := congrArg (fun l => l.getLast?.map fun r => r.2.pred) h
  simp [ssSpec, ssInitResp, firstTime, testVals, controlVals, ssRow, pctOf, CPInterval.meanVal,
    CPInterval.data, npMean] at h3

/-- The state behind the violation: once a call has found a time unit, the model keeps it, whatever
path the call takes. -/
theorem C90_unit (W : SSWorld) (c : SSCfg) (data : SSeries) (hist : Option SSeries) :
    (∀ u, c.unit = some u → (ssFitPredict W c data hist).unit = some u) ∧
    (∀ u, c.unit = none → 3 ≤ data.length →
      TSD.inferFreqRobust (⟨data, true⟩ : TSD ℝ) = .ok u → (ssFitPredict W c data hist).unit = some u) ∧
    (∀ u h, c.unit = none → data.length < 3 → hist = some h → 3 ≤ h.length →
      TSD.inferFreqRobust (⟨h, true⟩ : TSD ℝ) = .ok u → (ssFitPredict W c data hist).unit = some u) := by
  have key : ∀ u, ssUnit c data hist = .ok u → (ssFitPredict W c data hist).unit = some u := by
    intro u h
    unfold ssFitPredict
    rw [h]
    dsimp only
    cases ssShouldUpdate c u data hist with
    | error e => rfl
    | ok b =>
      cases b
      · rfl
      · dsimp only
        split <;> rfl
  refine ⟨fun u h => key u ?_, fun u h h3 hf => key u ?_, fun u hs h h3 e h4 hf => key u ?_⟩
  · unfold ssUnit; rw [h]
  · unfold ssUnit; rw [h]; dsimp only; rw [if_pos h3, hf]
  · subst e
    unfold ssUnit; rw [h]; dsimp only [Option.getD_some]; rw [if_neg (by omega), if_pos h4, hf]

end

end Kats

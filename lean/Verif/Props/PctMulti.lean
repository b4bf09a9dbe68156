import Verif.Model.PctMulti
import Verif.Props.PercentageChange
import Mathlib.Analysis.SpecialFunctions.Trigonometric.Arctan

/-!
# C157: percentage changes of several series
-/

namespace Kats

noncomputable section
open Classical

/-- The interval of one of the series. -/
def MInterval.col (c : MInterval) (j : Nat) : CPInterval :=
  { start := c.start, stop := c.stop, df := c.df.map fun d => d.map fun r => (r.1, r.2 j), threshold := c.threshold }

/-- The percentage change of one of the series, with or without the correction. -/
def MPct.col (p : MPct) (corrected : Bool) (j : Nat) : PctChange :=
  { current := p.current.col j, previous := p.previous.col j, corrected := corrected, minPerc := p.minPerc }

theorem pm_data (c : MInterval) (j : Nat) : (c.col j).data = c.df.map fun d => d.map fun r => r.2 j := by
  unfold MInterval.col CPInterval.data
  rcases c.df with _ | d
  · rfl
  · simp [List.map_map, Function.comp_def]

theorem pm_len (c : MInterval) (j : Nat) : (c.col j).len = c.len := by
  unfold MInterval.col CPInterval.len MInterval.len
  rcases c.df with _ | d
  · rfl
  · simp

theorem pm_mean (c : MInterval) (j : Nat) : (c.col j).meanVal = c.meanVal j := by
  unfold CPInterval.meanVal MInterval.meanVal
  rw [pm_data]
  rcases c.df with _ | d
  · rfl
  · rfl

theorem pm_var (c : MInterval) (j : Nat) : (c.col j).varianceVal = c.varianceVal j := by
  unfold CPInterval.varianceVal MInterval.varianceVal
  rw [pm_data]
  rcases c.df with _ | d
  · rfl
  · simp only [Option.map_some, List.length_map]
    split <;> rfl

/-- C157 (data): setting and extending the data of an interval is done for every series as for a single one. -/
theorem C157_data (c : MInterval) (rows : List (Int × (Nat → ℝ))) (j : Nat) :
    (c.setData rows).col j = (c.col j).setData (rows.map fun r => (r.1, r.2 j))
    ∧ (c.extendData rows).col j = (c.col j).extendData (rows.map fun r => (r.1, r.2 j)) := by
  have key : ∀ l : List (Int × (Nat → ℝ)),
      (l.filter fun r => decide (c.start ≤ r.1) && decide (r.1 < c.stop)).map (fun r => (r.1, r.2 j))
        = (l.map fun r => (r.1, r.2 j)).filter fun r => decide (c.start ≤ r.1) && decide (r.1 < c.stop) := by
    intro l
    rw [List.filter_map]
    rfl
  constructor
  · unfold MInterval.setData CPInterval.setData CPInterval.clip MInterval.col
    simp only [Option.map_some, key]
  · unfold MInterval.extendData CPInterval.extendData CPInterval.clip MInterval.col
    rcases c.df with _ | d
    · simp only [Option.map_some, Option.map_none, key]
    · simp only [Option.map_some, key, List.map_append]

theorem pm_ratio (p : MPct) (b : Bool) (j : Nat) : (p.col b j).ratio = p.ratio j ∧ (p.col b j).percChange = p.percChange j := by
  have h : (p.col b j).ratio = p.ratio j := by
    show (p.current.col j).meanVal / (p.previous.col j).meanVal = _
    rw [pm_mean, pm_mean]
    rfl
  refine ⟨h, ?_⟩
  unfold PctChange.percChange MPct.percChange
  rw [h]

theorem pm_df (p : MPct) (b : Bool) (j : Nat) : (p.col b j).df = p.df := by
  show ((p.previous.col j).len : Int) + (p.current.col j).len - 2 = _
  rw [pm_len, pm_len]
  rfl

theorem pm_pooled (p : MPct) (j : Nat) : (p.col p.corrected j).pooledStd = p.pooledStd j := by
  unfold PctChange.pooledStd MPct.pooledStd
  have e1 : (p.col p.corrected j).previous = p.previous.col j := rfl
  have e2 : (p.col p.corrected j).current = p.current.col j := rfl
  have e3 : (p.col p.corrected j).corrected = p.corrected := rfl
  simp only [e1, e2, e3, pm_len, pm_var]
  split <;> rfl

theorem pm_cov (p : MPct) (b : Bool) (j : Nat) : (p.col b j).calcCov = p.calcCov j := by
  unfold PctChange.calcCov MPct.calcCov
  have e1 : (p.col b j).previous = p.previous.col j := rfl
  have e2 : (p.col b j).current = p.current.col j := rfl
  simp only [e1, e2, pm_data]
  rcases p.current.df with _ | c <;> rcases p.previous.df with _ | q <;> simp only [Option.map_none, Option.map_some]
  simp only [List.length_map]
  split
  · rfl
  · rw [← List.map_drop, ← List.map_drop]

theorem pm_sigma (p : MPct) (b : Bool) (j : Nat) : (p.col b j).sigmaSqRatio = p.sigmaSqRatio j := by
  unfold PctChange.sigmaSqRatio MPct.sigmaSqRatio
  have e1 : (p.col b j).previous = p.previous.col j := rfl
  have e2 : (p.col b j).current = p.current.col j := rfl
  simp only [e1, e2, pm_mean, pm_var, pm_len, pm_cov]

/-- C157 (estimates): for every series the ratio, the change in percent, its direction, the band of the mean, the band of the
ratio and its significance are those of the series on its own. -/
theorem C157_estimates (p : MPct) (S : ScipyT) (j : Nat) :
    p.ratio j = (p.col p.corrected j).ratio ∧ p.percChange j = (p.col p.corrected j).percChange
    ∧ p.direction j = (p.col p.corrected j).direction
    ∧ p.ciUpper S j = (p.col p.corrected j).ciUpper S ∧ p.ciLower S j = (p.col p.corrected j).ciLower S
    ∧ p.upper S j = (p.col p.corrected j).upper S ∧ p.lower S j = (p.col p.corrected j).lower S
    ∧ p.statSig S j = (p.col p.corrected j).statSig S := by
  have hu : (p.col p.corrected j).upper S = p.upper S j := by
    unfold PctChange.upper MPct.upper
    rw [(pm_ratio p _ j).1, pm_sigma]
  have hl : (p.col p.corrected j).lower S = p.lower S j := by
    unfold PctChange.lower MPct.lower
    rw [(pm_ratio p _ j).1, pm_sigma]
  refine ⟨(pm_ratio p _ j).1.symm, (pm_ratio p _ j).2.symm, ?_, ?_, ?_, hu.symm, hl.symm, ?_⟩
  · unfold PctChange.direction MPct.direction
    rw [(pm_ratio p _ j).2]
  · unfold PctChange.ciUpper MPct.ciUpper
    rw [pm_df, pm_pooled]
    show _ = (p.previous.col j).meanVal - _
    rw [pm_mean]
  · unfold PctChange.ciLower MPct.ciLower
    rw [pm_df, pm_pooled]
    show _ = (p.previous.col j).meanVal + _
    rw [pm_mean]
  · unfold PctChange.statSig MPct.statSig
    rw [hu, hl]
    rcases Fl.lt (.fin 1) (p.upper S j) && Fl.lt (p.lower S j) (.fin 1) with _ | _ <;> rfl

theorem pm_manual (p : MPct) (S : ScipyT) (j : Nat) : p.ttestManual S j = (p.col p.corrected j).ttestManual S := by
  unfold MPct.ttestManual PctChange.ttestManual
  have e1 : (p.col p.corrected j).previous = p.previous.col j := rfl
  have e2 : (p.col p.corrected j).current = p.current.col j := rfl
  simp only [e1, e2, pm_mean, pm_pooled, pm_df]

/-- The test of scipy is the one of a single series with the correction. -/
theorem pm_ind (p : PctChange) (S : ScipyT) (x y : List ℝ) (hx : p.current.data = some x) (hy : p.previous.data = some y)
    (hx2 : 2 ≤ x.length) (hy2 : 2 ≤ y.length) (hc : p.corrected = true) : MPct.ttestInd S x y = p.ttestManual S := by
  have hx0 : x ≠ [] := by rintro rfl; simp at hx2
  have hy0 : y ≠ [] := by rintro rfl; simp at hy2
  have lx : (2 : ℝ) ≤ x.length := by exact_mod_cast hx2
  have ly : (2 : ℝ) ≤ y.length := by exact_mod_cast hy2
  have hvx : npVar1 x = .fin (sampleVar x) := by
    unfold npVar1 sampleVar
    rw [if_neg (by omega), if_neg (by omega)]
  have hvy : npVar1 y = .fin (sampleVar y) := by
    unfold npVar1 sampleVar
    rw [if_neg (by omega), if_neg (by omega)]
  have hmx : npMean x = .fin (mean x) := by unfold npMean; rw [if_neg hx0]
  have hmy : npMean y = .fin (mean y) := by unfold npMean; rw [if_neg hy0]
  have hd : Fl.sqrt ((Fl.fin ((x.length : ℝ) - 1) * npVar1 x + Fl.fin ((y.length : ℝ) - 1) * npVar1 y)
      / Fl.fin ((x.length : ℝ) + y.length - 2) * Fl.fin (1 / x.length + 1 / y.length)) = p.pooledStd := by
    rw [pooledStd_of p x y hx hy hx0 hy0 (by omega), hvx, hvy, Fl.fin_mul, Fl.fin_mul, Fl.fin_add, sampleVar_mul x hx0,
      sampleVar_mul y hy0, Fl.fin_div _ _ (by intro h; linarith), Fl.fin_mul]
    have hp := pooledVar_nonneg x y hx0 hy0
    show Fl.sqrt (.fin (pooledVar x y * (1 / x.length + 1 / y.length))) = _
    rw [Fl.sqrt_fin _ (by positivity)]
    unfold scoreScale
    rw [if_pos hc, Real.sqrt_mul hp, add_comm (1 / (x.length : ℝ))]
  unfold MPct.ttestInd PctChange.ttestManual
  simp only []
  rw [hd, hmx, hmy, meanVal_of _ x hx hx0, meanVal_of _ y hy hy0]
  unfold PctChange.df
  rw [len_of _ x hx, len_of _ y hy]

/-- C157 (scores), the part that holds: without rescaling the score and the p-value of a series are those of the series on
its own, with the correction if both intervals have at least two rows. -/
theorem C157_scores_partial (p : MPct) (S : ScipyT) (multi : List Fl → List Fl) (hs : p.skip = true) (c q : List (Int × (Nat → ℝ)))
    (hc : p.current.df = some c) (hq : p.previous.df = some q) (hc1 : 1 ≤ c.length) (hq1 : 1 ≤ q.length)
    (h3 : 3 ≤ c.length + q.length) :
    ∃ s t, p.score S multi = .ok s ∧ p.ttest S multi = .ok t ∧ ∀ j,
      (s j = if 2 ≤ c.length ∧ 2 ≤ q.length then (p.col true j).score S else (p.col p.corrected j).score S)
      ∧ (t.2 j = if 2 ≤ c.length ∧ 2 ≤ q.length then (p.col true j).pValue S else (p.col p.corrected j).pValue S) := by
  have l1 : p.current.len = c.length := by unfold MInterval.len; rw [hc]
  have l2 : p.previous.len = q.length := by unfold MInterval.len; rw [hq]
  have ht : ∀ b j, (p.col b j).ttest S = (p.col b j).ttestManual S := by
    intro b j
    unfold PctChange.ttest
    rw [if_neg]
    show ¬ ((p.previous.col j).len = 1 ∧ (p.current.col j).len = 1)
    rw [pm_len, pm_len, l1, l2]
    omega
  obtain ⟨r, hr, hr2⟩ : ∃ r, p.ttestStart S = .ok (some r) ∧ ∀ j, r j =
      if 2 ≤ c.length ∧ 2 ≤ q.length then (p.col true j).ttestManual S else (p.col p.corrected j).ttestManual S := by
    unfold MPct.ttestStart
    simp only [l1, l2]
    rw [if_neg (by omega)]
    by_cases h1 : q.length = 1 ∨ c.length = 1
    · rw [if_pos h1]
      refine ⟨_, rfl, fun j => ?_⟩
      rw [if_neg (by omega), pm_manual]
    · rw [if_neg h1, hc, hq]
      refine ⟨_, rfl, fun j => ?_⟩
      rw [if_pos (by omega)]
      refine pm_ind (p.col true j) S _ _ ?_ ?_ (by rw [List.length_map]; omega) (by rw [List.length_map]; omega) rfl
      · show (p.current.col j).data = _
        rw [pm_data, hc]
        rfl
      · show (p.previous.col j).data = _
        rw [pm_data, hq]
        rfl
  have htt : p.ttest S multi = .ok (fun j => (r j).1, fun j => (r j).2) := by
    unfold MPct.ttest
    rw [hr]
    show (if p.skip = true then _ else _) = _
    rw [if_pos hs]
    rfl
  refine ⟨fun j => if Fl.lt (Fl.abs (p.percChange j)) (.fin p.minPerc) then .fin 0 else (r j).1, _, ?_, htt, ?_⟩
  · unfold MPct.score
    rw [htt]
    rfl
  · intro j
    constructor
    · show (if Fl.lt (Fl.abs (p.percChange j)) (.fin p.minPerc) = true then Fl.fin 0 else (r j).1) = _
      rw [hr2 j]
      unfold PctChange.score
      rw [(pm_ratio p true j).2, (pm_ratio p p.corrected j).2, ht, ht]
      show (if Fl.lt (Fl.abs (p.percChange j)) (.fin p.minPerc) = true then Fl.fin 0 else _)
        = if _ then (if Fl.lt (Fl.abs (p.percChange j)) (.fin p.minPerc) = true then Fl.fin 0 else _)
          else (if Fl.lt (Fl.abs (p.percChange j)) (.fin p.minPerc) = true then Fl.fin 0 else _)
      split_ifs <;> rfl
    · show (r j).2 = _
      rw [hr2 j]
      unfold PctChange.pValue
      rw [ht, ht]
      split_ifs <;> rfl

/-- C157 (correction, violated): for intervals of at least two rows `use_corrected_scores=False` is ignored: the score of a
series with different means is not the one it has on its own. -/
theorem C157_correction_violated (p : MPct) (S : ScipyT) (multi : List Fl → List Fl) (hs : p.skip = true)
    (c q : List (Int × (Nat → ℝ))) (hc : p.current.df = some c) (hq : p.previous.df = some q) (hc2 : 2 ≤ c.length)
    (hq2 : 2 ≤ q.length) (hn : 4 < c.length + q.length) (hcor : p.corrected = false) (hmin : p.minPerc ≤ 0) (j : Nat)
    (hp : 0 < pooledVar (c.map fun r => r.2 j) (q.map fun r => r.2 j)) (hm : mean (q.map fun r => r.2 j) ≠ 0)
    (hd : mean (c.map fun r => r.2 j) ≠ mean (q.map fun r => r.2 j)) :
    ∃ s, p.score S multi = .ok s ∧ s j ≠ (p.col p.corrected j).score S := by
  obtain ⟨s, t, h1, -, h2⟩ := C157_scores_partial p S multi hs c q hc hq (by omega) (by omega) (by omega)
  refine ⟨s, h1, ?_⟩
  have h := (h2 j).1
  rw [if_pos ⟨hc2, hq2⟩] at h
  rw [h]
  have hx : ∀ b, (p.col b j).current.data = some (c.map fun r => r.2 j) := fun b => by
    show (p.current.col j).data = _
    rw [pm_data, hc]
    rfl
  have hy : ∀ b, (p.col b j).previous.data = some (q.map fun r => r.2 j) := fun b => by
    show (p.previous.col j).data = _
    rw [pm_data, hq]
    rfl
  have hx0 : (c.map fun r => r.2 j) ≠ [] := by
    intro h; rw [List.map_eq_nil_iff] at h; rw [h] at hc2; simp at hc2
  have hy0 : (q.map fun r => r.2 j) ≠ [] := by
    intro h; rw [List.map_eq_nil_iff] at h; rw [h] at hq2; simp at hq2
  obtain ⟨u, hu, -, hu2, -⟩ := C75_student_partial (p.col true j) S _ _ (hx true) (hy true) hx0 hy0 hm hmin hp
  intro he
  rw [hu] at he
  refine C75_default_violated (p.col p.corrected j) S _ _ (hx _) (hy _) hx0 hy0 hm hmin hp hcor hd ?_ u he.symm (hu2 rfl)
  rw [List.length_map, List.length_map]
  have l1 : (2 : ℝ) ≤ c.length := by exact_mod_cast hc2
  have l2 : (2 : ℝ) ≤ q.length := by exact_mod_cast hq2
  have l3 : (5 : ℝ) ≤ c.length + q.length := by exact_mod_cast hn
  intro e
  field_simp at e
  nlinarith [mul_nonneg (sub_nonneg.2 l1) (sub_nonneg.2 l2)]

example : 0 < pooledVar [1, 2, 3] [5, 7] ∧ mean ([5, 7] : List ℝ) ≠ 0 ∧ mean ([1, 2, 3] : List ℝ) ≠ mean [5, 7]
    ∧ 4 < ([1, 2, 3] : List ℝ).length + ([5, 7] : List ℝ).length := by
  norm_num [pooledVar, sqDev, mean]

/-- C157 (one value each, violated): every series then has the score plus infinity, also if it falls or does not change; a
series on its own has none. -/
theorem C157_single_violated (p : MPct) (S : ScipyT) (multi : List Fl → List Fl) (h1 : p.current.len = 1)
    (h2 : p.previous.len = 1) (hmin : ∀ j, Fl.lt (Fl.abs (p.percChange j)) (.fin p.minPerc) = false) :
    ∃ s, p.score S multi = .ok s ∧ ∀ j, s j = .pinf ∧ (p.col p.corrected j).score S = .nan := by
  have htt : p.ttest S multi = .ok (fun _ => .pinf, fun _ => .fin 0) := by
    unfold MPct.ttest MPct.ttestStart
    simp only [h1, h2]
    rfl
  refine ⟨fun j => if Fl.lt (Fl.abs (p.percChange j)) (.fin p.minPerc) then .fin 0 else .pinf, ?_, ?_⟩
  · unfold MPct.score
    rw [htt]
    rfl
  · intro j
    simp only []
    rw [hmin j, if_neg (by simp)]
    refine ⟨rfl, ?_⟩
    unfold PctChange.score PctChange.ttest
    rw [(pm_ratio p _ j).2]
    show (if Fl.lt (Fl.abs (p.percChange j)) (.fin p.minPerc) = true then Fl.fin 0 else _) = _
    rw [hmin j, if_neg (by simp)]
    rw [if_pos]
    show (p.previous.col j).len = 1 ∧ (p.current.col j).len = 1
    rw [pm_len, pm_len]
    exact ⟨h2, h1⟩

theorem pm_start (p : MPct) (S : ScipyT) (r : Nat → Fl × Fl) (hr : p.ttestStart S = .ok (some r)) (j : Nat) :
    (r j).2 = S.tSf (Fl.abs (r j).1) p.df * .fin 2 := by
  unfold MPct.ttestStart at hr
  simp only [] at hr
  split at hr
  · injection hr with hr; cases hr
  split at hr
  · injection hr with hr
    injection hr with hr
    subst hr
    rfl
  · rcases hc : p.current.df with _ | c <;> rcases hq : p.previous.df with _ | q <;> rw [hc, hq] at hr
    · cases hr
    · cases hr
    · cases hr
    · injection hr with hr
      injection hr with hr
      subst hr
      have hd : p.df = ((q.length : Int) + c.length - 2) := by
        unfold MPct.df MInterval.len
        rw [hc, hq]
      rw [hd]
      unfold MPct.ttestInd
      simp only [List.length_map]

/-- C157 (rescaling), the part that holds: for a t-distribution with distribution function `F` and quantiles `G`, and
adjusted p-values that are not below the original ones, the rescaled score has the sign of the original one, the adjusted
value as its p-value, and is not larger in absolute value; so a level `α` of the adjusted p-values is one of the scores. -/
theorem C157_rescaled_partial (p : MPct) (S : ScipyT) (multi : List Fl → List Fl) (hs : p.skip = false)
    (F G : ℝ → ℝ) (hF : StrictMono F) (hsym : ∀ x, F (-x) = 1 - F x) (hG : ∀ q, 0 < q → q < 1 → F (G q) = q)
    (hSf : ∀ x, S.tSf (.fin x) p.df = .fin (1 - F x)) (hPpf : ∀ q, 0 < q → q < 1 → S.tPpf q p.df = .fin (G q))
    (r : Nat → Fl × Fl) (hr : p.ttestStart S = .ok (some r)) (j : Nat) (t a : ℝ) (ht : (r j).1 = .fin t)
    (p0 : ℝ) (hp0 : (r j).2 = .fin p0)
    (ha : (multi ((List.range p.current.k).map fun j => (r j).2)).getD j .nan = .fin a) (ha0 : p0 ≤ a) (ha1 : a ≤ 1)
    (ha2 : 0 < a) :
    ∃ z s, p.ttest S multi = .ok z ∧ z.1 j = .fin s ∧ z.2 j = .fin a
      ∧ 2 * (1 - F |s|) = a ∧ |s| ≤ |t| ∧ (t < 0 → s ≤ 0) ∧ (0 ≤ t → 0 ≤ s)
      ∧ ∀ α, 0 < α → α < 1 → (a ≤ α ↔ G (1 - α / 2) ≤ |s|) := by
  have htp : p0 = 2 * (1 - F |t|) := by
    have h := pm_start p S r hr j
    rw [hp0, ht, Fl.abs_fin, hSf, Fl.fin_mul] at h
    injection h with h
    rw [h]
    ring
  have hF0 : F 0 = 1 / 2 := by
    have := hsym 0
    rw [neg_zero] at this
    linarith
  obtain ⟨s, hs1, hs2, hs3, hs4⟩ : ∃ s, (if Fl.lt (r j).1 (.fin 0) = true then MPct.ppf S (.fin a / .fin 2) p.df
      else MPct.ppf S (.fin 1 - .fin a / .fin 2) p.df) = .fin s ∧ 2 * (1 - F |s|) = a ∧ (t < 0 → s ≤ 0) ∧ (0 ≤ t → 0 ≤ s) := by
    rw [ht, Fl.fin_div _ _ (by norm_num), Fl.fin_sub]
    by_cases htn : t < 0
    · rw [if_pos ((Fl.lt_fin _ _).2 htn)]
      have hg := hG (a / 2) (by linarith) (by linarith)
      have hle : G (a / 2) ≤ 0 := hF.le_iff_le.1 (by rw [hg, hF0]; linarith)
      refine ⟨G (a / 2), hPpf _ (by linarith) (by linarith), ?_, fun _ => hle, fun h => absurd htn (not_lt.2 h)⟩
      rw [abs_of_nonpos hle, hsym, hg]
      ring
    · rw [if_neg (by rw [Fl.lt_fin]; exact htn)]
      have hg := hG (1 - a / 2) (by linarith) (by linarith)
      have hle : 0 ≤ G (1 - a / 2) := hF.le_iff_le.1 (by rw [hg, hF0]; linarith)
      refine ⟨G (1 - a / 2), hPpf _ (by linarith) (by linarith), ?_, fun h => absurd h htn, fun _ => hle⟩
      rw [abs_of_nonneg hle, hg]
      ring
  refine ⟨(fun j => if Fl.lt (r j).1 (.fin 0) then MPct.ppf S ((multi ((List.range p.current.k).map fun j => (r j).2)).getD j .nan / .fin 2) p.df
      else MPct.ppf S (.fin 1 - (multi ((List.range p.current.k).map fun j => (r j).2)).getD j .nan / .fin 2) p.df,
      fun j => (multi ((List.range p.current.k).map fun j => (r j).2)).getD j .nan), s, ?_, ?_, ha, hs2, ?_, hs3, hs4, ?_⟩
  · unfold MPct.ttest
    rw [hr]
    show (if p.skip = true then _ else _) = _
    rw [if_neg (by rw [hs]; simp)]
    rfl
  · simp only []
    rw [ha]
    exact hs1
  · exact hF.le_iff_le.1 (by linarith)
  · intro α h0 h1
    rw [← hF.le_iff_le (a := G (1 - α / 2)), hG _ (by linarith) (by linarith)]
    constructor <;> intro h <;> linarith

/-- The t-distribution with one degree of freedom meets the hypotheses. -/
example : ∃ F G : ℝ → ℝ, StrictMono F ∧ (∀ x, F (-x) = 1 - F x) ∧ ∀ q, 0 < q → q < 1 → F (G q) = q := by
  have hpi := Real.pi_pos
  refine ⟨fun x => 1 / 2 + Real.arctan x / Real.pi, fun q => Real.tan (Real.pi * (q - 1 / 2)), ?_, ?_, ?_⟩
  · intro x y h
    have := div_lt_div_of_pos_right (Real.arctan_strictMono h) hpi
    simp only []
    linarith
  · intro x
    simp only [Real.arctan_neg]
    ring
  · intro q h0 h1
    simp only []
    rw [Real.arctan_tan (by nlinarith) (by nlinarith), mul_div_cancel_left₀ _ hpi.ne']
    ring

/-- C157 (spikes): the lists are those of the single series, in their order, of the series that have spikes. -/
theorem C157_spikes_partial (c : MInterval) (l : List (List Spike)) (h : c.detectSpikes = .ok l) :
    ∃ m : List (List Spike), m.length = c.k ∧ (∀ j, j < c.k → ∃ s, m[j]? = some s ∧ (c.col j).detectSpikes = .ok s)
      ∧ l = m.filter fun s => !s.isEmpty := by
  unfold MInterval.detectSpikes at h
  rcases hd : c.df with _ | d
  · rw [hd] at h; cases h
  rw [hd] at h
  injection h with h
  refine ⟨_, ?_, ?_, h.symm⟩
  · rw [List.length_map, List.length_range]
  · intro j hj
    refine ⟨_, by rw [List.getElem?_map, List.getElem?_range hj]; rfl, ?_⟩
    unfold CPInterval.detectSpikes
    have e : (c.col j).df = some (d.map fun r => (r.1, r.2 j)) := by
      show c.df.map _ = _
      rw [hd]
      rfl
    rw [e]
    simp only [pm_mean, pm_var]
    rw [List.filter_map, List.map_map]
    rfl

/-- C157 (spikes, violated): if a series has no spikes there are fewer lists than series, so that the position of a list does
not tell the series it belongs to. -/
theorem C157_spikes_violated (c : MInterval) (l : List (List Spike)) (h : c.detectSpikes = .ok l) (j : Nat) (hj : j < c.k)
    (hn : (c.col j).detectSpikes = .ok []) : l.length < c.k := by
  obtain ⟨m, hm, h1, rfl⟩ := C157_spikes_partial c l h
  obtain ⟨s, hs, hs2⟩ := h1 j hj
  rw [hn] at hs2
  injection hs2 with hs2
  subst hs2
  rw [← hm]
  refine List.length_filter_lt_length_iff_exists.2 ⟨[], List.mem_of_getElem? hs, by simp⟩

/-- Two series, the second of which falls; one row each. -/
def pmEx : MPct :=
  { current := { start := 0, stop := 9, k := 2, df := some [(5, fun j => if j = 0 then 3 else 1)] }
    previous := { start := 0, stop := 9, k := 2, df := some [(1, fun _ => 2)] } }

example : pmEx.current.len = 1 ∧ pmEx.previous.len = 1
    ∧ ∀ j, Fl.lt (Fl.abs (pmEx.percChange j)) (.fin pmEx.minPerc) = false := by
  refine ⟨rfl, rfl, fun j => ?_⟩
  have h := (percChange_of (pmEx.col false j) [if j = 0 then 3 else 1] [2] rfl rfl (by simp) (by simp)
    (by norm_num [mean])).2
  rw [(pm_ratio _ _ _).2] at h
  rw [h, Fl.abs_fin, Bool.eq_false_iff, ne_eq, Fl.lt_fin]
  exact not_lt.2 (abs_nonneg _)

end

end Kats

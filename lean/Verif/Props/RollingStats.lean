import Verif.Model.RollingStats
import Verif.Lemmas.TimeSeries
import Mathlib.Data.List.GetD
import Mathlib.Tactic.FieldSimp
import Mathlib.Tactic.Linarith
import Mathlib.Tactic.Ring

/-!
# `RollingStatsModel`: C37, C39, C40, C91, C92, C93
-/

namespace Kats

noncomputable section
open Classical

/-- Strictly increasing times. -/
def NInc (l : NSeries) : Prop := l.Pairwise fun a b => a.1 < b.1

/-- The `k` values at the positions `p-k+1, ..., p`, oldest first; positions before the start are
missing values. -/
def windowEnd (v : List (Option ℝ)) (p k : Nat) : List (Option ℝ) :=
  (List.range k).map fun j => if p + j + 1 < k then none else v.getD (p + j + 1 - k) none

/-- The number of earlier points that a score looks at: `rolling_window` for a comparison of the point
with its past, one less for the spread of a window that contains the point. -/
def RSCfg.need (c : RSCfg) : Nat :=
  match c.stat with
  | .iqr => c.window - 1
  | .mad => c.window - 1
  | _ => c.window

/-! ## Helpers -/

theorem windowEnd_eq (v : List (Option ℝ)) (p k m : Nat) (hp : p < v.length) (hm : k ≤ m + p + 1) :
    windowEnd v p k = ((List.replicate m none ++ v).drop (m + p + 1 - k)).take k := by
  apply List.ext_getElem
  · simp [windowEnd]; omega
  · intro i h1 h2
    simp only [windowEnd, List.length_map, List.length_range] at h1
    simp only [windowEnd, List.getElem_map, List.getElem_range, List.getElem_take, List.getElem_drop]
    by_cases h : p + i + 1 < k
    · rw [if_pos h, List.getElem_append_left (by simp; omega)]; simp
    · rw [if_neg h, List.getElem_append_right (by simp; omega)]
      simp only [List.length_replicate]
      rw [List.getD_eq_getElem _ _ (by omega)]
      congr 1; omega

theorem rows_eq (v : List (Option ℝ)) (h n need m : Nat) (hl : v.length = h + n) (hm : need ≤ m + h) :
    strided (need + 1) ((List.replicate m none ++ v).drop (m + h - need)) =
      (List.range n).map fun i => windowEnd v (h + i) (need + 1) := by
  unfold strided
  have e : ((List.replicate m (none : Option ℝ) ++ v).drop (m + h - need)).length + 1 - (need + 1) = n := by
    simp; omega
  rw [e]
  apply List.map_congr_left
  intro i hi
  rw [List.mem_range] at hi
  rw [windowEnd_eq v (h + i) (need + 1) m (by omega) (by omega), List.drop_drop]
  congr 2
  omega

theorem construct_scores (W : RSWorld) (d : NSeries) (hd : NInc d) (rows : List (Option ℝ))
    (hl : rows.length = d.length) :
    construct W.srt { df := none, time := some (d.map (·.1)), value := some (rows, true) } =
      .ok ((d.map (·.1)).zip rows) := by
  have hz : ((d.map (·.1)).zip rows).Pairwise fun a b => a.1 < b.1 := by
    rw [List.pairwise_iff_getElem]
    intro i j hi hj hij
    simp only [List.getElem_zip, List.getElem_map]
    simp only [List.length_zip, List.length_map] at hi hj
    exact List.pairwise_iff_getElem.1 hd i j (by omega) (by omega) hij
  have hb := W.srt.run_eq_self _ hz
  unfold construct
  dsimp only
  cases d with
  | nil =>
    have : rows = [] := by simpa using hl
    subst this; simp
  | cons a d =>
    have hr : rows.isEmpty = false := by
      cases rows with
      | nil => simp at hl
      | cons => rfl
    rw [if_neg (by simp [hr]), if_neg (by simp [hr]), if_neg (by simp at hl ⊢; omega),
      if_neg (by simp)]
    exact congrArg _ hb

theorem zip_range (d : NSeries) (g : Nat → Option ℝ) :
    (d.map (·.1)).zip ((List.range d.length).map g) = d.mapIdx fun i r => (r.1, g i) := by
  apply List.ext_getElem
  · simp
  · intro i h1 h2; simp

theorem need_int (c : RSCfg) (hW : 0 < c.window) :
    (if c.stat.extend then (c.window : Int) else (c.window : Int) - 1) = c.need := by
  cases hs : c.stat <;> simp [RSStat.extend, RSCfg.need, hs] <;> omega

theorem need_nat (c : RSCfg) (hW : 0 < c.window) :
    (if c.stat.extend then c.window + 1 else c.window) = c.need + 1 := by
  cases hs : c.stat <;> simp [RSStat.extend, RSCfg.need, hs] <;> omega

theorem pyFrom_drop {α : Type} (l : List α) (n : Nat) : pyFrom l n = l.drop n := by
  unfold pyFrom pyIdx
  rw [if_neg (by omega)]
  by_cases h : n ≤ l.length
  · congr 1; omega
  · rw [List.drop_of_length_le (by omega), List.drop_of_length_le (by omega)]

/-- The point-based scores. -/
theorem rsPoint_eq (W : RSWorld) (c : RSCfg) (h d : NSeries) (hd : NInc d) (hW : 0 < c.window) :
    rsPoint W c (h ++ d) h.length =
      if h.length < c.need ∧ c.expand = false then .error .otherError
      else .ok (d.mapIdx fun i r =>
        (r.1, (c.stat.score c.iqrBase
          (windowEnd ((h ++ d).map (·.2)) (h.length + i) (c.need + 1))).map (· * c.scoreBase))) := by
  have hv : ((h ++ d).map (·.2)).length = h.length + d.length := by simp
  have ht : ((h ++ d).map (·.1)).drop h.length = d.map (·.1) := by simp
  have fin : ∀ rows, rows = (List.range d.length).map (fun i =>
      windowEnd ((h ++ d).map (·.2)) (h.length + i) (c.need + 1)) →
      construct W.srt { df := none, time := some (d.map (·.1)),
                        value := some (rows.map (c.scored c.iqrBase), true) } =
      .ok (d.mapIdx fun i r =>
        (r.1, (c.stat.score c.iqrBase
          (windowEnd ((h ++ d).map (·.2)) (h.length + i) (c.need + 1))).map (· * c.scoreBase))) := by
    rintro _ rfl
    rw [construct_scores W d hd _ (by simp), List.map_map, zip_range]
    rfl
  unfold rsPoint
  simp only [need_int c hW, need_nat c hW, ht]
  by_cases hlt : h.length < c.need
  · rw [if_pos (by omega)]
    by_cases he : c.expand = true
    · rw [if_neg (by simp [he]), if_neg (by simp [he])]
      apply fin
      rw [← rows_eq _ h.length d.length c.need (c.need - h.length) hv (by omega)]
      have e1 : ((c.need : Int) - h.length).toNat = c.need - h.length := by omega
      have e2 : c.need - h.length + h.length - c.need = 0 := by omega
      rw [e1, e2, List.drop_zero]
    · rw [if_pos (by simp [he]), if_pos ⟨hlt, by simpa using he⟩]
  · rw [if_neg (by omega), if_neg (by tauto)]
    apply fin
    rw [← rows_eq _ h.length d.length c.need 0 hv (by omega)]
    have e1 : ((h.length : Int) - c.need) = ((h.length - c.need : Nat) : Int) := by omega
    rw [e1, pyFrom_drop]
    simp

/-! ## C40 -/

/-- C40, point-based: with too little history and no expanding windows the call is rejected; otherwise
there is one score per new point, at its time, and it is `score_base` times the statistic of the point
together with the `need` points before it, positions before the first point being missing.  Partial:
the seasonal decomposition is off. -/
theorem C40_point_partial (W : RSWorld) (c : RSCfg) (d : NSeries) (hist : Option NSeries)
    (hi : NInc d) (hW : 0 < c.window) (hp : c.pointBased = true) (hs : c.remSeason = false) :
    ((hist.getD []).length < c.need → c.expand = false →
      (rsFitPredict W c d hist).result = .error .otherError) ∧
    (c.need ≤ (hist.getD []).length ∨ c.expand = true →
      (rsFitPredict W c d hist).result = .ok (d.mapIdx fun i r =>
        (r.1, (c.stat.score c.iqrBase (windowEnd ((hist.getD [] ++ d).map (·.2))
          ((hist.getD []).length + i) (c.need + 1))).map (· * c.scoreBase)))) := by
  have e : (rsFitPredict W c d hist).result = rsPoint W c (hist.getD [] ++ d) (hist.getD []).length := by
    unfold rsFitPredict
    simp [hs, hp]
  rw [e, rsPoint_eq W c _ d hi hW]
  constructor
  · intro h1 h2; rw [if_pos ⟨h1, h2⟩]
  · intro h1
    rw [if_neg]
    rintro ⟨h2, h3⟩
    rcases h1 with h1 | h1
    · omega
    · simp [h3] at h1

/-- The windows: every position from the start on holds the value of the series. -/
theorem C40_window (v : List (Option ℝ)) (p k : Nat) :
    (windowEnd v p k).length = k ∧
    (∀ j, j < k → k ≤ p + j + 1 → p + j + 1 - k < v.length →
      (windowEnd v p k)[j]? = v[p + j + 1 - k]?) ∧
    (∀ j, j < k → p + j + 1 < k → (windowEnd v p k)[j]? = some none) := by
  refine ⟨by simp [windowEnd], fun j hj h1 h2 => ?_, fun j hj h1 => ?_⟩
  · rw [List.getElem?_eq_getElem h2, List.getElem?_eq_getElem (by simpa [windowEnd] using hj)]
    simp only [windowEnd, List.getElem_map, List.getElem_range]
    rw [if_neg (by omega), List.getD_eq_getElem _ _ h2]
  · rw [List.getElem?_eq_getElem (by simpa [windowEnd] using hj)]
    simp only [windowEnd, List.getElem_map, List.getElem_range, if_pos h1]

/-- A point-based model is not changed by a call. -/
theorem C40_again (W : RSWorld) (c : RSCfg) (d : NSeries) (hist : Option NSeries)
    (hp : c.pointBased = true) : (rsFitPredict W c d hist).cfg = c := by
  unfold rsFitPredict
  dsimp only
  split
  · rfl
  · simp [hp]

/-! ## C37 and C39 -/

/-- C37 is violated by `RollingStatsModel`: no serialised model can be restored. -/
theorem C37_rolling_violated (c : RSCfg) (window : Nat) (stat period : String)
    (remSeason pointBased expand : Bool) (scoreBase iqrBase : ℝ) :
    RSCfg.init window stat remSeason pointBased period scoreBase iqrBase expand (some c.serialize) =
      .error .attributeError := rfl

/-- What is true of C37: a model built again from the fields in its serialised form, as constructor
arguments, is the same model. -/
theorem C37_rolling_fields_partial (c : RSCfg) (hp : c.period ∈ seasonPeriods) :
    RSCfg.init c.serialize.window c.serialize.stat c.serialize.remSeason c.serialize.pointBased
      c.serialize.period c.serialize.scoreBase c.serialize.iqrBase c.serialize.expand none = .ok c := by
  have hs : statOfName c.stat.name = c.stat := by
    cases c.stat <;> decide +kernel
  unfold RSCfg.init RSCfg.serialize
  dsimp only
  rw [if_pos (by simpa using hp), hs]
  rfl

example : ({ window := 3 } : RSCfg).period ∈ seasonPeriods := by decide

/-- C39 is violated by `RollingStatsModel`: the caller's history always grows by the new data. -/
theorem C39_rolling_violated (W : RSWorld) (c : RSCfg) (d h : NSeries) (hd : d ≠ []) :
    (rsFitPredict W c d (some h)).callerHist = some (h ++ d) ∧ h ++ d ≠ h := by
  refine ⟨?_, fun e => hd (by simpa using e)⟩
  unfold rsFitPredict
  dsimp only
  split
  · rfl
  · split <;> rfl

example : ([(1, some 2)] : NSeries) ≠ [] := by simp

/-! ## C92: time-based windows -/

/-- The values observed at times from `start` to `stop`, both included. -/
def valuesBetween (all : NSeries) (start stop : Int) : List (Option ℝ) :=
  all.filterMap fun r => if start ≤ r.1 ∧ r.1 ≤ stop then some r.2 else none

/-- The start of the time window of a point at `t`: `window` seconds earlier for a comparison of the
point with its past, one step less for the spread of a window that contains the point. -/
def RSCfg.windowStart (c : RSCfg) (freqSec t : Int) : Int :=
  match c.stat with
  | .iqr => t - (c.window - freqSec) * 1000000000
  | .mad => t - (c.window - freqSec) * 1000000000
  | _ => t - c.window * 1000000000

/-- The times are `t0, t0 + d, t0 + 2 d, ...`. -/
def NGrid (t0 d : Int) (l : NSeries) : Prop :=
  ∀ (i : Nat) (r : Int × Option ℝ), l[i]? = some r → r.1 = t0 + i * d

theorem NGrid.inc {t0 d : Int} {l : NSeries} (h : NGrid t0 d l) (hd : 0 < d) : NInc l := by
  unfold NInc
  rw [List.pairwise_iff_getElem]
  intro i j hi hj hij
  rw [h i _ (List.getElem?_eq_getElem hi), h j _ (List.getElem?_eq_getElem hj)]
  have : (i : Int) * d < j * d := mul_lt_mul_of_pos_right (by exact_mod_cast hij) hd
  omega

theorem ngrid_nil (t0 d : Int) : NGrid t0 d [] := by
  intro i r hr; simp at hr

theorem ngrid_cons (t0 d : Int) (a : Int × Option ℝ) (l : NSeries) :
    NGrid t0 d (a :: l) ↔ a.1 = t0 ∧ NGrid (t0 + d) d l := by
  constructor
  · intro h
    refine ⟨by simpa using h 0 a rfl, fun i r hr => ?_⟩
    rw [h (i + 1) r (by simpa using hr)]; push_cast; ring
  · rintro ⟨h1, h2⟩ i r hr
    cases i with
    | zero =>
      have : a = r := by simpa using hr
      rw [← this, h1]; simp
    | succ i =>
      rw [h2 i r (by simpa using hr)]; push_cast; ring

theorem diffs_ngrid : ∀ (l : NSeries) (t0 d : Int), NGrid t0 d l →
    ∀ f ∈ diffs (l.map (·.1)), f = d
  | [], _, _, _, f, hf => by simp [diffs] at hf
  | [_], _, _, _, f, hf => by simp [diffs] at hf
  | a :: b :: l, t0, d, h, f, hf => by
    simp only [List.map_cons, diffs, List.mem_cons] at hf
    rw [ngrid_cons, ngrid_cons] at h
    rcases hf with rfl | hf
    · rw [h.1, h.2.1]; ring
    · exact diffs_ngrid (b :: l) (t0 + d) d ((ngrid_cons _ _ _ _).2 h.2) f (by simpa using hf)

theorem inferFreq_ngrid (l : NSeries) (t0 d : Int) (hg : NGrid t0 d l) (h : 2 ≤ l.length) :
    TSD.inferFreqRobust (⟨l, true⟩ : TSD (Option ℝ)) = .ok d := by
  obtain ⟨f, hf, hm, _⟩ := modeMin_spec (diffs (l.map (·.1))) (diffs_ne_nil _ (by simpa using h))
  have := diffs_ngrid l t0 d hg f hm
  subst this
  unfold TSD.inferFreqRobust
  rw [if_neg (by simp; omega)]
  simp only [if_true]
  rw [hf]

theorem valuesBetween_append (a b : NSeries) (s t : Int) :
    valuesBetween (a ++ b) s t = valuesBetween a s t ++ valuesBetween b s t := by
  simp [valuesBetween, List.filterMap_append]

theorem valuesBetween_all (a : NSeries) (s t : Int) (h : ∀ r ∈ a, s ≤ r.1 ∧ r.1 ≤ t) :
    valuesBetween a s t = a.map (·.2) := by
  unfold valuesBetween
  rw [← List.filterMap_eq_map]
  apply List.filterMap_congr
  intro r hr
  rw [if_pos (h r hr)]; rfl

theorem valuesBetween_none (a : NSeries) (s t : Int) (h : ∀ r ∈ a, ¬(s ≤ r.1 ∧ r.1 ≤ t)) :
    valuesBetween a s t = [] := by
  unfold valuesBetween
  rw [List.filterMap_eq_nil_iff]
  intro r hr
  rw [if_neg (h r hr)]

theorem filter_valuesBetween (all : NSeries) (s t : Int) :
    (all.filter fun r => decide (s ≤ r.1) && decide (r.1 ≤ t)).map (·.2) = valuesBetween all s t := by
  induction all with
  | nil => rfl
  | cons a l ih =>
    unfold valuesBetween at *
    by_cases h : s ≤ a.1 ∧ a.1 ≤ t
    · simp [h, ih]
    · rw [List.filterMap_cons, if_neg h, List.filter_cons, if_neg (by simpa using h)]
      simpa using ih

/-- On a regular series the time window that reaches `n` steps back holds the `n + 1` last values. -/
theorem valuesBetween_grid (l : NSeries) (t0 d : Int) (hg : NGrid t0 d l) (hd : 0 < d) (p n : Nat)
    (hp : p < l.length) (hn : n ≤ p) :
    valuesBetween l (t0 + p * d - n * d) (t0 + p * d) = windowEnd (l.map (·.2)) p (n + 1) := by
  have split : l = l.take (p - n) ++ ((l.drop (p - n)).take (n + 1) ++ l.drop (p + 1)) := by
    have e : l.drop (p + 1) = (l.drop (p - n)).drop (n + 1) := by
      rw [List.drop_drop]; congr 1; omega
    rw [e, List.take_append_drop, List.take_append_drop]
  have mem : ∀ (i : Nat) (hi : i < l.length), (l[i]).1 = t0 + i * d := fun i hi =>
    hg i _ (List.getElem?_eq_getElem hi)
  rw [windowEnd_eq _ p (n + 1) 0 (by simpa using hp) (by omega)]
  conv_lhs => rw [split]
  rw [valuesBetween_append, valuesBetween_append, valuesBetween_none (l.take (p - n)),
    valuesBetween_all, valuesBetween_none (l.drop (p + 1))]
  · simp only [List.nil_append, List.append_nil, List.replicate_zero, Nat.zero_add]
    rw [List.map_take, List.map_drop]
    congr 2; omega
  · intro r hr
    obtain ⟨i, hi, rfl⟩ := List.getElem_of_mem hr
    simp only [List.length_drop] at hi
    rw [List.getElem_drop, mem]
    have : (p : Int) * d < ((p + 1 + i : Nat) : Int) * d :=
      mul_lt_mul_of_pos_right (by exact_mod_cast (by omega : p < p + 1 + i)) hd
    omega
  · intro r hr
    obtain ⟨i, hi, rfl⟩ := List.getElem_of_mem hr
    simp only [List.length_take, List.length_drop] at hi
    rw [List.getElem_take, List.getElem_drop, mem]
    have h1 : ((p : Int) - n) * d ≤ ((p - n + i : Nat) : Int) * d :=
      mul_le_mul_of_nonneg_right (by omega) hd.le
    have h2 : ((p - n + i : Nat) : Int) * d ≤ (p : Int) * d :=
      mul_le_mul_of_nonneg_right (by omega) hd.le
    constructor
    · linarith
    · linarith
  · intro r hr
    obtain ⟨i, hi, rfl⟩ := List.getElem_of_mem hr
    simp only [List.length_take] at hi
    rw [List.getElem_take, mem]
    have h1 : ((i : Nat) : Int) * d < ((p : Int) - n) * d :=
      mul_lt_mul_of_pos_right (by omega) hd
    intro h
    linarith [h.1]

/-- The model after the window has been turned into a number of points. -/
theorem windowStart_need (c : RSCfg) (f : Nat) (hf : 0 < f) (n : Nat) (hn : c.window = n * f)
    (h1 : 1 ≤ n) (t : Int) :
    c.windowStart f t = t - (({ c with window := n } : RSCfg).need : Int) * (f * 1000000000) := by
  have key : ((n * f : Nat) : Int) - f = ((n - 1 : Nat) : Int) * f := by
    rw [Nat.cast_sub h1]; push_cast; ring
  cases hs : c.stat <;> simp only [RSCfg.windowStart, RSCfg.need, hs, hn, key] <;> push_cast <;> ring

theorem rsFit_time (W : RSWorld) (c : RSCfg) (d : NSeries) (hist : Option NSeries)
    (hp : c.pointBased = false) (hs : c.remSeason = false) :
    rsFitPredict W c d hist =
      ⟨(rsTime W c (hist.getD [] ++ d) d (hist.getD []).length).1, hist.map fun _ => hist.getD [] ++ d,
        (rsTime W c (hist.getD [] ++ d) d (hist.getD []).length).2⟩ := by
  unfold rsFitPredict
  dsimp only
  rw [hs, hp]
  rfl

/-- C92, regular series: when the window is a multiple of the step, every new point with enough history
is scored from the values observed in the time window that ends at the point.  Partial: the seasonal
decomposition is off. -/
theorem C92_regular_partial (W : RSWorld) (c : RSCfg) (d : NSeries) (hist : Option NSeries)
    (t0 : Int) (f n : Nat) (hf : 0 < f)
    (hg : NGrid t0 (f * 1000000000) (hist.getD [] ++ d))
    (hfr : W.inferFreq ((hist.getD [] ++ d).map (·.1)) = true)
    (hlen : 2 ≤ (hist.getD [] ++ d).length)
    (hp : c.pointBased = false) (hs : c.remSeason = false)
    (hw : c.window = n * f) (hn : 3 ≤ n)
    (hh : ({ c with window := n } : RSCfg).need ≤ (hist.getD []).length) :
    (rsFitPredict W c d hist).result = .ok (d.map fun r =>
        (r.1, (c.stat.score c.iqrBase
          (valuesBetween (hist.getD [] ++ d) (c.windowStart f r.1) r.1)).map (· * c.scoreBase))) ∧
    (rsFitPredict W c d hist).cfg = { c with window := n } := by
  set h := hist.getD [] with hh'
  have hD : (0 : Int) < (f : Int) * 1000000000 := by positivity
  have hinc : NInc (h ++ d) := hg.inc hD
  have hdinc : NInc d := (List.pairwise_append.1 hinc).2.1
  have e0 : rsTime W c (h ++ d) d h.length =
      (rsPoint W { c with window := n } (h ++ d) h.length, { c with window := n }) := by
    unfold rsTime
    rw [inferFreq_ngrid _ t0 _ hg hlen]
    dsimp only
    have e1 : ((f : Int) * 1000000000) / rsNsPerSec = f := by
      unfold rsNsPerSec; exact Int.mul_ediv_cancel _ (by norm_num)
    rw [e1]
    have h3 : (3 : Int) * f ≤ (c.window : Int) := by
      rw [hw]; push_cast
      exact mul_le_mul_of_nonneg_right (by omega) (by omega)
    rw [if_neg (by omega), if_pos]
    · have : c.window / f = n := by rw [hw]; exact Nat.mul_div_cancel _ hf
      simp [this]
    · constructor
      · rw [hw]; push_cast; exact Int.mul_emod_left _ _
      · unfold rsMissing
        split
        · rfl
        · rw [hfr]; rfl
  have e : rsFitPredict W c d hist = ⟨rsPoint W { c with window := n } (h ++ d) h.length,
      hist.map fun _ => h ++ d, { c with window := n }⟩ := by
    rw [rsFit_time W c d hist hp hs, ← hh', e0]
  rw [e]
  refine ⟨?_, rfl⟩
  dsimp only
  rw [rsPoint_eq W { c with window := n } h d hdinc (by show 0 < n; omega), if_neg (by omega)]
  congr 1
  apply List.ext_getElem
  · simp
  · intro i h1 h2
    simp only [List.length_mapIdx] at h1
    simp only [List.getElem_mapIdx, List.getElem_map]
    have ht : (d[i]).1 = t0 + ((h.length + i : Nat) : Int) * ((f : Int) * 1000000000) :=
      hg (h.length + i) _ (by
        rw [List.getElem?_append_right (by omega)]
        simp [h1])
    rw [windowStart_need c f hf n hw (by omega), ht,
      valuesBetween_grid (h ++ d) t0 _ hg hD (h.length + i) _ (by simp; omega) (by omega)]

example : NGrid 0 ((2 : Nat) * 1000000000)
    ((some [(0, some 1), (2000000000, some 2), (4000000000, none)] : Option NSeries).getD [] ++
      [(6000000000, some 5), (8000000000, some 7)]) := by
  simp [ngrid_cons, ngrid_nil]

/-- C92, other series: when the window is not a multiple of the step, every new point with at least two
values in the time window that ends at it is scored from those values.  Partial: the seasonal
decomposition is off, and `iqr_base` has to be 1.5. -/
theorem C92_irregular_partial (W : RSWorld) (c : RSCfg) (d : NSeries) (hist : Option NSeries)
    (f F : Int) (hF : TSD.inferFreqRobust (⟨hist.getD [] ++ d, true⟩ : TSD (Option ℝ)) = .ok F)
    (hf : f = F / 1000000000) (hpos : 0 < f) (hw : 3 * f ≤ c.window)
    (hslow : (c.window : Int) % f ≠ 0 ∨
      (3 ≤ (hist.getD [] ++ d).length ∧ W.inferFreq ((hist.getD [] ++ d).map (·.1)) = false))
    (hi : NInc d)
    (hp : c.pointBased = false) (hs : c.remSeason = false)
    (hb : c.stat ≠ .iqrMedianDev ∨ c.iqrBase = 3 / 2) :
    (rsFitPredict W c d hist).result = .ok (d.map fun r =>
        (r.1, if 2 ≤ (valuesBetween (hist.getD [] ++ d) (c.windowStart f r.1) r.1).length then
          (c.stat.score c.iqrBase
            (valuesBetween (hist.getD [] ++ d) (c.windowStart f r.1) r.1)).map (· * c.scoreBase)
          else some 0)) ∧
    (rsFitPredict W c d hist).cfg = c := by
  rw [rsFit_time W c d hist hp hs]
  have hsc : ∀ l, c.stat.score (3 / 2) l = c.stat.score c.iqrBase l := by
    intro l
    rcases hb with hb | hb
    · cases h : c.stat <;> simp_all [RSStat.score]
    · rw [hb]
  have hst : ∀ t, (if c.stat.extend then t - c.window * rsNsPerSec
      else t - ((c.window : Int) - f) * rsNsPerSec) = c.windowStart f t := by
    intro t
    cases h : c.stat <;> simp [RSStat.extend, RSCfg.windowStart, h, rsNsPerSec]
  have e : rsTime W c (hist.getD [] ++ d) d (hist.getD []).length =
      (.ok (d.map fun r =>
        (r.1, if 2 ≤ (valuesBetween (hist.getD [] ++ d) (c.windowStart f r.1) r.1).length then
          (c.stat.score c.iqrBase
            (valuesBetween (hist.getD [] ++ d) (c.windowStart f r.1) r.1)).map (· * c.scoreBase)
          else some 0)), c) := by
    unfold rsTime
    rw [hF]
    dsimp only
    have e1 : F / rsNsPerSec = f := hf.symm
    rw [e1, if_neg (by omega), if_neg]
    · congr 1
      have hrow : ∀ r : Int × Option ℝ, rsSlowScore c (hist.getD [] ++ d) f r.1 =
          if 2 ≤ (valuesBetween (hist.getD [] ++ d) (c.windowStart f r.1) r.1).length then
          (c.stat.score c.iqrBase
            (valuesBetween (hist.getD [] ++ d) (c.windowStart f r.1) r.1)).map (· * c.scoreBase)
          else some 0 := by
        intro r
        unfold rsSlowScore
        dsimp only
        rw [hst, filter_valuesBetween]
        unfold RSCfg.scored
        rw [hsc]
      simp only [hrow]
      unfold construct
      dsimp only
      cases d with
      | nil => rfl
      | cons a d =>
        rw [if_neg (by simp), if_neg (by simp), if_neg (by simp)]
        congr 1
        apply W.srt.run_eq_self
        rw [if_neg (by simp), List.pairwise_map]
        exact hi
    · rintro ⟨h1, h2⟩
      rcases hslow with h | ⟨h, h'⟩
      · exact h h1
      · unfold rsMissing at h2
        rw [if_neg (by omega), h'] at h2
        simp at h2
  rw [e]
  exact ⟨rfl, rfl⟩

/-- Sorting concrete lists. -/
theorem sort3 {a b c : ℝ} (h1 : a ≤ b) (h2 : b ≤ c) :
    [a, b, c].insertionSort (· ≤ ·) = [a, b, c] := by
  simp [List.insertionSort, List.orderedInsert, h1, h2]

/-- The witness series of the violations: steps of two seconds. -/
def everyTwo (v : List ℝ) : NSeries := v.mapIdx fun i x => ((i : Int) * 2000000000, some x)

theorem everyTwo_grid (v : List ℝ) : NGrid 0 ((2 : Nat) * 1000000000) (everyTwo v) := by
  intro i r hr
  unfold everyTwo at hr
  rw [List.getElem?_mapIdx] at hr
  obtain ⟨x, _, rfl⟩ := Option.map_eq_some_iff.1 hr
  push_cast; ring

/-- C92 is violated by `iqr_base`, which the loop over irregular windows does not pass on: with 100 no
point of the example is outside the quartiles by 100 times their distance, yet the last one is
scored `7/3`. -/
theorem C92_iqr_base_violated (W : RSWorld) :
    ∃ (c : RSCfg) (h d : NSeries), c.iqrBase = 100 ∧
      (rsFitPredict W c d (some h)).result = .ok [(8000000000, some (7 / 3))] ∧
      calcIqrDev c.iqrBase (valuesBetween (h ++ d) 1000000000 8000000000) = some 0 := by
  let h : NSeries := [(0, some 1), (2000000000, some 2), (4000000000, some 3), (6000000000, some 4)]
  let d : NSeries := [(8000000000, some 10)]
  let c : RSCfg := { window := 7, stat := .iqrMedianDev, pointBased := false, iqrBase := 100 }
  have hg : NGrid 0 ((2 : Nat) * 1000000000) (h ++ d) := by
    simp [h, d, ngrid_cons, ngrid_nil]
  have hs : ([2, 3, 4] : List ℝ).insertionSort (· ≤ ·) = [2, 3, 4] := sort3 (by norm_num) (by norm_num)
  have hv : valuesBetween (h ++ d) 1000000000 8000000000 = [some 2, some 3, some 4, some 10] := by
    simp [valuesBetween, h, d]
  have hq : ∀ b : ℝ, calcIqrDev b [some 2, some 3, some 4, some 10] =
      some (iqrSign b (some 10) (5 / 2) (7 / 2) * (7 / 3)) := by
    intro b
    simp only [calcIqrDev, nanVals, lastEntry, List.dropLast, List.filterMap, id, List.getLastD,
      medianR, percentileR, hs]
    norm_num
    intro h
    exact absurd h (List.cons_ne_nil _ _)
  refine ⟨c, h, d, rfl, ?_, ?_⟩
  · have hF := inferFreq_ngrid (h ++ d) 0 _ hg (by simp [h, d])
    rw [rsFit_time W c d (some h) rfl rfl]
    dsimp only [Option.getD_some]
    unfold rsTime
    rw [hF]
    have e1 : (((2 : Nat) : Int) * 1000000000) / rsNsPerSec = 2 := by decide
    dsimp only
    rw [e1, if_neg (by decide), if_neg (by simp [c])]
    have : rsSlowScore c (h ++ d) 2 8000000000 = some (7 / 3) := by
      unfold rsSlowScore
      dsimp only
      rw [filter_valuesBetween]
      have e : (if c.stat.extend then (8000000000 : Int) - (c.window : Int) * rsNsPerSec
        else 8000000000 - ((c.window : Int) - 2) * rsNsPerSec) = 1000000000 := by decide
      rw [e, hv]
      have hx : (2 : Nat) ≤ [some (2 : ℝ), some 3, some 4, some 10].length := by simp
      rw [if_pos hx]
      have e2 : ∀ l, c.scored (3 / 2) l = (calcIqrDev (3 / 2) l).map (· * c.scoreBase) := fun _ => rfl
      have e3 : c.scoreBase = 1 := rfl
      rw [e2, hq, e3]
      simp [iqrSign]
      norm_num
    have hd : d.map (fun r => (r.1, rsSlowScore c (h ++ d) 2 r.1)) = [(8000000000, some (7 / 3))] := by
      simp [d]
      exact this
    rw [hd]
    unfold construct
    dsimp only
    rw [if_neg (by simp), if_neg (by simp), if_neg (by simp)]
    exact congrArg Except.ok (W.srt.run_eq_self [((8000000000 : Int), some (7 / 3 : ℝ))]
      (List.pairwise_singleton _ _))
  · rw [hv, hq]
    simp [iqrSign, c]
    norm_num

/-- C40 is violated by a time-based model: on a regular series the first call replaces the window, in
seconds, by a number of points, and the second call takes that number for seconds. -/
theorem C40_again_violated (W : RSWorld) (c : RSCfg) (d : NSeries) (hist : Option NSeries)
    (t0 : Int) (f n : Nat) (hf : 0 < f)
    (hg : NGrid t0 (f * 1000000000) (hist.getD [] ++ d))
    (hfr : W.inferFreq ((hist.getD [] ++ d).map (·.1)) = true)
    (hlen : 2 ≤ (hist.getD [] ++ d).length)
    (hp : c.pointBased = false) (hs : c.remSeason = false)
    (hw : c.window = n * f) (hn : 3 ≤ n) (hsmall : n < 3 * f)
    (hh : ({ c with window := n } : RSCfg).need ≤ (hist.getD []).length) :
    (∃ scores, (rsFitPredict W c d hist).result = .ok scores) ∧
    (rsFitPredict W (rsFitPredict W c d hist).cfg d hist).result = .error .otherError := by
  obtain ⟨h1, h2⟩ := C92_regular_partial W c d hist t0 f n hf hg hfr hlen hp hs hw hn hh
  refine ⟨⟨_, h1⟩, ?_⟩
  rw [h2, rsFit_time W { c with window := n } d hist hp hs]
  dsimp only
  unfold rsTime
  rw [inferFreq_ngrid _ t0 _ hg hlen]
  dsimp only
  have e1 : ((f : Int) * 1000000000) / rsNsPerSec = f := by
    unfold rsNsPerSec; exact Int.mul_ediv_cancel _ (by norm_num)
  rw [e1, if_pos (by right; omega)]

example : (3 : Nat) < 3 * 2 ∧ ({ window := 3, stat := .mad, pointBased := false } : RSCfg).need ≤
    (everyTwo [1, 2, 4]).length := by
  simp [RSCfg.need, everyTwo]

/-- C40 is violated for calls without history: a comment in the code (404-406) promises that part of
the data is then used as history with zero scores, but the call is always rejected. -/
theorem C40_no_history_violated (W : RSWorld) (c : RSCfg) (d : NSeries)
    (hi : NInc d) (hW : 0 < c.need) (hw : 0 < c.window) (hp : c.pointBased = true)
    (hs : c.remSeason = false) (he : c.expand = false) :
    (rsFitPredict W c d none).result = .error .otherError :=
  (C40_point_partial W c d none hi hw hp hs).1 (by simpa using hW) he

example : NInc (everyTwo [1, 5, 2]) ∧ 0 < ({ window := 2 } : RSCfg).need := by
  simp [NInc, everyTwo, RSCfg.need]

end

end Kats

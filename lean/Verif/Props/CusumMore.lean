import Verif.Props.CusumModel

/-!
# Properties of the CUSUM detector model: start of an alert (C35), smoothing (C71)
-/

set_option linter.unusedSimpArgs false

namespace Kats

theorem earliest_le : ∀ (l : List Cp) (c : Cp), earliest l = some c → ∀ x ∈ l, c.time ≤ x.time := by
  intro l
  induction l with
  | nil => intro c h; cases h
  | cons a l ih =>
    intro c h x hx
    rw [earliest] at h
    split at h
    · rename_i hb
      cases h
      cases l with
      | nil => simp at hx; rw [hx]
      | cons b l =>
        rw [earliest] at hb
        split at hb
        · cases hb
        · split_ifs at hb
    · rename_i b hb
      split_ifs at h with hlt
      · cases h
        rcases List.mem_cons.1 hx with rfl | hx
        · exact le_of_lt hlt
        · exact ih _ hb x hx
      · cases h
        rcases List.mem_cons.1 hx with rfl | hx
        · exact le_refl _
        · exact le_trans (not_lt.1 hlt) (ih _ hb x hx)

theorem earliest_none (l : List Cp) : earliest l = none ↔ l = [] := by
  cases l with
  | nil => simp [earliest]
  | cons a l =>
    rw [earliest]
    constructor
    · intro h
      split at h
      · cases h
      · split_ifs at h
    · intro h; cases h

theorem pushCp_last (l : List Int) (c : Int) : (pushCp l c).getLast? = some c := by
  unfold pushCp
  split_ifs with h
  · have h1 : 1 ≤ l.length := by simp [maxChangepoint] at h; omega
    rw [List.drop_append_of_le_length h1]
    simp
  · simp

/-- C35: when the alert goes on.  While no alert is on, a scan changes nothing if the scan window has
fewer than two points or the detector reports nothing; otherwise the alert goes on with the earliest
reported changepoint as newest entry, its direction, and as baseline the mean and deviation of all
values up to the changepoint. -/
theorem C35_alert_start (cfg : CusumCfg) (std : List Rat → Rat)
    (detect : List (Int × Rat) → Nat → List Cp) (st : CusumState)
    (inData inHist : List (Int × Rat)) (last : Int × Rat)
    (hsort : TimeSorted (inHist ++ inData))
    (hl : (inHist ++ inData).getLast? = some last) (ha : st.alertFired = false)
    (found : List Cp) (n : Nat)
    (hn : n = ((inHist ++ inData).filter fun p => decide (last.1 - cfg.scanWindow ≤ p.1)).length)
    (hf : found = detect (inHist ++ inData) ((inHist ++ inData).length - n)) :
    (n ≤ 1 ∨ found = [] → cusumFit cfg std detect st inData inHist = .ok st) ∧
    (2 ≤ n → found ≠ [] → ∃ st', cusumFit cfg std detect st inData inHist = .ok st' ∧
      ∃ cp ∈ found, (∀ x ∈ found, cp.time ≤ x.time) ∧ st'.alertFired = true ∧
        st'.direction = some cp.dir ∧ st'.cps.getLast? = some (cp.time / nsPerSec) ∧
        st'.preMean = some (mean (((inHist ++ inData).take (cp.index + 1)).map (·.2))) ∧
        st'.preStd = some (std (((inHist ++ inData).take (cp.index + 1)).map (·.2)))) := by
  have hne : inHist ++ inData ≠ [] := by intro h; rw [h] at hl; cases hl
  generalize hh : inHist ++ inData = h at *
  have hle := cnt_le h (last.1 - cfg.scanWindow)
  have hsc : scanStart cfg h last.1 = h.length - n := by
    have := drop_cnt h hsort (last.1 - cfg.scanWindow)
    rw [hn, ← this, List.length_drop]
    unfold scanStart
    unfold cnt at hle ⊢
    omega
  have hnle : n ≤ h.length := by rw [hn]; exact List.length_filter_le _ _
  have hlen : h.length - (h.length - n) = n := by omega
  unfold cusumFit
  dsimp only
  rw [hh, hl]
  dsimp only
  rw [hsc, ← hf, hlen]
  simp only [ha, Bool.false_eq_true, if_false]
  constructor
  · intro hor
    rcases hor with h1 | h1
    · rw [if_pos h1]
    · split_ifs
      · rfl
      · rw [h1]; rfl
  · intro h2 hfne
    rw [if_neg (by omega)]
    cases he : earliest found with
    | none => exact absurd ((earliest_none _).1 he) hfne
    | some cp =>
      refine ⟨_, rfl, cp, earliest_mem _ _ he, earliest_le _ _ he, rfl, rfl, ?_, ?_, ?_⟩
      · simp only [fitAlertOn, CusumState.alertOn]
        exact pushCp_last _ _
      all_goals
        have hnn : ¬ ((h.map (·.2)).take (cp.index + 1)).isEmpty := by simp [hne]
        simp only [fitAlertOn, CusumState.alertOn, pdMean, pdStd, if_neg hnn, List.map_take]

example : cusumFit (demoCfg none) (fun _ => 1) demoDetect CusumState.init (hourly [1, 2, 3]) []
    = .ok ⟨[3600], true, some (3/2), some 1, 0, some .increase⟩ := by decide +kernel

/-! ## C71: smoothing of the scored values -/

/-- C71: the smoothing keeps the times; a window of at most one point changes nothing; with a window
of `k ≥ 2` points the value at a position with at least `k - 1` predecessors is the mean of the last
`k` values. Missing: the first `k - 1` positions. -/
theorem C71_smoothing_partial (k : Nat) (all : List (Int × Rat)) :
    (smoothed k all).map (·.1) = all.map (·.1)
    ∧ (k ≤ 1 → smoothed k all = all)
    ∧ (2 ≤ k → ∀ i (h : i < all.length), k ≤ i + 1 → (smoothed k all)[i]? =
        some (all[i].1, (((all.drop (i + 1 - k)).take k).map (·.2)).sum / (k : Rat))) := by
  refine ⟨?_, ?_, ?_⟩
  · unfold smoothed
    split_ifs
    · apply List.ext_getElem
      · simp
      · intro i h1 h2
        simp at h1 h2
        simp [h2]
    · rfl
  · intro h
    unfold smoothed
    rw [if_neg (by omega)]
  · intro hk i h hi
    unfold smoothed
    rw [if_pos (by omega), List.getElem?_map, List.getElem?_range h]
    simp only [Option.map_some]
    congr 2
    · simp [h]
    · congr 2
      rw [List.map_take, List.map_drop, List.take_drop]
      congr 2
      omega

example : smoothed 2 [(0, 4), (1, 6), (2, 8)] = [(0, 2), (1, 5), (2, 7)] := by decide +kernel

/-- C71 is violated at the start: on a constant series the first `k - 1` smoothed values are not the
constant (the sum of fewer than `k` values is still divided by `k`). -/
theorem C71_start_violated (k n : Nat) (c : Rat) (hc : c ≠ 0) (i : Nat) (hi : i + 1 < k) (hn : i < n)
    (t : Nat → Int) :
    ∃ v, (smoothed k ((List.range n).map fun j => (t j, c)))[i]? = some (t i, v) ∧ v ≠ c ∧
      v = c * (i + 1) / k := by
  have hk : (k : Rat) ≠ 0 := by
    have : k ≠ 0 := by omega
    exact_mod_cast this
  refine ⟨c * (i + 1) / k, ?_, ?_, rfl⟩
  · unfold smoothed
    rw [if_pos (by omega), List.getElem?_map, List.getElem?_range (by simpa using hn)]
    simp only [Option.map_some]
    congr 2
    · simp [hn]
    · congr 1
      rw [show i + 1 - k = 0 by omega, List.drop_zero, List.map_map]
      have : (((List.range n).map ((fun x : Int × Rat => x.2) ∘ fun j => (t j, c))).take (i + 1))
          = List.replicate (i + 1) c := by
        apply List.ext_getElem
        · simp; omega
        · intro j h1 h2; simp
      rw [this, List.sum_replicate]
      push_cast [nsmul_eq_mul]
      ring
  · intro h
    rw [div_eq_iff hk] at h
    have h1 := mul_left_cancel₀ hc h
    have : (i : Rat) + 1 < k := by exact_mod_cast hi
    linarith

/-- C71 is violated end to end: during an alert, data that equal the baseline mean exactly get scores
different from 0 (score = value minus baseline) until the window is full. -/
theorem C71_scores_violated :
    ((cusumFitPredict (demoCfg none) (fun _ => 1) demoDetect (3600 * nsPerSec)
      ⟨[-3600], true, some 8, some 1, 0, some .increase⟩ (hourly [8, 8, 8, 8, 8]) []).map (·.2))
      = .ok [some (-6), some (-4), some (-2), some 0, some 0] := by decide +kernel

end Kats

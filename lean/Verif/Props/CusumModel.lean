import Verif.Model.CusumModel
import Verif.Props.Cusum

/-!
# Properties of the CUSUM detector model (C35, C36)
-/

set_option linter.unusedSimpArgs false

namespace Kats

/-! ## Sorted series -/

/-- Times strictly increase. -/
def TimeSorted (l : List (Int × Rat)) : Prop := l.Pairwise fun a b => a.1 < b.1

/-- Number of points before time `t`. -/
def cnt (l : List (Int × Rat)) (t : Int) : Nat := l.findIdx fun p => decide (t ≤ p.1)

theorem cnt_le (l : List (Int × Rat)) (t : Int) : cnt l t ≤ l.length := List.findIdx_le_length

theorem cnt_iff (l : List (Int × Rat)) (hs : TimeSorted l) (t : Int) (i : Nat) (hi : i < l.length) :
    l[i].1 < t ↔ i < cnt l t := by
  constructor
  · intro h
    by_contra hc
    push Not at hc
    have hlt : cnt l t < l.length := lt_of_le_of_lt hc hi
    have h1 : t ≤ (l[cnt l t]).1 := by
      have := List.findIdx_getElem (p := fun p : Int × Rat => decide (t ≤ p.1)) (w := hlt)
      exact of_decide_eq_true this
    have h2 : (l[cnt l t]).1 ≤ l[i].1 := by
      rcases Nat.eq_or_lt_of_le hc with e | e
      · simp [e]
      · exact le_of_lt ((List.pairwise_iff_getElem.1 hs) _ _ hlt hi e)
    omega
  · intro h
    have := List.not_of_lt_findIdx (p := fun p : Int × Rat => decide (t ≤ p.1)) h
    exact not_le.1 (of_decide_eq_false this)

theorem drop_cnt (l : List (Int × Rat)) (hs : TimeSorted l) (t : Int) :
    l.drop (cnt l t) = l.filter fun p => decide (t ≤ p.1) := by
  induction l with
  | nil => rfl
  | cons a l ih =>
    unfold TimeSorted at hs
    rw [List.pairwise_cons] at hs
    unfold cnt
    rw [List.findIdx_cons]
    by_cases h : t ≤ a.1
    · have hall : (a :: l).filter (fun p => decide (t ≤ p.1)) = a :: l := by
        rw [List.filter_eq_self]
        intro p hp
        rcases List.mem_cons.1 hp with rfl | hp
        · simpa using h
        · have := hs.1 p hp
          simp; omega
      rw [hall]; simp [h]
    · rw [List.filter_cons_of_neg (by simpa using h)]
      simp only [h, decide_false, cond_false, List.drop_succ_cons]
      exact ih hs.2

/-! ## C35: the state -/

/-- The last `n` elements of a list. -/
def lastN {α : Type} (n : Nat) (l : List α) : List α := l.drop (l.length - n)

theorem pushCp_lastN (log : List Int) (c : Int) :
    pushCp (lastN maxChangepoint log) c = lastN maxChangepoint (log ++ [c]) := by
  unfold pushCp lastN maxChangepoint
  simp only [List.length_append, List.length_drop, List.length_cons, List.length_nil]
  split_ifs with h
  · rw [List.drop_append_of_le_length (by simp; omega), List.drop_drop,
      List.drop_append_of_le_length (by omega)]
    rw [show log.length - 10 + 1 = log.length + (0 + 1) - 10 by omega]
  · rw [List.drop_append_of_le_length (by omega)]
    rw [show log.length - 10 = log.length + (0 + 1) - 10 by omega]

/-- Outcome of one fit: what it adds to the list of detections. -/
def detection (detect : List (Int × Rat) → Nat → List Cp) (cfg : CusumCfg) (st : CusumState)
    (h : List (Int × Rat)) : Option Cp :=
  match h.getLast? with
  | none => none
  | some last =>
    if st.alertFired then none
    else if h.length - scanStart cfg h last.1 ≤ 1 then none
    else earliest (detect h (scanStart cfg h last.1))

/-- An alert has a direction and a changepoint. -/
def AlertOk (st : CusumState) : Prop :=
  st.alertFired = true → st.direction.isSome = true ∧ st.cps ≠ []

theorem earliest_mem : ∀ (l : List Cp) (c : Cp), earliest l = some c → c ∈ l := by
  intro l
  induction l with
  | nil => intro c h; cases h
  | cons a l ih =>
    intro c h
    rw [earliest] at h
    split at h
    · cases h; simp
    · rename_i b hb
      split_ifs at h
      · cases h; exact List.mem_cons_of_mem _ (ih _ hb)
      · cases h; simp

theorem pushCp_ne_nil (l : List Int) (c : Int) : pushCp l c ≠ [] := by
  unfold pushCp
  split_ifs with h
  · rw [← List.length_pos_iff]
    simp only [List.length_drop]
    simp [maxChangepoint] at h ⊢
    omega
  · simp

theorem mem_pushCp (l : List Int) (c x : Int) (h : x ∈ pushCp l c) : x ∈ l ∨ x = c := by
  unfold pushCp at h
  split_ifs at h
  · have := List.mem_of_mem_drop h
    simpa using this
  · simpa using h

theorem ifNormal_ok (cfg : CusumCfg) (st : CusumState) (cur : Rat)
    (h : st.direction.isSome = true) : ∃ b, ifNormal cfg st cur = .ok b := by
  unfold ifNormal
  obtain ⟨d, hd⟩ := Option.isSome_iff_exists.1 h
  simp only [hd]
  cases st.preMean <;> cases st.preStd <;> cases d <;> exact ⟨_, rfl⟩

theorem adaptBaseline_fields (cfg : CusumCfg) (std : List Rat → Rat) (pre : List Rat)
    (st : CusumState) : (adaptBaseline cfg std pre st).cps = st.cps ∧
    (adaptBaseline cfg std pre st).alertFired = st.alertFired ∧
    (adaptBaseline cfg std pre st).direction = st.direction ∧
    (adaptBaseline cfg std pre st).normalScans = st.normalScans := by
  unfold adaptBaseline
  split_ifs <;> exact ⟨rfl, rfl, rfl, rfl⟩

theorem countNormal_eq (st : CusumState) (b : Bool) :
    countNormal st b = if b then st.alertOff else { st with normalScans := 0 } := by
  unfold countNormal
  rw [if_pos (show normalTolerance ≤ st.normalScans + 1 by simp [normalTolerance])]

/-- One fit never fails on a state whose alert is well formed, and appends exactly the detection. -/
theorem cusumFit_spec (cfg : CusumCfg) (std : List Rat → Rat)
    (detect : List (Int × Rat) → Nat → List Cp) (st : CusumState)
    (inData inHist : List (Int × Rat)) (hne : inHist ++ inData ≠ []) (hok : AlertOk st) :
    ∃ st', cusumFit cfg std detect st inData inHist = .ok st' ∧ AlertOk st' ∧
      st'.cps = (match detection detect cfg st (inHist ++ inData) with
        | none => st.cps
        | some cp => pushCp st.cps (cp.time / nsPerSec)) := by
  unfold cusumFit detection
  dsimp only
  rw [List.getLast?_eq_getLast_of_ne_nil hne]
  dsimp only
  by_cases ha : st.alertFired = true
  · simp only [ha, if_true]
    obtain ⟨hd, hc⟩ := hok ha
    unfold fitAlertOff
    obtain ⟨f1, f2, f3, f4⟩ := adaptBaseline_fields cfg std
      (((inHist ++ inData).map (·.2)).take
        (scanStart cfg (inHist ++ inData) ((inHist ++ inData).getLast hne).1)) st
    generalize adaptBaseline cfg std _ st = st1 at f1 f2 f3 f4 ⊢
    obtain ⟨b, hb⟩ := ifNormal_ok cfg st1 (mean (((inHist ++ inData).map (·.2)).drop
      (scanStart cfg (inHist ++ inData) ((inHist ++ inData).getLast hne).1))) (by rw [f3]; exact hd)
    simp only [hb, bind, Except.bind]
    rw [countNormal_eq]
    have hcps : (if b = true then st1.alertOff else { st1 with normalScans := 0 }).cps = st.cps := by
      split_ifs <;> simp [CusumState.alertOff, f1]
    have hdir : (if b = true then st1.alertOff else { st1 with normalScans := 0 }).direction
        = st.direction := by
      split_ifs <;> simp [CusumState.alertOff, f3]
    unfold expire
    rw [hcps, List.getLast?_eq_getLast_of_ne_nil hc]
    dsimp only
    refine ⟨_, rfl, ?_, ?_⟩
    · intro _
      split_ifs <;> simp_all [CusumState.alertOff]
    · split_ifs <;> simp_all [CusumState.alertOff]
  · simp only [ha, Bool.false_eq_true, if_false]
    split_ifs with hl
    · exact ⟨st, rfl, hok, rfl⟩
    · refine ⟨_, rfl, ?_, ?_⟩
      · cases earliest (detect (inHist ++ inData)
          (scanStart cfg (inHist ++ inData) ((inHist ++ inData).getLast hne).1)) with
        | none => exact hok
        | some cp =>
          intro _
          exact ⟨rfl, pushCp_ne_nil _ _⟩
      · cases earliest (detect (inHist ++ inData)
          (scanStart cfg (inHist ++ inData) ((inHist ++ inData).getLast hne).1)) <;> rfl

/-- A stream of fits: pairs of new data and history. -/
def fitStream (cfg : CusumCfg) (std : List Rat → Rat) (detect : List (Int × Rat) → Nat → List Cp) :
    CusumState → List (List (Int × Rat) × List (Int × Rat)) → Except Err CusumState
  | st, [] => .ok st
  | st, q :: qs =>
    match cusumFit cfg std detect st q.1 q.2 with
    | .error e => .error e
    | .ok st' => fitStream cfg std detect st' qs

/-- C35: starting from a new model, any stream of non-empty fits succeeds; an alert that is on has a
direction and a changepoint; and the remembered changepoints are the last 10 of some sequence of
detections, each reported by the detector on one of the scanned series, in the order of the scans. -/
theorem C35_state (cfg : CusumCfg) (std : List Rat → Rat)
    (detect : List (Int × Rat) → Nat → List Cp)
    (qs : List (List (Int × Rat) × List (Int × Rat))) (hne : ∀ q ∈ qs, q.1 ≠ []) :
    ∃ st log, fitStream cfg std detect CusumState.init qs = .ok st ∧
      (st.alertFired = true → st.direction.isSome = true ∧ st.cps ≠ []) ∧
      st.cps = (lastN 10 log).map (fun e : Nat × Cp => e.2.time / nsPerSec) ∧ st.cps.length ≤ 10 ∧
      (log.map (·.1)).Pairwise (· < ·) ∧
      ∀ e ∈ log, ∃ q, qs[e.1]? = some q ∧ ∃ i, e.2 ∈ detect (q.2 ++ q.1) i := by
  suffices H : ∀ (qs : List (List (Int × Rat) × List (Int × Rat))), (∀ q ∈ qs, q.1 ≠ []) →
      ∀ (st : CusumState), AlertOk st → ∀ (base : Nat) (log0 : List (Nat × Cp)),
      st.cps = (lastN 10 log0).map (fun e : Nat × Cp => e.2.time / nsPerSec) →
      (∀ e ∈ log0, e.1 < base) → (log0.map (·.1)).Pairwise (· < ·) →
      ∃ st' log, fitStream cfg std detect st qs = .ok st' ∧ AlertOk st' ∧
        st'.cps = (lastN 10 (log0 ++ log)).map (fun e : Nat × Cp => e.2.time / nsPerSec) ∧
        ((log0 ++ log).map (·.1)).Pairwise (· < ·) ∧
        ∀ e ∈ log, base ≤ e.1 ∧ ∃ q, qs[e.1 - base]? = some q ∧ ∃ i, e.2 ∈ detect (q.2 ++ q.1) i by
    obtain ⟨st, log, h1, h2, h3, h4, h5⟩ := H qs hne CusumState.init
      (by intro h; simp [CusumState.init] at h) 0 [] (by simp [CusumState.init, lastN]) (by simp)
      (by simp)
    simp only [List.nil_append] at h3 h4
    refine ⟨st, log, h1, h2, h3, ?_, h4, fun e he => ?_⟩
    · rw [h3]; simp [lastN]; omega
    · simpa using (h5 e he).2
  intro qs
  induction qs with
  | nil =>
    intro _ st hok base log0 h0 _ hp
    exact ⟨st, [], rfl, hok, by simpa using h0, by simpa using hp, by simp⟩
  | cons q qs ih =>
    intro hne st hok base log0 h0 hb hp
    have hq : q.2 ++ q.1 ≠ [] := by
      have := hne q (by simp)
      simp [this]
    obtain ⟨st1, e1, ok1, c1⟩ := cusumFit_spec cfg std detect st q.1 q.2 hq hok
    rw [fitStream, e1]
    dsimp only
    have hne' : ∀ x ∈ qs, x.1 ≠ [] := fun x hx => hne x (by simp [hx])
    cases hd : detection detect cfg st (q.2 ++ q.1) with
    | none =>
      rw [hd] at c1
      obtain ⟨st', log, r1, r2, r3, r4, r5⟩ := ih hne' st1 ok1 (base + 1) log0
        (by rw [c1]; exact h0) (fun e he => (hb e he).trans (Nat.lt_succ_self _)) hp
      refine ⟨st', log, r1, r2, r3, r4, fun e he => ?_⟩
      obtain ⟨g1, q', g2, g3⟩ := r5 e he
      refine ⟨by omega, q', ?_, g3⟩
      rw [show e.1 - base = (e.1 - (base + 1)) + 1 by omega]
      simpa using g2
    | some cp =>
      rw [hd] at c1
      dsimp only at c1
      have hlog : st1.cps = (lastN 10 (log0 ++ [(base, cp)])).map
          (fun e : Nat × Cp => e.2.time / nsPerSec) := by
        rw [c1, h0]
        have hm : ∀ l : List (Nat × Cp), (lastN 10 l).map (fun e : Nat × Cp => e.2.time / nsPerSec)
            = lastN maxChangepoint (l.map (fun e : Nat × Cp => e.2.time / nsPerSec)) := by
          intro l; simp [lastN, maxChangepoint, List.map_drop]
        rw [hm, hm, List.map_append, pushCp_lastN]
        rfl
      obtain ⟨st', log, r1, r2, r3, r4, r5⟩ := ih hne' st1 ok1 (base + 1) (log0 ++ [(base, cp)])
        hlog (by
          intro e he
          rcases List.mem_append.1 he with he | he
          · exact (hb e he).trans (Nat.lt_succ_self _)
          · simp at he; rw [he]; exact Nat.lt_succ_self _)
        (by
          rw [List.map_append, List.pairwise_append]
          refine ⟨hp, by simp, ?_⟩
          intro a ha b hb'
          obtain ⟨e, he, rfl⟩ := List.mem_map.1 ha
          simp at hb'
          rw [hb']
          exact hb e he)
      refine ⟨st', (base, cp) :: log, r1, r2, by simpa using r3, by simpa using r4, ?_⟩
      intro e he
      rcases List.mem_cons.1 he with rfl | he
      · refine ⟨le_refl _, q, by simp, ?_⟩
        unfold detection at hd
        split at hd
        · cases hd
        · split_ifs at hd
          exact ⟨_, earliest_mem _ _ hd⟩
      · obtain ⟨g1, q', g2, g3⟩ := r5 e he
        refine ⟨by omega, q', ?_, g3⟩
        rw [show e.1 - base = (e.1 - (base + 1)) + 1 by omega]
        simpa using g2

/-- A detector for the examples: reports the second-last point of the series as an increase. -/
def demoDetect (h : List (Int × Rat)) (_ : Nat) : List Cp :=
  [⟨(h.getD (h.length - 2) (0, 0)).1, h.length - 2, .increase⟩]

/-- A configuration for the examples: hourly data, scan 4 h, history 10 h, step 2 h. -/
def demoCfg (dirs : Option (List String)) : CusumCfg :=
  ⟨4 * 3600 * nsPerSec, 10 * 3600 * nsPerSec, some (2 * 3600 * nsPerSec), 1/4, dirs, false,
    fun x m _ => m.map (x - ·)⟩

/-- Hourly points for the examples. -/
def hourly (l : List Rat) : List (Int × Rat) :=
  (l.zip (List.range l.length)).map fun q => (q.2 * (3600 * nsPerSec), q.1)

example : fitStream (demoCfg none) (fun _ => 1) demoDetect CusumState.init
    [(hourly [1, 2, 3], []), (hourly [1, 2, 9], [])]
    = .ok ⟨[3600], true, some (3/2), some 1, 0, some .increase⟩ := by decide +kernel

/-- The normal band after an alert in direction `d`: from the baseline mean `r` deviations to the
side opposite to the change. -/
def InBand (d : Dir) (r m s cur : Rat) : Prop :=
  match d with
  | .increase => m - r * s ≤ cur ∧ cur ≤ m
  | .decrease => m ≤ cur ∧ cur ≤ m + r * s

/-- C35: when the alert goes off. With finite baseline statistics of positive deviation and both
directions named (or none), a scan while the alert is on ends it exactly if the mean of the scan
window is back in the normal band (from `delta_std_ratio` deviations on the side opposite to the
change up to the baseline mean), or the changepoint is older than the retention period. Missing:
zero deviation with one direction watched, and the spelling "both". -/
theorem C35_alert_end_partial (cfg : CusumCfg) (std : List Rat → Rat)
    (detect : List (Int × Rat) → Nat → List Cp) (st : CusumState)
    (inData inHist : List (Int × Rat)) (m s : Rat) (d : Dir) (c : Int) (last : Int × Rat)
    (hsort : TimeSorted (inHist ++ inData))
    (hl : (inHist ++ inData).getLast? = some last) (ha : st.alertFired = true)
    (hm : st.preMean = some m) (hs : st.preStd = some s) (hd : st.direction = some d)
    (hc : st.cps.getLast? = some c) (hadapt : cfg.adapted = false)
    (hinc : watches cfg.changeDirections "increase" = true)
    (hdec : watches cfg.changeDirections "decrease" = true) :
    ∃ st', cusumFit cfg std detect st inData inHist = .ok st' ∧ st'.cps = st.cps ∧
      st'.preMean = some m ∧ st'.preStd = some s ∧
      (st'.alertFired = false ↔
        InBand d cfg.deltaStdRatio m s (mean (((inHist ++ inData).filter
          fun p => decide (last.1 - cfg.scanWindow ≤ p.1)).map (·.2))) ∨
        7 * 24 * 60 * 60 < last.1 / nsPerSec - c) := by
  unfold cusumFit
  dsimp only
  rw [hl]
  simp only [ha, if_true]
  unfold fitAlertOff
  have hab : ∀ pre, adaptBaseline cfg std pre st = st := by
    intro pre; simp [adaptBaseline, hadapt]
  rw [hab]
  dsimp only
  rw [← drop_cnt _ hsort, ← List.map_drop]
  change ∃ st', (do
    let normal ← ifNormal cfg st (mean (((inHist ++ inData).drop
      (cnt (inHist ++ inData) (last.1 - cfg.scanWindow))).map (·.2)))
    expire (last.1 / nsPerSec) (countNormal st normal)) = Except.ok st' ∧ _
  generalize mean (((inHist ++ inData).drop (cnt (inHist ++ inData)
    (last.1 - cfg.scanWindow))).map (·.2)) = cur
  obtain ⟨b, hn, hbb⟩ : ∃ b, ifNormal cfg st cur = .ok b ∧
      (InBand d cfg.deltaStdRatio m s cur ↔ b = true) := by
    unfold ifNormal InBand
    simp only [hd, hm, hs, hinc, hdec, if_true, aboveLower, belowUpper]
    cases d <;> exact ⟨_, rfl, by simp⟩
  rw [hn]
  simp only [bind, Except.bind, countNormal_eq]
  rw [hbb]
  unfold expire
  have hcps : (if b = true then st.alertOff else { st with normalScans := 0 }).cps = st.cps := by
    split_ifs <;> rfl
  rw [hcps, hc]
  dsimp only
  refine ⟨_, rfl, ?_, ?_, ?_, ?_⟩
  · split_ifs <;> rfl
  · split_ifs <;> simp [CusumState.alertOff, hm]
  · split_ifs <;> simp [CusumState.alertOff, hs]
  · have hret : retention = 7 * 24 * 60 * 60 := rfl
    rw [hret]
    split_ifs with h1 h2 h3 <;> simp_all [CusumState.alertOff]

example : (cusumFit (demoCfg (some ["increase", "decrease"])) (fun _ => 1) demoDetect
    ⟨[3600], true, some 5, some 1, 0, some .increase⟩ (hourly [5, 5, 5, 5]) []).map (·.alertFired)
    = .ok false := by decide +kernel

/-- C35 is violated: with a constant baseline (deviation 0) and only increases watched the lower
bound is `inf * 0`, the scan never counts as normal and the alert stays on although the mean is
exactly the baseline mean. -/
theorem C35_constant_baseline_violated :
    (cusumFit (demoCfg (some ["increase"])) (fun _ => 0) demoDetect
      ⟨[3600], true, some 5, some 0, 0, some .increase⟩ (hourly [5, 5, 5, 5]) []).map (·.alertFired)
      = .ok true := by decide +kernel

/-- C35 is violated: with `change_directions = ["both"]`, which the detector accepts, any mean counts
as normal and the alert ends at the next scan although the level is still far off. -/
theorem C35_both_violated :
    (cusumFit (demoCfg (some ["both"])) (fun _ => 0) demoDetect
      ⟨[3600], true, some 5, some 1, 0, some .increase⟩ (hourly [99, 99, 99, 99]) []).map
        (·.alertFired) = .ok false := by decide +kernel

/-! ## C36: one score per point -/

theorem idxRight_eq (l : List (Int × Rat)) (t : Int) (h : cnt l t < l.length) :
    idxRight l t = .ok (cnt l t) := by
  unfold idxRight
  rw [List.findIdx?_eq_guard_findIdx_lt]
  have : List.findIdx (fun p : Int × Rat => decide (t ≤ p.1)) l < l.length := h
  simp only [Option.guard, this, decide_true, if_true]
  rfl

theorem idxLeft_eq (l : List (Int × Rat)) (hs : TimeSorted l) (t : Int) (h : 0 < cnt l t) :
    idxLeft l t = .ok (cnt l t - 1) := by
  have hf : (List.range l.length).filter (fun i => decide ((l.getD i (0, 0)).1 < t))
      = List.range (cnt l t) := by
    have hle := cnt_le l t
    obtain ⟨k, hk⟩ := Nat.exists_eq_add_of_le hle
    rw [hk, List.range_add, List.filter_append]
    have h1 : (List.range (cnt l t)).filter (fun i => decide ((l.getD i (0, 0)).1 < t))
        = List.range (cnt l t) := by
      rw [List.filter_eq_self]
      intro i hi
      rw [List.mem_range] at hi
      rw [List.getD, List.getElem?_eq_getElem (by omega)]
      simpa using (cnt_iff l hs t i (by omega)).2 hi
    have h2 : ((List.range k).map (cnt l t + ·)).filter
        (fun i => decide ((l.getD i (0, 0)).1 < t)) = [] := by
      rw [List.filter_eq_nil_iff]
      intro i hi
      obtain ⟨j, hj, rfl⟩ := List.mem_map.1 hi
      rw [List.mem_range] at hj
      rw [List.getD, List.getElem?_eq_getElem (by omega)]
      have := (cnt_iff l hs t (cnt l t + j) (by omega)).not.2 (by omega)
      simpa using this
    rw [h1, h2, List.append_nil]
  unfold idxLeft
  rw [hf]
  obtain ⟨m, hm⟩ := Nat.exists_eq_succ_of_ne_zero h.ne'
  rw [hm, List.range_succ, List.getLast?_append]
  simp

theorem smoothed_times (k : Nat) (l : List (Int × Rat)) :
    (smoothed k l).map (·.1) = l.map (·.1) := by
  unfold smoothed
  split_ifs
  · apply List.ext_getElem
    · simp
    · intro i h1 h2
      simp at h1 h2
      simp [List.getElem?_eq_getElem h2]
  · rfl

theorem seg_times (l l' : List (Int × Rat)) (h : l'.map (·.1) = l.map (·.1)) (a b : Nat) :
    (seg l' a b).map (·.1) = (seg l a b).map (·.1) := by
  unfold seg
  rw [List.map_drop, List.map_take, h, List.map_drop, List.map_take]

/-- `_predict` scores every point, if the changepoint of a live alert is before the data or one of
its points. -/
theorem cusumPredict_length (cfg : CusumCfg) (st : CusumState) (data : List (Int × Rat))
    (hne : data ≠ []) (hok : AlertOk st)
    (hc : ∀ c ∈ st.cps, (∀ p ∈ data, c * nsPerSec < p.1) ∨ c * nsPerSec ∈ data.map (·.1)) :
    ∃ sc, cusumPredict cfg st data = .ok sc ∧ sc.length = data.length := by
  unfold cusumPredict
  by_cases ha : st.alertFired = true
  · rw [if_pos ha]
    obtain ⟨-, hcn⟩ := hok ha
    rw [List.getLast?_eq_getLast_of_ne_nil hcn]
    obtain ⟨p0, rest, rfl⟩ := List.exists_cons_of_ne_nil hne
    simp only [List.head?_cons]
    split_ifs with h0
    · rcases hc _ (List.getLast_mem hcn) with h | h
      · exact absurd (h p0 (by simp)) (not_lt.2 h0)
      · cases hf : (p0 :: rest).findIdx? fun p => decide (p.1 = st.cps.getLast hcn * nsPerSec) with
        | none =>
          exfalso
          rw [List.findIdx?_eq_none_iff] at hf
          obtain ⟨p, hp, e⟩ := List.mem_map.1 h
          have := hf p hp
          simp [e] at this
        | some i =>
          refine ⟨_, rfl, ?_⟩
          have hi : i < (p0 :: rest).length := by
            rw [List.findIdx?_eq_some_iff_findIdx_eq] at hf
            exact hf.1
          simp only [List.length_append, List.length_replicate, List.length_map, List.length_drop]
          omega
    · exact ⟨_, rfl, by simp⟩
  · rw [if_neg ha]
    exact ⟨_, rfl, by simp⟩

/-- The changepoints known when the first `b` points have been scanned. -/
def CpsSeen (all : List (Int × Rat)) (b : Nat) (st : CusumState) : Prop :=
  ∀ c ∈ st.cps, (∀ p ∈ all, c * nsPerSec < p.1) ∨ c * nsPerSec ∈ (all.take b).map (·.1)

theorem fitAndScore_spec (cfg : CusumCfg) (std : List Rat → Rat)
    (detect : List (Int × Rat) → Nat → List Cp)
    (hdet : ∀ h i cp, cp ∈ detect h i → cp.time ∈ h.map (·.1))
    (all smooth : List (Int × Rat)) (hs : TimeSorted all) (hsec : ∀ p ∈ all, nsPerSec ∣ p.1)
    (hsm : smooth.map (·.1) = all.map (·.1)) (a b c : Nat) (hbc : b < c) (hc : c ≤ all.length)
    (acc : CusumState × List (Option Rat)) (hok : AlertOk acc.1) (hseen : CpsSeen all b acc.1) :
    ∃ acc', fitAndScore cfg std detect all smooth a b c acc = .ok acc' ∧ AlertOk acc'.1 ∧
      CpsSeen all c acc'.1 ∧ acc'.2.length = acc.2.length + (c - b) := by
  have hsl : smooth.length = all.length := by
    have := congrArg List.length hsm
    simpa using this
  have hlen : (seg all b c).length = c - b := by simp [seg]; omega
  have hlens : (seg smooth b c).length = c - b := by simp [seg]; omega
  have hne : seg all b c ≠ [] := by rw [← List.length_pos_iff]; omega
  have hnes : seg smooth b c ≠ [] := by rw [← List.length_pos_iff]; omega
  obtain ⟨st', e1, ok1, c1⟩ := cusumFit_spec cfg std detect acc.1 (seg all b c) (seg all a b)
    (by simp [hne]) hok
  have hsub : ∀ p ∈ seg all a b ++ seg all b c, p ∈ all.take c := by
    intro p hp
    rcases List.mem_append.1 hp with hp | hp
    · have hp' := List.mem_of_mem_drop hp
      have : all.take b = (all.take c).take b := by rw [List.take_take]; congr 1; omega
      rw [this] at hp'
      exact List.mem_of_mem_take hp'
    · exact List.mem_of_mem_drop hp
  have hmono : ∀ x, x ∈ (all.take b).map (·.1) → x ∈ (all.take c).map (·.1) := by
    intro x hx
    have : all.take b = (all.take c).take b := by rw [List.take_take]; congr 1; omega
    rw [this, List.map_take] at hx
    exact List.mem_of_mem_take hx
  have seen1 : CpsSeen all c st' := by
    intro x hx
    rw [c1] at hx
    have old : x ∈ acc.1.cps → (∀ p ∈ all, x * nsPerSec < p.1) ∨
        x * nsPerSec ∈ (all.take c).map (·.1) := by
      intro hx
      rcases hseen x hx with h | h
      · exact .inl h
      · exact .inr (hmono _ h)
    cases hd : detection detect cfg acc.1 (seg all a b ++ seg all b c) with
    | none => rw [hd] at hx; exact old hx
    | some cp =>
      rw [hd] at hx
      dsimp only at hx
      rcases mem_pushCp _ _ _ hx with hx | hx
      · exact old hx
      · right
        have hcp : cp.time ∈ (seg all a b ++ seg all b c).map (·.1) := by
          unfold detection at hd
          split at hd
          · cases hd
          · split_ifs at hd
            exact hdet _ _ _ (earliest_mem _ _ hd)
        obtain ⟨p, hp, e⟩ := List.mem_map.1 hcp
        have hp' := hsub p hp
        have hdiv := hsec p (List.mem_of_mem_take hp')
        rw [hx, ← e, Int.ediv_mul_cancel hdiv]
        exact List.mem_map_of_mem hp'
  have hpred : ∀ x ∈ st'.cps, (∀ p ∈ seg smooth b c, x * nsPerSec < p.1) ∨
      x * nsPerSec ∈ (seg smooth b c).map (·.1) := by
    intro x hx
    have htimes := seg_times all smooth hsm b c
    have hmem : ∀ p ∈ seg smooth b c, p.1 ∈ (seg all b c).map (·.1) := by
      intro p hp
      rw [← htimes]
      exact List.mem_map_of_mem hp
    rw [htimes]
    rcases seen1 x hx with h | h
    · left
      intro p hp
      obtain ⟨q, hq, e⟩ := List.mem_map.1 (hmem p hp)
      rw [← e]
      exact h q (List.mem_of_mem_take (List.mem_of_mem_drop hq))
    · obtain ⟨q, hq, e⟩ := List.mem_map.1 h
      obtain ⟨j, hj, ej⟩ := List.mem_iff_getElem.1 hq
      have hjl : j < all.length := by simp at hj; omega
      have hjc : j < c := by simp at hj; omega
      rw [List.getElem_take] at ej
      by_cases hjb : j < b
      · left
        intro p hp
        obtain ⟨r, hr, er⟩ := List.mem_map.1 (hmem p hp)
        obtain ⟨k, hk, ek⟩ := List.mem_iff_getElem.1 hr
        simp only [seg, List.getElem_drop, List.getElem_take] at ek
        have := (List.pairwise_iff_getElem.1 hs) j (b + k) hjl
          (by simp [seg] at hk; omega) (by omega)
        rw [← e, ← er, ← ej, ← ek]
        exact this
      · right
        rw [← e]
        apply List.mem_map_of_mem
        unfold seg
        rw [List.mem_iff_getElem]
        refine ⟨j - b, by simp; omega, ?_⟩
        rw [List.getElem_drop, List.getElem_take, ← ej]
        congr 1
        omega
  obtain ⟨sc, e2, l2⟩ := cusumPredict_length cfg st' (seg smooth b c) hnes ok1 hpred
  refine ⟨(st', acc.2 ++ sc), ?_, ok1, seen1, ?_⟩
  · unfold fitAndScore
    simp only [e1, e2, bind, Except.bind, pure, Except.pure]
  · simp [l2, hlens]

theorem cusumWindow_spec (cfg : CusumCfg) (hhw : 0 ≤ cfg.histWindow) (std : List Rat → Rat)
    (detect : List (Int × Rat) → Nat → List Cp)
    (hdet : ∀ h i cp, cp ∈ detect h i → cp.time ∈ h.map (·.1))
    (all smooth : List (Int × Rat)) (hs : TimeSorted all) (hsec : ∀ p ∈ all, nsPerSec ∣ p.1)
    (hsm : smooth.map (·.1) = all.map (·.1)) (step start : Int) (hstep : 0 < step)
    (hlt : cnt all start < all.length) (h0 : ∀ p ∈ all.head?, p.1 ≤ start)
    (acc : CusumState × List (Option Rat)) (hok : AlertOk acc.1)
    (hseen : CpsSeen all (cnt all start) acc.1) :
    ∃ acc', cusumWindow cfg std detect all smooth step acc start = .ok acc' ∧ AlertOk acc'.1 ∧
      CpsSeen all (cnt all (start + step)) acc'.1 ∧ cnt all start ≤ cnt all (start + step) ∧
      acc'.2.length = acc.2.length + (cnt all (start + step) - cnt all start) := by
  have hpos : 0 < all.length := by omega
  have hhead : all[0].1 ≤ start := h0 all[0] (by
    rw [List.head?_eq_getElem?, List.getElem?_eq_getElem hpos]; rfl)
  have hmono : ∀ t t' : Int, t ≤ t' → cnt all t ≤ cnt all t' := by
    intro t t' h
    by_contra hc
    push Not at hc
    have hl : cnt all t' < all.length := lt_of_lt_of_le hc (cnt_le all t)
    have h1 := (cnt_iff all hs t (cnt all t') hl).2 hc
    have h2 := (cnt_iff all hs t' (cnt all t') hl).not.2 (lt_irrefl _)
    omega
  have hle := hmono start (start + step) (by omega)
  have hp : 0 < cnt all (start + step) := (cnt_iff all hs _ 0 hpos).1 (by omega)
  have hh : cnt all (start - cfg.histWindow) < all.length :=
    lt_of_le_of_lt (hmono _ start (by omega)) hlt
  unfold cusumWindow
  simp only [idxRight_eq all _ hh, idxRight_eq all _ hlt, idxLeft_eq all hs _ hp, bind, Except.bind]
  rw [Nat.sub_add_cancel hp]
  have hlen : (seg all (cnt all start) (cnt all (start + step))).length
      = cnt all (start + step) - cnt all start := by
    have := cnt_le all (start + step)
    simp [seg]; omega
  split_ifs with he
  · have : cnt all (start + step) = cnt all start := by
      rw [he] at hlen; simp at hlen; omega
    refine ⟨acc, rfl, hok, by rw [this]; exact hseen, hle, by omega⟩
  · have hb : cnt all start < cnt all (start + step) := by
      have := List.length_pos_iff.2 he
      omega
    obtain ⟨acc', r1, r2, r3, r4⟩ := fitAndScore_spec cfg std detect hdet all smooth hs hsec hsm
      (cnt all (start - cfg.histWindow)) _ _ hb (cnt_le _ _) acc hok hseen
    exact ⟨acc', r1, r2, r3, hle, r4⟩

theorem cusumLoopModel_spec (cfg : CusumCfg) (hhw : 0 ≤ cfg.histWindow) (std : List Rat → Rat)
    (detect : List (Int × Rat) → Nat → List Cp)
    (hdet : ∀ h i cp, cp ∈ detect h i → cp.time ∈ h.map (·.1))
    (all smooth : List (Int × Rat)) (hs : TimeSorted all) (hsec : ∀ p ∈ all, nsPerSec ∣ p.1)
    (hsm : smooth.map (·.1) = all.map (·.1)) (step start : Int) (hstep : 0 < step)
    (h0 : ∀ p ∈ all.head?, p.1 ≤ start)
    (acc : CusumState × List (Option Rat)) (hok : AlertOk acc.1)
    (hseen : CpsSeen all (cnt all start) acc.1) (off : Nat)
    (hoff : acc.2.length + off = cnt all start) : ∀ n : Nat,
    (∀ i < n, cnt all (start + i * step) < all.length) →
    ∃ acc', ((List.range n).map fun i : Nat => start + i * step).foldlM
      (cusumWindow cfg std detect all smooth step) acc = .ok acc' ∧ AlertOk acc'.1 ∧
      CpsSeen all (cnt all (start + n * step)) acc'.1 ∧
      acc'.2.length + off = cnt all (start + n * step) := by
  intro n
  induction n with
  | zero =>
    intro _
    exact ⟨acc, rfl, hok, by simpa using hseen, by simpa using hoff⟩
  | succ n ih =>
    intro hlt
    obtain ⟨acc1, r1, r2, r3, r4⟩ := ih (fun i hi => hlt i (by omega))
    have hnn : (0 : Int) ≤ n * step := by positivity
    obtain ⟨acc2, q1, q2, q3, q4, q5⟩ := cusumWindow_spec cfg hhw std detect hdet all smooth hs hsec
      hsm step (start + n * step) hstep (hlt n (by omega))
      (fun p hp => by have := h0 p hp; omega) acc1 r2 r3
    have e : start + n * step + step = start + ((n + 1 : Nat) : Int) * step := by
      push_cast; ring
    rw [e] at q3 q4 q5
    refine ⟨acc2, ?_, q2, q3, by omega⟩
    rw [List.range_succ, List.map_append, List.foldlM_append, r1]
    simp only [List.map_cons, List.map_nil, List.foldlM_cons, List.foldlM_nil, bind, Except.bind, q1]
    rfl

/-- C36: the windows tile the data and there is exactly one score per point: for a strictly sorted
series at whole seconds, history before data, windows accepted by the validation, a detector that
returns points of the series it is given, and a state whose changepoints are points of the series
or older. Missing: the case that the data is shorter than one step and its first scored point is
exactly one history window after the first point (`C36_short_step_violated`), the vectorised path,
and removal of seasonality. -/
theorem C36_one_score_partial (cfg : CusumCfg) (std : List Rat → Rat)
    (detect : List (Int × Rat) → Nat → List Cp)
    (hdet : ∀ h i cp, cp ∈ detect h i → cp.time ∈ h.map (·.1))
    (freq : Int) (hfreq : 0 < freq) (st : CusumState) (hok : AlertOk st)
    (data hist : List (Int × Rat)) (a0 d0 l : Int × Rat)
    (ha0 : (hist ++ data).head? = some a0) (hd0 : data.head? = some d0)
    (hl : data.getLast? = some l) (hs : TimeSorted (hist ++ data))
    (hsec : ∀ p ∈ hist ++ data, nsPerSec ∣ p.1)
    (hcps : ∀ c ∈ st.cps, (∀ p ∈ hist ++ data, c * nsPerSec < p.1) ∨
      c * nsPerSec ∈ hist.map (·.1))
    (hw : checkWindows cfg freq = .ok ())
    (hgap : ∀ p ∈ data, a0.1 + cfg.histWindow ≤ p.1 →
      a0.1 + cfg.histWindow < p.1 ∨ p.1 + stepOf cfg freq d0.1 l.1 ≤ l.1 + freq) :
    ∃ st' scores, cusumFitPredict cfg std detect freq st data hist = .ok (st', scores) ∧
      scores.length = data.length := by
  have hdne : data ≠ [] := by
    intro e; rw [e] at hd0; cases hd0
  obtain ⟨d, rest, rfl⟩ := List.exists_cons_of_ne_nil hdne
  have hdd : d = d0 := by simpa using hd0
  subst hdd
  set all := hist ++ d :: rest with hall
  have hsm := smoothed_times (cfg.scanWindow / freq).toNat all
  generalize hsmd : smoothed (cfg.scanWindow / freq).toNat all = smooth at hsm
  have hsl : smooth.length = all.length := by
    have := congrArg List.length hsm
    simpa using this
  have hal : all.length = hist.length + (d :: rest).length := by rw [hall, List.length_append]
  -- window facts
  have hwin : 2 * freq ≤ cfg.scanWindow ∧ 2 * freq ≤ cfg.histWindow ∧
      ∀ s, cfg.stepWindow = some s → freq ≤ s := by
    unfold checkWindows at hw
    split_ifs at hw with h1 h2
    push Not at h2
    refine ⟨h2.1, h2.2, fun s hst => ?_⟩
    rw [hst] at h1
    simp at h1
    omega
  obtain ⟨hw1, hw2, hw3⟩ := hwin
  have hnscan : cfg.scanWindow / 2 > 0 := by omega
  have hpos : 0 < all.length := by rw [hal]; simp
  have hlast : all.getLast? = some l := by
    rw [hall, List.getLast?_append, hl]; rfl
  have hlmem : l ∈ d :: rest := by
    rw [List.getLast?_eq_getLast_of_ne_nil (by simp)] at hl
    simp at hl
    rw [← hl]
    exact List.getLast_mem (by simp)
  have hlasti : all[all.length - 1].1 = l.1 := by
    rw [List.getLast?_eq_getElem?, List.getElem?_eq_getElem (by omega)] at hlast
    simp at hlast
    rw [hlast]
  have hfirst : all[0].1 = a0.1 := by
    rw [List.head?_eq_getElem?, List.getElem?_eq_getElem hpos] at ha0
    simp at ha0
    rw [ha0]
  have hpw := List.pairwise_iff_getElem.1 hs
  have hd0l : d.1 ≤ l.1 := by
    rcases List.mem_cons.1 hlmem with e | e
    · rw [e]
    · have h2 : (d :: rest).Pairwise (fun a b => a.1 < b.1) :=
        (List.pairwise_append.1 hs).2.1
      exact le_of_lt ((List.pairwise_cons.1 h2).1 l e)
  -- the early exit
  have hpredOnly : ∃ st' scores, predictOnly cfg smooth (d :: rest).length st = .ok (st', scores) ∧
      scores.length = (d :: rest).length := by
    have hdrop : smooth.drop (smooth.length - (d :: rest).length) = seg smooth hist.length all.length := by
      unfold seg
      rw [List.take_of_length_le (by omega), show smooth.length - (d :: rest).length = hist.length by omega]
    have htimes := seg_times all smooth hsm hist.length all.length
    have hsegall : seg all hist.length all.length = d :: rest := by
      unfold seg; rw [List.take_length, hall]; simp
    have hlens : (seg smooth hist.length all.length).length = (d :: rest).length := by
      have := congrArg List.length htimes
      simpa [hsegall] using this
    obtain ⟨sc, e, ls⟩ := cusumPredict_length cfg st (seg smooth hist.length all.length)
      (by rw [← List.length_pos_iff, hlens]; simp) hok (by
        intro c hc
        left
        intro p hp
        have hp1 : p.1 ∈ (seg smooth hist.length all.length).map (·.1) := List.mem_map_of_mem hp
        rw [htimes, hsegall] at hp1
        obtain ⟨q, hq, eq⟩ := List.mem_map.1 hp1
        rw [← eq]
        rcases hcps c hc with h | h
        · exact h q (by simp [hall, List.mem_cons.1 hq])
        · obtain ⟨r, hr, er⟩ := List.mem_map.1 h
          rw [← er]
          exact (List.pairwise_append.1 hs).2.2 r hr q hq)
    refine ⟨st, sc, ?_, by rw [ls, hlens]⟩
    unfold predictOnly
    rw [hdrop, e]
    rfl
  unfold cusumFitPredict
  simp only [← hall, ha0, List.head?_cons, hl, hw, hsmd, bind, Except.bind]
  split_ifs with hearly
  · exact hpredOnly
  push Not at hearly
  unfold cusumScan
  set astart := max (a0.1 + cfg.histWindow) d.1 with hastart
  have hsd : TimeSorted (d :: rest) := (List.pairwise_append.1 hs).2.1
  have haidx : cnt (d :: rest) astart < (d :: rest).length := by
    by_contra hc
    push Not at hc
    obtain ⟨j, hj, ej⟩ := List.mem_iff_getElem.1 hlmem
    have := (cnt_iff _ hsd astart j hj).2 (by omega)
    rw [ej] at this
    omega
  set aidx := cnt (d :: rest) astart with haidxd
  have hget : (d :: rest).getD aidx (0, 0) = (d :: rest)[aidx] := by
    rw [List.getD, List.getElem?_eq_getElem haidx]; rfl
  simp only [idxRight_eq _ _ haidx, bind, Except.bind, ← haidxd, hget]
  set s0 := (d :: rest)[aidx].1 with hs0
  have hs0ge : astart ≤ s0 := by
    have := (cnt_iff _ hsd astart aidx haidx).not.2 (lt_irrefl _)
    omega
  split_ifs with hsmall
  · exact hpredOnly
  set step := stepOf cfg freq d.1 l.1 with hstepd
  have hstep : 0 < step := by
    rw [hstepd]
    unfold stepOf
    cases hst : cfg.stepWindow with
    | none => dsimp only; omega
    | some s => have := hw3 s hst; dsimp only; omega
  -- index of the first scored point in the whole series
  have hidx : all[hist.length + aidx]'(by omega) = (d :: rest)[aidx] := by
    simp only [hall]
    rw [List.getElem_append_right (by omega)]
    congr 1
    omega
  have hcnt0 : cnt all s0 = hist.length + aidx := by
    have h1 : ¬ (hist.length + aidx < cnt all s0) := by
      rw [← cnt_iff all hs s0 _ (by omega), hidx]
      exact lt_irrefl _
    have h2 : ¬ (cnt all s0 < hist.length + aidx) := by
      intro hlt
      have hl' : cnt all s0 < all.length := by omega
      have := hpw (cnt all s0) (hist.length + aidx) hl' (by omega) hlt
      rw [hidx] at this
      exact lt_irrefl _ ((cnt_iff all hs s0 _ hl').1 this)
    omega
  have h0 : ∀ p ∈ all.head?, p.1 ≤ s0 := by
    intro p hp
    rw [ha0] at hp
    simp at hp
    rw [← hp]
    omega
  have hseen0 : CpsSeen all (cnt all s0) st := by
    intro c hc
    rcases hcps c hc with h | h
    · exact .inl h
    · right
      rw [hcnt0, hall, List.take_append, List.map_append]
      apply List.mem_append_left
      rw [List.take_of_length_le (by omega)]
      exact h
  -- the loop
  set stop := min (l.1 + freq - step) l.1 with hstop
  set n := (if stop < s0 then 0 else ((stop - s0) / step).toNat + 1) with hn
  have hltn : ∀ i : Nat, i < n → s0 + i * step ≤ stop := by
    intro i hi
    rw [hn] at hi
    split_ifs at hi with hc
    · omega
    · push Not at hc
      have hq : 0 ≤ (stop - s0) / step := Int.ediv_nonneg (by omega) hstep.le
      have hi' : (i : Int) ≤ (stop - s0) / step := by omega
      have := Int.ediv_mul_le (stop - s0) hstep.ne'
      have := mul_le_mul_of_nonneg_right hi' hstep.le
      omega
  have hcntlt : ∀ t : Int, t ≤ l.1 → cnt all t < all.length := by
    intro t ht
    by_contra hc
    push Not at hc
    have := (cnt_iff all hs t (all.length - 1) (by omega)).2 (by omega)
    omega
  obtain ⟨acc, r1, r2, r3, r4⟩ := cusumLoopModel_spec cfg (by omega) std detect hdet all smooth hs
    hsec hsm step s0 hstep h0 (st, List.replicate aidx (some 0)) hok hseen0 hist.length
    (by simp [hcnt0, add_comm]) n (fun i hi => hcntlt _ (by have := hltn i hi; omega))
  have hdr : dateRange s0 stop step = (List.range n).map fun i : Nat => s0 + i * step := rfl
  rw [hdr, r1]
  dsimp only
  unfold cusumRemain
  have hcle := cnt_le all (s0 + n * step)
  by_cases hrem : (d :: rest).length - acc.2.length > 0
  · rw [if_pos hrem]
    have hhe : all.length - ((d :: rest).length - acc.2.length) = cnt all (s0 + n * step) := by omega
    have hlt : cnt all (s0 + n * step) < all.length := by omega
    dsimp only
    rw [hhe, List.getD, List.getElem?_eq_getElem hlt, Option.getD_some]
    have htime : s0 + n * step ≤ (all[cnt all (s0 + n * step)]).1 := by
      have := (cnt_iff all hs _ _ hlt).not.2 (lt_irrefl (cnt all (s0 + n * step)))
      omega
    have hleft : 0 < cnt all ((all[cnt all (s0 + n * step)]).1 - cfg.histWindow) := by
      apply (cnt_iff all hs _ 0 hpos).1
      rw [hfirst]
      rcases hgap _ (List.getElem_mem haidx) (by omega) with hg | hg
      · have hnn : (0 : Int) ≤ n * step := by positivity
        omega
      · have hn1 : 1 ≤ n := by
          rw [hn, if_neg]
          · omega
          · have h1 : s0 ≤ l.1 := by
              obtain ⟨j, hj, ej⟩ := List.mem_iff_getElem.1 hlmem
              rcases Nat.lt_or_ge aidx j with h | h
              · have := (List.pairwise_iff_getElem.1 hsd) aidx j haidx hj h
                rw [ej] at this
                omega
              · have hjl : (d :: rest).length - 1 = j := by
                  have hll : (d :: rest)[(d :: rest).length - 1]'(by simp) = l := by
                    rw [List.getLast?_eq_getElem?, List.getElem?_eq_getElem (by simp)] at hl
                    simpa using hl
                  by_contra hne
                  have := (List.pairwise_iff_getElem.1 hsd) j ((d :: rest).length - 1) hj (by simp)
                    (by omega)
                  rw [ej, hll] at this
                  omega
                have : aidx = j := by omega
                rw [hs0]
                subst this
                rw [ej]
            omega
        have hn1' : (1 : Int) ≤ n := by exact_mod_cast hn1
        have := mul_le_mul_of_nonneg_right hn1' hstep.le
        omega
    simp only [idxLeft_eq all hs _ hleft, bind, Except.bind]
    obtain ⟨acc', q1, q2, q3, q4⟩ := fitAndScore_spec cfg std detect hdet all smooth hs hsec hsm
      (cnt all ((all[cnt all (s0 + n * step)]).1 - cfg.histWindow) - 1) _ all.length hlt (le_refl _)
      acc r2 r3
    exact ⟨acc'.1, acc'.2, q1, by omega⟩
  · rw [if_neg hrem]
    exact ⟨acc.1, acc.2, rfl, by omega⟩

example : (cusumFitPredict (demoCfg none) (fun _ => 1) demoDetect (3600 * nsPerSec) CusumState.init
    (hourly [1, 2, 1, 2, 1, 2, 1, 2, 1, 2, 1, 9, 9, 9]) []).map (·.2.length) = .ok 14 := by
  decide +kernel

/-- C36 is violated: hourly data whose 11 points reach exactly one history window (10 h) past the
first, with a step of 2 h: the last point is left to the remainder, for which no point lies more
than a history window back, and `fit_predict` fails with a ValueError from numpy. -/
theorem C36_short_step_violated :
    checkWindows (demoCfg none) (3600 * nsPerSec) = .ok () ∧
    cusumFitPredict (demoCfg none) (fun _ => 1) demoDetect (3600 * nsPerSec) CusumState.init
      (hourly [1, 2, 1, 2, 1, 2, 1, 2, 1, 2, 1]) [] = .error .valueError := by decide +kernel

end Kats

import Verif.Model.TsDetect
import Verif.Props.Cusum
import Verif.Props.TrendMk
import Verif.Props.Kde
import Verif.Lemmas.MapM
import Mathlib.Data.Rat.Cast.Order
import Mathlib.Algebra.Order.BigOperators.Group.List

/-!
# Features taken from detectors, and seasonalities: C113
-/

namespace Kats

/-! ### CUSUM -/

/-- **C113 (CUSUM).**  There are at most two changepoints; without any, all features are zero or false; with some, the
features are those of one changepoint strictly inside the series, whose test was significant, and its relative position
is strictly between 0 and 1. -/
theorem C113_cusum_partial (quant : ℝ) (pv : ℝ → ℝ) (ts : List ℝ) (hn : 3 ≤ ts.length) :
    let f := cusumFeatures ts.length (cusumDefault quant pv ts)
    f.num ≤ 2 ∧
      (f.num = 0 → f.conf = 0 ∧ f.cpIndex = 0 ∧ f.delta = 0 ∧ f.llr = 0 ∧ f.regression = false ∧ f.stable = false ∧ f.p = 0) ∧
      (f.num ≠ 0 → ∃ c, 1 ≤ c ∧ c + 2 ≤ ts.length ∧ f.cpIndex = (c : ℝ) / ts.length ∧ 0 < f.cpIndex ∧ f.cpIndex < 1 ∧
        f.delta = mean (ts.drop (c + 1)) - mean (ts.take (c + 1)) ∧ f.delta ≠ 0 ∧ f.llr = llrAt ts c ∧ quant < f.llr ∧
        f.p = pv f.llr ∧ f.conf = 1 - f.p ∧ f.regression = true) := by
  classical
  dsimp only
  generalize hd : cusumDetector ⟨quant, 1, 0, false⟩ none 10 none (fun _ => true) [.increase, .decrease] ts = det
  have hcd : cusumDefault quant pv ts = det.map fun q =>
    ⟨q.2.changepoint, q.2.delta, getLlr ts q.2.mu0 q.2.mu1 q.2.changepoint,
      decide (regressionDetected ⟨quant, 1, 0, false⟩ q.1 ts q.2 none true), q.2.stable,
      pv (getLlr ts q.2.mu0 q.2.mu1 q.2.changepoint)⟩ := by
    unfold cusumDefault
    rw [hd]
  rw [hcd]
  have hlen : det.length ≤ 2 := by
    rw [← hd]
    unfold cusumDetector
    refine le_trans (List.length_filter_le _ _) ?_
    simp
  refine ⟨by simpa [cusumFeatures] using hlen, ?_, ?_⟩
  · intro h0
    have : det = [] := by simpa [cusumFeatures] using h0
    subst this
    simp [cusumFeatures]
  · intro h0
    match det, hd, h0 with
    | [], _, h0 => exact absurd rfl h0
    | q :: rest, hd, _ =>
      have hq : q ∈ cusumDetector ⟨quant, 1, 0, false⟩ none 10 none (fun _ => true) [.increase, .decrease] ts := by
        rw [hd]; exact List.mem_cons_self
      obtain ⟨-, hm0, hm1, hl, hi, hde, -, -⟩ := C68_reported ⟨quant, 1, 0, false⟩ none 10 none (fun _ => true) _ ts q.1 q.2
        rfl hq
      unfold cusumDetector at hq
      rw [List.mem_filter, Bool.or_false, decide_eq_true_eq] at hq
      obtain ⟨hqm, hreg⟩ := hq
      obtain ⟨d, -, he⟩ := List.mem_map.1 hqm
      subst he
      dsimp only at hm0 hm1 hl hi hde hreg
      obtain ⟨r1, r2, -⟩ := C33_range_and_stability d ts hn 10 none (by simp)
      have r2 := r2 (by norm_num)
      refine ⟨(getChangePoint d none 10 none ts).changepoint, r2, r1, rfl, ?_, ?_, rfl, ?_, ?_, ?_, rfl, rfl, ?_⟩
      · show (0 : ℝ) < ((getChangePoint d none 10 none ts).changepoint : ℝ) / ts.length
        have : (0 : ℝ) < (getChangePoint d none 10 none ts).changepoint := by exact_mod_cast r2
        have : (0 : ℝ) < ts.length := by exact_mod_cast (by omega : 0 < ts.length)
        positivity
      · show ((getChangePoint d none 10 none ts).changepoint : ℝ) / ts.length < 1
        have : (0 : ℝ) < ts.length := by exact_mod_cast (by omega : 0 < ts.length)
        rw [div_lt_one this]
        exact_mod_cast (by omega)
      · show (getChangePoint d none 10 none ts).delta ≠ 0
        have hdel : (getChangePoint d none 10 none ts).delta =
            (getChangePoint d none 10 none ts).mu1 - (getChangePoint d none 10 none ts).mu0 := rfl
        rw [hdel]
        cases d with
        | increase => have := hi rfl; intro h; linarith
        | decrease => have := hde rfl; intro h; linarith
      · show getLlr ts _ _ _ = _
        unfold llrAt
        rw [hm0, hm1]
      · show quant < getLlr ts _ _ _
        rw [hm0, hm1]
        exact hl
      · show decide _ = true
        rw [decide_eq_true_eq]
        exact hreg

example : 3 ≤ ([0, 0, 1, 1] : List ℝ).length := by simp

/-! Rational series can be calculated with. -/

/-- A rational series as a real one. -/
def castR (l : List ℚ) : List ℝ := l.map fun q : ℚ => (q : ℝ)

theorem castR_sum (l : List ℚ) : (castR l).sum = ((l.sum : ℚ) : ℝ) := by
  induction l with
  | nil => simp [castR]
  | cons a l ih =>
    unfold castR at ih ⊢
    rw [List.map_cons, List.sum_cons, List.sum_cons, ih]
    push_cast
    ring

theorem castR_take (l : List ℚ) (n : Nat) : (castR l).take n = castR (l.take n) := by
  unfold castR; rw [List.map_take]

theorem castR_drop (l : List ℚ) (n : Nat) : (castR l).drop n = castR (l.drop n) := by
  unfold castR; rw [List.map_drop]

theorem castR_length (l : List ℚ) : (castR l).length = l.length := by simp [castR]

theorem castR_mean (l : List ℚ) : mean (castR l) = ((mean l : ℚ) : ℝ) := by
  unfold mean
  rw [castR_sum, castR_length]
  push_cast
  rfl

theorem castR_sqDev (l : List ℚ) (m : ℚ) : sqDev (castR l) (m : ℝ) = ((sqDev l m : ℚ) : ℝ) := by
  unfold sqDev
  rw [← castR_sum]
  unfold castR
  rw [List.map_map, List.map_map]
  congr 1
  apply List.map_congr_left
  intro a _
  simp

theorem castR_cumsumFrom (l : List ℚ) (a : ℚ) : cumsumFrom (a : ℝ) (castR l) = castR (cumsumFrom a l) := by
  induction l generalizing a with
  | nil => rfl
  | cons b l ih =>
    have := ih (a + b)
    unfold castR at this ⊢
    rw [List.map_cons, cumsumFrom, cumsumFrom, List.map_cons]
    push_cast at this ⊢
    rw [this]

theorem castR_cusum (l : List ℚ) (m : ℚ) : cusum (castR l) (m : ℝ) = castR (cusum l m) := by
  unfold cusum
  have := castR_cumsumFrom (l.map (· - m)) 0
  rw [← this]
  unfold castR
  rw [List.map_map, List.map_map]
  congr 1
  · simp
  · apply List.map_congr_left
    intro a _
    simp

theorem castR_argBest (d : Dir) (l : List ℚ) : argBest d (castR l) = argBest d l := by
  induction l with
  | nil => rfl
  | cons a l ih =>
    unfold castR at ih ⊢
    rw [List.map_cons, argBest, argBest, ih]
    rw [List.getElem?_map]
    cases l[argBest d l]? with
    | none => rfl
    | some b =>
      have : d.better (b : ℝ) (a : ℝ) = d.better b a := by
        cases d <;> simp [Dir.better]
      simp only [Option.map_some, this]

theorem castR_cusumStep (d : Dir) (l : List ℚ) (cp : Nat) : cusumStep d (castR l) cp = cusumStep d l cp := by
  unfold cusumStep
  dsimp only
  rw [castR_take, castR_drop, castR_mean, castR_mean, castR_length, ← castR_argBest, ← castR_cusum]
  push_cast
  rfl

theorem castR_cusumLoop (d : Dir) (l : List ℚ) (fuel cp : Nat) :
    cusumLoop d (castR l) fuel cp = cusumLoop d l fuel cp := by
  induction fuel generalizing cp with
  | zero => rfl
  | succ n ih => rw [cusumLoop, cusumLoop, castR_cusumStep, ih]

theorem castR_changepoint (d : Dir) (l : List ℚ) (maxIter : Nat) :
    (getChangePoint d none maxIter none (castR l)).changepoint = (getChangePoint d none maxIter none l).changepoint := by
  have hs : cusumStart d (castR l) none = cusumStart d l none := by
    unfold cusumStart
    rw [castR_mean, castR_cusum, castR_argBest, castR_length]
  unfold getChangePoint
  dsimp only [windowOf, windowStart]
  rw [hs, castR_cusumLoop]

/-- Twenty zeros, twenty ones, twenty zeros. -/
def upDown : List ℚ := List.replicate 20 0 ++ List.replicate 20 1 ++ List.replicate 20 0

theorem upDown_increase : (getChangePoint .increase none 10 none upDown).changepoint = 19 := by decide +kernel

theorem upDown_decrease : (getChangePoint .decrease none 10 none upDown).changepoint = 39 := by decide +kernel

/-- The changepoints in `upDown`. -/
def upDownCp : Dir → Nat
  | .increase => 19
  | .decrease => 39

theorem upDown_detected (quant : ℝ) (hq : quant ≤ 15) (d : Dir) :
    regressionDetected ⟨quant, 1, 0, false⟩ d (castR upDown) (getChangePoint d none 10 none (castR upDown)) none true := by
  obtain ⟨cp, hcp⟩ : ∃ cp, cp = (getChangePoint d none 10 none upDown).changepoint := ⟨_, rfl⟩
  have hcR : (getChangePoint d none 10 none (castR upDown)).changepoint = cp := by
    rw [hcp]
    exact castR_changepoint d upDown 10
  have hcpv : cp = upDownCp d := by
    rw [hcp]
    cases d
    · exact upDown_increase
    · exact upDown_decrease
  clear hcp
  have hm0 : (getChangePoint d none 10 none (castR upDown)).mu0 = ((mean (upDown.take (cp + 1)) : ℚ) : ℝ) := by
    rw [← castR_mean, ← castR_take, ← hcR]
    rfl
  have hm1 : (getChangePoint d none 10 none (castR upDown)).mu1 = ((mean (upDown.drop (cp + 1)) : ℚ) : ℝ) := by
    rw [← castR_mean, ← castR_drop, ← hcR]
    rfl
  have hdel : (getChangePoint d none 10 none (castR upDown)).delta =
      ((mean (upDown.drop (cp + 1)) : ℚ) : ℝ) - ((mean (upDown.take (cp + 1)) : ℚ) : ℝ) := by
    rw [← hm0, ← hm1]
    rfl
  have hT : sqDev upDown (mean upDown) = 40 / 3 := by decide +kernel
  have hS : sqDev (upDown.take (cp + 1)) (mean (upDown.take (cp + 1))) +
      sqDev (upDown.drop (cp + 1)) (mean (upDown.drop (cp + 1))) = 10 := by
    rw [hcpv]
    cases d
    · decide +kernel
    · decide +kernel
  have hSR : sqDev ((castR upDown).take (cp + 1)) ((mean (upDown.take (cp + 1)) : ℚ) : ℝ) +
      sqDev ((castR upDown).drop (cp + 1)) ((mean (upDown.drop (cp + 1)) : ℚ) : ℝ) = 10 := by
    rw [castR_take, castR_drop, castR_sqDev, castR_sqDev]
    exact_mod_cast hS
  have hTR : sqDev (castR upDown) (mean (castR upDown)) = 40 / 3 := by
    rw [castR_mean, castR_sqDev, hT]
    norm_num
  have hlen : (castR upDown).length = 60 := by rw [castR_length]; rfl
  refine ⟨?_, by simp, ?_, ?_, rfl⟩
  · rw [hm0, hm1, hcR, C66_formula _ _ _ _ (by rw [hlen]; norm_num) (by rw [hSR]; norm_num) (by rw [hTR]; norm_num), hSR,
      hTR, hlen]
    have := Real.one_sub_inv_le_log_of_pos (x := (((60 : Nat) : ℝ) - 2) * (40 / 3) / (((60 : Nat) : ℝ) * 10)) (by norm_num)
    norm_num at this ⊢
    linarith
  · dsimp only
    cases d with
    | increase =>
      rw [hm0, hm1, hcpv]
      show (mean (upDown.take (19 + 1)) : ℚ) + (0 : ℝ) < (mean (upDown.drop (19 + 1)) : ℚ)
      have : mean (upDown.take (19 + 1)) = 0 := by decide +kernel
      have h2 : mean (upDown.drop (19 + 1)) = 1 / 2 := by decide +kernel
      rw [this, h2]
      norm_num
    | decrease =>
      rw [hm0, hm1, hcpv]
      show (mean (upDown.drop (39 + 1)) : ℚ) + (0 : ℝ) < (mean (upDown.take (39 + 1)) : ℚ)
      have : mean (upDown.take (39 + 1)) = 1 / 2 := by decide +kernel
      have h2 : mean (upDown.drop (39 + 1)) = 0 := by decide +kernel
      rw [this, h2]
      norm_num
  · dsimp only
    rw [hdel, hcR, mul_one]
    have habs : |((mean (upDown.drop (cp + 1)) : ℚ) : ℝ) - ((mean (upDown.take (cp + 1)) : ℚ) : ℝ)| = 1 / 2 := by
      have : |mean (upDown.drop (cp + 1)) - mean (upDown.take (cp + 1))| = 1 / 2 := by
        rw [hcpv]
        cases d
        · decide +kernel
        · decide +kernel
      rw [← Rat.cast_sub, ← Rat.cast_abs, this]
      norm_num
    rw [habs]
    unfold npStd
    rw [Real.sqrt_lt' (by norm_num), castR_take, castR_mean, castR_sqDev, castR_length]
    have : sqDev (upDown.take cp) (mean (upDown.take cp)) / ((upDown.take cp).length : ℚ) < (1 / 2) ^ 2 := by
      rw [hcpv]
      cases d
      · decide +kernel
      · decide +kernel
    have h2 : (((sqDev (upDown.take cp) (mean (upDown.take cp)) / ((upDown.take cp).length : ℚ) : ℚ)) : ℝ) <
        (((1 / 2) ^ 2 : ℚ) : ℝ) := Rat.cast_lt.2 this
    push_cast at h2
    exact h2

/-- **C113 (CUSUM) is violated.**  The number of changepoints is documented to be 1 or 0; a rise followed by a fall gives
2, with any quantile up to 15 (that for the default threshold is 9.21). -/
theorem C113_cusum_violated (quant : ℝ) (hq : quant ≤ 15) (pv : ℝ → ℝ) :
    ∃ ts : List ℝ, (cusumFeatures ts.length (cusumDefault quant pv ts)).num = 2 := by
  classical
  refine ⟨castR upDown, ?_⟩
  show (cusumDefault quant pv (castR upDown)).length = 2
  unfold cusumDefault
  rw [List.length_map]
  unfold cusumDetector
  rw [List.filter_eq_self.2]
  · rfl
  · intro q hqm
    obtain ⟨d, -, rfl⟩ := List.mem_map.1 hqm
    rw [Bool.or_false, decide_eq_true_eq]
    exact upDown_detected quant hq d

/-! ### Robust statistics and BOCPD -/

theorem foldl_add_real (l : List ℝ) (a : ℝ) : l.foldl (· + ·) a = a + l.sum := by
  induction l generalizing a with
  | nil => simp
  | cons b l ih => rw [List.foldl_cons, ih, List.sum_cons]; ring

theorem confs_max (l : List ℝ) (a : ℝ) :
    a ≤ l.foldl max a ∧ (∀ x ∈ l, x ≤ l.foldl max a) ∧ (l.foldl max a = a ∨ l.foldl max a ∈ l) := by
  induction l generalizing a with
  | nil => simp
  | cons b l ih =>
    rw [List.foldl_cons]
    obtain ⟨h1, h2, h3⟩ := ih (max a b)
    refine ⟨(le_max_left _ _).trans h1, ?_, ?_⟩
    · intro x hx
      rcases List.mem_cons.1 hx with rfl | hx
      · exact (le_max_right _ _).trans h1
      · exact h2 x hx
    · rcases h3 with h3 | h3
      · rcases max_choice a b with h | h
        · left; rw [h3, h]
        · right; rw [h3, h]; exact List.mem_cons_self
      · right; exact List.mem_cons_of_mem _ h3

theorem listMean_bounds (l : List ℝ) (hl : l ≠ []) (a b : ℝ) (h : ∀ x ∈ l, a ≤ x ∧ x ≤ b) :
    a ≤ l.sum / l.length ∧ l.sum / l.length ≤ b := by
  have hpos : (0 : ℝ) < l.length := by exact_mod_cast List.length_pos_of_ne_nil hl
  rw [le_div_iff₀ hpos, div_le_iff₀ hpos]
  constructor
  · have := List.card_nsmul_le_sum l a (fun x hx => (h x hx).1)
    rw [nsmul_eq_mul] at this
    linarith
  · have := List.sum_le_card_nsmul l b (fun x hx => (h x hx).2)
    rw [nsmul_eq_mul] at this
    linarith

/-- **C113 (robust statistics).**  The mean metric lies between the bounds of the metrics and is unknown exactly when
there is no changepoint; it is the number whose multiple by the count is the total. -/
theorem C113_robust (metrics : List ℝ) :
    (robustFeatures metrics).1 = metrics.length ∧
      ((robustFeatures metrics).2 = none ↔ (robustFeatures metrics).1 = 0) ∧
      ∀ m, (robustFeatures metrics).2 = some m → m * metrics.length = metrics.sum ∧
        ∀ a b, (∀ x ∈ metrics, a ≤ x ∧ x ≤ b) → a ≤ m ∧ m ≤ b := by
  unfold robustFeatures
  dsimp only
  by_cases h : metrics.length = 0
  · simp [h]
  · have hne : metrics ≠ [] := fun e => h (by simp [e])
    have hpos : (metrics.length : ℝ) ≠ 0 := by exact_mod_cast h
    rw [if_neg h, foldl_add_real, zero_add]
    refine ⟨rfl, by simp [h], ?_⟩
    intro m hm
    injection hm with hm
    subst hm
    exact ⟨div_mul_cancel₀ _ hpos, fun a b hab => listMean_bounds _ hne a b hab⟩

example : robustFeatures [1, 3] = (2, some 2) := by norm_num [robustFeatures]

/-- **C113 (BOCPD).**  The largest confidence is that of a changepoint and at least that of each; the mean does not exceed
it and is the total over the number; without changepoints both are zero. -/
theorem C113_bocp (confs : List ℝ) :
    (bocpFeatures confs).1 = confs.length ∧
      (confs = [] → (bocpFeatures confs).2 = (0, 0)) ∧
      (confs ≠ [] → (bocpFeatures confs).2.1 ∈ confs ∧ (∀ x ∈ confs, x ≤ (bocpFeatures confs).2.1) ∧
        (bocpFeatures confs).2.2 * confs.length = confs.sum ∧ (bocpFeatures confs).2.2 ≤ (bocpFeatures confs).2.1 ∧
        ∀ a, (∀ x ∈ confs, a ≤ x) → a ≤ (bocpFeatures confs).2.2) := by
  refine ⟨rfl, by rintro rfl; simp [bocpFeatures], ?_⟩
  intro hne
  have hl : confs.length ≠ 0 := fun e => hne (List.eq_nil_of_length_eq_zero e)
  have hpos : (confs.length : ℝ) ≠ 0 := by exact_mod_cast hl
  unfold bocpFeatures
  dsimp only
  rw [if_neg hl, if_neg hl]
  obtain ⟨-, h2, h3⟩ := confs_max confs (confs.headD 0)
  have hh : confs.headD 0 ∈ confs := by
    cases confs with
    | nil => exact absurd rfl hne
    | cons a l => simp
  have hm : confs.foldl max (confs.headD 0) ∈ confs := by
    rcases h3 with h | h
    · rw [h]; exact hh
    · exact h
  refine ⟨hm, h2, div_mul_cancel₀ _ hpos, ?_, fun a ha => ?_⟩
  · have hb : ∃ a, ∀ x ∈ confs, a ≤ x := by
      refine ⟨-(confs.map fun x => |x|).sum, fun x hx => ?_⟩
      have h1 : |x| ≤ (confs.map fun x => |x|).sum :=
        List.single_le_sum (by intro y hy; obtain ⟨z, -, rfl⟩ := List.mem_map.1 hy; exact abs_nonneg z) _
          (List.mem_map.2 ⟨x, hx, rfl⟩)
      have := neg_abs_le x
      linarith
    obtain ⟨a, ha⟩ := hb
    exact (listMean_bounds confs hne a _ fun x hx => ⟨ha x hx, h2 x hx⟩).2
  · exact (listMean_bounds confs hne a _ fun x hx => ⟨ha x hx, h2 x hx⟩).1

example : bocpFeatures [1 / 2, 1] = (2, 1, 3 / 4) := by norm_num [bocpFeatures]

/-- **C113 (outliers).**  The count is the number of outliers of the first metric. -/
theorem C113_outlier (o : Option (List (List Int))) (n : Nat) :
    outlierNum o = some n ↔ ∃ l rest, o = some (l :: rest) ∧ l.length = n := by
  unfold outlierNum
  split
  · rename_i l r
    simp
  · rename_i h
    constructor
    · simp
    · rintro ⟨l, r, rfl, -⟩
      exact absurd rfl (h l r)

example : outlierNum (some [[3, 5]]) = some 2 := rfl

/-! ### Trends -/

theorem mkRun_tau (W : MkWorld) (c : MkCfg) (w : Nat) (f : MkFrame) (i : Nat) (s : MkStat) (h : mkRun W c w f i = .ok s)
    (ht : s.trend ≠ .noTrend) : c.threshold < |s.tau| := by
  have key : ∀ r : MkTest, applyThreshold c.threshold r ≠ .noTrend → c.threshold < |r.tau| := by
    intro r hr
    unfold applyThreshold at hr
    by_contra hc
    rw [if_pos (not_lt.1 hc)] at hr
    exact hr rfl
  unfold mkRun at h
  split at h
  · cases hr : W.multi (f.cols.map fun col => mkWindow w i col.2) with
    | error e => simp [hr, bind, Except.bind] at h
    | ok r =>
      simp only [hr, bind, Except.bind] at h
      split at h
      · simp at h
      · split at h
        · simp at h
        · simp only [pure, Except.pure, Except.ok.injEq] at h
          subst h
          exact key r ht
  · split at h
    · rename_i col t _ _
      cases hr : W.original (mkWindow w i col.2) with
      | error e => simp [hr, bind, Except.bind] at h
      | ok r =>
        simp only [hr, bind, Except.bind, pure, Except.pure, Except.ok.injEq] at h
        subst h
        exact key r ht
    · simp at h

theorem mkDetector_tau (W : MkWorld) (c : MkCfg) (times : List Int) (cols : List (String × List (Option ℝ))) (w : Nat)
    (freq : Option String) (pts : List MkPoint) (h : mkDetector W c times cols w none "both" freq = .ok pts) :
    ∀ q ∈ pts, c.threshold < |q.tau| := by
  have hdir := (C105_direction W c times cols w none freq pts h).2.2
  unfold mkDetector at h
  cases hk : mkChecks times.length w none with
  | error e => simp [hk, bind, Except.bind] at h
  | ok u =>
    cases hs : mkStatistics W c w none freq ⟨times, mkColumns cols⟩ with
    | error e => simp [hk, hs, bind, Except.bind] at h
    | ok stats =>
      simp only [hk, hs, bind, Except.bind] at h
      by_cases hz : c.multivariate = true ∧ stats = []
      · rw [hz.1, hz.2, mkResults_nil _ (by simp)] at h
        simp at h
      · rw [mkResults_both _ _ hz] at h
        simp only [pure, Except.pure, Except.ok.injEq] at h
        subst h
        intro q hq
        have hq2 := hdir q hq
        unfold mkPoints at hq
        obtain ⟨s, hsm, rfl⟩ := List.mem_map.1 hq
        have hsm := (List.mem_filter.1 hsm).1
        dsimp only at hq2 ⊢
        have hnt : s.trend ≠ .noTrend := by
          rcases hq2 with h | h <;> rw [h] <;> simp
        unfold mkStatistics at hs
        dsimp only at hs
        cases hsm2 : mkSmoothed W freq ⟨times, mkColumns cols⟩ with
        | error e => simp [hsm2, bind, Except.bind] at hs
        | ok sm =>
          simp only [hsm2, bind, Except.bind] at hs
          obtain ⟨i, -, hi⟩ := (mapM_ok_mem _ _ _ hs).2 s hsm
          exact mkRun_tau W c w sm i s hi hnt

theorem foldl_count (pts : List MkPoint) (k : Nat) :
    pts.foldl (fun k p => if p.trend = .increasing then k + 1 else k) k =
      k + (pts.filter fun q => decide (q.trend = .increasing)).length := by
  induction pts generalizing k with
  | nil => simp
  | cons p pts ih =>
    rw [List.foldl_cons, ih, List.filter_cons]
    by_cases h : p.trend = .increasing
    · simp [h]; omega
    · simp [h]

theorem foldl_tau (pts : List MkPoint) (s : ℝ) :
    pts.foldl (fun s p => s + |p.tau|) s = s + (pts.map fun p => |p.tau|).sum := by
  induction pts generalizing s with
  | nil => simp
  | cons p pts ih => rw [List.foldl_cons, ih, List.map_cons, List.sum_cons]; ring

/-- **C113 (trends).**  The number of increasing trends is the number of points the detector finds in the direction "up",
and the rest are those found in the direction "down"; the mean of the absolute values of Tau exceeds the threshold when
there is a trend, does not exceed 1 when Tau does not, and is zero without trends. -/
theorem C113_trend (W : MkWorld) (c : MkCfg) (times : List Int) (cols : List (String × List (Option ℝ))) (w : Nat)
    (freq : Option String) (pts : List MkPoint) (h : mkDetector W c times cols w none "both" freq = .ok pts) :
    ∃ up down, mkDetector W c times cols w none "up" freq = .ok up ∧ mkDetector W c times cols w none "down" freq = .ok down ∧
      (trendFeatures pts).2.1 = up.length ∧ (trendFeatures pts).1 = up.length + down.length ∧
      (pts = [] → (trendFeatures pts).2.2 = 0) ∧
      (pts ≠ [] → c.threshold < (trendFeatures pts).2.2 ∧
        (trendFeatures pts).2.2 * pts.length = (pts.map fun p => |p.tau|).sum ∧
        ((∀ p ∈ pts, |p.tau| ≤ 1) → (trendFeatures pts).2.2 ≤ 1)) := by
  obtain ⟨hu, hd, hi⟩ := C105_direction W c times cols w none freq pts h
  have htau := mkDetector_tau W c times cols w freq pts h
  refine ⟨_, _, hu, hd, ?_, ?_, ?_, ?_⟩
  · show pts.foldl _ 0 = _
    rw [foldl_count, zero_add]
  · show pts.length = _
    clear h hu hd htau
    induction pts with
    | nil => rfl
    | cons p pts ih =>
      rw [List.filter_cons, List.filter_cons, List.length_cons, ih fun q hq => hi q (List.mem_cons_of_mem _ hq)]
      rcases hi p List.mem_cons_self with h | h
      · simp [h]; omega
      · simp [h]; omega
  · rintro rfl
    simp [trendFeatures]
  · intro hne
    have hl : pts.length ≠ 0 := fun e => hne (List.eq_nil_of_length_eq_zero e)
    have hpos : (0 : ℝ) < pts.length := by exact_mod_cast Nat.pos_of_ne_zero hl
    unfold trendFeatures
    dsimp only
    rw [if_neg hl, foldl_tau, zero_add]
    refine ⟨?_, div_mul_cancel₀ _ hpos.ne', ?_⟩
    · rw [lt_div_iff₀ hpos]
      have : (pts.map fun _ => c.threshold).sum < (pts.map fun p => |p.tau|).sum :=
        List.sum_lt_sum_of_ne_nil hne _ _ fun p hp => htau p hp
      simpa [mul_comm] using this
    · intro h1
      have := (listMean_bounds (pts.map fun p => |p.tau|) (by simpa using hne) 0 1 (by
        intro x hx
        obtain ⟨p, hp, rfl⟩ := List.mem_map.1 hx
        exact ⟨abs_nonneg _, h1 p hp⟩)).2
      rwa [List.length_map] at this

example : trendFeatures [⟨0, 0, 1, false, .increasing, 1⟩, ⟨1, 1, 1, false, .decreasing, -1 / 2⟩] = (2, 1, 3 / 4) := by
  have : (MkTrend.decreasing = MkTrend.increasing) = False := by simp
  norm_num [trendFeatures, abs_div, this]

/-! ### Seasonalities -/

theorem npRound_near (x : ℝ) : |npRound x - x| ≤ 1 / 2 := by
  unfold npRound
  have h1 := Int.floor_le x
  have h2 := Int.lt_floor_add_one x
  split
  · rename_i h
    split
    · rw [abs_le]; constructor <;> linarith
    · rw [abs_le]; constructor <;> linarith
  · rw [abs_sub_comm]
    exact abs_sub_round x

/-- **C113 (seasonality magnitude).**  It is within a half of the difference of the 95th and 5th percentiles. -/
theorem C113_seasonality_partial (seasonal : List ℝ) :
    |seasonalityMag seasonal - (quantileR (95 / 100) seasonal - quantileR (5 / 100) seasonal)| ≤ 1 / 2 ∧
      ∃ k : Int, seasonalityMag seasonal = k := by
  refine ⟨npRound_near _, ?_⟩
  unfold seasonalityMag npRound
  split
  · split
    · exact ⟨_, rfl⟩
    · exact ⟨⌊quantileR (95 / 100) seasonal - quantileR (5 / 100) seasonal⌋ + 1, by push_cast; rfl⟩
  · exact ⟨_, rfl⟩

example : npRound (5 / 2) = 2 ∧ npRound (7 / 2) = 4 := by
  have h1 : ⌊(5 / 2 : ℝ)⌋ = 2 := by rw [Int.floor_eq_iff]; norm_num
  have h2 : ⌊(7 / 2 : ℝ)⌋ = 3 := by rw [Int.floor_eq_iff]; norm_num
  constructor
  · unfold npRound; rw [h1]; norm_num
  · unfold npRound; rw [h2]; norm_num

/-- **C113 (seasonality magnitude) is violated.**  The magnitude is documented as the difference of the percentiles; it is
rounded to a whole number, so that every seasonal component with values between 0 and 1/2 has magnitude 0. -/
theorem C113_seasonality_violated (seasonal : List ℝ) (hne : seasonal ≠ []) (h : ∀ x ∈ seasonal, 0 ≤ x ∧ x < 1 / 2)
    (hpos : 0 < quantileR (95 / 100) seasonal - quantileR (5 / 100) seasonal) :
    seasonalityMag seasonal = 0 ∧
      seasonalityMag seasonal ≠ quantileR (95 / 100) seasonal - quantileR (5 / 100) seasonal := by
  obtain ⟨h1, h2, h3⟩ := confs_max seasonal (seasonal.headD 0)
  have hm : seasonal.foldl max (seasonal.headD 0) ∈ seasonal := by
    rcases h3 with e | e
    · rw [e]
      cases seasonal with
      | nil => exact absurd rfl hne
      | cons a l => simp
    · exact e
  have hlt := (h _ hm).2
  have hu := quantile_le_max seasonal (95 / 100) _ h2 hne (by norm_num) (by norm_num)
  have hl := quantile_ge_min seasonal (5 / 100) 0 (fun y hy => (h y hy).1) hne (by norm_num) (by norm_num)
  have h0 : seasonalityMag seasonal = 0 := by
    unfold seasonalityMag
    have hd : quantileR (95 / 100) seasonal - quantileR (5 / 100) seasonal < 1 / 2 := by linarith
    generalize quantileR (95 / 100) seasonal - quantileR (5 / 100) seasonal = d at hpos hd ⊢
    have hf : ⌊d⌋ = 0 := by rw [Int.floor_eq_zero_iff]; exact ⟨hpos.le, by linarith⟩
    unfold npRound
    rw [hf, if_neg (by push_cast; intro e; linarith), round_eq_zero_iff.2 ⟨by linarith, hd⟩]
    simp
  exact ⟨h0, by rw [h0]; exact hpos.ne⟩

example : 0 < quantileR (95 / 100) [0, 1 / 4] - quantileR (5 / 100) [0, 1 / 4] := by
  have hs : ([0, 1 / 4] : List ℝ).insertionSort (· ≤ ·) = [0, 1 / 4] := by
    apply List.Pairwise.insertionSort_eq
    simp
  have h1 : ⌊(19 / 20 : ℝ)⌋₊ = 0 := by rw [Nat.floor_eq_zero]; norm_num
  have h2 : ⌊(1 / 20 : ℝ)⌋₊ = 0 := by rw [Nat.floor_eq_zero]; norm_num
  unfold quantileR
  rw [hs]
  norm_num [h1, h2]

theorem sum_sq_shift (l : List Nat) (d : Nat → ℝ) (m β : ℝ)
    (h : m * (l.map fun i : Nat => (i : ℝ) ^ 2).sum = (l.map fun i : Nat => (i : ℝ) * d i).sum) :
    (l.map fun i : Nat => (d i - i * β) ^ 2).sum =
      (l.map fun i : Nat => (d i - i * m) ^ 2).sum + (β - m) ^ 2 * (l.map fun i : Nat => (i : ℝ) ^ 2).sum := by
  have e : ∀ b : ℝ, (l.map fun i : Nat => (d i - i * b) ^ 2).sum = (l.map fun i : Nat => d i ^ 2).sum -
      2 * b * (l.map fun i : Nat => (i : ℝ) * d i).sum + b ^ 2 * (l.map fun i : Nat => (i : ℝ) ^ 2).sum := by
    intro b
    clear h
    induction l with
    | nil => simp
    | cons a l ih =>
      simp only [List.map_cons, List.sum_cons]
      rw [ih]
      ring
  rw [e β, e m, ← h]
  ring

theorem sum_sq_range_pos (n : Nat) (hn : 2 ≤ n) : 0 < ((List.range n).map fun i : Nat => (i : ℝ) ^ 2).sum := by
  have h : ((1 : Nat) : ℝ) ^ 2 ≤ ((List.range n).map fun i : Nat => (i : ℝ) ^ 2).sum :=
    List.single_le_sum (by intro y hy; obtain ⟨z, -, rfl⟩ := List.mem_map.1 hy; positivity) _
      (List.mem_map.2 ⟨1, List.mem_range.2 (by omega), rfl⟩)
  norm_num at h
  linarith

/-- **C113 (trend magnitude).**  It is the slope of the line through the first point with the least squared distance from
the trend; it is the slope of a straight trend. -/
theorem C113_trend_mag_partial (trend : List ℝ) (hn : 2 ≤ trend.length) :
    (∀ b, ((List.range trend.length).map fun i : Nat =>
        (trend.getD i 0 - trend.getD 0 0 - i * trendMag trend) ^ 2).sum ≤
      ((List.range trend.length).map fun i : Nat => (trend.getD i 0 - trend.getD 0 0 - i * b) ^ 2).sum ∧
      (((List.range trend.length).map fun i : Nat => (trend.getD i 0 - trend.getD 0 0 - i * b) ^ 2).sum =
        ((List.range trend.length).map fun i : Nat =>
          (trend.getD i 0 - trend.getD 0 0 - i * trendMag trend) ^ 2).sum → b = trendMag trend)) ∧
      ∀ a b : ℝ, (∀ i, i < trend.length → trend.getD i 0 = a + b * i) → trendMag trend = b := by
  have hpos := sum_sq_range_pos trend.length hn
  have hm : trendMag trend * ((List.range trend.length).map fun i : Nat => (i : ℝ) ^ 2).sum =
      ((List.range trend.length).map fun i : Nat => (i : ℝ) * (trend.getD i 0 - trend.getD 0 0)).sum :=
    div_mul_cancel₀ _ hpos.ne'
  constructor
  · intro b
    rw [sum_sq_shift _ (fun i : Nat => trend.getD i 0 - trend.getD 0 0) _ b hm]
    constructor
    · have := mul_nonneg (sq_nonneg (b - trendMag trend)) hpos.le
      linarith
    · intro h
      have h0 : (b - trendMag trend) ^ 2 * ((List.range trend.length).map fun i : Nat => (i : ℝ) ^ 2).sum = 0 := by
        linarith
      rcases mul_eq_zero.1 h0 with h1 | h1
      · have := pow_eq_zero_iff (two_ne_zero) |>.1 h1
        linarith
      · exact absurd h1 hpos.ne'
  · intro a b h
    unfold trendMag
    have : ((List.range trend.length).map fun i : Nat => (i : ℝ) * (trend.getD i 0 - trend.getD 0 0)) =
        (List.range trend.length).map fun i : Nat => b * (i : ℝ) ^ 2 := by
      apply List.map_congr_left
      intro i hi
      rw [h i (List.mem_range.1 hi), h 0 (by omega)]
      push_cast
      ring
    rw [this, List.sum_map_mul_left, mul_div_cancel_right₀ _ hpos.ne']

example : trendMag [1, 3, 5] = 2 := by norm_num [trendMag, List.range_succ]

/-- **C113 (trend magnitude) is violated.**  It is documented as the slope of a simple linear regression; for a trend that
rises and falls back the regression line is level, and the magnitude is not zero. -/
theorem C113_trend_mag_violated :
    trendMag [0, 1, 0] = 1 / 5 ∧
      ∀ a b : ℝ, (((List.range 3).map fun i : Nat => (([0, 1, 0] : List ℝ).getD i 0 - (1 / 3 + 0 * i)) ^ 2).sum ≤
        ((List.range 3).map fun i : Nat => (([0, 1, 0] : List ℝ).getD i 0 - (a + b * i)) ^ 2).sum) ∧
        (((List.range 3).map fun i : Nat => (([0, 1, 0] : List ℝ).getD i 0 - (a + b * i)) ^ 2).sum ≤
          ((List.range 3).map fun i : Nat => (([0, 1, 0] : List ℝ).getD i 0 - (1 / 3 + 0 * i)) ^ 2).sum → b = 0) := by
  constructor
  · norm_num [trendMag, List.range_succ]
  · intro a b
    norm_num [List.range_succ]
    constructor
    · nlinarith [sq_nonneg (a + b - 1 / 3), sq_nonneg b]
    · intro h
      nlinarith [sq_nonneg (a + b - 1 / 3), sq_nonneg b]

end Kats

import Verif.Model.Theta
import Verif.Lemmas.LeastSquares
import Verif.Props.PolyModel
import Verif.Props.TsStruct2
import Verif.Props.KatsEnsemble

/-!
# C116: the Theta model
-/

namespace Kats

open Classical

/-- C116, the test of seasonality: more than two seasons of data that are not all equal, and an autocorrelation at the
seasonal lag beyond 1.644 of its standard errors, which come from the autocorrelations at the shorter lags. -/
theorem C116_seasonality (m : Nat) (y : List ℝ) :
    thetaSeasonal m y = true ↔ 1 < m ∧ (¬ ∃ c, ∀ v ∈ y, v = c) ∧ 2 * m < y.length
      ∧ 1644 / 1000 * Real.sqrt ((1 + 2 * ∑ k ∈ Finset.Ioo 0 m, acfR y k ^ 2) / y.length) < |acfR y m| := by
  unfold thetaSeasonal
  rw [decide_eq_true_eq]
  have hne : (∃ u ∈ y, ∃ v ∈ y, u ≠ v) ↔ ¬ ∃ c, ∀ v ∈ y, v = c := by
    constructor
    · rintro ⟨u, hu, v, hv, h⟩ ⟨c, hc⟩
      exact h ((hc u hu).trans (hc v hv).symm)
    · intro h
      by_contra hcon
      push Not at hcon
      apply h
      cases y with
      | nil => exact ⟨0, by simp⟩
      | cons a l => exact ⟨a, fun v hv => hcon v hv a List.mem_cons_self⟩
  rw [hne]
  apply and_congr_right
  intro hm
  apply and_congr_right
  intro _
  apply and_congr_right
  intro hlen
  have hs : ((List.range (m - 1)).map fun i : Nat => (autoCov y (i + 1) / autoCov y 0) ^ 2).sum
      = ∑ k ∈ Finset.Ioo 0 m, acfR y k ^ 2 := by
    have e : Finset.Ioo 0 m = Finset.Ico (0 + 1) ((m - 1) + 1) := by
      ext k
      simp only [Finset.mem_Ioo, Finset.mem_Ico]
      omega
    rw [e, ← Finset.sum_Ico_add' (fun k => acfR y k ^ 2) 0 (m - 1) 1, ← Finset.range_eq_Ico, Finset.sum_range,
      ← List.sum_ofFn]
    congr 1
    apply List.ext_getElem
    · simp
    · intro i h1 h2
      simp [acfR]
  simp only [hs]
  have hpos : 0 < Real.sqrt ((1 + 2 * ∑ k ∈ Finset.Ioo 0 m, acfR y k ^ 2) / y.length) := by
    apply Real.sqrt_pos.2
    apply div_pos
    · have : 0 ≤ ∑ k ∈ Finset.Ioo 0 m, acfR y k ^ 2 := Finset.sum_nonneg fun k _ => sq_nonneg _
      linarith
    · exact_mod_cast (by omega : 0 < y.length)
  rw [abs_div, abs_of_pos hpos, lt_div_iff₀ hpos]
  rfl

theorem sesLevel_comb (a l1 l2 c d : ℝ) (y z : List ℝ) (h : y.length = z.length) :
    sesLevel a (c * l1 + d * l2) (List.zipWith (fun v w => c * v + d * w) y z)
      = c * sesLevel a l1 y + d * sesLevel a l2 z := by
  induction y generalizing z l1 l2 with
  | nil =>
    cases z with
    | nil => rfl
    | cons _ _ => simp at h
  | cons v y ih =>
    cases z with
    | nil => simp at h
    | cons w z =>
      have := ih (a * v + (1 - a) * l1) (a * w + (1 - a) * l2) z (by simpa using h)
      simp only [sesLevel, List.zipWith_cons_cons, List.foldl_cons] at this ⊢
      rw [← this]
      congr 1
      ring

theorem sesLevel_line (al a b : ℝ) (h : al ≠ 0) (n : Nat) :
    sesLevel al a ((List.range n).map fun i : Nat => a + b * (i : ℝ)) = a + b * n - b * ((1 - (1 - al) ^ n) / al) := by
  induction n with
  | zero => simp [sesLevel]
  | succ n ih =>
    rw [List.range_succ, List.map_append, List.map_cons, List.map_nil]
    unfold sesLevel at ih ⊢
    rw [List.foldl_append, ih]
    simp only [List.foldl_cons, List.foldl_nil]
    push_cast
    field_simp
    ring

/-- The second theta line of the data for the trend `a + b t`: twice the data less the trend. -/
noncomputable def thetaLine (a b : ℝ) (y : List ℝ) : List ℝ :=
  List.zipWith (fun v w => 2 * v - w) y ((List.range y.length).map fun i : Nat => a + b * (i : ℝ))

/-- The sum of squared deviations of the data from the line `a + b t`. -/
noncomputable def trendRss (a b : ℝ) (y : List ℝ) : ℝ :=
  ∑ i ∈ Finset.range y.length, (y.getD i 0 - (a + b * (i : ℝ))) ^ 2

/-- `a + b t` is the only line with the least sum of squared deviations. -/
def IsTrend (a b : ℝ) (y : List ℝ) : Prop :=
  ∀ a' b', trendRss a b y ≤ trendRss a' b' y ∧ (trendRss a' b' y = trendRss a b y → a' = a ∧ b' = b)

theorem theta_lstsq (pinv : List (List ℝ) → List ℝ → List ℝ) (y : List ℝ) (hn : 2 ≤ y.length) :
    ∃ a b, IsTrend a b y ∧ lstsq pinv ((List.range y.length).map fun i : Nat => [(i : ℝ), 1]) y = [b, a] := by
  obtain ⟨b, a, h1, h2⟩ := lstsq_line pinv 0 y hn
  refine ⟨a, b, ?_, ?_⟩
  · intro a' b'
    have := h2 b' a'
    unfold trendRss
    simp only [add_zero, add_comm _ a, add_comm _ a'] at this
    exact ⟨this.1, fun h => (this.2 h).symm⟩
  · rw [← h1]
    simp [lineRows]

/-- The trend part of the forecast is the mean of the trend line and the exponential smoothing of the second theta line. -/
theorem theta_identity (al l a b : ℝ) (h : al ≠ 0) (y : List ℝ) (i : Nat) :
    sesLevel al l y + b / 2 * ((i : ℝ) + (1 - (1 - al) ^ y.length) / al)
      = ((a + b * ((y.length + i : Nat) : ℝ)) + sesLevel al (2 * l - a) (thetaLine a b y)) / 2 := by
  have h1 := sesLevel_comb al l a 2 (-1) y ((List.range y.length).map fun i : Nat => a + b * (i : ℝ)) (by simp)
  have h2 : thetaLine a b y = List.zipWith (fun v w => 2 * v + -1 * w) y
      ((List.range y.length).map fun i : Nat => a + b * (i : ℝ)) := by
    unfold thetaLine
    congr 1
    funext v w
    ring
  rw [h2, show 2 * l - a = 2 * l + -1 * a by ring, h1, sesLevel_line al a b h]
  push_cast
  ring

theorem sesFitted_length (a l : ℝ) (y : List ℝ) : (sesFitted a l y).length = y.length := by
  induction y generalizing l with
  | nil => rfl
  | cons v y ih => simp [sesFitted, ih]

theorem sesFitted_getElem (a l : ℝ) (y : List ℝ) (i : Nat) (hi : i < (sesFitted a l y).length) :
    (sesFitted a l y)[i] = sesLevel a l (y.take i) := by
  induction y generalizing l i with
  | nil => simp [sesFitted] at hi
  | cons v y ih =>
    cases i with
    | zero => rfl
    | succ i =>
      have := ih (a * v + (1 - a) * l) i (by simpa [sesFitted] using hi)
      simpa [sesFitted, sesLevel] using this

theorem theta_tile (d : List ℝ) (m steps : Nat) (hm : 0 < m) (hd : m ≤ d.length) :
    (((List.replicate (1 + steps / m) (d.drop (d.length - m))).flatten).take steps)
      = (List.range steps).map fun i : Nat => d.getD (d.length - m + i % m) 0 := by
  have hu : (d.drop (d.length - m)).length = m := by rw [List.length_drop]; omega
  have hlen : ((List.replicate (1 + steps / m) (d.drop (d.length - m))).flatten).length = (1 + steps / m) * m := by
    rw [List.length_flatten, List.map_replicate, List.sum_replicate, hu, smul_eq_mul]
  have hge : steps ≤ (1 + steps / m) * m := by
    have h1 := Nat.div_add_mod steps m
    have h2 := Nat.mod_lt steps hm
    have : (1 + steps / m) * m = m + m * (steps / m) := by ring
    omega
  apply List.ext_getElem
  · rw [List.length_take, hlen, List.length_map, List.length_range]
    omega
  · intro i h1 h2
    have hi : i < steps := by simpa using h2
    rw [List.getElem_take, List.getElem_map, List.getElem_range]
    have hmod := Nat.mod_lt i hm
    have := tile_getElem (d.drop (d.length - m)) (by omega) (1 + steps / m) i (by rw [hu]; omega)
    rw [List.getElem?_eq_getElem (by rw [hlen]; omega), List.getElem?_drop, hu,
      List.getElem?_eq_getElem (by omega)] at this
    rw [List.getD_eq_getElem _ _ (by omega)]
    exact Option.some.inj this

theorem thetaForecast_eq (m : Nat) (s : ThetaFitted) (steps : Nat)
    (hd : s.seasonal = true → 0 < m ∧ m ≤ (s.decomp.getD []).length) :
    thetaForecast m s steps = (List.range steps).map fun i : Nat => thetaTrend s i
      * (if s.seasonal then (s.decomp.getD []).getD ((s.decomp.getD []).length - m + i % m) 0 else 1) := by
  unfold thetaForecast
  by_cases h : s.seasonal = true
  · simp only [h, if_true]
    rw [theta_tile _ m steps (hd h).1 (hd h).2, List.zipWith_map, List.zipWith_self]
  · simp only [h]
    simp

/-- All columns of a run. -/
theorem thetaRun_columns (W : ThetaWorld) (m : Nat) (f : DateFreq) (hf : ∀ t, t < f.next t) (times : List Int)
    (y : List ℝ) (hr : f.roll (lastDate times) = lastDate times) (ht : times.length = y.length) (steps : Nat)
    (hist : Bool) (alpha : ℝ) (hfit : (thetaFit W m y).fitted.length = y.length)
    (hd : thetaSeasonal m y = true → 0 < m ∧ m ≤ ((thetaFit W m y).decomp.getD []).length) :
    ∃ out, thetaRun W m f times y steps hist alpha = .ok out
      ∧ out.map (·.time) = (if hist then times else [])
          ++ (List.range steps).map (fun i => f.next^[i + 1] (lastDate times))
      ∧ out.map (fun r => (r.fcst, r.lower, r.upper))
        = (if hist then (thetaFit W m y).fitted.map (fun v : ℝ => (v,
            (thetaSigma (thetaFit W m y)).map (fun sg => v - -W.ppf (alpha / 2) * sg),
            (thetaSigma (thetaFit W m y)).map (fun sg => v + -W.ppf (alpha / 2) * sg))) else [])
          ++ (List.range steps).map fun i : Nat => ((thetaForecast m (thetaFit W m y) steps).getD i 0,
            (thetaMargin W.ppf alpha (thetaFit W m y) i).map ((thetaForecast m (thetaFit W m y) steps).getD i 0 - ·),
            (thetaMargin W.ppf alpha (thetaFit W m y) i).map ((thetaForecast m (thetaFit W m y) steps).getD i 0 + ·)) := by
  obtain ⟨d1, d2, -, -⟩ := C78_dates_partial f hf (lastDate times) hr steps
  obtain ⟨s, hs⟩ : ∃ s, s = thetaFit W m y := ⟨_, rfl⟩
  have hseas : s.seasonal = thetaSeasonal m y := by rw [hs]; rfl
  have hlen : (thetaForecast m s steps).length = steps := by
    rw [thetaForecast_eq m s steps (by rw [hseas, hs]; exact hd)]
    simp
  have hfut : List.zipWith (fun (v : ℝ) i => (v, (thetaMargin W.ppf alpha s i).map (v - ·),
      (thetaMargin W.ppf alpha s i).map (v + ·))) (thetaForecast m s steps) (List.range steps)
      = (List.range steps).map fun i : Nat => ((thetaForecast m s steps).getD i 0,
            (thetaMargin W.ppf alpha s i).map ((thetaForecast m s steps).getD i 0 - ·),
            (thetaMargin W.ppf alpha s i).map ((thetaForecast m s steps).getD i 0 + ·)) := by
    apply List.ext_getElem
    · simp [hlen]
    · intro i h1 h2
      have hi : i < steps := by simpa using h2
      rw [List.getElem_zipWith, List.getElem_map, List.getElem_range, List.getD_eq_getElem _ _ (by omega)]
  unfold thetaRun thetaPredict
  rw [← hs]
  simp only
  rw [hfut]
  rw [← hs] at hfit
  have hcols : (polyDates f times steps hist).length = (if hist then s.fitted.map (fun v : ℝ => (v,
      ((thetaSigma s).map fun sg => -W.ppf (alpha / 2) * sg).map (v - ·),
      ((thetaSigma s).map fun sg => -W.ppf (alpha / 2) * sg).map (v + ·)))
      ++ (List.range steps).map (fun i : Nat => ((thetaForecast m s steps).getD i 0,
            (thetaMargin W.ppf alpha s i).map ((thetaForecast m s steps).getD i 0 - ·),
            (thetaMargin W.ppf alpha s i).map ((thetaForecast m s steps).getD i 0 + ·)))
      else (List.range steps).map fun i : Nat => ((thetaForecast m s steps).getD i 0,
            (thetaMargin W.ppf alpha s i).map ((thetaForecast m s steps).getD i 0 - ·),
            (thetaMargin W.ppf alpha s i).map ((thetaForecast m s steps).getD i 0 + ·))).length := by
    cases hist <;> simp [polyDates, d2, hfit, ht]
  unfold mkFcst
  rw [if_pos hcols]
  refine ⟨_, rfl, ?_, ?_⟩
  · rw [List.map_map]
    refine Eq.trans (List.map_congr_left (g := Prod.fst) fun r _ => rfl) ?_
    rw [List.map_fst_zip hcols.le, polyDates, d1]
    cases hist <;> rfl
  · rw [List.map_map]
    refine Eq.trans (List.map_congr_left (g := Prod.snd) fun r _ => rfl) ?_
    rw [List.map_snd_zip hcols.ge]
    cases hist
    · simp
    · simp [Option.map_map, Function.comp_def]

/-- The trend part for any run: `d` are the data that are smoothed. -/
theorem thetaTrend_eq (W : ThetaWorld) (m : Nat) (y d : List ℝ) (hd : (thetaDeseason W m y).1 = d)
    (hl : d.length = y.length) (hn : 2 ≤ y.length) (ha : 1 / 10 ^ 10 ≤ (W.sesParams d).1) :
    ∃ a b, IsTrend a b d ∧ ∀ i, thetaTrend (thetaFit W m y) i
      = ((a + b * ((y.length + i : Nat) : ℝ))
        + sesLevel (W.sesParams d).1 (2 * (W.sesParams d).2 - a) (thetaLine a b d)) / 2 := by
  obtain ⟨a, b, h1, h2⟩ := theta_lstsq W.pinv d (by omega)
  refine ⟨a, b, h1, fun i => ?_⟩
  have hpos : (W.sesParams d).1 ≠ 0 := by
    have : (0 : ℝ) < 1 / 10 ^ 10 := by positivity
    linarith
  rw [← hl, ← theta_identity _ _ a b hpos d i]
  unfold thetaTrend thetaFit
  simp only [hd, max_eq_right ha]
  rw [← hl, h2]
  simp

theorem thetaDeseason_off (W : ThetaWorld) (m : Nat) (y : List ℝ) (h : thetaSeasonal m y = false) :
    thetaDeseason W m y = (y, none) := by
  unfold thetaDeseason
  rw [h]
  simp

theorem thetaDeseason_on (W : ThetaWorld) (m : Nat) (y : List ℝ) (h : thetaSeasonal m y = true)
    (hz : ∀ v ∈ W.seasonal y, 1 / 10 ^ 10 ≤ |v|) :
    thetaDeseason W m y = (List.zipWith (· / ·) y (W.seasonal y), some (W.seasonal y)) := by
  unfold thetaDeseason
  rw [if_pos h]
  have : zeroSeasonal (W.seasonal y) = false := by
    unfold zeroSeasonal
    rw [List.any_eq_false]
    intro v hv
    rw [decide_eq_true_eq, not_lt]
    exact hz v hv
  simp [this]

theorem thetaDeseason_zero (W : ThetaWorld) (m : Nat) (y : List ℝ) (h : thetaSeasonal m y = true)
    (hz : ∃ v ∈ W.seasonal y, |v| < 1 / 10 ^ 10) :
    thetaDeseason W m y = (y, some (W.seasonal y)) := by
  unfold thetaDeseason
  rw [if_pos h]
  have : zeroSeasonal (W.seasonal y) = true := by
    unfold zeroSeasonal
    rw [List.any_eq_true]
    obtain ⟨v, hv, h⟩ := hz
    exact ⟨v, hv, by rw [decide_eq_true_eq]; exact h⟩
  simp [this]

theorem thetaFit_fitted_off (W : ThetaWorld) (m : Nat) (y : List ℝ) (h : thetaSeasonal m y = false) :
    (thetaFit W m y).fitted = sesFitted (W.sesParams y).1 (W.sesParams y).2 y := by
  unfold thetaFit
  simp only [thetaDeseason_off W m y h, h]
  simp

theorem thetaFit_fitted_on (W : ThetaWorld) (m : Nat) (y d s : List ℝ) (h : thetaSeasonal m y = true)
    (hd : thetaDeseason W m y = (d, some s)) :
    (thetaFit W m y).fitted = List.zipWith (· * ·) (sesFitted (W.sesParams d).1 (W.sesParams d).2 d) s
    ∧ (thetaFit W m y).decomp.getD [] = s ∧ (thetaFit W m y).seasonal = true := by
  unfold thetaFit
  simp [hd, h]

/-- C116, the forecast of a series without season: every forecast is the mean of the least squares line, extended
to that step, and the simple exponential smoothing of the second theta line (twice the data less the line), which is
the definition of the Theta method; the forecasts are at the dates after the data.  With the history, the fitted
values are the smoothed levels before each point, at the times of the data. -/
theorem C116_forecast_partial (W : ThetaWorld) (m : Nat) (f : DateFreq) (hf : ∀ t, t < f.next t) (times : List Int)
    (y : List ℝ) (hr : f.roll (lastDate times) = lastDate times) (ht : times.length = y.length) (hn : 2 ≤ y.length)
    (hs : thetaSeasonal m y = false) (al l : ℝ) (hp : W.sesParams y = (al, l)) (ha : 1 / 10 ^ 10 ≤ al) (alpha : ℝ) :
    ∃ a b, IsTrend a b y ∧ ∀ steps hist, ∃ out, thetaRun W m f times y steps hist alpha = .ok out
      ∧ out.map (·.time) = (if hist then times else [])
          ++ (List.range steps).map (fun i => f.next^[i + 1] (lastDate times))
      ∧ out.map (·.fcst) = (if hist then (List.range y.length).map (fun i => sesLevel al l (y.take i)) else [])
          ++ (List.range steps).map fun i : Nat =>
            ((a + b * ((y.length + i : Nat) : ℝ)) + sesLevel al (2 * l - a) (thetaLine a b y)) / 2 := by
  obtain ⟨a, b, h1, h2⟩ := thetaTrend_eq W m y y (by rw [thetaDeseason_off W m y hs]) rfl hn (by rw [hp]; exact ha)
  refine ⟨a, b, h1, fun steps hist => ?_⟩
  have hfit := thetaFit_fitted_off W m y hs
  have hseas : (thetaFit W m y).seasonal = false := hs
  obtain ⟨out, o1, o2, o3⟩ := thetaRun_columns W m f hf times y hr ht steps hist alpha
    (by rw [hfit, sesFitted_length]) (fun h => by rw [hs] at h; cases h)
  refine ⟨out, o1, o2, ?_⟩
  have o4 := congrArg (List.map Prod.fst) o3
  rw [List.map_map, List.map_append, List.map_map] at o4
  refine Eq.trans o4 ?_
  congr 1
  · cases hist
    · rfl
    · simp only [if_true]
      rw [List.map_map, hfit, hp]
      apply List.ext_getElem
      · simp [sesFitted_length]
      · intro i h1 h2
        simp [sesFitted_getElem]
  · apply List.map_congr_left
    intro i hi
    simp only [Function.comp_apply]
    rw [thetaForecast_eq _ _ _ (by rw [hseas]; intro h; cases h), hseas,
      List.getD_eq_getElem _ _ (by simpa using List.mem_range.1 hi), List.getElem_map, List.getElem_range, h2, hp]
    simp

/-- The forecasts and fitted values of a series with season. -/
theorem theta_seasonal_columns (W : ThetaWorld) (m : Nat) (f : DateFreq) (hf : ∀ t, t < f.next t) (times : List Int)
    (y d : List ℝ) (hr : f.roll (lastDate times) = lastDate times) (ht : times.length = y.length)
    (hs : thetaSeasonal m y = true) (hd : thetaDeseason W m y = (d, some (W.seasonal y))) (hdl : d.length = y.length)
    (hsl : (W.seasonal y).length = y.length) (al l : ℝ) (hp : W.sesParams d = (al, l)) (ha : 1 / 10 ^ 10 ≤ al) (alpha : ℝ) :
    ∃ a b, IsTrend a b d ∧ ∀ steps hist, ∃ out, thetaRun W m f times y steps hist alpha = .ok out
      ∧ out.map (·.time) = (if hist then times else [])
          ++ (List.range steps).map (fun i => f.next^[i + 1] (lastDate times))
      ∧ out.map (·.fcst) = (if hist then (List.range y.length).map (fun i => sesLevel al l (d.take i)
            * (W.seasonal y).getD i 0) else [])
          ++ (List.range steps).map fun i : Nat =>
            ((a + b * ((y.length + i : Nat) : ℝ)) + sesLevel al (2 * l - a) (thetaLine a b d)) / 2
              * (W.seasonal y).getD (y.length - m + i % m) 0 := by
  obtain ⟨hm1, -, hm2, -⟩ := (C116_seasonality m y).1 hs
  obtain ⟨a, b, h1, h2⟩ := thetaTrend_eq W m y d (by rw [hd]) hdl (by omega) (by rw [hp]; exact ha)
  refine ⟨a, b, h1, fun steps hist => ?_⟩
  obtain ⟨hfit, hdec, hseas⟩ := thetaFit_fitted_on W m y d _ hs hd
  obtain ⟨out, o1, o2, o3⟩ := thetaRun_columns W m f hf times y hr ht steps hist alpha
    (by rw [hfit]; simp [sesFitted_length, hdl, hsl]) (fun _ => by rw [hdec, hsl]; omega)
  refine ⟨out, o1, o2, ?_⟩
  have o4 := congrArg (List.map Prod.fst) o3
  rw [List.map_map, List.map_append, List.map_map] at o4
  refine Eq.trans o4 ?_
  congr 1
  · cases hist
    · rfl
    · simp only [if_true]
      rw [List.map_map, hfit, hp]
      apply List.ext_getElem
      · simp [sesFitted_length, hdl, hsl]
      · intro i h1 h2
        have hi : i < y.length := by simpa using h2
        simp only [List.getElem_map, List.getElem_range, Function.comp_apply, List.getElem_zipWith, sesFitted_getElem]
        rw [List.getD_eq_getElem _ _ (by omega)]
  · apply List.map_congr_left
    intro i hi
    simp only [Function.comp_apply]
    rw [thetaForecast_eq _ _ _ (by rw [hdec, hsl]; omega), hseas, hdec, hsl,
      List.getD_eq_getElem _ _ (by simpa using List.mem_range.1 hi), List.getElem_map, List.getElem_range, h2, hp]
    simp

/-- C116, the forecast of a seasonal series without zero seasonal values: the Theta method on the data divided by
the season, times the last `m` seasonal values over and over; the fitted values get the season of their own point. -/
theorem C116_seasonal_partial (W : ThetaWorld) (m : Nat) (f : DateFreq) (hf : ∀ t, t < f.next t) (times : List Int)
    (y : List ℝ) (hr : f.roll (lastDate times) = lastDate times) (ht : times.length = y.length)
    (hs : thetaSeasonal m y = true) (hsl : (W.seasonal y).length = y.length)
    (hz : ∀ v ∈ W.seasonal y, 1 / 10 ^ 10 ≤ |v|) (al l : ℝ)
    (hp : W.sesParams (List.zipWith (· / ·) y (W.seasonal y)) = (al, l)) (ha : 1 / 10 ^ 10 ≤ al) (alpha : ℝ) :
    ∃ a b, IsTrend a b (List.zipWith (· / ·) y (W.seasonal y))
      ∧ ∀ steps hist, ∃ out, thetaRun W m f times y steps hist alpha = .ok out
      ∧ out.map (·.time) = (if hist then times else [])
          ++ (List.range steps).map (fun i => f.next^[i + 1] (lastDate times))
      ∧ out.map (·.fcst) = (if hist then (List.range y.length).map (fun i =>
            sesLevel al l ((List.zipWith (· / ·) y (W.seasonal y)).take i) * (W.seasonal y).getD i 0) else [])
          ++ (List.range steps).map fun i : Nat =>
            ((a + b * ((y.length + i : Nat) : ℝ))
              + sesLevel al (2 * l - a) (thetaLine a b (List.zipWith (· / ·) y (W.seasonal y)))) / 2
              * (W.seasonal y).getD (y.length - m + i % m) 0 :=
  theta_seasonal_columns W m f hf times y _ hr ht hs (thetaDeseason_on W m y hs hz) (by simp [hsl]) hsl al l hp ha alpha

/-- C116 is violated when a seasonal value is zero: the log announces the non-seasonal method and the data are not
divided by the season, but forecasts and fitted values are still multiplied by it; a zero in the last season gives
forecasts of zero. -/
theorem C116_zero_violated (W : ThetaWorld) (m : Nat) (f : DateFreq) (hf : ∀ t, t < f.next t) (times : List Int)
    (y : List ℝ) (hr : f.roll (lastDate times) = lastDate times) (ht : times.length = y.length)
    (hs : thetaSeasonal m y = true) (hsl : (W.seasonal y).length = y.length) (j : Nat) (hj : j < m)
    (hz : (W.seasonal y).getD (y.length - m + j) 0 = 0) (al l : ℝ) (hp : W.sesParams y = (al, l))
    (ha : 1 / 10 ^ 10 ≤ al) (alpha : ℝ) :
    ∃ a b, IsTrend a b y ∧ ∀ steps, ∃ out, thetaRun W m f times y steps false alpha = .ok out
      ∧ out.map (·.fcst) = (List.range steps).map (fun i : Nat =>
            ((a + b * ((y.length + i : Nat) : ℝ)) + sesLevel al (2 * l - a) (thetaLine a b y)) / 2
              * (W.seasonal y).getD (y.length - m + i % m) 0)
      ∧ ∀ i (hi : i < out.length), i % m = j → out[i].fcst = 0 := by
  obtain ⟨hm1, -, hm2, -⟩ := (C116_seasonality m y).1 hs
  have hd := thetaDeseason_zero W m y hs ⟨_, List.getElem_mem (l := W.seasonal y) (n := y.length - m + j) (by omega), by
    rw [List.getD_eq_getElem _ _ (by omega)] at hz
    rw [hz]
    norm_num⟩
  obtain ⟨a, b, h1, h2⟩ := theta_seasonal_columns W m f hf times y y hr ht hs hd rfl hsl al l hp ha alpha
  refine ⟨a, b, h1, fun steps => ?_⟩
  obtain ⟨out, o1, -, o3⟩ := h2 steps false
  rw [if_neg (by simp), List.nil_append] at o3
  refine ⟨out, o1, o3, ?_⟩
  intro i hi hij
  have hlen : out.length = steps := by
    have := congrArg List.length o3
    simpa using this
  have := congrArg (fun q => q.getD i 0) o3
  rw [List.getD_eq_getElem _ _ (by simpa using hi), List.getD_eq_getElem _ _ (by simpa using (hi.trans_eq hlen)),
    List.getElem_map, List.getElem_map, List.getElem_range, hij, hz, mul_zero] at this
  exact this

/-- C116, the intervals: for more than two points every bound of step `i` (from 0) lies
`z * sigma * sqrt(1 + i * level²)` from the forecast, where `sigma²` is the sum of the squared errors of the smoothing
over `n - 2` and `z` the upper quantile; so intervals contain the forecast and do not get narrower. -/
theorem C116_interval_partial (W : ThetaWorld) (m : Nat) (f : DateFreq) (hf : ∀ t, t < f.next t) (times : List Int)
    (y : List ℝ) (hr : f.roll (lastDate times) = lastDate times) (ht : times.length = y.length) (hn : 3 ≤ y.length)
    (hs : thetaSeasonal m y = false) (al l : ℝ) (hp : W.sesParams y = (al, l)) (ha : 1 / 10 ^ 10 ≤ al) (alpha : ℝ)
    (hz : W.ppf (alpha / 2) ≤ 0) (steps : Nat) :
    ∃ out, thetaRun W m f times y steps false alpha = .ok out ∧ out.length = steps
      ∧ ∃ w : Nat → ℝ, (∀ i, w i = -W.ppf (alpha / 2) * (Real.sqrt ((∑ j ∈ Finset.range y.length,
            (y.getD j 0 - sesLevel al l (y.take j)) ^ 2) / ((y.length : ℝ) - 2)) * Real.sqrt (1 + (i : ℝ) * al ^ 2)))
        ∧ (∀ i (hi : i < out.length), out[i].lower = some (out[i].fcst - w i) ∧ out[i].upper = some (out[i].fcst + w i))
        ∧ (∀ i, 0 ≤ w i) ∧ ∀ i j, i ≤ j → w i ≤ w j := by
  have hfit := thetaFit_fitted_off W m y hs
  obtain ⟨out, o1, -, o3⟩ := thetaRun_columns W m f hf times y hr ht steps false alpha
    (by rw [hfit, sesFitted_length]) (fun h => by rw [hs] at h; cases h)
  rw [if_neg (by simp), List.nil_append] at o3
  have hlen : out.length = steps := by
    have := congrArg List.length o3
    simpa using this
  have hsse : (thetaFit W m y).sse = ∑ j ∈ Finset.range y.length, (y.getD j 0 - sesLevel al l (y.take j)) ^ 2 := by
    have : (thetaFit W m y).sse = sesSse al l y := by
      unfold thetaFit
      simp only [thetaDeseason_off W m y hs, hp]
    rw [this, sesSse, Finset.sum_range, ← List.sum_ofFn]
    congr 1
    apply List.ext_getElem
    · simp [sesFitted_length]
    · intro i h1 h2
      have hi : i < y.length := by simpa using h2
      rw [List.getElem_zipWith, sesFitted_getElem, List.getElem_ofFn]
      simp only
      rw [List.getD_eq_getElem _ _ hi]
  have hlev : (thetaFit W m y).level = al := by
    unfold thetaFit
    simp only [thetaDeseason_off W m y hs, hp]
  refine ⟨out, o1, hlen, _, fun i => rfl, ?_, ?_, ?_⟩
  · intro i hi
    have hm : thetaMargin W.ppf alpha (thetaFit W m y) i = some (-W.ppf (alpha / 2) * (Real.sqrt ((∑ j ∈ Finset.range y.length,
            (y.getD j 0 - sesLevel al l (y.take j)) ^ 2) / ((y.length : ℝ) - 2)) * Real.sqrt (1 + (i : ℝ) * al ^ 2))) := by
      unfold thetaMargin thetaSigma
      have hnn : (thetaFit W m y).n = y.length := rfl
      rw [hnn, if_neg (by omega), hsse, hlev, max_eq_right ha, Option.map_some, add_comm ((i : ℝ) * al ^ 2)]
    have h1 := List.getElem_of_eq o3 (i := i) (by simpa using hi)
    rw [List.getElem_map, List.getElem_map, List.getElem_range, hm] at h1
    obtain ⟨e1, e2⟩ := Prod.mk.inj h1
    obtain ⟨e2, e3⟩ := Prod.mk.inj e2
    rw [e2, e3, e1]
    exact ⟨rfl, rfl⟩
  · intro i
    exact mul_nonneg (by linarith) (mul_nonneg (Real.sqrt_nonneg _) (Real.sqrt_nonneg _))
  · intro i j hij
    apply mul_le_mul_of_nonneg_left _ (by linarith)
    apply mul_le_mul_of_nonneg_left _ (Real.sqrt_nonneg _)
    apply Real.sqrt_le_sqrt
    have : (i : ℝ) ≤ j := by exact_mod_cast hij
    have := mul_le_mul_of_nonneg_right this (sq_nonneg al)
    linarith

/-- C116, the history: with more than two points every fitted value has bounds at the distance `z * sigma`, the one of
the first step, and the residuals are the data less the fitted values. -/
theorem C116_history_partial (W : ThetaWorld) (m : Nat) (f : DateFreq) (hf : ∀ t, t < f.next t) (times : List Int)
    (y : List ℝ) (hr : f.roll (lastDate times) = lastDate times) (ht : times.length = y.length) (hn : 3 ≤ y.length)
    (hs : thetaSeasonal m y = false) (al l : ℝ) (hp : W.sesParams y = (al, l)) (alpha : ℝ) (steps : Nat) :
    (∃ out, thetaRun W m f times y steps true alpha = .ok out ∧ ∀ i (_ : i < y.length) (hi : i < out.length),
      out[i].fcst = sesLevel al l (y.take i)
      ∧ ∃ w, w = -W.ppf (alpha / 2) * Real.sqrt ((∑ j ∈ Finset.range y.length,
            (y.getD j 0 - sesLevel al l (y.take j)) ^ 2) / ((y.length : ℝ) - 2))
        ∧ out[i].lower = some (out[i].fcst - w) ∧ out[i].upper = some (out[i].fcst + w))
    ∧ (thetaFit W m y).residuals = (List.range y.length).map fun i => y.getD i 0 - sesLevel al l (y.take i) := by
  have hfit := thetaFit_fitted_off W m y hs
  have hres : (thetaFit W m y).residuals = List.zipWith (· - ·) y (thetaFit W m y).fitted := rfl
  obtain ⟨out, o1, -, o3⟩ := thetaRun_columns W m f hf times y hr ht steps true alpha
    (by rw [hfit, sesFitted_length]) (fun h => by rw [hs] at h; cases h)
  rw [if_pos rfl] at o3
  have hsse : (thetaFit W m y).sse = ∑ j ∈ Finset.range y.length, (y.getD j 0 - sesLevel al l (y.take j)) ^ 2 := by
    have : (thetaFit W m y).sse = sesSse al l y := by
      unfold thetaFit
      simp only [thetaDeseason_off W m y hs, hp]
    rw [this, sesSse, Finset.sum_range, ← List.sum_ofFn]
    congr 1
    apply List.ext_getElem
    · simp [sesFitted_length]
    · intro i h1 h2
      have hi : i < y.length := by simpa using h2
      rw [List.getElem_zipWith, sesFitted_getElem, List.getElem_ofFn]
      simp only
      rw [List.getD_eq_getElem _ _ hi]
  constructor
  · refine ⟨out, o1, ?_⟩
    intro i hin hi
    have hsig : thetaSigma (thetaFit W m y) = some (Real.sqrt ((∑ j ∈ Finset.range y.length,
            (y.getD j 0 - sesLevel al l (y.take j)) ^ 2) / ((y.length : ℝ) - 2))) := by
      unfold thetaSigma
      have hnn : (thetaFit W m y).n = y.length := rfl
      rw [hnn, if_neg (by omega), hsse]
    have h1 := List.getElem_of_eq o3 (i := i) (by simpa using hi)
    rw [List.getElem_append_left (by simpa [hfit, sesFitted_length] using hin), List.getElem_map, List.getElem_map, hsig] at h1
    obtain ⟨e1, e2⟩ := Prod.mk.inj h1
    obtain ⟨e2, e3⟩ := Prod.mk.inj e2
    refine ⟨?_, _, rfl, ?_, ?_⟩
    · rw [e1]
      simp only [hfit, hp, sesFitted_getElem]
    · rw [e2, e1]
      rfl
    · rw [e3, e1]
      rfl
  · rw [hres, hfit, hp]
    apply List.ext_getElem
    · simp [sesFitted_length]
    · intro i h1 h2
      have hi : i < y.length := by simpa using h2
      rw [List.getElem_zipWith, sesFitted_getElem, List.getElem_map, List.getElem_range, List.getD_eq_getElem _ _ hi]

theorem notSeasonal_one (y : List ℝ) : thetaSeasonal 1 y = false := by
  apply Bool.eq_false_iff.2
  intro h
  have := (C116_seasonality 1 y).1 h
  omega

/-- The hypotheses of `C116_forecast_partial`, `C116_interval_partial` and `C116_history_partial` hold for three daily points. -/
example : ∃ W : ThetaWorld, ∃ a b, IsTrend a b [1, 2, 4] ∧ ∃ out, thetaRun W 1 dailyFreq [0, 1, 2] [1, 2, 4] 2 false (1 / 20) = .ok out
    ∧ out.map (·.time) = [3, 4] := by
  refine ⟨⟨fun _ => (1 / 2, 1), id, fun _ => -2, fun _ _ => []⟩, ?_⟩
  obtain ⟨a, b, h1, h2⟩ := C116_forecast_partial ⟨fun _ => (1 / 2, 1), id, fun _ => -2, fun _ _ => []⟩ 1 dailyFreq
    (fun t => Int.lt_succ t) [0, 1, 2] [1, 2, 4] rfl rfl (by simp) (notSeasonal_one _) (1 / 2) 1 rfl (by norm_num) (1 / 20)
  obtain ⟨out, o1, o2, -⟩ := h2 2 false
  exact ⟨a, b, h1, out, o1, o2.trans (by decide)⟩

example : ∃ W : ThetaWorld, ∃ out, thetaRun W 1 dailyFreq [0, 1, 2] [1, 2, 4] 2 false (1 / 20) = .ok out ∧ out.length = 2 := by
  refine ⟨⟨fun _ => (1 / 2, 1), id, fun _ => -2, fun _ _ => []⟩, ?_⟩
  obtain ⟨out, o1, o2, -⟩ := C116_interval_partial ⟨fun _ => (1 / 2, 1), id, fun _ => -2, fun _ _ => []⟩ 1 dailyFreq
    (fun t => Int.lt_succ t) [0, 1, 2] [1, 2, 4] rfl rfl (by simp) (notSeasonal_one _) (1 / 2) 1 rfl (by norm_num) (1 / 20)
    (by norm_num) 2
  exact ⟨out, o1, o2⟩

example : ∃ W : ThetaWorld, (thetaFit W 1 [1, 2, 4]).residuals = [0, 1, 5 / 2] := by
  refine ⟨⟨fun _ => (1 / 2, 1), id, fun _ => -2, fun _ _ => []⟩, ?_⟩
  obtain ⟨-, h⟩ := C116_history_partial ⟨fun _ => (1 / 2, 1), id, fun _ => -2, fun _ _ => []⟩ 1 dailyFreq
    (fun t => Int.lt_succ t) [0, 1, 2] [1, 2, 4] rfl rfl (by simp) (notSeasonal_one _) (1 / 2) 1 rfl (1 / 20) 2
  rw [h]
  simp [List.range_succ, sesLevel]
  norm_num

/-- Twenty points that alternate between 1 and 2. -/
def zigzag : List ℝ := [1, 2, 1, 2, 1, 2, 1, 2, 1, 2, 1, 2, 1, 2, 1, 2, 1, 2, 1, 2]

theorem zigzag_seasonal : thetaSeasonal 2 zigzag = true := by
  rw [C116_seasonality]
  have c0 : autoCov zigzag 0 = 5 := by
    norm_num [autoCov, meanOf, zigzag]
  have c1 : autoCov zigzag 1 = -(19 / 4) := by
    norm_num [autoCov, meanOf, zigzag]
  have c2 : autoCov zigzag 2 = 9 / 2 := by
    norm_num [autoCov, meanOf, zigzag]
  refine ⟨by norm_num, ?_, by simp [zigzag], ?_⟩
  · rintro ⟨c, hc⟩
    have h1 := hc 1 (by simp [zigzag])
    have h2 := hc 2 (by simp [zigzag])
    linarith
  · have e : Finset.Ioo 0 2 = {1} := rfl
    rw [e, Finset.sum_singleton]
    unfold acfR
    rw [c0, c1, c2]
    have hl : ((zigzag.length : Nat) : ℝ) = 20 := by norm_num [zigzag]
    rw [hl]
    have hsq : Real.sqrt ((1 + 2 * (-(19 / 4) / 5) ^ 2) / 20) ≤ 1 / 2 := by
      apply Real.sqrt_le_iff.2
      norm_num
    have : (9 / 10 : ℝ) ≤ |9 / 2 / 5| := by
      rw [abs_of_pos (by norm_num)]
      norm_num
    linarith

/-- The hypotheses of `C116_seasonal_partial` hold for the alternating series with its own season. -/
example : ∃ W : ThetaWorld, ∃ out, thetaRun W 2 dailyFreq ((List.range 20).map Int.ofNat) zigzag 3 false (1 / 20) = .ok out
    ∧ out.length = 3 := by
  refine ⟨⟨fun _ => (1 / 2, 1), id, fun _ => -2, fun _ _ => []⟩, ?_⟩
  obtain ⟨a, b, -, h2⟩ := C116_seasonal_partial ⟨fun _ => (1 / 2, 1), id, fun _ => -2, fun _ _ => []⟩ 2 dailyFreq
    (fun t => Int.lt_succ t) ((List.range 20).map Int.ofNat) zigzag rfl rfl zigzag_seasonal rfl (by
      intro v hv
      have : v = 1 ∨ v = 2 := by
        simp [zigzag] at hv
        tauto
      rcases this with rfl | rfl <;> norm_num) (1 / 2) 1 rfl (by norm_num) (1 / 20)
  obtain ⟨out, o1, o2, -⟩ := h2 3 false
  refine ⟨out, o1, ?_⟩
  have := congrArg List.length o2
  simpa using this

/-- A decomposition with seasonal values 0 and 1 makes the first forecast of the alternating series 0. -/
example : ∃ W : ThetaWorld, ∃ out, thetaRun W 2 dailyFreq ((List.range 20).map Int.ofNat) zigzag 3 false (1 / 20) = .ok out
    ∧ ∀ (hi : 0 < out.length), out[0].fcst = 0 := by
  refine ⟨⟨fun _ => (1 / 2, 1), List.map (· - 1), fun _ => -2, fun _ _ => []⟩, ?_⟩
  obtain ⟨a, b, -, h2⟩ := C116_zero_violated ⟨fun _ => (1 / 2, 1), List.map (· - 1), fun _ => -2, fun _ _ => []⟩ 2 dailyFreq
    (fun t => Int.lt_succ t) ((List.range 20).map Int.ofNat) zigzag rfl rfl zigzag_seasonal (by simp) 0 (by norm_num)
    (by norm_num [zigzag]) (1 / 2) 1 rfl (by norm_num) (1 / 20)
  obtain ⟨out, o1, -, o3⟩ := h2 3
  exact ⟨out, o1, fun hi => o3 0 hi rfl⟩

end Kats

import Verif.Model.Arima
import Verif.Props.Lstm

/-!
# C153: forecasts by ARIMA and SARIMA
-/

namespace Kats

variable {E A F R : Type}

/-! ## ARIMA -/

/-- C153 (ARIMA, `fit`): only one column is taken and `predict` before `fit` is an error; `fit` succeeds exactly if the
trend has one of the four names and statsmodels can fit the orders, regressors and frequency of the parameters to the
values at their times. -/
theorem C153_arima_fit (L : ArimaLib E A F) (infer : List Int → Except Err (Option DateFreq)) (times : List Int)
    (columns : List (List (Option Rat))) (p : ArimaParams E) :
    (columns.length ≠ 1 → (arimaInit times columns p : Except Err (ArimaModel E F)) = .error .valueError)
    ∧ ∀ v, columns = [v] → ∃ M : ArimaModel E F, arimaInit times columns p = .ok M
      ∧ (∀ steps h x a f, arimaPredict L infer M steps h x a f = .error .valueError)
      ∧ ∀ trend args M', arimaFit L M trend args = .ok M' ↔
          (trend = "n" ∨ trend = "c" ∨ trend = "t" ∨ trend = "ct") ∧
          ∃ c f, L.fit c args = .ok f ∧ c.endog = v ∧ c.order = (p.p, p.d, p.q) ∧ c.exog = p.exog ∧ c.dates = times
            ∧ c.freq = p.freq ∧ c.trend = none ∧ M' = ⟨times, v, p, some f, 5 / 100, none⟩ := by
  refine ⟨?_, ?_⟩
  · intro h
    unfold arimaInit
    split
    · exact absurd rfl h
    · rfl
  · rintro v rfl
    refine ⟨_, rfl, fun _ _ _ _ _ => rfl, ?_⟩
    intro trend args M'
    unfold arimaFit
    by_cases ht : trend ∈ ["n", "c", "t", "ct"]
    · rw [if_pos ht]
      simp only [List.mem_cons, List.not_mem_nil, or_false] at ht
      constructor
      · intro h
        obtain ⟨f, hf, h⟩ := (gm_bind_ok _ _ _).1 h
        injection h with h
        exact ⟨ht, _, f, hf, rfl, rfl, rfl, rfl, rfl, rfl, h.symm⟩
      · rintro ⟨-, ⟨c1, c2, c3, c4, c5, c6⟩, f, hf, e1, e2, e3, e4, e5, e6, rfl⟩
        simp only [] at e1 e2 e3 e4 e5 e6
        subst e1 e2 e3 e4 e5 e6
        exact (gm_bind_ok _ _ _).2 ⟨f, hf, rfl⟩
    · rw [if_neg ht]
      simp only [List.mem_cons, List.not_mem_nil, or_false] at ht
      constructor
      · intro h; cases h
      · rintro ⟨h, _⟩; exact absurd h ht

/-- C153 (ARIMA, trend, violated): the trend is checked and then not used: all four give the same model. -/
theorem C153_arima_trend_violated (L : ArimaLib E A F) (M : ArimaModel E F) (args : A) (t t' : String)
    (ht : t ∈ ["n", "c", "t", "ct"]) (ht' : t' ∈ ["n", "c", "t", "ct"]) :
    arimaFit L M t args = arimaFit L M t' args := by
  unfold arimaFit
  rw [if_pos ht, if_pos ht']

theorem sm_frame (dates : List Int) (rows : List SmRow) (h : dates.length = rows.length) :
    smFrame dates rows = .ok (List.zipWith (fun t r => ⟨t, r.mean, r.lower, r.upper⟩) dates rows) := by
  unfold smFrame mkFcst
  rw [if_pos h]
  show Except.ok _ = _
  congr 1
  rw [List.zip, List.map_zipWith]

theorem sm_frame_err (dates : List Int) (rows : List SmRow) (h : dates.length ≠ rows.length) :
    smFrame dates rows = .error .valueError := by
  unfold smFrame mkFcst
  rw [if_neg h]
  rfl

/-- C153 (ARIMA, forecasts), the part that holds: a row for each step, at the dates of the frequency after the last one,
with the mean and the bounds of statsmodels for the level 0.05. -/
theorem C153_arima_partial (L : ArimaLib E A F) (infer : List Int → Except Err (Option DateFreq)) (M : ArimaModel E F)
    (f : F) (hm : M.model = some f) (steps : Nat) (exog : Option E) (alpha : Rat) (freq : Option (Option DateFreq))
    (inf : Option DateFreq) (hi : infer M.times = .ok inf) (rows : List SmRow)
    (hrows : L.forecast f steps exog (5 / 100) = .ok rows) (hlen : rows.length = steps)
    (hf : ∀ t, t < ((freq.getD inf).getD daily).next t)
    (hr : ((freq.getD inf).getD daily).roll (lsLast M.times) = lsLast M.times) :
    ∃ out M', arimaPredict L infer M steps false exog alpha freq = .ok (out, M') ∧ M'.fcst = some out
      ∧ M'.model = some f ∧ M'.times = M.times ∧ out.length = steps
      ∧ ∀ j (h : j < rows.length), out[j]? = some ⟨((freq.getD inf).getD daily).next^[j + 1] (lsLast M.times),
          rows[j].mean, rows[j].lower, rows[j].upper⟩ := by
  obtain ⟨d1, d2, -, -⟩ := C78_dates_partial ((freq.getD inf).getD daily) hf (lsLast M.times) hr steps
  have hfr := sm_frame (futureDates ((freq.getD inf).getD daily) (lsLast M.times) steps) rows (by rw [d2, hlen])
  obtain ⟨df, hdf⟩ : ∃ df, df = List.zipWith (fun t (r : SmRow) => (⟨t, r.mean, r.lower, r.upper⟩ : FcRow))
      (futureDates ((freq.getD inf).getD daily) (lsLast M.times) steps) rows := ⟨_, rfl⟩
  rw [← hdf] at hfr
  have hcall : arimaPredict L infer M steps false exog alpha freq
      = .ok (df, { M with alpha := alpha, fcst := some df }) := by
    unfold arimaPredict
    simp only [hm]
    refine (gm_bind_ok _ _ _).2 ⟨inf, hi, ?_⟩
    refine (gm_bind_ok _ _ _).2 ⟨rows, hrows, ?_⟩
    refine (gm_bind_ok _ _ _).2 ⟨_, hfr, ?_⟩
    rw [if_neg (by simp)]
  refine ⟨_, _, hcall, rfl, hm, rfl, ?_, ?_⟩
  all_goals rw [hdf]
  · rw [List.length_zipWith, d2, hlen, min_self]
  · intro j h
    rw [List.getElem?_zipWith, d1, List.getElem?_map, List.getElem?_range (by omega), List.getElem?_eq_getElem h]
    rfl

/-- C153 (ARIMA, level, violated): the level of the interval plays no part in the forecast; it is only kept. -/
theorem C153_arima_alpha_violated (L : ArimaLib E A F) (infer : List Int → Except Err (Option DateFreq))
    (M : ArimaModel E F) (steps : Nat) (h : Bool) (exog : Option E) (freq : Option (Option DateFreq)) (a b : Rat) :
    (arimaPredict L infer M steps h exog a freq).map (·.1) = (arimaPredict L infer M steps h exog b freq).map (·.1)
    ∧ ∀ out M', arimaPredict L infer M steps h exog a freq = .ok (out, M') → M'.alpha = a := by
  unfold arimaPredict
  rcases M.model with _ | f
  · exact ⟨rfl, fun _ _ h => by cases h⟩
  simp only [bind, Except.bind]
  rcases infer M.times with e | inf
  · exact ⟨rfl, fun _ _ h => by cases h⟩
  simp only []
  rcases L.forecast f steps exog (5 / 100) with e | rows
  · exact ⟨rfl, fun _ _ h => by cases h⟩
  simp only []
  rcases smFrame (futureDates ((freq.getD inf).getD daily) (maxTime (M.times.map fun t => (t, 0))) steps) rows with e | df
  · exact ⟨rfl, fun _ _ h => by cases h⟩
  simp only []
  rcases h with _ | _
  · simp only [Bool.false_eq_true, if_false]
    refine ⟨rfl, fun _ _ h => ?_⟩
    injection h with h
    exact (congrArg (fun r => r.2.alpha) h).symm
  · simp only [if_true]
    rcases L.predict f M.params.d M.times.length with e | hh
    · exact ⟨rfl, fun _ _ h => by cases h⟩
    · refine ⟨rfl, fun _ _ h => ?_⟩
      injection h with h
      exact (congrArg (fun r => r.2.alpha) h).symm

theorem ar_history_pos (times : List Int) (d : Nat) (v : Nat → Option Rat) (hd : d ≤ times.length) :
    arimaHistory times d ((List.range (times.length + 1 - d)).map fun i => (.pos (d + i), v (d + i)))
      = (List.range (times.length - d)).map fun i => ⟨times.getD (d + i) 0, v (d + i), none, none⟩ := by
  rw [show times.length + 1 - d = times.length - d + 1 by omega, List.range_succ, List.map_append]
  have h2 : arimaHistory times d ([times.length - d].map fun i => (.pos (d + i), v (d + i))) = [] := by
    unfold arimaHistory
    simp only [List.map_cons, List.map_nil, List.filterMap_cons, List.filterMap_nil]
    rw [if_pos (by omega), List.getElem?_eq_none (by omega)]
    rfl
  have h3 : ∀ x y, arimaHistory times d (x ++ y) = arimaHistory times d x ++ arimaHistory times d y := by
    intro x y
    unfold arimaHistory
    rw [List.filterMap_append]
  rw [h3, h2, List.append_nil]
  unfold arimaHistory
  rw [List.filterMap_map]
  rw [← List.filterMap_eq_map]
  apply List.filterMap_congr
  intro i hi
  rw [List.mem_range] at hi
  simp only [Function.comp_apply]
  rw [if_pos (by omega), List.getElem?_eq_getElem (by omega), List.getD_eq_getElem?_getD,
    List.getElem?_eq_getElem (by omega)]
  rfl

/-- C153 (ARIMA, history), the part that holds: if statsmodels numbers its rows, the frame begins with the forecasts in
the sample at the times from number `d` on, without bounds; the one row after the end of the series is dropped. -/
theorem C153_arima_history_partial (L : ArimaLib E A F) (infer : List Int → Except Err (Option DateFreq))
    (M : ArimaModel E F) (f : F) (hm : M.model = some f) (steps : Nat) (exog : Option E) (alpha : Rat)
    (freq : Option (Option DateFreq)) (v : Nat → Option Rat) (hd : M.params.d ≤ M.times.length)
    (hp : L.predict f M.params.d M.times.length
      = .ok ((List.range (M.times.length + 1 - M.params.d)).map fun i => (.pos (M.params.d + i), v (M.params.d + i))))
    (df : List FcRow) (M' : ArimaModel E F) (h : arimaPredict L infer M steps false exog alpha freq = .ok (df, M')) :
    ∃ M'', arimaPredict L infer M steps true exog alpha freq
      = .ok ((List.range (M.times.length - M.params.d)).map
          (fun i => ⟨M.times.getD (M.params.d + i) 0, v (M.params.d + i), none, none⟩) ++ df, M'') := by
  unfold arimaPredict at h ⊢
  rw [hm] at h ⊢
  simp only [] at h ⊢
  obtain ⟨inf, hi, h⟩ := (gm_bind_ok _ _ _).1 h
  obtain ⟨rows, hrows, h⟩ := (gm_bind_ok _ _ _).1 h
  obtain ⟨df', hdf, h⟩ := (gm_bind_ok _ _ _).1 h
  rw [if_neg (by simp)] at h
  injection h with h
  have e : df' = df := congrArg Prod.fst h
  subst e
  refine ⟨⟨M.times, M.values, M.params, some f, alpha, some (arimaHistory M.times M.params.d
    ((List.range (M.times.length + 1 - M.params.d)).map fun i => (.pos (M.params.d + i), v (M.params.d + i))) ++ df')⟩,
    (gm_bind_ok _ _ _).2 ⟨inf, hi, (gm_bind_ok _ _ _).2 ⟨rows, hrows, (gm_bind_ok _ _ _).2 ⟨df', hdf, ?_⟩⟩⟩⟩
  rw [if_pos (by simp), hp]
  simp only []
  rw [ar_history_pos _ _ _ hd]

/-- C153 (ARIMA, history, violated): if statsmodels labels its rows by dates, as it does if it can use the dates of the
series as an index, no row of the history is left and nothing is said. -/
theorem C153_arima_history_violated (L : ArimaLib E A F) (infer : List Int → Except Err (Option DateFreq))
    (M : ArimaModel E F) (f : F) (hm : M.model = some f) (steps : Nat) (exog : Option E) (alpha : Rat)
    (freq : Option (Option DateFreq)) (hist : List (Int × Option Rat))
    (hp : L.predict f M.params.d M.times.length = .ok (hist.map fun r => (.date r.1, r.2))) :
    (arimaPredict L infer M steps true exog alpha freq).map (·.1)
      = (arimaPredict L infer M steps false exog alpha freq).map (·.1) := by
  have hh : arimaHistory M.times M.params.d (hist.map fun r => (.date r.1, r.2)) = [] := by
    unfold arimaHistory
    rw [List.filterMap_map]
    apply List.filterMap_eq_nil_iff.2
    intro r _
    rfl
  unfold arimaPredict
  rw [hm]
  simp only [bind, Except.bind]
  rcases infer M.times with e | inf
  · rfl
  simp only []
  rcases L.forecast f steps exog (5 / 100) with e | rows
  · rfl
  simp only []
  rcases smFrame (futureDates ((freq.getD inf).getD daily) (maxTime (M.times.map fun t => (t, 0))) steps) rows with e | df
  · rfl
  simp only [if_true, Bool.false_eq_true, if_false, hp, hh, List.nil_append]

/-- A library whose forecasts are the last value, with a bound of `1 - alpha` to each side. -/
def arToy (byDate : Bool) : ArimaLib Unit Unit (List (Option Rat) × List Int) :=
  ⟨fun c _ => .ok (c.endog, c.dates),
   fun f k _ a => .ok (List.replicate k ((f.1.getLastD none).elim ⟨none, none, none⟩ fun x => ⟨some x, some (x - (1 - a)), some (x + (1 - a))⟩)),
   fun f s e => .ok ((List.range (e + 1 - s)).map fun i =>
     (if byDate then .date (f.2.getD (s + i) 0) else .pos (s + i), f.1.getD (s + i) none))⟩

example : (do
      let M ← (arimaInit [1, 2, 3] [[some 4, some 5, some 6]] ⟨1, 1, 1, none, none, none⟩ :
        Except Err (ArimaModel Unit (List (Option Rat) × List Int)))
      let M ← arimaFit (arToy false) M "c" ()
      let r ← arimaPredict (arToy false) (fun _ => .ok (some daily)) M 2 true none (1 / 10) none
      pure r.1)
    = .ok [⟨2, some 5, none, none⟩, ⟨3, some 6, none, none⟩, ⟨4, some 6, some (101 / 20), some (139 / 20)⟩,
        ⟨5, some 6, some (101 / 20), some (139 / 20)⟩] := by decide +kernel

example : (do
      let M ← (arimaInit [1, 2, 3] [[some 4, some 5, some 6]] ⟨1, 1, 1, none, none, none⟩ :
        Except Err (ArimaModel Unit (List (Option Rat) × List Int)))
      let M ← arimaFit (arToy true) M "c" ()
      let r ← arimaPredict (arToy true) (fun _ => .ok (some daily)) M 1 true none (1 / 10) none
      pure r.1)
    = .ok [⟨4, some 6, some (101 / 20), some (139 / 20)⟩] := by decide +kernel

/-! ## SARIMA -/

/-- C153 (SARIMA, errors): more than one column, `predict` before `fit`, no regressors though the model has some, fewer
than two values, and forecasts that are all missing are errors; so is any horizon of no steps. -/
theorem C153_sarima_errors (L : SarimaLib E R A F) (times : List Int) (columns : List (List (Option Rat)))
    (p : SarimaParams E R) (M : SarimaModel E R F) (steps : Nat) (exog : Option E) (h : Bool) (a : Rat)
    (freq : Option DateFreq) :
    (columns.length ≠ 1 → (sarimaInit times columns p : Except Err (SarimaModel E R F)) = .error .valueError)
    ∧ (∀ v, columns = [v] → ∃ M' : SarimaModel E R F, sarimaInit times columns p = .ok M' ∧ M'.model.isNone = true)
    ∧ (M.model.isNone = true → sarimaPredict L M steps exog h a freq = .error .valueError)
    ∧ (M.params.exog.isSome = true → exog.isNone = true → sarimaPredict L M steps exog h a freq = .error .valueError)
    ∧ (M.times.length ≤ 1 → sarimaPredict L M steps exog h a freq = .error .valueError)
    ∧ (∀ f, M.model = some (.results f) → (L.mean f steps exog).length = steps →
        (∀ x ∈ L.mean f steps exog, x = none) → ∀ out, sarimaPredict L M steps exog h a freq ≠ .ok out) := by
  refine ⟨?_, ?_, ?_, ?_, ?_, ?_⟩
  · intro h
    unfold sarimaInit
    split
    · exact absurd rfl h
    · rfl
  · rintro v rfl
    exact ⟨_, rfl, rfl⟩
  · intro hm
    unfold sarimaPredict
    rw [Option.isNone_iff_eq_none.1 hm]
  · intro h1 h2
    unfold sarimaPredict
    split
    · rfl
    · rw [if_pos ⟨h1, h2⟩]
  · intro hl
    unfold sarimaPredict
    split
    · rfl
    · split
      · rfl
      · unfold inferFreqRobust
        rw [if_pos hl]
        rfl
  · intro f hm hlen hall out hout
    unfold sarimaPredict at hout
    rw [hm] at hout
    simp only [] at hout
    split at hout
    · cases hout
    · obtain ⟨δ, hδ, hout⟩ := (gm_bind_ok _ _ _).1 hout
      obtain ⟨_, _, hout⟩ := (gm_bind_ok _ _ _).1 hout
      rw [if_pos (by rw [List.countP_eq_length.2 (fun x hx => by rw [hall x hx]; rfl), hlen])] at hout
      cases hout

/-- What a forecast of SARIMA that was made consists of. -/
theorem sar_predict_ok (L : SarimaLib E R A F) (M M' : SarimaModel E R F) (steps : Nat) (exog : Option E) (h : Bool)
    (a : Rat) (freq : Option DateFreq) (out : List FcRow)
    (hout : sarimaPredict L M steps exog h a freq = .ok (out, M')) :
    ∃ f δ ci rows, M.model = some (.results f) ∧ inferFreqRobust M.times = .ok δ
      ∧ ¬ (M.params.exog.isSome = true ∧ exog.isNone = true)
      ∧ sarimaBounds (L.interval f steps exog a) = .ok ci
      ∧ (h = false → smZip (L.mean f steps exog) ci = .ok rows ∧
          smFrame (futureDates (freq.getD (deltaFreq δ)) (lsLast M.times) steps) rows = .ok out)
      ∧ (h = true → L.named f = true ∧ smZip (L.histMean f ++ L.mean f steps exog) (L.histInterval f (5 / 100) ++ ci) = .ok rows ∧
          ∃ df, smFrame (M.times ++ futureDates (freq.getD (deltaFreq δ)) (lsLast M.times) steps) rows = .ok df
            ∧ out = sarimaBlank (sarimaBurn M.params) df) := by
  unfold sarimaPredict at hout
  rcases hm : M.model with _ | fitted
  · rw [hm] at hout; cases hout
  rw [hm] at hout
  simp only [] at hout
  split at hout
  · cases hout
  rename_i hx
  obtain ⟨δ, hδ, hout⟩ := (gm_bind_ok _ _ _).1 hout
  rcases fitted with f | _
  · simp only [] at hout
    obtain ⟨_, _, hout⟩ := (gm_bind_ok _ _ _).1 hout
    split at hout
    · cases hout
    obtain ⟨ci, hci, hout⟩ := (gm_bind_ok _ _ _).1 hout
    rcases h with _ | _
    · rw [if_neg (by simp)] at hout
      obtain ⟨rows, hr, hout⟩ := (gm_bind_ok _ _ _).1 hout
      obtain ⟨df, hdf, hout⟩ := (gm_bind_ok _ _ _).1 hout
      injection hout with hout
      refine ⟨f, δ, ci, rows, rfl, hδ, hx, hci, fun _ => ⟨hr, ?_⟩, (by intro h; cases h)⟩
      have e : df = out := congrArg Prod.fst hout
      rw [← e]
      exact hdf
    · rw [if_pos rfl] at hout
      split at hout
      · cases hout
      rename_i hn
      obtain ⟨rows, hr, hout⟩ := (gm_bind_ok _ _ _).1 hout
      obtain ⟨df, hdf, hout⟩ := (gm_bind_ok _ _ _).1 hout
      injection hout with hout
      exact ⟨f, δ, ci, rows, rfl, hδ, hx, hci, (by intro h; cases h),
        fun _ => ⟨by simpa using hn, hr, df, hdf, (congrArg Prod.fst hout).symm⟩⟩
  · cases hout

theorem sar_exists (L : SarimaLib E R A F) (M : SarimaModel E R F) (f : F) (hm : M.model = some (.results f))
    (steps : Nat) (exog : Option E) (a : Rat) (freq : Option DateFreq)
    (hx' : M.params.exog.isSome = true → exog.isSome = true) (δ : Int) (hδ : inferFreqRobust M.times = .ok δ)
    (hfc : L.forecast f steps exog = .ok ()) (hlen : (L.mean f steps exog).length = steps)
    (hn : ∃ x ∈ L.mean f steps exog, x.isSome = true)
    (hci : (L.interval f steps exog a).length = steps)
    (hdates : (futureDates (freq.getD (deltaFreq δ)) (lsLast M.times) steps).length = steps) :
    ∃ ci, sarimaBounds (L.interval f steps exog a) = .ok ci ∧ ci.length = steps
      ∧ sarimaPredict L M steps exog false a freq = .ok (List.zipWith (fun t (r : SmRow) => (⟨t, r.mean, r.lower, r.upper⟩ : FcRow))
          (futureDates (freq.getD (deltaFreq δ)) (lsLast M.times) steps)
          (List.zipWith (fun m c => (⟨m, c.1, c.2⟩ : SmRow)) (L.mean f steps exog) ci), { M with alpha := a })
      ∧ (L.named f = true → (L.histMean f).length = M.times.length →
          (L.histInterval f (5 / 100)).length = M.times.length →
        sarimaPredict L M steps exog true a freq = .ok (sarimaBlank (sarimaBurn M.params)
          (List.zipWith (fun t (r : SmRow) => (⟨t, r.mean, r.lower, r.upper⟩ : FcRow))
            (M.times ++ futureDates (freq.getD (deltaFreq δ)) (lsLast M.times) steps)
            (List.zipWith (fun m c => (⟨m, c.1, c.2⟩ : SmRow)) (L.histMean f ++ L.mean f steps exog)
              (L.histInterval f (5 / 100) ++ ci))), { M with alpha := a })) := by
  have hs : 0 < steps := by
    obtain ⟨x, hx, _⟩ := hn
    rw [← hlen]
    exact List.length_pos_of_mem hx
  obtain ⟨ci, hb, hcl⟩ : ∃ ci, sarimaBounds (L.interval f steps exog a) = .ok ci ∧ ci.length = steps := by
    rcases hq : L.interval f steps exog a with _ | ⟨r, l⟩
    · rw [hq] at hci; simp at hci; omega
    · refine ⟨_, rfl, ?_⟩
      rw [hq] at hci
      split
      · exact hci
      · rw [List.length_map]; exact hci
  have hcount : ¬ (L.mean f steps exog).countP Option.isNone = steps := by
    intro h
    obtain ⟨x, hxm, hxs⟩ := hn
    have := List.countP_eq_length.1 (h.trans hlen.symm) x hxm
    rcases x with _ | x
    · cases hxs
    · cases this
  have hx0 : ¬ (M.params.exog.isSome = true ∧ exog.isNone = true) := by
    rintro ⟨h1, h2⟩
    have := hx' h1
    rcases exog with _ | _
    · cases this
    · cases h2
  refine ⟨ci, hb, hcl, ?_, ?_⟩
  · unfold sarimaPredict
    rw [hm]
    simp only []
    rw [if_neg hx0]
    refine (gm_bind_ok _ _ _).2 ⟨δ, hδ, ?_⟩
    refine (gm_bind_ok _ _ _).2 ⟨(), hfc, ?_⟩
    rw [if_neg hcount]
    refine (gm_bind_ok _ _ _).2 ⟨ci, hb, ?_⟩
    rw [if_neg (by simp)]
    refine (gm_bind_ok _ _ _).2 ⟨_, if_pos (by rw [hlen, hcl]), ?_⟩
    exact (gm_bind_ok _ _ _).2 ⟨_, sm_frame _ _ (by rw [hdates, List.length_zipWith, hlen, hcl, min_self]), rfl⟩
  · intro hnm h1 h2
    unfold sarimaPredict
    rw [hm]
    simp only []
    rw [if_neg hx0]
    refine (gm_bind_ok _ _ _).2 ⟨δ, hδ, ?_⟩
    refine (gm_bind_ok _ _ _).2 ⟨(), hfc, ?_⟩
    rw [if_neg hcount]
    refine (gm_bind_ok _ _ _).2 ⟨ci, hb, ?_⟩
    rw [if_pos (by simp), if_neg (by rw [hnm]; simp)]
    have hl2 : (L.histMean f ++ L.mean f steps exog).length = (L.histInterval f (5 / 100) ++ ci).length := by
      rw [List.length_append, List.length_append, h1, h2, hlen, hcl]
    refine (gm_bind_ok _ _ _).2 ⟨_, if_pos hl2, ?_⟩
    refine (gm_bind_ok _ _ _).2 ⟨_, sm_frame _ _ ?_, rfl⟩
    rw [List.length_append, List.length_zipWith, ← hl2, min_self, List.length_append, h1, hlen]
    exact congrArg _ hdates

theorem delta_next (δ t : Int) : ∀ n, (deltaFreq δ).next^[n] t = t + n * δ := by
  intro n
  induction n with
  | zero => simp
  | succ n ih =>
    rw [Function.iterate_succ_apply', ih]
    show t + n * δ + δ = _
    push_cast
    ring

/-- C153 (SARIMA, forecasts), the part that holds: the dates are those of the frequency after the last one, one for each
step; without a frequency they go on with the most frequent difference `δ` of the times; the means are those of statsmodels, and the bounds those of its interval for the
level that was asked for, the smaller column of the first row as the lower ones. -/
theorem C153_sarima_partial (L : SarimaLib E R A F) (M : SarimaModel E R F) (f : F) (hm : M.model = some (.results f))
    (steps : Nat) (exog : Option E) (a : Rat) (hx : M.params.exog.isSome = true → exog.isSome = true) (δ : Int)
    (hδ : inferFreqRobust M.times = .ok δ) (hpos : 0 < δ) (freq : Option DateFreq)
    (hf : ∀ F ∈ freq, (∀ t, t < F.next t) ∧ F.roll (lsLast M.times) = lsLast M.times) (hfc : L.forecast f steps exog = .ok ())
    (hlen : (L.mean f steps exog).length = steps) (hn : ∃ x ∈ L.mean f steps exog, x.isSome = true)
    (hci : (L.interval f steps exog a).length = steps)
    (hord : ∀ c ∈ L.interval f steps exog a, ∃ x y : Rat, c = (some x, some y) ∧ x < y) :
    ∃ out M', sarimaPredict L M steps exog false a freq = .ok (out, M') ∧ out.length = steps
      ∧ ∀ j (hj : j < (L.mean f steps exog).length) (hj' : j < (L.interval f steps exog a).length),
          out[j]? = some ⟨(freq.map fun F => F.next^[j + 1] (lsLast M.times)).getD (lsLast M.times + (j + 1 : Nat) * δ),
            (L.mean f steps exog)[j], ((L.interval f steps exog a)[j]).1, ((L.interval f steps exog a)[j]).2⟩ := by
  obtain ⟨d1, d2, -, -⟩ := C78_dates_partial (freq.getD (deltaFreq δ)) (by
    rcases freq with _ | F
    · exact fun t => by show t < t + δ; omega
    · exact (hf F rfl).1) (lsLast M.times) (by
    rcases freq with _ | F
    · rfl
    · exact (hf F rfl).2) steps
  obtain ⟨ci, hb, hcl, h1, -⟩ := sar_exists L M f hm steps exog a freq hx δ hδ hfc hlen hn hci d2
  have hce : ci = L.interval f steps exog a := by
    rcases hq : L.interval f steps exog a with _ | ⟨r, l⟩
    · rw [hq] at hb; cases hb
    · rw [hq] at hb hord
      obtain ⟨x, y, hr, hlt⟩ := hord r (List.mem_cons_self ..)
      injection hb with hb
      rw [if_pos (by rw [hr]; exact decide_eq_true hlt)] at hb
      exact hb.symm
  refine ⟨_, _, h1, ?_, ?_⟩
  · rw [List.length_zipWith, List.length_zipWith, d2, hlen, hcl, min_self, min_self]
  · intro j hj hj'
    rw [List.getElem?_zipWith, List.getElem?_zipWith, d1, List.getElem?_map,
      List.getElem?_range (by omega), hce, List.getElem?_eq_getElem hj, List.getElem?_eq_getElem hj', ← delta_next]
    rcases freq with _ | F <;> rfl

theorem sar_blank (k : Nat) (rows : List FcRow) (i : Nat) :
    (sarimaBlank k rows)[i]? = (rows[i]?).map fun r => if i ≤ k then ⟨r.time, none, none, none⟩ else r := by
  unfold sarimaBlank
  rcases Nat.lt_or_ge i (k + 1) with h | h
  · rcases Nat.lt_or_ge i rows.length with h' | h'
    · rw [List.getElem?_append_left (by rw [List.length_map, List.length_take]; omega), List.getElem?_map,
        List.getElem?_take, if_pos h]
      congr 1
      funext r
      rw [if_pos (by omega)]
    · rw [List.getElem?_eq_none (by rw [List.length_append, List.length_map, List.length_take, List.length_drop]; omega),
        List.getElem?_eq_none h']
      rfl
  · rcases Nat.lt_or_ge i rows.length with h' | h'
    · rw [List.getElem?_append_right (by rw [List.length_map, List.length_take]; omega), List.length_map,
        List.length_take, List.getElem?_drop, min_eq_left (by omega), show k + 1 + (i - (k + 1)) = i by omega]
      rw [List.getElem?_eq_getElem h', Option.map_some, if_neg (by omega)]
    · rw [List.getElem?_eq_none (by rw [List.length_append, List.length_map, List.length_take, List.length_drop]; omega),
        List.getElem?_eq_none h']
      rfl

/-- C153 (SARIMA, history), the part that holds: the frame has the times of the series, then the same dates as without the
history; from row `k + 1` on, `k = max(p, d, q) + max(P, D, Q) * s + 1`, a row of the past has the mean and the interval
of statsmodels (for the level 0.05), a row of the future is as without the history; the rows before are missing. -/
theorem C153_sarima_history_partial (L : SarimaLib E R A F) (M : SarimaModel E R F) (f : F)
    (hm : M.model = some (.results f)) (steps : Nat) (exog : Option E) (a : Rat) (freq : Option DateFreq)
    (hnm : L.named f = true) (h1 : (L.histMean f).length = M.times.length)
    (h2 : (L.histInterval f (5 / 100)).length = M.times.length) (hlen : (L.mean f steps exog).length = steps)
    (hci : (L.interval f steps exog a).length = steps)
    (df : List FcRow) (M' : SarimaModel E R F) (h : sarimaPredict L M steps exog false a freq = .ok (df, M')) :
    ∃ out M'' k, sarimaPredict L M steps exog true a freq = .ok (out, M'')
      ∧ k = max M.params.p (max M.params.d M.params.q)
          + max M.params.seasonal.1 (max M.params.seasonal.2.1 M.params.seasonal.2.2.1) * M.params.seasonal.2.2.2 + 1
      ∧ out.length = M.times.length + steps
      ∧ out.map (·.time) = M.times ++ df.map (·.time)
      ∧ (∀ i r, i ≤ k → out[i]? = some r → r.fcst = none ∧ r.lower = none ∧ r.upper = none)
      ∧ (∀ i (hi : i < M.times.length), k < i → out[i]? = some ⟨M.times[i], (L.histMean f)[i],
          ((L.histInterval f (5 / 100))[i]).1, ((L.histInterval f (5 / 100))[i]).2⟩)
      ∧ (∀ j (hj : j < df.length), k < M.times.length + j → out[M.times.length + j]? = some df[j]) := by
  obtain ⟨f', δ, ci, rows, hm', hδ, hx, hb, hA, -⟩ := sar_predict_ok _ _ _ _ _ _ _ _ _ h
  rw [hm] at hm'
  injection hm' with hm'
  injection hm' with hm'
  subst hm'
  obtain ⟨hz, hfrm⟩ := hA rfl
  have hcl : ci.length = steps := by
    rcases hq : L.interval f steps exog a with _ | ⟨r, l⟩
    · rw [hq] at hb; cases hb
    · rw [hq] at hb hci
      injection hb with hb
      rw [← hb]
      split
      · exact hci
      · rw [List.length_map]; exact hci
  have hrl : rows = List.zipWith (fun m c => ⟨m, c.1, c.2⟩) (L.mean f steps exog) ci := by
    unfold smZip at hz
    rw [if_pos (by rw [hlen, hcl])] at hz
    injection hz with hz
    exact hz.symm
  have hdl : (futureDates (freq.getD (deltaFreq δ)) (lsLast M.times) steps).length = steps := by
    by_contra hc
    rw [sm_frame_err _ _ (by rw [hrl, List.length_zipWith, hlen, hcl, min_self]; exact hc)] at hfrm
    cases hfrm
  have hfrm2 := sm_frame (futureDates (freq.getD (deltaFreq δ)) (lsLast M.times) steps) rows
    (by rw [hdl, hrl, List.length_zipWith, hlen, hcl, min_self])
  rw [hfrm] at hfrm2
  injection hfrm2 with hdf
  have hl2 : (L.histMean f ++ L.mean f steps exog).length = (L.histInterval f (5 / 100) ++ ci).length := by
    rw [List.length_append, List.length_append, h1, h2, hlen, hcl]
  have hd0 : (M.times ++ futureDates (freq.getD (deltaFreq δ)) (lsLast M.times) steps).length = M.times.length + steps := by
    rw [List.length_append, hdl]
  have hr0 : (List.zipWith (fun m c => (⟨m, c.1, c.2⟩ : SmRow)) (L.histMean f ++ L.mean f steps exog)
      (L.histInterval f (5 / 100) ++ ci)).length = M.times.length + steps := by
    rw [List.length_zipWith, ← hl2, min_self, List.length_append, h1, hlen]
  obtain ⟨full, hfull⟩ : ∃ full, full = List.zipWith (fun t (r : SmRow) => (⟨t, r.mean, r.lower, r.upper⟩ : FcRow))
      (M.times ++ futureDates (freq.getD (deltaFreq δ)) (lsLast M.times) steps)
      (List.zipWith (fun m c => (⟨m, c.1, c.2⟩ : SmRow)) (L.histMean f ++ L.mean f steps exog)
        (L.histInterval f (5 / 100) ++ ci)) := ⟨_, rfl⟩
  have hcall : sarimaPredict L M steps exog true a freq
      = .ok (sarimaBlank (sarimaBurn M.params) full, { M with alpha := a }) := by
    unfold sarimaPredict at h ⊢
    rw [hm] at h ⊢
    simp only [] at h ⊢
    rw [if_neg hx] at h ⊢
    obtain ⟨δ', hδ', h⟩ := (gm_bind_ok _ _ _).1 h
    obtain ⟨u, hu, h⟩ := (gm_bind_ok _ _ _).1 h
    refine (gm_bind_ok _ _ _).2 ⟨δ, hδ, ?_⟩
    refine (gm_bind_ok _ _ _).2 ⟨u, hu, ?_⟩
    split at h
    · cases h
    rename_i hcnt
    rw [if_neg hcnt]
    refine (gm_bind_ok _ _ _).2 ⟨ci, hb, ?_⟩
    rw [if_pos (by simp), if_neg (by rw [hnm]; simp)]
    refine (gm_bind_ok _ _ _).2 ⟨_, if_pos hl2, ?_⟩
    refine (gm_bind_ok _ _ _).2 ⟨_, sm_frame _ _ ?_, by rw [hfull]⟩
    rw [hr0]
    exact hd0
  have hfl : full.length = M.times.length + steps := by
    rw [hfull, List.length_zipWith, hd0, hr0, min_self]
  have hget : ∀ i : Nat, (sarimaBlank (sarimaBurn M.params) full)[i]?
      = (full[i]?).map fun r => if i ≤ sarimaBurn M.params then ⟨r.time, none, none, none⟩ else r := sar_blank _ _
  have htimes : full.map (·.time) = M.times ++ futureDates (freq.getD (deltaFreq δ)) (lsLast M.times) steps := by
    rw [hfull, List.map_zipWith]
    have : ∀ (x : List Int) (y : List SmRow), x.length = y.length →
        List.zipWith (fun (t : Int) (_ : SmRow) => t) x y = x := by
      intro x
      induction x with
      | nil => intro y _; rfl
      | cons t x ih =>
        intro y hy
        rcases y with _ | ⟨r, y⟩
        · simp at hy
        · rw [List.zipWith_cons_cons, ih y (by simpa using hy)]
    exact this _ _ (by rw [hd0, hr0])
  have hdft : df.map (·.time) = futureDates (freq.getD (deltaFreq δ)) (lsLast M.times) steps := by
    rw [hdf, List.map_zipWith]
    have : ∀ (x : List Int) (y : List SmRow), x.length = y.length →
        List.zipWith (fun (t : Int) (_ : SmRow) => t) x y = x := by
      intro x
      induction x with
      | nil => intro y _; rfl
      | cons t x ih =>
        intro y hy
        rcases y with _ | ⟨r, y⟩
        · simp at hy
        · rw [List.zipWith_cons_cons, ih y (by simpa using hy)]
    exact this _ _ (by rw [hdl, hrl, List.length_zipWith, hlen, hcl, min_self])
  refine ⟨_, _, sarimaBurn M.params, hcall, rfl, ?_, ?_, ?_, ?_, ?_⟩
  · unfold sarimaBlank
    rw [List.length_append, List.length_map, List.length_take, List.length_drop]
    omega
  · rw [hdft, ← htimes]
    apply List.ext_getElem?
    intro i
    rw [List.getElem?_map, hget, List.getElem?_map, Option.map_map]
    rcases full[i]? with _ | r
    · rfl
    · simp only [Option.map_some, Function.comp_apply]
      split <;> rfl
  · intro i r hi hr
    rw [hget] at hr
    rcases hq : full[i]? with _ | q
    · rw [hq] at hr; cases hr
    · rw [hq, Option.map_some, if_pos hi] at hr
      injection hr with hr
      rw [← hr]
      exact ⟨rfl, rfl, rfl⟩
  · intro i hi hk
    rw [hget, hfull, List.getElem?_zipWith, List.getElem?_zipWith, List.getElem?_append_left hi,
      List.getElem?_append_left (by omega), List.getElem?_append_left (by omega), List.getElem?_eq_getElem hi,
      List.getElem?_eq_getElem (by omega), List.getElem?_eq_getElem (by omega)]
    simp only [Option.map_some]
    rw [if_neg (by omega)]
  · intro j hj hk
    have hj2 : j < steps := by
      have := congrArg List.length hdf
      rw [List.length_zipWith, hdl, hrl, List.length_zipWith, hlen, hcl] at this
      omega
    have hsame : full[M.times.length + j]? = df[j]? := by
      rw [hfull, hdf, hrl, List.getElem?_zipWith, List.getElem?_zipWith, List.getElem?_zipWith, List.getElem?_zipWith,
        List.getElem?_append_right (by omega), List.getElem?_append_right (by omega),
        List.getElem?_append_right (by omega), h1, h2, Nat.add_sub_cancel_left]
    rw [hget, hsame, List.getElem?_eq_getElem hj, Option.map_some, if_neg (by omega)]

/-- C153 (SARIMA, missing rows, violated): the comment in the code says that the first `k` rows are not legitimate; one
more is erased, and if the series has no more than `k` values the first forecasts are erased with them, all of them if the
series and the forecasts are together not longer. -/
theorem C153_sarima_blank_violated (k : Nat) (rows : List FcRow) :
    (∀ h : k < rows.length, (sarimaBlank k rows)[k]? = some ⟨rows[k].time, none, none, none⟩)
    ∧ (∀ (L : SarimaLib E R A F) (M M' : SarimaModel E R F) (steps : Nat) (exog : Option E) (a : Rat)
        (freq : Option DateFreq) (out : List FcRow), sarimaPredict L M steps exog true a freq = .ok (out, M') →
        ∀ j r, M.times.length + j ≤ max M.params.p (max M.params.d M.params.q)
          + max M.params.seasonal.1 (max M.params.seasonal.2.1 M.params.seasonal.2.2.1) * M.params.seasonal.2.2.2 + 1 →
        out[M.times.length + j]? = some r → r.fcst = none ∧ r.lower = none ∧ r.upper = none) := by
  refine ⟨?_, ?_⟩
  · intro h
    rw [sar_blank, List.getElem?_eq_getElem h, Option.map_some, if_pos (le_refl _)]
  · intro L M M' steps exog a freq out hout j r hj hr
    obtain ⟨f, δ, ci, rows', -, -, -, -, -, hB⟩ := sar_predict_ok _ _ _ _ _ _ _ _ _ hout
    obtain ⟨-, -, df, -, rfl⟩ := hB rfl
    rw [sar_blank] at hr
    rcases hq : df[M.times.length + j]? with _ | q
    · rw [hq] at hr; cases hr
    · rw [hq, Option.map_some, if_pos (show M.times.length + j ≤ sarimaBurn M.params from hj)] at hr
      injection hr with hr
      rw [← hr]
      exact ⟨rfl, rfl, rfl⟩

/-- C153 (SARIMA, level of the history, violated): the rows of the past do not depend on the level that is asked for. -/
theorem C153_sarima_alpha_violated (L : SarimaLib E R A F) (M M₁ M₂ : SarimaModel E R F) (steps : Nat) (exog : Option E)
    (freq : Option DateFreq) (a b : Rat) (out₁ out₂ : List FcRow)
    (hl : ∀ f, M.model = some (.results f) → (L.histMean f).length = M.times.length
      ∧ (L.histInterval f (5 / 100)).length = M.times.length)
    (h₁ : sarimaPredict L M steps exog true a freq = .ok (out₁, M₁))
    (h₂ : sarimaPredict L M steps exog true b freq = .ok (out₂, M₂)) :
    out₁.take M.times.length = out₂.take M.times.length ∧ out₁.map (·.fcst) = out₂.map (·.fcst) := by
  obtain ⟨f, δ, ci, rows, hm, hδ, -, -, -, hB⟩ := sar_predict_ok _ _ _ _ _ _ _ _ _ h₁
  obtain ⟨f', δ', ci', rows', hm', hδ', -, -, -, hB'⟩ := sar_predict_ok _ _ _ _ _ _ _ _ _ h₂
  rw [hm] at hm'
  injection hm' with hm'
  injection hm' with hm'
  subst hm'
  rw [hδ] at hδ'
  injection hδ' with hδ'
  subst hδ'
  obtain ⟨-, hz, df, hf, rfl⟩ := hB rfl
  obtain ⟨-, hz', df', hf', rfl⟩ := hB' rfl
  obtain ⟨l1, l2⟩ := hl f hm
  have key : ∀ (c : List (Option Rat × Option Rat)) (rw' : List SmRow) (d : List FcRow),
      smZip (L.histMean f ++ L.mean f steps exog) (L.histInterval f (5 / 100) ++ c) = .ok rw' →
      smFrame (M.times ++ futureDates (freq.getD (deltaFreq δ)) (lsLast M.times) steps) rw' = .ok d →
      d.length = (M.times ++ futureDates (freq.getD (deltaFreq δ)) (lsLast M.times) steps).length
      ∧ ∀ i, (d[i]?).map (fun r => (r.time, r.fcst))
          = Option.map₂ Prod.mk (M.times ++ futureDates (freq.getD (deltaFreq δ)) (lsLast M.times) steps)[i]?
              (L.histMean f ++ L.mean f steps exog)[i]?
        ∧ (i < M.times.length → d[i]? = Option.map₂ (fun t (r : SmRow) => ⟨t, r.mean, r.lower, r.upper⟩) M.times[i]?
            (Option.map₂ (fun m (c : Option Rat × Option Rat) => ⟨m, c.1, c.2⟩) (L.histMean f)[i]?
              (L.histInterval f (5 / 100))[i]?)) := by
    intro c rw' d h1 h2
    unfold smZip at h1
    split at h1
    · rename_i hlen
      injection h1 with h1
      by_cases hq : (M.times ++ futureDates (freq.getD (deltaFreq δ)) (lsLast M.times) steps).length = rw'.length
      · rw [sm_frame _ _ hq] at h2
        injection h2 with h2
        subst h2
        refine ⟨by rw [List.length_zipWith, ← hq, min_self], fun i => ⟨?_, ?_⟩⟩
        · subst h1
          rw [List.length_zipWith, ← hlen, min_self] at hq
          rcases Nat.lt_or_ge i (L.histMean f ++ L.mean f steps exog).length with hi | hi
          · rw [List.getElem?_eq_getElem (by rw [List.length_zipWith, List.length_zipWith, hq, ← hlen]; omega),
              List.getElem?_eq_getElem (by rw [hq]; exact hi), List.getElem?_eq_getElem hi]
            simp [List.getElem_zipWith]
          · rw [List.getElem?_eq_none (by rw [List.length_zipWith, List.length_zipWith, hq, ← hlen]; omega),
              List.getElem?_eq_none (by rw [hq]; exact hi)]
            rfl
        · intro hi
          subst h1
          rw [List.getElem?_zipWith, List.getElem?_zipWith, List.getElem?_append_left hi,
            List.getElem?_append_left (by omega), List.getElem?_append_left (by omega), List.getElem?_eq_getElem hi,
            List.getElem?_eq_getElem (by omega), List.getElem?_eq_getElem (by omega)]
          rfl
      · rw [sm_frame_err _ _ hq] at h2
        cases h2
    · cases h1
  obtain ⟨k1, k2⟩ := key _ _ _ hz hf
  obtain ⟨k1', k2'⟩ := key _ _ _ hz' hf'
  refine ⟨?_, ?_⟩
  · apply List.ext_getElem?
    intro i
    rw [List.getElem?_take, List.getElem?_take]
    split
    · rename_i hi
      rw [sar_blank, sar_blank, (k2 i).2 hi, (k2' i).2 hi]
    · rfl
  · apply List.ext_getElem?
    intro i
    rw [List.getElem?_map, List.getElem?_map, sar_blank, sar_blank, Option.map_map, Option.map_map]
    have := (k2 i).1.trans (k2' i).1.symm
    rcases h : df[i]? with _ | r
    · rcases h' : df'[i]? with _ | r'
      · rfl
      · rw [h, h'] at this; cases this
    · rcases h' : df'[i]? with _ | r'
      · rw [h, h'] at this; cases this
      · rw [h, h'] at this
        simp only [Option.map_some, Option.some_inj, Prod.mk.injEq] at this
        simp only [Option.map_some, Function.comp_apply, Option.some_inj]
        split
        · rfl
        · exact this.2

/-- C153 (SARIMA, bounds, violated): the columns of the interval are ordered by their first row only: if its bounds are
equal, or one is missing, the columns are exchanged in all rows, and every later row with a proper interval has its lower
bound above the upper one. -/
theorem C153_sarima_bounds_violated (L : SarimaLib E R A F) (M M' : SarimaModel E R F) (f : F)
    (hm : M.model = some (.results f)) (steps : Nat) (exog : Option E) (a : Rat) (freq : Option DateFreq)
    (r : Option Rat × Option Rat) (l : List (Option Rat × Option Rat)) (hci : L.interval f steps exog a = r :: l)
    (hr : r.1 = r.2 ∨ r.1 = none ∨ r.2 = none) (out : List FcRow)
    (h : sarimaPredict L M steps exog false a freq = .ok (out, M')) :
    ∀ (j : Nat) (x y : Rat) (q : FcRow), (r :: l)[j]? = some (some x, some y) → x < y → out[j]? = some q →
      q.lower = some y ∧ q.upper = some x := by
  obtain ⟨f', δ, ci, rows, hm', hδ, -, hb, hA, -⟩ := sar_predict_ok _ _ _ _ _ _ _ _ _ h
  rw [hm] at hm'
  injection hm' with hm'
  injection hm' with hm'
  subst hm'
  obtain ⟨hz, hf⟩ := hA rfl
  rw [hci] at hb
  have hlt : ¬ nanLt r.1 r.2 = true := by
    unfold nanLt
    rcases hr with h | h | h
    · rw [h]; rcases r.2 with _ | x <;> simp
    · rw [h]; simp
    · rw [h]; simp
  injection hb with hb
  rw [if_neg hlt] at hb
  subst hb
  intro j x y q hj hxy hq
  unfold smZip at hz
  split at hz
  · injection hz with hz
    by_cases hl : (futureDates (freq.getD (deltaFreq δ)) (lsLast M.times) steps).length = rows.length
    · rw [sm_frame _ _ hl] at hf
      injection hf with hf
      subst hf
      rw [← hz, List.getElem?_zipWith, List.getElem?_zipWith, List.getElem?_map, hj] at hq
      obtain ⟨u, hu⟩ : ∃ u, u = (futureDates (freq.getD (deltaFreq δ)) (lsLast M.times) steps)[j]? := ⟨_, rfl⟩
      obtain ⟨v, hv⟩ : ∃ v, v = (L.mean f steps exog)[j]? := ⟨_, rfl⟩
      rw [← hu, ← hv] at hq
      rcases u with _ | t
      · cases hq
      · rcases v with _ | m
        · cases hq
        · injection hq with hq
          rw [← hq]
          exact ⟨rfl, rfl⟩
    · rw [sm_frame_err _ _ hl] at hf
      cases hf
  · cases hz

/-- C153 (SARIMA, `return_params`, violated): a model fitted with this argument of `fit` counts as fitted, but `predict`
fails with an `AttributeError`. -/
theorem C153_sarima_return_violated (L : SarimaLib E R A F) (M M' : SarimaModel E R F) (args : A)
    (hfit : sarimaFit L M args true = .ok M') (h2 : 2 ≤ M.times.length) (steps : Nat) (exog : Option E) (h : Bool) (a : Rat)
    (freq : Option DateFreq) (hx : M.params.exog.isSome = true → exog.isSome = true) :
    sarimaPredict L M' steps exog h a freq = .error .attributeError := by
  unfold sarimaFit at hfit
  obtain ⟨f, -, hfit⟩ := (gm_bind_ok _ _ _).1 hfit
  injection hfit with hfit
  rw [if_pos rfl] at hfit
  subst hfit
  unfold sarimaPredict
  simp only []
  rw [if_neg (by
    rintro ⟨h1, h3⟩
    have := hx h1
    rcases exog with _ | _
    · cases this
    · cases h3)]
  unfold inferFreqRobust
  rw [if_neg (by omega)]
  rfl

/-- C153 (SARIMA, length of the history, violated): with `simple_differencing` statsmodels drops the first rows of the
sample; then the frame with the history cannot be made. -/
theorem C153_sarima_differencing_violated (L : SarimaLib E R A F) (M : SarimaModel E R F) (f : F)
    (hm : M.model = some (.results f)) (steps : Nat) (exog : Option E) (a : Rat) (freq : Option DateFreq)
    (hl : (L.histMean f).length < M.times.length) (hlen : (L.mean f steps exog).length = steps)
    (hd : ∀ δ, steps ≤ (futureDates (freq.getD (deltaFreq δ)) (lsLast M.times) steps).length) :
    ∀ out, sarimaPredict L M steps exog true a freq ≠ .ok out := by
  rintro ⟨out, M'⟩ h
  obtain ⟨f', δ, ci, rows, hm', -, -, -, -, hB⟩ := sar_predict_ok _ _ _ _ _ _ _ _ _ h
  rw [hm] at hm'
  injection hm' with hm'
  injection hm' with hm'
  subst hm'
  obtain ⟨-, hz, df, hf, -⟩ := hB rfl
  have h1 : rows.length ≤ (L.histMean f ++ L.mean f steps exog).length := by
    unfold smZip at hz
    split at hz
    · injection hz with hz
      rw [← hz, List.length_zipWith]
      exact min_le_left _ _
    · cases hz
  rw [sm_frame_err _ _ ?_] at hf
  · cases hf
  · rw [List.length_append] at h1 ⊢
    have := hd δ
    omega

/-- C153 (SARIMA, `fit`): the results for the values and all parameters of the object are kept. -/
theorem C153_sarima_fit (L : SarimaLib E R A F) (M : SarimaModel E R F) (args : A) (M' : SarimaModel E R F) :
    sarimaFit L M args false = .ok M' ↔ ∃ f, L.fit M.values M.params args = .ok f
      ∧ M' = { M with model := some (.results f) } := by
  unfold sarimaFit
  constructor
  · intro h
    obtain ⟨f, hf, h⟩ := (gm_bind_ok _ _ _).1 h
    injection h with h
    exact ⟨f, hf, by rw [← h]; rfl⟩
  · rintro ⟨f, hf, rfl⟩
    exact (gm_bind_ok _ _ _).2 ⟨f, hf, rfl⟩

/-- A library whose forecasts are the last value, with an interval that grows from `w`. -/
def sarToy (w : Rat) : SarimaLib Unit Unit Unit (List (Option Rat)) :=
  ⟨fun v _ _ => .ok v, fun _ _ _ => .ok (), fun f k _ => List.replicate k (f.getLastD none),
   fun f k _ a => (List.range k).map fun i => ((f.getLastD none).map fun x => x - (1 - a) * (w + i),
     (f.getLastD none).map fun x => x + (1 - a) * (w + i)), id,
   fun f a => f.map fun x => (x.map fun y => y - (1 - a), x.map fun y => y + (1 - a)), fun _ => true⟩

def sarSeries : SarimaModel Unit Unit (List (Option Rat)) :=
  ⟨[1, 3, 5, 8], [some 4, some 5, some 6, some 6], ⟨1, 0, 0, none, (0, 0, 0, 0), ()⟩, none, 5 / 100⟩

example : (do
      let M ← sarimaFit (sarToy 1) sarSeries () false
      let r ← sarimaPredict (sarToy 1) M 2 none false (1 / 2) none
      pure r.1) = .ok [⟨10, some 6, some (11 / 2), some (13 / 2)⟩, ⟨12, some 6, some 5, some 7⟩]
    ∧ (do
      let M ← sarimaFit (sarToy 1) sarSeries () false
      let r ← sarimaPredict (sarToy 1) M 1 none true (1 / 2) none
      pure r.1) = .ok [⟨1, none, none, none⟩, ⟨3, none, none, none⟩, ⟨5, none, none, none⟩,
        ⟨8, some 6, some (101 / 20), some (139 / 20)⟩, ⟨10, some 6, some (11 / 2), some (13 / 2)⟩]
    ∧ (do
      let M ← sarimaFit (sarToy 0) sarSeries () false
      let r ← sarimaPredict (sarToy 0) M 2 none false (1 / 2) none
      pure r.1) = .ok [⟨10, some 6, some 6, some 6⟩, ⟨12, some 6, some (13 / 2), some (11 / 2)⟩] := by decide +kernel

end Kats

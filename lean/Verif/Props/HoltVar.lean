import Verif.Model.HoltVar
import Verif.Props.Arima
import Verif.Props.EmpCi

/-!
# C154: forecasts by Holt-Winters and by VAR
-/

namespace Kats

variable {F R : Type}

/-! ## Holt-Winters -/

/-- C154 (Holt-Winters, parameters and `fit`): a trend and a season is missing or has one of four names; only one column is
taken; `predict` before `fit` is an error; a fit uses the values and the parameters. -/
theorem C154_hw_fit (p : HwParams) (times : List Int) (columns : List (List ℝ)) (L : HwLib F) :
    (hwValidate p = .ok p ↔
      (∀ x ∈ p.trend, x = "add" ∨ x = "mul" ∨ x = "additive" ∨ x = "multiplicative")
      ∧ ∀ x ∈ p.seasonal, x = "add" ∨ x = "mul" ∨ x = "additive" ∨ x = "multiplicative")
    ∧ (hwValidate p = .ok p ∨ hwValidate p = .error .valueError)
    ∧ (columns.length ≠ 1 → (hwInit times columns p : Except Err (HwModel F)) = .error .valueError)
    ∧ (∀ v, columns = [v] → ∃ M : HwModel F, hwInit times columns p = .ok M
      ∧ (∀ infer ppf pinv cv steps h freq ci, hwPredict L infer ppf pinv cv M steps h freq ci = .error .valueError)
      ∧ ∀ M', hwFit L M = .ok M' ↔ ∃ f, L.fit v p = .ok f ∧ M' = ⟨times, v, p, some f⟩) := by
  have key : ∀ o : Option String, o ∈ hwNames ↔
      ∀ x ∈ o, x = "add" ∨ x = "mul" ∨ x = "additive" ∨ x = "multiplicative" := by
    intro o
    unfold hwNames
    rcases o with _ | x
    · simp
    · simp
  refine ⟨?_, ?_, ?_, ?_⟩
  · rw [← key, ← key]
    unfold hwValidate
    by_cases h1 : p.trend ∉ hwNames
    · rw [if_pos h1]
      exact ⟨fun h => (by cases h), fun h => absurd h.1 h1⟩
    rw [if_neg h1]
    by_cases h2 : p.seasonal ∉ hwNames
    · rw [if_pos h2]
      exact ⟨fun h => (by cases h), fun h => absurd h.2 h2⟩
    rw [if_neg h2]
    exact ⟨fun _ => ⟨not_not.1 h1, not_not.1 h2⟩, fun _ => rfl⟩
  · unfold hwValidate
    split
    · exact .inr rfl
    · split
      · exact .inr rfl
      · exact .inl rfl
  · intro h
    unfold hwInit
    split
    · exact absurd rfl h
    · rfl
  · rintro v rfl
    refine ⟨⟨times, v, p, none⟩, rfl, fun _ _ _ _ _ _ _ _ => rfl, fun M' => ?_⟩
    unfold hwFit
    constructor
    · intro h
      obtain ⟨f, hf, h⟩ := (gm_bind_ok _ _ _).1 h
      injection h with h
      exact ⟨f, hf, h.symm⟩
    · rintro ⟨f, hf, rfl⟩
      exact (gm_bind_ok _ _ _).2 ⟨f, hf, rfl⟩

example : hwValidate ⟨some "add", false, none, some 7⟩ = .ok ⟨some "add", false, none, some 7⟩
    ∧ hwValidate ⟨some "add", false, some "none", none⟩ = .error .valueError := by
  refine ⟨?_, ?_⟩ <;> unfold hwValidate hwNames <;> simp

/-- C154 (Holt-Winters, forecasts): without an interval there is a row for each step, at the dates of the frequency (the
given one, or else the inferred one) after the last one, with the forecasts of statsmodels. -/
theorem C154_hw_forecast (L : HwLib F) (infer : List Int → Except Err (Option DateFreq)) (ppf : ℝ → ℝ)
    (pinv : List (List ℝ) → List ℝ → List ℝ) (cv : List String → EciParams → Except Err (List (List ℝ)))
    (M : HwModel F) (f : F) (hm : M.model = some f) (steps : Nat) (freq : Option (Option DateFreq))
    (fr : Option DateFreq) (hfr : freq = some fr ∨ freq = none ∧ infer M.times = .ok fr)
    (hlen : (L.forecast f steps).length = steps) (hf : ∀ t, t < (fr.getD daily).next t)
    (hr : (fr.getD daily).roll (lsLast M.times) = lsLast M.times) :
    ∃ out, hwPredict L infer ppf pinv cv M steps false freq none = .ok out ∧ out.length = steps
      ∧ ∀ j (h : j < (L.forecast f steps).length), out[j]? = some ⟨(fr.getD daily).next^[j + 1] (lsLast M.times),
          (L.forecast f steps)[j], none, none⟩ := by
  obtain ⟨d1, d2, -, -⟩ := C78_dates_partial (fr.getD daily) hf (lsLast M.times) hr steps
  refine ⟨((futureDates (fr.getD daily) (lsLast M.times) steps).zip (L.forecast f steps)).map
    fun r => ⟨r.1, r.2, none, none⟩, ?_, ?_, ?_⟩
  · unfold hwPredict
    rw [hm]
    simp only []
    refine (gm_bind_ok _ _ _).2 ⟨fr, ?_, ?_⟩
    · rcases hfr with rfl | ⟨rfl, h⟩
      · rfl
      · exact h
    refine (gm_bind_ok _ _ _).2 ⟨_, (gm_bind_ok _ _ _).2 ⟨_, ?_, rfl⟩, rfl⟩
    unfold hwFrame mkFcst
    exact if_pos (by rw [d2, hlen])
  · rw [List.length_map, List.length_zip, d2, hlen, min_self]
  · intro j h
    have hz : ((futureDates (fr.getD daily) (lsLast M.times) steps).zip (L.forecast f steps))[j]?
        = some ((fr.getD daily).next^[j + 1] (lsLast M.times), (L.forecast f steps)[j]) := by
      apply List.getElem?_zip_eq_some.2
      refine ⟨?_, List.getElem?_eq_getElem h⟩
      rw [d1, List.getElem?_map, List.getElem?_range (by omega)]
      rfl
    rw [List.getElem?_map, hz]
    rfl

/-- C154 (Holt-Winters, history): with the history the same rows come after one row for each value of the series, at its
time, without bounds. -/
theorem C154_hw_history (L : HwLib F) (infer : List Int → Except Err (Option DateFreq)) (ppf : ℝ → ℝ)
    (pinv : List (List ℝ) → List ℝ → List ℝ) (cv : List String → EciParams → Except Err (List (List ℝ)))
    (M : HwModel F) (f : F) (hm : M.model = some f) (steps : Nat) (freq : Option (Option DateFreq)) (ci : Option HwCi)
    (hl : (L.history f 0 (M.times.length - 1)).length = M.times.length) (fc : List FcstRow) :
    hwPredict L infer ppf pinv cv M steps false freq ci = .ok fc ↔
      ∃ h, hwPredict L infer ppf pinv cv M steps true freq ci = .ok (h ++ fc) ∧ h.map (·.time) = M.times
        ∧ h.map (·.fcst) = L.history f 0 (M.times.length - 1) ∧ ∀ r ∈ h, r.lower = none ∧ r.upper = none := by
  have hmk : mkFcst M.times (L.history f 0 (M.times.length - 1))
      = .ok (M.times.zip (L.history f 0 (M.times.length - 1))) := if_pos hl.symm
  unfold hwPredict
  rw [hm]
  simp only [Bool.false_eq_true, if_false, if_true]
  constructor
  · intro h
    obtain ⟨fr, h1, h⟩ := (gm_bind_ok _ _ _).1 h
    obtain ⟨g, h2, h⟩ := (gm_bind_ok _ _ _).1 h
    injection h with h
    subst h
    refine ⟨(M.times.zip (L.history f 0 (M.times.length - 1))).map fun r => ⟨r.1, r.2, none, none⟩, ?_, ?_, ?_, ?_⟩
    · exact (gm_bind_ok _ _ _).2 ⟨fr, h1, (gm_bind_ok _ _ _).2 ⟨g, h2, (gm_bind_ok _ _ _).2 ⟨_, hmk, rfl⟩⟩⟩
    · rw [List.map_map]
      exact List.map_fst_zip (by rw [hl])
    · rw [List.map_map]
      exact List.map_snd_zip (by rw [hl])
    · intro r hr
      obtain ⟨x, -, rfl⟩ := List.mem_map.1 hr
      exact ⟨rfl, rfl⟩
  · rintro ⟨h', h, ht, -, -⟩
    obtain ⟨fr, h1, h⟩ := (gm_bind_ok _ _ _).1 h
    obtain ⟨g, h2, h⟩ := (gm_bind_ok _ _ _).1 h
    obtain ⟨hh, h3, h⟩ := (gm_bind_ok _ _ _).1 h
    injection h with h
    rw [hmk] at h3
    injection h3 with h3
    refine (gm_bind_ok _ _ _).2 ⟨fr, h1, (gm_bind_ok _ _ _).2 ⟨g, h2, ?_⟩⟩
    rw [(List.append_inj h (by rw [← h3, List.length_map, List.length_zip, hl, min_self, ← ht, List.length_map])).2]

/-- What `predict` with an interval does. -/
theorem hw_ci (L : HwLib F) (infer : List Int → Except Err (Option DateFreq)) (ppf : ℝ → ℝ)
    (pinv : List (List ℝ) → List ℝ → List ℝ) (cv : List String → EciParams → Except Err (List (List ℝ)))
    (M : HwModel F) (f : F) (hm : M.model = some f) (steps : Nat) (freq : Option (Option DateFreq)) (a : HwCi)
    (out : List FcstRow) :
    hwPredict L infer ppf pinv cv M steps false freq (some a) = .ok out ↔
      (∃ fr, freq = some fr ∨ freq = none ∧ infer M.times = .ok fr)
      ∧ ∃ p raw g rows, eciInit ⟨a.train, a.test, a.sliding.getD (M.times.length / 5 : Nat), 1 - a.alpha⟩ = .ok p
        ∧ cv a.errors p = .ok raw ∧ L.fit M.values M.params = .ok g
        ∧ mkFcst (futureDates daily (lsLast M.times) steps) (L.forecast g steps) = .ok rows
        ∧ getEci ppf pinv p raw rows steps = .ok out := by
  unfold hwPredict
  rw [hm]
  simp only [Bool.false_eq_true, if_false]
  constructor
  · intro h
    obtain ⟨fr, h1, h⟩ := (gm_bind_ok _ _ _).1 h
    obtain ⟨o, h2, h⟩ := (gm_bind_ok _ _ _).1 h
    obtain ⟨p, h3, h2⟩ := (gm_bind_ok _ _ _).1 h2
    obtain ⟨raw, h4, h2⟩ := (gm_bind_ok _ _ _).1 h2
    obtain ⟨g, h5, h2⟩ := (gm_bind_ok _ _ _).1 h2
    obtain ⟨rows, h6, h2⟩ := (gm_bind_ok _ _ _).1 h2
    injection h with h
    subst h
    refine ⟨⟨fr, ?_⟩, p, raw, g, rows, h3, h4, h5, h6, h2⟩
    rcases freq with _ | x
    · exact .inr ⟨rfl, h1⟩
    · injection h1 with h1
      exact .inl (by rw [h1])
  · rintro ⟨⟨fr, h1⟩, p, raw, g, rows, h3, h4, h5, h6, h2⟩
    refine (gm_bind_ok _ _ _).2 ⟨fr, ?_, (gm_bind_ok _ _ _).2 ⟨out, (gm_bind_ok _ _ _).2 ⟨p, h3,
      (gm_bind_ok _ _ _).2 ⟨raw, h4, (gm_bind_ok _ _ _).2 ⟨g, h5, (gm_bind_ok _ _ _).2 ⟨rows, h6, h2⟩⟩⟩⟩, rfl⟩⟩
    rcases h1 with rfl | ⟨rfl, h⟩
    · rfl
    · exact h

theorem daily_next (t : Int) (n : Nat) : daily.next^[n] t = t + n := by
  induction n with
  | zero => simp
  | succ n ih =>
    rw [Function.iterate_succ_apply', ih]
    show t + n + 1 = _
    push_cast
    ring

/-- C154 (Holt-Winters, interval), the part that holds: with an interval the forecasts are those of the model fitted to the
values, and the bounds of step `h` lie `ppf(1 - alpha) * (a h + b)` to both sides, where `a h + b` is the line through the
standard errors of backtests with the given percentages, and a fifth of the length as the number of sliding steps if none
is given. -/
theorem C154_hw_interval_partial (L : HwLib F) (infer : List Int → Except Err (Option DateFreq)) (ppf : ℝ → ℝ)
    (pinv : List (List ℝ) → List ℝ → List ℝ) (cv : List String → EciParams → Except Err (List (List ℝ)))
    (M : HwModel F) (f : F) (hm : M.model = some f) (hfit : L.fit M.values M.params = .ok f) (steps : Nat)
    (fr : Option DateFreq) (c : HwCi) (hlen : (L.forecast f steps).length = steps)
    (h1 : 0 < c.train ∧ c.train ≤ 100) (h2 : 0 < c.test ∧ c.test ≤ 100) (h3 : ∀ s ∈ c.sliding, 0 ≤ s)
    (E : List (List ℝ))
    (hcv : cv c.errors ⟨c.train, c.test, c.sliding.getD (M.times.length / 5 : Nat), 1 - c.alpha⟩ = .ok E) (a b : ℝ)
    (hE : getLr pinv (some (runCv E)) = .ok (some [a, b])) :
    ∃ out, hwPredict L infer ppf pinv cv M steps false (some fr) (some c) = .ok out
      ∧ out.map (·.fcst) = L.forecast f steps
      ∧ ∀ i (hi : i < out.length), out[i].lower = some (out[i].fcst - ppf (1 - c.alpha) * (a * (i + 1) + b))
          ∧ out[i].upper = some (out[i].fcst + ppf (1 - c.alpha) * (a * (i + 1) + b)) := by
  obtain ⟨d1, d2, -, -⟩ := C78_dates_partial daily (fun t => by show t < t + 1; omega) (lsLast M.times) rfl steps
  obtain ⟨p, hp⟩ : ∃ p : EciParams, p = ⟨c.train, c.test, c.sliding.getD (M.times.length / 5 : Nat), 1 - c.alpha⟩ :=
    ⟨_, rfl⟩
  have hi : eciInit p = .ok p := by
    refine (C114_init_partial p).1.2 ⟨by rw [hp]; exact h1, by rw [hp]; exact h2, ?_⟩
    rw [hp]
    show 0 ≤ c.sliding.getD _
    rcases hs : c.sliding with _ | s
    · exact Int.natCast_nonneg _
    · exact h3 s hs
  have hmk : mkFcst (futureDates daily (lsLast M.times) steps) (L.forecast f steps)
      = .ok ((futureDates daily (lsLast M.times) steps).zip (L.forecast f steps)) := if_pos (by rw [d2, hlen])
  obtain ⟨⟨out, ho, hmap, hb⟩, -⟩ := C114_interval ppf pinv p E
    ((futureDates daily (lsLast M.times) steps).zip (L.forecast f steps)) a b hE
  rw [List.length_zip, d2, hlen, min_self] at ho
  refine ⟨out, (hw_ci _ _ _ _ _ _ _ hm _ _ _ _).2 ⟨⟨fr, .inl rfl⟩, p, E, f, _, by rw [← hp]; exact hi,
    by rw [hp]; exact hcv, hfit, hmk, ho⟩, ?_, ?_⟩
  · have := congrArg (List.map Prod.snd) hmap
    rw [List.map_map] at this
    refine Eq.trans this (List.map_snd_zip ?_)
    rw [d2, hlen]
  · intro i h
    have := hb i h
    rw [hp] at this
    exact this

theorem eci_times (ppf : ℝ → ℝ) (pinv : List (List ℝ) → List ℝ → List ℝ) (p : EciParams) (E : List (List ℝ))
    (rows : List (Int × ℝ)) (steps : Nat) (out : List FcstRow) (h : getEci ppf pinv p E rows steps = .ok out) :
    out.map (·.time) = rows.map (·.1) := by
  unfold getEci at h
  obtain ⟨c, -, h⟩ := (gm_bind_ok _ _ _).1 h
  split at h
  · rename_i hl
    injection h with h
    subst h
    rw [List.map_zipWith]
    apply List.ext_getElem?
    intro i
    rw [List.getElem?_zipWith, List.getElem?_map, List.getElem?_map]
    rcases Nat.lt_or_ge i rows.length with hi | hi
    · rw [List.getElem?_eq_getElem hi, List.getElem?_range (by omega)]
      rfl
    · rw [List.getElem?_eq_none hi]
      rfl
  · cases h

/-- C154 (Holt-Winters, dates with an interval, violated): the dates are the days after the last one, whatever the
frequency of the series and whatever frequency is asked for, for which the forecast is the same. -/
theorem C154_hw_dates_violated (L : HwLib F) (infer : List Int → Except Err (Option DateFreq)) (ppf : ℝ → ℝ)
    (pinv : List (List ℝ) → List ℝ → List ℝ) (cv : List String → EciParams → Except Err (List (List ℝ)))
    (M : HwModel F) (steps : Nat) (freq : Option (Option DateFreq)) (a : HwCi) (out : List FcstRow)
    (h : hwPredict L infer ppf pinv cv M steps false freq (some a) = .ok out) :
    out.map (·.time) = (List.range steps).map (fun i : Nat => lsLast M.times + (i + 1))
    ∧ ∀ fr, hwPredict L infer ppf pinv cv M steps false (some fr) (some a) = .ok out := by
  rcases hm : M.model with _ | f
  · unfold hwPredict at h
    rw [hm] at h
    cases h
  obtain ⟨-, p, raw, g, rows, h3, h4, h5, h6, h2⟩ := (hw_ci _ _ _ _ _ _ _ hm _ _ _ _).1 h
  obtain ⟨d1, d2, -, -⟩ := C78_dates_partial daily (fun t => by show t < t + 1; omega) (lsLast M.times) rfl steps
  refine ⟨?_, fun fr => (hw_ci _ _ _ _ _ _ _ hm _ _ _ _).2 ⟨⟨fr, .inl rfl⟩, p, raw, g, rows, h3, h4, h5, h6, h2⟩⟩
  rw [eci_times _ _ _ _ _ _ _ h2]
  unfold mkFcst at h6
  split at h6
  · rename_i hl
    injection h6 with h6
    rw [← h6, List.map_fst_zip (by rw [hl]), d1]
    apply List.map_congr_left
    intro i _
    rw [daily_next]
    push_cast
    ring
  · cases h6

/-- C154 (Holt-Winters, level, violated): `alpha` is taken as the probability of each side.  For errors with a symmetric
distribution and the standard error that the line gives, the interval has the probability `1 - 2 alpha` and not
`1 - alpha`; and if `alpha` is above one half, where the quantile is negative, the lower bound lies above the upper one. -/
theorem C154_hw_level_violated (L : HwLib F) (infer : List Int → Except Err (Option DateFreq)) (cdf ppf : ℝ → ℝ)
    (pinv : List (List ℝ) → List ℝ → List ℝ) (cv : List String → EciParams → Except Err (List (List ℝ)))
    (M : HwModel F) (f : F) (hm : M.model = some f) (hfit : L.fit M.values M.params = .ok f) (steps : Nat)
    (fr : Option DateFreq) (c : HwCi) (hlen : (L.forecast f steps).length = steps)
    (h1 : 0 < c.train ∧ c.train ≤ 100) (h2 : 0 < c.test ∧ c.test ≤ 100) (h3 : ∀ s ∈ c.sliding, 0 ≤ s)
    (E : List (List ℝ))
    (hcv : cv c.errors ⟨c.train, c.test, c.sliding.getD (M.times.length / 5 : Nat), 1 - c.alpha⟩ = .ok E) (a b : ℝ)
    (hE : getLr pinv (some (runCv E)) = .ok (some [a, b])) (hsym : ∀ x, cdf (-x) = 1 - cdf x)
    (hc : cdf (ppf (1 - c.alpha)) = 1 - c.alpha) (h0 : 0 < c.alpha) :
    ∃ out, hwPredict L infer ppf pinv cv M steps false (some fr) (some c) = .ok out ∧ out.length = steps
      ∧ ∀ i (hi : i < out.length), 0 < a * (i + 1) + b → ∃ l u, out[i].lower = some l ∧ out[i].upper = some u
        ∧ cdf ((u - out[i].fcst) / (a * (i + 1) + b)) - cdf ((l - out[i].fcst) / (a * (i + 1) + b)) = 1 - 2 * c.alpha
        ∧ 1 - 2 * c.alpha < 1 - c.alpha
        ∧ (ppf (1 - c.alpha) < 0 → u < l) := by
  obtain ⟨out, ho, hfc, hb⟩ := C154_hw_interval_partial L infer ppf pinv cv M f hm hfit steps fr c hlen h1 h2 h3 E hcv a b hE
  refine ⟨out, ho, by rw [← hlen, ← hfc, List.length_map], fun i hi hse => ⟨_, _, (hb i hi).1, (hb i hi).2, ?_, ?_, ?_⟩⟩
  · rw [add_sub_cancel_left, sub_sub_cancel_left, neg_div, mul_div_assoc, div_self (ne_of_gt hse), mul_one, hsym, hc]
    ring
  · linarith
  · intro h
    nlinarith

/-- A library whose forecasts are the last value. -/
noncomputable def hwToy : HwLib ℝ :=
  ⟨fun v _ => .ok (v.getLastD 0), fun f k => List.replicate k f, fun f a b => List.replicate (b + 1 - a) f⟩

noncomputable def hwSeries : HwModel ℝ := ⟨[1, 2, 5], [4, 7, 6], ⟨some "add", false, none, none⟩, some 6⟩

example : ∃ out, hwPredict hwToy (fun _ => .ok none) id (fun _ _ => []) (fun _ _ => .ok []) hwSeries 2 false none none = .ok out
    ∧ out[1]? = some ⟨7, 6, none, none⟩ := by
  obtain ⟨out, h1, -, h3⟩ := C154_hw_forecast hwToy (fun _ => .ok none) id (fun _ _ => []) (fun _ _ => .ok []) hwSeries 6 rfl 2
    none none (.inr ⟨rfl, rfl⟩) (by simp [hwToy]) (fun t => by show t < t + 1; omega) rfl
  exact ⟨out, h1, (h3 1 (by simp [hwToy])).trans (by simp [hwToy, daily, hwSeries, lsLast, maxTime])⟩

/-- With the uniform distribution on [-1, 1] and `alpha = 0.9`, the value in the test of the model, the lower bound is above
the upper one. -/
example : ∃ out, hwPredict hwToy (fun _ => .ok none) (fun q => 2 * q - 1) (fun _ _ => [])
      (fun _ _ => .ok [[3, 2, 1], [-3, -2, -1]]) hwSeries 2 false (some none) (some ⟨9 / 10, ["mape"], 70, 10, none⟩) = .ok out
    ∧ ∃ r ∈ out, ∃ l u, r.lower = some l ∧ r.upper = some u ∧ u < l := by
  have hl : getLr (fun _ _ => []) (some (runCv [[3, 2, 1], [-3, -2, -1]])) = .ok (some [-Real.sqrt 2, 4 * Real.sqrt 2]) := by
    rw [eci_falling_se]
    apply getLr_exact _ _ (by simp)
    intro i hi
    have : i = 0 ∨ i = 1 ∨ i = 2 := by simp at hi; omega
    rcases this with rfl | rfl | rfl <;> simp <;> ring
  obtain ⟨out, h1, h2, h3⟩ := C154_hw_level_violated hwToy (fun _ => .ok none) (fun x => (x + 1) / 2) (fun q => 2 * q - 1)
    (fun _ _ => []) (fun _ _ => .ok [[3, 2, 1], [-3, -2, -1]]) hwSeries 6 rfl rfl 2 none ⟨9 / 10, ["mape"], 70, 10, none⟩
    (by simp [hwToy]) (by norm_num) (by norm_num) (by simp) _ rfl _ _ hl (fun x => by ring) (by ring) (by norm_num)
  have hpos : (0 : ℝ) < Real.sqrt 2 := Real.sqrt_pos.2 (by norm_num)
  obtain ⟨l, u, hlo, hup, -, -, hlt⟩ := h3 0 (by omega) (by push_cast; linarith)
  exact ⟨out, h1, out[0]'(by omega), List.getElem_mem _, l, u, hlo, hup, hlt (by norm_num)⟩

/-! ## VAR -/

theorem var_lags (n m : Nat) : varMaxlags n = m ↔ 100 * m ^ 4 ≤ 20736 * n ∧ 20736 * n < 100 * (m + 1) ^ 4 := by
  unfold varMaxlags
  obtain ⟨y, hy⟩ : ∃ y : ℝ, y = ((n : ℝ) / 100) ^ (1 / 4 : ℝ) := ⟨_, rfl⟩
  have hx : (0 : ℝ) ≤ (n : ℝ) / 100 := by positivity
  have hy0 : 0 ≤ y := by rw [hy]; positivity
  have hy4 : y ^ 4 = (n : ℝ) / 100 := by
    rw [hy, ← Real.rpow_natCast, ← Real.rpow_mul hx]
    norm_num
  have h4 : (12 * y) ^ 4 = 20736 * n / 100 := by
    rw [mul_pow, hy4]
    ring
  rw [← hy, Nat.floor_eq_iff (by positivity)]
  have k1 : (m : ℝ) ≤ 12 * y ↔ 100 * m ^ 4 ≤ 20736 * n := by
    rw [← pow_le_pow_iff_left₀ (Nat.cast_nonneg m) (by positivity) (show (4 : Nat) ≠ 0 by norm_num), h4,
      le_div_iff₀ (by norm_num)]
    constructor
    · intro h
      have : ((100 * m ^ 4 : Nat) : ℝ) ≤ ((20736 * n : Nat) : ℝ) := by push_cast; linarith
      exact_mod_cast this
    · intro h
      have : ((100 * m ^ 4 : Nat) : ℝ) ≤ ((20736 * n : Nat) : ℝ) := by exact_mod_cast h
      push_cast at this
      linarith
  have k2 : 12 * y < (m : ℝ) + 1 ↔ 20736 * n < 100 * (m + 1) ^ 4 := by
    rw [← pow_lt_pow_iff_left₀ (by positivity) (by positivity) (show (4 : Nat) ≠ 0 by norm_num), h4,
      div_lt_iff₀ (by norm_num)]
    constructor
    · intro h
      have : ((20736 * n : Nat) : ℝ) < ((100 * (m + 1) ^ 4 : Nat) : ℝ) := by push_cast; linarith
      exact_mod_cast this
    · intro h
      have : ((20736 * n : Nat) : ℝ) < ((100 * (m + 1) ^ 4 : Nat) : ℝ) := by exact_mod_cast h
      push_cast at this
      linarith
  rw [k1, k2]

/-- C154 (VAR, `fit`): a series of one column is not accepted, and nothing is forecast before a fit; the number of lags is
the given one, else the greatest whole number that is not above `12 (n / 100)^(1/4)`. -/
theorem C154_var_fit (L : VarLib R F) (infer : List Int → Except Err (Option DateFreq)) (times : List Int)
    (names : List String) (values : List (List (Option Rat))) (p : VarParams R) :
    (varInit times false names values : Except Err (VarModel F)) = .error .valueError
    ∧ ∃ M : VarModel F, varInit times true names values = .ok M
      ∧ (∀ steps h freq a, varPredict L infer M steps h freq a = .error .valueError)
      ∧ (∀ m M', p.maxlags = some m → ((varFit L p M).2 = .ok M' ↔ ∃ f, L.fit values m p.rest = .ok f
          ∧ M' = ⟨times, names, values, some f, none⟩))
      ∧ (∀ M', p.maxlags = none → ((varFit L p M).2 = .ok M' ↔ ∃ m f, (100 * m ^ 4 ≤ 20736 * times.length
          ∧ 20736 * times.length < 100 * (m + 1) ^ 4) ∧ L.fit values m p.rest = .ok f
          ∧ M' = ⟨times, names, values, some f, none⟩)) := by
  refine ⟨rfl, ⟨times, names, values, none, none⟩, rfl, fun _ _ _ _ => rfl, ?_, ?_⟩
  · intro m M' hp
    unfold varFit
    rw [hp]
    simp only [Option.getD_some]
    constructor
    · intro h
      obtain ⟨f, hf, h⟩ := (gm_bind_ok _ _ _).1 h
      injection h with h
      exact ⟨f, hf, h.symm⟩
    · rintro ⟨f, hf, rfl⟩
      exact (gm_bind_ok _ _ _).2 ⟨f, hf, rfl⟩
  · intro M' hp
    unfold varFit
    rw [hp]
    simp only [Option.getD_none]
    constructor
    · intro h
      obtain ⟨f, hf, h⟩ := (gm_bind_ok _ _ _).1 h
      injection h with h
      exact ⟨_, f, (var_lags _ _).1 rfl, hf, h.symm⟩
    · rintro ⟨m, f, hm, hf, rfl⟩
      refine (gm_bind_ok _ _ _).2 ⟨f, ?_, rfl⟩
      rw [(var_lags _ _).2 hm]
      exact hf

/-- C154 (VAR, number of lags, violated): the default is written into the parameters, also if the fit fails; another model
with the same object is fitted with the number of lags of the first series, however long its own is.  For a series of up to
five values the default is not less than the number of values. -/
theorem C154_var_lags_violated (L : VarLib R F) (p : VarParams R) (hp : p.maxlags = none) (M M₂ : VarModel F) :
    (∃ m, (100 * m ^ 4 ≤ 20736 * M.times.length ∧ 20736 * M.times.length < 100 * (m + 1) ^ 4)
      ∧ (varFit L p M).1.maxlags = some m
      ∧ (varFit L (varFit L p M).1 M₂).2.map (·.model) = (L.fit M₂.values m p.rest).map some
      ∧ (M.times.length ≤ 5 → M.times.length ≤ m))
    ∧ ∃ n₁ n₂ m₁ m₂ : Nat, varMaxlags n₁ = m₁ ∧ varMaxlags n₂ = m₂ ∧ n₂ < m₁ ∧ m₂ < m₁ := by
  refine ⟨⟨varMaxlags M.times.length, (var_lags _ _).1 rfl, ?_, ?_, ?_⟩, ?_⟩
  · unfold varFit; rw [hp]; rfl
  · unfold varFit
    rw [hp]
    simp only [Option.getD_none, Option.getD_some]
    rcases L.fit M₂.values (varMaxlags M.times.length) p.rest with e | f <;> rfl
  · intro h
    obtain ⟨m, hm⟩ : ∃ m, m = varMaxlags M.times.length := ⟨_, rfl⟩
    have := (var_lags _ _).1 hm.symm
    rw [← hm]
    by_contra hc
    push Not at hc
    have h1 : (m + 1) ^ 4 ≤ M.times.length ^ 4 := Nat.pow_le_pow_left hc 4
    have h2 : M.times.length ^ 3 ≤ 5 ^ 3 := Nat.pow_le_pow_left h 3
    have h3 : M.times.length ^ 4 = M.times.length ^ 3 * M.times.length := pow_succ _ 3
    have h4 : M.times.length ^ 3 * M.times.length ≤ 5 ^ 3 * M.times.length := Nat.mul_le_mul_right _ h2
    omega
  · exact ⟨100, 9, 12, 6, (var_lags _ _).2 (by norm_num), (var_lags _ _).2 (by norm_num), by norm_num, by norm_num⟩

theorem hv_mapM {α β : Type} (f : α → Except Err β) (g : α → β) : ∀ l : List α, (∀ a ∈ l, f a = .ok (g a)) →
    l.mapM f = .ok (l.map g)
  | [], _ => rfl
  | a :: l, h => by
    rw [List.mapM_cons, h a (List.mem_cons_self ..), hv_mapM f g l fun x hx => h x (List.mem_cons_of_mem _ hx)]
    rfl

theorem var_dates (f : DateFreq) (last : Int) (steps : Nat) :
    varDates f last steps = (List.range steps).map fun i => f.next^[i + 1] (f.roll last) := by
  unfold varDates pdDateRange
  rw [List.range_succ_eq_map, List.map_cons, List.drop_succ_cons, List.drop_zero, List.map_map]
  rfl

/-- The rows of column `i` of the forecast. -/
def varRows (f : DateFreq) (last : Int) (steps : Nat) (fc : List (List SmRow)) (i : Nat) : List FcRow :=
  List.zipWith (fun t (r : SmRow) => ⟨t, r.mean, r.lower, r.upper⟩) (varDates f last steps)
    (varColumn ⟨none, none, none⟩ i fc)

/-- The rows of column `i` of the past. -/
def varPast (times : List Int) (fitted : List (List (Option Rat))) (i : Nat) : List FcRow :=
  ((times.drop (times.length - fitted.length)).zip (varColumn none i fitted)).map fun r => ⟨r.1, r.2, none, none⟩

/-- The frames by name. -/
def varDict (M : VarModel F) (f : DateFreq) (steps : Nat) (fc : List (List SmRow)) (hist : Option (List (List (Option Rat)))) :
    List (String × List FcRow) :=
  M.names.zipIdx.map fun x => (x.1, (hist.map fun h => varPast M.times h x.2).getD []
    ++ varRows f (lsLast M.times) steps fc x.2)

theorem var_predict (L : VarLib R F) (infer : List Int → Except Err (Option DateFreq)) (M : VarModel F) (f : F)
    (hm : M.model = some f) (steps : Nat) (freq : Option (Option DateFreq)) (a : Rat) (inf : Option DateFreq)
    (hi : infer M.times = .ok inf) (fc : List (List SmRow)) (hfc : L.interval f steps a = .ok fc)
    (hl : fc.length = steps) (history : Bool)
    (hh : history = true → 0 < (L.fitted f).length ∧ (L.fitted f).length ≤ M.times.length) :
    varPredict L infer M steps history freq a
      = .ok (varDict M ((freq.getD inf).getD daily) steps fc (if history = true then some (L.fitted f) else none),
        { M with fcst := some (varDates ((freq.getD inf).getD daily) (lsLast M.times) steps,
          varDict M ((freq.getD inf).getD daily) steps fc (if history = true then some (L.fitted f) else none)) }) := by
  have hsm : ∀ i, smFrame (varDates ((freq.getD inf).getD daily) (lsLast M.times) steps) (varColumn ⟨none, none, none⟩ i fc)
      = .ok (varRows ((freq.getD inf).getD daily) (lsLast M.times) steps fc i) := by
    intro i
    apply sm_frame
    rw [var_dates, List.length_map, List.length_range]
    unfold varColumn
    rw [List.length_map, hl]
  unfold varPredict
  rw [hm]
  refine (gm_bind_ok _ _ _).2 ⟨inf, hi, (gm_bind_ok _ _ _).2 ⟨fc, hfc, (gm_bind_ok _ _ _).2 ⟨_, hv_mapM _ _ _ ?_, rfl⟩⟩⟩
  intro x _
  refine (gm_bind_ok _ _ _).2 ⟨_, hsm x.2, ?_⟩
  rcases history with _ | _
  · rw [if_neg (by simp), if_neg (by simp)]
    rfl
  · rw [if_pos rfl, if_pos rfl]
    obtain ⟨h1, h2⟩ := hh rfl
    refine (gm_bind_ok _ _ _).2 ⟨varPast M.times (L.fitted f) x.2, ?_, rfl⟩
    unfold varHistory
    refine (gm_bind_ok _ _ _).2 ⟨(M.times.drop (M.times.length - (L.fitted f).length)).zip (varColumn none x.2 (L.fitted f)),
      ?_, rfl⟩
    have hd : pyFrom M.times (-((L.fitted f).length : Int)) = M.times.drop (M.times.length - (L.fitted f).length) := by
      unfold pyFrom pyIdx
      rw [if_pos (by omega)]
      congr 1
      omega
    rw [hd]
    unfold mkFcst varColumn
    exact if_pos (by rw [List.length_drop, List.length_map]; omega)

theorem var_rows (f : DateFreq) (last : Int) (steps : Nat) (fc : List (List SmRow)) (hl : fc.length = steps) (i : Nat) :
    (varRows f last steps fc i).map (·.time) = (List.range steps).map (fun j => f.next^[j + 1] (f.roll last))
    ∧ ∀ (j : Nat) (r : List SmRow) (c : SmRow), fc[j]? = some r → r[i]? = some c →
        (varRows f last steps fc i)[j]? = some ⟨f.next^[j + 1] (f.roll last), c.mean, c.lower, c.upper⟩ := by
  unfold varRows varColumn
  rw [var_dates]
  refine ⟨?_, ?_⟩
  · rw [List.map_zipWith]
    apply List.ext_getElem?
    intro j
    rw [List.getElem?_zipWith, List.getElem?_map, List.getElem?_map]
    rcases Nat.lt_or_ge j steps with h | h
    · rw [List.getElem?_range h, List.getElem?_eq_getElem (by omega)]
      rfl
    · rw [List.getElem?_eq_none (by rw [List.length_range]; omega)]
      rfl
  · intro j r c hr hc
    have hj : j < steps := by rw [← hl]; exact (List.getElem?_eq_some_iff.1 hr).1
    rw [List.getElem?_zipWith, List.getElem?_map, List.getElem?_map, hr, List.getElem?_range hj]
    simp only [Option.map_some, List.getD_eq_getElem?_getD, hc, Option.getD_some]

/-- C154 (VAR, forecasts), the part that holds: if the last date is one of the frequency, there is one frame for each
column, with a row for each step at the dates after the last one, and with the mean and the interval of statsmodels for the
level that was asked for. -/
theorem C154_var_forecast_partial (L : VarLib R F) (infer : List Int → Except Err (Option DateFreq)) (M : VarModel F)
    (f : F) (hm : M.model = some f) (steps : Nat) (freq : Option (Option DateFreq)) (a : Rat) (inf : Option DateFreq)
    (hi : infer M.times = .ok inf) (fc : List (List SmRow)) (hfc : L.interval f steps a = .ok fc) (hl : fc.length = steps)
    (hr : ((freq.getD inf).getD daily).roll (lsLast M.times) = lsLast M.times) :
    ∃ out M', varPredict L infer M steps false freq a = .ok (out, M') ∧ out.map (·.1) = M.names ∧ M'.model = M.model
      ∧ ∀ (i : Nat) (n : String) (rows : List FcRow), out[i]? = some (n, rows) → rows.length = steps
        ∧ ∀ (j : Nat) (r : List SmRow) (c : SmRow), fc[j]? = some r → r[i]? = some c → rows[j]?
          = some ⟨((freq.getD inf).getD daily).next^[j + 1] (lsLast M.times), c.mean, c.lower, c.upper⟩ := by
  refine ⟨_, _, var_predict L infer M f hm steps freq a inf hi fc hfc hl false (by simp), ?_, rfl, ?_⟩
  · unfold varDict
    rw [List.map_map]
    exact List.zipIdx_map_fst _ _
  · intro i n rows h
    unfold varDict at h
    rw [List.getElem?_map, List.getElem?_zipIdx] at h
    rcases hn : M.names[i]? with _ | m
    · rw [hn] at h; cases h
    · rw [hn] at h
      injection h with h
      have h2 := congrArg Prod.snd h
      simp only [Bool.false_eq_true, if_false, Option.map_none, Option.getD_none, List.nil_append, Nat.zero_add] at h2
      obtain ⟨k1, k2⟩ := var_rows ((freq.getD inf).getD daily) (lsLast M.times) steps fc hl i
      rw [hr] at k1 k2
      rw [← h2]
      refine ⟨?_, k2⟩
      have := congrArg List.length k1
      rw [List.length_map, List.length_map, List.length_range] at this
      exact this

/-- C154 (VAR, dates, violated): if the last date is not one of the frequency, the first date after it is left out, and the
rows are one date too late; nothing is said (the other models fail then, C78). -/
theorem C154_var_dates_violated (L : VarLib R F) (infer : List Int → Except Err (Option DateFreq)) (M : VarModel F)
    (f : F) (hm : M.model = some f) (steps : Nat) (freq : Option (Option DateFreq)) (a : Rat) (inf : Option DateFreq)
    (hi : infer M.times = .ok inf) (fc : List (List SmRow)) (hfc : L.interval f steps a = .ok fc) (hl : fc.length = steps)
    (hf : ∀ t, t < ((freq.getD inf).getD daily).next t)
    (hr : lsLast M.times < ((freq.getD inf).getD daily).roll (lsLast M.times)) :
    ∃ out M', varPredict L infer M steps false freq a = .ok (out, M') ∧ out.map (·.1) = M.names
      ∧ ∀ (i : Nat) (n : String) (rows : List FcRow), out[i]? = some (n, rows) →
        rows.map (·.time) = (List.range steps).map (fun j =>
          ((freq.getD inf).getD daily).next^[j + 1] (((freq.getD inf).getD daily).roll (lsLast M.times)))
        ∧ ∀ r ∈ rows, ((freq.getD inf).getD daily).roll (lsLast M.times) < r.time := by
  refine ⟨_, _, var_predict L infer M f hm steps freq a inf hi fc hfc hl false (by simp), ?_, ?_⟩
  · unfold varDict
    rw [List.map_map]
    exact List.zipIdx_map_fst _ _
  · intro i n rows h
    unfold varDict at h
    rw [List.getElem?_map, List.getElem?_zipIdx] at h
    rcases hn : M.names[i]? with _ | m
    · rw [hn] at h; cases h
    · rw [hn] at h
      injection h with h
      have h2 := congrArg Prod.snd h
      simp only [Bool.false_eq_true, if_false, Option.map_none, Option.getD_none, List.nil_append, Nat.zero_add] at h2
      obtain ⟨k1, -⟩ := var_rows ((freq.getD inf).getD daily) (lsLast M.times) steps fc hl i
      rw [← h2]
      refine ⟨k1, ?_⟩
      intro r hr'
      have hmem : r.time ∈ (varRows ((freq.getD inf).getD daily) (lsLast M.times) steps fc i).map (·.time) :=
        List.mem_map.2 ⟨r, hr', rfl⟩
      rw [k1] at hmem
      obtain ⟨j, -, hj⟩ := List.mem_map.1 hmem
      rw [← hj]
      exact iterate_gt hf _ (j + 1) (by omega)

/-- C154 (VAR, history), the part that holds: if there are `m` fitted values, `0 < m ≤ n`, each frame begins with them, at
the last `m` times of the series and without bounds, and goes on with the rows of the forecast; the rows are in the order of
time. -/
theorem C154_var_history_partial (L : VarLib R F) (infer : List Int → Except Err (Option DateFreq)) (M : VarModel F)
    (f : F) (hm : M.model = some f) (steps : Nat) (freq : Option (Option DateFreq)) (a : Rat) (inf : Option DateFreq)
    (hi : infer M.times = .ok inf) (fc : List (List SmRow)) (hfc : L.interval f steps a = .ok fc) (hl : fc.length = steps)
    (h0 : 0 < (L.fitted f).length) (hn : (L.fitted f).length ≤ M.times.length)
    (hf : ∀ t, t < ((freq.getD inf).getD daily).next t)
    (hr : lsLast M.times ≤ ((freq.getD inf).getD daily).roll (lsLast M.times)) (hs : M.times.Pairwise (· ≤ ·))
    (out' : List (String × List FcRow)) (M'' : VarModel F)
    (h : varPredict L infer M steps false freq a = .ok (out', M'')) :
    ∃ out M', varPredict L infer M steps true freq a = .ok (out, M') ∧ out.length = out'.length
      ∧ ∀ (i : Nat) (n : String) (rows : List FcRow), out'[i]? = some (n, rows) → ∃ past, out[i]? = some (n, past ++ rows)
        ∧ past.map (·.time) = M.times.drop (M.times.length - (L.fitted f).length)
        ∧ (∀ (j : Nat) (r : List (Option Rat)) (x : Option Rat), (L.fitted f)[j]? = some r → r[i]? = some x →
            ∃ t, past[j]? = some ⟨t, x, none, none⟩)
        ∧ (past ++ rows).Pairwise (fun x y => x.time ≤ y.time) := by
  rw [var_predict L infer M f hm steps freq a inf hi fc hfc hl false (by simp)] at h
  injection h with h
  have ho := congrArg Prod.fst h
  simp only [Bool.false_eq_true, if_false] at ho
  refine ⟨_, _, var_predict L infer M f hm steps freq a inf hi fc hfc hl true (fun _ => ⟨h0, hn⟩), ?_, ?_⟩
  · rw [← ho]
    unfold varDict
    rw [List.length_map, List.length_map]
  intro i n rows hrow
  rw [← ho] at hrow
  unfold varDict at hrow ⊢
  rw [List.getElem?_map, List.getElem?_zipIdx] at hrow ⊢
  rcases hnm : M.names[i]? with _ | m
  · rw [hnm] at hrow; cases hrow
  rw [hnm] at hrow
  injection hrow with hrow
  have e1 := congrArg Prod.fst hrow
  have e2 := congrArg Prod.snd hrow
  simp only [Option.map_none, Option.getD_none, List.nil_append, Nat.zero_add] at e1 e2
  have hlen : (varColumn none i (L.fitted f)).length = (L.fitted f).length := by
    unfold varColumn
    rw [List.length_map]
  have htimes : (varPast M.times (L.fitted f) i).map (·.time) = M.times.drop (M.times.length - (L.fitted f).length) := by
    unfold varPast
    rw [List.map_map]
    refine List.map_fst_zip ?_
    rw [List.length_drop, hlen]
    omega
  refine ⟨varPast M.times (L.fitted f) i, ?_, htimes, ?_, ?_⟩
  · simp only [if_true, Option.map_some, Option.getD_some, Nat.zero_add, e1, e2]
  · intro j r x hj hx
    have hjl := (List.getElem?_eq_some_iff.1 hj).1
    have hd : M.times.length - (L.fitted f).length + j < M.times.length := by omega
    refine ⟨M.times[M.times.length - (L.fitted f).length + j], ?_⟩
    unfold varPast
    have hz : ((M.times.drop (M.times.length - (L.fitted f).length)).zip (varColumn none i (L.fitted f)))[j]?
        = some (M.times[M.times.length - (L.fitted f).length + j], x) := by
      apply List.getElem?_zip_eq_some.2
      refine ⟨?_, ?_⟩
      · rw [List.getElem?_drop, List.getElem?_eq_getElem hd]
      · unfold varColumn
        rw [List.getElem?_map, hj, Option.map_some, List.getD_eq_getElem?_getD, hx]
        rfl
    rw [List.getElem?_map, hz]
    rfl
  · obtain ⟨k1, -⟩ := var_rows ((freq.getD inf).getD daily) (lsLast M.times) steps fc hl i
    have hp : ((varPast M.times (L.fitted f) i ++ rows).map (·.time)).Pairwise (· ≤ ·) := by
      rw [List.map_append, htimes, ← e2, k1, List.pairwise_append]
      refine ⟨hs.sublist (List.drop_sublist _ _), ?_, ?_⟩
      · rw [List.pairwise_map]
        refine List.pairwise_lt_range.imp ?_
        intro x y hxy
        obtain ⟨d, rfl⟩ := Nat.exists_eq_add_of_lt hxy
        rw [show x + d + 1 + 1 = (d + 1) + (x + 1) by omega, Function.iterate_add_apply _ (d + 1) (x + 1)]
        exact le_of_lt (iterate_gt hf _ (d + 1) (by omega))
      · intro t ht u hu
        obtain ⟨j, -, rfl⟩ := List.mem_map.1 hu
        have h1 : t ≤ lsLast M.times := by
          have ht' := List.mem_of_mem_drop ht
          unfold lsLast
          rcases hq : M.times with _ | ⟨t0, l⟩
          · rw [hq] at ht'; cases ht'
          · rw [hq] at ht'
            have hmem : (t, (0 : Rat)) ∈ (t0 :: l).map fun t => (t, (0 : Rat)) := List.mem_map.2 ⟨t, ht', rfl⟩
            exact (maxTime_spec (t0, 0) (l.map fun t => (t, 0))).2 (t, 0) hmem
        have h2 := iterate_gt hf (((freq.getD inf).getD daily).roll (lsLast M.times)) (j + 1) (by omega)
        omega
    exact List.pairwise_map.1 hp

/-- C154 (VAR, no fitted values, violated): if the model has as many lags as there are values, the past cannot be joined:
`iloc[-0:]` takes all times. -/
theorem C154_var_empty_violated (L : VarLib R F) (infer : List Int → Except Err (Option DateFreq)) (M : VarModel F)
    (f : F) (hm : M.model = some f) (steps : Nat) (freq : Option (Option DateFreq)) (a : Rat)
    (hfit : L.fitted f = []) (hn : M.names ≠ []) (ht : M.times ≠ []) :
    ∀ r, varPredict L infer M steps true freq a ≠ .ok r := by
  intro r h
  unfold varPredict at h
  rw [hm] at h
  obtain ⟨inf, -, h⟩ := (gm_bind_ok _ _ _).1 h
  obtain ⟨fc, -, h⟩ := (gm_bind_ok _ _ _).1 h
  obtain ⟨d, hd, -⟩ := (gm_bind_ok _ _ _).1 h
  rcases hq : M.names with _ | ⟨n, l⟩
  · exact hn hq
  rw [hq, List.zipIdx_cons, List.mapM_cons] at hd
  obtain ⟨y, hy, -⟩ := (gm_bind_ok _ _ _).1 hd
  obtain ⟨df, -, hy⟩ := (gm_bind_ok _ _ _).1 hy
  rw [if_pos rfl] at hy
  obtain ⟨hh, hy, -⟩ := (gm_bind_ok _ _ _).1 hy
  unfold varHistory at hy
  obtain ⟨z, hz, -⟩ := (gm_bind_ok _ _ _).1 hy
  rw [hfit] at hz
  unfold mkFcst at hz
  rw [if_neg (by
    unfold varColumn pyFrom pyIdx
    rw [if_neg (by simp)]
    rcases ht' : M.times with _ | ⟨t, ts⟩
    · exact absurd ht' ht
    · simp)] at hz
  cases hz

theorem var_rows_length (f : DateFreq) (last : Int) (steps : Nat) (fc : List (List SmRow)) (hl : fc.length = steps) (i : Nat) :
    (varRows f last steps fc i).length = steps := by
  have := congrArg List.length (var_rows f last steps fc hl i).1
  rw [List.length_map, List.length_map, List.length_range] at this
  exact this

/-- C154 (VAR, chart), the part that holds: before a forecast, and with given axes, the chart is refused; after a forecast
without the history it shows the first two columns and no others. -/
theorem C154_var_plot_partial (L : VarLib R F) (infer : List Int → Except Err (Option DateFreq)) (M : VarModel F)
    (f : F) (hm : M.model = some f) (steps : Nat) (freq : Option (Option DateFreq)) (a : Rat) (inf : Option DateFreq)
    (hi : infer M.times = .ok inf) (fc : List (List SmRow)) (hfc : L.interval f steps a = .ok fc) (hl : fc.length = steps) :
    (M.fcst = none → ∀ ax, varPlot M ax = .error .valueError)
    ∧ ∃ out M', varPredict L infer M steps false freq a = .ok (out, M') ∧ varPlot M' true = .error .valueError
      ∧ varPlot M' false = .ok (M.names.take 2) := by
  refine ⟨?_, _, _, var_predict L infer M f hm steps freq a inf hi fc hfc hl false (by simp), rfl, ?_⟩
  · intro h ax
    unfold varPlot
    rw [h]
  unfold varPlot
  simp only [Bool.false_eq_true, if_false]
  rw [hv_mapM _ Prod.fst]
  · congr 1
    rw [List.map_take]
    congr 1
    unfold varDict
    rw [List.map_map]
    exact List.zipIdx_map_fst _ _
  · intro x hx
    have hx := List.mem_of_mem_take hx
    unfold varDict at hx
    obtain ⟨y, -, rfl⟩ := List.mem_map.1 hx
    rw [if_pos]
    simp only [Option.map_none, Option.getD_none, List.nil_append]
    rw [var_rows_length _ _ _ _ hl, var_dates, List.length_map, List.length_range]

/-- C154 (VAR, chart, violated): after a forecast with the history the chart fails, whatever the data. -/
theorem C154_var_plot_violated (L : VarLib R F) (infer : List Int → Except Err (Option DateFreq)) (M : VarModel F)
    (f : F) (hm : M.model = some f) (steps : Nat) (freq : Option (Option DateFreq)) (a : Rat) (inf : Option DateFreq)
    (hi : infer M.times = .ok inf) (fc : List (List SmRow)) (hfc : L.interval f steps a = .ok fc) (hl : fc.length = steps)
    (h0 : 0 < (L.fitted f).length) (hn : (L.fitted f).length ≤ M.times.length) (hne : M.names ≠ []) :
    ∃ out M', varPredict L infer M steps true freq a = .ok (out, M') ∧ ∀ ax, varPlot M' ax = .error .valueError := by
  refine ⟨_, _, var_predict L infer M f hm steps freq a inf hi fc hfc hl true (fun _ => ⟨h0, hn⟩), ?_⟩
  rintro (_ | _)
  · unfold varPlot varDict
    rcases hq : M.names with _ | ⟨n, l⟩
    · exact absurd hq hne
    simp only [Bool.false_eq_true, if_false, if_true, List.zipIdx_cons, List.map_cons, List.take_succ_cons,
      List.mapM_cons, Option.map_some, Option.getD_some]
    rw [if_neg]
    · rfl
    · rw [List.length_append, var_rows_length _ _ _ _ hl, var_dates, List.length_map, List.length_range]
      unfold varPast varColumn
      rw [List.length_map, List.length_zip, List.length_drop, List.length_map]
      omega
  · rfl

/-- A library with two columns whose forecasts are the last row, with a lag of one. -/
def varToy : VarLib Unit (List (List (Option Rat))) :=
  ⟨fun v m _ => if m < v.length then .ok v else .error .valueError,
   fun f k a => .ok (List.replicate k ((f.getLastD []).map fun x => ⟨x, x.map (· - (1 - a)), x.map (· + (1 - a))⟩)),
   fun f => f.dropLast⟩

def varSeries : VarModel (List (List (Option Rat))) :=
  ⟨[1, 2, 3], ["a", "b"], [[some 4, some 7], [some 5, some 8], [some 6, some 9]], none, none⟩

example : (do
      let M ← (varFit varToy ⟨some 1, ()⟩ varSeries).2
      let r ← varPredict varToy (fun _ => .ok none) M 1 true none (1 / 2)
      pure r.1) = .ok [("a", [⟨2, some 4, none, none⟩, ⟨3, some 5, none, none⟩, ⟨4, some 6, some (11 / 2), some (13 / 2)⟩]),
        ("b", [⟨2, some 7, none, none⟩, ⟨3, some 8, none, none⟩, ⟨4, some 9, some (17 / 2), some (19 / 2)⟩])] := by
  decide +kernel

/-- With the default number of lags the fit of this library fails for three values. -/
example : (varFit varToy ⟨none, ()⟩ varSeries).2 = .error .valueError := by
  have : varMaxlags 3 = 4 := (var_lags _ _).2 (by norm_num)
  unfold varFit
  simp only [Option.getD_none]
  rw [show varSeries.times.length = 3 from rfl, this]
  rfl

end Kats

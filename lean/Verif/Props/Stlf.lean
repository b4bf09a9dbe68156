import Verif.Model.Stlf
import Verif.Props.Decomposition
import Verif.Props.PolyModel
import Verif.Props.KatsEnsemble

/-!
# C120: the forecasts of `kats/models/stlf.py`
-/

namespace Kats

open Classical

/-- C120, the parameters: the constructor accepts the five methods, with one of the two decompositions or (whatever the
decomposition) with parameters of the method given; every refusal is a `ValueError`. -/
theorem C120_params (p : StlfParams) :
    (p.validate = .ok () ↔ p.method ∈ ["prophet", "linear", "quadratic", "theta", "simple"]
      ∧ (p.methodParamsGiven = true ∨ p.decomposition = "additive" ∨ p.decomposition = "multiplicative"))
    ∧ (p.validate ≠ .ok () → p.validate = .error .valueError) := by
  unfold StlfParams.validate stlfModels
  constructor
  · constructor
    · intro h
      split_ifs at h with h1 h2 h3
      · exact ⟨h1, .inl h2⟩
      · exact ⟨h1, .inr (by simpa using h3)⟩
    · rintro ⟨h1, h2⟩
      rw [if_neg (not_not.2 h1)]
      split_ifs with h3 h4
      · rfl
      · rfl
      · exfalso
        rcases h2 with h | h | h
        · exact h3 h
        · exact h4 (by simp [h])
        · exact h4 (by simp [h])
  · intro h
    split_ifs at h ⊢ <;> first | rfl | exact absurd rfl h

example : StlfParams.validate { method := "theta", m := 7, decomposition := "additive" } = .ok () :=
  (C120_params _).1.2 ⟨by simp, .inr (.inl rfl)⟩

/-- C120, violated: a decomposition that does not exist is accepted by the constructor when parameters of the method are
given (the test is indented under the defaults), and the model then fails with an `AssertionError`, not a
`ValueError`. -/
theorem C120_params_violated (p : StlfParams) (h1 : p.method ∈ ["prophet", "linear", "quadratic", "theta", "simple"])
    (h2 : p.methodParamsGiven = true) (h3 : p.decomposition ≠ "additive") (h4 : p.decomposition ≠ "multiplicative")
    (times : List Int) (values : List ℝ) (hm : p.m ≤ values.length) :
    p.validate = .ok () ∧ stlfInit p 1 times values = .error .otherError := by
  refine ⟨(C120_params p).1.2 ⟨h1, .inl h2⟩, ?_⟩
  unfold stlfInit
  rw [if_neg (by simp), if_neg (by omega), if_neg h4, if_neg h3]

example : StlfParams.validate { method := "linear", m := 2, methodParamsGiven := true, decomposition := "Additive" } = .ok () :=
  (C120_params_violated _ (by simp) rfl (by simp) (by simp) [] [1, 2] (by simp)).1

/-- C120, the model: it is made for one column at least as long as a cycle. -/
theorem C120_init (p : StlfParams) (columns : Nat) (times : List Int) (values : List ℝ)
    (hd : p.decomposition = "additive" ∨ p.decomposition = "multiplicative") :
    ((∃ s, stlfInit p columns times values = .ok s) ↔ columns = 1 ∧ p.m ≤ values.length)
    ∧ ((∀ s, stlfInit p columns times values ≠ .ok s) → stlfInit p columns times values = .error .valueError) := by
  unfold stlfInit
  rcases hd with hd | hd <;> rw [hd] <;> split_ifs <;> simp_all

example : ∃ s, stlfInit { method := "linear", m := 2 } 1 [0, 1] [5, 6] = .ok s :=
  (C120_init _ 1 [0, 1] [5, 6] (.inr rfl)).1.2 ⟨rfl, by simp⟩

/-- Trend and seasonality put together. -/
noncomputable def putTogether (mult : Bool) (a b : Option ℝ) : Option ℝ :=
  a.bind fun x => b.map fun y => if mult then x * y else x + y

/-- The seasonality taken out. -/
noncomputable def takeOut (mult : Bool) (a b : Option ℝ) : Option ℝ :=
  a.bind fun x => b.map fun y => if mult then x / y else x - y

theorem reseasonOp_eq (mult : Bool) (a b : Option ℝ) : reseasonOp mult a b = putTogether mult a b := by
  cases a <;> cases b <;> rfl

theorem deseasonOp_eq (mult : Bool) (a b : Option ℝ) : deseasonOp mult a b = takeOut mult a b := by
  cases a <;> cases b <;> rfl

theorem stlfTile_eq (m : Nat) (d : List (Option ℝ)) (rows : Nat) (hm : 0 < m) (hd : m ≤ d.length) :
    stlfTile m d rows = (List.range rows).map fun i : Nat => d.getD (d.length - m + i % m) none := by
  have hp : pyFrom d (-(m : Int)) = d.drop (d.length - m) := by
    unfold pyFrom pyIdx
    rw [if_pos (by omega)]
    congr 1
    omega
  unfold stlfTile
  rw [hp]
  have hu : (d.drop (d.length - m)).length = m := by rw [List.length_drop]; omega
  have hlen : ((List.replicate (1 + rows / m) (d.drop (d.length - m))).flatten).length = (1 + rows / m) * m := by
    rw [List.length_flatten, List.map_replicate, List.sum_replicate, hu, smul_eq_mul]
  have hge : rows ≤ (1 + rows / m) * m := by
    have h1 := Nat.div_add_mod rows m
    have h2 := Nat.mod_lt rows hm
    have : (1 + rows / m) * m = m + m * (rows / m) := by ring
    omega
  apply List.ext_getElem
  · rw [List.length_take, hlen, List.length_map, List.length_range]
    omega
  · intro i h1 h2
    have hi : i < rows := by simpa using h2
    rw [List.getElem_take, List.getElem_map, List.getElem_range]
    have hmod := Nat.mod_lt i hm
    have := tile_getElem (d.drop (d.length - m)) (by omega) (1 + rows / m) i (by rw [hu]; omega)
    rw [List.getElem?_eq_getElem (by rw [hlen]; omega), List.getElem?_drop, hu,
      List.getElem?_eq_getElem (by omega)] at this
    rw [List.getD_eq_getElem _ _ (by omega)]
    exact Option.some.inj this

/-- The situation of a forecast: accepted parameters, the components of the decomposition and the forecast of the inner
model, all of the right lengths. -/
structure StlfCase (W : StlfWorld) (p : StlfParams) (mult : Bool) (times : List Int) (values : List ℝ) (c : Comps)
    (steps : Nat) (hist : Bool) (fc : InnerFcst) : Prop where
  method : p.method ∈ ["prophet", "linear", "quadratic", "theta", "simple"]
  decomposition : p.decomposition = if mult then "multiplicative" else "additive"
  period : 0 < p.m
  fits : p.m ≤ values.length
  length : times.length = values.length
  comps : decompose W.dec ⟨mult, false, { p.args with period := some (p.m : Int) }⟩ times (values.map some) = .ok c
  seasonal : c.seasonal.length = values.length
  inner : W.inner p.method times
    (if p.method = "simple" then c.trend
      else (List.range values.length).map fun i : Nat => takeOut mult (some (values.getD i 0)) (c.seasonal.getD i none))
    steps hist = .ok fc
  rows : fc.fcst.length = (if hist then times.length else 0) + steps
  bounds : ∀ b, fc.bounds = some b → b.1.length = fc.fcst.length ∧ b.2.length = fc.fcst.length

theorem StlfCase.deseason {W : StlfWorld} {p : StlfParams} {mult : Bool} {times : List Int} {values : List ℝ} {c : Comps}
    {steps : Nat} {hist : Bool} {fc : InnerFcst} (h : StlfCase W p mult times values c steps hist fc) :
    List.zipWith (deseasonOp mult) (values.map some) c.seasonal
      = (List.range values.length).map fun i : Nat => takeOut mult (some (values.getD i 0)) (c.seasonal.getD i none) := by
  have hl := h.seasonal
  apply List.ext_getElem
  · simp [hl]
  · intro i h1 h2
    have hi : i < values.length := by simpa using h2
    rw [List.getElem_zipWith, List.getElem_map, List.getElem_map, List.getElem_range, deseasonOp_eq,
      List.getD_eq_getElem _ _ hi, List.getD_eq_getElem _ _ (by omega)]

theorem zipWith_getD_none (mult : Bool) (a : List (Option ℝ)) (g : Nat → Option ℝ) :
    List.zipWith (reseasonOp mult) a ((List.range a.length).map g)
      = (List.range a.length).map fun i : Nat => putTogether mult (a.getD i none) (g i) := by
  apply List.ext_getElem
  · simp
  · intro i h1 h2
    have hi : i < a.length := by simpa using h2
    rw [List.getElem_zipWith, List.getElem_map, List.getElem_map, List.getElem_range, reseasonOp_eq,
      List.getD_eq_getElem _ _ hi]

theorem zip_range_map {α β : Type} (n : Nat) (a : Nat → α) (b : Nat → β) :
    ((List.range n).map a).zip ((List.range n).map b) = (List.range n).map fun i => (a i, b i) := by
  rw [List.zip_map']

/-- The rows of the forecast. -/
theorem stlf_rows {W : StlfWorld} {p : StlfParams} {mult : Bool} {times : List Int} {values : List ℝ} {c : Comps}
    {steps : Nat} {hist : Bool} {fc : InnerFcst} (h : StlfCase W p mult times values c steps hist fc) (f : DateFreq)
    (hdates : (polyDates f times steps hist).length = (if hist then times.length else 0) + steps) :
    stlfRun W f p 1 times values steps hist = .ok (((polyDates f times steps hist).zip
      (List.range fc.fcst.length)).map fun q =>
        let s := c.seasonal.getD (values.length - p.m + q.2 % p.m) none
        ⟨q.1, putTogether mult (fc.fcst.getD q.2 none) s,
          fc.bounds.bind fun b => putTogether mult (b.1.getD q.2 none) s,
          fc.bounds.bind fun b => putTogether mult (b.2.getD q.2 none) s⟩) := by
  obtain ⟨r, hr⟩ : ∃ r, r = fc.fcst.length := ⟨_, rfl⟩
  have hv : p.validate = .ok () := (C120_params p).1.2 ⟨h.method, by
    rw [h.decomposition]; cases mult <;> simp⟩
  have hi : stlfInit p 1 times values = .ok ⟨p, mult, times, values⟩ := by
    unfold stlfInit
    rw [if_neg (by simp), if_neg (by have := h.fits; omega), h.decomposition]
    cases mult <;> simp
  have hdi : decInit 1 p.decomposition "STL" { p.args with period := some (p.m : Int) }
      = .ok ⟨mult, false, { p.args with period := some (p.m : Int) }⟩ := by
    unfold decInit
    rw [if_neg (by simp), h.decomposition]
    cases mult <;> simp
  have hfit : stlfFit W ⟨p, mult, times, values⟩ = .ok ⟨c, if p.method = "simple" then c.trend
      else (List.range values.length).map fun i : Nat => takeOut mult (some (values.getD i 0)) (c.seasonal.getD i none)⟩ := by
    unfold stlfFit stlfDeseason
    simp only [hdi, bind, Except.bind, h.comps, pure, Except.pure, h.deseason]
  unfold stlfRun
  simp only [hv, hi, hfit, bind, Except.bind, stlfPredict, h.inner]
  have hm := h.period
  rw [if_neg (by omega), stlfTile_eq p.m c.seasonal _ h.period (by rw [h.seasonal]; exact h.fits), h.seasonal, ← hr]
  obtain ⟨g, hg⟩ : ∃ g : Nat → Option ℝ, g = fun i => c.seasonal.getD (values.length - p.m + i % p.m) none := ⟨_, rfl⟩
  have e1 : List.zipWith (reseasonOp mult) fc.fcst ((List.range r).map g)
      = (List.range r).map fun i : Nat => putTogether mult (fc.fcst.getD i none) (g i) := by
    rw [hr]; exact zipWith_getD_none mult _ g
  have e2 : (Option.map (fun b => List.zipWith (reseasonOp mult) b.1 ((List.range r).map g)) fc.bounds).getD
        (fc.fcst.map fun _ => none)
      = (List.range r).map fun i : Nat => fc.bounds.bind fun b => putTogether mult (b.1.getD i none) (g i) := by
    cases hb : fc.bounds with
    | none =>
      simp only [Option.map_none, Option.getD_none, Option.bind_none]
      apply List.ext_getElem
      · simp [hr]
      · intro i h1 h2; simp
    | some b =>
      simp only [Option.map_some, Option.getD_some, Option.bind_some]
      rw [show r = b.1.length by rw [hr, (h.bounds b hb).1]]
      exact zipWith_getD_none mult _ g
  have e3 : (Option.map (fun b => List.zipWith (reseasonOp mult) b.2 ((List.range r).map g)) fc.bounds).getD
        (fc.fcst.map fun _ => none)
      = (List.range r).map fun i : Nat => fc.bounds.bind fun b => putTogether mult (b.2.getD i none) (g i) := by
    cases hb : fc.bounds with
    | none =>
      simp only [Option.map_none, Option.getD_none, Option.bind_none]
      apply List.ext_getElem
      · simp [hr]
      · intro i h1 h2; simp
    | some b =>
      simp only [Option.map_some, Option.getD_some, Option.bind_some]
      rw [show r = b.2.length by rw [hr, (h.bounds b hb).2]]
      exact zipWith_getD_none mult _ g
  rw [← hg]
  rw [e1, e2, e3, zip_range_map, zip_range_map]
  unfold mkFcst
  rw [if_pos (by rw [hdates, List.length_map, List.length_range, hr, h.rows])]
  simp only [pure, Except.pure, List.zip_map_right, List.map_map]
  rw [hg]
  rfl

theorem StlfCase.getElem {W : StlfWorld} {p : StlfParams} {mult : Bool} {times : List Int} {values : List ℝ} {c : Comps}
    {steps : Nat} {hist : Bool} {fc : InnerFcst} (h : StlfCase W p mult times values c steps hist fc) (f : DateFreq)
    (hf : ∀ t, t < f.next t) (hr : f.roll (lastDate times) = lastDate times) :
    ∃ out, stlfRun W f p 1 times values steps hist = .ok out
      ∧ out.map (·.time) = (if hist then times else []) ++ (List.range steps).map (fun i => f.next^[i + 1] (lastDate times))
      ∧ ∀ j (hj : j < out.length),
        let s := c.seasonal.getD (values.length - p.m + j % p.m) none
        out[j].fcst = putTogether mult (fc.fcst.getD j none) s
        ∧ out[j].lower = (fc.bounds.bind fun b => putTogether mult (b.1.getD j none) s)
        ∧ out[j].upper = (fc.bounds.bind fun b => putTogether mult (b.2.getD j none) s) := by
  obtain ⟨d1, d2, -, -⟩ := C78_dates_partial f hf (lastDate times) hr steps
  have hd : (polyDates f times steps hist).length = (if hist then times.length else 0) + steps := by
    cases hist <;> simp [polyDates, d2]
  refine ⟨_, stlf_rows h f hd, ?_, ?_⟩
  · rw [List.map_map]
    refine Eq.trans (b := ((polyDates f times steps hist).zip (List.range fc.fcst.length)).map Prod.fst)
      (List.map_congr_left fun r _ => rfl) ?_
    rw [List.map_fst_zip (by rw [hd, List.length_range, h.rows]), polyDates, d1]
    cases hist <;> rfl
  · intro j hj
    simp

/-- C120, the forecast without history: step `j` is dated `j + 1` steps of the frequency after the last date (which must
be a date of the frequency), and the inner forecast and both its bounds are put together with the seasonal value at the
place of step `j` in the last cycle. -/
theorem C120_forecast_partial (W : StlfWorld) (p : StlfParams) (mult : Bool) (times : List Int) (values : List ℝ) (c : Comps)
    (steps : Nat) (fc : InnerFcst) (h : StlfCase W p mult times values c steps false fc) (f : DateFreq)
    (hf : ∀ t, t < f.next t) (hr : f.roll (lastDate times) = lastDate times) :
    ∃ out, stlfRun W f p 1 times values steps false = .ok out
      ∧ out.map (·.time) = (List.range steps).map (fun i => f.next^[i + 1] (lastDate times))
      ∧ ∀ j (hj : j < out.length),
        let s := c.seasonal.getD (values.length - p.m + j % p.m) none
        out[j].fcst = putTogether mult (fc.fcst.getD j none) s
        ∧ out[j].lower = (fc.bounds.bind fun b => putTogether mult (b.1.getD j none) s)
        ∧ out[j].upper = (fc.bounds.bind fun b => putTogether mult (b.2.getD j none) s) := by
  obtain ⟨out, h1, h2, h3⟩ := h.getElem f hf hr
  exact ⟨out, h1, by simpa using h2, h3⟩

theorem mult_seasonal_pos (W : DecWorld) (a : StlArgs) (times : List Int) (y : List (Option ℝ)) (c : Comps)
    (h : decompose W ⟨true, false, a⟩ times y = .ok c) (i : Nat) (s : ℝ) (hs : c.seasonal.getD i none = some s) : 0 < s := by
  unfold decompose at h
  simp only [bind, Except.bind] at h
  cases hf : inferFreqRobust times with
  | error e => rw [hf] at h; cases h
  | ok f =>
    rw [hf] at h
    simp only at h
    cases hy : decClean W y with
    | error e => rw [hy] at h; cases h
    | ok z =>
      rw [hy] at h
      simp only [if_true] at h
      rw [if_neg (by simp)] at h
      cases hc : W.stl { a with period := decPeriod a.period f } (z.map fun o => o.bind npLog) with
      | error e => rw [hc] at h; cases h
      | ok d =>
        rw [hc] at h
        simp only [pure, Except.pure] at h
        injection h with h
        subst h
        rw [getD_map_none _ rfl] at hs
        obtain ⟨s', _, rfl⟩ := Option.map_eq_some_iff.1 hs
        exact Real.exp_pos _

/-- C120, nothing is lost: the inner model (unless it is the simple one) gets, for each point whose seasonal value is
known, a value that gives the data back when it is put together with that seasonal value. -/
theorem C120_inverse (W : StlfWorld) (p : StlfParams) (mult : Bool) (times : List Int) (values : List ℝ) (c : Comps)
    (steps : Nat) (hist : Bool) (fc : InnerFcst) (h : StlfCase W p mult times values c steps hist fc)
    (hsimple : p.method ≠ "simple") :
    ∃ d : List (Option ℝ), W.inner p.method times d steps hist = .ok fc ∧ d.length = values.length
      ∧ ∀ i (hi : i < values.length) s, c.seasonal.getD i none = some s →
        putTogether mult (d.getD i none) (some s) = some values[i] := by
  have hin := h.inner
  rw [if_neg hsimple] at hin
  refine ⟨_, hin, by simp, ?_⟩
  intro i hi s hs
  rw [List.getD_eq_getElem _ _ (by simpa using hi), List.getElem_map, List.getElem_range, hs,
    List.getD_eq_getElem _ _ hi]
  simp only [takeOut, putTogether, Option.bind_some, Option.map_some]
  congr 1
  cases hm : mult
  · simp
  · subst hm
    have := (mult_seasonal_pos _ _ _ _ _ h.comps i s hs).ne'
    simp only [if_true]
    field_simp

/-- C120, the order of the bounds: if the inner model keeps `lower ≤ fcst ≤ upper`, so does the forecast. -/
theorem C120_bounds (W : StlfWorld) (p : StlfParams) (mult : Bool) (times : List Int) (values : List ℝ) (c : Comps)
    (steps : Nat) (hist : Bool) (fc : InnerFcst) (h : StlfCase W p mult times values c steps hist fc) (f : DateFreq)
    (hf : ∀ t, t < f.next t) (hr : f.roll (lastDate times) = lastDate times) (lo up : List (Option ℝ))
    (hb : fc.bounds = some (lo, up))
    (hord : ∀ i x l u, fc.fcst.getD i none = some x → lo.getD i none = some l → up.getD i none = some u → l ≤ x ∧ x ≤ u)
    (out : List StlfRow) (ho : stlfRun W f p 1 times values steps hist = .ok out) (r : StlfRow) (hr' : r ∈ out) (x l u : ℝ)
    (hx : r.fcst = some x) (hl : r.lower = some l) (hu : r.upper = some u) : l ≤ x ∧ x ≤ u := by
  obtain ⟨out', h1, -, h3⟩ := h.getElem f hf hr
  rw [ho] at h1
  injection h1 with h1
  subst h1
  obtain ⟨j, hj, rfl⟩ := List.getElem_of_mem hr'
  obtain ⟨e1, e2, e3⟩ := h3 j hj
  rw [hx] at e1
  rw [hl, hb] at e2
  rw [hu, hb] at e3
  simp only [putTogether, Option.bind_some] at e1 e2 e3
  obtain ⟨x', hx', e1⟩ := Option.bind_eq_some_iff.1 e1.symm
  obtain ⟨s, hs, e1⟩ := Option.map_eq_some_iff.1 e1
  obtain ⟨l', hl', e2⟩ := Option.bind_eq_some_iff.1 e2.symm
  obtain ⟨s2, hs2, e2⟩ := Option.map_eq_some_iff.1 e2
  obtain ⟨u', hu', e3⟩ := Option.bind_eq_some_iff.1 e3.symm
  obtain ⟨s3, hs3, e3⟩ := Option.map_eq_some_iff.1 e3
  rw [hs] at hs2 hs3
  injection hs2 with hs2
  injection hs3 with hs3
  subst hs2 hs3
  obtain ⟨o1, o2⟩ := hord j x' l' u' hx' hl' hu'
  cases hm : mult
  · subst hm
    simp only [Bool.false_eq_true, if_false] at e1 e2 e3
    constructor <;> linarith
  · subst hm
    have := (mult_seasonal_pos _ _ _ _ _ h.comps _ s hs).le
    simp only [if_true] at e1 e2 e3
    subst e1 e2 e3
    exact ⟨mul_le_mul_of_nonneg_right o1 this, mul_le_mul_of_nonneg_right o2 this⟩

/-- C120, with history, when the data are whole cycles: the future rows are those of the forecast without history, if
this is so for the inner model; and every row of a seasonality that repeats each cycle gets the value of its own
position. -/
theorem C120_history_partial (W : StlfWorld) (p : StlfParams) (mult : Bool) (times : List Int) (values : List ℝ) (c : Comps)
    (steps : Nat) (fc fh : InnerFcst) (h : StlfCase W p mult times values c steps false fc)
    (hh : StlfCase W p mult times values c steps true fh) (f : DateFreq)
    (hf : ∀ t, t < f.next t) (hr : f.roll (lastDate times) = lastDate times)
    (hin : ∀ j < steps, fh.fcst.getD (values.length + j) none = fc.fcst.getD j none) (hdvd : p.m ∣ values.length) :
    ∃ out outh, stlfRun W f p 1 times values steps false = .ok out ∧ stlfRun W f p 1 times values steps true = .ok outh
      ∧ out.length = steps ∧ outh.length = values.length + steps
      ∧ (∀ j (hj : j < out.length) (hj' : values.length + j < outh.length),
          outh[values.length + j].fcst = out[j].fcst ∧ outh[values.length + j].time = out[j].time)
      ∧ ∀ g : Nat → ℝ, (∀ i, g (i + p.m) = g i) → (∀ i < values.length, c.seasonal.getD i none = some (g i)) →
        ∀ i (hi : i < outh.length), outh[i].fcst = putTogether mult (fh.fcst.getD i none) (some (g i)) := by
  obtain ⟨out, o1, o2, o3⟩ := h.getElem f hf hr
  obtain ⟨outh, q1, q2, q3⟩ := hh.getElem f hf hr
  have l1 : out.length = steps := by simpa using congrArg List.length o2
  have l2 : outh.length = values.length + steps := by simpa [h.length] using congrArg List.length q2
  obtain ⟨k, hk⟩ := hdvd
  refine ⟨out, outh, o1, q1, l1, l2, ?_, ?_⟩
  · intro j hj hj'
    have hmod : (values.length + j) % p.m = j % p.m := by rw [hk, Nat.mul_add_mod]
    refine ⟨?_, ?_⟩
    · rw [(o3 j hj).1, (q3 _ hj').1, hmod, hin j (by omega)]
    · have e1 : out[j].time = (out.map (·.time))[j]'(by simpa using hj) := by rw [List.getElem_map]
      have e2 : outh[values.length + j].time = (outh.map (·.time))[values.length + j]'(by simpa using hj') := by
        rw [List.getElem_map]
      rw [e1, e2, List.getElem_of_eq o2, List.getElem_of_eq q2]
      simp [List.getElem_append_right, ← h.length]
  · intro g hg hs i hi
    have hp := h.period
    have hfit := h.fits
    have hmod := Nat.mod_lt i hp
    have hgm : ∀ q i, g (i + p.m * q) = g i := by
      intro q
      induction q with
      | zero => intro i; rfl
      | succ q ih => intro i; rw [Nat.mul_succ, ← Nat.add_assoc, hg, ih]
    rw [(q3 i hi).1, hs _ (by omega)]
    congr 2
    obtain ⟨k', rfl⟩ : ∃ k', k = k' + 1 := ⟨k - 1, by
      have : k ≠ 0 := by rintro rfl; omega
      omega⟩
    have e1 : values.length - p.m + i % p.m = i % p.m + p.m * k' := by
      rw [hk, Nat.mul_succ]; omega
    rw [e1, hgm]
    conv_rhs => rw [← Nat.mod_add_div i p.m, hgm]

theorem poly_exact_any (W : PolyWorld) (k : PolyKind) (alpha : ℝ) (f : DateFreq) (hf : ∀ t, t < f.next t)
    (times : List Int) (values : List ℝ) (hr : f.roll (lastDate times) = lastDate times) (steps : Nat)
    (hn : k.degree + 1 ≤ values.length) (ht : times.length = values.length) (c : Fin (k.degree + 1) → ℝ)
    (hc : ∀ i < values.length, values.getD i 0 = polyVal c (i : ℕ)) (hist : Bool) (hs : 2 ≤ steps ∨ hist = true) :
    ∃ out, polyRun W k alpha f times values steps hist = .ok out
      ∧ out.map (·.fcst) = ((if hist then List.range values.length else [])
            ++ (List.range steps).map (values.length + ·)).map (fun x : Nat => polyVal c (x : ℝ)) := by
  obtain ⟨d, h1, h2⟩ := C115_forecast_partial W k alpha f hf times values hr steps hn ht
  have hz : polyRss c values = 0 := by
    apply Finset.sum_eq_zero
    intro i hi
    rw [hc i (Finset.mem_range.1 hi), sub_self]
    norm_num
  have hz' : polyRss d values = 0 :=
    le_antisymm ((h1 c).1.trans hz.le) (Finset.sum_nonneg fun i _ => sq_nonneg _)
  have : c = d := (h1 c).2 (by rw [hz, hz'])
  obtain ⟨out, o1, -, o3⟩ := h2 hist hs
  exact ⟨out, o1, by rw [o3, this]⟩

/-- A trend that is exactly linear or quadratic together with a seasonality that repeats each cycle. -/
structure StlfExact (W : StlfWorld) (PW : PolyWorld) (k : PolyKind) (alpha : ℝ) (f f' : DateFreq) (p : StlfParams) (mult : Bool)
    (times : List Int) (values : List ℝ) (c : Comps) (coef : Fin (k.degree + 1) → ℝ) (g : Nat → ℝ) : Prop where
  method : p.method = if k = .linear then "linear" else "quadratic"
  decomposition : p.decomposition = if mult then "multiplicative" else "additive"
  period : 0 < p.m
  fits : p.m ≤ values.length
  points : k.degree + 1 ≤ values.length
  length : times.length = values.length
  next : ∀ t, t < f.next t
  roll : f.roll (lastDate times) = lastDate times
  next' : ∀ t, t < f'.next t
  roll' : f'.roll (lastDate times) = lastDate times
  inner : W.inner p.method = polyInner PW k alpha f'
  comps : decompose W.dec ⟨mult, false, { p.args with period := some (p.m : Int) }⟩ times (values.map some) = .ok c
  seasonal : c.seasonal = (List.range values.length).map fun i => some (g i)
  periodic : ∀ i, g (i + p.m) = g i
  data : ∀ i < values.length, values.getD i 0 = if mult then polyVal coef (i : ℕ) * g i else polyVal coef (i : ℕ) + g i

theorem StlfExact.run {W : StlfWorld} {PW : PolyWorld} {k : PolyKind} {alpha : ℝ} {f f' : DateFreq} {p : StlfParams}
    {mult : Bool} {times : List Int} {values : List ℝ} {c : Comps} {coef : Fin (k.degree + 1) → ℝ} {g : Nat → ℝ}
    (h : StlfExact W PW k alpha f f' p mult times values c coef g) (steps : Nat) (hist : Bool)
    (hs : 2 ≤ steps ∨ hist = true) :
    ∃ out, stlfRun W f p 1 times values steps hist = .ok out
      ∧ out.map (·.time) = (if hist then times else []) ++ (List.range steps).map (fun i => f.next^[i + 1] (lastDate times))
      ∧ ∀ j (hj : j < out.length), out[j].fcst =
        let x : ℝ := polyVal coef (((if hist then 0 else values.length) + j : Nat) : ℝ)
        some (if mult then x * g (values.length + j) else x + g (values.length + j)) := by
  obtain ⟨n, hn⟩ : ∃ n, n = values.length := ⟨_, rfl⟩
  have hsl : c.seasonal.length = n := by rw [h.seasonal, hn]; simp
  have hsg : ∀ i < n, c.seasonal.getD i none = some (g i) := by
    intro i hi
    rw [List.getD_eq_getElem _ _ (by omega), List.getElem_of_eq h.seasonal]
    simp
  -- the data of the inner model
  have hd : ((List.range n).map fun i : Nat => takeOut mult (some (values.getD i 0)) (c.seasonal.getD i none))
      = ((List.range n).map fun i : Nat => polyVal coef (i : ℝ)).map some := by
    rw [List.map_map]
    refine List.map_congr_left fun i hi => ?_
    have hi := List.mem_range.1 hi
    rw [hsg i hi, h.data i (by omega)]
    simp only [takeOut, Option.bind_some, Option.map_some, Function.comp_apply]
    congr 1
    cases hm : mult
    · simp
    · subst hm
      have := (mult_seasonal_pos _ _ _ _ _ h.comps i (g i) (hsg i hi)).ne'
      simp only [if_true]
      field_simp
  obtain ⟨rows, r1, r2⟩ := poly_exact_any PW k alpha f' h.next' times ((List.range n).map fun i : Nat => polyVal coef (i : ℝ))
    h.roll' steps (by simpa [hn] using h.points) (by simpa [hn] using h.length) coef (by
      intro i hi
      rw [List.getD_eq_getElem _ _ hi]
      simp) hist hs
  simp only [List.length_map, List.length_range] at r2
  have hlen : rows.length = (if hist then times.length else 0) + steps := by
    have := congrArg List.length r2
    rw [h.length, ← hn]
    cases hist <;> simpa using this
  have hinner : W.inner p.method times
      (if p.method = "simple" then c.trend
        else (List.range values.length).map fun i : Nat => takeOut mult (some (values.getD i 0)) (c.seasonal.getD i none))
      steps hist = .ok ⟨rows.map fun r => some r.fcst, some (rows.map (·.lower), rows.map (·.upper))⟩ := by
    rw [if_neg (by rw [h.method]; cases k <;> simp), ← hn, hd, h.inner, polyInner, if_pos (by simp)]
    rw [List.map_map, show ((fun o : Option ℝ => o.getD 0) ∘ some) = id from rfl, List.map_id, r1]
    rfl
  have hcase : StlfCase W p mult times values c steps hist
      ⟨rows.map fun r => some r.fcst, some (rows.map (·.lower), rows.map (·.upper))⟩ :=
    { method := by rw [h.method]; cases k <;> simp
      decomposition := h.decomposition, period := h.period, fits := h.fits, length := h.length, comps := h.comps,
      seasonal := by rw [hsl, hn]
      inner := hinner
      rows := by simpa using hlen
      bounds := by
        intro b hb
        injection hb with hb
        subst hb
        simp }
  obtain ⟨out, o1, o2, o3⟩ := hcase.getElem f h.next h.roll
  refine ⟨out, o1, o2, ?_⟩
  intro j hj
  have hlo : out.length = rows.length := by
    rw [hlen]
    have := congrArg List.length o2
    cases hist <;> simpa using this
  have hp := h.period
  have hfit := h.fits
  have hmod := Nat.mod_lt j hp
  have hgm : ∀ q i, g (i + p.m * q) = g i := by
    intro q
    induction q with
    | zero => intro i; rfl
    | succ q ih => intro i; rw [Nat.mul_succ, ← Nat.add_assoc, h.periodic, ih]
  have hgj : g (values.length - p.m + j % p.m) = g (values.length + j) := by
    rw [← h.periodic, ← hgm (j / p.m)]
    congr 1
    have := Nat.mod_add_div j p.m
    omega
  have hf1 : (rows.map fun r => some r.fcst).getD j none
      = some (polyVal coef (((if hist then 0 else values.length) + j : Nat) : ℝ)) := by
    have e : (rows.map fun r => some r.fcst) = (rows.map (·.fcst)).map some := by rw [List.map_map]; rfl
    have hj1 : j < (rows.map (·.fcst)).length := by rw [List.length_map]; omega
    rw [e, List.getD_eq_getElem _ _ (by simpa using hj1), List.getElem_map, List.getElem_of_eq r2]
    rw [List.getElem_map]
    congr 3
    cases hist
    · simp [hn]
    · simp only [if_true, Nat.zero_add]
      by_cases hjn : j < n
      · rw [List.getElem_append_left (by simpa using hjn)]; simp
      · rw [List.getElem_append_right (by simpa using hjn)]; simp; omega
  rw [(o3 j hj).1]
  show putTogether mult ((rows.map fun r => some r.fcst).getD j none) _ = _
  rw [hf1, hsg _ (by omega), hgj]
  rfl

/-- C120, an exact pattern is continued: a linear or quadratic trend put together with a seasonality that repeats each
cycle, when the decomposition finds that seasonality, is forecast exactly, for any length of the data. -/
theorem C120_exact_partial (W : StlfWorld) (PW : PolyWorld) (k : PolyKind) (alpha : ℝ) (f f' : DateFreq) (p : StlfParams)
    (mult : Bool) (times : List Int) (values : List ℝ) (c : Comps) (coef : Fin (k.degree + 1) → ℝ) (g : Nat → ℝ)
    (h : StlfExact W PW k alpha f f' p mult times values c coef g) (steps : Nat) (hs : 2 ≤ steps) :
    ∃ out, stlfRun W f p 1 times values steps false = .ok out
      ∧ out.map (·.time) = (List.range steps).map (fun i => f.next^[i + 1] (lastDate times))
      ∧ ∀ j (hj : j < out.length), out[j].fcst =
        let x : ℝ := polyVal coef ((values.length + j : Nat) : ℝ)
        some (if mult then x * g (values.length + j) else x + g (values.length + j)) := by
  obtain ⟨out, h1, h2, h3⟩ := h.run steps false (.inl hs)
  exact ⟨out, h1, by simpa using h2, by simpa using h3⟩

/-- C120, violated: with history the cycle is counted from the first row, so the row at position `i` gets the seasonality
of position `n + i`.  Unless the data are whole cycles, the forecast of the same future date differs from the one
without history, and is wrong for data that follow the pattern exactly. -/
theorem C120_history_violated (W : StlfWorld) (PW : PolyWorld) (k : PolyKind) (alpha : ℝ) (f f' : DateFreq) (p : StlfParams)
    (mult : Bool) (times : List Int) (values : List ℝ) (c : Comps) (coef : Fin (k.degree + 1) → ℝ) (g : Nat → ℝ)
    (h : StlfExact W PW k alpha f f' p mult times values c coef g) (steps : Nat) (hs : 2 ≤ steps) :
    ∃ out outh, stlfRun W f p 1 times values steps false = .ok out ∧ stlfRun W f p 1 times values steps true = .ok outh
      ∧ out.length = steps ∧ outh.length = values.length + steps
      ∧ (∀ i (hi : i < outh.length), outh[i].fcst =
          some (if mult then polyVal coef (i : ℝ) * g (values.length + i) else polyVal coef (i : ℝ) + g (values.length + i)))
      ∧ ∀ j (hj : j < out.length) (hj' : values.length + j < outh.length),
        outh[values.length + j].time = out[j].time
        ∧ ((mult = true → polyVal coef ((values.length + j : Nat) : ℝ) ≠ 0) → g (values.length + (values.length + j)) ≠ g (values.length + j) →
          outh[values.length + j].fcst ≠ out[j].fcst) := by
  obtain ⟨out, o1, o2, o3⟩ := h.run steps false (.inl hs)
  obtain ⟨outh, q1, q2, q3⟩ := h.run steps true (.inr rfl)
  have l1 : out.length = steps := by simpa using congrArg List.length o2
  have l2 : outh.length = values.length + steps := by simpa [h.length] using congrArg List.length q2
  refine ⟨out, outh, o1, q1, l1, l2, by simpa using q3, ?_⟩
  intro j hj hj'
  constructor
  · have e1 : out[j].time = (out.map (·.time))[j]'(by simpa using hj) := by rw [List.getElem_map]
    have e2 : outh[values.length + j].time = (outh.map (·.time))[values.length + j]'(by simpa using hj') := by
      rw [List.getElem_map]
    rw [e1, e2, List.getElem_of_eq o2, List.getElem_of_eq q2]
    simp [List.getElem_append_right, ← h.length]
  · intro hx hg
    rw [o3 j hj, q3 _ hj']
    simp only [if_true, Bool.false_eq_true, if_false, Nat.zero_add]
    intro e
    injection e with e
    cases hm : mult
    · rw [hm] at e
      simp only [Bool.false_eq_true, if_false] at e
      exact hg (by linarith)
    · rw [hm] at e
      simp only [if_true] at e
      exact hg (mul_left_cancel₀ (hx hm) e)

/-- STL that finds the seasonality `0, 1, 0, 1, …` in everything, and an inner model that forecasts 0 between -1 and 1. -/
noncomputable def altWorld : StlfWorld where
  dec := { restWorld with
    stl := fun _ l => .ok ⟨l.map fun _ => none, (List.range l.length).map fun i : Nat => some ((i % 2 : Nat) : ℝ), l⟩ }
  inner := fun _ times _ steps hist =>
    let z := fun v : ℝ => List.replicate ((if hist then times.length else 0) + steps) (some v)
    .ok ⟨z 0, some (z (-1), z 1)⟩

theorem alt_comps (inner : String → InnerModel) (times : List Int) (ht : 1 < times.length) (values : List ℝ) (a : StlArgs) :
    decompose (StlfWorld.dec ⟨altWorld.dec, inner⟩) ⟨false, false, a⟩ times (values.map some)
      = .ok ⟨(values.map some).map fun _ => none, (List.range values.length).map fun i : Nat => some ((i % 2 : Nat) : ℝ),
          values.map some⟩ := by
  have hc : decClean (StlfWorld.dec ⟨altWorld.dec, inner⟩) (values.map some) = .ok (values.map some) := by
    unfold decClean
    rw [if_pos (by simp)]
  unfold decompose inferFreqRobust
  rw [if_neg (by omega)]
  simp only [bind, Except.bind, hc]
  simp [altWorld, Function.comp_def]

theorem alt_case (hist : Bool) (steps : Nat) : StlfCase altWorld { method := "linear", m := 2, decomposition := "additive" } false
    [0, 1, 2, 3] [5, 6, 5, 6] ⟨[none, none, none, none], [some 0, some 1, some 0, some 1], [some 5, some 6, some 5, some 6]⟩
    steps hist ⟨List.replicate ((if hist then 4 else 0) + steps) (some 0),
      some (List.replicate ((if hist then 4 else 0) + steps) (some (-1)),
        List.replicate ((if hist then 4 else 0) + steps) (some 1))⟩ where
  method := by simp
  decomposition := by simp
  period := by simp
  fits := by simp
  length := rfl
  comps := by
    have := alt_comps altWorld.inner [0, 1, 2, 3] (by simp) [5, 6, 5, 6] { period := some 2 }
    simpa [List.range_succ] using this
  seasonal := rfl
  inner := rfl
  rows := by simp
  bounds := by intro b hb; injection hb with hb; subst hb; simp

example : ∃ out, stlfRun altWorld dailyFreq { method := "linear", m := 2, decomposition := "additive" } 1
    [0, 1, 2, 3] [5, 6, 5, 6] 3 false = .ok out ∧ out.map (·.time) = [4, 5, 6]
    ∧ ∀ h : 1 < out.length, out[1].upper = some 2 := by
  obtain ⟨out, h1, h2, h3⟩ := C120_forecast_partial _ _ _ _ _ _ 3 _ (alt_case false 3) dailyFreq (fun t => Int.lt_succ t) rfl
  refine ⟨out, h1, by rw [h2]; decide, fun h => ?_⟩
  rw [(h3 1 h).2.2]
  simp [putTogether, List.replicate_succ]
  norm_num

example : ∃ d : List (Option ℝ), d.length = 4 ∧ putTogether false (d.getD 1 none) (some 1) = some 6 := by
  obtain ⟨d, -, h2, h3⟩ := C120_inverse _ _ _ _ _ _ 3 false _ (alt_case false 3) (by simp)
  exact ⟨d, h2, h3 1 (by simp) 1 rfl⟩

example (out : List StlfRow) (ho : stlfRun altWorld dailyFreq { method := "linear", m := 2, decomposition := "additive" } 1
    [0, 1, 2, 3] [5, 6, 5, 6] 3 true = .ok out) (r : StlfRow) (hr : r ∈ out) (x l u : ℝ) (hx : r.fcst = some x)
    (hl : r.lower = some l) (hu : r.upper = some u) : l ≤ x ∧ x ≤ u := by
  refine C120_bounds _ _ _ _ _ _ 3 true _ (alt_case true 3) dailyFreq (fun t => Int.lt_succ t) rfl _ _ rfl ?_ out ho r hr x l u
    hx hl hu
  intro i x l u h1 h2 h3
  by_cases hi : i < 7
  · rw [List.getD_eq_getElem _ _ (by simpa using hi)] at h1 h2 h3
    rw [List.getElem_replicate] at h1 h2 h3
    injection h1 with h1
    injection h2 with h2
    injection h3 with h3
    subst h1 h2 h3
    norm_num
  · rw [List.getD_eq_default _ _ (by simpa using hi)] at h1
    cases h1

example : ∃ out outh, stlfRun altWorld dailyFreq { method := "linear", m := 2, decomposition := "additive" } 1
      [0, 1, 2, 3] [5, 6, 5, 6] 3 false = .ok out
    ∧ stlfRun altWorld dailyFreq { method := "linear", m := 2, decomposition := "additive" } 1
      [0, 1, 2, 3] [5, 6, 5, 6] 3 true = .ok outh
    ∧ ∀ (h : 1 < out.length) (h' : 4 + 1 < outh.length), outh[4 + 1].fcst = out[1].fcst := by
  obtain ⟨out, outh, h1, h2, -, -, h5, -⟩ := C120_history_partial _ _ _ _ _ _ 3 _ _ (alt_case false 3) (alt_case true 3)
    dailyFreq (fun t => Int.lt_succ t) rfl (by
      intro j hj
      rw [List.getD_eq_getElem _ _ (by simp; omega), List.getD_eq_getElem _ _ (by simpa using hj),
        List.getElem_replicate, List.getElem_replicate]) (by simp)
  exact ⟨out, outh, h1, h2, fun h h' => (h5 1 h h').1⟩

/-- The line `1 + 2 x` with the seasonality `0, 1` over three points. -/
theorem alt_exact (PW : PolyWorld) : StlfExact ⟨altWorld.dec, fun _ => polyInner PW .linear (1 / 20) dailyFreq⟩ PW .linear (1 / 20)
    dailyFreq dailyFreq { method := "linear", m := 2, decomposition := "additive" } false [0, 1, 2] [1, 4, 5]
    ⟨[none, none, none], [some 0, some 1, some 0], [some 1, some 4, some 5]⟩ (![1, 2] : Fin 2 → ℝ)
    (fun i : Nat => ((i % 2 : Nat) : ℝ)) where
  method := by simp
  decomposition := by simp
  period := by simp
  fits := by simp
  points := by simp [PolyKind.degree]
  length := rfl
  next := fun t => Int.lt_succ t
  roll := rfl
  next' := fun t => Int.lt_succ t
  roll' := rfl
  inner := rfl
  comps := by
    have := alt_comps (fun _ => polyInner PW .linear (1 / 20) dailyFreq) [0, 1, 2] (by simp) [1, 4, 5] { period := some 2 }
    simpa [List.range_succ] using this
  seasonal := by simp [List.range_succ]
  periodic := by intro i; simp
  data := by
    intro i hi
    have : i = 0 ∨ i = 1 ∨ i = 2 := by simp at hi; omega
    have e := polyVal_two ![1, 2] (i : ℝ)
    simp only [Bool.false_eq_true, if_false]
    refine Eq.trans ?_ (congrArg (· + ((i % 2 : Nat) : ℝ)) e.symm)
    rcases this with rfl | rfl | rfl <;> simp <;> norm_num

/-- It goes on with 8 and 9; with history the same two days are forecast as 7 and 10. -/
example (PW : PolyWorld) : ∃ out outh,
    stlfRun ⟨altWorld.dec, fun _ => polyInner PW .linear (1 / 20) dailyFreq⟩ dailyFreq
      { method := "linear", m := 2, decomposition := "additive" } 1 [0, 1, 2] [1, 4, 5] 2 false = .ok out
    ∧ stlfRun ⟨altWorld.dec, fun _ => polyInner PW .linear (1 / 20) dailyFreq⟩ dailyFreq
      { method := "linear", m := 2, decomposition := "additive" } 1 [0, 1, 2] [1, 4, 5] 2 true = .ok outh
    ∧ (∀ h : 0 < out.length, out[0].fcst = some 8) ∧ (∀ h : 3 < outh.length, outh[3].fcst = some 7) := by
  obtain ⟨out, h1, -, h3⟩ := C120_exact_partial _ _ _ _ _ _ _ _ _ _ _ _ _ (alt_exact PW) 2 le_rfl
  obtain ⟨out', outh, e1, e2, -, -, e5, -⟩ := C120_history_violated _ _ _ _ _ _ _ _ _ _ _ _ _ (alt_exact PW) 2 le_rfl
  refine ⟨out, outh, h1, e2, fun h => ?_, fun h => ?_⟩
  · rw [h3 0 h]
    have e := polyVal_two ![1, 2] (((([1, 4, 5] : List ℝ).length + 0 : Nat)) : ℝ)
    simp only [Bool.false_eq_true, if_false]
    refine congrArg some (Eq.trans (congrArg (· + _) e) ?_)
    simp
    norm_num
  · rw [e5 3 h]
    have e := polyVal_two ![1, 2] ((3 : Nat) : ℝ)
    simp only [Bool.false_eq_true, if_false]
    refine congrArg some (Eq.trans (congrArg (· + _) e) ?_)
    simp
    norm_num

/-- C120, what is refused: `predict` before `fit`, a period of 0 when forecasting, and a run with parameters that do not validate,
with the error of the validation. -/
theorem C120_refused (W : StlfWorld) (f : DateFreq) (s : StlfModel) (steps : Nat) (hist : Bool) :
    stlfPredict W f s none steps hist = .error .valueError
    ∧ (∀ ft, s.params.m = 0 → ∃ e, stlfPredict W f s (some ft) steps hist = .error e)
    ∧ ∀ p columns times values e, p.validate = .error e → stlfRun W f p columns times values steps hist = .error e := by
  refine ⟨rfl, ?_, ?_⟩
  · intro ft hm
    unfold stlfPredict
    simp only [bind, Except.bind]
    cases W.inner s.params.method s.times ft.inner steps hist with
    | error e => exact ⟨e, rfl⟩
    | ok fc => exact ⟨.otherError, by simp only; rw [if_pos hm]⟩
  · intro p columns times values e h
    unfold stlfRun
    simp only [h, bind, Except.bind]

example (W : StlfWorld) (f : DateFreq) : stlfRun W f { method := "arima", m := 12 } 1 [] [] 3 false = .error .valueError :=
  (C120_refused W f ⟨{ method := "linear", m := 0 }, true, [], []⟩ 3 false).2.2 _ _ _ _ _ (by
    unfold StlfParams.validate stlfModels
    rw [if_pos (by decide)])

end Kats

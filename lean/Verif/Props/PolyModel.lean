import Verif.Model.PolyModel
import Verif.Lemmas.LeastSquares
import Verif.Lemmas.MapM
import Verif.Props.Heuristic
import Mathlib.LinearAlgebra.Vandermonde
import Mathlib.Tactic.Linarith
import Mathlib.Tactic.FieldSimp

/-!
# C115: linear and quadratic models
-/

namespace Kats

open Classical Matrix

/-- The degree of the polynomial of the class. -/
def PolyKind.degree : PolyKind → Nat
  | .linear => 1
  | .quadratic => 2

/-- The polynomial with coefficients `c` at `x`. -/
noncomputable def polyVal {p : Nat} (c : Fin p → ℝ) (x : ℝ) : ℝ := ∑ k, c k * x ^ (k : ℕ)

/-- Residual sum of squares of a polynomial on the data at the positions `0, 1, …`. -/
noncomputable def polyRss {p : Nat} (c : Fin p → ℝ) (values : List ℝ) : ℝ :=
  ∑ i ∈ Finset.range values.length, (values.getD i 0 - polyVal c i) ^ 2

theorem polyDesign_eq (k : PolyKind) (x : Nat) :
    1 :: k.features x = (List.range (k.degree + 1)).map fun j : Nat => (x : ℝ) ^ j := by
  cases k <;> simp [PolyKind.features, PolyKind.degree, List.range_succ]

theorem polyDesign_getD (k : PolyKind) (x j : Nat) (hj : j < k.degree + 1) :
    (1 :: k.features x).getD j 0 = (x : ℝ) ^ j := by
  rw [polyDesign_eq, List.getD_eq_getElem _ _ (by simpa using hj), List.getElem_map, List.getElem_range]

theorem polyFeatures_getD (k : PolyKind) (x j : Nat) (hj : j < k.degree) :
    (k.features x).getD j 0 = (x : ℝ) ^ (j + 1) := by
  have := polyDesign_getD k x (j + 1) (by omega)
  simpa using this

theorem polyFeatures_length (k : PolyKind) (x : Nat) : (k.features x).length = k.degree := by
  cases k <;> rfl

/-- The constant is added as soon as two positions differ or position zero is there. -/
theorem addConstant_poly (k : PolyKind) (xs : List Nat) (hne : xs ≠ [])
    (h : 0 ∈ xs ∨ ∃ a ∈ xs, ∃ b ∈ xs, a ≠ b) :
    addConstant (xs.map k.features) = .ok (xs.map fun x => 1 :: k.features x) := by
  obtain ⟨x0, l, rfl⟩ := List.exists_cons_of_ne_nil hne
  have hany : (List.range (((x0 :: l).map k.features).headD []).length).any (constColumn ((x0 :: l).map k.features))
      = false := by
    rw [List.any_eq_false]
    intro j hj
    have hj : j < k.degree := by simpa [polyFeatures_length] using hj
    rw [Bool.not_eq_true]
    apply Bool.eq_false_iff.2
    intro hc
    unfold constColumn at hc
    rw [List.all_eq_true] at hc
    have key : ∀ x ∈ x0 :: l, (x : ℝ) ^ (j + 1) = (x0 : ℝ) ^ (j + 1) ∧ (x : ℝ) ^ (j + 1) ≠ 0 := by
      intro x hx
      have := hc (k.features x) (List.mem_map_of_mem hx)
      rw [decide_eq_true_eq] at this
      rw [show (((x0 :: l).map k.features).headD []) = k.features x0 from rfl, polyFeatures_getD k _ j hj,
        polyFeatures_getD k _ j hj] at this
      exact this
    rcases h with h | ⟨a, ha, b, hb, hab⟩
    · have := (key 0 h).2
      simp at this
    · have e := (key a ha).1.trans (key b hb).1.symm
      have e' : (a ^ (j + 1) : Nat) = b ^ (j + 1) := by exact_mod_cast e
      exact hab (Nat.pow_left_injective (by omega : j + 1 ≠ 0) e')
  unfold addConstant
  rw [if_neg (by simp), hany]
  simp [Function.comp_def]

/-- The rows of the fit. -/
noncomputable def polyRows (k : PolyKind) (n : Nat) : List (List ℝ) := (List.range n).map fun x => 1 :: k.features x

theorem polyRows_length (k : PolyKind) (n : Nat) : (polyRows k n).length = n := by simp [polyRows]

theorem polyRows_head (k : PolyKind) (n : Nat) (hn : 0 < n) : ((polyRows k n).headD []).length = k.degree + 1 := by
  obtain ⟨m, rfl⟩ : ∃ m, n = m + 1 := ⟨n - 1, by omega⟩
  simp [polyRows, List.range_succ_eq_map, polyFeatures_length]

theorem polyRows_getD (k : PolyKind) (n i j : Nat) (hi : i < n) (hj : j < k.degree + 1) :
    ((polyRows k n).getD i []).getD j 0 = (i : ℝ) ^ j := by
  have h : (polyRows k n).getD i [] = 1 :: k.features i := by
    rw [polyRows, List.getD_eq_getElem _ _ (by simpa using hi), List.getElem_map, List.getElem_range]
  rw [h, polyDesign_getD k i j hj]

theorem polyRows_mulVec (k : PolyKind) (n : Nat) (c : Fin (k.degree + 1) → ℝ) (i : Fin (polyRows k n).length) :
    (rowsMatrix (polyRows k n) (k.degree + 1) *ᵥ c) i = polyVal c (i : ℕ) := by
  rw [rowsMatrix_mulVec, polyVal]
  apply Finset.sum_congr rfl
  intro j _
  rw [polyRows_getD k n i j (i.2.trans_eq (polyRows_length k n)) j.2, mul_comm]

theorem polyVal_zero_of_roots {p n : Nat} (c : Fin p → ℝ) (hn : p ≤ n) (h : ∀ i < n, polyVal c (i : ℕ) = 0) : c = 0 := by
  apply eq_zero_of_forall_index_sum_mul_pow_eq_zero (f := fun j : Fin p => ((j : ℕ) : ℝ))
  · intro a b hab
    have : ((a : ℕ) : ℝ) = ((b : ℕ) : ℝ) := hab
    exact Fin.ext (by exact_mod_cast this)
  · intro j
    exact h j (by omega)

theorem polyRows_unit (k : PolyKind) (n : Nat) (hn : k.degree + 1 ≤ n) :
    IsUnit (gram (polyRows k n) (k.degree + 1)).det := by
  apply gram_unit
  intro v hv
  apply polyVal_zero_of_roots v hn
  intro i hi
  have := polyRows_mulVec k n v ⟨i, by rwa [polyRows_length]⟩
  rw [rowsMatrix_mulVec] at this
  rw [← this]
  exact hv _

/-- The coefficients of the fit. -/
noncomputable def polyCoef (k : PolyKind) (values : List ℝ) : Fin (k.degree + 1) → ℝ :=
  (gram (polyRows k values.length) (k.degree + 1))⁻¹ *ᵥ ((rowsMatrix (polyRows k values.length) (k.degree + 1))ᵀ *ᵥ
    dataVec (polyRows k values.length).length values)

theorem polyRss_fin (k : PolyKind) (values : List ℝ) (c : Fin (k.degree + 1) → ℝ) :
    polyRss c values = ∑ i, (dataVec (polyRows k values.length).length values i
      - (rowsMatrix (polyRows k values.length) (k.degree + 1) *ᵥ c) i) ^ 2 := by
  simp only [polyRows_mulVec, dataVec]
  rw [Fin.sum_univ_eq_sum_range (fun i : Nat => (values.getD i 0 - polyVal c (i : ℝ)) ^ 2), polyRows_length, polyRss]

theorem polyCoef_best (k : PolyKind) (values : List ℝ) (hn : k.degree + 1 ≤ values.length)
    (c : Fin (k.degree + 1) → ℝ) :
    polyRss (polyCoef k values) values ≤ polyRss c values
    ∧ (polyRss c values = polyRss (polyCoef k values) values → c = polyCoef k values) := by
  have hpy := normal_pythagoras (rowsMatrix (polyRows k values.length) (k.degree + 1))
    (dataVec (polyRows k values.length).length values) (polyCoef k values) c
    (gram_solve _ _ (polyRows_unit k values.length hn))
  rw [← polyRss_fin, ← polyRss_fin] at hpy
  have hnn : 0 ≤ ∑ i, ((rowsMatrix (polyRows k values.length) (k.degree + 1) *ᵥ (polyCoef k values - c)) i) ^ 2 :=
    Finset.sum_nonneg fun i _ => sq_nonneg _
  refine ⟨by linarith, fun he => ?_⟩
  have hz : ∑ i, ((rowsMatrix (polyRows k values.length) (k.degree + 1) *ᵥ (polyCoef k values - c)) i) ^ 2 = 0 := by
    linarith
  rw [Finset.sum_eq_zero_iff_of_nonneg fun i _ => sq_nonneg _] at hz
  have : polyCoef k values - c = 0 := by
    apply polyVal_zero_of_roots _ hn
    intro i hi
    have h1 := hz ⟨i, by rwa [polyRows_length]⟩ (Finset.mem_univ _)
    rw [polyRows_mulVec] at h1
    exact pow_eq_zero_iff (two_ne_zero) |>.1 h1
  exact (sub_eq_zero.1 this).symm

theorem zipWith_ofFn_sum {p : Nat} (r : List ℝ) (c : Fin p → ℝ) (hr : r.length = p) :
    (List.zipWith (· * ·) r (List.ofFn c)).sum = ∑ j : Fin p, r.getD j 0 * c j := by
  rw [← List.sum_ofFn]
  congr 1
  apply List.ext_getElem
  · simp [hr]
  · intro i h1 h2
    have hi : i < p := by simpa using h2
    rw [List.getElem_zipWith, List.getElem_ofFn, List.getElem_ofFn]
    simp only
    rw [List.getD_eq_getElem _ _ (by omega : i < r.length)]

theorem polyDesign_dot (k : PolyKind) (c : Fin (k.degree + 1) → ℝ) (x : Nat) :
    (List.zipWith (· * ·) (1 :: k.features x) (List.ofFn c)).sum = polyVal c (x : ℝ) := by
  rw [zipWith_ofFn_sum _ _ (by simp [polyFeatures_length]), polyVal]
  apply Finset.sum_congr rfl
  intro j _
  rw [polyDesign_getD k x j j.2, mul_comm]

theorem polyFit_ok (W : PolyWorld) (k : PolyKind) (values : List ℝ) (hn : k.degree + 1 ≤ values.length) :
    polyFit W k values = .ok ⟨polyRows k values.length, values, List.ofFn (polyCoef k values)⟩ := by
  unfold polyFit
  rw [addConstant_poly k _ (by simp; rintro rfl; simp at hn) (.inl (List.mem_range.2 (by omega)))]
  simp only [bind, Except.bind, pure, Except.pure]
  have : lstsq W.pinv (polyRows k values.length) values = List.ofFn (polyCoef k values) := by
    exact lstsq_of_unit W.pinv _ _ (polyRows_head k values.length (by omega)) (polyRows_unit k _ hn)
  exact congrArg _ (congrArg _ this)

theorem mseResid_poly (k : PolyKind) (values : List ℝ) (c : Fin (k.degree + 1) → ℝ)
    (hn : k.degree + 1 ≤ values.length) :
    mseResid (polyRows k values.length) values (List.ofFn c)
      = if values.length ≤ k.degree + 1 then none
        else some (polyRss c values / ((values.length : ℝ) - (k.degree + 1 : Nat))) := by
  unfold mseResid
  simp only [polyRows_head k values.length (by omega), polyRows_length]
  by_cases h : values.length ≤ k.degree + 1
  · rw [if_pos h, if_pos h]
  · rw [if_neg h, if_neg h]
    congr 2
    have hz : List.zipWith (fun r v => (v - (List.zipWith (· * ·) r (List.ofFn c)).sum) ^ 2)
        (polyRows k values.length) values
        = (List.range values.length).map fun i : Nat => (values.getD i 0 - polyVal c (i : ℝ)) ^ 2 := by
      apply List.ext_getElem
      · simp [polyRows]
      · intro i h1 h2
        have hi : i < values.length := by simpa using h2
        rw [List.getElem_zipWith, List.getElem_map, List.getElem_range, List.getD_eq_getElem _ _ hi]
        simp only [polyRows, List.getElem_map, List.getElem_range]
        rw [polyDesign_dot]
    rw [hz, polyRss, Finset.sum_range, ← List.sum_ofFn]
    congr 1
    apply List.ext_getElem
    · simp
    · intro i h1 h2
      simp only [List.getElem_map, List.getElem_range, List.getElem_ofFn]

/-- Half the width of the interval at position `x`. -/
noncomputable def polyMargin (W : PolyWorld) (k : PolyKind) (alpha : ℝ) (values : List ℝ) (x : Nat) : Option ℝ :=
  predictionMargin W.tq alpha (polyRows k values.length) values (List.ofFn (polyCoef k values)) (1 :: k.features x)

theorem polyForecast_ok (W : PolyWorld) (k : PolyKind) (alpha : ℝ) (values : List ℝ) (xs : List Nat) :
    polyForecast W alpha ⟨polyRows k values.length, values, List.ofFn (polyCoef k values)⟩
      (xs.map fun x => 1 :: k.features x)
    = .ok (xs.map fun x : Nat => (polyVal (polyCoef k values) (x : ℝ),
        (polyMargin W k alpha values x).map (polyVal (polyCoef k values) (x : ℝ) - ·),
        (polyMargin W k alpha values x).map (polyVal (polyCoef k values) (x : ℝ) + ·))) := by
  unfold polyForecast
  induction xs with
  | nil => rfl
  | cons x l ih =>
    rw [List.map_cons, List.mapM_cons, ih, List.map_cons]
    have : rowDot (List.ofFn (polyCoef k values)) (1 :: k.features x) = .ok (polyVal (polyCoef k values) (x : ℝ)) := by
      unfold rowDot
      rw [if_pos (by simp [polyFeatures_length]), polyDesign_dot]
    rw [this]
    rfl

theorem polyRun_ok (W : PolyWorld) (k : PolyKind) (alpha : ℝ) (f : DateFreq) (times : List Int) (values : List ℝ)
    (steps : Nat) (hist : Bool) (hn : k.degree + 1 ≤ values.length) (ht : times.length = values.length)
    (hd : (futureDates f (lastDate times) steps).length = steps) (hs : 2 ≤ steps ∨ hist = true) :
    polyRun W k alpha f times values steps hist
      = .ok (((polyDates f times steps hist).zip (polyPositions values.length steps hist)).map fun r : Int × Nat =>
        ⟨r.1, polyVal (polyCoef k values) (r.2 : ℝ),
          (polyMargin W k alpha values r.2).map (polyVal (polyCoef k values) (r.2 : ℝ) - ·),
          (polyMargin W k alpha values r.2).map (polyVal (polyCoef k values) (r.2 : ℝ) + ·)⟩) := by
  unfold polyRun
  rw [polyFit_ok W k values hn]
  simp only [bind, Except.bind]
  unfold polyPredict
  simp only [bind, Except.bind, pure, Except.pure]
  rw [ht, addConstant_poly k _ ?_ ?_]
  · simp only
    rw [polyForecast_ok]
    simp only
    unfold mkFcst
    rw [if_pos]
    · simp only [List.zip_map_right, List.map_map]
      rfl
    · cases hist <;> simp [polyDates, polyPositions, hd, ht]
  · rcases hs with h | h
    · intro e
      have := congrArg List.length e
      cases hist <;> simp [polyPositions] at this <;> omega
    · intro e
      have := congrArg List.length e
      rw [h] at this
      simp only [polyPositions, if_true, List.length_map, List.length_range, List.length_nil] at this
      omega
  · rcases hs with h | h
    · cases hist
      · refine .inr ⟨values.length + 0, ?_, values.length + 1, ?_, by omega⟩ <;>
          · simp [polyPositions]; omega
      · exact .inl (by simp [polyPositions]; omega)
    · rw [h]
      exact .inl (by simp [polyPositions]; omega)

theorem polyDates_zip (f : DateFreq) (times : List Int) (n steps : Nat) (ht : times.length = n)
    (hd : (futureDates f (lastDate times) steps).length = steps) (hist : Bool) :
    (polyDates f times steps hist).length = (polyPositions n steps hist).length := by
  cases hist <;> simp [polyDates, polyPositions, hd, ht]

/-- C115, the forecast.  With at least as many points as coefficients, `fit` and `predict` forecast with the
polynomial of the class that has the least sum of squared residuals over the positions of the data, and only
that one has it.  The rows are the positions after the data at the dates after the last date, with the history
in front if it is wanted, for two steps or more (or one with history, see `C115_one_step_violated`). -/
theorem C115_forecast_partial (W : PolyWorld) (k : PolyKind) (alpha : ℝ) (f : DateFreq) (hf : ∀ t, t < f.next t)
    (times : List Int) (values : List ℝ) (hr : f.roll (lastDate times) = lastDate times) (steps : Nat)
    (hn : k.degree + 1 ≤ values.length) (ht : times.length = values.length) :
    ∃ c : Fin (k.degree + 1) → ℝ,
      (∀ c', polyRss c values ≤ polyRss c' values ∧ (polyRss c' values = polyRss c values → c' = c))
      ∧ ∀ hist, 2 ≤ steps ∨ hist = true → ∃ out, polyRun W k alpha f times values steps hist = .ok out
        ∧ out.map (·.time) = (if hist then times else [])
            ++ (List.range steps).map (fun i => f.next^[i + 1] (lastDate times))
        ∧ out.map (·.fcst) = ((if hist then List.range values.length else [])
            ++ (List.range steps).map (values.length + ·)).map (fun x : Nat => polyVal c (x : ℝ)) := by
  refine ⟨polyCoef k values, polyCoef_best k values hn, fun hist hs => ?_⟩
  obtain ⟨d1, d2, -, -⟩ := C78_dates_partial f hf (lastDate times) hr steps
  refine ⟨_, polyRun_ok W k alpha f times values steps hist hn ht d2 hs, ?_, ?_⟩
  · rw [List.map_map]
    refine Eq.trans (b := ((polyDates f times steps hist).zip (polyPositions values.length steps hist)).map Prod.fst)
      (List.map_congr_left fun r _ => rfl) ?_
    rw [List.map_fst_zip (polyDates_zip f times _ steps ht d2 hist).le, polyDates, d1]
    cases hist <;> rfl
  · rw [List.map_map]
    refine Eq.trans (b := (((polyDates f times steps hist).zip (polyPositions values.length steps hist)).map
      Prod.snd).map fun x : Nat => polyVal (polyCoef k values) (x : ℝ)) (by rw [List.map_map]; rfl) ?_
    rw [List.map_snd_zip (polyDates_zip f times _ steps ht d2 hist).ge]
    congr 1
    cases hist
    · rfl
    · simp [polyPositions, List.range_add]

/-- C115, the last date: the dates of the forecast follow the latest time of the data, in whatever order these are. -/
theorem C115_last_date (times : List Int) (hne : times ≠ []) :
    lastDate times ∈ times ∧ ∀ t ∈ times, t ≤ lastDate times := by
  have key : ∀ (l : List Int) (a : Int), (l.foldl max a = a ∨ l.foldl max a ∈ l) ∧ a ≤ l.foldl max a
      ∧ ∀ t ∈ l, t ≤ l.foldl max a := by
    intro l
    induction l with
    | nil => intro a; simp
    | cons b l ih =>
      intro a
      obtain ⟨h1, h2, h3⟩ := ih (max a b)
      rw [List.foldl_cons]
      refine ⟨?_, (le_max_left a b).trans h2, ?_⟩
      · rcases h1 with h | h
        · rcases max_choice a b with e | e
          · exact .inl (by rw [h, e])
          · exact .inr (by rw [h, e]; simp)
        · exact .inr (List.mem_cons_of_mem _ h)
      · intro t ht
        rcases List.mem_cons.1 ht with rfl | ht
        · exact (le_max_right a t).trans h2
        · exact h3 t ht
  cases times with
  | nil => exact absurd rfl hne
  | cons a l =>
    obtain ⟨h1, h2, h3⟩ := key (a :: l) a
    refine ⟨?_, h3⟩
    rcases h1 with h | h
    · unfold lastDate; rw [List.headD_cons, h]; simp
    · exact h

example : lastDate [3, 9, 4] = 9 := by decide

/-- C115, an exact polynomial is continued: when the data lie on a polynomial of the class, so do all
forecasts, and (with more points than coefficients) both bounds equal the forecast. -/
theorem C115_exact_partial (W : PolyWorld) (k : PolyKind) (alpha : ℝ) (f : DateFreq) (hf : ∀ t, t < f.next t)
    (times : List Int) (values : List ℝ) (hr : f.roll (lastDate times) = lastDate times) (steps : Nat)
    (hn : k.degree + 1 ≤ values.length) (ht : times.length = values.length) (c : Fin (k.degree + 1) → ℝ)
    (hc : ∀ i < values.length, values.getD i 0 = polyVal c (i : ℕ)) (hs : 2 ≤ steps) :
    ∃ out, polyRun W k alpha f times values steps false = .ok out
      ∧ out.map (·.fcst) = (List.range steps).map (fun i : Nat => polyVal c ((values.length + i : Nat) : ℝ))
      ∧ (k.degree + 1 < values.length → ∀ r ∈ out, r.lower = some r.fcst ∧ r.upper = some r.fcst) := by
  have hz : polyRss c values = 0 := by
    apply Finset.sum_eq_zero
    intro i hi
    rw [hc i (Finset.mem_range.1 hi), sub_self]
    norm_num
  have hb := polyCoef_best k values hn c
  have hz' : polyRss (polyCoef k values) values = 0 :=
    le_antisymm (hb.1.trans hz.le) (Finset.sum_nonneg fun i _ => sq_nonneg _)
  have hcc : c = polyCoef k values := hb.2 (by rw [hz, hz'])
  obtain ⟨-, d2, -, -⟩ := C78_dates_partial f hf (lastDate times) hr steps
  refine ⟨_, polyRun_ok W k alpha f times values steps false hn ht d2 (.inl hs), ?_, ?_⟩
  · rw [List.map_map, hcc]
    refine Eq.trans (b := (((polyDates f times steps false).zip (polyPositions values.length steps false)).map
      Prod.snd).map fun x : Nat => polyVal (polyCoef k values) (x : ℝ)) (by rw [List.map_map]; rfl) ?_
    rw [List.map_snd_zip (polyDates_zip f times _ steps ht d2 false).ge]
    simp [polyPositions, Function.comp_def]
  · intro hlt r hr'
    obtain ⟨q, -, rfl⟩ := List.mem_map.1 hr'
    have hm : polyMargin W k alpha values q.2 = some 0 := by
      unfold polyMargin predictionMargin
      rw [mseResid_poly k values _ hn, if_neg (by omega), hz']
      simp
    simp [hm]

/-- The leverage of position `x` for `n` points: how large the square of a polynomial of the class can be at `x`
when its squares at the `n` points sum to one. -/
def IsLeverage (p n x : Nat) (lev : ℝ) : Prop :=
  IsLeast {L : ℝ | ∀ c : Fin p → ℝ, polyVal c (x : ℝ) ^ 2 ≤ L * ∑ i ∈ Finset.range n, polyVal c (i : ℝ) ^ 2} lev

theorem polyVal_dataVec (k : PolyKind) (x : Nat) (c : Fin (k.degree + 1) → ℝ) :
    c ⬝ᵥ dataVec (k.degree + 1) (1 :: k.features x) = polyVal c (x : ℝ) := by
  rw [polyVal]
  apply Finset.sum_congr rfl
  intro j _
  rw [dataVec, polyDesign_getD k x j j.2]

theorem polySq_fin (k : PolyKind) (n : Nat) (c : Fin (k.degree + 1) → ℝ) :
    ∑ i ∈ Finset.range n, polyVal c (i : ℝ) ^ 2
      = (rowsMatrix (polyRows k n) (k.degree + 1) *ᵥ c) ⬝ᵥ (rowsMatrix (polyRows k n) (k.degree + 1) *ᵥ c) := by
  simp only [dotProduct, polyRows_mulVec, ← sq]
  rw [Fin.sum_univ_eq_sum_range (fun i : Nat => polyVal c (i : ℝ) ^ 2), polyRows_length]

theorem leverage_isLeverage (k : PolyKind) (n x : Nat) (hn : k.degree + 1 ≤ n) :
    IsLeverage (k.degree + 1) n x (leverage (polyRows k n) (1 :: k.features x)) := by
  obtain ⟨X, hX⟩ : ∃ X, X = rowsMatrix (polyRows k n) (k.degree + 1) := ⟨_, rfl⟩
  obtain ⟨v, hv⟩ : ∃ v, v = dataVec (k.degree + 1) (1 :: k.features x) := ⟨_, rfl⟩
  obtain ⟨b, hb⟩ : ∃ b, b = (gram (polyRows k n) (k.degree + 1))⁻¹ *ᵥ v := ⟨_, rfl⟩
  have hu := polyRows_unit k n hn
  have hlev : leverage (polyRows k n) (1 :: k.features x) = b ⬝ᵥ v := by
    rw [leverage_eq _ _ (polyRows_head k n (by omega)), hb, hv, dotProduct_comm]
  have hGb : Xᵀ *ᵥ (X *ᵥ b) = v := by
    rw [mulVec_mulVec, hX, show (rowsMatrix (polyRows k n) (k.degree + 1))ᵀ * rowsMatrix (polyRows k n) (k.degree + 1)
      = gram (polyRows k n) (k.degree + 1) from rfl, hb, mulVec_mulVec, mul_nonsing_inv _ hu, one_mulVec]
  have hin : ∀ c, (X *ᵥ c) ⬝ᵥ (X *ᵥ b) = c ⬝ᵥ v := by
    intro c
    rw [← hGb, dotProduct_comm, dotProduct_mulVec, ← mulVec_transpose, dotProduct_comm]
  have hbb : (X *ᵥ b) ⬝ᵥ (X *ᵥ b) = b ⬝ᵥ v := hin b
  rw [hlev]
  constructor
  · intro c
    rw [polySq_fin, ← polyVal_dataVec, ← hX, ← hv, ← hin c, ← hbb]
    have := Finset.sum_mul_sq_le_sq_mul_sq Finset.univ (X *ᵥ c) (X *ᵥ b)
    simp only [dotProduct, ← sq]
    rw [mul_comm]
    exact this
  · intro L hL
    have h1 := hL b
    rw [polySq_fin, ← polyVal_dataVec, ← hX, ← hv, hbb] at h1
    have hnn : 0 ≤ b ⬝ᵥ v := by
      rw [← hbb]
      exact Finset.sum_nonneg fun i _ => mul_self_nonneg _
    have hpos : 0 < b ⬝ᵥ v := by
      refine lt_of_le_of_ne hnn fun h0 => ?_
      have hz : X *ᵥ b = 0 := dotProduct_self_eq_zero.1 (by rw [hbb, ← h0])
      have hv0 : v = 0 := by rw [← hGb, hz, mulVec_zero]
      have : v ⟨0, by omega⟩ = 1 := by rw [hv]; rfl
      rw [hv0] at this
      simp at this
    have : b ⬝ᵥ v * (b ⬝ᵥ v) ≤ L * (b ⬝ᵥ v) := by rw [← sq]; exact h1
    exact le_of_mul_le_mul_right this hpos

/-- C115, the interval.  With more points than coefficients the bounds lie at equal distance around the
forecast: the Student quantile times the root of the residual variance times one plus the leverage of the
position.  With just as many points as coefficients the bounds are NaN. -/
theorem C115_interval_partial (W : PolyWorld) (k : PolyKind) (alpha : ℝ) (f : DateFreq) (hf : ∀ t, t < f.next t)
    (times : List Int) (values : List ℝ) (hr : f.roll (lastDate times) = lastDate times) (steps : Nat)
    (hn : k.degree + 1 ≤ values.length) (ht : times.length = values.length) (hist : Bool)
    (hs : 2 ≤ steps ∨ hist = true) (c : Fin (k.degree + 1) → ℝ) (hc : ∀ c' : Fin (k.degree + 1) → ℝ, polyRss c values ≤ polyRss c' values) :
    ∃ out, polyRun W k alpha f times values steps hist = .ok out
      ∧ (k.degree + 1 < values.length → ∀ i (hi : i < out.length), ∃ lev,
          0 ≤ lev ∧ IsLeverage (k.degree + 1) values.length (if hist then i else values.length + i) lev ∧ ∃ w,
          w = W.tq (1 - alpha / 2) (values.length - (k.degree + 1)) * Real.sqrt (polyRss c values
            / ((values.length : ℝ) - (k.degree + 1 : Nat)) * (1 + lev))
          ∧ out[i].lower = some (out[i].fcst - w) ∧ out[i].upper = some (out[i].fcst + w))
      ∧ (values.length = k.degree + 1 → ∀ r ∈ out, r.lower = none ∧ r.upper = none) := by
  obtain ⟨-, d2, -, -⟩ := C78_dates_partial f hf (lastDate times) hr steps
  have hb := polyCoef_best k values hn c
  have hcc : polyRss c values = polyRss (polyCoef k values) values := le_antisymm (hc _) hb.1
  refine ⟨_, polyRun_ok W k alpha f times values steps hist hn ht d2 hs, ?_, ?_⟩
  · intro hlt i hi
    rw [List.getElem_map, List.getElem_zip]
    obtain ⟨q, hq⟩ : ∃ q : Int × Nat, q = ((polyDates f times steps hist)[i]'(by simp at hi; omega),
      (polyPositions values.length steps hist)[i]'(by simp at hi; omega)) := ⟨_, rfl⟩
    rw [← hq]
    have hq2 : q.2 = if hist then i else values.length + i := by
      rw [hq]
      cases hist <;> simp [polyPositions]
    rw [← hq2]
    refine ⟨leverage (polyRows k values.length) (1 :: k.features q.2), ?_, leverage_isLeverage k _ _ hn, _, rfl, ?_⟩
    · rw [leverage_eq _ _ (polyRows_head k values.length (by omega))]
      exact gram_inv_nonneg _ _ _
    · have hm : polyMargin W k alpha values q.2 = some (W.tq (1 - alpha / 2) (values.length - (k.degree + 1))
          * Real.sqrt (polyRss c values / ((values.length : ℝ) - (k.degree + 1 : Nat))
            * (1 + leverage (polyRows k values.length) (1 :: k.features q.2)))) := by
        unfold polyMargin predictionMargin
        rw [mseResid_poly k values _ hn, if_neg (by omega), polyRows_head k _ (by omega), polyRows_length, hcc]
        rfl
      simp only [hm, Option.map_some, and_self]
  · intro he r hr'
    obtain ⟨q, -, rfl⟩ := List.mem_map.1 hr'
    have hm : polyMargin W k alpha values q.2 = none := by
      unfold polyMargin predictionMargin
      rw [mseResid_poly k values _ hn, if_pos (by omega)]
      rfl
    simp only [hm, Option.map_none, and_self]

/-- The mean position. -/
noncomputable def midPos (n : Nat) : ℝ := (∑ i ∈ Finset.range n, (i : ℝ)) / n

/-- The squared deviations of the positions. -/
noncomputable def posSq (n : Nat) : ℝ := ∑ i ∈ Finset.range n, ((i : ℝ) - midPos n) ^ 2

theorem posSq_pos (n : Nat) (hn : 2 ≤ n) : 0 < posSq n := by
  by_contra h
  have h0 : posSq n = 0 := le_antisymm (not_lt.1 h) (Finset.sum_nonneg fun i _ => sq_nonneg _)
  rw [posSq, Finset.sum_eq_zero_iff_of_nonneg fun i _ => sq_nonneg _] at h0
  have a := h0 0 (Finset.mem_range.2 (by omega))
  have b := h0 1 (Finset.mem_range.2 (by omega))
  have a' : (((0 : Nat) : ℝ) - midPos n) = 0 := by simpa using a
  have b' : (((1 : Nat) : ℝ) - midPos n) = 0 := by simpa using b
  push_cast at a' b'
  linarith

theorem midPos_dev (n : Nat) (hn : 0 < n) : ∑ i ∈ Finset.range n, ((i : ℝ) - midPos n) = 0 := by
  rw [Finset.sum_sub_distrib, Finset.sum_const, Finset.card_range, nsmul_eq_mul, midPos]
  have : (n : ℝ) ≠ 0 := by exact_mod_cast hn.ne'
  field_simp
  ring

theorem line_sumSq (n : Nat) (hn : 0 < n) (a b : ℝ) :
    ∑ i ∈ Finset.range n, (a + b * ((i : ℝ) - midPos n)) ^ 2 = n * a ^ 2 + b ^ 2 * posSq n := by
  have : ∀ i ∈ Finset.range n, (a + b * ((i : ℝ) - midPos n)) ^ 2
      = a ^ 2 + 2 * a * b * ((i : ℝ) - midPos n) + b ^ 2 * ((i : ℝ) - midPos n) ^ 2 := by
    intro i _
    ring
  rw [Finset.sum_congr rfl this, Finset.sum_add_distrib, Finset.sum_add_distrib, ← Finset.mul_sum, ← Finset.mul_sum,
    midPos_dev n hn, Finset.sum_const, Finset.card_range, nsmul_eq_mul, posSq]
  ring

/-- The leverage of a straight line. -/
theorem line_leverage (n x : Nat) (hn : 2 ≤ n) (lev : ℝ) (h : IsLeverage 2 n x lev) :
    lev = 1 / n + ((x : ℝ) - midPos n) ^ 2 / posSq n := by
  have hS := posSq_pos n hn
  have hn0 : (0 : ℝ) < n := by exact_mod_cast (by omega : 0 < n)
  have hv : ∀ (c : Fin 2 → ℝ) (y : ℝ), polyVal c y = (c 0 + c 1 * midPos n) + c 1 * (y - midPos n) := by
    intro c y
    simp [polyVal, Fin.sum_univ_two]
    ring
  have hs : ∀ c : Fin 2 → ℝ, ∑ i ∈ Finset.range n, polyVal c (i : ℝ) ^ 2
      = n * (c 0 + c 1 * midPos n) ^ 2 + c 1 ^ 2 * posSq n := by
    intro c
    rw [Finset.sum_congr rfl fun i _ => by rw [hv c i]]
    exact line_sumSq n (by omega) _ _
  refine h.unique ⟨?_, ?_⟩
  · intro c
    rw [hs, hv]
    obtain ⟨d, hd⟩ : ∃ d, d = (x : ℝ) - midPos n := ⟨_, rfl⟩
    obtain ⟨a, ha⟩ : ∃ a, a = c 0 + c 1 * midPos n := ⟨_, rfl⟩
    rw [← hd, ← ha]
    have : (1 / (n : ℝ) + d ^ 2 / posSq n) * (n * a ^ 2 + c 1 ^ 2 * posSq n) - (a + c 1 * d) ^ 2
        = (n * posSq n)⁻¹ * (a * d * n - c 1 * posSq n) ^ 2 := by
      field_simp
      ring
    have h2 : 0 ≤ ((n : ℝ) * posSq n)⁻¹ * (a * d * n - c 1 * posSq n) ^ 2 := by positivity
    linarith
  · intro L hL
    obtain ⟨d, hd⟩ : ∃ d, d = (x : ℝ) - midPos n := ⟨_, rfl⟩
    have h1 := hL ![1 / n - d / posSq n * midPos n, d / posSq n]
    rw [hs, hv, ← hd] at h1
    simp only [Matrix.cons_val_zero, Matrix.cons_val_one] at h1
    rw [← hd]
    obtain ⟨t, ht⟩ : ∃ t, t = 1 / (n : ℝ) + d ^ 2 / posSq n := ⟨_, rfl⟩
    have e1 : 1 / (n : ℝ) - d / posSq n * midPos n + d / posSq n * midPos n + d / posSq n * d = t := by
      rw [ht]; ring
    have e2 : (n : ℝ) * (1 / (n : ℝ) - d / posSq n * midPos n + d / posSq n * midPos n) ^ 2
        + (d / posSq n) ^ 2 * posSq n = t := by
      rw [ht]
      field_simp
      ring
    rw [e1, e2] at h1
    have ht0 : 0 < t := by rw [ht]; positivity
    rw [← ht]
    have : t * t ≤ L * t := by rw [← sq]; exact h1
    exact le_of_mul_le_mul_right this ht0

/-- C115, the intervals of the linear model: the usual formula, so they do not get narrower further ahead
(for a nonnegative Student quantile). -/
theorem C115_linear_partial (W : PolyWorld) (alpha : ℝ) (f : DateFreq) (hf : ∀ t, t < f.next t)
    (times : List Int) (values : List ℝ) (hr : f.roll (lastDate times) = lastDate times) (steps : Nat) (hs : 2 ≤ steps)
    (hn : 3 ≤ values.length) (ht : times.length = values.length) (c : Fin 2 → ℝ)
    (hc : ∀ c' : Fin 2 → ℝ, polyRss c values ≤ polyRss c' values)
    (hq : 0 ≤ W.tq (1 - alpha / 2) (values.length - 2)) :
    ∃ out, polyRun W .linear alpha f times values steps false = .ok out
      ∧ ∃ w : Nat → ℝ, (∀ i, w i = W.tq (1 - alpha / 2) (values.length - 2) * Real.sqrt (polyRss c values
            / ((values.length : ℝ) - 2) * (1 + (1 / values.length
              + (((values.length + i : Nat) : ℝ) - midPos values.length) ^ 2 / posSq values.length))))
        ∧ (∀ i (hi : i < out.length), out[i].lower = some (out[i].fcst - w i) ∧ out[i].upper = some (out[i].fcst + w i))
        ∧ (∀ i, 0 ≤ w i) ∧ ∀ i j, i ≤ j → w i ≤ w j := by
  obtain ⟨out, h1, h2, -⟩ := C115_interval_partial W .linear alpha f hf times values hr steps
    (show 2 ≤ values.length by omega) ht false (.inl hs) c hc
  refine ⟨out, h1, _, fun i => rfl, ?_, ?_, ?_⟩
  · intro i hi
    obtain ⟨lev, -, hl, w, hw, e1, e2⟩ := h2 (show 2 < values.length by omega) i hi
    have hlev := line_leverage values.length _ (by omega) lev hl
    simp only [Bool.false_eq_true, if_false] at hlev
    rw [hlev] at hw
    have hw' : w = W.tq (1 - alpha / 2) (values.length - 2) * Real.sqrt (polyRss c values
            / ((values.length : ℝ) - 2) * (1 + (1 / values.length
              + (((values.length + i : Nat) : ℝ) - midPos values.length) ^ 2 / posSq values.length))) := by
      rw [hw]
      rfl
    rw [← hw']
    exact ⟨e1, e2⟩
  · intro i
    exact mul_nonneg hq (Real.sqrt_nonneg _)
  · intro i j hij
    have hS := posSq_pos values.length (by omega)
    have hmid : midPos values.length ≤ values.length := by
      rw [midPos, div_le_iff₀ (by exact_mod_cast (by omega : 0 < values.length))]
      have : ∑ i ∈ Finset.range values.length, (i : ℝ) ≤ ∑ i ∈ Finset.range values.length, (values.length : ℝ) :=
        Finset.sum_le_sum fun i hi => by exact_mod_cast (Finset.mem_range.1 hi).le
      rwa [Finset.sum_const, Finset.card_range, nsmul_eq_mul] at this
    apply mul_le_mul_of_nonneg_left _ hq
    apply Real.sqrt_le_sqrt
    apply mul_le_mul_of_nonneg_left
    · have hij' : (i : ℝ) ≤ j := by exact_mod_cast hij
      have hi0 : (0 : ℝ) ≤ i := Nat.cast_nonneg i
      have : (((values.length + i : Nat) : ℝ) - midPos values.length) ^ 2
          ≤ (((values.length + j : Nat) : ℝ) - midPos values.length) ^ 2 := by
        push_cast
        apply pow_le_pow_left₀ <;> linarith
      have := div_le_div_of_nonneg_right this hS.le
      linarith
    · apply div_nonneg (Finset.sum_nonneg fun i _ => sq_nonneg _)
      have : (3 : ℝ) ≤ values.length := by exact_mod_cast hn
      linarith

/-- C115 is violated for a forecast of one step: `sm.add_constant` takes the single row for a constant and adds
no column, so `predict(1)` raises a `ValueError` for every series with as many points as coefficients, whatever
the frequency; a forecast of no steps does too. -/
theorem C115_one_step_violated (W : PolyWorld) (k : PolyKind) (alpha : ℝ) (f : DateFreq)
    (times : List Int) (values : List ℝ) (hn : k.degree + 1 ≤ values.length) (ht : times.length = values.length) :
    polyRun W k alpha f times values 1 false = .error .valueError
    ∧ polyRun W k alpha f times values 0 false = .error .valueError := by
  have hfit := polyFit_ok W k values hn
  constructor
  · unfold polyRun
    rw [hfit]
    simp only [bind, Except.bind]
    unfold polyPredict
    simp only [bind, Except.bind, pure, Except.pure]
    have ha : addConstant ((polyPositions times.length 1 false).map k.features) = .ok [k.features times.length] := by
      have hp : (polyPositions times.length 1 false).map k.features = [k.features times.length] := by
        simp [polyPositions]
      rw [hp]
      unfold addConstant
      rw [if_neg (by simp), if_pos]
      rw [List.any_eq_true]
      refine ⟨0, by cases k <;> simp [PolyKind.features], ?_⟩
      have h0 : (times.length : ℝ) ≠ 0 := by
        rw [ht]
        exact_mod_cast (by omega : values.length ≠ 0)
      unfold constColumn
      rw [List.all_eq_true]
      intro r hr
      rw [List.mem_singleton.1 hr, decide_eq_true_eq]
      refine ⟨rfl, ?_⟩
      cases k <;> simpa [PolyKind.features] using h0
    rw [ha]
    simp only
    have : polyForecast W alpha ⟨polyRows k values.length, values, List.ofFn (polyCoef k values)⟩
        [k.features times.length] = .error .valueError := by
      unfold polyForecast
      rw [List.mapM_cons]
      unfold rowDot
      rw [if_neg (by simp [polyFeatures_length])]
      rfl
    rw [this]
  · unfold polyRun
    rw [hfit]
    rfl

theorem polyVal_two (c : Fin 2 → ℝ) (x : ℝ) : polyVal c x = c 0 + c 1 * x := by
  simp [polyVal, Fin.sum_univ_two]

/-- Daily data. -/
def dailyFreq : DateFreq := ⟨id, (· + 1)⟩

/-- A quadratic series with one disturbed value meets the hypotheses of `C115_forecast_partial`, and the
forecast of two days has two rows. -/
example (W : PolyWorld) : ∃ out, polyRun W .quadratic (1 / 20) dailyFreq [0, 1, 2, 3, 4] [0, 1, 4, 9, 17] 2 false = .ok out
    ∧ out.map (·.time) = [5, 6] := by
  obtain ⟨c, -, h⟩ := C115_forecast_partial W .quadratic (1 / 20) dailyFreq (fun t => Int.lt_succ t)
    [0, 1, 2, 3, 4] [0, 1, 4, 9, 17] rfl 2 (by simp [PolyKind.degree]) rfl
  obtain ⟨out, h1, h2, -⟩ := h false (.inl le_rfl)
  refine ⟨out, h1, ?_⟩
  rw [h2]
  decide

/-- Three points on the line `1 + 2 x` are continued by 7 and 9. -/
example (W : PolyWorld) : ∃ out, polyRun W .linear (1 / 20) dailyFreq [0, 1, 2] [1, 3, 5] 2 false = .ok out
    ∧ out.map (·.fcst) = [7, 9] ∧ ∀ r ∈ out, r.lower = some r.fcst := by
  obtain ⟨out, h1, h2, h3⟩ := C115_exact_partial W .linear (1 / 20) dailyFreq (fun t => Int.lt_succ t)
    [0, 1, 2] [1, 3, 5] rfl 2 (by simp [PolyKind.degree]) rfl ![1, 2] (by
      intro i hi
      have : i = 0 ∨ i = 1 ∨ i = 2 := by simp at hi; omega
      refine Eq.trans ?_ (polyVal_two ![1, 2] (i : ℝ)).symm
      rcases this with rfl | rfl | rfl <;> simp <;> norm_num) le_rfl
  refine ⟨out, h1, ?_, fun r hr => (h3 (by simp [PolyKind.degree]) r hr).1⟩
  rw [h2]
  refine Eq.trans (List.map_congr_left fun i _ => polyVal_two ![1, 2] _) ?_
  simp [List.range_succ]
  norm_num

/-- The disturbed line `0, 1, 5` has the best line `-1/2 + 5/2 x`, and its intervals are not degenerate. -/
example (W : PolyWorld) (hq : 0 ≤ W.tq (1 - (1 / 20) / 2) 1) :
    ∃ out, polyRun W .linear (1 / 20) dailyFreq [0, 1, 2] [0, 1, 5] 2 false = .ok out ∧
      ∃ w : Nat → ℝ, ∀ i (hi : i < out.length), out[i].lower = some (out[i].fcst - w i) := by
  obtain ⟨out, h1, w, -, h3, -⟩ := C115_linear_partial W (1 / 20) dailyFreq (fun t => Int.lt_succ t)
    [0, 1, 2] [0, 1, 5] rfl 2 le_rfl (by simp) rfl ![-1 / 2, 5 / 2] (by
      intro c'
      simp only [polyRss, polyVal, Fin.sum_univ_two, List.length_cons, List.length_nil, Finset.sum_range_succ,
        Finset.sum_range_zero]
      simp
      nlinarith [sq_nonneg (c' 0 + 1 / 2 + (c' 1 - 5 / 2)), sq_nonneg (c' 1 - 5 / 2), sq_nonneg (c' 0 + 1 / 2)]) hq
  exact ⟨out, h1, w, fun i hi => (h3 i hi).1⟩

example (W : PolyWorld) : polyRun W .quadratic (1 / 20) dailyFreq [0, 1, 2] [1, 3, 5] 1 false = .error .valueError :=
  (C115_one_step_violated W .quadratic (1 / 20) dailyFreq [0, 1, 2] [1, 3, 5] (by simp [PolyKind.degree]) rfl).1

end Kats

import Verif.Model.NeuralProphet
import Verif.Props.MetaDetect
import Verif.Props.Lstm

/-!
# C155: forecasts by NeuralProphet
-/

namespace Kats

variable {R F : Type}

theorem np_name (key : String) (r : NpReg) (n : String) :
    (npName key r = .ok n ↔ ∃ d, r = some d ∧ d.lookup key = some n
      ∧ ∀ x ∈ d, x.1 = key ∨ x.1 = "regularization" ∨ x.1 = "normalize")
    ∧ ((∃ n, npName key r = .ok n) ∨ npName key r = .error .valueError) := by
  unfold npName
  rcases r with _ | d
  · exact ⟨⟨fun h => (by cases h), fun ⟨d, h, _⟩ => (by cases h)⟩, .inr rfl⟩
  simp only []
  rcases hl : d.lookup key with _ | m
  · refine ⟨⟨fun h => (by cases h), ?_⟩, .inr rfl⟩
    rintro ⟨d', h, h2, -⟩
    injection h with h
    rw [← h, hl] at h2
    cases h2
  · simp only []
    by_cases ha : (d.all fun x => x.1 ∈ [key, "regularization", "normalize"]) = true
    · rw [if_pos ha]
      refine ⟨?_, .inl ⟨_, rfl⟩⟩
      rw [List.all_eq_true] at ha
      constructor
      · intro h
        injection h with h
        refine ⟨d, rfl, by rw [hl, h], fun x hx => ?_⟩
        simpa using ha x hx
      · rintro ⟨d', h, h2, -⟩
        injection h with h
        rw [← h, hl] at h2
        injection h2 with h2
        rw [h2]
    · rw [if_neg ha]
      refine ⟨⟨fun h => (by cases h), ?_⟩, .inr rfl⟩
      rintro ⟨d', h, -, h3⟩
      injection h with h
      exact absurd (List.all_eq_true.2 fun x hx => by simpa using h3 x (by rw [← h]; exact hx)) ha

/-- C155 (parameters): they are accepted exactly if every seasonality has a name, a period and an order, and every
regressor is a dictionary with its name and no other keys than the two options; the required regressors are the names of
the future ones, then of the lagged ones.  All other parameters are a `ValueError`. -/
theorem C155_params (p : NpParams R) (names : List String) :
    (npValidate p = .ok names ↔
      (∀ s ∈ p.seasons, "name" ∈ s ∧ "period" ∈ s ∧ "fourier_order" ∈ s)
      ∧ ∃ a b, names = a ++ b
        ∧ List.Forall₂ (fun r n => ∃ d, r = some d ∧ d.lookup "name" = some n
            ∧ ∀ x ∈ d, x.1 = "name" ∨ x.1 = "regularization" ∨ x.1 = "normalize") p.future a
        ∧ List.Forall₂ (fun r n => ∃ d, r = some d ∧ d.lookup "names" = some n
            ∧ ∀ x ∈ d, x.1 = "names" ∨ x.1 = "regularization" ∨ x.1 = "normalize") p.lagged b)
    ∧ ((∃ n, npValidate p = .ok n) ∨ npValidate p = .error .valueError) := by
  have hk : (["name", "period", "fourier_order"].all fun k => p.seasons.all fun s => k ∈ s) = true ↔
      ∀ s ∈ p.seasons, "name" ∈ s ∧ "period" ∈ s ∧ "fourier_order" ∈ s := by
    simp only [List.all_cons, List.all_nil, Bool.and_true, Bool.and_eq_true, List.all_eq_true, decide_eq_true_eq]
    exact ⟨fun h s hs => ⟨h.1 s hs, h.2.1 s hs, h.2.2 s hs⟩,
      fun h => ⟨fun s hs => (h s hs).1, fun s hs => (h s hs).2.1, fun s hs => (h s hs).2.2⟩⟩
  have hm : ∀ (key : String) (l : List NpReg) (a : List String), l.mapM (npName key) = .ok a ↔
      List.Forall₂ (fun r n => ∃ d, r = some d ∧ d.lookup key = some n
        ∧ ∀ x ∈ d, x.1 = key ∨ x.1 = "regularization" ∨ x.1 = "normalize") l a := by
    intro key l a
    rw [me_mapM_iff]
    constructor
    · exact fun h => h.imp fun {r n} hr => (np_name key r n).1.1 hr
    · exact fun h => h.imp fun {r n} hr => (np_name key r n).1.2 hr
  have he : ∀ (key : String) (l : List NpReg), (∃ a, l.mapM (npName key) = .ok a) ∨ l.mapM (npName key) = .error .valueError := by
    intro key l
    induction l with
    | nil => exact .inl ⟨[], rfl⟩
    | cons r l ih =>
      rw [List.mapM_cons]
      rcases (np_name key r "").2 with ⟨n, hn⟩ | hn
      · rw [hn]
        rcases ih with ⟨a, ha⟩ | ha
        · rw [ha]; exact .inl ⟨n :: a, rfl⟩
        · rw [ha]; exact .inr rfl
      · rw [hn]; exact .inr rfl
  unfold npValidate
  refine ⟨?_, ?_⟩
  · rw [← hk]
    by_cases h : (["name", "period", "fourier_order"].all fun k => p.seasons.all fun s => k ∈ s) = true
    · rw [if_pos h]
      constructor
      · intro hv
        obtain ⟨a, ha, hv⟩ := (gm_bind_ok _ _ _).1 hv
        obtain ⟨b, hb, hv⟩ := (gm_bind_ok _ _ _).1 hv
        injection hv with hv
        exact ⟨h, a, b, hv.symm, (hm _ _ _).1 ha, (hm _ _ _).1 hb⟩
      · rintro ⟨-, a, b, rfl, ha, hb⟩
        exact (gm_bind_ok _ _ _).2 ⟨a, (hm _ _ _).2 ha, (gm_bind_ok _ _ _).2 ⟨b, (hm _ _ _).2 hb, rfl⟩⟩
    · rw [if_neg h]
      exact ⟨fun hv => (by cases hv), fun hv => absurd hv.1 h⟩
  · split
    · rcases he "name" p.future with ⟨a, ha⟩ | ha
      · rcases he "names" p.lagged with ⟨b, hb⟩ | hb
        · exact .inl ⟨a ++ b, (gm_bind_ok _ _ _).2 ⟨a, ha, (gm_bind_ok _ _ _).2 ⟨b, hb, rfl⟩⟩⟩
        · rw [ha, hb]; exact .inr rfl
      · rw [ha]; exact .inr rfl
    · exact .inr rfl

example : npValidate (⟨[["name", "period", "fourier_order"]], [some [("name", "a")]],
      [some [("names", "b"), ("normalize", "auto")]], ()⟩ : NpParams Unit) = .ok ["a", "b"]
    ∧ npValidate (⟨[], [some [("name", "a"), ("mode", "x")]], [], ()⟩ : NpParams Unit) = .error .valueError := by decide +kernel

/-- C155 (data and `fit`): a series of one column is accepted exactly without regressors, another exactly if it has a column
`y` and all regressors; nothing is forecast before a fit, and a fit uses the times as `ds`, the values as `y` and the columns
of the regressors, row by row. -/
theorem C155_fit (L : NpLib R F) (data : NpData) (p : NpParams R) (names : List String) :
    ((∃ M : NpModel R F, npInit data p names = .ok M) ↔
      data.values = none ∧ names = [] ∨ ∃ cols, data.values = some cols ∧ "y" ∈ cols ∧ ∀ n ∈ names, n ∈ cols)
    ∧ ((∃ M : NpModel R F, npInit data p names = .ok M) ∨ (npInit data p names : Except Err (NpModel R F)) = .error .valueError)
    ∧ ∀ M : NpModel R F, npInit data p names = .ok M →
      (∀ steps raw fut, npPredict L M steps raw fut = .error .valueError)
      ∧ ∀ freq M', npFit L M freq = .ok M' → ∃ f, L.fit p M'.df freq = .ok f ∧ M'.model = some f ∧ M'.names = names
        ∧ M'.params = p ∧ M'.df.cols = names ++ ["y", "ds"] ∧ M'.df.rows.length = data.rows.length
        ∧ ∀ (i : Nat) (r r' : String → Option Rat), data.rows[i]? = some r → M'.df.rows[i]? = some r' →
          r' "ds" = r "time" ∧ r' "y" = r (if data.values = none then "value" else "y")
          ∧ ∀ n ∈ names, n ≠ "ds" → r' n = r n := by
  refine ⟨?_, ?_, ?_⟩
  · unfold npInit
    rcases data.values with _ | cols
    · simp only []
      by_cases hn : names = []
      · rw [if_pos hn]
        exact ⟨fun _ => .inl (by simp [hn]), fun _ => ⟨_, rfl⟩⟩
      · rw [if_neg hn]
        refine ⟨fun ⟨_, h⟩ => (by cases h), ?_⟩
        rintro (⟨-, h⟩ | ⟨c, h, -⟩)
        · exact absurd h hn
        · cases h
    · simp only []
      by_cases hy : "y" ∉ cols
      · rw [if_pos hy]
        refine ⟨fun ⟨_, h⟩ => (by cases h), ?_⟩
        rintro (⟨h, -⟩ | ⟨c, h, h2, -⟩)
        · cases h
        · injection h with h
          exact absurd (by rw [h]; exact h2) hy
      · rw [if_neg hy]
        by_cases ha : (names.all fun n => n ∈ cols) = true
        · rw [if_pos ha]
          refine ⟨fun _ => .inr ⟨cols, rfl, not_not.1 hy, fun n hn => ?_⟩, fun _ => ⟨_, rfl⟩⟩
          simpa using List.all_eq_true.1 ha n hn
        · rw [if_neg ha]
          refine ⟨fun ⟨_, h⟩ => (by cases h), ?_⟩
          rintro (⟨h, -⟩ | ⟨c, h, -, h3⟩)
          · cases h
          · injection h with h
            exact absurd (List.all_eq_true.2 fun n hn => by simpa [h] using h3 n hn) ha
  · unfold npInit
    split
    · split
      · exact .inl ⟨_, rfl⟩
      · exact .inr rfl
    · split
      · exact .inr rfl
      · split
        · exact .inl ⟨_, rfl⟩
        · exact .inr rfl
  · intro M hM
    have hMe : M = ⟨data, p, names, ⟨[], []⟩, none⟩
        ∧ (data.values = none → names = []) := by
      unfold npInit at hM
      split at hM
      · split at hM
        · rename_i h
          injection hM with hM
          exact ⟨hM.symm, fun _ => h⟩
        · cases hM
      · rename_i cols hc
        split at hM
        · cases hM
        · split at hM
          · injection hM with hM
            exact ⟨hM.symm, fun h => by rw [hc] at h; cases h⟩
          · cases hM
    obtain ⟨rfl, hnil⟩ := hMe
    refine ⟨fun _ _ _ => rfl, ?_⟩
    intro freq M' h
    obtain ⟨f, hf, h⟩ := (gm_bind_ok _ _ _).1 h
    injection h with h
    subst h
    refine ⟨f, hf, rfl, rfl, rfl, ?_, ?_, ?_⟩
    · show (npFrame data names).cols = _
      unfold npFrame
      split <;> rfl
    · show (npFrame data names).rows.length = _
      unfold npFrame
      split <;> exact List.length_map _
    · intro i r r' hr hr'
      have hr' : (npFrame data names).rows[i]? = some r' := hr'
      unfold npFrame at hr'
      split at hr'
      · rename_i hv
        rw [List.getElem?_map, hr, Option.map_some] at hr'
        injection hr' with hr'
        rw [← hr', if_pos hv]
        refine ⟨if_pos rfl, by simp, ?_⟩
        rw [hnil hv]
        exact fun n hn => by cases hn
      · rename_i cols hv
        rw [List.getElem?_map, hr, Option.map_some] at hr'
        injection hr' with hr'
        rw [← hr', if_neg (by rw [hv]; simp)]
        refine ⟨if_pos rfl, by simp, fun n _ hn => if_neg hn⟩

/-- What a successful call of `predict` does. -/
theorem np_predict (L : NpLib R F) (M : NpModel R F) (steps : Nat) (raw : Bool) (future : Option NpFrame)
    (out after : NpFrame) : npPredict L M steps raw future = .ok (out, after) ↔
      ∃ f fut fc, M.model = some f
        ∧ (0 < M.params.future.length + M.params.lagged.length → future = some fut ∧ ∀ n ∈ M.names, n ∈ fut.cols)
        ∧ (M.params.future.length + M.params.lagged.length = 0 → fut = future.getD (L.makeFuture f M.df steps))
        ∧ steps ≤ fut.rows.length ∧ npPrepare fut = .ok after ∧ L.predict f after = .ok fc
        ∧ out = if raw = true then fc else ⟨fc.cols.filter npKeep, fc.rows⟩ := by
  unfold npPredict
  rcases M.model with _ | f
  · exact ⟨fun h => (by cases h), fun ⟨f, _, _, h, _⟩ => (by cases h)⟩
  simp only []
  constructor
  · intro h
    obtain ⟨fut, h1, h⟩ := (gm_bind_ok _ _ _).1 h
    split at h
    · cases h
    rename_i hl
    obtain ⟨fut', h2, h⟩ := (gm_bind_ok _ _ _).1 h
    obtain ⟨fc, h3, h⟩ := (gm_bind_ok _ _ _).1 h
    injection h with h
    have e1 := congrArg Prod.fst h
    have e2 := congrArg Prod.snd h
    simp only [] at e1 e2
    subst e2
    refine ⟨f, fut, fc, rfl, ?_, ?_, by omega, h2, h3, e1.symm⟩
    · intro hp
      rw [if_pos hp] at h1
      rcases future with _ | d
      · cases h1
      · simp only [] at h1
        split at h1
        · cases h1
        · rename_i ha
          split at h1
          · cases h1
          · injection h1 with h1
            subst h1
            refine ⟨rfl, fun n hn => ?_⟩
            simp only [Bool.not_eq_false, List.all_eq_true, decide_eq_true_eq] at ha
            exact ha n hn
    · intro hp
      rw [if_neg (by omega)] at h1
      injection h1 with h1
      exact h1.symm
  · rintro ⟨f', fut, fc, hf, hA, hB, hl, h2, h3, rfl⟩
    injection hf with hf
    subst hf
    have hds : "ds" ∈ fut.cols := by
      unfold npPrepare at h2
      split at h2
      · cases h2
      · rename_i h; exact not_not.1 h
    refine (gm_bind_ok _ _ _).2 ⟨fut, ?_, ?_⟩
    · rcases Nat.eq_zero_or_pos (M.params.future.length + M.params.lagged.length) with hp | hp
      · rw [if_neg (by omega), hB hp]
      · rw [if_pos hp]
        obtain ⟨rfl, hn⟩ := hA hp
        simp only []
        rw [if_neg (by
          simp only [Bool.not_eq_false, List.all_eq_true, decide_eq_true_eq]
          exact hn), if_neg (not_not.2 hds)]
    · rw [if_neg (by omega)]
      exact (gm_bind_ok _ _ _).2 ⟨after, h2, (gm_bind_ok _ _ _).2 ⟨fc, h3, rfl⟩⟩

theorem np_le_trans (a b c : Option Rat) (h1 : npLe a b = true) (h2 : npLe b c = true) : npLe a c = true := by
  unfold npLe at *
  rcases a with _ | x <;> rcases b with _ | y <;> rcases c with _ | z <;> simp at *
  exact h1.trans h2

theorem np_le_total (a b : Option Rat) : npLe a b = true ∨ npLe b a = true := by
  unfold npLe
  rcases a with _ | x <;> rcases b with _ | y <;> simp
  exact le_total x y

/-- C155 (forecast), the part that holds: a forecast is made exactly after a fit, and with regressors only for a frame that
has them; the frame needs the column `ds` and at least as many rows as steps.  NeuralProphet gets its rows in the order of
their dates, and what it says of them is returned row by row. -/
theorem C155_forecast_partial (L : NpLib R F) (M : NpModel R F) (steps : Nat) (raw : Bool) (future : Option NpFrame)
    (out after : NpFrame) (h : npPredict L M steps raw future = .ok (out, after)) :
    ∃ f fut fc, M.model = some f
      ∧ (0 < M.params.future.length + M.params.lagged.length → future = some fut ∧ ∀ n ∈ M.names, n ∈ fut.cols)
      ∧ (M.params.future.length + M.params.lagged.length = 0 → fut = future.getD (L.makeFuture f M.df steps))
      ∧ "ds" ∈ fut.cols ∧ steps ≤ fut.rows.length
      ∧ L.predict f after = .ok fc ∧ out.rows = fc.rows ∧ (raw = true → out.cols = fc.cols)
      ∧ (∀ c, c ∈ after.cols ↔ c ∈ fut.cols ∨ c = "y")
      ∧ after.rows.Pairwise (fun a b => npLe (a "ds") (b "ds") = true)
      ∧ after.rows.Perm (fut.rows.map fun r c => if c = "y" then some 0 else r c) := by
  obtain ⟨f, fut, fc, h1, h2, h3, h4, h5, h6, rfl⟩ := (np_predict _ _ _ _ _ _ _).1 h
  unfold npPrepare at h5
  split at h5
  · cases h5
  rename_i hds
  injection h5 with h5
  subst h5
  refine ⟨f, fut, fc, h1, h2, h3, not_not.1 hds, h4, h6, ?_, ?_, ?_, ?_, ?_⟩
  · split <;> rfl
  · intro hr; rw [if_pos hr]
  · intro c
    show c ∈ (if "y" ∈ fut.cols then fut.cols else fut.cols ++ ["y"]) ↔ _
    split
    · rename_i hy
      refine ⟨.inl, ?_⟩
      rintro (h | rfl)
      · exact h
      · exact hy
    · simp
  · show List.Pairwise _ (List.map _ _)
    rw [List.pairwise_map]
    refine (List.pairwise_mergeSort (le := fun a b : String → Option Rat => npLe (a "ds") (b "ds"))
      (fun a b c => np_le_trans _ _ _) (fun a b => ?_) fut.rows).imp ?_
    · rw [Bool.or_eq_true]
      exact np_le_total _ _
    · intro a b hab
      show npLe (if "ds" = "y" then some 0 else a "ds") (if "ds" = "y" then some 0 else b "ds") = true
      rw [if_neg (show ¬ "ds" = "y" by decide), if_neg (show ¬ "ds" = "y" by decide)]
      exact hab
  · exact (List.mergeSort_perm _ _).map _

/-- C155 (columns, violated): the documented columns `time`, `fcst`, `fcst_lower` and `fcst_upper` are never returned: all
columns are `ds` or begin with `yhat`. -/
theorem C155_columns_violated (L : NpLib R F) (M : NpModel R F) (steps : Nat) (future : Option NpFrame) (out after : NpFrame)
    (h : npPredict L M steps false future = .ok (out, after)) :
    (∀ c ∈ out.cols, c = "ds" ∨ "yhat".toList <+: c.toList)
    ∧ "time" ∉ out.cols ∧ "fcst" ∉ out.cols ∧ "fcst_lower" ∉ out.cols ∧ "fcst_upper" ∉ out.cols := by
  obtain ⟨f, fut, fc, -, -, -, -, -, -, rfl⟩ := (np_predict _ _ _ _ _ _ _).1 h
  have key : ∀ c ∈ fc.cols.filter npKeep, npKeep c = true := fun c hc => (List.mem_filter.1 hc).2
  refine ⟨?_, ?_, ?_, ?_, ?_⟩
  · intro c hc
    have := key c hc
    unfold npKeep at this
    simpa [List.isPrefixOf_iff_prefix] using this
  all_goals
    intro hc
    exact absurd (key _ hc) (by decide +kernel)

theorem np_prepare_y (d d' : NpFrame) (hc : d.cols = d'.cols)
    (hr : List.Forall₂ (fun r r' => ∀ c, c ≠ "y" → r c = r' c) d.rows d'.rows) : npPrepare d = npPrepare d' := by
  unfold npPrepare
  rw [hc]
  congr 1
  congr 1
  congr 1
  have hm : ∀ l : List (String → Option Rat),
      (l.mergeSort fun a b => npLe (a "ds") (b "ds")).map (fun r c => if c = "y" then some 0 else r c)
        = (l.map fun r c => if c = "y" then some 0 else r c).mergeSort fun a b => npLe (a "ds") (b "ds") := by
    intro l
    apply List.map_mergeSort
    intro a _ b _
    show _ = npLe (if "ds" = "y" then some 0 else a "ds") (if "ds" = "y" then some 0 else b "ds")
    rw [if_neg (show ¬ "ds" = "y" by decide), if_neg (show ¬ "ds" = "y" by decide)]
  rw [hm, hm]
  congr 1
  generalize d.rows = l at hr
  generalize d'.rows = l' at hr
  induction hr with
  | nil => rfl
  | cons h _ ih =>
    rw [List.map_cons, List.map_cons, ih]
    congr 1
    funext c
    by_cases hcy : c = "y"
    · rw [if_pos hcy, if_pos hcy]
    · rw [if_neg hcy, if_neg hcy, h c hcy]

/-- C155 (past values, violated): all values of `y` in the frame are replaced by zero before the forecast, also the past
values that a model with lags starts from: the forecast is the same whatever they are, in a frame that is given and in the
one that NeuralProphet makes. -/
theorem C155_past_violated (L : NpLib R F) (M : NpModel R F) (steps : Nat) (raw : Bool) :
    (∀ d d' : NpFrame, d.cols = d'.cols → List.Forall₂ (fun r r' => ∀ c, c ≠ "y" → r c = r' c) d.rows d'.rows →
      npPredict L M steps raw (some d) = npPredict L M steps raw (some d'))
    ∧ ∀ mk : F → NpFrame → Nat → NpFrame,
      (∀ f df k, (L.makeFuture f df k).cols = (mk f df k).cols
        ∧ List.Forall₂ (fun r r' => ∀ c, c ≠ "y" → r c = r' c) (L.makeFuture f df k).rows (mk f df k).rows) →
      npPredict L M steps raw none = npPredict { L with makeFuture := mk } M steps raw none := by
  refine ⟨?_, ?_⟩
  · intro d d' hc hr
    unfold npPredict
    rcases M.model with _ | f
    · rfl
    simp only [Option.getD_some]
    have hl := hr.length_eq
    have hp := np_prepare_y d d' hc hr
    split
    · rw [hc]
      split
      · rfl
      · split
        · rfl
        · show (if d.rows.length < steps then _ else _) = (if d'.rows.length < steps then _ else _)
          rw [hl, hp]
    · show (if d.rows.length < steps then _ else _) = (if d'.rows.length < steps then _ else _)
      rw [hl, hp]
  · intro mk hmk
    unfold npPredict
    rcases M.model with _ | f
    · rfl
    simp only [Option.getD_none]
    split
    · rfl
    · obtain ⟨hc, hr⟩ := hmk f M.df steps
      have hl := hr.length_eq
      have hp := np_prepare_y _ _ hc hr
      show (if (L.makeFuture f M.df steps).rows.length < steps then _ else _)
        = (if (mk f M.df steps).rows.length < steps then _ else _)
      rw [hl, hp]

/-- C155 (the frame of the caller, violated): the frame that is given is changed: afterwards its rows are sorted and have
zero as the value of `y`. -/
theorem C155_caller_violated (L : NpLib R F) (M : NpModel R F) (steps : Nat) (raw : Bool) (d out after : NpFrame)
    (h : npPredict L M steps raw (some d) = .ok (out, after)) :
    "y" ∈ after.cols ∧ (∀ r ∈ after.rows, r "y" = some 0)
    ∧ ((∃ r ∈ d.rows, r "y" ≠ some 0) → after.rows ≠ d.rows) := by
  obtain ⟨f, fut, fc, -, -, -, -, -, -, -, -, h1, -, h3⟩ := C155_forecast_partial _ _ _ _ _ _ _ h
  have hz : ∀ r ∈ after.rows, r "y" = some 0 := by
    intro r hr
    obtain ⟨q, -, rfl⟩ := List.mem_map.1 (h3.mem_iff.1 hr)
    exact if_pos rfl
  refine ⟨(h1 "y").2 (.inr rfl), hz, ?_⟩
  rintro ⟨r, hr, hne⟩ he
  exact hne (hz r (by rw [he]; exact hr))

/-- C155 (number of rows, violated): for a frame with more rows than steps there are more rows in the forecast than steps. -/
theorem C155_rows_violated (L : NpLib R F) (M : NpModel R F) (steps : Nat) (raw : Bool) (d out after : NpFrame)
    (hL : ∀ f g fc, L.predict f g = .ok fc → fc.rows.length = g.rows.length)
    (h : npPredict L M steps raw (some d) = .ok (out, after)) :
    out.rows.length = d.rows.length ∧ (steps < d.rows.length → out.rows.length ≠ steps) := by
  obtain ⟨f, fut, fc, -, hA, hB, -, -, hfc, ho, -, -, -, h3⟩ := C155_forecast_partial _ _ _ _ _ _ _ h
  have hd : fut = d := by
    rcases Nat.eq_zero_or_pos (M.params.future.length + M.params.lagged.length) with hp | hp
    · exact hB hp
    · have := (hA hp).1
      injection this with this
      exact this.symm
  have hl : out.rows.length = d.rows.length := by
    rw [ho, hL _ _ _ hfc, h3.length_eq, List.length_map, hd]
  exact ⟨hl, fun h => by omega⟩

/-- C155 (no dates, violated): a frame without the column `ds` is a `ValueError` with regressors, and a `KeyError` without
them. -/
theorem C155_dates_violated (L : NpLib R F) (M : NpModel R F) (f : F) (hm : M.model = some f) (steps : Nat) (raw : Bool)
    (d : NpFrame) (hd : "ds" ∉ d.cols) (hl : steps ≤ d.rows.length) :
    (0 < M.params.future.length + M.params.lagged.length → npPredict L M steps raw (some d) = .error .valueError)
    ∧ (M.params.future.length + M.params.lagged.length = 0 → npPredict L M steps raw (some d) = .error .keyError) := by
  unfold npPredict
  rw [hm]
  simp only [Option.getD_some]
  refine ⟨?_, ?_⟩
  · intro hp
    rw [if_pos hp]
    split
    · rfl
    · rfl
  · intro hp
    rw [if_neg (by omega)]
    show (if d.rows.length < steps then _ else _) = _
    rw [if_neg (by omega)]
    unfold npPrepare
    rw [if_pos hd]
    rfl

/-- C155 (errors): without a frame, with one that lacks a regressor, or with one that is too short, there is no forecast
with regressors, but a `ValueError`. -/
theorem C155_errors (L : NpLib R F) (M : NpModel R F) (steps : Nat) (raw : Bool) (d : NpFrame)
    (hp : 0 < M.params.future.length + M.params.lagged.length) :
    npPredict L M steps raw none = .error .valueError
    ∧ ((∃ n ∈ M.names, n ∉ d.cols) ∨ d.rows.length < steps → npPredict L M steps raw (some d) = .error .valueError) := by
  unfold npPredict
  rcases M.model with _ | f
  · exact ⟨rfl, fun _ => rfl⟩
  simp only []
  rw [if_pos hp]
  refine ⟨rfl, ?_⟩
  rintro (⟨n, hn, hd⟩ | hl)
  · rw [if_pos hp, if_pos]
    · rfl
    · rw [List.all_eq_false]
      exact ⟨n, hn, by simpa using hd⟩
  · rw [if_pos hp]
    split
    · rfl
    · split
      · rfl
      · show (if d.rows.length < steps then _ else _) = _
        rw [if_pos hl]

/-- A library that forecasts the sum of `y` in the frame for each of its rows, with one lag in the future frame. -/
def npToy : NpLib Unit Unit :=
  ⟨fun _ _ _ => .ok (),
   fun _ df k => ⟨["y", "ds"], df.rows.drop (df.rows.length - 1)
     ++ (List.range k).map fun i c => if c = "ds" then some (10 + (i : Rat)) else none⟩,
   fun _ g => .ok ⟨["ds", "y", "yhat1"], g.rows.map fun r c =>
     if c = "yhat1" then some ((g.rows.map fun q => (q "y").getD 0).sum) else r c⟩⟩

def npSeries : NpModel Unit Unit :=
  ⟨⟨none, [fun c => if c = "time" then some 8 else some 5, fun c => if c = "time" then some 9 else some 7]⟩,
   ⟨[], [], [], ()⟩, [], ⟨[], []⟩, none⟩

/-- The forecasts are zero though the last value is 7. -/
example : ∃ M out after, npFit npToy npSeries none = .ok M ∧ npPredict npToy M 2 false none = .ok (out, after)
    ∧ (npToy.makeFuture () M.df 2).rows.map (fun q => (q "ds", q "y")) = [(some 9, some 7), (some 10, none), (some 11, none)]
    ∧ out.cols = ["ds", "yhat1"]
    ∧ out.rows.map (fun q => (q "ds", q "yhat1")) = [(some 9, some 0), (some 10, some 0), (some 11, some 0)] := by
  have hp : npPrepare (npToy.makeFuture () (npFrame npSeries.data npSeries.names) 2) = .ok ⟨["y", "ds"],
      (npToy.makeFuture () (npFrame npSeries.data npSeries.names) 2).rows.map fun r c => if c = "y" then some 0 else r c⟩ := by
    unfold npPrepare
    rw [if_neg (by decide), if_pos (by decide), List.mergeSort_of_pairwise (by decide +kernel)]
    rfl
  refine ⟨{ npSeries with df := npFrame npSeries.data npSeries.names, model := some () }, _, _, rfl,
    (np_predict _ _ _ _ _ _ _).2 ⟨(), _, _, rfl, fun h => absurd h (by decide), fun _ => rfl, by decide +kernel, hp, rfl, rfl⟩, ?_, ?_, ?_⟩
  · decide +kernel
  · decide +kernel
  · decide +kernel

end Kats

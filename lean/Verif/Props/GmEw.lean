import Verif.Props.GmBtRun
import Verif.Props.Backtest

/-!
# C145: the backtest of a global model with an expanding window
-/

namespace Kats

/-- The rows of a series from a place up to another. -/
def gmBetween (data : GmTs) (a b : Int) : GmTs := (data.drop a.toNat).take (b - a).toNat

/-- The column of the median of a frame. -/
def gmMedianCol (t : GmTable Rat) : List Rat := t.rows.map fun r => r.getD (t.names.idxOf "fcst_quantile_0.5") 0

/-- What a fold should have: the known values of the training part, the known values of the test part, and next to each of these the
forecast of the same place. -/
def GmEwFold (data : GmTs) (fcsts : List (GmKey × GmTable Rat)) (i : Nat) (s : Split) (r : FoldResult) : Prop :=
  r.training = (gmBetween data s.trainStart s.trainEnd).filterMap (·.2) ∧
    r.predictions.length = r.truth.length ∧ ∃ t, (.int i, t) ∈ fcsts ∧ "fcst_quantile_0.5" ∈ t.names ∧
      (gmBetween data s.testStart s.testEnd).length ≤ (gmMedianCol t).length ∧
      r.truth = (gmBetween data s.testStart s.testEnd).filterMap (·.2) ∧
      r.truth.zip r.predictions = ((gmBetween data s.testStart s.testEnd).zip (gmMedianCol t)).filterMap fun x =>
        x.1.2.map fun v => (v, x.2)

theorem ew_slice (data : GmTs) (a b : Int) (ha : 0 ≤ a) (hb : 0 ≤ b) : pySlice data a b = gmBetween data a b := by
  have := pySlice_nat data a.toNat b.toNat
  rw [Int.toNat_of_nonneg ha, Int.toNat_of_nonneg hb] at this
  rw [this]
  unfold gmBetween
  congr 1
  omega

theorem ew_cut (data : GmTs) (s : Split) (c : GmTs × GmTs) (h : gmEwCut data s = .ok c) :
    c.1 = gmBetween data s.trainStart s.trainEnd ∧ c.2 = gmBetween data s.testStart s.testEnd := by
  unfold gmEwCut at h
  simp only [] at h
  split at h
  · cases h
  split at h
  · cases h
  rename_i h1 h2
  injection h with h
  rw [← h]
  exact ⟨ew_slice _ _ _ (by omega) (by omega), ew_slice _ _ _ (by omega) (by omega)⟩

theorem ew_result (fcsts : List (GmKey × GmTable Rat)) (i : Nat) (c : GmTs × GmTs) (r : FoldResult)
    (h : gmEwResult fcsts i c = .ok r) : r.training = c.1.filterMap (·.2) ∧ r.predictions.length = r.truth.length ∧
      ∃ t, (.int i, t) ∈ fcsts ∧ "fcst_quantile_0.5" ∈ t.names ∧ c.2.length ≤ (gmMedianCol t).length ∧
      r.truth = c.2.filterMap (·.2) ∧
      r.truth.zip r.predictions = (c.2.zip (gmMedianCol t)).filterMap fun x => x.1.2.map fun v => (v, x.2) := by
  unfold gmEwResult at h
  obtain ⟨t, h1, h⟩ := (gm_bind_ok _ _ _).1 h
  obtain ⟨col, h2, h⟩ := (gm_bind_ok _ _ _).1 h
  have hcol : "fcst_quantile_0.5" ∈ t.names ∧ col = gmMedianCol t := by
    unfold gmEwColumn at h2
    split at h2
    · rename_i hm
      injection h2 with h2
      exact ⟨hm, h2.symm⟩
    · cases h2
  simp only [] at h
  split at h
  · cases h
  rename_i hlen
  injection h with h
  subst h
  rw [not_not, List.length_take] at hlen
  have key : ∀ (l : GmTs) (f : List Rat), l.length ≤ f.length →
      (((l.zip (f.take l.length)).filter fun x => x.1.2.isSome).map (·.2)).length = (l.filterMap (·.2)).length ∧
      (l.filterMap (·.2)).zip (((l.zip (f.take l.length)).filter fun x => x.1.2.isSome).map (·.2)) =
        (l.zip f).filterMap fun x => x.1.2.map fun v => (v, x.2) := by
    intro l
    induction l with
    | nil => intro f _; simp
    | cons a l ih =>
      intro f hf
      rcases f with _ | ⟨y, f⟩
      · simp at hf
      obtain ⟨i1, i2⟩ := ih f (by simpa using hf)
      obtain ⟨ta, va⟩ := a
      rw [List.length_cons, List.take_succ_cons, List.zip_cons_cons, List.zip_cons_cons, List.filter_cons,
        List.filterMap_cons, List.filterMap_cons]
      rcases va with _ | v
      · simp only [Option.isSome_none, Bool.false_eq_true, if_false, Option.map_none]
        exact ⟨i1, i2⟩
      · simp only [Option.isSome_some, if_true, List.map_cons, List.length_cons, i1, Option.map_some, List.zip_cons_cons, i2,
          and_self]
  obtain ⟨k1, k2⟩ := key c.2 col (by omega)
  exact ⟨rfl, k1, t, gm_lookup_mem _ _ _ h1, hcol.1, (by rw [← hcol.2]; omega), rfl, (by rw [← hcol.2]; exact k2)⟩

/-- C145: a backtest with an expanding window is made exactly if the frequency of the data is that of the model, the data can be filled and
then have three values or more, the percentages give folds, and all metrics are known; it then has the filled data.  Without this it is an
error of the arguments or one of filling. -/
theorem C145_ew_init (known : String → Bool) (inferred : Int) (timeCol : String) (p : GmParams) (data : GmTs) (a : GmEwArgs)
    (d : GmTs) : gmEwInit known inferred timeCol p data a = .ok d ↔ inferred = p.freq ∧
      gmFill timeCol data p.seasonality p.freq = .ok d ∧ 3 ≤ d.length ∧
      (∃ splits, btRollingSplits d.length a.startPct a.testPct a.steps false = .ok splits) ∧
      ∀ n ∈ a.names, known n = true := by
  unfold gmEwInit
  constructor
  · intro h
    split at h
    · cases h
    rename_i h0
    obtain ⟨d', h1, h⟩ := (gm_bind_ok _ _ _).1 h
    obtain ⟨s, h2, h⟩ := (gm_bind_ok _ _ _).1 h
    split at h
    · cases h
    rename_i h3
    obtain ⟨r, h4, h⟩ := (gm_bind_ok _ _ _).1 h
    injection h with h
    subst h
    exact ⟨not_not.1 h0, h1, by omega, ⟨s, h2⟩, (C17_parent_partial known a.names).1.1 ⟨r, h4⟩⟩
  · rintro ⟨h0, h1, h2, ⟨s, h3⟩, h4⟩
    obtain ⟨r, hr⟩ := (C17_parent_partial known a.names).1.2 h4
    rw [if_neg (not_not.2 h0), (gm_bind_ok _ _ _)]
    refine ⟨d, h1, ?_⟩
    rw [gm_bind_ok]
    refine ⟨s, h3, ?_⟩
    rw [if_neg (by omega), gm_bind_ok]
    exact ⟨r, hr, rfl⟩

example : (gmEwInit (fun n => n == "mae") 1 "time" { gmBtP with seasonality := 7 }
    ((List.range 10).map fun (i : Nat) => ((i : Int), some (i : Rat))) ⟨["mae"], 50, 80, 20, 3, true⟩).toOption.map (·.length) = some 10 ∧
    (gmEwInit (fun n => n == "mae") 2 "time" { gmBtP with seasonality := 7 }
    ((List.range 10).map fun (i : Nat) => ((i : Int), some (i : Rat))) ⟨["mae"], 50, 80, 20, 3, true⟩).toOption = none := by
  decide +kernel

/-- C145: a run with one series: the global model is asked once, for the training parts of all folds and as many steps as the
longest test part has; every fold compares the known values of its test part with the medians for the same places, and the errors are
the means of the metrics over the folds, weighted by the numbers of these values. -/
theorem C145_ew (predict : List (GmKey × Bool × GmTs) → Nat → Except Err (List (GmKey × GmTable Rat))) (data : GmTs)
    (a : GmEwArgs) (metrics : List (List Rat → List Rat → Rat)) (st : BTState)
    (h : gmEwRun predict data a metrics (BTState.fresh metrics.length) = .ok st) :
    ∃ (splits : List Split) (fcsts : List (GmKey × GmTable Rat)) (steps : Nat), btRollingSplits data.length a.startPct a.testPct a.steps false = .ok splits ∧ splits ≠ [] ∧
      (∀ s ∈ splits, CleanFold data.length 0 s ∧ s.testEnd - s.testStart ≤ steps) ∧
      (∃ s ∈ splits, s.testEnd - s.testStart = steps) ∧
      predict (splits.mapIdx fun i s => (.int i, false, gmBetween data s.trainStart s.trainEnd)) steps = .ok fcsts ∧
      st.results.length = splits.length ∧
      (∀ (i : Nat) s r, splits[i]? = some s → st.results[i]? = some r → GmEwFold data fcsts i s r) ∧
      (∀ r ∈ st.results, r.truth ≠ [] ∧ r.training ≠ []) ∧
      st.errors = metrics.map fun m => weightedMean m st.results := by
  unfold gmEwRun at h
  obtain ⟨splits, h1, h⟩ := (gm_bind_ok _ _ _).1 h
  obtain ⟨res, h2, h⟩ := (gm_bind_ok _ _ _).1 h
  obtain ⟨c1, c2⟩ := calcError_spec metrics _ _ h (by simp [BTState.fresh])
  simp only [] at c1 c2
  obtain ⟨g1, g2⟩ := (C14_rolling _ _ _ _ _).1 splits h1
  unfold gmEwResults at h2
  obtain ⟨cuts, q1, h2⟩ := (gm_bind_ok _ _ _).1 h2
  obtain ⟨fcsts, q2, h2⟩ := (gm_bind_ok _ _ _).1 h2
  have hcuts : cuts = splits.map fun s => (gmBetween data s.trainStart s.trainEnd, gmBetween data s.testStart s.testEnd) := by
    have f2 := mapM_forall2 _ _ _ q1
    clear * - f2
    induction f2 with
    | nil => rfl
    | @cons s c l m hab _ ih =>
      obtain ⟨k1, k2⟩ := ew_cut _ _ _ hab
      rw [List.map_cons, ← ih, ← k1, ← k2]
  have hlen : ∀ s ∈ splits, ((gmBetween data s.testStart s.testEnd).length : Int) = s.testEnd - s.testStart := by
    intro s hs
    obtain ⟨r1, r2, r3, r4, r5, r6⟩ := g2 s hs
    unfold gmBetween
    rw [List.length_take, List.length_drop]
    omega
  have hne : cuts ≠ [] := by rw [hcuts]; simpa using g1
  obtain ⟨steps, hst⟩ : ∃ s, (cuts.map fun c => c.2.length).max? = some s := by
    rcases hm : (cuts.map fun c => c.2.length).max? with _ | s
    · rw [List.max?_eq_none_iff, List.map_eq_nil_iff] at hm
      exact absurd hm hne
    · exact ⟨s, hm⟩
  obtain ⟨m1, m2⟩ := List.max?_eq_some_iff.1 hst
  rw [hst, Option.getD_some] at q2
  have hidx : cuts.mapIdx (fun i c => ((GmKey.int i, false, c.1) : GmKey × Bool × GmTs)) =
      splits.mapIdx fun i s => (.int i, false, gmBetween data s.trainStart s.trainEnd) := by
    rw [hcuts]
    apply List.ext_getElem
    · simp
    · intro i _ _; simp
  rw [hidx] at q2
  have hres : st.results = res := c1
  have f3 := mapM_forall2 _ _ _ h2
  have hrl : res.length = splits.length := by
    have := f3.length_eq
    rw [List.length_mapIdx, hcuts, List.length_map] at this
    omega
  refine ⟨splits, fcsts, steps, h1, g1, ?_, ?_, q2, by rw [hres]; exact hrl, ?_, ?_, ?_⟩
  · intro s hs
    refine ⟨g2 s hs, ?_⟩
    rw [← hlen s hs]
    exact_mod_cast m2 _ (by rw [hcuts, List.map_map]; exact List.mem_map.2 ⟨s, hs, rfl⟩)
  · rw [hcuts, List.map_map] at m1
    obtain ⟨s, hs, hss⟩ := List.mem_map.1 m1
    exact ⟨s, hs, by rw [← hlen s hs, ← hss]; rfl⟩
  · intro i s r hs hr
    rw [hres] at hr
    obtain ⟨hi1, hs'⟩ := List.getElem?_eq_some_iff.1 hs
    obtain ⟨hi2, hr'⟩ := List.getElem?_eq_some_iff.1 hr
    have hi3 : i < (cuts.mapIdx fun i c => (i, c)).length := by rw [List.length_mapIdx, hcuts, List.length_map]; exact hi1
    have := (List.forall₂_iff_get.1 f3).2 i hi3 hi2
    simp only [List.get_eq_getElem, List.getElem_mapIdx] at this
    have := ew_result _ _ _ _ this
    rw [hr'] at this
    simp only [hcuts, List.getElem_map, hs'] at this
    exact this
  · intro r hr
    rw [hres] at hr
    unfold calcError at h
    split_ifs at h
    exact (foldlM_calcFold_aligned metrics _ _ _ _ h r hr).2
  · rw [c2, c1]
    apply List.ext_getElem
    · simp [BTState.fresh]
    · intro i _ _
      simp [BTState.fresh]

/-- C145 violated: the end of the training parts should be at the given percentage of the data.  It has no influence: with two folds or more, the last training
part ends where the test part of the given size, at the end of the data, begins. -/
theorem C145_ew_end_violated (predict : List (GmKey × Bool × GmTs) → Nat → Except Err (List (GmKey × GmTable Rat))) (data : GmTs)
    (a : GmEwArgs) (metrics : List (List Rat → List Rat → Rat)) (st : BTState) (pct : Rat)
    (splits : List Split) (hk : 2 ≤ a.steps)
    (h : btRollingSplits data.length a.startPct a.testPct a.steps false = .ok splits) :
    gmEwRun predict data { a with endPct := pct } metrics st = gmEwRun predict data a metrics st ∧
      splits.getLast?.map (·.trainEnd) = some ((data.length : Int) - ⌊data.length * a.testPct / 100⌋) := by
  refine ⟨rfl, ?_⟩
  obtain ⟨off, o1, o2, _, _, _, o6⟩ := C15_offsets _ _ _ _ hk _ _ h
  have hpos : 0 < splits.length := by rw [o1]; omega
  rw [List.getLast?_eq_getElem?, List.getElem?_eq_getElem (by omega), o2 _ (by omega)] at o6 ⊢
  simp only [Option.map_some, Option.some.injEq] at o6 ⊢
  omega

/-- C145 violated: running again should give the same errors; it gives the double. -/
theorem C145_ew_twice_violated (predict : List (GmKey × Bool × GmTs) → Nat → Except Err (List (GmKey × GmTable Rat)))
    (data : GmTs) (a : GmEwArgs) (metrics : List (List Rat → List Rat → Rat)) (st st2 : BTState)
    (h : gmEwRun predict data a metrics (BTState.fresh metrics.length) = .ok st)
    (h2 : gmEwRun predict data a metrics st = .ok st2) :
    st2.results = st.results ∧ st2.errors = st.errors.map (2 * ·) := by
  obtain ⟨_, _, _, _, _, _, _, _, _, _, _, e1⟩ := C145_ew predict data a metrics st h
  unfold gmEwRun at h h2
  obtain ⟨splits, s1, h⟩ := (gm_bind_ok _ _ _).1 h
  obtain ⟨res, s2, h⟩ := (gm_bind_ok _ _ _).1 h
  obtain ⟨splits', s1', h2⟩ := (gm_bind_ok _ _ _).1 h2
  rw [s1] at s1'
  injection s1' with s1'
  subst s1'
  obtain ⟨res', s2', h2⟩ := (gm_bind_ok _ _ _).1 h2
  rw [s2] at s2'
  injection s2' with s2'
  subst s2'
  have c1 : st.results = res := (calcError_spec metrics _ _ h (by simp [BTState.fresh])).1
  obtain ⟨d1, d2⟩ := calcError_spec metrics _ _ h2 (by rw [e1]; simp)
  simp only [] at d1 d2
  refine ⟨by rw [d1, c1], ?_⟩
  rw [d2, ← c1, e1]
  apply List.ext_getElem
  · simp
  · intro i _ _
    simp
    ring

/-- C145, the part that holds: the forecasts of a fold begin one step after its training part; in filled data (C135) the times of the forecasts
and of the values with which they are compared are the same up to whole periods, in data without gaps they are the same. -/
theorem C145_ew_aligned_partial (s : Nat) (freq t0 : Int) (data : GmTs) (f : Split) (hf : CleanFold data.length 0 f)
    (b : Int × Option Rat) (hb : (gmBetween data f.trainStart f.trainEnd).getLast? = some b) (i : Nat) (r : Int × Option Rat)
    (hr : (gmBetween data f.testStart f.testEnd)[i]? = some r) :
    ((∀ (j : Nat) x, data[j]? = some x → ((s : Int) * freq) ∣ x.1 - (t0 + (j : Int) * freq)) →
      ((s : Int) * freq) ∣ r.1 - (b.1 + ((i : Int) + 1) * freq)) ∧
    ((∀ (j : Nat) x, data[j]? = some x → x.1 = t0 + (j : Int) * freq) → r.1 = b.1 + ((i : Int) + 1) * freq) := by
  obtain ⟨f1, f2, f3, f4, f5, f6⟩ := hf
  have hbl : (gmBetween data f.trainStart f.trainEnd).length = (f.trainEnd - f.trainStart).toNat := by
    unfold gmBetween
    rw [List.length_take, List.length_drop]
    omega
  have hb' : data[f.trainEnd.toNat - 1]? = some b := by
    rw [List.getLast?_eq_getElem?, hbl] at hb
    unfold gmBetween at hb
    rw [List.getElem?_take, if_pos (by omega), List.getElem?_drop] at hb
    rw [← hb]
    congr 1
    omega
  have hr' : data[f.trainEnd.toNat + i]? = some r := by
    unfold gmBetween at hr
    rw [List.getElem?_take] at hr
    split at hr
    · rw [List.getElem?_drop] at hr
      rw [← hr]
      congr 2
      omega
    · cases hr
  have hcast : ((f.trainEnd.toNat - 1 : Nat) : Int) = f.trainEnd - 1 := by omega
  have hcast2 : ((f.trainEnd.toNat + i : Nat) : Int) = f.trainEnd + i := by omega
  constructor
  · intro hph
    have e1 := hph _ _ hr'
    have e2 := hph _ _ hb'
    rw [hcast] at e2
    rw [hcast2] at e1
    have e3 := Int.dvd_sub e1 e2
    have e4 : r.1 - (t0 + (f.trainEnd + i) * freq) - (b.1 - (t0 + (f.trainEnd - 1) * freq)) =
        r.1 - (b.1 + ((i : Int) + 1) * freq) := by ring
    rwa [e4] at e3
  · intro hph
    have e1 := hph _ _ hr'
    have e2 := hph _ _ hb'
    rw [hcast] at e2
    rw [hcast2] at e1
    rw [e1, e2]
    ring

/-! ## An example -/

/-- A predictor of fives. -/
def gmEwFive (l : List (GmKey × Bool × GmTs)) (steps : Nat) : Except Err (List (GmKey × GmTable Rat)) :=
  .ok (l.map fun e => (e.1, ⟨["fcst_quantile_0.5"], List.replicate steps [5], (List.range steps).map fun (i : Nat) => (i : Int)⟩))

/-- Ten values, of which two are missing. -/
def gmEwData : GmTs :=
  (List.range 10).map fun (i : Nat) => ((i : Int), if i = 6 ∨ i = 2 then none else some (i : Rat))

/-- The sum of the absolute errors. -/
def gmEwAbs (t p : List Rat) : Rat := ((List.zipWith (· - ·) t p).map fun d => if d < 0 then -d else d).sum

example : ((gmEwRun gmEwFive gmEwData ⟨[], 50, 80, 20, 3, true⟩ [gmEwAbs] (BTState.fresh 1)).toOption.map fun s =>
    (s.results.map fun r => (r.training, r.truth, r.predictions))) =
    some [([0, 1, 3, 4], [5], [5]), ([0, 1, 3, 4, 5], [7, 8], [5, 5]), ([0, 1, 3, 4, 5, 7], [8, 9], [5, 5])] := by
  decide +kernel

/-- C145 violated: missing values should be left out.  If all values of the test part of one fold are missing, the whole run
fails, here for every predictor that works. -/
theorem C145_ew_gap_violated : ∃ (data : GmTs) (a : GmEwArgs) (metrics : List (List Rat → List Rat → Rat)),
    gmEwInit (fun _ => true) 1 "time" { gmBtP with seasonality := 7 } data a = .ok data ∧ (∃ r ∈ data.drop 5, r.2 ≠ none) ∧
      gmEwRun gmEwFive data a metrics (BTState.fresh metrics.length) = .error .valueError := by
  refine ⟨(List.range 10).map fun (i : Nat) => ((i : Int), if 8 ≤ i then none else some (i : Rat)), ⟨[], 50, 80, 20, 3, true⟩, [gmEwAbs],
    ?_, ?_, ?_⟩
  · have : (gmEwInit (fun _ => true) 1 "time" { gmBtP with seasonality := 7 }
      ((List.range 10).map fun (i : Nat) => ((i : Int), if 8 ≤ i then none else some (i : Rat))) ⟨[], 50, 80, 20, 3, true⟩).toOption =
        some ((List.range 10).map fun (i : Nat) => ((i : Int), if 8 ≤ i then none else some (i : Rat))) := by decide +kernel
    rcases e : gmEwInit (fun _ => true) 1 "time" { gmBtP with seasonality := 7 }
      ((List.range 10).map fun (i : Nat) => ((i : Int), if 8 ≤ i then none else some (i : Rat))) ⟨[], 50, 80, 20, 3, true⟩ with err | x
    · rw [e] at this; cases this
    · rw [e] at this
      have : some x = some _ := this
      injection this with this
      rw [this]
  · decide +kernel
  · have : (match gmEwRun gmEwFive ((List.range 10).map fun (i : Nat) => ((i : Int), if 8 ≤ i then none else some (i : Rat)))
      ⟨[], 50, 80, 20, 3, true⟩ [gmEwAbs] (BTState.fresh 1) with | .ok _ => none | .error e => some e) = some Err.valueError := by
      decide +kernel
    rcases e : gmEwRun gmEwFive ((List.range 10).map fun (i : Nat) => ((i : Int), if 8 ≤ i then none else some (i : Rat)))
      ⟨[], 50, 80, 20, 3, true⟩ [gmEwAbs] (BTState.fresh 1) with err | x
    · rw [e] at this
      injection this with this
      rw [← this]
    · rw [e] at this; cases this

end Kats

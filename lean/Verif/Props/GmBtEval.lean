import Verif.Props.GmBtInit

/-!
# C145: the evaluation of a backtest of global models
-/

namespace Kats

section
variable {K V : Type} [Field K] [LinearOrder K]

/-- The forecasts of the models for one series. -/
abbrev GmWs (K : Type) : Type := List (List (List K))

/-- What a row of the result says: for a single model the judgement of its forecast of that window, for the
ensemble that of the medians. -/
def GmBtRowOk (fw : Nat) (judge : List K → List (Option Rat) → V) (raws : List (List (GmKey × List (List K))))
    (v : GmTs) (row : GmBtRow V) : Prop :=
  ∃ ws : GmWs K, List.Forall₂ (fun raw w => (row.key, w) ∈ raw) raws ws ∧
    (∀ w ∈ ws, row.step < w.length) ∧
    (∀ i, row.model = some i → ∃ w fc, ws[i]? = some w ∧ w[row.step]? = some fc ∧
      row.res = judge fc (gmWindow fw v row.step)) ∧
    (row.model = none → ∃ fc : List K, (∀ w ∈ ws, (w.getD row.step []).length = fc.length) ∧
      (∀ x < fc.length, fc[x]? = some (gmEnsMedian (ws.map fun w => (w.getD row.step []).getD x 0))) ∧
      row.res = judge fc (gmWindow fw v row.step))

theorem btAt_ok (w : List (List K)) (j : Nat) (r : List K) (h : gmBtAt w j = .ok r) : w[j]? = some r := by
  unfold gmBtAt at h
  rcases hw : w[j]? with _ | x
  · rw [hw] at h; cases h
  · rw [hw] at h
    injection h with h
    rw [h]

theorem combineAt_ok (f : List K → K) (ws : GmWs K) (j : Nat) (fc : List K) (h : gmCombineAt f ws j = .ok fc)
    (hne : ws ≠ []) : (∀ w ∈ ws, (w.getD j []).length = fc.length) ∧
      ∀ x < fc.length, fc[x]? = some (f (ws.map fun w => (w.getD j []).getD x 0)) := by
  unfold gmCombineAt at h
  obtain ⟨rows, hr, h⟩ := (gm_bind_ok _ _ _).1 h
  have hrows : rows = ws.map fun w => w.getD j [] := by
    have h2 := mapM_forall2 _ _ _ hr
    clear * - h2
    induction h2 with
    | nil => rfl
    | @cons w r l m hab _ ih =>
      rw [List.map_cons, ← ih]
      congr 1
      rw [List.getD_eq_getElem?_getD]
      rcases hw : w[j]? with _ | x
      · rw [hw] at hab; cases hab
      · rw [hw] at hab
        injection hab with hab
        rw [hab]; rfl
  subst hrows
  simp only [] at h
  split at h
  · rename_i hall
    injection h with h
    rw [List.all_eq_true] at hall
    have hlen : fc.length = ((ws.map fun w => w.getD j []).headD []).length := by rw [← h]; simp
    refine ⟨?_, ?_⟩
    · intro w hw
      have := hall (w.getD j []) (List.mem_map.2 ⟨w, hw, rfl⟩)
      rw [hlen]
      simpa using this
    · intro x hx
      rw [← h, List.getElem?_map, List.getElem?_range (by rw [← hlen]; exact hx), Option.map_some, List.map_map]
      rfl
  · cases h

/-- C145: the result has, for every series of the test, every window of its validation part and in this order, a row for
each of the models and one for the ensemble. -/
theorem C145_rows (fw : Nat) (hfw : 1 ≤ fw) (judge : List K → List (Option Rat) → V) (bt : Int)
    (models : List (GmRand × GmPredictor K)) (hne : models ≠ []) (train valid : List (GmKey × GmTs))
    (rows : List (GmBtRow V)) (h : gmBtEvaluate fw judge bt models train valid = .ok rows) :
    ∃ raws steps, (∀ e ∈ valid, e.2.length ≤ steps) ∧ (valid ≠ [] → ∃ e ∈ valid, steps = e.2.length) ∧
      models.mapM (fun m => gmPredictRaw m.1 m.2 (train.map fun e => (e.1, false, e.2)) steps 500) = .ok raws ∧
      rows.map (fun r => (r.key, r.step, r.model, r.time)) = valid.flatMap (fun e =>
        (List.range ((e.2.length + fw - 1) / fw)).flatMap fun j =>
          (List.range models.length).map (fun i => (e.1, j, some i, bt)) ++ [(e.1, j, none, bt)]) ∧
      ∀ row ∈ rows, ∃ v, (row.key, v) ∈ valid ∧ GmBtRowOk fw judge raws v row := by
  unfold gmBtEvaluate at h
  simp only [] at h
  obtain ⟨steps, hst⟩ : ∃ s, s = (valid.map fun e => e.2.length).max?.getD 0 := ⟨_, rfl⟩
  rw [← hst] at h
  obtain ⟨raws, hraws, h⟩ := (gm_bind_ok _ _ _).1 h
  obtain ⟨rr, hrr, h⟩ := (gm_bind_ok _ _ _).1 h
  injection h with h
  subst h
  have hrl : raws.length = models.length := (mapM_forall2 _ _ _ hraws).length_eq.symm
  refine ⟨raws, steps, ?_, ?_, hraws, ?_⟩
  · intro e he
    rcases hm : (valid.map fun e => e.2.length).max? with _ | s
    · rw [List.max?_eq_none_iff, List.map_eq_nil_iff] at hm
      rw [hm] at he
      simp at he
    · rw [hst, hm]
      exact (List.max?_eq_some_iff.1 hm).2 _ (List.mem_map.2 ⟨e, he, rfl⟩)
  · intro hv
    rcases hm : (valid.map fun e => e.2.length).max? with _ | s
    · rw [List.max?_eq_none_iff, List.map_eq_nil_iff] at hm
      exact absurd hm hv
    · obtain ⟨e, he, hes⟩ := List.mem_map.1 (List.max?_eq_some_iff.1 hm).1
      exact ⟨e, he, by rw [hst, hm]; exact hes.symm⟩
  -- one window
  have hwin : ∀ (e : GmKey × GmTs) (fc : GmWs K) (j : Nat) (l : List (GmBtRow V)),
      raws.mapM (fun d => gmLookup d e.1) = .ok fc → gmBtWindow fw judge bt e.1 e.2 fc j = .ok l →
      l.map (fun r => (r.key, r.step, r.model, r.time)) =
        (List.range models.length).map (fun i => (e.1, j, some i, bt)) ++ [(e.1, j, none, bt)] ∧
      ∀ row ∈ l, GmBtRowOk fw judge raws e.2 row := by
    intro e fc j l hfc hl
    have hmem : List.Forall₂ (fun raw w => (e.1, w) ∈ raw) raws fc :=
      (mapM_forall2 _ _ _ hfc).imp fun raw w hw => gm_lookup_mem _ _ _ hw
    have hfl : fc.length = models.length := by rw [← hrl]; exact (hmem.length_eq).symm
    have hfne : fc ≠ [] := by
      rw [← List.length_pos_iff, hfl]
      exact List.length_pos_iff.2 hne
    unfold gmBtWindow at hl
    obtain ⟨single, hs, hl⟩ := (gm_bind_ok _ _ _).1 hl
    obtain ⟨median, hm, hl⟩ := (gm_bind_ok _ _ _).1 hl
    injection hl with hl
    have hs2 := mapM_forall2 _ _ _ hs
    have hsl : single.length = models.length := by rw [← hfl]; exact hs2.length_eq.symm
    have hlt : ∀ w ∈ fc, j < w.length := by
      intro w hw
      obtain ⟨r, _, hr⟩ := (mapM_ok_mem _ _ _ hs).1 w hw
      exact (List.getElem?_eq_some_iff.1 (btAt_ok _ _ _ hr)).1
    constructor
    · rw [← hl, List.map_append]
      congr 1
      apply List.ext_getElem
      · simp [hsl]
      · intro i h1 h2
        simp
    · intro row hrow
      rw [← hl, List.mem_append] at hrow
      rcases hrow with hrow | hrow
      · obtain ⟨i, hi, hir⟩ := List.getElem_of_mem hrow
        rw [List.getElem_mapIdx] at hir
        rw [List.length_mapIdx] at hi
        have hif : i < fc.length := by omega
        subst hir
        refine ⟨fc, hmem, hlt, ?_, fun hn => by cases hn⟩
        intro i' hi'
        injection hi' with hi'
        subst hi'
        exact ⟨fc[i], single[i], List.getElem?_eq_getElem hif, btAt_ok _ _ _ (List.forall₂_iff_get.1 hs2 |>.2 i hif hi), rfl⟩
      · rw [List.mem_singleton] at hrow
        subst hrow
        refine ⟨fc, hmem, hlt, fun i hi => (by cases hi), fun _ => ?_⟩
        obtain ⟨c1, c2⟩ := combineAt_ok _ _ _ _ hm hfne
        exact ⟨median, c1, c2, rfl⟩
  -- one series
  have hser : ∀ (e : GmKey × GmTs) (l : List (GmBtRow V)), gmBtSeries fw judge bt raws e = .ok l →
      l.map (fun r => (r.key, r.step, r.model, r.time)) = ((List.range ((e.2.length + fw - 1) / fw)).flatMap fun j =>
        (List.range models.length).map (fun i => (e.1, j, some i, bt)) ++ [(e.1, j, none, bt)]) ∧
      ∀ row ∈ l, row.key = e.1 ∧ GmBtRowOk fw judge raws e.2 row := by
    intro e l hl
    unfold gmBtSeries at hl
    obtain ⟨fc, hfc, hl⟩ := (gm_bind_ok _ _ _).1 hl
    obtain ⟨rows, hrows, hl⟩ := (gm_bind_ok _ _ _).1 hl
    injection hl with hl
    subst hl
    rw [(stepNum_spec e.2.length fw hfw).1] at hrows
    have h2 := mapM_forall2 _ _ _ hrows
    constructor
    · rw [List.map_flatten, List.flatMap_def]
      congr 1
      rw [← List.forall₂_eq_eq_eq, List.forall₂_map_left_iff, List.forall₂_map_right_iff]
      exact h2.flip.imp fun l j hjl => (hwin e fc j l hfc hjl).1
    · intro row hrow
      obtain ⟨l, hl, hr⟩ := List.mem_flatten.1 hrow
      obtain ⟨j, _, hj⟩ := (mapM_ok_mem _ _ _ hrows).2 l hl
      obtain ⟨w1, w2⟩ := hwin e fc j l hfc hj
      refine ⟨?_, w2 row hr⟩
      have : (row.key, row.step, row.model, row.time) ∈ l.map (fun r => (r.key, r.step, r.model, r.time)) :=
        List.mem_map.2 ⟨row, hr, rfl⟩
      rw [w1, List.mem_append, List.mem_singleton, List.mem_map] at this
      rcases this with ⟨i, _, hi⟩ | hi
      · exact (congrArg Prod.fst hi).symm
      · exact congrArg Prod.fst hi
  have h2 := mapM_forall2 _ _ _ hrr
  constructor
  · rw [List.map_flatten, List.flatMap_def]
    congr 1
    rw [← List.forall₂_eq_eq_eq, List.forall₂_map_left_iff, List.forall₂_map_right_iff]
    exact h2.flip.imp fun l e hel => (hser e l hel).1
  · intro row hrow
    obtain ⟨l, hl, hr⟩ := List.mem_flatten.1 hrow
    obtain ⟨e, he, hel⟩ := (mapM_ok_mem _ _ _ hrr).2 l hl
    obtain ⟨k1, k2⟩ := (hser e l hel).2 row hr
    exact ⟨e.2, by rw [k1]; exact he, k2⟩

/-- C145: the evaluation of models that work on every batch succeeds if a validation part has a value. -/
theorem C145_evaluate (p : GmParams) (hp : GmPredOk p) (quantile : List String) (hq : quantile ≠ [])
    (models : List (GmRand × GmPredictor K)) (hM : ∀ n, 1 ≤ n → GmEnsOk p quantile n models)
    (judge : List K → List (Option Rat) → V) (bt : Int) (train valid : List (GmKey × GmTs))
    (hk : train.map (·.1) = valid.map (·.1)) (hd : (train.map (·.1)).Nodup)
    (hplain : gmNpKeys (train.map (·.1)) = train.map (·.1)) (hs : ∀ e ∈ train, GmSeriesOk p (false, e.2))
    (hpos : ∃ e ∈ valid, 1 ≤ e.2.length) : ∃ rows, gmBtEvaluate p.fcstWindow judge bt models train valid = .ok rows := by
  have hfw := hp.wf.fw
  obtain ⟨steps, hst⟩ : ∃ s, s = (valid.map fun e => e.2.length).max?.getD 0 := ⟨_, rfl⟩
  have hmax : ∀ e ∈ valid, e.2.length ≤ steps := by
    intro e he
    rcases hm : (valid.map fun e => e.2.length).max? with _ | s
    · rw [List.max?_eq_none_iff, List.map_eq_nil_iff] at hm
      rw [hm] at he
      simp at he
    · rw [hst, hm]
      exact (List.max?_eq_some_iff.1 hm).2 _ (List.mem_map.2 ⟨e, he, rfl⟩)
  have hsteps : 1 ≤ steps := by
    obtain ⟨e, he, h⟩ := hpos
    exact le_trans h (hmax e he)
  obtain ⟨data, hdata⟩ : ∃ d : List (GmKey × Bool × GmTs), d = train.map fun e => (e.1, false, e.2) := ⟨_, rfl⟩
  have hkeys : data.map (·.1) = train.map (·.1) := by rw [hdata, List.map_map]; rfl
  have hone : ∀ m : GmRand × GmPredictor K, ∃ raw, m ∈ models → gmPredictRaw m.1 m.2 data steps 500 = .ok raw ∧
      (raw.map (·.1)).Perm (data.map (·.1)) ∧
      ∀ k w, (k, w) ∈ raw → w.length = (steps + p.fcstWindow - 1) / p.fcstWindow ∧
        ∀ r ∈ w, r.length = p.fcstWindow * quantile.length := by
    intro m
    by_cases h : m ∈ models
    · have hM' := hM _ ((stepNum_spec steps p.fcstWindow hfw).2.2.2 hsteps)
      have h1 := hM'.params m h
      have h2 := hM'.quantile m h
      obtain ⟨res, raw, _, r2, r3, r4, r5, _⟩ := C141_predict m.1 (hM'.rand m h) m.2 (by rw [h1]; exact hp)
        (by rw [h2]; exact hq) steps hsteps (by rw [h1]; exact hM'.single m h) data (by
          rw [hdata]
          intro hc
          rw [List.map_eq_nil_iff] at hc
          obtain ⟨e, he, _⟩ := hpos
          rw [hc] at hk
          have : valid = [] := by simpa using hk.symm
          rw [this] at he
          simp at he) (by rw [hkeys]; exact hd) (by rw [hkeys]; exact hplain) (by
          rw [h1, hdata]
          intro e he
          obtain ⟨x, hx, rfl⟩ := List.mem_map.1 he
          exact hs x hx) 500 (by omega)
      rw [h1, h2] at r5
      exact ⟨raw, fun _ => ⟨r2, by rw [r4]; exact r3, r5⟩⟩
    · exact ⟨[], fun h' => absurd h' h⟩
  choose RAW hR using hone
  have hkey : ∀ (m : GmRand × GmPredictor K) (k : GmKey), ∃ w, m ∈ models → k ∈ train.map (·.1) →
      (k, w) ∈ RAW m ∧ gmLookup (RAW m) k = .ok w := by
    intro m k
    by_cases h : m ∈ models ∧ k ∈ train.map (·.1)
    · obtain ⟨_, r3, _⟩ := hR m h.1
      rw [hkeys] at r3
      obtain ⟨e, he, rfl⟩ := List.mem_map.1 (r3.mem_iff.2 h.2)
      exact ⟨e.2, fun _ _ => ⟨he, gm_lookup_of_mem _ (r3.nodup_iff.2 hd) _ _ he⟩⟩
    · exact ⟨[], fun a b => absurd ⟨a, b⟩ h⟩
  choose W hW using hkey
  have hsome : models ≠ [] := (hM 1 le_rfl).some
  unfold gmBtEvaluate
  simp only []
  rw [← hst, ← hdata, mapM_eq_map _ RAW models fun m hm => (hR m hm).1]
  have hser : ∀ e : GmKey × GmTs, ∃ l : List (GmBtRow V), e ∈ valid →
      gmBtSeries p.fcstWindow judge bt (models.map RAW) e = .ok l := by
    intro e
    by_cases he : e ∈ valid
    · have hek : e.1 ∈ train.map (·.1) := by rw [hk]; exact List.mem_map.2 ⟨e, he, rfl⟩
      have hfc : (models.map RAW).mapM (fun d => gmLookup d e.1) = .ok (models.map fun m => W m e.1) := by
        rw [List.mapM_map]
        exact mapM_eq_map _ _ _ fun m hm => (hW m e.1 hm hek).2
      have hshape : ∀ w ∈ models.map fun m => W m e.1, w.length = (steps + p.fcstWindow - 1) / p.fcstWindow ∧
          ∀ r ∈ w, r.length = p.fcstWindow * quantile.length := by
        intro w hw
        obtain ⟨m, hm, rfl⟩ := List.mem_map.1 hw
        exact (hR m hm).2.2 _ _ (hW m e.1 hm hek).1
      have hle : (e.2.length + p.fcstWindow - 1) / p.fcstWindow ≤ (steps + p.fcstWindow - 1) / p.fcstWindow := by
        apply Nat.div_le_div_right
        have := hmax e he
        omega
      have hwin : ∀ j : Nat, ∃ l : List (GmBtRow V), j ∈ List.range (gmStepNum e.2.length p.fcstWindow) →
          gmBtWindow p.fcstWindow judge bt e.1 e.2 (models.map fun m => W m e.1) j = .ok l := by
        intro j
        by_cases hj : j ∈ List.range (gmStepNum e.2.length p.fcstWindow)
        · have hj' := List.mem_range.1 hj
          rw [(stepNum_spec e.2.length p.fcstWindow hfw).1] at hj'
          have hc := combine_ok gmEnsMedian (models.map fun m => W m e.1) (by simpa using hsome) _ _ hshape
          obtain ⟨w0, ws, hws⟩ : ∃ w0 ws, (models.map fun m => W m e.1) = w0 :: ws := List.exists_cons_of_ne_nil (by simpa using hsome)
          have hw0 : w0.length = (steps + p.fcstWindow - 1) / p.fcstWindow := (hshape w0 (by rw [hws]; simp)).1
          have hc' : (List.range w0.length).mapM (gmCombineAt gmEnsMedian (models.map fun m => W m e.1)) =
              gmCombine gmEnsMedian (models.map fun m => W m e.1) := by
            rw [hws]; rfl
          rw [hc, hw0] at hc'
          obtain ⟨fc, _, hfc⟩ := (mapM_ok_mem _ _ _ hc').1 j (List.mem_range.2 (by omega))
          have hsg : (models.map fun m => W m e.1).mapM (fun w => gmBtAt w j) =
              .ok ((models.map fun m => W m e.1).map fun w => w.getD j []) := by
            apply mapM_eq_map
            intro w hw
            have := (hshape w hw).1
            unfold gmBtAt
            rw [List.getElem?_eq_getElem (by omega), gmp_getD _ _ _ (by omega)]
          unfold gmBtWindow
          rw [hsg, hfc]
          exact ⟨_, fun _ => rfl⟩
        · exact ⟨[], fun h => absurd h hj⟩
      choose L hL using hwin
      unfold gmBtSeries
      rw [hfc]
      exact ⟨_, fun _ => (gm_bind_ok _ _ _).2 ⟨_, rfl, (gm_bind_ok _ _ _).2 ⟨_, mapM_eq_map _ L _ hL, rfl⟩⟩⟩
    · exact ⟨[], fun h => absurd h he⟩
  choose S hS using hser
  exact ⟨_, (gm_bind_ok _ _ _).2 ⟨_, rfl, (gm_bind_ok _ _ _).2 ⟨_, mapM_eq_map _ S _ hS, rfl⟩⟩⟩

end

/-! ## The times of the forecasts -/

theorem sorted_filter_lt (ts : GmTs) (hs : ts.Pairwise (fun a b => a.1 < b.1)) (bt : Int) :
    ∃ n ≤ ts.length, ts.filter (fun r => decide (r.1 < bt)) = ts.take n ∧
      ts.filter (fun r => decide (bt ≤ r.1)) = ts.drop n := by
  induction ts with
  | nil => exact ⟨0, by simp, rfl, rfl⟩
  | cons a ts ih =>
    rw [List.pairwise_cons] at hs
    by_cases ha : a.1 < bt
    · obtain ⟨n, hn, h1, h2⟩ := ih hs.2
      refine ⟨n + 1, by simpa using hn, ?_, ?_⟩
      · rw [List.filter_cons, if_pos (by simpa using ha), h1, List.take_succ_cons]
      · rw [List.filter_cons, if_neg (by simpa using ha), h2, List.drop_succ_cons]
    · refine ⟨0, by simp, ?_, ?_⟩
      · rw [List.take_zero, List.filter_eq_nil_iff]
        intro r hr
        rcases List.mem_cons.1 hr with rfl | hr
        · simpa using ha
        · have := hs.1 r hr
          simp; omega
      · rw [List.drop_zero, List.filter_eq_self]
        intro r hr
        rcases List.mem_cons.1 hr with rfl | hr
        · simpa using not_lt.1 ha
        · have := hs.1 r hr
          simp; omega

/-- C145, the part that holds: the forecasts of a global model begin one step after the last value of the training part (C141), and
the `i`-th of them is compared with the `i`-th value of the validation part.  In a filled series (C135) the times of both are the same up to
whole periods; in a series without gaps they are the same. -/
theorem C145_aligned_partial (s : Nat) (freq t0 : Int) (ts : GmTs) (hs : ts.Pairwise (fun a b => a.1 < b.1)) (bt last : Int)
    (b : Int × Option Rat) (hb : (ts.filter fun r => decide (r.1 < bt)).getLast? = some b) (i : Nat) (r : Int × Option Rat)
    (hr : (ts.filter fun r => decide (bt ≤ r.1 ∧ r.1 ≤ last))[i]? = some r) :
    ((∀ (j : Nat) x, ts[j]? = some x → ((s : Int) * freq) ∣ x.1 - (t0 + (j : Int) * freq)) →
      ((s : Int) * freq) ∣ r.1 - (b.1 + ((i : Int) + 1) * freq)) ∧
    ((∀ (j : Nat) x, ts[j]? = some x → x.1 = t0 + (j : Int) * freq) → r.1 = b.1 + ((i : Int) + 1) * freq) := by
  obtain ⟨n, hn, h1, h2⟩ := sorted_filter_lt ts hs bt
  have hv : ts.filter (fun r => decide (bt ≤ r.1 ∧ r.1 ≤ last)) = (ts.drop n).filter fun r => decide (r.1 ≤ last) := by
    rw [← h2, List.filter_filter]
    apply List.filter_congr
    intro x _
    simp [Bool.and_comm]
  obtain ⟨n2, _, h3, _⟩ := sorted_filter_lt (ts.drop n) (hs.sublist (List.drop_sublist _ _)) (last + 1)
  have h4 : (ts.drop n).filter (fun r => decide (r.1 ≤ last)) = (ts.drop n).take n2 := by
    rw [← h3]
    apply List.filter_congr
    intro x _
    simp [Int.lt_add_one_iff]
  rw [hv, h4] at hr
  have hr' : ts[n + i]? = some r := by
    rw [List.getElem?_take] at hr
    split at hr
    · rwa [List.getElem?_drop] at hr
    · cases hr
  rw [h1, List.getLast?_eq_getElem?, List.length_take, Nat.min_eq_left hn] at hb
  have hn1 : 1 ≤ n := by
    rcases n with _ | n
    · simp at hb
    · omega
  have hb' : ts[n - 1]? = some b := by
    rw [List.getElem?_take, if_pos (by omega)] at hb
    exact hb
  have hcast : ((n - 1 : Nat) : Int) = (n : Int) - 1 := by omega
  constructor
  · intro hph
    have e1 := hph _ _ hr'
    have e2 := hph _ _ hb'
    rw [hcast] at e2
    have e3 := Int.dvd_sub e1 e2
    have e4 : r.1 - (t0 + ((n + i : Nat) : Int) * freq) - (b.1 - (t0 + ((n : Int) - 1) * freq)) =
        r.1 - (b.1 + ((i : Int) + 1) * freq) := by push_cast; ring
    rwa [e4] at e3
  · intro hph
    have e1 := hph _ _ hr'
    have e2 := hph _ _ hb'
    rw [hcast] at e2
    rw [e1, e2]
    push_cast
    ring

/-- C145 violated: the forecast should be for the time of the value with which it is compared.  The series has
values at the times 0 to 4 and 11 to 15 and the period 2; filling leaves out six missing values; the forecast for the time 5 is
compared with the value of the time 11. -/
theorem C145_aligned_violated : ∃ (ts out : GmTs), gmFill "time" ts 2 1 = .ok out ∧
    (out.filter fun r => decide (r.1 < (10 : Int))).getLast? = some (4, some 4) ∧
    (out.filter fun r => decide ((10 : Int) ≤ r.1 ∧ r.1 ≤ 30))[0]? = some (11, some 11) :=
  ⟨[(0, some 0), (1, some 1), (2, some 2), (3, some 3), (4, some 4), (11, some 11), (12, some 12), (13, some 13), (14, some 14),
    (15, some 15)], [(0, some 0), (1, some 1), (2, some 2), (3, some 3), (4, some 4), (11, some 11), (12, some 12), (13, some 13), (14, some 14),
    (15, some 15)], rfl, by decide +kernel, by decide +kernel⟩

end Kats

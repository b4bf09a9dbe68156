import Verif.Props.GmAdjust
import Verif.Props.GmLoader
import Verif.Props.GmBatch

/-!
# C141: `predict`
-/

namespace Kats

/-! ## Dictionaries -/

theorem put_fresh {α β : Type} [DecidableEq α] (d : List (α × β)) (e : α × β) (h : e.1 ∉ d.map (·.1)) :
    gmPut d e = d ++ [e] := by
  unfold gmPut
  rw [if_neg h]

theorem update_fresh {α β : Type} [DecidableEq α] (l : List (α × β)) : ∀ d : List (α × β),
    (d.map (·.1) ++ l.map (·.1)).Nodup → gmUpdate d l = d ++ l := by
  induction l with
  | nil => intro d _; simp [gmUpdate]
  | cons e l ih =>
    intro d h
    have h1 : e.1 ∉ d.map (·.1) := by
      intro hm
      rw [List.map_cons] at h
      exact (List.nodup_append.1 h).2.2 _ hm _ (List.mem_cons_self) rfl
    show gmUpdate (gmPut d e) l = _
    rw [put_fresh d e h1, ih (d ++ [e]) (by simpa using h)]
    simp

theorem fold_update {α β γ : Type} [DecidableEq α] (F : γ → List (α × β)) (E : List γ) : ∀ d : List (α × β),
    (d.map (·.1) ++ (E.flatMap F).map (·.1)).Nodup →
    E.foldl (fun a B => gmUpdate a (F B)) d = d ++ E.flatMap F := by
  induction E with
  | nil => intro d _; simp
  | cons B E ih =>
    intro d h
    rw [List.flatMap_cons, List.map_append, ← List.append_assoc] at h
    rw [List.foldl_cons, update_fresh _ _ (List.nodup_append.1 h).1, ih _ (by rw [List.map_append]; exact h),
      List.flatMap_cons, List.append_assoc]

theorem gm_lookup_of_mem {α : Type} : ∀ (d : List (GmKey × α)), (d.map (·.1)).Nodup → ∀ k t, (k, t) ∈ d →
    gmLookup d k = .ok t := by
  intro d
  induction d with
  | nil => intro _ k t h; simp at h
  | cons e d ih =>
    intro hn k t h
    rw [List.map_cons, List.nodup_cons] at hn
    unfold gmLookup
    rw [List.lookup_cons]
    rcases List.mem_cons.1 h with h | h
    · rw [← h]
      simp
    · have hne : k ≠ e.1 := by
        rintro rfl
        exact hn.1 (List.mem_map.2 ⟨_, h, rfl⟩)
      have : (k == e.1) = false := by simpa using hne
      rw [this]
      exact ih hn.2 k t h

/-! ## The loop -/

theorem loop_ok {β : Type} (R : GmRand) (size : Nat) (one : List GmKey → Except Err (List (GmKey × β)))
    (F : List GmKey → List (GmKey × β)) : ∀ (E : List (List GmKey)) (l : GmLoader) (acc : List (GmKey × β)),
    (gmRun R size E.length l).2 = E.map .ok → (∀ B ∈ E, one B = .ok (F B)) →
    gmPredictLoop R size one E.length l acc = .ok (E.foldl (fun a B => gmUpdate a (F B)) acc) := by
  intro E
  induction E with
  | nil => intro l acc _ _; rfl
  | cons B E ih =>
    intro l acc h hF
    have h : (gmGet R l size).2 :: (gmRun R size E.length (gmGet R l size).1).2 = Except.ok B :: E.map .ok := h
    injection h with h1 h2
    show ((gmGet R l size).2 >>= fun ids => one ids >>= fun r =>
      gmPredictLoop R size one E.length (gmGet R l size).1 (gmUpdate acc r)) = _
    rw [h1]
    show (one B >>= fun r => gmPredictLoop R size one E.length (gmGet R l size).1 (gmUpdate acc r)) = _
    rw [hF B (by simp)]
    exact ih _ _ h2 fun B' hB' => hF B' (by simp [hB'])

theorem stepNum_spec (steps fw : Nat) (hfw : 1 ≤ fw) :
    gmStepNum steps fw = (steps + fw - 1) / fw ∧ steps ≤ gmStepNum steps fw * fw ∧
      gmStepNum steps fw * fw < steps + fw ∧ (1 ≤ steps → 1 ≤ gmStepNum steps fw) := by
  have hd := Nat.div_add_mod steps fw
  have hm := Nat.mod_lt steps hfw
  have key : steps ≤ gmStepNum steps fw * fw ∧ gmStepNum steps fw * fw < steps + fw := by
    unfold gmStepNum
    rw [Nat.mul_comm] at hd
    by_cases h : steps % fw = 0
    · rw [if_neg (by simpa using h), Nat.add_zero]; omega
    · rw [if_pos h, Nat.add_mul, Nat.one_mul]; omega
  refine ⟨?_, key.1, key.2, ?_⟩
  · symm
    apply Nat.div_eq_of_lt_le
    · omega
    · rw [Nat.add_mul, Nat.one_mul]; omega
  · intro h
    rcases hn : gmStepNum steps fw with _ | n
    · rw [hn] at key; omega
    · omega

/-! ## A batch -/

/-- A series that can be used: not of an integer type, as long as the seasonality, with a value in its last input
window. -/
structure GmSeriesOk (p : GmParams) (t : Bool × GmTs) : Prop where
  float : t.1 = false
  long : p.seasonality ≤ t.2.length
  value : ∃ r ∈ t.2.drop (t.2.length - p.inputWindow), r.2 ≠ none

/-- The parameters. -/
structure GmPredOk (p : GmParams) : Prop where
  wf : GmWf p
  uplift : 1 < p.uplift
  window : p.seasonality ≤ p.inputWindow

theorem mem_drop_le {α : Type} (l : List α) (a b : Nat) (h : a ≤ b) (x : α) (hx : x ∈ l.drop b) : x ∈ l.drop a := by
  have : l.drop b = (l.drop a).drop (b - a) := by rw [List.drop_drop]; congr 1; omega
  rw [this] at hx
  exact List.mem_of_mem_drop hx

/-- What the arrays of a batch of such series are. -/
theorem pred_batch (p : GmParams) (hp : GmPredOk p) (series : List (Bool × GmTs)) (hne : series ≠ [])
    (hs : ∀ t ∈ series, GmSeriesOk p t) :
    ∃ ix rows, gmBatch p false series none 0 0 = .ok (ix, rows) ∧
      gmIndices p false (series.map fun t => t.2.length) none 0 0 = .ok ix ∧ rows.length = series.length ∧
      ∀ (i : Nat) row, rows[i]? = some row → ∃ t b, series[i]? = some t ∧ t.2.getLast? = some b ∧
        gmRow p false ix.reduced ix.reducedValid false t.2 none = .ok row ∧
        gmFirstTime ix row = .ok (b.1 + p.freq) ∧ row.x.length = ix.reduced ∧
        row.validX = some (List.replicate ix.reducedValid none) ∧
        (∀ j, j < p.seasonality → ∃ a, row.x[j]? = some (some a)) ∧ ∀ a, some a ∈ row.x → 0 < a := by
  obtain ⟨ix, hix⟩ := (C136_indices_ok p false (series.map fun t => t.2.length) none 0 0).2
    ⟨by simpa using hne, by
      intro n hn
      obtain ⟨t, ht, rfl⟩ := List.mem_map.1 hn
      exact (hs t ht).long⟩
  obtain ⟨k1, k2, k3, k4, k5, k6, k7, k8, k9, k10, k11⟩ := C136_test_indices p hp.wf _ none 0 0 ix hix
  have hrv : 1 ≤ ix.reducedValid := by
    rw [k11]
    exact Nat.mul_pos hp.wf.fw hp.wf.fcst
  have hrow : ∀ t ∈ series, ∃ row b, gmRow p false ix.reduced ix.reducedValid t.1 t.2 none = .ok row ∧
      t.2.getLast? = some b ∧ gmFirstTime ix row = .ok (b.1 + p.freq) ∧ row.x.length = ix.reduced ∧
        row.validX = some (List.replicate ix.reducedValid none) ∧
        (∀ j, j < p.seasonality → ∃ a, row.x[j]? = some (some a)) ∧ ∀ a, some a ∈ row.x → 0 < a := by
    intro t ht
    have hw : ∃ r ∈ t.2.drop (t.2.length - ix.reduced), r.2 ≠ none := by
      obtain ⟨r, hr, hv⟩ := (hs t ht).value
      exact ⟨r, mem_drop_le _ _ _ (by omega) r hr, hv⟩
    have hsr : p.seasonality ≤ ix.reduced := le_trans hp.window k4
    have ht2 : ∃ r ∈ t.2, r.2 ≠ none := by
      obtain ⟨r, hr, hv⟩ := hw
      exact ⟨r, List.mem_of_mem_drop hr, hv⟩
    obtain ⟨off, hoff, _⟩ := C136_offset_partial p.uplift hp.uplift t.2 none ht2 (by simp)
    obtain ⟨row, h1, h2, h3, h4, h5, h6, h7, h8, h9, h10, h11⟩ := C136_row_partial p hp.wf false ix.reduced
      ix.reducedValid t.2 none off hoff hsr (hs t ht).long hw (by simp)
    obtain ⟨row', g1, g2, g3⟩ := C136_positive_partial p hp.wf hp.uplift false ix.reduced ix.reducedValid t.2 none
      hsr (hs t ht).long hw (by simp)
    rw [h1] at g1
    injection g1 with g1
    subst g1
    obtain ⟨vx, vt, b, e1, e2, e3, e4, e5, e6⟩ := h10 rfl rfl
    refine ⟨row, b, by rw [(hs t ht).float]; exact h1, e3, ?_, h3, by rw [e1, e4], h7, g2⟩
    unfold gmFirstTime
    rw [e2, Option.getD_some, List.getElem?_append_right (by omega), h4, Nat.sub_self, e6 0 hrv]
    simp
  have hrow' : ∀ i, i < series.length → ∃ row, gmRow p false ix.reduced ix.reducedValid
      (series.getD i (false, [])).1 (series.getD i (false, [])).2 none = .ok row ∧ True := by
    intro i hi
    rw [gmp_getD _ i _ hi]
    obtain ⟨row, b, h, _⟩ := hrow series[i] (List.getElem_mem hi)
    exact ⟨row, h, trivial⟩
  obtain ⟨rows, m1, m2, m3⟩ := mapM_exists _ _ series.length hrow'
  refine ⟨ix, rows, ?_, hix, m2, ?_⟩
  · unfold gmBatch
    show (gmIndices p false _ none 0 0 >>= fun ix => _) = _
    rw [hix]
    show ((List.range series.length).mapM (fun i => gmRow p false ix.reduced ix.reducedValid
      (series.getD i (false, [])).1 (series.getD i (false, [])).2 none) >>= fun rows =>
      (Except.ok (ix, rows) : Except Err (GmIndices × List GmRow))) = _
    rw [m1]
    rfl
  · intro i row hi
    have hlt : i < series.length := by
      rw [← m2]
      by_contra hge
      rw [List.getElem?_eq_none (by omega)] at hi
      cases hi
    have hr := (m3 i row hi).1
    rw [gmp_getD _ i _ hlt] at hr
    obtain ⟨row', b, g1, g2⟩ := hrow series[i] (List.getElem_mem hlt)
    rw [hr] at g1
    injection g1 with g1
    subst g1
    refine ⟨series[i], b, List.getElem?_eq_getElem hlt, g2.1, ?_, g2.2⟩
    rw [(hs _ (List.getElem_mem hlt)).float] at hr
    exact hr

section
variable {K : Type} [Field K]

/-- The pass works on every batch of such series, and gives `n` windows of the right shape. -/
def GmSingleOk (P : GmPredictor K) (n : Nat) : Prop :=
  ∀ (series : List (Bool × GmTs)) (ix : GmIndices) (rows : List GmRow), series ≠ [] →
    (∀ t ∈ series, GmSeriesOk P.p t) →
    gmBatch { P.p with fcstSteps := n } false series none 0 0 = .ok (ix, rows) →
    ∃ f, P.single { P.p with fcstSteps := n } ix rows = .ok f ∧ f.length = n ∧
      GmShape series.length (P.p.fcstWindow * P.quantile.length) f

theorem predict_batch (P : GmPredictor K) (n : Nat) (hn : 1 ≤ n) (hp : GmPredOk P.p) (hS : GmSingleOk P n)
    (data : List (GmKey × Bool × GmTs)) (hd : (data.map (·.1)).Nodup) (hs : ∀ e ∈ data, GmSeriesOk P.p e.2)
    (ids : List GmKey) (hne : ids ≠ []) (hids : ∀ k ∈ ids, k ∈ data.map (·.1)) :
    ∃ ix rows f, gmPredictBatch P { P.p with fcstSteps := n } data ids = .ok (ix, rows, f) ∧
      rows.length = ids.length ∧ f.length = n ∧ GmShape ids.length (P.p.fcstWindow * P.quantile.length) f ∧
      ∀ (i : Nat) k row, ids[i]? = some k → rows[i]? = some row → ∃ t b, (k, t) ∈ data ∧
        t.2.getLast? = some b ∧ gmFirstTime ix row = .ok (b.1 + P.p.freq) := by
  have hk : ∀ k, ∃ t, k ∈ ids → (k, t) ∈ data := by
    intro k
    by_cases h : k ∈ ids
    · obtain ⟨e, he, rfl⟩ := List.mem_map.1 (hids k h)
      exact ⟨e.2, fun _ => he⟩
    · exact ⟨(false, []), fun h' => absurd h' h⟩
  choose T hT using hk
  obtain ⟨ix, rows, b1, b2, b3, b4⟩ := pred_batch { P.p with fcstSteps := n }
    ⟨⟨hp.wf.iw, hp.wf.fw, hp.wf.season, hp.wf.num, hp.wf.len, hp.wf.valid, hp.wf.warm, hn⟩, hp.uplift, hp.window⟩
    (ids.map T) (by simpa using hne) (by
      intro t ht
      obtain ⟨k, hk, rfl⟩ := List.mem_map.1 ht
      have := hs _ (hT k hk)
      exact ⟨this.float, this.long, this.value⟩)
  obtain ⟨f, f1, f2, f3⟩ := hS (ids.map T) ix rows (by simpa using hne) (by
      intro t ht
      obtain ⟨k, hk, rfl⟩ := List.mem_map.1 ht
      exact hs _ (hT k hk)) b1
  rw [List.length_map] at f3 b3
  have hif : ∃ g, g = (if P.p.rnn then gmAdjust P.p.fcstWindow P.quantile.length f else f) ∧ g.length = n ∧
      GmShape ids.length (P.p.fcstWindow * P.quantile.length) g := by
    refine ⟨_, rfl, ?_⟩
    split
    · obtain ⟨h1, h2⟩ := adjust_shape P.p.fcstWindow P.quantile.length _ _ f f3
      exact ⟨by omega, h2⟩
    · exact ⟨f2, f3⟩
  obtain ⟨g, hg, g2, g3⟩ := hif
  refine ⟨ix, rows, g, ?_, b3, g2, g3, ?_⟩
  · unfold gmPredictBatch
    rw [mapM_eq_map (gmLookup data) T ids fun k hk => gm_lookup_of_mem data hd k (T k) (hT k hk)]
    show (gmBatch { P.p with fcstSteps := n } false (ids.map T) none 0 0 >>= fun b =>
      P.single { P.p with fcstSteps := n } b.1 b.2 >>= fun f => _) = _
    rw [b1]
    show (P.single { P.p with fcstSteps := n } ix rows >>= fun f => _) = _
    rw [f1, hg]
    rfl
  · intro i k row hik hrow
    obtain ⟨t, b, t1, t2, t3, t4, _⟩ := b4 i row hrow
    rw [List.getElem?_map, hik] at t1
    injection t1 with t1
    subst t1
    exact ⟨T k, b, hT k (List.mem_of_getElem? hik), t2, t4⟩

theorem format_ok (quantile : List String) (hq : quantile ≠ []) (freq : Int) (fw : Nat) (hfw : 1 ≤ fw)
    (steps n : Nat) (hn : 1 ≤ n) (hsteps : steps ≤ n * fw) (ids : List GmKey) (ix : GmIndices) (rows : List GmRow)
    (f : List (List (List K))) (hr : rows.length = ids.length) (hf : f.length = n)
    (hF : GmShape ids.length (fw * quantile.length) f)
    (ht : ∀ (i : Nat) k row, ids[i]? = some k → rows[i]? = some row → ∃ t, gmFirstTime ix row = .ok t) :
    ∃ r, gmFormat quantile freq steps ids ix rows f = .ok r ∧ r.map (·.1) = ids ∧
      ∀ (i : Nat) e, r[i]? = some e → ∃ k row first, ids[i]? = some k ∧ rows[i]? = some row ∧ e.1 = k ∧
        gmFirstTime ix row = .ok first ∧ gmFrame quantile freq steps (gmSeries f i) first = .ok e.2 := by
  have key : ∀ i, i < ids.length → ∃ e, gmFormatOne quantile freq steps ids ix rows f i = .ok e ∧
      ∃ k row first, ids[i]? = some k ∧ rows[i]? = some row ∧ e.1 = k ∧
        gmFirstTime ix row = .ok first ∧ gmFrame quantile freq steps (gmSeries f i) first = .ok e.2 := by
    intro i hi
    obtain ⟨first, h1⟩ := ht i _ _ (List.getElem?_eq_getElem hi) (List.getElem?_eq_getElem (by omega : i < rows.length))
    obtain ⟨t, h2, _⟩ := C141_frame quantile hq fw hfw freq steps (gmSeries f i) (by
        unfold gmSeries
        intro h
        rw [List.map_eq_nil_iff] at h
        rw [h] at hf
        simp at hf
        omega) (by
        intro r hr'
        unfold gmSeries at hr'
        obtain ⟨w, hw, rfl⟩ := List.mem_map.1 hr'
        obtain ⟨a, b⟩ := hF w hw
        rw [gmp_getD _ i _ (by omega)]
        exact b _ (List.getElem_mem _)) (by unfold gmSeries; rw [List.length_map, hf]; exact hsteps) first
    refine ⟨(ids[i], t), ?_, ids[i], rows[i], first, List.getElem?_eq_getElem hi, List.getElem?_eq_getElem _, rfl, h1, h2⟩
    unfold gmFormatOne
    rw [List.getElem?_eq_getElem hi, List.getElem?_eq_getElem (by omega : i < rows.length)]
    show (gmFirstTime ix rows[i] >>= fun first => gmFrame quantile freq steps (gmSeries f i) first >>= fun t => _) = _
    rw [h1]
    show (gmFrame quantile freq steps (gmSeries f i) first >>= fun t => _) = _
    rw [h2]
    rfl
  obtain ⟨r, r1, r2, r3⟩ := mapM_exists _ _ ids.length key
  refine ⟨r, r1, ?_, fun i e he => (r3 i e he).2⟩
  apply List.ext_getElem?
  intro i
  rw [List.getElem?_map]
  by_cases hi : i < ids.length
  · rw [List.getElem?_eq_getElem (by omega : i < r.length)]
    obtain ⟨_, k, row, first, e1, _, e2, _⟩ := r3 i _ (List.getElem?_eq_getElem (by omega : i < r.length))
    rw [e1, Option.map_some, e2]
  · rw [List.getElem?_eq_none (by omega), List.getElem?_eq_none (by omega)]
    rfl

/-- C141: `predict` on series that can be used gives one frame for every series, with a row for every step and a
column for every quantile; the times are those after the last time of the series, one frequency apart.  With `raw`
it gives for every series the windows that the frame has: the value at a step is in the window of the step, at the
place of the quantile and of the step in the window. -/
theorem C141_predict (R : GmRand) (hR : GmRandOk R) (P : GmPredictor K) (hp : GmPredOk P.p) (hq : P.quantile ≠ [])
    (steps : Nat) (hsteps : 1 ≤ steps) (hS : GmSingleOk P (gmStepNum steps P.p.fcstWindow))
    (data : List (GmKey × Bool × GmTs)) (hne : data ≠ []) (hd : (data.map (·.1)).Nodup)
    (hplain : gmNpKeys (data.map (·.1)) = data.map (·.1)) (hs : ∀ e ∈ data, GmSeriesOk P.p e.2)
    (size : Int) (hsize : 0 < size) :
    ∃ res raw, gmPredict R P data steps size = .ok res ∧ gmPredictRaw R P data steps size = .ok raw ∧
      (res.map (·.1)).Perm (data.map (·.1)) ∧ raw.map (·.1) = res.map (·.1) ∧
      (∀ k w, (k, w) ∈ raw → w.length = (steps + P.p.fcstWindow - 1) / P.p.fcstWindow ∧
        ∀ r ∈ w, r.length = P.p.fcstWindow * P.quantile.length) ∧
      ∀ k t, (k, t) ∈ res → ∃ s b w, (k, s) ∈ data ∧ s.2.getLast? = some b ∧ (k, w) ∈ raw ∧
        t.names = P.quantile.map ("fcst_quantile_" ++ ·) ∧ t.rows.length = steps ∧ t.time.length = steps ∧
        (∀ r ∈ t.rows, r.length = P.quantile.length) ∧
        (∀ i : Nat, i < steps → t.time[i]? = some (b.1 + ((i : Int) + 1) * P.p.freq)) ∧
        ∀ i j, i < steps → j < P.quantile.length → ∃ r v, w[i / P.p.fcstWindow]? = some r ∧
          r[j * P.p.fcstWindow + i % P.p.fcstWindow]? = some v ∧ (t.rows.getD i []).getD j 0 = v := by
  have hfw := hp.wf.fw
  obtain ⟨s1, s2, s3, s4⟩ := stepNum_spec steps P.p.fcstWindow hfw
  obtain ⟨n, hn⟩ : ∃ n, n = gmStepNum steps P.p.fcstWindow := ⟨_, rfl⟩
  rw [← hn] at hS s1 s2 s3 s4
  have hkeys : (data.map fun d => (d.1, d.2.2.length)).map (·.1) = data.map (·.1) := by
    rw [List.map_map]; rfl
  obtain ⟨l, l1, l2, l3⟩ := C136_init_partial (data.map fun d => (d.1, d.2.2.length)) (by simpa using hne)
    (by rw [hkeys]; exact hplain) (by rw [hkeys]; exact hd) none (by simp) 5 (Or.inr rfl)
  obtain ⟨E, e1, e2, _⟩ := C136_epoch R hR l _ l2 500 (by omega) (l3 500 (by omega))
  have hEl := e2.number
  have hperm := e2.all
  rw [hkeys] at hperm
  rw [List.length_map] at hEl e1
  have hB : ∀ B ∈ E, B ≠ [] ∧ ∀ k ∈ B, k ∈ data.map (·.1) := by
    intro B hB
    constructor
    · obtain ⟨i, hi, rfl⟩ := List.getElem_of_mem hB
      have := e2.size i _ (List.getElem?_eq_getElem hi)
      rw [List.length_map] at this
      have hlt : i * 500 < data.length := by
        have : i < (data.length + 500 - 1) / 500 := by omega
        have h1 : (i + 1) * 500 ≤ data.length + 500 - 1 := by
          have := (Nat.le_div_iff_mul_le (by omega : 0 < 500)).1 (by omega : i + 1 ≤ (data.length + 500 - 1) / 500)
          exact this
        omega
      intro h
      rw [h] at this
      simp at this
      omega
    · intro k hk
      exact hperm.mem_iff.1 (List.mem_flatten.2 ⟨B, hB, hk⟩)
  have hone : ∀ B, ∃ (ix : GmIndices) (rows : List GmRow) (f : List (List (List K)))
      (r : List (GmKey × GmTable K)), B ∈ E →
      gmPredictBatch P { P.p with fcstSteps := n } data B = .ok (ix, rows, f) ∧
      gmFormat P.quantile P.p.freq steps B ix rows f = .ok r ∧ r.map (·.1) = B ∧
      f.length = n ∧ GmShape B.length (P.p.fcstWindow * P.quantile.length) f ∧
      ∀ (i : Nat) e, r[i]? = some e → ∃ t b, B[i]? = some e.1 ∧ (e.1, t) ∈ data ∧ t.2.getLast? = some b ∧
        gmFrame P.quantile P.p.freq steps (gmSeries f i) (b.1 + P.p.freq) = .ok e.2 := by
    intro B
    by_cases h : B ∈ E
    · obtain ⟨ix, rows, f, p1, p2, p3, p4, p5⟩ := predict_batch P n (s4 hsteps) hp hS data hd hs B (hB B h).1 (hB B h).2
      obtain ⟨r, r1, r2, r3⟩ := format_ok P.quantile hq P.p.freq P.p.fcstWindow hfw steps n (s4 hsteps) s2 B ix rows f
        p2 p3 p4 (by
          intro i k row hk hrow
          obtain ⟨t, b, _, _, h⟩ := p5 i k row hk hrow
          exact ⟨_, h⟩)
      refine ⟨ix, rows, f, r, fun _ => ⟨p1, r1, r2, p3, p4, ?_⟩⟩
      intro i e he
      obtain ⟨k, row, first, q1, q2, q3, q4, q5⟩ := r3 i e he
      obtain ⟨t, b, t1, t2, t3⟩ := p5 i k row q1 q2
      rw [q4] at t3
      injection t3 with t3
      subst q3 t3
      exact ⟨t, b, q1, t1, t2, q5⟩
    · exact ⟨⟨0, 0, [], [], 0, 0⟩, [], [], [], fun h' => absurd h' h⟩
  choose IX ROWS F RES hone using hone
  have hm : data.length / 500 + (if data.length % 500 ≠ 0 then 1 else 0) = E.length := by
    rw [hEl]
    exact (stepNum_spec data.length 500 (by omega)).1
  have hraw1 : ∀ B ∈ E, (gmRaw B (F B)).map (·.1) = B := by
    intro B _
    unfold gmRaw
    apply List.ext_getElem?
    intro i
    rw [List.getElem?_map, List.getElem?_mapIdx]
    cases B[i]? <;> rfl
  have hflat : ∀ (G : List GmKey → List GmKey), (∀ B ∈ E, G B = B) → E.flatMap G = E.flatten := by
    intro G hG
    rw [List.flatMap_def, List.map_congr_left (g := id) (fun B hB => hG B hB), List.map_id]
  have hnod : E.flatten.Nodup := hperm.nodup_iff.2 hd
  have k1 : (E.flatMap RES).map (·.1) = E.flatten := by
    rw [List.map_flatMap]
    exact hflat _ fun B hB' => (hone B hB').2.2.1
  have k2 : (E.flatMap fun B => gmRaw B (F B)).map (·.1) = E.flatten := by
    rw [List.map_flatMap]
    exact hflat _ hraw1
  have hwith : ∀ {β : Type} (one : List GmKey → GmIndices → List GmRow → List (List (List K)) →
      Except Err (List (GmKey × β))) (G : List GmKey → List (GmKey × β)),
      (∀ B ∈ E, one B (IX B) (ROWS B) (F B) = .ok (G B)) → (E.flatMap G).map (·.1) = E.flatten →
      gmPredictWith R P data steps size one = .ok (E.flatMap G) := by
    intro β one G h1 h2
    unfold gmPredictWith
    rw [if_neg (by omega)]
    simp only []
    rw [hm, l1, ← hn]
    show gmPredictLoop R 500 _ E.length l [] = _
    rw [loop_ok R 500 _ G E l [] (by rw [hEl]; exact e1) (by
      intro B hB'
      show (gmPredictBatch P { P.p with fcstSteps := n } data B >>= fun b => one B b.1 b.2.1 b.2.2) = _
      rw [(hone B hB').1]
      exact h1 B hB'), fold_update G E [] (by rw [h2]; simpa using hnod)]
    rfl
  refine ⟨E.flatMap RES, E.flatMap fun B => gmRaw B (F B), ?_, ?_, ?_, ?_, ?_, ?_⟩
  · exact hwith _ RES (fun B hB' => (hone B hB').2.1) k1
  · exact hwith _ (fun B => gmRaw B (F B)) (fun B _ => rfl) k2
  · rw [k1]; exact hperm
  · rw [k1, k2]
  · intro k w hkw
    obtain ⟨B, hB1, hB2⟩ := List.mem_flatMap.1 hkw
    obtain ⟨_, _, _, f1, f2, _⟩ := hone B hB1
    obtain ⟨i, hi, hie⟩ := List.getElem_of_mem hB2
    unfold gmRaw at hi hie
    rw [List.length_mapIdx] at hi
    rw [List.getElem_mapIdx] at hie
    injection hie with hk hw
    subst hw
    refine ⟨by unfold gmSeries; rw [List.length_map, f1, s1], ?_⟩
    intro r hr
    unfold gmSeries at hr
    obtain ⟨v, hv, rfl⟩ := List.mem_map.1 hr
    obtain ⟨a, b⟩ := f2 v hv
    rw [gmp_getD _ i _ (by omega)]
    exact b _ (List.getElem_mem _)
  · intro k t hkt
    obtain ⟨B, hB1, hB2⟩ := List.mem_flatMap.1 hkt
    obtain ⟨_, _, r2, f1, f2, f3⟩ := hone B hB1
    obtain ⟨i, hi, hie⟩ := List.getElem_of_mem hB2
    obtain ⟨s, b, a1, a2, a3, a4⟩ := f3 i (k, t) (by rw [List.getElem?_eq_getElem hi, hie])
    have hiB : i < B.length := by
      by_contra hge
      rw [List.getElem?_eq_none (by omega)] at a1
      cases a1
    have hlen : (gmSeries (F B) i).length = n := by unfold gmSeries; rw [List.length_map, f1]
    obtain ⟨t', t1, t2, t3, t4, t5, t6, t7⟩ := C141_frame P.quantile hq P.p.fcstWindow hfw P.p.freq steps
      (gmSeries (F B) i) (by
        intro h
        rw [h] at hlen
        have := s4 hsteps
        simp at hlen
        omega) (by
        intro r hr'
        unfold gmSeries at hr'
        obtain ⟨w, hw, rfl⟩ := List.mem_map.1 hr'
        obtain ⟨a, b⟩ := f2 w hw
        rw [gmp_getD _ i _ (by omega)]
        exact b _ (List.getElem_mem _)) (by rw [hlen]; exact s2) (b.1 + P.p.freq)
    rw [a4] at t1
    injection t1 with t1
    subst t1
    refine ⟨s, b, gmSeries (F B) i, a2, a3, ?_, t2, t3, t4, t5, ?_, t6⟩
    · refine List.mem_flatMap.2 ⟨B, hB1, ?_⟩
      unfold gmRaw
      apply List.mem_of_getElem? (i := i)
      rw [List.getElem?_mapIdx, a1]
      rfl
    · intro j hj
      rw [t7 j hj]
      congr 1
      ring

/-- C141 violated: the batch size that is given is not used; every positive one gives the same result. -/
theorem C141_batch_size_violated (R : GmRand) (P : GmPredictor K) (data : List (GmKey × Bool × GmTs)) (steps : Nat) (size : Int) :
    (0 < size → gmPredict R P data steps size = gmPredict R P data steps 500 ∧
      gmPredictRaw R P data steps size = gmPredictRaw R P data steps 500) ∧
    (size ≤ 0 → gmPredict R P data steps size = .error .valueError) := by
  unfold gmPredict gmPredictRaw gmPredictWith
  constructor
  · intro h
    rw [if_neg (by omega), if_neg (by omega), if_neg (by omega)]
    exact ⟨rfl, rfl⟩
  · intro h
    rw [if_pos h]

end

end Kats

import Verif.Props.MlArRows
import Verif.Lemmas.MapM

/-!
# C132: training and prediction of the autoregressive boosting model
-/

namespace Kats

noncomputable section
open Classical

/-! ## Training -/

theorem mem_stamps (p : MlParams) (ss : List MlSeries) (t : Int) :
    t ∈ mlStamps p ss ↔ ∃ s ∈ ss, (s.start ≤ t ∧ t < s.start + s.len) ∨
      ∃ h ∈ p.horizon, t = s.start + s.len - 1 + (h : Int) := by
  unfold mlStamps
  simp only [List.mem_flatMap, List.mem_append, List.mem_map, List.mem_range]
  constructor
  · rintro ⟨s, hs, ⟨i, hi, rfl⟩ | ⟨h, hh, rfl⟩⟩
    · exact ⟨s, hs, Or.inl (by omega)⟩
    · exact ⟨s, hs, Or.inr ⟨h, hh, rfl⟩⟩
  · rintro ⟨s, hs, h | ⟨h, hh, rfl⟩⟩
    · exact ⟨s, hs, Or.inl ⟨(t - s.start).toNat, by omega, by omega⟩⟩
    · exact ⟨s, hs, Or.inr ⟨h, hh, rfl⟩⟩

theorem allRows_eq {Mdl : Type} (W : MlWorld Mdl) (p : MlParams) (op : MlOp) (ss : List MlSeries)
    (hp : p.WF) (hop : mlOp p = .ok op) (hss : ss ≠ [])
    (hlen : ∀ s ∈ ss, p.maxLags ≤ mlCut p.targets s + 1)
    (hfut : ∀ s ∈ ss, ∀ kc ∈ p.fut, kc.2 ≤ s.len + 1) :
    mlAllRows W p ss = .ok (ss.map fun s => (List.range p.targets.length).flatMap fun i =>
      p.horizon.flatMap fun h => (List.range (mlCut p.targets s + 1 - p.maxLags)).map fun j =>
        spRow W p op (mlStamps p ss) s i h (p.maxLags - 1 + j)) := by
  unfold mlAllRows
  rw [if_neg hss]
  exact mapM_eq_map _ _ _ fun s hs => C132_rows W p op _ s hp hop (hlen s hs) (hfut s hs)

/-- C132: the regressor is trained on exactly the rows of all series, targets, horizons and origins
whose output is not NaN, inputs against outputs. -/
theorem C132_train {Mdl : Type} (W : MlWorld Mdl) (p : MlParams) (op : MlOp) (ss : List MlSeries)
    (hp : p.WF) (hop : mlOp p = .ok op) (hss : ss ≠ [])
    (hlen : ∀ s ∈ ss, p.maxLags ≤ mlCut p.targets s + 1)
    (hfut : ∀ s ∈ ss, ∀ kc ∈ p.fut, kc.2 ≤ s.len + 1) :
    ∃ tr : List MlRow, mlTrain W p ss = W.fit (tr.map (·.x)) (tr.map (·.y)) ∧
      ∀ r, r ∈ tr ↔ ∃ s ∈ ss, ∃ i, i < p.targets.length ∧ ∃ h ∈ p.horizon, ∃ o,
        p.maxLags ≤ o + 1 ∧ o < mlCut p.targets s ∧ spY W p op s (p.targets.getD i "") o h ≠ .nan ∧
        r = spRow W p op (mlStamps p ss) s i h o := by
  unfold mlTrain
  rw [allRows_eq W p op ss hp hop hss hlen hfut]
  refine ⟨_, rfl, fun r => ?_⟩
  have hl := hp.lags
  have hle := hp.lagsLe
  unfold mlTrainRows
  simp only [List.mem_filter, List.mem_flatten, List.mem_map, decide_eq_true_eq]
  constructor
  · rintro ⟨⟨l, ⟨s, hs, rfl⟩, hr⟩, hy⟩
    simp only [List.mem_flatMap, List.mem_map, List.mem_range] at hr
    obtain ⟨i, hi, h, hh, j, hj, rfl⟩ := hr
    exact ⟨s, hs, i, hi, h, hh, p.maxLags - 1 + j, by omega, by omega, hy, rfl⟩
  · rintro ⟨s, hs, i, hi, h, hh, o, ho1, ho2, hy, rfl⟩
    refine ⟨⟨_, ⟨s, hs, rfl⟩, ?_⟩, hy⟩
    simp only [List.mem_flatMap, List.mem_map, List.mem_range]
    refine ⟨i, hi, h, hh, o - (p.maxLags - 1), by omega, ?_⟩
    rw [show p.maxLags - 1 + (o - (p.maxLags - 1)) = o by omega]

/-- Training on two series of lengths 5 and 3. -/
example : mlTrain mlExW (mlExP [1, 2] 2 []) [mlExS 5 0, mlExS 3 0] = .ok () := by
  obtain ⟨tr, h, _⟩ := C132_train mlExW (mlExP [1, 2] 2 []) .div [mlExS 5 0, mlExS 3 0]
    (ex_wf _ _ _ (by simp) (by simp)) (ex_op _ _ _) (by simp)
    (by
      intro s hs
      simp only [List.mem_cons, List.not_mem_nil, or_false] at hs
      rcases hs with rfl | rfl
      · rw [ex_cut _ _ _ _ _ (by omega)]; show 2 ≤ 6; omega
      · rw [ex_cut _ _ _ _ _ (by omega)]; show 2 ≤ 4; omega)
    (fun _ _ _ h => absurd h (show _ ∉ ([] : List (String × Nat)) by simp))
  rw [h]
  rfl

/-- C132: if the normalizers of the window at the origin are finite and the divisor is not zero, the
output of a row is a value exactly when the series has a value `h` steps after the origin, and
denormalizing the output gives that value back.  (Without `use_default_min`.) -/
theorem C132_output_partial {Mdl : Type} (W : MlWorld Mdl) (p : MlParams) (op : MlOp) (s : MlSeries)
    (c : String) (hc : c ∈ p.targets) (o h : Nat) (n n2 : ℝ) (hum : p.useMin = false)
    (hn : spN W p (spWin p s c o) = .fin n)
    (hn2 : op = .subDiv → spN2 W p (spWin p s c o) = .fin n2 ∧ n2 ≠ 0) (hn0 : op = .div → n ≠ 0)
    (hfin : ∀ i, i < s.len → s.val c i = .nan ∨ ∃ v, s.val c i = .fin v) :
    (spY W p op s c o h ≠ .nan ↔ o + h < s.len ∧ s.val c (o + h) ≠ .nan) ∧
    ∀ v, o + h < s.len → s.val c (o + h) = .fin v →
      mlDenormalize op p.useMin p.dmin (spN W p (spWin p s c o)) (spN2 W p (spWin p s c o))
        (spY W p op s c o h) = .fin v := by
  have hcut : ∀ q, q < s.len → s.val c q ≠ .nan → q < mlCut p.targets s := by
    intro q hq hv
    unfold mlCut
    rcases hl : mlLastValid p.targets s with _ | i
    · exact hq
    · have h3 := (((lastValid_spec p.targets s).1 i).1 hl).2.2
      show q < i + 1
      by_contra hge
      exact hv (h3 q (by omega) hq c hc)
  have hval : ∀ v, ∃ y, spNorm p op (spN W p (spWin p s c o)) (spN2 W p (spWin p s c o)) (.fin v) =
      .fin y := by
    intro v
    unfold spNorm
    rw [if_neg (by rw [hum]; decide), hn]
    cases op
    · exact ⟨_, Fl.fin_sub _ _⟩
    · exact ⟨_, Fl.fin_div _ _ (hn0 rfl)⟩
    · rw [(hn2 rfl).1]
      exact ⟨_, by rw [Fl.fin_sub, Fl.fin_div _ _ (hn2 rfl).2]⟩
  have hnan : spNorm p op (spN W p (spWin p s c o)) (spN2 W p (spWin p s c o)) .nan = .nan := by
    unfold spNorm
    rw [if_neg (by rw [hum]; decide)]
    cases op
    · exact Fl.nan_sub _
    · exact Fl.nan_div _
    · show (Fl.nan - _) / _ = _
      rw [Fl.nan_sub, Fl.nan_div]
  constructor
  · unfold spY
    constructor
    · intro hy
      by_cases hlt : o + h < mlCut p.targets s
      · have := cut_le p.targets s
        refine ⟨by omega, fun hv => hy ?_⟩
        rw [if_pos hlt, hv, hnan]
      · exact absurd (by rw [if_neg hlt, hnan]) hy
    · rintro ⟨hlt, hv⟩
      rw [if_pos (hcut _ hlt hv)]
      rcases hfin _ hlt with h0 | ⟨v, h0⟩
      · exact absurd h0 hv
      · rw [h0]
        obtain ⟨y, hy⟩ := hval v
        rw [hy]
        intro hcon
        cases hcon
  · intro v hlt hv
    unfold spY
    rw [if_pos (hcut _ hlt (by rw [hv]; intro hcon; cases hcon)), hv, ← normalize_eq, hum, hn]
    cases op
    · show mlDenormalize .sub false p.dmin (.fin n) _ _ = _
      exact C132_roundtrip_partial .sub p.dmin n 0 v (fun h => by cases h) (fun h => by cases h)
    · exact C132_roundtrip_partial .div p.dmin n 0 v hn0 (fun h => by cases h)
    · rw [(hn2 rfl).1]
      exact C132_roundtrip_partial .subDiv p.dmin n n2 v (fun h => by cases h) (fun _ => (hn2 rfl).2)

/-- The output two steps after row 1 of the series 1, 2, 3, 4, 5 stands for the value 4. -/
example : mlDenormalize .div false (.fin 0) (.fin 2) .nan
    (spY mlExW (mlExP [1, 2] 2 []) .div (mlExS 5 0) "y" 1 2) = .fin 4 := by
  have := (C132_output_partial mlExW (mlExP [1, 2] 2 []) .div (mlExS 5 0) "y"
    (List.mem_singleton.2 rfl) 1 2 2 0 rfl rfl (fun h => by cases h) (fun _ => by norm_num)
    (fun i hi => by
      by_cases h : 5 ≤ i
      · exact Or.inl (if_pos ⟨rfl, h⟩)
      · exact Or.inr ⟨_, if_neg (fun hc => h hc.2)⟩)).2 4 (show 3 < 5 by omega) (by
        show (if "y" = "y" ∧ 5 ≤ 3 then Fl.nan else Fl.fin (((3 : Nat) : ℝ) + 1)) = _
        rw [if_neg (by omega)]
        congr 1
        norm_num)
  exact this

/-- C132, refuted for windows of zeros: with division, a positive value after a window whose
normalizer is zero gives an infinite output, which is not NaN and therefore kept for training. -/
theorem C132_infinite_violated {Mdl : Type} (W : MlWorld Mdl) (p : MlParams) (s : MlSeries)
    (c : String) (o h : Nat) (v : ℝ) (hv : 0 < v) (hum : p.useMin = false)
    (hn : spN W p (spWin p s c o) = .fin 0) (hlt : o + h < mlCut p.targets s)
    (hval : s.val c (o + h) = .fin v) : spY W p .div s c o h = .pinf := by
  unfold spY
  rw [if_pos hlt, hval, hn, ← normalize_eq, hum]
  exact (C132_zero_violated _ _ v hv).1

/-- With a normalizer that is always 0, the value 3 after row 1 becomes an infinity. -/
example : spY { mlExW with mean := fun _ => .fin 0 } (mlExP [1] 1 []) .div (mlExS 5 0) "y" 1 1 = .pinf :=
  C132_infinite_violated _ (mlExP [1] 1 []) (mlExS 5 0) "y" 1 1 3 (by norm_num) rfl rfl
    (by rw [ex_cut _ _ _ _ _ (by omega)]; omega) (by
      show (if "y" = "y" ∧ 5 ≤ 2 then Fl.nan else Fl.fin (((2 : Nat) : ℝ) + 1)) = _
      rw [if_neg (by omega)]
      congr 1
      norm_num)

/-- C132: every row whose target lies in its series has the calendar features of the target time. -/
theorem C132_calendar {Mdl : Type} (W : MlWorld Mdl) (p : MlParams) (op : MlOp) (ss : List MlSeries)
    (s : MlSeries) (hs : s ∈ ss) (i h o : Nat) (ho : o + h < s.len) :
    (spRow W p op (mlStamps p ss) s i h o).x =
      spPastX W p op s i (p.targets.getD i "") o ++ W.cal (s.start + (o : Int) + (h : Int)) ++
      (p.fut.flatMap fun kc => spFut W p op s kc (s.start + (o : Int) + (h : Int))) ++
      [.fin (h : ℝ)] := by
  unfold spRow
  simp only []
  rw [if_pos ((mem_stamps p ss _).2 ⟨s, hs, Or.inl (by omega)⟩)]

/-- The row of origin 1 and horizon 1 has the calendar feature of position 12. -/
example : (spRow mlExW (mlExP [1] 1 []) .div (mlStamps (mlExP [1] 1 []) [mlExS 5 0]) (mlExS 5 0) 0 1 1).x =
    spPastX mlExW (mlExP [1] 1 []) .div (mlExS 5 0) 0 "y" 1 ++ [.fin ((12 : Int) : ℝ)] ++ [] ++
      [.fin ((1 : Nat) : ℝ)] :=
  C132_calendar mlExW (mlExP [1] 1 []) .div [mlExS 5 0] (mlExS 5 0) (by simp) 0 1 1
    (show 1 + 1 < 5 by omega)

/-- C132: a series whose valid part is more than one row shorter than the number of lags makes the
whole training fail. -/
theorem C132_short {Mdl : Type} (W : MlWorld Mdl) (p : MlParams) (ss : List MlSeries) (s : MlSeries)
    (hs : s ∈ ss) (ht : p.targets ≠ []) (hlen : mlCut p.targets s + 1 < p.maxLags) :
    ∃ e, mlTrain W p ss = .error e := by
  have hrow : ∀ stamps rows, mlSeriesRows W p stamps s ≠ .ok rows := by
    intro stamps rows hr
    unfold mlSeriesRows at hr
    rcases hop : mlOp p with e | op
    · rw [hop] at hr; cases hr
    rw [hop, nf_ok_bind] at hr
    rcases hm : (List.range p.targets.length).mapM
        fun i => mlPast W p op s i (p.targets.getD i "") with e | past
    · rw [hm] at hr; cases hr
    obtain ⟨b, _, hb⟩ := (mapM_ok_mem _ _ _ hm).1 0
      (List.mem_range.2 (List.length_pos_iff.2 ht))
    unfold mlPast at hb
    simp only [] at hb
    rcases hh : mlHist W p op (mlCut p.targets s) s with e | hist
    · rw [hh] at hb; cases hb
    rw [hh, nf_ok_bind, col_take _ _ _ (cut_le _ _), embed_eq, if_pos hlen] at hb
    cases hb
  unfold mlTrain mlAllRows
  rw [if_neg (List.ne_nil_of_mem hs)]
  rcases hm : ss.mapM (mlSeriesRows W p (mlStamps p ss)) with e | rows
  · exact ⟨e, rfl⟩
  · obtain ⟨b, _, hb⟩ := (mapM_ok_mem _ _ _ hm).1 s hs
    exact absurd hb (hrow _ _)

/-- A series of one value among others, with four lags. -/
example : ∃ e, mlTrain mlExW { mlExP [1] 1 [] with maxLags := 4 } [mlExS 5 0, mlExS 1 0] = .error e :=
  C132_short mlExW { mlExP [1] 1 [] with maxLags := 4 } _ (mlExS 1 0) (by simp)
    (show ["y"] ≠ [] by simp) (by
      show mlCut (mlExP [1] 1 []).targets (mlExS 1 0) + 1 < 4
      rw [ex_cut _ _ _ _ _ (by omega)]
      omega)

/-- C132, refuted for future windows of 0: the constructor accepts them (`C132_init`), and training
on a nonempty series always fails. -/
theorem C132_future_zero_violated {Mdl : Type} (W : MlWorld Mdl) (p : MlParams) (ss : List MlSeries)
    (s : MlSeries) (hs : s ∈ ss) (hlen : s.len ≠ 0) (c : String) (hc : (c, 0) ∈ p.fut) :
    ∃ e, mlTrain W p ss = .error e := by
  have hrow : ∀ stamps rows, mlSeriesRows W p stamps s ≠ .ok rows := by
    intro stamps rows hr
    unfold mlSeriesRows at hr
    rcases hop : mlOp p with e | op
    · rw [hop] at hr; cases hr
    rw [hop, nf_ok_bind] at hr
    rcases hm : (List.range p.targets.length).mapM
        fun i => mlPast W p op s i (p.targets.getD i "") with e | past
    · rw [hm] at hr; cases hr
    rw [hm, nf_ok_bind] at hr
    rcases hf : p.fut.mapM (mlFutTable W p op s) with e | fut
    · rw [hf] at hr; cases hr
    obtain ⟨b, _, hb⟩ := (mapM_ok_mem _ _ _ hf).1 _ hc
    unfold mlFutTable MlSeries.col at hb
    rw [embed_eq, if_neg (by omega), nf_ok_bind, if_pos ⟨rfl, hlen⟩] at hb
    cases hb
  unfold mlTrain mlAllRows
  rw [if_neg (List.ne_nil_of_mem hs)]
  rcases hm : ss.mapM (mlSeriesRows W p (mlStamps p ss)) with e | rows
  · exact ⟨e, rfl⟩
  · obtain ⟨b, _, hb⟩ := (mapM_ok_mem _ _ _ hm).1 s hs
    exact absurd hb (hrow _ _)

example : ∃ e, mlTrain mlExW (mlExP [1] 1 [("z", 0)]) [mlExS 5 0] = .error e :=
  C132_future_zero_violated mlExW _ _ (mlExS 5 0) (by simp) (show 5 ≠ 0 by omega) "z"
    (List.mem_singleton.2 rfl)

/-! ## Prediction -/

theorem window_at (p : MlParams) (o e : Int) (f : String → Int → Fl) (c : String) (t : Int)
    (h1 : o - ((p.maxLags : Int) - 1) ≤ t) (h2 : t ≤ e) : (mlWindow p o e f).at c t = f c t := by
  unfold MlSeries.at mlWindow
  simp only []
  rw [if_pos (by omega)]
  congr 1
  omega

theorem at_out (s : MlSeries) (c : String) (t : Int) (h : s.start + s.len ≤ t) :
    s.at c t = .nan := by
  unfold MlSeries.at
  rw [if_neg (by omega)]

/-- A window whose targets are known at its origin and unknown after it makes one row for every
target and horizon, at the origin. -/
theorem window_cut (p : MlParams) (hl : 1 ≤ p.maxLags) (o e : Int) (he : o ≤ e)
    (f : String → Int → Fl) (hv : ∃ c ∈ p.targets, f c o ≠ .nan)
    (hnan : ∀ t, o < t → ∀ c ∈ p.targets, f c t = .nan) :
    mlLastValid p.targets (mlWindow p o e f) = some (p.maxLags - 1) ∧
      mlCut p.targets (mlWindow p o e f) = p.maxLags := by
  have h1 : mlLastValid p.targets (mlWindow p o e f) = some (p.maxLags - 1) := by
    rw [((lastValid_spec _ _).1 _)]
    refine ⟨?_, ?_, ?_⟩
    · unfold mlWindow
      simp only []
      omega
    · obtain ⟨c, hc, hne⟩ := hv
      refine ⟨c, hc, ?_⟩
      unfold mlWindow
      simp only []
      rw [show o - ((p.maxLags : Int) - 1) + ((p.maxLags - 1 : Nat) : Int) = o by omega]
      exact hne
    · intro j hj _ c hc
      unfold mlWindow
      simp only []
      exact hnan _ (by omega) c hc
  refine ⟨h1, ?_⟩
  unfold mlCut
  rw [h1]
  show p.maxLags - 1 + 1 = _
  omega

/-- The denormalization of a forecast. -/
def spDenorm (p : MlParams) (op : MlOp) (n n2 x : Fl) : Fl :=
  if p.useMin then
    match op with
    | .sub => (x - p.dmin) + (n - p.dmin)
    | .div => (x - p.dmin) * (n - p.dmin)
    | .subDiv => (x - p.dmin) * (n2 - p.dmin) + (n - p.dmin)
  else
    match op with
    | .sub => x + n
    | .div => x * n
    | .subDiv => x * n2 + n

theorem denormalize_eq (p : MlParams) (op : MlOp) (n n2 x : Fl) :
    mlDenormalize op p.useMin p.dmin n n2 x = spDenorm p op n n2 x := by
  unfold mlDenormalize spDenorm
  rcases p.useMin with _ | _ <;> cases op <;> rfl

/-- The forecast made from a row: its time, its target, and the denormalized prediction. -/
def spFc {Mdl : Type} (W : MlWorld Mdl) (p : MlParams) (op : MlOp) (m : Mdl) (r : MlRow) :
    Int × String × Fl :=
  (r.target, r.var, spDenorm p op r.n r.n2 (W.predict m r.x))

theorem once_eq {Mdl : Type} (W : MlWorld Mdl) (p : MlParams) (op : MlOp) (m : Mdl)
    (ws : List MlSeries) (hp : p.WF) (hop : mlOp p = .ok op) (hne : ws ≠ [])
    (hcut : ∀ w ∈ ws, mlCut p.targets w = p.maxLags)
    (hfut : ∀ w ∈ ws, ∀ kc ∈ p.fut, kc.2 ≤ w.len + 1) :
    mlPredictOnce W p m ws = .ok (ws.map fun w => (List.range p.targets.length).flatMap fun i =>
      p.horizon.map fun h => spFc W p op m (spRow W p op (mlStamps p ws) w i h (p.maxLags - 1))) := by
  unfold mlPredictOnce
  rw [allRows_eq W p op ws hp hop hne (fun w hw => by rw [hcut w hw]; omega) hfut, nf_ok_bind, hop,
    nf_ok_bind]
  show Except.ok _ = Except.ok _
  congr 1
  rw [List.map_map]
  apply List.map_congr_left
  intro w hw
  show mlForecast W p op m _ = _
  beta_reduce
  rw [hcut w hw, show p.maxLags + 1 - p.maxLags = 1 by omega]
  have hrows : (List.range p.targets.length).flatMap (fun i => p.horizon.flatMap fun h =>
      (List.range 1).map fun j => spRow W p op (mlStamps p ws) w i h (p.maxLags - 1 + j)) =
      (List.range p.targets.length).flatMap (fun i => p.horizon.map fun h =>
        spRow W p op (mlStamps p ws) w i h (p.maxLags - 1)) := by
    apply List.flatMap_congr
    intro i _
    rw [List.map_eq_flatMap]
    rfl
  rw [hrows]
  unfold mlForecast
  rw [List.filter_eq_self.2]
  · rw [List.map_flatMap]
    apply List.flatMap_congr
    intro i _
    rw [List.map_map]
    apply List.map_congr_left
    intro h _
    show (_, _, mlDenormalize op p.useMin p.dmin _ _ _) = _
    rw [denormalize_eq]
    rfl
  · intro r hr
    have horig : ∀ r', r' ∈ (List.range p.targets.length).flatMap (fun i => p.horizon.map fun h =>
        spRow W p op (mlStamps p ws) w i h (p.maxLags - 1)) →
        r'.origin = w.start + ((p.maxLags - 1 : Nat) : Int) := by
      intro r' hr'
      simp only [List.mem_flatMap, List.mem_map] at hr'
      obtain ⟨i, _, h, _, rfl⟩ := hr'
      rfl
    rw [decide_eq_true_eq]
    intro r' hr'
    rw [horig r hr, horig r' hr']

/-- The prediction window of a series with last valid row `l`. -/
theorem own_window (p : MlParams) (hl : 1 ≤ p.maxLags) (s : MlSeries) (l : Nat)
    (hv : mlLastValid p.targets s = some l) :
    ∃ w, mlOwnWindow p s = .ok w ∧ w = mlWindow p (s.start + (l : Int)) (s.start + s.len - 1) s.at ∧
      mlCut p.targets w = p.maxLags ∧ w.start = s.start + (l : Int) - ((p.maxLags : Int) - 1) ∧
      (w.len : Int) = (s.len : Int) - 1 - (l : Int) + p.maxLags := by
  obtain ⟨h1, h2, h3⟩ := ((lastValid_spec _ _).1 _).1 hv
  refine ⟨mlWindow p (s.start + (l : Int)) (s.start + s.len - 1) s.at, ?_, rfl, ?_, rfl, ?_⟩
  · unfold mlOwnWindow
    rw [hv]
    show Except.ok (mlWindow p _ (max _ _) _) = _
    rw [max_eq_right (by omega)]
  · refine (window_cut p hl _ _ (by omega) _ ?_ ?_).2
    · obtain ⟨c, hc, hne⟩ := h2
      refine ⟨c, hc, ?_⟩
      unfold MlSeries.at
      rw [if_pos (by omega), show (s.start + (l : Int) - s.start).toNat = l by omega]
      exact hne
    · intro t ht c hc
      unfold MlSeries.at
      split
      · exact h3 _ (by omega) (by omega) c hc
      · rfl
  · show (((s.start + (s.len : Int) - 1 - (s.start + (l : Int) - ((p.maxLags : Int) - 1)) + 1).toNat
      : Nat) : Int) = _
    omega

theorem own_lags (p : MlParams) (s : MlSeries) (l : Nat) (hls : l < s.len) (hl : p.maxLags ≤ l + 1)
    (c : String) (w : Nat) (hw : w ≤ p.maxLags) :
    spLags (mlWindow p (s.start + (l : Int)) (s.start + s.len - 1) s.at) c (p.maxLags - 1) w =
      spLags s c l w := by
  unfold spLags
  apply List.map_congr_left
  intro k hk
  rw [List.mem_range] at hk
  show s.at c (s.start + (l : Int) - ((p.maxLags : Int) - 1) + ((p.maxLags - 1 + 1 - w + k : Nat) : Int)) = _
  unfold MlSeries.at
  rw [if_pos (by omega)]
  congr 1
  omega

theorem own_past {Mdl : Type} (W : MlWorld Mdl) (p : MlParams) (op : MlOp) (hp : p.WF) (s : MlSeries)
    (l : Nat) (hls : l < s.len) (hl : p.maxLags ≤ l + 1) (i : Nat) (c : String) :
    spPastX W p op (mlWindow p (s.start + (l : Int)) (s.start + s.len - 1) s.at) i c (p.maxLags - 1) =
      spPastX W p op s i c l ∧
    spWin p (mlWindow p (s.start + (l : Int)) (s.start + s.len - 1) s.at) c (p.maxLags - 1) =
      spWin p s c l := by
  have hlag := own_lags p s l hls hl c p.inputWindow hp.lagsLe
  have hwin : spWin p (mlWindow p (s.start + (l : Int)) (s.start + s.len - 1) s.at) c
      (p.maxLags - 1) = spWin p s c l := by
    unfold spWin
    rw [hlag]
  refine ⟨?_, hwin⟩
  have hin : spIn W p op (mlWindow p (s.start + (l : Int)) (s.start + s.len - 1) s.at) c
      (p.maxLags - 1) = spIn W p op s c l := by
    unfold spIn
    rw [hwin, hlag]
  unfold spPastX
  rw [hin]
  congr 2
  apply List.flatMap_congr
  intro kc hk
  rw [own_lags p s l hls hl kc.1 kc.2 (hp.histLe kc hk)]

theorem own_fut {Mdl : Type} (W : MlWorld Mdl) (p : MlParams) (op : MlOp) (s : MlSeries)
    (l : Nat) (hls : l < s.len) (hl : p.maxLags ≤ l + 1) (kc : String × Nat) (h : Nat)
    (hL : 1 ≤ p.maxLags) (hc : kc.2 ≤ p.maxLags + h) :
    spFut W p op (mlWindow p (s.start + (l : Int)) (s.start + s.len - 1) s.at) kc
        (s.start + (l : Int) + (h : Int)) =
      spFut W p op s kc (s.start + (l : Int) + (h : Int)) := by
  have hst : (mlWindow p (s.start + (l : Int)) (s.start + s.len - 1) s.at).start =
      s.start + (l : Int) - ((p.maxLags : Int) - 1) := rfl
  have hle : ((mlWindow p (s.start + (l : Int)) (s.start + s.len - 1) s.at).len : Int) =
      (s.len : Int) - 1 - (l : Int) + p.maxLags := by
    show (((s.start + (s.len : Int) - 1 - (s.start + (l : Int) - ((p.maxLags : Int) - 1)) + 1).toNat
      : Nat) : Int) = _
    omega
  unfold spFut
  rw [hst, hle]
  by_cases hin : s.start + (l : Int) + (h : Int) < s.start + s.len
  · rw [if_pos (by omega), if_pos (by omega)]
    congr 1
    apply List.map_congr_left
    intro k hk
    rcases le_or_gt (s.start + (l : Int) + (h : Int) - ((kc.2 : Int) - 1) + (k : Int))
      (s.start + s.len - 1) with hk2 | hk2
    · exact window_at p _ _ _ _ _ (by omega) hk2
    · rw [at_out _ _ _ (by rw [hst, hle]; omega), at_out _ _ _ (by omega)]
  · rw [if_neg (by omega), if_neg (by omega)]

/-- C132: without new data, the model forecasts, for every series, target and horizon `h`, the time
`h` steps after the last valid row, from the same features as the training rows have (lags,
statistics, history and future covariates at that origin), and denormalizes the prediction.  Missing:
future windows longer than the number of lags plus the horizon (see `C132_future_violated`), and
which calendar features are there (`C132_predict_calendar`). -/
theorem C132_predict_partial {Mdl : Type} (W : MlWorld Mdl) (p : MlParams) (op : MlOp) (m : Mdl)
    (target : String) (ss : List MlSeries) (hp : p.WF) (hop : mlOp p = .ok op) (hss : ss ≠ [])
    (last : MlSeries → Nat) (hlast : ∀ s ∈ ss, mlLastValid p.targets s = some (last s))
    (hlen : ∀ s ∈ ss, p.maxLags ≤ last s + 1)
    (hfut : ∀ kc ∈ p.fut, kc.2 ≤ p.maxLags + 1) (fuel : Nat) :
    ∃ stamps, mlPredict W p m target ss none none fuel = .ok (some (ss.map fun s =>
      (List.range p.targets.length).flatMap fun i => p.horizon.map fun h : Nat =>
        (s.start + (last s : Int) + (h : Int), p.targets.getD i "",
          spDenorm p op (spN W p (spWin p s (p.targets.getD i "") (last s)))
            (spN2 W p (spWin p s (p.targets.getD i "") (last s)))
            (W.predict m (spRow W p op stamps s i h (last s)).x)))) := by
  have hL : 1 ≤ p.maxLags := le_trans hp.lags hp.lagsLe
  have hlt : ∀ s ∈ ss, last s < s.len := fun s hs => (((lastValid_spec _ _).1 _).1 (hlast s hs)).1
  unfold mlPredict
  have hws : ss.mapM (mlOwnWindow p) = .ok (ss.map fun s =>
      mlWindow p (s.start + (last s : Int)) (s.start + s.len - 1) s.at) := by
    apply mapM_eq_map
    intro s hs
    obtain ⟨w, h1, h2, _⟩ := own_window p hL s (last s) (hlast s hs)
    rw [h1, h2]
  simp only []
  rw [hws, nf_ok_bind, once_eq W p op m _ hp hop (by simpa using hss)]
  · rw [nf_ok_bind]
    refine ⟨mlStamps p (ss.map fun s =>
      mlWindow p (s.start + (last s : Int)) (s.start + s.len - 1) s.at), ?_⟩
    show Except.ok _ = Except.ok _
    congr 2
    rw [List.map_map]
    apply List.map_congr_left
    intro s hs
    apply List.flatMap_congr
    intro i _
    apply List.map_congr_left
    intro h hh
    have hst : (mlWindow p (s.start + (last s : Int)) (s.start + s.len - 1) s.at).start +
        ((p.maxLags - 1 : Nat) : Int) = s.start + (last s : Int) := by
      show s.start + (last s : Int) - ((p.maxLags : Int) - 1) + ((p.maxLags - 1 : Nat) : Int) = _
      omega
    obtain ⟨hx, hwin⟩ := own_past W p op hp s (last s) (hlt s hs) (hlen s hs) i (p.targets.getD i "")
    unfold spFc spRow
    simp only [hst, hx, hwin]
    have hf : (p.fut.flatMap fun kc => spFut W p op
        (mlWindow p (s.start + (last s : Int)) (s.start + s.len - 1) s.at) kc
          (s.start + (last s : Int) + (h : Int))) =
        p.fut.flatMap fun kc => spFut W p op s kc (s.start + (last s : Int) + (h : Int)) := by
      apply List.flatMap_congr
      intro kc hk
      have := hfut kc hk
      have := (hp.hor h hh).1
      exact own_fut W p op s (last s) (hlt s hs) (hlen s hs) kc h hL (by omega)
    rw [hf]
  · intro w hw
    obtain ⟨s, hs, rfl⟩ := List.mem_map.1 hw
    obtain ⟨w, _, h2, h3, _⟩ := own_window p hL s (last s) (hlast s hs)
    rw [← h2]
    exact h3
  · intro w hw kc hk
    obtain ⟨s, hs, rfl⟩ := List.mem_map.1 hw
    obtain ⟨w, _, h2, _, _, h5⟩ := own_window p hL s (last s) (hlast s hs)
    rw [← h2]
    have := hfut kc hk
    have := hlt s hs
    omega

/-- The forecasts for the two steps after five values, with a future covariate. -/
example : ∃ fc, mlPredict mlExW (mlExP [1, 2] 2 [("z", 2)]) () "y" [mlExS 5 3] none none 0 =
    .ok (some [fc]) ∧ fc.map (·.1) = [15, 16] := by
  obtain ⟨stamps, h⟩ := C132_predict_partial mlExW (mlExP [1, 2] 2 [("z", 2)]) .div () "y" [mlExS 5 3]
    (ex_wf _ _ _ (by simp) (by simp)) (ex_op _ _ _) (by simp) (fun _ => 4)
    (by intro s hs; rw [List.mem_singleton] at hs; subst hs; exact ex_last _ _ _ 5 3 (by omega))
    (fun _ _ => show 2 ≤ 5 by omega)
    (by
      intro kc hk
      have hk : kc = ("z", 2) := List.mem_singleton.1 hk
      subst hk
      show 2 ≤ 3
      omega) 0
  exact ⟨_, h, rfl⟩

/-- C132, refuted for long future windows: if the window of a future covariate is longer than the
number of lags plus the horizon, the prediction window is too short for it and all its features are
NaN, although the data are there and a training row with the same origin and target time has their
values. -/
theorem C132_future_violated {Mdl : Type} (W : MlWorld Mdl) (p : MlParams) (op : MlOp) (s : MlSeries)
    (l h : Nat) (hls : l + h < s.len) (kc : String × Nat) (hc : p.maxLags + h < kc.2)
    (hc2 : kc.2 ≤ l + h + 1) (hfn : p.futNorm = false) :
    spFut W p op (mlWindow p (s.start + (l : Int)) (s.start + s.len - 1) s.at) kc
        (s.start + (l : Int) + (h : Int)) = List.replicate (2 * kc.2) .nan ∧
      spFut W p op s kc (s.start + (l : Int) + (h : Int)) = (List.range (2 * kc.2)).map fun k : Nat =>
        s.at kc.1 (s.start + (l : Int) + (h : Int) - ((kc.2 : Int) - 1) + (k : Int)) := by
  have hst : (mlWindow p (s.start + (l : Int)) (s.start + s.len - 1) s.at).start =
      s.start + (l : Int) - ((p.maxLags : Int) - 1) := rfl
  unfold spFut
  rw [hst, if_neg (by omega), if_pos (by omega)]
  refine ⟨rfl, ?_⟩
  unfold spSelf
  rw [hfn]
  rfl

/-- A window of 5 for the covariate, two lags and horizon 1: 10 missing features. -/
example : spFut mlExW (mlExP [1, 2, 3, 4, 5] 5 [("z", 5)]) .div
    (mlWindow (mlExP [1, 2, 3, 4, 5] 5 [("z", 5)]) (10 + ((7 : Nat) : Int))
      (10 + ((11 : Nat) : Int) - 1) (mlExS 8 3).at) ("z", 5) (10 + ((7 : Nat) : Int) + ((1 : Nat) : Int)) =
    List.replicate 10 .nan :=
  (C132_future_violated mlExW (mlExP [1, 2, 3, 4, 5] 5 [("z", 5)]) .div (mlExS 8 3) 7 1
    (show 8 < 11 by omega) ("z", 5) (show 3 < 5 by omega) (show 5 ≤ 9 by omega) rfl).1

/-- C132: when the calendar features of a forecast are there.  The target time of the horizon `h` is
among the collected time stamps of the prediction window exactly if it is within the data or some
horizon after their end: always for the horizons 1, 2, ..., always if nothing follows the last valid
row, but not otherwise. -/
theorem C132_predict_calendar (p : MlParams) (hL : 1 ≤ p.maxLags) (s : MlSeries) (l h : Nat)
    (hv : mlLastValid p.targets s = some l) :
    (s.start + (l : Int) + (h : Int) ∈
        mlStamps p [mlWindow p (s.start + (l : Int)) (s.start + s.len - 1) s.at] ↔
      l + h < s.len ∨ ∃ h' ∈ p.horizon, l + h + 1 = s.len + h') ∧
    (h ∈ p.horizon → l + 1 = s.len → s.start + (l : Int) + (h : Int) ∈
        mlStamps p [mlWindow p (s.start + (l : Int)) (s.start + s.len - 1) s.at]) ∧
    ((∀ h' : Nat, h' ∈ p.horizon ↔ 1 ≤ h' ∧ h' ≤ p.maxHorizon) → h ∈ p.horizon →
      s.start + (l : Int) + (h : Int) ∈
        mlStamps p [mlWindow p (s.start + (l : Int)) (s.start + s.len - 1) s.at]) := by
  have hlt := (((lastValid_spec _ _).1 _).1 hv).1
  have hst : (mlWindow p (s.start + (l : Int)) (s.start + s.len - 1) s.at).start =
      s.start + (l : Int) - ((p.maxLags : Int) - 1) := rfl
  have hle : ((mlWindow p (s.start + (l : Int)) (s.start + s.len - 1) s.at).len : Int) =
      (s.len : Int) - 1 - (l : Int) + p.maxLags := by
    show (((s.start + (s.len : Int) - 1 - (s.start + (l : Int) - ((p.maxLags : Int) - 1)) + 1).toNat
      : Nat) : Int) = _
    omega
  have hiff : s.start + (l : Int) + (h : Int) ∈
        mlStamps p [mlWindow p (s.start + (l : Int)) (s.start + s.len - 1) s.at] ↔
      l + h < s.len ∨ ∃ h' ∈ p.horizon, l + h + 1 = s.len + h' := by
    rw [mem_stamps]
    simp only [List.mem_singleton, exists_eq_left, hst, hle]
    constructor
    · rintro (h1 | ⟨h', hh', he⟩)
      · exact Or.inl (by omega)
      · exact Or.inr ⟨h', hh', by omega⟩
    · rintro (h1 | ⟨h', hh', he⟩)
      · exact Or.inl (by omega)
      · exact Or.inr ⟨h', hh', by omega⟩
  refine ⟨hiff, fun hh he => ?_, fun hall hh => ?_⟩
  · exact hiff.2 (Or.inr ⟨h, hh, by omega⟩)
  · rw [hiff]
    have := (hall h).1 hh
    by_cases hin : l + h < s.len
    · exact Or.inl hin
    · exact Or.inr ⟨l + h + 1 - s.len, (hall _).2 (by omega), by omega⟩

/-- Horizon 5 only, with two known rows after the origin: no calendar features. -/
example : (10 : Int) + ((4 : Nat) : Int) + ((5 : Nat) : Int) ∉ mlStamps (mlExP [5] 5 [])
    [mlWindow (mlExP [5] 5 []) (10 + ((4 : Nat) : Int)) (10 + ((7 : Nat) : Int) - 1) (mlExS 5 2).at] := by
  intro h
  have := ((C132_predict_calendar (mlExP [5] 5 []) (show 1 ≤ 2 by omega) (mlExS 5 2) 4 5
    (ex_last _ _ _ 5 2 (by omega))).1).1 h
  rcases this with h | ⟨h', hh, he⟩
  · have : 4 + 5 < 7 := h
    omega
  · have hh : h' = 5 := List.mem_singleton.1 hh
    have he : 4 + 5 + 1 = 7 + h' := he
    omega

/-! ## New data -/

/-- C132: with new data, the window that is predicted from ends its targets at the last valid row of
the new data (or the row before the new data): up to there it holds the new values where they are
values and the old ones elsewhere, and no target value after it. -/
theorem C132_new_data (p : MlParams) (s d : MlSeries) (o : Int)
    (ho : (∃ i, mlLastValid p.targets d = some i ∧ o = d.start + (i : Int)) ∨
      (mlLastValid p.targets d = none ∧ o = d.start - 1)) :
    (mlNewWindow p s d).start = o - ((p.maxLags : Int) - 1) ∧
    ∀ c t, o - ((p.maxLags : Int) - 1) ≤ t → t ≤ o ∨ t < d.start + d.len →
      (o < t → c ∈ p.targets → (mlNewWindow p s d).at c t = .nan) ∧
      (t ≤ o ∨ c ∉ p.targets → (mlNewWindow p s d).at c t =
        if d.at c t = .nan then s.at c t else d.at c t) := by
  have hnan : ∀ t, o < t → ∀ c ∈ p.targets, d.at c t = .nan := by
    intro t ht c hc
    unfold MlSeries.at
    split
    · rename_i hin
      rcases ho with ⟨i, hi, rfl⟩ | ⟨hi, rfl⟩
      · exact (((lastValid_spec _ _).1 _).1 hi).2.2 _ (by omega) (by omega) c hc
      · exact ((lastValid_spec _ _).2.1 hi) _ (by omega) c hc
    · rfl
  have hw : mlNewWindow p s d = mlWindow p o (max o (d.start + (d.len : Int) - 1)) fun c t =>
      if d.at c t ≠ .nan then d.at c t
      else if o < t ∧ c ∈ p.targets then .nan
      else s.at c t := by
    unfold mlNewWindow
    rcases ho with ⟨i, hi, rfl⟩ | ⟨hi, rfl⟩
    · rw [hi]
    · rw [hi]
  rw [hw]
  refine ⟨rfl, fun c t h1 h2 => ?_⟩
  have h3 : t ≤ max o (d.start + (d.len : Int) - 1) := by
    rcases h2 with h2 | h2
    · exact le_trans h2 (le_max_left _ _)
    · exact le_trans (by omega) (le_max_right _ _)
  rw [window_at _ _ _ _ _ _ h1 h3]
  constructor
  · intro hlt hc
    rw [if_neg (not_not.2 (hnan t hlt c hc)), if_pos ⟨hlt, hc⟩]
  · intro hor
    by_cases hd : d.at c t = .nan
    · rw [if_neg (not_not.2 hd), if_neg, if_pos hd]
      rintro ⟨g1, g2⟩
      rcases hor with g | g
      · omega
      · exact g g2
    · rw [if_pos hd, if_neg hd]

/-- New data with the values 1, 2, 3 from position 10 on, over an old series of five values: the
window ends at position 12 and the fourth old value is not used. -/
example : (mlNewWindow (mlExP [1] 1 []) (mlExS 5 0) (mlExS 3 1)).at "y" 13 = .nan :=
  ((C132_new_data (mlExP [1] 1 []) (mlExS 5 0) (mlExS 3 1) 12
    (Or.inl ⟨2, ex_last _ _ _ 3 1 (by omega), rfl⟩)).2 "y" 13
      (show (12 : Int) - (2 - 1) ≤ 13 by omega) (Or.inr (show (13 : Int) < 10 + 4 by omega))).1
    (by omega) (List.mem_singleton.2 rfl)

end

end Kats

import Verif.Props.GmS2sScale

/-!
# C139, C140: the inputs of the networks

The row that the encoder gets, position by position; and logarithms are only taken of positive numbers.
-/

namespace Kats

variable {K : Type} [Field K] [LinearOrder K] [IsStrictOrderedRing K] {σ τ : Type}

theorem s2s_window_pos (E : GmS2sEnv K σ τ) (q : Nat) (hE : GmS2sNetOk E q) (x : List (List (Option K)))
    (hx : ∀ r ∈ x, GmRowPos r) (st : GmS2sLoop K σ) (hst : GmS2sLoopOk E x st) (cur : Nat)
    (hpc : st.prev ≤ cur) (hc : ∀ r ∈ x, cur ≤ r.length) (hic : E.iw ≤ cur) :
    ∃ ps, (List.range x.length).mapM (gmS2sRow E x st cur) = .ok ps ∧ ps.length = x.length ∧
      ∀ (i : Nat) p, ps[i]? = some p → GmFilled E.period cur (x.getD i []) p.1 ∧ 0 < p.2.2 ∧ p.2.1.length = E.iw ∧
        gmMedian (p.1.drop (cur - min E.iw E.period)) = .ok p.2.2 ∧
        (∀ k, k < E.iw → ∃ a, p.1[cur - E.iw + k]? = some a ∧ p.2.1[k]? = some (a / p.2.2)) ∧ ∀ v ∈ p.2.1, 0 < v := by
  obtain ⟨ps, h1, h2, h3⟩ := s2s_rows E q hE x hx st hst cur hpc hc hic
  refine ⟨ps, h1, h2, fun i p hp => ?_⟩
  obtain ⟨⟨xs, hxs, hpr⟩, g1, g2, g3⟩ := h3 i p hp
  have hi : i < x.length := by
    rw [← h2]
    exact (List.getElem?_eq_some_iff.1 hp).1
  have hm : x.getD i [] ∈ x := gm_getD_mem x i hi []
  obtain ⟨xs', a, e, f1, f2, f3, f4⟩ := C140_process E.period E.iw hE.period hE.iw (x.getD i []) (hx _ hm) st.prev cur
    hpc hic (hc _ hm) xs (hst.rows i xs hxs)
  rw [e] at hpr
  injection hpr with hpr
  subst hpr
  refine ⟨g1, g2, g3, f4, ?_, ?_⟩
  · intro k hk
    have hk' : cur - E.iw + k < xs'.length := by
      have := f1.len
      omega
    refine ⟨xs'[cur - E.iw + k], List.getElem?_eq_getElem hk', ?_⟩
    show ((xs'.drop (cur - E.iw)).map (· / a))[k]? = _
    rw [List.getElem?_map, List.getElem?_drop, List.getElem?_eq_getElem hk']
    rfl
  · intro v hv
    obtain ⟨w, hw, rfl⟩ := List.mem_map.1 hv
    exact div_pos (f1.pos w (List.mem_of_mem_drop hw)) f3

/-- The features that the encoder gets for the row `i`. -/
def gmEncFeat (E : GmS2sEnv K σ τ) (cur i : Nat) : List K :=
  match E.features with
  | some f => (f (cur - E.iw) cur).getD i []
  | none => []

/-- C140: the row that the encoder gets: the logarithms of the last filled values over their median, the features,
half the logarithm of the number of values since the last step and the logarithm of the number of the step, from
one on; every logarithm is of a positive number. -/
theorem C140_inputs (E : GmS2sEnv K σ τ) (q : Nat) (hE : GmS2sNetOk E q) (x : List (List (Option K)))
    (hx : ∀ r ∈ x, GmRowPos r) (st : GmS2sLoop K σ) (hst : GmS2sLoopOk E x st) (step cur n : Nat)
    (hpc : st.prev < cur) (hc : ∀ r ∈ x, cur ≤ r.length) (hic : E.iw ≤ cur) :
    (0 : K) < (cur : K) - (st.prev : K) ∧ ∃ r inp, gmS2sTurn E x st step cur n = .ok r ∧
      r.1.enc = (E.enc st.enc inp).1 ∧ inp.length = x.length ∧
      ∀ (i : Nat) row, inp[i]? = some row → ∃ xs a, r.1.rows[i]? = some xs ∧
        GmFilled E.period cur (x.getD i []) xs ∧ gmMedian (xs.drop (cur - min E.iw E.period)) = .ok a ∧ 0 < a ∧
        (∀ k, k < E.iw → ∃ v, xs[cur - E.iw + k]? = some v ∧ 0 < v / a ∧ row[k]? = some (E.log (v / a))) ∧
        (∀ k, k < (gmEncFeat E cur i).length → row[E.iw + k]? = (gmEncFeat E cur i)[k]?) ∧
        row.drop (E.iw + (gmEncFeat E cur i).length) = [E.log ((cur - st.prev : Nat) : K) / 2, E.log ((step + 1 : Nat) : K)] := by
  obtain ⟨ps, h1, h2, h3⟩ := s2s_window_pos E q hE x hx st hst cur hpc.le hc hic
  have hcast : ((cur - st.prev : Nat) : K) = (cur : K) - (st.prev : K) := Nat.cast_sub hpc.le
  refine ⟨by rw [sub_pos]; exact_mod_cast hpc, ?_⟩
  refine ⟨(⟨ps.map (·.1), (E.enc st.enc (ps.mapIdx fun i p => gmEncIn E step st.prev cur i p.2.1)).1, cur⟩,
      gmDecode E (E.enc st.enc (ps.mapIdx fun i p => gmEncIn E step st.prev cur i p.2.1)).2 (ps.map (·.2.2)) cur n 0
        (E.prep (E.enc st.enc (ps.mapIdx fun i p => gmEncIn E step st.prev cur i p.2.1)).1)),
    ps.mapIdx fun i p => gmEncIn E step st.prev cur i p.2.1, ?_, rfl, by simp [h2], ?_⟩
  · unfold gmS2sTurn
    rw [h1]
    rfl
  · intro i row hrow
    rw [List.getElem?_mapIdx] at hrow
    rcases hp : ps[i]? with _ | p
    · rw [hp] at hrow; cases hrow
    · rw [hp] at hrow
      injection hrow with hrow
      obtain ⟨g1, g2, g3, g4, g5, g6⟩ := h3 i p hp
      have hrow' : row = p.2.1.map E.log ++ (gmEncFeat E cur i ++
          [E.log ((cur - st.prev : Nat) : K) / 2, E.log ((step + 1 : Nat) : K)]) := by
        rw [← hrow, hcast, Nat.cast_add, Nat.cast_one, ← List.append_assoc]
        rfl
      have hlen : (p.2.1.map E.log).length = E.iw := by rw [List.length_map, g3]
      refine ⟨p.1, p.2.2, ?_, g1, g4, g2, ?_, ?_, ?_⟩
      · show (ps.map (·.1))[i]? = _
        rw [List.getElem?_map, hp]
        rfl
      · intro k hk
        obtain ⟨v, e1, e2⟩ := g5 k hk
        refine ⟨v, e1, g6 _ (List.mem_of_getElem? e2), ?_⟩
        rw [hrow', List.getElem?_append_left (by omega), List.getElem?_map, e2]
        rfl
      · intro k hk
        rw [hrow', List.getElem?_append_right (by omega), hlen, Nat.add_sub_cancel_left, List.getElem?_append_left hk]
      · rw [hrow', ← List.append_assoc, List.drop_left' (by rw [List.length_append, hlen])]

theorem decode_log (E : GmS2sEnv K σ τ) (g : K → K) (hg : ∀ v, 0 < v → E.log v = g v) (code : List (List K))
    (anchors : List K) (ha : ∀ a ∈ anchors, 0 < a) (cur : Nat) : ∀ (n k : Nat) (s : τ),
    gmDecode E code anchors cur n k s = gmDecode { E with log := g } code anchors cur n k s := by
  intro n
  induction n with
  | zero => intro k s; rfl
  | succ n ih =>
    intro k s
    have e1 : (code.mapIdx fun i c => gmDecIn E k (cur + k * E.fw) i c) =
        code.mapIdx fun i c => gmDecIn { E with log := g } k (cur + k * E.fw) i c := by
      congr 1
      funext i c
      unfold gmDecIn
      rw [hg _ (by positivity)]
    have e2 : ∀ out : List (List K), List.zipWith (fun o a => o.map (· + E.log a)) out anchors =
        List.zipWith (fun o a => o.map (· + g a)) out anchors := by
      intro out
      apply List.ext_getElem?
      intro j
      rw [List.getElem?_zipWith, List.getElem?_zipWith]
      rcases out[j]? with _ | o
      · rfl
      · rcases h : anchors[j]? with _ | a
        · rfl
        · show some _ = some _
          rw [hg a (ha a (List.mem_of_getElem? h))]
    show (_, _) :: gmDecode E _ _ _ _ _ _ = (_, _) :: gmDecode _ _ _ _ _ _ _
    rw [ih, e1, e2]

/-- C140: what a turn does depends on the logarithms of positive numbers only. -/
theorem C140_log (E : GmS2sEnv K σ τ) (g : K → K) (hg : ∀ v, 0 < v → E.log v = g v) (q : Nat) (hE : GmS2sNetOk E q)
    (x : List (List (Option K))) (hx : ∀ r ∈ x, GmRowPos r) (st : GmS2sLoop K σ) (hst : GmS2sLoopOk E x st)
    (step cur n : Nat) (hpc : st.prev < cur) (hc : ∀ r ∈ x, cur ≤ r.length) (hic : E.iw ≤ cur) :
    gmS2sTurn E x st step cur n = gmS2sTurn { E with log := g } x st step cur n := by
  obtain ⟨ps, h1, h2, h3⟩ := s2s_window_pos E q hE x hx st hst cur hpc.le hc hic
  have h1' : (List.range x.length).mapM (gmS2sRow { E with log := g } x st cur) = .ok ps := h1
  have e1 : (ps.mapIdx fun i p => gmEncIn E step st.prev cur i p.2.1) =
      ps.mapIdx fun i p => gmEncIn { E with log := g } step st.prev cur i p.2.1 := by
    apply List.ext_getElem?
    intro i
    rw [List.getElem?_mapIdx, List.getElem?_mapIdx]
    rcases hp : ps[i]? with _ | p
    · rfl
    · show some (gmEncIn E step st.prev cur i p.2.1) = some (gmEncIn { E with log := g } step st.prev cur i p.2.1)
      unfold gmEncIn
      rw [hg _ (by rw [sub_pos]; exact_mod_cast hpc), hg _ (by positivity),
        List.map_congr_left fun v hv => hg v ((h3 i p hp).2.2.2.2.2 v hv)]
  unfold gmS2sTurn
  rw [h1, h1']
  show Except.ok (_, gmDecode E _ _ _ _ _ _) = Except.ok (_, gmDecode _ _ _ _ _ _ _)
  rw [e1, decode_log E g hg _ _ (by
    intro a ha
    obtain ⟨p, hp, rfl⟩ := List.mem_map.1 ha
    obtain ⟨i, hi⟩ := List.getElem?_of_mem hp
    exact (h3 i p hi).2.1)]

/-- C139: the values and the seasonality that a network gets, and the level, are positive. -/
theorem view_pos (E : GmEnv K σ) (hE : GmNetOk E) (t : GmTrack K) (cur : Nat) (hic : E.iw ≤ cur)
    (hl : TrackLen E.period cur t) (hp : TrackPos t) (v : GmView K)
    (hv : gmView E.period E.iw E.fw t cur = .ok v) :
    (∀ a ∈ v.x, 0 < a) ∧ 0 < v.anchor ∧ ∀ a ∈ v.fcst, 1 < E.period → 0 < a := by
  have hpos := hE.period
  by_cases h1 : 1 < E.period
  · obtain ⟨w, l, e, el, ea, ex, _, _, ef, kx, _, kf⟩ := C139_view_partial E.period E.iw E.fw cur h1 (hE.long h1) hic t hl
    rw [e] at hv
    injection hv with hv
    subst hv
    have hl0 : 0 < l := hp.levels _ (List.mem_of_getElem? el)
    refine ⟨?_, by rw [ea]; exact hl0, ?_⟩
    · intro a ha
      obtain ⟨k, hk⟩ := List.getElem?_of_mem ha
      have hk' : k < E.iw := by rw [← ex]; exact (List.getElem?_eq_some_iff.1 hk).1
      obtain ⟨b, s, eb, es, e2⟩ := kx k hk'
      rw [e2] at hk
      injection hk with hk
      rw [← hk]
      exact div_pos (div_pos (hp.xs _ (List.mem_of_getElem? eb)) hl0) (hp.seasons _ (List.mem_of_getElem? es))
    · intro a ha _
      obtain ⟨k, hk⟩ := List.getElem?_of_mem ha
      have hk' : k < E.fw := by rw [← ef]; exact (List.getElem?_eq_some_iff.1 hk).1
      rw [kf k hk'] at hk
      exact hp.seasons _ (List.mem_of_getElem? hk)
  · have h2 : E.period = 1 := by omega
    rw [h2] at hl hv
    obtain ⟨w, l, e, el, ea, ex, kx⟩ := C139_view_level E.iw E.fw cur hE.iw hic t hl
    rw [e] at hv
    injection hv with hv
    subst hv
    have hl0 : 0 < l := hp.levels _ (List.mem_of_getElem? el)
    refine ⟨?_, by rw [ea]; exact hl0, fun a _ h => absurd h h1⟩
    intro a ha
    obtain ⟨k, hk⟩ := List.getElem?_of_mem ha
    have hk' : k < E.iw := by rw [← ex]; exact (List.getElem?_eq_some_iff.1 hk).1
    obtain ⟨b, eb, e2⟩ := kx k hk'
    rw [e2] at hk
    injection hk with hk
    rw [← hk]
    exact div_pos (hp.xs _ (List.mem_of_getElem? eb)) hl0

theorem turn_view_pos (E : GmEnv K σ) (hE : GmNetOk E) (x : List (List (Option K)))
    (hx : ∀ r ∈ x, GmRowPos r) (st : GmLoop K σ) (hst : GmLoopOk E x.length st) (cur : Nat)
    (hpc : st.prev < cur) (hc : ∀ r ∈ x, cur ≤ r.length) (hic : E.iw ≤ cur) :
    ∃ ps : List (GmTrack K × GmView K), (List.range x.length).mapM (gmRowProc E x st cur) = .ok ps ∧
      ps.length = x.length ∧ ∀ (i : Nat) p, ps[i]? = some p → TrackLen E.period cur p.1 ∧ TrackPos p.1 ∧
        gmView E.period E.iw E.fw p.1 cur = .ok p.2 ∧
        (∀ a ∈ p.2.x, 0 < a) ∧ 0 < p.2.anchor ∧ ∀ a ∈ p.2.fcst, 1 < E.period → 0 < a := by
  obtain ⟨ps, h1, h2, h3⟩ := turn_rows E hE x hx st hst cur hpc hc hic
  refine ⟨ps, h1, h2, fun i p hp => ?_⟩
  obtain ⟨⟨t, _, e⟩, g1, g2, _, _⟩ := h3 i p hp
  unfold gmProcess at e
  obtain ⟨t1, _, e⟩ := (gm_bind_ok _ _ _).1 e
  obtain ⟨v, ev, e⟩ := (gm_bind_ok _ _ _).1 e
  injection e with e
  subst e
  exact ⟨g1, g2, ev, view_pos E hE t1 cur hic g1 g2 v ev⟩

/-- C139: what a turn does depends on the logarithms of positive numbers only. -/
theorem C139_log (E : GmEnv K σ) (g : K → K) (hg : ∀ v, 0 < v → E.log v = g v) (hE : GmNetOk E)
    (x : List (List (Option K))) (hx : ∀ r ∈ x, GmRowPos r) (st : GmLoop K σ) (hst : GmLoopOk E x.length st)
    (step cur : Nat) (hpc : st.prev < cur) (hc : ∀ r ∈ x, cur ≤ r.length) (hic : E.iw ≤ cur) :
    gmTurn E x st step cur = gmTurn { E with log := g } x st step cur := by
  obtain ⟨ps, h1, h2, h3⟩ := turn_view_pos E hE x hx st hst cur hpc hc hic
  have h1' : (List.range x.length).mapM (gmRowProc { E with log := g } x st cur) = .ok ps := h1
  have e1 : (ps.mapIdx fun i p => gmInput E step st.prev cur i p.2) =
      ps.mapIdx fun i p => gmInput { E with log := g } step st.prev cur i p.2 := by
    apply List.ext_getElem?
    intro i
    rw [List.getElem?_mapIdx, List.getElem?_mapIdx]
    rcases hp : ps[i]? with _ | p
    · rfl
    · show some (gmInput E step st.prev cur i p.2) = some (gmInput { E with log := g } step st.prev cur i p.2)
      unfold gmInput
      rw [hg _ (by rw [sub_pos]; exact_mod_cast hpc), hg _ (by positivity),
        List.map_congr_left fun v hv => hg v ((h3 i p hp).2.2.2.1 v hv)]
  have e2 : ∀ out : List (List K), gmRowFcst E out ps = gmRowFcst { E with log := g } out ps := by
    intro out
    funext i
    unfold gmRowFcst
    rcases out[i]? with _ | o
    · rfl
    · rcases hp : ps[i]? with _ | p
      · rfl
      · show gmLogFcst _ _ _ = gmLogFcst _ _ _
        obtain ⟨_, _, _, _, ha, hf⟩ := h3 i p hp
        unfold gmLogFcst gmCol
        simp only []
        rw [hg _ ha]
        by_cases h : 1 < E.period
        · rw [List.map_congr_left fun v hv => hg v (hf v hv h)]
        · rw [if_neg h, if_neg h]
          simp only [if_neg h]
  unfold gmTurn
  rw [h1, h1']
  show ((List.range x.length).mapM (gmRowFcst E _ _) >>= fun f => _) =
    ((List.range x.length).mapM (gmRowFcst _ _ _) >>= fun f => _)
  rw [e1, e2]

/-- The features that the network gets for the row `i`. -/
def gmNetFeat (E : GmEnv K σ) (cur i : Nat) : List K :=
  match E.features with
  | some f => (f (cur - E.iw) cur).getD i []
  | none => []

/-- C139: the row that the network gets: the logarithms of the last values over their level and seasonality, the
features, half the logarithm of the number of values since the last step, the logarithm of the number of the step,
from one on, and, with a period, the next period of the seasonality less one and what it gains on the last. -/
theorem C139_inputs (E : GmEnv K σ) (hE : GmNetOk E) (h1p : 1 < E.period) (x : List (List (Option K)))
    (hx : ∀ r ∈ x, GmRowPos r) (st : GmLoop K σ) (hst : GmLoopOk E x.length st) (step cur : Nat)
    (hpc : st.prev < cur) (hc : ∀ r ∈ x, cur ≤ r.length) (hic : E.iw ≤ cur) (r : GmLoop K σ × List (List K))
    (hr : gmTurn E x st step cur = .ok r) :
    ∃ inp, r.1.net = (E.net st.net inp).1 ∧ inp.length = x.length ∧
      ∀ (i : Nat) row, inp[i]? = some row → ∃ t l, r.1.tracks[i]? = some t ∧ t.levels[cur - 1]? = some l ∧ 0 < l ∧
        (∀ k, k < E.iw → ∃ v s, t.xs[cur - E.iw + k]? = some v ∧ t.seasons[cur - E.iw + k]? = some s ∧
          0 < v / l / s ∧ row[k]? = some (E.log (v / l / s))) ∧
        (∀ k, k < (gmNetFeat E cur i).length → row[E.iw + k]? = (gmNetFeat E cur i)[k]?) ∧
        row[E.iw + (gmNetFeat E cur i).length]? = some (E.log ((cur - st.prev : Nat) : K) / 2) ∧
        row[E.iw + (gmNetFeat E cur i).length + 1]? = some (E.log ((step + 1 : Nat) : K)) ∧
        (∀ k, k < E.period → ∃ s s', t.seasons[cur + k]? = some s ∧ t.seasons[cur - E.period + k]? = some s' ∧
          row[E.iw + (gmNetFeat E cur i).length + 2 + k]? = some (s - 1) ∧
          row[E.iw + (gmNetFeat E cur i).length + 2 + E.period + k]? = some (s - s')) ∧
        row.length = E.iw + (gmNetFeat E cur i).length + 2 + 2 * E.period := by
  obtain ⟨ps, h1, h2, h3⟩ := turn_view_pos E hE x hx st hst cur hpc hc hic
  have hcast : ((cur - st.prev : Nat) : K) = (cur : K) - (st.prev : K) := Nat.cast_sub hpc.le
  unfold gmTurn at hr
  obtain ⟨ps', hps, hr⟩ := (gm_bind_ok _ _ _).1 hr
  rw [h1] at hps
  injection hps with hps
  subst hps
  obtain ⟨fc, _, hr⟩ := (gm_bind_ok _ _ _).1 hr
  injection hr with hr
  subst hr
  refine ⟨ps.mapIdx fun i p => gmInput E step st.prev cur i p.2, rfl, by simp [h2], ?_⟩
  intro i row hrow
  rw [List.getElem?_mapIdx] at hrow
  rcases hp : ps[i]? with _ | p
  · rw [hp] at hrow; cases hrow
  · rw [hp] at hrow
    injection hrow with hrow
    obtain ⟨g1, g2, g3, g4, g5, g6⟩ := h3 i p hp
    obtain ⟨w, l, e, el, ea, ex, en, ed, ef, kx, kn, kf⟩ :=
      C139_view_partial E.period E.iw E.fw cur h1p (hE.long h1p) hic p.1 g1
    rw [e] at g3
    injection g3 with g3
    have hrow' : row = p.2.x.map E.log ++ (gmNetFeat E cur i ++
        ([E.log ((cur - st.prev : Nat) : K) / 2, E.log ((step + 1 : Nat) : K)] ++
          (p.2.next.map (· - 1) ++ p.2.diff))) := by
      rw [← hrow, hcast, Nat.cast_add, Nat.cast_one]
      unfold gmInput
      simp only []
      rw [if_pos h1p]
      simp only [List.append_assoc]
      rfl
    rw [← g3] at hrow' g4
    have hlen : (w.x.map E.log).length = E.iw := by rw [List.length_map, ex]
    have hnl : (w.next.map (· - 1)).length = E.period := by rw [List.length_map, en]
    refine ⟨p.1, l, ?_, el, g2.levels _ (List.mem_of_getElem? el), ?_, ?_, ?_, ?_, ?_, ?_⟩
    · show (ps.map (·.1))[i]? = _
      rw [List.getElem?_map, hp]
      rfl
    · intro k hk
      obtain ⟨v, s, e1, e2, e3⟩ := kx k hk
      refine ⟨v, s, e1, e2, g4 _ (List.mem_of_getElem? e3), ?_⟩
      rw [hrow', List.getElem?_append_left (by omega), List.getElem?_map, e3]
      rfl
    · intro k hk
      rw [hrow', List.getElem?_append_right (by omega), hlen, Nat.add_sub_cancel_left, List.getElem?_append_left hk]
    · rw [hrow', List.getElem?_append_right (by omega), hlen, Nat.add_sub_cancel_left,
        List.getElem?_append_right (by omega), Nat.sub_self]
      rfl
    · rw [hrow', List.getElem?_append_right (by omega), hlen,
        List.getElem?_append_right (by omega),
        show E.iw + (gmNetFeat E cur i).length + 1 - E.iw - (gmNetFeat E cur i).length = 1 by omega]
      rfl
    · intro k hk
      obtain ⟨s, s', e1, e2, e3, e4⟩ := kn k hk
      refine ⟨s, s', e1, e2, ?_, ?_⟩
      · rw [hrow', List.getElem?_append_right (by omega), hlen,
          List.getElem?_append_right (by omega), List.getElem?_append_right (by simp only [List.length_cons, List.length_nil]; omega),
          List.getElem?_append_left (by simp only [List.length_cons, List.length_nil]; omega),
          show E.iw + (gmNetFeat E cur i).length + 2 + k - E.iw - (gmNetFeat E cur i).length -
            [E.log ((cur - st.prev : Nat) : K) / 2, E.log ((step + 1 : Nat) : K)].length = k by
              simp only [List.length_cons, List.length_nil]; omega, List.getElem?_map, e3]
        rfl
      · rw [hrow', List.getElem?_append_right (by omega), hlen,
          List.getElem?_append_right (by omega), List.getElem?_append_right (by simp only [List.length_cons, List.length_nil]; omega),
          List.getElem?_append_right (by simp only [List.length_cons, List.length_nil]; omega), hnl,
          show E.iw + (gmNetFeat E cur i).length + 2 + E.period + k - E.iw - (gmNetFeat E cur i).length -
            [E.log ((cur - st.prev : Nat) : K) / 2, E.log ((step + 1 : Nat) : K)].length - E.period = k by
              simp only [List.length_cons, List.length_nil]; omega, e4]
    · rw [hrow']
      simp only [List.length_append, hlen, hnl, ed, List.length_cons, List.length_nil]
      omega

/-- An encoder whose state keeps its input. -/
def gmExKeep : GmS2sEnv Rat (List (List Rat)) Nat :=
  ⟨fun a => a - 1, fun a => a + 1, fun _ inp => (inp, inp), fun _ => 0, fun s inp => (s, inp), none, 3, 2, 2⟩

/-- The row of a step: values over their median, half of three values since the last step, the second step. -/
example : ((gmS2sTurn gmExKeep [[some 2, some 6, some 2, none]] ⟨[[2]], [], 1⟩ 1 4 0).toOption.map fun r => r.1.enc) =
    some [[0, 0, 1, 1]] := by
  decide +kernel

example : ∃ r, gmS2sTurn gmExS2s gmExS2sBatch.x ⟨[[], []], 0, 0⟩ 0 2 1 = .ok r := by
  obtain ⟨_, r, _, h, _⟩ := C140_inputs gmExS2s 2 gmExS2sGood.net gmExS2sBatch.x gmExS2sGood.rows ⟨[[], []], 0, 0⟩
    ⟨rfl, fun i xs h => by
      rcases i with _ | _ | i
      · injection h with h; subst h; exact filled_nil _ _
      · injection h with h; subst h; exact filled_nil _ _
      · cases h⟩ 0 2 1 (by decide) (by decide) (by decide)
  exact ⟨r, h⟩

/-- The theorem about logarithms applies to the first turn of the example. -/
example (net : Nat) : ∃ st, gmLoopInit gmExEnv gmExBatch net [2 / 5, 3 / 5] = .ok st ∧
    gmTurn gmExEnv gmExBatch.x st 0 2 =
      gmTurn { gmExEnv with log := fun a => if 0 < a then a - 1 else 7 } gmExBatch.x st 0 2 := by
  obtain ⟨st, e, h, h0⟩ := init_ok gmExEnv gmExBatch gmExGood net (2 / 5) (3 / 5) [] (by norm_num) (by norm_num)
  refine ⟨st, e, C139_log gmExEnv _ (fun v hv => ?_) gmExGood.net _ gmExGood.rows st h 0 2 (by omega) (by decide)
    (by decide)⟩
  rw [if_pos hv]
  rfl

/-- The theorem about the inputs applies to the first turn of the example: two rows of eight values. -/
example (net : Nat) : ∃ inp : List (List Rat), inp.length = 2 ∧ ∀ row ∈ inp, row.length = 8 := by
  obtain ⟨st, e, h, h0⟩ := init_ok gmExEnv gmExBatch gmExGood net (2 / 5) (3 / 5) [] (by norm_num) (by norm_num)
  obtain ⟨st', f, ht, _⟩ := turn_ok gmExEnv gmExGood.net _ gmExGood.rows st h 0 2 (by omega) (by decide) (by decide)
  obtain ⟨inp, _, hl, hi⟩ := C139_inputs gmExEnv gmExGood.net (by decide) _ gmExGood.rows st h 0 2 (by omega) (by decide)
    (by decide) _ ht
  refine ⟨inp, hl, fun row hr => ?_⟩
  obtain ⟨i, hir⟩ := List.getElem?_of_mem hr
  obtain ⟨_, _, _, _, _, _, _, _, _, _, hrl⟩ := hi i row hir
  exact hrl

end Kats

import Verif.Props.GmS2sPass

/-!
# C140: scale and features
-/

namespace Kats

variable {K : Type} [Field K] [LinearOrder K] [IsStrictOrderedRing K] {σ τ V : Type}

/-! ## Scale -/

/-- The logarithm and the exponential have their usual laws. -/
structure GmS2sLogOk (E : GmS2sEnv K σ τ) : Prop where
  log_mul : ∀ a c, 0 < a → 0 < c → E.log (c * a) = E.log a + E.log c
  exp_add : ∀ v c, 0 < c → E.exp (v + E.log c) = c * E.exp v

def GmS2sLoop.times (c : Nat → K) (st : GmS2sLoop K σ) : GmS2sLoop K σ :=
  { st with rows := st.rows.mapIdx fun i t => t.map (c i * ·) }

/-- The forecasts of a window, shifted by the logarithms of the factors. -/
def gmShift (E : GmS2sEnv K σ τ) (c : Nat → K) (w : Nat × List (List K)) : Nat × List (List K) :=
  (w.1, w.2.mapIdx fun i r => r.map (· + E.log (c i)))

theorem decode_times (E : GmS2sEnv K σ τ) (hL : GmS2sLogOk E) (c : Nat → K) (hc : ∀ i, 0 < c i)
    (code : List (List K)) (anchors : List K) (ha : ∀ a ∈ anchors, 0 < a) (cur : Nat) : ∀ (n k : Nat) (s : τ),
    gmDecode E code (anchors.mapIdx fun i a => c i * a) cur n k s =
      (gmDecode E code anchors cur n k s).map (gmShift E c) := by
  intro n
  induction n with
  | zero => intro k s; rfl
  | succ n ih =>
    intro k s
    simp only [gmDecode]
    rw [ih, List.map_cons]
    congr 1
    unfold gmShift
    congr 1
    apply List.ext_getElem?
    intro i
    rw [List.getElem?_mapIdx, List.getElem?_zipWith, List.getElem?_zipWith, List.getElem?_mapIdx]
    rcases (E.dec s (code.mapIdx fun i c => gmDecIn E k (cur + k * E.fw) i c)).2[i]? with _ | o
    · rfl
    rcases hq : anchors[i]? with _ | a
    · rfl
    show some _ = some _
    congr 1
    simp only [List.map_map]
    apply List.map_congr_left
    intro v _
    show v + E.log (c i * a) = v + E.log a + E.log (c i)
    rw [hL.log_mul _ _ (ha a (List.mem_of_getElem? hq)) (hc i), add_assoc]

theorem s2s_turn_times (E : GmS2sEnv K σ τ) (q : Nat) (hE : GmS2sNetOk E q) (hL : GmS2sLogOk E) (c : Nat → K)
    (hc : ∀ i, 0 < c i) (x : List (List (Option K))) (hx : ∀ r ∈ x, GmRowPos r) (st : GmS2sLoop K σ)
    (hst : GmS2sLoopOk E x st) (step cur n : Nat) (hpc : st.prev ≤ cur) (hcur : ∀ r ∈ x, cur ≤ r.length)
    (hic : E.iw ≤ cur) :
    gmS2sTurn E (gmTimesRows c x) (st.times c) step cur n =
      (gmS2sTurn E x st step cur n).map fun r => (r.1.times c, r.2.map (gmShift E c)) := by
  obtain ⟨ps, h1, h2, h3⟩ := s2s_rows E q hE x hx st hst cur hpc hcur hic
  have hn : (gmTimesRows c x).length = x.length := by unfold gmTimesRows; simp
  have e1 : (List.range x.length).mapM (gmS2sRow E (gmTimesRows c x) (st.times c) cur) =
      .ok (ps.mapIdx fun i p => (p.1.map (c i * ·), p.2.1, c i * p.2.2)) := by
    refine mapM_of_get _ _ _ (by simp [h2]) ?_
    intro i p hp
    rw [List.getElem?_mapIdx] at hp
    rcases hq : ps[i]? with _ | r
    · rw [hq] at hp; cases hp
    · rw [hq] at hp
      injection hp with hp
      subst hp
      obtain ⟨t, ht, e⟩ := (h3 i r hq).1
      have ht' : (st.times c).rows[i]? = some (t.map (c i * ·)) := by
        show (st.rows.mapIdx _)[i]? = _
        rw [List.getElem?_mapIdx, ht]
        rfl
      unfold gmS2sRow
      rw [ht', timesRows_getD]
      show gmS2sProcess _ _ _ _ st.prev cur = _
      rw [C140_process_scale _ _ (c i) (hc i), e]
      rfl
  have hin : ((ps.mapIdx fun i p => (p.1.map (c i * ·), p.2.1, c i * p.2.2)).mapIdx fun i p =>
      gmEncIn E step (st.times c).prev cur i p.2.1) = ps.mapIdx fun i p => gmEncIn E step st.prev cur i p.2.1 := by
    rw [List.mapIdx_mapIdx]
    rfl
  have ha : (ps.mapIdx fun i p => (p.1.map (c i * ·), p.2.1, c i * p.2.2)).map (·.2.2) =
      (ps.map (·.2.2)).mapIdx fun i a => c i * a := by
    apply List.ext_getElem?
    intro i
    rw [List.getElem?_map, List.getElem?_mapIdx, List.getElem?_mapIdx, List.getElem?_map]
    rcases ps[i]? with _ | p <;> rfl
  have hr : (ps.mapIdx fun i p => (p.1.map (c i * ·), p.2.1, c i * p.2.2)).map (·.1) =
      (ps.map (·.1)).mapIdx fun i t => t.map (c i * ·) := by
    apply List.ext_getElem?
    intro i
    rw [List.getElem?_map, List.getElem?_mapIdx, List.getElem?_mapIdx, List.getElem?_map]
    rcases ps[i]? with _ | p <;> rfl
  have hpos : ∀ a ∈ ps.map (·.2.2), 0 < a := by
    intro a ha
    obtain ⟨p, hp, rfl⟩ := List.mem_map.1 ha
    obtain ⟨i, hi⟩ := List.mem_iff_getElem?.1 hp
    exact (h3 i p hi).2.2.1
  unfold gmS2sTurn
  rw [hn, e1, h1]
  show Except.ok _ = Except.ok _
  rw [hin, ha, hr, decode_times E hL c hc _ _ hpos]
  rfl

theorem s2s_turns_times (E : GmS2sEnv K σ τ) (q : Nat) (hE : GmS2sNetOk E q) (hL : GmS2sLogOk E) (c : Nat → K)
    (hc : ∀ i, 0 < c i) (x : List (List (Option K))) (hx : ∀ r ∈ x, GmRowPos r) :
    ∀ (steps : List (Nat × Nat × Nat)) (st : GmS2sLoop K σ), GmS2sLoopOk E x st →
    (steps.map (·.2.1)).Pairwise (· < ·) →
    (∀ s ∈ steps, st.prev ≤ s.2.1 ∧ E.iw ≤ s.2.1 ∧ ∀ r ∈ x, s.2.1 ≤ r.length) →
    gmS2sTurns E (gmTimesRows c x) steps (st.times c) =
      (gmS2sTurns E x steps st).map fun rs => rs.map fun r => (r.1, r.2.map (gmShift E c)) := by
  intro steps
  induction steps with
  | nil => intro st _ _ _; rfl
  | cons s steps ih =>
    intro st hst hsort hs
    obtain ⟨h1, h2, h3⟩ := hs s List.mem_cons_self
    obtain ⟨st', f, e, g1, g2, g3, g4⟩ := s2s_turn_ok E q hE x hx st hst s.1 s.2.1 s.2.2 h1 h3 h2
    rw [List.map_cons, List.pairwise_cons] at hsort
    have ih' := ih st' g1 hsort.2 (by
      intro s' hs'
      obtain ⟨_, h5, h6⟩ := hs s' (List.mem_cons_of_mem _ hs')
      exact ⟨by rw [g2]; exact le_of_lt (hsort.1 s'.2.1 (List.mem_map_of_mem hs')), h5, h6⟩)
    have e' := s2s_turn_times E q hE hL c hc x hx st hst s.1 s.2.1 s.2.2 h1 h3 h2
    rw [e] at e'
    unfold gmS2sTurns
    rw [e, e']
    show (gmS2sTurns E (gmTimesRows c x) steps (st'.times c) >>= fun b => _) =
      Except.map _ (gmS2sTurns E x steps st' >>= fun b => _)
    rw [ih']
    rcases gmS2sTurns E x steps st' with e | rs <;> rfl

theorem s2s_restore_times (E : GmS2sEnv K σ τ) (hL : GmS2sLogOk E) (b : GmBatchIn K) (c : Nat → K)
    (hc : ∀ i, 0 < c i) (w : Nat × List (List K)) :
    gmS2sRestore E { b with x := gmTimesRows c b.x, offset := b.offset.mapIdx fun i v => c i * v }
      (gmShift E c w).2 = (gmS2sRestore E b w.2).mapIdx fun i r => r.map (c i * ·) := by
  unfold gmS2sRestore gmShift
  rw [List.mapIdx_mapIdx, List.mapIdx_mapIdx]
  congr 1
  funext i r
  simp only [Function.comp, List.map_map]
  apply List.map_congr_left
  intro v _
  have : (b.offset.mapIdx fun i v => c i * v).getD i 0 = c i * b.offset.getD i 0 := by
    rw [List.getD_eq_getElem?_getD, List.getD_eq_getElem?_getD, List.getElem?_mapIdx]
    rcases b.offset[i]? with _ | v
    · simp
    · rfl
  simp only [Function.comp]
  rw [this, hL.exp_add _ _ (hc i)]
  ring

theorem good_times (E : GmS2sEnv K σ τ) (q : Nat) (b : GmBatchIn K) (hb : GmS2sGood E q b) (c : Nat → K)
    (hc : ∀ i, 0 < c i) :
    GmS2sGood E q { b with x := gmTimesRows c b.x, offset := b.offset.mapIdx fun i v => c i * v } := by
  refine ⟨hb.net, ?_, hb.sorted, hb.train, ?_⟩
  · intro r hr
    obtain ⟨i, hi, rfl⟩ := List.mem_mapIdx.1 hr
    have h0 := hb.rows _ (List.getElem_mem hi)
    refine ⟨?_, ?_⟩
    · obtain ⟨a, ha⟩ := h0.first
      refine ⟨c i * a, ?_⟩
      unfold gmTimes
      rw [List.getElem?_map, ha]
      rfl
    · intro a ha
      unfold gmTimes at ha
      obtain ⟨o, ho, e⟩ := List.mem_map.1 ha
      rcases o with _ | v
      · cases e
      · injection e with e
        rw [← e]
        exact mul_pos (hc i) (h0.pos v ho)
  · intro j hj
    obtain ⟨h1, h2⟩ := hb.index j hj
    refine ⟨h1, ?_⟩
    intro r hr
    obtain ⟨i, hi, rfl⟩ := List.mem_mapIdx.1 hr
    unfold gmTimes
    rw [List.length_map]
    exact h2 _ (List.getElem_mem hi)

/-- C140: series multiplied by positive factors, one factor for each series, have forecasts multiplied by the
same factors. -/
theorem C140_pass_scale (E : GmS2sEnv K σ τ) (q : Nat) (hL : GmS2sLogOk E) (J : GmJudge K V) (b : GmBatchIn K)
    (hb : GmS2sGood E q b) (trainEnc testEnc : Nat) (enc : σ) (maxDelta softMax : Int) (monitor : Bool)
    (c : Nat → K) (hc : ∀ i, 0 < c i) (res : GmPassRes K V)
    (h : gmPassS2s E J b trainEnc testEnc enc maxDelta softMax false monitor = .ok res) :
    ∃ res', gmPassS2s E J { b with x := gmTimesRows c b.x, offset := b.offset.mapIdx fun i v => c i * v } trainEnc
        testEnc enc maxDelta softMax false monitor = .ok res' ∧
      res'.fcst = res.fcst.map fun f => f.mapIdx fun i r => r.map (c i * ·) := by
  obtain ⟨first, r1, fin, r, hf, g2, g3, g4, g5, g6, g7, g8, g9, g10, g11⟩ :=
    s2s_result E q J b hb trainEnc testEnc enc maxDelta softMax false monitor
  obtain ⟨f', r1', fin', r', k1, k2, k3, k4, k5, k6, k7, k8, k9, k10, k11⟩ :=
    s2s_result E q J _ (good_times E q b hb c hc) trainEnc testEnc enc maxDelta softMax false monitor
  rw [h] at g3
  injection g3 with g3
  subst g3
  refine ⟨r', k3, ?_⟩
  have k1 : gmFirstValid b.train b.valid = .ok f' := k1
  rw [hf] at k1
  injection k1 with k1
  subst k1
  obtain ⟨p1, p2, p3⟩ := s2s_plan b hb.sorted false first trainEnc testEnc
    (gmDelta maxDelta (b.train ++ b.valid).length 0 softMax) (delta_pos _ _ _ _) hf
  have ht := s2s_turns_times E q hb.net hL c hc b.x hb.rows (gmS2sPlan b false first trainEnc testEnc
    (gmDelta maxDelta (b.train ++ b.valid).length 0 softMax)) ⟨b.x.map fun _ => [], enc, 0⟩ ⟨by simp, by
      intro i xs hxs
      have hxs : (b.x.map fun _ => ([] : List K))[i]? = some xs := hxs
      rw [List.getElem?_map] at hxs
      rcases hxi : b.x[i]? with _ | r
      · rw [hxi] at hxs; cases hxs
      · rw [hxi] at hxs
        injection hxs with hxs
        rw [← hxs]
        exact filled_nil _ _⟩ p2 (by
      intro s hs
      obtain ⟨h3, h4⟩ := hb.index _ (p3 s hs)
      exact ⟨Nat.zero_le _, h3, h4⟩)
  have hinit : (⟨b.x.map fun _ => [], enc, 0⟩ : GmS2sLoop K σ).times c =
      ⟨(gmTimesRows c b.x).map fun _ => [], enc, 0⟩ := by
    unfold GmS2sLoop.times gmTimesRows
    congr 1
    apply List.ext_getElem?
    intro i
    rw [List.getElem?_mapIdx, List.getElem?_map, List.getElem?_map, List.getElem?_mapIdx]
    rcases b.x[i]? with _ | t <;> rfl
  have k2 : gmS2sTurns E (gmTimesRows c b.x) (gmS2sPlan b false first trainEnc testEnc
    (gmDelta maxDelta (b.train ++ b.valid).length 0 softMax)) ⟨(gmTimesRows c b.x).map fun _ => [], enc, 0⟩ =
      .ok (r1' ++ if b.valid.isEmpty then [] else [(first, fin')]) := k2
  have k5 : fin'.map (·.1) = (if b.valid.isEmpty then [] else (List.range testEnc).map fun j => first + j * E.fw) := k5
  rw [hinit, k2, g2] at ht
  injection ht with ht
  simp only [List.map_append] at ht
  have l1 := congrArg List.length g4
  have l2 := congrArg List.length k4
  simp only [List.length_map] at l1 l2
  obtain ⟨_, ht⟩ := List.append_inj ht (by
    rw [List.length_map, l1, l2])
  have hfin : fin' = fin.map (gmShift E c) := by
    by_cases he : b.valid.isEmpty
    · rw [if_pos he] at g5 k5
      rw [List.map_eq_nil_iff] at g5 k5
      rw [g5, k5]
      rfl
    · rw [if_neg he, if_neg he] at ht
      injection ht with ht
      injection ht with _ ht
  rw [k9, g9, hfin]
  simp only [Bool.false_and, Bool.false_eq_true, if_false, List.map_map]
  apply List.map_congr_left
  intro w _
  exact s2s_restore_times E hL b c hc w

/-! ## Features -/

theorem decode_features (E : GmS2sEnv K σ τ) (f g : Nat → Nat → List (List K)) (code : List (List K))
    (anchors : List K) (cur : Nat) : ∀ (n k : Nat) (s : τ),
    (∀ j, k ≤ j → j < k + n → f (cur + j * E.fw) (cur + (j + 1) * E.fw) = g (cur + j * E.fw) (cur + (j + 1) * E.fw)) →
    gmDecode { E with features := some f } code anchors cur n k s =
      gmDecode { E with features := some g } code anchors cur n k s := by
  intro n
  induction n with
  | zero => intro k s _; rfl
  | succ n ih =>
    intro k s h
    have e : (code.mapIdx fun i c => gmDecIn { E with features := some f } k (cur + k * E.fw) i c) =
        code.mapIdx fun i c => gmDecIn { E with features := some g } k (cur + k * E.fw) i c := by
      congr 1
      funext i c
      unfold gmDecIn
      have := h k (le_refl _) (by omega)
      rw [show cur + (k + 1) * E.fw = cur + k * E.fw + E.fw by ring] at this
      simp only [this]
    simp only [gmDecode]
    simp only [e]
    rw [ih (k + 1) _ fun j h1 h2 => h j (by omega) (by omega)]

/-- C140: the features that a pass uses are those of the input windows and of the windows forecast, and no others:
features that agree on these give the same result. -/
theorem C140_features (E : GmS2sEnv K σ τ) (f g : Nat → Nat → List (List K)) (J : GmJudge K V) (b : GmBatchIn K)
    (hsort : (b.train ++ b.valid).Pairwise (· < ·)) (trainEnc testEnc : Nat)
    (hin : ∀ i ∈ b.train ++ b.valid, f (i - E.iw) i = g (i - E.iw) i)
    (htr : ∀ i ∈ b.train, ∀ j, j < trainEnc → f (i + j * E.fw) (i + (j + 1) * E.fw) = g (i + j * E.fw) (i + (j + 1) * E.fw))
    (hva : ∀ i ∈ b.valid.head?, ∀ j, j < testEnc →
      f (i + j * E.fw) (i + (j + 1) * E.fw) = g (i + j * E.fw) (i + (j + 1) * E.fw))
    (enc : σ) (maxDelta softMax : Int) (training monitor : Bool) :
    gmPassS2s { E with features := some f } J b trainEnc testEnc enc maxDelta softMax training monitor =
      gmPassS2s { E with features := some g } J b trainEnc testEnc enc maxDelta softMax training monitor := by
  unfold gmPassS2s
  show (gmFirstValid b.train b.valid >>= fun first => _) = (gmFirstValid b.train b.valid >>= fun first => _)
  rcases hf : gmFirstValid b.train b.valid with e | first
  · rfl
  obtain ⟨delta, hdel⟩ : ∃ d, d = gmDelta maxDelta (b.train ++ b.valid).length 0 softMax := ⟨_, rfl⟩
  have hd : 1 ≤ delta := by rw [hdel]; exact delta_pos _ _ _ _
  obtain ⟨p1, p2, p3⟩ := s2s_plan b hsort training first trainEnc testEnc delta hd hf
  have hturn : ∀ (st : GmS2sLoop K σ) (s : Nat × Nat × Nat), s ∈ gmS2sPlan b training first trainEnc testEnc delta →
      gmS2sTurn { E with features := some f } b.x st s.1 s.2.1 s.2.2 =
        gmS2sTurn { E with features := some g } b.x st s.1 s.2.1 s.2.2 := by
    intro st s hs
    have hi := hin _ (p3 s hs)
    have hj : ∀ j, 0 ≤ j → j < 0 + s.2.2 → f (s.2.1 + j * E.fw) (s.2.1 + (j + 1) * E.fw) =
        g (s.2.1 + j * E.fw) (s.2.1 + (j + 1) * E.fw) := by
      intro j _ hj
      rw [Nat.zero_add] at hj
      rw [p1] at hs
      rcases List.mem_append.1 hs with hs | hs
      · obtain ⟨k, hk, rfl⟩ := List.mem_map.1 hs
        rw [List.mem_range, Nat.lt_div_iff_mul_lt (by omega)] at hk
        refine htr _ (gm_getD_mem b.train (k * delta) (by omega) 0) j ?_
        simp only at hj
        split at hj
        · exact hj
        · omega
      · rcases hv : b.valid with _ | ⟨v, vs⟩
        · rw [hv] at hs; simp at hs
        · rw [hv] at hs
          simp only [List.mem_singleton] at hs
          subst hs
          exact hva v (by rw [hv]; simp) j hj
    unfold gmS2sTurn
    show (List.mapM (gmS2sRow { E with features := some f } b.x st s.2.1) (List.range b.x.length) >>= fun ps => _) =
      (List.mapM (gmS2sRow { E with features := some f } b.x st s.2.1) (List.range b.x.length) >>= fun ps => _)
    congr 1
    funext ps
    have e : (ps.mapIdx fun i p => gmEncIn { E with features := some f } s.1 st.prev s.2.1 i p.2.1) =
        ps.mapIdx fun i p => gmEncIn { E with features := some g } s.1 st.prev s.2.1 i p.2.1 := by
      congr 1
      funext i p
      unfold gmEncIn
      simp only [hi]
    simp only [e]
    rw [decode_features E f g _ _ s.2.1 s.2.2 0 _ hj]
  have hturns : ∀ (steps : List (Nat × Nat × Nat)) (st : GmS2sLoop K σ),
      (∀ s ∈ steps, s ∈ gmS2sPlan b training first trainEnc testEnc delta) →
      gmS2sTurns { E with features := some f } b.x steps st = gmS2sTurns { E with features := some g } b.x steps st := by
    intro steps
    induction steps with
    | nil => intro st _; rfl
    | cons s steps ih =>
      intro st hs
      unfold gmS2sTurns
      rw [hturn st s (hs s List.mem_cons_self)]
      congr 1
      funext a
      rw [ih a.1 fun s' hs' => hs s' (List.mem_cons_of_mem _ hs')]
  rw [← hdel]
  show (gmS2sTurns { E with features := some f } b.x (gmS2sPlan b training first trainEnc testEnc delta) _
      >>= fun res => _) =
    (gmS2sTurns { E with features := some g } b.x (gmS2sPlan b training first trainEnc testEnc delta) _
      >>= fun res => _)
  rw [hturns _ _ fun s hs => hs]
  rfl

/-! ## With the real functions, and examples -/

/-- The logarithm and the exponential of the reals. -/
noncomputable def gmS2sReal (enc : σ → List (List ℝ) → σ × List (List ℝ)) (prep : σ → τ)
    (dec : τ → List (List ℝ) → τ × List (List ℝ)) (features : Option (Nat → Nat → List (List ℝ)))
    (period iw fw : Nat) : GmS2sEnv ℝ σ τ :=
  ⟨Real.log, Real.exp, enc, prep, dec, features, period, iw, fw⟩

/-- C140: the real functions have the laws that the theorem about scale supposes. -/
theorem C140_real (enc : σ → List (List ℝ) → σ × List (List ℝ)) (prep : σ → τ)
    (dec : τ → List (List ℝ) → τ × List (List ℝ)) (features : Option (Nat → Nat → List (List ℝ)))
    (period iw fw : Nat) : GmS2sLogOk (gmS2sReal enc prep dec features period iw fw) := by
  refine ⟨?_, ?_⟩
  · intro a c ha hc
    show Real.log (c * a) = Real.log a + Real.log c
    rw [Real.log_mul hc.ne' ha.ne', add_comm]
  · intro v c hc
    show Real.exp (v + Real.log c) = c * Real.exp v
    rw [Real.exp_add, Real.exp_log hc, mul_comm]

/-- Networks that count their turns, for series with a period of three, longer than the input window. -/
def gmExS2s : GmS2sEnv Rat Nat Nat :=
  ⟨fun a => a - 1, fun a => a + 1, fun s inp => (s + 1, inp), fun s => 10 * s,
    fun s inp => (s + 1, inp.map fun _ => [(s : Rat), 0, 1, 2]), none, 3, 2, 2⟩

def gmExS2sBatch : GmBatchIn Rat :=
  ⟨[[some 2, some 6, some 2, none, some 2, some 6, none, none], [some 1, some 1, some 2, some 1, none, some 1, some 1, some 3]],
    [0, 1], [], [2, 3, 4], [6, 8]⟩

theorem gmExS2sGood : GmS2sGood gmExS2s 2 gmExS2sBatch := by
  refine ⟨⟨?_, ?_, ?_, by decide, by decide⟩, ?_, by decide, by decide, ?_⟩
  · intro s inp; rfl
  · intro s inp; simp [gmExS2s]
  · intro s inp o ho
    obtain ⟨_, _, rfl⟩ := List.mem_map.1 ho
    rfl
  · intro r hr
    simp only [gmExS2sBatch, List.mem_cons, List.not_mem_nil, or_false] at hr
    rcases hr with rfl | rfl
    · refine ⟨⟨2, rfl⟩, ?_⟩
      intro a ha
      simp at ha
      rcases ha with rfl | rfl | rfl | rfl <;> norm_num
    · refine ⟨⟨1, rfl⟩, ?_⟩
      intro a ha
      simp at ha
      rcases ha with rfl | rfl | rfl | rfl <;> norm_num
  · intro i hi
    simp only [gmExS2sBatch, List.cons_append, List.nil_append, List.mem_cons, List.not_mem_nil, or_false] at hi
    refine ⟨by rcases hi with rfl | rfl | rfl | rfl | rfl <;> decide, ?_⟩
    intro r hr
    simp only [gmExS2sBatch, List.mem_cons, List.not_mem_nil, or_false] at hr
    rcases hr with rfl | rfl <;> rcases hi with rfl | rfl | rfl | rfl | rfl <;> decide

/-- A pass that forecasts: the decoder starts from the state of the encoder after four turns. -/
example : ((gmPassS2s gmExS2s gmExJudge gmExS2sBatch 1 2 0 1 10 false false).toOption.map fun r =>
    (r.trainLoss, r.fcst)) = some ([], [[[42, 2, 3, 4], [40, 0, 1, 2]], [[43, 2, 3, 4], [41, 0, 1, 2]]]) := by
  decide +kernel

/-- A pass in training: a loss for each window of training and a result for each of validation. -/
example : ((gmPassS2s gmExS2s gmExJudge gmExS2sBatch 2 2 0 1 10 true true).toOption.map fun r =>
    (r.trainLoss, r.validRes, r.fcst.length)) = some ([4, 4, 4], [2, 2], 2) := by
  decide +kernel

example : ((gmPassS2s gmExS2s gmExJudge gmExS2sBatch 2 2 0 1 10 true true).toOption.map (·.actual)) =
    some [[[none, none], [some 0, some 2]], [[], []]] := by
  decide +kernel

example : ∃ res, gmPassS2s gmExS2s gmExJudge gmExS2sBatch 1 2 0 1 10 false false = .ok res ∧ res.fcst.length = 2 := by
  obtain ⟨res, h1, _, _, _, h2, _⟩ := C140_forecasts gmExS2s 2 gmExJudge gmExS2sBatch gmExS2sGood (by decide) 1 2 0 1 10
    false
  exact ⟨res, h1, h2⟩

end Kats

import Verif.Props.GmS2sRow
import Verif.Props.GmLeak

/-!
# C140: a pass of the encoder and decoder
-/

namespace Kats

variable {K : Type} [Field K] [LinearOrder K] [IsStrictOrderedRing K] {σ τ V : Type}

/-- The networks give one row for each row, and the decoder rows of `q` quantiles. -/
structure GmS2sNetOk (E : GmS2sEnv K σ τ) (q : Nat) : Prop where
  enc : ∀ s inp, (E.enc s inp).2.length = inp.length
  dec : ∀ s inp, (E.dec s inp).2.length = inp.length
  cols : ∀ s inp, ∀ o ∈ (E.dec s inp).2, o.length = E.fw * q
  period : 1 ≤ E.period
  iw : 1 ≤ E.iw

/-- The state of the loop before an index. -/
structure GmS2sLoopOk (E : GmS2sEnv K σ τ) (x : List (List (Option K))) (st : GmS2sLoop K σ) : Prop where
  len : st.rows.length = x.length
  rows : ∀ (i : Nat) xs, st.rows[i]? = some xs → GmFilled E.period st.prev (x.getD i []) xs

theorem decode_spec (E : GmS2sEnv K σ τ) (q : Nat) (hE : GmS2sNetOk E q) (code : List (List K)) (anchors : List K)
    (cur m : Nat) (hc : code.length = m) (ha : anchors.length = m) : ∀ (n k : Nat) (s : τ),
    (gmDecode E code anchors cur n k s).map (·.1) = (List.range n).map (fun j => cur + (k + j) * E.fw) ∧
    ∀ w ∈ gmDecode E code anchors cur n k s, w.2.length = m ∧ ∀ row ∈ w.2, row.length = E.fw * q := by
  intro n
  induction n with
  | zero => intro k s; exact ⟨rfl, fun w hw => by simp [gmDecode] at hw⟩
  | succ n ih =>
    intro k s
    obtain ⟨h1, h2⟩ := ih (k + 1) (E.dec s (code.mapIdx fun i c => gmDecIn E k (cur + k * E.fw) i c)).1
    unfold gmDecode
    constructor
    · rw [List.map_cons, h1, List.range_succ_eq_map, List.map_cons, List.map_map, Nat.add_zero]
      congr 1
      apply List.map_congr_left
      intro j _
      simp only [Function.comp, Nat.succ_eq_add_one]
      ring
    · intro w hw
      rcases List.mem_cons.1 hw with rfl | hw
      · refine ⟨by simp [hE.dec, hc, ha], ?_⟩
        intro row hrow
        obtain ⟨i, hi, e⟩ := List.getElem_of_mem hrow
        rw [← e]
        rw [List.getElem_zipWith, List.length_map]
        exact hE.cols _ _ _ (List.getElem_mem _)
      · exact h2 w hw

/-- The rows after a turn. -/
theorem s2s_rows (E : GmS2sEnv K σ τ) (q : Nat) (hE : GmS2sNetOk E q) (x : List (List (Option K)))
    (hx : ∀ r ∈ x, GmRowPos r) (st : GmS2sLoop K σ) (hst : GmS2sLoopOk E x st) (cur : Nat)
    (hpc : st.prev ≤ cur) (hc : ∀ r ∈ x, cur ≤ r.length) (hic : E.iw ≤ cur) :
    ∃ ps, (List.range x.length).mapM (gmS2sRow E x st cur) = .ok ps ∧ ps.length = x.length ∧
      ∀ (i : Nat) p, ps[i]? = some p →
        (∃ xs, st.rows[i]? = some xs ∧ gmS2sProcess E.period E.iw (x.getD i []) xs st.prev cur = .ok p) ∧
        GmFilled E.period cur (x.getD i []) p.1 ∧ 0 < p.2.2 ∧ p.2.1.length = E.iw := by
  obtain ⟨ps, h1, h2, h3⟩ := mapM_exists (gmS2sRow E x st cur) (fun i p =>
        (∃ xs, st.rows[i]? = some xs ∧ gmS2sProcess E.period E.iw (x.getD i []) xs st.prev cur = .ok p) ∧
        GmFilled E.period cur (x.getD i []) p.1 ∧ 0 < p.2.2 ∧ p.2.1.length = E.iw) x.length (by
    intro i hi
    obtain ⟨xs, hxs⟩ : ∃ xs, st.rows[i]? = some xs := ⟨_, List.getElem?_eq_getElem (by rw [hst.len]; exact hi)⟩
    obtain ⟨xs', a, e, g1, g2, g3, _⟩ := C140_process E.period E.iw hE.period hE.iw (x.getD i [])
      (hx _ (gm_getD_mem x i hi [])) st.prev cur hpc hic (hc _ (gm_getD_mem x i hi [])) xs (hst.rows i xs hxs)
    refine ⟨_, ?_, ⟨xs, hxs, e⟩, g1, g3, by rw [List.length_map]; exact g2⟩
    simp only [gmS2sRow, hxs]
    exact e)
  exact ⟨ps, h1, h2, fun i p hp => (h3 i p hp).2⟩

theorem s2s_turn_ok (E : GmS2sEnv K σ τ) (q : Nat) (hE : GmS2sNetOk E q) (x : List (List (Option K)))
    (hx : ∀ r ∈ x, GmRowPos r) (st : GmS2sLoop K σ) (hst : GmS2sLoopOk E x st) (step cur n : Nat)
    (hpc : st.prev ≤ cur) (hc : ∀ r ∈ x, cur ≤ r.length) (hic : E.iw ≤ cur) :
    ∃ st' w, gmS2sTurn E x st step cur n = .ok (st', w) ∧ GmS2sLoopOk E x st' ∧ st'.prev = cur ∧
      w.map (·.1) = (List.range n).map (fun j => cur + j * E.fw) ∧
      ∀ r ∈ w, r.2.length = x.length ∧ ∀ row ∈ r.2, row.length = E.fw * q := by
  obtain ⟨ps, h1, h2, h3⟩ := s2s_rows E q hE x hx st hst cur hpc hc hic
  obtain ⟨d1, d2⟩ := decode_spec E q hE (E.enc st.enc (ps.mapIdx fun i p => gmEncIn E step st.prev cur i p.2.1)).2
    (ps.map (·.2.2)) cur x.length (by rw [hE.enc]; simp [h2]) (by simp [h2]) n 0
    (E.prep (E.enc st.enc (ps.mapIdx fun i p => gmEncIn E step st.prev cur i p.2.1)).1)
  refine ⟨⟨ps.map (·.1), (E.enc st.enc (ps.mapIdx fun i p => gmEncIn E step st.prev cur i p.2.1)).1, cur⟩, _, ?_, ?_,
    rfl, ?_, d2⟩
  · unfold gmS2sTurn
    rw [h1]
    rfl
  · refine ⟨by simp [h2], ?_⟩
    intro i xs hxs
    simp only [List.getElem?_map] at hxs
    rcases hp : ps[i]? with _ | p
    · rw [hp] at hxs; cases hxs
    · rw [hp] at hxs
      injection hxs with hxs
      subst hxs
      exact (h3 i p hp).2.1
  · rw [d1]
    simp only [Nat.zero_add]

theorem s2s_turns_ok (E : GmS2sEnv K σ τ) (q : Nat) (hE : GmS2sNetOk E q) (x : List (List (Option K)))
    (hx : ∀ r ∈ x, GmRowPos r) : ∀ (steps : List (Nat × Nat × Nat)) (st : GmS2sLoop K σ), GmS2sLoopOk E x st →
    (steps.map (·.2.1)).Pairwise (· < ·) →
    (∀ s ∈ steps, st.prev ≤ s.2.1 ∧ E.iw ≤ s.2.1 ∧ ∀ r ∈ x, s.2.1 ≤ r.length) →
    ∃ rs, gmS2sTurns E x steps st = .ok rs ∧
      rs.map (fun r => (r.1, r.2.map (·.1))) =
        steps.map (fun s => (s.2.1, (List.range s.2.2).map (fun j => s.2.1 + j * E.fw))) ∧
      ∀ r ∈ rs, ∀ w ∈ r.2, w.2.length = x.length ∧ ∀ row ∈ w.2, row.length = E.fw * q := by
  intro steps
  induction steps with
  | nil => intro st _ _ _; exact ⟨[], rfl, rfl, fun r hr => by simp at hr⟩
  | cons s steps ih =>
    intro st hst hsort hs
    obtain ⟨h1, h2, h3⟩ := hs s List.mem_cons_self
    obtain ⟨st', f, e, g1, g2, g3, g4⟩ := s2s_turn_ok E q hE x hx st hst s.1 s.2.1 s.2.2 h1 h3 h2
    rw [List.map_cons, List.pairwise_cons] at hsort
    obtain ⟨rs, e2, k1, k2⟩ := ih st' g1 hsort.2 (by
      intro s' hs'
      obtain ⟨_, h5, h6⟩ := hs s' (List.mem_cons_of_mem _ hs')
      exact ⟨by rw [g2]; exact le_of_lt (hsort.1 s'.2.1 (List.mem_map_of_mem hs')), h5, h6⟩)
    refine ⟨(s.2.1, f) :: rs, ?_, by simp [k1, g3], ?_⟩
    · unfold gmS2sTurns
      rw [e]
      show (gmS2sTurns E x steps st' >>= fun b => _) = _
      rw [e2]
      rfl
    · intro r hr
      rcases List.mem_cons.1 hr with rfl | hr
      · exact g4
      · exact k2 r hr

/-! ## The steps -/

/-- A batch for which a pass is possible. -/
structure GmS2sGood (E : GmS2sEnv K σ τ) (q : Nat) (b : GmBatchIn K) : Prop where
  net : GmS2sNetOk E q
  rows : ∀ r ∈ b.x, GmRowPos r
  sorted : (b.train ++ b.valid).Pairwise (· < ·)
  train : b.train ≠ []
  index : ∀ i ∈ b.train ++ b.valid, E.iw ≤ i ∧ ∀ r ∈ b.x, i ≤ r.length

/-- The steps of a pass with their indices and numbers of windows. -/
def gmS2sPlan (b : GmBatchIn K) (training : Bool) (first trainEnc testEnc delta : Nat) : List (Nat × Nat × Nat) :=
  (gmS2sSteps b.train b.valid first (b.train.length + 1) 0 delta).map fun s =>
    (s, (b.train ++ b.valid).getD s 0, gmS2sWindows training first trainEnc testEnc ((b.train ++ b.valid).getD s 0))

theorem s2s_first (b : GmBatchIn K) (ht : b.train ≠ []) : ∃ first, gmFirstValid b.train b.valid = .ok first := by
  unfold gmFirstValid
  rcases b.valid with _ | ⟨v, r⟩
  · rcases hg : b.train.getLast? with _ | t
    · rw [List.getLast?_eq_none_iff] at hg
      exact absurd hg ht
    · exact ⟨_, rfl⟩
  · exact ⟨_, rfl⟩

theorem s2s_plan (b : GmBatchIn K) (hsort : (b.train ++ b.valid).Pairwise (· < ·)) (training : Bool)
    (first trainEnc testEnc delta : Nat) (hd : 1 ≤ delta) (hf : gmFirstValid b.train b.valid = .ok first) :
    gmS2sPlan b training first trainEnc testEnc delta =
      ((List.range ((b.train.length + delta - 1) / delta)).map fun k =>
        (k * delta, b.train.getD (k * delta) 0, if training then trainEnc else 0)) ++
      (match b.valid with | [] => [] | v :: _ => [(b.train.length, v, testEnc)]) ∧
    ((gmS2sPlan b training first trainEnc testEnc delta).map (·.2.1)).Pairwise (· < ·) ∧
    ∀ s ∈ gmS2sPlan b training first trainEnc testEnc delta, s.2.1 ∈ b.train ++ b.valid := by
  obtain ⟨f1, f2⟩ := first_le b hsort first hf
  have hspec := C139_s2s_steps b.train b.valid delta first hd hsort hf
  have hlt : ∀ s ∈ gmS2sSteps b.train b.valid first (b.train.length + 1) 0 delta, s < (b.train ++ b.valid).length := by
    intro s hs
    rw [List.length_append]
    rcases ((hspec s).2).1 hs with h | ⟨h1, h2⟩
    · omega
    · have := List.length_pos_iff.2 h2
      omega
  refine ⟨?_, ?_, ?_⟩
  · unfold gmS2sPlan
    rw [s2s_run b.train b.valid first delta hd
      (fun k hk => f1 _ (gm_getD_mem b.train k hk 0))
      (fun v hv => f2 v (List.mem_of_mem_head? hv)) (b.train.length + 1) 0 (by omega) (by omega)]
    rw [List.map_append, List.map_map]
    congr 1
    · rw [Nat.sub_zero]
      apply List.map_congr_left
      intro k hk
      rw [List.mem_range, Nat.lt_div_iff_mul_lt (by omega)] at hk
      have hk2 : k * delta < b.train.length := by omega
      simp only [Function.comp, Nat.zero_add]
      have e : (b.train ++ b.valid).getD (k * delta) 0 = b.train.getD (k * delta) 0 := by
        rw [List.getD_eq_getElem?_getD, List.getD_eq_getElem?_getD, List.getElem?_append_left hk2]
      rw [e]
      unfold gmS2sWindows
      rw [if_neg (by have := f1 _ (gm_getD_mem b.train (k * delta) hk2 0); omega)]
    · rcases hv : b.valid with _ | ⟨v, r⟩
      · rfl
      · have e : (b.train ++ v :: r).getD b.train.length 0 = v := by
          simp [List.getD_eq_getElem?_getD]
        simp only [List.isEmpty_cons, Bool.false_eq_true, if_false, List.map_cons, List.map_nil, e]
        unfold gmS2sWindows
        rw [if_pos (f2 v (by rw [hv]; simp))]
  · unfold gmS2sPlan
    rw [List.map_map, List.pairwise_map]
    refine ((hspec 0).1).imp_of_mem fun {a c} ha hc h => ?_
    have := List.pairwise_iff_getElem.1 hsort a c (hlt a ha) (hlt c hc) h
    simp only [Function.comp]
    rw [List.getD_eq_getElem?_getD, List.getD_eq_getElem?_getD, List.getElem?_eq_getElem (hlt a ha),
      List.getElem?_eq_getElem (hlt c hc)]
    exact this
  · intro s hs
    obtain ⟨k, hk, rfl⟩ := List.mem_map.1 hs
    exact gm_getD_mem _ k (hlt k hk) 0

/-! ## What is collected -/

/-- The values of validation on their own scale. -/
def gmS2sActual (E : GmS2sEnv K σ τ) (b : GmBatchIn K) (i : Nat) : List (List (Option K)) :=
  (gmActual b.x i E.fw).mapIdx fun i r => r.map fun v => v.map (· - b.offset.getD i 0)

theorem s2s_calc_train (E : GmS2sEnv K σ τ) (J : GmJudge K V) (b : GmBatchIn K) (training monitor : Bool)
    (first : Nat) : ∀ (rs : List (Nat × List (Nat × List (List K)))) (acc : GmPassRes K V),
    (∀ r ∈ rs, r.1 < first) →
    rs.foldl (gmS2sCalc E J b training monitor first) acc = { acc with
      trainLoss := acc.trainLoss ++ if training then rs.map fun r =>
        (r.2.map fun w => J.loss w.2 ((gmActual b.x w.1 E.fw).map fun r => r.map fun v => v.map E.log)).sum
          / (r.2.length : K) else [] } := by
  intro rs
  induction rs with
  | nil => intro acc _; simp
  | cons r rs ih =>
    intro acc h
    rw [List.foldl_cons, ih _ fun r' hr' => h r' (List.mem_cons_of_mem _ hr')]
    have := h r List.mem_cons_self
    unfold gmS2sCalc
    rw [if_neg (by omega)]
    cases training <;> simp

/-- The result of a pass, from the forecasts of its steps. -/
theorem s2s_result (E : GmS2sEnv K σ τ) (q : Nat) (J : GmJudge K V) (b : GmBatchIn K) (hb : GmS2sGood E q b)
    (trainEnc testEnc : Nat) (enc : σ) (maxDelta softMax : Int) (training monitor : Bool) :
    ∃ (first : Nat) (r1 : List (Nat × List (Nat × List (List K)))) (fin : List (Nat × List (List K))) (res : GmPassRes K V),
      gmFirstValid b.train b.valid = .ok first ∧
      gmS2sTurns E b.x (gmS2sPlan b training first trainEnc testEnc
        (gmDelta maxDelta (b.train ++ b.valid).length 0 softMax)) ⟨b.x.map fun _ => [], enc, 0⟩ =
        .ok (r1 ++ if b.valid.isEmpty then [] else [(first, fin)]) ∧
      gmPassS2s E J b trainEnc testEnc enc maxDelta softMax training monitor = .ok res ∧
      r1.map (fun r => (r.1, r.2.map (·.1))) = (List.range ((b.train.length +
          gmDelta maxDelta (b.train ++ b.valid).length 0 softMax - 1) /
          gmDelta maxDelta (b.train ++ b.valid).length 0 softMax)).map (fun k =>
        (b.train.getD (k * gmDelta maxDelta (b.train ++ b.valid).length 0 softMax) 0,
          (List.range (if training then trainEnc else 0)).map fun j =>
            b.train.getD (k * gmDelta maxDelta (b.train ++ b.valid).length 0 softMax) 0 + j * E.fw)) ∧
      fin.map (·.1) = (if b.valid.isEmpty then [] else (List.range testEnc).map fun j => first + j * E.fw) ∧
      (∀ r ∈ r1, r.1 ∈ b.train ∧ ∀ w ∈ r.2, w.2.length = b.x.length ∧ ∀ row ∈ w.2, row.length = E.fw * q) ∧
      (∀ w ∈ fin, w.2.length = b.x.length ∧ ∀ row ∈ w.2, row.length = E.fw * q) ∧
      res.trainLoss = (if training then r1.map fun r =>
        (r.2.map fun w => J.loss w.2 ((gmActual b.x w.1 E.fw).map fun r => r.map fun v => v.map E.log)).sum
          / (r.2.length : K) else []) ∧
      res.fcst = (if training && !monitor then [] else fin.map fun w => gmS2sRestore E b w.2) ∧
      res.actual = (if training && monitor then fin.map fun w => gmS2sActual E b w.1 else []) ∧
      res.validRes = (if training then fin.map fun w => J.valid (gmS2sRestore E b w.2) (gmS2sActual E b w.1)
        else []) := by
  obtain ⟨first, hf⟩ := s2s_first b hb.train
  obtain ⟨delta, hdel⟩ : ∃ d, d = gmDelta maxDelta (b.train ++ b.valid).length 0 softMax := ⟨_, rfl⟩
  have hd : 1 ≤ delta := by rw [hdel]; exact delta_pos _ _ _ _
  rw [← hdel]
  obtain ⟨p1, p2, p3⟩ := s2s_plan b hb.sorted training first trainEnc testEnc delta hd hf
  obtain ⟨f1, f2⟩ := first_le b hb.sorted first hf
  obtain ⟨rs, e, k1, k2⟩ := s2s_turns_ok E q hb.net b.x hb.rows (gmS2sPlan b training first trainEnc testEnc delta)
    ⟨b.x.map fun _ => [], enc, 0⟩ ⟨by simp, by
      intro i xs hxs
      have hxs : (b.x.map fun _ => ([] : List K))[i]? = some xs := hxs
      rw [List.getElem?_map] at hxs
      rcases hxi : b.x[i]? with _ | r
      · rw [hxi] at hxs; cases hxs
      · rw [hxi] at hxs
        injection hxs with hxs
        rw [← hxs]
        exact filled_nil _ _⟩ p2 (by
      intro s hs
      obtain ⟨h3, h4⟩ := hb.index _ (p3 s hs)
      exact ⟨Nat.zero_le _, h3, h4⟩)
  have hpass : ∀ res, rs.foldl (gmS2sCalc E J b training monitor first) ⟨[], [], [], []⟩ = res →
      gmPassS2s E J b trainEnc testEnc enc maxDelta softMax training monitor = .ok res := by
    intro res hres
    unfold gmPassS2s
    show (gmFirstValid b.train b.valid >>= fun first => _) = _
    rw [hf]
    show (gmS2sTurns E b.x (List.map _ (gmS2sSteps b.train b.valid first (b.train.length + 1) 0 (gmDelta maxDelta
      (b.train ++ b.valid).length 0 softMax))) _ >>= fun res => _) = _
    rw [← hdel]
    have e' : gmS2sTurns E b.x (List.map (fun s => (s, (b.train ++ b.valid).getD s 0,
      gmS2sWindows training first trainEnc testEnc ((b.train ++ b.valid).getD s 0)))
      (gmS2sSteps b.train b.valid first (b.train.length + 1) 0 delta)) ⟨b.x.map fun _ => [], enc, 0⟩ = .ok rs := e
    rw [e', ← hres]
    rfl
  have hk1len := k1
  rw [p1, List.map_append, List.map_map] at k1
  obtain ⟨r1, r2, hrs, h1, h2⟩ := List.map_eq_append_iff.1 k1
  have hr1 : ∀ r ∈ r1, r.1 ∈ b.train := by
    intro r hr
    have : (r.1, r.2.map (·.1)) ∈ List.map (fun r : Nat × List (Nat × List (List K)) => (r.1, r.2.map (·.1))) r1 :=
      List.mem_map_of_mem (f := fun r : Nat × List (Nat × List (List K)) => (r.1, r.2.map (·.1))) hr
    rw [h1] at this
    obtain ⟨k, hk, ek⟩ := List.mem_map.1 this
    injection ek with ek _
    rw [List.mem_range, Nat.lt_div_iff_mul_lt (by omega)] at hk
    rw [← ek]
    exact gm_getD_mem b.train (k * delta) (by omega) 0
  have hcalc := s2s_calc_train E J b training monitor first r1 ⟨[], [], [], []⟩ fun r hr => f1 _ (hr1 r hr)
  simp only [List.nil_append] at hcalc
  rcases hv : b.valid with _ | ⟨v, vs⟩
  · rw [hv] at h2
    have hr2 : r2 = [] := by simpa using h2
    subst hr2
    rw [List.append_nil] at hrs
    subst hrs
    refine ⟨first, rs, [], _, by rw [← hv]; exact hf, by rw [e]; simp, hpass _ hcalc, h1, by simp,
      fun r hr => ⟨hr1 r hr, k2 r hr⟩, fun w hw => by simp at hw, rfl, ?_, ?_, ?_⟩
    · simp
    · simp
    · simp
  · have hfv : first = v := by
      rw [hv] at hf
      injection hf with hf
      exact hf.symm
    rw [hv] at h2
    obtain ⟨⟨i, fin⟩, rfl, hi⟩ : ∃ r, r2 = [r] ∧ (r.1, r.2.map (·.1)) =
        (v, (List.range testEnc).map fun j => v + j * E.fw) := by
      rcases r2 with _ | ⟨a, _ | ⟨b', r⟩⟩
      · simp at h2
      · refine ⟨a, rfl, ?_⟩
        simpa using h2
      · simp at h2
    injection hi with hi1 hi2
    have hi1 : i = v := hi1
    subst hi1 hfv
    have hfin : gmS2sCalc E J b training monitor first ⟨if training then r1.map fun r =>
        (r.2.map fun w => J.loss w.2 ((gmActual b.x w.1 E.fw).map fun r => r.map fun v => v.map E.log)).sum
          / (r.2.length : K) else [], [], [], []⟩ (first, fin) = ⟨if training then r1.map fun r =>
        (r.2.map fun w => J.loss w.2 ((gmActual b.x w.1 E.fw).map fun r => r.map fun v => v.map E.log)).sum
          / (r.2.length : K) else [],
        if training then fin.map fun w => J.valid (gmS2sRestore E b w.2) (gmS2sActual E b w.1) else [],
        if training && !monitor then [] else fin.map fun w => gmS2sRestore E b w.2,
        if training && monitor then fin.map fun w => gmS2sActual E b w.1 else []⟩ := by
      unfold gmS2sCalc
      rw [if_pos (le_refl _)]
      cases training
      · simp
      · have ez : List.zipWith J.valid (fin.map fun w => gmS2sRestore E b w.2) (fin.map fun w => gmS2sActual E b w.1) =
            fin.map fun w => J.valid (gmS2sRestore E b w.2) (gmS2sActual E b w.1) := by
          rw [List.zipWith_map, List.zipWith_self]
        cases monitor <;>
        · simp only [if_true, List.nil_append, Bool.not_true, Bool.not_false, Bool.and_false, Bool.and_self,
            Bool.false_eq_true, if_false]
          rw [← ez]
          rfl
    refine ⟨first, r1, fin, _, by rw [← hv]; exact hf, ?_, hpass _ (by
      rw [hrs, List.foldl_append, hcalc, List.foldl_cons, List.foldl_nil, hfin]), h1, ?_, ?_, ?_, rfl, rfl, rfl, rfl⟩
    · rw [e, hrs]
      simp
    · simpa using hi2
    · intro r hr
      exact ⟨hr1 r hr, k2 r (by rw [hrs]; exact List.mem_append_left _ hr)⟩
    · exact k2 (first, fin) (by rw [hrs]; simp)

end Kats

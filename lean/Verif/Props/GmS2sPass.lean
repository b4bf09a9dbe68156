import Verif.Props.GmS2s

/-!
# C140: what a pass of the encoder and decoder gives, and what it depends on
-/

namespace Kats

variable {K : Type} [Field K] [LinearOrder K] [IsStrictOrderedRing K] {σ τ V : Type}

/-! ## Forecasts and losses -/

/-- C140: a pass over a batch gives a forecast for each window of the decoder, each with a row for each series
and a column for each quantile and step, whatever the period and the step width. -/
theorem C140_forecasts (E : GmS2sEnv K σ τ) (q : Nat) (J : GmJudge K V) (b : GmBatchIn K) (hb : GmS2sGood E q b)
    (hv : b.valid ≠ []) (trainEnc testEnc : Nat) (enc : σ) (maxDelta softMax : Int) (monitor : Bool) :
    ∃ res, gmPassS2s E J b trainEnc testEnc enc maxDelta softMax false monitor = .ok res ∧
      res.trainLoss = [] ∧ res.validRes = [] ∧ res.actual = [] ∧ res.fcst.length = testEnc ∧
      ∀ f ∈ res.fcst, f.length = b.x.length ∧ ∀ r ∈ f, r.length = E.fw * q := by
  obtain ⟨first, r1, fin, res, h1, h2, h3, h4, h5, h6, h7, h8, h9, h10, h11⟩ :=
    s2s_result E q J b hb trainEnc testEnc enc maxDelta softMax false monitor
  rw [if_neg (by simpa using hv)] at h5
  have hl : fin.length = testEnc := by
    have := congrArg List.length h5
    simpa using this
  refine ⟨res, h3, h8, h11, h10, ?_, ?_⟩
  · rw [h9]; simp [hl]
  · intro f hf
    rw [h9] at hf
    simp only [Bool.false_and, Bool.false_eq_true, if_false, List.mem_map] at hf
    obtain ⟨w, hw, rfl⟩ := hf
    obtain ⟨g1, g2⟩ := h7 w hw
    unfold gmS2sRestore
    refine ⟨by simp [g1], ?_⟩
    intro row hrow
    obtain ⟨i, hi, rfl⟩ := List.mem_mapIdx.1 hrow
    rw [List.length_map]
    exact g2 _ (List.getElem_mem _)

/-- C140: the windows of the decoder are the windows of validation that `GMBatch` gives. -/
theorem C140_indices (p : GmParams) (hp : GmWf p) (training : Bool) (lens : List Nat) (valid : Option (List Nat))
    (r1 r2 : Nat) (ix : GmIndices) (h : gmIndices p training lens valid r1 r2 = .ok ix) (hr : p.rnn = false)
    (hv : ix.valid ≠ []) (first : Nat) (hf : gmFirstValid ix.train ix.valid = .ok first) :
    (List.range ix.testEnc).map (fun j => first + j * p.fcstWindow) = ix.valid := by
  have key : ∀ n, (∀ i, i ∈ ix.valid ↔ ix.reduced ≤ i ∧ i + p.fcstWindow ≤ ix.reduced + p.fcstWindow * n ∧
      p.fcstWindow ∣ i - ix.reduced) → ix.valid.Pairwise (· < ·) →
      (List.range n).map (fun j => first + j * p.fcstWindow) = ix.valid := by
    intro n hmem hsort
    have hfw := hp.fw
    obtain ⟨v, vs, hvs⟩ := List.exists_cons_of_ne_nil hv
    have hfirst : first = ix.reduced := by
      rw [hvs] at hf
      injection hf with hf
      have h1 := (hmem v).1 (by rw [hvs]; simp)
      have h2 : ix.reduced ∈ ix.valid := (hmem ix.reduced).2 ⟨le_refl _, by
        have : 1 ≤ n := by
          rcases n with _ | n
          · omega
          · omega
        have := Nat.mul_le_mul_left p.fcstWindow this
        omega, by simp⟩
      rw [hvs] at h2
      rcases List.mem_cons.1 h2 with h2 | h2
      · omega
      · rw [hvs] at hsort
        have := (List.pairwise_cons.1 hsort).1 _ h2
        omega
    refine List.Pairwise.eq_of_mem_iff (r := (· < ·)) ?_ hsort ?_
    rotate_left
    · intro a
      rw [hmem, List.mem_map]
      constructor
      · rintro ⟨j, hj, rfl⟩
        rw [List.mem_range] at hj
        have : (j + 1) * p.fcstWindow ≤ n * p.fcstWindow := Nat.mul_le_mul_right _ (by omega)
        rw [Nat.add_mul, Nat.mul_comm n] at this
        refine ⟨by omega, by omega, ?_⟩
        rw [hfirst, Nat.add_sub_cancel_left]
        exact Dvd.intro_left j rfl
      · rintro ⟨h1, h2, k, hk⟩
        refine ⟨k, ?_, ?_⟩
        · rw [List.mem_range]
          by_contra hc
          have : p.fcstWindow * n ≤ p.fcstWindow * k := Nat.mul_le_mul_left _ (by omega)
          omega
        · rw [hfirst, Nat.mul_comm]
          omega
    · rw [List.pairwise_map]
      refine List.pairwise_lt_range.imp fun {a c} h => ?_
      have := Nat.mul_lt_mul_of_pos_right h hfw
      omega
  cases training with
  | true =>
    obtain ⟨h1, h2, h3, h4, h5, h6, h7, h8, h9, h10, h11, h12, h13, h14⟩ :=
      C136_train_indices p hp lens valid r1 r2 ix h
    rcases valid with _ | v
    · exact absurd (h12 rfl) hv
    · obtain ⟨g1, g2⟩ := h14 v rfl hr
      refine key ix.testEnc ?_ h10
      intro i
      rw [h9, h11, g1, g2]
  | false =>
    obtain ⟨h1, h2, h3, h4, h5, h6, h7, h8, h9, h10, h11⟩ := C136_test_indices p hp lens valid r1 r2 ix h
    have ht : ix.testEnc = p.fcstSteps := by
      unfold gmIndices at h
      rcases hmn : lens.min? with _ | mn
      · rw [hmn] at h; cases h
      rcases hmx : lens.max? with _ | mx
      · rw [hmn, hmx] at h; cases h
      rw [hmn, hmx] at h
      simp only [] at h
      by_cases hs : mn < p.seasonality
      · rw [if_pos hs] at h; cases h
      · rw [if_neg hs, if_neg (by simp)] at h
        injection h with h
        rw [← h]
    refine key ix.testEnc ?_ h9
    intro i
    rw [h8, h11, ht]

/-- C140: in training there is a loss for each step, and a result for each window of validation: the judgement of
its forecast beside the values at its own place. -/
theorem C140_training (E : GmS2sEnv K σ τ) (q : Nat) (J : GmJudge K V) (b : GmBatchIn K) (hb : GmS2sGood E q b)
    (trainEnc testEnc : Nat) (enc : σ) (maxDelta softMax : Int) :
    ∃ res first, gmPassS2s E J b trainEnc testEnc enc maxDelta softMax true true = .ok res ∧
      gmFirstValid b.train b.valid = .ok first ∧
      1 ≤ res.trainLoss.length ∧ res.trainLoss.length ≤ b.train.length ∧
      b.train.length ≤ res.trainLoss.length * gmDelta maxDelta (b.train ++ b.valid).length 0 softMax ∧
      res.actual = (if b.valid.isEmpty then [] else (List.range testEnc).map fun j =>
        (gmActual b.x (first + j * E.fw) E.fw).mapIdx fun i r => r.map fun v => v.map (· - b.offset.getD i 0)) ∧
      res.fcst.length = res.actual.length ∧ res.validRes = List.zipWith J.valid res.fcst res.actual := by
  obtain ⟨first, r1, fin, res, h1, h2, h3, h4, h5, h6, h7, h8, h9, h10, h11⟩ :=
    s2s_result E q J b hb trainEnc testEnc enc maxDelta softMax true true
  obtain ⟨delta, hdel⟩ : ∃ d, d = gmDelta maxDelta (b.train ++ b.valid).length 0 softMax := ⟨_, rfl⟩
  have hd : 1 ≤ delta := by rw [hdel]; exact delta_pos _ _ _ _
  rw [← hdel] at h4 ⊢
  have hl : res.trainLoss.length = (b.train.length + delta - 1) / delta := by
    have := congrArg List.length h4
    simp only [List.length_map, List.length_range] at this
    rw [h8, if_pos rfl, List.length_map, this]
  have hT : 1 ≤ b.train.length := List.length_pos_iff.2 hb.train
  simp only [Bool.and_self, Bool.not_true, Bool.and_false, Bool.false_eq_true, if_false, if_true] at h9 h10 h11
  refine ⟨res, first, h3, h1, ?_, ?_, ?_, ?_, by rw [h9, h10]; simp, ?_⟩
  · rw [hl, Nat.le_div_iff_mul_le (by omega)]
    omega
  · rw [hl, Nat.div_le_iff_le_mul_add_pred (by omega)]
    have := Nat.le_mul_of_pos_left b.train.length (show 0 < delta by omega)
    omega
  · rw [hl]
    have := Nat.div_add_mod (b.train.length + delta - 1) delta
    have h3 := Nat.mod_lt (b.train.length + delta - 1) (show 0 < delta by omega)
    rw [Nat.mul_comm] at this
    omega
  · rw [h10]
    have : fin.map (fun w => gmS2sActual E b w.1) = (fin.map (·.1)).map (gmS2sActual E b) := by
      rw [List.map_map]; rfl
    rw [this, h5]
    split
    · rfl
    · rw [List.map_map]; rfl
  · rw [h11, h9, h10, List.zipWith_map, List.zipWith_self]

theorem gm_mean_bounds (l : List K) (hl : l ≠ []) (lo hi : K) (h : ∀ v ∈ l, lo ≤ v ∧ v ≤ hi) :
    lo ≤ l.sum / (l.length : K) ∧ l.sum / (l.length : K) ≤ hi := by
  have hpos : (0 : K) < l.length := by
    rw [Nat.cast_pos]
    exact List.length_pos_iff.2 hl
  have hb : lo * l.length ≤ l.sum ∧ l.sum ≤ hi * l.length := by
    clear hl hpos
    induction l with
    | nil => simp
    | cons a l ih =>
      obtain ⟨i1, i2⟩ := ih fun v hv => h v (List.mem_cons_of_mem _ hv)
      obtain ⟨a1, a2⟩ := h a List.mem_cons_self
      rw [List.sum_cons, List.length_cons]
      push_cast
      constructor
      · rw [mul_add, mul_one, add_comm]; exact add_le_add a1 i1
      · rw [mul_add, mul_one, add_comm (hi * _)]; exact add_le_add a2 i2
  exact ⟨(le_div_iff₀ hpos).2 hb.1, (div_le_iff₀ hpos).2 hb.2⟩

/-- C140: the loss of a step is the mean of the losses of its windows: it lies between their bounds, however many
windows there are. -/
theorem C140_mean (E : GmS2sEnv K σ τ) (q : Nat) (J : GmJudge K V) (b : GmBatchIn K) (hb : GmS2sGood E q b)
    (trainEnc testEnc : Nat) (ht : 1 ≤ trainEnc) (enc : σ) (maxDelta softMax : Int) (monitor : Bool) (lo hi : K)
    (hJ : ∀ f a, lo ≤ J.loss f a ∧ J.loss f a ≤ hi) (res : GmPassRes K V)
    (h : gmPassS2s E J b trainEnc testEnc enc maxDelta softMax true monitor = .ok res) :
    ∀ l ∈ res.trainLoss, lo ≤ l ∧ l ≤ hi := by
  obtain ⟨first, r1, fin, res', h1, h2, h3, h4, h5, h6, h7, h8, h9, h10, h11⟩ :=
    s2s_result E q J b hb trainEnc testEnc enc maxDelta softMax true monitor
  rw [h] at h3
  injection h3 with h3
  subst h3
  intro l hl
  rw [h8, if_pos rfl] at hl
  obtain ⟨r, hr, rfl⟩ := List.mem_map.1 hl
  have hne : r.2 ≠ [] := by
    have : (r.1, r.2.map (·.1)) ∈ List.map (fun r : Nat × List (Nat × List (List K)) => (r.1, r.2.map (·.1))) r1 :=
      List.mem_map_of_mem (f := fun r : Nat × List (Nat × List (List K)) => (r.1, r.2.map (·.1))) hr
    rw [h4] at this
    obtain ⟨k, hk, ek⟩ := List.mem_map.1 this
    injection ek with _ ek
    have := congrArg List.length ek
    simp only [List.length_map, List.length_range, if_true] at this
    intro h0
    rw [h0] at this
    simp at this
    omega
  have e := gm_mean_bounds (r.2.map fun w => J.loss w.2 ((gmActual b.x w.1 E.fw).map fun r => r.map fun v => v.map E.log))
    (by simpa using hne) lo hi (by
      intro v hv
      obtain ⟨w, _, rfl⟩ := List.mem_map.1 hv
      exact hJ _ _)
  rw [List.length_map] at e
  exact e

/-- C140 violated: unlike the RNN, the encoder and decoder may leave out the last window of training: here every
second one is visited, and the last, the only one that ends with the last value of training, is not. -/
theorem C140_last_violated : ∃ (p : GmParams) (_ : GmWf p) (ix : GmIndices),
    gmIndices p true [30] none 0 10 = .ok ix ∧ p.rnn = false ∧ ix.train.length = 16 ∧ ix.trainEnc = 1 ∧
    ix.train.getLast? = some (ix.reduced - p.fcstWindow) ∧
    gmS2sSteps ix.train ix.valid 26 (ix.train.length + 1) 0 (gmDelta 4 (ix.train ++ ix.valid).length 0 8) =
      [0, 2, 4, 6, 8, 10, 12, 14] ∧ gmFirstValid ix.train ix.valid = .ok 26 ∧
    15 ∈ gmRnnSteps 16 15 16 0 (gmDelta 4 (ix.train ++ ix.valid).length 0 8) := by
  refine ⟨⟨10, 5, 1, 5, 1, 3, 1, 2, 1, false, 3, 1 / 10, 10⟩, ⟨by decide, by decide, by decide, by decide,
    by decide, by decide, by decide, by decide⟩, ⟨30, 0, gmArange 10 26 1, [], 1, 2⟩, rfl, rfl,
    by decide, rfl, by decide, by decide, rfl, by decide⟩

/-! ## Later values -/

theorem s2s_turn_past (E : GmS2sEnv K σ τ) (x y : List (List (Option K))) (hxy : x.length = y.length)
    (st : GmS2sLoop K σ) (step cur n : Nat) (h : ∀ i k, k < cur → (x.getD i [])[k]? = (y.getD i [])[k]?) :
    gmS2sTurn E x st step cur n = gmS2sTurn E y st step cur n := by
  have : gmS2sRow E x st cur = gmS2sRow E y st cur := by
    funext i
    unfold gmS2sRow
    rcases st.rows[i]? with _ | t
    · rfl
    · exact C140_process_past E.period E.iw _ _ t st.prev cur (h i)
  unfold gmS2sTurn
  rw [this, hxy]

/-- C140: the forecasts of the loop up to an index depend only on the values before it. -/
theorem C140_turns_past (E : GmS2sEnv K σ τ) (x y : List (List (Option K))) (hxy : x.length = y.length) (N : Nat)
    (h : ∀ i k, k < N → (x.getD i [])[k]? = (y.getD i [])[k]?) :
    ∀ (steps : List (Nat × Nat × Nat)) (st : GmS2sLoop K σ), (∀ s ∈ steps, s.2.1 ≤ N) →
    gmS2sTurns E x steps st = gmS2sTurns E y steps st := by
  intro steps
  induction steps with
  | nil => intro st _; rfl
  | cons s steps ih =>
    intro st hs
    have e := s2s_turn_past E x y hxy st s.1 s.2.1 s.2.2 fun i k hk => h i k (by
      have := hs s List.mem_cons_self; omega)
    unfold gmS2sTurns
    rw [e]
    congr 1
    funext a
    rw [ih a.1 fun s' hs' => hs s' (List.mem_cons_of_mem _ hs')]

theorem s2s_turns_append (E : GmS2sEnv K σ τ) (x : List (List (Option K))) :
    ∀ (A B : List (Nat × Nat × Nat)) (st : GmS2sLoop K σ) (rs : List (Nat × List (Nat × List (List K)))),
    gmS2sTurns E x (A ++ B) st = .ok rs →
    ∃ r1 r2, gmS2sTurns E x A st = .ok r1 ∧ rs = r1 ++ r2 ∧ r1.length = A.length := by
  intro A
  induction A with
  | nil => intro B st rs _; exact ⟨[], rs, rfl, rfl, rfl⟩
  | cons s A ih =>
    intro B st rs h
    rw [List.cons_append] at h
    unfold gmS2sTurns at h
    obtain ⟨a, e1, h⟩ := (gm_bind_ok _ _ _).1 h
    obtain ⟨b, e2, h⟩ := (gm_bind_ok _ _ _).1 h
    injection h with h
    subst h
    obtain ⟨r1, r2, g1, g2, g3⟩ := ih B a.1 b e2
    refine ⟨(s.2.1, a.2) :: r1, r2, ?_, by rw [g2]; rfl, by simp [g3]⟩
    unfold gmS2sTurns
    rw [e1]
    show (gmS2sTurns E x A a.1 >>= fun b => _) = _
    rw [g1]
    rfl

/-- C140: forecasts depend only on the values before the first window forecast. -/
theorem C140_causal (E : GmS2sEnv K σ τ) (q : Nat) (J : GmJudge K V) (b b' : GmBatchIn K) (hb : GmS2sGood E q b)
    (hb' : GmS2sGood E q b') (ht : b'.train = b.train) (hv : b'.valid = b.valid) (ho : b'.offset = b.offset)
    (hn : b'.x.length = b.x.length) (first : Nat) (hf : gmFirstValid b.train b.valid = .ok first)
    (h : ∀ i k, k < first → (b.x.getD i [])[k]? = (b'.x.getD i [])[k]?) (trainEnc testEnc : Nat) (enc : σ)
    (maxDelta softMax : Int) (monitor : Bool) (res res' : GmPassRes K V)
    (h1 : gmPassS2s E J b trainEnc testEnc enc maxDelta softMax false monitor = .ok res)
    (h1' : gmPassS2s E J b' trainEnc testEnc enc maxDelta softMax false monitor = .ok res') :
    res'.fcst = res.fcst := by
  obtain ⟨f, r1, fin, r, g1, g2, g3, g4, g5, g6, g7, g8, g9, g10, g11⟩ :=
    s2s_result E q J b hb trainEnc testEnc enc maxDelta softMax false monitor
  obtain ⟨f', r1', fin', r', k1, k2, k3, k4, k5, k6, k7, k8, k9, k10, k11⟩ :=
    s2s_result E q J b' hb' trainEnc testEnc enc maxDelta softMax false monitor
  rw [h1] at g3
  injection g3 with g3
  subst g3
  rw [h1'] at k3
  injection k3 with k3
  subst k3
  rw [ht, hv] at k1 k2 k4
  rw [hv] at k5
  rw [hf] at g1 k1
  injection g1 with g1
  injection k1 with k1
  subst g1 k1
  have hplan : gmS2sPlan b' false first trainEnc testEnc (gmDelta maxDelta (b.train ++ b.valid).length 0 softMax) =
      gmS2sPlan b false first trainEnc testEnc (gmDelta maxDelta (b.train ++ b.valid).length 0 softMax) := by
    unfold gmS2sPlan
    rw [ht, hv]
  obtain ⟨p1, p2, p3⟩ := s2s_plan b hb.sorted false first trainEnc testEnc
    (gmDelta maxDelta (b.train ++ b.valid).length 0 softMax) (delta_pos _ _ _ _) hf
  obtain ⟨f1, f2⟩ := first_le b hb.sorted first hf
  have hinit : (b'.x.map fun _ => ([] : List K)) = b.x.map fun _ => [] := by
    rw [List.map_const', List.map_const', hn]
  have hN : ∀ s ∈ gmS2sPlan b false first trainEnc testEnc (gmDelta maxDelta (b.train ++ b.valid).length 0 softMax),
      s.2.1 ≤ first := by
    intro s hs
    rw [p1] at hs
    rcases List.mem_append.1 hs with hs | hs
    · obtain ⟨k, hk, rfl⟩ := List.mem_map.1 hs
      have hd := delta_pos maxDelta (b.train ++ b.valid).length 0 softMax
      rw [List.mem_range, Nat.lt_div_iff_mul_lt (by omega)] at hk
      exact le_of_lt (f1 _ (gm_getD_mem b.train _ (by omega) 0))
    · rcases hvv : b.valid with _ | ⟨v, vs⟩
      · rw [hvv] at hs; simp at hs
      · rw [hvv] at hs hf
        simp only [List.mem_singleton] at hs
        injection hf with hf
        rw [hs]
        exact le_of_eq hf
  rw [hplan, hinit, ← C140_turns_past E b.x b'.x hn.symm first h _ _ hN, g2] at k2
  injection k2 with k2
  obtain ⟨_, k2⟩ := List.append_inj k2 (by
    have e1 := congrArg List.length g4
    have e2 := congrArg List.length k4
    simp only [List.length_map] at e1 e2
    omega)
  rw [g9, k9]
  simp only [Bool.false_and, Bool.false_eq_true, if_false]
  have hfin : fin' = fin := by
    by_cases he : b.valid.isEmpty
    · rw [if_pos he] at g5 k5
      rw [List.map_eq_nil_iff] at g5 k5
      rw [g5, k5]
    · rw [if_neg he, if_neg he] at k2
      injection k2 with k2
      injection k2 with _ k2
      exact k2.symm
  rw [hfin]
  unfold gmS2sRestore
  rw [ho]

/-- C140: the losses of training depend only on the values up to the end of the last training window, and so on no
value of validation. -/
theorem C140_no_leak (E : GmS2sEnv K σ τ) (q : Nat) (J : GmJudge K V) (b b' : GmBatchIn K) (hb : GmS2sGood E q b)
    (hb' : GmS2sGood E q b') (ht : b'.train = b.train) (hv : b'.valid = b.valid)
    (hn : b'.x.length = b.x.length) (trainEnc testEnc N : Nat) (hN : ∀ i ∈ b.train, i + trainEnc * E.fw ≤ N)
    (h : ∀ i k, k < N → (b.x.getD i [])[k]? = (b'.x.getD i [])[k]?) (enc : σ)
    (maxDelta softMax : Int) (monitor : Bool) (res res' : GmPassRes K V)
    (h1 : gmPassS2s E J b trainEnc testEnc enc maxDelta softMax true monitor = .ok res)
    (h1' : gmPassS2s E J b' trainEnc testEnc enc maxDelta softMax true monitor = .ok res') :
    res'.trainLoss = res.trainLoss := by
  obtain ⟨first, r1, fin, r, hf, g2, g3, g4, g5, g6, g7, g8, g9, g10, g11⟩ :=
    s2s_result E q J b hb trainEnc testEnc enc maxDelta softMax true monitor
  obtain ⟨f', r1', fin', r', k1, k2, k3, k4, k5, k6, k7, k8, k9, k10, k11⟩ :=
    s2s_result E q J b' hb' trainEnc testEnc enc maxDelta softMax true monitor
  rw [h1] at g3
  injection g3 with g3
  subst g3
  rw [h1'] at k3
  injection k3 with k3
  subst k3
  rw [ht, hv] at k1 k2 k4
  rw [hv] at k5
  rw [hf] at k1
  injection k1 with k1
  subst k1
  obtain ⟨delta, hdel⟩ : ∃ d, d = gmDelta maxDelta (b.train ++ b.valid).length 0 softMax := ⟨_, rfl⟩
  have hd : 1 ≤ delta := by rw [hdel]; exact delta_pos _ _ _ _
  rw [← hdel] at g2 g4 k2 k4
  have hplan : gmS2sPlan b' true first trainEnc testEnc delta = gmS2sPlan b true first trainEnc testEnc delta := by
    unfold gmS2sPlan
    rw [ht, hv]
  obtain ⟨p1, p2, p3⟩ := s2s_plan b hb.sorted true first trainEnc testEnc delta hd hf
  have hinit : (b'.x.map fun _ => ([] : List K)) = b.x.map fun _ => [] := by
    rw [List.map_const', List.map_const', hn]
  rw [hplan, hinit, p1] at k2
  rw [p1] at g2
  obtain ⟨a1, a2, c1, c2, c3⟩ := s2s_turns_append E b.x _ _ _ _ g2
  obtain ⟨a1', a2', d1, d2, d3⟩ := s2s_turns_append E b'.x _ _ _ _ k2
  have l1 : r1.length = (b.train.length + delta - 1) / delta := by
    have := congrArg List.length g4
    simpa using this
  have l2 : r1'.length = (b.train.length + delta - 1) / delta := by
    have := congrArg List.length k4
    simpa using this
  simp only [List.length_map, List.length_range] at c3 d3
  obtain ⟨c2, _⟩ := List.append_inj c2 (by omega)
  obtain ⟨d2, _⟩ := List.append_inj d2 (by omega)
  subst c2 d2
  rw [← C140_turns_past E b.x b'.x hn.symm N h _ _ (by
    intro s hs
    obtain ⟨k, hk, rfl⟩ := List.mem_map.1 hs
    rw [List.mem_range, Nat.lt_div_iff_mul_lt (by omega)] at hk
    have := hN _ (gm_getD_mem b.train (k * delta) (by omega) 0)
    show b.train.getD (k * delta) 0 ≤ N
    omega), c1] at d1
  injection d1 with d1
  subst d1
  rw [g8, k8, if_pos rfl, if_pos rfl]
  apply List.map_congr_left
  intro r hr
  congr 2
  apply List.map_congr_left
  intro w hw
  have hwN : w.1 + E.fw ≤ N := by
    have : (r.1, r.2.map (·.1)) ∈ List.map (fun r : Nat × List (Nat × List (List K)) => (r.1, r.2.map (·.1))) r1 :=
      List.mem_map_of_mem (f := fun r : Nat × List (Nat × List (List K)) => (r.1, r.2.map (·.1))) hr
    rw [g4] at this
    obtain ⟨k, hk, ek⟩ := List.mem_map.1 this
    injection ek with e1 ek
    have hw1 : w.1 ∈ r.2.map (·.1) := List.mem_map_of_mem hw
    rw [← ek] at hw1
    obtain ⟨j, hj, ej⟩ := List.mem_map.1 hw1
    simp only [if_true, List.mem_range] at hj
    have h5 := hN _ (g6 r hr).1
    rw [e1] at ej
    have : (j + 1) * E.fw ≤ trainEnc * E.fw := Nat.mul_le_mul_right _ (by omega)
    rw [Nat.add_mul] at this
    omega
  have : gmActual b'.x w.1 E.fw = gmActual b.x w.1 E.fw := by
    unfold gmActual
    apply List.ext_getElem?
    intro i
    rw [List.getElem?_map, List.getElem?_map]
    by_cases hi : i < b.x.length
    · have hg := h i
      rw [gm_getD_of_lt b.x i hi [], gm_getD_of_lt b'.x i (by omega) []]
      show some _ = some _
      congr 1
      apply List.ext_getElem?
      intro k
      by_cases hk : k < E.fw
      · rw [List.getElem?_take_of_lt hk, List.getElem?_take_of_lt hk, List.getElem?_drop, List.getElem?_drop,
          hg _ (by omega)]
      · rw [List.getElem?_eq_none (by simp; omega), List.getElem?_eq_none (by simp; omega)]
    · rw [List.getElem?_eq_none (by omega), List.getElem?_eq_none (by omega)]
  rw [this]

end Kats

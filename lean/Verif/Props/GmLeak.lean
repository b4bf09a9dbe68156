import Verif.Props.GmRun
import Mathlib.Tactic.FieldSimp
import Mathlib.Tactic.NormNum

/-!
# C139: what a pass depends on, and when it fails
-/

namespace Kats

variable {K : Type} [Field K] [LinearOrder K] [IsStrictOrderedRing K] {σ V : Type}

theorem sorted_split (N : Nat) : ∀ l : List (Nat × Nat), (l.map (·.2)).Pairwise (· < ·) →
    l = (l.filter fun s => decide (s.2 ≤ N)) ++ l.filter fun s => decide (N < s.2) := by
  intro l
  induction l with
  | nil => intro _; rfl
  | cons s l ih =>
    intro h
    rw [List.map_cons, List.pairwise_cons] at h
    by_cases hs : s.2 ≤ N
    · rw [List.filter_cons_of_pos (by simpa using hs), List.filter_cons_of_neg (by simpa using hs), List.cons_append,
        ← ih h.2]
    · have : (l.filter fun s => decide (s.2 ≤ N)) = [] := by
        rw [List.filter_eq_nil_iff]
        intro r hr
        have := h.1 r.2 (List.mem_map_of_mem hr)
        simp only [decide_eq_true_eq]
        omega
      rw [List.filter_cons_of_neg (by simpa using hs), this, List.nil_append,
        List.filter_cons_of_pos (by simp; omega)]
      congr 1
      symm
      rw [List.filter_eq_self]
      intro r hr
      have := h.1 r.2 (List.mem_map_of_mem hr)
      simp only [decide_eq_true_eq]
      omega

theorem first_le (b : GmBatchIn K) (hsort : (b.train ++ b.valid).Pairwise (· < ·)) (first : Nat)
    (hf : gmFirstValid b.train b.valid = .ok first) :
    (∀ i ∈ b.train, i < first) ∧ ∀ i ∈ b.valid, first ≤ i := by
  obtain ⟨h1, h2, h3⟩ := List.pairwise_append.1 hsort
  rcases hv : b.valid with _ | ⟨v, r⟩
  · rw [hv] at hf
    unfold gmFirstValid at hf
    rcases hg : b.train.getLast? with _ | t
    · simp only [hg] at hf; cases hf
    · simp only [hg] at hf
      injection hf with hf
      refine ⟨?_, by simp⟩
      intro i hi
      rw [List.getLast?_eq_some_iff] at hg
      obtain ⟨ys, hys⟩ := hg
      rw [hys] at hi h1
      rcases List.mem_append.1 hi with hi | hi
      · have := (List.pairwise_append.1 h1).2.2 i hi t (by simp)
        omega
      · simp only [List.mem_singleton] at hi
        omega
  · rw [hv] at hf h2 h3
    injection hf with hf
    subst hf
    refine ⟨fun i hi => h3 i hi v (by simp), ?_⟩
    intro i hi
    rcases List.mem_cons.1 hi with rfl | hi
    · exact le_refl _
    · exact le_of_lt ((List.pairwise_cons.1 h2).1 i hi)

/-- C139: the losses of training depend only on the values up to the end of the last training window, and so on
no value of validation: two batches that agree on those have the same losses. -/
theorem C139_no_leak (E : GmEnv K σ) (J : GmJudge K V) (b b' : GmBatchIn K) (hb : GmGood E b)
    (h2 : 2 ≤ b.train.length) (ht : b'.train = b.train) (hv : b'.valid = b.valid) (hs : b'.season = b.season)
    (hn : b'.x.length = b.x.length) (N : Nat) (hN : ∀ i ∈ b.train, i + E.fw ≤ N)
    (h : ∀ i k, k < N → (b.x.getD i [])[k]? = (b'.x.getD i [])[k]?)
    (net : σ) (smooth : List K) (maxDelta validSteps softMax : Int) (monitor : Bool) (res res' : GmPassRes K V)
    (h1 : gmPassRnn E J b net smooth maxDelta validSteps softMax true monitor = .ok res)
    (h1' : gmPassRnn E J b' net smooth maxDelta validSteps softMax true monitor = .ok res') :
    res'.trainLoss = res.trainLoss := by
  unfold gmPassRnn at h1 h1'
  obtain ⟨st, e1, h1⟩ := (gm_bind_ok _ _ _).1 h1
  obtain ⟨first, hf, h1⟩ := (gm_bind_ok _ _ _).1 h1
  obtain ⟨st', e1', h1'⟩ := (gm_bind_ok _ _ _).1 h1'
  obtain ⟨first', hf', h1'⟩ := (gm_bind_ok _ _ _).1 h1'
  rw [ht, hv] at hf' h1'
  rw [hf] at hf'
  injection hf' with hf'
  subst hf'
  have hst : st' = st := by
    unfold gmLoopInit at e1 e1'
    rcases smooth with _ | ⟨l, _ | ⟨s, r⟩⟩
    · cases e1
    · cases e1
    · injection e1 with e1
      injection e1' with e1'
      rw [← e1, ← e1', hs, hn]
      simp only [List.map_const', hn]
  rw [hst] at h1'
  obtain ⟨rs, e2, h1⟩ := (gm_bind_ok _ _ _).1 h1
  obtain ⟨rs', e2', h1'⟩ := (gm_bind_ok _ _ _).1 h1'
  injection h1 with h1
  injection h1' with h1'
  obtain ⟨delta, hdel⟩ : ∃ d, d = gmDelta maxDelta (b.train ++ b.valid).length validSteps softMax := ⟨_, rfl⟩
  have hd : 1 ≤ delta := by rw [hdel]; exact delta_pos _ _ _ _
  obtain ⟨p1, p2, p3, p4⟩ := plan_spec b hb.sorted h2 delta first hd hf
  rw [← hdel] at e2 e2'
  have e2 : gmTurns E b.x (gmPlan b delta) st = .ok rs := e2
  have e2' : gmTurns E b'.x (gmPlan b delta) st = .ok rs' := e2'
  obtain ⟨f1, f2⟩ := first_le b hb.sorted first hf
  have hfirst : 1 ≤ first := by
    rcases htr : b.train with _ | ⟨a, r⟩
    · rw [htr] at h2; simp at h2
    · have := f1 a (by rw [htr]; simp)
      omega
  rw [sorted_split (first - 1) _ p1] at e2 e2'
  -- the indices before the first of validation are of training
  have hA : ∀ s ∈ (gmPlan b delta).filter (fun s => decide (s.2 ≤ first - 1)), s.2 ∈ b.train := by
    intro s hs'
    rw [List.mem_filter, decide_eq_true_eq] at hs'
    rcases List.mem_append.1 (p2 s hs'.1) with hm | hm
    · exact hm
    · have := f2 _ hm; omega
  obtain ⟨r1, r2, g1, rfl, g3⟩ := turns_append E b.x _ _ st rs e2
  obtain ⟨r1', r2', g1', rfl, g3'⟩ := turns_append E b'.x _ _ st rs' e2'
  rw [C139_turns_past E b.x b'.x hn.symm N h _ st (by
    intro s hs'
    have hm := hA s hs'
    have := hN _ hm
    have := (hb.index _ (List.mem_append_left _ hm)).1
    have := hb.net.iw
    omega), g1'] at g1
  injection g1 with g1
  subst g1
  have g0 := turns_idx E b'.x _ st r1' g1'
  obtain ⟨c1, _⟩ := calc_train E J b monitor first (r1' ++ r2) ⟨[], [], [], []⟩
  obtain ⟨c1', _⟩ := calc_train E J b' monitor first (r1' ++ r2') ⟨[], [], [], []⟩
  rw [h1] at c1
  rw [h1'] at c1'
  rw [c1, c1']
  simp only [List.nil_append, List.filter_append]
  have key : ∀ r2 : List (Nat × List (List K)),
      r2.map (·.1) = ((gmPlan b delta).filter fun s => decide (first - 1 < s.2)).map (·.2) →
      (r2.filter fun r => !decide (first ≤ r.1)) = [] := by
    intro r2 hr
    rw [List.filter_eq_nil_iff]
    intro r hr2
    have : r.1 ∈ ((gmPlan b delta).filter fun s => decide (first - 1 < s.2)).map (·.2) := by
      rw [← hr]; exact List.mem_map_of_mem hr2
    obtain ⟨s, hs', e⟩ := List.mem_map.1 this
    rw [List.mem_filter, decide_eq_true_eq] at hs'
    simp only [Bool.not_eq_true', decide_eq_false_iff_not, not_not]
    omega
  rw [key r2 g3, key r2' g3', List.append_nil]
  apply List.map_congr_left
  intro r hr
  have hr1 : r.1 ∈ b.train := by
    have : r.1 ∈ ((gmPlan b delta).filter fun s => decide (s.2 ≤ first - 1)).map (·.2) := by
      rw [← g0]; exact List.mem_map_of_mem (List.mem_filter.1 hr).1
    obtain ⟨s, hs', e⟩ := List.mem_map.1 this
    rw [← e]
    exact hA s hs'
  have hrN := hN _ hr1
  have : gmActual b'.x r.1 E.fw = gmActual b.x r.1 E.fw := by
    unfold gmActual
    apply List.ext_getElem?
    intro i
    rw [List.getElem?_map, List.getElem?_map]
    by_cases hi : i < b.x.length
    · have hg := h i
      rw [gm_getD_of_lt b.x i hi [], gm_getD_of_lt b'.x i (by omega) []]
      show some _ = some _
      congr 1
      apply List.ext_getElem?
      intro k
      by_cases hk : k < E.fw
      · rw [List.getElem?_take_of_lt hk, List.getElem?_take_of_lt hk, List.getElem?_drop, List.getElem?_drop,
          hg _ (by omega)]
      · rw [List.getElem?_eq_none (by simp; omega), List.getElem?_eq_none (by simp; omega)]
    · rw [List.getElem?_eq_none (by omega), List.getElem?_eq_none (by omega)]
  rw [this]

/-- C139 violated: with an input window shorter than the period, which `GMParam` accepts, a pass over a batch whose
first index is the input window is an error whatever the series. -/
theorem C139_window_violated (E : GmEnv K σ) (J : GmJudge K V) (b : GmBatchIn K) (net : σ) (l s : K)
    (rest : List K) (hl : 0 < l ∧ l < 1) (hs : 0 < s ∧ s < 1) (maxDelta validSteps softMax : Int)
    (training monitor : Bool) (hiw : 1 ≤ E.iw) (hlt : E.iw < E.period) (hx0 : b.x ≠ [])
    (hx : ∀ r ∈ b.x, GmRowPos r ∧ E.iw ≤ r.length)
    (hse : ∀ i, i < b.x.length → ∃ s, b.season[i]? = some s ∧ s.length = E.period ∧ ∀ v ∈ s, 0 < v)
    (ht : b.train.head? = some E.iw) :
    ∃ e, gmPassRnn E J b net (l :: s :: rest) maxDelta validSteps softMax training monitor = .error e := by
  unfold gmPassRnn
  show ∃ e, (gmFirstValid b.train b.valid >>= fun first => _) = .error e
  rcases gmFirstValid b.train b.valid with e | first
  · exact ⟨e, rfl⟩
  · refine ⟨.otherError, ?_⟩
    obtain ⟨t, htr⟩ : ∃ t, b.train = E.iw :: t := by
      rcases hb : b.train with _ | ⟨a, t⟩
      · rw [hb] at ht; cases ht
      · rw [hb] at ht
        injection ht with ht
        exact ⟨t, by rw [ht]⟩
    obtain ⟨r0, xr, hxe⟩ : ∃ r0 xr, b.x = r0 :: xr := List.exists_cons_of_ne_nil hx0
    obtain ⟨rs, hrs⟩ : ∃ rs, gmRnnSteps (b.train ++ b.valid).length ((b.train.length : Int) - 1)
        (b.train ++ b.valid).length 0 (gmDelta maxDelta (b.train ++ b.valid).length validSteps softMax) = 0 :: rs := by
      rw [htr, List.cons_append, List.length_cons]
      unfold gmRnnSteps
      rw [if_pos (by omega)]
      exact ⟨_, rfl⟩
    show (gmTurns E b.x (List.map (fun s => (s, (b.train ++ b.valid).getD s 0))
      (gmRnnSteps (b.train ++ b.valid).length ((b.train.length : Int) - 1)
        (b.train ++ b.valid).length 0 (gmDelta maxDelta (b.train ++ b.valid).length validSteps softMax))) _
        >>= fun res => _) = _
    rw [hrs, List.map_cons, show (b.train ++ b.valid).getD 0 0 = E.iw by rw [htr]; rfl]
    unfold gmTurns
    have hproc : ∀ st : GmLoop K σ, st.prev = 0 →
        st.tracks[0]? = some (gmFresh E.period (b.season.getD 0 [])) →
        st.ls.getD 0 0 = l → st.ss.getD 0 0 = s → gmTurn E b.x st 0 E.iw = .error .otherError := by
      intro st hp htk hls hss
      unfold gmTurn
      rw [hxe, List.length_cons, List.range_succ_eq_map, List.mapM_cons]
      have : gmRowProc E (r0 :: xr) st E.iw 0 = .error .otherError := by
        unfold gmRowProc
        rw [htk]
        show gmProcess _ _ _ r0 (st.ls.getD 0 0) (st.ss.getD 0 0) _ st.prev E.iw = _
        rw [hp, hls, hss]
        obtain ⟨q, q1, q2, q3⟩ := hse 0 (by rw [hxe]; simp)
        have hq : b.season.getD 0 [] = q := by rw [List.getD_eq_getElem?_getD, q1]; rfl
        obtain ⟨hr, hrl⟩ := hx r0 (by rw [hxe]; simp)
        obtain ⟨t', e, hT, _⟩ := C139_track E.period 0 E.iw (by omega) (by omega) r0 hr hrl l s hl hs
          (gmFresh E.period (b.season.getD 0 [])) (Or.inl ⟨rfl, q, fun _ => q2, q3, by rw [hq]⟩)
        unfold gmProcess
        rw [e]
        show (gmView _ _ _ _ _ >>= fun v => _) = _
        rw [C139_view_violated E.period E.iw E.fw E.iw hiw (le_refl _) hiw hlt t' hT]
        rfl
      rw [this]
      rfl
    rw [hproc _ rfl (by
        show ((List.range b.x.length).map _)[0]? = _
        rw [List.getElem?_map, List.getElem?_range (by rw [hxe]; simp)]
        rfl) (by
        show (b.x.map fun _ => l).getD 0 0 = l
        rw [hxe]; rfl) (by
        show (b.x.map fun _ => s).getD 0 0 = s
        rw [hxe]; rfl)]
    rfl

/-- C139 violated: for every first smoothing of the level above 1, which `GMParam` accepts, there are series of
positive values with a negative level, whose logarithm does not exist. -/
theorem C139_smoothing_violated (ls ss : K) (h : 1 < ls) : ∃ x : List (Option K), GmRowPos x ∧
    ∃ t l, gmTrack 1 x ls ss (gmFresh 1 []) 0 2 = .ok t ∧ gmAnchor t 2 = .ok l ∧ l < 0 := by
  have hne : ls - 1 ≠ 0 := by
    intro h0
    rw [sub_eq_zero] at h0
    exact absurd h0 h.ne'
  have hpos : 0 < ls - 1 := sub_pos.2 h
  have h0 : 0 < ls := lt_trans one_pos h
  refine ⟨[some (ls / (ls - 1) + 1), some 1], ⟨⟨_, rfl⟩, ?_⟩, ?_⟩
  · intro a ha
    simp only [List.mem_cons, Option.some.injEq, List.not_mem_nil, or_false] at ha
    rcases ha with rfl | rfl
    · positivity
    · exact one_pos
  · refine ⟨_, _, rfl, rfl, ?_⟩
    show ls * 1 + (1 - ls) * (ls / (ls - 1) + 1) < 0
    have : ls * 1 + (1 - ls) * (ls / (ls - 1) + 1) = 1 - ls := by field_simp; ring
    rw [this]
    exact sub_neg.2 h

/-! ## With the real functions -/

/-- The logarithm, the exponential and the sigmoid of the reals. -/
noncomputable def gmRealEnv (net : σ → List (List ℝ) → σ × List (List ℝ))
    (features : Option (Nat → Nat → List (List ℝ))) (period iw fw quantiles : Nat) : GmEnv ℝ σ :=
  ⟨Real.log, Real.exp, fun v => 1 / (1 + Real.exp (-v)), net, features, period, iw, fw, quantiles⟩

/-- C139: the real functions have the laws that the theorems about a pass suppose. -/
theorem C139_real (net : σ → List (List ℝ) → σ × List (List ℝ)) (features : Option (Nat → Nat → List (List ℝ)))
    (period iw fw quantiles : Nat) (hp : 1 ≤ period) (hi : 1 ≤ iw) (hpi : 1 < period → period ≤ iw)
    (hr : ∀ s inp, (net s inp).2.length = inp.length)
    (hc : ∀ s inp, ∀ o ∈ (net s inp).2, o.length = (if 1 < period then 2 else 1) + fw * quantiles) :
    GmLogOk (gmRealEnv net features period iw fw quantiles) ∧
    GmNetOk (gmRealEnv net features period iw fw quantiles) := by
  refine ⟨⟨?_, ?_⟩, ⟨hr, hc, ?_, hp, hi, hpi⟩⟩
  · intro a c ha hc
    show Real.log (c * a) = Real.log a + Real.log c
    rw [Real.log_mul hc.ne' ha.ne', add_comm]
  · intro v c hc
    show Real.exp (v + Real.log c) = c * Real.exp v
    rw [Real.exp_add, Real.exp_log hc, mul_comm]
  · intro v
    show 0 < 1 / (1 + Real.exp (-v)) ∧ 1 / (1 + Real.exp (-v)) < 1
    have := Real.exp_pos (-v)
    refine ⟨by positivity, ?_⟩
    rw [div_lt_one (by linarith)]
    linarith

/-! ## Examples -/

/-- A network that gives halves, for series with a period of two. -/
def gmExEnv : GmEnv Rat Nat :=
  ⟨fun a => a - 1, fun a => a + 1, fun _ => 1 / 2, fun s inp => (s + 1, inp.map fun _ => List.replicate 6 (1 / 2)), none,
    2, 2, 2, 2⟩

def gmExJudge : GmJudge Rat Nat := ⟨fun f a => (f.length + a.length : Nat), fun f _ => f.length⟩

def gmExBatch : GmBatchIn Rat :=
  ⟨[[some 2, some 6, some 2, none, some 2, some 6, none, none], [some 1, some 1, some 2, some 1, none, some 1, some 1, some 3]],
    [0, 1], [[1, 3], [1, 1]], [2, 3, 4], [6, 8]⟩

theorem gmExGood : GmGood gmExEnv gmExBatch := by
  refine ⟨⟨?_, ?_, ?_, by decide, by decide, fun _ => by decide⟩, ?_, ?_, by decide, ?_⟩
  · intro s inp; simp [gmExEnv]
  · intro s inp o ho
    obtain ⟨_, _, rfl⟩ := List.mem_map.1 ho
    rfl
  · intro v; exact ⟨by norm_num [gmExEnv], by norm_num [gmExEnv]⟩
  · intro r hr
    simp only [gmExBatch, List.mem_cons, List.not_mem_nil, or_false] at hr
    rcases hr with rfl | rfl
    · refine ⟨⟨2, rfl⟩, ?_⟩
      intro a ha
      simp at ha
      rcases ha with rfl | rfl | rfl | rfl <;> norm_num
    · refine ⟨⟨1, rfl⟩, ?_⟩
      intro a ha
      simp at ha
      rcases ha with rfl | rfl | rfl | rfl <;> norm_num
  · intro _ i hi
    have : i = 0 ∨ i = 1 := by simp [gmExBatch] at hi; omega
    rcases this with rfl | rfl
    · refine ⟨[1, 3], rfl, rfl, ?_⟩
      intro v hv; simp at hv; rcases hv with rfl | rfl <;> norm_num
    · refine ⟨[1, 1], rfl, rfl, ?_⟩
      intro v hv; simp at hv; rw [hv]; norm_num
  · intro i hi
    simp only [gmExBatch, List.cons_append, List.nil_append, List.mem_cons, List.not_mem_nil, or_false] at hi
    refine ⟨by rcases hi with rfl | rfl | rfl | rfl | rfl <;> decide, ?_⟩
    intro r hr
    simp only [gmExBatch, List.mem_cons, List.not_mem_nil, or_false] at hr
    rcases hr with rfl | rfl <;> rcases hi with rfl | rfl | rfl | rfl | rfl <;> decide

/-- A pass that forecasts: two windows, two series, two quantiles of two steps. -/
example : ((gmPassRnn gmExEnv gmExJudge gmExBatch 0 [2 / 5, 3 / 5] 1 0 10 false false).toOption.map fun r =>
    (r.trainLoss, r.fcst.map fun f => f.map List.length)) = some ([], [[4, 4], [4, 4]]) := by
  decide +kernel

/-- A pass in training: a loss for each window of training and a result for each of validation. -/
example : ((gmPassRnn gmExEnv gmExJudge gmExBatch 0 [2 / 5, 3 / 5] 1 0 10 true true).toOption.map fun r =>
    (r.trainLoss, r.validRes, r.fcst.length, r.actual.length)) = some ([4, 4, 4], [2, 2], 2, 2) := by
  decide +kernel

/-- The theorem about forecasts applies to the example. -/
example : ∃ res, gmPassRnn gmExEnv gmExJudge gmExBatch 0 [2 / 5, 3 / 5] 1 0 10 false false = .ok res ∧
    res.fcst.length = 2 := by
  obtain ⟨res, h1, _, _, h2, _⟩ := C139_forecasts_partial gmExEnv gmExJudge gmExBatch gmExGood (by decide) 0 (2 / 5)
    (3 / 5) [] (by norm_num) (by norm_num) 1 0 10 false
  exact ⟨res, h1, h2⟩

/-- With a period of three the same input window is too short. -/
example : (gmPassRnn { gmExEnv with period := 3 } gmExJudge
    { gmExBatch with season := [[1, 2, 3], [1, 1, 1]] } 0 [2 / 5, 3 / 5] 1 0 10 false false).toOption.isNone = true := by
  decide +kernel

end Kats

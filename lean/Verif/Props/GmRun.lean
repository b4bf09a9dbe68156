import Verif.Props.GmPass
import Verif.Props.GmParam
import Mathlib.Analysis.SpecialFunctions.Log.Basic
import Mathlib.Analysis.SpecialFunctions.Exp

/-!
# C139: a pass over a batch
-/

namespace Kats

variable {K : Type} [Field K] [LinearOrder K] [IsStrictOrderedRing K] {σ V : Type}

theorem mapM_of_get {β : Type} (f : Nat → Except Err β) (n : Nat) (ps : List β) (hl : ps.length = n)
    (h : ∀ (i : Nat) p, ps[i]? = some p → f i = .ok p) : (List.range n).mapM f = .ok ps := by
  rcases ps with _ | ⟨d, r⟩
  · simp at hl
    subst hl
    rfl
  · obtain ⟨ps, hps⟩ : ∃ ps, ps = d :: r := ⟨_, rfl⟩
    rw [← hps] at hl h ⊢
    rw [mapM_eq_map f (fun i => ps.getD i d) (List.range n) (by
      intro i hi
      rw [List.mem_range] at hi
      apply h
      rw [List.getD_eq_getElem?_getD, List.getElem?_eq_getElem (by omega)]
      rfl)]
    congr 1
    apply List.ext_getElem?
    intro k
    rw [List.getElem?_map]
    by_cases hk : k < n
    · rw [List.getElem?_range hk]
      simp [List.getElem?_eq_getElem (by omega : k < ps.length)]
    · rw [List.getElem?_eq_none (by simpa using hk), List.getElem?_eq_none (by omega)]
      rfl

theorem mapM_exists {β : Type} (f : Nat → Except Err β) (Q : Nat → β → Prop) (n : Nat)
    (h : ∀ i, i < n → ∃ p, f i = .ok p ∧ Q i p) :
    ∃ ps : List β, (List.range n).mapM f = .ok ps ∧ ps.length = n ∧
      ∀ (i : Nat) p, ps[i]? = some p → f i = .ok p ∧ Q i p := by
  have : ∃ ps : List β, ps.length = n ∧ ∀ (i : Nat) p, ps[i]? = some p → f i = .ok p ∧ Q i p := by
    induction n with
    | zero => exact ⟨[], rfl, fun i p hp => by simp at hp⟩
    | succ n ih =>
      obtain ⟨ps, h1, h2⟩ := ih fun i hi => h i (by omega)
      obtain ⟨p, hp⟩ := h n (by omega)
      refine ⟨ps ++ [p], by simp [h1], ?_⟩
      intro i q hq
      rw [append_get _ _ n i h1] at hq
      by_cases hi : i < n
      · rw [if_pos hi] at hq; exact h2 i q hq
      · rw [if_neg hi] at hq
        by_cases hi2 : i = n
        · rw [if_pos hi2] at hq
          injection hq with hq
          subst hq hi2
          exact hp
        · rw [if_neg hi2] at hq; cases hq
  obtain ⟨ps, h1, h2⟩ := this
  exact ⟨ps, mapM_of_get f n ps h1 fun i p hp => (h2 i p hp).1, h1, h2⟩

/-- The network gives one row for each row, of the right width; the sigmoid lies between 0 and 1. -/
structure GmNetOk (E : GmEnv K σ) : Prop where
  rows : ∀ s inp, (E.net s inp).2.length = inp.length
  cols : ∀ s inp, ∀ o ∈ (E.net s inp).2, o.length = gmCol E + E.fw * E.quantiles
  sigmoid : ∀ v, 0 < E.sigmoid v ∧ E.sigmoid v < 1
  period : 1 ≤ E.period
  iw : 1 ≤ E.iw
  long : 1 < E.period → E.period ≤ E.iw

/-- The state of the loop before an index. -/
structure GmLoopOk (E : GmEnv K σ) (n : Nat) (st : GmLoop K σ) : Prop where
  len : st.tracks.length = n
  tracks : ∀ (i : Nat) t, st.tracks[i]? = some t → GmReady E.period st.prev t
  ls : st.ls.length = n ∧ ∀ v ∈ st.ls, 0 < v ∧ v < 1
  ss : st.ss.length = n ∧ ∀ v ∈ st.ss, 0 < v ∧ v < 1

theorem process_ok (E : GmEnv K σ) (hE : GmNetOk E) (x : List (Option K)) (hx : GmRowPos x) (ls ss : K)
    (hls : 0 < ls ∧ ls < 1) (hss : 0 < ss ∧ ss < 1) (t : GmTrack K) (prev cur : Nat) (hpc : prev < cur)
    (hc : cur ≤ x.length) (hic : E.iw ≤ cur) (ht : GmReady E.period prev t) :
    ∃ p : GmTrack K × GmView K, gmProcess E.period E.iw E.fw x ls ss t prev cur = .ok p ∧
      TrackLen E.period cur p.1 ∧ TrackPos p.1 ∧ 0 < p.2.anchor ∧ (1 < E.period → p.2.fcst.length = E.fw) := by
  obtain ⟨t', e1, h1, h2⟩ := C139_track E.period prev cur hE.period hpc x hx hc ls ss hls hss t ht
  by_cases hp : 1 < E.period
  · obtain ⟨v, l, e2, hl, ha, h3, h4, h5, h6, _⟩ := C139_view_partial E.period E.iw E.fw cur hp (hE.long hp) hic t' h1
    refine ⟨(t', v), ?_, h1, h2, ?_, fun _ => h6⟩
    · unfold gmProcess
      rw [e1]
      show (gmView _ _ _ _ _ >>= fun v => _) = _
      rw [e2]
      rfl
    · show 0 < v.anchor
      rw [ha]
      exact h2.levels l (List.mem_of_getElem? hl)
  · have hp1 : E.period = 1 := by have := hE.period; omega
    rw [hp1] at h1
    obtain ⟨v, l, e2, hl, ha, h3, _⟩ := C139_view_level E.iw E.fw cur hE.iw hic t' h1
    refine ⟨(t', v), ?_, by rw [hp1]; exact h1, h2, ?_, fun h => absurd h hp⟩
    · unfold gmProcess
      rw [e1, hp1]
      show (gmView _ _ _ _ _ >>= fun v => _) = _
      rw [e2]
      rfl
    · show 0 < v.anchor
      rw [ha]
      exact h2.levels l (List.mem_of_getElem? hl)

theorem gm_getD_of_lt {α : Type} (l : List α) (i : Nat) (h : i < l.length) (d : α) : l[i]? = some (l.getD i d) := by
  rw [List.getD_eq_getElem?_getD, List.getElem?_eq_getElem h]
  rfl

theorem gm_getD_mem {α : Type} (l : List α) (i : Nat) (h : i < l.length) (d : α) : l.getD i d ∈ l :=
  List.mem_of_getElem? (gm_getD_of_lt l i h d)

/-- The rows after a turn, with what is known of each. -/
theorem turn_rows (E : GmEnv K σ) (hE : GmNetOk E) (x : List (List (Option K)))
    (hx : ∀ r ∈ x, GmRowPos r) (st : GmLoop K σ) (hst : GmLoopOk E x.length st) (cur : Nat)
    (hpc : st.prev < cur) (hc : ∀ r ∈ x, cur ≤ r.length) (hic : E.iw ≤ cur) :
    ∃ ps : List (GmTrack K × GmView K), (List.range x.length).mapM (gmRowProc E x st cur) = .ok ps ∧ ps.length = x.length ∧
      ∀ (i : Nat) p, ps[i]? = some p → (∃ t, st.tracks[i]? = some t ∧
        gmProcess E.period E.iw E.fw (x.getD i []) (st.ls.getD i 0) (st.ss.getD i 0) t st.prev cur = .ok p) ∧
        TrackLen E.period cur p.1 ∧ TrackPos p.1 ∧ 0 < p.2.anchor ∧ (1 < E.period → p.2.fcst.length = E.fw) := by
  obtain ⟨ps, h1, h2, h3⟩ := mapM_exists (gmRowProc E x st cur) (fun i p => (∃ t, st.tracks[i]? = some t ∧
        gmProcess E.period E.iw E.fw (x.getD i []) (st.ls.getD i 0) (st.ss.getD i 0) t st.prev cur = .ok p) ∧
        TrackLen E.period cur p.1 ∧ TrackPos p.1 ∧ 0 < p.2.anchor ∧ (1 < E.period → p.2.fcst.length = E.fw))
    x.length (by
      intro i hi
      obtain ⟨t, ht⟩ : ∃ t, st.tracks[i]? = some t := ⟨_, List.getElem?_eq_getElem (by rw [hst.len]; exact hi)⟩
      obtain ⟨p, e, h⟩ := process_ok E hE (x.getD i []) (hx _ (gm_getD_mem x i hi [])) (st.ls.getD i 0)
        (st.ss.getD i 0) (hst.ls.2 _ (gm_getD_mem _ i (by rw [hst.ls.1]; exact hi) 0))
        (hst.ss.2 _ (gm_getD_mem _ i (by rw [hst.ss.1]; exact hi) 0)) t st.prev cur hpc
        (hc _ (gm_getD_mem x i hi [])) hic (hst.tracks i t ht)
      refine ⟨p, ?_, ⟨t, ht, e⟩, h⟩
      simp only [gmRowProc, ht]
      exact e)
  exact ⟨ps, h1, h2, fun i p hp => (h3 i p hp).2⟩

theorem logFcst_ok (E : GmEnv K σ) (o : List K) (ho : o.length = gmCol E + E.fw * E.quantiles) (v : GmView K)
    (hv : 1 < E.period → v.fcst.length = E.fw) :
    ∃ f, gmLogFcst E o v = .ok f ∧ f.length = E.fw * E.quantiles := by
  unfold gmLogFcst
  by_cases hp : 1 < E.period
  · have hl : ((o.drop (gmCol E)).map (· + E.log v.anchor)).length =
        ((List.replicate E.quantiles (v.fcst.map E.log)).flatten).length := by
      rw [List.length_map, List.length_drop, ho, List.length_flatten, List.map_replicate, List.sum_replicate,
        List.length_map, hv hp, smul_eq_mul, Nat.mul_comm E.quantiles]
      omega
    simp only [if_pos hp]
    rw [if_pos hl]
    refine ⟨_, rfl, ?_⟩
    rw [List.length_zipWith, ← hl, List.length_map, List.length_drop, ho]
    omega
  · simp only [if_neg hp]
    refine ⟨_, rfl, ?_⟩
    rw [List.length_map, List.length_drop, ho]
    omega

/-- A turn succeeds, and gives a forecast of the right size for each row. -/
theorem turn_ok (E : GmEnv K σ) (hE : GmNetOk E) (x : List (List (Option K))) (hx : ∀ r ∈ x, GmRowPos r)
    (st : GmLoop K σ) (hst : GmLoopOk E x.length st) (step cur : Nat) (hpc : st.prev < cur)
    (hc : ∀ r ∈ x, cur ≤ r.length) (hic : E.iw ≤ cur) :
    ∃ st' f, gmTurn E x st step cur = .ok (st', f) ∧ GmLoopOk E x.length st' ∧ st'.prev = cur ∧
      f.length = x.length ∧ ∀ r ∈ f, r.length = E.fw * E.quantiles := by
  obtain ⟨ps, h1, h2, h3⟩ := turn_rows E hE x hx st hst cur hpc hc hic
  obtain ⟨out, hout⟩ : ∃ out, out = E.net st.net (ps.mapIdx fun i p => gmInput E step st.prev cur i p.2) := ⟨_, rfl⟩
  have hol : out.2.length = x.length := by rw [hout, hE.rows]; simp [h2]
  have hoc : ∀ o ∈ out.2, o.length = gmCol E + E.fw * E.quantiles := by rw [hout]; exact hE.cols _ _
  obtain ⟨f, f1, f2, f3⟩ := mapM_exists (gmRowFcst E out.2 ps) (fun _ f => f.length = E.fw * E.quantiles) x.length (by
    intro i hi
    obtain ⟨o, ho⟩ : ∃ o, out.2[i]? = some o := ⟨_, List.getElem?_eq_getElem (by omega)⟩
    obtain ⟨p, hp⟩ : ∃ p, ps[i]? = some p := ⟨_, List.getElem?_eq_getElem (by omega)⟩
    simp only [gmRowFcst, ho, hp]
    exact logFcst_ok E o (hoc o (List.mem_of_getElem? ho)) p.2 (h3 i p hp).2.2.2.2)
  refine ⟨{ tracks := ps.map (·.1), ls := out.2.map fun o => E.sigmoid (o.getD 0 0),
            ss := if 1 < E.period then out.2.map fun o => E.sigmoid (o.getD 1 0) else st.ss,
            net := out.1, prev := cur }, f, ?_, ?_, ?_, f2, ?_⟩
  · unfold gmTurn
    rw [h1]
    show ((List.mapM (gmRowFcst E (E.net st.net (ps.mapIdx fun i p => gmInput E step st.prev cur i p.2)).2 ps)
      (List.range x.length) : Except Err (List (List K))) >>= fun f => _) = _
    rw [← hout, f1, hout]
    rfl
  · refine ⟨by simp [h2], ?_, ⟨by simp [hol], ?_⟩, ?_⟩
    · intro i t ht
      simp only [List.getElem?_map] at ht
      rcases hp : ps[i]? with _ | p
      · rw [hp] at ht; cases ht
      · rw [hp] at ht
        injection ht with ht
        subst ht
        exact Or.inr ⟨by show 1 ≤ cur; omega, (h3 i p hp).2.1, (h3 i p hp).2.2.1⟩
    · intro v hv
      obtain ⟨o, _, rfl⟩ := List.mem_map.1 hv
      exact hE.sigmoid _
    · by_cases hp : 1 < E.period
      · simp only [if_pos hp]
        refine ⟨by simp [hol], ?_⟩
        intro v hv
        obtain ⟨o, _, rfl⟩ := List.mem_map.1 hv
        exact hE.sigmoid _
      · simp only [if_neg hp]
        exact hst.ss
  · rfl
  · intro r hr
    obtain ⟨i, hi⟩ := List.mem_iff_getElem?.1 hr
    exact (f3 i r hi).2

theorem turns_ok (E : GmEnv K σ) (hE : GmNetOk E) (x : List (List (Option K))) (hx : ∀ r ∈ x, GmRowPos r) :
    ∀ (steps : List (Nat × Nat)) (st : GmLoop K σ), GmLoopOk E x.length st →
    (steps.map (·.2)).Pairwise (· < ·) → (∀ s ∈ steps, st.prev < s.2 ∧ E.iw ≤ s.2 ∧ ∀ r ∈ x, s.2 ≤ r.length) →
    ∃ rs, gmTurns E x steps st = .ok rs ∧ rs.map (·.1) = steps.map (·.2) ∧
      ∀ r ∈ rs, r.2.length = x.length ∧ ∀ row ∈ r.2, row.length = E.fw * E.quantiles := by
  intro steps
  induction steps with
  | nil => intro st _ _ _; exact ⟨[], rfl, rfl, fun r hr => by simp at hr⟩
  | cons s steps ih =>
    intro st hst hsort hs
    obtain ⟨h1, h2, h3⟩ := hs s List.mem_cons_self
    obtain ⟨st', f, e, g1, g2, g3, g4⟩ := turn_ok E hE x hx st hst s.1 s.2 h1 h3 h2
    rw [List.map_cons, List.pairwise_cons] at hsort
    obtain ⟨rs, e2, k1, k2⟩ := ih st' g1 hsort.2 (by
      intro s' hs'
      obtain ⟨_, h5, h6⟩ := hs s' (List.mem_cons_of_mem _ hs')
      exact ⟨by rw [g2]; exact hsort.1 s'.2 (List.mem_map_of_mem hs'), h5, h6⟩)
    refine ⟨(s.2, f) :: rs, ?_, by simp [k1], ?_⟩
    · unfold gmTurns
      rw [e]
      show (gmTurns E x steps st' >>= fun b => _) = _
      rw [e2]
      rfl
    · intro r hr
      rcases List.mem_cons.1 hr with rfl | hr
      · exact ⟨g3, g4⟩
      · exact k2 r hr

/-! ## What is collected -/

theorem calc_test (E : GmEnv K σ) (J : GmJudge K V) (b : GmBatchIn K) (monitor : Bool) (first : Nat) :
    ∀ (rs : List (Nat × List (List K))) (acc : GmPassRes K V),
    rs.foldl (gmCalc E J b false monitor first) acc =
      { acc with fcst := acc.fcst ++ (rs.filter fun r => decide (first ≤ r.1)).map fun r => gmRestore E b r.2 } := by
  intro rs
  induction rs with
  | nil => intro acc; simp
  | cons r rs ih =>
    intro acc
    rw [List.foldl_cons, ih]
    unfold gmCalc
    by_cases h : first ≤ r.1
    · simp [h]
    · simp [h]

theorem calc_train (E : GmEnv K σ) (J : GmJudge K V) (b : GmBatchIn K) (monitor : Bool) (first : Nat) :
    ∀ (rs : List (Nat × List (List K))) (acc : GmPassRes K V),
    (rs.foldl (gmCalc E J b true monitor first) acc).trainLoss = acc.trainLoss ++
      (rs.filter fun r => !decide (first ≤ r.1)).map (fun r =>
        J.loss r.2 ((gmActual b.x r.1 E.fw).map fun r => r.map fun v => v.map E.log)) ∧
    (rs.foldl (gmCalc E J b true monitor first) acc).validRes.length = acc.validRes.length +
      (rs.filter fun r => decide (first ≤ r.1)).length ∧
    (rs.foldl (gmCalc E J b true monitor first) acc).fcst = acc.fcst ++
      (if monitor then (rs.filter fun r => decide (first ≤ r.1)).map fun r => gmRestore E b r.2 else []) := by
  intro rs
  induction rs with
  | nil => intro acc; simp
  | cons r rs ih =>
    intro acc
    rw [List.foldl_cons]
    obtain ⟨h1, h2, h3⟩ := ih (gmCalc E J b true monitor first acc r)
    rw [h1, h2, h3]
    unfold gmCalc
    by_cases h : first ≤ r.1
    · cases monitor <;> simp [h] <;> omega
    · cases monitor <;> simp [h]

/-- A batch for which a pass is possible. -/
structure GmGood (E : GmEnv K σ) (b : GmBatchIn K) : Prop where
  net : GmNetOk E
  rows : ∀ r ∈ b.x, GmRowPos r
  season : 1 < E.period → ∀ i, i < b.x.length → ∃ s, b.season[i]? = some s ∧ s.length = E.period ∧ ∀ v ∈ s, 0 < v
  sorted : (b.train ++ b.valid).Pairwise (· < ·)
  index : ∀ i ∈ b.train ++ b.valid, E.iw ≤ i ∧ ∀ r ∈ b.x, i ≤ r.length

theorem init_ok (E : GmEnv K σ) (b : GmBatchIn K) (hb : GmGood E b) (net : σ) (l s : K) (rest : List K)
    (hl : 0 < l ∧ l < 1) (hs : 0 < s ∧ s < 1) :
    ∃ st, gmLoopInit E b net (l :: s :: rest) = .ok st ∧ GmLoopOk E b.x.length st ∧ st.prev = 0 := by
  refine ⟨_, rfl, ⟨by simp, ?_, ⟨by simp, ?_⟩, ⟨by simp, ?_⟩⟩, rfl⟩
  · intro i t ht
    simp only [List.getElem?_map] at ht
    by_cases hi : i < b.x.length
    · rw [List.getElem?_range hi] at ht
      injection ht with ht
      subst ht
      left
      refine ⟨rfl, ?_⟩
      show ∃ s, _ ∧ _ ∧ (⟨[], [], gmSeasons E.period (b.season.getD i [])⟩ : GmTrack K) = _
      by_cases hp : 1 < E.period
      · obtain ⟨q, h1, h2, h3⟩ := hb.season hp i hi
        refine ⟨q, fun _ => h2, h3, ?_⟩
        rw [List.getD_eq_getElem?_getD, h1]
        rfl
      · refine ⟨[], fun h => absurd h hp, fun v hv => by simp at hv, ?_⟩
        unfold gmFresh gmSeasons
        rw [if_neg hp, if_neg hp]
    · rw [List.getElem?_eq_none (by simpa using hi)] at ht
      cases ht
  · intro v hv
    obtain ⟨_, _, rfl⟩ := List.mem_map.1 hv
    exact hl
  · intro v hv
    obtain ⟨_, _, rfl⟩ := List.mem_map.1 hv
    exact hs

/-- The steps of a pass with their indices. -/
def gmPlan (b : GmBatchIn K) (delta : Nat) : List (Nat × Nat) :=
  (gmRnnSteps (b.train ++ b.valid).length ((b.train.length : Int) - 1) (b.train ++ b.valid).length 0 delta).map
    fun s => (s, (b.train ++ b.valid).getD s 0)

theorem plan_spec (b : GmBatchIn K) (hsort : (b.train ++ b.valid).Pairwise (· < ·)) (h2 : 2 ≤ b.train.length)
    (delta first : Nat) (hd : 1 ≤ delta) (hf : gmFirstValid b.train b.valid = .ok first) :
    ((gmPlan b delta).map (·.2)).Pairwise (· < ·) ∧ (∀ s ∈ gmPlan b delta, s.2 ∈ b.train ++ b.valid) ∧
    (((gmPlan b delta).map (·.2)).filter fun i => decide (first ≤ i)) = b.valid ∧
    ∃ i r, (gmPlan b delta).map (·.2) = i :: r ∧ b.train[0]? = some i := by
  obtain ⟨l, hl⟩ : ∃ l, b.train.length = l + 1 := ⟨b.train.length - 1, by omega⟩
  obtain ⟨ix, hix⟩ : ∃ ix, ix = b.train ++ b.valid := ⟨_, rfl⟩
  have hn : ix.length = l + 1 + b.valid.length := by rw [hix, List.length_append, hl]
  have e : ((b.train.length : Int) - 1) = ((l : Nat) : Int) := by omega
  have hrun := run_steps ix.length l delta (by omega) hd ix.length 0 (by omega) (by omega)
  have hplan : gmPlan b delta = ((List.range ((l - 0 + delta - 1) / delta)).map (fun k => 0 + k * delta) ++
      List.range' l (ix.length - l)).map fun s => (s, ix.getD s 0) := by
    unfold gmPlan
    rw [e, ← hix, hrun]
  have hspec := C139_steps_partial ix.length l delta (by omega) (by omega) hd
  have hlt : ∀ s ∈ gmRnnSteps ix.length l ix.length 0 delta, s < ix.length := by
    intro s hs
    rcases ((hspec s).2).1 hs with h | h <;> omega
  have hmono : ∀ i j, i < j → j < ix.length → ix.getD i 0 < ix.getD j 0 := by
    intro i j hij hj
    rw [← hix] at hsort
    have := List.pairwise_iff_getElem.1 hsort i j (by omega) hj hij
    rw [List.getD_eq_getElem?_getD, List.getD_eq_getElem?_getD, List.getElem?_eq_getElem (by omega),
      List.getElem?_eq_getElem hj]
    exact this
  have hfirst : ∀ s, s < ix.length → (first ≤ ix.getD s 0 ↔ l + 1 ≤ s) := by
    intro s hs
    rcases hv : b.valid with _ | ⟨v, r⟩
    · rw [hv] at hf hn
      simp only [gmFirstValid] at hf
      rcases hg : b.train.getLast? with _ | t
      · rw [hg] at hf; cases hf
      · rw [hg] at hf
        injection hf with hf
        subst hf
        rw [List.getLast?_eq_getElem?, hl] at hg
        have hlast : ix.getD l 0 = t := by
          rw [hix, hv, List.append_nil, List.getD_eq_getElem?_getD]
          simp only [Nat.add_sub_cancel] at hg
          rw [hg]
          rfl
        simp only [List.length_nil] at hn
        have : ix.getD s 0 ≤ t := by
          rcases Nat.lt_or_ge s l with h | h
          · have := hmono s l h (by omega); omega
          · have : s = l := by omega
            rw [this, hlast]
        omega
    · rw [hv] at hf
      injection hf with hf
      subst hf
      have hvg : ix.getD (l + 1) 0 = v := by
        rw [hix, hv, ← hl, List.getD_eq_getElem?_getD]
        simp
      constructor
      · intro h
        by_contra hc
        have := hmono s (l + 1) (by omega) (by rw [hn, hv]; simp)
        omega
      · intro h
        rcases Nat.lt_or_ge (l + 1) s with h2 | h2
        · have := hmono (l + 1) s h2 hs; omega
        · have : s = l + 1 := by omega
          rw [this, hvg]
  refine ⟨?_, ?_, ?_, ?_⟩
  · unfold gmPlan
    rw [e, ← hix, List.map_map, List.pairwise_map]
    refine ((hspec 0).1).imp_of_mem fun {a c} ha hc h => ?_
    exact hmono a c h (hlt c hc)
  · intro s hs
    unfold gmPlan at hs
    rw [e, ← hix] at hs
    obtain ⟨k, hk, rfl⟩ := List.mem_map.1 hs
    rw [← hix]
    exact gm_getD_mem ix k (hlt k hk) 0
  · rw [hplan, List.map_map, List.map_append, List.filter_append]
    have hA : (List.map (Prod.snd ∘ fun s => (s, ix.getD s 0))
        ((List.range ((l - 0 + delta - 1) / delta)).map (fun k => 0 + k * delta))).filter
        (fun i => decide (first ≤ i)) = [] := by
      rw [List.filter_eq_nil_iff]
      intro i hi
      obtain ⟨s, hs, rfl⟩ := List.mem_map.1 hi
      obtain ⟨k, hk, rfl⟩ := List.mem_map.1 hs
      have hk2 : 0 + k * delta < l := by
        rw [List.mem_range, Nat.lt_div_iff_mul_lt (by omega)] at hk
        omega
      simp only [Function.comp, decide_eq_true_eq]
      rw [hfirst _ (by omega)]
      omega
    rw [hA, List.nil_append, show ix.length - l = b.valid.length + 1 by omega, List.range'_succ, List.map_cons,
      List.filter_cons_of_neg (by
        simp only [Function.comp, decide_eq_true_eq]
        rw [hfirst _ (by omega)]
        omega)]
    have hB : (List.range' (l + 1) b.valid.length).map (Prod.snd ∘ fun s => (s, ix.getD s 0)) = b.valid := by
      apply List.ext_getElem?
      intro k
      rw [List.getElem?_map]
      by_cases hk : k < b.valid.length
      · rw [List.getElem?_range' hk]
        simp only [Option.map_some, Function.comp, Nat.one_mul]
        rw [hix, List.getD_eq_getElem?_getD, ← hl, List.getElem?_append_right (by omega),
          Nat.add_sub_cancel_left, List.getElem?_eq_getElem hk]
        rfl
      · rw [List.getElem?_eq_none (by simpa using hk), List.getElem?_eq_none (by omega)]
        rfl
    rw [hB, List.filter_eq_self]
    intro i hi
    rw [← hB] at hi
    obtain ⟨s, hs, rfl⟩ := List.mem_map.1 hi
    rw [List.mem_range'_1] at hs
    simp only [Function.comp, decide_eq_true_eq]
    rw [hfirst _ (by omega)]
    omega
  · have hpos : 0 < (l - 0 + delta - 1) / delta := Nat.div_pos (by omega) (by omega)
    obtain ⟨m, hm⟩ : ∃ m, (l - 0 + delta - 1) / delta = m + 1 := ⟨_, (Nat.succ_pred_eq_of_pos hpos).symm⟩
    rw [hplan, hm, List.range_succ_eq_map, List.map_cons, List.cons_append, List.map_cons, List.map_cons]
    refine ⟨_, _, rfl, ?_⟩
    rw [gm_getD_of_lt b.train 0 (by omega) 0, hix]
    simp only [Nat.zero_mul, Nat.add_zero]
    rw [List.getD_eq_getElem?_getD, List.getD_eq_getElem?_getD, List.getElem?_append_left (by omega)]

theorem filter_map_fst {α : Type} (p : Nat → Bool) (rs : List (Nat × α)) :
    (rs.filter fun r => p r.1).length = ((rs.map (·.1)).filter p).length := by
  rw [List.filter_map, List.length_map]
  rfl

/-- C139, the part that holds: with two training windows or more a pass over a batch gives a forecast for each
window of validation, in order, each with a row for each series and a column for each quantile and
step. -/
theorem C139_forecasts_partial (E : GmEnv K σ) (J : GmJudge K V) (b : GmBatchIn K) (hb : GmGood E b)
    (h2 : 2 ≤ b.train.length) (net : σ) (l s : K) (rest : List K) (hl : 0 < l ∧ l < 1) (hs : 0 < s ∧ s < 1)
    (maxDelta validSteps softMax : Int) (monitor : Bool) :
    ∃ res, gmPassRnn E J b net (l :: s :: rest) maxDelta validSteps softMax false monitor = .ok res ∧
      res.trainLoss = [] ∧ res.validRes = [] ∧ res.fcst.length = b.valid.length ∧
      ∀ f ∈ res.fcst, f.length = b.x.length ∧ ∀ r ∈ f, r.length = E.fw * E.quantiles := by
  obtain ⟨st, e1, hst, hprev⟩ := init_ok E b hb net l s rest hl hs
  obtain ⟨first, hf⟩ : ∃ first, gmFirstValid b.train b.valid = .ok first := by
    unfold gmFirstValid
    rcases b.valid with _ | ⟨v, r⟩
    · rcases hg : b.train.getLast? with _ | t
      · rw [List.getLast?_eq_none_iff] at hg
        rw [hg] at h2; simp at h2
      · exact ⟨_, rfl⟩
    · exact ⟨_, rfl⟩
  obtain ⟨p1, p2, p3, p4⟩ := plan_spec b hb.sorted h2
    (gmDelta maxDelta (b.train ++ b.valid).length validSteps softMax) first (delta_pos _ _ _ _) hf
  have hE := hb.net
  obtain ⟨rs, e2, k1, k2⟩ := turns_ok E hE b.x hb.rows (gmPlan b _) st hst p1 (by
    intro s' hs'
    obtain ⟨h3, h4⟩ := hb.index _ (p2 s' hs')
    refine ⟨?_, h3, h4⟩
    rw [hprev]
    have := hE.iw
    omega)
  refine ⟨rs.foldl (gmCalc E J b false monitor first) ⟨[], [], [], []⟩, ?_, ?_⟩
  · unfold gmPassRnn
    rw [e1]
    show (gmFirstValid _ _ >>= fun first => _) = _
    rw [hf]
    show (gmTurns E b.x (gmPlan b _) st >>= fun res => _) = _
    rw [e2]
    rfl
  · rw [calc_test]
    refine ⟨rfl, rfl, ?_, ?_⟩
    · simp only [List.nil_append, List.length_map]
      rw [filter_map_fst (fun i => decide (first ≤ i)), k1, p3]
    · intro f hf'
      simp only [List.nil_append, List.mem_map, List.mem_filter] at hf'
      obtain ⟨r, ⟨hr, _⟩, rfl⟩ := hf'
      obtain ⟨h3, h4⟩ := k2 r hr
      unfold gmRestore
      refine ⟨by simp [h3], ?_⟩
      intro row hrow
      obtain ⟨i, hi, rfl⟩ := List.mem_mapIdx.1 hrow
      rw [List.length_map]
      exact h4 _ (List.getElem_mem _)

/-- C139: in training, with windows as `GMBatch` gives them, there is a training loss for the first window and
one for the last, and a result for each window of validation. -/
theorem C139_training (E : GmEnv K σ) (J : GmJudge K V) (b : GmBatchIn K) (hb : GmGood E b)
    (h2 : 2 ≤ b.train.length) (net : σ) (l s : K) (rest : List K) (hl : 0 < l ∧ l < 1) (hs : 0 < s ∧ s < 1)
    (maxDelta validSteps softMax : Int) (monitor : Bool) :
    ∃ res, gmPassRnn E J b net (l :: s :: rest) maxDelta validSteps softMax true monitor = .ok res ∧
      2 ≤ res.trainLoss.length ∧ res.trainLoss.length ≤ b.train.length ∧
      res.validRes.length = b.valid.length ∧
      res.fcst.length = if monitor then b.valid.length else 0 := by
  obtain ⟨st, e1, hst, hprev⟩ := init_ok E b hb net l s rest hl hs
  obtain ⟨first, hf⟩ : ∃ first, gmFirstValid b.train b.valid = .ok first := by
    unfold gmFirstValid
    rcases b.valid with _ | ⟨v, r⟩
    · rcases hg : b.train.getLast? with _ | t
      · rw [List.getLast?_eq_none_iff] at hg
        rw [hg] at h2; simp at h2
      · exact ⟨_, rfl⟩
    · exact ⟨_, rfl⟩
  obtain ⟨delta, hdel⟩ : ∃ d, d = gmDelta maxDelta (b.train ++ b.valid).length validSteps softMax := ⟨_, rfl⟩
  have hd : 1 ≤ delta := by rw [hdel]; exact delta_pos _ _ _ _
  obtain ⟨p1, p2, p3, p4⟩ := plan_spec b hb.sorted h2 delta first hd hf
  have hE := hb.net
  obtain ⟨rs, e2, k1, k2⟩ := turns_ok E hE b.x hb.rows (gmPlan b delta) st hst p1 (by
    intro s' hs'
    obtain ⟨h3, h4⟩ := hb.index _ (p2 s' hs')
    refine ⟨?_, h3, h4⟩
    rw [hprev]
    have := hE.iw
    omega)
  obtain ⟨c1, c2, c3⟩ := calc_train E J b monitor first rs ⟨[], [], [], []⟩
  have hrl : rs.length = (gmPlan b delta).length := by
    have := congrArg List.length k1
    simpa using this
  have hvl : (rs.filter fun r => decide (first ≤ r.1)).length = b.valid.length := by
    rw [filter_map_fst (fun i => decide (first ≤ i)), k1, p3]
  have hsum : rs.length = (rs.filter fun r => decide (first ≤ r.1)).length +
      (rs.filter fun r => !decide (first ≤ r.1)).length := by
    induction rs with
    | nil => rfl
    | cons r rs _ =>
      clear * -
      induction (r :: rs) with
      | nil => rfl
      | cons a l ih =>
        by_cases h : first ≤ a.1
        · simp [h] at ih ⊢; omega
        · simp [h] at ih ⊢; omega
  refine ⟨rs.foldl (gmCalc E J b true monitor first) ⟨[], [], [], []⟩, ?_, ?_, ?_, ?_, ?_⟩
  · unfold gmPassRnn
    rw [e1]
    show (gmFirstValid _ _ >>= fun first => _) = _
    rw [hf]
    show (gmTurns E b.x (gmPlan b _) st >>= fun res => _) = _
    rw [← hdel, e2]
    rfl
  · rw [c1]
    simp only [List.nil_append, List.length_map]
    have hpl : b.valid.length + 2 ≤ (gmPlan b delta).length := by
      unfold gmPlan
      rw [List.length_map]
      have e : ((b.train.length : Int) - 1) = ((b.train.length - 1 : Nat) : Int) := by omega
      rw [e, run_steps _ (b.train.length - 1) delta (by rw [List.length_append]; omega) hd _ 0 (by omega) (by omega)]
      rw [List.length_append, List.length_map, List.length_range, List.length_range', List.length_append]
      have : 0 < (b.train.length - 1 - 0 + delta - 1) / delta := Nat.div_pos (by omega) (by omega)
      omega
    omega
  · rw [c1]
    simp only [List.nil_append, List.length_map]
    have hpl : (gmPlan b delta).length ≤ b.train.length + b.valid.length := by
      unfold gmPlan
      rw [List.length_map]
      have e : ((b.train.length : Int) - 1) = ((b.train.length - 1 : Nat) : Int) := by omega
      rw [e, run_steps _ (b.train.length - 1) delta (by rw [List.length_append]; omega) hd _ 0 (by omega) (by omega)]
      rw [List.length_append, List.length_map, List.length_range, List.length_range', List.length_append]
      have : (b.train.length - 1 - 0 + delta - 1) / delta ≤ b.train.length - 1 := by
        rw [Nat.div_le_iff_le_mul_add_pred (by omega)]
        have := Nat.le_mul_of_pos_left (b.train.length - 1) (show 0 < delta by omega)
        omega
      omega
    omega
  · rw [c2]
    simp only [List.length_nil, Nat.zero_add]
    exact hvl
  · rw [c3]
    cases monitor
    · simp
    · simpa using hvl

/-! ## Later values -/

theorem turn_past (E : GmEnv K σ) (x y : List (List (Option K))) (hxy : x.length = y.length) (st : GmLoop K σ)
    (step cur : Nat) (hc : 1 ≤ cur) (h : ∀ i k, k < cur → (x.getD i [])[k]? = (y.getD i [])[k]?) :
    gmTurn E x st step cur = gmTurn E y st step cur := by
  have : gmRowProc E x st cur = gmRowProc E y st cur := by
    funext i
    unfold gmRowProc
    rcases st.tracks[i]? with _ | t
    · rfl
    · exact C139_process_past E.period E.iw E.fw _ _ _ _ t st.prev cur hc (h i)
  unfold gmTurn
  rw [this, hxy]

/-- C139: the forecasts of the loop up to an index depend only on the values before it. -/
theorem C139_turns_past (E : GmEnv K σ) (x y : List (List (Option K))) (hxy : x.length = y.length) (N : Nat)
    (h : ∀ i k, k < N → (x.getD i [])[k]? = (y.getD i [])[k]?) :
    ∀ (steps : List (Nat × Nat)) (st : GmLoop K σ), (∀ s ∈ steps, 1 ≤ s.2 ∧ s.2 ≤ N) →
    gmTurns E x steps st = gmTurns E y steps st := by
  intro steps
  induction steps with
  | nil => intro st _; rfl
  | cons s steps ih =>
    intro st hs
    obtain ⟨h1, h2⟩ := hs s List.mem_cons_self
    have e := turn_past E x y hxy st s.1 s.2 h1 fun i k hk => h i k (by omega)
    unfold gmTurns
    rw [e]
    congr 1
    funext a
    rw [ih a.1 fun s' hs' => hs s' (List.mem_cons_of_mem _ hs')]

theorem turns_append (E : GmEnv K σ) (x : List (List (Option K))) :
    ∀ (A B : List (Nat × Nat)) (st : GmLoop K σ) (rs : List (Nat × List (List K))),
    gmTurns E x (A ++ B) st = .ok rs →
    ∃ r1 r2, gmTurns E x A st = .ok r1 ∧ rs = r1 ++ r2 ∧ r2.map (·.1) = B.map (·.2) := by
  intro A
  induction A with
  | nil =>
    intro B
    induction B with
    | nil => intro st rs h; exact ⟨[], rs, rfl, rfl, by injection h with h; subst h; rfl⟩
    | cons s B ih =>
      intro st rs h
      rw [List.nil_append] at h ih
      unfold gmTurns at h
      obtain ⟨a, e1, h⟩ := (gm_bind_ok _ _ _).1 h
      obtain ⟨b, e2, h⟩ := (gm_bind_ok _ _ _).1 h
      injection h with h
      subst h
      obtain ⟨r1, r2, g1, g2, g3⟩ := ih a.1 b e2
      injection g1 with g1
      subst g1
      rw [List.nil_append] at g2
      subst g2
      exact ⟨[], (s.2, a.2) :: b, rfl, rfl, by simp [g3]⟩
  | cons s A ih =>
    intro B st rs h
    rw [List.cons_append] at h
    unfold gmTurns at h
    obtain ⟨a, e1, h⟩ := (gm_bind_ok _ _ _).1 h
    obtain ⟨b, e2, h⟩ := (gm_bind_ok _ _ _).1 h
    injection h with h
    subst h
    obtain ⟨r1, r2, g1, g2, g3⟩ := ih B a.1 b e2
    refine ⟨(s.2, a.2) :: r1, r2, ?_, by rw [g2]; rfl, g3⟩
    unfold gmTurns
    rw [e1]
    show (gmTurns E x A a.1 >>= fun b => _) = _
    rw [g1]
    rfl

theorem turns_idx (E : GmEnv K σ) (x : List (List (Option K))) (A : List (Nat × Nat)) (st : GmLoop K σ)
    (rs : List (Nat × List (List K))) (h : gmTurns E x A st = .ok rs) : rs.map (·.1) = A.map (·.2) := by
  obtain ⟨r1, r2, h1, h2, h3⟩ := turns_append E x [] A st rs h
  injection h1 with h1
  subst h1
  rw [h2]
  exact h3

/-- C139: two batches that agree before an index have the same forecasts up to it, whatever comes after. -/
theorem C139_run_past (E : GmEnv K σ) (x y : List (List (Option K))) (hxy : x.length = y.length) (N : Nat)
    (h : ∀ i k, k < N → (x.getD i [])[k]? = (y.getD i [])[k]?) (A B : List (Nat × Nat)) (st : GmLoop K σ)
    (hA : ∀ s ∈ A, 1 ≤ s.2 ∧ s.2 ≤ N) (hB : ∀ s ∈ B, N < s.2) (rs rs' : List (Nat × List (List K)))
    (h1 : gmTurns E x (A ++ B) st = .ok rs) (h2 : gmTurns E y (A ++ B) st = .ok rs') :
    (rs.filter fun r => decide (r.1 ≤ N)) = rs'.filter fun r => decide (r.1 ≤ N) := by
  obtain ⟨r1, r2, g1, rfl, g3⟩ := turns_append E x A B st rs h1
  obtain ⟨r1', r2', g1', rfl, g3'⟩ := turns_append E y A B st rs' h2
  rw [C139_turns_past E x y hxy N h A st hA, g1'] at g1
  injection g1 with g1
  subst g1
  have key : ∀ r2 : List (Nat × List (List K)), r2.map (·.1) = B.map (·.2) →
      (r2.filter fun r => decide (r.1 ≤ N)) = [] := by
    intro r2 hr
    rw [List.filter_eq_nil_iff]
    intro r hr2
    have : r.1 ∈ B.map (·.2) := by rw [← hr]; exact List.mem_map_of_mem hr2
    obtain ⟨s, hs, e⟩ := List.mem_map.1 this
    have := hB s hs
    simp only [decide_eq_true_eq]
    omega
  rw [List.filter_append, List.filter_append, key r2 g3, key r2' g3']

/-! ## Scale -/

/-- The logarithm and the exponential have their usual laws. -/
structure GmLogOk (E : GmEnv K σ) : Prop where
  log_mul : ∀ a c, 0 < a → 0 < c → E.log (c * a) = E.log a + E.log c
  exp_add : ∀ v c, 0 < c → E.exp (v + E.log c) = c * E.exp v

/-- The batch with the rows multiplied. -/
def gmTimesRows (c : Nat → K) (x : List (List (Option K))) : List (List (Option K)) :=
  x.mapIdx fun i r => gmTimes (c i) r

def GmLoop.times (c : Nat → K) (st : GmLoop K σ) : GmLoop K σ :=
  { st with tracks := st.tracks.mapIdx fun i t => t.times (c i) }

theorem timesRows_getD (c : Nat → K) (x : List (List (Option K))) (i : Nat) :
    (gmTimesRows c x).getD i [] = gmTimes (c i) (x.getD i []) := by
  unfold gmTimesRows
  rw [List.getD_eq_getElem?_getD, List.getD_eq_getElem?_getD, List.getElem?_mapIdx]
  rcases x[i]? with _ | r
  · rfl
  · rfl

theorem logFcst_times (E : GmEnv K σ) (hL : GmLogOk E) (o : List K) (v : GmView K) (hv : 0 < v.anchor) (c : K)
    (hc : 0 < c) : gmLogFcst E o (v.times c) = (gmLogFcst E o v).map fun f => f.map (· + E.log c) := by
  have e : (o.drop (gmCol E)).map (· + E.log (v.times c).anchor) =
      ((o.drop (gmCol E)).map (· + E.log v.anchor)).map (· + E.log c) := by
    rw [List.map_map]
    apply List.map_congr_left
    intro a _
    show a + E.log (c * v.anchor) = a + E.log v.anchor + E.log c
    rw [hL.log_mul _ _ hv hc, add_assoc]
  unfold gmLogFcst
  simp only [e]
  by_cases hp : 1 < E.period
  · rw [if_pos hp, if_pos hp]
    simp only [List.length_map (f := (· + E.log c))]
    show (if _ = (List.replicate E.quantiles (v.fcst.map E.log)).flatten.length then _ else _) = _
    split
    · show Except.ok _ = Except.ok _
      congr 1
      show _ = List.map (· + E.log c) (List.zipWith _ _ _)
      rw [List.zipWith_map_left, List.map_zipWith]
      congr 1
      funext a b
      ring
    · rfl
  · rw [if_neg hp, if_neg hp]
    rfl

theorem turn_times (E : GmEnv K σ) (hE : GmNetOk E) (hL : GmLogOk E) (c : Nat → K) (hc : ∀ i, 0 < c i)
    (x : List (List (Option K))) (hx : ∀ r ∈ x, GmRowPos r)
    (st : GmLoop K σ) (hst : GmLoopOk E x.length st) (step cur : Nat) (hpc : st.prev < cur)
    (hcur : ∀ r ∈ x, cur ≤ r.length) (hic : E.iw ≤ cur) (st' : GmLoop K σ) (f : List (List K))
    (h : gmTurn E x st step cur = .ok (st', f)) :
    gmTurn E (gmTimesRows c x) (st.times c) step cur =
      .ok (st'.times c, f.mapIdx fun i r => r.map (· + E.log (c i))) := by
  obtain ⟨ps, h1, h2, h3⟩ := turn_rows E hE x hx st hst cur hpc hcur hic
  have hn : (gmTimesRows c x).length = x.length := by unfold gmTimesRows; simp
  have e1 : (List.range x.length).mapM (gmRowProc E (gmTimesRows c x) (st.times c) cur) =
      .ok (ps.mapIdx fun i p => (p.1.times (c i), p.2.times (c i))) := by
    refine mapM_of_get _ _ _ (by simp [h2]) ?_
    intro i p hp
    rw [List.getElem?_mapIdx] at hp
    rcases hq : ps[i]? with _ | q
    · rw [hq] at hp; cases hp
    · rw [hq] at hp
      injection hp with hp
      subst hp
      obtain ⟨t, ht, e⟩ := (h3 i q hq).1
      have ht' : (st.times c).tracks[i]? = some (t.times (c i)) := by
        show (st.tracks.mapIdx _)[i]? = _
        rw [List.getElem?_mapIdx, ht]
        rfl
      unfold gmRowProc
      rw [ht', timesRows_getD]
      show gmProcess _ _ _ _ (st.ls.getD i 0) (st.ss.getD i 0) _ st.prev cur = _
      rw [C139_process_scale _ _ _ (c i) (hc i).ne', e]
      rfl
  have hin : ((ps.mapIdx fun i p => (p.1.times (c i), p.2.times (c i))).mapIdx fun i p =>
      gmInput E step (st.times c).prev cur i p.2) = ps.mapIdx fun i p => gmInput E step st.prev cur i p.2 := by
    rw [List.mapIdx_mapIdx]
    rfl
  unfold gmTurn at h ⊢
  rw [h1] at h
  rw [hn, e1]
  simp only [pure_bind, Except.bind, bind, pure, Except.pure] at h ⊢
  rw [hin]
  show Except.bind ((List.range x.length).mapM (gmRowFcst E (E.net st.net _).2 _)) _ = _
  have h' : (((List.range x.length).mapM (gmRowFcst E
    (E.net st.net (ps.mapIdx fun i p => gmInput E step st.prev cur i p.2)).2 ps)) >>= (fun fcst => _)) = _ := h
  obtain ⟨f', e2, h''⟩ := (gm_bind_ok _ _ _).1 h'
  obtain ⟨hfl, hf⟩ := mapM_range_get _ _ _ e2
  injection h'' with h''
  injection h'' with h4 h5
  subst h5
  have e3 : (List.range x.length).mapM (gmRowFcst E
      (E.net st.net (ps.mapIdx fun i p => gmInput E step st.prev cur i p.2)).2
      (ps.mapIdx fun i p => (p.1.times (c i), p.2.times (c i)))) =
      .ok (f'.mapIdx fun i r => r.map (· + E.log (c i))) := by
    refine mapM_of_get _ _ _ (by simp [hfl]) ?_
    intro i r hr
    rw [List.getElem?_mapIdx] at hr
    rcases hq : f'[i]? with _ | q
    · rw [hq] at hr; cases hr
    · rw [hq] at hr
      injection hr with hr
      subst hr
      have hi : i < x.length := by
        rw [← hfl]
        exact (List.getElem?_eq_some_iff.1 hq).1
      obtain ⟨q', hq', e4⟩ := hf i hi
      rw [hq] at hq'
      injection hq' with hq'
      subst hq'
      unfold gmRowFcst at e4 ⊢
      rw [List.getElem?_mapIdx]
      rcases ho : (E.net st.net (ps.mapIdx fun i p => gmInput E step st.prev cur i p.2)).2[i]? with _ | o
      · rw [ho] at e4; cases e4
      rcases hp : ps[i]? with _ | p
      · rw [ho, hp] at e4; cases e4
      rw [ho, hp] at e4
      rw [ho]
      show gmLogFcst E o (p.2.times (c i)) = _
      rw [logFcst_times E hL o p.2 (h3 i p hp).2.2.2.1 (c i) (hc i)]
      show Except.map _ (gmLogFcst E o p.2) = _
      have e5 : gmLogFcst E o p.2 = .ok q := e4
      rw [e5]
      rfl
  rw [e3]
  show Except.ok _ = Except.ok _
  rw [← h4]
  have e6 : (ps.mapIdx fun i p => (p.1.times (c i), p.2.times (c i))).map (·.1) =
      (ps.map (·.1)).mapIdx fun i t => t.times (c i) := by
    apply List.ext_getElem?
    intro i
    rw [List.getElem?_map, List.getElem?_mapIdx, List.getElem?_mapIdx, List.getElem?_map]
    rcases ps[i]? with _ | p <;> rfl
  rw [e6]
  rfl

theorem turns_times (E : GmEnv K σ) (hE : GmNetOk E) (hL : GmLogOk E) (c : Nat → K) (hc : ∀ i, 0 < c i)
    (x : List (List (Option K))) (hx : ∀ r ∈ x, GmRowPos r) :
    ∀ (steps : List (Nat × Nat)) (st : GmLoop K σ), GmLoopOk E x.length st →
    (steps.map (·.2)).Pairwise (· < ·) → (∀ s ∈ steps, st.prev < s.2 ∧ E.iw ≤ s.2 ∧ ∀ r ∈ x, s.2 ≤ r.length) →
    gmTurns E (gmTimesRows c x) steps (st.times c) = (gmTurns E x steps st).map fun rs => rs.map fun r =>
      (r.1, r.2.mapIdx fun i f => f.map (· + E.log (c i))) := by
  intro steps
  induction steps with
  | nil => intro st _ _ _; rfl
  | cons s steps ih =>
    intro st hst hsort hs
    obtain ⟨h1, h2, h3⟩ := hs s List.mem_cons_self
    obtain ⟨st', f, e, g1, g2, g3, g4⟩ := turn_ok E hE x hx st hst s.1 s.2 h1 h3 h2
    rw [List.map_cons, List.pairwise_cons] at hsort
    have ih' := ih st' g1 hsort.2 (by
      intro s' hs'
      obtain ⟨_, h5, h6⟩ := hs s' (List.mem_cons_of_mem _ hs')
      exact ⟨by rw [g2]; exact hsort.1 s'.2 (List.mem_map_of_mem hs'), h5, h6⟩)
    have e' := turn_times E hE hL c hc x hx st hst s.1 s.2 h1 h3 h2 st' f e
    unfold gmTurns
    rw [e, e']
    show (gmTurns E (gmTimesRows c x) steps (st'.times c) >>= fun b => _) =
      Except.map _ (gmTurns E x steps st' >>= fun b => _)
    rw [ih']
    rcases gmTurns E x steps st' with e | rs <;> rfl

theorem init_times (E : GmEnv K σ) (b : GmBatchIn K) (c : Nat → K) (o : List K) (net : σ) (smooth : List K) :
    gmLoopInit E { b with x := gmTimesRows c b.x, offset := o } net smooth =
      (gmLoopInit E b net smooth).map (·.times c) := by
  unfold gmLoopInit
  split
  · show Except.ok _ = Except.ok _
    unfold GmLoop.times gmTimesRows
    simp only [List.length_mapIdx, List.map_const']
    congr 2
    apply List.ext_getElem?
    intro i
    rw [List.getElem?_mapIdx, List.getElem?_map]
    rcases (List.range b.x.length)[i]? with _ | t <;> rfl
  · rfl

theorem restore_times (E : GmEnv K σ) (hL : GmLogOk E) (b : GmBatchIn K) (c : Nat → K) (hc : ∀ i, 0 < c i)
    (f : List (List K)) :
    gmRestore E { b with x := gmTimesRows c b.x, offset := b.offset.mapIdx fun i v => c i * v }
      (f.mapIdx fun i r => r.map (· + E.log (c i))) = (gmRestore E b f).mapIdx fun i r => r.map (c i * ·) := by
  unfold gmRestore
  rw [List.mapIdx_mapIdx, List.mapIdx_mapIdx]
  congr 1
  funext i r
  simp only [Function.comp, List.map_map]
  apply List.map_congr_left
  intro v _
  have : (b.offset.mapIdx fun i v => c i * v).getD i 0 = c i * b.offset.getD i 0 := by
    rw [List.getD_eq_getElem?_getD, List.getD_eq_getElem?_getD, List.getElem?_mapIdx]
    rcases b.offset[i]? with _ | v
    · simp
    · rfl
  simp only [Function.comp]
  rw [this, hL.exp_add _ _ (hc i)]
  ring

/-- C139: series multiplied by positive factors, one factor for each series, have forecasts multiplied by the
same factors. -/
theorem C139_pass_scale (E : GmEnv K σ) (hL : GmLogOk E) (J : GmJudge K V) (b : GmBatchIn K) (hb : GmGood E b)
    (h2 : 2 ≤ b.train.length) (net : σ) (l s : K) (rest : List K) (hl : 0 < l ∧ l < 1) (hs : 0 < s ∧ s < 1)
    (maxDelta validSteps softMax : Int) (monitor : Bool) (c : Nat → K) (hc : ∀ i, 0 < c i)
    (res : GmPassRes K V)
    (h : gmPassRnn E J b net (l :: s :: rest) maxDelta validSteps softMax false monitor = .ok res) :
    ∃ res', gmPassRnn E J { b with x := gmTimesRows c b.x, offset := b.offset.mapIdx fun i v => c i * v } net
        (l :: s :: rest) maxDelta validSteps softMax false monitor = .ok res' ∧
      res'.fcst = res.fcst.map fun f => f.mapIdx fun i r => r.map (c i * ·) := by
  obtain ⟨st, e1, hst, hprev⟩ := init_ok E b hb net l s rest hl hs
  unfold gmPassRnn at h
  rw [e1] at h
  obtain ⟨first, hf, h⟩ := (gm_bind_ok _ _ _).1 (show (gmFirstValid b.train b.valid >>= fun first => _) = _ from h)
  obtain ⟨p1, p2, p3, p4⟩ := plan_spec b hb.sorted h2
    (gmDelta maxDelta (b.train ++ b.valid).length validSteps softMax) first (delta_pos _ _ _ _) hf
  have hE := hb.net
  have hord : ∀ s' ∈ gmPlan b (gmDelta maxDelta (b.train ++ b.valid).length validSteps softMax),
      st.prev < s'.2 ∧ E.iw ≤ s'.2 ∧ ∀ r ∈ b.x, s'.2 ≤ r.length := by
    intro s' hs'
    obtain ⟨h3, h4⟩ := hb.index _ (p2 s' hs')
    refine ⟨?_, h3, h4⟩
    rw [hprev]
    have := hE.iw
    omega
  obtain ⟨rs, e2, k1, k2⟩ := turns_ok E hE b.x hb.rows (gmPlan b _) st hst p1 hord
  have ht := turns_times E hE hL c hc b.x hb.rows (gmPlan b _) st hst p1 hord
  rw [e2] at ht
  obtain ⟨rs2, e2', h'⟩ := (gm_bind_ok _ _ _).1 (show (gmTurns E b.x (gmPlan b _) st >>= fun res => _) = _ from h)
  rw [e2] at e2'
  injection e2' with e2'
  subst e2'
  injection h' with h'
  rw [calc_test] at h'
  refine ⟨(rs.map fun r => (r.1, r.2.mapIdx fun i f => f.map (· + E.log (c i)))).foldl (gmCalc E J
    { b with x := gmTimesRows c b.x, offset := b.offset.mapIdx fun i v => c i * v } false monitor first)
    ⟨[], [], [], []⟩, ?_, ?_⟩
  · unfold gmPassRnn
    rw [init_times, e1]
    show (gmFirstValid b.train b.valid >>= fun first => _) = _
    rw [hf]
    show (gmTurns E (gmTimesRows c b.x) (gmPlan b _) (st.times c) >>= fun res => _) = _
    rw [ht]
    rfl
  · rw [calc_test, ← h']
    simp only [List.nil_append, List.filter_map, List.map_map]
    apply List.map_congr_left
    intro r _
    exact restore_times E hL b c hc r.2

end Kats

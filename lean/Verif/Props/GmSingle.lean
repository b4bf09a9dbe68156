import Verif.Props.GmPredict
import Verif.Props.GmS2sPass
import Mathlib.Data.Rat.Cast.Order

/-!
# C141: `predict` with the networks
-/

namespace Kats

section
variable {K : Type} [Field K] [LinearOrder K] [IsStrictOrderedRing K] {σ τ V : Type}

/-- The arrays of a batch as the passes take them. -/
theorem single_rows (p : GmParams) (hp : GmPredOk p) (series : List (Bool × GmTs)) (hne : series ≠ [])
    (hs : ∀ t ∈ series, GmSeriesOk p t) (ix : GmIndices) (rows : List GmRow)
    (h : gmBatch p false series none 0 0 = .ok (ix, rows)) :
    rows.length = series.length ∧ ix.valid.length = p.fcstSteps ∧ p.warmUp ≤ ix.train.length ∧
    (ix.train ++ ix.valid).Pairwise (· < ·) ∧ ix.testEnc = p.fcstSteps ∧
    (∀ r ∈ rows.map fun r => (r.x ++ r.validX.getD []).map fun v => v.map fun a : Rat => (a : K), GmRowPos r ∧
      ∀ i ∈ ix.train ++ ix.valid, p.inputWindow ≤ i ∧ i ≤ r.length) ∧
    ∀ r ∈ rows, ∃ xs : List Rat, r.x.take p.seasonality = xs.map some ∧ xs.length = p.seasonality := by
  obtain ⟨ix', rows', b1, b2, b3, b4⟩ := pred_batch p hp series hne hs
  rw [h] at b1
  injection b1 with b1
  injection b1 with b11 b12
  subst b11 b12
  obtain ⟨k1, k2, k3, k4, k5, k6, k7, k8, k9, k10, k11⟩ := C136_test_indices p hp.wf _ none 0 0 ix b2
  have hrow : ∀ r ∈ rows, r.x.length = ix.reduced ∧ r.validX = some (List.replicate ix.reducedValid none) ∧
      (∀ j, j < p.seasonality → ∃ a, r.x[j]? = some (some a)) ∧ ∀ a, some a ∈ r.x → 0 < a := by
    intro r hr
    obtain ⟨i, hi, rfl⟩ := List.getElem_of_mem hr
    obtain ⟨t, b, _, _, _, _, h1, h2, h3, h4⟩ := b4 i _ (List.getElem?_eq_getElem hi)
    exact ⟨h1, h2, h3, h4⟩
  refine ⟨b3, k10, k3, ?_, ?_, ?_, ?_⟩
  · rw [List.pairwise_append]
    refine ⟨k2, k9, ?_⟩
    intro a ha b hb
    have := (k1 a).1 ha
    have := (k8 b).1 hb
    omega
  · unfold gmIndices at b2
    rcases hmn : (series.map fun t => t.2.length).min? with _ | mn
    · rw [hmn] at b2; cases b2
    rcases hmx : (series.map fun t => t.2.length).max? with _ | mx
    · rw [hmn, hmx] at b2; cases b2
    rw [hmn, hmx] at b2
    simp only [Bool.false_eq_true, if_false] at b2
    split at b2
    · cases b2
    · injection b2 with b2
      rw [← b2]
  · intro r hr
    obtain ⟨q, hq, rfl⟩ := List.mem_map.1 hr
    obtain ⟨h1, h2, h3, h4⟩ := hrow q hq
    rw [h2, Option.getD_some]
    refine ⟨⟨?_, ?_⟩, ?_⟩
    · obtain ⟨a, ha⟩ := h3 0 hp.wf.season
      refine ⟨(a : K), ?_⟩
      have hl : 0 < q.x.length := by
        by_contra hge
        rw [List.getElem?_eq_none (by omega)] at ha
        cases ha
      rw [List.getElem?_map, List.getElem?_append_left hl, ha]
      rfl
    · intro a ha
      obtain ⟨v, hv, hva⟩ := List.mem_map.1 ha
      rcases v with _ | v
      · cases hva
      · injection hva with hva
        subst hva
        rcases List.mem_append.1 hv with hv | hv
        · exact Rat.cast_pos.2 (h4 v hv)
        · rw [List.mem_replicate] at hv
          cases hv.2
    · intro i hi
      rw [List.length_map, List.length_append, List.length_replicate, h1]
      rcases List.mem_append.1 hi with hi | hi
      · have := (k1 i).1 hi
        omega
      · have := (k8 i).1 hi
        omega
  · intro r hr
    obtain ⟨h1, h2, h3, h4⟩ := hrow r hr
    have hle : p.seasonality ≤ r.x.length := by rw [h1]; exact le_trans hp.window k4
    have hall : ∀ v ∈ r.x.take p.seasonality, v.isSome = true := by
      intro v hv
      obtain ⟨j, hj, rfl⟩ := List.getElem_of_mem hv
      rw [List.length_take] at hj
      obtain ⟨a, ha⟩ := h3 j (by omega)
      rw [List.getElem_take]
      rw [List.getElem?_eq_getElem (by omega)] at ha
      injection ha with ha
      rw [ha]
      rfl
    refine ⟨(r.x.take p.seasonality).map fun v => v.getD 0, ?_, by simp; exact hle⟩
    rw [List.map_map]
    symm
    calc _ = (r.x.take p.seasonality).map id := by
          apply List.map_congr_left
          intro v hv
          rcases v with _ | v
          · exact absurd (hall none hv) (by simp)
          · rfl
      _ = _ := List.map_id _

/-- C141: with a recurrent network of the right sizes, the pass that `predict` makes works on every batch of series
that can be used. -/
theorem C141_rnn (p : GmParams) (hp : GmPredOk p) (hw : 2 ≤ p.warmUp) (hlow : 0 < p.seasonLow)
    (hhigh : p.seasonLow ≤ p.seasonHigh) (quantile : List String) (E : GmEnv K σ) (J : GmJudge K V) (hE : GmNetOk E)
    (h1 : E.fw = p.fcstWindow) (h2 : E.period = p.seasonality) (h3 : E.iw = p.inputWindow)
    (h4 : E.quantiles = quantile.length) (start : σ) (l s : K) (rest : List K) (hl : 0 < l ∧ l < 1)
    (hs : 0 < s ∧ s < 1) (maxDelta softMax : Int) (n : Nat) (hn : 1 ≤ n) :
    GmSingleOk ⟨p, quantile, gmSingleRnn E J (fun a => (a : K)) start (l :: s :: rest) maxDelta softMax⟩ n := by
  intro series ix rows hne hser hb
  obtain ⟨a1, a2, a3, a4, a5, a6, a7⟩ := single_rows (K := K) { p with fcstSteps := n }
    ⟨⟨hp.wf.iw, hp.wf.fw, hp.wf.season, hp.wf.num, hp.wf.len, hp.wf.valid, hp.wf.warm, hn⟩, hp.uplift, hp.window⟩
    series hne (fun t ht => ⟨(hser t ht).float, (hser t ht).long, (hser t ht).value⟩) ix rows hb
  obtain ⟨b, hbd⟩ : ∃ b : GmBatchIn K, b =
    ⟨rows.map fun r => (r.x ++ r.validX.getD []).map fun v => v.map fun a : Rat => (a : K),
      rows.map fun r => ((r.offset : Rat) : K),
      rows.map fun r => (gmSeason { p with fcstSteps := n } r.x).map fun v => ((v.getD 0 : Rat) : K),
      ix.train, ix.valid⟩ := ⟨_, rfl⟩
  have hx : b.x = rows.map fun r => (r.x ++ r.validX.getD []).map fun v => v.map fun a : Rat => (a : K) := by rw [hbd]
  have hxl : b.x.length = series.length := by rw [hx, List.length_map, a1]
  have hgood : GmGood E b := by
    refine ⟨hE, ?_, ?_, ?_, ?_⟩
    · intro r hr
      rw [hx] at hr
      exact (a6 r hr).1
    · intro _ i hi
      rw [hxl, ← a1] at hi
      obtain ⟨xs, x1, x2⟩ := a7 rows[i] (List.getElem_mem hi)
      obtain ⟨c1, c2⟩ := C136_season { p with fcstSteps := n } hhigh rows[i].x xs x1
      refine ⟨(gmSeason { p with fcstSteps := n } rows[i].x).map fun v => ((v.getD 0 : Rat) : K), ?_, ?_, ?_⟩
      · rw [hbd]
        simp only [List.getElem?_map, List.getElem?_eq_getElem hi, Option.map_some]
      · rw [List.length_map, c1, x2, h2]
      · intro v hv
        obtain ⟨o, ho, rfl⟩ := List.mem_map.1 hv
        obtain ⟨j, hj, rfl⟩ := List.getElem_of_mem ho
        obtain ⟨c, d1, d2, _⟩ := c2 j _ (List.getElem?_eq_getElem (by omega))
        rw [List.getElem?_eq_getElem hj] at d1
        injection d1 with d1
        rw [d1, Option.getD_some]
        have : (0 : Rat) < c := lt_of_lt_of_le hlow d2
        exact_mod_cast this
    · rw [hbd]; exact a4
    · intro i hi
      have hi' : i ∈ ix.train ++ ix.valid := by rw [hbd] at hi; exact hi
      constructor
      · rcases rows with _ | ⟨r0, rows⟩
        · exact absurd (List.length_eq_zero_iff.1 a1.symm) hne
        · rw [h3]
          exact ((a6 _ (by rw [List.map_cons]; exact List.mem_cons_self)).2 i hi').1
      · intro r hr
        rw [hx] at hr
        exact ((a6 r hr).2 i hi').2
  have htr : b.train = ix.train := by rw [hbd]
  have hva : b.valid = ix.valid := by rw [hbd]
  obtain ⟨res, r1, r2, r3, r4, r5⟩ := C139_forecasts_partial E J b hgood (by rw [htr]; exact le_trans hw a3) start l s
    rest hl hs maxDelta p.validSteps softMax false
  refine ⟨res.fcst, ?_, by rw [r4, hva, a2], ?_⟩
  · show gmSingleRnn E J (fun a => (a : K)) start (l :: s :: rest) maxDelta softMax { p with fcstSteps := n } ix rows = _
    unfold gmSingleRnn
    rw [← hbd]
    show (gmPassRnn E J b start (l :: s :: rest) maxDelta p.validSteps softMax false false >>= fun r => _) = _
    rw [r1]
    rfl
  · intro w hw'
    obtain ⟨w1, w2⟩ := r5 w hw'
    refine ⟨by rw [w1, hxl], ?_⟩
    intro r hr
    rw [w2 r hr, h1, h4]

/-- C141: the same for an encoder and a decoder. -/
theorem C141_s2s (p : GmParams) (hp : GmPredOk p) (quantile : List String) (E : GmS2sEnv K σ τ) (J : GmJudge K V)
    (hE : GmS2sNetOk E quantile.length) (h1 : E.fw = p.fcstWindow) (h3 : E.iw = p.inputWindow) (start : σ)
    (maxDelta softMax : Int) (n : Nat) (hn : 1 ≤ n) :
    GmSingleOk ⟨p, quantile, gmSingleS2s E J (fun a => (a : K)) start maxDelta softMax⟩ n := by
  intro series ix rows hne hser hb
  obtain ⟨a1, a2, a3, a4, a5, a6, a7⟩ := single_rows (K := K) { p with fcstSteps := n }
    ⟨⟨hp.wf.iw, hp.wf.fw, hp.wf.season, hp.wf.num, hp.wf.len, hp.wf.valid, hp.wf.warm, hn⟩, hp.uplift, hp.window⟩
    series hne (fun t ht => ⟨(hser t ht).float, (hser t ht).long, (hser t ht).value⟩) ix rows hb
  obtain ⟨b, hbd⟩ : ∃ b : GmBatchIn K, b =
    ⟨rows.map fun r => (r.x ++ r.validX.getD []).map fun v => v.map fun a : Rat => (a : K),
      rows.map fun r => ((r.offset : Rat) : K), [], ix.train, ix.valid⟩ := ⟨_, rfl⟩
  have hx : b.x = rows.map fun r => (r.x ++ r.validX.getD []).map fun v => v.map fun a : Rat => (a : K) := by rw [hbd]
  have hxl : b.x.length = series.length := by rw [hx, List.length_map, a1]
  have htr : b.train = ix.train := by rw [hbd]
  have hva : b.valid = ix.valid := by rw [hbd]
  have hgood : GmS2sGood E quantile.length b := by
    refine ⟨hE, ?_, ?_, ?_, ?_⟩
    · intro r hr
      rw [hx] at hr
      exact (a6 r hr).1
    · rw [hbd]; exact a4
    · rw [htr]
      intro h
      rw [h] at a3
      have h5 := hp.wf.warm
      have h6 : p.warmUp ≤ 0 := a3
      omega
    · intro i hi
      have hi' : i ∈ ix.train ++ ix.valid := by rw [hbd] at hi; exact hi
      constructor
      · rcases rows with _ | ⟨r0, rows⟩
        · exact absurd (List.length_eq_zero_iff.1 a1.symm) hne
        · rw [h3]
          exact ((a6 _ (by rw [List.map_cons]; exact List.mem_cons_self)).2 i hi').1
      · intro r hr
        rw [hx] at hr
        exact ((a6 r hr).2 i hi').2
  have hv0 : b.valid ≠ [] := by
    rw [hva]
    intro h
    rw [h] at a2
    have h7 : 0 = n := a2
    omega
  obtain ⟨res, r1, r2, r3, r4, r5, r6⟩ := C140_forecasts E quantile.length J b hgood hv0 ix.trainEnc ix.testEnc start
    maxDelta softMax false
  refine ⟨res.fcst, ?_, by rw [r5, a5], ?_⟩
  · show gmSingleS2s E J (fun a => (a : K)) start maxDelta softMax { p with fcstSteps := n } ix rows = _
    unfold gmSingleS2s
    rw [← hbd]
    show (gmPassS2s E J b ix.trainEnc ix.testEnc start maxDelta softMax false false >>= fun r => _) = _
    rw [r1]
    rfl
  · intro w hw'
    obtain ⟨w1, w2⟩ := r6 w hw'
    refine ⟨by rw [w1, hxl], ?_⟩
    intro r hr
    rw [w2 r hr, h1]

end

/-! ## An example -/

/-- Parameters for the examples. -/
def gmPredP : GmParams := ⟨4, 2, 1, 2, 1, 1, 2, 1, 7, true, 2, 1 / 10, 10⟩

theorem gmPredP_ok : GmPredOk gmPredP :=
  ⟨⟨by decide, by decide, by decide, by decide, by decide, by decide, by decide, by decide⟩, by decide +kernel,
    by decide⟩

/-- A network that gives the number of its calls. -/
def gmPredE : GmEnv Rat Nat where
  log := fun v => v
  exp := fun v => v
  sigmoid := fun _ => 1 / 2
  net := fun s inp => (s + 1, inp.map fun _ => [0, s, s, s + 10, s + 20])
  features := none
  period := 1
  iw := 4
  fw := 2
  quantiles := 2

theorem gmPredE_ok : GmNetOk gmPredE :=
  ⟨fun s inp => by simp [gmPredE], by
    intro s inp o ho
    simp only [gmPredE, List.mem_map] at ho
    obtain ⟨_, _, rfl⟩ := ho
    rfl, fun v => by constructor <;> norm_num [gmPredE], by decide, by decide, by decide⟩

/-- The predictor with this network. -/
def gmPredX : GmPredictor Rat :=
  ⟨gmPredP, ["0.5", "0.9"], gmSingleRnn gmPredE (⟨fun _ _ => 0, fun _ _ => 0⟩ : GmJudge Rat Rat) (fun a => (a : Rat)) 0
    [1 / 2, 1 / 2] 10 10⟩

theorem gmPredX_ok (n : Nat) (hn : 1 ≤ n) : GmSingleOk gmPredX n :=
  C141_rnn gmPredP gmPredP_ok (by decide) (by decide +kernel) (by decide +kernel) ["0.5", "0.9"] gmPredE _ gmPredE_ok
    rfl rfl rfl rfl 0 (1 / 2) (1 / 2) [] ⟨by norm_num, by norm_num⟩ ⟨by norm_num, by norm_num⟩ 10 10 n hn

/-- A series for the examples: its values are its times. -/
def gmPredTs (n : Nat) : Bool × GmTs := (false, (List.range n).map fun i : Nat => ((i : Int), some ((i : Rat) + 1)))

theorem gmPredTs_ok (n : Nat) (hn : 1 ≤ n) : GmSeriesOk gmPredP (gmPredTs n) := by
  refine ⟨rfl, by simpa [gmPredTs, gmPredP] using hn, (((n - 1 : Nat) : Int), some (((n - 1 : Nat) : Rat) + 1)), ?_, by simp⟩
  apply List.mem_of_getElem? (i := n - 1 - (n - gmPredP.inputWindow))
  rw [List.getElem?_drop]
  simp only [gmPredTs, List.length_map, List.length_range]
  rw [show n - gmPredP.inputWindow + (n - 1 - (n - gmPredP.inputWindow)) = n - 1 by
    simp only [gmPredP]; omega, List.getElem?_map, List.getElem?_range (by omega)]
  rfl

/-- Two series of different lengths and five steps. -/
example : ∃ res raw, gmPredict gmExRand gmPredX [(.str "a", gmPredTs 9), (.str "b", gmPredTs 5)] 5 500 = .ok res ∧
    gmPredictRaw gmExRand gmPredX [(.str "a", gmPredTs 9), (.str "b", gmPredTs 5)] 5 500 = .ok raw ∧
    (res.map (·.1)).Perm [.str "a", .str "b"] := by
  obtain ⟨res, raw, h1, h2, h3, _⟩ := C141_predict gmExRand gmExRand_ok gmPredX gmPredP_ok (by decide) 5 (by omega)
    (gmPredX_ok _ (by decide)) [(.str "a", gmPredTs 9), (.str "b", gmPredTs 5)] (by simp) (by decide) (by decide)
    (by
      intro e he
      simp only [List.mem_cons, List.not_mem_nil, or_false] at he
      rcases he with rfl | rfl
      · exact gmPredTs_ok 9 (by omega)
      · exact gmPredTs_ok 5 (by omega)) 500 (by omega)
  exact ⟨res, raw, h1, h2, h3⟩

/-- C141 violated: the forecast of a series depends on the other series of its batch, which give the length to which
it is padded.  With a network that counts its calls, five values forecast alone are not those forecast beside nine. -/
theorem C141_company_violated : ∃ f g : List (List Rat),
    (gmPredictBatch gmPredX gmPredP [(.str "a", gmPredTs 9), (.str "b", gmPredTs 5)] [.str "b"]).toOption.map
      (fun r => gmSeries r.2.2 0) = some f ∧
    (gmPredictBatch gmPredX gmPredP [(.str "a", gmPredTs 9), (.str "b", gmPredTs 5)] [.str "a", .str "b"]).toOption.map
      (fun r => gmSeries r.2.2 1) = some g ∧ f ≠ g :=
  ⟨[[97 / 16, 97 / 16, 257 / 16, 417 / 16]], [[145 / 16, 145 / 16, 305 / 16, 465 / 16]], by decide +kernel,
    by decide +kernel, by decide +kernel⟩

end Kats

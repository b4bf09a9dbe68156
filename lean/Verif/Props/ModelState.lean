import Verif.Model.ModelState
import Verif.Lemmas.TimeSeries
import Mathlib.Data.List.GetD
import Mathlib.Tactic.Linarith

/-!
# State of the CUSUM and BOCPD detector models: C37, C39, C94
-/

namespace Kats

/-! ## C37: CUSUM -/

/-- C37 for `CUSUMDetectorModel`: restored without overriding arguments, the model is equal in the sense
of `==` and every later call of `fit_predict` gives what the original would have given. -/
theorem C37_cusum (c : CusumAttrs) (a : CModelArgs) (hv : a.vectorized = none) (ha : a.adapted = none) :
    ∃ c', CusumAttrs.init a (some c.serialize) = .ok c' ∧ c'.eq c = true ∧
      c'.remSeason = c.remSeason ∧ c'.seasonFreq = c.seasonFreq ∧ c'.vectorized = c.vectorized ∧
      ∀ scores std detect freq data hist,
        cusumFitPredict (c'.cfg scores) std detect freq c'.st data hist =
          cusumFitPredict (c.cfg scores) std detect freq c.st data hist := by
  refine ⟨{ c with transFlag := false }, ?_, ?_, rfl, rfl, rfl, fun _ _ _ _ _ _ => rfl⟩
  · simp [CusumAttrs.init, CusumAttrs.serialize, hv, ha]
  · simp [CusumAttrs.eq]

/-- Arguments given on restoring replace what was stored: all other fields are the stored ones. -/
theorem C37_cusum_args (c : CusumAttrs) (a : CModelArgs) (v p : Bool) (hv : a.vectorized = some v)
    (ha : a.adapted = some p) :
    CusumAttrs.init a (some c.serialize) =
      .ok { c with vectorized := v, adapted := p, transFlag := false } := by
  simp [CusumAttrs.init, CusumAttrs.serialize, hv, ha]

example : ({ vectorized := some true, adapted := some true } : CModelArgs).vectorized = some true := rfl

/-- What `==` compares. -/
theorem C37_cusum_eq (a b : CusumAttrs) :
    a.eq b = true ↔ { b with remSeason := a.remSeason, seasonFreq := a.seasonFreq,
                             vectorized := a.vectorized, adapted := a.adapted, transFlag := a.transFlag } = a := by
  constructor
  · intro h
    cases a; cases b
    simp only [CusumAttrs.eq, Bool.and_eq_true, beq_iff_eq] at h
    simp only [CusumAttrs.mk.injEq, and_true]
    obtain ⟨⟨⟨⟨⟨⟨⟨⟨⟨h1, h2⟩, h3⟩, h4⟩, h5⟩, h6⟩, h7⟩, h8⟩, h9⟩, h10⟩ := h
    exact ⟨h1.symm, h2.symm, h3.symm, h4.symm, h5.symm, h6.symm, h7.symm, h8.symm, h9.symm, h10.symm⟩
  · intro h
    rw [← h]
    simp [CusumAttrs.eq]

/-- C37: `==` is too coarse to check a restored model: it does not look at the baseline adaptation, the
seasonality settings or the vectorised mode. -/
theorem C37_cusum_eq_violated (c : CusumAttrs) :
    ∃ c' : CusumAttrs, c'.eq c = true ∧ c'.adapted ≠ c.adapted ∧ c'.remSeason ≠ c.remSeason ∧
      c'.vectorized ≠ c.vectorized := by
  refine ⟨{ c with adapted := !c.adapted, remSeason := !c.remSeason, vectorized := !c.vectorized },
    ?_, ?_, ?_, ?_⟩
  · simp [CusumAttrs.eq]
  all_goals simp

/-- A model can be built from two windows, and not without them. -/
theorem C37_cusum_new (a : CModelArgs) :
    (∃ c, CusumAttrs.init a none = .ok c) ↔ a.scanWindow ≠ none ∧ a.histWindow ≠ none := by
  unfold CusumAttrs.init
  cases a.scanWindow <;> cases a.histWindow <;> simp

/-- A new model has one of the three known score functions, the given one if it is known. -/
theorem C37_cusum_score (a : CModelArgs) (c : CusumAttrs) (h : CusumAttrs.init a none = .ok c) :
    (c.scoreFunc = "change" ∨ c.scoreFunc = "percentage_change" ∨ c.scoreFunc = "z_score") ∧
      (a.scoreFunc ∈ ["change", "percentage_change", "z_score"] → c.scoreFunc = a.scoreFunc) := by
  unfold CusumAttrs.init at h
  dsimp only at h
  split at h
  · rw [← Except.ok.inj h]
    simp only [scoreFuncName]
    split_ifs with hm
    · exact ⟨by simpa using hm, fun _ => rfl⟩
    · exact ⟨Or.inl rfl, fun h' => absurd h' hm⟩
  · simp at h

example : ∃ c, CusumAttrs.init { scanWindow := some 60, histWindow := some 600, scoreFunc := "zscore" } none = .ok c ∧
    c.scoreFunc = "change" := ⟨_, rfl, by decide⟩

/-- The three windows are in the same unit: ratios of windows of the model are those of the constructor. -/
theorem C39_cusum_units (c : CusumAttrs) (scores : String → Rat → Option Rat → Option Rat → Option Rat) :
    ((c.cfg scores).scanWindow * c.histWindow = (c.cfg scores).histWindow * c.scanWindow) ∧
      (∀ s, c.stepWindow = some s → ∃ s', (c.cfg scores).stepWindow = some s' ∧
        s' * c.histWindow = (c.cfg scores).histWindow * s) ∧
      (c.stepWindow = none → (c.cfg scores).stepWindow = none) ∧
      (c.histWindow = 1 → (c.cfg scores).histWindow = 1000000000) := by
  refine ⟨by simp only [CusumAttrs.cfg]; ring, ?_, ?_, ?_⟩
  · intro s hs
    refine ⟨s * nsPerSec, by simp [CusumAttrs.cfg, hs], by simp only [CusumAttrs.cfg]; ring⟩
  · intro hs
    simp [CusumAttrs.cfg, hs]
  · intro hs
    simp [CusumAttrs.cfg, hs, nsPerSec]

/-! ## C37: BOCPD -/

/-- C37 for `BocpdDetectorModel`: the kind of change survives. Partial: the threshold is the
constructor's, not the stored one. -/
theorem C37_bocpd_partial (c : BMCfg) (s : Bool) (t : Option ℝ) :
    BMCfg.init s t (some c.serialize) = ⟨c.slowDrift, t⟩ := rfl

/-- C37 is violated by `BocpdDetectorModel`: a threshold is not stored. -/
theorem C37_bocpd_violated (c : BMCfg) (h : c.threshold ≠ none) :
    BMCfg.init false none (some c.serialize) ≠ c := by
  intro e
  exact h (congrArg BMCfg.threshold e).symm

example : ({ threshold := some (1 / 2) } : BMCfg).threshold ≠ none := by simp

/-! ## C39: CUSUM and BOCPD -/

section
variable {V : Type}

/-- The first `n` objects are the same in both stores. -/
def Store.Keeps (n : Nat) (s s' : Store V) : Prop := n ≤ s'.length ∧ ∀ r < n, s'.get r = s.get r

theorem keeps_new (n : Nat) (s s' : Store V) (h : s.Keeps n s') (rows : List (Row V)) :
    s.Keeps n (s'.new rows).2 ∧ n ≤ (s'.new rows).1 := by
  refine ⟨⟨?_, fun r hr => ?_⟩, h.1⟩
  · simp only [Store.new, List.length_append]
    exact h.1.trans (Nat.le_add_right _ _)
  · rw [← h.2 r hr]
    unfold Store.get Store.new
    rw [List.getD_append _ _ _ _ (lt_of_lt_of_le hr h.1)]

theorem keeps_extend (n : Nat) (s s' : Store V) (h : s.Keeps n s') (r o : Nat) (hr : n ≤ r) :
    s.Keeps n (s'.extend r o) := by
  refine ⟨by simpa [Store.extend] using h.1, fun i hi => ?_⟩
  rw [← h.2 i hi]
  unfold Store.get Store.extend
  rw [List.getD_eq_getElem?_getD, List.getD_eq_getElem?_getD, List.getElem?_set_ne (by omega)]

theorem keeps_scan (n : Nat) (s s' : Store V) (h : s.Keeps n s') (all score change : Nat)
    (h1 : n ≤ score) (h2 : n ≤ change) (w : Nat × Nat × Nat) (sc ch : List (Row V)) :
    s.Keeps n (cusumScanObjs all score change w sc ch s') := by
  unfold cusumScanObjs Store.slice
  obtain ⟨k1, _⟩ := keeps_new n s s' h (((s'.get all).take w.2.2).drop w.2.1)
  obtain ⟨k2, l2⟩ := keeps_new n s _ k1
    ((((s'.new (((s'.get all).take w.2.2).drop w.2.1)).2.get all).take w.2.1).drop w.1)
  have k3 := keeps_extend n s _ k2 _ (s'.new (((s'.get all).take w.2.2).drop w.2.1)).1 l2
  have k4 := (keeps_new n s _ k3 sc).1
  have k5 := fun o => keeps_extend n s _ k4 score o h1
  have k6 := fun o => (keeps_new n s _ (k5 o) ch).1
  exact keeps_extend n s _ (k6 _) change _ h2

/-- C39 for `CUSUMDetectorModel`: no object that existed before the call is changed, in particular
neither the data nor the history, even if they are the same object, and whatever the windows are. -/
theorem C39_cusum (s : Store V) (data : Nat) (hist : Option Nat)
    (scans : List ((Nat × Nat × Nat) × List (Row V) × List (Row V))) (zeros : List (Row V)) :
    ∀ r < s.length, (cusumObjs data hist scans zeros s).get r = s.get r := by
  have base : s.Keeps s.length s := ⟨le_refl _, fun _ _ => rfl⟩
  have fold : ∀ (all score change : Nat) (h1 : s.length ≤ score) (h2 : s.length ≤ change)
      (scans : List ((Nat × Nat × Nat) × List (Row V) × List (Row V))) (s' : Store V),
      s.Keeps s.length s' →
      s.Keeps s.length
        (scans.foldl (fun s x => cusumScanObjs all score change x.1 x.2.1 x.2.2 s) s') := by
    intro all score change h1 h2 scans
    induction scans with
    | nil => intro s' h; exact h
    | cons x l ih =>
      intro s' h
      exact ih _ (keeps_scan _ s s' h all score change h1 h2 _ _ _)
  have tail : ∀ (all : Nat) (s' : Store V), s.Keeps s.length s' → s.Keeps s.length
      (scans.foldl (fun t x => cusumScanObjs all (s'.new zeros).1 ((s'.new zeros).2.new zeros).1
        x.1 x.2.1 x.2.2 t) ((s'.new zeros).2.new zeros).2) := by
    intro all s' h
    obtain ⟨k1, l1⟩ := keeps_new _ s s' h zeros
    obtain ⟨k2, l2⟩ := keeps_new _ s _ k1 zeros
    exact fold all _ _ l1 l2 scans _ k2
  cases hist with
  | none =>
    obtain ⟨k0, _⟩ := keeps_new _ s s base (((s.get data).take (s.get data).length).drop 0)
    exact (tail _ _ k0).2
  | some h =>
    obtain ⟨k0, l0⟩ := keeps_new _ s s base (((s.get h).take (s.get h).length).drop 0)
    exact (tail _ _ (keeps_extend _ s _ k0 _ data l0)).2

/-- A store with a history (0) and data (1), and two scans. -/
example : (cusumObjs (V := Nat) 1 (some 0) [((0, 2, 3), [(2, 0)], [(2, 0)]), ((1, 3, 4), [(3, 1)], [(3, 1)])] []
    [[(0, 5), (1, 6)], [(2, 7), (3, 8)]]).take 3 =
    [[(0, 5), (1, 6)], [(2, 7), (3, 8)], [(0, 5), (1, 6), (2, 7), (3, 8)]] := by decide

end

noncomputable section

/-- C39 is violated by `BocpdDetectorModel`: the caller's history grows by the new data. -/
theorem C39_bocpd_violated (W : BMWorld) (c : BMCfg) (data h : List (Row ℝ)) (hd : data ≠ []) :
    (bmFitPredict W c data (some h)).callerHist = some (h ++ data) ∧ h ++ data ≠ h :=
  ⟨rfl, fun e => hd (by simpa using e)⟩

example : ([(1, 2)] : List (Row ℝ)) ≠ [] := by simp

/-! ## C94 -/

theorem pyFrom_last {α : Type} (a b : List α) (n : Nat) (hb : b.length = n) (hn : 0 < n) :
    pyFrom (a ++ b) (-(n : Int)) = b := by
  unfold pyFrom pyIdx
  rw [if_pos (by omega)]
  have : ((-(n : Int) + ((a ++ b).length : Int)).toNat) = a.length := by
    rw [List.length_append]; push_cast; omega
  simp only [List.length_append] at this ⊢
  have e : (a ++ b).drop a.length = b := by simp
  convert e using 2
  omega

/-- C94: one row per data point, with its time and its value as prediction and band, and as score the
probability of a change that the detector gives to that point of the whole series. -/
theorem C94_rows (W : BMWorld) (c : BMCfg) (data : List (Row ℝ)) (hist : Option (List (Row ℝ)))
    (hi : (hist.getD [] ++ data).Pairwise fun a b => a.1 < b.1) (hd : data ≠ []) (p1 p2 : List ℝ)
    (hp : c.call W (hist.getD [] ++ data) = .ok (p1 ++ p2)) (l1 : p1.length = (hist.getD []).length)
    (l2 : p2.length = data.length) :
    (bmFitPredict W c data hist).result =
      .ok (List.zipWith (fun r p => (⟨r.1, p, r.2⟩ : BMRow)) data p2) := by
  have hall : bmAll W data hist = hist.getD [] ++ data := by
    cases hist with
    | none => rfl
    | some h => exact W.srt.run_eq_self _ hi
  unfold bmFitPredict
  dsimp only
  rw [hall, hp]
  simp only [bind, Except.bind]
  generalize hh : hist.getD [] = h at *
  have hpos := List.length_pos_iff.2 hd
  have hz : (((h ++ data).map (·.1)).zip (p1 ++ p2)).Pairwise fun a b => a.1 < b.1 := by
    rw [List.pairwise_iff_getElem]
    intro i j h1 h2 hij
    simp only [List.length_zip, List.length_map] at h1 h2
    simp only [List.getElem_zip, List.getElem_map]
    exact List.pairwise_iff_getElem.1 hi i j (by omega) (by omega) hij
  have hc : construct W.srt
      { df := none, time := some ((h ++ data).map (·.1)), value := some (p1 ++ p2, true) } =
      .ok (((h ++ data).map (·.1)).zip (p1 ++ p2)) := by
    unfold construct
    dsimp only
    have e1 : ((h ++ data).map (·.1)).isEmpty = false := by
      cases h <;> cases data <;> simp_all
    have e2 : (p1 ++ p2).isEmpty = false := by
      cases p2 with
      | nil => simp at l2; omega
      | cons => simp
    rw [e1, e2, if_neg (by simp), if_neg (by simp), if_neg (by simp; omega), if_neg (by simp)]
    exact congrArg _ (W.srt.run_eq_self _ hz)
  rw [hc]
  simp only [pure, Except.pure]
  congr 1
  rw [List.map_append, List.zip_append (by simp [l1]), List.zip_append (by simp [l1]),
    List.map_append, pyFrom_last _ _ data.length (by simp [l2]) hpos]
  apply List.ext_getElem
  · simp
  · intro i h1 h2; simp

/-- A detector that reports the values themselves; data after a history. -/
example : (bmFitPredict ⟨mergeTimeSort ℝ, fun _ _ _ r => .ok (r.map (·.2))⟩ {} [(3, 5), (4, 7)]
    (some [(1, 1), (2, 2)])).result = .ok [⟨3, 5, 5⟩, ⟨4, 7, 7⟩] :=
  C94_rows _ _ _ _ (by simp) (by simp) [1, 2] [5, 7] rfl rfl rfl

/-- C94: without a threshold the kind of change decides which model is used. Partial: with a threshold
it does not. -/
theorem C94_kind_partial (W : BMWorld) (rows : List (Row ℝ)) :
    ({ slowDrift := true } : BMCfg).call W rows = W.changeProb .trendChange false none rows ∧
    ({ slowDrift := false } : BMCfg).call W rows = W.changeProb .normalKnown true none rows ∧
    ∀ t, ({ slowDrift := false, threshold := some t } : BMCfg).call W rows =
      W.changeProb .normalKnown true (some t) rows :=
  ⟨rfl, rfl, fun _ => rfl⟩

/-- C94 is violated by a threshold: trend detection then silently becomes level detection. -/
theorem C94_slow_drift_violated (W : BMWorld) (t : ℝ) (data : List (Row ℝ))
    (hist : Option (List (Row ℝ))) :
    bmFitPredict W { slowDrift := true, threshold := some t } data hist =
      bmFitPredict W { slowDrift := false, threshold := some t } data hist := rfl

/-- C94 is violated by `BocpdTrendDetectorModel`: the smoothing parameters and the history have no
influence. -/
theorem C94_trend_violated (W : BMWorld) (holt : ℝ → ℝ → ℝ → List (Row ℝ) → List (Row ℝ))
    (a b a' b' : ℝ) (data : List (Row ℝ)) (h h' : Option (List (Row ℝ))) :
    (bmTrendFitPredict W holt a b data h).result = (bmTrendFitPredict W holt a' b' data h').result := rfl

end

end Kats

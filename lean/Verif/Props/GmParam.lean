import Verif.Model.GmParam
import Verif.Props.GmFeature

/-!
# C138: the parameters of global models
-/

namespace Kats

theorem gm_bind_ok {α β : Type} (x : Except Err α) (f : α → Except Err β) (z : β) :
    (x >>= f) = .ok z ↔ ∃ y, x = .ok y ∧ f y = .ok z := by
  rcases x with e | y
  · constructor
    · intro h; cases h
    · rintro ⟨y, h, _⟩; cases h
  · constructor
    · intro h; exact ⟨y, rfl, h⟩
    · rintro ⟨y', h, h2⟩
      injection h with h
      subst h
      exact h2

theorem gm_map_ok {α β : Type} (x : Except Err α) (f : α → β) (z : β) :
    x.map f = .ok z ↔ ∃ y, x = .ok y ∧ f y = z := by
  rcases x with e | y
  · constructor
    · intro h; cases h
    · rintro ⟨y, h, _⟩; cases h
  · constructor
    · intro h; injection h with h; exact ⟨y, rfl, h⟩
    · rintro ⟨y', h, h2⟩
      injection h with h
      subst h
      rw [← h2]
      rfl

/-! ## Comparisons -/

theorem le_fin (x : GmFlt) (r : Rat) : gmLe x (.fin r) = true ↔ x = .ninf ∨ ∃ q, x = .fin q ∧ q ≤ r := by
  cases x <;> simp [gmLe]

theorem fin_le (x : GmFlt) (r : Rat) : gmLe (.fin r) x = true ↔ x = .pinf ∨ ∃ q, x = .fin q ∧ r ≤ q := by
  cases x <;> simp [gmLe]

theorem pinf_le (x : GmFlt) : gmLe .pinf x = true ↔ x = .pinf := by
  cases x <;> simp [gmLe]

theorem lt_fin (x : GmFlt) (r : Rat) : gmLt x (.fin r) = true ↔ x = .ninf ∨ ∃ q, x = .fin q ∧ q < r := by
  unfold gmLt
  cases x <;> simp [gmLe]
  intro h; exact le_of_lt h

theorem fin_lt (x : GmFlt) (r : Rat) : gmLt (.fin r) x = true ↔ x = .pinf ∨ ∃ q, x = .fin q ∧ r < q := by
  unfold gmLt
  cases x <;> simp [gmLe]
  intro h; exact le_of_lt h

theorem numEq_fin (x : GmNum) (r : Rat) : gmNumEq x (.flt (.fin r)) = true ↔ x.val = .fin r := by
  unfold gmNumEq
  simp only [GmNum.val.eq_3]
  cases x.val <;> simp [gmLe]
  exact ⟨fun h => le_antisymm h.1 h.2, fun h => by rw [h]; exact ⟨le_refl _, le_refl _⟩⟩

theorem numEq_refl (x : GmNum) (h : x.val ≠ .nan) : gmNumEq x x = true := by
  unfold gmNumEq
  cases hx : x.val <;> simp_all [gmLe]

theorem numEq_val (x y : GmNum) (h : gmNumEq x y = true) : x.val = y.val := by
  unfold gmNumEq at h
  cases hx : x.val <;> cases hy : y.val <;> rw [hx, hy] at h <;> simp [gmLe] at h ⊢
  exact le_antisymm h.1 h.2

/-! ## What is accepted -/

/-- A positive integer, or `True`. -/
def IsPosInt (x : GmNum) : Prop := (∃ z, 1 ≤ z ∧ x = .int z) ∨ x = .bool true

/-- A positive number. -/
def IsPos (x : GmNum) : Prop := x.val = .pinf ∨ ∃ r, 0 < r ∧ x.val = .fin r

/-- NaN, or between 0 and 1. -/
def IsProbNan (x : GmNum) : Prop := x.val = .nan ∨ ∃ r, 0 < r ∧ r < 1 ∧ x.val = .fin r

/-- NaN, or positive and finite. -/
def IsPosNan (x : GmNum) : Prop := x.val = .nan ∨ ∃ r, 0 < r ∧ x.val = .fin r

/-- A schedule with values of the type `ty`. -/
def IsSchedule (ty : GmNum → Bool) (u : GmUnion) : Prop :=
  (∃ x, u = .num x ∧ ty x = true ∧ IsPos x) ∨
  ∃ d, u = .dict d ∧ (∃ e ∈ d, ∃ k, e.1 = some k ∧ k.val = .fin 0) ∧
    ∀ e ∈ d, (∃ k, e.1 = some k ∧ k.isInt = true) ∧ ty e.2 = true ∧ (e.2.val = .nan ∨ IsPos e.2)

/-- An optimizer. -/
def IsOpt : GmOptArg → Prop
  | .none => True
  | .str s => s.toLower = "adam"
  | .dict d => ∃ s, d.name = some (.str s) ∧ s.toLower = "adam"
  | .other => False

/-- A frequency. -/
def IsFreq (td : String → Option Int) : GmFreq → Prop
  | .delta _ => True
  | .str s => ∃ c r, s.toList = c :: r ∧
      ((c.isDigit = true ∧ ∃ ns, td s = some ns) ∨ (c.isDigit = false ∧ ∃ ns, td ("1" ++ s) = some ns))
  | .other => False

/-- What `GMParam` accepts. -/
structure GmValid (td : String → Option Int) (a : GmArgs) : Prop where
  freq : IsFreq td a.freq
  modelType : a.modelType = "rnn" ∨ a.modelType = "s2s"
  uplift : a.uplift.val = .nan ∨ a.uplift.val = .pinf ∨ ∃ r, 0 ≤ r ∧ a.uplift.val = .fin r
  batch : ∀ u, a.batchSize = some u → IsSchedule GmNum.isInt u
  rate : ∀ u, a.learningRate = some u → IsSchedule GmNum.isFlt u
  loss : a.loss.toLower = "pinball" ∨ a.loss.toLower = "adjustedpinball"
  opt : IsOpt a.optimizer
  quantile : ∀ l, a.quantile = some l → (∀ q ∈ l, IsProbNan q) ∧ ∃ q r, l = q :: r ∧ q.val = .fin (1 / 2)
  train : ∀ l, a.trainQuantile = some l → ∀ q ∈ l, IsProbNan q
  weight : ∀ l, a.weight = some l → l.length = (a.quantile.getD gmQuantileDefault).length ∧
    ∀ q ∈ l, IsPosNan q
  metric : ∀ l, a.metric = .list l → ∀ s ∈ l, s ∈ ["smape", "sbias", "exceed"]
  metricType : a.metric ≠ .other
  season : ∀ l, a.initSeason = some l → ∀ q ∈ l, IsPosNan q
  smooth : ∀ l, a.initSmooth = some l → ∀ q ∈ l, IsPosNan q
  feature : ∀ l, a.gmfeature = .types l → ∀ f ∈ l, f ∈ gmAllFeatures
  featureType : a.gmfeature ≠ .other
  len : a.minTrainLen.val = .ninf ∨ (∃ r, r ≤ 0 ∧ a.minTrainLen.val = .fin r) ∨ IsPosInt a.minTrainLen
  ints : ∀ x ∈ [a.inputWindow, a.fcstWindow, a.validSteps, a.minTrainNum, a.seasonality, a.stateSize,
    a.epochNum, a.epochSize, a.softMax, a.warmUp, a.fcstSteps], IsPosInt x

theorem list_prob (l : List GmNum) : gmList l (.fin 0) (.fin 1) = .ok () ↔ ∀ q ∈ l, IsProbNan q := by
  unfold gmList
  have key : (l.any fun q => gmLe (.fin 1) q.val || gmLe q.val (.fin 0)) = false ↔
      ∀ q ∈ l, IsProbNan q := by
    rw [List.any_eq_false]
    refine forall_congr' fun q => forall_congr' fun _ => ?_
    rw [Bool.or_eq_true, fin_le, le_fin]
    unfold IsProbNan
    cases q.val <;> simp
    rw [and_comm]
  by_cases h : (l.any fun q => gmLe (.fin 1) q.val || gmLe q.val (.fin 0)) = true
  · rw [if_pos h]
    refine ⟨fun h => (by cases h), fun h2 => ?_⟩
    rw [key.2 h2] at h; cases h
  · rw [if_neg h]
    exact ⟨fun _ => key.1 (by simpa using h), fun _ => rfl⟩

theorem list_pos (l : List GmNum) : gmList l (.fin 0) .pinf = .ok () ↔ ∀ q ∈ l, IsPosNan q := by
  unfold gmList
  have key : (l.any fun q => gmLe .pinf q.val || gmLe q.val (.fin 0)) = false ↔
      ∀ q ∈ l, IsPosNan q := by
    rw [List.any_eq_false]
    refine forall_congr' fun q => forall_congr' fun _ => ?_
    rw [Bool.or_eq_true, pinf_le, le_fin]
    unfold IsPosNan
    cases q.val <;> simp
  by_cases h : (l.any fun q => gmLe .pinf q.val || gmLe q.val (.fin 0)) = true
  · rw [if_pos h]
    refine ⟨fun h => (by cases h), fun h2 => ?_⟩
    rw [key.2 h2] at h; cases h
  · rw [if_neg h]
    exact ⟨fun _ => key.1 (by simpa using h), fun _ => rfl⟩

theorem positive_iff (l : List GmNum) : gmPositive l = .ok () ↔ ∀ x ∈ l, IsPosInt x := by
  unfold gmPositive
  have key : (l.any fun x => !x.isInt || gmLt x.val (.fin 1)) = false ↔ ∀ x ∈ l, IsPosInt x := by
    rw [List.any_eq_false]
    refine forall_congr' fun x => forall_congr' fun _ => ?_
    rw [Bool.or_eq_true, lt_fin]
    unfold IsPosInt
    rcases x with z | b | f
    · simp [GmNum.isInt, GmNum.val]
      constructor
      · intro h; exact_mod_cast h
      · intro h; exact_mod_cast h
    · cases b <;> simp [GmNum.isInt, GmNum.val]
    · simp [GmNum.isInt]
  by_cases h : (l.any fun x => !x.isInt || gmLt x.val (.fin 1)) = true
  · rw [if_pos h]
    refine ⟨fun h => (by cases h), fun h2 => ?_⟩
    rw [key.2 h2] at h; cases h
  · rw [if_neg h]
    exact ⟨fun _ => key.1 (by simpa using h), fun _ => rfl⟩

theorem union_iff (ty : GmNum → Bool) (u : GmUnion) : (∃ d, gmUnion ty u = .ok d) ↔ IsSchedule ty u := by
  unfold IsSchedule
  rcases u with x | d | _
  · simp only [gmUnion]
    by_cases h : (ty x && gmLt (.fin 0) x.val) = true
    · rw [if_pos h]
      rw [Bool.and_eq_true, fin_lt] at h
      refine ⟨fun _ => Or.inl ⟨x, rfl, h.1, ?_⟩, fun _ => ⟨_, rfl⟩⟩
      rcases h.2 with h2 | ⟨q, h2, h3⟩
      · exact Or.inl h2
      · exact Or.inr ⟨q, h3, h2⟩
    · rw [if_neg h]
      refine ⟨fun ⟨d, h⟩ => (by cases h), ?_⟩
      rintro (⟨y, hy, h1, h2⟩ | ⟨d, hd, _⟩)
      · injection hy with hy
        subst hy
        refine absurd ?_ h
        rw [Bool.and_eq_true, fin_lt]
        refine ⟨h1, ?_⟩
        rcases h2 with h2 | ⟨q, h2, h3⟩
        · exact Or.inl h2
        · exact Or.inr ⟨q, h3, h2⟩
      · cases hd
  · simp only [gmUnion]
    have e1 : (d.any fun e => e.1.any fun k => gmNumEq k (.int 0)) = true ↔
        ∃ e ∈ d, ∃ k, e.1 = some k ∧ k.val = .fin 0 := by
      rw [List.any_eq_true]
      refine exists_congr fun e => and_congr_right fun _ => ?_
      rcases e with ⟨_ | k, v⟩
      · simp
      · simp only [Option.any_some, Option.some.injEq, exists_eq_left']
        have : gmNumEq k (.int 0) = gmNumEq k (.flt (.fin 0)) := by
          unfold gmNumEq; simp [GmNum.val]
        rw [this, numEq_fin]
    have e2 : (d.any fun e => !(e.1.any GmNum.isInt) || !ty e.2 || gmLe e.2.val (.fin 0)) = false ↔
        ∀ e ∈ d, (∃ k, e.1 = some k ∧ k.isInt = true) ∧ ty e.2 = true ∧ (e.2.val = .nan ∨ IsPos e.2) := by
      rw [List.any_eq_false]
      refine forall_congr' fun e => forall_congr' fun _ => ?_
      rw [Bool.or_eq_true, Bool.or_eq_true, le_fin]
      unfold IsPos
      rcases e with ⟨_ | k, v⟩
      · simp
      · rcases hv : v.val <;> simp
        · tauto
    by_cases h1 : (d.any fun e => e.1.any fun k => gmNumEq k (.int 0)) = true
    · rw [if_neg (by simp [h1])]
      by_cases h2 : (d.any fun e => !(e.1.any GmNum.isInt) || !ty e.2 || gmLe e.2.val (.fin 0)) = true
      · rw [if_pos h2]
        refine ⟨fun ⟨d, h⟩ => (by cases h), ?_⟩
        rintro (⟨y, hy, _⟩ | ⟨d', hd, _, h3⟩)
        · cases hy
        · injection hd with hd
          subst hd
          rw [e2.2 h3] at h2
          cases h2
      · rw [if_neg h2]
        exact ⟨fun _ => Or.inr ⟨d, rfl, e1.1 h1, e2.1 (by simpa using h2)⟩, fun _ => ⟨_, rfl⟩⟩
    · rw [if_pos (by simpa using h1)]
      refine ⟨fun ⟨d, h⟩ => (by cases h), ?_⟩
      rintro (⟨y, hy, _⟩ | ⟨d', hd, h3, _⟩)
      · cases hy
      · injection hd with hd
        subst hd
        exact absurd (e1.2 h3) h1
  · simp only [gmUnion]
    refine ⟨fun ⟨d, h⟩ => (by cases h), ?_⟩
    rintro (⟨y, hy, _⟩ | ⟨d', hd, _⟩)
    · cases hy
    · cases hd

theorem freq_iff (td : String → Option Int) (f : GmFreq) : (∃ n, gmFreq td f = .ok n) ↔ IsFreq td f := by
  rcases f with n | s | _
  · exact ⟨fun _ => trivial, fun _ => ⟨n, rfl⟩⟩
  · rcases hs : s.toList with _ | ⟨c, r⟩
    · simp [gmFreq, IsFreq, hs]
    · rcases hc : c.isDigit
      · rcases ht : td ("1" ++ s) with _ | n
        · simp [gmFreq, IsFreq, hs, hc, ht]
        · simp [gmFreq, IsFreq, hs, hc, ht]
      · rcases ht : td s with _ | n
        · simp [gmFreq, IsFreq, hs, hc, ht]
        · simp [gmFreq, IsFreq, hs, hc, ht]
  · simp [gmFreq, IsFreq]

theorem opt_iff (o : GmOptArg) : (∃ d, gmOpt o = .ok d) ↔ IsOpt o := by
  rcases o with _ | s | d | _
  · exact ⟨fun _ => trivial, fun _ => ⟨_, rfl⟩⟩
  · unfold gmOpt IsOpt
    by_cases h : s.toLower = "adam"
    · simp [h]
    · simp [h]
  · unfold gmOpt IsOpt
    rcases hn : d.name with _ | n
    · simp [hn]
    · rcases n with x | s | l | l | i
      · simp [hn]
      · by_cases h : s.toLower = "adam"
        · simp [hn, h]
        · simp [hn, h]
      all_goals simp [hn]
  · unfold gmOpt IsOpt
    simp

theorem first_iff (l : List GmNum) : gmFirstQuantile l = .ok () ↔ ∃ q r, l = q :: r ∧ q.val = .fin (1 / 2) := by
  unfold gmFirstQuantile
  rcases l with _ | ⟨q, r⟩
  · simp
  · by_cases h : gmNumEq q (.flt (.fin (1 / 2))) = true
    · simp only [h, if_true]
      exact ⟨fun _ => ⟨q, r, rfl, (numEq_fin q _).1 h⟩, fun _ => trivial⟩
    · simp only [h]
      refine ⟨fun h => by simp at h, ?_⟩
      rintro ⟨q', r', he, hv⟩
      injection he with h1 h2
      subst h1
      exact absurd ((numEq_fin q _).2 hv) h

theorem uplift_iff (u : GmNum) : gmUplift u = .ok () ↔
    (u.val = .nan ∨ u.val = .pinf ∨ ∃ r, 0 ≤ r ∧ u.val = .fin r) := by
  unfold gmUplift
  by_cases h : gmLt u.val (.fin 0) = true
  · rw [if_pos h]
    rw [lt_fin] at h
    refine ⟨fun h => (by cases h), fun h2 => ?_⟩
    rcases h with h | ⟨q, h, hq⟩
    · rw [h] at h2; simp at h2
    · rw [h] at h2; simp at h2; linarith
  · rw [if_neg h]
    rw [lt_fin] at h
    refine ⟨fun _ => ?_, fun _ => rfl⟩
    cases hu : u.val with
    | fin q =>
      right; right
      refine ⟨q, ?_, rfl⟩
      by_contra hq
      exact h (Or.inr ⟨q, hu, by linarith⟩)
    | nan => left; rfl
    | pinf => right; left; rfl
    | ninf => exact absurd (Or.inl hu) h

theorem metric_iff (m : GmMetricArg) : (∃ l, gmMetric m = .ok l) ↔
    (∀ l, m = .list l → ∀ s ∈ l, s ∈ ["smape", "sbias", "exceed"]) ∧ m ≠ .other := by
  rcases m with _ | l | _
  · exact ⟨fun _ => ⟨fun l h => (by cases h), by simp⟩, fun _ => ⟨_, rfl⟩⟩
  · simp only [gmMetric]
    by_cases h : (l.all fun s => decide (s ∈ ["smape", "sbias", "exceed"])) = true
    · rw [if_pos h]
      refine ⟨fun _ => ⟨fun l' hl s hs => ?_, by simp⟩, fun _ => ⟨_, rfl⟩⟩
      injection hl with hl
      subst hl
      exact of_decide_eq_true (List.all_eq_true.1 h s hs)
    · rw [if_neg h]
      refine ⟨fun ⟨l, h⟩ => (by cases h), fun h2 => absurd (List.all_eq_true.2 fun s hs => ?_) h⟩
      exact decide_eq_true (h2.1 l rfl s hs)
  · simp only [gmMetric]
    simp

theorem feat_iff (m : GmFeatArg) : (∃ l, gmFeat m = .ok l) ↔
    (∀ l, m = .types l → ∀ f ∈ l, f ∈ gmAllFeatures) ∧ m ≠ .other := by
  rcases m with _ | l | _
  · exact ⟨fun _ => ⟨fun l h => (by cases h), by simp⟩, fun _ => ⟨_, rfl⟩⟩
  · simp only [gmFeat, gmFeatureInit]
    by_cases h : (l.all fun s => decide (s ∈ gmAllFeatures)) = true
    · rw [if_pos h]
      refine ⟨fun _ => ⟨fun l' hl s hs => ?_, by simp⟩, fun _ => ⟨_, rfl⟩⟩
      injection hl with hl
      subst hl
      exact of_decide_eq_true (List.all_eq_true.1 h s hs)
    · rw [if_neg h]
      refine ⟨fun ⟨l, h⟩ => (by cases h), fun h2 => absurd (List.all_eq_true.2 fun s hs => ?_) h⟩
      exact decide_eq_true (h2.1 l rfl s hs)
  · simp only [gmFeat]
    simp

/-- The length of a training step. -/
def lenOf (a : GmArgs) : GmNum := if gmLe a.minTrainLen.val (.fin 0) then gmMaxLen a.seasonality else a.minTrainLen

/-- The object of `__init__`. -/
def objOf (a : GmArgs) (freq : Int) (batch lr : List (Option GmNum × GmNum)) (loss : String) (opt : GmOpt)
    (tq w : List GmNum) (m : List String) (f : Option (List String)) : GmObj (Option GmNum) :=
  { freq, modelType := a.modelType, uplift := a.uplift, nn := a.nn.getD [[1, 3]],
    decoder := if a.modelType = "s2s" then a.decoder.getD (a.nn.getD [[1, 3]]) else [],
    cellName := a.cellName,
    stateSize := a.stateSize, hSize := a.hSize, batchSize := batch, learningRate := lr, loss,
    optimizer := opt, quantile := a.quantile.getD gmQuantileDefault, trainQuantile := tq, weight := w,
    metric := m, initSeason := a.initSeason.getD [.flt (.fin (1 / 10)), .flt (.fin 10)],
    initSmooth := a.initSmooth.getD [.flt (.fin (4 / 10)), .flt (.fin (6 / 10))],
    gmfeature := f, inputWindow := a.inputWindow, fcstWindow := a.fcstWindow,
    validSteps := a.validSteps, minTrainNum := a.minTrainNum, minTrainLen := lenOf a,
    seasonality := a.seasonality, epochNum := a.epochNum, epochSize := a.epochSize,
    softMax := a.softMax, warmUp := a.warmUp, fcstSteps := a.fcstSteps,
    maxStepDelta := min a.inputWindow.toInt a.fcstWindow.toInt / (lenOf a).toInt,
    jit := a.jit, gmname := a.gmname }

/-- All that `__init__` does. -/
theorem init_iff (td : String → Option Int) (a : GmArgs) (o : GmObj (Option GmNum)) :
    gmInit td a = .ok o ↔ ∃ freq, gmFreq td a.freq = .ok freq ∧ gmModelType a.modelType = .ok () ∧
      gmUplift a.uplift = .ok () ∧
      ∃ batch, gmUnion GmNum.isInt (a.batchSize.getD gmBatchDefault) = .ok batch ∧
      ∃ lr, gmUnion GmNum.isFlt (a.learningRate.getD gmRateDefault) = .ok lr ∧
      ∃ loss, gmLossName a.loss = .ok loss ∧ ∃ opt, gmOpt a.optimizer = .ok opt ∧
      gmList (a.quantile.getD gmQuantileDefault) (.fin 0) (.fin 1) = .ok () ∧
      gmFirstQuantile (a.quantile.getD gmQuantileDefault) = .ok () ∧
      ∃ tq, gmTrainQuantile (a.quantile.getD gmQuantileDefault) a.trainQuantile = .ok tq ∧
      ∃ w, gmWeights (a.quantile.getD gmQuantileDefault) a.weight = .ok w ∧
      ∃ m, gmMetric a.metric = .ok m ∧
      gmList (a.initSeason.getD [.flt (.fin (1 / 10)), .flt (.fin 10)]) (.fin 0) .pinf = .ok () ∧
      gmList (a.initSmooth.getD [.flt (.fin (4 / 10)), .flt (.fin (6 / 10))]) (.fin 0) .pinf = .ok () ∧
      ∃ f, gmFeat a.gmfeature = .ok f ∧
      gmPositive [a.inputWindow, a.fcstWindow, a.validSteps, a.minTrainNum, lenOf a, a.seasonality,
        a.stateSize, a.epochNum, a.epochSize, a.softMax, a.warmUp, a.fcstSteps] = .ok () ∧
      objOf a freq batch lr loss opt tq w m f = o := by
  unfold gmInit
  simp only [gm_bind_ok]
  constructor
  · rintro ⟨freq, h1, ⟨⟩, h2, ⟨⟩, h3, batch, h4, lr, h5, loss, h6, opt, h7, ⟨⟩, h8, ⟨⟩, h9, tq, h10, w, h11,
      m, h12, ⟨⟩, h13, ⟨⟩, h14, f, h15, ⟨⟩, h16, h17⟩
    injection h17 with h17
    exact ⟨freq, h1, h2, h3, batch, h4, lr, h5, loss, h6, opt, h7, h8, h9, tq, h10, w, h11, m, h12, h13,
      h14, f, h15, h16, h17⟩
  · rintro ⟨freq, h1, h2, h3, batch, h4, lr, h5, loss, h6, opt, h7, h8, h9, tq, h10, w, h11, m, h12, h13,
      h14, f, h15, h16, h17⟩
    refine ⟨freq, h1, (), h2, (), h3, batch, h4, lr, h5, loss, h6, opt, h7, (), h8, (), h9, tq, h10, w, h11,
      m, h12, (), h13, (), h14, f, h15, (), h16, ?_⟩
    exact congrArg Except.ok h17

theorem gmLen_pos (a : GmArgs) (hs : IsPosInt a.seasonality) : IsPosInt (lenOf a) ↔
    (a.minTrainLen.val = .ninf ∨ (∃ r, r ≤ 0 ∧ a.minTrainLen.val = .fin r) ∨ IsPosInt a.minTrainLen) := by
  unfold lenOf
  by_cases h : gmLe a.minTrainLen.val (.fin 0) = true
  · rw [if_pos h]
    rw [le_fin] at h
    constructor
    · intro _
      rcases h with h | ⟨q, h, hq⟩
      · exact Or.inl h
      · exact Or.inr (Or.inl ⟨q, hq, h⟩)
    · intro _
      left
      rcases hs with ⟨z, hz, h⟩ | h
      · rw [h]
        exact ⟨max 1 (z - 1), le_max_left _ _, rfl⟩
      · rw [h]
        exact ⟨1, le_refl _, rfl⟩
  · rw [if_neg h]
    rw [le_fin] at h
    constructor
    · intro h2; exact Or.inr (Or.inr h2)
    · rintro (h2 | ⟨r, hr, h2⟩ | h2)
      · exact absurd (Or.inl h2) h
      · exact absurd (Or.inr ⟨r, h2, hr⟩) h
      · exact h2

theorem train_iff (q : List GmNum) (t : Option (List GmNum)) : (∃ l, gmTrainQuantile q t = .ok l) ↔
    ∀ l, t = some l → ∀ q ∈ l, IsProbNan q := by
  rcases t with _ | t
  · exact ⟨fun _ l h => (by cases h), fun _ => ⟨_, rfl⟩⟩
  · unfold gmTrainQuantile
    simp only [gm_map_ok]
    constructor
    · rintro ⟨l, ⟨⟩, h, _⟩ l' hl
      injection hl with hl
      subst hl
      exact (list_prob t).1 h
    · intro h
      exact ⟨t, (), (list_prob t).2 (h t rfl), rfl⟩

theorem weights_iff (q : List GmNum) (t : Option (List GmNum)) : (∃ l, gmWeights q t = .ok l) ↔
    ∀ l, t = some l → l.length = q.length ∧ ∀ q ∈ l, IsPosNan q := by
  rcases t with _ | t
  · exact ⟨fun _ l h => (by cases h), fun _ => ⟨_, rfl⟩⟩
  · simp only [gmWeights]
    by_cases hl : t.length = q.length
    · rw [if_neg (by simp [hl])]
      simp only [gm_map_ok]
      constructor
      · rintro ⟨l, ⟨⟩, h, _⟩ l' hl'
        injection hl' with hl'
        subst hl'
        exact ⟨hl, (list_pos t).1 h⟩
      · intro h
        exact ⟨t, (), (list_pos t).2 (h t rfl).2, rfl⟩
    · rw [if_pos hl]
      refine ⟨fun ⟨l, h⟩ => (by cases h), fun h => absurd (h t rfl).1 hl⟩

theorem default_prob : ∀ q ∈ gmQuantileDefault, IsProbNan q := by
  intro q hq
  simp only [gmQuantileDefault, List.mem_cons, List.not_mem_nil, or_false] at hq
  rcases hq with rfl | rfl | rfl | rfl
  · exact Or.inr ⟨1 / 2, by norm_num, by norm_num, rfl⟩
  · exact Or.inr ⟨5 / 100, by norm_num, by norm_num, rfl⟩
  · exact Or.inr ⟨95 / 100, by norm_num, by norm_num, rfl⟩
  · exact Or.inr ⟨99 / 100, by norm_num, by norm_num, rfl⟩

theorem season_pos : ∀ q ∈ ([.flt (.fin (1 / 10)), .flt (.fin 10)] : List GmNum), IsPosNan q := by
  intro q hq
  simp only [List.mem_cons, List.not_mem_nil, or_false] at hq
  rcases hq with rfl | rfl
  · exact Or.inr ⟨1 / 10, by norm_num, rfl⟩
  · exact Or.inr ⟨10, by norm_num, rfl⟩

theorem smooth_pos : ∀ q ∈ ([.flt (.fin (4 / 10)), .flt (.fin (6 / 10))] : List GmNum), IsPosNan q := by
  intro q hq
  simp only [List.mem_cons, List.not_mem_nil, or_false] at hq
  rcases hq with rfl | rfl
  · exact Or.inr ⟨4 / 10, by norm_num, rfl⟩
  · exact Or.inr ⟨6 / 10, by norm_num, rfl⟩

/-- C138, the part that holds: exactly the arguments that `GMParam` accepts. -/
theorem C138_accept_partial (td : String → Option Int) (a : GmArgs) :
    (∃ o, gmInit td a = .ok o) ↔ GmValid td a := by
  have hb : IsSchedule GmNum.isInt gmBatchDefault := by
    rw [← union_iff]; exact ⟨_, rfl⟩
  have hr : IsSchedule GmNum.isFlt gmRateDefault := by
    refine Or.inr ⟨_, rfl, ⟨_, List.mem_cons_self, .int 0, rfl, by simp [GmNum.val]⟩, ?_⟩
    intro e he
    simp only [List.mem_cons, List.not_mem_nil, or_false] at he
    rcases he with rfl | rfl
    · exact ⟨⟨_, rfl, rfl⟩, rfl, Or.inr (Or.inr ⟨1 / 1000, by norm_num, rfl⟩)⟩
    · exact ⟨⟨_, rfl, rfl⟩, rfl, Or.inr (Or.inr ⟨1 / 3000, by norm_num, rfl⟩)⟩
  have hq : ∀ q ∈ gmQuantileDefault, IsProbNan q := default_prob
  have hq1 : gmFirstQuantile gmQuantileDefault = .ok () := by
    rw [first_iff]; exact ⟨_, _, rfl, rfl⟩
  constructor
  · rintro ⟨o, h⟩
    obtain ⟨freq, h1, h2, h3, batch, h4, lr, h5, loss, h6, opt, h7, h8, h9, tq, h10, w, h11, m, h12, h13,
      h14, f, h15, h16, h17⟩ := (init_iff td a o).1 h
    rw [positive_iff] at h16
    have hm := (metric_iff _).1 ⟨m, h12⟩
    have hf := (feat_iff _).1 ⟨f, h15⟩
    have hs : IsPosInt a.seasonality := h16 _ (by simp)
    refine ⟨(freq_iff _ _).1 ⟨freq, h1⟩, ?_, (uplift_iff _).1 h3, ?_, ?_, ?_, (opt_iff _).1 ⟨opt, h7⟩, ?_,
      (train_iff _ _).1 ⟨tq, h10⟩, (weights_iff _ _).1 ⟨w, h11⟩, hm.1, hm.2, ?_, ?_, hf.1, hf.2, ?_, ?_⟩
    · unfold gmModelType at h2
      by_contra hc
      rw [if_neg hc] at h2
      cases h2
    · intro u hu
      rw [hu] at h4
      exact (union_iff _ _).1 ⟨batch, h4⟩
    · intro u hu
      rw [hu] at h5
      exact (union_iff _ _).1 ⟨lr, h5⟩
    · unfold gmLossName at h6
      by_contra hc
      rw [if_neg hc] at h6
      cases h6
    · intro l hl
      rw [hl] at h8 h9
      exact ⟨(list_prob l).1 h8, (first_iff l).1 h9⟩
    · intro l hl
      rw [hl] at h13
      exact (list_pos l).1 h13
    · intro l hl
      rw [hl] at h14
      exact (list_pos l).1 h14
    · exact (gmLen_pos a hs).1 (h16 _ (by simp))
    · intro x hx
      refine h16 x ?_
      simp only [List.mem_cons, List.not_mem_nil, or_false] at hx ⊢
      tauto
  · intro v
    obtain ⟨freq, h1⟩ := (freq_iff _ _).2 v.freq
    obtain ⟨batch, h4⟩ := (union_iff GmNum.isInt (a.batchSize.getD gmBatchDefault)).2 (by
      rcases hx : a.batchSize with _ | u
      · exact hb
      · exact v.batch u hx)
    obtain ⟨lr, h5⟩ := (union_iff GmNum.isFlt (a.learningRate.getD gmRateDefault)).2 (by
      rcases hx : a.learningRate with _ | u
      · exact hr
      · exact v.rate u hx)
    obtain ⟨opt, h7⟩ := (opt_iff _).2 v.opt
    obtain ⟨tq, h10⟩ := (train_iff (a.quantile.getD gmQuantileDefault) _).2 v.train
    obtain ⟨w, h11⟩ := (weights_iff (a.quantile.getD gmQuantileDefault) _).2 v.weight
    obtain ⟨m, h12⟩ := (metric_iff _).2 ⟨v.metric, v.metricType⟩
    obtain ⟨f, h15⟩ := (feat_iff _).2 ⟨v.feature, v.featureType⟩
    refine ⟨_, (init_iff td a _).2 ⟨freq, h1, ?_, (uplift_iff _).2 v.uplift, batch, h4, lr, h5,
      a.loss.toLower, ?_, opt, h7, ?_, ?_, tq, h10, w, h11, m, h12, ?_, ?_, f, h15, ?_, rfl⟩⟩
    · unfold gmModelType; rw [if_pos v.modelType]
    · unfold gmLossName; rw [if_pos v.loss]
    · rcases hx : a.quantile with _ | l
      · exact (list_prob _).2 hq
      · exact (list_prob l).2 (v.quantile l hx).1
    · rcases hx : a.quantile with _ | l
      · exact hq1
      · exact (first_iff l).2 (v.quantile l hx).2
    · rcases hx : a.initSeason with _ | l
      · exact (list_pos _).2 season_pos
      · exact (list_pos l).2 (v.season l hx)
    · rcases hx : a.initSmooth with _ | l
      · exact (list_pos _).2 smooth_pos
      · exact (list_pos l).2 (v.smooth l hx)
    · rw [positive_iff]
      have hs : IsPosInt a.seasonality := v.ints _ (by simp)
      have hl := (gmLen_pos a hs).2 v.len
      intro x hx
      by_cases he : x = lenOf a
      · rw [he]; exact hl
      · refine v.ints x ?_
        simp only [List.mem_cons, List.not_mem_nil, or_false] at hx ⊢
        tauto


/-- C138: what an accepted object holds. -/
theorem C138_fields (td : String → Option Int) (a : GmArgs) (o : GmObj (Option GmNum))
    (h : gmInit td a = .ok o) :
    (∀ x ∈ [o.inputWindow, o.fcstWindow, o.validSteps, o.minTrainNum, o.minTrainLen, o.seasonality,
      o.stateSize, o.epochNum, o.epochSize, o.softMax, o.warmUp, o.fcstSteps], IsPosInt x) ∧
    o.inputWindow = a.inputWindow ∧ o.fcstWindow = a.fcstWindow ∧ o.seasonality = a.seasonality ∧
    (IsPosInt a.minTrainLen → o.minTrainLen = a.minTrainLen) ∧
    (∀ s, a.seasonality = .int s → ¬ IsPosInt a.minTrainLen → o.minTrainLen = .int (max 1 (s - 1))) ∧
    o.maxStepDelta = min o.inputWindow.toInt o.fcstWindow.toInt / o.minTrainLen.toInt ∧
    0 ≤ o.maxStepDelta ∧
    (o.modelType = "rnn" → o.decoder = []) ∧ (o.modelType = "s2s" → a.decoder = none → o.decoder = o.nn) ∧
    o.weight.length = o.quantile.length ∧ (∃ r, o.quantile.head? = some r ∧ r.val = .fin (1 / 2)) ∧
    (a.trainQuantile = none → o.trainQuantile = o.quantile) ∧
    (o.loss = "pinball" ∨ o.loss = "adjustedpinball") := by
  obtain ⟨freq, h1, h2, h3, batch, h4, lr, h5, loss, h6, opt, h7, h8, h9, tq, h10, w, h11, m, h12, h13,
    h14, f, h15, h16, rfl⟩ := (init_iff td a o).1 h
  rw [positive_iff] at h16
  have toInt_pos : ∀ x, IsPosInt x → 1 ≤ x.toInt := by
    rintro x (⟨z, hz, rfl⟩ | rfl)
    · exact hz
    · exact le_refl _
  have hlen : IsPosInt (lenOf a) := h16 _ (by simp)
  have v := (C138_accept_partial td a).1 ⟨_, h⟩
  refine ⟨?_, rfl, rfl, rfl, ?_, ?_, rfl, ?_, ?_, ?_, ?_, ?_, ?_, ?_⟩
  · intro x hx
    refine h16 x ?_
    simp only [objOf, List.mem_cons, List.not_mem_nil, or_false] at hx ⊢
    tauto
  · intro hp
    show lenOf a = _
    unfold lenOf
    rw [if_neg]
    rw [le_fin]
    rintro (he | ⟨q, he, hq⟩)
    · rcases hp with ⟨z, hz, hp⟩ | hp <;> rw [hp] at he <;> simp [GmNum.val] at he
    · rcases hp with ⟨z, hz, hp⟩ | hp
      · rw [hp] at he
        simp only [GmNum.val, GmFlt.fin.injEq] at he
        rw [← he] at hq
        have : z ≤ 0 := by exact_mod_cast hq
        omega
      · rw [hp] at he
        simp only [GmNum.val, GmFlt.fin.injEq, if_true] at he
        rw [← he] at hq
        norm_num at hq
  · intro s hs hn
    show lenOf a = _
    unfold lenOf
    rw [if_pos]
    · rw [hs]; rfl
    · rw [le_fin]
      rcases v.len with he | ⟨r, hr, he⟩ | he
      · exact Or.inl he
      · exact Or.inr ⟨r, he, hr⟩
      · exact absurd he hn
  · have b1 : 1 ≤ a.inputWindow.toInt := toInt_pos _ (h16 _ (by simp))
    have b2 : 1 ≤ a.fcstWindow.toInt := toInt_pos _ (h16 _ (by simp))
    have b3 : 1 ≤ (lenOf a).toInt := toInt_pos _ hlen
    show 0 ≤ min a.inputWindow.toInt a.fcstWindow.toInt / (lenOf a).toInt
    exact Int.ediv_nonneg (by omega) (by omega)
  · intro hm
    have hm : a.modelType = "rnn" := hm
    show (if a.modelType = "s2s" then _ else _) = _
    rw [hm]
    rfl
  · intro hm hd
    have hm : a.modelType = "s2s" := hm
    show (if a.modelType = "s2s" then a.decoder.getD (a.nn.getD [[1, 3]]) else _) = a.nn.getD [[1, 3]]
    rw [if_pos hm, hd]
    rfl
  · show w.length = (a.quantile.getD gmQuantileDefault).length
    rcases hw : a.weight with _ | l
    · rw [hw] at h11
      injection h11 with h11
      rw [← h11, List.length_replicate]
    · have := (v.weight l hw).1
      rw [hw] at h11
      simp only [gmWeights, if_neg (not_not.2 this), gm_map_ok] at h11
      obtain ⟨_, _, rfl⟩ := h11
      exact this
  · obtain ⟨q, r, he, hv⟩ := (first_iff _).1 h9
    refine ⟨q, ?_, hv⟩
    show (a.quantile.getD gmQuantileDefault).head? = _
    rw [he]
    rfl
  · intro ht
    rw [ht] at h10
    injection h10 with h10
    exact h10.symm
  · show loss = _ ∨ loss = _
    unfold gmLossName at h6
    split at h6
    · next hc =>
      injection h6 with h6
      rw [← h6]; exact hc
    · cases h6

theorem union_again (ty : GmNum → Bool) (u : GmUnion) (d : List (Option GmNum × GmNum))
    (h : gmUnion ty u = .ok d) : gmUnion ty (.dict d) = .ok d := by
  have hs : IsSchedule ty (.dict d) := by
    rcases (union_iff ty u).1 ⟨d, h⟩ with ⟨x, rfl, h1, h2⟩ | ⟨d', rfl, h1, h2⟩
    · simp only [gmUnion] at h
      split at h
      · injection h with h
        subst h
        refine Or.inr ⟨_, rfl, ⟨_, List.mem_cons_self, .int 0, rfl, by simp [GmNum.val]⟩, ?_⟩
        intro e he
        rw [List.mem_singleton.1 he]
        exact ⟨⟨_, rfl, rfl⟩, h1, Or.inr h2⟩
      · cases h
    · simp only [gmUnion] at h
      split at h
      · cases h
      · split at h
        · cases h
        · injection h with h
          subst h
          exact Or.inr ⟨_, rfl, h1, h2⟩
  obtain ⟨d2, h2⟩ := (union_iff ty (.dict d)).2 hs
  rw [h2]
  simp only [gmUnion] at h2
  split at h2
  · cases h2
  · split at h2
    · cases h2
    · injection h2 with h2
      rw [h2]

theorem opt_again (o : GmOptArg) (d : GmOpt) (h : gmOpt o = .ok d) : gmOpt (.dict d) = .ok d := by
  rcases o with _ | s | d' | _
  · injection h with h
    subst h
    simp only [gmOpt]
    rw [if_pos (by decide +kernel)]
  · simp only [gmOpt] at h
    split at h
    · injection h with h
      subst h
      simp only [gmOpt]
      rw [if_pos (by decide +kernel)]
    · cases h
  · have : d' = d := by
      simp only [gmOpt] at h
      split at h
      · split at h
        · injection h
        · cases h
      · cases h
      · cases h
    rw [← this]
    rw [← this] at h
    exact h
  · cases h

/-- C138: a copy equals the object, for every object that can be built. -/
theorem C138_copy (td : String → Option Int) (a : GmArgs) (o : GmObj (Option GmNum))
    (h : gmInit td a = .ok o) : gmCopy td o = .ok o := by
  have hF := C138_fields td a o h
  obtain ⟨freq, h1, h2, h3, batch, h4, lr, h5, loss, h6, opt, h7, h8, h9, tq, h10, w, h11, m, h12, h13,
    h14, f, h15, h16, rfl⟩ := (init_iff td a o).1 h
  have hlen : lenOf (gmArgsOf (objOf a freq batch lr loss opt tq w m f)) = lenOf a := by
    have hp : IsPosInt (lenOf a) := (positive_iff _).1 h16 _ (by simp)
    have : ∀ x, IsPosInt x → ¬ gmLe x.val (.fin 0) = true := by
      rintro x (⟨z, hz, rfl⟩ | rfl)
      · simp [GmNum.val, gmLe]
        omega
      · simp [GmNum.val, gmLe]
    show (if gmLe (lenOf a).val (.fin 0) = true then gmMaxLen a.seasonality else lenOf a) = lenOf a
    rw [if_neg (this _ hp)]
  unfold gmCopy
  rw [init_iff]
  refine ⟨freq, rfl, h2, h3, batch, union_again _ _ _ h4, lr, union_again _ _ _ h5, loss, ?_, opt,
    opt_again _ _ h7, h8, h9, tq, ?_, w, ?_, m, ?_, h13, h14, f, ?_, ?_, ?_⟩
  · show gmLossName loss = .ok loss
    unfold gmLossName at h6
    split at h6
    · next hc =>
      injection h6 with h6
      rcases hc with hc | hc
      · rw [← h6, hc]; decide +kernel
      · rw [← h6, hc]; decide +kernel
    · cases h6
  · show gmTrainQuantile (a.quantile.getD gmQuantileDefault) (some tq) = .ok tq
    have : gmList tq (.fin 0) (.fin 1) = .ok () := by
      rcases ht : a.trainQuantile with _ | t
      · rw [ht] at h10
        injection h10 with h10
        rw [← h10]; exact h8
      · rw [ht] at h10
        simp only [gmTrainQuantile, gm_map_ok] at h10
        obtain ⟨⟨⟩, h10, rfl⟩ := h10
        exact h10
    simp only [gmTrainQuantile, this]
    rfl
  · show gmWeights (a.quantile.getD gmQuantileDefault) (some w) = .ok w
    have hl : w.length = (a.quantile.getD gmQuantileDefault).length := hF.2.2.2.2.2.2.2.2.2.2.1
    have : gmList w (.fin 0) .pinf = .ok () := by
      rcases ht : a.weight with _ | t
      · rw [ht] at h11
        injection h11 with h11
        rw [list_pos]
        intro q hq
        rw [← h11] at hq
        rw [List.eq_of_mem_replicate hq]
        refine Or.inr ⟨_, ?_, rfl⟩
        obtain ⟨q, r, he, _⟩ := (first_iff _).1 h9
        rw [he, List.length_cons]
        positivity
      · rw [ht] at h11
        simp only [gmWeights] at h11
        split at h11
        · cases h11
        · rw [gm_map_ok] at h11
          obtain ⟨⟨⟩, h11, rfl⟩ := h11
          exact h11
    simp only [gmWeights, if_neg (not_not.2 hl), this]
    rfl
  · show gmMetric (.list m) = .ok m
    rcases ht : a.metric with _ | t | _
    · rw [ht] at h12
      injection h12 with h12
      rw [← h12]
      decide +kernel
    · rw [ht] at h12
      have h12' := h12
      simp only [gmMetric] at h12
      split at h12
      · injection h12 with h12
        rw [← h12]
        rw [← h12] at h12'
        exact h12'
      · cases h12
    · rw [ht] at h12
      cases h12
  · rcases ht : a.gmfeature with _ | t | _
    · rw [ht] at h15
      injection h15 with h15
      rw [← h15]
      rfl
    · rw [ht] at h15
      have h15' := h15
      simp only [gmFeat, gmFeatureInit] at h15
      split at h15
      · injection h15 with h15
        rw [← h15]
        rw [← h15] at h15'
        exact h15'
      · cases h15
    · rw [ht] at h15
      cases h15
  · rw [hlen]
    exact h16
  · have key : ∀ L, L = lenOf a → { objOf a freq batch lr loss opt tq w m f with
        minTrainLen := L, maxStepDelta := min a.inputWindow.toInt a.fcstWindow.toInt / L.toInt,
        decoder := if a.modelType = "s2s" then
          (if a.modelType = "s2s" then a.decoder.getD (a.nn.getD [[1, 3]]) else []) else [] } =
        objOf a freq batch lr loss opt tq w m f := by
      rintro L rfl
      unfold objOf
      by_cases hm : a.modelType = "s2s"
      · simp only [if_pos hm]
      · simp only [if_neg hm]
    exact key _ hlen

/-! ## Text -/

theorem keys_round (d : List (Option GmNum × GmNum)) (h : ∀ e ∈ d, ∃ z, e.1 = some (.int z)) :
    ∃ t, gmKeys gmTextKey d = .ok t ∧ gmKeys gmReadKey t = .ok d := by
  unfold gmKeys
  induction d with
  | nil => exact ⟨[], rfl, rfl⟩
  | cons e d ih =>
    obtain ⟨t, h1, h2⟩ := ih (fun e he => h e (List.mem_cons_of_mem _ he))
    obtain ⟨z, hz⟩ := h e List.mem_cons_self
    refine ⟨(.int z, e.2) :: t, ?_, ?_⟩
    · rw [List.mapM_cons, h1, hz]
      rfl
    · rw [List.mapM_cons, h2]
      have : e = (some (.int z), e.2) := by rw [← hz]
      rw [this]
      rfl

theorem params_round (l : List (String × GmPy)) (h : ∀ e ∈ l, (∀ t, e.2 ≠ .tuple t) ∧ ∀ i, e.2 ≠ .obj i) :
    (l.mapM fun e => (gmTextPy e.2).map fun v => (e.1, v)) = .ok l := by
  induction l with
  | nil => rfl
  | cons e l ih =>
    have ih := ih (fun e he => h e (List.mem_cons_of_mem _ he))
    obtain ⟨h1, h2⟩ := h e List.mem_cons_self
    have : gmTextPy e.2 = .ok e.2 := by
      rcases he : e.2 with x | s | l | l | i
      · rfl
      · rfl
      · rfl
      · exact absurd he (h1 l)
      · exact absurd he (h2 i)
    rw [List.mapM_cons, ih, this]
    rfl

/-- C138, the part that holds: the text of an object gives the same object, if the keys of the schedules
are integers and the parameters of the optimizer are numbers, strings and lists. -/
theorem C138_text_partial (td : String → Option Int) (a : GmArgs) (o : GmObj (Option GmNum))
    (h : gmInit td a = .ok o) (hb : ∀ e ∈ o.batchSize, ∃ z, e.1 = some (.int z))
    (hr : ∀ e ∈ o.learningRate, ∃ z, e.1 = some (.int z))
    (ho : ∀ l, o.optimizer.params = some l → ∀ e ∈ l, (∀ t, e.2 ≠ .tuple t) ∧ ∀ i, e.2 ≠ .obj i) :
    ∃ t, gmToString o = .ok t ∧ gmFromString td t = .ok o := by
  obtain ⟨tb, b1, b2⟩ := keys_round _ hb
  obtain ⟨tr, r1, r2⟩ := keys_round _ hr
  have hopt : gmTextOpt o.optimizer = .ok o.optimizer := by
    have hn : ∃ s, o.optimizer.name = some (.str s) := by
      obtain ⟨freq, h1, h2, h3, batch, h4, lr, h5, loss, h6, opt, h7, h8, h9, tq, h10, w, h11, m, h12, h13,
        h14, f, h15, h16, rfl⟩ := (init_iff td a o).1 h
      have := (opt_iff _).1 ⟨opt, opt_again _ _ h7⟩
      obtain ⟨s, hs, _⟩ := this
      exact ⟨s, hs⟩
    obtain ⟨s, hs⟩ := hn
    rcases hO : o.optimizer with ⟨n, p⟩
    rw [hO] at hs ho
    simp only at hs ho
    subst hs
    rcases p with _ | l
    · rfl
    · have := params_round l (ho l rfl)
      unfold gmTextOpt
      simp only [Option.mapM_some, this]
      rfl
  refine ⟨o.withDicts tb tr o.optimizer, ?_, ?_⟩
  · unfold gmToString
    rw [b1, r1, hopt]
    rfl
  · unfold gmFromString
    show (gmKeys gmReadKey tb >>= fun batch => gmKeys gmReadKey tr >>= fun lr => _) = _
    rw [b2, r2]
    exact C138_copy td a o h

/-! ## Equality -/

theorem listEq_refl (l : List GmNum) (h : ∀ x ∈ l, x.val ≠ .nan) : gmListEq l l = true := by
  unfold gmListEq
  simp only [decide_true, Bool.true_and, List.all_eq_true]
  intro b hb
  obtain ⟨i, hi, rfl⟩ := List.mem_iff_getElem.1 hb
  rw [List.getElem_zipWith]
  exact numEq_refl _ (h _ (List.getElem_mem _))

theorem dictEq_refl {κ ν : Type} (keyEq : κ → κ → Bool) (valEq : ν → ν → Bool) (d : List (κ × ν))
    (h : ∀ e ∈ d, keyEq e.1 e.1 = true ∧ valEq e.2 e.2 = true) : gmDictEq keyEq valEq d d = true := by
  unfold gmDictEq
  simp only [decide_true, Bool.true_and, List.all_eq_true, List.any_eq_true]
  intro e he
  exact ⟨e, he, by simp [h e he]⟩

theorem optionEq_refl {α : Type} (eq : α → α → Bool) (x : Option α) (h : ∀ y, x = some y → eq y y = true) :
    gmOptionEq eq x x = true := by
  rcases x with _ | y
  · rfl
  · exact h y rfl

theorem pyEq_refl (v : GmPy) (h : ∀ x, v = .num x → x.val ≠ .nan)
    (h2 : ∀ l, v = .list l ∨ v = .tuple l → ∀ x ∈ l, x.val ≠ .nan) : gmPyEq v v = true := by
  rcases v with x | s | l | l | i
  · exact numEq_refl x (h x rfl)
  · simp [gmPyEq]
  · exact listEq_refl l (h2 l (Or.inl rfl))
  · exact listEq_refl l (h2 l (Or.inr rfl))
  · simp [gmPyEq]

/-- No NaN among the parameters. -/
structure GmNoNan (o : GmObj (Option GmNum)) : Prop where
  uplift : o.uplift.val ≠ .nan
  hSize : ∀ x, o.hSize = some x → x.val ≠ .nan
  batch : ∀ e ∈ o.batchSize, e.2.val ≠ .nan
  rate : ∀ e ∈ o.learningRate, e.2.val ≠ .nan
  lists : ∀ l ∈ [o.quantile, o.trainQuantile, o.weight, o.initSeason, o.initSmooth], ∀ x ∈ l, x.val ≠ .nan
  opt : ∀ p, o.optimizer.params = some p → ∀ e ∈ p, (∀ x, e.2 = .num x → x.val ≠ .nan) ∧
    ∀ l, e.2 = .list l ∨ e.2 = .tuple l → ∀ x ∈ l, x.val ≠ .nan

theorem posInt_nan (x : GmNum) (h : IsPosInt x) : x.val ≠ .nan := by
  rcases h with ⟨z, _, rfl⟩ | rfl <;> simp [GmNum.val]

/-- C138, the part that holds: an object without NaN equals itself, and so its copy and its text. -/
theorem C138_eq_partial (td : String → Option Int) (a : GmArgs) (o : GmObj (Option GmNum))
    (h : gmInit td a = .ok o) (hn : GmNoNan o) :
    gmEq o o = true ∧ ∃ c, gmCopy td o = .ok c ∧ gmEq o c = true := by
  have hF := (C138_fields td a o h).1
  have hi : ∀ x ∈ [o.inputWindow, o.fcstWindow, o.validSteps, o.minTrainNum, o.minTrainLen, o.seasonality,
      o.stateSize, o.epochNum, o.epochSize, o.softMax, o.warmUp, o.fcstSteps], gmNumEq x x = true :=
    fun x hx => numEq_refl x (posInt_nan x (hF x hx))
  simp only [List.mem_cons, List.not_mem_nil, or_false, forall_eq_or_imp, forall_eq] at hi
  obtain ⟨i1, i2, i3, i4, i5, i6, i7, i8, i9, i10, i11, i12⟩ := hi
  have hl := fun l hl => listEq_refl l (hn.lists l hl)
  simp only [List.mem_cons, List.not_mem_nil, or_false, forall_eq_or_imp, forall_eq] at hl
  obtain ⟨l1, l2, l3, l4, l5⟩ := hl
  have hkeys : (∀ e ∈ o.batchSize, ∃ k, e.1 = some k ∧ k.isInt = true) ∧
      ∀ e ∈ o.learningRate, ∃ k, e.1 = some k ∧ k.isInt = true := by
    obtain ⟨freq, h1, h2, h3, batch, h4, lr, h5, loss, h6, opt, h7, h8, h9, tq, h10, w, h11, m, h12, h13,
      h14, f, h15, h16, rfl⟩ := (init_iff td a o).1 h
    constructor
    · rcases (union_iff _ _).1 ⟨_, union_again _ _ _ h4⟩ with ⟨x, hx, _⟩ | ⟨d, hd, _, h2⟩
      · cases hx
      · injection hd with hd
        subst hd
        exact fun e he => (h2 e he).1
    · rcases (union_iff _ _).1 ⟨_, union_again _ _ _ h5⟩ with ⟨x, hx, _⟩ | ⟨d, hd, _, h2⟩
      · cases hx
      · injection hd with hd
        subst hd
        exact fun e he => (h2 e he).1
  have hint : ∀ k : GmNum, k.isInt = true → gmNumEq k k = true := by
    intro k hk
    apply numEq_refl
    cases k <;> simp [GmNum.val, GmNum.isInt] at hk ⊢
  have hd1 : gmDictEq (gmOptionEq gmNumEq) gmNumEq o.batchSize o.batchSize = true := by
    refine dictEq_refl _ _ _ fun e he => ⟨?_, numEq_refl _ (hn.batch e he)⟩
    obtain ⟨k, hk, hk2⟩ := hkeys.1 e he
    rw [hk]
    exact hint k hk2
  have hd2 : gmDictEq (gmOptionEq gmNumEq) gmNumEq o.learningRate o.learningRate = true := by
    refine dictEq_refl _ _ _ fun e he => ⟨?_, numEq_refl _ (hn.rate e he)⟩
    obtain ⟨k, hk, hk2⟩ := hkeys.2 e he
    rw [hk]
    exact hint k hk2
  have hname : gmOptionEq gmPyEq o.optimizer.name o.optimizer.name = true := by
    obtain ⟨freq, h1, h2, h3, batch, h4, lr, h5, loss, h6, opt, h7, h8, h9, tq, h10, w, h11, m, h12, h13,
      h14, f, h15, h16, rfl⟩ := (init_iff td a o).1 h
    obtain ⟨s, hs, _⟩ := (opt_iff _).1 ⟨opt, opt_again _ _ h7⟩
    show gmOptionEq gmPyEq opt.name opt.name = true
    rw [hs]
    simp [gmOptionEq, gmPyEq]
  have hpar : gmOptionEq (gmDictEq (fun s t => decide (s = t)) gmPyEq) o.optimizer.params
      o.optimizer.params = true := by
    refine optionEq_refl _ _ fun p hp => dictEq_refl _ _ _ fun e he => ⟨by simp, ?_⟩
    exact pyEq_refl _ (hn.opt p hp e he).1 (hn.opt p hp e he).2
  have hfeat : gmOptionEq gmFeatureEq o.gmfeature o.gmfeature = true := by
    refine optionEq_refl _ _ fun l _ => ?_
    simp [gmFeatureEq]
  have hh : gmOptionEq gmNumEq o.hSize o.hSize = true :=
    optionEq_refl _ _ fun x hx => numEq_refl x (hn.hSize x hx)
  have he : gmEq o o = true := by
    unfold gmEq
    simp only [decide_true, Bool.and_true, numEq_refl _ hn.uplift, i1, i2, i3, i4, i5, i6, i7, i8, i9, i10,
      i11, i12, l1, l2, l3, l4, l5, hd1, hd2, hname, hpar, hfeat, hh]
  exact ⟨he, o, C138_copy td a o h, he⟩

theorem toInt_of_eq (x y : GmNum) (hx : IsPosInt x) (hy : IsPosInt y) (h : gmNumEq x y = true) :
    x.toInt = y.toInt := by
  have := numEq_val x y h
  rcases hx with ⟨z, _, rfl⟩ | rfl <;> rcases hy with ⟨w, _, rfl⟩ | rfl <;>
    simp [GmNum.val] at this <;> simp [GmNum.toInt]
  · exact_mod_cast this
  · exact_mod_cast this
  · exact_mod_cast this

/-- C138, the part that holds: equal objects, whose features are without repetitions, give networks of the
same sizes. -/
theorem C138_eq_sizes_partial (td : String → Option Int) (a b : GmArgs) (o p : GmObj (Option GmNum))
    (ha : gmInit td a = .ok o) (hb : gmInit td b = .ok p)
    (hna : ∀ l, o.gmfeature = some l → l.Nodup) (hnb : ∀ l, p.gmfeature = some l → l.Nodup)
    (h : gmEq o p = true) : gmSizes o = gmSizes p := by
  have hA := (C138_fields td a o ha).1
  have hB := (C138_fields td b p hb).1
  unfold gmEq at h
  simp only [Bool.and_eq_true] at h
  have e1 : o.inputWindow.toInt = p.inputWindow.toInt :=
    toInt_of_eq _ _ (hA _ (by simp)) (hB _ (by simp)) (by tauto)
  have e2 : o.fcstWindow.toInt = p.fcstWindow.toInt :=
    toInt_of_eq _ _ (hA _ (by simp)) (hB _ (by simp)) (by tauto)
  have e3 : o.seasonality.toInt = p.seasonality.toInt :=
    toInt_of_eq _ _ (hA _ (by simp)) (hB _ (by simp)) (by tauto)
  have e4 : o.quantile.length = p.quantile.length := by
    have : gmListEq o.quantile p.quantile = true := by tauto
    unfold gmListEq at this
    rw [Bool.and_eq_true] at this
    exact of_decide_eq_true this.1
  have e5 : gmOptionEq gmFeatureEq o.gmfeature p.gmfeature = true := by tauto
  unfold gmSizes
  rw [e1, e2, e3, e4]
  rcases ho : o.gmfeature with _ | l <;> rcases hp : p.gmfeature with _ | l'
  · rfl
  · rw [ho, hp] at e5; cases e5
  · rw [ho, hp] at e5; cases e5
  · rw [ho, hp] at e5
    have := C137_eq_size l l' (hna l ho) (hnb l' hp) e5 p.inputWindow.toInt.toNat
    simp only [this]

/-! ## What fails -/

/-- Arguments with the defaults for the rest. -/
def gmDemo (u : GmNum) (q t : Option (List GmNum)) (b : Option GmUnion) (op : GmOptArg) (f : GmFeatArg)
    (s : Option (List GmNum)) : GmArgs :=
  { freq := .delta 86400, inputWindow := .int 10, fcstWindow := .int 7, uplift := u, quantile := q,
    trainQuantile := t, batchSize := b, optimizer := op, gmfeature := f, initSeason := s, initSmooth := s }

theorem gmDemo_valid (td : String → Option Int) (u : GmNum) (q t : Option (List GmNum)) (b : Option GmUnion)
    (op : GmOptArg) (f : GmFeatArg) (s : Option (List GmNum))
    (hu : u.val = .nan ∨ u.val = .pinf ∨ ∃ r, 0 ≤ r ∧ u.val = .fin r)
    (hq : ∀ l, q = some l → (∀ q ∈ l, IsProbNan q) ∧ ∃ x r, l = x :: r ∧ x.val = .fin (1 / 2))
    (ht : ∀ l, t = some l → ∀ q ∈ l, IsProbNan q) (hb : ∀ d, b = some d → IsSchedule GmNum.isInt d)
    (ho : IsOpt op) (hf : ∀ l, f = .types l → ∀ x ∈ l, x ∈ gmAllFeatures) (hf2 : f ≠ .other)
    (hs : ∀ l, s = some l → ∀ x ∈ l, IsPosNan x) :
    ∃ o, gmInit td (gmDemo u q t b op f s) = .ok o := by
  rw [C138_accept_partial]
  exact {
    freq := trivial
    modelType := Or.inl rfl
    uplift := hu
    batch := hb
    rate := fun l h => by cases h
    loss := Or.inl (by show ("Pinball" : String).toLower = _; decide +kernel)
    opt := ho
    quantile := hq
    train := ht
    weight := fun l h => by cases h
    metric := fun l h => by cases h
    metricType := by simp [gmDemo]
    season := hs
    smooth := hs
    feature := hf
    featureType := hf2
    len := Or.inr (Or.inl ⟨-1, by norm_num, by simp [gmDemo, GmNum.val]⟩)
    ints := by
      intro x hx
      simp only [gmDemo, List.mem_cons, List.not_mem_nil, or_false] at hx
      rcases hx with rfl | rfl | rfl | rfl | rfl | rfl | rfl | rfl | rfl | rfl | rfl <;>
        exact Or.inl ⟨_, by decide, rfl⟩ }

/-- The defaults are accepted. -/
example (td : String → Option Int) : ∃ o, gmInit td (gmDemo (.flt (.fin 3)) none none none .none .none none) = .ok o :=
  gmDemo_valid td _ _ _ _ _ _ _ (Or.inr (Or.inr ⟨3, by norm_num, rfl⟩)) (by simp) (by simp) (by simp) trivial
    (by simp) (by simp) (by simp)

/-- C138 violated: NaN is accepted as a ratio, as a quantile and as a bound of the seasonality, zero is
accepted as a ratio, bounds in the wrong order or only one bound are accepted, and so are negative
epochs. -/
theorem C138_accept_violated (td : String → Option Int) :
    (∃ a o, gmInit td a = .ok o ∧ o.uplift = .flt .nan) ∧
    (∃ a o, gmInit td a = .ok o ∧ o.uplift = .flt (.fin 0)) ∧
    (∃ a o, gmInit td a = .ok o ∧ (.flt .nan : GmNum) ∈ o.quantile) ∧
    (∃ a o, gmInit td a = .ok o ∧ o.initSeason = [.flt (.fin 10), .flt (.fin (1 / 10))]) ∧
    (∃ a o, gmInit td a = .ok o ∧ o.initSmooth = [.flt .nan]) ∧
    (∃ a o, gmInit td a = .ok o ∧ o.batchSize = [(some (.int 0), .int 2), (some (.int (-3)), .int 5)]) := by
  have fields : ∀ u q t b op f s o, gmInit td (gmDemo u q t b op f s) = .ok o → o.uplift = u ∧
      o.quantile = q.getD gmQuantileDefault ∧ (∀ l, s = some l → o.initSeason = l ∧ o.initSmooth = l) ∧
      ∀ d, b = some (.dict d) → o.batchSize = d := by
    intro u q t b op f s o h
    obtain ⟨freq, h1, h2, h3, batch, h4, lr, h5, loss, h6, opt, h7, h8, h9, tq, h10, w, h11, m, h12, h13,
      h14, f, h15, h16, rfl⟩ := (init_iff td _ o).1 h
    refine ⟨rfl, rfl, ?_, ?_⟩
    · rintro l rfl
      exact ⟨rfl, rfl⟩
    · rintro d rfl
      show batch = d
      simp only [gmDemo, Option.getD_some, gmUnion] at h4
      split at h4
      · cases h4
      · split at h4
        · cases h4
        · injection h4 with h4
          exact h4.symm
  have h3 : (GmNum.flt (.fin 3)).val = .nan ∨ (GmNum.flt (.fin 3)).val = .pinf ∨
      ∃ r, 0 ≤ r ∧ (GmNum.flt (.fin 3)).val = .fin r := Or.inr (Or.inr ⟨3, by norm_num, rfl⟩)
  refine ⟨?_, ?_, ?_, ?_, ?_, ?_⟩
  · obtain ⟨o, h⟩ := gmDemo_valid td (.flt .nan) none none none .none .none none (Or.inl rfl) (by simp)
      (by simp) (by simp) trivial (by simp) (by simp) (by simp)
    exact ⟨_, o, h, (fields _ _ _ _ _ _ _ _ h).1⟩
  · obtain ⟨o, h⟩ := gmDemo_valid td (.flt (.fin 0)) none none none .none .none none
      (Or.inr (Or.inr ⟨0, le_refl _, rfl⟩)) (by simp) (by simp) (by simp) trivial (by simp) (by simp) (by simp)
    exact ⟨_, o, h, (fields _ _ _ _ _ _ _ _ h).1⟩
  · obtain ⟨o, h⟩ := gmDemo_valid td (.flt (.fin 3)) (some [.flt (.fin (1 / 2)), .flt .nan]) none none .none
      .none none h3 (by
        intro l hl
        injection hl with hl
        subst hl
        refine ⟨?_, _, _, rfl, rfl⟩
        intro q hq
        simp only [List.mem_cons, List.not_mem_nil, or_false] at hq
        rcases hq with rfl | rfl
        · exact Or.inr ⟨1 / 2, by norm_num, by norm_num, rfl⟩
        · exact Or.inl rfl) (by simp) (by simp) trivial (by simp) (by simp) (by simp)
    refine ⟨_, o, h, ?_⟩
    rw [(fields _ _ _ _ _ _ _ _ h).2.1]
    simp
  · obtain ⟨o, h⟩ := gmDemo_valid td (.flt (.fin 3)) none none none .none .none
      (some [.flt (.fin 10), .flt (.fin (1 / 10))]) h3 (by simp) (by simp) (by simp) trivial (by simp)
      (by simp) (by
        intro l hl x hx
        injection hl with hl
        subst hl
        simp only [List.mem_cons, List.not_mem_nil, or_false] at hx
        rcases hx with rfl | rfl
        · exact Or.inr ⟨10, by norm_num, rfl⟩
        · exact Or.inr ⟨1 / 10, by norm_num, rfl⟩)
    exact ⟨_, o, h, ((fields _ _ _ _ _ _ _ _ h).2.2.1 _ rfl).1⟩
  · obtain ⟨o, h⟩ := gmDemo_valid td (.flt (.fin 3)) none none none .none .none (some [.flt .nan]) h3 (by simp)
      (by simp) (by simp) trivial (by simp) (by simp) (by
        intro l hl x hx
        injection hl with hl
        subst hl
        rw [List.mem_singleton.1 hx]
        exact Or.inl rfl)
    exact ⟨_, o, h, ((fields _ _ _ _ _ _ _ _ h).2.2.1 _ rfl).2⟩
  · obtain ⟨o, h⟩ := gmDemo_valid td (.flt (.fin 3)) none none
      (some (.dict [(some (.int 0), .int 2), (some (.int (-3)), .int 5)])) .none .none none h3 (by simp)
      (by simp) (by
        intro d hd
        injection hd with hd
        subst hd
        rw [← union_iff]
        exact ⟨_, rfl⟩) trivial (by simp) (by simp) (by simp)
    exact ⟨_, o, h, (fields _ _ _ _ _ _ _ _ h).2.2.2 _ rfl⟩

/-- C138 violated: training quantiles of another number than the quantiles are accepted, and then the loss
of the network cannot be built. -/
theorem C138_loss_violated (td : String → Option Int) : ∃ a o, gmInit td a = .ok o ∧
    ∀ f : GmNum → Rat, gmPinInit (o.trainQuantile.map f) (some (o.weight.map f)) = .error .valueError := by
  obtain ⟨o, h⟩ := gmDemo_valid td (.flt (.fin 3)) none (some [.flt (.fin (1 / 2))]) none .none .none none
    (Or.inr (Or.inr ⟨3, by norm_num, rfl⟩)) (by simp) (by
      intro l hl q hq
      injection hl with hl
      subst hl
      rw [List.mem_singleton.1 hq]
      exact Or.inr ⟨1 / 2, by norm_num, by norm_num, rfl⟩) (by simp) trivial (by simp) (by simp) (by simp)
  refine ⟨_, o, h, fun g => ?_⟩
  have hw := (C138_fields td _ o h).2.2.2.2.2.2.2.2.2.2.1
  obtain ⟨freq, h1, h2, h3, batch, h4, lr, h5, loss, h6, opt, h7, h8, h9, tq, h10, w, h11, m, h12, h13,
    h14, f, h15, h16, rfl⟩ := (init_iff td _ o).1 h
  have ht : tq = [.flt (.fin (1 / 2))] := by
    simp only [gmDemo, gmTrainQuantile, gm_map_ok] at h10
    obtain ⟨_, _, h10⟩ := h10
    exact h10.symm
  have hw : w.length = 4 := hw
  show gmPinInit (tq.map g) (some (w.map g)) = _
  rw [ht]
  unfold gmPinInit
  simp [hw]

/-- C138, the part that holds: without training quantiles the loss can be built. -/
theorem C138_loss_partial (td : String → Option Int) (a : GmArgs) (o : GmObj (Option GmNum))
    (h : gmInit td a = .ok o) (ht : a.trainQuantile = none) (f : GmNum → Rat) :
    gmPinInit (o.trainQuantile.map f) (some (o.weight.map f)) =
      .ok (o.quantile.map f, o.weight.map f) := by
  obtain ⟨_, _, _, _, _, _, _, _, _, _, hw, ⟨r, hr, _⟩, hq, _⟩ := C138_fields td a o h
  rw [hq ht]
  unfold gmPinInit
  have : ¬ (o.quantile.map f).length < 1 := by
    rw [List.length_map]
    rcases hl : o.quantile with _ | ⟨x, l⟩
    · rw [hl] at hr; cases hr
    · simp
  rw [if_neg this]
  simp [hw]

/-- C138 violated: an object with a NaN does not equal its own copy. -/
theorem C138_eq_violated (td : String → Option Int) : ∃ a o, gmInit td a = .ok o ∧
    gmCopy td o = .ok o ∧ gmEq o o = false := by
  obtain ⟨⟨a, o, h, hu⟩, _⟩ := C138_accept_violated td
  refine ⟨a, o, h, C138_copy td a o h, ?_⟩
  unfold gmEq
  rw [hu]
  simp [gmNumEq, GmNum.val, gmLe]

/-- C138 violated: two equal objects can give networks of different sizes. -/
theorem C138_eq_sizes_violated (td : String → Option Int) : ∃ a b o p, gmInit td a = .ok o ∧
    gmInit td b = .ok p ∧ gmEq o p = true ∧ gmSizes o ≠ gmSizes p := by
  have key : ∀ l, (∀ x ∈ l, x ∈ gmAllFeatures) →
      ∃ o, gmInit td (gmDemo (.flt (.fin 3)) none none none .none (.types l) none) = .ok o ∧
        o.gmfeature = some l := by
    intro l hl
    obtain ⟨o, h⟩ := gmDemo_valid td (.flt (.fin 3)) none none none .none (.types l) none
      (Or.inr (Or.inr ⟨3, by norm_num, rfl⟩)) (by simp) (by simp) (by simp) trivial
      (by intro l' hl'; injection hl' with hl'; subst hl'; exact hl) (by simp) (by simp)
    refine ⟨o, h, ?_⟩
    obtain ⟨freq, h1, h2, h3, batch, h4, lr, h5, loss, h6, opt, h7, h8, h9, tq, h10, w, h11, m, h12, h13,
      h14, f, h15, h16, rfl⟩ := (init_iff td _ o).1 h
    show f = _
    simp only [gmDemo, gmFeat, gmFeatureInit, gm_map_ok] at h15
    obtain ⟨y, hy, rfl⟩ := h15
    split at hy
    · injection hy with hy
      rw [hy]
    · cases hy
  obtain ⟨o, h1, h2⟩ := key ["last_hour", "last_hour"] (by decide)
  obtain ⟨p, h3, h4⟩ := key ["last_hour"] (by decide)
  have same : { o with gmfeature := some ["last_hour"] } = p := by
    obtain ⟨freq, a1, a2, a3, batch, a4, lr, a5, loss, a6, opt, a7, a8, a9, tq, a10, w, a11, m, a12, a13,
      a14, f, a15, a16, rfl⟩ := (init_iff td _ o).1 h1
    obtain ⟨freq', b1, b2, b3, batch', b4, lr', b5, loss', b6, opt', b7, b8, b9, tq', b10, w', b11, m', b12,
      b13, b14, f', b15, b16, rfl⟩ := (init_iff td _ p).1 h3
    have b1' := a1.symm.trans b1
    have b4' := a4.symm.trans b4
    have b5' := a5.symm.trans b5
    have b6' := a6.symm.trans b6
    have b7' := a7.symm.trans b7
    have b10' := a10.symm.trans b10
    have b11' := a11.symm.trans b11
    have b12' := a12.symm.trans b12
    injection b1' with b1'
    injection b4' with b4'
    injection b5' with b5'
    injection b6' with b6'
    injection b7' with b7'
    injection b10' with b10'
    injection b11' with b11'
    injection b12' with b12'
    subst b1' b4' b5' b6' b7' b10' b11' b12'
    have : f' = some ["last_hour"] := h4
    subst this
    rfl
  have hnan : GmNoNan p := by
    obtain ⟨freq, a1, a2, a3, batch, a4, lr, a5, loss, a6, opt, a7, a8, a9, tq, a10, w, a11, m, a12, a13,
      a14, f, a15, a16, rfl⟩ := (init_iff td _ p).1 h3
    have hb : batch = [(some (.int 0), .int 2), (some (.int 3), .int 5), (some (.int 4), .int 15),
        (some (.int 5), .int 50), (some (.int 6), .int 150), (some (.int 7), .int 500)] := by
      have : gmUnion GmNum.isInt gmBatchDefault = .ok batch := a4
      simp only [gmBatchDefault, gmUnion] at this
      split at this
      · cases this
      · split at this
        · cases this
        · injection this with this
          exact this.symm
    have hr : lr = [(some (.int 0), .flt (.fin (1 / 1000))), (some (.int 2), .flt (.fin (1 / 3000)))] := by
      have : gmUnion GmNum.isFlt gmRateDefault = .ok lr := a5
      simp only [gmRateDefault, gmUnion] at this
      split at this
      · cases this
      · split at this
        · cases this
        · injection this with this
          exact this.symm
    have ht : tq = gmQuantileDefault := by
      injection a10 with a10
      exact a10.symm
    have hw : w = List.replicate 4 (.flt (.fin (1 / 4))) := by
      injection a11 with a11
      rw [← a11]
      simp [gmDemo, gmQuantileDefault]
    have ho : opt = ⟨some (.str "Adam"), some [("eps", .num (.flt (.fin (1 / 10000000))))]⟩ := by
      injection a7 with a7
      exact a7.symm
    subst hb hr ht hw ho
    refine ⟨by simp [objOf, gmDemo, GmNum.val], by simp [objOf, gmDemo], by simp [objOf, GmNum.val],
      by simp [objOf, GmNum.val], ?_, ?_⟩
    · simp [objOf, gmDemo, gmQuantileDefault, GmNum.val, List.replicate]
    · intro q hq e he
      have hq : some [("eps", GmPy.num (.flt (.fin (1 / 10000000))))] = some q := hq
      injection hq with hq
      subst hq
      rw [List.mem_singleton.1 he]
      refine ⟨?_, ?_⟩
      · intro x hx
        injection hx with hx
        rw [← hx]
        simp [GmNum.val]
      · rintro l (hl | hl) <;> cases hl
  refine ⟨_, _, o, p, h1, h3, ?_, ?_⟩
  · have hpp := (C138_eq_partial td _ p h3 hnan).1
    rw [← same]
    rw [← same] at hpp
    have ho : o.gmfeature = some ["last_hour", "last_hour"] := h2
    unfold gmEq at hpp ⊢
    rw [ho]
    have e : gmOptionEq gmFeatureEq (some ["last_hour", "last_hour"]) (some ["last_hour"]) = true := by decide
    simp only [Bool.and_eq_true] at hpp ⊢
    simp only [e]
    tauto
  · rw [← same]
    have ho : o.gmfeature = some ["last_hour", "last_hour"] := h2
    unfold gmSizes
    rw [ho]
    simp only [gmFeatureSize]
    split
    · intro h
      have := congrArg Prod.fst h
      simp at this
    · intro h
      have := congrArg Prod.fst h
      simp at this

/-- C138 violated: objects that can be written but whose text cannot be read, or gives another object: a
key `True` of the schedule; a pair among the parameters of the optimizer.  An object with another value
there cannot be written. -/
theorem C138_text_violated (td : String → Option Int) :
    (∃ a o t, gmInit td a = .ok o ∧ gmToString o = .ok t ∧ gmFromString td t = .error .valueError) ∧
    (∃ a o t p, gmInit td a = .ok o ∧ gmToString o = .ok t ∧ gmFromString td t = .ok p ∧ gmEq o p = false) ∧
    (∃ a o, gmInit td a = .ok o ∧ gmToString o = .error .typeError) := by
  have h3 : (GmNum.flt (.fin 3)).val = .nan ∨ (GmNum.flt (.fin 3)).val = .pinf ∨
      ∃ r, 0 ≤ r ∧ (GmNum.flt (.fin 3)).val = .fin r := Or.inr (Or.inr ⟨3, by norm_num, rfl⟩)
  have hrate : ∀ a o, a.learningRate = none → gmInit td a = .ok o →
      gmKeys gmTextKey o.learningRate = .ok [(.int 0, .flt (.fin (1 / 1000))), (.int 2, .flt (.fin (1 / 3000)))] ∧
      o.learningRate = [(some (.int 0), .flt (.fin (1 / 1000))), (some (.int 2), .flt (.fin (1 / 3000)))] := by
    intro a o ha h
    obtain ⟨freq, a1, a2, a3, batch, a4, lr, a5, loss, a6, opt, a7, a8, a9, tq, a10, w, a11, m, a12, a13,
      a14, f, a15, a16, rfl⟩ := (init_iff td _ o).1 h
    have hr : lr = [(some (.int 0), .flt (.fin (1 / 1000))), (some (.int 2), .flt (.fin (1 / 3000)))] := by
      have : gmUnion GmNum.isFlt (a.learningRate.getD gmRateDefault) = .ok lr := a5
      rw [ha] at this
      simp only [Option.getD_none, gmRateDefault, gmUnion] at this
      split at this
      · cases this
      · split at this
        · cases this
        · injection this with this
          exact this.symm
    subst hr
    exact ⟨rfl, rfl⟩
  have hopt : ∀ ps, ∃ o, gmInit td (gmDemo (.flt (.fin 3)) none none (some (.num (.int 5)))
      (.dict ⟨some (.str "Adam"), some ps⟩) .none none) = .ok o ∧ o.optimizer = ⟨some (.str "Adam"), some ps⟩ ∧
      o.batchSize = [(some (.int 0), .int 5)] := by
    intro ps
    obtain ⟨o, h⟩ := gmDemo_valid td (.flt (.fin 3)) none none (some (.num (.int 5)))
      (.dict ⟨some (.str "Adam"), some ps⟩) .none none h3 (by simp) (by simp) (by
        intro d hd
        injection hd with hd
        subst hd
        exact Or.inl ⟨_, rfl, rfl, Or.inr ⟨5, by norm_num, by simp [GmNum.val]⟩⟩)
      ⟨"Adam", rfl, by decide +kernel⟩ (by simp) (by simp) (by simp)
    refine ⟨o, h, ?_⟩
    obtain ⟨freq, a1, a2, a3, batch, a4, lr, a5, loss, a6, opt, a7, a8, a9, tq, a10, w, a11, m, a12, a13,
      a14, f, a15, a16, rfl⟩ := (init_iff td _ o).1 h
    constructor
    · show opt = _
      simp only [gmDemo, gmOpt] at a7
      split at a7
      · injection a7 with a7
        exact a7.symm
      · cases a7
    · show batch = _
      simp only [gmDemo, Option.getD_some, gmUnion] at a4
      split at a4
      · injection a4 with a4
        exact a4.symm
      · cases a4
  refine ⟨?_, ?_, ?_⟩
  · obtain ⟨o, h⟩ := gmDemo_valid td (.flt (.fin 3)) none none
      (some (.dict [(some (.int 0), .int 2), (some (.bool true), .int 5)])) .none .none none h3 (by simp)
      (by simp) (by
        intro d hd
        injection hd with hd
        subst hd
        rw [← union_iff]
        exact ⟨_, rfl⟩) trivial (by simp) (by simp) (by simp)
    obtain ⟨r1, r2⟩ := hrate _ o rfl h
    have hb : o.batchSize = [(some (.int 0), .int 2), (some (.bool true), .int 5)] ∧
        o.optimizer = ⟨some (.str "Adam"), some [("eps", .num (.flt (.fin (1 / 10000000))))]⟩ := by
      obtain ⟨freq, a1, a2, a3, batch, a4, lr, a5, loss, a6, opt, a7, a8, a9, tq, a10, w, a11, m, a12, a13,
        a14, f, a15, a16, rfl⟩ := (init_iff td _ o).1 h
      constructor
      · show batch = _
        simp only [gmDemo, Option.getD_some, gmUnion] at a4
        split at a4
        · cases a4
        · split at a4
          · cases a4
          · injection a4 with a4
            exact a4.symm
      · injection a7 with a7
        exact a7.symm
    refine ⟨_, o, o.withDicts [(.int 0, .int 2), (.bool true, .int 5)]
      [(.int 0, .flt (.fin (1 / 1000))), (.int 2, .flt (.fin (1 / 3000)))] o.optimizer, h, ?_, ?_⟩
    · unfold gmToString
      rw [r1, hb.1, hb.2]
      rfl
    · rfl
  · obtain ⟨o, h, ho, hb⟩ := hopt [("betas", .tuple [.flt (.fin (9 / 10)), .flt (.fin (99 / 100))])]
    obtain ⟨q, g, go, gb⟩ := hopt [("betas", .list [.flt (.fin (9 / 10)), .flt (.fin (99 / 100))])]
    obtain ⟨r1, r2⟩ := hrate _ o rfl h
    obtain ⟨s1, s2⟩ := hrate _ q rfl g
    have same : o.withDicts [(some (.int 0), .int 5)]
        [(some (.int 0), .flt (.fin (1 / 1000))), (some (.int 2), .flt (.fin (1 / 3000)))]
        ⟨some (.str "Adam"), some [("betas", .list [.flt (.fin (9 / 10)), .flt (.fin (99 / 100))])]⟩ = q := by
      obtain ⟨freq, a1, a2, a3, batch, a4, lr, a5, loss, a6, opt, a7, a8, a9, tq, a10, w, a11, m, a12, a13,
        a14, f, a15, a16, rfl⟩ := (init_iff td _ o).1 h
      obtain ⟨freq', b1, b2, b3, batch', b4, lr', b5, loss', b6, opt', b7, b8, b9, tq', b10, w', b11, m',
        b12, b13, b14, f', b15, b16, rfl⟩ := (init_iff td _ q).1 g
      have b1' := a1.symm.trans b1
      have b6' := a6.symm.trans b6
      have b10' := a10.symm.trans b10
      have b11' := a11.symm.trans b11
      have b12' := a12.symm.trans b12
      have b15' := a15.symm.trans b15
      injection b1' with b1'
      injection b6' with b6'
      injection b10' with b10'
      injection b11' with b11'
      injection b12' with b12'
      injection b15' with b15'
      have e1 : batch' = [(some (.int 0), .int 5)] := gb
      have e2 : opt' = _ := go
      have e3 : lr' = _ := s2
      subst b1' b6' b10' b11' b12' b15' e1 e2 e3
      rfl
    refine ⟨_, o, o.withDicts [(.int 0, .int 5)]
      [(.int 0, .flt (.fin (1 / 1000))), (.int 2, .flt (.fin (1 / 3000)))]
      ⟨some (.str "Adam"), some [("betas", .list [.flt (.fin (9 / 10)), .flt (.fin (99 / 100))])]⟩, q, h,
      ?_, ?_, ?_⟩
    · unfold gmToString
      rw [r1, hb, ho]
      rfl
    · have := C138_copy td _ q g
      rw [← same] at this ⊢
      exact this
    · unfold gmEq
      rw [ho, go]
      simp [gmOptionEq, gmDictEq, gmPyEq]
  · obtain ⟨o, h, ho, hb⟩ := hopt [("lr", .obj 0)]
    obtain ⟨r1, r2⟩ := hrate _ o rfl h
    refine ⟨_, o, h, ?_⟩
    unfold gmToString
    rw [r1, hb, ho]
    rfl

/-! ## Errors -/

theorem gm_bind_error {α β : Type} (x : Except Err α) (f : α → Except Err β) (e : Err) :
    (x >>= f) = .error e ↔ x = .error e ∨ ∃ y, x = .ok y ∧ f y = .error e := by
  rcases x with d | y
  · constructor
    · intro h
      left
      exact congrArg Except.error (Except.error.inj h)
    · rintro (h | ⟨y, h, _⟩)
      · rw [Except.error.inj h]; rfl
      · cases h
  · constructor
    · exact fun h => Or.inr ⟨y, rfl, h⟩
    · rintro (h | ⟨y', h, h2⟩)
      · cases h
      · injection h with h; subst h; exact h2

theorem list_error (l : List GmNum) (lo up : GmFlt) (e : Err) (h : gmList l lo up = .error e) :
    e = .valueError := by
  unfold gmList at h
  split at h
  · injection h with h; exact h.symm
  · cases h

theorem union_error (ty : GmNum → Bool) (u : GmUnion) (e : Err) (h : gmUnion ty u = .error e) :
    e = .valueError := by
  rcases u with x | d | _ <;> simp only [gmUnion] at h
  · split at h
    · cases h
    · injection h with h; exact h.symm
  · split at h
    · injection h with h; exact h.symm
    · split at h
      · injection h with h; exact h.symm
      · cases h
  · injection h with h; exact h.symm

/-- C138: the only error is ValueError, but for an empty list of quantiles and for the name of an optimizer
that is not a string. -/
theorem C138_errors (td : String → Option Int) (a : GmArgs) (e : Err) (h : gmInit td a = .error e) :
    e = .valueError ∨ (e = .indexError ∧ a.quantile = some []) ∨
    (e = .attributeError ∧ ∃ d v, a.optimizer = .dict d ∧ d.name = some v ∧ ∀ s, v ≠ .str s) := by
  unfold gmInit at h
  simp only [gm_bind_error] at h
  rcases h with h | ⟨freq, -, h⟩
  · left
    rcases hf : a.freq with ns | s | _ <;> rw [hf] at h <;> simp only [gmFreq] at h
    · cases h
    · split at h
      · split at h
        · cases h
        · injection h with h; exact h.symm
      · injection h with h; exact h.symm
    · injection h with h; exact h.symm
  rcases h with h | ⟨_, -, h⟩
  · left
    unfold gmModelType at h
    split at h
    · cases h
    · injection h with h; exact h.symm
  rcases h with h | ⟨_, -, h⟩
  · left
    unfold gmUplift at h
    split at h
    · injection h with h; exact h.symm
    · cases h
  rcases h with h | ⟨_, -, h⟩
  · exact Or.inl (union_error _ _ _ h)
  rcases h with h | ⟨_, -, h⟩
  · exact Or.inl (union_error _ _ _ h)
  rcases h with h | ⟨_, -, h⟩
  · left
    unfold gmLossName at h
    split at h
    · cases h
    · injection h with h; exact h.symm
  rcases h with h | ⟨_, -, h⟩
  · rcases ho : a.optimizer with _ | s | d | _ <;> rw [ho] at h <;> simp only [gmOpt] at h
    · cases h
    · split at h
      · cases h
      · left; injection h with h; exact h.symm
    · split at h
      · split at h
        · cases h
        · left; injection h with h; exact h.symm
      · rename_i v hv hd
        right; right
        injection h with h
        refine ⟨h.symm, d, v, rfl, hd, ?_⟩
        intro s hs
        exact hv s hs
      · left; injection h with h; exact h.symm
    · left; injection h with h; exact h.symm
  rcases h with h | ⟨_, -, h⟩
  · exact Or.inl (list_error _ _ _ _ h)
  rcases h with h | ⟨_, -, h⟩
  · unfold gmFirstQuantile at h
    split at h
    · rename_i hq
      right; left
      injection h with h
      refine ⟨h.symm, ?_⟩
      rcases hq2 : a.quantile with _ | l
      · rw [hq2] at hq; cases hq
      · rw [hq2] at hq; exact congrArg some hq
    · left
      split at h
      · cases h
      · injection h with h; exact h.symm
  rcases h with h | ⟨_, -, h⟩
  · left
    rcases ht : a.trainQuantile with _ | t <;> rw [ht] at h <;> simp only [gmTrainQuantile] at h
    · cases h
    · rcases hl : gmList t (.fin 0) (.fin 1) with e' | u <;> rw [hl] at h
      · rw [← Except.error.inj h]; exact list_error _ _ _ _ hl
      · cases h
  rcases h with h | ⟨_, -, h⟩
  · left
    rcases ht : a.weight with _ | t <;> rw [ht] at h <;> simp only [gmWeights] at h
    · cases h
    · split at h
      · injection h with h; exact h.symm
      · rcases hl : gmList t (.fin 0) .pinf with e' | u <;> rw [hl] at h
        · rw [← Except.error.inj h]; exact list_error _ _ _ _ hl
        · cases h
  rcases h with h | ⟨_, -, h⟩
  · left
    rcases ht : a.metric with _ | t | _ <;> rw [ht] at h <;> simp only [gmMetric] at h
    · cases h
    · split at h
      · cases h
      · injection h with h; exact h.symm
    · injection h with h; exact h.symm
  rcases h with h | ⟨_, -, h⟩
  · exact Or.inl (list_error _ _ _ _ h)
  rcases h with h | ⟨_, -, h⟩
  · exact Or.inl (list_error _ _ _ _ h)
  rcases h with h | ⟨_, -, h⟩
  · left
    rcases ht : a.gmfeature with _ | t | _ <;> rw [ht] at h <;> simp only [gmFeat] at h
    · cases h
    · unfold gmFeatureInit at h
      split at h
      · cases h
      · injection h with h; exact h.symm
    · injection h with h; exact h.symm
  rcases h with h | ⟨_, -, h⟩
  · left
    obtain ⟨l, hl⟩ : ∃ l, gmPositive l = .error e := ⟨_, h⟩
    unfold gmPositive at hl
    split at hl
    · injection hl with hl; exact hl.symm
    · cases hl
  · cases h

/-- C138 violated: an empty list of quantiles gives an IndexError, and a number as the name of the optimizer
an AttributeError. -/
theorem C138_errors_violated (td : String → Option Int) :
    gmInit td (gmDemo (.flt (.fin 3)) (some []) none none .none .none none) = .error .indexError ∧
    gmInit td (gmDemo (.flt (.fin 3)) none none none (.dict ⟨some (.num (.int 1)), none⟩) .none none) =
      .error .attributeError := by
  obtain ⟨o, h⟩ := gmDemo_valid td (.flt (.fin 3)) none none none .none .none none
    (Or.inr (Or.inr ⟨3, by norm_num, rfl⟩)) (by simp) (by simp) (by simp) trivial (by simp) (by simp) (by simp)
  obtain ⟨freq, h1, h2, h3, batch, h4, lr, h5, loss, h6, opt, h7, h8, h9, tq, h10, w, h11, m, h12, h13,
    h14, f, h15, h16, rfl⟩ := (init_iff td _ o).1 h
  constructor
  · unfold gmInit
    simp only [gm_bind_error]
    exact Or.inr ⟨_, h1, Or.inr ⟨_, h2, Or.inr ⟨_, h3, Or.inr ⟨_, h4, Or.inr ⟨_, h5, Or.inr ⟨_, h6,
      Or.inr ⟨_, h7, Or.inr ⟨_, rfl, Or.inl rfl⟩⟩⟩⟩⟩⟩⟩⟩
  · unfold gmInit
    simp only [gm_bind_error]
    exact Or.inr ⟨_, h1, Or.inr ⟨_, h2, Or.inr ⟨_, h3, Or.inr ⟨_, h4, Or.inr ⟨_, h5, Or.inr ⟨_, h6,
      Or.inl rfl⟩⟩⟩⟩⟩⟩

example (td : String → Option Int) : gmInit td (gmDemo (.flt (.fin (-3))) none none none .none .none none) = .error .valueError := by
  rfl

/-- The defaults, written and read. -/
example : (gmInit (fun _ => none) (gmDemo (.flt (.fin 3)) none none none .none .none none) >>= fun o =>
    gmToString o >>= gmFromString fun _ => none).toOption =
    (gmInit (fun _ => none) (gmDemo (.flt (.fin 3)) none none none .none .none none)).toOption ∧
    (gmInit (fun _ => none) (gmDemo (.flt (.fin 3)) none none none .none .none none) >>= fun o =>
      .ok (gmEq o o)).toOption = some true := by
  decide +kernel

end Kats

import Verif.Model.KatsEnsemble
import Verif.Props.Ensemble

/-!
# Theorems about `KatsEnsemble` (C79-C81)
-/

namespace Kats

/-! ## C79: the seasonal component -/

theorem tile_getElem {α : Type} (u : List α) (hu : 0 < u.length) : ∀ (r i : Nat), i < r * u.length →
    ((List.replicate r u).flatten)[i]? = u[i % u.length]?
  | 0, i, h => by simp at h
  | r + 1, i, h => by
    rw [List.replicate_succ, List.flatten_cons]
    by_cases hi : i < u.length
    · rw [List.getElem?_append_left hi, Nat.mod_eq_of_lt hi]
    · rw [List.getElem?_append_right (by omega), tile_getElem u hu r (i - u.length) (by
        rw [Nat.succ_mul] at h; omega), Nat.mod_eq_sub_mod (show i ≥ u.length by omega)]

theorem lastUnit {sea : List Rat} {m : Nat} (hm : 0 < m) (hl : m ≤ sea.length) :
    pyFrom sea (-(m : Int)) = sea.drop (sea.length - m) := by
  unfold pyFrom pyIdx
  rw [if_pos (by omega)]
  congr 1
  omega

/-- C79 (phase): the seasonal component is continued by its last `m` values over and over: step `i`
gets the value at position `n - m + i mod m`. -/
theorem C79_tile (sea : List Rat) (m steps : Nat) (hm : 0 < m) (hl : m ≤ sea.length) :
    (seasonTile sea m steps).length = steps
    ∧ ∀ i, i < steps → (seasonTile sea m steps)[i]? = sea[sea.length - m + i % m]? := by
  have hu : (pyFrom sea (-(m : Int))).length = m := by
    rw [lastUnit hm hl, List.length_drop]; omega
  have hsteps : steps < (1 + steps / m) * m := by
    rw [Nat.add_mul, one_mul]
    have := Nat.mod_lt steps hm
    have h2 := Nat.div_add_mod steps m
    rw [Nat.mul_comm] at h2
    omega
  unfold seasonTile
  refine ⟨?_, ?_⟩
  · rw [List.length_take, List.length_flatten, List.map_replicate, List.sum_replicate, hu]
    change min steps ((1 + steps / m) * m) = steps
    omega
  · intro i hi
    rw [List.getElem?_take_of_lt hi, tile_getElem _ (by omega) _ i (by rw [hu]; omega), hu, lastUnit hm hl,
      List.getElem?_drop]

example : seasonTile [9, 9, 1, 2, 3] 3 5 = [1, 2, 3, 1, 2] := by decide +kernel

/-- C79 (continuation): a seasonal component that is periodic with the given period is continued
periodically, and a model that forecasts the rest exactly gives an exact forecast of the sum (or
product). -/
theorem C79_continuation (dm : Decomp) (g h : Nat → Rat) (m n steps : Nat) (hm : 0 < m) (hn : m ≤ n)
    (hper : ∀ i, g (i + m) = g i) (ci : Option (List Rat × List Rat)) :
    let sea := (List.range n).map g
    (reseasonOne dm (seasonTile sea m steps)
        { fcst := (List.range steps).map fun i => h (n + i), ci := ci }).fcst
      = (List.range steps).map fun i => dm.op (h (n + i)) (g (n + i)) := by
  intro sea
  have hl : sea.length = n := by simp [sea]
  have hperk : ∀ k i, g (i + k * m) = g i := by
    intro k
    induction k with
    | zero => intro i; simp
    | succ k ih => intro i; rw [Nat.succ_mul, ← Nat.add_assoc, hper, ih]
  obtain ⟨t1, t2⟩ := C79_tile sea m steps hm (by omega)
  change List.zipWith dm.op _ _ = _
  apply List.ext_getElem?
  intro i
  by_cases hi : i < steps
  · rw [List.getElem?_zipWith, t2 i hi, hl]
    have hlt : n - m + i % m < n := by have := Nat.mod_lt i hm; omega
    simp only [sea, List.getElem?_map, List.getElem?_range hi, List.getElem?_range hlt, Option.map_some]
    have : g (n - m + i % m) = g (n + i) := by
      rw [← hperk (1 + i / m) (n - m + i % m)]
      congr 1
      have := Nat.div_add_mod i m
      rw [Nat.add_mul, one_mul]
      rw [Nat.mul_comm] at this
      omega
    rw [this]
  · rw [List.getElem?_eq_none (by rw [List.length_zipWith]; simp; omega), List.getElem?_eq_none (by simp; omega)]

/-- C79 (inverse): adding the seasonal component back to the de-seasonalized values gives the data;
for the multiplicative decomposition as far as the component is not zero. -/
theorem C79_inverse (dm : Decomp) : ∀ (xs sea : List Rat), xs.length = sea.length →
    (dm = .multiplicative → ∀ s ∈ sea, s ≠ 0) →
    List.zipWith dm.op (dm.remove xs sea) sea = xs
  | [], [], _, _ => by cases dm <;> rfl
  | [], _ :: _, h, _ => by simp at h
  | _ :: _, [], h, _ => by simp at h
  | x :: xs, s :: sea, h, hz => by
    have ih := C79_inverse dm xs sea (by simpa using h)
      (fun hd t ht => hz hd t (List.mem_cons_of_mem _ ht))
    cases dm with
    | additive =>
      simp only [Decomp.remove, Decomp.op, List.zipWith_cons_cons, sub_add_cancel] at ih ⊢
      rw [ih]
    | multiplicative =>
      have := hz rfl s (List.mem_cons_self ..)
      simp only [Decomp.remove, Decomp.op, List.zipWith_cons_cons] at ih ⊢
      rw [ih, div_mul_cancel₀ _ this]

example : ([1, -1] : List Rat).length = [3, (4 : Rat)].length ∧ ∀ s ∈ ([1, -1] : List Rat), s ≠ 0 := by
  decide +kernel

/-- A frame whose bounds are numbers around the forecast at every step. -/
def Covers (steps : Nat) (p : FullPred) : Prop :=
  ∃ l u : List Rat, p.ci = some (l.map some, u.map some)
    ∧ p.fcst.length = steps ∧ l.length = steps ∧ u.length = steps
    ∧ ∀ i, i < steps → l.getD i 0 ≤ p.fcst.getD i 0 ∧ p.fcst.getD i 0 ≤ u.getD i 0

theorem zipWith_getD (f : Rat → Rat → Rat) (a b : List Rat) (i : Nat) (ha : i < a.length) (hb : i < b.length) :
    (List.zipWith f a b).getD i 0 = f (a.getD i 0) (b.getD i 0) := by
  have : i < (List.zipWith f a b).length := by rw [List.length_zipWith]; omega
  rw [getD_lt this, getD_lt ha, getD_lt hb, List.getElem_zipWith]

/-- C79 (bounds), the part that holds: bounds around the forecast stay around it when the seasonal
component is added, and when it is multiplied by non-negative factors. -/
theorem C79_bounds_partial (dm : Decomp) (s : List Rat) (steps : Nat) (hs : s.length = steps)
    (hpos : dm = .multiplicative → ∀ x ∈ s, 0 ≤ x) (p : BasePred) (hci : p.ci ≠ none)
    (hp : Covers steps (rawPred p)) : Covers steps (reseasonOne dm s p) := by
  obtain ⟨fc, ci⟩ := p
  cases ci with
  | none => exact absurd rfl hci
  | some c =>
    obtain ⟨l, u⟩ := c
    obtain ⟨l', u', e, h1, h2, h3, h4⟩ := hp
    have e' : (l.map some, u.map some) = (l'.map some, u'.map some) := Option.some.inj e
    have hl : l = l' := List.map_injective_iff.2 (Option.some_injective _) (Prod.mk.inj e').1
    have hu : u = u' := List.map_injective_iff.2 (Option.some_injective _) (Prod.mk.inj e').2
    subst hl hu
    change fc.length = steps at h1
    refine ⟨List.zipWith dm.op l s, List.zipWith dm.op u s, rfl, ?_, ?_, ?_, ?_⟩
    · change (List.zipWith dm.op fc s).length = _; rw [List.length_zipWith]; omega
    · rw [List.length_zipWith]; omega
    · rw [List.length_zipWith]; omega
    · intro i hi
      obtain ⟨g1, g2⟩ := h4 i hi
      change fc.getD i 0 ≤ _ at g2
      change _ ≤ fc.getD i 0 at g1
      change _ ≤ (List.zipWith _ fc _).getD i 0 ∧ (List.zipWith _ fc _).getD i 0 ≤ _
      rw [zipWith_getD _ _ _ _ (by omega) (by omega), zipWith_getD _ _ _ _ (by omega) (by omega),
        zipWith_getD _ _ _ _ (by omega) (by omega)]
      cases dm with
      | additive => simp only [Decomp.op]; constructor <;> linarith
      | multiplicative =>
        have h0 : 0 ≤ s.getD i 0 := by
          rw [getD_lt (by omega : i < s.length)]
          exact hpos rfl _ (List.getElem_mem _)
        simp only [Decomp.op]
        exact ⟨mul_le_mul_of_nonneg_right g1 h0, mul_le_mul_of_nonneg_right g2 h0⟩

example : Covers 1 (rawPred { fcst := [2], ci := some ([1], [4]) }) :=
  ⟨[1], [4], rfl, rfl, rfl, rfl, by intro i hi; (obtain rfl : i = 0 := (by omega)); decide +kernel⟩

/-- C79 (violated): a negative seasonal factor exchanges the bounds; and under the multiplicative
decomposition a model without bounds gets the bounds [0, 0] around any forecast. -/
theorem C79_bounds_violated :
    reseasonOne .multiplicative [-1] { fcst := [2], ci := some ([1], [4]) }
      = { fcst := [-2], ci := some ([some (-1)], [some (-4)]) }
    ∧ reseasonOne .multiplicative [3] { fcst := [2], ci := none }
      = { fcst := [6], ci := some ([some 0], [some 0]) } := by
  decide +kernel

/-! ## C80: `fit` and `predict` against `forecast` -/

theorem dictUpdate_nodup {K A : Type} [DecidableEq K] (d l : List (K × A))
    (h : ((d ++ l).map (·.1)).Nodup) : dictUpdate d l = d ++ l := by
  unfold dictUpdate
  induction l generalizing d with
  | nil => simp
  | cons x l ih =>
    have hx : x.1 ∉ d.map (·.1) := by
      rw [List.map_append, List.nodup_append] at h
      intro hmem
      exact h.2.2 _ hmem _ (List.mem_map_of_mem (List.mem_cons_self ..)) rfl
    rw [List.foldl_cons, dictSet_new hx, ih]
    · simp
    · simpa using h

theorem givenKeys_nodup {P : Type} (c : KCfg P) (hn : (c.models.map (·.1)).Nodup) :
    ((c.plainKeys ++ c.extraKeys).map (·.1)).Nodup := by
  unfold KCfg.plainKeys KCfg.extraKeys
  rw [List.map_append, List.map_map, List.map_map, List.nodup_append]
  have inj : ∀ b : Bool, Function.Injective fun n : String => (n, b) := by
    intro b x y h; exact (Prod.mk.inj h).1
  refine ⟨?_, ?_, ?_⟩
  · have := hn.map (inj false)
    rwa [List.map_map] at this
  · have hf : ((c.models.filter fun m => isSModel m.1).map (·.1)).Nodup :=
      hn.sublist (List.filter_sublist.map _)
    have := hf.map (inj true)
    rwa [List.map_map] at this
  · intro a ha b hb hab
    obtain ⟨x, -, rfl⟩ := List.mem_map.1 ha
    obtain ⟨y, -, rfl⟩ := List.mem_map.1 hb
    simp at hab

theorem keys_map {K A B : Type} (l : List (K × A)) (g : K × A → B) :
    (l.map fun k => (k.1, g k)).map (·.1) = l.map (·.1) := by
  rw [List.map_map]; rfl

/-- `fit` and `predict` in the seasonal case, for distinct names. -/
theorem fitPredict_seasonal {P : Type} (w : KWorld P) (c : KCfg P) (e : String) (steps m : Nat)
    (hs : w.seasonal = true) (hm : c.period = some (m + 1)) (hn : (c.models.map (·.1)).Nodup) :
    w.fitPredict c e steps = .ok {
      predicted :=
        (c.plainKeys.map fun k => (k.1, reseasonOne c.decomp (seasonTile w.season (m + 1) steps)
          (w.run k.2 (w.desea c) steps)))
        ++ c.extraKeys.map fun k => (k.1, rawPred (w.run k.2 (w.desea c) steps))
      weights := if c.weighted then some (errWeights
        ((c.plainKeys ++ c.extraKeys).map fun k => (k.1, w.backtest k.2 "mape"))) else none } := by
  have hg := givenKeys_nodup c hn
  unfold KWorld.fitPredict
  rw [if_pos hs]
  have hne : c.needPeriod = .ok (m + 1) := by unfold KCfg.needPeriod; rw [hm]; rfl
  rw [hne]
  have e1 : w.errors "mape" (c.plainKeys ++ c.extraKeys)
      = (c.plainKeys ++ c.extraKeys).map fun k => (k.1, w.backtest k.2 "mape") := by
    unfold KWorld.errors
    apply dictOf_nodup
    rw [keys_map _ (fun k => w.backtest k.2 "mape")]
    exact hg
  have e2 : dictOf ((c.plainKeys ++ c.extraKeys).map fun k => (k.1, w.run k.2 (w.desea c) steps))
      = (c.plainKeys ++ c.extraKeys).map fun k => (k.1, w.run k.2 (w.desea c) steps) := by
    apply dictOf_nodup
    rw [keys_map _ (fun k => w.run k.2 (w.desea c) steps)]
    exact hg
  simp only [bind, Except.bind, pure, Except.pure]
  rw [e1, e2]
  congr 1
  have f1 : ((c.plainKeys ++ c.extraKeys).map fun k => (k.1, w.run k.2 (w.desea c) steps)).filter
      (fun k => !k.1.2) = c.plainKeys.map fun k => (k.1, w.run k.2 (w.desea c) steps) := by
    rw [List.map_append, List.filter_append, List.filter_eq_self.2, List.filter_eq_nil_iff.2,
      List.append_nil]
    · intro x hx
      obtain ⟨k, hk, rfl⟩ := List.mem_map.1 hx
      obtain ⟨k', -, rfl⟩ := List.mem_map.1 hk
      simp
    · intro x hx
      obtain ⟨k, hk, rfl⟩ := List.mem_map.1 hx
      obtain ⟨k', -, rfl⟩ := List.mem_map.1 hk
      simp
  have f2 : ((c.plainKeys ++ c.extraKeys).map fun k => (k.1, w.run k.2 (w.desea c) steps)).filter
      (fun k => k.1.2) = c.extraKeys.map fun k => (k.1, w.run k.2 (w.desea c) steps) := by
    rw [List.map_append, List.filter_append, List.filter_eq_nil_iff.2, List.filter_eq_self.2,
      List.nil_append]
    · intro x hx
      obtain ⟨k, hk, rfl⟩ := List.mem_map.1 hx
      obtain ⟨k', -, rfl⟩ := List.mem_map.1 hk
      simp
    · intro x hx
      obtain ⟨k, hk, rfl⟩ := List.mem_map.1 hx
      obtain ⟨k', -, rfl⟩ := List.mem_map.1 hk
      simp
  rw [f1, f2, List.map_map, List.map_map, dictUpdate_nodup]
  · rfl
  · have := hg
    rw [List.map_append] at this ⊢
    rw [List.map_map, List.map_map]
    exact this

/-- `forecast` in the seasonal case, for distinct names. -/
theorem forecast_seasonal {P : Type} (w : KWorld P) (c : KCfg P) (steps m : Nat)
    (hs : w.seasonal = true) (hm : c.period = some (m + 1)) (hn : (c.models.map (·.1)).Nodup) :
    w.forecast c steps = .ok {
      predicted :=
        (c.plainKeys.map fun k => (k.1, reseasonOne c.decomp (seasonTile w.season (m + 1) steps)
          (w.run k.2 (w.desea c) steps)))
        ++ c.extraKeys.map fun k => (k.1, rawPred (w.run k.2 w.data steps))
      weights := if c.weighted then some (errWeights
        ((c.plainKeys ++ c.extraKeys).map fun k => (k.1, w.backtest k.2 "mape"))) else none } := by
  have hg := givenKeys_nodup c hn
  have hg' := hg
  rw [List.map_append] at hg'
  have hp := (List.nodup_append.1 hg').1
  have hx := (List.nodup_append.1 hg').2.1
  unfold KWorld.forecast
  rw [if_pos hs]
  have hne : c.needPeriod = .ok (m + 1) := by unfold KCfg.needPeriod; rw [hm]; rfl
  rw [hne]
  have e1 : dictUpdate (w.errors "mape" c.plainKeys) (w.errors "mape" c.extraKeys)
      = (c.plainKeys ++ c.extraKeys).map fun k => (k.1, w.backtest k.2 "mape") := by
    unfold KWorld.errors
    rw [dictOf_nodup _ (by rw [keys_map _ (fun k => w.backtest k.2 "mape")]; exact hp),
      dictOf_nodup _ (by rw [keys_map _ (fun k => w.backtest k.2 "mape")]; exact hx),
      dictUpdate_nodup, List.map_append]
    rw [List.map_append, keys_map _ (fun k => w.backtest k.2 "mape"),
      keys_map _ (fun k => w.backtest k.2 "mape")]
    exact hg'
  have e2 : dictOf (c.plainKeys.map fun k => (k.1, w.run k.2 (w.desea c) steps))
      = c.plainKeys.map fun k => (k.1, w.run k.2 (w.desea c) steps) := by
    apply dictOf_nodup
    rw [keys_map _ (fun k => w.run k.2 (w.desea c) steps)]
    exact hp
  have e3 : dictOf (c.extraKeys.map fun k => (k.1, w.run k.2 w.data steps))
      = c.extraKeys.map fun k => (k.1, w.run k.2 w.data steps) := by
    apply dictOf_nodup
    rw [keys_map _ (fun k => w.run k.2 w.data steps)]
    exact hx
  simp only [bind, Except.bind, pure, Except.pure]
  rw [e1, e2, e3]
  congr 1
  rw [List.map_map, List.map_map, dictUpdate_nodup]
  · rfl
  · rw [List.map_append, List.map_map, List.map_map]
    exact hg'

/-- C80 (same results), the part that holds: without seasonality `fit().predict()` gives the frames of
`forecast()`, and the same weights when the error method is the default; with seasonality (distinct
names) both succeed and agree on the weights and on the frames of the listed models. -/
theorem C80_agree_partial {P : Type} (w : KWorld P) (c : KCfg P) (steps : Nat) :
    (w.seasonal = false → w.fitPredict c "mape" steps = w.forecast c steps
      ∧ ∀ e, ∃ r r', w.fitPredict c e steps = .ok r ∧ w.forecast c steps = .ok r'
        ∧ r.predicted = r'.predicted)
    ∧ (w.seasonal = true → c.period = none →
        ∀ e, w.fitPredict c e steps = .error .valueError ∧ w.forecast c steps = .error .valueError)
    ∧ (∀ m, w.seasonal = true → c.period = some (m + 1) → (c.models.map (·.1)).Nodup →
        ∃ r r', w.fitPredict c "mape" steps = .ok r ∧ w.forecast c steps = .ok r'
          ∧ r.weights = r'.weights
          ∧ r.predicted.filter (fun k => !k.1.2) = r'.predicted.filter (fun k => !k.1.2)
          ∧ (r.predicted.filter (fun k => !k.1.2)).map (·.1.1) = c.models.map (·.1)
          ∧ r.predicted.map (·.1) = r'.predicted.map (·.1)) := by
  refine ⟨?_, ?_, ?_⟩
  · intro hs
    unfold KWorld.fitPredict KWorld.forecast
    simp [hs]
  · intro hs hp e
    unfold KWorld.fitPredict KWorld.forecast KCfg.needPeriod
    simp only [hs, hp, if_true]
    exact ⟨rfl, rfl⟩
  · intro m hs hm hn
    refine ⟨_, _, fitPredict_seasonal w c "mape" steps m hs hm hn, forecast_seasonal w c steps m hs hm hn,
      rfl, ?_, ?_, ?_⟩
    · dsimp only
      rw [List.filter_append, List.filter_append]
      congr 1
      rw [List.filter_eq_nil_iff.2, List.filter_eq_nil_iff.2]
      · intro x hx
        obtain ⟨k, hk, rfl⟩ := List.mem_map.1 hx
        obtain ⟨k', -, rfl⟩ := List.mem_map.1 hk
        simp
      · intro x hx
        obtain ⟨k, hk, rfl⟩ := List.mem_map.1 hx
        obtain ⟨k', -, rfl⟩ := List.mem_map.1 hk
        simp
    · dsimp only
      rw [List.filter_append, List.filter_eq_self.2, List.filter_eq_nil_iff.2, List.append_nil, List.map_map]
      · unfold KCfg.plainKeys
        rw [List.map_map]
        rfl
      · intro x hx
        obtain ⟨k, hk, rfl⟩ := List.mem_map.1 hx
        obtain ⟨k', -, rfl⟩ := List.mem_map.1 hk
        simp
      · intro x hx
        obtain ⟨k, hk, rfl⟩ := List.mem_map.1 hx
        obtain ⟨k', -, rfl⟩ := List.mem_map.1 hk
        simp
    · dsimp only
      rw [List.map_append, List.map_append, keys_map c.extraKeys (fun k => rawPred (w.run k.2 (w.desea c) steps)),
        keys_map c.extraKeys (fun k => rawPred (w.run k.2 w.data steps))]

/-- A world with one model that forecasts the last value it was fitted on. -/
def lastWorld : KWorld Unit :=
  { data := [0, 4, 0, 4], seasonal := true, season := [-2, 2, -2, 2]
    run := fun _ xs n => { fcst := List.replicate n (xs.getLastD 0)
                           ci := some (List.replicate n (xs.getLastD 0), List.replicate n (xs.getLastD 0)) }
    backtest := fun _ _ => 1 }

def lastCfg : KCfg Unit := { models := [("prophet", ())], decomp := .additive, period := some 2, weighted := false }

example : lastWorld.seasonal = true ∧ lastCfg.period = some (1 + 1) ∧ (lastCfg.models.map (·.1)).Nodup := by
  decide +kernel

/-- C80 (violated): with seasonality `fit` fits the extra seasonal models on the de-seasonalized data
and `predict` does not add the season back, so their forecasts differ from those of `forecast`; and
the error method passed to `fit` is ignored. -/
theorem C80_agree_violated :
    (∃ r r', lastWorld.fitPredict lastCfg "mape" 1 = .ok r ∧ lastWorld.forecast lastCfg 1 = .ok r'
      ∧ r.predicted.map (fun k => (k.1, k.2.fcst)) = [(("prophet", false), [0]), (("prophet", true), [2])]
      ∧ r'.predicted.map (fun k => (k.1, k.2.fcst)) = [(("prophet", false), [0]), (("prophet", true), [4])])
    ∧ ∀ {P : Type} (w : KWorld P) (c : KCfg P) (steps : Nat), w.seasonal = true →
        ∀ e e', w.fitPredict c e steps = w.fitPredict c e' steps := by
  refine ⟨?_, ?_⟩
  · have h1 := fitPredict_seasonal lastWorld lastCfg "mape" 1 1 rfl rfl (by decide)
    have h2 := forecast_seasonal lastWorld lastCfg 1 1 rfl rfl (by decide)
    refine ⟨_, _, h1, h2, by decide +kernel, by decide +kernel⟩
  · intro P w c steps hs e e'
    unfold KWorld.fitPredict
    rw [if_pos hs, if_pos hs]

/-- C80 (alignment): with distinct names the weights are listed in the order of the frames, for both
ways of forecasting. -/
theorem C80_aligned {P : Type} (w : KWorld P) (c : KCfg P) (e : String) (steps : Nat)
    (hn : (c.models.map (·.1)).Nodup) (r : KResult) (ws : List (KKey × Rat))
    (h : w.fitPredict c e steps = .ok r ∨ w.forecast c steps = .ok r) (hw : r.weights = some ws) :
    ws.map (·.1) = r.predicted.map (·.1) := by
  have hplain : (c.plainKeys.map (·.1)).Nodup := by
    have := givenKeys_nodup c hn
    rw [List.map_append] at this
    exact (List.nodup_append.1 this).1
  have hwm : ∀ l : List (KKey × Rat), (errWeights l).map (·.1) = l.map (·.1) := by
    intro l; rw [errWeights_map, List.map_map]; rfl
  have plainCase : ∀ (e : String) (r : KResult), r.predicted
        = (dictOf (c.plainKeys.map fun k => (k.1, w.run k.2 w.data steps))).map
          (fun k => (k.1, dummyCI (rawPred k.2))) →
      (if c.weighted then some (errWeights (w.errors e c.plainKeys)) else none) = some ws →
      ws.map (·.1) = r.predicted.map (·.1) := by
    intro e r hr hw
    split_ifs at hw
    rw [← Option.some.inj hw, hr, hwm]
    unfold KWorld.errors
    rw [dictOf_nodup _ (by rw [keys_map _ (fun k => w.backtest k.2 e)]; exact hplain),
      dictOf_nodup _ (by rw [keys_map _ (fun k => w.run k.2 w.data steps)]; exact hplain)]
    rw [List.map_map, List.map_map, List.map_map]
    rfl
  by_cases hs : w.seasonal = true
  · rcases hper : c.period with _ | m
    · exfalso
      obtain ⟨-, h2, -⟩ := C80_agree_partial w c steps
      rcases h with h | h
      · rw [(h2 hs hper e).1] at h; cases h
      · rw [(h2 hs hper e).2] at h; cases h
    · rcases m with _ | m
      · exfalso
        have hne : c.needPeriod = .error .otherError := by unfold KCfg.needPeriod; rw [hper]; rfl
        rcases h with h | h
        · unfold KWorld.fitPredict at h; rw [if_pos hs, hne] at h; cases h
        · unfold KWorld.forecast at h; rw [if_pos hs, hne] at h; cases h
      · rcases h with h | h
        · rw [fitPredict_seasonal w c e steps m hs hper hn] at h
          obtain rfl := Except.ok.inj h
          dsimp only at hw ⊢
          split_ifs at hw
          rw [← Option.some.inj hw, hwm, List.map_map, List.map_append, List.map_append, List.map_map,
            List.map_map]
          rfl
        · rw [forecast_seasonal w c steps m hs hper hn] at h
          obtain rfl := Except.ok.inj h
          dsimp only at hw ⊢
          split_ifs at hw
          rw [← Option.some.inj hw, hwm, List.map_map, List.map_append, List.map_append, List.map_map,
            List.map_map]
          rfl
  · rcases h with h | h
    · unfold KWorld.fitPredict at h
      rw [if_neg hs] at h
      obtain rfl := Except.ok.inj h
      exact plainCase e _ rfl hw
    · unfold KWorld.forecast at h
      rw [if_neg hs] at h
      obtain rfl := Except.ok.inj h
      exact plainCase "mape" _ rfl hw

/-! ## C81: aggregated bounds -/

theorem countP_le_of_sorted_gt {s : List Rat} (hs : s.Pairwise (· ≤ ·)) (c : Rat) (k : Nat)
    (hk : k < s.length) (h : c < s[k]) : s.countP (fun x => decide (x ≤ c)) ≤ k := by
  have e : s = s.take k ++ s.drop k := (List.take_append_drop k s).symm
  rw [e, List.countP_append]
  have h1 : (s.drop k).countP (fun x => decide (x ≤ c)) = 0 := by
    rw [List.countP_eq_zero]
    intro x hx
    obtain ⟨i, hi, rfl⟩ := List.getElem_of_mem hx
    rw [List.getElem_drop]
    rw [List.length_drop] at hi
    have h3 : s[k] ≤ s[k + i] := by
      rcases Nat.eq_zero_or_pos i with h0 | h0
      · simp [h0]
      · exact List.pairwise_iff_getElem.1 hs k (k + i) hk (by omega) (by omega)
    simp only [decide_eq_true_eq, not_le]
    exact lt_of_lt_of_le h h3
  have h2 := (s.take k).countP_le_length (p := fun x => decide (x ≤ c))
  rw [List.length_take] at h2
  omega

theorem countP_mono_forall₂ {xs ys : List Rat} (h : List.Forall₂ (· ≤ ·) xs ys) (c : Rat) :
    ys.countP (fun x => decide (x ≤ c)) ≤ xs.countP (fun x => decide (x ≤ c)) := by
  induction h with
  | nil => simp
  | @cons x y xs ys hxy _ ih =>
    rw [List.countP_cons, List.countP_cons]
    by_cases hy : y ≤ c
    · have hx : x ≤ c := hxy.trans hy
      simp only [hx, hy, decide_true, if_true]
      omega
    · simp only [hy, decide_false]
      split <;> simp_all <;> omega

/-- Order statistics are monotone. -/
theorem sort_mono {xs ys : List Rat} (h : List.Forall₂ (· ≤ ·) xs ys) (k : Nat)
    (hk : k < (xs.insertionSort (· ≤ ·)).length) (hk' : k < (ys.insertionSort (· ≤ ·)).length) :
    (xs.insertionSort (· ≤ ·))[k] ≤ (ys.insertionSort (· ≤ ·))[k] := by
  by_contra hcon
  push Not at hcon
  set c := (ys.insertionSort (· ≤ ·))[k] with hc
  have a1 := countP_le_of_sorted_gt (insertionSort_sorted xs) c k hk hcon
  have a2 := count_le_of_sorted (insertionSort_sorted ys) c (k + 1) (by omega) (by
    intro i hi e
    have : i = k := by omega
    subst this
    exact le_refl _)
  rw [(List.perm_insertionSort (· ≤ ·) xs).countP_eq] at a1
  rw [(List.perm_insertionSort (· ≤ ·) ys).countP_eq] at a2
  have := countP_mono_forall₂ h c
  omega

/-- The median is monotone. -/
theorem medianQ_mono {xs ys : List Rat} (h : List.Forall₂ (· ≤ ·) xs ys) (hne : xs ≠ []) :
    medianQ xs ≤ medianQ ys := by
  have hl := h.length_eq
  have l1 : (xs.insertionSort (· ≤ ·)).length = xs.length := List.length_insertionSort _ xs
  have l2 : (ys.insertionSort (· ≤ ·)).length = ys.length := List.length_insertionSort _ ys
  have hp := List.length_pos_iff.2 hne
  have hk : ∀ k, k < xs.length →
      (xs.insertionSort (· ≤ ·)).getD k 0 ≤ (ys.insertionSort (· ≤ ·)).getD k 0 := by
    intro k hk
    rw [getD_lt (by omega), getD_lt (by omega)]
    exact sort_mono h k _ _
  unfold medianQ
  dsimp only
  rw [l1, l2, ← hl]
  split
  · exact hk _ (by omega)
  · have h1 := hk (xs.length / 2 - 1) (by omega)
    have h2 := hk (xs.length / 2) (by omega)
    linarith

theorem nanmedian_some {l : List Rat} (hne : l ≠ []) : nanmedian (l.map some) = some (medianQ l) := by
  unfold nanmedian
  have : (l.map some).filterMap id = l := by
    rw [List.filterMap_map]
    exact List.filterMap_some
  rw [this]
  dsimp only
  rw [if_neg (by simpa using hne)]

/-- The bounds of covered frames, as lists of numbers. -/
theorem covers_lists (steps : Nat) : ∀ (ps : List FullPred), (∀ p ∈ ps, Covers steps p) →
    ∃ bs : List (List Rat × List Rat),
      (ps.mapM fun p => p.ci.elim (Except.error Err.keyError) Except.ok)
        = .ok (bs.map fun b => (b.1.map some, b.2.map some))
      ∧ List.Forall₂ (fun p b => p.ci = some (b.1.map some, b.2.map some) ∧ b.1.length = steps
          ∧ b.2.length = steps ∧ ∀ i, i < steps →
            b.1.getD i 0 ≤ p.fcst.getD i 0 ∧ p.fcst.getD i 0 ≤ b.2.getD i 0) ps bs
  | [], _ => ⟨[], rfl, .nil⟩
  | p :: ps, h => by
    obtain ⟨bs, h1, h2⟩ := covers_lists steps ps fun q hq => h q (List.mem_cons_of_mem _ hq)
    obtain ⟨l, u, e, -, e2, e3, e4⟩ := h p (List.mem_cons_self ..)
    refine ⟨(l, u) :: bs, ?_, .cons ⟨e, e2, e3, e4⟩ h2⟩
    rw [List.mapM_cons, h1, e]
    rfl

/-- C81 (median), the part that holds: when every model has numeric bounds around its forecast and no
bound is exactly 0, the median bounds are numbers around the median forecast. -/
theorem C81_median_partial (ps : List FullPred) (steps : Nat) (hne : ps ≠ [])
    (hc : ∀ p ∈ ps, Covers steps p)
    (hz : ∀ p ∈ ps, ∀ c ∈ p.ci, (some 0) ∉ c.1 ∧ (some 0) ∉ c.2) :
    ∃ out, aggregate ps none steps = .ok out ∧ out.length = steps
      ∧ ∀ row ∈ out, ∃ f l u, row = ⟨some f, some l, some u⟩ ∧ l ≤ f ∧ f ≤ u := by
  obtain ⟨bs, h1, h2⟩ := covers_lists steps ps hc
  have hbne : bs ≠ [] := by
    rintro rfl
    cases h2
    exact hne rfl
  unfold aggregate
  rw [h1]
  simp only [bind, Except.bind, pure, Except.pure]
  refine ⟨_, rfl, by simp, ?_⟩
  intro row hrow
  obtain ⟨j, hj, rfl⟩ := List.mem_map.1 hrow
  rw [List.mem_range] at hj
  have hnz : ∀ b ∈ bs, b.1.length = steps ∧ b.2.length = steps ∧ (0 : Rat) ∉ b.1 ∧ (0 : Rat) ∉ b.2 := by
    clear hbne h1 hrow hne hc
    induction h2 with
    | nil => simp
    | @cons p b ps bs hpb _ ih =>
      intro b' hb'
      rcases List.mem_cons.1 hb' with rfl | hb'
      · obtain ⟨e, e1, e2, -⟩ := hpb
        have := hz p (List.mem_cons_self ..) _ e
        simpa [e1, e2] using this
      · exact ih (fun q hq => hz q (List.mem_cons_of_mem _ hq)) b' hb'
  have zlo : ((bs.map fun b => (b.1.map some, b.2.map some)).map
      (fun c : List (Option Rat) × List (Option Rat) => c.1.getD j none)).map zeroToNan
      = (bs.map fun b => b.1.getD j 0).map some := by
    rw [List.map_map, List.map_map, List.map_map]
    apply List.map_congr_left
    intro b hb
    obtain ⟨e1, e2, e3, e4⟩ := hnz b hb
    simp only [Function.comp_apply]
    rw [getD_lt (by rw [List.length_map]; omega), getD_lt (by omega : j < b.1.length), List.getElem_map]
    unfold zeroToNan
    rw [if_neg]
    intro h0
    exact e3 (Option.some.inj h0 ▸ List.getElem_mem _)
  have zup : ((bs.map fun b => (b.1.map some, b.2.map some)).map
      (fun c : List (Option Rat) × List (Option Rat) => c.2.getD j none)).map zeroToNan
      = (bs.map fun b => b.2.getD j 0).map some := by
    rw [List.map_map, List.map_map, List.map_map]
    apply List.map_congr_left
    intro b hb
    obtain ⟨e1, e2, e3, e4⟩ := hnz b hb
    simp only [Function.comp_apply]
    rw [getD_lt (by rw [List.length_map]; omega), getD_lt (by omega : j < b.2.length), List.getElem_map]
    unfold zeroToNan
    rw [if_neg]
    intro h0
    exact e4 (Option.some.inj h0 ▸ List.getElem_mem _)
  refine ⟨medianQ (ps.map fun p => p.fcst.getD j 0), medianQ (bs.map fun b => b.1.getD j 0),
    medianQ (bs.map fun b => b.2.getD j 0), ?_, ?_, ?_⟩
  · rw [zlo, zup, nanmedian_some (by simpa using hne), nanmedian_some (by simpa using hbne),
      nanmedian_some (by simpa using hbne)]
  · apply medianQ_mono _ (by simpa using hbne)
    rw [List.forall₂_map_left_iff, List.forall₂_map_right_iff]
    apply List.Forall₂.flip
    apply h2.imp
    intro p b hpb
    exact (hpb.2.2.2 j hj).1
  · apply medianQ_mono _ (by simpa using hne)
    rw [List.forall₂_map_left_iff, List.forall₂_map_right_iff]
    apply h2.imp
    intro p b hpb
    exact (hpb.2.2.2 j hj).2

/-- C81 (violated): bounds that happen to be 0 are dropped as if missing: of two models with intervals
[0, 2] and [4, 6] around the forecasts 1 and 5 the aggregate is 3 with lower bound 4. -/
theorem C81_median_violated :
    ∃ ps : List FullPred, (∀ p ∈ ps, Covers 1 p)
      ∧ aggregate ps none 1 = .ok [⟨some 3, some 4, some 4⟩] :=
  ⟨[⟨[1], some ([some 0], [some 2])⟩, ⟨[5], some ([some 4], [some 6])⟩], by
    intro p hp
    simp only [List.mem_cons, List.not_mem_nil, or_false] at hp
    rcases hp with rfl | rfl
    · exact ⟨[0], [2], rfl, rfl, rfl, rfl, by intro i hi; (obtain rfl : i = 0 := (by omega)); decide +kernel⟩
    · exact ⟨[4], [6], rfl, rfl, rfl, rfl, by intro i hi; (obtain rfl : i = 0 := (by omega)); decide +kernel⟩,
    by decide +kernel⟩

theorem dotRow_mono : ∀ {xs ys : List Rat} (ws : List Rat), List.Forall₂ (· ≤ ·) xs ys →
    (∀ w ∈ ws, 0 ≤ w) → dotRow xs ws ≤ dotRow ys ws
  | _, _, _, .nil, _ => by simp [dotRow]
  | _, _, [], .cons _ _, _ => by simp [dotRow]
  | _, _, w :: ws, .cons hxy h, hw => by
    have ih := dotRow_mono ws h fun v hv => hw v (List.mem_cons_of_mem _ hv)
    have := mul_le_mul_of_nonneg_right hxy (hw w (List.mem_cons_self ..))
    unfold dotRow at *
    rw [List.zipWith_cons_cons, List.zipWith_cons_cons, List.sum_cons, List.sum_cons]
    linarith

/-- C81 (weighted): with non-negative weights and numeric bounds around every base forecast, the
weighted bounds are around the weighted forecast. -/
theorem C81_weighted_partial (ps : List FullPred) (ws : List Rat) (steps : Nat)
    (hc : ∀ p ∈ ps, Covers steps p) (hl : ws.length = ps.length) (hw : ∀ w ∈ ws, 0 ≤ w) :
    ∃ out, aggregate ps (some ws) steps = .ok out ∧ out.length = steps
      ∧ ∀ row ∈ out, ∃ f l u, row = ⟨some f, some l, some u⟩ ∧ l ≤ f ∧ f ≤ u := by
  obtain ⟨bs, h1, h2⟩ := covers_lists steps ps hc
  have hbl : ∀ b ∈ bs, b.1.length = steps ∧ b.2.length = steps := by
    clear h1 hc hl
    induction h2 with
    | nil => simp
    | @cons p b ps bs hpb _ ih =>
      intro b' hb'
      rcases List.mem_cons.1 hb' with rfl | hb'
      · exact ⟨hpb.2.1, hpb.2.2.1⟩
      · exact ih b' hb'
  have glo : ∀ j, j < steps → ((bs.map fun b => (b.1.map some, b.2.map some)).map
      (fun c : List (Option Rat) × List (Option Rat) => c.1.getD j none))
      = (bs.map fun b => b.1.getD j 0).map some := by
    intro j hj
    rw [List.map_map, List.map_map]
    apply List.map_congr_left
    intro b hb
    obtain ⟨e1, e2⟩ := hbl b hb
    simp only [Function.comp_apply]
    rw [getD_lt (by rw [List.length_map]; omega), getD_lt (by omega : j < b.1.length), List.getElem_map]
  have gup : ∀ j, j < steps → ((bs.map fun b => (b.1.map some, b.2.map some)).map
      (fun c : List (Option Rat) × List (Option Rat) => c.2.getD j none))
      = (bs.map fun b => b.2.getD j 0).map some := by
    intro j hj
    rw [List.map_map, List.map_map]
    apply List.map_congr_left
    intro b hb
    obtain ⟨e1, e2⟩ := hbl b hb
    simp only [Function.comp_apply]
    rw [getD_lt (by rw [List.length_map]; omega), getD_lt (by omega : j < b.2.length), List.getElem_map]
  unfold aggregate
  rw [h1]
  simp only [bind, Except.bind, pure, Except.pure]
  rw [if_neg, if_neg (by simpa using hl)]
  · refine ⟨_, rfl, by simp, ?_⟩
    intro row hrow
    obtain ⟨j, hj, rfl⟩ := List.mem_map.1 hrow
    rw [List.mem_range] at hj
    refine ⟨_, _, _, rfl, ?_, ?_⟩
    · apply dotRow_mono ws _ hw
      rw [glo j hj, List.map_map, List.map_map, List.forall₂_map_left_iff, List.forall₂_map_right_iff]
      apply List.Forall₂.flip
      apply h2.imp
      intro p b hpb
      exact (hpb.2.2.2 j hj).1
    · apply dotRow_mono ws _ hw
      rw [gup j hj, List.map_map, List.map_map, List.forall₂_map_left_iff, List.forall₂_map_right_iff]
      apply h2.imp
      intro p b hpb
      exact (hpb.2.2.2 j hj).2
  · rw [List.any_eq_true]
    rintro ⟨j, hj, hb⟩
    rw [List.mem_range] at hj
    rw [glo j hj, gup j hj] at hb
    simp at hb

example : (∀ p ∈ [(⟨[1], some ([some 0], [some 2])⟩ : FullPred)], Covers 1 p)
    ∧ aggregate [⟨[1], some ([some 0], [some 2])⟩] (some [1]) 1 = .ok [⟨some 1, some 0, some 2⟩] := by
  refine ⟨?_, by decide +kernel⟩
  intro p hp
  simp only [List.mem_cons, List.not_mem_nil, or_false] at hp
  subst hp
  exact ⟨[0], [2], rfl, rfl, rfl, rfl, by intro i hi; (obtain rfl : i = 0 := (by omega)); decide +kernel⟩

/-- C81 (weighted, missing bounds): a missing bound is rejected; but the zero bounds that the
multiplicative decomposition invents for a model without bounds (violation) go through and give an
interval that does not contain the forecast. -/
theorem C81_weighted_violated :
    (∀ (ps : List FullPred) (ws : List Rat) (steps : Nat),
      (∀ p ∈ ps, p.ci ≠ none) → (∃ p ∈ ps, ∃ c ∈ p.ci, ∃ j, j < steps ∧ c.1.getD j none = none) →
      aggregate ps (some ws) steps = .error .valueError)
    ∧ aggregate [reseasonOne .multiplicative [3] { fcst := [2], ci := none }] (some [1]) 1
      = .ok [⟨some 6, some 0, some 0⟩] := by
  refine ⟨?_, by decide +kernel⟩
  intro ps ws steps hci hbad
  have hm : ∀ ps : List FullPred, (∀ p ∈ ps, p.ci ≠ none) → ∃ cs,
      (ps.mapM fun p => p.ci.elim (Except.error Err.keyError) Except.ok) = .ok cs
      ∧ cs = ps.filterMap (·.ci) := by
    intro ps
    induction ps with
    | nil => intro _; exact ⟨[], rfl, rfl⟩
    | cons p ps ih =>
      intro h
      obtain ⟨cs, h1, h2⟩ := ih fun q hq => h q (List.mem_cons_of_mem _ hq)
      have hp := h p (List.mem_cons_self ..)
      cases hc : p.ci with
      | none => exact absurd hc hp
      | some c =>
        refine ⟨c :: cs, ?_, ?_⟩
        · rw [List.mapM_cons, h1, hc]; rfl
        · rw [List.filterMap_cons, hc, h2]
  obtain ⟨cs, h1, h2⟩ := hm ps hci
  unfold aggregate
  rw [h1]
  simp only [bind, Except.bind]
  rw [if_pos]
  obtain ⟨p, hp, c, hc, j, hj, hn⟩ := hbad
  rw [List.any_eq_true]
  refine ⟨j, List.mem_range.2 hj, ?_⟩
  rw [Bool.or_eq_true]
  left
  rw [List.any_eq_true]
  refine ⟨none, ?_, rfl⟩
  rw [List.mem_map]
  exact ⟨c, by rw [h2]; exact List.mem_filterMap.2 ⟨p, hp, hc⟩, hn⟩

end Kats

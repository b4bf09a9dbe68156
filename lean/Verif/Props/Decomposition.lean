import Verif.Model.Decomposition
import Verif.Lemmas.MapM
import Verif.Props.Outlier
import Mathlib.Data.List.GetD
import Mathlib.Data.List.Sort

/-!
# C118: the decomposition, and C119: the seasonality handler
-/

namespace Kats

open Classical

/-! ### C118 -/

/-- C118, the constructor: several columns need `seasonal_decompose`; every name but "multiplicative" means the additive
model, every name but "seasonal_decompose" means STL. -/
theorem C118_init (columns : Nat) (decomposition method : String) (args : StlArgs) :
    (decInit columns decomposition method args = .error .valueError ↔ columns ≠ 1 ∧ method ≠ "seasonal_decompose")
    ∧ (columns = 1 ∨ method = "seasonal_decompose" → ∃ cfg, decInit columns decomposition method args = .ok cfg
      ∧ (cfg.mult = true ↔ decomposition = "multiplicative") ∧ (cfg.useSd = true ↔ method = "seasonal_decompose")
      ∧ cfg.args = args) := by
  unfold decInit
  by_cases h : columns ≠ 1 ∧ method ≠ "seasonal_decompose"
  · rw [if_pos h]
    exact ⟨⟨fun _ => h, fun _ => rfl⟩, fun hc => absurd hc (by tauto)⟩
  · rw [if_neg h]
    refine ⟨⟨fun hc => (by cases hc), fun hc => absurd hc h⟩, fun _ => ⟨_, rfl, ?_, by simp, rfl⟩⟩
    by_cases hm : decomposition = "multiplicative" <;> simp [hm]

example : ∃ cfg, decInit 2 "mult" "seasonal_decompose" {} = .ok cfg ∧ (cfg.mult = true ↔ "mult" = "multiplicative") := by
  obtain ⟨cfg, h1, h2, _⟩ := (C118_init 2 "mult" "seasonal_decompose" {}).2 (.inr rfl)
  exact ⟨cfg, h1, h2⟩

/-- C118, the frequency: for two points or more it is a difference of neighbouring times that no other occurs more
often than, and the smallest of these. -/
theorem C118_frequency (times : List Int) :
    (times.length ≤ 1 → inferFreqRobust times = .error .valueError)
    ∧ (2 ≤ times.length → ∃ f, inferFreqRobust times = .ok f ∧ f ∈ neighbourDiffs times
      ∧ (∀ d, (neighbourDiffs times).count d ≤ (neighbourDiffs times).count f)
      ∧ ∀ d, (neighbourDiffs times).count d = (neighbourDiffs times).count f → f ≤ d) := by
  unfold inferFreqRobust
  refine ⟨fun h => if_pos h, fun h => ?_⟩
  rw [if_neg (by omega)]
  refine ⟨_, rfl, ?_⟩
  have hne : neighbourDiffs times ≠ [] := by
    intro h0
    have := congrArg List.length h0
    simp [neighbourDiffs] at this
    omega
  generalize neighbourDiffs times = l at hne
  obtain ⟨w, hw⟩ : ∃ w, w = l.filter fun x => l.all fun y => decide (l.count y ≤ l.count x) := ⟨_, rfl⟩
  have hmem : ∀ x, x ∈ w ↔ x ∈ l ∧ ∀ y ∈ l, l.count y ≤ l.count x := by
    intro x; rw [hw]; simp
  have hex : ∃ x, x ∈ w := by
    obtain ⟨x, hx, hm⟩ := Finset.exists_max_image l.toFinset (fun x => l.count x)
      (by obtain ⟨a, ha⟩ := List.exists_mem_of_ne_nil l hne; exact ⟨a, List.mem_toFinset.2 ha⟩)
    exact ⟨x, (hmem x).2 ⟨List.mem_toFinset.1 hx, fun y hy => hm y (List.mem_toFinset.2 hy)⟩⟩
  have hsm : ∃ m, w.min? = some m := by
    cases hm : w.min? with
    | none =>
      rw [List.min?_eq_none_iff] at hm
      obtain ⟨x, hx⟩ := hex
      rw [hm] at hx; simp at hx
    | some m => exact ⟨m, rfl⟩
  obtain ⟨m, hm⟩ := hsm
  have e : smallestMode l = m := by
    unfold smallestMode
    rw [← hw, hm]; rfl
  rw [e]
  obtain ⟨hm1, hm2⟩ := List.min?_eq_some_iff.1 hm
  obtain ⟨h1, h2⟩ := (hmem m).1 hm1
  have h3 : ∀ d, l.count d ≤ l.count m := by
    intro d
    by_cases hd : d ∈ l
    · exact h2 d hd
    · rw [List.count_eq_zero_of_not_mem hd]; exact Nat.zero_le _
  refine ⟨h1, h3, fun d hd => hm2 d ?_⟩
  have hpos : 0 < l.count d := by rw [hd]; exact List.count_pos_iff.2 h1
  exact (hmem d).2 ⟨List.count_pos_iff.1 hpos, fun y _ => by rw [hd]; exact h3 y⟩

example : ∃ f, inferFreqRobust [0, 10, 20, 40, 60, 65] = .ok f ∧ f ∈ neighbourDiffs [0, 10, 20, 40, 60, 65]
    ∧ ∀ d, (neighbourDiffs [0, 10, 20, 40, 60, 65]).count d = (neighbourDiffs [0, 10, 20, 40, 60, 65]).count f → f ≤ d := by
  obtain ⟨f, h1, h2, _, h4⟩ := (C118_frequency [0, 10, 20, 40, 60, 65]).2 (by simp)
  exact ⟨f, h1, h2, h4⟩

/-- What is known about the libraries: interpolation keeps the length and the known values, and wherever all components
are known they make up the data. -/
structure DecSound (W : DecWorld) : Prop where
  poly : ∀ l y, W.poly l = .ok y → y.length = l.length ∧ ∀ i v, l.getD i none = some v → y.getD i none = some v
  stl : ∀ a l c, W.stl a l = .ok c → c.trend.length = l.length ∧ c.seasonal.length = l.length
    ∧ c.resid.length = l.length ∧ ∀ i t s r v, c.trend.getD i none = some t → c.seasonal.getD i none = some s →
      c.resid.getD i none = some r → l.getD i none = some v → t + s + r = v
  sd : ∀ p l c, W.seasonalDecompose false p l = .ok c → ∀ i t s r v, c.trend.getD i none = some t →
    c.seasonal.getD i none = some s → c.resid.getD i none = some r → l.getD i none = some v → t + s + r = v
  sdMult : ∀ p l c, W.seasonalDecompose true p l = .ok c → ∀ i t s r v, c.trend.getD i none = some t →
    c.seasonal.getD i none = some s → c.resid.getD i none = some r → l.getD i none = some v → t * s * r = v

theorem decClean_known (W : DecWorld) (hW : DecSound W) (values y : List (Option ℝ)) (h : decClean W values = .ok y) :
    y.length = values.length ∧ ∀ i v, values.getD i none = some v → y.getD i none = some v := by
  unfold decClean at h
  split_ifs at h with hc
  · injection h with h; subst h; exact ⟨rfl, fun i v h => h⟩
  · simp only [bind, Except.bind, pure, Except.pure] at h
    cases hp : W.poly values with
    | error e => rw [hp] at h; cases h
    | ok z =>
      rw [hp] at h
      injection h with h
      subst h
      obtain ⟨h1, h2⟩ := hW.poly _ _ hp
      exact ⟨by simp [linInterp, h1], fun i v hv => linInterp_known _ _ _ (h2 i v hv)⟩

theorem getD_map_none {α β : Type} (f : Option α → Option β) (hf : f none = none) (l : List (Option α)) (i : Nat) :
    (l.map f).getD i none = f (l.getD i none) := by
  by_cases hi : i < l.length
  · rw [List.getD_eq_getElem _ _ (by simpa using hi), List.getElem_map, List.getD_eq_getElem _ _ hi]
  · rw [List.getD_eq_default _ _ (by simpa using hi), List.getD_eq_default _ _ (by omega), hf]

/-- C118, the components make up the data: at every point where the data and the components are known, trend,
seasonality and remainder add up to the data in the additive model; in the multiplicative one their product is the
data, with STL for positive data. -/
theorem C118_recompose (W : DecWorld) (hW : DecSound W) (cfg : DecCfg) (times : List Int) (values : List (Option ℝ))
    (c : Comps) (h : decompose W cfg times values = .ok c) (i : Nat) (t s r v : ℝ) (ht : c.trend.getD i none = some t)
    (hs : c.seasonal.getD i none = some s) (hr : c.resid.getD i none = some r) (hv : values.getD i none = some v) :
    (cfg.mult = false → t + s + r = v) ∧ (cfg.mult = true → (cfg.useSd = true ∨ 0 < v) → t * s * r = v) := by
  unfold decompose at h
  simp only [bind, Except.bind] at h
  cases hf : inferFreqRobust times with
  | error e => rw [hf] at h; cases h
  | ok f =>
    rw [hf] at h
    simp only at h
    cases hy : decClean W values with
    | error e => rw [hy] at h; cases h
    | ok y =>
      rw [hy] at h
      simp only at h
      have hk := (decClean_known W hW values y hy).2 i v hv
      by_cases hu : cfg.useSd = true
      · rw [if_pos hu] at h
        refine ⟨fun hm => ?_, fun hm _ => ?_⟩
        · rw [hm] at h; exact hW.sd _ _ _ h i t s r v ht hs hr hk
        · rw [hm] at h; exact hW.sdMult _ _ _ h i t s r v ht hs hr hk
      · rw [if_neg hu] at h
        by_cases hm : cfg.mult = true
        · rw [if_pos hm] at h
          refine ⟨fun hm' => absurd hm (by simp [hm']), fun _ hpos => ?_⟩
          have hpos : 0 < v := by
            rcases hpos with h1 | h1
            · exact absurd h1 hu
            · exact h1
          cases hc : W.stl { cfg.args with period := decPeriod cfg.args.period f } (y.map fun o => o.bind npLog) with
          | error e => rw [hc] at h; cases h
          | ok d =>
            rw [hc] at h
            simp only [pure, Except.pure] at h
            injection h with h
            subst h
            rw [getD_map_none _ rfl] at ht hs hr
            obtain ⟨t', ht', rfl⟩ := Option.map_eq_some_iff.1 ht
            obtain ⟨s', hs', rfl⟩ := Option.map_eq_some_iff.1 hs
            obtain ⟨r', hr', rfl⟩ := Option.map_eq_some_iff.1 hr
            have hl : (y.map fun o => o.bind npLog).getD i none = some (Real.log v) := by
              rw [getD_map_none (fun o : Option ℝ => o.bind npLog) rfl, hk]
              simp [npLog, hpos]
            have := (hW.stl _ _ _ hc).2.2.2 i t' s' r' _ ht' hs' hr' hl
            rw [← Real.exp_add, ← Real.exp_add, this, Real.exp_log hpos]
        · rw [if_neg hm] at h
          exact ⟨fun _ => (hW.stl _ _ _ h).2.2.2 i t s r v ht hs hr hk, fun hm' => absurd hm' hm⟩

/-- C118, the period: one that is given reaches STL and `seasonal_decompose` unchanged, and without one data with
less than a day between the points get 2. -/
theorem C118_period (W : DecWorld) (cfg : DecCfg) (times : List Int) (ys : List ℝ) (f : Int)
    (hf : inferFreqRobust times = .ok f) (hm : cfg.mult = false) :
    decompose W cfg times (ys.map some) = if cfg.useSd = true
      then W.seasonalDecompose false
        (if cfg.args.period.isSome then cfg.args.period else if 0 ≤ f ∧ f < 86400 then some 2 else none) (ys.map some)
      else W.stl { cfg.args with
        period := if cfg.args.period.isSome then cfg.args.period else if 0 ≤ f ∧ f < 86400 then some 2 else none }
        (ys.map some) := by
  have hy : decClean W (ys.map some) = .ok (ys.map some) := by
    unfold decClean
    rw [if_pos (by simp)]
  have hp : decPeriod cfg.args.period f
      = if cfg.args.period.isSome then cfg.args.period else if 0 ≤ f ∧ f < 86400 then some 2 else none := by
    unfold decPeriod
    cases cfg.args.period <;> simp
  unfold decompose
  simp only [hf, hy, bind, Except.bind, hm, hp]
  simp

/-- A world whose STL puts everything into the remainder. -/
noncomputable def restWorld : DecWorld where
  poly := .ok
  stl := fun _ l => .ok ⟨l.map fun _ => some 0, l.map fun _ => some 0, l⟩
  seasonalDecompose := fun m _ l =>
    .ok ⟨l.map fun _ => some (if m then 1 else 0), l.map fun _ => some (if m then 1 else 0), l⟩
  inferFreq := fun _ => .ok (some 86400)
  topDiff := fun l => l.headD 0
  dayOfMonth := fun t => t / 86400 + 1

theorem getD_map_const_some (l : List (Option ℝ)) (c : ℝ) (i : Nat) (t : ℝ)
    (h : (l.map fun _ => some c).getD i none = some t) : t = c := by
  by_cases hi : i < l.length
  · rw [List.getD_eq_getElem _ _ (by simpa using hi), List.getElem_map] at h
    exact (Option.some.inj h).symm
  · rw [List.getD_eq_default _ _ (by simpa using hi)] at h
    cases h

theorem restWorld_sound : DecSound restWorld where
  poly := by
    intro l y h
    injection h with h
    subst h
    exact ⟨rfl, fun i v h => h⟩
  stl := by
    intro a l c h
    injection h with h
    subst h
    refine ⟨by simp, by simp, rfl, ?_⟩
    intro i t s r v ht hs hr hv
    have hr' : l.getD i none = some r := hr
    rw [getD_map_const_some l 0 i t ht, getD_map_const_some l 0 i s hs]
    rw [hr'] at hv
    injection hv with hv
    rw [hv]; ring
  sd := by
    intro p l c h
    injection h with h
    subst h
    intro i t s r v ht hs hr hv
    have hr' : l.getD i none = some r := hr
    rw [getD_map_const_some l 0 i t ht, getD_map_const_some l 0 i s hs]
    rw [hr'] at hv
    injection hv with hv
    rw [hv]; ring
  sdMult := by
    intro p l c h
    injection h with h
    subst h
    intro i t s r v ht hs hr hv
    have hr' : l.getD i none = some r := hr
    rw [getD_map_const_some l 1 i t ht, getD_map_const_some l 1 i s hs]
    rw [hr'] at hv
    injection hv with hv
    rw [hv]; ring

/-- Three points, one missing, in the multiplicative model. -/
example : ∃ c, decompose restWorld ⟨true, false, {}⟩ [0, 86400, 172800] [some 2, none, some 8] = .ok c
    ∧ ∀ t s r, c.trend.getD 2 none = some t → c.seasonal.getD 2 none = some s → c.resid.getD 2 none = some r →
      t * s * r = 8 := by
  obtain ⟨f, hf, _⟩ := (C118_frequency [0, 86400, 172800]).2 (by simp)
  obtain ⟨c, hc⟩ : ∃ c, decompose restWorld ⟨true, false, {}⟩ [0, 86400, 172800] [some 2, none, some 8] = .ok c := by
    unfold decompose
    simp [hf, bind, Except.bind, pure, Except.pure, decClean, restWorld]
  exact ⟨c, hc, fun t s r ht hs hr => (C118_recompose restWorld restWorld_sound _ _ _ c hc 2 t s r 8 ht hs hr rfl).2 rfl
    (.inr (by norm_num))⟩

/-! ### C119 -/

/-- C119, the frequency when pandas finds none: the most frequent difference is taken if at least half of the differences
(less one half) are equal to it, and otherwise the data are refused; irregular data can be let through. -/
theorem C119_frequency (W : DecWorld) (times : List Int) (h : W.inferFreq times = .ok none) :
    (seasonFreq W false times = .ok (W.topDiff (neighbourDiffs times))
      ↔ times.length ≤ 2 * ((neighbourDiffs times).count (W.topDiff (neighbourDiffs times)) + 1))
    ∧ (2 * ((neighbourDiffs times).count (W.topDiff (neighbourDiffs times)) + 1) < times.length →
      seasonFreq W false times = .error .otherError)
    ∧ seasonFreq W true times = inferFreqRobust times := by
  obtain ⟨d, hd⟩ : ∃ d, d = W.topDiff (neighbourDiffs times) := ⟨_, rfl⟩
  obtain ⟨c, hc⟩ : ∃ c, c = (neighbourDiffs times).count d := ⟨_, rfl⟩
  have key : ((c : ℕ) : ℚ) ≥ (times.length : ℚ) * (1 / 2) - 1 ↔ times.length ≤ 2 * (c + 1) := by
    constructor
    · intro h
      have : (times.length : ℚ) ≤ ((2 * (c + 1) : Nat) : ℚ) := by push_cast; linarith
      exact_mod_cast this
    · intro h
      have : (times.length : ℚ) ≤ ((2 * (c + 1) : Nat) : ℚ) := by exact_mod_cast h
      push_cast at this
      linarith
  have e : seasonFreq W false times = if times.length ≤ 2 * (c + 1) then .ok d else .error .otherError := by
    unfold seasonFreq
    rw [if_neg (by simp)]
    simp only [h, bind, Except.bind, ← hd, ← hc]
    by_cases hk : times.length ≤ 2 * (c + 1)
    · rw [if_pos hk, if_pos (key.2 hk)]; rfl
    · rw [if_neg hk, if_neg (fun h => hk (key.1 h))]
  rw [e, ← hd, ← hc]
  refine ⟨?_, fun hl => by rw [if_neg (by omega)], by unfold seasonFreq; rw [if_pos rfl]⟩
  split_ifs with hk
  · exact iff_of_true rfl hk
  · exact iff_of_false (fun h => nomatch h) hk

example : seasonFreq { restWorld with inferFreq := fun _ => .ok none, topDiff := fun _ => 10 } false [0, 10, 20, 30, 37, 50]
    = .ok 10 :=
  (C119_frequency { restWorld with inferFreq := fun _ => .ok none, topDiff := fun _ => 10 } _ rfl).1.2 (by decide)

/-- C119, the checks of the constructor: fewer than seven points, an unknown name and a wrong type are rejected, whatever
the data; the names stand for their numbers of seconds. -/
theorem C119_checks (W : DecWorld) (times : List Int) (columns : List (List (Option ℝ))) (arg : SeasonArg) (ign : Bool)
    (lpj tj : ℚ) :
    (times.length < 7 → seasonInit W times columns arg ign lpj tj = .error .otherError)
    ∧ (arg = .other ∨ (∃ s, arg = .name s ∧ s ∉ ["hourly", "daily", "weekly", "biweekly", "monthly", "yearly"]) →
      seasonInit W times columns arg ign lpj tj = .error .otherError)
    ∧ seasonSeconds (.name "hourly") = .ok 3600 ∧ seasonSeconds (.name "daily") = .ok 86400
    ∧ seasonSeconds (.name "weekly") = .ok 604800 ∧ seasonSeconds (.name "biweekly") = .ok 1209600
    ∧ seasonSeconds (.name "monthly") = .ok 2592000 ∧ seasonSeconds (.name "yearly") = .ok 31536000
    ∧ ∀ k, seasonSeconds (.seconds k) = .ok k := by
  refine ⟨fun h => if_pos h, fun h => ?_, rfl, rfl, rfl, rfl, rfl, rfl, fun _ => rfl⟩
  have hs : seasonSeconds arg = .error .otherError := by
    rcases h with rfl | ⟨s, rfl, hs⟩
    · rfl
    · simp only [List.mem_cons, List.not_mem_nil, or_false, not_or] at hs
      obtain ⟨h1, h2, h3, h4, h5, h6⟩ := hs
      unfold seasonSeconds
      split <;> simp_all
  unfold seasonInit
  rw [hs]
  split_ifs <;> rfl

theorem seasonInit_ok (W : DecWorld) (times : List Int) (columns : List (List (Option ℝ))) (arg : SeasonArg) (ign : Bool)
    (lpj tj : ℚ) (h : SeasonHandler) (hi : seasonInit W times columns arg ign lpj tj = .ok h) :
    7 ≤ times.length ∧ ∃ secs f base, seasonSeconds arg = .ok secs ∧ seasonFreq W ign times = .ok f
      ∧ resampleBase W f (times.headD 0) = .ok base
      ∧ ((resampleGrid f base times).filter (· ∈ times)).length = times.length
      ∧ ∃ inputs, columns.mapM (interpColumn (resampleGrid f base times) times) = .ok inputs
      ∧ h = ⟨times, columns, resampleGrid f base times, inputs, seasonPeriod secs f times.length, lpj, tj⟩ := by
  unfold seasonInit at hi
  split_ifs at hi with h7
  refine ⟨by omega, ?_⟩
  simp only [bind, Except.bind, pure, Except.pure] at hi
  cases h1 : seasonSeconds arg with
  | error e => rw [h1] at hi; cases hi
  | ok secs =>
    rw [h1] at hi; simp only at hi
    cases h2 : seasonFreq W ign times with
    | error e => rw [h2] at hi; cases hi
    | ok f =>
      rw [h2] at hi; simp only at hi
      cases h3 : resampleBase W f (times.headD 0) with
      | error e => rw [h3] at hi; cases hi
      | ok base =>
        rw [h3] at hi; simp only at hi
        cases h4 : columns.mapM (interpColumn (resampleGrid f base times) times) with
        | error e => rw [h4] at hi; cases hi
        | ok inputs =>
          rw [h4] at hi; simp only at hi
          split_ifs at hi with h5
          injection hi with hi
          exact ⟨secs, f, base, rfl, rfl, h3, by simpa using h5, inputs, h4, hi.symm⟩

theorem sortedLE_last (times : List Int) (hs : times.Pairwise (· ≤ ·)) (a b : Int) (ha : times.head? = some a)
    (hb : times.getLast? = some b) : ∀ t ∈ times, a ≤ t ∧ t ≤ b := by
  intro t ht
  obtain ⟨i, hi, rfl⟩ := List.mem_iff_getElem.1 ht
  rw [List.head?_eq_getElem?, List.getElem?_eq_getElem (by omega)] at ha
  rw [List.getLast?_eq_getElem?, List.getElem?_eq_getElem (by omega)] at hb
  injection ha with ha
  injection hb with hb
  rw [← ha, ← hb]
  rw [List.pairwise_iff_getElem] at hs
  constructor
  · rcases Nat.eq_zero_or_pos i with h | h
    · subst h; exact le_rfl
    · exact hs 0 i (by omega) hi h
  · rcases Nat.lt_or_ge i (times.length - 1) with h | h
    · exact hs i _ hi (by omega) h
    · have : i = times.length - 1 := by omega
      subst this; exact le_rfl

theorem resampleGrid_eq (f base : Int) (times : List Int) (a b : Int) (ha : times.head? = some a)
    (hb : times.getLast? = some b) : resampleGrid f base times
      = (List.range (((b - (if base = 0 then a - (a % 86400) % f else a)) / f).toNat + 1)).map fun k : Nat =>
        (if base = 0 then a - (a % 86400) % f else a) + f * (k : Int) := by
  unfold resampleGrid
  rw [ha, hb]

/-- The grid of a positive frequency increases. -/
theorem arith_sorted (start f : Int) (hf : 0 < f) (n : Nat) :
    ((List.range n).map fun k : Nat => start + f * (k : Int)).Pairwise (· < ·) := by
  rw [List.pairwise_map]
  apply List.Pairwise.imp _ (List.pairwise_lt_range (n := n))
  intro i j hij
  have : (i : Int) < j := by exact_mod_cast hij
  have := mul_lt_mul_of_pos_left this hf
  linarith

/-- Accepted data lie on the grid, which starts at the first time. -/
theorem season_grid (f base : Int) (hf0 : f ≠ 0) (times : List Int) (hs : times.Pairwise (· < ·)) (hn : 2 ≤ times.length)
    (hg : ((resampleGrid f base times).filter (· ∈ times)).length = times.length) :
    0 < f ∧ (resampleGrid f base times).filter (· ∈ times) = times
    ∧ (resampleGrid f base times).Pairwise (· < ·)
    ∧ ∃ n, resampleGrid f base times = (List.range n).map fun k : Nat => times.headD 0 + f * (k : Int) := by
  obtain ⟨a, ha⟩ : ∃ a, times.head? = some a := ⟨_, List.head?_eq_some_head (by intro h; simp [h] at hn)⟩
  obtain ⟨b, hb⟩ : ∃ b, times.getLast? = some b := ⟨_, List.getLast?_eq_some_getLast (by intro h; simp [h] at hn)⟩
  have hse := resampleGrid_eq f base times a b ha hb
  obtain ⟨start, hst⟩ : ∃ start, start = if base = 0 then a - (a % 86400) % f else a := ⟨_, rfl⟩
  rw [← hst] at hse
  have hstart : start ≤ a := by
    rw [hst]
    split_ifs
    · have := Int.emod_nonneg (a % 86400) hf0; omega
    · exact le_rfl
  have hle := sortedLE_last times (hs.imp fun h => h.le) a b ha hb
  have hab : a ≤ b := (hle b (List.mem_of_getLast? hb)).1
  have hpos : 0 < f := by
    by_contra hneg
    have hneg : f < 0 := by omega
    have h0 : ((b - start) / f).toNat = 0 := by
      have : (b - start) / f ≤ 0 := Int.ediv_nonpos_of_nonneg_of_nonpos (by omega) hneg.le
      omega
    rw [hse, h0] at hg
    have := List.length_filter_le (fun x => decide (x ∈ times)) ((List.range (0 + 1)).map fun k : Nat => start + f * (k : Int))
    rw [hg] at this
    simp at this
    omega
  have hsort : (resampleGrid f base times).Pairwise (· < ·) := by rw [hse]; exact arith_sorted start f hpos _
  have hfs : ((resampleGrid f base times).filter (· ∈ times)).Pairwise (· < ·) := hsort.filter _
  have hsub : (resampleGrid f base times).filter (· ∈ times) ⊆ times := by
    intro x hx
    simpa using (List.mem_filter.1 hx).2
  have hperm : ((resampleGrid f base times).filter (· ∈ times)).Perm times :=
    (List.subperm_of_subset (hfs.imp fun h => h.ne) hsub).perm_of_length_le (by rw [hg])
  have heq : (resampleGrid f base times).filter (· ∈ times) = times :=
    List.Perm.eq_of_pairwise (le := (· ≤ ·)) (fun x y _ _ h1 h2 => le_antisymm h1 h2) (hfs.imp fun h => h.le)
      (hs.imp fun h => h.le) hperm
  refine ⟨hpos, heq, hsort, ((b - start) / f).toNat + 1, ?_⟩
  have hmem : a ∈ resampleGrid f base times := by
    have : a ∈ (resampleGrid f base times).filter (· ∈ times) := by rw [heq]; exact List.mem_of_head? ha
    exact (List.mem_filter.1 this).1
  have hstart' : start = a := by
    rw [hse] at hmem
    obtain ⟨k, _, hk⟩ := List.mem_map.1 hmem
    have hlt : a - start < f := by
      rw [hst]
      split_ifs
      · have := Int.emod_lt_of_pos (a % 86400) hpos; omega
      · omega
    rcases Nat.eq_zero_or_pos k with h0 | h0
    · subst h0; simpa using hk
    · have : (1 : Int) ≤ k := by exact_mod_cast h0
      have := mul_le_mul_of_nonneg_left this hpos.le
      omega
  rw [hse, hstart']
  have : times.headD 0 = a := by rw [List.headD_eq_head?_getD, ha]; rfl
  rw [this]

/-- C119, the period: with a frequency of `f` seconds it is the largest whole number of points that fits into the
seasonal period and into half of the data, if that is 2 or more, and else 7. -/
theorem C119_period_partial (W : DecWorld) (times : List Int) (columns : List (List (Option ℝ))) (arg : SeasonArg) (ign : Bool)
    (lpj tj : ℚ) (h : SeasonHandler) (hi : seasonInit W times columns arg ign lpj tj = .ok h)
    (hs : times.Pairwise (· < ·)) : ∃ secs f, seasonSeconds arg = .ok secs ∧ seasonFreq W ign times = .ok f ∧ 0 < f
      ∧ 2 ≤ h.period
      ∧ (2 * f ≤ secs → IsGreatest {k : Int | k * f ≤ secs ∧ 2 * k ≤ times.length} h.period)
      ∧ (secs < 2 * f → h.period = 7) := by
  obtain ⟨h7, secs, f, base, h1, h2, h3, h4, inputs, h5, rfl⟩ := seasonInit_ok W times columns arg ign lpj tj h hi
  have hf0 : f ≠ 0 := by
    intro h0; unfold resampleBase at h3; rw [if_pos h0] at h3; cases h3
  obtain ⟨hf, _⟩ := season_grid f base hf0 times hs (by omega) h4
  refine ⟨secs, f, h1, h2, hf, ?_, fun hge => ?_, fun hlt => ?_⟩
  · show 2 ≤ seasonPeriod secs f times.length
    unfold seasonPeriod
    dsimp only
    split_ifs <;> omega
  · have hsec : 0 ≤ secs := by omega
    have hp : seasonPeriod secs f times.length = min (secs / f) ((times.length / 2 : Nat) : Int) := by
      unfold seasonPeriod
      dsimp only
      rw [Int.tdiv_eq_ediv_of_nonneg hsec, if_neg]
      have : 2 ≤ secs / f := (Int.le_ediv_iff_mul_le hf).2 hge
      omega
    show IsGreatest _ (seasonPeriod secs f times.length)
    rw [hp]
    refine ⟨⟨(Int.le_ediv_iff_mul_le hf).1 (min_le_left _ _), ?_⟩, ?_⟩
    · have := min_le_right (secs / f) ((times.length / 2 : Nat) : Int)
      omega
    · rintro k ⟨k1, k2⟩
      exact le_min ((Int.le_ediv_iff_mul_le hf).2 k1) (by omega)
  · show seasonPeriod secs f times.length = 7
    unfold seasonPeriod
    dsimp only
    rw [if_pos]
    have : secs.tdiv f < 2 := by
      by_cases hsec : 0 ≤ secs
      · rw [Int.tdiv_eq_ediv_of_nonneg hsec]
        exact (Int.ediv_lt_iff_lt_mul hf).2 hlt
      · obtain ⟨m, hm⟩ : ∃ m, secs = -m := ⟨-secs, by omega⟩
        subst hm
        have : 0 ≤ m.tdiv f := Int.tdiv_nonneg (by omega) hf.le
        rw [Int.neg_tdiv]
        omega
    exact lt_of_le_of_lt (min_le_left _ _) this

/-- C119 is violated by the period of short data: a seasonal period of less than two points becomes 7 points, even if
the data are fewer than 14, and then the period is longer than half of the data. -/
theorem C119_period_violated (W : DecWorld) (times : List Int) (columns : List (List (Option ℝ))) (arg : SeasonArg)
    (ign : Bool) (lpj tj : ℚ) (h : SeasonHandler) (hi : seasonInit W times columns arg ign lpj tj = .ok h)
    (hs : times.Pairwise (· < ·)) (secs f : Int) (hsec : seasonSeconds arg = .ok secs) (hf : seasonFreq W ign times = .ok f)
    (hlt : secs < 2 * f) (hn : times.length < 14) : (times.length : Int) < 2 * h.period := by
  obtain ⟨secs', f', h1, h2, _, _, _, h3⟩ := C119_period_partial W times columns arg ign lpj tj h hi hs
  rw [hsec] at h1
  rw [hf] at h2
  injection h1 with h1
  injection h2 with h2
  subst h1 h2
  rw [h3 hlt]
  omega

/-! ### Splitting -/

theorem forwardInterp_known (l : List (Option ℝ)) (i : Nat) (v : ℝ) (h : l.getD i none = some v) :
    (forwardInterp l).getD i none = some v := by
  have hi : i < l.length := by
    by_contra hc
    rw [List.getD_eq_default _ _ (by omega)] at h
    simp at h
  unfold forwardInterp
  rw [List.getD_eq_getElem _ _ (by simpa using hi), List.getElem_map, List.getElem_range,
    lastKnown_spec l i i v le_rfl h (by intros; omega), nextKnown_spec l i i v le_rfl h (by intros; omega)]
  simp [fillAt]

/-- After a known first entry nothing stays missing. -/
theorem forwardInterp_complete (l : List (Option ℝ)) (v : ℝ) (h : l.getD 0 none = some v) :
    ∀ i < l.length, ((forwardInterp l).getD i none).isSome := by
  intro i hi
  have hk : ∀ i, (lastKnown l i).isSome := by
    intro i
    induction i with
    | zero => rw [lastKnown_zero, h]; rfl
    | succ i ih =>
      rw [lastKnown_succ]
      cases hl : l.getD (i + 1) none <;> simp [ih]
  unfold forwardInterp
  rw [List.getD_eq_getElem _ _ (by simpa using hi), List.getElem_map, List.getElem_range, if_pos (hk i)]
  obtain ⟨p, hp⟩ := Option.isSome_iff_exists.1 (hk i)
  rw [hp]
  cases nextKnown l i <;> simp [fillAt]

/-- The entry of a sublist at the times of the data. -/
theorem atTimes_getD (grid times : List Int) (hg : grid.Pairwise (· < ·)) (hf : grid.filter (· ∈ times) = times) (i : Nat)
    (hi : i < times.length) : ∃ k, k < grid.length ∧ grid.getD k 0 = times.getD i 0 ∧
      ∀ l : List (Option ℝ), l.length = grid.length → (atTimes grid times l).getD i none = l.getD k none := by
  have hmem : times[i] ∈ grid := by
    have : times[i] ∈ grid.filter (· ∈ times) := by rw [hf]; exact List.getElem_mem hi
    exact (List.mem_filter.1 this).1
  obtain ⟨k, hk, hgk⟩ := List.mem_iff_getElem.1 hmem
  refine ⟨k, hk, ?_, ?_⟩
  · rw [List.getD_eq_getElem _ _ hk, List.getD_eq_getElem _ _ hi, hgk]
  · intro l hl
    unfold atTimes
    obtain ⟨w, hw⟩ : ∃ w, w = (grid.zip l).filter fun r => decide (r.1 ∈ times) := ⟨_, rfl⟩
    have hfst : w.map (·.1) = times := by
      have : w.map (·.1) = ((grid.zip l).map (·.1)).filter (· ∈ times) := by
        rw [hw, List.filter_map]; rfl
      rw [this, List.map_fst_zip (by omega), hf]
    have hwl : w.length = times.length := by rw [← hfst, List.length_map]
    rw [← hw, List.getD_eq_getElem _ _ (by rw [List.length_map]; omega), List.getElem_map]
    have hwi : w[i] ∈ grid.zip l := by
      have hsub : ∀ r ∈ w, r ∈ grid.zip l := by
        intro r hr
        rw [hw] at hr
        exact (List.mem_filter.1 hr).1
      exact hsub _ (List.getElem_mem (by omega))
    obtain ⟨m, hm, he⟩ := List.mem_iff_getElem.1 hwi
    rw [List.getElem_zip] at he
    have hml : m < grid.length := by rw [List.length_zip] at hm; omega
    have h1 : w[i].1 = times[i] := by
      have := List.getElem_of_eq hfst (i := i) (by rw [List.length_map]; omega)
      rw [List.getElem_map] at this
      exact this
    have hmk : m = k := by
      have : grid[m] = grid[k] := by rw [hgk, ← h1, ← he]
      exact (List.Nodup.getElem_inj_iff (hg.imp fun h => h.ne)).1 this
    subst hmk
    rw [← he, List.getD_eq_getElem _ _ (by omega)]

/-- The input of the decomposition keeps the data. -/
theorem interpColumn_known (grid times : List Int) (values y : List (Option ℝ)) (h : interpColumn grid times values = .ok y)
    (hl : values.length = times.length) (i k : Nat) (hi : i < times.length) (hk : k < grid.length)
    (hik : grid.getD k 0 = times.getD i 0) (v : ℝ) (hv : values.getD i none = some v) :
    y.length = grid.length ∧ times.Nodup ∧ y.getD k none = some v := by
  unfold interpColumn at h
  split_ifs at h with hnd
  injection h with h
  subst h
  refine ⟨by simp [forwardInterp], hnd, forwardInterp_known _ _ _ ?_⟩
  rw [List.getD_eq_getElem _ _ (by simpa using hk), List.getElem_map]
  rw [List.getD_eq_getElem _ _ hk, List.getD_eq_getElem _ _ hi] at hik
  have hz : (times.zip values).find? (fun r => decide (r.1 = grid[k])) = some (times[i], values[i]'(by omega)) := by
    rw [List.find?_eq_some_iff_getElem]
    refine ⟨by simp [hik], i, by rw [List.length_zip]; omega, by rw [List.getElem_zip], ?_⟩
    intro j hj
    rw [List.getElem_zip]
    simp only [hik, Bool.not_eq_true', decide_eq_false_iff_not]
    intro he
    exact absurd ((List.Nodup.getElem_inj_iff hnd).1 he) (by omega)
  rw [hz]
  rw [List.getD_eq_getElem _ _ (by omega)] at hv
  simpa using hv

theorem forall2_getElem {α β : Type} {R : α → β → Prop} {l : List α} {r : List β} (h : List.Forall₂ R l r) (j : Nat)
    (hj : j < l.length) : ∃ hr : j < r.length, R l[j] r[j] := by
  have hl := h.length_eq
  refine ⟨by omega, ?_⟩
  exact (List.forall₂_iff_get.1 h).2 j hj (by omega)

theorem season_decomp_getElem (W : DecWorld) (h : SeasonHandler) (d : List Comps) (hd : h.decomp W = .ok d) (j : Nat)
    (hj : j < h.inputs.length) : ∃ hr : j < d.length,
      decompose W ⟨false, false, h.stlArgs⟩ h.grid h.inputs[j] = .ok d[j] := by
  obtain ⟨hr, h1⟩ := forall2_getElem (mapM_forall2 _ _ _ hd) j hj
  refine ⟨hr, ?_⟩
  rw [← h1]
  rfl

/-- C119, nothing is lost: the times are kept, and at every point whose value is known, the seasonality from
`get_seasonality` and the rest from `remove_seasonality` add up to the value, in every column. -/
theorem C119_split (W : DecWorld) (hW : DecSound W) (times : List Int) (hs : times.Pairwise (· < ·))
    (columns : List (List (Option ℝ))) (hc : ∀ col ∈ columns, col.length = times.length) (arg : SeasonArg) (ign : Bool)
    (lpj tj : ℚ) (h : SeasonHandler) (hi : seasonInit W times columns arg ign lpj tj = .ok h)
    (S R : List (List (Option ℝ))) (hS : h.getSeasonality W = .ok S) (hR : h.removeSeasonality W = .ok R) :
    S.length = columns.length ∧ R.length = columns.length
    ∧ ∀ j < columns.length, (S.getD j []).length = times.length ∧ (R.getD j []).length = times.length
      ∧ ∀ i < times.length, ∀ v s x, (columns.getD j []).getD i none = some v → (S.getD j []).getD i none = some s →
        (R.getD j []).getD i none = some x → s + x = v := by
  obtain ⟨h7, secs, f, base, h1, h2, h3, h4, inputs, h5, rfl⟩ := seasonInit_ok W times columns arg ign lpj tj h hi
  have hf0 : f ≠ 0 := by
    intro h0; unfold resampleBase at h3; rw [if_pos h0] at h3; cases h3
  obtain ⟨hf, heq, hsort, _⟩ := season_grid f base hf0 times hs (by omega) h4
  obtain ⟨g, hgd⟩ : ∃ g, g = resampleGrid f base times := ⟨_, rfl⟩
  rw [← hgd] at heq hsort h5 hS hR
  unfold SeasonHandler.getSeasonality at hS
  unfold SeasonHandler.removeSeasonality at hR
  simp only [bind, Except.bind, pure, Except.pure] at hS hR
  cases hd : SeasonHandler.decomp W ⟨times, columns, g, inputs, seasonPeriod secs f times.length, lpj, tj⟩ with
  | error e => rw [hd] at hS; cases hS
  | ok d =>
    rw [hd] at hS hR
    simp only at hS hR
    injection hS with hS
    injection hR with hR
    have hli : inputs.length = columns.length := ((mapM_forall2 _ _ _ h5).length_eq).symm
    have hld : d.length = inputs.length := ((mapM_forall2 _ _ _ hd).length_eq).symm
    refine ⟨by rw [← hS]; simp; omega, by rw [← hR]; simp; omega, ?_⟩
    intro j hj
    obtain ⟨hjd, hdec⟩ := season_decomp_getElem W _ d hd j (by show j < inputs.length; omega)
    simp only at hdec
    obtain ⟨hji, hin⟩ := forall2_getElem (mapM_forall2 _ _ _ h5) j hj
    have hcol : columns[j].length = times.length := hc _ (List.getElem_mem hj)
    have hSj : S.getD j [] = atTimes g times d[j].seasonal := by
      rw [← hS, List.getD_eq_getElem _ _ (by simpa using hjd), List.getElem_map]
    have hRj : R.getD j [] = List.zipWith optAdd (atTimes g times d[j].resid) (atTimes g times d[j].trend) := by
      rw [← hR, List.getD_eq_getElem _ _ (by simpa using hjd), List.getElem_map]
    have hinl : inputs[j].length = g.length := by
      have := hin
      unfold interpColumn at this
      split_ifs at this
      injection this with this
      rw [← this]; simp [forwardInterp]
    have hlen : d[j].trend.length = g.length ∧ d[j].seasonal.length = g.length ∧ d[j].resid.length = g.length := by
      have hdc := hdec
      unfold decompose at hdc
      simp only [bind, Except.bind] at hdc
      cases hfr : inferFreqRobust g with
      | error e => rw [hfr] at hdc; cases hdc
      | ok fr =>
        rw [hfr] at hdc; simp only at hdc
        cases hy : decClean W inputs[j] with
        | error e => rw [hy] at hdc; cases hdc
        | ok y =>
          rw [hy] at hdc; simp only at hdc
          have hyl := (decClean_known W hW _ _ hy).1
          obtain ⟨l1, l2, l3, _⟩ := hW.stl _ _ _ hdc
          exact ⟨by omega, by omega, by omega⟩
    have hat : ∀ l : List (Option ℝ), l.length = g.length → (atTimes g times l).length = times.length := by
      intro l hl
      have : ((g.zip l).filter fun r => decide (r.1 ∈ times)).map (·.1) = times := by
        have e : ((g.zip l).filter fun r => decide (r.1 ∈ times)).map (·.1) = ((g.zip l).map (·.1)).filter (· ∈ times) := by
          rw [List.filter_map]; rfl
        rw [e, List.map_fst_zip (by omega), heq]
      have := congrArg List.length this
      rw [List.length_map] at this
      unfold atTimes
      rw [List.length_map, this]
    refine ⟨by rw [hSj, hat _ hlen.2.1], by rw [hRj, List.length_zipWith, hat _ hlen.2.2, hat _ hlen.1, min_self], ?_⟩
    intro i hi' v s x hv hs' hx
    obtain ⟨k, hk, hgk, hatk⟩ := atTimes_getD g times hsort heq i hi'
    rw [hSj, hatk _ hlen.2.1] at hs'
    rw [hRj, List.getD_eq_getElem _ _ (by rw [List.length_zipWith, hat _ hlen.2.2, hat _ hlen.1, min_self]; exact hi'),
      List.getElem_zipWith] at hx
    have e1 := hatk _ hlen.2.2
    have e2 := hatk _ hlen.1
    rw [List.getD_eq_getElem _ _ (by rw [hat _ hlen.2.2]; exact hi')] at e1
    rw [List.getD_eq_getElem _ _ (by rw [hat _ hlen.1]; exact hi')] at e2
    rw [e1, e2] at hx
    rw [List.getD_eq_getElem _ _ hj] at hv
    obtain ⟨_, _, hyk⟩ := interpColumn_known g times columns[j] inputs[j] hin hcol i k hi' hk hgk v hv
    cases hr : d[j].resid.getD k none with
    | none => rw [hr] at hx; simp [optAdd] at hx
    | some r =>
      cases ht : d[j].trend.getD k none with
      | none => rw [hr, ht] at hx; simp [optAdd] at hx
      | some t =>
        rw [hr, ht] at hx
        simp only [optAdd] at hx
        injection hx with hx
        have := (C118_recompose W hW ⟨false, false, _⟩ g inputs[j] d[j] hdec k t s r v ht hs' hr hyk).1 rfl
        linarith

/-! ### Acceptance -/

/-- C119, accepted data: the times lie on a grid that starts at the first of them and has the frequency as its step, and
the handler decomposes the data on that grid. -/
theorem C119_grid (W : DecWorld) (times : List Int) (hs : times.Pairwise (· < ·))
    (columns : List (List (Option ℝ))) (arg : SeasonArg) (ign : Bool)
    (lpj tj : ℚ) (h : SeasonHandler) (hi : seasonInit W times columns arg ign lpj tj = .ok h) :
    h.times = times ∧ ∃ f, seasonFreq W ign times = .ok f ∧ 0 < f
      ∧ (∀ t ∈ times, t ∈ h.grid) ∧ ∃ n, h.grid = (List.range n).map fun k : Nat => times.headD 0 + f * (k : Int) := by
  obtain ⟨h7, secs, f, base, h1, h2, h3, h4, inputs, h5, rfl⟩ := seasonInit_ok W times columns arg ign lpj tj h hi
  have hf0 : f ≠ 0 := by
    intro h0; unfold resampleBase at h3; rw [if_pos h0] at h3; cases h3
  obtain ⟨hf, heq, hsort, n, hn⟩ := season_grid f base hf0 times hs (by omega) h4
  refine ⟨rfl, f, h2, hf, ?_, n, hn⟩
  intro t ht
  have : t ∈ (resampleGrid f base times).filter (· ∈ times) := by rw [heq]; exact ht
  exact (List.mem_filter.1 this).1

/-- C119, the input of the decomposition: data without missing values leave no gap on the grid, and a point of the
grid between two known neighbours at positions `m` and `n` gets the value of the straight line. -/
theorem C119_fill (W : DecWorld) (times : List Int) (hs : times.Pairwise (· < ·))
    (columns : List (List (Option ℝ))) (hc : ∀ col ∈ columns, col.length = times.length) (arg : SeasonArg) (ign : Bool)
    (lpj tj : ℚ) (h : SeasonHandler) (hi : seasonInit W times columns arg ign lpj tj = .ok h) (j : Nat)
    (hj : j < columns.length) :
    (∀ v ∈ columns.getD j [], v.isSome) →
    (∀ k < h.grid.length, ((h.inputs.getD j []).getD k none).isSome)
    ∧ ∀ p q i i' : Nat, i + 1 = i' → i' < times.length → p < h.grid.length → q < h.grid.length →
      h.grid.getD p 0 = times.getD i 0 → h.grid.getD q 0 = times.getD i' 0 →
      ∀ k, p ≤ k → k ≤ q → ∃ a b : ℝ, (columns.getD j []).getD i none = some a ∧ (columns.getD j []).getD i' none = some b
        ∧ (h.inputs.getD j []).getD k none = some (a + (b - a) * ((k : ℝ) - p) / ((q : ℝ) - p)) := by
  intro hsome
  obtain ⟨h7, secs, f, base, h1, h2, h3, h4, inputs, h5, rfl⟩ := seasonInit_ok W times columns arg ign lpj tj h hi
  have hf0 : f ≠ 0 := by
    intro h0; unfold resampleBase at h3; rw [if_pos h0] at h3; cases h3
  obtain ⟨hf, heq, hsort, n, hn⟩ := season_grid f base hf0 times hs (by omega) h4
  obtain ⟨g, hgd⟩ : ∃ g, g = resampleGrid f base times := ⟨_, rfl⟩
  rw [← hgd] at heq hsort h5 hn
  simp only [← hgd]
  obtain ⟨hji, hin⟩ := forall2_getElem (mapM_forall2 _ _ _ h5) j hj
  have hcol : columns[j].length = times.length := hc _ (List.getElem_mem hj)
  rw [List.getD_eq_getElem _ _ hj] at hsome ⊢
  rw [List.getD_eq_getElem _ _ hji]
  unfold interpColumn at hin
  split_ifs at hin with hnd
  injection hin with hin
  obtain ⟨l, hl⟩ : ∃ l, l = g.map fun x : Int => ((times.zip columns[j]).find? fun r => decide (r.1 = x)).bind (·.2) :=
    ⟨_, rfl⟩
  rw [← hl] at hin
  rw [← hin]
  have hll : l.length = g.length := by rw [hl, List.length_map]
  have hval : ∀ i k, i < times.length → k < g.length → g.getD k 0 = times.getD i 0 →
      ∃ v, columns[j].getD i none = some v ∧ l.getD k none = some v := by
    intro i k hi' hk hik
    have hv := hsome (columns[j][i]'(by omega)) (List.getElem_mem _)
    obtain ⟨v, hv⟩ := Option.isSome_iff_exists.1 hv
    refine ⟨v, by rw [List.getD_eq_getElem _ _ (by omega), hv], ?_⟩
    rw [hl, List.getD_eq_getElem _ _ (by simpa using hk), List.getElem_map]
    rw [List.getD_eq_getElem _ _ hk, List.getD_eq_getElem _ _ hi'] at hik
    have hz : (times.zip columns[j]).find? (fun r => decide (r.1 = g[k])) = some (times[i], columns[j][i]'(by omega)) := by
      rw [List.find?_eq_some_iff_getElem]
      refine ⟨by simp [hik], i, by rw [List.length_zip]; omega, by rw [List.getElem_zip], ?_⟩
      intro m hm
      rw [List.getElem_zip]
      simp only [hik, Bool.not_eq_true', decide_eq_false_iff_not]
      intro he
      exact absurd ((List.Nodup.getElem_inj_iff hnd).1 he) (by omega)
    rw [hz]
    simpa using hv
  have hnone : ∀ k, k < g.length → g.getD k 0 ∉ times → l.getD k none = none := by
    intro k hk hnm
    rw [hl, List.getD_eq_getElem _ _ (by simpa using hk), List.getElem_map]
    rw [List.getD_eq_getElem _ _ hk] at hnm
    have : (times.zip columns[j]).find? (fun r => decide (r.1 = g[k])) = none := by
      rw [List.find?_eq_none]
      intro r hr
      simp only [decide_eq_true_eq]
      intro he
      exact hnm (he ▸ (List.of_mem_zip hr).1)
    rw [this]; rfl
  have hpos : 0 < g.length := by
    have : 0 < times.length := by omega
    have hm : times[0] ∈ g.filter (· ∈ times) := by rw [heq]; exact List.getElem_mem this
    exact List.length_pos_of_mem (List.mem_filter.1 hm).1
  have hg0 : g.getD 0 0 = times.getD 0 0 := by
    have hn0 : 0 < n := by rw [hn] at hpos; simpa using hpos
    rw [hn, List.getD_eq_getElem _ _ (by simpa using hn0), List.getElem_map, List.getElem_range]
    cases times with
    | nil => simp at h7
    | cons a m => simp
  refine ⟨?_, ?_⟩
  · intro k hk
    obtain ⟨v, _, hv⟩ := hval 0 0 (by omega) hpos hg0
    exact forwardInterp_complete l v hv k (by omega)
  · intro p q i i' hii hi' hp hq hpi hqi k hpk hkq
    obtain ⟨a, ha, hla⟩ := hval i p (by omega) hp hpi
    obtain ⟨b, hb, hlb⟩ := hval i' q hi' hq hqi
    refine ⟨a, b, ha, hb, ?_⟩
    rw [List.pairwise_iff_getElem] at hs hsort
    have hpq : p < q := by
      by_contra hc
      have h1 : times[i] < times[i'] := hs i i' (by omega) hi' (by omega)
      rw [List.getD_eq_getElem _ _ hp, List.getD_eq_getElem _ _ (by omega)] at hpi
      rw [List.getD_eq_getElem _ _ hq, List.getD_eq_getElem _ _ hi'] at hqi
      rw [← hpi, ← hqi] at h1
      rcases Nat.lt_or_ge q p with h | h
      · exact absurd (hsort q p hq hp h) (not_lt.2 h1.le)
      · have : p = q := by omega
        subst this
        exact absurd h1 (lt_irrefl _)
    have hgap : ∀ m, p < m → m < q → l.getD m none = none := by
      intro m h1 h2
      apply hnone m (by omega)
      intro hm
      obtain ⟨x, hx, hxm⟩ := List.mem_iff_getElem.1 hm
      rw [List.getD_eq_getElem _ _ (by omega)] at hxm
      rw [List.getD_eq_getElem _ _ hp, List.getD_eq_getElem _ _ (by omega)] at hpi
      rw [List.getD_eq_getElem _ _ hq, List.getD_eq_getElem _ _ hi'] at hqi
      have h3 := hsort p m hp (by omega) h1
      have h4 := hsort m q (by omega) hq h2
      rw [hpi, ← hxm] at h3
      rw [hqi, ← hxm] at h4
      have hmono : ∀ u w (hu : u < times.length) (hw : w < times.length), times[u] < times[w] → u < w := by
        intro u w hu hw huw
        by_contra hc
        rcases Nat.lt_or_ge w u with h | h
        · exact absurd (hs w u hw hu h) (not_lt.2 huw.le)
        · have : u = w := by omega
          subst this
          exact absurd huw (lt_irrefl _)
      have h5 := hmono i x (by omega) hx h3
      have h6 := hmono x i' hx hi' h4
      omega
    by_cases hk1 : k = p
    · subst hk1
      rw [forwardInterp_known l k a hla]
      simp
    · by_cases hk2 : k = q
      · subst hk2
        rw [forwardInterp_known l k b hlb]
        have : (k : ℝ) - p ≠ 0 := by
          have : (p : ℝ) < k := by exact_mod_cast hpq
          linarith
        field_simp
        congr 1; ring
      · unfold forwardInterp
        rw [List.getD_eq_getElem _ _ (by simp; omega), List.getElem_map, List.getElem_range,
          lastKnown_spec l k p a hpk hla (fun m h1 h2 => hgap m h1 (by omega)),
          nextKnown_spec l k q b hkq hlb (fun m h1 h2 => hgap m (by omega) h2)]
        simp only [Option.isSome_some, if_true, fillAt]
        rw [if_neg (by omega)]

/-- C119, acceptance as far as it holds: seven points or more whose distances are multiples of the frequency found are
accepted, if the frequency divides a day (or, more generally, unless the base is 0 and the time of day of the first
point is no multiple of the frequency). -/
theorem C119_accept_partial (W : DecWorld) (times : List Int) (hs : times.Pairwise (· < ·)) (hn : 7 ≤ times.length)
    (columns : List (List (Option ℝ))) (arg : SeasonArg) (secs : Int) (hsec : seasonSeconds arg = .ok secs) (ign : Bool)
    (lpj tj : ℚ) (f : Int) (hf : 0 < f) (hfreq : seasonFreq W ign times = .ok f)
    (hreg : ∀ t ∈ times, f ∣ t - times.headD 0)
    (hday : f ∣ 86400 ∨ (W.dayOfMonth (times.headD 0) * 86400 + times.headD 0 % 86400) % f ≠ 0
      ∨ f ∣ times.headD 0 % 86400) :
    ∃ h, seasonInit W times columns arg ign lpj tj = .ok h := by
  obtain ⟨a, ha⟩ : ∃ a, times.head? = some a := ⟨_, List.head?_eq_some_head (by intro h; simp [h] at hn)⟩
  obtain ⟨b, hb⟩ : ∃ b, times.getLast? = some b := ⟨_, List.getLast?_eq_some_getLast (by intro h; simp [h] at hn)⟩
  have hhead : times.headD 0 = a := by rw [List.headD_eq_head?_getD, ha]; rfl
  rw [hhead] at hreg hday
  obtain ⟨base, hbase⟩ : ∃ base, base = (W.dayOfMonth a * 24 * 60 * 60 + a % 86400) % f := ⟨_, rfl⟩
  have hb0 : W.dayOfMonth a * 24 * 60 * 60 = W.dayOfMonth a * 86400 := by ring
  rw [hb0] at hbase
  have hstart : (if base = 0 then a - (a % 86400) % f else a) = a := by
    split_ifs with h0
    · have : (a % 86400) % f = 0 := by
        rcases hday with h | h | h
        · rw [hbase] at h0
          have h1 : f ∣ W.dayOfMonth a * 86400 + a % 86400 := Int.dvd_of_emod_eq_zero h0
          have h2 : f ∣ W.dayOfMonth a * 86400 := Dvd.dvd.mul_left h _
          exact Int.emod_eq_zero_of_dvd ((Int.dvd_add_right h2).1 h1)
        · exact absurd (hbase ▸ h0) h
        · exact Int.emod_eq_zero_of_dvd h
      omega
    · rfl
  have hgrid := resampleGrid_eq f base times a b ha hb
  rw [hstart] at hgrid
  have hle := sortedLE_last times (hs.imp fun h => h.le) a b ha hb
  have hin : ∀ t ∈ times, t ∈ resampleGrid f base times := by
    intro t ht
    obtain ⟨q, hq⟩ := hreg t ht
    obtain ⟨h1, h2⟩ := hle t ht
    have hq0 : 0 ≤ q := by
      by_contra hc
      have := mul_neg_of_pos_of_neg hf (show q < 0 by omega)
      omega
    have hq1 : q ≤ (b - a) / f := by
      rw [Int.le_ediv_iff_mul_le hf, mul_comm, ← hq]
      omega
    rw [hgrid]
    refine List.mem_map.2 ⟨q.toNat, List.mem_range.2 (by omega), ?_⟩
    rw [Int.toNat_of_nonneg hq0]
    omega
  have hlen : ((resampleGrid f base times).filter (· ∈ times)).length = times.length := by
    have hsort : (resampleGrid f base times).Pairwise (· < ·) := by rw [hgrid]; exact arith_sorted a f hf _
    apply List.Perm.length_eq
    apply (List.perm_ext_iff_of_nodup ((hsort.filter _).imp fun h => h.ne) (hs.imp fun h => h.ne)).2
    intro t
    rw [List.mem_filter]
    simp only [decide_eq_true_eq]
    exact ⟨fun h => h.2, fun h => ⟨hin t h, h⟩⟩
  have hnd : times.Nodup := hs.imp fun h => h.ne
  have hmap : ∃ inputs, columns.mapM (interpColumn (resampleGrid f base times) times) = .ok inputs := by
    clear hn hreg hday hlen hin
    induction columns with
    | nil => exact ⟨[], rfl⟩
    | cons c l ih =>
      obtain ⟨r, hr⟩ := ih
      rw [List.mapM_cons, hr]
      simp only [interpColumn, if_pos hnd, bind, Except.bind, pure, Except.pure]
      exact ⟨_, rfl⟩
  obtain ⟨inputs, hmap⟩ := hmap
  have hbs : resampleBase W f (times.headD 0) = .ok base := by
    unfold resampleBase
    rw [if_neg (by omega), hhead, hb0, hbase]
  refine ⟨⟨times, columns, resampleGrid f base times, inputs, seasonPeriod secs f times.length, lpj, tj⟩, ?_⟩
  unfold seasonInit
  rw [if_neg (by omega)]
  simp only [bind, Except.bind, pure, Except.pure, hsec, hfreq, hbs, hmap]
  rw [if_neg (by rw [hlen]; simp)]

/-- C119 is violated as to acceptance: the base counts from the start of the month but a base of 0 makes pandas count
from midnight.  If the base is 0 and the time of day of the first point is no multiple of the frequency, data are
refused however regular they are. -/
theorem C119_accept_violated (W : DecWorld) (times : List Int) (hs : times.Pairwise (· < ·))
    (columns : List (List (Option ℝ))) (hne : columns ≠ []) (arg : SeasonArg) (ign : Bool)
    (lpj tj : ℚ) (f : Int) (hfreq : seasonFreq W ign times = .ok f)
    (hbase : (W.dayOfMonth (times.headD 0) * 86400 + times.headD 0 % 86400) % f = 0)
    (hmid : ¬ f ∣ times.headD 0 % 86400) :
    ∀ h, seasonInit W times columns arg ign lpj tj ≠ .ok h := by
  intro h hi
  obtain ⟨h7, secs, f', base, h1, h2, h3, h4, inputs, h5, rfl⟩ := seasonInit_ok W times columns arg ign lpj tj h hi
  rw [hfreq] at h2
  injection h2 with h2
  subst h2
  have hf0 : f ≠ 0 := by
    intro h0; unfold resampleBase at h3; rw [if_pos h0] at h3; cases h3
  have hb0 : base = 0 := by
    unfold resampleBase at h3
    rw [if_neg hf0] at h3
    injection h3 with h3
    rw [← h3, show W.dayOfMonth (times.headD 0) * 24 * 60 * 60 = W.dayOfMonth (times.headD 0) * 86400 by ring]
    exact hbase
  obtain ⟨hf, heq, hsort, n, hn⟩ := season_grid f base hf0 times hs (by omega) h4
  obtain ⟨a, ha⟩ : ∃ a, times.head? = some a := ⟨_, List.head?_eq_some_head (by intro h; simp [h] at h7)⟩
  obtain ⟨b, hb⟩ : ∃ b, times.getLast? = some b := ⟨_, List.getLast?_eq_some_getLast (by intro h; simp [h] at h7)⟩
  have hhead : times.headD 0 = a := by rw [List.headD_eq_head?_getD, ha]; rfl
  have hgrid := resampleGrid_eq f base times a b ha hb
  rw [if_pos hb0] at hgrid
  rw [hhead] at hn hmid
  have hz : (a - a % 86400 % f) ∈ (List.range n).map fun k : Nat => a + f * (k : Int) := by
    rw [← hn, hgrid]
    exact List.mem_map.2 ⟨0, by simp, by simp⟩
  obtain ⟨k, _, hk⟩ := List.mem_map.1 hz
  have hk0 : 0 ≤ f * (k : Int) := mul_nonneg hf.le (by omega)
  have hnn := Int.emod_nonneg (a % 86400) hf0
  exact hmid (Int.dvd_of_emod_eq_zero (by omega))

/-- The calendar of January 1970 and a frequency of 36 hours. -/
noncomputable def noonWorld : DecWorld := { restWorld with inferFreq := fun _ => .ok (some 129600) }

/-- Seven points every 36 hours, from noon of 1 January 1970. -/
example : ∀ h, seasonInit noonWorld [43200, 172800, 302400, 432000, 561600, 691200, 820800]
    [[some 1, some 2, some 3, some 4, some 5, some 6, some 7]] ≠ .ok h :=
  C119_accept_violated noonWorld _ (by decide) _ (by simp) _ _ _ _ 129600 rfl (by decide +kernel) (by decide)

/-- The same points from midnight, one missing. -/
example : ∃ h, seasonInit noonWorld [0, 129600, 259200, 518400, 648000, 777600, 907200]
    [[some 1, some 2, some 3, some 5, some 6, some 7, some 8]] = .ok h :=
  C119_accept_partial noonWorld _ (by decide) (by simp) _ (.name "daily") 86400 rfl _ _ _ 129600 (by norm_num) rfl
    (by decide) (.inr (.inr (by decide)))

/-- Seven daily points with the default period. -/
example : ∃ h, seasonInit restWorld [0, 86400, 172800, 259200, 345600, 432000, 518400]
    [[some 1, some 2, some 3, some 4, some 5, some 6, some 7]] = .ok h ∧ (7 : Int) < 2 * h.period := by
  obtain ⟨h, hi⟩ := C119_accept_partial restWorld [0, 86400, 172800, 259200, 345600, 432000, 518400] (by decide) (by simp)
    [[some 1, some 2, some 3, some 4, some 5, some 6, some 7]] (.name "daily") 86400 rfl false (15 / 100) (15 / 100) 86400
    (by norm_num) rfl (by decide) (.inl (by decide))
  exact ⟨h, hi, C119_period_violated restWorld _ _ _ _ _ _ h hi (by decide) 86400 86400 rfl rfl (by norm_num) (by simp)⟩

/-- Hourly points, one missing and two columns. -/
example : ∃ h, seasonInit { restWorld with inferFreq := fun _ => .ok none, topDiff := fun _ => 3600 }
    [1800, 5400, 9000, 16200, 19800, 23400, 27000] [[some 1, some 2, some 3, none, some 6, some 7, some 8], []] = .ok h :=
  C119_accept_partial _ _ (by decide) (by simp) _ (.name "daily") 86400 rfl _ _ _ 3600 (by norm_num)
    (by
      have h1 : (neighbourDiffs [1800, 5400, 9000, 16200, 19800, 23400, 27000]).count 3600 = 5 := by decide +kernel
      unfold seasonFreq
      simp only [bind, Except.bind, pure, Except.pure, Bool.false_eq_true, if_false, h1]
      rw [if_pos (by norm_num)])
    (by decide) (.inl (by decide))

/-- The gap on the fifth day is filled. -/
example (h : SeasonHandler) (hi : seasonInit restWorld [0, 86400, 172800, 259200, 432000, 518400, 604800]
      [[some 1, some 2, some 3, some 4, some 6, some 7, some 8]] = .ok h) :
    ∀ k < h.grid.length, ((h.inputs.getD 0 []).getD k none).isSome :=
  (C119_fill restWorld _ (by decide) _ (by simp) _ _ _ _ h hi 0 (by simp) (by simp)).1

/-- Both parts of a column with a missing value. -/
example (h : SeasonHandler) (hi : seasonInit restWorld [0, 86400, 172800, 259200, 432000, 518400, 604800]
      [[some 1, some 2, none, some 4, some 6, some 7, some 8]] = .ok h)
    (S R : List (List (Option ℝ))) (hS : h.getSeasonality restWorld = .ok S) (hR : h.removeSeasonality restWorld = .ok R)
    (s x : ℝ) (h1 : (S.getD 0 []).getD 4 none = some s) (h2 : (R.getD 0 []).getD 4 none = some x) : s + x = 6 :=
  ((C119_split restWorld restWorld_sound _ (by decide) _ (by simp) _ _ _ _ h hi S R hS hR).2.2 0 (by simp)).2.2 4 (by simp)
    6 s x rfl h1 h2

end Kats

import Verif.Model.GmStd
import Verif.Props.GmEnsPredict

/-!
# C143: global models for series without their seasonality
-/

namespace Kats

/-! ## The attributes -/

/-- C143: an object is made exactly for the two kinds of decomposition, in any case of letters; it always has a number
of cores that the computer has, the one asked for if it can. -/
theorem C143_init (W : GmStdWorld) (cores : Nat) (hc : 1 ≤ cores) (a : GmStdArgs) :
    ((∃ g, gmStdInit W cores a = .ok g) ↔ a.decomposition.toLower = "multiplicative" ∨ a.decomposition.toLower = "additive") ∧
    ∀ g, gmStdInit W cores a = .ok g → (g.mult = true ↔ a.decomposition.toLower = "multiplicative") ∧
      g.model = a.model.toLower ∧ g.fitTrend = a.fitTrend ∧ g.fitOriginal = a.fitOriginal ∧
      1 ≤ g.maxCore ∧ g.maxCore ≤ cores ∧
      ∀ c : Nat, 1 ≤ c → c ≤ cores → a.maxCore = some (.int c) → g.maxCore = c := by
  have hm : 1 ≤ gmStdCores cores a.maxCore ∧ gmStdCores cores a.maxCore ≤ cores := by
    unfold gmStdCores
    simp only []
    rcases a.maxCore with _ | c
    · simp only []
      omega
    · simp only []
      split
      · rename_i h
        rcases c with z | b | x
        · simp only [GmNum.isInt, GmNum.val, GmNum.toInt, gmLt, gmLe, Bool.true_and, Bool.and_eq_true,
            decide_eq_true_eq, Bool.not_eq_true', decide_eq_false_iff_not] at h ⊢
          have h2 : (0 : Int) < z := by
            have := h.1.2
            rw [not_le] at this
            exact_mod_cast this
          have h3 : z ≤ (cores : Int) := by exact_mod_cast h.2
          omega
        · cases b
          · simp [GmNum.val, gmLt, gmLe] at h
          · simp [GmNum.toInt]
            exact hc
        · simp [GmNum.isInt] at h
      · omega
  unfold gmStdInit
  simp only []
  by_cases h : a.decomposition.toLower = "multiplicative" ∨ a.decomposition.toLower = "additive"
  · rw [if_pos h]
    refine ⟨⟨fun _ => h, fun _ => ⟨_, rfl⟩⟩, ?_⟩
    intro g hg
    injection hg with hg
    subst hg
    refine ⟨by simp, rfl, rfl, rfl, hm.1, hm.2, ?_⟩
    intro c h1 h2 h3
    show gmStdCores cores a.maxCore = c
    rw [h3]
    unfold gmStdCores
    simp only []
    rw [if_pos]
    · simp [GmNum.toInt]
    · simp only [GmNum.isInt, GmNum.val, gmLt, gmLe, Bool.true_and, Bool.and_eq_true,
        decide_eq_true_eq, Bool.not_eq_true', decide_eq_false_iff_not, not_le]
      have : (0 : Rat) < ((c : Int) : Rat) := by exact_mod_cast h1
      exact ⟨⟨this.le, this⟩, by exact_mod_cast h2⟩
  · rw [if_neg h]
    refine ⟨⟨?_, fun h' => absurd h' h⟩, (fun g hg => by cases hg)⟩
    rintro ⟨g, hg⟩
    cases hg

/-- C143: a period that is given is kept; otherwise the two methods that need one take that of the frequency of the
parameters, or 7 if there is none. -/
theorem C143_period (W : GmStdWorld) (cores : Nat) (a : GmStdArgs) (g : GmStd) (h : gmStdInit W cores a = .ok g) :
    (∀ p, a.period = some p → g.period = some p) ∧
    (a.period = none → a.model.toLower = "stl" ∨ a.model.toLower = "seasonal_decompose" →
      (∀ f p, a.freq = some f → W.freqToPeriod f = .ok p → g.period = some p) ∧
      ((a.freq = none ∨ ∃ f e, a.freq = some f ∧ W.freqToPeriod f = .error e) → g.period = some 7)) ∧
    (a.period = none → a.model.toLower = "prophet" → g.period = none) := by
  have hg : g.period = gmStdPeriod W a.model.toLower a.freq a.period := by
    unfold gmStdInit at h
    simp only [] at h
    split at h
    · injection h with h
      rw [← h]
    · cases h
  rw [hg]
  refine ⟨fun p hp => by rw [hp]; rfl, ?_, ?_⟩
  · intro hn hm
    rw [hn]
    unfold gmStdPeriod
    simp only []
    rw [if_pos hm]
    refine ⟨fun f p hf hp => by rw [hf]; simp only []; rw [hp], ?_⟩
    rintro (hf | ⟨f, e, hf, he⟩)
    · rw [hf]
    · rw [hf]
      simp only []
      rw [he]
  · intro hn hm
    rw [hn, hm]
    unfold gmStdPeriod
    simp only []
    rw [if_neg (by decide)]

/-- C143 violated: an object that is made without parameters keeps the period 7 when a model is loaded, though the
frequency of that model has another one. -/
theorem C143_load_violated (W : GmStdWorld) (cores : Nat) (a : GmStdArgs) (g : GmStd) (h : gmStdInit W cores a = .ok g)
    (hp : a.period = none) (hm : a.model.toLower = "stl" ∨ a.model.toLower = "seasonal_decompose")
    (hf : a.freq = none) (f p : Int) (hfp : W.freqToPeriod f = .ok p) (h7 : p ≠ 7) :
    (gmStdLoad g f).1.period = some 7 ∧ ∀ g', gmStdInit W cores { a with freq := (gmStdLoad g f).2 } = .ok g' →
      g'.period = some p ∧ g'.period ≠ (gmStdLoad g f).1.period := by
  have h1 : (gmStdLoad g f).1.period = some 7 := ((C143_period W cores a g h).2.1 hp hm).2 (Or.inl hf)
  refine ⟨h1, ?_⟩
  intro g' hg'
  have h2 : g'.period = some p := ((C143_period W cores { a with freq := some f } g' hg').2.1 hp hm).1 f p rfl hfp
  refine ⟨h2, ?_⟩
  rw [h1, h2]
  intro h
  injection h with h
  exact h7 h

/-- Hours have the period 24. -/
def gmStdExW : GmStdWorld where
  freqToPeriod := fun f => if f = 3600 then .ok 24 else if f = 86400 then .ok 7 else .error .valueError
  decompose := fun _ _ ts => .ok (ts.map fun _ => some 10, (List.range ts.length).map fun i => if i % 2 = 0 then 1 else -1)
  prophet := fun _ _ => .error .otherError

example : (gmStdInit gmStdExW 8 ⟨"Additive", "STL", false, false, none, some (.int 9), some 3600⟩).toOption =
    some ⟨false, "stl", false, false, some 24, 3⟩ ∧
    (gmStdInit gmStdExW 8 ⟨"Additive", "STL", false, false, none, none, none⟩).toOption =
    some ⟨false, "stl", false, false, some 7, 3⟩ ∧ gmStdExW.freqToPeriod 3600 = .ok 24 := by
  refine ⟨by decide +kernel, by decide +kernel, rfl⟩

/-! ## The seasonality of the steps -/

theorem replicate_flatten_get {α : Type} (l : List α) : ∀ (n i : Nat), i < n * l.length →
    ((List.replicate n l).flatten)[i]? = l[i % l.length]? := by
  intro n
  induction n with
  | zero => intro i h; omega
  | succ n ih =>
    intro i h
    rw [List.replicate_succ, List.flatten_cons]
    by_cases hi : i < l.length
    · rw [List.getElem?_append_left hi, Nat.mod_eq_of_lt hi]
    · rw [List.getElem?_append_right (by omega), ih (i - l.length) (by
        rw [Nat.add_mul, Nat.one_mul] at h
        omega), ← Nat.mod_eq_sub_mod (by omega)]

theorem std_tile (P : Nat) (hP : 1 ≤ P) (steps : Nat) (s : List Rat) :
    gmStdTile (some (P : Int)) steps s =
      .ok (((List.replicate (1 + steps / P) (s.drop (s.length - P))).flatten).take steps) := by
  have h1 : (1 : Int) + (steps : Int).fdiv (P : Int) = ((1 + steps / P : Nat) : Int) := by
    rw [Int.fdiv_eq_ediv_of_nonneg _ (by omega)]
    push_cast
    rfl
  have h2 : pyFrom s (-(P : Int)) = s.drop (s.length - P) := by
    unfold pyFrom pyIdx
    rw [if_pos (by omega)]
    congr 1
    omega
  unfold gmStdTile
  simp only []
  rw [if_neg (by omega), h1, if_neg (by exact not_lt.2 (Int.natCast_nonneg _)), h2, Int.toNat_natCast]

/-- C143: with a period not longer than the series, the seasonality of the steps is the last period of that of the
series, again and again. -/
theorem C143_tile (P : Nat) (hP : 1 ≤ P) (s : List Rat) (hs : P ≤ s.length) (steps : Nat) :
    ∃ r, gmStdTile (some (P : Int)) steps s = .ok r ∧ r.length = steps ∧
      ∀ t, t < steps → r[t]? = s[s.length - P + t % P]? := by
  have hl : (s.drop (s.length - P)).length = P := by rw [List.length_drop]; omega
  have hmul : steps < (1 + steps / P) * P := by
    have h1 := Nat.div_add_mod steps P
    have h2 := Nat.mod_lt steps (show 0 < P by omega)
    have : (1 + steps / P) * P = P + P * (steps / P) := by ring
    omega
  have hlen : ((List.replicate (1 + steps / P) (s.drop (s.length - P))).flatten).length = (1 + steps / P) * P := by
    rw [List.length_flatten, List.map_replicate, List.sum_replicate, hl]
    simp
  refine ⟨_, std_tile P hP steps s, by rw [List.length_take, hlen]; omega, ?_⟩
  intro t ht
  rw [List.getElem?_take_of_lt ht, replicate_flatten_get _ _ _ (by rw [hl]; omega), hl, List.getElem?_drop]

theorem periodic_add (S : Nat → Rat) (q : Nat) (h : ∀ i, S (i + q) = S i) (n i : Nat) : S (i + q * n) = S i := by
  induction n with
  | zero => simp
  | succ n ih => rw [Nat.mul_succ, ← Nat.add_assoc, h, ih]

/-- C143: if the seasonality repeats after a number of steps that divides the period, the seasonality of the steps
continues it. -/
theorem C143_continues (P q : Nat) (hP : 1 ≤ P) (hq : q ∣ P) (S : Nat → Rat) (hS : ∀ i, S (i + q) = S i) (L : Nat)
    (hL : P ≤ L) (steps : Nat) : gmStdTile (some (P : Int)) steps ((List.range L).map S) =
      .ok ((List.range steps).map fun t => S (L + t)) := by
  obtain ⟨r, r1, r2, r3⟩ := C143_tile P hP ((List.range L).map S) (by simpa using hL) steps
  rw [r1]
  congr 1
  apply List.ext_getElem?
  intro t
  by_cases ht : t < steps
  · have hm := Nat.mod_lt t (show 0 < P by omega)
    simp only [List.length_map, List.length_range] at r3
    rw [r3 t ht, List.getElem?_map, List.getElem?_map, List.getElem?_range ht, List.getElem?_range (by omega)]
    simp only [Option.map_some]
    congr 1
    obtain ⟨c, rfl⟩ := hq
    have h1 := periodic_add S q hS (c * (t / (q * c) + 1)) (L - q * c + t % (q * c))
    rw [← h1]
    congr 1
    have h2 := Nat.div_add_mod t (q * c)
    have : q * (c * (t / (q * c) + 1)) = q * c * (t / (q * c)) + q * c := by ring
    omega
  · rw [List.getElem?_eq_none (by omega), List.getElem?_eq_none (by simp; omega)]

example : gmStdTile (some 4) 6 ((List.range 9).map fun i => if i % 2 = 0 then 1 else -1) =
    .ok ((List.range 6).map fun t => if (9 + t) % 2 = 0 then 1 else -1) :=
  C143_continues 4 2 (by omega) ⟨2, rfl⟩ _ (fun i => by simp) 9 (by omega) 6

/-- C143 violated: for data of a few minutes `freq_to_period` fails and the period is 7, but the decomposition, which
is not told the period, uses 2; the seasonality of the steps begins with the wrong sign, whatever the length. -/
theorem C143_phase_violated (W : GmStdWorld) (cores : Nat) (a : GmStdArgs) (g : GmStd) (h : gmStdInit W cores a = .ok g)
    (hp : a.period = none) (hm : a.model.toLower = "stl" ∨ a.model.toLower = "seasonal_decompose")
    (f : Int) (e : Err) (hf : a.freq = some f) (he : W.freqToPeriod f = .error e)
    (S : Nat → Rat) (hS : ∀ i, S (i + 2) = S i) (h2 : ∀ i, S (i + 1) = - S i) (h0 : S 0 ≠ 0)
    (L : Nat) (hL : 7 ≤ L) (steps : Nat) (hs : 1 ≤ steps) :
    ∃ r, gmStdTile g.period steps ((List.range L).map S) = .ok r ∧ r[0]? = some (- S L) ∧ r[0]? ≠ some (S L) := by
  have hg : g.period = some 7 := ((C143_period W cores a g h).2.1 hp hm).2 (Or.inr ⟨f, e, hf, he⟩)
  obtain ⟨r, r1, _, r3⟩ := C143_tile 7 (by omega) ((List.range L).map S) (by simpa using hL) steps
  have hval : r[0]? = some (- S L) := by
    simp only [List.length_map, List.length_range] at r3
    rw [r3 0 (by omega), List.getElem?_map, List.getElem?_range (by omega)]
    simp only [Option.map_some, Nat.zero_mod, Nat.add_zero]
    congr 1
    obtain ⟨m, rfl⟩ : ∃ m, L = m + 7 := ⟨L - 7, by omega⟩
    have h3 := periodic_add S 2 hS 3 (m + 1)
    rw [show m + 1 + 2 * 3 = m + 7 by ring, h2 m] at h3
    rw [show m + 7 - 7 = m by omega, h3, neg_neg]
  have hne : ∀ i, S i ≠ 0 := by
    intro i
    induction i with
    | zero => exact h0
    | succ i ih => rw [h2]; exact neg_ne_zero.2 ih
  rw [hg]
  refine ⟨r, r1, hval, ?_⟩
  rw [hval]
  intro h
  injection h with h
  have := hne L
  apply this
  linarith

example : (gmStdInit gmStdExW 8 ⟨"additive", "stl", false, false, none, none, some 300⟩).toOption =
    some ⟨false, "stl", false, false, some 7, 3⟩ ∧ (fun i => if i % 2 = 0 then 1 else -1 : Nat → Rat) 0 ≠ 0 := by
  refine ⟨by decide +kernel, by norm_num⟩

/-! ## The series and the forecasts -/

/-- C143: what the global model is given: the trend, the series itself, or the series without its seasonality; always
at the times of the series. -/
theorem C143_series (g : GmStd) (trend : List (Option Rat)) (seasonal : List Rat) (t : Bool × GmTs)
    (ht : trend.length = t.2.length) (hs : seasonal.length = t.2.length) :
    (gmStdSeries g trend seasonal t).2.map (·.1) = t.2.map (·.1) ∧
    (g.fitTrend = true → (gmStdSeries g trend seasonal t).2.map (·.2) = trend) ∧
    (g.fitTrend = false → g.fitOriginal = true → gmStdSeries g trend seasonal t = t) ∧
    (g.fitTrend = false → g.fitOriginal = false → (gmStdSeries g trend seasonal t).1 = false ∧
      ∀ (i : Nat) r s, t.2[i]? = some r → seasonal[i]? = some s → ∃ v, (gmStdSeries g trend seasonal t).2[i]? = some (r.1, v) ∧
        (r.2 = none → v = none) ∧ ∀ x, r.2 = some x → ∃ y, v = some y ∧
          ((g.mult = true → s ≠ 0) → gmStdOn g.mult y s = x)) := by
  unfold gmStdSeries
  refine ⟨?_, ?_, ?_, ?_⟩
  · split
    · simp only [List.map_zipWith]
      apply List.ext_getElem
      · simp [ht]
      · intro i h1 h2
        simp
    · split
      · rfl
      · simp only [List.map_zipWith]
        apply List.ext_getElem
        · simp [hs]
        · intro i h1 h2
          simp
  · intro h
    rw [if_pos h]
    simp only [List.map_zipWith]
    apply List.ext_getElem
    · simp [ht]
    · intro i h1 h2
      simp
  · intro h1 h2
    rw [if_neg (by rw [h1]; decide), if_pos h2]
  · intro h1 h2
    rw [if_neg (by rw [h1]; decide), if_neg (by rw [h2]; decide)]
    refine ⟨rfl, ?_⟩
    intro i r s hr hs'
    refine ⟨gmStdOff g.mult r.2 s, ?_, ?_, ?_⟩
    · simp only [List.getElem?_zipWith, hr, hs']
    · intro h; rw [h]; rfl
    · intro x hx
      rw [hx]
      refine ⟨if g.mult then x / s else x - s, rfl, ?_⟩
      intro hne
      unfold gmStdOn
      by_cases hm : g.mult = true
      · rw [if_pos hm, if_pos hm, div_mul_cancel₀ _ (hne hm)]
      · rw [if_neg hm, if_neg hm, sub_add_cancel]

/-- C143: with Prophet the seasonality of the series and that of the next steps are the terms of Prophet, each with one added if the
decomposition is multiplicative. -/
theorem C143_prophet (W : GmStdWorld) (g : GmStd) (hg : g.model = "prophet") (steps : Nat) (ts : GmTs) (trend : List (Option Rat))
    (past : List Rat) (next : Nat → List Rat) (hp : W.prophet g.mult ts = .ok (trend, past, next)) :
    gmStdSeason W g steps ts = .ok (trend, past.map (fun x => if g.mult then 1 + x else x), .ok ((next steps).map fun x => if g.mult then 1 + x else x)) := by
  unfold gmStdSeason
  rw [if_pos hg, hp]
  show Except.ok _ = Except.ok _
  simp only [add_comm]

/-- C143: `predict` gives one frame for every series, in order: that which the global model gives for the prepared
series, with the seasonality of each step put on all its columns. -/
theorem C143_predict (W : GmStdWorld) (g : GmStd)
    (f : List (GmKey × Bool × GmTs) → Nat → Except Err (List (GmKey × GmTable Rat))) (data : GmColl) (steps : Nat)
    (hd : (data.entries.map (·.1)).Nodup) (T : GmKey → List (Option Rat) × List Rat × List Rat)
    (hT : ∀ e ∈ data.entries, gmStdSeason W g steps e.2.2 = .ok ((T e.1).1, (T e.1).2.1, .ok (T e.1).2.2))
    (hlen : ∀ e ∈ data.entries, (T e.1).2.2.length = steps) (fr : List (GmKey × GmTable Rat))
    (hf : f (data.entries.map fun e => (e.1, gmStdSeries g (T e.1).1 (T e.1).2.1 e.2)) steps = .ok fr)
    (hfd : (fr.map (·.1)).Nodup) (hfk : ∀ e ∈ data.entries, e.1 ∈ fr.map (·.1))
    (hfs : ∀ e ∈ fr, e.2.names ≠ [] ∧ e.2.rows.length = steps) :
    ∃ res, gmStdPredict W g (some f) data steps = .ok res ∧ res.map (·.1) = data.entries.map (·.1) ∧
      ∀ k t, (k, t) ∈ res → ∃ u, (k, u) ∈ fr ∧ t.names = u.names ∧ t.time = u.time ∧ t.rows.length = steps ∧
        ∀ i, i < steps → (t.rows.getD i []).length = (u.rows.getD i []).length ∧
          ∀ j, j < (u.rows.getD i []).length →
            (t.rows.getD i []).getD j 0 = gmStdOn g.mult ((u.rows.getD i []).getD j 0) ((T k).2.2.getD i 0) := by
  have hu : ∀ k, ∃ u, k ∈ data.entries.map (·.1) → (k, u) ∈ fr := by
    intro k
    by_cases h : k ∈ data.entries.map (·.1)
    · obtain ⟨e, he, rfl⟩ := List.mem_map.1 h
      obtain ⟨x, hx, hk⟩ := List.mem_map.1 (hfk e he)
      exact ⟨x.2, fun _ => by rw [← hk]; exact hx⟩
    · exact ⟨⟨[], [], []⟩, fun h' => absurd h' h⟩
  choose U hU using hu
  obtain ⟨V, hV⟩ : ∃ V : GmKey → GmTable Rat, V = fun k => ⟨(U k).names,
    List.zipWith (fun (r : List Rat) (x : Rat) => r.map fun v => gmStdOn g.mult v x) (U k).rows (T k).2.2, (U k).time⟩ := ⟨_, rfl⟩
  have hprep : data.entries.mapM (gmStdPrepare W g steps) =
      .ok (data.entries.map fun e => (e.1, gmStdSeries g (T e.1).1 (T e.1).2.1 e.2, (T e.1).2.2)) := by
    apply mapM_eq_map
    intro e he
    unfold gmStdPrepare
    rw [hT e he]
    rfl
  have hkeys : ((data.entries.map fun e => (e.1, gmStdSeries g (T e.1).1 (T e.1).2.1 e.2)).map (·.1)).Nodup := by
    rw [List.map_map]; exact hd
  have hres : gmStdPredict W g (some f) data steps = .ok (data.entries.map fun e => (e.1, V e.1)) := by
    unfold gmStdPredict
    simp only []
    rw [hprep]
    show (f (gmUpdate [] ((data.entries.map fun e => (e.1, gmStdSeries g (T e.1).1 (T e.1).2.1 e.2, (T e.1).2.2)).map
      fun e => (e.1, e.2.1))) steps >>= fun fcsts => _) = _
    have e1 : ((data.entries.map fun e => (e.1, gmStdSeries g (T e.1).1 (T e.1).2.1 e.2, (T e.1).2.2)).map
      fun e => (e.1, e.2.1)) = data.entries.map fun e => (e.1, gmStdSeries g (T e.1).1 (T e.1).2.1 e.2) := by
      rw [List.map_map]; rfl
    rw [e1, update_fresh _ [] (by simpa using hkeys), List.nil_append, hf]
    show ((data.entries.map fun e => (e.1, gmStdSeries g (T e.1).1 (T e.1).2.1 e.2, (T e.1).2.2)).mapM (fun e =>
      gmLookup fr e.1 >>= fun t => gmStdReseason g t e.2.2 >>= fun u => pure (e.1, u)) >>= fun res => _) = _
    rw [List.mapM_map, mapM_eq_map _ (fun e => (e.1, V e.1)) data.entries (by
      intro e he
      have hmem := hU e.1 (List.mem_map.2 ⟨e, he, rfl⟩)
      obtain ⟨s1, s2⟩ := hfs _ hmem
      simp only at s1 s2
      simp only [Function.comp_apply]
      rw [gm_lookup_of_mem fr hfd _ _ hmem]
      show (gmStdReseason g (U e.1) (T e.1).2.2 >>= fun u => pure (e.1, u)) = _
      unfold gmStdReseason
      rw [if_neg (by rw [List.isEmpty_iff]; exact s1), if_neg (by rw [hlen e he, s2]; simp), hV]
      rfl)]
    show Except.ok (gmUpdate [] (data.entries.map fun e => (e.1, V e.1))) = _
    rw [update_fresh _ [] (by simpa [List.map_map, Function.comp_def] using hd), List.nil_append]
  refine ⟨_, hres, by rw [List.map_map]; rfl, ?_⟩
  intro k t h
  obtain ⟨e, he, hek⟩ := List.mem_map.1 h
  injection hek with h1 h2
  subst h1 h2
  have hmem := hU e.1 (List.mem_map.2 ⟨e, he, rfl⟩)
  obtain ⟨s1, s2⟩ := hfs _ hmem
  simp only at s1 s2
  have hl := hlen e he
  refine ⟨U e.1, hmem, by rw [hV], by rw [hV], by rw [hV]; simp [s2, hl], ?_⟩
  intro i hi
  have hrow : (V e.1).rows.getD i [] = ((U e.1).rows.getD i []).map fun v => gmStdOn g.mult v ((T e.1).2.2.getD i 0) := by
    rw [hV]
    simp only []
    rw [gmp_getD _ i _ (by simp [s2, hl, hi]), gmp_getD _ i _ (by omega), gmp_getD _ i _ (by omega), List.getElem_zipWith]
  rw [hrow]
  refine ⟨by rw [List.length_map], ?_⟩
  intro j hj
  rw [gmp_getD _ j _ (by rw [List.length_map]; exact hj), List.getElem_map, gmp_getD _ j _ hj]

/-- C143: without a global model nothing is forecast. -/
theorem C143_no_model (W : GmStdWorld) (g : GmStd) (data : GmColl) (steps : Nat) :
    gmStdPredict W g none data steps = .error .valueError := rfl

/-- C143: series that are something times or plus a seasonality which the decomposition finds are forecast exactly
if the global model forecasts the rest exactly: with both kinds of decomposition, if the seasonality repeats after a
number of steps that divides the period and the period is not longer than the series. -/
theorem C143_exact (W : GmStdWorld) (g : GmStd) (hprophet : g.model ≠ "prophet") (hft : g.fitTrend = false)
    (hfo : g.fitOriginal = false) (P : Nat) (hP : 1 ≤ P) (hgp : g.period = some (P : Int))
    (f : List (GmKey × Bool × GmTs) → Nat → Except Err (List (GmKey × GmTable Rat))) (data : GmColl) (steps : Nat)
    (hd : (data.entries.map (·.1)).Nodup)
    (L : GmKey → Nat) (time : GmKey → Nat → Int) (B S : GmKey → Nat → Rat) (q : GmKey → Nat)
    (hL : ∀ e ∈ data.entries, P ≤ L e.1) (hq : ∀ e ∈ data.entries, q e.1 ∣ P ∧ ∀ i, S e.1 (i + q e.1) = S e.1 i)
    (hne : g.mult = true → ∀ k i, S k i ≠ 0)
    (hdata : ∀ e ∈ data.entries, e.2.2 = (List.range (L e.1)).map fun i => (time e.1 i, some (gmStdOn g.mult (B e.1 i) (S e.1 i))))
    (hdec : ∀ e ∈ data.entries, ∃ trend, W.decompose g.mult g.model e.2.2 = .ok (trend, (List.range (L e.1)).map (S e.1)))
    (fr : List (GmKey × GmTable Rat))
    (hf : f (data.entries.map fun e => (e.1, false, (List.range (L e.1)).map fun i => (time e.1 i, some (B e.1 i)))) steps = .ok fr)
    (hfd : (fr.map (·.1)).Nodup) (hfk : ∀ e ∈ data.entries, e.1 ∈ fr.map (·.1))
    (hfs : ∀ e ∈ fr, e.2.names ≠ [] ∧ e.2.rows.length = steps)
    (hexact : ∀ e ∈ fr, ∀ i, i < steps → ∀ v ∈ e.2.rows.getD i [], v = B e.1 (L e.1 + i)) :
    ∃ res, gmStdPredict W g (some f) data steps = .ok res ∧ res.map (·.1) = data.entries.map (·.1) ∧
      ∀ k t, (k, t) ∈ res → ∀ i, i < steps → ∀ v ∈ t.rows.getD i [],
        v = gmStdOn g.mult (B k (L k + i)) (S k (L k + i)) := by
  have htr : ∀ k, ∃ trend, ∀ e ∈ data.entries, e.1 = k →
      W.decompose g.mult g.model e.2.2 = .ok (trend, (List.range (L e.1)).map (S e.1)) := by
    intro k
    by_cases h : ∃ e ∈ data.entries, e.1 = k
    · obtain ⟨e, he, rfl⟩ := h
      obtain ⟨tr, htr⟩ := hdec e he
      refine ⟨tr, fun e' he' hk => ?_⟩
      have : e'.2 = e.2 := mem_unique data.entries hd e.1 _ _ (by rw [← hk]; exact he') he
      rw [this, hk]
      exact htr
    · exact ⟨[], fun e he hk => absurd ⟨e, he, hk⟩ h⟩
  choose TR hTR using htr
  obtain ⟨T, hT⟩ : ∃ T : GmKey → List (Option Rat) × List Rat × List Rat, T = fun k =>
    (TR k, (List.range (L k)).map (S k), (List.range steps).map fun t => S k (L k + t)) := ⟨_, rfl⟩
  obtain ⟨res, r1, r2, r3⟩ := C143_predict W g f data steps hd T (by
      intro e he
      unfold gmStdSeason
      rw [if_neg hprophet, hTR e.1 e he rfl]
      show Except.ok (TR e.1, (List.range (L e.1)).map (S e.1), gmStdTile g.period steps ((List.range (L e.1)).map (S e.1))) = _
      rw [hgp, C143_continues P (q e.1) hP (hq e he).1 (S e.1) (hq e he).2 (L e.1) (hL e he) steps, hT])
    (by intro e he; rw [hT]; simp) fr (by
      rw [← hf]
      congr 1
      apply List.map_congr_left
      intro e he
      unfold gmStdSeries
      rw [if_neg (by rw [hft]; decide), if_neg (by rw [hfo]; decide), hdata e he, hT]
      simp only [List.zipWith_map]
      congr 2
      have hz : ∀ l : List Nat, List.zipWith (fun x y => (time e.1 x, gmStdOff g.mult (some (gmStdOn g.mult (B e.1 x) (S e.1 x)))
          (S e.1 y))) l l = l.map fun i => (time e.1 i, some (B e.1 i)) := by
        intro l
        induction l with
        | nil => rfl
        | cons a l ih =>
          rw [List.zipWith_cons_cons, ih, List.map_cons]
          congr 2
          unfold gmStdOff gmStdOn
          simp only [Option.map_some]
          by_cases hm : g.mult = true
          · rw [if_pos hm, if_pos hm, mul_div_cancel_right₀ _ (hne hm _ _)]
          · rw [if_neg hm, if_neg hm, add_sub_cancel_right]
      exact hz _) hfd hfk hfs
  refine ⟨res, r1, r2, ?_⟩
  intro k t hkt i hi v hv
  obtain ⟨u, u1, _, _, _, u5⟩ := r3 k t hkt
  obtain ⟨u6, u7⟩ := u5 i hi
  obtain ⟨j, hj, rfl⟩ := List.getElem_of_mem hv
  have h1 := u7 j (by omega)
  rw [gmp_getD _ j _ hj, gmp_getD _ j _ (by omega)] at h1
  rw [h1, hexact _ u1 i hi _ (List.getElem_mem _), hT]
  simp only []
  rw [gmp_getD _ i _ (by simpa using hi), List.getElem_map, List.getElem_range]

/-- C143: a series without its seasonality can be used by a global model if it is long enough and has a value in its
last input window, also if it has an integer type. -/
theorem C143_series_ok (p : GmParams) (g : GmStd) (hft : g.fitTrend = false) (hfo : g.fitOriginal = false)
    (trend : List (Option Rat)) (seasonal : List Rat) (t : Bool × GmTs) (hs : seasonal.length = t.2.length)
    (hlong : p.seasonality ≤ t.2.length) (hv : ∃ r ∈ t.2.drop (t.2.length - p.inputWindow), r.2 ≠ none) :
    GmSeriesOk p (gmStdSeries g trend seasonal t) := by
  unfold gmStdSeries
  rw [if_neg (by rw [hft]; decide), if_neg (by rw [hfo]; decide)]
  have hlen : (List.zipWith (fun r s => (r.1, gmStdOff g.mult r.2 s)) t.2 seasonal).length = t.2.length := by
    simp [hs]
  refine ⟨rfl, by rw [hlen]; exact hlong, ?_⟩
  simp only []
  rw [hlen]
  obtain ⟨r, hr, hrv⟩ := hv
  obtain ⟨i, hi, rfl⟩ := List.getElem_of_mem hr
  rw [List.length_drop] at hi
  refine ⟨((List.zipWith (fun r s => (r.1, gmStdOff g.mult r.2 s)) t.2 seasonal).drop
    (t.2.length - p.inputWindow))[i]'(by rw [List.length_drop, hlen]; exact hi), List.getElem_mem _, ?_⟩
  rw [List.getElem_drop, List.getElem_zipWith]
  rw [List.getElem_drop] at hrv
  simp only [gmStdOff]
  rcases h : (t.2[t.2.length - p.inputWindow + i]).2 with _ | v
  · exact absurd h hrv
  · simp

/-- C143: with an ensemble of global models: every series that is long enough and has a value in its last input
window gets a frame with one row for every step, at the times after the series, and one column for every quantile;
its values are those of the ensemble for the series without its seasonality, with the seasonality put on. -/
theorem C143_ensemble (W : GmStdWorld) (g : GmStd) (hft : g.fitTrend = false) (hfo : g.fitOriginal = false)
    (hprophet : g.model ≠ "prophet") (P : Nat) (hP : 1 ≤ P) (hgp : g.period = some (P : Int))
    (fn : List Rat → Rat) (multi : Bool) (p : GmParams) (hp : GmPredOk p) (quantile : List String)
    (hq : quantile ≠ []) (steps : Nat) (hsteps : 1 ≤ steps) (models : List (GmRand × GmPredictor Rat))
    (hM : GmEnsOk p quantile (gmStepNum steps p.fcstWindow) models)
    (data : GmColl) (hne : data.entries ≠ []) (hd : (data.entries.map (·.1)).Nodup)
    (hplain : gmNpKeys (data.entries.map (·.1)) = data.entries.map (·.1))
    (T : GmKey → List (Option Rat) × List Rat)
    (hT : ∀ e ∈ data.entries, W.decompose g.mult g.model e.2.2 = .ok (T e.1) ∧ (T e.1).2.length = e.2.2.length ∧
      P ≤ e.2.2.length ∧ p.seasonality ≤ e.2.2.length ∧
      ∃ r ∈ e.2.2.drop (e.2.2.length - p.inputWindow), r.2 ≠ none) :
    ∃ fr res, gmEnsPredict fn multi p quantile models
        (data.entries.map fun e => (e.1, gmStdSeries g (T e.1).1 (T e.1).2 e.2)) steps 500 = .ok fr ∧
      gmStdPredict W g (some fun d n => gmEnsPredict fn multi p quantile models d n 500) data steps = .ok res ∧
      res.map (·.1) = data.entries.map (·.1) ∧
      ∀ k t, (k, t) ∈ res → ∃ u s b, (k, u) ∈ fr ∧ (k, s) ∈ data.entries ∧ s.2.getLast? = some b ∧
        t.names = quantile.map ("fcst_quantile_" ++ ·) ∧ t.rows.length = steps ∧ t.time.length = steps ∧
        (∀ i : Nat, i < steps → t.time[i]? = some (b.1 + ((i : Int) + 1) * p.freq)) ∧
        ∀ i j, i < steps → j < quantile.length →
          (t.rows.getD i []).getD j 0 = gmStdOn g.mult ((u.rows.getD i []).getD j 0)
            ((T k).2.getD ((T k).2.length - P + i % P) 0) := by
  have hprep : (data.entries.map fun e => (e.1, gmStdSeries g (T e.1).1 (T e.1).2 e.2)).map (·.1) =
      data.entries.map (·.1) := by rw [List.map_map]; rfl
  obtain ⟨fr, raw, f1, f2, f3, f4, f5, frames, f6, f7⟩ := C142_predict fn multi p hp quantile hq steps hsteps models hM
    (data.entries.map fun e => (e.1, gmStdSeries g (T e.1).1 (T e.1).2 e.2)) (by simpa using hne)
    (by rw [hprep]; exact hd) (by rw [hprep]; exact hplain) (by
      intro e he
      obtain ⟨x, hx, rfl⟩ := List.mem_map.1 he
      obtain ⟨_, t2, _, t4, t5⟩ := hT x hx
      exact C143_series_ok p g hft hfo _ _ _ t2 t4 t5) 500 (by norm_num)
  have htile : ∀ k, ∃ r : List Rat, ∀ e ∈ data.entries, e.1 = k → gmStdTile g.period steps (T k).2 = .ok r ∧
      r.length = steps ∧ ∀ i, i < steps → r[i]? = (T k).2[(T k).2.length - P + i % P]? := by
    intro k
    by_cases h : P ≤ (T k).2.length
    · obtain ⟨r, r1, r2, r3⟩ := C143_tile P hP (T k).2 h steps
      exact ⟨r, fun e he hk => ⟨by rw [hgp]; exact r1, r2, r3⟩⟩
    · refine ⟨[], fun e he hk => absurd ?_ h⟩
      obtain ⟨_, t2, t3, _⟩ := hT e he
      rw [← hk, t2]
      exact t3
  choose R hR using htile
  obtain ⟨res, r1, r2, r3⟩ := C143_predict W g (fun d n => gmEnsPredict fn multi p quantile models d n 500) data steps hd
    (fun k => ((T k).1, (T k).2, R k)) (by
      intro e he
      unfold gmStdSeason
      rw [if_neg hprophet, (hT e he).1]
      show Except.ok ((T e.1).1, (T e.1).2, gmStdTile g.period steps (T e.1).2) = _
      rw [(hR e.1 e he rfl).1])
    (fun e he => (hR e.1 e he rfl).2.1) fr f1 (by rw [f3, hprep]; exact hd)
    (by intro e he; rw [f3, hprep]; exact List.mem_map.2 ⟨e, he, rfl⟩) (by
      intro e he
      obtain ⟨s, b, w, ts, _, _, _, _, n1, n2, _⟩ := f7 e.1 e.2 he
      exact ⟨by rw [n1]; simpa using hq, n2⟩)
  refine ⟨fr, res, f1, r1, r2, ?_⟩
  intro k t hkt
  obtain ⟨u, u1, u2, u3, u4, u5⟩ := r3 k t hkt
  obtain ⟨s, b, w, ts, v1, v2, v3, v4, v5, v6, v7, v8, v9, v10, v11⟩ := f7 k u u1
  obtain ⟨e, he, hek⟩ := List.mem_map.1 v1
  injection hek with h1 h2
  subst h1
  obtain ⟨_, t2, _, _, _⟩ := hT e he
  have htimes : (gmStdSeries g (T e.1).1 (T e.1).2 e.2).2.map (·.1) = e.2.2.map (·.1) := by
    unfold gmStdSeries
    rw [if_neg (by rw [hft]; decide), if_neg (by rw [hfo]; decide)]
    simp only [List.map_zipWith]
    apply List.ext_getElem
    · simp [t2]
    · intro i h1 h2
      simp
  rw [← h2] at v2
  have hlast : (e.2.2.map (·.1)).getLast? = some b.1 := by rw [← htimes, List.getLast?_map, v2]; rfl
  rw [List.getLast?_map] at hlast
  rcases hb : e.2.2.getLast? with _ | b'
  · rw [hb] at hlast; cases hlast
  · rw [hb] at hlast
    injection hlast with hlast
    refine ⟨u, e.2, b', u1, he, hb, by rw [u2, v5], u4, by rw [u3, v7], ?_, ?_⟩
    · intro i hi
      rw [u3, v9 i hi, ← hlast]
    · intro i j hi hj
      have hlen : (u.rows.getD i []).length = quantile.length := by
        apply v8
        rw [gmp_getD _ i _ (by omega)]
        exact List.getElem_mem _
      rw [(u5 i hi).2 j (by omega)]
      congr 1
      simp only [List.getD_eq_getElem?_getD]
      rw [(hR e.1 e he rfl).2.2 i hi]

/-- C143: an additive seasonality keeps the order of the quantiles, and so does a multiplicative one that is not
negative. -/
theorem C143_quantiles_partial (g : GmStd) (u t : GmTable Rat) (s : List Rat) (h : gmStdReseason g u s = .ok t)
    (hs : g.mult = true → ∀ x ∈ s, 0 ≤ x) (i j j' : Nat) (hi : i < t.rows.length)
    (hj : j < (u.rows.getD i []).length) (hj' : j' < (u.rows.getD i []).length)
    (hle : (u.rows.getD i []).getD j 0 ≤ (u.rows.getD i []).getD j' 0) :
    (t.rows.getD i []).getD j 0 ≤ (t.rows.getD i []).getD j' 0 := by
  have key : ∃ x ∈ s, t.rows.getD i [] = (u.rows.getD i []).map fun v => gmStdOn g.mult v x := by
    unfold gmStdReseason at h
    split at h
    · cases h
    · split at h
      · split at h
        · injection h with h
          subst h
          simp only [List.length_map] at hi
          refine ⟨_, List.mem_singleton.2 rfl, ?_⟩
          simp only []
          rw [gmp_getD _ i _ (by simpa using hi), gmp_getD _ i _ hi, List.getElem_map]
        · cases h
      · rename_i h1
        injection h with h
        subst h
        simp only [List.length_zipWith] at hi
        refine ⟨s[i]'(by omega), List.getElem_mem _, ?_⟩
        simp only []
        rw [gmp_getD _ i _ (by simpa using hi), gmp_getD _ i _ (by omega), List.getElem_zipWith]
  obtain ⟨x, hx, hrow⟩ := key
  rw [hrow, gmp_getD _ j _ (by simpa using hj), gmp_getD _ j' _ (by simpa using hj'), List.getElem_map, List.getElem_map]
  rw [gmp_getD _ j _ hj, gmp_getD _ j' _ hj'] at hle
  unfold gmStdOn
  by_cases hm : g.mult = true
  · rw [if_pos hm, if_pos hm]
    exact mul_le_mul_of_nonneg_right hle (hs hm _ hx)
  · rw [if_neg hm, if_neg hm]
    linarith

/-- C143 violated: a multiplicative seasonality below zero turns the order of the quantiles around. -/
theorem C143_quantiles_violated (g : GmStd) (hm : g.mult = true) (a b s : Rat) (hab : a < b) (hs : s < 0) :
    ∃ t, gmStdReseason g ⟨["fcst_quantile_0.5", "fcst_quantile_0.9"], [[a, b]], [0]⟩ [s] = .ok t ∧
      (t.rows.getD 0 []).getD 1 0 < (t.rows.getD 0 []).getD 0 0 := by
  refine ⟨_, rfl, ?_⟩
  show gmStdOn g.mult b s < gmStdOn g.mult a s
  unfold gmStdOn
  rw [if_pos hm, if_pos hm]
  nlinarith

/-- C143 violated: with `fit_original` the global model forecasts the series itself, but the seasonality is still put
on its forecasts: where the global model is right, the result is wrong by the whole seasonality. -/
theorem C143_original_violated (W : GmStdWorld) (g : GmStd) (hft : g.fitTrend = false) (hfo : g.fitOriginal = true)
    (hadd : g.mult = false)
    (f : List (GmKey × Bool × GmTs) → Nat → Except Err (List (GmKey × GmTable Rat))) (data : GmColl) (steps : Nat)
    (hd : (data.entries.map (·.1)).Nodup) (T : GmKey → List (Option Rat) × List Rat × List Rat)
    (hT : ∀ e ∈ data.entries, gmStdSeason W g steps e.2.2 = .ok ((T e.1).1, (T e.1).2.1, .ok (T e.1).2.2))
    (hlen : ∀ e ∈ data.entries, (T e.1).2.2.length = steps) (fr : List (GmKey × GmTable Rat))
    (hf : f data.entries steps = .ok fr)
    (hfd : (fr.map (·.1)).Nodup) (hfk : ∀ e ∈ data.entries, e.1 ∈ fr.map (·.1))
    (hfs : ∀ e ∈ fr, e.2.names ≠ [] ∧ e.2.rows.length = steps) (future : GmKey → Nat → Rat)
    (hexact : ∀ e ∈ fr, ∀ i, i < steps → ∀ v ∈ e.2.rows.getD i [], v = future e.1 i) :
    ∃ res, gmStdPredict W g (some f) data steps = .ok res ∧
      ∀ k t, (k, t) ∈ res → ∀ i, i < steps → ∀ v ∈ t.rows.getD i [], v = future k i + (T k).2.2.getD i 0 := by
  obtain ⟨res, r1, _, r3⟩ := C143_predict W g f data steps hd T hT hlen fr (by
    rw [← hf]
    congr 1
    conv_rhs => rw [← List.map_id data.entries]
    apply List.map_congr_left
    intro e he
    unfold gmStdSeries
    rw [if_neg (by rw [hft]; decide), if_pos hfo]
    rfl) hfd hfk hfs
  refine ⟨res, r1, ?_⟩
  intro k t hkt i hi v hv
  obtain ⟨u, u1, _, _, _, u5⟩ := r3 k t hkt
  obtain ⟨u6, u7⟩ := u5 i hi
  obtain ⟨j, hj, rfl⟩ := List.getElem_of_mem hv
  have h1 := u7 j (by omega)
  rw [gmp_getD _ j _ hj, gmp_getD _ j _ (by omega)] at h1
  rw [h1, hexact _ u1 i hi _ (List.getElem_mem _)]
  unfold gmStdOn
  rw [if_neg (by rw [hadd]; decide)]

/-- C143 violated: with a series shorter than the period the seasonality may have fewer steps than are asked for, and
`predict` fails, unless it has just one, which is then used for every step. -/
theorem C143_short_violated (P : Nat) (hP : 1 ≤ P) (s : List Rat) (hs : s.length < P) (steps : Nat)
    (h : (1 + steps / P) * s.length < steps) (g : GmStd) (t : GmTable Rat) (hn : t.names ≠ [])
    (ht : t.rows.length = steps) :
    ∃ r, gmStdTile (some (P : Int)) steps s = .ok r ∧
      ((1 + steps / P) * s.length ≠ 1 → gmStdReseason g t r = .error .valueError) ∧
      (∀ x, s = [x] → steps < P → gmStdReseason g t r =
        .ok { t with rows := t.rows.map fun row => row.map fun v => gmStdOn g.mult v x }) := by
  obtain ⟨r, hr⟩ : ∃ r, r = ((List.replicate (1 + steps / P) (s.drop (s.length - P))).flatten).take steps := ⟨_, rfl⟩
  have hl : r.length = (1 + steps / P) * s.length := by
    rw [hr, List.length_take, List.length_flatten, List.map_replicate, List.sum_replicate, List.length_drop,
      show s.length - P = 0 by omega, Nat.sub_zero, smul_eq_mul]
    omega
  refine ⟨r, by rw [hr]; exact std_tile P hP steps s, ?_, ?_⟩
  · intro h1
    unfold gmStdReseason
    rw [if_neg (by rw [List.isEmpty_iff]; exact hn), if_pos (by omega)]
    rcases r with _ | ⟨x, _ | ⟨y, r⟩⟩
    · rfl
    · rw [← hl] at h1
      exact absurd rfl h1
    · rfl
  · intro x hx hP'
    have hr1 : r = [x] := by
      rw [hr, hx, Nat.div_eq_of_lt hP']
      have : 1 ≤ steps := by omega
      have e : [x].length - P = 0 := by simp; omega
      rw [e]
      obtain ⟨n, rfl⟩ : ∃ n, steps = n + 1 := ⟨steps - 1, by omega⟩
      simp
    rw [hr1] at hl ⊢
    unfold gmStdReseason
    rw [if_neg (by rw [List.isEmpty_iff]; exact hn), if_pos (by rw [hl]; omega)]

example : (1 + 5 / 7) * [1, 2, (3 : Rat)].length < 5 := by decide

/-! ## Examples -/

/-- A global model that forecasts ten. -/
def gmStdTen (d : List (GmKey × Bool × GmTs)) (steps : Nat) : Except Err (List (GmKey × GmTable Rat)) :=
  .ok (d.map fun e => (e.1, ⟨["fcst_quantile_0.5"], List.replicate steps [10], List.replicate steps 0⟩))

/-- Ten plus and minus one, nine times: the next is nine. -/
example : (gmStdPredict gmStdExW ⟨false, "stl", false, false, some 4, 1⟩ (some gmStdTen)
    (.list [(true, (List.range 9).map fun i : Nat => ((i : Int), some (if i % 2 = 0 then 11 else 9)))]) 3).toOption.map
      (fun r => r.map fun e => (e.1, e.2.rows)) = some [(.int 0, [[9], [11], [9]])] := by decide +kernel

/-- The ensemble of C142 on the series of lengths nine and five. -/
example : ∃ fr res, gmEnsPredict (gmEnsFunc "median") true gmPredP ["0.5", "0.9"] gmEnsXY
      (gmEnsD.map fun e => (e.1, gmStdSeries ⟨false, "stl", false, false, some 4, 1⟩ (e.2.2.map fun _ => some 10)
        ((List.range e.2.2.length).map fun i => if i % 2 = 0 then 1 else -1) e.2)) 5 500 = .ok fr ∧
    gmStdPredict gmStdExW ⟨false, "stl", false, false, some 4, 1⟩ (some fun d n =>
      gmEnsPredict (gmEnsFunc "median") true gmPredP ["0.5", "0.9"] gmEnsXY d n 500) (.dict gmEnsD) 5 = .ok res ∧
    res.map (·.1) = [.str "a", .str "b"] := by
  obtain ⟨fr, res, h1, h2, h3, _⟩ := C143_ensemble gmStdExW ⟨false, "stl", false, false, some 4, 1⟩ rfl rfl (by decide) 4
    (by omega) rfl (gmEnsFunc "median") true gmPredP gmPredP_ok ["0.5", "0.9"] (by simp) 5 (by omega) gmEnsXY
    (gmEnsXY_ok _ (by decide)) (.dict gmEnsD) (by simp [GmColl.entries, gmEnsD]) (by decide) (by decide)
    (fun k => if k = .str "a" then ((gmPredTs 9).2.map fun _ => some 10,
        (List.range (gmPredTs 9).2.length).map fun i => if i % 2 = 0 then 1 else -1)
      else ((gmPredTs 5).2.map fun _ => some 10,
        (List.range (gmPredTs 5).2.length).map fun i => if i % 2 = 0 then 1 else -1)) (by
      intro e he
      have hv := (gmEnsD_ok e he).value
      have he' : e = (.str "a", gmPredTs 9) ∨ e = (.str "b", gmPredTs 5) := by
        simpa [GmColl.entries, gmEnsD] using he
      rcases he' with rfl | rfl
      · exact ⟨rfl, by decide +kernel, by decide +kernel, by decide +kernel, hv⟩
      · exact ⟨rfl, by decide +kernel, by decide +kernel, by decide +kernel, hv⟩)
  exact ⟨fr, res, h1, h2, h3⟩

/-- The same with `fit_original`, where the model is right with nine, eleven and nine. -/
example : (gmStdPredict gmStdExW ⟨false, "stl", false, true, some 4, 1⟩
    (some fun d _ => .ok (d.map fun e => (e.1, ⟨["fcst_quantile_0.5"], [[9], [11], [9]], [0, 1, 2]⟩)))
    (.list [(false, (List.range 9).map fun i : Nat => ((i : Int), some (if i % 2 = 0 then 11 else 9)))]) 3).toOption.map
      (fun r => r.map fun e => (e.1, e.2.rows)) = some [(.int 0, [[8], [12], [8]])] := by decide +kernel

end Kats

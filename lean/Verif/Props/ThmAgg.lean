import Verif.Props.ThmMore

/-!
# Times, aggregation, validation and residuals of hierarchical models (C83-C86)
-/

namespace Kats
namespace THM

/-! ## C83: aggregation and times -/

theorem pyFrom_neg {α : Type} (l : List α) (m : Nat) (h0 : 0 < m) (h : m ≤ l.length) :
    pyFrom l (-(m : Int)) = l.drop (l.length - m) := by
  unfold pyFrom pyIdx
  rw [if_pos (by omega)]
  congr 1
  omega

/-- C83 (domain): a level can be aggregated if and only if it is 1 or the series has at least that
many rows. -/
theorem C83_domain (ts : List (Int × Val)) (k : Nat) :
    (∃ r, aggSingle ts k = .ok r) ↔ k = 1 ∨ k ≤ ts.length := by
  unfold aggSingle
  by_cases h1 : k = 1
  · simp [h1]
  · rw [if_neg h1]
    by_cases h2 : ts.length < k
    · rw [if_pos h2]
      simp only [reduceCtorEq, exists_false, false_iff, not_or]
      omega
    · rw [if_neg h2]
      simp only [Except.ok.injEq, exists_eq', true_iff]
      omega

example : (∃ r, aggSingle [(0, some 1), (1, some 2)] 2 = .ok r)
    ∧ ¬ ∃ r, aggSingle [(0, some 1), (1, some 2)] 3 = .ok r :=
  ⟨(C83_domain _ _).2 (Or.inr (by simp)), fun h => by simpa using (C83_domain _ _).1 h⟩

/-- C83 (aggregation): level `k` of a series of `n` rows has `n / k` rows; counted from the end, row `q`
carries the time of the last of its `k` rows and the sum of their values, so the incomplete block is
the oldest one and the last aggregated time is the last time of the series. -/
theorem C83_aggregate (ts : List (Int × Val)) (k : Nat) (hk : 1 ≤ k) (r : List (Int × Val))
    (h : aggSingle ts k = .ok r) :
    r.length = ts.length / k
    ∧ ∀ q, q < ts.length / k → ∃ τ v, ts[ts.length - 1 - q * k]? = some (τ, v)
      ∧ r[ts.length / k - 1 - q]? = some (τ, vsum ((List.range k).map fun a =>
          (ts.getD (ts.length - (q + 1) * k + a) (0, none)).2)) := by
  unfold aggSingle at h
  by_cases h1 : k = 1
  · subst h1
    rw [if_pos rfl] at h
    obtain rfl := Except.ok.inj h
    rw [Nat.div_one]
    refine ⟨rfl, fun q hq => ?_⟩
    have hlt : ts.length - 1 - q < ts.length := by omega
    refine ⟨ts[ts.length - 1 - q].1, ts[ts.length - 1 - q].2, ?_, ?_⟩
    · rw [Nat.mul_one, List.getElem?_eq_getElem hlt]
    · rw [List.getElem?_eq_getElem hlt]
      have : ts.length - (q + 1) * 1 + 0 = ts.length - 1 - q := by omega
      rw [List.range_one, List.map_singleton, this, List.getD_eq_getElem?_getD, List.getElem?_eq_getElem hlt]
      simp only [Option.getD_some]
      congr 1
      cases h : ts[ts.length - 1 - q].2 with
      | none => rw [Prod.ext_iff]; exact ⟨rfl, h⟩
      | some x =>
        rw [Prod.ext_iff]
        refine ⟨rfl, ?_⟩
        rw [h]
        simp [vsum, vadd]
  · rw [if_neg h1] at h
    split_ifs at h with h2
    obtain rfl := Except.ok.inj h
    set n := ts.length with hn
    have hm : n / k * k ≤ n := Nat.div_mul_le_self _ _
    have hq1 : 1 ≤ n / k := (Nat.one_le_div_iff (by omega)).2 (by omega)
    have hmk : k ≤ n / k * k := Nat.le_mul_of_pos_left _ hq1
    have hl : (ts.map (·.2)).length = n := by simp [hn]
    have hd : pyFrom (ts.map (·.2)) (-((n / k * k : Nat) : Int)) = (ts.map (·.2)).drop (n - n / k * k) := by
      rw [pyFrom_neg _ _ (by omega) (by rw [hl]; exact hm), hl]
    rw [hd]
    have hdl : ((ts.map (·.2)).drop (n - n / k * k)).length = n / k * k := by
      rw [List.length_drop, hl]; omega
    have hbl : (blockSums ((ts.map (·.2)).drop (n - n / k * k)) k)
        = (List.range (n / k)).map fun j => vsum (blockAt ((ts.map (·.2)).drop (n - n / k * k)) k j) := by
      unfold blockSums
      rw [hdl, Nat.mul_div_cancel _ (by omega)]
    rw [hbl]
    refine ⟨by simp, fun q hq => ?_⟩
    have hqk : (q + 1) * k ≤ n / k * k := Nat.mul_le_mul_right _ hq
    have hqk' : (q + 1) * k = q * k + k := by ring
    have hlt : n - 1 - q * k < ts.length := by omega
    refine ⟨ts[n - 1 - q * k].1, ts[n - 1 - q * k].2, List.getElem?_eq_getElem hlt, ?_⟩
    rw [List.getElem?_zip_eq_some]
    have hj : n / k - 1 - q < n / k := by omega
    have hjk : (n / k - 1 - q) * k + (q + 1) * k = n / k * k := by
      rw [← Nat.add_mul]; congr 1; omega
    constructor
    · rw [List.getElem?_map, List.getElem?_range hj, Option.map_some]
      congr 1
      rw [List.getD_eq_getElem?_getD, List.getElem?_map]
      have : n - n / k * k + k - 1 + (n / k - 1 - q) * k = n - 1 - q * k := by omega
      rw [this, List.getElem?_eq_getElem hlt]
      rfl
    · rw [List.getElem?_map, List.getElem?_range hj, Option.map_some]
      congr 2
      rw [blockAt_eq _ _ _ none (by rw [hdl]; omega)]
      apply List.map_congr_left
      intro a ha
      rw [List.mem_range] at ha
      rw [List.getD_eq_getElem?_getD, List.getElem?_drop, List.getElem?_map]
      have : n - n / k * k + ((n / k - 1 - q) * k + a) = n - (q + 1) * k + a := by omega
      rw [this, List.getD_eq_getElem?_getD]
      have hlt2 : n - (q + 1) * k + a < ts.length := by omega
      rw [List.getElem?_eq_getElem hlt2]
      rfl

example : aggSingle [(0, some 9), (1, some 1), (2, some 2), (3, some 3), (4, some 4)] 2
    = .ok [(2, some 3), (4, some 7)] := by decide +kernel

/-- C83 (times, partial: only if the frequency is a time difference): row `j` of level `k` is stamped
`k * (j + 1)` frequencies after the last time; it is the time of the last of the `k` level-1 rows that
it is the sum of. -/
theorem C83_times_partial (L : LinSolve) (sqrt : Rat → Rat) (t : THM) (hw : WF t) (inferred : Except Err Int)
    (last : Int) (steps : Nat) (meth : Recon) (fr : FreqArg) (d : Int)
    (hfr : fr = .delta d ∨ (fr = .infer ∧ inferred = .ok d)) (lv : Option (List Nat))
    (res : List (Nat × List (Int × Val))) (h : t.predict L sqrt inferred last steps meth fr lv = .ok res) :
    res.map (·.1) = lv.getD t.levels
    ∧ ∀ k rows, (k, rows) ∈ res → rows.length = steps / k
      ∧ (∀ j, j < steps / k → ∃ v, rows[j]? = some (last + d * k * (j + 1), v))
      ∧ ∀ rows1, (1, rows1) ∈ res → ∀ j, j < steps / k →
        ∃ τ v v1, rows[j]? = some (τ, v) ∧ rows1[(j + 1) * k - 1]? = some (τ, v1)
          ∧ v = vsum ((List.range k).map fun i => (rows1.getD (j * k + i) (0, none)).2) := by
  have h' : ((t.predict_ L sqrt steps meth lv).bind fun p => .ok (p.fcst.map fun e =>
      (e.1, (List.range e.2.length).zipWith (fun (i : Nat) v => (last + d * e.1 * (i + 1), v)) e.2))) = .ok res := by
    rcases hfr with rfl | ⟨rfl, rfl⟩ <;> exact h
  clear h
  rename' h' => h
  cases hp : t.predict_ L sqrt steps meth lv with
  | error e => rw [hp] at h; cases h
  | ok p =>
    rw [hp] at h
    have h := Except.ok.inj h
    obtain ⟨c1, y, c2, c3⟩ := C46_coherent L sqrt t hw steps meth lv p hp
    have stamp : ∀ (k : Nat) (l : List Val) (j : Nat),
        ((List.range l.length).zipWith (fun (i : Nat) v => (last + d * k * (i + 1), v)) l)[j]?
          = l[j]?.map fun v => (last + d * k * (j + 1), v) := by
      intro k l j
      rw [List.getElem?_zipWith]
      by_cases hj : j < l.length
      · rw [List.getElem?_range hj, List.getElem?_eq_getElem hj]; rfl
      · rw [List.getElem?_eq_none (by simpa using hj), List.getElem?_eq_none (by omega)]; rfl
    refine ⟨by rw [← h, ← c1, List.map_map]; rfl, ?_⟩
    intro k rows hr
    rw [← h] at hr
    obtain ⟨⟨k', l⟩, hl, e⟩ := List.mem_map.1 hr
    obtain ⟨rfl, rfl⟩ := Prod.mk.inj e
    obtain ⟨a1, a2, a3, -⟩ := c3 k' l hl
    dsimp only at *
    refine ⟨by simp [a2], ?_, ?_⟩
    · intro j hj
      rw [stamp, a3 j hj]
      exact ⟨_, rfl⟩
    · intro rows1 hr1 j hj
      rw [← h] at hr1
      obtain ⟨⟨k1, l1⟩, hl1, e⟩ := List.mem_map.1 hr1
      obtain ⟨rfl, rfl⟩ := Prod.mk.inj e
      obtain ⟨b1, b2, b3, b4⟩ := c3 1 l1 hl1
      have e1 := b4 rfl
      subst e1
      have hjk : (j + 1) * k' ≤ steps := le_trans (Nat.mul_le_mul_right _ hj) (Nat.div_mul_le_self _ _)
      have hlt : (j + 1) * k' - 1 < l1.length := by
        have : 1 ≤ (j + 1) * k' := Nat.mul_pos (by omega) a1
        omega
      refine ⟨last + d * k' * (j + 1), vsum ((List.range k').map fun i => l1.getD (j * k' + i) none),
        l1[(j + 1) * k' - 1], ?_, ?_, ?_⟩
      · rw [stamp, a3 j hj]; rfl
      · dsimp only
        rw [stamp, List.getElem?_eq_getElem hlt, Option.map_some]
        congr 2
        have : (((j + 1) * k' - 1 : Nat) : Int) + 1 = (j + 1) * k' := by
          have : 1 ≤ (j + 1) * k' := Nat.mul_pos (by omega) a1
          rw [Nat.cast_sub this]
          push_cast
          ring
        rw [this]
        push_cast
        ring
      · congr 1
        apply List.map_congr_left
        intro i hi
        rw [List.mem_range] at hi
        have hjk' : (j + 1) * k' = j * k' + k' := by ring
        have hlt2 : j * k' + i < l1.length := by omega
        dsimp only
        rw [List.getD_eq_getElem?_getD, List.getD_eq_getElem?_getD, stamp, List.getElem?_eq_getElem hlt2]
        rfl

/-- C83 (violated): a frequency string, which the signature admits, always ends in a TypeError. -/
theorem C83_times_violated (L : LinSolve) (sqrt : Rat → Rat) (inferred : Except Err Int) (last : Int) :
    (two [3] [1, 2]).predict L sqrt inferred last 2 .bu .str none = .error .typeError
    ∧ (two [3] [1, 2]).predict L sqrt inferred last 2 .bu (.delta 10) none
      = .ok [(2, [(last + 10 * (2 : Nat) * ((0 : Nat) + 1), some 3)]),
        (1, [(last + 10 * (1 : Nat) * ((0 : Nat) + 1), some 1), (last + 10 * (1 : Nat) * ((1 : Nat) + 1), some 2)])] := by
  refine ⟨by cases inferred <;> rfl, ?_⟩
  have : ∃ p, (two [3] [1, 2]).predict_ L sqrt 2 .bu none = .ok p
      ∧ p.fcst = [(2, [some 3]), (1, [some 1, some 2])] := ⟨_, rfl, by decide +kernel⟩
  obtain ⟨p, h1, h2⟩ := this
  unfold predict
  simp only [bind, Except.bind]
  rw [h1]
  dsimp only
  rw [h2]
  simp [List.range_succ]

/-! ## C84: levels that look bad -/

theorem filter_half (l : List (Nat × Rat)) (m up : Rat) (hup : m < up) :
    ((l.filter fun d => decide (up ≤ d.2)).length + (l.map (·.2)).countP fun x => decide (x ≤ m)) ≤ l.length := by
  induction l with
  | nil => simp
  | cons x l ih =>
    rw [List.filter_cons, List.map_cons, List.countP_cons]
    by_cases h1 : up ≤ x.2
    · rw [if_pos (by simpa using h1), if_neg (by simp; linarith)]
      simp only [List.length_cons]
      omega
    · rw [if_neg (by simpa using h1)]
      simp only [List.length_cons]
      split_ifs <;> omega

/-- C84 (partial: for a positive margin): `median_validation` returns levels of the hierarchy whose
distance is at least the margin above the median distance, and at most half of the levels. -/
theorem C84_validation_partial (L : LinSolve) (sqrt : Rat → Rat) (t : THM) (hw : WF t)
    (dist : Nat → List Val → List Rat → Rat) (spread : List Rat → Rat) (steps : Nat) (threshold : Rat)
    (bad : List Nat) (h : t.medianValidation L sqrt dist spread steps threshold = .ok bad)
    (hpos : ∀ v, 0 < spread v * threshold) :
    (∀ k ∈ bad, k ∈ t.levels) ∧ bad.Nodup ∧ 2 * bad.length ≤ t.levels.length := by
  unfold medianValidation at h
  cases hp : t.predict_ L sqrt steps .median none with
  | error e => rw [hp] at h; cases h
  | ok p =>
    rw [hp] at h
    obtain rfl := Except.ok.inj h
    set diffs := t.levels.map fun k => (k, dist k ((p.fcst.lookup k).getD []) (at_ p.origin k)) with hd
    have hm : diffs.map (·.1) = t.levels := by
      rw [hd, List.map_map]; simp [Function.comp_def]
    refine ⟨?_, ?_, ?_⟩
    · intro k hk
      obtain ⟨d, h1, rfl⟩ := List.mem_map.1 hk
      rw [← hm]
      exact List.mem_map_of_mem (List.mem_of_mem_filter h1)
    · have : (diffs.map (·.1)).Nodup := by rw [hm]; exact hw.nodup
      exact this.sublist (List.Sublist.map _ List.filter_sublist)
    · have hne : diffs.map (·.2) ≠ [] := by
        obtain ⟨ls, e, -⟩ := hw.last
        rw [hd, e]; simp
      have h1 := (medianQ_halves hne).1
      have h2 := filter_half diffs (medianQ (diffs.map (·.2)))
        (medianQ (diffs.map (·.2)) + spread (diffs.map (·.2)) * threshold) (by linarith [hpos (diffs.map (·.2))])
      rw [List.length_map] at h1 ⊢
      have h3 : diffs.length = t.levels.length := by rw [hd, List.length_map]
      omega

/-- The mean absolute error divided by the level. -/
def maeDist (k : Nat) (f : List Val) (o : List Rat) : Rat :=
  (List.zipWith (fun a b => |a.getD 0 - b|) f o).sum / o.length / k

/-- C84 (violated): for forecasts that agree perfectly at all levels the distances and their spread are
0, and every level is reported as bad, whatever the threshold; a level is also reported when its
distance equals the bound. -/
theorem C84_validation_violated (L : LinSolve) (sqrt : Rat → Rat) (spread : List Rat → Rat)
    (h : spread [0, 0] = 0) (threshold : Rat) :
    (two [2] [1, 1]).medianValidation L sqrt maeDist spread 2 threshold = .ok [2, 1] := by
  have hp : ∃ p, (two [2] [1, 1]).predict_ L sqrt 2 .median none = .ok p
      ∧ maeDist 2 ((p.fcst.lookup 2).getD []) (at_ p.origin 2) = 0
      ∧ maeDist 1 ((p.fcst.lookup 1).getD []) (at_ p.origin 1) = 0 :=
    ⟨_, rfl, by decide +kernel, by decide +kernel⟩
  obtain ⟨p, h1, h2, h3⟩ := hp
  unfold medianValidation
  simp only [bind, Except.bind]
  rw [h1]
  dsimp only
  change Except.ok (List.map _ (List.filter _ [(2, maeDist 2 ((p.fcst.lookup 2).getD []) (at_ p.origin 2)),
    (1, maeDist 1 ((p.fcst.lookup 1).getD []) (at_ p.origin 1))])) = _
  have e : List.map (fun x : Nat × Rat => x.2)
      (List.map (fun k => (k, maeDist k ((p.fcst.lookup k).getD []) (at_ p.origin k))) (two [2] [1, 1]).levels) = [0, 0] := by
    change [maeDist 2 _ _, maeDist 1 _ _] = _
    rw [h2, h3]
  rw [e, h2, h3, h]
  have : medianQ [0, 0] = 0 := by decide +kernel
  rw [this]
  simp

/-! ## C85: residuals -/

/-- C85 (alignment): the residual matrix has one row for each level and position and one column for
each of the last `h` periods, `h` being the largest number of periods that every level covers; column
`c` holds the residuals of the same period, counted from the end, at every level. -/
theorem C85_aligned (t : THM) (hw : WF t) (R : List (List Val)) (h : t.resMatrix = .ok R) :
    R.length = t.rowIdx.length
    ∧ ∃ H, 0 < H ∧ (∀ k ∈ t.levels, H * (t.m / k) ≤ (t.resid k).length)
      ∧ (∃ k ∈ t.levels, (t.resid k).length < (H + 1) * (t.m / k))
      ∧ ∀ r k i : Nat, t.rowIdx[r]? = some (k, i) → ∃ row : List Val, R[r]? = some row ∧ row.length = H
        ∧ ∀ c, c < H → row[c]? = (t.resid k)[(t.resid k).length - (H - c) * (t.m / k) + i]? := by
  unfold resMatrix at h
  dsimp only at h
  set hs := t.levels.map fun k => (t.resid k).length / t.freq k with hhs
  set H := hs.foldl min (hs.headD 0) with hH
  have one_mem : 1 ∈ t.levels := by
    obtain ⟨ls, e, -⟩ := hw.last
    rw [e]; simp
  have hmin : (∀ x ∈ hs, H ≤ x) ∧ H ∈ hs := by
    have gen : ∀ (l : List Nat) (a : Nat), (∀ x ∈ l, l.foldl min a ≤ x) ∧ l.foldl min a ≤ a
        ∧ (l.foldl min a = a ∨ l.foldl min a ∈ l) := by
      intro l
      induction l with
      | nil => intro a; simp
      | cons b l ih =>
        intro a
        rw [List.foldl_cons]
        obtain ⟨i1, i2, i3⟩ := ih (min a b)
        refine ⟨?_, le_trans i2 (min_le_left _ _), ?_⟩
        · intro x hx
          rcases List.mem_cons.1 hx with rfl | hx
          · exact le_trans i2 (min_le_right _ _)
          · exact i1 x hx
        · rcases i3 with i3 | i3
          · rcases min_choice a b with hc | hc
            · left; rw [i3, hc]
            · right; rw [i3, hc]; simp
          · right; exact List.mem_cons_of_mem _ i3
    obtain ⟨g1, -, g3⟩ := gen hs (hs.headD 0)
    refine ⟨g1, ?_⟩
    rcases g3 with g3 | g3
    · have hne : hs ≠ [] := by
        rw [hhs]; intro e
        rw [List.map_eq_nil_iff] at e
        rw [e] at one_mem; cases one_mem
      rw [hH, g3]
      obtain ⟨a, l, e⟩ := List.exists_cons_of_ne_nil hne
      rw [e]; simp
    · exact g3
  clear_value H
  split_ifs at h with h0
  obtain rfl := Except.ok.inj h
  have hfpos : ∀ k ∈ t.levels, 0 < t.freq k := by
    intro k hk
    have hm0 := hw.mpos
    have := hw.freq_mul hk
    rcases Nat.eq_zero_or_pos (t.freq k) with e | e
    · rw [e, Nat.zero_mul] at this; omega
    · exact e
  have hle : ∀ k ∈ t.levels, H * t.freq k ≤ (t.resid k).length := by
    intro k hk
    exact (Nat.le_div_iff_mul_le (hfpos k hk)).1 (hmin.1 _ (List.mem_map_of_mem hk))
  refine ⟨by simp, H, Nat.pos_of_ne_zero h0, hle, ?_, ?_⟩
  · obtain ⟨k, hk, e⟩ := List.mem_map.1 hmin.2
    refine ⟨k, hk, ?_⟩
    change _ < (H + 1) * t.freq k
    rw [← Nat.div_lt_iff_lt_mul (hfpos k hk)]
    omega
  · intro r k i hr
    obtain ⟨m1, m2⟩ : k ∈ t.levels ∧ i < t.freq k := mem_rowIdx.1 (List.mem_of_getElem? hr)
    refine ⟨_, by rw [List.getElem?_map, hr]; rfl, by simp, ?_⟩
    intro c hc
    have hf := hfpos k m1
    have hl := hle k m1
    have hpos : 0 < H * t.freq k := Nat.mul_pos (by omega) hf
    rw [List.getElem?_map, List.getElem?_range hc, Option.map_some, pyFrom_neg _ _ hpos hl,
      List.getD_eq_getElem?_getD, List.getElem?_drop]
    have e1 : (H - c) * t.freq k + c * t.freq k = H * t.freq k := by
      rw [← Nat.add_mul]; congr 1; omega
    have e2 : t.freq k ≤ (H - c) * t.freq k := Nat.le_mul_of_pos_left _ (by omega)
    have e3 : (t.resid k).length - H * t.freq k + (c * t.freq k + i)
        = (t.resid k).length - (H - c) * (t.m / k) + i := by
      change _ = (t.resid k).length - (H - c) * t.freq k + i
      omega
    rw [e3]
    have hlt : (t.resid k).length - (H - c) * (t.m / k) + i < (t.resid k).length := by
      change (t.resid k).length - (H - c) * t.freq k + i < _
      omega
    rw [List.getElem?_eq_getElem hlt]
    rfl

/-- C85 (coherence): if the residuals of every level are the block sums, counted from the end, of the
level-1 residuals, then the columns of the residual matrix are coherent. -/
theorem C85_coherent (t : THM) (hw : WF t) (R : List (List Val)) (h : t.resMatrix = .ok R)
    (hc : ∀ k ∈ t.levels, ∀ q, q < (t.resid k).length →
      (q + 1) * k ≤ (t.resid 1).length ∧ (t.resid k)[(t.resid k).length - 1 - q]? = some (vsum ((List.range k).map fun a =>
        (t.resid 1).getD ((t.resid 1).length - (q + 1) * k + a) none)))
    (r k i : Nat) (hr : t.rowIdx[r]? = some (k, i)) (c : Nat) (row : List Val) (hrow : R[r]? = some row)
    (hlt : c < row.length) :
    row[c]? = some (vsum ((List.range k).map fun a =>
      ((R.getD (t.rowIdx.length - t.m + (i * k + a)) []).getD c none))) := by
  obtain ⟨-, H, hH, h1, -, h3⟩ := C85_aligned t hw R h
  have one_mem : 1 ∈ t.levels := by
    obtain ⟨ls, e, -⟩ := hw.last
    rw [e]; simp
  obtain ⟨m1, m2⟩ : k ∈ t.levels ∧ i < t.freq k := mem_rowIdx.1 (List.mem_of_getElem? hr)
  have hk := hw.freq_mul m1
  have hk0 := hw.pos k m1
  obtain ⟨row', g1, g2, g3⟩ := h3 r k i hr
  rw [hrow] at g1
  obtain rfl := Option.some.inj g1
  rw [g2] at hlt
  rw [g3 c hlt]
  change (t.resid k)[(t.resid k).length - (H - c) * t.freq k + i]? = _
  have l1 := h1 k m1
  change H * t.freq k ≤ _ at l1
  have e1 : (H - c) * t.freq k ≤ H * t.freq k := Nat.mul_le_mul_right _ (by omega)
  have e2 : t.freq k ≤ (H - c) * t.freq k := Nat.le_mul_of_pos_left _ (by omega)
  set q := (H - c) * t.freq k - 1 - i with hq
  have hq1 : (t.resid k).length - (H - c) * t.freq k + i = (t.resid k).length - 1 - q := by omega
  obtain ⟨c1, c2⟩ := hc k m1 q (by omega)
  rw [hq1, c2]
  congr 2
  apply List.map_congr_left
  intro a ha
  rw [List.mem_range] at ha
  have hia : i * k + a < t.m := by
    rw [← hk]
    calc i * k + a < i * k + k := by omega
      _ = (i + 1) * k := by ring
      _ ≤ _ := Nat.mul_le_mul_right _ m2
  obtain ⟨row1, f1, f2, f3⟩ := h3 _ 1 (i * k + a) (hw.row_one hia).2
  have f4 : (R.getD (t.rowIdx.length - t.m + (i * k + a)) []) = row1 := by
    rw [List.getD_eq_getElem?_getD, f1, Option.getD_some]
  have f5 : row1.getD c none = ((t.resid 1)[(t.resid 1).length - (H - c) * t.m + (i * k + a)]?).getD none := by
    rw [List.getD_eq_getElem?_getD, f3 c hlt, Nat.div_one]
  rw [f4, f5]
  have l2 := h1 1 one_mem
  rw [Nat.div_one] at l2
  have e3 : (H - c) * t.m ≤ H * t.m := Nat.mul_le_mul_right _ (by omega)
  have e4 : t.m ≤ (H - c) * t.m := Nat.le_mul_of_pos_left _ (by omega)
  have e5 : (q + 1) * k + i * k = (H - c) * t.m := by
    rw [← Nat.add_mul, ← hk, ← Nat.mul_assoc]
    congr 1
    omega
  have e6 : (t.resid 1).length - (q + 1) * k + a = (t.resid 1).length - (H - c) * t.m + (i * k + a) := by omega
  rw [List.getD_eq_getElem?_getD, e6]

example : ({ two [] [] with resid := fun k => if k = 2 then [some 5, some 9] else [some 9, some 2, some 3, some 4, some 5] } : THM).resMatrix
    = .ok [[some 5, some 9], [some 2, some 4], [some 3, some 5]] := by decide +kernel

/-! ## C86: what the constructor accepts -/

/-- C86 (partial: for supported names): base models that the constructors accept are fitted, if the
series is long enough for every level. -/
theorem C86_fit_partial (train trainResid) (n : Nat) (bms : List BaseTH) (h1 : ∀ b ∈ bms, b.check = .ok ())
    (h2 : checkLevels (bms.map (·.level.toNat)) = .ok ()) (h3 : ∀ b ∈ bms, b.level ≤ n ∨ b.level = 1)
    (h4 : ∀ b ∈ bms, ∀ s, b.name = some s → s ∈ thBaseModels) :
    ∃ t, THM.fit train trainResid n bms = .ok t := by
  have hc : bms.mapM (·.check) = .ok (bms.map fun _ => ()) := by
    rw [mapM_except, List.forall₂_map_right_iff, List.forall₂_same]
    exact h1
  unfold THM.fit
  rw [hc]
  simp only [bind, Except.bind]
  rw [h2]
  dsimp only
  rw [if_neg, if_neg]
  · exact ⟨_, rfl⟩
  · simp only [List.any_eq_true, not_exists, not_and]
    intro b hb hn
    cases hs : b.name with
    | none => rw [hs] at hn; simp at hn
    | some s =>
      rw [hs] at hn
      simp at hn
      exact hn (h4 b hb s hs)
  · simp only [List.any_eq_true, List.mem_map, not_exists, not_and, forall_exists_index, and_imp]
    rintro k b hb rfl
    simp only [decide_eq_true_eq, not_and, not_lt]
    intro hk
    rcases h3 b hb with h | h
    · omega
    · rw [h] at hk; exact absurd rfl hk

example : ∀ b ∈ exBms, b.check = .ok () ∧ b.level ≤ 10 := by decide +kernel

/-- C86 (violated): a base model with residuals and forecasts is accepted whatever its model name; a
name that is not supported then raises KeyError in `fit`, although forecasts and residuals are given. -/
theorem C86_fit_violated (train trainResid) (n : Nat) :
    let b : BaseTH := ⟨1, some "lstm", false, some [some 1], some [1]⟩
    b.check = .ok () ∧ checkLevels [b.level.toNat] = .ok () ∧ THM.fit train trainResid n [b] = .error .keyError := by
  refine ⟨by decide +kernel, by decide +kernel, ?_⟩
  have hc : [(⟨1, some "lstm", false, some [some 1], some [1]⟩ : BaseTH)].mapM (·.check) = .ok [()] := by decide +kernel
  unfold THM.fit
  rw [hc]
  simp only [bind, Except.bind]
  rw [show checkLevels (List.map (fun b : BaseTH => b.level.toNat) [⟨1, some "lstm", false, some [some 1], some [1]⟩]) = .ok () by decide +kernel]
  dsimp only
  rw [if_neg (by simp), if_pos (by decide +kernel)]

end THM
end Kats

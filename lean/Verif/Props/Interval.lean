import Verif.Lemmas.Interval
import Verif.Lemmas.Backtest
import Verif.Props.RunProb
import Mathlib.Data.List.Nodup

/-!
# Properties of the interval detector (C27 - C29, C39, C56, C58)
-/

set_option linter.unusedSimpArgs false

namespace Kats

/-! ## C27 -/

/-- C27: the runs found are exactly the maximal runs of `True`, in order and without overlap. -/
theorem C27_runs {x : List Bool} (hx : x ≠ []) :
    ∃ S E, trueRunIndices x = .ok (S, E) ∧ S.length = E.length ∧
      (S.zip E).Pairwise (fun p q => p.2 < q.1) ∧
      ∀ s e, (s, e) ∈ S.zip E ↔ MaximalRun x true s e := by
  refine ⟨_, _, trueRunIndices_eq hx, by simp, ?_, ?_⟩
  · rw [List.zip_map', List.pairwise_map]
    apply List.Pairwise.filter
    have hlt : ∀ c ∈ blockStarts x, c < x.length := fun c hc => ((mem_blockStarts hx c).1 hc).1
    refine List.Pairwise.imp_of_mem ?_ (consec_pairwise (blockStarts_sorted x) hlt)
    intro p q hp hq h
    have := ((mem_consec (blockStarts_sorted x) hlt p.1 p.2).1 hp).2.1
    dsimp only; omega
  · intro s e
    rw [List.zip_map', List.mem_map]
    constructor
    · rintro ⟨⟨a, b⟩, hab, heq⟩
      rw [List.mem_filter] at hab
      have := (consec_maximal hx a b).1 hab
      simp only [Prod.mk.injEq] at heq
      obtain ⟨rfl, rfl⟩ := heq
      rw [show a + (b - a) - 1 = b - 1 by omega]
      exact this.2
    · intro h
      refine ⟨(s, e + 1), ?_, ?_⟩
      · rw [List.mem_filter]
        exact (consec_maximal hx s (e + 1)).2 ⟨by have := h.1; omega, by simpa using h⟩
      · have := h.1
        simp only [Prod.mk.injEq, true_and]; omega

example : trueRunIndices [true, true, false, true] = .ok ([0, 3], [1, 3]) := by decide

theorem maximalRun_not {x : List Bool} {s e : Nat} :
    MaximalRun (x.map not) true s e ↔ MaximalRun x false s e := by
  have h : ∀ i : Nat, (x.map not)[i]? = some true ↔ x[i]? = some false := by
    intro i
    rw [List.getElem?_map]
    cases x[i]? with
    | none => simp
    | some b => cases b <;> simp
  unfold MaximalRun
  simp only [List.length_map, ne_eq, h]

theorem forall₂_right_mem {A B : Type} {P : A → B → Prop} {l : List A} {r : List B}
    (h : List.Forall₂ P l r) : ∀ b ∈ r, ∃ a ∈ l, P a b := by
  induction h with
  | nil => intro b hb; cases hb
  | cons h1 _ ih =>
    intro b hb
    rcases List.mem_cons.1 hb with rfl | hb
    · exact ⟨_, by simp, h1⟩
    · obtain ⟨a, ha, hP⟩ := ih b hb
      exact ⟨a, List.mem_cons_of_mem _ ha, hP⟩

/-- The value of the mask on which intervals of a kind live. -/
def IntervalType.val : IntervalType → Bool
  | .reject => true
  | .failToReject => false

/-- C27: the intervals of either kind are exactly the maximal runs of (non-)rejected points, in
order, with the limits padded. -/
theorem C27_intervals {kind : IntervalType} {time : List Int} {padding : Int} {mask : List Bool}
    {ivs : List ABInterval} (h : getIntervals kind time padding mask = .ok ivs) :
    mask ≠ [] ∧
    (ivs.Pairwise fun a b => a.endIdx < b.startIdx) ∧
    (∀ s e, (∃ i ∈ ivs, i.startIdx = s ∧ i.endIdx = e) ↔ MaximalRun mask kind.val s e) ∧
    ∀ i ∈ ivs, i.kind = kind ∧ i.start = time.getD i.startIdx 0 - padding ∧
      i.stop = time.getD i.endIdx 0 + padding ∧ i.start < i.stop := by
  unfold getIntervals at h
  split at h
  · cases h
  · rename_i hne
    have hmask : mask ≠ [] := by simpa using hne
    set m : List Bool := decisionMask kind mask with hm
    have hm' : m ≠ [] := by cases kind <;> simp [hm, decisionMask, hmask]
    have hrun : ∀ s e, MaximalRun m true s e ↔ MaximalRun mask kind.val s e := by
      intro s e
      cases kind
      · exact maximalRun_not
      · exact Iff.rfl
    obtain ⟨S, E, hSE, hlen, hpw, hmem⟩ := C27_runs hm'
    rw [hSE] at h
    simp only [bind, Except.bind] at h
    have hf := mapM_forall₂ (fun q i => mkInterval kind time padding q.1 q.2 = .ok i) _
      (fun _ _ h => h) _ _ h
    have hkey : ∀ (q : Nat × Nat) (i : ABInterval), mkInterval kind time padding q.1 q.2 = .ok i →
        i.startIdx = q.1 ∧ i.endIdx = q.2 ∧ i.kind = kind ∧
          i.start = time.getD i.startIdx 0 - padding ∧
          i.stop = time.getD i.endIdx 0 + padding ∧ i.start < i.stop := by
      intro q i hi
      unfold mkInterval at hi
      dsimp only at hi
      split at hi
      · cases hi
      · rename_i hlt
        injection hi with hi
        subst hi
        exact ⟨rfl, rfl, rfl, rfl, rfl, by simpa using hlt⟩
    have hmap : ivs.map (fun i => (i.startIdx, i.endIdx)) = S.zip E := by
      clear hpw hmem h hSE hlen
      generalize S.zip E = SE at hf
      induction hf with
      | nil => rfl
      | cons h1 _ ih => rw [List.map_cons, ih]; obtain ⟨a, b, _⟩ := hkey _ _ h1; rw [a, b]
    refine ⟨hmask, ?_, ?_, ?_⟩
    · rw [← hmap, List.pairwise_map] at hpw
      exact hpw
    · intro s e
      rw [← hrun, ← hmem, ← hmap, List.mem_map]
      simp only [Prod.mk.injEq]
    · intro i hi
      obtain ⟨q, _, hq⟩ := forall₂_right_mem hf i hi
      exact (hkey q i hq).2.2

example : getIntervals .reject [0, 60, 120, 180] 30 [true, true, false, true]
    = .ok [⟨.reject, -30, 90, 0, 1⟩, ⟨.reject, 150, 210, 3, 3⟩] := by decide
example : getIntervals .failToReject [0, 60, 120, 180] 30 [true, true, false, true]
    = .ok [⟨.failToReject, 90, 150, 2, 2⟩] := by decide

/-- C27: with positive padding and times in order the intervals can always be built. -/
theorem C27_intervals_exist (kind : IntervalType) {time : List Int} {padding : Int}
    {mask : List Bool} (hne : mask ≠ []) (hp : 0 < padding) (hlen : time.length = mask.length)
    (hs : time.Pairwise (· ≤ ·)) : ∃ ivs, getIntervals kind time padding mask = .ok ivs := by
  unfold getIntervals
  rw [if_neg (by simpa using hne)]
  set m : List Bool := decisionMask kind mask with hm
  have hm' : m ≠ [] := by cases kind <;> simp [hm, decisionMask, hne]
  have hml : m.length = mask.length := by cases kind <;> simp [hm, decisionMask]
  obtain ⟨S, E, hSE, _, _, hmem⟩ := C27_runs hm'
  rw [hSE]
  simp only [bind, Except.bind]
  obtain ⟨res, hres, _⟩ := mapM_mem_ok (fun _ _ => True)
    (fun q : Nat × Nat => mkInterval kind time padding q.1 q.2) (S.zip E) (by
      intro q hq
      have hq' := (hmem q.1 q.2).1 hq
      have h1 := hq'.1
      have h2 := hq'.2.1
      refine ⟨⟨kind, time.getD q.1 0 - padding, time.getD q.2 0 + padding, q.1, q.2⟩, ?_, trivial⟩
      · unfold mkInterval
        dsimp only
        rw [if_neg]
        have : time.getD q.1 0 ≤ time.getD q.2 0 := by
          rcases Nat.eq_or_lt_of_le h1 with he | hl
          · rw [he]
          · have := List.pairwise_iff_getElem.1 hs q.1 q.2 (by omega) (by omega) hl
            simpa [List.getD_eq_getElem?_getD, List.getElem?_eq_getElem (show q.1 < time.length by omega),
              List.getElem?_eq_getElem (show q.2 < time.length by omega)] using this
        omega)
  exact ⟨res, hres⟩

example : ∃ ivs, getIntervals .reject [5] 30 [true] = .ok ivs :=
  C27_intervals_exist _ (by simp) (by norm_num) rfl (by simp)

theorem maximalRun_left {x : List Bool} {b : Bool} : ∀ i, x[i]? = some b →
    ∃ s, s ≤ i ∧ (∀ j, s ≤ j → j ≤ i → x[j]? = some b) ∧ ∀ j, j + 1 = s → x[j]? ≠ some b
  | 0, h => ⟨0, le_rfl, fun j h1 h2 => by
      obtain rfl : j = 0 := by omega
      exact h, fun j hj => by omega⟩
  | i + 1, h => by
    by_cases hb : x[i]? = some b
    · obtain ⟨s, h1, h2, h3⟩ := maximalRun_left i hb
      refine ⟨s, by omega, fun j hj1 hj2 => ?_, h3⟩
      by_cases hj : j = i + 1
      · subst hj; exact h
      · exact h2 j hj1 (by omega)
    · refine ⟨i + 1, le_rfl, fun j hj1 hj2 => ?_, fun j hj => ?_⟩
      · obtain rfl : j = i + 1 := by omega
        exact h
      · obtain rfl : j = i := by omega
        exact hb

theorem maximalRun_right {x : List Bool} {b : Bool} (k : Nat) : ∀ i, x.length - i = k →
    x[i]? = some b →
    ∃ e, i ≤ e ∧ e < x.length ∧ (∀ j, i ≤ j → j ≤ e → x[j]? = some b) ∧ x[e + 1]? ≠ some b := by
  induction k with
  | zero =>
    intro i hk h
    have := (List.getElem?_eq_some_iff.1 h).1
    omega
  | succ k ih =>
    intro i hk h
    have hi := (List.getElem?_eq_some_iff.1 h).1
    by_cases hb : x[i + 1]? = some b
    · obtain ⟨e, h1, h2, h3, h4⟩ := ih (i + 1) (by omega) hb
      refine ⟨e, by omega, h2, fun j hj1 hj2 => ?_, h4⟩
      by_cases hj : j = i
      · subst hj; exact h
      · exact h3 j (by omega) hj2
    · refine ⟨i, le_rfl, hi, fun j hj1 hj2 => ?_, hb⟩
      obtain rfl : j = i := by omega
      exact h

theorem exists_maximalRun {x : List Bool} {b : Bool} {i : Nat} (h : x[i]? = some b) :
    ∃ s e, MaximalRun x b s e ∧ s ≤ i ∧ i ≤ e := by
  obtain ⟨s, hs1, hs2, hs3⟩ := maximalRun_left i h
  obtain ⟨e, he1, he2, he3, he4⟩ := maximalRun_right _ i rfl h
  refine ⟨s, e, ⟨by omega, he2, fun j hj1 hj2 => ?_, hs3, he4⟩, hs1, he1⟩
  by_cases hj : j ≤ i
  · exact hs2 j hj1 hj
  · exact he3 j (by omega) hj2

theorem mem_indices {iv : ABInterval} {i : Nat} :
    i ∈ iv.indices ↔ iv.startIdx ≤ i ∧ i ≤ iv.endIdx := by
  unfold ABInterval.indices
  rw [List.mem_map]
  constructor
  · rintro ⟨k, hk, rfl⟩; rw [List.mem_range] at hk; omega
  · rintro ⟨h1, h2⟩; exact ⟨i - iv.startIdx, by rw [List.mem_range]; omega, by omega⟩

theorem nodup_indices (iv : ABInterval) : iv.indices.Nodup := by
  unfold ABInterval.indices
  exact List.Nodup.map (fun a b h => by simpa using h) List.nodup_range

/-- C27: the reject and the fail-to-reject intervals together contain every index of the series
exactly once. -/
theorem C27_partition {time time' : List Int} {pad pad' : Int} {mask : List Bool}
    {a b : List ABInterval} (ha : getIntervals .reject time pad mask = .ok a)
    (hb : getIntervals .failToReject time' pad' mask = .ok b) :
    ((a ++ b).flatMap ABInterval.indices).Perm (List.range mask.length) := by
  obtain ⟨_, pa, ma, _⟩ := C27_intervals ha
  obtain ⟨_, pb, mb, _⟩ := C27_intervals hb
  have in_a : ∀ iv ∈ a, MaximalRun mask true iv.startIdx iv.endIdx :=
    fun iv h => (ma _ _).1 ⟨iv, h, rfl, rfl⟩
  have in_b : ∀ iv ∈ b, MaximalRun mask false iv.startIdx iv.endIdx :=
    fun iv h => (mb _ _).1 ⟨iv, h, rfl, rfl⟩
  have key : ∀ {l : List ABInterval}, (l.Pairwise fun a b => a.endIdx < b.startIdx) →
      l.Pairwise (Function.onFun List.Disjoint ABInterval.indices) := by
    intro l hl
    refine hl.imp ?_
    intro u v huv i h1 h2
    rw [mem_indices] at h1 h2
    omega
  rw [List.perm_ext_iff_of_nodup _ List.nodup_range]
  · intro i
    rw [List.mem_flatMap, List.mem_range]
    constructor
    · rintro ⟨iv, hiv, hi⟩
      rw [mem_indices] at hi
      rcases List.mem_append.1 hiv with h | h
      · have := (in_a iv h).2.1; omega
      · have := (in_b iv h).2.1; omega
    · intro hi
      have hx : mask[i]? = some mask[i] := List.getElem?_eq_getElem hi
      cases hv : mask[i] with
      | true =>
        rw [hv] at hx
        obtain ⟨s, e, hr, h1, h2⟩ := exists_maximalRun hx
        obtain ⟨iv, hiv, rfl, rfl⟩ := (ma s e).2 hr
        exact ⟨iv, List.mem_append_left _ hiv, mem_indices.2 ⟨h1, h2⟩⟩
      | false =>
        rw [hv] at hx
        obtain ⟨s, e, hr, h1, h2⟩ := exists_maximalRun hx
        obtain ⟨iv, hiv, rfl, rfl⟩ := (mb s e).2 hr
        exact ⟨iv, List.mem_append_right _ hiv, mem_indices.2 ⟨h1, h2⟩⟩
  · rw [List.nodup_flatMap]
    refine ⟨fun iv _ => nodup_indices iv, ?_⟩
    rw [List.pairwise_append]
    refine ⟨key pa, key pb, ?_⟩
    intro u hu v hv i h1 h2
    rw [mem_indices] at h1 h2
    have e1 := (in_a u hu).2.2.1 i h1.1 h1.2
    have e2 := (in_b v hv).2.2.1 i h2.1 h2.2
    rw [e1] at e2
    cases e2

theorem setTrue_ok (idxs : List Nat) : ∀ (v : List Bool), (∀ i ∈ idxs, i < v.length) →
    ∃ v', setTrue v idxs = .ok v' ∧ v'.length = v.length ∧
      ∀ i, v'[i]? = some true ↔ (v[i]? = some true ∨ i ∈ idxs) := by
  induction idxs with
  | nil => intro v _; exact ⟨v, rfl, rfl, by simp⟩
  | cons k idxs ih =>
    intro v h
    have hk := h k (by simp)
    obtain ⟨v', h1, h2, h3⟩ := ih (v.set k true) (by
      intro i hi; rw [List.length_set]; exact h i (by simp [hi]))
    refine ⟨v', ?_, by simpa using h2, ?_⟩
    · unfold setTrue at h1 ⊢
      rw [List.foldlM_cons, if_pos hk]; exact h1
    · intro i
      rw [h3, List.getElem?_set, List.mem_cons]
      by_cases hik : k = i
      · subst hik; simp [hk]
      · simp only [hik, if_false]
        constructor
        · rintro (h | h)
          · exact Or.inl h
          · exact Or.inr (Or.inr h)
        · rintro (h | h | h)
          · exact Or.inl h
          · exact absurd h.symm hik
          · exact Or.inr h

theorem predictions_ok (n d : Nat) (ivs : List ABInterval)
    (h : ∀ iv ∈ ivs, ∀ i ∈ iv.indices, i < n) : ∀ v : List Bool, v.length = n →
    ∃ v', ivs.foldlM (fun values i =>
        if d ≤ i.indices.length then setTrue values i.indices else .ok values) v = .ok v' ∧
      v'.length = n ∧
      ∀ i, v'[i]? = some true ↔
        (v[i]? = some true ∨ ∃ iv ∈ ivs, d ≤ iv.indices.length ∧ i ∈ iv.indices) := by
  induction ivs with
  | nil => intro v hv; exact ⟨v, rfl, hv, by simp⟩
  | cons iv ivs ih =>
    intro v hv
    have ih' := ih (fun iv' h' => h iv' (by simp [h']))
    rw [List.foldlM_cons]
    by_cases hd : d ≤ iv.indices.length
    · obtain ⟨v1, e1, e2, e3⟩ := setTrue_ok iv.indices v (by rw [hv]; exact h iv (by simp))
      obtain ⟨v2, f1, f2, f3⟩ := ih' v1 (by omega)
      refine ⟨v2, ?_, f2, ?_⟩
      · rw [if_pos hd, e1]; exact f1
      · intro i
        rw [f3, e3]
        simp only [List.mem_cons, exists_eq_or_imp, hd, true_and, or_assoc]
    · obtain ⟨v2, f1, f2, f3⟩ := ih' v hv
      refine ⟨v2, ?_, f2, ?_⟩
      · rw [if_neg hd]; exact f1
      · intro i
        rw [f3]
        simp only [List.mem_cons, exists_eq_or_imp, hd, false_and, false_or]

theorem length_indices (iv : ABInterval) : iv.indices.length = iv.endIdx + 1 - iv.startIdx := by
  simp [ABInterval.indices]

/-- C27: a point is predicted anomalous exactly when it lies in a maximal run of rejections of
length at least `duration`. -/
theorem C27_predictions {time : List Int} {pad : Int} {mask : List Bool} {ivs : List ABInterval}
    (h : getIntervals .reject time pad mask = .ok ivs) (d : Nat) :
    ∃ preds, intervalsToPredictions mask.length ivs d = .ok preds ∧ preds.length = mask.length ∧
      ∀ i, preds[i]? = some true ↔
        ∃ s e, MaximalRun mask true s e ∧ s ≤ i ∧ i ≤ e ∧ d ≤ e - s + 1 := by
  obtain ⟨_, _, hm, _⟩ := C27_intervals h
  obtain ⟨v, h1, h2, h3⟩ := predictions_ok mask.length d ivs (by
    intro iv hiv i hi
    have := (hm iv.startIdx iv.endIdx).1 ⟨iv, hiv, rfl, rfl⟩
    rw [mem_indices] at hi
    have := this.2.1
    omega) (List.replicate mask.length false) (by simp)
  refine ⟨v, h1, h2, fun i => ?_⟩
  rw [h3]
  constructor
  · rintro (h | ⟨iv, hiv, hd, hi⟩)
    · rw [List.getElem?_replicate] at h; split at h <;> simp at h
    · have hr := (hm iv.startIdx iv.endIdx).1 ⟨iv, hiv, rfl, rfl⟩
      rw [mem_indices] at hi
      rw [length_indices] at hd
      have := hr.1
      exact ⟨_, _, hr, hi.1, hi.2, by omega⟩
  · rintro ⟨s, e, hr, h1, h2, h3⟩
    obtain ⟨iv, hiv, rfl, rfl⟩ := (hm s e).2 hr
    have := hr.1
    exact Or.inr ⟨iv, hiv, by rw [length_indices]; omega, mem_indices.2 ⟨h1, h2⟩⟩

example : intervalsToPredictions 4 [⟨.reject, -30, 90, 0, 1⟩, ⟨.reject, 150, 210, 3, 3⟩] 2
    = .ok [true, true, false, false] := by decide

/-- C27: anomaly and caution intervals partition the reject intervals; the anomalies are those with
at least `duration` points. -/
theorem C27_anomaly_caution (ivs : List ABInterval) (d : Nat) :
    (anomalyIntervals ivs d ++ cautionIntervals ivs d).Perm ivs ∧
    (anomalyIntervals ivs d).Sublist ivs ∧ (cautionIntervals ivs d).Sublist ivs ∧
    (∀ i ∈ anomalyIntervals ivs d, i.startIdx + d ≤ i.endIdx + 1 ∨ d = 0) ∧
    (∀ i ∈ cautionIntervals ivs d, i.endIdx + 1 < i.startIdx + d) := by
  refine ⟨?_, List.filter_sublist, List.filter_sublist, ?_, ?_⟩
  · have e : cautionIntervals ivs d = ivs.filter (fun i => !decide (d ≤ i.indices.length)) := by
      unfold cautionIntervals
      apply List.filter_congr
      intro i _
      by_cases h : d ≤ i.indices.length
      · simp [h]
      · simp [h, Nat.not_le.1 h]
    rw [e]
    exact List.filter_append_perm _ _
  · intro i hi
    have := (List.mem_filter.1 hi).2
    rw [decide_eq_true_eq, length_indices] at this
    omega
  · intro i hi
    have := (List.mem_filter.1 hi).2
    rw [decide_eq_true_eq, length_indices] at this
    omega

example : anomalyIntervals [⟨.reject, -30, 90, 0, 1⟩, ⟨.reject, 150, 210, 3, 3⟩] 2
    = [⟨.reject, -30, 90, 0, 1⟩] ∧
    cautionIntervals [⟨.reject, -30, 90, 0, 1⟩, ⟨.reject, 150, 210, 3, 3⟩] 2
    = [⟨.reject, 150, 210, 3, 3⟩] := by decide


/-! ## C28, C58: confidence limits and significance -/

/-- What is assumed of scipy's normal distribution: quantile function and cdf are inverse to each
other and strictly increasing, and the distribution is symmetric around 0. -/
structure NormDist.Ok (N : NormDist) : Prop where
  symm : ∀ q, 0 < q → q < 1 → N.ppf (1 - q) = - N.ppf q
  mono : ∀ q r, 0 < q → q < r → r < 1 → N.ppf q < N.ppf r
  inv : ∀ q, 0 < q → q < 1 → N.cdf (N.ppf q) = q
  cdf_mono : StrictMono N.cdf

/-- The assumptions are satisfiable: the logistic distribution. -/
noncomputable def logisticDist : NormDist where
  ppf q := Real.log (q / (1 - q))
  cdf x := 1 - 1 / (1 + Real.exp x)

theorem logistic_ok : logisticDist.Ok where
  symm q h0 h1 := by
    simp only [logisticDist]
    rw [sub_sub_cancel, ← Real.log_inv, inv_div]
  mono q r h0 hqr h1 := by
    simp only [logisticDist]
    apply Real.log_lt_log
    · exact div_pos h0 (by linarith)
    · rw [div_lt_div_iff₀ (by linarith) (by linarith)]; nlinarith
  inv q h0 h1 := by
    have hne : 1 - q ≠ 0 := by linarith
    simp only [logisticDist]
    rw [Real.exp_log (div_pos h0 (by linarith))]
    have : 1 + q / (1 - q) = 1 / (1 - q) := by field_simp; ring
    rw [this, one_div_one_div]; ring
  cdf_mono x y hxy := by
    simp only [logisticDist]
    have hx := Real.exp_pos x
    have := Real.exp_lt_exp.2 hxy
    have := one_div_lt_one_div_of_lt (by linarith : 0 < 1 + Real.exp x)
      (by linarith : 1 + Real.exp x < 1 + Real.exp y)
    linarith

theorem NormDist.Ok.half {N : NormDist} (h : N.Ok) : N.ppf (1 / 2) = 0 := by
  have := h.symm (1 / 2) (by norm_num) (by norm_num)
  norm_num at this
  norm_num
  linarith

theorem NormDist.Ok.nonpos {N : NormDist} (h : N.Ok) {q : ℝ} (h0 : 0 < q) (h1 : q ≤ 1 / 2) :
    N.ppf q ≤ 0 := by
  rcases eq_or_lt_of_le h1 with rfl | hlt
  · exact h.half.le
  · rw [← h.half]; exact (h.mono q (1 / 2) h0 hlt (by norm_num)).le

/-- The hypothesised effect on the scale on which the limits are reported. -/
def nullOnScale (s : StatKind) (r : ABRow) : ℝ :=
  match s with
  | .absolute => r.effect
  | .relative => 1 + r.effect

/-- The hypothesised effect is outside the reported interval, or on its edge. -/
def OutsideLimits (s : StatKind) (k : VarKind) (t : TestType) (z : ℝ) (r : ABRow) : Prop :=
  (∃ u, upperLimit s k t z r = some u ∧ u ≤ nullOnScale s r) ∨
    (∃ l, lowerLimit s k t z r = some l ∧ nullOnScale s r ≤ l)

theorem scale_le {s : StatKind} {r : ABRow} (he : s = .relative → 0 < 1 + r.effect) (x : ℝ) :
    (reportScale s x ≤ nullOnScale s r ↔ x ≤ statNull s r) ∧
      (nullOnScale s r ≤ reportScale s x ↔ statNull s r ≤ x) := by
  cases s with
  | absolute => exact ⟨Iff.rfl, Iff.rfl⟩
  | relative =>
    have := he rfl
    exact ⟨(Real.le_log_iff_exp_le this).symm, (Real.log_le_iff_le_exp this).symm⟩

/-- C28, the part that holds: for a two-sided test, or a one-sided test at a corrected alpha of at
most 1/2, a point is rejected exactly when the hypothesised effect is outside (or on the edge of)
the reported interval - on the difference scale and on the ratio scale. -/
theorem C28_duality_partial {N : NormDist} (hN : N.Ok) (s : StatKind) (k : VarKind) (t : TestType)
    {c : ℝ} (h0 : 0 < c) (h1 : c < 1) (hc : t = .twoSided ∨ c ≤ 1 / 2) (r : ABRow)
    (hse : 0 < statStdError s k r) (he : s = .relative → 0 < 1 + r.effect) :
    rejected t (criticalValue N t c) (testStatistic s k r) = true ↔
      OutsideLimits s k t ((criticalValue N t c).absolute.getD 0) r := by
  have up : ∀ z : ℝ, z ≤ testStatistic s k r ↔
      statNull s r ≤ statDifference s r - z * statStdError s k r := by
    intro z
    unfold testStatistic
    rw [le_div_iff₀ hse]
    constructor <;> intro h <;> linarith
  have lo : ∀ z : ℝ, testStatistic s k r ≤ -z ↔
      statDifference s r + z * statStdError s k r ≤ statNull s r := by
    intro z
    unfold testStatistic
    rw [div_le_iff₀ hse]
    constructor <;> intro h <;> linarith
  unfold OutsideLimits
  cases t with
  | oneSidedLower =>
    have hc' : c ≤ 1 / 2 := by rcases hc with h | h; · cases h
                               · exact h
    have hz : |N.ppf c| = - N.ppf c := abs_of_nonpos (hN.nonpos h0 hc')
    simp only [rejected, criticalValue, CriticalValue.absolute, Option.getD_some, upperLimit,
      lowerLimit, Option.some.injEq, exists_eq_left', decide_eq_true_eq, hz, reduceCtorEq,
      false_and, exists_false, or_false, (scale_le he _).1]
    rw [← lo, neg_neg]
    exact decide_eq_true_iff
  | oneSidedUpper =>
    have hc' : c ≤ 1 / 2 := by rcases hc with h | h; · cases h
                               · exact h
    have hz : |N.ppf (1 - c)| = N.ppf (1 - c) := by
      rw [hN.symm c h0 h1, abs_neg, abs_of_nonpos (hN.nonpos h0 hc')]
    simp only [rejected, criticalValue, CriticalValue.absolute, Option.getD_some, upperLimit,
      lowerLimit, Option.some.injEq, exists_eq_left', decide_eq_true_eq, hz, reduceCtorEq,
      false_and, exists_false, false_or, (scale_le he _).2]
    rw [← up]
    exact decide_eq_true_iff
  | twoSided =>
    have hz : |N.ppf (c / 2)| = - N.ppf (c / 2) :=
      abs_of_nonpos (hN.nonpos (by linarith) (by linarith))
    have hz' : N.ppf (1 - c / 2) = - N.ppf (c / 2) := hN.symm _ (by linarith) (by linarith)
    simp only [rejected, criticalValue, CriticalValue.absolute, Option.getD_some, upperLimit,
      lowerLimit, Option.some.injEq, exists_eq_left', decide_eq_true_eq, hz, hz', Bool.or_eq_true,
      (scale_le he _).1, (scale_le he _).2]
    rw [← lo, ← up, neg_neg]

/-- A row with no difference and unit variances. -/
noncomputable def nullRow (t : Int) : ABRow := ⟨t, 1, 1, 1, 1, 1, 1, 0⟩

theorem nullRow_se (t : Int) : 0 < statStdError .absolute .realValued (nullRow t) := by
  simp only [statStdError, getVariance, nullRow]
  apply Real.sqrt_pos.2; norm_num

theorem nullRow_stat (t : Int) (s : StatKind) (k : VarKind) :
    testStatistic s k (nullRow t) = 0 := by
  cases s <;> simp [testStatistic, statDifference, statNull, nullRow]

example : rejected .oneSidedUpper (criticalValue logisticDist .oneSidedUpper (1 / 2))
      (testStatistic .absolute .realValued (nullRow 0)) = true ↔
    OutsideLimits .absolute .realValued .oneSidedUpper
      ((criticalValue logisticDist .oneSidedUpper (1 / 2)).absolute.getD 0) (nullRow 0) :=
  C28_duality_partial logistic_ok _ _ _ (by norm_num) (by norm_num) (Or.inr le_rfl) _
    (nullRow_se 0) (by simp)

/-- C28 is violated for one-sided tests with a corrected alpha above 1/2, whatever the normal
distribution functions are: the sign of the critical value is lost in
`absolute_critical_value`.  Witness: no difference at all is rejected, while the hypothesised
effect 0 is inside the reported interval. -/
theorem C28_duality_violated {N : NormDist} (hN : N.Ok) {c : ℝ} (hc : 1 / 2 < c) (h1 : c < 1)
    (t : TestType) (ht : t ≠ .twoSided) :
    ∃ r : ABRow, 0 < statStdError .absolute .realValued r ∧
      rejected t (criticalValue N t c) (testStatistic .absolute .realValued r) = true ∧
      ¬ OutsideLimits .absolute .realValued t ((criticalValue N t c).absolute.getD 0) r := by
  have hpos : 0 < N.ppf c := by
    rw [← hN.half]; exact hN.mono _ _ (by norm_num) hc h1
  have hneg : N.ppf (1 - c) = - N.ppf c := hN.symm c (by linarith) h1
  have hse := nullRow_se 0
  refine ⟨nullRow 0, hse, ?_, ?_⟩
  · rw [nullRow_stat]
    cases t with
    | oneSidedLower => simp [rejected, criticalValue, hpos.le]
    | oneSidedUpper => simp [rejected, criticalValue, hneg, hpos.le]
    | twoSided => exact absurd rfl ht
  · have hd : statDifference .absolute (nullRow 0) = 0 := by simp [statDifference, nullRow]
    have hn : nullOnScale .absolute (nullRow 0) = 0 := by simp [nullOnScale, nullRow]
    have hprod := mul_pos hpos hse
    rintro (⟨u, hu, hle⟩ | ⟨l, hl, hle⟩)
    · cases t with
      | oneSidedLower =>
        simp only [upperLimit, criticalValue, CriticalValue.absolute, Option.getD_some,
          Option.some.injEq, reportScale, hd, abs_of_pos hpos] at hu
        rw [hn] at hle
        linarith
      | oneSidedUpper => simp [upperLimit] at hu
      | twoSided => exact absurd rfl ht
    · cases t with
      | oneSidedLower => simp [lowerLimit] at hl
      | oneSidedUpper =>
        simp only [lowerLimit, criticalValue, CriticalValue.absolute, Option.getD_some,
          Option.some.injEq, reportScale, hd, hneg, abs_neg, abs_of_pos hpos] at hl
        rw [hn] at hle
        linarith
      | twoSided => exact absurd rfl ht

/-- C58: for the one-sided tests a point is rejected exactly when its reported significance is at
most the corrected alpha; for the two-sided test exactly when it is at most half of it. -/
theorem C58_stat_sig_partial {N : NormDist} (hN : N.Ok) (t : TestType) {c : ℝ} (h0 : 0 < c)
    (h1 : c < 1) (x : ℝ) :
    rejected t (criticalValue N t c) x = true ↔
      statSig N t x ≤ (if t = .twoSided then c / 2 else c) := by
  have lo : ∀ q, 0 < q → q < 1 → (x ≤ N.ppf q ↔ N.cdf x ≤ q) := by
    intro q hq0 hq1
    rw [← hN.cdf_mono.le_iff_le, hN.inv q hq0 hq1]
  have up : ∀ q, 0 < q → q < 1 → (N.ppf q ≤ x ↔ q ≤ N.cdf x) := by
    intro q hq0 hq1
    rw [← hN.cdf_mono.le_iff_le, hN.inv q hq0 hq1]
  cases t with
  | oneSidedLower =>
    simp only [rejected, criticalValue, Option.getD_some, decide_eq_true_eq, statSig, reduceCtorEq,
      if_false, lo c h0 h1]
  | oneSidedUpper =>
    simp only [rejected, criticalValue, Option.getD_some, decide_eq_true_eq, statSig, reduceCtorEq,
      if_false, up (1 - c) (by linarith) (by linarith)]
    constructor <;> intro h <;> linarith
  | twoSided =>
    simp only [rejected, criticalValue, Option.getD_some, decide_eq_true_eq, statSig, if_true,
      Bool.or_eq_true, lo (c / 2) (by linarith) (by linarith),
      up (1 - c / 2) (by linarith) (by linarith), min_le_iff]
    constructor <;> (rintro (h | h) <;> [left; right] <;> linarith)

/-- C58 is violated for the two-sided test: the reported significance is half of the p-value, so
some point is not rejected although its significance is at most alpha. -/
theorem C58_stat_sig_violated {N : NormDist} (hN : N.Ok) {c : ℝ} (h0 : 0 < c) (h1 : c < 1) :
    ∃ x, statSig N .twoSided x ≤ c ∧ rejected .twoSided (criticalValue N .twoSided c) x = false := by
  have hq0 : 0 < min c (1 / 2) := lt_min h0 (by norm_num)
  have hq1 : min c (1 / 2) ≤ 1 / 2 := min_le_right _ _
  have hqc : c / 2 < min c (1 / 2) := lt_min (by linarith) (by linarith)
  refine ⟨N.ppf (min c (1 / 2)), ?_, ?_⟩
  · simp only [statSig, hN.inv _ hq0 (by linarith)]
    exact (min_le_left _ _).trans (min_le_left _ _)
  · rw [Bool.eq_false_iff, Ne, C58_stat_sig_partial hN _ h0 h1]
    simp only [statSig, hN.inv _ hq0 (by linarith), if_true, not_le, lt_min_iff]
    exact ⟨lt_min_iff.1 hqc, by linarith⟩

example : logisticDist.Ok ∧ (0 : ℝ) < 1/20 ∧ (1/20 : ℝ) < 1 := ⟨logistic_ok, by norm_num, by norm_num⟩


/-! ## C29, C39, C56: repeated calls and the caller's objects -/

/-- What a successful call does. -/
theorem fitPredict_ok {s s' : IDState} {cfg : IDConfig} {c : IDCall} {r : IDResult}
    (h : s.fitPredict cfg c = .ok (s', r)) :
    ∃ d q ivs, correctAlpha s c.rows.length c.rTol = .ok (d, q) ∧
      idIntervals s cfg c q = .ok ivs ∧ idPredicted c.rows.length ivs.1 d = .ok r.predicted ∧
      s' = { s with duration := some d, corrected := some q, rejectIntervals := ivs.1,
                    failIntervals := ivs.2 } ∧
      r = idResult cfg c q r.predicted := by
  unfold IDState.fitPredict at h
  split at h
  · cases h
  · cases hc : correctAlpha s c.rows.length c.rTol with
    | error e => rw [hc] at h; cases h
    | ok dc =>
      rw [hc] at h
      simp only [bind, Except.bind] at h
      split at h
      · cases h
      · cases hi : idIntervals s cfg c dc.2 with
        | error e => rw [hi] at h; cases h
        | ok ivs =>
          rw [hi] at h
          simp only [] at h
          cases hp : idPredicted c.rows.length ivs.1 dc.1 with
          | error e => rw [hp] at h; cases h
          | ok p =>
            rw [hp] at h
            simp only [pure, Except.pure] at h
            injection h with h
            injection h with h1 h2
            subst h1 h2
            exact ⟨dc.1, dc.2, ivs, rfl, hi, hp, rfl, rfl⟩

theorem fitPredict_intro {s : IDState} {cfg : IDConfig} {c : IDCall} {d : Nat} {q : ℝ}
    {ivs : Option (List ABInterval) × Option (List ABInterval)} {p : List Bool}
    (hv : validRows c.data) (hk : hookOk cfg.kind c.rows)
    (hc : correctAlpha s c.rows.length c.rTol = .ok (d, q))
    (hi : idIntervals s cfg c q = .ok ivs) (hp : idPredicted c.rows.length ivs.1 d = .ok p) :
    s.fitPredict cfg c = .ok ({ s with
        duration := some d, corrected := some q, rejectIntervals := ivs.1, failIntervals := ivs.2 },
      idResult cfg c q p) := by
  unfold IDState.fitPredict
  rw [if_neg (not_not.2 hv), hc]
  simp only [bind, Except.bind, if_neg (not_not.2 hk), hi, hp]
  rfl

theorem exact_2_1 : exactRunProb (1 / 4 : ℝ) 2 1 = 7 / 16 := by
  rw [exact_rec (by norm_num)]
  simp only [Finset.sum_range_one]
  rw [show 2 - 1 - 0 = 1 from rfl, exact_full]
  norm_num

theorem auto_quarter : lowestM (1 / 4 : ℝ) 2 (1 / 10) = .ok (2, 1 / 16) := by
  rw [(C25_lowest (by norm_num) (by norm_num) 2 1000).1]
  refine ⟨by norm_num, by norm_num, le_rfl, ?_, by norm_num, ?_⟩
  · rw [exact_full]; norm_num
  · intro j h1 h2
    obtain rfl : j = 1 := by omega
    rw [exact_2_1]; norm_num

theorem lowestP_quarter : lowestP 2 2 (1 / 4) (1 / 10) = .ok (1 / 2, 1 / 4) := by
  unfold lowestP
  rw [if_neg (by norm_num), if_pos rfl]
  have : ((1 : ℝ) / 4) ^ ((1 : ℝ) / (2 : Nat)) = 1 / 2 := by
    rw [show (1 : ℝ) / 4 = (1 / 2) ^ 2 by norm_num, ← Real.rpow_natCast, ← Real.rpow_mul (by norm_num)]
    norm_num
  rw [this]

/-- The detector and data of the witnesses: two points without any difference. -/
noncomputable def witnessCfg (N : NormDist) : IDConfig := ⟨N, .realValued, .absolute, .oneSidedUpper⟩
noncomputable def witnessRows : List ABRow := [nullRow 0, nullRow 100]

theorem witness_valid : validRows witnessRows := by
  intro r hr
  simp only [witnessRows, List.mem_cons, List.not_mem_nil, or_false] at hr
  rcases hr with rfl | rfl <;> simp [nullRow]

theorem witness_mask {N : NormDist} (q : ℝ) :
    idMask (witnessCfg N) witnessRows q =
      [decide (N.ppf (1 - q) ≤ 0), decide (N.ppf (1 - q) ≤ 0)] := by
  simp only [idMask, witnessRows, witnessCfg, List.map_cons, List.map_nil, nullRow_stat, rejected,
    criticalValue, Option.getD_some]

theorem witness_cached : witnessRows.map (cacheVariance .realValued) = witnessRows := by
  simp [witnessRows, cacheVariance, getVariance, nullRow]

theorem witness_first {N : NormDist} (hN : N.Ok) :
    ({ alpha := 1 / 4, duration := none } : IDState).fitPredict (witnessCfg N) { data := witnessRows }
      = .ok ({ alpha := 1 / 4, duration := some 2, corrected := some (1 / 16),
               rejectIntervals := some [], failIntervals := some [⟨.failToReject, -30, 130, 0, 1⟩] },
             idResult (witnessCfg N) { data := witnessRows } (1 / 16) [false, false]) := by
  refine fitPredict_intro (d := 2) (q := 1 / 16)
    (ivs := (some [], some [⟨.failToReject, -30, 130, 0, 1⟩])) witness_valid trivial auto_quarter ?_ rfl
  have hpos : ¬ N.ppf (1 - 1 / 16) ≤ 0 := by
    rw [not_le, ← hN.half]; exact hN.mono _ _ (by norm_num) (by norm_num) (by norm_num)
  unfold idIntervals
  simp only [IDCall.rows, witness_mask, hpos, decide_false, if_true]
  simp only [witnessRows, nullRow, List.map_cons, List.map_nil]
  rfl

theorem witness_second {N : NormDist} (hN : N.Ok) (rej fail : Option (List ABInterval)) :
    ({ alpha := 1 / 4, duration := some 2, corrected := some (1 / 16),
       rejectIntervals := rej, failIntervals := fail } : IDState).fitPredict
        (witnessCfg N) { data := witnessRows }
      = .ok ({ alpha := 1 / 4, duration := some 2, corrected := some (1 / 2),
               rejectIntervals := some [⟨.reject, -30, 130, 0, 1⟩], failIntervals := some [] },
             idResult (witnessCfg N) { data := witnessRows } (1 / 2) [true, true]) := by
  refine fitPredict_intro (d := 2) (q := 1 / 2)
    (ivs := (some [⟨.reject, -30, 130, 0, 1⟩], some [])) witness_valid trivial ?_ ?_ rfl
  · simp only [correctAlpha, IDCall.rows, witnessRows, List.length_cons, List.length_nil]
    rw [lowestP_quarter]; rfl
  · have hz : N.ppf (1 - 1 / 2) ≤ 0 := by
      rw [show (1 : ℝ) - 1 / 2 = 1 / 2 by norm_num]; exact hN.half.le
    unfold idIntervals
    simp only [IDCall.rows, witness_mask, hz, decide_true, if_true]
    simp only [witnessRows, nullRow, List.map_cons, List.map_nil]
    rfl

/-- C29 is violated: calling `fit_predict` twice with the same data (left unchanged by the first
call) on a detector with automatic duration gives a different corrected alpha and different
predictions, because the automatic duration is stored as if it had been given. -/
theorem C29_repeat_violated {N : NormDist} (hN : N.Ok) :
    ∃ s s1 s2 : IDState, ∃ r1 r2 : IDResult, s.duration = none ∧
      s.fitPredict (witnessCfg N) { data := witnessRows } = .ok (s1, r1) ∧
      r1.dataAfter = witnessRows ∧
      s1.fitPredict (witnessCfg N) { data := witnessRows } = .ok (s2, r2) ∧
      s1.corrected = some (1 / 16) ∧ s2.corrected = some (1 / 2) ∧
      r1.predicted = [false, false] ∧ r2.predicted = [true, true] :=
  ⟨_, _, _, _, _, rfl, witness_first hN, witness_cached, witness_second hN _ _, rfl, rfl, rfl, rfl⟩

/-- C29 is violated: a call with `consolidate_into_intervals=False` returns the predictions of an
earlier call instead of the all-zero placeholder. -/
theorem C29_placeholder_violated {N : NormDist} (hN : N.Ok) :
    ∃ s s1 s2 : IDState, ∃ r1 r2 : IDResult,
      s.fitPredict (witnessCfg N) { data := witnessRows } = .ok (s1, r1) ∧
      s1.fitPredict (witnessCfg N) { data := witnessRows, consolidate := false } = .ok (s2, r2) ∧
      r2.predicted = [true, true] := by
  refine ⟨_, _, _, _, _, witness_second hN none none,
    fitPredict_intro (d := 2) (q := 1 / 2)
      (ivs := (some [⟨.reject, -30, 130, 0, 1⟩], some [])) (p := [true, true])
      witness_valid trivial ?_ rfl rfl, rfl⟩
  simp only [correctAlpha, IDCall.rows, witnessRows, List.length_cons, List.length_nil]
  rw [lowestP_quarter]; rfl

/-- C29, the part that holds: (1) with consolidation, the result depends only on alpha and duration
(and the arguments), not on anything else remembered; (2) an explicit duration and alpha are kept,
so a later call with equal arguments returns the same response; (3) on an object that never
consolidated, `consolidate_into_intervals=False` gives all zeros. -/
theorem C29_partial {s s' : IDState} {cfg : IDConfig} {c : IDCall} :
    (c.consolidate = true → s.alpha = s'.alpha → s.duration = s'.duration →
      (s.fitPredict cfg c).map (fun o => o.2) = (s'.fitPredict cfg c).map (fun o => o.2)) ∧
    (∀ r, s.fitPredict cfg c = .ok (s', r) → s.duration ≠ none →
      s'.alpha = s.alpha ∧ s'.duration = s.duration) ∧
    (∀ r, s.fitPredict cfg c = .ok (s', r) → c.consolidate = false → s.rejectIntervals = none →
      r.predicted = List.replicate c.rows.length false ∧ s'.rejectIntervals = none) := by
  refine ⟨?_, ?_, ?_⟩
  · intro hc ha hd
    have e1 : ∀ n t, correctAlpha s n t = correctAlpha s' n t := by
      intro n t; unfold correctAlpha; rw [hd, ha]
    have e2 : ∀ q, idIntervals s cfg c q = idIntervals s' cfg c q := by
      intro q; unfold idIntervals; rw [if_pos hc, if_pos hc]
    unfold IDState.fitPredict
    split
    · rfl
    · rw [e1]
      cases correctAlpha s' c.rows.length c.rTol with
      | error e => rfl
      | ok dc =>
        simp only [bind, Except.bind, e2]
        split
        · rfl
        · cases idIntervals s' cfg c dc.2 with
          | error e => rfl
          | ok ivs =>
            simp only []
            cases idPredicted c.rows.length ivs.1 dc.1 with
            | error e => rfl
            | ok p => rfl
  · intro r h hd
    obtain ⟨d, q, ivs, h1, _, _, rfl, _⟩ := fitPredict_ok h
    refine ⟨rfl, ?_⟩
    unfold correctAlpha at h1
    cases hs : s.duration with
    | none => exact absurd hs hd
    | some d0 =>
      rw [hs] at h1
      simp only [bind, Except.bind] at h1
      split at h1
      · cases h1
      · simp only [pure, Except.pure] at h1
        injection h1 with h1
        injection h1 with h1 _
        rw [h1]
  · intro r h hc hn
    obtain ⟨d, q, ivs, _, h2, h3, rfl, _⟩ := fitPredict_ok h
    unfold idIntervals at h2
    rw [hc, hn] at h2
    simp only [Bool.false_eq_true, if_false] at h2
    injection h2 with h2
    subst h2
    simp only [idPredicted] at h3
    injection h3 with h3
    exact ⟨h3.symm, rfl⟩

example {N : NormDist} (hN : N.Ok) : ∃ s' r, ({ alpha := 1 / 4, duration := some 2 } : IDState).fitPredict
    (witnessCfg N) { data := witnessRows } = .ok (s', r) ∧ s'.duration = some 2 :=
  ⟨_, _, fitPredict_intro (d := 2) (q := 1 / 2)
    (ivs := (some [⟨.reject, -30, 130, 0, 1⟩], some [])) (p := [true, true]) witness_valid trivial
    (by simp only [correctAlpha, IDCall.rows, witnessRows, List.length_cons, List.length_nil]
        rw [lowestP_quarter]; rfl)
    (by
      have hz : N.ppf (1 - 1 / 2) ≤ 0 := by
        rw [show (1 : ℝ) - 1 / 2 = 1 / 2 by norm_num]; exact hN.half.le
      unfold idIntervals
      simp only [IDCall.rows, witness_mask, hz, decide_true, if_true]
      simp only [witnessRows, nullRow, List.map_cons, List.map_nil]
      rfl) rfl, rfl⟩

/-- C39 is violated by the interval detector: whenever a call with history and non-empty data
succeeds, the caller's history object has grown by the data. -/
theorem C39_interval_violated {s s' : IDState} {cfg : IDConfig} {c : IDCall} {r : IDResult}
    {h : List ABRow} (hh : c.history = some h) (hd : c.data ≠ [])
    (hok : s.fitPredict cfg c = .ok (s', r)) :
    ∃ h', r.historyAfter = some h' ∧ h'.length = h.length + c.data.length ∧ h' ≠ h := by
  obtain ⟨_, q, _, _, _, _, _, hr⟩ := fitPredict_ok hok
  have hpos := List.length_pos_iff.2 hd
  refine ⟨c.rows.map (cacheVariance cfg.kind), ?_, ?_, ?_⟩
  · rw [hr]; simp [idResult, hh]
  · simp [IDCall.rows, hh]
  · intro e
    have := congrArg List.length e
    simp [IDCall.rows, hh] at this
    exact hd this

/-- The variances in a frame, divided by the counts. -/
noncomputable def rescaled (r : ABRow) : ABRow :=
  { r with varianceA := r.varianceA / r.countA, varianceB := r.varianceB / r.countB }

/-- A call succeeds whenever the correction does and the data are valid, in order and padded. -/
theorem fitPredict_total {s : IDState} {cfg : IDConfig} {c : IDCall} {d : Nat} {q : ℝ}
    (hv : validRows c.data) (hk : hookOk cfg.kind c.rows)
    (hc : correctAlpha s c.rows.length c.rTol = .ok (d, q)) (hcons : c.consolidate = true)
    (hne : c.rows ≠ []) (hpad : 0 < c.padding)
    (hs : (c.rows.map fun r => r.time).Pairwise (· ≤ ·)) :
    ∃ s' p, s.fitPredict cfg c = .ok (s', idResult cfg c q p) ∧ s'.alpha = s.alpha ∧
      s'.duration = some d ∧ s'.corrected = some q := by
  have hlen : (idMask cfg c.rows q).length = c.rows.length := by simp [idMask]
  have hmne : idMask cfg c.rows q ≠ [] := by
    intro h; rw [h] at hlen; exact hne (List.length_eq_zero_iff.1 hlen.symm)
  obtain ⟨a, ha⟩ := C27_intervals_exist .reject (time := c.rows.map fun r => r.time)
    (padding := c.padding) hmne hpad (by simp [hlen]) hs
  obtain ⟨b, hb⟩ := C27_intervals_exist .failToReject (time := c.rows.map fun r => r.time)
    (padding := c.padding) hmne hpad (by simp [hlen]) hs
  obtain ⟨p, hp, _⟩ := C27_predictions ha d
  rw [hlen] at hp
  refine ⟨_, p, fitPredict_intro (ivs := (some a, some b)) hv hk hc ?_ hp, rfl, rfl, rfl⟩
  unfold idIntervals
  rw [if_pos hcons]
  simp only [ha, hb, bind, Except.bind, pure, Except.pure]

/-- C56 is violated: `fit_predict(data)` overwrites the variance columns of the caller's data (here
by variance / count), so that the second of two identical calls with the same object and an
explicit duration computes different test statistics. -/
theorem C56_data_violated (N : NormDist) :
    ∃ (s s1 s2 : IDState) (data : List ABRow) (r1 r2 : IDResult), s.duration = some 1 ∧
      s.fitPredict (witnessCfg N) { data := data } = .ok (s1, r1) ∧
      r1.dataAfter = data.map rescaled ∧ r1.dataAfter ≠ data ∧
      s1.fitPredict (witnessCfg N) { data := r1.dataAfter } = .ok (s2, r2) ∧
      r1.scores = [1] ∧ r2.scores = [2] := by
  have hq : ∀ s : IDState, s.alpha = 1 / 4 → s.duration = some 1 →
      correctAlpha s 1 (1 / 10) = .ok (1, (1 / 4 : ℝ) ^ ((1 : ℝ) / (1 : Nat))) := by
    intro s h1 h2
    have e : lowestP 1 1 (1 / 4) (1 / 10) = .ok ((1 / 4 : ℝ) ^ ((1 : ℝ) / (1 : Nat)), 1 / 4) := by
      unfold lowestP
      rw [if_neg (by norm_num), if_pos rfl]
    unfold correctAlpha
    rw [h2, h1]
    dsimp only
    rw [e]; rfl
  have hs1 : Real.sqrt ((2 : ℝ) / (4 : Int) + 2 / (4 : Int)) = 1 := by
    rw [show (2 : ℝ) / (4 : Int) + 2 / (4 : Int) = 1 by norm_num, Real.sqrt_one]
  have hs2 : Real.sqrt ((2 : ℝ) / (4 : Int) / (4 : Int) + 2 / (4 : Int) / (4 : Int)) = 1 / 2 := by
    rw [show (2 : ℝ) / (4 : Int) / (4 : Int) + 2 / (4 : Int) / (4 : Int) = (1 / 2) ^ 2 by norm_num,
      Real.sqrt_sq (by norm_num)]
  let row : ABRow := ⟨0, 0, 1, 2, 2, 4, 4, 0⟩
  obtain ⟨s1, p1, h1, a1, d1, _⟩ := fitPredict_total (s := { alpha := 1 / 4, duration := some 1 })
    (cfg := witnessCfg N) (c := { data := [row] }) (by simp [validRows, row]) trivial
    (hq _ rfl rfl) rfl (by simp [IDCall.rows]) (by norm_num) (by simp [IDCall.rows])
  obtain ⟨s2, p2, h2, _⟩ := fitPredict_total (s := s1)
    (cfg := witnessCfg N) (c := { data := [rescaled row] }) (by norm_num [validRows, row, rescaled])
    trivial (hq _ a1 d1) rfl (by simp [IDCall.rows]) (by norm_num) (by simp [IDCall.rows])
  refine ⟨_, s1, s2, [row], _, _, rfl, h1, rfl, ?_, h2, ?_, ?_⟩
  · intro e
    have e' : [rescaled row] = [row] := e
    have := congrArg ABRow.varianceA (List.cons.inj e').1
    norm_num [rescaled, row] at this
  · simp only [idResult, IDCall.rows, witnessCfg, List.map_cons, List.map_nil, testStatistic,
      statDifference, statNull, statStdError, getVariance, row, hs1]
    norm_num
  · simp only [idResult, IDCall.rows, witnessCfg, List.map_cons, List.map_nil, testStatistic,
      statDifference, statNull, statStdError, getVariance, row, rescaled, hs2]
    norm_num

/-- C56, the part that holds: data passed together with a history is left alone, and otherwise only
the two variance columns change; for real-valued data with all counts 1 nothing changes. -/
theorem C56_data_partial {s s' : IDState} {cfg : IDConfig} {c : IDCall} {r : IDResult}
    (hok : s.fitPredict cfg c = .ok (s', r)) :
    (c.history ≠ none → r.dataAfter = c.data) ∧
    r.dataAfter.map (fun x => (x.time, x.valueA, x.valueB, x.countA, x.countB, x.effect))
      = c.data.map (fun x => (x.time, x.valueA, x.valueB, x.countA, x.countB, x.effect)) ∧
    (cfg.kind = .realValued → (∀ x ∈ c.data, x.countA = 1 ∧ x.countB = 1) →
      r.dataAfter = c.data) := by
  obtain ⟨_, q, _, _, _, _, _, hr⟩ := fitPredict_ok hok
  cases hh : c.history with
  | some h =>
    have e : r.dataAfter = c.data := by rw [hr]; simp [idResult, hh]
    exact ⟨fun _ => e, by rw [e], fun _ _ => e⟩
  | none =>
    have e : r.dataAfter = c.data.map (cacheVariance cfg.kind) := by
      rw [hr]; simp [idResult, hh, IDCall.rows]
    refine ⟨fun h => absurd rfl h, ?_, ?_⟩
    · rw [e, List.map_map]; rfl
    · intro hk hc
      rw [e, hk]
      conv_rhs => rw [← List.map_id c.data]
      apply List.map_congr_left
      intro x hx
      obtain ⟨h1, h2⟩ := hc x hx
      ext <;> simp [cacheVariance, getVariance, h1, h2]

end Kats

import Verif.Model.GmPredict
import Verif.Props.GmRun
import Mathlib.Tactic.FieldSimp
import Mathlib.Tactic.Linarith

/-!
# C141: the adjusted quantiles and the frames of the forecasts
-/

namespace Kats

theorem gmp_getD {α : Type} (l : List α) (i : Nat) (d : α) (h : i < l.length) : l.getD i d = l[i] := by
  rw [List.getD_eq_getElem?_getD, List.getElem?_eq_getElem h]
  rfl

section
variable {K : Type} [Field K]

/-! ## `_adjust_pi` -/

theorem adjust_length (fw q : Nat) (prev cur : List K) : (gmAdjustRow fw q prev cur).length = cur.length := by
  unfold gmAdjustRow
  induction List.range' 1 (q - 1) generalizing cur with
  | nil => rfl
  | cons j r ih =>
    rw [List.foldl_cons, ih]
    unfold gmAdjustBlock
    simp

theorem block_get (fw : Nat) (prev cur : List K) (j k : Nat) :
    (gmAdjustBlock fw prev cur j)[k]? = cur[k]?.map fun v =>
      if j * fw ≤ k ∧ k < (j + 1) * fw then v + (prev.getD ((j + 1) * fw - 1) 0 - cur.getD (j * fw) 0) else v := by
  unfold gmAdjustBlock
  simp

theorem div_iff (fw j k : Nat) (hfw : 1 ≤ fw) : (j * fw ≤ k ∧ k < (j + 1) * fw) ↔ k / fw = j := by
  constructor
  · rintro ⟨h1, h2⟩
    exact Nat.div_eq_of_lt_le h1 h2
  · rintro rfl
    refine ⟨Nat.div_mul_le_self k fw, ?_⟩
    rw [Nat.add_mul, Nat.one_mul]
    have := Nat.div_add_mod k fw
    have := Nat.mod_lt k hfw
    nlinarith [Nat.mul_comm fw (k / fw)]

/-- The adjusted row. -/
theorem adjustRow_get (fw q : Nat) (hfw : 1 ≤ fw) (prev cur : List K) (k : Nat) :
    (gmAdjustRow fw q prev cur)[k]? = cur[k]?.map fun v =>
      if 1 ≤ k / fw ∧ k / fw < q then v + (prev.getD ((k / fw + 1) * fw - 1) 0 - cur.getD (k / fw * fw) 0) else v := by
  have key : ∀ m k, ((List.range' 1 m).foldl (gmAdjustBlock fw prev) cur)[k]? = cur[k]?.map fun v =>
      if 1 ≤ k / fw ∧ k / fw < m + 1 then v + (prev.getD ((k / fw + 1) * fw - 1) 0 - cur.getD (k / fw * fw) 0)
      else v := by
    intro m
    induction m with
    | zero =>
      intro k
      rw [List.range'_zero, List.foldl_nil]
      rcases cur[k]? with _ | v
      · rfl
      · rw [Option.map_some, if_neg (by omega)]
    | succ m ih =>
      intro k
      rw [List.range'_concat, List.foldl_append, List.foldl_cons, List.foldl_nil, block_get, ih k, one_mul]
      rcases hc : cur[k]? with _ | v
      · rfl
      · simp only [Option.map_some]
        congr 1
        have hd : ((List.range' 1 m).foldl (gmAdjustBlock fw prev) cur).getD ((1 + m) * fw) 0 =
            cur.getD ((1 + m) * fw) 0 := by
          rw [List.getD_eq_getElem?_getD, ih, Nat.mul_div_cancel _ hfw, List.getD_eq_getElem?_getD (l := cur)]
          rcases cur[(1 + m) * fw]? with _ | v
          · rfl
          · rw [Option.map_some, if_neg (by omega)]
        rw [hd]
        by_cases hk : (1 + m) * fw ≤ k ∧ k < (1 + m + 1) * fw
        · have he := (div_iff fw (1 + m) k hfw).1 hk
          rw [if_pos hk, he, if_neg (by omega), if_pos (by omega)]
        · rw [if_neg hk]
          have he : ¬ k / fw = 1 + m := fun h => hk ((div_iff fw (1 + m) k hfw).2 h)
          by_cases h1 : 1 ≤ k / fw ∧ k / fw < m + 1
          · rw [if_pos h1, if_pos (by omega)]
          · rw [if_neg h1, if_neg (by omega)]
  unfold gmAdjustRow
  rw [key (q - 1) k]
  rcases hc : cur[k]? with _ | v
  · rfl
  · simp only [Option.map_some]
    congr 1
    by_cases h : 1 ≤ k / fw ∧ k / fw < q
    · rw [if_pos h, if_pos (by omega)]
    · rw [if_neg h, if_neg (by omega)]

/-- The value of window `i`, series `r`, place `k`. -/
def gmVal (F : List (List (List K))) (i r k : Nat) : K := ((F.getD i []).getD r []).getD k 0

theorem gmVal_zero (F G : List (List (List K))) (h : F[0]? = G[0]?) (r k : Nat) : gmVal F 0 r k = gmVal G 0 r k := by
  have : F.getD 0 [] = G.getD 0 [] := by
    rw [List.getD_eq_getElem?_getD, List.getD_eq_getElem?_getD, h]
  unfold gmVal
  rw [this]

/-- All windows have `n` rows of length `len`. -/
def GmShape (n len : Nat) (F : List (List (List K))) : Prop :=
  ∀ w ∈ F, w.length = n ∧ ∀ r ∈ w, r.length = len

theorem gmShape_get {n len : Nat} {F : List (List (List K))} (h : GmShape n len F) (i : Nat) (hi : i < F.length)
    (r : Nat) (hr : r < n) : ((F.getD i []).getD r []).length = len := by
  rw [gmp_getD F i [] hi]
  obtain ⟨h1, h2⟩ := h F[i] (List.getElem_mem hi)
  rw [gmp_getD _ r [] (by omega)]
  exact h2 _ (List.getElem_mem _)

theorem adjustFrom_length (fw q : Nat) (r : List (List (List K))) : ∀ prev, 
    (gmAdjustFrom fw q prev r).length = r.length := by
  induction r with
  | nil => intro prev; rfl
  | cons w r ih => intro prev; simp [gmAdjustFrom, ih]

/-- What every window is. -/
theorem adjust_succ (fw q : Nat) (F : List (List (List K))) (i : Nat) :
    (gmAdjust fw q F)[i + 1]? = F[i + 1]?.map fun w =>
      w.mapIdx fun r cur => gmAdjustRow fw q (((gmAdjust fw q F).getD i []).getD r []) cur := by
  have key : ∀ (l : List (List (List K))) (prev : List (List K)) (i : Nat),
      (gmAdjustFrom fw q prev l)[i]? = l[i]?.map fun w =>
        w.mapIdx fun r cur => gmAdjustRow fw q (((prev :: gmAdjustFrom fw q prev l).getD i []).getD r []) cur := by
    intro l
    induction l with
    | nil => intro prev i; simp [gmAdjustFrom]
    | cons w l ih =>
      intro prev i
      rcases i with _ | i
      · simp [gmAdjustFrom]
      · simp only [gmAdjustFrom, List.getElem?_cons_succ]
        rw [ih]
        simp
  rcases F with _ | ⟨w, l⟩
  · simp [gmAdjust]
  · show (gmAdjustFrom fw q w l)[i]? = _
    rw [key l w i]
    rfl

theorem adjust_shape (fw q n len : Nat) (F : List (List (List K))) (h : GmShape n len F) :
    (gmAdjust fw q F).length = F.length ∧ GmShape n len (gmAdjust fw q F) := by
  have h1 : (gmAdjust fw q F).length = F.length := by
    rcases F with _ | ⟨w, l⟩
    · rfl
    · simp [gmAdjust, adjustFrom_length]
  refine ⟨h1, ?_⟩
  intro w hw
  obtain ⟨i, hi, rfl⟩ := List.getElem_of_mem hw
  rcases i with _ | i
  · have : (gmAdjust fw q F)[0]? = F[0]? := by cases F <;> rfl
    rw [List.getElem?_eq_getElem hi, List.getElem?_eq_getElem (by omega)] at this
    injection this with this
    rw [this]
    exact h _ (List.getElem_mem _)
  · have := adjust_succ fw q F i
    rw [List.getElem?_eq_getElem hi, List.getElem?_eq_getElem (by omega), Option.map_some] at this
    injection this with this
    rw [this]
    obtain ⟨g1, g2⟩ := h F[i + 1] (List.getElem_mem _)
    refine ⟨by simpa using g1, ?_⟩
    intro r hr
    obtain ⟨k, hk, rfl⟩ := List.getElem_of_mem hr
    rw [List.getElem_mapIdx, adjust_length]
    exact g2 _ (List.getElem_mem _)

theorem adjust_val (fw q n : Nat) (hfw : 1 ≤ fw) (F : List (List (List K))) (h : GmShape n (fw * q) F) (i r k : Nat)
    (hi : i + 1 < F.length) (hr : r < n) (hk : k < fw * q) :
    gmVal (gmAdjust fw q F) (i + 1) r k = if 1 ≤ k / fw then gmVal F (i + 1) r k +
      (gmVal (gmAdjust fw q F) i r ((k / fw + 1) * fw - 1) - gmVal F (i + 1) r (k / fw * fw))
      else gmVal F (i + 1) r k := by
  obtain ⟨hl, hs⟩ := adjust_shape fw q n (fw * q) F h
  have e := adjust_succ fw q F i
  have hlr : r < F[i + 1].length := by rw [(h F[i + 1] (List.getElem_mem _)).1]; exact hr
  have hlk : k < F[i + 1][r].length := by
    rw [(h F[i + 1] (List.getElem_mem _)).2 _ (List.getElem_mem _)]; exact hk
  rw [List.getElem?_eq_getElem (by omega), List.getElem?_eq_getElem hi, Option.map_some] at e
  injection e with e
  have hq : k / fw < q := (Nat.div_lt_iff_lt_mul hfw).2 (by rw [Nat.mul_comm]; exact hk)
  have hF : ∀ m, gmVal F (i + 1) r m = (F[i + 1][r]).getD m 0 := by
    intro m
    unfold gmVal
    rw [gmp_getD F (i + 1) [] hi, gmp_getD _ r [] hlr]
  have hA : gmVal (gmAdjust fw q F) (i + 1) r k =
      (gmAdjustRow fw q (((gmAdjust fw q F).getD i []).getD r []) (F[i + 1][r])).getD k 0 := by
    unfold gmVal
    rw [gmp_getD _ (i + 1) [] (by omega), e, gmp_getD _ r [] (by simpa using hlr), List.getElem_mapIdx]
  rw [hA, hF, hF, List.getD_eq_getElem?_getD, adjustRow_get fw q hfw, List.getElem?_eq_getElem hlk]
  simp only [Option.map_some, Option.getD_some]
  rw [gmp_getD _ k 0 hlk]
  by_cases h1 : 1 ≤ k / fw
  · rw [if_pos ⟨h1, hq⟩, if_pos h1]
    rfl
  · rw [if_neg (by tauto), if_neg h1]

/-- C141: the adjustment keeps the number and the shapes of the windows, the first window, all values of the first
quantile, and the differences of two values of one quantile in one window; and a window of another quantile begins
with the value with which the window before it ends. -/
theorem C141_adjust (fw q n : Nat) (hfw : 1 ≤ fw) (F : List (List (List K))) (h : GmShape n (fw * q) F) :
    (gmAdjust fw q F).length = F.length ∧ GmShape n (fw * q) (gmAdjust fw q F) ∧
    (gmAdjust fw q F)[0]? = F[0]? ∧
    (∀ i r k, i < F.length → r < n → k < fw → k < fw * q → gmVal (gmAdjust fw q F) i r k = gmVal F i r k) ∧
    (∀ i r j k k', i < F.length → r < n → j < q → k < fw → k' < fw →
      gmVal (gmAdjust fw q F) i r (j * fw + k) - gmVal (gmAdjust fw q F) i r (j * fw + k') =
        gmVal F i r (j * fw + k) - gmVal F i r (j * fw + k')) ∧
    (∀ i r j, i + 1 < F.length → r < n → 1 ≤ j → j < q →
      gmVal (gmAdjust fw q F) (i + 1) r (j * fw) = gmVal (gmAdjust fw q F) i r (j * fw + (fw - 1))) := by
  obtain ⟨hl, hs⟩ := adjust_shape fw q n (fw * q) F h
  have h0 : (gmAdjust fw q F)[0]? = F[0]? := by cases F <;> rfl
  have hv0 : ∀ r k, gmVal (gmAdjust fw q F) 0 r k = gmVal F 0 r k := by
    exact gmVal_zero _ _ h0
  have hdiv : ∀ j k, k < fw → (j * fw + k) / fw = j := by
    intro j k hk
    rw [Nat.mul_comm, Nat.mul_add_div hfw, Nat.div_eq_of_lt hk, Nat.add_zero]
  have hlt : ∀ j k, j < q → k < fw → j * fw + k < fw * q := by
    intro j k hj hk
    have : (j + 1) * fw ≤ q * fw := Nat.mul_le_mul_right _ hj
    rw [Nat.mul_comm fw q]
    rw [Nat.add_mul, Nat.one_mul] at this
    omega
  refine ⟨hl, hs, h0, ?_, ?_, ?_⟩
  · intro i r k hi hr hk hkq
    rcases i with _ | i
    · exact hv0 r k
    · rw [adjust_val fw q n hfw F h i r k hi hr hkq, if_neg (by rw [Nat.div_eq_of_lt hk]; omega)]
  · intro i r j k k' hi hr hj hk hk'
    rcases i with _ | i
    · rw [hv0, hv0]
    · rw [adjust_val fw q n hfw F h i r _ hi hr (hlt j k hj hk), adjust_val fw q n hfw F h i r _ hi hr (hlt j k' hj hk'),
        hdiv j k hk, hdiv j k' hk']
      split <;> ring
  · intro i r j hi hr h1 hj
    have hz : j * fw / fw = j := Nat.mul_div_cancel _ hfw
    rw [adjust_val fw q n hfw F h i r _ hi hr (by have := hlt j 0 hj hfw; omega), hz, if_pos h1,
      show (j + 1) * fw - 1 = j * fw + (fw - 1) by rw [Nat.add_mul, Nat.one_mul]; omega]
    ring

end

example : GmShape 1 (2 * 2) [[[10, 11, 12, 14]], [[20, 21, 25, 30]]] ∧
    gmAdjust 2 2 [[[10, 11, 12, 14]], [[20, 21, 25, 30]]] = [[[10, 11, 12, 14]], [[20, 21, 14, (19 : Rat)]]] := by
  constructor
  · intro w hw
    simp only [List.mem_cons, List.not_mem_nil, or_false] at hw
    rcases hw with rfl | rfl <;> simp
  · decide +kernel

section
variable {K : Type} [Field K]

/-- C141: these things say what the adjusted windows are. -/
theorem C141_adjust_unique (fw q n : Nat) (hfw : 1 ≤ fw) (F G : List (List (List K)))
    (hG : GmShape n (fw * q) G) (hF : GmShape n (fw * q) F) (hl : G.length = F.length) (h0 : G[0]? = F[0]?)
    (h1 : ∀ i r k, i < F.length → r < n → k < fw → k < fw * q → gmVal G i r k = gmVal F i r k)
    (h2 : ∀ i r j k k', i < F.length → r < n → j < q → k < fw → k' < fw →
      gmVal G i r (j * fw + k) - gmVal G i r (j * fw + k') = gmVal F i r (j * fw + k) - gmVal F i r (j * fw + k'))
    (h3 : ∀ i r j, i + 1 < F.length → r < n → 1 ≤ j → j < q →
      gmVal G (i + 1) r (j * fw) = gmVal G i r (j * fw + (fw - 1))) : G = gmAdjust fw q F := by
  obtain ⟨a1, a2, a3, a4, a5, a6⟩ := C141_adjust fw q n hfw F hF
  have hlt : ∀ j k, j < q → k < fw → j * fw + k < fw * q := by
    intro j k hj hk
    have : (j + 1) * fw ≤ q * fw := Nat.mul_le_mul_right _ hj
    rw [Nat.mul_comm fw q]
    rw [Nat.add_mul, Nat.one_mul] at this
    omega
  have key : ∀ i r k, i < F.length → r < n → k < fw * q → gmVal G i r k = gmVal (gmAdjust fw q F) i r k := by
    intro i
    induction i with
    | zero =>
      intro r k _ _ _
      exact gmVal_zero _ _ (h0.trans a3.symm) r k
    | succ i ih =>
      intro r k hi hr hk
      obtain ⟨j, hj⟩ : ∃ j, j = k / fw := ⟨_, rfl⟩
      obtain ⟨m, hm⟩ : ∃ m, m = k % fw := ⟨_, rfl⟩
      have hmf : m < fw := by rw [hm]; exact Nat.mod_lt _ hfw
      have hjq : j < q := by rw [hj]; exact (Nat.div_lt_iff_lt_mul hfw).2 (by rw [Nat.mul_comm]; exact hk)
      have hkj : k = j * fw + m := by rw [hj, hm, Nat.mul_comm]; exact (Nat.div_add_mod k fw).symm
      by_cases hj1 : 1 ≤ j
      · have e1 := h2 (i + 1) r j m 0 hi hr hjq hmf hfw
        have e2 := a5 (i + 1) r j m 0 hi hr hjq hmf hfw
        have e3 := h3 i r j hi hr hj1 hjq
        have e4 := a6 i r j hi hr hj1 hjq
        have e5 := ih r (j * fw + (fw - 1)) (by omega) hr (hlt j _ hjq (by omega))
        rw [hkj]
        simp only [Nat.add_zero] at e1 e2
        rw [e3] at e1
        rw [e4] at e2
        rw [e5] at e1
        have : gmVal G (i + 1) r (j * fw + m) - gmVal (gmAdjust fw q F) i r (j * fw + (fw - 1)) =
          gmVal (gmAdjust fw q F) (i + 1) r (j * fw + m) - gmVal (gmAdjust fw q F) i r (j * fw + (fw - 1)) := by
          rw [e1, e2]
        exact sub_left_injective this
      · have hkf : k < fw := by
          have : j = 0 := by omega
          rw [hkj, this]; omega
        rw [h1 (i + 1) r k hi hr hkf hk, a4 (i + 1) r k hi hr hkf hk]
  apply List.ext_getElem (by omega)
  intro i hi hi'
  obtain ⟨g1, g2⟩ := hG _ (List.getElem_mem hi)
  obtain ⟨g3, g4⟩ := a2 _ (List.getElem_mem hi')
  apply List.ext_getElem (by omega)
  intro r hr hr'
  have g5 := g2 _ (List.getElem_mem hr)
  have g6 := g4 _ (List.getElem_mem hr')
  apply List.ext_getElem (by omega)
  intro k hk hk'
  have := key i r k (by omega) (by omega) (by omega)
  unfold gmVal at this
  rwa [gmp_getD _ i [] hi, gmp_getD _ r [] hr, gmp_getD _ k 0 hk, gmp_getD _ i [] hi',
    gmp_getD _ r [] hr', gmp_getD _ k 0 hk'] at this

/-- C141 violated: with windows of one step the adjusted quantiles, all but the first, are constant: they have the
value of the first step at every step, whatever the network gives. -/
theorem C141_constant_violated (q n : Nat) (F : List (List (List K))) (h : GmShape n (1 * q) F) (i r j : Nat)
    (hi : i < F.length) (hr : r < n) (h1 : 1 ≤ j) (hj : j < q) :
    gmVal (gmAdjust 1 q F) i r j = gmVal F 0 r j := by
  obtain ⟨a1, a2, a3, a4, a5, a6⟩ := C141_adjust 1 q n (le_refl 1) F h
  induction i with
  | zero => exact gmVal_zero _ _ a3 r j
  | succ i ih =>
    have := a6 i r j hi hr h1 hj
    simp only [Nat.mul_one, Nat.sub_self, Nat.add_zero] at this
    rw [this]
    exact ih (by omega)

end

example : gmAdjust 1 2 [[[10, 12]], [[20, 30]], [[40, 60]]] = [[[10, 12]], [[20, 12]], [[40, (12 : Rat)]]] := by
  decide +kernel

/-- C141 violated: an upper quantile that is above the first one in every window may be below it after the
adjustment.  For windows of any length: if the forecasts are constant in a window, `m` and `u` in the first and
`m'` and `u'` in the second, with `u < m'`, then after the adjustment the upper quantile of the second is `u`. -/
theorem C141_crossing_violated {K : Type} [Field K] [LinearOrder K] [IsStrictOrderedRing K] (fw : Nat) (hfw : 1 ≤ fw)
    (m u m' u' : K) (_h1 : m < u) (_h2 : m' < u') (h3 : u < m') (k : Nat) (hk : k < fw) :
    gmVal (gmAdjust fw 2 [[List.replicate fw m ++ List.replicate fw u],
        [List.replicate fw m' ++ List.replicate fw u']]) 1 0 (fw + k) <
      gmVal (gmAdjust fw 2 [[List.replicate fw m ++ List.replicate fw u],
        [List.replicate fw m' ++ List.replicate fw u']]) 1 0 k := by
  obtain ⟨F, hF⟩ : ∃ F, F = [[List.replicate fw m ++ List.replicate fw u],
        [List.replicate fw m' ++ List.replicate fw u']] := ⟨_, rfl⟩
  rw [← hF]
  have hs : GmShape 1 (fw * 2) F := by
    intro w hw
    rw [hF] at hw
    simp only [List.mem_cons, List.not_mem_nil, or_false] at hw
    rcases hw with rfl | rfl <;> simp <;> omega
  have hFl : F.length = 2 := by rw [hF]; rfl
  obtain ⟨a1, a2, a3, a4, a5, a6⟩ := C141_adjust fw 2 1 hfw F hs
  have e1 := a4 1 0 k (by omega) (by omega) hk (by omega)
  have e2 := a5 1 0 1 k 0 (by omega) (by omega) (by omega) hk hfw
  have e3 := a6 0 0 1 (by omega) (by omega) (by omega) (by omega)
  have v0 : gmVal (gmAdjust fw 2 F) 0 0 (1 * fw + (fw - 1)) = u := by
    have : gmVal (gmAdjust fw 2 F) 0 0 (1 * fw + (fw - 1)) = gmVal F 0 0 (1 * fw + (fw - 1)) :=
      gmVal_zero _ _ a3 _ _
    rw [this, hF]
    simp [gmVal, List.getElem?_append, List.getElem?_replicate]
    rw [if_pos (show 0 < fw from hfw)]
    rfl
  have v1 : ∀ k, k < fw → gmVal F 1 0 k = m' := by
    intro k hk
    rw [hF]
    simp [gmVal, List.getElem?_append, List.getElem?_replicate, hk]
  have v2 : ∀ k, k < fw → gmVal F 1 0 (1 * fw + k) = u' := by
    intro k hk
    rw [hF]
    simp [gmVal, List.getElem?_append, List.getElem?_replicate, hk]
  rw [v2 k hk, v2 0 hfw, sub_self, Nat.add_zero, e3, v0, one_mul, sub_eq_zero] at e2
  rw [e1, e2, v1 k hk]
  exact h3

/-- Ten and eleven, then twenty and twenty-one: after the adjustment the upper quantile is eleven. -/
example : (10 : Rat) < 11 ∧ (20 : Rat) < 21 ∧ (11 : Rat) < 20 ∧
    gmAdjust 2 2 [[[10, 10, 11, 11]], [[20, 20, 21, 21]]] = [[[10, 10, 11, 11]], [[20, 20, 11, (11 : Rat)]]] := by
  refine ⟨by norm_num, by norm_num, by norm_num, by decide +kernel⟩

/-! ## `_format_fcst` -/

section
variable {K : Type} [Field K]

theorem flat_get {α β : Type} (g : α → List β) (fw : Nat) (hfw : 1 ≤ fw) : ∀ (l : List α), (∀ a ∈ l, (g a).length = fw) →
    ∀ t, (l.flatMap g)[t]? = l[t / fw]?.bind fun a => (g a)[t % fw]? := by
  intro l
  induction l with
  | nil => intro _ t; simp
  | cons a l ih =>
    intro h t
    have ha := h a (by simp)
    rw [List.flatMap_cons, List.getElem?_append, ha]
    by_cases ht : t < fw
    · rw [if_pos ht, Nat.div_eq_of_lt ht, Nat.mod_eq_of_lt ht]
      rfl
    · rw [if_neg ht, ih fun b hb => h b (by simp [hb])]
      obtain ⟨s, hs⟩ : ∃ s, s = t - fw := ⟨_, rfl⟩
      have : t = s + fw := by omega
      rw [← hs, this, Nat.add_div_right _ hfw, Nat.add_mod_right]
      rfl

theorem flat_length {α β : Type} (g : α → List β) (fw : Nat) (l : List α) (h : ∀ a ∈ l, (g a).length = fw) :
    (l.flatMap g).length = l.length * fw := by
  induction l with
  | nil => simp
  | cons a l ih =>
    rw [List.flatMap_cons, List.length_append, ih fun b hb => h b (by simp [hb]), h a (by simp), List.length_cons]
    ring

theorem column_block (fw q j : Nat) (hj : j < q) (r : List K) (h : r.length = fw * q) :
    ((r.drop (j * (r.length / q))).take (r.length / q)).length = fw ∧
    ∀ m, m < fw → ((r.drop (j * (r.length / q))).take (r.length / q))[m]? = r[j * fw + m]? := by
  have hq : r.length / q = fw := by rw [h]; exact Nat.mul_div_cancel _ (by omega)
  have : (j + 1) * fw ≤ q * fw := Nat.mul_le_mul_right _ hj
  rw [Nat.add_mul, Nat.one_mul, Nat.mul_comm q] at this
  rw [hq]
  constructor
  · rw [List.length_take, List.length_drop, h]
    omega
  · intro m hm
    rw [List.getElem?_take_of_lt hm, List.getElem?_drop]

/-- C141: the frame of a series has one row for every step and one column for every quantile; the value at step
`t` is that of place `t % fw` of the quantile in window `t / fw`; and its times are one frequency apart from the
first one on. -/
theorem C141_frame (quantile : List String) (hq : quantile ≠ []) (fw : Nat) (hfw : 1 ≤ fw) (freq : Int)
    (steps : Nat) (rows : List (List K)) (hne : rows ≠ []) (hr : ∀ r ∈ rows, r.length = fw * quantile.length)
    (hs : steps ≤ rows.length * fw) (first : Int) :
    ∃ t, gmFrame quantile freq steps rows first = .ok t ∧
      t.names = quantile.map ("fcst_quantile_" ++ ·) ∧ t.rows.length = steps ∧ t.time.length = steps ∧
      (∀ r ∈ t.rows, r.length = quantile.length) ∧
      (∀ k j, k < steps → j < quantile.length → ∃ w v, rows[k / fw]? = some w ∧ w[j * fw + k % fw]? = some v ∧
        (t.rows.getD k []).getD j 0 = v) ∧
      ∀ k : Nat, k < steps → t.time[k]? = some (first + (k : Int) * freq) := by
  have hq1 : 1 ≤ quantile.length := by
    rcases quantile with _ | ⟨a, l⟩
    · exact absurd rfl hq
    · simp
  have hlen : ∀ j, j < quantile.length → (gmColumn quantile.length rows j).length = rows.length * fw := by
    intro j hj
    unfold gmColumn
    exact flat_length _ fw rows fun r hr' => (column_block fw _ j hj r (hr r hr')).1
  unfold gmFrame
  simp only []
  rw [if_neg (by
    rintro (h | h | ⟨r, h1, h2⟩)
    · rw [List.isEmpty_iff] at h; exact hne h
    · omega
    · rw [hr r h1, Nat.mul_mod_left] at h2; exact h2 rfl), hlen 0 hq1, if_pos (by omega)]
  refine ⟨_, rfl, rfl, ?_, ?_, ?_, ?_, ?_⟩
  · simp; omega
  · simp [gmDates]
  · intro r hr'
    simp only [List.mem_map] at hr'
    obtain ⟨t, _, rfl⟩ := hr'
    simp
  · intro k j hk hj
    have hkl : k / fw < rows.length := (Nat.div_lt_iff_lt_mul hfw).2 (by omega)
    have hb := column_block fw _ j hj rows[k / fw] (hr _ (List.getElem_mem hkl))
    have hm : k % fw < fw := Nat.mod_lt _ hfw
    have hin : j * fw + k % fw < rows[k / fw].length := by
      rw [hr _ (List.getElem_mem hkl)]
      have : (j + 1) * fw ≤ quantile.length * fw := Nat.mul_le_mul_right _ hj
      rw [Nat.add_mul, Nat.one_mul, Nat.mul_comm quantile.length] at this
      omega
    refine ⟨_, _, List.getElem?_eq_getElem hkl, List.getElem?_eq_getElem hin, ?_⟩
    have hg : (gmColumn quantile.length rows j)[k]? = some (rows[k / fw][j * fw + k % fw]) := by
      unfold gmColumn
      rw [flat_get _ fw hfw rows (fun r hr' => (column_block fw _ j hj r (hr r hr')).1), List.getElem?_eq_getElem hkl]
      simp only [Option.bind_some]
      rw [hb.2 _ hm, List.getElem?_eq_getElem hin]
    rw [show min steps (rows.length * fw) = steps by omega, gmp_getD _ k [] (by simpa using hk), List.getElem_map,
      List.getElem_range, gmp_getD _ j 0 (by simpa using hj), List.getElem_map, List.getElem_range,
      List.getD_eq_getElem?_getD, hg]
    rfl
  · intro k hk
    simp [gmDates, List.getElem?_range hk]

end

example : (gmFrame ["0.5", "0.9"] 7 3 [[10, 11, 12, 14], [20, 21, 14, (19 : Rat)]] 100).toOption =
    some ⟨["fcst_quantile_0.5", "fcst_quantile_0.9"], [[10, 12], [11, 14], [20, 14]], [100, 107, 114]⟩ := by
  decide +kernel

/-- C141 violated: without a step there is no frame. -/
theorem C141_no_steps_violated {K : Type} [Field K] (quantile : List String) (freq : Int) (steps : Nat) (first : Int) :
    gmStepNum 0 5 = 0 ∧ gmFrame quantile freq steps ([] : List (List K)) first = .error .valueError :=
  ⟨rfl, by unfold gmFrame; simp⟩

end Kats

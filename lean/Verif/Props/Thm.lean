import Verif.Lemmas.Thm
import Verif.Lemmas.Metrics

/-!
# Theorems about hierarchical forecasts (C46-C48, C82-C85)
-/

namespace Kats
namespace THM

open Matrix

/-! ## Helpers -/

theorem mapM_except {α β : Type} (f : α → Except Err β) : ∀ (l : List α) (r : List β),
    l.mapM f = .ok r ↔ List.Forall₂ (fun a b => f a = .ok b) l r
  | [], r => by
    rw [List.mapM_nil, List.forall₂_nil_left_iff]
    constructor
    · intro h; exact (Except.ok.inj h).symm
    · rintro rfl; rfl
  | a :: l, r => by
    rw [List.mapM_cons]
    constructor
    · intro h
      cases hf : f a with
      | error e => rw [hf] at h; cases h
      | ok b =>
        cases hl : l.mapM f with
        | error e => rw [hf, hl] at h; cases h
        | ok bs =>
          rw [hf, hl] at h
          obtain rfl : b :: bs = r := Except.ok.inj h
          exact .cons hf ((mapM_except f l bs).1 hl)
    · intro h
      cases h with
      | cons h1 h2 => rw [h1, (mapM_except f l _).2 h2]; rfl

theorem fit_inv {train trainResid} {n : Nat} {bms : List BaseTH} {t : THM}
    (h : THM.fit train trainResid n bms = .ok t) :
    (∀ b ∈ bms, b.check = .ok ()) ∧ 1 ∈ bms.map (·.level.toNat) ∧ (bms.map (·.level.toNat)).Nodup
    ∧ t.levels = (bms.map (·.level.toNat)).insertionSort (fun a b => b ≤ a)
    ∧ t.m = getM (bms.map (·.level.toNat)) := by
  unfold THM.fit at h
  cases hc : bms.mapM (·.check) with
  | error e => rw [hc] at h; cases h
  | ok us =>
    rw [hc] at h
    simp only [bind, Except.bind] at h
    have h0 : ∀ b ∈ bms, b.check = .ok () := by
      have := (mapM_except _ _ _).1 hc
      clear hc h
      induction this with
      | nil => simp
      | cons h1 _ ih =>
        intro b hb
        rcases List.mem_cons.1 hb with rfl | hb
        · exact h1
        · exact ih b hb
    unfold checkLevels at h
    by_cases h1 : 1 ∉ bms.map (·.level.toNat)
    · rw [if_pos h1] at h; cases h
    · rw [if_neg h1] at h
      by_cases h2 : (bms.map (·.level.toNat)).Nodup
      · rw [if_neg (by simpa using h2)] at h
        dsimp only at h
        split_ifs at h
        obtain rfl := Except.ok.inj h
        exact ⟨h0, not_not.1 h1, h2, rfl, rfl⟩
      · rw [if_pos (by simpa using h2)] at h; cases h

/-- A successfully constructed model has the shape the theorems assume. -/
theorem fit_wf {train trainResid} {n : Nat} {bms : List BaseTH} {t : THM}
    (h : THM.fit train trainResid n bms = .ok t) : WF t := by
  obtain ⟨h0, h1, h2, e1, e2⟩ := fit_inv h
  have hpos : ∀ k ∈ bms.map (·.level.toNat), 1 ≤ k := by
    intro k hk
    obtain ⟨b, hb, rfl⟩ := List.mem_map.1 hk
    have := h0 b hb
    unfold BaseTH.check at this
    by_cases hl : b.level < 1
    · rw [if_pos hl] at this; cases this
    · omega
  have hperm := List.perm_insertionSort (fun a b : Nat => b ≤ a) (bms.map (·.level.toNat))
  have hmem : ∀ k, k ∈ t.levels ↔ k ∈ bms.map (·.level.toNat) := by
    intro k; rw [e1]; exact hperm.mem_iff
  obtain ⟨m1, -, m3, -⟩ := getM_foldl _ hpos 1 Nat.one_pos
  have hsort : t.levels.Pairwise fun a b => b ≤ a := by
    rw [e1]
    have := List.pairwise_insertionSort (fun a b : Nat => b ≤ a) (bms.map (·.level.toNat))
    exact this
  have hnd : t.levels.Nodup := by rw [e1]; exact hperm.nodup_iff.2 h2
  exact {
    last := last_is_one hsort hnd (fun k hk => hpos k ((hmem k).1 hk)) ((hmem 1).2 h1)
    nodup := hnd
    pos := fun k hk => hpos k ((hmem k).1 hk)
    dvd := fun k hk => by rw [e2]; exact m3 k ((hmem k).1 hk)
    mpos := by rw [e2]; exact m1 }

/-- C46 (period): the period `m` is the least common multiple of the levels: a multiple of each, and a
divisor of every common multiple. -/
theorem C46_period {train trainResid} {n : Nat} {bms : List BaseTH} {t : THM}
    (h : THM.fit train trainResid n bms = .ok t) :
    0 < t.m ∧ (∀ b ∈ bms, b.level.toNat ∣ t.m) ∧ ∀ x, (∀ b ∈ bms, b.level.toNat ∣ x) → t.m ∣ x := by
  obtain ⟨h0, h1, h2, e1, e2⟩ := fit_inv h
  have hpos : ∀ k ∈ bms.map (·.level.toNat), 1 ≤ k := by
    intro k hk
    exact (fit_wf h).pos k (by
      rw [e1]; exact (List.perm_insertionSort (fun a b : Nat => b ≤ a) _).mem_iff.2 hk)
  obtain ⟨m1, -, m3, m4⟩ := getM_foldl _ hpos 1 Nat.one_pos
  rw [e2]
  refine ⟨m1, fun b hb => m3 _ (List.mem_map_of_mem hb), ?_⟩
  intro x hx
  apply m4 x (one_dvd x)
  intro k hk
  obtain ⟨b, hb, rfl⟩ := List.mem_map.1 hk
  exact hx b hb

/-- Three levels with given forecasts. -/
def exBms : List BaseTH :=
  [⟨1, none, false, some [some 1], some [1, 2, 3, 4, 5, 6]⟩, ⟨3, none, false, some [some 1], some [6, 15]⟩,
   ⟨2, none, false, some [some 1], some [3, 7, 11]⟩]

example : ∃ t, THM.fit (fun _ _ _ _ => 0) (fun _ _ => []) 10 exBms = .ok t ∧ t.levels = [3, 2, 1] ∧ t.m = 6 := by
  refine ⟨_, rfl, by decide +kernel, by decide +kernel⟩

/-! ## C46: coherence -/

theorem vsum_map_some (l : List Rat) : vsum (l.map some) = some l.sum := by
  induction l with
  | nil => rfl
  | cons x l ih =>
    rw [List.map_cons]
    change vadd (some x) (vsum (l.map some)) = _
    rw [ih, List.sum_cons]; rfl

theorem blockAt_eq {α : Type} (data : List α) (k j : Nat) (d : α) (h : j * k + k ≤ data.length) :
    blockAt data k j = (List.range k).map fun i => data.getD (j * k + i) d := by
  unfold blockAt
  apply List.ext_getElem?
  intro i
  by_cases hi : i < k
  · rw [List.getElem?_take_of_lt hi, List.getElem?_drop, List.getElem?_map, List.getElem?_range hi,
      List.getElem?_eq_getElem (by omega), Option.map_some, List.getD_eq_getElem?_getD,
      List.getElem?_eq_getElem (by omega)]
    rfl
  · rw [List.getElem?_eq_none (by rw [List.length_take]; omega), List.getElem?_eq_none (by simp; omega)]

/-- The value of level `k` at block `j`, from level-1 values. -/
def levelSum (y : List Val) (k j : Nat) : Val := vsum ((List.range k).map fun i => y.getD (j * k + i) none)

theorem levelSum_one (y : List Val) (j : Nat) : levelSum y 1 j = y.getD j none := by
  unfold levelSum
  rw [List.range_one, List.map_singleton, Nat.mul_one, Nat.add_zero]
  cases y.getD j none with
  | none => rfl
  | some x => simp [vsum, vadd]

theorem aggData_take {y : List Val} {k steps : Nat} {l : List Val} (hy : steps ≤ y.length)
    (h : aggData y k = .ok l) :
    1 ≤ k ∧ l.take (steps / k) = (List.range (steps / k)).map (levelSum (y.take steps) k) := by
  unfold aggData at h
  by_cases h1 : k = 1
  · subst h1
    rw [if_pos rfl] at h
    obtain rfl := Except.ok.inj h
    refine ⟨le_rfl, ?_⟩
    rw [Nat.div_one]
    apply List.ext_getElem?
    intro i
    by_cases hi : i < steps
    · rw [List.getElem?_take_of_lt hi, List.getElem?_map, List.getElem?_range hi, Option.map_some,
        levelSum_one, List.getD_eq_getElem?_getD, List.getElem?_take_of_lt hi,
        List.getElem?_eq_getElem (by omega)]
      rfl
    · rw [List.getElem?_eq_none (by rw [List.length_take]; omega), List.getElem?_eq_none (by simp; omega)]
  · rw [if_neg h1] at h
    by_cases h0 : k = 0
    · rw [if_pos h0] at h; cases h
    · rw [if_neg h0] at h
      obtain rfl := Except.ok.inj h
      refine ⟨by omega, ?_⟩
      have hle : steps / k ≤ y.length / k := Nat.div_le_div_right hy
      unfold blockSums
      rw [← List.map_take, List.take_range, Nat.min_eq_left hle]
      apply List.map_congr_left
      intro j hj
      rw [List.mem_range] at hj
      have hjk : j * k + k ≤ steps := by
        rw [← Nat.succ_mul]
        exact (Nat.mul_le_mul_right k hj).trans (Nat.div_mul_le_self steps k)
      rw [blockAt_eq y k j none (by omega)]
      unfold levelSum
      congr 1
      apply List.map_congr_left
      intro i hi
      rw [List.mem_range] at hi
      rw [List.getD_eq_getElem?_getD, List.getD_eq_getElem?_getD, List.getElem?_take_of_lt (by omega)]

theorem periods_le {t : THM} (h : WF t) (steps : Nat) :
    steps ≤ t.m * t.periods steps ∧ steps / t.m ≤ t.periods steps
    ∧ (t.m ∣ steps → t.periods steps = steps / t.m) ∧ (t.periods steps = 0 ↔ steps = 0) := by
  unfold periods
  have hm := h.mpos
  have h1 := Nat.div_add_mod (steps + t.m - 1) t.m
  have h2 := Nat.mod_lt (steps + t.m - 1) hm
  refine ⟨by omega, Nat.div_le_div_right (by omega), ?_, ?_⟩
  · rintro ⟨c, rfl⟩
    rw [Nat.mul_div_cancel_left _ hm]
    apply Nat.div_eq_of_lt_le
    · rw [Nat.mul_comm]; omega
    · rw [Nat.succ_mul, Nat.mul_comm]; omega
  · rw [Nat.div_eq_zero_iff]; omega

theorem originOne_length {t : THM} {steps : Nat} {meth : Recon} {k : Nat} {l : List Rat}
    (hk : meth ≠ .bu ∨ k = 1) (h : t.originOne steps meth k = .ok l) :
    l.length = t.freq k * t.periods steps := by
  unfold originOne at h
  dsimp only at h
  cases hs : t.src k with
  | model f =>
    rw [hs] at h
    obtain rfl := Except.ok.inj h
    simp
  | given fc =>
    rw [hs] at h
    dsimp only at h
    split_ifs at h with h1 h2 h3
    · cases hl : fc.getLast? with
      | none => rw [hl] at h; cases h
      | some x =>
        rw [hl] at h
        obtain rfl := Except.ok.inj h
        simp; omega
    · exfalso
      rcases hk with hk | hk
      · exact hk h3.1
      · exact h3.2 hk
    · obtain rfl := Except.ok.inj h
      simp; omega

theorem origins_at {t : THM} (hw : WF t) {steps : Nat} {meth : Recon} {os : List (Nat × List Rat)}
    (h : t.origins steps meth = .ok os) :
    (∀ k ∈ t.levels, t.originOne steps meth k = .ok (at_ os k)) ∧ os.map (·.1) = t.levels := by
  have hf := (mapM_except _ _ _).1 h
  have hnd := hw.nodup
  clear h hw
  unfold at_
  generalize t.levels = ks at hf hnd
  induction hf with
  | nil => simp
  | @cons k o ks os h1 _ ih =>
    obtain ⟨i1, i2⟩ := ih (List.nodup_cons.1 hnd).2
    cases ho : t.originOne steps meth k with
    | error e => rw [ho] at h1; cases h1
    | ok l =>
      rw [ho] at h1
      obtain rfl : (k, l) = o := Except.ok.inj h1
      refine ⟨?_, by rw [List.map_cons, i2]⟩
      intro k' hk'
      by_cases hkk : k' = k
      · subst hkk
        rw [ho, List.lookup_cons, beq_self_eq_true]
        rfl
      · have hb : (k' == k) = false := by simpa using hkk
        rw [List.lookup_cons, hb]
        rcases List.mem_cons.1 hk' with h | h
        · exact absurd h hkk
        · exact i1 k' h

theorem gather_length {n h : Nat} (m steps : Nat) (P : Matrix (Fin n) (Fin h) Rat) :
    (gather m steps P).length = min steps (h * m) := by
  unfold gather
  rw [List.length_take, List.length_flatMap]
  simp

/-- What a successful projection returns: NaN throughout, or the gathered projection. -/
theorem projected_inv {L : LinSolve} {sqrt : Rat → Rat} {t : THM} (hw : WF t) {steps : Nat} {meth : Recon}
    {os : List (Nat × List Rat)} {y : List Val} (h : projected L sqrt t steps meth os = .ok y) :
    (t.periods steps ≠ 0 ∧ t.getW sqrt meth = .ok none ∧ y = List.replicate steps none)
    ∨ (t.periods steps ≠ 0 ∧ ∃ (W : WMat) (T G : Matrix (Fin t.m) (Fin t.rowIdx.length) Rat),
        t.getW sqrt meth = .ok (some W) ∧ WGood t.rowIdx.length W
        ∧ W.toMatrix t.rowIdx.length * Tᵀ = matOf t.rowIdx.length t.m t.getS
        ∧ (T * matOf t.rowIdx.length t.m t.getS) * G = T ∧ G * matOf t.rowIdx.length t.m t.getS = 1
        ∧ y = gather t.m steps (matOf t.rowIdx.length t.m t.getS * G
            * matOf t.rowIdx.length (t.periods steps) (t.stackY steps os))) := by
  unfold projected at h
  split_ifs at h with h0
  cases hW : t.getW sqrt meth with
  | error e => rw [hW] at h; cases h
  | ok W =>
    rw [hW] at h
    simp only [bind, Except.bind] at h
    cases W with
    | none => exact Or.inl ⟨h0, rfl, (Except.ok.inj h).symm⟩
    | some W =>
      dsimp only at h
      have hg := getW_good hw sqrt meth W hW
      obtain ⟨T, G, h1, h2, h3, h4⟩ := project_ok L (matOf t.rowIdx.length t.m t.getS) W hg.2
        (matS_inj hw) (matOf t.rowIdx.length (t.periods steps) (t.stackY steps os))
      rw [h4] at h
      exact Or.inr ⟨h0, W, T, G, rfl, hg, h1, h2, h3, (Except.ok.inj h).symm⟩

theorem level1_length {L : LinSolve} {sqrt : Rat → Rat} {t : THM} (hw : WF t) {steps : Nat} {meth : Recon}
    {os : List (Nat × List Rat)} (ho : t.origins steps meth = .ok os) {y : List Val}
    (h : t.level1 L sqrt steps meth os = .ok y) : steps ≤ y.length := by
  have hp := (periods_le hw steps).1
  have one_mem : 1 ∈ t.levels := by
    obtain ⟨ls, e, -⟩ := hw.last
    rw [e]; simp
  have proj : ∀ meth : Recon, projected L sqrt t steps meth os = .ok y → steps ≤ y.length := by
    intro meth h
    rcases projected_inv hw h with ⟨-, -, rfl⟩ | ⟨h0, W, G, P, -, -, -, -, -, rfl⟩
    · simp
    · rw [gather_length]
      rw [Nat.mul_comm] at hp
      omega
  cases meth with
  | bu =>
    obtain rfl := Except.ok.inj h
    rw [List.length_map, originOne_length (Or.inr rfl) ((origins_at hw ho).1 1 one_mem)]
    unfold freq
    rw [Nat.div_one]; exact hp
  | median =>
    obtain rfl := Except.ok.inj h
    rw [List.length_map, medianY, List.length_map, List.length_range]
    exact hp
  | other => cases h
  | struc => exact proj _ h
  | svar => exact proj _ h
  | hvar => exact proj _ h
  | mintShrink => exact proj _ h
  | mintSample => exact proj _ h

/-- C46 (coherence): whatever the method, the forecasts of all requested levels are the block sums of
one list of `steps` level-1 forecasts, level `k` gets `steps // k` of them, and the levels are those
requested. -/
theorem C46_coherent (L : LinSolve) (sqrt : Rat → Rat) (t : THM) (hw : WF t) (steps : Nat) (meth : Recon)
    (lv : Option (List Nat)) (p : Pred) (h : t.predict_ L sqrt steps meth lv = .ok p) :
    p.fcst.map (·.1) = lv.getD t.levels
    ∧ ∃ y : List Val, y.length = steps
      ∧ ∀ k l, (k, l) ∈ p.fcst → 1 ≤ k ∧ l.length = steps / k
        ∧ (∀ j, j < steps / k → l[j]? = some (vsum ((List.range k).map fun i => y.getD (j * k + i) none)))
        ∧ (k = 1 → l = y) := by
  unfold predict_ at h
  cases ho : t.origins steps meth with
  | error e => rw [ho] at h; cases h
  | ok os =>
    rw [ho] at h
    simp only [bind, Except.bind] at h
    cases hy : t.level1 L sqrt steps meth os with
    | error e => rw [hy] at h; cases h
    | ok y =>
      rw [hy] at h
      dsimp only at h
      have hyl := level1_length hw ho hy
      cases hf : (lv.getD t.levels).mapM (fun k => (aggData y k).map fun l => (k, l.take (steps / k))) with
      | error e => rw [hf] at h; cases h
      | ok f =>
        rw [hf] at h
        obtain rfl := Except.ok.inj h
        have hF := (mapM_except _ _ _).1 hf
        dsimp only
        generalize lv.getD t.levels = ks at hF
        clear hf h
        have hall : ∀ k l, (k, l) ∈ f → 1 ≤ k
            ∧ l = (List.range (steps / k)).map (levelSum (y.take steps) k) := by
          induction hF with
          | nil => simp
          | @cons k e ks f h1 _ ih =>
            intro k' l hm
            rcases List.mem_cons.1 hm with hm | hm
            · cases ha : aggData y k with
              | error e => rw [ha] at h1; cases h1
              | ok r =>
                rw [ha] at h1
                have := Except.ok.inj h1
                rw [← hm] at this
                obtain ⟨rfl, rfl⟩ := Prod.mk.inj this
                exact aggData_take hyl ha
            · exact ih k' l hm
        refine ⟨?_, y.take steps, by rw [List.length_take]; omega, ?_⟩
        · clear hall
          induction hF with
          | nil => rfl
          | @cons k e ks f h1 _ ih =>
            rw [List.map_cons, ih]
            cases ha : aggData y k with
            | error e => rw [ha] at h1; cases h1
            | ok r =>
              rw [ha] at h1
              rw [← Except.ok.inj h1]
        · intro k l hm
          obtain ⟨h1, rfl⟩ := hall k l hm
          refine ⟨h1, by simp, ?_, ?_⟩
          · intro j hj
            rw [List.getElem?_map, List.getElem?_range hj]
            rfl
          · rintro rfl
            rw [Nat.div_one]
            apply List.ext_getElem?
            intro i
            by_cases hi : i < steps
            · rw [List.getElem?_map, List.getElem?_range hi, Option.map_some, levelSum_one,
                List.getD_eq_getElem?_getD, List.getElem?_take_of_lt hi, List.getElem?_eq_getElem (by omega)]
              rfl
            · rw [List.getElem?_eq_none (by simp; omega),
                List.getElem?_eq_none (by rw [List.length_take]; omega)]

/-- C46 (S): the rows of S compute the block sums: row `(k, i)` applied to a period of level-1 values
gives the sum of the `i`-th block of `k` values. -/
theorem C46_S (t : THM) (hw : WF t) (y : Nat → Rat) (n : Nat) (row : List Rat) (h : t.getS[n]? = some row) :
    ∃ k i, t.rowIdx[n]? = some (k, i) ∧ k ∈ t.levels ∧ i < t.m / k
      ∧ (List.zipWith (· * ·) row ((List.range t.m).map y)).sum
        = ((List.range k).map fun a => y (i * k + a)).sum := by
  unfold getS at h
  rw [List.getElem?_map] at h
  obtain ⟨⟨k, i⟩, h1, rfl⟩ := Option.map_eq_some_iff.1 h
  obtain ⟨h2, h3⟩ := mem_rowIdx.1 (List.mem_of_getElem? h1)
  refine ⟨k, i, h1, h2, h3, ?_⟩
  have hk := hw.freq_mul h2
  have h4 : i * k + k ≤ t.m := by
    rw [← hk, ← Nat.succ_mul]
    exact Nat.mul_le_mul_right _ h3
  rw [← sum_indicator t.m (i * k) k h4 y, zipWith_sum _ _ _ t.m (by simp [sRow]) (by simp)]
  apply Finset.sum_congr rfl
  intro j _
  dsimp only
  rw [sRow_getD _ _ _ _ j.2, List.getD_eq_getElem?_getD, List.getElem?_map, List.getElem?_range j.2]
  rfl

/-! ## C47: coherent forecasts are left alone -/

/-- The source delivers the values `f 0, ..., f (num - 1)` when `num` are needed. -/
def _root_.Kats.Src.yields : Src → Nat → (Nat → Rat) → Prop
  | .model g, num, f => ∀ i, i < num → g num i = f i
  | .given fc, num, f => num ≤ fc.length ∧ ∀ i, i < num → fc[i]? = some (f i)

theorem originOne_yields {t : THM} {steps : Nat} {meth : Recon} {k : Nat} {f : Nat → Rat}
    (h : (t.src k).yields (t.freq k * t.periods steps) f) :
    t.originOne steps meth k = .ok ((List.range (t.freq k * t.periods steps)).map f) := by
  unfold originOne
  dsimp only
  cases hs : t.src k with
  | model g =>
    rw [hs] at h
    dsimp only
    congr 1
    apply List.map_congr_left
    intro i hi
    exact h i (List.mem_range.1 hi)
  | given fc =>
    rw [hs] at h
    obtain ⟨h1, h2⟩ := h
    dsimp only
    rw [if_neg (by omega)]
    congr 1
    apply List.ext_getElem?
    intro i
    by_cases hi : i < t.freq k * t.periods steps
    · rw [List.getElem?_take_of_lt hi, h2 i hi, List.getElem?_map, List.getElem?_range hi]
      rfl
    · rw [List.getElem?_eq_none (by rw [List.length_take]; omega), List.getElem?_eq_none (by simp; omega)]

theorem origins_yields {t : THM} (hw : WF t) {steps : Nat} {meth : Recon} {f : Nat → Nat → Rat}
    (h : ∀ k ∈ t.levels, (t.src k).yields (t.freq k * t.periods steps) (f k)) :
    ∃ os, t.origins steps meth = .ok os
      ∧ ∀ k ∈ t.levels, at_ os k = (List.range (t.freq k * t.periods steps)).map (f k) := by
  have : t.origins steps meth
      = .ok (t.levels.map fun k => (k, (List.range (t.freq k * t.periods steps)).map (f k))) := by
    unfold origins
    rw [mapM_except, List.forall₂_map_right_iff, List.forall₂_same]
    intro k hk
    rw [originOne_yields (h k hk)]
    rfl
  refine ⟨_, this, ?_⟩
  intro k hk
  have h1 := (origins_at hw this).1 k hk
  rw [originOne_yields (h k hk)] at h1
  exact (Except.ok.inj h1).symm

theorem flatten_range (m : Nat) {α : Type} (f : Nat → α) : ∀ h : Nat,
    ((List.range h).flatMap fun c => (List.range m).map fun i => f (c * m + i)) = (List.range (h * m)).map f
  | 0 => by simp
  | h + 1 => by
    rw [List.range_succ, List.flatMap_append, flatten_range m f h, Nat.succ_mul, List.range_add,
      List.map_append, List.map_map]
    simp [Function.comp_def]

/-- Reading the level-1 rows column by column. -/
theorem gather_eq {t : THM} (hw : WF t) (steps : Nat)
    (P : Matrix (Fin t.rowIdx.length) (Fin (t.periods steps)) Rat) (y : Nat → Rat)
    (h : ∀ (i c : Nat) (hi : i < t.m) (hc : c < t.periods steps),
      P ⟨t.rowIdx.length - t.m + i, (hw.row_one hi).1⟩ ⟨c, hc⟩ = y (c * t.m + i)) :
    gather t.m steps P = (List.range steps).map fun i => some (y i) := by
  unfold gather
  have e : ((List.range (t.periods steps)).flatMap fun c => (List.range t.m).map fun i =>
      if hp : t.rowIdx.length - t.m + i < t.rowIdx.length ∧ c < t.periods steps then
        some (P ⟨t.rowIdx.length - t.m + i, hp.1⟩ ⟨c, hp.2⟩) else none)
      = (List.range (t.periods steps)).flatMap fun c => (List.range t.m).map fun i =>
        (fun j => some (y j)) (c * t.m + i) := by
    apply List.flatMap_congr
    intro c hc
    apply List.map_congr_left
    intro i hi
    rw [List.mem_range] at hc hi
    rw [dif_pos ⟨(hw.row_one hi).1, hc⟩, h i c hi hc]
  rw [e, flatten_range t.m (fun j => some (y j)), ← List.map_take, List.take_range]
  have := (periods_le hw steps).1
  rw [Nat.mul_comm] at this
  rw [Nat.min_eq_left this]

/-- The final aggregation of numeric level-1 forecasts. -/
theorem predict_of_level1 {L : LinSolve} {sqrt : Rat → Rat} {t : THM} (hw : WF t) {steps : Nat}
    {meth : Recon} {os : List (Nat × List Rat)} (ho : t.origins steps meth = .ok os) {Y : List Val}
    (hy : t.level1 L sqrt steps meth os = .ok Y) (y : Nat → Rat)
    (hY : Y.take steps = (List.range steps).map fun i => some (y i)) :
    ∃ p, t.predict_ L sqrt steps meth none = .ok p
      ∧ p.fcst = t.levels.map fun k => (k, (List.range (steps / k)).map fun j =>
          some ((List.range k).map fun i => y (j * k + i)).sum) := by
  have hl := level1_length hw ho hy
  have hagg : (t.levels.mapM fun k => (aggData Y k).map fun l => (k, l.take (steps / k)))
      = .ok (t.levels.map fun k => (k, (List.range (steps / k)).map fun j =>
          some ((List.range k).map fun i => y (j * k + i)).sum)) := by
    rw [mapM_except, List.forall₂_map_right_iff, List.forall₂_same]
    intro k hk
    have hk1 := hw.pos k hk
    have hok : ∃ l, aggData Y k = .ok l := by
      unfold aggData
      by_cases h1 : k = 1
      · exact ⟨_, if_pos h1⟩
      · exact ⟨_, by rw [if_neg h1, if_neg (by omega)]⟩
    obtain ⟨l, hl'⟩ := hok
    rw [hl']
    have := (aggData_take hl hl').2
    change Except.ok (k, l.take (steps / k)) = _
    rw [this, hY]
    congr 2
    apply List.map_congr_left
    intro j hj
    rw [List.mem_range] at hj
    have hjk : j * k + k ≤ steps := by
      rw [← Nat.succ_mul]
      exact (Nat.mul_le_mul_right k hj).trans (Nat.div_mul_le_self steps k)
    unfold levelSum
    rw [← vsum_map_some, List.map_map]
    congr 1
    apply List.map_congr_left
    intro i hi
    rw [List.mem_range] at hi
    rw [List.getD_eq_getElem?_getD, List.getElem?_map, List.getElem?_range (by omega)]
    rfl
  unfold predict_
  rw [ho]
  simp only [bind, Except.bind]
  rw [hy]
  simp only [Option.getD_none]
  rw [hagg]
  exact ⟨_, rfl, rfl⟩

theorem level1_projected {L : LinSolve} {sqrt : Rat → Rat} {t : THM} {steps : Nat} {meth : Recon}
    {os : List (Nat × List Rat)} {W : Option WMat} (h : t.getW sqrt meth = .ok W) :
    t.level1 L sqrt steps meth os = projected L sqrt t steps meth os := by
  cases meth <;> first | rfl | cases h

/-- With a W free of NaN the projection succeeds for at least one step. -/
theorem projected_ok (L : LinSolve) {sqrt : Rat → Rat} {t : THM} (hw : WF t) {steps : Nat} (hs : 0 < steps)
    {meth : Recon} (os : List (Nat × List Rat)) {W : WMat} (h : t.getW sqrt meth = .ok (some W)) :
    ∃ (T G : Matrix (Fin t.m) (Fin t.rowIdx.length) Rat), WGood t.rowIdx.length W
        ∧ W.toMatrix t.rowIdx.length * Tᵀ = matOf t.rowIdx.length t.m t.getS
        ∧ (T * matOf t.rowIdx.length t.m t.getS) * G = T ∧ G * matOf t.rowIdx.length t.m t.getS = 1
        ∧ projected L sqrt t steps meth os = .ok (gather t.m steps (matOf t.rowIdx.length t.m t.getS * G
            * matOf t.rowIdx.length (t.periods steps) (t.stackY steps os))) := by
  have hg := getW_good hw sqrt meth W h
  obtain ⟨T, G, h1, h2, h3, h4⟩ := project_ok L (matOf t.rowIdx.length t.m t.getS) W hg.2
    (matS_inj hw) (matOf t.rowIdx.length (t.periods steps) (t.stackY steps os))
  refine ⟨T, G, hg, h1, h2, h3, ?_⟩
  unfold projected
  rw [if_neg (by have := (periods_le hw steps).2.2.2; omega), h]
  simp only [bind, Except.bind]
  rw [h4]

theorem stackY_apply {t : THM} (steps : Nat) (os : List (Nat × List Rat)) (r : Fin t.rowIdx.length)
    (c : Fin (t.periods steps)) :
    matOf t.rowIdx.length (t.periods steps) (t.stackY steps os) r c
      = (at_ os (t.rowIdx[r]).1).getD (c * t.freq (t.rowIdx[r]).1 + (t.rowIdx[r]).2) 0 := by
  unfold matOf stackY
  have : ((t.rowIdx.map fun r => (List.range (t.periods steps)).map fun c =>
      (at_ os r.1).getD (c * t.freq r.1 + r.2) 0).getD r [])
      = (List.range (t.periods steps)).map fun c =>
        (at_ os (t.rowIdx[r]).1).getD (c * t.freq (t.rowIdx[r]).1 + (t.rowIdx[r]).2) 0 := by
    rw [List.getD_eq_getElem?_getD, List.getElem?_map, List.getElem?_eq_getElem r.2]
    rfl
  rw [this, List.getD_eq_getElem?_getD, List.getElem?_map, List.getElem?_range c.2]
  rfl

/-- A matrix that is S times the periods of a level-1 series. -/
theorem gather_coherent {t : THM} (hw : WF t) (steps : Nat) (y : Nat → Rat) :
    gather t.m steps (matOf t.rowIdx.length t.m t.getS
      * (Matrix.of fun (i : Fin t.m) (c : Fin (t.periods steps)) => y (c * t.m + i)))
      = (List.range steps).map fun i => some (y i) := by
  apply gather_eq hw
  intro i c hi hc
  have h2 := matS_mulVec hw (fun j => y (c * t.m + j)) ⟨_, (hw.row_one hi).1⟩
  have h4 : t.rowIdx[(⟨_, (hw.row_one hi).1⟩ : Fin t.rowIdx.length)] = (1, i) := by
    have := (hw.row_one hi).2
    rw [List.getElem?_eq_getElem (hw.row_one hi).1] at this
    exact Option.some.inj this
  rw [h4] at h2
  simp only [Nat.mul_one, List.range_one, List.map_singleton, Nat.add_zero, List.sum_singleton] at h2
  rw [← h2]
  rfl

/-- C47 (unchanged): if every level forecasts the block sums of the same level-1 values `y`, then each
projection method with a W free of NaN, and the bottom-up method, returns exactly those values at every
level. -/
theorem C47_unchanged (L : LinSolve) (sqrt : Rat → Rat) (t : THM) (hw : WF t) (steps : Nat) (hs : 0 < steps)
    (meth : Recon) (hm : meth = .bu ∨ ∃ W, t.getW sqrt meth = .ok (some W)) (y : Nat → Rat)
    (hy : ∀ k ∈ t.levels, (t.src k).yields (t.freq k * t.periods steps)
      fun j => ((List.range k).map fun i => y (j * k + i)).sum) :
    ∃ p, t.predict_ L sqrt steps meth none = .ok p
      ∧ p.fcst = t.levels.map fun k => (k, (List.range (steps / k)).map fun j =>
          some ((List.range k).map fun i => y (j * k + i)).sum) := by
  obtain ⟨os, ho, hat⟩ := origins_yields (meth := meth) hw hy
  have one_mem : 1 ∈ t.levels := by
    obtain ⟨ls, e, -⟩ := hw.last
    rw [e]; simp
  rcases hm with rfl | ⟨W, hW⟩
  · refine predict_of_level1 hw ho (L := L) (sqrt := sqrt) rfl y ?_
    rw [hat 1 one_mem, List.map_map, ← List.map_take, List.take_range, freq, Nat.div_one,
      Nat.min_eq_left (periods_le hw steps).1]
    apply List.map_congr_left
    intro i _
    simp
  · obtain ⟨T, G, hg, h1, h2, h3, h4⟩ := projected_ok L hw hs os hW
    have hst : matOf t.rowIdx.length (t.periods steps) (t.stackY steps os)
        = matOf t.rowIdx.length t.m t.getS
          * (Matrix.of fun (i : Fin t.m) (c : Fin (t.periods steps)) => y (c * t.m + i)) := by
      ext r c
      rw [stackY_apply]
      have hmr : (t.rowIdx[r]).1 ∈ t.levels ∧ (t.rowIdx[r]).2 < t.freq (t.rowIdx[r]).1 :=
        mem_rowIdx.1 (List.getElem_mem r.2)
      obtain ⟨m1, m2⟩ := hmr
      have hk := hw.freq_mul m1
      have hlt : (c : Nat) * t.freq (t.rowIdx[r]).1 + (t.rowIdx[r]).2
          < t.freq (t.rowIdx[r]).1 * t.periods steps := by
        calc _ < c * t.freq (t.rowIdx[r]).1 + t.freq (t.rowIdx[r]).1 := by
              have : (t.rowIdx[r]).2 < t.freq (t.rowIdx[r]).1 := m2
              omega
          _ = t.freq (t.rowIdx[r]).1 * (c + 1) := by ring
          _ ≤ _ := Nat.mul_le_mul_left _ c.2
      rw [hat _ m1, List.getD_eq_getElem?_getD, List.getElem?_map, List.getElem?_range hlt]
      have h5 := matS_mulVec hw (fun j => y (c * t.m + j)) r
      change _ = (matOf t.rowIdx.length t.m t.getS *ᵥ fun j : Fin t.m => y (c * t.m + j)) r
      rw [h5]
      simp only [Option.map_some, Option.getD_some]
      congr 1
      apply List.map_congr_left
      intro a _
      congr 1
      rw [Nat.add_mul, Nat.mul_assoc, hk, Nat.add_assoc]
    refine predict_of_level1 hw ho (L := L) (sqrt := sqrt)
      (by rw [level1_projected hW]; exact h4) y ?_
    rw [hst, Matrix.mul_assoc, ← Matrix.mul_assoc G, h3, Matrix.one_mul, gather_coherent hw]
    rw [← List.map_take, List.take_range, Nat.min_self]

/-- The fitted example: levels 3, 2 and 1 with coherent forecasts. -/
def exThm : THM where
  levels := [3, 2, 1]
  m := 6
  src := fun k => if k = 1 then .given [1, 2, 3, 4, 5, 6] else if k = 2 then .given [3, 7, 11] else .given [6, 15]
  resid := fun _ => []

theorem exThm_wf : WF exThm :=
  { last := ⟨[3, 2], rfl, by decide⟩, nodup := by decide, pos := by decide, dvd := by decide, mpos := by decide }

example : ∀ k ∈ exThm.levels, (exThm.src k).yields (exThm.freq k * exThm.periods 6)
    fun j => ((List.range k).map fun i => ((j * k + i : Nat) : Rat) + 1).sum := by
  intro k hk
  simp only [exThm, List.mem_cons, List.not_mem_nil, or_false] at hk
  rcases hk with rfl | rfl | rfl
  · exact ⟨by decide, by decide +kernel⟩
  · exact ⟨by decide, by decide +kernel⟩
  · exact ⟨by decide, by decide +kernel⟩

example (sqrt : Rat → Rat) : ∃ W, exThm.getW sqrt .struc = .ok (some W) := ⟨_, rfl⟩

/-- C47 (idempotent): reconciling reconciled forecasts (for whole periods, same weights) changes
nothing. -/
theorem C47_idempotent (L : LinSolve) (sqrt : Rat → Rat) (t t' : THM) (hw : WF t) (steps : Nat)
    (hs : 0 < steps) (hd : t.m ∣ steps) (meth : Recon) (W : WMat) (hW : t.getW sqrt meth = .ok (some W))
    (p : Pred) (hp : t.predict_ L sqrt steps meth none = .ok p)
    (hl : t'.levels = t.levels) (hm : t'.m = t.m) (hr : t'.resid = t.resid)
    (hsrc : ∀ k l, (k, l) ∈ p.fcst → ∃ fc, t'.src k = .given fc ∧ l = fc.map some) :
    ∃ p', t'.predict_ L sqrt steps meth none = .ok p' ∧ p'.fcst = p.fcst := by
  have hw' : WF t' :=
    { last := by rw [hl]; exact hw.last, nodup := by rw [hl]; exact hw.nodup
      pos := by rw [hl]; exact hw.pos, dvd := by rw [hl, hm]; exact hw.dvd
      mpos := by rw [hm]; exact hw.mpos }
  -- the first forecasts in terms of level-1 values
  have hfirst : ∃ y : Nat → Rat, p.fcst = t.levels.map fun k => (k, (List.range (steps / k)).map fun j =>
          some ((List.range k).map fun i => y (j * k + i)).sum) := by
    cases ho : t.origins steps meth with
    | error e => unfold predict_ at hp; rw [ho] at hp; cases hp
    | ok os =>
      obtain ⟨T, G, -, -, -, -, h4⟩ := projected_ok L hw hs os hW
      set P := matOf t.rowIdx.length t.m t.getS * G
            * matOf t.rowIdx.length (t.periods steps) (t.stackY steps os) with hP
      let y : Nat → Rat := fun j =>
        if h : t.rowIdx.length - t.m + j % t.m < t.rowIdx.length ∧ j / t.m < t.periods steps then
          P ⟨_, h.1⟩ ⟨_, h.2⟩ else 0
      have hg : gather t.m steps P = (List.range steps).map fun i => some (y i) := by
        apply gather_eq hw
        intro i c hi hc
        have e1 : (c * t.m + i) % t.m = i := by
          rw [Nat.mul_comm, Nat.mul_add_mod, Nat.mod_eq_of_lt hi]
        have e2 : (c * t.m + i) / t.m = c := by
          rw [Nat.mul_comm, Nat.mul_add_div hw.mpos, Nat.div_eq_of_lt hi, Nat.add_zero]
        simp only [y]
        simp only [e1, e2]
        rw [dif_pos ⟨(hw.row_one hi).1, hc⟩]
      obtain ⟨p2, hp2, e⟩ := predict_of_level1 hw ho (L := L) (sqrt := sqrt)
        (by rw [level1_projected hW]; exact h4) y (by
          rw [hg, ← List.map_take, List.take_range, Nat.min_self])
      rw [hp] at hp2
      obtain rfl := Except.ok.inj hp2
      exact ⟨y, e⟩
  obtain ⟨y, hy⟩ := hfirst
  have hper : t'.periods steps = steps / t.m := by
    rw [← hm]; exact (periods_le hw' steps).2.2.1 (by rw [hm]; exact hd)
  have hW' : t'.getW sqrt meth = .ok (some W) := by
    rw [← hW]
    obtain ⟨l1, m1, s1, r1⟩ := t
    obtain ⟨l2, m2, s2, r2⟩ := t'
    dsimp only at hl hm hr
    subst hl hm hr
    cases meth <;> rfl
  obtain ⟨p', hp', e⟩ := C47_unchanged L sqrt t' hw' steps hs meth (Or.inr ⟨W, hW'⟩) y (by
    intro k hk
    rw [hl] at hk
    obtain ⟨fc, e1, e2⟩ := hsrc k _ (by rw [hy]; exact List.mem_map_of_mem hk)
    have hf : t'.freq k * t'.periods steps = steps / k := by
      rw [hper]
      unfold freq
      rw [hm]
      obtain ⟨a, ha⟩ := hw.dvd k hk
      obtain ⟨b, rfl⟩ := hd
      have hk1 := hw.pos k hk
      rw [Nat.mul_div_cancel_left _ hw.mpos, ha, Nat.mul_div_cancel_left _ hk1, Nat.mul_assoc,
        Nat.mul_div_cancel_left _ hk1]
    rw [e1, hf]
    have hlen := congrArg List.length e2
    simp only [List.length_map, List.length_range] at hlen
    refine ⟨by omega, ?_⟩
    intro i hi
    have h6 := congrArg (fun l => l[i]?) e2
    simp only [List.getElem?_map, List.getElem?_range hi, Option.map_some] at h6
    rw [List.getElem?_eq_getElem (by omega)] at h6 ⊢
    simp only [Option.map_some, Option.some.injEq] at h6
    rw [← h6])
  exact ⟨p', hp', by rw [e, hy, hl]⟩

end THM
end Kats

import Verif.Model.GmPass
import Verif.Props.GmIndices
import Mathlib.Tactic.Ring

/-!
# C139: the steps of a pass
-/

namespace Kats

theorem one_steps (total : Nat) (last : Int) : ∀ (fuel cur : Nat), last ≤ cur → total ≤ cur + fuel →
    gmRnnSteps total last fuel cur 1 = List.range' cur (total - cur) := by
  intro fuel
  induction fuel with
  | zero =>
    intro cur _ h
    rw [show total - cur = 0 by omega]
    rfl
  | succ n ih =>
    intro cur hl h
    unfold gmRnnSteps
    by_cases hc : cur < total
    · rw [if_pos hc, if_neg (by omega), ih (cur + 1) (by push_cast; omega) (by omega),
        show total - cur = (total - (cur + 1)) + 1 by omega, List.range'_succ]
    · rw [if_neg hc, show total - cur = 0 by omega]
      rfl

theorem run_steps (total last delta : Nat) (hl : last < total) (hd : 1 ≤ delta) : ∀ (fuel cur : Nat),
    cur < last → total ≤ cur + fuel →
    gmRnnSteps total last fuel cur delta =
      (List.range ((last - cur + delta - 1) / delta)).map (fun k => cur + k * delta) ++
        List.range' last (total - last) := by
  intro fuel
  induction fuel with
  | zero => intro cur h1 h2; omega
  | succ n ih =>
    intro cur h1 h2
    unfold gmRnnSteps
    rw [if_pos (show cur < total by omega)]
    by_cases hc : last ≤ cur + delta
    · rw [if_pos (show (last : Int) ≤ (cur : Int) + delta ∧ (cur : Int) < last by omega), Int.toNat_natCast,
        one_steps total last n last (le_refl _) (by omega)]
      have : (last - cur + delta - 1) / delta = 1 := by
        rw [Nat.div_eq_of_lt_le] <;> omega
      rw [this]
      simp
    · rw [if_neg (by omega), ih (cur + delta) (by omega) (by omega)]
      have : (last - cur + delta - 1) / delta = (last - (cur + delta) + delta - 1) / delta + 1 := by
        rw [show last - cur + delta - 1 = (last - (cur + delta) + delta - 1) + delta by omega,
          Nat.add_div_right _ (by omega)]
      rw [this, List.range_succ_eq_map, List.map_cons, List.map_map]
      simp only [Nat.zero_mul, Nat.add_zero, List.cons_append]
      congr 2
      apply List.map_congr_left
      intro k _
      simp only [Function.comp, Nat.succ_eq_add_one]
      ring

/-- C139, the part that holds: with two training steps or more, the steps are the multiples of the step
width before the last training step, and then all steps from the last training step on. -/
theorem C139_steps_partial (total last delta : Nat) (h1 : 1 ≤ last) (hl : last < total) (hd : 1 ≤ delta)
    (s : Nat) :
    (gmRnnSteps total last total 0 delta).Pairwise (· < ·) ∧
    (s ∈ gmRnnSteps total last total 0 delta ↔ (s < last ∧ delta ∣ s) ∨ (last ≤ s ∧ s < total)) := by
  rw [run_steps total last delta hl hd total 0 (by omega) (by omega)]
  have key : ∀ k, k < (last - 0 + delta - 1) / delta ↔ k * delta < last := by
    intro k
    rw [Nat.lt_div_iff_mul_lt (by omega), Nat.mul_comm]
    omega
  constructor
  · rw [List.pairwise_append]
    refine ⟨?_, List.pairwise_lt_range', ?_⟩
    · rw [List.pairwise_map]
      refine List.pairwise_lt_range.imp fun {a b} h => ?_
      have := Nat.mul_lt_mul_of_pos_right h (show 0 < delta by omega)
      omega
    · intro a ha b hb
      obtain ⟨k, hk, rfl⟩ := List.mem_map.1 ha
      rw [List.mem_range, key] at hk
      rw [List.mem_range'_1] at hb
      omega
  · rw [List.mem_append, List.mem_map, List.mem_range'_1]
    constructor
    · rintro (⟨k, hk, rfl⟩ | h)
      · rw [List.mem_range, key] at hk
        left
        exact ⟨by omega, by rw [Nat.zero_add]; exact Dvd.intro_left k rfl⟩
      · right; omega
    · rintro (⟨h, k, rfl⟩ | h)
      · left
        exact ⟨k, by rw [List.mem_range, key, Nat.mul_comm]; exact h, by ring⟩
      · right; omega

example : gmRnnSteps 12 7 12 0 3 = [0, 3, 6, 7, 8, 9, 10, 11] := by decide

theorem delta_pos (maxDelta : Int) (total : Nat) (less softMax : Int) : 1 ≤ gmDelta maxDelta total less softMax := by
  unfold gmDelta
  omega

/-- C139: the width of a step is at least 1, and so large only that the number of windows allows for the wanted
number of training steps. -/
theorem C139_delta (maxDelta : Int) (total : Nat) (less softMax : Int) (hs : 1 ≤ softMax)
    (h : 1 < gmDelta maxDelta total less softMax) :
    (gmDelta maxDelta total less softMax : Int) ≤ maxDelta ∧
      (gmDelta maxDelta total less softMax : Int) * softMax ≤ total - less := by
  unfold gmDelta at h ⊢
  obtain ⟨q, hq⟩ : ∃ q, q = ((total : Int) - less) / softMax := ⟨_, rfl⟩
  have hm : q * softMax ≤ (total : Int) - less := by
    rw [hq]; exact Int.ediv_mul_le _ (by omega)
  rw [← hq] at h ⊢
  have e : ((max 1 (min maxDelta q)).toNat : Int) = min maxDelta q := by omega
  rw [e]
  refine ⟨by omega, le_trans ?_ hm⟩
  exact Int.mul_le_mul_of_nonneg_right (by omega) (by omega)

example : gmDelta 5 43 3 10 = 4 := by decide

/-- C139, the part that holds: in training, and in forecasting with two steps for warming up or more, every
window of validation is visited. -/
theorem C139_valid_partial (p : GmParams) (hp : GmWf p) (training : Bool) (lens : List Nat)
    (valid : Option (List Nat)) (r1 r2 : Nat) (ix : GmIndices)
    (h : gmIndices p training lens valid r1 r2 = .ok ix) (hw : training = false → 2 ≤ p.warmUp)
    (maxDelta less softMax : Int) (s : Nat) :
    s ∈ gmRnnSteps (ix.train ++ ix.valid).length ((ix.train.length : Int) - 1) (ix.train ++ ix.valid).length 0
      (gmDelta maxDelta (ix.train ++ ix.valid).length less softMax) ↔
    (s + 1 < ix.train.length ∧ gmDelta maxDelta (ix.train ++ ix.valid).length less softMax ∣ s) ∨
      (ix.train.length ≤ s + 1 ∧ s < (ix.train ++ ix.valid).length) := by
  have hlen : 2 ≤ ix.train.length := by
    cases training with
    | true =>
      have := (C136_train_indices p hp lens valid r1 r2 ix h).2.2.2.1
      have := hp.num
      omega
    | false =>
      have := (C136_test_indices p hp lens valid r1 r2 ix h).2.2.1
      have := hw rfl
      omega
  obtain ⟨l, hl⟩ : ∃ l, ix.train.length = l + 1 := ⟨ix.train.length - 1, by omega⟩
  have e : ((ix.train.length : Int) - 1) = ((l : Nat) : Int) := by omega
  rw [e, (C139_steps_partial (ix.train ++ ix.valid).length l _ (by omega)
    (by rw [List.length_append]; omega) (delta_pos _ _ _ _) s).2]
  omega

/-- C139 violated: with one step for warming up and a series no longer than the input window, half of the
windows of a long forecast are not visited. -/
theorem C139_valid_violated : ∃ (p : GmParams) (_ : GmWf p) (ix : GmIndices),
    gmIndices p false [10] none 0 0 = .ok ix ∧ p.rnn = true ∧ ix.valid.length = 24 ∧
    1 ∉ gmRnnSteps (ix.train ++ ix.valid).length ((ix.train.length : Int) - 1) (ix.train ++ ix.valid).length 0
      (gmDelta (min p.inputWindow p.fcstWindow / p.minTrainLen : Nat) (ix.train ++ ix.valid).length p.validSteps
        10) ∧
    (gmRnnSteps (ix.train ++ ix.valid).length ((ix.train.length : Int) - 1) (ix.train ++ ix.valid).length 0
      (gmDelta (min p.inputWindow p.fcstWindow / p.minTrainLen : Nat) (ix.train ++ ix.valid).length p.validSteps
        10)).length = 13 := by
  refine ⟨⟨10, 10, 1, 4, 1, 3, 1, 24, 1, true, 3, 1 / 10, 10⟩, ⟨by decide, by decide, by decide, by decide,
    by decide, by decide, by decide, by decide⟩, ⟨11, 240, [10], gmArange 11 251 10, 1, 24⟩, rfl, rfl,
    by decide, by decide, by decide⟩

/-! ## Encoder and decoder -/

theorem s2s_run (train valid : List Nat) (first delta : Nat) (hd : 1 ≤ delta)
    (ht : ∀ k, k < train.length → train.getD k 0 < first)
    (hv : ∀ v, valid.head? = some v → first ≤ v) : ∀ (fuel cur : Nat),
    cur ≤ train.length → train.length + 1 ≤ cur + fuel →
    gmS2sSteps train valid first fuel cur delta =
      (List.range ((train.length - cur + delta - 1) / delta)).map (fun k => cur + k * delta) ++
        (if valid.isEmpty then [] else [train.length]) := by
  intro fuel
  induction fuel with
  | zero => intro cur h1 h2; omega
  | succ n ih =>
    intro cur h1 h2
    unfold gmS2sSteps
    by_cases hc : cur < train.length
    · rw [if_pos (show cur < (train ++ valid).length by rw [List.length_append]; omega)]
      have e : (train ++ valid).getD cur 0 = train.getD cur 0 := by
        simp [List.getD_eq_getElem?_getD, List.getElem?_append_left hc]
      rw [e, if_neg (by have := ht cur hc; omega)]
      by_cases hcd : train.length < cur + delta
      · rw [if_pos hcd, ih train.length (le_refl _) (by omega)]
        have e1 : (train.length - cur + delta - 1) / delta = 1 := by
          rw [Nat.div_eq_of_lt_le] <;> omega
        have e2 : (train.length - train.length + delta - 1) / delta = 0 := by
          rw [Nat.div_eq_of_lt]; omega
        rw [e1, e2]
        simp
      · rw [if_neg hcd, ih (cur + delta) (by omega) (by omega)]
        have : (train.length - cur + delta - 1) / delta = (train.length - (cur + delta) + delta - 1) / delta + 1 := by
          rw [show train.length - cur + delta - 1 = (train.length - (cur + delta) + delta - 1) + delta by omega,
            Nat.add_div_right _ (by omega)]
        rw [this, List.range_succ_eq_map, List.map_cons, List.map_map]
        simp only [Nat.zero_mul, Nat.add_zero, List.cons_append]
        congr 2
        apply List.map_congr_left
        intro k _
        simp only [Function.comp, Nat.succ_eq_add_one]
        ring
    · have hcur : cur = train.length := by omega
      subst hcur
      have e2 : (train.length - train.length + delta - 1) / delta = 0 := by
        rw [Nat.div_eq_of_lt]; omega
      rw [e2]
      rcases valid with _ | ⟨v, r⟩
      · simp
      · rw [if_pos (by simp)]
        have e : (train ++ v :: r).getD train.length 0 = v := by
          simp [List.getD_eq_getElem?_getD]
        rw [e, if_pos (hv v rfl)]
        simp

/-- C139: the steps of an encoder and decoder are the multiples of the step width among the training steps
and the first window of validation, if there is one. -/
theorem C139_s2s_steps (train valid : List Nat) (delta first : Nat) (hd : 1 ≤ delta)
    (hsort : (train ++ valid).Pairwise (· < ·)) (hf : gmFirstValid train valid = .ok first) (s : Nat) :
    (gmS2sSteps train valid first (train.length + 1) 0 delta).Pairwise (· < ·) ∧
    (s ∈ gmS2sSteps train valid first (train.length + 1) 0 delta ↔
      (s < train.length ∧ delta ∣ s) ∨ (s = train.length ∧ valid ≠ [])) := by
  have ht : ∀ k, k < train.length → train.getD k 0 < first := by
    intro k hk
    have hkm : train.getD k 0 ∈ train := by
      rw [List.getD_eq_getElem?_getD, List.getElem?_eq_getElem hk]
      exact List.getElem_mem hk
    rw [List.pairwise_append] at hsort
    rcases valid with _ | ⟨v, r⟩
    · simp only [gmFirstValid] at hf
      rcases hg : train.getLast? with _ | t
      · rw [hg] at hf; cases hf
      · rw [hg] at hf
        injection hf with hf
        subst hf
        rw [List.getLast?_eq_getElem?] at hg
        obtain ⟨hlt, hget⟩ := List.getElem?_eq_some_iff.1 hg
        rw [List.getD_eq_getElem?_getD, List.getElem?_eq_getElem hk, Option.getD_some]
        rcases Nat.lt_or_ge k (train.length - 1) with h | h
        · have := List.pairwise_iff_getElem.1 hsort.1 k (train.length - 1) hk hlt h
          rw [hget] at this
          omega
        · have : k = train.length - 1 := by omega
          subst this
          rw [hget]; omega
    · injection hf with hf
      subst hf
      exact hsort.2.2 _ hkm v List.mem_cons_self
  have hv : ∀ v, valid.head? = some v → first ≤ v := by
    intro v hv
    rcases valid with _ | ⟨w, r⟩
    · cases hv
    · injection hf with hf
      injection hv with hv
      omega
  rw [s2s_run train valid first delta hd ht hv (train.length + 1) 0 (by omega) (by omega)]
  have key : ∀ k, k < (train.length - 0 + delta - 1) / delta ↔ k * delta < train.length := by
    intro k
    rw [Nat.lt_div_iff_mul_lt (by omega), Nat.mul_comm]
    omega
  have hlast : ∀ b, b ∈ (if valid.isEmpty then [] else [train.length]) ↔ b = train.length ∧ valid ≠ [] := by
    intro b
    rcases valid with _ | ⟨w, r⟩ <;> simp
  constructor
  · rw [List.pairwise_append]
    refine ⟨?_, ?_, ?_⟩
    · rw [List.pairwise_map]
      refine List.pairwise_lt_range.imp fun {a b} h => ?_
      have := Nat.mul_lt_mul_of_pos_right h (show 0 < delta by omega)
      omega
    · rcases valid with _ | ⟨w, r⟩ <;> simp
    · intro a ha b hb
      obtain ⟨k, hk, rfl⟩ := List.mem_map.1 ha
      rw [List.mem_range, key] at hk
      rw [hlast] at hb
      omega
  · rw [List.mem_append, List.mem_map, hlast]
    constructor
    · rintro (⟨k, hk, rfl⟩ | h)
      · rw [List.mem_range, key] at hk
        left
        exact ⟨by omega, by rw [Nat.zero_add]; exact Dvd.intro_left k rfl⟩
      · right; exact h
    · rintro (⟨h, k, rfl⟩ | h)
      · left
        exact ⟨k, by rw [List.mem_range, key, Nat.mul_comm]; exact h, by ring⟩
      · right; exact h

example : gmS2sSteps [5, 6, 7, 8, 9] [12, 14] 12 6 0 2 = [0, 2, 4, 5] := by decide

end Kats

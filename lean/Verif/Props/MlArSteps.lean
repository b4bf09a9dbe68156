import Verif.Props.MlArFit

/-!
# C132: iterating the autoregressive boosting model over further steps
-/

namespace Kats

noncomputable section
open Classical

/-! ## When the loop ends -/

theorem loop_spec {α : Type} (step : α → Except Err α) (hstep : ∀ a, ∃ b, step a = .ok b)
    (H : List Nat) (steps : List Int) (c : Int) (i : Nat) (hs : List Int) (a : α) :
    (∃ fuel r, mlLoop step H steps c fuel i hs a = .ok (some r)) ↔
      ∃ n : Nat, ∀ t ∈ steps, t ∈ hs ∨ ∃ k, k < n ∧ ∃ h ∈ H, t = (h : Int) + ((i + k : Nat) : Int) * c := by
  constructor
  · rintro ⟨fuel, r, hr⟩
    induction fuel generalizing i hs a with
    | zero => cases hr
    | succ fuel ih =>
      rw [mlLoop] at hr
      by_cases hall : ∀ t ∈ steps, t ∈ hs
      · exact ⟨0, fun t ht => Or.inl (hall t ht)⟩
      · rw [if_neg hall] at hr
        obtain ⟨b, hb⟩ := hstep a
        rw [hb, nf_ok_bind] at hr
        obtain ⟨n, hn⟩ := ih _ _ _ hr
        refine ⟨n + 1, fun t ht => ?_⟩
        rcases hn t ht with h | ⟨k, hk, h, hh, he⟩
        · rw [List.mem_append, List.mem_map] at h
          rcases h with h | ⟨h, hh, rfl⟩
          · exact Or.inl h
          · exact Or.inr ⟨0, by omega, h, hh, by rw [Nat.add_zero]⟩
        · exact Or.inr ⟨k + 1, by omega, h, hh, by rw [he, show i + 1 + k = i + (k + 1) by omega]⟩
  · rintro ⟨n, hn⟩
    induction n generalizing i hs a with
    | zero =>
      refine ⟨1, a, ?_⟩
      rw [mlLoop, if_pos]
      intro t ht
      rcases hn t ht with h | ⟨k, hk, _⟩
      · exact h
      · omega
    | succ n ih =>
      obtain ⟨b, hb⟩ := hstep a
      obtain ⟨fuel, r, hr⟩ := ih (i + 1) (hs ++ H.map fun h : Nat => (h : Int) + (i : Int) * c) b
        (by
          intro t ht
          rcases hn t ht with h | ⟨k, hk, h, hh, he⟩
          · exact Or.inl (List.mem_append_left _ h)
          · rcases k with _ | k
            · refine Or.inl (List.mem_append_right _ (List.mem_map.2 ⟨h, hh, ?_⟩))
              rw [he, Nat.add_zero]
            · exact Or.inr ⟨k, by omega, h, hh, by rw [he, show i + 1 + k = i + (k + 1) by omega]⟩)
      by_cases hall : ∀ t ∈ steps, t ∈ hs
      · exact ⟨1, a, by rw [mlLoop, if_pos hall]⟩
      · refine ⟨fuel + 1, r, ?_⟩
        rw [mlLoop, if_neg hall, hb, nf_ok_bind]
        exact hr

/-- C132: when the iteration over the requested steps ends, if no forecast raises.  It ends exactly if
every step is a horizon of the model, or the model has horizon 1 and the step is positive; otherwise
`predict` loops forever. -/
theorem C132_terminates {α : Type} (step : α → Except Err α) (hstep : ∀ a, ∃ b, step a = .ok b)
    (H : List Nat) (hH : ∀ h ∈ H, 1 ≤ h) (steps : List Int) (a : α) :
    (∃ fuel r, mlLoop step H steps ((mlFirstMissing (H.map fun h : Nat => (h : Int))).getD 0 - 1) fuel 1
        (H.map fun h : Nat => (h : Int)) a = .ok (some r)) ↔
      ∀ t ∈ steps, (∃ h ∈ H, t = (h : Int)) ∨ (1 ∈ H ∧ 1 ≤ t) := by
  obtain ⟨⟨f, hf⟩, _⟩ := C132_first_missing (H.map fun h : Nat => (h : Int)) 0
  obtain ⟨hf1, hf2, hf3⟩ := (C132_first_missing _ f).2.1 hf
  rw [loop_spec step hstep, hf]
  show (∃ n : Nat, ∀ t ∈ steps, _ ∨ ∃ k, k < n ∧ ∃ h ∈ H, t = (h : Int) + ((1 + k : Nat) : Int) * (f - 1)) ↔ _
  by_cases h1 : 1 ∈ H
  · have hf4 : 2 ≤ f := by
      by_contra hlt
      have : f = 1 := by omega
      subst this
      exact hf2 (List.mem_map.2 ⟨1, h1, rfl⟩)
    constructor
    · rintro ⟨n, hn⟩ t ht
      refine Or.inr ⟨h1, ?_⟩
      rcases hn t ht with h | ⟨k, hk, h, hh, rfl⟩
      · obtain ⟨h', hh, rfl⟩ := List.mem_map.1 h
        have := hH h' hh
        omega
      · have := hH h hh
        have : 0 ≤ ((1 + k : Nat) : Int) * (f - 1) := by
          apply mul_nonneg <;> omega
        omega
    · intro hall
      have hpos : ∀ t ∈ steps, 1 ≤ t := by
        intro t ht
        rcases hall t ht with ⟨h, hh, rfl⟩ | ⟨_, h⟩
        · have := hH h hh
          omega
        · exact h
      have hex : ∃ n : Nat, ∀ t ∈ steps, t.toNat ≤ n :=
        ⟨(steps.map Int.toNat).foldl max 0, fun t ht =>
          (ml_foldl_max _ 0).2.1 _ (List.mem_map_of_mem ht)⟩
      obtain ⟨n, hn⟩ := hex
      refine ⟨n, fun t ht => ?_⟩
      have ht1 := hpos t ht
      have ht2 := hn t ht
      have hq := Int.mul_ediv_add_emod (t - 1) (f - 1)
      have hr1 := Int.emod_nonneg (t - 1) (show f - 1 ≠ 0 by omega)
      have hr2 := Int.emod_lt_of_pos (t - 1) (show 0 < f - 1 by omega)
      have hq0 : 0 ≤ (t - 1) / (f - 1) := Int.ediv_nonneg (by omega) (by omega)
      obtain ⟨h, hh, he⟩ := List.mem_map.1 (hf3 ((t - 1) % (f - 1) + 1) (by omega) (by omega))
      rcases Int.lt_or_le 0 ((t - 1) / (f - 1)) with hqp | hqp
      · have hle : (t - 1) / (f - 1) ≤ t - 1 := Int.ediv_le_self _ (by omega)
        refine Or.inr ⟨((t - 1) / (f - 1) - 1).toNat, by omega, h, hh, ?_⟩
        have : ((1 + ((t - 1) / (f - 1) - 1).toNat : Nat) : Int) = (t - 1) / (f - 1) := by omega
        rw [this, mul_comm, he]
        omega
      · left
        have : (t - 1) / (f - 1) = 0 := by omega
        rw [this, mul_zero] at hq
        exact List.mem_map.2 ⟨h, hh, by omega⟩
  · have hf4 : f = 1 := by
      by_contra hne
      obtain ⟨h, hh, he⟩ := List.mem_map.1 (hf3 1 (le_refl _) (by omega))
      have : h = 1 := by omega
      exact h1 (this ▸ hh)
    subst hf4
    constructor
    · rintro ⟨n, hn⟩ t ht
      left
      rcases hn t ht with h | ⟨k, hk, h, hh, he⟩
      · obtain ⟨h', hh, rfl⟩ := List.mem_map.1 h
        exact ⟨h', hh, rfl⟩
      · exact ⟨h, hh, by rw [he]; omega⟩
    · intro hall
      refine ⟨0, fun t ht => Or.inl ?_⟩
      rcases hall t ht with ⟨h, hh, rfl⟩ | ⟨h, _⟩
      · exact List.mem_map.2 ⟨h, hh, rfl⟩
      · exact absurd h h1

/-- A model with the horizons 2 and 3 asked for one step never returns. -/
example (fuel : Nat) (r : Unit) : mlLoop (fun a : Unit => .ok a) [2, 3] [1]
    ((mlFirstMissing ([2, 3].map fun h : Nat => (h : Int))).getD 0 - 1) fuel 1
    ([2, 3].map fun h : Nat => (h : Int)) () ≠ .ok (some r) := by
  intro h
  have := (C132_terminates (fun a : Unit => .ok a) (fun a => ⟨a, rfl⟩) [2, 3] (by simp) [1] ()).1
    ⟨fuel, r, h⟩ 1 (by simp)
  simp at this

/-! ## What an iteration forecasts -/

theorem find_gap (times : List Int) (mn : Int) (n : Nat) (t : Int) :
    ((List.range n).map fun k : Nat => mn + (k : Int)).find? (fun t => decide (t ∉ times)) = some t ↔
      mn ≤ t ∧ t < mn + n ∧ t ∉ times ∧ ∀ j, mn ≤ j → j < t → j ∈ times := by
  have hsort : ((List.range n).map fun k : Nat => mn + (k : Int)).Pairwise (· < ·) := by
    rw [List.pairwise_map]
    exact List.pairwise_lt_range.imp (by intro a b h; omega)
  have hmem : ∀ k, k ∈ (List.range n).map (fun k : Nat => mn + (k : Int)) ↔ mn ≤ k ∧ k < mn + n := by
    intro k
    rw [List.mem_map]
    constructor
    · rintro ⟨a, ha, rfl⟩
      rw [List.mem_range] at ha
      omega
    · rintro ⟨h1, h2⟩
      exact ⟨(k - mn).toNat, List.mem_range.2 (by omega), by omega⟩
  rw [find_sorted hsort, hmem]
  simp only [decide_eq_true_eq, decide_eq_false_iff_not, not_not]
  constructor
  · rintro ⟨⟨h1, h2⟩, h3, h4⟩
    exact ⟨h1, h2, h3, fun j hj1 hj2 => h4 j ((hmem j).2 ⟨hj1, by omega⟩) hj2⟩
  · rintro ⟨h1, h2, h3, h4⟩
    exact ⟨⟨h1, h2⟩, h3, fun j hj hlt => h4 j ((hmem j).1 hj).1 hlt⟩

/-- C132: the origin of an iteration is the last time of the first contiguous run of forecast
times: everything from the first time to it is there, and the next time is not. -/
theorem C132_iter_origin (times : List Int) (mn : Int) (hmn : mn ∈ times)
    (hmin : ∀ t ∈ times, mn ≤ t) (o : Int) :
    mlIterOrigin times = o ↔ mn ≤ o ∧ (∀ t, mn ≤ t → t ≤ o → t ∈ times) ∧ o + 1 ∉ times := by
  have hne : times ≠ [] := List.ne_nil_of_mem hmn
  obtain ⟨mx, hmx⟩ : ∃ mx, times.max? = some mx := by
    rcases h : times.max? with _ | mx
    · exact absurd (List.max?_eq_none_iff.1 h) hne
    · exact ⟨mx, rfl⟩
  have hmx' := List.max?_eq_some_iff.1 hmx
  have hmin' : times.min? = some mn := List.min?_eq_some_iff.2 ⟨hmn, hmin⟩
  have huniq : ∀ o o' : Int, (mn ≤ o ∧ (∀ t, mn ≤ t → t ≤ o → t ∈ times) ∧ o + 1 ∉ times) →
      (mn ≤ o' ∧ (∀ t, mn ≤ t → t ≤ o' → t ∈ times) ∧ o' + 1 ∉ times) → o = o' := by
    rintro o o' ⟨h1, h2, h3⟩ ⟨g1, g2, g3⟩
    by_contra hne
    rcases lt_or_gt_of_ne hne with h | h
    · exact h3 (g2 _ (by omega) (by omega))
    · exact g3 (h2 _ (by omega) (by omega))
  have hspec : mn ≤ mlIterOrigin times ∧ (∀ t, mn ≤ t → t ≤ mlIterOrigin times → t ∈ times) ∧
      mlIterOrigin times + 1 ∉ times := by
    unfold mlIterOrigin
    rw [hmx, hmin']
    simp only []
    have hge := hmin mx hmx'.1
    rcases hfind : ((List.range (mx - mn).toNat).map fun k : Nat => mn + (k : Int)).find?
        (fun t => decide (t ∉ times)) with _ | t
    · simp only []
      refine ⟨hge, fun t h1 h2 => ?_, fun h => ?_⟩
      · rcases eq_or_lt_of_le h2 with rfl | h2
        · exact hmx'.1
        · rw [List.find?_eq_none] at hfind
          have := hfind t (List.mem_map.2 ⟨(t - mn).toNat, List.mem_range.2 (by omega), by omega⟩)
          simpa using this
      · have := hmx'.2 _ h
        omega
    · obtain ⟨h1, h2, h3, h4⟩ := (find_gap _ _ _ _).1 hfind
      simp only []
      have : mn ≠ t := by
        rintro rfl
        exact h3 hmn
      refine ⟨by omega, fun j hj1 hj2 => h4 j hj1 (by omega), ?_⟩
      rw [show t - 1 + 1 = t by omega]
      exact h3
  constructor
  · rintro rfl
    exact hspec
  · intro h
    exact huniq _ _ hspec h

/-- The forecasts for 1, 2, 4 and 5 are continued from 2. -/
example : mlIterOrigin [4, 1, 2, 5] = 2 := by
  rw [C132_iter_origin _ 1 (by simp) (by simp)]
  refine ⟨by norm_num, ?_, by norm_num⟩
  intro t h1 h2
  have : t = 1 ∨ t = 2 := by omega
  rcases this with rfl | rfl <;> simp

theorem fcAt_mem (fc : MlFc) (t : Int) (hall : ∀ r ∈ fc, r.2.2 ≠ .nan) (ht : t ∈ fc.map (·.1)) :
    mlFcAt fc t ≠ .nan := by
  unfold mlFcAt
  rcases h : fc.find? (fun r => decide (r.1 = t)) with _ | r
  · rw [List.find?_eq_none] at h
    obtain ⟨r, hr, rfl⟩ := List.mem_map.1 ht
    have := h r hr
    simp at this
  · rw [h]
    exact hall r (List.mem_of_find?_eq_some h)

/-- What makes iterating well behaved: one target; a window that has a value makes a forecast that is
a value; and no future covariates. -/
structure MlIterates {Mdl : Type} (W : MlWorld Mdl) (p : MlParams) (op : MlOp) (m : Mdl)
    (c : String) : Prop where
  wf : p.WF
  opOk : mlOp p = .ok op
  one : p.targets = [c]
  noFut : p.fut = []
  value : ∀ win x, (∃ v ∈ win, v ≠ .nan) →
    spDenorm p op (spN W p win) (spN2 W p win) (W.predict m x) ≠ .nan

theorem last_mem_win (p : MlParams) (s : MlSeries) (c : String) (o : Nat) (h : 1 ≤ p.inputWindow)
    (ho : p.inputWindow ≤ o + 1) : s.val c o ∈ spWin p s c o := by
  have hmem : ∀ w, (spLags s c o p.inputWindow).drop (p.inputWindow - w) ≠ [] → w ≠ 0 →
      s.val c o ∈ (spLags s c o p.inputWindow).drop (p.inputWindow - w) := by
    intro w _ hw
    apply List.mem_iff_getElem?.2
    refine ⟨p.inputWindow - 1 - (p.inputWindow - w), ?_⟩
    rw [List.getElem?_drop]
    unfold spLags
    rw [List.getElem?_map, List.getElem?_range (by omega)]
    show some (s.val c (o + 1 - p.inputWindow +
      (p.inputWindow - w + (p.inputWindow - 1 - (p.inputWindow - w))))) = some (s.val c o)
    rw [show o + 1 - p.inputWindow + (p.inputWindow - w + (p.inputWindow - 1 - (p.inputWindow - w))) =
      o by omega]
  unfold spWin spLast
  have hlen : (spLags s c o p.inputWindow).length = p.inputWindow := by
    unfold spLags
    simp
  split
  · have := hmem p.inputWindow (by
      rw [Nat.sub_self, List.drop_zero]
      intro h0
      rw [h0] at hlen
      simp at hlen
      omega) (by omega)
    rwa [Nat.sub_self, List.drop_zero] at this
  · rename_i hw
    rw [hlen]
    refine hmem _ ?_ hw
    intro h0
    have := congrArg List.length h0
    rw [List.length_drop, hlen] at this
    simp at this
    omega

/-- One prediction pass over windows with a value of the target at the origin and none after it. -/
theorem once_keys {Mdl : Type} (W : MlWorld Mdl) (p : MlParams) (op : MlOp) (m : Mdl) (c : String)
    (hW : MlIterates W p op m c) (o e : Int) (he : o ≤ e) (f : String → Int → Fl)
    (hv : f c o ≠ .nan) (hnan : ∀ t, o < t → f c t = .nan) :
    ∃ fc, mlPredictOnce W p m [mlWindow p o e f] = .ok [fc] ∧
      fc.map (·.1) = p.horizon.map (fun h : Nat => o + (h : Int)) ∧ ∀ r ∈ fc, r.2.2 ≠ .nan := by
  have hL : 1 ≤ p.maxLags := le_trans hW.wf.lags hW.wf.lagsLe
  have hcut := window_cut p hL o e he f ⟨c, by rw [hW.one]; simp, hv⟩ (by
    intro t ht c' hc'
    rw [hW.one, List.mem_singleton] at hc'
    rw [hc']
    exact hnan t ht)
  rw [once_eq W p op m _ hW.wf hW.opOk (by simp)
    (by intro w hw; rw [List.mem_singleton] at hw; subst hw; exact hcut.2)
    (by intro w _ kc hk; rw [hW.noFut] at hk; cases hk)]
  have hlen1 : p.targets.length = 1 := by rw [hW.one]; rfl
  rw [hlen1]
  refine ⟨_, rfl, ?_, ?_⟩
  · show List.map _ ((p.horizon.map fun h => _) ++ []) = _
    rw [List.append_nil, List.map_map]
    apply List.map_congr_left
    intro h _
    show o - ((p.maxLags : Int) - 1) + ((p.maxLags - 1 : Nat) : Int) + (h : Int) = _
    omega
  · intro r hr
    have hr : r ∈ (p.horizon.map fun h => spFc W p op m (spRow W p op
      (mlStamps p [mlWindow p o e f]) (mlWindow p o e f) 0 h (p.maxLags - 1))) ++ [] := hr
    rw [List.append_nil, List.mem_map] at hr
    obtain ⟨h, _, rfl⟩ := hr
    apply hW.value
    refine ⟨_, last_mem_win p _ _ _ hW.wf.lags (by have := hW.wf.lagsLe; omega), ?_⟩
    have hc : p.targets.getD 0 "" = c := by rw [hW.one]; rfl
    rw [hc]
    show f c (o - ((p.maxLags : Int) - 1) + ((p.maxLags - 1 : Nat) : Int)) ≠ _
    rw [show o - ((p.maxLags : Int) - 1) + ((p.maxLags - 1 : Nat) : Int) = o by omega]
    exact hv

theorem at_after (p : MlParams) (c : String) (hc : c ∈ p.targets) (s : MlSeries) (l : Nat)
    (hv : mlLastValid p.targets s = some l) (t : Int) (ht : s.start + (l : Int) < t) :
    s.at c t = .nan := by
  obtain ⟨_, _, h3⟩ := ((lastValid_spec _ _).1 _).1 hv
  unfold MlSeries.at
  split
  · exact h3 _ (by omega) (by omega) c hc
  · rfl

theorem combine_keys (old new : MlFc) (hold : ∀ r ∈ old, r.2.2 ≠ .nan) :
    mlCombine old new = old ++ new.filter fun r => decide (r.1 ∉ old.map (·.1)) := by
  unfold mlCombine
  congr 1
  conv_rhs => rw [← List.map_id old]
  apply List.map_congr_left
  intro r hr
  rw [if_neg (hold r hr)]
  rfl

/-- C132: what an iteration adds.  From forecasts that are values and all later than the data, it
keeps them and adds forecasts, again values, for the horizons after the end `o` of their first
contiguous run. -/
theorem C132_iterate {Mdl : Type} (W : MlWorld Mdl) (p : MlParams) (op : MlOp) (m : Mdl) (c : String)
    (hW : MlIterates W p op m c) (s : MlSeries) (l : Nat) (hv : mlLastValid p.targets s = some l)
    (fc : MlFc) (hne : fc ≠ []) (hlater : ∀ t ∈ fc.map (·.1), s.start + (l : Int) < t)
    (hval : ∀ r ∈ fc, r.2.2 ≠ .nan) :
    ∃ fc', mlIterate W p m c [s] [fc] = .ok [fc'] ∧ (∀ r ∈ fc', r.2.2 ≠ .nan) ∧
      (∀ r ∈ fc, r ∈ fc') ∧
      ∀ t, t ∈ fc'.map (·.1) ↔ t ∈ fc.map (·.1) ∨
        ∃ h ∈ p.horizon, t = mlIterOrigin (fc.map (·.1)) + (h : Int) := by
  have hmin : ∃ mn, mn ∈ fc.map (·.1) ∧ ∀ t ∈ fc.map (·.1), mn ≤ t := by
    rcases h : (fc.map (·.1)).min? with _ | mn
    · rw [List.min?_eq_none_iff, List.map_eq_nil_iff] at h
      exact absurd h hne
    · exact ⟨mn, List.min?_eq_some_iff.1 h⟩
  obtain ⟨mn, hmn, hmin⟩ := hmin
  obtain ⟨ho1, ho2, _⟩ := (C132_iter_origin _ mn hmn hmin _).1 rfl
  obtain ⟨o, hodef⟩ : ∃ o, o = mlIterOrigin (fc.map (·.1)) := ⟨_, rfl⟩
  rw [← hodef] at ho1 ho2 ⊢
  have hmem := ho2 o ho1 (le_refl _)
  have hot := hlater o hmem
  have hc : c ∈ p.targets := by rw [hW.one]; simp
  obtain ⟨fc2, h1, h2, h3⟩ := once_keys W p op m c hW o
    (max o (s.start + (s.len : Int) - 1)) (le_max_left _ _)
    (fun c' t => if c' = c ∧ t ≤ o ∧ s.at c' t = .nan then mlFcAt fc t else s.at c' t)
    (by
      rw [if_pos ⟨rfl, le_refl _, at_after p c hc s l hv o hot⟩]
      exact fcAt_mem fc o hval hmem)
    (by
      intro t ht
      rw [if_neg (by omega)]
      exact at_after p c hc s l hv t (by omega))
  unfold mlIterate
  have hzip : (([s].zip [fc]).map fun sf => mlIterWindow p c sf.1 sf.2) = [mlWindow p o
      (max o (s.start + (s.len : Int) - 1)) fun c' t =>
        if c' = c ∧ t ≤ o ∧ s.at c' t = .nan then mlFcAt fc t else s.at c' t] := by
    show [mlIterWindow p c s fc] = _
    unfold mlIterWindow
    rw [← hodef]
  rw [hzip, h1, nf_ok_bind]
  refine ⟨mlCombine fc fc2, rfl, ?_, ?_, ?_⟩
  · rw [combine_keys _ _ hval]
    intro r hr
    rcases List.mem_append.1 hr with hr | hr
    · exact hval r hr
    · exact h3 r (List.mem_filter.1 hr).1
  · rw [combine_keys _ _ hval]
    intro r hr
    exact List.mem_append_left _ hr
  · intro t
    rw [combine_keys _ _ hval, List.map_append, List.mem_append]
    constructor
    · rintro (h | h)
      · exact Or.inl h
      · right
        obtain ⟨r, hr, rfl⟩ := List.mem_map.1 h
        have : r.1 ∈ fc2.map (·.1) := List.mem_map_of_mem (List.mem_filter.1 hr).1
        rw [h2, List.mem_map] at this
        obtain ⟨h, hh, he⟩ := this
        exact ⟨h, hh, he.symm⟩
    · rintro (h | ⟨h, hh, rfl⟩)
      · exact Or.inl h
      · by_cases hin : o + (h : Int) ∈ fc.map (·.1)
        · exact Or.inl hin
        · right
          have : o + (h : Int) ∈ fc2.map (·.1) := by
            rw [h2]
            exact List.mem_map.2 ⟨h, hh, rfl⟩
          obtain ⟨r, hr, he⟩ := List.mem_map.1 this
          refine List.mem_map.2 ⟨r, List.mem_filter.2 ⟨hr, ?_⟩, he⟩
          rw [decide_eq_true_eq, he]
          exact hin

/-- The first pass. -/
theorem first_pass {Mdl : Type} (W : MlWorld Mdl) (p : MlParams) (op : MlOp) (m : Mdl) (c : String)
    (hW : MlIterates W p op m c) (s : MlSeries) (l : Nat) (hv : mlLastValid p.targets s = some l) :
    ∃ w fc, [s].mapM (mlOwnWindow p) = .ok [w] ∧ mlPredictOnce W p m [w] = .ok [fc] ∧
      (∀ t, t ∈ fc.map (·.1) ↔ ∃ h ∈ p.horizon, t = s.start + (l : Int) + (h : Int)) ∧
      ∀ r ∈ fc, r.2.2 ≠ .nan := by
  have hL : 1 ≤ p.maxLags := le_trans hW.wf.lags hW.wf.lagsLe
  obtain ⟨w, h1, h2, _⟩ := own_window p hL s l hv
  obtain ⟨g1, g2, g3⟩ := ((lastValid_spec _ _).1 _).1 hv
  have hc : c ∈ p.targets := by rw [hW.one]; simp
  obtain ⟨fc, k1, k2, k3⟩ := once_keys W p op m c hW (s.start + (l : Int)) (s.start + s.len - 1)
    (by omega) s.at
    (by
      obtain ⟨c', hc', hne⟩ := g2
      rw [hW.one, List.mem_singleton] at hc'
      subst hc'
      unfold MlSeries.at
      rw [if_pos (by omega), show (s.start + (l : Int) - s.start).toNat = l by omega]
      exact hne)
    (fun t ht => at_after p c hc s l hv t ht)
  refine ⟨w, fc, ?_, by rw [h2]; exact k1, ?_, k3⟩
  · rw [List.mapM_cons, h1]
    rfl
  · intro t
    rw [k2, List.mem_map]
    constructor
    · rintro ⟨h, hh, rfl⟩
      exact ⟨h, hh, rfl⟩
    · rintro ⟨h, hh, rfl⟩
      exact ⟨h, hh, rfl⟩

theorem ex_iterates (H : List Nat) (mh : Nat) (h : ∀ h ∈ H, 1 ≤ h ∧ h ≤ mh) :
    MlIterates mlExW (mlExP H mh []) .div () "y" :=
  ⟨ex_wf _ _ _ h (by simp), ex_op _ _ _, rfl, rfl, fun win x _ => by
    show Fl.fin 3 * Fl.fin 2 ≠ .nan
    rw [Fl.fin_mul]
    intro hc
    cases hc⟩

/-- The forecasts for the positions 15, 16, 18 after five values, with the horizons 1 and 2: the next
ones are for 17 and 18. -/
example : ∃ fc', mlIterate mlExW (mlExP [1, 2] 2 []) () "y" [mlExS 5 0]
    [[(15, "y", .fin 1), (16, "y", .fin 1), (18, "y", .fin 1)]] = .ok [fc'] ∧ 17 ∈ fc'.map (·.1) := by
  obtain ⟨fc', h1, _, _, h4⟩ := C132_iterate mlExW (mlExP [1, 2] 2 []) .div () "y"
    (ex_iterates _ _ (by simp)) (mlExS 5 0) 4 (ex_last _ _ _ 5 0 (by omega))
    [(15, "y", .fin 1), (16, "y", .fin 1), (18, "y", .fin 1)] (by simp)
    (by
      intro t ht
      show (10 : Int) + ((4 : Nat) : Int) < t
      simp at ht
      omega)
    (by intro r hr; simp at hr; rcases hr with rfl | rfl | rfl <;> simp)
  refine ⟨fc', h1, (h4 17).2 (Or.inr ⟨1, by show 1 ∈ [1, 2]; simp, ?_⟩)⟩
  have : mlIterOrigin [15, 16, 18] = 16 := by
    rw [C132_iter_origin _ 15 (by simp) (by simp)]
    refine ⟨by norm_num, ?_, by norm_num⟩
    intro t h1 h2
    have : t = 15 ∨ t = 16 := by omega
    rcases this with rfl | rfl <;> simp
  show (17 : Int) = mlIterOrigin [15, 16, 18] + ((1 : Nat) : Int)
  rw [this]
  norm_num

/-! ## The forecast steps -/

/-- C132: asking for steps that are all horizons of the model gives all its horizons, whether or not
they were asked for. -/
theorem C132_steps_ignored {Mdl : Type} (W : MlWorld Mdl) (p : MlParams) (m : Mdl) (c : String)
    (ss : List MlSeries) (new : Option (List MlSeries)) (st : MlSteps)
    (h : ∀ t ∈ st.toList, ∃ h ∈ p.horizon, t = (h : Int)) (fuel fuel' : Nat) :
    mlPredict W p m c ss new (some st) (fuel + 1) = mlPredict W p m c ss new none fuel' := by
  have hall : ∀ t ∈ st.toList, t ∈ p.horizon.map (fun h : Nat => (h : Int)) := by
    intro t ht
    obtain ⟨h, hh, rfl⟩ := h t ht
    exact List.mem_map.2 ⟨h, hh, rfl⟩
  unfold mlPredict
  simp only [mlLoop, if_pos hall]
  rfl

/-- Step 2 of the horizons 1, 2 or no steps at all. -/
example : mlPredict mlExW (mlExP [1, 2] 2 []) () "y" [mlExS 5 0] none (some (.list [2])) 1 =
    mlPredict mlExW (mlExP [1, 2] 2 []) () "y" [mlExS 5 0] none none 0 :=
  C132_steps_ignored _ _ _ _ _ _ _ (by
    intro t ht
    have ht : t = 2 := List.mem_singleton.1 ht
    exact ⟨2, by show 2 ∈ [1, 2]; simp, by rw [ht]; rfl⟩) 0 0

/-- C132, refuted: "`steps`: int for overwriting horizon".  A model with the horizons 1 to 5, asked for
2 steps, returns the forecasts for all 5. -/
theorem C132_steps_fewer_violated {Mdl : Type} (W : MlWorld Mdl) (p : MlParams) (op : MlOp) (m : Mdl)
    (c : String) (hW : MlIterates W p op m c) (s : MlSeries) (l : Nat)
    (hv : mlLastValid p.targets s = some l) (hH : p.horizon = [1, 2, 3, 4, 5]) (fuel : Nat) :
    ∃ fc, mlPredict W p m c [s] none (some (.int 2)) (fuel + 1) = .ok (some [fc]) ∧
      s.start + (l : Int) + 5 ∈ fc.map (·.1) := by
  obtain ⟨w, fc, h1, h2, h3, _⟩ := first_pass W p op m c hW s l hv
  refine ⟨fc, ?_, (h3 _).2 ⟨5, by rw [hH]; simp, rfl⟩⟩
  rw [C132_steps_ignored W p m c [s] none (.int 2) (by
    intro t ht
    have : t ∈ (List.range 2).map (fun k : Nat => (k : Int) + 1) := ht
    rw [mem_counting] at this
    rw [hH]
    have ht' : t = 1 ∨ t = 2 := by omega
    rcases ht' with rfl | rfl
    · exact ⟨1, by simp, rfl⟩
    · exact ⟨2, by simp, rfl⟩) fuel 0]
  unfold mlPredict
  simp only []
  rw [h1, nf_ok_bind, h2]
  rfl

example : ∃ fc, mlPredict mlExW (mlExP [1, 2, 3, 4, 5] 5 []) () "y" [mlExS 5 0] none (some (.int 2)) 1 =
    .ok (some [fc]) ∧ (10 : Int) + ((4 : Nat) : Int) + 5 ∈ fc.map (·.1) :=
  C132_steps_fewer_violated mlExW (mlExP [1, 2, 3, 4, 5] 5 []) .div () "y" (ex_iterates _ _ (by simp))
    (mlExS 5 0) 4 (ex_last _ _ _ 5 0 (by omega)) rfl 0

/-- The loop from a state that satisfies an invariant. -/
theorem loop_inv {α : Type} (step : α → Except Err α) (H : List Nat) (steps : List Int) (c : Int)
    (I : Nat → α → Prop) (hI : ∀ i a, I i a → ∃ b, step a = .ok b ∧ I (i + 1) b) (n : Nat) :
    ∀ (i : Nat) (hs : List Int) (a : α), I i a →
      (∀ t ∈ steps, t ∈ hs ∨ ∃ k, k < n ∧ ∃ h ∈ H, t = (h : Int) + ((i + k : Nat) : Int) * c) →
      ∃ j r, i ≤ j ∧ j ≤ i + n ∧ I j r ∧
        (∀ t ∈ steps, t ∈ hs ∨ ∃ k, i + k < j ∧ ∃ h ∈ H, t = (h : Int) + ((i + k : Nat) : Int) * c) ∧
        mlLoop step H steps c (n + 1) i hs a = .ok (some r) := by
  induction n with
  | zero =>
    intro i hs a ha hall
    refine ⟨i, a, le_refl _, by omega, ha, ?_, ?_⟩
    · intro t ht
      rcases hall t ht with h | ⟨k, hk, _⟩
      · exact Or.inl h
      · omega
    · rw [mlLoop, if_pos]
      intro t ht
      rcases hall t ht with h | ⟨k, hk, _⟩
      · exact h
      · omega
  | succ n ih =>
    intro i hs a ha hall
    by_cases hdone : ∀ t ∈ steps, t ∈ hs
    · exact ⟨i, a, le_refl _, by omega, ha, fun t ht => Or.inl (hdone t ht), by
        rw [mlLoop, if_pos hdone]⟩
    · obtain ⟨b, hb, hIb⟩ := hI i a ha
      obtain ⟨j, r, h1, h2, h3, h4, h5⟩ := ih (i + 1)
        (hs ++ H.map fun h : Nat => (h : Int) + (i : Int) * c) b hIb (by
          intro t ht
          rcases hall t ht with h | ⟨k, hk, h, hh, he⟩
          · exact Or.inl (List.mem_append_left _ h)
          · rcases k with _ | k
            · refine Or.inl (List.mem_append_right _ (List.mem_map.2 ⟨h, hh, ?_⟩))
              rw [he, Nat.add_zero]
            · exact Or.inr ⟨k, by omega, h, hh, by rw [he, show i + 1 + k = i + (k + 1) by omega]⟩)
      refine ⟨j, r, by omega, by omega, h3, ?_, ?_⟩
      · intro t ht
        rcases h4 t ht with h | ⟨k, hk, h, hh, he⟩
        · rw [List.mem_append, List.mem_map] at h
          rcases h with h | ⟨h, hh, rfl⟩
          · exact Or.inl h
          · exact Or.inr ⟨0, by omega, h, hh, by rw [Nat.add_zero]⟩
        · exact Or.inr ⟨k + 1, by omega, h, hh, by rw [he, show i + 1 + k = i + (k + 1) by omega]⟩
      · rw [mlLoop, if_neg hdone, hb, nf_ok_bind]
        exact h5

/-- The loop from the forecasts of a first pass for the horizons 1 to `H`. -/
theorem steps_loop {Mdl : Type} (W : MlWorld Mdl) (p : MlParams) (op : MlOp) (m : Mdl)
    (c : String) (hW : MlIterates W p op m c) (s : MlSeries) (l : Nat)
    (hv : mlLastValid p.targets s = some l) (H : Nat) (hH : 1 ≤ H)
    (hhor : ∀ h, h ∈ p.horizon ↔ 1 ≤ h ∧ h ≤ H) (n : Nat) (fc : MlFc)
    (h3 : ∀ t, t ∈ fc.map (·.1) ↔ ∃ h ∈ p.horizon, t = s.start + (l : Int) + (h : Int))
    (h4 : ∀ r ∈ fc, r.2.2 ≠ .nan) :
    ∃ fc' j, mlLoop (mlIterate W p m c [s]) p.horizon (MlSteps.int (n : Int)).toList
        ((mlFirstMissing (p.horizon.map fun h : Nat => (h : Int))).getD 0 - 1) (n + 1) 1
        (p.horizon.map fun h : Nat => (h : Int)) [fc] = .ok (some [fc']) ∧ 1 ≤ j ∧
      n ≤ H * j ∧ (∀ r ∈ fc', r.2.2 ≠ .nan) ∧
      ∀ t, t ∈ fc'.map (·.1) ↔ s.start + (l : Int) < t ∧ t ≤ s.start + (l : Int) + (H * j : Nat) := by
  have hmiss : mlFirstMissing (p.horizon.map fun h : Nat => (h : Int)) = some ((H : Int) + 1) := by
    rw [(C132_first_missing _ _).2]
    refine ⟨by omega, ?_, ?_⟩
    · intro hm
      obtain ⟨h, hh, he⟩ := List.mem_map.1 hm
      have := (hhor h).1 hh
      omega
    · intro j hj1 hj2
      exact List.mem_map.2 ⟨j.toNat, (hhor _).2 (by omega), by omega⟩
  have hinv := loop_inv (mlIterate W p m c [s]) p.horizon (MlSteps.int (n : Int)).toList
    ((H : Int) + 1 - 1)
    (fun i (a : List MlFc) => 1 ≤ i ∧ ∃ fc, a = [fc] ∧ (∀ r ∈ fc, r.2.2 ≠ .nan) ∧
      ∀ t, t ∈ fc.map (·.1) ↔ s.start + (l : Int) < t ∧ t ≤ s.start + (l : Int) + (H * i : Nat))
    (by
      rintro i a ⟨hi, fc, rfl, hval, hkeys⟩
      have hpos : 1 ≤ H * i := Nat.mul_pos hH hi
      have hmn : s.start + (l : Int) + 1 ∈ fc.map (·.1) := (hkeys _).2 (by omega)
      obtain ⟨fc', g1, g2, _, g4⟩ := C132_iterate W p op m c hW s l hv fc
        (by rintro rfl; simp at hmn) (fun t ht => ((hkeys t).1 ht).1) hval
      have hor : mlIterOrigin (fc.map (·.1)) = s.start + (l : Int) + (H * i : Nat) := by
        rw [C132_iter_origin _ _ hmn (fun t ht => by have := (hkeys t).1 ht; omega)]
        refine ⟨by omega, fun t ht1 ht2 => (hkeys t).2 (by omega), fun hm => ?_⟩
        have := (hkeys _).1 hm
        omega
      refine ⟨[fc'], g1, by omega, fc', rfl, g2, fun t => ?_⟩
      rw [g4, hkeys, hor]
      have hmul : H * (i + 1) = H * i + H := by ring
      rw [hmul]
      constructor
      · rintro (h | ⟨h, hh, rfl⟩)
        · omega
        · have := (hhor h).1 hh
          omega
      · intro ht
        by_cases hle : t ≤ s.start + (l : Int) + (H * i : Nat)
        · exact Or.inl (by omega)
        · exact Or.inr ⟨(t - (s.start + (l : Int) + (H * i : Nat))).toNat, (hhor _).2 (by omega),
            by omega⟩)
    n 1 (p.horizon.map fun h : Nat => (h : Int)) [fc]
    ⟨le_refl _, fc, rfl, h4, fun t => by
      rw [h3, Nat.mul_one]
      constructor
      · rintro ⟨h, hh, rfl⟩
        have := (hhor h).1 hh
        omega
      · intro ht
        exact ⟨(t - (s.start + (l : Int))).toNat, (hhor _).2 (by omega), by omega⟩⟩
    (by
      intro t ht
      have ht : t ∈ (List.range n).map (fun k : Nat => (k : Int) + 1) := by
        have h0 : t ∈ (List.range ((n : Int).toNat)).map (fun k : Nat => (k : Int) + 1) := ht
        rwa [Int.toNat_natCast] at h0
      rw [mem_counting] at ht
      obtain ⟨q, hq⟩ : ∃ q : Nat, t = (q : Int) + 1 := ⟨(t - 1).toNat, by omega⟩
      have hdm := Nat.div_add_mod q H
      have hlt := Nat.mod_lt q (show 0 < H by omega)
      rcases hk : q / H with _ | k
      · left
        rw [hk, Nat.mul_zero] at hdm
        exact List.mem_map.2 ⟨q + 1, (hhor _).2 (by omega), by omega⟩
      · right
        have hkq : q / H ≤ q := Nat.div_le_self q H
        refine ⟨k, by omega, q % H + 1, (hhor _).2 (by omega), ?_⟩
        rw [hk] at hdm
        have : (((1 + k : Nat) : Int)) * ((H : Int) + 1 - 1) = ((H * (k + 1) : Nat) : Int) := by
          push_cast
          ring
        rw [this]
        omega)
  obtain ⟨j, r, hj1, _, ⟨_, fc', rfl, hval, hkeys⟩, hcov, hloop⟩ := hinv
  refine ⟨fc', j, ?_, hj1, ?_, hval, hkeys⟩
  · rw [hmiss]
    exact hloop
  · rcases Nat.eq_zero_or_pos n with rfl | hn
    · omega
    · have hmem : (n : Int) ∈ (MlSteps.int (n : Int)).toList := by
        show (n : Int) ∈ (List.range ((n : Int).toNat)).map (fun k : Nat => (k : Int) + 1)
        rw [Int.toNat_natCast, mem_counting]
        omega
      rcases hcov _ hmem with h | ⟨k, hk, h, hh, he⟩
      · obtain ⟨h, hh, he⟩ := List.mem_map.1 h
        have := (hhor h).1 hh
        have : H * 1 ≤ H * j := Nat.mul_le_mul_left H hj1
        omega
      · have hb := (hhor h).1 hh
        have h5 : (((1 + k : Nat) : Int)) * ((H : Int) + 1 - 1) = ((H * (1 + k) : Nat) : Int) := by
          push_cast
          ring
        rw [h5] at he
        have h6 : H * (1 + k) + H ≤ H * j := by
          have : H * (1 + k + 1) ≤ H * j := Nat.mul_le_mul_left H (by omega)
          have h7 : H * (1 + k + 1) = H * (1 + k) + H := by ring
          omega
        omega

/-- C132: with the horizons 1 to `H` (an int horizon), asking for `n` steps ends with forecasts, all
of them values, for exactly the steps 1 to some multiple `H j` of the horizon that covers `n`; `n`
passes through the loop suffice.  Missing: other lists of horizons, see `C132_steps_violated`. -/
theorem C132_steps_partial {Mdl : Type} (W : MlWorld Mdl) (p : MlParams) (op : MlOp) (m : Mdl)
    (c : String) (hW : MlIterates W p op m c) (s : MlSeries) (l : Nat)
    (hv : mlLastValid p.targets s = some l) (H : Nat) (hH : 1 ≤ H)
    (hhor : ∀ h, h ∈ p.horizon ↔ 1 ≤ h ∧ h ≤ H) (n : Nat) :
    ∃ fc j, mlPredict W p m c [s] none (some (.int n)) (n + 1) = .ok (some [fc]) ∧ 1 ≤ j ∧
      n ≤ H * j ∧ (∀ r ∈ fc, r.2.2 ≠ .nan) ∧
      ∀ t, t ∈ fc.map (·.1) ↔ s.start + (l : Int) < t ∧ t ≤ s.start + (l : Int) + (H * j : Nat) := by
  obtain ⟨w, fc, h1, h2, h3, h4⟩ := first_pass W p op m c hW s l hv
  obtain ⟨fc', j, g1, g2⟩ := steps_loop W p op m c hW s l hv H hH hhor n fc h3 h4
  refine ⟨fc', j, ?_, g2⟩
  unfold mlPredict
  simp only []
  rw [h1, nf_ok_bind, h2, nf_ok_bind]
  exact g1

/-- Horizons 1 and 2, five steps: forecasts for 1 to 2j with 5 ≤ 2j. -/
example : ∃ fc j, mlPredict mlExW (mlExP [1, 2] 2 []) () "y" [mlExS 5 0] none (some (.int (5 : Nat))) 6 =
    .ok (some [fc]) ∧ 5 ≤ 2 * j := by
  obtain ⟨fc, j, h1, _, h3, _⟩ := C132_steps_partial mlExW (mlExP [1, 2] 2 []) .div () "y"
    (ex_iterates _ _ (by simp)) (mlExS 5 0) 4 (ex_last _ _ _ 5 0 (by omega)) 2 (by omega)
    (by
      intro h
      show h ∈ [1, 2] ↔ _
      simp only [List.mem_cons, List.not_mem_nil, or_false]
      omega) 5
  exact ⟨fc, j, h1, h3⟩

/-- C132: with new data that have a valid row, the steps are counted from its last one, whatever the
old data are, and asking for `n` of them ends as in `C132_steps_partial`. -/
theorem C132_new_steps_partial {Mdl : Type} (W : MlWorld Mdl) (p : MlParams) (op : MlOp) (m : Mdl)
    (c : String) (hW : MlIterates W p op m c) (s d : MlSeries) (l : Nat)
    (hv : mlLastValid p.targets d = some l) (H : Nat) (hH : 1 ≤ H)
    (hhor : ∀ h, h ∈ p.horizon ↔ 1 ≤ h ∧ h ≤ H) (n : Nat) :
    ∃ fc j, mlPredict W p m c [s] (some [d]) (some (.int n)) (n + 1) = .ok (some [fc]) ∧ 1 ≤ j ∧
      n ≤ H * j ∧ (∀ r ∈ fc, r.2.2 ≠ .nan) ∧
      ∀ t, t ∈ fc.map (·.1) ↔ d.start + (l : Int) < t ∧ t ≤ d.start + (l : Int) + (H * j : Nat) := by
  have hL : 1 ≤ p.maxLags := le_trans hW.wf.lags hW.wf.lagsLe
  have hc : c ∈ p.targets := by rw [hW.one]; simp
  obtain ⟨g1, g2, g3⟩ := ((lastValid_spec _ _).1 _).1 hv
  have hdo : d.at c (d.start + (l : Int)) ≠ .nan := by
    obtain ⟨c', hc', hne⟩ := g2
    rw [hW.one, List.mem_singleton] at hc'
    subst hc'
    unfold MlSeries.at
    rw [if_pos (by omega), show (d.start + (l : Int) - d.start).toNat = l by omega]
    exact hne
  obtain ⟨f, hf⟩ : ∃ f : String → Int → Fl, f = fun c' t =>
      if d.at c' t ≠ .nan then d.at c' t
      else if d.start + (l : Int) < t ∧ c' ∈ p.targets then .nan else s.at c' t := ⟨_, rfl⟩
  obtain ⟨e, he⟩ : ∃ e, e = max (d.start + (l : Int)) (d.start + (d.len : Int) - 1) := ⟨_, rfl⟩
  have hle : d.start + (l : Int) ≤ e := by rw [he]; exact le_max_left _ _
  have hw : mlNewWindow p s d = mlWindow p (d.start + (l : Int)) e f := by
    unfold mlNewWindow
    rw [hv, hf, he]
  have hf1 : f c (d.start + (l : Int)) ≠ .nan := by
    rw [hf]
    simp only []
    rw [if_pos hdo]
    exact hdo
  have hf2 : ∀ t, d.start + (l : Int) < t → f c t = .nan := by
    intro t ht
    rw [hf]
    simp only []
    rw [if_neg (not_not.2 (at_after p c hc d l hv t ht)), if_pos ⟨ht, hc⟩]
  obtain ⟨fc, k1, k2, k3⟩ := once_keys W p op m c hW _ e hle f hf1 hf2
  have hcut := (window_cut p hL _ e hle f ⟨c, hc, hf1⟩ (by
    intro t ht c' hc'
    rw [hW.one, List.mem_singleton] at hc'
    rw [hc']
    exact hf2 t ht)).1
  have hst : (mlWindow p (d.start + (l : Int)) e f).start + ((p.maxLags - 1 : Nat) : Int) =
      d.start + (l : Int) := by
    show d.start + (l : Int) - ((p.maxLags : Int) - 1) + ((p.maxLags - 1 : Nat) : Int) = _
    omega
  obtain ⟨fc', j, q1, q2, q3, q4, q5⟩ := steps_loop W p op m c hW _ _ hcut H hH hhor n fc (by
    intro t
    rw [k2, List.mem_map, hst]
    constructor
    · rintro ⟨h, hh, rfl⟩
      exact ⟨h, hh, rfl⟩
    · rintro ⟨h, hh, rfl⟩
      exact ⟨h, hh, rfl⟩) k3
  rw [hst] at q5
  refine ⟨fc', j, ?_, q2, q3, q4, q5⟩
  unfold mlPredict
  simp only []
  have hz : (([s].zip [d]).map fun sd => mlNewWindow p sd.1 sd.2) =
      [mlWindow p (d.start + (l : Int)) e f] := by
    rw [← hw]
    rfl
  rw [nf_ok_bind, hz, k1, nf_ok_bind]
  exact q1

/-- Three new values over five old ones, from the same position on: the two steps are the positions 13
and 14. -/
example : ∃ fc j, mlPredict mlExW (mlExP [1, 2] 2 []) () "y" [mlExS 5 0] (some [mlExS 3 1])
    (some (.int (2 : Nat))) 3 = .ok (some [fc]) ∧ 1 ≤ j ∧
    ∀ t, t ∈ fc.map (·.1) ↔ 10 + ((2 : Nat) : Int) < t ∧ t ≤ 10 + ((2 : Nat) : Int) + (2 * j : Nat) := by
  obtain ⟨fc, j, h1, h2, _, _, h5⟩ := C132_new_steps_partial mlExW (mlExP [1, 2] 2 []) .div () "y"
    (ex_iterates _ _ (by simp)) (mlExS 5 0) (mlExS 3 1) 2 (ex_last _ _ _ 3 1 (by omega)) 2 (by omega)
    (by
      intro h
      show h ∈ [1, 2] ↔ _
      simp only [List.mem_cons, List.not_mem_nil, or_false]
      omega) 2
  exact ⟨fc, j, h1, h2, h5⟩

/-- C132: without a valid row there is no prediction. -/
theorem C132_no_valid {Mdl : Type} (W : MlWorld Mdl) (p : MlParams) (m : Mdl) (c : String)
    (ss : List MlSeries) (s : MlSeries) (hs : s ∈ ss)
    (hnan : ∀ j, j < s.len → ∀ c ∈ p.targets, s.val c j = .nan) (steps : Option MlSteps) (fuel : Nat) :
    mlPredict W p m c ss none steps fuel = .error .typeError := by
  have hn : mlLastValid p.targets s = none := (lastValid_spec _ _).2.2 hnan
  have key : ∀ l : List MlSeries, s ∈ l → l.mapM (mlOwnWindow p) = .error .typeError := by
    intro l hl
    induction l with
    | nil => simp at hl
    | cons a t ih =>
      rw [List.mapM_cons]
      cases ha : mlLastValid p.targets a with
      | none =>
        have : mlOwnWindow p a = .error .typeError := by unfold mlOwnWindow; rw [ha]
        rw [this]; rfl
      | some i =>
        have hat : a ≠ s := by rintro rfl; rw [hn] at ha; cases ha
        obtain ⟨w, hw⟩ : ∃ w, mlOwnWindow p a = .ok w := by
          unfold mlOwnWindow; rw [ha]; exact ⟨_, rfl⟩
        rw [hw, nf_ok_bind, ih ((List.mem_cons.1 hl).resolve_left (Ne.symm hat))]
        rfl
  unfold mlPredict
  simp only []
  rw [key ss hs]
  rfl

example : ∃ s : MlSeries, 0 < s.len ∧ ∀ j, j < s.len → ∀ c ∈ ["y"], s.val c j = .nan :=
  ⟨⟨0, 3, fun _ _ => .nan⟩, by decide, fun _ _ _ _ => rfl⟩

/-- C132: the window of an iteration.  Up to the last valid row it holds the data, missing values
included; after it, up to the end `o` of the first contiguous run, the forecasts; after that nothing
for the target.  Other columns are left alone. -/
theorem C132_iter_window (p : MlParams) (c : String) (hc : c ∈ p.targets) (s : MlSeries) (l : Nat)
    (hv : mlLastValid p.targets s = some l) (fc : MlFc) (hd : (fc.map (·.1)).Nodup)
    (hlater : ∀ t ∈ fc.map (·.1), s.start + (l : Int) < t) (t : Int)
    (h1 : mlIterOrigin (fc.map (·.1)) - ((p.maxLags : Int) - 1) ≤ t)
    (h2 : t ≤ mlIterOrigin (fc.map (·.1)) ∨ t < s.start + s.len) :
    (t ≤ s.start + (l : Int) → (mlIterWindow p c s fc).at c t = s.at c t) ∧
    (∀ r ∈ fc, r.1 = t → t ≤ mlIterOrigin (fc.map (·.1)) →
      (mlIterWindow p c s fc).at c t = r.2.2) ∧
    (mlIterOrigin (fc.map (·.1)) < t → s.start + (l : Int) < t →
      (mlIterWindow p c s fc).at c t = .nan) ∧
    (∀ c', c' ≠ c → (mlIterWindow p c s fc).at c' t = s.at c' t) := by
  have h3 : t ≤ max (mlIterOrigin (fc.map (·.1))) (s.start + (s.len : Int) - 1) := by
    rcases h2 with h2 | h2
    · exact le_trans h2 (le_max_left _ _)
    · exact le_trans (by omega) (le_max_right _ _)
  unfold mlIterWindow
  simp only []
  simp only [window_at _ _ _ _ _ _ h1 h3]
  refine ⟨?_, ?_, ?_, ?_⟩
  · intro ht
    split
    · rename_i hh
      rw [hh.2.2]
      unfold mlFcAt
      rw [List.find?_eq_none.2 (by
        intro r hr he
        rw [decide_eq_true_eq] at he
        have := hlater r.1 (List.mem_map_of_mem hr)
        omega)]
    · rfl
  · rintro r hr rfl hle
    rw [if_pos ⟨trivial, hle, at_after p c hc s l hv _ (hlater _ (List.mem_map_of_mem hr))⟩]
    unfold mlFcAt
    rcases hfd : fc.find? (fun r' => decide (r'.1 = r.1)) with _ | r'
    · have := List.find?_eq_none.1 hfd r hr
      simp at this
    · have hr' := List.mem_of_find?_eq_some hfd
      have he := List.find?_some hfd
      rw [decide_eq_true_eq] at he
      rw [hfd]
      show r'.2.2 = r.2.2
      rw [List.inj_on_of_nodup_map hd hr' hr he]
  · intro ho ht
    rw [if_neg (by omega)]
    exact at_after p c hc s l hv t ht
  · intro c' hne
    rw [if_neg (by tauto)]

/-- After five values from position 10 on, forecasts for 15 and 16: the window has the forecast at
15. -/
example : (mlIterWindow (mlExP [1, 2] 2 []) "y" (mlExS 5 0) [(15, "y", .fin 7), (16, "y", .fin 8)]).at
    "y" 15 = .fin 7 := by
  have ho : mlIterOrigin [15, 16] = 16 := by
    rw [C132_iter_origin _ 15 (by simp) (by simp)]
    refine ⟨by norm_num, ?_, by norm_num⟩
    intro t h1 h2
    have : t = 15 ∨ t = 16 := by omega
    rcases this with rfl | rfl <;> simp
  refine (C132_iter_window (mlExP [1, 2] 2 []) "y" (by show "y" ∈ ["y"]; simp) (mlExS 5 0) 4
    (ex_last _ _ _ 5 0 (by omega)) [(15, "y", .fin 7), (16, "y", .fin 8)] (by simp) ?_ 15 ?_ ?_).2.1
    _ (List.mem_cons_self) rfl ?_
  · intro t ht
    show (10 : Int) + ((4 : Nat) : Int) < t
    simp at ht
    omega
  · show mlIterOrigin [15, 16] - ((2 : Nat) - 1 : Int) ≤ 15
    rw [ho]; norm_num
  · left
    show (15 : Int) ≤ mlIterOrigin [15, 16]
    rw [ho]; norm_num
  · show (15 : Int) ≤ mlIterOrigin [15, 16]
    rw [ho]; norm_num

/-- C132, refuted for other lists of horizons: the loop counts the horizons as if every pass started
one contiguous run further, while the passes really start at the end of the first contiguous run of
forecasts.  A model with the horizons 1, 3 and 7, asked for 10 steps, stops after three iterations
with no forecasts for the steps 9 and 10, but with ones for 11 and 12. -/
theorem C132_steps_violated {Mdl : Type} (W : MlWorld Mdl) (p : MlParams) (op : MlOp) (m : Mdl)
    (c : String) (hW : MlIterates W p op m c) (s : MlSeries) (l : Nat)
    (hv : mlLastValid p.targets s = some l) (hH : p.horizon = [1, 3, 7]) :
    ∃ fc, mlPredict W p m c [s] none (some (.int 10)) 4 = .ok (some [fc]) ∧
      ∀ q : Int, s.start + (l : Int) + q ∈ fc.map (·.1) ↔ (1 ≤ q ∧ q ≤ 8) ∨ q = 11 ∨ q = 12 := by
  obtain ⟨w, fc, h1, h2, h3, h4⟩ := first_pass W p op m c hW s l hv
  have hmiss : mlFirstMissing (p.horizon.map fun h : Nat => (h : Int)) = some 2 := by
    rw [(C132_first_missing _ _).2, hH]
    refine ⟨by norm_num, by norm_num, ?_⟩
    intro j hj1 hj2
    have : j = 1 := by omega
    subst this
    simp
  have it : ∀ (fc : MlFc) (Q : Int → Prop) (o : Int), (∀ r ∈ fc, r.2.2 ≠ .nan) →
      (∀ q : Int, s.start + (l : Int) + q ∈ fc.map (·.1) ↔ Q q) → (∀ q, Q q → 1 ≤ q) →
      1 ≤ o → (∀ q, 1 ≤ q → q ≤ o → Q q) → ¬ Q (o + 1) →
      ∃ fc', mlIterate W p m c [s] [fc] = .ok [fc'] ∧ (∀ r ∈ fc', r.2.2 ≠ .nan) ∧
        ∀ q : Int, s.start + (l : Int) + q ∈ fc'.map (·.1) ↔
          Q q ∨ q = o + 1 ∨ q = o + 3 ∨ q = o + 7 := by
    intro fc Q o hval hQ hpos ho1 ho2 ho3
    have hkeys : ∀ t, t ∈ fc.map (·.1) ↔ Q (t - (s.start + (l : Int))) := by
      intro t
      rw [← hQ, show s.start + (l : Int) + (t - (s.start + (l : Int))) = t by omega]
    have hmn : s.start + (l : Int) + 1 ∈ fc.map (·.1) := (hQ 1).2 (ho2 1 (le_refl _) ho1)
    obtain ⟨fc', g1, g2, _, g4⟩ := C132_iterate W p op m c hW s l hv fc
      (by rintro rfl; simp at hmn)
      (fun t ht => by have := hpos _ ((hkeys t).1 ht); omega) hval
    have hor : mlIterOrigin (fc.map (·.1)) = s.start + (l : Int) + o := by
      rw [C132_iter_origin _ _ hmn (fun t ht => by have := hpos _ ((hkeys t).1 ht); omega)]
      refine ⟨by omega, fun t ht1 ht2 => (hkeys t).2 (ho2 _ (by omega) (by omega)), fun hm => ?_⟩
      rw [hkeys] at hm
      apply ho3
      rw [show s.start + (l : Int) + o + 1 - (s.start + (l : Int)) = o + 1 by omega] at hm
      exact hm
    refine ⟨fc', g1, g2, fun q => ?_⟩
    rw [g4, hQ, hor, hH]
    simp only [List.mem_cons, List.not_mem_nil, or_false]
    constructor
    · rintro (h | ⟨h, rfl | rfl | rfl, he⟩)
      · exact Or.inl h
      · exact Or.inr (Or.inl (by omega))
      · exact Or.inr (Or.inr (Or.inl (by omega)))
      · exact Or.inr (Or.inr (Or.inr (by omega)))
    · rintro (h | h | h | h)
      · exact Or.inl h
      · exact Or.inr ⟨1, Or.inl rfl, by omega⟩
      · exact Or.inr ⟨3, Or.inr (Or.inl rfl), by omega⟩
      · exact Or.inr ⟨7, Or.inr (Or.inr rfl), by omega⟩
  obtain ⟨fc1, a1, a2, a3⟩ := it fc (fun q => q = 1 ∨ q = 3 ∨ q = 7) 1 h4
    (by
      intro q
      rw [h3, hH]
      simp only [List.mem_cons, List.not_mem_nil, or_false]
      constructor
      · rintro ⟨h, rfl | rfl | rfl, he⟩ <;> omega
      · rintro (rfl | rfl | rfl)
        · exact ⟨1, Or.inl rfl, rfl⟩
        · exact ⟨3, Or.inr (Or.inl rfl), rfl⟩
        · exact ⟨7, Or.inr (Or.inr rfl), rfl⟩)
    (by intro q; omega) (by omega) (by intro q; omega) (by omega)
  obtain ⟨fc2, b1, b2, b3⟩ := it fc1 _ 4 a2 a3 (by intro q; omega) (by omega) (by intro q; omega)
    (by omega)
  obtain ⟨fc3, c1, c2, c3⟩ := it fc2 _ 5 b2 b3 (by intro q; omega) (by omega) (by intro q; omega)
    (by omega)
  refine ⟨fc3, ?_, fun q => ?_⟩
  · unfold mlPredict
    simp only []
    rw [h1, nf_ok_bind, h2, nf_ok_bind, hmiss, hH]
    show mlLoop (mlIterate W p m c [s]) [1, 3, 7] ((List.range 10).map fun k : Nat => (k : Int) + 1)
      ((2 : Int) - 1) 4 1 ([1, 3, 7].map fun h : Nat => (h : Int)) [fc] = _
    rw [mlLoop, if_neg (by decide), a1, nf_ok_bind, mlLoop, if_neg (by decide), b1, nf_ok_bind,
      mlLoop, if_neg (by decide), c1, nf_ok_bind, mlLoop, if_pos (by decide)]
  · rw [c3]
    omega

example : ∃ fc, mlPredict mlExW (mlExP [1, 3, 7] 7 []) () "y" [mlExS 5 0] none (some (.int 10)) 4 =
    .ok (some [fc]) ∧ (10 : Int) + ((4 : Nat) : Int) + 9 ∉ fc.map (·.1) := by
  obtain ⟨fc, h1, h2⟩ := C132_steps_violated mlExW (mlExP [1, 3, 7] 7 []) .div () "y"
    (ex_iterates _ _ (by simp)) (mlExS 5 0) 4 (ex_last _ _ _ 5 0 (by omega)) rfl
  exact ⟨fc, h1, fun h => by have := (h2 9).1 h; omega⟩

/-! ## Automatic features -/

/-- C132: the automatic calendar and Fourier features, and what happens to the frequency names.  A
given frequency is used as it is; an inferred one is mapped to month, quarter or year if it is one of
their plain names. -/
theorem C132_freq (inferred : Option String) (f : String) :
    mlInferFreq inferred (some f) = .ok f ∧ mlInferFreq none none = .error .valueError ∧
    (f ∈ ["BM", "CBM", "MS", "BMS", "CBMS"] → mlInferFreq (some f) none = .ok "M") ∧
    (f ∈ ["BQ", "QS", "BQS"] → mlInferFreq (some f) none = .ok "Q") ∧
    (f ∈ ["A", "BA", "BY", "AS", "YS", "BAS", "BYS"] → mlInferFreq (some f) none = .ok "Y") ∧
    (f ∉ ["BM", "CBM", "MS", "BMS", "CBMS", "BQ", "QS", "BQS", "A", "BA", "BY", "AS", "YS", "BAS",
      "BYS"] → mlInferFreq (some f) none = .ok f) := by
  refine ⟨rfl, rfl, fun h => ?_, fun h => ?_, fun h => ?_, fun h => ?_⟩
  · show (if f ∈ ["BM", "CBM", "MS", "BMS", "CBMS"] then _ else _) = _
    rw [if_pos h]
  · simp only [List.mem_cons, List.not_mem_nil, or_false] at h
    rcases h with rfl | rfl | rfl <;> decide
  · simp only [List.mem_cons, List.not_mem_nil, or_false] at h
    rcases h with rfl | rfl | rfl | rfl | rfl | rfl | rfl <;> decide
  · simp only [List.mem_cons, List.not_mem_nil, or_false, not_or] at h
    show (if f ∈ ["BM", "CBM", "MS", "BMS", "CBMS"] then _ else _) = _
    rw [if_neg (by simp only [List.mem_cons, List.not_mem_nil, or_false, not_or]; tauto),
      if_neg (by simp only [List.mem_cons, List.not_mem_nil, or_false, not_or]; tauto),
      if_neg (by simp only [List.mem_cons, List.not_mem_nil, or_false, not_or]; tauto)]

example : mlInferFreq (some "MS") none = .ok "M" := (C132_freq none "MS").2.2.1 (by decide)

/-- C132, refuted: "auto" features for the data frequency.  The names that pandas infers for weekly,
quarterly, yearly and minute data (`W-SUN`, `QS-OCT`, `AS-JAN`, `T`) are passed on unchanged, and
none of them has calendar or Fourier features. -/
theorem C132_auto_violated (f : String) (h : f ∈ ["W-SUN", "Q-DEC", "QS-OCT", "A-DEC", "AS-JAN", "T"]) :
    mlInferFreq (some f) none = .ok f ∧ mlAutoCal f = [] ∧ mlAutoFourier f = ([], [], 1) := by
  simp only [List.mem_cons, List.not_mem_nil, or_false] at h
  rcases h with rfl | rfl | rfl | rfl | rfl | rfl <;> decide

example : mlAutoCal "T" = [] := (C132_auto_violated "T" (by decide)).2.1

/-- C132: the frequencies with automatic features: for each calendar feature the frequencies that
have it, and for each frequency the Fourier periods in seconds (a minute, an hour, a day, a week, a
year of 365 days) with orders below half the number of steps in the period. -/
theorem C132_auto (f : String) :
    (∀ x, x ∈ mlAutoCal f ↔ x = "year" ∧ f ∈ ["Q", "M", "W", "D", "H", "min", "S"] ∨ x = "quarter" ∧ f ∈ ["M", "W", "D", "H", "min", "S"]
      ∨ x = "month" ∧ f ∈ ["W", "D", "H", "min", "S"] ∨ x = "weekofyear" ∧ f = "W" ∨ x = "day" ∧ f = "D"
      ∨ x = "weekday" ∧ f ∈ ["D", "H", "min", "S"] ∨ x = "hour" ∧ f ∈ ["H", "min", "S"] ∨ x = "minuteofday" ∧ f ∈ ["min", "S"])
    ∧ (mlAutoCal f).Nodup
    ∧ (∀ t, t ∈ (mlAutoFourier f).1.map (· * (mlAutoFourier f).2.2) ↔ t = 60 ∧ f = "S" ∨ t = 3600 ∧ f = "min" ∨ t = 86400 ∧ f = "H"
      ∨ t = 7 * 86400 ∧ f ∈ ["D", "H"] ∨ t = 365 * 86400 ∧ f ∈ ["W", "D", "H"])
    ∧ (mlAutoFourier f).1.length = (mlAutoFourier f).2.1.length
    ∧ (∀ q ∈ (mlAutoFourier f).1.zip (mlAutoFourier f).2.1, 0 < q.2 ∧ 2 * q.2 < q.1)
    ∧ ((mlAutoFourier f).2.1.sum = if f ∈ ["W", "min", "S"] then 7 else if f = "D" then 10 else if f = "H" then 15 else 0)
    ∧ (mlAutoFourier f).2.2 = (if f ∈ ["W", "D"] then 86400 else if f = "H" then 3600 else if f = "min" then 60 else 1) := by
  by_cases h : f ∈ ["Q", "M", "W", "D", "H", "min", "S"]
  · simp only [List.mem_cons, List.not_mem_nil, or_false] at h
    rcases h with rfl | rfl | rfl | rfl | rfl | rfl | rfl <;>
      refine ⟨fun x => ?_, by decide, fun t => ?_, by decide, by decide, by decide, by decide⟩ <;>
      simp [mlAutoCal, mlAutoFourier]
  · simp only [List.mem_cons, List.not_mem_nil, or_false, not_or] at h
    obtain ⟨h1, h2, h3, h4, h5, h6, h7⟩ := h
    simp [mlAutoCal, mlAutoFourier, h1, h2, h3, h4, h5, h6, h7]

example : "day" ∈ mlAutoCal "D" ∧ "day" ∉ mlAutoCal "H" :=
  ⟨((C132_auto "D").1 "day").2 (by decide), fun h => absurd (((C132_auto "H").1 "day").1 h) (by decide)⟩

end

end Kats

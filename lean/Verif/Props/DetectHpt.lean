import Verif.Model.DetectHpt
import Verif.Props.MetaHptTrain
import Verif.Props.GmEvaluate

/-!
# C151: the parameters of a detector by meta-learning
-/

namespace Kats

section
variable {V K S : Type} [DecidableEq V] [Field K] [LinearOrder K]

/-- A column with one value, in some rows at least. -/
def DhOne (col : List (Option V)) : Prop := ∃ v, some v ∈ col ∧ ∀ w, some w ∈ col → w = v

theorem dh_const_mem (fy : List (String × List (Option V))) (e : String × Option V) :
    e ∈ dhConst fy ↔ ∃ col, (e.1, col) ∈ fy ∧ DhOne col ∧ e.2 = col.head?.join := by
  unfold dhConst
  rw [List.mem_map]
  constructor
  · rintro ⟨p, hp, rfl⟩
    obtain ⟨h1, h2⟩ := List.mem_filter.1 hp
    exact ⟨p.2, h1, (hp_one p.2).1 (of_decide_eq_true h2), rfl⟩
  · rintro ⟨col, h1, h2, h3⟩
    exact ⟨(e.1, col), List.mem_filter.2 ⟨h1, decide_eq_true ((hp_one col).2 h2)⟩, by rw [← h3]⟩

theorem dh_unique {α : Type} (l : List (String × α)) (h : (l.map (·.1)).Nodup) (n : String) (a b : α) (ha : (n, a) ∈ l) (hb : (n, b) ∈ l) : a = b := by
  have := List.inj_on_of_nodup_map h ha hb rfl
  injection this

/-- C151: data are accepted exactly if the detector can be made with the parameters of each row but those of the five names.  Then the parameters with one value are put aside with the value of the first row, and the others are kept. -/
theorem C151_init (mk : List (String × Option V) → Bool) (fx : List String × List (List (Option K))) (rows : Nat) (fy : List (String × List (Option V))) (hn : (fy.map (·.1)).Nodup) :
    ((∃ o : Dh V K, dhInit mk fx rows fy = .ok o) ↔ ∀ i < rows, mk ((fy.filter fun e => decide (e.1 ∉ ["threshold_low", "threshold_high", "detection_window_sec", "fraction", "direction_1d"])).map
      fun e => (e.1, e.2.getD i none)) = true) ∧
    (∀ e, dhInit (K := K) mk fx rows fy = .error e → e = .otherError) ∧
    ∀ o : Dh V K, dhInit mk fx rows fy = .ok o → o.x = fx ∧ o.model = none ∧ o.y.Sublist fy ∧ (∀ e, e ∈ o.y ↔ e ∈ fy ∧ ¬ DhOne e.2) ∧
      (o.const.map (·.1)).Sublist (fy.map (·.1)) ∧ ∀ c v, (c, v) ∈ o.const ↔ ∃ col, (c, col) ∈ fy ∧ DhOne col ∧ v = col.head?.join := by
  have hrow : ∀ i, (dhRow fy i).filter (fun e => decide (e.1 ∉ dhRemoved)) = (fy.filter fun e => decide (e.1 ∉ ["threshold_low", "threshold_high", "detection_window_sec", "fraction", "direction_1d"])).map
      fun e => (e.1, e.2.getD i none) := by
    intro i
    unfold dhRow
    rw [List.filter_map]
    rfl
  unfold dhInit dhCheck
  by_cases h : (List.range rows).all (fun i => mk ((dhRow fy i).filter fun e => decide (e.1 ∉ dhRemoved))) = true
  · rw [if_pos h]
    rw [List.all_eq_true] at h
    refine ⟨⟨fun _ i hi => ?_, fun _ => ⟨_, rfl⟩⟩, fun e h => (by cases h), ?_⟩
    · rw [← hrow]
      exact h i (List.mem_range.2 hi)
    · intro o ho
      injection ho with ho
      subst ho
      refine ⟨rfl, rfl, List.filter_sublist, ?_, ?_, ?_⟩
      · intro e
        show e ∈ fy.filter _ ↔ _
        rw [List.mem_filter, decide_eq_true_iff]
        constructor
        · rintro ⟨h1, h2⟩
          refine ⟨h1, fun h3 => h2 (List.mem_map.2 ⟨(e.1, e.2.head?.join), (dh_const_mem _ _).2 ⟨e.2, h1, h3, rfl⟩, rfl⟩)⟩
        · rintro ⟨h1, h2⟩
          refine ⟨h1, fun h3 => h2 ?_⟩
          obtain ⟨x, hx, hxe⟩ := List.mem_map.1 h3
          obtain ⟨col, g1, g2, _⟩ := (dh_const_mem _ _).1 hx
          rw [hxe] at g1
          rw [dh_unique fy hn e.1 e.2 col h1 g1]
          exact g2
      · show ((dhConst fy).map (·.1)).Sublist _
        unfold dhConst
        rw [List.map_map]
        exact List.filter_sublist.map _
      · intro c v
        exact dh_const_mem fy (c, v)
  · rw [if_neg h]
    refine ⟨⟨fun ⟨o, h⟩ => (by cases h), fun h' => absurd ?_ h⟩, ?_, fun o h => (by cases h)⟩
    · rw [List.all_eq_true]
      intro i hi
      rw [hrow]
      exact h' i (List.mem_range.1 hi)
    · intro e h
      injection h with h
      exact h.symm

/-- The sizes of the layers that are used. -/
def DhLayers (cats : List (List Nat)) (n : Nat) : List (List Nat) := if cats.length = n then cats else List.replicate n [5]

/-- C151: training succeeds exactly if no constant parameter is named and `MetaLearnHPT` with the data accepts, builds and trains; hidden layers for another number of categorical parameters are replaced by one of five units for each.
The object has the trained network then, and is as it was otherwise. -/
theorem C151_train (sort : List V → List V) (std : List K → K) (init : List Nat → Nat → Nat → HpLayer K) (num : Option V → Except Err K)
    (ce : List K → Nat → K) (opt : String → S) (step : S → HpNet K → List (HpRow K) → S × HpNet K) (perm : List Nat) (perms : Nat → List Nat) (o o' : Dh V K)
    (numIdx catIdx : List String) (shared : List Nat) (cats : List (List Nat)) (nums : List Nat) (params : Option (Bool × HpTrain K)) :
    dhTrain sort std init num ce opt step perm perms o numIdx catIdx shared cats nums params = .ok o' ↔
      (∀ n ∈ numIdx ++ catIdx, ∀ v, (n, v) ∉ o.const) ∧ ∃ s net obj,
      hpInit sort std ⟨some o.x, some o.y, some catIdx, some numIdx, none, (params.getD dhParams).1, false⟩ = .ok (some s) ∧
      hpBuild init s (some shared) (some (DhLayers cats catIdx.length)) (some nums) = .ok net ∧
      hpTrain num ce opt step perm perms (some (s, some net, [])) (params.getD dhParams).2 = .ok obj ∧ o' = ⟨o.x, o.y, o.const, some obj⟩ := by
  have hany : ∀ l : List String, (l.any fun n => decide (n ∈ o.const.map (·.1))) = true ↔ ∃ n ∈ l, ∃ v, (n, v) ∈ o.const := by
    intro l
    rw [List.any_eq_true]
    constructor
    · rintro ⟨n, hn, h⟩
      obtain ⟨e, he, rfl⟩ := List.mem_map.1 (of_decide_eq_true h)
      exact ⟨e.1, hn, e.2, he⟩
    · rintro ⟨n, hn, v, h⟩
      exact ⟨n, hn, decide_eq_true (List.mem_map.2 ⟨(n, v), h, rfl⟩)⟩
  have hlay : (if cats.length ≠ catIdx.length then List.replicate catIdx.length [5] else cats) = DhLayers cats catIdx.length := by
    unfold DhLayers
    rw [ite_not]
  unfold dhTrain
  by_cases h1 : (numIdx.any fun n => decide (n ∈ o.const.map (·.1))) = true
  · rw [if_pos h1]
    obtain ⟨n, hn, v, hv⟩ := (hany _).1 h1
    exact ⟨fun h => (by cases h), fun h => absurd hv (h.1 n (List.mem_append_left _ hn) v)⟩
  rw [if_neg h1]
  by_cases h2 : (catIdx.any fun n => decide (n ∈ o.const.map (·.1))) = true
  · rw [if_pos h2]
    obtain ⟨n, hn, v, hv⟩ := (hany _).1 h2
    exact ⟨fun h => (by cases h), fun h => absurd hv (h.1 n (List.mem_append_right _ hn) v)⟩
  rw [if_neg h2]
  simp only [hlay]
  have h3 : ∀ n ∈ numIdx ++ catIdx, ∀ v, (n, v) ∉ o.const := by
    intro n hn v hv
    rcases List.mem_append.1 hn with h | h
    · exact h1 ((hany _).2 ⟨n, h, v, hv⟩)
    · exact h2 ((hany _).2 ⟨n, h, v, hv⟩)
  constructor
  · intro h
    obtain ⟨s, hs, h⟩ := (gm_bind_ok _ _ _).1 h
    rcases s with _ | s
    · cases h
    obtain ⟨net, hnet, h⟩ := (gm_bind_ok _ _ _).1 h
    rcases ht : hpTrain num ce opt step perm perms (some (s, some net, [])) (params.getD dhParams).2 with e | obj
    · rw [ht] at h
      cases h
    · rw [ht] at h
      injection h with h
      exact ⟨h3, s, net, obj, hs, hnet, ht, h.symm⟩
  · rintro ⟨_, s, net, obj, hs, hnet, ht, ho⟩
    refine (gm_bind_ok _ _ _).2 ⟨some s, hs, (gm_bind_ok _ _ _).2 ⟨net, hnet, ?_⟩⟩
    rw [ht, ho]
    rfl

/-- C151: without parameters of the network, training is without scaling, with at most 1000 epochs of "SGD" in batches of 128, a tenth for the validation, an early stopping of 20 epochs and both losses alike. -/
theorem C151_default (sort : List V → List V) (std : List K → K) (init : List Nat → Nat → Nat → HpLayer K) (num : Option V → Except Err K)
    (ce : List K → Nat → K) (opt : String → S) (step : S → HpNet K → List (HpRow K) → S × HpNet K) (perm : List Nat) (perms : Nat → List Nat) (o : Dh V K)
    (numIdx catIdx : List String) (shared : List Nat) (cats : List (List Nat)) (nums : List Nat) :
    dhTrain sort std init num ce opt step perm perms o numIdx catIdx shared cats nums none =
      dhTrain sort std init num ce opt step perm perms o numIdx catIdx shared cats nums (some (false, ⟨1, 1000, 128, "SGD", 1 / 10, some 20⟩)) := rfl

/-- C151: a failure has one of these reasons: a constant parameter is named, the data are refused by `MetaLearnHPT`, or the training fails; the network can always be built. -/
theorem C151_errors (sort : List V → List V) (hsort : ∀ l, (sort l).Perm l) (std : List K → K) (init : List Nat → Nat → Nat → HpLayer K) (hinit : ∀ p i o, HpShape i o (init p i o)) (num : Option V → Except Err K)
    (ce : List K → Nat → K) (opt : String → S) (step : S → HpNet K → List (HpRow K) → S × HpNet K) (perm : List Nat) (perms : Nat → List Nat) (o : Dh V K)
    (numIdx catIdx : List String) (shared : List Nat) (cats : List (List Nat)) (nums : List Nat) (params : Option (Bool × HpTrain K)) (e : Err)
    (h : dhTrain sort std init num ce opt step perm perms o numIdx catIdx shared cats nums params = .error e) :
    (e = .valueError ∧ ∃ n ∈ numIdx ++ catIdx, ∃ v, (n, v) ∈ o.const) ∨
    hpInit sort std ⟨some o.x, some o.y, some catIdx, some numIdx, none, (params.getD dhParams).1, false⟩ = .error e ∨
    (e = .otherError ∧ ∃ s net e', hpInit sort std ⟨some o.x, some o.y, some catIdx, some numIdx, none, (params.getD dhParams).1, false⟩ = .ok (some s) ∧
      hpTrain num ce opt step perm perms (some (s, some net, [])) (params.getD dhParams).2 = .error e') := by
  unfold dhTrain at h
  split at h
  · rename_i h1
    injection h with h
    obtain ⟨n, hn, hm⟩ := List.any_eq_true.1 h1
    obtain ⟨x, hx, rfl⟩ := List.mem_map.1 (of_decide_eq_true hm)
    exact Or.inl ⟨h.symm, x.1, List.mem_append_left _ hn, x.2, hx⟩
  split at h
  · rename_i h1
    injection h with h
    obtain ⟨n, hn, hm⟩ := List.any_eq_true.1 h1
    obtain ⟨x, hx, rfl⟩ := List.mem_map.1 (of_decide_eq_true hm)
    exact Or.inl ⟨h.symm, x.1, List.mem_append_right _ hn, x.2, hx⟩
  simp only [] at h
  obtain ⟨a, ha⟩ : ∃ a : HpArgs V K, a = ⟨some o.x, some o.y, some catIdx, some numIdx, none, (params.getD dhParams).1, false⟩ := ⟨_, rfl⟩
  rw [← ha] at h ⊢
  rcases hs : hpInit sort std a with e' | s
  · rw [hs] at h
    injection h with h
    rw [h]
    exact Or.inr (Or.inl rfl)
  rw [hs] at h
  rcases s with _ | s
  · exfalso
    obtain ⟨_, _, _, _, _, _, _, _, _, g⟩ := (hp_init_ok sort std a o.x o.y (by rw [ha]) (by rw [ha]) (by rw [ha]) _).1 hs
    cases g
  obtain ⟨hd, hdef⟩ := (C149_init_partial sort hsort std a o.x o.y (by rw [ha]) (by rw [ha]) (by rw [ha]) (by rw [ha]) catIdx (by rw [ha])).2 s hs
  have hnc : s.nCat.length = catIdx.length := by rw [hd.2.2.2.2.2.1, List.length_map]; exact hd.2.2.2.2.1.length_eq.symm
  obtain ⟨net, hnet⟩ := ((C149_network init hinit s hdef (some shared) (some (if cats.length ≠ catIdx.length then List.replicate catIdx.length [5] else cats)) (some nums)).1).2
    ⟨by simp, by simp, _, rfl, by
      rw [hnc]
      split
      · rw [List.length_replicate]
      · rename_i h; rw [not_not] at h; exact h⟩
  have h : (hpBuild init s (some shared) (some (if cats.length ≠ catIdx.length then List.replicate catIdx.length [5] else cats)) (some nums) >>= _) = Except.error e := h
  rw [hnet] at h
  have h : (match hpTrain num ce opt step perm perms (some (s, some net, [])) (params.getD dhParams).2 with
        | .error _ => Except.error Err.otherError
        | .ok obj => Except.ok { o with model := some obj }) = Except.error e := h
  rcases ht : hpTrain num ce opt step perm perms (some (s, some net, [])) (params.getD dhParams).2 with e' | obj
  · rw [ht] at h
    injection h with h
    exact Or.inr (Or.inr ⟨h.symm, s, net, e', rfl, ht⟩)
  · rw [ht] at h
    cases h

/-- C151, the part that holds: after the start and a training with steps that keep the sizes of the layers, any rows of features get one recommendation each.  It has each parameter of the data once: those with one value with that
of the first row, a categorical one with a value it has in the data, a numerical one with a number. -/
theorem C151_recommend_partial (mk : List (String × Option V) → Bool) (fx : List String × List (List (Option K))) (rows : Nat) (fy : List (String × List (Option V))) (hn : (fy.map (·.1)).Nodup)
    (sort : List V → List V) (hsort : ∀ l, (sort l).Perm l) (std : List K → K) (init : List Nat → Nat → Nat → HpLayer K) (hinit : ∀ p i o, HpShape i o (init p i o)) (num : Option V → Except Err K)
    (ce : List K → Nat → K) (opt : String → S) (step : S → HpNet K → List (HpRow K) → S × HpNet K)
    (hstep : ∀ (s : Hp V K) shared cats nums st n rows, HpSized s shared cats nums n → HpSized s shared cats nums (step st n rows).2)
    (perm : List Nat) (perms : Nat → List Nat) (o o' : Dh V K) (numIdx catIdx : List String) (hnd : (catIdx ++ numIdx).Nodup) (shared : List Nat) (cats : List (List Nat)) (nums : List Nat)
    (params : Option (Bool × HpTrain K)) (ho : dhInit mk fx rows fy = .ok o) (h : dhTrain sort std init num ce opt step perm perms o numIdx catIdx shared cats nums params = .ok o')
    (hv : ∀ n ∈ catIdx, ∀ col, (n, col) ∈ fy → ∃ v, some v ∈ col) (l : List (List (Option K))) (hl : l ≠ []) (hlen : ∀ r ∈ l, r.length = fx.1.length) :
    ∃ ans, dhFromFeatures o' (.list l) = .ok ans ∧ ans.length = l.length ∧ ∀ d ∈ ans, (d.map (·.1)).Perm (fy.map (·.1)) ∧
      (∀ n col, (n, col) ∈ fy → DhOne col → (n, Sum.inl col.head?.join) ∈ d) ∧
      (∀ n ∈ catIdx, ∃ v col, (n, Sum.inl (some v)) ∈ d ∧ (n, col) ∈ fy ∧ some v ∈ col) ∧ ∀ n ∈ numIdx, ∃ q, (n, Sum.inr q) ∈ d := by
  obtain ⟨ox, _, oy, oym, oc, ocm⟩ := (C151_init mk fx rows fy hn).2.2 o ho
  obtain ⟨hno, s, net, obj, hs, hb, ht, ho'⟩ := (C151_train sort std init num ce opt step perm perms o o' numIdx catIdx shared cats nums params).1 h
  rw [ox] at hs
  have hyn : (o.y.map (·.1)).Nodup := (oy.map _).nodup hn
  have hlook : ∀ n col, o.y.lookup n = some col → (n, col) ∈ o.y := by
    intro n col
    generalize o.y = y
    induction y with
    | nil => intro h; cases h
    | cons a y ih =>
      intro h
      rw [lookup_if] at h
      by_cases hc : n = a.1
      · rw [if_pos hc] at h
        injection h with h
        rw [hc, ← h]
        exact List.mem_cons_self
      · rw [if_neg hc] at h
        exact List.mem_cons_of_mem _ (ih h)
  have hlook' : ∀ n col, o.y.lookup n = some col → (n, col) ∈ fy := fun n col h => oy.subset (hlook n col h)
  obtain ⟨h1, h2⟩ := C149_init_partial sort hsort std ⟨some fx, some o.y, some catIdx, some numIdx, none, (params.getD dhParams).1, false⟩ fx o.y rfl rfl rfl rfl catIdx rfl
  obtain ⟨_, hmem, hcount, _, _⟩ := h1.1 ⟨s, hs⟩
  obtain ⟨hd, hdef⟩ := h2 s hs
  simp only [Option.getD_some] at hmem hcount
  obtain ⟨_, _, _, _, _, _, _, _, _, hsome⟩ := (hp_init_ok sort std _ fx o.y rfl rfl rfl _).1 hs
  injection hsome with hsome
  have hsc : ∀ m, s.scale = some m → m.1.length = s.dim ∧ m.2.length = s.dim := by
    intro m hm
    rw [hsome] at hm ⊢
    simp only at hm ⊢
    split at hm
    · injection hm with hm
      rw [← hm]
      exact ⟨by simp [msMean], by simp [msStd]⟩
    · cases hm
  have hsz := (C149_network init hinit s hdef (some shared) (some (DhLayers cats catIdx.length)) (some nums)).2 net hb
  obtain ⟨ans, ha, hal, had⟩ := C149_trained num ce opt step perm perms fx o.y catIdx numIdx s hd hnd (fun n hn col hc => hv n hn col (hlook' n col hc)) hsc _ _ _
    (hstep s _ _ _) net hsz [] _ obj ht l hl hlen
  have hcy : ∀ n ∈ catIdx ++ numIdx, n ∈ o.y.map (·.1) := by
    intro n hn
    obtain ⟨col, hc⟩ := hmem n hn
    exact List.mem_map.2 ⟨(n, col), hlook n col hc, rfl⟩
  have hp1 : (catIdx ++ numIdx).Perm (o.y.map (·.1)) := by
    apply List.Subperm.perm_of_length_le (List.subperm_of_subset hnd hcy)
    rw [List.length_map, List.length_append]
    omega
  have hcn : (o.const.map (·.1)).Nodup := oc.nodup hn
  have hdis : ∀ n ∈ catIdx ++ numIdx, n ∉ o.const.map (·.1) := by
    intro n hn hm
    obtain ⟨e, he, hee⟩ := List.mem_map.1 hm
    refine hno n ?_ e.2 (by rw [← hee]; exact he)
    rcases List.mem_append.1 hn with h | h
    · exact List.mem_append_right _ h
    · exact List.mem_append_left _ h
  have hp2 : ((catIdx ++ numIdx) ++ o.const.map (·.1)).Perm (fy.map (·.1)) := by
    have hnd2 : ((catIdx ++ numIdx) ++ o.const.map (·.1)).Nodup := List.Nodup.append hnd hcn fun n hn hm => hdis n hn hm
    rw [List.perm_ext_iff_of_nodup hnd2 hn]
    intro n
    rw [List.mem_append, hp1.mem_iff]
    constructor
    · rintro (h | h)
      · exact (oy.map _).subset h
      · exact oc.subset h
    · intro h
      obtain ⟨e, he, hee⟩ := List.mem_map.1 h
      by_cases hone : DhOne e.2
      · right
        exact List.mem_map.2 ⟨(n, e.2.head?.join), (ocm n _).2 ⟨e.2, by rw [← hee]; exact he, hone, rfl⟩, rfl⟩
      · left
        exact List.mem_map.2 ⟨e, (oym e).2 ⟨he, hone⟩, hee⟩
  subst ho'
  refine ⟨ans.map fun d => gmUpdate (d.map fun e => (e.1, Sum.map some id e.2)) (o.const.map fun e => (e.1, Sum.inl e.2)), ?_, by rw [List.length_map, hal], ?_⟩
  · unfold dhFromFeatures
    show (hpPredBy obj (.list l) >>= _) = _
    rw [ha]
    rfl
  · intro d' hd'
    obtain ⟨d, hdm, rfl⟩ := List.mem_map.1 hd'
    obtain ⟨g1, g2, g3⟩ := had d hdm
    have hn1 : (d.map fun e => (e.1, Sum.map some id e.2) : List (String × (Option V ⊕ K))).map (·.1) = catIdx ++ numIdx := by
      rw [List.map_map, ← g1]
      rfl
    have hn2 : (o.const.map fun e => (e.1, Sum.inl e.2) : List (String × (Option V ⊕ K))).map (·.1) = o.const.map (·.1) := by
      rw [List.map_map]
      rfl
    rw [update_fresh _ _ (by
      rw [hn1, hn2]
      exact List.Nodup.append hnd hcn fun n hn hm => hdis n hn hm)]
    refine ⟨?_, ?_, ?_, ?_⟩
    · rw [List.map_append, hn1, hn2]
      exact hp2
    · intro n col hc hone
      apply List.mem_append_right
      exact List.mem_map.2 ⟨(n, col.head?.join), (ocm n _).2 ⟨col, hc, hone, rfl⟩, rfl⟩
    · intro n hn
      obtain ⟨v, col, k1, k2, k3⟩ := g2 n hn
      exact ⟨v, col, List.mem_append_left _ (List.mem_map.2 ⟨_, k1, rfl⟩), hlook' n col k2, k3⟩
    · intro n hn
      obtain ⟨q, hq⟩ := g3 n hn
      exact ⟨q, List.mem_append_left _ (List.mem_map.2 ⟨_, hq, rfl⟩)⟩

/-- C151 violated: a parameter with one value should get that value.  If it is missing in the first row, each recommendation has a missing value for it. -/
theorem C151_missing_violated (mk : List (String × Option V) → Bool) (fx : List String × List (List (Option K))) (rows : Nat) (fy : List (String × List (Option V))) (hn : (fy.map (·.1)).Nodup)
    (o : Dh V K) (ho : dhInit mk fx rows fy = .ok o) (n : String) (col : List (Option V)) (hc : (n, none :: col) ∈ fy) (hone : DhOne (none :: col)) (model : Option (HpObj V K))
    (x : HpInput K) (ans : List (List (String × (Option V ⊕ K)))) (ha : dhFromFeatures { o with model := model } x = .ok ans) (d : List (String × (Option V ⊕ K))) (hd : d ∈ ans) :
    d.lookup n = some (Sum.inl none) := by
  obtain ⟨_, _, _, _, oc, ocm⟩ := (C151_init mk fx rows fy hn).2.2 o ho
  unfold dhFromFeatures at ha
  rcases model with _ | obj
  · cases ha
  simp only [] at ha
  obtain ⟨r, _, ha⟩ := (gm_bind_ok _ _ _).1 ha
  injection ha with ha
  rw [← ha] at hd
  obtain ⟨d', _, rfl⟩ := List.mem_map.1 hd
  have hcn : (o.const.map (·.1)).Nodup := oc.nodup hn
  have hmem : (n, none) ∈ o.const := (ocm n none).2 ⟨_, hc, hone, rfl⟩
  rw [update_lookup _ _ _ (by
    rw [List.map_map]
    exact hcn)]
  have : (o.const.map fun e => (e.1, Sum.inl e.2) : List (String × (Option V ⊕ K))).lookup n = some (Sum.inl none) := by
    revert hmem hcn
    generalize o.const = c
    clear * -
    intro hcn hmem
    induction c with
    | nil => cases hmem
    | cons a c ih =>
      rw [List.map_cons, List.nodup_cons] at hcn
      rw [List.map_cons, lookup_if]
      rcases List.mem_cons.1 hmem with rfl | hm
      · rw [if_pos rfl]
      · rw [if_neg, ih hcn.2 hm]
        intro h
        exact hcn.1 (List.mem_map.2 ⟨_, hm, h⟩)
  rw [this]
  rfl

/-- C151 violated: a series should get the recommendation of its features.  It never gets one. -/
theorem C151_series_violated (features : List GmFlt → Except Err (List (String × Option K))) (o : Dh V K) (values : List GmFlt) (ans : List (List (String × (Option V ⊕ K)))) :
    dhFromTs features o values ≠ .ok ans := by
  intro h
  unfold dhFromTs at h
  obtain ⟨_, _, h⟩ := (gm_bind_ok _ _ _).1 h
  split at h
  · cases h
  · obtain ⟨_, _, h⟩ := (gm_bind_ok _ _ _).1 h
    cases h

/-- C151 violated: data that are accepted should be enough for training.  If all parameters have one value, no training succeeds, and so there is no recommendation of these values; with the parameters of the network as they are
by default, up to 143 rows are not enough either. -/
theorem C151_small_violated (mk : List (String × Option V) → Bool) (fx : List String × List (List (Option K))) (rows : Nat) (fy : List (String × List (Option V))) (hn : (fy.map (·.1)).Nodup)
    (sort : List V → List V) (hsort : ∀ l, (sort l).Perm l) (std : List K → K) (init : List Nat → Nat → Nat → HpLayer K) (num : Option V → Except Err K)
    (ce : List K → Nat → K) (opt : String → S) (step : S → HpNet K → List (HpRow K) → S × HpNet K)
    (perm : List Nat) (perms : Nat → List Nat) (o o' : Dh V K) (numIdx catIdx : List String) (shared : List Nat) (cats : List (List Nat)) (nums : List Nat)
    (params : Option (Bool × HpTrain K)) (ho : dhInit mk fx rows fy = .ok o)
    (hsmall : (∀ e ∈ fy, DhOne e.2) ∨ params = none ∧ fx.2.length ≤ 143 ∧ perm.Perm (List.range fx.2.length)) :
    dhTrain sort std init num ce opt step perm perms o numIdx catIdx shared cats nums params ≠ .ok o' := by
  intro h
  obtain ⟨ox, _, oy, oym, oc, ocm⟩ := (C151_init mk fx rows fy hn).2.2 o ho
  obtain ⟨hno, s, net, obj, hs, hb, ht, ho'⟩ := (C151_train sort std init num ce opt step perm perms o o' numIdx catIdx shared cats nums params).1 h
  rw [ox] at hs
  obtain ⟨h1, h2⟩ := C149_init_partial sort hsort std ⟨some fx, some o.y, some catIdx, some numIdx, none, (params.getD dhParams).1, false⟩ fx o.y rfl rfl rfl rfl catIdx rfl
  obtain ⟨hne, _, hcount, _, _⟩ := h1.1 ⟨s, hs⟩
  obtain ⟨hd, _⟩ := h2 s hs
  simp only [Option.getD_some] at hne hcount
  rcases hsmall with hall | ⟨hp, hrows, hperm⟩
  · have : o.y = [] := by
      rw [List.eq_nil_iff_forall_not_mem]
      intro e he
      obtain ⟨g1, g2⟩ := (oym e).1 he
      exact g2 (hall e g1)
    rw [this] at hcount
    simp only [List.length_nil, Nat.add_eq_zero_iff, List.length_eq_zero_iff] at hcount
    rcases hne with h | h
    · exact h hcount.1
    · exact h hcount.2
  · subst hp
    have hx : s.x.length = fx.2.length := hd.2.2.2.1
    exact C149_small_violated num ce opt step perm perms s (by rw [hx]; exact hperm) (by omega) net [] obj ht

end

/-- The parameters for the examples: a categorical and a numerical one, and two with one value, one of them missing in the first row. -/
def dhExY : List (String × List (Option Rat)) :=
  [("p", (List.range 33).map fun i => some ((i % 2 : Nat) : Rat)), ("const", List.replicate 33 (some 7)), ("q", (List.range 33).map fun i => some (i : Rat)),
    ("fraction", none :: List.replicate 32 (some 5))]

/-- A recommendation after the start and the training of the examples. -/
def dhExRun (mk : List (String × Option Rat) → Bool) (y : List (String × List (Option Rat))) (numIdx catIdx : List String) (cats : List (List Nat)) (params : Option (Bool × HpTrain Rat)) :
    Except Err (List (List (String × (Option Rat ⊕ Rat)))) := do
  let o ← dhInit mk (["f"], (List.range 33).map fun i => [if i = 4 then none else some ((i % 3 : Nat) : Rat)]) 33 y
  let o ← dhTrain (List.insertionSort (· ≤ ·)) (fun _ => 1) hpExInit (fun v => match v with | some q => .ok q | none => .error .valueError) hpExCe (fun _ => 0) hpExStep (List.range 33)
    (fun _ => List.range 29) o numIdx catIdx [] cats [] params
  dhFromFeatures o (.list [[some 2], [none]])

/-- The recommendation with all four parameters; the second constant is missing.  The detector must be made with three of the four. -/
example : (dhExRun (fun d => d.map (·.1) = ["p", "const", "q"]) dhExY ["q"] ["p"] [[]] (some (false, ⟨1, 3, 10, "SGD", 1 / 10, some 20⟩))).toOption =
    some [[("p", Sum.inl (some 0)), ("q", Sum.inr 11), ("const", Sum.inl (some 7)), ("fraction", Sum.inl none)],
      [("p", Sum.inl (some 0)), ("q", Sum.inr 9), ("const", Sum.inl (some 7)), ("fraction", Sum.inl none)]] := by decide +kernel

/-- Layers for two categorical parameters are replaced; a constant that is named, a row the detector refuses and the default number of rows for a batch are failures. -/
example : (dhExRun (fun _ => true) dhExY ["q"] ["p"] [[2], [2]] (some (false, ⟨1, 3, 10, "SGD", 1 / 10, some 20⟩))).toOption.isSome = true ∧
    (dhExRun (fun _ => true) dhExY ["q", "const"] ["p"] [[]] (some (false, ⟨1, 3, 10, "SGD", 1 / 10, some 20⟩))).toOption.isNone = true ∧
    (dhExRun (fun d => decide (d.lookup "q" ≠ some (some 4))) dhExY ["q"] ["p"] [[]] (some (false, ⟨1, 3, 10, "SGD", 1 / 10, some 20⟩))).toOption.isNone = true ∧
    (dhExRun (fun _ => true) dhExY ["q"] ["p"] [[]] none).toOption.isNone = true := by
  refine ⟨?_, ?_, ?_, ?_⟩ <;> decide +kernel

example : (dhExY.map (·.1)).Nodup ∧ DhOne (List.replicate 33 (some (7 : Rat))) ∧ DhOne (none :: List.replicate 32 (some (5 : Rat))) := by
  refine ⟨by decide, ⟨7, by simp, ?_⟩, 5, by simp, ?_⟩
  · intro w hw
    simpa using hw
  · intro w hw
    simpa using hw

end Kats

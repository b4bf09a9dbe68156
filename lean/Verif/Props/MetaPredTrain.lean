import Verif.Props.MetaPredict

/-!
# C148: training for predictability, and new series
-/

namespace Kats

section
variable {K : Type} [Field K] [LinearOrder K]

/-- The same data as for the choice of models. -/
def mpAsMs (s : Mp K) : Ms K :=
  ⟨s.cols, List.replicate s.x.length [], s.x, List.replicate s.x.length "", s.mean, s.std, s.rescale⟩

theorem mp_as_stats (std : List K → K) (s : Mp K) (h : MpStats std s) : MsStats std (mpAsMs s) :=
  ⟨h.1, h.2.1, h.2.2, by simp [mpAsMs], by simp [mpAsMs]⟩

theorem mp_as_pre (std : List K → K) (pick : String → List Nat → Nat → List Nat) (s : Mp K) :
    (msPreprocess std pick false true (mpAsMs s)).x = (mpPreprocess s).x := rfl

/-- C148: scaling gives every column the mean zero and, if it is not constant, the variance one; a constant column becomes zero. -/
theorem C148_scale [IsStrictOrderedRing K] (std : List K → K)
    (hstd : ∀ l : List K, l ≠ [] → std l * std l = (l.map fun v => (v - l.sum / l.length) * (v - l.sum / l.length)).sum / l.length)
    (s : Mp K) (hs : MpStats std s) (hne : s.x ≠ []) (j : Nat) (hj : j < s.cols.length)
    (col : List K) (hcol : col = (mpPreprocess s).x.map fun r => r.getD j 0) :
    (mpPreprocess s).rescale = true ∧ (mpPreprocess s).labels = s.labels ∧ col.sum = 0 ∧
      ((∃ r ∈ s.x, ∃ r' ∈ s.x, r.getD j 0 ≠ r'.getD j 0) → (col.map fun v => v * v).sum / (col.length : K) = 1) ∧
      ((∀ r ∈ s.x, ∀ r' ∈ s.x, r.getD j 0 = r'.getD j 0) → ∀ v ∈ col, v = 0) := by
  obtain ⟨_, h2, h3, h4⟩ := C147_scale std hstd (fun _ _ _ => []) (mpAsMs s) (mp_as_stats std s hs) hne j hj col hcol
  exact ⟨rfl, rfl, h2, h3, h4⟩

/-- C148 violated: the features should have the mean zero after scaling.  If they are scaled twice, the mean of each column is the old mean, divided by the
deviation, with the other sign; new series are still scaled once. -/
theorem C148_twice_violated [IsStrictOrderedRing K] (std : List K → K) (s : Mp K) (hs : MpStats std s) (hne : s.x ≠ []) (j : Nat)
    (hj : j < s.cols.length) (t : Mp K) (ht : t = mpPreprocess (mpPreprocess s)) :
    (t.x.map fun r => r.getD j 0).sum / (t.x.length : K) = - s.mean.getD j 0 / s.std.getD j 0 ∧ t.mean = s.mean ∧ t.std = s.std := by
  subst ht
  obtain ⟨h1, _, _⟩ := C147_twice_violated std (fun _ _ _ => []) (mpAsMs s) (mp_as_stats std s hs) hne j hj _ rfl
  exact ⟨h1, rfl, rfl⟩

/-! ## New series -/

/-- One row: zeros for missing values, then scaled. -/
theorem mp_pred_one (s : Mp K) (clf : MpClf K) (r : List (Option K)) (hr : r.length = s.mean.length) :
    mpPredBy (some (s, some clf)) (.rows [r]) =
      (clf.proba (if s.rescale then List.zipWith (fun a b => a / b) (List.zipWith (fun a b => a - b) (r.map fun v => v.getD 0) s.mean) s.std
        else r.map fun v => v.getD 0)).map fun v => [decide (v < clf.threshold)] := by
  unfold mpPredBy mpClf
  show (if _ then _ else _) = _
  rw [if_neg (by simp)]
  have : mpScaleRow s r = .ok (if s.rescale then List.zipWith (fun a b => a / b) (List.zipWith (fun a b => a - b) (r.map fun v => v.getD 0) s.mean) s.std
        else r.map fun v => v.getD 0) := by
    unfold mpScaleRow
    simp only []
    rw [if_pos (show (r.map fun v => v.getD 0).length = s.mean.length by rw [List.length_map, hr])]
    split <;> rfl
  rw [List.mapM_cons, List.mapM_nil, this]
  clear this
  generalize (if s.rescale = true then List.zipWith (fun a b => a / b)
    (List.zipWith (fun a b => a - b) (r.map fun v => v.getD 0) s.mean) s.std else r.map fun v => v.getD 0) = q
  show (do
    let p ← [q].mapM clf.proba
    pure (p.map fun v => decide (v < clf.threshold))) = _
  rw [List.mapM_cons, List.mapM_nil]
  generalize clf.proba _ = o
  rcases o with _ | c <;> rfl

/-- C148: for features in the order of the columns, with missing values or not, the classifier gets the row that it would be trained with, with and without scaling, and the
series is predictable exactly if the probability of the label 1 is below the threshold. -/
theorem C148_same (std : List K → K) (s : Mp K) (hs : MpStats std s) (hsc : s.rescale = false) (hd : s.cols.Nodup) (clf : MpClf K)
    (f : List (String × Option K)) (hf : f.map (·.1) = s.cols) (row : List K) (hrow : row = s.cols.map fun c => ((f.lookup c).join).getD 0) :
    mpPredBy (some (s, some clf)) (.rows [f.map (·.2)]) = (clf.proba row).map (fun v => [decide (v < clf.threshold)]) ∧
    ∃ row', mpPredBy (some (mpPreprocess s, some clf)) (.rows [f.map (·.2)]) = (clf.proba row').map (fun v => [decide (v < clf.threshold)]) ∧
      ∀ (i : Nat), s.x[i]? = some row → (mpPreprocess s).x[i]? = some row' := by
  have hlen : (f.map (·.2)).length = s.mean.length := by
    rw [hs.1, List.length_map, List.length_map, List.length_range, ← hf, List.length_map]
  have hval : (f.map (·.2)).map (fun v => v.getD 0) = row := by
    rw [hrow, ← hf, List.map_map, List.map_map]
    rw [← hf] at hd
    apply List.map_congr_left
    intro e he
    simp only [Function.comp_apply]
    have : f.lookup e.1 = some e.2 := by
      clear hf hlen hrow
      induction f with
      | nil => exact absurd he List.not_mem_nil
      | cons a f ih =>
        rw [List.map_cons, List.nodup_cons] at hd
        rcases List.mem_cons.1 he with rfl | he'
        · simp [List.lookup]
        · have hne : e.1 ≠ a.1 := fun h => hd.1 (h ▸ List.mem_map.2 ⟨e, he', rfl⟩)
          rcases a with ⟨a, b⟩
          rw [List.lookup_cons, beq_eq_false_iff_ne.2 hne]
          exact ih hd.2 he'
    rw [this, Option.join_some]
  refine ⟨?_, List.zipWith (fun a b => a / b) (List.zipWith (fun a b => a - b) row s.mean) s.std, ?_, ?_⟩
  · rw [mp_pred_one s clf _ hlen, hsc, hval]
    rfl
  · rw [mp_pred_one (mpPreprocess s) clf _ hlen, hval]
    rfl
  · intro i hi
    show (List.map _ s.x)[i]? = _
    rw [List.getElem?_map, hi]
    rfl

/-- C148 violated: a feature should be read by its name.  For a new series the values are taken in the order of its dictionary: the same features in another order
can give the other answer. -/
theorem C148_order_violated : ∃ (s : Mp Rat) (clf : MpClf Rat) (f g : List (String × Option Rat)), f.Perm g ∧ s.cols = f.map (·.1) ∧
    (mpPred (fun _ => f) (some (s, some clf)) "time" [] false).toOption = some true ∧
    (mpPred (fun _ => g) (some (s, some clf)) "time" [] false).toOption = some false := by
  refine ⟨⟨["level", "trend"], [], [], [0, 0], [1, 1], false⟩, ⟨fun r => .ok (r.getD 0 0), 1 / 2⟩,
    [("level", some 0), ("trend", some 1)], [("trend", some 1), ("level", some 0)], List.Perm.swap _ _ _, rfl, ?_, ?_⟩
  · decide +kernel
  · decide +kernel

/-- C148 violated: features may be given as a frame, and any series may be asked for, and without a trained classifier there should be the error that
tells so.  A frame is refused; so is a series whose time column is not named "time"; an object made to be loaded has an `AttributeError`. -/
theorem C148_refused_violated (std : List K → K) (m : Option (List (MpEntry K))) (thr : Rat) (s : Mp K) (clf : MpClf K) (x : MsInput K)
    (features : List GmFlt → List (String × Option K)) (obj : MpObj K) (timeCol : String) (ht : timeCol ≠ "time") (values : List GmFlt)
    (tsRescale : Bool) : mpPredBy (some (s, some clf)) .frame = .error .valueError ∧
      mpPred features obj timeCol values tsRescale = .error .valueError ∧
      mpInit std m thr true = .ok none ∧ mpPredBy (none : MpObj K) x = .error .attributeError ∧
      mpPredBy (some (s, none)) x = .error .valueError := by
  refine ⟨rfl, ?_, rfl, rfl, rfl⟩
  unfold mpPred
  rw [if_pos ht]

/-- C148: the answer for a series is that for the row of its features, computed after dividing by the largest value if asked for. -/
theorem C148_pred (features : List GmFlt → List (String × Option K)) (s : Mp K) (clf : MpClf K) (values : List GmFlt) (tsRescale : Bool)
    (hr : (features (if tsRescale then mdScale values else values)).length = s.mean.length) (b : Bool) :
    mpPred features (some (s, some clf)) "time" values tsRescale = .ok b ↔
      mpPredBy (some (s, some clf)) (.rows [(features (if tsRescale then mdScale values else values)).map (·.2)]) = .ok [b] := by
  unfold mpPred
  rw [if_neg (by simp)]
  show (mpPredBy _ _ >>= _) = _ ↔ _
  rw [mp_pred_one s clf _ (by rw [List.length_map]; exact hr)]
  generalize clf.proba _ = o
  rcases o with _ | v
  · exact ⟨fun h => (by cases h), fun h => (by cases h)⟩
  · show Except.ok _ = Except.ok b ↔ Except.ok _ = Except.ok [b]
    simp

/-! ## Training -/

/-- C148: with a test set, the rows are split into training, validation and test; the last two have the sizes asked for, rounded down, and none is
empty. -/
theorem C148_sets_partial (perm perm' : List Nat) (n k : Nat) (hp : perm.Perm (List.range n)) (a : MpArgs K) (train valid test : List Nat)
    (hp' : ∀ j, perm.length - ⌊(n : Rat) * a.validSize⌋.toNat = j → perm'.Perm (List.range j))
    (h : mpSets perm perm' n k a = .ok (train, valid, some test)) :
    n = k ∧ 0 < a.validSize ∧ 0 < a.testSize ∧ a.testSize + a.validSize < 1 ∧ (train ++ valid ++ test).Perm (List.range n) ∧
      (valid.length : Int) = ⌊(n : Rat) * a.validSize⌋ ∧ (test.length : Int) = ⌊(n : Rat) * a.testSize⌋ ∧
      train ≠ [] ∧ valid ≠ [] ∧ test ≠ [] := by
  have hfl : ∀ q : Rat, Rat.floor q = ⌊q⌋ := fun q => rfl
  unfold mpSets at h
  split at h
  · cases h
  rename_i hv
  push Not at hv
  split at h
  · cases h
  rename_i hk
  rw [not_not] at hk
  obtain ⟨ts, hts0⟩ : ∃ ts, ts = (if a.testSize ≤ 0 ∨ 1 ≤ a.testSize then (0 : Rat) else a.testSize) := ⟨_, rfl⟩
  simp only [] at h
  rw [← hts0] at h
  obtain ⟨v, hvs, h⟩ := (gm_bind_ok _ _ _).1 h
  split at h
  swap
  · injection h with h
    injection h with _ h
    injection h with _ h
    cases h
  rename_i hts
  obtain ⟨t, htt, h⟩ := (gm_bind_ok _ _ _).1 h
  injection h with h
  injection h with e1 h
  injection h with e2 h
  injection h with e3
  have htest : ts = a.testSize ∧ 0 < a.testSize := by
    by_cases hc : a.testSize ≤ 0 ∨ 1 ≤ a.testSize
    · rw [hts0, if_pos hc] at hts
      exact absurd hts.1 (lt_irrefl _)
    · rw [hts0, if_neg hc]
      push Not at hc
      exact ⟨rfl, hc.1⟩
  rw [htest.1] at hts htt
  rw [hfl] at hvs htt
  have hpl : perm.length = n := by rw [hp.length_eq, List.length_range]
  unfold mpSplit at hvs htt
  split at hvs
  · cases hvs
  rename_i hv0
  push Not at hv0
  injection hvs with hvs
  split at htt
  · cases htt
  rename_i ht0
  push Not at ht0
  injection htt with htt
  subst hvs htt
  simp only [] at e1 e2 e3 ht0
  obtain ⟨nv, hnv⟩ : ∃ nv, nv = ⌊(n : Rat) * a.validSize⌋.toNat := ⟨_, rfl⟩
  obtain ⟨nt, hnt⟩ : ∃ nt, nt = ⌊(n : Rat) * a.testSize⌋.toNat := ⟨_, rfl⟩
  rw [← hnv] at hv0 e1 e2 e3 ht0 hp'
  rw [← hnt] at e1 e3 ht0
  rw [List.length_drop, hpl] at ht0
  have hp'' := hp' (n - nv) (by rw [hpl])
  have hpl' : perm'.length = n - nv := by rw [hp''.length_eq, List.length_range]
  have hn0 : (0 : Rat) ≤ (n : Rat) := by exact_mod_cast Nat.zero_le n
  have f1 : (nv : Int) = ⌊(n : Rat) * a.validSize⌋ := by
    rw [hnv, Int.toNat_of_nonneg (Int.floor_nonneg.2 (mul_nonneg hn0 hv.1.le))]
  have f2 : (nt : Int) = ⌊(n : Rat) * a.testSize⌋ := by
    rw [hnt, Int.toNat_of_nonneg (Int.floor_nonneg.2 (mul_nonneg hn0 htest.2.le))]
  have l1 : valid.length = nv := by rw [← e2, List.length_take, hpl]; omega
  have l2 : test.length = nt := by rw [← e3, List.length_map, List.length_take, hpl']; omega
  have l3 : train.length = n - nv - nt := by rw [← e1, List.length_map, List.length_drop, hpl']
  refine ⟨hk, hv.1, htest.2, by linarith [hts.2], ?_, by rw [l1, f1], by rw [l2, f2], ?_, ?_, ?_⟩
  · have hsub : (train ++ test).Perm (perm.drop nv) := by
      rw [← e1, ← e3, ← List.map_append]
      have q1 : (perm'.drop nt ++ perm'.take nt).Perm (List.range (n - nv)) := by
        refine List.Perm.trans List.perm_append_comm ?_
        rw [List.take_append_drop]
        exact hp''
      refine (q1.map _).trans ?_
      have q2 : (List.range (n - nv)).map (fun i => (perm.drop nv).getD i 0) = perm.drop nv := by
        apply List.ext_getElem
        · simp [hpl]
        · intro i h1 h2
          rw [List.getElem_map, List.getElem_range, gmp_getD _ _ _ h2]
      rw [q2]
    have q3 : (train ++ valid ++ test).Perm (valid ++ (train ++ test)) := by
      rw [List.append_assoc]
      refine (List.Perm.append_left train List.perm_append_comm).trans ?_
      rw [← List.append_assoc]
      exact List.perm_append_comm
    refine q3.trans ?_
    refine (List.Perm.append_left valid hsub).trans ?_
    rw [← e2, List.take_append_drop]
    exact hp
  · intro h0
    rw [h0, List.length_nil] at l3
    omega
  · intro h0
    rw [h0, List.length_nil] at l1
    omega
  · intro h0
    rw [h0, List.length_nil] at l2
    omega

/-- C148 violated: the validation set is for the choice of the threshold, and the test size may be zero.  Without a test size (or with one that does not
fit) all rows are for training, those of the validation as well. -/
theorem C148_leak_violated (perm perm' : List Nat) (n : Nat) (hp : perm.Perm (List.range n)) (a : MpArgs K) (h0 : 0 < a.validSize)
    (h1 : a.validSize < 1) (hn : 1 ≤ (n : Rat) * a.validSize) (ht : a.testSize ≤ 0 ∨ 1 - a.validSize ≤ a.testSize) :
    ∃ train valid, mpSets perm perm' n n a = .ok (train, valid, none) ∧ valid ≠ [] ∧ ∀ i ∈ valid, i ∈ train := by
  have hfl : Rat.floor ((n : Rat) * a.validSize) = ⌊(n : Rat) * a.validSize⌋ := rfl
  obtain ⟨nv, hnv⟩ : ∃ nv, nv = ⌊(n : Rat) * a.validSize⌋.toNat := ⟨_, rfl⟩
  have hpl : perm.length = n := by rw [hp.length_eq, List.length_range]
  have g1 : 1 ≤ ⌊(n : Rat) * a.validSize⌋ := Int.le_floor.2 (by exact_mod_cast hn)
  have hn0 : (0 : Rat) < (n : Rat) := by
    rcases Nat.eq_zero_or_pos n with h | h
    · rw [h] at hn
      norm_num at hn
    · exact_mod_cast h
  have g2 : ⌊(n : Rat) * a.validSize⌋ < (n : Int) := Int.floor_lt.2 (by
    have : (n : Rat) * a.validSize < (n : Rat) * 1 := mul_lt_mul_of_pos_left h1 hn0
    rw [mul_one] at this
    exact_mod_cast this)
  refine ⟨List.range n, perm.take nv, ?_, ?_, ?_⟩
  · unfold mpSets
    rw [if_neg (by push Not; exact ⟨h0, h1⟩), if_neg (by simp), gm_bind_ok]
    refine ⟨(perm.drop nv, perm.take nv), ?_, ?_⟩
    · unfold mpSplit
      rw [hfl, ← hnv, if_neg (by omega)]
    · rw [if_neg]
      · rfl
      · by_cases hc : a.testSize ≤ 0 ∨ 1 ≤ a.testSize
        · rw [if_pos hc]
          exact fun h => lt_irrefl _ h.1
        · rw [if_neg hc]
          push Not at hc
          rcases ht with ht | ht
          · exact absurd ht (not_le.2 hc.1)
          · exact fun h => absurd ht (not_le.2 h.2)
  · intro h
    have := congrArg List.length h
    rw [List.length_take, List.length_nil] at this
    omega
  · intro i hi
    exact hp.mem_iff.1 (List.mem_of_mem_take hi)

/-- C148 violated: `n_neighbors` is the number of neighbors.  It has no influence: there are always five. -/
theorem C148_neighbors_violated (fit : MpMake → List (List K) → List Bool → Except Err (List K → Except Err K)) (perm perm' : List Nat)
    (s : Mp K) (a : MpArgs K) (k : Int) : mpTrain fit perm perm' s { a with nNeighbors := k } = mpTrain fit perm perm' s a ∧
      mpMake "KNN" a.nEstimators k = ⟨"KNN", some 5, none⟩ := ⟨rfl, rfl⟩

/-- C148: the classifier is made with the rows for training and its threshold with those for validation; with a test set the report has the part of its rows with the
right label, where a row has the label 1 if its probability is greater than the threshold. -/
theorem C148_train (fit : MpMake → List (List K) → List Bool → Except Err (List K → Except Err K)) (perm perm' : List Nat) (s : Mp K)
    (a : MpArgs K) (clf : MpClf K) (rep : Option (MpReport K)) (h : mpTrain fit perm perm' s a = .ok (clf, rep)) :
    a.method ∈ ["RandomForest", "GBDT", "KNN", "NaiveBayes"] ∧
    ∃ (train valid : List Nat) (test : Option (List Nat)) (p : List K), mpSets perm perm' s.x.length s.labels.length a = .ok (train, valid, test) ∧
      (∃ mk : MpMake, mk.method = a.method ∧ (a.method = "RandomForest" → mk.trees = some a.nEstimators) ∧
        fit mk (train.map fun i => s.x.getD i []) (train.map fun i => s.labels.getD i false) = .ok clf.proba) ∧
      List.Forall₂ (fun i v => clf.proba (s.x.getD i []) = .ok v) valid p ∧
      clf.threshold = mpThreshold (p.zip (valid.map fun i => s.labels.getD i false)) a.recall ∧
      (test = none ↔ rep = none) ∧
      ∀ ix, test = some ix → ∃ (r : MpReport K) (q : List K), rep = some r ∧ List.Forall₂ (fun i v => clf.proba (s.x.getD i []) = .ok v) ix q ∧
        r.accuracy = (((ix.zip q).countP fun e => decide (s.labels.getD e.1 false = true ↔ clf.threshold < e.2) : Nat) : K) / (ix.length : K) := by
  unfold mpTrain at h
  split at h
  · cases h
  rename_i hm
  rw [not_not] at hm
  obtain ⟨⟨train, valid, test⟩, hs, h⟩ := (gm_bind_ok _ _ _).1 h
  simp only [] at h
  obtain ⟨c, hc, h⟩ := (gm_bind_ok _ _ _).1 h
  obtain ⟨p, hp, h⟩ := (gm_bind_ok _ _ _).1 h
  have hp' := mapM_forall2 _ _ _ hp
  rw [List.forall₂_map_left_iff] at hp'
  have hmk : (mpMake a.method a.nEstimators a.nNeighbors).method = a.method ∧
      (a.method = "RandomForest" → (mpMake a.method a.nEstimators a.nNeighbors).trees = some a.nEstimators) := by
    refine ⟨?_, ?_⟩
    · unfold mpMake
      split
      · rfl
      · split <;> rfl
    · intro h
      rw [h]
      rfl
  refine ⟨hm, train, valid, test, p, hs, ?_⟩
  rcases test with _ | ix
  · injection h with h
    injection h with e1 e2
    subst e1 e2
    exact ⟨⟨_, hmk.1, hmk.2, hc⟩, hp', rfl, ⟨fun _ => rfl, fun _ => rfl⟩, fun ix h => (by cases h)⟩
  · obtain ⟨q, hq, h⟩ := (gm_bind_ok _ _ _).1 h
    injection h with h
    injection h with e1 e2
    subst e1 e2
    have hq' := mapM_forall2 _ _ _ hq
    rw [List.forall₂_map_left_iff] at hq'
    refine ⟨⟨_, hmk.1, hmk.2, hc⟩, hp', rfl, ⟨fun h => (by cases h), fun h => (by cases h)⟩, ?_⟩
    intro ix' hix
    injection hix with hix
    subst hix
    refine ⟨_, q, rfl, hq', ?_⟩
    simp only [mpReport]
    have hz : ((ix.map fun i => s.labels.getD i false).zip (q.map fun v => decide (mpThreshold (p.zip (valid.map fun i => s.labels.getD i false)) a.recall < v))) =
        (ix.zip q).map fun e => (s.labels.getD e.1 false, decide (mpThreshold (p.zip (valid.map fun i => s.labels.getD i false)) a.recall < e.2)) := by
      rw [List.zip_map]
      rfl
    rw [hz, List.countP_map, List.length_map, List.length_zip, ← hq'.length_eq, min_self]
    congr 2
    apply List.countP_congr
    intro e _
    simp only [Function.comp_apply, decide_eq_true_eq]
    generalize s.labels.getD e.1 false = b
    by_cases hlt : mpThreshold (p.zip (valid.map fun i => s.labels.getD i false)) a.recall < e.2 <;> rcases b with _ | _ <;> simp [hlt]

/-- Precision, recall and F1 from the numbers of rows with the label 1, of rows taken for 1, and of both. -/
theorem mp_measures [IsStrictOrderedRing K] (labels pred : List Bool) (hl : labels.length = pred.length) (tp a b : Nat)
    (htp : tp = (labels.zip pred).countP fun e => e.1 && e.2) (ha : a = labels.countP id) (hb : b = pred.countP id) :
    (mpReport labels pred : MpReport K).precision = (if b = 0 then 0 else (tp : K) / (b : K)) ∧
      (mpReport labels pred : MpReport K).recall = (if a = 0 then 0 else (tp : K) / (a : K)) ∧
      (mpReport labels pred : MpReport K).f1 = (if tp = 0 then 0 else 2 * (tp : K) / ((a : K) + (b : K))) := by
  have hfp : tp + ((labels.zip pred).countP fun e => !e.1 && e.2) = b := by
    rw [htp, hb]
    clear * - hl
    induction labels generalizing pred with
    | nil => rcases pred with _ | ⟨_, _⟩ <;> simp at hl ⊢
    | cons x labels ih =>
      rcases pred with _ | ⟨y, pred⟩
      · simp at hl
      · have := ih pred (by simpa using hl)
        simp only [List.zip_cons_cons, List.countP_cons]
        rw [← this]
        rcases x with _ | _ <;> rcases y with _ | _ <;> simp <;> omega
  have hfn : tp + ((labels.zip pred).countP fun e => e.1 && !e.2) = a := by
    rw [htp, ha]
    clear * - hl
    induction labels generalizing pred with
    | nil => rcases pred with _ | ⟨_, _⟩ <;> simp at hl ⊢
    | cons x labels ih =>
      rcases pred with _ | ⟨y, pred⟩
      · simp at hl
      · have := ih pred (by simpa using hl)
        simp only [List.zip_cons_cons, List.countP_cons]
        rw [← this]
        rcases x with _ | _ <;> rcases y with _ | _ <;> simp <;> omega
  have hp : (mpReport labels pred : MpReport K).precision = (if b = 0 then 0 else (tp : K) / (b : K)) := by
    simp only [mpReport, ← htp, hfp]
  have hr : (mpReport labels pred : MpReport K).recall = (if a = 0 then 0 else (tp : K) / (a : K)) := by
    simp only [mpReport, ← htp, hfn]
  refine ⟨hp, hr, ?_⟩
  have hf : (mpReport labels pred : MpReport K).f1 = (if (mpReport labels pred : MpReport K).precision + (mpReport labels pred : MpReport K).recall = 0 then 0 else
      2 * (mpReport labels pred : MpReport K).precision * (mpReport labels pred : MpReport K).recall /
        ((mpReport labels pred : MpReport K).precision + (mpReport labels pred : MpReport K).recall)) := rfl
  rw [hf, hp, hr]
  rcases Nat.eq_zero_or_pos tp with h0 | h0
  · rw [h0]
    simp
  · have hb0 : 0 < b := by omega
    have ha0 : 0 < a := by omega
    rw [if_neg hb0.ne', if_neg ha0.ne', if_neg h0.ne']
    have k1 : (0 : K) < (tp : K) := by exact_mod_cast h0
    have k2 : (0 : K) < (a : K) := by exact_mod_cast ha0
    have k3 : (0 : K) < (b : K) := by exact_mod_cast hb0
    have k4 : (tp : K) / b + (tp : K) / a ≠ 0 := (add_pos (div_pos k1 k3) (div_pos k1 k2)).ne'
    rw [if_neg k4]
    have e : (tp : K) / b + (tp : K) / a = (tp : K) * ((a : K) + b) / (a * b) := by
      field_simp
    rw [e]
    have k5 : (a : K) + b ≠ 0 := (add_pos k2 k3).ne'
    field_simp

/-- C148: the report after training has the precision, the recall and the F1 score of the test set: the rows with both the label 1 and a probability greater than the threshold, divided by
the rows with the latter, by the rows with the former, and by the mean of the two numbers. -/
theorem C148_measures [IsStrictOrderedRing K] (fit : MpMake → List (List K) → List Bool → Except Err (List K → Except Err K)) (perm perm' : List Nat) (s : Mp K)
    (a : MpArgs K) (clf : MpClf K) (r : MpReport K) (h : mpTrain fit perm perm' s a = .ok (clf, some r))
    (train valid ix : List Nat) (hs : mpSets perm perm' s.x.length s.labels.length a = .ok (train, valid, some ix)) :
    ∃ q : List K, List.Forall₂ (fun i v => clf.proba (s.x.getD i []) = .ok v) ix q ∧ ∀ tp n m : Nat,
      tp = ((ix.zip q).countP fun e => decide (s.labels.getD e.1 false = true ∧ clf.threshold < e.2)) → n = (ix.countP fun i => s.labels.getD i false) →
      m = (q.countP fun v => decide (clf.threshold < v)) →
      r.precision = (if m = 0 then 0 else (tp : K) / (m : K)) ∧ r.recall = (if n = 0 then 0 else (tp : K) / (n : K)) ∧
      r.f1 = (if tp = 0 then 0 else 2 * (tp : K) / ((n : K) + (m : K))) := by
  unfold mpTrain at h
  split at h
  · cases h
  rw [hs] at h
  obtain ⟨_, e, h⟩ := (gm_bind_ok _ _ _).1 h
  injection e with e
  subst e
  simp only [] at h
  obtain ⟨c, hc, h⟩ := (gm_bind_ok _ _ _).1 h
  obtain ⟨p, hp, h⟩ := (gm_bind_ok _ _ _).1 h
  obtain ⟨q, hq, h⟩ := (gm_bind_ok _ _ _).1 h
  injection h with h
  injection h with e1 e2
  injection e2 with e2
  have hq' := mapM_forall2 _ _ _ hq
  rw [List.forall₂_map_left_iff] at hq'
  have ht : clf.threshold = mpThreshold (p.zip (valid.map fun i => s.labels.getD i false)) a.recall := by rw [← e1]
  have hcl : clf.proba = c := by rw [← e1]
  rw [← ht] at e2
  refine ⟨q, by rw [hcl]; exact hq', ?_⟩
  intro tp n m htp hn hm
  rw [← e2]
  refine mp_measures _ _ (by rw [List.length_map, List.length_map, hq'.length_eq]) tp n m ?_ ?_ ?_
  · rw [htp, List.zip_map, List.countP_map]
    apply List.countP_congr
    intro e _
    simp
  · rw [hn, List.countP_map]
    rfl
  · rw [hm, List.countP_map]
    rfl

/-- C148, the part that holds: without scaling, if no row of the test set has the threshold as its probability, the accuracy is the part of the test rows for
which `pred_by_feature` gives the right answer, predictable for the label 0. -/
theorem C148_report_partial [IsStrictOrderedRing K] (fit : MpMake → List (List K) → List Bool → Except Err (List K → Except Err K)) (perm perm' : List Nat) (s : Mp K)
    (a : MpArgs K) (clf : MpClf K) (r : MpReport K) (h : mpTrain fit perm perm' s a = .ok (clf, some r)) (hsc : s.rescale = false)
    (train valid ix : List Nat) (hs : mpSets perm perm' s.x.length s.labels.length a = .ok (train, valid, some ix))
    (hx : ∀ i ∈ ix, (s.x.getD i []).length = s.mean.length)
    (hv : ∀ i ∈ ix, clf.proba (s.x.getD i []) ≠ .ok clf.threshold) :
    r.accuracy = ((ix.countP fun i => decide ((mpPredBy (some (s, some clf)) (.rows [(s.x.getD i []).map some])).toOption =
      some [!s.labels.getD i false]) : Nat) : K) / (ix.length : K) := by
  obtain ⟨_, t1, t2, t3, p, hs', _, _, _, _, hrep⟩ := C148_train fit perm perm' s a clf (some r) h
  rw [hs] at hs'
  injection hs' with hs'
  injection hs' with _ hs'
  injection hs' with _ hs'
  obtain ⟨r', q, hr, hq, hacc⟩ := hrep ix hs'.symm
  injection hr with hr
  subst hr
  rw [hacc]
  congr 2
  clear hacc hrep hs hs' h
  induction hq with
  | nil => rfl
  | @cons i v ix q hi hq ih =>
    rw [List.zip_cons_cons, List.countP_cons, List.countP_cons,
      ih (fun j hj => hx j (List.mem_cons_of_mem _ hj)) (fun j hj => hv j (List.mem_cons_of_mem _ hj))]
    congr 1
    have hid : ((s.x.getD i []).map some).map (fun v : Option K => v.getD 0) = s.x.getD i [] := by
      rw [List.map_map]
      exact List.map_id' _
    have hp := mp_pred_one s clf ((s.x.getD i []).map some) (by rw [List.length_map]; exact hx i List.mem_cons_self)
    rw [hsc, hid, if_neg (by simp), hi] at hp
    rw [hp]
    have hne : v ≠ clf.threshold := fun h => hv i List.mem_cons_self (by rw [hi, h])
    show (if decide (s.labels.getD i false = true ↔ clf.threshold < v) = true then 1 else 0) =
      if decide (some [decide (v < clf.threshold)] = some [!s.labels.getD i false]) = true then 1 else 0
    generalize s.labels.getD i false = b
    rcases lt_or_gt_of_ne hne with hlt | hlt
    · rcases b with _ | _ <;> simp [hlt, not_lt.2 hlt.le]
    · rcases b with _ | _ <;> simp [hlt, not_lt.2 hlt.le]

end

/-- C148 violated: the report should judge the answers that are given.  A probability equal to the threshold, as is found in validation, is taken for predictable by the report and for unpredictable by
`pred_by_feature`: here the only answer is right, and the accuracy zero. -/
theorem C148_tie_violated : ∃ (fit : MpMake → List (List Rat) → List Bool → Except Err (List Rat → Except Err Rat)) (s : Mp Rat) (a : MpArgs Rat),
    ((mpTrain fit [0, 1, 2, 3, 4] [0, 1, 2] s a).toOption.map fun t => (t.1.threshold, t.2.map fun r => r.accuracy)) = some (3 / 10, some 0) ∧
    s.x[2]? = some [1] ∧ s.labels[2]? = some true ∧
    ((mpTrain fit [0, 1, 2, 3, 4] [0, 1, 2] s a).toOption.bind fun t => (mpPredBy (some (s, some t.1)) (.rows [[some 1]])).toOption) = some [false] := by
  refine ⟨fun _ _ _ => .ok fun r => .ok (if r = [1] then 3 / 10 else if r = [2] then 3 / 10 else 1 / 10),
    ⟨["level"], [[1], [2], [1], [0], [0]], [true, false, true, false, false], [0], [1], false⟩, ⟨"KNN", 2 / 5, 1 / 5, 7 / 10, 500, 5⟩, ?_, rfl, rfl, ?_⟩
  · decide +kernel
  · decide +kernel

/-- Two of three rows with the label 1 are found, and one more is taken for 1. -/
example : ((mpReport [true, true, true, false, false] [true, true, false, true, false] : MpReport Rat).precision,
    (mpReport [true, true, true, false, false] [true, true, false, false, false] : MpReport Rat).recall,
    (mpReport [true, true, true, false, false] [true, true, false, false, false] : MpReport Rat).f1) = (2 / 3, 2 / 3, 4 / 5) := by
  decide +kernel

/-- Five rows, two for the validation and one for the test. -/
example : (mpSets [3, 0, 1, 4, 2] [2, 0, 1] 5 5 (⟨"KNN", 2 / 5, 1 / 5, 7 / 10, 500, 5⟩ : MpArgs Rat)).toOption = some ([1, 4], [3, 0], some [2]) := by
  decide +kernel

/-- Without a test size the rows for the validation are for training too. -/
example : (mpSets [3, 0, 1, 4, 2] [] 5 5 (⟨"KNN", 2 / 5, 0, 7 / 10, 500, 5⟩ : MpArgs Rat)).toOption = some ([0, 1, 2, 3, 4], [3, 0], none) := by
  decide +kernel

/-- A missing value becomes zero and is then scaled, as in training. -/
example : (mpPredBy (some (⟨["level", "trend"], [[3, 0], [1, 2]], [true, false], [2, 1], [1, 1], true⟩, some ⟨fun r => .ok (r.getD 0 0 + r.getD 1 0), 1⟩) :
    MpObj Rat) (.rows [[some 3, none], [some 3, some 2]])).toOption = some [true, false] := by
  decide +kernel

/-- Thirty-two entries, one of them without its best model in the results: accepted, but without one label. -/
example : ∃ (m : List (MpEntry Rat)) (s : Mp Rat), (mpInit (fun _ => 1) (some m) (1 / 5) false).toOption.map (fun o => o.map fun s => (s.x.length, s.labels.length)) =
    some (some (32, 31)) ∧ (s = mpReorganize (fun _ => 1) (1 / 5) m ∧ s.labels.take 2 = [true, false]) := by
  refine ⟨⟨some (.dict [("theta", .pinf)]), some (.dict [("level", some 1)]), some "theta"⟩ ::
    List.replicate 30 ⟨some (.dict [("theta", .nan)]), some (.text (.ok [("level", none)])), some "theta"⟩ ++
      [⟨some (.dict [("theta", .fin 1)]), some (.dict [("level", some 1)]), some "arima"⟩], _, ?_, rfl, ?_⟩
  · decide +kernel
  · decide +kernel

end Kats

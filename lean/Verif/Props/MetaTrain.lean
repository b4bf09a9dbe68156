import Verif.Props.MetaPrep
import Verif.Props.GmEvaluate

/-!
# C147: training, and the choice for a new series
-/

namespace Kats

section
variable {K : Type} [Field K] [LinearOrder K]

/-! ## What is refused or read wrongly -/

/-- C147 violated: without meta data there should be the error "Missing metadata!".  The length is taken first: a `TypeError`. -/
theorem C147_none_violated (std : List K → K) : msInit std none false = .error .typeError := rfl

/-- C147 violated: features may be texts, as from a file.  If those of the first entry are, the meta data are refused. -/
theorem C147_text_violated (std : List K → K) (m : List (MsEntry K)) (e : MsEntry K) (he : m.head? = some e)
    (r : Except Err (List (String × Option K))) (hr : e.features = some (.text r)) :
    ∀ s, msInit std (some m) false ≠ .ok (some s) := by
  intro s h
  obtain ⟨_, _, f0, _, ⟨e', he', hf⟩, _⟩ := (C147_init std m s).1 h
  rw [he] at he'
  injection he' with he'
  rw [← he', hr] at hf
  injection hf with hf
  cases hf

/-- C147 violated: a feature should be in the column of its name.  The values are taken by position: for an entry with the same features in another
order they are in the wrong columns. -/
theorem C147_order_violated : ∃ (m : List (MsEntry Rat)) (e : MsEntry Rat) (s : Ms Rat) (row : List Rat),
    e.features = some (.dict [("trend", some 2), ("level", some 1)]) ∧ m[30]? = some e ∧
      msInit (fun _ => 1) (some m) false = .ok (some s) ∧ s.cols = ["level", "trend"] ∧ s.x[30]? = some row ∧ row = [2, 1] := by
  obtain ⟨e0, he0⟩ : ∃ e0 : MsEntry Rat, e0 = ⟨some (.dict []), some (.dict [("level", some 1), ("trend", some 2)]), some "arima"⟩ := ⟨_, rfl⟩
  obtain ⟨e1, he1⟩ : ∃ e1 : MsEntry Rat, e1 = ⟨some (.dict []), some (.dict [("trend", some 2), ("level", some 1)]), some "theta"⟩ := ⟨_, rfl⟩
  have key : ∀ o : Except Err (Option (Ms Rat)), o.toOption.join.map (fun s => (s.cols, s.x[30]?)) = some (["level", "trend"], some [2, 1]) →
      ∃ s, o = .ok (some s) ∧ s.cols = ["level", "trend"] ∧ s.x[30]? = some [2, 1] := by
    intro o h
    rcases o with _ | ⟨_ | s⟩
    · cases h
    · cases h
    · have h : some (s.cols, s.x[30]?) = some (["level", "trend"], some [2, 1]) := h
      injection h with h
      injection h with h1 h2
      exact ⟨s, rfl, h1, h2⟩
  obtain ⟨s, h1, h2, h3⟩ := key (msInit (fun _ => 1) (some (List.replicate 30 e0 ++ [e1])) false) (by subst he0 he1; decide +kernel)
  exact ⟨List.replicate 30 e0 ++ [e1], e1, s, [2, 1], by rw [he1], by simp, h1, h2, h3, rfl⟩

/-- C147, the part that holds: if an entry has the features of the first in the same order, each is in the column of its name. -/
theorem C147_rows_partial (std : List K → K) (m : List (MsEntry K)) (s : Ms K) (h : msInit std (some m) false = .ok (some s)) (i : Nat)
    (e : MsEntry K) (he : m[i]? = some e) (f : List (String × Option K)) (hf : e.features = some (.dict f) ∨ e.features = some (.text (.ok f)))
    (hn : f.map (·.1) = s.cols) (hd : s.cols.Nodup) :
    ∃ row, s.x[i]? = some row ∧ row.length = s.cols.length ∧ s.y[i]? = e.best ∧
      ∀ (j : Nat) (name : String), s.cols[j]? = some name → row[j]? = some (((f.lookup name).join).getD 0) := by
  obtain ⟨_, rows, f0, h1, _, _, _, h5, _, h7, _, h9, _⟩ := (C147_init std m s).1 h
  have hi : i < m.length := (List.getElem?_eq_some_iff.1 he).1
  have hi' : i < rows.length := by rw [← h1.length_eq]; exact hi
  have hr : MsReads m[i] rows[i].1 rows[i].2.1 rows[i].2.2 := h1.get hi hi'
  have hme : m[i] = e := by rw [List.getElem?_eq_getElem hi] at he; injection he
  rw [hme] at hr
  have hrf : rows[i].2.1 = f := by
    rcases hr.2.1 with g | g <;> rcases hf with hf | hf <;> rw [hf] at g
    · injection g with g; injection g with g; exact g.symm
    · injection g with g; cases g
    · injection g with g; cases g
    · injection g with g; injection g with g; injection g with g; exact g.symm
  have hlen : f0.length = s.cols.length := by rw [h5, List.length_map]
  refine ⟨(List.range f0.length).map (fun j => ((rows[i].2.1.map (·.2))[j]?.join).getD 0), ?_, ?_, ?_, ?_⟩
  · rw [h9, List.getElem?_map, List.getElem?_eq_getElem hi', Option.map_some]
  · rw [List.length_map, List.length_range, hlen]
  · rw [h7, List.getElem?_map, List.getElem?_eq_getElem hi', Option.map_some, hr.2.2]
  · intro j name hj
    have hjl := (List.getElem?_eq_some_iff.1 hj).1
    rw [List.getElem?_map, List.getElem?_range (by omega), Option.map_some, hrf]
    congr 3
    rw [← hn] at hj hd
    clear * - hj hd
    induction f generalizing j with
    | nil => simp at hj
    | cons a f ih =>
      rw [List.map_cons, List.nodup_cons] at hd
      rcases j with _ | j
      · rw [List.map_cons, List.getElem?_cons_zero] at hj
        injection hj with hj
        subst hj
        simp [List.lookup]
      · rw [List.map_cons, List.getElem?_cons_succ] at hj
        have hne : name ≠ a.1 := by
          intro e
          exact hd.1 (e ▸ List.mem_of_getElem? hj)
        rw [List.map_cons, List.getElem?_cons_succ, ih hd.2 j hj]
        rcases a with ⟨a, b⟩
        rw [List.lookup_cons, beq_eq_false_iff_ne.2 hne]

/-! ## Training -/

/-- The error a list of models has for rows with their errors, by an average. -/
def MsErrorIs (em : List K → K) (hpt : List (List (String × K))) (labels : List String) (v : K) : Prop :=
  ∃ l : List K, List.Forall₂ (fun (e : List (String × K) × String) x => e.1.lookup e.2 = some x) (hpt.zip labels) l ∧ v = em l

theorem ms_error (em : List K → K) (hpt : List (List (String × K))) (labels : List String) (v : K)
    (h : msError em hpt labels = .ok v) : MsErrorIs em hpt labels v := by
  unfold msError at h
  obtain ⟨l, hl, h⟩ := (gm_bind_ok _ _ _).1 h
  injection h with h
  refine ⟨l, ?_, h.symm⟩
  refine (mapM_forall2 _ _ _ hl).imp ?_
  intro a b hab
  unfold msErr at hab
  split at hab
  · rename_i v hv
    injection hab with hab
    rw [hv, hab]
  · cases hab

/-- C147: training refuses other methods, and sizes outside (0, 1).  Otherwise ⌈n·size⌉ of the rows are kept for the test and at least one for
training, the classifier sees no row of the test, and what is reported are the average errors, for both sets, of the models the classifier chooses and of every
model that is the best somewhere, and the part of the test set for which the best model is found. -/
theorem C147_train (fit : String → List (List K) → List String → Except Err (MsClf K)) (perm : List Nat) (s : Ms K)
    (hperm : perm.Perm (List.range s.x.length)) (method evalMethod : String) (testSize : Rat) (clf : MsClf K) (rep : MsReport K)
    (hml : "meta-learn" ∉ s.y) (h : msTrain fit perm s method evalMethod testSize = .ok (clf, rep)) :
    method ∈ ["RandomForest", "GBDT", "SVM", "KNN", "NaiveBayes"] ∧ (evalMethod = "mean" ∨ evalMethod = "median") ∧
      0 < testSize ∧ testSize < 1 ∧
      ∃ (train test : List Nat) (yFit yPred : List String), (train ++ test).Perm (List.range s.x.length) ∧
        (test.length : Int) = ⌈(s.x.length : Rat) * testSize⌉ ∧ train ≠ [] ∧
        fit method (train.map fun i => s.x.getD i []) (train.map fun i => s.y.getD i "") = .ok clf ∧
        List.Forall₂ (fun i c => clf.predict (s.x.getD i []) = .ok c) train yFit ∧
        List.Forall₂ (fun i c => clf.predict (s.x.getD i []) = .ok c) test yPred ∧
        (∃ a b, rep.fit.lookup "meta-learn" = some a ∧ rep.pred.lookup "meta-learn" = some b ∧
          MsErrorIs (if evalMethod = "mean" then gmEnsMean else gmEnsMedian) (train.map fun i => s.hpt.getD i []) yFit a ∧
          MsErrorIs (if evalMethod = "mean" then gmEnsMean else gmEnsMedian) (test.map fun i => s.hpt.getD i []) yPred b) ∧
        (∀ c ∈ s.y, ∃ a b, rep.fit.lookup c = some a ∧ rep.pred.lookup c = some b ∧
          MsErrorIs (if evalMethod = "mean" then gmEnsMean else gmEnsMedian) (train.map fun i => s.hpt.getD i []) (train.map fun _ => c) a ∧
          MsErrorIs (if evalMethod = "mean" then gmEnsMean else gmEnsMedian) (test.map fun i => s.hpt.getD i []) (test.map fun _ => c) b) ∧
        rep.accuracy = ((((test.map fun i => s.y.getD i "").zip yPred).countP fun e => decide (e.1 = e.2) : Nat) : K) / (test.length : K) := by
  unfold msTrain at h
  split at h
  · cases h
  rename_i hm
  rw [not_not] at hm
  split at h
  · cases h
  rename_i he
  have he : evalMethod = "mean" ∨ evalMethod = "median" := by
    by_contra hc
    push Not at hc
    exact he hc
  split at h
  · cases h
  rename_i hq
  push Not at hq
  obtain ⟨p, hp, h⟩ := (gm_bind_ok _ _ _).1 h
  simp only [] at h
  obtain ⟨c', hfit, h⟩ := (gm_bind_ok _ _ _).1 h
  obtain ⟨yFit, hyf, h⟩ := (gm_bind_ok _ _ _).1 h
  obtain ⟨yPred, hyp, h⟩ := (gm_bind_ok _ _ _).1 h
  obtain ⟨a, ha, h⟩ := (gm_bind_ok _ _ _).1 h
  obtain ⟨b, hb, h⟩ := (gm_bind_ok _ _ _).1 h
  obtain ⟨l, hl, h⟩ := (gm_bind_ok _ _ _).1 h
  injection h with h
  injection h with e1 e2
  subst e1
  unfold msSplit at hp
  simp only [] at hp
  split at hp
  · cases hp
  rename_i hsp
  injection hp with hp
  obtain ⟨t, ht⟩ : ∃ t, t = (Rat.ceil ((s.x.length : Rat) * testSize)).toNat := ⟨_, rfl⟩
  rw [← ht] at hp hsp
  have hpl : perm.length = s.x.length := by rw [hperm.length_eq, List.length_range]
  have hceil : (t : Int) = ⌈(s.x.length : Rat) * testSize⌉ := by
    have : Rat.ceil ((s.x.length : Rat) * testSize) = ⌈(s.x.length : Rat) * testSize⌉ := by
      rw [Rat.ceil_eq_neg_floor_neg]; rfl
    rw [ht, this, Int.toNat_of_nonneg]
    exact Int.ceil_nonneg (mul_nonneg (by exact_mod_cast Nat.zero_le _) hq.1.le)
  have hle : t ≤ s.x.length := by omega
  subst hp
  simp only [] at hfit hyf hyp ha hb hl e2
  obtain ⟨em, hem⟩ : ∃ em : List K → K, em = if evalMethod = "mean" then gmEnsMean else gmEnsMedian := ⟨_, rfl⟩
  rw [← hem] at ha hb hl ⊢
  have hkeys : l.map (fun e => e.1.1) = msClasses s.y ∧ l.map (fun e => e.2.1) = msClasses s.y ∧
      ∀ e ∈ l, MsErrorIs em ((perm.drop t).map fun i => s.hpt.getD i []) ((perm.drop t).map fun _ => e.1.1) e.1.2 ∧
        MsErrorIs em ((perm.take t).map fun i => s.hpt.getD i []) ((perm.take t).map fun _ => e.1.1) e.2.2 := by
    have := mapM_forall2 _ _ _ hl
    clear * - this
    generalize msClasses s.y = cs at this
    induction this with
    | nil => simp
    | cons hab _ ih =>
      rename_i c e cs l _
      unfold msLabel at hab
      obtain ⟨a, ha, hab⟩ := (gm_bind_ok _ _ _).1 hab
      obtain ⟨b, hb, hab⟩ := (gm_bind_ok _ _ _).1 hab
      injection hab with hab
      subst hab
      refine ⟨by simp [ih.1], by simp [ih.2.1], ?_⟩
      intro e he
      rcases List.mem_cons.1 he with rfl | he
      · have ha := ms_error _ _ _ _ ha
        have hb := ms_error _ _ _ _ hb
        rw [List.map_map] at ha hb
        exact ⟨ha, hb⟩
      · exact ih.2.2 e he
  obtain ⟨k1, k2, k3⟩ := hkeys
  obtain ⟨c1, c2⟩ := ms_classes s.y
  have n1 : ((l.map (·.1)).map (·.1)).Nodup := by rw [List.map_map]; exact k1 ▸ c1
  have n2 : ((l.map (·.2)).map (·.1)).Nodup := by rw [List.map_map]; exact k2 ▸ c1
  have hlook : ∀ (d : List (String × K)) (k : String) (v : K), (d.map (·.1)).Nodup → (k, v) ∈ d → d.lookup k = some v := by
    clear * -
    intro d k v hd hm
    induction d with
    | nil => exact absurd hm List.not_mem_nil
    | cons e d ih =>
      rw [List.map_cons, List.nodup_cons] at hd
      rcases List.mem_cons.1 hm with rfl | hm'
      · simp [List.lookup]
      · have hne : k ≠ e.1 := fun h => hd.1 (h ▸ List.mem_map.2 ⟨_, hm', rfl⟩)
        rcases e with ⟨a, b⟩
        rw [List.lookup_cons, beq_eq_false_iff_ne.2 hne]
        exact ih hd.2 hm'
  have hnone : ∀ (d : List (String × K)) (k : String), k ∉ d.map (·.1) → d.lookup k = none := by
    intro d k hk
    rw [List.lookup_eq_none_iff]
    intro p hp
    rw [bne_iff_ne]
    exact fun h => hk (h ▸ List.mem_map.2 ⟨p, hp, rfl⟩)
  have hyp' := mapM_forall2 _ _ _ hyp
  have hyf' := mapM_forall2 _ _ _ hyf
  rw [List.forall₂_map_left_iff] at hyp' hyf'
  have htl : (perm.take t).length = t := by rw [List.length_take, hpl]; omega
  refine ⟨hm, he, hq.1, hq.2, perm.drop t, perm.take t, yFit, yPred, ?_, ?_, ?_, hfit, hyf', hyp', ?_, ?_, ?_⟩
  · refine List.Perm.trans ?_ hperm
    refine List.Perm.trans List.perm_append_comm ?_
    rw [List.take_append_drop]
  · rw [htl, hceil]
  · intro hd
    rw [List.drop_eq_nil_iff] at hd
    omega
  · refine ⟨a, b, ?_, ?_, ms_error _ _ _ _ ha, ms_error _ _ _ _ hb⟩
    · rw [← e2]
      simp only []
      rw [update_lookup _ _ _ n1, hnone]
      · simp [List.lookup]
      · rw [List.map_map]
        intro hmem
        exact hml ((c2 _).1 (k1 ▸ hmem))
    · rw [← e2]
      simp only []
      rw [update_lookup _ _ _ n2, hnone]
      · simp [List.lookup]
      · rw [List.map_map]
        intro hmem
        exact hml ((c2 _).1 (k2 ▸ hmem))
  · intro c hc
    have hc1 : c ∈ l.map (fun e => e.1.1) := by rw [k1]; exact (c2 c).2 hc
    obtain ⟨e, hel, rfl⟩ := List.mem_map.1 hc1
    have hee : e.2.1 = e.1.1 := by
      have : l.map (fun e => e.1.1) = l.map (fun e => e.2.1) := k1.trans k2.symm
      exact (List.map_inj_left.1 this e hel).symm
    obtain ⟨w1, w2⟩ := k3 e hel
    refine ⟨e.1.2, e.2.2, ?_, ?_, w1, w2⟩
    · rw [← e2]
      simp only []
      rw [update_lookup _ _ _ n1, hlook _ _ e.1.2 n1 (List.mem_map.2 ⟨e, hel, rfl⟩)]
      rfl
    · rw [← e2]
      simp only []
      rw [update_lookup _ _ _ n2, hlook _ _ e.2.2 n2 (List.mem_map.2 ⟨e, hel, by rw [← hee]⟩)]
      rfl
  · rw [← e2]
    simp only [gmEnsMean]
    have hlz : (((perm.take t).map fun i => s.y.getD i "").zip yPred).length = (perm.take t).length := by
      rw [List.length_zip, List.length_map, ← hyp'.length_eq, min_self]
    rw [List.length_map, hlz]
    congr 1
    generalize ((perm.take t).map fun i => s.y.getD i "").zip yPred = z
    clear * -
    induction z with
    | nil => simp
    | cons e z ih =>
      rw [List.map_cons, List.sum_cons, ih, List.countP_cons]
      by_cases h : e.1 = e.2
      · simp [h, add_comm]
      · simp [h]

/-- C147: if the classifier chooses for every row a model with the least error, the errors of the choice, by their mean and by their median, are for both
sets at most those of any fixed model. -/
theorem C147_oracle [IsStrictOrderedRing K] (fit : String → List (List K) → List String → Except Err (MsClf K)) (perm : List Nat) (s : Ms K)
    (hperm : perm.Perm (List.range s.x.length)) (method evalMethod : String) (testSize : Rat) (clf : MsClf K) (rep : MsReport K)
    (hml : "meta-learn" ∉ s.y) (h : msTrain fit perm s method evalMethod testSize = .ok (clf, rep))
    (hbest : ∀ i < s.x.length, ∀ c, clf.predict (s.x.getD i []) = .ok c → ∀ c' v v', (s.hpt.getD i []).lookup c = some v →
      (s.hpt.getD i []).lookup c' = some v' → v ≤ v') :
    ∃ a b, rep.fit.lookup "meta-learn" = some a ∧ rep.pred.lookup "meta-learn" = some b ∧
      ∀ c ∈ s.y, ∃ a' b', rep.fit.lookup c = some a' ∧ rep.pred.lookup c = some b' ∧ a ≤ a' ∧ b ≤ b' := by
  obtain ⟨_, _, hq, _, train, test, yFit, yPred, hp, htl, htr, _, hf, hp', ⟨a, b, h1, h2, h3, h4⟩, h5, _⟩ :=
    C147_train fit perm s hperm method evalMethod testSize clf rep hml h
  obtain ⟨em, hem⟩ : ∃ em : List K → K, em = if evalMethod = "mean" then gmEnsMean else gmEnsMedian := ⟨_, rfl⟩
  have hav : IsAverage em := by
    rw [hem]
    split
    · exact C142_mean.1
    · exact C142_median.1
  rw [← hem] at h3 h4 h5
  have hmem : ∀ i ∈ train ++ test, i < s.x.length := fun i hi => List.mem_range.1 (hp.mem_iff.1 hi)
  have hpos : 0 < s.x.length := by
    obtain ⟨i, hi⟩ := List.exists_mem_of_ne_nil train htr
    have := hmem i (List.mem_append_left _ hi)
    omega
  have hte : test ≠ [] := by
    intro h0
    rw [h0, List.length_nil] at htl
    have : 0 < ⌈(s.x.length : Rat) * testSize⌉ := Int.ceil_pos.2 (mul_pos (by exact_mod_cast hpos) hq)
    omega
  have key : ∀ (ix : List Nat) (labels : List String) (c : String) (a b : K), ix ≠ [] → (∀ i ∈ ix, i < s.x.length) →
      List.Forall₂ (fun i c => clf.predict (s.x.getD i []) = .ok c) ix labels →
      MsErrorIs em (ix.map fun i => s.hpt.getD i []) labels a → MsErrorIs em (ix.map fun i => s.hpt.getD i []) (ix.map fun _ => c) b → a ≤ b := by
    intro ix labels c a b hne hix hpr ha hb
    obtain ⟨la, hla, rfl⟩ := ha
    obtain ⟨lb, hlb, rfl⟩ := hb
    have hle : List.Forall₂ (· ≤ ·) la lb ∧ la.length = ix.length := by
      clear hne
      induction hpr generalizing la lb with
      | nil =>
        rcases hla
        rcases hlb
        exact ⟨List.Forall₂.nil, rfl⟩
      | cons hab _ ih =>
        rw [List.map_cons, List.zip_cons_cons] at hla
        rw [List.map_cons, List.map_cons, List.zip_cons_cons] at hlb
        rcases hla with _ | ⟨g1, g2⟩
        rcases hlb with _ | ⟨k1, k2⟩
        obtain ⟨i1, i2⟩ := ih (fun i hi => hix i (List.mem_cons_of_mem _ hi)) _ g2 _ k2
        exact ⟨List.Forall₂.cons (hbest _ (hix _ List.mem_cons_self) _ hab _ _ _ g1 k1) i1, by rw [List.length_cons, List.length_cons, i2]⟩
    refine hav.mono _ _ hle.1 ?_
    intro h0
    rw [h0, List.length_nil] at hle
    exact hne (List.length_eq_zero_iff.1 hle.2.symm)
  refine ⟨a, b, h1, h2, ?_⟩
  intro c hc
  obtain ⟨a', b', g1, g2, g3, g4⟩ := h5 c hc
  exact ⟨a', b', g1, g2, key train yFit c a a' htr (fun i hi => hmem i (List.mem_append_left _ hi)) hf h3 g3,
    key test yPred c b b' hte (fun i hi => hmem i (List.mem_append_right _ hi)) hp' h4 g4⟩

/-! ## New series -/

theorem ms_order (p : List K) : (msOrder p).Perm (List.range p.length) ∧ (msOrder p).Pairwise (fun i j => p.getD j 0 ≤ p.getD i 0) := by
  unfold msOrder
  have : Std.Total (fun i j : Nat => p.getD j 0 ≤ p.getD i 0) := ⟨fun i j => le_total _ _⟩
  have : IsTrans Nat (fun i j : Nat => p.getD j 0 ≤ p.getD i 0) := ⟨fun a b c h1 h2 => le_trans h2 h1⟩
  exact ⟨List.perm_insertionSort _ _, List.pairwise_insertionSort _ _⟩

/-- C147: the classes given for `n_top` are different, as many as asked for if there are so many, in the order of their probability, and none that is
left out is more probable. -/
theorem C147_top (clf : MsClf K) (n : Nat) (r p : List K) (hp : clf.proba r = .ok p) (hl : p.length = clf.classes.length)
    (hd : clf.classes.Nodup) : ∃ ix : List Nat, msTop clf n r = .ok (ix.map fun i => clf.classes.getD i "") ∧
      (ix.map fun i => clf.classes.getD i "").Nodup ∧ (∀ i ∈ ix, i < p.length) ∧ ix.length = min n clf.classes.length ∧
      ix.Pairwise (fun i j => p.getD j 0 ≤ p.getD i 0) ∧ ∀ i ∈ ix, ∀ j < p.length, j ∉ ix → p.getD j 0 ≤ p.getD i 0 := by
  obtain ⟨o1, o2⟩ := ms_order p
  have hol : (msOrder p).length = p.length := by rw [o1.length_eq, List.length_range]
  have hnd : (msOrder p).Nodup := o1.nodup_iff.2 List.nodup_range
  refine ⟨(msOrder p).take n, ?_, ?_, ?_, ?_, o2.sublist (List.take_sublist _ _), ?_⟩
  · unfold msTop
    rw [gm_bind_ok]
    refine ⟨p, hp, ?_⟩
    show Except.ok _ = _
    congr 1
    unfold pyTo pyIdx
    rw [if_neg (by omega), List.length_map, Int.toNat_natCast, ← List.map_take]
    congr 1
    rcases le_total n (msOrder p).length with h | h
    · rw [min_eq_left h]
    · rw [min_eq_right h, List.take_of_length_le (le_refl _), List.take_of_length_le h]
  · rw [List.nodup_map_iff_inj_on (hnd.sublist (List.take_sublist _ _))]
    intro i hi j hj hij
    have hi := List.mem_range.1 (o1.mem_iff.1 (List.mem_of_mem_take hi))
    have hj := List.mem_range.1 (o1.mem_iff.1 (List.mem_of_mem_take hj))
    rw [gmp_getD _ _ _ (by omega), gmp_getD _ _ _ (by omega)] at hij
    exact (List.Nodup.getElem_inj_iff hd).1 hij
  · intro i hi
    exact List.mem_range.1 (o1.mem_iff.1 (List.mem_of_mem_take hi))
  · rw [List.length_take, hol, hl]
  · intro i hi j hj hji
    have hj : j ∈ msOrder p := o1.mem_iff.2 (List.mem_range.2 hj)
    rw [← List.take_append_drop n (msOrder p), List.mem_append] at hj
    rcases hj with hj | hj
    · exact absurd hj hji
    · rw [← List.take_append_drop n (msOrder p), List.pairwise_append] at o2
      exact o2.2.2 i hi j hj

/-- C147 violated: features may be given as a frame.  A frame is refused with an error about its truth value. -/
theorem C147_frame_violated (s : Ms K) (clf : MsClf K) (nTop : Int) :
    msPredBy (some (s, some clf)) .frame nTop = .error .valueError := rfl

/-- C147 violated: without a trained classifier there should be the error that tells so.  For an object made to be loaded it is an
`AttributeError`, though not for one with meta data. -/
theorem C147_loaded_violated (std : List K → K) (m : Option (List (MsEntry K))) (x : MsInput K) (nTop : Int) :
    msInit std m true = .ok none ∧ msPredBy (none : MsObj K) x nTop = .error .attributeError ∧
      ∀ s : Ms K, msPredBy (some (s, none)) x nTop = .error .valueError := ⟨rfl, rfl, fun _ => rfl⟩

/-- One row is given to the classifier with zeros for missing values after it was scaled. -/
theorem ms_pred_one (s : Ms K) (clf : MsClf K) (r : List (Option K)) (hr : r.length = s.mean.length) :
    msPredBy (some (s, some clf)) (.rows [r]) 1 =
      (clf.predict ((if s.scale then List.zipWith (fun a b => a.map fun v => v / b) (List.zipWith (fun a b => a.map fun v => v - b) r s.mean) s.std
        else r).map fun v => v.getD 0)).map fun c => .inl [c] := by
  unfold msPredBy msClf
  show (if _ then _ else _) = _
  rw [if_neg (by simp)]
  have : msScaleRow s r = .ok (if s.scale then List.zipWith (fun a b => a.map fun v => v / b) (List.zipWith (fun a b => a.map fun v => v - b) r s.mean) s.std
        else r) := by
    unfold msScaleRow
    rw [if_pos hr]
    split <;> rfl
  rw [List.mapM_cons, List.mapM_nil, this]
  clear this
  generalize (if s.scale = true then List.zipWith (fun a b => a.map fun v => v / b)
    (List.zipWith (fun a b => a.map fun v => v - b) r s.mean) s.std else r) = q
  show (do
    let p ← [q.map fun (v : Option K) => v.getD 0].mapM clf.predict
    pure (Sum.inl p)) = _
  rw [List.mapM_cons, List.mapM_nil]
  generalize clf.predict _ = o
  rcases o with _ | c <;> rfl

/-- C147 violated: a missing feature should be for a new series what it is in the meta data, zero.  If features are scaled, it is the mean of the feature for a
new series, so that there are classifiers for which the choice is not that for zero. -/
theorem C147_nan_violated (s : Ms K) (hs : s.scale = true) (r : List (Option K)) (hr : r.length = s.mean.length)
    (hl : s.std.length = s.mean.length) (j : Nat) (hj : r[j]? = some none) (hm : s.mean.getD j 0 ≠ 0) (hd : s.std.getD j 0 ≠ 0) :
    ∃ clf : MsClf K, msPredBy (some (s, some clf)) (.rows [r]) 1 = .ok (.inl ["a"]) ∧
      msPredBy (some (s, some clf)) (.rows [r.set j (some 0)]) 1 = .ok (.inl ["b"]) := by
  obtain ⟨clf, hclf⟩ : ∃ clf : MsClf K, clf = ⟨fun v => .ok (if v.getD j 0 = 0 then "a" else "b"), fun _ => .ok [], [], none⟩ := ⟨_, rfl⟩
  have hjl : j < r.length := (List.getElem?_eq_some_iff.1 hj).1
  have hget : ∀ r : List (Option K), r.length = s.mean.length →
      ((List.zipWith (fun a b => a.map fun v => v / b) (List.zipWith (fun a b => a.map fun v => v - b) r s.mean) s.std).map
        fun v => v.getD 0).getD j 0 = (((r[j]?.join).map fun v => v - s.mean.getD j 0).map fun v => v / s.std.getD j 0).getD 0 := by
    intro r hr
    rw [gmp_getD _ _ _ (by simp; omega), List.getElem_map, List.getElem_zipWith, List.getElem_zipWith,
      gmp_getD _ _ _ (by omega), gmp_getD _ _ _ (by omega), List.getElem?_eq_getElem (by omega), Option.join_some]
  refine ⟨clf, ?_, ?_⟩
  · rw [ms_pred_one s clf r hr, if_pos hs, hclf]
    simp only []
    rw [hget r hr, hj]
    simp [Except.map]
  · rw [ms_pred_one s clf _ (by rw [List.length_set, hr]), if_pos hs, hclf]
    simp only []
    rw [hget _ (by rw [List.length_set, hr]), List.getElem?_set_self hjl, Option.join_some, Option.map_some, Option.map_some, Option.getD_some,
      zero_sub, if_neg]
    · rfl
    · exact div_ne_zero (neg_ne_zero.2 hm) hd

/-- C147, the part that holds: without scaling a missing feature is zero for a new series as well. -/
theorem C147_nan_partial (s : Ms K) (hs : s.scale = false) (clf : MsClf K) (r : List (Option K)) (hr : r.length = s.mean.length) :
    msPredBy (some (s, some clf)) (.rows [r]) 1 = (clf.predict (r.map fun v => v.getD 0)).map (fun c => .inl [c]) ∧
      msPredBy (some (s, some clf)) (.rows [r]) 1 = msPredBy (some (s, some clf)) (.rows [r.map fun v => some (v.getD 0)]) 1 := by
  rw [ms_pred_one s clf r hr, ms_pred_one s clf _ (by rw [List.length_map, hr]), hs]
  simp only [Bool.false_eq_true, if_false, List.map_map]
  exact ⟨trivial, rfl⟩

/-- C147 violated: the preparation may be made in two calls, first scaling and then downsampling.  Then the means and deviations are those of the
scaled features, and the features of a row of the meta data give the classifier something else than it was trained with. -/
theorem C147_rescale_violated : ∃ (s t : Ms Rat) (raw row : List Rat),
    t = msPreprocess (fun _ => 1) (fun _ l n => l.take n) true false (msPreprocess (fun _ => 1) (fun _ l n => l.take n) false true s) ∧
      MsStats (fun _ => 1) s ∧ s.x[0]? = some raw ∧ t.x[0]? = some row ∧ t.scale = true ∧ ∃ clf : MsClf Rat, clf.predict row = .ok "a" ∧
        msPredBy (some (t, some clf)) (.rows [raw.map some]) 1 = .ok (.inl ["b"]) := by
  obtain ⟨s, hs⟩ : ∃ s : Ms Rat, s = ⟨["level"], [[], []], [[1], [3]], ["arima", "theta"], [2], [1], false⟩ := ⟨_, rfl⟩
  obtain ⟨t, ht⟩ : ∃ t, t = msPreprocess (fun _ => 1) (fun _ l n => l.take n) true false
    (msPreprocess (fun _ => 1) (fun _ l n => l.take n) false true s) := ⟨_, rfl⟩
  have h1 : t.x[0]? = some [(-1 : Rat)] := by rw [ht, hs]; decide +kernel
  have h2 : t.scale = true := by rw [ht, hs]; rfl
  have h3 : t.mean = [0] := by rw [ht, hs]; decide +kernel
  have h4 : t.std = [1] := by rw [ht, hs]; decide +kernel
  refine ⟨s, t, [1], [-1], ht, ?_, by rw [hs]; rfl, h1, h2, ⟨fun v => .ok (if v = [-1] then "a" else "b"), fun _ => .ok [], [], none⟩, ?_, ?_⟩
  · rw [hs]
    refine ⟨by decide +kernel, by decide +kernel, by decide +kernel, rfl, rfl⟩
  · simp
  · rw [ms_pred_one _ _ _ (by rw [h3]; rfl), if_pos h2, h3, h4]
    have : ((List.zipWith (fun (a : Option Rat) b => a.map fun v => v / b) (List.zipWith (fun (a : Option Rat) b => a.map fun v => v - b)
        (List.map some [(1 : Rat)]) [0]) [1]).map fun v => v.getD 0) = [1] := by decide +kernel
    simp only []
    rw [this]
    have h5 : ¬ ([(1 : Rat)] = [-1]) := by decide +kernel
    rw [if_neg h5]
    rfl

/-- C147 violated: the choice should be possible for any series.  The copy that is made loses the name of the time column: if it is not "time",
the series is refused. -/
theorem C147_time_violated (features : List GmFlt → List (String × Option K)) (samples : List (List Nat)) (obj : MsObj K) (timeCol : String)
    (ht : timeCol ≠ "time") (values : List GmFlt) (tsScale : Bool) (nTop : Int) (sig : K) :
    msPred features obj timeCol values tsScale nTop = .error .valueError ∧
      msFuzzy features samples obj timeCol values tsScale sig = .error .valueError := by
  unfold msPred msFuzzy
  rw [if_pos ht, if_pos ht]
  exact ⟨rfl, rfl⟩

/-- C147: the choice for a series is that for the row of its features, computed after dividing by the largest value if asked for. -/
theorem C147_pred (features : List GmFlt → List (String × Option K)) (s : Ms K) (clf : MsClf K) (values : List GmFlt) (tsScale : Bool)
    (c : String) : msPred features (some (s, some clf)) "time" values tsScale 1 = .ok (.inl c) ↔
      msPredBy (some (s, some clf)) (.rows [(features (if tsScale then mdScale values else values)).map (·.2)]) 1 = .ok (.inl [c]) := by
  unfold msPred
  rw [if_neg (by simp)]
  show (msPredBy _ _ 1 >>= msHead) = _ ↔ _
  generalize features _ = f
  have key : ∀ x, msPredBy (some (s, some clf)) (.rows [f.map (·.2)]) 1 = .ok x → ∃ c, x = .inl [c] := by
    intro x hx
    unfold msPredBy at hx
    obtain ⟨m, hm, hx⟩ := (gm_bind_ok _ _ _).1 hx
    simp only [] at hx
    split at hx
    · cases hx
    obtain ⟨l, hl, hx⟩ := (gm_bind_ok _ _ _).1 hx
    simp only [if_true] at hx
    obtain ⟨p, hp, hx⟩ := (gm_bind_ok _ _ _).1 hx
    injection hx with hx
    have h1 := (mapM_forall2 _ _ _ hl).length_eq
    have h2 := (mapM_forall2 _ _ _ hp).length_eq
    rw [List.length_map, ← h1] at h2
    rcases p with _ | ⟨c, _ | ⟨d, p⟩⟩
    · simp at h2
    · exact ⟨c, hx.symm⟩
    · simp at h2
  rw [gm_bind_ok]
  constructor
  · rintro ⟨x, hx, h⟩
    obtain ⟨d, rfl⟩ := key x hx
    simp only [msHead] at h
    injection h with h
    injection h with h
    rw [hx, h]
  · intro h
    exact ⟨_, h, rfl⟩

/-- C147: the fuzzy choice takes the two most probable classes for the scaled features, with zero for what is missing before; the p-value is the part
of the samples for which the trees prefer the second, and the second is named only if this is at least the level.  If no tree prefers the second, the p-value
is zero. -/
theorem C147_fuzzy [IsStrictOrderedRing K] (features : List GmFlt → List (String × Option K)) (samples : List (List Nat)) (s : Ms K)
    (clf : MsClf K) (trees : List (List K → List K)) (htr : clf.trees = some trees) (values : List GmFlt) (tsScale : Bool) (sig : K)
    (f : MsFuzzy K) (h : msFuzzy features samples (some (s, some clf)) "time" values tsScale sig = .ok f) :
    ∃ (r : List (Option K)) (prob : List K) (i j : Nat),
      msScaleRow s ((features (if tsScale then mdScale values else values)).map fun e => some (e.2.getD 0)) = .ok r ∧
      clf.proba (r.map fun v => v.getD 0) = .ok prob ∧ i ≠ j ∧ i < prob.length ∧ j < prob.length ∧
      (∀ k < prob.length, prob.getD k 0 ≤ prob.getD i 0) ∧ (∀ k < prob.length, k ≠ i → prob.getD k 0 ≤ prob.getD j 0) ∧
      f.pvalue = ((samples.countP fun l => decide ((l.map fun m =>
        (trees.map fun t => (t (r.map fun v => v.getD 0)).getD i 0 - (t (r.map fun v => v.getD 0)).getD j 0).getD m 0).sum < 0) : Nat) : K) /
          (samples.length : K) ∧ 0 ≤ f.pvalue ∧ f.pvalue ≤ 1 ∧
      (sig ≤ f.pvalue → f.label = [clf.classes.getD i "", clf.classes.getD j ""] ∧ f.probability = [prob.getD i 0, prob.getD j 0]) ∧
      (f.pvalue < sig → f.label = [clf.classes.getD i ""] ∧ f.probability = [prob.getD i 0]) ∧
      ((∀ t ∈ trees, (t (r.map fun v => v.getD 0)).getD j 0 ≤ (t (r.map fun v => v.getD 0)).getD i 0) → f.pvalue = 0) := by
  unfold msFuzzy at h
  rw [if_neg (by simp)] at h
  simp only [] at h
  obtain ⟨r, hr, h⟩ := (gm_bind_ok _ _ _).1 h
  rw [htr] at h
  simp only [] at h
  obtain ⟨prob, hp, h⟩ := (gm_bind_ok _ _ _).1 h
  rw [List.map_map] at hr
  obtain ⟨o1, o2⟩ := ms_order prob
  have hnd : (msOrder prob).Nodup := o1.nodup_iff.2 List.nodup_range
  have hlt : ∀ k, k ∈ msOrder prob ↔ k < prob.length := fun k => (o1.mem_iff).trans List.mem_range
  rcases ho : msOrder prob with _ | ⟨i, _ | ⟨j, rest⟩⟩
  · rw [ho] at h; cases h
  · rw [ho] at h; cases h
  rw [ho] at h o2 hnd
  simp only [ho] at hlt
  simp only [] at h
  obtain ⟨r', hr'⟩ : ∃ r', r' = r.map fun v => v.getD 0 := ⟨_, rfl⟩
  rw [← hr'] at h hp
  obtain ⟨diff, hdiff⟩ : ∃ diff, diff = trees.map fun t => (t r').getD i 0 - (t r').getD j 0 := ⟨_, rfl⟩
  have hneg : ∀ l : List K, gmEnsMean l < 0 ↔ l.sum < 0 := by
    intro l
    unfold gmEnsMean
    rcases l with _ | ⟨a, l⟩
    · simp
    · have hpos : (0 : K) < ((a :: l).length : K) := by exact_mod_cast Nat.succ_pos _
      rw [div_lt_iff₀ hpos, zero_mul]
  have hpv : msBootstrap samples (trees.map fun t => ((t r').getD i 0, (t r').getD j 0)) =
      ((samples.countP fun l => decide ((l.map fun m => diff.getD m 0).sum < 0) : Nat) : K) / (samples.length : K) := by
    unfold msBootstrap
    simp only [List.map_map]
    have : ((fun e : K × K => e.1 - e.2) ∘ fun t : List K → List K => ((t r').getD i 0, (t r').getD j 0)) =
        fun t => (t r').getD i 0 - (t r').getD j 0 := rfl
    rw [this, ← hdiff]
    unfold gmEnsMean
    rw [List.length_map]
    congr 1
    clear * - hneg
    induction samples with
    | nil => simp
    | cons l samples ih =>
      rw [List.map_cons, List.sum_cons, ih, List.countP_cons]
      have := hneg (l.map fun m => diff.getD m 0)
      unfold gmEnsMean at this
      by_cases hl : (l.map fun m => diff.getD m 0).sum < 0
      · rw [if_pos (this.2 hl), if_pos (decide_eq_true hl), Nat.cast_add, Nat.cast_one, add_comm]
      · rw [if_neg (fun h => hl (this.1 h)), if_neg (by rw [decide_eq_true_eq]; exact hl), Nat.add_zero, zero_add]
  rw [hpv] at h
  have hf : f.pvalue = ((samples.countP fun l => decide ((l.map fun m => diff.getD m 0).sum < 0) : Nat) : K) / (samples.length : K) ∧
      (sig ≤ f.pvalue → f.label = [clf.classes.getD i "", clf.classes.getD j ""] ∧ f.probability = [prob.getD i 0, prob.getD j 0]) ∧
      (f.pvalue < sig → f.label = [clf.classes.getD i ""] ∧ f.probability = [prob.getD i 0]) := by
    split at h
    · rename_i hsig
      injection h with h
      subst h
      exact ⟨rfl, fun _ => ⟨rfl, rfl⟩, fun hc => absurd hsig (not_le.2 hc)⟩
    · rename_i hsig
      injection h with h
      subst h
      exact ⟨rfl, fun hc => absurd hc hsig, fun _ => ⟨rfl, rfl⟩⟩
  obtain ⟨f1, f2, f3⟩ := hf
  rw [List.pairwise_cons] at o2
  rw [List.nodup_cons] at hnd
  have hpos : (0 : K) ≤ (samples.length : K) := by exact_mod_cast Nat.zero_le _
  refine ⟨r, prob, i, j, hr, hr' ▸ hp, ?_, (hlt i).1 (by simp), (hlt j).1 (by simp), ?_, ?_, ?_, ?_, ?_, f2, f3, ?_⟩
  · intro e
    exact hnd.1 (e ▸ List.mem_cons_self)
  · intro k hk
    rcases List.mem_cons.1 ((hlt k).2 hk) with rfl | hk
    · exact le_refl _
    · exact o2.1 k hk
  · intro k hk hki
    rcases List.mem_cons.1 ((hlt k).2 hk) with e | hk
    · exact absurd e hki
    · rcases List.mem_cons.1 hk with rfl | hk
      · exact le_refl _
      · exact (List.pairwise_cons.1 o2.2).1 k hk
  · rw [← hr', ← hdiff]
    exact f1
  · rw [f1]
    exact div_nonneg (by exact_mod_cast Nat.zero_le _) hpos
  · rw [f1]
    apply div_le_one_of_le₀ _ hpos
    exact_mod_cast List.countP_le_length
  · intro hall
    rw [f1]
    have : (samples.countP fun l => decide ((l.map fun m => diff.getD m 0).sum < 0)) = 0 := by
      rw [List.countP_eq_zero]
      intro l _
      rw [decide_eq_true_eq, not_lt]
      apply List.sum_nonneg
      intro x hx
      obtain ⟨m, _, rfl⟩ := List.mem_map.1 hx
      by_cases hm : m < diff.length
      · rw [gmp_getD _ _ _ hm]
        have hin : ∀ x ∈ diff, 0 ≤ x := by
          intro x hx
          rw [hdiff] at hx
          obtain ⟨t, ht, rfl⟩ := List.mem_map.1 hx
          rw [sub_nonneg, hr']
          exact hall t ht
        exact hin _ (List.getElem_mem hm)
      · rw [List.getD_eq_getElem?_getD, List.getElem?_eq_none (not_lt.1 hm), Option.getD_none]
    rw [this, Nat.cast_zero, zero_div]

end

/-- Three rows in two classes: the rows kept are one of each class. -/
example : MsPick (fun _ l n => l.take n) ∧ (let s : Ms Rat := ⟨["level"], [[], [], []], [[1], [3], [8]], ["a", "b", "a"], [4], [1], false⟩
    MsStats (fun _ => 1) s ∧ (msPreprocess (fun _ => 1) (fun _ l n => l.take n) true false s).x = [[1], [3]] ∧
      (msPreprocess (fun _ => 1) (fun _ l n => l.take n) true true s).x = [[-1], [1]]) := by
  refine ⟨?_, ?_⟩
  · intro c l n h1 h2
    exact ⟨h1.sublist (List.take_sublist _ _), by rw [List.length_take, min_eq_left h2], fun i hi => List.mem_of_mem_take hi⟩
  · refine ⟨⟨by decide +kernel, by decide +kernel, by decide +kernel, rfl, rfl⟩, by decide +kernel, by decide +kernel⟩

/-- Four rows, one for the test, and a classifier that looks at the sign: the fixed models have the errors 2 and 3 on the rows for training, the
choice 1. -/
example : ∃ (fit : String → List (List Rat) → List String → Except Err (MsClf Rat)) (s : Ms Rat),
    ((msTrain fit [0, 1, 2, 3] s "KNN" "mean" (1 / 4)).toOption.map fun r => (r.2.fit, r.2.accuracy)) =
      some ([("meta-learn", 1), ("arima", 3), ("theta", 2)], 1) ∧
    ((msTrain fit [0, 1, 2, 3] s "KNN" "median" (1 / 4)).toOption.map fun r => r.2.pred) =
      some [("meta-learn", 1), ("arima", 1), ("theta", 5)] := by
  refine ⟨fun _ _ _ => .ok ⟨fun r => .ok (if r.getD 0 0 < 0 then "arima" else "theta"), fun _ => .ok [], [], none⟩,
    ⟨["level"], [[("arima", 1), ("theta", 5)], [("arima", 4), ("theta", 1)], [("arima", 4), ("theta", 1)], [("arima", 1), ("theta", 4)]],
      [[-1], [2], [3], [-4]], ["arima", "theta", "theta", "arima"], [0], [1], false⟩, ?_, ?_⟩
  · decide +kernel
  · decide +kernel

/-- Three trees, two of which prefer the second class of the three; in one of two samples they do so on average. -/
example : ((msFuzzy (K := Rat) (fun _ => [("level", none)]) [[0, 0, 1], [1, 2, 2]]
      (some (⟨["level"], [], [], [], [1], [2], true⟩, some ⟨fun _ => .ok "a", fun r => .ok [r.getD 0 0 + 1, 2 / 5, 1 / 10], ["a", "b", "c"],
        some [fun _ => [1, 0, 0], fun _ => [0, 1, 0], fun _ => [1 / 4, 1 / 2, 0]]⟩)) "time" [.fin 1] false (1 / 10)).toOption.map
      fun f => (f.label, f.probability, f.pvalue)) = some (["a", "b"], [1 / 2, 2 / 5], 1 / 2) := by
  decide +kernel

end Kats

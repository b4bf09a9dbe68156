import Verif.Props.MetaThreshold

/-!
# C148: predictability by meta-learning
-/

namespace Kats

section
variable {K : Type} [Field K] [LinearOrder K]

/-! ## The meta data -/

/-- The entry has the features `f` and the error `v` of its best model. -/
def MpReads (e : MpEntry K) (f : List (String × Option K)) (v : GmFlt) : Prop :=
  ∃ h b, (e.hpt = some (.dict h) ∨ e.hpt = some (.text (.ok h))) ∧ (e.features = some (.dict f) ∨ e.features = some (.text (.ok f))) ∧
    e.best = some b ∧ h.lookup b = some v

/-- The means and deviations are those of the columns; all rows are as long as there are columns. -/
def MpStats (std : List K → K) (s : Mp K) : Prop :=
  s.mean = (List.range s.cols.length).map (fun j => (s.x.map fun r => r.getD j 0).sum / (s.x.length : K)) ∧
    s.std = (List.range s.cols.length).map (fun j =>
      if std (s.x.map fun r => r.getD j 0) = 0 then 1 else std (s.x.map fun r => r.getD j 0)) ∧
    ∀ r ∈ s.x, r.length = s.cols.length

omit [Field K] [LinearOrder K] in
theorem mp_read (e : MpEntry K) (f : List (String × Option K)) (v : GmFlt) (h : MpReads e f v) :
    ∃ hp, mpRead e = .ok (hp, f) ∧ mpError e hp = .ok v := by
  obtain ⟨hp, b, h1, h2, h3, h4⟩ := h
  refine ⟨hp, ?_, ?_⟩
  · unfold mpRead
    rcases h1 with h1 | h1 <;> rcases h2 with h2 | h2 <;> rw [h1, h2] <;> rfl
  · unfold mpError
    rw [h3]
    show needKey (hp.lookup b) = _
    rw [h4]
    rfl

omit [Field K] [LinearOrder K] in
theorem mp_all_read (m : List (MpEntry K)) (rows : List (List (String × Option K) × GmFlt))
    (h : List.Forall₂ (fun e t => MpReads e t.1 t.2) m rows) : mpFeatures m = rows.map (·.1) ∧ mpErrors m = rows.map (·.2) := by
  induction h with
  | nil => exact ⟨rfl, rfl⟩
  | cons hab _ ih =>
    obtain ⟨hp, h1, h2⟩ := mp_read _ _ _ hab
    obtain ⟨i1, i2⟩ := ih
    constructor
    · unfold mpFeatures at i1 ⊢
      rw [List.filterMap_cons, h1, List.map_cons, i1]
      rfl
    · unfold mpErrors at i2 ⊢
      rw [List.filterMap_cons, h1, List.map_cons, i2]
      rename_i a t m rows _
      have e1 : (do let r ← (Except.ok (hp, t.1) : Except Err _); mpError a r.1 : Except Err GmFlt) = .ok t.2 := h2
      rw [e1]
      rfl

theorem mp_label (t : Rat) (v : GmFlt) : gmLt (.fin t) v = true ↔ v = .pinf ∨ ∃ q, v = .fin q ∧ t < q := by
  rcases v with q | _ | _ | _
  · simp [gmLt, gmLe]
    exact fun h => h.le
  all_goals simp [gmLt, gmLe]

theorem mp_two (l : List Bool) (hne : l ≠ []) : l.dedup.length ≠ 1 ↔ (true ∈ l ∧ false ∈ l) := by
  have hn := List.nodup_dedup l
  have hm : ∀ b, b ∈ l.dedup ↔ b ∈ l := fun b => List.mem_dedup
  rcases hd : l.dedup with _ | ⟨a, _ | ⟨b, r⟩⟩
  · exact absurd ((List.dedup_eq_nil l).1 hd) hne
  · rw [hd] at hm
    simp only [List.length_singleton, ne_eq, not_true_eq_false, false_iff, not_and]
    intro h1 h2
    have e1 := (hm _).2 h1
    have e2 := (hm _).2 h2
    rw [List.mem_singleton] at e1 e2
    rw [← e2] at e1
    cases e1
  · rw [hd] at hm hn
    have hab : a ≠ b := by
      intro h
      rw [List.nodup_cons] at hn
      exact hn.1 (h ▸ List.mem_cons_self)
    have ha := (hm a).1 (by simp)
    have hb := (hm b).1 (by simp)
    constructor
    · intro _
      rcases a with _ | _ <;> rcases b with _ | _
      · exact absurd rfl hab
      · exact ⟨hb, ha⟩
      · exact ⟨ha, hb⟩
      · exact absurd rfl hab
    · intro _
      simp

theorem ms_classes_same (names : List String) (hn : names.Nodup) (n : Nat) :
    msClasses ((List.replicate (n + 1) names).flatten) = names := by
  unfold msClasses
  have key1 : ∀ (y l : List String), (l ++ y).Nodup → y.foldl (fun l c => if c ∈ l then l else l ++ [c]) l = l ++ y := by
    intro y
    induction y with
    | nil => intro l _; simp
    | cons a y ih =>
      intro l h
      rw [List.foldl_cons, if_neg, ih, List.append_assoc, List.singleton_append]
      · rw [List.append_assoc, List.singleton_append]; exact h
      · intro ha
        rw [List.nodup_append] at h
        exact h.2.2 a ha a List.mem_cons_self rfl
  have key2 : ∀ (y l : List String), (∀ a ∈ y, a ∈ l) → y.foldl (fun l c => if c ∈ l then l else l ++ [c]) l = l := by
    intro y
    induction y with
    | nil => intro l _; rfl
    | cons a y ih =>
      intro l h
      rw [List.foldl_cons, if_pos (h a List.mem_cons_self)]
      exact ih l fun b hb => h b (List.mem_cons_of_mem _ hb)
  rw [List.replicate_succ, List.flatten_cons, List.foldl_append, key1 names [] (by simpa using hn), List.nil_append]
  apply key2
  intro a ha
  obtain ⟨l, hl, hal⟩ := List.mem_flatten.1 ha
  rw [(List.mem_replicate.1 hl).2] at hal
  exact hal

/-- C148 (no data): without meta data nothing can be made except an empty object to load a model into. -/
theorem C148_no_data (std : List K → K) (thr : Rat) :
    mpInit std (none : Option (List (MpEntry K))) thr false = .error .valueError
    ∧ ∀ m, mpInit std m thr true = .ok none := ⟨rfl, fun _ => rfl⟩

/-- C148, the part that holds: if all entries can be read, the meta data are accepted exactly if there are more than 30 and both labels occur.  A row has
the label 1 exactly if its error is greater than the threshold; every feature is in the column of its name, with zero where it is missing or
NaN. -/
theorem C148_init_partial (std : List K → K) (m : List (MpEntry K)) (thr : Rat) (rows : List (List (String × Option K) × GmFlt))
    (hr : List.Forall₂ (fun e t => MpReads e t.1 t.2) m rows) :
    ((∃ s, mpInit std (some m) thr false = .ok (some s)) ↔ 30 < m.length ∧ (∃ t ∈ rows, t.2 = .pinf ∨ ∃ q, t.2 = .fin q ∧ thr < q) ∧
      ∃ t ∈ rows, ¬ (t.2 = .pinf ∨ ∃ q, t.2 = .fin q ∧ thr < q)) ∧
    ∀ s, mpInit std (some m) thr false = .ok (some s) → s.rescale = false ∧ MpStats std s ∧
      List.Forall₂ (fun (t : List (String × Option K) × GmFlt) b => b = true ↔ t.2 = .pinf ∨ ∃ q, t.2 = .fin q ∧ thr < q) rows s.labels ∧
      s.x = rows.map (fun t => s.cols.map fun c => ((t.1.lookup c).join).getD 0) ∧
      s.cols.Nodup ∧ (∀ c, c ∈ s.cols ↔ ∃ t ∈ rows, c ∈ t.1.map (·.1)) ∧
      ∀ names : List String, names.Nodup → (∀ t ∈ rows, t.1.map (·.1) = names) → s.cols = names := by
  obtain ⟨h1, h2⟩ := mp_all_read m rows hr
  have hlen := hr.length_eq
  have hlab : ∀ b, b ∈ (rows.map (·.2)).map (fun e => gmLt (.fin thr) e) ↔ ∃ t ∈ rows, gmLt (.fin thr) t.2 = b := by
    intro b
    rw [List.map_map, List.mem_map]
    rfl
  have hstep : ∀ s, mpInit std (some m) thr false = .ok (some s) ↔ 30 < m.length ∧
      ((rows.map (·.2)).map fun e => gmLt (.fin thr) e).dedup.length ≠ 1 ∧ s = mpReorganize std thr m := by
    intro s
    unfold mpInit
    rw [if_neg (by simp)]
    simp only []
    by_cases hm : m.length ≤ 30
    · rw [if_pos hm]
      exact ⟨fun h => (by cases h), fun h => by omega⟩
    rw [if_neg hm, if_neg]
    · have hx : (mpReorganize std thr m).x.length = m.length := by
        show (List.map _ (mpFeatures m)).length = _
        rw [List.length_map, h1, List.length_map, hlen]
      have hl : (mpReorganize std thr m).labels = (rows.map (·.2)).map fun e => gmLt (.fin thr) e := by
        show List.map _ (mpErrors m) = _
        rw [h2]
      rw [hl]
      by_cases hd : ((rows.map (·.2)).map fun e => gmLt (.fin thr) e).dedup.length = 1
      · rw [if_pos hd]
        exact ⟨fun h => (by cases h), fun h => absurd hd h.2.1⟩
      · rw [if_neg hd, if_neg (by rw [hx]; exact hm)]
        constructor
        · intro h
          injection h with h
          injection h with h
          exact ⟨by omega, hd, h.symm⟩
        · rintro ⟨_, _, rfl⟩
          rfl
    · rcases hr with _ | ⟨g1, g2⟩
      · simp
      · rw [List.head?_cons, Option.any_some]
        obtain ⟨hp, b, q1, q2, q3, _⟩ := g1
        have i1 : ∀ e : MpEntry K, (e.hpt = some (.dict hp) ∨ e.hpt = some (.text (.ok hp))) → e.hpt.isNone = false := by
          intro e h; rcases h with h | h <;> rw [h] <;> rfl
        rw [i1 _ q1, q3]
        rcases q2 with q2 | q2 <;> rw [q2] <;> simp
  constructor
  · constructor
    · rintro ⟨s, hs⟩
      obtain ⟨k1, k2, _⟩ := (hstep s).1 hs
      have hne : ((rows.map (·.2)).map fun e => gmLt (.fin thr) e) ≠ [] := by
        intro h0
        have := congrArg List.length h0
        simp only [List.length_map, List.length_nil] at this
        omega
      obtain ⟨k3, k4⟩ := (mp_two _ hne).1 k2
      obtain ⟨t, ht, e1⟩ := (hlab _).1 k3
      obtain ⟨t', ht', e2⟩ := (hlab _).1 k4
      refine ⟨k1, ⟨t, ht, (mp_label _ _).1 e1⟩, ⟨t', ht', ?_⟩⟩
      rw [← mp_label, e2]
      simp
    · rintro ⟨k1, ⟨t, ht, e1⟩, ⟨t', ht', e2⟩⟩
      refine ⟨_, (hstep _).2 ⟨k1, ?_, rfl⟩⟩
      refine (mp_two _ ?_).2 ⟨(hlab _).2 ⟨t, ht, (mp_label _ _).2 e1⟩, (hlab _).2 ⟨t', ht', ?_⟩⟩
      · intro h0
        have hm := (hlab true).2 ⟨t, ht, (mp_label _ _).2 e1⟩
        rw [h0] at hm
        exact absurd hm List.not_mem_nil
      · rw [← mp_label] at e2
        simpa using e2
  · intro s hs
    obtain ⟨_, _, rfl⟩ := (hstep s).1 hs
    obtain ⟨c1, c2⟩ := ms_classes ((mpFeatures m).flatMap fun f => f.map (·.1))
    have hx : (mpReorganize std thr m).x = rows.map (fun t => (mpReorganize std thr m).cols.map fun c => ((t.1.lookup c).join).getD 0) := by
      show List.map (mpRow (mpCols (mpFeatures m))) (mpFeatures m) = rows.map (fun t => (mpCols (mpFeatures m)).map fun c => ((t.1.lookup c).join).getD 0)
      conv_lhs => rw [show ∀ g : List (String × Option K) → List K, List.map g (mpFeatures m) = List.map g (rows.map (·.1)) from fun g => by rw [h1]]
      rw [List.map_map]
      rfl
    refine ⟨rfl, ⟨ms_mean_eq _ _, rfl, ?_⟩, ?_, hx, c1, ?_, ?_⟩
    · intro r hr
      rw [hx] at hr
      obtain ⟨t, _, rfl⟩ := List.mem_map.1 hr
      rw [List.length_map]
    · show List.Forall₂ _ rows (List.map _ (mpErrors m))
      rw [h2, List.map_map, List.forall₂_map_right_iff]
      exact List.forall₂_same.2 fun t _ => mp_label thr t.2
    · intro c
      show c ∈ msClasses _ ↔ _
      rw [c2, List.mem_flatMap, h1]
      constructor
      · rintro ⟨f, hf, hc⟩
        obtain ⟨t, ht, rfl⟩ := List.mem_map.1 hf
        exact ⟨t, ht, hc⟩
      · rintro ⟨t, ht, hc⟩
        exact ⟨t.1, List.mem_map.2 ⟨t, ht, rfl⟩, hc⟩
    · intro names hn hall
      show msClasses ((mpFeatures m).flatMap fun f => f.map (·.1)) = names
      rw [h1]
      obtain ⟨k1, _⟩ := (hstep _).1 hs
      have : ((rows.map (·.1)).flatMap fun f => f.map (·.1)) = (List.replicate (rows.length - 1 + 1) names).flatten := by
        rw [show rows.length - 1 + 1 = rows.length by omega, List.flatMap_def, List.map_map]
        congr 1
        rw [List.eq_replicate_iff]
        refine ⟨by simp, ?_⟩
        intro b hb
        obtain ⟨t, ht, rfl⟩ := List.mem_map.1 hb
        exact hall t ht
      rw [this]
      exact ms_classes_same names hn _

/-- C148 violated: a series without a forecast should not count as predictable.  A series whose error is NaN does, for every threshold. -/
theorem C148_nan_violated (std : List K → K) (m : List (MpEntry K)) (thr : Rat) (rows : List (List (String × Option K) × GmFlt))
    (hr : List.Forall₂ (fun e t => MpReads e t.1 t.2) m rows) (s : Mp K) (hs : mpInit std (some m) thr false = .ok (some s)) (i : Nat)
    (t : List (String × Option K) × GmFlt) (ht : rows[i]? = some t) (hn : t.2 = .nan) : s.labels[i]? = some false := by
  obtain ⟨_, _, hl, _⟩ := (C148_init_partial std m thr rows hr).2 s hs
  have hi : i < rows.length := (List.getElem?_eq_some_iff.1 ht).1
  have hi' : i < s.labels.length := by rw [← hl.length_eq]; exact hi
  have := hl.get hi hi'
  have hri : rows[i] = t := by rw [List.getElem?_eq_getElem hi] at ht; injection ht
  simp only [List.get_eq_getElem] at this
  rw [hri, hn] at this
  rw [List.getElem?_eq_getElem hi']
  congr 1
  by_contra hc
  have hb : s.labels[i] = true := by
    rcases h : s.labels[i] with _ | _
    · exact absurd h hc
    · rfl
  rcases this.1 hb with h | ⟨q, h, _⟩ <;> cases h

/-- C148 violated: an entry that cannot be read should be left out.  If only its best model or the error of this is missing, its features are kept and no
label: the data are accepted as others, but training is refused, with every classifier and all arguments. -/
theorem C148_skip_violated (std : List K → K) (m : List (MpEntry K)) (thr : Rat) (e : MpEntry K) (he : e ∈ m) (h : List (String × GmFlt))
    (f : List (String × Option K)) (h1 : mpRead e = .ok (h, f)) (h2 : ∀ b, e.best = some b → h.lookup b = none) :
    let s := mpReorganize std thr m
    s.labels.length < s.x.length ∧ ∀ fit perm perm' (a : MpArgs K), mpTrain fit perm perm' s a = .error .valueError := by
  have hlen : ∀ m : List (MpEntry K), (mpErrors m).length ≤ (mpFeatures m).length ∧ (e ∈ m → (mpErrors m).length < (mpFeatures m).length) := by
    intro m
    induction m with
    | nil => exact ⟨le_refl _, fun h => absurd h List.not_mem_nil⟩
    | cons a m ih =>
      unfold mpErrors mpFeatures at ih ⊢
      rw [List.filterMap_cons, List.filterMap_cons]
      have hea : a = e → mpError a h = .error .keyError := by
        intro hh
        rw [hh]
        unfold mpError
        rcases hb : e.best with _ | b
        · rfl
        · show needKey (h.lookup b) = _
          rw [h2 b hb]
          rfl
      rcases hr : mpRead a with er | r
      · refine ⟨ih.1, ?_⟩
        intro hm
        rcases List.mem_cons.1 hm with rfl | hm
        · rw [h1] at hr; cases hr
        · exact ih.2 hm
      · rcases hx : mpError a r.1 with er | v
        · have e1 : ((do let r ← (Except.ok r : Except Err _); mpError a r.1 : Except Err GmFlt).toOption) = none := by
            show (mpError a r.1).toOption = none
            rw [hx]; rfl
          have e2 : (Except.ok r : Except Err _).toOption.map (·.2) = some r.2 := rfl
          rw [e1, e2]
          simp only [List.length_cons]
          exact ⟨by have := ih.1; omega, fun _ => by have := ih.1; omega⟩
        · have e1 : ((do let r ← (Except.ok r : Except Err _); mpError a r.1 : Except Err GmFlt).toOption) = some v := by
            show (mpError a r.1).toOption = some v
            rw [hx]; rfl
          have e2 : (Except.ok r : Except Err _).toOption.map (·.2) = some r.2 := rfl
          rw [e1, e2]
          simp only [List.length_cons]
          refine ⟨by have := ih.1; omega, ?_⟩
          intro hm
          rcases List.mem_cons.1 hm with hm | hm
          · rw [hm, hr] at h1
            injection h1 with h1
            rw [h1, hea hm.symm] at hx
            cases hx
          · have := ih.2 hm; omega
  have hl := (hlen m).2 he
  have e1 : (mpReorganize std thr m).labels.length = (mpErrors m).length := by
    show (List.map _ _).length = _
    rw [List.length_map]
  have e2 : (mpReorganize std thr m).x.length = (mpFeatures m).length := by
    show (List.map _ _).length = _
    rw [List.length_map]
  refine ⟨by rw [e1, e2]; exact hl, ?_⟩
  intro fit perm perm' a
  unfold mpTrain
  by_cases hm : a.method ∉ ["RandomForest", "GBDT", "KNN", "NaiveBayes"]
  · rw [if_pos hm]
  · rw [if_neg hm]
    have : mpSets perm perm' (mpReorganize std thr m).x.length (mpReorganize std thr m).labels.length a = .error .valueError := by
      unfold mpSets
      by_cases hv : a.validSize ≤ 0 ∨ 1 ≤ a.validSize
      · rw [if_pos hv]
      · rw [if_neg hv, if_pos (by omega)]
    rw [this]
    rfl

end

end Kats

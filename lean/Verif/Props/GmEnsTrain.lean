import Verif.Model.GmEnsemble
import Verif.Props.GmSplit
import Verif.Props.GmEvaluate

/-!
# C142: the arguments and the training sets of an ensemble of global models
-/

namespace Kats

/-! ## The arguments -/

theorem notPositive_iff (x : GmNum) : gmNotPositive x = false ↔ IsPosInt x := by
  have := positive_iff [x]
  unfold gmPositive at this
  rw [show ([x].any fun x => !x.isInt || gmLt x.val (.fin 1)) = gmNotPositive x by simp [gmNotPositive]] at this
  rcases h : gmNotPositive x with _ | _
  · rw [h] at this
    simp at this
    simp [this]
  · rw [h] at this
    simp at this
    simp [this]

theorem posInt_toNat (x : GmNum) (h : IsPosInt x) : 1 ≤ x.toInt.toNat := by
  rcases h with ⟨z, hz, rfl⟩ | rfl
  · show 1 ≤ z.toNat
    omega
  · decide

/-- C142: an ensemble is made if its type is known, the numbers of parts and of copies are positive integers and
the number of cores is, if given, one of the computer's; it then has that many models, at least one, and uses at
least one core. -/
theorem C142_init (cores : Nat) (hc : 1 ≤ cores) (a : GmEnsArgs) :
    ((∃ e, gmEnsInit cores a = .ok e) ↔ (a.kind = "median" ∨ a.kind = "mean") ∧ IsPosInt a.splits ∧
      IsPosInt a.replicate ∧ ∀ c, a.maxCore = some c → IsPosInt c ∧ c.toInt ≤ cores) ∧
    (∀ err, gmEnsInit cores a = .error err → err = .valueError) ∧
    ∀ e, gmEnsInit cores a = .ok e → e.kind = a.kind ∧ (e.splits : Int) = a.splits.toInt ∧ e.overlap = a.overlap ∧
      (e.replicate : Int) = a.replicate.toInt ∧ e.modelNum = e.replicate * e.splits ∧ e.multi = a.multi ∧
      1 ≤ e.splits ∧ 1 ≤ e.replicate ∧ 1 ≤ e.modelNum ∧ 1 ≤ e.maxCore ∧ e.maxCore ≤ cores ∧
      (∀ c, a.maxCore = some c → (e.maxCore : Int) = c.toInt) := by
  have hcore : ∀ c : GmNum, (c.isInt && gmLt (.fin 0) c.val && gmLe c.val (.fin cores)) = true ↔
      IsPosInt c ∧ c.toInt ≤ cores := by
    intro c
    rcases c with z | b | x
    · simp only [GmNum.isInt, GmNum.val, GmNum.toInt, gmLt, gmLe, IsPosInt, Bool.true_and, Bool.and_eq_true,
        decide_eq_true_eq, Bool.not_eq_true', decide_eq_false_iff_not]
      constructor
      · rintro ⟨⟨h1, h2⟩, h3⟩
        have h4 : (0 : Int) < z := by
          rw [not_le] at h2
          exact_mod_cast h2
        exact ⟨Or.inl ⟨z, by omega, rfl⟩, by exact_mod_cast h3⟩
      · rintro ⟨⟨w, hw, h⟩ | h, h3⟩
        · injection h with h
          subst h
          refine ⟨⟨by exact_mod_cast (by omega : (0 : Int) ≤ z), ?_⟩, by exact_mod_cast h3⟩
          rw [not_le]
          exact_mod_cast (by omega : (0 : Int) < z)
        · cases h
    · have hc' : (1 : Rat) ≤ cores := by exact_mod_cast hc
      have hc'' : (1 : Int) ≤ cores := by exact_mod_cast hc
      cases b
      · simp [GmNum.isInt, GmNum.val, GmNum.toInt, gmLt, gmLe, IsPosInt]
      · simp [GmNum.isInt, GmNum.val, GmNum.toInt, gmLt, gmLe, IsPosInt, hc']
        omega
    · simp [GmNum.isInt, IsPosInt]
  unfold gmEnsInit
  by_cases h1 : a.kind ≠ "median" ∧ a.kind ≠ "mean"
  · rw [if_pos h1]
    refine ⟨⟨fun h => ?_, fun h => ?_⟩, fun err h => ?_, fun e h => ?_⟩
    · obtain ⟨e, he⟩ := h; cases he
    · rcases h.1 with h | h
      · exact absurd h h1.1
      · exact absurd h h1.2
    · injection h with h; exact h.symm
    · cases h
  rw [if_neg h1]
  have h1' : a.kind = "median" ∨ a.kind = "mean" := by
    by_contra hc; push Not at hc; exact h1 hc
  by_cases h2 : gmNotPositive a.splits = true
  · rw [if_pos h2]
    refine ⟨⟨fun h => ?_, fun h => ?_⟩, fun err h => ?_, fun e h => ?_⟩
    · obtain ⟨e, he⟩ := h; cases he
    · have := (notPositive_iff _).2 h.2.1
      rw [h2] at this; cases this
    · injection h with h; exact h.symm
    · cases h
  rw [if_neg h2]
  rw [Bool.not_eq_true] at h2
  have p2 := (notPositive_iff _).1 h2
  by_cases h3 : gmNotPositive a.replicate = true
  · rw [if_pos h3]
    refine ⟨⟨fun h => ?_, fun h => ?_⟩, fun err h => ?_, fun e h => ?_⟩
    · obtain ⟨e, he⟩ := h; cases he
    · have := (notPositive_iff _).2 h.2.2.1
      rw [h3] at this; cases this
    · injection h with h; exact h.symm
    · cases h
  rw [if_neg h3]
  rw [Bool.not_eq_true] at h3
  have p3 := (notPositive_iff _).1 h3
  have n2 := posInt_toNat _ p2
  have n3 := posInt_toNat _ p3
  have n23 : 1 ≤ a.replicate.toInt.toNat * a.splits.toInt.toNat := Nat.mul_pos n3 n2
  rcases h4 : a.maxCore with _ | c
  · simp only []
    refine ⟨⟨fun _ => ⟨h1', p2, p3, by simp⟩, fun _ => ⟨_, rfl⟩⟩, fun err h => ?_, fun e h => ?_⟩
    · cases h
    · injection h with h
      subst h
      simp only []
      refine ⟨trivial, by omega, trivial, by omega, trivial, trivial, n2, n3, n23, by omega, by omega, by simp⟩
  · simp only []
    by_cases h5 : (c.isInt && gmLt (.fin 0) c.val && gmLe c.val (.fin cores)) = true
    · rw [if_pos h5]
      have p5 := (hcore c).1 h5
      have n5 := posInt_toNat _ p5.1
      refine ⟨⟨fun _ => ⟨h1', p2, p3, ?_⟩, fun _ => ⟨_, rfl⟩⟩, fun err h => ?_, fun e h => ?_⟩
      · intro c' hc'
        injection hc' with hc'
        subst hc'
        exact p5
      · cases h
      · injection h with h
        subst h
        simp only []
        refine ⟨trivial, by omega, trivial, by omega, trivial, trivial, n2, n3, n23, n5, ?_, ?_⟩
        · have := p5.2
          omega
        · intro c' hc'
          injection hc' with hc'
          subst hc'
          omega
    · rw [if_neg h5]
      refine ⟨⟨fun h => ?_, fun h => ?_⟩, fun err h => ?_, fun e h => ?_⟩
      · obtain ⟨e, he⟩ := h; cases he
      · exact absurd ((hcore c).2 (h.2.2.2 c rfl)) h5
      · injection h with h; exact h.symm
      · cases h

example : (gmEnsInit 8 ⟨"mean", .int 3, true, .int 2, false, none⟩).toOption = some ⟨"mean", 3, true, 2, 6, false, 3⟩ ∧
    (gmEnsInit 8 ⟨"mean", .int 3, true, .int 2, false, some (.int 9)⟩).toOption = none := by decide +kernel

/-! ## The models and their data -/

/-- C142: with as many parts as asked for, the model `i` is trained with the part `i` modulo the number of parts,
whether in parallel or not; every part trains as many models as copies are asked for. -/
theorem C142_jobs {α : Type} (parts : List α) (hp : parts ≠ []) (replicate : Nat) (multi : Bool) :
    ∃ l, gmEnsJobs multi parts.length replicate (replicate * parts.length) parts = .ok l ∧
      l.length = replicate * parts.length ∧
      (∀ (i : Nat) x, l[i]? = some x → x.1 = i ∧ parts[i % parts.length]? = some x.2) ∧
      ∀ j, j < parts.length → (l.filter fun x => decide (x.1 % parts.length = j)).length = replicate := by
  have hs : 1 ≤ parts.length := List.length_pos_iff.2 hp
  have hcount : ∀ l : List (Nat × α), l.length = replicate * parts.length →
      (∀ (i : Nat) x, l[i]? = some x → x.1 = i ∧ parts[i % parts.length]? = some x.2) →
      ∀ j, j < parts.length → (l.filter fun x => decide (x.1 % parts.length = j)).length = replicate := by
    intro l hl h j hj
    have e1 : l.map (·.1) = List.range (replicate * parts.length) := by
      apply List.ext_getElem
      · simp [hl]
      · intro i h1 h2
        rw [List.getElem_map, List.getElem_range]
        exact (h i _ (List.getElem?_eq_getElem (by simpa using h1))).1
    have e2 : (l.filter fun x => decide (x.1 % parts.length = j)).length =
        ((l.map (·.1)).filter fun i => decide (i % parts.length = j)).length := by
      rw [List.filter_map, List.length_map]
      rfl
    rw [e2, e1]
    clear hl h e1 e2
    induction replicate with
    | zero => simp
    | succ r ih =>
      rw [Nat.add_mul, Nat.one_mul, List.range_add, List.filter_append, List.length_append, ih]
      congr 1
      rw [List.filter_map, List.length_map]
      have : (List.range parts.length).filter ((fun i => decide (i % parts.length = j)) ∘ fun x => r * parts.length + x) =
          (List.range parts.length).filter fun i => decide (i = j) := by
        apply List.filter_congr
        intro i hi
        rw [List.mem_range] at hi
        simp only [Function.comp_apply, Nat.mul_add_mod_self_right, Nat.mod_eq_of_lt hi]
      rw [this]
      have hc : (List.range parts.length).countP (fun i => decide (i = j)) = 1 := by
        have := List.count_eq_one_of_mem List.nodup_range (List.mem_range.2 hj)
        unfold List.count at this
        rw [← this]
        congr 1
      rw [← List.countP_eq_length_filter]
      exact hc
  cases multi with
  | true =>
    unfold gmEnsJobs
    rw [if_pos rfl]
    obtain ⟨l, h1, h2, h3⟩ := mapM_exists (fun i => match parts[i % parts.length]? with
      | some d => (.ok (i, d) : Except Err (Nat × α))
      | none => .error .indexError) (fun i x => x.1 = i ∧ parts[i % parts.length]? = some x.2)
      (replicate * parts.length) (by
        intro i _
        have := Nat.mod_lt i hs
        refine ⟨(i, parts[i % parts.length]), ?_, rfl, List.getElem?_eq_getElem this⟩
        simp only [List.getElem?_eq_getElem this])
    have h4 := fun (i : Nat) x (h : l[i]? = some x) => (h3 i x h).2
    exact ⟨l, h1, h2, h4, hcount l h2 h4⟩
  | false =>
    unfold gmEnsJobs
    rw [if_neg (by decide)]
    obtain ⟨f, hf⟩ : ∃ f, f = (List.range replicate).flatMap fun _ => parts := ⟨_, rfl⟩
    have hfl : f.length = replicate * parts.length ∧
        ∀ i, i < replicate * parts.length → f[i]? = parts[i % parts.length]? := by
      rw [hf]
      clear hf hcount
      induction replicate with
      | zero => simp
      | succ r ih =>
        rw [List.range_succ, List.flatMap_append, List.flatMap_singleton]
        constructor
        · rw [List.length_append, ih.1, Nat.add_mul, Nat.one_mul]
        · intro i hi
          by_cases hlt : i < r * parts.length
          · rw [List.getElem?_append_left (by omega), ih.2 i hlt]
          · rw [List.getElem?_append_right (by omega), ih.1]
            congr 1
            rw [Nat.add_mul, Nat.one_mul] at hi
            have : i = r * parts.length + (i - r * parts.length) := by omega
            conv_rhs => rw [this]
            rw [Nat.mul_add_mod_self_right, Nat.mod_eq_of_lt (by omega)]
    simp only []
    rw [← hf]
    have hlen : (f.mapIdx fun i d => (i, d)).length = replicate * parts.length := by rw [List.length_mapIdx, hfl.1]
    have h4 : ∀ (i : Nat) x, (f.mapIdx fun i d => (i, d))[i]? = some x → x.1 = i ∧ parts[i % parts.length]? = some x.2 := by
      intro i x h
      have hi : i < replicate * parts.length := by
        rw [← hlen]
        exact (List.getElem?_eq_some_iff.1 h).1
      rw [List.getElem?_mapIdx, hfl.2 i hi] at h
      have hm := Nat.mod_lt i hs
      rw [List.getElem?_eq_getElem hm] at h
      injection h with h
      subst h
      exact ⟨rfl, List.getElem?_eq_getElem hm⟩
    rw [if_pos (by rw [hlen])]
    exact ⟨_, rfl, hlen, h4, hcount _ hlen h4⟩

example : (gmEnsJobs false 3 2 6 ['a', 'b', 'c']).toOption = (gmEnsJobs true 3 2 6 ['a', 'b', 'c']).toOption ∧
    (gmEnsJobs false 3 2 6 ['a', 'b', 'c']).toOption =
      some [(0, 'a'), (1, 'b'), (2, 'c'), (3, 'a'), (4, 'b'), (5, 'c')] := by decide

/-! ## The test set -/

theorem gm_lookup_mem {α : Type} (d : List (GmKey × α)) (k : GmKey) (x : α) (h : gmLookup d k = .ok x) :
    (k, x) ∈ d := by
  unfold gmLookup at h
  rcases hl : d.lookup k with _ | y
  · rw [hl] at h; cases h
  · rw [hl] at h
    injection h with h
    subst h
    clear * - hl
    induction d with
    | nil => simp at hl
    | cons a d ih =>
      rw [List.lookup_cons] at hl
      rcases hk : (k == a.1) with _ | _
      · rw [hk] at hl
        exact List.mem_cons_of_mem _ (ih hl)
      · rw [hk] at hl
        injection hl with hl
        have : k = a.1 := by simpa using hk
        rw [this, ← hl]
        exact List.mem_cons_self

theorem take_all (data : List (GmKey × GmTs)) (hd : (data.map (·.1)).Nodup) (keys : List GmKey)
    (hk : ∀ k ∈ keys, k ∈ data.map (·.1)) : ∃ T : List (GmKey × GmTs), T.map (·.1) = keys ∧ (∀ e ∈ T, e ∈ data) ∧
      ∀ i, (h : i < T.length) → gmEnsTake keys data i = .ok T[i] := by
  have hx : ∀ k, ∃ x, k ∈ keys → (k, x) ∈ data := by
    intro k
    by_cases h : k ∈ keys
    · obtain ⟨e, he, rfl⟩ := List.mem_map.1 (hk k h)
      exact ⟨e.2, fun _ => he⟩
    · exact ⟨[], fun h' => absurd h' h⟩
  choose X hX using hx
  refine ⟨keys.map fun k => (k, X k), ?_, ?_, ?_⟩
  · rw [List.map_map]
    exact List.map_id _
  · intro e he
    obtain ⟨k, hk', rfl⟩ := List.mem_map.1 he
    exact hX k hk'
  · intro i h
    rw [List.length_map] at h
    unfold gmEnsTake
    rw [List.getElem?_eq_getElem h]
    simp only []
    rw [gm_lookup_of_mem data hd _ _ (hX _ (List.getElem_mem h)), List.getElem_map]
    rfl

theorem perm_of_keys {α : Type} (T data : List (GmKey × α)) (hd : (data.map (·.1)).Nodup)
    (hk : (T.map (·.1)).Perm (data.map (·.1))) (hm : ∀ e ∈ T, e ∈ data) : T.Perm data := by
  have hn : T.Nodup := List.Nodup.of_map _ (hk.nodup_iff.2 hd)
  have hsub : T.Subperm data := List.subperm_of_subset hn hm
  exact hsub.perm_of_length_le (by have := hk.length_eq; simp only [List.length_map] at this; omega)

/-- C142: the data are divided: the test set has the part of the series that is asked for, at least one, the
training set has all others, and each is prepared as `gmpreprocess` does. -/
theorem C142_hold_out (p : GmParams) (timeCol : GmKey → String) (shuffle : List GmKey → List GmKey)
    (hsh : ∀ l, (shuffle l).Perm l) (data : List (GmKey × GmTs)) (hne : data ≠ [])
    (hplain : gmNpKeys (data.map (·.1)) = data.map (·.1)) (hd : (data.map (·.1)).Nodup)
    (size : Rat) (h0 : 0 < size) (h1 : size ≤ 1) (validSet : Bool) :
    ∃ t r, (t ++ r).Perm data ∧ t.length = max 1 ((data.length : Rat) * size).floor.toNat ∧
      (∀ k ∈ t.map (·.1), k ∉ r.map (·.1)) ∧
      gmEnsData p timeCol shuffle data size validSet =
        (gmPreprocess p timeCol t "test" true >>= fun test =>
          gmPreprocess p timeCol r "train" validSet >>= fun train => Except.ok (train, some test)) := by
  obtain ⟨keys, hkeys⟩ : ∃ keys, keys = shuffle (gmNpKeys (data.map (·.1))) := ⟨_, rfl⟩
  have hperm : keys.Perm (data.map (·.1)) := by rw [hkeys, hplain]; exact hsh _
  obtain ⟨T, t1, t2, t3⟩ := take_all data hd keys fun k hk => hperm.mem_iff.1 hk
  have hTd : T.Perm data := perm_of_keys T data hd (by rw [t1]; exact hperm) t2
  have hTn : (T.map (·.1)).Nodup := by rw [t1]; exact hperm.nodup_iff.2 hd
  obtain ⟨m, hm⟩ : ∃ m, m = max 1 ((data.length : Rat) * size).floor.toNat := ⟨_, rfl⟩
  have hlen := hTd.length_eq
  have hmn : m ≤ data.length := by
    have hpos : 1 ≤ data.length := List.length_pos_iff.2 hne
    have hfl : ((data.length : Rat) * size).floor.toNat ≤ data.length := by
      have h3 : (data.length : Rat) * size ≤ data.length := by
        have : (0 : Rat) ≤ data.length := Nat.cast_nonneg _
        nlinarith
      have h4 : ((data.length : Rat) * size).floor ≤ (data.length : Int) := by
        have := Rat.floor_le ((data.length : Rat) * size)
        have h5 : (((data.length : Rat) * size).floor : Rat) ≤ ((data.length : Int) : Rat) := by
          push_cast
          linarith
        exact_mod_cast h5
      omega
    omega
  refine ⟨T.take m, T.drop m, by rw [List.take_append_drop]; exact hTd, by rw [List.length_take, ← hm]; omega, ?_, ?_⟩
  · intro k hk hk'
    rw [← List.take_append_drop m T, List.map_append, List.nodup_append] at hTn
    exact hTn.2.2 k hk k hk' rfl
  · unfold gmEnsData
    simp only []
    rw [if_neg (by push Not; exact ⟨h0.le, h1⟩), if_pos h0, ← hm, ← hkeys]
    have e1 : (List.range m).mapM (gmEnsTake keys data) = .ok (T.take m) :=
      mapM_of_get _ m _ (by rw [List.length_take]; omega) (by
        intro i x hx
        obtain ⟨hi, hx⟩ := List.getElem?_eq_some_iff.1 hx
        rw [List.length_take] at hi
        rw [List.getElem_take] at hx
        rw [← hx]
        exact t3 i (by omega))
    have e2 : (List.range' m (data.length - m)).mapM (gmEnsTake keys data) = .ok (T.drop m) := by
      have : List.range' m (data.length - m) = (List.range (data.length - m)).map fun i => m + i := by
        rw [List.range_eq_range', List.map_add_range']
        simp
      rw [this, List.mapM_map]
      exact mapM_of_get _ _ _ (by rw [List.length_drop]; omega) (by
        intro i x hx
        rw [List.getElem?_drop] at hx
        obtain ⟨hi, hx⟩ := List.getElem?_eq_some_iff.1 hx
        rw [← hx]
        exact t3 (m + i) hi)
    rw [e1]
    show (gmPreprocess p timeCol (gmUpdate [] (T.take m)) "test" true >>= fun test =>
      (List.range' m (data.length - m)).mapM (gmEnsTake keys data) >>= fun r => _) = _
    rw [e2]
    have f1 : gmUpdate [] (T.take m) = T.take m := by
      rw [update_fresh _ [] (by simpa using hTn.sublist ((List.take_sublist m T).map _))]; rfl
    have f2 : gmUpdate [] (T.drop m) = T.drop m := by
      rw [update_fresh _ [] (by simpa using hTn.sublist ((List.drop_sublist m T).map _))]; rfl
    rw [f1]
    rcases gmPreprocess p timeCol (T.take m) "test" true with err | test
    · rfl
    · show (gmPreprocess p timeCol (gmUpdate [] (T.drop m)) "train" validSet >>= fun train => _) = _
      rw [f2]
      rfl

/-- C142: without a test set all series are for the training; other sizes than those from 0 to 1 are refused. -/
theorem C142_no_test (p : GmParams) (timeCol : GmKey → String) (shuffle : List GmKey → List GmKey)
    (data : List (GmKey × GmTs)) (validSet : Bool) :
    gmEnsData p timeCol shuffle data 0 validSet =
      (gmPreprocess p timeCol data "train" validSet).map (fun t => (t, none)) ∧
    ∀ size : Rat, size < 0 ∨ 1 < size → gmEnsData p timeCol shuffle data size validSet = .error .valueError := by
  constructor
  · unfold gmEnsData
    simp only []
    rw [if_neg (by norm_num), if_neg (by norm_num)]
    cases gmPreprocess p timeCol data "train" validSet <;> rfl
  · intro size h
    unfold gmEnsData
    simp only []
    rw [if_pos h]

/-- The keys that `gmpreprocess` gives are keys of the data. -/
theorem preprocess_keys (p : GmParams) (timeCol : GmKey → String) (data : List (GmKey × GmTs)) (mode : String)
    (validSet : Bool) (s : GmSet) (h : gmPreprocess p timeCol data mode validSet = .ok s) :
    (∀ e ∈ s.1, e.1 ∈ data.map (·.1)) ∧ ∀ v, s.2 = some v → ∀ e ∈ v, e.1 ∈ data.map (·.1) := by
  unfold gmPreprocess at h
  obtain ⟨len, _, h⟩ := (gm_bind_ok _ _ _).1 h
  obtain ⟨filled, hf, h⟩ := (gm_bind_ok _ _ _).1 h
  have hkey : ∀ x ∈ filled, x.1 ∈ data.map (·.1) := by
    intro x hx
    obtain ⟨k, _, hk⟩ := (mapM_ok_mem _ _ _ hf).2 x hx
    obtain ⟨ts, h1, hk⟩ := (gm_bind_ok _ _ _).1 hk
    obtain ⟨f, h2, hk⟩ := (gm_bind_ok _ _ _).1 hk
    injection hk with hk
    rw [← hk]
    exact List.mem_map.2 ⟨_, gm_lookup_mem _ _ _ h1, rfl⟩
  cases validSet with
  | true =>
    rw [if_pos rfl] at h
    injection h with h
    subst h
    constructor
    · intro e he
      obtain ⟨x, hx, rfl⟩ := List.mem_map.1 he
      exact hkey x (List.mem_filter.1 hx).1
    · intro v hv e he
      injection hv with hv
      subst hv
      obtain ⟨x, hx, rfl⟩ := List.mem_map.1 he
      exact hkey x (List.mem_filter.1 hx).1
  | false =>
    rw [if_neg (by decide)] at h
    injection h with h
    subst h
    refine ⟨fun e he => hkey e (List.mem_filter.1 he).1, ?_⟩
    intro v hv
    cases hv

theorem pick_mem {α : Type} (d : List (GmKey × α)) (ks : List GmKey) (r : List (GmKey × α))
    (h : gmPick d ks = .ok r) : ∀ e ∈ r, e ∈ d := by
  intro e he
  obtain ⟨k, _, hk⟩ := (mapM_ok_mem _ _ _ h).2 e he
  rcases hl : gmLookup d k with err | x
  · rw [hl] at hk; cases hk
  · rw [hl] at hk
    have hk : Except.ok (k, x) = Except.ok e := hk
    injection hk with hk
    rw [← hk]
    exact gm_lookup_mem _ _ _ hl

theorem pickValid_mem {α : Type} (d : Option (List (GmKey × α))) (ks : List GmKey) (r : Option (List (GmKey × α)))
    (h : gmPickValid d ks = .ok r) : ∀ w, r = some w → ∃ v, d = some v ∧ ∀ e ∈ w, e ∈ v := by
  intro w hw
  subst hw
  rcases d with _ | v
  · cases h
  · rcases hp : gmPick v ks with err | x
    · replace h : (gmPick v ks).map some = .ok (some w) := h
      rw [hp] at h
      cases h
    · replace h : (gmPick v ks).map some = .ok (some w) := h
      rw [hp] at h
      have h : Except.ok (some x) = Except.ok (some w) := h
      injection h with h
      injection h with h
      subst h
      exact ⟨v, rfl, pick_mem v ks x hp⟩

/-- There are as many parts as asked for, and their series are those of the data. -/
theorem split_mem {α : Type} (splits : Nat) (hs : 1 ≤ splits) (overlap : Bool) (train : List (GmKey × α))
    (valid : Option (List (GmKey × α))) (parts : List (List (GmKey × α) × Option (List (GmKey × α))))
    (h : gmSplit splits overlap train valid = .ok parts) : parts.length = splits ∧
      ∀ q ∈ parts, (∀ e ∈ q.1, e ∈ train) ∧ ∀ w, q.2 = some w → ∃ v, valid = some v ∧ ∀ e ∈ w, e ∈ v := by
  unfold gmSplit at h
  simp only [] at h
  by_cases h1 : splits = 1
  · rw [if_pos h1] at h
    obtain ⟨a, ha, h⟩ := (gm_bind_ok _ _ _).1 h
    obtain ⟨b, hb, h⟩ := (gm_bind_ok _ _ _).1 h
    injection h with h
    subst h
    refine ⟨by simp [h1], ?_⟩
    intro q hq
    rw [List.mem_singleton.1 hq]
    exact ⟨pick_mem _ _ _ ha, pickValid_mem _ _ _ hb⟩
  · rw [if_neg h1, if_neg (by omega)] at h
    by_cases h2 : train.length / splits = 0
    · rw [if_pos h2] at h; cases h
    · rw [if_neg h2] at h
      refine ⟨(mapM_range_get _ _ _ h).1, ?_⟩
      intro q hq
      obtain ⟨i, _, hi⟩ := (mapM_ok_mem _ _ _ h).2 q hq
      obtain ⟨a, ha, hi⟩ := (gm_bind_ok _ _ _).1 hi
      obtain ⟨b, hb, hi⟩ := (gm_bind_ok _ _ _).1 hi
      injection hi with hi
      subst hi
      exact ⟨pick_mem _ _ _ ha, pickValid_mem _ _ _ hb⟩

/-- C142: in a training every model gets data, and no series of the test set is among the data of any model. -/
theorem C142_train (cores : Nat) (hc : 1 ≤ cores) (a : GmEnsArgs) (e : GmEns) (he : gmEnsInit cores a = .ok e)
    (p : GmParams) (timeCol : GmKey → String) (shuffle : List GmKey → List GmKey)
    (hsh : ∀ l, (shuffle l).Perm l) (data : List (GmKey × GmTs))
    (hplain : gmNpKeys (data.map (·.1)) = data.map (·.1)) (hd : (data.map (·.1)).Nodup)
    (size : Rat) (validSet : Bool) (jobs : List (Nat × GmSet)) (test : Option GmSet)
    (h : gmEnsTrain e p timeCol shuffle data size validSet = .ok (jobs, test)) :
    jobs.map (·.1) = List.range e.modelNum ∧ (size = 0 ↔ test = none) ∧
    (∀ k ∈ gmEnsTestIds test, k ∈ data.map (·.1)) ∧
    ∀ j ∈ jobs, (∀ x ∈ j.2.1, x.1 ∈ data.map (·.1) ∧ x.1 ∉ gmEnsTestIds test) ∧
      (∀ v, j.2.2 = some v → ∀ x ∈ v, x.1 ∈ data.map (·.1) ∧ x.1 ∉ gmEnsTestIds test) := by
  obtain ⟨_, _, _, _, f5, _, f7, f8, f9, _⟩ := (C142_init cores hc a).2.2 e he
  unfold gmEnsTrain at h
  obtain ⟨d, h1, h⟩ := (gm_bind_ok _ _ _).1 h
  obtain ⟨parts, h2, h⟩ := (gm_bind_ok _ _ _).1 h
  obtain ⟨js, h3, h⟩ := (gm_bind_ok _ _ _).1 h
  injection h with h
  injection h with h4 h5
  subst h4 h5
  obtain ⟨s1, s2⟩ := split_mem _ f7 _ _ _ _ h2
  have hpne : parts ≠ [] := by rintro rfl; simp at s1; omega
  obtain ⟨l, j1, j2, j3, _⟩ := C142_jobs parts hpne e.replicate e.multi
  rw [s1, ← f5, h3] at j1
  injection j1 with j1
  subst j1
  -- the data
  have hdata : (size = 0 ↔ d.2 = none) ∧ (∀ k ∈ gmEnsTestIds d.2, k ∈ data.map (·.1)) ∧
      (∀ x ∈ d.1.1, x.1 ∈ data.map (·.1) ∧ x.1 ∉ gmEnsTestIds d.2) ∧
      ∀ v, d.1.2 = some v → ∀ x ∈ v, x.1 ∈ data.map (·.1) ∧ x.1 ∉ gmEnsTestIds d.2 := by
    rcases lt_trichotomy size 0 with hlt | h0 | hgt
    · rw [(C142_no_test p timeCol shuffle data validSet).2 size (Or.inl hlt)] at h1
      cases h1
    · subst h0
      rw [(C142_no_test p timeCol shuffle data validSet).1] at h1
      rcases hp : gmPreprocess p timeCol data "train" validSet with err | t
      · rw [hp] at h1; cases h1
      · rw [hp] at h1
        have h1 : Except.ok (t, none) = Except.ok d := h1
        injection h1 with h1
        subst h1
        obtain ⟨k1, k2⟩ := preprocess_keys _ _ _ _ _ _ hp
        exact ⟨by simp, by simp [gmEnsTestIds], fun x hx => ⟨k1 x hx, by simp [gmEnsTestIds]⟩,
          fun v hv x hx => ⟨k2 v hv x hx, by simp [gmEnsTestIds]⟩⟩
    · by_cases hle : size ≤ 1
      · by_cases hne : data = []
        · subst hne
          unfold gmEnsData at h1
          simp only [] at h1
          rw [if_neg (by push Not; exact ⟨hgt.le, hle⟩), if_pos hgt] at h1
          have hk : shuffle (gmNpKeys (([] : List (GmKey × GmTs)).map (·.1))) = [] := (hsh _).eq_nil
          rw [hk] at h1
          obtain ⟨t, ht, _⟩ := (gm_bind_ok _ _ _).1 h1
          obtain ⟨b, _, hb⟩ := (mapM_ok_mem _ _ _ ht).1 0 (List.mem_range.2 (by omega))
          cases hb
        obtain ⟨t, r, r1, r2, r3, r4⟩ := C142_hold_out p timeCol shuffle hsh data hne hplain hd size hgt hle validSet
        rw [h1] at r4
        obtain ⟨test, q1, r4⟩ := (gm_bind_ok _ _ _).1 r4.symm
        obtain ⟨train, q2, r4⟩ := (gm_bind_ok _ _ _).1 r4
        injection r4 with r4
        subst r4
        have hmem : ∀ k, k ∈ t.map (·.1) ∨ k ∈ r.map (·.1) → k ∈ data.map (·.1) := by
          intro k hk
          have := (r1.map (·.1)).mem_iff (a := k)
          rw [List.map_append, List.mem_append] at this
          exact this.1 hk
        have k0 := (preprocess_keys _ _ _ _ _ _ q1).1
        obtain ⟨k1, k2⟩ := preprocess_keys _ _ _ _ _ _ q2
        have hT : ∀ k ∈ gmEnsTestIds (some test), k ∈ t.map (·.1) := by
          intro k hk
          obtain ⟨e, he, rfl⟩ := List.mem_map.1 (show k ∈ test.1.map (·.1) from hk)
          exact k0 e he
        refine ⟨⟨fun h => absurd h hgt.ne', by simp⟩, fun k hk => hmem k (Or.inl (hT k hk)), ?_, ?_⟩
        · intro x hx
          exact ⟨hmem _ (Or.inr (k1 x hx)), fun hk => r3 _ (hT _ hk) (k1 x hx)⟩
        · intro v hv x hx
          exact ⟨hmem _ (Or.inr (k2 v hv x hx)), fun hk => r3 _ (hT _ hk) (k2 v hv x hx)⟩
      · rw [(C142_no_test p timeCol shuffle data validSet).2 size (Or.inr (not_le.1 hle))] at h1
        cases h1
  refine ⟨?_, hdata.1, hdata.2.1, ?_⟩
  · apply List.ext_getElem
    · rw [List.length_map, List.length_range, j2, s1, f5]
    · intro i q1 q2
      rw [List.getElem_map, List.getElem_range]
      exact (j3 i _ (List.getElem?_eq_getElem (by simpa using q1))).1
  · intro j hj
    obtain ⟨i, hi, hij⟩ := List.getElem_of_mem hj
    have hpart := (j3 i _ (List.getElem?_eq_getElem hi)).2
    rw [hij] at hpart
    obtain ⟨m1, m2⟩ := s2 j.2 (List.mem_of_getElem? hpart)
    refine ⟨fun x hx => hdata.2.2.1 x (m1 x hx), ?_⟩
    intro v hv x hx
    obtain ⟨w, hw, hsub⟩ := m2 v hv
    exact hdata.2.2.2 w hw x (hsub x hx)

/-- C142 violated: a test size of 1 should be refused ("in [0,1)"), but it is accepted and leaves no series for the
training. -/
theorem C142_all_test_violated (p : GmParams) (timeCol : GmKey → String) (shuffle : List GmKey → List GmKey)
    (hsh : ∀ l, (shuffle l).Perm l) (data : List (GmKey × GmTs)) (hne : data ≠ [])
    (hplain : gmNpKeys (data.map (·.1)) = data.map (·.1)) (hd : (data.map (·.1)).Nodup) (validSet : Bool)
    (train : GmSet) (test : Option GmSet)
    (h : gmEnsData p timeCol shuffle data 1 validSet = .ok (train, test)) : train.1 = [] := by
  obtain ⟨t, r, r1, r2, _, r4⟩ := C142_hold_out p timeCol shuffle hsh data hne hplain hd 1 (by norm_num) (by norm_num) validSet
  have hpos : 1 ≤ data.length := List.length_pos_iff.2 hne
  have hr : r = [] := by
    have hl := r1.length_eq
    rw [mul_one] at r2
    have hf : ((data.length : Nat) : Rat).floor = (data.length : Int) := by
      rw [← Rat.intCast_natCast]; exact Rat.floor_intCast _
    rw [List.length_append, r2, hf, Int.toNat_natCast] at hl
    exact List.length_eq_zero_iff.1 (by omega)
  subst hr
  rw [h] at r4
  obtain ⟨test', _, r4⟩ := (gm_bind_ok _ _ _).1 r4.symm
  obtain ⟨train', q, r4⟩ := (gm_bind_ok _ _ _).1 r4
  injection r4 with r4
  injection r4 with r4 _
  subst r4
  have := (preprocess_keys _ _ _ _ _ _ q).1
  rcases h1 : train'.1 with _ | ⟨e, l⟩
  · rfl
  · rw [h1] at this
    exact absurd (this e (by simp)) (by simp)

/-! ## An example -/

/-- A series of `n` values. -/
def gmEnsTs (n : Nat) : GmTs := (List.range n).map fun i : Nat => ((i : Int), some ((i : Rat) + 1))

/-- Five series. -/
def gmEnsFive : List (GmKey × GmTs) := (List.range 5).map fun i : Nat => (.int i, gmEnsTs (9 + i))

/-- Two parts and two copies, one series in five for the test: four models and their series. -/
example : (gmEnsTrain ⟨"median", 2, false, 2, 4, false, 1⟩ gmExParams (fun _ => "time") List.reverse gmEnsFive (1 / 5)
      true).toOption.map (fun r => (r.1.map fun j => (j.1, j.2.1.map (·.1)), gmEnsTestIds r.2)) =
    some ([(0, [.int 3, .int 2]), (1, [.int 1, .int 0]), (2, [.int 3, .int 2]), (3, [.int 1, .int 0])], [.int 4]) := by
  decide +kernel

example : ∀ l : List GmKey, l.reverse.Perm l := List.reverse_perm

example : (gmEnsData gmExParams (fun _ => "time") List.reverse gmEnsFive 1 true).toOption.map
    (fun r => (r.1.1.length, (gmEnsTestIds r.2).length)) = some (0, 5) := by decide +kernel

end Kats

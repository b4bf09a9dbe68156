import Verif.Props.GmData

/-!
# C135: splitting and preprocessing of the data sets of global models
-/

namespace Kats

/-! ## `split` -/

/-- The elements at the places where `P` holds. -/
def gmAtPlaces {α : Type} (P : Nat → Bool) (d : List α) : List α :=
  (d.zipIdx.filter fun x => P x.2).map (·.1)

theorem gmPlaces_range {α : Type} (lo hi : Nat) (d : List α) : ∀ k,
    ((d.zipIdx k).filter fun x => decide (lo ≤ x.2) && decide (x.2 < hi)).map (·.1) =
      (d.take (hi - k)).drop (lo - k) := by
  induction d with
  | nil => intro k; simp
  | cons x d ih =>
    intro k
    rw [List.zipIdx_cons]
    have h := ih (k + 1)
    by_cases h1 : lo ≤ k
    · by_cases h2 : k < hi
      · rw [List.filter_cons_of_pos (by simp [h1, h2]), List.map_cons, h,
          show hi - k = (hi - (k + 1)) + 1 by omega, show lo - k = 0 by omega,
          show lo - (k + 1) = 0 by omega]
        simp
      · rw [List.filter_cons_of_neg (by simp [h2]), h, show hi - k = 0 by omega,
          show hi - (k + 1) = 0 by omega]
        simp
    · rw [List.filter_cons_of_neg (by simp [h1]), h, show lo - k = (lo - (k + 1)) + 1 by omega]
      by_cases h2 : k < hi
      · rw [show hi - k = (hi - (k + 1)) + 1 by omega]; simp
      · rw [show hi - k = 0 by omega, show hi - (k + 1) = 0 by omega]; simp

theorem gmPlaces_other {α : Type} (lo hi : Nat) (hlh : lo ≤ hi) (d : List α) : ∀ k,
    ((d.zipIdx k).filter fun x => !(decide (lo ≤ x.2) && decide (x.2 < hi))).map (·.1) =
      d.take (lo - k) ++ d.drop (hi - k) := by
  induction d with
  | nil => intro k; simp
  | cons x d ih =>
    intro k
    rw [List.zipIdx_cons]
    have h := ih (k + 1)
    by_cases h1 : k < lo
    · rw [List.filter_cons_of_pos (by simp; omega), List.map_cons, h,
        show lo - k = (lo - (k + 1)) + 1 by omega, show hi - k = (hi - (k + 1)) + 1 by omega]
      simp
    · by_cases h2 : k < hi
      · rw [List.filter_cons_of_neg (by simp; omega), h,
          show lo - k = 0 by omega, show hi - k = (hi - (k + 1)) + 1 by omega,
          show lo - (k + 1) = 0 by omega]
        simp
      · rw [List.filter_cons_of_pos (by simp; omega), List.map_cons, h,
          show lo - k = 0 by omega, show hi - k = 0 by omega, show lo - (k + 1) = 0 by omega,
          show hi - (k + 1) = 0 by omega]
        simp

theorem gmPart_eq {α : Type} (overlap : Bool) (d : List (GmKey × α)) (seps : List Nat) (i : Nat)
    (h : seps.getD i 0 ≤ seps.getD (i + 1) 0) :
    gmPart overlap (d.map (·.1)) seps i =
      (if overlap then d.take (seps.getD i 0) ++ d.drop (seps.getD (i + 1) 0)
        else (d.take (seps.getD (i + 1) 0)).drop (seps.getD i 0)).map (·.1) := by
  unfold gmPart
  cases overlap with
  | false =>
    simp only [Bool.bne_false, Bool.false_eq_true, if_false]
    rw [gmPlaces_range, ← List.map_take, ← List.map_drop]; rfl
  | true =>
    have : ∀ b : Bool, (b != true) = !b := by decide
    simp only [this, if_true]
    rw [gmPlaces_other _ _ h, List.map_append, List.map_take, List.map_drop]; rfl

theorem gmLookup_mem {α : Type} (d : List (GmKey × α)) (hd : (d.map (·.1)).Nodup) (x : GmKey × α)
    (hx : x ∈ d) : gmLookup d x.1 = .ok x.2 := by
  unfold gmLookup
  have : d.lookup x.1 = some x.2 := by
    induction d with
    | nil => simp at hx
    | cons y d ih =>
      rw [List.map_cons, List.nodup_cons] at hd
      rw [List.lookup_cons]
      rcases List.mem_cons.mp hx with h | h
      · subst h; simp
      · have hne : x.1 ≠ y.1 := fun e => hd.1 (e ▸ List.mem_map.mpr ⟨x, h, rfl⟩)
        rw [beq_false_of_ne hne]
        exact ih hd.2 h
  rw [this]

theorem gmPick_sub {α : Type} (d : List (GmKey × α)) (hd : (d.map (·.1)).Nodup)
    (sub : List (GmKey × α)) (hs : ∀ x ∈ sub, x ∈ d) : gmPick d (sub.map (·.1)) = .ok sub := by
  unfold gmPick
  induction sub with
  | nil => rfl
  | cons x sub ih =>
    rw [List.map_cons, List.mapM_cons, gmLookup_mem d hd x (hs x (by simp)),
      ih fun y hy => hs y (by simp [hy])]
    rfl

theorem gmPick_same {α : Type} (d : List (GmKey × α)) (hd : (d.map (·.1)).Nodup) (ks : List GmKey)
    (hk : ∀ k ∈ ks, k ∈ d.map (·.1)) :
    ∃ w, gmPick d ks = .ok w ∧ w.map (·.1) = ks ∧ ∀ x ∈ w, x ∈ d := by
  have : ∃ w : List (GmKey × α), w.map (·.1) = ks ∧ ∀ x ∈ w, x ∈ d := by
    induction ks with
    | nil => exact ⟨[], rfl, by simp⟩
    | cons k ks ih =>
      obtain ⟨w, h1, h2⟩ := ih fun j hj => hk j (by simp [hj])
      obtain ⟨x, hx, hxk⟩ := List.mem_map.mp (hk k (by simp))
      exact ⟨x :: w, by rw [List.map_cons, hxk, h1], by
        intro y hy
        rcases List.mem_cons.mp hy with h | h
        · rw [h]; exact hx
        · exact h2 y h⟩
  obtain ⟨w, h1, h2⟩ := this
  exact ⟨w, by rw [← h1]; exact gmPick_sub d hd w h2, h1, h2⟩

/-- Where part `i` begins or ends. -/
theorem gmSeps_get (n splits : Nat) (hsp : 0 < splits) (hn : splits ≤ n) (i : Nat) (hi : i ≤ splits) :
    (gmSeps n (n / splits) splits).getD i 0 =
      if i < splits ∨ n / splits < n % splits then i * (n / splits) else n := by
  obtain ⟨m, hm⟩ : ∃ m, m = n / splits := ⟨_, rfl⟩
  obtain ⟨r, hr⟩ : ∃ r, r = n % splits := ⟨_, rfl⟩
  have hdm : m * splits + r = n := by rw [hm, hr, Nat.mul_comm]; exact Nat.div_add_mod n splits
  have hm0 : 0 < m := by rw [hm]; exact Nat.div_pos hn hsp
  rw [← hm, ← hr]
  have hceil : (n + m - 1) / m = splits + (r + m - 1) / m := by
    rw [show n + m - 1 = (r + m - 1) + m * splits by omega, Nat.add_mul_div_left _ _ hm0]
    omega
  unfold gmSeps
  simp only [List.length_map, List.length_range]
  rw [hceil]
  rcases Nat.eq_zero_or_pos r with h0 | h0
  · have e : (r + m - 1) / m = 0 := Nat.div_eq_of_lt (by omega)
    rw [e, Nat.add_zero, if_neg (by omega), List.getD_eq_getElem?_getD]
    by_cases h : i < splits
    · rw [if_pos (Or.inl h), List.getElem?_append_left (by simpa using h)]
      simp [h]
    · have : i = splits := by omega
      subst this
      rw [if_neg (by omega), List.getElem?_append_right (by simp)]
      simp
  · by_cases h1 : r ≤ m
    · have e : (r + m - 1) / m = 1 := by
        apply Nat.div_eq_of_lt_le <;> omega
      rw [e, if_pos rfl, List.range_succ, List.map_append, List.map_cons, List.map_nil,
        List.dropLast_concat, List.getD_eq_getElem?_getD]
      by_cases h : i < splits
      · rw [if_pos (Or.inl h), List.getElem?_append_left (by simpa using h)]
        simp [h]
      · have : i = splits := by omega
        subst this
        rw [if_neg (by omega), List.getElem?_append_right (by simp)]
        simp
    · have e : 2 ≤ (r + m - 1) / m := by
        rw [Nat.le_div_iff_mul_le hm0]; omega
      rw [if_neg (by omega), if_pos (Or.inr (by omega)), List.getD_eq_getElem?_getD,
        List.getElem?_append_left (by simp; omega)]
      rw [List.getElem?_map, List.getElem?_range (by omega)]
      rfl

/-- Where part `i` of `splits` parts of `n` series begins. -/
def gmCut (n splits i : Nat) : Nat :=
  if i < splits ∨ n / splits < n % splits then i * (n / splits) else n

/-- C135: part `i` of `split` has the series from `i * (n / splits)` on, up to where part `i + 1`
begins, or with `overlap` all others; the last part ends at the end of the data if
`n % splits ≤ n / splits` and at `splits * (n / splits)` if not.  The validation series have the
keys of the training series. -/
theorem C135_split {α : Type} (splits : Nat) (hsp : 1 < splits) (overlap : Bool)
    (train : List (GmKey × α)) (hn : splits ≤ train.length)
    (hplain : gmNpKeys (train.map (·.1)) = train.map (·.1)) (hd : (train.map (·.1)).Nodup)
    (valid : Option (List (GmKey × α)))
    (hv : ∀ v, valid = some v → (v.map (·.1)).Perm (train.map (·.1))) :
    ∃ parts, gmSplit splits overlap train valid = .ok parts ∧ parts.length = splits ∧
      ∀ i, i < splits → ∃ tr va, parts[i]? = some (tr, va) ∧
        tr = (if overlap then train.take (gmCut train.length splits i) ++
            train.drop (gmCut train.length splits (i + 1))
          else (train.take (gmCut train.length splits (i + 1))).drop (gmCut train.length splits i)) ∧
        (valid = none → va = none) ∧
        (∀ v, valid = some v → ∃ w, va = some w ∧ w.map (·.1) = tr.map (·.1) ∧ ∀ x ∈ w, x ∈ v) := by
  have hm0 : 0 < train.length / splits := Nat.div_pos hn (by omega)
  have hle : ∀ i, i < splits → gmCut train.length splits i ≤ gmCut train.length splits (i + 1) := by
    intro i hi
    unfold gmCut
    rw [if_pos (Or.inl hi)]
    split
    · exact Nat.mul_le_mul_right _ (by omega)
    · have h1 : i * (train.length / splits) ≤ splits * (train.length / splits) :=
        Nat.mul_le_mul_right _ hi.le
      have h2 := Nat.mul_div_le train.length splits
      omega
  have hcut : ∀ i, i ≤ splits → (gmSeps train.length (train.length / splits) splits).getD i 0 =
      gmCut train.length splits i := fun i hi => gmSeps_get _ _ (by omega) hn i hi
  obtain ⟨tr, htr⟩ : ∃ tr : Nat → List (GmKey × α), tr = fun i =>
    (if overlap then train.take (gmCut train.length splits i) ++
        train.drop (gmCut train.length splits (i + 1))
      else (train.take (gmCut train.length splits (i + 1))).drop (gmCut train.length splits i)) :=
    ⟨_, rfl⟩
  have hsub : ∀ i, ∀ x ∈ tr i, x ∈ train := by
    intro i x hx
    rw [htr] at hx
    simp only [] at hx
    cases overlap with
    | true =>
      rw [if_pos rfl] at hx
      rcases List.mem_append.mp hx with h | h
      · exact List.mem_of_mem_take h
      · exact List.mem_of_mem_drop h
    | false =>
      rw [if_neg (by decide)] at hx
      exact List.mem_of_mem_take (List.mem_of_mem_drop hx)
  have hpart : ∀ i, i < splits → gmPart overlap (gmNpKeys (train.map (·.1)))
      (gmSeps train.length (train.length / splits) splits) i = (tr i).map (·.1) := by
    intro i hi
    rw [hplain, gmPart_eq _ _ _ _ (by rw [hcut i hi.le, hcut (i + 1) hi]; exact hle i hi),
      hcut i hi.le, hcut (i + 1) hi, htr]
  have hval : ∀ i, ∃ va, gmPickValid valid ((tr i).map (·.1)) = .ok va ∧ (valid = none → va = none) ∧
      (∀ v, valid = some v → ∃ w, va = some w ∧ w.map (·.1) = (tr i).map (·.1) ∧ ∀ x ∈ w, x ∈ v) := by
    intro i
    cases valid with
    | none => exact ⟨none, rfl, fun _ => rfl, by simp⟩
    | some v =>
      obtain ⟨w, h1, h2, h3⟩ := gmPick_same v ((hv v rfl).nodup_iff.mpr hd) ((tr i).map (·.1)) (by
        intro k hk
        rw [(hv v rfl).mem_iff]
        obtain ⟨x, hx, rfl⟩ := List.mem_map.mp hk
        exact List.mem_map.mpr ⟨x, hsub i x hx, rfl⟩)
      refine ⟨some w, ?_, by simp, ?_⟩
      · show (gmPick v ((tr i).map (·.1))).map some = _
        rw [h1]; rfl
      · rintro v' hv'
        cases hv'
        exact ⟨w, rfl, h2, h3⟩
  choose va hva using hval
  refine ⟨(List.range splits).map fun i => (tr i, va i), ?_, by simp, ?_⟩
  · unfold gmSplit
    simp only []
    rw [if_neg (by omega), if_neg (by omega), if_neg (by omega)]
    have : ∀ l : List Nat, (∀ i ∈ l, i < splits) → (l.mapM fun i => (do
        let a ← gmPick train (gmPart overlap (gmNpKeys (train.map (·.1)))
          (gmSeps train.length (train.length / splits) splits) i)
        let b ← gmPickValid valid (gmPart overlap (gmNpKeys (train.map (·.1)))
          (gmSeps train.length (train.length / splits) splits) i)
        return (a, b) : Except Err _)) = .ok (l.map fun i => (tr i, va i)) := by
      intro l
      induction l with
      | nil => intro _; rfl
      | cons i l ih =>
        intro h
        rw [List.mapM_cons, ih fun j hj => h j (by simp [hj]), hpart i (h i (by simp)),
          gmPick_sub train hd _ (hsub i), (hva i).1]
        rfl
    exact this _ fun i hi => List.mem_range.mp hi
  · intro i hi
    refine ⟨tr i, va i, ?_, by rw [htr], (hva i).2.1, (hva i).2.2⟩
    rw [List.getElem?_map, List.getElem?_range hi]
    rfl

theorem gmCuts_flatten {α : Type} (l : List α) (cut : Nat → Nat) (h0 : cut 0 = 0)
    (hmono : ∀ i, cut i ≤ cut (i + 1)) : ∀ n,
    ((List.range n).map fun i => (l.take (cut (i + 1))).drop (cut i)).flatten = l.take (cut n) := by
  intro n
  induction n with
  | zero => simp [h0]
  | succ n ih =>
    rw [List.range_succ, List.map_append, List.flatten_append, ih]
    simp only [List.map_cons, List.map_nil, List.flatten_cons, List.flatten_nil, List.append_nil]
    have := List.take_append_drop (cut n) (l.take (cut (n + 1)))
    rw [List.take_take, Nat.min_eq_left (hmono n)] at this
    exact this

/-- The series of all parts, one after the other. -/
theorem split_flatten {α : Type} (splits : Nat) (hsp : 1 < splits) (train : List (GmKey × α))
    (hn : splits ≤ train.length) (hplain : gmNpKeys (train.map (·.1)) = train.map (·.1))
    (hd : (train.map (·.1)).Nodup) :
    ∃ parts, gmSplit splits false train none = .ok parts ∧
      (parts.map (·.1)).flatten = train.take (gmCut train.length splits splits) := by
  obtain ⟨parts, h1, h2, h3⟩ := C135_split splits hsp false train hn hplain hd none (by simp)
  refine ⟨parts, h1, ?_⟩
  have hp : parts.map (·.1) = (List.range splits).map fun i =>
      (train.take (min (gmCut train.length splits (min (i + 1) splits)) train.length)).drop
        (gmCut train.length splits (min i splits)) := by
    apply List.ext_getElem?
    intro i
    by_cases hi : i < splits
    · obtain ⟨tr, va, g1, g2, _⟩ := h3 i hi
      rw [List.getElem?_map, g1, List.getElem?_map, List.getElem?_range hi]
      simp only [Option.map_some, g2]
      rw [Nat.min_eq_left hi.le, Nat.min_eq_left (by omega : i + 1 ≤ splits), if_neg (by decide)]
      rw [← List.take_take]
      simp
    · rw [List.getElem?_eq_none (by simp; omega), List.getElem?_eq_none (by simp; omega)]
  have hm : splits * (train.length / splits) ≤ train.length := Nat.mul_div_le _ _
  have hcle : ∀ i, i ≤ splits → gmCut train.length splits i ≤ train.length := by
    intro i hi
    unfold gmCut
    split
    · exact le_trans (Nat.mul_le_mul_right _ hi) hm
    · exact le_refl _
  have key := gmCuts_flatten train (fun i => gmCut train.length splits (min i splits)) (by
    simp [gmCut]; omega) (by
      intro i
      show gmCut train.length splits (min i splits) ≤ gmCut train.length splits (min (i + 1) splits)
      by_cases hi : i < splits
      · rw [Nat.min_eq_left hi.le, Nat.min_eq_left (by omega : i + 1 ≤ splits)]
        unfold gmCut
        rw [if_pos (Or.inl hi)]
        split
        · exact Nat.mul_le_mul_right _ (by omega)
        · exact le_trans (Nat.mul_le_mul_right _ hi.le) hm
      · rw [Nat.min_eq_right (by omega), Nat.min_eq_right (by omega)]) splits
  rw [hp]
  have e : ∀ i ∈ List.range splits,
      (train.take (min (gmCut train.length splits (min (i + 1) splits)) train.length)).drop
        (gmCut train.length splits (min i splits)) =
      (train.take (gmCut train.length splits (min (i + 1) splits))).drop
        (gmCut train.length splits (min i splits)) := by
    intro i _
    rw [Nat.min_eq_left (hcle _ (Nat.min_le_right _ _))]
  rw [List.map_congr_left e, key, Nat.min_self]

/-- C135, the part that holds: if `n % splits ≤ n / splits`, the parts make up the data set. -/
theorem C135_split_all_partial {α : Type} (splits : Nat) (hsp : 1 < splits) (train : List (GmKey × α))
    (hn : splits ≤ train.length) (hplain : gmNpKeys (train.map (·.1)) = train.map (·.1))
    (hd : (train.map (·.1)).Nodup) (h : train.length % splits ≤ train.length / splits) :
    ∃ parts, gmSplit splits false train none = .ok parts ∧ (parts.map (·.1)).flatten = train := by
  obtain ⟨parts, h1, h2⟩ := split_flatten splits hsp train hn hplain hd
  refine ⟨parts, h1, ?_⟩
  rw [h2, gmCut, if_neg (by omega), List.take_length]

/-- C135 violated: if not, the last `n % splits` series are in no part. -/
theorem C135_split_lost_violated {α : Type} (splits : Nat) (hsp : 1 < splits)
    (train : List (GmKey × α)) (hn : splits ≤ train.length)
    (hplain : gmNpKeys (train.map (·.1)) = train.map (·.1)) (hd : (train.map (·.1)).Nodup)
    (h : train.length / splits < train.length % splits) :
    ∃ parts, gmSplit splits false train none = .ok parts ∧
      (parts.map (·.1)).flatten = train.take (train.length - train.length % splits) ∧
      (parts.map (·.1)).flatten ≠ train := by
  obtain ⟨parts, h1, h2⟩ := split_flatten splits hsp train hn hplain hd
  have e : gmCut train.length splits splits = train.length - train.length % splits := by
    rw [gmCut, if_pos (Or.inr h)]
    have := Nat.div_add_mod train.length splits
    omega
  refine ⟨parts, h1, by rw [h2, e], ?_⟩
  rw [h2, e]
  intro hc
  have := congrArg List.length hc
  rw [List.length_take, Nat.min_eq_left (Nat.sub_le _ _)] at this
  have h0 : 0 < train.length % splits := Nat.lt_of_le_of_lt (Nat.zero_le _) h
  omega

/-- Five series in three parts: the last two are lost. -/
example : (gmSplit 3 false [(.int 0, 'a'), (.int 1, 'b'), (.int 2, 'c'), (.int 3, 'd'), (.int 4, 'e')]
    none).toOption.map (fun ps => ps.map (·.1)) =
    some [[(.int 0, 'a')], [(.int 1, 'b')], [(.int 2, 'c')]] ∧ 5 / 3 < 5 % 3 := by decide

/-- Five series in two parts. -/
example : (gmSplit 2 false [(.int 0, 'a'), (.int 1, 'b'), (.int 2, 'c'), (.int 3, 'd'), (.int 4, 'e')]
    none).toOption.map (fun ps => ps.map (·.1)) =
    some [[(.int 0, 'a'), (.int 1, 'b')], [(.int 2, 'c'), (.int 3, 'd'), (.int 4, 'e')]] := by decide

/-- C135 violated: a dictionary with keys of both kinds is not found again. -/
theorem C135_mixed_keys_violated {α : Type} (x y : α) (valid : Option (List (GmKey × α)))
    (overlap : Bool) :
    gmSplit 1 overlap [(.str "a", x), (.int 1, y)] valid = .error .keyError := rfl

/-! ## `gmpreprocess` and `pad_ts` -/

/-- C135, the part that holds: for keys of one kind, `gmpreprocess` keeps the series that are, after
filling, long enough for a training or test part and a validation part; it cuts off the validation
part, `fcst_window * validation_step_num` rows (training) or `fcst_step_num * fcst_window` rows (test),
and what is left has enough rows for one pass (training) or one period (test). -/
theorem C135_preprocess_partial (p : GmParams) (timeCol : GmKey → String) (data filled : List (GmKey × GmTs))
    (mode : String) (need vl : Nat)
    (hmode : (mode = "train" ∧ need = p.inputWindow + p.fcstWindow * p.fcstSteps +
        p.minTrainNum * p.minTrainLen ∧ vl = p.fcstWindow * p.validSteps) ∨
      (mode = "test" ∧ need = p.seasonality ∧ vl = p.fcstSteps * p.fcstWindow))
    (hvl : 0 < vl)
    (hplain : gmNpKeys (data.map (·.1)) = data.map (·.1)) (hd : (data.map (·.1)).Nodup)
    (hfill : List.Forall₂ (fun d f => d.1 = f.1 ∧
      gmFill (timeCol d.1) d.2 p.seasonality p.freq = .ok f.2) data filled) :
    ∃ tr va, gmPreprocess p timeCol data mode true = .ok (tr, some va) ∧
      tr.length = va.length ∧
      List.zipWith (fun x y => (x.1, x.2 ++ y.2)) tr va =
        filled.filter (fun x => decide (need + vl ≤ x.2.length)) ∧
      tr.map (·.1) = va.map (·.1) ∧
      (∀ x ∈ va, x.2.length = vl) ∧ (∀ x ∈ tr, need ≤ x.2.length) := by
  have hmap : (data.map (·.1)).mapM (fun k => (do
      let ts ← gmLookup data k
      let f ← gmFill (timeCol k) ts p.seasonality p.freq
      return (k, f) : Except Err _)) = .ok filled := by
    have : ∀ (sub : List (GmKey × GmTs)) (fs : List (GmKey × GmTs)), (∀ x ∈ sub, x ∈ data) →
        List.Forall₂ (fun d f => d.1 = f.1 ∧
          gmFill (timeCol d.1) d.2 p.seasonality p.freq = .ok f.2) sub fs →
        (sub.map (·.1)).mapM (fun k => (do
          let ts ← gmLookup data k
          let f ← gmFill (timeCol k) ts p.seasonality p.freq
          return (k, f) : Except Err _)) = .ok fs := by
      intro sub fs hs hf
      induction hf with
      | nil => rfl
      | cons h _ ih =>
        rename_i d f ds fs' _
        rw [List.map_cons, List.mapM_cons, ih fun x hx => hs x (by simp [hx]),
          gmLookup_mem data hd d (hs d (by simp))]
        have e : (do
            let ts ← (Except.ok d.2 : Except Err GmTs)
            let f ← gmFill (timeCol d.1) ts p.seasonality p.freq
            pure (d.1, f) : Except Err (GmKey × GmTs)) = .ok f := by
          show (do
            let f ← gmFill (timeCol d.1) d.2 p.seasonality p.freq
            pure (d.1, f) : Except Err (GmKey × GmTs)) = .ok f
          rw [h.2, h.1]
          rfl
        rw [e]
        rfl
    exact this data filled (fun x hx => hx) hfill
  have hlen : gmLength p mode true = .ok (need + vl, vl) := by
    unfold gmLength
    rcases hmode with ⟨h1, h2, h3⟩ | ⟨h1, h2, h3⟩
    · rw [if_pos h1, h2, h3]; rfl
    · rw [if_neg (by rw [h1]; decide), if_pos h1, h2, h3, Nat.add_comm]
  obtain ⟨long, hlong⟩ : ∃ long, long = filled.filter (fun x => decide (need + vl ≤ x.2.length)) :=
    ⟨_, rfl⟩
  have hto : ∀ x ∈ long, pyTo x.2 (-(vl : Int)) = x.2.take (x.2.length - vl) ∧
      pyFrom x.2 (-(vl : Int)) = x.2.drop (x.2.length - vl) ∧ need + vl ≤ x.2.length := by
    intro x hx
    rw [hlong, List.mem_filter] at hx
    have h1 : need + vl ≤ x.2.length := by simpa using hx.2
    unfold pyTo pyFrom pyIdx
    rw [if_pos (by omega), show ((x.2.length : Int) + -(vl : Int)).toNat = x.2.length - vl by omega]
    exact ⟨rfl, rfl, h1⟩
  refine ⟨long.map fun x => (x.1, pyTo x.2 (-(vl : Int))),
    long.map fun x => (x.1, pyFrom x.2 (-(vl : Int))), ?_, by simp, ?_, by simp, ?_, ?_⟩
  · unfold gmPreprocess
    rw [hlen, hplain]
    show (do
      let filled ← (data.map (·.1)).mapM (fun k => (do
        let ts ← gmLookup data k
        let f ← gmFill (timeCol k) ts p.seasonality p.freq
        return (k, f) : Except Err _))
      _ : Except Err _) = _
    rw [hmap, hlong]
    rfl
  · rw [← hlong, List.zipWith_map, List.zipWith_self]
    conv_rhs => rw [← List.map_id long]
    apply List.map_congr_left
    intro x hx
    obtain ⟨h1, h2, _⟩ := hto x hx
    rw [h1, h2, List.take_append_drop]; rfl
  · intro y hy
    obtain ⟨x, hx, rfl⟩ := List.mem_map.mp hy
    obtain ⟨_, h2, h3⟩ := hto x hx
    simp only [h2, List.length_drop]
    omega
  · intro y hy
    obtain ⟨x, hx, rfl⟩ := List.mem_map.mp hy
    obtain ⟨h1, _, h3⟩ := hto x hx
    simp only [h1, List.length_take]
    omega

/-- Parameters for the examples: windows of two rows. -/
def gmExParams : GmParams := ⟨2, 2, 2, 1, 1, 1, 1, 1, 1, true, 3, 1 / 10, 10⟩

example : (gmPreprocess gmExParams (fun _ => "time")
    [(.int 0, [(0, some 1), (1, some 2), (2, some 3), (3, some 4), (4, some 5), (5, some 6), (6, some 7)]),
      (.int 1, [(0, some 1), (1, some 2), (2, some 3), (3, some 4), (4, some 5), (5, some 6)])] "train"
    true).toOption.map (fun r => r.1) =
    some [(.int 0, [(0, some 1), (1, some 2), (2, some 3), (3, some 4), (4, some 5)])] := by
  decide +kernel

/-- C135 violated: in test mode a series is dropped for want of a validation part even if none is
cut off. -/
theorem C135_test_length_violated : ∃ (p : GmParams) (ts : GmTs), p.seasonality ≤ ts.length ∧
    gmMinInput p ≤ ts.length ∧
    gmPreprocess p (fun _ => "time") [(.int 0, ts)] "test" false = .ok ([], none) :=
  ⟨gmExParams, [(0, some 1), (1, some 2), (2, some 3)], by decide, by decide, rfl⟩

/-- C135: without a validation part the whole filled series is kept, if it is long enough. -/
theorem C135_preprocess_all (p : GmParams) (timeCol : GmKey → String) (k : GmKey) (ts f : GmTs)
    (hf : gmFill (timeCol k) ts p.seasonality p.freq = .ok f) :
    gmPreprocess p timeCol [(k, ts)] "train" false =
      .ok (if p.inputWindow + p.fcstWindow * p.fcstSteps + p.minTrainNum * p.minTrainLen ≤ f.length then [(k, f)]
        else [], none) ∧
    gmPreprocess p timeCol [(k, ts)] "test" false =
      .ok (if p.fcstSteps * p.fcstWindow + p.seasonality ≤ f.length then [(k, f)] else [], none) := by
  have hk : gmNpKeys [k] = [k] := by cases k <;> rfl
  have hl : gmLookup [(k, ts)] k = .ok ts := by simp [gmLookup]
  constructor
  all_goals
    unfold gmPreprocess gmLength
    simp only [List.map_cons, List.map_nil, hk, List.mapM_cons, List.mapM_nil, hl]
    simp [bind, Except.bind, pure, Except.pure, hf, List.filter_cons]

example : (gmFill "time" [(0, some 1), (1, some 2), (3, some 4)] 2 1).toOption =
    some [(0, some 1), (1, some 2), (2, none), (3, some 4)] := by decide +kernel

/-- C135: any other mode is an error. -/
theorem C135_mode (p : GmParams) (timeCol : GmKey → String) (data : List (GmKey × GmTs)) (mode : String)
    (h1 : mode ≠ "train") (h2 : mode ≠ "test") (validSet : Bool) :
    gmPreprocess p timeCol data mode validSet = .error .valueError := by
  unfold gmPreprocess gmLength
  rw [if_neg h1, if_neg h2]
  rfl

example : "valid" ≠ "train" ∧ "valid" ≠ "test" := by decide

/-- C135, the part that holds: `pad_ts` puts one row before the series, `n` steps earlier, with the
first value that is not missing. -/
theorem C135_pad_partial (ts : GmTs) (n freq : Int) (hn : 1 ≤ n) (hf : 0 < freq)
    (hp : ts.Pairwise (fun a b => a.1 < b.1)) (a v : Int × Option Rat) (ha : ts.head? = some a)
    (pre post : GmTs) (hv : ts = pre ++ v :: post) (hpre : ∀ r ∈ pre, r.2 = none) (hv' : v.2 ≠ none) :
    gmPad ts n freq = .ok ((a.1 - n * freq, v.2) :: ts) := by
  unfold gmPad
  have hfind : ts.find? (fun r => r.2.isSome) = some v := by
    rw [hv, List.find?_append, List.find?_eq_none.mpr (by
      intro r hr; rw [hpre r hr]; simp)]
    simp only [Option.none_or]
    rw [List.find?_cons_of_pos]
    cases h : v.2
    · exact absurd h hv'
    · rfl
  rw [if_neg (by omega), ha, hfind]
  simp only []
  congr 1
  have hnf : 0 < n * freq := mul_pos (by omega) hf
  have hlt : ∀ r ∈ ts, a.1 - n * freq < r.1 := by
    intro r hr
    cases ts with
    | nil => simp at hr
    | cons b ts =>
      simp only [List.head?_cons, Option.some.injEq] at ha
      subst ha
      rw [List.pairwise_cons] at hp
      rcases List.mem_cons.mp hr with h | h
      · rw [h]; omega
      · have := hp.1 r h; omega
  have hsorted : ((a.1 - n * freq, v.2) :: ts).Pairwise (fun a b => a.1 < b.1) :=
    List.pairwise_cons.mpr ⟨hlt, hp⟩
  have hperm : ((ts ++ [(a.1 - n * freq, v.2)]).mergeSort fun x y => decide (x.1 ≤ y.1)).Perm
      ((a.1 - n * freq, v.2) :: ts) :=
    (List.mergeSort_perm _ _).trans (List.perm_append_singleton _ _)
  have hms : ((ts ++ [(a.1 - n * freq, v.2)]).mergeSort fun x y => decide (x.1 ≤ y.1)).Pairwise
      (fun x y => x.1 ≤ y.1) := by
    have := List.pairwise_mergeSort (le := fun x y : Int × Option Rat => decide (x.1 ≤ y.1))
      (by intro a b c h1 h2; simp at *; omega) (by intro a b; simp; omega)
      (ts ++ [(a.1 - n * freq, v.2)])
    exact this.imp fun h => by simpa using h
  have hinj : ∀ x y, x ∈ ((a.1 - n * freq, v.2) :: ts) → y ∈ ((a.1 - n * freq, v.2) :: ts) →
      x.1 = y.1 → x = y := by
    intro x y hx hy hxy
    obtain ⟨i, hi, rfl⟩ := List.mem_iff_getElem.mp hx
    obtain ⟨j, hj, rfl⟩ := List.mem_iff_getElem.mp hy
    rcases Nat.lt_trichotomy i j with h | h | h
    · have := List.pairwise_iff_getElem.mp hsorted i j hi hj h; omega
    · subst h; rfl
    · have := List.pairwise_iff_getElem.mp hsorted j i hj hi h; omega
  exact hperm.eq_of_pairwise (le := fun x y => x.1 ≤ y.1)
    (fun x y hx hy h1 h2 => hinj x y (hperm.mem_iff.mp hx) hy (le_antisymm h1 h2))
    hms (hsorted.imp fun h => le_of_lt h)

example : gmPad [(10, none), (11, some 5)] 3 1 = .ok [(7, some 5), (10, none), (11, some 5)] :=
  C135_pad_partial _ 3 1 (by decide) (by decide) (by simp) (10, none) (11, some 5) rfl [(10, none)] []
    rfl (by simp) (by simp)

/-- C135 violated: whatever `n`, the length grows by one only. -/
theorem C135_pad_violated (ts out : GmTs) (n freq : Int) (h : gmPad ts n freq = .ok out) :
    out.length = ts.length + 1 := by
  unfold gmPad at h
  by_cases hn : n < 1
  · rw [if_pos hn] at h; simp at h
  · rw [if_neg hn] at h
    split at h
    · injection h with h
      rw [← h, List.length_mergeSort, List.length_append, List.length_singleton]
    · simp at h

end Kats

import Verif.Model.MetaHpt
import Verif.Props.MetaPredict
import Verif.Props.GmNet

/-!
# C149: the data and the network of the recommendation of parameters
-/

namespace Kats

section
variable {V K : Type} [DecidableEq V] [Field K] [LinearOrder K]

/-! ## The data -/

/-- What is kept of a frame of features and one of parameters: the names, for each categorical parameter its different values, the number of each value among
them, and the columns of the numerical parameters. -/
def HpData (fx : List String × List (List (Option K))) (fy : List (String × List (Option V))) (c : List String) (n : Option (List String)) (s : Hp V K) : Prop :=
  s.cat = c ∧ s.num = n ∧ s.dim = fx.1.length ∧ s.x.length = fx.2.length ∧
    List.Forall₂ (fun name (cl : List V) => ∃ col, fy.lookup name = some col ∧ cl.Nodup ∧ cl.length ≠ 1 ∧ ∀ v, v ∈ cl ↔ some v ∈ col) c s.classes ∧
    s.nCat = s.classes.map List.length ∧
    List.Forall₂ (fun name (e : List V × List (Option Nat)) => ∃ col, fy.lookup name = some col ∧ e.2.length = col.length ∧
      ∀ (i : Nat) (v : Option V), col[i]? = some v → ∃ k, e.2[i]? = some k ∧ (k = none ↔ v = none) ∧ ∀ j, k = some j → e.1[j]? = v) c (s.classes.zip s.codes) ∧
    s.classes.length = s.codes.length ∧
    List.Forall₂ (fun name col => fy.lookup name = some col) (n.getD []) s.target

theorem hp_lookup_mapM {α : Type} (fy : List (String × α)) (c : List String) (l : List α) :
    (c.mapM fun n => needKey (fy.lookup n)) = Except.ok l ↔ List.Forall₂ (fun n col => fy.lookup n = some col) c l := by
  constructor
  · intro h
    have := mapM_forall2 _ _ _ h
    refine this.imp ?_
    intro n col h
    rcases hl : fy.lookup n with _ | v
    · rw [hl] at h
      cases h
    · rw [hl] at h
      injection h with h
      rw [h]
  · intro h
    induction h with
    | nil => rfl
    | @cons a b l1 l2 hab h ih =>
      rw [List.mapM_cons, hab, ih]
      rfl

theorem hp_lookup_exists {α : Type} (fy : List (String × α)) (c : List String) (h : ∀ n ∈ c, ∃ col, fy.lookup n = some col) :
    ∃ l, List.Forall₂ (fun n col => fy.lookup n = some col) c l := by
  induction c with
  | nil => exact ⟨[], .nil⟩
  | cons a c ih =>
    obtain ⟨l, hl⟩ := ih fun n hn => h n (List.mem_cons_of_mem _ hn)
    obtain ⟨b, hb⟩ := h a List.mem_cons_self
    exact ⟨b :: l, .cons hb hl⟩

theorem hp_distinct (l : List (Option V)) : (hpDistinct l).Nodup ∧ ∀ v, v ∈ hpDistinct l ↔ some v ∈ l := by
  refine ⟨List.nodup_dedup _, fun v => ?_⟩
  unfold hpDistinct
  rw [List.mem_dedup, List.mem_filterMap]
  constructor
  · rintro ⟨a, ha, h⟩
    rw [← (show a = some v from h)]
    exact ha
  · exact fun h => ⟨some v, h, rfl⟩

theorem hp_one (l : List (Option V)) : (hpDistinct l).length = 1 ↔ ∃ v, some v ∈ l ∧ ∀ w, some w ∈ l → w = v := by
  obtain ⟨hn, hm⟩ := hp_distinct l
  constructor
  · intro h
    obtain ⟨v, hv⟩ := List.length_eq_one_iff.1 h
    refine ⟨v, (hm v).1 (by rw [hv]; exact List.mem_singleton_self v), fun w hw => ?_⟩
    have := (hm w).2 hw
    rw [hv] at this
    exact List.mem_singleton.1 this
  · rintro ⟨v, hv, hw⟩
    have h1 := (hm v).2 hv
    have h2 : ∀ w ∈ hpDistinct l, w = v := fun w h => hw w ((hm w).1 h)
    rcases hd : hpDistinct l with _ | ⟨a, t⟩
    · rw [hd] at h1
      exact absurd h1 List.not_mem_nil
    · rw [hd] at h2 hn
      rcases t with _ | ⟨b, t⟩
      · rfl
      · have e1 := h2 a List.mem_cons_self
        have e2 := h2 b (List.mem_cons_of_mem _ List.mem_cons_self)
        rw [e1, e2] at hn
        simp at hn

theorem hp_names_none (cat num : Option (List String)) : hpNames cat num none = .ok (cat, num) := rfl

/-- A successful start, step by step. -/
theorem hp_init_ok (sort : List V → List V) (std : List K → K) (a : HpArgs V K) (fx : List String × List (List (Option K)))
    (fy : List (String × List (Option V))) (hx : a.dataX = some fx) (hy : a.dataY = some fy) (hl : a.load = false) (o : Option (Hp V K)) :
    hpInit sort std a = .ok o ↔ ∃ (names : Option (List String) × Option (List String)) (target cols : List (List (Option V))) (c : List String),
      hpNames a.cat a.num (a.default.map String.toLower) = .ok names ∧ ¬ ((names.2.getD []).isEmpty = true ∧ (names.1.getD []).isEmpty = true) ∧
      List.Forall₂ (fun n col => fy.lookup n = some col) (names.2.getD []) target ∧ List.Forall₂ (fun n col => fy.lookup n = some col) (names.1.getD []) cols ∧
      hpValidate names.1 names.2 (cols.map fun l => (hpDistinct l).length) fy.length fx.2.length = .ok c ∧
      o = some
          { x := if a.scale then (fx.2.map fun r => r.map fun v => v.getD 0).map fun r => List.zipWith (fun a b => a / b)
              (List.zipWith (fun a b => a - b) r (msMean fx.1.length (fx.2.map fun r => r.map fun v => v.getD 0)))
              (msStd std fx.1.length (fx.2.map fun r => r.map fun v => v.getD 0)) else fx.2.map fun r => r.map fun v => v.getD 0
            dim := fx.1.length
            cat := c
            num := names.2
            classes := cols.map fun l => sort (hpDistinct l)
            codes := List.zipWith (fun l c => l.map fun v => v.bind fun v => c.idxOf? v) cols (cols.map fun l => sort (hpDistinct l))
            nCat := cols.map fun l => (hpDistinct l).length
            target := target
            default := a.default.map String.toLower
            scale := if a.scale then some (msMean fx.1.length (fx.2.map fun r => r.map fun v => v.getD 0),
              msStd std fx.1.length (fx.2.map fun r => r.map fun v => v.getD 0)) else none } := by
  unfold hpInit
  rw [hl, hx, hy, if_neg (by simp)]
  simp only []
  constructor
  · intro h
    obtain ⟨names, hn, h⟩ := (gm_bind_ok _ _ _).1 h
    split at h
    · cases h
    rename_i hne
    obtain ⟨target, ht, h⟩ := (gm_bind_ok _ _ _).1 h
    obtain ⟨cols, hc, h⟩ := (gm_bind_ok _ _ _).1 h
    obtain ⟨c, hv, h⟩ := (gm_bind_ok _ _ _).1 h
    injection h with h
    rw [List.length_map] at hv
    exact ⟨names, target, cols, c, hn, hne, (hp_lookup_mapM _ _ _).1 ht, (hp_lookup_mapM _ _ _).1 hc, hv, h.symm⟩
  · rintro ⟨names, target, cols, c, hn, hne, ht, hc, hv, rfl⟩
    refine (gm_bind_ok _ _ _).2 ⟨names, hn, ?_⟩
    rw [if_neg hne]
    refine (gm_bind_ok _ _ _).2 ⟨target, (hp_lookup_mapM _ _ _).2 ht, ?_⟩
    refine (gm_bind_ok _ _ _).2 ⟨cols, (hp_lookup_mapM _ _ _).2 hc, ?_⟩
    refine (gm_bind_ok _ _ _).2 ⟨c, by rw [List.length_map]; exact hv, rfl⟩

theorem hp_validate (cat num : Option (List String)) (nCat : List Nat) (dim rows : Nat) (c : List String) :
    hpValidate cat num nCat dim rows = .ok c ↔ cat = some c ∧ c.length + (num.getD []).length = dim ∧ (∀ k ∈ nCat, k ≠ 1) ∧ 30 < rows := by
  unfold hpValidate
  constructor
  · intro h
    split at h
    · cases h
    rename_i h1
    rw [not_not] at h1
    rcases cat with _ | c'
    · cases h
    · simp only [] at h
      split at h
      · cases h
      rename_i h2
      split at h
      · cases h
      rename_i h3
      injection h with h
      subst h
      refine ⟨rfl, h1, ?_, by omega⟩
      intro k hk h
      exact h2 (List.any_eq_true.2 ⟨k, hk, by simpa using h⟩)
  · rintro ⟨rfl, h1, h2, h3⟩
    rw [if_neg (show ¬ ((some c).getD []).length + (num.getD []).length ≠ dim from not_not.2 h1)]
    simp only []
    rw [if_neg, if_neg (by omega)]
    intro h
    obtain ⟨k, hk, h⟩ := List.any_eq_true.1 h
    exact h2 k hk (by simpa using h)

theorem hp_codes (sort : List V → List V) (hsort : ∀ l, (sort l).Perm l) (col : List (Option V)) :
    (sort (hpDistinct col)).Nodup ∧ (sort (hpDistinct col)).length = (hpDistinct col).length ∧ (∀ v, v ∈ sort (hpDistinct col) ↔ some v ∈ col) ∧
      ∀ (i : Nat) (v : Option V), col[i]? = some v → ∃ k, (col.map fun v => v.bind fun v => (sort (hpDistinct col)).idxOf? v)[i]? = some k ∧
        (k = none ↔ v = none) ∧ ∀ j, k = some j → (sort (hpDistinct col))[j]? = v := by
  obtain ⟨hn, hm⟩ := hp_distinct col
  have hp := hsort (hpDistinct col)
  have hm' : ∀ v, v ∈ sort (hpDistinct col) ↔ some v ∈ col := fun v => by rw [hp.mem_iff, hm]
  refine ⟨hp.nodup_iff.2 hn, hp.length_eq, hm', ?_⟩
  intro i v hv
  rw [List.getElem?_map, hv]
  refine ⟨_, rfl, ?_, ?_⟩
  · rcases v with _ | v
    · exact ⟨fun _ => rfl, fun _ => rfl⟩
    · constructor
      · intro h
        have h' : List.idxOf? v (sort (hpDistinct col)) = none := h
        rw [List.idxOf?_eq_none_iff] at h'
        exact absurd ((hm' v).2 (List.mem_of_getElem? hv)) h'
      · intro h
        cases h
  · intro j hj
    rcases v with _ | v
    · cases hj
    · have h' : List.idxOf? v (sort (hpDistinct col)) = some j := hj
      rw [List.idxOf?, List.findIdx?_eq_some_iff_getElem] at h'
      obtain ⟨hlt, he, _⟩ := h'
      rw [List.getElem?_eq_getElem hlt]
      congr 1
      simpa using he

/-- C149, the part that holds: with names of categorical parameters (perhaps none of them), data are accepted exactly if there is a name, all names are columns, as many as there
are, no categorical parameter has only one value, and there are more than 30 rows of features.  Each categorical parameter has its different values as classes, and the code of
a row stands for its value. -/
theorem C149_init_partial (sort : List V → List V) (hsort : ∀ l, (sort l).Perm l) (std : List K → K) (a : HpArgs V K)
    (fx : List String × List (List (Option K))) (fy : List (String × List (Option V))) (hx : a.dataX = some fx) (hy : a.dataY = some fy)
    (hl : a.load = false) (hd : a.default = none) (c : List String) (hc : a.cat = some c) :
    ((∃ s, hpInit sort std a = .ok (some s)) ↔ (c ≠ [] ∨ a.num.getD [] ≠ []) ∧ (∀ n ∈ c ++ a.num.getD [], ∃ col, fy.lookup n = some col) ∧
      c.length + (a.num.getD []).length = fy.length ∧
      (∀ n ∈ c, ∀ col, fy.lookup n = some col → ¬ ∃ v, some v ∈ col ∧ ∀ w, some w ∈ col → w = v) ∧ 30 < fx.2.length) ∧
    ∀ s, hpInit sort std a = .ok (some s) → HpData fx fy c a.num s ∧ s.default = none := by
  have hnames : hpNames a.cat a.num (a.default.map String.toLower) = .ok (some c, a.num) := by
    rw [hd, hc]
    rfl
  refine ⟨⟨?_, ?_⟩, ?_⟩
  · rintro ⟨s, hs⟩
    obtain ⟨names, target, cols, c', hn, hne, ht, hcols, hv, _⟩ := (hp_init_ok sort std a fx fy hx hy hl _).1 hs
    rw [hnames] at hn
    injection hn with hn
    subst hn
    simp only [Option.getD_some] at hne ht hcols hv
    obtain ⟨e, h1, h2, h3⟩ := (hp_validate _ _ _ _ _ _).1 hv
    injection e with e
    subst e
    refine ⟨?_, ?_, h1, ?_, h3⟩
    · by_contra hcon
      push Not at hcon
      exact hne ⟨by rw [hcon.2]; rfl, by rw [hcon.1]; rfl⟩
    · intro n hn
      rcases List.mem_append.1 hn with hn | hn
      · obtain ⟨k, hk, rfl⟩ := List.mem_iff_getElem.1 hn
        exact ⟨_, (List.forall₂_iff_get.1 hcols).2 k hk (by rw [← hcols.length_eq]; exact hk)⟩
      · obtain ⟨k, hk, rfl⟩ := List.mem_iff_getElem.1 hn
        exact ⟨_, (List.forall₂_iff_get.1 ht).2 k hk (by rw [← ht.length_eq]; exact hk)⟩
    · intro n hn col hcol hone
      obtain ⟨k, hk, rfl⟩ := List.mem_iff_getElem.1 hn
      have hk' : k < cols.length := by rw [← hcols.length_eq]; exact hk
      have := (List.forall₂_iff_get.1 hcols).2 k hk hk'
      simp only [List.get_eq_getElem] at this
      rw [hcol] at this
      injection this with this
      exact h2 _ (List.mem_map.2 ⟨cols[k], List.getElem_mem hk', rfl⟩) ((hp_one _).2 (this ▸ hone))
  · rintro ⟨h1, h2, h3, h4, h5⟩
    obtain ⟨cols, hcols⟩ := hp_lookup_exists fy c fun n hn => h2 n (List.mem_append_left _ hn)
    obtain ⟨target, ht⟩ := hp_lookup_exists fy (a.num.getD []) fun n hn => h2 n (List.mem_append_right _ hn)
    refine ⟨_, (hp_init_ok sort std a fx fy hx hy hl _).2 ⟨(some c, a.num), target, cols, c, hnames, ?_, ht, hcols, (hp_validate _ _ _ _ _ _).2 ⟨rfl, h3, ?_, h5⟩, rfl⟩⟩
    · rintro ⟨e1, e2⟩
      rw [List.isEmpty_iff] at e1 e2
      rcases h1 with h1 | h1
      · exact h1 e2
      · exact h1 e1
    · intro k hk hone
      obtain ⟨col, hcol, rfl⟩ := List.mem_map.1 hk
      obtain ⟨j, hj, rfl⟩ := List.mem_iff_getElem.1 hcol
      have hj' : j < c.length := by rw [hcols.length_eq]; exact hj
      exact h4 _ (List.getElem_mem hj') _ ((List.forall₂_iff_get.1 hcols).2 j hj' hj) ((hp_one _).1 hone)
  · intro s hs
    obtain ⟨names, target, cols, c', hn, hne, ht, hcols, hv, e⟩ := (hp_init_ok sort std a fx fy hx hy hl _).1 hs
    rw [hnames] at hn
    injection hn with hn
    subst hn
    simp only [Option.getD_some] at hne ht hcols hv
    obtain ⟨e', h1, h2, h3⟩ := (hp_validate _ _ _ _ _ _).1 hv
    injection e' with e'
    subst e'
    injection e with e
    subst e
    refine ⟨⟨rfl, rfl, rfl, ?_, ?_, ?_, ?_, ?_, ht⟩, by simp [hd]⟩
    · show (if a.scale = true then _ else _ : List (List K)).length = _
      split <;> simp
    · show List.Forall₂ _ c (cols.map _)
      rw [List.forall₂_map_right_iff]
      have hz : ∀ col ∈ cols, (hpDistinct col).length ≠ 1 := fun col h => h2 _ (List.mem_map.2 ⟨col, h, rfl⟩)
      clear * - hcols hsort hz
      induction hcols with
      | nil => exact .nil
      | @cons n col l1 l2 h hs ih =>
        obtain ⟨g1, g2, g3, _⟩ := hp_codes sort hsort col
        exact .cons ⟨col, h, g1, by rw [g2]; exact hz col List.mem_cons_self, g3⟩ (ih fun x hx => hz x (List.mem_cons_of_mem _ hx))
    · show cols.map _ = (cols.map _).map _
      rw [List.map_map]
      apply List.map_congr_left
      intro col _
      exact (hp_codes sort hsort col).2.1.symm
    · show List.Forall₂ _ c ((cols.map _).zip (List.zipWith _ cols (cols.map _)))
      clear * - hcols hsort
      induction hcols with
      | nil => exact .nil
      | @cons n col l1 l2 h hs ih =>
        refine .cons ⟨col, h, ?_, (hp_codes sort hsort col).2.2.2⟩ ih
        simp
    · simp

/-- C149 violated: there should be no need of a categorical parameter.  If `categorical_idx` is missing, as it is by default, all data that would be accepted with an empty list are
refused with a `TypeError`. -/
theorem C149_numeric_violated (sort : List V → List V) (std : List K → K) (a : HpArgs V K) (hc : a.cat = none) (s : Hp V K)
    (h : hpInit sort std { a with cat := some [] } = .ok (some s)) (hd : a.default = none) : hpInit sort std a = .error .typeError := by
  rcases hl : a.load with _ | _
  swap
  · unfold hpInit at h
    simp only [hl, if_true] at h
    cases h
  rcases hx : a.dataX with _ | fx
  · unfold hpInit at h
    simp only [hl, hx] at h
    cases h
  rcases hy : a.dataY with _ | fy
  · unfold hpInit at h
    simp only [hl, hx, hy] at h
    cases h
  obtain ⟨names, target, cols, c', hn, hne, ht, hcols, hv, _⟩ := (hp_init_ok sort std { a with cat := some [] } fx fy hx hy hl _).1 h
  simp only [hd, Option.map_none] at hn
  injection hn with hn
  subst hn
  obtain ⟨e, h1, _, _⟩ := (hp_validate _ _ _ _ _ _).1 hv
  injection e with e
  subst e
  simp only [Option.getD_some] at hne ht hcols
  unfold hpInit
  rw [hl, hx, hy, if_neg (by simp), hd, hc]
  simp only [Option.map_none]
  show (if (a.num.getD []).isEmpty = true ∧ ((none : Option (List String)).getD []).isEmpty = true then _ else _) = _
  rw [if_neg (show ¬ ((a.num.getD []).isEmpty = true ∧ ((none : Option (List String)).getD []).isEmpty = true) from hne)]
  show ((a.num.getD []).mapM (fun c => needKey (fy.lookup c)) >>= _) = _
  rw [(hp_lookup_mapM fy (a.num.getD []) target).2 ht]
  show (hpValidate none a.num _ fy.length _ >>= _) = _
  unfold hpValidate
  rw [if_neg (show ¬ ((none : Option (List String)).getD []).length + (a.num.getD []).length ≠ fy.length from not_not.2 h1)]
  rfl

end

/-- Data for the examples: 33 rows with one feature, a categorical and a numerical parameter. -/
def hpExArgs : HpArgs Rat Rat :=
  { dataX := some (["f"], (List.range 33).map fun i => [if i = 4 then none else some ((i % 3 : Nat) : Rat)])
    dataY := some [("p", (List.range 33).map fun i => some ((i % 2 : Nat) : Rat)), ("q", (List.range 33).map fun i => some (i : Rat))]
    cat := some ["p"]
    num := some ["q"]
    default := none
    scale := false
    load := false }

example : ((hpInit (List.insertionSort (· ≤ ·)) (fun _ => 1) hpExArgs).toOption.bind fun o => o.map fun s => s.x.take 5) = some [[0], [1], [2], [0], [0]] ∧
    ((hpInit (List.insertionSort (· ≤ ·)) (fun _ => 1) hpExArgs).toOption.bind fun o => o.map fun s => s.classes) = some [[0, 1]] ∧
    ((hpInit (List.insertionSort (· ≤ ·)) (fun _ => 1) hpExArgs).toOption.bind fun o => o.map fun s => s.codes.map (·.take 3)) = some [[some 0, some 1, some 0]] := by
  refine ⟨?_, ?_, ?_⟩ <;> decide +kernel

/-- One class only, a column without a name, 30 rows, or no categorical parameter: refused. -/
example : (hpInit (List.insertionSort (· ≤ ·)) (fun _ => 1) { hpExArgs with dataY := some [("p", (List.range 33).map fun _ => some 7), ("q", (List.range 33).map fun i => some (i : Rat))] }).toOption.isNone = true ∧
    (hpInit (List.insertionSort (· ≤ ·)) (fun _ => 1) { hpExArgs with num := none }).toOption.isNone = true ∧
    (hpInit (List.insertionSort (· ≤ ·)) (fun _ => 1) { hpExArgs with dataX := some (["f"], (List.range 30).map fun i => [some (i : Rat)]) }).toOption.isNone = true ∧
    (hpInit (List.insertionSort (· ≤ ·)) (fun _ => 1) { hpExArgs with dataY := some [("q", (List.range 33).map fun i => some (i : Rat))], cat := none }).toOption.isNone = true ∧
    (hpInit (List.insertionSort (· ≤ ·)) (fun _ => 1) { hpExArgs with dataY := some [("q", (List.range 33).map fun i => some (i : Rat))], cat := some [] }).toOption.isSome = true := by
  refine ⟨?_, ?_, ?_, ?_, ?_⟩ <;> decide +kernel

end Kats

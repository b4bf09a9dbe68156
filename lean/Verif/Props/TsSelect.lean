import Verif.Model.TsSelect
import Verif.Lemmas.MapM
import Mathlib.Data.List.Nodup
import Mathlib.Data.List.Induction
import Mathlib.Data.List.Perm.Basic

/-!
# Selection of features: C108
-/

namespace Kats

theorem tsMembers_of_mem : ∀ p ∈ tsGroups, tsMembers p.1 = some p.2 := by decide +kernel

theorem tsGroupOf_of_mem : ∀ p ∈ tsGroups, ∀ f ∈ p.2, tsGroupOf f = some p.1 := by decide +kernel

theorem tsGroupOf_group : ∀ p ∈ tsGroups, tsGroupOf p.1 = none := by decide +kernel

theorem tsOrder_mem : ∀ p ∈ tsGroups, p.1 ∈ tsOrder := by decide +kernel

theorem tsMembers_some {name : String} {fs : List String} (h : tsMembers name = some fs) : (name, fs) ∈ tsGroups := by
  unfold tsMembers at h
  obtain ⟨p, hp, rfl⟩ := Option.map_eq_some_iff.1 h
  have h1 := List.find?_some hp
  have h2 := List.mem_of_find?_eq_some hp
  simp only [beq_iff_eq] at h1
  rw [← h1]
  exact h2

theorem tsGroupOf_some {f g : String} (h : tsGroupOf f = some g) : ∃ fs, (g, fs) ∈ tsGroups ∧ f ∈ fs := by
  unfold tsGroupOf at h
  obtain ⟨p, hp, rfl⟩ := Option.map_eq_some_iff.1 h
  have h1 := List.find?_some hp
  have h2 := List.mem_of_find?_eq_some hp
  simp only [List.contains_iff_mem] at h1
  exact ⟨p.2, List.mem_reverse.1 h2, h1⟩

theorem tsGroupOf_iff {f g : String} : tsGroupOf f = some g ↔ ∃ fs, (g, fs) ∈ tsGroups ∧ f ∈ fs :=
  ⟨tsGroupOf_some, fun ⟨_, h, hf⟩ => tsGroupOf_of_mem _ h _ hf⟩

theorem tsMembers_iff {g : String} {fs : List String} : tsMembers g = some fs ↔ (g, fs) ∈ tsGroups :=
  ⟨tsMembers_some, fun h => tsMembers_of_mem _ h⟩

/-- The switches after the elements `P` have been selected. -/
def selKw (kw0 : Kw) (P : List String) : Kw := fun x =>
  match tsGroupOf x with
  | some g => if x ∈ P then some true else if g ∈ P then some ((kw0 x).getD true) else kw0 x
  | none => if x ∈ P ∨ ∃ f ∈ P, tsGroupOf f = some x then some true else kw0 x

/-- The filter after the elements `P` have been selected. -/
def selFilter (P : List String) : Kw := fun x => (tsGroupOf x).map fun g => decide (x ∈ P ∨ g ∈ P)

theorem selectMember_fold (fs : List String) (hn : fs.Nodup) (s : SelState) :
    fs.foldl selectMember s
      = ⟨fun x => if x ∈ fs then some ((s.kw x).getD true) else s.kw x,
         fun x => if x ∈ fs then some true else s.filter x⟩ := by
  induction fs generalizing s with
  | nil => simp
  | cons a t ih =>
    obtain ⟨ha, ht⟩ := List.nodup_cons.1 hn
    rw [List.foldl_cons, ih ht]
    unfold selectMember Kw.set
    dsimp only
    congr 1
    · funext x
      by_cases hx : x = a
      · subst hx
        simp [ha]
      · simp [hx]
    · funext x
      by_cases hx : x = a
      · subst hx
        simp
      · simp [hx]

theorem tsMembers_nodup : ∀ p ∈ tsGroups, p.2.Nodup := by decide +kernel

/-- One more element: what is needed for success, and the result. -/
theorem selectOne_spec (kw0 : Kw) (P : List String) (f : String) (s : SelState)
    (h : selectOne ⟨selKw kw0 P, selFilter P⟩ f = .ok s) (hP : ∀ x ∈ P, (tsGroupOf x).isSome → kw0 x ≠ some false) :
    s = ⟨selKw kw0 (P ++ [f]), selFilter (P ++ [f])⟩ ∧ tsKnown f = true ∧
      ((tsGroupOf f).isSome → kw0 f ≠ some false) ∧
      (∀ g, tsGroupOf f = some g → kw0 g ≠ some false ∨ g ∈ P ∨ ∃ f' ∈ P, tsGroupOf f' = some g) := by
  unfold selectOne at h
  split at h
  · simp at h
  rename_i hk
  have hk : tsKnown f = true := by simpa using hk
  refine ⟨?_, hk, ?_, ?_⟩ <;> split at h
  · -- a group
    rename_i fs hfs
    have hmem := tsMembers_some hfs
    have hgf : tsGroupOf f = none := tsGroupOf_group _ hmem
    injection h with h
    rw [selectMember_fold _ (tsMembers_nodup _ hmem)] at h
    rw [← h]
    have hin : ∀ x, x ∈ fs ↔ tsGroupOf x = some f := by
      intro x
      refine ⟨fun hx => tsGroupOf_of_mem _ hmem _ hx, fun hx => ?_⟩
      obtain ⟨fs', h1, h2⟩ := tsGroupOf_some hx
      have h3 := tsMembers_of_mem _ h1
      dsimp only at h3
      rw [hfs] at h3
      injection h3 with h3
      rw [h3]
      exact h2
    congr 1
    · funext x
      dsimp only
      unfold Kw.set selKw
      by_cases hxf : tsGroupOf x = some f
      · have hne : x ≠ f := by rintro rfl; rw [hgf] at hxf; simp at hxf
        rw [if_pos ((hin x).2 hxf), if_neg hne, hxf]
        dsimp only
        by_cases hxP : x ∈ P
        · simp [hxP]
        · by_cases hfP : f ∈ P
          · simp [hxP, hne, hfP]
          · simp [hxP, hne, hfP]
      · rw [if_neg (fun hx => hxf ((hin x).1 hx))]
        by_cases hne : x = f
        · subst hne
          simp [hgf]
        · rw [if_neg hne]
          cases hg : tsGroupOf x with
          | none =>
            dsimp only
            have hff : tsGroupOf f ≠ some x := by rw [hgf]; simp
            refine if_congr ?_ rfl rfl
            constructor
            · rintro (hh | ⟨y, hy, hy2⟩)
              · exact Or.inl (List.mem_append_left _ hh)
              · exact Or.inr ⟨y, List.mem_append_left _ hy, hy2⟩
            · rintro (hh | ⟨y, hy, hy2⟩)
              · rcases List.mem_append.1 hh with h1 | h1
                · exact Or.inl h1
                · exact absurd (List.mem_singleton.1 h1) hne
              · rcases List.mem_append.1 hy with h1 | h1
                · exact Or.inr ⟨y, h1, hy2⟩
                · rw [List.mem_singleton.1 h1] at hy2
                  exact absurd hy2 hff
          | some g =>
            have hgne : g ≠ f := by rintro rfl; exact hxf hg
            simp [hne, hgne]
    · funext x
      dsimp only
      unfold selFilter
      by_cases hxf : tsGroupOf x = some f
      · rw [if_pos ((hin x).2 hxf), hxf]
        simp
      · rw [if_neg (fun hx => hxf ((hin x).1 hx))]
        cases hg : tsGroupOf x with
        | none => simp
        | some g =>
          have hgne : g ≠ f := by rintro rfl; exact hxf hg
          have hne : x ≠ f := by rintro rfl; rw [hgf] at hg; simp at hg
          simp [hne, hgne]
  · -- a feature
    rename_i hmf
    split at h
    · rename_i g hg
      split at h
      · simp at h
      split at h
      · simp at h
      injection h with h
      rename_i h1 h2
      rw [← h]
      obtain ⟨fs, hgm, -⟩ := tsGroupOf_some hg
      have hgg : tsGroupOf g = none := tsGroupOf_group _ hgm
      congr 1
      · funext x
        dsimp only
        unfold Kw.set selKw
        by_cases hxf : x = f
        · subst hxf
          simp [hg]
        · rw [if_neg hxf]
          by_cases hxg : x = g
          · subst hxg
            simp [hgg, hg]
          · rw [if_neg hxg]
            cases hgx : tsGroupOf x with
            | none =>
              dsimp only
              have hff : tsGroupOf f ≠ some x := by
                rw [hg]
                intro hh
                injection hh with hh
                exact hxg hh.symm
              refine if_congr ?_ rfl rfl
              constructor
              · rintro (hh | ⟨y, hy, hy2⟩)
                · exact Or.inl (List.mem_append_left _ hh)
                · exact Or.inr ⟨y, List.mem_append_left _ hy, hy2⟩
              · rintro (hh | ⟨y, hy, hy2⟩)
                · rcases List.mem_append.1 hh with h1 | h1
                  · exact Or.inl h1
                  · exact absurd (List.mem_singleton.1 h1) hxf
                · rcases List.mem_append.1 hy with h1 | h1
                  · exact Or.inr ⟨y, h1, hy2⟩
                  · rw [List.mem_singleton.1 h1] at hy2
                    exact absurd hy2 hff
            | some g' =>
              have hg'f : g' ≠ f := by
                rintro rfl
                obtain ⟨fs', hgm', -⟩ := tsGroupOf_some hgx
                have := tsGroupOf_group _ hgm'
                dsimp only at this
                rw [hg] at this
                simp at this
              simp [hxf, hg'f]
      · funext x
        dsimp only
        unfold Kw.set selFilter
        by_cases hxf : x = f
        · subst hxf
          simp [hg]
        · rw [if_neg hxf]
          cases hgx : tsGroupOf x with
          | none => simp
          | some g' =>
            have hg'f : g' ≠ f := by
              rintro rfl
              obtain ⟨fs', hgm', -⟩ := tsGroupOf_some hgx
              have := tsGroupOf_group _ hgm'
              dsimp only at this
              rw [hg] at this
              simp at this
            simp [hxf, hg'f]
    · rename_i hg
      unfold tsKnown at hk
      rw [hg, hmf] at hk
      simp at hk
  · rename_i fs hfs
    rw [tsGroupOf_group _ (tsMembers_some hfs)]
    simp
  · split at h
    · rename_i g hg
      split at h
      · simp at h
      split at h
      · simp at h
      rename_i h1 h2
      intro _ hf
      apply h2
      unfold selKw
      dsimp only
      rw [hg]
      dsimp only
      by_cases hfP : f ∈ P
      · exact absurd hf (hP f hfP (by rw [hg]; rfl))
      · simp [hfP, hf]
    · rename_i hg
      rw [hg]
      simp
  · rename_i fs hfs
    rw [tsGroupOf_group _ (tsMembers_some hfs)]
    simp
  · split at h
    · rename_i g hg
      split at h
      · simp at h
      rename_i h1
      intro g' hg'
      rw [hg] at hg'
      injection hg' with hg'
      subst hg'
      by_contra hcon
      push Not at hcon
      obtain ⟨c1, c2, c3⟩ := hcon
      apply h1
      obtain ⟨fs, hgm, -⟩ := tsGroupOf_some hg
      have hgg : tsGroupOf g = none := tsGroupOf_group _ hgm
      unfold selKw
      dsimp only
      rw [hgg]
      dsimp only
      rw [if_neg (by
        rintro (hh | ⟨y, hy, hy2⟩)
        · exact c2 hh
        · exact c3 y hy hy2), c1]
      rfl
    · rename_i hg
      rw [hg]
      simp


theorem selectOne_error {s : SelState} {f : String} {e : Err} (h : selectOne s f = .error e) : e = .valueError := by
  unfold selectOne at h
  split at h
  · injection h with h; exact h.symm
  split at h
  · simp at h
  split at h
  · split at h
    · injection h with h; exact h.symm
    split at h
    · injection h with h; exact h.symm
    simp at h
  · simp at h

theorem getD_true_false {o : Option Bool} : (!o.getD true) = true ↔ o = some false := by
  cases o with
  | none => simp
  | some b => cases b <;> simp

theorem selectOne_ok (kw0 : Kw) (P : List String) (f : String) (hk : tsKnown f = true)
    (h : ∀ g, tsGroupOf f = some g →
      kw0 f ≠ some false ∧ (kw0 g ≠ some false ∨ g ∈ P ∨ ∃ f' ∈ P, tsGroupOf f' = some g)) :
    ∃ s, selectOne ⟨selKw kw0 P, selFilter P⟩ f = .ok s := by
  unfold selectOne
  rw [if_neg (by simp [hk])]
  split
  · exact ⟨_, rfl⟩
  split
  · rename_i g hg
    obtain ⟨h1, h2⟩ := h g hg
    obtain ⟨fs, hgm, -⟩ := tsGroupOf_some hg
    have hgg : tsGroupOf g = none := tsGroupOf_group _ hgm
    rw [if_neg, if_neg]
    · exact ⟨_, rfl⟩
    · rw [getD_true_false]
      unfold selKw
      dsimp only
      rw [hg]
      dsimp only
      split
      · simp
      split
      · intro hh
        injection hh with hh
        apply h1
        cases hkf : kw0 f with
        | none => rw [hkf] at hh; simp at hh
        | some b => rw [hkf] at hh; simp at hh; rw [hh]
      · exact h1
    · rw [getD_true_false]
      unfold selKw
      dsimp only
      rw [hgg]
      dsimp only
      split
      · simp
      · rename_i hcon
        rcases h2 with h2 | h2
        · exact h2
        · exact absurd h2 hcon
  · exact ⟨_, rfl⟩

theorem selKw_nil (kw0 : Kw) : selKw kw0 [] = kw0 := by
  funext x
  unfold selKw
  cases tsGroupOf x <;> simp

theorem select_fold (kw0 : Kw) (P : List String) (s : SelState)
    (h : P.foldlM selectOne ⟨kw0, selFilter []⟩ = .ok s) :
    s = ⟨selKw kw0 P, selFilter P⟩ ∧ (∀ f ∈ P, tsKnown f = true) ∧
      (∀ f ∈ P, (tsGroupOf f).isSome → kw0 f ≠ some false) ∧
      (∀ A f B g, P = A ++ f :: B → tsGroupOf f = some g → kw0 g ≠ some false ∨ g ∈ A) := by
  induction P using List.reverseRecOn generalizing s with
  | nil =>
    simp only [List.foldlM_nil, pure, Except.pure] at h
    injection h with h
    refine ⟨?_, by simp, by simp, by simp⟩
    rw [← h, selKw_nil]
  | append_singleton P f ih =>
    rw [List.foldlM_append] at h
    cases hs : P.foldlM selectOne ⟨kw0, selFilter []⟩ with
    | error e => rw [hs] at h; simp [bind, Except.bind] at h
    | ok s1 =>
      rw [hs] at h
      obtain ⟨i1, i2, i3, i4⟩ := ih s1 hs
      subst i1
      simp only [bind, Except.bind, List.foldlM_cons, List.foldlM_nil, pure, Except.pure] at h
      cases h1 : selectOne ⟨selKw kw0 P, selFilter P⟩ f with
      | error e => rw [h1] at h; simp at h
      | ok s2 =>
        rw [h1] at h
        injection h with h
        subst h
        obtain ⟨j1, j2, j3, j4⟩ := selectOne_spec kw0 P f s2 h1 i3
        refine ⟨j1, ?_, ?_, ?_⟩
        · intro x hx
          rcases List.mem_append.1 hx with hx | hx
          · exact i2 x hx
          · rw [List.mem_singleton.1 hx]; exact j2
        · intro x hx
          rcases List.mem_append.1 hx with hx | hx
          · exact i3 x hx
          · rw [List.mem_singleton.1 hx]; exact j3
        · intro A x B g hAB hg
          rcases List.eq_nil_or_concat B with rfl | ⟨B', b, rfl⟩
          · obtain ⟨rfl, hx⟩ := List.append_inj' hAB rfl
            injection hx with hx
            subst hx
            rcases j4 g hg with hh | hh | ⟨y, hy, hy2⟩
            · exact Or.inl hh
            · exact Or.inr hh
            · obtain ⟨A', B', rfl⟩ := List.append_of_mem hy
              rcases i4 A' y B' g rfl hy2 with hh | hh
              · exact Or.inl hh
              · exact Or.inr (List.mem_append_left _ hh)
          · have : P ++ [f] = (A ++ x :: B') ++ [b] := by rw [hAB]; simp
            obtain ⟨h1', -⟩ := List.append_inj' this rfl
            exact i4 A x B' g h1' hg

theorem select_fold_error (P : List String) (s0 : SelState) (e : Err) (h : P.foldlM selectOne s0 = .error e) :
    e = .valueError := by
  induction P generalizing s0 with
  | nil => simp [pure, Except.pure] at h
  | cons a t ih =>
    rw [List.foldlM_cons] at h
    cases h1 : selectOne s0 a with
    | error e' =>
      rw [h1] at h
      simp only [bind, Except.bind] at h
      injection h with h
      rw [← h]
      exact selectOne_error h1
    | ok s1 =>
      rw [h1] at h
      exact ih s1 h

theorem select_fold_ok (kw0 : Kw) (P : List String) (hk : ∀ f ∈ P, tsKnown f = true)
    (h : ∀ A f B g, P = A ++ f :: B → tsGroupOf f = some g → kw0 f ≠ some false ∧ (kw0 g ≠ some false ∨ g ∈ A)) :
    ∃ s, P.foldlM selectOne ⟨kw0, selFilter []⟩ = .ok s := by
  induction P using List.reverseRecOn with
  | nil => exact ⟨_, rfl⟩
  | append_singleton P f ih =>
    obtain ⟨s, hs⟩ := ih (fun x hx => hk x (List.mem_append_left _ hx))
      (fun A x B g hAB hg => h A x (B ++ [f]) g (by rw [hAB]; simp) hg)
    rw [List.foldlM_append, hs]
    obtain ⟨i1, -, -, -⟩ := select_fold kw0 P s hs
    subst i1
    obtain ⟨s2, hs2⟩ := selectOne_ok kw0 P f (hk f (by simp)) (fun g hg => by
      obtain ⟨h1, h2⟩ := h P f [] g rfl hg
      exact ⟨h1, h2.elim Or.inl fun hh => Or.inr (Or.inl hh)⟩)
    refine ⟨s2, ?_⟩
    simp only [bind, Except.bind, List.foldlM_cons, List.foldlM_nil, pure, Except.pure, hs2]

/-- The attributes of a constructed instance. -/
theorem init_spec {S : List String} {kwargs : List (String × Bool)} {t : TsF} (h : TsF.init S kwargs = .ok t) :
    t.kw = selKw (Kw.ofList kwargs) S ∧
      (∀ f g, tsGroupOf f = some g →
        t.filter f = some ((selKw (Kw.ofList kwargs) S f).getD (S.isEmpty || decide (f ∈ S ∨ g ∈ S)))) ∧
      t.default = S.isEmpty ∧ (∀ f ∈ S, (tsGroupOf f).isSome → Kw.ofList kwargs f ≠ some false) := by
  unfold TsF.init at h
  split at h
  · simp at h
  cases S with
  | nil =>
    simp only [List.foldlM_nil, pure, Except.pure] at h
    injection h with h
    subst h
    refine ⟨(selKw_nil _).symm, ?_, rfl, by simp⟩
    intro f g hg
    dsimp only
    rw [hg, selKw_nil]
    cases Kw.ofList kwargs f <;> rfl
  | cons a l =>
    have h0 : (fun k => (tsGroupOf k).map fun _ => (a :: l).isEmpty) = selFilter [] := by
      funext k
      unfold selFilter
      simp
    rw [h0] at h
    cases hs : (a :: l).foldlM selectOne ⟨Kw.ofList kwargs, selFilter []⟩ with
    | error e => rw [hs] at h; simp at h
    | ok s =>
      rw [hs] at h
      injection h with h
      subst h
      obtain ⟨i1, i2, i3, i4⟩ := select_fold _ _ _ hs
      subst i1
      refine ⟨rfl, ?_, rfl, i3⟩
      intro f g hg
      dsimp only
      unfold selFilter
      rw [hg]
      simp only [Option.map_some, List.isEmpty_cons, Bool.false_or]
      cases selKw (Kw.ofList kwargs) (a :: l) f <;> rfl

/-- **C108 (errors).**  The constructor fails, always with `ValueError`, exactly when a keyword argument or a selected
name is neither a feature nor a group, a selected feature is switched off by a keyword argument, or the group of a
selected feature is and the group is not itself selected before the feature. -/
theorem C108_accepts (S : List String) (kwargs : List (String × Bool)) :
    ((∃ t, TsF.init S kwargs = .ok t) ↔
      (∀ p ∈ kwargs, tsKnown p.1 = true) ∧ (∀ f ∈ S, tsKnown f = true) ∧
      ∀ A f B g fs, S = A ++ f :: B → (g, fs) ∈ tsGroups → f ∈ fs →
        kwargs.lookup f ≠ some false ∧ (kwargs.lookup g ≠ some false ∨ g ∈ A)) ∧
    ∀ e, TsF.init S kwargs = .error e → e = .valueError := by
  have h0 : ∀ a l, (fun k => (tsGroupOf k).map fun _ => (a :: l : List String).isEmpty) = selFilter [] := by
    intro a l
    funext k
    unfold selFilter
    simp
  refine ⟨⟨?_, ?_⟩, ?_⟩
  · rintro ⟨t, h⟩
    unfold TsF.init at h
    split at h
    · simp at h
    rename_i hkw
    have hkw' : ∀ p ∈ kwargs, tsKnown p.1 = true := by
      intro p hp
      by_contra hcon
      exact hkw (List.any_eq_true.2 ⟨p, hp, by simpa using hcon⟩)
    cases S with
    | nil => exact ⟨hkw', by simp, by simp⟩
    | cons a l =>
      rw [h0] at h
      cases hs : (a :: l).foldlM selectOne ⟨Kw.ofList kwargs, selFilter []⟩ with
      | error e => rw [hs] at h; simp at h
      | ok s =>
        obtain ⟨i1, i2, i3, i4⟩ := select_fold _ _ _ hs
        refine ⟨hkw', i2, ?_⟩
        intro A f B g fs hAB hg hf
        have hgf := tsGroupOf_of_mem _ hg _ hf
        exact ⟨i3 f (by rw [hAB]; simp) (by rw [hgf]; rfl), i4 A f B g hAB hgf⟩
  · rintro ⟨h1, h2, h3⟩
    unfold TsF.init
    rw [if_neg (by
      intro hcon
      obtain ⟨p, hp, hp2⟩ := List.any_eq_true.1 hcon
      rw [h1 p hp] at hp2
      simp at hp2)]
    cases S with
    | nil => exact ⟨_, rfl⟩
    | cons a l =>
      rw [h0]
      obtain ⟨s, hs⟩ := select_fold_ok (Kw.ofList kwargs) (a :: l) h2 (fun A f B g hAB hg => by
        obtain ⟨fs, hm, hf⟩ := tsGroupOf_some hg
        exact h3 A f B g fs hAB hm hf)
      rw [hs]
      exact ⟨_, rfl⟩
  · intro e h
    unfold TsF.init at h
    split at h
    · injection h with h; exact h.symm
    cases hs : S.foldlM selectOne ⟨Kw.ofList kwargs, fun k => (tsGroupOf k).map fun _ => S.isEmpty⟩ with
    | error e' =>
      rw [hs] at h
      injection h with h
      rw [← h]
      exact select_fold_error _ _ _ hs
    | ok s => rw [hs] at h; simp at h

/-- A selection that is accepted and one that is not. -/
example : (∃ t, TsF.init ["mean", "stl_features"] [("peak", false), ("time", true)] = .ok t) ∧
    TsF.init ["mean"] [("statistics", false)] = .error .valueError :=
  ⟨⟨_, rfl⟩, rfl⟩


/-- The features of a transformed column: those of the groups that are on and pass the filter. -/
theorem final_spec {V : Type} {S : List String} {kwargs : List (String × Bool)} {t : TsF}
    (h : TsF.init S kwargs = .ok t) (reg : Kw × Bool) (val : String → V) (nan : V) :
    ∃ out, tsFinal t (tsTransform1d reg t val nan) = .ok out ∧
      ∀ f v, (f, v) ∈ out ↔ ∃ g fs, (g, fs) ∈ tsGroups ∧ f ∈ fs ∧ t.on g = true ∧ t.filter f = some true ∧
        (tsEnabled (some reg.1) reg.2 f = true ∧ v = val f ∨
          tsEnabled (some reg.1) reg.2 f = false ∧ tsSparse.contains g = false ∧ v = nan) := by
  obtain ⟨i1, i2, i3, i4⟩ := init_spec h
  have key : ∀ f v, (f, v) ∈ tsTransform1d reg t val nan ↔ ∃ g fs, (g, fs) ∈ tsGroups ∧ f ∈ fs ∧ t.on g = true ∧
        (tsEnabled (some reg.1) reg.2 f = true ∧ v = val f ∨
          tsEnabled (some reg.1) reg.2 f = false ∧ tsSparse.contains g = false ∧ v = nan) := by
    intro f v
    unfold tsTransform1d
    rw [List.mem_flatMap]
    constructor
    · rintro ⟨g, -, hg⟩
      split at hg
      · rename_i hon
        unfold tsEmit at hg
        obtain ⟨f', hf', hv⟩ := List.mem_filterMap.1 hg
        cases hm : tsMembers g with
        | none => rw [hm] at hf'; simp at hf'
        | some fs =>
          rw [hm] at hf'
          split at hv
          · rename_i he
            injection hv with hv
            injection hv with hv1 hv2
            subst hv1
            exact ⟨g, fs, tsMembers_some hm, hf', hon, Or.inl ⟨he, hv2.symm⟩⟩
          · rename_i he
            split at hv
            · simp at hv
            · rename_i hsp
              injection hv with hv
              injection hv with hv1 hv2
              subst hv1
              exact ⟨g, fs, tsMembers_some hm, hf', hon, Or.inr ⟨by simpa using he, by simpa using hsp, hv2.symm⟩⟩
      · simp at hg
    · rintro ⟨g, fs, hg, hf, hon, hv⟩
      refine ⟨g, tsOrder_mem _ hg, ?_⟩
      rw [if_pos hon]
      unfold tsEmit
      have hm := tsMembers_of_mem _ hg
      dsimp only at hm
      rw [hm]
      refine List.mem_filterMap.2 ⟨f, hf, ?_⟩
      rcases hv with ⟨he, rfl⟩ | ⟨he, hsp, rfl⟩
      · rw [if_pos he]
      · rw [if_neg (by rw [he]; simp), if_neg (by rw [hsp]; simp)]
  refine ⟨(tsTransform1d reg t val nan).filter fun p => (t.filter p.1).getD false, ?_, ?_⟩
  · unfold tsFinal
    rw [if_neg]
    intro hcon
    obtain ⟨⟨f, v⟩, hp, hp2⟩ := List.any_eq_true.1 hcon
    obtain ⟨g, fs, hg, hf, -⟩ := (key f v).1 hp
    have := i2 f g (tsGroupOf_of_mem _ hg _ hf)
    dsimp only at hp2
    rw [this] at hp2
    simp at hp2
  · intro f v
    rw [List.mem_filter, key]
    dsimp only
    constructor
    · rintro ⟨⟨g, fs, hg, hf, hon, hv⟩, hfil⟩
      refine ⟨g, fs, hg, hf, hon, ?_, hv⟩
      cases hh : t.filter f with
      | none => rw [hh] at hfil; simp at hfil
      | some b => rw [hh] at hfil; simp at hfil; rw [hfil]
    · rintro ⟨g, fs, hg, hf, hon, hfil, hv⟩
      exact ⟨⟨g, fs, hg, hf, hon, hv⟩, by rw [hfil]; rfl⟩

theorem tsOrder_nodup : tsOrder.Nodup := by decide +kernel

/-- No feature is listed twice. -/
theorem transform1d_nodup {V : Type} (reg : Kw × Bool) (t : TsF) (val : String → V) (nan : V) :
    ((tsTransform1d reg t val nan).map fun p => p.1).Nodup := by
  have hemit : ∀ g f, f ∈ (tsEmit (some reg.1) reg.2 val nan g).map (fun p => p.1) → tsGroupOf f = some g := by
    intro g f hf
    obtain ⟨⟨f', v⟩, hp, rfl⟩ := List.mem_map.1 hf
    unfold tsEmit at hp
    obtain ⟨f'', hf'', hv⟩ := List.mem_filterMap.1 hp
    cases hm : tsMembers g with
    | none => rw [hm] at hf''; simp at hf''
    | some fs =>
      rw [hm] at hf''
      have := tsGroupOf_of_mem _ (tsMembers_some hm) _ hf''
      split at hv
      · injection hv with hv; injection hv with hv1 hv2; subst hv1; exact this
      split at hv
      · simp at hv
      · injection hv with hv; injection hv with hv1 hv2; subst hv1; exact this
  unfold tsTransform1d
  rw [List.map_flatMap, List.nodup_flatMap]
  constructor
  · intro g hg
    split
    · unfold tsEmit
      cases hm : tsMembers g with
      | none => simp
      | some fs =>
        have hn := tsMembers_nodup _ (tsMembers_some hm)
        dsimp only at hn
        rw [List.map_filterMap]
        refine List.Nodup.filterMap ?_ hn
        intro a b c ha hb
        have aux : ∀ x : String, c ∈ Option.map (fun p : String × V => p.1)
            (if tsEnabled (some reg.1) reg.2 x = true then some (x, val x)
              else if tsSparse.contains g = true then none else some (x, nan)) → c = x := by
          intro x hx
          split at hx
          · simpa using hx.symm
          split at hx
          · simp at hx
          · simpa using hx.symm
        rw [← aux a ha, ← aux b hb]
    · simp
  · refine List.Pairwise.imp_of_mem ?_ tsOrder_nodup
    intro g g' _ _ hne
    rw [Function.onFun, List.disjoint_left]
    intro f hf hf'
    split at hf
    · split at hf'
      · have h1 := hemit g f hf
        have h2 := hemit g' f hf'
        rw [h1] at h2
        injection h2 with h2
        exact hne h2
      · simp at hf'
    · simp at hf

theorem on_spec {S : List String} {kwargs : List (String × Bool)} {t : TsF} (h : TsF.init S kwargs = .ok t)
    {g : String} {fs : List String} (hg : (g, fs) ∈ tsGroups) :
    t.on g = true ↔ (g ∈ S ∨ ∃ f ∈ S, f ∈ fs) ∨
      kwargs.lookup g = some true ∨ (kwargs.lookup g = none ∧ S = [] ∧ g ∈ tsDefaultGroups) := by
  obtain ⟨i1, i2, i3, i4⟩ := init_spec h
  have hgg : tsGroupOf g = none := tsGroupOf_group _ hg
  have hfs : (∃ f ∈ S, tsGroupOf f = some g) ↔ ∃ f ∈ S, f ∈ fs := by
    constructor
    · rintro ⟨f, hf, hgf⟩
      obtain ⟨fs', h1, h2⟩ := tsGroupOf_some hgf
      have e1 := tsMembers_of_mem _ h1
      have e2 := tsMembers_of_mem _ hg
      dsimp only at e1 e2
      rw [e1] at e2
      injection e2 with e2
      exact ⟨f, hf, e2 ▸ h2⟩
    · rintro ⟨f, hf, hf2⟩
      exact ⟨f, hf, tsGroupOf_of_mem _ hg _ hf2⟩
  unfold TsF.on
  rw [i1, i3]
  unfold selKw
  rw [hgg]
  dsimp only
  by_cases hc : g ∈ S ∨ ∃ f ∈ S, tsGroupOf f = some g
  · rw [if_pos hc, hfs] at *
    simp [hc]
  · rw [if_neg hc]
    rw [hfs] at hc
    have hK : Kw.ofList kwargs g = kwargs.lookup g := rfl
    rw [hK]
    cases hl : kwargs.lookup g with
    | none =>
      simp only [Option.getD_none, hc, false_or, true_and]
      by_cases hd : g ∈ tsDefaultGroups <;> simp [hd]
    | some b => simp [hc]

theorem filter_spec {S : List String} {kwargs : List (String × Bool)} {t : TsF} (h : TsF.init S kwargs = .ok t)
    {f g : String} (hg : tsGroupOf f = some g) :
    (t.filter f = some true ↔
      (S = [] ∨ f ∈ S ∨ g ∈ S) ∧ kwargs.lookup f ≠ some false ∨ kwargs.lookup f = some true) ∧
    (t.filter f = some true → tsEnabled (some t.kw) t.default f = true) := by
  obtain ⟨i1, i2, i3, i4⟩ := init_spec h
  have hf4 : f ∈ S → kwargs.lookup f ≠ some false := fun hf => i4 f hf (by rw [hg]; rfl)
  have hkf : selKw (Kw.ofList kwargs) S f
      = if f ∈ S then some true else if g ∈ S then some ((kwargs.lookup f).getD true) else kwargs.lookup f := by
    unfold selKw
    rw [hg]
    rfl
  rw [i2 f g hg]
  unfold tsEnabled
  dsimp only
  rw [i1, i3, hkf]
  by_cases h1 : f ∈ S
  · simp [h1, hf4 h1]
  · by_cases h2 : g ∈ S
    · have : S ≠ [] := List.ne_nil_of_mem h2
      cases hl : kwargs.lookup f with
      | none => simp [h1, h2]
      | some b => cases b <;> simp [h1, h2]
    · cases hl : kwargs.lookup f with
      | none =>
        cases S with
        | nil => simp
        | cons a l => simp at h1 h2; simp [h1, h2]
      | some b => cases b <;> simp [h1, h2]

/-- **C108 (selection).**  For an instance no other instance was constructed after, every column's result holds each
requested feature once, with its calculated value, and nothing else.  Without `selected_features` the requested
features are those not switched off whose group is on: switched on by a keyword argument, or one of the seven default
groups and not switched off.  With `selected_features` they are the selected features, the features of selected groups
that are not switched off, and the features switched on in groups that are on (selected, with a selected feature, or
switched on). -/
theorem C108_selection {V : Type} (reg : TsRegistry) (S : List String) (kwargs : List (String × Bool)) (t : TsF)
    (h : (tsConstruct reg S kwargs).2 = .ok t) (n : Nat) (hn : 5 ≤ n) (vals : List (String → V)) (nan : V) :
    ∃ outs, tsTransform (tsConstruct reg S kwargs).1 t n vals nan = .ok outs ∧
      List.Forall₂ (fun val out => (out.map fun p => p.1).Nodup ∧
        ∀ f v, (f, v) ∈ out ↔ v = val f ∧ ∃ g fs, (g, fs) ∈ tsGroups ∧ f ∈ fs ∧
          (S = [] ∧ kwargs.lookup f ≠ some false ∧
              (kwargs.lookup g = some true ∨ kwargs.lookup g = none ∧ g ∈ tsDefaultGroups) ∨
            S ≠ [] ∧ ((f ∈ S ∨ g ∈ S ∧ kwargs.lookup f ≠ some false) ∨
              kwargs.lookup f = some true ∧ (g ∈ S ∨ (∃ f' ∈ S, f' ∈ fs) ∨ kwargs.lookup g = some true)))) vals outs := by
  unfold tsConstruct at h ⊢
  cases hi : TsF.init S kwargs with
  | error e => rw [hi] at h; simp at h
  | ok t' =>
    rw [hi] at h
    injection h with h
    subst h
    dsimp only
    unfold tsTransform
    rw [if_neg (by omega)]
    dsimp only
    have hall : ∀ val : String → V, ∃ out, tsFinal t' (tsTransform1d (t'.kw, t'.default) t' val nan) = .ok out ∧
        ((out.map fun p => p.1).Nodup ∧
        ∀ f v, (f, v) ∈ out ↔ v = val f ∧ ∃ g fs, (g, fs) ∈ tsGroups ∧ f ∈ fs ∧
          (S = [] ∧ kwargs.lookup f ≠ some false ∧
              (kwargs.lookup g = some true ∨ kwargs.lookup g = none ∧ g ∈ tsDefaultGroups) ∨
            S ≠ [] ∧ ((f ∈ S ∨ g ∈ S ∧ kwargs.lookup f ≠ some false) ∨
              kwargs.lookup f = some true ∧ (g ∈ S ∨ (∃ f' ∈ S, f' ∈ fs) ∨ kwargs.lookup g = some true)))) := by
      intro val
      obtain ⟨out, ho, hspec⟩ := final_spec hi (t'.kw, t'.default) val nan
      refine ⟨out, ho, ?_, ?_⟩
      · unfold tsFinal at ho
        split at ho
        · simp at ho
        injection ho with ho
        rw [← ho]
        exact (transform1d_nodup _ _ _ _).sublist (List.filter_sublist.map _)
      · intro f v
        rw [hspec]
        constructor
        · rintro ⟨g, fs, hg, hf, hon, hfil, hv⟩
          have hgf := tsGroupOf_of_mem _ hg _ hf
          obtain ⟨f1, f2⟩ := filter_spec hi hgf
          have hen := f2 hfil
          rw [on_spec hi hg] at hon
          rw [f1] at hfil
          refine ⟨?_, g, fs, hg, hf, ?_⟩
          · rcases hv with ⟨-, hv⟩ | ⟨hd, -⟩
            · exact hv
            · rw [hen] at hd; simp at hd
          · obtain ⟨-, -, -, i4⟩ := init_spec hi
            by_cases hS : S = []
            · subst hS
              left
              refine ⟨rfl, ?_, ?_⟩
              · rcases hfil with ⟨-, hh⟩ | hh
                · exact hh
                · rw [hh]; simp
              · simpa using hon
            · right
              refine ⟨hS, ?_⟩
              rcases hfil with ⟨h1 | h1 | h1, h2⟩ | h1
              · exact absurd h1 hS
              · exact Or.inl (Or.inl h1)
              · exact Or.inl (Or.inr ⟨h1, h2⟩)
              · right
                refine ⟨h1, ?_⟩
                rcases hon with (ho1 | ho1) | ho1 | ⟨-, ho1, -⟩
                · exact Or.inl ho1
                · exact Or.inr (Or.inl ho1)
                · exact Or.inr (Or.inr ho1)
                · exact absurd ho1 hS
        · rintro ⟨hv, g, fs, hg, hf, hcond⟩
          have hgf := tsGroupOf_of_mem _ hg _ hf
          obtain ⟨f1, f2⟩ := filter_spec hi hgf
          obtain ⟨-, -, -, i4⟩ := init_spec hi
          have hfil : t'.filter f = some true := by
            rw [f1]
            rcases hcond with ⟨hS, h1, -⟩ | ⟨-, (h1 | ⟨h1, h2⟩) | ⟨h1, -⟩⟩
            · exact Or.inl ⟨Or.inl hS, h1⟩
            · exact Or.inl ⟨Or.inr (Or.inl h1), i4 f h1 (by rw [hgf]; rfl)⟩
            · exact Or.inl ⟨Or.inr (Or.inr h1), h2⟩
            · exact Or.inr h1
          have hon : t'.on g = true := by
            rw [on_spec hi hg]
            rcases hcond with ⟨hS, -, h1 | ⟨h1, h2⟩⟩ | ⟨-, (h1 | ⟨h1, h2⟩) | ⟨-, h1 | h1 | h1⟩⟩
            · exact Or.inr (Or.inl h1)
            · exact Or.inr (Or.inr ⟨h1, hS, h2⟩)
            · exact Or.inl (Or.inr ⟨f, h1, hf⟩)
            · exact Or.inl (Or.inl h1)
            · exact Or.inl (Or.inl h1)
            · exact Or.inl (Or.inr h1)
            · exact Or.inr (Or.inl h1)
          exact ⟨g, fs, hg, hf, hon, hfil, Or.inl ⟨f2 hfil, hv⟩⟩
    induction vals with
    | nil => exact ⟨[], rfl, List.Forall₂.nil⟩
    | cons v l ih =>
      obtain ⟨outs, h1, h2⟩ := ih
      obtain ⟨out, h3, h4⟩ := hall v
      refine ⟨out :: outs, ?_, List.Forall₂.cons h4 h2⟩
      rw [List.mapM_cons, h3, h1]
      rfl

/-- One feature of a placeholder group and one of a sparse group. -/
example : tsTransform (V := Option Nat) (tsConstruct none ["firstmin_ac", "mean"] []).1
    ((tsConstruct none ["firstmin_ac", "mean"] []).2.toOption.getD ⟨fun _ => none, fun _ => none, false⟩) 5
    [fun f => some f.length] none = .ok [[("mean", some 4), ("firstmin_ac", some 11)]] := by
  decide +kernel


theorem init_filter {S : List String} {kwargs : List (String × Bool)} {t : TsF} (h : TsF.init S kwargs = .ok t) :
    t.filter = fun k => (t.kw k).or ((tsGroupOf k).map fun g => S.isEmpty || decide (k ∈ S ∨ g ∈ S)) := by
  obtain ⟨i1, i2, i3, i4⟩ := init_spec h
  unfold TsF.init at h
  split at h
  · simp at h
  split at h
  · simp at h
  rename_i s hs
  injection h with h
  subst h
  dsimp only
  funext k
  cases S with
  | nil =>
    simp only [List.foldlM_nil, pure, Except.pure] at hs
    injection hs with hs
    subst hs
    simp
  | cons a l =>
    have h0 : (fun k => (tsGroupOf k).map fun _ => (a :: l).isEmpty) = selFilter [] := by
      funext k
      unfold selFilter
      simp
    rw [h0] at hs
    obtain ⟨j1, -⟩ := select_fold _ _ _ hs
    subst j1
    unfold selFilter
    simp only [List.isEmpty_cons, Bool.false_or]

/-- **C108 (order).**  If a selection is accepted in two orders, both give the same instance. -/
theorem C108_order_partial (S S' : List String) (kwargs : List (String × Bool)) (hp : S.Perm S') (t t' : TsF)
    (h : TsF.init S kwargs = .ok t) (h' : TsF.init S' kwargs = .ok t') : t = t' := by
  obtain ⟨i1, -, i3, -⟩ := init_spec h
  obtain ⟨i1', -, i3', -⟩ := init_spec h'
  have hf := init_filter h
  have hf' := init_filter h'
  have he : S.isEmpty = S'.isEmpty := by
    rw [Bool.eq_iff_iff, List.isEmpty_iff, List.isEmpty_iff]
    constructor
    · rintro rfl; exact hp.nil_eq.symm
    · rintro rfl; exact hp.eq_nil
  have hkw : t.kw = t'.kw := by
    rw [i1, i1']
    funext x
    unfold selKw
    simp only [hp.mem_iff]
  cases t with
  | mk k f d =>
    cases t' with
    | mk k' f' d' =>
      dsimp only at *
      subst hkw
      rw [hf, hf', i3, i3', he]
      congr 1
      funext k
      simp only [hp.mem_iff]

/-- A selection accepted in both orders. -/
example : (∃ t, TsF.init ["mean", "special_ac"] [] = .ok t) ∧ ∃ t, TsF.init ["special_ac", "mean"] [] = .ok t :=
  ⟨⟨_, rfl⟩, ⟨_, rfl⟩⟩

/-- **C108 (order) is violated.**  Whether a selection is accepted depends on its order: with the group switched off, a
feature before its group is an error, after it is not. -/
theorem C108_order_violated :
    TsF.init ["mean", "statistics"] [("statistics", false)] = .error .valueError ∧
    ∃ t, TsF.init ["statistics", "mean"] [("statistics", false)] = .ok t :=
  ⟨rfl, ⟨_, rfl⟩⟩

/-- **C108 (contradiction) is violated.**  Selecting a feature that is switched off is an error; selecting a group that
is switched off silently overrides the switch, and all its features are returned. -/
theorem C108_group_override_violated :
    TsF.init ["peak"] [("peak", false)] = .error .valueError ∧
    ∃ t, TsF.init ["special_ac"] [("special_ac", false)] = .ok t ∧
      tsTransform (some (t.kw, t.default)) t 5 [fun f => f.length] 0
        = .ok [[("firstmin_ac", 11), ("firstzero_ac", 12)]] :=
  ⟨rfl, ⟨_, rfl, by decide +kernel⟩⟩

/-- **C108 (switching on) is violated.**  A feature of a detector group that is switched on by name is not returned
unless its group is switched on too, with no error. -/
theorem C108_feature_on_violated :
    ∃ t, TsF.init [] [("cusum_num", true)] = .ok t ∧ t.filter "cusum_num" = some true ∧
      ∃ out, tsTransform (some (t.kw, t.default)) t 5 [fun f => f.length] 0 = .ok [out] ∧
        "cusum_num" ∉ out.map fun p => p.1 :=
  ⟨_, rfl, by decide +kernel, _, rfl, by decide +kernel⟩

/-- **C108 (independence).**  What an instance returns when another one was constructed after it: of the features it
requests, those the other instance enables have their value; the others are missing or NaN. -/
theorem C108_instances_partial {V : Type} (reg : TsRegistry) (S : List String) (kwargs : List (String × Bool)) (t : TsF)
    (h : (tsConstruct reg S kwargs).2 = .ok t) (S' : List String) (kwargs' : List (String × Bool)) (t' : TsF)
    (h' : (tsConstruct (tsConstruct reg S kwargs).1 S' kwargs').2 = .ok t') (n : Nat) (hn : 5 ≤ n)
    (val : String → V) (nan : V) :
    ∃ own now, tsTransform (tsConstruct reg S kwargs).1 t n [val] nan = .ok [own] ∧
      tsTransform (tsConstruct (tsConstruct reg S kwargs).1 S' kwargs').1 t n [val] nan = .ok [now] ∧
      ∀ f v, (f, v) ∈ now ↔ (f, val f) ∈ own ∧
        ((t'.kw f).getD t'.default = true ∧ v = val f ∨
          (t'.kw f).getD t'.default = false ∧ v = nan ∧
            ∃ g fs, (g, fs) ∈ tsGroups ∧ f ∈ fs ∧ g ∉ tsSparse) := by
  unfold tsConstruct at h h' ⊢
  cases hi : TsF.init S kwargs with
  | error e => rw [hi] at h; simp at h
  | ok t1 =>
    rw [hi] at h
    injection h with h
    subst h
    cases hi' : TsF.init S' kwargs' with
    | error e => rw [hi'] at h'; simp at h'
    | ok t2 =>
      rw [hi'] at h'
      injection h' with h'
      subst h'
      dsimp only
      obtain ⟨own, ho, hso⟩ := final_spec hi (t1.kw, t1.default) val nan
      obtain ⟨now, hn1, hsn⟩ := final_spec hi (t2.kw, t2.default) val nan
      refine ⟨own, now, ?_, ?_, ?_⟩
      · unfold tsTransform
        rw [if_neg (by omega)]
        dsimp only
        rw [List.mapM_cons, ho]
        rfl
      · unfold tsTransform
        rw [if_neg (by omega)]
        dsimp only
        rw [List.mapM_cons, hn1]
        rfl
      · intro f v
        rw [hsn]
        have hown : (f, val f) ∈ own ↔ ∃ g fs, (g, fs) ∈ tsGroups ∧ f ∈ fs ∧ t1.on g = true ∧ t1.filter f = some true := by
          rw [hso]
          constructor
          · rintro ⟨g, fs, hg, hf, hon, hfil, -⟩
            exact ⟨g, fs, hg, hf, hon, hfil⟩
          · rintro ⟨g, fs, hg, hf, hon, hfil⟩
            exact ⟨g, fs, hg, hf, hon, hfil, Or.inl ⟨(filter_spec hi (tsGroupOf_of_mem _ hg _ hf)).2 hfil, rfl⟩⟩
        rw [hown]
        unfold tsEnabled
        dsimp only
        constructor
        · rintro ⟨g, fs, hg, hf, hon, hfil, hv⟩
          refine ⟨⟨g, fs, hg, hf, hon, hfil⟩, ?_⟩
          rcases hv with hv | ⟨h1, h2, h3⟩
          · exact Or.inl hv
          · exact Or.inr ⟨h1, h3, g, fs, hg, hf, by simpa using h2⟩
        · rintro ⟨⟨g, fs, hg, hf, hon, hfil⟩, hv⟩
          refine ⟨g, fs, hg, hf, hon, hfil, ?_⟩
          rcases hv with hv | ⟨h1, h3, g', fs', hg', hf', h2⟩
          · exact Or.inl hv
          · have e1 := tsGroupOf_of_mem _ hg _ hf
            have e2 := tsGroupOf_of_mem _ hg' _ hf'
            rw [e1] at e2
            injection e2 with e2
            dsimp only at e2
            subst e2
            exact Or.inr ⟨h1, by simpa using h2, h3⟩

/-- Two instances that both succeed. -/
example : ∃ t t', (tsConstruct none ["mean"] []).2 = .ok t ∧
    (tsConstruct (tsConstruct none ["mean"] []).1 ["var"] []).2 = .ok t' :=
  ⟨_, _, rfl, rfl⟩

/-- **C108 (independence) is violated.**  Constructing a second instance changes what the first one returns: a selected
statistic disappears, a selected autocorrelation feature becomes NaN. -/
theorem C108_instances_violated :
    ∃ t, (tsConstruct none ["mean", "firstmin_ac"] []).2 = .ok t ∧
      tsTransform (tsConstruct none ["mean", "firstmin_ac"] []).1 t 5 [fun f => some f.length] none
        = .ok [[("mean", some 4), ("firstmin_ac", some 11)]] ∧
      tsTransform (tsConstruct (tsConstruct none ["mean", "firstmin_ac"] []).1 ["var"] []).1 t 5
        [fun f => some f.length] none = .ok [[("firstmin_ac", none)]] :=
  ⟨_, rfl, by decide +kernel, by decide +kernel⟩

/-- **C108 (static methods).**  Called without `extra_args`, `get_statistics` disables no feature. -/
theorem C108_static_partial {V : Type} (val : String → V) (nan : V) :
    tsGet none true val nan "statistics" = .ok (((tsMembers "statistics").getD []).map fun f => (f, val f)) := by
  unfold tsGet
  dsimp only
  rw [if_pos rfl]
  unfold tsEmit tsEnabled
  simp [List.filterMap_eq_map']

example : (tsMembers "statistics").map List.length = some 15 := by decide +kernel

/-- **C108 (static methods) is violated.**  The methods `get_<group>` are documented to disable no feature when
`extra_args` is `None`; called so all except `get_statistics` return no value at all or raise an exception. -/
theorem C108_static_violated {V : Type} (default : Bool) (val : String → V) (nan : V) (group : String)
    (hg : group ≠ "statistics") :
    (group = "acfpacf_features" ∧ tsGet none default val nan group = .error .attributeError) ∨
      ∃ l, tsGet none default val nan group = .ok l ∧ ∀ f v, (f, v) ∈ l → v = nan ∧ group ∉ tsSparse := by
  unfold tsGet
  dsimp only
  rw [if_neg hg]
  split
  · rename_i h
    exact Or.inl ⟨h, rfl⟩
  · right
    refine ⟨_, rfl, ?_⟩
    intro f v h
    unfold tsEmit tsEnabled at h
    obtain ⟨f', -, hv⟩ := List.mem_filterMap.1 h
    dsimp only at hv
    rw [if_neg (by simp)] at hv
    split at hv
    · simp at hv
    · rename_i hsp
      injection hv with hv
      injection hv with hv1 hv2
      exact ⟨hv2.symm, by simpa using hsp⟩

/-- The level shift features without `extra_args`. -/
example : tsGet none true (fun f => some f.length) none "level_shift_features"
    = .ok [("level_shift_idx", none), ("level_shift_size", none)] := by
  decide +kernel

/-- **C108 (short).**  A series of fewer than five points is an error whatever is selected. -/
theorem C108_short {V : Type} (reg : TsRegistry) (t : TsF) (n : Nat) (vals : List (String → V)) (nan : V) (hn : n < 5) :
    tsTransform reg t n vals nan = .error .valueError := by
  unfold tsTransform
  rw [if_pos hn]

example : tsTransform (V := Nat) none ⟨fun _ => none, fun _ => none, true⟩ 4 [] 0 = .error .valueError := rfl

end Kats

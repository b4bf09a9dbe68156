import Verif.Model.Registry
import Mathlib.Data.List.Induction

/-!
# Properties of the registry of detector models (C164)
-/

namespace Kats

/-- What an attribute of a class is: that of the first class in the order of resolution that has it. -/
def RgResolves (c : RgClass) (n : String) (b : Bool) : Prop :=
  ∃ pre d post, c.own :: c.up = pre ++ d :: post ∧ (n, b) ∈ d ∧ ∀ e ∈ pre, ∀ b', (n, b') ∉ e

/-- A class is abstract if one of its attributes is. -/
def RgAbstract (c : RgClass) : Prop := ∃ n, RgResolves c n true

/-- A class whose body has an abstract method. -/
def RgOwn (c : RgClass) : Prop := ∃ n, (n, true) ∈ c.own

theorem rgIsAbstract_iff (c : RgClass) : rgIsAbstract c = true ↔ RgOwn c := by
  unfold rgIsAbstract RgOwn
  rw [List.any_eq_true]
  constructor
  · rintro ⟨⟨n, b⟩, h, rfl⟩
    exact ⟨n, h⟩
  · rintro ⟨n, h⟩
    exact ⟨(n, true), h, rfl⟩

theorem rgSet_find (reg : List (String × RgClass)) (n m : String) (c : RgClass) :
    (rgSet reg n c).find? (fun e => e.1 == m) = if n = m then some (n, c) else reg.find? fun e => e.1 == m := by
  induction reg with
  | nil =>
    unfold rgSet
    by_cases h : n = m <;> simp [List.find?_cons, h]
  | cons e es ih =>
    unfold rgSet
    by_cases h : e.1 = n
    · rw [if_pos h]
      by_cases hm : n = m
      · rw [List.find?_cons_of_pos (by simp [hm]), if_pos hm]
      · rw [List.find?_cons_of_neg (by simp [hm]), if_neg hm, List.find?_cons_of_neg (by simp [h, hm])]
    · rw [if_neg h]
      by_cases hm : n = m
      · rw [List.find?_cons_of_neg (by simpa [← hm] using h), ih, if_pos hm]
        simp [hm]
      · by_cases he : e.1 = m
        · rw [List.find?_cons_of_pos (by simp [he]), List.find?_cons_of_pos (by simp [he]), if_neg hm]
        · rw [List.find?_cons_of_neg (by simp [he]), List.find?_cons_of_neg (by simp [he]), ih]

theorem rgByName_snoc (cs : List RgClass) (c : RgClass) (n : String) :
    rgByName (rgRegistry (cs ++ [c])) n
      = if c.name = n ∧ rgIsAbstract c = false then .ok c else rgByName (rgRegistry cs) n := by
  unfold rgByName rgRegistry
  rw [List.foldl_append]
  simp only [List.foldl_cons, List.foldl_nil]
  unfold rgNew
  cases h : rgIsAbstract c with
  | true => simp
  | false =>
    rw [if_neg (by simp), rgSet_find]
    by_cases hn : c.name = n
    · simp [hn]
    · simp [hn]

/-- C164: a name finds the class of that name that was defined last, among those whose body has no
abstract method; other names raise an InternalError. -/
theorem C164_lookup (cs : List RgClass) (n : String) :
    (∀ c, rgByName (rgRegistry cs) n = .ok c ↔ ∃ pre post, cs = pre ++ c :: post ∧ c.name = n ∧ ¬ RgOwn c ∧
      ∀ d ∈ post, d.name = n → RgOwn d) ∧
    (rgByName (rgRegistry cs) n = .error .otherError ↔ ∀ c ∈ cs, c.name = n → RgOwn c) := by
  induction cs using List.reverseRecOn with
  | nil =>
    refine ⟨fun c => ?_, ?_⟩
    · simp [rgByName, rgRegistry]
    · simp [rgByName, rgRegistry]
  | append_singleton cs x ih =>
    rw [rgByName_snoc]
    by_cases hx : x.name = n ∧ rgIsAbstract x = false
    · have hxo : ¬ RgOwn x := fun h => by
        rw [← rgIsAbstract_iff, hx.2] at h
        cases h
      rw [if_pos hx]
      refine ⟨fun c => ?_, ?_⟩
      · constructor
        · intro h
          injection h with h
          subst h
          exact ⟨cs, [], rfl, hx.1, hxo, by simp⟩
        · rintro ⟨pre, post, e, _, _, hp⟩
          rcases List.eq_nil_or_concat post with rfl | ⟨post', y, rfl⟩
          · have := List.append_inj_right' e rfl
            injection this with h1
            rw [h1]
          · rw [List.concat_eq_append, ← List.cons_append, ← List.append_assoc] at e
            have h2 := List.append_inj_right' e rfl
            injection h2 with h2
            exact absurd (hp x (by rw [h2]; simp) hx.1) hxo
      · constructor
        · intro h; cases h
        · intro h; exact absurd (h x (by simp) hx.1) hxo
    · rw [if_neg hx]
      have hx' : x.name = n → RgOwn x := fun h => by
        rw [← rgIsAbstract_iff]
        cases hb : rgIsAbstract x with
        | true => rfl
        | false => exact absurd ⟨h, hb⟩ hx
      refine ⟨fun c => ?_, ?_⟩
      · rw [ih.1 c]
        constructor
        · rintro ⟨pre, post, rfl, h1, h2, h3⟩
          refine ⟨pre, post ++ [x], by simp, h1, h2, fun d hd => ?_⟩
          rcases List.mem_append.1 hd with hd | hd
          · exact h3 d hd
          · rw [List.mem_singleton] at hd
            exact hd ▸ hx'
        · rintro ⟨pre, post, e, h1, h2, h3⟩
          rcases List.eq_nil_or_concat post with rfl | ⟨post', y, rfl⟩
          · have h := List.append_inj_right' e rfl
            injection h with h
            exact absurd (hx' (by rw [h]; exact h1)) (by rw [h]; exact h2)
          · rw [List.concat_eq_append, ← List.cons_append, ← List.append_assoc] at e
            have h4 := List.append_inj_left' e rfl
            exact ⟨pre, post', h4, h1, h2, fun d hd => h3 d (by rw [List.concat_eq_append]; exact List.mem_append_left _ hd)⟩
      · rw [ih.2]
        constructor
        · intro h c hc
          rcases List.mem_append.1 hc with hc | hc
          · exact h c hc
          · rw [List.mem_singleton] at hc
            exact hc ▸ hx'
        · exact fun h c hc => h c (List.mem_append_left _ hc)

/-- C164, the part that holds of "only classes that are not abstract are found": a class that is found, and whose
body has every method that is abstract further up, is not abstract. -/
theorem C164_concrete_partial (cs : List RgClass) (n : String) (c : RgClass)
    (h : rgByName (rgRegistry cs) n = .ok c) (hall : ∀ d ∈ c.up, ∀ m, (m, true) ∈ d → ∃ b, (m, b) ∈ c.own) :
    ¬ RgAbstract c := by
  obtain ⟨_, _, _, _, hown, _⟩ := ((C164_lookup cs n).1 c).1 h
  rintro ⟨m, pre, d, post, e, hd, hpre⟩
  cases pre with
  | nil =>
    injection e with e1 e2
    exact hown ⟨m, e1 ▸ hd⟩
  | cons p ps =>
    injection e with e1 e2
    obtain ⟨b, hb⟩ := hall d (by rw [e2]; simp) m hd
    exact hpre p (by simp) b (e1 ▸ hb)

/-- C164: a class that is not abstract is found by its name, unless another one of this name comes later. -/
theorem C164_found (pre post : List RgClass) (c : RgClass) (hc : ¬ RgAbstract c)
    (hp : ∀ d ∈ post, d.name ≠ c.name) : rgByName (rgRegistry (pre ++ c :: post)) c.name = .ok c := by
  refine ((C164_lookup _ _).1 c).2 ⟨pre, post, rfl, rfl, ?_, fun d hd e => absurd e (hp d hd)⟩
  rintro ⟨n, hn⟩
  exact hc ⟨n, [], c.own, c.up, rfl, hn, by simp⟩

/-- C164 is violated: a class that leaves an abstract method as it is, and adds none, is abstract and is
found all the same. -/
theorem C164_abstract_violated (cs : List RgClass) (name m : String) (own : List (String × Bool))
    (base : RgClass) (hm : (m, true) ∈ base.own) (hown : ∀ e ∈ own, e.2 = false ∧ e.1 ≠ m) :
    ∃ c : RgClass, c.name = name ∧ c.own = own ∧ c.up = base.own :: base.up ∧ RgAbstract c ∧
      rgByName (rgRegistry (cs ++ [c])) name = .ok c := by
  refine ⟨⟨name, own, base.own :: base.up⟩, rfl, rfl, rfl, ?_, ?_⟩
  · refine ⟨m, [own], base.own, base.up, rfl, hm, ?_⟩
    intro e he b hb
    rw [List.mem_singleton] at he
    exact (hown _ (he ▸ hb)).2 rfl
  · refine ((C164_lookup _ _).1 _).2 ⟨cs, [], rfl, rfl, ?_, by simp⟩
    rintro ⟨n, hn⟩
    have := (hown _ hn).1
    cases this

/-- C164 is violated: of two classes with the same name, from two modules, only the one defined last can be
found. -/
theorem C164_name_violated (pre mid : List RgClass) (c d : RgClass) (hn : d.name = c.name) (hne : c ≠ d)
    (hd : ¬ RgAbstract d) : ∀ n, rgByName (rgRegistry (pre ++ c :: mid ++ [d])) n ≠ .ok c := by
  intro n h
  obtain ⟨p, q, e, h1, _, h3⟩ := ((C164_lookup _ n).1 c).1 h
  have hdo : ¬ RgOwn d := by
    rintro ⟨k, hk⟩
    exact hd ⟨k, [], d.own, d.up, rfl, hk, by simp⟩
  rcases List.eq_nil_or_concat q with rfl | ⟨q', y, rfl⟩
  · have h := List.append_inj_right' e rfl
    injection h with h
    exact hne h.symm
  · rw [List.concat_eq_append, ← List.cons_append, ← List.append_assoc] at e
    have h := List.append_inj_right' e rfl
    injection h with h
    exact hdo (h3 d (by rw [h]; simp) (by rw [hn]; exact h1))

/-! ### Cases that meet the hypotheses -/

/-- `DetectorModel`. -/
def rgBase : RgClass :=
  ⟨"DetectorModel", [("__init__", true), ("serialize", true), ("fit", true), ("predict", true), ("fit_predict", true)], []⟩

/-- The class of the test of the registry, with only `__init__`. -/
example : ∀ e ∈ [("__init__", false)], e.2 = false ∧ e.1 ≠ "predict" := by decide

example : ("predict", true) ∈ rgBase.own := by decide

example : ∃ c d : RgClass, d.name = c.name ∧ c ≠ d ∧ ¬ RgAbstract d := by
  refine ⟨⟨"A", [("fit", false)], []⟩, ⟨"A", [("fit", false), ("predict", false)], []⟩, rfl, by decide, ?_⟩
  rintro ⟨n, pre, d, post, e, hd, _⟩
  cases pre with
  | nil =>
    injection e with e1 _
    subst e1
    simp at hd
  | cons p ps =>
    injection e with _ e2
    simp at e2

end Kats

import Verif.Model.Partition
import Verif.Lemmas.TimeSeries
import Mathlib.Tactic.Ring
import Mathlib.Tactic.FieldSimp
import Mathlib.Tactic.Positivity

namespace Kats

theorem pyIdx_nat (n a : Nat) : pyIdx n (a : Int) = min a n := by
  unfold pyIdx
  rw [if_neg (by omega)]
  simp

theorem pySlice_nat {α : Type} (xs : List α) (a b : Nat) :
    pySlice xs (a : Int) (b : Int) = (xs.drop a).take (b - a) := by
  unfold pySlice
  rw [pyIdx_nat, pyIdx_nat, List.drop_take]
  by_cases ha : a ≤ xs.length
  · rw [Nat.min_eq_left ha]
    by_cases hb : b ≤ xs.length
    · rw [Nat.min_eq_left hb]
    · have hb' : xs.length ≤ b := by omega
      rw [Nat.min_eq_right hb', List.take_of_length_le (by simp),
        List.take_of_length_le (by simp; omega)]
  · have ha' : xs.length ≤ a := by omega
    rw [Nat.min_eq_right ha', List.drop_eq_nil_of_le (le_refl _), List.drop_eq_nil_of_le ha']
    simp

theorem pySlice_sublist {α : Type} (xs : List α) (i j : Int) : (pySlice xs i j).Sublist xs :=
  (List.drop_sublist _ _).trans (List.take_sublist _ _)

/-- Slicing a series with strictly increasing times is plain list slicing. -/
theorem slice_strict {V : Type} (srt : TimeSort V) (ts : TSD V)
    (h : ts.rows.Pairwise (fun a b => a.1 < b.1)) (i j : Int) :
    (ts.slice srt i j).rows = pySlice ts.rows i j := by
  show srt.run (pySlice ts.rows i j) = _
  exact srt.run_eq_self _ (h.sublist (pySlice_sublist _ _ _))

theorem slice_perm {V : Type} (srt : TimeSort V) (ts : TSD V) (i j : Int) :
    (ts.slice srt i j).rows.Perm (pySlice ts.rows i j) := srt.perm _

theorem slice_sorted {V : Type} (srt : TimeSort V) (ts : TSD V) (i j : Int) :
    (ts.slice srt i j).rows.Pairwise (fun a b => a.1 ≤ b.1) := srt.sorted _

theorem pyInt_nonneg (x : Rat) (h : 0 ≤ x) : pyInt x = ⌊x⌋ := by simp [pyInt, h]

theorem dpAbsSize_eq (n : Nat) (f : Rat) (h : 0 ≤ f) :
    dpAbsSize n f = ((⌊(n : Rat) * f⌋.toNat : Nat) : Int) := by
  have h0 : (0 : Rat) ≤ n * f := by positivity
  rw [dpAbsSize, pyInt_nonneg _ h0]
  have : 0 ≤ ⌊(n : Rat) * f⌋ := Int.floor_nonneg.2 h0
  omega

/-- In a list sorted by time a downward closed condition selects a prefix. -/
theorem split_filter {V : Type} (p : Int → Bool) (hp : ∀ a b, a ≤ b → p b = true → p a = true) :
    ∀ l : List (Row V), l.Pairwise (fun a b => a.1 ≤ b.1) →
      l = l.filter (fun r => p r.1) ++ l.filter (fun r => !p r.1)
  | [], _ => rfl
  | a :: l, h => by
    rw [List.pairwise_cons] at h
    have ih := split_filter p hp l h.2
    by_cases ha : p a.1 = true
    · simp only [List.filter_cons, ha, if_true, Bool.not_true, Bool.false_eq_true, if_false,
        List.cons_append]
      rw [← ih]
    · have hall : ∀ r ∈ l, p r.1 = false := by
        intro r hr
        cases hpr : p r.1 with
        | false => rfl
        | true => exact absurd (hp a.1 r.1 (h.1 r hr) hpr) ha
      have h1 : l.filter (fun r => p r.1) = [] := by
        rw [List.filter_eq_nil_iff]; intro r hr; simp [hall r hr]
      have h2 : l.filter (fun r => !p r.1) = l := by
        rw [List.filter_eq_self]; intro r hr; simp [hall r hr]
      simp [ha, h1, h2]

theorem take_count {V : Type} (p : Int → Bool) (hp : ∀ a b, a ≤ b → p b = true → p a = true)
    (l : List (Row V)) (h : l.Pairwise (fun a b => a.1 ≤ b.1)) :
    l.take ((l.map (·.1)).countP p) = l.filter (fun r => p r.1)
    ∧ l.drop ((l.map (·.1)).countP p) = l.filter (fun r => !p r.1) := by
  have hc : (l.map (·.1)).countP p = (l.filter (fun r => p r.1)).length := by
    rw [List.countP_map, List.countP_eq_length_filter]; rfl
  have hs := split_filter p hp l h
  rw [hc]
  generalize l.filter (fun r => p r.1) = A at *
  generalize l.filter (fun r => !p r.1) = B at *
  subst hs
  exact ⟨List.take_left' rfl, List.drop_left' rfl⟩

/-- Cutting between two binary searches selects a closed time window. -/
theorem search_slice {V : Type} (l : List (Row V)) (h : l.Pairwise (fun a b => a.1 ≤ b.1))
    (s e : Int) :
    pySlice l (searchLeft (l.map (·.1)) s) (searchRight (l.map (·.1)) e)
      = l.filter (fun r => decide (s ≤ r.1 ∧ r.1 ≤ e)) := by
  rw [pySlice_nat, ← List.drop_take]
  unfold searchLeft searchRight
  have hE := take_count (fun t => decide (t ≤ e)) (by
    intro a b hab hb; simp only [decide_eq_true_eq] at *; omega) l h
  rw [hE.1]
  by_cases hse : s ≤ e
  · have hF : (l.filter (fun r => decide (r.1 ≤ e))).Pairwise (fun a b => a.1 ≤ b.1) := h.filter _
    have hS := take_count (fun t => decide (t < s)) (by
      intro a b hab hb; simp only [decide_eq_true_eq] at *; omega) _ hF
    have hcount : (l.map (·.1)).countP (fun t => decide (t < s))
        = ((l.filter (fun r => decide (r.1 ≤ e))).map (·.1)).countP (fun t => decide (t < s)) := by
      rw [List.countP_map, List.countP_map, List.countP_filter]
      apply List.countP_congr
      intro r _
      simp only [Function.comp, Bool.and_eq_true, decide_eq_true_eq]
      constructor
      · intro hr; exact ⟨hr, by omega⟩
      · intro hr; exact hr.1
    rw [hcount, hS.2, List.filter_filter]
    apply List.filter_congr
    intro r _
    rw [Bool.eq_iff_iff]
    simp only [Bool.and_eq_true, Bool.not_eq_true', decide_eq_true_eq, decide_eq_false_iff_not]
    omega
  · have : l.filter (fun r => decide (s ≤ r.1 ∧ r.1 ≤ e)) = [] := by
      rw [List.filter_eq_nil_iff]; intro r _; simp only [decide_eq_true_eq]; omega
    rw [this]
    apply List.drop_eq_nil_of_le
    rw [List.countP_map, ← List.countP_eq_length_filter]
    apply List.countP_mono_left
    intro r _ hr
    simp only [Function.comp, decide_eq_true_eq] at *
    omega

/-! ### linspace -/

theorem floor_step (E : Int) (d i : Nat) (hd : 0 < d) :
    ((i : Int) + 1) * E / d - i * E / d = E / d ∨ ((i : Int) + 1) * E / d - i * E / d = E / d + 1 := by
  have hd' : (0 : Int) < d := by exact_mod_cast hd
  have e1 := Int.emod_add_mul_ediv ((i : Int) * E) d
  have e2 := Int.emod_add_mul_ediv E d
  have e3 := Int.emod_add_mul_ediv (((i : Int) + 1) * E) d
  have b1 := Int.emod_nonneg ((i : Int) * E) (ne_of_gt hd')
  have b2 := Int.emod_nonneg E (ne_of_gt hd')
  have b3 := Int.emod_nonneg (((i : Int) + 1) * E) (ne_of_gt hd')
  have c1 := Int.emod_lt_of_pos ((i : Int) * E) hd'
  have c2 := Int.emod_lt_of_pos E hd'
  have c3 := Int.emod_lt_of_pos (((i : Int) + 1) * E) hd'
  have key : (d : Int) * (((i : Int) + 1) * E / d - i * E / d - E / d)
      = (i : Int) * E % d + E % d - ((i : Int) + 1) * E % d := by
    linarith [e1, e2, e3, mul_sub (d : Int) (((i : Int) + 1) * E / d - i * E / d) (E / d),
      mul_sub (d : Int) (((i : Int) + 1) * E / d) (i * E / d), add_mul (i : Int) 1 E, one_mul E]
  set q := ((i : Int) + 1) * E / d - i * E / d - E / d with hq
  have q1 : -1 < q := by
    by_contra hc
    have : q ≤ -1 := by omega
    have := mul_le_mul_of_nonneg_left this (le_of_lt hd')
    linarith
  have q2 : q < 2 := by
    by_contra hc
    have : 2 ≤ q := by omega
    have := mul_le_mul_of_nonneg_left this (le_of_lt hd')
    linarith
  have : q = 0 ∨ q = 1 := by omega
  rcases this with h | h
  · left; omega
  · right; omega

/-! ### Regrouping -/

theorem mapM_ok {A B : Type} (f : A → Except Err B) (g : A → B) :
    ∀ l : List A, (∀ a ∈ l, f a = .ok (g a)) → l.mapM f = .ok (l.map g)
  | [], _ => rfl
  | a :: l, h => by
    rw [List.mapM_cons, h a (by simp), mapM_ok f g l (fun x hx => h x (by simp [hx]))]
    rfl

theorem starmap_get {A B : Type} (f : A → B) (params : List A) :
    ∀ (schedule : List Nat) (slots : List (Option B)), slots.length = params.length →
      ∀ i, (schedule.foldl (fun slots i =>
          match params[i]? with
          | some a => slots.set i (some (f a))
          | none => slots) slots)[i]?
        = if i ∈ schedule then (params[i]?).map (fun a => some (f a)) else slots[i]?
  | [], slots, _, i => by simp
  | j :: sch, slots, hl, i => by
    rw [List.foldl_cons]
    cases hj : params[j]? with
    | none =>
      rw [starmap_get f params sch slots hl i]
      have hj' := List.getElem?_eq_none_iff.1 hj
      by_cases hi : i ∈ sch
      · simp [hi]
      · by_cases hij : i = j
        · subst hij
          have : slots[i]? = none := List.getElem?_eq_none_iff.2 (by omega)
          simp [hi, hj, this]
        · simp [hi, hij]
    | some a =>
      rw [starmap_get f params sch (slots.set j (some (f a))) (by simpa using hl) i]
      obtain ⟨hlt, hja⟩ := List.getElem?_eq_some_iff.1 hj
      by_cases hi : i ∈ sch
      · simp [hi]
      · by_cases hij : i = j
        · subst hij
          simp [hi, hl, hlt, hja]
        · simp [hi, hij, Ne.symm hij]

theorem starmap_eq {A B : Type} (f : A → B) (params : List A) (schedule : List Nat)
    (h : ∀ i < params.length, i ∈ schedule) :
    starmap schedule f params = params.map (fun a => some (f a)) := by
  apply List.ext_getElem?
  intro i
  unfold starmap
  refine (starmap_get f params schedule _ (by simp) i).trans ?_
  rw [List.getElem?_map]
  by_cases hi : i < params.length
  · simp [h i hi]
  · have h1 : params[i]? = none := List.getElem?_eq_none_iff.2 (by omega)
    have h2 : (List.replicate params.length (none : Option B))[i]? = none :=
      List.getElem?_eq_none_iff.2 (by simp; omega)
    rw [h1, h2]; simp

theorem slots_mapM {B : Type} : ∀ l : List B, (l.map some).mapM slotResult = .ok l
  | [] => rfl
  | b :: l => by
    rw [List.map_cons, List.mapM_cons, slots_mapM l]; rfl

theorem forall₂_zip_range {A B : Type} (R : A → B → Prop) (ks : List Nat) :
    ∀ (l : List A) (out : List (Nat × B)),
      List.Forall₂ (fun e o => o.1 = e.1 ∧ R e.2 o.2) (ks.zip l) out → ks.length = l.length →
      out.map (·.1) = ks ∧ List.Forall₂ R l (out.map (·.2)) := by
  induction ks with
  | nil =>
    intro l out h hl
    have : l = [] := by simpa using hl.symm
    subst this
    cases h
    exact ⟨rfl, List.Forall₂.nil⟩
  | cons k ks ih =>
    intro l out h hl
    cases l with
    | nil => simp at hl
    | cons a l =>
      rw [List.zip_cons_cons] at h
      cases h with
      | cons h1 h2 =>
        obtain ⟨i1, i2⟩ := ih l _ h2 (by simpa using hl)
        exact ⟨by simp [h1.1, i1], List.Forall₂.cons h1.2 i2⟩

theorem dictGet_nodup {K A : Type} [DecidableEq K] (d : List (K × A)) (h : (d.map (·.1)).Nodup) :
    ∀ e ∈ d, dictGet d e.1 = some e.2 := by
  induction d with
  | nil => intro e he; simp at he
  | cons x d ih =>
    intro e he
    rw [List.map_cons, List.nodup_cons] at h
    rcases List.mem_cons.1 he with rfl | he
    · simp [dictGet]
    · have hne : x.1 ≠ e.1 := fun eq => h.1 (eq ▸ List.mem_map_of_mem he)
      have := ih h.2 e he
      simp only [dictGet, List.find?_cons] at this ⊢
      simpa [hne] using this

theorem dictToList_self {K A : Type} [DecidableEq K] (keys : List K) (d : List (K × A))
    (hk : d.map (·.1) = keys) (h : keys.Nodup) : dictToList keys d = .ok (d.map (·.2)) := by
  subst hk
  have key : ∀ s : List (K × A), (∀ e ∈ s, e ∈ d) →
      (s.map (·.1)).mapM (fun k => (dictGet d k).elim (Except.error Err.keyError) Except.ok)
        = .ok (s.map (·.2)) := by
    intro s
    induction s with
    | nil => intro _; rfl
    | cons e s ih =>
      intro hs
      rw [List.map_cons, List.mapM_cons, dictGet_nodup d h e (hs e (by simp)),
        ih (fun x hx => hs x (by simp [hx]))]
      rfl
  exact key d (fun e he => he)

theorem pickFold_mapM {K A F : Type} (part : F → A) (i : Nat) (raw : List (K × List F)) :
    (∀ e ∈ raw, i < e.2.length) →
    ∃ out, raw.mapM (pickFold part i) = .ok out ∧
      List.Forall₂ (fun e o => o.1 = e.1 ∧ (e.2[i]?).map part = some o.2) raw out := by
  induction raw with
  | nil => intro _; exact ⟨[], rfl, List.Forall₂.nil⟩
  | cons e raw ih =>
    intro h
    obtain ⟨out, h1, h2⟩ := ih (fun x hx => h x (by simp [hx]))
    have hi := h e (by simp)
    refine ⟨(e.1, part e.2[i]) :: out, ?_, List.Forall₂.cons ⟨rfl, by simp [hi]⟩ h2⟩
    rw [List.mapM_cons, h1]
    simp only [pickFold, List.getElem?_eq_getElem hi]
    rfl

theorem mapM_range_ok {B : Type} (P : Nat → B → Prop) (f : Nat → Except Err B) (n : Nat)
    (h : ∀ i < n, ∃ b, f i = .ok b ∧ P i b) :
    ∃ res, (List.range n).mapM f = .ok res ∧ res.length = n ∧
      ∀ i (hi : i < res.length), P i res[i] := by
  have gen : ∀ (m s : Nat), s + m ≤ n → ∃ res, (List.range' s m).mapM f = .ok res ∧ res.length = m ∧
      ∀ i (hi : i < res.length), P (s + i) res[i] := by
    intro m
    induction m with
    | zero => intro s _; exact ⟨[], rfl, rfl, by simp⟩
    | succ m ih =>
      intro s hs
      obtain ⟨b, hb, hP⟩ := h s (by omega)
      obtain ⟨res, h1, h2, h3⟩ := ih (s + 1) (by omega)
      refine ⟨b :: res, ?_, by simp [h2], ?_⟩
      · rw [List.range'_succ, List.mapM_cons, hb, h1]; rfl
      · intro i hi
        cases i with
        | zero => simpa using hP
        | succ i =>
          have := h3 i (by simpa using hi)
          simpa [Nat.add_assoc, Nat.add_comm 1 i] using this
  obtain ⟨res, h1, h2, h3⟩ := gen n 0 (by omega)
  refine ⟨res, ?_, h2, ?_⟩
  · rw [List.range_eq_range']; exact h1
  · intro i hi; simpa using h3 i hi

theorem mapM_mem_ok {A B : Type} (P : A → B → Prop) (f : A → Except Err B) (l : List A)
    (h : ∀ a ∈ l, ∃ b, f a = .ok b ∧ P a b) :
    ∃ res, l.mapM f = .ok res ∧ List.Forall₂ P l res := by
  induction l with
  | nil => exact ⟨[], rfl, List.Forall₂.nil⟩
  | cons a l ih =>
    obtain ⟨b, hb, hP⟩ := h a (by simp)
    obtain ⟨res, h1, h2⟩ := ih (fun x hx => h x (by simp [hx]))
    exact ⟨b :: res, by rw [List.mapM_cons, hb, h1]; rfl, List.Forall₂.cons hP h2⟩

end Kats

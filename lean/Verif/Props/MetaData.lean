import Verif.Model.MetaData
import Verif.Props.GmParam
import Mathlib.Tactic.Linarith
import Mathlib.Algebra.Order.Field.Basic

/-!
# C146: the meta data of a series
-/

namespace Kats

/-- A number that is not NaN and not infinite. -/
def MdFinite (x : GmFlt) : Prop := ∃ q, x = .fin q

theorem md_finite_iff (x : GmFlt) : (x ≠ .nan ∧ x ≠ .pinf ∧ x ≠ .ninf) ↔ MdFinite x := by
  rcases x with q | _ | _ | _ <;> simp [MdFinite]

/-! ## Scaling -/

theorem md_max (l : List Rat) (h : l ≠ []) :
    ∃ m, mdMax (l.map .fin) = .fin m ∧ m ∈ l ∧ ∀ x ∈ l, x ≤ m := by
  have key : ∀ (l : List Rat) (m : Rat), ∃ m', (l.map GmFlt.fin).foldl
      (fun m x => if m = .nan then x else if gmLt m x then x else m) (.fin m) = .fin m' ∧ (m' = m ∨ m' ∈ l) ∧ m ≤ m' ∧
        ∀ x ∈ l, x ≤ m' := by
    intro l
    induction l with
    | nil => intro m; exact ⟨m, rfl, Or.inl rfl, le_refl _, fun _ h => absurd h List.not_mem_nil⟩
    | cons a l ih =>
      intro m
      rw [List.map_cons, List.foldl_cons, if_neg (by simp)]
      by_cases hma : m < a
      · have hg : gmLt (.fin m) (.fin a) = true := by simp [gmLt, gmLe, hma, le_of_lt hma]
        rw [if_pos hg]
        obtain ⟨m', e1, e2, e3, e4⟩ := ih a
        refine ⟨m', e1, ?_, le_trans (le_of_lt hma) e3, ?_⟩
        · rcases e2 with e2 | e2
          · exact Or.inr (by rw [e2]; exact List.mem_cons_self)
          · exact Or.inr (List.mem_cons_of_mem _ e2)
        · intro x hx
          rcases List.mem_cons.1 hx with hx | hx
          · rw [hx]; exact e3
          · exact e4 x hx
      · have hg : ¬ gmLt (.fin m) (.fin a) = true := by
          simp only [gmLt, gmLe, Bool.and_eq_true, decide_eq_true_eq, Bool.not_eq_true', decide_eq_false_iff_not]
          rintro ⟨_, h2⟩
          exact hma (not_le.1 h2)
        rw [if_neg hg]
        obtain ⟨m', e1, e2, e3, e4⟩ := ih m
        refine ⟨m', e1, ?_, e3, ?_⟩
        · rcases e2 with e2 | e2
          · exact Or.inl e2
          · exact Or.inr (List.mem_cons_of_mem _ e2)
        · intro x hx
          rcases List.mem_cons.1 hx with hx | hx
          · rw [hx]; exact le_trans (not_lt.1 hma) e3
          · exact e4 x hx
  rcases l with _ | ⟨a, l⟩
  · exact absurd rfl h
  obtain ⟨m, e1, e2, e3, e4⟩ := key l a
  refine ⟨m, ?_, ?_, ?_⟩
  · unfold mdMax
    rw [List.map_cons, List.foldl_cons, if_pos rfl]
    exact e1
  · rcases e2 with e2 | e2
    · rw [e2]; exact List.mem_cons_self
    · exact List.mem_cons_of_mem _ e2
  · intro x hx
    rcases List.mem_cons.1 hx with hx | hx
    · rw [hx]; exact e3
    · exact e4 x hx

/-- C146, the part that holds: a series with a positive value keeps its order when it is scaled, and its greatest value becomes one. -/
theorem C146_scale_partial (l : List Rat) (h : ∃ x ∈ l, 0 < x) : ∃ m, 0 < m ∧ m ∈ l ∧ (∀ x ∈ l, x ≤ m) ∧
    mdScale (l.map .fin) = l.map (fun x => .fin (x / m)) ∧ (∀ x ∈ l, x / m ≤ 1) ∧ m / m = 1 ∧
    ∀ x y : Rat, x < y ↔ x / m < y / m := by
  obtain ⟨x, hx, hx0⟩ := h
  obtain ⟨m, e1, e2, e3⟩ := md_max l (List.ne_nil_of_mem hx)
  have hm : 0 < m := lt_of_lt_of_le hx0 (e3 x hx)
  refine ⟨m, hm, e2, e3, ?_, ?_, div_self (ne_of_gt hm), ?_⟩
  · unfold mdScale
    rw [e1, List.map_map]
    apply List.map_congr_left
    intro y _
    simp only [Function.comp_apply, mdDiv]
    rw [if_neg (ne_of_gt hm)]
  · intro y hy
    rw [div_le_one hm]
    exact e3 y hy
  · intro a b
    rw [div_lt_div_iff_of_pos_right hm]

/-- C146 violated: scaling should keep the form of a series.  A series of negative values is turned upside down: what was
greater becomes less. -/
theorem C146_scale_violated (l : List Rat) (hne : l ≠ []) (h : ∀ x ∈ l, x < 0) : ∃ f : Rat → Rat,
    mdScale (l.map .fin) = l.map (fun x => .fin (f x)) ∧ ∀ x y, x < y → f y < f x := by
  obtain ⟨m, e1, e2, _⟩ := md_max l hne
  have hm := h m e2
  refine ⟨fun x => x / m, ?_, ?_⟩
  · unfold mdScale
    rw [e1, List.map_map]
    apply List.map_congr_left
    intro y _
    simp only [Function.comp_apply, mdDiv]
    rw [if_neg (ne_of_lt hm)]
  · intro x y hxy
    exact (div_lt_div_right_of_neg hm).2 hxy

/-- C146 violated: scaling should keep the form of a series.  If its greatest value is zero, every negative value becomes minus infinity and every zero NaN. -/
theorem C146_infinite_violated (l : List Rat) (h0 : (0 : Rat) ∈ l) (hle : ∀ x ∈ l, x ≤ 0) :
    mdScale (l.map .fin) = l.map fun x => if x < 0 then .ninf else .nan := by
  obtain ⟨m, e1, e2, e3⟩ := md_max l (List.ne_nil_of_mem h0)
  have hm : m = 0 := le_antisymm (hle m e2) (e3 0 h0)
  unfold mdScale
  rw [e1, List.map_map, hm]
  apply List.map_congr_left
  intro y hy
  simp only [Function.comp_apply, mdDiv]
  rw [if_pos trivial, if_neg (not_lt.2 (hle y hy))]

/-- C146 violated: series with NaN or infinity should be refused.  A series whose greatest value is zero is accepted and then scaled:
no value that is left is a number. -/
theorem C146_zero_violated (l : List Rat) (h0 : (0 : Rat) ∈ l) (hneg : ∃ x ∈ l, x < 0) (hle : ∀ x ∈ l, x ≤ 0) (models : List String) :
    ∃ d, mdInit ⟨"time", some (l.map .fin), models, models, l.length, true, "mae"⟩ = .ok d ∧ d.data.length = l.length ∧
      ∀ x ∈ d.data, ¬ MdFinite x := by
  obtain ⟨m, e1, e2, e3⟩ := md_max l (List.ne_nil_of_mem h0)
  have hm : m = 0 := le_antisymm (hle m e2) (e3 0 h0)
  rw [hm] at e1
  obtain ⟨y, hy, hy0⟩ := hneg
  have hval : mdValidate l.length (l.map .fin) = .ok () := by
    unfold mdValidate
    rw [if_neg (by rw [List.length_map]; omega), if_neg, if_neg]
    · rw [List.any_eq_true]
      rintro ⟨x, hx, hx'⟩
      obtain ⟨q, _, rfl⟩ := List.mem_map.1 hx
      simp at hx'
    · have hf : ((l.map GmFlt.fin).filter fun x => decide (x ≠ .nan)) = l.map .fin := by
        rw [List.filter_eq_self]
        intro x hx
        obtain ⟨q, _, rfl⟩ := List.mem_map.1 hx
        simp
      rw [hf]
      intro hle1
      have m1 : GmFlt.fin 0 ∈ (l.map GmFlt.fin).dedup := List.mem_dedup.2 (List.mem_map.2 ⟨0, h0, rfl⟩)
      have m2 : GmFlt.fin y ∈ (l.map GmFlt.fin).dedup := List.mem_dedup.2 (List.mem_map.2 ⟨y, hy, rfl⟩)
      rcases hd : (l.map GmFlt.fin).dedup with _ | ⟨a, _ | ⟨b, t⟩⟩
      · rw [hd] at m1; exact List.not_mem_nil m1
      · rw [hd, List.mem_singleton] at m1 m2
        rw [← m2] at m1
        injection m1 with m1
        rw [← m1] at hy0
        exact lt_irrefl _ hy0
      · rw [hd] at hle1
        simp at hle1
  refine ⟨⟨mdScale (l.map .fin), (mdScale (l.map .fin)).take ((mdScale (l.map .fin)).length * 4 / 5),
    (mdScale (l.map .fin)).drop ((mdScale (l.map .fin)).length * 4 / 5)⟩, ?_, ?_, ?_⟩
  · unfold mdInit
    simp only []
    rw [if_neg (by simp), gm_bind_ok]
    refine ⟨(), hval, ?_⟩
    rw [if_neg (by decide), if_neg (by simp)]
    rfl
  · simp [mdScale]
  · intro x hx
    simp only [] at hx
    unfold mdScale at hx
    obtain ⟨z, hz, rfl⟩ := List.mem_map.1 hx
    obtain ⟨q, hq, rfl⟩ := List.mem_map.1 hz
    rw [e1]
    rintro ⟨r, hr⟩
    simp only [mdDiv, if_true] at hr
    split at hr
    · cases hr
    · split at hr <;> cases hr

/-- C146: a series is accepted exactly if its time column is named "time", it has one column, enough values, two or more of them different and
all finite, the error is known and the models are those of the parameters.  The first four fifths, rounded down, are for training, the rest for
the test, and none of the two is empty. -/
theorem C146_init (a : MdArgs) : ((∃ d, mdInit a = .ok d) ↔ a.timeCol = "time" ∧ a.errorMethod ∈ ["mape", "smape", "mae", "mase", "mse", "rmse"] ∧
      (∀ m, m ∈ a.models ↔ m ∈ a.params) ∧ ∃ v : List Rat, a.values = some (v.map .fin) ∧ a.minLength ≤ v.length ∧
        ∃ x ∈ v, ∃ y ∈ v, x ≠ y) ∧
    ∀ d, mdInit a = .ok d → ∃ v, a.values = some v ∧ d.data = (if a.scale then mdScale v else v) ∧
      d.train ++ d.test = d.data ∧ d.train.length = v.length * 4 / 5 ∧ d.train ≠ [] ∧ d.test ≠ [] := by
  have hval : ∀ v, mdValidate a.minLength v = .ok () ↔ ∃ q : List Rat, v = q.map .fin ∧ a.minLength ≤ q.length ∧
      ∃ x ∈ q, ∃ y ∈ q, x ≠ y := by
    intro v
    unfold mdValidate
    constructor
    · intro h
      split at h
      · cases h
      split at h
      · cases h
      split at h
      · cases h
      rename_i h1 h2 h3
      have hfin : ∀ x ∈ v, MdFinite x := by
        intro x hx
        rw [← md_finite_iff]
        refine ⟨?_, ?_, ?_⟩ <;> (rintro rfl; exact h3 (List.any_eq_true.2 ⟨_, hx, by simp⟩))
      obtain ⟨q, hq⟩ : ∃ q : List Rat, v = q.map .fin := by
        clear h1 h2 h3
        induction v with
        | nil => exact ⟨[], rfl⟩
        | cons b v ih =>
          obtain ⟨q, hq⟩ := ih fun x hx => hfin x (List.mem_cons_of_mem _ hx)
          obtain ⟨r, hr⟩ := hfin b List.mem_cons_self
          exact ⟨r :: q, by rw [hq, hr]; rfl⟩
      refine ⟨q, hq, ?_, ?_⟩
      · rw [hq, List.length_map] at h1; omega
      · have hf : (v.filter fun x => decide (x ≠ .nan)) = v := by
          rw [List.filter_eq_self]
          intro x hx
          obtain ⟨r, rfl⟩ := hfin x hx
          simp
        rw [hf] at h2
        rcases hd : v.dedup with _ | ⟨b, _ | ⟨c, t⟩⟩
        · rw [hd] at h2; simp at h2
        · rw [hd] at h2; simp at h2
        · have hb : b ∈ v := List.mem_dedup.1 (by rw [hd]; exact List.mem_cons_self)
          have hc : c ∈ v := List.mem_dedup.1 (by rw [hd]; exact List.mem_cons_of_mem _ List.mem_cons_self)
          have hne : b ≠ c := by
            have := List.nodup_dedup v
            rw [hd, List.nodup_cons] at this
            exact fun e => this.1 (by rw [e]; exact List.mem_cons_self)
          rw [hq] at hb hc
          obtain ⟨x, hx, rfl⟩ := List.mem_map.1 hb
          obtain ⟨y, hy, rfl⟩ := List.mem_map.1 hc
          exact ⟨x, hx, y, hy, fun e => hne (by rw [e])⟩
    · rintro ⟨q, rfl, h1, x, hx, y, hy, hxy⟩
      rw [if_neg (by rw [List.length_map]; omega), if_neg, if_neg]
      · rw [List.any_eq_true]
        rintro ⟨x, hx, hx'⟩
        obtain ⟨q, _, rfl⟩ := List.mem_map.1 hx
        simp at hx'
      · have hf : ((q.map GmFlt.fin).filter fun x => decide (x ≠ .nan)) = q.map .fin := by
          rw [List.filter_eq_self]
          intro x hx
          obtain ⟨q, _, rfl⟩ := List.mem_map.1 hx
          simp
        rw [hf]
        intro hle1
        have m1 : GmFlt.fin x ∈ (q.map GmFlt.fin).dedup := List.mem_dedup.2 (List.mem_map.2 ⟨x, hx, rfl⟩)
        have m2 : GmFlt.fin y ∈ (q.map GmFlt.fin).dedup := List.mem_dedup.2 (List.mem_map.2 ⟨y, hy, rfl⟩)
        rcases hd : (q.map GmFlt.fin).dedup with _ | ⟨a, _ | ⟨b, t⟩⟩
        · rw [hd] at m1; exact List.not_mem_nil m1
        · rw [hd, List.mem_singleton] at m1 m2
          rw [← m2] at m1
          injection m1 with m1
          exact hxy m1
        · rw [hd] at hle1
          simp at hle1
  have hmain : ∀ d, mdInit a = .ok d ↔ a.timeCol = "time" ∧ a.errorMethod ∈ ["mape", "smape", "mae", "mase", "mse", "rmse"] ∧
      (∀ m, m ∈ a.models ↔ m ∈ a.params) ∧ ∃ v, a.values = some v ∧ mdValidate a.minLength v = .ok () ∧
      d = ⟨if a.scale then mdScale v else v, (if a.scale then mdScale v else v).take
        ((if a.scale then mdScale v else v).length * 4 / 5), (if a.scale then mdScale v else v).drop
        ((if a.scale then mdScale v else v).length * 4 / 5)⟩ := by
    intro d
    unfold mdInit
    rcases hv : a.values with _ | v
    · simp only []
      split_ifs <;> simp
    · simp only []
      constructor
      · intro h
        split at h
        · cases h
        rename_i ht
        obtain ⟨_, h1, h⟩ := (gm_bind_ok _ _ _).1 h
        split at h
        · cases h
        split at h
        · cases h
        rename_i he hm
        injection h with h
        rw [not_or, not_not, not_not] at hm
        refine ⟨?_, not_not.1 he, fun m => ⟨hm.1 m, hm.2 m⟩, v, rfl, h1, h.symm⟩
        by_contra hc
        have : some v = some [] := by
          by_contra hc2
          exact ht ⟨hc, hc2⟩
        injection this with this
        rw [this] at h1
        unfold mdValidate at h1
        split at h1
        · cases h1
        · simp at h1
      · rintro ⟨ht, he, hm, v', hv', h1, rfl⟩
        injection hv' with hv'
        subst hv'
        rw [if_neg (by rw [ht]; simp), gm_bind_ok]
        refine ⟨(), h1, ?_⟩
        rw [if_neg (show ¬ a.errorMethod ∉ mdAllowed from not_not.2 he), if_neg]
        · rfl
        · rw [not_or, not_not, not_not]
          exact ⟨fun m h => (hm m).1 h, fun m h => (hm m).2 h⟩
  constructor
  · constructor
    · rintro ⟨d, hd⟩
      obtain ⟨ht, he, hm, v, hv, h1, _⟩ := (hmain d).1 hd
      obtain ⟨q, rfl, h2, h3⟩ := (hval v).1 h1
      exact ⟨ht, he, hm, q, hv, h2, h3⟩
    · rintro ⟨ht, he, hm, q, hv, h2, h3⟩
      exact ⟨_, (hmain _).2 ⟨ht, he, hm, _, hv, (hval _).2 ⟨q, rfl, h2, h3⟩, rfl⟩⟩
  · intro d hd
    obtain ⟨ht, he, hm, v, hv, h1, rfl⟩ := (hmain d).1 hd
    obtain ⟨q, rfl, h2, x, hx, y, hy, hxy⟩ := (hval v).1 h1
    have hlen : (if a.scale then mdScale (q.map .fin) else q.map .fin).length = q.length := by
      split_ifs <;> simp [mdScale]
    have hq2 : 2 ≤ q.length := by
      rcases q with _ | ⟨b, _ | ⟨c, q⟩⟩
      · exact absurd hx List.not_mem_nil
      · rw [List.mem_singleton] at hx hy
        exact absurd (hx.trans hy.symm) hxy
      · simp
    refine ⟨_, hv, rfl, List.take_append_drop _ _, ?_, ?_, ?_⟩
    · simp only []
      rw [List.length_take, hlen, List.length_map]
      omega
    · simp only []
      intro hc
      have := congrArg List.length hc
      rw [List.length_take, hlen, List.length_nil] at this
      omega
    · simp only []
      intro hc
      have := congrArg List.length hc
      rw [List.length_drop, hlen, List.length_nil] at this
      omega

example : ((mdInit ⟨"time", some [.fin 1, .fin 4, .fin 2], ["arima"], ["arima"], 3, true, "mae"⟩).toOption.map fun d =>
    (d.train, d.test)) = some ([.fin (1 / 4), .fin 1], [.fin (1 / 2)]) := by decide +kernel

/-! ## The search -/

section
variable {P : Type}

theorem md_find_min {α : Type} (l : List α) (le : α → α → Bool) (h1 : ∀ x, x ∈ l → le x x = true)
    (h2 : ∀ x ∈ l, ∀ y ∈ l, ∀ z ∈ l, le x y = true → le y z = true → le x z = true)
    (h3 : ∀ x ∈ l, ∀ y ∈ l, le x y = true ∨ le y x = true) (hne : l ≠ []) :
    ∃ (i : Nat) (x : α), l[i]? = some x ∧ l.find? (fun x => l.all fun y => le x y) = some x ∧ (∀ y ∈ l, le x y = true) ∧
      ∀ (j : Nat) y, j < i → l[j]? = some y → le y x = false := by
  have hex : ∃ x ∈ l, ∀ y ∈ l, le x y = true := by
    clear * - h1 h2 h3 hne
    induction l with
    | nil => exact absurd rfl hne
    | cons a l ih =>
      by_cases hl : l = []
      · subst hl
        exact ⟨a, List.mem_cons_self, fun y hy => by rw [List.mem_singleton] at hy; rw [hy]; exact h1 a List.mem_cons_self⟩
      obtain ⟨x, hx, hx'⟩ := ih (fun x hx => h1 x (List.mem_cons_of_mem _ hx))
        (fun x hx y hy z hz => h2 x (List.mem_cons_of_mem _ hx) y (List.mem_cons_of_mem _ hy) z (List.mem_cons_of_mem _ hz))
        (fun x hx y hy => h3 x (List.mem_cons_of_mem _ hx) y (List.mem_cons_of_mem _ hy)) hl
      have hxm := List.mem_cons_of_mem a hx
      rcases h3 x hxm a List.mem_cons_self with hxa | hax
      · refine ⟨x, hxm, ?_⟩
        intro y hy
        rcases List.mem_cons.1 hy with rfl | hy
        · exact hxa
        · exact hx' y hy
      · refine ⟨a, List.mem_cons_self, ?_⟩
        intro y hy
        rcases List.mem_cons.1 hy with rfl | hy
        · exact h1 _ List.mem_cons_self
        · exact h2 a List.mem_cons_self x hxm y (List.mem_cons_of_mem _ hy) hax (hx' y hy)
  obtain ⟨w, hw, hw'⟩ := hex
  rcases hf : l.find? (fun x => l.all fun y => le x y) with _ | x
  · rw [List.find?_eq_none] at hf
    exact absurd (List.all_eq_true.2 hw') (hf w hw)
  · obtain ⟨hx, i, hi, hget, hbefore⟩ := List.find?_eq_some_iff_getElem.1 hf
    rw [List.all_eq_true] at hx
    refine ⟨i, x, by rw [List.getElem?_eq_getElem hi, hget], rfl, hx, ?_⟩
    intro j y hj hy
    obtain ⟨hjl, hy'⟩ := List.getElem?_eq_some_iff.1 hy
    by_contra hc
    rw [Bool.not_eq_false] at hc
    have := hbefore j hj
    rw [Bool.not_eq_true', hy', List.all_eq_false] at this
    obtain ⟨z, hz, hz'⟩ := this
    have hym : y ∈ l := List.mem_of_getElem? hy
    exact hz' (h2 y hym x (by rw [← hget]; exact List.getElem_mem hi) z hz hc (hx z hz))

/-- C146: the search gives the first of the parameters with the least error among those whose error is a number, and this error; if there are no such
parameters it gives none and infinity. -/
theorem C146_tune (method : SearchMethod) (gen : Nat → Int → List P) (trials arms : Int) (eval : P → GmFlt) (tried : List P)
    (ht : tried = if method = .grid then gen 0 (-1) else (List.range trials.toNat).flatMap fun i => gen i arms) :
    ((∀ p ∈ tried, ¬ MdFinite (eval p)) → mdTune method gen trials arms eval = (none, .pinf)) ∧
    ((∃ p ∈ tried, MdFinite (eval p)) → ∃ (i : Nat) (p : P) (q : Rat), tried[i]? = some p ∧ eval p = .fin q ∧
      mdTune method gen trials arms eval = (some p, .fin q) ∧ (∀ p' ∈ tried, ∀ q', eval p' = .fin q' → q ≤ q') ∧
      ∀ (j : Nat) p' q', j < i → tried[j]? = some p' → eval p' = .fin q' → q < q') := by
  have hm : mdTune method gen trials arms eval = mdBest (tried.map fun p => (p, eval p)) := by rw [ht]; rfl
  rw [hm]
  have hfil : ((tried.map fun p => (p, eval p)).filter fun x => decide (x.2 ≠ .nan ∧ x.2 ≠ .pinf ∧ x.2 ≠ .ninf)) =
      (tried.filter fun p => decide (eval p ≠ .nan ∧ eval p ≠ .pinf ∧ eval p ≠ .ninf)).map fun p => (p, eval p) := by
    rw [List.filter_map]
    rfl
  constructor
  · intro h
    unfold mdBest
    simp only []
    have : (tried.filter fun p => decide (eval p ≠ .nan ∧ eval p ≠ .pinf ∧ eval p ≠ .ninf)) = [] := by
      rw [List.filter_eq_nil_iff]
      intro p hp
      rw [decide_eq_true_eq, md_finite_iff]
      exact h p hp
    rw [hfil, this]
    rfl
  · rintro ⟨p0, hp0, hp0'⟩
    have hne : tried.filter (fun p => decide (eval p ≠ .nan ∧ eval p ≠ .pinf ∧ eval p ≠ .ninf)) ≠ [] :=
      List.ne_nil_of_mem (List.mem_filter.2 ⟨hp0, by rw [decide_eq_true_eq, md_finite_iff]; exact hp0'⟩)
    have hmem' : ∀ p ∈ tried.filter (fun p => decide (eval p ≠ .nan ∧ eval p ≠ .pinf ∧ eval p ≠ .ninf)), ∃ q, eval p = .fin q := by
      intro p hp
      have := (List.mem_filter.1 hp).2
      rwa [decide_eq_true_eq, md_finite_iff] at this
    obtain ⟨i, p, hi, hfind, hmin, hfirst⟩ := md_find_min
      (tried.filter (fun p => decide (eval p ≠ .nan ∧ eval p ≠ .pinf ∧ eval p ≠ .ninf))) (fun x y => gmLe (eval x) (eval y))
      (fun x hx => by obtain ⟨q, hq⟩ := hmem' x hx; simp [hq, gmLe])
      (fun x hx y hy z hz => by
        obtain ⟨a, ha⟩ := hmem' x hx
        obtain ⟨b, hb⟩ := hmem' y hy
        obtain ⟨c, hc⟩ := hmem' z hz
        simp only [ha, hb, hc, gmLe, decide_eq_true_eq]
        exact le_trans)
      (fun x hx y hy => by
        obtain ⟨a, ha⟩ := hmem' x hx
        obtain ⟨b, hb⟩ := hmem' y hy
        simp only [ha, hb, gmLe, decide_eq_true_eq]
        exact le_total a b) hne
    obtain ⟨q, hq⟩ := hmem' p (List.mem_of_getElem? hi)
    have hbest : mdBest (tried.map fun p => (p, eval p)) = (some p, .fin q) := by
      unfold mdBest
      simp only []
      rw [hfil, List.find?_map]
      have hcomp : ((fun x : P × GmFlt => (List.map (fun p => (p, eval p)) (tried.filter fun p =>
          decide (eval p ≠ .nan ∧ eval p ≠ .pinf ∧ eval p ≠ .ninf))).all fun y => gmLe x.2 y.2) ∘ fun p => (p, eval p)) =
          fun x => (tried.filter fun p => decide (eval p ≠ .nan ∧ eval p ≠ .pinf ∧ eval p ≠ .ninf)).all fun y =>
            gmLe (eval x) (eval y) := by
        funext x
        simp only [Function.comp_apply, List.all_map]
        rfl
      rw [hcomp, hfind]
      simp [hq]
    -- the position in `tried`
    have hp : p ∈ tried := (List.mem_filter.1 (List.mem_of_getElem? hi)).1
    have hminT : ∀ p' ∈ tried, ∀ q', eval p' = .fin q' → q ≤ q' := by
      intro p' hp' q' hq'
      have := hmin p' (List.mem_filter.2 ⟨hp', by rw [decide_eq_true_eq, md_finite_iff]; exact ⟨q', hq'⟩⟩)
      simpa [hq, hq', gmLe] using this
    -- the first element of `tried` that is chosen by the predicate
    have hff : tried.find? (fun p => decide (eval p ≠ .nan ∧ eval p ≠ .pinf ∧ eval p ≠ .ninf) &&
        (tried.filter fun p => decide (eval p ≠ .nan ∧ eval p ≠ .pinf ∧ eval p ≠ .ninf)).all fun y => gmLe (eval p) (eval y)) =
        some p := by
      rw [← hfind, List.find?_filter]
      congr 1
      funext p
      rw [Bool.eq_iff_iff]
      simp only [Bool.and_eq_true, decide_eq_true_eq]
    obtain ⟨_, k, hk, hget, hbefore⟩ := List.find?_eq_some_iff_getElem.1 hff
    refine ⟨k, p, q, by rw [List.getElem?_eq_getElem hk, hget], hq, hbest, hminT, ?_⟩
    intro j p' q' hj hp' hq'
    obtain ⟨hjl, hy'⟩ := List.getElem?_eq_some_iff.1 hp'
    have hmem2 : p' ∈ tried := List.mem_of_getElem? hp'
    have hle := hminT p' hmem2 q' hq'
    rcases lt_or_eq_of_le hle with h | h
    · exact h
    · exfalso
      have hb := hbefore j hj
      rw [Bool.not_eq_true', hy', Bool.and_eq_false_iff] at hb
      rcases hb with hb | hb
      · rw [decide_eq_false_iff_not, md_finite_iff] at hb
        exact hb ⟨q', hq'⟩
      · rw [List.all_eq_false] at hb
        obtain ⟨z, hz, hz'⟩ := hb
        obtain ⟨c, hc⟩ := hmem' z hz
        have := hmin z hz
        simp only [hq, hc, gmLe, decide_eq_true_eq] at this
        simp only [hq', hc, gmLe, decide_eq_true_eq] at hz'
        exact hz' (h ▸ this)

/-- C146: parameters with which the model or the metric fails have the error infinity; others have the error of their forecasts for the
test part. -/
theorem C146_evaluate (metric : List GmFlt → List GmFlt → Except Err GmFlt) (forecast : P → Nat → Except Err (List GmFlt))
    (test : List GmFlt) (p : P) :
    (∀ f e, forecast p test.length = .ok f → metric test f = .ok e → mdEvaluate metric forecast test p = e) ∧
    ((∀ f, forecast p test.length = .ok f → ∃ e, metric test f = .error e) → mdEvaluate metric forecast test p = .pinf) := by
  unfold mdEvaluate
  constructor
  · intro f e h1 h2
    rw [h1]
    show (match metric test f with | .ok e => e | .error _ => .pinf) = e
    rw [h2]
  · intro h
    rcases h1 : forecast p test.length with e | f
    · rfl
    · obtain ⟨e, he⟩ := h f h1
      show (match metric test f with | .ok e => e | .error _ => .pinf) = .pinf
      rw [he]

/-- C146: the meta data have the result of the search for every model, the features of the (scaled) data, the names of the search and of the error; the
best model is the first of the models with the least error. -/
theorem C146_meta {F : Type} (features : List GmFlt → Except Err F) (d : MdData) (models : List String)
    (tune : String → Option P × GmFlt) (hnan : ∀ m, (tune m).2 ≠ .nan) (method : SearchMethod) (errorMethod : String) (r : MdVal P F)
    (h : mdGet features d models tune method errorMethod = .ok r) :
    features d.data = .ok r.features ∧ r.hpt = models.map (fun m => (m, tune m)) ∧ r.error = errorMethod ∧
      (∃ i : Nat, models[i]? = some r.best ∧ (∀ m ∈ models, gmLe (tune r.best).2 (tune m).2 = true) ∧
        ∀ (j : Nat) m, j < i → models[j]? = some m → gmLt (tune r.best).2 (tune m).2 = true) ∧
      (r.search = "GridSearch" ↔ method = .grid) ∧ (r.search = "RandomSearch" ↔ method = .uniform ∨ method = .sobol) ∧
      (r.search = "BayesOptimalSearch" ↔ method = .bayes) ∧ (r.search = "Others" ↔ method = .nevergrad) := by
  unfold mdGet at h
  obtain ⟨f, h1, h⟩ := (gm_bind_ok _ _ _).1 h
  obtain ⟨b, h2, h⟩ := (gm_bind_ok _ _ _).1 h
  injection h with h
  subst h
  have hrefl : ∀ x : GmFlt, x ≠ .nan → gmLe x x = true := by
    intro x hx; rcases x with q | _ | _ | _ <;> simp_all [gmLe]
  have htrans : ∀ x y z : GmFlt, gmLe x y = true → gmLe y z = true → gmLe x z = true := by
    intro x y z hxy hyz
    rcases x with a | _ | _ | _ <;> rcases y with b | _ | _ | _ <;> rcases z with c | _ | _ | _ <;> simp_all [gmLe]
    exact le_trans hxy hyz
  have htot : ∀ x y : GmFlt, x ≠ .nan → y ≠ .nan → gmLe x y = true ∨ gmLe y x = true := by
    intro x y hx hy
    rcases x with a | _ | _ | _ <;> rcases y with b | _ | _ | _ <;> simp_all [gmLe]
    exact le_total a b
  have hnl : ∀ x y : GmFlt, x ≠ .nan → y ≠ .nan → (!gmLt y x) = gmLe x y := by
    intro x y hx hy
    unfold gmLt
    rcases hxy : gmLe x y with _ | _
    · rcases htot x y hx hy with h | h
      · rw [h] at hxy; cases hxy
      · simp [h]
    · simp
  refine ⟨h1, rfl, rfl, ?_, ?_⟩
  · unfold mdLabel at h2
    split at h2
    · rename_i x hx
      injection h2 with h2
      have hpred : ((mdTuneAll models tune).find? fun x => (mdTuneAll models tune).all fun y => !gmLt y.2.2 x.2.2) =
          (models.find? fun m => models.all fun m' => gmLe (tune m).2 (tune m').2).map fun m => (m, tune m) := by
        unfold mdTuneAll
        rw [List.find?_map]
        congr 2
        funext m
        simp only [Function.comp_apply, List.all_map]
        congr 1
        funext m'
        exact hnl _ _ (hnan m) (hnan m')
      rw [hpred] at hx
      rcases hf : models.find? (fun m => models.all fun m' => gmLe (tune m).2 (tune m').2) with _ | m
      · rw [hf] at hx; cases hx
      · rw [hf] at hx
        injection hx with hx
        subst hx
        have hbm : m = b := h2
        subst hbm
        have hne : models ≠ [] := List.ne_nil_of_mem (List.mem_of_find?_eq_some hf)
        obtain ⟨i, y, hi, hy, hmin, hfirst⟩ := md_find_min models (fun a b => gmLe (tune a).2 (tune b).2)
          (fun x _ => hrefl _ (hnan x)) (fun x _ y _ z _ => htrans _ _ _) (fun x _ y _ => htot _ _ (hnan x) (hnan y)) hne
        rw [hf] at hy
        injection hy with hy
        subst hy
        refine ⟨i, hi, hmin, ?_⟩
        intro j m' hj hm'
        unfold gmLt
        rw [hmin m' (List.mem_of_getElem? hm'), hfirst j m' hj hm']
        rfl
    · cases h2
  · simp only [mdMethodName]
    rcases method with _ | _ | _ | _ | _ <;> decide

example : (mdGet (fun _ => .ok ()) ⟨[], [], []⟩ ["arima", "theta", "stlf"]
    (fun m => if m = "theta" then (some 1, .fin 2) else if m = "stlf" then (some 4, .fin 2) else (none, .pinf)) .bayes "mae").toOption.map
    (fun r : MdVal Nat Unit => (r.best, r.search)) = some ("theta", "BayesOptimalSearch") := by decide +kernel

/-- C146 violated: the best model should be one that works.  If no model works with any parameters, the first is called the
best. -/
theorem C146_none_violated {F : Type} (features : List GmFlt → Except Err F) (d : MdData) (m : String) (models : List String)
    (gen : String → Nat → Int → List P) (trials arms : Int) (eval : String → P → GmFlt) (method : SearchMethod) (errorMethod : String)
    (f : F) (hf : features d.data = .ok f) (hbad : ∀ m p, eval m p = .pinf) :
    ∃ r, mdGet features d (m :: models) (fun m => mdTune method (gen m) trials arms (eval m)) method errorMethod = .ok r ∧
      r.best = m ∧ ∀ x ∈ r.hpt, x.2 = (none, .pinf) := by
  have ht : ∀ m, mdTune method (gen m) trials arms (eval m) = (none, .pinf) := by
    intro m
    refine (C146_tune method (gen m) trials arms (eval m) _ rfl).1 ?_
    rintro p _ ⟨q, hq⟩
    rw [hbad] at hq
    cases hq
  refine ⟨⟨mdTuneAll (m :: models) (fun m => mdTune method (gen m) trials arms (eval m)), f, m, mdMethodName method, errorMethod⟩, ?_, rfl, ?_⟩
  · unfold mdGet
    rw [gm_bind_ok]
    refine ⟨f, hf, ?_⟩
    rw [gm_bind_ok]
    refine ⟨m, ?_, rfl⟩
    unfold mdLabel mdTuneAll
    simp only [ht, List.map_cons, List.find?_cons]
    have : ((m, ((none : Option P), GmFlt.pinf)) :: models.map fun m => (m, ((none : Option P), GmFlt.pinf))).all
        (fun y => !gmLt y.2.2 .pinf) = true := by
      rw [List.all_eq_true]
      intro y hy
      have : y.2.2 = .pinf := by
        rcases List.mem_cons.1 hy with rfl | hy
        · rfl
        · obtain ⟨_, _, rfl⟩ := List.mem_map.1 hy
          rfl
      rw [this]
      rfl
    rw [this]
  · intro x hx
    obtain ⟨m', _, rfl⟩ := List.mem_map.1 hx
    exact ht m'

end

end Kats

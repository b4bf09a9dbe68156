import Verif.Lemmas.Metrics

/-!
# Properties of the forecast metrics (C18 - C23, C52 - C55)
-/

set_option linter.unusedSimpArgs false

namespace Kats

/-! ## C18 -/

/-- The four array metrics. -/
inductive ArrayMetric | error | absError | pctError | absPctError

def ArrayMetric.run : ArrayMetric → List Val → List Val → Option (List Val) → Except Err (List Val)
  | .error => metError
  | .absError => metAbsError
  | .pctError => metPctError
  | .absPctError => metAbsPctError

/-- C18: arrays of different lengths are rejected with `ValueError`, by every array metric. -/
theorem C18_mismatch (k : ArrayMetric) (t p : List Val) (w : Option (List Val))
    (h : t.length ≠ p.length ∨ ∃ v, w = some v ∧ v.length ≠ t.length) :
    k.run t p w = .error .valueError := by
  cases w with
  | none =>
    have h' : ¬ p.length = t.length := by
      rcases h with h | ⟨v, hv, _⟩
      · exact fun e => h e.symm
      · cases hv
    cases k <;> simp [ArrayMetric.run, metError, metAbsError, metPctError, metAbsPctError,
      arraysOk3n, h', bind, Except.bind]
  | some v =>
    have h' : ¬ (p.length = t.length ∧ v.length = t.length) := by
      rintro ⟨e1, e2⟩
      rcases h with h | ⟨v', hv, h⟩
      · exact h e1.symm
      · injection hv with hv; subst hv; exact h e2
    cases k <;> simp only [ArrayMetric.run, metError, metAbsError, metPctError, metAbsPctError,
      arraysOk3, if_neg h', bind, Except.bind]

example : metPctError [some 1, some 2] [some 1] none = .error .valueError :=
  C18_mismatch .pctError _ _ _ (Or.inl (by simp))

/-- C18: otherwise the result has the same length, and on finite arrays no entry is NaN. -/
theorem C18_length (k : ArrayMetric) (t p : List Val) (w : Option (List Val))
    (h : t.length = p.length) (hw : ∀ v, w = some v → v.length = t.length) :
    ∃ out, k.run t p w = .ok out ∧ out.length = t.length
      ∧ ((∀ x ∈ t, x.isSome) → (∀ x ∈ p, x.isSome) → (∀ v, w = some v → ∀ x ∈ v, x.isSome) →
          ∀ x ∈ out, x.isSome) := by
  have hsub : ∀ i (h1 : i < t.length) (h2 : i < p.length), t[i].isSome → p[i].isSome →
      (vsub t[i] p[i]).isSome := by
    intro i h1 h2 a b
    obtain ⟨x, hx⟩ := Option.isSome_iff_exists.1 a
    obtain ⟨y, hy⟩ := Option.isSome_iff_exists.1 b
    rw [hx, hy]; rfl
  have habs : ∀ x : Val, x.isSome → (vabs x).isSome := by intro x; cases x <;> simp [vabs]
  have hmul : ∀ x y : Val, x.isSome → y.isSome → (vmul x y).isSome := by
    intro x y; cases x <;> cases y <;> simp [vmul]
  have hdiv : ∀ x y : Val, x.isSome → (safeDiv x y).isSome := by
    intro x y hx
    cases x with
    | none => simp at hx
    | some a => cases y <;> simp [safeDiv]; split_ifs <;> rfl
  cases w with
  | none =>
    have key : ∀ f : List Val, f.length = t.length → (∀ i (hi : i < f.length) (h1 : i < t.length)
        (h2 : i < p.length), t[i].isSome → p[i].isSome → f[i].isSome) →
        f.length = t.length ∧ ((∀ x ∈ t, x.isSome) → (∀ x ∈ p, x.isSome) →
          (∀ v, (none : Option (List Val)) = some v → ∀ x ∈ v, x.isSome) → ∀ x ∈ f, x.isSome) := by
      intro f hf hg
      refine ⟨hf, fun ht hp _ x hx => ?_⟩
      obtain ⟨i, hi, rfl⟩ := List.getElem_of_mem hx
      exact hg i hi (by omega) (by omega) (ht _ (List.getElem_mem _)) (hp _ (List.getElem_mem _))
    have hok : arraysOk [some t, some p, none] = .ok () := by rw [arraysOk3n, if_pos h.symm]
    cases k
    · refine ⟨err_ t p none, by simp [ArrayMetric.run, metError, hok, bind, Except.bind, pure, Except.pure], key _ ?_ ?_⟩
      · simp [err_, h]
      · intro i hi h1 h2 a b
        simp only [err_, List.getElem_zipWith]
        exact hsub i h1 h2 a b
    · refine ⟨absErr_ t p none, by simp [ArrayMetric.run, metAbsError, hok, bind, Except.bind, pure, Except.pure], key _ ?_ ?_⟩
      · simp [absErr_, h]
      · intro i hi h1 h2 a b
        simp only [absErr_, List.getElem_zipWith, List.getElem_map]
        exact habs _ (hsub i h1 h2 a b)
    · refine ⟨pctErr_ t p none, by simp [ArrayMetric.run, metPctError, hok, bind, Except.bind, pure, Except.pure], key _ ?_ ?_⟩
      · simp [pctErr_, h]
      · intro i hi h1 h2 a b
        simp only [pctErr_, List.getElem_zipWith, List.getElem_map]
        exact hdiv _ _ (hsub i h1 h2 a b)
    · refine ⟨absPctErr_ t p none, by simp [ArrayMetric.run, metAbsPctError, hok, bind, Except.bind, pure, Except.pure], key _ ?_ ?_⟩
      · simp [absPctErr_, h]
      · intro i hi h1 h2 a b
        simp only [absPctErr_, List.getElem_zipWith, List.getElem_map]
        exact hdiv _ _ (habs _ (hsub i h1 h2 a b))
  | some v =>
    have hv := hw v rfl
    have key : ∀ f : List Val, f.length = t.length → (∀ i (hi : i < f.length) (h1 : i < t.length)
        (h2 : i < p.length) (h3 : i < v.length), t[i].isSome → p[i].isSome → v[i].isSome → f[i].isSome) →
        f.length = t.length ∧ ((∀ x ∈ t, x.isSome) → (∀ x ∈ p, x.isSome) →
          (∀ v', some v = some v' → ∀ x ∈ v', x.isSome) → ∀ x ∈ f, x.isSome) := by
      intro f hf hg
      refine ⟨hf, fun ht hp hv' x hx => ?_⟩
      obtain ⟨i, hi, rfl⟩ := List.getElem_of_mem hx
      exact hg i hi (by omega) (by omega) (by omega) (ht _ (List.getElem_mem _))
        (hp _ (List.getElem_mem _)) (hv' v rfl _ (List.getElem_mem _))
    have hok : arraysOk [some t, some p, some v] = .ok () := by rw [arraysOk3, if_pos ⟨h.symm, hv⟩]
    cases k
    · refine ⟨err_ t p (some v), by simp [ArrayMetric.run, metError, hok, bind, Except.bind, pure, Except.pure], key _ ?_ ?_⟩
      · simp [err_, h, hv]
      · intro i hi h1 h2 h3 a b c
        simp only [err_, List.getElem_zipWith, List.getElem_map]
        exact hdiv _ _ (hmul _ _ (hsub i h1 h2 a b) c)
    · refine ⟨absErr_ t p (some v), by simp [ArrayMetric.run, metAbsError, hok, bind, Except.bind, pure, Except.pure], key _ ?_ ?_⟩
      · simp [absErr_, h, hv]
      · intro i hi h1 h2 h3 a b c
        simp only [absErr_, List.getElem_zipWith, List.getElem_map]
        exact hdiv _ _ (hmul _ _ (habs _ (hsub i h1 h2 a b)) c)
    · refine ⟨pctErr_ t p (some v), by simp [ArrayMetric.run, metPctError, hok, bind, Except.bind, pure, Except.pure], key _ ?_ ?_⟩
      · simp [pctErr_, h, hv]
      · intro i hi h1 h2 h3 a b c
        simp only [pctErr_, List.getElem_zipWith, List.getElem_map]
        exact hdiv _ _ (hmul _ _ (hsub i h1 h2 a b) c)
    · refine ⟨absPctErr_ t p (some v), by simp [ArrayMetric.run, metAbsPctError, hok, bind, Except.bind, pure, Except.pure], key _ ?_ ?_⟩
      · simp [absPctErr_, h, hv]
      · intro i hi h1 h2 h3 a b c
        simp only [absPctErr_, List.getElem_zipWith, List.getElem_map]
        exact hdiv _ _ (hmul _ _ (habs _ (hsub i h1 h2 a b)) c)

/-- Specification of safe division: `x / 0` is the sign of `x`. -/
def SafeQuotient (x y r : Rat) : Prop :=
  (y ≠ 0 → r * y = x) ∧ (y = 0 → x > 0 → r = 1) ∧ (y = 0 → x < 0 → r = -1)
  ∧ (y = 0 → x = 0 → r = 0)

theorem safeDiv_spec (x y : Rat) : ∃ r, safeDiv (some x) (some y) = some r ∧ SafeQuotient x y r := by
  unfold safeDiv SafeQuotient
  dsimp only
  by_cases hy : y = 0
  · rw [if_pos hy]
    rcases lt_trichotomy x 0 with hx | hx | hx
    · refine ⟨-1, by rw [if_pos hx], ?_, ?_, ?_, ?_⟩
      · exact fun h => absurd hy h
      · intro _ h; linarith
      · intro _ _; rfl
      · intro _ h; linarith
    · refine ⟨0, by rw [if_neg (by linarith), if_neg (by linarith)], ?_, ?_, ?_, ?_⟩
      · exact fun h => absurd hy h
      · intro _ h; linarith
      · intro _ h; linarith
      · intro _ _; rfl
    · refine ⟨1, by rw [if_neg (by linarith), if_pos hx], ?_, ?_, ?_, ?_⟩
      · exact fun h => absurd hy h
      · intro _ _; rfl
      · intro _ h; linarith
      · intro _ h; linarith
  · refine ⟨x / y, by rw [if_neg hy], ?_, ?_, ?_, ?_⟩
    · intro _; field_simp
    all_goals exact fun h => absurd h hy

/-- C18: the entries on finite arrays of equal length, without weights. -/
theorem C18_values (t p : List Rat) (h : t.length = p.length) :
    metError (t.map some) (p.map some) none = .ok (List.zipWith (fun a b => some (a - b)) t p)
    ∧ metAbsError (t.map some) (p.map some) none = .ok (List.zipWith (fun a b => some |a - b|) t p)
    ∧ (∃ out : List Rat, metPctError (t.map some) (p.map some) none = .ok (out.map some)
        ∧ out.length = t.length ∧ ∀ i (h1 : i < out.length) (h2 : i < t.length) (h3 : i < p.length),
          SafeQuotient (t[i] - p[i]) t[i] out[i])
    ∧ (∃ out : List Rat, metAbsPctError (t.map some) (p.map some) none = .ok (out.map some)
        ∧ out.length = t.length ∧ ∀ i (h1 : i < out.length) (h2 : i < t.length) (h3 : i < p.length),
          SafeQuotient |t[i] - p[i]| t[i] out[i]) := by
  have hok : arraysOk [some (t.map some), some (p.map some), none] = .ok () := by
    rw [arraysOk3n, if_pos (by simp [h])]
  have build : ∀ (f : List Val) (num : Nat → Rat), f.length = t.length →
      (∀ i (hi : i < f.length) (h2 : i < t.length), f[i] = safeDiv (some (num i)) (some t[i])) →
      ∃ out : List Rat, f = out.map some ∧ out.length = t.length ∧
        ∀ i (_ : i < out.length) (h2 : i < t.length), SafeQuotient (num i) t[i] out[i]! := by
    intro f num hf hg
    have hs : ∀ x ∈ f, x.isSome := by
      intro x hx
      obtain ⟨i, hi, rfl⟩ := List.getElem_of_mem hx
      rw [hg i hi (by omega)]
      obtain ⟨r, hr, _⟩ := safeDiv_spec (num i) (t[i]'(by omega))
      rw [hr]; rfl
    refine ⟨f.map (fun x => x.getD 0), ?_, by simp [hf], ?_⟩
    · rw [List.map_map]
      conv_lhs => rw [← List.map_id f]
      apply List.map_congr_left
      intro x hx
      obtain ⟨y, hy⟩ := Option.isSome_iff_exists.1 (hs x hx)
      rw [hy]; rfl
    · intro i h1 h2
      have hi : i < f.length := by omega
      obtain ⟨r, hr, hq⟩ := safeDiv_spec (num i) t[i]
      have e : (f.map (fun x => x.getD 0))[i]! = r := by
        rw [getElem!_pos _ i h1, List.getElem_map, hg i hi h2, hr]; rfl
      rw [e]; exact hq
  refine ⟨?_, ?_, ?_, ?_⟩
  · simp only [metError, hok, bind, Except.bind, pure, Except.pure, err_]
    congr 1
    rw [List.zipWith_map]
    rfl
  · simp only [metAbsError, hok, bind, Except.bind, pure, Except.pure, absErr_]
    congr 1
    rw [List.zipWith_map, List.map_zipWith]
    rfl
  · obtain ⟨out, h1, h2, h3⟩ := build (pctErr_ (t.map some) (p.map some) none)
      (fun i => t[i]! - p[i]!) (by simp [pctErr_, h]) (by
        intro i hi h2
        have h3 : i < p.length := by omega
        simp only [pctErr_, List.getElem_zipWith, List.getElem_map]
        rw [getElem!_pos t i h2, getElem!_pos p i h3]
        rfl)
    refine ⟨out, ?_, h2, ?_⟩
    · simp only [metPctError, hok, bind, Except.bind, pure, Except.pure]; rw [h1]
    · intro i a b c
      have := h3 i a b
      rw [getElem!_pos out i a, getElem!_pos t i b, getElem!_pos p i c] at this
      exact this
  · obtain ⟨out, h1, h2, h3⟩ := build (absPctErr_ (t.map some) (p.map some) none)
      (fun i => |t[i]! - p[i]!|) (by simp [absPctErr_, h]) (by
        intro i hi h2
        have h3 : i < p.length := by omega
        simp only [absPctErr_, List.getElem_zipWith, List.getElem_map]
        rw [getElem!_pos t i h2, getElem!_pos p i h3]
        rfl)
    refine ⟨out, ?_, h2, ?_⟩
    · simp only [metAbsPctError, hok, bind, Except.bind, pure, Except.pure]; rw [h1]
    · intro i a b c
      have := h3 i a b
      rw [getElem!_pos out i a, getElem!_pos t i b, getElem!_pos p i c] at this
      exact this

example : metAbsError [some 1, some 5] [some 4, some 2] none = .ok [some 3, some 3] := by
  have := (C18_values [1, 5] [4, 2] rfl).2.1
  norm_num at this
  exact this

example : ∃ out, metPctError [some 0, some 4] [some 3, some 2] none = .ok out ∧ out.length = 2 := by
  obtain ⟨out, h, hl, _⟩ := C18_length .pctError [some 0, some 4] [some 3, some 2] none rfl (by simp)
  exact ⟨out, h, hl⟩

/-! ## C19 -/

/-- Specification: mean over the pairs of an expression of the pair. -/
def pairMean (f : Rat → Rat → Rat) (t p : List Rat) : Rat :=
  (List.zipWith f t p).sum / t.length

theorem mae_eq (t p : List Val) (h : t.length = p.length) :
    mae t p = .ok (if avail t p = [] then none
      else some (meanQ ((avail t p).map fun x => |x.1 - x.2|))) := by
  have hok : arraysOk [some t, some p, none] = .ok () := by rw [arraysOk3n, if_pos h.symm]
  unfold mae metAbsError
  rw [hok]
  simp only [bind, Except.bind, pure, Except.pure]
  have hn : nanmean (absErr_ t p none) = if avail t p = [] then none
      else some (meanQ ((avail t p).map fun x => |x.1 - x.2|)) := by
    rw [nanmean_eq, absErr_avail]
    by_cases ha : avail t p = [] <;> simp [ha]
  by_cases he : (absErr_ t p none).isEmpty
  · rw [if_pos he]
    have h0 : absErr_ t p none = [] := List.isEmpty_iff.1 he
    rw [← hn, h0]; rfl
  · rw [if_neg he, hn]

theorem mse_eq (t p : List Val) (h : t.length = p.length) :
    mse t p = .ok (if avail t p = [] then none
      else some (meanQ ((avail t p).map fun x => (x.1 - x.2) ^ 2))) := by
  have hok : arraysOk [some t, some p] = .ok () := by rw [arraysOk2, if_pos h.symm]
  unfold mse
  have hn : nanmean ((List.zipWith vsub t p).map fun d => vmul d d) = if avail t p = [] then none
      else some (meanQ ((avail t p).map fun x => (x.1 - x.2) ^ 2)) := by
    have e : ((List.zipWith vsub t p).map fun d => vmul d d).filterMap id
        = (avail t p).map fun x => (x.1 - x.2) ^ 2 := by
      rw [List.map_zipWith]
      refine zipWith_avail _ (fun a b => (a - b) ^ 2) ?_ (fun _ => rfl)
        (fun a => by cases a <;> rfl) t p
      intro a b
      simp [vsub, vmul, sq]
    rw [nanmean_eq, e]
    by_cases ha : avail t p = [] <;> simp [ha]
  by_cases he : t.isEmpty
  · rw [if_pos he]
    have : t = [] := List.isEmpty_iff.1 he
    subst this
    simp [avail, pure, Except.pure]
  · rw [if_neg he]
    dsimp only
    rw [hok, hn]
    rfl

theorem meanError_eq (t p : List Val) (h : t.length = p.length) :
    meanError t p = .ok (if avail t p = [] then none
      else some (meanQ ((avail t p).map fun x => x.1 - x.2))) := by
  have hok : arraysOk [some t, some p, none] = .ok () := by rw [arraysOk3n, if_pos h.symm]
  unfold meanError metError
  rw [hok]
  simp only [bind, Except.bind, pure, Except.pure, err_]
  rw [nanmean_eq, vsub_avail]
  by_cases ha : avail t p = [] <;> simp [ha]

theorem mdae_eq (t p : List Val) (h : t.length = p.length) :
    mdae t p = .ok (if avail t p = [] then none
      else some (medianQ ((avail t p).map fun x => |x.1 - x.2|))) := by
  have hok : arraysOk [some t, some p] = .ok () := by rw [arraysOk2, if_pos h.symm]
  unfold mdae
  rw [hok]
  simp only [bind, Except.bind, pure, Except.pure]
  by_cases he : t.isEmpty
  · rw [if_pos he]
    have : t = [] := List.isEmpty_iff.1 he
    subst this
    simp [avail]
  · rw [if_neg he]
    unfold nanmedian
    dsimp only
    rw [absErr_avail]
    by_cases ha : avail t p = [] <;> simp [ha]

theorem zip_ne {t p : List Rat} (h : t.length = p.length) (hne : t ≠ []) : List.zip t p ≠ [] := by
  cases t with
  | nil => exact absurd rfl hne
  | cons a t => cases p with
    | nil => simp at h
    | cons b p => simp

theorem zip_map (f : Rat → Rat → Rat) (t p : List Rat) :
    (List.zip t p).map (fun x => f x.1 x.2) = List.zipWith f t p := by
  rw [List.zip, List.map_zipWith]

theorem meanQ_zip (f : Rat → Rat → Rat) (t p : List Rat) (h : t.length = p.length) :
    meanQ ((List.zip t p).map fun x => f x.1 x.2) = pairMean f t p := by
  unfold meanQ pairMean
  have e : (List.zip t p).map (fun x => f x.1 x.2) = List.zipWith f t p := by
    rw [List.zip, List.map_zipWith]
  rw [e, List.length_zipWith, h, Nat.min_self]

/-- C19: MAE, MSE and the mean error of finite arrays are the plain means. -/
theorem C19_values (t p : List Rat) (h : t.length = p.length) (hne : t ≠ []) :
    mae (t.map some) (p.map some) = .ok (some (pairMean (fun a b => |a - b|) t p))
    ∧ mse (t.map some) (p.map some) = .ok (some (pairMean (fun a b => (a - b) ^ 2) t p))
    ∧ meanError (t.map some) (p.map some) = .ok (some (pairMean (fun a b => a - b) t p)) := by
  have hl : (t.map some).length = (p.map some).length := by simp [h]
  have hz := zip_ne h hne
  refine ⟨?_, ?_, ?_⟩
  · rw [mae_eq _ _ hl, avail_some, if_neg hz, meanQ_zip (fun a b => |a - b|) t p h]
  · rw [mse_eq _ _ hl, avail_some, if_neg hz, meanQ_zip (fun a b => (a - b) ^ 2) t p h]
  · rw [meanError_eq _ _ hl, avail_some, if_neg hz, meanQ_zip (fun a b => a - b) t p h]

example : mae [some 1, some 5] [some 4, some 4] = .ok (some 2) := by
  have := (C19_values [1, 5] [4, 4] rfl (by simp)).1
  norm_num [pairMean] at this
  exact this

/-- C19: arrays of different lengths are rejected (a non-empty `y_true` for MSE). -/
theorem C19_mismatch (t p : List Val) (h : t.length ≠ p.length) :
    mae t p = .error .valueError ∧ mdae t p = .error .valueError
    ∧ meanError t p = .error .valueError ∧ (t ≠ [] → mse t p = .error .valueError) := by
  have h' : ¬ p.length = t.length := fun e => h e.symm
  refine ⟨?_, ?_, ?_, ?_⟩
  · simp [mae, metAbsError, arraysOk3n, h', bind, Except.bind]
  · simp [mdae, arraysOk2, h', bind, Except.bind]
  · simp [meanError, metError, arraysOk3n, h', bind, Except.bind]
  · intro hne
    simp [mse, hne, arraysOk2, h', bind, Except.bind]

/-- C19: order, bounds and zero set of the scale metrics on finite non-empty arrays. -/
theorem C19_relations (t p : List Rat) (h : t.length = p.length) (hne : t ≠ []) :
    ∃ a s e d : Rat,
      mae (t.map some) (p.map some) = .ok (some a) ∧ mse (t.map some) (p.map some) = .ok (some s)
      ∧ meanError (t.map some) (p.map some) = .ok (some e)
      ∧ mdae (t.map some) (p.map some) = .ok (some d)
      ∧ 0 ≤ a ∧ 0 ≤ s ∧ 0 ≤ d
      ∧ (a = 0 ↔ t = p) ∧ (s = 0 ↔ t = p)
      ∧ a ^ 2 ≤ s ∧ |e| ≤ a
      ∧ (∀ r, 0 ≤ r → r ^ 2 = s → a ≤ r)
      ∧ (∀ M, (∀ x ∈ List.zip t p, |x.1 - x.2| ≤ M) → a ≤ M ∧ d ≤ M ∧ s ≤ M ^ 2)
      ∧ mae (p.map some) (t.map some) = .ok (some a) ∧ mse (p.map some) (t.map some) = .ok (some s)
      ∧ mdae (p.map some) (t.map some) = .ok (some d) := by
  have hl : (t.map some).length = (p.map some).length := by simp [h]
  have hz := zip_ne h hne
  have hpne : p ≠ [] := by
    intro e; subst e; simp at h; exact hne h
  have hz' := zip_ne h.symm hpne
  set A := (List.zip t p).map fun x => |x.1 - x.2| with hA
  set S := (List.zip t p).map fun x => (x.1 - x.2) ^ 2 with hS
  set E := (List.zip t p).map fun x => x.1 - x.2 with hE
  have hAne : A ≠ [] := by simp [hA, hz]
  have hSne : S ≠ [] := by simp [hS, hz]
  have hAE : A = E.map fun x => |x| := by rw [hA, hE, List.map_map]; rfl
  have hSA : S = A.map fun x => x ^ 2 := by
    rw [hS, hA, List.map_map]
    apply List.map_congr_left
    intro x _
    simp [sq_abs]
  have hA0 : ∀ x ∈ A, 0 ≤ x := by
    intro x hx
    obtain ⟨y, _, rfl⟩ := List.mem_map.1 hx
    exact abs_nonneg _
  have hS0 : ∀ x ∈ S, 0 ≤ x := by
    intro x hx
    obtain ⟨y, _, rfl⟩ := List.mem_map.1 hx
    exact sq_nonneg _
  have hsymA : (List.zip p t).map (fun x => |x.1 - x.2|) = A := by
    rw [hA, zip_map (fun a b => |a - b|), zip_map (fun a b => |a - b|), List.zipWith_comm]
    congr 1
    funext a b
    exact abs_sub_comm _ _
  have hsymS : (List.zip p t).map (fun x => (x.1 - x.2) ^ 2) = S := by
    rw [hS, zip_map (fun a b => (a - b) ^ 2), zip_map (fun a b => (a - b) ^ 2), List.zipWith_comm]
    congr 1
    funext a b
    ring
  have heq : (∀ x ∈ List.zip t p, x.1 = x.2) ↔ t = p := by
    constructor
    · intro hx
      apply List.ext_getElem h
      intro i h1 h2
      have : (t[i], p[i]) ∈ List.zip t p := by
        have := List.getElem_mem (l := List.zip t p) (n := i) (by simp; omega)
        simpa using this
      exact hx _ this
    · rintro rfl x hx
      obtain ⟨i, hi, rfl⟩ := List.getElem_of_mem hx
      simp
  have hsq : (meanQ A) ^ 2 ≤ meanQ S := by rw [hSA]; exact sq_meanQ_le A
  have haz := meanQ_nonneg hA0
  refine ⟨meanQ A, meanQ S, meanQ E, medianQ A, ?_, ?_, ?_, ?_, haz, meanQ_nonneg hS0, ?_, ?_, ?_,
    hsq, ?_, ?_, ?_, ?_, ?_, ?_⟩
  · rw [mae_eq _ _ hl, avail_some, if_neg hz]
  · rw [mse_eq _ _ hl, avail_some, if_neg hz]
  · rw [meanError_eq _ _ hl, avail_some, if_neg hz]
  · rw [mdae_eq _ _ hl, avail_some, if_neg hz]
  · obtain ⟨M, hM⟩ : ∃ M, ∀ x ∈ A, x ≤ M := by
      refine ⟨A.sum, fun x hx => List.single_le_sum hA0 x hx⟩
    exact (medianQ_bounds hAne (fun x hx => ⟨hA0 x hx, hM x hx⟩)).1
  · rw [meanQ_eq_zero hAne hA0, ← heq]
    constructor
    · intro hx x hm
      have := hx _ (List.mem_map.2 ⟨x, hm, rfl⟩)
      exact sub_eq_zero.1 (abs_eq_zero.1 this)
    · intro hx x hm
      obtain ⟨y, hy, rfl⟩ := List.mem_map.1 hm
      simp [hx y hy]
  · rw [meanQ_eq_zero hSne hS0, ← heq]
    constructor
    · intro hx x hm
      have := hx _ (List.mem_map.2 ⟨x, hm, rfl⟩)
      exact sub_eq_zero.1 (pow_eq_zero_iff (by norm_num) |>.1 this)
    · intro hx x hm
      obtain ⟨y, hy, rfl⟩ := List.mem_map.1 hm
      simp [hx y hy]
  · rw [hAE]; exact abs_meanQ_le E
  · intro r hr hrs
    rw [← hrs] at hsq
    exact le_of_sq_le_sq hsq hr
  · intro M hM
    have hAM : ∀ x ∈ A, x ≤ M := by
      intro x hx
      obtain ⟨y, hy, rfl⟩ := List.mem_map.1 hx
      exact hM y hy
    refine ⟨meanQ_le hAne hAM, (medianQ_bounds hAne (fun x hx => ⟨hA0 x hx, hAM x hx⟩)).2,
      meanQ_le hSne ?_⟩
    intro x hx
    rw [hSA] at hx
    obtain ⟨y, hy, rfl⟩ := List.mem_map.1 hx
    have := hA0 y hy
    have := hAM y hy
    nlinarith
  · rw [mae_eq _ _ hl.symm, avail_some, if_neg hz', hsymA]
  · rw [mse_eq _ _ hl.symm, avail_some, if_neg hz', hsymS]
  · rw [mdae_eq _ _ hl.symm, avail_some, if_neg hz', hsymA]

example : ∃ a s : Rat, mae [some 1, some 5] [some 4, some 4] = .ok (some a)
    ∧ mse [some 1, some 5] [some 4, some 4] = .ok (some s) ∧ a ^ 2 ≤ s ∧ ¬ a = 0 := by
  obtain ⟨a, s, e, d, h1, h2, _, _, _, _, _, h3, _, h4, _⟩ :=
    C19_relations [1, 5] [4, 4] rfl (by simp)
  exact ⟨a, s, h1, h2, h4, fun h => by simpa using h3.1 h⟩

/-- C19: the median absolute error is a median of the absolute errors. -/
theorem C19_mdae_median (t p : List Rat) (h : t.length = p.length) (hne : t ≠ []) :
    ∃ d : Rat, mdae (t.map some) (p.map some) = .ok (some d)
      ∧ t.length ≤ 2 * (List.zipWith (fun a b => |a - b|) t p).countP (fun x => decide (x ≤ d))
      ∧ t.length ≤ 2 * (List.zipWith (fun a b => |a - b|) t p).countP (fun x => decide (d ≤ x)) := by
  have hl : (t.map some).length = (p.map some).length := by simp [h]
  have hz := zip_ne h hne
  have e : (List.zip t p).map (fun x => |x.1 - x.2|) = List.zipWith (fun a b => |a - b|) t p := by
    rw [List.zip, List.map_zipWith]
  refine ⟨_, by rw [mdae_eq _ _ hl, avail_some, if_neg hz], ?_⟩
  rw [e]
  have hne' : List.zipWith (fun a b => |a - b|) t p ≠ [] := by rw [← e]; simp [hz]
  have := medianQ_halves hne'
  rw [List.length_zipWith, h, Nat.min_self] at this
  rw [h]
  exact this

example : ∃ d : Rat, mdae [some 1, some 5, some 0] [some 4, some 4, some 9] = .ok (some d) := by
  obtain ⟨d, hd, _⟩ := C19_mdae_median [1, 5, 0] [4, 4, 9] rfl (by simp)
  exact ⟨d, hd⟩

/-! ## C20 -/

theorem nanmean_bounds {l : List Val} {lo hi r : Rat} (h : ∀ x, some x ∈ l → lo ≤ x ∧ x ≤ hi)
    (hr : nanmean l = some r) : lo ≤ r ∧ r ≤ hi := by
  rw [nanmean_eq] at hr
  split_ifs at hr with hne
  injection hr with hr
  subst hr
  have hm : ∀ x ∈ l.filterMap id, lo ≤ x ∧ x ≤ hi := by
    intro x hx
    obtain ⟨a, ha, hb⟩ := List.mem_filterMap.1 hx
    simp only [id] at hb
    subst hb
    exact h x ha
  exact ⟨le_meanQ hne (fun x hx => (hm x hx).1), meanQ_le hne (fun x hx => (hm x hx).2)⟩

theorem nanmean_nonneg {l : List Val} {r : Rat} (h : ∀ x, some x ∈ l → 0 ≤ x)
    (hr : nanmean l = some r) : 0 ≤ r := by
  rw [nanmean_eq] at hr
  split_ifs at hr with hne
  injection hr with hr
  subst hr
  apply meanQ_nonneg
  intro x hx
  obtain ⟨a, ha, hb⟩ := List.mem_filterMap.1 hx
  simp only [id] at hb
  subst hb
  exact h x ha

theorem safeDiv_abs_le {a b r : Rat} (hb : |a| ≤ b) (h : safeDiv (some a) (some b) = some r) :
    -1 ≤ r ∧ r ≤ 1 := by
  unfold safeDiv at h
  dsimp only at h
  split_ifs at h with h0 h1 h2
  · injection h with h; subst h; norm_num
  · injection h with h; subst h; norm_num
  · injection h with h; subst h; norm_num
  · injection h with h; subst h
    have hbp : 0 < b := lt_of_le_of_ne (le_trans (abs_nonneg a) hb) (Ne.symm h0)
    obtain ⟨h3, h4⟩ := abs_le.1 hb
    constructor
    · rw [le_div_iff₀ hbp]; linarith
    · rw [div_le_iff₀ hbp]; linarith

theorem safeDiv_nonneg {a b r : Rat} (ha : 0 ≤ a) (hb : 0 ≤ b)
    (h : safeDiv (some a) (some b) = some r) : 0 ≤ r := by
  unfold safeDiv at h
  dsimp only at h
  split_ifs at h with h0 h1 h2
  · linarith
  · injection h with h; subst h; norm_num
  · injection h with h; subst h; norm_num
  · injection h with h; subst h; exact div_nonneg ha hb

/-- The terms of SMAPE and symmetric bias. -/
theorem mem_zipWith {A B C : Type} {f : A → B → C} {x : C} :
    ∀ {l : List A} {m : List B}, x ∈ List.zipWith f l m → ∃ i, ∃ (h1 : i < l.length)
      (h2 : i < m.length), x = f l[i] m[i] := by
  intro l m hx
  obtain ⟨i, hi, rfl⟩ := List.getElem_of_mem hx
  rw [List.length_zipWith] at hi
  exact ⟨i, by omega, by omega, by simp⟩

/-- C20: scaled SMAPE is always in [0, 1], SMAPE in [0, 2] and the symmetric bias in [-2, 2], also
with NaN entries and any signs. -/
theorem C20_symmetric_partial (t p : List Val) (r : Rat) :
    (scaledSmape t p = .ok (some r) → 0 ≤ r ∧ r ≤ 1)
    ∧ (smape t p = .ok (some r) → 0 ≤ r ∧ r ≤ 2)
    ∧ (sbias t p = .ok (some r) → -2 ≤ r ∧ r ≤ 2) := by
  have term : ∀ (t p : List Val) x, some x ∈ List.zipWith safeDiv (absErr_ t p none)
      (List.zipWith vadd (t.map vabs) (p.map vabs)) → 0 ≤ x ∧ x ≤ 1 := by
    intro t p x hx
    obtain ⟨i, h1, h2, e⟩ := mem_zipWith hx
    have hi : i < t.length ∧ i < p.length := by simp [absErr_] at h1; omega
    simp only [absErr_, List.getElem_map, List.getElem_zipWith] at e
    cases ht : t[i]'hi.1 with
    | none => cases hp : p[i]'hi.2 <;> simp [ht, hp, vsub, vabs, vadd, safeDiv] at e
    | some a =>
      cases hp : p[i]'hi.2 with
      | none => simp [ht, hp, vsub, vabs, vadd, safeDiv] at e
      | some b =>
        rw [ht, hp] at e
        simp only [vsub, vabs, vadd, Option.map_some] at e
        have hab : |a - b| ≤ |a| + |b| := abs_sub a b
        exact ⟨safeDiv_nonneg (abs_nonneg _) (by positivity) e.symm,
          (safeDiv_abs_le (by rw [abs_abs]; exact hab) e.symm).2⟩
  have s1 : ∀ r, scaledSmape t p = .ok (some r) → 0 ≤ r ∧ r ≤ 1 := by
    intro r h
    unfold scaledSmape metAbsError at h
    rw [arraysOk3n] at h
    split_ifs at h
    · simp only [bind, Except.bind, pure, Except.pure] at h
      injection h with h
      exact nanmean_bounds (term t p) h
    · simp [bind, Except.bind] at h
  refine ⟨s1 r, ?_, ?_⟩
  · intro h
    unfold smape at h
    cases hs : scaledSmape t p with
    | error e => rw [hs] at h; simp [bind, Except.bind] at h
    | ok v =>
      rw [hs] at h
      simp only [bind, Except.bind, pure, Except.pure] at h
      injection h with h
      cases v with
      | none => simp at h
      | some q =>
        simp only [Option.map_some, Option.some.injEq] at h
        have := s1 q hs
        subst h
        constructor <;> linarith
  · intro h
    unfold sbias metError at h
    rw [arraysOk3n] at h
    split_ifs at h
    · simp only [bind, Except.bind, pure, Except.pure] at h
      injection h with h
      cases hn : nanmean (List.zipWith safeDiv (err_ t p none)
          (List.zipWith vadd (t.map vabs) (p.map vabs))) with
      | none => rw [hn] at h; simp at h
      | some q =>
        rw [hn] at h
        simp only [Option.map_some, Option.some.injEq] at h
        have := nanmean_bounds (lo := -1) (hi := 1) (by
          intro x hx
          obtain ⟨i, h1, h2, e⟩ := mem_zipWith hx
          have hi : i < t.length ∧ i < p.length := by simp [err_] at h1; omega
          simp only [err_, List.getElem_map, List.getElem_zipWith] at e
          cases ht : t[i]'hi.1 with
          | none => cases hp : p[i]'hi.2 <;> simp [ht, hp, vsub, vabs, vadd, safeDiv] at e
          | some a =>
            cases hp : p[i]'hi.2 with
            | none => simp [ht, hp, vsub, vabs, vadd, safeDiv] at e
            | some b =>
              rw [ht, hp] at e
              simp only [vsub, vabs, vadd, Option.map_some] at e
              exact safeDiv_abs_le (abs_sub a b) e.symm) hn
        subst h
        constructor <;> linarith
    · simp [bind, Except.bind] at h

example : smape [some 1, none, some 3] [some 3, some 1, some 3] = .ok (some (1 / 2)) := by
  decide +kernel

/-- C20 is violated for SMAPE: the metadata advertise [0, 1], but the value 2 occurs. -/
theorem C20_smape_violated :
    inspectMetric "smape" = .ok ⟨some 0, some 1⟩ ∧ smape [some 1] [some (-1)] = .ok (some 2) := by
  constructor <;> decide +kernel

/-- C20: MAPE and MdAPE are non-negative if no true value is negative. -/
theorem C20_mape_partial (t p : List Val) (ht : ∀ x, some x ∈ t → 0 ≤ x) (r : Rat) :
    (mape t p = .ok (some r) → 0 ≤ r) ∧ (mdape t p = .ok (some r) → 0 ≤ r) := by
  have term : ∀ x, some x ∈ absPctErr_ t p none → 0 ≤ x := by
    intro x hx
    obtain ⟨i, h1, h2, e⟩ := mem_zipWith hx
    have hi : i < t.length ∧ i < p.length := by simp at h1; omega
    simp only [List.getElem_map, List.getElem_zipWith] at e
    cases htt : t[i]'hi.1 with
    | none => cases hp : p[i]'hi.2 <;> simp [htt, hp, vsub, vabs, safeDiv] at e
    | some a =>
      have ha : 0 ≤ a := ht a (by rw [← htt]; exact List.getElem_mem _)
      cases hp : p[i]'hi.2 with
      | none =>
        simp [htt, hp, vsub, vabs, safeDiv] at e
        rw [e]
      | some b =>
        rw [htt, hp] at e
        simp only [vsub, vabs, Option.map_some] at e
        exact safeDiv_nonneg (abs_nonneg _) ha e.symm
  constructor
  · intro h
    unfold mape at h
    rw [arraysOk2] at h
    split_ifs at h <;> simp only [bind, Except.bind, pure, Except.pure, Except.ok.injEq, reduceCtorEq] at h
    exact nanmean_nonneg term h
  · intro h
    unfold mdape at h
    rw [arraysOk2] at h
    split_ifs at h <;> simp only [bind, Except.bind, pure, Except.pure, Except.ok.injEq, reduceCtorEq] at h
    unfold nanmedian at h
    dsimp only at h
    split_ifs at h with hne
    injection h with h
    subst h
    have hne' : (absPctErr_ t p none).filterMap id ≠ [] := by
      intro e; rw [e] at hne; simp at hne
    have h0 : ∀ x ∈ (absPctErr_ t p none).filterMap id, 0 ≤ x := by
      intro x hx
      obtain ⟨a, ha, hb⟩ := List.mem_filterMap.1 hx
      simp only [id] at hb
      subst hb
      exact term x ha
    exact (medianQ_bounds hne' (hi := ((absPctErr_ t p none).filterMap id).sum)
      (fun x hx => ⟨h0 x hx, List.single_le_sum h0 x hx⟩)).1

example : mape [some 2, some 0] [some 1, some 3] = .ok (some (3 / 4)) := by decide +kernel

/-- C20 is violated for MAPE and MdAPE: the metadata advertise non-negative values, but with negative
true values they are negative (the division is by `y_true` itself). -/
theorem C20_mape_violated :
    inspectMetric "mape" = .ok ⟨some 0, none⟩ ∧ mape [some (-1)] [some 1] = .ok (some (-2))
    ∧ inspectMetric "mdape" = .ok ⟨some 0, none⟩ ∧ mdape [some (-1)] [some 1] = .ok (some (-2)) := by
  refine ⟨?_, ?_, ?_, ?_⟩ <;> decide +kernel

theorem ecdf_bounds (ys : List Val) (x : Val) : 0 ≤ ecdf ys x ∧ ecdf ys x ≤ 1 := by
  unfold ecdf
  cases x with
  | none => norm_num
  | some a =>
    dsimp only
    constructor
    · positivity
    · by_cases h : ys = []
      · subst h; simp
      · rw [div_le_one (len_pos h)]
        exact_mod_cast List.countP_le_length

/-- C20: CRPS and LEPS are in [0, 1] and 0 on a perfect forecast. -/
theorem C20_probability_partial (t p : List Val) (r : Rat) :
    (crps t p = .ok (some r) → 0 ≤ r ∧ r ≤ 1) ∧ (leps t p = .ok (some r) → 0 ≤ r ∧ r ≤ 1)
    ∧ (crps t t = .ok (some r) → r = 0) ∧ (leps t t = .ok (some r) → r = 0) := by
  have d : ∀ ys : List Val, ∀ a b : Val, |ecdf ys a - ecdf ys b| ≤ 1 := by
    intro ys a b
    have h1 := ecdf_bounds ys a
    have h2 := ecdf_bounds ys b
    rw [abs_le]; constructor <;> linarith
  have same : ∀ x ∈ withPred t t, x.2 = x.1 := by
    intro x hx
    have hz := (List.mem_filter.1 hx).1
    obtain ⟨i, hi, rfl⟩ := List.getElem_of_mem hz
    simp
  refine ⟨?_, ?_, ?_, ?_⟩
  · intro h
    unfold crps at h
    rw [arraysOk2] at h
    split_ifs at h <;> simp only [bind, Except.bind, pure, Except.pure, reduceCtorEq] at h
    split_ifs at h <;> simp only [Except.ok.injEq, reduceCtorEq] at h
    refine nanmean_bounds ?_ h
    intro x hx
    obtain ⟨y, _, e⟩ := List.mem_map.1 hx
    injection e with e
    rw [← e]
    refine ⟨sq_nonneg _, ?_⟩
    rw [← sq_abs]
    have := d ((withPred t p).map (·.1)) y.2 y.1
    have := abs_nonneg (ecdf ((withPred t p).map (·.1)) y.2 - ecdf ((withPred t p).map (·.1)) y.1)
    nlinarith
  · intro h
    unfold leps at h
    rw [arraysOk2] at h
    split_ifs at h <;> simp only [bind, Except.bind, pure, Except.pure, reduceCtorEq] at h
    split_ifs at h <;> simp only [Except.ok.injEq, reduceCtorEq] at h
    refine nanmean_bounds ?_ h
    intro x hx
    obtain ⟨y, _, e⟩ := List.mem_map.1 hx
    injection e with e
    rw [← e]
    exact ⟨abs_nonneg _, d _ _ _⟩
  · intro h
    unfold crps at h
    rw [arraysOk2, if_pos rfl] at h
    simp only [bind, Except.bind, pure, Except.pure] at h
    split_ifs at h <;> simp only [Except.ok.injEq, reduceCtorEq] at h
    have := nanmean_bounds (lo := 0) (hi := 0) (by
      intro x hx
      obtain ⟨y, hy, e⟩ := List.mem_map.1 hx
      injection e with e
      rw [← e, same y hy]
      simp) h
    linarith [this.1, this.2]
  · intro h
    unfold leps at h
    rw [arraysOk2, if_pos rfl] at h
    simp only [bind, Except.bind, pure, Except.pure] at h
    split_ifs at h <;> simp only [Except.ok.injEq, reduceCtorEq] at h
    have := nanmean_bounds (lo := 0) (hi := 0) (by
      intro x hx
      obtain ⟨y, hy, e⟩ := List.mem_map.1 hx
      injection e with e
      rw [← e, same y hy]
      simp) h
    linarith [this.1, this.2]

example : crps [some 1, some 2] [some 2, none] = .ok (some 0) := by decide +kernel
example : leps [some 1, some 2, some 3] [some 3, some 2, some 0] = .ok (some (5 / 9)) := by
  decide +kernel

/-! ## C21 -/

/-- Specification: the documented pinball loss at one point. -/
def pinballAt (thr y f : Rat) : Rat := if y > f then (y - f) * thr else (y - f) * (thr - 1)

theorem vmax_pinball (thr y f : Rat) :
    vmax (vmul (vsub (some y) (some f)) (some thr)) (vmul (vsub (some y) (some f)) (some (thr - 1)))
      = some (pinballAt thr y f) := by
  simp only [vsub, vmul, vmax, pinballAt]
  congr 1
  by_cases h : y > f
  · rw [if_pos h, max_eq_left]; nlinarith
  · rw [if_neg h, max_eq_right]; nlinarith

theorem pinball_eq (t p : List Val) (thr : Rat) (h : t.length = p.length) (h0 : 0 ≤ thr)
    (h1 : thr ≤ 1) : pinball t p thr = .ok (if avail t p = [] then none
      else some (meanQ ((avail t p).map fun x => pinballAt thr x.1 x.2))) := by
  unfold pinball
  rw [arraysOk2, if_pos h.symm, if_neg (not_lt.2 h0), if_neg (not_lt.2 h1)]
  simp only [bind, Except.bind, pure, Except.pure]
  have e : ((List.zipWith vsub t p).map fun d =>
      vmax (vmul d (some thr)) (vmul d (some (thr - 1)))).filterMap id
        = (avail t p).map fun x => pinballAt thr x.1 x.2 := by
    rw [List.map_zipWith]
    exact zipWith_avail _ (pinballAt thr) (fun a b => vmax_pinball thr a b) (fun _ => rfl)
      (fun a => by cases a <;> rfl) t p
  rw [nanmean_eq, e]
  by_cases ha : avail t p = [] <;> simp [ha]

/-- C21: the pinball loss of finite non-empty arrays is the mean of the documented piecewise
function, is non-negative, and at 1/2 it is half of the MAE; a perfect forecast has loss 0. -/
theorem C21_value (t p : List Rat) (thr : Rat) (h : t.length = p.length) (hne : t ≠ [])
    (h0 : 0 ≤ thr) (h1 : thr ≤ 1) :
    pinball (t.map some) (p.map some) thr = .ok (some (pairMean (pinballAt thr) t p))
    ∧ 0 ≤ pairMean (pinballAt thr) t p
    ∧ (thr = 1 / 2 → pairMean (pinballAt thr) t p = pairMean (fun a b => |a - b|) t p / 2)
    ∧ (0 < thr → thr < 1 → (pairMean (pinballAt thr) t p = 0 ↔ t = p)) := by
  have hl : (t.map some).length = (p.map some).length := by simp [h]
  have hz := zip_ne h hne
  have nn : ∀ x ∈ (List.zip t p).map fun x => pinballAt thr x.1 x.2, 0 ≤ x := by
    intro x hx
    obtain ⟨y, _, rfl⟩ := List.mem_map.1 hx
    unfold pinballAt
    split_ifs <;> nlinarith
  refine ⟨?_, ?_, ?_, ?_⟩
  · rw [pinball_eq _ _ _ hl h0 h1, avail_some, if_neg hz, meanQ_zip _ _ _ h]
  · rw [← meanQ_zip _ _ _ h]
    exact meanQ_nonneg nn
  · intro hthr
    have e : List.zipWith (pinballAt thr) t p
        = (List.zipWith (fun a b => |a - b|) t p).map (· * (1 / 2)) := by
      rw [List.map_zipWith]
      congr 1
      funext a b
      unfold pinballAt
      subst hthr
      split_ifs with hab
      · rw [abs_of_pos (by linarith)]
      · rw [abs_of_nonpos (by linarith)]; ring
    unfold pairMean
    rw [e, sum_map_mul]
    ring
  · intro hp0 hp1
    rw [← meanQ_zip _ _ _ h, meanQ_eq_zero (by simp [hz]) nn]
    constructor
    · intro hx
      apply List.ext_getElem h
      intro i a b
      have hm : (t[i], p[i]) ∈ List.zip t p := by
        have := List.getElem_mem (l := List.zip t p) (n := i) (by simp; omega)
        simpa using this
      have := hx _ (List.mem_map.2 ⟨_, hm, rfl⟩)
      unfold pinballAt at this
      dsimp only at this
      split_ifs at this with hab
      · rcases mul_eq_zero.1 this with h2 | h2 <;> linarith
      · rcases mul_eq_zero.1 this with h2 | h2 <;> linarith
    · rintro rfl x hx
      obtain ⟨y, hy, rfl⟩ := List.mem_map.1 hx
      obtain ⟨i, hi, rfl⟩ := List.getElem_of_mem hy
      simp [pinballAt]

example : pinball [some 1, some 5] [some 4, some 3] (1 / 4) = .ok (some (11 / 8)) := by
  have := (C21_value [1, 5] [4, 3] (1 / 4) rfl (by simp) (by norm_num) (by norm_num)).1
  norm_num [pairMean, pinballAt] at this
  exact this

/-- C21: errors exactly for unequal lengths or a threshold outside of [0, 1]. -/
theorem C21_domain (t p : List Val) (thr : Rat) :
    ((∃ v, pinball t p thr = .ok v) ↔ t.length = p.length ∧ 0 ≤ thr ∧ thr ≤ 1)
    ∧ (∀ e, pinball t p thr = .error e → e = .valueError) := by
  by_cases h : p.length = t.length
  · by_cases h0 : thr < 0
    · simp [pinball, arraysOk2, h, h0, bind, Except.bind, throw, throwThe, MonadExceptOf.throw]
    · by_cases h1 : thr > 1
      · simp [pinball, arraysOk2, h, h0, h1, bind, Except.bind, throw, throwThe,
          MonadExceptOf.throw, pure, Except.pure]
      · simp [pinball, arraysOk2, h, h0, h1, bind, Except.bind, throw, throwThe,
          MonadExceptOf.throw, pure, Except.pure]
        exact ⟨not_lt.1 h0, not_lt.1 h1⟩
  · have h' : ¬ t.length = p.length := fun e => h e.symm
    simp [pinball, arraysOk2, h, h', bind, Except.bind]

example : pinball [some 1] [some 1] 2 = .error .valueError := by decide +kernel

/-! ## C22 -/

theorem exceedAt_iff (thr a b : Rat) : exceedAt thr (some a) (some b)
    = if thr > 1 / 2 then decide (b < a) else decide (a < b) := by
  unfold exceedAt exceedMask
  simp only [vsub, vmul, vlt]
  split_ifs with h
  · congr 1; rw [mul_one, sub_pos]
  · congr 1
    rw [eq_iff_iff]
    constructor <;> intro h <;> linarith

/-- C22, what the code computes: for thresholds at most 1/2 the fraction of points with
`y_true < y_pred`, for larger ones the fraction with `y_pred < y_true`; the value is in [0, 1] and
arrays of different lengths are rejected. -/
theorem C22_exceed_partial (t p : List Rat) (thr : Rat) :
    (t.length = p.length → t ≠ [] → ∃ r : Rat,
      exceed (t.map some) (p.map some) thr = .ok (some r) ∧ 0 ≤ r ∧ r ≤ 1
      ∧ r * t.length = (List.zip t p).countP
          (fun x => if thr > 1 / 2 then decide (x.2 < x.1) else decide (x.1 < x.2)))
    ∧ (t.length ≠ p.length → exceed (t.map some) (p.map some) thr = .error .valueError) := by
  constructor
  · intro h hne
    have hz := zip_ne h hne
    have e : List.zipWith (exceedAt thr) (t.map some) (p.map some) = (List.zip t p).map (fun x =>
        if thr > 1 / 2 then decide (x.2 < x.1) else decide (x.1 < x.2)) := by
      rw [List.zipWith_map, List.zip, List.map_zipWith]
      congr 1
      funext a b
      exact exceedAt_iff thr a b
    unfold exceed
    rw [arraysOk2, if_pos (by simp [h])]
    simp only [bind, Except.bind, pure, Except.pure, boolMean]
    rw [e, if_neg (by simp [hz]), List.length_map, List.length_zip, h, Nat.min_self]
    have hp : (0 : Rat) < p.length := by
      have := len_pos hne; rw [h] at this; exact this
    have hcount : ∀ l : List (Rat × Rat), (l.map (fun x : Rat × Rat =>
        if thr > 1 / 2 then decide (x.2 < x.1) else decide (x.1 < x.2))).count true
        = l.countP (fun x => if thr > 1 / 2 then decide (x.2 < x.1) else decide (x.1 < x.2)) := by
      intro l
      rw [List.count, List.countP_map]
      congr 1
      funext x
      simp
    rw [hcount]
    refine ⟨_, rfl, by positivity, ?_, by field_simp⟩
    rw [div_le_one hp]
    have := List.countP_le_length (l := List.zip t p)
      (p := fun x => if thr > 1 / 2 then decide (x.2 < x.1) else decide (x.1 < x.2))
    rw [List.length_zip, h, Nat.min_self] at this
    exact_mod_cast this
  · intro h
    unfold exceed
    rw [arraysOk2, if_neg (by simp; exact fun e => h e.symm)]
    rfl

example : exceed [some 1, some 5, some 2] [some 4, some 3, some 2] (1 / 4) = .ok (some (1 / 3)) := by
  decide +kernel

/-- C22 is violated: the documented rate for t <= 0.5 is `mean(y_pred < y_true)`, here 1, and the
code returns 0; the documented rate for t > 0.5 is `mean(y_pred > y_true)`, here 0, and the code
returns 1.  The same happens for every single point off the forecast. -/
theorem C22_orientation_violated (y f : Rat) (h : f < y) (thr : Rat) :
    (thr ≤ 1 / 2 → exceed [some y] [some f] thr = .ok (some 0))
    ∧ (thr > 1 / 2 → exceed [some y] [some f] thr = .ok (some 1)) := by
  have n : ¬ y < f := not_lt.2 (le_of_lt h)
  constructor
  · intro ht
    have e := exceedAt_iff thr y f
    rw [if_neg (not_lt.2 ht)] at e
    unfold exceed
    rw [arraysOk2]
    simp [e, n, boolMean, bind, Except.bind, pure, Except.pure]
  · intro ht
    have e := exceedAt_iff thr y f
    rw [if_pos ht] at e
    unfold exceed
    rw [arraysOk2]
    simp [e, h, boolMean, bind, Except.bind, pure, Except.pure]

example : exceed [some 2] [some 1] (1 / 4) = .ok (some 0) :=
  (C22_orientation_violated 2 1 (by norm_num) _).1 (by norm_num)

/-- C22: `mult_exceed` returns, for every threshold, the average over the rows of the rates that
`exceed` gives for that threshold and its block of the row; wrong shapes are rejected. -/
theorem C22_mult_partial (h hp : Nat) (t p : List (List Val)) (thr : List Rat)
    (ht : ∀ r ∈ t, r.length = h) (hpl : ∀ r ∈ p, r.length = hp) :
    (t.length = p.length → hp = thr.length * h →
      ∃ out, multExceed h hp t p thr = .ok out ∧ out.length = thr.length
        ∧ ∀ k (hk : k < out.length) (hk' : k < thr.length), ∃ rates : List Val, rates.length = t.length
          ∧ (∀ i (h1 : i < rates.length) (h2 : i < t.length) (h3 : i < p.length),
              exceed t[i] ((p[i].drop (k * h)).take h) thr[k] = .ok rates[i])
          ∧ out[k] = vmean rates)
    ∧ ((t.length ≠ p.length ∨ hp ≠ thr.length * h) →
        multExceed h hp t p thr = .error .valueError) := by
  constructor
  · intro hl hh
    refine ⟨_, by unfold multExceed; rw [if_neg (by omega), if_neg (by omega)], by simp, ?_⟩
    intro k hk hk'
    refine ⟨List.zipWith (fun tr pr =>
      boolMean (List.zipWith (exceedAt (thr.getD k 0)) tr (blockOf h k pr))) t p, by simp [hl], ?_, ?_⟩
    · intro i h1 h2 h3
      rw [List.getElem_zipWith]
      have e1 : t[i].length = h := ht _ (List.getElem_mem _)
      have e2 : p[i].length = hp := hpl _ (List.getElem_mem _)
      have e3 : (((p[i].drop (k * h)).take h)).length = t[i].length := by
        rw [List.length_take, List.length_drop, e1, e2, hh]
        have : (k + 1) * h ≤ thr.length * h := Nat.mul_le_mul_right _ hk'
        rw [Nat.add_mul] at this
        omega
      unfold exceed
      rw [arraysOk2, if_pos e3]
      simp [blockOf, hk', bind, Except.bind, pure, Except.pure]
    · simp
  · intro hne
    unfold multExceed
    by_cases hl : p.length ≠ t.length
    · rw [if_pos hl]
    · rw [if_neg hl, if_pos]
      rcases hne with h1 | h1
      · omega
      · exact h1

example : multExceed 2 4 [[some 1, some 2]] [[some 0, some 3, some 0, some 0]] [1 / 4, 3 / 4]
    = .ok [some (1 / 2), some 1] := by decide +kernel

/-! ## C23 -/

/-- C23: coverage of finite arrays is the fraction of points in the closed interval. -/
theorem C23_coverage (t lo up : List Rat) (h1 : lo.length = t.length) (h2 : up.length = t.length)
    (hne : t ≠ []) : ∃ r : Rat,
    coverage (t.map some) (lo.map some) (up.map some) = .ok (some r) ∧ 0 ≤ r ∧ r ≤ 1
    ∧ r * t.length = (List.zip t (List.zip lo up)).countP
        (fun x => decide (x.2.1 ≤ x.1 ∧ x.1 ≤ x.2.2))
    ∧ (r = 1 ↔ ∀ x ∈ List.zip t (List.zip lo up), x.2.1 ≤ x.1 ∧ x.1 ≤ x.2.2) := by
  have hz : List.zip (t.map some) (List.zip (lo.map some) (up.map some))
      = (List.zip t (List.zip lo up)).map (fun x => (some x.1, some x.2.1, some x.2.2)) := by
    apply List.ext_getElem
    · simp
    · intro i _ _
      simp
  have hc : ∀ x : Rat × Rat × Rat, coveredAt (some x.1, some x.2.1, some x.2.2)
      = decide (x.2.1 ≤ x.1 ∧ x.1 ≤ x.2.2) := by
    intro x
    simp [coveredAt, vle, vsub]
  have e : (List.zip (t.map some) (List.zip (lo.map some) (up.map some))).map coveredAt
      = (List.zip t (List.zip lo up)).map (fun x => decide (x.2.1 ≤ x.1 ∧ x.1 ≤ x.2.2)) := by
    rw [hz, List.map_map]
    apply List.map_congr_left
    intro x _
    exact hc x
  have hlen : (List.zip t (List.zip lo up)).length = t.length := by simp [h1, h2]
  have hzne : List.zip t (List.zip lo up) ≠ [] := by
    intro hh
    rw [hh] at hlen
    simp at hlen
    exact hne (List.length_eq_zero_iff.1 hlen.symm)
  have hp := len_pos hne
  unfold coverage
  rw [arraysOk3, if_pos (by simp [h1, h2])]
  simp only [bind, Except.bind, pure, Except.pure, boolMean]
  rw [e, if_neg (by simpa [List.isEmpty_iff] using hzne), List.length_map, hlen]
  have hcount : ((List.zip t (List.zip lo up)).map
      (fun x => decide (x.2.1 ≤ x.1 ∧ x.1 ≤ x.2.2))).count true
      = (List.zip t (List.zip lo up)).countP (fun x => decide (x.2.1 ≤ x.1 ∧ x.1 ≤ x.2.2)) := by
    rw [List.count, List.countP_map]
    congr 1
    funext x
    simp
  rw [hcount]
  have hle := List.countP_le_length (l := List.zip t (List.zip lo up))
    (p := fun x => decide (x.2.1 ≤ x.1 ∧ x.1 ≤ x.2.2))
  rw [hlen] at hle
  refine ⟨_, rfl, by positivity, ?_, by field_simp, ?_⟩
  · rw [div_le_one hp]
    exact_mod_cast hle
  · rw [div_eq_one_iff_eq (ne_of_gt hp), Nat.cast_inj, ← hlen, List.countP_eq_length]
    simp only [decide_eq_true_eq]

example : coverage [some 1, some 5, some 2] [some 0, some 0, some 2] [some 1, some 4, some 3]
    = .ok (some (2 / 3)) := by decide +kernel

theorem intScore_ge (alpha t lo up : Rat) (ha : 0 < alpha) :
    up - lo ≤ intScoreAt alpha t lo up
    ∧ (intScoreAt alpha t lo up = up - lo ↔ lo ≤ t ∧ t ≤ up) := by
  unfold intScoreAt
  have p1 : t - lo < 0 → 0 < (lo - t) * 2 / alpha := fun h => div_pos (by linarith) ha
  have p2 : t - up > 0 → 0 < (t - up) * 2 / alpha := fun h => div_pos (by linarith) ha
  constructor
  · split_ifs with h1 h2 h2
    · linarith [p1 h1, p2 h2]
    · linarith [p1 h1]
    · linarith [p2 h2]
    · linarith
  · split_ifs with h1 h2 h2
    · constructor
      · intro h; linarith [p1 h1, p2 h2]
      · rintro ⟨h, _⟩; linarith
    · constructor
      · intro h; linarith [p1 h1]
      · rintro ⟨h, _⟩; linarith
    · constructor
      · intro h; linarith [p2 h2]
      · rintro ⟨_, h⟩; linarith
    · constructor
      · intro _; constructor <;> linarith
      · intro _; ring

/-- Specification: mean width of the intervals. -/
def meanWidth (lo up : List Rat) : Rat := (List.zipWith (fun l u => u - l) lo up).sum / lo.length

/-- C23: the interval score is at least the mean width, with equality exactly when every point is
covered; every miss costs `2/alpha` times its distance. -/
theorem C23_interval_score (t lo up : List Rat) (alpha : Rat) (ha : 0 < alpha)
    (h1 : lo.length = t.length) (h2 : up.length = t.length) (hne : t ≠ []) : ∃ r : Rat,
    intervalScore (t.map some) (lo.map some) (up.map some) alpha = .ok (some r)
    ∧ meanWidth lo up ≤ r
    ∧ (r = meanWidth lo up ↔ ∀ x ∈ List.zip t (List.zip lo up), x.2.1 ≤ x.1 ∧ x.1 ≤ x.2.2)
    ∧ (r - meanWidth lo up) * t.length = ((List.zip t (List.zip lo up)).map fun x =>
        2 / alpha * (max 0 (x.2.1 - x.1) + max 0 (x.1 - x.2.2))).sum := by
  have hz : List.zip (t.map some) (List.zip (lo.map some) (up.map some))
      = (List.zip t (List.zip lo up)).map (fun x => (some x.1, some x.2.1, some x.2.2)) := by
    apply List.ext_getElem
    · simp
    · intro i _ _
      simp
  set Z := List.zip t (List.zip lo up) with hZ
  have e : (Z.map (fun x => (some x.1, some x.2.1, some x.2.2))).map (vIntScoreAt alpha)
      = (Z.map fun x => intScoreAt alpha x.1 x.2.1 x.2.2).map some := by
    rw [List.map_map, List.map_map]; rfl
  have hlen : Z.length = t.length := by simp [hZ, h1, h2]
  have hzne : Z ≠ [] := by
    intro hh
    rw [hh] at hlen
    simp at hlen
    exact hne (List.length_eq_zero_iff.1 hlen.symm)
  have hp := len_pos hne
  have hw : meanWidth lo up = (Z.map fun x => x.2.2 - x.2.1).sum / t.length := by
    unfold meanWidth
    rw [h1]
    congr 2
    apply List.ext_getElem
    · simp [hZ, h1, h2]
    · intro i _ _
      simp [hZ]
  have hr : meanQ (Z.map fun x => intScoreAt alpha x.1 x.2.1 x.2.2)
      = meanWidth lo up + (Z.map fun x => intScoreAt alpha x.1 x.2.1 x.2.2 - (x.2.2 - x.2.1)).sum / t.length := by
    unfold meanQ
    rw [hw, List.length_map, hlen, ← add_div]
    congr 1
    clear_value Z
    clear hz e hZ hlen hzne hw
    induction Z with
    | nil => simp
    | cons a l ih => simp only [List.map_cons, List.sum_cons, ih]; ring
  have nn : ∀ x ∈ Z.map (fun x => intScoreAt alpha x.1 x.2.1 x.2.2 - (x.2.2 - x.2.1)), 0 ≤ x := by
    intro x hx
    obtain ⟨y, _, rfl⟩ := List.mem_map.1 hx
    have := (intScore_ge alpha y.1 y.2.1 y.2.2 ha).1
    linarith
  refine ⟨meanQ (Z.map fun x => intScoreAt alpha x.1 x.2.1 x.2.2), ?_, ?_, ?_, ?_⟩
  · unfold intervalScore
    rw [arraysOk3, if_pos (by simp [h1, h2])]
    simp only [bind, Except.bind, pure, Except.pure]
    rw [hz, e, nanmean_some _ (by simp [hzne])]
  · rw [hr]
    have := mul_le_sum _ 0 nn
    rw [zero_mul] at this
    have := div_nonneg this (le_of_lt hp)
    linarith
  · rw [hr]
    constructor
    · intro hh
      have h0 : (Z.map fun x => intScoreAt alpha x.1 x.2.1 x.2.2 - (x.2.2 - x.2.1)).sum = 0 := by
        have : (Z.map fun x => intScoreAt alpha x.1 x.2.1 x.2.2 - (x.2.2 - x.2.1)).sum / t.length = 0 := by
          linarith
        rcases div_eq_zero_iff.1 this with h | h
        · exact h
        · exact absurd h (ne_of_gt hp)
      intro x hx
      have := sum_eq_zero_of_nonneg _ nn h0 _ (List.mem_map.2 ⟨x, hx, rfl⟩)
      exact (intScore_ge alpha x.1 x.2.1 x.2.2 ha).2.1 (by linarith)
    · intro hc
      have : (Z.map fun x => intScoreAt alpha x.1 x.2.1 x.2.2 - (x.2.2 - x.2.1)).sum = 0 := by
        apply List.sum_eq_zero
        intro x hx
        obtain ⟨y, hy, rfl⟩ := List.mem_map.1 hx
        rw [(intScore_ge alpha y.1 y.2.1 y.2.2 ha).2.2 (hc y hy)]
        ring
      rw [this]; simp
  · rw [hr]
    have : ∀ x ∈ Z, intScoreAt alpha x.1 x.2.1 x.2.2 - (x.2.2 - x.2.1)
        = 2 / alpha * (max 0 (x.2.1 - x.1) + max 0 (x.1 - x.2.2)) := by
      intro x _
      unfold intScoreAt
      have m1 : (if x.1 - x.2.1 < 0 then (1 : Rat) else 0) * ((x.2.1 - x.1) * 2 / alpha)
          = 2 / alpha * max 0 (x.2.1 - x.1) := by
        split_ifs with h
        · rw [max_eq_right (by linarith)]; ring
        · rw [max_eq_left (by linarith)]; ring
      have m2 : (if x.1 - x.2.2 > 0 then (1 : Rat) else 0) * ((x.1 - x.2.2) * 2 / alpha)
          = 2 / alpha * max 0 (x.1 - x.2.2) := by
        split_ifs with h
        · rw [max_eq_right (by linarith)]; ring
        · rw [max_eq_left (by linarith)]; ring
      rw [m1, m2]; ring
    rw [List.map_congr_left this]
    field_simp
    ring

example : intervalScore [some 1, some 5] [some 0, some 0] [some 1, some 4] (1 / 5)
    = .ok (some (15 / 2)) := by decide +kernel

/-- C23: the per-point variants without a rolling window average to the scalar ones. -/
theorem C23_per_point (t lo up : List Val) (alpha : Rat) :
    (∀ d, multIntervalScore t lo up alpha = .ok d → d.length = min t.length (min lo.length up.length)
      ∧ intervalScore t lo up alpha = .ok (nanmean d))
    ∧ (∀ d, multCoverage t lo up none = .ok d → t ≠ [] →
        d.length = t.length ∧ (∀ x ∈ d, x = 0 ∨ x = 1)
        ∧ coverage t lo up = .ok (some (d.sum / d.length))) := by
  constructor
  · intro d h
    unfold multIntervalScore at h
    unfold intervalScore
    rw [arraysOk3] at h ⊢
    split_ifs at h ⊢
    · simp only [bind, Except.bind, pure, Except.pure] at h ⊢
      injection h with h
      subst h
      refine ⟨by simp, rfl⟩
    · simp [bind, Except.bind] at h
  · intro d h hne
    unfold multCoverage at h
    unfold coverage
    rw [arraysOk3] at h ⊢
    split_ifs at h ⊢ with hl
    · simp only [bind, Except.bind, pure, Except.pure] at h ⊢
      injection h with h
      have hlen : d.length = t.length := by rw [← h]; simp [hl.1, hl.2]
      refine ⟨hlen, ?_, ?_⟩
      · intro x hx
        rw [← h] at hx
        obtain ⟨y, _, rfl⟩ := List.mem_map.1 hx
        split_ifs <;> simp
      · unfold boolMean
        have hzl : (List.zip t (List.zip lo up)).length = t.length := by simp [hl.1, hl.2]
        have hz0 : (List.zip t (List.zip lo up)).map coveredAt ≠ [] := by
          intro hh
          have : ((List.zip t (List.zip lo up)).map coveredAt).length = 0 := by rw [hh]; rfl
          rw [List.length_map, hzl] at this
          exact hne (List.length_eq_zero_iff.1 this)
        rw [if_neg (by rwa [List.isEmpty_iff]), List.length_map, hzl, hlen]
        congr 3
        rw [← h]
        generalize List.zip t (List.zip lo up) = Z
        induction Z with
        | nil => simp
        | cons a l ih =>
          simp only [List.map_cons, List.sum_cons, ← ih, List.count_cons]
          cases coveredAt a <;> (simp; try ring)
    · simp [bind, Except.bind] at h

example : multIntervalScore [some 1, some 5] [some 0, some 0] [some 1, some 4] (1 / 5)
    = .ok [some 1, some 14] := by decide +kernel
example : multCoverage [some 1, some 5] [some 0, some 0] [some 1, some 4] none = .ok [1, 0] := by
  decide +kernel

/-! ## C52 -/

/-- C52: looking up a core metric succeeds exactly for the registered names that are not excluded,
anything else is a `ValueError`, and apart from four names every core metric returns one number when
called with `(y_true, y_pred)`. -/
theorem C52_core_partial (name : String) :
    ((∃ k, coreMetricByName name = .ok k) ↔ name ∈ allMetrics.map (·.1) ∧ name ∉ nonCore)
    ∧ (∀ e, coreMetricByName name = .error e → e = .valueError)
    ∧ (∀ k, coreMetricByName name = .ok k → k = .scalar
        ∨ name ∈ ["mult_exceed", "pinball_loss", "exceed", "residual"]) := by
  unfold coreMetricByName
  cases h : coreMetrics.lookup name with
  | none =>
    have hm : ∀ k, (name, k) ∉ coreMetrics := by
      intro k hk
      rw [List.lookup_eq_none_iff] at h
      have := h _ hk
      simp at this
    refine ⟨⟨fun ⟨k, hk⟩ => by simp at hk, ?_⟩, ?_, ?_⟩
    · rintro ⟨h1, h2⟩
      obtain ⟨x, hx, rfl⟩ := List.mem_map.1 h1
      exact absurd (List.mem_filter.2 ⟨hx, by simpa using h2⟩) (hm x.2)
    · intro e he; simpa using he.symm
    · intro k hk; simp at hk
  | some k =>
    obtain ⟨l1, l2, hl, _⟩ := List.lookup_eq_some_iff.1 h
    have hmem : (name, k) ∈ coreMetrics := by rw [hl]; simp
    have hm := List.mem_filter.1 hmem
    refine ⟨⟨fun _ => ⟨List.mem_map.2 ⟨_, hm.1, rfl⟩, by simpa using hm.2⟩, fun _ => ⟨k, rfl⟩⟩, ?_, ?_⟩
    · intro e he; simp at he
    · intro k' hk
      injection hk with hk
      subst hk
      have all : ∀ x ∈ coreMetrics, x.2 = .scalar
          ∨ x.1 ∈ ["mult_exceed", "pinball_loss", "exceed", "residual"] := by decide
      exact all _ hmem

example : coreMetricByName "mape" = .ok .scalar := by decide
example : coreMetricByName "mapee" = .error .valueError := by decide

/-- C52 is violated: `CORE_METRICS` claims to hold metrics that "return a float and can be invoked
with just (y_true, y_pred)", but `residual` returns an array and three others need a threshold. -/
theorem C52_core_violated : coreMetricByName "residual" = .ok .array
    ∧ coreMetricByName "pinball_loss" = .ok .needsThreshold
    ∧ coreMetricByName "exceed" = .ok .needsThreshold
    ∧ coreMetricByName "mult_exceed" = .ok .needsThreshold := by decide

/-- C52 is violated: registered metrics without metadata, one because of a misspelled key. -/
theorem C52_metadata_violated :
    metricByName "frequency_exceeds_relative_threshold" = .ok .needsThreshold
    ∧ inspectMetric "frequency_exceeds_relative_threshold" = .error .valueError
    ∧ inspectMetric "frequency_exceed_relative_threshold" = .ok ⟨some 0, some 1⟩
    ∧ metricByName "frequency_exceed_relative_threshold" = .error .valueError
    ∧ metricByName "residual" = .ok .array ∧ inspectMetric "residual" = .error .valueError := by decide

/-- C52: every registered metric that returns one number has metadata. -/
theorem C52_metadata_partial (name : String) (h : metricByName name = .ok .scalar) :
    ∃ b, inspectMetric name = .ok b := by
  have all : ∀ x ∈ allMetrics, x.2 = .scalar → ∃ b, inspectMetric x.1 = .ok b := by
    have : ∀ x ∈ allMetrics, x.2 = .scalar → (inspectMetric x.1).isOk = true := by decide
    intro x hx hs
    have := this x hx hs
    cases e : inspectMetric x.1 with
    | ok b => exact ⟨b, rfl⟩
    | error e' => rw [e] at this; simp [Except.isOk, Except.toBool] at this
  unfold metricByName at h
  cases hl : allMetrics.lookup name with
  | none => rw [hl] at h; simp at h
  | some k =>
    rw [hl] at h
    injection h with h
    obtain ⟨l1, l2, he, _⟩ := List.lookup_eq_some_iff.1 hl
    have hmem : (name, k) ∈ allMetrics := by rw [he]; simp
    exact all _ hmem h

example : ∃ b, inspectMetric "sbias" = .ok b := C52_metadata_partial "sbias" (by decide)

/-! ## C53 -/

/-- The first and second components of the pairs where both values are present. -/
def availT (t p : List Val) : List Val := (avail t p).map fun x => some x.1
def availP (t p : List Val) : List Val := (avail t p).map fun x => some x.2

theorem avail_avail (t p : List Val) : avail (availT t p) (availP t p) = avail t p := by
  unfold availT availP
  induction avail t p with
  | nil => rfl
  | cons a l ih => simp [avail, ih]

/-- `avail` really is the list of the positions where both values are present. -/
theorem avail_spec (t p : List Val) :
    avail t p = (List.zip t p).filterMap fun x => match x with
      | (some a, some b) => some (a, b)
      | _ => none := by
  induction t generalizing p with
  | nil => cases p <;> simp [avail]
  | cons a t ih =>
    cases p with
    | nil => cases a <;> simp [avail]
    | cons b p => cases a <;> cases b <;> simp [avail, ih]

theorem smape_avail (t p : List Val) :
    (List.zipWith safeDiv (absErr_ t p none)
      (List.zipWith vadd (t.map vabs) (p.map vabs))).filterMap id
    = (avail t p).map fun x => (safeDiv (some |x.1 - x.2|) (some (|x.1| + |x.2|))).getD 0 := by
  have e : List.zipWith safeDiv (absErr_ t p none)
      (List.zipWith vadd (t.map vabs) (p.map vabs))
      = List.zipWith (fun a b => safeDiv (vabs (vsub a b)) (vadd (vabs a) (vabs b))) t p := by
    apply List.ext_getElem
    · simp [absErr_]
    · intro i _ _; simp [absErr_]
  rw [e]
  refine zipWith_avail _ (fun a b => (safeDiv (some |a - b|) (some (|a| + |b|))).getD 0) ?_ ?_ ?_ t p
  · intro a b
    simp only [vsub, vabs, vadd, Option.map_some]
    obtain ⟨r, hr, _⟩ := safeDiv_spec |a - b| (|a| + |b|)
    rw [hr]; rfl
  · intro b; cases b <;> rfl
  · intro a; cases a <;> rfl

theorem sbias_avail (t p : List Val) :
    (List.zipWith safeDiv (err_ t p none)
      (List.zipWith vadd (t.map vabs) (p.map vabs))).filterMap id
    = (avail t p).map fun x => (safeDiv (some (x.1 - x.2)) (some (|x.1| + |x.2|))).getD 0 := by
  have e : List.zipWith safeDiv (err_ t p none)
      (List.zipWith vadd (t.map vabs) (p.map vabs))
      = List.zipWith (fun a b => safeDiv (vsub a b) (vadd (vabs a) (vabs b))) t p := by
    apply List.ext_getElem
    · simp [err_]
    · intro i _ _; simp [err_]
  rw [e]
  refine zipWith_avail _ (fun a b => (safeDiv (some (a - b)) (some (|a| + |b|))).getD 0) ?_ ?_ ?_ t p
  · intro a b
    simp only [vsub, vabs, vadd, Option.map_some]
    obtain ⟨r, hr, _⟩ := safeDiv_spec (a - b) (|a| + |b|)
    rw [hr]; rfl
  · intro b; cases b <;> rfl
  · intro a; cases a <;> rfl

/-- C53: MAE, MSE, mean error, median absolute error, pinball loss, SMAPE and symmetric bias ignore
every position where one of the two values is missing. -/
theorem C53_ignore_missing_partial (t p : List Val) (h : t.length = p.length) :
    mae t p = mae (availT t p) (availP t p) ∧ mse t p = mse (availT t p) (availP t p)
    ∧ meanError t p = meanError (availT t p) (availP t p)
    ∧ mdae t p = mdae (availT t p) (availP t p)
    ∧ (∀ thr, pinball t p thr = pinball (availT t p) (availP t p) thr)
    ∧ smape t p = smape (availT t p) (availP t p) ∧ sbias t p = sbias (availT t p) (availP t p) := by
  have h' : (availT t p).length = (availP t p).length := by simp [availT, availP]
  refine ⟨?_, ?_, ?_, ?_, ?_, ?_, ?_⟩
  · rw [mae_eq _ _ h, mae_eq _ _ h', avail_avail]
  · rw [mse_eq _ _ h, mse_eq _ _ h', avail_avail]
  · rw [meanError_eq _ _ h, meanError_eq _ _ h', avail_avail]
  · rw [mdae_eq _ _ h, mdae_eq _ _ h', avail_avail]
  · intro thr
    by_cases h0 : 0 ≤ thr
    · by_cases h1 : thr ≤ 1
      · rw [pinball_eq _ _ _ h h0 h1, pinball_eq _ _ _ h' h0 h1, avail_avail]
      · unfold pinball
        rw [arraysOk2, arraysOk2, if_pos h.symm, if_pos h'.symm, if_neg (not_lt.2 h0),
          if_pos (not_le.1 h1), if_neg (not_lt.2 h0), if_pos (not_le.1 h1)]
        rfl
    · unfold pinball
      rw [arraysOk2, arraysOk2, if_pos h.symm, if_pos h'.symm, if_pos (not_le.1 h0), if_pos (not_le.1 h0)]
      rfl
  · unfold smape scaledSmape metAbsError
    rw [arraysOk3n, arraysOk3n, if_pos h.symm, if_pos h'.symm]
    simp only [bind, Except.bind, pure, Except.pure]
    rw [nanmean_eq, nanmean_eq, smape_avail, smape_avail, avail_avail]
  · unfold sbias metError
    rw [arraysOk3n, arraysOk3n, if_pos h.symm, if_pos h'.symm]
    simp only [bind, Except.bind, pure, Except.pure]
    rw [nanmean_eq, nanmean_eq, sbias_avail, sbias_avail, avail_avail]

example : mae [some 1, none, some 3] [some 2, some 5, none] = mae [some 1] [some 2] :=
  (C53_ignore_missing_partial [some 1, none, some 3] [some 2, some 5, none] rfl).1

/-- C53 is violated by the percentage metrics: a missing forecast counts as a perfect one, so
dropping forecasts improves MAPE, MdAPE, MPE and RMSPE. -/
theorem C53_percentage_violated :
    mape [some 2, some 2] [some 1, none] = .ok (some (1 / 4))
    ∧ mape (availT [some 2, some 2] [some 1, none]) (availP [some 2, some 2] [some 1, none])
        = .ok (some (1 / 2))
    ∧ mdape [some 2, some 2] [some 1, none] = .ok (some (1 / 4))
    ∧ mpe [some 2, some 2] [some 1, none] = .ok (some (1 / 4))
    ∧ rmspeSq [some 2, some 2] [some 1, none] = .ok (some (1 / 8)) := by
  refine ⟨?_, ?_, ?_, ?_, ?_⟩ <;> decide +kernel

/-- In general: MAPE averages over all positions with a true value, a missing forecast adding 0. -/
theorem C53_mape_dilution_violated (t p : List Val) (a : Rat) (r : Rat)
    (hr : mape t p = .ok (some r)) (hall : ∀ x ∈ t, x.isSome) (hlen : t.length = p.length) :
    mape (t ++ [some a]) (p ++ [none]) = .ok (some (r * t.length / (t.length + 1))) := by
  have hne : t ≠ [] := by
    rintro rfl
    unfold mape at hr
    rw [arraysOk2, if_pos hlen.symm] at hr
    simp [bind, Except.bind, pure, Except.pure] at hr
  have hs : ∀ x ∈ absPctErr_ t p none, x.isSome := by
    intro x hx
    obtain ⟨i, h1, h2, rfl⟩ := mem_zipWith hx
    have hi : i < t.length ∧ i < p.length := by simp at h1; omega
    obtain ⟨y, hy⟩ := Option.isSome_iff_exists.1 (hall _ (List.getElem_mem hi.1))
    simp only [List.getElem_map, List.getElem_zipWith]
    rw [hy]
    cases p[i]'hi.2 with
    | none => rfl
    | some b =>
      obtain ⟨q, hq, _⟩ := safeDiv_spec |y - b| y
      simp only [vsub, vabs, Option.map_some]
      rw [hq]; rfl
  obtain ⟨vals, hv⟩ : ∃ vals : List Rat, absPctErr_ t p none = vals.map some := by
    refine ⟨(absPctErr_ t p none).map (fun x => x.getD 0), ?_⟩
    rw [List.map_map]
    conv_lhs => rw [← List.map_id (absPctErr_ t p none)]
    apply List.map_congr_left
    intro x hx
    obtain ⟨y, hy⟩ := Option.isSome_iff_exists.1 (hs x hx)
    rw [hy]; rfl
  have hvl : vals.length = t.length := by
    have : (absPctErr_ t p none).length = t.length := by simp [absPctErr_, hlen]
    rw [hv, List.length_map] at this
    exact this
  have hvne : vals ≠ [] := by
    rintro rfl
    simp at hvl
    exact hne (List.length_eq_zero_iff.1 hvl.symm)
  have hr' : meanQ vals = r := by
    unfold mape at hr
    rw [arraysOk2, if_pos hlen.symm] at hr
    simp only [bind, Except.bind, pure, Except.pure] at hr
    rw [if_neg (by simpa [List.isEmpty_iff] using hne), hv, nanmean_some _ hvne] at hr
    injection hr with hr
    injection hr
  have happ : absPctErr_ (t ++ [some a]) (p ++ [none]) none = (vals ++ [0]).map some := by
    rw [List.map_append, ← hv]
    unfold absPctErr_
    dsimp only
    rw [List.zipWith_append hlen, List.map_append, List.zipWith_append (by simp [hlen])]
    rfl
  unfold mape
  rw [arraysOk2, if_pos (by simp [hlen])]
  simp only [bind, Except.bind, pure, Except.pure]
  rw [if_neg (by simp [List.isEmpty_iff]), happ, nanmean_some _ (by simp)]
  have hp : (0 : Rat) < t.length := len_pos hne
  have : meanQ (vals ++ [0]) = r * t.length / (t.length + 1) := by
    rw [← hr']
    unfold meanQ
    rw [List.sum_append, List.length_append, hvl]
    simp
    field_simp
  rw [this]

example : mape [some 2, some 2] [some 1, none] = .ok (some (1 / 2 * 1 / (1 + 1))) := by
  have := C53_mape_dilution_violated [some 2] [some 1] 2 (1 / 2) (by decide +kernel) (by simp) rfl
  simpa using this

/-- C53 is violated by the weighted MSE: with a missing value the normalisation still uses all
weights, so the result (1/2) is below every available squared error (1). -/
theorem C53_weighted_mse_violated :
    mse [some 1, some 1] [some 0, none] (some [1, 3]) = .ok (some (1 / 2)) := by decide +kernel

/-- C53: the weighted MAE uses only the weights of available pairs: it stays within the range of the
available absolute errors for non-negative weights. -/
theorem C53_weighted_mae_partial (t p : List Val) (w : List Rat) (hw : ∀ x ∈ w, 0 ≤ x) (r lo hi : Rat)
    (hb : ∀ x ∈ avail t p, lo ≤ |x.1 - x.2| ∧ |x.1 - x.2| ≤ hi)
    (h : mae t p (some w) = .ok (some r)) : lo ≤ r ∧ r ≤ hi := by
  unfold mae metAbsError at h
  rw [arraysOk3n] at h
  split_ifs at h
  swap
  · simp [bind, Except.bind] at h
  simp only [bind, Except.bind, pure, Except.pure] at h
  split_ifs at h with a1 a2 h0
  · simp at h
  · simp at h
  set q := (List.zip (absErr_ t p none) w).filterMap
    (fun x => Option.map (fun e => (e, x.2)) x.1) with hq
  have hmem : ∀ x ∈ q, lo ≤ x.1 ∧ x.1 ≤ hi ∧ 0 ≤ x.2 := by
    intro x hx
    rw [hq] at hx
    obtain ⟨y, hy, e⟩ := List.mem_filterMap.1 hx
    obtain ⟨e0, w0⟩ := y
    have h1 : e0 ∈ absErr_ t p none := (List.of_mem_zip hy).1
    have h2 : w0 ∈ w := (List.of_mem_zip hy).2
    cases e0 with
    | none => simp at e
    | some e1 =>
      simp at e
      subst e
      have : e1 ∈ (absErr_ t p none).filterMap id := List.mem_filterMap.2 ⟨some e1, h1, rfl⟩
      rw [absErr_avail] at this
      obtain ⟨z, hz, rfl⟩ := List.mem_map.1 this
      exact ⟨(hb z hz).1, (hb z hz).2, hw _ h2⟩
  injection h with h
  injection h with h
  have gen : ∀ l : List (Rat × Rat), (∀ x ∈ l, lo ≤ x.1 ∧ x.1 ≤ hi ∧ 0 ≤ x.2) →
      lo * (l.map (·.2)).sum ≤ (l.map fun x => x.1 * x.2).sum
      ∧ (l.map fun x => x.1 * x.2).sum ≤ hi * (l.map (·.2)).sum ∧ 0 ≤ (l.map (·.2)).sum := by
    intro l
    induction l with
    | nil => intro _; simp
    | cons a l ih =>
      intro hl
      obtain ⟨i1, i2, i3⟩ := ih (fun x hx => hl x (by simp [hx]))
      obtain ⟨b1, b2, b3⟩ := hl a (by simp)
      simp only [List.map_cons, List.sum_cons]
      refine ⟨?_, ?_, ?_⟩ <;> nlinarith
  obtain ⟨g1, g2, g3⟩ := gen q hmem
  have hpos : 0 < (q.map (·.2)).sum := lt_of_le_of_ne g3 (Ne.symm h0)
  rw [← h]
  constructor
  · rw [le_div_iff₀ hpos]; exact g1
  · rw [div_le_iff₀ hpos]; exact g2

example : mae [some 1, some 1] [some 0, none] (some [1, 3]) = .ok (some 1) := by decide +kernel

/-! ## C54 -/

/-- C54: at the interior positions the rolling coverage is the mean of the window of `w` points
around the point. -/
theorem C54_interior_partial (x : List Rat) (w : Nat) (hw : 0 < w) (hn : w ≤ x.length) (i : Nat)
    (h1 : w ≤ i + (w - 1) / 2 + 1) (h2 : i + (w - 1) / 2 < x.length) :
    ∃ out, rollingConv x w = .ok out ∧ out.length = x.length
      ∧ out[i]? = some (((x.drop (i + (w - 1) / 2 + 1 - w)).take w).sum / w)
      ∧ ((x.drop (i + (w - 1) / 2 + 1 - w)).take w).length = w := by
  have hx : x ≠ [] := by rintro rfl; simp at hn; omega
  unfold rollingConv
  rw [if_neg (by simp [List.isEmpty_iff, hx]; omega)]
  refine ⟨_, rfl, by simp [hn], ?_, ?_⟩
  · have hi : i < max x.length w := by omega
    rw [List.getElem?_map, List.getElem?_range hi]
    simp only [Option.map_some, convSameAt, Nat.min_eq_right hn]
    rw [List.drop_take]
    congr 4
    omega
  · rw [List.length_take, List.length_drop]; omega

example : rollingConv [1, 0, 1, 1, 1] 3 = .ok [1 / 3, 2 / 3, 2 / 3, 1, 2 / 3] := by decide +kernel

/-- C54 is violated at the edges: with every point covered the first rolling coverage rate of a
window of three is 2/3. -/
theorem C54_edges_violated :
    multCoverage [some 1, some 1, some 1] [some 0, some 0, some 0] [some 2, some 2, some 2] (some 3)
      = .ok [2 / 3, 1, 2 / 3] := by decide +kernel

/-- C54 is violated when the window is longer than the data: more rates than points. -/
theorem C54_length_violated (t lo up : List Val) (h1 : lo.length = t.length)
    (h2 : up.length = t.length) (hne : t ≠ []) (w : Nat) (hw : t.length < w) :
    ∃ out, multCoverage t lo up (some w) = .ok out ∧ out.length = w := by
  unfold multCoverage
  rw [arraysOk3, if_pos ⟨h1, h2⟩]
  simp only [bind, Except.bind]
  unfold rollingConv
  have hz : (List.zip t (List.zip lo up)).length = t.length := by simp [h1, h2]
  have hzne : (List.zip t (List.zip lo up)).map
      (fun x => if coveredAt x then (1 : Rat) else 0) ≠ [] := by
    intro hh
    have : ((List.zip t (List.zip lo up)).map
      (fun x => if coveredAt x then (1 : Rat) else 0)).length = 0 := by rw [hh]; rfl
    rw [List.length_map, hz] at this
    exact hne (List.length_eq_zero_iff.1 this)
  rw [if_neg (by rw [List.isEmpty_iff]; push Not; exact ⟨hzne, by omega⟩)]
  refine ⟨_, rfl, ?_⟩
  rw [List.length_map, List.length_range, List.length_map, hz]
  omega

example : ∃ out, multCoverage [some 1] [some 0] [some 2] (some 2) = .ok out ∧ out.length = 2 :=
  C54_length_violated [some 1] [some 0] [some 2] rfl rfl (by simp) 2 (by simp)

/-! ## C55 -/

/-- C55: MASE is the MAE divided by the mean absolute step of the true values, is non-negative and 0
exactly for a perfect forecast; the tracking signal lies within plus/minus the number of points. -/
theorem C55_mase (t p : List Rat) (h : t.length = p.length) (r : Rat)
    (hr : mase (t.map some) (p.map some) = .ok (some r)) :
    0 ≤ r ∧ (r = 0 ↔ t = p)
    ∧ r * ((List.zipWith (fun a b => |b - a|) t t.tail).sum / (t.length - 1 : Nat))
        = pairMean (fun a b => |a - b|) t p := by
  have hl : (t.map some).length = (p.map some).length := by simp [h]
  unfold mase at hr
  rw [arraysOk2, if_pos hl.symm] at hr
  simp only [bind, Except.bind, pure, Except.pure] at hr
  split_ifs at hr with he
  · simp at hr
  have hne : t ≠ [] := by rintro rfl; simp at he
  have hd : ∀ l : List Rat, (vdiff (l.map some)).map vabs
      = (List.zipWith (fun a b => |b - a|) l l.tail).map some := by
    intro l
    induction l with
    | nil => rfl
    | cons a l ih =>
      cases l with
      | nil => rfl
      | cons b l =>
        simp only [List.map_cons, vdiff, List.tail_cons, List.zipWith_cons_cons] at ih ⊢
        rw [ih]
        rfl
  rw [hd] at hr
  set D := List.zipWith (fun a b => |b - a|) t t.tail with hD
  by_cases hDne : D = []
  · rw [hDne] at hr
    simp [nanmean] at hr
  · rw [nanmean_some _ hDne] at hr
    dsimp only at hr
    split_ifs at hr with hc
    · simp at hr
    have hDl : D.length = t.length - 1 := by simp [hD]
    have hD0 : ∀ x ∈ D, 0 ≤ x := by
      intro x hx
      obtain ⟨i, _, _, rfl⟩ := mem_zipWith hx
      exact abs_nonneg _
    have hdpos : 0 < meanQ D := by
      have := meanQ_nonneg hD0
      rw [abs_of_nonneg this] at hc
      have h8 : (0 : Rat) < 1 / 10 ^ 8 := by norm_num
      linarith [not_le.1 hc]
    obtain ⟨a, s, e, d, h1, _, _, _, ha, _, _, hz, _⟩ := C19_relations t p h hne
    have hval := (C19_values t p h hne).1
    rw [h1] at hval hr
    simp only [Option.map_some, Except.ok.injEq, Option.some.injEq] at hr hval
    rw [← hr]
    refine ⟨div_nonneg ha (le_of_lt hdpos), ?_, ?_⟩
    · rw [← hz, div_eq_zero_iff]
      constructor
      · rintro (h | h)
        · exact h
        · exact absurd h (ne_of_gt hdpos)
      · exact Or.inl
    · rw [← hval]
      have : D.sum / ((t.length - 1 : Nat) : Rat) = meanQ D := by unfold meanQ; rw [hDl]
      rw [this]
      field_simp

example : mase [some 1, some 3, some 2] [some 2, some 2, some 2] = .ok (some (4 / 9)) := by
  decide +kernel

theorem vsum_some (l : List Rat) : vsum (l.map some) = some l.sum := by
  unfold vsum
  induction l with
  | nil => simp
  | cons a l ih => rw [List.map_cons, List.foldr_cons, ih]; simp [vadd]

/-- C55: tracking signal. -/
theorem C55_tracking (t p : List Rat) (h : t.length = p.length) (r : Rat)
    (hr : trackingSignal (t.map some) (p.map some) = .ok (some r)) :
    |r| ≤ t.length ∧ t ≠ p
    ∧ r * pairMean (fun a b => |a - b|) t p = (List.zipWith (fun a b => a - b) t p).sum := by
  have hl : (t.map some).length = (p.map some).length := by simp [h]
  by_cases hne : t = []
  · subst hne
    simp at h
    have : p = [] := List.length_eq_zero_iff.1 h.symm
    subst this
    revert hr
    simp [trackingSignal, arraysOk2, mae, metAbsError, arraysOk3n, absErr_, bind, Except.bind, pure,
      Except.pure]
  unfold trackingSignal at hr
  rw [arraysOk2, if_pos hl.symm] at hr
  obtain ⟨a, s, e, d, h1, _, h3, _, ha, _, _, hz, _, _, hea, _⟩ := C19_relations t p h hne
  have hv := C19_values t p h hne
  have hva := hv.1
  have hve := hv.2.2
  rw [h1] at hva hr
  rw [h3] at hve
  simp only [Except.ok.injEq, Option.some.injEq] at hva hve
  simp only [bind, Except.bind, pure, Except.pure] at hr
  split_ifs at hr with h0
  · simp at hr
  have hsum : List.zipWith vsub (t.map some) (p.map some)
      = (List.zipWith (fun a b => a - b) t p).map some := by
    rw [List.zipWith_map, List.map_zipWith]; rfl
  rw [hsum, vsum_some] at hr
  simp only [Option.map_some, Except.ok.injEq, Option.some.injEq] at hr
  have hp := len_pos hne
  have hapos : 0 < a := lt_of_le_of_ne ha (Ne.symm h0)
  have hE : (List.zipWith (fun a b => a - b) t p).sum = e * t.length := by
    rw [hve]; unfold pairMean; field_simp
  refine ⟨?_, fun h => h0 (hz.2 h), ?_⟩
  · rw [← hr, hE, abs_div, abs_mul, abs_of_pos hapos, abs_of_pos hp, div_le_iff₀ hapos]
    nlinarith
  · rw [← hva, ← hr]; field_simp

example : trackingSignal [some 1, some 3, some 2] [some 2, some 2, some 0] = .ok (some (3 / 2)) := by
  decide +kernel

end Kats

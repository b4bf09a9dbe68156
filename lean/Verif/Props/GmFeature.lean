import Verif.Props.GmLoss
import Verif.Props.ProphetModel

/-!
# C137: the features of global models
-/

namespace Kats

/-! ## Rows with ones -/

theorem set_ones_length (ix : List Nat) : ∀ l : List Nat,
    (ix.foldl (fun (a : List Nat) i => a.set i 1) l).length = l.length := by
  induction ix with
  | nil => intro l; rfl
  | cons i ix ih => intro l; rw [List.foldl_cons, ih, List.length_set]

theorem set_ones_get (ix : List Nat) : ∀ (l : List Nat) (j : Nat), j < l.length →
    (ix.foldl (fun (a : List Nat) i => a.set i 1) l)[j]? = if j ∈ ix then some 1 else l[j]? := by
  induction ix with
  | nil => intro l j _; simp
  | cons i ix ih =>
    intro l j hj
    rw [List.foldl_cons, ih _ _ (by rw [List.length_set]; exact hj)]
    by_cases h : j ∈ ix
    · rw [if_pos h, if_pos (List.mem_cons_of_mem _ h)]
    · rw [if_neg h]
      by_cases he : j = i
      · subst he
        rw [if_pos (by simp), List.getElem?_set_self hj]
      · rw [if_neg (by simp [he, h]), List.getElem?_set_ne (by omega)]

theorem hot_spec (n m : Nat) (hn : n ≠ 0) (ix : List Nat) (hix : ∀ i ∈ ix, i < n * m) :
    ∃ rows, gmHot n m ix = .ok rows ∧ rows.length = n ∧
      ∀ i, i < n → ∃ r, rows[i]? = some r ∧ r.length = m ∧
        ∀ c, c < m → r[c]? = some (if i * m + c ∈ ix then 1 else 0) := by
  unfold gmHot
  rw [if_neg (by simp; intro i hi; exact hix i hi), if_neg hn]
  refine ⟨_, rfl, by simp, ?_⟩
  intro i hi
  have hle : i * m + m ≤ n * m := by
    have : (i + 1) * m ≤ n * m := Nat.mul_le_mul_right m hi
    have e : (i + 1) * m = i * m + m := by ring
    omega
  refine ⟨_, by rw [List.getElem?_map, List.getElem?_range hi]; rfl, ?_, ?_⟩
  · rw [List.length_take, List.length_drop, set_ones_length, List.length_replicate]
    omega
  · intro c hc
    rw [List.getElem?_take_of_lt hc, List.getElem?_drop, set_ones_get _ _ _ (by
      rw [List.length_replicate]; omega), List.getElem?_replicate, if_pos (show i * m + c < n * m by omega)]
    split <;> rfl

theorem mem_offsets (m : Nat) (f : GmTime → Nat) (ts : List GmTime) (x : Nat) :
    x ∈ gmOffsets m f ts ↔ ∃ i t, ts[i]? = some t ∧ x = f t + i * m := by
  unfold gmOffsets
  rw [List.mem_map]
  constructor
  · rintro ⟨i, hi, rfl⟩
    have hi := List.mem_range.1 hi
    exact ⟨i, ts[i], List.getElem?_eq_getElem hi, by rw [List.getElem?_eq_getElem hi]; rfl⟩
  · rintro ⟨i, t, ht, rfl⟩
    have hi : i < ts.length := by
      by_contra hge
      rw [List.getElem?_eq_none (by omega)] at ht
      cases ht
    exact ⟨i, List.mem_range.2 hi, by rw [ht]; rfl⟩

/-- An index below `m` in its row. -/
theorem offset_mem (m : Nat) (f : GmTime → Nat) (ts : List GmTime) (hf : ∀ t ∈ ts, f t < m) (i c : Nat)
    (hc : c < m) (t : GmTime) (ht : ts[i]? = some t) : i * m + c ∈ gmOffsets m f ts ↔ c = f t := by
  rw [mem_offsets]
  constructor
  · rintro ⟨j, u, hu, he⟩
    have hlt := hf u (List.mem_of_getElem? hu)
    have h1 : i = j := by
      have e1 : (i * m + c) / m = i := by
        rw [Nat.add_comm, Nat.add_mul_div_right _ _ (by omega), Nat.div_eq_of_lt hc, Nat.zero_add]
      have e2 : (f u + j * m) / m = j := by
        rw [Nat.add_mul_div_right _ _ (by omega), Nat.div_eq_of_lt hlt, Nat.zero_add]
      rw [← e1, he, e2]
    subst h1
    rw [ht] at hu
    injection hu with hu
    subst hu
    omega
  · rintro rfl
    exact ⟨i, t, ht, by omega⟩

theorem offset_lt (m : Nat) (f : GmTime → Nat) (ts : List GmTime) (hf : ∀ t ∈ ts, f t < m) (x : Nat)
    (hx : x ∈ gmOffsets m f ts) : x < ts.length * m := by
  obtain ⟨i, t, ht, rfl⟩ := (mem_offsets _ _ _ _).1 hx
  have hi : i < ts.length := by
    by_contra hge
    rw [List.getElem?_eq_none (by omega)] at ht
    cases ht
  have h1 : (i + 1) * m ≤ ts.length * m := Nat.mul_le_mul_right m hi
  have e : (i + 1) * m = i * m + m := by ring
  have := hf t (List.mem_of_getElem? ht)
  omega

/-- C137: the hour feature of a row is a one at the hour of its last time. -/
theorem C137_hour (time : List (List GmTime)) (ts : List GmTime) (h : gmLast time = .ok ts) (hne : ts ≠ [])
    (hv : ∀ t ∈ ts, t.hour < 24) :
    ∃ rows, gmLastHour time = .ok rows ∧ rows.length = ts.length ∧
      ∀ (i : Nat) t, ts[i]? = some t → ∃ r, rows[i]? = some r ∧ r.length = 24 ∧
        ∀ c, c < 24 → r[c]? = some (if c = t.hour then 1 else 0) := by
  obtain ⟨rows, h1, h2, h3⟩ := hot_spec ts.length 24 (by simpa using hne) (gmOffsets 24 (·.hour) ts)
    (offset_lt 24 _ ts hv)
  refine ⟨rows, by unfold gmLastHour; rw [h]; exact h1, h2, ?_⟩
  intro i t ht
  have hi : i < ts.length := by
    by_contra hge
    rw [List.getElem?_eq_none (by omega)] at ht
    cases ht
  obtain ⟨r, hr, hl, hc⟩ := h3 i hi
  refine ⟨r, hr, hl, fun c hc' => ?_⟩
  rw [hc c hc']
  simp only [offset_mem 24 (·.hour) ts hv i c hc' t ht]

/-- What pandas gives for a time. -/
structure GmTimeOk (t : GmTime) : Prop where
  day1 : 1 ≤ t.day
  day2 : t.day ≤ 31
  month1 : 1 ≤ t.month
  month2 : t.month ≤ 12
  iso1 : 1 ≤ t.isoDay
  iso2 : t.isoDay ≤ 7
  week1 : 1 ≤ t.isoWeek
  week2 : t.isoWeek ≤ 53
  hour : t.hour < 24

/-- C137, the part that holds: the date feature of a row has ones at the weekday from 1 to 7, at 7 plus
the pair of weeks and at 33 plus the day of the month, and nowhere else. -/
theorem C137_last_date_partial (time : List (List GmTime)) (ts : List GmTime) (h : gmLast time = .ok ts)
    (hne : ts ≠ []) (hv : ∀ t ∈ ts, GmTimeOk t) :
    ∃ rows, gmLastDate time = .ok rows ∧ rows.length = ts.length ∧
      ∀ (i : Nat) t, ts[i]? = some t → ∃ r, rows[i]? = some r ∧ r.length = 65 ∧
        ∀ c, c < 65 → r[c]? = some (if c = t.isoDay ∨ c = 7 + (t.isoWeek - 1) / 2 ∨ c = 33 + t.day
          then 1 else 0) := by
  have hf1 : ∀ t ∈ ts, t.isoDay < 65 := fun t ht => by have := (hv t ht).iso2; omega
  have hf2 : ∀ t ∈ ts, (t.isoWeek - 1) / 2 + 7 < 65 := fun t ht => by have := (hv t ht).week2; omega
  have hf3 : ∀ t ∈ ts, t.day + 6 + 27 < 65 := fun t ht => by have := (hv t ht).day2; omega
  obtain ⟨rows, h1, h2, h3⟩ := hot_spec ts.length 65 (by simpa using hne)
    (gmOffsets 65 (·.isoDay) ts ++ gmOffsets 65 (fun t => (t.isoWeek - 1) / 2 + 7) ts ++
      gmOffsets 65 (fun t => t.day + 6 + 27) ts) (by
      intro x hx
      rcases List.mem_append.1 hx with hx | hx
      · rcases List.mem_append.1 hx with hx | hx
        · exact offset_lt 65 _ ts hf1 x hx
        · exact offset_lt 65 _ ts hf2 x hx
      · exact offset_lt 65 _ ts hf3 x hx)
  refine ⟨rows, by unfold gmLastDate; rw [h]; exact h1, h2, ?_⟩
  intro i t ht
  have hi : i < ts.length := by
    by_contra hge
    rw [List.getElem?_eq_none (by omega)] at ht
    cases ht
  obtain ⟨r, hr, hl, hc⟩ := h3 i hi
  refine ⟨r, hr, hl, fun c hc' => ?_⟩
  rw [hc c hc']
  simp only [List.mem_append, offset_mem 65 (·.isoDay) ts hf1 i c hc' t ht,
    offset_mem 65 (fun t => (t.isoWeek - 1) / 2 + 7) ts hf2 i c hc' t ht,
    offset_mem 65 (fun t => t.day + 6 + 27) ts hf3 i c hc' t ht]
  have e : (c = t.isoDay ∨ c = (t.isoWeek - 1) / 2 + 7) ∨ c = t.day + 6 + 27 ↔
      c = t.isoDay ∨ c = 7 + (t.isoWeek - 1) / 2 ∨ c = 33 + t.day := by omega
  simp only [e]

/-- C137: the date feature tells the weekday, the pair of weeks and the day of the month. -/
theorem C137_last_date_injective (t u : GmTime) (ht : GmTimeOk t) (hu : GmTimeOk u)
    (h : ∀ rt ru, gmLastDate [[t]] = .ok [rt] → gmLastDate [[u]] = .ok [ru] → rt = ru) :
    t.isoDay = u.isoDay ∧ (t.isoWeek - 1) / 2 = (u.isoWeek - 1) / 2 ∧ t.day = u.day := by
  obtain ⟨R, h1, h2, h3⟩ := C137_last_date_partial [[t]] [t] rfl (by simp) (by simpa using ht)
  obtain ⟨S, g1, g2, g3⟩ := C137_last_date_partial [[u]] [u] rfl (by simp) (by simpa using hu)
  obtain ⟨r, hr, _, hc⟩ := h3 0 t rfl
  obtain ⟨s, hs, _, gc⟩ := g3 0 u rfl
  have hR : R = [r] := by
    rcases R with _ | ⟨a, _ | ⟨b, R⟩⟩
    · simp at h2
    · simp at hr; rw [hr]
    · simp at h2
  have hS : S = [s] := by
    rcases S with _ | ⟨a, _ | ⟨b, R⟩⟩
    · simp at g2
    · simp at hs; rw [hs]
    · simp at g2
  have he := h r s (by rw [h1, hR]) (by rw [g1, hS])
  have key : ∀ c, c < 65 → ((c = t.isoDay ∨ c = 7 + (t.isoWeek - 1) / 2 ∨ c = 33 + t.day) ↔
      (c = u.isoDay ∨ c = 7 + (u.isoWeek - 1) / 2 ∨ c = 33 + u.day)) := by
    intro c hc'
    have e1 := hc c hc'
    have e2 := gc c hc'
    rw [he, e2] at e1
    injection e1 with e1
    by_cases ha : (c = t.isoDay ∨ c = 7 + (t.isoWeek - 1) / 2 ∨ c = 33 + t.day) <;>
      by_cases hb : (c = u.isoDay ∨ c = 7 + (u.isoWeek - 1) / 2 ∨ c = 33 + u.day)
    · exact ⟨fun _ => hb, fun _ => ha⟩
    · rw [if_pos ha, if_neg hb] at e1; omega
    · rw [if_neg ha, if_pos hb] at e1; omega
    · exact ⟨fun h => absurd h ha, fun h => absurd h hb⟩
  obtain ⟨d1, d2, m1, m2, i1, i2, w1, w2, _⟩ := ht
  obtain ⟨d1', d2', m1', m2', i1', i2', w1', w2', _⟩ := hu
  have k1 := (key t.isoDay (by omega)).1 (Or.inl rfl)
  have k2 := (key u.isoDay (by omega)).2 (Or.inl rfl)
  have k3 := (key (7 + (t.isoWeek - 1) / 2) (by omega)).1 (Or.inr (Or.inl rfl))
  have k4 := (key (7 + (u.isoWeek - 1) / 2) (by omega)).2 (Or.inr (Or.inl rfl))
  have k5 := (key (33 + t.day) (by omega)).1 (Or.inr (Or.inr rfl))
  have k6 := (key (33 + u.day) (by omega)).2 (Or.inr (Or.inr rfl))
  omega

/-- Sunday, 2023-01-08, in week 1. -/
def gmSunday : GmTime := ⟨8, 1, 7, 1, 6, 8, 0, 0⟩

example : GmTimeOk gmSunday := by constructor <;> decide

/-- C137 violated: the weekday of a Sunday is not in the seven columns of the weekdays but in the first
of the pairs of weeks; in the first two weeks the two fall together. -/
theorem C137_last_date_violated : ∃ r, gmLastDate [[gmSunday]] = .ok [r] ∧ (r.take 7).sum = 0 ∧ r.sum = 2 := by
  obtain ⟨R, h1, h2, h3⟩ := C137_last_date_partial [[gmSunday]] [gmSunday] rfl (by simp)
    (by intro t ht; rw [List.mem_singleton.1 ht]; constructor <;> decide)
  have e : gmLastDate [[gmSunday]] = .ok [(List.range 65).map fun c => if c = 7 ∨ c = 41 then 1 else 0] := by
    decide +kernel
  exact ⟨_, e, by decide +kernel, by decide +kernel⟩

/-- C137, the part that holds: exactly what the month feature gives.  It fails if the last series is in
December; otherwise the row has a one at the month from 1 to 11, and column 0 tells that the series
before it in the batch is in December. -/
theorem C137_month_partial (time : List (List GmTime)) (ts : List GmTime) (h : gmLast time = .ok ts)
    (hne : ts ≠ []) (hv : ∀ t ∈ ts, GmTimeOk t) :
    ((∃ t, ts.getLast? = some t ∧ t.month = 12) → gmLastMonth time = .error .indexError) ∧
    ((∀ t, ts.getLast? = some t → t.month ≠ 12) →
      ∃ rows, gmLastMonth time = .ok rows ∧ rows.length = ts.length ∧
      ∀ (i : Nat) t, ts[i]? = some t → ∃ r, rows[i]? = some r ∧ r.length = 12 ∧
        (∀ c, 1 ≤ c → c < 12 → r[c]? = some (if c = t.month then 1 else 0)) ∧
        (r[0]? = some 1 ∨ r[0]? = some 0) ∧
        (r[0]? = some 1 ↔ ∃ j u, i = j + 1 ∧ ts[j]? = some u ∧ u.month = 12)) := by
  have hpos : 0 < ts.length := List.length_pos_iff.2 hne
  have hlast : ∀ t, ts.getLast? = some t ↔ ts[ts.length - 1]? = some t := by
    intro t; rw [List.getLast?_eq_getElem?]
  constructor
  · rintro ⟨t, ht, hm⟩
    unfold gmLastMonth
    rw [h]
    show gmHot ts.length 12 (gmOffsets 12 (·.month) ts) = _
    unfold gmHot
    rw [if_pos]
    rw [List.any_eq_true]
    refine ⟨ts.length * 12, (mem_offsets _ _ _ _).2 ⟨ts.length - 1, t, (hlast t).1 ht, ?_⟩, by simp⟩
    show _ = t.month + (ts.length - 1) * 12
    omega
  · intro hl
    obtain ⟨rows, h1, h2, h3⟩ := hot_spec ts.length 12 (by omega) (gmOffsets 12 (·.month) ts) (by
      intro x hx
      obtain ⟨i, t, ht, rfl⟩ := (mem_offsets _ _ _ _).1 hx
      have hi : i < ts.length := by
        by_contra hge
        rw [List.getElem?_eq_none (by omega)] at ht
        cases ht
      have h12 := (hv t (List.mem_of_getElem? ht)).month2
      show t.month + i * 12 < ts.length * 12
      by_cases he : i = ts.length - 1
      · subst he
        have := hl t ((hlast t).2 ht)
        omega
      · omega)
    refine ⟨rows, by unfold gmLastMonth; rw [h]; exact h1, h2, ?_⟩
    intro i t ht
    have hi : i < ts.length := by
      by_contra hge
      rw [List.getElem?_eq_none (by omega)] at ht
      cases ht
    obtain ⟨r, hr, hrl, hc⟩ := h3 i hi
    have hmem : ∀ c, c < 12 → (i * 12 + c ∈ gmOffsets 12 (·.month) ts ↔
        (c = t.month ∨ (c = 0 ∧ ∃ j u, i = j + 1 ∧ ts[j]? = some u ∧ u.month = 12))) := by
      intro c hc'
      rw [mem_offsets]
      constructor
      · rintro ⟨j, u, hu, he⟩
        have h1' := (hv u (List.mem_of_getElem? hu)).month1
        have h2' := (hv u (List.mem_of_getElem? hu)).month2
        rcases Nat.lt_or_ge u.month 12 with hlt | hge
        · have : i = j := by omega
          subst this
          rw [ht] at hu
          injection hu with hu
          subst hu
          left; omega
        · right
          exact ⟨by omega, j, u, by omega, hu, by omega⟩
      · rintro (rfl | ⟨rfl, j, u, rfl, hu, hm⟩)
        · exact ⟨i, t, ht, by omega⟩
        · exact ⟨j, u, hu, by omega⟩
    have hm1 := (hv t (List.mem_of_getElem? ht)).month1
    have h0 := hc 0 (by omega)
    refine ⟨r, hr, hrl, ?_, ?_, ?_⟩
    · intro c hc1 hc2
      rw [hc c hc2]
      simp only [hmem c hc2, show ¬ c = 0 by omega, false_and, or_false]
    · rw [h0]
      split
      · left; rfl
      · right; rfl
    · rw [h0]
      have := hmem 0 (by omega)
      by_cases hx : i * 12 + 0 ∈ gmOffsets 12 (·.month) ts
      · rw [if_pos hx]
        refine ⟨fun _ => ?_, fun _ => rfl⟩
        rcases this.1 hx with he | ⟨_, he⟩
        · omega
        · exact he
      · rw [if_neg hx]
        refine ⟨fun he => by simp at he, fun he => absurd (this.2 (Or.inr ⟨rfl, he⟩)) hx⟩

/-- C137 violated: a batch that ends with a series in December cannot be used, and with another series
after it December is no month of its own series. -/
theorem C137_month_violated (t : GmTime) (ht : t.month = 12) :
    gmLastMonth [[t]] = .error .indexError ∧
    ∃ r s, gmLastMonth [[t], [gmSunday]] = .ok [r, s] ∧ r.sum = 0 ∧ s.sum = 2 := by
  constructor
  · unfold gmLastMonth
    show gmHot 1 12 (gmOffsets 12 (·.month) [t]) = _
    have : gmOffsets 12 (·.month) [t] = [12] := by simp [gmOffsets, ht]
    rw [this]
    rfl
  · have e : gmLastMonth [[t], [gmSunday]] = gmHot 2 12 (gmOffsets 12 (·.month) [t, gmSunday]) := rfl
    have : gmOffsets 12 (·.month) [t, gmSunday] = [12, 13] := by
      simp [gmOffsets, ht, List.range_succ, gmSunday]
    rw [e, this]
    exact ⟨_, _, rfl, by decide, by decide⟩

example : (⟨31, 12, 7, 52, 6, 365, 0, 0⟩ : GmTime).month = 12 := rfl


/-! ## The size of the features -/

section
variable {K : Type} [Field K]

/-- `n` rows of `w` numbers. -/
def GmRows (n w : Nat) (m : List (List K)) : Prop := m.length = n ∧ ∀ r ∈ m, r.length = w

theorem zip_append_rows {n v w : Nat} {a b : List (List K)} (ha : GmRows n v a) (hb : GmRows n w b) :
    GmRows n (v + w) (List.zipWith (· ++ ·) a b) := by
  refine ⟨by rw [List.length_zipWith, ha.1, hb.1, Nat.min_self], ?_⟩
  intro r hr
  obtain ⟨i, hi, rfl⟩ := List.mem_iff_getElem.1 hr
  rw [List.getElem_zipWith, List.length_append]
  rw [ha.2 _ (List.getElem_mem _), hb.2 _ (List.getElem_mem _)]

theorem fold_append_rows {n : Nat} : ∀ (fs : List (Nat × List (List K))) (v : Nat) (a : List (List K)),
    GmRows n v a → (∀ f ∈ fs, GmRows n f.1 f.2) →
    GmRows n (v + (fs.map (·.1)).sum) ((fs.map (·.2)).foldl (List.zipWith (· ++ ·)) a) := by
  intro fs
  induction fs with
  | nil => intro v a ha _; simpa using ha
  | cons f fs ih =>
    intro v a ha hf
    have := ih (v + f.1) _ (zip_append_rows ha (hf f (by simp))) (fun g hg => hf g (by simp [hg]))
    simpa [Nat.add_assoc] using this

theorem gm_mapM_id_some (gs : List (List (List K))) : (gs.map some).mapM id = some gs := by
  induction gs with
  | nil => rfl
  | cons g gs ih =>
    rw [List.map_cons, List.mapM_cons, ih]
    rfl

theorem cat_rows {n : Nat} (fs : List (Nat × List (List K))) (hne : fs ≠ [])
    (hf : ∀ f ∈ fs, GmRows n f.1 f.2) :
    ∃ rows, gmCat (fs.map fun f => some f.2) = .ok rows ∧ GmRows n (fs.map (·.1)).sum rows := by
  rcases fs with _ | ⟨f, fs⟩
  · exact absurd rfl hne
  · have e : ((f :: fs).map fun f => some f.2) = ((f :: fs).map (·.2)).map some := by simp
    unfold gmCat
    rw [e, gm_mapM_id_some]
    refine ⟨_, rfl, ?_⟩
    have := fold_append_rows fs f.1 f.2 (hf f (by simp)) (fun g hg => hf g (by simp [hg]))
    simpa using this

/-- The numbers an on-the-fly feature takes. -/
def flyWidth (L : Nat) (f : String) : Option Nat :=
  if f = "last_date" then some 65 else if f = "simple_date" then some (4 * L)
  else if f = "last_hour" then some 24 else if f = "last_hour_minute" then some 2
  else if f = "last_month" then some 12 else none

theorem gmLast_ok (time : List (List GmTime)) (h : ∀ r ∈ time, r ≠ []) :
    ∃ ts, gmLast time = .ok ts ∧ ts.length = time.length ∧ ∀ t ∈ ts, ∃ r ∈ time, t ∈ r := by
  unfold gmLast
  induction time with
  | nil => exact ⟨[], rfl, rfl, by simp⟩
  | cons r time ih =>
    obtain ⟨ts, h1, h2, h3⟩ := ih (fun r hr => h r (by simp [hr]))
    have hr := h r (by simp)
    have e : r.getLast? = some (r.getLast hr) := List.getLast?_eq_some_getLast hr
    refine ⟨r.getLast hr :: ts, ?_, by simp [h2], ?_⟩
    · rw [List.mapM_cons, h1]
      simp only [e]
      rfl
    · intro t ht
      rcases List.mem_cons.1 ht with rfl | ht
      · exact ⟨r, by simp, List.getLast_mem hr⟩
      · obtain ⟨r', hr', ht'⟩ := h3 t ht
        exact ⟨r', by simp [hr'], ht'⟩

theorem cast_rows {n w : Nat} (rows : List (List Nat)) (hn : rows.length = n)
    (h : ∀ i, i < n → ∃ r, rows[i]? = some r ∧ r.length = w) :
    GmRows n w (rows.map fun b => b.map fun v : Nat => (v : K)) := by
  refine ⟨by rw [List.length_map, hn], ?_⟩
  intro r hr
  obtain ⟨r0, hr0, rfl⟩ := List.mem_map.1 hr
  obtain ⟨i, hi, rfl⟩ := List.mem_iff_getElem.1 hr0
  obtain ⟨r', e, hl⟩ := h i (hn ▸ hi)
  rw [List.getElem?_eq_getElem hi] at e
  injection e with e
  rw [List.length_map, e, hl]

/-- The times of a batch: windows of `L` valid times, the last one not in December. -/
structure GmWindows (L : Nat) (time : List (List GmTime)) : Prop where
  ne : time ≠ []
  pos : 1 ≤ L
  len : ∀ r ∈ time, r.length = L
  ok : ∀ r ∈ time, ∀ t ∈ r, GmTimeOk t
  dec : ∀ r t, time.getLast? = some r → r.getLast? = some t → t.month ≠ 12

theorem fly1_rows (lg : K → K) (L : Nat) (time : List (List GmTime)) (hw : GmWindows L time) (f : String) :
    match flyWidth L f with
    | none => gmFly1 lg time f = .ok none
    | some w => ∃ rows, gmFly1 lg time f = .ok (some rows) ∧ GmRows time.length w rows := by
  have hne : ∀ r ∈ time, r ≠ [] := by
    intro r hr h0
    have := hw.len r hr
    have := hw.pos
    rw [h0] at *
    simp at *
    omega
  obtain ⟨ts, h1, h2, h3⟩ := gmLast_ok time hne
  have hts : ts ≠ [] := by
    intro h0
    rw [h0] at h2
    exact hw.ne (List.length_eq_zero_iff.1 h2.symm)
  have hv : ∀ t ∈ ts, GmTimeOk t := fun t ht => by
    obtain ⟨r, hr, htr⟩ := h3 t ht
    exact hw.ok r hr t htr
  have idx : ∀ i, i < time.length → ∃ t, ts[i]? = some t := fun i hi =>
    ⟨_, List.getElem?_eq_getElem (h2 ▸ hi)⟩
  unfold flyWidth gmFly1
  by_cases e1 : f = "last_date"
  · rw [if_pos e1]
    obtain ⟨rows, g1, g2, g3⟩ := C137_last_date_partial time ts h1 hts hv
    simp only [if_pos e1, g1]
    refine ⟨_, rfl, cast_rows rows (g2.trans h2) fun i hi => ?_⟩
    obtain ⟨t, ht⟩ := idx i hi
    obtain ⟨r, hr, hl, _⟩ := g3 i t ht
    exact ⟨r, hr, hl⟩
  rw [if_neg e1]
  by_cases e2 : f = "simple_date"
  · rw [if_pos e2]
    simp only [if_neg e1, if_pos e2]
    refine ⟨_, rfl, by unfold gmDate; rw [List.length_map], ?_⟩
    intro r hr
    unfold gmDate at hr
    obtain ⟨r0, hr0, rfl⟩ := List.mem_map.1 hr
    simp only [List.length_map, List.length_append, hw.len r0 hr0]
    omega
  rw [if_neg e2]
  by_cases e3 : f = "last_hour"
  · rw [if_pos e3]
    obtain ⟨rows, g1, g2, g3⟩ := C137_hour time ts h1 hts (fun t ht => (hv t ht).hour)
    simp only [if_neg e1, if_neg e2, if_pos e3, g1]
    refine ⟨_, rfl, cast_rows rows (g2.trans h2) fun i hi => ?_⟩
    obtain ⟨t, ht⟩ := idx i hi
    obtain ⟨r, hr, hl, _⟩ := g3 i t ht
    exact ⟨r, hr, hl⟩
  rw [if_neg e3]
  by_cases e4 : f = "last_hour_minute"
  · rw [if_pos e4]
    simp only [if_neg e1, if_neg e2, if_neg e3, if_pos e4]
    have e : gmHourMinute lg time =
        .ok (ts.map fun t => [lg ((t.hour + 1 : Nat) : K), lg ((t.minute + 1 : Nat) : K)]) := by
      unfold gmHourMinute
      rw [h1]
      rfl
    rw [e]
    refine ⟨_, rfl, by rw [List.length_map, h2], ?_⟩
    intro r hr
    obtain ⟨t, _, rfl⟩ := List.mem_map.1 hr
    rfl
  rw [if_neg e4]
  by_cases e5 : f = "last_month"
  · rw [if_pos e5]
    obtain ⟨rows, g1, g2, g3⟩ := (C137_month_partial time ts h1 hts hv).2 (by
      intro t ht
      obtain ⟨r, hr⟩ : ∃ r, time.getLast? = some r :=
        ⟨_, List.getLast?_eq_some_getLast hw.ne⟩
      refine hw.dec r t hr ?_
      have hlast : ∀ (l : List (List GmTime)) (ts : List GmTime) r t, gmLast l = .ok ts →
          l.getLast? = some r → ts.getLast? = some t → r.getLast? = some t := by
        intro l
        induction l with
        | nil => intro ts r t _ h; simp at h
        | cons a l ih =>
          intro ts r t hl hr ht
          unfold gmLast at hl
          rw [List.mapM_cons] at hl
          rcases ha : a.getLast? with _ | b
          · simp only [ha] at hl
            cases hl
          · simp only [ha] at hl
            rcases hb : gmLast l with e | us
            · unfold gmLast at hb
              rw [hb] at hl
              cases hl
            · have hb' := hb
              unfold gmLast at hb'
              rw [hb'] at hl
              injection hl with hl
              subst hl
              rcases l with _ | ⟨a', l⟩
              · simp [gmLast] at hb
                cases hb
                simp at hr ht
                rw [← hr, ha, ht]
              · have hus : us ≠ [] := by
                  rintro rfl
                  unfold gmLast at hb
                  rw [List.mapM_cons] at hb
                  rcases ha' : a'.getLast? with _ | b'
                  · simp only [ha'] at hb; cases hb
                  · simp only [ha'] at hb
                    rcases hc : gmLast l with e | vs
                    · unfold gmLast at hc; rw [hc] at hb; cases hb
                    · unfold gmLast at hc; rw [hc] at hb; cases hb
                rw [List.getLast?_cons_cons] at hr
                obtain ⟨u, us', rfl⟩ := List.exists_cons_of_ne_nil hus
                rw [List.getLast?_cons_cons] at ht
                exact ih _ r t hb hr ht
      exact hlast time ts r t h1 hr ht)
    simp only [if_neg e1, if_neg e2, if_neg e3, if_neg e4, if_pos e5, g1]
    refine ⟨_, rfl, cast_rows rows (g2.trans h2) fun i hi => ?_⟩
    obtain ⟨t, ht⟩ := idx i hi
    obtain ⟨r, hr, hl, _⟩ := g3 i t ht
    exact ⟨r, hr, hl⟩
  rw [if_neg e5]
  simp only [if_neg e1, if_neg e2, if_neg e3, if_neg e4, if_neg e5]

theorem fly_list (lg : K → K) (L : Nat) (time : List (List GmTime)) (hw : GmWindows L time)
    (types : List String) :
    ∃ (fs : List (Option (List (List K)))) (gs : List (Nat × List (List K))),
      types.mapM (gmFly1 lg time) = .ok fs ∧ fs.filter Option.isSome = gs.map (fun g => some g.2) ∧
      (∀ g ∈ gs, GmRows time.length g.1 g.2) ∧ gs.map (·.1) = types.filterMap (flyWidth L) := by
  induction types with
  | nil => exact ⟨[], [], rfl, rfl, by simp, rfl⟩
  | cons f types ih =>
    obtain ⟨fs, gs, h1, h2, h3, h4⟩ := ih
    have := fly1_rows lg L time hw f
    rcases hf : flyWidth L f with _ | w
    · rw [hf] at this
      refine ⟨none :: fs, gs, ?_, ?_, h3, ?_⟩
      · rw [List.mapM_cons, this, h1]; rfl
      · rw [List.filter_cons_of_neg (by simp), h2]
      · rw [List.filterMap_cons, hf, h4]
    · rw [hf] at this
      obtain ⟨rows, hr, hm⟩ := this
      refine ⟨some rows :: fs, (w, rows) :: gs, ?_, ?_, ?_, ?_⟩
      · rw [List.mapM_cons, hr, h1]; rfl
      · rw [List.filter_cons_of_pos (by simp), h2]; rfl
      · intro g hg
        rcases List.mem_cons.1 hg with rfl | hg
        · exact hm
        · exact h3 g hg
      · rw [List.filterMap_cons, hf]
        simp [h4]

theorem fly_rows (lg : K → K) (L : Nat) (time : List (List GmTime)) (hw : GmWindows L time)
    (types : List String) :
    (types.filterMap (flyWidth L) = [] → gmFly lg types time = .ok none) ∧
    (types.filterMap (flyWidth L) ≠ [] → ∃ rows, gmFly lg types time = .ok (some rows) ∧
      GmRows time.length (types.filterMap (flyWidth L)).sum rows) := by
  obtain ⟨fs, gs, h1, h2, h3, h4⟩ := fly_list lg L time hw types
  have e : gmFly lg types time = if 0 < (fs.filter Option.isSome).length
      then (gmCat (fs.filter Option.isSome)).map some else .ok none := by
    unfold gmFly
    rw [h1]
    rfl
  rw [e, h2, List.length_map]
  constructor
  · intro h0
    rw [h0] at h4
    have : gs = [] := by simpa using h4
    rw [this]
    rfl
  · intro h0
    have hg : gs ≠ [] := by
      rintro rfl
      exact h0 h4.symm
    rw [if_pos (List.length_pos_iff.2 hg)]
    obtain ⟨rows, hr, hm⟩ := cat_rows gs hg h3
    rw [hr]
    exact ⟨rows, rfl, h4 ▸ hm⟩

theorem base_rows (tsf : Nat → List (Option K)) (n : Nat) (htsf : ∀ i, i < n → (tsf i).length = 40)
    (types : List String) (hno : "ts2vec" ∉ types) :
    ("tsfeatures" ∉ types → gmBase tsf types n = .ok none) ∧
    ("tsfeatures" ∈ types → ∃ rows, gmBase tsf types n = .ok (some rows) ∧
      GmRows n (40 * types.count "tsfeatures") rows) := by
  have e : (types.filterMap fun f =>
      if f = "tsfeatures" then some (some (gmTsfeatures tsf n))
      else if f = "ts2vec" then some none else none) =
      (List.replicate (types.count "tsfeatures") (40, gmTsfeatures tsf n)).map fun f => some f.2 := by
    induction types with
    | nil => rfl
    | cons f types ih =>
      have ih := ih (fun h => hno (List.mem_cons_of_mem _ h))
      rw [List.filterMap_cons]
      by_cases hf : f = "tsfeatures"
      · subst hf
        rw [if_pos rfl, List.count_cons_self, List.replicate_succ, List.map_cons]
        simp only [ih]
      · have h2 : f ≠ "ts2vec" := by
          rintro rfl
          exact hno (by simp)
        rw [if_neg hf, if_neg h2, List.count_cons_of_ne hf]
        exact ih
  have hrow : GmRows n 40 (gmTsfeatures tsf n) := by
    unfold gmTsfeatures
    refine ⟨by simp, ?_⟩
    intro r hr
    obtain ⟨i, hi, rfl⟩ := List.mem_map.1 hr
    rw [List.length_map]
    exact htsf i (List.mem_range.1 hi)
  unfold gmBase
  simp only [e, List.length_map, List.length_replicate]
  constructor
  · intro h
    rw [if_neg (by rw [List.count_eq_zero_of_not_mem h]; omega)]
  · intro h
    have hc : 0 < types.count "tsfeatures" := List.count_pos_iff.2 h
    rw [if_pos hc]
    obtain ⟨rows, hr, hm⟩ := cat_rows (n := n)
      (List.replicate (types.count "tsfeatures") (40, gmTsfeatures tsf n))
      (by rw [Ne, List.replicate_eq_nil_iff]; omega)
      (fun f hf => by rw [List.eq_of_mem_replicate hf]; exact hrow)
    rw [hr]
    refine ⟨rows, rfl, ?_⟩
    have e2 : ((List.replicate (types.count "tsfeatures") (40, gmTsfeatures tsf n)).map (·.1)).sum =
        40 * types.count "tsfeatures" := by
      rw [List.map_replicate, List.sum_replicate, smul_eq_mul, Nat.mul_comm]
    rw [← e2]
    exact hm

theorem size_split (L : Nat) (types : List String) :
    gmFeatureSize types L = 40 * types.count "tsfeatures" + (types.filterMap (flyWidth L)).sum := by
  unfold gmFeatureSize
  induction types with
  | nil => rfl
  | cons f types ih =>
    rw [List.map_cons, List.sum_cons, ih, List.filterMap_cons]
    by_cases h1 : f = "tsfeatures"
    · subst h1
      rw [List.count_cons_self]
      simp [flyWidth]
      ring
    · rw [List.count_cons_of_ne h1]
      unfold flyWidth
      by_cases h2 : f = "last_date"
      · subst h2; simp; ring
      by_cases h3 : f = "simple_date"
      · subst h3; simp; ring
      by_cases h4 : f = "last_hour"
      · subst h4; simp; ring
      by_cases h5 : f = "last_hour_minute"
      · subst h5; simp; ring
      by_cases h6 : f = "last_month"
      · subst h6; simp; ring
      simp [h1, h2, h3, h4, h5, h6]

/-- C137, the part that holds: with some on-the-fly feature and without `ts2vec`, the features of a batch
of windows not ending in December have as many columns as `get_feature_size` tells the network. -/
theorem C137_size_partial (lg : K → K) (tsf : Nat → List (Option K)) (types : List String)
    (hno : "ts2vec" ∉ types)
    (hfly : ∃ f ∈ types, f ∈ ["last_date", "simple_date", "last_hour", "last_hour_minute", "last_month"])
    (L : Nat) (time : List (List GmTime)) (hw : GmWindows L time)
    (htsf : ∀ i, i < time.length → (tsf i).length = 40) :
    ∃ base rows, gmBase tsf types time.length = .ok base ∧
      gmGetFeatures lg types base time = .ok (some rows) ∧ rows.length = time.length ∧
      ∀ r ∈ rows, r.length = gmFeatureSize types L := by
  have hf : types.filterMap (flyWidth L) ≠ [] := by
    obtain ⟨f, hf, hm⟩ := hfly
    intro h0
    have := List.filterMap_eq_nil_iff.1 h0 f hf
    unfold flyWidth at this
    simp only [List.mem_cons, List.not_mem_nil, or_false] at hm
    rcases hm with rfl | rfl | rfl | rfl | rfl <;> simp at this
  obtain ⟨frows, h1, h2⟩ := (fly_rows lg L time hw types).2 hf
  by_cases ht : "tsfeatures" ∈ types
  · obtain ⟨b, hb, hb2⟩ := (base_rows tsf time.length htsf types hno).2 ht
    refine ⟨some b, List.zipWith (· ++ ·) b frows, hb, ?_, ?_⟩
    · unfold gmGetFeatures
      rw [h1]
      rfl
    · rw [size_split]
      exact zip_append_rows hb2 h2
  · have hb := (base_rows tsf time.length htsf types hno).1 ht
    refine ⟨none, frows, hb, ?_, ?_⟩
    · unfold gmGetFeatures
      rw [h1]
      rfl
    · rw [size_split, List.count_eq_zero_of_not_mem ht, Nat.mul_zero, Nat.zero_add]
      exact h2

/-- C137 violated: with `ts2vec` the features of a batch cannot be computed, whatever the data. -/
theorem C137_ts2vec_violated (tsf : Nat → List (Option K)) (types : List String) (h : "ts2vec" ∈ types)
    (n : Nat) : gmBase tsf types n = .error .typeError := by
  unfold gmBase
  have hm : (none : Option (List (List K))) ∈ types.filterMap fun f =>
      if f = "tsfeatures" then some (some (gmTsfeatures tsf n))
      else if f = "ts2vec" then some none else none := by
    rw [List.mem_filterMap]
    exact ⟨"ts2vec", h, by simp⟩
  have hnone : ∀ l : List (Option (List (List K))), none ∈ l → l.mapM id = none := by
    intro l
    induction l with
    | nil => intro h; simp at h
    | cons a l ih =>
      intro h
      rw [List.mapM_cons]
      rcases a with _ | a
      · rfl
      · have : none ∈ l := by simpa using h
        rw [ih this]
        rfl
  simp only [List.length_pos_of_mem hm, if_true]
  unfold gmCat
  rw [hnone _ hm]
  rfl

/-- C137 violated: the features of Kats alone are accepted but a batch cannot be used: nothing is computed
on the fly, and nothing cannot be joined to the base features. -/
theorem C137_tsfeatures_violated (lg : K → K) (tsf : Nat → List (Option K)) (n : Nat)
    (time : List (List GmTime)) : gmFeatureInit ["tsfeatures"] = .ok ["tsfeatures"] ∧
    ∃ b, gmBase tsf ["tsfeatures"] n = .ok (some b) ∧
      gmGetFeatures lg ["tsfeatures"] (some b) time = .error .typeError :=
  ⟨rfl, _, rfl, rfl⟩

end

/-- C137: only the seven names are accepted. -/
theorem C137_names (types : List String) : gmFeatureInit types = .ok types ↔
    ∀ f ∈ types, f ∈ ["last_date", "simple_date", "tsfeatures", "ts2vec", "last_hour", "last_hour_minute",
      "last_month"] := by
  unfold gmFeatureInit
  by_cases h : (types.all fun t => decide (t ∈ gmAllFeatures)) = true
  · rw [if_pos h]
    refine ⟨fun _ f hf => ?_, fun _ => rfl⟩
    simpa [gmAllFeatures] using List.all_eq_true.1 h f hf
  · rw [if_neg h]
    refine ⟨fun h => by simp at h, fun hall => absurd (List.all_eq_true.2 fun f hf => ?_) h⟩
    simpa [gmAllFeatures] using hall f hf

/-- C137 violated: two features can be equal though they have different sizes. -/
theorem C137_eq_violated : gmFeatureEq ["last_hour", "last_hour"] ["last_hour"] = true ∧
    ∀ n, gmFeatureSize ["last_hour", "last_hour"] n ≠ gmFeatureSize ["last_hour"] n := by
  refine ⟨by decide, fun n => ?_⟩
  simp [gmFeatureSize]

/-- C137: equal features without repetitions have the same size. -/
theorem C137_eq_size (a b : List String) (ha : a.Nodup) (hb : b.Nodup) (h : gmFeatureEq a b = true)
    (n : Nat) : gmFeatureSize a n = gmFeatureSize b n := by
  have hp : a.Perm b := by
    rw [List.perm_ext_iff_of_nodup ha hb]
    intro f
    unfold gmFeatureEq at h
    simp only [Bool.and_eq_true, List.all_eq_true, decide_eq_true_eq] at h
    exact ⟨h.1 f, h.2 f⟩
  unfold gmFeatureSize
  exact (hp.map _).sum_eq

example : GmWindows 2 [[gmSunday, gmSunday], [gmSunday, gmSunday]] := by
  constructor
  · simp
  · decide
  · simp
  · intro r hr t ht
    have : t = gmSunday := by simp at hr; subst hr; simpa using ht
    rw [this]
    constructor <;> decide
  · intro r t hr ht
    simp at hr
    subst hr
    simp at ht
    subst ht
    decide

example : gmFeatureEq ["last_hour", "simple_date"] ["simple_date", "last_hour"] = true ∧
    gmFeatureSize ["last_hour", "simple_date"] 10 = 64 := by decide

end Kats

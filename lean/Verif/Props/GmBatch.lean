import Verif.Props.GmIndices
import Verif.Props.EnsembleInterval
import Mathlib.Tactic.FieldSimp

/-!
# C136: the arrays of a batch
-/

namespace Kats

/-! ## The offset -/

theorem gmMin_spec (ts : GmTs) (a : Rat) (h : gmMin ts = some a) :
    (∃ r ∈ ts, r.2 = some a) ∧ ∀ r ∈ ts, ∀ b, r.2 = some b → a ≤ b := by
  obtain ⟨h1, h2⟩ := List.min?_eq_some_iff.1 h
  obtain ⟨r, hr, he⟩ := List.mem_filterMap.1 h1
  exact ⟨⟨r, hr, he⟩, fun r hr b hb => h2 b (List.mem_filterMap.2 ⟨r, hr, hb⟩)⟩

theorem gmMax_spec (ts : GmTs) (a : Rat) (h : gmMax ts = some a) :
    (∃ r ∈ ts, r.2 = some a) ∧ ∀ r ∈ ts, ∀ b, r.2 = some b → b ≤ a := by
  obtain ⟨h1, h2⟩ := List.max?_eq_some_iff.1 h
  obtain ⟨r, hr, he⟩ := List.mem_filterMap.1 h1
  exact ⟨⟨r, hr, he⟩, fun r hr b hb => h2 b (List.mem_filterMap.2 ⟨r, hr, hb⟩)⟩

theorem gmMin_some (ts : GmTs) (h : ∃ r ∈ ts, r.2 ≠ none) : ∃ a b, gmMin ts = some a ∧ gmMax ts = some b := by
  obtain ⟨r, hr, hne⟩ := h
  have hl : ts.filterMap (·.2) ≠ [] := by
    obtain ⟨c, hc⟩ := Option.ne_none_iff_exists'.1 hne
    exact List.ne_nil_of_mem (List.mem_filterMap.2 ⟨r, hr, hc⟩)
  rcases h1 : gmMin ts with _ | a
  · unfold gmMin at h1; rw [List.min?_eq_none_iff] at h1; exact absurd h1 hl
  · rcases h2 : gmMax ts with _ | b
    · unfold gmMax at h2; rw [List.max?_eq_none_iff] at h2; exact absurd h2 hl
    · exact ⟨a, b, rfl, rfl⟩

/-- C136, the part that holds: with an uplifting ratio above 1 and some value in the series (and in the
validation series, if there is one), the offset makes all values positive; it is 0 if they are already;
otherwise it makes the largest value of the two series `uplifting_ratio` times the smallest one, or,
if all are the same, makes them 1. -/
theorem C136_offset_partial (u : Rat) (hu : 1 < u) (train : GmTs) (valid : Option GmTs)
    (ht : ∃ r ∈ train, r.2 ≠ none) (hv : ∀ v, valid = some v → ∃ r ∈ v, r.2 ≠ none) :
    ∃ off, gmOffset u train valid = .ok off ∧
      (∀ r ∈ train ++ valid.getD [], ∀ a, r.2 = some a → 0 < a + off) ∧
      ((∀ r ∈ train ++ valid.getD [], ∀ a, r.2 = some a → 0 < a) → off = 0) ∧
      ((∃ r ∈ train ++ valid.getD [], ∃ a, r.2 = some a ∧ a ≤ 0) →
        ∃ r ∈ train ++ valid.getD [], ∃ s ∈ train ++ valid.getD [], ∃ a b, r.2 = some a ∧ s.2 = some b ∧
          (∀ q ∈ train ++ valid.getD [], ∀ c, q.2 = some c → a ≤ c ∧ c ≤ b) ∧
          ((a < b ∧ b + off = u * (a + off)) ∨ (a = b ∧ a + off = 1))) := by
  obtain ⟨a1, b1, ha1, hb1⟩ := gmMin_some train ht
  obtain ⟨ha1m, ha1l⟩ := gmMin_spec _ _ ha1
  obtain ⟨hb1m, hb1l⟩ := gmMax_spec _ _ hb1
  have key : ∃ a b, gmOffset u train valid = (if a ≤ 0 then
        if a = b then Except.ok (1 - a)
        else if u = 1 then Except.error Err.otherError else Except.ok ((b - u * a) / (u - 1))
      else Except.ok 0) ∧
      (∃ r ∈ train ++ valid.getD [], r.2 = some a) ∧ (∃ r ∈ train ++ valid.getD [], r.2 = some b) ∧
      (∀ r ∈ train ++ valid.getD [], ∀ c, r.2 = some c → a ≤ c ∧ c ≤ b) := by
    rcases valid with _ | v
    · refine ⟨a1, b1, by simp only [gmOffset, ha1, hb1], ?_, ?_, ?_⟩
      · simpa using ha1m
      · simpa using hb1m
      · intro r hr c hc
        simp only [Option.getD_none, List.append_nil] at hr
        exact ⟨ha1l r hr c hc, hb1l r hr c hc⟩
    · obtain ⟨a2, b2, ha2, hb2⟩ := gmMin_some v (hv v rfl)
      obtain ⟨ha2m, ha2l⟩ := gmMin_spec _ _ ha2
      obtain ⟨hb2m, hb2l⟩ := gmMax_spec _ _ hb2
      refine ⟨min a1 a2, max b1 b2, by simp only [gmOffset, ha1, ha2, gmMin2, hb1, hb2, gmMax2],
        ?_, ?_, ?_⟩
      · rcases min_choice a1 a2 with h | h <;> rw [h]
        · obtain ⟨r, hr, he⟩ := ha1m; exact ⟨r, by simp [hr], he⟩
        · obtain ⟨r, hr, he⟩ := ha2m; exact ⟨r, by simp [hr], he⟩
      · rcases max_choice b1 b2 with h | h <;> rw [h]
        · obtain ⟨r, hr, he⟩ := hb1m; exact ⟨r, by simp [hr], he⟩
        · obtain ⟨r, hr, he⟩ := hb2m; exact ⟨r, by simp [hr], he⟩
      · intro r hr c hc
        simp only [Option.getD_some, List.mem_append] at hr
        rcases hr with hr | hr
        · exact ⟨le_trans (min_le_left _ _) (ha1l r hr c hc), le_trans (hb1l r hr c hc) (le_max_left _ _)⟩
        · exact ⟨le_trans (min_le_right _ _) (ha2l r hr c hc), le_trans (hb2l r hr c hc) (le_max_right _ _)⟩
  obtain ⟨a, b, h1, ⟨r, hr, hra⟩, ⟨s, hs, hsb⟩, h5⟩ := key
  rw [h1]
  have hab : a ≤ b := (h5 s hs b hsb).1
  by_cases ha : a ≤ 0
  · rw [if_pos ha]
    by_cases he : a = b
    · rw [if_pos he]
      refine ⟨_, rfl, ?_, ?_, ?_⟩
      · intro q hq c hc
        have := (h5 q hq c hc).1
        linarith
      · intro hall
        have := hall r hr a hra
        linarith
      · intro _
        exact ⟨r, hr, s, hs, a, b, hra, hsb, h5, Or.inr ⟨he, by ring⟩⟩
    · rw [if_neg he, if_neg (by linarith)]
      have hlt : a < b := lt_of_le_of_ne hab he
      have hu0 : u - 1 ≠ 0 := by linarith
      have hpos : 0 < a + (b - u * a) / (u - 1) := by
        have : a + (b - u * a) / (u - 1) = (b - a) / (u - 1) := by field_simp; ring
        rw [this]
        exact div_pos (by linarith) (by linarith)
      refine ⟨_, rfl, ?_, ?_, ?_⟩
      · intro q hq c hc
        have := (h5 q hq c hc).1
        linarith
      · intro hall
        have := hall r hr a hra
        linarith
      · intro _
        refine ⟨r, hr, s, hs, a, b, hra, hsb, h5, Or.inl ⟨hlt, ?_⟩⟩
        field_simp
        ring
  · rw [if_neg ha]
    refine ⟨0, rfl, ?_, fun _ => rfl, ?_⟩
    · intro q hq c hc
      have := (h5 q hq c hc).1
      push Not at ha
      linarith
    · rintro ⟨q, hq, c, hc, hle⟩
      have := (h5 q hq c hc).1
      exact absurd (le_trans this hle) ha

/-- Values -1 and 3, validation 5, ratio 3: the offset is 4. -/
example : gmOffset 3 [(0, some (-1)), (1, none), (2, some 3)] (some [(3, some 5)]) = .ok 4 := by
  have : (gmOffset 3 [(0, some (-1)), (1, none), (2, some 3)] (some [(3, some 5)])).toOption = some 4 := by
    decide +kernel
  rcases h : gmOffset 3 [(0, some (-1)), (1, none), (2, some 3)] (some [(3, some 5)]) with e | x
  · rw [h] at this; cases this
  · rw [h] at this
    exact congrArg Except.ok (Option.some.inj this)

/-- C136 violated: an uplifting ratio below 1, which `GMParam` accepts if it is not negative, makes
all values negative if the series is not constant and not positive. -/
theorem C136_ratio_violated (u : Rat) (hu : u < 1) (train : GmTs) (a b : Rat) (ha : gmMin train = some a)
    (hb : gmMax train = some b) (h0 : a ≤ 0) (hab : a < b) :
    ∃ off, gmOffset u train none = .ok off ∧ ∃ r ∈ train, ∃ c, r.2 = some c ∧ c + off < 0 := by
  unfold gmOffset
  simp only [ha, hb]
  rw [if_pos h0, if_neg (ne_of_lt hab), if_neg (ne_of_lt hu)]
  refine ⟨_, rfl, ?_⟩
  obtain ⟨⟨r, hr, he⟩, _⟩ := gmMin_spec _ _ ha
  refine ⟨r, hr, a, he, ?_⟩
  have hu0 : u - 1 ≠ 0 := by linarith
  have : a + (b - u * a) / (u - 1) = (b - a) / (u - 1) := by field_simp; ring
  rw [this]
  exact div_neg_of_pos_of_neg (by linarith) (by linarith)

example : gmMin [(0, some (-1)), (1, some 3)] = some (-1) ∧ gmMax [(0, some (-1)), (1, some 3)] = some 3 := by
  decide +kernel

/-- C136 violated: a ratio of 1 has no offset. -/
theorem C136_ratio_one_violated (train : GmTs) (a b : Rat) (ha : gmMin train = some a)
    (hb : gmMax train = some b) (h0 : a ≤ 0) (hab : a < b) :
    gmOffset 1 train none = .error .otherError := by
  unfold gmOffset
  simp only [ha, hb]
  rw [if_pos h0, if_neg (ne_of_lt hab), if_pos trivial]

/-- C136 violated: with a validation series of missing values there is no offset, whatever the
values. -/
theorem C136_nan_valid_violated (u : Rat) (train v : GmTs) (hv : ∀ r ∈ v, r.2 = none) :
    gmOffset u train (some v) = .ok 0 := by
  have h : gmMin v = none := by
    unfold gmMin
    rw [List.min?_eq_none_iff, List.filterMap_eq_nil_iff]
    exact hv
  unfold gmOffset
  simp only [h]
  cases gmMin train <;> rfl

example : ∀ r ∈ ([(5, none), (6, none)] : GmTs), r.2 = none := by simp

/-! ## Truncating and padding -/

theorem flatten_replicate_get {α : Type} (t : List α) : ∀ (m k : Nat), k < m * t.length →
    (List.replicate m t).flatten[k]? = t[k % t.length]? := by
  intro m
  induction m with
  | zero => intro k hk; omega
  | succ m ih =>
    intro k hk
    rw [List.replicate_succ, List.flatten_cons]
    by_cases h : k < t.length
    · rw [List.getElem?_append_left h, Nat.mod_eq_of_lt h]
    · have e : (m + 1) * t.length = m * t.length + t.length := by ring
      rw [List.getElem?_append_right (by omega), ih _ (by omega), ← Nat.mod_eq_sub_mod (by omega)]

theorem tile_get {α : Type} (l : List α) (s n : Nat) (hs : 1 ≤ s) (hl : s ≤ l.length) (hn : 1 ≤ n) :
    (gmTile l s n).length = n ∧ ∀ j, j < n → ∃ i, i < s ∧ (gmTile l s n)[j]? = l[i]? ∧ s ∣ (n - j) + i := by
  have htl : (l.take s).length = s := by rw [List.length_take]; omega
  have hfl : ((List.replicate (n / s + 1) (l.take s)).flatten).length = (n / s + 1) * s := by
    rw [List.length_flatten, List.map_replicate, htl, List.sum_replicate_nat]
  have hge : n < (n / s + 1) * s := by
    have := Nat.lt_div_mul_add (a := n) hs
    have e : (n / s + 1) * s = n / s * s + s := by ring
    omega
  have hpf : gmTile l s n = ((List.replicate (n / s + 1) (l.take s)).flatten).drop ((n / s + 1) * s - n) := by
    unfold gmTile pyFrom pyIdx
    rw [hfl, if_pos (by omega)]
    congr 1
    omega
  rw [hpf]
  refine ⟨by rw [List.length_drop, hfl]; omega, ?_⟩
  intro j hj
  refine ⟨((n / s + 1) * s - n + j) % s, Nat.mod_lt _ hs, ?_, ?_⟩
  · rw [List.getElem?_drop, flatten_replicate_get _ _ _ (by rw [htl]; omega), htl,
      List.getElem?_take_of_lt (Nat.mod_lt _ hs)]
  · have h1 : (n - j) + ((n / s + 1) * s - n + j) = (n / s + 1) * s := by omega
    have h2 : s ∣ ((n / s + 1) * s - n + j) - ((n / s + 1) * s - n + j) % s := Nat.dvd_sub_mod _
    have h3 : s ∣ (n / s + 1) * s := Dvd.intro_left _ rfl
    have h4 := Nat.mod_le ((n / s + 1) * s - n + j) s
    have h5 : (n - j) + ((n / s + 1) * s - n + j) % s =
        (n / s + 1) * s - (((n / s + 1) * s - n + j) - ((n / s + 1) * s - n + j) % s) := by omega
    rw [h5]
    exact Nat.dvd_sub h3 h2

/-- The array ends with the end of the series; what is before it is from the first period, in phase. -/
theorem resize_get {α : Type} (l : List α) (s reduced : Nat) (hs : 1 ≤ s) (hl : s ≤ l.length)
    (hr : 1 ≤ reduced) :
    (gmResize l s reduced).length = reduced ∧
    (∀ j, j < l.length → l.length ≤ reduced + j → (gmResize l s reduced)[reduced + j - l.length]? = l[j]?) ∧
    (∀ j, j + l.length < reduced → ∃ i, i < s ∧ (gmResize l s reduced)[j]? = l[i]? ∧
      s ∣ (reduced - l.length - j) + i) := by
  unfold gmResize
  by_cases h : reduced ≤ l.length
  · rw [if_pos h]
    have hpf : pyFrom l (-(reduced : Int)) = l.drop (l.length - reduced) := by
      unfold pyFrom pyIdx
      rw [if_pos (by omega)]
      congr 1
      omega
    rw [hpf]
    refine ⟨by rw [List.length_drop]; omega, ?_, fun j hj => by omega⟩
    intro j hj hle
    rw [List.getElem?_drop]
    congr 1
    omega
  · rw [if_neg h]
    obtain ⟨h1, h2⟩ := tile_get l s (reduced - l.length) hs hl (by omega)
    refine ⟨by rw [List.length_append, h1]; omega, ?_, ?_⟩
    · intro j hj hle
      rw [List.getElem?_append_right (by omega), h1]
      congr 1
      omega
    · intro j hj
      rw [List.getElem?_append_left (by omega)]
      exact h2 j (by omega)

theorem resize_map {α β : Type} (f : α → β) (l : List α) (s reduced : Nat) :
    gmResize (l.map f) s reduced = (gmResize l s reduced).map f := by
  unfold gmResize gmTile pyFrom
  rw [List.length_map]
  split
  · rw [List.map_drop]
  · rw [List.map_append, List.map_drop, List.map_flatten, List.map_replicate, List.map_take]
    congr 3
    simp [List.length_flatten]

theorem resize_mem {α : Type} (l : List α) (s reduced : Nat) (x : α) (h : x ∈ gmResize l s reduced) : x ∈ l := by
  unfold gmResize at h
  split at h
  · exact List.mem_of_mem_drop h
  · rcases List.mem_append.1 h with h | h
    · unfold gmTile pyFrom at h
      have := List.mem_of_mem_drop h
      obtain ⟨t, ht, hx⟩ := List.mem_flatten.1 this
      rw [List.eq_of_mem_replicate ht] at hx
      exact List.mem_of_mem_take hx
    · exact h

/-! ## Missing values -/

theorem first_spec (x : List (Option Rat)) (h : ∃ v, some v ∈ x) :
    ∃ y, gmFirst x = .ok y ∧ y.length = x.length ∧ (∃ v, y[0]? = some (some v)) ∧
      (∀ (j : Nat), 1 ≤ j → y[j]? = x[j]?) ∧ (∀ v, x[0]? = some (some v) → y[0]? = x[0]?) ∧
      (∀ v, some v ∈ y → some v ∈ x) := by
  obtain ⟨v, hv⟩ := h
  unfold gmFirst
  rcases x with _ | ⟨a, x⟩
  · simp at hv
  · rcases a with _ | a
    · simp only [List.head?_cons]
      rcases hf : (none :: x).find? Option.isSome with _ | w
      · have := List.find?_eq_none.1 hf _ hv
        simp at this
      · have hw := List.mem_of_find?_eq_some hf
        have hs := List.find?_some hf
        obtain ⟨b, rfl⟩ := Option.isSome_iff_exists.1 hs
        refine ⟨_, rfl, by simp, ⟨b, by simp⟩, ?_, ?_, ?_⟩
        · intro j hj
          rw [List.getElem?_set_ne (by omega)]
        · intro v hv; simp at hv
        · intro v hv
          rcases List.mem_or_eq_of_mem_set hv with h | h
          · exact h
          · rw [h]; exact hw
    · exact ⟨_, rfl, rfl, ⟨a, rfl⟩, fun _ _ => rfl, fun _ _ => rfl, fun _ h => h⟩

theorem fillNan_spec (x : List (Option Rat)) (s : Nat) (hs : 1 ≤ s) (hl : s ≤ x.length)
    (h0 : ∃ v, x[0]? = some (some v)) :
    ∃ y, gmFillNan x s = .ok y ∧ y.length = x.length ∧
      (∀ (j : Nat), j < s → ∃ v, y[j]? = some (some v)) ∧ (∀ (j : Nat), s ≤ j → y[j]? = x[j]?) ∧
      (∀ (j : Nat) v, x[j]? = some (some v) → y[j]? = x[j]?) ∧
      (∀ (j : Nat), j + 1 < s → x[j + 1]? = some none → y[j + 1]? = y[j]?) ∧
      (∀ v, some v ∈ y → some v ∈ x) := by
  unfold gmFillNan
  by_cases h1 : s = 1
  · subst h1
    rw [if_pos rfl]
    refine ⟨x, rfl, rfl, ?_, fun _ _ => rfl, fun _ _ _ => rfl, fun j hj => by omega, fun _ h => h⟩
    intro j hj
    have : j = 0 := by omega
    subst this
    exact h0
  · rw [if_neg h1]
    have key : ∀ n, n + 1 ≤ s → ∃ y, (List.range n).foldlM (fun (x : List (Option Rat)) i =>
        match x[i + 1]? with
        | none => Except.error .indexError
        | some none => Except.ok (x.set (i + 1) (x.getD i none))
        | some (some _) => Except.ok x) x = (Except.ok y : Except Err (List (Option Rat))) ∧
        y.length = x.length ∧
        (∀ (j : Nat), j < n + 1 → ∃ v, y[j]? = some (some v)) ∧ (∀ (j : Nat), n + 1 ≤ j → y[j]? = x[j]?) ∧
        (∀ (j : Nat) v, x[j]? = some (some v) → y[j]? = x[j]?) ∧
        (∀ (j : Nat), j + 1 < n + 1 → x[j + 1]? = some none → y[j + 1]? = y[j]?) ∧
        (∀ v, some v ∈ y → some v ∈ x) := by
      intro n
      induction n with
      | zero =>
        intro _
        refine ⟨x, rfl, rfl, ?_, fun _ _ => rfl, fun _ _ _ => rfl, fun j hj => by omega, fun _ h => h⟩
        intro j hj
        have : j = 0 := by omega
        subst this
        exact h0
      | succ n ih =>
        intro hn
        obtain ⟨y, g1, g2, g3, g4, g5, g6, g7⟩ := ih (by omega)
        rw [List.range_succ, List.foldlM_append, g1]
        rw [show ∀ g : List (Option Rat) → Except Err (List (Option Rat)), (Except.ok y >>= g) = g y from
          fun _ => rfl, List.foldlM_cons]
        have hyn : y[n + 1]? = x[n + 1]? := g4 (n + 1) (by omega)
        rcases hx : x[n + 1]? with _ | a
        · rw [List.getElem?_eq_none_iff] at hx; omega
        · rw [hyn, hx]
          rcases a with _ | a
          · refine ⟨y.set (n + 1) (y.getD n none), rfl, by simp [g2], ?_, ?_, ?_, ?_, ?_⟩
            · intro j hj
              by_cases he : j = n + 1
              · subst he
                obtain ⟨v, hv⟩ := g3 n (by omega)
                refine ⟨v, ?_⟩
                rw [List.getElem?_set_self (by omega), List.getD_eq_getElem?_getD, hv]
                rfl
              · rw [List.getElem?_set_ne (by omega)]
                exact g3 j (by omega)
            · intro j hj
              rw [List.getElem?_set_ne (by omega)]
              exact g4 j (by omega)
            · intro j v hv
              have : j ≠ n + 1 := by rintro rfl; rw [hx] at hv; simp at hv
              rw [List.getElem?_set_ne (by omega)]
              exact g5 j v hv
            · intro j hj hxj
              by_cases he : j = n
              · subst he
                rw [List.getElem?_set_self (by omega), List.getElem?_set_ne (by omega)]
                obtain ⟨v, hv⟩ := g3 j (by omega)
                rw [List.getD_eq_getElem?_getD, hv]
                rfl
              · rw [List.getElem?_set_ne (by omega), List.getElem?_set_ne (by omega)]
                exact g6 j (by omega) hxj
            · intro v hv
              rcases List.mem_or_eq_of_mem_set hv with h | h
              · exact g7 v h
              · apply g7
                rw [h, List.getD_eq_getElem?_getD]
                obtain ⟨w, hw⟩ := g3 n (by omega)
                rw [hw]
                exact List.mem_of_getElem? hw
          · refine ⟨y, rfl, g2, ?_, ?_, g5, ?_, g7⟩
            · intro j hj
              by_cases he : j = n + 1
              · subst he
                exact ⟨a, by rw [hyn, hx]⟩
              · exact g3 j (by omega)
            · intro j hj; exact g4 j (by omega)
            · intro j hj hxj
              by_cases he : j = n
              · subst he; rw [hx] at hxj; simp at hxj
              · exact g6 j (by omega) hxj
    obtain ⟨y, g⟩ := key (s - 1) (by omega)
    rw [show s - 1 + 1 = s by omega] at g
    exact ⟨y, g⟩

/-! ## A row -/

/-- C136, the part that holds: for values that are not integers, an array that has a whole period and
a value, the row of a series ends with its last rows, with the offset added; padding repeats the first
period in phase; only missing values of the first period are replaced, and after that none is left in
it.  The validation part has the first rows of the validation series, and then missing values at the
times that follow; in a test without validation series it is missing values at the times after the
series. -/
theorem C136_row_partial (p : GmParams) (hp : GmWf p) (training : Bool) (reduced rv : Nat)
    (train : GmTs) (valid : Option GmTs) (off : Rat) (hoff : gmOffset p.uplift train valid = .ok off)
    (hr : p.seasonality ≤ reduced) (hs : p.seasonality ≤ train.length)
    (hw : ∃ r ∈ train.drop (train.length - reduced), r.2 ≠ none) (hv : ∀ v, valid = some v → v ≠ []) :
    ∃ row, gmRow p training reduced rv false train valid = .ok row ∧ row.offset = off ∧
      row.x.length = reduced ∧ row.time.length = reduced ∧
      (∀ (j : Nat) r, train[j]? = some r → train.length ≤ reduced + j →
        row.time[reduced + j - train.length]? = some r.1 ∧
        (∀ a, r.2 = some a → row.x[reduced + j - train.length]? = some (some (a + off))) ∧
        (r.2 = none → p.seasonality ≤ reduced + j - train.length →
          row.x[reduced + j - train.length]? = some none)) ∧
      (∀ j, j + train.length < reduced → ∃ i r, i < p.seasonality ∧ train[i]? = some r ∧
        p.seasonality ∣ (reduced - train.length - j) + i ∧ row.time[j]? = some r.1 ∧
        ∀ a, r.2 = some a → row.x[j]? = some (some (a + off))) ∧
      (∀ j, j < p.seasonality → ∃ a, row.x[j]? = some (some a)) ∧
      (∀ a, some a ∈ row.x → ∃ r ∈ train, ∃ b, r.2 = some b ∧ a = b + off) ∧
      (∀ v, valid = some v → ∃ vx vt, row.validX = some vx ∧ row.validTime = some vt ∧
        vx.length = rv ∧ vt.length = rv ∧
        (∀ (j : Nat) r, j < rv → v[j]? = some r → vx[j]? = some (r.2.map (· + off)) ∧ vt[j]? = some r.1) ∧
        (∀ j b, j < rv → v.length ≤ j → v.getLast? = some b → vx[j]? = some none ∧
          vt[j]? = some (b.1 + ((j : Int) - (v.length : Int) + 1) * p.freq))) ∧
      (valid = none → training = false → ∃ vx vt b, row.validX = some vx ∧ row.validTime = some vt ∧
        train.getLast? = some b ∧ vx = List.replicate rv none ∧ vt.length = rv ∧
        ∀ j, j < rv → vt[j]? = some (b.1 + ((j : Int) + 1) * p.freq)) ∧
      (valid = none → training = true → row.validX = none ∧ row.validTime = none) := by
  have hs1 := hp.season
  have hr1 : 1 ≤ reduced := le_trans hs1 hr
  obtain ⟨val, hval⟩ : ∃ val : List (Option Rat), val = train.map fun r => r.2.map (· + off) := ⟨_, rfl⟩
  have hvl : val.length = train.length := by rw [hval, List.length_map]
  obtain ⟨hz1, hz2, hz3⟩ := resize_get val p.seasonality reduced hs1 (by omega) hr1
  obtain ⟨ht1, ht2, ht3⟩ := resize_get train p.seasonality reduced hs1 hs hr1
  have hzt : gmResize val p.seasonality reduced =
      (gmResize train p.seasonality reduced).map fun r => r.2.map (· + off) := by
    rw [hval, resize_map]
  have hsome : ∃ v, some v ∈ gmResize val p.seasonality reduced := by
    obtain ⟨r, hr', hne⟩ := hw
    obtain ⟨a, ha⟩ := Option.ne_none_iff_exists'.1 hne
    obtain ⟨k, hk⟩ := List.mem_iff_getElem?.1 hr'
    rw [List.getElem?_drop] at hk
    have hkl : train.length - reduced + k < train.length := by
      by_contra hge
      rw [List.getElem?_eq_none (by omega)] at hk
      cases hk
    have := ht2 _ hkl (by omega)
    rw [hk] at this
    refine ⟨a + off, ?_⟩
    rw [hzt]
    refine List.mem_map.2 ⟨r, List.mem_of_getElem? this, ?_⟩
    rw [ha]; rfl
  obtain ⟨y, hy1, hy2, hy3, hy4, hy5, hy6⟩ := first_spec _ hsome
  obtain ⟨x, hx1, hx2, hx3, hx4, hx5, hx6, hx7⟩ := fillNan_spec y p.seasonality hs1 (by omega) hy3
  have hxl : x.length = reduced := by omega
  -- what the row has where the resized series has something
  have hxs : ∀ (j : Nat) v, (gmResize val p.seasonality reduced)[j]? = some (some v) → x[j]? = some (some v) := by
    intro j v hj
    have : y[j]? = some (some v) := by
      rcases Nat.eq_zero_or_pos j with rfl | hpos
      · rw [hy5 v hj, hj]
      · rw [hy4 j hpos, hj]
    rw [hx5 j v this, this]
  have hxn : ∀ (j : Nat), p.seasonality ≤ j → x[j]? = (gmResize val p.seasonality reduced)[j]? := by
    intro j hj
    rw [hx4 j hj, hy4 j (by omega)]
  have hA : ∀ (j : Nat) r, train[j]? = some r → train.length ≤ reduced + j →
      (gmResize (train.map (·.1)) p.seasonality reduced)[reduced + j - train.length]? = some r.1 ∧
      (∀ a, r.2 = some a → x[reduced + j - train.length]? = some (some (a + off))) ∧
      (r.2 = none → p.seasonality ≤ reduced + j - train.length →
        x[reduced + j - train.length]? = some none) := by
    intro j r hj hle
    have hjl : j < train.length := by
      by_contra hge
      rw [List.getElem?_eq_none (by omega)] at hj
      cases hj
    have h1 := ht2 j hjl hle
    rw [hj] at h1
    have h2 : (gmResize val p.seasonality reduced)[reduced + j - train.length]? =
        some (r.2.map (· + off)) := by
      rw [hzt, List.getElem?_map, h1]; rfl
    refine ⟨?_, ?_, ?_⟩
    · rw [resize_map, List.getElem?_map, h1]; rfl
    · intro a ha
      apply hxs
      rw [h2, ha]; rfl
    · intro hn hle2
      rw [hxn _ hle2, h2, hn]; rfl
  have hB : ∀ j, j + train.length < reduced → ∃ i r, i < p.seasonality ∧ train[i]? = some r ∧
      p.seasonality ∣ (reduced - train.length - j) + i ∧
      (gmResize (train.map (·.1)) p.seasonality reduced)[j]? = some r.1 ∧
      ∀ a, r.2 = some a → x[j]? = some (some (a + off)) := by
    intro j hj
    obtain ⟨i, hi, h1, h2⟩ := ht3 j hj
    have hil : i < train.length := by omega
    rw [List.getElem?_eq_getElem hil] at h1
    refine ⟨i, train[i], hi, List.getElem?_eq_getElem hil, h2, ?_, ?_⟩
    · rw [resize_map, List.getElem?_map, h1]; rfl
    · intro a ha
      apply hxs
      rw [hzt, List.getElem?_map, h1, Option.map_some, ha]; rfl
  have hC : ∀ a, some a ∈ x → ∃ r ∈ train, ∃ b, r.2 = some b ∧ a = b + off := by
    intro a ha
    have h1 := resize_mem _ _ _ _ (hy6 a (hx7 a ha))
    rw [hval, List.mem_map] at h1
    obtain ⟨r, hr', he⟩ := h1
    rcases hr2 : r.2 with _ | b
    · rw [hr2] at he; cases he
    · rw [hr2] at he
      exact ⟨r, hr', b, hr2, (Option.some.inj he).symm⟩
  have htl : (gmResize (train.map (·.1)) p.seasonality reduced).length = reduced := by
    rw [resize_map, List.length_map, ht1]
  have haft : ∀ (t : Int) (n : Nat), (gmAfter t p.freq n).length = n ∧
      ∀ j, j < n → (gmAfter t p.freq n)[j]? = some (t + ((j : Int) + 1) * p.freq) := by
    intro t n
    unfold gmAfter
    refine ⟨by simp, fun j hj => ?_⟩
    rw [List.getElem?_map, List.getElem?_range hj]; rfl
  unfold gmRow
  rw [hoff]
  show ∃ row, (gmFirst (gmResize (train.map fun r => r.2.map (· + off)) p.seasonality reduced) >>= fun x1 =>
    gmFillNan x1 p.seasonality >>= fun x => _) = _ ∧ _
  rw [← hval, hy1]
  show ∃ row, (gmFillNan y p.seasonality >>= fun x => _) = _ ∧ _
  rw [hx1]
  rcases valid with _ | v
  · rcases training with _ | _
    · have hne : train ≠ [] := by rintro rfl; simp at hs; omega
      obtain ⟨b, hb⟩ : ∃ b, train.getLast? = some b := ⟨_, List.getLast?_eq_some_getLast hne⟩
      refine ⟨⟨x, gmResize (train.map (·.1)) p.seasonality reduced, off, some (List.replicate rv none),
        some (gmAfter b.1 p.freq rv)⟩, ?_, rfl, hxl, htl, hA, hB, hx3, hC, by simp, ?_, by simp⟩
      · show (match train.getLast? with | none => _ | some b => _) = _
        rw [hb]; rfl
      · intro _ _
        exact ⟨_, _, b, rfl, rfl, hb, rfl, (haft _ _).1, (haft _ _).2⟩
    · exact ⟨_, rfl, rfl, hxl, htl, hA, hB, hx3, hC, by simp, by simp, fun _ _ => ⟨rfl, rfl⟩⟩
  · by_cases hlt : v.length < rv
    · obtain ⟨b, hb⟩ : ∃ b, v.getLast? = some b := ⟨_, List.getLast?_eq_some_getLast (hv v rfl)⟩
      refine ⟨⟨x, gmResize (train.map (·.1)) p.seasonality reduced, off,
        some ((v.map fun r => r.2.map (· + off)) ++ List.replicate (rv - v.length) none),
        some (v.map (·.1) ++ gmAfter b.1 p.freq (rv - v.length))⟩, ?_, rfl, hxl, htl, hA, hB, hx3, hC,
        ?_, by simp, by simp⟩
      · show (if v.length < rv then (match v.getLast? with | none => _ | some b => _) else _) = _
        rw [if_pos hlt, hb]; rfl
      · rintro v' hv'
        injection hv' with hv'
        subst hv'
        refine ⟨_, _, rfl, rfl, by simp; omega, by simp [(haft _ _).1]; omega, ?_, ?_⟩
        · intro j r hj hjr
          have hjl : j < v.length := by
            by_contra hge
            rw [List.getElem?_eq_none (by omega)] at hjr
            cases hjr
          rw [List.getElem?_append_left (by simpa using hjl), List.getElem?_append_left (by simpa using hjl),
            List.getElem?_map, List.getElem?_map, hjr]
          exact ⟨rfl, rfl⟩
        · intro j b' hj hle hb'
          rw [hb] at hb'
          injection hb' with hb'
          subst hb'
          rw [List.getElem?_append_right (by simpa using hle), List.getElem?_append_right (by simpa using hle),
            List.length_map, List.length_map, List.getElem?_replicate, if_pos (by omega),
            (haft _ _).2 _ (by omega)]
          refine ⟨rfl, ?_⟩
          congr 4
          omega
    · refine ⟨⟨x, gmResize (train.map (·.1)) p.seasonality reduced, off,
        some ((v.map fun r => r.2.map (· + off)).take rv), some ((v.map (·.1)).take rv)⟩, ?_, rfl, hxl,
        htl, hA, hB, hx3, hC, ?_, by simp, by simp⟩
      · show (if v.length < rv then _ else _) = _
        rw [if_neg hlt]; rfl
      · rintro v' hv'
        injection hv' with hv'
        subst hv'
        refine ⟨_, _, rfl, rfl, by simp; omega, by simp; omega, ?_, ?_⟩
        · intro j r hj hjr
          rw [List.getElem?_take_of_lt hj, List.getElem?_take_of_lt hj, List.getElem?_map,
            List.getElem?_map, hjr]
          exact ⟨rfl, rfl⟩
        · intro j b' hj hle
          omega

/-- A series of 3 rows in an array of 6, with a period of 2 and an offset: the array is padded with
three rows of the first period, the missing value in the first period of the array is replaced and the
later one is not. -/
example : (gmRow { gmExP with seasonality := 2, uplift := 2 } false 6 2 false
      [(0, none), (1, some (-2)), (2, some 4)] (some [(3, some 8)])).toOption.map
      (fun r => (r.x, r.time)) =
    some ([some 10, some 10, some 10, none, some 10, some 16], [1, 0, 1, 0, 1, 2]) := by
  decide +kernel

/-- C136, the part that holds: all values of a row, those of the validation part included, are
positive, if the ratio is above 1 and the validation series has a value. -/
theorem C136_positive_partial (p : GmParams) (hp : GmWf p) (hu : 1 < p.uplift) (training : Bool)
    (reduced rv : Nat) (train : GmTs) (valid : Option GmTs)
    (hr : p.seasonality ≤ reduced) (hs : p.seasonality ≤ train.length)
    (hw : ∃ r ∈ train.drop (train.length - reduced), r.2 ≠ none)
    (hv : ∀ v, valid = some v → ∃ r ∈ v, r.2 ≠ none) :
    ∃ row, gmRow p training reduced rv false train valid = .ok row ∧ (∀ a, some a ∈ row.x → 0 < a) ∧
      ∀ vx, row.validX = some vx → ∀ a, some a ∈ vx → 0 < a := by
  have ht : ∃ r ∈ train, r.2 ≠ none := by
    obtain ⟨r, hr', h⟩ := hw
    exact ⟨r, List.mem_of_mem_drop hr', h⟩
  obtain ⟨off, hoff, hpos, _, _⟩ := C136_offset_partial p.uplift hu train valid ht hv
  obtain ⟨row, h1, h2, h3, h4, h5, h6, h7, h8, h9, h10, h11⟩ := C136_row_partial p hp training reduced rv
    train valid off hoff hr hs hw (by
      intro v hv'
      obtain ⟨r, hr', _⟩ := hv v hv'
      exact List.ne_nil_of_mem hr')
  refine ⟨row, h1, ?_, ?_⟩
  · intro a ha
    obtain ⟨r, hr', b, hb, rfl⟩ := h8 a ha
    exact hpos r (by simp [hr']) b hb
  · intro vx hvx a ha
    rcases valid with _ | v
    · rcases training with _ | _
      · obtain ⟨vx', vt, b, e1, e2, e3, e4, _⟩ := h10 rfl rfl
        rw [hvx] at e1
        injection e1 with e1
        rw [e1, e4] at ha
        exact absurd (List.eq_of_mem_replicate ha) (by simp)
      · rw [(h11 rfl rfl).1] at hvx
        cases hvx
    · obtain ⟨vx', vt, e1, e2, e3, e4, e5, e6⟩ := h9 v rfl
      rw [hvx] at e1
      injection e1 with e1
      subst e1
      obtain ⟨j, hj⟩ := List.mem_iff_getElem?.1 ha
      have hjl : j < rv := by
        by_contra hge
        rw [List.getElem?_eq_none (by omega)] at hj
        cases hj
      by_cases hlt : j < v.length
      · have := (e5 j v[j] hjl (List.getElem?_eq_getElem hlt)).1
        rw [hj] at this
        injection this with this
        rcases hb : (v[j]).2 with _ | b
        · rw [hb] at this; cases this
        · rw [hb] at this
          injection this with this
          rw [this]
          exact hpos v[j] (by simp [List.getElem_mem hlt]) b hb
      · obtain ⟨r, hr', _⟩ := hv v rfl
        have hb : ∃ b, v.getLast? = some b :=
          ⟨_, List.getLast?_eq_some_getLast (List.ne_nil_of_mem hr')⟩
        obtain ⟨b, hb⟩ := hb
        have := (e6 j b hjl (by omega) hb).1
        rw [hj] at this
        simp at this

example : GmWf { gmExP with uplift := 2 } ∧ (1 : Rat) < 2 ∧
    (∃ r ∈ ([(0, some (-1)), (1, none)] : GmTs).drop (2 - 3), r.2 ≠ none) := by
  refine ⟨?_, by norm_num, ⟨(0, some (-1)), by simp, by simp⟩⟩
  constructor <;> first | exact gmExP_wf.1 | (simp [gmExP])

/-! ## Rows that cannot be made -/

/-- C136 violated: a series of integers cannot be used at all. -/
theorem C136_integers_violated (p : GmParams) (training : Bool) (reduced rv : Nat) (train : GmTs)
    (valid : Option GmTs) (off : Rat) (hoff : gmOffset p.uplift train valid = .ok off) :
    (gmRow p training reduced rv true train valid).toOption = none := by
  unfold gmRow
  rw [hoff]
  rfl

example : (gmOffset 2 [(0, some 1), (1, some 2)] none).toOption = some 0 := by decide +kernel

/-- C136 violated: a series with no value left in the array is an `IndexError`. -/
theorem C136_nan_row_violated (p : GmParams) (training : Bool) (reduced rv : Nat) (train : GmTs)
    (valid : Option GmTs) (off : Rat) (hoff : gmOffset p.uplift train valid = .ok off)
    (hn : ∀ r ∈ gmResize train p.seasonality reduced, r.2 = none) :
    (gmRow p training reduced rv false train valid).toOption = none := by
  unfold gmRow
  rw [hoff]
  have : gmFirst (gmResize (train.map fun r => r.2.map (· + off)) p.seasonality reduced) =
      .error .indexError := by
    rw [resize_map]
    unfold gmFirst
    rcases hg : gmResize train p.seasonality reduced with _ | ⟨a, l⟩
    · rfl
    · rw [hg] at hn
      simp only [List.map_cons, List.head?_cons, hn a (by simp), Option.map_none]
      rw [List.find?_eq_none.2]
      intro y hy
      rcases List.mem_cons.1 hy with rfl | hy
      · simp
      · obtain ⟨r, hr, rfl⟩ := List.mem_map.1 hy
        rw [hn r (List.mem_cons_of_mem _ hr)]
        simp
  show (gmFirst (gmResize (train.map fun r => r.2.map (· + off)) p.seasonality reduced) >>=
    fun _ => _).toOption = none
  rw [this]
  rfl

example : ∀ r ∈ gmResize ([(0, some 1), (1, none), (2, none)] : GmTs) 1 2, r.2 = none := by
  decide +kernel

/-- C136 violated: padding repeats the times of the first period; they do not come before the
series. -/
theorem C136_padded_times_violated :
    ∃ row, gmRow gmExP false 6 1 false [(10, some 1), (11, some 2), (12, some 3)] none = .ok row ∧
      ¬ row.time.Pairwise (· < ·) ∧ ∀ t ∈ row.time, 10 ≤ t := by
  obtain ⟨row, h⟩ : ∃ row, gmRow gmExP false 6 1 false [(10, some 1), (11, some 2), (12, some 3)] none = .ok row :=
    ⟨_, rfl⟩
  have ht : (gmRow gmExP false 6 1 false [(10, some 1), (11, some 2), (12, some 3)] none).toOption.map (·.time) =
      some (gmResize [10, 11, 12] gmExP.seasonality 6) := rfl
  rw [h] at ht
  have ht' : row.time = gmResize [10, 11, 12] gmExP.seasonality 6 := Option.some.inj ht
  refine ⟨row, h, ?_, ?_⟩
  · rw [ht']; decide +kernel
  · rw [ht']; decide +kernel

/-! ## The seasonality of the first period -/

/-- C136: the initial seasonality of a row with no missing value in the first period is one number for
each point of the period, within the bounds; where no bound is met it is the value over the mean of the
period. -/
theorem C136_season (p : GmParams) (hlh : p.seasonLow ≤ p.seasonHigh) (x : List (Option Rat))
    (xs : List Rat) (hx : x.take p.seasonality = xs.map some) :
    (gmSeason p x).length = xs.length ∧
    ∀ (j : Nat) a, xs[j]? = some a → ∃ c, (gmSeason p x)[j]? = some (some c) ∧
      p.seasonLow ≤ c ∧ c ≤ p.seasonHigh ∧
      (p.seasonLow ≤ a / (xs.sum / xs.length) → a / (xs.sum / xs.length) ≤ p.seasonHigh →
        c = a / (xs.sum / xs.length)) ∧
      (a / (xs.sum / xs.length) < p.seasonLow → c = p.seasonLow) ∧
      (p.seasonHigh < a / (xs.sum / xs.length) → c = p.seasonHigh) := by
  unfold gmSeason
  simp only []
  rw [hx, if_pos (by simp)]
  have hf : (xs.map some).filterMap id = xs := by simp [List.filterMap_map]
  rw [hf]
  refine ⟨by simp, ?_⟩
  intro j a ha
  rw [List.getElem?_map, List.getElem?_map, ha]
  refine ⟨_, rfl, ?_⟩
  simp only [List.length_map]
  by_cases h1 : a / (xs.sum / xs.length) < p.seasonLow
  · rw [if_pos h1, if_neg (not_lt.2 hlh)]
    exact ⟨le_rfl, hlh, fun h => absurd h1 (not_lt.2 h), fun _ => rfl,
      fun h => absurd (lt_trans h1 (lt_of_le_of_lt hlh h)) (lt_irrefl _)⟩
  · rw [if_neg h1]
    by_cases h2 : p.seasonHigh < a / (xs.sum / xs.length)
    · rw [if_pos h2]
      exact ⟨hlh, le_rfl, fun _ h => absurd h2 (not_lt.2 h), fun h => absurd h h1, fun _ => rfl⟩
    · rw [if_neg h2]
      exact ⟨not_lt.1 h1, not_lt.1 h2, fun _ _ => rfl, fun h => absurd h h1, fun h => absurd h h2⟩

example : gmSeason { gmExP with seasonality := 2 } [some 1, some 3, none] = [some (1/2), some (3/2)] := by
  decide +kernel

/-! ## A batch -/

theorem fillNan_length (x y : List (Option Rat)) (s : Nat) (h : gmFillNan x s = .ok y) :
    y.length = x.length := by
  unfold gmFillNan at h
  split at h
  · injection h with h; rw [h]
  · have key : ∀ (l : List Nat) (x y : List (Option Rat)),
        l.foldlM (fun (x : List (Option Rat)) i =>
        match x[i + 1]? with
        | none => Except.error .indexError
        | some none => Except.ok (x.set (i + 1) (x.getD i none))
        | some (some _) => Except.ok x) x = (Except.ok y : Except Err (List (Option Rat))) →
        y.length = x.length := by
      intro l
      induction l with
      | nil => intro x y h; injection h with h; rw [h]
      | cons i l ih =>
        intro x y h
        rw [List.foldlM_cons] at h
        rcases hx : x[i + 1]? with _ | _ | a
        · rw [hx] at h; cases h
        · rw [hx] at h
          have := ih _ _ h
          rw [this, List.length_set]
        · rw [hx] at h
          exact ih _ _ h
    exact key _ _ _ h

theorem first_length (x y : List (Option Rat)) (h : gmFirst x = .ok y) : y.length = x.length := by
  unfold gmFirst at h
  split at h
  · cases h
  · injection h with h; rw [h]
  · split at h
    · cases h
    · injection h with h; rw [← h, List.length_set]

theorem row_lengths (p : GmParams) (hp : GmWf p) (training ints : Bool) (reduced rv : Nat) (train : GmTs)
    (valid : Option GmTs) (row : GmRow) (hs : p.seasonality ≤ train.length) (hr : 1 ≤ reduced)
    (h : gmRow p training reduced rv ints train valid = .ok row) :
    row.x.length = reduced ∧ row.time.length = reduced ∧
      (∀ vx, row.validX = some vx → vx.length = rv) ∧ ∀ vt, row.validTime = some vt → vt.length = rv := by
  have hs1 := hp.season
  unfold gmRow at h
  rcases ho : gmOffset p.uplift train valid with e | off
  · rw [ho] at h; cases h
  rw [ho] at h
  rcases ints with _ | _
  swap
  · cases h
  have h : (gmFirst (gmResize (train.map fun r => r.2.map (· + off)) p.seasonality reduced) >>= fun x1 =>
    gmFillNan x1 p.seasonality >>= fun x => _) = Except.ok row := h
  rcases h1 : gmFirst (gmResize (train.map fun r => r.2.map (· + off)) p.seasonality reduced) with e | x1
  · rw [h1] at h; cases h
  rw [h1] at h
  have h : (gmFillNan x1 p.seasonality >>= fun x => _) = Except.ok row := h
  rcases h2 : gmFillNan x1 p.seasonality with e | x
  · rw [h2] at h; cases h
  rw [h2] at h
  have hx : x.length = reduced := by
    rw [fillNan_length _ _ _ h2, first_length _ _ h1, (resize_get _ _ _ hs1 (by simpa using hs) hr).1]
  have ht : (gmResize (train.map (·.1)) p.seasonality reduced).length = reduced :=
    (resize_get _ _ _ hs1 (by simpa using hs) hr).1
  rcases valid with _ | v
  · rcases training with _ | _
    · rcases hb : train.getLast? with _ | b
      · have h : (match train.getLast? with | none => _ | some b => _) = Except.ok row := h
        rw [hb] at h; cases h
      · have h : (match train.getLast? with | none => _ | some b => _) = Except.ok row := h
        rw [hb] at h
        injection h with h
        subst h
        refine ⟨hx, ht, ?_, ?_⟩
        · intro vx hvx; injection hvx with hvx; rw [← hvx]; simp
        · intro vx hvx; injection hvx with hvx; rw [← hvx]; simp [gmAfter]
    · injection h with h
      subst h
      exact ⟨hx, ht, by simp, by simp⟩
  · have h : (if v.length < rv then (match v.getLast? with | none => _ | some b => _) else _) = Except.ok row := h
    by_cases hlt : v.length < rv
    · rw [if_pos hlt] at h
      rcases hb : v.getLast? with _ | b
      · rw [hb] at h; cases h
      · rw [hb] at h
        injection h with h
        subst h
        refine ⟨hx, ht, ?_, ?_⟩
        · intro vx hvx; injection hvx with hvx; rw [← hvx]; simp; omega
        · intro vx hvx; injection hvx with hvx; rw [← hvx]; simp [gmAfter]; omega
    · rw [if_neg hlt] at h
      injection h with h
      subst h
      refine ⟨hx, ht, ?_, ?_⟩
      · intro vx hvx; injection hvx with hvx; rw [← hvx]; simp; omega
      · intro vx hvx; injection hvx with hvx; rw [← hvx]; simp; omega

theorem batch_spec (p : GmParams) (training : Bool) (train : List (Bool × GmTs))
    (valid : Option (List GmTs)) (r1 r2 : Nat) (ix : GmIndices) (rows : List GmRow)
    (h : gmBatch p training train valid r1 r2 = .ok (ix, rows)) :
    rows.length = train.length ∧
    gmIndices p training (train.map fun t => t.2.length) (valid.map fun v => v.map List.length) r1 r2 = .ok ix ∧
    ∀ (i : Nat) row, rows[i]? = some row → ∃ t, train[i]? = some t ∧
      gmRow p training ix.reduced ix.reducedValid t.1 t.2 (valid.map fun v => v.getD i []) = .ok row := by
  unfold gmBatch at h
  rcases hi : gmIndices p training (train.map fun t => t.2.length) (valid.map fun v => v.map List.length)
    r1 r2 with e | ix'
  · rw [hi] at h; cases h
  · rw [hi] at h
    obtain ⟨res, hres⟩ : ∃ res, res = (List.range train.length).mapM fun i =>
      gmRow p training ix'.reduced ix'.reducedValid (train.getD i (false, [])).1
        (train.getD i (false, [])).2 (valid.map fun v => v.getD i []) := ⟨_, rfl⟩
    have h' : (res >>= fun rows => (.ok (ix', rows) : Except Err (GmIndices × List GmRow))) =
      .ok (ix, rows) := by rw [hres]; exact h
    rcases res with e | rs
    · cases h'
    · have he : (ix', rs) = (ix, rows) := by injection h'
      injection he with he1 he2
      subst he1
      subst he2
      obtain ⟨hl, hg⟩ := mapM_range_get _ _ _ hres.symm
      refine ⟨hl, hi, ?_⟩
      intro i row hrow
      have hil : i < train.length := by
        rw [← hl]
        by_contra hge
        rw [List.getElem?_eq_none (by omega)] at hrow
        cases hrow
      refine ⟨train[i], List.getElem?_eq_getElem hil, ?_⟩
      obtain ⟨row', h1, h2⟩ := hg i hil
      rw [hrow] at h1
      injection h1 with h1
      subst h1
      rw [List.getD_eq_getElem?_getD, List.getElem?_eq_getElem hil] at h2
      exact h2

/-- C136: the arrays of a batch have one row for each of its series, made from that series and its
validation series; all rows have the same length, and all windows that the model reads are inside of
them: the input windows and the training windows in the array, the validation and test windows in the
array with its validation part. -/
theorem C136_batch (p : GmParams) (hp : GmWf p) (training : Bool) (train : List (Bool × GmTs))
    (valid : Option (List GmTs)) (r1 r2 : Nat) (ix : GmIndices) (rows : List GmRow)
    (h : gmBatch p training train valid r1 r2 = .ok (ix, rows)) :
    rows.length = train.length ∧
    (∀ (i : Nat) row, rows[i]? = some row → ∃ t, train[i]? = some t ∧
      gmRow p training ix.reduced ix.reducedValid t.1 t.2 (valid.map fun v => v.getD i []) = .ok row) ∧
    ∀ row ∈ rows, row.x.length = ix.reduced ∧ row.time.length = ix.reduced ∧
      (∀ i ∈ ix.train, p.inputWindow ≤ i ∧ i ≤ row.x.length ∧
        (training = true → i + p.fcstWindow * ix.trainEnc ≤ row.x.length)) ∧
      ∀ vx vt, row.validX = some vx → row.validTime = some vt → vt.length = vx.length ∧
        ∀ i ∈ ix.valid, p.inputWindow ≤ i ∧ row.x.length ≤ i ∧
          i + p.fcstWindow ≤ (row.x ++ vx).length := by
  obtain ⟨h1, h2, h3⟩ := batch_spec p training train valid r1 r2 ix rows h
  refine ⟨h1, h3, ?_⟩
  have hiw := hp.iw
  have hok := (C136_indices_ok p training (train.map fun t => t.2.length)
    (valid.map fun v => v.map List.length) r1 r2).1 ⟨ix, h2⟩
  have hix : p.inputWindow ≤ ix.reduced ∧
      (∀ i ∈ ix.train, p.inputWindow ≤ i ∧ i ≤ ix.reduced ∧
        (training = true → i + p.fcstWindow * ix.trainEnc ≤ ix.reduced)) ∧
      ∀ i ∈ ix.valid, ix.reduced ≤ i ∧ i + p.fcstWindow ≤ ix.reduced + ix.reducedValid := by
    rcases training with _ | _
    · obtain ⟨g1, _, _, g4, _, _, _, g8, _⟩ := C136_test_indices p hp _ _ r1 r2 ix h2
      refine ⟨g4, fun i hi => ?_, fun i hi => ?_⟩
      · have := (g1 i).1 hi
        exact ⟨this.1, by omega, by simp⟩
      · have := (g8 i).1 hi
        exact ⟨this.1, this.2.1⟩
    · obtain ⟨g1, _, ⟨k, hk, he⟩, _, _, _, _, _, g9, _⟩ := C136_train_indices p hp _ _ r1 r2 ix h2
      have hk' := (g1 k).1 hk
      refine ⟨by omega, fun i hi => ?_, fun i hi => ?_⟩
      · have := (g1 i).1 hi
        exact ⟨this.1, by omega, fun _ => this.2.1⟩
      · have := (g9 i).1 hi
        exact ⟨this.1, this.2.1⟩
  intro row hrow
  obtain ⟨i, hi⟩ := List.mem_iff_getElem?.1 hrow
  obtain ⟨t, ht, hrow'⟩ := h3 i row hi
  obtain ⟨e1, e2, e3, e4⟩ := row_lengths p hp training t.1 ix.reduced ix.reducedValid t.2 _ row
    (hok.2 _ (List.mem_map.2 ⟨t, List.mem_of_getElem? ht, rfl⟩)) (by omega) hrow'
  refine ⟨e1, e2, ?_, ?_⟩
  · rw [e1]; exact hix.2.1
  · intro vx vt hvx hvt
    rw [e3 vx hvx, e4 vt hvt]
    refine ⟨rfl, fun j hj => ?_⟩
    have := hix.2.2 j hj
    rw [List.length_append, e1, e3 vx hvx]
    exact ⟨by omega, this.1, this.2⟩

/-- Two series, in a training batch with a validation series for each. -/
example : (gmBatch gmExP true [(false, [(0, some 1), (1, some 2), (2, some 4), (3, some 2), (4, some 1),
      (5, some 2), (6, some 7), (7, some 9)]), (false, [(3, some 1), (4, some 2), (5, some 3), (6, some 4)])]
      (some [[(8, some 4)], [(7, some 5)]]) 0 0).toOption.map (fun b => b.2.map (·.x)) =
    some [[some 2, some 1, some 2, some 7, some 9], [some 2, some 1, some 2, some 3, some 4]] := by
  decide +kernel

end Kats

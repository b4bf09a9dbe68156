import Verif.Model.DetectorJson
import Mathlib.Tactic.Linarith
import Mathlib.Tactic.NormNum

/-!
# Properties of loading detectors from JSON (C170)
-/

namespace Kats

/-- A number of the text. -/
def DjDigits (d : List Char) : Prop := d ≠ [] ∧ ∀ c ∈ d, djDigit c = true

/-- A time with a fraction of a second, like `2020-01-01T00:00:00.000`. -/
def DjGroup (t : List Char) : Prop :=
  ∃ a b c d e f s, DjDigits a ∧ DjDigits b ∧ DjDigits c ∧ DjDigits d ∧ DjDigits e ∧ DjDigits f ∧ DjDigits s ∧
    t = a ++ '-' :: (b ++ '-' :: (c ++ 'T' :: (d ++ ':' :: (e ++ ':' :: (f ++ '.' :: s)))))

/-- `l` begins with the time `t`, a word character, a backslash and a quote, and goes on with `r`. -/
def DjAt (l t r : List Char) : Prop := DjGroup t ∧ ∃ w, djWord w = true ∧ l = t ++ w :: '\\' :: '"' :: r

instance (d : List Char) : Decidable (DjDigits d) := inferInstanceAs (Decidable (_ ∧ _))

theorem djTakeWhile_mem (p : Char → Bool) : ∀ (l : List Char) (c : Char), c ∈ l.takeWhile p → p c = true
  | [], _, h => by simp at h
  | x :: l, c, h => by
    rw [List.takeWhile_cons] at h
    split at h
    · rename_i hx
      rcases List.mem_cons.1 h with rfl | h
      · exact hx
      · exact djTakeWhile_mem p l c h
    · simp at h

theorem djNum_eq (sep : Char) (hs : djDigit sep = false) (d r : List Char) (hd : DjDigits d) :
    djNum sep (d ++ sep :: r) = some (d ++ [sep], r) := by
  unfold djNum
  rw [List.dropWhile_append_of_pos hd.2, List.takeWhile_append_of_pos hd.2, List.dropWhile_cons_of_neg (by simp [hs]),
    List.takeWhile_cons_of_neg (by simp [hs])]
  simp [hd.1]

theorem djNum_some (sep : Char) (l g r : List Char) (h : djNum sep l = some (g, r)) :
    ∃ d, DjDigits d ∧ g = d ++ [sep] ∧ l = d ++ sep :: r := by
  unfold djNum at h
  have hl := List.takeWhile_append_dropWhile (p := djDigit) (l := l)
  revert h
  cases hd : l.dropWhile djDigit with
  | nil => simp
  | cons c r' =>
    intro h
    simp only at h
    split at h
    · rename_i hc
      obtain ⟨h1, rfl⟩ := hc
      simp only [Option.some.injEq, Prod.mk.injEq] at h
      obtain ⟨rfl, rfl⟩ := h
      refine ⟨_, ⟨h1, fun c hc => djTakeWhile_mem _ _ _ hc⟩, rfl, ?_⟩
      rw [← hd, hl]
    · cases h

theorem djWord_digit (c : Char) (h : djDigit c = true) : djWord c = true := by simp [djWord, h]

theorem djMatch_iff (l t r : List Char) : djMatch l = some (t, r) ↔ DjAt l t r := by
  constructor
  · intro h
    unfold djMatch at h
    simp only [Option.bind_eq_bind, Option.bind_eq_some_iff, Prod.exists] at h
    obtain ⟨a, l1, h1, b, l2, h2, c, l3, h3, d, l4, h4, e, l5, h5, f, l6, h6, h⟩ := h
    obtain ⟨a, ha, rfl, rfl⟩ := djNum_some _ _ _ _ h1
    obtain ⟨b, hb, rfl, rfl⟩ := djNum_some _ _ _ _ h2
    obtain ⟨c, hc, rfl, rfl⟩ := djNum_some _ _ _ _ h3
    obtain ⟨d, hd, rfl, rfl⟩ := djNum_some _ _ _ _ h4
    obtain ⟨e, he, rfl, rfl⟩ := djNum_some _ _ _ _ h5
    obtain ⟨f, hf, rfl, rfl⟩ := djNum_some _ _ _ _ h6
    have hl := List.takeWhile_append_dropWhile (p := djWord) (l := l6)
    split at h
    · rename_i r' hr
      split at h
      · rename_i hw
        simp only [Option.some.injEq, Prod.mk.injEq] at h
        obtain ⟨rfl, rfl⟩ := h
        have hne : l6.takeWhile djWord ≠ [] := by
          intro h0
          rw [h0] at hw
          exact hw.1 rfl
        refine ⟨⟨a, b, c, d, e, f, _, ha, hb, hc, hd, he, hf, ⟨hw.1, List.all_eq_true.1 hw.2⟩, ?_⟩,
          (l6.takeWhile djWord).getLast hne, djTakeWhile_mem _ _ _ (List.getLast_mem hne), ?_⟩
        · simp
        · have h3 := List.dropLast_concat_getLast hne
          rw [hr] at hl
          conv_lhs => rw [← hl, ← h3]
          simp
      · cases h
    · cases h
  · rintro ⟨⟨a, b, c, d, e, f, s, ha, hb, hc, hd, he, hf, hs, rfl⟩, w, hw, rfl⟩
    have h1 : ∀ x ∈ s ++ [w], djWord x = true := by
      intro x hx
      rcases List.mem_append.1 hx with h | h
      · exact djWord_digit x (hs.2 x h)
      · rw [List.mem_singleton.1 h]; exact hw
    have hbs : ¬ djWord '\\' = true := by decide
    have h2 : (s ++ w :: '\\' :: '"' :: r) = (s ++ [w]) ++ '\\' :: '"' :: r := by simp
    unfold djMatch
    simp only [List.append_assoc, List.cons_append]
    rw [djNum_eq '-' (by decide) a _ ha]
    simp only [Option.bind_eq_bind, Option.bind_some]
    rw [djNum_eq '-' (by decide) b _ hb]
    simp only [Option.bind_some]
    rw [djNum_eq 'T' (by decide) c _ hc]
    simp only [Option.bind_some]
    rw [djNum_eq ':' (by decide) d _ hd]
    simp only [Option.bind_some]
    rw [djNum_eq ':' (by decide) e _ he]
    simp only [Option.bind_some]
    rw [djNum_eq '.' (by decide) f _ hf]
    simp only [Option.bind_some]
    rw [h2, List.takeWhile_append_of_pos h1, List.dropWhile_append_of_pos h1, List.takeWhile_cons_of_neg hbs,
      List.dropWhile_cons_of_neg hbs, List.append_nil, List.dropLast_concat]
    simp only
    rw [if_pos ⟨hs.1, List.all_eq_true.2 hs.2⟩]
    simp

theorem djAt_length (l t r : List Char) (h : DjAt l t r) : r.length < l.length := by
  obtain ⟨_, w, _, rfl⟩ := h
  simp
  omega

theorem djSubN_eq : ∀ (n m : ℕ) (l : List Char), l.length ≤ n → l.length ≤ m → djSubN n l = djSubN m l
  | 0, 0, _, _, _ => rfl
  | 0, m + 1, l, h, _ => by
    have : l = [] := List.length_eq_zero_iff.1 (by omega)
    subst this; rfl
  | n + 1, 0, l, _, h => by
    have : l = [] := List.length_eq_zero_iff.1 (by omega)
    subst this; rfl
  | n + 1, m + 1, [], _, _ => rfl
  | n + 1, m + 1, c :: l, h1, h2 => by
    simp only [List.length_cons] at h1 h2
    unfold djSubN
    split
    · cases hm : djMatch l with
      | none => simp only [djSubN_eq n m l (by omega) (by omega)]
      | some p =>
        obtain ⟨t, r⟩ := p
        have := djAt_length _ _ _ ((djMatch_iff l t r).1 hm)
        simp only [djSubN_eq n m r (by omega) (by omega)]
    · rw [djSubN_eq n m l (by omega) (by omega)]

theorem djSub_other (c : Char) (l : List Char) (h : c ≠ '"' ∨ ∀ t r, ¬ DjAt l t r) :
    djSub (c :: l) = c :: djSub l := by
  show djSubN (l.length + 1) (c :: l) = _
  unfold djSubN
  by_cases hc : c = '"'
  · rw [if_pos hc]
    have : djMatch l = none := by
      cases hm : djMatch l with
      | none => rfl
      | some p => exact absurd ((djMatch_iff l p.1 p.2).1 hm) (h.resolve_left (by simp [hc]) p.1 p.2)
    rw [this, hc]; rfl
  · rw [if_neg hc]; rfl

theorem djSub_match (l t r : List Char) (h : DjAt l t r) :
    djSub ('"' :: l) = '"' :: (t ++ '\\' :: '"' :: djSub r) := by
  show djSubN (l.length + 1) ('"' :: l) = _
  unfold djSubN
  rw [if_pos rfl, (djMatch_iff l t r).2 h]
  simp only [djSub, djSubN_eq l.length r.length r (by have := djAt_length l t r h; omega) le_rfl]

/-- C170: a text without a time and a letter in quotes is not changed; otherwise the letter after the first such time
is removed, and the rest of the text is treated in the same way. -/
theorem C170_text :
    (∀ text : List Char, (∀ p l t r, text = p ++ '"' :: l → ¬ DjAt l t r) → djSub text = text) ∧
    ∀ pre l t r : List Char, (∀ p q t' r', pre = p ++ '"' :: q → ¬ DjAt (q ++ '"' :: l) t' r') → DjAt l t r →
      djSub (pre ++ '"' :: l) = pre ++ '"' :: (t ++ '\\' :: '"' :: djSub r) := by
  constructor
  · intro text
    induction text with
    | nil => intro _; rfl
    | cons c l ih =>
      intro h
      rw [djSub_other c l, ih fun p l' t r e => h (c :: p) l' t r (by rw [e]; rfl)]
      by_cases hc : c = '"'
      · right; intro t r; exact h [] l t r (by rw [hc]; rfl)
      · exact Or.inl hc
  · intro pre l t r
    induction pre with
    | nil => intro _ h; exact djSub_match l t r h
    | cons c q ih =>
      intro h hl
      rw [List.cons_append, djSub_other c, ih (fun p q' t' r' e => h (c :: p) q' t' r' (by rw [e]; rfl)) hl]
      · rfl
      · by_cases hc : c = '"'
        · right; intro t' r'; exact h [] q t' r' (by rw [hc]; rfl)
        · exact Or.inl hc

/-- A time. -/
def djExample : List Char := "2020-01-02T03:04:05.678".toList

theorem djExample_group : DjGroup djExample :=
  ⟨"2020".toList, "01".toList, "02".toList, "03".toList, "04".toList, "05".toList, "678".toList,
    by decide, by decide, by decide, by decide, by decide, by decide, by decide, by decide⟩

example : DjAt (djExample ++ 'Z' :: '\\' :: '"' :: ",".toList) djExample ",".toList :=
  ⟨djExample_group, 'Z', by decide, rfl⟩

/-- C170: in a text in which all that is in quotes are times with a letter for the zone, exactly these letters are
removed. -/
theorem C170_history (items : List (List Char × List Char × Char)) (tail : List Char) (ht : '"' ∉ tail)
    (h : ∀ i ∈ items, '"' ∉ i.1 ∧ DjGroup i.2.1 ∧ djWord i.2.2 = true) :
    djSub ((items.flatMap fun i => i.1 ++ '"' :: (i.2.1 ++ i.2.2 :: '\\' :: ['"'])) ++ tail) =
      (items.flatMap fun i => i.1 ++ '"' :: (i.2.1 ++ '\\' :: ['"'])) ++ tail := by
  induction items with
  | nil =>
    refine C170_text.1 _ fun p l t r e => ?_
    exfalso
    apply ht
    have : tail = p ++ '"' :: l := by simpa using e
    rw [this]; simp
  | cons i is ih =>
    obtain ⟨h1, h2, h3⟩ := h i (by simp)
    have ih := ih fun j hj => h j (by simp [hj])
    simp only [List.flatMap_cons, List.append_assoc, List.cons_append, List.nil_append]
    rw [C170_text.2 i.1 _ i.2.1 ((is.flatMap fun i => i.1 ++ '"' :: (i.2.1 ++ i.2.2 :: '\\' :: ['"'])) ++ tail)
      (fun p q t' r' e => ?_) ⟨h2, i.2.2, h3, rfl⟩]
    · rw [ih]
    · exfalso
      apply h1
      rw [e]; simp

example : djSub "[\\\"2020-01-02T03:04:05.678Z\\\",\\\"2020-01-03T03:04:05.678Z\\\"]".toList =
    "[\\\"2020-01-02T03:04:05.678\\\",\\\"2020-01-03T03:04:05.678\\\"]".toList := by decide +kernel

/-- C170: the last digit of a time without a zone is removed, too; so a second repair changes what the first gave. -/
theorem C170_digits_violated :
    (∀ (t : List Char) (x : Char), DjGroup t → djDigit x = true →
      djSub ('"' :: (t ++ x :: '\\' :: ['"'])) = '"' :: (t ++ '\\' :: ['"'])) ∧
    (∃ (t : List Char) (x : Char), DjGroup t ∧ DjGroup (t ++ [x]) ∧ djDigit x = true ∧ x ≠ '0') ∧
    ∃ text, djSub (djSub text) ≠ djSub text := by
  refine ⟨fun t x ht hx => djSub_match _ t [] ⟨ht, x, djWord_digit x hx, rfl⟩, ⟨"2020-01-02T03:04:05.67".toList, '8',
    ?_, djExample_group, by decide, by decide⟩,
    "\"2020-01-02T03:04:05.678Z\\\"".toList, by decide +kernel⟩
  exact ⟨"2020".toList, "01".toList, "02".toList, "03".toList, "04".toList, "05".toList, "67".toList,
    by decide, by decide, by decide, by decide, by decide, by decide, by decide, by decide⟩

/-- C170: a text that can be loaded gives its model; if it fails by a TypeError, the model is that of the repaired text,
without zone; other errors are raised. -/
theorem C170_load {M : Type} (fromJson : List Char → Except Err M) (noZone : M → Except Err M) (text : List Char) :
    (∀ m, fromJson text = .ok m → djLoad fromJson noZone text = .ok m) ∧
    (∀ m n, fromJson text = .error .typeError → fromJson (djSub text) = .ok m → noZone m = .ok n →
      djLoad fromJson noZone text = .ok n) ∧
    (∀ e, fromJson text = .error e → e ≠ .typeError → djLoad fromJson noZone text = .error e) ∧
    ((∀ p l t r, text = p ++ '"' :: l → ¬ DjAt l t r) → ∀ e, fromJson text = .error e →
      djLoad fromJson noZone text = .error e) := by
  refine ⟨fun m h => ?_, fun m n h1 h2 h3 => ?_, fun e h he => ?_, fun hn e h => ?_⟩
  · unfold djLoad; rw [h]
  · unfold djLoad; rw [h1]; simp only; rw [h2]; exact h3
  · unfold djLoad; rw [h]
    cases e <;> first | rfl | exact absurd rfl he
  · have hs := C170_text.1 text hn
    unfold djLoad
    rw [h]
    cases e <;> first | rfl | (simp only; rw [hs, h]; rfl)

/-- C170: the trend detector does not repair: it fails for a text that the other detector loads. -/
theorem C170_trend_violated : ∃ (fromJson : List Char → Except Err (List Char)) (text : List Char),
    djLoad fromJson .ok text = .ok (djSub text) ∧ djTrendLoad fromJson text = .error .typeError :=
  ⟨fun t => if t.contains 'Z' then .error .typeError else .ok t, "\"2020-01-02T03:04:05.678Z\\\"".toList,
    by decide +kernel, by decide +kernel⟩

/-- C170: an interval detector is made exactly with a level between 0 and 1, a positive duration or none, a type and,
for two samples, a statistic. -/
theorem C170_new (alpha : Option ℚ) (duration : Option ℤ) (test : Option DjTest) (stat : Option (Option DjStat))
    (c : DjCfg) :
    djNew alpha duration test stat = .ok c ↔
      alpha = some c.alpha ∧ 0 ≤ c.alpha ∧ c.alpha ≤ 1 ∧ duration = c.duration ∧ (∀ d, c.duration = some d → 0 < d) ∧
      test = some c.test ∧ stat = c.stat.map some := by
  obtain ⟨a, d, t, s⟩ := c
  cases alpha with
  | none => simp [djNew, djSet, bind, Except.bind]
  | some a' =>
    by_cases ha : a' < 0 ∨ 1 < a'
    · simp only [djNew, djSet, bind, Except.bind, if_pos ha]
      constructor
      · intro h; cases h
      · rintro ⟨h, h0, h1, _⟩
        cases h
        rcases ha with h | h <;> linarith
    · push Not at ha
      rcases duration with _ | d'
      · rcases test with _ | t' <;> rcases stat with _ | _ | s' <;> rcases s with _ | s <;>
          simp [djNew, djSet, bind, Except.bind, pure, Except.pure, ha.1, ha.2] <;> grind
      · by_cases hd : d' ≤ 0
        · rcases test with _ | t' <;> rcases stat with _ | _ | s' <;>
            simp [djNew, djSet, bind, Except.bind, pure, Except.pure, ha.1, ha.2, hd] <;> grind
        · rcases test with _ | t' <;> rcases stat with _ | _ | s' <;> rcases s with _ | s <;>
            simp [djNew, djSet, bind, Except.bind, pure, Except.pure, ha.1, ha.2, hd] <;> grind

example : djNew (some (1 / 20)) (some 3) (some .upper) (some (some .absolute)) =
    .ok ⟨1 / 20, some 3, .upper, some .absolute⟩ := by decide +kernel

/-- C170: an interval detector that is saved and loaded by its class is the same. -/
theorem C170_restore (alpha : Option ℚ) (duration : Option ℤ) (test : Option DjTest) (stat : Option (Option DjStat))
    (c : DjCfg) (h : djNew alpha duration test stat = .ok c) :
    djRestore stat.isSome (djSave c) = .ok c := by
  obtain ⟨_, h0, h1, _, hd, _, hs⟩ := (C170_new alpha duration test stat c).1 h
  obtain ⟨a, d, t, s⟩ := c
  subst hs
  have hset : djSet (some a) d = .ok (a, d) := by
    unfold djSet
    simp only [if_neg (show ¬ (a < 0 ∨ 1 < a) from fun h => by rcases h with h | h <;> linarith)]
    rcases d with _ | d
    · rfl
    · simp only [if_neg (show ¬ d ≤ 0 from not_le.2 (hd d rfl))]; rfl
  have ht : djTest (.str t.value) = .ok t := by cases t <;> rfl
  have hst : ∀ s : DjStat, djStat (.str s.value) = .ok s := by intro s; cases s <;> rfl
  have k1 : djGet (djSave ⟨a, d, t, s⟩) "alpha" = .ok (.num a) := rfl
  have k2 : djGet (djSave ⟨a, d, t, s⟩) "duration" = .ok (d.elim .null .int) := by cases d <;> rfl
  have k3 : djGet (djSave ⟨a, d, t, s⟩) "test_type" = .ok (.str t.value) := rfl
  unfold djRestore
  rw [k1, k2, k3]
  rcases s with _ | s
  · rcases d with _ | d <;> simp [bind, Except.bind, pure, Except.pure, hset, ht]
  · have k4 : djGet (djSave ⟨a, d, t, some s⟩) "test_statistic" = .ok (.str s.value) := rfl
    rw [k4]
    rcases d with _ | d <;> simp [bind, Except.bind, pure, Except.pure, hset, ht, hst]

/-- C170: a detector that finds its duration by itself keeps the one found for the first data, so that saved after a
fit it is not the one that was made, and gives later data the duration of the first. -/
theorem C170_duration_violated (best : ℕ → ℤ) (n m : ℕ) (hb : best n ≠ best m) (c : DjCfg) (hc : c.duration = none) :
    djFit best n c ≠ c ∧ djFit best m (djFit best n c) ≠ djFit best m c := by
  have h1 : ∀ k, djFit best k c = { c with duration := some (best k) } := fun k => by unfold djFit; rw [hc]
  rw [h1, h1]
  constructor
  · intro h
    have := congrArg DjCfg.duration h
    rw [hc] at this
    cases this
  · intro h
    have := congrArg DjCfg.duration h
    simp only [djFit, Option.some.injEq] at this
    exact hb this

example : (fun n : ℕ => (n : ℤ)) 3 ≠ (fun n : ℕ => (n : ℤ)) 5 ∧ (⟨1 / 20, none, .upper, none⟩ : DjCfg).duration = none :=
  ⟨by decide, rfl⟩

end Kats

import Verif.Model.TimeZone
import Verif.Lemmas.Partition
import Mathlib.Data.List.Basic
import Mathlib.Data.List.Range
import Mathlib.Data.List.GetD

/-!
# Properties of time zones (C165)
-/

namespace Kats

noncomputable section
open Classical

variable {V : Type}

/-- The times and the values of a series, by position. -/
def tzPairs (s : TzSeries V) : List (Option Int × Option V) := (s.time.map (·.2)).zip (s.value.map (·.2))

/-- The labels are the positions, for the times and the values. -/
def TzPlain (s : TzSeries V) : Prop :=
  s.time.map (·.1) = List.range s.time.length ∧ s.value.map (·.1) = List.range s.time.length

/-- A clock time that a zone shows exactly once. -/
def TzOnce (off : Int → Int) (w : Int) : Prop := ∃ u, u + off u = w ∧ ∀ u', u' + off u' = w → u' = u

theorem tzOnce_iff (off : Int → Int) (w : Int) : (∃! u, u + off u = w) ↔ TzOnce off w := Iff.rfl

/-- The instant of a clock time. -/
def tzInv (off : Int → Int) (w : Int) : Int := if h : ∃! u, u + off u = w then h.choose else 0

theorem tzInv_wall {off : Int → Int} {w : Int} (h : TzOnce off w) : tzInv off w + off (tzInv off w) = w := by
  unfold tzInv
  rw [dif_pos ((tzOnce_iff off w).2 h)]
  exact ((tzOnce_iff off w).2 h).choose_spec.1

theorem tzReset_fst {α : Type} (l : List α) : (tzReset l).map (·.1) = List.range l.length := by
  unfold tzReset
  rw [List.map_fst_zip]
  simp

theorem tzReset_snd {α : Type} (l : List α) : (tzReset l).map (·.2) = l := by
  unfold tzReset
  rw [List.map_snd_zip]
  simp

theorem tzReset_length {α : Type} (l : List α) : (tzReset l).length = l.length := by simp [tzReset]

theorem tzReset_get {α : Type} (l : List α) (i : Nat) (h : i < (tzReset l).length) :
    (tzReset l)[i] = (i, l[i]'(by rwa [tzReset_length] at h)) := by simp [tzReset]

theorem tzLocalize_once (W : TzWorld) (off : Int → Int) (amb : TzAmb) (non : TzNon) (l : List (Option Int))
    (h : ∀ w, some w ∈ l → TzOnce off w) :
    tzLocalize W off amb non l = .ok (l.map (Option.map (tzInv off))) := by
  unfold tzLocalize
  rw [mapM_ok _ (fun e : Nat × Option Int => e.2.map (tzInv off))]
  · congr 1
    conv_rhs => rw [← tzReset_snd l, List.map_map]
    rfl
  · rintro ⟨i, t⟩ he
    have ht : t ∈ l := by
      have : t ∈ (tzReset l).map (·.2) := List.mem_map.2 ⟨_, he, rfl⟩
      rwa [tzReset_snd] at this
    cases t with
    | none => rfl
    | some w =>
      have hu := (tzOnce_iff off w).2 (h w ht)
      simp only [tzLocal, Option.map_some]
      rw [dif_pos hu]
      unfold tzInv
      rw [dif_pos hu]

/-- With plain labels the frame is the pairs. -/
theorem tzFrame_plain {s : TzSeries V} (h : TzPlain s) : (tzFrame s).map (·.2) = tzPairs s ∧
    (tzFrame s).map (·.1) = List.range s.time.length := by
  obtain ⟨h1, h2⟩ := h
  have hlen : s.value.length = s.time.length := by
    have := congrArg List.length h2
    simpa using this
  have hv : ∀ i (hi : i < s.value.length), (s.value[i]).1 = i := by
    intro i hi
    have e : (s.value.map (·.1))[i]'(by simpa using hi) = i := by simp only [h2, List.getElem_range]
    simpa using e
  constructor
  · unfold tzFrame tzPairs
    rw [List.map_map]
    apply List.ext_getElem
    · simp [hlen]
    · intro i hi1 hi2
      have hi : i < s.time.length := by simpa using hi1
      have ht : (s.time[i]).1 = i := by
        have e : (s.time.map (·.1))[i]'(by simpa using hi) = i := by simp only [h1, List.getElem_range]
        simpa using e
      simp only [List.getElem_map, Function.comp_apply, List.getElem_zip, Prod.mk.injEq, true_and]
      cases hf : s.value.find? (fun v => decide (v.1 = (s.time[i]).1)) with
      | none =>
        rw [List.find?_eq_none] at hf
        refine absurd ?_ (hf (s.value[i]'(by omega)) (List.getElem_mem _))
        rw [decide_eq_true_eq, hv i (by omega), ht]
      | some v =>
        obtain ⟨j, hj, e⟩ := List.mem_iff_getElem.1 (List.mem_of_find?_eq_some hf)
        have e1 : v.1 = (s.time[i]).1 := by simpa using List.find?_some hf
        have : j = i := by rw [← hv j hj, e, e1, ht]
        subst this
        simp [e]
  · unfold tzFrame
    rw [List.map_map]
    exact h1

theorem tzPairs_extract (z : Option String) (rows : List (Nat × Option Int × Option V)) :
    tzPairs (tzExtract z rows) = rows.map (·.2) := by
  unfold tzPairs tzExtract
  dsimp only
  rw [List.map_map, List.map_map]
  apply List.ext_getElem
  · simp
  · intro i h1 h2
    simp

theorem tzPlain_extract (z : Option String) (rows : List (Nat × Option Int × Option V))
    (h : rows.map (·.1) = List.range rows.length) : TzPlain (tzExtract z rows) := by
  unfold TzPlain tzExtract
  dsimp only
  rw [List.map_map, List.map_map, List.length_map]
  exact ⟨h, h⟩

/-- C165: setting the zone of a series without one: every row keeps its value and what the clock shows, and
the time is the instant at which the zone shows it; rows are in order of these instants if they are to be
sorted, and in their old order if not. -/
theorem C165_set (W : TzWorld) (srt : TzSort V) (z : String) (amb : TzAmb) (non : TzNon) (sort : Bool)
    (s : TzSeries V) (hz : s.zone = none) (off : Int → Int) (hW : W.zone z = some off) (hp : TzPlain s)
    (honce : ∀ w, some w ∈ s.time.map (·.2) → TzOnce off w) :
    ∃ s', tzSet W srt z amb non sort s = .ok s' ∧ s'.zone = some z ∧ TzPlain s' ∧
      ((tzPairs s').map fun p => (p.1.map fun u => u + off u, p.2)).Perm (tzPairs s) ∧
      (sort = false → ((tzPairs s').map fun p => (p.1.map fun u => u + off u, p.2)) = tzPairs s) ∧
      (sort = true → (tzPairs s').Pairwise fun a b => ∀ t, b.1 = some t → ∃ u, a.1 = some u ∧ u ≤ t) := by
  set l := (s.time.map (·.2)).map (Option.map (tzInv off)) with hl
  have hll : l.length = s.time.length := by simp [hl]
  set s1 : TzSeries V := { s with zone := some z, time := tzReset l } with hs1
  have hp1 : TzPlain s1 := by
    refine ⟨?_, ?_⟩
    · show (tzReset l).map (·.1) = List.range (tzReset l).length
      rw [tzReset_fst, tzReset_length]
    · show s.value.map (·.1) = List.range (tzReset l).length
      rw [tzReset_length, hll, hp.2]
  obtain ⟨f1, f2⟩ := tzFrame_plain hp1
  have hlen1 : s1.time.length = (tzFrame s1).length := by simp [tzFrame]
  have hback : (tzPairs s1).map (fun p => (p.1.map fun u => u + off u, p.2)) = tzPairs s := by
    unfold tzPairs
    show (((tzReset l).map (·.2)).zip (s.value.map (·.2))).map _ = _
    rw [tzReset_snd]
    apply List.ext_getElem
    · simp [hll]
    · intro i h1 h2
      simp only [List.getElem_map, List.getElem_zip, hl, Prod.mk.injEq, and_true]
      have hi : i < s.time.length := by
        have := h2
        simp only [List.length_zip, List.length_map] at this
        omega
      cases ht : (s.time[i]).2 with
      | none => rfl
      | some w =>
        have : some w ∈ s.time.map (·.2) := List.mem_map.2 ⟨s.time[i], List.getElem_mem hi, ht⟩
        simp only [Option.map_some]
        rw [tzInv_wall (honce w this)]
  have hset : tzSet W srt z amb non sort s = .ok (tzExtract (some z) (tzSortRows srt sort (tzFrame s1))) := by
    unfold tzSet tzZone
    rw [hz, hW]
    simp only [Option.isSome_none, Bool.false_eq_true, if_false, bind, Except.bind]
    rw [tzLocalize_once W off amb non _ honce]
    rfl
  cases sort with
  | false =>
    have e : tzSortRows srt false (tzFrame s1) = tzFrame s1 := by simp [tzSortRows]
    rw [e] at hset
    refine ⟨_, hset, rfl, tzPlain_extract _ _ ?_, ?_, ?_, ?_⟩
    · rw [f2, hlen1]
    · rw [tzPairs_extract, f1, hback]
    · intro _
      rw [tzPairs_extract, f1, hback]
    · intro h; cases h
  | true =>
    have e : tzSortRows srt true (tzFrame s1) = tzReset (srt.run ((tzFrame s1).map (·.2))) := by simp [tzSortRows]
    rw [e] at hset
    refine ⟨_, hset, rfl, tzPlain_extract _ _ ?_, ?_, ?_, ?_⟩
    · rw [tzReset_fst, tzReset_length]
    · rw [tzPairs_extract, tzReset_snd, ← hback, f1]
      exact (srt.perm _).map _
    · intro h; cases h
    · intro _
      rw [tzPairs_extract, tzReset_snd]
      exact srt.sorted _

/-- C165: converting a series with a zone leaves the instants and the values alone and changes the zone; without
a zone nothing is done, and setting the zone of a series that has one does nothing either. -/
theorem C165_convert (W : TzWorld) (srt : TzSort V) (z : String) (s : TzSeries V) :
    (∀ z', s.zone = some z' → W.zone z ≠ none → ∃ s', tzConvert W z s = .ok s' ∧ s'.zone = some z ∧
      tzPairs s' = tzPairs s ∧ s'.value = s.value) ∧
    (∀ z', s.zone = some z' → W.zone z = none → tzConvert W z s = .error .keyError) ∧
    (s.zone = none → tzConvert W z s = .ok s) ∧
    (∀ z', s.zone = some z' → ∀ amb non sort, tzSet W srt z amb non sort s = .ok s) := by
  refine ⟨?_, ?_, ?_, ?_⟩
  · intro z' hz hW
    obtain ⟨off, ho⟩ := Option.ne_none_iff_exists'.1 hW
    refine ⟨{ s with zone := some z, time := tzReset (s.time.map (·.2)) }, ?_, rfl, ?_, rfl⟩
    · unfold tzConvert tzZone
      rw [hz, ho]
      rfl
    · unfold tzPairs
      dsimp only
      rw [tzReset_snd]
  · intro z' hz hW
    unfold tzConvert tzZone
    rw [hz, hW]
    rfl
  · intro hz
    unfold tzConvert
    rw [hz]
    rfl
  · intro z' hz amb non sort
    unfold tzSet
    rw [hz]
    rfl

/-- C165: a clock time that the zone shows twice, or never, raises by default, and is NaT if that is asked for. -/
theorem C165_odd_times (W : TzWorld) (off : Int → Int) (l : List (Option Int)) (i : Nat) (w : Int) (amb : TzAmb)
    (non : TzNon) :
    (∀ u u', u ≠ u' → u + off u = w → u' + off u' = w →
      (tzLocal W off .raise non l i (some w) = .error .otherError ∧ tzLocal W off .nat non l i (some w) = .ok none)) ∧
    ((∀ u, u + off u ≠ w) →
      (tzLocal W off amb .raise l i (some w) = .error .otherError ∧ tzLocal W off amb .nat l i (some w) = .ok none)) := by
  constructor
  · intro u u' hne h1 h2
    have hn : ¬ ∃! u, u + off u = w := fun ⟨x, _, hx⟩ => hne ((hx u h1).trans (hx u' h2).symm)
    have he : ∃ u, u + off u = w := ⟨u, h1⟩
    unfold tzLocal
    simp only [dif_neg hn, if_pos he, and_self]
  · intro h
    have he : ¬ ∃ u, u + off u = w := fun ⟨u, hu⟩ => h u hu
    have hn : ¬ ∃! u, u + off u = w := fun hx => he hx.exists
    unfold tzLocal
    simp only [dif_neg hn, if_neg he, and_self]

/-- C165: unix times are instants: with a zone they are kept and the zone is set, without one they are what a clock
in UTC shows; texts are clock times of the zone. -/
theorem C165_format (W : TzWorld) (unit : Int) (z : String) (hz : z ≠ "") (off : Int → Int) (hW : W.zone z = some off)
    (amb : TzAmb) (non : TzNon) :
    (∀ l, tzFormat W true unit (some z) amb non (.numbers l) = .ok (some z, l.map fun n => some (n * unit))) ∧
    (∀ l, tzFormat W true unit none amb non (.numbers l) = .ok (none, l.map fun n => some (n * unit))) ∧
    (∀ l, (∀ w, some w ∈ l → TzOnce off w) → ∃ l', tzFormat W false unit (some z) amb non (.texts l) = .ok (some z, l') ∧
      l'.map (Option.map fun u => u + off u) = l) ∧
    (∀ l tz, tzFormat W true unit tz amb non (.texts l) = .error .valueError) := by
  refine ⟨?_, ?_, ?_, ?_⟩
  · intro l
    unfold tzFormat tzZone
    simp only [hW, if_neg hz, bind, Except.bind, if_true]
    rfl
  · intro l
    unfold tzFormat
    simp
  · intro l hl
    refine ⟨l.map (Option.map (tzInv off)), ?_, ?_⟩
    · unfold tzFormat tzZone
      simp only [hW, if_neg hz, bind, Except.bind, Bool.false_eq_true, if_false, tzLocalize_once W off amb non l hl]
      rfl
    · rw [List.map_map]
      conv_rhs => rw [← List.map_id l]
      refine List.map_congr_left fun t ht => ?_
      cases t with
      | none => rfl
      | some w =>
        show some (tzInv off w + off (tzInv off w)) = some w
        rw [tzInv_wall (hl w ht)]
  · intro l tz
    unfold tzFormat
    simp

/-- C165 is violated: for a column of time stamps the argument `tz` is ignored, even if there is no such zone; the series
has no zone when the stamps have none, and another one when they have another one. -/
theorem C165_stamps_violated (W : TzWorld) (srt : TzSort V) (unix : Bool) (unit : Int) (tz : Option String)
    (amb : TzAmb) (non : TzNon) (sort drop : Bool) (z : Option String) (l : List (Option Int)) (vals : List (Option V)) :
    ∃ s, tzBuild W srt unix unit tz amb non sort drop (.stamps z l) vals = .ok s ∧ s.zone = z :=
  ⟨_, rfl, rfl⟩

/-- C165 is violated: if repeated times are dropped and the rows are not sorted, the labels have gaps, and setting a
zone shifts the values against the times: of three rows, the second with the time of the first, the value of the
third is lost. -/
theorem C165_labels_violated (W : TzWorld) (srt : TzSort V) (z : String) (off : Int → Int) (hW : W.zone z = some off)
    (a b c : V) (s t : Int) (hst : s ≠ t) (hs : TzOnce off s) (ht : TzOnce off t) :
    ∃ x y, tzBuild W srt false 1 none .raise .raise false true (.texts [some s, some s, some t]) [some a, some b, some c] = .ok x ∧
      tzPairs x = [(some s, some a), (some t, some c)] ∧
      tzSet W srt z .raise .raise false x = .ok y ∧ ∃ u v, tzPairs y = [(some u, some a), (some v, none)] := by
  have hb : tzBuild W srt false 1 none .raise .raise false true (.texts [some s, some s, some t]) [some a, some b, some c]
      = .ok ⟨none, [(0, some s), (2, some t)], [(0, some a), (2, some c)]⟩ := by
    have hts : ¬ t = s := fun e => hst e.symm
    simp [tzBuild, tzFormat, tzReset, tzDrop, tzSortRows, tzExtract, List.range_succ, hts, bind, Except.bind, pure,
      Except.pure]
  refine ⟨_, ⟨some z, [(0, some (tzInv off s)), (1, some (tzInv off t))], [(0, some a), (1, none)]⟩, hb, rfl, ?_,
    tzInv off s, tzInv off t, rfl⟩
  unfold tzSet tzZone
  rw [hW]
  simp only [Option.isSome_none, Bool.false_eq_true, if_false, bind, Except.bind]
  rw [tzLocalize_once]
  · simp [tzReset, tzFrame, tzSortRows, tzExtract, List.range_succ, pure, Except.pure]
  · intro w hw
    simp only [List.map_cons, List.map_nil, List.mem_cons, Option.some.injEq, List.not_mem_nil, or_false] at hw
    rcases hw with rfl | rfl
    · exact hs
    · exact ht

/-- C165: otherwise the labels are the positions after the construction. -/
theorem C165_labels_partial (W : TzWorld) (srt : TzSort V) (unix : Bool) (unit : Int) (tz : Option String) (amb : TzAmb)
    (non : TzNon) (sort drop : Bool) (h : sort = true ∨ drop = false) (c : TzColumn) (vals : List (Option V))
    (s : TzSeries V) (hs : tzBuild W srt unix unit tz amb non sort drop c vals = .ok s) : TzPlain s := by
  unfold tzBuild at hs
  cases hf : tzFormat W unix unit tz amb non c with
  | error e => rw [hf] at hs; cases hs
  | ok f =>
    rw [hf] at hs
    injection hs with hs
    rw [← hs]
    apply tzPlain_extract
    rcases h with rfl | rfl
    · simp only [tzSortRows, if_true]
      rw [tzReset_fst, tzReset_length]
    · simp only [Bool.false_eq_true, if_false]
      cases sort
      · simp only [tzSortRows, Bool.false_eq_true, if_false]
        rw [tzReset_fst, tzReset_length]
      · simp only [tzSortRows, if_true]
        rw [tzReset_fst, tzReset_length]

/-! ### Cases that meet the hypotheses -/

/-- A clock that is put back by an hour at instant 7200. -/
def tzDemo (u : Int) : Int := if u < 7200 then 0 else -3600

example : TzOnce tzDemo 0 ∧ TzOnce tzDemo 7200 ∧ ¬ TzOnce tzDemo 3600 := by
  refine ⟨⟨0, by decide, ?_⟩, ⟨10800, by decide, ?_⟩, ?_⟩
  · intro u h
    unfold tzDemo at h
    split at h <;> omega
  · intro u h
    unfold tzDemo at h
    split at h <;> omega
  · rintro ⟨u, _, h⟩
    have h1 := h 3600 (by decide)
    have h2 := h 7200 (by decide)
    omega

example : TzPlain (⟨none, [(0, some 0), (1, some 7200)], [(0, some 5), (1, none)]⟩ : TzSeries Nat) := ⟨rfl, rfl⟩

end

end Kats

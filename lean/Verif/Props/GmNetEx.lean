import Verif.Props.GmNetPass
import Verif.Props.GmNetCell
import Mathlib.Algebra.Order.Ring.Rat
import Mathlib.Algebra.Order.Field.Rat

/-!
# C144: examples
-/

namespace Kats

/-- A sigmoid and a `tanh` made of straight lines. -/
def gmActEx : GmAct Rat := ⟨fun v => max 0 (min 1 ((v + 2) / 4)), fun v => max (-1) (min 1 v)⟩

theorem gmActEx_ok : GmActOk gmActEx where
  low := fun v => le_max_left _ _
  high := fun v => max_le (by norm_num) (min_le_left _ _)
  tanh := fun v => abs_le.2 ⟨le_max_left _ _, max_le (by norm_num) (min_le_left _ _)⟩

/-- A network of two layers with the dilations 1 and 2, for inputs with two values. -/
def gmNetEx (kind : GmCellKind) : GmStack Rat where
  kind := kind
  act := gmActEx
  size := 2
  h := 1
  blocks := [[1, 2]]
  cells := match kind with
    | .lstm => [⟨(List.range 8).map fun i => ([1, (i : Rat)], 1), (List.range 8).map fun i => ([(i : Rat), 1], 0)⟩,
        ⟨(List.range 8).map fun i => ([1, (i : Rat)], 1), (List.range 8).map fun i => ([(i : Rat), 1], 0)⟩]
    | _ => [⟨(List.range 8).map fun i => ([1, (i : Rat), 1, -1], 1), []⟩,
        ⟨(List.range 8).map fun i => ([1, (i : Rat), 1], 1 / 2), []⟩]
  adaptor := none

theorem gmNetEx_wf (kind : GmCellKind) : GmNetWf (gmNetEx kind) 2 where
  h := fun _ => by
    show (0 : Int) ≤ 1 ∧ (1 : Int) < ((2 : Nat) : Int)
    decide
  some := by simp [gmNetEx]
  block := by simp [gmNetEx]
  dilation := by simp [gmNetEx]
  count := by cases kind <;> rfl
  cells := by
    intro i cell hi
    cases kind <;>
    · rcases i with _ | _ | i
      · injection hi with hi
        subst hi
        simp [GmCellOk, gmNetEx]
      · injection hi with hi
        subst hi
        simp [GmCellOk, gmNetEx, GmStack.out]
      · simp [gmNetEx] at hi
  adaptor := by intro w h; cases h

/-- For every kind of cells the network runs over one time after the other, for two rows. -/
example (kind : GmCellKind) : ∃ l o l' o', gmNetForward (gmNetEx kind) [] [[1, 2], [3, 4]] = .ok ([l], o) ∧
    gmNetForward (gmNetEx kind) [l] [[0, 1], [1, 0]] = .ok ([l, l'], o') ∧ o'.length = 2 := by
  obtain ⟨l, o, h1, _, h3, _⟩ := C144_forward (gmNetEx kind) 2 2 (gmNetEx_wf kind) [] (fun l hl => by cases hl)
    [[1, 2], [3, 4]] rfl (by simp)
  obtain ⟨l', o', k1, _, _, k4, _⟩ := C144_forward (gmNetEx kind) 2 2 (gmNetEx_wf kind) ([] ++ [l]) h3
    [[0, 1], [1, 0]] rfl (by simp)
  exact ⟨l, o, l', o', h1, k1, k4⟩

/-- The row alone gives the row of the batch. -/
example (s o) (h : gmNetForward (gmNetEx .s2) [] [[1, 2], [3, 4]] = .ok (s, o)) :
    gmNetForward (gmNetEx .s2) [] [[3, 4]] = .ok (pickStore 1 s, [o.getD 1 []]) :=
  (C144_rows _ _ _ _ _ h 1 (by decide)).2

/-- The outputs of the network are between -1 and 1. -/
example (kind : GmCellKind) (s o) (h : gmNetForward (gmNetEx kind) [] [[100, 200], [-300, 400]] = .ok (s, o)) :
    ∀ x ∈ o, ∀ v ∈ x, |v| ≤ ((1 : Nat) : Rat) :=
  (C144_bounded (gmNetEx kind) gmActEx_ok (by simp [gmNetEx]) [] s (fun l hl => by cases hl) _ o h).2 rfl

/-- With three times before, only the last two matter. -/
example (a b c d : List (List (List Rat × List Rat))) (inp) :
    (gmNetForward (gmNetEx .s2) [a, c, d] inp).map (fun r => (r.1.getLast?, r.2)) =
      (gmNetForward (gmNetEx .s2) [b, c, d] inp).map fun r => (r.1.getLast?, r.2) :=
  C144_depends (gmNetEx .s2) _ _ inp rfl (by
    intro blk hb e he h1 h2
    simp only [gmNetEx, List.mem_singleton] at hb
    subst hb
    simp only [List.mem_cons, List.not_mem_nil, or_false] at he
    rcases he with rfl | rfl <;> rfl) (Or.inr rfl)

/-- A decoder with the dilations 1 and 2 after an encoder with the largest dilation 2. -/
example (store news : GmStore Rat) (inp) :
    gmStep (gmNetEx .lstm) (gmPrepare 2 store ++ news) inp = gmStep (gmNetEx .lstm) (store ++ news) inp :=
  (C144_decoder (gmNetEx .lstm) 2 (by omega) (by simp [gmNetEx]) store news inp).1

/-- A dilation of 3 after an encoder with the largest dilation 2. -/
example (s : List (List Rat × List Rat)) :
    ∃ p, gmDelayed .s2 (gmPrepare 2 [[s], [s], [s]]) 0 3 = .ok (some p, none) ∧
      gmStoreAt [[s], [s], [s]] 2 0 = .ok p :=
  (C144_decoder_violated .s2 [[s], [s], [s]] 2 (by omega) 3 0 (by omega) (by simp) (by simp)).2

/-- A negative `h` fails. -/
example (r) : gmNetForward { gmNetEx .s2 with h := -1 } [] [[1, 2]] ≠ .ok r :=
  C144_forward_violated _ _ _ (by simp) 1 [2] [] rfl (Or.inl ⟨by decide, by decide⟩) r

/-- Two blocks: the second is given the output of the first. -/
example (s o) (h : gmNetForward { gmNetEx .lstm2 with blocks := [[1], [2]] } [] [[1, 2]] = .ok (s, o)) :
    ∃ l o', gmNetForward { gmNetEx .lstm2 with blocks := [[1]] } [] [[1, 2]] = .ok ([l], o') := by
  obtain ⟨l, o', _, _, h1, _⟩ := C144_residual { gmNetEx .lstm2 with blocks := [[1], [2]] } rfl [[1]] [2] (by simp) rfl [] s _ o h
  exact ⟨l, o', h1⟩

/-- The parameters of a network that can be made. -/
example (td : String → Option Int) : ∃ o s, gmInit td (gmNetDemo "rnn" "S2Cell" (some (.int 20)) (some [[1, 3], [6, 12]]) none) = .ok o ∧
    gmBuildRnn o = .ok s ∧ s.inputs.length = 4 := by
  obtain ⟨o, h, h1, h2, h3, h4, -⟩ := gmNetDemo_valid td "rnn" "S2Cell" (some (.int 20)) (some [[1, 3], [6, 12]]) none (Or.inl rfl)
  obtain ⟨s, s1, s2, -⟩ := C144_build_rnn (K := Rat) (σ := Unit) td _ o h
    ⟨by rw [h1]; simp, Or.inr ⟨Or.inr h2, _, h3, by decide, by rw [h4]; decide⟩⟩
  exact ⟨o, s, h, s1, by rw [s2, h1]; rfl⟩

/-- A pass with features of no columns and a period of 1: inputs with `iw + 2` values. -/
example (E : GmEnv Rat (GmStore Rat)) (hp : E.period = 1) (hi : E.iw = 3) (hf : E.features = none) : GmInputOk E 2 5 :=
  ⟨0, by rw [hp, hi]; rfl, by rw [hf]⟩

/-- A network for inputs with five values and outputs with three. -/
def gmNetRun : GmStack Rat where
  kind := .lstm
  act := gmActEx
  size := 1
  h := 0
  blocks := [[1]]
  cells := [⟨List.replicate 4 ([1, 0, 0, 0, 2], 1), List.replicate 4 ([1], 0)⟩]
  adaptor := some (List.replicate 3 ([1], 1 / 2))

theorem gmNetRun_wf : GmNetWf gmNetRun 5 where
  h := fun h => absurd rfl h
  some := by simp [gmNetRun]
  block := by simp [gmNetRun]
  dilation := by simp [gmNetRun]
  count := rfl
  cells := by
    intro i cell hi
    rcases i with _ | i
    · injection hi with hi
      subst hi
      simp [GmCellOk, gmNetRun]
    · simp [gmNetRun] at hi
  adaptor := by
    intro w hw r hr
    injection hw with hw
    rw [← hw] at hr
    rw [(List.mem_replicate.1 hr).2]
    rfl

/-- Windows of three values, forecasts of two, one quantile. -/
def gmEnvRun : GmEnv Rat (GmStore Rat) where
  log := id
  exp := id
  sigmoid := fun _ => 1 / 2
  net := gmNetTotal gmNetRun 3
  features := none
  period := 1
  iw := 3
  fw := 2
  quantiles := 1

theorem gmEnvRun_ok : GmNetOk gmEnvRun := by
  obtain ⟨h1, h2⟩ := C144_net_ok gmEnvRun gmNetRun (List.replicate 3 ([1], 1 / 2)) rfl rfl rfl
  exact ⟨h1, h2, (fun v => by show (0 : Rat) < 1 / 2 ∧ (1 : Rat) / 2 < 1; norm_num), by decide, by decide,
    (fun h => absurd h (by decide))⟩

/-- A pass of two steps over one series. -/
example : ∃ rs, gmTurnsNet gmEnvRun gmNetRun [[some 1, some 2, some 3, some 4, some 5, some 6]] [(0, 3), (1, 4)]
      ⟨[⟨[], [], [1]⟩], [1 / 2], [1 / 2], [], 0⟩ = .ok rs ∧ rs.map (·.1) = [3, 4] := by
  obtain ⟨rs, h1, _, h3, _⟩ := C144_pass gmEnvRun gmEnvRun_ok gmNetRun 5 3 gmNetRun_wf rfl
    [[some 1, some 2, some 3, some 4, some 5, some 6]] ⟨0, rfl, rfl⟩ (by
      intro r hr
      rw [List.mem_singleton.1 hr]
      exact ⟨⟨1, rfl⟩, by simp⟩) [(0, 3), (1, 4)]
    ⟨[⟨[], [], [1]⟩], [1 / 2], [1 / 2], [], 0⟩ ⟨rfl, (by
      intro i t ht
      rcases i with _ | i
      · injection ht with ht
        subst ht
        exact Or.inl ⟨rfl, [], (fun h => absurd h (by decide)), (fun v hv => by cases hv), rfl⟩
      · simp at ht), ⟨rfl, by simp; norm_num⟩, ⟨rfl, by simp; norm_num⟩⟩ (fun l hl => by cases hl) (by simp) (by
      intro s hs
      simp only [List.mem_cons, List.not_mem_nil, or_false] at hs
      rcases hs with rfl | rfl <;> simp [gmEnvRun])
  exact ⟨rs, h1, h3⟩

end Kats

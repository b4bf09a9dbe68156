import Verif.Model.MetaSelect
import Verif.Props.GmParam
import Verif.Lemmas.MapM
import Mathlib.Tactic.Ring
import Mathlib.Tactic.FieldSimp
import Mathlib.Data.Rat.Floor

/-!
# C147: the choice of a model from meta data
-/

namespace Kats

section
variable {K : Type} [Field K] [LinearOrder K]

/-! ## The data -/

/-- What an entry is read as. -/
def MsReads (e : MsEntry K) (h : List (String × K)) (f : List (String × Option K)) (b : String) : Prop :=
  (e.hpt = some (.dict h) ∨ e.hpt = some (.text (.ok h))) ∧ (e.features = some (.dict f) ∨ e.features = some (.text (.ok f))) ∧
    e.best = some b

theorem ms_needKey {α : Type} (o : Option α) (x : α) : needKey o = .ok x ↔ o = some x := by
  rcases o with _ | y
  · simp [needKey]
  · simp [needKey]

theorem ms_value {α : Type} (r : MsRaw α) (x : α) : r.value = .ok x ↔ r = .dict x ∨ r = .text (.ok x) := by
  rcases r with d | t
  · simp [MsRaw.value]
  · simp [MsRaw.value]

theorem ms_entry (e : MsEntry K) (t : List (String × K) × List (Option K) × String) :
    msEntry e = .ok t ↔ ∃ f, MsReads e t.1 f t.2.2 ∧ t.2.1 = f.map (·.2) := by
  obtain ⟨h, v, b⟩ := t
  unfold msEntry MsReads
  simp only [gm_bind_ok, ms_needKey, ms_value]
  constructor
  · rintro ⟨r1, e1, h', e2, r2, e3, f, e4, b', e5, e6⟩
    injection e6 with e6
    simp only [Prod.mk.injEq] at e6
    obtain ⟨rfl, rfl, rfl⟩ := e6
    refine ⟨f, ⟨?_, ?_, e5⟩, rfl⟩
    · rcases e2 with rfl | rfl
      · exact Or.inl e1
      · exact Or.inr e1
    · rcases e4 with rfl | rfl
      · exact Or.inl e3
      · exact Or.inr e3
  · rintro ⟨f, ⟨h1, h2, h3⟩, rfl⟩
    obtain ⟨r1, e1, e2⟩ : ∃ r, e.hpt = some r ∧ (r = .dict h ∨ r = .text (.ok h)) := by
      rcases h1 with h1 | h1
      · exact ⟨_, h1, Or.inl rfl⟩
      · exact ⟨_, h1, Or.inr rfl⟩
    obtain ⟨r2, e3, e4⟩ : ∃ r, e.features = some r ∧ (r = .dict f ∨ r = .text (.ok f)) := by
      rcases h2 with h2 | h2
      · exact ⟨_, h2, Or.inl rfl⟩
      · exact ⟨_, h2, Or.inr rfl⟩
    exact ⟨r1, e1, h, e2, r2, e3, f, e4, b, h3, rfl⟩

/-- The mean of the column `j`, and what it is divided by. -/
def MsStats (std : List K → K) (s : Ms K) : Prop :=
  s.mean = (List.range s.cols.length).map (fun j => (s.x.map fun r => r.getD j 0).sum / (s.x.length : K)) ∧
    s.std = (List.range s.cols.length).map (fun j =>
      if std (s.x.map fun r => r.getD j 0) = 0 then 1 else std (s.x.map fun r => r.getD j 0)) ∧
    (∀ r ∈ s.x, r.length = s.cols.length) ∧ s.x.length = s.y.length ∧ s.hpt.length = s.y.length

theorem ms_mapM_entry (m : List (MsEntry K)) (l : List (List (String × K) × List (Option K) × String)) :
    m.mapM msEntry = .ok l ↔ ∃ rows : List (List (String × K) × List (String × Option K) × String),
      List.Forall₂ (fun e t => MsReads e t.1 t.2.1 t.2.2) m rows ∧ l = rows.map fun t => (t.1, t.2.1.map (·.2), t.2.2) := by
  induction m generalizing l with
  | nil =>
    constructor
    · intro h
      injection h with h
      exact ⟨[], List.Forall₂.nil, h.symm⟩
    · rintro ⟨rows, h1, rfl⟩
      cases h1
      rfl
  | cons e m ih =>
    rw [List.mapM_cons]
    simp only [gm_bind_ok]
    constructor
    · rintro ⟨t, h1, l', h2, h3⟩
      injection h3 with h3
      subst h3
      obtain ⟨f, g1, g2⟩ := (ms_entry e t).1 h1
      obtain ⟨rows, g3, rfl⟩ := (ih l').1 h2
      refine ⟨(t.1, f, t.2.2) :: rows, List.Forall₂.cons g1 g3, ?_⟩
      rw [List.map_cons, ← g2]
    · rintro ⟨rows, h1, rfl⟩
      rcases h1 with _ | ⟨g1, g2⟩
      rename_i t rows
      exact ⟨_, (ms_entry e _).2 ⟨t.2.1, g1, rfl⟩, _, (ih _).2 ⟨rows, g2, rfl⟩, rfl⟩

theorem ms_two (y : List String) (h : y ≠ []) : y.dedup.length ≠ 1 ↔ ∃ a b, a ∈ y ∧ b ∈ y ∧ a ≠ b := by
  constructor
  · intro hne
    rcases hd : y.dedup with _ | ⟨b, _ | ⟨c, t⟩⟩
    · exact absurd ((List.dedup_eq_nil _).1 hd) h
    · rw [hd] at hne; exact absurd rfl hne
    · have hb : b ∈ y := List.mem_dedup.1 (by rw [hd]; exact List.mem_cons_self)
      have hc : c ∈ y := List.mem_dedup.1 (by rw [hd]; exact List.mem_cons_of_mem _ List.mem_cons_self)
      have := List.nodup_dedup y
      rw [hd, List.nodup_cons] at this
      exact ⟨b, c, hb, hc, fun e => this.1 (by rw [e]; exact List.mem_cons_self)⟩
  · rintro ⟨a, b, ha, hb, hab⟩ hl
    obtain ⟨x, hx⟩ := List.length_eq_one_iff.1 hl
    have h1 := List.mem_dedup.2 ha
    have h2 := List.mem_dedup.2 hb
    rw [hx, List.mem_singleton] at h1 h2
    exact hab (h1.trans h2.symm)

/-- C147: meta data are accepted exactly if there are more than 30 entries, all can be read, the features of the first are a dictionary with
as many features as the longest entry, and two models or more are the best of one.  The errors, the rows of features and the best models are then those of the
entries, with zero for what is missing. -/
theorem C147_init (std : List K → K) (m : List (MsEntry K)) (s : Ms K) : msInit std (some m) false = .ok (some s) ↔
    30 < m.length ∧ ∃ (rows : List (List (String × K) × List (String × Option K) × String)) (f0 : List (String × Option K)),
      List.Forall₂ (fun e t => MsReads e t.1 t.2.1 t.2.2) m rows ∧
      (∃ e, m.head? = some e ∧ e.features = some (.dict f0)) ∧ (∀ t ∈ rows, t.2.1.length ≤ f0.length) ∧
      (∃ a b, a ∈ rows ∧ b ∈ rows ∧ a.2.2 ≠ b.2.2) ∧
      s.cols = f0.map (·.1) ∧ s.hpt = rows.map (·.1) ∧ s.y = rows.map (·.2.2) ∧ s.scale = false ∧
      s.x = rows.map (fun t => (List.range f0.length).map fun j => ((t.2.1.map (·.2))[j]?.join).getD 0) ∧ MsStats std s := by
  have hstats : ∀ (cols : List String) (x : List (List K)), msMean cols.length x =
      (List.range cols.length).map (fun j => (x.map fun r => r.getD j 0).sum / (x.length : K)) := by
    intro cols x
    unfold msMean
    apply List.map_congr_left
    intro j _
    simp only [gmEnsMean, msCol, List.length_map]
  constructor
  · intro h
    unfold msInit at h
    rw [if_neg (by simp)] at h
    simp only [] at h
    split at h
    · cases h
    split at h
    · cases h
    rename_i hn hh
    obtain ⟨s', h1, h⟩ := (gm_bind_ok _ _ _).1 h
    split at h
    · cases h
    rename_i hy
    injection h with h
    injection h with h
    subst h
    unfold msReorganize at h1
    obtain ⟨l, h2, h1⟩ := (gm_bind_ok _ _ _).1 h1
    obtain ⟨cols, h3, h1⟩ := (gm_bind_ok _ _ _).1 h1
    split at h1
    · cases h1
    rename_i hmax
    injection h1 with h1
    subst h1
    rw [not_not] at hmax
    obtain ⟨rows, h4, rfl⟩ := (ms_mapM_entry m l).1 h2
    have hlen : rows.length = m.length := h4.length_eq.symm
    unfold msNames at h3
    split at h3
    · cases h3
    rename_i e0 he0
    split at h3
    · cases h3
    · cases h3
    rename_i f0 hf0
    injection h3 with h3
    subst h3
    have hle : ∀ t ∈ rows, t.2.1.length ≤ f0.length := by
      intro t ht
      rcases hm : (List.map (fun t => t.2.1.length) (List.map (fun t => (t.1, t.2.1.map (·.2), t.2.2)) rows)).max? with _ | k
      · rw [List.max?_eq_none_iff, List.map_eq_nil_iff, List.map_eq_nil_iff] at hm
        rw [hm] at ht
        exact absurd ht List.not_mem_nil
      · rw [hm, Option.getD_some, List.length_map] at hmax
        rw [← hmax]
        refine (List.max?_eq_some_iff.1 hm).2 _ ?_
        rw [List.map_map]
        exact List.mem_map.2 ⟨t, ht, by simp⟩
    refine ⟨by omega, rows, f0, h4, ⟨e0, he0, hf0⟩, hle, ?_, rfl, ?_, ?_, rfl, ?_, ?_⟩
    · have hne : rows.map (fun t => t.2.2) ≠ [] := by
        rw [Ne, List.map_eq_nil_iff]
        rintro rfl
        simp at hlen
        omega
      have hy' : (rows.map (fun t => t.2.2)).dedup.length ≠ 1 := by
        intro hc
        apply hy
        simp only [List.map_map]
        exact hc
      obtain ⟨a, b, ha, hb, hab⟩ := (ms_two _ hne).1 hy'
      obtain ⟨ta, hta, rfl⟩ := List.mem_map.1 ha
      obtain ⟨tb, htb, rfl⟩ := List.mem_map.1 hb
      exact ⟨ta, tb, hta, htb, hab⟩
    · simp only [List.map_map]; rfl
    · simp only [List.map_map]; rfl
    · simp only [List.map_map, List.length_map]; rfl
    · refine ⟨hstats _ _, rfl, ?_, by simp, by simp⟩
      intro r hr
      simp only [List.map_map] at hr
      obtain ⟨t, _, rfl⟩ := List.mem_map.1 hr
      simp [msFeatRow]
  · rintro ⟨hn, rows, f0, h4, ⟨e0, he0, hf0⟩, hle, ⟨ta, tb, hta, htb, hab⟩, e1, e2, e3, e4, e5, e6, e7, e8⟩
    have hlen : rows.length = m.length := h4.length_eq.symm
    obtain ⟨cols, hpt, x, y, mean, sd, sc⟩ := s
    simp only [] at e1 e2 e3 e4 e5 e6 e7 e8
    subst e1 e2 e3 e4
    unfold msInit
    rw [if_neg (by simp)]
    simp only []
    rcases m with _ | ⟨e, m⟩
    · simp at hn
    rcases h4 with _ | ⟨g1, g2⟩
    rename_i t0 rows
    rw [List.head?_cons] at he0
    injection he0 with he0
    subst he0
    have ht0 : t0.2.1 = f0 := by
      rcases g1.2.1 with g | g
      · rw [hf0] at g; injection g with g; injection g with g; exact g.symm
      · rw [hf0] at g; injection g with g; cases g
    rw [if_neg (by omega), if_neg, gm_bind_ok]
    · refine ⟨⟨f0.map (·.1), (t0 :: rows).map (·.1), x, (t0 :: rows).map (·.2.2), mean, sd, false⟩, ?_, ?_⟩
      · unfold msReorganize
        rw [gm_bind_ok]
        refine ⟨_, (ms_mapM_entry _ _).2 ⟨t0 :: rows, List.Forall₂.cons g1 g2, rfl⟩, ?_⟩
        rw [gm_bind_ok]
        refine ⟨f0.map (·.1), ?_, ?_⟩
        · unfold msNames
          rw [List.head?_cons]
          simp only []
          rw [hf0]
        · rw [if_neg]
          · have hx : (List.map (fun t : List (String × K) × List (Option K) × String => msFeatRow (f0.map (·.1)).length t.2.1)
                (List.map (fun t => (t.1, t.2.1.map (·.2), t.2.2)) (t0 :: rows))) = x := by
              rw [e5, List.map_map]
              apply List.map_congr_left
              intro t _
              simp [msFeatRow]
            simp only []
            rw [hx, hstats, ← e6]
            have hsd : msStd std (f0.map (·.1)).length x = sd := by rw [e7]; rfl
            rw [hsd, List.map_map, List.map_map]
            rfl
          · rw [not_not]
            have : (List.map (fun t : List (String × K) × List (Option K) × String => t.2.1.length)
                (List.map (fun t => (t.1, t.2.1.map (·.2), t.2.2)) (t0 :: rows))).max? = some f0.length := by
              rw [List.max?_eq_some_iff]
              constructor
              · rw [List.map_map]
                exact List.mem_map.2 ⟨t0, List.mem_cons_self, by simp [ht0]⟩
              · intro b hb
                rw [List.map_map] at hb
                obtain ⟨t, ht, rfl⟩ := List.mem_map.1 hb
                simpa using hle t ht
            rw [this, Option.getD_some, List.length_map]
      · have hne : (List.map (fun t => t.2.2) (t0 :: rows)) ≠ [] := by simp
        rw [if_neg]
        · rfl
        · exact (ms_two _ hne).2 ⟨_, _, List.mem_map.2 ⟨ta, hta, rfl⟩, List.mem_map.2 ⟨tb, htb, rfl⟩, hab⟩
    · rw [List.head?_cons, Option.any_some]
      have i1 : e.hpt.isNone = false := by rcases g1.1 with g | g <;> rw [g] <;> rfl
      have i2 : e.features.isNone = false := by rw [hf0]; rfl
      have i3 : e.best.isNone = false := by rw [g1.2.2]; rfl
      rw [i1, i2, i3]
      simp

end

end Kats

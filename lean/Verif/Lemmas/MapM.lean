import Verif.Model.Py
import Mathlib.Data.List.Forall2

/-!
# Loops that may raise
-/

namespace Kats

theorem mapM_ok_mem {α β : Type} (f : α → Except Err β) (l : List α) (r : List β) (h : l.mapM f = .ok r) :
    (∀ a ∈ l, ∃ b ∈ r, f a = .ok b) ∧ ∀ b ∈ r, ∃ a ∈ l, f a = .ok b := by
  induction l generalizing r with
  | nil =>
    simp [pure, Except.pure] at h
    subst h
    simp
  | cons a l ih =>
    rw [List.mapM_cons] at h
    cases ha : f a with
    | error e => simp [ha, bind, Except.bind] at h
    | ok b =>
      cases hl : l.mapM f with
      | error e => simp [ha, hl, bind, Except.bind] at h
      | ok r' =>
        simp [ha, hl, bind, Except.bind, pure, Except.pure] at h
        subst h
        obtain ⟨h1, h2⟩ := ih r' hl
        constructor
        · intro x hx
          rcases List.mem_cons.1 hx with rfl | hx
          · exact ⟨b, by simp, ha⟩
          · obtain ⟨y, hy, e⟩ := h1 x hx
            exact ⟨y, by simp [hy], e⟩
        · intro y hy
          rcases List.mem_cons.1 hy with rfl | hy
          · exact ⟨a, by simp, ha⟩
          · obtain ⟨x, hx, e⟩ := h2 y hy
            exact ⟨x, by simp [hx], e⟩

theorem flatten_mem_mapM {α β : Type} (f : α → Except Err (List β)) (l : List α) (r : List (List β)) (h : l.mapM f = .ok r)
    (b : β) : b ∈ r.flatten ↔ ∃ a ∈ l, ∃ bs, f a = .ok bs ∧ b ∈ bs := by
  obtain ⟨h1, h2⟩ := mapM_ok_mem f l r h
  rw [List.mem_flatten]
  constructor
  · rintro ⟨bs, hbs, hb⟩
    obtain ⟨a, ha, e⟩ := h2 bs hbs
    exact ⟨a, ha, bs, e, hb⟩
  · rintro ⟨a, ha, bs, e, hb⟩
    obtain ⟨bs', hbs', e'⟩ := h1 a ha
    rw [e] at e'
    rw [Except.ok.inj e']  at hb
    exact ⟨bs', hbs', hb⟩

theorem mapM_forall2 {α β : Type} (f : α → Except Err β) (l : List α) (r : List β) (h : l.mapM f = .ok r) :
    List.Forall₂ (fun a b => f a = .ok b) l r := by
  induction l generalizing r with
  | nil =>
    simp [pure, Except.pure] at h
    subst h
    exact .nil
  | cons a l ih =>
    rw [List.mapM_cons] at h
    cases ha : f a with
    | error e => simp [ha, bind, Except.bind] at h
    | ok b =>
      cases hl : l.mapM f with
      | error e => simp [ha, hl, bind, Except.bind] at h
      | ok r' =>
        simp [ha, hl, bind, Except.bind, pure, Except.pure] at h
        subst h
        exact .cons ha (ih r' hl)

/-- Two loops whose bodies agree up to a map of results agree up to this map. -/
theorem mapM_map_result {α β γ : Type} (f : α → Except Err β) (g : α → Except Err γ) (m : β → γ) (l : List α)
    (h : ∀ a ∈ l, g a = (f a).map m) : l.mapM g = (l.mapM f).map (List.map m) := by
  induction l with
  | nil => rfl
  | cons a l ih =>
    rw [List.mapM_cons, List.mapM_cons, h a (by simp), ih (fun b hb => h b (by simp [hb]))]
    cases f a with
    | error e => rfl
    | ok b =>
      cases l.mapM f <;> rfl

end Kats

import Verif.Py.Core
import Mathlib.Data.List.Forall2

namespace Shipgrav

theorem mapM_ok_iff {α β : Type} (f : α → Except PyErr β) (l : List α) (out : List β) :
    l.mapM f = .ok out ↔ List.Forall₂ (fun a b => f a = .ok b) l out := by
  induction l generalizing out with
  | nil =>
    constructor
    · intro h; cases h; exact .nil
    · intro h; cases h; rfl
  | cons a l ih =>
    rw [List.mapM_cons]
    constructor
    · intro h
      cases ha : f a with
      | error e => rw [ha] at h; cases h
      | ok b =>
        rw [ha] at h
        cases hl : l.mapM f with
        | error e => rw [hl] at h; cases h
        | ok bs =>
          rw [hl] at h
          cases h
          exact .cons ha ((ih bs).1 hl)
    · intro h
      cases h with
      | cons h1 h2 => rw [h1, (ih _).2 h2]; rfl

theorem mapM_single {α β : Type} (f : α → Except PyErr β) (a : α) : [a].mapM f = (f a).map (fun b => [b]) := by
  rw [List.mapM_cons]
  cases f a <;> rfl

theorem mapM_error {α β : Type} (f : α → Except PyErr β) (l : List α) (h : ∃ a ∈ l, ∃ e, f a = .error e) :
    ∃ e, l.mapM f = .error e := by
  induction l with
  | nil => simp at h
  | cons a l ih =>
    rw [List.mapM_cons]
    cases ha : f a with
    | error e => exact ⟨e, rfl⟩
    | ok b =>
      obtain ⟨x, hx, e, he⟩ := h
      rcases List.mem_cons.1 hx with rfl | hx
      · rw [ha] at he; cases he
      · obtain ⟨e', he'⟩ := ih ⟨x, hx, e, he⟩
        rw [he']; exact ⟨e', rfl⟩

end Shipgrav

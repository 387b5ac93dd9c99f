import Verif.Model.Multivalue
import Verif.Proofs.Multivalue

/-!
# `mapM` over a list of computations that may raise an exception
-/

namespace Pot

theorem mapM_ok {α β : Type} {f : α → Py β} {g : α → β} : ∀ {l : List α}, (∀ x ∈ l, f x = .ok (g x)) →
    l.mapM f = .ok (l.map g)
  | [], _ => by simp [List.mapM_nil]
  | x :: l, h => by
    rw [List.mapM_cons, h x (by simp), ok_bind, mapM_ok (fun y hy => h y (by simp [hy])), ok_bind]
    rfl

/-- if every element succeeds or raises `e`, and one raises, the whole raises `e` -/
theorem mapM_error {α β : Type} {f : α → Py β} {e : PyErr} : ∀ {l : List α}, (∀ x ∈ l, f x = .error e ∨ ∃ y, f x = .ok y) →
    (∃ x ∈ l, f x = .error e) → l.mapM f = .error e
  | [], _, h => by simp at h
  | x :: l, h, ⟨z, hz, hze⟩ => by
    rw [List.mapM_cons]
    rcases h x (by simp) with hx | ⟨y, hx⟩
    · rw [hx]; rfl
    · rw [hx, ok_bind, mapM_error (fun w hw => h w (by simp [hw])) ?_]
      · rfl
      · rcases List.mem_cons.1 hz with rfl | hz
        · rw [hx] at hze; cases hze
        · exact ⟨z, hz, hze⟩

end Pot

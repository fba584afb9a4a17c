import Verif.Py.Semantics

/-!
# Loops of the source

A relation between the number of rounds and the variables that one round of a loop preserves holds
after all rounds.
-/

namespace RockPhy.Py

variable {α : Type}

theorem loop_inv (step : Env α → Val α → Res (Env α × Option (Val α))) (I : Nat → Env α → Prop)
    (h : ∀ m env v, I m env → ∃ env', step env v = .ok (env', none) ∧ I (m + 1) env')
    (l : List (Val α)) : ∀ m env, I m env →
      ∃ env', loop step l env = .ok (env', none) ∧ I (m + l.length) env' := by
  induction l with
  | nil => exact fun m env hI => ⟨env, rfl, hI⟩
  | cons v l ih =>
    intro m env hI
    obtain ⟨env₁, h₁, hI₁⟩ := h m env v hI
    obtain ⟨env₂, h₂, hI₂⟩ := ih (m + 1) env₁ hI₁
    refine ⟨env₂, ?_, ?_⟩
    · rw [loop, h₁]; exact h₂
    · rw [List.length_cons, Nat.add_comm l.length, ← Nat.add_assoc]; exact hI₂

end RockPhy.Py

import Verif.Basic

/-! # Sequencing of outcomes -/

set_option autoImplicit false

namespace Teqp.Outcome
variable {α β : Type}

theorem bind_eq_ok {o : Outcome α} {f : α → Outcome β} {b : β} :
    o.bind f = .ok b ↔ ∃ a, o = .ok a ∧ f a = .ok b := by
  cases o <;> simp

/-- An outcome that is a value or an exception. -/
def Clean (o : Outcome α) : Prop := (∃ a, o = .ok a) ∨ ∃ e, o = .throws e

theorem Clean.ok (a : α) : Clean (.ok a) := Or.inl ⟨a, rfl⟩
theorem Clean.throws (e : Err) : Clean (.throws e : Outcome α) := Or.inr ⟨e, rfl⟩

theorem Clean.bind {o : Outcome α} {f : α → Outcome β} (h : Clean o) (hf : ∀ a, o = .ok a → Clean (f a)) : Clean (o.bind f) := by
  rcases h with ⟨a, rfl⟩ | ⟨e, rfl⟩
  · exact hf a rfl
  · exact Clean.throws e

end Teqp.Outcome

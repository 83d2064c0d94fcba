import Mathlib.Analysis.Calculus.IteratedDeriv.Defs

/-! # Specification vocabulary: critical states of a mixture -/

set_option autoImplicit false

namespace Teqp.Spec

variable {ι : Type}

/-- `k`-th derivative of the Helmholtz energy density along the direction `w`. -/
noncomputable def dirDeriv (Ψ : (ι → ℝ) → ℝ) (ρ w : ι → ℝ) (k : ℕ) : ℝ :=
  iteratedDeriv k (fun σ : ℝ => Ψ fun i => ρ i + σ * w i) 0

/-- A critical state: the density is convex to second order, and in some direction the second and third derivatives
vanish. -/
def IsCritical (Ψ : ℝ → (ι → ℝ) → ℝ) (T : ℝ) (ρ : ι → ℝ) : Prop :=
  (∀ w, 0 ≤ dirDeriv (Ψ T) ρ w 2) ∧ ∃ w, (∃ i, w i ≠ 0) ∧ dirDeriv (Ψ T) ρ w 2 = 0 ∧ dirDeriv (Ψ T) ρ w 3 = 0

end Teqp.Spec

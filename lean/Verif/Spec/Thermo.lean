import Mathlib.Analysis.Calculus.Deriv.Basic
import Mathlib.Analysis.Calculus.IteratedDeriv.Defs

/-!
# Specification vocabulary: classical thermodynamics

These definitions do not mention the code. They are the textbook definitions of the properties a
user of an equation of state asks for.
-/

set_option autoImplicit false

namespace Teqp.Spec

/-- `Λ_ij = (1/T)^i ρ^j ∂^{i+j} α / ∂(1/T)^i ∂ρ^j`, the documented meaning of the reduced
derivatives (documentation comment in `/repo/include/teqp/derivs.hpp` lines 141-147). -/
noncomputable def Lambda (α : ℝ → ℝ → ℝ) (i j : ℕ) (T ρ : ℝ) : ℝ :=
  (1 / T) ^ i * ρ ^ j * iteratedDeriv i (fun t => iteratedDeriv j (fun r => α (1 / t) r) ρ) (1 / T)

/-- Molar Helmholtz energy `a = α R T`. -/
noncomputable def helmholtz (α : ℝ → ℝ → ℝ) (R T ρ : ℝ) : ℝ := α T ρ * R * T

/-- `p = ρ² (∂a/∂ρ)_T`. -/
noncomputable def pressure (α : ℝ → ℝ → ℝ) (R T ρ : ℝ) : ℝ :=
  ρ ^ 2 * deriv (fun r => helmholtz α R T r) ρ

/-- `s = -(∂a/∂T)_ρ`. -/
noncomputable def entropy (α : ℝ → ℝ → ℝ) (R T ρ : ℝ) : ℝ :=
  -deriv (fun T' => helmholtz α R T' ρ) T

/-- `u = a + T s`. -/
noncomputable def energy (α : ℝ → ℝ → ℝ) (R T ρ : ℝ) : ℝ :=
  helmholtz α R T ρ + T * entropy α R T ρ

/-- `h = u + p/ρ`. -/
noncomputable def enthalpy (α : ℝ → ℝ → ℝ) (R T ρ : ℝ) : ℝ :=
  energy α R T ρ + pressure α R T ρ / ρ

end Teqp.Spec

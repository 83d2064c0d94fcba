import Mathlib.Analysis.Analytic.Basic
import Mathlib.Analysis.Calculus.Deriv.Basic
import Mathlib.Analysis.Calculus.IteratedDeriv.Defs

/-! # Specification: virial expansion -/

set_option autoImplicit false

namespace Teqp.Spec

/-- Compressibility factor `Z = 1 + ρ ∂α/∂ρ` of a residual model at fixed temperature. -/
noncomputable def compressibility (α : ℝ → ℝ) (ρ : ℝ) : ℝ := 1 + ρ * deriv α ρ

/-- `b` is the `n`-th virial coefficient: the coefficient of `ρ^(n-1)` in every power series of `Z`
about zero density (and there is such a series). -/
def IsVirial (α : ℝ → ℝ) (n : ℕ) (b : ℝ) : Prop :=
  (∃ q : FormalMultilinearSeries ℝ ℝ ℝ, HasFPowerSeriesAt (compressibility α) q 0) ∧
  ∀ q : FormalMultilinearSeries ℝ ℝ ℝ, HasFPowerSeriesAt (compressibility α) q 0 → q.coeff (n - 1) = b

end Teqp.Spec

import Verif.Spec.Cubic

/-! # Mechanical stability of an isotherm -/

set_option autoImplicit false

namespace Teqp.Spec

/-- The pressure of the isotherm grows with the density at every density below close packing. -/
def MechStable (αr : ℝ → ℝ → ℝ) (R T b : ℝ) : Prop := ∀ ρ, 0 < ρ → b * ρ < 1 → 0 < deriv (fun r => totalPressure αr R T r) ρ

/-- Every positive pressure belongs to exactly one density below close packing. -/
def OneDensity (αr : ℝ → ℝ → ℝ) (R T b : ℝ) : Prop := ∀ p, 0 < p → ∃! ρ, 0 < ρ ∧ b * ρ < 1 ∧ totalPressure αr R T ρ = p

end Teqp.Spec

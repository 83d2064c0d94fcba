import Verif.Spec.PureVLE

/-! # Specification vocabulary: saturation states of an isotherm -/

set_option autoImplicit false

namespace Teqp.Spec

/-- A vapour and a denser liquid below close packing that coexist. -/
def Saturated (αr : ℝ → ℝ → ℝ) (c : ℝ → ℝ) (R T b ρV ρL : ℝ) : Prop := 0 < ρV ∧ ρV < ρL ∧ b * ρL < 1 ∧ Coexist αr c R T ρL ρV

/-- The tangent to the Helmholtz energy per volume at density `ρ0` lies nowhere above it. -/
def TangentStable (αr : ℝ → ℝ → ℝ) (c : ℝ → ℝ) (R T b ρ0 : ℝ) : Prop :=
  ∀ ρ, 0 < ρ → b * ρ < 1 → chemPot αr c R T ρ0 * ρ - totalPressure αr R T ρ0 ≤ ρ * helmholtz (totalAlpha αr c) R T ρ

end Teqp.Spec

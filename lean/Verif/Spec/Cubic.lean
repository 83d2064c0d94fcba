import Verif.Spec.Thermo

/-! # Specification vocabulary: cubic equations of state -/

set_option autoImplicit false

namespace Teqp.Spec

/-- Pressure of a fluid whose residual Helmholtz energy is `αr`: ideal-gas pressure plus
`ρ² ∂(αr R T)/∂ρ`. -/
noncomputable def totalPressure (αr : ℝ → ℝ → ℝ) (R T ρ : ℝ) : ℝ :=
  ρ * R * T + pressure αr R T ρ

/-- The van der Waals equation `p = RT/(v-b) - a/v²`. -/
noncomputable def vdWPressure (R a b T v : ℝ) : ℝ := R * T / (v - b) - a / v ^ 2

/-- The two-parameter cubic equation `p = RT/(v-b) - a/((v+Δ₁b)(v+Δ₂b))`. -/
noncomputable def cubicPressure (R a b Δ₁ Δ₂ T v : ℝ) : ℝ :=
  R * T / (v - b) - a / ((v + Δ₁ * b) * (v + Δ₂ * b))

/-- The isotherm `ρ ↦ p ρ` has its critical point at density `ρc` and pressure `pc`: the pressure is
`pc` and the first and second derivatives along the isotherm vanish. -/
def IsCriticalPoint (p : ℝ → ℝ) (ρc pc : ℝ) : Prop :=
  p ρc = pc ∧ HasDerivAt p 0 ρc ∧ HasDerivAt (deriv p) 0 ρc

end Teqp.Spec

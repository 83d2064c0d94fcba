import Verif.Spec.Cubic
import Mathlib.Analysis.SpecialFunctions.Log.Basic

/-! # Specification vocabulary: phase equilibrium of a pure fluid

The ideal-gas part of the Helmholtz energy is `RT (ln ρ + c(T))` with an arbitrary function `c` of temperature. -/

set_option autoImplicit false

namespace Teqp.Spec

/-- The total reduced Helmholtz energy. -/
noncomputable def totalAlpha (αr : ℝ → ℝ → ℝ) (c : ℝ → ℝ) : ℝ → ℝ → ℝ := fun T ρ => Real.log ρ + c T + αr T ρ

/-- Chemical potential `μ = ∂(ρ a)/∂ρ` at constant temperature. -/
noncomputable def chemPot (αr : ℝ → ℝ → ℝ) (c : ℝ → ℝ) (R T ρ : ℝ) : ℝ :=
  deriv (fun r => r * helmholtz (totalAlpha αr c) R T r) ρ

/-- Two densities coexist at temperature `T`: equal pressure and equal chemical potential. -/
def Coexist (αr : ℝ → ℝ → ℝ) (c : ℝ → ℝ) (R T ρL ρV : ℝ) : Prop :=
  totalPressure αr R T ρL = totalPressure αr R T ρV ∧ chemPot αr c R T ρL = chemPot αr c R T ρV

end Teqp.Spec

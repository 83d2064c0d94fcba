import Verif.Spec.Cubic
import Mathlib.Analysis.SpecialFunctions.Log.Basic
import Mathlib.Algebra.BigOperators.Group.Finset.Basic

/-! # Specification vocabulary: phase equilibrium of a mixture

`αr T ρ x` is the residual part; the ideal-gas part of the Helmholtz energy density is `RT Σ ρᵢ (ln ρᵢ - 1)`.  Functions of
temperature alone that the ideal gas may add to the chemical potentials are the same in both phases. -/

set_option autoImplicit false

namespace Teqp.Spec

variable {ι : Type} [Fintype ι] [DecidableEq ι]

/-- Helmholtz energy density of the mixture with concentrations `ρ`. -/
noncomputable def psiTotal (αr : ℝ → ℝ → (ι → ℝ) → ℝ) (R T : ℝ) (ρ : ι → ℝ) : ℝ :=
  R * T * ∑ i, ρ i * (Real.log (ρ i) - 1) + (∑ i, ρ i) * R * T * αr T (∑ i, ρ i) (fun i => ρ i / ∑ k, ρ k)

/-- Chemical potential: the derivative of the Helmholtz energy density in one concentration. -/
noncomputable def mixMu (αr : ℝ → ℝ → (ι → ℝ) → ℝ) (R T : ℝ) (ρ : ι → ℝ) (i : ι) : ℝ :=
  deriv (fun r => psiTotal αr R T (Function.update ρ i r)) (ρ i)

/-- Pressure: the one of the fluid at fixed composition. -/
noncomputable def mixP (αr : ℝ → ℝ → (ι → ℝ) → ℝ) (R T : ℝ) (ρ : ι → ℝ) : ℝ :=
  totalPressure (fun T' r => αr T' r fun i => ρ i / ∑ k, ρ k) R T (∑ i, ρ i)

/-- Two phases coexist: equal pressure and equal chemical potentials. -/
def MixCoexist (αr : ℝ → ℝ → (ι → ℝ) → ℝ) (R T : ℝ) (L V : ι → ℝ) : Prop :=
  (∀ i, mixMu αr R T L i = mixMu αr R T V i) ∧ mixP αr R T L = mixP αr R T V

end Teqp.Spec

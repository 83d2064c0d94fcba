import Mathlib.Analysis.SpecialFunctions.Pow.Real
import Mathlib.Analysis.SpecialFunctions.Trigonometric.Basic

/-! # Documented forms of the residual Helmholtz-energy terms

The formulas of the equation-of-state literature, one summand each. -/

set_option autoImplicit false

namespace Teqp.Spec

/-- `n δ^d τ^t` -/
noncomputable def polySummand (n t d τ δ : ℝ) : ℝ := n * δ ^ d * τ ^ t

/-- `n δ^d τ^t exp(-γ δ^l)` -/
noncomputable def expSummand (n t d g l τ δ : ℝ) : ℝ := n * δ ^ d * τ ^ t * Real.exp (-(g * δ ^ l))

/-- A listed power term: `n δ^d τ^t` if `l = 0`, `n δ^d τ^t exp(-δ^l)` if `l > 0`. -/
noncomputable def powerSummand (n t d l τ δ : ℝ) : ℝ :=
  if 0 < l then expSummand n t d 1 l τ δ else polySummand n t d τ δ

/-- `n δ^d τ^t exp(-γ_d δ^{l_d} - γ_t τ^{l_t})` -/
noncomputable def doubleExpSummand (n t d gd ld gt lt τ δ : ℝ) : ℝ :=
  n * δ ^ d * τ ^ t * Real.exp (-(gd * δ ^ ld) - gt * τ ^ lt)

/-- `n δ^d τ^t exp(-η (δ-ε)² - β (τ-γ)²)` -/
noncomputable def gaussSummand (n t d eta beta gamma epsilon τ δ : ℝ) : ℝ :=
  n * δ ^ d * τ ^ t * Real.exp (-(eta * (δ - epsilon) ^ 2) - beta * (τ - gamma) ^ 2)

/-- `n δ^d τ^t exp(-η (δ-ε)² - β (δ-γ))` -/
noncomputable def gergSummand (n t d eta beta gamma epsilon τ δ : ℝ) : ℝ :=
  n * δ ^ d * τ ^ t * Real.exp (-(eta * (δ - epsilon) ^ 2) - beta * (δ - gamma))

/-- `n δ^d τ^t exp(-δ^l - τ^m)` -/
noncomputable def lemmonSummand (n t d l m τ δ : ℝ) : ℝ :=
  n * δ ^ d * τ ^ t * Real.exp (-δ ^ l - τ ^ m)

/-- `n δ^d τ^t exp(-η (δ-ε)² + 1/(β (τ-γ)² + b))` -/
noncomputable def gaoBSummand (n t d eta beta gamma epsilon b τ δ : ℝ) : ℝ :=
  n * δ ^ d * τ ^ t * Real.exp (-(eta * (δ - epsilon) ^ 2) + 1 / (beta * (τ - gamma) ^ 2 + b))

/-- `n Δ^b δ ψ` with `Δ = θ² + B ((δ-1)²)^a`, `θ = 1 - τ + A ((δ-1)²)^{1/(2β)}`,
`ψ = exp(-C (δ-1)² - D (τ-1)²)`. -/
noncomputable def nonAnalyticSummand (A B C D a b beta n τ δ : ℝ) : ℝ :=
  n * ((1 - τ + A * ((δ - 1) ^ 2) ^ (1 / (2 * beta))) ^ 2 + B * ((δ - 1) ^ 2) ^ a) ^ b * δ *
    Real.exp (-(C * (δ - 1) ^ 2) - D * (τ - 1) ^ 2)

/-- `-ln(1 - bρ) - a/(R T) · ln((1 + Δ₁bρ)/(1 + Δ₂bρ)) / (b (Δ₁ - Δ₂))`, the residual Helmholtz energy of a
two-parameter cubic equation. -/
noncomputable def cubicResidual (R a b Δ₁ Δ₂ T ρ : ℝ) : ℝ :=
  -Real.log (1 - b * ρ) - a * Real.log ((1 + Δ₁ * b * ρ) / (1 + Δ₂ * b * ρ)) / (R * T * b * (Δ₁ - Δ₂))

/-- Residual Helmholtz energy of a pure fluid in the equation of Gross and Sadowski (2001), in the packing fraction `η = π/6 ρ m d³`: hard spheres of Carnahan
and Starling, their contact value `(1 - η/2)/(1 - η)³` for the bonds of the chain, and the dispersion of second order; `ρ` is the number of molecules per volume
and the columns of `c` are the universal constants `a₀, a₁, a₂, b₀, b₁, b₂`. -/
noncomputable def grossSadowski (c : Fin 7 → Fin 6 → ℝ) (m σ ε T ρ : ℝ) : ℝ :=
  let d := σ * (1 - 0.12 * Real.exp (-3 * ε / T))
  let η := Real.pi / 6 * ρ * m * d ^ 3
  let I := fun k0 k1 k2 : Fin 6 => ∑ i, (c i k0 + (m - 1) / m * c i k1 + (m - 1) / m * ((m - 2) / m) * c i k2) * η ^ (i : ℕ)
  let C := 1 + m * (8 * η - 2 * η ^ 2) / (1 - η) ^ 4 + (1 - m) * (20 * η - 27 * η ^ 2 + 12 * η ^ 3 - 2 * η ^ 4) / ((1 - η) * (2 - η)) ^ 2
  m * ((4 * η - 3 * η ^ 2) / (1 - η) ^ 2) - (m - 1) * Real.log ((1 - η / 2) / (1 - η) ^ 3)
    - 2 * Real.pi * ρ * I 0 1 2 * m ^ 2 * (ε / T) * σ ^ 3 - Real.pi * ρ * m * C⁻¹ * I 3 4 5 * m ^ 2 * (ε / T) ^ 2 * σ ^ 3

end Teqp.Spec

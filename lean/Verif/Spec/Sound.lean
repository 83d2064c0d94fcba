import Verif.Spec.PureVLE

/-! # Specification vocabulary: speed of sound -/

set_option autoImplicit false

namespace Teqp.Spec
open Filter Topology

/-- `c` is the isentropic slope of the pressure in density at `(T, ρ)` for the fluid with residual Helmholtz energy `αr`
and ideal-gas function `c₀`: along every differentiable curve of states through `(T, ρ)` on which the entropy is constant,
the pressure changes `c` times as fast as the density.  The speed of sound is `√(c / M)` with the molar mass `M`. -/
def IsentropicSlope (αr : ℝ → ℝ → ℝ) (c₀ : ℝ → ℝ) (R T ρ c : ℝ) : Prop :=
  ∀ (θ r : ℝ → ℝ) (θ' r' : ℝ), θ 0 = T → r 0 = ρ → HasDerivAt θ θ' 0 → HasDerivAt r r' 0 →
    (∀ᶠ s in 𝓝 (0 : ℝ), entropy (totalAlpha αr c₀) R (θ s) (r s) = entropy (totalAlpha αr c₀) R T ρ) →
    HasDerivAt (fun s => totalPressure αr R (θ s) (r s)) (c * r') 0

end Teqp.Spec

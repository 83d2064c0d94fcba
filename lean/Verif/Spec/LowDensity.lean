import Verif.Basic
import Mathlib.Analysis.Calculus.Deriv.Basic
import Mathlib.Analysis.SpecialFunctions.Exp

/-! # A gas at low density

What is asked of every model of the residual Helmholtz energy, whatever its formula: along an isotherm at a fixed composition it has a value at every density from zero to
some positive one, the value at zero density is zero, and the values leave zero with a finite slope, the second virial coefficient. -/

set_option autoImplicit false

namespace Teqp.Spec
open Filter Topology

/-- The residual Helmholtz energy `F` as a function of the density vanishes at zero density with slope `B`. -/
def HasVirial (F : ℝ → Outcome ℝ) (B : ℝ) : Prop :=
  ∃ f : ℝ → ℝ, (∀ᶠ r in 𝓝[≥] (0 : ℝ), F r = .ok (f r)) ∧ f 0 = 0 ∧ HasDerivWithinAt f B (Set.Ici 0) 0

/-- What is left at first order of a product of a power `d` of the density with a function whose value at zero density is `g`. -/
noncomputable def firstOrder (d g : ℝ) : ℝ := if d = 1 then g else 0

/-- The value at zero density of `exp(-c δ^l)` with a whole number `l`. -/
noncomputable def damped (c : ℝ) (l : ℤ) : ℝ := if l = 0 then Real.exp (-c) else 1

end Teqp.Spec

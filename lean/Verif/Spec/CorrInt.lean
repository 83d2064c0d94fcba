import Mathlib.MeasureTheory.Integral.Bochner.Set
import Mathlib.MeasureTheory.Measure.Lebesgue.Basic
import Mathlib.Analysis.SpecialFunctions.Exp

/-! # What the correlated integrals are

`J⁽ⁿ⁾` is the integral of `r²⁻ⁿ` against the radial distribution function; this says what any correlation of them should
respect. -/

set_option autoImplicit false

namespace Teqp.Spec
open MeasureTheory

/-- `J⁽ⁿ⁾ = ∫ g(r) r²⁻ⁿ dr` over the positive distances. -/
noncomputable def corrJ (g : ℝ → ℝ) (n : ℤ) : ℝ := ∫ r in Set.Ioi (0 : ℝ), g r * r ^ (2 - n)

/-- Three neighbours of a sequence in the order in which the values of a log-convex one are. -/
def LogConvexAt (f : ℤ → ℝ) (n : ℤ) : Prop := f n ^ 2 ≤ f (n - 1) * f (n + 1)

end Teqp.Spec

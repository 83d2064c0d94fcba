import Mathlib.Data.Real.Basic
import Mathlib.RingTheory.Polynomial.Chebyshev

/-! # Specification vocabulary: Chebyshev series -/

set_option autoImplicit false

namespace Teqp.Spec
open Polynomial

/-- `∑_k c_k T_k(x)`. -/
noncomputable def chebSum (c : List ℝ) (x : ℝ) : ℝ :=
  ∑ k ∈ Finset.range c.length, c.getD k 0 * (Chebyshev.T ℝ (k : ℤ)).eval x

/-- The weight of the "primed" sum: the first coefficient counts half. -/
noncomputable def halfFirst (k : ℕ) : ℝ := if k = 0 then 1 / 2 else 1

/-- `∑'_k c_k T_k(x)` with the first term halved. -/
noncomputable def chebSumHalf (n : ℕ) (c : ℕ → ℝ) (x : ℝ) : ℝ :=
  ∑ k ∈ Finset.range n, halfFirst k * c k * (Chebyshev.T ℝ (k : ℤ)).eval x

/-- The two-dimensional series `∑'_k ∑'_j a_kj T_k(y) T_j(x)`. -/
noncomputable def chebSum2D (rows cols : ℕ) (a : ℕ → ℕ → ℝ) (x y : ℝ) : ℝ :=
  ∑ j ∈ Finset.range cols, ∑ k ∈ Finset.range rows, halfFirst j * halfFirst k * a k j *
    (Chebyshev.T ℝ (k : ℤ)).eval y * (Chebyshev.T ℝ (j : ℤ)).eval x

end Teqp.Spec

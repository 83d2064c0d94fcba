import Mathlib.Analysis.SpecialFunctions.Pow.Real

/-! # The Lennard-Jones equation of state of Thol et al. (J. Phys. Chem. Ref. Data 45, 023101, 2016), as a table -/

set_option autoImplicit false

namespace Teqp.Spec

/-- A row of the table: polynomial (`l = 0`) or exponential term. -/
structure LJTRow where
  n : ℚ
  t : ℚ
  d : ℕ
  l : ℕ

/-- A row of the table: Gaussian term. -/
structure LJTGauss where
  n : ℚ
  t : ℚ
  d : ℕ
  eta : ℚ
  beta : ℚ
  gamma : ℚ
  epsilon : ℚ

/-- Terms 1 to 12. -/
def ljtRows : List LJTRow := [
  ⟨0.0052080730, 1.000, 4, 0⟩,
  ⟨2.1862520, 0.320, 1, 0⟩,
  ⟨-2.1610160, 0.505, 1, 0⟩,
  ⟨1.4527000, 0.672, 2, 0⟩,
  ⟨-2.0417920, 0.843, 2, 0⟩,
  ⟨0.18695286, 0.898, 3, 0⟩,
  ⟨-0.62086250, 1.205, 1, 1⟩,
  ⟨-0.56883900, 1.786, 1, 2⟩,
  ⟨-0.80055922, 2.770, 3, 2⟩,
  ⟨0.10901431, 1.786, 2, 1⟩,
  ⟨-0.49745610, 2.590, 2, 2⟩,
  ⟨-0.090988445, 1.294, 5, 1⟩]

/-- Terms 13 to 23. -/
def ljtGaussRows : List LJTGauss := [
  ⟨-1.4667177, 2.830, 1, 2.067, 0.625, 0.71, 0.2053⟩,
  ⟨1.8914690, 2.548, 1, 1.522, 0.638, 0.86, 0.409⟩,
  ⟨-0.13837010, 4.650, 2, 8.82, 3.91, 1.94, 0.6⟩,
  ⟨-0.38696450, 1.385, 3, 1.722, 0.156, 1.48, 1.203⟩,
  ⟨0.12657020, 1.460, 3, 0.679, 0.157, 1.49, 1.829⟩,
  ⟨0.60578100, 1.351, 2, 1.883, 0.153, 1.945, 1.397⟩,
  ⟨1.1791890, 0.660, 1, 3.925, 1.16, 3.02, 1.39⟩,
  ⟨-0.47732679, 1.496, 2, 2.461, 1.73, 1.11, 0.539⟩,
  ⟨-9.9218575, 1.830, 3, 28.2, 383, 1.17, 0.934⟩,
  ⟨-0.57479320, 1.616, 1, 0.753, 0.112, 1.33, 2.369⟩,
  ⟨0.0037729230, 4.970, 1, 0.82, 0.119, 0.24, 2.43⟩]

/-- The residual Helmholtz energy. -/
noncomputable def ljtSum (tau delta : ℝ) : ℝ :=
  (ljtRows.map fun r => (r.n : ℝ) * delta ^ r.d * tau ^ (r.t : ℝ) * (if r.l = 0 then 1 else Real.exp (-delta ^ r.l))).sum +
  (ljtGaussRows.map fun r => (r.n : ℝ) * delta ^ r.d * tau ^ (r.t : ℝ) *
    Real.exp (-r.eta * (delta - r.epsilon) ^ 2 - r.beta * (tau - r.gamma) ^ 2)).sum

end Teqp.Spec

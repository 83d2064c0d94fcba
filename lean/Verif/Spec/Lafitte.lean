import Mathlib.Data.Real.Basic
import Mathlib.Algebra.BigOperators.Fin
import Mathlib.Data.Fin.VecNotation

/-! # Published constants of SAFT-VR-Mie

T. Lafitte et al., J. Chem. Phys. 139, 154504 (2013).  Copied for each function, one line per function (the source file has
one line per power). -/

set_option autoImplicit false

namespace Teqp.Spec

/-- Table II: the coefficients `φ_{k,0} .. φ_{k,6}` of `f_k`, `k = 1..7`. -/
def lafittePhi : Fin 7 → Fin 7 → ℚ := ![
  ![7.5365557, -37.60463, 71.745953, -46.83552, -2.467982, -0.50272, 8.0956883],
  ![-359.44, 1825.6, -3168, 1884.2, -0.82376, -3.1935, 3.7090],
  ![1550.9, -5070.1, 6534.6, -3288.7, -2.7171, 2.0883, 0],
  ![-1.19932, 9.063632, -17.9482, 11.34027, 20.52142, -56.6377, 40.53683],
  ![-1911.28, 21390.175, -51320.7, 37064.54, 1103.742, -3264.61, 2556.181],
  ![9236.9, -129430, 357230, -315530, 1390.2, -4518.2, 4241.6],
  ![10, 10, 0.57, -6.7, -8, 0, 0]]

/-- Eq. (20): `f_k(α) = Σ_{n<4} φ_{k,n} α^n / (1 + Σ_{n=4}^{6} φ_{k,n} α^{n-3})`. -/
noncomputable def lafitteF (k : Fin 7) (α : ℝ) : ℝ :=
  (∑ n : Fin 4, (lafittePhi k (n.castLE (by omega)) : ℝ) * α ^ (n : ℕ)) /
    (1 + ∑ n : Fin 3, (lafittePhi k (n.natAdd 4) : ℝ) * α ^ ((n : ℕ) + 1))

/-- Eq. (A18): the coefficient of `(1/λ)^m` in `c_n`, by power `m`. -/
def lafitteA : Fin 4 → Fin 4 → ℚ := ![
  ![0.81096, 1.0205, -1.9057, 1.0885],
  ![1.7888, -19.341, 22.845, -6.1962],
  ![-37.578, 151.26, -228.14, 106.98],
  ![92.284, -463.50, 973.92, -677.64]]

/-- Eq. (A17): the effective packing fraction. -/
noncomputable def lafitteZeff (lam z : ℝ) : ℝ := ∑ n : Fin 4, (∑ m : Fin 4, (lafitteA m n : ℝ) * lam⁻¹ ^ (m : ℕ)) * z ^ ((n : ℕ) + 1)

/-- The exact first density coefficient of the hard-sphere radial distribution function (in powers of the packing
fraction) at the distance `x` in diameters, `1 ≤ x ≤ 2`: the common volume of two spheres of radius one diameter, divided by
the volume of a sphere of diameter one. -/
noncomputable def hardSphereOverlap (x : ℝ) : ℝ := 8 * (1 - 3 / 4 * x + 1 / 16 * x ^ 3)

/-- Table III: alkane, segments, `σ` in Angstrom, `λ_r`, `ε/k` in K; `λ_a` is 6. -/
def lafitteAlkanes : List (String × ℚ × ℚ × ℚ × ℚ) :=
  [("Methane", 1.0000, 3.7412, 12.650, 153.36), ("Ethane", 1.4373, 3.7257, 12.400, 206.12), ("Propane", 1.6845, 3.9056, 13.006, 239.89)]

/-- One debye, `10⁻¹⁸` statC cm, in C m: `10⁻²¹` divided by the number of the speed of light. -/
noncomputable def debyeCm : ℝ := 1e-21 / 299792458

/-- The Coulomb constant of the SI before 2019, in N m²/C². -/
noncomputable def coulombConst : ℝ := 299792458 ^ 2 * 1e-7

end Teqp.Spec

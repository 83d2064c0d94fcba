import Verif.Model.Numerics

/-! # Density derivatives in extended precision (`/repo/include/teqp/cpp/deriv_adapter.hpp`) -/

set_option autoImplicit false

namespace Teqp.Model

/-- `get_Ar01ep`, `get_Ar02ep` and `get_Ar03ep` (`deriv_adapter.hpp` lines 137-160) for `N = 1, 2, 3`: a central
difference of fourth order with a step of `1e-16` times the density, in 100-digit arithmetic that is taken as exact. -/
noncomputable def Ar0Nep (α : ℝ → ℝ → ℝ) (N : ℕ) (T rho : ℝ) : Outcome ℝ :=
  (centeredDiff N 4 (fun r => α T r) rho (1e-16 * rho)).bind fun d => .ok (rho ^ N * d)

end Teqp.Model

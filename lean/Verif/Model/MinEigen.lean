import Verif.Model.CritTrace

/-! # The least eigenvalue of the Hessian (`/repo/include/teqp/algorithms/critical_tracing.hpp`) -/

set_option autoImplicit false

namespace Teqp.Model
open Teqp

/-- `get_minimum_eigenvalue_Psi_Hessian` (`critical_tracing.hpp` lines 125-127).  The entry is read without a check. -/
noncomputable def minEigenvalue {n : ℕ} (m : EOS (Fin (n + 2))) (eig : EigSolver) (T : ℝ) (ρ : Fin (n + 2) → ℝ) : Outcome ℝ :=
  (eigenProblem m eig T ρ none).bind fun e =>
    match e.values with
    | [] => .ub
    | l :: _ => .ok l

end Teqp.Model

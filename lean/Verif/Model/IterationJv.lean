import Verif.Basic
import Verif.Model.Lambda

/-!
# Values and Jacobian rows used by the property-pair iterator

Models `build_iteration_Jv`, `/repo/include/teqp/cpp/derivs.hpp` lines 25-94.
-/

set_option autoImplicit false

namespace Teqp.Model

/-- One row of `IterationMatrices`: `v(i)`, `J(i,0)`, `J(i,1)`
(`/repo/include/teqp/cpp/derivs.hpp` lines 27-30). -/
structure JvRow where
  v : ℝ
  dT : ℝ
  drho : ℝ

/-- The body of the loop over `vars` in `build_iteration_Jv`, including the lazily evaluated
lambdas, `/repo/include/teqp/cpp/derivs.hpp` lines 31-91. `A i j` is the derivative array. -/
noncomputable def jvRow (var : Char) (A : ℕ → ℕ → ℝ) (R T rho : ℝ) : Outcome JvRow :=
  let Trecip := 1 / T
  let dTrecipdT := -(Trecip * Trecip)
  let alpha := A 0 0
  let dalphadTrecip := A 1 0 / Trecip
  let dalphadrho := A 0 1 / rho
  let d2alphadTrecip2 := A 2 0 / (Trecip * Trecip)
  let d2alphadTrecipdrho := A 1 1 / (Trecip * rho)
  let d2alphadrho2 := A 0 2 / (rho * rho)
  let a := alpha * R * T
  let dadTrecip := R / (Trecip * Trecip) * (Trecip * dalphadTrecip - alpha)
  let d2adTrecip2 := R / (Trecip * Trecip * Trecip) *
    (Trecip * Trecip * d2alphadTrecip2 - 2 * Trecip * dalphadTrecip + 2 * alpha)
  let dadrho := R / Trecip * dalphadrho
  let d2adrho2 := R / Trecip * d2alphadrho2
  let d2adTrecipdrho := R / (Trecip * Trecip) * (Trecip * d2alphadTrecipdrho - dalphadrho)
  match var with
  | 'T' => .ok ⟨T, 1, 0⟩
  | 'D' => .ok ⟨rho, 0, 1⟩
  | 'P' => .ok ⟨rho * rho * dadrho, rho * rho * d2adTrecipdrho * dTrecipdT,
                rho * rho * d2adrho2 + 2 * rho * dadrho⟩
  | 'S' => .ok ⟨Trecip * Trecip * dadTrecip,
                (Trecip * Trecip * d2adTrecip2 + 2 * Trecip * dadTrecip) * dTrecipdT,
                Trecip * Trecip * d2adTrecipdrho⟩
  | 'H' => .ok ⟨a + Trecip * dadTrecip + rho * dadrho,
                (Trecip * d2adTrecip2 + rho * d2adTrecipdrho + 2 * dadTrecip) * dTrecipdT,
                Trecip * d2adTrecipdrho + rho * d2adrho2 + 2 * dadrho⟩
  | 'U' => .ok ⟨a + Trecip * dadTrecip,
                (Trecip * d2adTrecip2 + 2 * dadTrecip) * dTrecipdT,
                Trecip * d2adTrecipdrho + dadrho⟩
  | _ => .throws .stdInvalidArgument

/-- The loop of `build_iteration_Jv` over `vars`, `/repo/include/teqp/cpp/derivs.hpp` lines 26-94.
The arrays `v` and `J` have two rows; a third variable writes out of bounds (undefined
behaviour), and fewer than two leave rows uninitialised (then only the rows listed are returned). -/
noncomputable def buildIterationJv (vars : List Char) (A : ℕ → ℕ → ℝ) (R T rho : ℝ) :
    Outcome (List JvRow) :=
  go vars 0
where
  /-- loop with row counter `i` -/
  go : List Char → ℕ → Outcome (List JvRow)
    | [], _ => .ok []
    | c :: cs, i =>
      (jvRow c A R T rho).bind fun row =>
        if 2 ≤ i then .ub else (go cs (i + 1)).bind fun rows => .ok (row :: rows)

end Teqp.Model

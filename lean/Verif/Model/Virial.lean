import Verif.Basic
import Verif.Model.CompDerivs
import Mathlib.Analysis.Calculus.IteratedDeriv.Defs
import Mathlib.Analysis.SpecialFunctions.Gamma.Basic

/-!
# Virial coefficients

Models `VirialDerivatives`, `/repo/include/teqp/derivs.hpp` lines 693-868. At fixed composition the
residual model is `alphar : ℝ → ℝ → ℝ` (temperature, density).
-/

set_option autoImplicit false

namespace Teqp.Model

/-- `get_B2vir`, `/repo/include/teqp/derivs.hpp` lines 696-701: complex-step derivative at zero
density, taken to be the exact derivative (trusted base). -/
noncomputable def B2vir (alphar : ℝ → ℝ → ℝ) (T : ℝ) : ℝ := deriv (fun rho => alphar T rho) 0

/-- `tgamma(N + 1)`, the local `factorial` lambda, `/repo/include/teqp/derivs.hpp` lines 747, 786. -/
noncomputable def tgammaFactorial (N : ℕ) : ℝ := Real.Gamma ((N : ℝ) + 1)

/-- Entry `n` of the map built by `get_Bnvir<Nderiv>`, `/repo/include/teqp/derivs.hpp` lines
713-752. Keys `2..Nderiv` exist; `derivs[n-1]` is the `(n-1)`-th density derivative at zero. -/
noncomputable def Bnvir (Nderiv : ℕ) (alphar : ℝ → ℝ → ℝ) (T : ℝ) (n : ℕ) : Option ℝ :=
  if 2 ≤ n ∧ n ≤ Nderiv then
    let d := iteratedDeriv (n - 1) (fun rho => alphar T rho) 0
    some (if 3 < n then d / tgammaFactorial (n - 2) else d)
  else none

/-- `get_Bnvir_runtime`, `/repo/include/teqp/derivs.hpp` lines 756-769. -/
noncomputable def Bnvir_runtime (Nderiv : Int) (alphar : ℝ → ℝ → ℝ) (T : ℝ) :
    Outcome (ℕ → Option ℝ) :=
  match Nderiv with
  | 2 => .ok (Bnvir 2 alphar T)
  | 3 => .ok (Bnvir 3 alphar T)
  | 4 => .ok (Bnvir 4 alphar T)
  | 5 => .ok (Bnvir 5 alphar T)
  | 6 => .ok (Bnvir 6 alphar T)
  | 7 => .ok (Bnvir 7 alphar T)
  | 8 => .ok (Bnvir 8 alphar T)
  | 9 => .ok (Bnvir 9 alphar T)
  | _ => .throws .stdInvalidArgument

/-- `get_dmBnvirdTm<Nderiv, NTderiv>`, `/repo/include/teqp/derivs.hpp` lines 783-812. -/
noncomputable def dmBnvirdTm (Nderiv NTderiv : ℕ) (alphar : ℝ → ℝ → ℝ) (T : ℝ) : ℝ :=
  let f : (Fin 2 → ℝ) → ℝ := fun p => alphar (p 0) (p 1)
  let wrts : List (Fin 2) := List.replicate NTderiv 0 ++ List.replicate (Nderiv - 1) 1
  adLast f wrts ![T, 0] / tgammaFactorial (Nderiv - 2)

/-- The `case 0` rows of `get_dmBnvirdTm_runtime` index the map with `[n]`, which exists. -/
noncomputable def BnvirAt (n : ℕ) (alphar : ℝ → ℝ → ℝ) (T : ℝ) : Outcome ℝ :=
  match Bnvir n alphar T n with
  | some v => .ok v
  | none => .ok 0 -- `std::map::operator[]` inserts a zero for a missing key

/-- `get_dmBnvirdTm_runtime`, `/repo/include/teqp/derivs.hpp` lines 816-848. -/
noncomputable def dmBnvirdTm_runtime (Nderiv NTderiv : Int) (alphar : ℝ → ℝ → ℝ) (T : ℝ) :
    Outcome ℝ :=
  if Nderiv = 2 then
    match NTderiv with
    | 0 => BnvirAt 2 alphar T
    | 1 => .ok (dmBnvirdTm 2 1 alphar T)
    | 2 => .ok (dmBnvirdTm 2 2 alphar T)
    | 3 => .ok (dmBnvirdTm 2 3 alphar T)
    | _ => .throws .stdInvalidArgument
  else if Nderiv = 3 then
    match NTderiv with
    | 0 => BnvirAt 3 alphar T
    | 1 => .ok (dmBnvirdTm 3 1 alphar T)
    | 2 => .ok (dmBnvirdTm 3 2 alphar T)
    | 3 => .ok (dmBnvirdTm 3 3 alphar T)
    | _ => .throws .stdInvalidArgument
  else if Nderiv = 4 then
    match NTderiv with
    | 0 => BnvirAt 4 alphar T
    | 1 => .ok (dmBnvirdTm 4 1 alphar T)
    | 2 => .ok (dmBnvirdTm 4 2 alphar T)
    | 3 => .ok (dmBnvirdTm 4 3 alphar T)
    | _ => .throws .stdInvalidArgument
  else .throws .stdInvalidArgument

/-- `get_B12vir`, `/repo/include/teqp/derivs.hpp` lines 856-867. Mole fractions are a list, whose
length is checked. `B2 z` is `get_B2vir(model, T, z)` (`z` a list of mole fractions).  A pure component
gives a division by zero. -/
noncomputable def B12vir (alphar : ℝ → ℝ → List ℝ → ℝ) (T : ℝ) (z : List ℝ) : Outcome ℝ :=
  match z with
  | [z0, z1] =>
    let B2 := B2vir (fun T rho => alphar T rho [z0, z1]) T
    let B20 := B2vir (fun T rho => alphar T rho [1, 0]) T
    let B21 := B2vir (fun T rho => alphar T rho [0, 1]) T
    if 2 * z0 * (1 - z0) = 0 then .nonFinite
    else .ok ((B2 - z0 * z0 * B20 - (1 - z0) * (1 - z0) * B21) / (2 * z0 * (1 - z0)))
  | _ => .throws .stdInvalidArgument

end Teqp.Model

import Verif.Basic
import Verif.Model.Powi
import Mathlib.Analysis.Calculus.Deriv.Basic
import Mathlib.Analysis.Calculus.IteratedDeriv.Defs

/-!
# Derivatives in temperature and density

Models `TDXDerivatives` of `/repo/include/teqp/derivs.hpp`.  The composition is fixed in these
functions, so the model is a function `α T ρ`.

Simplification (trusted base): `derivatives(f, along(1), at(x))[n]` of autodiff and the
corresponding multicomplex/complex-step calls are the mathematical `n`-th derivative.
-/

set_option autoImplicit false

namespace Teqp.Model

/-- `get_Agenxy<iT, iD>`, `/repo/include/teqp/derivs.hpp` lines 150-234 (autodiff back end): the four
compile-time branches.  The mixed branch seeds `iT` times `1/T` and `iD` times `rho` and reads the
last entry, i.e. the full mixed derivative. -/
noncomputable def Agenxy (α : ℝ → ℝ → ℝ) (iT iD : ℕ) (T ρ : ℝ) : ℝ :=
  if iT = 0 ∧ iD = 0 then α T ρ
  else if iT = 0 then
    powiNat ρ iD * iteratedDeriv iD (fun ρ' => α T ρ') ρ
  else if iD = 0 then
    let Trecip := 1 / T
    powiNat Trecip iT * iteratedDeriv iT (fun t => α (1 / t) ρ) Trecip
  else
    powiNat (1 / T) iT * powiNat ρ iD *
      iteratedDeriv iT (fun t => iteratedDeriv iD (fun r => α (1 / t) r) ρ) (1 / T)

/-- `get_Agen0n<Nderiv>`, `/repo/include/teqp/derivs.hpp` lines 543-569:
`o[n] = powi(rho, n) * ders[n]` for `n = 0..Nderiv`. -/
noncomputable def Agen0n (α : ℝ → ℝ → ℝ) (Nderiv : ℕ) (T ρ : ℝ) : List ℝ :=
  (List.range (Nderiv + 1)).map fun n => powiNat ρ n * iteratedDeriv n (fun ρ' => α T ρ') ρ

/-- `get_Agenn0<Nderiv>`, `/repo/include/teqp/derivs.hpp` lines 571-598:
`o[n] = powi(Trecip, n) * ders[n]`. -/
noncomputable def Agenn0 (α : ℝ → ℝ → ℝ) (Nderiv : ℕ) (T ρ : ℝ) : List ℝ :=
  let Trecip := 1 / T
  (List.range (Nderiv + 1)).map fun n =>
    powiNat Trecip n * iteratedDeriv n (fun t => α (1 / t) ρ) Trecip

/-- The decision table of `get_Ar(itau, idelta, ...)`, `/repo/include/teqp/derivs.hpp` lines
627-682: which templated accessor `get_Ar<itau><idelta>` is called, or the exception. -/
def ArDispatch (itau idelta : Int) : Outcome (ℕ × ℕ) :=
  if itau = 0 then
    if idelta = 0 then .ok (0, 0)
    else if idelta = 1 then .ok (0, 1)
    else if idelta = 2 then .ok (0, 2)
    else if idelta = 3 then .ok (0, 3)
    else .throws .stdInvalidArgument
  else if itau = 1 then
    if idelta = 0 then .ok (1, 0)
    else if idelta = 1 then .ok (1, 1)
    else if idelta = 2 then .ok (1, 2)
    else .throws .stdInvalidArgument
  else if itau = 2 then
    if idelta = 0 then .ok (2, 0)
    else if idelta = 1 then .ok (2, 1)
    else .throws .stdInvalidArgument
  else if itau = 3 then
    if idelta = 0 then .ok (3, 0)
    else .throws .stdInvalidArgument
  else .throws .stdInvalidArgument

/-- `get_Ar(itau, idelta, model, T, rho, molefrac)`, `/repo/include/teqp/derivs.hpp` lines 627-682. -/
noncomputable def getAr (itau idelta : Int) (α : ℝ → ℝ → ℝ) (T ρ : ℝ) : Outcome ℝ :=
  (ArDispatch itau idelta).bind fun p => .ok (Agenxy α p.1 p.2 T ρ)

/-- `get_neff`, `/repo/include/teqp/derivs.hpp` lines 684-690. -/
noncomputable def getNeff (α : ℝ → ℝ → ℝ) (T ρ : ℝ) : ℝ :=
  let Ar01 := Agenxy α 0 1 T ρ
  let Ar11 := Agenxy α 1 1 T ρ
  let Ar20 := Agenxy α 2 0 T ρ;
  -3 * (Ar01 - Ar11) / Ar20

/-- `DerivativeHolderSquare<2>`, `/repo/include/teqp/derivs.hpp` lines 1512-1536: entries (0,0),
(0,1), (0,2), (1,0), (2,0), (1,1). The other entries of the 3x3 array are left uninitialised by the
constructor: modelled as `none`. -/
noncomputable def derivativeHolderSquare2 (α : ℝ → ℝ → ℝ) (T ρ : ℝ) (i j : ℕ) : Option ℝ :=
  let AX02 := Agen0n α 2 T ρ
  let AX20 := Agenn0 α 2 T ρ
  match i, j with
  | 0, 0 => AX20[0]?
  | 0, 1 => AX02[1]?
  | 0, 2 => AX02[2]?
  | 1, 0 => AX20[1]?
  | 2, 0 => AX20[2]?
  | 1, 1 => some (Agenxy α 1 1 T ρ)
  | _, _ => none

end Teqp.Model

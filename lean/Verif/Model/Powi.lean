import Verif.Basic
import Mathlib.Algebra.Group.Basic
import Mathlib.Algebra.Field.Defs

/-!
# Integer powers

Models `/repo/include/teqp/types.hpp` (`powi`, `pow2`, `pow3`, `powIVi`) and
`/repo/include/teqp/math/pow_templates.hpp`.
-/

set_option autoImplicit false

namespace Teqp.Model

section
variable {M : Type*} [Monoid M]

/-- The `while (n > 0)` loop of `powi`, `/repo/include/teqp/types.hpp` lines 160-167:
`if (n % 2 == 1) { y = y*xpwr; n--; }  xpwr = xpwr*xpwr;  n /= 2;`.
The C++ loop counter is an `int` that is non-negative here, so it is a `Nat`. -/
def powiLoop (y xpwr : M) (n : Nat) : M :=
  if h : n = 0 then y
  else
    let y' := if n % 2 = 1 then y * xpwr else y
    let n' := if n % 2 = 1 then n - 1 else n
    powiLoop y' (xpwr * xpwr) (n' / 2)
termination_by n
decreasing_by
  all_goals (split <;> omega)

/-- The part of `powi` for `n ≥ 0`, `/repo/include/teqp/types.hpp` lines 140-151 (switch) and
158-169 (`T y(x), xpwr(x); n--; while ...`). -/
def powiNat (x : M) (n : Nat) : M :=
  match n with
  | 0 => 1
  | 1 => x
  | 2 => x * x
  | 3 => x * x * x
  | 4 => let x2 := x * x; x2 * x2
  | n => powiLoop x x (n - 1)

/-- `POW2`, `/repo/include/teqp/math/pow_templates.hpp` line 5 (also `pow2` of types.hpp). -/
def POW2 (x : M) : M := x * x
/-- `POW3`, `/repo/include/teqp/math/pow_templates.hpp` line 6. -/
def POW3 (x : M) : M := POW2 x * x
/-- `POW4`, `/repo/include/teqp/math/pow_templates.hpp` line 7. -/
def POW4 (x : M) : M := POW2 x * POW2 x
/-- `POW5`, `/repo/include/teqp/math/pow_templates.hpp` line 8. -/
def POW5 (x : M) : M := POW2 x * POW3 x
/-- `POW7`, `/repo/include/teqp/math/pow_templates.hpp` line 9. -/
def POW7 (x : M) : M := POW2 x * POW5 x
/-- `POW8`, `/repo/include/teqp/math/pow_templates.hpp` line 10. -/
def POW8 (x : M) : M := POW4 x * POW4 x
/-- `POW10`, `/repo/include/teqp/math/pow_templates.hpp` line 11. -/
def POW10 (x : M) : M := POW2 x * POW8 x
/-- `POW12`, `/repo/include/teqp/math/pow_templates.hpp` line 12. -/
def POW12 (x : M) : M := POW4 x * POW8 x
end

/-- Smallest value of a 32-bit `int`. -/
def intMin : Int := -2147483648
/-- Largest value of a 32-bit `int`. -/
def intMax : Int := 2147483647

/-- `powi`, `/repo/include/teqp/types.hpp` lines 137-170, over a division ring.
`n < 0` computes `powi(1.0/x, -n)`; negating `INT_MIN` is signed overflow, hence undefined
behaviour.  Simplification: exact arithmetic; `1.0/0` is excluded in the theorems because IEEE
infinities are not modelled. -/
def powi {K : Type} [DivisionRing K] (x : K) (n : Int) : Outcome K :=
  if n = intMin then .ub
  else if n < 0 then .ok (powiNat (1 / x) (-n).toNat)
  else .ok (powiNat x n.toNat)

/-- The value of `powi` for exponents where it is defined; used by the term models.
Same citation as `powi`. -/
def powiV {K : Type} [DivisionRing K] (x : K) (n : Int) : K :=
  if n < 0 then powiNat (1 / x) (-n).toNat else powiNat x n.toNat

end Teqp.Model

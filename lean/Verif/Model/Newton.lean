import Verif.Basic
import Mathlib.Analysis.Real.Sqrt
import Mathlib.Data.Matrix.Basic
import Mathlib.Data.Matrix.Mul
import Mathlib.Algebra.BigOperators.Group.Finset.Basic

/-! # The Newton root finder

`/repo/include/teqp/algorithms/rootfinding.hpp`.  Simplifications: the function returns finite values or
something that is not finite (`none`) and does not throw; evaluated at a point that is not finite it
returns something that is not finite; the linear solver (`colPivHouseholderQr`) is a parameter. -/

set_option autoImplicit false

namespace Teqp.Model
open scoped Classical

variable {n : ℕ}

/-- A vector of numbers. -/
abbrev NVec (n : ℕ) := Fin n → ℝ

/-- `r.matrix().norm()`. -/
noncomputable def norm2 (r : NVec n) : ℝ := Real.sqrt (∑ i, r i ^ 2)

/-- The step of the forward difference, `/repo/include/teqp/algorithms/rootfinding.hpp` line 13. -/
noncomputable def fdStep (x : NVec n) (i : Fin n) : ℝ := max (1e-6 * x i) 1e-8

/-- `argsplus`, lines 14-15. -/
noncomputable def argPlus (x : NVec n) (i : Fin n) : NVec n := Function.update x i (x i + fdStep x i)

/-- The Jacobian by forward differences, `/repo/include/teqp/algorithms/rootfinding.hpp` lines 12-17; `none`
if an entry is not finite. -/
noncomputable def fdJac (f : NVec n → Option (NVec n)) (x r0 : NVec n) : Option (Matrix (Fin n) (Fin n) ℝ) :=
  if h : ∀ i, (f (argPlus x i)).isSome then
    some (Matrix.of fun a i => ((f (argPlus x i)).get (h i) a - r0 a) / fdStep x i)
  else none

/-- The updated point, lines 18-19: `none` if it is not finite. -/
noncomputable def newtonNext (f : NVec n → Option (NVec n))
    (solve : Matrix (Fin n) (Fin n) ℝ → NVec n → Option (NVec n)) (x r0 : NVec n) : Option (NVec n) :=
  match fdJac f x r0 with
  | none => none
  | some J => match solve J (fun i => -r0 i) with
    | none => none
    | some v => some (fun i => x i + v i)

/-- What the root finder has when it ends: the point it returns (`none`: not finite) and the points at
which the residual was evaluated, newest first. -/
structure NewtonRun (n : ℕ) where
  x : Option (NVec n)
  pts : List (NVec n)

/-- The loop, `/repo/include/teqp/algorithms/rootfinding.hpp` lines 10-27, with the number of passes left. -/
noncomputable def newtonLoop (f : NVec n → Option (NVec n))
    (solve : Matrix (Fin n) (Fin n) ℝ → NVec n → Option (NVec n)) (tol : ℝ) :
    ℕ → Option (NVec n) → List (NVec n) → Outcome (NewtonRun n)
  | 0, x, pts => .ok ⟨x, pts⟩
  | k + 1, x, pts => match x with
    | none => .throws .stdInvalidArgument
    | some x => match f x with
      | none => .throws .stdInvalidArgument
      | some r0 =>
        let x' := newtonNext f solve x r0
        if norm2 r0 < tol then .ok ⟨x', x :: pts⟩
        else newtonLoop f solve tol k x' (x :: pts)

/-- `NewtonRaphson`, `/repo/include/teqp/algorithms/rootfinding.hpp` lines 5-29. -/
noncomputable def newtonRaphson (f : NVec n → Option (NVec n))
    (solve : Matrix (Fin n) (Fin n) ℝ → NVec n → Option (NVec n)) (x0 : NVec n) (tol : ℝ) :
    Outcome (NewtonRun n) :=
  newtonLoop f solve tol 30 (some x0) []

end Teqp.Model

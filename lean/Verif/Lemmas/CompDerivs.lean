import Verif.Model.CompDerivs
import Mathlib.Analysis.Calculus.IteratedDeriv.Defs

/-! # Iterated partial derivatives along a `wrt` list -/

set_option autoImplicit false

namespace Teqp.Lemmas
open Teqp.Model

theorem adLast_nil {m : ℕ} (f : (Fin m → ℝ) → ℝ) : adLast f [] = f := rfl

theorem adLast_append {m : ℕ} (f : (Fin m → ℝ) → ℝ) (l₁ l₂ : List (Fin m)) :
    adLast f (l₁ ++ l₂) = adLast (adLast f l₂) l₁ := by
  funext p
  simp only [adLast, List.foldr_append]
  congr 1

theorem adLast_replicate {m : ℕ} (f : (Fin m → ℝ) → ℝ) (k : Fin m) (n : ℕ) (p : Fin m → ℝ) :
    adLast f (List.replicate n k) p = iteratedDeriv n (fun t => f (Function.update p k t)) (p k) := by
  induction n generalizing p with
  | zero => simp [adLast]
  | succ n ih =>
    have h1 : adLast f (List.replicate (n + 1) k) p
        = partialAt k (adLast f (List.replicate n k)) p := by
      rfl
    rw [h1, iteratedDeriv_succ]
    unfold partialAt
    congr 1
    funext t
    rw [ih]
    simp

end Teqp.Lemmas

import Verif.Lemmas.Powi
import Mathlib.Algebra.Order.Ring.Rat

/-! # C01: integer powers -/

set_option autoImplicit false

namespace Teqp.Props
open Teqp.Model

/-- C01. For every `int` exponent other than `INT_MIN` and every base (non-zero when the exponent
is negative, since `1.0/0` is an IEEE infinity) `powi` returns the mathematical power. -/
theorem powi_exact {K : Type} [DivisionRing K] (x : K) (n : Int)
    (hn : intMin < n) (_hn' : n ≤ intMax) (_hx : n < 0 → x ≠ 0) :
    powi x n = .ok (x ^ n) := by
  have h := powiV_eq x n
  unfold powi
  rw [if_neg (ne_of_gt hn)]
  unfold powiV at h
  split <;> simp_all

example : powi (3 / 2 : ℚ) (-5) = .ok ((3 / 2 : ℚ) ^ (-5 : Int)) :=
  powi_exact _ _ (by decide) (by decide) (by intro _; norm_num)

/-- C01. `powi(x, n)` for `n ≥ 0` is repeated multiplication in *any* monoid - in particular for
complex, multicomplex and dual-number arguments, for which the same template is instantiated. -/
theorem powi_nonneg_any_type {M : Type*} [Monoid M] (x : M) (n : Nat) :
    powiNat x n = Nat.rec (1 : M) (fun _ acc => acc * x) n := by
  rw [powiNat_eq]
  induction n with
  | zero => simp
  | succ n ih => rw [pow_succ, ih]

example : powiNat (2 : Nat) 13 = 8192 := by rw [powiNat_eq]; norm_num

/-- C01 (the excluded point). For `INT_MIN` the C++ negates the exponent, which overflows. -/
theorem powi_intMin_ub {K : Type} [DivisionRing K] (x : K) : powi x intMin = .ub := by
  simp [powi]

/-- C01. The fixed-exponent helpers are the powers their names say. -/
theorem POW_exact {M : Type*} [Monoid M] (x : M) :
    POW2 x = x ^ 2 ∧ POW3 x = x ^ 3 ∧ POW4 x = x ^ 4 ∧ POW5 x = x ^ 5 ∧ POW7 x = x ^ 7 ∧
    POW8 x = x ^ 8 ∧ POW10 x = x ^ 10 ∧ POW12 x = x ^ 12 := by
  have h2 : POW2 x = x ^ 2 := by simp [POW2, pow_two]
  have h3 : POW3 x = x ^ 3 := by rw [POW3, h2, ← pow_succ]
  have h4 : POW4 x = x ^ 4 := by rw [POW4, h2, ← pow_add]
  have h5 : POW5 x = x ^ 5 := by rw [POW5, h2, h3, ← pow_add]
  have h7 : POW7 x = x ^ 7 := by rw [POW7, h2, h5, ← pow_add]
  have h8 : POW8 x = x ^ 8 := by rw [POW8, h4, ← pow_add]
  have h10 : POW10 x = x ^ 10 := by rw [POW10, h2, h8, ← pow_add]
  have h12 : POW12 x = x ^ 12 := by rw [POW12, h4, h8, ← pow_add]
  exact ⟨h2, h3, h4, h5, h7, h8, h10, h12⟩

end Teqp.Props

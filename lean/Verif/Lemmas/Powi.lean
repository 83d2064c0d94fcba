import Verif.Model.Powi
import Mathlib.Algebra.GroupWithZero.Basic
import Mathlib.Tactic.Ring
import Mathlib.Tactic.Linarith

set_option autoImplicit false

namespace Teqp.Model

theorem powiLoop_eq {M : Type*} [Monoid M] (n : Nat) :
    ∀ (y p : M), powiLoop y p n = y * p ^ n := by
  induction n using Nat.strong_induction_on with
  | _ n ih =>
    intro y p
    rw [powiLoop]
    by_cases h : n = 0
    · simp [h]
    · rw [dif_neg h]
      have hpp : ∀ k : Nat, (p * p) ^ k = p ^ (2 * k) := by
        intro k; rw [← pow_two, ← pow_mul]
      by_cases h1 : n % 2 = 1
      · simp only [h1, if_true]
        rw [ih ((n - 1) / 2) (by omega), hpp, mul_assoc, ← pow_succ']
        congr 2; omega
      · simp only [h1, if_false]
        rw [ih (n / 2) (by omega), hpp]
        congr 2; omega

theorem powiNat_eq {M : Type*} [Monoid M] (x : M) (n : Nat) : powiNat x n = x ^ n := by
  match n with
  | 0 => simp [powiNat]
  | 1 => simp [powiNat]
  | 2 => simp [powiNat, pow_two]
  | 3 => simp [powiNat, pow_succ]
  | 4 => simp [powiNat, pow_succ, mul_assoc]
  | n + 5 => simp only [powiNat]; rw [powiLoop_eq, ← pow_succ']; rfl

theorem powiV_eq {K : Type} [DivisionRing K] (x : K) (n : Int) : powiV x n = x ^ n := by
  unfold powiV
  split
  · rename_i h
    rw [powiNat_eq, one_div, inv_pow, ← zpow_natCast, ← zpow_neg]
    congr 1; omega
  · rename_i h
    rw [powiNat_eq, ← zpow_natCast]
    congr 1; omega

end Teqp.Model

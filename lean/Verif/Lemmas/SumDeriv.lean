import Mathlib.Analysis.Calculus.Deriv.Mul
import Mathlib.Analysis.Calculus.Deriv.Add
import Mathlib.Tactic

/-! # Derivatives of linear, quadratic and cubic sums when a single entry changes -/

set_option autoImplicit false

namespace Teqp.Lemmas
open Finset

variable {ι : Type} [Fintype ι] [DecidableEq ι]

theorem hasDerivAt_sum1 (L : ι → ℝ) (z : ℝ → ι → ℝ) (i : ι) (d t : ℝ) (hz : ∀ a, HasDerivAt (fun s => z s a) (if a = i then d else 0) t) :
    HasDerivAt (fun s => ∑ a, L a * z s a) (d * L i) t := by
  refine (HasDerivAt.fun_sum fun a _ => (hz a).const_mul (L a)).congr_deriv ?_
  simp [mul_comm]

theorem hasDerivAt_sum2 (W : ι → ι → ℝ) (z : ℝ → ι → ℝ) (i : ι) (d t : ℝ) (hz : ∀ a, HasDerivAt (fun s => z s a) (if a = i then d else 0) t) :
    HasDerivAt (fun s => ∑ a, ∑ b, W a b * (z s a * z s b)) (d * ∑ b, (W i b + W b i) * z t b) t := by
  refine (HasDerivAt.fun_sum fun a _ => HasDerivAt.fun_sum fun b _ => ((hz a).mul (hz b)).const_mul (W a b)).congr_deriv ?_
  simp only [mul_add, ite_mul, mul_ite, mul_zero, zero_mul, Finset.sum_add_distrib, Finset.sum_ite_irrel, Finset.sum_const_zero, Finset.sum_ite_eq',
    Finset.mem_univ, if_true, add_mul, Finset.mul_sum]
  congr 1 <;> refine Finset.sum_congr rfl fun b _ => ?_ <;> ring

theorem hasDerivAt_sum3 (W : ι → ι → ι → ℝ) (z : ℝ → ι → ℝ) (i : ι) (d t : ℝ)
    (hz : ∀ a, HasDerivAt (fun s => z s a) (if a = i then d else 0) t) :
    HasDerivAt (fun s => ∑ a, ∑ b, ∑ c, W a b c * (z s a * z s b * z s c))
      (d * ∑ b, ∑ c, (W i b c + W b i c + W b c i) * (z t b * z t c)) t := by
  refine (HasDerivAt.fun_sum fun a _ => HasDerivAt.fun_sum fun b _ => HasDerivAt.fun_sum fun c _ =>
    (((hz a).fun_mul (hz b)).fun_mul (hz c)).const_mul (W a b c)).congr_deriv ?_
  simp only [mul_add, ite_mul, mul_ite, mul_zero, zero_mul, Finset.sum_add_distrib, Finset.sum_ite_irrel, Finset.sum_const_zero, Finset.sum_ite_eq',
    Finset.mem_univ, if_true, add_mul, Finset.mul_sum]
  congr 1
  · congr 1 <;> refine Finset.sum_congr rfl fun b _ => Finset.sum_congr rfl fun c _ => ?_ <;> ring
  · refine Finset.sum_congr rfl fun b _ => Finset.sum_congr rfl fun c _ => ?_
    ring

end Teqp.Lemmas

import Verif.Spec.CorrInt
import Verif.Props.CorrInt
import Mathlib.Analysis.Complex.ExponentialBounds
import Mathlib.Algebra.QuadraticDiscriminant
import Mathlib.MeasureTheory.Integral.IntegrableOn
import Mathlib.MeasureTheory.Function.LocallyIntegrable

/-! # The integrals `J⁽ⁿ⁾` are log-convex in `n` -/

set_option autoImplicit false

namespace Teqp.Props
open Teqp.Model Teqp.Spec MeasureTheory

/-- **The integrals of `r²⁻ⁿ` against a function that is not negative are log-convex in `n`.** -/
theorem corrJ_logconvex (g : ℝ → ℝ) (hg : ∀ r, 0 < r → 0 ≤ g r) (n : ℤ)
    (h0 : IntegrableOn (fun r => g r * r ^ (2 - (n - 1))) (Set.Ioi 0)) (h1 : IntegrableOn (fun r => g r * r ^ (2 - n)) (Set.Ioi 0))
    (h2 : IntegrableOn (fun r => g r * r ^ (2 - (n + 1))) (Set.Ioi 0)) : LogConvexAt (corrJ g) n := by
  have key : ∀ t : ℝ, 0 ≤ corrJ g (n - 1) * (t * t) + (-2 * corrJ g n) * t + corrJ g (n + 1) := by
    intro t
    have e : corrJ g (n - 1) * (t * t) + (-2 * corrJ g n) * t + corrJ g (n + 1) =
        ∫ r in Set.Ioi (0 : ℝ), (g r * r ^ (2 - (n - 1)) * (t * t) + g r * r ^ (2 - n) * (-2 * t)) + g r * r ^ (2 - (n + 1)) := by
      unfold corrJ
      have i01 : IntegrableOn (fun r => g r * r ^ (2 - (n - 1)) * (t * t) + g r * r ^ (2 - n) * (-2 * t)) (Set.Ioi 0) :=
        Integrable.add (h0.mul_const _) (h1.mul_const _)
      rw [integral_add i01 h2, integral_add (h0.mul_const _) (h1.mul_const _), integral_mul_const, integral_mul_const]
      ring
    rw [e]
    apply setIntegral_nonneg measurableSet_Ioi
    intro r hr
    have hr' : (0 : ℝ) < r := hr
    have e0 : r ^ (2 - (n - 1)) = r ^ (2 - (n + 1)) * r ^ 2 := by
      rw [← zpow_natCast, ← zpow_add₀ hr'.ne']; congr 1; push_cast; ring
    have e1 : r ^ (2 - n) = r ^ (2 - (n + 1)) * r := by
      rw [← zpow_add_one₀ hr'.ne']; congr 1; ring
    rw [e0, e1]
    have hp : 0 ≤ g r * r ^ (2 - (n + 1)) := mul_nonneg (hg r hr') (zpow_nonneg hr'.le _)
    nlinarith [mul_nonneg hp (sq_nonneg (r * t - 1))]
  have hd := discrim_le_zero key
  unfold discrim at hd
  unfold LogConvexAt
  nlinarith

example : LogConvexAt (corrJ (Set.indicator (Set.Icc 1 2) fun _ => 1)) 6 := by
  have h : ∀ k : ℤ, IntegrableOn (fun r : ℝ => Set.indicator (Set.Icc 1 2) (fun _ => (1 : ℝ)) r * r ^ k) (Set.Ioi 0) := by
    intro k
    have e : (fun r : ℝ => Set.indicator (Set.Icc 1 2) (fun _ => (1 : ℝ)) r * r ^ k) = Set.indicator (Set.Icc 1 2) (fun r => r ^ k) := by
      funext r
      by_cases hr : r ∈ Set.Icc (1 : ℝ) 2
      · rw [Set.indicator_of_mem hr, Set.indicator_of_mem hr, one_mul]
      · rw [Set.indicator_of_notMem hr, Set.indicator_of_notMem hr, zero_mul]
    rw [e]
    apply Integrable.integrableOn
    rw [integrable_indicator_iff measurableSet_Icc]
    apply ContinuousOn.integrableOn_compact isCompact_Icc
    intro r hr
    exact (continuousAt_zpow₀ r k (Or.inl (by linarith [hr.1]))).continuousWithinAt
  exact corrJ_logconvex _ (fun r _ => Set.indicator_nonneg (fun _ _ => zero_le_one) r) 6 (h _) (h _) (h _)

/-- The correlation of Gubbins and Twu as a function of `n`, with zero where there is none. -/
noncomputable def gtJval (T r : ℝ) (n : ℤ) : ℝ := match GTJ.make n with
  | .ok o => Real.exp (gtExponent o.a T r)
  | _ => 0

theorem gtJval_eq (T r : ℝ) (n : ℤ) (h : (4 ≤ n ∧ n ≤ 24) ∨ (30 ≤ n ∧ n ≤ 36)) : gtJval T r n = Real.exp (gtExponent (gtRow n) T r) := by
  unfold gtJval
  rw [gtJ_domain_partial n h]

theorem gtJval_get (T r : ℝ) (hT : 0 < T) (n : ℤ) (h : (4 ≤ n ∧ n ≤ 24) ∨ (30 ≤ n ∧ n ≤ 36)) :
    ((GTJ.make n).bind fun o => o.get T r) = .ok (gtJval T r n) := by
  rw [gtJval_eq T r n h, gtJ_domain_partial n h, Outcome.bind_ok]
  unfold GTJ.get
  rw [if_neg (not_le.2 hT)]

/-- The coefficients of a row. -/
def gtQ (n : ℤ) (i : ℕ) : ℚ := (gtRow n).getD i 0

/-- Whether the differences of three neighbouring rows make the logarithm convex at both ends of the range of temperature: a
quadratic in the density with coefficients not of the wrong sign. -/
def gtDiff (n : ℤ) (i : ℕ) : ℚ := 2 * gtQ n i - gtQ (n - 1) i - gtQ (n + 1) i

theorem gtJ_logconvex_iff (T r : ℝ) (n : ℤ) (h : (5 ≤ n ∧ n ≤ 23) ∨ (31 ≤ n ∧ n ≤ 35)) : LogConvexAt (gtJval T r) n ↔
    (gtDiff n 0 : ℝ) * r * r * Real.log T + gtDiff n 1 * r * r + gtDiff n 2 * r * Real.log T + gtDiff n 3 * r +
      gtDiff n 4 * Real.log T + gtDiff n 5 ≤ 0 := by
  unfold LogConvexAt
  rw [gtJval_eq T r n (by omega), gtJval_eq T r (n - 1) (by omega), gtJval_eq T r (n + 1) (by omega), ← Real.exp_nat_mul, ← Real.exp_add,
    Real.exp_le_exp, ← sub_nonpos]
  have e : ∀ k i, (((gtRow k).getD i 0 : ℚ) : ℝ) = gtQ k i := fun _ _ => rfl
  unfold gtExponent coef gtDiff
  simp only [e]
  push_cast
  constructor <;> intro h <;> linarith

/-- A quadratic that is not positive between zero and one, by its value at zero and its growth. -/
theorem quad_nonpos (a b c r : ℝ) (h0 : 0 ≤ r) (h1 : r ≤ 1) (hc : c ≤ 0) (hs : a + b + c ≤ 0) (hd : 0 ≤ a ∨ b + 2 * c ≤ 0) :
    a * (r * r) + b * r + c ≤ 0 := by
  rcases hd with ha | hb
  · nlinarith [mul_nonneg ha (mul_nonneg h0 (sub_nonneg.2 h1)), mul_nonneg h0 (sub_nonneg.2 hs), mul_nonneg (sub_nonneg.2 h1) (sub_nonneg.2 hc)]
  · nlinarith [mul_nonneg h0 (sub_nonneg.2 h1), mul_nonneg (mul_nonneg h0 (sub_nonneg.2 h1)) (sub_nonneg.2 hb),
      mul_nonneg (mul_self_nonneg r) (sub_nonneg.2 hs), mul_nonneg (mul_self_nonneg (1 - r)) (sub_nonneg.2 hc)]

/-- The check of the table. -/
def gtRowOk (n : ℤ) : Bool :=
  let ok := fun l : ℚ =>
    let a := gtDiff n 0 * l + gtDiff n 1
    let b := gtDiff n 2 * l + gtDiff n 3
    let c := gtDiff n 4 * l + gtDiff n 5
    decide (c ≤ 0) && decide (a + b + c ≤ 0) && (decide (0 ≤ a) || decide (b + 2 * c ≤ 0))
  ok (-2 / 5) && ok 2

theorem gtRowOk_all : ∀ i : Fin 31, (i.val ≤ 10 ∨ (14 ≤ i.val ∧ i.val ≤ 18) ∨ (27 ≤ i.val)) → gtRowOk ((i.val : ℤ) + 5) = true := by
  decide +kernel

theorem gtRowOk_convex (T r : ℝ) (hT : 0.7 ≤ T) (hT' : T ≤ 7) (h0 : 0 ≤ r) (h1 : r ≤ 1) (n : ℤ) (hn : gtRowOk n = true) :
    (gtDiff n 0 : ℝ) * r * r * Real.log T + gtDiff n 1 * r * r + gtDiff n 2 * r * Real.log T + gtDiff n 3 * r +
      gtDiff n 4 * Real.log T + gtDiff n 5 ≤ 0 := by
  have l1 : -2 / 5 ≤ Real.log T := by
    rw [Real.le_log_iff_exp_le (by linarith)]
    have h := Real.exp_one_gt_d9
    have e : Real.exp (-2 / 5) ^ 5 = (Real.exp 1 ^ 2)⁻¹ := by
      rw [← Real.exp_nat_mul, ← Real.exp_nat_mul, ← Real.exp_neg]; norm_num
    have h2 : Real.exp (-2 / 5) ^ 5 ≤ 0.7 ^ 5 := by
      rw [e]
      have : (7.3 : ℝ) ≤ Real.exp 1 ^ 2 := by nlinarith
      exact (inv_anti₀ (by norm_num) this).trans (by norm_num)
    exact ((pow_le_pow_iff_left₀ (Real.exp_pos _).le (by norm_num) (by norm_num)).1 h2).trans hT
  have l2 : Real.log T ≤ 2 := by
    rw [Real.log_le_iff_le_exp (by linarith)]
    have h := Real.exp_one_gt_d9
    have e : Real.exp 2 = Real.exp 1 ^ 2 := by rw [← Real.exp_nat_mul]; norm_num
    rw [e]; nlinarith
  have key : ∀ l : ℚ, (gtDiff n 4 * l + gtDiff n 5 ≤ 0) → (gtDiff n 0 * l + gtDiff n 1 + (gtDiff n 2 * l + gtDiff n 3) + (gtDiff n 4 * l + gtDiff n 5) ≤ 0) →
      (0 ≤ gtDiff n 0 * l + gtDiff n 1 ∨ gtDiff n 2 * l + gtDiff n 3 + 2 * (gtDiff n 4 * l + gtDiff n 5) ≤ 0) →
      ((gtDiff n 0 : ℝ) * l + gtDiff n 1) * (r * r) + ((gtDiff n 2 : ℝ) * l + gtDiff n 3) * r + ((gtDiff n 4 : ℝ) * l + gtDiff n 5) ≤ 0 := by
    intro l a1 a2 a3
    refine quad_nonpos _ _ _ r h0 h1 (by exact_mod_cast a1) (by exact_mod_cast a2) ?_
    rcases a3 with a3 | a3
    · left; exact_mod_cast a3
    · right; exact_mod_cast a3
  simp only [gtRowOk, Bool.and_eq_true, Bool.or_eq_true, decide_eq_true_eq] at hn
  obtain ⟨⟨⟨b1, b2⟩, b3⟩, ⟨c1, c2⟩, c3⟩ := hn
  have k1 := key _ b1 b2 b3
  have k2 := key _ c1 c2 c3
  push_cast at k1 k2
  nlinarith [mul_nonneg (sub_nonneg.2 l1) (neg_nonneg.2 k2), mul_nonneg (sub_nonneg.2 l2) (neg_nonneg.2 k1)]

/-- **The `J⁽ⁿ⁾` of Gubbins and Twu are log-convex in `n`, as the integrals they stand for are** (partial: for the `n` that do not
involve the rows of 17 and of 30, at reduced temperatures from 0.7 to 7 and reduced densities up to 1). -/
theorem gtJ_logconvex_partial (T r : ℝ) (hT : 0.7 ≤ T) (hT' : T ≤ 7) (h0 : 0 ≤ r) (h1 : r ≤ 1) (n : ℤ)
    (h : (5 ≤ n ∧ n ≤ 15) ∨ (19 ≤ n ∧ n ≤ 23) ∨ (32 ≤ n ∧ n ≤ 35)) : LogConvexAt (gtJval T r) n := by
  rw [gtJ_logconvex_iff T r n (by omega)]
  apply gtRowOk_convex T r hT hT' h0 h1
  have := gtRowOk_all ⟨(n - 5).toNat, by omega⟩ (by simp only; omega)
  simp only [Int.toNat_of_nonneg (show 0 ≤ n - 5 by omega), sub_add_cancel] at this
  exact this

example : LogConvexAt (gtJval 1.5 0.8) 15 := gtJ_logconvex_partial _ _ (by norm_num) (by norm_num) (by norm_num) (by norm_num) _ (by norm_num)

/-- **The rows of 17 and of 30 cannot be those of such an integral**: with them, and already at a reduced temperature of 3 and a
reduced density of 0.8, the values at 16, 18 and 31 exceed the geometric means of their neighbours. -/
theorem gtJ_rows_wrong (T r : ℝ) (hT : 3 ≤ T) (h0 : 0.8 ≤ r) (h1 : r ≤ 1) :
    ¬ LogConvexAt (gtJval T r) 16 ∧ ¬ LogConvexAt (gtJval T r) 18 ∧ ¬ LogConvexAt (gtJval T r) 31 := by
  have l1 : 1 ≤ Real.log T := by
    rw [Real.le_log_iff_exp_le (by linarith)]
    have := Real.exp_one_lt_d9
    linarith
  have d16 : gtDiff 16 0 = 0.088139 ∧ gtDiff 16 1 = 0.003426 ∧ gtDiff 16 2 = 0.002669 ∧ gtDiff 16 3 = -0.001648 ∧
    gtDiff 16 4 = -0.001952 ∧ gtDiff 16 5 = -0.005873 := by decide +kernel
  have d18 : gtDiff 18 0 = 0.088115 ∧ gtDiff 18 1 = 0.002794 ∧ gtDiff 18 2 = 0.002559 ∧ gtDiff 18 3 = -0.001512 ∧
    gtDiff 18 4 = -0.001672 ∧ gtDiff 18 5 = -0.00487 := by decide +kernel
  have d31 : gtDiff 31 0 = 0.59969 ∧ gtDiff 31 1 = 0.000424 ∧ gtDiff 31 2 = 0.000206 ∧ gtDiff 31 3 = 0.00016 ∧
    gtDiff 31 4 = -0.000271 ∧ gtDiff 31 5 = -0.002788 := by decide +kernel
  have hr : 0.64 ≤ r * r := by nlinarith
  have hrl : 0.64 * Real.log T ≤ r * r * Real.log T := mul_le_mul_of_nonneg_right hr (by linarith)
  have hrl' : 0.8 * Real.log T ≤ r * Real.log T := mul_le_mul_of_nonneg_right h0 (by linarith)
  refine ⟨?_, ?_, ?_⟩
  · rw [gtJ_logconvex_iff T r 16 (by norm_num), d16.1, d16.2.1, d16.2.2.1, d16.2.2.2.1, d16.2.2.2.2.1, d16.2.2.2.2.2]
    push_cast
    nlinarith
  · rw [gtJ_logconvex_iff T r 18 (by norm_num), d18.1, d18.2.1, d18.2.2.1, d18.2.2.2.1, d18.2.2.2.2.1, d18.2.2.2.2.2]
    push_cast
    nlinarith
  · rw [gtJ_logconvex_iff T r 31 (by norm_num), d31.1, d31.2.1, d31.2.2.1, d31.2.2.2.1, d31.2.2.2.2.1, d31.2.2.2.2.2]
    push_cast
    nlinarith

example : ¬ LogConvexAt (gtJval 3 0.8) 31 := (gtJ_rows_wrong 3 0.8 le_rfl le_rfl (by norm_num)).2.2

end Teqp.Props

import Verif.Props.CorrConvex
import Mathlib.Analysis.SpecialFunctions.Pow.Continuity
import Mathlib.Analysis.SpecialFunctions.Log.Basic

/-! # The values of the correlation integrals -/

set_option autoImplicit false

namespace Teqp.Props
open Teqp.Model Filter Topology

/-! ## Every contribution finds its integrals -/

/-- **The integrals of a multipolar contribution can be built from each of the three families.** -/
theorem mp_built : (∃ o, mpBuild luckasFamily = .ok o) ∧ (∃ o, mpBuild gtFamily = .ok o) ∧ ∃ o, mpBuild gottFamily = .ok o :=
  ⟨⟨_, rfl⟩, ⟨_, rfl⟩, ⟨_, rfl⟩⟩

/-- The integrals of Gubbins and Twu as plain functions. -/
noncomputable def gtIntegrals : MPIntegrals where
  J n T r := Real.exp (gtExponent (gtRow n) T r)
  K222 T r := Real.exp (gtExponent [-1.050534, 1.747476, 1.749366, -1.999227, -0.661046, -3.02872] T r)
  K233 T r := Real.exp (gtExponent [-1.30955, 2.24912, 2.135877, -2.27853, -0.773166, -3.70469] T r)
  K334 T r := -Real.exp (gtExponent [-1.490116, 2.619997, 2.404319, -2.420706, -0.829466, -3.930928] T r)
  K444 T r := Real.exp (gtExponent [-1.616385, 2.881007, 2.5776, -2.48499, -0.828596, -4.175589] T r)

/-- **What the members built from Gubbins and Twu's correlations return at a positive temperature**: positive numbers, with the
exception of `K(334, 445)`, which is negative. -/
theorem gt_members (o : MPObjects) (ho : mpBuild gtFamily = .ok o) (T r : ℝ) (hT : 0 < T) : o.Are gtIntegrals T r := by
  have e : mpBuild gtFamily = .ok ⟨GTJ.get ⟨6, gtRow 6⟩, GTJ.get ⟨8, gtRow 8⟩, GTJ.get ⟨10, gtRow 10⟩, GTJ.get ⟨11, gtRow 11⟩,
      GTJ.get ⟨13, gtRow 13⟩, GTJ.get ⟨15, gtRow 15⟩,
      GTK.get ⟨222, 333, [-1.050534, 1.747476, 1.749366, -1.999227, -0.661046, -3.02872], if (222 : ℤ) = 334 ∧ (333 : ℤ) = 445 then -1 else 1⟩,
      GTK.get ⟨233, 344, [-1.30955, 2.24912, 2.135877, -2.27853, -0.773166, -3.70469], if (233 : ℤ) = 334 ∧ (344 : ℤ) = 445 then -1 else 1⟩,
      GTK.get ⟨334, 445, [-1.490116, 2.619997, 2.404319, -2.420706, -0.829466, -3.930928], if (334 : ℤ) = 334 ∧ (445 : ℤ) = 445 then -1 else 1⟩,
      GTK.get ⟨444, 555, [-1.616385, 2.881007, 2.5776, -2.48499, -0.828596, -4.175589], if (444 : ℤ) = 334 ∧ (555 : ℤ) = 445 then -1 else 1⟩⟩ := by
    rfl
  rw [e] at ho
  have := (Outcome.ok.inj ho).symm
  subst this
  have hT' := not_le.2 hT
  refine ⟨?_, ?_, ?_, ?_, ?_, ?_, ?_, ?_, ?_, ?_⟩ <;> simp [GTJ.get, GTK.get, gtIntegrals, hT]

/-! ## The layout of Gottschalk's coefficients -/

/-- A row made of two matrices, one row of them after another. -/
def rowOf {m k l : ℕ} (a : Fin m → Fin k → ℚ) (b : Fin m → Fin l → ℚ) : List ℚ :=
  (List.ofFn fun i => List.ofFn (a i)).flatten ++ (List.ofFn fun i => List.ofFn (b i)).flatten

/-- **The 35 coefficients of a `J` of Gottschalk are read as a 5 by 4 and a 5 by 3 matrix**, each once and none beyond the end. -/
theorem gottJ_layout (a : Fin 5 → Fin 4 → ℚ) (b : Fin 5 → Fin 3 → ℚ) (T r : ℝ) : gottJSum (rowOf a b) T r =
    (∑ i, ∑ j, (a i j : ℝ) * r ^ (i : ℕ) * T ^ (j : ℕ)) + (∑ i, ∑ j, (b i j : ℝ) * r ^ (i : ℕ) * T ^ (j : ℕ)) * Real.exp (1 / T) ∧
    (rowOf a b).length = 35 := by
  constructor
  · simp only [gottJSum, Finset.sum_range_succ, Finset.sum_range_zero, Fin.sum_univ_succ, Fin.sum_univ_zero, rowOf, List.ofFn_succ, List.ofFn_zero,
      coef]
    simp
    ring
  · simp [rowOf]

/-- **The 40 coefficients of a `K` of Gottschalk are read as two 4 by 2 matrices and a 6 by 4 matrix.** -/
theorem gottK_layout (a b : Fin 4 → Fin 2 → ℚ) (c : Fin 6 → Fin 4 → ℚ) (T r : ℝ) :
    gottKSum (rowOf a b ++ (List.ofFn fun i => List.ofFn (c i)).flatten) T r =
    (∑ i, ∑ j, (a i j : ℝ) * r ^ (i : ℕ) * Real.exp ((1 - r / 3) / T) ^ ((j : ℕ) + 1)) +
    (∑ i, ∑ j, (b i j : ℝ) * r ^ (i : ℕ) * Real.exp ((1 - r / 3) ^ 2 / T) ^ ((j : ℕ) + 1)) +
    (∑ i, ∑ j, (c i j : ℝ) * r ^ (i : ℕ) * T ^ (j : ℕ)) ∧
    (rowOf a b ++ (List.ofFn fun i => List.ofFn (c i)).flatten).length = 40 := by
  have h2 : Finset.Icc 1 2 = ({1, 2} : Finset ℕ) := by decide
  constructor
  · simp only [gottKSum, Finset.sum_range_succ, Finset.sum_range_zero, Fin.sum_univ_succ, Fin.sum_univ_zero, rowOf, List.ofFn_succ, List.ofFn_zero,
      coef, h2, Finset.sum_pair (show (1 : ℕ) ≠ 2 by decide), ← sq (1 - r / 3)]
    simp
    ring
  · simp [rowOf]

example : gottJSum (rowOf (fun _ _ => 1 : Fin 5 → Fin 4 → ℚ) (fun _ _ => 0 : Fin 5 → Fin 3 → ℚ)) 2 1 = 75 := by
  rw [(gottJ_layout _ _ _ _).1]
  simp [Fin.sum_univ_succ]
  norm_num

/-! ## The integrals of Luckas -/

/-- Lemma: the exponential of Luckas's `J` without the quotients by zero. -/
theorem luckasBoltz_eq (T r : ℝ) (hT : 0 < T) (hr : 0 < r) : luckasBoltz T r =
    Real.exp (|Real.log (r / Real.sqrt 2)| ^ 3 / (T * |Real.log (r / Real.sqrt 2)| ^ 3 + 4)) := by
  unfold luckasBoltz
  rw [if_neg hr.ne']
  have h2 : (0 : ℝ) < Real.sqrt 2 := Real.sqrt_pos.2 (by norm_num)
  by_cases h : r = Real.sqrt 2
  · rw [if_pos h, h, div_self h2.ne', Real.log_one]
    norm_num
  · rw [if_neg h]
    have hl : Real.log (r / Real.sqrt 2) ≠ 0 := by
      apply Real.log_ne_zero_of_pos_of_ne_one (div_pos hr h2)
      intro h1
      rw [div_eq_one_iff_eq h2.ne'] at h1
      exact h h1
    have hp : 0 < |Real.log (r / Real.sqrt 2)| ^ 3 := pow_pos (abs_pos.2 hl) 3
    rw [Real.sqrt_mul_self_eq_abs]
    congr 1
    have : T + 4 / |Real.log (r / Real.sqrt 2)| ^ 3 = (T * |Real.log (r / Real.sqrt 2)| ^ 3 + 4) / |Real.log (r / Real.sqrt 2)| ^ 3 := by
      field_simp
    rw [this, one_div_div]

/-- Lemma: the exponential is continuous in the density, also at the two densities where the formula divides by zero. -/
theorem luckasBoltz_continuous (T : ℝ) (hT : 0 < T) : ContinuousOn (luckasBoltz T) (Set.Ici 0) := by
  have h2 : (0 : ℝ) < Real.sqrt 2 := Real.sqrt_pos.2 (by norm_num)
  intro r hr
  rcases eq_or_lt_of_le (show (0 : ℝ) ≤ r from hr) with h0 | h0
  · subst h0
    rw [← continuousWithinAt_Ioi_iff_Ici, ContinuousWithinAt]
    have e0 : luckasBoltz T 0 = Real.exp (1 / (T + 4 * 0)) := by
      unfold luckasBoltz
      rw [if_pos rfl, mul_zero, add_zero]
    rw [e0]
    have t1 : Tendsto (fun r : ℝ => r / Real.sqrt 2) (𝓝[>] 0) (𝓝[>] 0) := by
      apply tendsto_nhdsWithin_of_tendsto_nhds_of_eventually_within
      · have : Tendsto (fun r : ℝ => r / Real.sqrt 2) (𝓝 0) (𝓝 (0 / Real.sqrt 2)) := tendsto_id.div_const _
        rw [zero_div] at this
        exact this.mono_left nhdsWithin_le_nhds
      · filter_upwards [self_mem_nhdsWithin] with x hx
        exact div_pos hx h2
    have t2 : Tendsto (fun r : ℝ => |Real.log (r / Real.sqrt 2)| ^ 3) (𝓝[>] 0) atTop :=
      (tendsto_pow_atTop (by norm_num)).comp (tendsto_abs_atBot_atTop.comp (Real.tendsto_log_nhdsGT_zero.comp t1))
    have t3 : Tendsto (fun r : ℝ => Real.exp (1 / (T + 4 * (|Real.log (r / Real.sqrt 2)| ^ 3)⁻¹))) (𝓝[>] 0) (𝓝 (Real.exp (1 / (T + 4 * 0)))) :=
      Real.continuous_exp.continuousAt.tendsto.comp
        (tendsto_const_nhds.div (tendsto_const_nhds.add (tendsto_const_nhds.mul (tendsto_inv_atTop_zero.comp t2))) (by simp [hT.ne']))
    refine t3.congr' ?_
    filter_upwards [Ioo_mem_nhdsGT h2] with x hx
    unfold luckasBoltz
    rw [if_neg hx.1.ne', if_neg hx.2.ne, Real.sqrt_mul_self_eq_abs, div_eq_mul_inv 4]
  · apply ContinuousAt.continuousWithinAt
    have hc : ContinuousAt (fun r => Real.exp (|Real.log (r / Real.sqrt 2)| ^ 3 / (T * |Real.log (r / Real.sqrt 2)| ^ 3 + 4))) r := by
      have hd : ContinuousAt (fun r : ℝ => r / Real.sqrt 2) r := continuousAt_id.div_const _
      have hl : ContinuousAt (fun r => |Real.log (r / Real.sqrt 2)| ^ 3) r :=
        (ContinuousAt.comp' (f := fun r : ℝ => r / Real.sqrt 2) (Real.continuousAt_log (div_pos h0 h2).ne') hd).abs.pow 3
      exact Real.continuous_exp.continuousAt.comp' (hl.div ((continuousAt_const.mul hl).add continuousAt_const) (by positivity))
    refine hc.congr ?_
    filter_upwards [Ioi_mem_nhds h0] with x hx
    exact (luckasBoltz_eq T x hT hx).symm

/-- **The `J⁽ⁿ⁾` of Luckas is a continuous function of the density from zero on**, also at zero and at `√2`, where the formula of
the code takes the logarithm of zero and divides by zero. -/
theorem luckasJ_continuous (o : LuckasJ) (T : ℝ) (hT : 0 < T) : ∃ f : ℝ → ℝ, ContinuousOn f (Set.Ici 0) ∧ (∀ r, 0 ≤ r → o.get T r = .ok (f r)) ∧
    f 0 = (coef o.a 0 + coef o.a 1 * T ^ (0.3 + 0.05 * (o.n : ℝ)) + coef o.a 2 * T ^ (1 / (o.n : ℝ))) * Real.exp (1 / T) := by
  refine ⟨fun r => (densPoly o.a 3 0 r + densPoly o.a 3 1 r * T ^ (0.3 + 0.05 * (o.n : ℝ)) + densPoly o.a 3 2 r * T ^ (1 / (o.n : ℝ))) *
    luckasBoltz T r, ?_, ?_, ?_⟩
  · apply ContinuousOn.mul
    · apply Continuous.continuousOn
      unfold densPoly
      fun_prop
    · exact luckasBoltz_continuous T hT
  · intro r hr
    unfold LuckasJ.get
    rw [if_neg]
    rintro (h | h | h)
    · linarith
    · linarith
    · exact hT.ne' h.1
  · simp [densPoly, luckasBoltz]

example : ∃ o : LuckasJ, LuckasJ.make 6 = .ok o := ⟨_, rfl⟩

/-- The form of Luckas's `K` in which the exponent is that of a Boltzmann factor, `(1 - ρ/√2)⁴/T`. -/
noncomputable def luckasKBoltz (o : LuckasK) (T r : ℝ) : ℝ :=
  densPoly o.a 4 0 r + densPoly o.a 4 1 r * T + densPoly o.a 4 2 r * Real.exp ((1 - r / Real.sqrt 2) ^ 4 / T) ^ 2 +
    densPoly o.a 4 3 r * Real.exp ((1 - r / Real.sqrt 2) ^ 4 / T) ^ 3

/-- **Luckas's `K` is that of a Boltzmann factor at a reduced temperature of one** (partial: not at any other). -/
theorem luckasK_partial (o : LuckasK) (r : ℝ) : o.get 1 r = .ok (luckasKBoltz o 1 r) := by
  unfold LuckasK.get luckasKBoltz
  rw [div_one]

/-- **The temperature enters Luckas's `K` only by a linear term**: the code leaves it out of the exponents. -/
theorem luckasK_affine (o : LuckasK) (T S r : ℝ) : ∃ x y, o.get T r = .ok x ∧ o.get S r = .ok y ∧ x - y = densPoly o.a 4 1 r * (T - S) :=
  ⟨_, _, rfl, rfl, by ring⟩

/-- Lemma: the values at zero density. -/
theorem luckasK_zero (o : LuckasK) (T : ℝ) :
    o.get T 0 = .ok (coef o.a 0 + coef o.a 1 * T + coef o.a 2 * Real.exp 1 ^ 2 + coef o.a 3 * Real.exp 1 ^ 3) := by
  unfold LuckasK.get densPoly
  norm_num

theorem gtK_zero (o : GTK) (T : ℝ) (hT : 0 < T) : o.get T 0 = .ok (o.sign * Real.exp (coef o.a 4 * Real.log T + coef o.a 5)) := by
  unfold GTK.get gtExponent
  rw [if_neg (not_le.2 hT)]
  norm_num

/-- The row of `K(222, 333)` of Luckas. -/
def luckasK222 : LuckasK := ⟨222, 333, [1.23746712e-2, 1.90127007e-4, 5.9286148e-3, 1.88387469e-4, 1.5149909e-1, -4.03661304e-3, -1.71653218e-1,
  7.44958473e-2, 4.61939219e-1, 7.6152754e-3, -1.30641988, 7.63483402e-1, 7.36061418e-3, -3.14115085e-3, -2.62332295e-1, 2.9906115e-1]⟩

theorem luckasK222_made : LuckasK.make 222 333 = .ok luckasK222 := by rfl

/-- The row of `K(222, 333)` of Gubbins and Twu. -/
noncomputable def gtK222 : GTK := ⟨222, 333, [-1.050534, 1.747476, 1.749366, -1.999227, -0.661046, -3.02872], 1⟩

theorem gtK222_made : GTK.make 222 333 = .ok gtK222 := by
  have : GTK.make 222 333 = .ok ⟨222, 333, [-1.050534, 1.747476, 1.749366, -1.999227, -0.661046, -3.02872],
    if (222 : ℤ) = 334 ∧ (333 : ℤ) = 445 then -1 else 1⟩ := rfl
  rw [this, if_neg (by decide)]
  rfl

/-- **At zero density Luckas's `K(222, 333)` rises with the temperature, Gubbins and Twu's falls.** -/
theorem luckasK_rises (T S : ℝ) (hS : 0 < S) (h : S < T) : ∃ o p x y u v, LuckasK.make 222 333 = .ok o ∧ GTK.make 222 333 = .ok p ∧
    o.get T 0 = .ok x ∧ o.get S 0 = .ok y ∧ y < x ∧ p.get T 0 = .ok u ∧ p.get S 0 = .ok v ∧ u < v := by
  refine ⟨luckasK222, gtK222, _, _, _, _, luckasK222_made, gtK222_made, luckasK_zero _ _, luckasK_zero _ _, ?_, gtK_zero _ _ (hS.trans h),
    gtK_zero _ _ hS, ?_⟩
  · simp only [coef, luckasK222, List.getD_cons_succ, List.getD_cons_zero]
    push_cast
    linarith
  · have := Real.log_lt_log hS h
    simp only [coef, gtK222, List.getD_cons_succ, List.getD_cons_zero, one_mul]
    rw [Real.exp_lt_exp]
    push_cast
    linarith

example := luckasK_rises 4 1 (by norm_num) (by norm_num)

/-- **The correlations of `K(222, 333)` do not agree away from a reduced temperature of one**: at a reduced temperature of 4 and
zero density those of Luckas and of Gubbins and Twu differ by more than half of the former (the margin of the tests, which compare
them near one), while the form with the temperature in the exponent would be within it. -/
theorem luckasK_disagrees : ∃ o p x u, LuckasK.make 222 333 = .ok o ∧ GTK.make 222 333 = .ok p ∧ o.get 4 0 = .ok x ∧ p.get 4 0 = .ok u ∧
    |x| / 2 < |x - u| ∧ |luckasKBoltz o 4 0 - u| < |luckasKBoltz o 4 0| / 2 := by
  have l4 : Real.log 4 = 2 * Real.log 2 := by
    rw [show (4 : ℝ) = 2 ^ 2 by norm_num, Real.log_pow]; norm_num
  have hl1 := Real.log_two_gt_d9
  have hl2 := Real.log_two_lt_d9
  have he1 := Real.exp_one_gt_d9
  have he2 := Real.exp_one_lt_d9
  set e := Real.exp 1 with he
  -- the value of Gubbins and Twu is between 0.018 and 0.021
  have hu : ∃ u, u = Real.exp (-0.661046 * Real.log 4 + -3.02872) ∧ 0.018 < u ∧ u < 0.021 := by
    refine ⟨_, rfl, ?_, ?_⟩
    · have h1 : Real.exp (-4) ≤ Real.exp (-0.661046 * Real.log 4 + -3.02872) := Real.exp_le_exp.2 (by rw [l4]; linarith)
      have h2 : Real.exp (-4) = (e ^ 4)⁻¹ := by rw [Real.exp_neg, he, ← Real.exp_nat_mul]; norm_num
      have h3 : e ^ 4 < 55 := by
        have : e ^ 2 < 7.39 := by nlinarith
        nlinarith [sq_nonneg e]
      have h4 : (55 : ℝ)⁻¹ < (e ^ 4)⁻¹ := inv_strictAnti₀ (by positivity) h3
      rw [h2] at h1
      have : (0.018 : ℝ) < 55⁻¹ := by norm_num
      linarith
    · have h1 : Real.exp (-0.661046 * Real.log 4 + -3.02872) ≤ Real.exp (-3.9) := Real.exp_le_exp.2 (by rw [l4]; linarith)
      have h2 : Real.exp (-3.9) ^ 10 = (e ^ 39)⁻¹ := by rw [← Real.exp_nat_mul, he, ← Real.exp_nat_mul, ← Real.exp_neg]; norm_num
      have h3 : (2.718 : ℝ) ^ 39 < e ^ 39 := pow_lt_pow_left₀ (by linarith) (by norm_num) (by norm_num)
      have h4 : Real.exp (-3.9) ^ 10 < 0.021 ^ 10 := by
        rw [h2]
        exact (inv_strictAnti₀ (by positivity) h3).trans (by norm_num)
      exact h1.trans_lt (lt_of_pow_lt_pow_left₀ 10 (by norm_num) h4)
  obtain ⟨u, hue, hu1, hu2⟩ := hu
  refine ⟨luckasK222, gtK222, _, u, luckasK222_made, gtK222_made, luckasK_zero _ _, ?_, ?_, ?_⟩
  · rw [gtK_zero _ _ (by norm_num), hue]
    simp only [coef, gtK222, List.getD_cons_succ, List.getD_cons_zero, one_mul]
    push_cast
    rfl
  · simp only [coef, luckasK222, List.getD_cons_succ, List.getD_cons_zero]
    push_cast
    rw [← he]
    have h2 : 7.38 < e ^ 2 := by nlinarith
    have h3 : 20 < e ^ 3 := by nlinarith
    rw [abs_of_pos (by linarith), abs_of_pos (by linarith)]
    linarith
  · have hv : luckasKBoltz luckasK222 4 0 = 1.23746712e-2 + 1.90127007e-4 * 4 + 5.9286148e-3 * Real.exp (1 / 4) ^ 2 +
        1.88387469e-4 * Real.exp (1 / 4) ^ 3 := by
      simp only [luckasKBoltz, densPoly, coef, luckasK222, List.getD_cons_succ, List.getD_cons_zero]
      norm_num
    have hq : Real.exp (1 / 4) ^ 4 = e := by rw [← Real.exp_nat_mul, he]; norm_num
    have hq0 : 0 < Real.exp (1 / 4) := Real.exp_pos _
    have q1 : 1.28 < Real.exp (1 / 4) := lt_of_pow_lt_pow_left₀ 4 hq0.le (by rw [hq]; norm_num; linarith)
    have q2 : Real.exp (1 / 4) < 1.29 := lt_of_pow_lt_pow_left₀ 4 (by norm_num) (by rw [hq]; norm_num; linarith)
    rw [hv]
    set q := Real.exp (1 / 4)
    have q3 : 1.6384 < q ^ 2 := by nlinarith
    have q4 : q ^ 2 < 1.6641 := by nlinarith
    have q5 : 2 < q ^ 3 := by nlinarith
    have q6 : q ^ 3 < 2.2 := by nlinarith
    rw [abs_of_pos (a := 1.23746712e-2 + 1.90127007e-4 * 4 + 5.9286148e-3 * q ^ 2 + 1.88387469e-4 * q ^ 3) (by nlinarith), abs_lt]
    constructor <;> norm_num at * <;> linarith

end Teqp.Props

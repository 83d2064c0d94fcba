import Verif.Props.CorrSign
import Mathlib.Analysis.Complex.ExponentialBounds
import Mathlib.Tactic

/-! # Signs of Gottschalk's integrals (C148) -/

set_option autoImplicit false

namespace Teqp.Props
open Teqp Teqp.Model Finset

/-- The row of `K(222, 333)` of Gottschalk. -/
def gottK222 : GottK := ⟨(2, 2, 2), (3, 3, 3), [5.42444082407911, 1.99461721851827, -7.79943499574988, -5.9530642335589, 1.14672051901995, 5.96687355992124, 1.57892985819129,
    -1.99235454796223, -5.41856353157736, -1.99001117059474, 1.08221237311497e1, 2.88930400287336, -7.71557411635195, 5.18908612078444e-3,
    2.12180709078436, -1.09482382065437, 6.3690981632359e-3, 2.79472187550309e-4, 1.92082140326594e-6, -1.74086067501819e-7,
    3.92286590760404e-2, 2.0191479951826e-3, -1.24074155157559e-4, 2.80164785188307e-6, 6.19238462016263e-1, 7.17311000046791e-4,
    -4.51094217237624e-5, -2.01742036513682e-7, -5.55505371928574e-1, -1.49546202491092e-2, 9.02847562166521e-4, -1.62118687038889e-5,
    -9.31563262615475e-2, 1.93800947967539e-2, -1.18316966937579e-3, 2.24359377558566e-5, 3.31240818053268e-2, -6.81951409579061e-3,
    4.25234801807147e-4, -8.28079417586071e-6]⟩

/-- The row of `K(334, 445)` of Gottschalk. -/
def gottK334 : GottK := ⟨(3, 3, 4), (4, 4, 5), [-4.21691301848977, -1.1643932528082, 6.03076249607683, 3.31749501933008, -1.38852182725105, -3.1892464336882, -6.77570732417047e-1,
    1.0265935420059, 4.21819503000668, 1.16111673692155, -7.72636214133521, -1.38976901618504, 4.81781255315698, -2.2372474832562e-1,
    -1.1452685881765, 5.75038384512084e-1, -3.13798823141918e-3, -1.55466617345853e-4, -7.3787141269605e-6, 2.64062708357487e-7,
    -2.27498081628574e-1, -2.18661192717513e-3, 1.5332354859284e-4, -3.79011880542242e-6, -4.49432271819262e-2, 3.5109473329494e-3,
    -3.41099016003576e-4, 9.87987234529542e-6, 2.17337788297072e-1, 2.66965317505575e-4, 1.86202219962895e-4, -8.77928754274318e-6,
    2.29602946730767e-2, -4.42138580395699e-3, 1.29829969955861e-4, 1.05666955361128e-6, -1.09807185048123e-2, 2.12266918209122e-3,
    -9.64983334262941e-5, 9.97183436130033e-7]⟩

/-- The row of `J(11)` of Gottschalk. -/
def gottJ11 : GottJ := ⟨11, [1.107926913749, 1.63731143991712, 3.07487098564526, 4.21496516230401e-6, 2.00467333231261e1, 9.00564035881871e1, 1.56102294591843e2,
    -2.61090947624051e-5, -4.60131645751558e1, -1.96073167609769e2, -3.26376103924355e2, 7.89041513227051e-5, 2.81092322295592e1,
    9.56633853796457e1, 1.31144042205758e2, -8.02744322817779e-5, -1.26915685892609e-1, 1.9698758214715e1, 5.62497567494725e1,
    2.55720053847567e-5, -1.91014790095454e-1, 1.44659349566085, -3.07515161447037, -7.76278927093104, 6.6018619311424e1, -1.56100909447001e2,
    1.25327480671979e1, -1.30223970379329e2, 3.26371966219433e2, 2.59922862413025, 3.54011696824408e1, -1.31139848207573e2, -8.48890760878314,
    3.65757530391343e1, -5.62510821344157e1]⟩

theorem gottK222_made : GottK.make 222 333 = .ok gottK222 := by rfl
theorem gottK334_made : GottK.make 334 445 = .ok gottK334 := by rfl
theorem gottJ11_made : GottJ.make 11 = .ok gottJ11 := by rfl


theorem exp_six_fifths : 3.3201169 < Real.exp (6 / 5) ∧ Real.exp (6 / 5) < 3.3201170 := by
  have e : Real.exp (6 / 5) ^ 5 = Real.exp 1 ^ 6 := by rw [← Real.exp_nat_mul, ← Real.exp_nat_mul]; norm_num
  constructor
  · refine lt_of_pow_lt_pow_left₀ 5 (Real.exp_pos _).le ?_
    rw [e]
    refine lt_trans ?_ (pow_lt_pow_left₀ Real.exp_one_gt_d9 (by norm_num) (show 6 ≠ 0 by norm_num))
    norm_num
  · refine lt_of_pow_lt_pow_left₀ 5 (by norm_num) ?_
    rw [e]
    refine (pow_lt_pow_left₀ Real.exp_one_lt_d9 (Real.exp_pos 1).le (show 6 ≠ 0 by norm_num)).trans ?_
    norm_num

theorem exp_18_25 : 2.0544332 < Real.exp (18 / 25) ∧ Real.exp (18 / 25) < 2.0544333 := by
  have e : Real.exp (18 / 25) ^ 25 = Real.exp 1 ^ 18 := by rw [← Real.exp_nat_mul, ← Real.exp_nat_mul]; norm_num
  constructor
  · refine lt_of_pow_lt_pow_left₀ 25 (Real.exp_pos _).le ?_
    rw [e]
    refine lt_trans ?_ (pow_lt_pow_left₀ Real.exp_one_gt_d9 (by norm_num) (show 18 ≠ 0 by norm_num))
    norm_num
  · refine lt_of_pow_lt_pow_left₀ 25 (by norm_num) ?_
    rw [e]
    refine (pow_lt_pow_left₀ Real.exp_one_lt_d9 (Real.exp_pos 1).le (show 18 ≠ 0 by norm_num)).trans ?_
    norm_num

theorem sq_bounds {x l u : ℝ} (hl : 0 < l) (h1 : l < x) (h2 : x < u) : l ^ 2 < x ^ 2 ∧ x ^ 2 < u ^ 2 :=
  ⟨pow_lt_pow_left₀ h1 hl.le two_ne_zero, pow_lt_pow_left₀ h2 (hl.trans h1).le two_ne_zero⟩

/-- The sum at a reduced temperature of one half and a reduced density of 6/5, with the exponentials as two numbers. -/
theorem gottK_dense (abc : List ℚ) : gottKSum abc (1 / 2) (6 / 5) =
    (∑ i ∈ range 4, coef abc (2 * i) * (6 / 5) ^ i) * Real.exp (6 / 5) + (∑ i ∈ range 4, coef abc (2 * i + 1) * (6 / 5) ^ i) * Real.exp (6 / 5) ^ 2 +
    (∑ i ∈ range 4, coef abc (8 + 2 * i) * (6 / 5) ^ i) * Real.exp (18 / 25) + (∑ i ∈ range 4, coef abc (8 + 2 * i + 1) * (6 / 5) ^ i) * Real.exp (18 / 25) ^ 2 +
    ∑ i ∈ range 6, ∑ j ∈ range 4, coef abc (8 + 8 + 4 * i + j) * (6 / 5) ^ i * (1 / 2) ^ j := by
  unfold gottKSum
  have e1 : ((1 - 6 / 5 / 3) / (1 / 2) : ℝ) = 6 / 5 := by norm_num
  have e2 : ((1 - 6 / 5 / 3) * (1 - 6 / 5 / 3) / (1 / 2) : ℝ) = 18 / 25 := by norm_num
  have h12 : Finset.Icc 1 2 = ({1, 2} : Finset ℕ) := by decide
  simp only [e1, e2, h12, Finset.sum_pair (show (1 : ℕ) ≠ 2 by decide), Nat.sub_self, Nat.add_zero, pow_one, Finset.sum_add_distrib,
    show 2 - 1 = 1 from rfl, Finset.sum_mul]
  ring

/-- **Gottschalk's integrals do not have the signs presupposed either**: at a reduced temperature of one half and a reduced density of 6/5,
`K(222, 333)` is negative, `K(334, 445)` positive and `J(11)` negative. -/
theorem gott_wrong_signs : (∃ o k, GottK.make 222 333 = .ok o ∧ o.get (1 / 2) (6 / 5) = .ok k ∧ k < 0 ∧ k * k * k < 0) ∧
    (∃ o k, GottK.make 334 445 = .ok o ∧ o.get (1 / 2) (6 / 5) = .ok k ∧ 0 < k) ∧
    (∃ o v, GottJ.make 11 = .ok o ∧ o.get (1 / 2) (6 / 5) = .ok v ∧ v < 0) := by
  obtain ⟨x1, x2⟩ := exp_six_fifths
  obtain ⟨y1, y2⟩ := exp_18_25
  obtain ⟨x3, x4⟩ := sq_bounds (by norm_num) x1 x2
  obtain ⟨y3, y4⟩ := sq_bounds (by norm_num) y1 y2
  have hT : (1 / 2 : ℝ) ≠ 0 := by norm_num
  have hneg : gottKSum gottK222.abc (1 / 2) (6 / 5) < 0 := by
    rw [gottK_dense]
    generalize Real.exp (6 / 5) = X at *
    generalize Real.exp (18 / 25) = Y at *
    generalize hX2 : X ^ 2 = X2 at *
    generalize hY2 : Y ^ 2 = Y2 at *
    simp only [sum_range_succ, sum_range_zero, coef, gottK222, List.getD_cons_succ, List.getD_cons_zero]
    norm_num at *
    linarith
  have hpos : 0 < gottKSum gottK334.abc (1 / 2) (6 / 5) := by
    rw [gottK_dense]
    generalize Real.exp (6 / 5) = X at *
    generalize Real.exp (18 / 25) = Y at *
    generalize hX2 : X ^ 2 = X2 at *
    generalize hY2 : Y ^ 2 = Y2 at *
    simp only [sum_range_succ, sum_range_zero, coef, gottK334, List.getD_cons_succ, List.getD_cons_zero]
    norm_num at *
    linarith
  have hJ : gottJSum gottJ11.ab (1 / 2) (6 / 5) < 0 := by
    unfold gottJSum
    have e : Real.exp (1 / (1 / 2)) = Real.exp 1 ^ 2 := by rw [← Real.exp_nat_mul]; norm_num
    obtain ⟨z1, z2⟩ := sq_bounds (by norm_num) Real.exp_one_gt_d9 Real.exp_one_lt_d9
    rw [e]
    generalize Real.exp 1 ^ 2 = Z at *
    simp only [sum_range_succ, sum_range_zero, coef, gottJ11, List.getD_cons_succ, List.getD_cons_zero]
    norm_num at *
    linarith
  refine ⟨⟨gottK222, _, gottK222_made, by unfold GottK.get; rw [if_neg hT], hneg, by nlinarith [mul_pos_of_neg_of_neg hneg hneg]⟩,
    ⟨gottK334, _, gottK334_made, by unfold GottK.get; rw [if_neg hT], hpos⟩,
    ⟨gottJ11, _, gottJ11_made, by unfold GottJ.get; rw [if_neg hT], ?_⟩⟩
  exact Odd.zpow_neg (by decide) hJ

end Teqp.Props

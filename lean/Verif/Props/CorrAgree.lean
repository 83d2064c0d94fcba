import Verif.Props.CorrSign

/-! # The three families of correlation integrals agree at a reduced temperature of one and zero density -/

set_option autoImplicit false

namespace Teqp.Props
open Teqp.Model

theorem exp_lt_of_pow {x c : ℝ} (m k : ℕ) (hk : k ≠ 0) (hx : x * k ≤ -m) (hc : 0 ≤ c) (h : 1 < c ^ k * 2.7182818283 ^ m) : Real.exp x < c := by
  have he := Real.exp_one_gt_d9
  refine lt_of_pow_lt_pow_left₀ k hc ?_
  have e : Real.exp x ^ k = Real.exp (x * k) := by rw [← Real.exp_nat_mul, mul_comm]
  have e2 : Real.exp (-(m : ℝ)) * Real.exp 1 ^ m = 1 := by rw [← Real.exp_nat_mul, ← Real.exp_add]; norm_num
  have h1 : Real.exp (x * k) ≤ Real.exp (-(m : ℝ)) := Real.exp_le_exp.2 hx
  have h2 : (2.7182818283 : ℝ) ^ m ≤ Real.exp 1 ^ m := pow_le_pow_left₀ (by norm_num) he.le m
  rw [e]
  refine h1.trans_lt ?_
  by_contra hcon
  have hcon := not_lt.1 hcon
  have : c ^ k * 2.7182818283 ^ m ≤ 1 := by
    rw [← e2]
    exact mul_le_mul hcon h2 (by positivity) (Real.exp_pos _).le
  linarith

theorem lt_exp_of_pow {x c : ℝ} (m k : ℕ) (hk : k ≠ 0) (hx : -m ≤ x * k) (h : c ^ k * 2.7182818286 ^ m < 1) : c < Real.exp x := by
  have he := Real.exp_one_lt_d9
  refine lt_of_pow_lt_pow_left₀ k (Real.exp_pos _).le ?_
  have e : Real.exp x ^ k = Real.exp (x * k) := by rw [← Real.exp_nat_mul, mul_comm]
  have e2 : Real.exp (-(m : ℝ)) * Real.exp 1 ^ m = 1 := by rw [← Real.exp_nat_mul, ← Real.exp_add]; norm_num
  have h1 : Real.exp (-(m : ℝ)) ≤ Real.exp (x * k) := Real.exp_le_exp.2 hx
  have h2 : Real.exp 1 ^ m ≤ (2.7182818286 : ℝ) ^ m := pow_le_pow_left₀ (Real.exp_pos 1).le he.le m
  rw [e]
  refine lt_of_lt_of_le ?_ h1
  by_contra hcon
  have hcon := not_lt.1 hcon
  have : 1 ≤ c ^ k * 2.7182818286 ^ m := by
    rw [← e2]
    exact mul_le_mul hcon h2 (pow_pos (Real.exp_pos 1) m).le ((Real.exp_pos _).le.trans hcon)
  linarith

/-- Lemma: the values at a reduced temperature of one and zero density. -/
theorem gottJ_one (o : GottJ) : o.get 1 0 = .ok ((coef o.ab 0 + coef o.ab 1 + coef o.ab 2 + coef o.ab 3 +
    (coef o.ab 20 + coef o.ab 21 + coef o.ab 22) * Real.exp 1) ^ (o.n - 2)) := by
  unfold GottJ.get gottJSum
  rw [if_neg one_ne_zero]
  norm_num [Finset.sum_range_succ]
  ring

theorem gottK_one (o : GottK) : o.get 1 0 = .ok (coef o.abc 0 * Real.exp 1 + coef o.abc 1 * Real.exp 1 ^ 2 + coef o.abc 8 * Real.exp 1 +
    coef o.abc 9 * Real.exp 1 ^ 2 + coef o.abc 16 + coef o.abc 17 + coef o.abc 18 + coef o.abc 19) := by
  have h2 : Finset.Icc 1 2 = ({1, 2} : Finset ℕ) := by decide
  unfold GottK.get gottKSum
  rw [if_neg one_ne_zero]
  norm_num [Finset.sum_range_succ, h2]
  ring

theorem luckasJ_one (o : LuckasJ) : o.get 1 0 = .ok ((coef o.a 0 + coef o.a 1 + coef o.a 2) * Real.exp 1) := by
  unfold LuckasJ.get densPoly luckasBoltz
  norm_num

theorem gtJ_one (o : GTJ) : o.get 1 0 = .ok (Real.exp (coef o.a 5)) := by
  unfold GTJ.get gtExponent
  norm_num

/-- Lemma: `J6`. -/
theorem agreeJ6 : ∃ a b c u v w, LuckasJ.make 6 = .ok a ∧ GTJ.make 6 = .ok b ∧ GottJ.make 6 = .ok c ∧ a.get 1 0 = .ok u ∧ b.get 1 0 = .ok v ∧
    c.get 1 0 = .ok w ∧ |u - v| < 0.05 ∧ |w - v| < 0.05 := by
  have he1 := Real.exp_one_gt_d9
  have he2 := Real.exp_one_lt_d9
  have h1 : Real.exp (-0.538463) < 0.5889 := exp_lt_of_pow 53 100 (by norm_num) (by norm_num) (by norm_num) (by norm_num)
  have h2 : 0.58245 < Real.exp (-0.538463) := lt_exp_of_pow 54 100 (by norm_num) (by norm_num) (by norm_num)
  refine ⟨_, _, _, _, _, _, rfl, rfl, rfl, luckasJ_one _, gtJ_one _, gottJ_one _, ?_, ?_⟩
  · simp only [coef, List.getD_cons_succ, List.getD_cons_zero]
    push_cast
    rw [abs_lt]
    constructor <;> linarith
  · simp only [coef, List.getD_cons_succ, List.getD_cons_zero]
    push_cast
    have hs1 : 0.8893 < (7.84353476631425e-1 : ℝ) + (6.85720448356048e-1 : ℝ) + (1.62670627229158 : ℝ) + (2.54936277034233e-6 : ℝ) + (-1.32142877177911e-1 + 9.46992395582885e-1 + -1.62688108898392) * Real.exp 1 := by linarith
    have hs2 : (7.84353476631425e-1 : ℝ) + (6.85720448356048e-1 : ℝ) + (1.62670627229158 : ℝ) + (2.54936277034233e-6 : ℝ) + (-1.32142877177911e-1 + 9.46992395582885e-1 + -1.62688108898392) * Real.exp 1 < 0.8896 := by linarith
    have p1 := pow_lt_pow_left₀ hs1 (by norm_num) (show 4 ≠ 0 by norm_num)
    have p2 := pow_lt_pow_left₀ hs2 (by linarith) (show 4 ≠ 0 by norm_num)
    have b1 : (0.6254 : ℝ) ≤ 0.8893 ^ 4 := by norm_num
    have b2 : (0.8896 : ℝ) ^ 4 ≤ 0.6263 := by norm_num
    try simp only [zpow_ofNat]
    rw [abs_lt]
    constructor <;> linarith

/-- Lemma: `J8`. -/
theorem agreeJ8 : ∃ a b c u v w, LuckasJ.make 8 = .ok a ∧ GTJ.make 8 = .ok b ∧ GottJ.make 8 = .ok c ∧ a.get 1 0 = .ok u ∧ b.get 1 0 = .ok v ∧
    c.get 1 0 = .ok w ∧ |u - v| < 0.05 ∧ |w - v| < 0.05 := by
  have he1 := Real.exp_one_gt_d9
  have he2 := Real.exp_one_lt_d9
  have h1 : Real.exp (-0.940714) < 0.39083 := exp_lt_of_pow 94 100 (by norm_num) (by norm_num) (by norm_num) (by norm_num)
  have h2 : 0.38654 < Real.exp (-0.940714) := lt_exp_of_pow 95 100 (by norm_num) (by norm_num) (by norm_num)
  refine ⟨_, _, _, _, _, _, rfl, rfl, rfl, luckasJ_one _, gtJ_one _, gottJ_one _, ?_, ?_⟩
  · simp only [coef, List.getD_cons_succ, List.getD_cons_zero]
    push_cast
    rw [abs_lt]
    constructor <;> linarith
  · simp only [coef, List.getD_cons_succ, List.getD_cons_zero]
    push_cast
    have hs1 : 0.8678 < (9.02886845403022e-1 : ℝ) + (1.02769111500633 : ℝ) + (2.12557939856991 : ℝ) + (3.30884284588769e-6 : ℝ) + (-1.52360182248782e-1 + 1.10529372907708 + -2.12580262478853) * Real.exp 1 := by linarith
    have hs2 : (9.02886845403022e-1 : ℝ) + (1.02769111500633 : ℝ) + (2.12557939856991 : ℝ) + (3.30884284588769e-6 : ℝ) + (-1.52360182248782e-1 + 1.10529372907708 + -2.12580262478853) * Real.exp 1 < 0.8681 := by linarith
    have p1 := pow_lt_pow_left₀ hs1 (by norm_num) (show 6 ≠ 0 by norm_num)
    have p2 := pow_lt_pow_left₀ hs2 (by linarith) (show 6 ≠ 0 by norm_num)
    have b1 : (0.427 : ℝ) ≤ 0.8678 ^ 6 := by norm_num
    have b2 : (0.8681 : ℝ) ^ 6 ≤ 0.428 := by norm_num
    try simp only [zpow_ofNat]
    rw [abs_lt]
    constructor <;> linarith

/-- Lemma: `J10`. -/
theorem agreeJ10 : ∃ a b c u v w, LuckasJ.make 10 = .ok a ∧ GTJ.make 10 = .ok b ∧ GottJ.make 10 = .ok c ∧ a.get 1 0 = .ok u ∧ b.get 1 0 = .ok v ∧
    c.get 1 0 = .ok w ∧ |u - v| < 0.05 ∧ |w - v| < 0.05 := by
  have he1 := Real.exp_one_gt_d9
  have he2 := Real.exp_one_lt_d9
  have h1 : Real.exp (-1.222733) < 0.29538 := exp_lt_of_pow 122 100 (by norm_num) (by norm_num) (by norm_num) (by norm_num)
  have h2 : 0.29214 < Real.exp (-1.222733) := lt_exp_of_pow 123 100 (by norm_num) (by norm_num) (by norm_num)
  refine ⟨_, _, _, _, _, _, rfl, rfl, rfl, luckasJ_one _, gtJ_one _, gottJ_one _, ?_, ?_⟩
  · simp only [coef, List.getD_cons_succ, List.getD_cons_zero]
    push_cast
    rw [abs_lt]
    constructor <;> linarith
  · simp only [coef, List.getD_cons_succ, List.getD_cons_zero]
    push_cast
    have hs1 : 0.8704 < (1.04223495309261 : ℝ) + (1.4382508036251 : ℝ) + (2.76103690296554 : ℝ) + (3.93574271718274e-6 : ℝ) + (-1.78015204105012e-1 + 1.33132666525329 + -2.7612999550281) * Real.exp 1 := by linarith
    have hs2 : (1.04223495309261 : ℝ) + (1.4382508036251 : ℝ) + (2.76103690296554 : ℝ) + (3.93574271718274e-6 : ℝ) + (-1.78015204105012e-1 + 1.33132666525329 + -2.7612999550281) * Real.exp 1 < 0.8707 := by linarith
    have p1 := pow_lt_pow_left₀ hs1 (by norm_num) (show 8 ≠ 0 by norm_num)
    have p2 := pow_lt_pow_left₀ hs2 (by linarith) (show 8 ≠ 0 by norm_num)
    have b1 : (0.3294 : ℝ) ≤ 0.8704 ^ 8 := by norm_num
    have b2 : (0.8707 : ℝ) ^ 8 ≤ 0.3304 := by norm_num
    try simp only [zpow_ofNat]
    rw [abs_lt]
    constructor <;> linarith

/-- Lemma: `J11`. -/
theorem agreeJ11 : ∃ a b c u v w, LuckasJ.make 11 = .ok a ∧ GTJ.make 11 = .ok b ∧ GottJ.make 11 = .ok c ∧ a.get 1 0 = .ok u ∧ b.get 1 0 = .ok v ∧
    c.get 1 0 = .ok w ∧ |u - v| < 0.05 ∧ |w - v| < 0.05 := by
  have he1 := Real.exp_one_gt_d9
  have he2 := Real.exp_one_lt_d9
  have h1 : Real.exp (-1.338626) < 0.26461 := exp_lt_of_pow 133 100 (by norm_num) (by norm_num) (by norm_num) (by norm_num)
  have h2 : 0.26171 < Real.exp (-1.338626) := lt_exp_of_pow 134 100 (by norm_num) (by norm_num) (by norm_num)
  refine ⟨_, _, _, _, _, _, rfl, rfl, rfl, luckasJ_one _, gtJ_one _, gottJ_one _, ?_, ?_⟩
  · simp only [coef, List.getD_cons_succ, List.getD_cons_zero]
    push_cast
    rw [abs_lt]
    constructor <;> linarith
  · simp only [coef, List.getD_cons_succ, List.getD_cons_zero]
    push_cast
    have hs1 : 0.8739 < (1.107926913749 : ℝ) + (1.63731143991712 : ℝ) + (3.07487098564526 : ℝ) + (4.21496516230401e-6 : ℝ) + (-1.91014790095454e-1 + 1.44659349566085 + -3.07515161447037) * Real.exp 1 := by linarith
    have hs2 : (1.107926913749 : ℝ) + (1.63731143991712 : ℝ) + (3.07487098564526 : ℝ) + (4.21496516230401e-6 : ℝ) + (-1.91014790095454e-1 + 1.44659349566085 + -3.07515161447037) * Real.exp 1 < 0.8742 := by linarith
    have p1 := pow_lt_pow_left₀ hs1 (by norm_num) (show 9 ≠ 0 by norm_num)
    have p2 := pow_lt_pow_left₀ hs2 (by linarith) (show 9 ≠ 0 by norm_num)
    have b1 : (0.2972 : ℝ) ≤ 0.8739 ^ 9 := by norm_num
    have b2 : (0.8742 : ℝ) ^ 9 ≤ 0.2982 := by norm_num
    try simp only [zpow_ofNat]
    rw [abs_lt]
    constructor <;> linarith

/-- Lemma: `J13`. -/
theorem agreeJ13 : ∃ a b c u v w, LuckasJ.make 13 = .ok a ∧ GTJ.make 13 = .ok b ∧ GottJ.make 13 = .ok c ∧ a.get 1 0 = .ok u ∧ b.get 1 0 = .ok v ∧
    c.get 1 0 = .ok w ∧ |u - v| < 0.05 ∧ |w - v| < 0.05 := by
  have he1 := Real.exp_one_gt_d9
  have he2 := Real.exp_one_lt_d9
  have h1 : Real.exp (-1.53607) < 0.21665 := exp_lt_of_pow 153 100 (by norm_num) (by norm_num) (by norm_num) (by norm_num)
  have h2 : 0.21427 < Real.exp (-1.53607) := lt_exp_of_pow 154 100 (by norm_num) (by norm_num) (by norm_num)
  refine ⟨_, _, _, _, _, _, rfl, rfl, rfl, luckasJ_one _, gtJ_one _, gottJ_one _, ?_, ?_⟩
  · simp only [coef, List.getD_cons_succ, List.getD_cons_zero]
    push_cast
    rw [abs_lt]
    constructor <;> linarith
  · simp only [coef, List.getD_cons_succ, List.getD_cons_zero]
    push_cast
    have hs1 : 0.8819 < (1.22741251262613 : ℝ) + (2.00607768864444 : ℝ) + (3.66217525098022 : ℝ) + (4.71993621739865e-6 : ℝ) + (-2.15797090643057e-1 + 1.6660030087602 + -3.66248736228464) * Real.exp 1 := by linarith
    have hs2 : (1.22741251262613 : ℝ) + (2.00607768864444 : ℝ) + (3.66217525098022 : ℝ) + (4.71993621739865e-6 : ℝ) + (-2.15797090643057e-1 + 1.6660030087602 + -3.66248736228464) * Real.exp 1 < 0.8822 := by linarith
    have p1 := pow_lt_pow_left₀ hs1 (by norm_num) (show 11 ≠ 0 by norm_num)
    have p2 := pow_lt_pow_left₀ hs2 (by linarith) (show 11 ≠ 0 by norm_num)
    have b1 : (0.2509 : ℝ) ≤ 0.8819 ^ 11 := by norm_num
    have b2 : (0.8822 : ℝ) ^ 11 ≤ 0.252 := by norm_num
    try simp only [zpow_ofNat]
    rw [abs_lt]
    constructor <;> linarith

/-- Lemma: `J15`. -/
theorem agreeJ15 : ∃ a b c u v w, LuckasJ.make 15 = .ok a ∧ GTJ.make 15 = .ok b ∧ GottJ.make 15 = .ok c ∧ a.get 1 0 = .ok u ∧ b.get 1 0 = .ok v ∧
    c.get 1 0 = .ok w ∧ |u - v| < 0.05 ∧ |w - v| < 0.05 := by
  have he1 := Real.exp_one_gt_d9
  have he2 := Real.exp_one_lt_d9
  have h1 : Real.exp (-1.698853) < 0.18462 := exp_lt_of_pow 169 100 (by norm_num) (by norm_num) (by norm_num) (by norm_num)
  have h2 : 0.18259 < Real.exp (-1.698853) := lt_exp_of_pow 170 100 (by norm_num) (by norm_num) (by norm_num)
  refine ⟨_, _, _, _, _, _, rfl, rfl, rfl, luckasJ_one _, gtJ_one _, gottJ_one _, ?_, ?_⟩
  · simp only [coef, List.getD_cons_succ, List.getD_cons_zero]
    push_cast
    rw [abs_lt]
    constructor <;> linarith
  · simp only [coef, List.getD_cons_succ, List.getD_cons_zero]
    push_cast
    have hs1 : 0.8903 < (1.3318411204316 : ℝ) + (2.33411955421497 : ℝ) + (4.18944168237444 : ℝ) + (5.1673132426409e-6 : ℝ) + (-2.3847439217909e-1 + 1.86597576117483 + -4.18978130339343) * Real.exp 1 := by linarith
    have hs2 : (1.3318411204316 : ℝ) + (2.33411955421497 : ℝ) + (4.18944168237444 : ℝ) + (5.1673132426409e-6 : ℝ) + (-2.3847439217909e-1 + 1.86597576117483 + -4.18978130339343) * Real.exp 1 < 0.8906 := by linarith
    have p1 := pow_lt_pow_left₀ hs1 (by norm_num) (show 13 ≠ 0 by norm_num)
    have p2 := pow_lt_pow_left₀ hs2 (by linarith) (show 13 ≠ 0 by norm_num)
    have b1 : (0.2207 : ℝ) ≤ 0.8903 ^ 13 := by norm_num
    have b2 : (0.8906 : ℝ) ^ 13 ≤ 0.2218 := by norm_num
    try simp only [zpow_ofNat]
    rw [abs_lt]
    constructor <;> linarith

/-- Lemma: `K(222, 333)`. -/
theorem agreeK222 : ∃ a b c u v w, LuckasK.make 222 333 = .ok a ∧ GTK.make 222 333 = .ok b ∧ GottK.make 222 333 = .ok c ∧
    a.get 1 0 = .ok u ∧ b.get 1 0 = .ok v ∧ c.get 1 0 = .ok w ∧ |u - v| < |u| / 2 ∧ |w - v| < |u| / 2 := by
  have he1 := Real.exp_one_gt_d9
  have he2 := Real.exp_one_lt_d9
  have e1 : Real.exp 1 ^ 2 < 7.3890561 := by nlinarith
  have e2 : 7.389056 < Real.exp 1 ^ 2 := by nlinarith
  have e3 : Real.exp 1 ^ 3 < 20.085538 := by nlinarith
  have e4 : 20.085535 < Real.exp 1 ^ 3 := by nlinarith
  have h1 : Real.exp (-3.02872) < 0.04982 := exp_lt_of_pow 60 20 (by norm_num) (by norm_num) (by norm_num) (by norm_num)
  have h2 : 0.04733 < Real.exp (-3.02872) := lt_exp_of_pow 61 20 (by norm_num) (by norm_num) (by norm_num)
  refine ⟨_, _, _, _, _, _, rfl, rfl, rfl, luckasK_zero _ _, gtK_zero _ _ one_pos, gottK_one _, ?_, ?_⟩
  all_goals
    simp only [coef, List.getD_cons_succ, List.getD_cons_zero, Real.log_one, mul_zero, zero_add]
    push_cast
    try simp only [and_self, if_true, if_false, and_false, neg_mul, one_mul]
    refine lt_of_lt_of_le ?_ (div_le_div_of_nonneg_right (le_abs_self _) two_pos.le)
    rw [abs_lt]
    constructor <;> linarith

/-- Lemma: `K(233, 344)`. -/
theorem agreeK233 : ∃ a b c u v w, LuckasK.make 233 344 = .ok a ∧ GTK.make 233 344 = .ok b ∧ GottK.make 233 344 = .ok c ∧
    a.get 1 0 = .ok u ∧ b.get 1 0 = .ok v ∧ c.get 1 0 = .ok w ∧ |u - v| < |u| / 2 ∧ |w - v| < |u| / 2 := by
  have he1 := Real.exp_one_gt_d9
  have he2 := Real.exp_one_lt_d9
  have e1 : Real.exp 1 ^ 2 < 7.3890561 := by nlinarith
  have e2 : 7.389056 < Real.exp 1 ^ 2 := by nlinarith
  have e3 : Real.exp 1 ^ 3 < 20.085538 := by nlinarith
  have e4 : 20.085535 < Real.exp 1 ^ 3 := by nlinarith
  have h1 : Real.exp (-3.70469) < 0.02474 := exp_lt_of_pow 74 20 (by norm_num) (by norm_num) (by norm_num) (by norm_num)
  have h2 : 0.0235 < Real.exp (-3.70469) := lt_exp_of_pow 75 20 (by norm_num) (by norm_num) (by norm_num)
  refine ⟨_, _, _, _, _, _, rfl, rfl, rfl, luckasK_zero _ _, gtK_zero _ _ one_pos, gottK_one _, ?_, ?_⟩
  all_goals
    simp only [coef, List.getD_cons_succ, List.getD_cons_zero, Real.log_one, mul_zero, zero_add]
    push_cast
    try simp only [and_self, if_true, if_false, and_false, neg_mul, one_mul]
    refine lt_of_lt_of_le ?_ (div_le_div_of_nonneg_right (le_abs_self _) two_pos.le)
    rw [abs_lt]
    constructor <;> linarith

/-- Lemma: `K(334, 445)`. -/
theorem agreeK334 : ∃ a b c u v w, LuckasK.make 334 445 = .ok a ∧ GTK.make 334 445 = .ok b ∧ GottK.make 334 445 = .ok c ∧
    a.get 1 0 = .ok u ∧ b.get 1 0 = .ok v ∧ c.get 1 0 = .ok w ∧ |u - v| < |u| / 2 ∧ |w - v| < |u| / 2 := by
  have he1 := Real.exp_one_gt_d9
  have he2 := Real.exp_one_lt_d9
  have e1 : Real.exp 1 ^ 2 < 7.3890561 := by nlinarith
  have e2 : 7.389056 < Real.exp 1 ^ 2 := by nlinarith
  have e3 : Real.exp 1 ^ 3 < 20.085538 := by nlinarith
  have e4 : 20.085535 < Real.exp 1 ^ 3 := by nlinarith
  have h1 : Real.exp (-3.930928) < 0.02026 := exp_lt_of_pow 78 20 (by norm_num) (by norm_num) (by norm_num) (by norm_num)
  have h2 : 0.01924 < Real.exp (-3.930928) := lt_exp_of_pow 79 20 (by norm_num) (by norm_num) (by norm_num)
  refine ⟨_, _, _, _, _, _, rfl, rfl, rfl, luckasK_zero _ _, gtK_zero _ _ one_pos, gottK_one _, ?_, ?_⟩
  all_goals
    simp only [coef, List.getD_cons_succ, List.getD_cons_zero, Real.log_one, mul_zero, zero_add]
    push_cast
    try simp only [and_self, if_true, if_false, and_false, neg_mul, one_mul]
    refine lt_of_lt_of_le ?_ (div_le_div_of_nonneg_right (neg_le_abs _) two_pos.le)
    rw [abs_lt]
    constructor <;> linarith

/-- Lemma: `K(444, 555)`. -/
theorem agreeK444 : ∃ a b c u v w, LuckasK.make 444 555 = .ok a ∧ GTK.make 444 555 = .ok b ∧ GottK.make 444 555 = .ok c ∧
    a.get 1 0 = .ok u ∧ b.get 1 0 = .ok v ∧ c.get 1 0 = .ok w ∧ |u - v| < |u| / 2 ∧ |w - v| < |u| / 2 := by
  have he1 := Real.exp_one_gt_d9
  have he2 := Real.exp_one_lt_d9
  have e1 : Real.exp 1 ^ 2 < 7.3890561 := by nlinarith
  have e2 : 7.389056 < Real.exp 1 ^ 2 := by nlinarith
  have e3 : Real.exp 1 ^ 3 < 20.085538 := by nlinarith
  have e4 : 20.085535 < Real.exp 1 ^ 3 := by nlinarith
  have h1 : Real.exp (-4.175589) < 0.01578 := exp_lt_of_pow 83 20 (by norm_num) (by norm_num) (by norm_num) (by norm_num)
  have h2 : 0.01498 < Real.exp (-4.175589) := lt_exp_of_pow 84 20 (by norm_num) (by norm_num) (by norm_num)
  refine ⟨_, _, _, _, _, _, rfl, rfl, rfl, luckasK_zero _ _, gtK_zero _ _ one_pos, gottK_one _, ?_, ?_⟩
  all_goals
    simp only [coef, List.getD_cons_succ, List.getD_cons_zero, Real.log_one, mul_zero, zero_add]
    push_cast
    try simp only [and_self, if_true, if_false, and_false, neg_mul, one_mul]
    refine lt_of_lt_of_le ?_ (div_le_div_of_nonneg_right (le_abs_self _) two_pos.le)
    rw [abs_lt]
    constructor <;> linarith

end Teqp.Props

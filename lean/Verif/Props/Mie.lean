import Verif.Model.Potentials
import Mathlib.Analysis.Calculus.Deriv.Pow
import Mathlib.Analysis.Calculus.Deriv.Add
import Mathlib.Analysis.Calculus.Deriv.Mul
import Mathlib.Analysis.Calculus.Deriv.Shift
import Mathlib.Analysis.Complex.ExponentialBounds
import Mathlib.Analysis.MeanInequalities
import Mathlib.Analysis.SpecialFunctions.ImproperIntegrals
import Mathlib.Tactic

/-! # Mie fluids: the equation of Pohl and others and the network of Chaparro and Müller (C98) -/

set_option autoImplicit false

namespace Teqp.Props
open Finset Teqp.Model

/-! ## The range and the critical parameters -/

theorem pohlTc_pos (lam : ℝ) (h : 0 < lam) : 0 < pohlTc lam := by unfold pohlTc; positivity

theorem pohlRhoc_pos (lam : ℝ) (h : 1 ≤ lam) : 0 < pohlRhoc lam := by
  unfold pohlRhoc
  have h1 : 0 ≤ Real.log lam := Real.log_nonneg h
  have h2 : 0 < Real.log 10 := Real.log_pos (by norm_num)
  positivity

/-- **A value for every exponent from one up, every positive temperature and every density**, and it vanishes at zero density. -/
theorem pohl_ok (lam T rho : ℝ) (hl : 1 ≤ lam) (hT : 0 < T) :
    pohlAlphar lam T rho = .ok (pohlSum lam (pohlTc lam / T) (rho / pohlRhoc lam)) ∧ pohlAlphar lam T 0 = .ok 0 := by
  have h1 := pohlTc_pos lam (by linarith)
  have h2 := pohlRhoc_pos lam hl
  have hc : ¬ (lam ≤ 0 ∨ T = 0 ∨ pohlTc lam / T ≤ 0 ∨ pohlRhoc lam = 0) := by
    have : 0 < pohlTc lam / T := by positivity
    rintro (h | h | h | h) <;> linarith
  constructor
  · rw [pohlAlphar, if_neg hc]
  · rw [pohlAlphar, if_neg hc, zero_div]
    congr 1
    simp [pohlSum, sum_range_succ, pohlDpol, pohlDexp, pohlDgbs]

/-- **An exponent that is not positive is accepted, and no value is finite.** -/
theorem pohl_nonFinite (lam T rho : ℝ) (hl : lam ≤ 0) : pohlAlphar lam T rho = .nonFinite := by
  rw [pohlAlphar, if_pos (Or.inl hl)]

/-- **The Lennard-Jones fluid is the member with exponent twelve**: its critical temperature and density are those of the Lennard-Jones fluid, `1.32` and `0.304`. -/
theorem pohl_lj : |pohlTc 12 - 1.322| < 0.0005 ∧ |pohlRhoc 12 - 0.3044| < 0.0002 := by
  constructor
  · unfold pohlTc; norm_num [abs_lt]
  · have h10 : 0 < Real.log 10 := Real.log_pos (by norm_num)
    have hlo : 14 * Real.log 10 ≤ 13 * Real.log 12 := by
      have := Real.log_le_log (by norm_num) (show (10 : ℝ) ^ 14 ≤ 12 ^ 13 by norm_num)
      rwa [Real.log_pow, Real.log_pow] at this
    have hhi : 25 * Real.log 12 ≤ 27 * Real.log 10 := by
      have := Real.log_le_log (by norm_num) (show (12 : ℝ) ^ 25 ≤ 10 ^ 27 by norm_num)
      rwa [Real.log_pow, Real.log_pow] at this
    have e1 : 14 / 13 ≤ Real.log 12 / Real.log 10 := by rw [le_div_iff₀ h10]; linarith
    have e2 : Real.log 12 / Real.log 10 ≤ 27 / 25 := by rw [div_le_iff₀ h10]; linarith
    unfold pohlRhoc
    rw [abs_lt]
    constructor <;> linarith

/-- **A softer repulsion has a higher critical temperature** and a lower critical density. -/
theorem pohl_monotone (l1 l2 : ℝ) (h1 : 0 < l1) (h : l1 < l2) : pohlTc l2 < pohlTc l1 ∧ pohlRhoc l1 < pohlRhoc l2 := by
  have h10 : 0 < Real.log 10 := Real.log_pos (by norm_num)
  unfold pohlTc pohlRhoc
  constructor
  · have a : 6.84 / l2 < 6.84 / l1 := div_lt_div_of_pos_left (by norm_num) h1 h
    have b : 145 / l2 ^ 3 < 145 / l1 ^ 3 := div_lt_div_of_pos_left (by norm_num) (by positivity) (pow_lt_pow_left₀ h h1.le (by norm_num))
    linarith
  · have : Real.log l1 / Real.log 10 < Real.log l2 / Real.log 10 := div_lt_div_of_pos_right (Real.log_lt_log h1 h) h10
    linarith

/-! ## The critical point -/

/-- Three derivatives of a power times an exponential. -/
theorem mie_term (d : ℕ) (g g1 g2 g3 : ℝ → ℝ) (h1 : ∀ x, HasDerivAt g (g1 x) x) (h2 : ∀ x, HasDerivAt g1 (g2 x) x) (h3 : ∀ x, HasDerivAt g2 (g3 x) x) :
    (∀ x, HasDerivAt (fun x => x ^ d * Real.exp (g x)) ((d * x ^ (d - 1) + x ^ d * g1 x) * Real.exp (g x)) x)
    ∧ (∀ x, HasDerivAt (fun x => (d * x ^ (d - 1) + x ^ d * g1 x) * Real.exp (g x))
        ((d * ((d - 1 : ℕ) * x ^ (d - 1 - 1)) + 2 * d * x ^ (d - 1) * g1 x + x ^ d * (g1 x ^ 2 + g2 x)) * Real.exp (g x)) x)
    ∧ ∀ x, HasDerivAt (fun x => (d * ((d - 1 : ℕ) * x ^ (d - 1 - 1)) + 2 * d * x ^ (d - 1) * g1 x + x ^ d * (g1 x ^ 2 + g2 x)) * Real.exp (g x))
        ((d * ((d - 1 : ℕ) * ((d - 1 - 1 : ℕ) * x ^ (d - 1 - 1 - 1))) + 3 * d * ((d - 1 : ℕ) * x ^ (d - 1 - 1)) * g1 x + 3 * d * x ^ (d - 1) * (g1 x ^ 2 + g2 x)
          + x ^ d * (g1 x ^ 3 + 3 * g1 x * g2 x + g3 x)) * Real.exp (g x)) x := by
  have hp : ∀ n : ℕ, ∀ x : ℝ, HasDerivAt (fun x => x ^ n) (n * x ^ (n - 1)) x := fun n x => hasDerivAt_pow n x
  refine ⟨fun x => ?_, fun x => ?_, fun x => ?_⟩
  · refine ((hp d x).fun_mul (h1 x).exp).congr_deriv ?_
    ring
  · refine ((((hp (d - 1) x).const_mul (d : ℝ)).fun_add ((hp d x).fun_mul (h2 x))).fun_mul (h1 x).exp).congr_deriv ?_
    ring
  · refine (((((hp (d - 1 - 1) x).const_mul ((d - 1 : ℕ) : ℝ)).const_mul (d : ℝ)).fun_add
      (((hp (d - 1) x).const_mul (2 * d : ℝ)).fun_mul (h2 x))).fun_add ((hp d x).fun_mul (((h2 x).fun_pow 2).fun_add (h3 x)))).fun_mul (h1 x).exp
      |>.congr_deriv ?_
    push_cast
    ring

/-- The exponents of the sixteen terms as functions of the density. -/
noncomputable def mieG (i : ℕ) (x : ℝ) : ℝ :=
  if i < 6 then 0 else if i < 12 then -x ^ pohlP.getD (i - 6) 0
  else -pohlEta.getD (i - 12) 0 * (x - pohlEps.getD (i - 12) 0) ^ 2 - pohlBeta.getD (i - 12) 0 * (1 - pohlGam.getD (i - 12) 0) ^ 2
noncomputable def mieG1 (i : ℕ) (x : ℝ) : ℝ :=
  if i < 6 then 0 else if i < 12 then -(pohlP.getD (i - 6) 0 * x ^ (pohlP.getD (i - 6) 0 - 1))
  else -pohlEta.getD (i - 12) 0 * (2 * (x - pohlEps.getD (i - 12) 0))
noncomputable def mieG2 (i : ℕ) (x : ℝ) : ℝ :=
  if i < 6 then 0 else if i < 12 then -(pohlP.getD (i - 6) 0 * ((pohlP.getD (i - 6) 0 - 1 : ℕ) * x ^ (pohlP.getD (i - 6) 0 - 1 - 1)))
  else -pohlEta.getD (i - 12) 0 * 2
noncomputable def mieG3 (i : ℕ) (x : ℝ) : ℝ :=
  if i < 6 then 0 else if i < 12 then -(pohlP.getD (i - 6) 0 * ((pohlP.getD (i - 6) 0 - 1 : ℕ) * ((pohlP.getD (i - 6) 0 - 1 - 1 : ℕ) * x ^ (pohlP.getD (i - 6) 0 - 1 - 1 - 1))))
  else 0

theorem mieG_deriv (i : ℕ) : (∀ x, HasDerivAt (mieG i) (mieG1 i x) x) ∧ (∀ x, HasDerivAt (mieG1 i) (mieG2 i x) x) ∧ ∀ x, HasDerivAt (mieG2 i) (mieG3 i x) x := by
  unfold mieG mieG1 mieG2 mieG3
  by_cases h6 : i < 6
  · simp only [h6, if_true]
    exact ⟨fun x => hasDerivAt_const x 0, fun x => hasDerivAt_const x 0, fun x => hasDerivAt_const x 0⟩
  by_cases h12 : i < 12
  · simp only [h6, h12, if_true, if_false]
    exact ⟨fun x => (hasDerivAt_pow _ x).fun_neg, fun x => ((hasDerivAt_pow _ x).const_mul _).fun_neg,
      fun x => (((hasDerivAt_pow _ x).const_mul _).const_mul _).fun_neg⟩
  · simp only [h6, h12, if_false]
    refine ⟨fun x => ?_, fun x => ?_, fun x => hasDerivAt_const x _⟩
    · refine (((((hasDerivAt_id x).sub_const (pohlEps.getD (i - 12) 0)).fun_pow 2).const_mul (-pohlEta.getD (i - 12) 0)).sub_const _).congr_deriv ?_
      simp
    · refine ((((hasDerivAt_id x).sub_const (pohlEps.getD (i - 12) 0)).const_mul 2).const_mul (-pohlEta.getD (i - 12) 0)).congr_deriv ?_
      simp

def mieD (i : ℕ) : ℕ := if i < 6 then pohlDpol.getD i 0 else if i < 12 then pohlDexp.getD (i - 6) 0 else pohlDgbs.getD (i - 12) 0
noncomputable def mieC1 (i : ℕ) : ℝ := if i < 6 then pohlC1pol.getD i 0 else if i < 12 then pohlC1exp.getD (i - 6) 0 else pohlC1gbs.getD (i - 12) 0
noncomputable def mieC2 (i : ℕ) : ℝ := if i < 6 then pohlC2pol.getD i 0 else if i < 12 then pohlC2exp.getD (i - 6) 0 else pohlC2gbs.getD (i - 12) 0

theorem mie_critical_isotherm (lam x : ℝ) : pohlSum lam 1 x = ∑ i ∈ range 16, (mieC1 i + mieC2 i / lam) * (x ^ mieD i * Real.exp (mieG i x)) := by
  simp only [pohlSum, pohlN, Real.one_rpow, mul_one, mieC1, mieC2, mieD, mieG]
  rw [show (16 : ℕ) = 6 + 6 + 4 from rfl, sum_range_add, sum_range_add]
  congr 1
  · congr 1
    · refine sum_congr rfl fun i hi => ?_
      have : i < 6 := mem_range.1 hi
      simp [this, mul_assoc]
    · refine sum_congr rfl fun i hi => ?_
      have : i < 6 := mem_range.1 hi
      have h1 : ¬ 6 + i < 6 := by omega
      have h2 : 6 + i < 12 := by omega
      simp only [h1, h2, if_true, if_false, Nat.add_sub_cancel_left, mul_assoc]
  · refine sum_congr rfl fun i hi => ?_
    have h1 : ¬ 6 + 6 + i < 6 := by omega
    have h2 : ¬ 6 + 6 + i < 12 := by omega
    simp only [h1, h2, if_false, show 6 + 6 + i - 12 = i by omega, mul_assoc]

noncomputable def mieW1 (i : ℕ) (x : ℝ) : ℝ := (mieD i * x ^ (mieD i - 1) + x ^ mieD i * mieG1 i x) * Real.exp (mieG i x)
noncomputable def mieW2 (i : ℕ) (x : ℝ) : ℝ :=
  (mieD i * ((mieD i - 1 : ℕ) * x ^ (mieD i - 1 - 1)) + 2 * mieD i * x ^ (mieD i - 1) * mieG1 i x + x ^ mieD i * (mieG1 i x ^ 2 + mieG2 i x)) * Real.exp (mieG i x)
noncomputable def mieW3 (i : ℕ) (x : ℝ) : ℝ :=
  (mieD i * ((mieD i - 1 : ℕ) * ((mieD i - 1 - 1 : ℕ) * x ^ (mieD i - 1 - 1 - 1))) + 3 * mieD i * ((mieD i - 1 : ℕ) * x ^ (mieD i - 1 - 1)) * mieG1 i x
    + 3 * mieD i * x ^ (mieD i - 1) * (mieG1 i x ^ 2 + mieG2 i x) + x ^ mieD i * (mieG1 i x ^ 3 + 3 * mieG1 i x * mieG2 i x + mieG3 i x)) * Real.exp (mieG i x)

theorem mie_derivs (lam : ℝ) : (∀ x, HasDerivAt (pohlSum lam 1) (∑ i ∈ range 16, (mieC1 i + mieC2 i / lam) * mieW1 i x) x)
    ∧ (∀ x, HasDerivAt (fun x => ∑ i ∈ range 16, (mieC1 i + mieC2 i / lam) * mieW1 i x) (∑ i ∈ range 16, (mieC1 i + mieC2 i / lam) * mieW2 i x) x)
    ∧ ∀ x, HasDerivAt (fun x => ∑ i ∈ range 16, (mieC1 i + mieC2 i / lam) * mieW2 i x) (∑ i ∈ range 16, (mieC1 i + mieC2 i / lam) * mieW3 i x) x := by
  have hf : pohlSum lam 1 = fun x => ∑ i ∈ range 16, (mieC1 i + mieC2 i / lam) * (x ^ mieD i * Real.exp (mieG i x)) := funext (mie_critical_isotherm lam)
  have ht := fun i => mie_term (mieD i) (mieG i) (mieG1 i) (mieG2 i) (mieG3 i) (mieG_deriv i).1 (mieG_deriv i).2.1 (mieG_deriv i).2.2
  rw [hf]
  exact ⟨fun x => HasDerivAt.fun_sum fun i _ => ((ht i).1 x).const_mul _, fun x => HasDerivAt.fun_sum fun i _ => ((ht i).2.1 x).const_mul _,
    fun x => HasDerivAt.fun_sum fun i _ => ((ht i).2.2 x).const_mul _⟩

/-- A quantity affine in the reciprocal exponent is bounded between eleven and thirteen by its bounds at the two. -/
theorem mie_affine (a b lo hi lam : ℝ) (h1 : 11 ≤ lam) (h2 : lam ≤ 13) (l11 : lo < a + b / 11) (h11 : a + b / 11 < hi) (l13 : lo < a + b / 13) (h13 : a + b / 13 < hi) :
    lo < a + b / lam ∧ a + b / lam < hi := by
  have h0 : 0 < lam := by linarith
  have hu1 : 1 / lam ≤ 1 / 11 := by rw [div_le_div_iff₀ h0 (by norm_num)]; linarith
  have hu2 : 1 / 13 ≤ 1 / lam := by rw [div_le_div_iff₀ (by norm_num) h0]; linarith
  have e : b / lam = b * (1 / lam) := by ring
  rw [e]
  generalize 1 / lam = u at hu1 hu2
  rcases le_total 0 b with hb | hb
  · have e1 := mul_le_mul_of_nonneg_left hu1 hb
    have e2 := mul_le_mul_of_nonneg_left hu2 hb
    constructor <;> linarith
  · have e1 := mul_le_mul_of_nonpos_left hu1 hb
    have e2 := mul_le_mul_of_nonpos_left hu2 hb
    constructor <;> linarith

theorem exp_two_bound (y lo hi : ℝ) (n : ℕ) (hn : 0 < n) (hy : |-(y / 2)| ≤ 1) (hlo : 0 ≤ lo)
    (h1 : lo ≤ (∑ m ∈ range n, (-(y / 2)) ^ m / (m.factorial : ℝ)) - |-(y / 2)| ^ n * ((n.succ : ℝ) / (n.factorial * n)))
    (h2 : (∑ m ∈ range n, (-(y / 2)) ^ m / (m.factorial : ℝ)) + |-(y / 2)| ^ n * ((n.succ : ℝ) / (n.factorial * n)) ≤ hi) :
    lo ^ 2 ≤ Real.exp (-y) ∧ Real.exp (-y) ≤ hi ^ 2 := by
  have h := Real.exp_bound hy hn
  rw [abs_le] at h
  have e : Real.exp (-y) = Real.exp (-(y / 2)) ^ 2 := by rw [← Real.exp_nat_mul]; congr 1; push_cast; ring
  rw [e]
  have l : lo ≤ Real.exp (-(y / 2)) := by linarith [h.1]
  have u : Real.exp (-(y / 2)) ≤ hi := by linarith [h.2]
  exact ⟨pow_le_pow_left₀ hlo l 2, pow_le_pow_left₀ (Real.exp_pos _).le u 2⟩

theorem exp_gauss0 : 0.22969092 ≤ Real.exp (-1.47102025) ∧ Real.exp (-1.47102025) ≤ 0.22969112 := by
  obtain ⟨h1, h2⟩ := exp_two_bound 1.47102025 0.479260894 0.479260934 12 (by norm_num) (by norm_num [abs_le]) (by norm_num)
    (by norm_num [sum_range_succ, Nat.factorial, abs_div]) (by norm_num [sum_range_succ, Nat.factorial, abs_div])
  constructor <;> norm_num at h1 h2 ⊢ <;> linarith

theorem exp_gauss1 : 0.24181080 ≤ Real.exp (-1.41959925468) ∧ Real.exp (-1.41959925468) ≤ 0.24181100 := by
  obtain ⟨h1, h2⟩ := exp_two_bound 1.41959925468 0.491742699 0.491742739 12 (by norm_num) (by norm_num [abs_le]) (by norm_num)
    (by norm_num [sum_range_succ, Nat.factorial, abs_div]) (by norm_num [sum_range_succ, Nat.factorial, abs_div])
  constructor <;> norm_num at h1 h2 ⊢ <;> linarith

theorem exp_gauss2 : 0.16018024 ≤ Real.exp (-1.831455) ∧ Real.exp (-1.831455) ≤ 0.16018044 := by
  obtain ⟨h1, h2⟩ := exp_two_bound 1.831455 0.400225336 0.400225376 12 (by norm_num) (by norm_num [abs_le]) (by norm_num)
    (by norm_num [sum_range_succ, Nat.factorial, abs_div]) (by norm_num [sum_range_succ, Nat.factorial, abs_div])
  constructor <;> norm_num at h1 h2 ⊢ <;> linarith

theorem exp_gauss3 : 0.20359682 ≤ Real.exp (-1.591613133) ∧ Real.exp (-1.591613133) ≤ 0.20359702 := by
  obtain ⟨h1, h2⟩ := exp_two_bound 1.591613133 0.451217131 0.451217171 12 (by norm_num) (by norm_num [abs_le]) (by norm_num)
    (by norm_num [sum_range_succ, Nat.factorial, abs_div]) (by norm_num [sum_range_succ, Nat.factorial, abs_div])
  constructor <;> norm_num at h1 h2 ⊢ <;> linarith

theorem exp_neg_one : 0.36787944 ≤ Real.exp (-1) ∧ Real.exp (-1) ≤ 0.36787945 := by
  rw [Real.exp_neg]
  have h1 := Real.exp_one_gt_d9
  have h2 := Real.exp_one_lt_d9
  constructor
  · rw [le_inv_comm₀ (by norm_num) (Real.exp_pos 1)]
    refine h2.le.trans ?_
    norm_num
  · rw [inv_le_comm₀ (Real.exp_pos 1) (by norm_num)]
    refine le_trans ?_ h1.le
    norm_num

/-- The weights of the sixteen terms at the critical density, derivative 1. -/
theorem mie_weights1 (c : ℕ → ℝ) : (∑ i ∈ range 16, c i * mieW1 i 1)
    = 4 * c 0 + 1 * c 1 + 1 * c 2 + 2 * c 3 + 2 * c 4 + 3 * c 5
      + (0 * c 6 + -(1) * c 7 + 1 * c 8 + 1 * c 9 + 0 * c 10 + 4 * c 11) * Real.exp (-1)
      + 69/125 * c 12 * Real.exp (-1.47102025)
      + 437/250 * c 13 * Real.exp (-1.41959925468)
      + -(7963/10000) * c 14 * Real.exp (-1.831455)
      + -(231659/500000) * c 15 * Real.exp (-1.591613133) := by
  simp [sum_range_succ, mieW1, mieD, mieG, mieG1, mieG2, mieG3, pohlDpol, pohlDexp, pohlDgbs, pohlP, pohlEta, pohlEps, pohlBeta, pohlGam]
  norm_num
  ring

/-- The weights of the sixteen terms at the critical density, derivative 2. -/
theorem mie_weights2 (c : ℕ → ℝ) : (∑ i ∈ range 16, c i * mieW2 i 1)
    = 12 * c 0 + 0 * c 1 + 0 * c 2 + 2 * c 3 + 2 * c 4 + 6 * c 5
      + (-(1) * c 6 + -(2) * c 7 + -(4) * c 8 + -(1) * c 9 + -(4) * c 10 + 11 * c 11) * Real.exp (-1)
      + -(75603/31250) * c 12 * Real.exp (-1.47102025)
      + -(8914/15625) * c 13 * Real.exp (-1.41959925468)
      + -(370590631/100000000) * c 14 * Real.exp (-1.831455)
      + -(924834107719/250000000000) * c 15 * Real.exp (-1.591613133) := by
  simp [sum_range_succ, mieW2, mieD, mieG, mieG1, mieG2, mieG3, pohlDpol, pohlDexp, pohlDgbs, pohlP, pohlEta, pohlEps, pohlBeta, pohlGam]
  norm_num
  ring

/-- The weights of the sixteen terms at the critical density, derivative 3. -/
theorem mie_weights3 (c : ℕ → ℝ) : (∑ i ∈ range 16, c i * mieW3 i 1)
    = 24 * c 0 + 0 * c 1 + 0 * c 2 + 0 * c 3 + 0 * c 4 + 6 * c 5
      + (2 * c 6 + 10 * c 7 + -(8) * c 8 + -(1) * c 9 + 4 * c 10 + 14 * c 11) * Real.exp (-1)
      + -(1338857/3906250) * c 12 * Real.exp (-1.47102025)
      + -(59950961/7812500) * c 13 * Real.exp (-1.41959925468)
      + 13862897194653/1000000000000 * c 14 * Real.exp (-1.831455)
      + 1167602807560075821/125000000000000000 * c 15 * Real.exp (-1.591613133) := by
  simp [sum_range_succ, mieW3, mieD, mieG, mieG1, mieG2, mieG3, pohlDpol, pohlDexp, pohlDgbs, pohlP, pohlEta, pohlEps, pohlBeta, pohlGam]
  norm_num
  ring

theorem mie_split (lam : ℝ) (w : ℕ → ℝ) : ∑ i ∈ range 16, (mieC1 i + mieC2 i / lam) * w i = (∑ i ∈ range 16, mieC1 i * w i) + (∑ i ∈ range 16, mieC2 i * w i) / lam := by
  rw [sum_div, ← sum_add_distrib]
  refine sum_congr rfl fun i _ => ?_
  ring

theorem mie_numbers (lam : ℝ) (h1 : 11 ≤ lam) (h2 : lam ≤ 13) :
    (-0.676 < ∑ i ∈ range 16, (mieC1 i + mieC2 i / lam) * mieW1 i 1 ∧ ∑ i ∈ range 16, (mieC1 i + mieC2 i / lam) * mieW1 i 1 < -0.671)
    ∧ (-0.0001 < 1 + 2 * (∑ i ∈ range 16, (mieC1 i + mieC2 i / lam) * mieW1 i 1) + ∑ i ∈ range 16, (mieC1 i + mieC2 i / lam) * mieW2 i 1
      ∧ 1 + 2 * (∑ i ∈ range 16, (mieC1 i + mieC2 i / lam) * mieW1 i 1) + (∑ i ∈ range 16, (mieC1 i + mieC2 i / lam) * mieW2 i 1) < 0.0001)
    ∧ (-0.0001 < 2 * (∑ i ∈ range 16, (mieC1 i + mieC2 i / lam) * mieW1 i 1) + 4 * (∑ i ∈ range 16, (mieC1 i + mieC2 i / lam) * mieW2 i 1)
        + ∑ i ∈ range 16, (mieC1 i + mieC2 i / lam) * mieW3 i 1
      ∧ 2 * (∑ i ∈ range 16, (mieC1 i + mieC2 i / lam) * mieW1 i 1) + 4 * (∑ i ∈ range 16, (mieC1 i + mieC2 i / lam) * mieW2 i 1)
        + (∑ i ∈ range 16, (mieC1 i + mieC2 i / lam) * mieW3 i 1) < 0.0001) := by
  obtain ⟨a0, b0⟩ := exp_gauss0
  obtain ⟨a1, b1⟩ := exp_gauss1
  obtain ⟨a2, b2⟩ := exp_gauss2
  obtain ⟨a3, b3⟩ := exp_gauss3
  obtain ⟨a4, b4⟩ := exp_neg_one
  simp only [mie_split]
  simp only [mie_weights1, mie_weights2, mie_weights3]
  generalize Real.exp (-1) = E at *
  generalize Real.exp (-1.47102025) = E0 at *
  generalize Real.exp (-1.41959925468) = E1 at *
  generalize Real.exp (-1.831455) = E2 at *
  generalize Real.exp (-1.591613133) = E3 at *
  have e1 : ∀ a b c d : ℝ, 1 + 2 * (a + b / lam) + (c + d / lam) = (1 + 2 * a + c) + (2 * b + d) / lam := fun a b c d => by ring
  have e2 : ∀ a b c d e f : ℝ, 2 * (a + b / lam) + 4 * (c + d / lam) + (e + f / lam) = (2 * a + 4 * c + e) + (2 * b + 4 * d + f) / lam := fun a b c d e f => by ring
  rw [e1, e2]
  simp only [mieC1, mieC2, pohlC1pol, pohlC1exp, pohlC1gbs, pohlC2pol, pohlC2exp, pohlC2gbs]
  norm_num only [List.getD_cons_zero, List.getD_cons_succ, if_true, if_false, Nat.reduceSub, Nat.reduceLT]
  refine ⟨mie_affine _ _ _ _ lam h1 h2 ?_ ?_ ?_ ?_, mie_affine _ _ _ _ lam h1 h2 ?_ ?_ ?_ ?_, mie_affine _ _ _ _ lam h1 h2 ?_ ?_ ?_ ?_⟩ <;> linarith

/-- The pressure on the critical isotherm, `ρ T (1 + ρ ∂α/∂ρ)`. -/
noncomputable def pohlPressure (lam rho : ℝ) : ℝ :=
  rho * pohlTc lam * (1 + rho * deriv (fun r => pohlSum lam (pohlTc lam / pohlTc lam) (r / pohlRhoc lam)) rho)

/-- **The stated critical point is one.**  For every repulsive exponent from eleven to thirteen the first and the second derivative of the pressure on the isotherm `T = Tc` vanish
at `ρ = ρc`, to one part in ten thousand of `Tc` and `Tc/ρc`; and the critical compressibility factor is between `0.324` and `0.329`. -/
theorem pohl_critical (lam : ℝ) (h1 : 11 ≤ lam) (h2 : lam ≤ 13) :
    |deriv (pohlPressure lam) (pohlRhoc lam)| < 0.0001 * pohlTc lam
    ∧ |deriv (deriv (pohlPressure lam)) (pohlRhoc lam)| < 0.0001 * (pohlTc lam / pohlRhoc lam)
    ∧ 0.324 < pohlPressure lam (pohlRhoc lam) / (pohlRhoc lam * pohlTc lam) ∧ pohlPressure lam (pohlRhoc lam) / (pohlRhoc lam * pohlTc lam) < 0.329 := by
  have hT := pohlTc_pos lam (by linarith)
  have hr := pohlRhoc_pos lam (by linarith)
  obtain ⟨S1, S2, S3, d1, d2, d3, n1, n2, n3⟩ : ∃ S1 S2 S3 : ℝ → ℝ, (∀ x, HasDerivAt (pohlSum lam 1) (S1 x) x) ∧ (∀ x, HasDerivAt S1 (S2 x) x)
      ∧ (∀ x, HasDerivAt S2 (S3 x) x) ∧ (-0.676 < S1 1 ∧ S1 1 < -0.671) ∧ (-0.0001 < 1 + 2 * S1 1 + S2 1 ∧ 1 + 2 * S1 1 + S2 1 < 0.0001)
      ∧ (-0.0001 < 2 * S1 1 + 4 * S2 1 + S3 1 ∧ 2 * S1 1 + 4 * S2 1 + S3 1 < 0.0001) :=
    ⟨_, _, _, (mie_derivs lam).1, (mie_derivs lam).2.1, (mie_derivs lam).2.2, (mie_numbers lam h1 h2).1, (mie_numbers lam h1 h2).2.1, (mie_numbers lam h1 h2).2.2⟩
  generalize hTc : pohlTc lam = T at *
  generalize hrc : pohlRhoc lam = R at *
  have hx : ∀ r, HasDerivAt (fun r : ℝ => r / R) (1 / R) r := fun r => (hasDerivAt_id r).div_const R
  have hcomp : ∀ (f : ℝ → ℝ) (f' r : ℝ), HasDerivAt f f' (r / R) → HasDerivAt (fun r => f (r / R)) (f' * (1 / R)) r := fun f f' r h =>
    HasDerivAt.comp (h₂ := f) r h (hx r)
  have hin : ∀ r, deriv (fun r => pohlSum lam 1 (r / R)) r = S1 (r / R) * (1 / R) := fun r => (hcomp _ _ r (d1 (r / R))).deriv
  have hp : pohlPressure lam = fun r => T * (r + r ^ 2 / R * S1 (r / R)) := by
    funext r
    unfold pohlPressure
    rw [hTc, hrc, div_self hT.ne', hin]
    ring
  have hp1 : ∀ r, HasDerivAt (fun r => T * (r + r ^ 2 / R * S1 (r / R))) (T * (1 + 2 * (r / R) * S1 (r / R) + (r / R) ^ 2 * S2 (r / R))) r := by
    intro r
    refine (((hasDerivAt_id r).add ((((hasDerivAt_id r).fun_pow 2).div_const R).fun_mul (hcomp S1 _ r (d2 (r / R))))).const_mul T).congr_deriv ?_
    simp only [id_eq]
    push_cast
    ring
  have hq1 : deriv (pohlPressure lam) = fun r => T * (1 + 2 * (r / R) * S1 (r / R) + (r / R) ^ 2 * S2 (r / R)) := by
    rw [hp]
    funext r
    exact (hp1 r).deriv
  have hp2 : HasDerivAt (fun r => T * (1 + 2 * (r / R) * S1 (r / R) + (r / R) ^ 2 * S2 (r / R))) (T / R * (2 * S1 1 + 4 * S2 1 + S3 1)) R := by
    refine ((((((hx R).const_mul 2).fun_mul (hcomp S1 _ R (d2 (R / R)))).const_add 1).fun_add
      (((hx R).fun_pow 2).fun_mul (hcomp S2 _ R (d3 (R / R))))).const_mul T).congr_deriv ?_
    simp only [div_self hr.ne']
    push_cast
    ring
  have hTR : 0 < T / R := div_pos hT hr
  refine ⟨?_, ?_, ?_⟩
  · rw [hq1]
    simp only [div_self hr.ne']
    rw [abs_mul, abs_of_pos hT, mul_comm]
    refine mul_lt_mul_of_pos_right ?_ hT
    rw [abs_lt]
    constructor <;> linarith [n2.1, n2.2]
  · rw [hq1, hp2.deriv, abs_mul, abs_of_pos hTR, mul_comm]
    refine mul_lt_mul_of_pos_right ?_ hTR
    rw [abs_lt]
    exact ⟨by linarith [n3.1], n3.2⟩
  · rw [hp]
    simp only [div_self hr.ne']
    have : T * (R + R ^ 2 / R * S1 1) / (R * T) = 1 + S1 1 := by field_simp
    rw [this]
    constructor <;> linarith [n1.1, n1.2]

example : |deriv (pohlPressure 12) (pohlRhoc 12)| < 0.0001 * pohlTc 12 := (pohl_critical 12 (by norm_num) (by norm_num)).1

/-! ## The Mie potential -/

/-- The Mie potential in units of its depth and its zero. -/
noncomputable def mieU (r a x : ℝ) : ℝ := mieC r a * (x ^ (-r) - x ^ (-a))

theorem mieC_lj : mieC 12 6 = 4 := by
  unfold mieC
  norm_num

/-- **The prefactor makes the depth of the well one**, for every pair of exponents: the potential is never below minus one and takes that value at
`x = (r/a)^{1/(r-a)}`. -/
theorem mie_depth (r a : ℝ) (ha : 0 < a) (hr : a < r) :
    (∀ x, 0 < x → -1 ≤ mieU r a x) ∧ mieU r a ((r / a) ^ (1 / (r - a))) = -1 := by
  have hd : 0 < r - a := by linarith
  have hr0 : 0 < r := by linarith
  have hra : 0 < r / a := by positivity
  constructor
  · intro x hx
    set q := a / (r - a) with hq
    have hq0 : 0 < q := by positivity
    have hq1 : q + 1 = r / (r - a) := by rw [hq]; field_simp; ring
    set y := x ^ (-(r - a)) with hy
    have hy0 : 0 < y := Real.rpow_pos_of_pos hx _
    have ea : x ^ (-a) = y ^ q := by
      rw [hy, ← Real.rpow_mul hx.le]
      congr 1
      rw [hq]; field_simp
    have er : x ^ (-r) = y ^ q * y := by
      rw [← ea, hy, ← Real.rpow_add hx]
      congr 1
      ring
    have hC : mieC r a = (q + 1) * ((q + 1) / q) ^ q := by
      unfold mieC
      rw [hq1, ← hq]
      congr 2
      rw [hq]; field_simp
    unfold mieU
    rw [ea, er, hC]
    rcases le_total 1 y with h1 | h1
    · have : 0 ≤ (q + 1) * ((q + 1) / q) ^ q * (y ^ q * y - y ^ q) := by
        refine mul_nonneg (by positivity) ?_
        have : 0 < y ^ q := Real.rpow_pos_of_pos hy0 q
        nlinarith
      linarith
    · have h := Real.geom_mean_le_arith_mean2_weighted (w₁ := q / (q + 1)) (w₂ := 1 / (q + 1)) (p₁ := y / q) (p₂ := 1 - y) (by positivity) (by positivity)
        (by positivity) (by linarith) (by field_simp)
      have hs : q / (q + 1) * (y / q) + 1 / (q + 1) * (1 - y) = 1 / (q + 1) := by field_simp; ring
      rw [hs] at h
      have h' := Real.rpow_le_rpow (by have := sub_nonneg.2 h1; positivity) h (show 0 ≤ q + 1 by positivity)
      rw [Real.mul_rpow (by positivity) (Real.rpow_nonneg (sub_nonneg.2 h1) _), ← Real.rpow_mul (by positivity), ← Real.rpow_mul (sub_nonneg.2 h1),
        div_mul_cancel₀ _ (by positivity), div_mul_cancel₀ _ (by positivity), Real.rpow_one, Real.div_rpow hy0.le hq0.le] at h'
      have hqq : 0 < q ^ q := Real.rpow_pos_of_pos hq0 q
      have hq2 : 0 < (q + 1) ^ q := Real.rpow_pos_of_pos (by positivity) q
      rw [one_div, Real.inv_rpow (by positivity), Real.rpow_add (by positivity), Real.rpow_one] at h'
      rw [Real.div_rpow (by positivity) hq0.le]
      have h2 : (q + 1) * ((q + 1) ^ q) * (y ^ q / q ^ q * (1 - y)) ≤ 1 := by
        have := mul_le_mul_of_nonneg_left h' (show 0 ≤ (q + 1) ^ q * (q + 1) by positivity)
        rw [mul_inv_cancel₀ (by positivity)] at this
        linarith
      have e : (q + 1) * ((q + 1) ^ q / q ^ q) * (y ^ q * y - y ^ q) = -((q + 1) * ((q + 1) ^ q) * (y ^ q / q ^ q * (1 - y))) := by ring
      rw [e]
      linarith
  · have e1 : ((r / a) ^ (1 / (r - a))) ^ (-a) = (r / a) ^ (-(a / (r - a))) := by
      rw [← Real.rpow_mul hra.le]
      congr 1
      ring
    have e2 : ((r / a) ^ (1 / (r - a))) ^ (-r) = (r / a) ^ (-(a / (r - a))) * (a / r) := by
      rw [← Real.rpow_mul hra.le, show 1 / (r - a) * -r = -(a / (r - a)) + (-1) by field_simp; ring, Real.rpow_add hra, Real.rpow_neg_one, inv_div]
    unfold mieU mieC
    rw [e1, e2, Real.rpow_neg hra.le]
    have : 0 < (r / a) ^ (a / (r - a)) := Real.rpow_pos_of_pos hra _
    field_simp
    ring

/-- **The descriptor of the network is the mean field of the attraction**: for exponents above three it is minus the integral of `u x²` from the zero of the potential outwards. -/
theorem mieAlpha_integral (r a : ℝ) (ha : 3 < a) (hr : 3 < r) : mieAlpha r a = -∫ x in Set.Ioi (1 : ℝ), mieU r a x * x ^ (2 : ℝ) := by
  have key : ∀ s : ℝ, 3 < s → MeasureTheory.IntegrableOn (fun x : ℝ => x ^ (-s + 2)) (Set.Ioi 1) ∧ ∫ x in Set.Ioi (1 : ℝ), x ^ (-s + 2) = 1 / (s - 3) := by
    intro s hs
    refine ⟨integrableOn_Ioi_rpow_of_lt (by linarith) one_pos, ?_⟩
    rw [integral_Ioi_rpow_of_lt (by linarith) one_pos, Real.one_rpow]
    rw [div_eq_div_iff (by linarith) (by linarith)]
    ring
  have e : Set.EqOn (fun x : ℝ => mieU r a x * x ^ (2 : ℝ)) (fun x => mieC r a * (x ^ (-r + 2) - x ^ (-a + 2))) (Set.Ioi 1) := by
    intro x hx
    have hx0 : (0 : ℝ) < x := lt_trans one_pos hx
    simp only [mieU]
    rw [Real.rpow_add hx0, Real.rpow_add hx0]
    ring
  rw [MeasureTheory.setIntegral_congr_fun measurableSet_Ioi e, MeasureTheory.integral_const_mul, MeasureTheory.integral_sub (key r hr).1 (key a ha).1,
    (key r hr).2, (key a ha).2]
  unfold mieAlpha
  ring

/-- **The two exponents may be given in either order.** -/
theorem mieAlpha_symm (r a : ℝ) (hr : 0 < r) (ha : 0 < a) (hne : r ≠ a) : mieAlpha r a = mieAlpha a r := by
  have h1 : r - a ≠ 0 := sub_ne_zero.2 hne
  have h2 : a - r ≠ 0 := sub_ne_zero.2 hne.symm
  have hra : 0 < r / a := by positivity
  have hC : mieC a r = -mieC r a := by
    unfold mieC
    have e : (a / r) ^ (r / (a - r)) = (r / a) ^ (a / (r - a)) * (r / a) := by
      rw [← inv_div, Real.inv_rpow hra.le, ← Real.rpow_neg hra.le, ← Real.rpow_add_one hra.ne']
      congr 1
      rw [← neg_sub r a]
      field_simp
      ring
    rw [e, ← neg_sub r a]
    field_simp
  unfold mieAlpha
  rw [hC]
  ring

theorem mieAlpha_lj : mieAlpha 12 6 = 8 / 9 := by
  unfold mieAlpha
  rw [mieC_lj]
  norm_num

/-! ## The network -/

/-- **No residual Helmholtz energy at zero density, whatever the weights**, for exponents other than equal ones or three. -/
theorem feann_zero (ls : List Layer) (n : ℕ) (last : ℕ → ℝ) (r a T : ℝ) (ha : 0 < a) (hr : a < r) (ha3 : a ≠ 3) (hr3 : r ≠ 3) (hT : T ≠ 0) :
    feannAlphar ls n last r a T 0 = .ok 0 := by
  have h : ¬ (r = a ∨ a = 0 ∨ r = 3 ∨ a = 3 ∨ r / a ≤ 0 ∨ T = 0) := by
    have : 0 < r / a := div_pos (by linarith) ha
    rintro (h | h | h | h | h | h)
    · linarith
    · linarith
    · exact hr3 h
    · exact ha3 h
    · linarith
    · exact hT h
  rw [feannAlphar, if_neg h, sub_self, zero_div]

/-- **Equal exponents and exponents of three are accepted, and no value is finite.** -/
theorem feann_nonFinite (ls : List Layer) (n : ℕ) (last : ℕ → ℝ) (r a T rho : ℝ) (h : r = a ∨ r = 3 ∨ a = 3) :
    feannAlphar ls n last r a T rho = .nonFinite := by
  rw [feannAlphar, if_pos]
  rcases h with h | h | h
  · exact Or.inl h
  · exact Or.inr (Or.inr (Or.inl h))
  · exact Or.inr (Or.inr (Or.inr (Or.inl h)))

theorem feann_fold_bound (ls : List Layer) (l : Layer) (x : ℕ → ℝ) (i : ℕ) : |((ls ++ [l]).foldl (fun x l => l.apply x) x) i| ≤ 1 := by
  rw [List.foldl_append]
  simp only [List.foldl_cons, List.foldl_nil, Layer.apply]
  exact (Real.abs_tanh_lt_one _).le

/-- **The network saturates**: with at least one hidden layer, the residual Helmholtz energy of any state is bounded by twice the sum of the last weights over the temperature; so
it stays bounded however dense the fluid, where that of a repulsive core diverges. -/
theorem feann_bounded (ls : List Layer) (l : Layer) (n : ℕ) (last : ℕ → ℝ) (r a T rho v : ℝ) (hT : 0 < T)
    (h : feannAlphar (ls ++ [l]) n last r a T rho = .ok v) : |v| ≤ 2 * (∑ i ∈ range n, |last i|) / T := by
  rw [feannAlphar] at h
  split_ifs at h
  injection h with h
  have hb : ∀ x, |feannForward (ls ++ [l]) n last x| ≤ ∑ i ∈ range n, |last i| := by
    intro x
    refine (abs_sum_le_sum_abs _ _).trans (sum_le_sum fun i _ => ?_)
    rw [abs_mul]
    exact mul_le_of_le_one_left (abs_nonneg _) (feann_fold_bound ls l x i)
  rw [← h, abs_div, abs_of_pos hT]
  refine div_le_div_of_nonneg_right ?_ hT.le
  refine (abs_sub _ _).trans ?_
  linarith [hb (feannInput (mieAlpha r a) rho T), hb (feannInput (mieAlpha r a) 0 T)]

example : (∀ x, 0 < x → -1 ≤ mieU 12 6 x) ∧ mieU 12 6 ((12 / 6) ^ ((1 : ℝ) / (12 - 6))) = -1 := mie_depth 12 6 (by norm_num) (by norm_num)
example : mieAlpha 6 12 = 8 / 9 := by rw [← mieAlpha_symm 12 6 (by norm_num) (by norm_num) (by norm_num), mieAlpha_lj]
example : mieAlpha 12 6 = -∫ x in Set.Ioi (1 : ℝ), mieU 12 6 x * x ^ (2 : ℝ) := mieAlpha_integral 12 6 (by norm_num) (by norm_num)
example : feannAlphar [⟨3, 1, fun i _ => i, fun _ => 1⟩] 1 (fun _ => 2) 12 6 1.5 0 = .ok 0 := feann_zero _ _ _ 12 6 1.5 (by norm_num) (by norm_num) (by norm_num) (by norm_num) (by norm_num)
example : feannAlphar [⟨3, 1, fun i _ => i, fun _ => 1⟩] 1 (fun _ => 2) 6 6 1.5 0.3 = .nonFinite := feann_nonFinite _ _ _ 6 6 1.5 0.3 (Or.inl rfl)
example (v : ℝ) (h : feannAlphar ([] ++ [⟨3, 1, fun i _ => i, fun _ => 1⟩]) 1 (fun _ => 2) 12 6 1.5 0.9 = .ok v) : |v| ≤ 8 / 3 := by
  refine (feann_bounded [] _ 1 _ 12 6 1.5 0.9 v (by norm_num) h).trans ?_
  norm_num
example : pohlAlphar 12 1.5 0 = .ok 0 := (pohl_ok 12 1.5 0.3 (by norm_num) (by norm_num)).2
example : pohlAlphar 0 1.5 0.3 = .nonFinite := pohl_nonFinite 0 1.5 0.3 le_rfl
example : pohlTc 13 < pohlTc 11 := (pohl_monotone 11 13 (by norm_num) (by norm_num)).1

end Teqp.Props

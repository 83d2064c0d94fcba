import Verif.Props.CorrVals
import Mathlib.Algebra.Order.BigOperators.Ring.Finset

/-! # The contribution of Gubbins and Twu with their own integrals -/

set_option autoImplicit false

namespace Teqp.Props
open Teqp.Model Finset

/-- Integrals of the signs that those of the code should have: all positive but `K(334, 445)`. -/
structure MPSigns (I : MPIntegrals) : Prop where
  J : ∀ n T r, 0 < T → 0 < I.J n T r
  K222 : ∀ T r, 0 < T → 0 < I.K222 T r
  K233 : ∀ T r, 0 < T → 0 < I.K233 T r
  K334 : ∀ T r, 0 < T → I.K334 T r < 0
  K444 : ∀ T r, 0 < T → 0 < I.K444 T r

/-- The integrals of Gubbins and Twu have these signs. -/
theorem gt_signs : MPSigns gtIntegrals where
  J _ _ _ _ := Real.exp_pos _
  K222 _ _ _ := Real.exp_pos _
  K233 _ _ _ := Real.exp_pos _
  K334 _ _ _ := neg_lt_zero.2 (Real.exp_pos _)
  K444 _ _ _ := Real.exp_pos _

variable {ι : Type} [Fintype ι]

/-- A mixture as it should be, with some of a polar component in it. -/
structure GTPolar (p : GTParams ι) (T rhoN : ℝ) (x : ι → ℝ) : Prop where
  sigma : ∀ i, 0 < p.sigma i
  eps : ∀ i, 0 < p.eps i
  mu : ∀ i, 0 ≤ p.mubar2 i
  Q : ∀ i, 0 ≤ p.Qbar2 i
  temp : 0 < T
  rho : 0 < rhoN
  frac : ∀ i, 0 ≤ x i
  polar : ∃ i, 0 < x i ∧ (0 < p.mubar2 i ∨ 0 < p.Qbar2 i)

theorem GTPolar.eij {p : GTParams ι} {T rhoN : ℝ} {x : ι → ℝ} (h : GTPolar p T rhoN x) (i j : ι) : 0 < p.eij i j :=
  Real.sqrt_pos.2 (mul_pos (h.eps i) (h.eps j))

theorem GTPolar.sij {p : GTParams ι} {T rhoN : ℝ} {x : ι → ℝ} (h : GTPolar p T rhoN x) (i j : ι) : 0 < p.sij i j :=
  div_pos (add_pos (h.sigma i) (h.sigma j)) two_pos

/-- A double sum of terms that are not negative with a positive one on the diagonal. -/
theorem sum2_pos (f : ι → ι → ℝ) (h : ∀ i j, 0 ≤ f i j) (i : ι) (hi : 0 < f i i) : 0 < ∑ i, ∑ j, f i j :=
  sum_pos' (fun i _ => sum_nonneg fun j _ => h i j) ⟨i, mem_univ i, sum_pos' (fun j _ => h i j) ⟨i, mem_univ i, hi⟩⟩

/-- **The second-order term of a polar mixture is negative.** -/
theorem gt_alpha2_neg {p : GTParams ι} {T rhoN : ℝ} {x : ι → ℝ} (h : GTPolar p T rhoN x) (I : MPIntegrals) (hI : MPSigns I) (rs : ℝ) :
    gtAlpha2 p I T rhoN rs x < 0 := by
  have hT := h.temp
  have hr := h.rho
  have hpi := Real.pi_pos
  have ht : ∀ i j, 0 < T / p.eij i j := fun i j => div_pos hT (h.eij i j)
  have hlead : ∀ i j, 0 ≤ x i * x j / (T / p.eij i i * (T / p.eij j j)) := fun i j =>
    div_nonneg (mul_nonneg (h.frac i) (h.frac j)) (mul_pos (ht i i) (ht j j)).le
  have a1 : ∀ i j, 0 ≤ x i * x j / (T / p.eij i i * (T / p.eij j j)) *
      (p.sigma i ^ 3 * p.sigma j ^ 3 / p.sij i j ^ 3 * p.mubar2 i * p.mubar2 j) * I.J 6 (T / p.eij i j) rs := by
    intro i j
    have := h.sigma i; have := h.sigma j; have := h.sij i j; have := h.mu i; have := h.mu j; have := hI.J 6 _ rs (ht i j)
    have := hlead i j
    positivity
  have a2 : ∀ i j, 0 ≤ x i * x j / (T / p.eij i i * (T / p.eij j j)) *
      (p.sigma i ^ 3 * p.sigma j ^ 5 / p.sij i j ^ 5 * p.mubar2 i * p.Qbar2 j) * I.J 8 (T / p.eij i j) rs := by
    intro i j
    have := h.sigma i; have := h.sigma j; have := h.sij i j; have := h.mu i; have := h.Q j; have := hI.J 8 _ rs (ht i j)
    have := hlead i j
    positivity
  have a3 : ∀ i j, 0 ≤ x i * x j / (T / p.eij i i * (T / p.eij j j)) *
      (p.sigma i ^ 5 * p.sigma j ^ 5 / p.sij i j ^ 7 * p.Qbar2 i * p.Qbar2 j) * I.J 10 (T / p.eij i j) rs := by
    intro i j
    have := h.sigma i; have := h.sigma j; have := h.sij i j; have := h.Q i; have := h.Q j; have := hI.J 10 _ rs (ht i j)
    have := hlead i j
    positivity
  have s1 := sum_nonneg fun i (_ : i ∈ univ) => sum_nonneg fun j (_ : j ∈ univ) => a1 i j
  have s2 := sum_nonneg fun i (_ : i ∈ univ) => sum_nonneg fun j (_ : j ∈ univ) => a2 i j
  have s3 := sum_nonneg fun i (_ : i ∈ univ) => sum_nonneg fun j (_ : j ∈ univ) => a3 i j
  have hsum : 0 < (∑ i, ∑ j, x i * x j / (T / p.eij i i * (T / p.eij j j)) *
      (p.sigma i ^ 3 * p.sigma j ^ 3 / p.sij i j ^ 3 * p.mubar2 i * p.mubar2 j) * I.J 6 (T / p.eij i j) rs) ∨
      0 < ∑ i, ∑ j, x i * x j / (T / p.eij i i * (T / p.eij j j)) *
      (p.sigma i ^ 5 * p.sigma j ^ 5 / p.sij i j ^ 7 * p.Qbar2 i * p.Qbar2 j) * I.J 10 (T / p.eij i j) rs := by
    obtain ⟨i, hxi, hm | hq⟩ := h.polar
    · left
      refine sum2_pos _ a1 i ?_
      have := h.sigma i; have := h.sij i i; have := hI.J 6 _ rs (ht i i); have := ht i i
      positivity
    · right
      refine sum2_pos _ a3 i ?_
      have := h.sigma i; have := h.sij i i; have := hI.J 10 _ rs (ht i i); have := ht i i
      positivity
  have hpr : 0 < Real.pi * rhoN := mul_pos hpi hr
  unfold gtAlpha2
  rcases hsum with hs | hs
  · nlinarith [mul_pos hpr hs, mul_nonneg hpr.le s2, mul_nonneg hpr.le s3]
  · nlinarith [mul_pos hpr hs, mul_nonneg hpr.le s2, mul_nonneg hpr.le s1]

theorem getKijk_nonneg (K : ℝ → ℝ → ℝ) (hK : ∀ T r, 0 < T → 0 < K T r) (rs a b c : ℝ) (ha : 0 < a) (hb : 0 < b) (hc : 0 < c) :
    0 ≤ getKijk K rs a b c :=
  Real.rpow_nonneg (mul_pos (mul_pos (hK a rs ha) (hK b rs hb)) (hK c rs hc)).le _

theorem getKijkNeg_nonpos (K : ℝ → ℝ → ℝ) (hK : ∀ T r, 0 < T → K T r < 0) (rs a b c : ℝ) (ha : 0 < a) (hb : 0 < b) (hc : 0 < c) :
    getKijkNeg K rs a b c ≤ 0 ∧ K a rs * K b rs * K c rs < 0 := by
  have h : K a rs * K b rs * K c rs < 0 := mul_neg_of_pos_of_neg (mul_pos_of_neg_of_neg (hK a rs ha) (hK b rs hb)) (hK c rs hc)
  exact ⟨neg_nonpos.2 (Real.rpow_nonneg (neg_nonneg.2 h.le) _), h⟩

/-- **The third-order term of a polar mixture is not negative.** -/
theorem gt_alpha3_nonneg {p : GTParams ι} {T rhoN : ℝ} {x : ι → ℝ} (h : GTPolar p T rhoN x) (I : MPIntegrals) (hI : MPSigns I) (rs : ℝ) :
    0 ≤ gtAlpha3 p I T rhoN rs x := by
  have hT := h.temp
  have hr := h.rho
  have hpi := Real.pi_pos
  have ht : ∀ i j, 0 < T / p.eij i j := fun i j => div_pos hT (h.eij i j)
  have hA : 0 ≤ gtAlpha3A p I T rhoN rs x := by
    have hlead : ∀ i j, 0 ≤ x i * x j / (T / p.eij i i * (T / p.eij j j)) ^ (3 / 2 : ℝ) := fun i j =>
      div_nonneg (mul_nonneg (h.frac i) (h.frac j)) (Real.rpow_nonneg (mul_pos (ht i i) (ht j j)).le _)
    unfold gtAlpha3A
    have key : ∀ f : ι → ι → ℝ, (∀ i j, 0 ≤ f i j) → 0 ≤ ∑ i, ∑ j, f i j := fun f hf => sum_nonneg fun i _ => sum_nonneg fun j _ => hf i j
    have k1 := key (fun i j => x i * x j / (T / p.eij i i * (T / p.eij j j)) ^ (3 / 2 : ℝ) *
      ((p.sigma i * p.sigma j) ^ (11 / 2 : ℝ) / p.sij i j ^ 8 * p.mubar2 i * p.mubar2 j * Real.sqrt (p.Qbar2 i * p.Qbar2 j)) *
        I.J 11 (T / p.eij i j) rs) (by
      intro i j
      have := h.sigma i; have := h.sigma j; have := h.sij i j; have := h.mu i; have := h.mu j; have := hI.J 11 _ rs (ht i j)
      have := hlead i j
      positivity)
    have k2 := key (fun i j => x i * x j / (T / p.eij i i * (T / p.eij j j)) ^ (3 / 2 : ℝ) *
      (p.sigma i ^ (11 / 2 : ℝ) * p.sigma j ^ (15 / 2 : ℝ) / p.sij i j ^ 10 * p.mubar2 i * Real.sqrt (p.Qbar2 i) * p.Qbar2 j ^ (3 / 2 : ℝ)) *
        I.J 13 (T / p.eij i j) rs) (by
      intro i j
      have := h.sigma i; have := h.sigma j; have := h.sij i j; have := h.mu i; have := h.Q j; have := hI.J 13 _ rs (ht i j)
      have := hlead i j
      positivity)
    have k3 := key (fun i j => x i * x j / (T / p.eij i i * (T / p.eij j j)) ^ (3 / 2 : ℝ) *
      ((p.sigma i * p.sigma j) ^ (15 / 2 : ℝ) / p.sij i j ^ 12 * p.Qbar2 i ^ (3 / 2 : ℝ) * p.Qbar2 j ^ (3 / 2 : ℝ)) *
        I.J 15 (T / p.eij i j) rs) (by
      intro i j
      have := h.sigma i; have := h.sigma j; have := h.sij i j; have := h.Q i; have := h.Q j; have := hI.J 15 _ rs (ht i j)
      have := hlead i j
      positivity)
    have hpr : 0 ≤ Real.pi * rhoN := (mul_pos hpi hr).le
    simp only
    nlinarith [mul_nonneg hpr k1, mul_nonneg hpr k2, mul_nonneg hpr k3]
  have hB : 0 ≤ gtAlpha3B p I T rhoN rs x := by
    have hlead : ∀ i j k, 0 ≤ x i * x j * x k / (T / p.eij i i * (T / p.eij j j) * (T / p.eij k k)) := fun i j k =>
      div_nonneg (mul_nonneg (mul_nonneg (h.frac i) (h.frac j)) (h.frac k)) (mul_pos (mul_pos (ht i i) (ht j j)) (ht k k)).le
    unfold gtAlpha3B
    have n1 : ∀ i j k, 0 ≤ getKijk I.K222 rs (T / p.eij i j) (T / p.eij i k) (T / p.eij j k) :=
      fun i j k => getKijk_nonneg _ hI.K222 rs _ _ _ (ht i j) (ht i k) (ht j k)
    have n2 : ∀ i j k, 0 ≤ getKijk I.K233 rs (T / p.eij i j) (T / p.eij i k) (T / p.eij j k) :=
      fun i j k => getKijk_nonneg _ hI.K233 rs _ _ _ (ht i j) (ht i k) (ht j k)
    have n3 : ∀ i j k, getKijkNeg I.K334 rs (T / p.eij i j) (T / p.eij i k) (T / p.eij j k) ≤ 0 :=
      fun i j k => (getKijkNeg_nonpos _ hI.K334 rs _ _ _ (ht i j) (ht i k) (ht j k)).1
    have n4 : ∀ i j k, 0 ≤ getKijk I.K444 rs (T / p.eij i j) (T / p.eij i k) (T / p.eij j k) :=
      fun i j k => getKijk_nonneg _ hI.K444 rs _ _ _ (ht i j) (ht i k) (ht j k)
    refine add_nonneg (add_nonneg (add_nonneg ?_ ?_) ?_) ?_
    · refine mul_nonneg (by positivity) (sum_nonneg fun i _ => sum_nonneg fun j _ => sum_nonneg fun k _ => ?_)
      split_ifs
      · have := h.sigma i; have := h.sigma j; have := h.sigma k; have := h.sij i j; have := h.sij i k; have := h.sij j k
        have := h.mu i; have := h.mu j; have := h.mu k; have := hlead i j k; have := n1 i j k
        positivity
      · exact le_rfl
    · refine mul_nonneg (by norm_num) (mul_nonneg (by positivity) (sum_nonneg fun i _ => sum_nonneg fun j _ => sum_nonneg fun k _ => ?_))
      split_ifs
      · have := h.sigma i; have := h.sigma j; have := h.sigma k; have := h.sij i j; have := h.sij i k; have := h.sij j k
        have := h.mu i; have := h.mu j; have := h.Q k; have := hlead i j k; have := n2 i j k
        positivity
      · exact le_rfl
    · refine mul_nonneg (by norm_num) (mul_nonneg_of_nonpos_of_nonpos ?_ (sum_nonpos fun i _ => sum_nonpos fun j _ => sum_nonpos fun k _ => ?_))
      · have : 0 ≤ Real.pi ^ 3 * (rhoN * rhoN) / 45 * Real.sqrt (22 * Real.pi / 63) := by positivity
        have e : -32 * Real.pi ^ 3 * (rhoN * rhoN) / 45 * Real.sqrt (22 * Real.pi / 63) =
          -32 * (Real.pi ^ 3 * (rhoN * rhoN) / 45 * Real.sqrt (22 * Real.pi / 63)) := by ring
        rw [e]; linarith
      split_ifs
      · refine mul_nonpos_of_nonneg_of_nonpos ?_ (n3 i j k)
        have := h.sigma i; have := h.sigma j; have := h.sigma k; have := h.sij i j; have := h.sij i k; have := h.sij j k
        have := h.mu i; have := h.Q j; have := h.Q k; have := hlead i j k
        positivity
      · exact le_rfl
    · refine mul_nonneg (by positivity) (sum_nonneg fun i _ => sum_nonneg fun j _ => sum_nonneg fun k _ => ?_)
      split_ifs
      · have := h.sigma i; have := h.sigma j; have := h.sigma k; have := h.sij i j; have := h.sij i k; have := h.sij j k
        have := h.Q i; have := h.Q j; have := h.Q k; have := hlead i j k; have := n4 i j k
        positivity
      · exact le_rfl
  exact add_nonneg hA hB

/-- **With integrals of the right signs the contribution of Gubbins and Twu to a polar mixture is always a number, negative and not
below the second-order term.** -/
theorem gt_contribution_sign {p : GTParams ι} {T rhoN : ℝ} {x : ι → ℝ} (h : GTPolar p T rhoN x) (I : MPIntegrals) (hI : MPSigns I) (rs : ℝ) :
    ∃ v, gtEval p I T rhoN rs x = .ok v ∧ gtAlpha2 p I T rhoN rs x ≤ v ∧ v < 0 := by
  have h2 := gt_alpha2_neg h I hI rs
  have h3 := gt_alpha3_nonneg h I hI rs
  have hq : gtAlpha3 p I T rhoN rs x / gtAlpha2 p I T rhoN rs x ≤ 0 := div_nonpos_of_nonneg_of_nonpos h3 h2.le
  have hflag : (∑ i, |p.mubar2 i| > 0 ∨ ∑ i, |p.Qbar2 i| > 0) := by
    obtain ⟨i, _, hm | hq⟩ := h.polar
    · left; exact sum_pos' (fun j _ => abs_nonneg _) ⟨i, mem_univ i, abs_pos.2 hm.ne'⟩
    · right; exact sum_pos' (fun j _ => abs_nonneg _) ⟨i, mem_univ i, abs_pos.2 hq.ne'⟩
  refine ⟨_, by unfold gtEval; rw [if_pos hflag]; simp only; rw [if_neg (by intro e; linarith), if_neg (by intro e; linarith)], ?_, ?_⟩
  · rw [le_div_iff₀ (by linarith)]
    nlinarith
  · exact div_neg_of_neg_of_pos h2 (by linarith)

/-- **The same with the integrals that the code builds from Gubbins and Twu's own correlations.** -/
theorem gt_own_integrals {p : GTParams ι} {T rhoN : ℝ} {x : ι → ℝ} (h : GTPolar p T rhoN x) (rs : ℝ) :
    ∃ o v, mpBuild gtFamily = .ok o ∧ (∀ i j, o.Are gtIntegrals (T / p.eij i j) rs) ∧ gtEval p gtIntegrals T rhoN rs x = .ok v ∧ v < 0 := by
  obtain ⟨o, ho⟩ := mp_built.2.1
  obtain ⟨v, hv, -, hn⟩ := gt_contribution_sign h gtIntegrals gt_signs rs
  exact ⟨o, v, ho, fun i j => gt_members o ho _ rs (div_pos h.temp (h.eij i j)), hv, hn⟩

example : GTPolar (ι := Fin 2) ⟨fun _ => 3e-10, fun i => if i = 0 then 200 else 300, fun i => if i = 0 then 1 else 0, fun _ => 0⟩ 300 1e27
    (fun _ => 1 / 2) where
  sigma _ := by norm_num
  eps i := by fin_cases i <;> norm_num
  mu i := by fin_cases i <;> norm_num
  Q _ := le_rfl
  temp := by norm_num
  rho := by norm_num
  frac _ := by norm_num
  polar := ⟨0, by norm_num, by norm_num⟩

/-- **The `K(222, 333)` of Luckas changes sign**: at a reduced temperature of 200 and a reduced density of one half it is negative,
so that `get_Kijk` of a pure fluid takes the cube root of a negative number there, which is not a number in the code. -/
theorem luckasK_negative : ∃ o k, LuckasK.make 222 333 = .ok o ∧ o.get 200 (1 / 2) = .ok k ∧ k < 0 ∧ k * k * k < 0 := by
  have hs1 : 1.414 < Real.sqrt 2 := Real.lt_sqrt_of_sq_lt (by norm_num)
  have hs2 : Real.sqrt 2 < 1.415 := (Real.sqrt_lt' (by norm_num)).2 (by norm_num)
  have hx1 : 0.6463 < 1 - 1 / 2 / Real.sqrt 2 := by
    have : 1 / 2 / Real.sqrt 2 < 0.3537 := by
      rw [div_lt_iff₀ (by linarith)]; linarith
    linarith
  have hx2 : 1 - 1 / 2 / Real.sqrt 2 < 0.6467 := by
    have : 0.3533 < 1 / 2 / Real.sqrt 2 := by
      rw [lt_div_iff₀ (by linarith)]; linarith
    linarith
  set y := 1 - 1 / 2 / Real.sqrt 2 with hy
  have hp1 : 0.17 < y ^ 4 := by
    have := pow_lt_pow_left₀ hx1 (by norm_num) (show 4 ≠ 0 by norm_num)
    norm_num at this ⊢; linarith
  have hp2 : y ^ 4 < 0.18 := by
    have := pow_lt_pow_left₀ hx2 (by linarith) (show 4 ≠ 0 by norm_num)
    norm_num at this ⊢; linarith
  have hE1 : 1.17 < Real.exp (y ^ 4) := by linarith [Real.add_one_le_exp (y ^ 4)]
  have hE2 : Real.exp (y ^ 4) < 1.2 := by
    refine (Real.exp_lt_exp.2 hp2).trans ?_
    refine lt_of_pow_lt_pow_left₀ 50 (by norm_num) ?_
    have e : Real.exp 0.18 ^ 50 = Real.exp 1 ^ 9 := by rw [← Real.exp_nat_mul, ← Real.exp_nat_mul]; norm_num
    rw [e]
    have := pow_lt_pow_left₀ Real.exp_one_lt_d9 (Real.exp_pos 1).le (show 9 ≠ 0 by norm_num)
    refine this.trans ?_
    norm_num
  set E := Real.exp (y ^ 4) with hE
  have hval : luckasK222.get 200 (1 / 2) = .ok (densPoly luckasK222.a 4 0 (1 / 2) + densPoly luckasK222.a 4 1 (1 / 2) * 200 +
      densPoly luckasK222.a 4 2 (1 / 2) * E ^ 2 + densPoly luckasK222.a 4 3 (1 / 2) * E ^ 3) := rfl
  have d0 : densPoly luckasK222.a 4 0 (1 / 2) < 0.2046 := by
    simp only [densPoly, coef, luckasK222, List.getD_cons_succ, List.getD_cons_zero]; norm_num
  have d1 : densPoly luckasK222.a 4 1 (1 / 2) < -0.0003 := by
    simp only [densPoly, coef, luckasK222, List.getD_cons_succ, List.getD_cons_zero]; norm_num
  have d2 : densPoly luckasK222.a 4 2 (1 / 2) < -0.439 := by
    simp only [densPoly, coef, luckasK222, List.getD_cons_succ, List.getD_cons_zero]; norm_num
  have d3 : densPoly luckasK222.a 4 3 (1 / 2) < 0.266 := by
    simp only [densPoly, coef, luckasK222, List.getD_cons_succ, List.getD_cons_zero]; norm_num
  have hneg : densPoly luckasK222.a 4 0 (1 / 2) + densPoly luckasK222.a 4 1 (1 / 2) * 200 +
      densPoly luckasK222.a 4 2 (1 / 2) * E ^ 2 + densPoly luckasK222.a 4 3 (1 / 2) * E ^ 3 < 0 := by
    have e2 : 1.3689 < E ^ 2 := by nlinarith
    have t2 : densPoly luckasK222.a 4 2 (1 / 2) * E ^ 2 ≤ -0.439 * E ^ 2 := mul_le_mul_of_nonneg_right d2.le (by positivity)
    have t3 : densPoly luckasK222.a 4 3 (1 / 2) * E ^ 3 ≤ 0.266 * E ^ 3 := mul_le_mul_of_nonneg_right d3.le (by positivity)
    have e3 : E ^ 3 ≤ 1.2 * E ^ 2 := by nlinarith
    nlinarith
  refine ⟨luckasK222, _, luckasK222_made, hval, hneg, ?_⟩
  exact mul_neg_of_pos_of_neg (mul_pos_of_neg_of_neg hneg hneg) hneg

end Teqp.Props

import Verif.Model.Polar
import Verif.Props.PCSAFT
import Verif.Lemmas.Outcome
import Mathlib.Analysis.Calculus.Deriv.Inv
import Mathlib.Analysis.Calculus.Deriv.Pow
import Mathlib.Analysis.Calculus.Deriv.Add
import Mathlib.Analysis.Calculus.Deriv.Mul
import Mathlib.Tactic

/-! # Properties of the polar contributions of Gross and Vrabec (C79, C80) -/

set_option autoImplicit false

namespace Teqp.Spec
open Finset Teqp.Model

/-- The published third-order quadrupolar term (Gross, AIChE J. 2005, eqs. 10 and 13), with a correlation integral `J`. -/
noncomputable def thirdOrderQuad {ι : Type} [Fintype ι] (J : ℝ → ℝ → ℝ) (p : GVParams ι) (T rho eta : ℝ) (x : ι → ℝ) : ℝ :=
  -4 * Real.pi ^ 2 / 3 * (3 / 4) ^ 3 * rho ^ 2 * ∑ i, ∑ j, ∑ k,
    x i * x j * x k * (p.eps i / T) * (p.eps j / T) * (p.eps k / T) * (p.sigma i ^ 5 * p.sigma j ^ 5 * p.sigma k ^ 5) /
      (((p.sigma i + p.sigma j) / 2) ^ 3 * ((p.sigma i + p.sigma k) / 2) ^ 3 * ((p.sigma j + p.sigma k) / 2) ^ 3) *
      (p.nQ i * p.nQ j * p.nQ k) * (p.Qstar2 i * p.Qstar2 j * p.Qstar2 k) *
      J eta (min ((p.m i * p.m j * p.m k) ^ (1 / 3 : ℝ)) 2)

end Teqp.Spec

namespace Teqp.Props
open Finset Teqp.Model Teqp.Spec

/-! ## The correlation integrals of third order -/

theorem gvJ3_eq (c : Fin 3 → Fin 5 → ℝ) (eta m : ℝ) : gvJ3 c eta m =
    gvCoeff c m 0 + gvCoeff c m 1 * eta + gvCoeff c m 2 * eta ^ 2 + gvCoeff c m 3 * eta ^ 3 + gvCoeff c m 4 * eta ^ 4 := by
  unfold gvJ3
  simp only [Fin.sum_univ_succ, Fin.sum_univ_zero, Fin.val_zero, pow_zero, mul_one, Fin.val_succ]
  simp
  ring

/-- The dipolar integral of third order is negative up to a packing fraction of one half. -/
theorem JDD3_neg (eta m : ℝ) (h0 : 0 ≤ eta) (h1 : eta ≤ 1 / 2) (hm : 1 ≤ m) (hm2 : m ≤ 2) : JDD3 eta m < 0 := by
  have hmp : 0 < m := by linarith
  have e : JDD3 eta m * m ^ 2 =
      (2 - m) ^ 2 * (-0.0646774 + 0.1975882 * eta - 0.8087562 * eta ^ 2 + 0.6902849 * eta ^ 3)
      + 2 * (2 - m) * (m - 1) * (-0.29234965 + 1.245155 * eta - 3.63478335 * eta ^ 2 + 2.96534395 * eta ^ 3)
      + (m - 1) ^ 2 * (-2.1628848 + 6.7752044 * eta - 7.995552 * eta ^ 2 + 2.2208874 * eta ^ 3) := by
    unfold JDD3
    rw [gvJ3_eq]
    simp only [gvCoeff, tabDDc, gvTable, List.getD_cons_zero, List.getD_cons_succ, Fin.val_zero, Fin.val_one, Fin.val_two,
      show ((3 : Fin 5) : ℕ) = 3 from rfl, show ((4 : Fin 5) : ℕ) = 4 from rfl]
    field_simp
    ring
  have b0 : -0.0646774 + 0.1975882 * eta - 0.8087562 * eta ^ 2 + 0.6902849 * eta ^ 3 < 0 := by
    nlinarith [mul_nonneg h0 (sub_nonneg.mpr h1), mul_nonneg (mul_nonneg h0 h0) (sub_nonneg.mpr h1), sq_nonneg (eta - 0.2)]
  have b1 : -0.29234965 + 1.245155 * eta - 3.63478335 * eta ^ 2 + 2.96534395 * eta ^ 3 < 0 := by
    nlinarith [mul_nonneg h0 (sub_nonneg.mpr h1), mul_nonneg (mul_nonneg h0 h0) (sub_nonneg.mpr h1), sq_nonneg (eta - 0.25)]
  have b2 : -2.1628848 + 6.7752044 * eta - 7.995552 * eta ^ 2 + 2.2208874 * eta ^ 3 < 0 := by
    nlinarith [mul_nonneg h0 (sub_nonneg.mpr h1), mul_nonneg (mul_nonneg h0 h0) (sub_nonneg.mpr h1), sq_nonneg (eta - 0.45)]
  have hneg : JDD3 eta m * m ^ 2 < 0 := by
    rw [e]
    rcases eq_or_lt_of_le hm with h | h
    · rw [← h]; norm_num; linarith
    · have : 0 < (m - 1) ^ 2 := by positivity
      have t0 := mul_nonpos_of_nonneg_of_nonpos (sq_nonneg (2 - m)) b0.le
      have t1 := mul_nonpos_of_nonneg_of_nonpos (mul_nonneg (mul_nonneg zero_le_two (sub_nonneg.mpr hm2)) (sub_nonneg.mpr hm)) b1.le
      have t2 := mul_neg_of_pos_of_neg this b2
      linarith
  exact neg_of_mul_neg_left hneg (by positivity)

/-- The quadrupolar integral of third order, which the code defines but does not use, is positive there. -/
theorem JQQ3_pos (eta m : ℝ) (h0 : 0 ≤ eta) (h1 : eta ≤ 1 / 2) (hm : 1 ≤ m) (hm2 : m ≤ 2) : 0 < JQQ3 eta m := by
  have hmp : 0 < m := by linarith
  have e : JQQ3 eta m * m ^ 2 =
      (2 - m) ^ 2 * (0.5000437 + 6.5318692 * eta - 16.014780 * eta ^ 2 + 14.425970 * eta ^ 3)
      + 2 * (2 - m) * (m - 1) * (0.43227855 + 6.0480111 * eta - 23.3759109 * eta ^ 2 + 23.403948 * eta ^ 3)
      + (m - 1) ^ 2 * (6.0005936 + 12.5597452 * eta - 23.292628 * eta ^ 2 + 35.911912 * eta ^ 3) := by
    unfold JQQ3
    rw [gvJ3_eq]
    simp only [gvCoeff, tabQQc, gvTable, List.getD_cons_zero, List.getD_cons_succ, Fin.val_zero, Fin.val_one, Fin.val_two,
      show ((3 : Fin 5) : ℕ) = 3 from rfl, show ((4 : Fin 5) : ℕ) = 4 from rfl]
    field_simp
    ring
  have b0 : 0 < 0.5000437 + 6.5318692 * eta - 16.014780 * eta ^ 2 + 14.425970 * eta ^ 3 := by
    nlinarith [mul_nonneg h0 (sub_nonneg.mpr h1), mul_nonneg (mul_nonneg h0 h0) (sub_nonneg.mpr h1), mul_nonneg h0 (sq_nonneg (eta - 0.45))]
  have b1 : 0 < 0.43227855 + 6.0480111 * eta - 23.3759109 * eta ^ 2 + 23.403948 * eta ^ 3 := by
    nlinarith [mul_nonneg h0 (sub_nonneg.mpr h1), mul_nonneg (mul_nonneg h0 h0) (sub_nonneg.mpr h1), mul_nonneg h0 (sq_nonneg (eta - 0.5))]
  have b2 : 0 < 6.0005936 + 12.5597452 * eta - 23.292628 * eta ^ 2 + 35.911912 * eta ^ 3 := by
    nlinarith [mul_nonneg h0 (sub_nonneg.mpr h1), mul_nonneg (mul_nonneg h0 h0) (sub_nonneg.mpr h1), mul_nonneg h0 (sq_nonneg (eta - 0.5))]
  have hpos : 0 < JQQ3 eta m * m ^ 2 := by
    rw [e]
    rcases eq_or_lt_of_le hm with h | h
    · rw [← h]; norm_num; linarith
    · have : 0 < (m - 1) ^ 2 := by positivity
      have t0 := mul_nonneg (sq_nonneg (2 - m)) b0.le
      have t1 := mul_nonneg (mul_nonneg (mul_nonneg zero_le_two (sub_nonneg.mpr hm2)) (sub_nonneg.mpr hm)) b1.le
      have t2 := mul_pos this b2
      linarith
  exact pos_of_mul_pos_left hpos (by positivity)

example : JDD3 0.3 1.5 < 0 ∧ 0 < JQQ3 0.3 1.5 :=
  ⟨JDD3_neg 0.3 1.5 (by norm_num) (by norm_num) (by norm_num) (by norm_num),
    JQQ3_pos 0.3 1.5 (by norm_num) (by norm_num) (by norm_num) (by norm_num)⟩

section
variable {ι κ : Type} [Fintype ι] [Fintype κ]

/-- Physical parameters and composition. -/
structure GVPhysical (p : GVParams ι) (T : ℝ) (x : ι → ℝ) : Prop where
  hT : 0 < T
  hm : ∀ i, 1 ≤ p.m i
  hsigma : ∀ i, 0 < p.sigma i
  heps : ∀ i, 0 < p.eps i
  hmu : ∀ i, 0 ≤ p.mustar2 i
  hnmu : ∀ i, 0 ≤ p.nmu i
  hQ : ∀ i, 0 ≤ p.Qstar2 i
  hnQ : ∀ i, 0 ≤ p.nQ i
  hx : ∀ i, 0 ≤ x i

theorem mijk_range {p : GVParams ι} {T : ℝ} {x : ι → ℝ} (h : GVPhysical p T x) (i j k : ι) : 1 ≤ p.mijk i j k ∧ p.mijk i j k ≤ 2 := by
  unfold GVParams.mijk
  refine ⟨le_min (Real.one_le_rpow ?_ (by norm_num)) (by norm_num), min_le_right _ _⟩
  exact one_le_mul_of_one_le_of_one_le (one_le_mul_of_one_le_of_one_le (h.hm i) (h.hm j)) (h.hm k)

theorem sij_pos {p : GVParams ι} {T : ℝ} {x : ι → ℝ} (h : GVPhysical p T x) (i j : ι) : 0 < p.sij i j := by
  unfold GVParams.sij
  have := h.hsigma i
  have := h.hsigma j
  positivity

/-- The sum in the quadrupolar term of third order has the sign of the integral. -/
theorem quad_third_order_sum {p : GVParams ι} {T rho : ℝ} {x : ι → ℝ} (h : GVPhysical p T x) (J : ℝ → ℝ → ℝ) (eta : ℝ)
    (hJ : ∀ m, 1 ≤ m → m ≤ 2 → 0 < J eta m) (hrho : rho ≠ 0) :
    thirdOrderQuad J p T rho eta x ≤ 0 ∧ ((∃ i, 0 < x i ∧ 0 < p.nQ i ∧ 0 < p.Qstar2 i) → thirdOrderQuad J p T rho eta x < 0) := by
  have hterm : ∀ i j k, 0 ≤ x i * x j * x k * (p.eps i / T) * (p.eps j / T) * (p.eps k / T) *
      (p.sigma i ^ 5 * p.sigma j ^ 5 * p.sigma k ^ 5) /
      (((p.sigma i + p.sigma j) / 2) ^ 3 * ((p.sigma i + p.sigma k) / 2) ^ 3 * ((p.sigma j + p.sigma k) / 2) ^ 3) *
      (p.nQ i * p.nQ j * p.nQ k) * (p.Qstar2 i * p.Qstar2 j * p.Qstar2 k) *
      J eta (min ((p.m i * p.m j * p.m k) ^ (1 / 3 : ℝ)) 2) := by
    intro i j k
    have := hJ _ (mijk_range h i j k).1 (mijk_range h i j k).2
    unfold GVParams.mijk at this
    have := h.hT
    have := h.hsigma i
    have := h.hsigma j
    have := h.hsigma k
    have := h.heps i
    have := h.heps j
    have := h.heps k
    have := h.hQ i
    have := h.hQ j
    have := h.hQ k
    have := h.hnQ i
    have := h.hnQ j
    have := h.hnQ k
    have := h.hx i
    have := h.hx j
    have := h.hx k
    positivity
  have hpre : -4 * Real.pi ^ 2 / 3 * (3 / 4) ^ 3 * rho ^ 2 < 0 := by
    have : 0 < 4 * Real.pi ^ 2 / 3 * (3 / 4) ^ 3 * rho ^ 2 := by positivity
    linarith
  unfold thirdOrderQuad
  constructor
  · exact mul_nonpos_of_nonpos_of_nonneg hpre.le
      (Finset.sum_nonneg fun i _ => Finset.sum_nonneg fun j _ => Finset.sum_nonneg fun k _ => hterm i j k)
  · rintro ⟨i, hxi, hni, hQi⟩
    refine mul_neg_of_neg_of_pos hpre ?_
    refine Finset.sum_pos' (fun i _ => Finset.sum_nonneg fun j _ => Finset.sum_nonneg fun k _ => hterm i j k) ⟨i, mem_univ _, ?_⟩
    refine Finset.sum_pos' (fun j _ => Finset.sum_nonneg fun k _ => hterm i j k) ⟨i, mem_univ _, ?_⟩
    refine Finset.sum_pos' (fun k _ => hterm i i k) ⟨i, mem_univ _, ?_⟩
    have := hJ _ (mijk_range h i i i).1 (mijk_range h i i i).2
    unfold GVParams.mijk at this
    have := h.hT
    have := h.hsigma i
    have := h.heps i
    positivity

/-- The code evaluates the published sum, but with the dipolar integral. -/
theorem alpha3QQ_eq {p : GVParams ι} {T : ℝ} {x : ι → ℝ} (h : GVPhysical p T x) (rho eta : ℝ) :
    alpha3QQ p T rho eta x = thirdOrderQuad JDD3 p T rho eta x := by
  unfold alpha3QQ thirdOrderQuad
  congr 1
  refine Finset.sum_congr rfl fun i _ => Finset.sum_congr rfl fun j _ => Finset.sum_congr rfl fun k _ => ?_
  by_cases hn : p.nQ i * p.nQ j * p.nQ k > 0
  · rw [if_pos hn]
    unfold GVParams.sij GVParams.mijk
    simp only [div_eq_mul_inv, mul_pow, mul_inv]
    ring
  · rw [if_neg hn]
    have : p.nQ i * p.nQ j * p.nQ k = 0 :=
      le_antisymm (not_lt.mp hn) (mul_nonneg (mul_nonneg (h.hnQ i) (h.hnQ j)) (h.hnQ k))
    rw [this]
    ring

/-- For every mixture with a quadrupolar component, at every temperature and density with packing fraction up to one half, the
third-order term of the code is positive while the published one is negative. -/
theorem quad_third_order_wrong_sign {p : GVParams ι} {T : ℝ} {x : ι → ℝ} (h : GVPhysical p T x) (rho eta : ℝ) (hrho : rho ≠ 0)
    (h0 : 0 ≤ eta) (h1 : eta ≤ 1 / 2) (hq : ∃ i, 0 < x i ∧ 0 < p.nQ i ∧ 0 < p.Qstar2 i) :
    0 < alpha3QQ p T rho eta x ∧ thirdOrderQuad JQQ3 p T rho eta x < 0 := by
  refine ⟨?_, (quad_third_order_sum h JQQ3 eta (fun m h2 h3 => JQQ3_pos eta m h0 h1 h2 h3) hrho).2 hq⟩
  have hneg := (quad_third_order_sum h (fun e m => -JDD3 e m) eta (fun m h2 h3 => neg_pos.mpr (JDD3_neg eta m h0 h1 h2 h3)) hrho).2 hq
  have e : thirdOrderQuad (fun e m => -JDD3 e m) p T rho eta x = -thirdOrderQuad JDD3 p T rho eta x := by
    unfold thirdOrderQuad
    rw [← mul_neg]
    congr 1
    simp only [mul_neg, Finset.sum_neg_distrib]
  rw [e, ← alpha3QQ_eq h] at hneg
  linarith

/-- Carbon dioxide with a quadrupole. -/
noncomputable def co2GV : GVParams (Fin 1) :=
  ⟨fun _ => 1.5131, fun _ => 3.1869, fun _ => 163.33, fun _ => 0, fun _ => 0, fun _ => 0.7, fun _ => 1⟩

example : GVPhysical co2GV 300 (fun _ => 1) ∧ ∃ i, 0 < (fun _ : Fin 1 => (1 : ℝ)) i ∧ 0 < co2GV.nQ i ∧ 0 < co2GV.Qstar2 i := by
  refine ⟨⟨?_, ?_, ?_, ?_, ?_, ?_, ?_, ?_, ?_⟩, 0, ?_⟩ <;> simp [co2GV] <;> norm_num

/-- What does hold: without a quadrupolar component, or at zero density, both are zero. -/
theorem quad_third_order_partial {p : GVParams ι} {T : ℝ} {x : ι → ℝ} (h : GVPhysical p T x) (rho eta : ℝ)
    (hq : rho = 0 ∨ ∀ i, x i = 0 ∨ p.nQ i = 0 ∨ p.Qstar2 i = 0) :
    alpha3QQ p T rho eta x = thirdOrderQuad JQQ3 p T rho eta x := by
  rw [alpha3QQ_eq h]
  rcases hq with rfl | hq
  · simp [thirdOrderQuad]
  · unfold thirdOrderQuad
    congr 1
    refine Finset.sum_congr rfl fun i _ => Finset.sum_congr rfl fun j _ => Finset.sum_congr rfl fun k _ => ?_
    rcases hq i with h | h | h <;> rw [h] <;> ring

/-! ## Copies of components -/

/-- Parameters pulled back along a map of components. -/
def GVParams.pull (p : GVParams ι) (f : κ → ι) : GVParams κ :=
  { m := fun i => p.m (f i), sigma := fun i => p.sigma (f i), eps := fun i => p.eps (f i), mustar2 := fun i => p.mustar2 (f i)
    nmu := fun i => p.nmu (f i), Qstar2 := fun i => p.Qstar2 (f i), nQ := fun i => p.nQ (f i) }

open Classical in
theorem sum2_pull (f : κ → ι) (x : ι → ℝ) (y : κ → ℝ) (h : ∀ i, x i = ∑ c ∈ univ.filter (fun c => f c = i), y c) (g : ι → ι → ℝ) :
    ∑ c, ∑ d, y c * y d * g (f c) (f d) = ∑ i, ∑ j, x i * x j * g i j := by
  have hs := sum_pull f x y h
  have e : ∀ c, ∑ d, y c * y d * g (f c) (f d) = y c * ∑ j, x j * g (f c) j := by
    intro c
    rw [← hs fun j => g (f c) j, Finset.mul_sum]
    exact Finset.sum_congr rfl fun d _ => by ring
  rw [Finset.sum_congr rfl fun c _ => e c, hs fun i => ∑ j, x j * g i j]
  refine Finset.sum_congr rfl fun i _ => ?_
  rw [Finset.mul_sum]
  exact Finset.sum_congr rfl fun d _ => by ring

open Classical in
theorem sum3_pull (f : κ → ι) (x : ι → ℝ) (y : κ → ℝ) (h : ∀ i, x i = ∑ c ∈ univ.filter (fun c => f c = i), y c)
    (g : ι → ι → ι → ℝ) :
    ∑ c, ∑ d, ∑ e, y c * y d * y e * g (f c) (f d) (f e) = ∑ i, ∑ j, ∑ k, x i * x j * x k * g i j k := by
  have hs := sum_pull f x y h
  have e : ∀ c, ∑ d, ∑ e, y c * y d * y e * g (f c) (f d) (f e) = y c * ∑ i, ∑ j, x i * x j * g (f c) i j := by
    intro c
    rw [← sum2_pull f x y h fun i j => g (f c) i j, Finset.mul_sum]
    refine Finset.sum_congr rfl fun d _ => ?_
    rw [Finset.mul_sum]
    exact Finset.sum_congr rfl fun d _ => by ring
  rw [Finset.sum_congr rfl fun c _ => e c, hs fun i => ∑ j, ∑ k, x j * x k * g i j k]
  refine Finset.sum_congr rfl fun i _ => ?_
  rw [Finset.mul_sum]
  refine Finset.sum_congr rfl fun d _ => ?_
  rw [Finset.mul_sum]
  exact Finset.sum_congr rfl fun d _ => by ring

open Classical in
/-- Splitting, relabelling and adding absent components does not change any of the polar terms. -/
theorem gv_copies (p : GVParams ι) (f : κ → ι) (T rho eta : ℝ) (x : ι → ℝ) (y : κ → ℝ)
    (h : ∀ i, x i = ∑ c ∈ univ.filter (fun c => f c = i), y c) :
    dipEval (GVParams.pull p f) T rho eta y = dipEval p T rho eta x ∧
    quadEval (GVParams.pull p f) T rho eta y = quadEval p T rho eta x ∧
    diquadEval (GVParams.pull p f) T rho eta y = diquadEval p T rho eta x := by
  have e2DD : ∀ (μ : Type) [Fintype μ] (P : GVParams μ) (z : μ → ℝ), alpha2DD P T rho eta z =
      -Real.pi * rho * ∑ i, ∑ j, z i * z j * (if P.nmu i * P.nmu j > 0 then P.eps i / T * P.eps j / T *
        (P.sigma i * P.sigma j / P.sij i j) ^ 3 * (P.nmu i * P.nmu j) * P.mustar2 i * P.mustar2 j *
        JDD2 eta (P.mij i j) (P.Tstar T i j) else 0) := by
    intro μ _ P z
    unfold alpha2DD
    congr 1
    refine Finset.sum_congr rfl fun i _ => Finset.sum_congr rfl fun j _ => ?_
    split_ifs <;> ring
  have e2QQ : ∀ (μ : Type) [Fintype μ] (P : GVParams μ) (z : μ → ℝ), alpha2QQ P T rho eta z =
      -Real.pi * (3 / 4) ^ 2 * rho * ∑ i, ∑ j, z i * z j * (if P.nQ i * P.nQ j > 0 then P.eps i / T * P.eps j / T *
        (P.sigma i * P.sigma j) ^ 5 / P.sij i j ^ 7 * (P.nQ i * P.nQ j) * P.Qstar2 i * P.Qstar2 j *
        JQQ2 eta (P.mij i j) (P.Tstar T i j) else 0) := by
    intro μ _ P z
    unfold alpha2QQ
    congr 1
    refine Finset.sum_congr rfl fun i _ => Finset.sum_congr rfl fun j _ => ?_
    split_ifs <;> ring
  have e2DQ : ∀ (μ : Type) [Fintype μ] (P : GVParams μ) (z : μ → ℝ), alpha2DQ P T rho eta z =
      -Real.pi * 9 / 4 * rho * ∑ i, ∑ j, z i * z j * (if P.nmu i * P.nQ j > 0 then P.eps i / T * P.eps j / T *
        P.sigma i ^ 3 * P.sigma j ^ 5 / P.sij i j ^ 5 * (P.nmu i * P.nQ j) * P.mustar2 i * P.Qstar2 j *
        JDQ2 eta (P.mij i j) (P.Tstar T i j) else 0) := by
    intro μ _ P z
    unfold alpha2DQ
    congr 1
    refine Finset.sum_congr rfl fun i _ => Finset.sum_congr rfl fun j _ => ?_
    split_ifs <;> ring
  have e3DD : ∀ (μ : Type) [Fintype μ] (P : GVParams μ) (z : μ → ℝ), alpha3DD P T rho eta z =
      -4 * Real.pi ^ 2 / 3 * rho ^ 2 * ∑ i, ∑ j, ∑ k, z i * z j * z k * (if P.nmu i * P.nmu j * P.nmu k > 0 then
        P.eps i / T * P.eps j / T * P.eps k / T * (P.sigma i * P.sigma j * P.sigma k) ^ 3 /
        (P.sij i j * P.sij i k * P.sij j k) * (P.nmu i * P.nmu j * P.nmu k) * P.mustar2 i * P.mustar2 j * P.mustar2 k *
        JDD3 eta (P.mijk i j k) else 0) := by
    intro μ _ P z
    unfold alpha3DD
    congr 1
    refine Finset.sum_congr rfl fun i _ => Finset.sum_congr rfl fun j _ => Finset.sum_congr rfl fun k _ => ?_
    split_ifs <;> ring
  have e3QQ : ∀ (μ : Type) [Fintype μ] (P : GVParams μ) (z : μ → ℝ), alpha3QQ P T rho eta z =
      -4 * Real.pi ^ 2 / 3 * (3 / 4) ^ 3 * rho ^ 2 * ∑ i, ∑ j, ∑ k, z i * z j * z k * (if P.nQ i * P.nQ j * P.nQ k > 0 then
        P.eps i / T * P.eps j / T * P.eps k / T * (P.sigma i * P.sigma j * P.sigma k) ^ 5 /
        (P.sij i j * P.sij i k * P.sij j k) ^ 3 * (P.nQ i * P.nQ j * P.nQ k) * P.Qstar2 i * P.Qstar2 j * P.Qstar2 k *
        JDD3 eta (P.mijk i j k) else 0) := by
    intro μ _ P z
    unfold alpha3QQ
    congr 1
    refine Finset.sum_congr rfl fun i _ => Finset.sum_congr rfl fun j _ => Finset.sum_congr rfl fun k _ => ?_
    split_ifs <;> ring
  have e3DQ : ∀ (μ : Type) [Fintype μ] (P : GVParams μ) (z : μ → ℝ), alpha3DQ P T rho eta z =
      -rho ^ 2 * ∑ i, ∑ j, ∑ k, z i * z j * z k * (if P.nmu i * P.nmu j * P.nQ k > 0 ∨ P.nmu i * P.nQ j * P.nQ k > 0 then
        P.eps i / T * P.eps j / T * P.eps k / T * (P.sigma i * P.sigma j * P.sigma k) ^ 4 /
        (P.sij i j * P.sij i k * P.sij j k) ^ 2 *
        (P.nmu i * P.nmu j * P.nQ k * P.mustar2 i * P.mustar2 j * P.Qstar2 k +
          P.nmu i * P.nQ j * P.nQ k * 1.19374 * P.mustar2 i * P.Qstar2 j * P.Qstar2 k) *
        JDQ3 eta (P.mijk i j k) else 0) := by
    intro μ _ P z
    unfold alpha3DQ
    congr 1
    refine Finset.sum_congr rfl fun i _ => Finset.sum_congr rfl fun j _ => Finset.sum_congr rfl fun k _ => ?_
    split_ifs <;> ring
  unfold dipEval quadEval diquadEval
  refine ⟨?_, ?_, ?_⟩
  · congr 1
    · rw [e2DD, e2DD]; congr 1
      exact sum2_pull f x y h fun i j => if p.nmu i * p.nmu j > 0 then p.eps i / T * p.eps j / T *
        (p.sigma i * p.sigma j / p.sij i j) ^ 3 * (p.nmu i * p.nmu j) * p.mustar2 i * p.mustar2 j *
        JDD2 eta (p.mij i j) (p.Tstar T i j) else 0
    · rw [e3DD, e3DD]; congr 1
      exact sum3_pull f x y h fun i j k => if p.nmu i * p.nmu j * p.nmu k > 0 then
        p.eps i / T * p.eps j / T * p.eps k / T * (p.sigma i * p.sigma j * p.sigma k) ^ 3 /
        (p.sij i j * p.sij i k * p.sij j k) * (p.nmu i * p.nmu j * p.nmu k) * p.mustar2 i * p.mustar2 j * p.mustar2 k *
        JDD3 eta (p.mijk i j k) else 0
  · congr 1
    · rw [e2QQ, e2QQ]; congr 1
      exact sum2_pull f x y h fun i j => if p.nQ i * p.nQ j > 0 then p.eps i / T * p.eps j / T *
        (p.sigma i * p.sigma j) ^ 5 / p.sij i j ^ 7 * (p.nQ i * p.nQ j) * p.Qstar2 i * p.Qstar2 j *
        JQQ2 eta (p.mij i j) (p.Tstar T i j) else 0
    · rw [e3QQ, e3QQ]; congr 1
      exact sum3_pull f x y h fun i j k => if p.nQ i * p.nQ j * p.nQ k > 0 then
        p.eps i / T * p.eps j / T * p.eps k / T * (p.sigma i * p.sigma j * p.sigma k) ^ 5 /
        (p.sij i j * p.sij i k * p.sij j k) ^ 3 * (p.nQ i * p.nQ j * p.nQ k) * p.Qstar2 i * p.Qstar2 j * p.Qstar2 k *
        JDD3 eta (p.mijk i j k) else 0
  · congr 1
    · rw [e2DQ, e2DQ]; congr 1
      exact sum2_pull f x y h fun i j => if p.nmu i * p.nQ j > 0 then p.eps i / T * p.eps j / T *
        p.sigma i ^ 3 * p.sigma j ^ 5 / p.sij i j ^ 5 * (p.nmu i * p.nQ j) * p.mustar2 i * p.Qstar2 j *
        JDQ2 eta (p.mij i j) (p.Tstar T i j) else 0
    · rw [e3DQ, e3DQ]; congr 1
      exact sum3_pull f x y h fun i j k => if p.nmu i * p.nmu j * p.nQ k > 0 ∨ p.nmu i * p.nQ j * p.nQ k > 0 then
        p.eps i / T * p.eps j / T * p.eps k / T * (p.sigma i * p.sigma j * p.sigma k) ^ 4 /
        (p.sij i j * p.sij i k * p.sij j k) ^ 2 *
        (p.nmu i * p.nmu j * p.nQ k * p.mustar2 i * p.mustar2 j * p.Qstar2 k +
          p.nmu i * p.nQ j * p.nQ k * 1.19374 * p.mustar2 i * p.Qstar2 j * p.Qstar2 k) *
        JDQ3 eta (p.mijk i j k) else 0

/-- Carbon dioxide as an equimolar mixture with itself. -/
example (T rho eta : ℝ) : quadEval (GVParams.pull co2GV (fun _ : Fin 2 => 0)) T rho eta (fun _ => 0.5) =
    quadEval co2GV T rho eta (fun _ => 1) := by
  classical
  refine (gv_copies co2GV _ T rho eta _ _ fun i => ?_).2.1
  fin_cases i
  norm_num

/-! ## Zero density and absent polar components -/

/-- At zero density, and at every density when the polar components are absent, the contributions are not numbers. -/
theorem gv_not_finite (p : GVParams ι) (T rho eta : ℝ) (x : ι → ℝ) :
    (rho = 0 ∨ (∀ i, x i = 0 ∨ p.nmu i = 0 ∨ p.mustar2 i = 0) → dipEval p T rho eta x = .nonFinite) ∧
    (rho = 0 ∨ (∀ i, x i = 0 ∨ p.nQ i = 0 ∨ p.Qstar2 i = 0) → quadEval p T rho eta x = .nonFinite) ∧
    (rho = 0 ∨ (∀ i, x i = 0 ∨ p.nmu i = 0 ∨ p.mustar2 i = 0) ∨ (∀ i, x i = 0 ∨ p.nQ i = 0 ∨ p.Qstar2 i = 0) →
      diquadEval p T rho eta x = .nonFinite) := by
  have key : ∀ a2 a3 : ℝ, a2 = 0 → a3 = 0 → gvPade a2 a3 = .nonFinite := by
    intro a2 a3 h h'
    unfold gvPade
    rw [if_pos h, if_pos h']
  refine ⟨fun h => key _ _ ?_ ?_, fun h => key _ _ ?_ ?_, fun h => key _ _ ?_ ?_⟩
  · unfold alpha2DD
    rcases h with rfl | h
    · ring
    · rw [Finset.sum_eq_zero fun i _ => Finset.sum_eq_zero fun j _ => ?_, mul_zero]
      rcases h i with h | h | h <;> simp [h]
  · unfold alpha3DD
    rcases h with rfl | h
    · ring
    · rw [Finset.sum_eq_zero fun i _ => Finset.sum_eq_zero fun j _ => Finset.sum_eq_zero fun k _ => ?_, mul_zero]
      rcases h i with h | h | h <;> simp [h]
  · unfold alpha2QQ
    rcases h with rfl | h
    · ring
    · rw [Finset.sum_eq_zero fun i _ => Finset.sum_eq_zero fun j _ => ?_, mul_zero]
      rcases h i with h | h | h <;> simp [h]
  · unfold alpha3QQ
    rcases h with rfl | h
    · ring
    · rw [Finset.sum_eq_zero fun i _ => Finset.sum_eq_zero fun j _ => Finset.sum_eq_zero fun k _ => ?_, mul_zero]
      rcases h i with h | h | h <;> simp [h]
  · unfold alpha2DQ
    rcases h with rfl | h | h
    · ring
    · rw [Finset.sum_eq_zero fun i _ => Finset.sum_eq_zero fun j _ => ?_, mul_zero]
      rcases h i with h | h | h <;> simp [h]
    · rw [Finset.sum_eq_zero fun i _ => Finset.sum_eq_zero fun j _ => ?_, mul_zero]
      rcases h j with h | h | h <;> simp [h]
  · unfold alpha3DQ
    rcases h with rfl | h | h
    · ring
    · rw [Finset.sum_eq_zero fun i _ => Finset.sum_eq_zero fun j _ => Finset.sum_eq_zero fun k _ => ?_, mul_zero]
      rcases h i with h | h | h <;> simp [h]
    · rw [Finset.sum_eq_zero fun i _ => Finset.sum_eq_zero fun j _ => Finset.sum_eq_zero fun k _ => ?_, mul_zero]
      rcases h k with h | h | h <;> simp [h]

/-- The second coefficient: `alpha2DD` per unit of density. -/
noncomputable def ddA2 (p : GVParams ι) (T eta : ℝ) (x : ι → ℝ) : ℝ := alpha2DD p T 1 eta x
/-- `alpha3DD` per unit of density squared. -/
noncomputable def ddA3 (p : GVParams ι) (T eta : ℝ) (x : ι → ℝ) : ℝ := alpha3DD p T 1 eta x

theorem dd_scale (p : GVParams ι) (T rho eta : ℝ) (x : ι → ℝ) :
    alpha2DD p T rho eta x = rho * ddA2 p T eta x ∧ alpha3DD p T rho eta x = rho ^ 2 * ddA3 p T eta x := by
  unfold ddA2 ddA3 alpha2DD alpha3DD
  constructor <;> ring

theorem gvJ2_differentiable (a b : Fin 3 → Fin 5 → ℝ) (m Ts : ℝ) : Differentiable ℝ fun e => gvJ2 a b e m Ts := by
  unfold gvJ2
  fun_prop

theorem gvJ3_differentiable (c : Fin 3 → Fin 5 → ℝ) (m : ℝ) : Differentiable ℝ fun e => gvJ3 c e m := by
  unfold gvJ3
  fun_prop

theorem ddA_differentiable (p : GVParams ι) (T : ℝ) (x : ι → ℝ) :
    (Differentiable ℝ fun e => ddA2 p T e x) ∧ (Differentiable ℝ fun e => ddA3 p T e x) := by
  unfold ddA2 ddA3 alpha2DD alpha3DD
  constructor
  · refine Differentiable.const_mul (Differentiable.fun_sum fun i _ => Differentiable.fun_sum fun j _ => ?_) _
    split_ifs
    · exact (gvJ2_differentiable _ _ _ _).const_mul _
    · fun_prop
  · refine Differentiable.const_mul (Differentiable.fun_sum fun i _ => Differentiable.fun_sum fun j _ => Differentiable.fun_sum fun k _ => ?_) _
    split_ifs
    · exact (gvJ3_differentiable _ _).const_mul _
    · fun_prop

/-- The singularity at zero density is removable: there is a function that is zero at zero density, has a derivative there, and
agrees with the contribution at all other densities where that is a number.  The derivative is the dipolar part of the second
virial coefficient. -/
theorem dip_removable (p : GVParams ι) (T D : ℝ) (x : ι → ℝ) (hA : ddA2 p T 0 x ≠ 0) :
    ∃ f : ℝ → ℝ, f 0 = 0 ∧ HasDerivAt f (ddA2 p T 0 x) 0 ∧
      ∀ rho v, dipEval p T rho (D * rho) x = .ok v → v = f rho := by
  refine ⟨fun r => r * (ddA2 p T (D * r) x) ^ 2 / (ddA2 p T (D * r) x - r * ddA3 p T (D * r) x), by simp, ?_, ?_⟩
  · have hlin : HasDerivAt (fun r : ℝ => D * r) D 0 := by simpa using (hasDerivAt_id (0 : ℝ)).const_mul D
    have h2 : DifferentiableAt ℝ (fun r => ddA2 p T (D * r) x) 0 :=
      ((ddA_differentiable p T x).1 _).comp (0 : ℝ) hlin.differentiableAt
    have h3 : DifferentiableAt ℝ (fun r => ddA3 p T (D * r) x) 0 :=
      ((ddA_differentiable p T x).2 _).comp (0 : ℝ) hlin.differentiableAt
    have hn : DifferentiableAt ℝ (fun r => (ddA2 p T (D * r) x) ^ 2 / (ddA2 p T (D * r) x - r * ddA3 p T (D * r) x)) 0 := by
      refine (h2.pow 2).div (h2.sub (differentiableAt_id.mul h3)) ?_
      simpa using hA
    have := (hasDerivAt_id (0 : ℝ)).mul hn.hasDerivAt
    refine (this.congr_of_eventuallyEq ?_).congr_deriv ?_
    · exact Filter.Eventually.of_forall fun r => by simp [mul_div_assoc]
    · simp
      field_simp
  · intro rho v h
    unfold dipEval gvPade at h
    rw [(dd_scale p T rho _ x).1, (dd_scale p T rho _ x).2] at h
    split_ifs at h with hr hb h2
    · cases h
      rcases mul_eq_zero.mp hr with hr | hr <;> simp [hr]
    · cases h
      have hr0 : rho ≠ 0 := left_ne_zero_of_mul hr
      have h20 : ddA2 p T (D * rho) x ≠ 0 := right_ne_zero_of_mul hr
      clear hr h2
      simp only
      generalize ddA2 p T (D * rho) x = a at h20
      generalize ddA3 p T (D * rho) x = b
      have e : 1 - rho ^ 2 * b / (rho * a) = (a - rho * b) / a := by
        rw [pow_two, mul_assoc, mul_div_mul_left _ _ hr0, sub_div, div_self h20]
      rw [e, div_div_eq_mul_div]
      ring

/-- With a dipole and up to a packing fraction of one half the contribution is a number between the second-order term and
zero, provided the second-order term is negative. -/
theorem dip_bounds {p : GVParams ι} {T : ℝ} {x : ι → ℝ} (h : GVPhysical p T x) (rho eta : ℝ) (h0 : 0 ≤ eta) (h1 : eta ≤ 1 / 2)
    (h2 : alpha2DD p T rho eta x < 0) :
    ∃ v, dipEval p T rho eta x = .ok v ∧ alpha2DD p T rho eta x ≤ v ∧ v < 0 := by
  have h3 : 0 ≤ alpha3DD p T rho eta x := by
    unfold alpha3DD
    refine mul_nonneg_of_nonpos_of_nonpos ?_ (Finset.sum_nonpos fun i _ => Finset.sum_nonpos fun j _ => Finset.sum_nonpos fun k _ => ?_)
    · have : 0 ≤ 4 * Real.pi ^ 2 / 3 * rho ^ 2 := by positivity
      linarith
    · split_ifs with hn
      · have hJ := JDD3_neg eta _ h0 h1 (mijk_range h i j k).1 (mijk_range h i j k).2
        refine mul_nonpos_of_nonneg_of_nonpos ?_ hJ.le
        have := h.hT
        have := h.hsigma i
        have := h.hsigma j
        have := h.hsigma k
        have := h.heps i
        have := h.heps j
        have := h.heps k
        have := h.hmu i
        have := h.hmu j
        have := h.hmu k
        have := h.hx i
        have := h.hx j
        have := h.hx k
        have := sij_pos h i j
        have := sij_pos h i k
        have := sij_pos h j k
        have hn' := hn.le
        positivity
      · exact le_rfl
  have hd : 1 ≤ 1 - alpha3DD p T rho eta x / alpha2DD p T rho eta x := by
    have := div_nonpos_of_nonneg_of_nonpos h3 h2.le
    linarith
  refine ⟨alpha2DD p T rho eta x / (1 - alpha3DD p T rho eta x / alpha2DD p T rho eta x), ?_, ?_, ?_⟩
  · unfold dipEval gvPade
    rw [if_neg h2.ne, if_neg (by linarith)]
  · rw [le_div_iff₀ (by linarith)]
    nlinarith
  · exact div_neg_of_neg_of_pos h2 (by linarith)

/-- A dipolar fluid of spherical molecules. -/
noncomputable def dipolarFluid : GVParams (Fin 1) :=
  ⟨fun _ => 1, fun _ => 3, fun _ => 100, fun _ => 2, fun _ => 1, fun _ => 0, fun _ => 0⟩

theorem dipolarFluid_A2 : ddA2 dipolarFluid 200 0 (fun _ => 1) < 0 := by
  unfold ddA2 alpha2DD dipolarFluid GVParams.sij GVParams.mij GVParams.Tstar JDD2 gvJ2
  simp only [Fin.sum_univ_succ, Fin.sum_univ_zero]
  simp [gvCoeff, tabDDa, tabDDb, gvTable]
  have := Real.pi_pos
  positivity

example : GVPhysical dipolarFluid 200 (fun _ => 1) ∧ ddA2 dipolarFluid 200 0 (fun _ => 1) ≠ 0 ∧
    alpha2DD dipolarFluid 200 1 0 (fun _ => 1) < 0 := by
  refine ⟨⟨?_, ?_, ?_, ?_, ?_, ?_, ?_, ?_, ?_⟩, dipolarFluid_A2.ne, dipolarFluid_A2⟩ <;> simp [dipolarFluid]

end

/-! ## PC-SAFT with polar terms -/

/-- PC-SAFT with a dipole or a quadrupole has no value at zero density, and none at any density for a composition without the
polar components. -/
theorem pc_polar_not_finite (NA : ℝ) (mx : PCMixture) (T rho : ℝ) (x : List ℝ) (hl : x.length = mx.coeffs.length)
    (h : (mx.hasDipole ∧ (rho = 0 ∨ ∀ i : Fin mx.coeffs.length, x.getD i 0 = 0 ∨ (mx.coeffs.get i).nmu = 0 ∨ (mx.coeffs.get i).mustar2 = 0)) ∨
      (mx.hasQuadrupole ∧ (rho = 0 ∨ ∀ i : Fin mx.coeffs.length, x.getD i 0 = 0 ∨ (mx.coeffs.get i).nQ = 0 ∨ (mx.coeffs.get i).Qstar2 = 0))) :
    mx.alpharPolar NA T rho x = .nonFinite := by
  unfold PCMixture.alpharPolar PCMixture.alphar
  rw [if_neg (not_not.mpr hl)]
  simp only
  by_cases h1 : PCRegular mx.params T (rho * NA * 1e-30) fun i => x.getD i 0
  · rw [if_neg (not_not.mpr h1)]
    have hbind : ∀ (o : Outcome ℝ) (f : ℝ → Outcome ℝ), (∃ v, o = .ok v) ∨ o = .nonFinite → (∀ d, f d = .nonFinite) → o.bind f = .nonFinite := by
      rintro o f (⟨v, rfl⟩ | rfl) hf
      · exact hf v
      · rfl
    have hpade : ∀ a b, (∃ v, gvPade a b = .ok v) ∨ gvPade a b = .nonFinite := by
      intro a b
      unfold gvPade
      split_ifs
      · exact Or.inr rfl
      · exact Or.inl ⟨_, rfl⟩
      · exact Or.inr rfl
      · exact Or.inl ⟨_, rfl⟩
    have hrho : rho = 0 → rho * NA * 1e-30 = 0 := fun h => by rw [h]; ring
    rcases h with ⟨hd, h⟩ | ⟨hq, h⟩
    · rw [if_pos hd, (gv_not_finite mx.gv _ _ _ _).1 (h.imp hrho fun h => h)]
      rfl
    · refine hbind _ _ ?_ fun d => ?_
      · split_ifs
        · exact hpade _ _
        · exact Or.inl ⟨0, rfl⟩
      · rw [if_pos hq, (gv_not_finite mx.gv _ _ _ _).2.1 (h.imp hrho fun h => h)]
        rfl
  · rw [if_pos h1]

/-- Water-like parameters next to methane; the composition is pure methane. -/
noncomputable def dipolarMix : PCMixture :=
  ⟨[⟨"polar", 1, 3, 300, "", 2, 1, 0, 0⟩, ⟨"Methane", 1, 3.7039, 150.03, "", 0, 0, 0, 0⟩], ⟨2, fun _ _ => 0⟩, gsA, gsB⟩

example : dipolarMix.hasDipole ∧ (∀ i : Fin dipolarMix.coeffs.length, ([0, 1] : List ℝ).getD i 0 = 0 ∨ (dipolarMix.coeffs.get i).nmu = 0 ∨
    (dipolarMix.coeffs.get i).mustar2 = 0) ∧ ([0, 1] : List ℝ).length = dipolarMix.coeffs.length := by
  refine ⟨?_, fun i => ?_, rfl⟩
  · simp [PCMixture.hasDipole, dipolarMix]
  · obtain ⟨i, hi⟩ := i
    have hi' : i < 2 := hi
    interval_cases i <;> simp [dipolarMix]

/-- Away from these states: for a mixture with a dipole and no quadrupole, physical parameters, a packing fraction up to one half
and a negative second-order term there is a value, and it lies below the value without the dipole. -/
theorem pc_polar_partial (NA : ℝ) (mx : PCMixture) (T rho : ℝ) (x : List ℝ) (hl : x.length = mx.coeffs.length)
    (hd : mx.hasDipole) (hq : ¬ mx.hasQuadrupole) (hp : PCPhysical mx.params T fun i => x.getD i 0)
    (hg : GVPhysical mx.gv T fun i : Fin mx.coeffs.length => x.getD i 0) (hr : 0 ≤ rho) (hNA : 0 < NA)
    (he : pcD mx.params T (fun i => x.getD i 0) 3 * (rho * NA * 1e-30) ≤ 1 / 2)
    (h2 : alpha2DD mx.gv T (rho * NA * 1e-30) (pcD mx.params T (fun i => x.getD i 0) 3 * (rho * NA * 1e-30)) (fun i => x.getD i 0) < 0) :
    ∃ v, mx.alpharPolar NA T rho x = .ok v ∧
      v < (pcEval mx.params T (rho * NA * 1e-30) fun i => x.getD i 0).hc + (pcEval mx.params T (rho * NA * 1e-30) fun i => x.getD i 0).disp := by
  have hreg : PCRegular mx.params T (rho * NA * 1e-30) (fun i => x.getD i 0) :=
    pc_regular _ _ _ _ hp (by positivity) (by linarith)
  obtain ⟨w, hw, -, hw0⟩ := dip_bounds hg (rho * NA * 1e-30) _ (mul_nonneg (pcD_pos hp 3).le (by positivity)) he h2
  unfold PCMixture.alpharPolar PCMixture.alphar
  rw [if_neg (not_not.mpr hl)]
  simp only
  rw [if_neg (not_not.mpr hreg), if_pos hd, if_neg hq]
  have e : (pcEval mx.params T (rho * NA * 1e-30) fun i => x.getD i 0).eta =
      pcD mx.params T (fun i => x.getD i 0) 3 * (rho * NA * 1e-30) := rfl
  rw [e, hw]
  refine ⟨_, rfl, ?_⟩
  linarith

/-! ## The combined contribution -/

theorem anyPositive_ne {n q : List ℝ} (h : anyPositive n q = true) : (q.map fun t => |t|).sum ≠ 0 := by
  unfold anyPositive at h
  obtain ⟨t, ht, hpos⟩ := of_decide_eq_true h
  intro hz
  have hq : ∀ a ∈ q, a = 0 := by
    intro a ha
    have := List.all_zero_of_le_zero_le_of_sum_eq_zero (l := q.map fun t => |t|) (by
      intro b hb
      obtain ⟨c, -, rfl⟩ := List.mem_map.mp hb
      exact abs_nonneg c) hz (List.mem_map.mpr ⟨a, ha, rfl⟩)
    exact abs_eq_zero.mp this
  rw [← List.map_uncurry_zip_eq_zipWith] at ht
  obtain ⟨⟨a, b⟩, hab, rfl⟩ := List.mem_map.mp ht
  have := hq b (List.of_mem_zip hab).2
  simp [this] at hpos

/-- A combined contribution is constructed exactly if the arrays of the present terms have the right size; the cross term is
present exactly if both others are, and the refusal of a cross term with a missing part is never reached. -/
theorem multi_make (a : GVArrays) (h1 : a.nmu.length = a.mustar2.length) (h2 : a.nQ.length = a.Qstar2.length) :
    (∀ e, GVMulti.make a = .throws e → e = .invalidArgument ∧
      ((anyPositive a.nmu a.mustar2 = true ∧ a.m.length ≠ a.mustar2.length) ∨
       (anyPositive a.nQ a.Qstar2 = true ∧ a.m.length ≠ a.Qstar2.length))) ∧
    (∀ c, GVMulti.make a = .ok c →
      (c.di.isSome ↔ anyPositive a.nmu a.mustar2 = true) ∧ (c.quad.isSome ↔ anyPositive a.nQ a.Qstar2 = true) ∧
      (c.diquad.isSome ↔ c.di.isSome ∧ c.quad.isSome)) := by
  unfold GVMulti.make
  rw [if_neg (not_not.mpr h1)]
  by_cases hd : anyPositive a.nmu a.mustar2 = true <;> by_cases hq : anyPositive a.nQ a.Qstar2 = true
  · have s1 := anyPositive_ne hd
    have s2 := anyPositive_ne hq
    rw [if_pos hd, if_pos hq]
    by_cases m1 : a.m.length = a.mustar2.length
    · by_cases m2 : a.m.length = a.Qstar2.length
      · have m3 : a.m.length = a.nmu.length := by rw [m1, h1]
        have m4 : a.m.length = a.nQ.length := by rw [m2, h2]
        have e : diquadMake a = .ok a := by
          unfold diquadMake
          rw [if_neg (by simp [m2]), if_neg (by simp [m4]), if_neg (by simp [m1]), if_neg (by simp [m3]), if_neg (by tauto)]
        rw [dipMake, if_neg (by simp [m1]), if_neg (by simp [m3]), quadMake, if_neg (by simp [m2]), if_neg (by simp [m4]), e]
        simp [h2]
        simp [hd, hq]
      · rw [quadMake, if_pos m2]
        by_cases m3 : a.m.length = a.nmu.length
        · rw [dipMake, if_neg (by simp [m1]), if_neg (by simp [m3])]
          simp [h2, hq, m2]
        · exact absurd (by rw [m1, h1]) m3
    · rw [dipMake, if_pos m1]
      simp [hd, m1]
  · rw [if_pos hd, if_neg hq]
    by_cases m1 : a.m.length = a.mustar2.length
    · have m3 : a.m.length = a.nmu.length := by rw [m1, h1]
      rw [dipMake, if_neg (by simp [m1]), if_neg (by simp [m3])]
      simp [h2]
      simp [hd, hq]
    · rw [dipMake, if_pos m1]
      simp [hd, m1]
  · rw [if_neg hd, if_pos hq]
    by_cases m2 : a.m.length = a.Qstar2.length
    · have m4 : a.m.length = a.nQ.length := by rw [m2, h2]
      rw [quadMake, if_neg (by simp [m2]), if_neg (by simp [m4])]
      simp [h2]
      simp [hd, hq]
    · rw [quadMake, if_pos m2]
      simp [h2, hq, m2]
  · rw [if_neg hd, if_neg hq]
    simp [h2]
    simp [hd, hq]

example : ∃ c, GVMulti.make ⟨[1], [3], [100], [1], [1], [1], [1]⟩ = .ok c ∧ c.diquad.isSome := by
  have h : anyPositive [1] [1] = true := by simp [anyPositive]
  have := (multi_make ⟨[1], [3], [100], [1], [1], [1], [1]⟩ rfl rfl)
  cases hc : GVMulti.make ⟨[1], [3], [100], [1], [1], [1], [1]⟩ with
  | ok c => exact ⟨c, rfl, (this.2 c hc).2.2.mpr ⟨(this.2 c hc).1.mpr h, (this.2 c hc).2.1.mpr h⟩⟩
  | throws e => rcases (this.1 e hc).2 with h | h <;> simp at h
  | ub => simp [GVMulti.make, h, dipMake, quadMake, diquadMake] at hc
  | nonFinite => simp [GVMulti.make, h, dipMake, quadMake, diquadMake] at hc

end Teqp.Props

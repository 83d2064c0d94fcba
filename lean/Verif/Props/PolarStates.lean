import Verif.Model.Polar
import Verif.Props.Polar
import Mathlib.Tactic

/-! # Corresponding states and the pure-fluid form of the Gross-Vrabec terms (C85) -/

set_option autoImplicit false

namespace Teqp.Spec
open Teqp.Model

/-- The same molecules in other units of length and energy. -/
noncomputable def rescale {ι : Type} (p : GVParams ι) (l k : ℝ) : GVParams ι :=
  { p with sigma := fun i => l * p.sigma i, eps := fun i => k * p.eps i }

/-- The published expressions for one component, in the reduced density `r = ρσ³`, the reduced temperature `t = T/ε` and the reduced
squared moments: second and third order of the dipolar, quadrupolar and mixed terms. -/
structure PureGV where
  r : ℝ
  t : ℝ
  eta : ℝ
  m : ℝ
  D : ℝ
  nD : ℝ
  Q : ℝ
  nQ : ℝ

noncomputable def PureGV.dd2 (s : PureGV) : ℝ := -Real.pi * s.r * (s.nD * s.D / s.t) ^ 2 * JDD2 s.eta (min s.m 2) s.t
noncomputable def PureGV.dd3 (s : PureGV) : ℝ := -(4 / 3) * Real.pi ^ 2 * s.r ^ 2 * (s.nD * s.D / s.t) ^ 3 * JDD3 s.eta (min s.m 2)
noncomputable def PureGV.qq2 (s : PureGV) : ℝ := -(9 / 16) * Real.pi * s.r * (s.nQ * s.Q / s.t) ^ 2 * JQQ2 s.eta (min s.m 2) s.t
noncomputable def PureGV.dq2 (s : PureGV) : ℝ := -(9 / 4) * Real.pi * s.r * (s.nD * s.D / s.t) * (s.nQ * s.Q / s.t) * JDQ2 s.eta (min s.m 2) s.t
noncomputable def PureGV.dq3 (s : PureGV) : ℝ := -s.r ^ 2 * (s.nD * s.D / s.t) * (s.nQ * s.Q / s.t) *
  (s.nD * s.D / s.t + 1.19374 * (s.nQ * s.Q / s.t)) * JDQ3 s.eta (min s.m 2)

end Teqp.Spec

namespace Teqp.Props
open Finset Teqp.Model Teqp.Spec

section
variable {ι : Type} [Fintype ι]

theorem rescale_Tstar (p : GVParams ι) (l k T : ℝ) (hk : 0 < k) (i j : ι) : (rescale p l k).Tstar (k * T) i j = p.Tstar T i j := by
  unfold GVParams.Tstar rescale
  simp only
  rw [show k * p.eps i * (k * p.eps j) = k ^ 2 * (p.eps i * p.eps j) by ring, Real.sqrt_mul (by positivity), Real.sqrt_sq hk.le]
  exact mul_div_mul_left _ _ hk.ne'

theorem rescale_sij (p : GVParams ι) (l k : ℝ) (i j : ι) : (rescale p l k).sij i j = l * p.sij i j := by
  unfold GVParams.sij rescale
  ring

set_option maxHeartbeats 1600000 in
set_option linter.unusedSimpArgs false in
/-- **Corresponding states.**  Changing the units of length and of energy changes none of the six polar terms. -/
theorem gv_corresponding_states (p : GVParams ι) (l k T rho eta : ℝ) (x : ι → ℝ) (hl : 0 < l) (hk : 0 < k) :
    alpha2DD (rescale p l k) (k * T) (rho / l ^ 3) eta x = alpha2DD p T rho eta x ∧
    alpha3DD (rescale p l k) (k * T) (rho / l ^ 3) eta x = alpha3DD p T rho eta x ∧
    alpha2QQ (rescale p l k) (k * T) (rho / l ^ 3) eta x = alpha2QQ p T rho eta x ∧
    alpha3QQ (rescale p l k) (k * T) (rho / l ^ 3) eta x = alpha3QQ p T rho eta x ∧
    alpha2DQ (rescale p l k) (k * T) (rho / l ^ 3) eta x = alpha2DQ p T rho eta x ∧
    alpha3DQ (rescale p l k) (k * T) (rho / l ^ 3) eta x = alpha3DQ p T rho eta x := by
  have hm : ∀ i j, (rescale p l k).mij i j = p.mij i j := fun _ _ => rfl
  have hm3 : ∀ i j q, (rescale p l k).mijk i j q = p.mijk i j q := fun _ _ _ => rfl
  have hn : (rescale p l k).nmu = p.nmu := rfl
  have hnq : (rescale p l k).nQ = p.nQ := rfl
  have hmu : (rescale p l k).mustar2 = p.mustar2 := rfl
  have hq : (rescale p l k).Qstar2 = p.Qstar2 := rfl
  have hs : ∀ i, (rescale p l k).sigma i = l * p.sigma i := fun _ => rfl
  have he : ∀ i, (rescale p l k).eps i = k * p.eps i := fun _ => rfl
  have hl' := hl.ne'
  have hk' := hk.ne'
  have sc : ∀ a e : ℝ, a * (k * e) / (k * T) = a * e / T := fun a e => by
    rw [show a * (k * e) = k * (a * e) by ring]
    exact mul_div_mul_left _ _ hk'
  refine ⟨?_, ?_, ?_, ?_, ?_, ?_⟩
  · unfold alpha2DD
    simp only [rescale_Tstar p l k T hk, hm, hm3, hn, hmu, hnq, hq, rescale_sij, hs, he, Finset.mul_sum, mul_ite, mul_zero, sc]
    refine Finset.sum_congr rfl fun i _ => Finset.sum_congr rfl fun j _ => if_congr Iff.rfl ?_ rfl
    rw [show l * p.sigma i * (l * p.sigma j) / (l * p.sij i j) = l * (p.sigma i * p.sigma j / p.sij i j) by
      rw [show l * p.sigma i * (l * p.sigma j) = l * (l * (p.sigma i * p.sigma j)) by ring, mul_div_mul_left _ _ hl', mul_div_assoc], mul_pow]
    generalize p.sigma i * p.sigma j / p.sij i j = A
    generalize x i * x j * p.eps i / T * p.eps j / T = B
    field_simp
  · unfold alpha3DD
    simp only [hm, hm3, hn, hmu, hnq, hq, rescale_sij, hs, he, Finset.mul_sum, mul_ite, mul_zero, sc]
    refine Finset.sum_congr rfl fun i _ => Finset.sum_congr rfl fun j _ => Finset.sum_congr rfl fun q _ => if_congr Iff.rfl ?_ rfl
    rw [show (l * p.sigma i * (l * p.sigma j) * (l * p.sigma q)) ^ 3 = l ^ 9 * (p.sigma i * p.sigma j * p.sigma q) ^ 3 by ring,
      show l * p.sij i j * (l * p.sij i q) * (l * p.sij j q) = l ^ 3 * (p.sij i j * p.sij i q * p.sij j q) by ring]
    generalize p.sij i j * p.sij i q * p.sij j q = S
    generalize (p.sigma i * p.sigma j * p.sigma q) ^ 3 = A
    generalize x i * x j * x q * p.eps i / T * p.eps j / T * p.eps q / T = B
    rw [show B * (l ^ 9 * A) / (l ^ 3 * S) = l ^ 6 * (B * A / S) by
      rw [show B * (l ^ 9 * A) = l ^ 3 * (l ^ 6 * (B * A)) by ring, mul_div_mul_left _ _ (pow_ne_zero 3 hl'), mul_div_assoc]]
    generalize B * A / S = C
    field_simp
  · unfold alpha2QQ
    simp only [rescale_Tstar p l k T hk, hm, hm3, hn, hmu, hnq, hq, rescale_sij, hs, he, Finset.mul_sum, mul_ite, mul_zero, sc]
    refine Finset.sum_congr rfl fun i _ => Finset.sum_congr rfl fun j _ => if_congr Iff.rfl ?_ rfl
    rw [show (l * p.sigma i * (l * p.sigma j)) ^ 5 = l ^ 10 * (p.sigma i * p.sigma j) ^ 5 by ring, mul_pow l (p.sij i j) 7]
    generalize p.sij i j ^ 7 = S
    generalize (p.sigma i * p.sigma j) ^ 5 = A
    generalize x i * x j * p.eps i / T * p.eps j / T = B
    rw [show B * (l ^ 10 * A) / (l ^ 7 * S) = l ^ 3 * (B * A / S) by
      rw [show B * (l ^ 10 * A) = l ^ 7 * (l ^ 3 * (B * A)) by ring, mul_div_mul_left _ _ (pow_ne_zero 7 hl'), mul_div_assoc]]
    generalize B * A / S = C
    field_simp
  · unfold alpha3QQ
    simp only [hm, hm3, hn, hmu, hnq, hq, rescale_sij, hs, he, Finset.mul_sum, mul_ite, mul_zero, sc]
    refine Finset.sum_congr rfl fun i _ => Finset.sum_congr rfl fun j _ => Finset.sum_congr rfl fun q _ => if_congr Iff.rfl ?_ rfl
    rw [show (l * p.sigma i * (l * p.sigma j) * (l * p.sigma q)) ^ 5 = l ^ 15 * (p.sigma i * p.sigma j * p.sigma q) ^ 5 by ring,
      show (l * p.sij i j * (l * p.sij i q) * (l * p.sij j q)) ^ 3 = l ^ 9 * (p.sij i j * p.sij i q * p.sij j q) ^ 3 by ring]
    generalize (p.sij i j * p.sij i q * p.sij j q) ^ 3 = S
    generalize (p.sigma i * p.sigma j * p.sigma q) ^ 5 = A
    generalize x i * x j * x q * p.eps i / T * p.eps j / T * p.eps q / T = B
    rw [show B * (l ^ 15 * A) / (l ^ 9 * S) = l ^ 6 * (B * A / S) by
      rw [show B * (l ^ 15 * A) = l ^ 9 * (l ^ 6 * (B * A)) by ring, mul_div_mul_left _ _ (pow_ne_zero 9 hl'), mul_div_assoc]]
    generalize B * A / S = C
    field_simp
  · unfold alpha2DQ
    simp only [rescale_Tstar p l k T hk, hm, hm3, hn, hmu, hnq, hq, rescale_sij, hs, he, Finset.mul_sum, mul_ite, mul_zero, sc]
    refine Finset.sum_congr rfl fun i _ => Finset.sum_congr rfl fun j _ => if_congr Iff.rfl ?_ rfl
    rw [mul_pow l (p.sigma i) 3, mul_pow l (p.sigma j) 5, mul_pow l (p.sij i j) 5]
    generalize p.sij i j ^ 5 = S
    generalize p.sigma i ^ 3 = A
    generalize p.sigma j ^ 5 = A'
    generalize x i * x j * p.eps i / T * p.eps j / T = B
    rw [show B * (l ^ 3 * A) * (l ^ 5 * A') / (l ^ 5 * S) = l ^ 3 * (B * A * A' / S) by
      rw [show B * (l ^ 3 * A) * (l ^ 5 * A') = l ^ 5 * (l ^ 3 * (B * A * A')) by ring, mul_div_mul_left _ _ (pow_ne_zero 5 hl'), mul_div_assoc]]
    generalize B * A * A' / S = C
    field_simp
  · unfold alpha3DQ
    simp only [hm, hm3, hn, hmu, hnq, hq, rescale_sij, hs, he, Finset.mul_sum, mul_ite, mul_zero, sc]
    refine Finset.sum_congr rfl fun i _ => Finset.sum_congr rfl fun j _ => Finset.sum_congr rfl fun q _ => if_congr Iff.rfl ?_ rfl
    rw [show (l * p.sigma i * (l * p.sigma j) * (l * p.sigma q)) ^ 4 = l ^ 12 * (p.sigma i * p.sigma j * p.sigma q) ^ 4 by ring,
      show (l * p.sij i j * (l * p.sij i q) * (l * p.sij j q)) ^ 2 = l ^ 6 * (p.sij i j * p.sij i q * p.sij j q) ^ 2 by ring]
    generalize (p.sij i j * p.sij i q * p.sij j q) ^ 2 = S
    generalize (p.sigma i * p.sigma j * p.sigma q) ^ 4 = A
    generalize x i * x j * x q * p.eps i / T * p.eps j / T * p.eps q / T = B
    rw [show B * (l ^ 12 * A) / (l ^ 6 * S) = l ^ 6 * (B * A / S) by
      rw [show B * (l ^ 12 * A) = l ^ 6 * (l ^ 6 * (B * A)) by ring, mul_div_mul_left _ _ (pow_ne_zero 6 hl'), mul_div_assoc]]
    generalize B * A / S = C
    field_simp

end

/-- **One component**: the five terms that use their own correlation are the published ones in reduced units. -/
theorem gv_pure (p : GVParams (Fin 1)) (T rho eta : ℝ) (x : Fin 1 → ℝ) (hx : x 0 = 1) (hm : 0 < p.m 0) (hs : 0 < p.sigma 0) (he : 0 < p.eps 0)
    (hn : 0 < p.nmu 0) (hq : 0 < p.nQ 0) :
    let s : PureGV := ⟨rho * p.sigma 0 ^ 3, T / p.eps 0, eta, p.m 0, p.mustar2 0, p.nmu 0, p.Qstar2 0, p.nQ 0⟩
    alpha2DD p T rho eta x = s.dd2 ∧ alpha3DD p T rho eta x = s.dd3 ∧ alpha2QQ p T rho eta x = s.qq2 ∧
    alpha2DQ p T rho eta x = s.dq2 ∧ alpha3DQ p T rho eta x = s.dq3 := by
  intro s
  have e1 : p.mij 0 0 = min (p.m 0) 2 := by unfold GVParams.mij; rw [Real.sqrt_mul_self hm.le]
  have e2 : p.Tstar T 0 0 = T / p.eps 0 := by unfold GVParams.Tstar; rw [Real.sqrt_mul_self he.le]
  have e3 : p.mijk 0 0 0 = min (p.m 0) 2 := by
    unfold GVParams.mijk
    rw [show p.m 0 * p.m 0 * p.m 0 = p.m 0 ^ (3 : ℝ) by rw [show (3 : ℝ) = ((3 : ℕ) : ℝ) by norm_num, Real.rpow_natCast]; ring,
      ← Real.rpow_mul hm.le]
    norm_num
  have e4 : p.sij 0 0 = p.sigma 0 := by unfold GVParams.sij; ring
  have c1 : 0 < p.nmu 0 * p.nmu 0 := by positivity
  have c2 : 0 < p.nmu 0 * p.nmu 0 * p.nmu 0 := by positivity
  have c3 : 0 < p.nQ 0 * p.nQ 0 := by positivity
  have c4 : 0 < p.nmu 0 * p.nQ 0 := by positivity
  have c5 : 0 < p.nmu 0 * p.nmu 0 * p.nQ 0 := by positivity
  refine ⟨?_, ?_, ?_, ?_, ?_⟩
  · unfold alpha2DD PureGV.dd2
    simp only [Fin.sum_univ_one, gt_iff_lt, if_pos c1, e1, e2, e4, hx, s]
    generalize JDD2 _ _ _ = J
    by_cases hT : T = 0
    · subst hT; simp
    field_simp
  · unfold alpha3DD PureGV.dd3
    simp only [Fin.sum_univ_one, gt_iff_lt, if_pos c2, e3, e4, hx, s]
    generalize JDD3 _ _ = J
    by_cases hT : T = 0
    · subst hT; simp
    field_simp
  · unfold alpha2QQ PureGV.qq2
    simp only [Fin.sum_univ_one, gt_iff_lt, if_pos c3, e1, e2, e4, hx, s]
    generalize JQQ2 _ _ _ = J
    by_cases hT : T = 0
    · subst hT; simp
    field_simp
    ring
  · unfold alpha2DQ PureGV.dq2
    simp only [Fin.sum_univ_one, gt_iff_lt, if_pos c4, e1, e2, e4, hx, s]
    generalize JDQ2 _ _ _ = J
    by_cases hT : T = 0
    · subst hT; simp
    field_simp
  · unfold alpha3DQ PureGV.dq3
    simp only [Fin.sum_univ_one, gt_iff_lt, if_pos (Or.inl c5), e3, e4, hx, s]
    generalize JDQ3 _ _ = J
    by_cases hT : T = 0
    · subst hT; simp
    field_simp

example : ∃ p : GVParams (Fin 1), 0 < p.m 0 ∧ 0 < p.sigma 0 ∧ 0 < p.eps 0 ∧ 0 < p.nmu 0 ∧ 0 < p.nQ 0 :=
  ⟨⟨fun _ => 2.7, fun _ => 3.2, fun _ => 230, fun _ => 1.2, fun _ => 1, fun _ => 0.5, fun _ => 1⟩, by norm_num, by norm_num, by norm_num, by norm_num, by norm_num⟩

end Teqp.Props

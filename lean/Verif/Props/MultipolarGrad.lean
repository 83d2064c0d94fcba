import Verif.Model.Multipolar
import Verif.Lemmas.SumDeriv
import Mathlib.Analysis.Calculus.Deriv.Pow
import Mathlib.Analysis.Calculus.Deriv.Inv
import Mathlib.Tactic

/-! # The hand-written gradients of the polarizable multipolar term (C82) -/

set_option autoImplicit false

namespace Teqp.Spec
open Teqp.Model

/-- The derivative of the second-order term with respect to the effective dipole moment of component `i`. -/
noncomputable def dAlpha2 {n : ℕ} (p : GGParams (Fin n)) (I : MPIntegrals) (T rhoN rs : ℝ) (x mup : Fin n → ℝ) (i : Fin n) : ℝ :=
  deriv (fun t => ggAlpha2 p I T rhoN rs x (Function.update mup i t)) (mup i)

/-- The derivative of the third-order term with respect to the effective dipole moment of component `i`. -/
noncomputable def dAlpha3 {n : ℕ} (p : GGParams (Fin n)) (I : MPIntegrals) (T rhoN rs : ℝ) (x mup : Fin n → ℝ) (i : Fin n) : ℝ :=
  deriv (fun t => ggAlpha3 p I T rhoN rs x (Function.update mup i t)) (mup i)

end Teqp.Spec

namespace Teqp.Props
open Finset Teqp.Model Teqp.Spec Teqp.Lemmas

variable {n : ℕ}

/-- The matrices of diameters and energies are symmetric. -/
structure GGSymm (p : GGParams (Fin n)) : Prop where
  s : ∀ i j, p.sij i j = p.sij j i
  e : ∀ i j, p.eij i j = p.eij j i

theorem GGSymm.In {p : GGParams (Fin n)} (h : GGSymm p) (I : MPIntegrals) (k : ℕ) (T rs : ℝ) (i j : Fin n) :
    p.In I k T rs i j = p.In I k T rs j i := by
  unfold GGParams.In
  rw [h.s i j, h.e i j]

theorem GGSymm.Immm12 {p : GGParams (Fin n)} (h : GGSymm p) (I : MPIntegrals) (T rs : ℝ) (i j k : Fin n) :
    p.Immm I T rs i j k = p.Immm I T rs j i k := by
  unfold GGParams.Immm getKijk
  rw [h.s i j, h.e i j]
  rw [div_right_comm _ (p.sij i k) (p.sij j k), mul_right_comm (I.K222 (T / p.eij j i) rs)]

theorem GGSymm.Immm23 {p : GGParams (Fin n)} (h : GGSymm p) (I : MPIntegrals) (T rs : ℝ) (i j k : Fin n) :
    p.Immm I T rs i j k = p.Immm I T rs i k j := by
  unfold GGParams.Immm getKijk
  rw [h.s j k, h.e j k, div_right_comm _ (p.sij i j) (p.sij i k), mul_comm (I.K222 (T / p.eij i j) rs)]

theorem GGSymm.ImmQ12 {p : GGParams (Fin n)} (h : GGSymm p) (I : MPIntegrals) (T rs : ℝ) (i j k : Fin n) :
    p.ImmQ I T rs i j k = p.ImmQ I T rs j i k := by
  unfold GGParams.ImmQ getKijk
  rw [h.s i j, h.e i j, mul_comm (p.sij i k), mul_right_comm (I.K233 (T / p.eij j i) rs)]

/-- The square of the effective moment divided by `kT`, as a function of the moment of component `i`. -/
theorem hasDerivAt_mu2 (mup : Fin n → ℝ) (i a : Fin n) (b : ℝ) :
    HasDerivAt (fun t => b * Function.update mup i t a ^ 2) (if a = i then 2 * b * mup i else 0) (mup i) := by
  by_cases ha : a = i
  · subst ha
    simp only [Function.update_self, if_true]
    exact (((hasDerivAt_id (mup a)).pow 2).const_mul b).congr_deriv (by simp; ring)
  · simp only [Function.update_of_ne ha, if_neg ha]
    exact hasDerivAt_const _ _

theorem hasDerivAt_z1 (p : GGParams (Fin n)) (T : ℝ) (mup : Fin n → ℝ) (i a : Fin n) :
    HasDerivAt (fun t => p.z1 T (Function.update mup i t) a) (if a = i then 2 / 3 * p.beta T * mup i else 0) (mup i) := by
  unfold GGParams.z1
  refine ((hasDerivAt_mu2 mup i a (1 / 3 * p.beta T)).add_const (p.iso a)).congr_of_eventuallyEq ?_ |>.congr_deriv ?_
  · exact Filter.Eventually.of_forall fun t => by simp only; ring
  · split_ifs
    · ring
    · rfl

/-- The derivative of the second-order term: every summand contains the `z1` of the *other* component. -/
theorem hasDerivAt_alpha2 (p : GGParams (Fin n)) (hp : GGSymm p) (I : MPIntegrals) (T rhoN rs : ℝ) (x mup : Fin n → ℝ) (i : Fin n) :
    HasDerivAt (fun t => ggAlpha2 p I T rhoN rs x (Function.update mup i t))
      ((-p.ke * p.ke) * (mup i * ∑ j, rhoN * x j * (2 * p.z1 T mup j * p.In I 6 T rs i j + p.beta T * p.Q j ^ 2 * p.In I 8 T rs i j)) * x i *
        p.beta T) (mup i) := by
  have hz := hasDerivAt_z1 p T mup i
  have h2 := hasDerivAt_sum2 (fun a b => x a * x b * (3 / 2) * p.In I 6 T rs a b) (fun t => p.z1 T (Function.update mup i t)) i _ _ hz
  have h1 := hasDerivAt_sum1 (fun a => ∑ b, x a * x b * (3 / 2 * p.beta T * p.Q b ^ 2 * p.In I 8 T rs a b)) (fun t => p.z1 T (Function.update mup i t)) i _ _ hz
  have h := ((h2.add h1).add_const (∑ a, ∑ b, x a * x b * (-(3 / 2) * (p.iso a * p.iso b) * p.In I 6 T rs a b +
    7 / 10 * p.beta T * p.beta T * p.Q a ^ 2 * p.Q b ^ 2 * p.In I 10 T rs a b))).const_mul (-rhoN * p.ke * p.ke)
  refine (h.congr_of_eventuallyEq (Filter.Eventually.of_forall fun t => ?_)).congr_deriv ?_
  · unfold ggAlpha2
    simp only [Pi.add_apply, ← Finset.sum_add_distrib, Finset.sum_mul]
    congr 1
    refine Finset.sum_congr rfl fun a _ => Finset.sum_congr rfl fun b _ => ?_
    ring
  · simp only [Function.update_eq_self, Finset.mul_sum, Finset.sum_mul, ← Finset.sum_add_distrib]
    refine Finset.sum_congr rfl fun b _ => ?_
    rw [hp.In I 6 T rs b i]
    ring

/-- What one pass would have to contain: as `ggPass`, with the parameter `C3b` on both mixed terms as in the third-order term itself. -/
noncomputable def ggPassTrue (p : GGParams (Fin n)) (I : MPIntegrals) (T rhoN rs : ℝ) (x mup : Fin n → ℝ) (i : Fin n) : ℝ :=
  ggPass p I T rhoN rs x mup i + (p.C3b - 1) * ∑ j, ∑ k, rhoN ^ 2 * x j * x k * (1 / 320 * p.beta T ^ 2 * p.Q j ^ 2 * p.Q k ^ 2 * p.ImQQ I T rs i j k)

/-- The derivative of the third-order term: the pass of the component itself. -/
theorem hasDerivAt_alpha3 (p : GGParams (Fin n)) (hp : GGSymm p) (I : MPIntegrals) (T rhoN rs : ℝ) (x mup : Fin n → ℝ) (i : Fin n) :
    HasDerivAt (fun t => ggAlpha3 p I T rhoN rs x (Function.update mup i t))
      (p.C3 * (mup i * ggPassTrue p I T rhoN rs x mup i) * p.ke * p.ke * p.ke * x i * p.beta T) (mup i) := by
  have hz := hasDerivAt_z1 p T mup i
  have hu := fun a => hasDerivAt_mu2 mup i a (p.beta T)
  set b := p.beta T with hb
  -- the terms with two indices
  have a2 := hasDerivAt_sum2 (fun a c => x a * x c * (2 / 5 * b * p.Q a * p.Q c * p.In I 11 T rs a c)) (fun t a => b * Function.update mup i t a ^ 2) i _ _ hu
  have a1 := hasDerivAt_sum1 (fun a => ∑ c, (x c * x a * (4 / 5 * p.gam c * b * p.Q c * p.Q a * p.In I 11 T rs c a) +
    x a * x c * (12 / 35 * b * b * p.Q a * p.Q c ^ 3 * p.In I 13 T rs a c))) (fun t a => b * Function.update mup i t a ^ 2) i _ _ hu
  have hA := (a2.add a1).const_mul rhoN
  -- the terms with three indices
  have b3 := hasDerivAt_sum3 (fun a c d => x a * x c * x d * (1 / 2 * p.Immm I T rs a c d)) (fun t => p.z1 T (Function.update mup i t)) i _ _ hz
  have b2 := hasDerivAt_sum2 (fun a c => ∑ d, x a * x c * x d * (p.C3b * (3 / 160 * b * p.Q d ^ 2 * p.ImmQ I T rs a c d)))
    (fun t => p.z1 T (Function.update mup i t)) i _ _ hz
  have b1 := hasDerivAt_sum1 (fun a => ∑ c, ∑ d, x a * x c * x d * (p.C3b * (3 / 640 * b ^ 2 * p.Q c ^ 2 * p.Q d ^ 2 * p.ImQQ I T rs a c d)))
    (fun t => p.z1 T (Function.update mup i t)) i _ _ hz
  have hB := ((b3.add b2).add b1).const_mul (rhoN * rhoN)
  have h := ((hA.add hB).add_const (rhoN * (∑ a, ∑ c, x a * x c * (4 / 25 * p.gam a * p.gam c * b * p.Q a * p.Q c * p.In I 11 T rs a c +
      12 / 35 * p.gam a * b * b * p.Q a * p.Q c ^ 3 * p.In I 13 T rs a c + 36 / 245 * b ^ 3 * p.Q a ^ 3 * p.Q c ^ 3 * p.In I 15 T rs a c)) +
    rhoN * rhoN * ∑ a, ∑ c, ∑ d, x a * x c * x d * (-(1 / 2) * (p.iso a * p.iso c * p.iso d) * p.Immm I T rs a c d +
      1 / 6400 * b ^ 3 * p.Q a ^ 2 * p.Q c ^ 2 * p.Q d ^ 2 * p.IQQQ I T rs a c d))).const_mul (p.C3 * p.ke * p.ke * p.ke)
  refine (h.congr_of_eventuallyEq (Filter.Eventually.of_forall fun t => ?_)).congr_deriv ?_
  · unfold ggAlpha3
    simp only [Pi.add_apply, ← hb]
    rw [show ∀ S1 S2 S3 S4 S5 R1 R2 : ℝ, p.C3 * p.ke * p.ke * p.ke * (rhoN * (S1 + S2) + rhoN * rhoN * (S3 + S4 + S5) + (rhoN * R1 + rhoN * rhoN * R2)) =
      p.C3 * (rhoN * (S1 + S2 + R1) + rhoN * rhoN * (S3 + S4 + S5 + R2)) * p.ke * p.ke * p.ke from fun _ _ _ _ _ _ _ => by ring]
    congr 5
    · simp only [Finset.sum_mul, Finset.sum_add_distrib, add_mul]
      rw [Finset.sum_comm (f := fun a c => x c * x a * (4 / 5 * p.gam c * b * p.Q c * p.Q a * p.In I 11 T rs c a) * (b * Function.update mup i t a ^ 2))]
      simp only [← Finset.sum_add_distrib]
      congr 1
      refine Finset.sum_congr rfl fun a _ => Finset.sum_congr rfl fun c _ => ?_
      ring
    · simp only [Finset.sum_mul, ← Finset.sum_add_distrib]
      congr 1
      refine Finset.sum_congr rfl fun a _ => Finset.sum_congr rfl fun c _ => Finset.sum_congr rfl fun d _ => ?_
      ring
  · simp only [Function.update_eq_self]
    unfold ggPassTrue ggPass
    simp only [← hb]
    rw [show ∀ P R S : ℝ, P + R + S = P + (R + S) from fun _ _ _ => by ring]
    have hS : (2 * b * mup i * ∑ c, (x i * x c * (2 / 5 * b * p.Q i * p.Q c * p.In I 11 T rs i c) + x c * x i * (2 / 5 * b * p.Q c * p.Q i * p.In I 11 T rs c i)) *
          (b * mup c ^ 2) + 2 * b * mup i * ∑ c, (x c * x i * (4 / 5 * p.gam c * b * p.Q c * p.Q i * p.In I 11 T rs c i) +
          x i * x c * (12 / 35 * b * b * p.Q i * p.Q c ^ 3 * p.In I 13 T rs i c))) * rhoN =
        mup i * x i * b * ∑ j, rhoN * x j * (8 / 5 * (b * mup j ^ 2 + p.gam j) * b * p.Q i * p.Q j * p.In I 11 T rs i j +
          24 / 35 * b * b * p.Q i * p.Q j ^ 3 * p.In I 13 T rs i j) := by
      simp only [Finset.mul_sum, Finset.sum_mul, ← Finset.sum_add_distrib]
      refine Finset.sum_congr rfl fun c _ => ?_
      rw [hp.In I 11 T rs c i]
      ring
    have hT3 : (2 / 3 * b * mup i * ∑ c, ∑ d, (x i * x c * x d * (1 / 2 * p.Immm I T rs i c d) + x c * x i * x d * (1 / 2 * p.Immm I T rs c i d) +
          x c * x d * x i * (1 / 2 * p.Immm I T rs c d i)) * (p.z1 T mup c * p.z1 T mup d) +
        2 / 3 * b * mup i * ∑ c, ((∑ d, x i * x c * x d * (p.C3b * (3 / 160 * b * p.Q d ^ 2 * p.ImmQ I T rs i c d))) +
          ∑ d, x c * x i * x d * (p.C3b * (3 / 160 * b * p.Q d ^ 2 * p.ImmQ I T rs c i d))) * p.z1 T mup c +
        2 / 3 * b * mup i * ∑ c, ∑ d, x i * x c * x d * (p.C3b * (3 / 640 * b ^ 2 * p.Q c ^ 2 * p.Q d ^ 2 * p.ImQQ I T rs i c d))) * (rhoN * rhoN) =
        mup i * x i * b * ((∑ j, ∑ k, rhoN ^ 2 * x j * x k * (p.z1 T mup j * p.z1 T mup k * p.Immm I T rs i j k +
          p.C3b * 1 / 40 * p.z1 T mup j * b * p.Q k ^ 2 * p.ImmQ I T rs i j k + 1 / 320 * b ^ 2 * p.Q j ^ 2 * p.Q k ^ 2 * p.ImQQ I T rs i j k)) +
          (p.C3b - 1) * ∑ j, ∑ k, rhoN ^ 2 * x j * x k * (1 / 320 * b ^ 2 * p.Q j ^ 2 * p.Q k ^ 2 * p.ImQQ I T rs i j k)) := by
      simp only [← Finset.sum_add_distrib]
      simp only [Finset.mul_sum, Finset.sum_mul, ← Finset.sum_add_distrib]
      refine Finset.sum_congr rfl fun c _ => Finset.sum_congr rfl fun d _ => ?_
      rw [hp.Immm12 I T rs c i d, hp.Immm23 I T rs c d i, hp.Immm12 I T rs c i d, hp.ImmQ12 I T rs c i d]
      ring
    linear_combination (p.C3 * p.ke * p.ke * p.ke) * hS + (p.C3 * p.ke * p.ke * p.ke) * hT3

/-- **The gradient of the second-order term is off by the differences of the `z1`.** -/
theorem gg_grad2_defect (p : GGParams (Fin n)) (hp : GGSymm p) (I : MPIntegrals) (T rhoN rs : ℝ) (x mup : Fin n → ℝ) (i : Fin n) :
    ggGrad2 p I T rhoN rs x mup i = dAlpha2 p I T rhoN rs x mup i -
      2 * rhoN * p.ke ^ 2 * p.beta T * x i * mup i * ∑ j, x j * (p.z1 T mup i - p.z1 T mup j) * p.In I 6 T rs i j := by
  unfold dAlpha2
  rw [(hasDerivAt_alpha2 p hp I T rhoN rs x mup i).deriv]
  unfold ggGrad2
  simp only [Finset.mul_sum, Finset.sum_mul, ← Finset.sum_sub_distrib]
  refine Finset.sum_congr rfl fun j _ => ?_
  ring

/-- **The gradient of the third-order term is off by the passes of the components before it and by the missing `C3b`.** -/
theorem gg_grad3_defect (p : GGParams (Fin n)) (hp : GGSymm p) (I : MPIntegrals) (T rhoN rs : ℝ) (x mup : Fin n → ℝ) (i : Fin n) :
    ggGrad3 p I T rhoN rs x mup i = dAlpha3 p I T rhoN rs x mup i +
      p.C3 * p.ke ^ 3 * p.beta T * x i * mup i * ((∑ i' ∈ univ.filter (· < i), ggPass p I T rhoN rs x mup i') -
        (p.C3b - 1) * ∑ j, ∑ k, rhoN ^ 2 * x j * x k * (1 / 320 * p.beta T ^ 2 * p.Q j ^ 2 * p.Q k ^ 2 * p.ImQQ I T rs i j k)) := by
  unfold dAlpha3
  rw [(hasDerivAt_alpha3 p hp I T rhoN rs x mup i).deriv]
  unfold ggGrad3 ggPassTrue
  have : (univ.filter (· ≤ i) : Finset (Fin n)) = insert i (univ.filter (· < i)) := by
    ext a
    simp only [mem_filter, mem_univ, true_and, mem_insert]
    exact le_iff_eq_or_lt
  rw [this, Finset.sum_insert (by simp)]
  ring

/-- A dipolar and a non-polar component, all constants one, and correlation integrals equal to one. -/
noncomputable def twoDipoles (pol : Option (GGPol (Fin 2))) : GGParams (Fin 2) :=
  { sij := fun _ _ => 1, eij := fun _ _ => 1, mu := fun i => if i = 0 then 1 else 0, Q := fun _ => 0, C3 := 1, C3b := 1, pol := pol, ke := 1, kB := 1 }

theorem twoDipoles_symm (pol : Option (GGPol (Fin 2))) : GGSymm (twoDipoles pol) := ⟨fun _ _ => rfl, fun _ _ => rfl⟩

noncomputable def unitIntegrals : MPIntegrals := ⟨fun _ _ _ => 1, fun _ _ => 1, fun _ _ => 1, fun _ _ => -1, fun _ _ => 1⟩

/-- **The gradient of the second-order term is wrong for mixtures**: a polarizable dipolar fluid and a polarizable fluid without
dipole, equimolar. -/
theorem gg_grad2_wrong : ∃ (p : GGParams (Fin 2)) (I : MPIntegrals) (T rhoN rs : ℝ) (x mup : Fin 2 → ℝ) (i : Fin 2),
    GGSymm p ∧ p.pol.isSome ∧ 0 < T ∧ 0 < rhoN ∧ (∀ i, 0 < x i) ∧ ∑ i, x i = 1 ∧
      ggGrad2 p I T rhoN rs x mup i ≠ dAlpha2 p I T rhoN rs x mup i := by
  refine ⟨twoDipoles (some ⟨fun _ => 1, fun _ => 1⟩), unitIntegrals, 1, 1, 1, fun _ => 1 / 2, fun i => if i = 0 then 1 else 0, 0,
    twoDipoles_symm _, rfl, by norm_num, by norm_num, fun _ => by norm_num, by norm_num [Fin.sum_univ_two], ?_⟩
  rw [gg_grad2_defect _ (twoDipoles_symm _)]
  have hpi := Real.pi_pos
  simp only [Fin.sum_univ_two, twoDipoles, unitIntegrals, GGParams.z1, GGParams.iso, GGParams.beta, GGParams.In]
  norm_num

/-- **The gradient of the third-order term is wrong for mixtures**: two identical dipolar fluids. -/
theorem gg_grad3_wrong : ∃ (p : GGParams (Fin 2)) (I : MPIntegrals) (T rhoN rs : ℝ) (x mup : Fin 2 → ℝ) (i : Fin 2),
    GGSymm p ∧ p.pol.isSome ∧ p.C3b = 1 ∧ 0 < T ∧ 0 < rhoN ∧ (∀ i, 0 < x i) ∧ ∑ i, x i = 1 ∧
      ggGrad3 p I T rhoN rs x mup i ≠ dAlpha3 p I T rhoN rs x mup i := by
  refine ⟨twoDipoles (some ⟨fun _ => 1, fun _ => 1⟩), unitIntegrals, 1, 1, 1, fun _ => 1 / 2, fun _ => 1, 1,
    twoDipoles_symm _, rfl, rfl, by norm_num, by norm_num, fun _ => by norm_num, by norm_num [Fin.sum_univ_two], ?_⟩
  rw [gg_grad3_defect _ (twoDipoles_symm _)]
  have hpi := Real.pi_pos
  have hs : 0 < Real.sqrt (14 * Real.pi / 5) := Real.sqrt_pos.mpr (by positivity)
  have hf : (univ.filter (· < (1 : Fin 2))) = {0} := by decide
  rw [hf, Finset.sum_singleton]
  simp only [ggPass, Fin.sum_univ_two, twoDipoles, unitIntegrals, GGParams.z1, GGParams.iso, GGParams.beta, GGParams.Immm, getKijk]
  norm_num
  positivity

/-- **One component and `C3b = 1`: both gradients are exact**, for every moment. -/
theorem gg_grad_partial (p : GGParams (Fin 1)) (hb : p.C3b = 1) (I : MPIntegrals) (T rhoN rs : ℝ) (x mup : Fin 1 → ℝ) (i : Fin 1) :
    ggGrad2 p I T rhoN rs x mup i = dAlpha2 p I T rhoN rs x mup i ∧ ggGrad3 p I T rhoN rs x mup i = dAlpha3 p I T rhoN rs x mup i := by
  have hp : GGSymm p := ⟨fun i j => by rw [Subsingleton.elim i j], fun i j => by rw [Subsingleton.elim i j]⟩
  refine ⟨?_, ?_⟩
  · rw [gg_grad2_defect p hp, Finset.sum_eq_zero fun j _ => by rw [Subsingleton.elim j i, sub_self, mul_zero, zero_mul]]
    ring
  · have : (univ.filter (· < i)) = ∅ := by
      ext a
      simp [Subsingleton.elim a i]
    rw [gg_grad3_defect p hp, hb, this, Finset.sum_empty]
    ring

example : ∃ p : GGParams (Fin 1), p.C3b = 1 ∧ p.pol.isSome ∧ 0 < p.mu 0 :=
  ⟨⟨fun _ _ => 3e-10, fun _ _ => 200, fun _ => 6e-30, fun _ => 1e-39, 1, 1, some ⟨fun _ => 1e-40, fun _ => 1e-40⟩, 9e9, 1.38e-23⟩, rfl, rfl, by norm_num⟩

/-- **The field of one component is `-kT` times the derivative of the Padé approximant** with respect to the effective moment. -/
theorem gg_field_partial (p : GGParams (Fin 1)) (hb : p.C3b = 1) (I : MPIntegrals) (T rhoN rs : ℝ) (x mup E : Fin 1 → ℝ)
    (h : ggEprime p I T rhoN rs x mup = .ok E) :
    E 0 = -p.kB * T * deriv (fun t => ggAlpha2 p I T rhoN rs x (Function.update mup 0 t) /
      (1 - ggAlpha3 p I T rhoN rs x (Function.update mup 0 t) / ggAlpha2 p I T rhoN rs x (Function.update mup 0 t))) (mup 0) := by
  unfold ggEprime at h
  by_cases h1 : p.pol.isNone
  · rw [if_pos h1] at h
    cases h
  rw [if_neg h1] at h
  dsimp only at h
  split_ifs at h with h2
  push Not at h2
  injection h with h
  have hp : GGSymm p := ⟨fun i j => by rw [Subsingleton.elim i j], fun i j => by rw [Subsingleton.elim i j]⟩
  have d2 := (hasDerivAt_alpha2 p hp I T rhoN rs x mup 0).differentiableAt.hasDerivAt
  have d3 := (hasDerivAt_alpha3 p hp I T rhoN rs x mup 0).differentiableAt.hasDerivAt
  have hself : Function.update mup 0 (mup 0) = mup := Function.update_eq_self 0 mup
  have hd := (d2.fun_div ((d3.fun_div d2 (by rw [hself]; exact h2.1)).const_sub 1) (by rw [hself]; exact h2.2)).deriv
  rw [hd, ← h]
  obtain ⟨g2, g3⟩ := gg_grad_partial p hb I T rhoN rs x mup 0
  simp only [hself]
  rw [g2, g3]
  unfold dAlpha2 dAlpha3
  obtain ⟨n1, n2⟩ := h2
  generalize ggAlpha2 p I T rhoN rs x mup = A at n1 n2
  generalize ggAlpha3 p I T rhoN rs x mup = B at n1 n2
  generalize deriv (fun t => ggAlpha2 p I T rhoN rs x (Function.update mup 0 t)) (mup 0) = D2
  generalize deriv (fun t => ggAlpha3 p I T rhoN rs x (Function.update mup 0 t)) (mup 0) = D3
  have : 1 - B / A = (A - B) / A := by field_simp
  rw [this] at n2
  have hAB : A - B ≠ 0 := fun hc => n2 (by rw [hc, zero_div])
  congr 1
  rw [this]
  field_simp
  ring

/-- A component split into two identical ones. -/
def _root_.Teqp.Model.GGParams.splitTwo (p : GGParams (Fin 1)) : GGParams (Fin 2) :=
  { sij := fun _ _ => p.sij 0 0, eij := fun _ _ => p.eij 0 0, mu := fun _ => p.mu 0, Q := fun _ => p.Q 0, C3 := p.C3, C3b := p.C3b,
    pol := p.pol.map fun a => ⟨fun _ => a.symm 0, fun _ => a.asymm 0⟩, ke := p.ke, kB := p.kB }

/-- Splitting a pure fluid does not change the second- and third-order terms. -/
theorem gg_split (p : GGParams (Fin 1)) (I : MPIntegrals) (T rhoN rs w : ℝ) (m : ℝ) :
    ggAlpha2 p.splitTwo I T rhoN rs ![w, 1 - w] (fun _ => m) = ggAlpha2 p I T rhoN rs (fun _ => 1) (fun _ => m) ∧
    ggAlpha3 p.splitTwo I T rhoN rs ![w, 1 - w] (fun _ => m) = ggAlpha3 p I T rhoN rs (fun _ => 1) (fun _ => m) := by
  have hiso : ∀ i, p.splitTwo.iso i = p.iso 0 := by
    intro i
    unfold GGParams.iso GGParams.splitTwo
    cases p.pol <;> rfl
  have hgam : ∀ i, p.splitTwo.gam i = p.gam 0 := by
    intro i
    unfold GGParams.gam GGParams.splitTwo
    cases p.pol <;> rfl
  constructor
  · unfold ggAlpha2
    simp only [GGParams.z1, hiso, Fin.sum_univ_two, Fin.sum_univ_one, GGParams.In, GGParams.beta, Matrix.cons_val_zero, Matrix.cons_val_one]
    simp only [GGParams.splitTwo]
    ring
  · unfold ggAlpha3
    simp only [GGParams.z1, hiso, hgam, Fin.sum_univ_two, Fin.sum_univ_one, GGParams.In, GGParams.beta, Matrix.cons_val_zero, Matrix.cons_val_one,
      GGParams.Immm, GGParams.ImmQ, GGParams.ImQQ, GGParams.IQQQ]
    simp only [GGParams.splitTwo]
    ring

/-- **The field depends on how a pure fluid is written**: split into two identical components, the first one feels `w` times the
field of the pure fluid, because the code does not divide by the mole fraction. -/
theorem gg_field_split (p : GGParams (Fin 1)) (I : MPIntegrals) (T rhoN rs w m : ℝ) (E : Fin 1 → ℝ)
    (h : ggEprime p I T rhoN rs (fun _ => 1) (fun _ => m) = .ok E) :
    ∃ F, ggEprime p.splitTwo I T rhoN rs ![w, 1 - w] (fun _ => m) = .ok F ∧ F 0 = w * E 0 := by
  unfold ggEprime at h
  by_cases h1 : p.pol.isNone
  · rw [if_pos h1] at h
    cases h
  rw [if_neg h1] at h
  dsimp only at h
  split_ifs at h with h2
  push Not at h2
  injection h with h
  obtain ⟨e2, e3⟩ := gg_split p I T rhoN rs w m
  have hpol : p.splitTwo.pol.isNone = false := by
    rw [GGParams.splitTwo]
    cases hq : p.pol with
    | none => rw [hq] at h1; exact absurd rfl h1
    | some a => rfl
  refine ⟨fun i => -p.splitTwo.kB * T * (((1 - 2 * ggAlpha3 p I T rhoN rs (fun _ => 1) (fun _ => m) / ggAlpha2 p I T rhoN rs (fun _ => 1) (fun _ => m)) *
      ggGrad2 p.splitTwo I T rhoN rs ![w, 1 - w] (fun _ => m) i + ggGrad3 p.splitTwo I T rhoN rs ![w, 1 - w] (fun _ => m) i) /
      (1 - ggAlpha3 p I T rhoN rs (fun _ => 1) (fun _ => m) / ggAlpha2 p I T rhoN rs (fun _ => 1) (fun _ => m)) ^ 2), ?_, ?_⟩
  · unfold ggEprime
    simp only [hpol, Bool.false_eq_true, if_false]
    rw [e2, e3, if_neg (by push Not; exact h2)]
  · rw [← h]
    have hiso : ∀ i, p.splitTwo.iso i = p.iso 0 := by
      intro i
      unfold GGParams.iso GGParams.splitTwo
      cases p.pol <;> rfl
    have hgam : ∀ i, p.splitTwo.gam i = p.gam 0 := by
      intro i
      unfold GGParams.gam GGParams.splitTwo
      cases p.pol <;> rfl
    have g2 : ggGrad2 p.splitTwo I T rhoN rs ![w, 1 - w] (fun _ => m) 0 = w * ggGrad2 p I T rhoN rs (fun _ => 1) (fun _ => m) 0 := by
      unfold ggGrad2
      simp only [GGParams.z1, hiso, Fin.sum_univ_two, Fin.sum_univ_one, GGParams.In, GGParams.beta, Matrix.cons_val_zero, Matrix.cons_val_one]
      simp only [GGParams.splitTwo]
      ring
    have g3 : ggGrad3 p.splitTwo I T rhoN rs ![w, 1 - w] (fun _ => m) 0 = w * ggGrad3 p I T rhoN rs (fun _ => 1) (fun _ => m) 0 := by
      unfold ggGrad3
      have hf2 : (univ.filter (· ≤ (0 : Fin 2))) = {0} := by decide
      have hf1 : (univ.filter (· ≤ (0 : Fin 1))) = {0} := by decide
      rw [hf1, hf2, Finset.sum_singleton, Finset.sum_singleton]
      unfold ggPass
      simp only [GGParams.z1, hiso, hgam, Fin.sum_univ_two, Fin.sum_univ_one, GGParams.In, GGParams.beta, Matrix.cons_val_zero, Matrix.cons_val_one,
        GGParams.Immm, GGParams.ImmQ, GGParams.ImQQ]
      simp only [GGParams.splitTwo]
      ring
    dsimp only
    rw [g2, g3, show p.splitTwo.kB = p.kB from rfl]
    ring

end Teqp.Props

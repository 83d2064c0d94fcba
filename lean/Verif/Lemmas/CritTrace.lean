import Verif.Model.CritTrace
import Verif.Spec.MixVLE
import Verif.Lemmas.MixVLE
import Verif.Lemmas.SecondDeriv
import Mathlib.Analysis.Calculus.IteratedDeriv.Lemmas
import Mathlib.Analysis.Calculus.LocalExtr.Basic
import Mathlib.LinearAlgebra.Matrix.NonsingularInverse

/-! # Derivatives along eigenvectors of the Hessian -/

set_option autoImplicit false

open Teqp.Calc Teqp.Model Teqp.Spec Teqp.Lemmas Teqp.MixVLE Filter Topology

namespace Teqp.CritTrace

/-- What Eigen documents for `SelfAdjointEigenSolver`: for a symmetric matrix the columns are orthonormal eigenvectors
and the eigenvalues are in increasing order. -/
def EigContract (eig : EigSolver) : Prop :=
  ∀ (n : ℕ) (H : Matrix (Fin n) (Fin n) ℝ), H.IsSymm →
    H * (eig n H).2 = (eig n H).2 * Matrix.diagonal (eig n H).1 ∧
    (eig n H).2.transpose * (eig n H).2 = 1 ∧ Monotone (eig n H).1

/-- Quadratic form. -/
def qf {n : ℕ} (H : Matrix (Fin n) (Fin n) ℝ) (w : Fin n → ℝ) : ℝ := ∑ i, (∑ j, H i j * w j) * w i

theorem qf_eq {n : ℕ} (H : Matrix (Fin n) (Fin n) ℝ) (w : Fin n → ℝ) : qf H w = w ⬝ᵥ H.mulVec w := by
  simp only [qf, dotProduct, Matrix.mulVec]
  exact Finset.sum_congr rfl fun i _ => mul_comm _ _

section eig
variable {n : ℕ} {H U : Matrix (Fin n) (Fin n) ℝ} {l : Fin n → ℝ}

theorem qf_diag (hH : H * U = U * Matrix.diagonal l) (hU : U.transpose * U = 1) (w : Fin n → ℝ) :
    qf H w = ∑ k, l k * (U.transpose.mulVec w k) ^ 2 ∧ ∑ i, w i ^ 2 = ∑ k, (U.transpose.mulVec w k) ^ 2 := by
  have hU' : U * U.transpose = 1 := mul_eq_one_comm.mp hU
  set c := U.transpose.mulVec w with hc
  have hw : w = U.mulVec c := by rw [hc, Matrix.mulVec_mulVec, hU', Matrix.one_mulVec]
  have key : ∀ D : Matrix (Fin n) (Fin n) ℝ, (U.mulVec c) ⬝ᵥ (U * D).mulVec c = c ⬝ᵥ D.mulVec c := by
    intro D
    rw [← Matrix.mulVec_mulVec, Matrix.dotProduct_mulVec, Matrix.vecMul_mulVec, ← Matrix.dotProduct_mulVec, hU,
      Matrix.one_mulVec]
  constructor
  · have h1 : qf H w = (U.mulVec c) ⬝ᵥ (U * Matrix.diagonal l).mulVec c := by
      rw [← hH, ← Matrix.mulVec_mulVec, ← hw, qf_eq]
    rw [h1, key]
    simp only [dotProduct, Matrix.mulVec_diagonal]
    exact Finset.sum_congr rfl fun i _ => by ring
  · have h1 := key 1
    rw [mul_one, Matrix.one_mulVec, ← hw] at h1
    simp only [dotProduct] at h1
    rw [Finset.sum_congr rfl fun i _ => pow_two (w i), h1]
    exact Finset.sum_congr rfl fun i _ => (pow_two _).symm

theorem rayleigh {n : ℕ} {H U : Matrix (Fin (n + 1)) (Fin (n + 1)) ℝ} {l : Fin (n + 1) → ℝ}
    (hH : H * U = U * Matrix.diagonal l) (hU : U.transpose * U = 1) (hl : Monotone l) (w : Fin (n + 1) → ℝ) :
    l 0 * ∑ i, w i ^ 2 ≤ qf H w := by
  obtain ⟨h1, h2⟩ := qf_diag hH hU w
  rw [h1, h2, Finset.mul_sum]
  exact Finset.sum_le_sum fun k _ => mul_le_mul_of_nonneg_right (hl (Fin.zero_le k)) (sq_nonneg _)

theorem col_unit (hU : U.transpose * U = 1) (k : Fin n) : ∑ i, U i k ^ 2 = 1 := by
  have := congrFun (congrFun hU k) k
  simp only [Matrix.mul_apply, Matrix.transpose_apply, Matrix.one_apply_eq] at this
  rw [← this]
  exact Finset.sum_congr rfl fun i _ => pow_two _

theorem col_eig (hH : H * U = U * Matrix.diagonal l) (i k : Fin n) : ∑ j, H i j * U j k = l k * U i k := by
  have := congrFun (congrFun hH i) k
  rw [Matrix.mul_diagonal, Matrix.mul_apply] at this
  rw [this, mul_comm]

theorem qf_col (hH : H * U = U * Matrix.diagonal l) (hU : U.transpose * U = 1) (k : Fin n) :
    qf H (fun i => U i k) = l k := by
  simp only [qf, col_eig hH]
  rw [Finset.sum_congr rfl fun i _ => show l k * U i k * U i k = l k * U i k ^ 2 by ring, ← Finset.mul_sum, col_unit hU,
    mul_one]

end eig

theorem qf_neg {n : ℕ} (H : Matrix (Fin n) (Fin n) ℝ) (w : Fin n → ℝ) : qf H (fun i => w i * -1) = qf H w := by
  unfold qf
  refine Finset.sum_congr rfl fun i _ => ?_
  rw [Finset.sum_congr rfl fun j _ => show H i j * (w j * -1) = H i j * w j * -1 by ring, ← Finset.sum_mul]
  ring

/-- Iterated derivative from a chain of derivatives near the point. -/
theorem iter_chain (F : ℕ → ℝ → ℝ) (x : ℝ) (n : ℕ)
    (h : ∀ k, k < n → ∀ᶠ s in 𝓝 x, HasDerivAt (F k) (F (k + 1) s) s) :
    iteratedDeriv n (F 0) =ᶠ[𝓝 x] F n := by
  induction n with
  | zero => simp
  | succ n ih =>
    have h1 := ih fun k hk => h k (Nat.lt_succ_of_lt hk)
    rw [iteratedDeriv_succ]
    refine h1.deriv.trans ?_
    filter_upwards [h n (Nat.lt_succ_self n)] with s hs
    exact hs.deriv

section line
variable {n : ℕ} {m : EOS (Fin n)} {T R : ℝ} {ρ v : Fin n → ℝ}

theorem hasDerivAt_shift (ρ v : Fin n → ℝ) (s : ℝ) :
    HasDerivAt (fun σ : ℝ => fun i => ρ i + σ * v i) v s := by
  rw [hasDerivAt_pi]
  intro i
  exact (((hasDerivAt_id s).mul_const (v i)).const_add (ρ i)).congr_deriv (by simp)

theorem shift_zero (ρ v : Fin n → ℝ) : (fun i => ρ i + 0 * v i) = ρ := by funext i; ring

theorem smooth_shift (h : SmoothAt m T ρ) : ∀ᶠ σ : ℝ in 𝓝 0, SmoothAt m T (fun i => ρ i + σ * v i) := by
  have hc : ContinuousAt (fun σ : ℝ => fun i => ρ i + σ * v i) 0 := (hasDerivAt_shift ρ v 0).continuousAt
  refine hc.eventually ?_
  have := h.eventually_rho
  rwa [← shift_zero ρ v] at this

theorem hasDerivAt_Psir_shift {s : ℝ} (h : SmoothAt m T (fun i => ρ i + s * v i)) :
    HasDerivAt (fun σ => Psir m T (fun i => ρ i + σ * v i)) (∑ i, gradPsir m T (fun i => ρ i + s * v i) i * v i) s := by
  have := hasDerivAt_line (differentiableAt_Psir h) (hasDerivAt_shift ρ v s) rfl
  refine this.congr_deriv (Finset.sum_congr rfl fun i _ => ?_)
  unfold gradPsir
  ring

/-- The second derivative along a direction is the quadratic form of the Hessian. -/
theorem sigma_two (h : SmoothAt m T ρ) : PsirSigmaDeriv m T ρ v 2 = qf (hessPsir m T ρ) v := by
  unfold PsirSigmaDeriv
  refine HasD2.iteratedDeriv_eq ⟨fun s => ∑ i, gradPsir m T (fun i => ρ i + s * v i) i * v i, ?_, ?_⟩
  · filter_upwards [smooth_shift (v := v) h] with s hs
    exact hasDerivAt_Psir_shift hs
  · refine HasDerivAt.fun_sum fun i _ => ?_
    have h0 : SmoothAt m T (fun i => ρ i + 0 * v i) := by rw [shift_zero]; exact h
    have := hasDerivAt_gradPsir_line h i (hasDerivAt_shift ρ v 0) (shift_zero ρ v)
    exact this.mul_const (v i)

theorem critHess_symm (h : SmoothAt m T ρ) : (critHess m T ρ).IsSymm := by
  ext i j
  simp only [Matrix.transpose_apply, critHess, Matrix.of_apply]
  rw [show hessPsir m T ρ j i = hessPsir m T ρ i j from partialD2_symm (contDiffAt_Psir_rho h) _ _]
  by_cases hij : i = j
  · subst hij; rfl
  · have : ¬(j = i) := fun h => hij h.symm
    simp [hij, this]

end line

theorem psiTot_two {n : ℕ} {m : EOS (Fin (n + 2))} {T : ℝ} {ρ v : Fin (n + 2) → ℝ} (h : SmoothAt m T ρ) :
    psiTot m T ρ v 2 = qf (critHess m T ρ) v := by
  unfold psiTot
  rw [sigma_two h]
  simp only [psi0Deriv, qf, critHess, Matrix.of_apply, add_mul, Finset.sum_add_distrib]
  rw [add_comm]
  congr 1
  refine Finset.sum_congr rfl fun i _ => ?_
  rw [Finset.sum_eq_single i]
  · by_cases hi : ρ i = 0
    · simp [hi]
    · simp only [hi, not_false_eq_true, ne_eq, and_self, if_true]
      ring
  · intro j _ hj
    have : ¬(i = j) := fun h => hj h.symm
    simp [this]
  · simp

/-- Derivatives of the ideal-gas part along a line. -/
theorem ideal_chain {n : ℕ} {R T : ℝ} {ρ v : Fin (n + 2) → ℝ} (hρ : ∀ i, 0 < ρ i) {k : ℕ} (hk : 2 ≤ k) (hk4 : k ≤ 4) :
    iteratedDeriv k (fun σ : ℝ => R * T * ∑ i, (ρ i + σ * v i) * (Real.log (ρ i + σ * v i) - 1)) 0 =
      psi0Deriv R T ρ v k := by
  let F : ℕ → ℝ → ℝ := fun k σ => match k with
    | 0 => R * T * ∑ i, (ρ i + σ * v i) * (Real.log (ρ i + σ * v i) - 1)
    | 1 => R * T * ∑ i, v i * Real.log (ρ i + σ * v i)
    | 2 => R * T * ∑ i, v i ^ 2 / (ρ i + σ * v i)
    | 3 => R * T * ∑ i, -v i ^ 3 / (ρ i + σ * v i) ^ 2
    | 4 => R * T * ∑ i, 2 * v i ^ 4 / (ρ i + σ * v i) ^ 3
    | _ => 0
  have hpos : ∀ᶠ σ : ℝ in 𝓝 0, ∀ i, 0 < ρ i + σ * v i := by
    rw [eventually_all]
    intro i
    have hc : ContinuousAt (fun σ : ℝ => ρ i + σ * v i) 0 := by fun_prop
    exact hc.eventually (lt_mem_nhds (by simpa using hρ i))
  have hl : ∀ (i : Fin (n + 2)) (s : ℝ), HasDerivAt (fun σ : ℝ => ρ i + σ * v i) (v i) s := fun i s =>
    hasDerivAt_pi.1 (hasDerivAt_shift ρ v s) i
  have hch : ∀ k, k < 4 → ∀ᶠ s in 𝓝 (0 : ℝ), HasDerivAt (F k) (F (k + 1) s) s := by
    intro k hk
    filter_upwards [hpos] with s hs
    interval_cases k
    · refine (HasDerivAt.fun_sum fun i _ => ((hl i s).mul (((hl i s).log (hs i).ne').sub_const 1))).const_mul (R * T)
        |>.congr_deriv ?_
      simp only [F]
      congr 1
      refine Finset.sum_congr rfl fun i _ => ?_
      rw [mul_div_cancel₀ _ (hs i).ne']
      ring
    · refine (HasDerivAt.fun_sum fun i _ => (((hl i s).log (hs i).ne').const_mul (v i))).const_mul (R * T)
        |>.congr_deriv ?_
      simp only [F]
      congr 1
      refine Finset.sum_congr rfl fun i _ => ?_
      ring
    · refine (HasDerivAt.fun_sum fun i _ => ((hasDerivAt_const s (v i ^ 2)).div (hl i s) (hs i).ne')).const_mul (R * T)
        |>.congr_deriv ?_
      simp only [F]
      congr 1
      refine Finset.sum_congr rfl fun i _ => ?_
      ring
    · refine (HasDerivAt.fun_sum fun i _ => ((hasDerivAt_const s (-v i ^ 3)).div ((hl i s).pow 2)
        (pow_ne_zero 2 (hs i).ne'))).const_mul (R * T) |>.congr_deriv ?_
      simp only [F]
      congr 1
      refine Finset.sum_congr rfl fun i _ => ?_
      have := (hs i).ne'
      simp only [Pi.pow_apply]
      field_simp
      ring
  have h0 := (iter_chain F 0 k fun j hj => hch j (lt_of_lt_of_le hj hk4)).eq_of_nhds
  refine h0.trans ?_
  interval_cases k <;> simp only [F, psi0Deriv, zero_mul, add_zero, Finset.mul_sum] <;>
    refine Finset.sum_congr rfl fun i _ => ?_ <;> rw [if_pos (hρ i).ne'] <;> ring

/-- The entries 2 to 4 of `get_derivs` are the derivatives of the total Helmholtz energy density along the direction. -/
theorem psiTot_eq {n : ℕ} {m : EOS (Fin (n + 2))} {T R : ℝ} {ρ v : Fin (n + 2) → ℝ} (hR : ∀ x, m.R x = R)
    (hρ : ∀ i, 0 < ρ i) {k : ℕ} (hk : 2 ≤ k) (hk4 : k ≤ 4)
    (hs : ContDiffAt ℝ k (fun σ : ℝ => Psir m T (fun i => ρ i + σ * v i)) 0) :
    psiTot m T ρ v k = iteratedDeriv k (fun σ : ℝ => psiTotal m.alphar R T (fun i => ρ i + σ * v i)) 0 := by
  have hid : ContDiffAt ℝ k (fun σ : ℝ => R * T * ∑ i, (ρ i + σ * v i) * (Real.log (ρ i + σ * v i) - 1)) 0 := by
    refine contDiffAt_const.mul (ContDiffAt.sum fun i _ => ?_)
    have h1 : ContDiffAt ℝ k (fun σ : ℝ => ρ i + σ * v i) 0 := by fun_prop
    exact h1.mul ((h1.log (by simpa using (hρ i).ne')).sub contDiffAt_const)
  have e : (fun σ : ℝ => psiTotal m.alphar R T (fun i => ρ i + σ * v i)) = fun σ : ℝ =>
      R * T * ∑ i, (ρ i + σ * v i) * (Real.log (ρ i + σ * v i) - 1) + Psir m T (fun i => ρ i + σ * v i) := by
    funext σ
    simp only [psiTotal, Psir, hR, rhotot]
    unfold molefrac rhotot
    ring
  rw [e, iteratedDeriv_fun_add hid hs, ideal_chain hρ hk hk4]
  simp only [psiTot, hR]
  rfl

end Teqp.CritTrace

import Verif.Lemmas.MixVLE
import Mathlib.LinearAlgebra.Matrix.NonsingularInverse
import Mathlib.LinearAlgebra.Matrix.Determinant.Basic
import Mathlib.Analysis.SpecialFunctions.ExpDeriv

/-! # Linearised equilibrium conditions along curves of coexisting states -/

set_option autoImplicit false

open Teqp.Calc Teqp.Model Teqp.Spec Teqp.Lemmas Teqp.MixVLE Filter Topology

namespace Teqp.Envelope

/-- A linear solver that is exact on regular systems. -/
def SolvesRegular {N : ℕ} (solve : Solver N) : Prop :=
  ∀ (A : Matrix (Fin N) (Fin N) ℝ) (b : Fin N → ℝ), A.det ≠ 0 → A.mulVec (solve A b) = b

theorem SolvesRegular.unique {N : ℕ} {solve : Solver N} (hs : SolvesRegular solve) {A : Matrix (Fin N) (Fin N) ℝ}
    {b x : Fin N → ℝ} (hA : A.det ≠ 0) (hx : A.mulVec x = b) : solve A b = x := by
  subst hx
  have h := hs A (A.mulVec x) hA
  have hu : IsUnit A.det := isUnit_iff_ne_zero.mpr hA
  have := congrArg (A⁻¹.mulVec ·) h
  simpa [Matrix.mulVec_mulVec, Matrix.nonsing_inv_mul _ hu] using this

/-- The exact solver of linear systems scales with the right-hand side. -/
theorem SolvesRegular.smul {N : ℕ} {solve : Solver N} (hs : SolvesRegular solve) {A : Matrix (Fin N) (Fin N) ℝ}
    {b x : Fin N → ℝ} {c : ℝ} (hA : A.det ≠ 0) (hx : A.mulVec x = fun i => c * b i) :
    x = fun i => c * solve A b i := by
  have hu : IsUnit A.det := isUnit_iff_ne_zero.mpr hA
  have h1 : A.mulVec (fun i => c * solve A b i) = A.mulVec x := by
    have : (fun i => c * solve A b i) = c • solve A b := rfl
    rw [this, Matrix.mulVec_smul, hs A b hA, hx]
    rfl
  have := congrArg (A⁻¹.mulVec ·) h1
  simpa [Matrix.mulVec_mulVec, Matrix.nonsing_inv_mul _ hu] using this.symm

variable {N : ℕ} {m : EOS (Fin N)} {R s : ℝ} {τ : ℝ → ℝ} {γ δ : ℝ → Fin N → ℝ} {τ' : ℝ} {v w : Fin N → ℝ}

/-- The chemical potential's derivative along a curve, in terms of the Hessian and `dμ/dT` the code uses.  The constant
`R τ'` belongs to the reference density. -/
theorem mu_rate (h : SmoothAt m (τ s) (γ s)) (hR : ∀ x, m.R x = R) (hτ : HasDerivAt τ τ' s) (hγ : HasDerivAt γ v s)
    (i : Fin N) (hρ : 0 < γ s i) :
    HasDerivAt (fun u => gradPsir m (τ u) (γ u) i + R * τ u * Real.log (γ u i))
      (τ' * (dchempotdT m (τ s) (γ s) i - R) + mv (psiHess m (τ s) (γ s)) v i) s := by
  refine (mu_curve h hτ hγ rfl rfl R i hρ).congr_deriv ?_
  simp only [dchempotdT, mv, psiHess_apply, hessPsi, hR, add_mul, Finset.sum_add_distrib, ite_mul, zero_mul, Finset.sum_ite_eq,
    Finset.mem_univ, if_true, div_one]
  ring

theorem solverDp_eq {T : ℝ} {ρ : Fin N → ℝ} (hR : ∀ x, m.R x = R) (hp : ∀ i, ρ i ≠ 0) (i : Fin N) :
    solverDp m (R * T) T ρ i = ∑ j, hessPsi m T ρ i j * ρ j := by
  simp only [solverDp, hessPsi, hR, add_mul, Finset.sum_add_distrib, ite_mul, zero_mul, Finset.sum_ite_eq,
    Finset.mem_univ, if_true]
  rw [div_mul_cancel₀ _ (hp i)]
  ring

theorem hess_swap {T : ℝ} {ρ : Fin N → ℝ} (h : SmoothAt m T ρ) (v ρ' : Fin N → ℝ) :
    ∑ j, (∑ k, hessPsi m T ρ j k * ρ' k) * v j = ∑ k, ρ' k * mv (psiHess m T ρ) v k := by
  simp only [mv, psiHess_apply, Finset.sum_mul, Finset.mul_sum]
  rw [Finset.sum_comm]
  refine Finset.sum_congr rfl fun k _ => Finset.sum_congr rfl fun j _ => ?_
  rw [(Props.hessPsi_symm h j k).2]
  ring

/-- The pressure's derivative along a curve. -/
theorem p_rate (h : SmoothAt m (τ s) (γ s)) (hR : ∀ x, m.R x = R) (hτ : HasDerivAt τ τ' s) (hγ : HasDerivAt γ v s)
    (hρ : ∀ i, γ s i ≠ 0) :
    HasDerivAt (fun u => solverP m (R * τ u) (τ u) (γ u))
      (τ' * dpdT m (τ s) (γ s) + ∑ k, γ s k * mv (psiHess m (τ s) (γ s)) v k) s := by
  refine (p_curve h hR hτ hγ rfl rfl).congr_deriv ?_
  simp only [solverDp_eq hR hρ]
  rw [hess_swap h]

theorem smooth_curve (h : SmoothAt m (τ s) (γ s)) (hτ : ContinuousAt τ s) (hγ : ContinuousAt γ s) :
    ∀ᶠ u in 𝓝 s, SmoothAt m (τ u) (γ u) := by
  have hr : ContinuousAt (fun u => rhotot (γ u)) s :=
    ContinuousAt.comp (g := rhotot) ((contDiff_rhotot (n := 0)).contDiffAt.continuousAt) hγ
  have hx : ContinuousAt (fun u => molefrac (γ u)) s :=
    ContinuousAt.comp (g := molefrac) ((contDiffAt_molefrac (n := 0) h.tot).continuousAt) hγ
  have hc : ContinuousAt (fun u => (τ u, rhotot (γ u), molefrac (γ u))) s := hτ.prodMk (hr.prodMk hx)
  filter_upwards [hr.eventually_ne h.tot, hc.eventually (h.hα.eventually (by simp)),
    hx.eventually (h.hR.eventually (by simp))] with u h1 h2 h3
  exact ⟨h1, h2, h3⟩

theorem pos_curve (hγ : ContinuousAt γ s) (hp : ∀ i, 0 < γ s i) : ∀ᶠ u in 𝓝 s, ∀ i, 0 < γ u i := by
  rw [eventually_all]
  intro i
  exact ((continuousAt_apply i _).comp hγ).eventually (lt_mem_nhds (hp i))

end Teqp.Envelope

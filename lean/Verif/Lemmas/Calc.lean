import Mathlib.Analysis.Calculus.Deriv.Basic
import Mathlib.Analysis.Calculus.Deriv.Pi
import Mathlib.Analysis.Calculus.Deriv.Comp
import Mathlib.Analysis.Calculus.Deriv.Mul
import Mathlib.Analysis.Calculus.Deriv.Inv
import Mathlib.Analysis.Calculus.Deriv.Prod
import Mathlib.Analysis.Calculus.IteratedDeriv.Defs
import Mathlib.Analysis.Calculus.FDeriv.Symmetric
import Mathlib.Analysis.Calculus.FDeriv.Prod
import Mathlib.Analysis.Calculus.FDeriv.Pi
import Mathlib.Analysis.Calculus.ContDiff.Basic
import Mathlib.Analysis.Calculus.ContDiff.Operations
import Mathlib.Tactic.FieldSimp
import Mathlib.Tactic.Linarith

/-! # General calculus lemmas used by the derivative layer -/

set_option autoImplicit false

open Filter Topology

namespace Teqp.Calc

/-! ## Partial derivatives of a function of two real variables -/

section TwoVar
variable {F : ℝ → ℝ → ℝ} {a b : ℝ}

/-- The uncurried function. -/
abbrev unc (F : ℝ → ℝ → ℝ) : ℝ × ℝ → ℝ := fun p => F p.1 p.2

theorem hasDerivAt_pair_left (a b : ℝ) :
    HasDerivAt (fun t : ℝ => ((t, b) : ℝ × ℝ)) (1, 0) a :=
  (hasDerivAt_id a).prodMk (hasDerivAt_const a b)

theorem hasDerivAt_pair_right (a b : ℝ) :
    HasDerivAt (fun r : ℝ => ((a, r) : ℝ × ℝ)) (0, 1) b :=
  (hasDerivAt_const b a).prodMk (hasDerivAt_id b)

theorem hasDerivAt_right (h : DifferentiableAt ℝ (unc F) (a, b)) :
    HasDerivAt (fun r => F a r) (fderiv ℝ (unc F) (a, b) (0, 1)) b :=
  HasFDerivAt.comp_hasDerivAt (l := unc F) b h.hasFDerivAt (hasDerivAt_pair_right a b)

theorem hasDerivAt_left (h : DifferentiableAt ℝ (unc F) (a, b)) :
    HasDerivAt (fun t => F t b) (fderiv ℝ (unc F) (a, b) (1, 0)) a :=
  HasFDerivAt.comp_hasDerivAt (l := unc F) a h.hasFDerivAt (hasDerivAt_pair_left a b)

theorem eventually_differentiableAt (h : ContDiffAt ℝ 2 (unc F) (a, b)) :
    ∀ᶠ p in 𝓝 (a, b), DifferentiableAt ℝ (unc F) p := by
  have h1 : ContDiffAt ℝ 1 (unc F) (a, b) := h.of_le (by norm_num)
  filter_upwards [h1.eventually (by simp)] with p hp
  exact hp.differentiableAt (by norm_num)

theorem differentiableAt_fderiv (h : ContDiffAt ℝ 2 (unc F) (a, b)) :
    DifferentiableAt ℝ (fderiv ℝ (unc F)) (a, b) := by
  have : ContDiffAt ℝ 1 (fderiv ℝ (unc F)) (a, b) :=
    h.fderiv_right (m := 1) (by norm_num)
  exact this.differentiableAt (by norm_num)

/-- `fun r => ∂_r F(a, r)` has derivative `∂_r∂_r F`. -/
theorem hasDerivAt_dd_right_right (h : ContDiffAt ℝ 2 (unc F) (a, b)) :
    HasDerivAt (fun r => deriv (fun r' => F a r') r)
      (fderiv ℝ (fderiv ℝ (unc F)) (a, b) (0, 1) (0, 1)) b := by
  have hd := (differentiableAt_fderiv h).hasFDerivAt.comp_hasDerivAt b (hasDerivAt_pair_right a b)
  have hd2 := (ContinuousLinearMap.apply ℝ ℝ ((0, 1) : ℝ × ℝ)).hasFDerivAt.comp_hasDerivAt b hd
  refine hd2.congr_of_eventuallyEq ?_
  have hev := (hasDerivAt_pair_right a b).continuousAt.eventually (eventually_differentiableAt h)
  filter_upwards [hev] with r hr
  exact (hasDerivAt_right hr).deriv

theorem hasDerivAt_dd_left_left (h : ContDiffAt ℝ 2 (unc F) (a, b)) :
    HasDerivAt (fun t => deriv (fun t' => F t' b) t)
      (fderiv ℝ (fderiv ℝ (unc F)) (a, b) (1, 0) (1, 0)) a := by
  have hd := (differentiableAt_fderiv h).hasFDerivAt.comp_hasDerivAt a (hasDerivAt_pair_left a b)
  have hd2 := (ContinuousLinearMap.apply ℝ ℝ ((1, 0) : ℝ × ℝ)).hasFDerivAt.comp_hasDerivAt a hd
  refine hd2.congr_of_eventuallyEq ?_
  have hev := (hasDerivAt_pair_left a b).continuousAt.eventually (eventually_differentiableAt h)
  filter_upwards [hev] with r hr
  exact (hasDerivAt_left hr).deriv

/-- `fun t => ∂_r F(t, b)` has derivative `∂_t∂_r F`. -/
theorem hasDerivAt_dd_left_right (h : ContDiffAt ℝ 2 (unc F) (a, b)) :
    HasDerivAt (fun t => deriv (fun r => F t r) b)
      (fderiv ℝ (fderiv ℝ (unc F)) (a, b) (1, 0) (0, 1)) a := by
  have hd := (differentiableAt_fderiv h).hasFDerivAt.comp_hasDerivAt a (hasDerivAt_pair_left a b)
  have hd2 := (ContinuousLinearMap.apply ℝ ℝ ((0, 1) : ℝ × ℝ)).hasFDerivAt.comp_hasDerivAt a hd
  refine hd2.congr_of_eventuallyEq ?_
  have hev := (hasDerivAt_pair_left a b).continuousAt.eventually (eventually_differentiableAt h)
  filter_upwards [hev] with r hr
  exact (hasDerivAt_right hr).deriv

/-- `fun r => ∂_t F(a, r)` has derivative `∂_t∂_r F` (Schwarz). -/
theorem hasDerivAt_dd_right_left (h : ContDiffAt ℝ 2 (unc F) (a, b)) :
    HasDerivAt (fun r => deriv (fun t => F t r) a)
      (fderiv ℝ (fderiv ℝ (unc F)) (a, b) (1, 0) (0, 1)) b := by
  have hd := (differentiableAt_fderiv h).hasFDerivAt.comp_hasDerivAt b (hasDerivAt_pair_right a b)
  have hd2 := (ContinuousLinearMap.apply ℝ ℝ ((1, 0) : ℝ × ℝ)).hasFDerivAt.comp_hasDerivAt b hd
  have hsym : fderiv ℝ (fderiv ℝ (unc F)) (a, b) (0, 1) (1, 0)
      = fderiv ℝ (fderiv ℝ (unc F)) (a, b) (1, 0) (0, 1) :=
    (h.isSymmSndFDerivAt (by simp)) (0, 1) (1, 0)
  have hd3 : HasDerivAt (fun r => fderiv ℝ (unc F) (a, r) (1, 0))
      (fderiv ℝ (fderiv ℝ (unc F)) (a, b) (1, 0) (0, 1)) b := by
    rw [← hsym]; exact hd2
  refine hd3.congr_of_eventuallyEq ?_
  have hev := (hasDerivAt_pair_right a b).continuousAt.eventually (eventually_differentiableAt h)
  filter_upwards [hev] with r hr
  exact (hasDerivAt_left hr).deriv

/-- Schwarz: the mixed partials agree. -/
theorem deriv_comm (h : ContDiffAt ℝ 2 (unc F) (a, b)) :
    deriv (fun r => deriv (fun t => F t r) a) b = deriv (fun t => deriv (fun r => F t r) b) a := by
  rw [(hasDerivAt_dd_right_left h).deriv, (hasDerivAt_dd_left_right h).deriv]

end TwoVar

/-! ## Partial derivatives on `ι → ℝ` -/

section Pi
variable {ι : Type} [Fintype ι] [DecidableEq ι] {f : (ι → ℝ) → ℝ} {x : ι → ℝ}

/-- The partial derivative in coordinate `i`: what forward-mode differentiation with a seed in
slot `i` returns. -/
noncomputable def partialD (f : (ι → ℝ) → ℝ) (i : ι) (x : ι → ℝ) : ℝ :=
  deriv (fun t => f (Function.update x i t)) (x i)

theorem hasDerivAt_partial (h : DifferentiableAt ℝ f x) (i : ι) :
    HasDerivAt (fun t => f (Function.update x i t)) (fderiv ℝ f x (Pi.single i 1)) (x i) := by
  have h2 : HasFDerivAt f (fderiv ℝ f x) (Function.update x i (x i)) := by
    rw [Function.update_eq_self]; exact h.hasFDerivAt
  exact h2.comp_hasDerivAt (x i) (hasDerivAt_update x i (x i))

theorem partialD_eq (h : DifferentiableAt ℝ f x) (i : ι) :
    partialD f i x = fderiv ℝ f x (Pi.single i 1) :=
  (hasDerivAt_partial h i).deriv

theorem fderiv_eq_sum (x v : ι → ℝ) :
    fderiv ℝ f x v = ∑ i, v i * fderiv ℝ f x (Pi.single i 1) := by
  conv_lhs => rw [pi_eq_sum_univ' v]
  rw [map_sum]
  refine Finset.sum_congr rfl fun i _ => ?_
  rw [map_smul, smul_eq_mul]

/-- Directional derivative along `v` is `Σ v_i ∂_i f`. -/
theorem hasDerivAt_line (h : DifferentiableAt ℝ f x) {γ : ℝ → ι → ℝ} {v : ι → ℝ} {s : ℝ}
    (hγ : HasDerivAt γ v s) (hs : γ s = x) :
    HasDerivAt (fun u => f (γ u)) (∑ i, v i * partialD f i x) s := by
  have h2 : HasFDerivAt f (fderiv ℝ f x) (γ s) := by rw [hs]; exact h.hasFDerivAt
  have := h2.comp_hasDerivAt s hγ
  rw [fderiv_eq_sum] at this
  simp_rw [partialD_eq h]
  exact this

/-- The second partial derivatives. -/
noncomputable def partialD2 (f : (ι → ℝ) → ℝ) (i j : ι) (x : ι → ℝ) : ℝ :=
  partialD (fun y => partialD f j y) i x

theorem eventually_partialD_eq (h : ContDiffAt ℝ 2 f x) (i : ι) :
    (fun y => partialD f i y) =ᶠ[𝓝 x] fun y => fderiv ℝ f y (Pi.single i 1) := by
  have h1 : ContDiffAt ℝ 1 f x := h.of_le (by norm_num)
  filter_upwards [h1.eventually (by simp)] with p hp
  exact partialD_eq (hp.differentiableAt (by norm_num)) i

theorem differentiableAt_partialD (h : ContDiffAt ℝ 2 f x) (i : ι) :
    DifferentiableAt ℝ (fun y => partialD f i y) x := by
  have hf : ContDiffAt ℝ 1 (fderiv ℝ f) x := h.fderiv_right (m := 1) (by norm_num)
  have hd : DifferentiableAt ℝ (fun y => fderiv ℝ f y (Pi.single i 1)) x :=
    (hf.differentiableAt (by norm_num)).clm_apply (differentiableAt_const _)
  exact hd.congr_of_eventuallyEq (eventually_partialD_eq h i)

theorem partialD2_eq (h : ContDiffAt ℝ 2 f x) (i j : ι) :
    partialD2 f i j x = fderiv ℝ (fderiv ℝ f) x (Pi.single i 1) (Pi.single j 1) := by
  have hf : ContDiffAt ℝ 1 (fderiv ℝ f) x := h.fderiv_right (m := 1) (by norm_num)
  have hdf : DifferentiableAt ℝ (fderiv ℝ f) x := hf.differentiableAt (by norm_num)
  unfold partialD2
  rw [partialD_eq (differentiableAt_partialD h j)]
  rw [(eventually_partialD_eq h j).fderiv_eq]
  rw [fderiv_clm_apply hdf (differentiableAt_const _)]
  simp

/-- The Hessian is symmetric (Schwarz). -/
theorem partialD2_symm (h : ContDiffAt ℝ 2 f x) (i j : ι) :
    partialD2 f i j x = partialD2 f j i x := by
  rw [partialD2_eq h, partialD2_eq h]
  exact (h.isSymmSndFDerivAt (by simp)) _ _

end Pi

/-! ## Change of variable `t = 1/T` -/

theorem hasDerivAt_recip_comp {g : ℝ → ℝ} {g' T : ℝ} (hT : T ≠ 0) (hg : HasDerivAt g g' (1 / T)) :
    HasDerivAt (fun T => g (1 / T)) (-(1 / T) ^ 2 * g') T := by
  have h1 : HasDerivAt (fun T : ℝ => 1 / T) (-(1 / T) ^ 2) T := by
    have := hasDerivAt_inv hT
    simp only [one_div]
    rw [inv_pow]
    exact this
  have := hg.comp T h1
  rw [mul_comm]
  exact this

end Teqp.Calc

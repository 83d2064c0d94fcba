import Verif.Lemmas.Calc

/-! # Higher partial derivatives of a function of two variables -/

set_option autoImplicit false
open Filter Topology

namespace Teqp.Calc

/-- The partial derivative in the second variable. -/
noncomputable def dr (F : ℝ → ℝ → ℝ) : ℝ → ℝ → ℝ := fun t r => deriv (F t) r

theorem dr_eventually {F : ℝ → ℝ → ℝ} {a b : ℝ} {n : ℕ} (h : ContDiffAt ℝ (n + 1 : ℕ) (unc F) (a, b)) :
    unc (dr F) =ᶠ[𝓝 (a, b)] fun p => fderiv ℝ (unc F) p (0, 1) := by
  have h1 : ContDiffAt ℝ 1 (unc F) (a, b) := h.of_le (by exact_mod_cast Nat.le_add_left 1 n)
  filter_upwards [h1.eventually (by simp)] with p hp
  exact (hasDerivAt_right (F := F) (a := p.1) (b := p.2) (hp.differentiableAt (by norm_num))).deriv

theorem contDiffAt_dr {F : ℝ → ℝ → ℝ} {a b : ℝ} {n : ℕ} (h : ContDiffAt ℝ (n + 1 : ℕ) (unc F) (a, b)) :
    ContDiffAt ℝ n (unc (dr F)) (a, b) := by
  have h1 : ContDiffAt ℝ n (fderiv ℝ (unc F)) (a, b) := h.fderiv_right (m := n) (by norm_cast)
  have h2 : ContDiffAt ℝ n (fun p => fderiv ℝ (unc F) p (0, 1)) (a, b) := h1.clm_apply contDiffAt_const
  exact h2.congr_of_eventuallyEq (dr_eventually h)

/-- `j` times. -/
noncomputable def drn (F : ℝ → ℝ → ℝ) : ℕ → ℝ → ℝ → ℝ
  | 0 => F
  | j + 1 => drn (dr F) j

theorem drn_eq (F : ℝ → ℝ → ℝ) (j : ℕ) (t r : ℝ) : drn F j t r = iteratedDeriv j (F t) r := by
  induction j generalizing F with
  | zero => simp [drn]
  | succ j ih =>
    rw [drn, ih, iteratedDeriv_succ']
    rfl

theorem drn_succ (F : ℝ → ℝ → ℝ) (j : ℕ) : drn F (j + 1) = dr (drn F j) := by
  funext t r
  rw [drn_eq, iteratedDeriv_succ, dr]
  congr 1
  funext r'
  rw [drn_eq]

theorem contDiffAt_drn {F : ℝ → ℝ → ℝ} {a b : ℝ} {n j : ℕ} (h : ContDiffAt ℝ (n + j : ℕ) (unc F) (a, b)) :
    ContDiffAt ℝ n (unc (drn F j)) (a, b) := by
  induction j generalizing F with
  | zero => exact h
  | succ j ih => exact ih (contDiffAt_dr (n := n + j) h)

/-- Chain rule along a curve. -/
theorem hasDerivAt_curve {F : ℝ → ℝ → ℝ} {a : ℝ} {γ : ℝ → ℝ} {γ' : ℝ} (h : DifferentiableAt ℝ (unc F) (a, γ a))
    (hγ : HasDerivAt γ γ' a) :
    HasDerivAt (fun t => F t (γ t)) (deriv (fun t => F t (γ a)) a + deriv (F a) (γ a) * γ') a := by
  have hc : HasDerivAt (fun t => ((t, γ t) : ℝ × ℝ)) (1, γ') a := (hasDerivAt_id a).prodMk hγ
  have := HasFDerivAt.comp_hasDerivAt (l := unc F) a h.hasFDerivAt hc
  refine this.congr_deriv ?_
  rw [(hasDerivAt_left h).deriv]
  have e : deriv (F a) (γ a) = fderiv ℝ (unc F) (a, γ a) (0, 1) := (hasDerivAt_right h).deriv
  rw [e]
  have : ((1, γ') : ℝ × ℝ) = (1, 0) + γ' • ((0, 1) : ℝ × ℝ) := by simp
  rw [this, map_add, map_smul, smul_eq_mul, mul_comm γ']

end Teqp.Calc

import Verif.Props.SoundSpeed

/-! # The effective hardness of interaction along curves of constant residual entropy -/

set_option autoImplicit false
open Filter Topology

namespace Teqp.Props
open Teqp.Calc Teqp.Model Teqp.Spec Teqp.Lemmas

/-- The effective hardness is three times the logarithmic slope of temperature in density along every curve of constant
residual entropy (the definition of the density scaling exponent). -/
theorem neff_isomorph {α : ℝ → ℝ → ℝ} {R T ρ : ℝ} (hR : R ≠ 0) (hT : T ≠ 0) (hρ : ρ ≠ 0) (h : ContDiffAt ℝ 2 (unc α) (T, ρ))
    (h20 : Lambda α 2 0 T ρ ≠ 0) {θ r : ℝ → ℝ} {θ' r' : ℝ} (h0 : θ 0 = T) (h1 : r 0 = ρ) (hθ : HasDerivAt θ θ' 0)
    (hr : HasDerivAt r r' 0) (hs : ∀ᶠ s in 𝓝 (0 : ℝ), entropy α R (θ s) (r s) = entropy α R T ρ) :
    3 * (θ' / T) = getNeff α T ρ * (r' / ρ) := by
  have P := partials hT h
  have hen := hasDerivAt_states (differentiableAt_entropy (R := R) h) h0 h1 hθ hr (entropy_dT R hT P) (entropy_drho R hT P)
  have hz : -(R * (1 / T) ^ 3 * P.ftt) * θ' + R * ((1 / T) * P.ftr - P.fr) * r' = 0 :=
    hen.unique ((hasDerivAt_const (0 : ℝ) (entropy α R T ρ)).congr_of_eventuallyEq hs)
  unfold getNeff
  simp only [Agenxy_is_Lambda]
  rw [Lambda20 P] at h20 ⊢
  rw [Lambda01 P, Lambda11 P]
  have hftt : P.ftt ≠ 0 := fun h => h20 (by rw [h, mul_zero])
  have hz' : P.ftt * θ' = T ^ 3 * ((1 / T) * P.ftr - P.fr) * r' := by
    have : R * (P.ftt * θ' - T ^ 3 * ((1 / T) * P.ftr - P.fr) * r') = 0 := by
      have e : R * (P.ftt * θ' - T ^ 3 * ((1 / T) * P.ftr - P.fr) * r')
          = -T ^ 3 * (-(R * (1 / T) ^ 3 * P.ftt) * θ' + R * ((1 / T) * P.ftr - P.fr) * r') := by
        field_simp; ring
      rw [e, hz, mul_zero]
    have := (mul_eq_zero.1 this).resolve_left hR
    linarith
  have hθ' : θ' = T ^ 3 * ((1 / T) * P.ftr - P.fr) * r' / P.ftt := by
    rw [eq_div_iff hftt, mul_comm]; exact hz'
  rw [hθ']
  field_simp
  ring

/-- Particles that repel with the twelfth power: `α = ρ⁸/T²`; the residual entropy is constant where `T = ρ⁴`, and the
effective hardness is 12. -/
example : getNeff (fun T ρ => ρ ^ 8 / T ^ 2) 1 1 = 12 := by
  have hc : ContDiffAt ℝ 2 (unc fun T ρ : ℝ => ρ ^ 8 / T ^ 2) (1, 1) := by
    have : (unc fun T ρ : ℝ => ρ ^ 8 / T ^ 2) = fun p : ℝ × ℝ => p.2 ^ 8 / p.1 ^ 2 := rfl
    rw [this]
    exact (contDiffAt_snd.pow 8).div (contDiffAt_fst.pow 2) (by norm_num)
  have h20 : Lambda (fun T ρ : ℝ => ρ ^ 8 / T ^ 2) 2 0 1 1 ≠ 0 := by
    unfold Lambda
    simp only [iteratedDeriv_zero, pow_zero, mul_one]
    have e : (fun t : ℝ => (1 : ℝ) ^ 8 / (1 / t) ^ 2) = fun t => t ^ 2 := by funext t; simp
    rw [e]
    rw [iteratedDeriv_succ, iteratedDeriv_one]
    have e2 : deriv (fun t : ℝ => t ^ 2) = fun t => 2 * t := by funext t; simp
    rw [e2]
    have e3 : HasDerivAt (fun t : ℝ => 2 * t) 2 (1 / 1) := by simpa using (hasDerivAt_id (1 / 1 : ℝ)).const_mul 2
    rw [e3.deriv]
    norm_num
  have hent : ∀ T ρ : ℝ, 0 < T → entropy (fun T ρ : ℝ => ρ ^ 8 / T ^ 2) 1 T ρ = ρ ^ 8 / T ^ 2 := by
    intro T ρ hT
    unfold entropy helmholtz
    have hd : HasDerivAt (fun T' : ℝ => ρ ^ 8 / T' ^ 2 * 1 * T') (-(ρ ^ 8 / T ^ 2)) T := by
      have h1 := ((hasDerivAt_const T (ρ ^ 8)).div (hasDerivAt_pow 2 T) (by positivity)).mul_const (1 : ℝ)
      refine (h1.mul (hasDerivAt_id T)).congr_deriv ?_
      simp
      field_simp
      ring
    rw [hd.deriv, neg_neg]
  have key := neff_isomorph (R := 1) (T := 1) (ρ := 1) one_ne_zero one_ne_zero one_ne_zero hc h20 (θ := fun s => (1 + s) ^ 4)
    (r := fun s => 1 + s) (θ' := 4) (r' := 1) (by norm_num) (by norm_num)
    (by
      have := ((hasDerivAt_id (0 : ℝ)).const_add 1).pow 4
      refine this.congr_deriv ?_
      norm_num)
    ((hasDerivAt_id (0 : ℝ)).const_add 1)
    (by
      filter_upwards [eventually_gt_nhds (show (-1 : ℝ) < 0 by norm_num)] with s hs
      have hp : 0 < 1 + s := by linarith
      rw [hent _ _ (by positivity), hent _ _ one_pos]
      field_simp)
  norm_num at key
  linarith

end Teqp.Props

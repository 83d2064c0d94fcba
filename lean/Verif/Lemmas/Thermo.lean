import Verif.Lemmas.Calc
import Verif.Lemmas.Powi
import Verif.Model.Lambda
import Verif.Spec.Thermo

/-! # From reduced derivatives to thermodynamic properties -/

set_option autoImplicit false
open Filter Topology

namespace Teqp.Lemmas
open Teqp.Calc Teqp.Model Teqp.Spec

/-- `α` as a function of reciprocal temperature. -/
noncomputable def recipForm (α : ℝ → ℝ → ℝ) : ℝ → ℝ → ℝ := fun t r => α (1 / t) r

theorem recipForm_recip (α : ℝ → ℝ → ℝ) (T r : ℝ) : recipForm α (1 / T) r = α T r := by
  simp [recipForm]

theorem contDiffAt_recipForm {α : ℝ → ℝ → ℝ} {T ρ : ℝ} {n : WithTop ℕ∞} (hT : T ≠ 0)
    (h : ContDiffAt ℝ n (unc α) (T, ρ)) : ContDiffAt ℝ n (unc (recipForm α)) (1 / T, ρ) := by
  have hinv : ContDiffAt ℝ n (fun p : ℝ × ℝ => ((p.1)⁻¹, p.2)) ((1 / T), ρ) := by
    refine ContDiffAt.prodMk (ContDiffAt.inv contDiffAt_fst ?_) contDiffAt_snd
    simpa using hT
  have h' : ContDiffAt ℝ n (unc α) ((fun p : ℝ × ℝ => ((p.1)⁻¹, p.2)) ((1 / T), ρ)) := by
    simpa using h
  have := h'.comp (1 / T, ρ) hinv
  refine this.congr_of_eventuallyEq (Eventually.of_forall fun p => ?_)
  simp [unc, recipForm]

/-- First and second partial derivatives of the reciprocal form at a point, packaged. -/
structure Partials (α : ℝ → ℝ → ℝ) (T ρ : ℝ) where
  ft : ℝ
  fr : ℝ
  ftt : ℝ
  ftr : ℝ
  frr : ℝ
  h_t : HasDerivAt (fun t => recipForm α t ρ) ft (1 / T)
  h_r : HasDerivAt (fun r => recipForm α (1 / T) r) fr ρ
  h_tt : HasDerivAt (fun t => deriv (fun t' => recipForm α t' ρ) t) ftt (1 / T)
  h_tr : HasDerivAt (fun t => deriv (fun r => recipForm α t r) ρ) ftr (1 / T)
  h_rt : HasDerivAt (fun r => deriv (fun t => recipForm α t r) (1 / T)) ftr ρ
  h_rr : HasDerivAt (fun r => deriv (fun r' => recipForm α (1 / T) r') r) frr ρ
  ev_t : ∀ᶠ t in 𝓝 (1 / T), DifferentiableAt ℝ (fun t' => recipForm α t' ρ) t
  ev_r : ∀ᶠ r in 𝓝 ρ, DifferentiableAt ℝ (fun r' => recipForm α (1 / T) r') r
  ev_tr : ∀ᶠ t in 𝓝 (1 / T), DifferentiableAt ℝ (fun r => recipForm α t r) ρ
  ev_rt : ∀ᶠ r in 𝓝 ρ, DifferentiableAt ℝ (fun t => recipForm α t r) (1 / T)

noncomputable def partials {α : ℝ → ℝ → ℝ} {T ρ : ℝ} (hT : T ≠ 0)
    (h : ContDiffAt ℝ 2 (unc α) (T, ρ)) : Partials α T ρ :=
  have h' := contDiffAt_recipForm hT h
  have hd : DifferentiableAt ℝ (unc (recipForm α)) (1 / T, ρ) := h'.differentiableAt (by norm_num)
  have evl := (hasDerivAt_pair_left (1 / T) ρ).continuousAt.eventually
    (eventually_differentiableAt h')
  have evr := (hasDerivAt_pair_right (1 / T) ρ).continuousAt.eventually
    (eventually_differentiableAt h')
  { ft := _, fr := _, ftt := _, ftr := _, frr := _
    h_t := hasDerivAt_left hd
    h_r := hasDerivAt_right hd
    h_tt := hasDerivAt_dd_left_left h'
    h_tr := hasDerivAt_dd_left_right h'
    h_rt := hasDerivAt_dd_right_left h'
    h_rr := hasDerivAt_dd_right_right h'
    ev_t := evl.mono fun _ hx => (hasDerivAt_left hx).differentiableAt
    ev_r := evr.mono fun _ hx => (hasDerivAt_right hx).differentiableAt
    ev_tr := evl.mono fun _ hx => (hasDerivAt_right hx).differentiableAt
    ev_rt := evr.mono fun _ hx => (hasDerivAt_left hx).differentiableAt }

section
variable {α : ℝ → ℝ → ℝ} {T ρ : ℝ}

theorem Lambda00 : Lambda α 0 0 T ρ = α T ρ := by simp [Lambda]
theorem Lambda01 (P : Partials α T ρ) : Lambda α 0 1 T ρ = ρ * P.fr := by
  unfold Lambda
  have := P.h_r.deriv
  simp only [recipForm] at this
  simp only [pow_zero, pow_one, iteratedDeriv_zero, iteratedDeriv_one, one_mul]
  rw [this]
theorem Lambda10 (P : Partials α T ρ) : Lambda α 1 0 T ρ = (1 / T) * P.ft := by
  unfold Lambda
  have := P.h_t.deriv
  simp only [recipForm] at this
  simp only [pow_zero, pow_one, iteratedDeriv_zero, iteratedDeriv_one, mul_one]
  rw [this]
theorem Lambda20 (P : Partials α T ρ) : Lambda α 2 0 T ρ = (1 / T) ^ 2 * P.ftt := by
  unfold Lambda
  have h := P.h_tt.deriv
  simp only [recipForm] at h
  simp only [pow_zero, iteratedDeriv_zero, mul_one]
  rw [iteratedDeriv_succ, iteratedDeriv_one]
  exact congrArg _ h
theorem Lambda02 (P : Partials α T ρ) : Lambda α 0 2 T ρ = ρ ^ 2 * P.frr := by
  unfold Lambda
  have h := P.h_rr.deriv
  simp only [recipForm] at h
  simp only [pow_zero, iteratedDeriv_zero, one_mul]
  rw [iteratedDeriv_succ, iteratedDeriv_one]
  exact congrArg _ h
theorem Lambda11 (P : Partials α T ρ) : Lambda α 1 1 T ρ = (1 / T) * ρ * P.ftr := by
  unfold Lambda
  have h := P.h_tr.deriv
  simp only [recipForm] at h
  simp only [pow_one]
  rw [iteratedDeriv_one]
  simp only [iteratedDeriv_one]
  exact congrArg _ h

/-- `a(T,ρ)` in terms of the reciprocal form. -/
theorem helmholtz_eq (R T r : ℝ) : helmholtz α R T r = recipForm α (1 / T) r * R * T := by
  rw [recipForm_recip]; rfl

theorem pressure_of (R : ℝ) {fr : ℝ} (h : HasDerivAt (fun r => recipForm α (1 / T) r) fr ρ) :
    pressure α R T ρ = ρ ^ 2 * (fr * R * T) := by
  unfold pressure
  have : HasDerivAt (fun r => helmholtz α R T r) (fr * R * T) ρ := by
    simp only [helmholtz_eq]
    exact (h.mul_const R).mul_const T
  rw [this.deriv]

theorem entropy_of (R : ℝ) (hT : T ≠ 0) {ft : ℝ}
    (h : HasDerivAt (fun t => recipForm α t ρ) ft (1 / T)) :
    entropy α R T ρ = R * ((1 / T) * ft - recipForm α (1 / T) ρ) := by
  unfold entropy
  have h1 := hasDerivAt_recip_comp hT h
  have : HasDerivAt (fun T' => helmholtz α R T' ρ)
      (-(1 / T) ^ 2 * ft * R * T + recipForm α (1 / T) ρ * R * 1) T := by
    simp only [helmholtz_eq]
    exact (h1.mul_const R).mul (hasDerivAt_id T)
  rw [this.deriv]
  field_simp
  ring

theorem energy_of (R : ℝ) (hT : T ≠ 0) {ft : ℝ}
    (h : HasDerivAt (fun t => recipForm α t ρ) ft (1 / T)) :
    energy α R T ρ = R * ft := by
  unfold energy
  rw [entropy_of R hT h, helmholtz_eq]
  field_simp
  ring

/-! Derivatives of the properties -/

theorem pressure_drho (R : ℝ) (P : Partials α T ρ) :
    HasDerivAt (fun r => pressure α R T r) (2 * ρ * (P.fr * R * T) + ρ ^ 2 * (P.frr * R * T)) ρ := by
  have hev : (fun r => pressure α R T r) =ᶠ[𝓝 ρ]
      fun r => r ^ 2 * (deriv (fun r' => recipForm α (1 / T) r') r * R * T) := by
    filter_upwards [P.ev_r] with r hr
    exact pressure_of R hr.hasDerivAt
  have h := (hasDerivAt_pow 2 ρ).mul ((P.h_rr.mul_const R).mul_const T)
  refine (h.congr_of_eventuallyEq hev).congr_deriv ?_
  rw [P.h_r.deriv]; norm_num

theorem pressure_dT (R : ℝ) (hT : T ≠ 0) (P : Partials α T ρ) :
    HasDerivAt (fun T' => pressure α R T' ρ)
      (ρ ^ 2 * (P.fr * R) + ρ ^ 2 * (-(1 / T) ^ 2 * P.ftr * R * T)) T := by
  have hcont : ContinuousAt (fun T' : ℝ => 1 / T') T := by
    simpa using continuousAt_inv₀ hT
  have hev : (fun T' => pressure α R T' ρ) =ᶠ[𝓝 T]
      fun T' => ρ ^ 2 * (deriv (fun r => recipForm α (1 / T') r) ρ * R * T') := by
    filter_upwards [hcont.eventually P.ev_tr] with T' hr
    exact pressure_of R hr.hasDerivAt
  have h1 := hasDerivAt_recip_comp hT P.h_tr
  have h := (((h1.mul_const R).mul (hasDerivAt_id T)).const_mul (ρ ^ 2))
  refine (h.congr_of_eventuallyEq hev).congr_deriv ?_
  rw [P.h_r.deriv]; simp only [id]; ring

theorem entropy_dT (R : ℝ) (hT : T ≠ 0) (P : Partials α T ρ) :
    HasDerivAt (fun T' => entropy α R T' ρ) (-(R * (1 / T) ^ 3 * P.ftt)) T := by
  have hcont : ContinuousAt (fun T' : ℝ => 1 / T') T := by
    simpa using continuousAt_inv₀ hT
  have hev : (fun T' => entropy α R T' ρ) =ᶠ[𝓝 T]
      fun T' => R * ((1 / T') * deriv (fun t => recipForm α t ρ) (1 / T')
        - recipForm α (1 / T') ρ) := by
    filter_upwards [hcont.eventually P.ev_t, isOpen_ne.mem_nhds hT] with T' hr hT'
    exact entropy_of R hT' hr.hasDerivAt
  have h1 := hasDerivAt_recip_comp hT P.h_tt
  have h2 := hasDerivAt_recip_comp hT P.h_t
  have h3 : HasDerivAt (fun T' : ℝ => 1 / T') (-(1 / T) ^ 2) T := by
    simpa using hasDerivAt_recip_comp hT (hasDerivAt_id (1 / T))
  have h := ((h3.mul h1).sub h2).const_mul R
  refine (h.congr_of_eventuallyEq hev).congr_deriv ?_
  rw [P.h_t.deriv]; ring

theorem entropy_drho (R : ℝ) (hT : T ≠ 0) (P : Partials α T ρ) :
    HasDerivAt (fun r => entropy α R T r) (R * ((1 / T) * P.ftr - P.fr)) ρ := by
  have hev : (fun r => entropy α R T r) =ᶠ[𝓝 ρ]
      fun r => R * ((1 / T) * deriv (fun t => recipForm α t r) (1 / T)
        - recipForm α (1 / T) r) := by
    filter_upwards [P.ev_rt] with r hr
    exact entropy_of R hT hr.hasDerivAt
  have h := ((P.h_rt.const_mul (1 / T)).sub P.h_r).const_mul R
  exact h.congr_of_eventuallyEq hev

theorem energy_dT (R : ℝ) (hT : T ≠ 0) (P : Partials α T ρ) :
    HasDerivAt (fun T' => energy α R T' ρ) (-(R * (1 / T) ^ 2 * P.ftt)) T := by
  have hcont : ContinuousAt (fun T' : ℝ => 1 / T') T := by
    simpa using continuousAt_inv₀ hT
  have hev : (fun T' => energy α R T' ρ) =ᶠ[𝓝 T]
      fun T' => R * deriv (fun t => recipForm α t ρ) (1 / T') := by
    filter_upwards [hcont.eventually P.ev_t, isOpen_ne.mem_nhds hT] with T' hr hT'
    exact energy_of R hT' hr.hasDerivAt
  have h := (hasDerivAt_recip_comp hT P.h_tt).const_mul R
  refine (h.congr_of_eventuallyEq hev).congr_deriv ?_
  ring

theorem energy_drho (R : ℝ) (hT : T ≠ 0) (P : Partials α T ρ) :
    HasDerivAt (fun r => energy α R T r) (R * P.ftr) ρ := by
  have hev : (fun r => energy α R T r) =ᶠ[𝓝 ρ]
      fun r => R * deriv (fun t => recipForm α t r) (1 / T) := by
    filter_upwards [P.ev_rt] with r hr
    exact energy_of R hT hr.hasDerivAt
  exact (P.h_rt.const_mul R).congr_of_eventuallyEq hev

theorem enthalpy_dT (R : ℝ) (hT : T ≠ 0) (P : Partials α T ρ) :
    HasDerivAt (fun T' => enthalpy α R T' ρ)
      (-(R * (1 / T) ^ 2 * P.ftt) +
        (ρ ^ 2 * (P.fr * R) + ρ ^ 2 * (-(1 / T) ^ 2 * P.ftr * R * T)) / ρ) T :=
  (energy_dT R hT P).add ((pressure_dT R hT P).div_const ρ)

theorem enthalpy_drho (R : ℝ) (hT : T ≠ 0) (hρ : ρ ≠ 0) (P : Partials α T ρ) :
    HasDerivAt (fun r => enthalpy α R T r)
      (R * P.ftr + P.fr * R * T + ρ * (P.frr * R * T)) ρ := by
  have h := (energy_drho R hT P).add ((pressure_drho R P).div (hasDerivAt_id ρ) hρ)
  refine h.congr_deriv ?_
  rw [pressure_of R P.h_r]
  simp only [id]
  field_simp
  ring

end
end Teqp.Lemmas

import Verif.Lemmas.Higher
import Verif.Lemmas.Thermo
import Verif.Props.Lambda
import Verif.Model.PureVLE
import Verif.Spec.PureVLE
import Mathlib.Analysis.SpecialFunctions.Log.Deriv

/-! # Pressure and chemical potential of a pure fluid in terms of the density derivatives -/

set_option autoImplicit false
open Filter Topology

namespace Teqp.PureVLE
open Teqp.Calc Teqp.Model Teqp.Spec Teqp.Lemmas

theorem Ar0 (α : ℝ → ℝ → ℝ) (j : ℕ) (T r : ℝ) : Agenxy α 0 j T r = r ^ j * drn α j T r := by
  rw [Teqp.Props.Agenxy_is_Lambda, drn_eq]
  simp [Lambda]

theorem Ar1 {α : ℝ → ℝ → ℝ} (j : ℕ) {T r d : ℝ} (hT : T ≠ 0) (h : HasDerivAt (fun T' => drn α j T' r) d T) :
    Agenxy α 1 j T r = -(T * r ^ j * d) := by
  rw [Teqp.Props.Agenxy_is_Lambda]
  unfold Lambda
  have e : (fun t => iteratedDeriv j (fun r => α (1 / t) r) r) = fun t => drn α j (1 / t) r := by
    funext t; rw [drn_eq]
  rw [e, iteratedDeriv_one]
  have h' : HasDerivAt (fun T' => drn α j T' r) d (1 / (1 / T)) := by simpa using h
  have := hasDerivAt_recip_comp (T := 1 / T) (by positivity) h'
  rw [this.deriv]
  field_simp

theorem pressure_eq (α : ℝ → ℝ → ℝ) (R T r : ℝ) : totalPressure α R T r = R * T * (r + r ^ 2 * drn α 1 T r) := by
  unfold totalPressure pressure helmholtz
  rw [drn_eq, iteratedDeriv_one, deriv_mul_const_field, deriv_mul_const_field]
  ring

theorem chemPot_eq {α : ℝ → ℝ → ℝ} {c : ℝ → ℝ} {R T r : ℝ} (hr : r ≠ 0) (h : DifferentiableAt ℝ (α T) r) :
    chemPot α c R T r = R * T * (Real.log r + 1 + c T + α T r + r * drn α 1 T r) := by
  unfold chemPot helmholtz totalAlpha
  have hd : HasDerivAt (α T) (drn α 1 T r) r := by
    rw [drn_eq, iteratedDeriv_one]; exact h.hasDerivAt
  have h1 := ((((Real.hasDerivAt_log hr).add_const (c T)).add hd).mul_const R).mul_const T
  have h2 := (hasDerivAt_id r).mul h1
  refine (h2.congr_deriv ?_).deriv
  simp only [id, Pi.add_apply]
  field_simp
  ring

/-- Derivatives in `r` of the successive density derivatives. -/
theorem hasDerivAt_drn {α : ℝ → ℝ → ℝ} {T r : ℝ} (j : ℕ) (h : DifferentiableAt ℝ (drn α j T) r) :
    HasDerivAt (drn α j T) (drn α (j + 1) T r) r := by
  rw [drn_succ]; exact h.hasDerivAt

theorem contDiff_drn_iso {α : ℝ → ℝ → ℝ} {T r : ℝ} {n j : ℕ} (h : ContDiffAt ℝ (n + j : ℕ) (α T) r) :
    ContDiffAt ℝ n (drn α j T) r := by
  have e : drn α j T = fun r' => drn (fun _ : ℝ => α T) j 0 r' := by funext r'; rw [drn_eq, drn_eq]
  have h1 : ContDiffAt ℝ (n + j : ℕ) (unc fun _ : ℝ => α T) ((0 : ℝ), r) :=
    ContDiffAt.comp (g := α T) ((0 : ℝ), r) h contDiffAt_snd
  have h2 := contDiffAt_drn h1
  rw [e]
  exact ContDiffAt.comp (g := unc (drn (fun _ : ℝ => α T) j)) r h2 (contDiffAt_const.prodMk contDiffAt_id)

theorem diff_drn_iso {α : ℝ → ℝ → ℝ} {T r : ℝ} {n j : ℕ} (h : ContDiffAt ℝ n (α T) r) (hj : j < n) :
    DifferentiableAt ℝ (drn α j T) r := by
  have h1 : ContDiffAt ℝ (1 + j : ℕ) (α T) r := h.of_le (by exact_mod_cast (by omega))
  exact (contDiff_drn_iso h1).differentiableAt (by norm_num)

theorem iso_of_joint {α : ℝ → ℝ → ℝ} {T r : ℝ} {n : ℕ} (h : ContDiffAt ℝ n (unc α) (T, r)) :
    ContDiffAt ℝ n (α T) r :=
  ContDiffAt.comp (g := unc α) r h (contDiffAt_const.prodMk contDiffAt_id)

theorem diff_drn {α : ℝ → ℝ → ℝ} {T r : ℝ} {n j : ℕ} (h : ContDiffAt ℝ n (unc α) (T, r)) (hj : j < n) :
    DifferentiableAt ℝ (unc (drn α j)) (T, r) := by
  have h1 : ContDiffAt ℝ (1 + j : ℕ) (unc α) (T, r) := h.of_le (by exact_mod_cast (by omega))
  exact (contDiffAt_drn h1).differentiableAt (by norm_num)

/-- The temperature derivative of the `j`-th density derivative. -/
noncomputable def dT (α : ℝ → ℝ → ℝ) (j : ℕ) (T r : ℝ) : ℝ := deriv (fun T' => drn α j T' r) T

theorem hasDerivAt_dT {α : ℝ → ℝ → ℝ} {T r : ℝ} {n j : ℕ} (h : ContDiffAt ℝ n (unc α) (T, r)) (hj : j < n) :
    HasDerivAt (fun T' => drn α j T' r) (dT α j T r) T :=
  (hasDerivAt_left (diff_drn h hj)).differentiableAt.hasDerivAt

theorem hasDerivAt_r {α : ℝ → ℝ → ℝ} {T r : ℝ} {n j : ℕ} (h : ContDiffAt ℝ n (α T) r) (hj : j < n) :
    HasDerivAt (drn α j T) (drn α (j + 1) T r) r :=
  hasDerivAt_drn j (diff_drn_iso h hj)

/-- The pressure slope in density. -/
theorem pressure_drho {α : ℝ → ℝ → ℝ} {R T r : ℝ} (h : ContDiffAt ℝ 2 (α T) r) :
    HasDerivAt (totalPressure α R T) (R * T * (1 + 2 * r * drn α 1 T r + r ^ 2 * drn α 2 T r)) r := by
  have e : totalPressure α R T = fun r => R * T * (r + r ^ 2 * drn α 1 T r) := by
    funext r'; exact pressure_eq α R T r'
  rw [e]
  have h1 : HasDerivAt (drn α 1 T) (drn α 2 T r) r := hasDerivAt_r (n := 2) h (by norm_num)
  have := ((hasDerivAt_id r).add ((hasDerivAt_pow 2 r).mul h1)).const_mul (R * T)
  refine this.congr_deriv ?_
  simp only [Nat.cast_ofNat, show (2 - 1 : ℕ) = 1 from rfl, pow_one]
  ring

theorem eventually_iso {α : ℝ → ℝ → ℝ} {T r : ℝ} {n : ℕ} (h : ContDiffAt ℝ n (α T) r) :
    ∀ᶠ r' in 𝓝 r, ContDiffAt ℝ n (α T) r' := h.eventually (by simp)

/-- The curvature of the pressure in density. -/
theorem pressure_drho2 {α : ℝ → ℝ → ℝ} {R T r : ℝ} (h : ContDiffAt ℝ 3 (α T) r) :
    HasDerivAt (deriv (totalPressure α R T))
      (R * T * (2 * drn α 1 T r + 4 * r * drn α 2 T r + r ^ 2 * drn α 3 T r)) r := by
  have e : deriv (totalPressure α R T) =ᶠ[𝓝 r]
      fun r => R * T * (1 + 2 * r * drn α 1 T r + r ^ 2 * drn α 2 T r) := by
    filter_upwards [eventually_iso (n := 3) h] with r' hr'
    exact (pressure_drho (hr'.of_le (by norm_num))).deriv
  have h1 : HasDerivAt (drn α 1 T) (drn α 2 T r) r := hasDerivAt_r (n := 3) h (by norm_num)
  have h2 : HasDerivAt (drn α 2 T) (drn α 3 T r) r := hasDerivAt_r (n := 3) h (by norm_num)
  have := (((((hasDerivAt_id r).const_mul 2).mul h1).const_add 1).add ((hasDerivAt_pow 2 r).mul h2)).const_mul (R * T)
  refine (this.congr_of_eventuallyEq e).congr_deriv ?_
  simp only [id, Nat.cast_ofNat, show (2 - 1 : ℕ) = 1 from rfl, pow_one]
  ring

/-- The third derivative of the pressure in density. -/
theorem pressure_drho3 {α : ℝ → ℝ → ℝ} {R T r : ℝ} (h : ContDiffAt ℝ 4 (α T) r) :
    HasDerivAt (deriv (deriv (totalPressure α R T)))
      (R * T * (6 * drn α 2 T r + 6 * r * drn α 3 T r + r ^ 2 * drn α 4 T r)) r := by
  have e : deriv (deriv (totalPressure α R T)) =ᶠ[𝓝 r]
      fun r => R * T * (2 * drn α 1 T r + 4 * r * drn α 2 T r + r ^ 2 * drn α 3 T r) := by
    filter_upwards [eventually_iso (n := 4) h] with r' hr'
    exact (pressure_drho2 (hr'.of_le (by norm_num))).deriv
  have h1 : HasDerivAt (drn α 1 T) (drn α 2 T r) r := hasDerivAt_r (n := 4) h (by norm_num)
  have h2 : HasDerivAt (drn α 2 T) (drn α 3 T r) r := hasDerivAt_r (n := 4) h (by norm_num)
  have h3 : HasDerivAt (drn α 3 T) (drn α 4 T r) r := hasDerivAt_r (n := 4) h (by norm_num)
  have := (((h1.const_mul 2).add (((hasDerivAt_id r).const_mul 4).mul h2)).add
    ((hasDerivAt_pow 2 r).mul h3)).const_mul (R * T)
  refine (this.congr_of_eventuallyEq e).congr_deriv ?_
  simp only [id, Nat.cast_ofNat, show (2 - 1 : ℕ) = 1 from rfl, pow_one]
  ring

/-- The temperature derivative of the pressure. -/
theorem pressure_dT {α : ℝ → ℝ → ℝ} {R T r : ℝ} (h : ContDiffAt ℝ 2 (unc α) (T, r)) :
    HasDerivAt (fun T' => totalPressure α R T' r) (R * (r + r ^ 2 * drn α 1 T r) + R * T * (r ^ 2 * dT α 1 T r)) T := by
  have e : (fun T' => totalPressure α R T' r) = fun T' => R * T' * (r + r ^ 2 * drn α 1 T' r) := by
    funext T'; exact pressure_eq α R T' r
  rw [e]
  have h1 : HasDerivAt (fun T' => drn α 1 T' r) (dT α 1 T r) T := hasDerivAt_dT (n := 2) h (by norm_num)
  have := ((hasDerivAt_id T).const_mul R).mul ((h1.const_mul (r ^ 2)).const_add r)
  refine this.congr_deriv ?_
  simp only [id]; ring

/-! ## Temperature derivatives of the pressure slopes -/

theorem eventually_left {α : ℝ → ℝ → ℝ} {T r : ℝ} {n : ℕ} (h : ContDiffAt ℝ n (unc α) (T, r)) :
    ∀ᶠ T' in 𝓝 T, ContDiffAt ℝ n (unc α) (T', r) :=
  (hasDerivAt_pair_left T r).continuousAt.eventually (h.eventually (by simp))

theorem pressure_drho_dT {α : ℝ → ℝ → ℝ} {R T r : ℝ} (h : ContDiffAt ℝ 3 (unc α) (T, r)) :
    HasDerivAt (fun T' => deriv (totalPressure α R T') r)
      (R * (1 + 2 * r * drn α 1 T r + r ^ 2 * drn α 2 T r) + R * T * (2 * r * dT α 1 T r + r ^ 2 * dT α 2 T r)) T := by
  have e : (fun T' => deriv (totalPressure α R T') r) =ᶠ[𝓝 T]
      fun T' => R * T' * (1 + 2 * r * drn α 1 T' r + r ^ 2 * drn α 2 T' r) := by
    filter_upwards [eventually_left (n := 3) h] with T' h'
    exact (pressure_drho ((iso_of_joint (n := 3) h').of_le (by norm_num))).deriv
  have h1 : HasDerivAt (fun T' => drn α 1 T' r) (dT α 1 T r) T := hasDerivAt_dT (n := 3) h (by norm_num)
  have h2 : HasDerivAt (fun T' => drn α 2 T' r) (dT α 2 T r) T := hasDerivAt_dT (n := 3) h (by norm_num)
  have := ((hasDerivAt_id T).const_mul R).mul (((h1.const_mul (2 * r)).const_add 1).add (h2.const_mul (r ^ 2)))
  refine (this.congr_of_eventuallyEq e).congr_deriv ?_
  simp only [id, Pi.add_apply]; ring

theorem pressure_drho2_dT {α : ℝ → ℝ → ℝ} {R T r : ℝ} (h : ContDiffAt ℝ 4 (unc α) (T, r)) :
    HasDerivAt (fun T' => deriv (deriv (totalPressure α R T')) r)
      (R * (2 * drn α 1 T r + 4 * r * drn α 2 T r + r ^ 2 * drn α 3 T r)
        + R * T * (2 * dT α 1 T r + 4 * r * dT α 2 T r + r ^ 2 * dT α 3 T r)) T := by
  have e : (fun T' => deriv (deriv (totalPressure α R T')) r) =ᶠ[𝓝 T]
      fun T' => R * T' * (2 * drn α 1 T' r + 4 * r * drn α 2 T' r + r ^ 2 * drn α 3 T' r) := by
    filter_upwards [eventually_left (n := 4) h] with T' h'
    exact (pressure_drho2 ((iso_of_joint (n := 4) h').of_le (by norm_num))).deriv
  have h1 : HasDerivAt (fun T' => drn α 1 T' r) (dT α 1 T r) T := hasDerivAt_dT (n := 4) h (by norm_num)
  have h2 : HasDerivAt (fun T' => drn α 2 T' r) (dT α 2 T r) T := hasDerivAt_dT (n := 4) h (by norm_num)
  have h3 : HasDerivAt (fun T' => drn α 3 T' r) (dT α 3 T r) T := hasDerivAt_dT (n := 4) h (by norm_num)
  have := ((hasDerivAt_id T).const_mul R).mul (((h1.const_mul 2).add (h2.const_mul (4 * r))).add (h3.const_mul (r ^ 2)))
  refine (this.congr_of_eventuallyEq e).congr_deriv ?_
  simp only [id, Pi.add_apply]; ring

/-! ## The residual of the saturation solver -/

theorem phase_eq {α : ℝ → ℝ → ℝ} {R T r : ℝ} (hR : R ≠ 0) :
    vlePhase α R T r = ((r + r ^ 2 * drn α 1 T r, 1 + 2 * (r * drn α 1 T r) + r ^ 2 * drn α 2 T r),
      (r * drn α 1 T r + α T r + Real.log r,
        (2 * (r * drn α 1 T r) + r ^ 2 * drn α 2 T r) / r + 1 / r)) := by
  have h0 : drn α 0 T r = α T r := rfl
  simp only [vlePhase, Ar0, div_self hR, h0, pow_zero, pow_one, one_mul]
  refine Prod.ext (Prod.ext ?_ rfl) rfl
  simp only
  ring

theorem phase_p {α : ℝ → ℝ → ℝ} {R T r : ℝ} (hR : R ≠ 0) :
    R * T * (vlePhase α R T r).1.1 = totalPressure α R T r := by
  rw [phase_eq hR, pressure_eq]

theorem phase_mu {α : ℝ → ℝ → ℝ} {c : ℝ → ℝ} {R T r : ℝ} (hR : R ≠ 0) (hr : r ≠ 0) (h : DifferentiableAt ℝ (α T) r) :
    R * T * ((vlePhase α R T r).2.1 + (1 + c T)) = chemPot α c R T r := by
  rw [phase_eq hR, chemPot_eq hr h]
  simp only
  ring

theorem phase_dp {α : ℝ → ℝ → ℝ} {R T r : ℝ} (hR : R ≠ 0) (h : ContDiffAt ℝ 2 (α T) r) :
    HasDerivAt (fun r => (vlePhase α R T r).1.1) (vlePhase α R T r).1.2 r := by
  simp only [phase_eq hR]
  have h1 : HasDerivAt (drn α 1 T) (drn α 2 T r) r := hasDerivAt_r (n := 2) h (by norm_num)
  refine ((hasDerivAt_id r).add ((hasDerivAt_pow 2 r).mul h1)).congr_deriv ?_
  simp only [Nat.cast_ofNat, show (2 - 1 : ℕ) = 1 from rfl, pow_one]
  ring

theorem phase_dmu {α : ℝ → ℝ → ℝ} {R T r : ℝ} (hR : R ≠ 0) (hr : r ≠ 0) (h : ContDiffAt ℝ 2 (α T) r) :
    HasDerivAt (fun r => (vlePhase α R T r).2.1) (vlePhase α R T r).2.2 r := by
  simp only [phase_eq hR]
  have h0 : HasDerivAt (α T) (drn α 1 T r) r := hasDerivAt_r (n := 2) (j := 0) h (by norm_num)
  have h1 : HasDerivAt (drn α 1 T) (drn α 2 T r) r := hasDerivAt_r (n := 2) h (by norm_num)
  refine ((((hasDerivAt_id r).mul h1).add h0).add (Real.hasDerivAt_log hr)).congr_deriv ?_
  simp only [id]
  field_simp
  ring

/-! ## Derivatives along a curve -/

theorem chemPot_dT {α : ℝ → ℝ → ℝ} {c : ℝ → ℝ} {c' R T r : ℝ} (hr : r ≠ 0) (h : ContDiffAt ℝ 2 (unc α) (T, r))
    (hc : HasDerivAt c c' T) :
    HasDerivAt (fun T' => chemPot α c R T' r)
      (R * (Real.log r + 1 + c T + α T r + r * drn α 1 T r) + R * T * (c' + dT α 0 T r + r * dT α 1 T r)) T := by
  have e : (fun T' => chemPot α c R T' r) =ᶠ[𝓝 T]
      fun T' => R * T' * (Real.log r + 1 + c T' + α T' r + r * drn α 1 T' r) := by
    filter_upwards [eventually_left (n := 2) h] with T' h'
    exact chemPot_eq hr ((iso_of_joint (n := 2) h').differentiableAt (by norm_num))
  have h0 : HasDerivAt (fun T' => α T' r) (dT α 0 T r) T := hasDerivAt_dT (n := 2) (j := 0) h (by norm_num)
  have h1 : HasDerivAt (fun T' => drn α 1 T' r) (dT α 1 T r) T := hasDerivAt_dT (n := 2) h (by norm_num)
  have := ((hasDerivAt_id T).const_mul R).mul (((hc.const_add (Real.log r + 1)).add h0).add (h1.const_mul r))
  refine (this.congr_of_eventuallyEq e).congr_deriv ?_
  simp only [id, Pi.add_apply]; ring

/-- The total entropy. -/
theorem entropy_eq {α : ℝ → ℝ → ℝ} {c : ℝ → ℝ} {c' R T r : ℝ} (h : ContDiffAt ℝ 2 (unc α) (T, r)) (hc : HasDerivAt c c' T) :
    entropy (totalAlpha α c) R T r = -(R * (Real.log r + c T + α T r) + R * T * (c' + dT α 0 T r)) := by
  unfold entropy helmholtz totalAlpha
  have h0 : HasDerivAt (fun T' => α T' r) (dT α 0 T r) T := hasDerivAt_dT (n := 2) (j := 0) h (by norm_num)
  have hd : HasDerivAt (fun T' => (Real.log r + c T' + α T' r) * R * T')
      (R * (Real.log r + c T + α T r) + R * T * (c' + dT α 0 T r)) T := by
    refine ((((hc.const_add (Real.log r)).add h0).mul_const R).mul (hasDerivAt_id T)).congr_deriv ?_
    simp only [id, Pi.add_apply]; ring
  rw [hd.deriv]

theorem curve_p {α : ℝ → ℝ → ℝ} {R T g' : ℝ} {γ : ℝ → ℝ} (h : ContDiffAt ℝ 2 (unc α) (T, γ T)) (hγ : HasDerivAt γ g' T) :
    HasDerivAt (fun T' => totalPressure α R T' (γ T'))
      (R * (γ T + γ T ^ 2 * drn α 1 T (γ T))
        + R * T * (g' + 2 * γ T * g' * drn α 1 T (γ T) + γ T ^ 2 * (dT α 1 T (γ T) + drn α 2 T (γ T) * g'))) T := by
  have e : (fun T' => totalPressure α R T' (γ T')) = fun T' => R * T' * (γ T' + γ T' ^ 2 * drn α 1 T' (γ T')) := by
    funext T'; exact pressure_eq α R T' (γ T')
  rw [e]
  have h1 := hasDerivAt_curve (diff_drn (n := 2) (j := 1) h (by norm_num)) hγ
  have := ((hasDerivAt_id T).const_mul R).mul (hγ.add ((hγ.pow 2).mul h1))
  refine this.congr_deriv ?_
  have e2 : deriv (drn α 1 T) (γ T) = drn α 2 T (γ T) := by rw [drn_succ α 1]; rfl
  simp only [id, Pi.add_apply, Pi.mul_apply, Pi.pow_apply, Nat.cast_ofNat, show (2 - 1 : ℕ) = 1 from rfl, pow_one, e2]
  rw [dT]; ring

/-- Gibbs–Duhem along a curve: `ρ dμ/dT = dp/dT - ρ s`. -/
theorem curve_mu {α : ℝ → ℝ → ℝ} {c : ℝ → ℝ} {c' R T g' p' : ℝ} {γ : ℝ → ℝ} (h : ContDiffAt ℝ 2 (unc α) (T, γ T))
    (hr : γ T ≠ 0) (hγ : HasDerivAt γ g' T) (hc : HasDerivAt c c' T)
    (hp : HasDerivAt (fun T' => totalPressure α R T' (γ T')) p' T) :
    HasDerivAt (fun T' => chemPot α c R T' (γ T')) (p' / γ T - entropy (totalAlpha α c) R T (γ T)) T := by
  have hcont : ContinuousAt (fun T' => ((T', γ T') : ℝ × ℝ)) T := continuousAt_id.prodMk hγ.continuousAt
  have e : (fun T' => chemPot α c R T' (γ T')) =ᶠ[𝓝 T]
      fun T' => R * T' * (Real.log (γ T') + 1 + c T' + α T' (γ T') + γ T' * drn α 1 T' (γ T')) := by
    filter_upwards [hcont.eventually (h.eventually (by simp)), hγ.continuousAt.eventually (isOpen_ne.mem_nhds hr)]
      with T' h' hr'
    exact chemPot_eq hr' ((iso_of_joint (n := 2) h').differentiableAt (by norm_num))
  have h0 := hasDerivAt_curve (diff_drn (n := 2) (j := 0) h (by norm_num)) hγ
  have h1 := hasDerivAt_curve (diff_drn (n := 2) (j := 1) h (by norm_num)) hγ
  have hl := hγ.log hr
  have := ((hasDerivAt_id T).const_mul R).mul ((((hl.add_const 1).add hc).add h0).add (hγ.mul h1))
  refine (this.congr_of_eventuallyEq e).congr_deriv ?_
  have e1 : deriv (drn α 0 T) (γ T) = drn α 1 T (γ T) := by rw [drn_succ α 0]; rfl
  have e2 : deriv (drn α 1 T) (γ T) = drn α 2 T (γ T) := by rw [drn_succ α 1]; rfl
  have hp' := hp.unique (curve_p h hγ)
  rw [hp', entropy_eq h hc]
  have e0 : drn α 0 T (γ T) = α T (γ T) := rfl
  simp only [id, Pi.add_apply, Pi.mul_apply, e1, e2, e0]
  rw [show deriv (fun t => drn α 0 t (γ T)) T = dT α 0 T (γ T) from rfl,
    show deriv (fun t => drn α 1 t (γ T)) T = dT α 1 T (γ T) from rfl]
  field_simp
  ring

end Teqp.PureVLE

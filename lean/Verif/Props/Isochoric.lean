import Verif.Lemmas.Isochoric
import Verif.Spec.Virial

/-! # C07-C10: consistency of the isochoric quantities -/

set_option autoImplicit false
set_option linter.unusedSectionVars false

open Filter Topology

namespace Teqp.Props
open Teqp.Calc Teqp.Model Teqp.Spec Teqp.Lemmas

section
variable {ι : Type} [Fintype ι] [DecidableEq ι] {m : EOS ι} {T : ℝ} {ρ : ι → ℝ}

/-! ## C07 -/

/-- C07. Euler relation for the residual part. -/
theorem pr_euler (h : SmoothAt m T ρ) :
    pr m T ρ = -Psir m T ρ + ∑ i, ρ i * gradPsir m T ρ i := by
  rw [euler h]; ring

/-- C07. Euler relation for the total pressure, with the chemical potentials returned by the API and
the Helmholtz energy density they belong to. -/
theorem ptot_euler (h : SmoothAt m T ρ) :
    ptot m T ρ = -(Psir m T ρ + m.R (molefrac ρ) * T * ∑ i, ρ i * Real.log (ρ i)) +
      ∑ i, ρ i * chempotVLE m T ρ i := by
  have e : ∑ i, ρ i * chempotVLE m T ρ i = ∑ i, ρ i * gradPsir m T ρ i +
      (m.R (molefrac ρ) * T * rhotot ρ + m.R (molefrac ρ) * T * ∑ i, ρ i * Real.log (ρ i)) := by
    unfold rhotot
    rw [Finset.mul_sum, Finset.mul_sum, ← Finset.sum_add_distrib, ← Finset.sum_add_distrib]
    refine Finset.sum_congr rfl fun i _ => ?_
    unfold chempotVLE
    simp only [div_one]; ring
  rw [e, euler h]
  unfold ptot; ring

/-- C07. The residual pressure is `ρ² ∂a^r/∂ρ` at constant temperature and composition. -/
theorem pr_is_pressure (m : EOS ι) (T : ℝ) (ρ : ι → ℝ) (h : SmoothAt m T ρ) :
    pr m T ρ = pressure (fun T' r => m.alphar T' r (molefrac ρ)) (m.R (molefrac ρ)) T (rhotot ρ) := by
  unfold pressure helmholtz pr
  have := ((hasDerivAt_alphar_rho h).mul_const (m.R (molefrac ρ))).mul_const T
  rw [this.deriv]; ring

/-- C07. The residual pressure is `-∂A^r/∂V` of the total Helmholtz energy `A^r = V Ψ^r(T, n/V)` at
constant temperature and amounts. -/
theorem pr_is_minus_dAdV (h : SmoothAt m T ρ) (V : ℝ) (hV : V ≠ 0) :
    HasDerivAt (fun V' => V' * Psir m T (fun i => V * ρ i / V')) (-pr m T ρ) V := by
  have hone : (fun i => V * ρ i / V) = ρ := by
    funext i; field_simp
  have hγ : HasDerivAt (fun V' : ℝ => fun i => V * ρ i / V') (fun i => -(ρ i / V)) V := by
    rw [hasDerivAt_pi]; intro i
    have := (hasDerivAt_inv hV).const_mul (V * ρ i)
    refine this.congr_deriv ?_
    field_simp
  have h1 := hasDerivAt_line (differentiableAt_Psir h) hγ hone
  have h2 := (hasDerivAt_id V).mul h1
  refine h2.congr_deriv ?_
  rw [pr_euler h]
  simp only [id, hone, Finset.mul_sum]
  have : ∑ i, V * (-(ρ i / V) * partialD (Psir m T) i ρ) = -∑ i, ρ i * gradPsir m T ρ i := by
    rw [← Finset.sum_neg_distrib]
    refine Finset.sum_congr rfl fun i _ => ?_
    unfold gradPsir; field_simp
  rw [this]; ring

/-- C07. The gradient of `Ψ^r` is the derivative of `A^r = V Ψ^r(T, n/V)` in the amount `n_i`. -/
theorem gradPsir_is_dAdn (h : SmoothAt m T ρ) (V : ℝ) (hV : V ≠ 0) (i : ι) :
    HasDerivAt (fun ni => V * Psir m T (fun k => Function.update (fun k => V * ρ k) i ni k / V))
      (gradPsir m T ρ i) (V * ρ i) := by
  have hone : (fun k => Function.update (fun k => V * ρ k) i (V * ρ i) k / V) = ρ := by
    funext k
    have : Function.update (fun k => V * ρ k) i (V * ρ i) k = V * ρ k := by
      by_cases hk : k = i
      · subst hk; simp
      · simp [hk]
    rw [this]; field_simp
  have hγ : HasDerivAt (fun ni : ℝ => fun k => Function.update (fun k => V * ρ k) i ni k / V)
      (fun k => (Pi.single i (1 : ℝ) : ι → ℝ) k / V) (V * ρ i) := by
    have := hasDerivAt_pi.1 (hasDerivAt_update (fun k => V * ρ k) i (V * ρ i))
    rw [hasDerivAt_pi]; intro k
    exact (this k).div_const V
  have h1 := (hasDerivAt_line (differentiableAt_Psir h) hγ hone).const_mul V
  refine h1.congr_deriv ?_
  rw [Finset.sum_eq_single i]
  · simp only [Pi.single_eq_same, gradPsir]; field_simp
  · intro k _ hk; simp [Pi.single_eq_of_ne hk]
  · simp

/-- C07. `get_Ar01` of the isochoric class (sum over concentrations) equals the density derivative
`Λ_01` at fixed composition. -/
theorem isoAr01_eq (h : SmoothAt m T ρ) :
    isoAr01 m T ρ = Lambda (fun T' r => m.alphar T' r (molefrac ρ)) 0 1 T (rhotot ρ) := by
  have hd : DifferentiableAt ℝ (fun r : ι → ℝ => m.alphar T (rhotot r) (molefrac r)) ρ := by
    have hr : DifferentiableAt ℝ (rhotot : (ι → ℝ) → ℝ) ρ :=
      (contDiff_rhotot (n := 1)).contDiffAt.differentiableAt (by norm_num)
    have hx : DifferentiableAt ℝ (molefrac : (ι → ℝ) → ι → ℝ) ρ :=
      (contDiffAt_molefrac (n := 1) h.tot).differentiableAt (by norm_num)
    exact DifferentiableAt.comp (g := fun p : ℝ × ℝ × (ι → ℝ) => m.alphar p.1 p.2.1 p.2.2)
      (f := fun r : ι → ℝ => (T, rhotot r, molefrac r)) ρ (h.hα.differentiableAt (by norm_num))
      ((differentiableAt_const T).prodMk (hr.prodMk hx))
  have h1 := hasDerivAt_line hd (hasDerivAt_scale ρ 1) (by simp)
  have hev : (fun s : ℝ => m.alphar T (rhotot fun i => s * ρ i) (molefrac fun i => s * ρ i)) =ᶠ[𝓝 1]
      fun s => m.alphar T (s * rhotot ρ) (molefrac ρ) := by
    filter_upwards [isOpen_ne.mem_nhds (one_ne_zero : (1 : ℝ) ≠ 0)] with s hs
    rw [rhotot_smul, molefrac_smul hs]
  have hin : HasDerivAt (fun s : ℝ => s * rhotot ρ) (rhotot ρ) 1 := by
    simpa using (hasDerivAt_id (1 : ℝ)).mul_const (rhotot ρ)
  have ha : HasDerivAt (fun s : ℝ => m.alphar T (s * rhotot ρ) (molefrac ρ))
      (deriv (fun r => m.alphar T r (molefrac ρ)) (rhotot ρ) * rhotot ρ) 1 :=
    HasDerivAt.comp (h₂ := fun r => m.alphar T r (molefrac ρ)) 1
      (by rw [one_mul]; exact hasDerivAt_alphar_rho h) hin
  have := h1.unique (ha.congr_of_eventuallyEq hev)
  unfold isoAr01
  rw [this]
  simp [Lambda, iteratedDeriv_one]; ring

/-- C07. `get_Ar10` of the isochoric class equals `Λ_10`. -/
theorem isoAr10_eq (h : SmoothAt m T ρ) (hT : T ≠ 0) :
    isoAr10 m T ρ = Lambda (fun T' r => m.alphar T' r (molefrac ρ)) 1 0 T (rhotot ρ) := by
  have P := partials hT (contDiffAt_fixed h)
  have h1 := hasDerivAt_recip_comp hT P.h_t
  simp only [recipForm_recip] at h1
  unfold isoAr10
  rw [h1.deriv, Lambda10 P]
  field_simp

/-- C07. `s⁺ = -s^r/R`, with `s^r = -∂(α^r R T)/∂T`. -/
theorem splus_eq (h : SmoothAt m T ρ) (hT : T ≠ 0) (hR : m.R (molefrac ρ) ≠ 0) :
    splus m T ρ = -entropy (fun T' r => m.alphar T' r (molefrac ρ)) (m.R (molefrac ρ)) T (rhotot ρ)
      / m.R (molefrac ρ) := by
  have P := partials hT (contDiffAt_fixed h)
  unfold splus
  rw [isoAr10_eq h hT, entropy_of _ hT P.h_t, Lambda10 P, recipForm_recip]
  field_simp
  ring

/-! ## C08 -/

/-- C08. `Σ x_i ln φ_i = α^r + (Z-1) - ln Z`. -/
theorem sum_x_lnphi (h : SmoothAt m T ρ) (hRT : m.R (molefrac ρ) * T ≠ 0) :
    let Z := compressibility (fun r => m.alphar T r (molefrac ρ)) (rhotot ρ)
    ∑ i, molefrac ρ i * lnphi m T ρ i =
      m.alphar T (rhotot ρ) (molefrac ρ) + (Z - 1) - Real.log Z := by
  intro Z
  have ht := h.tot
  have e : ∑ i, molefrac ρ i * lnphi m T ρ i =
      (∑ i, ρ i * gradPsir m T ρ i) / (rhotot ρ * (m.R (molefrac ρ) * T)) -
        (∑ i, molefrac ρ i) * Real.log (1 + tdxAr m 0 1 T (rhotot ρ) (molefrac ρ)) := by
    rw [Finset.sum_div, Finset.sum_mul, ← Finset.sum_sub_distrib]
    refine Finset.sum_congr rfl fun i _ => ?_
    unfold lnphi
    simp only []
    rw [mul_sub]
    congr 1
    unfold molefrac
    rw [div_mul_div_comm]
  have hZ : 1 + tdxAr m 0 1 T (rhotot ρ) (molefrac ρ) = Z := by
    rw [tdxAr_01']; rfl
  rw [e, sum_molefrac ht, euler h, hZ, one_mul]
  congr 1
  unfold pr Psir
  have hZ' : Z - 1 = rhotot ρ * deriv (fun r => m.alphar T r (molefrac ρ)) (rhotot ρ) := by
    simp only [Z, compressibility]; ring
  rw [hZ']
  have h1 : m.R (molefrac ρ) ≠ 0 := left_ne_zero_of_mul hRT
  have h2 : T ≠ 0 := right_ne_zero_of_mul hRT
  field_simp
  ring

/-- C08. `R T ln(x_i φ_i p)` differs from the chemical potential of the API only by a function of
`R T`. -/
theorem fugacity_chempot (_h : SmoothAt m T ρ) (hRT : 0 < m.R (molefrac ρ) * T) (hρ : ∀ i, 0 < ρ i)
    (hZ : 0 < 1 + tdxAr m 0 1 T (rhotot ρ) (molefrac ρ)) (i : ι) :
    m.R (molefrac ρ) * T * Real.log (molefrac ρ i * fugacityCoefficient m T ρ i * ptot m T ρ) =
      chempotVLE m T ρ i + m.R (molefrac ρ) * T * (Real.log (m.R (molefrac ρ) * T) - 1) := by
  have htot : 0 < rhotot ρ := by
    unfold rhotot
    exact Finset.sum_pos (fun k _ => hρ k) ⟨i, Finset.mem_univ i⟩
  have hp : ptot m T ρ = rhotot ρ * (m.R (molefrac ρ) * T) *
      (1 + tdxAr m 0 1 T (rhotot ρ) (molefrac ρ)) := by
    unfold ptot pr
    rw [tdxAr_01']; ring
  have e : molefrac ρ i * fugacityCoefficient m T ρ i * ptot m T ρ =
      ρ i * (m.R (molefrac ρ) * T) * (1 + tdxAr m 0 1 T (rhotot ρ) (molefrac ρ)) *
        Real.exp (lnphi m T ρ i) := by
    rw [hp]; unfold fugacityCoefficient molefrac; field_simp
  have hρi := hρ i
  rw [e, Real.log_mul (by positivity) (Real.exp_ne_zero _), Real.log_exp,
    Real.log_mul (by positivity) hZ.ne', Real.log_mul hρi.ne' hRT.ne']
  unfold lnphi chempotVLE
  simp only [div_one]
  have h1 : m.R (molefrac ρ) ≠ 0 := left_ne_zero_of_mul hRT.ne'
  have h2 : T ≠ 0 := right_ne_zero_of_mul hRT.ne'
  field_simp
  ring

/-- C08. At one temperature (and one gas constant) two states have the same fugacity of component `i`
exactly when the API returns the same chemical potential. -/
theorem equal_fugacity_iff_equal_chempot {ρ' : ι → ℝ} (h : SmoothAt m T ρ) (h' : SmoothAt m T ρ')
    (hR : m.R (molefrac ρ) = m.R (molefrac ρ')) (hRT : 0 < m.R (molefrac ρ) * T)
    (hρ : ∀ i, 0 < ρ i) (hρ' : ∀ i, 0 < ρ' i)
    (hZ : 0 < 1 + tdxAr m 0 1 T (rhotot ρ) (molefrac ρ))
    (hZ' : 0 < 1 + tdxAr m 0 1 T (rhotot ρ') (molefrac ρ')) (i : ι) :
    Real.log (molefrac ρ i * fugacityCoefficient m T ρ i * ptot m T ρ) =
      Real.log (molefrac ρ' i * fugacityCoefficient m T ρ' i * ptot m T ρ') ↔
    chempotVLE m T ρ i = chempotVLE m T ρ' i := by
  have a := fugacity_chempot h hRT hρ hZ i
  have b := fugacity_chempot h' (by rw [← hR]; exact hRT) hρ' hZ' i
  rw [← hR] at b
  constructor
  · intro he
    rw [he, b] at a
    linarith
  · intro he
    have : m.R (molefrac ρ) * T *
        Real.log (molefrac ρ i * fugacityCoefficient m T ρ i * ptot m T ρ) =
        m.R (molefrac ρ) * T *
        Real.log (molefrac ρ' i * fugacityCoefficient m T ρ' i * ptot m T ρ') := by
      rw [a, b, he]
    exact mul_left_cancel₀ hRT.ne' this

/-! ## C09 -/

theorem partialMolarVolume_eq (i : ι) :
    partialMolarVolume m T ρ i = -rhotot ρ * dpdrhovec m T ρ i /
      (-(rhotot ρ ^ 2) * (m.R (molefrac ρ) * T) *
        (1 + 2 * tdxAr m 0 1 T (rhotot ρ) (molefrac ρ) + tdxAr m 0 2 T (rhotot ρ) (molefrac ρ))) := by
  unfold partialMolarVolume tdxAr
  simp only [((Agen0n_is_Lambda _ 2 T (rhotot ρ)).2 1 (by omega)).1,
    ((Agen0n_is_Lambda _ 2 T (rhotot ρ)).2 2 (by omega)).1, Option.getD_some]

theorem sum_rho_dpdrho (h : SmoothAt m T ρ) :
    ∑ i, ρ i * dpdrhovec m T ρ i = rhotot ρ * (m.R (molefrac ρ) * T) *
        (1 + 2 * tdxAr m 0 1 T (rhotot ρ) (molefrac ρ) + tdxAr m 0 2 T (rhotot ρ) (molefrac ρ)) := by
  have hq := hess_quadratic h
  unfold dpdrhovec
  simp only [mul_add, Finset.sum_add_distrib]
  rw [hq, ← Finset.sum_mul]
  unfold rhotot
  ring

/-- C09. Partial molar volumes add up to the molar volume at every state where `∂p/∂ρ ≠ 0`. -/
theorem sum_x_partialMolarVolume (h : SmoothAt m T ρ) (hRT : m.R (molefrac ρ) * T ≠ 0)
    (hs : 1 + 2 * tdxAr m 0 1 T (rhotot ρ) (molefrac ρ) + tdxAr m 0 2 T (rhotot ρ) (molefrac ρ) ≠ 0) :
    ∑ i, molefrac ρ i * partialMolarVolume m T ρ i = 1 / rhotot ρ := by
  have ht := h.tot
  have e : ∑ i, molefrac ρ i * partialMolarVolume m T ρ i =
      (∑ i, ρ i * dpdrhovec m T ρ i) / (rhotot ρ ^ 2 * (m.R (molefrac ρ) * T) *
        (1 + 2 * tdxAr m 0 1 T (rhotot ρ) (molefrac ρ) +
          tdxAr m 0 2 T (rhotot ρ) (molefrac ρ))) := by
    rw [Finset.sum_div]
    refine Finset.sum_congr rfl fun i _ => ?_
    rw [partialMolarVolume_eq]
    unfold molefrac
    have h1 : m.R (fun i => ρ i / rhotot ρ) * T ≠ 0 := hRT
    field_simp
  rw [e, sum_rho_dpdrho h]
  have h1 : m.R (molefrac ρ) ≠ 0 := left_ne_zero_of_mul hRT
  have h2 : T ≠ 0 := right_ne_zero_of_mul hRT
  field_simp

/-! ## C10 -/

/-- C10. `get_dpdT_constrhovec` is the temperature derivative of the pressure. -/
theorem dpdT_true (h : SmoothAt m T ρ) :
    HasDerivAt (fun T' => ptot m T' ρ) (dpdT m T ρ) T := by
  have hev : (fun T' => ptot m T' ρ) =ᶠ[𝓝 T] fun T' =>
      rhotot ρ * m.R (molefrac ρ) * T' - Psir m T' ρ + ∑ i, ρ i * gradPsir m T' ρ i := by
    filter_upwards [h.eventually_T] with T' hT'
    unfold ptot; rw [pr_euler hT']; ring
  have h1 : HasDerivAt (fun T' => ∑ i, ρ i * gradPsir m T' ρ i)
      (∑ i, ρ i * d2PsirdTdrhoi m T ρ i) T :=
    HasDerivAt.fun_sum fun i _ => (hasDerivAt_gradPsir_T h i).const_mul (ρ i)
  have h2 : HasDerivAt (fun T' => rhotot ρ * m.R (molefrac ρ) * T')
      (rhotot ρ * m.R (molefrac ρ)) T := by
    simpa using (hasDerivAt_id T).const_mul (rhotot ρ * m.R (molefrac ρ))
  exact ((h2.sub (hasDerivAt_Psir_T h)).add h1).congr_of_eventuallyEq hev

/-- C10. `get_dPsirdT_constrhovec` is the temperature derivative of `Ψ^r`. -/
theorem dPsirdT_true (h : SmoothAt m T ρ) :
    HasDerivAt (fun T' => Psir m T' ρ) (dPsirdT m T ρ) T := hasDerivAt_Psir_T h

/-- C10. `get_dchempotdT` is the temperature derivative of the chemical potential. -/
theorem dchempotdT_true (h : SmoothAt m T ρ) (i : ι) :
    HasDerivAt (fun T' => chempotVLE m T' ρ i) (dchempotdT m T ρ i) T := by
  unfold chempotVLE dchempotdT
  have h2 : HasDerivAt (fun T' => m.R (molefrac ρ) * T' * (1 + Real.log (ρ i / 1)))
      (m.R (molefrac ρ) * (1 + Real.log (ρ i / 1))) T := by
    simpa using ((hasDerivAt_id T).const_mul (m.R (molefrac ρ))).mul_const (1 + Real.log (ρ i / 1))
  exact (hasDerivAt_gradPsir_T h i).add h2

/-- C10. `d ln φ_i/dT` at constant concentrations. -/
theorem dlnphidT_true (h : SmoothAt m T ρ) (hT : T ≠ 0) (hR : m.R (molefrac ρ) ≠ 0)
    (hZ : 0 < 1 + tdxAr m 0 1 T (rhotot ρ) (molefrac ρ)) (i : ι) :
    HasDerivAt (fun T' => lnphi m T' ρ i) (dlnphidT m T ρ i) T := by
  unfold lnphi dlnphidT
  have h1 : HasDerivAt (fun T' => m.R (molefrac ρ) * T') (m.R (molefrac ρ)) T := by
    simpa using (hasDerivAt_id T).const_mul (m.R (molefrac ρ))
  have h2 := (hasDerivAt_gradPsir_T h i).div h1 (mul_ne_zero hR hT)
  have h3 := (hasDerivAt_Z_T h hT).log hZ.ne'
  refine (h2.sub h3).congr_deriv ?_
  field_simp

/-- C10. `d ln φ_i/dρ` at constant temperature and mole fractions. -/
theorem dlnphidrho_true (h : SmoothAt m T ρ)
    (hZ : 0 < 1 + tdxAr m 0 1 T (rhotot ρ) (molefrac ρ)) (i : ι) :
    HasDerivAt (fun r => lnphi m T (fun k => r * molefrac ρ k) i) (dlnphidrho m T ρ i)
      (rhotot ρ) := by
  have ht := h.tot
  have hone : (fun k => rhotot ρ * molefrac ρ k) = ρ := by
    funext k; unfold molefrac; field_simp
  have hsum : rhotot (molefrac ρ) = 1 := sum_molefrac ht
  have hxx : ∀ r : ℝ, r ≠ 0 → molefrac (fun k => r * molefrac ρ k) = molefrac ρ := by
    intro r hr
    rw [molefrac_smul hr]
    funext k
    show molefrac ρ k / rhotot (molefrac ρ) = molefrac ρ k
    rw [hsum, div_one]
  have hev : (fun r => lnphi m T (fun k => r * molefrac ρ k) i) =ᶠ[𝓝 (rhotot ρ)] fun r =>
      gradPsir m T (fun k => r * molefrac ρ k) i / (m.R (molefrac ρ) * T) -
        Real.log (1 + tdxAr m 0 1 T r (molefrac ρ)) := by
    filter_upwards [isOpen_ne.mem_nhds ht] with r hr
    unfold lnphi
    simp only []
    rw [hxx r hr, rhotot_smul, hsum, mul_one]
  have h1 := (hasDerivAt_gradPsir_line h i (hasDerivAt_scale (molefrac ρ) (rhotot ρ)) hone).div_const
    (m.R (molefrac ρ) * T)
  have h2 := (hasDerivAt_Z_rho h).log hZ.ne'
  refine ((h1.sub h2).congr_of_eventuallyEq hev).congr_deriv ?_
  unfold dlnphidrho
  simp only [lnZ_Z_dZdrho]
  ring

/-- C10. `get_lnZ_Z_dZdrho`: the compressibility factor `p/(ρ R T)`, its logarithm, and its derivative along the isotherm
of constant composition. -/
theorem lnZ_Z_dZdrho_true (h : SmoothAt m T ρ) (hT : T ≠ 0) (hR : m.R (molefrac ρ) ≠ 0)
    (hZ : 0 < (lnZ_Z_dZdrho m T ρ).2.1) :
    (lnZ_Z_dZdrho m T ρ).2.1 = ptot m T ρ / (rhotot ρ * m.R (molefrac ρ) * T) ∧
      Real.exp (lnZ_Z_dZdrho m T ρ).1 = (lnZ_Z_dZdrho m T ρ).2.1 ∧
      HasDerivAt (fun r => 1 + tdxAr m 0 1 T r (molefrac ρ)) (lnZ_Z_dZdrho m T ρ).2.2 (rhotot ρ) := by
  have ht := h.tot
  refine ⟨?_, ?_, ?_⟩
  · have hp : ptot m T ρ = rhotot ρ * m.R (molefrac ρ) * T * (1 + tdxAr m 0 1 T (rhotot ρ) (molefrac ρ)) := by
      unfold ptot pr
      rw [tdxAr_01']
      ring
    rw [hp]
    simp only [lnZ_Z_dZdrho]
    field_simp
  · exact Real.exp_log hZ
  · exact (hasDerivAt_Z_rho h).congr_deriv (by simp only [lnZ_Z_dZdrho])

/-- C10. `d ln φ_i/dv` at constant temperature and mole fractions. -/
theorem dlnphidv_true (h : SmoothAt m T ρ)
    (hZ : 0 < 1 + tdxAr m 0 1 T (rhotot ρ) (molefrac ρ)) (i : ι) :
    HasDerivAt (fun v => lnphi m T (fun k => 1 / v * molefrac ρ k) i) (dlnphidv m T ρ i)
      (1 / rhotot ρ) := by
  have ht := h.tot
  have h0 := dlnphidrho_true h hZ i
  have hv : (1 : ℝ) / rhotot ρ ≠ 0 := by positivity
  have h1 : HasDerivAt (fun r => lnphi m T (fun k => r * molefrac ρ k) i) (dlnphidrho m T ρ i)
      (1 / (1 / rhotot ρ)) := by rw [one_div_one_div]; exact h0
  refine (hasDerivAt_recip_comp hv h1).congr_deriv ?_
  unfold dlnphidv
  rw [one_div_one_div]
  ring

/-- The pressure along any line of concentrations, for a constant gas constant. -/
theorem hasDerivAt_ptot_line (h : SmoothAt m T ρ) (hRc : ∀ x y, m.R x = m.R y)
    {γ : ℝ → ι → ℝ} {v : ι → ℝ} {s : ℝ} (hγ : HasDerivAt γ v s) (hs : γ s = ρ) :
    HasDerivAt (fun u => ptot m T (γ u)) (∑ i, v i * dpdrhovec m T ρ i) s := by
  have hγi := hasDerivAt_pi.1 hγ
  have hevS : ∀ᶠ u in 𝓝 s, SmoothAt m T (γ u) := by
    have := h.eventually_rho
    rw [← hs] at this
    exact hγ.continuousAt.eventually this
  have hev : (fun u => ptot m T (γ u)) =ᶠ[𝓝 s] fun u =>
      (∑ i, γ u i) * (m.R (molefrac ρ) * T) - Psir m T (γ u) +
        ∑ i, γ u i * gradPsir m T (γ u) i := by
    filter_upwards [hevS] with u hu
    unfold ptot
    rw [pr_euler hu, hRc (molefrac (γ u)) (molefrac ρ)]
    unfold rhotot; ring
  have h1 : HasDerivAt (fun u => ∑ i, γ u i) (∑ i, v i) s := HasDerivAt.fun_sum fun i _ => hγi i
  have h2 := hasDerivAt_line (differentiableAt_Psir h) hγ hs
  have h3 : HasDerivAt (fun u => ∑ i, γ u i * gradPsir m T (γ u) i)
      (∑ i, (v i * gradPsir m T ρ i + ρ i * ∑ j, hessPsir m T ρ i j * v j)) s := by
    refine HasDerivAt.fun_sum fun i _ => ?_
    have := (hγi i).mul (hasDerivAt_gradPsir_line h i hγ hs)
    rw [hs] at this
    exact this
  refine ((((h1.mul_const (m.R (molefrac ρ) * T)).sub h2).add h3).congr_of_eventuallyEq
    hev).congr_deriv ?_
  have e1 : ∑ i, ρ i * ∑ j, hessPsir m T ρ i j * v j =
      ∑ i, v i * ∑ j, hessPsir m T ρ i j * ρ j := by
    simp only [Finset.mul_sum]
    rw [Finset.sum_comm]
    refine Finset.sum_congr rfl fun i _ => Finset.sum_congr rfl fun j _ => ?_
    unfold hessPsir
    rw [partialD2_symm (contDiffAt_Psir_rho h)]; ring
  unfold dpdrhovec
  simp only [mul_add, Finset.sum_add_distrib]
  rw [e1, ← Finset.sum_mul]
  unfold gradPsir
  ring

/-- C10. `get_dpdrhovec_constT` is the gradient of the pressure in the concentrations, for every model
with a constant gas constant. -/
theorem dpdrhovec_true (h : SmoothAt m T ρ) (hRc : ∀ x y, m.R x = m.R y) (i : ι) :
    HasDerivAt (fun ri => ptot m T (Function.update ρ i ri)) (dpdrhovec m T ρ i) (ρ i) := by
  refine (hasDerivAt_ptot_line h hRc (hasDerivAt_update ρ i (ρ i)) (by simp)).congr_deriv ?_
  rw [Finset.sum_eq_single i]
  · simp
  · intro k _ hk; simp [Pi.single_eq_of_ne hk]
  · simp

/-- C09/C10. The partial molar volume returned is `-(∂p/∂n_i)_{T,V} / (∂p/∂V)_{T,n}`, that is
`(∂V/∂n_i)_{T,p}`, for every model with a constant gas constant. -/
theorem partialMolarVolume_true (h : SmoothAt m T ρ) (hRc : ∀ x y, m.R x = m.R y) (V : ℝ)
    (hV : V ≠ 0) (hRT : m.R (molefrac ρ) * T ≠ 0)
    (hs : 1 + 2 * tdxAr m 0 1 T (rhotot ρ) (molefrac ρ) + tdxAr m 0 2 T (rhotot ρ) (molefrac ρ) ≠ 0)
    (i : ι) :
    ∃ dpdn dpdV : ℝ,
      HasDerivAt (fun ni => ptot m T (fun k => Function.update (fun k => V * ρ k) i ni k / V)) dpdn
        (V * ρ i) ∧
      HasDerivAt (fun V' => ptot m T (fun k => V * ρ k / V')) dpdV V ∧ dpdV ≠ 0 ∧
      partialMolarVolume m T ρ i = -dpdn / dpdV := by
  have ht := h.tot
  have hone : (fun k => Function.update (fun k => V * ρ k) i (V * ρ i) k / V) = ρ := by
    funext k
    have : Function.update (fun k => V * ρ k) i (V * ρ i) k = V * ρ k := by
      by_cases hk : k = i
      · subst hk; simp
      · simp [hk]
    rw [this]; field_simp
  have hγ : HasDerivAt (fun ni : ℝ => fun k => Function.update (fun k => V * ρ k) i ni k / V)
      (fun k => (Pi.single i (1 : ℝ) : ι → ℝ) k / V) (V * ρ i) := by
    have := hasDerivAt_pi.1 (hasDerivAt_update (fun k => V * ρ k) i (V * ρ i))
    rw [hasDerivAt_pi]; intro k
    exact (this k).div_const V
  have hone' : (fun k => V * ρ k / V) = ρ := by funext k; field_simp
  have hγ' : HasDerivAt (fun V' : ℝ => fun k => V * ρ k / V') (fun k => -(ρ k / V)) V := by
    rw [hasDerivAt_pi]; intro k
    have := (hasDerivAt_inv hV).const_mul (V * ρ k)
    refine this.congr_deriv ?_
    field_simp
  refine ⟨_, _, hasDerivAt_ptot_line h hRc hγ hone, hasDerivAt_ptot_line h hRc hγ' hone', ?_, ?_⟩
  · have : ∑ k, -(ρ k / V) * dpdrhovec m T ρ k = -(1 / V) * ∑ k, ρ k * dpdrhovec m T ρ k := by
      rw [Finset.mul_sum]; exact Finset.sum_congr rfl fun k _ => by ring
    rw [this, sum_rho_dpdrho h]
    have : -(1 / V) ≠ 0 := by simpa using hV
    exact mul_ne_zero this (mul_ne_zero (mul_ne_zero ht hRT) hs)
  · have e1 : ∑ k, -(ρ k / V) * dpdrhovec m T ρ k = -(1 / V) * ∑ k, ρ k * dpdrhovec m T ρ k := by
      rw [Finset.mul_sum]; exact Finset.sum_congr rfl fun k _ => by ring
    have e2 : ∑ k, (Pi.single i (1 : ℝ) : ι → ℝ) k / V * dpdrhovec m T ρ k =
        dpdrhovec m T ρ i / V := by
      rw [Finset.sum_eq_single i]
      · simp; ring
      · intro k _ hk; simp [Pi.single_eq_of_ne hk]
      · simp
    rw [e1, e2, sum_rho_dpdrho h, partialMolarVolume_eq]
    field_simp

/-- C10. `d ln φ_i/dx_j` at constant temperature and density, the mole fractions being independent:
the derivative of `get_ln_fugacity_coefficients_Trhomolefracs`, for a constant gas constant. -/
theorem dlnphidx_true (h : SmoothAt m T ρ) (hRc : ∀ x y, m.R x = m.R y)
    (hZ : 0 < 1 + tdxAr m 0 1 T (rhotot ρ) (molefrac ρ)) (i j : ι) :
    HasDerivAt (fun xj => lnphiTrhox m T (rhotot ρ) (Function.update (molefrac ρ) j xj) i)
      (dlnphidx m T ρ i j) (molefrac ρ j) := by
  have ht := h.tot
  have hone : (fun k => rhotot ρ * Function.update (molefrac ρ) j (molefrac ρ j) k) = ρ := by
    rw [Function.update_eq_self]
    funext k; unfold molefrac; field_simp
  have hγ : HasDerivAt (fun xj : ℝ => fun k => rhotot ρ * Function.update (molefrac ρ) j xj k)
      (fun k => rhotot ρ * (Pi.single j (1 : ℝ) : ι → ℝ) k) (molefrac ρ j) := by
    have := hasDerivAt_pi.1 (hasDerivAt_update (molefrac ρ) j (molefrac ρ j))
    rw [hasDerivAt_pi]; intro k
    exact (this k).const_mul _
  have hev : (fun xj => lnphiTrhox m T (rhotot ρ) (Function.update (molefrac ρ) j xj) i) = fun xj =>
      gradPsir m T (fun k => rhotot ρ * Function.update (molefrac ρ) j xj k) i /
        (m.R (molefrac ρ) * T) -
        Real.log (1 + tdxAr m 0 1 T (rhotot ρ) (Function.update (molefrac ρ) j xj)) := by
    funext xj
    unfold lnphiTrhox
    simp only []
    rw [hRc (Function.update (molefrac ρ) j xj) (molefrac ρ)]
  have hF : ContDiffAt ℝ 2 (unc fun r ξ => m.alphar T r (Function.update (molefrac ρ) j ξ))
      (rhotot ρ, molefrac ρ j) := by
    have hu : ContDiffAt ℝ 2 (fun q : ℝ × ℝ => Function.update (molefrac ρ) j q.2)
        (rhotot ρ, molefrac ρ j) :=
      ContDiffAt.comp (g := fun r => Function.update (molefrac ρ) j r) (rhotot ρ, molefrac ρ j)
        (contDiff_update 2 (molefrac ρ) j).contDiffAt contDiffAt_snd
    have hg : ContDiffAt ℝ 2 (fun p : ℝ × ℝ × (ι → ℝ) => m.alphar p.1 p.2.1 p.2.2)
        ((fun q : ℝ × ℝ => (T, q.1, Function.update (molefrac ρ) j q.2))
          (rhotot ρ, molefrac ρ j)) := by
      simpa using h.hα
    exact hg.comp (rhotot ρ, molefrac ρ j)
      (contDiffAt_const.prodMk (contDiffAt_fst.prodMk hu))
  have h1 := (hasDerivAt_gradPsir_line h i hγ hone).div_const (m.R (molefrac ρ) * T)
  have hM := hasDerivAt_dd_right_left hF
  rw [← (hasDerivAt_dd_left_right hF).deriv] at hM
  have h2 : HasDerivAt (fun xj => 1 + tdxAr m 0 1 T (rhotot ρ) (Function.update (molefrac ρ) j xj))
      (rhotot ρ * d2alphardrhodxi m T (rhotot ρ) (molefrac ρ) j) (molefrac ρ j) := by
    simp only [tdxAr_01']
    exact (hM.const_mul (rhotot ρ)).const_add 1
  have hZ' : 1 + tdxAr m 0 1 T (rhotot ρ) (Function.update (molefrac ρ) j (molefrac ρ j)) ≠ 0 := by
    rw [Function.update_eq_self]; exact hZ.ne'
  have h3 := h2.log hZ'
  rw [hev]
  refine (h1.sub h3).congr_deriv ?_
  unfold dlnphidx
  rw [Function.update_eq_self]
  simp only []
  rw [Finset.sum_eq_single j]
  · simp only [Pi.single_eq_same, mul_one]; ring
  · intro k _ hk; simp [Pi.single_eq_of_ne hk]
  · simp

/-- C10. The two parts of `ln φ_i` add up to it, and the derivative of the first part with respect to independent mole
fractions is the one returned for it. -/
theorem lnphi_parts (h : SmoothAt m T ρ) (hRc : ∀ x y, m.R x = m.R y) (i j : ι) :
    lnphi m T ρ i = lnphi1 m T ρ i + lnphi2 m T ρ ∧
    HasDerivAt (fun xj => lnphi1 m T (fun k => rhotot ρ * Function.update (molefrac ρ) j xj k) i)
      (dlnphidx1 m T ρ i j) (molefrac ρ j) := by
  have ht := h.tot
  refine ⟨by unfold lnphi lnphi1 lnphi2; ring, ?_⟩
  have hone : (fun k => rhotot ρ * Function.update (molefrac ρ) j (molefrac ρ j) k) = ρ := by
    rw [Function.update_eq_self]
    funext k; unfold molefrac; field_simp
  have hγ : HasDerivAt (fun xj : ℝ => fun k => rhotot ρ * Function.update (molefrac ρ) j xj k)
      (fun k => rhotot ρ * (Pi.single j (1 : ℝ) : ι → ℝ) k) (molefrac ρ j) := by
    have := hasDerivAt_pi.1 (hasDerivAt_update (molefrac ρ) j (molefrac ρ j))
    rw [hasDerivAt_pi]; intro k
    exact (this k).const_mul _
  have hev : (fun xj => lnphi1 m T (fun k => rhotot ρ * Function.update (molefrac ρ) j xj k) i) = fun xj =>
      gradPsir m T (fun k => rhotot ρ * Function.update (molefrac ρ) j xj k) i / (m.R (molefrac ρ) * T) := by
    funext xj
    unfold lnphi1
    rw [hRc _ (molefrac ρ)]
  rw [hev]
  refine ((hasDerivAt_gradPsir_line h i hγ hone).div_const (m.R (molefrac ρ) * T)).congr_deriv ?_
  unfold dlnphidx1
  rw [Finset.sum_eq_single j]
  · simp only [Pi.single_eq_same, mul_one]; ring
  · intro k _ hk; simp [Pi.single_eq_of_ne hk]
  · simp

/-- C07/C10. The Hessians are symmetric. -/
theorem hessPsi_symm (h : SmoothAt m T ρ) (i j : ι) :
    hessPsir m T ρ i j = hessPsir m T ρ j i ∧ hessPsi m T ρ i j = hessPsi m T ρ j i := by
  have h1 : hessPsir m T ρ i j = hessPsir m T ρ j i := partialD2_symm (contDiffAt_Psir_rho h) i j
  refine ⟨h1, ?_⟩
  unfold hessPsi
  rw [h1]
  by_cases hij : i = j
  · subst hij; rfl
  · rw [if_neg hij, if_neg (Ne.symm hij)]

/-- C10. The Hessian of the total Helmholtz energy density is the derivative of the chemical
potentials of the API, for a constant gas constant. -/
theorem hessPsi_true (h : SmoothAt m T ρ) (hRc : ∀ x y, m.R x = m.R y) (hρ : ∀ k, 0 < ρ k)
    (i j : ι) :
    HasDerivAt (fun rj => chempotVLE m T (Function.update ρ j rj) i) (hessPsi m T ρ i j) (ρ j) := by
  have h1 := hasDerivAt_gradPsir_line h i (hasDerivAt_update ρ j (ρ j)) (by simp)
  have e1 : ∑ k, hessPsir m T ρ i k * (Pi.single j (1 : ℝ) : ι → ℝ) k = hessPsir m T ρ i j := by
    rw [Finset.sum_eq_single j]
    · simp
    · intro k _ hk; simp [Pi.single_eq_of_ne hk]
    · simp
  rw [e1] at h1
  have hc := hasDerivAt_pi.1 (hasDerivAt_update ρ j (ρ j)) i
  have hne : Function.update ρ j (ρ j) i ≠ 0 := by rw [Function.update_eq_self]; exact (hρ i).ne'
  have h2 := ((hc.log hne).const_add 1).const_mul (m.R (molefrac ρ) * T)
  have hev : (fun rj => chempotVLE m T (Function.update ρ j rj) i) = fun rj =>
      gradPsir m T (Function.update ρ j rj) i +
        m.R (molefrac ρ) * T * (1 + Real.log (Function.update ρ j rj i)) := by
    funext rj
    unfold chempotVLE
    simp only [div_one]
    rw [hRc (molefrac (Function.update ρ j rj)) (molefrac ρ)]
  rw [hev]
  refine (h1.add h2).congr_deriv ?_
  unfold hessPsi
  rw [Function.update_eq_self]
  by_cases hij : i = j
  · subst hij; simp; ring
  · simp [hij]

end

/-! ## The exception: composition-dependent gas constant -/

/-- A model with zero residual part and a mole-fraction weighted gas constant `R = x₀ + 2 x₁`
(`/repo/include/teqp/models/multifluid.hpp` offers such models). -/
noncomputable def weightedR : EOS (Fin 2) := ⟨fun _ _ _ => 0, fun x => x 0 + 2 * x 1⟩

/-- C10, negative result: with a composition-dependent gas constant the reported `∂p/∂ρ_0` is 3/2
while the pressure the API reports has slope 1 there. -/
theorem dpdrhovec_wrong_for_varying_R :
    dpdrhovec weightedR 1 (fun _ => 1) 0 = 3 / 2 ∧
    HasDerivAt (fun r0 => ptot weightedR 1 (Function.update (fun _ => (1 : ℝ)) (0 : Fin 2) r0)) 1 1 := by
  have hPsi : Psir weightedR 1 = fun _ => 0 := by
    funext r; simp [Psir, weightedR]
  constructor
  · unfold dpdrhovec hessPsir partialD2 partialD
    rw [hPsi]
    simp [weightedR, molefrac, rhotot]
    norm_num
  · have hev : (fun r0 => ptot weightedR 1 (Function.update (fun _ => (1 : ℝ)) (0 : Fin 2) r0))
        =ᶠ[𝓝 1] fun r0 => r0 + 2 := by
      filter_upwards [isOpen_lt continuous_const continuous_id |>.mem_nhds
        (show (0 : ℝ) < id 1 by norm_num)] with r0 hr0
      have hr : (0 : ℝ) < r0 := hr0
      have hr' : r0 + 1 ≠ 0 := by linarith
      simp [ptot, pr, weightedR, molefrac, rhotot]
      field_simp
    exact ((hasDerivAt_id (1 : ℝ)).add_const 2).congr_of_eventuallyEq hev

/-! ## Non-vacuity -/

/-- A binary van der Waals-like model `α = x₀ x₁ ρ / T + ρ²` with constant `R` satisfies the smoothness
hypothesis at a concrete state, with `Z > 0`. -/
noncomputable def demoEOS : EOS (Fin 2) := ⟨fun T ρ x => x 0 * x 1 * ρ / T + ρ ^ 2, fun _ => 8⟩

theorem demo_smooth : SmoothAt demoEOS 300 (fun _ : Fin 2 => (1 : ℝ)) := by
  refine ⟨by simp [rhotot], ?_, contDiffAt_const⟩
  have hx : ∀ i : Fin 2, ContDiffAt ℝ 2 (fun p : ℝ × ℝ × (Fin 2 → ℝ) => p.2.2 i)
      (300, rhotot (fun _ : Fin 2 => (1 : ℝ)), molefrac fun _ => 1) := fun i =>
    ContDiffAt.comp (g := fun y : Fin 2 → ℝ => y i) _ (contDiff_apply ℝ ℝ i).contDiffAt
      (contDiffAt_snd.comp _ contDiffAt_snd)
  have hr : ContDiffAt ℝ 2 (fun p : ℝ × ℝ × (Fin 2 → ℝ) => p.2.1)
      (300, rhotot (fun _ : Fin 2 => (1 : ℝ)), molefrac fun _ => 1) :=
    contDiffAt_fst.comp _ contDiffAt_snd
  exact ((((hx 0).mul (hx 1)).mul hr).div contDiffAt_fst (by norm_num)).add (hr.pow 2)

example : SmoothAt demoEOS 300 (fun _ : Fin 2 => (1 : ℝ)) ∧ (∀ x y, demoEOS.R x = demoEOS.R y) ∧
    0 < demoEOS.R (molefrac fun _ => 1) * 300 ∧
    0 < 1 + tdxAr demoEOS 0 1 300 (rhotot fun _ : Fin 2 => (1 : ℝ)) (molefrac fun _ => 1) := by
  refine ⟨demo_smooth, fun _ _ => rfl, by norm_num [demoEOS], ?_⟩
  rw [tdxAr_01']
  have : HasDerivAt (fun r : ℝ => demoEOS.alphar 300 r (molefrac fun _ => 1))
      ((1 / 2) * (1 / 2) / 300 + 2 * 2) 2 := by
    have h := (((hasDerivAt_id (2 : ℝ)).const_mul ((1 / 2 : ℝ) * (1 / 2))).div_const 300).add
      (hasDerivAt_pow 2 (2 : ℝ))
    refine (h.congr_deriv (by norm_num)).congr_of_eventuallyEq (Eventually.of_forall fun r => ?_)
    simp [demoEOS, molefrac, rhotot]
  have h2 : rhotot (fun _ : Fin 2 => (1 : ℝ)) = 2 := by simp [rhotot]
  rw [h2, this.deriv]
  norm_num

end Teqp.Props

import Verif.Model.Isochoric
import Verif.Lemmas.Thermo
import Verif.Props.Lambda
import Mathlib.Analysis.SpecialFunctions.Log.Deriv
import Mathlib.Algebra.BigOperators.Field

/-! # Lemmas on the isochoric formalism -/

set_option autoImplicit false
set_option linter.unusedSectionVars false

open Filter Topology

namespace Teqp.Lemmas
open Teqp.Calc Teqp.Model Teqp.Spec

section
variable {ι : Type} [Fintype ι] [DecidableEq ι] {m : EOS ι} {T : ℝ} {ρ : ι → ℝ}

/-- The model is twice continuously differentiable at the state `(T, ρ)` (in temperature, density and
independent mole fractions), and the state is not empty. -/
structure SmoothAt (m : EOS ι) (T : ℝ) (ρ : ι → ℝ) : Prop where
  tot : rhotot ρ ≠ 0
  hα : ContDiffAt ℝ 2 (fun p : ℝ × ℝ × (ι → ℝ) => m.alphar p.1 p.2.1 p.2.2)
    (T, rhotot ρ, molefrac ρ)
  hR : ContDiffAt ℝ 2 m.R (molefrac ρ)

theorem contDiff_rhotot {n : WithTop ℕ∞} : ContDiff ℝ n (rhotot : (ι → ℝ) → ℝ) := by
  unfold rhotot
  exact ContDiff.sum fun i _ => contDiff_apply ℝ ℝ i

theorem contDiffAt_molefrac {n : WithTop ℕ∞} (h : rhotot ρ ≠ 0) :
    ContDiffAt ℝ n (molefrac : (ι → ℝ) → ι → ℝ) ρ := by
  rw [contDiffAt_pi]
  intro i
  exact (contDiff_apply ℝ ℝ i).contDiffAt.div contDiff_rhotot.contDiffAt h

theorem rhotot_smul (s : ℝ) (ρ : ι → ℝ) : rhotot (fun i => s * ρ i) = s * rhotot ρ := by
  simp [rhotot, Finset.mul_sum]

theorem molefrac_smul {s : ℝ} (hs : s ≠ 0) (ρ : ι → ℝ) :
    molefrac (fun i => s * ρ i) = molefrac ρ := by
  funext i
  simp only [molefrac, rhotot_smul]
  rw [mul_div_mul_left _ _ hs]

theorem sum_molefrac (h : rhotot ρ ≠ 0) : ∑ i, molefrac ρ i = 1 := by
  simp only [molefrac]
  rw [← Finset.sum_div]
  exact div_self h

/-- Joint smoothness of `Ψ^r` in temperature and concentrations. -/
theorem contDiffAt_Psir (h : SmoothAt m T ρ) :
    ContDiffAt ℝ 2 (fun p : ℝ × (ι → ℝ) => Psir m p.1 p.2) (T, ρ) := by
  have h2 : ContDiffAt ℝ 2 (fun p : ℝ × (ι → ℝ) => p.2) (T, ρ) := contDiffAt_snd
  have h1 : ContDiffAt ℝ 2 (fun p : ℝ × (ι → ℝ) => p.1) (T, ρ) := contDiffAt_fst
  have hr : ContDiffAt ℝ 2 (fun p : ℝ × (ι → ℝ) => rhotot p.2) (T, ρ) :=
    (contDiff_rhotot (ι := ι)).contDiffAt.comp (T, ρ) h2
  have hx : ContDiffAt ℝ 2 (fun p : ℝ × (ι → ℝ) => molefrac p.2) (T, ρ) :=
    ContDiffAt.comp (g := (molefrac : (ι → ℝ) → ι → ℝ)) (T, ρ) (contDiffAt_molefrac h.tot) h2
  have ha : ContDiffAt ℝ 2 (fun p : ℝ × (ι → ℝ) => m.alphar p.1 (rhotot p.2) (molefrac p.2)) (T, ρ) :=
    ContDiffAt.comp (g := fun p : ℝ × ℝ × (ι → ℝ) => m.alphar p.1 p.2.1 p.2.2) (T, ρ) h.hα
      (h1.prodMk (hr.prodMk hx))
  have hRR : ContDiffAt ℝ 2 (fun p : ℝ × (ι → ℝ) => m.R (molefrac p.2)) (T, ρ) :=
    ContDiffAt.comp (g := m.R) (T, ρ) h.hR hx
  exact ((ha.mul hRR).mul h1).mul hr

theorem contDiffAt_Psir_rho (h : SmoothAt m T ρ) : ContDiffAt ℝ 2 (Psir m T) ρ :=
  ContDiffAt.comp (g := fun p : ℝ × (ι → ℝ) => Psir m p.1 p.2) (f := fun r => (T, r)) ρ
    (contDiffAt_Psir h) (contDiffAt_const.prodMk contDiffAt_id)

theorem differentiableAt_Psir (h : SmoothAt m T ρ) : DifferentiableAt ℝ (Psir m T) ρ :=
  (contDiffAt_Psir_rho h).differentiableAt (by norm_num)

/-- Smoothness at fixed composition, as a function of temperature and density. -/
theorem contDiffAt_fixed (h : SmoothAt m T ρ) :
    ContDiffAt ℝ 2 (unc fun T' r => m.alphar T' r (molefrac ρ)) (T, rhotot ρ) :=
  ContDiffAt.comp (g := fun p : ℝ × ℝ × (ι → ℝ) => m.alphar p.1 p.2.1 p.2.2)
    (f := fun q : ℝ × ℝ => (q.1, q.2, molefrac ρ)) (T, rhotot ρ) h.hα
    (contDiffAt_fst.prodMk (contDiffAt_snd.prodMk contDiffAt_const))

/-- `SmoothAt` holds in a neighbourhood in temperature. -/
theorem SmoothAt.eventually_T (h : SmoothAt m T ρ) : ∀ᶠ T' in 𝓝 T, SmoothAt m T' ρ := by
  have hc : ContinuousAt (fun T' : ℝ => (T', rhotot ρ, molefrac ρ)) T := by fun_prop
  have := hc.eventually (h.hα.eventually (by simp))
  filter_upwards [this] with T' hT'
  exact ⟨h.tot, hT', h.hR⟩

theorem SmoothAt.eventually_rho (h : SmoothAt m T ρ) : ∀ᶠ ρ' in 𝓝 ρ, SmoothAt m T ρ' := by
  have hr : ContinuousAt (rhotot : (ι → ℝ) → ℝ) ρ :=
    (contDiff_rhotot (n := 0)).contDiffAt.continuousAt
  have hx : ContinuousAt (molefrac : (ι → ℝ) → ι → ℝ) ρ :=
    (contDiffAt_molefrac (n := 0) h.tot).continuousAt
  have hc : ContinuousAt (fun ρ' : ι → ℝ => (T, rhotot ρ', molefrac ρ')) ρ :=
    continuousAt_const.prodMk (hr.prodMk hx)
  have e1 := hc.eventually (h.hα.eventually (by simp))
  have e2 := hx.eventually (h.hR.eventually (by simp))
  have e3 := hr.eventually (isOpen_ne.mem_nhds h.tot)
  filter_upwards [e1, e2, e3] with ρ' h1 h2 h3
  exact ⟨h3, h1, h2⟩

theorem hasDerivAt_scale (ρ : ι → ℝ) (s : ℝ) : HasDerivAt (fun s : ℝ => fun i => s * ρ i) ρ s := by
  rw [hasDerivAt_pi]
  intro i
  simpa using (hasDerivAt_id s).mul_const (ρ i)

theorem Psir_scale {s : ℝ} (hs : s ≠ 0) :
    Psir m T (fun i => s * ρ i) =
      m.alphar T (s * rhotot ρ) (molefrac ρ) * (m.R (molefrac ρ) * T * rhotot ρ) * s := by
  unfold Psir
  rw [rhotot_smul, molefrac_smul hs]
  ring

theorem hasDerivAt_alphar_rho (h : SmoothAt m T ρ) :
    HasDerivAt (fun r => m.alphar T r (molefrac ρ))
      (deriv (fun r => m.alphar T r (molefrac ρ)) (rhotot ρ)) (rhotot ρ) := by
  have := hasDerivAt_right ((contDiffAt_fixed h).differentiableAt (by norm_num))
  rw [this.deriv]; exact this

/-- Euler's relation in the raw form. -/
theorem euler (h : SmoothAt m T ρ) :
    ∑ i, ρ i * gradPsir m T ρ i = pr m T ρ + Psir m T ρ := by
  have h1 := hasDerivAt_line (differentiableAt_Psir h) (hasDerivAt_scale ρ 1) (by simp)
  have hev : (fun s : ℝ => Psir m T (fun i => s * ρ i)) =ᶠ[𝓝 1] fun s =>
      m.alphar T (s * rhotot ρ) (molefrac ρ) * (m.R (molefrac ρ) * T * rhotot ρ) * s := by
    filter_upwards [isOpen_ne.mem_nhds (one_ne_zero : (1 : ℝ) ≠ 0)] with s hs
    exact Psir_scale hs
  have hin : HasDerivAt (fun s : ℝ => s * rhotot ρ) (rhotot ρ) 1 := by
    simpa using (hasDerivAt_id (1 : ℝ)).mul_const (rhotot ρ)
  have ha : HasDerivAt (fun s : ℝ => m.alphar T (s * rhotot ρ) (molefrac ρ))
      (deriv (fun r => m.alphar T r (molefrac ρ)) (rhotot ρ) * rhotot ρ) 1 := by
    have hh := hasDerivAt_alphar_rho h
    have hh' : HasDerivAt (fun r => m.alphar T r (molefrac ρ))
      (deriv (fun r => m.alphar T r (molefrac ρ)) (rhotot ρ)) (1 * rhotot ρ) := by simpa using hh
    exact hh'.comp 1 hin
  have h2 := (ha.mul_const (m.R (molefrac ρ) * T * rhotot ρ)).mul (hasDerivAt_id (1 : ℝ))
  have h3 := h2.congr_of_eventuallyEq hev
  have := h1.unique h3
  unfold gradPsir
  rw [this]
  unfold pr Psir
  simp only [id, one_mul, mul_one]
  ring

/-- Mixed temperature–concentration derivative of `Ψ^r`. -/
theorem contDiffAt_update_pair (h : SmoothAt m T ρ) (i : ι) :
    ContDiffAt ℝ 2 (unc fun T' r => Psir m T' (Function.update ρ i r)) (T, ρ i) := by
  have hu : ContDiffAt ℝ 2 (fun q : ℝ × ℝ => Function.update ρ i q.2) (T, ρ i) :=
    ContDiffAt.comp (g := fun r => Function.update ρ i r) (T, ρ i)
      (contDiff_update 2 ρ i).contDiffAt contDiffAt_snd
  have hg : ContDiffAt ℝ 2 (fun p : ℝ × (ι → ℝ) => Psir m p.1 p.2)
      ((fun q : ℝ × ℝ => (q.1, Function.update ρ i q.2)) (T, ρ i)) := by
    simpa using contDiffAt_Psir h
  exact hg.comp (T, ρ i) (contDiffAt_fst.prodMk hu)

theorem hasDerivAt_gradPsir_T (h : SmoothAt m T ρ) (i : ι) :
    HasDerivAt (fun T' => gradPsir m T' ρ i) (d2PsirdTdrhoi m T ρ i) T := by
  have := hasDerivAt_dd_left_right (contDiffAt_update_pair h i)
  unfold d2PsirdTdrhoi
  rw [this.deriv]
  exact this

theorem hasDerivAt_Psir_T (h : SmoothAt m T ρ) :
    HasDerivAt (fun T' => Psir m T' ρ) (dPsirdT m T ρ) T := by
  have hd : DifferentiableAt ℝ (fun T' => Psir m T' ρ) T := by
    have := (contDiffAt_Psir h).differentiableAt (by norm_num)
    exact DifferentiableAt.comp (g := fun p : ℝ × (ι → ℝ) => Psir m p.1 p.2)
      (f := fun T' => (T', ρ)) T this (differentiableAt_id.prodMk (differentiableAt_const _))
  have e : (fun T' => Psir m T' ρ) = fun T' => rhotot ρ * m.R (molefrac ρ) * T' *
      m.alphar T' (rhotot ρ) (molefrac ρ) := by
    funext T'; unfold Psir; ring
  unfold dPsirdT
  rw [← e]
  exact hd.hasDerivAt

/-- Derivative of a gradient component along a line. -/
theorem hasDerivAt_gradPsir_line (h : SmoothAt m T ρ) (i : ι) {γ : ℝ → ι → ℝ} {v : ι → ℝ} {s : ℝ}
    (hγ : HasDerivAt γ v s) (hs : γ s = ρ) :
    HasDerivAt (fun u => gradPsir m T (γ u) i) (∑ j, hessPsir m T ρ i j * v j) s := by
  have hd := differentiableAt_partialD (contDiffAt_Psir_rho h) i
  have := hasDerivAt_line hd hγ hs
  refine this.congr_deriv ?_
  refine Finset.sum_congr rfl fun j _ => ?_
  unfold hessPsir
  rw [partialD2_symm (contDiffAt_Psir_rho h)]
  unfold partialD2
  ring

theorem tdxAr_01' (T r : ℝ) (x : ι → ℝ) :
    tdxAr m 0 1 T r x = r * deriv (fun r => m.alphar T r x) r := by
  unfold tdxAr
  rw [Props.Agenxy_is_Lambda]
  simp [Lambda, iteratedDeriv_one]

theorem tdxAr_02' (T r : ℝ) (x : ι → ℝ) :
    tdxAr m 0 2 T r x = r ^ 2 * deriv (fun r => deriv (fun r => m.alphar T r x) r) r := by
  unfold tdxAr
  rw [Props.Agenxy_is_Lambda]
  simp [Lambda, iteratedDeriv_succ]

theorem hasDerivAt_dalphadrho (h : SmoothAt m T ρ) :
    HasDerivAt (fun r => deriv (fun r => m.alphar T r (molefrac ρ)) r)
      (deriv (fun r => deriv (fun r => m.alphar T r (molefrac ρ)) r) (rhotot ρ)) (rhotot ρ) := by
  have := hasDerivAt_dd_right_right (contDiffAt_fixed h)
  rw [this.deriv]; exact this

/-- `dZ/dρ` at fixed temperature and composition. -/
theorem hasDerivAt_Z_rho (h : SmoothAt m T ρ) :
    HasDerivAt (fun r => 1 + tdxAr m 0 1 T r (molefrac ρ)) (lnZ_Z_dZdrho m T ρ).2.2 (rhotot ρ) := by
  simp only [tdxAr_01']
  have h1 := ((hasDerivAt_id (rhotot ρ)).mul (hasDerivAt_dalphadrho h)).const_add 1
  refine h1.congr_deriv ?_
  simp only [lnZ_Z_dZdrho, tdxAr_01', tdxAr_02']
  have := h.tot
  simp only [id]
  field_simp

/-- `dZ/dT` at fixed density and composition. -/
theorem hasDerivAt_Z_T (h : SmoothAt m T ρ) (hT : T ≠ 0) :
    HasDerivAt (fun T' => 1 + tdxAr m 0 1 T' (rhotot ρ) (molefrac ρ))
      (tdxAr m 1 1 T (rhotot ρ) (molefrac ρ) / (-T)) T := by
  have P := partials hT (contDiffAt_fixed h)
  have e11 : tdxAr m 1 1 T (rhotot ρ) (molefrac ρ) = (1 / T) * rhotot ρ * P.ftr := by
    unfold tdxAr; rw [Props.Agenxy_is_Lambda]; exact Lambda11 P
  simp only [tdxAr_01']
  have h1 := ((hasDerivAt_recip_comp hT P.h_tr).const_mul (rhotot ρ)).const_add 1
  simp only [recipForm_recip] at h1
  refine h1.congr_deriv ?_
  rw [e11]; field_simp

/-- The second directional derivative along the state itself. -/
theorem hess_quadratic (h : SmoothAt m T ρ) :
    ∑ i, ρ i * ∑ j, hessPsir m T ρ i j * ρ j =
      m.R (molefrac ρ) * T * rhotot ρ *
        (2 * tdxAr m 0 1 T (rhotot ρ) (molefrac ρ) + tdxAr m 0 2 T (rhotot ρ) (molefrac ρ)) := by
  -- Euler along the ray, differentiated once more
  have hcont : ContinuousAt (fun s : ℝ => fun i => s * ρ i) 1 := (hasDerivAt_scale ρ 1).continuousAt
  have hone : (fun i => (1 : ℝ) * ρ i) = ρ := by simp
  have hevS : ∀ᶠ s in 𝓝 (1 : ℝ), SmoothAt m T (fun i => s * ρ i) := by
    have := h.eventually_rho
    rw [← hone] at this
    exact hcont.eventually this
  -- left side
  have hL : HasDerivAt (fun s : ℝ => ∑ i, ρ i * gradPsir m T (fun k => s * ρ k) i)
      (∑ i, ρ i * ∑ j, hessPsir m T ρ i j * ρ j) 1 := by
    have : ∀ i ∈ (Finset.univ : Finset ι), HasDerivAt
        (fun s : ℝ => ρ i * gradPsir m T (fun k => s * ρ k) i)
        (ρ i * ∑ j, hessPsir m T ρ i j * ρ j) 1 := fun i _ =>
      (hasDerivAt_gradPsir_line h i (hasDerivAt_scale ρ 1) hone).const_mul (ρ i)
    exact HasDerivAt.fun_sum this
  -- right side
  have hev : (fun s : ℝ => ∑ i, ρ i * gradPsir m T (fun k => s * ρ k) i) =ᶠ[𝓝 1] fun s =>
      m.R (molefrac ρ) * T * rhotot ρ *
        (s * rhotot ρ * deriv (fun r => m.alphar T r (molefrac ρ)) (s * rhotot ρ)
          + m.alphar T (s * rhotot ρ) (molefrac ρ)) := by
    filter_upwards [hevS, isOpen_ne.mem_nhds (one_ne_zero : (1 : ℝ) ≠ 0)] with s hs hs0
    have he := euler hs
    have e1 : ∑ i, s * ρ i * gradPsir m T (fun k => s * ρ k) i =
        s * ∑ i, ρ i * gradPsir m T (fun k => s * ρ k) i := by
      rw [Finset.mul_sum]; exact Finset.sum_congr rfl fun i _ => by ring
    rw [e1] at he
    have hs0' : s ≠ 0 := hs0
    apply mul_left_cancel₀ hs0'
    rw [he]
    unfold pr
    rw [Psir_scale hs0', rhotot_smul, molefrac_smul hs0']
    ring
  have hin : HasDerivAt (fun s : ℝ => s * rhotot ρ) (rhotot ρ) 1 := by
    simpa using (hasDerivAt_id (1 : ℝ)).mul_const (rhotot ρ)
  have hoo : (1 : ℝ) * rhotot ρ = rhotot ρ := one_mul _
  have ha : HasDerivAt (fun s : ℝ => m.alphar T (s * rhotot ρ) (molefrac ρ))
      (deriv (fun r => m.alphar T r (molefrac ρ)) (rhotot ρ) * rhotot ρ) 1 :=
    HasDerivAt.comp (h₂ := fun r => m.alphar T r (molefrac ρ)) 1
      (by rw [hoo]; exact hasDerivAt_alphar_rho h) hin
  have hb : HasDerivAt (fun s : ℝ => deriv (fun r => m.alphar T r (molefrac ρ)) (s * rhotot ρ))
      (deriv (fun r => deriv (fun r => m.alphar T r (molefrac ρ)) r) (rhotot ρ) * rhotot ρ) 1 :=
    HasDerivAt.comp (h₂ := fun r => deriv (fun r => m.alphar T r (molefrac ρ)) r) 1
      (by rw [hoo]; exact hasDerivAt_dalphadrho h) hin
  have hR := ((hin.mul hb).add ha).const_mul (m.R (molefrac ρ) * T * rhotot ρ)
  have hR' := hR.congr_of_eventuallyEq hev
  rw [hL.unique hR', tdxAr_01', tdxAr_02', hoo]
  ring

end
end Teqp.Lemmas

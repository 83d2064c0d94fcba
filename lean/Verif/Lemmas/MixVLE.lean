import Verif.Spec.MixVLE
import Verif.Model.MixVLE
import Verif.Props.Isochoric
import Mathlib.Analysis.SpecialFunctions.Log.Deriv

/-! # Chemical potentials and pressure along curves in temperature and concentrations -/

set_option autoImplicit false

open Teqp.Calc Teqp.Model Teqp.Spec Teqp.Lemmas Filter Topology

namespace Teqp.MixVLE

variable {ι : Type} [Fintype ι] [DecidableEq ι] {m : EOS ι} {T R : ℝ} {ρ : ι → ℝ}

theorem mixMu_eq (h : SmoothAt m T ρ) (hR : ∀ x, m.R x = R) (i : ι) (hρ : 0 < ρ i) :
    mixMu m.alphar R T ρ i = gradPsir m T ρ i + R * T * Real.log (ρ i) := by
  have h1 : HasDerivAt (fun r => Psir m T (Function.update ρ i r)) (gradPsir m T ρ i) (ρ i) := by
    have := hasDerivAt_partial (differentiableAt_Psir h) i
    unfold gradPsir partialD
    rw [this.deriv]; exact this
  have h2 : HasDerivAt (fun r : ℝ => r * (Real.log r - 1)) (Real.log (ρ i)) (ρ i) := by
    have := (hasDerivAt_id (ρ i)).mul ((Real.hasDerivAt_log hρ.ne').sub_const 1)
    refine this.congr_deriv ?_
    simp only [id]
    field_simp
    ring
  have h3 : HasDerivAt (fun r => ∑ k, Function.update ρ i r k * (Real.log (Function.update ρ i r k) - 1))
      (Real.log (ρ i)) (ρ i) := by
    have : (fun r => ∑ k, Function.update ρ i r k * (Real.log (Function.update ρ i r k) - 1)) =
        fun r => r * (Real.log r - 1) + ∑ k ∈ Finset.univ.erase i, ρ k * (Real.log (ρ k) - 1) := by
      funext r
      rw [← Finset.add_sum_erase _ _ (Finset.mem_univ i)]
      congr 1
      · simp
      · refine Finset.sum_congr rfl fun k hk => ?_
        rw [Function.update_of_ne (Finset.ne_of_mem_erase hk)]
    rw [this]
    exact h2.add_const _
  unfold mixMu
  have e : (fun r => psiTotal m.alphar R T (Function.update ρ i r)) = fun r =>
      R * T * ∑ k, Function.update ρ i r k * (Real.log (Function.update ρ i r k) - 1) +
        Psir m T (Function.update ρ i r) := by
    funext r
    simp only [psiTotal, Psir, rhotot, hR]
    congr 1
    show _ = m.alphar T _ (fun i_1 => _) * R * T * _
    simp only [molefrac, rhotot]
    ring
  rw [e]
  refine (((h3.const_mul (R * T)).add h1).deriv).trans ?_
  ring

theorem mixP_eq (h : SmoothAt m T ρ) (hR : ∀ x, m.R x = R) :
    mixP m.alphar R T ρ = solverP m (R * T) T ρ := by
  have h1 := Props.pr_is_pressure m T ρ h
  have h2 := Props.pr_euler h
  simp only [hR] at h1
  unfold mixP totalPressure solverP
  have e : pressure (fun T' r => m.alphar T' r fun i => ρ i / ∑ k, ρ k) R T (∑ i, ρ i) = pr m T ρ := h1.symm
  rw [e, h2]
  unfold rhotot
  ring

omit [DecidableEq ι] in
/-- A joint curve: derivative in temperature plus derivative along the concentrations. -/
theorem joint_line {F : ℝ × (ι → ℝ) → ℝ} (hF : DifferentiableAt ℝ F (T, ρ)) {τ : ℝ → ℝ} {γ : ℝ → ι → ℝ} {τ' : ℝ}
    {v : ι → ℝ} {s a b : ℝ} (hτ : HasDerivAt τ τ' s) (hγ : HasDerivAt γ v s) (hτs : τ s = T) (hγs : γ s = ρ)
    (h1 : HasDerivAt (fun t => F (t, ρ)) a T) (h2 : HasDerivAt (fun u => F (T, γ u)) b s) :
    HasDerivAt (fun u => F (τ u, γ u)) (τ' * a + b) s := by
  have hD : HasFDerivAt F (fderiv ℝ F (T, ρ)) (τ s, γ s) := by rw [hτs, hγs]; exact hF.hasFDerivAt
  have hj := hD.comp_hasDerivAt s (hτ.prodMk hγ)
  have hp1 : HasDerivAt (fun t : ℝ => (t, ρ)) ((1 : ℝ), (0 : ι → ℝ)) T :=
    (hasDerivAt_id T).prodMk (hasDerivAt_const T ρ)
  have hp2 : HasDerivAt (fun u : ℝ => (T, γ u)) ((0 : ℝ), v) s := (hasDerivAt_const s T).prodMk hγ
  have e1 : fderiv ℝ F (T, ρ) (1, 0) = a :=
    (HasFDerivAt.comp_hasDerivAt (l := F) T hF.hasFDerivAt hp1).unique h1
  have hD2 : HasFDerivAt F (fderiv ℝ F (T, ρ)) (T, γ s) := by rw [hγs]; exact hF.hasFDerivAt
  have e2 : fderiv ℝ F (T, ρ) (0, v) = b := (HasFDerivAt.comp_hasDerivAt (l := F) s hD2 hp2).unique h2
  have e : ((τ', v) : ℝ × (ι → ℝ)) = τ' • ((1 : ℝ), (0 : ι → ℝ)) + ((0 : ℝ), v) := by simp
  rw [e, map_add, map_smul, e1, e2] at hj
  exact hj

theorem differentiableAt_gradPsir_joint (h : SmoothAt m T ρ) (i : ι) :
    DifferentiableAt ℝ (fun p : ℝ × (ι → ℝ) => gradPsir m p.1 p.2 i) (T, ρ) := by
  have hc := contDiffAt_Psir h
  have hf : ContDiffAt ℝ 1 (fderiv ℝ fun p : ℝ × (ι → ℝ) => Psir m p.1 p.2) (T, ρ) :=
    hc.fderiv_right (m := 1) (by norm_num)
  have hd : DifferentiableAt ℝ (fun q => fderiv ℝ (fun p : ℝ × (ι → ℝ) => Psir m p.1 p.2) q (0, Pi.single i 1)) (T, ρ) :=
    (hf.differentiableAt (by norm_num)).clm_apply (differentiableAt_const _)
  refine hd.congr_of_eventuallyEq ?_
  have h1 : ContDiffAt ℝ 1 (fun p : ℝ × (ι → ℝ) => Psir m p.1 p.2) (T, ρ) := hc.of_le (by norm_num)
  filter_upwards [h1.eventually (by simp)] with q hq
  have hq' := hq.differentiableAt (by norm_num)
  have hp : HasDerivAt (fun t : ℝ => (q.1, Function.update q.2 i t)) ((0 : ℝ), (Pi.single i 1 : ι → ℝ)) (q.2 i) :=
    (hasDerivAt_const _ q.1).prodMk (hasDerivAt_update q.2 i (q.2 i))
  have hD : HasFDerivAt (fun p : ℝ × (ι → ℝ) => Psir m p.1 p.2)
      (fderiv ℝ (fun p : ℝ × (ι → ℝ) => Psir m p.1 p.2) q) (q.1, Function.update q.2 i (q.2 i)) := by
    rw [Function.update_eq_self]; exact hq'.hasFDerivAt
  have := hD.comp_hasDerivAt (q.2 i) hp
  unfold gradPsir partialD
  exact this.deriv

section
variable {τ : ℝ → ℝ} {γ : ℝ → ι → ℝ} {τ' : ℝ} {v : ι → ℝ} {s : ℝ}

theorem grad_curve (h : SmoothAt m T ρ) (hτ : HasDerivAt τ τ' s) (hγ : HasDerivAt γ v s) (hτs : τ s = T)
    (hγs : γ s = ρ) (i : ι) :
    HasDerivAt (fun u => gradPsir m (τ u) (γ u) i)
      (τ' * d2PsirdTdrhoi m T ρ i + ∑ j, hessPsir m T ρ i j * v j) s :=
  joint_line (F := fun p : ℝ × (ι → ℝ) => gradPsir m p.1 p.2 i) (differentiableAt_gradPsir_joint h i) hτ hγ hτs hγs
    (hasDerivAt_gradPsir_T h i) (hasDerivAt_gradPsir_line h i hγ hγs)

theorem Psir_curve (h : SmoothAt m T ρ) (hτ : HasDerivAt τ τ' s) (hγ : HasDerivAt γ v s) (hτs : τ s = T)
    (hγs : γ s = ρ) :
    HasDerivAt (fun u => Psir m (τ u) (γ u)) (τ' * dPsirdT m T ρ + ∑ i, v i * gradPsir m T ρ i) s :=
  joint_line (F := fun p : ℝ × (ι → ℝ) => Psir m p.1 p.2) ((contDiffAt_Psir h).differentiableAt (by norm_num))
    hτ hγ hτs hγs (hasDerivAt_Psir_T h) (hasDerivAt_line (differentiableAt_Psir h) hγ hγs)

/-- The chemical potential along a curve. -/
theorem mu_curve (h : SmoothAt m T ρ) (hτ : HasDerivAt τ τ' s) (hγ : HasDerivAt γ v s) (hτs : τ s = T)
    (hγs : γ s = ρ) (R : ℝ) (i : ι) (hρ : 0 < ρ i) :
    HasDerivAt (fun u => gradPsir m (τ u) (γ u) i + R * τ u * Real.log (γ u i))
      (τ' * (d2PsirdTdrhoi m T ρ i + R * Real.log (ρ i)) + (∑ j, hessPsir m T ρ i j * v j + R * T / ρ i * v i)) s := by
  have hl : HasDerivAt (fun u => Real.log (γ u i)) (v i / γ s i) s :=
    (hasDerivAt_pi.1 hγ i).log (by rw [hγs]; exact hρ.ne')
  have h2 := (hτ.const_mul R).mul hl
  refine ((grad_curve h hτ hγ hτs hγs i).add h2).congr_deriv ?_
  rw [hτs, hγs]
  ring

/-- The solver's pressure along a curve. -/
theorem p_curve (h : SmoothAt m T ρ) (hR : ∀ x, m.R x = R) (hτ : HasDerivAt τ τ' s) (hγ : HasDerivAt γ v s)
    (hτs : τ s = T) (hγs : γ s = ρ) :
    HasDerivAt (fun u => solverP m (R * τ u) (τ u) (γ u))
      (τ' * dpdT m T ρ + ∑ j, solverDp m (R * T) T ρ j * v j) s := by
  have ht : HasDerivAt (fun u => rhotot (γ u)) (∑ i, v i) s := by
    unfold rhotot
    exact HasDerivAt.fun_sum fun i _ => hasDerivAt_pi.1 hγ i
  have hs : HasDerivAt (fun u => ∑ i, γ u i * gradPsir m (τ u) (γ u) i)
      (∑ i, (v i * gradPsir m T ρ i + ρ i * (τ' * d2PsirdTdrhoi m T ρ i + ∑ j, hessPsir m T ρ i j * v j))) s := by
    refine HasDerivAt.fun_sum fun i _ => ?_
    have := (hasDerivAt_pi.1 hγ i).mul (grad_curve h hτ hγ hτs hγs i)
    refine this.congr_deriv ?_
    rw [hτs, hγs]
  have := ((ht.mul (hτ.const_mul R)).sub (Psir_curve h hτ hγ hτs hγs)).add hs
  refine this.congr_deriv ?_
  rw [hτs, hγs]
  unfold dpdT solverDp
  rw [hR]
  have e1 : ∑ i, ρ i * ∑ j, hessPsir m T ρ i j * v j = ∑ j, (∑ k, hessPsir m T ρ j k * ρ k) * v j := by
    simp only [Finset.mul_sum, Finset.sum_mul]
    rw [Finset.sum_comm]
    refine Finset.sum_congr rfl fun j _ => Finset.sum_congr rfl fun i _ => ?_
    rw [(Props.hessPsi_symm h i j).1]
    ring
  have e2 : ∑ i, ρ i * (τ' * d2PsirdTdrhoi m T ρ i) = τ' * ∑ i, ρ i * d2PsirdTdrhoi m T ρ i := by
    rw [Finset.mul_sum]
    exact Finset.sum_congr rfl fun i _ => by ring
  simp only [mul_add, add_mul, Finset.sum_add_distrib, e1, e2]
  rw [← Finset.mul_sum]
  ring

end

end Teqp.MixVLE

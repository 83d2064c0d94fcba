import Verif.Lemmas.NewtonLocal
import Verif.Props.MixVLE

/-! # Newton's method near a regular zero, any number of unknowns -/

set_option autoImplicit false

namespace Teqp.Lemmas
open Teqp Teqp.Model Teqp.MixVLE Filter Topology

/-- No direction is annihilated. -/
def Inj {κ κ' : Type} [Fintype κ] (A : κ' → κ → ℝ) : Prop := ∀ v : κ → ℝ, (∀ e, ∑ j, A e j * v j = 0) → v = 0

/-- Near a regular zero: the Jacobian stays regular, a Newton step halves the error, and error and residual bound each other. -/
theorem newton_vec {κ κ' : Type} [Fintype κ] [Fintype κ'] {F : (κ → ℝ) → κ' → ℝ} {J : (κ → ℝ) → κ' → κ → ℝ} {p : κ → ℝ} {Q : (κ → ℝ) → Prop}
    (hF : ContDiffAt ℝ 1 F p) (h0 : F p = 0) (hJ : ∀ᶠ x in 𝓝 p, ∀ (v : κ → ℝ) (e : κ'), HasDerivAt (fun u : ℝ => F (x + u • v) e) (∑ j, J x e j * v j) 0)
    (hreg : Inj (J p)) (hQ : ∀ᶠ x in 𝓝 p, Q x) :
    ∃ δ > 0, ∃ K > 0, ∃ L > 0, ∀ x, ‖x - p‖ < δ → Q x ∧ Inj (J x) ∧ ‖F x‖ ≤ L * ‖x - p‖ ∧
      ∀ v, (∀ e, ∑ j, J x e j * v j = -F x e) → ‖x + v - p‖ ≤ 1 / 2 * ‖x - p‖ ∧ ‖x - p‖ ≤ K * ‖F x‖ := by
  have hdiff : ∀ᶠ r in 𝓝 p, DifferentiableAt ℝ F r := (hF.eventually (by norm_num)).mono fun r h => h.differentiableAt (by norm_num)
  have hfd : ∀ᶠ x in 𝓝 p, ∀ v, fderiv ℝ F x v = fun e => ∑ j, J x e j * v j := by
    filter_upwards [hJ, hdiff] with x h d v
    have g : HasDerivAt (fun u : ℝ => x + u • v) v 0 := by
      have h1 : HasDerivAt (fun u : ℝ => u • v) ((1 : ℝ) • v) 0 := (hasDerivAt_id (0 : ℝ)).smul_const v
      rw [one_smul] at h1
      exact h1.const_add x
    have hd : HasFDerivAt F (fderiv ℝ F x) (x + (0 : ℝ) • v) := by
      rw [zero_smul, add_zero]
      exact d.hasFDerivAt
    have h2 := hd.comp_hasDerivAt (f := fun u : ℝ => x + u • v) 0 g
    exact h2.unique (hasDerivAt_pi.2 fun e => h v e)
  have hker : LinearMap.ker (fderiv ℝ F p : (κ → ℝ) →ₗ[ℝ] (κ' → ℝ)) = ⊥ := by
    rw [LinearMap.ker_eq_bot']
    intro v hv
    refine hreg v fun e => ?_
    have := hfd.self_of_nhds v
    have hv' : fderiv ℝ F p v = 0 := hv
    rw [hv'] at this
    exact (congrFun this e).symm
  obtain ⟨K, hK, ha⟩ := LinearMap.exists_antilipschitzWith _ hker
  have hK' : (0 : ℝ) < K := hK
  have hl (w : κ → ℝ) : 1 / (K : ℝ) * ‖w‖ ≤ ‖fderiv ℝ F p w‖ := by
    have := ha.le_mul_dist w 0
    rw [dist_zero_right, map_zero, dist_zero_right] at this
    rw [one_div, inv_mul_le_iff₀ hK']
    exact this
  have hJc : ContinuousAt (fderiv ℝ F) p := (hF.fderiv_right (m := 0) (by norm_num)).continuousAt
  have hnear : ∀ᶠ x in 𝓝 p, ‖fderiv ℝ F x - fderiv ℝ F p‖ < 1 / (2 * (K : ℝ)) := by
    have := Metric.continuousAt_iff.1 hJc (1 / (2 * (K : ℝ))) (by positivity)
    obtain ⟨d, hd, h⟩ := this
    filter_upwards [Metric.ball_mem_nhds p hd] with x hx
    rw [← dist_eq_norm]
    exact h hx
  obtain ⟨L, hL, hlip⟩ := ((hF.differentiableAt (by norm_num)).hasFDerivAt.isBigO_sub).exists_pos
  have hnew := newton_local hF h0 (c := 1 / (K : ℝ)) (q := 1 / 2) (by positivity) hl (by norm_num)
  obtain ⟨δ, hδ, hb⟩ := Metric.eventually_nhds_iff.1 ((((hfd.and hnear).and hnew).and hlip.bound).and hQ)
  refine ⟨δ, hδ, 2 * (2 / (1 / (K : ℝ))), by positivity, L, hL, fun x hx => ?_⟩
  obtain ⟨⟨⟨⟨b1, b2⟩, b3⟩, b4⟩, b5⟩ := hb (y := x) (by rw [dist_eq_norm]; exact hx)
  rw [h0, sub_zero] at b4
  refine ⟨b5, fun v hv => ?_, b4, fun v hv => ?_⟩
  · have e : fderiv ℝ F x v = 0 := by
      rw [b1]
      funext e
      exact hv e
    by_contra hne
    have hpos : 0 < ‖v‖ := norm_pos_iff.2 hne
    have t1 : ‖fderiv ℝ F p v‖ ≤ ‖fderiv ℝ F x - fderiv ℝ F p‖ * ‖v‖ := by
      have : fderiv ℝ F p v = -((fderiv ℝ F x - fderiv ℝ F p) v) := by
        rw [ContinuousLinearMap.sub_apply, e]
        simp
      rw [this, norm_neg]
      exact ContinuousLinearMap.le_opNorm _ _
    have t2 := hl v
    have t3 : ‖fderiv ℝ F x - fderiv ℝ F p‖ * ‖v‖ < 1 / (2 * (K : ℝ)) * ‖v‖ := mul_lt_mul_of_pos_right b2 hpos
    have t4 : 1 / (2 * (K : ℝ)) * ‖v‖ ≤ 1 / (K : ℝ) * ‖v‖ := by
      refine mul_le_mul_of_nonneg_right ?_ hpos.le
      exact one_div_le_one_div_of_le hK' (by linarith)
    linarith
  · obtain ⟨g1, g2⟩ := b3 v (by
      rw [b1]
      funext e
      exact hv e)
    refine ⟨g1, ?_⟩
    have h3 : ‖x - p‖ ≤ ‖x + v - p‖ + ‖v‖ := by
      have : x - p = (x + v - p) - v := by abel
      rw [this]
      exact norm_sub_le _ _
    nlinarith [h3, g1, g2]

variable {ι : Type} [Fintype ι] [DecidableEq ι] {m : EOS ι} {T : ℝ} {ρ : ι → ℝ}

theorem contDiffAt_gradPsir_joint (h : SmoothAt m T ρ) (i : ι) :
    ContDiffAt ℝ 1 (fun p : ℝ × (ι → ℝ) => gradPsir m p.1 p.2 i) (T, ρ) := by
  have hc := contDiffAt_Psir h
  have hf : ContDiffAt ℝ 1 (fderiv ℝ fun p : ℝ × (ι → ℝ) => Psir m p.1 p.2) (T, ρ) :=
    hc.fderiv_right (m := 1) (by norm_num)
  have hd : ContDiffAt ℝ 1 (fun q => fderiv ℝ (fun p : ℝ × (ι → ℝ) => Psir m p.1 p.2) q (0, Pi.single i 1)) (T, ρ) :=
    hf.clm_apply contDiffAt_const
  refine hd.congr_of_eventuallyEq ?_
  have h1 : ContDiffAt ℝ 1 (fun p : ℝ × (ι → ℝ) => Psir m p.1 p.2) (T, ρ) := hc.of_le (by norm_num)
  filter_upwards [h1.eventually (by simp)] with q hq
  have hq' := hq.differentiableAt (by norm_num)
  have hp : HasDerivAt (fun t : ℝ => (q.1, Function.update q.2 i t)) ((0 : ℝ), (Pi.single i 1 : ι → ℝ)) (q.2 i) :=
    (hasDerivAt_const _ q.1).prodMk (hasDerivAt_update q.2 i (q.2 i))
  have hD : HasFDerivAt (fun p : ℝ × (ι → ℝ) => Psir m p.1 p.2)
      (fderiv ℝ (fun p : ℝ × (ι → ℝ) => Psir m p.1 p.2) q) (q.1, Function.update q.2 i (q.2 i)) := by
    rw [Function.update_eq_self]; exact hq'.hasFDerivAt
  have := hD.comp_hasDerivAt (q.2 i) hp
  unfold gradPsir Calc.partialD
  exact this.deriv

/-- The chemical potential is continuously differentiable. -/
theorem contDiffAt_mu (h : SmoothAt m T ρ) (R : ℝ) (i : ι) (hρ : 0 < ρ i) :
    ContDiffAt ℝ 1 (fun q : ℝ × (ι → ℝ) => gradPsir m q.1 q.2 i + R * q.1 * Real.log (q.2 i)) (T, ρ) := by
  have i1 : ContDiffAt ℝ 1 (fun q : ℝ × (ι → ℝ) => q.1) (T, ρ) := contDiffAt_fst
  have i2 : ContDiffAt ℝ 1 (fun q : ℝ × (ι → ℝ) => q.2 i) (T, ρ) := (contDiff_apply ℝ ℝ i).contDiffAt.comp (T, ρ) (f := fun q : ℝ × (ι → ℝ) => q.2) contDiffAt_snd
  exact (contDiffAt_gradPsir_joint h i).add ((contDiffAt_const.mul i1).mul (i2.log hρ.ne'))

/-- The pressure of the solvers is continuously differentiable. -/
theorem contDiffAt_solverP (h : SmoothAt m T ρ) (R : ℝ) :
    ContDiffAt ℝ 1 (fun q : ℝ × (ι → ℝ) => solverP m (R * q.1) q.1 q.2) (T, ρ) := by
  have i1 : ContDiffAt ℝ 1 (fun q : ℝ × (ι → ℝ) => q.1) (T, ρ) := contDiffAt_fst
  have i2 (i : ι) : ContDiffAt ℝ 1 (fun q : ℝ × (ι → ℝ) => q.2 i) (T, ρ) := (contDiff_apply ℝ ℝ i).contDiffAt.comp (T, ρ) (f := fun q : ℝ × (ι → ℝ) => q.2) contDiffAt_snd
  have i3 : ContDiffAt ℝ 1 (fun q : ℝ × (ι → ℝ) => rhotot q.2) (T, ρ) := contDiff_rhotot.contDiffAt.comp (T, ρ) (f := fun q : ℝ × (ι → ℝ) => q.2) contDiffAt_snd
  have i4 : ContDiffAt ℝ 1 (fun q : ℝ × (ι → ℝ) => ∑ i, q.2 i * gradPsir m q.1 q.2 i) (T, ρ) :=
    ContDiffAt.sum fun i _ => (i2 i).mul (contDiffAt_gradPsir_joint h i)
  exact ((i3.mul (contDiffAt_const.mul i1)).sub ((contDiffAt_Psir h).of_le (by norm_num))).add i4

theorem SmoothAt.eventually_joint (h : SmoothAt m T ρ) : ∀ᶠ q : ℝ × (ι → ℝ) in 𝓝 (T, ρ), SmoothAt m q.1 q.2 := by
  have c1 : ContinuousAt (fun q : ℝ × (ι → ℝ) => rhotot q.2) (T, ρ) :=
    (contDiff_rhotot (n := 1)).continuous.continuousAt.comp (f := fun q : ℝ × (ι → ℝ) => q.2) continuousAt_snd
  have c2 : ContinuousAt (fun q : ℝ × (ι → ℝ) => molefrac q.2) (T, ρ) :=
    ContinuousAt.comp (g := molefrac) (f := fun q : ℝ × (ι → ℝ) => q.2) (x := (T, ρ)) ((contDiffAt_molefrac (n := 1) h.tot).continuousAt) continuousAt_snd
  have c3 : ContinuousAt (fun q : ℝ × (ι → ℝ) => (q.1, rhotot q.2, molefrac q.2)) (T, ρ) := continuousAt_fst.prodMk (c1.prodMk c2)
  filter_upwards [c1.eventually_ne h.tot, c3.eventually (h.hα.eventually (by simp)), c2.eventually (h.hR.eventually (by simp))] with q a b c
  exact ⟨a, b, c⟩

end Teqp.Lemmas

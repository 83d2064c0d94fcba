import Verif.Props.LowDensity
import Verif.Props.PCSAFT

/-! # PC-SAFT is an ideal gas at low density (C165) -/

set_option autoImplicit false

namespace Teqp.Props
open Teqp.Model Teqp.Spec Filter Topology Finset

variable {ι : Type} [Fintype ι]

theorem line_slope (c : ℝ) : HasDerivAt (fun r : ℝ => c * r) c 0 := by simpa using (hasDerivAt_id (0 : ℝ)).const_mul c

theorem hsZero_slope (D0 D1 D2 D3 : ℝ) (h0 : D0 ≠ 0) (h3 : D3 ≠ 0) :
    HasDerivAt (fun r => hsZero D0 D1 D2 D3 (D2 * r) (D3 * r)) (D3 + 3 * D1 * D2 / D0) 0 := by
  unfold hsZero
  have hU : HasDerivAt (fun r : ℝ => 1 - D3 * r) (-D3) 0 := (line_slope D3).const_sub 1
  have hz := line_slope D2
  have hL : HasDerivAt (fun r : ℝ => Real.log (1 - D3 * r)) (-D3) 0 := (hU.log (by simp)).congr_deriv (by simp)
  have a := (hz.const_mul (3 * D1 / D0)).div hU (by simp)
  have b := (hz.const_mul (D2 * D2)).div (((hU.const_mul (D3 * D0)).mul hU)) (by simp [h0, h3])
  have := ((a.add b).sub hL).add (hL.const_mul ((D2 * D2 * D2) / (D3 * D3 * D0)))
  refine this.congr_deriv ?_
  simp
  field_simp
  ring

theorem pcG_slope (D2 D3 d : ℝ) : HasDerivAt (fun r : ℝ => pcG (fun n => if n = 2 then D2 * r else D3 * r) d d) (D3 + d * d / (d + d) * 3 * D2) 0 := by
  unfold pcG
  simp only [if_true, show (3 : ℕ) ≠ 2 by decide, if_false]
  have hU : HasDerivAt (fun r : ℝ => 1 - D3 * r) (-D3) 0 := (line_slope D3).const_sub 1
  have hz := line_slope D2
  have a := (hasDerivAt_const (0 : ℝ) (1 : ℝ)).div hU (by simp)
  have b := (hz.const_mul (d * d / (d + d) * 3)).div (hU.fun_pow 2) (by simp)
  have c := ((hz.const_mul ((d * d / (d + d)) ^ 2 * 2)).mul hz).div (hU.fun_pow 3) (by simp)
  refine ((a.add b).add c).congr_deriv ?_
  simp

theorem pcC1_zero (mbar : ℝ) : pcC1 0 mbar = 1 := by simp [pcC1]

theorem pcC1_cont (D3 mbar : ℝ) : ContinuousAt (fun r : ℝ => pcC1 (D3 * r) mbar) 0 := by
  unfold pcC1
  refine ContinuousAt.div continuousAt_const ?_ (by simp)
  refine ContinuousAt.add (ContinuousAt.add continuousAt_const ?_) ?_
  · exact ContinuousAt.div (by fun_prop) (by fun_prop) (by simp)
  · exact ContinuousAt.div (by fun_prop) (by fun_prop) (by norm_num)

theorem hasDerivAt_mul_self_zero (g : ℝ → ℝ) (hg : ContinuousAt g 0) : HasDerivAt (fun r => r * g r) (g 0) 0 := by
  rw [hasDerivAt_iff_tendsto_slope]
  refine (hg.tendsto.mono_left nhdsWithin_le_nhds).congr' ?_
  filter_upwards [self_mem_nhdsWithin] with r hr
  have : r ≠ 0 := hr
  simp [slope, this]

/-- The second virial coefficient of PC-SAFT per cubic Angstrom: the hard spheres' share in every segment, the contact values of the chains, and the two terms of the dispersion. -/
noncomputable def pcVirial (p : PCParams ι) (T : ℝ) (x : ι → ℝ) : ℝ :=
  pcMbar p x * (pcD p T x 3 + 3 * pcD p T x 1 * pcD p T x 2 / pcD p T x 0)
  - ∑ i, x i * (p.m i - 1) * (pcD p T x 3 + 3 / 2 * pcDiam (p.sigma i) (p.eps i) T * pcD p T x 2)
  - 2 * Real.pi * (p.a 0 0 + (pcMbar p x - 1) / pcMbar p x * p.a 1 0 + (pcMbar p x - 1) / pcMbar p x * ((pcMbar p x - 2) / pcMbar p x) * p.a 2 0) * pcMix p T x 1
  - Real.pi * pcMbar p x * (p.b 0 0 + (pcMbar p x - 1) / pcMbar p x * p.b 1 0 + (pcMbar p x - 1) / pcMbar p x * ((pcMbar p x - 2) / pcMbar p x) * p.b 2 0) * pcMix p T x 2

theorem pcI_cont (c : Fin 3 → Fin 7 → ℝ) (mbar D3 : ℝ) : ContinuousAt (fun r : ℝ => pcI c mbar (D3 * r)) 0 := by
  unfold pcI
  fun_prop

theorem pcI_zero (c : Fin 3 → Fin 7 → ℝ) (mbar : ℝ) :
    pcI c mbar 0 = c 0 0 + (mbar - 1) / mbar * c 1 0 + (mbar - 1) / mbar * ((mbar - 2) / mbar) * c 2 0 := by
  simp [pcI, Fin.sum_univ_succ]

theorem pc_slope (p : PCParams ι) (T : ℝ) (x : ι → ℝ) (h : PCPhysical p T x) :
    HasDerivAt (fun r => (pcEval p T r x).hc + (pcEval p T r x).disp) (pcVirial p T x) 0 := by
  have hD := pcD_pos h
  have hd : ∀ i, 0 < pcDiam (p.sigma i) (p.eps i) T := fun i => pcDiam_pos h.hT (h.hsigma i) (h.heps i)
  have hhs : HasDerivAt (fun r => pcHS (pcD p T x) (fun n => pcD p T x n * r)) (pcD p T x 3 + 3 * pcD p T x 1 * pcD p T x 2 / pcD p T x 0) 0 := by
    refine (hsZero_slope _ _ _ _ (hD 0).ne' (hD 3).ne').congr_of_eventuallyEq ?_
    have : ∀ᶠ r : ℝ in 𝓝 0, 0 < 1 - pcD p T x 3 * r :=
      (by fun_prop : ContinuousAt (fun r : ℝ => 1 - pcD p T x 3 * r) 0).eventually_const_lt (by simp)
    filter_upwards [this] with r hr
    exact pcHS_eq _ r (hD 0).ne' (hD 3).ne' hr.ne'
  have hg (i : ι) : HasDerivAt (fun r => Real.log (pcG (fun n => pcD p T x n * r) (pcDiam (p.sigma i) (p.eps i) T) (pcDiam (p.sigma i) (p.eps i) T)))
      (pcD p T x 3 + 3 / 2 * pcDiam (p.sigma i) (p.eps i) T * pcD p T x 2) 0 := by
    have h1 := pcG_slope (pcD p T x 2) (pcD p T x 3) (pcDiam (p.sigma i) (p.eps i) T)
    have h0 : pcG (fun n => if n = 2 then pcD p T x 2 * 0 else pcD p T x 3 * 0) (pcDiam (p.sigma i) (p.eps i) T) (pcDiam (p.sigma i) (p.eps i) T) = 1 := by
      simp [pcG]
    have h2 := h1.log (by rw [h0]; norm_num)
    refine (h2.congr_of_eventuallyEq (.of_forall fun r => ?_)).congr_deriv ?_
    · simp [pcG]
    · rw [h0, div_one]
      have := (hd i).ne'
      field_simp
      ring
  have hhc : HasDerivAt (fun r => (pcEval p T r x).hc) _ 0 := (hhs.const_mul (pcMbar p x)).sub (HasDerivAt.fun_sum (u := univ) fun i _ => (hg i).const_mul (x i * (p.m i - 1)))
  have hI := hasDerivAt_mul_self_zero _ (pcI_cont p.a (pcMbar p x) (pcD p T x 3))
  have hJ := hasDerivAt_mul_self_zero _ ((pcC1_cont (pcD p T x 3) (pcMbar p x)).mul (pcI_cont p.b (pcMbar p x) (pcD p T x 3)))
  simp only [mul_zero, Pi.mul_apply, pcC1_zero, one_mul] at hI hJ
  have hdisp : HasDerivAt (fun r => (pcEval p T r x).disp) (-2 * Real.pi * pcMix p T x 1 * pcI p.a (pcMbar p x) 0
      - Real.pi * pcMbar p x * pcMix p T x 2 * pcI p.b (pcMbar p x) 0) 0 := by
    refine ((hI.const_mul (-2 * Real.pi * pcMix p T x 1)).sub (hJ.const_mul (Real.pi * pcMbar p x * pcMix p T x 2))).congr_of_eventuallyEq (.of_forall fun r => ?_)
    simp only [pcEval, Pi.sub_apply]
    ring
  refine (hhc.add hdisp).congr_deriv ?_
  rw [pcI_zero, pcI_zero]
  unfold pcVirial
  ring

/-- **PC-SAFT mixtures without moments**: from the constructed model, for parameters and a composition that are physical. -/
theorem pcsaft_virial (dip quad : ℝ → ℝ → ℝ → List ℝ → Outcome ℝ) (NA : ℝ) (mx : PCMixture) (T : ℝ) (x : List ℝ) (hdip : ¬ mx.hasDipole) (hquad : ¬ mx.hasQuadrupole)
    (hl : x.length = mx.coeffs.length) (hp : PCPhysical mx.params T fun i => x.getD i 0) (hNA : 0 < NA) :
    HasVirial (fun r => mx.alphar dip quad NA T r x) (pcVirial mx.params T (fun i => x.getD i 0) * (NA * 1e-30)) := by
  have key : HasVirial (fun s => if 1 ≤ pcD mx.params T (fun i => x.getD i 0) 3 * s then .nonFinite else
      .ok ((pcEval mx.params T s fun i => x.getD i 0).hc + (pcEval mx.params T s fun i => x.getD i 0).disp)) (pcVirial mx.params T fun i => x.getD i 0) := by
    refine hasVirial_of _ ?_ (by rw [(pc_zero _ _ _).1, (pc_zero _ _ _).2, add_zero]) (pc_slope mx.params T _ hp)
    have : ∀ᶠ s : ℝ in 𝓝 0, pcD mx.params T (fun i => x.getD i 0) 3 * s < 1 :=
      (by fun_prop : ContinuousAt (fun s : ℝ => pcD mx.params T (fun i => x.getD i 0) 3 * s) 0).eventually_lt_const (by simp)
    filter_upwards [this] with s hs
    rw [if_neg (not_le.mpr hs)]
  have hc : 0 < NA * 1e-30 := by positivity
  obtain ⟨f, hf, h0, hd⟩ := hasVirial_scale hc.le key
  refine ⟨f, ?_, h0, hd⟩
  have hsm : ∀ᶠ r : ℝ in 𝓝[≥] 0, pcD mx.params T (fun i => x.getD i 0) 3 * (r * NA * 1e-30) < 1 := nhdsGE_of
    ((by fun_prop : ContinuousAt (fun r : ℝ => pcD mx.params T (fun i => x.getD i 0) 3 * (r * NA * 1e-30)) 0).eventually_lt_const (by simp))
  filter_upwards [hf, hsm, self_mem_nhdsWithin] with r hr hs hr0
  have hr0' : (0 : ℝ) ≤ r := hr0
  have hreg := pc_regular mx.params T (r * NA * 1e-30) (fun i => x.getD i 0) hp (by positivity) hs
  rw [show r * (NA * 1e-30) = r * NA * 1e-30 by ring, if_neg (not_le.mpr hs)] at hr
  rw [← hr, PCMixture.alphar, if_neg (not_not.mpr hl)]
  simp only
  rw [if_neg (not_not.mpr hreg), if_neg hdip, if_neg hquad]
  simp

/-- Methane at 300 K meets the hypotheses. -/
example : PCPhysical (⟨[{ name := "Methane", m := 1, sigma := 3.7039, eps := 150.03 }], ⟨1, fun _ _ => 0⟩, gsA, gsB⟩ : PCMixture).params 300 (fun i => [1].getD i 0) := by
  refine ⟨by norm_num, fun i => ?_, fun i => ?_, fun i => ?_, fun i => ?_, ?_⟩
  · simp [PCMixture.params]
  · simp [PCMixture.params]; norm_num
  · simp [PCMixture.params]; norm_num
  · have h1 := i.2
    simp only [List.length_cons, List.length_nil] at h1
    have : (i : ℕ) = 0 := by omega
    simp [this]
  · simp

end Teqp.Props

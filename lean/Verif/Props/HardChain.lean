import Verif.Props.HardSphere
import Verif.Model.Virial
import Verif.Props.LowDensitySAFT

/-! # C179: hard chains, second virial coefficient and Boyle temperature of PC-SAFT -/

set_option autoImplicit false

namespace Teqp.Props
open Teqp Teqp.Model Teqp.Spec Finset

variable {ι : Type} [Fintype ι]

/-- The slope of the hard-chain term with density. -/
noncomputable def hcSlope (p : PCParams ι) (T : ℝ) (x : ι → ℝ) (r : ℝ) : ℝ :=
  pcMbar p x * (pcD p T x 3 / (1 - pcD p T x 3 * r) + 3 * pcD p T x 1 * pcD p T x 2 / pcD p T x 0 / (1 - pcD p T x 3 * r) ^ 2 +
      pcD p T x 2 ^ 3 * r * (3 - pcD p T x 3 * r) / pcD p T x 0 / (1 - pcD p T x 3 * r) ^ 3) -
    ∑ i, x i * (p.m i - 1) * (pcD p T x 3 / (1 - pcD p T x 3 * r) + pcDiam (p.sigma i) (p.eps i) T * pcD p T x 2 / (2 * (1 - pcD p T x 3 * r) ^ 2) *
      (1 / (1 + pcDiam (p.sigma i) (p.eps i) T * (pcD p T x 2 * r) / (2 * (1 - pcD p T x 3 * r))) +
        2 / (1 + 2 * (pcDiam (p.sigma i) (p.eps i) T * (pcD p T x 2 * r) / (2 * (1 - pcD p T x 3 * r))))))

/-- The contact value of two equal spheres is a product. -/
theorem pcG_self {D2 D3 d r : ℝ} (hd : 0 < d) (hu : 0 < 1 - D3 * r) (z : ℕ → ℝ) (h2 : z 2 = D2 * r) (h3 : z 3 = D3 * r) :
    pcG z d d = 1 / (1 - D3 * r) * ((1 + d * (D2 * r) / (2 * (1 - D3 * r))) * (1 + 2 * (d * (D2 * r) / (2 * (1 - D3 * r))))) := by
  unfold pcG
  simp only [h2, h3]
  have := hu.ne'
  generalize 1 - D3 * r = U at *
  field_simp
  ring

theorem hasDerivAt_logG {D2 D3 d r : ℝ} (hd : 0 < d) (h2 : 0 < D2) (hr : 0 ≤ r) (hu : 0 < 1 - D3 * r) :
    HasDerivAt (fun r => Real.log (1 / (1 - D3 * r) * ((1 + d * (D2 * r) / (2 * (1 - D3 * r))) * (1 + 2 * (d * (D2 * r) / (2 * (1 - D3 * r)))))))
      (D3 / (1 - D3 * r) + d * D2 / (2 * (1 - D3 * r) ^ 2) * (1 / (1 + d * (D2 * r) / (2 * (1 - D3 * r))) + 2 / (1 + 2 * (d * (D2 * r) / (2 * (1 - D3 * r)))))) r := by
  have hU : HasDerivAt (fun r : ℝ => 1 - D3 * r) (-D3) r := by
    simpa using ((hasDerivAt_id r).const_mul D3).const_sub 1
  have hz : HasDerivAt (fun r : ℝ => d * (D2 * r)) (d * D2) r := by simpa using ((hasDerivAt_id r).const_mul D2).const_mul d
  have hq : HasDerivAt (fun r : ℝ => d * (D2 * r) / (2 * (1 - D3 * r))) (d * D2 / (2 * (1 - D3 * r) ^ 2)) r := by
    refine (hz.div (hU.const_mul 2) (by positivity)).congr_deriv ?_
    have := hu.ne'
    field_simp
    ring
  have hq0 : 0 ≤ d * (D2 * r) / (2 * (1 - D3 * r)) := by positivity
  have ha : HasDerivAt (fun r : ℝ => 1 + d * (D2 * r) / (2 * (1 - D3 * r))) (d * D2 / (2 * (1 - D3 * r) ^ 2)) r := hq.const_add 1
  have hb : HasDerivAt (fun r : ℝ => 1 + 2 * (d * (D2 * r) / (2 * (1 - D3 * r)))) (2 * (d * D2 / (2 * (1 - D3 * r) ^ 2))) r := (hq.const_mul 2).const_add 1
  have hpos : ∀ᶠ s in nhds r, 0 < 1 - D3 * s ∧ 0 < 1 + d * (D2 * s) / (2 * (1 - D3 * s)) ∧ 0 < 1 + 2 * (d * (D2 * s) / (2 * (1 - D3 * s))) :=
    (hU.continuousAt.eventually (lt_mem_nhds hu)).and ((ha.continuousAt.eventually (lt_mem_nhds (by positivity))).and (hb.continuousAt.eventually (lt_mem_nhds (by positivity))))
  have hl := (((ha.log (by positivity)).add (hb.log (by positivity))).sub (hU.log hu.ne'))
  refine (hl.congr_of_eventuallyEq ?_).congr_deriv ?_
  · filter_upwards [hpos] with s hs
    obtain ⟨h1, h2, h3⟩ := hs
    rw [Real.log_mul (by positivity) (by positivity), Real.log_mul h2.ne' h3.ne', one_div, Real.log_inv]
    simp only [Pi.add_apply, Pi.sub_apply]
    ring
  · generalize d * (D2 * r) / (2 * (1 - D3 * r)) = q at *
    ring

/-- The derivative of the hard-chain term. -/
theorem hasDerivAt_hc {p : PCParams ι} {T r : ℝ} {x : ι → ℝ} (h : PCPhysical p T x) (h0 : 0 ≤ r) (hr : pcD p T x 3 * r < 1) :
    HasDerivAt (fun r => (pcEval p T r x).hc) (hcSlope p T x r) r := by
  have hD := pcD_pos h
  have hu : 0 < 1 - pcD p T x 3 * r := by linarith
  have hd : ∀ i, 0 < pcDiam (p.sigma i) (p.eps i) T := fun i => pcDiam_pos h.hT (h.hsigma i) (h.heps i)
  have hev : ∀ᶠ s in nhds r, 0 < 1 - pcD p T x 3 * s := by
    have : ContinuousAt (fun r => 1 - pcD p T x 3 * r) r := by fun_prop
    exact this.eventually (lt_mem_nhds hu)
  have h1 := (hasDerivAt_hsZero (D1 := pcD p T x 1) (D2 := pcD p T x 2) (hD 0).ne' (hD 3).ne' hu).const_mul (pcMbar p x)
  have h2 : HasDerivAt (fun r => ∑ i, x i * (p.m i - 1) * Real.log (1 / (1 - pcD p T x 3 * r) *
      ((1 + pcDiam (p.sigma i) (p.eps i) T * (pcD p T x 2 * r) / (2 * (1 - pcD p T x 3 * r))) *
        (1 + 2 * (pcDiam (p.sigma i) (p.eps i) T * (pcD p T x 2 * r) / (2 * (1 - pcD p T x 3 * r))))))) _ r :=
    HasDerivAt.fun_sum fun i _ => (hasDerivAt_logG (hd i) (hD 2) h0 hu).const_mul (x i * (p.m i - 1))
  refine (h1.sub h2).congr_of_eventuallyEq ?_
  filter_upwards [hev] with s hs
  simp only [pcEval, Pi.sub_apply]
  rw [pcHS_eq _ s (hD 0).ne' (hD 3).ne' hs.ne']
  congr 1
  refine sum_congr rfl fun i _ => ?_
  rw [pcG_self (D2 := pcD p T x 2) (D3 := pcD p T x 3) (r := s) (hd i) hs _ rfl rfl]

theorem hcSlope_lower {p : PCParams ι} {T r : ℝ} {x : ι → ℝ} (h : PCPhysical p T x) (h0 : 0 ≤ r) (hr : pcD p T x 3 * r < 1) :
    9 / Real.pi * pcD p T x 1 * pcD p T x 2 / (1 - pcD p T x 3 * r) ^ 2 ≤ hcSlope p T x r := by
  have hD := pcD_pos h
  have hu : 0 < 1 - pcD p T x 3 * r := by linarith
  have hd : ∀ i, 0 < pcDiam (p.sigma i) (p.eps i) T := fun i => pcDiam_pos h.hT (h.hsigma i) (h.heps i)
  have hpi := Real.pi_pos
  have hM0 : pcD p T x 0 = Real.pi / 6 * pcMbar p x := by simp [pcD, pcMbar]
  have hmb : 0 < pcMbar p x := by linarith [pcMbar_ge h]
  have h2 := hD 2
  have h3 := hD 3
  have hterm : ∀ i, x i * (p.m i - 1) * (pcD p T x 3 / (1 - pcD p T x 3 * r) + pcDiam (p.sigma i) (p.eps i) T * pcD p T x 2 / (2 * (1 - pcD p T x 3 * r) ^ 2) *
      (1 / (1 + pcDiam (p.sigma i) (p.eps i) T * (pcD p T x 2 * r) / (2 * (1 - pcD p T x 3 * r))) +
        2 / (1 + 2 * (pcDiam (p.sigma i) (p.eps i) T * (pcD p T x 2 * r) / (2 * (1 - pcD p T x 3 * r)))))) ≤
      x i * p.m i * (pcD p T x 3 / (1 - pcD p T x 3 * r)) + x i * p.m i * pcDiam (p.sigma i) (p.eps i) T ^ 1 * (3 * pcD p T x 2 / (2 * (1 - pcD p T x 3 * r) ^ 2)) := by
    intro i
    have hdi := hd i
    have hxi := h.hx i
    have hmi := h.hm i
    have hq : 0 ≤ pcDiam (p.sigma i) (p.eps i) T * (pcD p T x 2 * r) / (2 * (1 - pcD p T x 3 * r)) := by positivity
    generalize pcDiam (p.sigma i) (p.eps i) T * (pcD p T x 2 * r) / (2 * (1 - pcD p T x 3 * r)) = q at *
    have e1 : 1 / (1 + q) ≤ 1 := (div_le_one (by linarith)).2 (by linarith)
    have e2 : 2 / (1 + 2 * q) ≤ 2 := (div_le_iff₀ (by linarith)).2 (by linarith)
    have hA : 0 ≤ pcDiam (p.sigma i) (p.eps i) T * pcD p T x 2 / (2 * (1 - pcD p T x 3 * r) ^ 2) := by positivity
    have hB : 0 ≤ pcD p T x 3 / (1 - pcD p T x 3 * r) := by positivity
    have e3 : pcD p T x 3 / (1 - pcD p T x 3 * r) + pcDiam (p.sigma i) (p.eps i) T * pcD p T x 2 / (2 * (1 - pcD p T x 3 * r) ^ 2) * (1 / (1 + q) + 2 / (1 + 2 * q)) ≤
        pcD p T x 3 / (1 - pcD p T x 3 * r) + pcDiam (p.sigma i) (p.eps i) T * pcD p T x 2 / (2 * (1 - pcD p T x 3 * r) ^ 2) * 3 := by
      have := mul_le_mul_of_nonneg_left (add_le_add e1 e2) hA
      linarith
    calc _ ≤ x i * p.m i * (pcD p T x 3 / (1 - pcD p T x 3 * r) + pcDiam (p.sigma i) (p.eps i) T * pcD p T x 2 / (2 * (1 - pcD p T x 3 * r) ^ 2) * 3) := by
          refine mul_le_mul (mul_le_mul_of_nonneg_left (by linarith) hxi) e3 ?_ (mul_nonneg hxi (by linarith))
          have e4 : 0 ≤ 1 / (1 + q) + 2 / (1 + 2 * q) := by positivity
          have := mul_nonneg hA e4
          linarith
      _ = _ := by ring
  have hs := Finset.sum_le_sum fun i (_ : i ∈ Finset.univ) => hterm i
  rw [Finset.sum_add_distrib, ← Finset.sum_mul, ← Finset.sum_mul] at hs
  have hM1 : ∑ i, x i * p.m i * pcDiam (p.sigma i) (p.eps i) T ^ 1 = 6 / Real.pi * pcD p T x 1 := by
    unfold pcD
    field_simp
  rw [hM1, show ∑ i, x i * p.m i = pcMbar p x from rfl] at hs
  have hthird : 0 ≤ pcMbar p x * (pcD p T x 2 ^ 3 * r * (3 - pcD p T x 3 * r) / pcD p T x 0 / (1 - pcD p T x 3 * r) ^ 3) := by
    have h0' := hD 0
    have : 0 < 3 - pcD p T x 3 * r := by linarith
    positivity
  have hsec : pcMbar p x * (3 * pcD p T x 1 * pcD p T x 2 / pcD p T x 0 / (1 - pcD p T x 3 * r) ^ 2) =
      2 * (9 / Real.pi * pcD p T x 1 * pcD p T x 2 / (1 - pcD p T x 3 * r) ^ 2) := by
    rw [hM0]
    have := hu.ne'
    field_simp
    ring
  have hlast : 6 / Real.pi * pcD p T x 1 * (3 * pcD p T x 2 / (2 * (1 - pcD p T x 3 * r) ^ 2)) = 9 / Real.pi * pcD p T x 1 * pcD p T x 2 / (1 - pcD p T x 3 * r) ^ 2 := by
    have := hu.ne'
    field_simp
    ring
  unfold hcSlope
  rw [mul_add, mul_add, hsec]
  rw [hlast] at hs
  linarith

/-- **C179** Hard chains repel: in every mixture with physical parameters the hard-chain term increases with density at every packing fraction below one, at least as fast as
`(9/π) D₁ D₂ / (1 - η)²`; it starts from zero and diverges at packing fraction one. -/
theorem pc_hc_repels {p : PCParams ι} {T : ℝ} {x : ι → ℝ} (h : PCPhysical p T x) :
    (∀ r, 0 ≤ r → pcD p T x 3 * r < 1 → 9 / Real.pi * pcD p T x 1 * pcD p T x 2 / (1 - pcD p T x 3 * r) ^ 2 ≤ deriv (fun r => (pcEval p T r x).hc) r ∧
      0 < deriv (fun r => (pcEval p T r x).hc) r) ∧
    StrictMonoOn (fun r => (pcEval p T r x).hc) {r | 0 ≤ r ∧ pcD p T x 3 * r < 1} ∧ (pcEval p T 0 x).hc = 0 ∧
    ∀ r, 0 ≤ r → pcD p T x 3 * r < 1 → 9 / Real.pi * pcD p T x 1 * pcD p T x 2 * r / (1 - pcD p T x 3 * r) ≤ (pcEval p T r x).hc := by
  have hD := pcD_pos h
  have hset : {r : ℝ | 0 ≤ r ∧ pcD p T x 3 * r < 1} = Set.Ico 0 (1 / pcD p T x 3) := by
    ext r
    simp only [Set.mem_setOf_eq, Set.mem_Ico, lt_div_iff₀ (hD 3)]
    rw [mul_comm]
  have hA : ∀ r, 0 ≤ r → pcD p T x 3 * r < 1 → 9 / Real.pi * pcD p T x 1 * pcD p T x 2 / (1 - pcD p T x 3 * r) ^ 2 ≤ deriv (fun r => (pcEval p T r x).hc) r ∧
      0 < deriv (fun r => (pcEval p T r x).hc) r := by
    intro r h0 h1
    have hl := hcSlope_lower h h0 h1
    rw [(hasDerivAt_hc h h0 h1).deriv]
    refine ⟨hl, lt_of_lt_of_le ?_ hl⟩
    have h1' := hD 1
    have h2' := hD 2
    have hu : 0 < 1 - pcD p T x 3 * r := by linarith
    have := Real.pi_pos
    positivity
  have hin : ∀ r ∈ interior (Set.Ico 0 (1 / pcD p T x 3)), 0 ≤ r ∧ pcD p T x 3 * r < 1 := by
    intro r hr
    have := interior_subset hr
    rw [← hset] at this
    exact this
  refine ⟨hA, ?_, (pc_zero p T x).1, ?_⟩
  · rw [hset]
    refine strictMonoOn_of_deriv_pos (convex_Ico _ _) (fun r hr => ?_) fun r hr => (hA r (hin r hr).1 (hin r hr).2).2
    rw [← hset] at hr
    exact (hasDerivAt_hc h hr.1 hr.2).continuousAt.continuousWithinAt
  · intro r h0 h1
    have hq : ∀ r, pcD p T x 3 * r < 1 → HasDerivAt (fun r : ℝ => 9 / Real.pi * pcD p T x 1 * pcD p T x 2 * r / (1 - pcD p T x 3 * r))
        (9 / Real.pi * pcD p T x 1 * pcD p T x 2 / (1 - pcD p T x 3 * r) ^ 2) r := by
      intro r h1
      have hu : 1 - pcD p T x 3 * r ≠ 0 := by linarith
      have hU : HasDerivAt (fun r : ℝ => 1 - pcD p T x 3 * r) (-pcD p T x 3) r := by
        simpa using ((hasDerivAt_id r).const_mul (pcD p T x 3)).const_sub 1
      refine (((hasDerivAt_id r).const_mul (9 / Real.pi * pcD p T x 1 * pcD p T x 2)).div hU hu).congr_deriv ?_
      simp only [id]
      congr 1
      ring
    have hmono : MonotoneOn (fun r => (pcEval p T r x).hc - 9 / Real.pi * pcD p T x 1 * pcD p T x 2 * r / (1 - pcD p T x 3 * r)) (Set.Ico 0 (1 / pcD p T x 3)) := by
      refine monotoneOn_of_deriv_nonneg (convex_Ico _ _) (fun r hr => ?_) (fun r hr => ?_) fun r hr => ?_
      · rw [← hset] at hr
        exact ((hasDerivAt_hc h hr.1 hr.2).sub (hq r hr.2)).continuousAt.continuousWithinAt
      · exact ((hasDerivAt_hc h (hin r hr).1 (hin r hr).2).sub (hq r (hin r hr).2)).differentiableAt.differentiableWithinAt
      · have hd := ((hasDerivAt_hc h (hin r hr).1 (hin r hr).2).sub (hq r (hin r hr).2)).deriv
        refine le_of_le_of_eq ?_ hd.symm
        linarith [hcSlope_lower h (hin r hr).1 (hin r hr).2]
    have hm0 : (0 : ℝ) ∈ Set.Ico 0 (1 / pcD p T x 3) := by rw [← hset]; simp
    have hmr : r ∈ Set.Ico 0 (1 / pcD p T x 3) := by rw [← hset]; exact ⟨h0, h1⟩
    have := hmono hm0 hmr h0
    simp only [(pc_zero p T x).1] at this
    simp only [mul_zero, zero_div, sub_zero] at this
    linarith

/-- Spheres and dimers at packing fraction one half: the term is at least `(9/π) D₁ D₂ / D₃`. -/
example : ∃ r, 0 < r ∧ pcD spheresAndDimers 300 ![1 / 4, 3 / 4] 3 * r = 1 / 2 ∧ 0 < (pcEval spheresAndDimers 300 r ![1 / 4, 3 / 4]).hc := by
  have h := spheresAndDimers_physical
  have hp := packing_reachable h (y := 1 / 2)
  have hr : 0 < 1 / 2 / pcD spheresAndDimers 300 ![1 / 4, 3 / 4] 3 := div_pos (by norm_num) (pcD_pos h 3)
  refine ⟨_, hr, hp, lt_of_lt_of_le ?_ ((pc_hc_repels h).2.2.2 _ hr.le (by rw [hp]; norm_num))⟩
  rw [hp]
  have h1 := pcD_pos h 1
  have h2 := pcD_pos h 2
  have := Real.pi_pos
  have h3 := pcD_pos h 3
  have hU : (0 : ℝ) < 1 - 1 / 2 := by norm_num
  positivity

/-! ## The second virial coefficient -/

/-- The residual Helmholtz energy without polar terms as a function of the molar density (`pcsaft.hpp` lines 433-452). -/
noncomputable def pcMolar (p : PCParams ι) (NA : ℝ) (x : ι → ℝ) (T rho : ℝ) : ℝ :=
  (pcEval p T (rho * NA * 1e-30) x).hc + (pcEval p T (rho * NA * 1e-30) x).disp

/-- Hard-chain part of the second virial coefficient, per cubic Angstrom. -/
noncomputable def hcB2 (p : PCParams ι) (x : ι → ℝ) (T : ℝ) : ℝ :=
  pcMbar p x * (pcD p T x 3 + 3 * pcD p T x 1 * pcD p T x 2 / pcD p T x 0) -
    ∑ i, x i * (p.m i - 1) * (pcD p T x 3 + 3 / 2 * pcDiam (p.sigma i) (p.eps i) T * pcD p T x 2)

theorem hcSlope_zero (p : PCParams ι) (T : ℝ) (x : ι → ℝ) : hcSlope p T x 0 = hcB2 p x T := by
  unfold hcSlope hcB2
  simp only [mul_zero, sub_zero, zero_div, add_zero, div_one, one_pow, mul_one, zero_mul]
  congr 1
  refine sum_congr rfl fun i _ => ?_
  ring

theorem pcMix_temp (p : PCParams ι) (x : ι → ℝ) (T : ℝ) (q : ℕ) : pcMix p T x q = pcMix p 1 x q / T ^ q := by
  unfold pcMix
  rw [sum_div]
  refine sum_congr rfl fun i _ => ?_
  rw [sum_div]
  refine sum_congr rfl fun j _ => ?_
  rw [div_one, div_pow]
  ring

theorem hasDerivAt_disp (p : PCParams ι) (T : ℝ) (x : ι → ℝ) :
    HasDerivAt (fun r => (pcEval p T r x).disp) (-2 * Real.pi * pcI p.a (pcMbar p x) 0 * pcMix p T x 1 - Real.pi * pcMbar p x * pcI p.b (pcMbar p x) 0 * pcMix p T x 2) 0 := by
  -- a product with the density: only the value of the other factor counts
  have hprod : ∀ f : ℝ → ℝ, ContinuousAt f 0 → HasDerivAt (fun r => r * f r) (f 0) 0 := by
    intro f hf
    rw [hasDerivAt_iff_tendsto_slope]
    have h1 : Filter.Tendsto f (nhdsWithin 0 {0}ᶜ) (nhds (f 0)) := hf.tendsto.mono_left nhdsWithin_le_nhds
    refine h1.congr' ?_
    filter_upwards [self_mem_nhdsWithin] with r hr
    have hr : r ≠ 0 := hr
    simp [slope_def_field, hr]
  have hI : ∀ c : Fin 3 → Fin 7 → ℝ, ContinuousAt (fun r => pcI c (pcMbar p x) (pcD p T x 3 * r)) 0 := by
    intro c
    unfold pcI
    fun_prop
  have hC : ContinuousAt (fun r => pcC1 (pcD p T x 3 * r) (pcMbar p x)) 0 := by
    unfold pcC1
    refine ContinuousAt.div continuousAt_const ?_ (by simp)
    refine ContinuousAt.add (ContinuousAt.add continuousAt_const (ContinuousAt.div (by fun_prop) (by fun_prop) (by simp))) (ContinuousAt.div (by fun_prop) (by fun_prop) (by simp))
  have h := hprod (fun r => -2 * Real.pi * pcI p.a (pcMbar p x) (pcD p T x 3 * r) * pcMix p T x 1 -
      Real.pi * pcMbar p x * pcC1 (pcD p T x 3 * r) (pcMbar p x) * pcI p.b (pcMbar p x) (pcD p T x 3 * r) * pcMix p T x 2)
    (((continuousAt_const.mul (hI p.a)).mul continuousAt_const).sub (((continuousAt_const.mul hC).mul (hI p.b)).mul continuousAt_const))
  have e1 : pcC1 (pcD p T x 3 * 0) (pcMbar p x) = 1 := by simp [pcC1]
  rw [e1, mul_zero, mul_one] at h
  refine h.congr_of_eventuallyEq (Filter.Eventually.of_forall fun r => ?_)
  simp only [pcEval]
  ring

/-- **C179** The second virial coefficient of PC-SAFT in closed form. -/
theorem pc_B2 {p : PCParams ι} {T : ℝ} {x : ι → ℝ} (h : PCPhysical p T x) (NA : ℝ) :
    B2vir (pcMolar p NA x) T = NA * 1e-30 * (hcB2 p x T - 2 * Real.pi * pcI p.a (pcMbar p x) 0 * pcMix p 1 x 1 / T -
      Real.pi * pcMbar p x * pcI p.b (pcMbar p x) 0 * pcMix p 1 x 2 / T ^ 2) := by
  have hl : HasDerivAt (fun rho : ℝ => rho * NA * 1e-30) (NA * 1e-30) 0 := by
    simpa using ((hasDerivAt_id (0 : ℝ)).mul_const NA).mul_const 1e-30
  have h1 : HasDerivAt (fun r => (pcEval p T r x).hc) (hcSlope p T x 0) ((0 : ℝ) * NA * 1e-30) := by
    rw [zero_mul, zero_mul]
    exact hasDerivAt_hc h le_rfl (by simp)
  have h2 : HasDerivAt (fun r => (pcEval p T r x).disp) (-2 * Real.pi * pcI p.a (pcMbar p x) 0 * pcMix p T x 1 -
      Real.pi * pcMbar p x * pcI p.b (pcMbar p x) 0 * pcMix p T x 2) ((0 : ℝ) * NA * 1e-30) := by
    rw [zero_mul, zero_mul]
    exact hasDerivAt_disp p T x
  have hd := (h1.comp (0 : ℝ) hl).add (h2.comp (0 : ℝ) hl)
  have : B2vir (pcMolar p NA x) T = _ := hd.deriv
  rw [this, hcSlope_zero, pcMix_temp p x T 1, pcMix_temp p x T 2]
  ring

/-! ## Bounds over all temperatures -/

theorem PCPhysical.at {p : PCParams ι} {T : ℝ} {x : ι → ℝ} (h : PCPhysical p T x) {T' : ℝ} (hT : 0 < T') : PCPhysical p T' x :=
  ⟨hT, h.hm, h.hsigma, h.heps, h.hx, h.hx1⟩

theorem pcDiam_bounds {sigma eps T : ℝ} (hT : 0 < T) (hs : 0 < sigma) (he : 0 ≤ eps) : 0.88 * sigma ≤ pcDiam sigma eps T ∧ pcDiam sigma eps T ≤ sigma := by
  unfold pcDiam
  have h1 : Real.exp (-3 * eps / T) ≤ 1 := Real.exp_le_one_iff.mpr (div_nonpos_of_nonpos_of_nonneg (by linarith) hT.le)
  have h2 := Real.exp_pos (-3 * eps / T)
  constructor <;> nlinarith

/-- The same sum with the diameters at zero temperature. -/
noncomputable def coldD (p : PCParams ι) (x : ι → ℝ) (n : ℕ) : ℝ := Real.pi / 6 * ∑ i, x i * p.m i * p.sigma i ^ n

theorem pcD_bounds {p : PCParams ι} {T : ℝ} {x : ι → ℝ} (h : PCPhysical p T x) (n : ℕ) : 0.88 ^ n * coldD p x n ≤ pcD p T x n ∧ pcD p T x n ≤ coldD p x n := by
  have hpi := Real.pi_pos
  have key : ∀ i, 0.88 ^ n * (x i * p.m i * p.sigma i ^ n) ≤ x i * p.m i * pcDiam (p.sigma i) (p.eps i) T ^ n ∧
      x i * p.m i * pcDiam (p.sigma i) (p.eps i) T ^ n ≤ x i * p.m i * p.sigma i ^ n := by
    intro i
    have hw : 0 ≤ x i * p.m i := mul_nonneg (h.hx i) (by linarith [h.hm i])
    have hs := h.hsigma i
    obtain ⟨b1, b2⟩ := pcDiam_bounds h.hT hs (h.heps i)
    have hd := pcDiam_pos h.hT hs (h.heps i)
    constructor
    · have := mul_le_mul_of_nonneg_left (pow_le_pow_left₀ (by positivity) b1 n) hw
      rw [mul_pow] at this
      linarith
    · exact mul_le_mul_of_nonneg_left (pow_le_pow_left₀ hd.le b2 n) hw
  unfold coldD pcD
  constructor
  · have := sum_le_sum fun i (_ : i ∈ Finset.univ) => (key i).1
    rw [← mul_sum] at this
    have := mul_le_mul_of_nonneg_left this (show 0 ≤ Real.pi / 6 by positivity)
    linarith
  · have := sum_le_sum fun i (_ : i ∈ Finset.univ) => (key i).2
    exact mul_le_mul_of_nonneg_left this (by positivity)

theorem coldD_pos {p : PCParams ι} {T : ℝ} {x : ι → ℝ} (h : PCPhysical p T x) (n : ℕ) : 0 < coldD p x n :=
  (pcD_pos h n).trans_le (pcD_bounds h n).2

/-- Hard chains have a positive second virial coefficient, bounded away from zero and from above at all temperatures. -/
theorem hcB2_bounds {p : PCParams ι} {T : ℝ} {x : ι → ℝ} (h : PCPhysical p T x) :
    9 / Real.pi * (0.88 ^ 3 * (coldD p x 1 * coldD p x 2)) ≤ hcB2 p x T ∧
      hcB2 p x T ≤ pcMbar p x * coldD p x 3 + 18 / Real.pi * (coldD p x 1 * coldD p x 2) := by
  have hD := pcD_pos h
  have hpi := Real.pi_pos
  have hmb : 0 < pcMbar p x := by linarith [pcMbar_ge h]
  have b1 := pcD_bounds h 1
  have b2 := pcD_bounds h 2
  have b3 := pcD_bounds h 3
  have c1 := coldD_pos h 1
  have c2 := coldD_pos h 2
  constructor
  · have hl := hcSlope_lower h le_rfl (by simp)
    rw [hcSlope_zero] at hl
    simp only [mul_zero, sub_zero, one_pow, div_one] at hl
    refine le_trans ?_ hl
    rw [mul_assoc]
    refine mul_le_mul_of_nonneg_left ?_ (by positivity)
    have := mul_le_mul b1.1 b2.1 (by positivity) (hD 1).le
    calc _ = 0.88 ^ 1 * coldD p x 1 * (0.88 ^ 2 * coldD p x 2) := by ring
      _ ≤ _ := this
  · have hM0 : pcD p T x 0 = Real.pi / 6 * pcMbar p x := by simp [pcD, pcMbar]
    have hs : 0 ≤ ∑ i, x i * (p.m i - 1) * (pcD p T x 3 + 3 / 2 * pcDiam (p.sigma i) (p.eps i) T * pcD p T x 2) := by
      refine sum_nonneg fun i _ => ?_
      have := pcDiam_pos h.hT (h.hsigma i) (h.heps i)
      have h3 := hD 3
      have h2 := hD 2
      exact mul_nonneg (mul_nonneg (h.hx i) (by linarith [h.hm i])) (by positivity)
    have e : pcMbar p x * (pcD p T x 3 + 3 * pcD p T x 1 * pcD p T x 2 / pcD p T x 0) = pcMbar p x * pcD p T x 3 + 18 / Real.pi * (pcD p T x 1 * pcD p T x 2) := by
      rw [hM0]
      field_simp
      ring
    unfold hcB2
    rw [e]
    have f1 := mul_le_mul_of_nonneg_left b3.2 hmb.le
    have f2 := mul_le_mul_of_nonneg_left (mul_le_mul b1.2 b2.2 (hD 2).le c1.le) (show 0 ≤ 18 / Real.pi by positivity)
    linarith

theorem hcB2_continuous (p : PCParams ι) (x : ι → ℝ) (h0 : pcMbar p x ≠ 0) : ContinuousOn (hcB2 p x) (Set.Ioi 0) := by
  have hd : ∀ i, ContinuousOn (fun T => pcDiam (p.sigma i) (p.eps i) T) (Set.Ioi 0) := by
    intro i T hT
    have hT : T ≠ 0 := ne_of_gt hT
    unfold pcDiam
    exact (continuousAt_const.mul (continuousAt_const.sub (continuousAt_const.mul (Real.continuous_exp.continuousAt.comp
      (f := fun T : ℝ => -3 * p.eps i / T) (continuousAt_const.div continuousAt_id hT))))).continuousWithinAt
  have hD : ∀ n, ContinuousOn (fun T => pcD p T x n) (Set.Ioi 0) := fun n =>
    continuousOn_const.mul (continuousOn_finsetSum _ fun i _ => continuousOn_const.mul ((hd i).pow n))
  have hne : ∀ T ∈ Set.Ioi (0 : ℝ), pcD p T x 0 ≠ 0 := by
    intro T _
    have hM0 : pcD p T x 0 = Real.pi / 6 * pcMbar p x := by simp [pcD, pcMbar]
    rw [hM0]
    exact mul_ne_zero (by positivity) h0
  unfold hcB2
  exact (continuousOn_const.mul ((hD 3).add (((continuousOn_const.mul (hD 1)).mul (hD 2)).div (hD 0) hne))).sub
    (continuousOn_finsetSum _ fun i _ => continuousOn_const.mul ((hD 3).add ((continuousOn_const.mul (hd i)).mul (hD 2))))

/-- The sign of `H - α/T - β/T²` near zero and near infinity. -/
theorem inverse_square_low {H : ℝ → ℝ} {C α β : ℝ} (hβ : 0 < β) (hH : ∀ T, 0 < T → H T ≤ C) : ∃ T1 > 0, ∀ T, 0 < T → T < T1 → H T - α / T - β / T ^ 2 < 0 := by
  have hden : 0 < |C| + |α| + 1 := by positivity
  refine ⟨min 1 (β / (|C| + |α| + 1)), lt_min one_pos (by positivity), fun T hT h => ?_⟩
  have h1 : T < 1 := h.trans_le (min_le_left _ _)
  have h2 : T * (|C| + |α| + 1) < β := (lt_div_iff₀ hden).1 (h.trans_le (min_le_right _ _))
  have hHT := (hH T hT).trans (le_abs_self C)
  have e : H T - α / T - β / T ^ 2 = (H T * T ^ 2 - α * T - β) / T ^ 2 := by
    field_simp
  rw [e]
  refine div_neg_of_neg_of_pos ?_ (by positivity)
  have f1 : H T * T ^ 2 ≤ |C| * T := by
    have := mul_le_mul_of_nonneg_right hHT (sq_nonneg T)
    have : |C| * T ^ 2 ≤ |C| * T := mul_le_mul_of_nonneg_left (by nlinarith) (abs_nonneg C)
    linarith
  have f2 : -α * T ≤ |α| * T := mul_le_mul_of_nonneg_right (neg_le_abs α) hT.le
  nlinarith

theorem inverse_square_high {H : ℝ → ℝ} {c α β : ℝ} (hc : 0 < c) (hH : ∀ T, 0 < T → c ≤ H T) : ∃ T2 > 0, ∀ T, T2 < T → 0 < H T - α / T - β / T ^ 2 := by
  refine ⟨max 1 ((|α| + |β|) / c), lt_of_lt_of_le one_pos (le_max_left _ _), fun T h => ?_⟩
  have h1 : 1 < T := (le_max_left _ _).trans_lt h
  have h2 : |α| + |β| < T * c := (div_lt_iff₀ hc).1 ((le_max_right _ _).trans_lt h)
  have hT : 0 < T := by linarith
  have e : H T - α / T - β / T ^ 2 = (H T * T ^ 2 - α * T - β) / T ^ 2 := by
    field_simp
  rw [e]
  refine div_pos ?_ (by positivity)
  have f1 := mul_le_mul_of_nonneg_right (hH T hT) (sq_nonneg T)
  have f2 : α * T ≤ |α| * T := mul_le_mul_of_nonneg_right (le_abs_self α) hT.le
  have f3 : β ≤ |β| * T := (le_abs_self β).trans (le_mul_of_one_le_right (abs_nonneg β) h1.le)
  nlinarith

theorem pcMix_two_pos {p : PCParams ι} {T : ℝ} {x : ι → ℝ} (h : PCPhysical p T x) (he : ∀ i, 0 < p.eps i) (hk : ∀ i, p.k i i ≠ 1) : 0 < pcMix p 1 x 2 := by
  obtain ⟨i, hi⟩ : ∃ i, x i ≠ 0 := by
    by_contra hc
    push Not at hc
    have := h.hx1
    rw [Finset.sum_eq_zero fun i _ => hc i] at this
    exact zero_ne_one this
  have hnn : ∀ i j, 0 ≤ x i * x j * p.m i * p.m j * (Real.sqrt (p.eps i * p.eps j) * (1 - p.k i j) / 1) ^ 2 *
      ((0.5 * p.sigma i + 0.5 * p.sigma j) * (0.5 * p.sigma i + 0.5 * p.sigma j) * (0.5 * p.sigma i + 0.5 * p.sigma j)) := by
    intro i j
    have a1 := h.hx i
    have a2 := h.hx j
    have a3 : 0 < p.m i := by linarith [h.hm i]
    have a4 : 0 < p.m j := by linarith [h.hm j]
    have a5 := h.hsigma i
    have a6 := h.hsigma j
    have a7 := sq_nonneg (Real.sqrt (p.eps i * p.eps j) * (1 - p.k i j) / 1)
    exact mul_nonneg (mul_nonneg (by positivity) a7) (by positivity)
  unfold pcMix
  refine sum_pos' (fun i _ => sum_nonneg fun j _ => hnn i j) ⟨i, mem_univ i, sum_pos' (fun j _ => hnn i j) ⟨i, mem_univ i, ?_⟩⟩
  have a1 : 0 < x i := lt_of_le_of_ne (h.hx i) (Ne.symm hi)
  have a3 : 0 < p.m i := by linarith [h.hm i]
  have a5 := h.hsigma i
  have a6 : 0 < Real.sqrt (p.eps i * p.eps i) := Real.sqrt_pos.2 (mul_pos (he i) (he i))
  have a7 : 0 < (Real.sqrt (p.eps i * p.eps i) * (1 - p.k i i) / 1) ^ 2 := by
    have : Real.sqrt (p.eps i * p.eps i) * (1 - p.k i i) / 1 ≠ 0 := by
      rw [div_one]
      exact mul_ne_zero a6.ne' (sub_ne_zero.2 (hk i).symm)
    positivity
  positivity

/-- The sign of the second virial coefficient is that of its bracket. -/
theorem pc_B2_signs {p : PCParams ι} {T : ℝ} {x : ι → ℝ} (h : PCPhysical p T x) (he : ∀ i, 0 < p.eps i) (hk : ∀ i, p.k i i ≠ 1) {NA : ℝ} (hNA : 0 < NA) :
    (∃ T2 > 0, ∀ T, T2 < T → 0 < B2vir (pcMolar p NA x) T) ∧
    (0 < pcI p.b (pcMbar p x) 0 → ∃ T1 > 0, ∀ T, 0 < T → T < T1 → B2vir (pcMolar p NA x) T < 0) ∧
    (pcI p.b (pcMbar p x) 0 < 0 → ∃ T1 > 0, ∀ T, 0 < T → T < T1 → 0 < B2vir (pcMolar p NA x) T) := by
  have hpi := Real.pi_pos
  have hmb : 0 < pcMbar p x := by linarith [pcMbar_ge h]
  have hA := pcMix_two_pos h he hk
  have hb (T : ℝ) (hT : 0 < T) := hcB2_bounds (h.at hT)
  have c1 := coldD_pos h 1
  have c2 := coldD_pos h 2
  have c3 := coldD_pos h 3
  have hN : 0 < NA * 1e-30 := by positivity
  refine ⟨?_, fun hI => ?_, fun hI => ?_⟩
  · obtain ⟨T2, hT2, hh⟩ := inverse_square_high (H := hcB2 p x) (α := 2 * Real.pi * pcI p.a (pcMbar p x) 0 * pcMix p 1 x 1)
      (β := Real.pi * pcMbar p x * pcI p.b (pcMbar p x) 0 * pcMix p 1 x 2) (c := 9 / Real.pi * (0.88 ^ 3 * (coldD p x 1 * coldD p x 2))) (by positivity) fun T hT => (hb T hT).1
    refine ⟨T2, hT2, fun T hT => ?_⟩
    rw [pc_B2 (h.at (hT2.trans hT))]
    exact mul_pos hN (hh T hT)
  · obtain ⟨T1, hT1, hh⟩ := inverse_square_low (H := hcB2 p x) (α := 2 * Real.pi * pcI p.a (pcMbar p x) 0 * pcMix p 1 x 1)
      (β := Real.pi * pcMbar p x * pcI p.b (pcMbar p x) 0 * pcMix p 1 x 2) (by positivity) fun T hT => (hb T hT).2
    refine ⟨T1, hT1, fun T hT hlt => ?_⟩
    rw [pc_B2 (h.at hT)]
    exact mul_neg_of_pos_of_neg hN (hh T hT hlt)
  · have hβ : 0 < -(Real.pi * pcMbar p x * pcI p.b (pcMbar p x) 0 * pcMix p 1 x 2) := by
      have : 0 < Real.pi * pcMbar p x * (-pcI p.b (pcMbar p x) 0) * pcMix p 1 x 2 := by
        have : 0 < -pcI p.b (pcMbar p x) 0 := by linarith
        positivity
      linarith
    obtain ⟨T1, hT1, hh⟩ := inverse_square_low (H := fun T => -hcB2 p x T) (C := 0) (α := -(2 * Real.pi * pcI p.a (pcMbar p x) 0 * pcMix p 1 x 1))
      (β := -(Real.pi * pcMbar p x * pcI p.b (pcMbar p x) 0 * pcMix p 1 x 2)) hβ fun T hT => by
        have := (hb T hT).1
        have : 0 ≤ 9 / Real.pi * (0.88 ^ 3 * (coldD p x 1 * coldD p x 2)) := by positivity
        linarith
    refine ⟨T1, hT1, fun T hT hlt => ?_⟩
    rw [pc_B2 (h.at hT)]
    refine mul_pos hN ?_
    have := hh T hT hlt
    simp only [neg_div] at this
    linarith

/-- **C179** A mixture with attraction has a Boyle temperature where the second virial coefficient changes sign; below some temperature it is negative and above another positive.
Missing: mixtures with the constants of Liang et al. (2012) and more than 27 segments per molecule, for which it is false (`pc_liang_long_chains`). -/
theorem pc_boyle_partial {p : PCParams ι} {T : ℝ} {x : ι → ℝ} (h : PCPhysical p T x) (he : ∀ i, 0 < p.eps i) (hk : ∀ i, p.k i i ≠ 1)
    (hab : (p.b = gsB ∨ p.b = liang14B) ∨ (p.b = liang12B ∧ pcMbar p x ≤ 27)) {NA : ℝ} (hNA : 0 < NA) :
    (∃ T1 > 0, ∀ T, 0 < T → T < T1 → B2vir (pcMolar p NA x) T < 0) ∧ (∃ T2 > 0, ∀ T, T2 < T → 0 < B2vir (pcMolar p NA x) T) ∧
    ∃ TB > 0, B2vir (pcMolar p NA x) TB = 0 := by
  have hmb := pcMbar_ge h
  have hI : 0 < pcI p.b (pcMbar p x) 0 := by
    rw [pcI_zero]
    have hm0 : 0 < pcMbar p x := by linarith
    obtain ⟨s, hs⟩ : ∃ s, s = (pcMbar p x - 1) / pcMbar p x := ⟨_, rfl⟩
    have ht : (pcMbar p x - 2) / pcMbar p x = 2 * s - 1 := by
      rw [hs]
      field_simp
      ring
    have s0 : 0 ≤ s := by rw [hs]; exact div_nonneg (by linarith) hm0.le
    have s1 : s ≤ 1 := by rw [hs]; exact (div_le_one hm0).2 (by linarith)
    rw [ht, ← hs]
    rcases hab with (e | e) | ⟨e, hle⟩
    · rw [e]
      simp only [gsB]
      norm_num
      nlinarith
    · rw [e]
      simp only [liang14B]
      norm_num
      nlinarith
    · have s2 : s ≤ 26 / 27 := by
        rw [hs, div_le_div_iff₀ hm0 (by norm_num)]
        linarith
      rw [e]
      simp only [liang12B]
      norm_num
      nlinarith
  obtain ⟨a, b, -⟩ := pc_B2_signs h he hk hNA
  obtain ⟨T1, hT1, h1⟩ := b hI
  obtain ⟨T2, hT2, h2⟩ := a
  refine ⟨⟨T1, hT1, h1⟩, ⟨T2, hT2, h2⟩, ?_⟩
  have hcont : ContinuousOn (fun T => B2vir (pcMolar p NA x) T) (Set.Ioi 0) := by
    refine ContinuousOn.congr (f := fun T => NA * 1e-30 * (hcB2 p x T - 2 * Real.pi * pcI p.a (pcMbar p x) 0 * pcMix p 1 x 1 / T -
      Real.pi * pcMbar p x * pcI p.b (pcMbar p x) 0 * pcMix p 1 x 2 / T ^ 2)) ?_ fun T hT => pc_B2 (h.at hT) NA
    exact continuousOn_const.mul (((hcB2_continuous p x (by linarith)).sub (continuousOn_const.div continuousOn_id fun T hT => ne_of_gt hT)).sub
      (continuousOn_const.div (continuousOn_id.pow 2) fun T hT => pow_ne_zero 2 (ne_of_gt hT)))
  have hlt : T1 / 2 ≤ T2 + T1 := by linarith
  have hsub : Set.Icc (T1 / 2) (T2 + T1) ⊆ Set.Ioi 0 := fun T hT => lt_of_lt_of_le (by linarith) hT.1
  obtain ⟨TB, hTB, hz⟩ := intermediate_value_Icc hlt (hcont.mono hsub) (show (0 : ℝ) ∈ Set.Icc _ _ from
    ⟨(h1 (T1 / 2) (by linarith) (by linarith)).le, (h2 (T2 + T1) (by linarith)).le⟩)
  exact ⟨TB, hsub hTB, hz⟩

/-- Equimolar methane and propane have a Boyle temperature. -/
example : ∃ TB > 0, B2vir (pcMolar mixC1C3 6.02214076e23 fun _ => 0.5) TB = 0 := by
  have h : PCPhysical mixC1C3 300 (fun _ => 0.5) := by
    refine ⟨by norm_num, fun i => ?_, fun i => ?_, fun i => ?_, fun _ => by norm_num, by simp; norm_num⟩ <;>
      fin_cases i <;> simp [mixC1C3] <;> norm_num
  refine (pc_boyle_partial h (fun i => ?_) (fun i => by simp [mixC1C3]) (.inl (.inl rfl)) (by norm_num)).2.2
  fin_cases i <;> simp [mixC1C3] <;> norm_num

/-- **C179**, negative result. With the constants of Liang et al. (2012) long chains repel at low temperature: the second virial coefficient of a chain of at least 28 segments
is positive below some temperature. -/
theorem pc_liang_long_chains {p : PCParams ι} {T : ℝ} {x : ι → ℝ} (h : PCPhysical p T x) (he : ∀ i, 0 < p.eps i) (hk : ∀ i, p.k i i ≠ 1) (hb : p.b = liang12B)
    (hm : 28 ≤ pcMbar p x) {NA : ℝ} (hNA : 0 < NA) : ∃ T1 > 0, ∀ T, 0 < T → T < T1 → 0 < B2vir (pcMolar p NA x) T := by
  refine (pc_B2_signs h he hk hNA).2.2 ?_
  rw [pcI_zero, hb]
  have hm0 : 0 < pcMbar p x := by linarith
  obtain ⟨s, hs⟩ : ∃ s, s = (pcMbar p x - 1) / pcMbar p x := ⟨_, rfl⟩
  have ht : (pcMbar p x - 2) / pcMbar p x = 2 * s - 1 := by
    rw [hs]
    field_simp
    ring
  have s1 : s ≤ 1 := by rw [hs]; exact (div_le_one hm0).2 (by linarith)
  have s2 : 27 / 28 ≤ s := by
    rw [hs, div_le_div_iff₀ (by norm_num) hm0]
    linarith
  rw [ht, ← hs]
  simp only [liang12B]
  norm_num
  nlinarith

/-- A chain of fifty segments. -/
example : ∃ p : PCParams (Fin 1), p.m 0 = 50 ∧ p.b = liang12B ∧ ∃ T1 > 0, ∀ T, 0 < T → T < T1 → 0 < B2vir (pcMolar p 6.02214076e23 fun _ => 1) T := by
  refine ⟨⟨fun _ => 50, fun _ => 4, fun _ => 250, fun _ _ => 0, liang12A, liang12B⟩, rfl, rfl, ?_⟩
  refine pc_liang_long_chains (T := 300) ⟨by norm_num, fun i => by norm_num, fun i => by norm_num, fun i => by norm_num, fun _ => by norm_num, by simp⟩ (fun i => by norm_num)
    (fun i => by norm_num) rfl ?_ (by norm_num)
  simp [pcMbar]
  norm_num

end Teqp.Props

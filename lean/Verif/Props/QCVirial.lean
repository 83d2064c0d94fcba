import Verif.Model.QCRK
import Verif.Props.Cubic

/-! # Virial coefficients and the covolume of the quantum-corrected Peng-Robinson model: C151 -/

set_option autoImplicit false

namespace Teqp.Props
open Teqp.Model Teqp.Spec Teqp.Lemmas Filter Topology

/-! ## Dual numbers -/

/-- A dual number at a point where a function is differentiable: value and derivative of the function. -/
def IsDual (x : FDual) (f : ℝ → ℝ) (t : ℝ) : Prop := ∃ d, HasDerivAt f d t ∧ x = ⟨.fin (f t), .fin d⟩

theorem isDual_const (c t : ℝ) : IsDual (FDual.const c) (fun _ => c) t := ⟨0, hasDerivAt_const t c, rfl⟩

theorem isDual_neg {x : FDual} {f : ℝ → ℝ} {t : ℝ} (h : IsDual x f t) : IsDual x.neg (fun r => -f r) t := by
  obtain ⟨d, hd, rfl⟩ := h
  exact ⟨_, hd.neg, rfl⟩

theorem isDual_add {x y : FDual} {f g : ℝ → ℝ} {t : ℝ} (h : IsDual x f t) (h' : IsDual y g t) : IsDual (x.add y) (fun r => f r + g r) t := by
  obtain ⟨d, hd, rfl⟩ := h
  obtain ⟨e, he, rfl⟩ := h'
  exact ⟨_, hd.add he, rfl⟩

theorem isDual_mul {x y : FDual} {f g : ℝ → ℝ} {t : ℝ} (h : IsDual x f t) (h' : IsDual y g t) : IsDual (x.mul y) (fun r => f r * g r) t := by
  obtain ⟨d, hd, rfl⟩ := h
  obtain ⟨e, he, rfl⟩ := h'
  exact ⟨_, hd.mul he, rfl⟩

theorem isDual_div {x y : FDual} {f g : ℝ → ℝ} {t : ℝ} (h : IsDual x f t) (h' : IsDual y g t) (hg : g t ≠ 0) :
    IsDual (x.div y) (fun r => f r / g r) t := by
  obtain ⟨d, hd, rfl⟩ := h
  obtain ⟨e, he, rfl⟩ := h'
  refine ⟨_, hd.div he hg, ?_⟩
  simp only [FDual.div, Flt.div, if_neg hg, Flt.mul, Flt.neg, Flt.add, FDual.mk.injEq, Flt.fin.injEq, true_and]
  field_simp
  ring

theorem isDual_log {x : FDual} {f : ℝ → ℝ} {t : ℝ} (h : IsDual x f t) (hf : 0 < f t) : IsDual x.log (fun r => Real.log (f r)) t := by
  obtain ⟨d, hd, rfl⟩ := h
  exact ⟨_, hd.log hf.ne', by simp only [FDual.log, Flt.log, if_pos hf, Flt.div, if_neg hf.ne']⟩

/-- The density itself. -/
theorem isDual_id (t : ℝ) : IsDual ⟨.fin t, .fin 1⟩ (fun r => r) t := ⟨1, hasDerivAt_id t, rfl⟩

/-- On dual numbers the cubic expression has its value and its derivative. -/
theorem isDual_cubic {R a b D1 D2 T t : ℝ} {x : FDual} {f : ℝ → ℝ} (h : IsDual x f t) (hb : b ≠ 0) (hD : D1 ≠ D2) (h1 : b * f t < 1)
    (h2 : 0 < D1 * b * f t + 1) (h3 : 0 < D2 * b * f t + 1) :
    IsDual (cubicDual R a b D1 D2 T x) (fun r => cubicAlphar R a b D1 D2 T (f r)) t := by
  have hm := isDual_neg (isDual_log (isDual_add (isDual_const 1 t) (isDual_neg (isDual_mul (isDual_const b t) h))) (by linarith))
  have hn := isDual_add (isDual_mul (isDual_const (D1 * b) t) h) (isDual_const 1 t)
  have hd := isDual_add (isDual_mul (isDual_const (D2 * b) t) h) (isDual_const 1 t)
  have hp := isDual_div (isDual_log (isDual_div hn hd h3.ne') (div_pos h2 h3)) (isDual_const (b * (D1 - D2)) t)
    (mul_ne_zero hb (sub_ne_zero.mpr hD))
  have := isDual_add hm (isDual_neg (isDual_mul (isDual_const (a / (R * T)) t) hp))
  unfold cubicDual cubicAlphar
  simpa only [sub_eq_add_neg] using this

/-! ## C151 -/

/-- Other cubic models: the second virial coefficient from `get_Bnvir` is `b - a/(RT)`, the slope of the residual Helmholtz energy. -/
theorem cubic_bnvir {ι : Type} [Fintype ι] (m : Cubic ι) (T : ℝ) (x : ι → ℝ) (hb : m.get_b x ≠ 0) (hD : m.Delta1 ≠ m.Delta2) :
    bnvir2 (cubicDual m.R (m.get_a T x) (m.get_b x) m.Delta1 m.Delta2 T) = .fin (m.get_b x - m.get_a T x / (m.R * T)) ∧
      HasDerivAt (fun r => m.alphar T r x) (m.get_b x - m.get_a T x / (m.R * T)) 0 := by
  obtain ⟨d, hd, h⟩ := isDual_cubic (R := m.R) (a := m.get_a T x) (T := T) (isDual_id 0) hb hD (by simp) (by simp) (by simp)
  have h0 := hasDerivAt_cubicAlphar (R := m.R) (a := m.get_a T x) (b := m.get_b x) (D1 := m.Delta1) (D2 := m.Delta2) (T := T) (ρ := 0) hb hD
    (by simp) (by simp) (by simp)
  simp only [mul_zero, sub_zero, zero_add, div_one, mul_one] at h0
  refine ⟨?_, h0⟩
  unfold bnvir2
  rw [h, hd.unique h0]

example : (1 : ℝ) + Real.sqrt 2 ≠ 1 - Real.sqrt 2 := by
  have : 0 < Real.sqrt 2 := Real.sqrt_pos.mpr (by norm_num)
  intro h
  linarith

/-- The shifted density near zero. -/
theorem shift_eq (c r : ℝ) (h : 1 + c * r ≠ 0) : QCPR.shift r c = r / (1 + c * r) := by
  unfold QCPR.shift
  by_cases hr : r = 0
  · simp [hr]
  · rw [if_neg hr]
    have : 1 / r + c = (1 + c * r) / r := by field_simp
    rw [this, one_div_div]

/-- C151. The residual Helmholtz energy of the quantum-corrected model has the slope `b - a/(RT)` at zero density: the second virial coefficient is a finite number. -/
theorem qcpr_slope {ι : Type} [Fintype ι] (m : QCPR ι) (T : ℝ) (z : ι → ℝ) (hb : m.get_b T z ≠ 0) :
    HasDerivAt (fun r => m.alphar T r z) (m.get_b T z - m.get_a T z / (m.Ru * T)) 0 := by
  have h20 : 0 < Real.sqrt 2 := Real.sqrt_pos.mpr (by norm_num)
  set c := m.get_c z with hc
  have hs0 : QCPR.shift 0 c = 0 := by simp [QCPR.shift]
  have hsd : HasDerivAt (fun r => QCPR.shift r c) 1 0 := by
    have h1 : HasDerivAt (fun r : ℝ => r / (1 + c * r)) 1 0 := by
      have e1 : HasDerivAt (fun r : ℝ => 1 + c * r) c 0 := by simpa using ((hasDerivAt_id (0 : ℝ)).const_mul c).const_add 1
      have e2 := (hasDerivAt_id (0 : ℝ)).div e1 (by simp)
      exact e2.congr_deriv (by simp)
    refine h1.congr_of_eventuallyEq ?_
    have : ∀ᶠ r : ℝ in 𝓝 0, 1 + c * r ≠ 0 := by
      have hcont : ContinuousAt (fun r : ℝ => 1 + c * r) 0 := by fun_prop
      exact hcont.eventually_ne (by simp)
    filter_upwards [this] with r hr
    exact shift_eq c r hr
  have h0 := hasDerivAt_cubicAlphar (R := m.Ru) (a := m.get_a T z) (b := m.get_b T z) (D1 := 1 + Real.sqrt 2) (D2 := 1 - Real.sqrt 2) (T := T)
    (ρ := QCPR.shift 0 c) hb (by intro h; linarith) (by simp [hs0]) (by simp [hs0]) (by simp [hs0])
  have h1 := h0.comp (0 : ℝ) hsd
  simp only [hs0, mul_zero, sub_zero, zero_add, div_one, mul_one] at h1
  exact h1

/-- At a positive density inside the domain the dual numbers give the slope. -/
theorem qcpr_dual_slope {ι : Type} [Fintype ι] (m : QCPR ι) (T ρ : ℝ) (z : ι → ℝ) (hb : 0 < m.get_b T z) (hρ : 0 < ρ)
    (h : m.get_b T z < 1 / ρ + m.get_c z) :
    qcprDual m T ⟨.fin ρ, .fin 1⟩ z = ⟨.fin (m.alphar T ρ z), .fin (deriv (fun r => m.alphar T r z) ρ)⟩ := by
  have h20 : 0 < Real.sqrt 2 := Real.sqrt_pos.mpr (by norm_num)
  have h22 : Real.sqrt 2 < 2 := by rw [Real.sqrt_lt' (by norm_num)]; norm_num
  have hc : 0 < 1 / ρ + m.get_c z := hb.trans h
  have hs : IsDual (shiftDual (m.get_c z) ⟨.fin ρ, .fin 1⟩) (fun r => 1 / (1 / r + m.get_c z)) ρ :=
    isDual_div (isDual_const 1 ρ) (isDual_add (isDual_div (isDual_const 1 ρ) (isDual_id ρ) hρ.ne') (isDual_const (m.get_c z) ρ)) hc.ne'
  have h1 : m.get_b T z * (1 / (1 / ρ + m.get_c z)) < 1 := by rw [mul_one_div, div_lt_one hc]; exact h
  have h0 : 0 < m.get_b T z * (1 / (1 / ρ + m.get_c z)) := by positivity
  obtain ⟨d, hd, e⟩ := isDual_cubic (R := m.Ru) (a := m.get_a T z) (T := T) (D1 := 1 + Real.sqrt 2) (D2 := 1 - Real.sqrt 2) hs hb.ne'
    (by intro he; linarith) h1 (by rw [mul_assoc]; positivity) (by rw [mul_assoc]; nlinarith)
  have heq : (fun r => m.alphar T r z) =ᶠ[𝓝 ρ] fun r => cubicAlphar m.Ru (m.get_a T z) (m.get_b T z) (1 + Real.sqrt 2) (1 - Real.sqrt 2) T
      (1 / (1 / r + m.get_c z)) := by
    filter_upwards [isOpen_ne.mem_nhds hρ.ne'] with r hr
    simp only [QCPR.alphar, QCPR.shift, if_neg (show r ≠ 0 from hr)]
  unfold qcprDual
  rw [e, heq.deriv_eq, hd.deriv, ← heq.self_of_nhds]

/-- C151 is false of the code: at zero density, where `get_Bnvir` evaluates, the derivative is not a number, whatever the parameters, the temperature and the
composition; the slope itself is finite (`qcpr_slope`). -/
theorem qcpr_bnvir_nan {ι : Type} [Fintype ι] (m : QCPR ι) (T : ℝ) (z : ι → ℝ) : bnvir2 (fun r => qcprDual m T r z) = .nan := by
  have hs : shiftDual (m.get_c z) ⟨.fin 0, .fin 1⟩ = ⟨.fin 0, .nan⟩ := by
    simp [shiftDual, FDual.div, FDual.const, FDual.add, Flt.div, Flt.add, Flt.mul, Flt.neg, Flt.ofSign]
  unfold bnvir2 qcprDual
  simp only [hs]
  unfold cubicDual
  simp [FDual.div, FDual.const, FDual.add, FDual.mul, FDual.neg, FDual.log, Flt.div, Flt.add, Flt.mul, Flt.neg, Flt.log]

/-- The same with the other form of the quotient rule, `-y'/y²` for an inverse. -/
theorem shift_other_rule (c : ℝ) :
    let inv : FDual → FDual := fun y => ⟨(Flt.fin 1).div y.v, (y.d.neg).div (y.v.mul y.v)⟩
    (inv ((inv ⟨.fin 0, .fin 1⟩).add (FDual.const c))).d = .nan := by
  have : ¬ (0 : ℝ) < -1 := by norm_num
  have h' : (-1 : ℝ) < 0 := by norm_num
  simp [FDual.const, FDual.add, Flt.div, Flt.add, Flt.mul, Flt.neg, Flt.ofSign, this]

example : demoQCPR.get_b 40 (fun _ => 1) ≠ 0 ∧ bnvir2 (fun r => qcprDual demoQCPR 40 r fun _ => 1) = .nan :=
  ⟨by norm_num [QCPR.get_b, QCPR.get_bi, demoQCPR], qcpr_bnvir_nan _ _ _⟩

/-! ## The covolume -/

/-- The quantum correction is one at the critical temperature and the covolume falls with rising temperature when its coefficient is positive. -/
theorem qcpr_covolume {ι : Type} (m : QCPR ι) (i : ι) (hT : 0 < m.Tc i) (hB : 0 ≤ m.Bs i) (hA : 0 < m.As i) (hp : 0 < m.pc i) (hR : 0 < m.Ru) :
    m.get_bi i (m.Tc i) = 0.0778 * m.Ru * m.Tc i / m.pc i ∧ StrictAntiOn (m.get_bi i) (Set.Ioi 0) ∧
      Tendsto (m.get_bi i) atTop (𝓝 (0.0778 * m.Ru * m.Tc i / m.pc i / (1 + m.As i / (m.Tc i + m.Bs i)) ^ 3)) := by
  have hq : 0 < 1 + m.As i / (m.Tc i + m.Bs i) := by positivity
  refine ⟨?_, ?_, ?_⟩
  · unfold QCPR.get_bi
    rw [div_self (by positivity)]
    ring
  · intro T hT1 T' hT2 h
    have hT1' : (0 : ℝ) < T := hT1
    have hT2' : (0 : ℝ) < T' := hT2
    unfold QCPR.get_bi
    apply mul_lt_mul_of_pos_left _ (by positivity)
    apply div_lt_div_of_pos_right _ (by positivity)
    have h1 : m.As i / (T' + m.Bs i) < m.As i / (T + m.Bs i) := div_lt_div_of_pos_left hA (by linarith) (by linarith)
    have h2 : 0 < m.As i / (T' + m.Bs i) := by positivity
    exact pow_lt_pow_left₀ (by linarith) (by linarith) (by norm_num)
  · have h1 : Tendsto (fun T : ℝ => m.As i / (T + m.Bs i)) atTop (𝓝 0) :=
      Tendsto.div_atTop tendsto_const_nhds (tendsto_atTop_add_const_right _ _ tendsto_id)
    have h2 := (((h1.const_add 1).pow 3).div_const ((1 + m.As i / (m.Tc i + m.Bs i)) ^ 3)).const_mul (0.07780 * m.Tc i * m.Ru / m.pc i)
    unfold QCPR.get_bi
    convert h2 using 2
    rw [add_zero, one_pow]
    ring

/-- Hydrogen. -/
noncomputable def demoH2 : QCPR (Fin 1) where
  Tc _ := 33.19
  pc _ := 1.2964e6
  alphas _ := .twu 33.19 156.21 (-0.0062072) 5.047
  As _ := 3.0696
  Bs _ := 12.682
  cs _ := -3.8139e-6
  kmat _ _ := 0
  lmat _ _ := 0
  Ru := 8.314

example : demoH2.get_bi 0 33.19 = 0.0778 * 8.314 * 33.19 / 1.2964e6 :=
  (qcpr_covolume demoH2 0 (by norm_num [demoH2]) (by norm_num [demoH2]) (by norm_num [demoH2]) (by norm_num [demoH2]) (by norm_num [demoH2])).1

end Teqp.Props

import Verif.Props.Cubic
import Verif.Props.Lambda
import Verif.Props.Virial
import Mathlib.Analysis.SpecialFunctions.Sqrt
import Mathlib.Analysis.SpecialFunctions.Pow.Deriv
import Mathlib.Analysis.Calculus.Deriv.MeanValue
import Mathlib.Algebra.BigOperators.Field

/-! # C65 (second virial coefficients of the cubic mixtures), C66 (alpha functions),
C67 (effective hardness) -/

set_option autoImplicit false

namespace Teqp.Props
open Teqp.Model Teqp.Spec Finset

/-! ## C65 -/

theorem cubicAlphar_slope {R a b D1 D2 T : ℝ} (hb : b ≠ 0) (hD : D1 ≠ D2) :
    HasDerivAt (fun ρ => cubicAlphar R a b D1 D2 T ρ) (b - a / (R * T)) 0 := by
  have hD' : D1 - D2 ≠ 0 := sub_ne_zero.mpr hD
  have h1 : HasDerivAt (fun ρ : ℝ => 1 - b * ρ) (-b) 0 := by
    simpa using ((hasDerivAt_id (0 : ℝ)).const_mul b).const_sub 1
  have h2 : HasDerivAt (fun ρ : ℝ => D1 * b * ρ + 1) (D1 * b) 0 := by
    simpa using ((hasDerivAt_id (0 : ℝ)).const_mul (D1 * b)).add_const 1
  have h3 : HasDerivAt (fun ρ : ℝ => D2 * b * ρ + 1) (D2 * b) 0 := by
    simpa using ((hasDerivAt_id (0 : ℝ)).const_mul (D2 * b)).add_const 1
  have hl := (h1.log (by norm_num)).neg
  have hq := ((h2.div h3 (by norm_num)).log (by simp)).div_const (b * (D1 - D2))
  refine (hl.sub (hq.const_mul (a / (R * T)))).congr_deriv ?_
  simp only [mul_zero, sub_zero, zero_add, Pi.div_apply]
  field_simp

theorem sum_mean {ι : Type} [Fintype ι] (x g : ι → ℝ) (h : ∑ i, x i = 1) :
    ∑ i, ∑ j, x i * x j * ((g i + g j) / 2) = ∑ i, x i * g i := by
  have e : ∀ i j, x i * x j * ((g i + g j) / 2) = x i * g i / 2 * x j + x i / 2 * (x j * g j) :=
    fun i j => by ring
  simp_rw [e, sum_add_distrib, ← mul_sum, h, mul_one, ← sum_mul, ← sum_div, h]
  ring

/-- C65. Generic cubic: for a composition summing to one, the second virial coefficient reported is the
exact quadratic form `∑∑ x_i x_j B_ij`, where `B_ij` combines the pure-component parameters with the
arithmetic mean of the covolumes and the geometric mean of the attractions, reduced by `1 - k_ij`. -/
theorem cubic_B2 {ι : Type} [Fintype ι] (m : Cubic ι) (T : ℝ) (x : ι → ℝ) (hx : ∑ i, x i = 1)
    (hb : m.get_b x ≠ 0) (hD : m.Delta1 ≠ m.Delta2) :
    B2vir (fun T ρ => m.alphar T ρ x) T = ∑ i, ∑ j, x i * x j *
      ((m.bi i + m.bi j) / 2 - (1 - m.kmat i j) *
        Real.sqrt ((m.ai i * (m.alphas i).eval T) * (m.ai j * (m.alphas j).eval T)) / (m.R * T)) := by
  have h : B2vir (fun T ρ => m.alphar T ρ x) T = m.get_b x - m.get_a T x / (m.R * T) := by
    unfold B2vir
    exact (cubicAlphar_slope hb hD).deriv
  rw [h]
  simp_rw [mul_sub, sum_sub_distrib]
  rw [sum_mean x m.bi hx]
  congr 1
  unfold Cubic.get_a
  simp_rw [sum_div, mul_div_assoc]

/-- C65. The van der Waals mixture. -/
theorem vdWMix_B2 {ι : Type} [Fintype ι] (m : VdWMix ι) (T : ℝ) (x : ι → ℝ) (hx : ∑ i, x i = 1) :
    B2vir (fun T ρ => m.alphar T ρ x) T = ∑ i, ∑ j, x i * x j *
      ((m.bi i + m.bi j) / 2 - (1 - m.k i j) * Real.sqrt (m.ai i * m.ai j) / (RuvdW * T)) := by
  have h : B2vir (fun T ρ => m.alphar T ρ x) T = m.b x - m.a x / (RuvdW * T) := by
    unfold B2vir
    have h1 : HasDerivAt (fun ρ : ℝ => 1 - m.b x * ρ) (-m.b x) 0 := by
      simpa using ((hasDerivAt_id (0 : ℝ)).const_mul (m.b x)).const_sub 1
    have := ((h1.log (by norm_num)).neg).sub ((hasDerivAt_id (0 : ℝ)).const_mul (m.a x / (RuvdW * T)))
    refine HasDerivAt.deriv (this.congr_deriv ?_)
    simp
  rw [h]
  simp_rw [mul_sub, sum_sub_distrib]
  rw [sum_mean x m.bi hx]
  congr 1
  unfold VdWMix.a
  simp_rw [sum_div, mul_div_assoc]

/-- C65. RK-PR: the covolume too carries an interaction parameter. -/
theorem RKPR_B2 {ι : Type} [Fintype ι] (m : RKPR ι) (T : ℝ) (x : ι → ℝ)
    (hb : m.get_b x ≠ 0) (hD : ∑ i, x i * m.delta1 i ≠ (1 - ∑ i, x i * m.delta1 i) / (1 + ∑ i, x i * m.delta1 i)) :
    B2vir (fun T ρ => m.alphar T ρ x) T = ∑ i, ∑ j, x i * x j *
      ((m.b_c i + m.b_c j) / 2 * (1 - m.lmat i j) -
        (1 - m.kmat i j) * Real.sqrt (m.get_ai i T * m.get_ai j T) / (m.Ru * T)) := by
  have h : B2vir (fun T ρ => m.alphar T ρ x) T = m.get_b x - m.get_a T x / (m.Ru * T) := by
    unfold B2vir
    exact (cubicAlphar_slope hb hD).deriv
  rw [h]
  unfold RKPR.get_b RKPR.get_a
  rw [sum_div, ← sum_sub_distrib]
  refine sum_congr rfl fun i _ => ?_
  rw [sum_div, ← sum_sub_distrib]
  exact sum_congr rfl fun j _ => by ring

/-- C65 with C06: the cross coefficient extracted from an equimolar or any other binary of a van der
Waals mixture is `(b₀+b₁)/2 - (1-k̄)√(a₀a₁)/(RT)`, `k̄` the mean of the two matrix entries. -/
theorem vdWMix_B12 (m : VdWMix (Fin 2)) (T x0 : ℝ) (h0 : 0 < x0) (h1 : x0 < 1)
    (hk0 : m.k 0 0 = 0) (hk1 : m.k 1 1 = 0) :
    B12vir (fun T ρ z => m.alphar T ρ ![z.getD 0 0, z.getD 1 0]) T [x0, 1 - x0]
      = .ok ((m.bi 0 + m.bi 1) / 2
          - (1 - (m.k 0 1 + m.k 1 0) / 2) * Real.sqrt (m.ai 0 * m.ai 1) / (RuvdW * T)) := by
  have q : ∀ y0 y1 : ℝ, y0 + y1 = 1 → B2vir (fun T ρ => m.alphar T ρ ![y0, y1]) T = _ :=
    fun y0 y1 h => vdWMix_B2 m T ![y0, y1] (by simpa using h)
  unfold B12vir
  simp only [List.getD_cons_zero, List.getD_cons_succ]
  rw [q x0 (1 - x0) (by ring), q 1 0 (by ring), q 0 1 (by ring)]
  simp only [Fin.sum_univ_two, Matrix.cons_val_zero, Matrix.cons_val_one, hk0, hk1,
    mul_comm (m.ai 1) (m.ai 0)]
  have hne : x0 ≠ 0 := h0.ne'
  have hne1 : 1 - x0 ≠ 0 := by linarith
  rw [if_neg (by positivity)]
  congr 1
  generalize Real.sqrt (m.ai 0 * m.ai 1) / (RuvdW * T) = s
  field_simp
  ring

/-- The binary of the examples. -/
noncomputable def demoVdW : VdWMix (Fin 2) :=
  { VdWMix.ofCritical ![150, 305] ![4.8e6, 4.9e6] with k := fun i j => if i = j then 0 else 0.1 }

example : B12vir (fun T ρ z => demoVdW.alphar T ρ ![z.getD 0 0, z.getD 1 0]) 300 [0.3, 1 - 0.3]
      = .ok ((demoVdW.bi 0 + demoVdW.bi 1) / 2
          - (1 - (0.1 + 0.1) / 2) * Real.sqrt (demoVdW.ai 0 * demoVdW.ai 1) / (RuvdW * 300)) :=
  vdWMix_B12 demoVdW 300 0.3 (by norm_num) (by norm_num) rfl rfl

/-! ## C66 -/

theorem reduced_sqrt_slope (Tci : ℝ) (h : 0 < Tci) :
    HasDerivAt (fun T => 1 - Real.sqrt (T / Tci)) (-(1 / (2 * Tci))) Tci := by
  have h1 : HasDerivAt (fun T : ℝ => T / Tci) (1 / Tci) Tci := (hasDerivAt_id Tci).div_const Tci
  have h2 := (h1.sqrt (by simp [h.ne'])).const_sub 1
  refine h2.congr_deriv ?_
  rw [div_self h.ne', Real.sqrt_one]
  field_simp

/-- C66. Slope of the alpha functions at the critical temperature, in units of `1/Tc`: `-m` for the
classical function, `-c₀` for Mathias-Copeman, `c₂(c₁-1) - c₀c₁c₂` for Twu. -/
theorem alpha_slope_Tc (Tci : ℝ) (h : 0 < Tci) (m c0 c1 c2 : ℝ) :
    HasDerivAt (AlphaFn.basic Tci m).eval (-m / Tci) Tci ∧
    HasDerivAt (AlphaFn.mathiasCopeman Tci c0 c1 c2).eval (-c0 / Tci) Tci ∧
    HasDerivAt (AlphaFn.twu Tci c0 c1 c2).eval ((c2 * (c1 - 1) - c0 * c1 * c2) / Tci) Tci := by
  have hs := reduced_sqrt_slope Tci h
  have e1 : 1 - Real.sqrt (Tci / Tci) = 0 := by rw [div_self h.ne']; simp
  refine ⟨?_, ?_, ?_⟩
  · have := ((hs.const_mul m).const_add 1).pow 2
    refine this.congr_deriv ?_
    simp only [e1]
    field_simp
    norm_num
    ring
  · have hp := (((hs.const_mul c0).const_add 1).add ((hs.const_mul c1).mul hs)).add
      (((hs.const_mul c2).mul hs).mul hs)
    refine (hp.mul hp).congr_deriv ?_
    simp only [Pi.add_apply, Pi.mul_apply, e1]
    field_simp
    ring
  · have h1 : HasDerivAt (fun T : ℝ => T / Tci) (1 / Tci) Tci := (hasDerivAt_id Tci).div_const Tci
    have hr : ∀ p : ℝ, HasDerivAt (fun T : ℝ => (T / Tci) ^ p) (p / Tci) Tci := fun p => by
      refine (h1.rpow_const (p := p) (.inl (by simp [h.ne']))).congr_deriv ?_
      rw [div_self h.ne', Real.one_rpow]; ring
    have := (hr (c2 * (c1 - 1))).mul (((hr (c1 * c2)).const_sub 1).const_mul c0).exp
    refine this.congr_deriv ?_
    rw [div_self h.ne']
    simp
    ring

example : HasDerivAt (AlphaFn.basic 190 0.4).eval (-0.4 / 190) 190 :=
  (alpha_slope_Tc 190 (by norm_num) 0.4 0 0 0).1

/-- C66. Mathias-Copeman with a single coefficient is the classical function at every temperature. -/
theorem mathiasCopeman_reduces (Tci m T : ℝ) :
    (AlphaFn.mathiasCopeman Tci m 0 0).eval T = (AlphaFn.basic Tci m).eval T := by
  simp only [AlphaFn.eval]; ring

/-- C66. For a positive `m` the classical alpha function strictly decreases with temperature up to the
temperature `Tc (1 + 1/m)²` at which it vanishes. -/
theorem alpha_strictAnti (Tci m : ℝ) (h : 0 < Tci) (hm : 0 < m) :
    StrictAntiOn (AlphaFn.basic Tci m).eval (Set.Icc 0 (Tci * (1 + 1 / m) ^ 2)) ∧
    (AlphaFn.basic Tci m).eval (Tci * (1 + 1 / m) ^ 2) = 0 := by
  have hb : ∀ T, T ≤ Tci * (1 + 1 / m) ^ 2 → Real.sqrt (T / Tci) ≤ 1 + 1 / m := fun T hT => by
    refine Real.sqrt_le_iff.mpr ⟨by positivity, ?_⟩
    rw [div_le_iff₀ h]; linarith
  constructor
  · intro s hs t ht hst
    simp only [AlphaFn.eval]
    have h1 : Real.sqrt (s / Tci) < Real.sqrt (t / Tci) :=
      Real.sqrt_lt_sqrt (div_nonneg hs.1 h.le) (div_lt_div_of_pos_right hst h)
    have h2 := hb t ht.2
    have h3 : 0 ≤ 1 + m * (1 - Real.sqrt (t / Tci)) := by
      have : m * Real.sqrt (t / Tci) ≤ m * (1 + 1 / m) := mul_le_mul_of_nonneg_left h2 hm.le
      have e : m * (1 + 1 / m) = m + 1 := by field_simp
      linarith
    have h4 : 1 + m * (1 - Real.sqrt (t / Tci)) < 1 + m * (1 - Real.sqrt (s / Tci)) := by
      have := mul_lt_mul_of_pos_left h1 hm
      linarith
    exact pow_lt_pow_left₀ h4 h3 (by norm_num)
  · simp only [AlphaFn.eval]
    rw [mul_div_cancel_left₀ _ h.ne', Real.sqrt_sq (by positivity)]
    field_simp
    ring

example : StrictAntiOn (AlphaFn.basic 190 0.5).eval (Set.Icc 0 (190 * (1 + 1 / 0.5) ^ 2)) :=
  (alpha_strictAnti 190 0.5 (by norm_num) (by norm_num)).1

/-- C66. The `m` of both models is positive over the range of acentric factors of real fluids. -/
theorem m_positive (ω : ℝ) (h0 : -0.2 ≤ ω) (h1 : ω ≤ 2) : 0 < mSRK ω ∧ 0 < mPR ω := by
  constructor
  · unfold mSRK; nlinarith
  · unfold mPR
    by_cases h : ω < 0.491
    · rw [if_pos h]; nlinarith
    · rw [if_neg h]
      have := not_lt.mp h
      nlinarith [pow_pos (show (0 : ℝ) < ω by linarith) 3]

example : 0 < mSRK 0.344 ∧ 0 < mPR 0.344 := m_positive _ (by norm_num) (by norm_num)

/-- C66. Crossing the switch of Peng-Robinson 1978 moves `m` by less than `5 · 10⁻³`: the limit from
below differs from the value at the switch by that little. -/
theorem mPR_switch : ∃ l, Filter.Tendsto mPR (nhdsWithin 0.491 (Set.Iio 0.491)) (nhds l) ∧
    |mPR 0.491 - l| < 5e-3 := by
  refine ⟨0.37464 + 1.54226 * 0.491 - 0.26992 * 0.491 ^ 2, ?_, ?_⟩
  · have hc : Continuous fun ω : ℝ => 0.37464 + 1.54226 * ω - 0.26992 * ω ^ 2 := by fun_prop
    refine (hc.continuousAt.tendsto.mono_left nhdsWithin_le_nhds).congr' ?_
    filter_upwards [self_mem_nhdsWithin] with ω hω
    unfold mPR
    rw [if_pos (Set.mem_Iio.mp hω)]
  · unfold mPR
    rw [if_neg (by norm_num), abs_lt]
    norm_num

/-! ## C67 -/

/-- C67. For a fluid whose residual Helmholtz energy depends on temperature and density only through
`ρ^(n/3)/T` (particles repelling as the inverse `n`-th power of distance) the reported effective
hardness is exactly `n`, at every state. -/
theorem neff_inverse_power (n : ℝ) (f f1 f2 : ℝ → ℝ)
    (hf : ∀ y, 0 < y → HasDerivAt f (f1 y) y) (hf1 : ∀ y, 0 < y → HasDerivAt f1 (f2 y) y)
    (T ρ : ℝ) (hT : 0 < T) (hρ : 0 < ρ) (h2 : f2 (ρ ^ (n / 3) / T) ≠ 0) :
    getNeff (fun T ρ => f (ρ ^ (n / 3) / T)) T ρ = n := by
  set g := n / 3 with hg
  have hpos : ∀ r : ℝ, 0 < r → 0 < r ^ g := fun r hr => Real.rpow_pos_of_pos hr g
  have hd1 : ∀ t : ℝ, 0 < t → ∀ r : ℝ, 0 < r →
      HasDerivAt (fun r => f (r ^ g / (1 / t))) (f1 (r ^ g * t) * (g * r ^ (g - 1) * t)) r := by
    intro t ht r hr
    have e : (fun r : ℝ => f (r ^ g / (1 / t))) = fun r => f (r ^ g * t) := by
      funext r; rw [div_div_eq_mul_div, div_one]
    rw [e]
    have hi : HasDerivAt (fun r : ℝ => r ^ g * t) (g * r ^ (g - 1) * t) r :=
      (Real.hasDerivAt_rpow_const (.inl hr.ne')).mul_const t
    exact HasDerivAt.comp (h₂ := f) r (hf _ (mul_pos (hpos r hr) ht)) hi
  have hi2 : ∀ t, HasDerivAt (fun t : ℝ => ρ ^ g * t) (ρ ^ g) t := fun t => by
    simpa using (hasDerivAt_id t).const_mul (ρ ^ g)
  have ht0 : 0 < 1 / T := by positivity
  have hx : ρ ^ g * (1 / T) = ρ ^ g / T := by ring
  have hev : ∀ᶠ t in nhds (1 / T), 0 < t := lt_mem_nhds ht0
  -- the three derivatives
  have A01 : Lambda (fun T ρ => f (ρ ^ g / T)) 0 1 T ρ = g * (ρ ^ g / T) * f1 (ρ ^ g / T) := by
    unfold Lambda
    rw [iteratedDeriv_zero, iteratedDeriv_one, (hd1 _ ht0 ρ hρ).deriv, hx,
      Real.rpow_sub_one hρ.ne']
    field_simp
  have A11 : Lambda (fun T ρ => f (ρ ^ g / T)) 1 1 T ρ
      = g * (ρ ^ g / T) * (f1 (ρ ^ g / T) + (ρ ^ g / T) * f2 (ρ ^ g / T)) := by
    unfold Lambda
    rw [iteratedDeriv_one]
    have hD : HasDerivAt (fun t => f1 (ρ ^ g * t) * (g * ρ ^ (g - 1) * t))
        (f2 (ρ ^ g * (1 / T)) * ρ ^ g * (g * ρ ^ (g - 1) * (1 / T))
          + f1 (ρ ^ g * (1 / T)) * (g * ρ ^ (g - 1))) (1 / T) := by
      have hc := HasDerivAt.comp (h₂ := f1) (1 / T) (hf1 _ (mul_pos (hpos ρ hρ) ht0)) (hi2 (1 / T))
      have hl : HasDerivAt (fun t : ℝ => g * ρ ^ (g - 1) * t) (g * ρ ^ (g - 1)) (1 / T) := by
        simpa using (hasDerivAt_id (1 / T)).const_mul (g * ρ ^ (g - 1))
      exact hc.mul hl
    have hD' : deriv (fun t => iteratedDeriv 1 (fun r => f (r ^ g / (1 / t))) ρ) (1 / T)
        = f2 (ρ ^ g * (1 / T)) * ρ ^ g * (g * ρ ^ (g - 1) * (1 / T))
          + f1 (ρ ^ g * (1 / T)) * (g * ρ ^ (g - 1)) := by
      refine (hD.congr_of_eventuallyEq ?_).deriv
      filter_upwards [hev] with t ht
      rw [iteratedDeriv_one, (hd1 t ht ρ hρ).deriv]
    rw [hD', hx, Real.rpow_sub_one hρ.ne']
    field_simp
    ring
  have A20 : Lambda (fun T ρ => f (ρ ^ g / T)) 2 0 T ρ = (ρ ^ g / T) ^ 2 * f2 (ρ ^ g / T) := by
    unfold Lambda
    simp only [iteratedDeriv_zero]
    have e : (fun t : ℝ => f (ρ ^ g / (1 / t))) = fun t => f (ρ ^ g * t) := by
      funext t; rw [div_div_eq_mul_div, div_one]
    rw [e, iteratedDeriv_succ, iteratedDeriv_one]
    have hd : ∀ t, 0 < t → HasDerivAt (fun t => f (ρ ^ g * t)) (f1 (ρ ^ g * t) * ρ ^ g) t :=
      fun t ht => HasDerivAt.comp (h₂ := f) t (hf _ (mul_pos (hpos ρ hρ) ht)) (hi2 t)
    have hc := (HasDerivAt.comp (h₂ := f1) (1 / T) (hf1 _ (mul_pos (hpos ρ hρ) ht0))
      (hi2 (1 / T))).mul_const (ρ ^ g)
    have : deriv (deriv fun t => f (ρ ^ g * t)) (1 / T) = f2 (ρ ^ g * (1 / T)) * ρ ^ g * ρ ^ g := by
      refine (hc.congr_of_eventuallyEq ?_).deriv
      filter_upwards [hev] with t ht
      exact (hd t ht).deriv
    rw [this, hx]
    ring
  unfold getNeff
  simp only [Agenxy_is_Lambda]
  rw [A01, A11, A20]
  have hxp : ρ ^ g / T ≠ 0 := (div_pos (hpos ρ hρ) hT).ne'
  generalize ρ ^ g / T = y at *
  rw [hg]
  field_simp
  ring

example : getNeff (fun T ρ => (ρ ^ ((12 : ℝ) / 3) / T) ^ 2) 300 500 = 12 := by
  refine neff_inverse_power 12 (fun y => y ^ 2) (fun y => 2 * y) (fun _ => 2) ?_ ?_ 300 500
    (by norm_num) (by norm_num) (by norm_num)
  · intro y _; simpa using hasDerivAt_pow 2 y
  · intro y _; simpa using (hasDerivAt_id y).const_mul 2

end Teqp.Props

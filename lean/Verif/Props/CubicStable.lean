import Verif.Props.CubicCaloric
import Verif.Spec.CubicStable
import Mathlib.Analysis.Calculus.Deriv.MeanValue
import Mathlib.Topology.Order.IntermediateValue

/-! # C172: which isotherms of cubic models have one density for every pressure -/

set_option autoImplicit false

namespace Teqp.Props
open Teqp Teqp.Model Teqp.Spec Teqp.Lemmas Filter Topology

variable {ι : Type} [Fintype ι]

/-- The isotherm of a cubic model at fixed composition, near a density below close packing. -/
theorem cubic_isotherm (c : Cubic ι) (x : ι → ℝ) (T ρ : ℝ) (hR : 0 < c.R) (hT : 0 < T) (hb : 0 < c.get_b x) (hρ : 0 < ρ) (h : c.get_b x * ρ < 1)
    (hD : c.Delta1 ≠ c.Delta2) (hD1 : -1 < c.Delta1) (hD2 : -1 < c.Delta2) :
    totalPressure (fun T r => c.alphar T r x) c.R T ρ = cubicP (c.R * T) (c.get_a T x) (c.get_b x) (c.Delta1 + c.Delta2) (c.Delta1 * c.Delta2) ρ := by
  have hbr : 0 < c.get_b x * ρ := mul_pos hb hρ
  have key : ∀ D : ℝ, -1 < D → 0 < D * c.get_b x * ρ + 1 := fun D hD => by nlinarith
  rw [← totalPressure_cubicAlphar hR.ne' hT.ne' hb.ne' hD (sub_ne_zero.mpr h.ne') (key _ hD1).ne' (key _ hD2).ne']
  simp only [totalPressure, pressure, helmholtz, Cubic.alphar]

theorem cubicDen_pos {D1 D2 u : ℝ} (hu : 0 < u) (h : u < 1) (hD1 : -1 < D1) (hD2 : -1 < D2) : 0 < 1 + (D1 + D2) * u + D1 * D2 * u ^ 2 := by
  have e : 1 + (D1 + D2) * u + D1 * D2 * u ^ 2 = (1 + D1 * u) * (1 + D2 * u) := by ring
  rw [e]
  exact mul_pos (by nlinarith) (by nlinarith)

/-- The sign of the slope of an isotherm. -/
theorem cubic_slope_pos (c : Cubic ι) (x : ι → ℝ) (T ρ : ℝ) (hR : 0 < c.R) (hT : 0 < T) (hb : 0 < c.get_b x) (hρ : 0 < ρ) (h : c.get_b x * ρ < 1)
    (hD : c.Delta1 ≠ c.Delta2) (hD1 : -1 < c.Delta1) (hD2 : -1 < c.Delta2) :
    0 < deriv (fun r => totalPressure (fun T r => c.alphar T r x) c.R T r) ρ ↔
      c.get_a T x * ((2 * (c.get_b x * ρ) + (c.Delta1 + c.Delta2) * (c.get_b x * ρ) ^ 2) * (1 - c.get_b x * ρ) ^ 2)
        < c.get_b x * (c.R * T) * (1 + (c.Delta1 + c.Delta2) * (c.get_b x * ρ) + c.Delta1 * c.Delta2 * (c.get_b x * ρ) ^ 2) ^ 2 := by
  have hu : 0 < c.get_b x * ρ := mul_pos hb hρ
  have hq := cubicDen_pos hu h hD1 hD2
  have hev : (fun r => totalPressure (fun T r => c.alphar T r x) c.R T r) =ᶠ[𝓝 ρ]
      cubicP (c.R * T) (c.get_a T x) (c.get_b x) (c.Delta1 + c.Delta2) (c.Delta1 * c.Delta2) := by
    have h1 : ∀ᶠ r in 𝓝 ρ, c.get_b x * r < 1 := ContinuousAt.eventually_lt (by fun_prop) (by fun_prop) h
    filter_upwards [lt_mem_nhds hρ, h1] with r hr hr1
    exact cubic_isotherm c x T r hR hT hb hr hr1 hD hD1 hD2
  have e2 : 1 + (c.Delta1 + c.Delta2) * c.get_b x * ρ + c.Delta1 * c.Delta2 * c.get_b x ^ 2 * ρ ^ 2
      = 1 + (c.Delta1 + c.Delta2) * (c.get_b x * ρ) + c.Delta1 * c.Delta2 * (c.get_b x * ρ) ^ 2 := by ring
  rw [hev.deriv_eq, (hasDerivAt_cubicP (RT := c.R * T) (a := c.get_a T x) (sub_ne_zero.mpr h.ne') (by rw [e2]; exact hq.ne')).deriv]
  unfold cubicP1
  rw [e2, sub_pos, div_lt_div_iff₀ (by positivity) (pow_pos (by linarith) 2)]
  set b := c.get_b x
  rw [← mul_lt_mul_iff_right₀ hb]
  ring_nf

/-- A stable isotherm meets every positive pressure once. -/
theorem stable_oneDensity (c : Cubic ι) (x : ι → ℝ) (T : ℝ) (hR : 0 < c.R) (hT : 0 < T) (hb : 0 < c.get_b x)
    (hD : c.Delta1 ≠ c.Delta2) (hD1 : -1 < c.Delta1) (hD2 : -1 < c.Delta2) (hs : MechStable (fun T r => c.alphar T r x) c.R T (c.get_b x)) :
    OneDensity (fun T r => c.alphar T r x) c.R T (c.get_b x) := by
  set b := c.get_b x with hbd
  set P := cubicP (c.R * T) (c.get_a T x) b (c.Delta1 + c.Delta2) (c.Delta1 * c.Delta2) with hP
  have hiso (ρ : ℝ) (h0 : 0 < ρ) (h1 : b * ρ < 1) : totalPressure (fun T r => c.alphar T r x) c.R T ρ = P ρ :=
    cubic_isotherm c x T ρ hR hT hb h0 h1 hD hD1 hD2
  have hden (ρ : ℝ) (h0 : 0 ≤ ρ) (h1 : b * ρ < 1) : 0 < 1 + (c.Delta1 + c.Delta2) * b * ρ + c.Delta1 * c.Delta2 * b ^ 2 * ρ ^ 2 := by
    rcases h0.eq_or_lt with rfl | h0
    · simp
    · have := cubicDen_pos (mul_pos hb h0) h1 hD1 hD2
      nlinarith
  have hder (ρ : ℝ) (h0 : 0 ≤ ρ) (h1 : b * ρ < 1) : HasDerivAt P (cubicP1 (c.R * T) (c.get_a T x) b (c.Delta1 + c.Delta2) (c.Delta1 * c.Delta2) ρ) ρ :=
    hasDerivAt_cubicP (sub_ne_zero.mpr h1.ne') (hden ρ h0 h1).ne'
  have hmem (ρ : ℝ) : ρ < 1 / b ↔ b * ρ < 1 := by rw [lt_div_iff₀ hb, mul_comm]
  have hcont : ContinuousOn P (Set.Ico 0 (1 / b)) := fun ρ hρ => (hder ρ hρ.1 ((hmem ρ).1 hρ.2)).continuousAt.continuousWithinAt
  have hmono : StrictMonoOn P (Set.Ico 0 (1 / b)) := by
    refine strictMonoOn_of_deriv_pos (convex_Ico 0 (1 / b)) hcont fun ρ hρ => ?_
    rw [interior_Ico] at hρ
    have h1 := (hmem ρ).1 hρ.2
    have := hs ρ hρ.1 h1
    have hev : (fun r => totalPressure (fun T r => c.alphar T r x) c.R T r) =ᶠ[𝓝 ρ] P := by
      filter_upwards [Ioo_mem_nhds hρ.1 hρ.2] with r hr
      exact hiso r hr.1 ((hmem r).1 hr.2)
    rwa [hev.deriv_eq] at this
  have h0 : P 0 = 0 := by simp [hP, cubicP]
  -- the pressure exceeds every bound near close packing
  have htop : Tendsto P (𝓝[<] (1 / b)) atTop := by
    have hd1 : (0 : ℝ) < 1 + (c.Delta1 + c.Delta2) * b * (1 / b) + c.Delta1 * c.Delta2 * b ^ 2 * (1 / b) ^ 2 := by
      have e : 1 + (c.Delta1 + c.Delta2) * b * (1 / b) + c.Delta1 * c.Delta2 * b ^ 2 * (1 / b) ^ 2 = (1 + c.Delta1) * (1 + c.Delta2) := by
        field_simp; ring
      rw [e]; exact mul_pos (by linarith) (by linarith)
    have t1 : Tendsto (fun ρ : ℝ => (1 - b * ρ)⁻¹) (𝓝[<] (1 / b)) atTop := by
      refine tendsto_inv_nhdsGT_zero.comp (tendsto_nhdsWithin_iff.2 ⟨?_, ?_⟩)
      · have : ContinuousAt (fun ρ : ℝ => 1 - b * ρ) (1 / b) := by fun_prop
        have h := this.tendsto
        rw [mul_one_div_cancel hb.ne', sub_self] at h
        exact h.mono_left nhdsWithin_le_nhds
      · filter_upwards [self_mem_nhdsWithin] with ρ hρ
        have := (hmem ρ).1 hρ
        simp only [Set.mem_Ioi]; linarith
    have t2 : Tendsto (fun ρ : ℝ => c.R * T * ρ) (𝓝[<] (1 / b)) (𝓝 (c.R * T * (1 / b))) :=
      (ContinuousAt.tendsto (by fun_prop)).mono_left nhdsWithin_le_nhds
    have t3 : Tendsto (fun ρ : ℝ => -(c.get_a T x * ρ ^ 2 / (1 + (c.Delta1 + c.Delta2) * b * ρ + c.Delta1 * c.Delta2 * b ^ 2 * ρ ^ 2))) (𝓝[<] (1 / b))
        (𝓝 (-(c.get_a T x * (1 / b) ^ 2 / (1 + (c.Delta1 + c.Delta2) * b * (1 / b) + c.Delta1 * c.Delta2 * b ^ 2 * (1 / b) ^ 2)))) := by
      have hc : ContinuousAt (fun ρ : ℝ => c.get_a T x * ρ ^ 2 / (1 + (c.Delta1 + c.Delta2) * b * ρ + c.Delta1 * c.Delta2 * b ^ 2 * ρ ^ 2)) (1 / b) := by
        refine ContinuousAt.div ?_ ?_ ?_
        · fun_prop
        · fun_prop
        · exact hd1.ne'
      exact hc.neg.tendsto.mono_left nhdsWithin_le_nhds
    have := (t2.pos_mul_atTop (by positivity) t1).atTop_add t3
    refine this.congr fun ρ => ?_
    simp only [hP, cubicP]
    ring
  intro p hp
  obtain ⟨r1, hr1, hpr⟩ : ∃ r, r ∈ Set.Ioo 0 (1 / b) ∧ p ≤ P r := by
    have e := htop.eventually_ge_atTop p
    have e2 : ∀ᶠ ρ in 𝓝[<] (1 / b), ρ ∈ Set.Ioo 0 (1 / b) := Ioo_mem_nhdsLT (by positivity)
    obtain ⟨r, h1, h2⟩ := (e.and e2).exists
    exact ⟨r, h2, h1⟩
  have hsub : Set.Icc 0 r1 ⊆ Set.Ico 0 (1 / b) := fun r hr => ⟨hr.1, hr.2.trans_lt hr1.2⟩
  obtain ⟨ρ, hρ, hPρ⟩ := intermediate_value_Icc hr1.1.le (hcont.mono hsub) (show p ∈ Set.Icc (P 0) (P r1) from ⟨by rw [h0]; exact hp.le, hpr⟩)
  have hρ0 : 0 < ρ := lt_of_le_of_ne hρ.1 fun e => by rw [← e, h0] at hPρ; exact hp.ne hPρ
  have hρ1 := (hmem ρ).1 (hsub hρ).2
  refine ⟨ρ, ⟨hρ0, hρ1, by rw [hiso ρ hρ0 hρ1, hPρ]⟩, fun r hr => ?_⟩
  have hr2 := hr.2.2
  rw [hiso r hr.1 hr.2.1, ← hPρ] at hr2
  exact hmono.injOn ⟨hr.1.le, (hmem r).2 hr.2.1⟩ (hsub hρ) hr2

/-! ## Soave-Redlich-Kwong -/

/-- The reduced density `b ρ` of the critical point. -/
noncomputable def srkU : ℝ := (2 : ℝ) ^ (1 / 3 : ℝ) - 1

theorem srkU_facts : 0 < srkU ∧ srkU < 1 ∧ (1 + srkU) ^ 3 = 2 := by
  have h3 : ((2 : ℝ) ^ (1 / 3 : ℝ)) ^ 3 = 2 := cbrt_cube (by norm_num)
  have h1 : 1 < (2 : ℝ) ^ (1 / 3 : ℝ) := Real.one_lt_rpow (by norm_num) (by norm_num)
  have h2 : (2 : ℝ) ^ (1 / 3 : ℝ) < 2 := by
    by_contra h
    push Not at h
    have : (2 : ℝ) ^ 3 ≤ ((2 : ℝ) ^ (1 / 3 : ℝ)) ^ 3 := pow_le_pow_left₀ (by norm_num) h 3
    rw [h3] at this; norm_num at this
  refine ⟨by unfold srkU; linarith, by unfold srkU; linarith, ?_⟩
  unfold srkU
  rw [add_sub_cancel, h3]

/-- **The isotherms of a Soave-Redlich-Kwong mixture at fixed composition**: mechanically stable exactly when the attraction is below `b R T / (3 (2^(1/3) - 1)^2)`, for any alpha
functions and binary parameters. -/
theorem srk_stable_iff (c : Cubic ι) (x : ι → ℝ) (T : ℝ) (hR : 0 < c.R) (hT : 0 < T) (hb : 0 < c.get_b x) (h1 : c.Delta1 = 1) (h2 : c.Delta2 = 0) :
    MechStable (fun T r => c.alphar T r x) c.R T (c.get_b x) ↔ 3 * srkU ^ 2 * c.get_a T x < c.get_b x * (c.R * T) := by
  obtain ⟨hu0, hu1, hu3⟩ := srkU_facts
  have hD : c.Delta1 ≠ c.Delta2 := by rw [h1, h2]; norm_num
  have hD1 : -1 < c.Delta1 := by rw [h1]; norm_num
  have hD2 : -1 < c.Delta2 := by rw [h2]; norm_num
  have hfac (u : ℝ) : 3 * srkU ^ 2 * (1 + u) ^ 2 - (2 * u + u ^ 2) * (1 - u) ^ 2 = (u - srkU) ^ 2 * (3 - u ^ 2 - 2 * srkU * u) := by
    linear_combination (2 * u) * hu3
  constructor
  · intro hs
    have hbu : c.get_b x * (srkU / c.get_b x) = srkU := mul_div_cancel₀ _ hb.ne'
    have := (cubic_slope_pos c x T (srkU / c.get_b x) hR hT hb (by positivity) (by rw [hbu]; exact hu1) hD hD1 hD2).1
      (hs _ (by positivity) (by rw [hbu]; exact hu1))
    rw [hbu, h1, h2] at this
    have hf := hfac srkU
    have hp : 0 < (1 + srkU) ^ 2 := by positivity
    refine lt_of_mul_lt_mul_right ?_ hp.le
    have e : 3 * srkU ^ 2 * c.get_a T x * (1 + srkU) ^ 2 = c.get_a T x * ((2 * srkU + (1 + 0) * srkU ^ 2) * (1 - srkU) ^ 2) := by
      linear_combination c.get_a T x * hf
    rw [e]
    refine this.trans_eq ?_
    ring
  · intro hk ρ hρ hd
    rw [cubic_slope_pos c x T ρ hR hT hb hρ hd hD hD1 hD2, h1, h2]
    have hu : 0 < c.get_b x * ρ := mul_pos hb hρ
    generalize c.get_b x * ρ = u at hu hd
    have hw : 0 < (2 * u + u ^ 2) * (1 - u) ^ 2 := mul_pos (by positivity) (pow_pos (by linarith) 2)
    have hq : 0 ≤ (u - srkU) ^ 2 * (3 - u ^ 2 - 2 * srkU * u) := mul_nonneg (sq_nonneg _) (by nlinarith)
    have hf := hfac u
    have hle : (2 * u + u ^ 2) * (1 - u) ^ 2 ≤ 3 * srkU ^ 2 * (1 + u) ^ 2 := by linarith
    have hbR : 0 < c.get_b x * (c.R * T) := by positivity
    have e1 : c.get_b x * (c.R * T) * (1 + (1 + 0) * u + 1 * 0 * u ^ 2) ^ 2 = c.get_b x * (c.R * T) * (1 + u) ^ 2 := by ring
    have e2 : (2 * u + (1 + 0) * u ^ 2) * (1 - u) ^ 2 = (2 * u + u ^ 2) * (1 - u) ^ 2 := by ring
    rw [e1, e2]
    refine lt_of_mul_lt_mul_left (a := 3 * srkU ^ 2) ?_ (by positivity)
    calc 3 * srkU ^ 2 * (c.get_a T x * ((2 * u + u ^ 2) * (1 - u) ^ 2)) = 3 * srkU ^ 2 * c.get_a T x * ((2 * u + u ^ 2) * (1 - u) ^ 2) := by ring
      _ < c.get_b x * (c.R * T) * ((2 * u + u ^ 2) * (1 - u) ^ 2) := mul_lt_mul_of_pos_right hk hw
      _ ≤ c.get_b x * (c.R * T) * (3 * srkU ^ 2 * (1 + u) ^ 2) := mul_le_mul_of_nonneg_left hle hbR.le
      _ = _ := by ring

/-! ## The temperatures of a pure fluid with Soave's alpha function -/

/-- For slopes `m` in `(-1, 1]` the attraction over temperature is below its critical value exactly above the critical temperature. -/
theorem soave_below {Tc T m : ℝ} (hTc : 0 < Tc) (hT : 0 < T) (h0 : -1 < m) (h1 : m ≤ 1) : (AlphaFn.basic Tc m).eval T * Tc < T ↔ Tc < T := by
  have ht : 0 < Real.sqrt (T / Tc) := Real.sqrt_pos.2 (by positivity)
  have hs : T = Real.sqrt (T / Tc) ^ 2 * Tc := by rw [Real.sq_sqrt (by positivity)]; field_simp
  have hgt : Tc < T ↔ 1 < Real.sqrt (T / Tc) := by
    rw [Real.lt_sqrt zero_le_one, one_pow, lt_div_iff₀ hTc, one_mul]
  rw [hgt]
  simp only [AlphaFn.eval]
  generalize Real.sqrt (T / Tc) = t at ht hs
  rw [hs, mul_lt_mul_iff_left₀ hTc, sq_lt_sq, abs_of_pos ht, abs_lt]
  constructor
  · rintro ⟨-, h⟩
    by_contra hc
    push Not at hc
    nlinarith
  · intro h
    constructor <;> nlinarith

/-- For slopes above one they also end, at the reduced temperature `((m + 1)/(m - 1))^2`: the alpha function, being a square, grows again. -/
theorem soave_below_large {Tc T m : ℝ} (hTc : 0 < Tc) (hT : 0 < T) (h1 : 1 < m) :
    (AlphaFn.basic Tc m).eval T * Tc < T ↔ Tc < T ∧ T < Tc * ((m + 1) / (m - 1)) ^ 2 := by
  have hm : 0 < m - 1 := by linarith
  have ht : 0 < Real.sqrt (T / Tc) := Real.sqrt_pos.2 (by positivity)
  have hs : T = Real.sqrt (T / Tc) ^ 2 * Tc := by rw [Real.sq_sqrt (by positivity)]; field_simp
  have hgt : Tc < T ↔ 1 < Real.sqrt (T / Tc) := by
    rw [Real.lt_sqrt zero_le_one, one_pow, lt_div_iff₀ hTc, one_mul]
  rw [hgt]
  simp only [AlphaFn.eval]
  generalize Real.sqrt (T / Tc) = t at ht hs
  have hlt : T < Tc * ((m + 1) / (m - 1)) ^ 2 ↔ (m - 1) * t < m + 1 := by
    rw [hs, mul_comm Tc, mul_lt_mul_iff_left₀ hTc, sq_lt_sq, abs_of_pos ht, abs_of_pos (by positivity), lt_div_iff₀ hm, mul_comm t]
  rw [hlt, hs, mul_lt_mul_iff_left₀ hTc, sq_lt_sq, abs_of_pos ht, abs_lt]
  constructor
  · rintro ⟨h2, h⟩
    refine ⟨?_, by linarith⟩
    by_contra hc
    push Not at hc
    nlinarith
  · rintro ⟨h2, h⟩
    constructor <;> nlinarith

section pure
variable [DecidableEq ι]

theorem srk_pure_iff (Tc pc ω : ι → ℝ) (k : ι → ι → ℝ) (R T : ℝ) (i : ι) (hR : 0 < R) (hT : 0 < T) (hTc : 0 < Tc i) (hp : 0 < pc i) (hk : k i i = 0) :
    MechStable (fun T r => (canonicalSRK Tc pc ω k R).alphar T r (Pi.single i 1)) R T (OmegaB_SRK * R * Tc i / pc i) ↔
      (AlphaFn.basic (Tc i) (mSRK (ω i))).eval T * Tc i < T := by
  obtain ⟨hu0, hu1, hu3⟩ := srkU_facts
  have hB : OmegaB_SRK = srkU / 3 := rfl
  have hA : OmegaA_SRK = 1 / (9 * srkU) := rfl
  have hb : (canonicalSRK Tc pc ω k R).get_b (Pi.single i 1) = OmegaB_SRK * R * Tc i / pc i := cubic_b_single _ i
  have hbp : 0 < OmegaB_SRK * R * Tc i / pc i := by rw [hB]; positivity
  have ha : (canonicalSRK Tc pc ω k R).get_a T (Pi.single i 1) = OmegaA_SRK * (R * Tc i) ^ 2 / pc i * (AlphaFn.basic (Tc i) (mSRK (ω i))).eval T :=
    cubic_pure_a Tc pc 1 0 OmegaA_SRK OmegaB_SRK R (fun i => .basic (Tc i) (mSRK (ω i))) k i T (by rw [hA]; positivity) hp hT.le hTc.le hk
  have := srk_stable_iff (canonicalSRK Tc pc ω k R) (Pi.single i 1) T hR hT (by rw [hb]; exact hbp) rfl rfl
  rw [hb, ha] at this
  refine this.trans ?_
  rw [hA, hB]
  have hRe : (canonicalSRK Tc pc ω k R).R = R := rfl
  rw [hRe]
  have hf : 0 < srkU / 3 * R * R * Tc i / pc i := by positivity
  have e1 : 3 * srkU ^ 2 * (1 / (9 * srkU) * (R * Tc i) ^ 2 / pc i * (AlphaFn.basic (Tc i) (mSRK (ω i))).eval T)
      = srkU / 3 * R * R * Tc i / pc i * ((AlphaFn.basic (Tc i) (mSRK (ω i))).eval T * Tc i) := by field_simp; ring
  have e2 : srkU / 3 * R * Tc i / pc i * (R * T) = srkU / 3 * R * R * Tc i / pc i * T := by ring
  rw [e1, e2, mul_lt_mul_iff_right₀ hf]

/-- **Pure Soave-Redlich-Kwong fluids** whose acentric factor gives a slope of at most one (up to 0.343): the isotherm is mechanically stable exactly above the critical temperature. -/
theorem srk_pure_stable (Tc pc ω : ι → ℝ) (k : ι → ι → ℝ) (R T : ℝ) (i : ι) (hR : 0 < R) (hT : 0 < T) (hTc : 0 < Tc i) (hp : 0 < pc i) (hk : k i i = 0)
    (h0 : -1 < mSRK (ω i)) (h1 : mSRK (ω i) ≤ 1) :
    MechStable (fun T r => (canonicalSRK Tc pc ω k R).alphar T r (Pi.single i 1)) R T (OmegaB_SRK * R * Tc i / pc i) ↔ Tc i < T :=
  (srk_pure_iff Tc pc ω k R T i hR hT hTc hp hk).trans (soave_below hTc hT h0 h1)

/-- **For larger acentric factors** stability ends again at very high temperature. -/
theorem srk_pure_stable_large (Tc pc ω : ι → ℝ) (k : ι → ι → ℝ) (R T : ℝ) (i : ι) (hR : 0 < R) (hT : 0 < T) (hTc : 0 < Tc i) (hp : 0 < pc i) (hk : k i i = 0)
    (h1 : 1 < mSRK (ω i)) :
    MechStable (fun T r => (canonicalSRK Tc pc ω k R).alphar T r (Pi.single i 1)) R T (OmegaB_SRK * R * Tc i / pc i) ↔
      Tc i < T ∧ T < Tc i * ((mSRK (ω i) + 1) / (mSRK (ω i) - 1)) ^ 2 :=
  (srk_pure_iff Tc pc ω k R T i hR hT hTc hp hk).trans (soave_below_large hTc hT h1)

/-- **One density for every pressure** above the critical temperature. -/
theorem srk_pure_density (Tc pc ω : ι → ℝ) (k : ι → ι → ℝ) (R T : ℝ) (i : ι) (hR : 0 < R) (hT : 0 < T) (hTc : 0 < Tc i) (hp : 0 < pc i) (hk : k i i = 0)
    (h0 : -1 < mSRK (ω i)) (h1 : mSRK (ω i) ≤ 1) (h : Tc i < T) :
    OneDensity (fun T r => (canonicalSRK Tc pc ω k R).alphar T r (Pi.single i 1)) R T (OmegaB_SRK * R * Tc i / pc i) := by
  have hb : (canonicalSRK Tc pc ω k R).get_b (Pi.single i 1) = OmegaB_SRK * R * Tc i / pc i := cubic_b_single _ i
  have hB : OmegaB_SRK = srkU / 3 := rfl
  have hu0 := srkU_facts.1
  have hs := (srk_pure_stable Tc pc ω k R T i hR hT hTc hp hk h0 h1).2 h
  rw [← hb] at hs ⊢
  exact stable_oneDensity (canonicalSRK Tc pc ω k R) (Pi.single i 1) T hR hT (by rw [hb, hB]; positivity) (by norm_num [canonicalSRK, Cubic.build])
    (by norm_num [canonicalSRK, Cubic.build]) (by norm_num [canonicalSRK, Cubic.build]) hs

example : OneDensity (fun T r => (canonicalSRK (ι := Fin 2) ![190.5, 305.3] ![4.6e6, 4.87e6] ![0.011, 0.099] (fun _ _ => 0) 8.314).alphar T r (Pi.single 0 1)) 8.314 300
    (OmegaB_SRK * 8.314 * 190.5 / 4.6e6) :=
  srk_pure_density (ι := Fin 2) ![190.5, 305.3] ![4.6e6, 4.87e6] ![0.011, 0.099] (fun _ _ => 0) 8.314 300 0 (by norm_num) (by norm_num) (by norm_num) (by norm_num) rfl
    (by norm_num [mSRK]) (by norm_num [mSRK]) (by norm_num)

/-- Ethane at 300 K and n-decane at two million kelvin. -/
example : ¬ MechStable (fun T r => (canonicalSRK (ι := Fin 2) ![190.5, 305.3] ![4.6e6, 4.87e6] ![0.011, 0.099] (fun _ _ => 0) 8.314).alphar T r (Pi.single 1 1)) 8.314 300
    (OmegaB_SRK * 8.314 * 305.3 / 4.87e6) := fun h => by
  have := (srk_pure_stable (ι := Fin 2) ![190.5, 305.3] ![4.6e6, 4.87e6] ![0.011, 0.099] (fun _ _ => 0) 8.314 300 1 (by norm_num) (by norm_num) (by norm_num) (by norm_num) rfl
    (by norm_num [mSRK]) (by norm_num [mSRK])).1 h
  norm_num at this

theorem decane_unstable : ¬ MechStable (fun T r => (canonicalSRK (ι := Fin 1) ![617.7] ![2.103e6] ![0.488] (fun _ _ => 0) 8.314).alphar T r (Pi.single 0 1)) 8.314 2000000
    (OmegaB_SRK * 8.314 * 617.7 / 2.103e6) := fun h => by
  have := ((srk_pure_stable_large (ι := Fin 1) ![617.7] ![2.103e6] ![0.488] (fun _ _ => 0) 8.314 2000000 0 (by norm_num) (by norm_num) (by norm_num) (by norm_num) rfl
    (by norm_num [mSRK])).1 h).2
  norm_num [mSRK] at this

end pure

/-! ## Peng-Robinson, whose constants are rounded -/

/-- The reduced density of the least favourable point, to 30 digits. -/
noncomputable def prU : ℝ := 31634573317699932783853430061/125000000000000000000000000000

theorem pr_shape {u : ℝ} (h0 : 0 < u) (h1 : u < 1) : OmegaA_PR * ((2 * u + 2 * u ^ 2) * (1 - u) ^ 2) < OmegaB_PR * (1 + 2 * u - u ^ 2) ^ 2 := by
  set q1 : ℝ := 2 * OmegaA_PR - 4 * OmegaB_PR + 2 * prU * (OmegaB_PR - 2 * OmegaA_PR) with hq1
  set q0 : ℝ := 2 * OmegaB_PR + 2 * OmegaA_PR + 2 * prU * q1 - prU ^ 2 * (OmegaB_PR - 2 * OmegaA_PR) with hq0
  have e : OmegaB_PR * (1 + 2 * u - u ^ 2) ^ 2 - OmegaA_PR * ((2 * u + 2 * u ^ 2) * (1 - u) ^ 2)
      = (u - prU) ^ 2 * ((OmegaB_PR - 2 * OmegaA_PR) * u ^ 2 + q1 * u + q0)
        + (4 * OmegaB_PR - 2 * OmegaA_PR + 2 * prU * q0 - prU ^ 2 * q1) * u + (OmegaB_PR - prU ^ 2 * q0) := by
    rw [hq0, hq1]; ring
  have c1 : 0 < 4 * OmegaB_PR - 2 * OmegaA_PR + 2 * prU * q0 - prU ^ 2 * q1 := by
    rw [hq0, hq1]; unfold OmegaA_PR OmegaB_PR prU; norm_num
  have c0 : 0 < OmegaB_PR - prU ^ 2 * q0 := by
    rw [hq0, hq1]; unfold OmegaA_PR OmegaB_PR prU; norm_num
  have k1 : 0 < q1 := by rw [hq1]; unfold OmegaA_PR OmegaB_PR prU; norm_num
  have k0 : 1 < q0 := by rw [hq0, hq1]; unfold OmegaA_PR OmegaB_PR prU; norm_num
  have k2 : -1 < OmegaB_PR - 2 * OmegaA_PR := by unfold OmegaA_PR OmegaB_PR; norm_num
  have hq : 0 ≤ (OmegaB_PR - 2 * OmegaA_PR) * u ^ 2 + q1 * u + q0 := by
    have hu2 : u ^ 2 ≤ 1 := by nlinarith
    nlinarith [mul_pos k1 h0]
  have := mul_nonneg (sq_nonneg (u - prU)) hq
  have := mul_pos c1 h0
  linarith

theorem pr_point : OmegaB_PR * (1 + 2 * prU - prU ^ 2) ^ 2 ≤ (1 + 1e-18) * OmegaA_PR * ((2 * prU + 2 * prU ^ 2) * (1 - prU) ^ 2) := by
  unfold OmegaA_PR OmegaB_PR prU; norm_num

theorem prDeltas {c : Cubic ι} (h1 : c.Delta1 = 1 + Real.sqrt 2) (h2 : c.Delta2 = 1 - Real.sqrt 2) :
    c.Delta1 ≠ c.Delta2 ∧ -1 < c.Delta1 ∧ -1 < c.Delta2 ∧ c.Delta1 + c.Delta2 = 2 ∧ c.Delta1 * c.Delta2 = -1 := by
  have hs : 0 < Real.sqrt 2 := Real.sqrt_pos.2 (by norm_num)
  have hs2 : Real.sqrt 2 ^ 2 = 2 := Real.sq_sqrt (by norm_num)
  rw [h1, h2]
  refine ⟨fun h => by linarith, by linarith, by nlinarith, by ring, by linear_combination -hs2⟩

/-- **Peng-Robinson mixtures**: stable when the attraction is at most `OmegaA/OmegaB b R T`.  The rounded constants have the quotient slightly too small, so that also the isotherm of
the critical temperature is stable. -/
theorem pr_stable (c : Cubic ι) (x : ι → ℝ) (T : ℝ) (hR : 0 < c.R) (hT : 0 < T) (hb : 0 < c.get_b x) (h1 : c.Delta1 = 1 + Real.sqrt 2) (h2 : c.Delta2 = 1 - Real.sqrt 2)
    (h : OmegaB_PR * c.get_a T x ≤ OmegaA_PR * (c.get_b x * (c.R * T))) : MechStable (fun T r => c.alphar T r x) c.R T (c.get_b x) := by
  obtain ⟨hD, hD1, hD2, hs, hp⟩ := prDeltas h1 h2
  intro ρ hρ hd
  rw [cubic_slope_pos c x T ρ hR hT hb hρ hd hD hD1 hD2, hs, hp]
  have hu : 0 < c.get_b x * ρ := mul_pos hb hρ
  generalize c.get_b x * ρ = u at hu hd
  have hsh := pr_shape hu hd
  have hw : 0 < (2 * u + 2 * u ^ 2) * (1 - u) ^ 2 := mul_pos (by positivity) (pow_pos (by linarith) 2)
  have hbR : 0 < c.get_b x * (c.R * T) := by positivity
  have hB : 0 < OmegaB_PR := by unfold OmegaB_PR; norm_num
  refine lt_of_mul_lt_mul_left (a := OmegaB_PR) ?_ hB.le
  calc OmegaB_PR * (c.get_a T x * ((2 * u + 2 * u ^ 2) * (1 - u) ^ 2)) = OmegaB_PR * c.get_a T x * ((2 * u + 2 * u ^ 2) * (1 - u) ^ 2) := by ring
    _ ≤ OmegaA_PR * (c.get_b x * (c.R * T)) * ((2 * u + 2 * u ^ 2) * (1 - u) ^ 2) := mul_le_mul_of_nonneg_right h hw.le
    _ = c.get_b x * (c.R * T) * (OmegaA_PR * ((2 * u + 2 * u ^ 2) * (1 - u) ^ 2)) := by ring
    _ < c.get_b x * (c.R * T) * (OmegaB_PR * (1 + 2 * u - u ^ 2) ^ 2) := mul_lt_mul_of_pos_left hsh hbR
    _ = _ := by ring

/-- The converse up to one part in 10^18. -/
theorem pr_unstable (c : Cubic ι) (x : ι → ℝ) (T : ℝ) (hR : 0 < c.R) (hT : 0 < T) (hb : 0 < c.get_b x) (h1 : c.Delta1 = 1 + Real.sqrt 2) (h2 : c.Delta2 = 1 - Real.sqrt 2)
    (h : (1 + 1e-18) * (OmegaA_PR * (c.get_b x * (c.R * T))) ≤ OmegaB_PR * c.get_a T x) : ¬ MechStable (fun T r => c.alphar T r x) c.R T (c.get_b x) := by
  obtain ⟨hD, hD1, hD2, hs, hp⟩ := prDeltas h1 h2
  intro hst
  have hu0 : 0 < prU := by unfold prU; norm_num
  have hu1 : prU < 1 := by unfold prU; norm_num
  have hbu : c.get_b x * (prU / c.get_b x) = prU := mul_div_cancel₀ _ hb.ne'
  have := (cubic_slope_pos c x T (prU / c.get_b x) hR hT hb (by positivity) (by rw [hbu]; exact hu1) hD hD1 hD2).1 (hst _ (by positivity) (by rw [hbu]; exact hu1))
  rw [hbu, hs, hp] at this
  have hpt := pr_point
  have hw : 0 < (2 * prU + 2 * prU ^ 2) * (1 - prU) ^ 2 := mul_pos (by positivity) (pow_pos (by linarith) 2)
  have hbR : 0 < c.get_b x * (c.R * T) := by positivity
  have hB : 0 < OmegaB_PR := by unfold OmegaB_PR; norm_num
  have s1 := mul_lt_mul_of_pos_left this hB
  have s2 := mul_le_mul_of_nonneg_right h hw.le
  have s3 := mul_le_mul_of_nonneg_left hpt hbR.le
  have e : c.get_b x * (c.R * T) * (OmegaB_PR * (1 + 2 * prU - prU ^ 2) ^ 2) = OmegaB_PR * (c.get_b x * (c.R * T) * (1 + 2 * prU + -1 * prU ^ 2) ^ 2) := by ring
  rw [e] at s3
  have e2 : c.get_b x * (c.R * T) * ((1 + 1e-18) * OmegaA_PR * ((2 * prU + 2 * prU ^ 2) * (1 - prU) ^ 2))
      = (1 + 1e-18) * (OmegaA_PR * (c.get_b x * (c.R * T))) * ((2 * prU + 2 * prU ^ 2) * (1 - prU) ^ 2) := by ring
  rw [e2] at s3
  have e3 : OmegaB_PR * c.get_a T x * ((2 * prU + 2 * prU ^ 2) * (1 - prU) ^ 2) = OmegaB_PR * (c.get_a T x * ((2 * prU + 2 * prU ^ 2) * (1 - prU) ^ 2)) := by ring
  rw [e3] at s2
  exact absurd (s1.trans_le (s3.trans s2)) (lt_irrefl _)

section pure
variable [DecidableEq ι]

/-- `canonical_PR` on matching arrays (`/repo/include/teqp/models/cubics.hpp` lines 299-332). -/
noncomputable def prModel (Tc pc ω : ι → ℝ) (k : ι → ι → ℝ) (R : ℝ) : Cubic ι :=
  Cubic.build (1 + Real.sqrt 2) (1 - Real.sqrt 2) OmegaA_PR OmegaB_PR Tc pc (fun i => .basic (Tc i) (mPR (ω i))) k R

theorem pr_pure_sizes (Tc pc ω : ι → ℝ) (k : ι → ι → ℝ) (R T : ℝ) (i : ι) (hT : 0 < T) (hTc : 0 < Tc i) (hp : 0 < pc i) (hk : k i i = 0) :
    (prModel Tc pc ω k R).get_b (Pi.single i 1) = OmegaB_PR * R * Tc i / pc i ∧
      OmegaB_PR * (prModel Tc pc ω k R).get_a T (Pi.single i 1) = OmegaA_PR * (OmegaB_PR * R * Tc i / pc i) * R * ((AlphaFn.basic (Tc i) (mPR (ω i))).eval T * Tc i) := by
  refine ⟨cubic_b_single _ i, ?_⟩
  have ha : (prModel Tc pc ω k R).get_a T (Pi.single i 1) = OmegaA_PR * (R * Tc i) ^ 2 / pc i * (AlphaFn.basic (Tc i) (mPR (ω i))).eval T :=
    cubic_pure_a Tc pc _ _ OmegaA_PR OmegaB_PR R (fun i => .basic (Tc i) (mPR (ω i))) k i T (by unfold OmegaA_PR; norm_num) hp hT.le hTc.le hk
  rw [ha]
  ring

/-- **Pure Peng-Robinson fluids** with a slope of at most one (acentric factors up to 0.44): stable above the critical temperature, with one density for every pressure. -/
theorem pr_pure_stable (Tc pc ω : ι → ℝ) (k : ι → ι → ℝ) (R T : ℝ) (i : ι) (hR : 0 < R) (hT : 0 < T) (hTc : 0 < Tc i) (hp : 0 < pc i) (hk : k i i = 0)
    (h0 : -1 < mPR (ω i)) (h1 : mPR (ω i) ≤ 1) (h : Tc i < T) :
    MechStable (fun T r => (prModel Tc pc ω k R).alphar T r (Pi.single i 1)) R T (OmegaB_PR * R * Tc i / pc i) ∧
      OneDensity (fun T r => (prModel Tc pc ω k R).alphar T r (Pi.single i 1)) R T (OmegaB_PR * R * Tc i / pc i) := by
  obtain ⟨hb, ha⟩ := pr_pure_sizes Tc pc ω k R T i hT hTc hp hk
  have hB : 0 < OmegaB_PR := by unfold OmegaB_PR; norm_num
  have hA : 0 < OmegaA_PR := by unfold OmegaA_PR; norm_num
  have hbp : 0 < OmegaB_PR * R * Tc i / pc i := by positivity
  have hs : MechStable (fun T r => (prModel Tc pc ω k R).alphar T r (Pi.single i 1)) R T ((prModel Tc pc ω k R).get_b (Pi.single i 1)) := by
    refine pr_stable (prModel Tc pc ω k R) (Pi.single i 1) T hR hT (by rw [hb]; exact hbp) rfl rfl ?_
    rw [ha, hb]
    have hlt := (soave_below hTc hT h0 h1).2 h
    have hRe : (prModel Tc pc ω k R).R = R := rfl
    rw [hRe]
    have := mul_le_mul_of_nonneg_left hlt.le (show 0 ≤ OmegaA_PR * (OmegaB_PR * R * Tc i / pc i) * R by positivity)
    refine this.trans_eq ?_
    ring
  obtain ⟨hD, hD1, hD2, -, -⟩ := prDeltas (c := prModel Tc pc ω k R) rfl rfl
  have ho := stable_oneDensity (prModel Tc pc ω k R) (Pi.single i 1) T hR hT (by rw [hb]; exact hbp) hD hD1 hD2 hs
  rw [hb] at hs ho
  exact ⟨hs, ho⟩

/-- **Below the critical temperature** (by one part in 10^18) with a slope that is not negative: unstable. -/
theorem pr_pure_unstable (Tc pc ω : ι → ℝ) (k : ι → ι → ℝ) (R T : ℝ) (i : ι) (hR : 0 < R) (hT : 0 < T) (hTc : 0 < Tc i) (hp : 0 < pc i) (hk : k i i = 0)
    (h0 : 0 ≤ mPR (ω i)) (h : (1 + 1e-18) * T ≤ Tc i) :
    ¬ MechStable (fun T r => (prModel Tc pc ω k R).alphar T r (Pi.single i 1)) R T (OmegaB_PR * R * Tc i / pc i) := by
  obtain ⟨hb, ha⟩ := pr_pure_sizes Tc pc ω k R T i hT hTc hp hk
  have hB : 0 < OmegaB_PR := by unfold OmegaB_PR; norm_num
  have hA : 0 < OmegaA_PR := by unfold OmegaA_PR; norm_num
  have hbp : 0 < OmegaB_PR * R * Tc i / pc i := by positivity
  rw [← hb]
  refine pr_unstable (prModel Tc pc ω k R) (Pi.single i 1) T hR hT (by rw [hb]; exact hbp) rfl rfl ?_
  rw [ha, hb]
  have hRe : (prModel Tc pc ω k R).R = R := rfl
  rw [hRe]
  have hle : T ≤ Tc i := by nlinarith
  have hα : 1 ≤ (AlphaFn.basic (Tc i) (mPR (ω i))).eval T := by
    simp only [AlphaFn.eval]
    have : Real.sqrt (T / Tc i) ≤ 1 :=
      Real.sqrt_le_iff.2 ⟨zero_le_one, by rw [one_pow, div_le_one hTc]; exact hle⟩
    have h3 : 1 ≤ 1 + mPR (ω i) * (1 - Real.sqrt (T / Tc i)) := by nlinarith
    exact one_le_pow₀ h3
  have h4 : (1 + 1e-18) * T ≤ (AlphaFn.basic (Tc i) (mPR (ω i))).eval T * Tc i := by nlinarith
  have := mul_le_mul_of_nonneg_left h4 (show 0 ≤ OmegaA_PR * (OmegaB_PR * R * Tc i / pc i) * R by positivity)
  refine le_trans (le_of_eq ?_) this
  ring

example : OneDensity (fun T r => (prModel (ι := Fin 2) ![190.5, 305.3] ![4.6e6, 4.87e6] ![0.011, 0.099] (fun _ _ => 0) 8.314).alphar T r (Pi.single 0 1)) 8.314 300
    (OmegaB_PR * 8.314 * 190.5 / 4.6e6) :=
  (pr_pure_stable (ι := Fin 2) ![190.5, 305.3] ![4.6e6, 4.87e6] ![0.011, 0.099] (fun _ _ => 0) 8.314 300 0 (by norm_num) (by norm_num) (by norm_num) (by norm_num) rfl
    (by norm_num [mPR]) (by norm_num [mPR]) (by norm_num)).2

example : ¬ MechStable (fun T r => (prModel (ι := Fin 2) ![190.5, 305.3] ![4.6e6, 4.87e6] ![0.011, 0.099] (fun _ _ => 0) 8.314).alphar T r (Pi.single 1 1)) 8.314 300
    (OmegaB_PR * 8.314 * 305.3 / 4.87e6) :=
  pr_pure_unstable (ι := Fin 2) ![190.5, 305.3] ![4.6e6, 4.87e6] ![0.011, 0.099] (fun _ _ => 0) 8.314 300 1 (by norm_num) (by norm_num) (by norm_num) (by norm_num) rfl
    (by norm_num [mPR]) (by norm_num)

end pure

/-! ## van der Waals -/

/-- **van der Waals mixtures at fixed composition**. -/
theorem vdw_stable_iff (m : VdWMix ι) (x : ι → ℝ) (T : ℝ) (hT : 0 < T) (hb : 0 < m.b x) :
    MechStable (fun T r => m.alphar T r x) RuvdW T (m.b x) ↔ 8 * m.a x < 27 * (m.b x * (RuvdW * T)) := by
  have hR := RuvdW_pos
  have hslope (ρ : ℝ) (hρ : 0 < ρ) (h : m.b x * ρ < 1) : 0 < deriv (fun r => totalPressure (fun T r => m.alphar T r x) RuvdW T r) ρ ↔
      m.a x * (2 * (m.b x * ρ) * (1 - m.b x * ρ) ^ 2) < m.b x * (RuvdW * T) := by
    have hev : (fun r => totalPressure (fun T r => m.alphar T r x) RuvdW T r) =ᶠ[𝓝 ρ] cubicP (RuvdW * T) (m.a x) (m.b x) 0 0 := by
      have h1 : ∀ᶠ r in 𝓝 ρ, m.b x * r < 1 := ContinuousAt.eventually_lt (by fun_prop) (by fun_prop) h
      filter_upwards [h1] with r hr
      exact totalPressure_vdW (RR := RuvdW) (a := m.a x) (b := m.b x) hR.ne' hT.ne' (sub_ne_zero.mpr hr.ne')
    rw [hev.deriv_eq, (hasDerivAt_cubicP (RT := RuvdW * T) (a := m.a x) (sub_ne_zero.mpr h.ne') (by simp)).deriv]
    unfold cubicP1
    rw [sub_pos, div_lt_div_iff₀ (by simp) (pow_pos (by linarith) 2), ← mul_lt_mul_iff_right₀ hb]
    ring_nf
  constructor
  · intro hs
    have hbu : m.b x * (1 / (3 * m.b x)) = 1 / 3 := by field_simp
    have := (hslope (1 / (3 * m.b x)) (by positivity) (by rw [hbu]; norm_num)).1 (hs _ (by positivity) (by rw [hbu]; norm_num))
    rw [hbu] at this
    linarith
  · intro hk ρ hρ hd
    rw [hslope ρ hρ hd]
    have hu : 0 < m.b x * ρ := mul_pos hb hρ
    generalize m.b x * ρ = u at hu hd
    have hw : 0 < 2 * u * (1 - u) ^ 2 := mul_pos (by positivity) (pow_pos (by linarith) 2)
    have hf : 8 - 27 * (2 * u * (1 - u) ^ 2) = 2 * (1 - 3 * u) ^ 2 * (4 - 3 * u) := by ring
    have hq : 0 ≤ 2 * (1 - 3 * u) ^ 2 * (4 - 3 * u) := mul_nonneg (by positivity) (by linarith)
    have hbR : 0 < m.b x * (RuvdW * T) := by positivity
    have s1 := mul_lt_mul_of_pos_right hk hw
    have s2 := mul_le_mul_of_nonneg_left (show 27 * (2 * u * (1 - u) ^ 2) ≤ 8 by linarith) hbR.le
    nlinarith

/-- **Pure van der Waals fluids**: mechanically stable exactly above the critical temperature. -/
theorem vdw_pure_stable [DecidableEq ι] (Tc pc : ι → ℝ) (i : ι) (T : ℝ) (hT : 0 < T) (hTc : 0 < Tc i) (hp : 0 < pc i) :
    MechStable (fun T r => (VdWMix.ofCritical Tc pc).alphar T r (Pi.single i 1)) RuvdW T ((VdWMix.ofCritical Tc pc).bi i) ↔ Tc i < T := by
  have hR := RuvdW_pos
  have hb : (VdWMix.ofCritical Tc pc).bi i = 1 / 8 * RuvdW * Tc i / pc i := rfl
  have ha : (VdWMix.ofCritical Tc pc).a (Pi.single i 1) = 27 / 64 * (RuvdW * Tc i) ^ 2 / pc i := by
    rw [vdWMix_a_single, Real.sqrt_mul_self]
    · simp [VdWMix.ofCritical]
    · simp only [VdWMix.ofCritical]; positivity
  have := vdw_stable_iff (VdWMix.ofCritical Tc pc) (Pi.single i 1) T hT (by rw [vdWMix_b_single, hb]; positivity)
  rw [vdWMix_b_single, ha, hb] at this
  rw [hb]
  refine this.trans ?_
  have hf : 0 < 27 / 8 * RuvdW * RuvdW * Tc i / pc i := by positivity
  have e1 : 8 * (27 / 64 * (RuvdW * Tc i) ^ 2 / pc i) = 27 / 8 * RuvdW * RuvdW * Tc i / pc i * Tc i := by ring
  have e2 : 27 * (1 / 8 * RuvdW * Tc i / pc i * (RuvdW * T)) = 27 / 8 * RuvdW * RuvdW * Tc i / pc i * T := by ring
  rw [e1, e2, mul_lt_mul_iff_right₀ hf]

example : MechStable (fun T r => (VdWMix.ofCritical (ι := Fin 2) ![150, 300] ![4e6, 5e6]).alphar T r (Pi.single 0 1)) RuvdW 200
      ((VdWMix.ofCritical (ι := Fin 2) ![150, 300] ![4e6, 5e6]).bi 0) ∧
    ¬ MechStable (fun T r => (VdWMix.ofCritical (ι := Fin 2) ![150, 300] ![4e6, 5e6]).alphar T r (Pi.single 1 1)) RuvdW 200
      ((VdWMix.ofCritical (ι := Fin 2) ![150, 300] ![4e6, 5e6]).bi 1) :=
  ⟨(vdw_pure_stable (ι := Fin 2) ![150, 300] ![4e6, 5e6] 0 200 (by norm_num) (by norm_num) (by norm_num)).2 (by norm_num), fun h => by
    have := (vdw_pure_stable (ι := Fin 2) ![150, 300] ![4e6, 5e6] 1 200 (by norm_num) (by norm_num) (by norm_num)).1 h
    norm_num at this⟩

end Teqp.Props

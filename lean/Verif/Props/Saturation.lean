import Verif.Props.CubicStable
import Verif.Props.PureVLE
import Verif.Lemmas.Saturation

/-! # C173: saturation states of cubic models -/

set_option autoImplicit false

namespace Teqp.Props
open Teqp Teqp.Model Teqp.Spec Teqp.Calc Teqp.PureVLE Teqp.Lemmas Filter Topology

/-- The saturation solver's residual vanishes at a vapour density and a larger liquid density below close packing. -/
def SatZero (α : ℝ → ℝ → ℝ) (R T b : ℝ) (p : ℝ × ℝ) : Prop := 0 < p.1 ∧ p.1 < p.2 ∧ b * p.2 < 1 ∧ vleResid α R T ⟨p.2, p.1⟩ = ⟨0, 0⟩

section loop
variable {α : ℝ → ℝ → ℝ} {R T b : ℝ}

theorem loop_satZero (L : Loop α R T (1 / b)) (c : ℝ → ℝ) (hR : 0 < R) (hT : 0 < T) (hb : 0 < b) (p : ℝ × ℝ) : SatZero α R T b p ↔ Saturated α c R T b p.1 p.2 := by
  unfold SatZero Saturated
  refine and_congr_right fun h1 => and_congr_right fun h2 => and_congr_right fun h3 => ?_
  have hl : p.2 < 1 / b := by rw [lt_div_iff₀ hb, mul_comm]; exact h3
  exact vle_residual_zero_iff α c R T p.2 p.1 hR.ne' hT.ne' (h1.trans h2) h1 ((L.smooth p.2 ⟨h1.trans h2, hl⟩).differentiableAt (by norm_num))
    ((L.smooth p.1 ⟨h1, h2.trans hl⟩).differentiableAt (by norm_num))

/-- **One saturation state** where the isotherm has an unstable density. -/
theorem loop_saturation (L : Loop α R T (1 / b)) (hR : 0 < R) (hT : 0 < T) (hb : 0 < b) (hs : ∃ s, 0 < s ∧ b * s < 1 ∧ deriv (totalPressure α R T) s < 0) :
    ∃! p, SatZero α R T b p := by
  obtain ⟨s, h0, h1, hs⟩ := hs
  have hmem (ρ : ℝ) : ρ < 1 / b ↔ b * ρ < 1 := by rw [lt_div_iff₀ hb, mul_comm]
  obtain ⟨v, l, hv, hvs, hsl, hl, hco, -, -⟩ := L.exists_sat (fun _ => 0) hR hT h0 ((hmem s).2 h1) hs
  refine ⟨(v, l), (loop_satZero L (fun _ => 0) hR hT hb _).2 ⟨hv, hvs.trans hsl, (hmem l).1 hl, hco⟩, fun p hp => ?_⟩
  replace hp := (loop_satZero L (fun _ => 0) hR hT hb p).1 hp
  obtain ⟨e1, e2⟩ := L.unique_sat (fun _ => 0) hR hT hp.1 hp.2.1 ((hmem _).2 hp.2.2.1) hp.2.2.2 hv (hvs.trans hsl) hl hco
  exact Prod.ext e1 e2

/-- **What the zero is**: coexisting phases of positive pressure that are globally stable, at which the Jacobian of the solver is regular. -/
theorem loop_state (L : Loop α R T (1 / b)) (c : ℝ → ℝ) (hR : 0 < R) (hT : 0 < T) (hb : 0 < b) {p : ℝ × ℝ} (hp : SatZero α R T b p) :
    Coexist α c R T p.2 p.1 ∧ 0 < totalPressure α R T p.1 ∧ TangentStable α c R T b p.1 ∧ TangentStable α c R T b p.2 ∧
      (vleJac α R T ⟨p.2, p.1⟩).a00 * (vleJac α R T ⟨p.2, p.1⟩).a11 - (vleJac α R T ⟨p.2, p.1⟩).a01 * (vleJac α R T ⟨p.2, p.1⟩).a10 < 0 := by
  have hmem (ρ : ℝ) : ρ < 1 / b ↔ b * ρ < 1 := by rw [lt_div_iff₀ hb, mul_comm]
  have hp' := (loop_satZero L c hR hT hb p).1 hp
  have hl := (hmem _).2 hp.2.2.1
  obtain ⟨s1, s2, s, hs1, hs2, hs⟩ := L.sat_slopes c hR hT hp'.1 hp'.2.1 hl hp'.2.2.2
  obtain ⟨v, l, hv, hvs, hsl, hlB, hco, hpos, hst⟩ := L.exists_sat c hR hT (hp'.1.trans hs1) (hs2.trans hl) hs
  obtain ⟨e1, e2⟩ := L.unique_sat c hR hT hp'.1 hp'.2.1 hl hp'.2.2.2 hv (hvs.trans hsl) hlB hco
  have hv1 : TangentStable α c R T b p.1 := fun ρ h0 h1 => by rw [e1]; exact hst ρ h0 ((hmem ρ).2 h1)
  refine ⟨hp'.2.2.2, by rw [e1]; exact hpos, hv1, fun ρ h0 h1 => ?_, ?_⟩
  · rw [hp'.2.2.2.1, hp'.2.2.2.2]
    exact hv1 ρ h0 h1
  · have sm2 := L.smooth p.2 ⟨hp.1.trans hp.2.1, hl⟩
    have sm1 := L.smooth p.1 ⟨hp.1, hp.2.1.trans hl⟩
    rw [(Teqp.PureVLE.pressure_drho sm1).deriv] at s1
    rw [(Teqp.PureVLE.pressure_drho sm2).deriv] at s2
    have hRT := mul_pos hR hT
    have s1 := pos_of_mul_pos_right s1 hRT.le
    have s2 := pos_of_mul_pos_right s2 hRT.le
    simp only [vleJac, phase_eq hR.ne']
    have h1 := hp.1
    have h2 := h1.trans hp.2.1
    have e : (1 + 2 * (p.2 * drn α 1 T p.2) + p.2 ^ 2 * drn α 2 T p.2) * -((2 * (p.1 * drn α 1 T p.1) + p.1 ^ 2 * drn α 2 T p.1) / p.1 + 1 / p.1)
        - -(1 + 2 * (p.1 * drn α 1 T p.1) + p.1 ^ 2 * drn α 2 T p.1) * ((2 * (p.2 * drn α 1 T p.2) + p.2 ^ 2 * drn α 2 T p.2) / p.2 + 1 / p.2)
        = -((1 + 2 * p.1 * drn α 1 T p.1 + p.1 ^ 2 * drn α 2 T p.1) * (1 + 2 * p.2 * drn α 1 T p.2 + p.2 ^ 2 * drn α 2 T p.2) * (1 / p.1 - 1 / p.2)) := by
      have h1' := h1.ne'
      have h2' := h2.ne'
      field_simp
      ring
    rw [e, neg_lt_zero]
    exact mul_pos (mul_pos s1 s2) (sub_pos.2 (one_div_lt_one_div_of_lt h1 hp.2.1))

/-- **No saturation state** where the slope of the pressure is nowhere negative. -/
theorem loop_none (L : Loop α R T (1 / b)) (hR : 0 < R) (hT : 0 < T) (hb : 0 < b) (hs : ∀ s, 0 < s → b * s < 1 → 0 ≤ deriv (totalPressure α R T) s) (p : ℝ × ℝ) :
    ¬ SatZero α R T b p := fun hp => by
  have hmem (ρ : ℝ) : ρ < 1 / b ↔ b * ρ < 1 := by rw [lt_div_iff₀ hb, mul_comm]
  have hp' := (loop_satZero L (fun _ => 0) hR hT hb p).1 hp
  obtain ⟨-, -, s, hs1, hs2, h⟩ := L.sat_slopes (fun _ => 0) hR hT hp'.1 hp'.2.1 ((hmem _).2 hp.2.2.1) hp'.2.2.2
  exact absurd (hs s (hp.1.trans hs1) ((hmem s).1 (hs2.trans ((hmem _).2 hp.2.2.1)))) (not_le.2 h)

end loop

variable {ι : Type} [Fintype ι]

/-! ## Isotherms of the models -/

/-- The factor that all models share diverges at close packing. -/
theorem packing_top {b : ℝ} (hb : 0 < b) : Tendsto (fun ρ : ℝ => -Real.log (1 - b * ρ)) (𝓝[<] (1 / b)) atTop := by
  refine tendsto_neg_atBot_atTop.comp (Real.tendsto_log_nhdsGT_zero.comp (tendsto_nhdsWithin_iff.2 ⟨?_, ?_⟩))
  · have : ContinuousAt (fun ρ : ℝ => 1 - b * ρ) (1 / b) := by fun_prop
    have h := this.tendsto
    rw [mul_one_div_cancel hb.ne', sub_self] at h
    exact h.mono_left nhdsWithin_le_nhds
  · filter_upwards [self_mem_nhdsWithin] with ρ hρ
    have : ρ < 1 / b := hρ
    rw [lt_div_iff₀ hb] at this
    simp only [Set.mem_Ioi]; linarith

theorem cubic_iso (c : Cubic ι) (x : ι → ℝ) (T : ℝ) (hR : 0 < c.R) (hT : 0 < T) (hb : 0 < c.get_b x) (hD : c.Delta1 ≠ c.Delta2) (hD1 : -1 < c.Delta1) (hD2 : -1 < c.Delta2) :
    CubicIso (fun T r => c.alphar T r x) c.R T (c.get_a T x) (c.get_b x) (c.Delta1 + c.Delta2) (c.Delta1 * c.Delta2) :=
  ⟨hR, hT, hb, fun ρ h0 h1 => cubic_isotherm c x T ρ hR hT hb h0 h1 hD hD1 hD2, fun _ h0 h1 => cubicDen_pos h0 h1 hD1 hD2⟩

/-- **Isotherms of a cubic mixture at fixed composition** have at most one unstable interval of densities. -/
theorem cubic_loop (c : Cubic ι) (x : ι → ℝ) (T : ℝ) (hR : 0 < c.R) (hT : 0 < T) (hb : 0 < c.get_b x) (hD : c.Delta1 ≠ c.Delta2) (hD1 : -1 < c.Delta1) (hD2 : -1 < c.Delta2)
    (h1 : 0 ≤ c.Delta1 + c.Delta2 + c.Delta1 * c.Delta2)
    (h2 : 0 ≤ c.Delta1 * c.Delta2 * (c.Delta1 + c.Delta2) - c.Delta1 * c.Delta2 + (c.Delta1 + c.Delta2) ^ 2) :
    Loop (fun T r => c.alphar T r x) c.R T (1 / c.get_b x) := by
  have hmem (ρ : ℝ) : ρ < 1 / c.get_b x ↔ c.get_b x * ρ < 1 := by rw [lt_div_iff₀ hb, mul_comm]
  have key (D : ℝ) (hD : -1 < D) {ρ : ℝ} (h0 : 0 ≤ ρ) (h1 : c.get_b x * ρ ≤ 1) : 0 < D * c.get_b x * ρ + 1 := by
    have h : 0 ≤ c.get_b x * ρ := mul_nonneg hb.le h0
    rw [mul_assoc]
    rcases h.eq_or_lt with h | h
    · rw [← h]; simp
    · nlinarith [mul_pos (show 0 < D + 1 by linarith) h]
  have hdef : (fun r => c.alphar T r x) = fun ρ => -Real.log (1 - c.get_b x * ρ)
      - c.get_a T x / (c.R * T) * (Real.log ((c.Delta1 * c.get_b x * ρ + 1) / (c.Delta2 * c.get_b x * ρ + 1)) / (c.get_b x * (c.Delta1 - c.Delta2))) := rfl
  have att (n : ℕ) {ρ : ℝ} (h0 : 0 ≤ ρ) (h1 : c.get_b x * ρ ≤ 1) : ContDiffAt ℝ n (fun ρ : ℝ => c.get_a T x / (c.R * T) *
      (Real.log ((c.Delta1 * c.get_b x * ρ + 1) / (c.Delta2 * c.get_b x * ρ + 1)) / (c.get_b x * (c.Delta1 - c.Delta2)))) ρ := by
    have p1 := key c.Delta1 hD1 h0 h1
    have p2 := key c.Delta2 hD2 h0 h1
    have d1 : ContDiffAt ℝ n (fun ρ : ℝ => c.Delta1 * c.get_b x * ρ + 1) ρ := by fun_prop
    have d2 : ContDiffAt ℝ n (fun ρ : ℝ => c.Delta2 * c.get_b x * ρ + 1) ρ := by fun_prop
    exact contDiffAt_const.mul (ContDiffAt.div_const ((d1.div d2 p2.ne').log (div_pos p1 p2).ne') _)
  have rep (n : ℕ) {ρ : ℝ} (h1 : c.get_b x * ρ < 1) : ContDiffAt ℝ n (fun ρ : ℝ => -Real.log (1 - c.get_b x * ρ)) ρ := by
    have d : ContDiffAt ℝ n (fun ρ : ℝ => 1 - c.get_b x * ρ) ρ := by fun_prop
    exact (d.log (sub_ne_zero.mpr h1.ne')).neg
  refine ⟨fun ρ hρ => ?_, ?_, ?_, (cubic_iso c x T hR hT hb hD hD1 hD2).single h1 h2 (by linarith)⟩
  · show ContDiffAt ℝ 2 (fun r => c.alphar T r x) ρ
    rw [hdef]
    exact (rep 2 ((hmem ρ).1 hρ.2)).sub (att 2 hρ.1.le ((hmem ρ).1 hρ.2).le)
  · show ContinuousAt (fun r => c.alphar T r x) 0
    rw [hdef]
    exact ((rep 1 (by simp)).continuousAt).sub (att 1 le_rfl (by simp)).continuousAt
  · show Tendsto (fun r => c.alphar T r x) _ _
    rw [hdef]
    have t := ((att 1 (ρ := 1 / c.get_b x) (by positivity) (by rw [mul_one_div_cancel hb.ne'])).continuousAt.neg.tendsto).mono_left
      (nhdsWithin_le_nhds (s := Set.Iio (1 / c.get_b x)))
    exact ((packing_top hb).atTop_add t).congr fun ρ => (sub_eq_add_neg _ _).symm

/-- **van der Waals mixtures at fixed composition.** -/
theorem vdw_loop (m : VdWMix ι) (x : ι → ℝ) (T : ℝ) (hT : 0 < T) (hb : 0 < m.b x) : Loop (fun T r => m.alphar T r x) RuvdW T (1 / m.b x) ∧
    CubicIso (fun T r => m.alphar T r x) RuvdW T (m.a x) (m.b x) 0 0 := by
  have hR := RuvdW_pos
  have hmem (ρ : ℝ) : ρ < 1 / m.b x ↔ m.b x * ρ < 1 := by rw [lt_div_iff₀ hb, mul_comm]
  have C : CubicIso (fun T r => m.alphar T r x) RuvdW T (m.a x) (m.b x) 0 0 :=
    ⟨hR, hT, hb, fun ρ h0 h1 => totalPressure_vdW (RR := RuvdW) (a := m.a x) (b := m.b x) hR.ne' hT.ne' (sub_ne_zero.mpr h1.ne'), fun u h0 h1 => by norm_num⟩
  have hdef : (fun r => m.alphar T r x) = fun ρ => -Real.log (1 - m.b x * ρ) - m.a x / (RuvdW * T) * ρ := rfl
  have rep (n : ℕ) {ρ : ℝ} (h1 : m.b x * ρ < 1) : ContDiffAt ℝ n (fun ρ : ℝ => -Real.log (1 - m.b x * ρ)) ρ := by
    have d : ContDiffAt ℝ n (fun ρ : ℝ => 1 - m.b x * ρ) ρ := by fun_prop
    exact (d.log (sub_ne_zero.mpr h1.ne')).neg
  refine ⟨⟨fun ρ hρ => ?_, ?_, ?_, C.single (by norm_num) (by norm_num) (by norm_num)⟩, C⟩
  · show ContDiffAt ℝ 2 (fun r => m.alphar T r x) ρ
    rw [hdef]
    exact (rep 2 ((hmem ρ).1 hρ.2)).sub (by fun_prop)
  · show ContinuousAt (fun r => m.alphar T r x) 0
    rw [hdef]
    exact ((rep 1 (by simp)).continuousAt).sub (by fun_prop)
  · show Tendsto (fun r => m.alphar T r x) _ _
    rw [hdef]
    have hc : ContinuousAt (fun ρ : ℝ => -(m.a x / (RuvdW * T) * ρ)) (1 / m.b x) := by fun_prop
    exact ((packing_top hb).atTop_add (hc.tendsto.mono_left nhdsWithin_le_nhds)).congr fun ρ => (sub_eq_add_neg _ _).symm

/-! ## Unstable densities -/

/-- With Soave's alpha function, attraction over temperature exceeds its critical value below the critical temperature. -/
theorem soave_above {Tc T m : ℝ} (hTc : 0 < Tc) (hT : 0 < T) (h0 : -1 < m) :
    (T < Tc → T < (AlphaFn.basic Tc m).eval T * Tc) ∧ (m ≤ 1 → Tc ≤ T → (AlphaFn.basic Tc m).eval T * Tc ≤ T) := by
  have ht : 0 < Real.sqrt (T / Tc) := Real.sqrt_pos.2 (by positivity)
  have hs : T = Real.sqrt (T / Tc) ^ 2 * Tc := by rw [Real.sq_sqrt (by positivity)]; field_simp
  have hgt : Tc ≤ T ↔ 1 ≤ Real.sqrt (T / Tc) := by
    rw [Real.le_sqrt' one_pos, one_pow, le_div_iff₀ hTc, one_mul]
  rw [← not_le (a := Tc), hgt]
  simp only [AlphaFn.eval]
  generalize Real.sqrt (T / Tc) = t at ht hs
  rw [hs, mul_lt_mul_iff_left₀ hTc, mul_le_mul_iff_left₀ hTc, sq_lt_sq, sq_le_sq, abs_of_pos ht]
  refine ⟨fun h => ?_, fun h1 h => ?_⟩
  · push Not at h
    exact lt_of_lt_of_le (by nlinarith) (le_abs_self _)
  · rw [abs_le]
    constructor <;> nlinarith

theorem srk_unstable_iff (c : Cubic ι) (x : ι → ℝ) (T : ℝ) (hR : 0 < c.R) (hT : 0 < T) (hb : 0 < c.get_b x) (h1 : c.Delta1 = 1) (h2 : c.Delta2 = 0) :
    (∃ s, 0 < s ∧ c.get_b x * s < 1 ∧ deriv (totalPressure (fun T r => c.alphar T r x) c.R T) s < 0) ↔ c.get_b x * (c.R * T) < 3 * srkU ^ 2 * c.get_a T x := by
  obtain ⟨hu0, hu1, hu3⟩ := srkU_facts
  have C := cubic_iso c x T hR hT hb (by rw [h1, h2]; norm_num) (by rw [h1]; norm_num) (by rw [h2]; norm_num)
  rw [h1, h2] at C
  have hfac (u : ℝ) : 3 * srkU ^ 2 * (1 + u) ^ 2 - (2 * u + u ^ 2) * (1 - u) ^ 2 = (u - srkU) ^ 2 * (3 - u ^ 2 - 2 * srkU * u) := by
    linear_combination (2 * u) * hu3
  have hbR : 0 < c.get_b x * (c.R * T) := by positivity
  constructor
  · rintro ⟨s, hs, hd, h⟩
    rw [C.slope_neg hs hd] at h
    have hu : 0 < c.get_b x * s := mul_pos hb hs
    generalize c.get_b x * s = u at hu hd h
    have hq : 0 ≤ (u - srkU) ^ 2 * (3 - u ^ 2 - 2 * srkU * u) := mul_nonneg (sq_nonneg _) (by nlinarith)
    have hf := hfac u
    have hle : (2 * u + u ^ 2) * (1 - u) ^ 2 ≤ 3 * srkU ^ 2 * (1 + u) ^ 2 := by linarith
    have hw : 0 < (2 * u + u ^ 2) * (1 - u) ^ 2 := mul_pos (by positivity) (pow_pos (by linarith) 2)
    have e1 : c.get_b x * (c.R * T) * (1 + (1 + 0) * u + 1 * 0 * u ^ 2) ^ 2 = c.get_b x * (c.R * T) * (1 + u) ^ 2 := by ring
    have e2 : (2 * u + (1 + 0) * u ^ 2) * (1 - u) ^ 2 = (2 * u + u ^ 2) * (1 - u) ^ 2 := by ring
    rw [e1, e2] at h
    have hsq : 0 < (1 + u) ^ 2 := by positivity
    have ha : 0 < c.get_a T x := pos_of_mul_pos_left ((mul_pos hbR hsq).trans h) hw.le
    refine lt_of_mul_lt_mul_right (a := (1 + u) ^ 2) (h.trans_le ?_) hsq.le
    have := mul_le_mul_of_nonneg_left hle ha.le
    linarith
  · intro h
    have hbu : c.get_b x * (srkU / c.get_b x) = srkU := mul_div_cancel₀ _ hb.ne'
    refine ⟨srkU / c.get_b x, by positivity, by rw [hbu]; exact hu1, ?_⟩
    rw [C.slope_neg (by positivity) (by rw [hbu]; exact hu1), hbu]
    have hf := hfac srkU
    have := mul_lt_mul_of_pos_right h (show 0 < (1 + srkU) ^ 2 by positivity)
    have e : c.get_a T x * ((2 * srkU + (1 + 0) * srkU ^ 2) * (1 - srkU) ^ 2) = 3 * srkU ^ 2 * c.get_a T x * (1 + srkU) ^ 2 := by
      linear_combination -c.get_a T x * hf
    rw [e]
    refine lt_of_eq_of_lt ?_ this
    ring

theorem pr_unstable_at (c : Cubic ι) (x : ι → ℝ) (T : ℝ) (hR : 0 < c.R) (hT : 0 < T) (hb : 0 < c.get_b x) (h1 : c.Delta1 = 1 + Real.sqrt 2) (h2 : c.Delta2 = 1 - Real.sqrt 2)
    (h : (1 + 1e-18) * (OmegaA_PR * (c.get_b x * (c.R * T))) < OmegaB_PR * c.get_a T x) :
    ∃ s, 0 < s ∧ c.get_b x * s < 1 ∧ deriv (totalPressure (fun T r => c.alphar T r x) c.R T) s < 0 := by
  obtain ⟨hD, hD1, hD2, hs, hp⟩ := prDeltas h1 h2
  have C := cubic_iso c x T hR hT hb hD hD1 hD2
  rw [hs, hp] at C
  have hu0 : 0 < prU := by unfold prU; norm_num
  have hu1 : prU < 1 := by unfold prU; norm_num
  have hbu : c.get_b x * (prU / c.get_b x) = prU := mul_div_cancel₀ _ hb.ne'
  refine ⟨prU / c.get_b x, by positivity, by rw [hbu]; exact hu1, ?_⟩
  rw [C.slope_neg (by positivity) (by rw [hbu]; exact hu1), hbu]
  have hpt := pr_point
  have hw : 0 < (2 * prU + 2 * prU ^ 2) * (1 - prU) ^ 2 := mul_pos (by positivity) (pow_pos (by linarith) 2)
  have hbR : 0 < c.get_b x * (c.R * T) := by positivity
  have hB : 0 < OmegaB_PR := by unfold OmegaB_PR; norm_num
  refine lt_of_mul_lt_mul_left (a := OmegaB_PR) ?_ hB.le
  calc OmegaB_PR * (c.get_b x * (c.R * T) * (1 + 2 * prU + -1 * prU ^ 2) ^ 2) = c.get_b x * (c.R * T) * (OmegaB_PR * (1 + 2 * prU - prU ^ 2) ^ 2) := by ring
    _ ≤ c.get_b x * (c.R * T) * ((1 + 1e-18) * OmegaA_PR * ((2 * prU + 2 * prU ^ 2) * (1 - prU) ^ 2)) := mul_le_mul_of_nonneg_left hpt hbR.le
    _ = (1 + 1e-18) * (OmegaA_PR * (c.get_b x * (c.R * T))) * ((2 * prU + 2 * prU ^ 2) * (1 - prU) ^ 2) := by ring
    _ < OmegaB_PR * c.get_a T x * ((2 * prU + 2 * prU ^ 2) * (1 - prU) ^ 2) := mul_lt_mul_of_pos_right h hw
    _ = _ := by ring

/-! ## Pure fluids -/

section pure
variable [DecidableEq ι]

theorem srk_pure_loop (Tc pc ω : ι → ℝ) (k : ι → ι → ℝ) (R T : ℝ) (i : ι) (hR : 0 < R) (hT : 0 < T) (hTc : 0 < Tc i) (hp : 0 < pc i) (hk : k i i = 0) :
    0 < OmegaB_SRK * R * Tc i / pc i ∧
    Loop (fun T r => (canonicalSRK Tc pc ω k R).alphar T r (Pi.single i 1)) R T (1 / (OmegaB_SRK * R * Tc i / pc i)) ∧
      ((∃ s, 0 < s ∧ OmegaB_SRK * R * Tc i / pc i * s < 1 ∧ deriv (totalPressure (fun T r => (canonicalSRK Tc pc ω k R).alphar T r (Pi.single i 1)) R T) s < 0) ↔
        T < (AlphaFn.basic (Tc i) (mSRK (ω i))).eval T * Tc i) := by
  obtain ⟨hu0, hu1, hu3⟩ := srkU_facts
  have hB : OmegaB_SRK = srkU / 3 := rfl
  have hA : OmegaA_SRK = 1 / (9 * srkU) := rfl
  have hb : (canonicalSRK Tc pc ω k R).get_b (Pi.single i 1) = OmegaB_SRK * R * Tc i / pc i := cubic_b_single _ i
  have hbp : 0 < OmegaB_SRK * R * Tc i / pc i := by rw [hB]; positivity
  have ha : (canonicalSRK Tc pc ω k R).get_a T (Pi.single i 1) = OmegaA_SRK * (R * Tc i) ^ 2 / pc i * (AlphaFn.basic (Tc i) (mSRK (ω i))).eval T :=
    cubic_pure_a Tc pc 1 0 OmegaA_SRK OmegaB_SRK R (fun i => .basic (Tc i) (mSRK (ω i))) k i T (by rw [hA]; positivity) hp hT.le hTc.le hk
  have hbp' := hbp
  rw [← hb] at hbp'
  have L := cubic_loop (canonicalSRK Tc pc ω k R) (Pi.single i 1) T hR hT hbp' (by norm_num [canonicalSRK, Cubic.build])
    (by norm_num [canonicalSRK, Cubic.build]) (by norm_num [canonicalSRK, Cubic.build]) (by norm_num [canonicalSRK, Cubic.build]) (by norm_num [canonicalSRK, Cubic.build])
  have U := srk_unstable_iff (canonicalSRK Tc pc ω k R) (Pi.single i 1) T hR hT hbp' rfl rfl
  have hRe : (canonicalSRK Tc pc ω k R).R = R := rfl
  rw [hb, hRe] at L U
  refine ⟨hbp, L, U.trans ?_⟩
  rw [ha, hA, hB]
  have hf : 0 < srkU / 3 * R * R * Tc i / pc i := by positivity
  have e1 : 3 * srkU ^ 2 * (1 / (9 * srkU) * (R * Tc i) ^ 2 / pc i * (AlphaFn.basic (Tc i) (mSRK (ω i))).eval T)
      = srkU / 3 * R * R * Tc i / pc i * ((AlphaFn.basic (Tc i) (mSRK (ω i))).eval T * Tc i) := by field_simp; ring
  have e2 : srkU / 3 * R * Tc i / pc i * (R * T) = srkU / 3 * R * R * Tc i / pc i * T := by ring
  rw [e1, e2, mul_lt_mul_iff_right₀ hf]

/-- **Pure Soave-Redlich-Kwong fluids have exactly one saturation state** at every temperature below the critical one. -/
theorem srk_pure_saturation (Tc pc ω : ι → ℝ) (k : ι → ι → ℝ) (R T : ℝ) (i : ι) (hR : 0 < R) (hT : 0 < T) (hTc : 0 < Tc i) (hp : 0 < pc i) (hk : k i i = 0)
    (h0 : -1 < mSRK (ω i)) (h : T < Tc i) :
    ∃! p, SatZero (fun T r => (canonicalSRK Tc pc ω k R).alphar T r (Pi.single i 1)) R T (OmegaB_SRK * R * Tc i / pc i) p := by
  obtain ⟨hb, L, U⟩ := srk_pure_loop Tc pc ω k R T i hR hT hTc hp hk
  exact loop_saturation L hR hT hb (U.2 ((soave_above hTc hT h0).1 h))

/-- **and none** from the critical temperature upwards. -/
theorem srk_pure_supercritical (Tc pc ω : ι → ℝ) (k : ι → ι → ℝ) (R T : ℝ) (i : ι) (hR : 0 < R) (hT : 0 < T) (hTc : 0 < Tc i) (hp : 0 < pc i) (hk : k i i = 0)
    (h0 : -1 < mSRK (ω i)) (h1 : mSRK (ω i) ≤ 1) (h : Tc i ≤ T) (p : ℝ × ℝ) :
    ¬ SatZero (fun T r => (canonicalSRK Tc pc ω k R).alphar T r (Pi.single i 1)) R T (OmegaB_SRK * R * Tc i / pc i) p := by
  obtain ⟨hb, L, U⟩ := srk_pure_loop Tc pc ω k R T i hR hT hTc hp hk
  refine loop_none L hR hT hb (fun s hs hd => ?_) p
  by_contra hc
  push Not at hc
  exact absurd (U.1 ⟨s, hs, hd, hc⟩) (not_lt.2 ((soave_above hTc hT h0).2 h1 h))

/-- The state of any zero of the residual. -/
theorem srk_pure_state (Tc pc ω : ι → ℝ) (k : ι → ι → ℝ) (R T : ℝ) (i : ι) (hR : 0 < R) (hT : 0 < T) (hTc : 0 < Tc i) (hp : 0 < pc i) (hk : k i i = 0) (c : ℝ → ℝ)
    {p : ℝ × ℝ} (h : SatZero (fun T r => (canonicalSRK Tc pc ω k R).alphar T r (Pi.single i 1)) R T (OmegaB_SRK * R * Tc i / pc i) p) :
    Coexist (fun T r => (canonicalSRK Tc pc ω k R).alphar T r (Pi.single i 1)) c R T p.2 p.1 ∧
      0 < totalPressure (fun T r => (canonicalSRK Tc pc ω k R).alphar T r (Pi.single i 1)) R T p.1 ∧
      TangentStable (fun T r => (canonicalSRK Tc pc ω k R).alphar T r (Pi.single i 1)) c R T (OmegaB_SRK * R * Tc i / pc i) p.1 ∧
      TangentStable (fun T r => (canonicalSRK Tc pc ω k R).alphar T r (Pi.single i 1)) c R T (OmegaB_SRK * R * Tc i / pc i) p.2 := by
  obtain ⟨hb, L, -⟩ := srk_pure_loop Tc pc ω k R T i hR hT hTc hp hk
  obtain ⟨h1, h2, h3, h4, -⟩ := loop_state L c hR hT hb h
  exact ⟨h1, h2, h3, h4⟩

/-- n-Decane at 300 K, although its isotherms are unstable again at extreme temperatures; and methane, which has none at 300 K. -/
example : (∃! p, SatZero (fun T r => (canonicalSRK (ι := Fin 1) ![617.7] ![2.103e6] ![0.488] (fun _ _ => 0) 8.314).alphar T r (Pi.single 0 1)) 8.314 300
      (OmegaB_SRK * 8.314 * 617.7 / 2.103e6) p) ∧
    ¬ SatZero (fun T r => (canonicalSRK (ι := Fin 2) ![190.5, 305.3] ![4.6e6, 4.87e6] ![0.011, 0.099] (fun _ _ => 0) 8.314).alphar T r (Pi.single 0 1)) 8.314 300
      (OmegaB_SRK * 8.314 * 190.5 / 4.6e6) (100, 9000) :=
  ⟨srk_pure_saturation (ι := Fin 1) ![617.7] ![2.103e6] ![0.488] (fun _ _ => 0) 8.314 300 0 (by norm_num) (by norm_num) (by norm_num) (by norm_num) rfl
    (by norm_num [mSRK]) (by norm_num),
   srk_pure_supercritical (ι := Fin 2) ![190.5, 305.3] ![4.6e6, 4.87e6] ![0.011, 0.099] (fun _ _ => 0) 8.314 300 0 (by norm_num) (by norm_num) (by norm_num) (by norm_num) rfl
    (by norm_num [mSRK]) (by norm_num [mSRK]) (by norm_num) _⟩

theorem pr_pure_loop (Tc pc ω : ι → ℝ) (k : ι → ι → ℝ) (R T : ℝ) (i : ι) (hR : 0 < R) (hT : 0 < T) (hTc : 0 < Tc i) (hp : 0 < pc i) :
    0 < OmegaB_PR * R * Tc i / pc i ∧ Loop (fun T r => (prModel Tc pc ω k R).alphar T r (Pi.single i 1)) R T (1 / (OmegaB_PR * R * Tc i / pc i)) := by
  have hB : 0 < OmegaB_PR := by unfold OmegaB_PR; norm_num
  have hbp : 0 < OmegaB_PR * R * Tc i / pc i := by positivity
  have hb : (prModel Tc pc ω k R).get_b (Pi.single i 1) = OmegaB_PR * R * Tc i / pc i := cubic_b_single _ i
  obtain ⟨hD, hD1, hD2, hs, hm⟩ := prDeltas (c := prModel Tc pc ω k R) rfl rfl
  have L := cubic_loop (prModel Tc pc ω k R) (Pi.single i 1) T hR hT (by rw [hb]; exact hbp) hD hD1 hD2 (by rw [hs, hm]; norm_num) (by rw [hs, hm]; norm_num)
  have hRe : (prModel Tc pc ω k R).R = R := rfl
  rw [hb, hRe] at L
  exact ⟨hbp, L⟩

/-- **Pure Peng-Robinson fluids have exactly one saturation state** below the critical temperature, by one part in 10^18 because of the rounded constants. -/
theorem pr_pure_saturation (Tc pc ω : ι → ℝ) (k : ι → ι → ℝ) (R T : ℝ) (i : ι) (hR : 0 < R) (hT : 0 < T) (hTc : 0 < Tc i) (hp : 0 < pc i) (hk : k i i = 0)
    (h0 : 0 ≤ mPR (ω i)) (h : (1 + 1e-18) * T < Tc i) :
    ∃! p, SatZero (fun T r => (prModel Tc pc ω k R).alphar T r (Pi.single i 1)) R T (OmegaB_PR * R * Tc i / pc i) p := by
  obtain ⟨hbp, L⟩ := pr_pure_loop Tc pc ω k R T i hR hT hTc hp
  obtain ⟨hb, ha⟩ := pr_pure_sizes Tc pc ω k R T i hT hTc hp hk
  have hA : 0 < OmegaA_PR := by unfold OmegaA_PR; norm_num
  have U := pr_unstable_at (prModel Tc pc ω k R) (Pi.single i 1) T hR hT (by rw [hb]; exact hbp) rfl rfl
  have hRe : (prModel Tc pc ω k R).R = R := rfl
  rw [ha, hb, hRe] at U
  refine loop_saturation L hR hT hbp (U ?_)
  have hle : T ≤ Tc i := by nlinarith
  have hα : 1 ≤ (AlphaFn.basic (Tc i) (mPR (ω i))).eval T := by
    simp only [AlphaFn.eval]
    have : Real.sqrt (T / Tc i) ≤ 1 := Real.sqrt_le_iff.2 ⟨zero_le_one, by rw [one_pow, div_le_one hTc]; exact hle⟩
    have h3 : 1 ≤ 1 + mPR (ω i) * (1 - Real.sqrt (T / Tc i)) := by nlinarith
    exact one_le_pow₀ h3
  have h4 : (1 + 1e-18) * T < (AlphaFn.basic (Tc i) (mPR (ω i))).eval T * Tc i := by nlinarith
  have := mul_lt_mul_of_pos_left h4 (show 0 < OmegaA_PR * (OmegaB_PR * R * Tc i / pc i) * R by positivity)
  refine lt_of_eq_of_lt ?_ this
  ring

/-- **and none** from the critical temperature upwards. -/
theorem pr_pure_supercritical (Tc pc ω : ι → ℝ) (k : ι → ι → ℝ) (R T : ℝ) (i : ι) (hR : 0 < R) (hT : 0 < T) (hTc : 0 < Tc i) (hp : 0 < pc i) (hk : k i i = 0)
    (h0 : -1 < mPR (ω i)) (h1 : mPR (ω i) ≤ 1) (h : Tc i ≤ T) (p : ℝ × ℝ) :
    ¬ SatZero (fun T r => (prModel Tc pc ω k R).alphar T r (Pi.single i 1)) R T (OmegaB_PR * R * Tc i / pc i) p := by
  obtain ⟨hbp, L⟩ := pr_pure_loop Tc pc ω k R T i hR hT hTc hp
  obtain ⟨hb, ha⟩ := pr_pure_sizes Tc pc ω k R T i hT hTc hp hk
  have hA : 0 < OmegaA_PR := by unfold OmegaA_PR; norm_num
  have S : MechStable (fun T r => (prModel Tc pc ω k R).alphar T r (Pi.single i 1)) R T ((prModel Tc pc ω k R).get_b (Pi.single i 1)) := by
    refine pr_stable (prModel Tc pc ω k R) (Pi.single i 1) T hR hT (by rw [hb]; exact hbp) rfl rfl ?_
    rw [ha, hb]
    have hRe : (prModel Tc pc ω k R).R = R := rfl
    rw [hRe]
    have := mul_le_mul_of_nonneg_left ((soave_above hTc hT h0).2 h1 h) (show 0 ≤ OmegaA_PR * (OmegaB_PR * R * Tc i / pc i) * R by positivity)
    refine this.trans_eq ?_
    ring
  rw [hb] at S
  exact loop_none L hR hT hbp (fun s hs hd => (S s hs hd).le) p

example : (∃! p, SatZero (fun T r => (prModel (ι := Fin 2) ![190.5, 305.3] ![4.6e6, 4.87e6] ![0.011, 0.099] (fun _ _ => 0) 8.314).alphar T r (Pi.single 1 1)) 8.314 300
      (OmegaB_PR * 8.314 * 305.3 / 4.87e6) p) ∧
    ¬ SatZero (fun T r => (prModel (ι := Fin 2) ![190.5, 305.3] ![4.6e6, 4.87e6] ![0.011, 0.099] (fun _ _ => 0) 8.314).alphar T r (Pi.single 0 1)) 8.314 190.5
      (OmegaB_PR * 8.314 * 190.5 / 4.6e6) (9000, 11000) :=
  ⟨pr_pure_saturation (ι := Fin 2) ![190.5, 305.3] ![4.6e6, 4.87e6] ![0.011, 0.099] (fun _ _ => 0) 8.314 300 1 (by norm_num) (by norm_num) (by norm_num) (by norm_num) rfl
    (by norm_num [mPR]) (by norm_num),
   pr_pure_supercritical (ι := Fin 2) ![190.5, 305.3] ![4.6e6, 4.87e6] ![0.011, 0.099] (fun _ _ => 0) 8.314 190.5 0 (by norm_num) (by norm_num) (by norm_num) (by norm_num) rfl
    (by norm_num [mPR]) (by norm_num [mPR]) (by norm_num) _⟩

/-- **Pure van der Waals fluids**: one saturation state below the critical temperature, none from there upwards. -/
theorem vdw_pure_saturation (Tc pc : ι → ℝ) (i : ι) (T : ℝ) (hT : 0 < T) (hTc : 0 < Tc i) (hp : 0 < pc i) :
    (T < Tc i → ∃! p, SatZero (fun T r => (VdWMix.ofCritical Tc pc).alphar T r (Pi.single i 1)) RuvdW T ((VdWMix.ofCritical Tc pc).bi i) p) ∧
      (Tc i ≤ T → ∀ p, ¬ SatZero (fun T r => (VdWMix.ofCritical Tc pc).alphar T r (Pi.single i 1)) RuvdW T ((VdWMix.ofCritical Tc pc).bi i) p) := by
  have hR := RuvdW_pos
  have hb : (VdWMix.ofCritical Tc pc).bi i = 1 / 8 * RuvdW * Tc i / pc i := rfl
  have hbp : 0 < (VdWMix.ofCritical Tc pc).bi i := by rw [hb]; positivity
  have ha : (VdWMix.ofCritical Tc pc).a (Pi.single i 1) = 27 / 64 * (RuvdW * Tc i) ^ 2 / pc i := by
    rw [vdWMix_a_single, Real.sqrt_mul_self]
    · simp [VdWMix.ofCritical]
    · simp only [VdWMix.ofCritical]; positivity
  obtain ⟨L, C⟩ := vdw_loop (VdWMix.ofCritical Tc pc) (Pi.single i 1) T hT (by rw [vdWMix_b_single]; exact hbp)
  rw [vdWMix_b_single] at L C
  rw [ha] at C
  set b := (VdWMix.ofCritical Tc pc).bi i
  have hk : 27 / 64 * (RuvdW * Tc i) ^ 2 / pc i = 27 / 8 * (b * (RuvdW * Tc i)) := by rw [hb]; ring
  rw [hk] at C
  refine ⟨fun h => loop_saturation L hR hT hbp ⟨1 / (3 * b), by positivity, ?_, ?_⟩, fun h => loop_none L hR hT hbp fun s hs hd => ?_⟩
  · have hbu : b * (1 / (3 * b)) = 1 / 3 := by field_simp
    rw [hbu]; norm_num
  · have hbu : b * (1 / (3 * b)) = 1 / 3 := by field_simp
    rw [C.slope_neg (by positivity) (by rw [hbu]; norm_num), hbu]
    have := mul_lt_mul_of_pos_left h (mul_pos hbp hR)
    norm_num
    nlinarith
  · by_contra hc
    push Not at hc
    rw [C.slope_neg hs hd] at hc
    have hu : 0 < b * s := mul_pos hbp hs
    generalize b * s = u at hu hd hc
    have hf : 8 - 27 * (2 * u * (1 - u) ^ 2) = 2 * (1 - 3 * u) ^ 2 * (4 - 3 * u) := by ring
    have hq : 0 ≤ 2 * (1 - 3 * u) ^ 2 * (4 - 3 * u) := mul_nonneg (by positivity) (by linarith)
    have hbR : 0 < b * (RuvdW * Tc i) := by positivity
    have s1 := mul_le_mul_of_nonneg_left (show 27 * (2 * u * (1 - u) ^ 2) ≤ 8 by linarith) hbR.le
    have s2 := mul_le_mul_of_nonneg_left h (mul_pos hbp hR).le
    nlinarith

example : (∃! p, SatZero (fun T r => (VdWMix.ofCritical (ι := Fin 2) ![150, 300] ![4e6, 5e6]).alphar T r (Pi.single 1 1)) RuvdW 200
      ((VdWMix.ofCritical (ι := Fin 2) ![150, 300] ![4e6, 5e6]).bi 1) p) ∧
    ∀ p, ¬ SatZero (fun T r => (VdWMix.ofCritical (ι := Fin 2) ![150, 300] ![4e6, 5e6]).alphar T r (Pi.single 0 1)) RuvdW 200
      ((VdWMix.ofCritical (ι := Fin 2) ![150, 300] ![4e6, 5e6]).bi 0) p :=
  ⟨(vdw_pure_saturation (ι := Fin 2) ![150, 300] ![4e6, 5e6] 1 200 (by norm_num) (by norm_num) (by norm_num)).1 (by norm_num),
   (vdw_pure_saturation (ι := Fin 2) ![150, 300] ![4e6, 5e6] 0 200 (by norm_num) (by norm_num) (by norm_num)).2 (by norm_num)⟩

/-- A saturation state of ethane: its phases are globally stable and have a positive pressure. -/
example : ∃ p : ℝ × ℝ, 0 < totalPressure (fun T r => (canonicalSRK (ι := Fin 2) ![190.5, 305.3] ![4.6e6, 4.87e6] ![0.011, 0.099] (fun _ _ => 0) 8.314).alphar T r (Pi.single 1 1)) 8.314 200 p.1 := by
  obtain ⟨p, hp, -⟩ := srk_pure_saturation (ι := Fin 2) ![190.5, 305.3] ![4.6e6, 4.87e6] ![0.011, 0.099] (fun _ _ => 0) 8.314 200 1 (by norm_num) (by norm_num) (by norm_num)
    (by norm_num) rfl (by norm_num [mSRK]) (by norm_num)
  exact ⟨p, (srk_pure_state (ι := Fin 2) ![190.5, 305.3] ![4.6e6, 4.87e6] ![0.011, 0.099] (fun _ _ => 0) 8.314 200 1 (by norm_num) (by norm_num) (by norm_num)
    (by norm_num) rfl (fun _ => 0) hp).2.1⟩

end pure

end Teqp.Props
